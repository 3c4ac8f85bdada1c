import Verif.Model.Reactivity
import Verif.Spec.Reactivity
import Verif.Lemmas.MapM
import Verif.Lemmas.Interp
import Verif.Lemmas.Trapezoid
/-
C51-C53: reactivities.
-/

set_option autoImplicit false
set_option linter.unusedSectionVars false

namespace TNS
open Spec

/-! ## C52 -/

theorem entry_nonpos (b : BoschHale) (t : ℝ) (ht : t ≤ 0) : b.entry t = .ok 0 := by
  unfold BoschHale.entry; rw [if_neg (not_lt.2 ht)]

theorem entry_pos (b : BoschHale) (t : ℝ) (ht : 0 < t) (hd : 0 < b.den t)
    (hn : b.num t < b.den t) :
    b.entry t = .ok (boschHale b.bg b.mrc2 b.c0 b.c1 b.c2 b.c3 b.c4 b.c5 b.c6 t) := by
  unfold BoschHale.entry
  have h1 : b.num t / b.den t < 1 := by rw [div_lt_one hd]; exact hn
  rw [if_pos ht]
  simp only
  rw [if_neg (by
    rintro (h | h)
    · exact hd.ne' h
    · linarith)]
  unfold boschHale
  have en : b.num t = b.c1 * t + b.c3 * t ^ 2 + b.c5 * t ^ 3 := by unfold BoschHale.num; ring
  have ed : b.den t = 1 + b.c2 * t + b.c4 * t ^ 2 + b.c6 * t ^ 3 := by unfold BoschHale.den; ring
  simp only
  rw [en, ed]
  congr 1
  norm_num
  ring

theorem boschHale_pos (BG M C1 C2 C3 C4 C5 C6 C7 t : ℝ) (ht : 0 < t) (hB : BG ≠ 0) (hM : 0 < M)
    (hC : 0 < C1) (hd : 0 < 1 + C3 * t + C5 * t ^ 2 + C7 * t ^ 3)
    (hn : C2 * t + C4 * t ^ 2 + C6 * t ^ 3 < 1 + C3 * t + C5 * t ^ 2 + C7 * t ^ 3) :
    0 < boschHale BG M C1 C2 C3 C4 C5 C6 C7 t := by
  unfold boschHale
  simp only
  have h1 := (div_lt_one hd).2 hn
  have hth : 0 < t / (1 - (C2 * t + C4 * t ^ 2 + C6 * t ^ 3) /
      (1 + C3 * t + C5 * t ^ 2 + C7 * t ^ 3)) := div_pos ht (by linarith)
  have hchi := Real.rpow_pos_of_pos (div_pos (by positivity : 0 < BG ^ 2)
    (mul_pos (by norm_num : (0 : ℝ) < 4) hth)) ((1 : ℝ) / 3)
  have hs := Real.sqrt_pos.2 (div_pos hchi (by positivity : 0 < M * t ^ 3))
  have he := Real.exp_pos (-3 * (BG ^ 2 / (4 * (t / (1 - (C2 * t + C4 * t ^ 2 + C6 * t ^ 3) /
      (1 + C3 * t + C5 * t ^ 2 + C7 * t ^ 3))))) ^ ((1 : ℝ) / 3))
  exact div_pos (mul_pos (mul_pos (mul_pos hC hth) hs) he) (by norm_num)

/-- **C52**: at non-positive temperatures every Bosch-Hale reactivity is exactly 0. -/
theorem C52_nonpositive (r : Reaction) (b : BoschHale) (hb : r.boschHale = some b) (t : ℝ)
    (ht : t ≤ 0) : b.entry t = .ok 0 := entry_nonpos b t ht

/-- **C52**, D-T: at every positive temperature the value is the published formula, and positive. -/
theorem C52_DT (t : ℝ) (ht : 0 < t) :
    reactivityBoschHale [t] .DT = .ok [Spec.boschHaleDT t] ∧ 0 < Spec.boschHaleDT t := by
  have hd : 0 < boschHaleDT.den t := by
    unfold BoschHale.den boschHaleDT; simp only; positivity
  have hn : boschHaleDT.num t < boschHaleDT.den t := by
    have : 0 < 1 + t * ((7.51886e-2 - 1.51361e-2) + t * ((1.35e-2 - 4.60643e-3) +
      t * (1.366e-5 + 1.0675e-4))) := by norm_num; positivity
    unfold BoschHale.num BoschHale.den boschHaleDT; simp only
    linarith
  have e := entry_pos _ t ht hd hn
  have e2 : boschHale boschHaleDT.bg boschHaleDT.mrc2 boschHaleDT.c0 boschHaleDT.c1 boschHaleDT.c2
      boschHaleDT.c3 boschHaleDT.c4 boschHaleDT.c5 boschHaleDT.c6 t = Spec.boschHaleDT t := by
    unfold Spec.boschHaleDT TNS.boschHaleDT; norm_num
  rw [e2] at e
  refine ⟨?_, ?_⟩
  · simp [reactivityBoschHale, Reaction.boschHale, BoschHale.channel, e, List.mapM_cons, Bind.bind,
      Except.bind, pure, Except.pure]
  · rw [← e2]
    unfold BoschHale.den at hd
    unfold BoschHale.num BoschHale.den at hn
    refine boschHale_pos _ _ _ _ _ _ _ _ _ t ht ?_ ?_ ?_ (by linarith) (by linarith) <;>
      norm_num [TNS.boschHaleDT]

/-- **C52**, D-D proton branch: at every positive temperature the published formula, positive. -/
theorem C52_DDp (t : ℝ) (ht : 0 < t) :
    reactivityBoschHale [t] .DDp = .ok [Spec.boschHaleDDp t] ∧ 0 < Spec.boschHaleDDp t := by
  have hd : 0 < boschHaleDDp.den t := by
    unfold BoschHale.den boschHaleDDp; simp only; norm_num; positivity
  have hn : boschHaleDDp.num t < boschHaleDDp.den t := by
    have h := sq_nonneg (t - 67.6)
    unfold BoschHale.num BoschHale.den boschHaleDDp; simp only; norm_num at h ⊢
    nlinarith
  have e := entry_pos _ t ht hd hn
  have e2 : boschHale boschHaleDDp.bg boschHaleDDp.mrc2 boschHaleDDp.c0 boschHaleDDp.c1
      boschHaleDDp.c2 boschHaleDDp.c3 boschHaleDDp.c4 boschHaleDDp.c5 boschHaleDDp.c6 t =
      Spec.boschHaleDDp t := by
    unfold Spec.boschHaleDDp TNS.boschHaleDDp; norm_num
  rw [e2] at e
  refine ⟨?_, ?_⟩
  · simp [reactivityBoschHale, Reaction.boschHale, BoschHale.channel, e, List.mapM_cons, Bind.bind,
      Except.bind, pure, Except.pure]
  · rw [← e2]
    unfold BoschHale.den at hd
    unfold BoschHale.num BoschHale.den at hn
    refine boschHale_pos _ _ _ _ _ _ _ _ _ t ht ?_ ?_ ?_ (by linarith) (by linarith) <;>
      norm_num [TNS.boschHaleDDp]

/-- **C52**, D-D neutron branch: up to 960 keV the published formula, positive. -/
theorem C52_DDn (t : ℝ) (ht : 0 < t) (h960 : t ≤ 960) :
    reactivityBoschHale [t] .DDn = .ok [Spec.boschHaleDDn t] ∧ 0 < Spec.boschHaleDDn t := by
  have hd : 0 < boschHaleDDn.den t := by
    unfold BoschHale.den boschHaleDDn; simp only; norm_num; nlinarith
  have hn : boschHaleDDn.num t < boschHaleDDn.den t := by
    unfold BoschHale.num BoschHale.den boschHaleDDn; simp only; norm_num
    nlinarith
  have e := entry_pos _ t ht hd hn
  have e2 : boschHale boschHaleDDn.bg boschHaleDDn.mrc2 boschHaleDDn.c0 boschHaleDDn.c1
      boschHaleDDn.c2 boschHaleDDn.c3 boschHaleDDn.c4 boschHaleDDn.c5 boschHaleDDn.c6 t =
      Spec.boschHaleDDn t := by
    unfold Spec.boschHaleDDn TNS.boschHaleDDn; norm_num
  rw [e2] at e
  refine ⟨?_, ?_⟩
  · simp [reactivityBoschHale, Reaction.boschHale, BoschHale.channel, e, List.mapM_cons, Bind.bind,
      Except.bind, pure, Except.pure]
  · rw [← e2]
    unfold BoschHale.den at hd
    unfold BoschHale.num BoschHale.den at hn
    refine boschHale_pos _ _ _ _ _ _ _ _ _ t ht ?_ ?_ ?_ (by linarith) (by linarith) <;>
      norm_num [TNS.boschHaleDDn]

/-- **C52**: the bound is nearly sharp; from 966 keV to 2700 keV the D-D neutron branch has no real
value (the code returns `nan`). -/
theorem C52_DDn_undefined (t : ℝ) (h1 : 966 ≤ t) (h2 : t ≤ 2700) :
    reactivityBoschHale [t] .DDn = .error .nonFinite := by
  have hd : 0 < boschHaleDDn.den t := by
    unfold BoschHale.den boschHaleDDn; simp only; norm_num; nlinarith
  have hn : boschHaleDDn.den t ≤ boschHaleDDn.num t := by
    unfold BoschHale.num BoschHale.den boschHaleDDn; simp only; norm_num
    nlinarith
  have e : boschHaleDDn.entry t = .error .nonFinite := by
    unfold BoschHale.entry
    rw [if_pos (by linarith)]
    simp only
    rw [if_pos]
    right
    have := (one_le_div hd).2 hn
    linarith
  simp [reactivityBoschHale, Reaction.boschHale, BoschHale.channel, e, List.mapM_cons, Bind.bind,
      Except.bind]

example : reactivityBoschHale [10] .DT = .ok [Spec.boschHaleDT 10] := (C52_DT 10 (by norm_num)).1
example : reactivityBoschHale [100] .DDn = .ok [Spec.boschHaleDDn 100] :=
  (C52_DDn 100 (by norm_num) (by norm_num)).1

/-! ## C53 -/

/-- Strictly increasing energies, decided on the integers. -/
def incrB : List (Nat × Nat) → Bool
  | [] => true
  | [_] => true
  | p :: q :: l => decide (p.1 < q.1) && incrB (q :: l)

theorem incrB_sorted (l : List (Nat × Nat)) (h : incrB l = true) :
    l.Pairwise (fun p q => p.1 < q.1) := by
  have : List.IsChain (fun p q : Nat × Nat => p.1 < q.1) l := by
    induction l with
    | nil => exact .nil
    | cons p l ih =>
      cases l with
      | nil => exact .singleton p
      | cons q l =>
        simp only [incrB, Bool.and_eq_true, decide_eq_true_eq] at h
        exact List.isChain_cons_cons.2 ⟨h.1, ih h.2⟩
  exact (List.isChain_iff_pairwise (R := fun p q : Nat × Nat => p.1 < q.1)).1 this

/-- What is checked of a data file: increasing energies starting below 1 keV and, with the last row
dropped, ending above 6 MeV; positive cross sections after the first row. -/
def rowsOk (rows : List (Nat × Nat)) : Bool :=
  incrB rows && (match rows.dropLast with
    | [] => false
    | p :: l => decide (p.1 < 10 ^ 9) && l.all (fun q => decide (0 < q.2)) &&
      (match (p :: l).getLast? with
        | some q => decide (6 * 10 ^ 12 ≤ q.1)
        | none => false))

set_option maxRecDepth 100000 in
theorem rowsOk_all : rowsOk Data.dtRows = true ∧ rowsOk Data.ddnRows = true ∧
    rowsOk Data.ddpRows = true ∧ rowsOk Data.ttRows = true ∧ rowsOk Data.dhe3Rows = true := by
  decide +kernel

theorem npInterp_pos (p : ℝ × ℝ) (l : List (ℝ × ℝ)) (hs : SortedTable (p :: l)) (hl : l ≠ [])
    (hp : 0 ≤ p.2) (hpos : ∀ q ∈ l, 0 < q.2) (x : ℝ) (hx : p.1 < x) :
    0 < npInterp (p :: l) x := by
  induction l generalizing p with
  | nil => exact absurd rfl hl
  | cons q l ih =>
    have hpq : p.1 < q.1 := (List.pairwise_cons.1 hs).1 q (by simp)
    have hq := hpos q (by simp)
    have hs' := (List.pairwise_cons.1 hs).2
    rw [npInterp]
    split_ifs with h1 h2
    · linarith
    · have a : 0 < (x - p.1) / (q.1 - p.1) := div_pos (by linarith) (by linarith)
      have b : (x - p.1) / (q.1 - p.1) < 1 := by rw [div_lt_one (by linarith)]; linarith
      have e : (q.2 - p.2) / (q.1 - p.1) * (x - p.1) + p.2 =
          q.2 * ((x - p.1) / (q.1 - p.1)) + p.2 * (1 - (x - p.1) / (q.1 - p.1)) := by
        field_simp; ring
      rw [e]
      have := mul_pos hq a
      have := mul_nonneg hp (by linarith : 0 ≤ 1 - (x - p.1) / (q.1 - p.1))
      linarith
    · push Not at h1
      rcases h1.lt_or_eq with h1 | h1
      · cases l with
        | nil => simpa [npInterp] using hq
        | cons r l =>
          exact ih q hs' (by simp) hq.le (fun y hy => hpos y (List.mem_cons_of_mem _ hy)) h1
      · rw [← h1, npInterp_head q l hs']; exact hq

/-- The cross-section table of a checked data file is sorted, and its values are those of the file. -/
theorem load_sorted (u : SI) (m1 m2 : ℝ) (h1 : 0 < m1) (h2 : 0 < m2) (rows : List (Nat × Nat))
    (h : rowsOk rows = true) : SortedTable (CrossSection.load u m1 m2 (genfromtxt rows)).table := by
  unfold rowsOk at h
  rw [Bool.and_eq_true] at h
  have hs := incrB_sorted rows h.1
  have hs' : rows.dropLast.Pairwise (fun p q => p.1 < q.1) := hs.sublist (List.dropLast_sublist _)
  unfold CrossSection.load genfromtxt SortedTable
  rw [List.map_map, List.pairwise_map]
  refine hs'.imp ?_
  intro p q hpq
  simp only [Function.comp_apply]
  have : (p.1 : ℝ) < q.1 := by exact_mod_cast hpq
  have hf : 0 < m2 / (m1 + m2) := by positivity
  gcongr

/-- Between 1 keV and 1 MeV (centre of mass) the cross section of a checked file can be evaluated
and is positive. -/
theorem call_ok (u : SI) (m1 m2 : ℝ) (h1 : 0 < m1) (h2 : 0 < m2) (h5 : m1 ≤ 5 * m2)
    (rows : List (Nat × Nat)) (h : rowsOk rows = true) (e : ℝ) (he1 : 1 ≤ e) (he2 : e ≤ 1000) :
    (CrossSection.load u m1 m2 (genfromtxt rows)).call e =
      .ok (npInterp (CrossSection.load u m1 m2 (genfromtxt rows)).table e) ∧
    0 < npInterp (CrossSection.load u m1 m2 (genfromtxt rows)).table e := by
  have hs := load_sorted u m1 m2 h1 h2 rows h
  unfold rowsOk at h
  rw [Bool.and_eq_true] at h
  have hf : 0 < m2 / (m1 + m2) := by positivity
  have hf1 : m2 / (m1 + m2) < 1 := by rw [div_lt_one (by linarith)]; linarith
  have hf6 : 1 / 6 ≤ m2 / (m1 + m2) := by rw [div_le_div_iff₀ (by norm_num) (by linarith)]; linarith
  cases hd : rows.dropLast with
  | nil => rw [hd] at h; simp at h
  | cons p l =>
    rw [hd] at h
    cases hl : (p :: l).getLast? with
    | none => simp at hl
    | some q =>
      simp only [] at h
      rw [hl] at h
      simp only [Bool.and_eq_true, decide_eq_true_eq, List.all_eq_true] at h
      obtain ⟨-, ⟨hp, hpos⟩, hq⟩ := h
      have ht : (CrossSection.load u m1 m2 (genfromtxt rows)).table =
          (p :: l).map (fun r : Nat × Nat =>
            ((r.1 : ℝ) / 10 ^ 12 * (m2 / (m1 + m2)) * 1e3, (r.2 : ℝ) / 10 ^ 50 * 1e-28)) := by
        unfold CrossSection.load genfromtxt
        rw [hd, List.map_map]; rfl
      have hp' : (p.1 : ℝ) < 10 ^ 9 := by exact_mod_cast hp
      have hq' : (6 * 10 ^ 12 : ℝ) ≤ q.1 := by exact_mod_cast hq
      have hfirst : (p.1 : ℝ) / 10 ^ 12 * (m2 / (m1 + m2)) * 1e3 < 1 := by
        have a : (p.1 : ℝ) / 10 ^ 12 * (m2 / (m1 + m2)) ≤ (p.1 : ℝ) / 10 ^ 12 :=
          mul_le_of_le_one_right (by positivity) hf1.le
        have b : (p.1 : ℝ) / 10 ^ 12 < 10 ^ 9 / 10 ^ 12 := by gcongr
        norm_num at b ⊢
        linarith
      have hlast : 1000 ≤ (q.1 : ℝ) / 10 ^ 12 * (m2 / (m1 + m2)) * 1e3 := by
        have b : (6 * 10 ^ 12 : ℝ) / 10 ^ 12 ≤ (q.1 : ℝ) / 10 ^ 12 := by gcongr
        have c : (6 : ℝ) * (1 / 6) ≤ (q.1 : ℝ) / 10 ^ 12 * (m2 / (m1 + m2)) := by
          apply mul_le_mul _ hf6 (by norm_num) (by positivity)
          norm_num at b ⊢; linarith
        norm_num at c ⊢
        linarith
      have hl2 : l ≠ [] := by
        rintro rfl
        simp only [List.getLast?_singleton, Option.some.injEq] at hl
        subst hl
        omega
      constructor
      · unfold CrossSection.call interp1d
        simp only
        rw [mergeSort_sorted _ hs, ht, List.head?_map, List.getLast?_map, hl]
        simp only [List.head?_cons, Option.map_some]
        rw [if_neg]
        push Not
        exact ⟨by linarith, by linarith⟩
      · rw [ht] at hs ⊢
        rw [List.map_cons] at hs ⊢
        refine npInterp_pos _ _ hs (by simpa using hl2) (by simp only; positivity) ?_ e ?_
        · intro x hx
          obtain ⟨y, hy, rfl⟩ := List.mem_map.1 hx
          have := hpos y hy
          simp only
          have : (0 : ℝ) < (y.2 : ℝ) := by exact_mod_cast this
          positivity
        · simp only; linarith

theorem tGrid_mem (e : ℝ) (he : e ∈ tGridKeV) : 1 ≤ e ∧ e ≤ 1000 := by
  obtain ⟨i, hi, rfl⟩ := List.mem_map.1 he
  have hi' : i ≤ 999 := by have := List.mem_range.1 hi; omega
  have hi2 : (i : ℝ) ≤ 999 := by exact_mod_cast hi'
  constructor
  · exact Real.one_le_rpow (by norm_num) (by positivity)
  · have : (10 : ℝ) ^ (3 * (i : ℝ) / 999) ≤ (10 : ℝ) ^ (3 : ℝ) := by
      apply Real.rpow_le_rpow_of_exponent_le (by norm_num)
      rw [div_le_iff₀ (by norm_num)]; linarith
    refine this.trans ?_
    norm_num

theorem tGrid_sorted : tGridKeV.Pairwise (· < ·) := by
  unfold tGridKeV
  rw [List.pairwise_map]
  refine List.pairwise_lt_range.imp ?_
  intro i j hij
  apply Real.rpow_lt_rpow_of_exponent_lt (by norm_num)
  have : (i : ℝ) < j := by exact_mod_cast hij
  gcongr

theorem mapM_of_ok {α β : Type} (f : α → Except Err β) (g : α → β) (l : List α)
    (h : ∀ a ∈ l, f a = .ok (g a)) : l.mapM f = .ok (l.map g) := by
  rw [mapM_ok_iff, List.forall₂_map_right_iff]
  induction l with
  | nil => exact .nil
  | cons a l ih => exact .cons (h a (by simp)) (ih (fun b hb => h b (List.mem_cons_of_mem _ hb)))

theorem trapezoid_range (n : ℕ) (f g : ℕ → ℝ) :
    trapezoid ((List.range (n + 1)).map (fun i : ℕ => (f i, g i))) =
      ∑ i ∈ Finset.range n, (f (i + 1) - f i) * ((g i + g (i + 1)) / 2) := by
  induction n generalizing f g with
  | zero => simp [trapezoid]
  | succ n ih =>
    rw [List.range_succ_eq_map, List.map_cons, List.map_map, Finset.sum_range_succ']
    have := ih (fun i => f (i + 1)) (fun i => g (i + 1))
    rw [← this, List.range_succ_eq_map]
    simp only [List.map_cons, trapezoid, List.map_map, Function.comp_def, Nat.succ_eq_add_one]
    ring_nf

/-- The masses of the reactants of a reaction, collider first. -/
def colliderMass (m : Masses ℝ) : Reaction → ℝ × ℝ
  | .n .D_T => (m.D, m.T)
  | .n .D_D | .a .D_D => (m.D, m.D)
  | .n .T_T => (m.T, m.T)
  | .a .D_He3 => (m.D, m.He3)

/-- The data rows of the file of a reaction. -/
def fileRows : Reaction → List (Nat × Nat)
  | .n .D_T => Data.dtRows
  | .n .D_D => Data.ddnRows
  | .n .T_T => Data.ttRows
  | .a .D_D => Data.ddpRows
  | .a .D_He3 => Data.dhe3Rows

theorem crossSection_eq (u : SI) (m : Masses ℝ) (r : Reaction) :
    r.crossSection u m = .load u (colliderMass m r).1 (colliderMass m r).2
      (genfromtxt (fileRows r)) := by
  rcases r with (_ | _ | _) | (_ | _) <;> rfl

theorem fileRows_ok (r : Reaction) : rowsOk (fileRows r) = true := by
  obtain ⟨h1, h2, h3, h4, h5⟩ := rowsOk_all
  rcases r with (_ | _ | _) | (_ | _)
  · exact h1
  · exact h2
  · exact h4
  · exact h3
  · exact h5

/-- Plausible masses and units: positive, no reactant more than five times heavier than the other. -/
structure PhysicalData (u : SI) (m : Masses ℝ) : Prop where
  keV : 0 < u.keV
  amu : 0 < u.amu
  D : 0 < m.D
  T : 0 < m.T
  He3 : 0 < m.He3
  DT : m.D ≤ 5 * m.T
  DHe3 : m.D ≤ 5 * m.He3

theorem PhysicalData.mass {u : SI} {m : Masses ℝ} (h : PhysicalData u m) (r : Reaction) :
    0 < (colliderMass m r).1 ∧ 0 < (colliderMass m r).2 ∧
      (colliderMass m r).1 ≤ 5 * (colliderMass m r).2 := by
  have := h.D; have := h.T; have := h.He3; have := h.DT; have := h.DHe3
  rcases r with (_ | _ | _) | (_ | _) <;> simp only [colliderMass] <;>
    refine ⟨?_, ?_, ?_⟩ <;> linarith

/-- CODATA / AME values meet the hypotheses. -/
example : PhysicalData ⟨1.602176634e-16, 1.66053906660e-27⟩
    ⟨2.01410177812, 3.0160492779, 4.002602, 3.0160293201, 1.00866491588, 1.007276466621,
      5.48579909065e-4⟩ := by
  constructor <;> norm_num

/-- **C53**: for all five reactions the cross-section reactivity succeeds at all positive
temperatures (the energy grid never leaves the data file), and entry by entry it is the Maxwell
average of a positive cross section `σ`, hence strictly positive.  `σ` is the linear interpolation
of the data file: see `C53_cross_section`. -/
theorem C53_reactivity (u : SI) (m : Masses ℝ) (h : PhysicalData u m) (r : Reaction) (ts : List ℝ)
    (hts : ∀ t ∈ ts, 0 < t) :
    reactivity u m .XS r ts = .ok (ts.map (fun t => maxwellAverage (r.crossSection u m).reducedMass
      u.keV (t * u.keV) (npInterp (r.crossSection u m).table))) ∧
    ∀ t, 0 < t → 0 < maxwellAverage (r.crossSection u m).reducedMass u.keV (t * u.keV)
      (npInterp (r.crossSection u m).table) := by
  obtain ⟨m1, m2, m5⟩ := h.mass r
  have hk := h.keV
  have hcall := fun e he1 he2 => call_ok u _ _ m1 m2 m5 _ (fileRows_ok r) e he1 he2
  rw [← crossSection_eq] at hcall
  have hmu : 0 < (r.crossSection u m).reducedMass := by
    rw [crossSection_eq]
    have := h.amu
    simp only [CrossSection.load]; positivity
  set xs := r.crossSection u m with hxs
  have hsig : tGridKeV.mapM xs.call = .ok (tGridKeV.map (npInterp xs.table)) :=
    mapM_of_ok _ _ _ (fun e he => (hcall e (tGrid_mem e he).1 (tGrid_mem e he).2).1)
  constructor
  · have he : ∀ t ∈ ts, xs.entry u (tGridKeV.map (npInterp xs.table)) t =
        .ok (maxwellAverage xs.reducedMass u.keV (t * u.keV) (npInterp xs.table)) := by
      intro t ht
      have htp := hts t ht
      unfold CrossSection.entry
      rw [if_neg (not_le.2 htp)]
      refine congrArg Except.ok ?_
      rw [List.zipWith_map_right, List.zipWith_self]
      unfold tGridKeV
      rw [List.map_map]
      have key := trapezoid_range 999 (fun i => logEnergy i * u.keV)
        (fun i => 4 / Real.sqrt (2 * Real.pi * xs.reducedMass) / (t * u.keV) ^ (1.5 : ℝ) *
          npInterp xs.table (logEnergy i) * (logEnergy i * u.keV) *
          Real.exp (-(logEnergy i * u.keV) / (t * u.keV)))
      simp only [logEnergy] at key
      simp only [Function.comp_def]
      rw [show (999 + 1 : ℕ) = 1000 from rfl] at key
      rw [key]
      unfold maxwellAverage
      simp only [logEnergy]
      rw [Finset.mul_sum]
      refine Finset.sum_congr rfl ?_
      intro i _
      have ef : 4 / Real.sqrt (2 * Real.pi * xs.reducedMass) / (t * u.keV) ^ (1.5 : ℝ) =
          Real.sqrt (8 / (Real.pi * xs.reducedMass)) * (t * u.keV) ^ (-(3 : ℝ) / 2) := by
        have hpi := Real.pi_pos
        have e1 : (t * u.keV) ^ (-(3 : ℝ) / 2) = ((t * u.keV) ^ (1.5 : ℝ))⁻¹ := by
          rw [show (-(3 : ℝ) / 2) = -(1.5 : ℝ) by norm_num, Real.rpow_neg (by positivity)]
        have e2 : Real.sqrt (8 / (Real.pi * xs.reducedMass)) =
            4 / Real.sqrt (2 * Real.pi * xs.reducedMass) := by
          rw [Real.sqrt_eq_iff_eq_sq (by positivity) (by positivity), div_pow,
            Real.sq_sqrt (by positivity)]
          field_simp; norm_num
        rw [e1, e2]; ring
      rw [ef]
      ring
    have : reactivity u m .XS r ts = ts.mapM (xs.entry u (tGridKeV.map (npInterp xs.table))) := by
      simp only [reactivity, CrossSection.reactivity, ← hxs, hsig, Bind.bind, Except.bind]
    rw [this]
    exact mapM_of_ok _ _ _ he
  · intro t ht
    unfold maxwellAverage
    simp only
    have hpi := Real.pi_pos
    refine mul_pos (mul_pos (Real.sqrt_pos.2 (by positivity)) (by positivity)) ?_
    have hg : ∀ i, i ≤ 999 → 0 < npInterp xs.table (logEnergy i) * (logEnergy i * u.keV) *
        Real.exp (-(logEnergy i * u.keV) / (t * u.keV)) := by
      intro i hi
      have hm : logEnergy i ∈ tGridKeV := List.mem_map.2 ⟨i, List.mem_range.2 (by omega), rfl⟩
      obtain ⟨a, b⟩ := tGrid_mem _ hm
      have := (hcall _ a b).2
      have : 0 < logEnergy i := by linarith
      positivity
    refine Finset.sum_pos ?_ ⟨0, by simp⟩
    intro i hi
    have hi' := Finset.mem_range.1 hi
    have a := hg i (by omega)
    have b := hg (i + 1) (by omega)
    have c : logEnergy i < logEnergy (i + 1) := by
      unfold logEnergy
      apply Real.rpow_lt_rpow_of_exponent_lt (by norm_num)
      have : (i : ℝ) < ((i + 1 : ℕ) : ℝ) := by push_cast; linarith
      gcongr
    have d := mul_lt_mul_of_pos_right c hk
    exact mul_pos (by linarith) (by linarith)

/-- **C53**, the cross section: on the energies used it is the straight line between the neighbouring
rows of the data file (last row excluded), energies converted to the centre-of-mass frame in keV by
`m₂/(m₁+m₂)` and barns to m². -/
theorem C53_cross_section (u : SI) (m : Masses ℝ) (h : PhysicalData u m) (r : Reaction)
    (l l' : List (Nat × Nat)) (p q : Nat × Nat)
    (hrows : (fileRows r).dropLast = l ++ p :: q :: l') (e : ℝ) (he : 1 ≤ e ∧ e ≤ 1000) :
    let com : Nat → ℝ := fun n =>
      (n : ℝ) / 10 ^ 12 * 1000 * ((colliderMass m r).2 / ((colliderMass m r).1 + (colliderMass m r).2))
    let m2 : Nat → ℝ := fun n => (n : ℝ) / 10 ^ 50 / 10 ^ 28
    com p.1 ≤ e → e ≤ com q.1 →
    (r.crossSection u m).call e =
      .ok (m2 p.2 + (m2 q.2 - m2 p.2) * ((e - com p.1) / (com q.1 - com p.1))) := by
  intro com m2 h1 h2
  obtain ⟨a1, a2, a5⟩ := h.mass r
  rw [crossSection_eq, (call_ok u _ _ a1 a2 a5 _ (fileRows_ok r) e he.1 he.2).1]
  have hs := load_sorted u _ _ a1 a2 _ (fileRows_ok r)
  have ht : (CrossSection.load u (colliderMass m r).1 (colliderMass m r).2
      (genfromtxt (fileRows r))).table = (l.map (fun r => (com r.1, m2 r.2))) ++
        (com p.1, m2 p.2) :: (com q.1, m2 q.2) :: (l'.map (fun r => (com r.1, m2 r.2))) := by
    unfold CrossSection.load genfromtxt
    rw [hrows, List.map_map]
    have : ((fun p : ℝ × ℝ => (p.1 * ((colliderMass m r).2 /
        ((colliderMass m r).1 + (colliderMass m r).2)) * 1e3, p.2 * 1e-28)) ∘
        fun p : Nat × Nat => ((p.1 : ℝ) / 10 ^ 12, (p.2 : ℝ) / 10 ^ 50)) =
        fun r => (com r.1, m2 r.2) := by
      funext x
      simp only [Function.comp_apply, com, m2, Prod.mk.injEq]
      constructor
      · norm_num; ring
      · norm_num; ring
    rw [this]; simp
  rw [ht] at hs ⊢
  rw [npInterp_seg _ _ _ _ hs e h1 h2]

/-- **C53**: a single non-positive temperature makes the result non-finite (`nan`), unlike
Bosch-Hale, which gives 0 there. -/
theorem C53_nonpositive (u : SI) (m : Masses ℝ) (h : PhysicalData u m) (r : Reaction) (t : ℝ)
    (ht : t ≤ 0) : reactivity u m .XS r [t] = .error .nonFinite := by
  obtain ⟨m1, m2, m5⟩ := h.mass r
  have hcall := fun e he1 he2 => call_ok u _ _ m1 m2 m5 _ (fileRows_ok r) e he1 he2
  rw [← crossSection_eq] at hcall
  have hsig : tGridKeV.mapM (r.crossSection u m).call =
      .ok (tGridKeV.map (npInterp (r.crossSection u m).table)) :=
    mapM_of_ok _ _ _ (fun e he => (hcall e (tGrid_mem e he).1 (tGrid_mem e he).2).1)
  simp only [reactivity, CrossSection.reactivity, hsig, Bind.bind, Except.bind, List.mapM_cons,
    CrossSection.entry, if_pos ht]

/-! ## C51 -/

/-- The temperatures at which a method gives a number: for Bosch-Hale data every temperature (for
the D-D neutron branch up to 960 keV), for cross sections the positive ones. -/
def goodTemperature (method : ReactivityMethod) (r : Reaction) (t : ℝ) : Prop :=
  if method ≠ .XS ∧ hasBoschHale r then (r = .DDn → t ≤ 960) else 0 < t

/-- The value of the published formula of the reactions that have one, 0 at `T ≤ 0`. -/
noncomputable def boschHaleValue (r : Reaction) (t : ℝ) : ℝ :=
  if t ≤ 0 then 0 else
  match r with
  | .n .D_T => Spec.boschHaleDT t
  | .n .D_D => Spec.boschHaleDDn t
  | .a .D_D => Spec.boschHaleDDp t
  | _ => 0

theorem channel_ok (r : Reaction) (hr : hasBoschHale r = true) (ts : List ℝ) (hne : ts ≠ [])
    (hts : ∀ t ∈ ts, r = .DDn → t ≤ 960) :
    reactivityBoschHale ts r = .ok (ts.map (boschHaleValue r)) := by
  have single : ∀ (b : BoschHale), r.boschHale = some b → ∀ t v,
      reactivityBoschHale [t] r = .ok [v] → b.entry t = .ok v := by
    intro b hb t v h
    cases hE : b.entry t with
    | error e => simp [reactivityBoschHale, hb, BoschHale.channel, hE, List.mapM_cons, Bind.bind,
        Except.bind] at h
    | ok w => simpa [reactivityBoschHale, hb, BoschHale.channel, hE, List.mapM_cons, Bind.bind,
        Except.bind, pure, Except.pure] using h
  have : ∃ b, r.boschHale = some b := by
    rcases r with (_ | _ | _) | (_ | _) <;> simp_all [hasBoschHale, Reaction.boschHale]
  obtain ⟨b, hb⟩ := this
  have e : reactivityBoschHale ts r = ts.mapM b.entry := by
    simp [reactivityBoschHale, hb, BoschHale.channel, hne]
  rw [e]
  refine mapM_of_ok _ _ _ ?_
  intro t ht
  by_cases h0 : t ≤ 0
  · rw [entry_nonpos b t h0]; simp [boschHaleValue, h0]
  · have hp := not_le.1 h0
    apply single b hb
    rcases r with (_ | _ | _) | (_ | _) <;> simp only [hasBoschHale, reduceCtorEq] at hr
    · rw [(C52_DT t hp).1]; simp [boschHaleValue, h0]
    · rw [(C52_DDn t hp (hts t ht rfl)).1]; simp [boschHaleValue, h0]
    · rw [(C52_DDp t hp).1]; simp [boschHaleValue, h0]

/-- **C51**: for every reaction and method `reactivity` succeeds on every non-empty array of good
temperatures; the result is the published Bosch-Hale value exactly when the method is not `XS` and
the reaction has Bosch-Hale data, and otherwise the Maxwell average of the cross section. -/
theorem C51_dispatch (u : SI) (m : Masses ℝ) (h : PhysicalData u m) (method : ReactivityMethod)
    (r : Reaction) (ts : List ℝ) (hne : ts ≠ []) (hts : ∀ t ∈ ts, goodTemperature method r t) :
    reactivity u m method r ts =
      .ok (ts.map (fun t =>
        if method ≠ .XS ∧ hasBoschHale r then boschHaleValue r t
        else maxwellAverage (r.crossSection u m).reducedMass u.keV (t * u.keV)
          (npInterp (r.crossSection u m).table))) := by
  by_cases hc : method ≠ .XS ∧ hasBoschHale r = true
  · simp only [goodTemperature, if_pos hc] at hts ⊢
    rw [← channel_ok r hc.2 ts hne hts]
    have : ∃ b, r.boschHale = some b := by
      rcases r with (_ | _ | _) | (_ | _) <;> simp_all [hasBoschHale, Reaction.boschHale]
    obtain ⟨b, hb⟩ := this
    cases method
    · exact absurd rfl hc.1
    all_goals simp only [reactivity, hb]
  · simp only [goodTemperature, if_neg hc] at hts ⊢
    rw [← (C53_reactivity u m h r ts hts).1]
    cases method
    · rfl
    all_goals
      have : r.boschHale = none := by
        rcases r with (_ | _ | _) | (_ | _) <;> simp_all [hasBoschHale, Reaction.boschHale]
      simp only [reactivity, this]

/-- **C51**: the reaction may be given by name; unknown names raise `ReactivityError`. -/
theorem C51_by_name (u : SI) (m : Masses ℝ) (method : ReactivityMethod) (ts : List ℝ) :
    reactivityArg u m method (.str "D-T") ts = reactivity u m method .DT ts ∧
    reactivityArg u m method (.str "D-D") ts = reactivity u m method .DDn ts ∧
    reactivityArg u m method (.str "T-T") ts = reactivity u m method .TT ts ∧
    reactivityArg u m method (.str "D-He3") ts = reactivity u m method .DHe3 ts ∧
    (∀ arg, parseReaction arg = .error .reactivityError →
      reactivityArg u m method arg ts = .error .reactivityError) := by
  have e1 : parseReaction (.str "D-T") = .ok .DT := by decide +kernel
  have e2 : parseReaction (.str "D-D") = .ok .DDn := by decide +kernel
  have e3 : parseReaction (.str "T-T") = .ok .TT := by decide +kernel
  have e4 : parseReaction (.str "D-He3") = .ok .DHe3 := by decide +kernel
  refine ⟨?_, ?_, ?_, ?_, ?_⟩
  · simp only [reactivityArg, e1, Bind.bind, Except.bind]
  · simp only [reactivityArg, e2, Bind.bind, Except.bind]
  · simp only [reactivityArg, e3, Bind.bind, Except.bind]
  · simp only [reactivityArg, e4, Bind.bind, Except.bind]
  · intro arg h
    simp only [reactivityArg, h, Bind.bind, Except.bind]

/-- **C51**: the only failure of the Bosch-Hale path on arrays within range is the empty array. -/
theorem C51_empty (u : SI) (m : Masses ℝ) (method : ReactivityMethod) (r : Reaction)
    (hm : method ≠ .XS) (hr : hasBoschHale r = true) :
    reactivity u m method r [] = .error .valueError := by
  rcases r with (_ | _ | _) | (_ | _) <;> cases method <;>
    simp_all [hasBoschHale, reactivity, Reaction.boschHale, reactivityBoschHale, BoschHale.channel]

/-- **C51**, no parameterisation: asked directly for the Bosch-Hale value of T-T or D-He3, the library raises
an error and never returns a number. -/
theorem C51_no_parameterisation (r : Reaction) (hr : r = .TT ∨ r = .DHe3) (ts : List ℝ) :
    reactivityBoschHale ts r = .error .reactivityError := by
  rcases hr with rfl | rfl <;> rfl

/-- **C52**, warning: for each of the three parameterised channels a warning is logged exactly when some
temperature lies strictly outside 0.2 to 100 keV. -/
theorem C52_warning (r : Reaction) (b : BoschHale) (hb : r.boschHale = some b) (ts : List ℝ) :
    b.warns ts ↔ ¬ ∀ t ∈ ts, 2 / 10 ≤ t ∧ t ≤ 100 := by
  have hl : b.tMin = 2 / 10 ∧ b.tMax = 100 := by
    rcases r with (_ | _ | _) | (_ | _) <;> simp [Reaction.boschHale] at hb <;> subst hb <;>
      constructor <;> norm_num [boschHaleDT, boschHaleDDn, boschHaleDDp]
  unfold BoschHale.warns
  rw [hl.1, hl.2]
  push Not
  refine exists_congr fun t => and_congr_right fun _ => ?_
  constructor
  · rintro (h | h) h'
    · exact absurd h' (not_le.2 h)
    · exact h
  · intro h
    by_cases h' : 2 / 10 ≤ t
    · exact .inr (h h')
    · exact .inl (not_le.1 h')

example : goodTemperature .AUTO .DT 0 ∧ goodTemperature .AUTO .TT 10 ∧
    goodTemperature .BOSCH_HALE .DDn 100 := by
  refine ⟨?_, ?_, ?_⟩ <;> simp [goodTemperature, hasBoschHale] <;> norm_num

end TNS
