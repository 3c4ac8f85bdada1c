import Verif.Props.Reactivity
import Verif.Lemmas.MaxwellRise
/-
Where the tabulated cross sections rise: integer checks on the data files, and what they say about
the linear interpolation.
-/

set_option autoImplicit false

namespace TNS
open Spec Set

/-- The rows up to the first energy `≥ X` have cross sections `≥ v`. -/
def aboveB (v X : Nat) : List (Nat × Nat) → Bool
  | [] => false
  | q :: l => decide (v ≤ q.2) && (decide (X ≤ q.1) || aboveB v X l)

/-- The rows rise up to an energy `≥ e0`, and from there up to the first energy `≥ X` stay above. -/
def risesB (e0 X : Nat) : List (Nat × Nat) → Bool
  | [] => false
  | p :: l => (decide (e0 ≤ p.1) && aboveB p.2 X (p :: l)) ||
    (match l with
      | [] => false
      | q :: _ => decide (p.2 ≤ q.2) && risesB e0 X l)

/-- A row in the units of the table. -/
noncomputable def scaleRow (c d : ℝ) (r : Nat × Nat) : ℝ × ℝ := (c * r.1, d * r.2)

theorem aboveB_sound (c d : ℝ) (hc : 0 < c) (hd : 0 < d) (v X : Nat) (l : List (Nat × Nat))
    (hs : SortedTable (l.map (scaleRow c d))) (h : aboveB v X l = true) (x : ℝ) (hx : x ≤ c * X) :
    d * v ≤ npInterp (l.map (scaleRow c d)) x := by
  induction l with
  | nil => simp [aboveB] at h
  | cons q l ih =>
    simp only [aboveB, Bool.and_eq_true, Bool.or_eq_true, decide_eq_true_eq] at h
    have hv : d * v ≤ (scaleRow c d q).2 :=
      mul_le_mul_of_nonneg_left (by exact_mod_cast h.1) hd.le
    rw [List.map_cons] at hs ⊢
    by_cases hq : x ≤ (scaleRow c d q).1
    · rw [npInterp_single_le _ _ hs x hq]; exact hv
    · rcases h.2 with hX | hl
      · exact absurd (hx.trans (mul_le_mul_of_nonneg_left (by exact_mod_cast hX) hc.le)) hq
      · cases l with
        | nil => simp [aboveB] at hl
        | cons q' l =>
          have ih := ih (List.pairwise_cons.1 hs).2 hl
          rw [List.map_cons] at hs ih ⊢
          have hqq : (scaleRow c d q).1 < (scaleRow c d q').1 := (List.pairwise_cons.1 hs).1 _ (by simp)
          simp only [aboveB, Bool.and_eq_true, decide_eq_true_eq] at hl
          have hv' : d * v ≤ (scaleRow c d q').2 :=
            mul_le_mul_of_nonneg_left (by exact_mod_cast hl.1) hd.le
          rw [npInterp]
          split_ifs with a b
          · exact hv
          · obtain ⟨f0, f1⟩ := frac_mem _ _ x hqq (not_lt.1 b) a.le
            have e : ((scaleRow c d q').2 - (scaleRow c d q).2) /
                ((scaleRow c d q').1 - (scaleRow c d q).1) * (x - (scaleRow c d q).1) +
                (scaleRow c d q).2 = (scaleRow c d q).2 *
                (1 - (x - (scaleRow c d q).1) / ((scaleRow c d q').1 - (scaleRow c d q).1)) +
                (scaleRow c d q').2 *
                ((x - (scaleRow c d q).1) / ((scaleRow c d q').1 - (scaleRow c d q).1)) := by ring
            rw [e]
            have h1 := mul_le_mul_of_nonneg_right hv (sub_nonneg.2 f1)
            have h2 := mul_le_mul_of_nonneg_right hv' f0
            linarith
          · exact ih

theorem risesB_sound (c d : ℝ) (hc : 0 < c) (hd : 0 < d) (e0 X : Nat) (l : List (Nat × Nat))
    (hs : SortedTable (l.map (scaleRow c d))) (h : risesB e0 X l = true) :
    (∀ p, l.head? = some p → ∀ x, x ≤ c * X → d * p.2 ≤ npInterp (l.map (scaleRow c d)) x) ∧
    ∀ E x, E ≤ c * e0 → E ≤ c * X → x ≤ c * X →
      (E ≤ x → npInterp (l.map (scaleRow c d)) E ≤ npInterp (l.map (scaleRow c d)) x) ∧
      (x ≤ E → npInterp (l.map (scaleRow c d)) x ≤ npInterp (l.map (scaleRow c d)) E) := by
  induction l with
  | nil => simp [risesB] at h
  | cons p l ih =>
    rw [List.map_cons] at hs
    simp only [risesB, Bool.or_eq_true, Bool.and_eq_true, decide_eq_true_eq] at h
    rcases h with ⟨he, ha⟩ | hB
    · have hab := aboveB_sound c d hc hd p.2 X (p :: l) (by rw [List.map_cons]; exact hs) ha
      refine ⟨?_, ?_⟩
      · intro p' hp'
        simp only [List.head?_cons, Option.some.injEq] at hp'
        subst hp'; exact hab
      · intro E x hE hEX hx
        have hEp : E ≤ (scaleRow c d p).1 :=
          hE.trans (mul_le_mul_of_nonneg_left (by exact_mod_cast he) hc.le)
        have e1 : npInterp ((p :: l).map (scaleRow c d)) E = d * p.2 :=
          npInterp_single_le _ _ hs E hEp
        refine ⟨fun _ => ?_, fun hxE => ?_⟩
        · rw [e1]; exact hab x hx
        · rw [e1]
          exact (npInterp_single_le _ _ hs x (hxE.trans hEp)).le
    · cases l with
      | nil => simp at hB
      | cons q l =>
        simp only [Bool.and_eq_true, decide_eq_true_eq] at hB
        obtain ⟨hpq, hr⟩ := hB
        obtain ⟨ih1, ih2⟩ := ih (List.pairwise_cons.1 hs).2 hr
        have ih1 := ih1 q rfl
        rw [List.map_cons, List.map_cons]
        rw [List.map_cons] at hs ih1 ih2
        generalize hP : scaleRow c d p = P at *
        generalize hQ : scaleRow c d q = Q at *
        generalize l.map (scaleRow c d) = t at *
        have hP2 : d * p.2 = P.2 := by rw [← hP]; rfl
        have hQ2 : d * q.2 = Q.2 := by rw [← hQ]; rfl
        have hv : P.2 ≤ Q.2 := by
          rw [← hP2, ← hQ2]; exact mul_le_mul_of_nonneg_left (by exact_mod_cast hpq) hd.le
        have hPQ : P.1 < Q.1 := (List.pairwise_cons.1 hs).1 _ (by simp)
        have hs2 : SortedTable [P, Q] := by simp [SortedTable, hPQ]
        have hm2 : [P, Q].Pairwise (fun p q => p.2 ≤ q.2) := by simp [hv]
        have hlo : ∀ z, z < Q.1 → npInterp (P :: Q :: t) z = npInterp [P, Q] z := by
          intro z hz
          rw [npInterp, npInterp, if_pos hz, if_pos hz]
        have hhi : ∀ z, Q.1 ≤ z → npInterp (P :: Q :: t) z = npInterp (Q :: t) z := by
          intro z hz
          rw [npInterp, if_neg (not_lt.2 hz)]
        have hb : ∀ z, P.2 ≤ npInterp [P, Q] z ∧ npInterp [P, Q] z ≤ Q.2 := by
          intro z
          exact npInterp_bounds [P, Q] hs2 (by simp) P.2 Q.2 (by simp [hv]) (by simp [hv]) z
        rw [hQ2] at ih1
        refine ⟨?_, ?_⟩
        · intro p' hp' x hx
          simp only [List.head?_cons, Option.some.injEq] at hp'
          subst hp'
          rw [hP2]
          rcases lt_or_ge x Q.1 with h | h
          · rw [hlo x h]; exact (hb x).1
          · rw [hhi x h]; exact hv.trans (ih1 x hx)
        · intro E x hE hEX hx
          rcases lt_or_ge E Q.1 with hEq | hEq <;> rcases lt_or_ge x Q.1 with hxq | hxq
          · rw [hlo E hEq, hlo x hxq]
            exact ⟨fun h => npInterp_mono _ hs2 hm2 _ _ h, fun h => npInterp_mono _ hs2 hm2 _ _ h⟩
          · rw [hlo E hEq, hhi x hxq]
            exact ⟨fun _ => (hb E).2.trans (ih1 x hx), fun h => absurd h (by linarith)⟩
          · rw [hhi E hEq, hlo x hxq]
            exact ⟨fun h => absurd h (by linarith), fun _ => (hb x).2.trans (ih1 E hEX)⟩
          · rw [hhi E hEq, hhi x hxq]
            exact ih2 E x hE hEX hx

set_option maxRecDepth 100000 in
theorem risesB_all :
    risesB 24000000000 1680000000000 Data.dtRows.dropLast = true ∧
    risesB 300000000000 2000000000000 Data.ddnRows.dropLast = true ∧
    risesB 300000000000 2000000000000 Data.ddpRows.dropLast = true ∧
    risesB 300000000000 2000000000000 Data.ttRows.dropLast = true ∧
    risesB 166000000000 1680000000000 Data.dhe3Rows.dropLast = true := by
  decide +kernel

/-- Laboratory energies (1e-12 MeV) up to which the data rise, and up to which they stay above. -/
def riseRange : Reaction → Nat × Nat
  | .n .D_T => (24000000000, 1680000000000)
  | .n .D_D => (300000000000, 2000000000000)
  | .n .T_T => (300000000000, 2000000000000)
  | .a .D_D => (300000000000, 2000000000000)
  | .a .D_He3 => (166000000000, 1680000000000)

theorem risesB_file (r : Reaction) :
    risesB (riseRange r).1 (riseRange r).2 (fileRows r).dropLast = true := by
  obtain ⟨h1, h2, h3, h4, h5⟩ := risesB_all
  rcases r with (_ | _ | _) | (_ | _)
  · exact h1
  · exact h2
  · exact h4
  · exact h3
  · exact h5

theorem logEnergy_zero : logEnergy 0 = 1 := by simp [logEnergy]

theorem logEnergy_last : logEnergy 999 = 1000 := by
  unfold logEnergy
  rw [show (3 * ((999 : ℕ) : ℝ) / 999) = (3 : ℕ) by norm_num, Real.rpow_natCast]
  norm_num

theorem logEnergy_lt (i : ℕ) : logEnergy i < logEnergy (i + 1) := by
  unfold logEnergy
  apply Real.rpow_lt_rpow_of_exponent_lt (by norm_num)
  have : (i : ℝ) < ((i + 1 : ℕ) : ℝ) := by push_cast; linarith
  gcongr

theorem logEnergy_ratio (i : ℕ) : logEnergy (i + 1) ≤ 1.007 * logEnergy i := by
  unfold logEnergy
  have e : 3 * ((i + 1 : ℕ) : ℝ) / 999 = 1 / 333 + 3 * (i : ℝ) / 999 := by push_cast; ring
  rw [e, Real.rpow_add (by norm_num)]
  refine mul_le_mul_of_nonneg_right ?_ (Real.rpow_nonneg (by norm_num) _)
  have h : (10 : ℝ) ≤ 1.007 ^ (333 : ℕ) := by
    have h1 : (1.292 : ℝ) ≤ 1.007 ^ (37 : ℕ) := by norm_num
    have h2 : (10 : ℝ) ≤ 1.292 ^ (9 : ℕ) := by norm_num
    have h3 := pow_le_pow_left₀ (by norm_num) h1 9
    rw [← pow_mul] at h3
    exact h2.trans h3
  have h2 := Real.rpow_le_rpow (by norm_num) h (by norm_num : (0 : ℝ) ≤ 1 / 333)
  refine h2.trans (le_of_eq ?_)
  rw [← Real.rpow_natCast, ← Real.rpow_mul (by norm_num)]
  norm_num

/-- The Maxwell average of a cross section with the required shape rises strictly. -/
theorem maxwellAverage_strictMono (μ keV tm : ℝ) (hμ : 0 < μ) (hk : 0 < keV) (htm : tm ≤ 100)
    (σ : ℝ → ℝ) (hpos : ∀ e, 1 ≤ e → e ≤ 1000 → 0 < σ e)
    (hσ : ∀ E e, 1 ≤ E → E ≤ 3 / 2 * tm → 1 ≤ e → e ≤ 1000 → 0 ≤ (σ e - σ E) * (e - E)) :
    StrictMonoOn (fun t => maxwellAverage μ keV (t * keV) σ) (Ioc 0 tm) := by
  have hmem : ∀ i, i ≤ 999 → 1 ≤ logEnergy i ∧ logEnergy i ≤ 1000 := by
    intro i hi
    exact tGrid_mem _ (List.mem_map.2 ⟨i, List.mem_range.2 (by omega), rfl⟩)
  have key := maxwell_strictMono 999 (by norm_num) logEnergy (fun i => σ (logEnergy i))
    logEnergy_zero logEnergy_last logEnergy_lt logEnergy_ratio
    (fun i hi => hpos _ (hmem i hi).1 (hmem i hi).2) tm htm (by
      intro t ht htm' h1
      refine ⟨σ (3 / 2 * t), hpos _ h1 (by linarith), fun i hi => ?_⟩
      exact hσ _ _ h1 (by linarith) (hmem i hi).1 (hmem i hi).2)
  have e : ∀ t, 0 < t → maxwellAverage μ keV (t * keV) σ =
      Real.sqrt (8 / (Real.pi * μ)) * keV ^ (-(3 : ℝ) / 2) * keV ^ 2 *
      (t ^ (-(3 : ℝ) / 2) * ∑ i ∈ Finset.range 999, (logEnergy (i + 1) - logEnergy i) *
      ((σ (logEnergy i) * logEnergy i * Real.exp (-logEnergy i / t) +
        σ (logEnergy (i + 1)) * logEnergy (i + 1) * Real.exp (-logEnergy (i + 1) / t)) / 2)) := by
    intro t ht
    have hx : ∀ i, -(logEnergy i * keV) / (t * keV) = -logEnergy i / t := by
      intro i; field_simp
    unfold maxwellAverage
    simp only [hx]
    rw [Real.mul_rpow ht.le hk.le, Finset.mul_sum, Finset.mul_sum, Finset.mul_sum]
    refine Finset.sum_congr rfl (fun i _ => ?_)
    ring
  have hc : 0 < Real.sqrt (8 / (Real.pi * μ)) * keV ^ (-(3 : ℝ) / 2) * keV ^ 2 := by
    have := Real.pi_pos
    have := Real.sqrt_pos.2 (by positivity : 0 < 8 / (Real.pi * μ))
    positivity
  intro a ha b hb hab
  have := key ha hb hab
  simp only at this ⊢
  rw [e a ha.1, e b hb.1]
  exact mul_lt_mul_of_pos_left this hc

/-- A loaded data file that passes the integer check has the required shape. -/
theorem load_shape (u : SI) (m1 m2 : ℝ) (h1 : 0 < m1) (h2 : 0 < m2) (rows : List (Nat × Nat))
    (h : rowsOk rows = true) (e0 X : Nat) (hr : risesB e0 X rows.dropLast = true) (tm : ℝ)
    (he0 : 3 / 2 * tm ≤ (e0 : ℝ) / 10 ^ 9 * (m2 / (m1 + m2)))
    (hX : 1000 ≤ (X : ℝ) / 10 ^ 9 * (m2 / (m1 + m2))) (htm : tm ≤ 100)
    (E e : ℝ) (hE : E ≤ 3 / 2 * tm) (he : e ≤ 1000) :
    0 ≤ (npInterp (CrossSection.load u m1 m2 (genfromtxt rows)).table e -
      npInterp (CrossSection.load u m1 m2 (genfromtxt rows)).table E) * (e - E) := by
  have hs := load_sorted u m1 m2 h1 h2 rows h
  have hf : 0 < m2 / (m1 + m2) := by positivity
  have ht : (CrossSection.load u m1 m2 (genfromtxt rows)).table =
      rows.dropLast.map (scaleRow (m2 / (m1 + m2) / 10 ^ 9) (1 / 10 ^ 78)) := by
    unfold CrossSection.load genfromtxt
    rw [List.map_map]
    refine List.map_congr_left (fun p _ => ?_)
    simp only [Function.comp_apply, scaleRow, Prod.mk.injEq]
    constructor
    · norm_num; ring
    · norm_num; ring
  rw [ht] at hs ⊢
  have key := (risesB_sound (m2 / (m1 + m2) / 10 ^ 9) (1 / 10 ^ 78) (by positivity) (by norm_num)
    e0 X rows.dropLast hs hr).2 E e
    (hE.trans (he0.trans (le_of_eq (by ring))))
    ((hE.trans (by linarith : 3 / 2 * tm ≤ 1000)).trans (hX.trans (le_of_eq (by ring))))
    (he.trans (hX.trans (le_of_eq (by ring))))
  rcases le_total E e with hEe | hEe
  · exact mul_nonneg (sub_nonneg.2 (key.1 hEe)) (sub_nonneg.2 hEe)
  · exact mul_nonneg_of_nonpos_of_nonpos (sub_nonpos.2 (key.2 hEe)) (sub_nonpos.2 hEe)

end TNS
