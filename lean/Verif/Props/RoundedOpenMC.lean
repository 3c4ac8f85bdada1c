import Verif.Model.RoundedOpenMC
import Verif.Props.Rounded
import Verif.Props.OpenMC
import Verif.Spec.RoundedOpenMC
/-
C87: the OpenMC export in floating point arithmetic.
-/

set_option autoImplicit false

namespace TNS
open Spec
noncomputable section

/-- `a` and `b` agree up to `k` factors `1 - u`; symmetric. -/
def Factors (u : ℝ) (k : ℕ) (a b : ℝ) : Prop := b * (1 - u) ^ k ≤ a ∧ a * (1 - u) ^ k ≤ b

section
variable {u : ℝ} (h0 : 0 ≤ u) (h1 : u < 1)
include h0 h1

omit h0 h1 in
theorem Factors.symm {k : ℕ} {a b : ℝ} (h : Factors u k a b) : Factors u k b a := ⟨h.2, h.1⟩

omit h0 in
theorem Factors.trans {k j : ℕ} {a b c : ℝ} (h : Factors u k a b) (h' : Factors u j b c) : Factors u (k + j) a c := by
  have p1 : 0 ≤ (1 - u) ^ k := pow_nonneg (by linarith) k
  have p2 : 0 ≤ (1 - u) ^ j := pow_nonneg (by linarith) j
  constructor
  · calc c * (1 - u) ^ (k + j) = c * (1 - u) ^ j * (1 - u) ^ k := by ring
      _ ≤ b * (1 - u) ^ k := mul_le_mul_of_nonneg_right h'.1 p1
      _ ≤ a := h.1
  · calc a * (1 - u) ^ (k + j) = a * (1 - u) ^ k * (1 - u) ^ j := by ring
      _ ≤ b * (1 - u) ^ j := mul_le_mul_of_nonneg_right h.2 p2
      _ ≤ c := h'.2

theorem Factors.mono {k j : ℕ} {a b : ℝ} (h : Factors u k a b) (ha : 0 ≤ a) (hb : 0 ≤ b) (hkj : k ≤ j) :
    Factors u j a b := by
  have := pow_le_pow_of_le_one (a := 1 - u) (by linarith) (by linarith) hkj
  exact ⟨(mul_le_mul_of_nonneg_left this hb).trans h.1, (mul_le_mul_of_nonneg_left this ha).trans h.2⟩

omit h0 h1 in
theorem Factors.add {k : ℕ} {a b a' b' : ℝ} (h : Factors u k a b) (h' : Factors u k a' b') :
    Factors u k (a + a') (b + b') :=
  ⟨by rw [add_mul]; exact add_le_add h.1 h'.1, by rw [add_mul]; exact add_le_add h.2 h'.2⟩

omit h0 h1 in
theorem Factors.sum {α : Type} {k : ℕ} (l : List α) (f g : α → ℝ) (h : ∀ x ∈ l, Factors u k (f x) (g x)) :
    Factors u k (l.map f).sum (l.map g).sum := by
  induction l with
  | nil => simp [Factors]
  | cons a l ih =>
    simp only [List.map_cons, List.sum_cons]
    exact (h a (by simp)).add (ih fun x hx => h x (by simp [hx]))

omit h0 h1 in
theorem Factors.mul_right {k : ℕ} {a b c : ℝ} (h : Factors u k a b) (hc : 0 ≤ c) : Factors u k (a * c) (b * c) :=
  ⟨by have := mul_le_mul_of_nonneg_right h.1 hc; linarith,
    by have := mul_le_mul_of_nonneg_right h.2 hc; linarith⟩

omit h0 in
theorem Factors.pos {k : ℕ} {a b : ℝ} (h : Factors u k a b) (hb : 0 < b) : 0 < a :=
  (mul_pos hb (pow_pos (by linarith) k)).trans_le h.1

omit h0 in
theorem Factors.nonneg {k : ℕ} {a b : ℝ} (h : Factors u k a b) (hb : 0 ≤ b) : 0 ≤ a :=
  (mul_nonneg hb (pow_nonneg (by linarith) k)).trans h.1

omit h0 h1 in
theorem Factors.inv {k : ℕ} {a b : ℝ} (h : Factors u k a b) (ha : 0 < a) (hb : 0 < b) : Factors u k a⁻¹ b⁻¹ := by
  constructor
  · rw [inv_mul_le_iff₀ hb, ← div_eq_mul_inv, le_div_iff₀ ha]
    linarith [h.2]
  · rw [inv_mul_le_iff₀ ha, ← div_eq_mul_inv, le_div_iff₀ hb]
    linarith [h.1]

theorem Factors.div {k j : ℕ} {a b c d : ℝ} (h : Factors u k a b) (h' : Factors u j c d) (hb : 0 ≤ b)
    (hc : 0 < c) (hd : 0 < d) : Factors u (k + j) (a / c) (b / d) := by
  have e1 := h.mul_right (inv_nonneg.2 hc.le)
  have e2 := (h'.inv hc hd).mul_right hb
  rw [mul_comm _ b, mul_comm _ b] at e2
  exact Factors.trans h1 e1 e2

theorem Near.factors {k : ℕ} {a b : ℝ} (h : Near u k a b) (hb : 0 ≤ b) : Factors u k a b := by
  refine ⟨h.1, ?_⟩
  have p1 : 0 ≤ (1 - u) ^ k := pow_nonneg (by linarith) k
  have hpq : (1 + u) ^ k * (1 - u) ^ k ≤ 1 := by
    rw [← mul_pow]; exact pow_le_one₀ (by nlinarith) (by nlinarith)
  calc a * (1 - u) ^ k ≤ b * (1 + u) ^ k * (1 - u) ^ k := mul_le_mul_of_nonneg_right h.2 p1
    _ = b * ((1 + u) ^ k * (1 - u) ^ k) := by ring
    _ ≤ b := mul_le_of_le_one_right hb hpq

theorem Close.factors {k : ℕ} {a b : ℝ} (h : Close u k a b) (ha : 0 ≤ a) (hb : 0 ≤ b) : Factors u (2 * k) a b := by
  have hp : 0 ≤ (1 - u) ^ k := pow_nonneg (by linarith) k
  have hpq : (1 + u) ^ k * (1 - u) ^ k ≤ 1 := by
    rw [← mul_pow]; exact pow_le_one₀ (by nlinarith) (by nlinarith)
  constructor
  · calc b * (1 - u) ^ (2 * k) = b * (1 - u) ^ k * (1 - u) ^ k := by ring
      _ ≤ a * (1 + u) ^ k * (1 - u) ^ k := mul_le_mul_of_nonneg_right h.2 hp
      _ = a * ((1 + u) ^ k * (1 - u) ^ k) := by ring
      _ ≤ a := mul_le_of_le_one_right ha hpq
  · calc a * (1 - u) ^ (2 * k) = a * (1 - u) ^ k * (1 - u) ^ k := by ring
      _ ≤ b * (1 + u) ^ k * (1 - u) ^ k := mul_le_mul_of_nonneg_right h.1 hp
      _ = b * ((1 + u) ^ k * (1 - u) ^ k) := by ring
      _ ≤ b := mul_le_of_le_one_right hb hpq

theorem Factors.bound {k : ℕ} {a b : ℝ} (h : Factors u k a b) (hb : 0 ≤ b) (hk : (k : ℝ) * u ≤ 1 / 2) :
    |a - b| ≤ 2 * (k : ℝ) * u * b := tight_bound h0 h1 hb h.1 h.2 hk

end

theorem within_rd {A : Arith} {u : ℝ} (hA : StandardModel A u) {x : ℝ} (hx : 0 ≤ x) : Factors u 1 (A.rd x) x :=
  (near_rd hA hx).factors hA.u_nonneg hA.u_lt_one hx

theorem within_pySum {A : Arith} {u : ℝ} (hA : StandardModel A u) (l : List ℝ) (h : ∀ x ∈ l, 0 ≤ x) :
    Factors u (l.length - 1) (A.pySum l) l.sum :=
  (near_addsUp hA hA.pySum l h).factors hA.u_nonneg hA.u_lt_one (List.sum_nonneg h)

/-! ### The loops -/

theorem nStrengthR_holds (A : Arith) {s : Source ℝ} {f : Reaction → List ℝ} {g w : Reaction → ℝ}
    (hH : s.Holds f g w) :
    nStrengthR A s.strength = (s.sourceType.filter (fun r => r.isNeutronic)).map
      (fun r => (r, (f r).map (fun x => A.rd (x * (r.numNeutrons : ℝ))))) := by
  rw [hH.2.1, nStrengthR, List.filter_map, List.map_map]
  rfl

theorem cellWeights_inv {E : Type} (spectrum : Reaction → ℝ → Except Err E) (t : ℝ) (i : ℕ) (l : List Reaction)
    (g : Reaction → List ℝ) (w : List (ℝ × E))
    (h : cellWeights spectrum t i (l.map (fun r => (r, g r))) = .ok w) :
    List.Forall₂ (fun (r : Reaction) (p : ℝ × E) => p.1 = ((g r)[i]?).getD 0 ∧ spectrum r t = .ok p.2)
      (l.filter (fun r => decide (0 < ((g r)[i]?).getD 0))) w := by
  induction l generalizing w with
  | nil =>
    simp only [List.map_nil, cellWeights, Except.ok.injEq] at h
    subst h; exact .nil
  | cons a l ih =>
    rw [List.map_cons, cellWeights] at h
    cases e : (g a)[i]? with
    | none => rw [e] at h; simp at h
    | some v =>
      rw [e] at h
      simp only at h
      by_cases hp : 0 < v
      · rw [if_pos hp] at h
        cases e2 : spectrum a t with
        | error x => rw [e2] at h; simp [Bind.bind, Except.bind] at h
        | ok d =>
          cases e3 : cellWeights spectrum t i (l.map (fun r => (r, g r))) with
          | error x => rw [e2, e3] at h; simp [Bind.bind, Except.bind] at h
          | ok w' =>
            rw [e2, e3] at h
            simp only [Bind.bind, Except.bind, Except.ok.injEq] at h
            subst h
            rw [List.filter_cons_of_pos (by simpa [e] using hp)]
            exact .cons ⟨by simp [e], e2⟩ (ih w' e3)
      · rw [if_neg hp] at h
        rw [List.filter_cons_of_neg (by simpa [e] using hp)]
        exact ih w h

theorem mapM_filterMap {α β : Type} (F : α → Except Err (Option β)) (P : α → Bool) (R : α → β → Prop) (l : List α)
    (out : List (Option β)) (h : l.mapM F = .ok out)
    (hs : ∀ a ∈ l, ∀ b, F a = .ok b → (P a = false ∧ b = none) ∨ (P a = true ∧ ∃ c, b = some c ∧ R a c)) :
    List.Forall₂ R (l.filter P) (out.filterMap id) := by
  induction l generalizing out with
  | nil =>
    simp only [List.mapM_nil, Pure.pure, Except.pure, Except.ok.injEq] at h
    subst h; exact .nil
  | cons a l ih =>
    rw [List.mapM_cons] at h
    cases e : F a with
    | error x => rw [e] at h; simp [Bind.bind, Except.bind] at h
    | ok b =>
      cases e2 : l.mapM F with
      | error x => rw [e, e2] at h; simp [Bind.bind, Except.bind] at h
      | ok out' =>
        rw [e, e2] at h
        simp only [Bind.bind, Except.bind, Pure.pure, Except.pure, Except.ok.injEq] at h
        subst h
        have ih := ih out' e2 fun a ha => hs a (List.mem_cons_of_mem _ ha)
        rcases hs a List.mem_cons_self b e with ⟨hp, rfl⟩ | ⟨hp, c, rfl, hc⟩
        · rw [List.filter_cons_of_neg (by simp [hp])]; simpa using ih
        · rw [List.filter_cons_of_pos hp]; simpa using ⟨hc, ih⟩

theorem zipIdx_cellWise {s : Source ℝ} (h : CellWise s) :
    (List.zip s.x (List.zip s.z s.temperature)).zipIdx =
      (List.range s.x.length).map (fun i =>
        (((s.x[i]?).getD 0, (s.z[i]?).getD 0, (s.temperature[i]?).getD 0), i)) := by
  have h1 := h.z
  have h2 := h.temperature
  apply List.ext_getElem
  · simp [h1, h2]
  · intro i hi hi'
    have hx : i < s.x.length := by simpa using hi'
    have hz : i < s.z.length := by omega
    have ht : i < s.temperature.length := by omega
    simp [hx, hz, ht]

theorem forall₂_map_sum {α β : Type} (F : α → ℝ) (G : β → ℝ) {l : List α} {l' : List β}
    (h : List.Forall₂ (fun a b => G b = F a) l l') : l'.map G = l.map F := by
  induction h with
  | nil => rfl
  | cons h _ ih => simp [h, ih]

theorem sum_range_getD (l : List ℝ) : ((List.range l.length).map fun i => (l[i]?).getD 0).sum = l.sum := by
  congr 1
  apply List.ext_getElem
  · simp
  · intro i hi hi'
    simp at hi
    simp [hi]

theorem sum_filter_pos {α : Type} (l : List α) (F : α → ℝ) (h : ∀ a ∈ l, 0 ≤ F a) :
    ((l.filter fun a => decide (0 < F a)).map F).sum = (l.map F).sum := by
  induction l with
  | nil => rfl
  | cons a l ih =>
    have ih := ih fun a ha => h a (List.mem_cons_of_mem _ ha)
    by_cases hp : 0 < F a
    · rw [List.filter_cons_of_pos (by simpa using hp)]; simp [ih]
    · rw [List.filter_cons_of_neg (by simpa using hp)]
      have : F a = 0 := le_antisymm (not_lt.1 hp) (h a List.mem_cons_self)
      simp [ih, this]

/-! ### One cell -/

/-- What `reachableR_inv` gives, for a source with one entry per cell. -/
structure Prep (A : Arith) (u : ℝ) (j : ℕ) (s : Source ℝ) (f : Reaction → List ℝ) (g w : Reaction → ℝ) : Prop where
  std : StandardModel A u
  holds : s.Holds f g w
  wise : CellWise s
  nonneg : ∀ r ∈ s.sourceType, ∀ x ∈ f r, 0 ≤ x
  w_nonneg : ∀ r ∈ s.sourceType, 0 ≤ w r
  total : ∀ r ∈ s.sourceType, Factors u (2 * (cells s + 2 * j)) (w r) ((neutronYield r : ℝ) * (f r).sum)

theorem prep_of {A : Arith} {u : ℝ} (hA : StandardModel A u) {Q : Reaction → ℝ} (hQ : ∀ r, 0 < Q r) {j : ℕ}
    {s : Source ℝ} (h : ReachableR A Q j s) (hw : CellWise s) (hc : 0 < cells s) :
    ∃ f g w, Prep A u j s f g w := by
  have h0 := hA.u_nonneg
  have h1 := hA.u_lt_one
  obtain ⟨f, g, w, hH, hi⟩ := reachableR_inv hA hQ h
  refine ⟨f, g, w, hA, hH, hw, fun r hr => (hi r hr).1, fun r hr => (hi r hr).2.2.2.1, fun r hr => ?_⟩
  obtain ⟨hf, _, hg, hwr, c1, c2⟩ := hi r hr
  have hs := List.sum_nonneg hf
  have hn : (0 : ℝ) ≤ r.numNeutrons := Nat.cast_nonneg _
  have e1 := (c1.factors h0 h1 hg hs).mul_right hn
  have e2 := c2.factors h0 h1 hwr (mul_nonneg hg hn)
  have := e2.trans h1 e1
  have ek : 2 * (1 + j) + 2 * (cells s - 1 + j) = 2 * (cells s + 2 * j) := by omega
  rw [ek, mul_comm (f r).sum, numNeutrons_eq_yield] at this
  exact this

section
variable {A : Arith} {u : ℝ} {j : ℕ} {s : Source ℝ} {f : Reaction → List ℝ} {g w : Reaction → ℝ}

theorem Prep.cs (h : Prep A u j s f g w) {r : Reaction} (hr : r ∈ s.sourceType) (i : ℕ) :
    cellStrength s r i = ((f r)[i]?).getD 0 := by
  unfold cellStrength; rw [(h.holds.getD r hr).1]

theorem Prep.cs_nonneg (h : Prep A u j s f g w) {r : Reaction} (hr : r ∈ s.sourceType) (i : ℕ) :
    0 ≤ cellStrength s r i := by
  rw [h.cs hr]
  cases e : (f r)[i]? with
  | none => simp
  | some v => exact h.nonneg r hr v (List.mem_of_getElem? e)

/-- The product of strength and neutron yield, as the export computes it. -/
def wt (A : Arith) (f : Reaction → List ℝ) (i : ℕ) (r : Reaction) : ℝ :=
  (((f r).map (fun x => A.rd (x * (r.numNeutrons : ℝ))))[i]?).getD 0

theorem Prep.yc_nonneg (h : Prep A u j s f g w) {r : Reaction} (hr : r ∈ s.sourceType) (i : ℕ) :
    0 ≤ (neutronYield r : ℝ) * cellStrength s r i := mul_nonneg (Nat.cast_nonneg _) (h.cs_nonneg hr i)

theorem Prep.wt_within (h : Prep A u j s f g w) {r : Reaction} (hr : r ∈ s.sourceType) (i : ℕ) :
    Factors u 1 (wt A f i r) ((neutronYield r : ℝ) * cellStrength s r i) := by
  have h2 := h.yc_nonneg hr i
  rw [h.cs hr] at h2 ⊢
  unfold wt
  rw [List.getElem?_map]
  cases e : (f r)[i]? with
  | none => simp [Factors]
  | some v =>
    rw [e] at h2
    simp only [Option.map_some, Option.getD_some] at h2 ⊢
    rw [numNeutrons_eq_yield, mul_comm v]
    exact within_rd h.std h2

theorem Factors.pos_iff {u : ℝ} (h1 : u < 1) {k : ℕ} {a b : ℝ} (h : Factors u k a b) : 0 < a ↔ 0 < b :=
  ⟨h.symm.pos h1, h.pos h1⟩

/-- The reactions that emit neutrons in cell `i`. -/
def emitters (s : Source ℝ) (i : ℕ) : List Reaction :=
  s.sourceType.filter fun r => decide (0 < (neutronYield r : ℝ) * cellStrength s r i)

theorem Prep.emitters_eq (h : Prep A u j s f g w) (i : ℕ) :
    (s.sourceType.filter (fun r => r.isNeutronic)).filter (fun r => decide (0 < wt A f i r)) = emitters s i := by
  rw [emitters, List.filter_filter]
  apply List.filter_congr
  intro r hr
  have e := (h.wt_within hr i).pos_iff h.std.u_lt_one
  by_cases hn : r.isNeutronic
  · rw [hn, Bool.and_true, decide_eq_decide]; exact e
  · have : neutronYield r = 0 := by
      rcases r with (_ | _ | _) | (_ | _) <;> simp_all [neutronYield, Reaction.isNeutronic]
    simp [hn, this]

theorem Prep.emission_sum (h : Prep A u j s f g w) (i : ℕ) :
    ((emitters s i).map fun r => (neutronYield r : ℝ) * cellStrength s r i).sum = emission s i :=
  sum_filter_pos s.sourceType _ fun r hr => h.yc_nonneg hr i

theorem Prep.emission_nonneg (h : Prep A u j s f g w) (i : ℕ) : 0 ≤ emission s i := by
  apply List.sum_nonneg
  intro x hx
  obtain ⟨r, hr, rfl⟩ := List.mem_map.1 hx
  exact h.yc_nonneg hr i

theorem Prep.wt_sum (h : Prep A u j s f g w) (i : ℕ) :
    Factors u 1 ((emitters s i).map (wt A f i)).sum (emission s i) := by
  rw [← h.emission_sum i]
  exact Factors.sum _ _ _ fun r hr => h.wt_within (List.mem_of_mem_filter hr) i

theorem Prep.local_within (h : Prep A u j s f g w) (hm : 0 < s.sourceType.length) (i : ℕ) :
    Factors u s.sourceType.length (A.pySum ((emitters s i).map (wt A f i))) (emission s i) ∧
    Factors u (s.sourceType.length - 1) (A.pySum ((emitters s i).map (wt A f i)))
      ((emitters s i).map (wt A f i)).sum := by
  have h0 := h.std.u_nonneg
  have h1 := h.std.u_lt_one
  have hw0 : ∀ x ∈ (emitters s i).map (wt A f i), 0 ≤ x := by
    intro x hx
    obtain ⟨r, hr, rfl⟩ := List.mem_map.1 hx
    have hr := List.mem_of_mem_filter hr
    exact (h.wt_within hr i).nonneg h1 (h.yc_nonneg hr i)
  have e1 := within_pySum h.std _ hw0
  have hs := List.sum_nonneg hw0
  have hl : ((emitters s i).map (wt A f i)).length ≤ s.sourceType.length := by
    rw [List.length_map]; exact List.length_filter_le _ _
  have e2 := e1.mono h0 h1 (e1.nonneg h1 hs) hs (Nat.sub_le_sub_right hl 1)
  refine ⟨?_, e2⟩
  have := e2.trans h1 (h.wt_sum i)
  rwa [Nat.sub_add_cancel hm] at this

theorem Prep.totalEmission_eq (h : Prep A u j s f g w) :
    totalEmission s = (s.sourceType.map fun r => (neutronYield r : ℝ) * (f r).sum).sum := by
  unfold totalEmission emission
  rw [← sum_map_sum_comm]
  congr 1
  apply List.map_congr_left
  intro r hr
  rw [List.sum_map_mul_left]
  congr 1
  have hl := h.wise.strength r hr
  rw [strengths, (h.holds.getD r hr).1] at hl
  rw [← sum_range_getD (f r), hl]
  congr 1
  apply List.map_congr_left
  intro i _
  exact h.cs hr i

theorem Prep.rate_within (h : Prep A u j s f g w) :
    Factors u (s.sourceType.length - 1 + 2 * (cells s + 2 * j)) (s.sourceRateR A) (totalEmission s) := by
  have h1 := h.std.u_lt_one
  have e : s.numNeutrons.values = s.sourceType.map w := by
    rw [h.holds.2.2.2, Dict.values, List.map_map]; rfl
  have hw0 : ∀ x ∈ s.sourceType.map w, 0 ≤ x := by
    intro x hx
    obtain ⟨r, hr, rfl⟩ := List.mem_map.1 hx
    exact h.w_nonneg r hr
  have e1 := within_pySum h.std _ hw0
  rw [List.length_map] at e1
  rw [Source.sourceRateR, e, h.totalEmission_eq]
  exact e1.trans h1 (Factors.sum _ _ _ fun r hr => h.total r hr)

end

/-! ### Results -/

theorem forall₂_attach {α β : Type} {R : α → β → Prop} {l : List α} {l' : List β} (h : List.Forall₂ R l l') :
    List.Forall₂ (fun a b => a ∈ l ∧ R a b) l l' := by
  rw [List.forall₂_iff_get] at h ⊢
  exact ⟨h.1, fun i h1 h2 => ⟨List.get_mem _ _, h.2 i h1 h2⟩⟩

/-- What the loop body does for one cell. -/
theorem cellSourceR_inv {A : Arith} {u : ℝ} {j : ℕ} {s : Source ℝ} {f : Reaction → List ℝ} {g w : Reaction → ℝ}
    {E : Type} (h : Prep A u j s f g w) (hm : 0 < s.sourceType.length) (hpos : 0 < totalEmission s)
    (spectrum : Reaction → ℝ → Except Err E) (half : ℝ) (i : ℕ) (x z t : ℝ) (o : Option (Ring ℝ E))
    (e : cellSourceR A spectrum half (s.sourceRateR A) (nStrengthR A s.strength) ((x, z, t), i) = .ok o) :
    (emission s i = 0 ∧ o = none) ∨ (0 < emission s i ∧ ∃ ring : Ring ℝ E, o = some ring ∧
      (∃ σ, ring.strength = .fin σ ∧
        Factors u (2 * (s.sourceType.length + cells s + 2 * j)) σ (emission s i / totalEmission s)) ∧
      List.Forall₂ (fun (r : Reaction) (p : ℝ × E) =>
        Factors u (s.sourceType.length + 2) p.1 ((neutronYield r : ℝ) * cellStrength s r i / emission s i) ∧
        spectrum r t = .ok p.2) (emitters s i) ring.energy ∧
      Factors u s.sourceType.length (ring.energy.map Prod.fst).sum 1 ∧
      ring.rLo = A.rd (A.rd (x - half) * 100) ∧ ring.rHi = A.rd (A.rd (x + half) * 100) ∧
      ring.zLo = A.rd (A.rd (z - half) * 100) ∧ ring.zHi = A.rd (A.rd (z + half) * 100) ∧
      ring.pLo = A.rd (ring.rLo / A.pySum [ring.rLo, ring.rHi]) ∧
      ring.pHi = A.rd (ring.rHi / A.pySum [ring.rLo, ring.rHi])) := by
  have h0 := h.std.u_nonneg
  have h1 := h.std.u_lt_one
  unfold cellSourceR at e
  cases ew : cellWeights spectrum t i (nStrengthR A s.strength) with
  | error x => rw [ew] at e; simp [Bind.bind, Except.bind] at e
  | ok wl =>
    rw [ew] at e
    simp only [Bind.bind, Except.bind, Except.ok.injEq] at e
    rw [nStrengthR_holds A h.holds] at ew
    have hw := cellWeights_inv spectrum t i _ (fun r => (f r).map (fun x => A.rd (x * (r.numNeutrons : ℝ)))) wl ew
    change List.Forall₂ (fun (r : Reaction) (p : ℝ × E) => p.1 = wt A f i r ∧ spectrum r t = .ok p.2)
      ((s.sourceType.filter (fun r => r.isNeutronic)).filter (fun r => decide (0 < wt A f i r))) wl at hw
    rw [h.emitters_eq i] at hw
    have hfst : wl.map Prod.fst = (emitters s i).map (wt A f i) := by
      apply forall₂_map_sum; exact hw.imp fun a b hab => hab.1
    rw [hfst] at e
    set loc := A.pySum ((emitters s i).map (wt A f i)) with hloc
    obtain ⟨l1, l2⟩ := h.local_within hm i
    rw [← hloc] at l1 l2
    have hem := h.emission_nonneg i
    have hl0 := l1.nonneg h1 hem
    have hr := h.rate_within
    have hrp := hr.pos h1 hpos
    have q := l1.div h0 h1 hr hem hrp hpos
    have q2 := (within_rd h.std (div_nonneg hl0 hrp.le)).trans h1 q
    have ek : 1 + (s.sourceType.length + (s.sourceType.length - 1 + 2 * (cells s + 2 * j))) =
        2 * (s.sourceType.length + cells s + 2 * j) := by omega
    rw [ek] at q2
    by_cases hp : 0 < emission s i
    · right
      refine ⟨hp, ?_⟩
      have hσ := q2.pos h1 (div_pos hp hpos)
      rw [ringSourceR, if_pos hσ] at e
      refine ⟨_, e.symm, ⟨_, rfl, q2⟩, ?_, ?_, rfl, rfl, rfl, rfl, rfl, rfl⟩
      · have hlp := l1.pos h1 hp
        rw [List.forall₂_map_right_iff]
        refine (forall₂_attach hw).imp fun r p hrp => ⟨?_, hrp.2.2⟩
        have hrs := List.mem_of_mem_filter hrp.1
        have hy := h.yc_nonneg hrs i
        have d1 := (h.wt_within hrs i).div h0 h1 l1 hy hlp hp
        have hd : 0 ≤ wt A f i r / loc := div_nonneg ((h.wt_within hrs i).nonneg h1 hy) hl0
        have d2 := (within_rd h.std hd).trans h1 d1
        have e3 : 1 + (1 + s.sourceType.length) = s.sourceType.length + 2 := by omega
        rw [e3] at d2
        simp only
        rw [hrp.2.1]; exact d2
      · have hlp := l1.pos h1 hp
        have hsp : 0 < ((emitters s i).map (wt A f i)).sum := (h.wt_sum i).pos h1 hp
        have em : ((wl.map fun p => (A.rd (p.1 / loc), p.2)).map Prod.fst) =
            (emitters s i).map fun r => A.rd (wt A f i r / loc) := by
          rw [List.map_map]
          have : (Prod.fst ∘ fun p : ℝ × E => (A.rd (p.1 / loc), p.2)) = (fun x => A.rd (x / loc)) ∘ Prod.fst := rfl
          rw [this, ← List.map_map, hfst, List.map_map]; rfl
        simp only [em]
        have s1 : Factors u 1 ((emitters s i).map fun r => A.rd (wt A f i r / loc)).sum
            ((emitters s i).map fun r => wt A f i r / loc).sum := by
          refine Factors.sum _ _ _ fun r hr => within_rd h.std (div_nonneg ?_ hl0)
          have hrs := List.mem_of_mem_filter hr
          exact (h.wt_within hrs i).nonneg h1 (h.yc_nonneg hrs i)
        have s2 : ((emitters s i).map fun r => wt A f i r / loc).sum = ((emitters s i).map (wt A f i)).sum / loc := by
          simp only [div_eq_mul_inv]
          rw [List.sum_map_mul_right]
        rw [s2] at s1
        have s3 := l2.symm.mul_right (inv_nonneg.2 hlp.le)
        rw [mul_inv_cancel₀ hlp.ne', ← div_eq_mul_inv] at s3
        have s4 := s1.trans h1 s3
        have e4 : 1 + (s.sourceType.length - 1) = s.sourceType.length := by omega
        rwa [e4] at s4
    · left
      have hz : emission s i = 0 := le_antisymm (not_lt.1 hp) hem
      refine ⟨hz, ?_⟩
      have hσ : ¬ 0 < A.rd (loc / s.sourceRateR A) := by
        intro hσ
        have := (q2.pos_iff h1).1 hσ
        rw [hz, zero_div] at this
        exact lt_irrefl _ this
      rw [ringSourceR, if_neg hσ] at e
      exact e.symm

theorem toOpenmcR_inv {A : Arith} {u : ℝ} {j : ℕ} {s : Source ℝ} {f : Reaction → List ℝ} {g w : Reaction → ℝ}
    {E : Type} (h : Prep A u j s f g w) (hm : 0 < s.sourceType.length) (hpos : 0 < totalEmission s)
    (spectrum : Reaction → ℝ → Except Err E) (R : ℕ → Ring ℝ E → Prop)
    (hR : ∀ i < s.x.length, 0 < emission s i → ∀ x z t ring, s.x[i]? = some x → s.z[i]? = some z →
      s.temperature[i]? = some t →
      cellSourceR A spectrum (A.rd (s.cellSideLength / 2)) (s.sourceRateR A) (nStrengthR A s.strength)
        ((x, z, t), i) = .ok (some ring) → R i ring)
    (rings : List (Ring ℝ E)) (e : s.toOpenmcR A spectrum = .ok rings) : List.Forall₂ R (emitting s) rings := by
  have h1 := h.std.u_lt_one
  have hrp := h.rate_within.pos h1 hpos
  unfold Source.toOpenmcR at e
  simp only [if_neg hrp.ne'] at e
  rw [zipIdx_cellWise h.wise] at e
  cases el : ((List.range s.x.length).map (fun i =>
        (((s.x[i]?).getD 0, (s.z[i]?).getD 0, (s.temperature[i]?).getD 0), i))).mapM
        (cellSourceR A spectrum (A.rd (s.cellSideLength / 2)) (s.sourceRateR A) (nStrengthR A s.strength)) with
  | error x => rw [el] at e; simp [Bind.bind, Except.bind] at e
  | ok out =>
    rw [el] at e
    simp only [Bind.bind, Except.bind, Except.ok.injEq] at e
    subst e
    have := mapM_filterMap _ (fun c : (ℝ × ℝ × ℝ) × ℕ => decide (0 < emission s c.2))
      (fun c ring => R c.2 ring) _ out el ?_
    · rw [List.filter_map, List.forall₂_map_left_iff] at this
      exact this
    · intro c hc b hb
      obtain ⟨i, hi, rfl⟩ := List.mem_map.1 hc
      have hi := List.mem_range.1 hi
      have hz : i < s.z.length := by rw [h.wise.z]; exact hi
      have ht : i < s.temperature.length := by rw [h.wise.temperature]; exact hi
      rcases cellSourceR_inv h hm hpos spectrum _ i _ _ _ b hb with ⟨h2, h3⟩ | ⟨h2, ring, h3, _⟩
      · exact .inl ⟨by simp [h2], h3⟩
      · refine .inr ⟨by simpa using h2, ring, h3, ?_⟩
        subst h3
        refine hR i hi h2 _ _ _ ring (List.getElem?_eq_getElem hi) (List.getElem?_eq_getElem hz)
          (List.getElem?_eq_getElem ht) ?_
        simpa [hi, hz, ht] using hb

theorem positive_dims {s : Source ℝ} (hw : CellWise s) (hpos : 0 < totalEmission s) :
    0 < cells s ∧ 0 < s.sourceType.length := by
  constructor
  · by_contra hc
    have : s.x.length = 0 := by rw [← hw.volume]; unfold cells at hc; omega
    rw [totalEmission, this] at hpos
    simp at hpos
  · by_contra hc
    have : s.sourceType = [] := List.eq_nil_of_length_eq_zero (by omega)
    simp [totalEmission, emission, this] at hpos

/-- C87.  Every cell that emits neutrons, and no other, becomes one source, in the order of the cells; strengths,
spectra and their weights are those of the cell, up to a relative error that grows with the number of cells and
reactions and with the number of normalisations, but not with the values. -/
theorem C87_rings {A : Arith} {u : ℝ} (hA : StandardModel A u) {Q : Reaction → ℝ} (hQ : ∀ r, 0 < Q r) {j : ℕ}
    {s : Source ℝ} (hs : ReachableR A Q j s) (hw : CellWise s) (hpos : 0 < totalEmission s)
    (hsmall : 2 * ((s.sourceType.length : ℝ) + cells s + 2 * j) * u ≤ 1 / 2)
    {E : Type} (spectrum : Reaction → ℝ → Except Err E) (rings : List (Ring ℝ E))
    (h : s.toOpenmcR A spectrum = .ok rings) :
    List.Forall₂ (RingAccurate spectrum s (4 * ((s.sourceType.length : ℝ) + cells s + 2 * j) * u))
      (emitting s) rings := by
  have h0 := hA.u_nonneg
  have h1 := hA.u_lt_one
  obtain ⟨hc, hm⟩ := positive_dims hw hpos
  obtain ⟨f, g, w, hp⟩ := prep_of hA hQ hs hw hc
  have hc' : (1 : ℝ) ≤ cells s := by exact_mod_cast hc
  have hm' : (1 : ℝ) ≤ s.sourceType.length := by exact_mod_cast hm
  have hj' : (0 : ℝ) ≤ j := Nat.cast_nonneg _
  refine toOpenmcR_inv hp hm hpos spectrum _ ?_ rings h
  intro i hi hei x z t ring hx hz ht hcell
  rcases cellSourceR_inv hp hm hpos spectrum _ i x z t _ hcell with ⟨_, h3⟩ | ⟨_, ring', h3, ⟨σ, q1, q2⟩, q3, q4, _⟩
  · simp at h3
  · cases h3
    refine ⟨⟨σ, q1, ?_⟩, ?_, ?_⟩
    · have := q2.bound h0 h1 (div_nonneg hei.le hpos.le) (by push_cast; exact hsmall)
      push_cast at this
      exact this.trans (le_of_eq (by ring))
    · refine (forall₂_attach q3).imp fun r p hrp => ⟨?_, t, ht, hrp.2.2⟩
      have hy : 0 ≤ (neutronYield r : ℝ) * cellStrength s r i / emission s i :=
        div_nonneg (hp.yc_nonneg (List.mem_of_mem_filter hrp.1) i) hei.le
      have := hrp.2.1.bound h0 h1 hy (by push_cast; nlinarith)
      push_cast at this
      exact this.trans (mul_le_mul_of_nonneg_right (by nlinarith) hy)
    · have := q4.bound h0 h1 zero_le_one (by nlinarith)
      exact this.trans (by nlinarith)

theorem forall₂_sums {α β : Type} {l : List α} {l' : List β} (S : β → XF ℝ) (F : α → ℝ) (ε : ℝ)
    (h : List.Forall₂ (fun a b => ∃ σ : ℝ, S b = .fin σ ∧ |σ - F a| ≤ ε * F a) l l') :
    ∃ σs : List ℝ, l'.map S = σs.map .fin ∧ |σs.sum - (l.map F).sum| ≤ ε * (l.map F).sum := by
  induction h with
  | nil => exact ⟨[], rfl, by simp⟩
  | @cons a b _ _ h _ ih =>
    obtain ⟨σ, e1, e2⟩ := h
    obtain ⟨σs, e3, e4⟩ := ih
    refine ⟨σ :: σs, by simp [e1, e3], ?_⟩
    simp only [List.sum_cons, List.map_cons, mul_add]
    calc _ = |(σ - F a) + (σs.sum - (List.map F _).sum)| := by congr 1; ring
      _ ≤ _ := (abs_add_le _ _).trans (add_le_add e2 e4)

/-- C87.  The strengths of the exported sources add up to 1, up to the same relative error. -/
theorem C87_total {A : Arith} {u : ℝ} (hA : StandardModel A u) {Q : Reaction → ℝ} (hQ : ∀ r, 0 < Q r) {j : ℕ}
    {s : Source ℝ} (hs : ReachableR A Q j s) (hw : CellWise s) (hpos : 0 < totalEmission s)
    (hsmall : 2 * ((s.sourceType.length : ℝ) + cells s + 2 * j) * u ≤ 1 / 2)
    {E : Type} (spectrum : Reaction → ℝ → Except Err E) (rings : List (Ring ℝ E))
    (h : s.toOpenmcR A spectrum = .ok rings) :
    ∃ σs : List ℝ, rings.map Ring.strength = σs.map .fin ∧
      |σs.sum - 1| ≤ 4 * ((s.sourceType.length : ℝ) + cells s + 2 * j) * u := by
  have hr := C87_rings hA hQ hs hw hpos hsmall spectrum rings h
  obtain ⟨σs, e1, e2⟩ := forall₂_sums Ring.strength (fun i => emission s i / totalEmission s) _
    (hr.imp fun i r hi => hi.strength)
  obtain ⟨hc, hm⟩ := positive_dims hw hpos
  obtain ⟨f, g, w, hp⟩ := prep_of hA hQ hs hw hc
  have e : ((emitting s).map fun i => emission s i / totalEmission s).sum = 1 := by
    simp only [div_eq_mul_inv]
    rw [List.sum_map_mul_right, emitting, sum_filter_pos _ _ fun i _ => hp.emission_nonneg i]
    exact mul_inv_cancel₀ hpos.ne'
  rw [e, mul_one] at e2
  exact ⟨σs, e1, e2⟩

theorem rd_abs {A : Arith} {u : ℝ} (hA : StandardModel A u) (a b δ : ℝ) (h : |a - b| ≤ δ) (B : ℝ) (hB : |a| ≤ B) :
    |A.rd a - b| ≤ δ + u * B := by
  have := hA.rel a
  calc |A.rd a - b| = |(A.rd a - a) + (a - b)| := by congr 1; ring
    _ ≤ |A.rd a - a| + |a - b| := abs_add_le _ _
    _ ≤ u * |a| + δ := add_le_add this h
    _ ≤ δ + u * B := by have := mul_le_mul_of_nonneg_left hB hA.u_nonneg; linarith

/-- One coordinate of the extent. -/
theorem edge_bound {A : Arith} {u : ℝ} (hA : StandardModel A u) (hu : u ≤ 1 / 2) (x L : ℝ) (hL : 0 ≤ L) :
    |A.rd (A.rd (x - A.rd (L / 2)) * 100) - 100 * (x - L / 2)| ≤ 4 * u * (100 * (|x| + L)) ∧
    |A.rd (A.rd (x + A.rd (L / 2)) * 100) - 100 * (x + L / 2)| ≤ 4 * u * (100 * (|x| + L)) := by
  have h0 := hA.u_nonneg
  set B := |x| + L with hB
  have hx : |x| ≤ B := by linarith
  have hx0 := abs_nonneg x
  have hB0 : 0 ≤ B := by positivity
  have hh : |A.rd (L / 2) - L / 2| ≤ u * (L / 2) := by
    have := hA.rel (L / 2); rwa [abs_of_nonneg (by positivity : (0 : ℝ) ≤ L / 2)] at this
  set half := A.rd (L / 2) with hhalf
  have hLB : L ≤ B := by linarith
  have key : ∀ y : ℝ, |y - half| = |half - y| := fun y => abs_sub_comm _ _
  have hha : |half| ≤ L / 2 + L / 4 := by
    calc |half| = |(half - L / 2) + L / 2| := by congr 1; ring
      _ ≤ |half - L / 2| + |L / 2| := abs_add_le _ _
      _ ≤ u * (L / 2) + L / 2 := by rw [abs_of_nonneg (by positivity : (0 : ℝ) ≤ L / 2)]; linarith
      _ ≤ _ := by nlinarith
  have gen : ∀ c d : ℝ, |c - d| ≤ u * (L / 2) → |c| ≤ B → |A.rd (A.rd c * 100) - 100 * d| ≤ 4 * u * (100 * B) := by
    intro c d hcd hc
    have e1 := rd_abs hA c d _ hcd B hc
    have e2 : |A.rd c| ≤ (1 + u) * B := by
      have := hA.rel c
      calc |A.rd c| = |(A.rd c - c) + c| := by congr 1; ring
        _ ≤ |A.rd c - c| + |c| := abs_add_le _ _
        _ ≤ u * |c| + |c| := by linarith
        _ = (1 + u) * |c| := by ring
        _ ≤ _ := mul_le_mul_of_nonneg_left hc (by linarith)
    have e3 : |A.rd c * 100 - 100 * d| ≤ 100 * (u * (L / 2) + u * B) := by
      have : A.rd c * 100 - 100 * d = 100 * (A.rd c - d) := by ring
      rw [this, abs_mul, abs_of_pos (by norm_num : (0 : ℝ) < 100)]
      exact mul_le_mul_of_nonneg_left e1 (by norm_num)
    have e4 : |A.rd c * 100| ≤ 100 * ((1 + u) * B) := by
      rw [abs_mul, abs_of_pos (by norm_num : (0 : ℝ) < 100)]; linarith
    refine (rd_abs hA _ _ _ e3 _ e4).trans ?_
    have a1 : u * (L / 2) ≤ u * (B / 2) := mul_le_mul_of_nonneg_left (by linarith) h0
    have a2 : u * (u * B) ≤ u * (B / 2) := mul_le_mul_of_nonneg_left (by nlinarith) h0
    nlinarith
  constructor
  · refine gen _ _ ?_ ?_
    · have : x - half - (x - L / 2) = -(half - L / 2) := by ring
      rw [this, abs_neg]; exact hh
    · calc |x - half| ≤ |x| + |half| := abs_sub _ _
        _ ≤ B := by linarith
  · refine gen _ _ ?_ ?_
    · have : x + half - (x + L / 2) = half - L / 2 := by ring
      rw [this]; exact hh
    · calc |x + half| ≤ |x| + |half| := abs_add_le _ _
        _ ≤ B := by linarith

/-- C87.  The exported extents are those of the cells, in cm, up to a few rounding errors; the radial density is
proportional to the radius. -/
theorem C87_extent {A : Arith} {u : ℝ} (hA : StandardModel A u) (hu : u ≤ 1 / 4) {Q : Reaction → ℝ}
    (hQ : ∀ r, 0 < Q r) {j : ℕ} {s : Source ℝ} (hs : ReachableR A Q j s) (hw : CellWise s)
    (hpos : 0 < totalEmission s) (hL : 0 ≤ s.cellSideLength)
    {E : Type} (spectrum : Reaction → ℝ → Except Err E) (rings : List (Ring ℝ E))
    (h : s.toOpenmcR A spectrum = .ok rings) :
    List.Forall₂ (ExtentAccurate s (4 * u)) (emitting s) rings := by
  have h0 := hA.u_nonneg
  have h1 := hA.u_lt_one
  obtain ⟨hc, hm⟩ := positive_dims hw hpos
  obtain ⟨f, g, w, hp⟩ := prep_of hA hQ hs hw hc
  refine toOpenmcR_inv hp hm hpos spectrum _ ?_ rings h
  intro i hi hei x z t ring hx hz ht hcell
  rcases cellSourceR_inv hp hm hpos spectrum _ i x z t _ hcell with
    ⟨_, h3⟩ | ⟨_, ring', h3, _, _, _, q1, q2, q3, q4, q5, q6⟩
  · simp at h3
  · cases h3
    obtain ⟨a1, a2⟩ := edge_bound hA (by linarith) x s.cellSideLength hL
    obtain ⟨a3, a4⟩ := edge_bound hA (by linarith) z s.cellSideLength hL
    refine ⟨⟨x, z, hx, hz, by rw [q1]; exact a1, by rw [q2]; exact a2, by rw [q3]; exact a3, by rw [q4]; exact a4⟩, ?_⟩
    intro hlo hhi
    have hsum := within_pySum hA [ring.rLo, ring.rHi] (by
      intro y hy
      simp only [List.mem_cons, List.not_mem_nil, or_false] at hy
      rcases hy with rfl | rfl
      · exact hlo
      · exact hhi.le)
    simp only [List.length_cons, List.length_nil, List.sum_cons, List.sum_nil, add_zero] at hsum
    have hsp : 0 < ring.rLo + ring.rHi := by linarith
    have hsp' := hsum.pos h1 hsp
    have gen : ∀ y : ℝ, 0 ≤ y → RelClose (4 * u) (A.rd (y / A.pySum [ring.rLo, ring.rHi]))
        (y / (ring.rLo + ring.rHi)) := by
      intro y hy
      have self : Factors u 0 y y := by simp [Factors]
      have d := self.div h0 h1 hsum hy hsp' hsp
      have d2 := (within_rd hA (div_nonneg hy hsp'.le)).trans h1 d
      have := d2.bound h0 h1 (div_nonneg hy hsp.le) (by norm_num; linarith)
      norm_num at this
      exact this
    exact ⟨by rw [q5]; exact gen _ hlo, by rw [q6]; exact gen _ hhi.le⟩

/-- C87.  Rounding does not make the export fail: it succeeds when the spectra do. -/
theorem C87_succeeds {A : Arith} {u : ℝ} (hA : StandardModel A u) {Q : Reaction → ℝ} (hQ : ∀ r, 0 < Q r) {j : ℕ}
    {s : Source ℝ} (hs : ReachableR A Q j s) (hw : CellWise s) (hpos : 0 < totalEmission s)
    {E : Type} (spectrum : Reaction → ℝ → Except Err E) (sp : Reaction → ℝ → E)
    (hsp : ∀ r ∈ s.sourceType, 0 < neutronYield r → ∀ t ∈ s.temperature, spectrum r t = .ok (sp r t)) :
    ∃ rings, s.toOpenmcR A spectrum = .ok rings := by
  have h1 := hA.u_lt_one
  obtain ⟨hc, hm⟩ := positive_dims hw hpos
  obtain ⟨f, g, w, hp⟩ := prep_of hA hQ hs hw hc
  have hrp := hp.rate_within.pos h1 hpos
  unfold Source.toOpenmcR
  simp only [if_neg hrp.ne']
  rw [zipIdx_cellWise hw]
  have all : ∀ (l : List ((ℝ × ℝ × ℝ) × ℕ)) (F : (ℝ × ℝ × ℝ) × ℕ → Except Err (Option (Ring ℝ E))),
      (∀ c ∈ l, ∃ o, F c = .ok o) → ∃ out, l.mapM F = .ok out := by
    intro l F hF
    induction l with
    | nil => exact ⟨[], rfl⟩
    | cons a l ih =>
      obtain ⟨o, ho⟩ := hF a List.mem_cons_self
      obtain ⟨out, hout⟩ := ih fun c hc => hF c (List.mem_cons_of_mem _ hc)
      exact ⟨o :: out, by rw [List.mapM_cons, ho, hout]; rfl⟩
  obtain ⟨out, hout⟩ := all ((List.range s.x.length).map (fun i =>
        (((s.x[i]?).getD 0, (s.z[i]?).getD 0, (s.temperature[i]?).getD 0), i))) (cellSourceR A spectrum (A.rd (s.cellSideLength / 2)) (s.sourceRateR A)
    (nStrengthR A s.strength)) (by
      intro c hc
      obtain ⟨i, hi, rfl⟩ := List.mem_map.1 hc
      have hi := List.mem_range.1 hi
      have ht : i < s.temperature.length := by rw [hw.temperature]; exact hi
      unfold cellSourceR
      rw [nStrengthR_holds A hp.holds]
      simp only
      rw [cellWeights_eq spectrum sp _ i _ (fun r => (f r).map (fun x => A.rd (x * (r.numNeutrons : ℝ))))]
      · exact ⟨_, rfl⟩
      · intro r hr
        have hr := List.mem_of_mem_filter hr
        have := hw.strength r hr
        rw [strengths, (hp.holds.getD r hr).1] at this
        rw [List.length_map, this]; exact hi
      · intro r hr _
        have hy : 0 < neutronYield r := by
          have := (List.mem_filter.1 hr).2
          rcases r with (_ | _ | _) | (_ | _) <;> simp_all [Reaction.isNeutronic, neutronYield]
        refine hsp r (List.mem_of_mem_filter hr) hy _ ?_
        rw [List.getElem?_eq_getElem ht]; exact List.getElem_mem _)
  exact ⟨_, by rw [hout]; rfl⟩

/-- C87.  With binary64 numbers, up to a million cells, reactions and normalisations: nine digits. -/
theorem C87_million {Q : Reaction → ℝ} (hQ : ∀ r, 0 < Q r) {j : ℕ} {s : Source ℝ}
    (hs : ReachableR binary64 Q j s) (hw : CellWise s) (hpos : 0 < totalEmission s)
    (hn : s.sourceType.length + cells s + 2 * j ≤ 1000000)
    {E : Type} (spectrum : Reaction → ℝ → Except Err E) (rings : List (Ring ℝ E))
    (h : s.toOpenmcR binary64 spectrum = .ok rings) :
    List.Forall₂ (RingAccurate spectrum s (1 / 10 ^ 9)) (emitting s) rings ∧
    ∃ σs : List ℝ, rings.map Ring.strength = σs.map .fin ∧ |σs.sum - 1| ≤ 1 / 10 ^ 9 := by
  have hn' : (s.sourceType.length : ℝ) + cells s + 2 * j ≤ 1000000 := by exact_mod_cast hn
  have hc' : (0 : ℝ) ≤ (s.sourceType.length : ℝ) + cells s + 2 * j := by positivity
  have hu : (2 : ℝ) ^ (-53 : ℤ) ≤ 1 / (8 * 10 ^ 15) := by
    rw [zpow_neg]; norm_num
  have hu0 : (0 : ℝ) ≤ (2 : ℝ) ^ (-53 : ℤ) := by positivity
  have hsmall : 2 * ((s.sourceType.length : ℝ) + cells s + 2 * j) * (2 : ℝ) ^ (-53 : ℤ) ≤ 1 / 2 := by nlinarith
  have hε : 4 * ((s.sourceType.length : ℝ) + cells s + 2 * j) * (2 : ℝ) ^ (-53 : ℤ) ≤ 1 / 10 ^ 9 := by nlinarith
  have hr := C87_rings C74_binary64 hQ hs hw hpos hsmall spectrum rings h
  obtain ⟨σs, e1, e2⟩ := C87_total C74_binary64 hQ hs hw hpos hsmall spectrum rings h
  obtain ⟨hc, hm⟩ := positive_dims hw hpos
  obtain ⟨f, g, w, hp⟩ := prep_of C74_binary64 hQ hs hw hc
  refine ⟨(forall₂_attach hr).imp fun i ring hi => ⟨?_, ?_, hi.2.weights.trans hε⟩, σs, e1, e2.trans hε⟩
  · obtain ⟨σ, q1, q2⟩ := hi.2.strength
    exact ⟨σ, q1, q2.trans (mul_le_mul_of_nonneg_right hε (div_nonneg (hp.emission_nonneg i) hpos.le))⟩
  · refine (forall₂_attach hi.2.energy).imp fun r p hrp => ⟨?_, hrp.2.2⟩
    exact hrp.2.1.trans (mul_le_mul_of_nonneg_right hε
      (div_nonneg (hp.yc_nonneg (List.mem_of_mem_filter hrp.1) i) (hp.emission_nonneg i)))

/-- C87.  Without rounding the computation is that of `Verif.Model.OpenMC`, to which C18-C22 apply. -/
theorem C87_exact {E : Type} (spectrum : Reaction → ℝ → Except Err E) (s : Source ℝ) (h : s.sourceRate ≠ 0) :
    s.toOpenmcR exactArith spectrum = s.toOpenmc spectrum := by
  have hn : s.numNeutrons ≠ [] := by
    intro e; apply h; simp [Source.sourceRate, e, Dict.values]
  have e1 : s.sourceRateR exactArith = s.sourceRate := rfl
  have e2 : nStrengthR exactArith s.strength = nStrength s.strength := rfl
  unfold Source.toOpenmcR Source.toOpenmc combinedSource Source.pyRate
  rw [if_neg hn, e1, e2]
  simp only [if_neg h]
  have e3 : cellSourceR exactArith spectrum (exactArith.rd (s.cellSideLength / 2)) s.sourceRate (nStrength s.strength) =
      cellSource spectrum (s.cellSideLength / 2) (.float (.fin s.sourceRate)) (nStrength s.strength) := by
    funext c
    unfold cellSourceR cellSource
    cases cellWeights spectrum c.1.2.2 c.2 (nStrength s.strength) with
    | error x => rfl
    | ok w =>
      simp only [Bind.bind, Except.bind, pyDiv, Except.ok.injEq]
      rw [XF.fin_div _ _ h]
      unfold ringSourceR ringSource
      by_cases hp : 0 < (w.map Prod.fst).sum / s.sourceRate
      · have : (XF.fin ((w.map Prod.fst).sum / s.sourceRate) : XF ℝ).gt 0 = true := by
          simpa [XF.zero_eq, XF.gt] using hp
        rw [if_pos (show 0 < exactArith.rd (exactArith.pySum (w.map Prod.fst) / s.sourceRate) from hp), if_pos this]
        rfl
      · have : ¬ (XF.fin ((w.map Prod.fst).sum / s.sourceRate) : XF ℝ).gt 0 = true := by
          simpa [XF.zero_eq, XF.gt] using hp
        rw [if_neg (show ¬ 0 < exactArith.rd (exactArith.pySum (w.map Prod.fst) / s.sourceRate) from hp), if_neg this]
  rw [e3]

/-- A source of one cell in binary64 arithmetic meets the hypotheses of the theorems above, and its export is not
empty. -/
example : ∃ (s : Source ℝ) (rings : List (Ring ℝ Unit)), ReachableR binary64 (fun _ => 3) 0 s ∧ CellWise s ∧
    0 < totalEmission s ∧ s.sourceType.length + cells s + 2 * 0 ≤ 1000000 ∧ 0 ≤ s.cellSideLength ∧
    s.toOpenmcR binary64 (fun _ _ => .ok ()) = .ok rings ∧ rings.length = 1 := by
  have hp : parseSourceType (.list [.member .DT]) = .ok [.DT] := by
    have e : finishSourceType [Reaction.DT] = [Reaction.DT] := by rw [finish_eq_filter]; decide
    change Except.ok (finishSourceType [Reaction.DT]) = _
    rw [e]
  have hr := ReachableR.constructed (A := binary64) (Q := fun _ => 3) _ _ hp [5] [0] [2] [10] [1] [1]
    [0] 1 (fun _ => [1]) (by simp) (by simp) (by simp) (by simp) (by simp)
  have hu : (2 : ℝ) ^ (-53 : ℤ) ≤ 1 / 16 := by rw [zpow_neg]; norm_num
  obtain ⟨str, e1, e2⟩ := C74_strength C74_binary64 (by linarith) _ _ hp [5] [0] [2] [10] [1] [1]
    [0] 1 (fun _ => [1]) (by simp) (by simp) (by simp) (by simp) (by simp) .DT (by simp) 0 1 1 0 1 2 rfl
    rfl rfl rfl rfl
  set s := Source.initR binary64 [.DT] [5] [0] [2] [10] [1] [1] [0] 1 (fun _ => [1]) with hs
  obtain ⟨q1, q2, q3⟩ := initR_holds binary64 [.DT] (by simp) [5] [0] [2] [10] [1] [1] [0] 1 (fun _ => [1])
  rw [← hs] at q1 q2 q3
  have hlen : strengths s .DT = [str] := by
    unfold strengths at e1 ⊢
    rw [(q3.getD .DT (by rw [q1]; simp)).1] at e1 ⊢
    simp only [strengthR, pairDensityR, Reaction.DT, List.zipWith_cons_cons, List.zipWith_nil_left,
      List.getElem?_cons_zero, Option.some.injEq] at e1 ⊢
    rw [e1]
  have hstr : 0 < str := by
    rw [abs_le] at e2
    have hne : Species.deuterium ≠ Species.tritium := by decide
    norm_num [rateDensity, reactants, Reaction.DT, hne] at e2
    linarith [e2.1]
  have hx : s.x = [5] := rfl
  have hem : emission s 0 = str := by
    unfold emission cellStrength
    rw [q1]
    have : s.strength.getD .DT [] = [str] := hlen
    simp [this, neutronYield, Reaction.DT]
  have hwise : CellWise s := ⟨rfl, rfl, by rw [q2, hx]; rfl, by rw [q1, hx]; intro r hr; simp at hr; subst hr; rw [hlen]; rfl⟩
  have htot : totalEmission s = str := by
    unfold totalEmission
    rw [hx]
    simp [hem]
  have hpos : 0 < totalEmission s := by rw [htot]; exact hstr
  obtain ⟨rings, hrings⟩ := C87_succeeds (E := Unit) C74_binary64 (fun _ => by norm_num) hr hwise hpos
    (fun _ _ => .ok ()) (fun _ _ => ()) (fun _ _ _ _ _ => rfl)
  refine ⟨s, rings, hr, hwise, hpos, by rw [cells, q2, q1]; simp, zero_le_one, hrings, ?_⟩
  have := (C87_million (fun _ => by norm_num) hr hwise hpos (by rw [cells, q2, q1]; simp) _ rings hrings).1.length_eq
  rw [← this, emitting, hx]
  simp [List.range_succ, hem, hstr]

end
end TNS
