import Verif.Spec.Rounded
import Verif.Spec.Source
import Verif.Lemmas.Source
import Mathlib.Tactic.Linarith
import Mathlib.Tactic.Positivity
import Mathlib.Tactic.FieldSimp
import Mathlib.Tactic.Ring
/-
C74: normalisation and bookkeeping in floating point arithmetic (standard model, sums in any order).
-/

set_option autoImplicit false

namespace TNS
open Spec
noncomputable section

/-- `a` is `b` up to `k` roundings. -/
def Near (u : ℝ) (k : ℕ) (a b : ℝ) : Prop := b * (1 - u) ^ k ≤ a ∧ a ≤ b * (1 + u) ^ k

section
variable {u : ℝ} (h0 : 0 ≤ u) (h1 : u < 1)
include h0 h1

theorem Near.nonneg {k : ℕ} {a b : ℝ} (h : Near u k a b) (hb : 0 ≤ b) : 0 ≤ a :=
  (mul_nonneg hb (pow_nonneg (by linarith) k)).trans h.1

theorem Near.pos {k : ℕ} {a b : ℝ} (h : Near u k a b) (hb : 0 < b) : 0 < a :=
  (mul_pos hb (pow_pos (by linarith) k)).trans_le h.1

theorem Near.trans {k j : ℕ} {a b c : ℝ} (h : Near u k a b) (h' : Near u j b c) :
    Near u (j + k) a c := by
  have p1 : 0 ≤ (1 - u) ^ k := pow_nonneg (by linarith) k
  have p2 : 0 ≤ (1 + u) ^ k := pow_nonneg (by linarith) k
  constructor
  · calc c * (1 - u) ^ (j + k) = c * (1 - u) ^ j * (1 - u) ^ k := by ring
      _ ≤ b * (1 - u) ^ k := mul_le_mul_of_nonneg_right h'.1 p1
      _ ≤ a := h.1
  · calc a ≤ b * (1 + u) ^ k := h.2
      _ ≤ c * (1 + u) ^ j * (1 + u) ^ k := mul_le_mul_of_nonneg_right h'.2 p2
      _ = c * (1 + u) ^ (j + k) := by ring

theorem Near.mono {k j : ℕ} {a b : ℝ} (h : Near u k a b) (hb : 0 ≤ b) (hkj : k ≤ j) : Near u j a b :=
  ⟨(mul_le_mul_of_nonneg_left (pow_le_pow_of_le_one (by linarith) (by linarith) hkj) hb).trans h.1,
    h.2.trans (mul_le_mul_of_nonneg_left (pow_le_pow_right₀ (by linarith) hkj) hb)⟩

omit h0 h1 in
theorem Near.mul_right {k : ℕ} {a b c : ℝ} (h : Near u k a b) (hc : 0 ≤ c) :
    Near u k (a * c) (b * c) :=
  ⟨by have := mul_le_mul_of_nonneg_right h.1 hc; linarith,
    by have := mul_le_mul_of_nonneg_right h.2 hc; linarith⟩

omit h0 h1 in
theorem Near.add {k : ℕ} {a b a' b' : ℝ} (h : Near u k a b) (h' : Near u k a' b') :
    Near u k (a + a') (b + b') :=
  ⟨by rw [add_mul]; exact add_le_add h.1 h'.1, by rw [add_mul]; exact add_le_add h.2 h'.2⟩

omit h0 h1 in
theorem Near.zero (k : ℕ) : Near u k 0 0 := ⟨by simp, by simp⟩

omit h0 h1 in
theorem Near.sum {α : Type} {k : ℕ} (l : List α) (f g : α → ℝ) (h : ∀ x ∈ l, Near u k (f x) (g x)) :
    Near u k (l.map f).sum (l.map g).sum := by
  induction l with
  | nil => exact Near.zero k
  | cons a l ih =>
    simp only [List.map_cons, List.sum_cons]
    exact (h a (by simp)).add (ih fun x hx => h x (by simp [hx]))

/-- `k` roundings are a relative error of at most `2 k u`. -/
theorem Near.bound {k : ℕ} {a b : ℝ} (h : Near u k a b) (hb : 0 ≤ b) (hk : (k : ℝ) * u ≤ 1 / 2) :
    |a - b| ≤ 2 * (k : ℝ) * u * b := by
  have l1 : 1 - (k : ℝ) * u ≤ (1 - u) ^ k := by
    have := one_add_mul_le_pow (a := -u) (by linarith) k
    have e : 1 + -u = 1 - u := by ring
    rw [e] at this; linarith
  have l2 : (1 + u) ^ k ≤ 1 + 2 * (k : ℝ) * u := by
    have hp : 0 < (1 - u) ^ k := pow_pos (by linarith) k
    have e1 : (1 + u) ^ k * (1 - u) ^ k ≤ 1 := by
      rw [← mul_pow]
      exact pow_le_one₀ (by nlinarith) (by nlinarith)
    have e2 : (1 + u) ^ k * (1 - (k : ℝ) * u) ≤ 1 :=
      (mul_le_mul_of_nonneg_left l1 (pow_nonneg (by linarith) k)).trans e1
    have hku : 0 ≤ (k : ℝ) * u := by positivity
    have e3 : 1 ≤ (1 + 2 * (k : ℝ) * u) * (1 - (k : ℝ) * u) := by nlinarith
    have hpos : 0 < 1 - (k : ℝ) * u := by linarith
    exact le_of_mul_le_mul_right (e2.trans e3) hpos
  have hku : 0 ≤ (k : ℝ) * u := by positivity
  rw [abs_le]
  constructor
  · have := mul_le_mul_of_nonneg_left l1 hb
    have := h.1
    nlinarith [mul_nonneg hb hku]
  · have := mul_le_mul_of_nonneg_left l2 hb
    have := h.2
    nlinarith

end

section
variable {A : Arith} {u : ℝ} (hA : StandardModel A u)
include hA

theorem near_rd {x : ℝ} (hx : 0 ≤ x) : Near u 1 (A.rd x) x := by
  have := hA.rel x
  rw [abs_of_nonneg hx, abs_le] at this
  constructor
  · rw [pow_one]; linarith [this.1]
  · rw [pow_one]; linarith [this.2]

theorem rd_nonneg {x : ℝ} (hx : 0 ≤ x) : 0 ≤ A.rd x := (near_rd hA hx).nonneg hA.u_nonneg hA.u_lt_one hx

theorem near_tree (t : SumTree) (h : ∀ x ∈ t.leaves, 0 ≤ x) :
    1 ≤ t.leaves.length ∧ 0 ≤ t.leaves.sum ∧ Near u (t.leaves.length - 1) (t.eval A.rd) t.leaves.sum := by
  induction t with
  | leaf x => exact ⟨by simp [SumTree.leaves], by simpa [SumTree.leaves] using h x (by simp [SumTree.leaves]),
      by simp [SumTree.leaves, SumTree.eval, Near]⟩
  | node a b iha ihb =>
    obtain ⟨a1, a2, a3⟩ := iha fun x hx => h x (by simp [SumTree.leaves, hx])
    obtain ⟨b1, b2, b3⟩ := ihb fun x hx => h x (by simp [SumTree.leaves, hx])
    simp only [SumTree.leaves, SumTree.eval, List.length_append, List.sum_append]
    refine ⟨by omega, by linarith, ?_⟩
    have h0 := hA.u_nonneg
    have h1 := hA.u_lt_one
    have c1 := a3.mono h0 h1 a2 (show a.leaves.length - 1 ≤ a.leaves.length + b.leaves.length - 2 by omega)
    have c2 := b3.mono h0 h1 b2 (show b.leaves.length - 1 ≤ a.leaves.length + b.leaves.length - 2 by omega)
    have c3 := c1.add c2
    have c4 := near_rd hA (c3.nonneg h0 h1 (by linarith))
    have := c4.trans h0 h1 c3
    have e : a.leaves.length + b.leaves.length - 2 + 1 = a.leaves.length + b.leaves.length - 1 := by omega
    rwa [e] at this

theorem near_addsUp {f : List ℝ → ℝ} (hf : AddsUp A.rd f) (l : List ℝ) (h : ∀ x ∈ l, 0 ≤ x) :
    Near u (l.length - 1) (f l) l.sum := by
  by_cases hl : l = []
  · subst hl; rw [hf.1]; simpa using Near.zero 0
  · obtain ⟨t, ht, e⟩ := hf.2 l hl
    have := (near_tree hA t fun x hx => h x (ht.mem_iff.1 hx)).2.2
    rw [e, ← ht.sum_eq, ← ht.length_eq]
    exact this

end

/-! ### Shape of the state -/

/-- The dictionaries of a source, with strengths `f`, rates `g` and neutron rates `w`. -/
def Source.Holds (s : Source ℝ) (f : Reaction → List ℝ) (g w : Reaction → ℝ) : Prop :=
  s.sourceType.Nodup ∧
  s.strength = s.sourceType.map (fun r => (r, f r)) ∧
  s.numReactions = s.sourceType.map (fun r => (r, g r)) ∧
  s.numNeutrons = s.sourceType.map (fun r => (r, w r))

theorem foldl_addReactionR (A : Arith) (d t h : List ℝ) (sv : Reaction → List ℝ) (l : List Reaction)
    (hl : l.Nodup) (s0 : Source ℝ)
    (h1 : ∀ r ∈ l, r ∉ s0.strength.keys) (h2 : ∀ r ∈ l, r ∉ s0.numReactions.keys)
    (h3 : ∀ r ∈ l, r ∉ s0.numNeutrons.keys) :
    l.foldl (Source.addReactionR A d t h sv) s0 = { s0 with
      strength := s0.strength ++ l.map (fun r => (r, strengthR A d t h (sv r) s0.dVolume r))
      numReactions := s0.numReactions ++
        l.map (fun r => (r, A.pySum (strengthR A d t h (sv r) s0.dVolume r)))
      numNeutrons := s0.numNeutrons ++ l.map (fun r => (r,
        A.rd (A.pySum (strengthR A d t h (sv r) s0.dVolume r) * (r.numNeutrons : ℝ)))) } := by
  induction l generalizing s0 with
  | nil => simp
  | cons a l ih =>
    rw [List.nodup_cons] at hl
    have key : ∀ r ∈ l, r ≠ a := fun r hr e => hl.1 (e ▸ hr)
    rw [List.foldl_cons]
    have hadd : Source.addReactionR A d t h sv s0 a =
          { s0 with
            strength := s0.strength ++ [(a, strengthR A d t h (sv a) s0.dVolume a)]
            numReactions := s0.numReactions ++ [(a, A.pySum (strengthR A d t h (sv a) s0.dVolume a))]
            numNeutrons := s0.numNeutrons ++ [(a,
              A.rd (A.pySum (strengthR A d t h (sv a) s0.dVolume a) * (a.numNeutrons : ℝ)))] } := by
      simp only [Source.addReactionR]
      rw [Dict.set_of_not_mem _ _ _ (h1 a List.mem_cons_self),
          Dict.set_of_not_mem _ _ _ (h2 a List.mem_cons_self),
          Dict.set_of_not_mem _ _ _ (h3 a List.mem_cons_self)]
    rw [hadd, ih hl.2]
    · simp
    · intro r hr; simp only [Dict.keys_append, List.mem_append]
      rintro (hh | hh)
      · exact h1 r (List.mem_cons_of_mem _ hr) hh
      · simp [Dict.keys] at hh; exact key r hr hh
    · intro r hr; simp only [Dict.keys_append, List.mem_append]
      rintro (hh | hh)
      · exact h2 r (List.mem_cons_of_mem _ hr) hh
      · simp [Dict.keys] at hh; exact key r hr hh
    · intro r hr; simp only [Dict.keys_append, List.mem_append]
      rintro (hh | hh)
      · exact h3 r (List.mem_cons_of_mem _ hr) hh
      · simp [Dict.keys] at hh; exact key r hr hh

theorem initR_holds (A : Arith) (st : List Reaction) (hst : st.Nodup) (x z vol temp d t h : List ℝ)
    (L : ℝ) (sv : Reaction → List ℝ) :
    (Source.initR A st x z vol temp d t h L sv).sourceType = st ∧
    (Source.initR A st x z vol temp d t h L sv).dVolume = vol ∧
    (Source.initR A st x z vol temp d t h L sv).Holds
      (fun r => strengthR A d t h (sv r) vol r)
      (fun r => A.pySum (strengthR A d t h (sv r) vol r))
      (fun r => A.rd (A.pySum (strengthR A d t h (sv r) vol r) * (r.numNeutrons : ℝ))) := by
  unfold Source.initR
  rw [foldl_addReactionR A d t h sv st hst _ (by simp [Dict.keys]) (by simp [Dict.keys])
    (by simp [Dict.keys])]
  exact ⟨rfl, rfl, hst, by simp, by simp, by simp⟩

theorem foldl_scaleReactionR (A : Arith) (c : ℝ) (l : List Reaction) (s : Source ℝ) :
    l.foldl (Source.scaleReactionR A c) s =
      { s with
        strength := l.foldl (fun d r => d.modify r (fun l => l.map fun x => A.rd (x * c))) s.strength
        numReactions := l.foldl (fun d r => d.modify r (fun x => A.rd (x * c))) s.numReactions
        numNeutrons := l.foldl (fun d r => d.modify r (fun x => A.rd (x * c))) s.numNeutrons } := by
  induction l generalizing s with
  | nil => rfl
  | cons a l ih => simp only [List.foldl_cons, ih, Source.scaleReactionR]

theorem Source.Holds.scale {s : Source ℝ} {f : Reaction → List ℝ} {g w : Reaction → ℝ}
    (h : s.Holds f g w) (A : Arith) (c : ℝ) :
    (s.sourceType.foldl (Source.scaleReactionR A c) s).sourceType = s.sourceType ∧
    (s.sourceType.foldl (Source.scaleReactionR A c) s).dVolume = s.dVolume ∧
    (s.sourceType.foldl (Source.scaleReactionR A c) s).Holds
      (fun r => (f r).map fun x => A.rd (x * c)) (fun r => A.rd (g r * c)) (fun r => A.rd (w r * c)) := by
  obtain ⟨h0, h1, h2, h3⟩ := h
  rw [foldl_scaleReactionR,
      Dict.foldl_modify_all _ h0 _ _ (by rw [h1]; simp [Dict.keys]),
      Dict.foldl_modify_all _ h0 _ _ (by rw [h2]; simp [Dict.keys]),
      Dict.foldl_modify_all _ h0 _ _ (by rw [h3]; simp [Dict.keys])]
  refine ⟨rfl, rfl, h0, ?_, ?_, ?_⟩
  · simp [h1, List.map_map, Function.comp_def]
  · simp [h2, List.map_map, Function.comp_def]
  · simp [h3, List.map_map, Function.comp_def]

theorem Source.Holds.getD {s : Source ℝ} {f : Reaction → List ℝ} {g w : Reaction → ℝ}
    (h : s.Holds f g w) (r : Reaction) (hr : r ∈ s.sourceType) :
    s.strength.getD r [] = f r ∧ s.numReactions.getD r 0 = g r ∧ s.numNeutrons.getD r 0 = w r := by
  obtain ⟨h0, h1, h2, h3⟩ := h
  refine ⟨?_, ?_, ?_⟩
  · rw [h1]; simp [Dict.getD, Dict.get?_map_pair, hr]
  · rw [h2]; simp [Dict.getD, Dict.get?_map_pair, hr]
  · rw [h3]; simp [Dict.getD, Dict.get?_map_pair, hr]

/-! ### Invariant -/

theorem zipWith_nonneg (A : Arith) (u : ℝ) (hA : StandardModel A u) (l l' : List ℝ)
    (h : ∀ a ∈ l, 0 ≤ a) (h' : ∀ a ∈ l', 0 ≤ a) :
    ∀ a ∈ List.zipWith (fun a b => A.rd (a * b)) l l', 0 ≤ a := by
  intro a ha
  rw [List.mem_iff_getElem] at ha
  obtain ⟨i, hi, rfl⟩ := ha
  rw [List.getElem_zipWith]
  exact rd_nonneg hA (mul_nonneg (h _ (List.getElem_mem _)) (h' _ (List.getElem_mem _)))

theorem strengthR_nonneg (A : Arith) (u : ℝ) (hA : StandardModel A u) (d t h sv vol : List ℝ)
    (hvol : ∀ a ∈ vol, 0 ≤ a) (hd : ∀ a ∈ d, 0 ≤ a) (ht : ∀ a ∈ t, 0 ≤ a) (hh : ∀ a ∈ h, 0 ≤ a)
    (hsv : ∀ a ∈ sv, 0 ≤ a) (r : Reaction) : ∀ a ∈ strengthR A d t h sv vol r, 0 ≤ a := by
  unfold strengthR
  refine zipWith_nonneg A u hA _ _ (zipWith_nonneg A u hA _ _ ?_ hsv) hvol
  have half : ∀ l : List ℝ, (∀ a ∈ l, 0 ≤ a) → ∀ a ∈ l.map (fun x => A.rd (x / 2)), 0 ≤ a := by
    intro l hl a ha
    obtain ⟨b, hb, rfl⟩ := List.mem_map.1 ha
    exact rd_nonneg hA (div_nonneg (hl b hb) (by norm_num))
  rcases r with (_ | _ | _) | (_ | _) <;> simp only [pairDensityR]
  all_goals first
    | exact half _ (zipWith_nonneg A u hA _ _ hd hd)
    | exact half _ (zipWith_nonneg A u hA _ _ ht ht)
    | exact zipWith_nonneg A u hA _ _ hd ht
    | exact zipWith_nonneg A u hA _ _ hd hh

/-- `a` and `b` agree up to `k` roundings each. -/
def Close (u : ℝ) (k : ℕ) (a b : ℝ) : Prop :=
  a * (1 - u) ^ k ≤ b * (1 + u) ^ k ∧ b * (1 - u) ^ k ≤ a * (1 + u) ^ k

theorem Close.step {u : ℝ} (h0 : 0 ≤ u) (h1 : u < 1) {k : ℕ} {a b a' b' c : ℝ} (h : Close u k a b)
    (hc : 0 ≤ c) (ha : Near u 1 a' (a * c)) (hb : Near u 1 b' (b * c)) : Close u (k + 1) a' b' := by
  obtain ⟨a1, a2⟩ := ha
  obtain ⟨b1, b2⟩ := hb
  rw [pow_one] at a1 a2 b1 b2
  have p1 : 0 ≤ (1 - u) ^ (k + 1) := pow_nonneg (by linarith) _
  have p2 : 0 ≤ (1 + u) ^ (k + 1) := pow_nonneg (by linarith) _
  have q : 0 ≤ c * (1 + u) * (1 - u) := mul_nonneg (mul_nonneg hc (by linarith)) (by linarith)
  constructor
  · calc a' * (1 - u) ^ (k + 1) ≤ a * c * (1 + u) * (1 - u) ^ (k + 1) := mul_le_mul_of_nonneg_right a2 p1
      _ = (a * (1 - u) ^ k) * (c * (1 + u) * (1 - u)) := by ring
      _ ≤ (b * (1 + u) ^ k) * (c * (1 + u) * (1 - u)) := mul_le_mul_of_nonneg_right h.1 q
      _ = b * c * (1 - u) * (1 + u) ^ (k + 1) := by ring
      _ ≤ b' * (1 + u) ^ (k + 1) := mul_le_mul_of_nonneg_right b1 p2
  · calc b' * (1 - u) ^ (k + 1) ≤ b * c * (1 + u) * (1 - u) ^ (k + 1) := mul_le_mul_of_nonneg_right b2 p1
      _ = (b * (1 - u) ^ k) * (c * (1 + u) * (1 - u)) := by ring
      _ ≤ (a * (1 + u) ^ k) * (c * (1 + u) * (1 - u)) := mul_le_mul_of_nonneg_right h.2 q
      _ = a * c * (1 - u) * (1 + u) ^ (k + 1) := by ring
      _ ≤ a' * (1 + u) ^ (k + 1) := mul_le_mul_of_nonneg_right a1 p2

theorem Near.close {u : ℝ} (h0 : 0 ≤ u) (h1 : u < 1) {k : ℕ} {a b : ℝ} (h : Near u k a b) (hb : 0 ≤ b) :
    Close u k a b := by
  have ha := h.nonneg h0 h1 hb
  have p1 : (1 - u) ^ k ≤ 1 := pow_le_one₀ (by linarith) (by linarith)
  have p2 : 1 ≤ (1 + u) ^ k := one_le_pow₀ (by linarith)
  constructor
  · exact (mul_le_of_le_one_right ha p1).trans h.2
  · exact h.1.trans (le_mul_of_one_le_right ha p2)

theorem Close.bound {u : ℝ} (h0 : 0 ≤ u) (h1 : u < 1) {k : ℕ} {a b : ℝ} (h : Close u k a b)
    (hb : 0 ≤ b) (hk : 2 * (k : ℝ) * u ≤ 1 / 2) : |a - b| ≤ 4 * (k : ℝ) * u * b := by
  have hp : 0 < (1 - u) ^ k := pow_pos (by linarith) k
  have hq : 0 < (1 + u) ^ k := pow_pos (by linarith) k
  have l1 : 1 - 2 * (k : ℝ) * u ≤ (1 - u) ^ (2 * k) := by
    have := one_add_mul_le_pow (a := -u) (by linarith) (2 * k)
    have e : 1 + -u = 1 - u := by ring
    rw [e] at this; push_cast at this; linarith
  have hpq : (1 + u) ^ k * (1 - u) ^ k ≤ 1 := by
    rw [← mul_pow]; exact pow_le_one₀ (by nlinarith) (by nlinarith)
  have hku : 0 ≤ (k : ℝ) * u := by positivity
  -- a (1-u)^{2k} ≤ b
  have e1 : a * (1 - u) ^ (2 * k) ≤ b := by
    calc a * (1 - u) ^ (2 * k) = a * (1 - u) ^ k * (1 - u) ^ k := by ring
      _ ≤ b * (1 + u) ^ k * (1 - u) ^ k := mul_le_mul_of_nonneg_right h.1 hp.le
      _ = b * ((1 + u) ^ k * (1 - u) ^ k) := by ring
      _ ≤ b := mul_le_of_le_one_right hb hpq
  have ha : 0 ≤ a := by
    have := (mul_nonneg hb hp.le).trans h.2
    exact nonneg_of_mul_nonneg_left this hq
  have e2 : b * (1 - u) ^ (2 * k) ≤ a := by
    calc b * (1 - u) ^ (2 * k) = b * (1 - u) ^ k * (1 - u) ^ k := by ring
      _ ≤ a * (1 + u) ^ k * (1 - u) ^ k := mul_le_mul_of_nonneg_right h.2 hp.le
      _ = a * ((1 + u) ^ k * (1 - u) ^ k) := by ring
      _ ≤ a := mul_le_of_le_one_right ha hpq
  have f1 := (mul_le_mul_of_nonneg_left l1 ha).trans e1
  have f2 := (mul_le_mul_of_nonneg_left l1 hb).trans e2
  rw [abs_le]
  constructor
  · nlinarith [mul_nonneg hb hku]
  · -- a ≤ b / (1 - 2ku) ≤ b (1 + 4ku)
    have : (1 : ℝ) ≤ (1 + 4 * (k : ℝ) * u) * (1 - 2 * (k : ℝ) * u) := by nlinarith
    have hpos : 0 < 1 - 2 * (k : ℝ) * u := by linarith
    have : b ≤ b * (1 + 4 * (k : ℝ) * u) * (1 - 2 * (k : ℝ) * u) := by
      rw [mul_assoc]; exact le_mul_of_one_le_right hb this
    have := le_of_mul_le_mul_right (f1.trans this) hpos
    linarith

/-- What is true of a source after `j` normalisations. -/
theorem reachableR_inv {A : Arith} {u : ℝ} (hA : StandardModel A u) {Q : Reaction → ℝ}
    (hQ : ∀ r, 0 < Q r) {j : ℕ} {s : Source ℝ} (h : ReachableR A Q j s) :
    ∃ f g w, s.Holds f g w ∧ ∀ r ∈ s.sourceType, (∀ x ∈ f r, 0 ≤ x) ∧ (f r).length ≤ cells s ∧
      0 ≤ g r ∧ 0 ≤ w r ∧ Close u (cells s - 1 + j) (g r) (f r).sum ∧
      Close u (1 + j) (w r) (g r * (r.numNeutrons : ℝ)) := by
  have h0 := hA.u_nonneg
  have h1 := hA.u_lt_one
  induction h with
  | constructed arg st hst x z vol temp d t h L sv hvol hd ht hh hsv =>
    obtain ⟨e1, e2, e3⟩ := initR_holds A st (parse_nodup hst) x z vol temp d t h L sv
    refine ⟨_, _, _, e3, fun r hr => ?_⟩
    have hnn := strengthR_nonneg A u hA d t h (sv r) vol hvol hd ht hh (hsv r) r
    have hlen : (strengthR A d t h (sv r) vol r).length ≤ vol.length := by
      unfold strengthR; rw [List.length_zipWith]; exact min_le_right _ _
    have hs := List.sum_nonneg hnn
    have hn := near_addsUp hA hA.pySum _ hnn
    have hn0 := hn.nonneg h0 h1 hs
    have hy : (0 : ℝ) ≤ (r.numNeutrons : ℝ) := Nat.cast_nonneg _
    have hw := near_rd hA (mul_nonneg hn0 hy)
    refine ⟨hnn, by rw [cells, e2]; exact hlen, hn0, rd_nonneg hA (mul_nonneg hn0 hy), ?_, ?_⟩
    · rw [cells, e2, add_zero]
      exact (hn.mono h0 h1 hs (by omega)).close h0 h1 hs
    · exact hw.close h0 h1 (mul_nonneg hn0 hy)
  | @normalised j s P s' hs hP h ih =>
    obtain ⟨f, g, w, hH, hi⟩ := ih
    unfold Source.normaliseR at h
    split_ifs at h with c1 c2
    cases h
    set c := A.rd (P / s.totalPowerR A Q) with hc
    obtain ⟨e1, e2, e3⟩ := hH.scale A c
    -- the computed power is positive
    have hT : 0 ≤ s.totalPowerR A Q := by
      unfold Source.totalPowerR
      have hin : ∀ y ∈ s.sourceType.map (fun r => A.npSum ((s.strength.getD r []).map
          fun x => A.rd (x * Q r))), 0 ≤ y := by
        intro y hy
        obtain ⟨r, hr, rfl⟩ := List.mem_map.1 hy
        rw [(hH.getD r hr).1]
        have hin : ∀ y ∈ (f r).map (fun x => A.rd (x * Q r)), 0 ≤ y := by
          intro y hy
          obtain ⟨x, hx, rfl⟩ := List.mem_map.1 hy
          exact rd_nonneg hA (mul_nonneg ((hi r hr).1 x hx) (hQ r).le)
        exact (near_addsUp hA hA.npSum _ hin).nonneg h0 h1 (List.sum_nonneg hin)
      exact (near_addsUp hA hA.pySum _ hin).nonneg h0 h1 (List.sum_nonneg hin)
    have hc0 : 0 ≤ c := rd_nonneg hA (div_nonneg hP.le hT)
    refine ⟨_, _, _, e3, fun r hr => ?_⟩
    rw [e1] at hr
    obtain ⟨i1, i2, i3, i4, i5, i6⟩ := hi r hr
    have ni1 : ∀ x ∈ (f r).map (fun x => A.rd (x * c)), 0 ≤ x := by
      intro y hy
      obtain ⟨x, hx, rfl⟩ := List.mem_map.1 hy
      exact rd_nonneg hA (mul_nonneg (i1 x hx) hc0)
    have hcells : cells (s.sourceType.foldl (Source.scaleReactionR A c) s) = cells s := by
      unfold cells; rw [e2]
    rw [hcells]
    have hsum : Near u 1 ((f r).map (fun x => A.rd (x * c))).sum ((f r).sum * c) := by
      have := Near.sum (u := u) (k := 1) (f r) (fun x => A.rd (x * c)) (fun x => x * c)
        fun x hx => near_rd hA (mul_nonneg (i1 x hx) hc0)
      rwa [List.sum_map_mul_right, List.map_id'] at this
    refine ⟨ni1, by simpa using i2, rd_nonneg hA (mul_nonneg i3 hc0), rd_nonneg hA (mul_nonneg i4 hc0),
      ?_, ?_⟩
    · have := i5.step h0 h1 hc0 (near_rd hA (mul_nonneg i3 hc0)) hsum
      rwa [add_assoc] at this
    · have hy : (0 : ℝ) ≤ (r.numNeutrons : ℝ) := Nat.cast_nonneg _
      have hb : Near u 1 (A.rd (g r * c) * (r.numNeutrons : ℝ)) (g r * (r.numNeutrons : ℝ) * c) := by
        have := (near_rd hA (mul_nonneg i3 hc0)).mul_right hy
        have e : g r * c * (r.numNeutrons : ℝ) = g r * (r.numNeutrons : ℝ) * c := by ring
        rwa [e] at this
      have := i6.step h0 h1 hc0 (near_rd hA (mul_nonneg i4 hc0)) hb
      rwa [add_assoc] at this


/-! ### The claims -/

/-- Relative error of a quantity that agrees with `b` up to `k` roundings in either direction. -/
theorem tight_bound {u : ℝ} (h0 : 0 ≤ u) (h1 : u < 1) {k : ℕ} {a b : ℝ} (hb : 0 ≤ b)
    (l : b * (1 - u) ^ k ≤ a) (r : a * (1 - u) ^ k ≤ b) (hk : (k : ℝ) * u ≤ 1 / 2) :
    |a - b| ≤ 2 * (k : ℝ) * u * b := by
  have l1 : 1 - (k : ℝ) * u ≤ (1 - u) ^ k := by
    have := one_add_mul_le_pow (a := -u) (by linarith) k
    have e : 1 + -u = 1 - u := by ring
    rw [e] at this; linarith
  have hku : 0 ≤ (k : ℝ) * u := by positivity
  have ha : 0 ≤ a := (mul_nonneg hb (pow_nonneg (by linarith) k)).trans l
  have f1 := (mul_le_mul_of_nonneg_left l1 ha).trans r
  have f2 := (mul_le_mul_of_nonneg_left l1 hb).trans l
  rw [abs_le]
  constructor
  · nlinarith [mul_nonneg hb hku]
  · have hpos : 0 < 1 - (k : ℝ) * u := by linarith
    have e3 : 1 ≤ (1 + 2 * (k : ℝ) * u) * (1 - (k : ℝ) * u) := by nlinarith
    have : b ≤ b * (1 + 2 * (k : ℝ) * u) * (1 - (k : ℝ) * u) := by
      rw [mul_assoc]; exact le_mul_of_one_le_right hb e3
    have := le_of_mul_le_mul_right (f1.trans this) hpos
    linarith

/-- The computed power of a state is the exact one up to roundings. -/
theorem near_power {A : Arith} {u : ℝ} (hA : StandardModel A u) {Q : Reaction → ℝ}
    (hQ : ∀ r, 0 < Q r) {s : Source ℝ} {f : Reaction → List ℝ} {g w : Reaction → ℝ}
    (hH : s.Holds f g w) (hf : ∀ r ∈ s.sourceType, (∀ x ∈ f r, 0 ≤ x) ∧ (f r).length ≤ cells s) :
    0 ≤ truePower Q s ∧
    Near u (1 + (cells s - 1) + (s.sourceType.length - 1)) (s.totalPowerR A Q) (truePower Q s) := by
  have h0 := hA.u_nonneg
  have h1 := hA.u_lt_one
  have hin : ∀ r ∈ s.sourceType, 0 ≤ (strengths s r).sum * Q r ∧
      Near u (1 + (cells s - 1)) (A.npSum ((s.strength.getD r []).map fun x => A.rd (x * Q r)))
        ((strengths s r).sum * Q r) := by
    intro r hr
    obtain ⟨p1, p2⟩ := hf r hr
    unfold strengths
    rw [(hH.getD r hr).1]
    have hnn : ∀ y ∈ (f r).map (fun x => A.rd (x * Q r)), 0 ≤ y := by
      intro y hy
      obtain ⟨x, hx, rfl⟩ := List.mem_map.1 hy
      exact rd_nonneg hA (mul_nonneg (p1 x hx) (hQ r).le)
    have hsum : Near u 1 ((f r).map (fun x => A.rd (x * Q r))).sum ((f r).sum * Q r) := by
      have := Near.sum (u := u) (k := 1) (f r) (fun x => A.rd (x * Q r)) (fun x => x * Q r)
        fun x hx => near_rd hA (mul_nonneg (p1 x hx) (hQ r).le)
      rwa [List.sum_map_mul_right, List.map_id'] at this
    have hs0 : 0 ≤ (f r).sum * Q r := mul_nonneg (List.sum_nonneg p1) (hQ r).le
    have hn := near_addsUp hA hA.npSum _ hnn
    rw [List.length_map] at hn
    refine ⟨hs0, (hn.trans h0 h1 hsum).mono h0 h1 hs0 (by omega)⟩
  have hpos : 0 ≤ truePower Q s := by
    unfold truePower
    apply List.sum_nonneg
    intro y hy
    obtain ⟨r, hr, rfl⟩ := List.mem_map.1 hy
    exact (hin r hr).1
  refine ⟨hpos, ?_⟩
  unfold Source.totalPowerR
  have h2 := Near.sum (u := u) s.sourceType _ _ fun r hr => (hin r hr).2
  have hnn : ∀ y ∈ s.sourceType.map (fun r => A.npSum ((s.strength.getD r []).map
      fun x => A.rd (x * Q r))), 0 ≤ y := by
    intro y hy
    obtain ⟨r, hr, rfl⟩ := List.mem_map.1 hy
    exact (hin r hr).2.nonneg h0 h1 (hin r hr).1
  have h3 := near_addsUp hA hA.pySum _ hnn
  rw [List.length_map] at h3
  exact h3.trans h0 h1 h2

/-- Normalisation in one step: exact and computed power afterwards. -/
theorem normaliseR_power {A : Arith} {u : ℝ} (hA : StandardModel A u) {Q : Reaction → ℝ}
    (hQ : ∀ r, 0 < Q r) {j : ℕ} {s s' : Source ℝ} (hs : ReachableR A Q j s) {P : ℝ} (hP : 0 < P)
    (h : s.normaliseR A Q P = .ok s') :
    P * (1 - u) ^ (cells s + s.sourceType.length + 1) ≤ truePower Q s' ∧
    truePower Q s' * (1 - u) ^ (cells s + s.sourceType.length + 1) ≤ P ∧
    P * (1 - u) ^ (2 * (cells s + s.sourceType.length)) ≤ s'.totalPowerR A Q ∧
    s'.totalPowerR A Q * (1 - u) ^ (2 * (cells s + s.sourceType.length)) ≤ P := by
  have h0 := hA.u_nonneg
  have h1 := hA.u_lt_one
  have hs' := ReachableR.normalised hs hP h
  obtain ⟨f, g, w, hH, hi⟩ := reachableR_inv hA hQ hs
  obtain ⟨f', g', w', hH', hi'⟩ := reachableR_inv hA hQ hs'
  obtain ⟨t0, tn⟩ := near_power hA hQ hH fun r hr => ⟨(hi r hr).1, (hi r hr).2.1⟩
  obtain ⟨t0', tn'⟩ := near_power hA hQ hH' fun r hr => ⟨(hi' r hr).1, (hi' r hr).2.1⟩
  unfold Source.normaliseR at h
  split_ifs at h with c1 c2
  cases h
  set T := s.totalPowerR A Q with hT
  set c := A.rd (P / T) with hc
  obtain ⟨e1, e2, e3⟩ := hH.scale A c
  have hT0 : 0 < T := lt_of_le_of_ne (tn.nonneg h0 h1 t0) (Ne.symm c2)
  have hpos : 0 < truePower Q s := by
    refine lt_of_le_of_ne t0 fun e => ?_
    have := tn.2
    rw [← e, zero_mul] at this
    linarith
  have hcell : 1 ≤ cells s := by
    by_contra hcon
    have hz : cells s = 0 := by omega
    have : truePower Q s = 0 := by
      unfold truePower
      apply List.sum_eq_zero
      intro y hy
      obtain ⟨r, hr, rfl⟩ := List.mem_map.1 hy
      have := (hi r hr).2.1
      rw [hz] at this
      have : f r = [] := List.length_eq_zero_iff.1 (by omega)
      unfold strengths
      rw [(hH.getD r hr).1, this]; simp
    linarith
  have hm : 1 ≤ s.sourceType.length := by
    rcases Nat.eq_zero_or_pos s.sourceType.length with h | h
    · exact absurd (List.length_eq_zero_iff.1 h) c1
    · exact h
  have hc0 : 0 ≤ c := rd_nonneg hA (div_nonneg hP.le hT0.le)
  have hcn : Near u 1 c (P / T) := near_rd hA (div_nonneg hP.le hT0.le)
  have hcells : cells (s.sourceType.foldl (Source.scaleReactionR A c) s) = cells s := by
    unfold cells; rw [e2]
  set s' := s.sourceType.foldl (Source.scaleReactionR A c) s with hs'def
  -- exact power of the new state
  have hnew : Near u 1 (truePower Q s') (truePower Q s * c) := by
    have e : truePower Q s * c = (s.sourceType.map fun r => (strengths s r).sum * Q r * c).sum := by
      unfold truePower
      rw [← List.sum_map_mul_right]
    rw [e]
    unfold truePower
    rw [e1]
    refine Near.sum _ _ _ fun r hr => ?_
    unfold strengths
    rw [(hH.getD r hr).1, (e3.getD r (by rw [e1]; exact hr)).1]
    have := Near.sum (u := u) (k := 1) (f r) (fun x => A.rd (x * c)) (fun x => x * c)
        fun x hx => near_rd hA (mul_nonneg ((hi r hr).1 x hx) hc0)
    rw [List.sum_map_mul_right, List.map_id'] at this
    have := this.mul_right (hQ r).le
    have e : (f r).sum * c * Q r = (f r).sum * Q r * c := by ring
    rwa [e] at this
  have hnew2 : Near u 2 (truePower Q s') (truePower Q s * (P / T)) := by
    have h2 : Near u 1 (truePower Q s * c) (truePower Q s * (P / T)) := by
      have := hcn.mul_right hpos.le
      rwa [mul_comm c, mul_comm (P / T)] at this
    exact hnew.trans h0 h1 h2
  have hk : 1 + (cells s - 1) + (s.sourceType.length - 1) = cells s + s.sourceType.length - 1 := by omega
  rw [hk] at tn
  rw [hcells, e1, hk] at tn'
  obtain ⟨k, hkk⟩ : ∃ k, cells s + s.sourceType.length = k + 1 := ⟨cells s + s.sourceType.length - 1, by omega⟩
  have hk1 : cells s + s.sourceType.length - 1 = k := by omega
  rw [hk1] at tn tn'
  have p1 : 0 < (1 - u) ^ k := pow_pos (by linarith) k
  have p2 : 0 < (1 + u) ^ k := pow_pos (by linarith) k
  have hpq : (1 + u) ^ k * (1 - u) ^ k ≤ 1 := by
    rw [← mul_pow]; exact pow_le_one₀ (by nlinarith) (by nlinarith)
  have hpq2 : (1 + u) ^ 2 * (1 - u) ^ 2 ≤ 1 := by
    rw [← mul_pow]; exact pow_le_one₀ (by nlinarith) (by nlinarith)
  have hp2 : 0 ≤ (1 - u) ^ 2 := sq_nonneg _
  -- bounds for T*/T
  have r1 : truePower Q s / T * (1 - u) ^ k ≤ 1 := by
    rw [div_mul_eq_mul_div, div_le_one hT0]; exact tn.1
  have r2 : (1 - u) ^ k ≤ truePower Q s / T := by
    rw [le_div_iff₀ hT0]
    calc (1 - u) ^ k * T ≤ (1 - u) ^ k * (truePower Q s * (1 + u) ^ k) := mul_le_mul_of_nonneg_left tn.2 p1.le
      _ = truePower Q s * ((1 + u) ^ k * (1 - u) ^ k) := by ring
      _ ≤ truePower Q s := mul_le_of_le_one_right t0 hpq
  have eT : truePower Q s * (P / T) = P * (truePower Q s / T) := by ring
  rw [eT] at hnew2
  have A1 : P * (1 - u) ^ (k + 2) ≤ truePower Q s' := by
    calc P * (1 - u) ^ (k + 2) = P * (1 - u) ^ k * (1 - u) ^ 2 := by ring
      _ ≤ P * (truePower Q s / T) * (1 - u) ^ 2 :=
        mul_le_mul_of_nonneg_right (mul_le_mul_of_nonneg_left r2 hP.le) hp2
      _ ≤ _ := hnew2.1
  have A2 : truePower Q s' * (1 - u) ^ (k + 2) ≤ P := by
    calc truePower Q s' * (1 - u) ^ (k + 2)
        ≤ P * (truePower Q s / T) * (1 + u) ^ 2 * (1 - u) ^ (k + 2) :=
        mul_le_mul_of_nonneg_right hnew2.2 (pow_nonneg (by linarith) _)
      _ = P * (truePower Q s / T * (1 - u) ^ k) * ((1 + u) ^ 2 * (1 - u) ^ 2) := by ring
      _ ≤ P * 1 * 1 := by
        refine mul_le_mul (mul_le_mul_of_nonneg_left r1 hP.le) hpq2 (by positivity) (by linarith)
      _ = P := by ring
  have i1 : cells s + s.sourceType.length + 1 = k + 2 := by omega
  have i2 : 2 * (cells s + s.sourceType.length) = k + 2 + k := by omega
  rw [i1, i2]
  refine ⟨A1, A2, ?_, ?_⟩
  · calc P * (1 - u) ^ (k + 2 + k) = P * (1 - u) ^ (k + 2) * (1 - u) ^ k := by ring
      _ ≤ truePower Q s' * (1 - u) ^ k := mul_le_mul_of_nonneg_right A1 p1.le
      _ ≤ _ := tn'.1
  · calc s'.totalPowerR A Q * (1 - u) ^ (k + 2 + k)
        ≤ truePower Q s' * (1 + u) ^ k * (1 - u) ^ (k + 2 + k) :=
        mul_le_mul_of_nonneg_right tn'.2 (pow_nonneg (by linarith) _)
      _ = truePower Q s' * (1 - u) ^ (k + 2) * ((1 + u) ^ k * (1 - u) ^ k) := by ring
      _ ≤ truePower Q s' * (1 - u) ^ (k + 2) * 1 :=
        mul_le_mul_of_nonneg_left hpq (mul_nonneg t0' (pow_nonneg (by linarith) _))
      _ ≤ P := by rw [mul_one]; exact A2

/-- C74.  In floating point arithmetic with unit roundoff `u`, after any history of normalisations,
normalising to `P` leaves strengths whose exact total power is `P` with a relative error of at most
`2 (cells + channels + 1) u`, and the power the source then reports is `P` with a relative error of
at most `4 (cells + channels) u`. -/
theorem C74_power {A : Arith} {u : ℝ} (hA : StandardModel A u) {Q : Reaction → ℝ}
    (hQ : ∀ r, 0 < Q r) {j : ℕ} {s s' : Source ℝ} (hs : ReachableR A Q j s) {P : ℝ} (hP : 0 < P)
    (h : s.normaliseR A Q P = .ok s')
    (hsmall : 2 * ((cells s : ℝ) + s.sourceType.length) * u ≤ 1 / 2) :
    |truePower Q s' - P| ≤ 2 * ((cells s : ℝ) + s.sourceType.length + 1) * u * P ∧
    |s'.totalPowerR A Q - P| ≤ 4 * ((cells s : ℝ) + s.sourceType.length) * u * P := by
  have h0 := hA.u_nonneg
  have h1 := hA.u_lt_one
  obtain ⟨a1, a2, a3, a4⟩ := normaliseR_power hA hQ hs hP h
  have hm : 1 ≤ s.sourceType.length := by
    rcases Nat.eq_zero_or_pos s.sourceType.length with h' | h'
    · rw [Source.normaliseR, if_pos (List.length_eq_zero_iff.1 h')] at h; cases h
    · exact h'
  have hm' : (1 : ℝ) ≤ s.sourceType.length := by exact_mod_cast hm
  have hc' : (0 : ℝ) ≤ cells s := Nat.cast_nonneg _
  constructor
  · have := tight_bound h0 h1 hP.le a1 a2 (by push_cast; nlinarith)
    push_cast at this
    linarith
  · have := tight_bound h0 h1 hP.le a3 a4 (by push_cast; nlinarith)
    push_cast at this
    linarith

/-- C74.  Whatever the history, the reaction rate of a channel is the sum of its strengths up to a
relative error that grows only linearly with the number `j` of normalisations, and likewise the
neutron rate is the yield times the reaction rate. -/
theorem C74_rates {A : Arith} {u : ℝ} (hA : StandardModel A u) {Q : Reaction → ℝ}
    (hQ : ∀ r, 0 < Q r) {j : ℕ} {s : Source ℝ} (hs : ReachableR A Q j s) (r : Reaction)
    (hr : r ∈ s.sourceType) (hsmall : 2 * ((cells s : ℝ) + 1 + j) * u ≤ 1 / 2) :
    |s.numReactions.getD r 0 - (strengths s r).sum| ≤ 4 * ((cells s : ℝ) + j) * u * (strengths s r).sum ∧
    |s.numNeutrons.getD r 0 - (neutronYield r : ℝ) * s.numReactions.getD r 0| ≤
      4 * (1 + (j : ℝ)) * u * ((neutronYield r : ℝ) * s.numReactions.getD r 0) := by
  have h0 := hA.u_nonneg
  have h1 := hA.u_lt_one
  obtain ⟨f, g, w, hH, hi⟩ := reachableR_inv hA hQ hs
  obtain ⟨i1, i2, i3, i4, i5, i6⟩ := hi r hr
  obtain ⟨g1, g2, g3⟩ := hH.getD r hr
  unfold strengths
  rw [g1, g2, g3]
  have hy : (neutronYield r : ℝ) = (r.numNeutrons : ℝ) := by
    rcases r with (_ | _ | _) | (_ | _) <;> rfl
  rw [hy, mul_comm ((r.numNeutrons : ℝ)) (g r)]
  have hj : (0 : ℝ) ≤ j := Nat.cast_nonneg _
  have hcc : (0 : ℝ) ≤ cells s := Nat.cast_nonneg _
  have hs0 := List.sum_nonneg i1
  have hle : ((cells s - 1 + j : ℕ) : ℝ) ≤ cells s + j := by exact_mod_cast (by omega)
  constructor
  · refine (i5.bound h0 h1 hs0 ?_).trans ?_
    · nlinarith
    · refine mul_le_mul_of_nonneg_right ?_ hs0
      nlinarith
  · have := i6.bound h0 h1 (mul_nonneg i3 (Nat.cast_nonneg _)) (by push_cast; nlinarith)
    push_cast at this
    exact this

/-- C74.  Normalisation multiplies every strength and every rate by one common factor, up to one
rounding each. -/
theorem C74_shape {A : Arith} {u : ℝ} (hA : StandardModel A u) {Q : Reaction → ℝ}
    (hQ : ∀ r, 0 < Q r) {j : ℕ} {s s' : Source ℝ} (hs : ReachableR A Q j s) {P : ℝ} (hP : 0 < P)
    (h : s.normaliseR A Q P = .ok s') :
    s'.sourceType = s.sourceType ∧ ∃ c : ℝ, 0 ≤ c ∧ ∀ r ∈ s.sourceType,
      List.Forall₂ (fun x x' => |x' - c * x| ≤ u * (c * x)) (strengths s r) (strengths s' r) ∧
      |s'.numReactions.getD r 0 - c * s.numReactions.getD r 0| ≤ u * (c * s.numReactions.getD r 0) ∧
      |s'.numNeutrons.getD r 0 - c * s.numNeutrons.getD r 0| ≤ u * (c * s.numNeutrons.getD r 0) := by
  have h0 := hA.u_nonneg
  have h1 := hA.u_lt_one
  obtain ⟨f, g, w, hH, hi⟩ := reachableR_inv hA hQ hs
  obtain ⟨t0, tn⟩ := near_power hA hQ hH fun r hr => ⟨(hi r hr).1, (hi r hr).2.1⟩
  unfold Source.normaliseR at h
  split_ifs at h with c1 c2
  cases h
  set c := A.rd (P / s.totalPowerR A Q) with hc
  obtain ⟨e1, e2, e3⟩ := hH.scale A c
  have hc0 : 0 ≤ c := rd_nonneg hA (div_nonneg hP.le (tn.nonneg h0 h1 t0))
  have one : ∀ x, 0 ≤ x → |A.rd (x * c) - c * x| ≤ u * (c * x) := by
    intro x hx
    have := hA.rel (x * c)
    rw [mul_comm c x]
    rwa [abs_of_nonneg (mul_nonneg hx hc0)] at this
  refine ⟨e1, c, hc0, fun r hr => ?_⟩
  obtain ⟨i1, -, i3, i4, -⟩ := hi r hr
  obtain ⟨g1, g2, g3⟩ := hH.getD r hr
  obtain ⟨g1', g2', g3'⟩ := e3.getD r (by rw [e1]; exact hr)
  unfold strengths
  rw [g1, g2, g3, g1', g2', g3']
  refine ⟨?_, one _ i3, one _ i4⟩
  rw [List.forall₂_map_right_iff, List.forall₂_same]
  exact fun x hx => one x (i1 x hx)

/-- C74.  The strength computed for a cell is density product x reactivity x volume with a relative
error of at most `8 u`. -/
theorem C74_strength {A : Arith} {u : ℝ} (hA : StandardModel A u) (hu : u ≤ 1 / 8) (arg : SourceArg)
    (st : List Reaction) (hst : parseSourceType arg = .ok st) (x z vol temp d t h : List ℝ) (L : ℝ)
    (sv : Reaction → List ℝ)
    (hvol : ∀ a ∈ vol, 0 ≤ a) (hd : ∀ a ∈ d, 0 ≤ a) (ht : ∀ a ∈ t, 0 ≤ a) (hh : ∀ a ∈ h, 0 ≤ a)
    (hsv : ∀ r, ∀ a ∈ sv r, 0 ≤ a) (r : Reaction) (hr : r ∈ st) (i : ℕ) (di ti hi si vi : ℝ)
    (e1 : d[i]? = some di) (e2 : t[i]? = some ti) (e3 : h[i]? = some hi) (e4 : (sv r)[i]? = some si)
    (e5 : vol[i]? = some vi) :
    let n : Species → ℝ := fun
      | .deuterium => di
      | .tritium => ti
      | .helium3 => hi
    ∃ str, (strengths (Source.initR A st x z vol temp d t h L sv) r)[i]? = some str ∧
      |str - rateDensity n si r * vi| ≤ 8 * u * (rateDensity n si r * vi) := by
  intro n
  have h0 := hA.u_nonneg
  have h1 := hA.u_lt_one
  have m1 := hd _ (List.mem_of_getElem? e1)
  have m2 := ht _ (List.mem_of_getElem? e2)
  have m3 := hh _ (List.mem_of_getElem? e3)
  have m4 := hsv r _ (List.mem_of_getElem? e4)
  have m5 := hvol _ (List.mem_of_getElem? e5)
  obtain ⟨q1, q2, q3⟩ := initR_holds A st (parse_nodup hst) x z vol temp d t h L sv
  unfold strengths
  rw [(q3.getD r (by rw [q1]; exact hr)).1]
  -- the density product
  have hp : ∃ p, (pairDensityR A r d t h)[i]? = some p ∧
      0 ≤ rateDensity n 1 r ∧ Near u 2 p (rateDensity n 1 r) := by
    have like : ∀ y, 0 ≤ y → Near u 2 (A.rd (A.rd (y * y) / 2)) (y * y / 2) := by
      intro y hy
      have a1 := near_rd hA (mul_nonneg hy hy)
      have a2 : Near u 1 (A.rd (y * y) / 2) (y * y / 2) := by
        have := a1.mul_right (c := 1 / 2) (by norm_num)
        rwa [mul_one_div, mul_one_div] at this
      exact (near_rd hA (div_nonneg (rd_nonneg hA (mul_nonneg hy hy)) (by norm_num))).trans h0 h1 a2
    have unlike : ∀ y y', 0 ≤ y → 0 ≤ y' → Near u 2 (A.rd (y * y')) (y * y') := fun y y' hy hy' =>
      (near_rd hA (mul_nonneg hy hy')).mono h0 h1 (mul_nonneg hy hy') (by norm_num)
    rcases r with (_ | _ | _) | (_ | _)
    all_goals simp only [pairDensityR, List.getElem?_map, List.getElem?_zipWith, e1, e2, e3,
      rateDensity, reactants, n]
    · exact ⟨_, rfl, by simp; positivity, by simpa using unlike di ti m1 m2⟩
    · exact ⟨_, rfl, by norm_num; positivity, by
        have := like di m1
        norm_num
        exact this⟩
    · exact ⟨_, rfl, by norm_num; positivity, by
        have := like ti m2
        norm_num
        exact this⟩
    · exact ⟨_, rfl, by norm_num; positivity, by
        have := like di m1
        norm_num
        exact this⟩
    · exact ⟨_, rfl, by simp; positivity, by simpa using unlike di hi m1 m3⟩
  obtain ⟨p, hp1, hp2, hp3⟩ := hp
  have hp0 := hp3.nonneg h0 h1 hp2
  refine ⟨A.rd (A.rd (p * si) * vi), ?_, ?_⟩
  · simp only [strengthR, List.getElem?_zipWith, hp1, e4, e5]
  · have b1 := (near_rd hA (mul_nonneg hp0 m4)).trans h0 h1 (hp3.mul_right m4)
    have b2 := b1.mul_right m5
    have b3 := (near_rd hA (mul_nonneg (rd_nonneg hA (mul_nonneg hp0 m4)) m5)).trans h0 h1 b2
    have e : rateDensity n 1 r * si = rateDensity n si r := by
      unfold rateDensity; ring
    rw [e] at b3
    have hE : 0 ≤ rateDensity n si r * vi := by
      rw [← e]; exact mul_nonneg (mul_nonneg hp2 m4) m5
    have := b3.bound h0 h1 hE (by push_cast; linarith)
    push_cast at this
    linarith

/-! ### Instances -/

theorem exact_addsUp : AddsUp id List.sum := by
  refine ⟨rfl, fun l hl => ?_⟩
  induction l with
  | nil => exact absurd rfl hl
  | cons a l ih =>
    by_cases h : l = []
    · subst h; exact ⟨.leaf a, by simp [SumTree.leaves], by simp [SumTree.eval]⟩
    · obtain ⟨t, ht, e⟩ := ih h
      exact ⟨.node (.leaf a) t, by simpa [SumTree.leaves] using ht, by simp [SumTree.eval, e]⟩

/-- C74.  Exact arithmetic meets the standard model with `u = 0`, and there the rounded model is the
exact one used elsewhere. -/
theorem C74_exact (Q : Reaction → ℝ) (P : ℝ) (s : Source ℝ) :
    StandardModel exactArith 0 ∧ s.totalPowerR exactArith Q = s.totalPower Q ∧
    s.normaliseR exactArith Q P = s.normalise Q P := by
  refine ⟨⟨le_refl _, by norm_num, by simp [exactArith], exact_addsUp, exact_addsUp⟩, rfl, ?_⟩
  unfold Source.normaliseR Source.normalise Source.normaliseRaw
  have e : s.totalPowerR exactArith Q = s.totalPower Q := rfl
  rw [e]
  by_cases h1 : s.sourceType = []
  · simp [h1]
  · by_cases h2 : s.totalPower Q = 0
    · simp [h1, h2]
    · simp only [h1, h2, if_false, and_false]
      rfl

theorem leftSum_addsUp (rd : ℝ → ℝ) : AddsUp rd (leftSum rd) := by
  refine ⟨rfl, fun l hl => ?_⟩
  cases l with
  | nil => exact absurd rfl hl
  | cons a l =>
    have key : ∀ (l : List ℝ) (t : SumTree), ∃ t' : SumTree, t'.leaves = t.leaves ++ l ∧
        l.foldl (fun s x => rd (s + x)) (t.eval rd) = t'.eval rd := by
      intro l
      induction l with
      | nil => intro t; exact ⟨t, by simp, rfl⟩
      | cons b l ih =>
        intro t
        obtain ⟨t', e1, e2⟩ := ih (.node t (.leaf b))
        exact ⟨t', by rw [e1]; simp [SumTree.leaves], by rw [← e2]; rfl⟩
    obtain ⟨t', e1, e2⟩ := key l (.leaf a)
    exact ⟨t', by rw [e1]; simp [SumTree.leaves], by rw [← e2]; rfl⟩

/-- C74.  Rounding to 53 binary digits has unit roundoff `2^-53`. -/
theorem C74_binary64 : StandardModel binary64 ((2 : ℝ) ^ (-53 : ℤ)) := by
  refine ⟨by positivity, ?_, ?_, leftSum_addsUp _, leftSum_addsUp _⟩
  · exact zpow_lt_one_of_neg₀ (by norm_num) (by norm_num)
  · intro x
    simp only [binary64, round53]
    by_cases hx : x = 0
    · subst hx; simp
    set e : ℝ := (2 : ℝ) ^ (Int.log 2 |x| - 52) with he
    have hepos : 0 < e := zpow_pos (by norm_num) _
    have h1 : |(round (x / e) : ℝ) * e - x| = |x / e - round (x / e)| * e := by
      rw [← abs_of_pos hepos, ← abs_mul, abs_of_pos hepos, sub_mul, div_mul_cancel₀ _ hepos.ne', abs_sub_comm]
    rw [h1]
    have h2 := abs_sub_round (x / e)
    have h3 : (2 : ℝ) ^ Int.log 2 |x| ≤ |x| := by
      have := Int.zpow_log_le_self (b := 2) (r := |x|) (by norm_num) (abs_pos.2 hx)
      exact_mod_cast this
    have h4 : 1 / 2 * e = (2 : ℝ) ^ (-53 : ℤ) * (2 : ℝ) ^ Int.log 2 |x| := by
      rw [he, ← zpow_add₀ (by norm_num : (2 : ℝ) ≠ 0)]
      have : (-53 : ℤ) + Int.log 2 |x| = (Int.log 2 |x| - 52) + (-1) := by ring
      rw [this, zpow_add₀ (by norm_num : (2 : ℝ) ≠ 0)]
      norm_num
      ring
    calc |x / e - round (x / e)| * e ≤ 1 / 2 * e := mul_le_mul_of_nonneg_right h2 hepos.le
      _ = (2 : ℝ) ^ (-53 : ℤ) * (2 : ℝ) ^ Int.log 2 |x| := h4
      _ ≤ _ := mul_le_mul_of_nonneg_left h3 (by positivity)

/-- C74.  With binary64 numbers and fewer than a million cells, the power is reached to one part in
10⁹, whatever was done to the source before. -/
theorem C74_million {Q : Reaction → ℝ} (hQ : ∀ r, 0 < Q r) {j : ℕ} {s s' : Source ℝ}
    (hs : ReachableR binary64 Q j s) {P : ℝ} (hP : 0 < P) (h : s.normaliseR binary64 Q P = .ok s')
    (hn : cells s + s.sourceType.length ≤ 1000000) :
    |truePower Q s' - P| ≤ P / 10 ^ 9 ∧ |s'.totalPowerR binary64 Q - P| ≤ P / 10 ^ 9 := by
  have hn' : (cells s : ℝ) + s.sourceType.length ≤ 1000000 := by exact_mod_cast hn
  have hc' : (0 : ℝ) ≤ cells s + s.sourceType.length := by positivity
  have hu : (2 : ℝ) ^ (-53 : ℤ) ≤ 1 / (8 * 10 ^ 15) := by
    rw [zpow_neg]; norm_num
  have hu0 : (0 : ℝ) ≤ (2 : ℝ) ^ (-53 : ℤ) := by positivity
  obtain ⟨a, b⟩ := C74_power C74_binary64 hQ hs hP h (by nlinarith)
  constructor
  · refine a.trans ?_
    have : 2 * ((cells s : ℝ) + s.sourceType.length + 1) * (2 : ℝ) ^ (-53 : ℤ) ≤ 1 / 10 ^ 9 := by
      nlinarith
    calc _ ≤ 1 / 10 ^ 9 * P := mul_le_mul_of_nonneg_right this hP.le
      _ = P / 10 ^ 9 := by ring
  · refine b.trans ?_
    have : 4 * ((cells s : ℝ) + s.sourceType.length) * (2 : ℝ) ^ (-53 : ℤ) ≤ 1 / 10 ^ 9 := by
      nlinarith
    calc _ ≤ 1 / 10 ^ 9 * P := mul_le_mul_of_nonneg_right this hP.le
      _ = P / 10 ^ 9 := by ring

/-- C74.  Normalisation succeeds whenever the power is not zero: rounding cannot make the computed
power vanish. -/
theorem C74_succeeds {A : Arith} {u : ℝ} (hA : StandardModel A u) {Q : Reaction → ℝ}
    (hQ : ∀ r, 0 < Q r) {j : ℕ} {s : Source ℝ} (hs : ReachableR A Q j s) (hpos : 0 < truePower Q s)
    (P : ℝ) : ∃ s', s.normaliseR A Q P = .ok s' := by
  obtain ⟨f, g, w, hH, hi⟩ := reachableR_inv hA hQ hs
  obtain ⟨t0, tn⟩ := near_power hA hQ hH fun r hr => ⟨(hi r hr).1, (hi r hr).2.1⟩
  have hT := tn.pos hA.u_nonneg hA.u_lt_one hpos
  have hne : s.sourceType ≠ [] := by
    intro e
    rw [truePower, e] at hpos
    simp at hpos
  exact ⟨_, by rw [Source.normaliseR, if_neg hne, if_neg hT.ne']⟩

/-- A source of one cell in binary64 arithmetic meets the hypotheses of the theorems above. -/
example : ∃ s s' : Source ℝ, ReachableR binary64 (fun _ => 3) 0 s ∧
    s.normaliseR binary64 (fun _ => 3) 7 = .ok s' ∧ cells s + s.sourceType.length ≤ 1000000 := by
  have hp : parseSourceType (.list [.member .DT]) = .ok [.DT] := by
    have e : finishSourceType [Reaction.DT] = [Reaction.DT] := by rw [finish_eq_filter]; decide
    change Except.ok (finishSourceType [Reaction.DT]) = _
    rw [e]
  have hr := ReachableR.constructed (A := binary64) (Q := fun _ => 3) _ _ hp [5] [0] [2] [10] [1] [1]
    [0] 1 (fun _ => [1]) (by simp) (by simp) (by simp) (by simp) (by simp)
  have hu : (2 : ℝ) ^ (-53 : ℤ) ≤ 1 / 16 := by rw [zpow_neg]; norm_num
  obtain ⟨str, e1, e2⟩ := C74_strength C74_binary64 (by linarith) _ _ hp [5] [0] [2] [10] [1] [1]
    [0] 1 (fun _ => [1]) (by simp) (by simp) (by simp) (by simp) (by simp) .DT (by simp) 0 1 1 0 1 2 rfl
    rfl rfl rfl rfl
  obtain ⟨q1, q2, q3⟩ := initR_holds binary64 [.DT] (by simp) [5] [0] [2] [10] [1] [1] [0] 1 (fun _ => [1])
  have hlen : (strengths (Source.initR binary64 [.DT] [5] [0] [2] [10] [1] [1] [0] 1 (fun _ => [1])) .DT) =
      [str] := by
    unfold strengths at e1 ⊢
    rw [(q3.getD .DT (by rw [q1]; simp)).1] at e1 ⊢
    simp only [strengthR, pairDensityR, Reaction.DT, List.zipWith_cons_cons, List.zipWith_nil_left,
      List.getElem?_cons_zero, Option.some.injEq] at e1 ⊢
    rw [e1]
  have hstr : 0 < str := by
    rw [abs_le] at e2
    have hne : Species.deuterium ≠ Species.tritium := by decide
    norm_num [rateDensity, reactants, Reaction.DT, hne] at e2
    linarith [e2.1]
  obtain ⟨s', hs'⟩ := C74_succeeds C74_binary64 (fun _ => by norm_num) hr (by
    unfold truePower
    rw [q1]
    simp only [List.map_cons, List.map_nil, hlen]
    simp; linarith) 7
  exact ⟨_, s', hr, hs', by rw [cells, q2, q1]; simp⟩

end
end TNS
