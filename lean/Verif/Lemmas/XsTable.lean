import Verif.Lemmas.InterpRound
import Verif.Props.Reactivity
/-
The tables of cross sections: checks on the rows of the files, and the rounded tables.
-/

set_option autoImplicit false

namespace TNS
open Spec
noncomputable section

/-- What is checked of two successive rows of a file. -/
def segOkB (cut : ℕ) (p q : ℕ × ℕ) : Bool :=
  decide (p.1 < q.1) && decide (1001 * p.1 ≤ 1000 * q.1) && decide (q.1 ≤ 10 ^ 14) && decide (p.2 ≤ 10 ^ 60) &&
  decide (q.2 ≤ 10 ^ 60) && (decide (q.1 < cut) ||
    (let M : ℤ := max p.1 cut
     let D : ℤ := q.1 - p.1
     let N : ℤ := p.2 * D + (q.2 - p.2) * (M - p.1)
     decide (D ≤ N) && decide (1 ≤ q.2) && decide ((q.2 - p.2) * M ≤ 64 * N) && decide ((p.2 - q.2) * M ≤ 64 * N) &&
     decide ((q.2 - p.2 : ℤ) * q.1 ≤ 64 * (q.2 * D)) && decide ((p.2 - q.2 : ℤ) * q.1 ≤ 64 * (q.2 * D)) &&
     decide (p.2 ≤ 2 * q.2)))

def chainB (cut : ℕ) : List (ℕ × ℕ) → Bool
  | [] => true
  | [_] => true
  | p :: q :: l => segOkB cut p q && chainB cut (q :: l)

set_option maxRecDepth 100000 in
theorem chainB_all : chainB 1400000000 Data.dtRows.dropLast = true ∧ chainB 1900000000 Data.ddnRows.dropLast = true ∧
    chainB 1900000000 Data.ddpRows.dropLast = true ∧ chainB 1900000000 Data.ttRows.dropLast = true ∧
    chainB 1400000000 Data.dhe3Rows.dropLast = true := by
  decide +kernel

theorem affine_nonneg {a b M Q x : ℝ} (h1 : 0 ≤ a * M + b) (h2 : 0 ≤ a * Q + b) (hx : M ≤ x) (hx' : x ≤ Q) :
    0 ≤ a * x + b := by
  rcases le_total 0 a with h | h
  · nlinarith
  · nlinarith

theorem segOkB_sound {cut : ℕ} {p q : ℕ × ℕ} (h : segOkB cut p q = true) {α : ℝ} (hα : 0 < α) (hα1 : α ≤ 1 / 10 ^ 9)
    (hcut : cut * α ≤ 0.95) :
    SegR 64 (1 / 10 ^ 80) 0.95 ((p.1 : ℝ) * α, (p.2 : ℝ) * (1 / 10 ^ 78)) ((q.1 : ℝ) * α, (q.2 : ℝ) * (1 / 10 ^ 78)) := by
  unfold segOkB at h
  simp only [Bool.and_eq_true, Bool.or_eq_true, decide_eq_true_eq] at h
  obtain ⟨⟨⟨⟨⟨h1, h2⟩, h3⟩, h4⟩, h5⟩, h6⟩ := h
  have r1 : (p.1 : ℝ) < q.1 := by exact_mod_cast h1
  have r2 : 1001 * (p.1 : ℝ) ≤ 1000 * q.1 := by exact_mod_cast h2
  have r3 : (q.1 : ℝ) ≤ 10 ^ 14 := by exact_mod_cast h3
  have r4 : (p.2 : ℝ) ≤ 10 ^ 60 := by exact_mod_cast h4
  have r5 : (q.2 : ℝ) ≤ 10 ^ 60 := by exact_mod_cast h5
  have hb : (0 : ℝ) < 1 / 10 ^ 78 := by positivity
  have hD : (0 : ℝ) < q.1 - p.1 := by linarith
  -- the checked part, over the reals
  have key : ∀ X : ℝ, (cut : ℝ) ≤ X → (p.1 : ℝ) ≤ X → X ≤ q.1 → ¬ q.1 < cut →
      ((q.1 : ℝ) - p.1 ≤ (q.2 - p.2) * (X - p.1) + p.2 * (q.1 - p.1)) ∧
      ((q.2 : ℝ) - p.2) * X ≤ 64 * ((q.2 - p.2) * (X - p.1) + p.2 * (q.1 - p.1)) ∧
      ((p.2 : ℝ) - q.2) * X ≤ 64 * ((q.2 - p.2) * (X - p.1) + p.2 * (q.1 - p.1)) := by
    intro X c1 c2 c3 c4
    obtain ⟨⟨⟨⟨⟨⟨k1, k2⟩, k3⟩, k4⟩, k5⟩, k6⟩, -⟩ := h6.resolve_left c4
    have hM : ((max (p.1 : ℤ) cut : ℤ) : ℝ) = max (p.1 : ℝ) cut := by push_cast; rfl
    have e1 : ((q.1 : ℝ) - p.1 ≤ p.2 * (q.1 - p.1) + (q.2 - p.2) * (max (p.1 : ℝ) cut - p.1)) := by
      rw [← hM]; exact_mod_cast k1
    have e2 : (1 : ℝ) ≤ q.2 := by exact_mod_cast k2
    have e3 : ((q.2 : ℝ) - p.2) * max (p.1 : ℝ) cut ≤ 64 * (p.2 * (q.1 - p.1) + (q.2 - p.2) * (max (p.1 : ℝ) cut - p.1)) := by
      rw [← hM]; exact_mod_cast k3
    have e4 : ((p.2 : ℝ) - q.2) * max (p.1 : ℝ) cut ≤ 64 * (p.2 * (q.1 - p.1) + (q.2 - p.2) * (max (p.1 : ℝ) cut - p.1)) := by
      rw [← hM]; exact_mod_cast k4
    have e5 : ((q.2 : ℝ) - p.2) * q.1 ≤ 64 * (q.2 * (q.1 - p.1)) := by exact_mod_cast k5
    have e6 : ((p.2 : ℝ) - q.2) * q.1 ≤ 64 * (q.2 * (q.1 - p.1)) := by exact_mod_cast k6
    have cM : max (p.1 : ℝ) cut ≤ X := max_le c2 c1
    generalize max (p.1 : ℝ) cut = M at e1 e3 e4 cM
    refine ⟨?_, ?_, ?_⟩
    · have := affine_nonneg (a := (q.2 : ℝ) - p.2) (b := p.2 * (q.1 - p.1) - (q.2 - p.2) * p.1 - (q.1 - p.1)) (M := M)
        (Q := q.1) (x := X) (by linarith) (by nlinarith) cM c3
      linarith
    · have := affine_nonneg (a := 63 * ((q.2 : ℝ) - p.2)) (b := 64 * (p.2 * (q.1 - p.1) - (q.2 - p.2) * p.1)) (M := M)
        (Q := q.1) (x := X) (by linarith) (by linarith) cM c3
      linarith
    · have := affine_nonneg (a := 65 * ((q.2 : ℝ) - p.2)) (b := 64 * (p.2 * (q.1 - p.1) - (q.2 - p.2) * p.1)) (M := M)
        (Q := q.1) (x := X) (by linarith) (by linarith) cM c3
      linarith
  have scaled : ∀ X : ℝ, line ((p.1 : ℝ) * α, (p.2 : ℝ) * (1 / 10 ^ 78)) ((q.1 : ℝ) * α, (q.2 : ℝ) * (1 / 10 ^ 78)) (X * α) =
      1 / 10 ^ 78 / (q.1 - p.1) * ((q.2 - p.2) * (X - p.1) + p.2 * (q.1 - p.1)) := by
    intro X
    have e1 : (q.1 : ℝ) * α - p.1 * α = (q.1 - p.1) * α := by ring
    have := hD.ne'
    have := hα.ne'
    simp only [line, e1]
    field_simp
  have slope : ∀ X : ℝ, ((q.2 : ℝ) * (1 / 10 ^ 78) - p.2 * (1 / 10 ^ 78)) / (q.1 * α - p.1 * α) * (X * α) =
      1 / 10 ^ 78 / (q.1 - p.1) * ((q.2 - p.2) * X) := by
    intro X
    have e1 : (q.1 : ℝ) * α - p.1 * α = (q.1 - p.1) * α := by ring
    have := hD.ne'
    have := hα.ne'
    rw [e1]
    field_simp
  have conv : ∀ x : ℝ, 0.95 ≤ x → (p.1 : ℝ) * α ≤ x → x ≤ q.1 * α →
      ∃ X, x = X * α ∧ (cut : ℝ) ≤ X ∧ (p.1 : ℝ) ≤ X ∧ X ≤ q.1 ∧ ¬ q.1 < cut := by
    intro x c1 c2 c3
    refine ⟨x / α, by field_simp, ?_, ?_, ?_, ?_⟩
    · rw [le_div_iff₀ hα]; linarith
    · rw [le_div_iff₀ hα]; linarith
    · rw [div_le_iff₀ hα]; linarith
    · intro hc
      have : (q.1 : ℝ) < cut := by exact_mod_cast hc
      have := mul_lt_mul_of_pos_right this hα
      linarith
  have hpos : (0 : ℝ) < 1 / 10 ^ 78 / (q.1 - p.1) := by positivity
  refine ⟨by positivity, by positivity, ?_, ?_, ?_, ⟨?_, ?_⟩, ?_, ?_, ?_, ?_⟩
  · exact mul_lt_mul_of_pos_right r1 hα
  · have := mul_le_mul_of_nonneg_right r2 hα.le
    simp only
    linarith
  · simp only
    have := mul_le_mul r3 hα1 hα.le (by positivity)
    norm_num at this ⊢
    linarith
  · simp only
    have := mul_le_mul_of_nonneg_right r4 hb.le
    refine this.trans ?_
    norm_num
  · simp only
    have := mul_le_mul_of_nonneg_right r5 hb.le
    refine this.trans ?_
    norm_num
  · intro hc
    simp only at hc ⊢
    have hn : ¬ q.1 < cut := by
      intro hq
      have : (q.1 : ℝ) < cut := by exact_mod_cast hq
      have := mul_lt_mul_of_pos_right this hα
      linarith
    obtain ⟨-, k7⟩ := h6.resolve_left hn
    have : (p.2 : ℝ) ≤ 2 * q.2 := by exact_mod_cast k7
    have := mul_le_mul_of_nonneg_right this hb.le
    linarith
  · intro x c1 c2 c3
    obtain ⟨X, rfl, d1, d2, d3, d4⟩ := conv x c1 c2 c3
    rw [scaled]
    have k := (key X d1 d2 d3 d4).1
    have : 1 / 10 ^ 78 / ((q.1 : ℝ) - p.1) * (q.1 - p.1) = 1 / 10 ^ 78 := by field_simp
    have k' := mul_le_mul_of_nonneg_left k hpos.le
    rw [this] at k'
    refine le_trans ?_ k'
    norm_num
  · intro x c1 c2 c3
    obtain ⟨X, rfl, d1, d2, d3, d4⟩ := conv x c1 c2 c3
    rw [scaled, slope]
    have k' := mul_le_mul_of_nonneg_left (key X d1 d2 d3 d4).2.1 hpos.le
    push_cast
    linarith
  · intro x c1 c2 c3
    obtain ⟨X, rfl, d1, d2, d3, d4⟩ := conv x c1 c2 c3
    rw [neg_mul, scaled, slope]
    have k' := mul_le_mul_of_nonneg_left (key X d1 d2 d3 d4).2.2 hpos.le
    push_cast
    linarith

/-- Energy units of the files in keV in the centre-of-mass frame. -/
def comFactor (m1 m2 : ℝ) : ℝ := m2 / (m1 + m2) / 10 ^ 9

theorem load_table_eq (u : SI) (m1 m2 : ℝ) (rows : List (Nat × Nat)) :
    (CrossSection.load u m1 m2 (genfromtxt rows)).table =
      rows.dropLast.map fun p => ((p.1 : ℝ) * comFactor m1 m2, (p.2 : ℝ) * (1 / 10 ^ 78)) := by
  unfold CrossSection.load genfromtxt comFactor
  rw [List.map_map]
  refine List.map_congr_left (fun p _ => ?_)
  simp only [Function.comp_apply, Prod.mk.injEq]
  constructor
  · norm_num; ring
  · norm_num; ring

theorem chainB_sound {cut : ℕ} {α : ℝ} (hα : 0 < α) (hα1 : α ≤ 1 / 10 ^ 9) (hcut : cut * α ≤ 0.95)
    (rows : List (ℕ × ℕ)) (h : chainB cut rows = true) :
    (rows.map fun p => ((p.1 : ℝ) * α, (p.2 : ℝ) * (1 / 10 ^ 78))).IsChain (SegR 64 (1 / 10 ^ 80) 0.95) := by
  induction rows with
  | nil => simp
  | cons p l ih =>
    cases l with
    | nil => simp
    | cons q l =>
      rw [chainB, Bool.and_eq_true] at h
      rw [List.map_cons, List.map_cons]
      refine List.isChain_cons_cons.2 ⟨segOkB_sound h.1 hα hα1 hcut, ?_⟩
      have := ih h.2
      rwa [List.map_cons] at this

/-- A row of the rounded table. -/
theorem rowClose {A : Arith} {F : MathLib} {u v η : ℝ} (S : Setting A F u v η) {m1 m2 : ℝ} (h1 : 1 ≤ m1) (h1' : m1 ≤ 10)
    (h2 : 1 ≤ m2) (h2' : m2 ≤ 10) (p : ℕ × ℕ) :
    RowClose v (A.rd (A.rd (A.rd ((p.1 : ℝ) / 10 ^ 12) * A.rd (m2 / A.rd (m1 + m2))) * 1000),
      A.rd (A.rd ((p.2 : ℝ) / 10 ^ 50) * A.rd 1e-28)) ((p.1 : ℝ) * comFactor m1 m2, (p.2 : ℝ) * (1 / 10 ^ 78)) := by
  have hv := S.v_nonneg
  have hv1 := S.v_le
  constructor
  · simp only
    rcases Nat.eq_zero_or_pos p.1 with h | h
    · rw [h]
      simp [S.arith.zero]
    · have hp : (1 : ℝ) ≤ p.1 := by exact_mod_cast h
      have l1 := S.rd (x := (p.1 : ℝ) / 10 ^ 12) (by rw [le_div_iff₀ (by positivity)]; refine le_trans ?_ hp; norm_num)
      have l2 := S.rd (x := m1 + m2) (by refine le_trans ?_ (by linarith : (1 : ℝ) ≤ m1 + m2); norm_num)
      have l3 := (LC.refl (by linarith : 0 < m2)).div l2
      have f0 : 1 / 20 ≤ m2 / (m1 + m2) := by rw [le_div_iff₀ (by linarith)]; linarith
      have l4 := S.round l3 (by linarith) (by refine le_trans ?_ f0; norm_num)
      have l5 := l1.mul l4
      have e0 : 1 / 10 ^ 14 ≤ (p.1 : ℝ) / 10 ^ 12 * (m2 / (m1 + m2)) := by
        have : (1 : ℝ) / 10 ^ 12 ≤ (p.1 : ℝ) / 10 ^ 12 := by gcongr
        have := mul_le_mul this f0 (by norm_num) (by positivity)
        refine le_trans ?_ this
        norm_num
      have l6 := S.round l5 (by linarith) (by refine le_trans ?_ e0; norm_num)
      have l7 := l6.mul (LC.refl (by norm_num : (0 : ℝ) < 1000))
      have l8 := S.round l7 (by linarith) (by nlinarith)
      have e : (p.1 : ℝ) / 10 ^ 12 * (m2 / (m1 + m2)) * 1000 = p.1 * comFactor m1 m2 := by
        unfold comFactor; ring
      rw [e] at l8
      have := l8.rel (by linarith)
      refine this.trans (mul_le_mul_of_nonneg_right (by linarith) l8.2.1.le)
  · simp only
    rcases Nat.eq_zero_or_pos p.2 with h | h
    · rw [h]
      simp [S.arith.zero]
    · have hp : (1 : ℝ) ≤ p.2 := by exact_mod_cast h
      have l1 := S.rd (x := (p.2 : ℝ) / 10 ^ 50) (by rw [le_div_iff₀ (by positivity)]; refine le_trans ?_ hp; norm_num)
      have l2 := S.rd (x := (1e-28 : ℝ)) (by norm_num)
      have l3 := l1.mul l2
      have e : (p.2 : ℝ) / 10 ^ 50 * 1e-28 = p.2 * (1 / 10 ^ 78) := by norm_num; ring
      rw [e] at l3
      have e0 : (1 : ℝ) / 10 ^ 100 ≤ p.2 * (1 / 10 ^ 78) := by
        have : (1 : ℝ) * (1 / 10 ^ 78) ≤ p.2 * (1 / 10 ^ 78) := mul_le_mul_of_nonneg_right hp (by positivity)
        refine le_trans ?_ this
        norm_num
      have l4 := S.round l3 (by linarith) e0
      have := l4.rel (by linarith)
      refine this.trans (mul_le_mul_of_nonneg_right (by linarith) l4.2.1.le)

end
end TNS
