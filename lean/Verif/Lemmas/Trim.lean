import Verif.Model.Energy
import Verif.Spec.Energy
import Verif.Lemmas.Trapezoid
import Verif.Lemmas.MapM
/-
Trimming zeros off a table.
-/

set_option autoImplicit false
set_option linter.unusedSectionVars false

namespace TNS
open Spec
variable {K : Type} [Field K] [DecidableEq K]

/-- `nonzeroIdx` with an offset. -/
def nzFrom (k : ℕ) (vec : List K) : List ℕ :=
  (vec.zipIdx k).filterMap (fun p => if p.1 ≠ 0 then some p.2 else none)

theorem nzFrom_cons (k : ℕ) (a : K) (l : List K) :
    nzFrom k (a :: l) = if a ≠ 0 then k :: nzFrom (k + 1) l else nzFrom (k + 1) l := by
  unfold nzFrom
  rw [List.zipIdx_cons, List.filterMap_cons]
  by_cases h : a ≠ 0 <;> simp [h]

theorem nzFrom_append (k : ℕ) (l l' : List K) :
    nzFrom k (l ++ l') = nzFrom k l ++ nzFrom (k + l.length) l' := by
  unfold nzFrom
  rw [List.zipIdx_append, List.filterMap_append, Nat.add_comm]

theorem nzFrom_zero (k : ℕ) (l : List K) (h : ∀ a ∈ l, a = 0) : nzFrom k l = [] := by
  induction l generalizing k with
  | nil => rfl
  | cons a l ih =>
    rw [nzFrom_cons, if_neg (by simpa using h a (by simp))]
    exact ih _ (fun b hb => h b (List.mem_cons_of_mem _ hb))

/-- Every list is all zero, or splits into zeros, a part with non-zero ends, zeros. -/
theorem trim_split {α : Type} (f : α → K) (l : List α) :
    (∀ a ∈ l, f a = 0) ∨ ∃ pre x mid post, l = pre ++ (x :: mid) ++ post ∧ (∀ p ∈ pre, f p = 0) ∧
      (∀ p ∈ post, f p = 0) ∧ f x ≠ 0 ∧ ∃ y, (x :: mid).getLast? = some y ∧ f y ≠ 0 := by
  induction l with
  | nil => left; simp
  | cons a l ih =>
    by_cases ha : f a = 0
    · rcases ih with h | ⟨pre, x, mid, post, rfl, h1, h2, h3, h4⟩
      · left
        intro b hb
        rcases List.mem_cons.1 hb with rfl | hb
        · exact ha
        · exact h b hb
      · right
        refine ⟨a :: pre, x, mid, post, by simp, ?_, h2, h3, h4⟩
        intro b hb
        rcases List.mem_cons.1 hb with rfl | hb
        · exact ha
        · exact h1 b hb
    · right
      rcases ih with h | ⟨pre, x, mid, post, rfl, h1, h2, h3, y, h4, h5⟩
      · exact ⟨[], a, [], l, by simp, by simp, h, ha, a, by simp, ha⟩
      · refine ⟨[], a, pre ++ x :: mid, post, by simp, by simp, h2, ha, y, ?_, h5⟩
        rw [show a :: (pre ++ x :: mid) = (a :: pre) ++ (x :: mid) by simp,
          List.getLast?_append_of_ne_nil _ (by simp)]
        exact h4

theorem applyMask_range {α : Type} (a b : ℕ) (k : ℕ) (l : List α) :
    (List.zip ((List.range' k l.length).map (fun i : ℕ => decide (a ≤ i ∧ i < b))) l).filterMap
      (fun p => if p.1 then some p.2 else none) = (l.take (b - k)).drop (a - k) := by
  induction l generalizing k with
  | nil => simp
  | cons x l ih =>
    rw [List.length_cons, List.range'_succ, List.map_cons, List.zip_cons_cons,
      List.filterMap_cons]
    have := ih (k + 1)
    rw [this]
    by_cases h1 : a ≤ k
    · by_cases h2 : k < b
      · have e1 : b - k = (b - (k + 1)) + 1 := by omega
        have e2 : a - k = 0 := by omega
        have e3 : a - (k + 1) = 0 := by omega
        simp [h1, h2, e1, e2, e3]
      · have e1 : b - k = 0 := by omega
        have e3 : b - (k + 1) = 0 := by omega
        simp [h2, e1, e3]
    · have e2 : a - k = (a - (k + 1)) + 1 := by omega
      by_cases h2 : k < b
      · have e1 : b - k = (b - (k + 1)) + 1 := by omega
        simp [h1, e1, e2]
      · have e1 : b - k = 0 := by omega
        have e3 : b - (k + 1) = 0 := by omega
        simp [h1, e1, e3]

/-- The mask of a split table. -/
theorem trimZeroMask_split (pre mid post : List K) (x : K) (h1 : ∀ p ∈ pre, p = 0)
    (h2 : ∀ p ∈ post, p = 0) (h3 : x ≠ 0) (y : K) (h4 : (x :: mid).getLast? = some y) (h5 : y ≠ 0) :
    trimZeroMask (pre ++ (x :: mid) ++ post) =
      .ok ((List.range (pre ++ (x :: mid) ++ post).length).map
        (fun i : ℕ => decide (pre.length ≤ i ∧ i < pre.length + (mid.length + 1)))) := by
  have e : nonzeroIdx (pre ++ (x :: mid) ++ post) = nzFrom pre.length (x :: mid) := by
    show nzFrom 0 _ = _
    rw [nzFrom_append, nzFrom_append, nzFrom_zero 0 pre h1, nzFrom_zero _ post h2]
    simp
  have hh : (nzFrom pre.length (x :: mid)).head? = some pre.length := by
    rw [nzFrom_cons, if_pos h3]; rfl
  have hl : (nzFrom pre.length (x :: mid)).getLast? = some (pre.length + mid.length) := by
    rcases List.eq_nil_or_concat mid with rfl | ⟨m, z, rfl⟩
    · rw [nzFrom_cons, if_pos h3]; rfl
    · rw [List.concat_eq_append] at *
      have hz : y = z := by
        rw [show x :: (m ++ [z]) = (x :: m) ++ [z] by simp,
          List.getLast?_append_of_ne_nil _ (by simp)] at h4
        simpa using h4.symm
      subst hz
      rw [show x :: (m ++ [y]) = (x :: m) ++ [y] by simp, nzFrom_append, nzFrom_cons _ y,
        if_pos h5, List.getLast?_append_of_ne_nil _ (by simp)]
      simp [nzFrom, Nat.add_assoc]
  unfold trimZeroMask
  rw [e, hh, hl]
  simp only [Nat.add_assoc]

theorem trimZeroMask_zero (l : List K) (h : ∀ a ∈ l, a = 0) :
    trimZeroMask l = .error .energySpectrumError := by
  have e : nonzeroIdx l = [] := nzFrom_zero 0 l h
  unfold trimZeroMask
  rw [e]; rfl

theorem applyMask_split {α : Type} (pre mid post : List α) :
    applyMask ((List.range (pre ++ mid ++ post).length).map
        (fun i : ℕ => decide (pre.length ≤ i ∧ i < pre.length + mid.length)))
      (pre ++ mid ++ post) = mid := by
  unfold applyMask
  rw [List.range_eq_range', applyMask_range, Nat.sub_zero, Nat.sub_zero, ← List.length_append,
    List.take_left' rfl, List.drop_left' rfl]

end TNS
