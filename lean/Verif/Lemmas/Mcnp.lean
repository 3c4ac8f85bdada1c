import Verif.Model.Mcnp
import Mathlib.Data.List.Sort
import Mathlib.Tactic.Linarith
import Mathlib.Algebra.BigOperators.Group.List.Basic
/-
`np.unique` and the grouping of the cells into columns by the indices where the radius changes.
-/

set_option autoImplicit false
set_option linter.unusedSectionVars false

namespace TNS
variable {K : Type} [Field K] [LinearOrder K] {α : Type}

theorem mem_insertUnique (a c : K) (l : List K) : c ∈ insertUnique a l ↔ c = a ∨ c ∈ l := by
  induction l with
  | nil => simp [insertUnique]
  | cons b l ih =>
    unfold insertUnique
    split
    · simp
    · split
      · rename_i h; subst h; simp
      · simp only [List.mem_cons, ih]; tauto

theorem sorted_insertUnique (a : K) (l : List K) (h : l.Pairwise (· < ·)) :
    (insertUnique a l).Pairwise (· < ·) := by
  induction l with
  | nil => simp [insertUnique]
  | cons b l ih =>
    rw [List.pairwise_cons] at h
    unfold insertUnique
    split
    · rename_i hab
      rw [List.pairwise_cons, List.pairwise_cons]
      refine ⟨fun c hc => ?_, h⟩
      rcases List.mem_cons.1 hc with rfl | hc
      · exact hab
      · exact hab.trans (h.1 c hc)
    · split
      · rw [List.pairwise_cons]; exact h
      · rename_i h1 h2
        rw [List.pairwise_cons]
        refine ⟨fun c hc => ?_, ih h.2⟩
        rcases (mem_insertUnique a c l).1 hc with rfl | hc
        · exact lt_of_le_of_ne (not_lt.1 h1) (Ne.symm h2)
        · exact h.1 c hc

theorem mem_npUnique (c : K) (l : List K) : c ∈ npUnique l ↔ c ∈ l := by
  unfold npUnique
  induction l with
  | nil => simp
  | cons a l ih => simp only [List.foldr_cons, mem_insertUnique, ih, List.mem_cons]

theorem sorted_npUnique (l : List K) : (npUnique l).Pairwise (· < ·) := by
  unfold npUnique
  induction l with
  | nil => simp
  | cons a l ih => exact sorted_insertUnique a _ ih

theorem npUnique_cons_lt (a : K) (l : List K) (h : ∀ b ∈ l, a < b) :
    npUnique (a :: l) = a :: npUnique l := by
  show insertUnique a (npUnique l) = _
  cases e : npUnique l with
  | nil => rfl
  | cons b u =>
    have : b ∈ l := (mem_npUnique b l).1 (by rw [e]; exact List.mem_cons_self)
    simp [insertUnique, h b this]

theorem npUnique_head (b : K) (t : List K) (h : ∀ c ∈ t, b ≤ c) :
    ∃ u, npUnique (b :: t) = b :: u ∧ ∀ c ∈ u, b < c := by
  cases e : npUnique (b :: t) with
  | nil =>
    have := (mem_npUnique b (b :: t)).2 List.mem_cons_self
    rw [e] at this; simp at this
  | cons c u =>
    have hs := sorted_npUnique (b :: t)
    rw [e, List.pairwise_cons] at hs
    have hb : b ∈ c :: u := by rw [← e]; exact (mem_npUnique b _).2 List.mem_cons_self
    have hc : c ∈ b :: t := by rw [← mem_npUnique, e]; exact List.mem_cons_self
    have hbc : b ≤ c := by
      rcases List.mem_cons.1 hc with rfl | hc
      · exact le_refl _
      · exact h c hc
    have : c = b := by
      rcases List.mem_cons.1 hb with hb | hb
      · exact hb.symm
      · exact absurd (hs.1 b hb) (not_lt.2 hbc)
    subst this
    exact ⟨u, rfl, hs.1⟩

theorem npUnique_cons_same (b : K) (t : List K) (h : ∀ c ∈ t, b ≤ c) :
    npUnique (b :: b :: t) = npUnique (b :: t) := by
  obtain ⟨u, e, _⟩ := npUnique_head b t h
  show insertUnique b (npUnique (b :: t)) = _
  rw [e]; simp [insertUnique]

/-- The column boundaries as natural numbers: `z_ints + 1`. -/
def colBounds (r : List K) : List ℕ :=
  0 :: (((List.range (r.length - 1)).filter (fun i => r[i + 1]? ≠ r[i]?)).map (· + 1) ++ [r.length])

theorem zInts_eq (r : List K) : zInts r = (colBounds r).map (fun k : ℕ => (k : ℤ) - 1) := by
  unfold zInts colBounds
  simp [List.map_map, Function.comp_def]

theorem columns_eq (r : List K) (l : List α) :
    columns (zInts r) l = List.zipWith (fun a b => (l.drop a).take (b - a))
      (colBounds r) (colBounds r).tail := by
  unfold columns
  rw [zInts_eq, ← List.map_tail, List.zipWith_map]
  congr 1
  funext a b
  simp [slice]

theorem colBounds_cons (a b : K) (t : List K) :
    colBounds (a :: b :: t) =
      if b = a then 0 :: (colBounds (b :: t)).tail.map (· + 1)
      else 0 :: (colBounds (b :: t)).map (· + 1) := by
  unfold colBounds
  have e : (a :: b :: t).length - 1 = t.length + 1 := by simp
  have e' : (b :: t).length - 1 = t.length := by simp
  rw [e, e', List.range_succ_eq_map, List.filter_cons]
  have h0 : ((a :: b :: t)[0 + 1]? ≠ (a :: b :: t)[0]?) ↔ b ≠ a := by simp
  have hm : (List.map Nat.succ (List.range t.length)).filter
      (fun i => decide ((a :: b :: t)[i + 1]? ≠ (a :: b :: t)[i]?)) =
      ((List.range t.length).filter (fun i => decide ((b :: t)[i + 1]? ≠ (b :: t)[i]?))).map
        Nat.succ := by
    rw [List.filter_map]
    congr 1
  rw [hm]
  by_cases h : b = a
  · subst h
    simp [List.map_map, Function.comp_def]
  · have hd : decide ((a :: b :: t)[0 + 1]? ≠ (a :: b :: t)[0]?) = true := by
      simp only [decide_eq_true_eq]; exact h0.2 h
    rw [if_pos hd, if_neg h]
    simp [List.map_map, Function.comp_def]

/-- Columns of the shifted boundaries. -/
theorem zipWith_shift (x : α) (l : List α) (as bs : List ℕ) :
    List.zipWith (fun a b => ((x :: l).drop a).take (b - a)) (as.map (· + 1)) (bs.map (· + 1)) =
      List.zipWith (fun a b => (l.drop a).take (b - a)) as bs := by
  rw [List.zipWith_map]
  congr 1
  funext a b
  simp

theorem columns_single (a : K) (x : α) : columns (zInts [a]) [x] = [[x]] := by
  rw [columns_eq]; rfl

theorem columns_cons (a b : K) (t : List K) (x y : α) (l : List α) :
    columns (zInts (a :: b :: t)) (x :: y :: l) =
      if b = a then
        match columns (zInts (b :: t)) (y :: l) with
        | [] => []
        | c :: cs => (x :: c) :: cs
      else [x] :: columns (zInts (b :: t)) (y :: l) := by
  rw [columns_eq, columns_eq, colBounds_cons]
  obtain ⟨c, cs, hc⟩ : ∃ c cs, colBounds (b :: t) = 0 :: c :: cs := by
    unfold colBounds
    cases h : ((List.range ((b :: t).length - 1)).filter
        (fun i => (b :: t)[i + 1]? ≠ (b :: t)[i]?)).map (· + 1) with
    | nil => exact ⟨_, _, rfl⟩
    | cons p q => exact ⟨_, _, rfl⟩
  rw [hc]
  by_cases h : b = a
  · rw [if_pos h, if_pos h]
    simp only [List.tail_cons, List.map_cons, List.zipWith_cons_cons]
    rw [← List.map_cons (f := (· + 1)), zipWith_shift]
    simp
  · rw [if_neg h, if_neg h]
    simp only [List.tail_cons, List.map_cons, List.zipWith_cons_cons]
    rw [← List.map_cons (f := (· + 1)), zipWith_shift]
    simp

/-- The entries of `l` belonging to the cells with radius `ρ`. -/
def atRadius (r : List K) (l : List α) (ρ : K) : List α :=
  ((List.zip r l).filter (fun p => p.1 = ρ)).map Prod.snd

/-- For non-decreasing radii the columns are the groups of cells of equal radius, in order of the
distinct radii. -/
theorem columns_sorted (r : List K) (l : List α) (hr : r.Pairwise (· ≤ ·)) (hne : r ≠ [])
    (hl : l.length = r.length) :
    columns (zInts r) l = (npUnique r).map (atRadius r l) := by
  induction r generalizing l with
  | nil => exact absurd rfl hne
  | cons a t ih =>
    cases t with
    | nil =>
      obtain ⟨x, rfl⟩ : ∃ x, l = [x] := by
        rcases l with _ | ⟨x, _ | ⟨y, l⟩⟩ <;> simp at hl
        exact ⟨x, rfl⟩
      rw [columns_single]
      simp [npUnique, insertUnique, atRadius]
    | cons b t =>
      obtain ⟨x, y, l, rfl⟩ : ∃ x y l', l = x :: y :: l' := by
        rcases l with _ | ⟨x, _ | ⟨y, l⟩⟩ <;> simp at hl
        exact ⟨x, y, l, rfl⟩
      rw [List.pairwise_cons] at hr
      have ih := ih (y :: l) hr.2 (by simp) (by simpa using hl)
      have hb : ∀ c ∈ t, b ≤ c := (List.pairwise_cons.1 hr.2).1
      rw [columns_cons, ih]
      obtain ⟨u, hu, hu2⟩ := npUnique_head b t hb
      by_cases h : b = a
      · subst h
        rw [if_pos rfl, npUnique_cons_same b t hb, hu]
        simp only [List.map_cons]
        congr 1
        · simp [atRadius]
        · apply List.map_congr_left
          intro ρ hρ
          have : b ≠ ρ := (hu2 ρ hρ).ne
          simp [atRadius, this]
      · rw [if_neg h]
        have hab : a < b := lt_of_le_of_ne (hr.1 b List.mem_cons_self) (Ne.symm h)
        have hall : ∀ c ∈ b :: t, a < c := by
          intro c hc
          rcases List.mem_cons.1 hc with rfl | hc
          · exact hab
          · exact hab.trans_le (hb c hc)
        rw [npUnique_cons_lt a _ hall, List.map_cons]
        congr 1
        · have : (List.zip (b :: t) (y :: l)).filter (fun p => decide (p.1 = a)) = [] := by
            rw [List.filter_eq_nil_iff]
            rintro ⟨c, v⟩ hp
            have hc : c ∈ b :: t := (List.of_mem_zip hp).1
            simpa using (hall c hc).ne'
          show [x] = atRadius (a :: b :: t) (x :: y :: l) a
          unfold atRadius
          rw [List.zip_cons_cons, List.filter_cons_of_pos (by simp), this]
          rfl
        · apply List.map_congr_left
          intro ρ hρ
          have hρ' : ρ ∈ b :: t := (mem_npUnique _ _).1 hρ
          have : a ≠ ρ := (hall ρ hρ').ne
          show atRadius (b :: t) (y :: l) ρ = atRadius (a :: b :: t) (x :: y :: l) ρ
          unfold atRadius
          rw [List.zip_cons_cons (a := a), List.filter_cons_of_neg (by simpa using this)]

end TNS
