import Verif.Model.Basic
import Mathlib.Data.List.Nodup
/-
Facts about insertion-ordered dictionaries.
-/

set_option autoImplicit false

namespace TNS.Dict
variable {α β : Type} [DecidableEq α]

theorem set_of_not_mem (d : Dict α β) (k : α) (v : β) (h : k ∉ d.keys) :
    d.set k v = d ++ [(k, v)] := by
  unfold set
  have : d.any (fun p => decide (p.1 = k)) = false := by
    rw [List.any_eq_false]
    intro p hp
    simp only [decide_eq_true_eq]
    intro e
    exact h (by rw [← e]; exact List.mem_map_of_mem hp)
  simp [this]

theorem keys_append (d e : Dict α β) : Dict.keys (d ++ e) = d.keys ++ e.keys := by
  simp [keys]

theorem get?_map_pair (l : List α) (f : α → β) (k : α) :
    Dict.get? (l.map (fun r => (r, f r))) k = if k ∈ l then some (f k) else none := by
  induction l with
  | nil => simp [get?]
  | cons a l ih =>
    unfold get? at ih ⊢
    by_cases h : a = k
    · subst h; simp
    · rw [List.map_cons, List.find?_cons_of_neg (by simpa using h), ih]
      have : k ≠ a := fun e => h e.symm
      simp [this]

theorem get?_map_val (d : Dict α β) (g : β → β) (k : α) :
    Dict.get? (d.map (fun p => (p.1, g p.2))) k = (d.get? k).map g := by
  induction d with
  | nil => simp [get?]
  | cons a l ih =>
    unfold get? at ih ⊢
    by_cases h : a.1 = k
    · simp [h]
    · rw [List.map_cons, List.find?_cons_of_neg (by simpa using h), ih,
        List.find?_cons_of_neg (by simpa using h)]

theorem foldl_modify (l : List α) (hl : l.Nodup) (g : β → β) (d : Dict α β) :
    l.foldl (fun d r => d.modify r g) d =
      d.map (fun p => if p.1 ∈ l then (p.1, g p.2) else p) := by
  induction l generalizing d with
  | nil => simp
  | cons a l ih =>
    rw [List.nodup_cons] at hl
    rw [List.foldl_cons, ih hl.2]
    unfold modify
    rw [List.map_map]
    apply List.map_congr_left
    intro p _
    simp only [Function.comp_apply, List.mem_cons]
    by_cases h : p.1 = a
    · have : a ∉ l := hl.1
      simp [h, this]
    · simp [h]

theorem foldl_modify_all (l : List α) (hl : l.Nodup) (g : β → β) (d : Dict α β)
    (hd : ∀ k ∈ d.keys, k ∈ l) :
    l.foldl (fun d r => d.modify r g) d = d.map (fun p => (p.1, g p.2)) := by
  rw [foldl_modify l hl]
  apply List.map_congr_left
  intro p hp
  simp [hd p.1 (List.mem_map_of_mem hp)]

theorem eq_map_of_keys (d : Dict α β) (l : List α) (hl : l.Nodup) (hd : d.keys = l) (dflt : β) :
    d = l.map (fun r => (r, d.getD r dflt)) := by
  subst hd
  induction d with
  | nil => simp [keys]
  | cons a l ih =>
    simp only [keys, List.map_cons, List.nodup_cons] at hl
    simp only [keys, List.map_cons, List.cons.injEq]
    constructor
    · simp [getD, get?]
    · have h2 := ih hl.2
      conv_lhs => rw [h2]
      simp only [keys, List.map_map]
      apply List.map_congr_left
      intro p hp
      have hne : ¬ a.1 = p.1 := fun e => hl.1 (by rw [e]; exact List.mem_map_of_mem hp)
      simp [getD, get?, List.find?_cons_of_neg, hne]

theorem get?_eq_some_of_mem_keys (d : Dict α β) (k : α) (h : k ∈ d.keys) :
    ∃ v, d.get? k = some v := by
  obtain ⟨p, hp, rfl⟩ := List.mem_map.1 h
  cases e : d.find? (fun q => decide (q.1 = p.1)) with
  | none => have := List.find?_eq_none.1 e p hp; simp at this
  | some q => exact ⟨q.2, by simp [get?, e]⟩

theorem get?_eq_none_of_not_mem_keys (d : Dict α β) (k : α) (h : k ∉ d.keys) :
    d.get? k = none := by
  simp only [get?, Option.map_eq_none_iff, List.find?_eq_none, decide_eq_true_eq]
  intro p hp e
  exact h (by rw [← e]; exact List.mem_map_of_mem hp)

end TNS.Dict
