import Verif.Model.Basic
import Mathlib.Data.List.Forall2
/-
`List.mapM` in the exception monad.
-/

set_option autoImplicit false

namespace TNS

theorem mapM_ok_iff {α β : Type} (f : α → Except Err β) (l : List α) (ys : List β) :
    l.mapM f = .ok ys ↔ List.Forall₂ (fun a b => f a = .ok b) l ys := by
  induction l generalizing ys with
  | nil =>
    simp only [List.mapM_nil, pure, Except.pure, Except.ok.injEq]
    constructor
    · rintro rfl; exact .nil
    · intro h; cases h; rfl
  | cons a l ih =>
    rw [List.mapM_cons]
    cases ha : f a with
    | error e =>
      simp only [Bind.bind, Except.bind]
      constructor
      · intro h; cases h
      · intro h; cases h with | cons h1 _ => rw [ha] at h1; cases h1
    | ok b =>
      cases hl : l.mapM f with
      | error e =>
        simp only [Bind.bind, Except.bind]
        constructor
        · intro h; cases h
        · intro h
          cases h with | cons h1 h2 => rw [(ih _).2 h2] at hl; cases hl
      | ok bs =>
        simp only [Bind.bind, Except.bind, pure, Except.pure, Except.ok.injEq]
        constructor
        · rintro rfl; exact .cons ha ((ih bs).1 hl)
        · intro h
          cases h with
          | cons h1 h2 =>
            rw [ha] at h1; cases h1
            rw [(ih _).2 h2] at hl; cases hl; rfl

theorem mapM_length {α β : Type} {f : α → Except Err β} {l : List α} {ys : List β}
    (h : l.mapM f = .ok ys) : ys.length = l.length :=
  ((mapM_ok_iff f l ys).1 h).length_eq.symm

theorem mapM_get {α β : Type} {f : α → Except Err β} {l : List α} {ys : List β}
    (h : l.mapM f = .ok ys) (i : Nat) (hi : i < l.length) (hi' : i < ys.length) :
    f l[i] = .ok ys[i] := by
  replace h := (mapM_ok_iff f l ys).1 h
  induction h generalizing i with
  | nil => simp at hi
  | cons h1 _ ih =>
    cases i with
    | zero => exact h1
    | succ i => exact ih i _ _

theorem mapM_mem {α β : Type} {f : α → Except Err β} {l : List α} {ys : List β}
    (h : l.mapM f = .ok ys) (b : β) (hb : b ∈ ys) : ∃ a ∈ l, f a = .ok b := by
  obtain ⟨i, hi, rfl⟩ := List.mem_iff_getElem.1 hb
  have hl := mapM_length h
  exact ⟨l[i]'(by omega), List.getElem_mem _, mapM_get h i (by omega) hi⟩

theorem mapM_exists_ok {α β : Type} (f : α → Except Err β) (l : List α)
    (h : ∀ a ∈ l, ∃ b, f a = .ok b) : ∃ ys, l.mapM f = .ok ys := by
  induction l with
  | nil => exact ⟨[], rfl⟩
  | cons a l ih =>
    obtain ⟨b, hb⟩ := h a List.mem_cons_self
    obtain ⟨ys, hy⟩ := ih (fun a ha => h a (List.mem_cons_of_mem _ ha))
    exact ⟨b :: ys, by simp [List.mapM_cons, hb, hy, Bind.bind, Except.bind, pure, Except.pure]⟩

end TNS
