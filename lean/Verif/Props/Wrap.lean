import Verif.Model.Wrap
import Verif.Spec.Wrap
import Verif.Props.Format
import Mathlib.Data.List.SplitOn
/-
C26, C27: wrapping of the SDEF cards.
-/

set_option autoImplicit false
set_option linter.unusedSectionVars false

namespace TNS
open Spec

/-- Words separated by single blanks, as chunks. -/
def alt : List (List Char) → List (List Char)
  | [] => []
  | [a] => [a]
  | a :: b :: l => a :: [' '] :: alt (b :: l)

theorem alt_cons (a b : List Char) (l : List (List Char)) :
    alt (a :: b :: l) = a :: [' '] :: alt (b :: l) := rfl

theorem flatten_alt (l : List (List Char)) : (alt l).flatten = joinBlank l := by
  induction l with
  | nil => rfl
  | cons a l ih =>
    cases l with
    | nil => simp [alt, joinBlank]
    | cons b l =>
      rw [alt_cons]
      unfold joinBlank at ih ⊢
      simp only [List.flatten_cons, ih]
      simp [List.intercalate, List.intersperse]

theorem field_not_blank {w : List Char} (h : IsField w) : ∀ c ∈ w, isBlank c = false := by
  intro c hc
  have := h.2 c hc
  simp [isBlank, this.1, this.2]

theorem field_not_all {w : List Char} (h : IsField w) : w.all isBlank = false := by
  obtain ⟨c, hc⟩ := List.exists_mem_of_ne_nil w h.1
  rw [List.all_eq_false]
  exact ⟨c, hc, by simp [field_not_blank h c hc]⟩

theorem chunksOf_word (w : List Char) (hw : w ≠ []) (hb : ∀ c ∈ w, isBlank c = false) (t : List Char)
    (ht : t = [] ∨ ∃ c r, t = c :: r ∧ isBlank c = true) :
    chunksOf (w ++ t) = w :: chunksOf t := by
  induction w with
  | nil => exact absurd rfl hw
  | cons a w ih =>
    cases w with
    | nil =>
      have ha := hb a (by simp)
      rcases ht with rfl | ⟨c, r, rfl, hc⟩
      · simp [chunksOf]
      · show chunksOf (a :: c :: r) = _
        rw [chunksOf]
        have : ∃ ds r', chunksOf (c :: r) = (c :: ds) :: r' := by
          rw [chunksOf]
          split
          · split
            · exact ⟨_, _, rfl⟩
            · exact ⟨_, _, rfl⟩
          · exact ⟨_, _, rfl⟩
        obtain ⟨ds, r', e⟩ := this
        rw [e]
        simp [ha, hc]
    | cons b w =>
      have ih := ih (by simp) (fun c hc => hb c (List.mem_cons_of_mem _ hc))
      rw [List.cons_append, chunksOf, ih]
      simp [hb a (by simp), hb b (by simp)]

theorem chunksOf_blank (t : List Char) (h : ∃ a r, t = a :: r ∧ isBlank a = false) :
    chunksOf (' ' :: t) = [' '] :: chunksOf t := by
  obtain ⟨a, r, rfl, ha⟩ := h
  have : ∃ ds r', chunksOf (a :: r) = (a :: ds) :: r' := by
    rw [chunksOf]
    split
    · split
      · exact ⟨_, _, rfl⟩
      · exact ⟨_, _, rfl⟩
    · exact ⟨_, _, rfl⟩
  obtain ⟨ds, r', e⟩ := this
  rw [chunksOf, e]
  have : isBlank ' ' = true := rfl
  simp [ha, this]

theorem joinBlank_cons (a b : List Char) (l : List (List Char)) :
    joinBlank (a :: b :: l) = a ++ ' ' :: joinBlank (b :: l) := by
  simp [joinBlank, List.intercalate, List.intersperse]

theorem joinBlank_head {a : List Char} {l : List (List Char)} (ha : IsField a) :
    ∃ c r, joinBlank (a :: l) = c :: r ∧ isBlank c = false := by
  obtain ⟨c, cs, rfl⟩ := List.exists_cons_of_ne_nil ha.1
  refine ⟨c, ?_⟩
  cases l with
  | nil => exact ⟨cs, by simp [joinBlank], field_not_blank ha c (by simp)⟩
  | cons b l => exact ⟨_, by rw [joinBlank_cons]; rfl, field_not_blank ha c (by simp)⟩

theorem chunksOf_join (l : List (List Char)) (h : ∀ w ∈ l, IsField w) :
    chunksOf (joinBlank l) = alt l := by
  induction l with
  | nil => rfl
  | cons a l ih =>
    have ha := h a (by simp)
    cases l with
    | nil =>
      have := chunksOf_word a ha.1 (field_not_blank ha) [] (.inl rfl)
      simpa [joinBlank, alt, chunksOf] using this
    | cons b l =>
      rw [joinBlank_cons, chunksOf_word a ha.1 (field_not_blank ha) _ (.inr ⟨_, _, rfl, rfl⟩),
        chunksOf_blank _ (joinBlank_head (h b (by simp))), ih (fun w hw => h w (List.mem_cons_of_mem _ hw)),
        alt_cons]

/-- A blank and the remaining words. -/
def lead (l : List (List Char)) : List (List Char) := if l = [] then [] else [' '] :: alt l

theorem fillLine_alt (w : ℕ) (l : List (List Char)) (a : List Char) (n : ℕ) (ha : n + a.length ≤ w) :
    ∃ g l', g ≠ [] ∧ g ++ l' = a :: l ∧ n + (joinBlank g).length ≤ w ∧
      (fillLine w n (alt (a :: l)) = (alt g, lead l') ∨
        (l' ≠ [] ∧ fillLine w n (alt (a :: l)) = (alt g ++ [[' ']], alt l'))) := by
  induction l generalizing a n with
  | nil =>
    exact ⟨[a], [], by simp, by simp, by simpa [joinBlank] using ha, .inl (by simp [alt, fillLine, ha, lead])⟩
  | cons b l ih =>
    by_cases h1 : n + a.length + 1 ≤ w
    · by_cases h2 : n + a.length + 1 + b.length ≤ w
      · obtain ⟨g, l', hg, hgl, hlen, hfill⟩ := ih b (n + a.length + 1) h2
        refine ⟨a :: g, l', by simp, by simp [hgl], ?_, ?_⟩
        · obtain ⟨g0, gs, rfl⟩ := List.exists_cons_of_ne_nil hg
          rw [joinBlank_cons]; simp; omega
        · obtain ⟨g0, gs, rfl⟩ := List.exists_cons_of_ne_nil hg
          rw [alt_cons, fillLine, if_pos ha]
          simp only
          rw [fillLine, if_pos (by simpa using h1)]
          simp only [List.length_singleton]
          rcases hfill with h | ⟨hne, h⟩
          · left; rw [h, alt_cons]
          · right; refine ⟨hne, ?_⟩; rw [h, alt_cons]; rfl
      · refine ⟨[a], b :: l, by simp, by simp, by simpa [joinBlank] using ha, .inr ⟨by simp, ?_⟩⟩
        rw [alt_cons, fillLine, if_pos ha]
        simp only
        rw [fillLine, if_pos (by simpa using h1)]
        simp only [List.length_singleton]
        have : fillLine w (n + a.length + 1) (alt (b :: l)) = ([], alt (b :: l)) := by
          cases l with
          | nil => simp [alt, fillLine, h2]
          | cons c l => rw [alt_cons, fillLine, if_neg h2]
        rw [this]; rfl
    · refine ⟨[a], b :: l, by simp, by simp, by simpa [joinBlank] using ha, .inl ?_⟩
      rw [alt_cons, fillLine, if_pos ha]
      simp only
      rw [fillLine, if_neg (by simpa using h1)]
      simp [alt, lead]

theorem alt_ne_nil {l : List (List Char)} (h : l ≠ []) : alt l ≠ [] := by
  obtain ⟨a, l, rfl⟩ := List.exists_cons_of_ne_nil h
  cases l <;> simp [alt]

theorem alt_getLast {l : List (List Char)} (h : l ≠ []) (hf : ∀ w ∈ l, IsField w) :
    ∃ c, (alt l).getLast? = some c ∧ IsField c := by
  induction l with
  | nil => exact absurd rfl h
  | cons a l ih =>
    cases l with
    | nil => exact ⟨a, rfl, hf a (by simp)⟩
    | cons b l =>
      obtain ⟨c, h1, h2⟩ := ih (by simp) (fun w hw => hf w (List.mem_cons_of_mem _ hw))
      refine ⟨c, ?_, h2⟩
      rw [alt_cons]
      obtain ⟨d, ds, e⟩ := List.exists_cons_of_ne_nil (alt_ne_nil (l := b :: l) (by simp))
      rw [e] at h1 ⊢
      simp only [List.getLast?_cons_cons]
      exact h1

theorem dropTrail_alt {l : List (List Char)} (h : l ≠ []) (hf : ∀ w ∈ l, IsField w) :
    dropTrail (alt l) = alt l ∧ dropTrail (alt l ++ [[' ']]) = alt l := by
  obtain ⟨c, h1, h2⟩ := alt_getLast h hf
  constructor
  · unfold dropTrail
    rw [h1]
    simp [field_not_all h2]
  · unfold dropTrail
    simp [isBlank]

/-- The outer loop groups the words. -/
theorem wrapGo_alt (w : ℕ) (k : ℕ) (first : Bool) (l : List (List Char)) (chunks : List (List Char))
    (hk : l.length ≤ k) (hf : ∀ x ∈ l, IsField x) (hw : ∀ x ∈ l, x.length ≤ w)
    (hch : chunks = alt l ∨ (first = false ∧ chunks = lead l)) :
    ∃ groups : List (List (List Char)), groups.flatten = l ∧ (∀ g ∈ groups, g ≠ []) ∧
      (∀ g ∈ groups, (joinBlank g).length ≤ w) ∧
      wrapGo w k first chunks = groups.map joinBlank := by
  induction k generalizing first l chunks with
  | zero =>
    have : l = [] := List.length_eq_zero_iff.1 (by omega)
    exact ⟨[], by simp [this], by simp, by simp, rfl⟩
  | succ k ih =>
    by_cases hl : l = []
    · subst hl
      have : chunks = [] := by rcases hch with h | ⟨_, h⟩ <;> simpa [alt, lead] using h
      exact ⟨[], by simp, by simp, by simp, by simp [wrapGo, this]⟩
    obtain ⟨a, t, rfl⟩ := List.exists_cons_of_ne_nil hl
    have haf := hf a (by simp)
    have hlead : dropLead first chunks = alt (a :: t) := by
      rcases hch with rfl | ⟨rfl, rfl⟩
      · have : ∃ r, alt (a :: t) = a :: r := by cases t <;> exact ⟨_, rfl⟩
        obtain ⟨r, e⟩ := this
        rw [e, dropLead, field_not_all haf]
        simp
      · simp [lead, dropLead, isBlank]
    have hchne : chunks ≠ [] := by
      rcases hch with rfl | ⟨_, rfl⟩
      · exact alt_ne_nil hl
      · simp [lead]
    obtain ⟨g, l', hg, hgl, hlen, hfill⟩ := fillLine_alt w t a 0 (by simpa using hw a (by simp))
    have hgf : ∀ x ∈ g, IsField x := fun x hx => hf x (by rw [← hgl]; exact List.mem_append_left _ hx)
    have hl'f : ∀ x ∈ l', IsField x := fun x hx => hf x (by rw [← hgl]; exact List.mem_append_right _ hx)
    have hl'w : ∀ x ∈ l', x.length ≤ w := fun x hx => hw x (by rw [← hgl]; exact List.mem_append_right _ hx)
    have hl'k : l'.length ≤ k := by
      have := congrArg List.length hgl
      have h2 := List.length_pos_of_ne_nil hg
      simp at this hk; omega
    obtain ⟨d1, d2⟩ := dropTrail_alt hg hgf
    have hne := alt_ne_nil hg
    rw [wrapGo, if_neg hchne, hlead]
    simp only
    rcases hfill with h | ⟨hne', h⟩
    · rw [h]
      obtain ⟨gs, e1, e2, e3, e4⟩ := ih false l' (lead l') hl'k hl'f hl'w (.inr ⟨rfl, rfl⟩)
      refine ⟨g :: gs, by simp [e1, hgl], ?_, ?_, ?_⟩
      · intro x hx
        rcases List.mem_cons.1 hx with rfl | hx
        exacts [hg, e2 x hx]
      · intro x hx
        rcases List.mem_cons.1 hx with rfl | hx
        exacts [by omega, e3 x hx]
      · simp [hne, d1, flatten_alt, e4]
    · rw [h]
      obtain ⟨gs, e1, e2, e3, e4⟩ := ih false l' (alt l') hl'k hl'f hl'w (.inl rfl)
      refine ⟨g :: gs, by simp [e1, hgl], ?_, ?_, ?_⟩
      · intro x hx
        rcases List.mem_cons.1 hx with rfl | hx
        exacts [hg, e2 x hx]
      · intro x hx
        rcases List.mem_cons.1 hx with rfl | hx
        exacts [by omega, e3 x hx]
      · simp [hne, d2, flatten_alt, e4]

theorem length_le_alt (l : List (List Char)) : l.length ≤ (alt l).length := by
  induction l with
  | nil => simp [alt]
  | cons a l ih =>
    cases l with
    | nil => simp [alt]
    | cons b l => rw [alt_cons]; simp at ih ⊢; omega

theorem wrap_join (w : ℕ) (l : List (List Char)) (hf : ∀ x ∈ l, IsField x)
    (hw : ∀ x ∈ l, x.length ≤ w) :
    ∃ groups : List (List (List Char)), groups.flatten = l ∧ (∀ g ∈ groups, g ≠ []) ∧
      (∀ g ∈ groups, (joinBlank g).length ≤ w) ∧
      wrap w (joinBlank l) = groups.map joinBlank := by
  unfold wrap
  rw [chunksOf_join l hf]
  exact wrapGo_alt w _ true l _ (length_le_alt l) hf hw (.inl rfl)

/-! ### The wrapped text -/

theorem fieldsOf_append (a : List Char) (c : Char) (b : List Char) (hc : isBlank c = true) :
    fieldsOf (a ++ c :: b) = fieldsOf a ++ fieldsOf b := by
  unfold fieldsOf
  rw [List.splitOnP_append_cons a b (by simpa [isBlank] using hc), List.filter_append]

theorem fieldsOf_field {w : List Char} (h : IsField w) : fieldsOf w = [w] := by
  unfold fieldsOf
  rw [List.splitOnP_eq_singleton (fun c hc => by simpa using h.2 c hc)]
  simp [h.1]

theorem fieldsOf_join (l : List (List Char)) (hf : ∀ x ∈ l, IsField x) :
    fieldsOf (joinBlank l) = l := by
  induction l with
  | nil => simp [joinBlank, fieldsOf]
  | cons a l ih =>
    cases l with
    | nil => simpa [joinBlank] using fieldsOf_field (hf a (by simp))
    | cons b l =>
      rw [joinBlank_cons, fieldsOf_append _ _ _ rfl, fieldsOf_field (hf a (by simp)),
        ih (fun x hx => hf x (List.mem_cons_of_mem _ hx))]
      rfl

theorem fieldsOf_blanks (n : ℕ) (c : Char) (hc : isBlank c = true) (t : List Char) :
    fieldsOf (List.replicate n c ++ t) = fieldsOf t := by
  induction n with
  | zero => simp
  | succ n ih =>
    rw [List.replicate_succ, List.cons_append]
    have := fieldsOf_append [] c (List.replicate n c ++ t) hc
    rw [List.nil_append] at this
    rw [this, ih]
    simp [fieldsOf]

theorem fieldsOf_trailing (n : ℕ) (c : Char) (hc : isBlank c = true) (t : List Char) :
    fieldsOf (t ++ List.replicate n c) = fieldsOf t := by
  cases n with
  | zero => simp
  | succ n =>
    rw [List.replicate_succ, fieldsOf_append _ _ _ hc]
    have := fieldsOf_blanks n c hc []
    rw [List.append_nil] at this
    rw [this]
    simp [fieldsOf]

/-- First line, then the other lines each on a new line with an indent. -/
def body (indent : ℕ) (first : List Char) (rest : List (List Char)) : List Char :=
  first ++ rest.flatMap (fun l => '\n' :: (List.replicate indent ' ' ++ l))

theorem intercalate_body (pre : List Char) (first : List Char) (rest : List (List Char)) :
    List.intercalate ['\n'] ((first :: rest).map (pre ++ ·)) =
      pre ++ (first ++ rest.flatMap (fun l => '\n' :: (pre ++ l))) := by
  induction rest generalizing first with
  | nil => simp [List.intercalate]
  | cons a rest ih =>
    have := ih a
    simp only [List.map_cons] at this ⊢
    simp only [List.intercalate, List.intersperse_cons₂, List.flatten_cons] at this ⊢
    rw [this]
    simp

theorem strip_eq (n : ℕ) (x : List Char) (h1 : ∃ c r, x = c :: r ∧ isBlank c = false)
    (h2 : ∃ r c, x = r ++ [c] ∧ isBlank c = false) : strip (List.replicate n ' ' ++ x) = x := by
  unfold strip
  rw [List.dropWhile_append_of_pos (by intro a ha; rw [List.eq_of_mem_replicate ha]; rfl)]
  obtain ⟨c, r, rfl, hc⟩ := h1
  rw [List.dropWhile_cons_of_neg (by simp [hc])]
  obtain ⟨r', c', e, hc'⟩ := h2
  rw [e, List.reverse_append, List.reverse_singleton, List.singleton_append,
    List.dropWhile_cons_of_neg (by simp [hc'])]
  simp

theorem join_last {l : List (List Char)} (hne : l ≠ []) (hf : ∀ x ∈ l, IsField x) :
    ∃ r c, joinBlank l = r ++ [c] ∧ isBlank c = false := by
  induction l with
  | nil => exact absurd rfl hne
  | cons a l ih =>
    cases l with
    | nil =>
      have ha := hf a (by simp)
      rcases List.eq_nil_or_concat a with h | ⟨r, c, h⟩
      · exact absurd h ha.1
      · refine ⟨r, c, by simp [joinBlank, h], field_not_blank ha c (by simp [h])⟩
    | cons b l =>
      obtain ⟨r, c, e, hc⟩ := ih (by simp) (fun x hx => hf x (List.mem_cons_of_mem _ hx))
      exact ⟨a ++ ' ' :: r, c, by rw [joinBlank_cons, e]; simp, hc⟩

theorem body_last (indent : ℕ) (first : List Char) (rest : List (List Char))
    (hf : ∃ r c, first = r ++ [c] ∧ isBlank c = false)
    (hr : ∀ l ∈ rest, ∃ r c, l = r ++ [c] ∧ isBlank c = false) :
    ∃ r c, body indent first rest = r ++ [c] ∧ isBlank c = false := by
  rcases List.eq_nil_or_concat rest with h | ⟨rs, l, h⟩
  · subst h; simpa [body] using hf
  · obtain ⟨r, c, e, hc⟩ := hr l (by simp [h])
    exact ⟨first ++ rs.flatMap (fun l => '\n' :: (List.replicate indent ' ' ++ l)) ++
      '\n' :: (List.replicate indent ' ' ++ r), c, by simp [body, h, e], hc⟩

theorem join_no_newline (l : List (List Char)) (hf : ∀ x ∈ l, IsField x) :
    ∀ c ∈ joinBlank l, c ≠ '\n' := by
  induction l with
  | nil => simp [joinBlank]
  | cons a l ih =>
    cases l with
    | nil => intro c hc; exact ((hf a (by simp)).2 c (by simpa [joinBlank] using hc)).2
    | cons b l =>
      intro c hc
      rw [joinBlank_cons, List.mem_append, List.mem_cons] at hc
      rcases hc with hc | rfl | hc
      · exact ((hf a (by simp)).2 c hc).2
      · decide
      · exact ih (fun x hx => hf x (List.mem_cons_of_mem _ hx)) c hc

theorem linesOf_replicate (n : ℕ) : linesOf (List.replicate n '\n') = List.replicate (n + 1) [] := by
  unfold linesOf
  induction n with
  | zero => rfl
  | succ n ih =>
    rw [List.replicate_succ, List.splitOn_eq_splitOnP, List.splitOnP_cons_eq_if_modifyHead,
      if_pos (by simp), ← List.splitOn_eq_splitOnP, ih]
    rfl

theorem linesOf_body (indent n : ℕ) (first : List Char) (rest : List (List Char)) (hn : 0 < n)
    (h1 : ∀ c ∈ first, c ≠ '\n') (h2 : ∀ l ∈ rest, ∀ c ∈ l, c ≠ '\n') :
    linesOf (body indent first rest ++ List.replicate n '\n') =
      first :: rest.map (List.replicate indent ' ' ++ ·) ++ List.replicate n [] := by
  induction rest generalizing first with
  | nil =>
    obtain ⟨m, rfl⟩ : ∃ m, n = m + 1 := ⟨n - 1, by omega⟩
    simp only [body, List.flatMap_nil, List.append_nil, List.replicate_succ, List.map_nil]
    unfold linesOf
    rw [List.splitOn_eq_splitOnP, List.splitOnP_append_cons_of_forall_mem (by simpa using h1) _
      (by simp), ← List.splitOn_eq_splitOnP]
    show first :: linesOf _ = _
    rw [linesOf_replicate, List.replicate_succ]
    rfl
  | cons l rest ih =>
    have ih := ih (List.replicate indent ' ' ++ l) (by
      intro c hc
      rcases List.mem_append.1 hc with hc | hc
      · rw [List.eq_of_mem_replicate hc]; decide
      · exact h2 l (by simp) c hc) (fun l' hl' => h2 l' (List.mem_cons_of_mem _ hl'))
    have e : body indent first (l :: rest) ++ List.replicate n '\n' =
        first ++ '\n' :: (body indent (List.replicate indent ' ' ++ l) rest ++
          List.replicate n '\n') := by
      simp [body]
    rw [e]
    unfold linesOf at ih ⊢
    rw [List.splitOn_eq_splitOnP, List.splitOnP_append_cons_of_forall_mem (by simpa using h1) _
      (by simp), ← List.splitOn_eq_splitOnP, ih]
    rfl

theorem fieldsOf_body (indent : ℕ) (groups : List (List (List Char))) (g : List (List Char))
    (hg : ∀ x ∈ g, IsField x) (hf : ∀ g ∈ groups, ∀ x ∈ g, IsField x) :
    fieldsOf (body indent (joinBlank g) (groups.map joinBlank)) = g ++ groups.flatten := by
  have aux : ∀ (groups : List (List (List Char))) (t : List Char),
      (∀ g ∈ groups, ∀ x ∈ g, IsField x) →
      fieldsOf (t ++ (groups.map joinBlank).flatMap
        (fun l => '\n' :: (List.replicate indent ' ' ++ l))) = fieldsOf t ++ groups.flatten := by
    intro groups
    induction groups with
    | nil => intro t _; simp
    | cons a groups ih =>
      intro t h
      simp only [List.map_cons, List.flatMap_cons, List.cons_append]
      rw [fieldsOf_append _ _ _ rfl, List.append_assoc, fieldsOf_blanks _ _ rfl,
        ih _ (fun g hg => h g (List.mem_cons_of_mem _ hg)), fieldsOf_join a (h a (by simp))]
      simp
  unfold body
  rw [aux groups _ hf, fieldsOf_join g hg]

/-- **C26** and **C27.**  A card of fields no longer than the line length, wrapped with an indent of
at least 6: the text is a first line without indent and continuation lines consisting of `indent`
blanks and a line content; reading the fields back gives the fields that were written, in order;
line contents have at most `maxLength` characters, so lines have at most `maxLength + indent`
(`maxLength` for the first); after the last line there are `newLines` line ends. -/
theorem C26_wrap (words : List (List Char)) (indent maxLength newLines : ℕ) (hne : words ≠ [])
    (hf : ∀ w ∈ words, IsField w) (hw : ∀ w ∈ words, w.length ≤ maxLength) (hi : 6 ≤ indent)
    (hn : 0 < newLines) :
    ∃ text first rest, textWrap (joinBlank words) indent maxLength newLines = .ok text ∧
      linesOf text = (first :: rest.map (List.replicate indent ' ' ++ ·)) ++
        List.replicate newLines [] ∧
      (∀ l ∈ first :: rest, ∃ c t, l = c :: t ∧ c ≠ ' ') ∧
      fieldsOf text = words ∧ (∀ l ∈ first :: rest, l.length ≤ maxLength) := by
  obtain ⟨groups, h1, h2, h3, h4⟩ := wrap_join maxLength words hf hw
  have hgf : ∀ g ∈ groups, ∀ x ∈ g, IsField x := fun g hg x hx =>
    hf x (by rw [← h1]; exact List.mem_flatten.2 ⟨g, hg, hx⟩)
  obtain ⟨g, gs, rfl⟩ : ∃ g gs, groups = g :: gs := by
    cases groups with
    | nil => simp at h1; exact absurd h1 hne
    | cons g gs => exact ⟨g, gs, rfl⟩
  have hhead : ∀ g' ∈ g :: gs, ∃ c r, joinBlank g' = c :: r ∧ isBlank c = false := by
    intro g' hg'
    obtain ⟨a, t, rfl⟩ := List.exists_cons_of_ne_nil (h2 g' hg')
    exact joinBlank_head (hgf _ hg' a (by simp))
  have hind : ((g :: gs).map joinBlank).map (indentLine indent) =
      (joinBlank g :: gs.map joinBlank).map (List.replicate indent ' ' ++ ·) := by
    rw [List.map_cons]
    apply List.map_congr_left
    intro l hl
    rw [← List.map_cons (f := joinBlank)] at hl
    obtain ⟨g', hg', rfl⟩ := List.mem_map.1 hl
    obtain ⟨c, r, e, hc⟩ := hhead g' hg'
    unfold indentLine
    rw [if_neg]
    rw [e]
    simp [hc]
  refine ⟨body indent (joinBlank g) (gs.map joinBlank) ++ List.replicate newLines '\n', joinBlank g,
    gs.map joinBlank, ?_, ?_, ?_, ?_, ?_⟩
  · unfold textWrap
    rw [if_neg (by omega), h4, hind, intercalate_body]
    show Except.ok (strip (List.replicate indent ' ' ++ body indent _ _) ++ _) = _
    rw [strip_eq]
    · obtain ⟨c, r, e, hc⟩ := hhead g (by simp)
      exact ⟨c, _, by rw [body, e]; rfl, hc⟩
    · apply body_last
      · exact join_last (h2 g (by simp)) (hgf g (by simp))
      · intro l hl
        obtain ⟨g', hg', rfl⟩ := List.mem_map.1 hl
        exact join_last (h2 g' (List.mem_cons_of_mem _ hg')) (hgf g' (List.mem_cons_of_mem _ hg'))
  · apply linesOf_body _ _ _ _ hn (join_no_newline g (hgf g (by simp)))
    intro l hl
    obtain ⟨g', hg', rfl⟩ := List.mem_map.1 hl
    exact join_no_newline g' (hgf g' (List.mem_cons_of_mem _ hg'))
  · intro l hl
    rw [← List.map_cons (f := joinBlank)] at hl
    obtain ⟨g', hg', rfl⟩ := List.mem_map.1 hl
    obtain ⟨c, r, e, hc⟩ := hhead g' hg'
    exact ⟨c, r, e, fun h => by simp [isBlank, h] at hc⟩
  · rw [fieldsOf_trailing _ _ rfl, fieldsOf_body indent gs g (hgf g (by simp))
      (fun g' hg' => hgf g' (List.mem_cons_of_mem _ hg')), ← h1]
    rfl
  · intro l hl
    rw [← List.map_cons (f := joinBlank)] at hl
    obtain ⟨g', hg', rfl⟩ := List.mem_map.1 hl
    exact h3 g' hg'

/-- **C26**: an indent below 6 is rejected, whatever the text. -/
theorem C26_reject (text : List Char) (indent maxLength newLines : ℕ) (h : indent < 6) :
    textWrap text indent maxLength newLines = .error .valueError := by
  unfold textWrap; rw [if_pos h]

/-- **C26**: the indent computed for the cards of distribution `n ≥ 1` is always accepted. -/
theorem C26_indent (n : ℕ) (hn : 0 < n) : 6 ≤ indentOffset n := by
  unfold indentOffset
  have : Nat.digits 10 n ≠ [] := Nat.digits_ne_nil_iff_ne_zero.2 (by omega)
  have := List.length_pos_of_ne_nil this
  omega

/-- **C27.**  Every line of a wrapped card has at most `maxLength + indent` characters, the first at
most `maxLength`. -/
theorem C27_bound (words : List (List Char)) (indent maxLength newLines : ℕ) (hne : words ≠ [])
    (hf : ∀ w ∈ words, IsField w) (hw : ∀ w ∈ words, w.length ≤ maxLength) (hi : 6 ≤ indent)
    (hn : 0 < newLines) :
    ∃ text first rest, textWrap (joinBlank words) indent maxLength newLines = .ok text ∧
      linesOf text = first :: rest ∧ first.length ≤ maxLength ∧
      ∀ l ∈ rest, l.length ≤ maxLength + indent := by
  obtain ⟨text, first, rest, h1, h2, _, _, h5⟩ :=
    C26_wrap words indent maxLength newLines hne hf hw hi hn
  refine ⟨text, first, _, h1, h2, h5 first (by simp), ?_⟩
  intro l hl
  rcases List.mem_append.1 hl with hl | hl
  · obtain ⟨l', hl', rfl⟩ := List.mem_map.1 hl
    have := h5 l' (List.mem_cons_of_mem _ hl')
    simp; omega
  · rw [List.eq_of_mem_replicate hl]; simp

section
variable {K : Type} [Field K] [LinearOrder K] [IsStrictOrderedRing K] [FloorRing K]

theorem formatE_ne_nil (p : ℕ) (x : K) : formatE p x ≠ [] := by
  unfold formatE Sci.render
  simp

theorem formatE_field (x : K) : IsField (formatE 5 x) :=
  ⟨formatE_ne_nil 5 x, fun c hc => formatE_no_blank 5 x c hc⟩

/-- **C26** with **C63**, end to end: a card with label fields and numbers, read back from its
wrapped text, gives the label and for every number a value with relative error at most 5e-6. -/
theorem C26_card (label : List (List Char)) (nums : List K) (indent : ℕ)
    (hl : ∀ w ∈ label, IsField w ∧ w.length ≤ 80) (hne : label ≠ [])
    (hexp : ∀ x ∈ nums, (sciOf 5 x).exp.natAbs < 100) (hi : 6 ≤ indent) :
    ∃ text, cardText label nums indent = .ok text ∧
      (fieldsOf text).take label.length = label ∧
      List.Forall₂ (fun (x : K) (w : List Char) => ∃ v : K, readFloat w = some v ∧
        |v - x| ≤ 5 / 1000000 * |x|) nums ((fieldsOf text).drop label.length) := by
  obtain ⟨text, _, _, h1, _, _, h4, _⟩ := C26_wrap (label ++ nums.map (formatE 5)) indent 80 1
    (by simp [hne]) (by
      intro w hw
      rcases List.mem_append.1 hw with hw | hw
      · exact (hl w hw).1
      · obtain ⟨x, _, rfl⟩ := List.mem_map.1 hw
        exact formatE_field x) (by
      intro w hw
      rcases List.mem_append.1 hw with hw | hw
      · exact (hl w hw).2
      · obtain ⟨x, hx, rfl⟩ := List.mem_map.1 hw
        rw [length_formatE 5 x (hexp x hx)]
        split <;> omega) hi (by omega)
  refine ⟨text, h1, ?_, ?_⟩
  · rw [h4]; simp
  · rw [h4, List.drop_left, List.forall₂_map_right_iff]
    exact List.forall₂_same.2 (fun x _ => C63_cards x)

end

theorem Ex.format_neg_100 : formatE 5 (-100 : ℚ) = "-1.00000e+02".toList := by
  have h : Int.log 10 |(-100 : ℚ)| = 2 := by
    rw [abs_neg, abs_of_pos (by norm_num)]
    exact Ex.log_eq _ _ (by norm_num) (by norm_num)
  unfold formatE sciOf
  rw [if_neg (by norm_num)]
  simp only [h]
  decide +kernel

/-- **C27**, the failure: the documented maximum of 80 characters is exceeded by an ordinary SI card
of numbers with three digits before the point and a sign, such as the boundaries (in cm) of a
vertical distribution below the midplane. -/
theorem C27_exceeds : ∃ text l,
    cardText ["SI5".toList, "H".toList] (List.replicate 13 (-100 : ℚ)) 6 = .ok text ∧
    l ∈ linesOf text ∧ l.length = 83 := by
  unfold cardText
  rw [List.map_replicate, Ex.format_neg_100]
  exact ⟨_, List.replicate 6 ' ' ++ joinBlank (List.replicate 6 "-1.00000e+02".toList), rfl,
    by decide +kernel, by decide +kernel⟩

/-! ### Examples -/

/-- A card of ten fields is wrapped to two lines and read back. -/
example : (textWrap (joinBlank (["SI3", "H"].map String.toList ++
      List.replicate 8 "1.00000e+02".toList)) 6 80 1).map (fun t => ((linesOf t).map List.length, fieldsOf t)) =
    .ok ([77, 29, 0], ["SI3", "H"].map String.toList ++ List.replicate 8 "1.00000e+02".toList) := by
  decide +kernel

end TNS
