import Verif.Model.SdefText
import Verif.Spec.SdefFile
import Verif.Props.Wrap
import Verif.Props.Mcnp
/-
Lemmas for reading an SDEF file back.
-/

set_option autoImplicit false

namespace TNS
open Spec

/-! ### Lines and fields -/

theorem splitOnP_flatten {α : Type} (q : α → Bool) (l : List α) :
    (l.splitOnP q).flatten = l.filter (fun c => !q c) ∧ l.splitOnP q ≠ [] := by
  induction l with
  | nil => simp
  | cons a l ih =>
    rw [List.splitOnP_cons_eq_if_modifyHead]
    by_cases h : q a = true
    · simp [h, ih.1]
    · rw [if_neg h]
      rcases hL : l.splitOnP q with _ | ⟨x, xs⟩
      · exact absurd hL ih.2
      · rw [hL] at ih
        simp only [List.modifyHead_cons, List.flatten_cons, List.cons_append, List.filter_cons]
        simp only [List.flatten_cons] at ih
        refine ⟨?_, by simp⟩
        rw [ih.1]
        simp [h]

theorem mem_fieldsOf (l : List Char) (c : Char) (hc : c ∈ l) (h1 : c ≠ ' ') (h2 : c ≠ '\n') :
    ∃ f ∈ fieldsOf l, c ∈ f := by
  have : c ∈ (l.splitOnP (fun c => c = ' ' || c = '\n')).flatten := by
    rw [(splitOnP_flatten _ l).1, List.mem_filter]
    exact ⟨hc, by simp [h1, h2]⟩
  obtain ⟨f, hf, hcf⟩ := List.mem_flatten.1 this
  refine ⟨f, ?_, hcf⟩
  unfold fieldsOf
  rw [List.mem_filter]
  refine ⟨hf, ?_⟩
  have : f ≠ [] := List.ne_nil_of_mem hcf
  simpa using this

theorem fieldsOf_head (c : Char) (t : List Char) (h1 : c ≠ ' ') (h2 : c ≠ '\n') :
    ∃ f fs, fieldsOf (c :: t) = (c :: f) :: fs := by
  unfold fieldsOf
  rw [List.splitOnP_cons_eq_if_modifyHead, if_neg (by simp [h1, h2])]
  rcases hL : t.splitOnP (fun c => c = ' ' || c = '\n') with _ | ⟨x, xs⟩
  · exact absurd hL (splitOnP_flatten _ t).2
  · simp only [List.modifyHead_cons]
    rw [List.filter_cons]
    simp

theorem mem_splitOn_not {l x : List Char} (h : x ∈ linesOf l) : ∀ c ∈ x, c ≠ '\n' := by
  unfold linesOf at h
  rw [List.splitOn_eq_splitOnP] at h
  have key : ∀ (l : List Char), ∀ x ∈ l.splitOnP (· == '\n'), ∀ c ∈ x, c ≠ '\n' := by
    intro l
    induction l with
    | nil => intro x hx c hc; simp at hx; subst hx; simp at hc
    | cons a l ih =>
      intro x hx c hc
      rw [List.splitOnP_cons_eq_if_modifyHead] at hx
      split_ifs at hx with ha
      · rcases List.mem_cons.1 hx with rfl | hx
        · simp at hc
        · exact ih x hx c hc
      · rcases hL : l.splitOnP (· == '\n') with _ | ⟨y, ys⟩
        · rw [hL] at hx; simp at hx
        · rw [hL] at hx ih
          simp only [List.modifyHead_cons] at hx
          rcases List.mem_cons.1 hx with rfl | hx
          · rcases List.mem_cons.1 hc with rfl | hc
            · simpa using ha
            · exact ih y (by simp) c hc
          · exact ih x (List.mem_cons_of_mem _ hx) c hc
  exact key l x h

theorem linesOf_nl (ls : List (List Char)) (h : ∀ l ∈ ls, ∀ c ∈ l, c ≠ '\n') :
    linesOf (nlText ls) = ls ++ [[]] := by
  induction ls with
  | nil => rfl
  | cons l ls ih =>
    have ih := ih (fun x hx => h x (List.mem_cons_of_mem _ hx))
    simp only [nlText, List.flatMap_cons, List.append_assoc, List.singleton_append] at ih ⊢
    unfold linesOf at ih ⊢
    rw [List.splitOn_eq_splitOnP, List.splitOnP_append_cons_of_forall_mem
      (by simpa using h l (by simp)) _ (by simp), ← List.splitOn_eq_splitOnP, ih]
    rfl

theorem intercalate_nl (ls : List (List Char)) :
    List.intercalate ['\n'] (ls ++ [[]]) = nlText ls := by
  induction ls with
  | nil => rfl
  | cons l ls ih =>
    cases ls with
    | nil => simp [nlText, List.intercalate]
    | cons m ls =>
      simp only [List.cons_append] at ih ⊢
      rw [List.intercalate_cons_cons, ih]
      simp [nlText]

theorem text_of_lines (t : List Char) (ls : List (List Char)) (h : linesOf t = ls ++ [[]]) :
    t = nlText ls := by
  rw [← intercalate_nl, ← h]
  unfold linesOf
  exact (List.intercalate_splitOn '\n').symm

theorem fieldsOf_nl (ls : List (List Char)) : fieldsOf (nlText ls) = ls.flatMap fieldsOf := by
  induction ls with
  | nil => rfl
  | cons l ls ih =>
    simp only [nlText, List.flatMap_cons, List.append_assoc, List.singleton_append] at ih ⊢
    rw [fieldsOf_append _ _ _ rfl, ih]

/-! ### Blocks of lines -/

/-- The text consists of non-blank lines that read as the given cards. -/
def Block (w : ℕ) (t : List Char) (cards : List (List (List Char))) : Prop :=
  ∃ ls : List (List Char), t = nlText ls ∧ (∀ l ∈ ls, ∀ c ∈ l, c ≠ '\n') ∧
    (∀ l ∈ ls, isBlankLine (l.take w) = false) ∧
    ∀ cs, (ls.map (List.take w)).foldr cardStep ([], cs) = ([], cards ++ cs)

theorem Block.nil (w : ℕ) : Block w [] [] := ⟨[], rfl, by simp, by simp, by simp⟩

theorem Block.append {w : ℕ} {t1 t2 : List Char} {c1 c2 : List (List (List Char))}
    (h1 : Block w t1 c1) (h2 : Block w t2 c2) : Block w (t1 ++ t2) (c1 ++ c2) := by
  obtain ⟨a, rfl, a2, a3, a4⟩ := h1
  obtain ⟨b, rfl, b2, b3, b4⟩ := h2
  refine ⟨a ++ b, by simp [nlText], ?_, ?_, ?_⟩
  · intro l hl
    rcases List.mem_append.1 hl with h | h
    · exact a2 l h
    · exact b2 l h
  · intro l hl
    rcases List.mem_append.1 hl with h | h
    · exact a3 l h
    · exact b3 l h
  · intro cs
    rw [List.map_append, List.foldr_append, b4, a4, List.append_assoc]

theorem Block.flatten {w : ℕ} {ts : List (List Char)} {cs : List (List (List (List Char)))}
    (h : List.Forall₂ (Block w) ts cs) : Block w ts.flatten cs.flatten := by
  induction h with
  | nil => exact Block.nil w
  | cons h _ ih => exact h.append ih

theorem Block.read {w : ℕ} {t : List Char} {cards : List (List (List Char))} (h : Block w t cards) :
    readCards w t = cards := by
  obtain ⟨ls, rfl, h2, h3, h4⟩ := h
  unfold readCards
  rw [linesOf_nl ls h2]
  have : ((ls ++ [[]]).map (List.take w)).takeWhile (fun l => !isBlankLine l) = ls.map (List.take w) := by
    rw [List.map_append, List.takeWhile_append_of_pos]
    · simp [isBlankLine]
    · intro x hx
      obtain ⟨l, hl, rfl⟩ := List.mem_map.1 hx
      simp [h3 l hl]
  rw [this, h4]
  simp

/-- A line `C` or `C ...`. -/
def CLine (l : List Char) : Prop := (l = ['C'] ∨ ∃ t, l = 'C' :: ' ' :: t) ∧ ∀ c ∈ l, c ≠ '\n'

theorem CLine.comment {l : List Char} (h : CLine l) (w : ℕ) (hw : 2 ≤ w) :
    isComment (l.take w) = true ∧ isBlankLine (l.take w) = false := by
  obtain ⟨k, rfl⟩ : ∃ k, w = k + 2 := ⟨w - 2, by omega⟩
  rcases h.1 with rfl | ⟨t, rfl⟩
  · simp [isComment, isBlankLine]
  · simp [isComment, isBlankLine]

theorem Block.comments (w : ℕ) (hw : 2 ≤ w) (ls : List (List Char)) (h : ∀ l ∈ ls, CLine l) :
    Block w (nlText ls) [] := by
  refine ⟨ls, rfl, fun l hl => (h l hl).2, fun l hl => ((h l hl).comment w hw).2, ?_⟩
  intro cs
  induction ls with
  | nil => rfl
  | cons l ls ih =>
    rw [List.map_cons, List.foldr_cons, ih (fun x hx => h x (List.mem_cons_of_mem _ hx)), cardStep,
      if_pos ((h l (by simp)).comment w hw).1]

theorem takeWhile_dollar (l : List Char) (h : ∀ c ∈ l, c ≠ '$') :
    l.takeWhile (fun c => c ≠ '$') = l := by
  induction l with
  | nil => rfl
  | cons a l ih =>
    rw [List.takeWhile_cons_of_pos (by simpa using h a (by simp)),
      ih (fun c hc => h c (List.mem_cons_of_mem _ hc))]

theorem cont_step (w indent : ℕ) (l : List Char) (hi : 6 ≤ indent) (hw : indent + l.length ≤ w)
    (hd : ∀ c ∈ l, c ≠ '$') (st : List (List Char) × List (List (List Char))) :
    cardStep ((List.replicate indent ' ' ++ l).take w) st = (fieldsOf l ++ st.1, st.2) := by
  rw [List.take_of_length_le (by simpa using hw)]
  obtain ⟨k, rfl⟩ : ∃ k, indent = k + 6 := ⟨indent - 6, by omega⟩
  have e : List.replicate (k + 6) ' ' ++ l = ' ' :: ' ' :: ' ' :: ' ' :: ' ' ::
      (List.replicate (k + 1) ' ' ++ l) := by
    rw [show k + 6 = (k + 1) + 5 by ring]
    simp [List.replicate_succ]
  have h1 : isComment (List.replicate (k + 6) ' ' ++ l) = false := by
    rw [e]
    unfold isComment
    simp
  have h2 : isContinuation (List.replicate (k + 6) ' ' ++ l) = true := by
    rw [e]; simp [isContinuation, List.replicate_succ]
  have h3 : lineFields (List.replicate (k + 6) ' ' ++ l) = fieldsOf l := by
    unfold lineFields
    rw [takeWhile_dollar, fieldsOf_blanks _ _ rfl]
    intro c hc
    rcases List.mem_append.1 hc with hc | hc
    · rw [List.eq_of_mem_replicate hc]; decide
    · exact hd c hc
  rw [cardStep, h1, h2, h3]
  simp

theorem cont_fold (w indent : ℕ) (rest : List (List Char)) (hi : 6 ≤ indent)
    (hw : ∀ l ∈ rest, indent + l.length ≤ w) (hd : ∀ l ∈ rest, ∀ c ∈ l, c ≠ '$')
    (st : List (List Char) × List (List (List Char))) :
    ((rest.map (List.replicate indent ' ' ++ ·)).map (List.take w)).foldr cardStep st =
      (rest.flatMap fieldsOf ++ st.1, st.2) := by
  induction rest with
  | nil => rfl
  | cons l rest ih =>
    rw [List.map_cons, List.map_cons, List.foldr_cons,
      ih (fun x hx => hw x (List.mem_cons_of_mem _ hx)) (fun x hx => hd x (List.mem_cons_of_mem _ hx)),
      cont_step w indent l hi (hw l (by simp)) (hd l (by simp))]
    simp

theorem Block.card (w indent : ℕ) (c : Char) (t : List Char) (rest : List (List Char))
    (words : List (List Char)) (hc : c ≠ ' ' ∧ c ≠ 'C' ∧ c ≠ 'c') (hi : 6 ≤ indent) (hw0 : (c :: t).length ≤ w)
    (hw : ∀ l ∈ rest, indent + l.length ≤ w)
    (hn : ∀ l ∈ (c :: t) :: rest, ∀ d ∈ l, d ≠ '\n') (hd : ∀ l ∈ (c :: t) :: rest, ∀ d ∈ l, d ≠ '$')
    (hne : ∀ l ∈ rest, ∃ d u, l = d :: u ∧ d ≠ ' ')
    (hf : fieldsOf (c :: t) ++ rest.flatMap fieldsOf = words) :
    Block w (nlText ((c :: t) :: rest.map (List.replicate indent ' ' ++ ·))) [words] := by
  refine ⟨_, rfl, ?_, ?_, ?_⟩
  · intro l hl d hdl
    rcases List.mem_cons.1 hl with rfl | hl
    · exact hn _ (by simp) d hdl
    · obtain ⟨l', hl', rfl⟩ := List.mem_map.1 hl
      rcases List.mem_append.1 hdl with hdl | hdl
      · rw [List.eq_of_mem_replicate hdl]; decide
      · exact hn l' (List.mem_cons_of_mem _ hl') d hdl
  · intro l hl
    rcases List.mem_cons.1 hl with rfl | hl
    · rw [List.take_of_length_le hw0]
      simp [isBlankLine, hc.1]
    · obtain ⟨l', hl', rfl⟩ := List.mem_map.1 hl
      rw [List.take_of_length_le (by simpa using hw l' hl')]
      obtain ⟨d, u, rfl, hds⟩ := hne l' hl'
      simp [isBlankLine, hds]
  · intro cs
    rw [List.map_cons, List.foldr_cons, cont_fold w indent rest hi hw
      (fun l hl => hd l (List.mem_cons_of_mem _ hl)), List.take_of_length_le hw0]
    have h1 : isComment (c :: t) = false := by simp [isComment, hc.1, hc.2.1, hc.2.2]
    have h2 : isContinuation (c :: t) = false := by
      simp [isContinuation, List.replicate_succ, hc.1]
    rw [cardStep, h1, h2]
    simp only [Bool.false_eq_true, if_false, List.append_nil]
    rw [lineFields, takeWhile_dollar _ (hd _ (by simp)), hf]
    rfl

/-- A wrapped card, possibly with words put before it afterwards, is read as its fields. -/
theorem Block.wrap (w : ℕ) (pre words : List (List Char)) (indent : ℕ) (t : List Char)
    (hne : words ≠ []) (hpf : ∀ x ∈ pre, IsField x) (hf : ∀ x ∈ words, IsField x)
    (hl : ∀ x ∈ words, x.length ≤ 80) (hd : ∀ x ∈ pre ++ words, '$' ∉ x)
    (hi : 6 ≤ indent) (hw : indent + 80 ≤ w) (hpw : (joinBlank pre).length + 81 ≤ w)
    (hhead : ∀ x xs, pre ++ words = x :: xs → x.head? ≠ some 'C' ∧ x.head? ≠ some 'c')
    (h : textWrap (joinBlank words) indent 80 1 = .ok t) :
    Block w ((if pre = [] then [] else joinBlank pre ++ [' ']) ++ t) [pre ++ words] := by
  obtain ⟨text, first, rest, h1, h2, h3, h4, h5⟩ := C26_wrap words indent 80 1 hne hf hl hi (by norm_num)
  rw [h] at h1
  obtain rfl := Except.ok.inj h1
  have ht := text_of_lines t (first :: rest.map (List.replicate indent ' ' ++ ·)) (by simpa using h2)
  have hnl : ∀ l ∈ first :: rest.map (List.replicate indent ' ' ++ ·), ∀ c ∈ l, c ≠ '\n' := by
    intro l hl'
    exact mem_splitOn_not (l := t) (by rw [h2]; exact List.mem_append_left _ hl')
  have hfields : fieldsOf first ++ rest.flatMap fieldsOf = words := by
    rw [← h4, ht, fieldsOf_nl, List.flatMap_cons]
    congr 1
    rw [List.flatMap_map]
    congr 1
    funext l
    rw [fieldsOf_blanks _ _ rfl]
  set P : List Char := if pre = [] then [] else joinBlank pre ++ [' '] with hP
  have hPn : ∀ c ∈ P, c ≠ '\n' := by
    intro c hc
    rw [hP] at hc
    split_ifs at hc
    · simp at hc
    · rcases List.mem_append.1 hc with hc | hc
      · exact join_no_newline pre hpf c hc
      · simp at hc; subst hc; decide
  have hPf : fieldsOf (P ++ first) = pre ++ fieldsOf first := by
    rw [hP]
    split_ifs with hp
    · simp [hp]
    · rw [List.append_assoc, List.singleton_append, fieldsOf_append _ _ _ rfl, fieldsOf_join pre hpf]
  have hPlen : P.length ≤ (joinBlank pre).length + 1 := by
    rw [hP]; split_ifs <;> simp
  have hfields' : fieldsOf (P ++ first) ++ rest.flatMap fieldsOf = pre ++ words := by
    rw [hPf, List.append_assoc, hfields]
  obtain ⟨c, u, hcu⟩ : ∃ c u, P ++ first = c :: u := by
    obtain ⟨c, u, hcu, -⟩ := h3 first (by simp)
    rcases hPP : P with _ | ⟨a, b⟩
    · exact ⟨c, u, by simp [hcu]⟩
    · exact ⟨a, b ++ first, by simp⟩
  have hcb : c ≠ ' ' := by
    by_cases hp : pre = []
    · obtain ⟨c', u', e, hc'⟩ := h3 first (by simp)
      have : P = [] := by rw [hP, if_pos hp]
      rw [this, List.nil_append, e] at hcu
      rw [← (List.cons.inj hcu).1]; exact hc'
    · obtain ⟨x, xs, rfl⟩ : ∃ x xs, pre = x :: xs := by
        cases pre with
        | nil => exact absurd rfl hp
        | cons x xs => exact ⟨x, xs, rfl⟩
      obtain ⟨a, r, e, hb⟩ := joinBlank_head (l := xs) (hpf x (by simp))
      rw [hP, if_neg hp, e] at hcu
      simp only [List.cons_append] at hcu
      rw [← (List.cons.inj hcu).1]
      intro h0; rw [h0] at hb; simp [isBlank] at hb
  have hcn : c ≠ '\n' := by
    have : c ∈ P ++ first := by rw [hcu]; simp
    rcases List.mem_append.1 this with h' | h'
    · exact hPn c h'
    · exact hnl first (by simp) c h'
  have hcC : c ≠ 'C' ∧ c ≠ 'c' := by
    obtain ⟨f, fs, e⟩ := fieldsOf_head c u hcb hcn
    rw [hcu, e, List.cons_append] at hfields'
    have := hhead _ _ hfields'.symm
    simpa using this
  have hdall : ∀ l ∈ (c :: u) :: rest, ∀ d ∈ l, d ≠ '$' := by
    intro l hl' d hdl hdd
    subst hdd
    obtain ⟨f, hf', hdf⟩ := mem_fieldsOf l '$' hdl (by decide) (by decide)
    refine hd f ?_ hdf
    rw [← hfields', hcu]
    rcases List.mem_cons.1 hl' with rfl | hl'
    · exact List.mem_append_left _ hf'
    · exact List.mem_append_right _ (List.mem_flatMap.2 ⟨l, hl', hf'⟩)
  have key := Block.card w indent c u rest (pre ++ words) ⟨hcb, hcC.1, hcC.2⟩ hi
    (by
      rw [← hcu, List.length_append]
      have := h5 first (by simp)
      omega)
    (fun l hl' => by have := h5 l (List.mem_cons_of_mem _ hl'); omega)
    (by
      intro l hl' d hdl
      rcases List.mem_cons.1 hl' with rfl | hl'
      · rw [← hcu] at hdl
        rcases List.mem_append.1 hdl with hdl | hdl
        · exact hPn d hdl
        · exact hnl first (by simp) d hdl
      · refine hnl (List.replicate indent ' ' ++ l) ?_ d (List.mem_append_right _ hdl)
        exact List.mem_cons_of_mem _ (List.mem_map.2 ⟨l, hl', rfl⟩))
    hdall (fun l hl' => h3 l (List.mem_cons_of_mem _ hl')) (by rw [← hcu]; exact hfields')
  have e : P ++ t = nlText ((c :: u) :: rest.map (List.replicate indent ' ' ++ ·)) := by
    rw [ht, ← hcu]
    simp [nlText]
  rw [e]
  exact key

end TNS
