import Verif.Model.XsFile
import Verif.Spec.Genfromtxt
/-
C88: reading the cross-section files.
-/

set_option autoImplicit false

namespace TNS
open Spec

/-! ### Lines -/

theorem isSpace_iff (c : Char) : isSpace c = true ↔ White c := by
  simp only [isSpace, White, Bool.or_eq_true, decide_eq_true_eq, List.mem_cons, List.not_mem_nil, or_false, or_assoc]

theorem mem_takeWhile_true {p : Char → Bool} {l : List Char} {c : Char} (h : c ∈ l.takeWhile p) : p c = true := by
  induction l with
  | nil => simp at h
  | cons a l ih =>
    by_cases ha : p a = true
    · rw [List.takeWhile_cons_of_pos ha] at h
      rcases List.mem_cons.1 h with rfl | h
      · exact ha
      · exact ih h
    · rw [List.takeWhile_cons_of_neg ha] at h; simp at h

/-- The words of a text. -/
def wordsOf (b : List Char) : List (List Char) := (b.splitOnP isSpace).filter (fun w => !w.isEmpty)

theorem wordsOf_white (c : Char) (b : List Char) (h : White c) : wordsOf (c :: b) = wordsOf b := by
  unfold wordsOf
  rw [List.splitOnP_cons_eq_if_modifyHead, if_pos ((isSpace_iff c).2 h)]
  simp

theorem wordsOf_pre (pre b : List Char) (h : ∀ c ∈ pre, White c) : wordsOf (pre ++ b) = wordsOf b := by
  induction pre with
  | nil => rfl
  | cons c pre ih =>
    rw [List.cons_append, wordsOf_white _ _ (h c (by simp)), ih fun c hc => h c (by simp [hc])]

theorem splitOnP_word (w b : List Char) (h : ∀ c ∈ w, ¬ White c) :
    (w ++ b).splitOnP isSpace = (b.splitOnP isSpace).modifyHead (fun x => w ++ x) := by
  induction w with
  | nil => cases hb : b.splitOnP isSpace <;> simp [hb]
  | cons c w ih =>
    have hc : ¬ isSpace c = true := fun e => h c (by simp) ((isSpace_iff c).1 e)
    rw [List.cons_append, List.splitOnP_cons_eq_if_modifyHead, if_neg hc, ih fun c hc => h c (by simp [hc])]
    cases b.splitOnP isSpace <;> simp

theorem wordsOf_spaced {b : List Char} {ws : List (List Char)} (h : Spaced b ws) : wordsOf b = ws := by
  induction h with
  | blank b hb =>
    have := wordsOf_pre b [] hb
    rw [List.append_nil] at this
    rw [this]; simp [wordsOf]
  | word pre w rest ws hp hw hn hr h ih =>
    rw [List.append_assoc, wordsOf_pre _ _ hp]
    unfold wordsOf at ih ⊢
    rw [splitOnP_word w rest hn]
    rcases hr with rfl | ⟨c, t, rfl, hc⟩
    · simp only [List.splitOnP_nil] at ih ⊢
      simp at ih
      subst ih
      simp [hw]
    · rw [List.splitOnP_cons_eq_if_modifyHead, if_pos ((isSpace_iff c).2 hc)] at ih ⊢
      simp only [List.modifyHead_cons, List.append_nil]
      rw [List.filter_cons_of_pos (by simp [hw])]
      rw [List.filter_cons_of_neg (by simp)] at ih
      rw [ih]

theorem spaced_exists (b : List Char) : ∃ ws, Spaced b ws := by
  induction hn : b.length using Nat.strong_induction_on generalizing b with
  | _ n ih =>
    have e1 := List.takeWhile_append_dropWhile (p := isSpace) (l := b)
    have hpre : ∀ c ∈ b.takeWhile isSpace, White c := fun c hc => (isSpace_iff c).1 (mem_takeWhile_true hc)
    generalize hpr : b.takeWhile isSpace = pre at e1 hpre
    cases hd : b.dropWhile isSpace with
    | nil =>
      rw [hd, List.append_nil] at e1
      exact ⟨[], .blank b (by rw [← e1]; exact hpre)⟩
    | cons c t =>
      have hc : ¬ White c := by
        intro e
        have := List.head?_dropWhile_not isSpace b
        rw [hd] at this
        simp [(isSpace_iff c).2 e] at this
      set q : Char → Bool := fun c => !isSpace c with hq
      have e2 := List.takeWhile_append_dropWhile (p := q) (l := c :: t)
      have hw : ∀ x ∈ (c :: t).takeWhile q, ¬ White x := fun x hx e => by
        have := mem_takeWhile_true hx
        simp [hq, (isSpace_iff x).2 e] at this
      have hne : (c :: t).takeWhile q ≠ [] := by
        have : q c = true := by
          have : ¬ isSpace c = true := fun e => hc ((isSpace_iff c).1 e)
          simp [hq, this]
        simp [List.takeWhile_cons, this]
      have hlen : ((c :: t).dropWhile q).length < n := by
        have h1 : ((c :: t).takeWhile q).length + ((c :: t).dropWhile q).length = (c :: t).length := by
          rw [← List.length_append, e2]
        have h2 : 0 < ((c :: t).takeWhile q).length := List.length_pos_iff.2 hne
        have h3 : (c :: t).length ≤ b.length := by
          rw [← e1, hd, List.length_append]; omega
        omega
      obtain ⟨ws, hws⟩ := ih _ hlen ((c :: t).dropWhile q) rfl
      refine ⟨(c :: t).takeWhile q :: ws, ?_⟩
      have := Spaced.word pre _ _ ws hpre hne hw ?_ hws
      · rw [List.append_assoc, e2] at this; rw [hd] at e1; rw [e1] at this; exact this
      · cases hr : (c :: t).dropWhile q with
        | nil => exact .inl rfl
        | cons x y =>
          refine .inr ⟨x, y, rfl, ?_⟩
          have := List.head?_dropWhile_not q (c :: t)
          rw [hr] at this
          simp only [List.head?_cons, hq] at this
          exact (isSpace_iff x).1 (by simpa using this)

/-- C88.  How a line is split: up to the first `#`, at white space. -/
theorem C88_line (l : List Char) (ws : List (List Char)) : ReadsAs l ws ↔ splitLine l = ws := by
  have fwd : ∀ ws, ReadsAs l ws → splitLine l = ws := by
    rintro ws ⟨body, comment, rfl, h1, h2, h3⟩
    have e : (body ++ comment).takeWhile (fun c => c ≠ '#') = body := by
      rw [List.takeWhile_append_of_pos (by intro c hc; simp; rintro rfl; exact h1 hc)]
      rcases h2 with rfl | h2
      · simp
      · cases comment with
        | nil => simp at h2
        | cons c t =>
          simp only [List.head?_cons, Option.some.injEq] at h2
          subst h2; simp
    have := wordsOf_spaced h3
    unfold wordsOf at this
    unfold splitLine
    rw [e]; exact this
  refine ⟨fwd ws, fun h => ?_⟩
  obtain ⟨ws', hws⟩ := spaced_exists (l.takeWhile (fun c => c ≠ '#'))
  have hr : ReadsAs l ws' := by
    refine ⟨l.takeWhile (fun c => c ≠ '#'), l.dropWhile (fun c => c ≠ '#'), List.takeWhile_append_dropWhile.symm, ?_,
      ?_, hws⟩
    · intro hm
      have := mem_takeWhile_true hm
      simp at this
    · cases e : l.dropWhile (fun c => c ≠ '#') with
      | nil => exact .inl rfl
      | cons c t =>
        refine .inr ?_
        have := List.head?_dropWhile_not (fun c => decide (c ≠ '#')) l
        rw [e] at this
        simpa using this
  rw [← h, fwd ws' hr]; exact hr

/-! ### Numbers -/

theorem digit_iff (c : Char) : ('0' ≤ c ∧ c ≤ '9') ↔ (48 ≤ c.toNat ∧ c.toNat ≤ 57) := by
  rw [Char.le_def, Char.le_def, UInt32.le_iff_toNat_le, UInt32.le_iff_toNat_le]
  rfl

theorem digitsVal_eq (l : List Char) : digitsVal l = readNat l := by
  unfold digitsVal readNat
  have key : ∀ (l : List Char) (a : ℕ), l.foldl (fun a c => a.bind fun n =>
      if 48 ≤ c.toNat ∧ c.toNat ≤ 57 then some (10 * n + (c.toNat - 48)) else none) (some a) =
      if l.all (fun c => '0' ≤ c ∧ c ≤ '9') then some (l.foldl (fun a c => 10 * a + (c.toNat - 48)) a) else none := by
    intro l
    have hnone : ∀ l : List Char, l.foldl (fun (a : Option ℕ) c => a.bind fun n =>
        if 48 ≤ c.toNat ∧ c.toNat ≤ 57 then some (10 * n + (c.toNat - 48)) else none) none = none := by
      intro l
      induction l with
      | nil => rfl
      | cons c l ih => rw [List.foldl_cons]; exact ih
    induction l with
    | nil => intro a; rfl
    | cons c l ih =>
      intro a
      rw [List.foldl_cons, List.foldl_cons, List.all_cons]
      by_cases hc : 48 ≤ c.toNat ∧ c.toNat ≤ 57
      · have hc' := (digit_iff c).2 hc
        simp only [Option.bind_some, if_pos hc]
        rw [ih]
        simp [hc']
      · have hc' : ¬ ('0' ≤ c ∧ c ≤ '9') := fun e => hc ((digit_iff c).1 e)
        simp only [Option.bind_some, if_neg hc]
        rw [hnone]
        have : decide ('0' ≤ c ∧ c ≤ '9') = false := decide_eq_false hc'
        rw [this]; simp
  exact key l 0

theorem readNat_codes {l : List Char} {n : ℕ} (h : readNat l = some n) : ∀ c ∈ l, 48 ≤ c.toNat ∧ c.toNat ≤ 57 := by
  unfold readNat at h
  split at h
  · rename_i hh
    intro c hc
    have := List.all_eq_true.1 hh c hc
    exact (digit_iff c).1 (by simpa using this)
  · simp at h

theorem digit_ne {c : Char} (h : 48 ≤ c.toNat ∧ c.toNat ≤ 57) : c ≠ 'e' ∧ c ≠ 'E' ∧ c ≠ '.' ∧ c ≠ '-' ∧ c ≠ '+' := by
  refine ⟨?_, ?_, ?_, ?_, ?_⟩ <;> (rintro rfl; revert h; decide)

theorem expVal_exponent {t : List Char} {k : ℤ} (h : Exponent t k) : expVal t = some k := by
  rcases h with ⟨rfl, rfl⟩ | ⟨c, d, n, hc, hd, hn, h⟩
  · rfl
  · have he : d.isEmpty = false := by cases d <;> simp_all
    rcases h with ⟨rfl, rfl⟩ | ⟨rfl, rfl⟩ | ⟨rfl, rfl⟩
    · cases d with
      | nil => exact absurd rfl hd
      | cons x d =>
        have hx := digit_ne (readNat_codes hn x (by simp))
        unfold expVal
        split
        · simp_all
        · rename_i heq; simp only [List.cons.injEq] at heq; exact absurd heq.2.1 hx.2.2.2.1
        · rename_i heq; simp only [List.cons.injEq] at heq; exact absurd heq.2.1 hx.2.2.2.2
        · rename_i heq
          simp only [List.cons.injEq] at heq
          obtain ⟨_, rfl⟩ := heq
          rw [digitsVal_eq, hn]; rfl
    · simp only [expVal, he, digitsVal_eq, hn]; rfl
    · simp only [expVal, he, digitsVal_eq, hn]; rfl

theorem span_at {p : Char → Bool} (a b : List Char) (ha : ∀ c ∈ a, p c = true)
    (hb : ∀ c t, b = c :: t → p c = false) : (a ++ b).span p = (a, b) := by
  rw [List.span_eq_takeWhile_dropWhile, List.takeWhile_append_of_pos ha, List.dropWhile_append_of_pos ha]
  cases b with
  | nil => simp
  | cons c t => simp [List.takeWhile_cons, List.dropWhile_cons, hb c t rfl]

theorem exponent_head {t : List Char} {k : ℤ} (h : Exponent t k) : ∀ c s, t = c :: s → c = 'e' ∨ c = 'E' := by
  intro c s e
  rcases h with ⟨rfl, _⟩ | ⟨c', d, n, hc, hd, hn, h⟩
  · cases e
  · rcases h with ⟨rfl, _⟩ | ⟨rfl, _⟩ | ⟨rfl, _⟩ <;> (cases e; exact hc)

theorem unsignedVal_of {t : List Char} {v : ℝ} (h : Unsigned t v) : ∃ p, unsignedVal t = some p ∧ decVal p = v := by
  obtain ⟨ip, pt, fp, ex, n, k, rfl, hne, hpt, hn, hex, rfl⟩ := h
  have hd := readNat_codes hn
  have s1 : (ip ++ pt ++ fp ++ ex).span (fun c => c ≠ 'e' && c ≠ 'E') = (ip ++ pt ++ fp, ex) := by
    apply span_at
    · intro c hc
      have : c ≠ 'e' ∧ c ≠ 'E' := by
        rcases List.mem_append.1 hc with hc | hc
        · rcases List.mem_append.1 hc with hc | hc
          · have := digit_ne (hd c (by simp [hc])); exact ⟨this.1, this.2.1⟩
          · rcases hpt with rfl | ⟨rfl, _⟩
            · simp only [List.mem_singleton] at hc; subst hc; decide
            · simp at hc
        · have := digit_ne (hd c (by simp [hc])); exact ⟨this.1, this.2.1⟩
      simp [this]
    · intro c s e
      rcases exponent_head hex c s e with rfl | rfl <;> decide
  have s2 : (ip ++ pt ++ fp).span (fun c => c ≠ '.') = (ip, pt ++ fp) := by
    rw [List.append_assoc]
    apply span_at
    · intro c hc
      have := digit_ne (hd c (by simp [hc]))
      simp [this.2.2.1]
    · intro c s e
      rcases hpt with rfl | ⟨rfl, rfl⟩
      · simp only [List.cons_append, List.nil_append, List.cons.injEq] at e
        rw [← e.1]; decide
      · simp at e
  have s3 : (pt ++ fp).drop 1 = fp := by
    rcases hpt with rfl | ⟨rfl, rfl⟩ <;> simp
  have he : (ip ++ fp).isEmpty = false := by
    cases e : ip ++ fp with
    | nil => exact absurd e hne
    | cons _ _ => rfl
  refine ⟨((n : ℤ), k - (fp.length : ℤ)), ?_, by simp [decVal]⟩
  unfold unsignedVal
  simp only [s1, s2, s3, he, digitsVal_eq, hn, expVal_exponent hex]
  rfl

theorem unsigned_head {t : List Char} {v : ℝ} (h : Unsigned t v) : ∃ c s, t = c :: s ∧ c ≠ '-' ∧ c ≠ '+' := by
  obtain ⟨ip, pt, fp, ex, n, k, rfl, hne, hpt, hn, hex, rfl⟩ := h
  have hd := readNat_codes hn
  cases ip with
  | cons c s => exact ⟨c, _, rfl, (digit_ne (hd c (by simp))).2.2.2⟩
  | nil =>
    rcases hpt with rfl | ⟨rfl, rfl⟩
    · exact ⟨'.', _, rfl, by decide, by decide⟩
    · exact absurd rfl hne

/-- C88.  Every decimal number is read as its value. -/
theorem C88_number {t : List Char} {v : ℝ} (h : Number t v) : ∃ p, pyFloat t = some p ∧ decVal p = v := by
  rcases h with h | ⟨t', rfl, h⟩ | ⟨t', rfl, h⟩
  · obtain ⟨p, e1, e2⟩ := unsignedVal_of h
    obtain ⟨c, s, rfl, h1, h2⟩ := unsigned_head h
    refine ⟨p, ?_, e2⟩
    unfold pyFloat
    split
    · rename_i heq; cases heq; exact absurd rfl h1
    · rename_i heq; cases heq; exact absurd rfl h2
    · exact e1
  · obtain ⟨p, e1, e2⟩ := unsignedVal_of h
    exact ⟨p, e1, e2⟩
  · obtain ⟨p, e1, e2⟩ := unsignedVal_of h
    refine ⟨(-p.1, p.2), by simp [pyFloat, e1], ?_⟩
    have : decVal (-p.1, p.2) = - decVal p := by simp [decVal]
    rw [this, e2, neg_neg]

/-! ### Tables -/

/-- `genfromtxt` after the lines are split. -/
def tableOf (footer : ℕ) (vals : List (List (List Char))) : Except Err (List (List (Option (ℤ × ℤ)))) :=
  let n := (vals.headD []).length
  let rows := vals.filter (fun v => !v.isEmpty && v.length == n)
  let invalid := ((vals.zipIdx 1).filter (fun p => !p.1.isEmpty && p.1.length != n)).map Prod.snd
  let skipped :=
    if 0 < footer then
      (invalid.filter (fun i : ℕ => decide ((rows.length : ℤ) + (invalid.length : ℤ) - (footer : ℤ) < (i : ℤ)))).length
    else 0
  if (invalid.take (invalid.length - skipped)) ≠ [] then .error .valueError
  else .ok ((rows.take (rows.length - (footer - skipped))).map (fun v => v.map pyFloat))

theorem genfromtxtText_eq (footer : ℕ) (lines : List (List Char)) :
    genfromtxtText footer lines = tableOf footer ((lines.map splitLine).dropWhile (fun v => v.isEmpty)) := rfl

theorem blank_vals {l : List (List Char)} (h : ∀ x ∈ l, ReadsAs x []) : ∀ v ∈ l.map splitLine, v = [] := by
  intro v hv
  obtain ⟨x, hx, rfl⟩ := List.mem_map.1 hv
  exact (C88_line x []).1 (h x hx)

theorem dropWhile_blank {a b : List (List (List Char))} (h : ∀ v ∈ a, v = []) :
    (a ++ b).dropWhile (fun v => v.isEmpty) = b.dropWhile (fun v => v.isEmpty) := by
  rw [List.dropWhile_append_of_pos]
  intro v hv; rw [h v hv]; rfl

/-- Blank lines at the end do not matter. -/
theorem tableOf_trailer (footer : ℕ) (v : List (List Char)) (vs t : List (List (List Char))) (ht : ∀ x ∈ t, x = []) :
    tableOf footer (v :: vs ++ t) = tableOf footer (v :: vs) := by
  have e1 : (v :: vs ++ t).headD [] = (v :: vs).headD [] := rfl
  have e2 : ∀ P : List (List Char) → Bool, t.filter (fun x => !x.isEmpty && P x) = [] := by
    intro P
    rw [List.filter_eq_nil_iff]
    intro x hx; rw [ht x hx]; simp
  have e3 : ∀ (P : List (List Char) → Bool) (k : ℕ), (t.zipIdx k).filter (fun p => !p.1.isEmpty && P p.1) = [] := by
    intro P k
    rw [List.filter_eq_nil_iff]
    intro x hx
    have : x.1 ∈ t := List.fst_mem_of_mem_zipIdx hx
    rw [ht _ this]; simp
  unfold tableOf
  simp only [e1]
  rw [List.filter_append, e2 fun x => x.length == ((v :: vs).headD []).length, List.append_nil, List.zipIdx_append,
    List.filter_append, e3 fun x => x.length != ((v :: vs).headD []).length, List.append_nil]

/-- C88.  Blank and comment lines before the first and after the last line with values do not change the table. -/
theorem C88_comments (footer : ℕ) (h body t : List (List Char)) (hh : ∀ x ∈ h, ReadsAs x [])
    (ht : ∀ x ∈ t, ReadsAs x []) : genfromtxtText footer (h ++ body ++ t) = genfromtxtText footer body := by
  rw [genfromtxtText_eq, genfromtxtText_eq, List.append_assoc, List.map_append, dropWhile_blank (blank_vals hh),
    List.map_append]
  have ht := blank_vals ht
  generalize t.map splitLine = t' at ht
  generalize body.map splitLine = b
  induction b with
  | nil =>
    have := dropWhile_blank (b := []) ht
    rw [List.append_nil] at this
    rw [List.nil_append, this]
  | cons v b ih =>
    by_cases hv : v.isEmpty = true
    · rw [List.cons_append, List.dropWhile_cons_of_pos (by exact hv), List.dropWhile_cons_of_pos (by exact hv)]
      exact ih
    · rw [List.cons_append, List.dropWhile_cons_of_neg (by exact hv), List.dropWhile_cons_of_neg (by exact hv)]
      exact tableOf_trailer footer v b t' ht

theorem zipIdx_filter_nil {α : Type} (l : List α) (P : α → Bool) (k : ℕ) (h : ∀ x ∈ l, P x = false) :
    (l.zipIdx k).filter (fun p => P p.1) = [] := by
  rw [List.filter_eq_nil_iff]
  intro x hx
  rw [h _ (List.fst_mem_of_mem_zipIdx hx)]; simp

/-- A table whose lines have the same number of values, and one more line with another number of values. -/
theorem tableOf_marker (n : ℕ) (hn : 0 < n) (data : List (List (List Char))) (hd : ∀ v ∈ data, v.length = n)
    (hne : data ≠ []) (e : List (List Char)) (he : e ≠ []) (hen : e.length ≠ n) :
    tableOf 2 (data ++ [e]) = .ok (data.dropLast.map (fun v => v.map pyFloat)) := by
  have e1 : ((data ++ [e]).headD []).length = n := by
    cases data with
    | nil => exact absurd rfl hne
    | cons v vs => exact hd v (by simp)
  have hee : e.isEmpty = false := by cases e <;> simp_all
  have hrows : (data ++ [e]).filter (fun v => !v.isEmpty && v.length == n) = data := by
    rw [List.filter_append, List.filter_eq_self.2, List.filter_eq_nil_iff.2, List.append_nil]
    · intro v hv
      simp only [List.mem_singleton] at hv
      subst hv; simp [hen]
    · intro v hv
      have := hd v hv
      have h2 : v.isEmpty = false := by
        cases v with
        | nil => simp at this; omega
        | cons _ _ => rfl
      simp [h2, this]
  have hinv : ((data ++ [e]).zipIdx 1).filter (fun p => !p.1.isEmpty && p.1.length != n) =
      [(e, data.length + 1)] := by
    rw [List.zipIdx_append, List.filter_append,
      zipIdx_filter_nil data (fun v => !v.isEmpty && v.length != n) 1 (by intro v hv; simp [hd v hv])]
    simp [hee, hen, Nat.add_comm]
  unfold tableOf
  simp only [e1, hrows, hinv]
  have hs : [data.length + 1].filter (fun i : ℕ => decide ((data.length : ℤ) + (([data.length + 1] : List ℕ).length : ℤ) - ((2 : ℕ) : ℤ) < (i : ℤ))) =
      [data.length + 1] := by
    rw [List.filter_cons_of_pos]
    · rfl
    · simp
  simp only [List.map_cons, List.map_nil, if_pos (show 0 < 2 by norm_num), hs]
  simp [List.dropLast_eq_take]

theorem readXs_rows {lines : List (List Char)} {rows : List (List (Option (ℤ × ℤ)))} {vals : List (ℝ × ℝ)}
    (h : genfromtxtText 2 lines = .ok rows)
    (hv : List.Forall₂ (fun (v : List (Option (ℤ × ℤ))) (p : ℝ × ℝ) =>
      ∃ a b, v = [some a, some b] ∧ decVal a = p.1 ∧ decVal b = p.2) rows vals)
    (hl : 2 ≤ vals.length) : readXs lines = .ok vals := by
  unfold readXs
  rw [h]
  have : ¬ rows.length ≤ 1 := by rw [hv.length_eq]; omega
  simp only [Bind.bind, Except.bind, if_neg this]
  clear h hl this
  induction hv with
  | nil => rfl
  | cons hab _ ih =>
    obtain ⟨a, b, rfl, e1, e2⟩ := hab
    rw [List.mapM_cons, ih]
    simp only [e1, e2]; rfl

/-- The line has the two numbers of a row. -/
def RowRead (l : List Char) (p : ℝ × ℝ) : Prop :=
  ∃ a b, (splitLine l).map pyFloat = [some a, some b] ∧ decVal a = p.1 ∧ decVal b = p.2

theorem readXs_layout (header data trailer : List (List Char)) (marker : List Char) (vals : List (ℝ × ℝ))
    (hh : ∀ l ∈ header, splitLine l = []) (hd : List.Forall₂ RowRead data vals) (hl : 3 ≤ vals.length)
    (hm : (splitLine marker).length = 1) (ht : ∀ l ∈ trailer, splitLine l = []) :
    readXs (header ++ (data ++ [marker]) ++ trailer) = .ok vals.dropLast := by
  have hv : ∀ v ∈ data.map splitLine, v.length = 2 := by
    intro v hv
    obtain ⟨l, hl, rfl⟩ := List.mem_map.1 hv
    obtain ⟨i, hi, rfl⟩ := List.mem_iff_getElem.1 hl
    obtain ⟨a, b, h1, _⟩ := (List.forall₂_iff_get.1 hd).2 i hi (by rw [← hd.length_eq]; exact hi)
    have h1 : (splitLine data[i]).map pyFloat = [some a, some b] := h1
    have := congrArg List.length h1
    simpa using this
  have hne : data ≠ [] := by
    rintro rfl
    cases hd
    simp at hl
  have hme : splitLine marker ≠ [] := by intro e; rw [e] at hm; simp at hm
  have key := tableOf_marker 2 (by norm_num) (data.map splitLine) hv (by simpa using hne) (splitLine marker) hme
    (by omega)
  have hb : ((data ++ [marker]).map splitLine).dropWhile (fun v => v.isEmpty) =
      data.map splitLine ++ [splitLine marker] := by
    rw [List.map_append, List.map_cons, List.map_nil]
    cases data with
    | nil => exact absurd rfl hne
    | cons l d =>
      rw [List.map_cons, List.cons_append, List.dropWhile_cons_of_neg]
      have := hv (splitLine l) (by simp)
      cases e : splitLine l with
      | nil => rw [e] at this; simp at this
      | cons _ _ => simp
  have hg : genfromtxtText 2 (header ++ (data ++ [marker]) ++ trailer) =
      .ok ((data.map splitLine).dropLast.map (fun v => v.map pyFloat)) := by
    rw [C88_comments 2 header (data ++ [marker]) trailer (fun l h => (C88_line l []).2 (hh l h))
      (fun l h => (C88_line l []).2 (ht l h)), genfromtxtText_eq, hb, key]
  refine readXs_rows hg ?_ (by simp; omega)
  have all : List.Forall₂ (fun (v : List (Option (ℤ × ℤ))) (p : ℝ × ℝ) =>
      ∃ a b, v = [some a, some b] ∧ decVal a = p.1 ∧ decVal b = p.2)
      ((data.map splitLine).map (fun v => v.map pyFloat)) vals := by
    rw [List.map_map, List.forall₂_map_left_iff]
    exact hd
  rw [List.map_dropLast]
  rw [List.forall₂_iff_get] at all ⊢
  refine ⟨by simp only [List.length_dropLast]; rw [all.1], fun i h1 h2 => ?_⟩
  have := all.2 i (by rw [List.length_dropLast] at h1; omega) (by rw [List.length_dropLast] at h2; omega)
  simpa using this

theorem rowRead_of {l : List Char} {p : ℝ × ℝ} (h : RowLine l p) : RowRead l p := by
  obtain ⟨a, b, h1, h2, h3⟩ := h
  obtain ⟨a', e1, e2⟩ := C88_number h2
  obtain ⟨b', e3, e4⟩ := C88_number h3
  exact ⟨a', b', by simp [(C88_line _ _).1 h1, e1, e3], e2, e4⟩

/-- C88.  A cross-section file in the layout of the data base: blank and comment lines, rows of two numbers, a line
with one word (such as `//`), blank and comment lines.  What is read are the numbers of all rows *but the last*, in
their order. -/
theorem C88_layout (header data trailer : List (List Char)) (marker word : List Char) (vals : List (ℝ × ℝ))
    (hh : ∀ l ∈ header, ReadsAs l []) (hd : List.Forall₂ RowLine data vals) (hl : 3 ≤ vals.length)
    (hm : ReadsAs marker [word]) (ht : ∀ l ∈ trailer, ReadsAs l []) :
    readXs (header ++ (data ++ [marker]) ++ trailer) = .ok vals.dropLast :=
  readXs_layout header data trailer marker vals (fun l h => (C88_line l []).1 (hh l h))
    (hd.imp fun _ _ => rowRead_of) hl (by rw [(C88_line _ _).1 hm]; rfl) (fun l h => (C88_line l []).1 (ht l h))

/-- C88.  A line with another number of values than the first one, with two more lines after it, makes the reading
fail, if there are no comment or blank lines between the lines. -/
theorem C88_malformed (header body trailer : List (List Char)) (hh : ∀ l ∈ header, ReadsAs l [])
    (hb : ∀ l ∈ body, ¬ ReadsAs l []) (ht : ∀ l ∈ trailer, ReadsAs l []) (first bad : List Char) (wf wb : List (List Char))
    (hf : body.head? = some first) (hf' : ReadsAs first wf) (k : ℕ) (hk : body[k]? = some bad) (hb' : ReadsAs bad wb)
    (hlen : wb.length ≠ wf.length) (hk2 : k + 3 ≤ body.length) :
    readXs (header ++ body ++ trailer) = .error .valueError := by
  have hg : genfromtxtText 2 (header ++ body ++ trailer) = .error .valueError := by
    rw [C88_comments 2 header body trailer hh ht, genfromtxtText_eq]
    have hne : ∀ v ∈ body.map splitLine, v.isEmpty = false := by
      intro v hv
      obtain ⟨l, hl, rfl⟩ := List.mem_map.1 hv
      have := hb l hl
      rw [C88_line] at this
      cases e : splitLine l with
      | nil => exact absurd e this
      | cons _ _ => rfl
    have e0 : (body.map splitLine).dropWhile (fun v => v.isEmpty) = body.map splitLine := by
      cases body with
      | nil => rfl
      | cons l b =>
        rw [List.map_cons, List.dropWhile_cons_of_neg]
        rw [hne _ (by simp)]; simp
    rw [e0]
    have e1 : ((body.map splitLine).headD []).length = wf.length := by
      cases body with
      | nil => simp at hf
      | cons l b =>
        simp only [List.head?_cons, Option.some.injEq] at hf
        subst hf
        simp [(C88_line _ _).1 hf']
    have e2 : (body.map splitLine)[k]? = some wb := by
      rw [List.getElem?_map, hk, Option.map_some, (C88_line _ _).1 hb']
    have elen : (body.map splitLine).length = body.length := List.length_map _
    generalize body.map splitLine = vals at *
    unfold tableOf
    simp only [e1]
    set rows := vals.filter (fun v => !v.isEmpty && v.length == wf.length) with hrows
    set inv := ((vals.zipIdx 1).filter (fun p => !p.1.isEmpty && p.1.length != wf.length)).map Prod.snd with hinv
    have hsum : rows.length + inv.length = vals.length := by
      have a1 : inv.length = (vals.filter (fun v => !v.isEmpty && v.length != wf.length)).length := by
        rw [hinv, List.length_map]
        have : (vals.zipIdx 1).filter (fun p => !p.1.isEmpty && p.1.length != wf.length) =
            (vals.zipIdx 1).filter ((fun v : List (List Char) => !v.isEmpty && v.length != wf.length) ∘ Prod.fst) := rfl
        rw [this, ← List.length_map (f := Prod.fst), ← List.filter_map, List.zipIdx_map_fst]
      have a2 : vals.filter (fun v => !v.isEmpty && v.length != wf.length) =
          vals.filter (fun v => !(!v.isEmpty && v.length == wf.length)) := by
        apply List.filter_congr
        intro v hv
        rw [hne v hv]; simp [bne]
      rw [a1, a2, hrows]
      exact (List.length_eq_length_filter_add _).symm
    have hmem : k + 1 ∈ inv := by
      rw [hinv, List.mem_map]
      refine ⟨(wb, k + 1), ?_, rfl⟩
      rw [List.mem_filter]
      refine ⟨?_, ?_⟩
      · rw [List.mk_mem_zipIdx_iff_le_and_getElem?_sub]
        exact ⟨by omega, by simpa using e2⟩
      · have : wb.isEmpty = false := hne wb (List.mem_of_getElem? e2)
        simp [this, hlen]
    have hlt : (inv.filter (fun i : ℕ => decide ((rows.length : ℤ) + (inv.length : ℤ) - ((2 : ℕ) : ℤ) < (i : ℤ)))).length <
        inv.length := by
      rcases lt_or_eq_of_le (List.length_filter_le
        (fun i : ℕ => decide ((rows.length : ℤ) + (inv.length : ℤ) - ((2 : ℕ) : ℤ) < (i : ℤ))) inv) with h | h
      · exact h
      · exfalso
        rw [List.length_filter_eq_length_iff] at h
        have := h _ hmem
        simp only [decide_eq_true_eq] at this
        push_cast at this
        omega
    rw [if_pos (show 0 < 2 by norm_num), if_pos]
    intro e
    rw [List.take_eq_nil_iff] at e
    rcases e with e | e
    · omega
    · rw [e] at hmem; simp at hmem
  unfold readXs
  rw [hg]; rfl

/-- C88.  A file without a footer, such as the T-T spectra: blank and comment lines, rows with the same number of
numbers, blank and comment lines.  What is read are all rows, in their order. -/
theorem C88_rows (header data trailer : List (List Char)) (n : ℕ) (hn : 0 < n) (vals : List (List ℝ))
    (hh : ∀ l ∈ header, ReadsAs l [])
    (hd : List.Forall₂ (fun l v => ∃ ws, ReadsAs l ws ∧ ws.length = n ∧ List.Forall₂ Number ws v) data vals)
    (ht : ∀ l ∈ trailer, ReadsAs l []) :
    ∃ rows, genfromtxtText 0 (header ++ data ++ trailer) = .ok rows ∧
      List.Forall₂ (List.Forall₂ (fun p v => ∃ q, p = some q ∧ decVal q = v)) rows vals := by
  have hv : ∀ v ∈ data.map splitLine, v.length = n := by
    intro v hv
    obtain ⟨l, hl, rfl⟩ := List.mem_map.1 hv
    obtain ⟨i, hi, rfl⟩ := List.mem_iff_getElem.1 hl
    obtain ⟨ws, h1, h2, _⟩ := (List.forall₂_iff_get.1 hd).2 i hi (by rw [← hd.length_eq]; exact hi)
    have h1 : ReadsAs data[i] ws := h1
    rw [(C88_line _ _).1 h1]; exact h2
  have hne : ∀ v ∈ data.map splitLine, v.isEmpty = false := by
    intro v h
    have := hv v h
    cases v with
    | nil => simp at this; omega
    | cons _ _ => rfl
  have e0 : (data.map splitLine).dropWhile (fun v => v.isEmpty) = data.map splitLine := by
    cases data with
    | nil => rfl
    | cons l b =>
      rw [List.map_cons, List.dropWhile_cons_of_neg]
      rw [hne _ (by simp)]; simp
  refine ⟨(data.map splitLine).map (fun v => v.map pyFloat), ?_, ?_⟩
  · rw [C88_comments 0 header data trailer hh ht, genfromtxtText_eq, e0]
    generalize data.map splitLine = d at hv hne
    cases d with
    | nil => rfl
    | cons v vs =>
      have e1 : ((v :: vs).headD []).length = n := hv v (by simp)
      have hrows : (v :: vs).filter (fun v => !v.isEmpty && v.length == n) = v :: vs := by
        rw [List.filter_eq_self]
        intro x hx
        simp [hne x hx, hv x hx]
      have hinv : ((v :: vs).zipIdx 1).filter (fun p => !p.1.isEmpty && p.1.length != n) = [] :=
        zipIdx_filter_nil (v :: vs) (fun v => !v.isEmpty && v.length != n) 1 (by intro x hx; simp [hv x hx])
      unfold tableOf
      simp only [e1, hrows, hinv]
      simp
  · rw [List.map_map, List.forall₂_map_left_iff]
    refine hd.imp fun l v hlv => ?_
    obtain ⟨ws, h1, _, h3⟩ := hlv
    simp only [Function.comp, (C88_line _ _).1 h1]
    rw [List.forall₂_map_left_iff]
    refine h3.imp fun t x htx => ?_
    obtain ⟨p, e1, e2⟩ := C88_number htx
    exact ⟨p, e1, e2⟩

/-! ### Objects -/

theorem splitOn_word (w : List Char) (hw : '_' ∉ w) (rest : List Char) :
    (w ++ '_' :: rest).splitOn '_' = w :: rest.splitOn '_' := by
  rw [List.splitOn_eq_splitOnP, List.splitOn_eq_splitOnP, List.splitOnP_append_cons_of_forall_mem
    (by intro x hx; simp; rintro rfl; exact hw hx) _ (by simp)]

theorem splitOn_last (w : List Char) (hw : '_' ∉ w) : w.splitOn '_' = [w] := by
  rw [List.splitOn_eq_splitOnP, List.splitOnP_eq_singleton]
  intro x hx; simp; rintro rfl; exact hw hx

/-- C88.  What the object knows about its reaction comes from the file name `collider_target_product_product.txt`,
the numbers from the text. -/
theorem C88_init (u : SI) (m : Masses ℝ) (folder : List Char → Option (List (List Char)))
    (a b c d ext : List Char) (h : ∀ w ∈ [a, b, c, d], '_' ∉ w ∧ '.' ∉ w) (m1 m2 : ℝ) (h1 : molarMass m a = .ok m1)
    (h2 : molarMass m b = .ok m2) (lines : List (List Char)) (table : List (ℝ × ℝ))
    (hf : folder (a ++ '_' :: (b ++ '_' :: (c ++ '_' :: (d ++ '.' :: ext)))) = some lines)
    (ht : readXs lines = .ok table) :
    XsObject.init u m folder (a ++ '_' :: (b ++ '_' :: (c ++ '_' :: (d ++ '.' :: ext)))) =
      .ok { name := a ++ " + ".toList ++ b ++ " -> ".toList ++ c ++ " + ".toList ++ d
            xs := .load u m1 m2 table } := by
  obtain ⟨ha, hb, hc, hd⟩ : ('_' ∉ a ∧ '.' ∉ a) ∧ ('_' ∉ b ∧ '.' ∉ b) ∧ ('_' ∉ c ∧ '.' ∉ c) ∧ ('_' ∉ d ∧ '.' ∉ d) :=
    ⟨h a (by simp), h b (by simp), h c (by simp), h d (by simp)⟩
  have hall : ∀ x ∈ a ++ '_' :: (b ++ '_' :: (c ++ '_' :: d)), x ≠ '.' := by
    intro x hx e
    subst e
    simp only [List.mem_append, List.mem_cons] at hx
    rcases hx with hx | hx | hx | hx | hx | hx | hx
    · exact ha.2 hx
    · exact absurd hx (by decide)
    · exact hb.2 hx
    · exact absurd hx (by decide)
    · exact hc.2 hx
    · exact absurd hx (by decide)
    · exact hd.2 hx
  have e1 : (a ++ '_' :: (b ++ '_' :: (c ++ '_' :: (d ++ '.' :: ext)))).takeWhile (fun c => c ≠ '.') =
      a ++ '_' :: (b ++ '_' :: (c ++ '_' :: d)) := by
    have : a ++ '_' :: (b ++ '_' :: (c ++ '_' :: (d ++ '.' :: ext))) =
        (a ++ '_' :: (b ++ '_' :: (c ++ '_' :: d))) ++ '.' :: ext := by simp
    rw [this, List.takeWhile_append_of_pos (by intro x hx; simpa using hall x hx)]
    simp
  unfold XsObject.init
  rw [hf]
  simp only [e1, ht, splitOn_word _ ha.1, splitOn_word _ hb.1, splitOn_word _ hc.1, splitOn_last _ hd.1, h1, h2]
  rfl

/-- C88.  A missing file is reported as such. -/
theorem C88_missing (u : SI) (m : Masses ℝ) (folder : List Char → Option (List (List Char))) (name : List Char)
    (h : folder name = none) : XsObject.init u m folder name = .error .reactivityError := by
  unfold XsObject.init
  rw [h]

/-- C88, finding.  Comment lines between the rows shift numpy's line numbers: a row with a missing number in the
middle of the file is then taken for a part of the footer, dropped without an error, and only one row is cut at the end. -/
theorem C88_silent : ∃ lines : List (List Char), lines[5]? = some "3".toList ∧ lines.length = 10 ∧
    lines[6]? = some "4 40".toList ∧ lines[9]? = some "7 70".toList ∧
    genfromtxtText 2 lines = .ok [[some (1, 0), some (10, 0)], [some (4, 0), some (40, 0)], [some (5, 0), some (50, 0)],
      [some (6, 0), some (60, 0)]] := by
  refine ⟨["1 10", "#", "#", "#", "#", "3", "4 40", "5 50", "6 60", "7 70"].map String.toList, ?_⟩
  decide +kernel

/-- A line, a number and a file of the layout above. -/
example : ReadsAs " 1.5e-3\t2 # x".toList ["1.5e-3".toList, "2".toList] ∧ Number "1.5e-3".toList (1.5e-3) ∧
    Number "-.5E+1".toList (-5) := by
  refine ⟨(C88_line _ _).2 (by decide +kernel), .inl ?_, .inr (.inr ⟨".5E+1".toList, by decide +kernel, ?_⟩)⟩
  · exact ⟨['1'], ['.'], ['5'], ['e', '-', '3'], 15, -3, by decide +kernel, by simp, .inl rfl, by decide +kernel,
      .inr ⟨'e', ['3'], 3, by simp, by simp, by decide +kernel, by simp⟩, by norm_num⟩
  · exact ⟨[], ['.'], ['5'], ['E', '+', '1'], 5, 1, by decide +kernel, by simp, .inl rfl, by decide +kernel,
      .inr ⟨'E', ['1'], 1, by simp, by simp, by decide +kernel, by simp⟩, by norm_num⟩

example : readXs (["# MeV barns", ""].map String.toList ++ (["1 10", " 2 20", "3 30 # last"].map String.toList ++
    ["//".toList]) ++ ["# end".toList]) = .ok [(1, 10), (2, 20)] := by
  have nat : ∀ (t : List Char) (n : ℕ), t ≠ [] → readNat t = some n → Number t n := fun t n h1 h2 =>
    .inl ⟨t, [], [], [], n, 0, by simp, by simpa using h1, .inr ⟨rfl, rfl⟩, by simpa using h2, .inl ⟨rfl, rfl⟩, by simp⟩
  have row : ∀ (l a b : List Char) (x y : ℕ), splitLine l = [a, b] → a ≠ [] → b ≠ [] → readNat a = some x →
      readNat b = some y → RowLine l (x, y) := fun l a b x y h1 h2 h3 h4 h5 =>
    ⟨a, b, (C88_line _ _).2 h1, nat a x h2 h4, nat b y h3 h5⟩
  have := C88_layout (["# MeV barns", ""].map String.toList) (["1 10", " 2 20", "3 30 # last"].map String.toList)
    ["# end".toList] "//".toList "//".toList [((1 : ℕ), (10 : ℕ)), ((2 : ℕ), (20 : ℕ)), ((3 : ℕ), (30 : ℕ))]
    (fun l hl => (C88_line _ _).2 (by revert l; decide +kernel))
    (.cons (row _ "1".toList "10".toList 1 10 (by decide +kernel) (by decide +kernel) (by decide +kernel) (by decide +kernel) (by decide +kernel))
      (.cons (row _ "2".toList "20".toList 2 20 (by decide +kernel) (by decide +kernel) (by decide +kernel) (by decide +kernel) (by decide +kernel))
      (.cons (row _ "3".toList "30".toList 3 30 (by decide +kernel) (by decide +kernel) (by decide +kernel) (by decide +kernel) (by decide +kernel)) .nil)))
    (by simp) ((C88_line _ _).2 (by decide +kernel)) (fun l hl => (C88_line _ _).2 (by revert l; decide +kernel))
  rw [this]
  simp

/-- The hypotheses of `C88_malformed` are met by a file whose second row has one number. -/
example : readXs ([] ++ ["1 10", "2", "3 30", "4 40"].map String.toList ++ []) = .error .valueError := by
  refine C88_malformed [] (["1 10", "2", "3 30", "4 40"].map String.toList) [] (by simp) ?_ (by simp) "1 10".toList
    "2".toList ["1".toList, "10".toList] ["2".toList] rfl ((C88_line _ _).2 (by decide +kernel)) 1 rfl
    ((C88_line _ _).2 (by decide +kernel)) (by simp) (by simp)
  intro l hl
  rw [C88_line]
  revert l; decide +kernel

end TNS
