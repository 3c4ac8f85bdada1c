import Verif.Props.SdefText
import Verif.Props.TTRange
import Verif.Props.Mcnp
/-
C67 and C68: the numbers found in the text of an SDEF file, and the distribution they describe.
-/

set_option autoImplicit false

namespace TNS
open Spec
noncomputable section

/-! ### Finding cards by name -/

theorem filter_head_single (L : List (List (List Char))) (h : (L.map List.head?).Nodup)
    (c : List (List Char)) (hc : c ∈ L) : L.filter (fun d => d.head? = c.head?) = [c] := by
  induction L with
  | nil => simp at hc
  | cons a L ih =>
    rw [List.map_cons, List.nodup_cons] at h
    rcases List.mem_cons.1 hc with rfl | hc
    · rw [List.filter_cons_of_pos (by simp), List.filter_eq_nil_iff.2]
      intro d hd
      have : d.head? ∈ L.map List.head? := List.mem_map.2 ⟨d, hd, rfl⟩
      simp only [decide_eq_true_eq]
      intro e
      exact h.1 (e ▸ this)
    · rw [List.filter_cons_of_neg, ih h.2 hc]
      simp only [decide_eq_true_eq]
      intro e
      exact h.1 (e ▸ List.mem_map.2 ⟨c, hc, rfl⟩)

theorem cardArgs_of (L : List (List (List Char))) (h : (L.map List.head?).Nodup)
    (name key : List Char) (rest : List (List Char)) (hc : (name :: key :: rest) ∈ L) :
    cardArgs L name key = some rest := by
  unfold cardArgs
  have e : L.filter (fun c => decide (c.head? = some name)) = [name :: key :: rest] := by
    rw [← filter_head_single L h _ hc]
    exact List.filter_congr (fun d _ => decide_eq_decide.2 (by rw [List.head?_cons]))
  rw [e]
  simp

theorem formatD_inj {m n : ℕ} (h : formatD m = formatD n) : m = n := by
  have h1 := readNat_padDigits 1 m
  have h2 := readNat_padDigits 1 n
  unfold formatD at h
  rw [h, h2] at h1
  exact (Option.some.inj h1).symm

/-- The name of a distribution card. -/
def dname (b : Bool) (n : ℕ) : List Char := 'S' :: (if b then 'I' else 'P') :: formatD n

theorem dname_inj {b b' : Bool} {m n : ℕ} (h : dname b m = dname b' n) : b = b' ∧ m = n := by
  unfold dname at h
  simp only [List.cons.injEq, true_and] at h
  refine ⟨?_, formatD_inj h.2⟩
  have := h.1
  cases b <;> cases b' <;> simp_all

theorem names_nodup (r : Neutronic) (T : ℝ) (pairs : List (ℝ × ℝ)) (c : SdefCards ℝ)
    (hnd : (c.vertical.map (·.1)).Nodup) (h5 : ∀ v ∈ c.vertical, 5 ≤ v.1) :
    ((sdefDecl :: energyFields r T pairs ++ positionFields c).map List.head?).Nodup := by
  have ev : ((c.vertical.flatMap (fun v =>
      [("SI".toList ++ formatD v.1) :: "H".toList :: v.2.1.map (formatE 5),
      ("SP".toList ++ formatD v.1) :: "D".toList :: v.2.2.map (formatE 5)])).map List.head?) =
      c.vertical.flatMap (fun v => [some (dname true v.1), some (dname false v.1)]) := by
    rw [List.map_flatMap]
    rfl
  have hv : (c.vertical.flatMap (fun v => [some (dname true v.1), some (dname false v.1)])).Nodup := by
    rw [List.nodup_flatMap]
    constructor
    · intro v _
      simp only [List.nodup_cons, List.mem_singleton, Option.some.injEq, List.not_mem_nil,
        not_false_eq_true, List.nodup_nil, and_true]
      intro h; exact absurd (dname_inj h).1 (by decide)
    · have := List.pairwise_map.1 hnd
      refine this.imp ?_
      intro v w hvw
      rw [Function.onFun, List.disjoint_left]
      intro x hx hx'
      simp only [List.mem_cons, List.not_mem_nil, or_false] at hx hx'
      rcases hx with rfl | rfl <;> rcases hx' with h | h <;>
        exact hvw (dname_inj (Option.some.inj h)).2
  have hb : ∀ (b : Bool) (n : ℕ), n < 5 → some (dname b n) ∉
      c.vertical.flatMap (fun v => [some (dname true v.1), some (dname false v.1)]) := by
    intro b n hn hm
    obtain ⟨v, hv, hx⟩ := List.mem_flatMap.1 hm
    simp only [List.mem_cons, List.not_mem_nil, or_false, Option.some.injEq] at hx
    have := h5 v hv
    rcases hx with h | h <;> have := (dname_inj h).2 <;> omega
  have ho : ∀ (x : List Char), x.head? ≠ some 'S' → some x ∉
      c.vertical.flatMap (fun v => [some (dname true v.1), some (dname false v.1)]) := by
    intro x hx hm
    obtain ⟨v, hv, h⟩ := List.mem_flatMap.1 hm
    simp only [List.mem_cons, List.not_mem_nil, or_false, Option.some.injEq] at h
    rcases h with h | h <;> exact hx (by rw [h]; rfl)
  have e2 : dname true 2 = "SI2".toList := rfl
  have e3 : dname false 2 = "SP2".toList := rfl
  have e4 : dname true 3 = "SI3".toList := rfl
  have e5 : dname false 3 = "SP3".toList := rfl
  unfold positionFields
  rw [List.map_append, List.map_append, ev, ← List.append_assoc, List.nodup_append']
  refine ⟨?_, hv, ?_⟩
  · cases r <;>
    · simp only [energyFields, sdefDecl, List.map_cons, List.map_nil, List.head?_cons, List.cons_append,
        List.nil_append]
      decide
  · rw [List.disjoint_left]
    intro x hx
    cases r <;>
    · simp only [energyFields, sdefDecl, List.map_cons, List.map_nil, List.head?_cons, List.cons_append,
        List.nil_append, List.mem_cons, List.not_mem_nil, or_false] at hx
      rcases hx with rfl | rfl | rfl | rfl | rfl | rfl <;>
      first
        | exact ho _ (by decide)
        | (rw [← e2]; exact hb _ _ (by norm_num))
        | (rw [← e3]; exact hb _ _ (by norm_num))
        | (rw [← e4]; exact hb _ _ (by norm_num))
        | (rw [← e5]; exact hb _ _ (by norm_num))

/-! ### The numbers -/

theorem mapM_map_some {α β γ : Type} (l : List α) (h : α → β) (g : β → Option γ) (k : α → γ)
    (hk : ∀ x ∈ l, g (h x) = some (k x)) : (l.map h).mapM g = some (l.map k) := by
  induction l with
  | nil => rfl
  | cons a l ih =>
    rw [List.map_cons, List.mapM_cons, hk a (by simp), ih (fun x hx => hk x (List.mem_cons_of_mem _ hx))]
    rfl

/-- The number that is read from the text of a number. -/
def printed (x : ℝ) : ℝ := (sciOf 5 x).value 5

theorem readFloat_formatE5 (x : ℝ) : readFloat (K := ℝ) (formatE 5 x) = some (printed x) :=
  readFloat_render 5 _ (sciOf_digits 5 x)

theorem cardNums_of (L : List (List (List Char))) (h : (L.map List.head?).Nodup)
    (name key : List Char) (l : List ℝ) (hc : (name :: key :: l.map (formatE 5)) ∈ L) :
    cardNums L name key = some (l.map printed) := by
  unfold cardNums
  rw [cardArgs_of L h _ _ _ hc]
  simp only [bind, Option.bind]
  exact mapM_map_some l _ _ _ (fun x _ => readFloat_formatE5 x)

theorem readSdef_of (r : Neutronic) (T : ℝ) (pairs : List (ℝ × ℝ)) (c : SdefCards ℝ)
    (hds : c.ds4 = c.vertical.map (·.1))
    (hnd : (c.vertical.map (·.1)).Nodup) (h5 : ∀ v ∈ c.vertical, 5 ≤ v.1) :
    readSdef (sdefDecl :: energyFields r T pairs ++ positionFields c) =
      some (mapNums printed c) := by
  have N := names_nodup r T pairs c hnd h5
  set L := sdefDecl :: energyFields r T pairs ++ positionFields c with hL
  have hsub : ∀ x ∈ positionFields c, x ∈ L := fun x hx => by rw [hL]; exact List.mem_append_right _ hx
  unfold readSdef
  rw [cardNums_of L N _ _ c.si3 (hsub _ (by simp [positionFields])),
    cardNums_of L N _ _ c.sp3 (hsub _ (by simp [positionFields])),
    cardArgs_of L N _ _ (c.ds4.map formatD) (hsub _ (by simp [positionFields]))]
  simp only [bind, Option.bind]
  rw [mapM_map_some c.ds4 formatD _ id (fun n _ => readNat_padDigits 1 n)]
  simp only
  rw [hds, List.map_map, mapM_map_some c.vertical _ _
    (fun v => (v.1, v.2.1.map printed, v.2.2.map printed)) ?_]
  · simp [mapNums, hds]
  · intro v hv
    have e1 := cardNums_of L N ("SI".toList ++ formatD v.1) "H".toList v.2.1 (hsub _ (by
      unfold positionFields
      exact List.mem_append_right _ (List.mem_flatMap.2 ⟨v, hv, by simp⟩)))
    have e2 := cardNums_of L N ("SP".toList ++ formatD v.1) "D".toList v.2.2 (hsub _ (by
      unfold positionFields
      exact List.mem_append_right _ (List.mem_flatMap.2 ⟨v, hv, by simp⟩)))
    have e3 : readNat (formatD v.1) = some v.1 := readNat_padDigits 1 v.1
    simp only [Function.comp]
    rw [e1, e2, e3]

theorem printed_err (x : ℝ) : |printed x - x| ≤ 5 / 10 ^ 6 * |x| := by
  have := value_err (K := ℝ) 5 x
  refine le_trans this (le_of_eq ?_)
  norm_num

theorem printed_mono : Monotone printed := fun _ _ h => value_mono 5 h

/-! ### Writing succeeds -/

theorem textWrap_good (words : List (List Char)) (indent : ℕ) (hne : words ≠ [])
    (hg : ∀ x ∈ words, GoodField x) (hi : 6 ≤ indent) :
    ∃ t, textWrap (joinBlank words) indent 80 1 = .ok t := by
  obtain ⟨t, _, _, h, _⟩ := C26_wrap words indent 80 1 hne (fun w hw => (hg w hw).1)
    (fun w hw => (hg w hw).2.1) hi (by norm_num)
  exact ⟨t, h⟩

theorem good_SI3 : GoodField "SI3".toList := good_short _ (by decide) (by decide) (by decide) (by decide)
theorem good_SP3 : GoodField "SP3".toList := good_short _ (by decide) (by decide) (by decide) (by decide)
theorem good_DS4 : GoodField "DS4".toList := good_short _ (by decide) (by decide) (by decide) (by decide)
theorem good_H : GoodField "H".toList := good_short _ (by decide) (by decide) (by decide) (by decide)
theorem good_D : GoodField "D".toList := good_short _ (by decide) (by decide) (by decide) (by decide)
theorem good_S : GoodField "S".toList := good_short _ (by decide) (by decide) (by decide) (by decide)

theorem energyText_ok (r : Neutronic) (T : ℝ) : ∃ t, energyText r (.fin T) = .ok t := by
  cases r with
  | D_T => exact ⟨_, rfl⟩
  | D_D => exact ⟨_, rfl⟩
  | T_T =>
    obtain ⟨pairs, log, e, -, hr⟩ := tt_printable T
    have hz : InRange (0 : ℝ) := .inl rfl
    have g1 : ∀ x ∈ formatE 5 (0 : ℝ) :: (pairs.map (fun q => q.1 / 1000)).map (formatE 5),
        GoodField x := by
      intro x hx
      rcases List.mem_cons.1 hx with rfl | hx
      · exact good_formatE 5 _ hz (by norm_num)
      · simp only [List.map_map, List.mem_map] at hx
        obtain ⟨q, hq, rfl⟩ := hx
        exact good_formatE 5 _ (hr q hq).1 (by norm_num)
    have g2 : ∀ x ∈ formatE 5 (0 : ℝ) :: (pairs.map (fun q => q.2)).map (formatE 5), GoodField x := by
      intro x hx
      rcases List.mem_cons.1 hx with rfl | hx
      · exact good_formatE 5 _ hz (by norm_num)
      · simp only [List.map_map, List.mem_map] at hx
        obtain ⟨q, hq, rfl⟩ := hx
        exact good_formatE 5 _ (hr q hq).2 (by norm_num)
    obtain ⟨t1, h1⟩ := textWrap_good _ 6 (by simp) g1 le_rfl
    obtain ⟨t2, h2⟩ := textWrap_good _ 6 (by simp) g2 le_rfl
    unfold energyText
    simp only [e, bind, Except.bind, h1, h2]
    exact ⟨_, rfl⟩

theorem sdefText_ok (cit : Citation) (r : Neutronic) (f : SdefFile ℝ) (T : ℝ)
    (hfT : f.ionTemp = .fin T) (hp : Printable f.cards) : ∃ t, sdefText cit r f = .ok t := by
  obtain ⟨p1, p2, p3, p4⟩ := hp
  obtain ⟨te, he⟩ := energyText_ok r T
  obtain ⟨t1, h1⟩ := textWrap_good _ 6 (by simp) (good_card _ _ f.cards.si3 good_SI3 good_H p1) le_rfl
  obtain ⟨t2, h2⟩ := textWrap_good _ 6 (by simp) (good_card _ _ f.cards.sp3 good_SP3 good_D p2) le_rfl
  have g3 : ∀ x ∈ "DS4".toList :: "S".toList :: f.cards.ds4.map formatD, GoodField x := by
    intro x hx
    rcases List.mem_cons.1 hx with rfl | hx
    · exact good_DS4
    · rcases List.mem_cons.1 hx with rfl | hx
      · exact good_S
      · obtain ⟨n, hn, rfl⟩ := List.mem_map.1 hx
        exact good_formatD [] n (p3 n hn).2 (by simp) (by simp)
  obtain ⟨t3, h3⟩ := textWrap_good _ 6 (by simp) g3 le_rfl
  have hv : ∀ l : List (ℕ × List ℝ × List ℝ), (∀ v ∈ l, (0 < v.1 ∧ v.1 < 10 ^ 40) ∧
      (∀ x ∈ v.2.1, InRange x) ∧ ∀ x ∈ v.2.2, InRange x) → ∃ vs, l.mapM verticalText = .ok vs := by
    intro l
    induction l with
    | nil => intro _; exact ⟨[], rfl⟩
    | cons v l ih =>
      intro hall
      obtain ⟨vs, hvs⟩ := ih (fun w hw => hall w (List.mem_cons_of_mem _ hw))
      obtain ⟨⟨h0, hN⟩, a, b⟩ := hall v (by simp)
      obtain ⟨s1, e1⟩ := textWrap_good _ (indentOffset v.1) (by simp) (good_card _ _ v.2.1
        (good_formatD "SI".toList v.1 hN (by decide) (by decide)) good_H a) (C26_indent v.1 h0)
      obtain ⟨s2, e2⟩ := textWrap_good _ (indentOffset v.1) (by simp) (good_card _ _ v.2.2
        (good_formatD "SP".toList v.1 hN (by decide) (by decide)) good_D b) (C26_indent v.1 h0)
      refine ⟨(s1 ++ s2) :: vs, ?_⟩
      rw [List.mapM_cons]
      simp only [verticalText, e1, e2, bind, Except.bind, hvs]
      rfl
  obtain ⟨vs, hvs⟩ := hv _ p4
  unfold sdefText sdefHeader
  rw [hfT]
  simp only [he, h1, h2, h3, hvs, bind, Except.bind]
  exact ⟨_, rfl⟩

/-- **C67.**  For every file whose numbers are in the range of doubles: the text is written, and when it
is read back by the rules of MCNP input it gives the same cards with every number replaced by its printed
value, which has a relative error of at most 5e-6 and keeps the order of the numbers.  (The hypotheses on
the distribution numbers hold for all cards that are written, C23.) -/
theorem C67_file (cit : Citation) (hc : CleanCitation cit) (r : Neutronic) (f : SdefFile ℝ) (T : ℝ)
    (hfT : f.ionTemp = .fin T) (hT : InRange (T / 1000)) (hp : Printable f.cards)
    (hds : f.cards.vertical.map (·.1) = f.cards.ds4) (hnd : f.cards.ds4.Nodup)
    (h5 : ∀ n ∈ f.cards.ds4, 5 ≤ n) :
    ∃ (text : List Char) (φ : ℝ → ℝ), sdefText cit r f = .ok text ∧
      (∀ x, |φ x - x| ≤ 5 / 10 ^ 6 * |x|) ∧ Monotone φ ∧
      readSdef (readCards 128 text) = some (mapNums φ f.cards) := by
  obtain ⟨text, ht⟩ := sdefText_ok cit r f T hfT hp
  obtain ⟨pairs, log, e, -, hr⟩ := tt_printable T
  refine ⟨text, printed, ht, printed_err, printed_mono, ?_⟩
  rw [C67_cards cit hc r f T hfT hT hp pairs log (fun _ => ⟨e, hr⟩) text ht]
  refine readSdef_of r T pairs f.cards hds.symm (hds ▸ hnd) ?_
  intro v hv
  exact h5 _ (hds ▸ List.mem_map.2 ⟨v, hv, rfl⟩)

/-- Reading stops at a blank line. -/
theorem Block.read_blank {w : ℕ} {t : List Char} {cards : List (List (List Char))} (h : Block w t cards)
    (rest : List Char) : readCards w (t ++ '\n' :: rest) = cards := by
  obtain ⟨ls, rfl, h2, h3, h4⟩ := h
  have hl : ∀ ls : List (List Char), (∀ l ∈ ls, ∀ c ∈ l, c ≠ '\n') →
      linesOf (nlText ls ++ '\n' :: rest) = ls ++ [] :: linesOf rest := by
    intro ls
    induction ls with
    | nil =>
      intro _
      unfold linesOf
      simp [nlText, List.splitOn_eq_splitOnP, List.splitOnP_cons_eq_if_modifyHead]
    | cons l ls ih =>
      intro h
      have ih := ih (fun x hx => h x (List.mem_cons_of_mem _ hx))
      simp only [nlText, List.flatMap_cons, List.append_assoc, List.singleton_append,
        List.cons_append] at ih ⊢
      unfold linesOf at ih ⊢
      rw [List.splitOn_eq_splitOnP, List.splitOnP_append_cons_of_forall_mem
        (by simpa using h l (by simp)) _ (by simp), ← List.splitOn_eq_splitOnP, List.nil_append, ih]
  unfold readCards
  rw [hl ls h2]
  have : ((ls ++ [] :: linesOf rest).map (List.take w)).takeWhile (fun l => !isBlankLine l) =
      ls.map (List.take w) := by
    rw [List.map_append, List.takeWhile_append_of_pos]
    · simp [isBlankLine]
    · intro x hx
      obtain ⟨l, hl, rfl⟩ := List.mem_map.1 hx
      simp [h3 l hl]
  rw [this, h4]
  simp

/-- **C67**, a boundary: if the citation data had no author, the file would have a blank line in its
header, and by the rules of MCNP input the file would hold no card at all. -/
theorem C67_no_authors (cit : Citation) (h : cit.authors = []) (hr : ∀ x ∈ cit.repository, x ≠ '\n')
    (r : Neutronic) (f : SdefFile ℝ) (text : List Char) (ht : sdefText cit r f = .ok text) :
    readCards 128 text = [] := by
  unfold sdefText sdefHeader at ht
  simp only [bind, Except.bind] at ht
  split at ht
  · cases ht
  rename_i hd hhd
  split at hhd
  · cases hhd
  obtain rfl := Except.ok.inj hhd
  split at ht
  · cases ht
  split at ht
  · cases ht
  split at ht
  · cases ht
  split at ht
  · cases ht
  obtain rfl := Except.ok.inj ht
  have b : Block 128 (nlText [ruleLine, "C SDEF Card for Tokamak Neutron Source generated by:".toList,
      "C ".toList ++ cit.repository, ruleLine, "C".toList, ruleLine, "C Authors:".toList]) [] := by
    apply Block.comments 128 (by norm_num)
    have c1 : CLine ruleLine := cline_of _ (by decide)
    intro l hl
    simp only [List.mem_cons, List.not_mem_nil, or_false] at hl
    rcases hl with rfl | rfl | rfl | rfl | rfl | rfl | rfl
    · exact c1
    · exact cline_of _ (by decide)
    · exact cline_of _ hr
    · exact c1
    · exact ⟨.inl rfl, by decide⟩
    · exact c1
    · exact cline_of _ (by decide)
  have e : authorsText cit ++ ['\n'] = ['\n'] := by simp [authorsText, h, List.intercalate]
  rw [e]
  simp only [List.append_assoc, List.singleton_append]
  exact b.read_blank _

/-- **C67**, energies of D-T and D-D: the energy card is `SP2 -4 a b`, a Gaussian fusion spectrum with
`b = -1` for D-T and `b = -2` for D-D and the temperature `a`, in MeV, to seven digits. -/
theorem C67_gaussian (cit : Citation) (hc : CleanCitation cit) (r : Neutronic) (f : SdefFile ℝ) (T : ℝ)
    (hfT : f.ionTemp = .fin T) (hT : InRange (T / 1000)) (hp : Printable f.cards)
    (hds : f.cards.vertical.map (·.1) = f.cards.ds4) (hnd : f.cards.ds4.Nodup)
    (h5 : ∀ n ∈ f.cards.ds4, 5 ≤ n) (hr : r = .D_T ∨ r = .D_D)
    (text : List Char) (h : sdefText cit r f = .ok text) :
    ∃ a v, cardArgs (readCards 128 text) "SP2".toList "-4".toList =
        some [a, if r = .D_T then "-1".toList else "-2".toList] ∧
      readFloat (K := ℝ) a = some v ∧ |v - T / 1000| ≤ 5 / 10 ^ 7 * |T / 1000| := by
  have N := names_nodup r T [] f.cards (hds ▸ hnd) (fun v hv => h5 _ (hds ▸ List.mem_map.2 ⟨v, hv, rfl⟩))
  rw [C67_cards cit hc r f T hfT hT hp [] [] (by rcases hr with rfl | rfl <;> simp) text h]
  refine ⟨formatE 6 (T / 1000), (sciOf 6 (T / 1000)).value 6, cardArgs_of _ N _ _ _ ?_,
    readFloat_render 6 _ (sciOf_digits 6 _), le_trans (value_err 6 _) (le_of_eq (by norm_num))⟩
  rcases hr with rfl | rfl <;> simp [energyFields]

/-- **C67**, energies of T-T: the energy cards are the histogram `SI2 H`, `SP2 D` with boundary 0 and
then the tabulated energies in MeV, and with probability 0 and then the normalised spectrum, all as
printed. -/
theorem C67_tabular (cit : Citation) (hc : CleanCitation cit) (f : SdefFile ℝ) (T : ℝ)
    (hfT : f.ionTemp = .fin T) (hT : InRange (T / 1000)) (hp : Printable f.cards)
    (hds : f.cards.vertical.map (·.1) = f.cards.ds4) (hnd : f.cards.ds4.Nodup)
    (h5 : ∀ n ∈ f.cards.ds4, 5 ≤ n)
    (text : List Char) (h : sdefText cit .T_T f = .ok text) :
    ∃ pairs log φ, energySpectrum T .TT .DATA = .ok (some pairs, log) ∧ IsSpectrum pairs ∧
      (∀ x, |φ x - x| ≤ 5 / 10 ^ 6 * |x|) ∧ Monotone φ ∧
      cardNums (readCards 128 text) "SI2".toList "H".toList =
        some ((0 :: pairs.map (fun q => q.1 / 1000)).map φ) ∧
      cardNums (readCards 128 text) "SP2".toList "D".toList = some ((0 :: pairs.map (·.2)).map φ) := by
  obtain ⟨pairs, log, e, hs, hr⟩ := tt_printable T
  have N := names_nodup .T_T T pairs f.cards (hds ▸ hnd)
    (fun v hv => h5 _ (hds ▸ List.mem_map.2 ⟨v, hv, rfl⟩))
  rw [C67_cards cit hc .T_T f T hfT hT hp pairs log (fun _ => ⟨e, hr⟩) text h]
  refine ⟨pairs, log, printed, e, hs, printed_err, printed_mono, cardNums_of _ N _ _ _ ?_,
    cardNums_of _ N _ _ _ ?_⟩ <;> simp [energyFields]

theorem linesOf_append (a b : List Char) : linesOf (a ++ '\n' :: b) = linesOf a ++ linesOf b := by
  unfold linesOf
  rw [List.splitOn_eq_splitOnP, List.splitOn_eq_splitOnP, List.splitOn_eq_splitOnP]
  induction a with
  | nil => simp [List.splitOnP_cons_eq_if_modifyHead]
  | cons c a ih =>
    rw [List.cons_append, List.splitOnP_cons_eq_if_modifyHead, List.splitOnP_cons_eq_if_modifyHead, ih]
    split_ifs
    · rfl
    · have : a.splitOnP (· == '\n') ≠ [] := List.splitOnP_ne_nil _ _
      rcases hL : a.splitOnP (· == '\n') with _ | ⟨y, ys⟩
      · exact absurd hL this
      · rfl

theorem linesOf_line (l : List Char) (h : ∀ c ∈ l, c ≠ '\n') : linesOf l = [l] := by
  induction l with
  | nil => rfl
  | cons a l ih =>
    unfold linesOf at ih ⊢
    rw [List.splitOn_eq_splitOnP] at ih ⊢
    rw [List.splitOnP_cons_eq_if_modifyHead, if_neg (by simpa using h a (by simp)),
      ih (fun c hc => h c (List.mem_cons_of_mem _ hc))]
    rfl

/-- **C67**, header: the file names the reaction, and states the total with seven digits. -/
theorem C67_header (cit : Citation) (r : Neutronic) (f : SdefFile ℝ) (text : List Char)
    (h : sdefText cit r f = .ok text) :
    "C Reaction channel: ".toList ++ (Reaction.n r).label.toList ∈ linesOf text ∧
    ∃ x v, "C Total source neutrons: ".toList ++ x ++ " n/s".toList ∈ linesOf text ∧
      readFloat (K := ℝ) x = some v ∧ |v - f.total| ≤ 5 / 10 ^ 7 * |f.total| := by
  unfold sdefText sdefHeader at h
  simp only [bind, Except.bind] at h
  split at h
  · cases h
  rename_i hd hhd
  split at hhd
  · cases hhd
  rename_i data _
  obtain rfl := Except.ok.inj hhd
  split at h
  · cases h
  split at h
  · cases h
  split at h
  · cases h
  split at h
  · cases h
  obtain rfl := Except.ok.inj h
  have c1 : ∀ c ∈ "C Reaction channel: ".toList ++ (Reaction.n r).label.toList, c ≠ '\n' := by
    intro c hc
    rcases List.mem_append.1 hc with hc | hc
    · exact (by decide : ∀ c ∈ "C Reaction channel: ".toList, c ≠ '\n') c hc
    · exact label_clean r c hc
  have c2 : ∀ c ∈ "C Total source neutrons: ".toList ++ formatE 6 f.total ++ " n/s".toList, c ≠ '\n' := by
    intro c hc
    rcases List.mem_append.1 hc with hc | hc
    · rcases List.mem_append.1 hc with hc | hc
      · exact (by decide : ∀ c ∈ "C Total source neutrons: ".toList, c ≠ '\n') c hc
      · exact formatE_nonl 6 _ c hc
    · exact (by decide : ∀ c ∈ " n/s".toList, c ≠ '\n') c hc
  have key : ∀ (P L1 L2 x R : List Char) (xs ys : List (List Char)), (∀ c ∈ L1, c ≠ '\n') →
      (∀ c ∈ L2, c ≠ '\n') →
      L1 ∈ linesOf (P ++ (nlText (xs ++ x :: L1 :: L2 :: ys) ++ R)) ∧
      L2 ∈ linesOf (P ++ (nlText (xs ++ x :: L1 :: L2 :: ys) ++ R)) := by
    intro P L1 L2 x R xs ys h1 h2
    have e : P ++ (nlText (xs ++ x :: L1 :: L2 :: ys) ++ R) =
        (P ++ nlText xs ++ x) ++ '\n' :: (L1 ++ '\n' :: (L2 ++ '\n' :: (nlText ys ++ R))) := by
      simp [nlText]
    rw [e, linesOf_append, linesOf_append, linesOf_append, linesOf_line L1 h1, linesOf_line L2 h2]
    simp
  have k : ∀ R, _ := fun R => key (nlText [ruleLine, "C SDEF Card for Tokamak Neutron Source generated by:".toList,
      "C ".toList ++ cit.repository, ruleLine, "C".toList, ruleLine, "C Authors:".toList] ++
    (authorsText cit ++ ['\n'])) _ _ ruleLine R [ruleLine, "C".toList, ruleLine, "C Method:".toList,
      "C 1. Create a cylinder that encloses the entire torus.".toList,
      "C 2. Then slice the cylinder along the R-axis.".toList,
      "C 3. Finally, define the vertical distribution, assuming rotational symmetry.".toList,
      ruleLine, "C".toList] [ruleLine, "C".toList,
      "C 1. Neutron Emission Probability - Set up cylindrical source".toList, "C".toList] c1 c2
  simp only [List.append_assoc, List.cons_append, List.nil_append] at k ⊢
  exact ⟨(k _).1, formatE 6 f.total, _, (k _).2, readFloat_render 6 _ (sciOf_digits 6 _),
    le_trans (value_err 6 _) (le_of_eq (by norm_num))⟩

end
end TNS
