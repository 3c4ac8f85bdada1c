import Verif.Lemmas.SdefText
import Verif.Spec.SdefRead
/-
C67: the text of an SDEF file, read by the rules of MCNP input files, is the list of its cards.
-/

set_option autoImplicit false

namespace TNS
open Spec
noncomputable section

/-! ### Fields -/

theorem digitChar_plain (d : ℕ) (h : d < 10) : digitChar d ≠ '$' ∧ digitChar d ≠ 'C' ∧
    digitChar d ≠ 'c' := by
  interval_cases d <;> decide

theorem padDigits_plain (w n : ℕ) (c : Char) (h : c ∈ padDigits w n) : c ≠ '$' ∧ c ≠ 'C' ∧ c ≠ 'c' := by
  obtain ⟨l, e, h10, _⟩ := padDigits_spec w n
  rw [e] at h
  obtain ⟨d, hd, rfl⟩ := List.mem_map.1 h
  exact digitChar_plain d (h10 d (by simpa using hd))

theorem formatE_plain (p : ℕ) (x : ℝ) (c : Char) (h : c ∈ formatE p x) :
    c ≠ '$' ∧ c ≠ 'C' ∧ c ≠ 'c' := by
  unfold formatE Sci.render at h
  simp only [List.mem_append, List.mem_cons, List.not_mem_nil, or_false] at h
  rcases h with ((h | h) | h) | h
  · split at h
    · simp at h; subst h; decide
    · simp at h
  · have hm := padDigits_plain (p + 1) (sciOf p x).digits
    split at h
    · simp at h
    · rename_i c' cs hp
      rw [hp] at hm
      rcases List.mem_cons.1 h with rfl | h
      · exact hm _ (by simp)
      · rcases List.mem_cons.1 h with rfl | h
        · decide
        · exact hm _ (List.mem_cons_of_mem _ h)
  · rcases h with rfl | h
    · decide
    · subst h; split_ifs <;> decide
  · exact padDigits_plain 2 _ c h

theorem length_padDigits_le (w v n : ℕ) (hw : w ≤ v) (h : n < 10 ^ v) : (padDigits w n).length ≤ v := by
  have := (Nat.digits_length_le_iff (b := 10) (by norm_num) n).2 h
  unfold padDigits
  simp
  omega

theorem exp_range (p : ℕ) (x : ℝ) (h : InRange x) : (sciOf p x).exp.natAbs < 10 ^ 3 := by
  rcases h with rfl | ⟨h1, h2⟩
  · simp [sciOf]
  · have hpos : 0 < |x| := lt_of_lt_of_le (zpow_pos (by norm_num) _) h1
    have hx : x ≠ 0 := abs_pos.1 hpos
    have l1 : -400 ≤ Int.log 10 |x| :=
      (Int.zpow_le_iff_le_log (b := 10) (by norm_num) hpos).1 (by exact_mod_cast h1)
    have l2 : Int.log 10 |x| < 401 := by
      refine (Int.lt_zpow_iff_log_lt (b := 10) (by norm_num) hpos).1 (lt_of_le_of_lt h2 ?_)
      push_cast
      exact zpow_lt_zpow_right₀ (by norm_num) (by norm_num)
    unfold sciOf
    rw [if_neg hx]
    simp only
    split_ifs <;> simp only <;> omega

theorem formatE_len (p : ℕ) (x : ℝ) (h : InRange x) (hp : p ≤ 60) : (formatE p x).length ≤ 80 := by
  have h1 := length_padDigits (p + 1) _ (sciOf_digits p x)
  have h2 := length_padDigits_le 2 3 _ (by norm_num) (exp_range p x h)
  unfold formatE Sci.render
  rcases hd : padDigits (p + 1) (sciOf p x).digits with _ | ⟨c, cs⟩
  · rw [hd] at h1; simp at h1
  · rw [hd] at h1
    simp only [List.length_cons, Nat.add_right_cancel_iff] at h1
    split_ifs <;> simp [h1] <;> omega

/-- Fields as the cards have them. -/
def GoodField (x : List Char) : Prop := IsField x ∧ x.length ≤ 80 ∧ '$' ∉ x

theorem good_formatE (p : ℕ) (x : ℝ) (h : InRange x) (hp : p ≤ 60) : GoodField (formatE p x) :=
  ⟨⟨formatE_ne_nil p x, fun c hc => formatE_no_blank p x c hc⟩, formatE_len p x h hp,
    fun hc => (formatE_plain p x _ hc).1 rfl⟩

theorem padDigits_ne_nil (w n : ℕ) (hw : 0 < w) : padDigits w n ≠ [] := by
  obtain ⟨l, e, -, -, h, -⟩ := padDigits_spec w n
  rw [e]
  intro h0
  have : l = [] := by simpa using h0
  rw [this] at h
  simp at h; omega

theorem good_formatD (pre : List Char) (n : ℕ) (h : n < 10 ^ 40) (hp : ∀ c ∈ pre, c ≠ ' ' ∧ c ≠ '\n' ∧ c ≠ '$')
    (hl : pre.length ≤ 40) : GoodField (pre ++ formatD n) := by
  refine ⟨⟨?_, ?_⟩, ?_, ?_⟩
  · simp [formatD, padDigits_ne_nil 1 n (by norm_num)]
  · intro c hc
    rcases List.mem_append.1 hc with hc | hc
    · exact ⟨(hp c hc).1, (hp c hc).2.1⟩
    · exact (padDigits_mem 1 n c hc).2.2
  · have := length_padDigits_le 1 40 n (by norm_num) h
    simp only [formatD, List.length_append]; omega
  · intro hc
    rcases List.mem_append.1 hc with hc | hc
    · exact (hp _ hc).2.2 rfl
    · exact (padDigits_plain 1 n _ hc).1 rfl

/-- A wrapped card. -/
theorem Block.plain (w : ℕ) (words : List (List Char)) (indent : ℕ) (t : List Char)
    (hne : words ≠ []) (hg : ∀ x ∈ words, GoodField x) (hi : 6 ≤ indent) (hw : indent + 80 ≤ w)
    (hhead : ∀ x xs, words = x :: xs → x.head? ≠ some 'C' ∧ x.head? ≠ some 'c')
    (h : textWrap (joinBlank words) indent 80 1 = .ok t) : Block w t [words] := by
  have := Block.wrap w [] words indent t hne (by simp) (fun x hx => (hg x hx).1)
    (fun x hx => (hg x hx).2.1) (by simpa using fun x hx => (hg x hx).2.2) hi hw
    (by simp [joinBlank]; omega) (by simpa using hhead) h
  simpa using this

/-! ### The header -/

theorem label_clean (r : Neutronic) : ∀ c ∈ (Reaction.n r).label.toList, c ≠ '\n' := by
  cases r <;> decide

theorem formatE_nonl (p : ℕ) (x : ℝ) : ∀ c ∈ formatE p x, c ≠ '\n' :=
  fun c hc => (formatE_no_blank p x c hc).2

theorem cline_of (t : List Char) (h : ∀ c ∈ t, c ≠ '\n') : CLine ('C' :: ' ' :: t) :=
  ⟨.inr ⟨t, rfl⟩, by
    intro c hc
    rcases List.mem_cons.1 hc with rfl | hc
    · decide
    · rcases List.mem_cons.1 hc with rfl | hc
      · decide
      · exact h c hc⟩

theorem decl_block : Block 128 (nlText ["sdef erg=d2 par=1 wgt=1".toList,
      "      pos = 0 0 0    $ Center = origin".toList,
      "      axs = 0 0 1    $ Cylinder points along the Z axis".toList,
      "      rad = d3       $ radial distribution defined by distribution 3".toList,
      "      ext = frad d4  $ extent distribution defined by distribution 4 which is dependent on distribution rad".toList])
    [sdefDecl] := by
  refine ⟨_, rfl, by decide, by decide, ?_⟩
  intro cs
  simp only [List.map_cons, List.map_nil, List.foldr_cons, List.foldr_nil, List.singleton_append]
  unfold cardStep
  rw [if_neg (by decide), if_neg (by decide), if_neg (by decide), if_pos (by decide),
    if_neg (by decide), if_pos (by decide), if_neg (by decide), if_pos (by decide),
    if_neg (by decide), if_pos (by decide)]
  simp only [List.append_nil]
  congr 2

theorem authors_block (cit : Citation) (h : CleanCitation cit) :
    Block 128 (authorsText cit ++ ['\n']) [] := by
  have e : ∀ ls : List (List Char), ls ≠ [] → List.intercalate ['\n'] ls ++ ['\n'] = nlText ls := by
    intro ls
    induction ls with
    | nil => intro h; exact absurd rfl h
    | cons l ls ih =>
      intro _
      cases ls with
      | nil => simp [nlText, List.intercalate]
      | cons m ls =>
        rw [List.intercalate_cons_cons, List.append_assoc, List.append_assoc, ih (by simp)]
        simp [nlText]
  unfold authorsText
  rw [e _ (by simpa using h.1)]
  apply Block.comments 128 (by norm_num)
  intro l hl
  obtain ⟨a, ha, rfl⟩ := List.mem_map.1 hl
  obtain ⟨h1, h2, h3⟩ := h.2.2 a ha
  have : authorLine a = 'C' :: ' ' :: ("   ".toList ++ a.given ++ " ".toList ++ a.family ++ ",".toList ++
      " ".toList ++ a.affiliation) := rfl
  rw [this]
  apply cline_of
  intro c hc
  simp only [List.mem_append] at hc
  rcases hc with (((((hc | hc) | hc) | hc) | hc) | hc) | hc
  · revert c; decide
  · exact h1 c hc
  · revert c; decide
  · exact h2 c hc
  · revert c; decide
  · revert c; decide
  · exact h3 c hc

theorem one_line_block (c : Char) (t : List Char) (hc : c ≠ ' ' ∧ c ≠ 'C' ∧ c ≠ 'c')
    (hl : (c :: t).length ≤ 128) (hn : ∀ d ∈ c :: t, d ≠ '\n') (hd : ∀ d ∈ c :: t, d ≠ '$') :
    Block 128 (c :: t ++ ['\n']) [fieldsOf (c :: t)] := by
  have := Block.card 128 6 c t [] _ hc le_rfl hl (by simp) (by simpa using hn) (by simpa using hd)
    (by simp) rfl
  simpa [nlText] using this

theorem sp2_block (T : ℝ) (hT : InRange (T / 1000)) (k : List Char) (hk : GoodField k) :
    Block 128 ("SP2 -4 ".toList ++ formatE 6 (T / 1000) ++ (' ' :: k) ++ ['\n'])
      [["SP2".toList, "-4".toList, formatE 6 (T / 1000), k]] ∨ 30 < k.length := by
  by_cases hkl : 30 < k.length
  · exact .inr hkl
  left
  have hg := good_formatE 6 (T / 1000) hT (by norm_num)
  have hlen : (formatE 6 (T / 1000)).length ≤ 80 := hg.2.1
  have e : "SP2 -4 ".toList ++ formatE 6 (T / 1000) ++ (' ' :: k) ++ ['\n'] =
      'S' :: ("P2 -4 ".toList ++ formatE 6 (T / 1000) ++ (' ' :: k)) ++ ['\n'] := rfl
  have b := one_line_block 'S' ("P2 -4 ".toList ++ formatE 6 (T / 1000) ++ (' ' :: k)) (by decide)
    (by simp; omega)
    (by
      intro d hd
      rcases List.mem_cons.1 hd with rfl | hd
      · decide
      · rcases List.mem_append.1 hd with hd | hd
        · rcases List.mem_append.1 hd with hd | hd
          · exact (by decide : ∀ d ∈ "P2 -4 ".toList, d ≠ '\n') d hd
          · exact formatE_nonl 6 _ d hd
        · rcases List.mem_cons.1 hd with rfl | hd
          · decide
          · exact (hk.1.2 d hd).2)
    (by
      intro d hd
      rcases List.mem_cons.1 hd with rfl | hd
      · decide
      · rcases List.mem_append.1 hd with hd | hd
        · rcases List.mem_append.1 hd with hd | hd
          · exact (by decide : ∀ d ∈ "P2 -4 ".toList, d ≠ '$') d hd
          · exact (formatE_plain 6 _ d hd).1
        · rcases List.mem_cons.1 hd with rfl | hd
          · decide
          · intro h0; exact hk.2.2 (h0 ▸ hd))
  have f : fieldsOf ('S' :: ("P2 -4 ".toList ++ formatE 6 (T / 1000) ++ (' ' :: k))) =
      ["SP2".toList, "-4".toList, formatE 6 (T / 1000), k] := by
    have : 'S' :: ("P2 -4 ".toList ++ formatE 6 (T / 1000) ++ (' ' :: k)) =
        joinBlank ["SP2".toList, "-4".toList, formatE 6 (T / 1000), k] := by
      simp [joinBlank, List.intercalate]
    rw [this, fieldsOf_join]
    intro x hx
    simp only [List.mem_cons, List.not_mem_nil, or_false] at hx
    rcases hx with rfl | rfl | rfl | rfl
    · exact ⟨by decide, by decide⟩
    · exact ⟨by decide, by decide⟩
    · exact hg.1
    · exact hk.1
  rw [f] at b
  rw [e]
  exact b

theorem energy_block (r : Neutronic) (T : ℝ) (hT : InRange (T / 1000)) (pairs : List (ℝ × ℝ))
    (log : List LogMsg)
    (hp : r = .T_T → energySpectrum T (.n .T_T) .DATA = .ok (some pairs, log) ∧
      ∀ q ∈ pairs, InRange (q.1 / 1000) ∧ InRange q.2)
    (t : List Char) (h : energyText r (.fin T) = .ok t) :
    Block 128 t (energyFields r T pairs) := by
  cases r with
  | D_T =>
    obtain rfl := Except.ok.inj h
    rcases sp2_block T hT "-1".toList ⟨⟨by decide, by decide⟩, by decide, by decide⟩ with b | b
    · exact b
    · exact absurd b (by decide)
  | D_D =>
    obtain rfl := Except.ok.inj h
    rcases sp2_block T hT "-2".toList ⟨⟨by decide, by decide⟩, by decide, by decide⟩ with b | b
    · exact b
    · exact absurd b (by decide)
  | T_T =>
    obtain ⟨hs, hr⟩ := hp rfl
    have hz : InRange (0 : ℝ) := .inl rfl
    unfold energyText at h
    simp only [hs, bind, Except.bind] at h
    have g1 : ∀ x ∈ formatE 5 (0 : ℝ) :: (pairs.map (fun q => q.1 / 1000)).map (formatE 5),
        GoodField x := by
      intro x hx
      rcases List.mem_cons.1 hx with rfl | hx
      · exact good_formatE 5 _ hz (by norm_num)
      · simp only [List.map_map, List.mem_map] at hx
        obtain ⟨q, hq, rfl⟩ := hx
        exact good_formatE 5 _ (hr q hq).1 (by norm_num)
    have g2 : ∀ x ∈ formatE 5 (0 : ℝ) :: (pairs.map (fun q => q.2)).map (formatE 5), GoodField x := by
      intro x hx
      rcases List.mem_cons.1 hx with rfl | hx
      · exact good_formatE 5 _ hz (by norm_num)
      · simp only [List.map_map, List.mem_map] at hx
        obtain ⟨q, hq, rfl⟩ := hx
        exact good_formatE 5 _ (hr q hq).2 (by norm_num)
    have wr : ∀ (pre words : List (List Char)) (a b : List Char), pre = [a, b] → words ≠ [] →
        (∀ x ∈ pre, GoodField x) → (joinBlank pre).length + 81 ≤ 128 → a.head? = some 'S' →
        (∀ x ∈ words, GoodField x) → ∀ t, textWrap (joinBlank words) 6 80 1 = .ok t →
        Block 128 (joinBlank pre ++ [' '] ++ t) [pre ++ words] := by
      intro pre words a b hpre hne hgp hl hh hg t ht
      have := Block.wrap 128 pre words 6 t hne (fun x hx => (hgp x hx).1) (fun x hx => (hg x hx).1)
        (fun x hx => (hg x hx).2.1) (by
          intro x hx
          rcases List.mem_append.1 hx with hx | hx
          · exact (hgp x hx).2.2
          · exact (hg x hx).2.2) le_rfl (by norm_num) hl (by
          intro x xs hx
          rw [hpre] at hx
          simp only [List.cons_append] at hx
          rw [← (List.cons.inj hx).1, hh]
          decide) ht
      rwa [if_neg (by rw [hpre]; simp)] at this
    split at h
    · cases h
    · rename_i si hsi
      split at h
      · cases h
      · rename_i sp hsp
        obtain rfl := Except.ok.inj h
        have b1 := wr ["SI2".toList, "H".toList] _ _ _ rfl (by simp)
          (by intro x hx; simp at hx; rcases hx with rfl | rfl <;> exact ⟨⟨by decide, by decide⟩, by decide, by decide⟩)
          (by decide) rfl g1 si hsi
        have b2 := wr ["SP2".toList, "D".toList] _ _ _ rfl (by simp)
          (by intro x hx; simp at hx; rcases hx with rfl | rfl <;> exact ⟨⟨by decide, by decide⟩, by decide, by decide⟩)
          (by decide) rfl g2 sp hsp
        have b := b1.append b2
        simpa [energyFields, List.map_map, Function.comp_def, joinBlank, List.intercalate] using b

theorem header_block (cit : Citation) (hc : CleanCitation cit) (r : Neutronic) (total T : ℝ)
    (hT : InRange (T / 1000)) (pairs : List (ℝ × ℝ)) (log : List LogMsg)
    (hp : r = .T_T → energySpectrum T (.n .T_T) .DATA = .ok (some pairs, log) ∧
      ∀ q ∈ pairs, InRange (q.1 / 1000) ∧ InRange q.2)
    (t : List Char) (h : sdefHeader cit r total (.fin T) = .ok t) :
    Block 128 t (sdefDecl :: energyFields r T pairs) := by
  unfold sdefHeader at h
  cases he : energyText r (.fin T) with
  | error e => rw [he] at h; simp [bind, Except.bind] at h
  | ok d =>
    rw [he] at h
    simp only [bind, Except.bind] at h
    obtain rfl := Except.ok.inj h
    have be := energy_block r T hT pairs log hp d he
    have c0 : ∀ s : List Char, s = ['C'] → CLine s := by
      rintro s rfl; exact ⟨.inl rfl, by decide⟩
    have cr : CLine ruleLine := cline_of _ (by decide)
    have b1 : Block 128 (nlText [ruleLine, "C SDEF Card for Tokamak Neutron Source generated by:".toList,
      "C ".toList ++ cit.repository, ruleLine, "C".toList, ruleLine, "C Authors:".toList]) [] := by
      apply Block.comments 128 (by norm_num)
      intro l hl
      simp only [List.mem_cons, List.not_mem_nil, or_false] at hl
      rcases hl with rfl | rfl | rfl | rfl | rfl | rfl | rfl
      · exact cr
      · exact cline_of _ (by decide)
      · exact cline_of _ hc.2.1
      · exact cr
      · exact c0 _ rfl
      · exact cr
      · exact cline_of _ (by decide)
    have b2 : Block 128 (nlText [ruleLine, "C".toList, ruleLine, "C Method:".toList,
      "C 1. Create a cylinder that encloses the entire torus.".toList,
      "C 2. Then slice the cylinder along the R-axis.".toList,
      "C 3. Finally, define the vertical distribution, assuming rotational symmetry.".toList,
      ruleLine, "C".toList, ruleLine,
      "C Reaction channel: ".toList ++ (Reaction.n r).label.toList,
      "C Total source neutrons: ".toList ++ formatE 6 total ++ " n/s".toList,
      ruleLine, "C".toList,
      "C 1. Neutron Emission Probability - Set up cylindrical source".toList, "C".toList]) [] := by
      apply Block.comments 128 (by norm_num)
      intro l hl
      simp only [List.mem_cons, List.not_mem_nil, or_false] at hl
      rcases hl with rfl | rfl | rfl | rfl | rfl | rfl | rfl | rfl | rfl | rfl | rfl | rfl | rfl | rfl | rfl | rfl
      · exact cr
      · exact c0 _ rfl
      · exact cr
      · exact cline_of _ (by decide)
      · exact cline_of _ (by decide)
      · exact cline_of _ (by decide)
      · exact cline_of _ (by decide)
      · exact cr
      · exact c0 _ rfl
      · exact cr
      · refine cline_of ("Reaction channel: ".toList ++ (Reaction.n r).label.toList) ?_
        intro c hc
        rcases List.mem_append.1 hc with hc | hc
        · exact (by decide : ∀ d ∈ "Reaction channel: ".toList, d ≠ '\n') c hc
        · exact label_clean r c hc
      · refine cline_of ("Total source neutrons: ".toList ++ formatE 6 total ++ " n/s".toList) ?_
        intro c hc
        rcases List.mem_append.1 hc with hc | hc
        · rcases List.mem_append.1 hc with hc | hc
          · exact (by decide : ∀ d ∈ "Total source neutrons: ".toList, d ≠ '\n') c hc
          · exact formatE_nonl 6 _ c hc
        · exact (by decide : ∀ d ∈ " n/s".toList, d ≠ '\n') c hc
      · exact cr
      · exact c0 _ rfl
      · exact cline_of _ (by decide)
      · exact c0 _ rfl
    have b3 : Block 128 (nlText ["C".toList,
        "C 2. Neutron Emission Probability - Radial Distribution".toList, "C".toList]) [] := by
      apply Block.comments 128 (by norm_num)
      intro l hl
      simp only [List.mem_cons, List.not_mem_nil, or_false] at hl
      rcases hl with rfl | rfl | rfl
      · exact c0 _ rfl
      · exact cline_of _ (by decide)
      · exact c0 _ rfl
    have := ((((b1.append (authors_block cit hc)).append b2).append decl_block).append be).append b3
    simpa using this

/-! ### The position cards -/

theorem good_short (s : List Char) (h1 : s ≠ []) (h2 : ∀ c ∈ s, c ≠ ' ' ∧ c ≠ '\n') (h3 : s.length ≤ 80)
    (h4 : '$' ∉ s) : GoodField s := ⟨⟨h1, h2⟩, h3, h4⟩

theorem good_card (a b : List Char) (l : List ℝ) (ha : GoodField a) (hb : GoodField b)
    (hl : ∀ x ∈ l, InRange x) : ∀ x ∈ a :: b :: l.map (formatE 5), GoodField x := by
  intro x hx
  rcases List.mem_cons.1 hx with rfl | hx
  · exact ha
  · rcases List.mem_cons.1 hx with rfl | hx
    · exact hb
    · obtain ⟨y, hy, rfl⟩ := List.mem_map.1 hx
      exact good_formatE 5 y (hl y hy) (by norm_num)

theorem vertical_block (v : ℕ × List ℝ × List ℝ) (hv : (0 < v.1 ∧ v.1 < 10 ^ 40) ∧
    (∀ x ∈ v.2.1, InRange x) ∧ ∀ x ∈ v.2.2, InRange x) (t : List Char) (h : verticalText v = .ok t) :
    Block 128 t [("SI".toList ++ formatD v.1) :: "H".toList :: v.2.1.map (formatE 5),
      ("SP".toList ++ formatD v.1) :: "D".toList :: v.2.2.map (formatE 5)] := by
  obtain ⟨⟨h0, hN⟩, h1, h2⟩ := hv
  have hi : indentOffset v.1 + 80 ≤ 128 := by
    have := (Nat.digits_length_le_iff (b := 10) (by norm_num) v.1).2 hN
    unfold indentOffset; omega
  unfold verticalText at h
  simp only [bind, Except.bind] at h
  split at h
  · cases h
  · rename_i si hsi
    split at h
    · cases h
    · rename_i sp hsp
      obtain rfl := Except.ok.inj h
      have b1 := Block.plain 128 _ _ si (by simp) (good_card _ _ v.2.1
        (good_formatD "SI".toList v.1 hN (by decide) (by decide))
        (good_short _ (by decide) (by decide) (by decide) (by decide)) h1) (C26_indent v.1 h0) hi
        (by intro x xs hx; rw [← (List.cons.inj hx).1]; simp) hsi
      have b2 := Block.plain 128 _ _ sp (by simp) (good_card _ _ v.2.2
        (good_formatD "SP".toList v.1 hN (by decide) (by decide))
        (good_short _ (by decide) (by decide) (by decide) (by decide)) h2) (C26_indent v.1 h0) hi
        (by intro x xs hx; rw [← (List.cons.inj hx).1]; simp) hsp
      exact b1.append b2

/-- **C67.**  The text of an SDEF file, read with the rules of MCNP input (comment lines, `$` comments,
continuation lines, a blank line ends the input, 128 columns), consists of exactly these cards: the
fixed source card, the energy cards, and the position cards with every number in its place. -/
theorem C67_cards (cit : Citation) (hc : CleanCitation cit) (r : Neutronic) (f : SdefFile ℝ) (T : ℝ)
    (hfT : f.ionTemp = .fin T) (hT : InRange (T / 1000)) (hp : Printable f.cards)
    (pairs : List (ℝ × ℝ)) (log : List LogMsg)
    (htt : r = .T_T → energySpectrum T (.n .T_T) .DATA = .ok (some pairs, log) ∧
      ∀ q ∈ pairs, InRange (q.1 / 1000) ∧ InRange q.2)
    (text : List Char) (h : sdefText cit r f = .ok text) :
    readCards 128 text = sdefDecl :: energyFields r T pairs ++ positionFields f.cards := by
  obtain ⟨p1, p2, p3, p4⟩ := hp
  unfold sdefText at h
  rw [hfT] at h
  simp only [bind, Except.bind] at h
  split at h
  · cases h
  rename_i hd hhd
  split at h
  · cases h
  rename_i si hsi
  split at h
  · cases h
  rename_i sp hsp
  split at h
  · cases h
  rename_i ds hds
  split at h
  · cases h
  rename_i vs hvs
  obtain rfl := Except.ok.inj h
  apply Block.read
  have b0 := header_block cit hc r f.total T hT pairs log htt hd hhd
  have b1 := Block.plain 128 _ 6 si (by simp) (good_card _ _ f.cards.si3
    (good_short _ (by decide) (by decide) (by decide) (by decide))
    (good_short _ (by decide) (by decide) (by decide) (by decide)) p1) le_rfl (by norm_num)
    (by intro x xs hx; rw [← (List.cons.inj hx).1]; decide) hsi
  have b2 := Block.plain 128 _ 6 sp (by simp) (good_card _ _ f.cards.sp3
    (good_short _ (by decide) (by decide) (by decide) (by decide))
    (good_short _ (by decide) (by decide) (by decide) (by decide)) p2) le_rfl (by norm_num)
    (by intro x xs hx; rw [← (List.cons.inj hx).1]; decide) hsp
  have b3 := Block.plain 128 _ 6 ds (by simp) (by
      intro x hx
      rcases List.mem_cons.1 hx with rfl | hx
      · exact good_short _ (by decide) (by decide) (by decide) (by decide)
      · rcases List.mem_cons.1 hx with rfl | hx
        · exact good_short _ (by decide) (by decide) (by decide) (by decide)
        · obtain ⟨n, hn, rfl⟩ := List.mem_map.1 hx
          exact good_formatD [] n (p3 n hn).2 (by simp) (by simp)) le_rfl (by norm_num)
    (by intro x xs hx; rw [← (List.cons.inj hx).1]; decide) hds
  have b4 : Block 128 (nlText ["C".toList,
      "C 3. Neutron Emission Probability - Vertical Distribution".toList, "C".toList]) [] := by
    apply Block.comments 128 (by norm_num)
    intro l hl
    simp only [List.mem_cons, List.not_mem_nil, or_false] at hl
    rcases hl with rfl | rfl | rfl
    · exact ⟨.inl rfl, by decide⟩
    · exact cline_of _ (by decide)
    · exact ⟨.inl rfl, by decide⟩
  have b5 : Block 128 vs.flatten (f.cards.vertical.flatMap (fun v =>
      [("SI".toList ++ formatD v.1) :: "H".toList :: v.2.1.map (formatE 5),
      ("SP".toList ++ formatD v.1) :: "D".toList :: v.2.2.map (formatE 5)])) := by
    have key : ∀ (l : List (ℕ × List ℝ × List ℝ)) (vs : List (List Char)), l.mapM verticalText = .ok vs →
        (∀ v ∈ l, (0 < v.1 ∧ v.1 < 10 ^ 40) ∧ (∀ x ∈ v.2.1, InRange x) ∧ ∀ x ∈ v.2.2, InRange x) →
        Block 128 vs.flatten (l.flatMap (fun v =>
          [("SI".toList ++ formatD v.1) :: "H".toList :: v.2.1.map (formatE 5),
            ("SP".toList ++ formatD v.1) :: "D".toList :: v.2.2.map (formatE 5)])) := by
      intro l
      induction l with
      | nil =>
        intro vs hvs _
        obtain rfl : vs = [] := by simpa [pure, Except.pure] using hvs.symm
        exact Block.nil 128
      | cons v l ih =>
        intro vs hvs hall
        rw [List.mapM_cons] at hvs
        simp only [bind, Except.bind] at hvs
        split at hvs
        · cases hvs
        rename_i tv htv
        split at hvs
        · cases hvs
        rename_i ts hts
        obtain rfl : tv :: ts = vs := Except.ok.inj hvs
        have := (vertical_block v (hall v (by simp)) tv htv).append
          (ih ts hts (fun w hw => hall w (List.mem_cons_of_mem _ hw)))
        simpa using this
    exact key _ _ hvs p4
  have := ((((b0.append b1).append b2).append b3).append b4).append b5
  simpa [positionFields] using this

end
end TNS
