import Verif.Model.RoundedSdefText
import Verif.Spec.RoundedSdefText
import Verif.Props.SdefRead
import Verif.Props.EnergyLaw
import Verif.Props.RoundedExport
import Verif.Props.RoundedTTC107
import Verif.Props.RoundedInput
/-
C111: the text of the SDEF files, energy cards included, in floating point.
-/

set_option autoImplicit false

namespace TNS
open Spec
noncomputable section

/-! ### The text for given energy cards, as in `Verif.Props.SdefText` -/

/-- The two T-T cards. -/
theorem tt_cards (T : ℝ) (pairs : List (ℝ × ℝ)) (hr : ∀ q ∈ pairs, InRange (q.1 / 1000) ∧ InRange q.2)
    (t : List Char) (h : (do
      let si ← textWrap (joinBlank (formatE 5 (0 : ℝ) :: (pairs.map (fun q => q.1 / 1000)).map (formatE 5))) 6 80 1
      let sp ← textWrap (joinBlank (formatE 5 (0 : ℝ) :: (pairs.map (fun q => q.2)).map (formatE 5))) 6 80 1
      .ok ("SI2 H ".toList ++ si ++ ("SP2 D ".toList ++ sp)) : Except Err (List Char)) = .ok t) :
    Block 128 t (energyFields .T_T T pairs) := by
  have hz : InRange (0 : ℝ) := .inl rfl
  simp only [bind, Except.bind] at h
  have g1 : ∀ x ∈ formatE 5 (0 : ℝ) :: (pairs.map (fun q => q.1 / 1000)).map (formatE 5),
      GoodField x := by
    intro x hx
    rcases List.mem_cons.1 hx with rfl | hx
    · exact good_formatE 5 _ hz (by norm_num)
    · simp only [List.map_map, List.mem_map] at hx
      obtain ⟨q, hq, rfl⟩ := hx
      exact good_formatE 5 _ (hr q hq).1 (by norm_num)
  have g2 : ∀ x ∈ formatE 5 (0 : ℝ) :: (pairs.map (fun q => q.2)).map (formatE 5), GoodField x := by
    intro x hx
    rcases List.mem_cons.1 hx with rfl | hx
    · exact good_formatE 5 _ hz (by norm_num)
    · simp only [List.map_map, List.mem_map] at hx
      obtain ⟨q, hq, rfl⟩ := hx
      exact good_formatE 5 _ (hr q hq).2 (by norm_num)
  have wr : ∀ (pre words : List (List Char)) (a b : List Char), pre = [a, b] → words ≠ [] →
      (∀ x ∈ pre, GoodField x) → (joinBlank pre).length + 81 ≤ 128 → a.head? = some 'S' →
      (∀ x ∈ words, GoodField x) → ∀ t, textWrap (joinBlank words) 6 80 1 = .ok t →
      Block 128 (joinBlank pre ++ [' '] ++ t) [pre ++ words] := by
    intro pre words a b hpre hne hgp hl hh hg t ht
    have := Block.wrap 128 pre words 6 t hne (fun x hx => (hgp x hx).1) (fun x hx => (hg x hx).1)
      (fun x hx => (hg x hx).2.1) (by
        intro x hx
        rcases List.mem_append.1 hx with hx | hx
        · exact (hgp x hx).2.2
        · exact (hg x hx).2.2) le_rfl (by norm_num) hl (by
        intro x xs hx
        rw [hpre] at hx
        simp only [List.cons_append] at hx
        rw [← (List.cons.inj hx).1, hh]
        decide) ht
    rwa [if_neg (by rw [hpre]; simp)] at this
  split at h
  · cases h
  · rename_i si hsi
    split at h
    · cases h
    · rename_i sp hsp
      obtain rfl := Except.ok.inj h
      have b1 := wr ["SI2".toList, "H".toList] _ _ _ rfl (by simp)
        (by intro x hx; simp at hx; rcases hx with rfl | rfl <;> exact ⟨⟨by decide, by decide⟩, by decide, by decide⟩)
        (by decide) rfl g1 si hsi
      have b2 := wr ["SP2".toList, "D".toList] _ _ _ rfl (by simp)
        (by intro x hx; simp at hx; rcases hx with rfl | rfl <;> exact ⟨⟨by decide, by decide⟩, by decide, by decide⟩)
        (by decide) rfl g2 sp hsp
      have b := b1.append b2
      simpa [energyFields, List.map_map, Function.comp_def, joinBlank, List.intercalate] using b

theorem tt_cards_ok (pairs : List (ℝ × ℝ)) (hr : ∀ q ∈ pairs, InRange (q.1 / 1000) ∧ InRange q.2) : ∃ t, (do
      let si ← textWrap (joinBlank (formatE 5 (0 : ℝ) :: (pairs.map (fun q => q.1 / 1000)).map (formatE 5))) 6 80 1
      let sp ← textWrap (joinBlank (formatE 5 (0 : ℝ) :: (pairs.map (fun q => q.2)).map (formatE 5))) 6 80 1
      .ok ("SI2 H ".toList ++ si ++ ("SP2 D ".toList ++ sp)) : Except Err (List Char)) = .ok t := by
  have hz : InRange (0 : ℝ) := .inl rfl
  have g1 : ∀ x ∈ formatE 5 (0 : ℝ) :: (pairs.map (fun q => q.1 / 1000)).map (formatE 5),
      GoodField x := by
    intro x hx
    rcases List.mem_cons.1 hx with rfl | hx
    · exact good_formatE 5 _ hz (by norm_num)
    · simp only [List.map_map, List.mem_map] at hx
      obtain ⟨q, hq, rfl⟩ := hx
      exact good_formatE 5 _ (hr q hq).1 (by norm_num)
  have g2 : ∀ x ∈ formatE 5 (0 : ℝ) :: (pairs.map (fun q => q.2)).map (formatE 5), GoodField x := by
    intro x hx
    rcases List.mem_cons.1 hx with rfl | hx
    · exact good_formatE 5 _ hz (by norm_num)
    · simp only [List.map_map, List.mem_map] at hx
      obtain ⟨q, hq, rfl⟩ := hx
      exact good_formatE 5 _ (hr q hq).2 (by norm_num)
  obtain ⟨t1, h1⟩ := textWrap_good _ 6 (by simp) g1 le_rfl
  obtain ⟨t2, h2⟩ := textWrap_good _ 6 (by simp) g2 le_rfl
  simp only [bind, Except.bind, h1, h2]
  exact ⟨_, rfl⟩

theorem headerR_block (A : Arith) (ke ks km : ℝ) (cit : Citation) (hc : CleanCitation cit) (r : Neutronic) (total T : ℝ)
    {F : List (List (List Char))} (hd : ∀ d, energyTextR A ke ks km r (.fin T) = .ok d → Block 128 d F)
    (t : List Char) (h : sdefHeaderR A ke ks km cit r total (.fin T) = .ok t) :
    Block 128 t (sdefDecl :: F) := by
  unfold sdefHeaderR at h
  cases he : energyTextR A ke ks km r (.fin T) with
  | error e => rw [he] at h; simp [bind, Except.bind] at h
  | ok d =>
    rw [he] at h
    simp only [bind, Except.bind] at h
    obtain rfl := Except.ok.inj h
    have be := hd d he
    have c0 : ∀ s : List Char, s = ['C'] → CLine s := by
      rintro s rfl; exact ⟨.inl rfl, by decide⟩
    have cr : CLine ruleLine := cline_of _ (by decide)
    have b1 : Block 128 (nlText [ruleLine, "C SDEF Card for Tokamak Neutron Source generated by:".toList,
      "C ".toList ++ cit.repository, ruleLine, "C".toList, ruleLine, "C Authors:".toList]) [] := by
      apply Block.comments 128 (by norm_num)
      intro l hl
      simp only [List.mem_cons, List.not_mem_nil, or_false] at hl
      rcases hl with rfl | rfl | rfl | rfl | rfl | rfl | rfl
      · exact cr
      · exact cline_of _ (by decide)
      · exact cline_of _ hc.2.1
      · exact cr
      · exact c0 _ rfl
      · exact cr
      · exact cline_of _ (by decide)
    have b2 : Block 128 (nlText [ruleLine, "C".toList, ruleLine, "C Method:".toList,
      "C 1. Create a cylinder that encloses the entire torus.".toList,
      "C 2. Then slice the cylinder along the R-axis.".toList,
      "C 3. Finally, define the vertical distribution, assuming rotational symmetry.".toList,
      ruleLine, "C".toList, ruleLine,
      "C Reaction channel: ".toList ++ (Reaction.n r).label.toList,
      "C Total source neutrons: ".toList ++ formatE 6 total ++ " n/s".toList,
      ruleLine, "C".toList,
      "C 1. Neutron Emission Probability - Set up cylindrical source".toList, "C".toList]) [] := by
      apply Block.comments 128 (by norm_num)
      intro l hl
      simp only [List.mem_cons, List.not_mem_nil, or_false] at hl
      rcases hl with rfl | rfl | rfl | rfl | rfl | rfl | rfl | rfl | rfl | rfl | rfl | rfl | rfl | rfl | rfl | rfl
      · exact cr
      · exact c0 _ rfl
      · exact cr
      · exact cline_of _ (by decide)
      · exact cline_of _ (by decide)
      · exact cline_of _ (by decide)
      · exact cline_of _ (by decide)
      · exact cr
      · exact c0 _ rfl
      · exact cr
      · refine cline_of ("Reaction channel: ".toList ++ (Reaction.n r).label.toList) ?_
        intro c hc
        rcases List.mem_append.1 hc with hc | hc
        · exact (by decide : ∀ d ∈ "Reaction channel: ".toList, d ≠ '\n') c hc
        · exact label_clean r c hc
      · refine cline_of ("Total source neutrons: ".toList ++ formatE 6 total ++ " n/s".toList) ?_
        intro c hc
        rcases List.mem_append.1 hc with hc | hc
        · rcases List.mem_append.1 hc with hc | hc
          · exact (by decide : ∀ d ∈ "Total source neutrons: ".toList, d ≠ '\n') c hc
          · exact formatE_nonl 6 _ c hc
        · exact (by decide : ∀ d ∈ " n/s".toList, d ≠ '\n') c hc
      · exact cr
      · exact c0 _ rfl
      · exact cline_of _ (by decide)
      · exact c0 _ rfl
    have b3 : Block 128 (nlText ["C".toList,
        "C 2. Neutron Emission Probability - Radial Distribution".toList, "C".toList]) [] := by
      apply Block.comments 128 (by norm_num)
      intro l hl
      simp only [List.mem_cons, List.not_mem_nil, or_false] at hl
      rcases hl with rfl | rfl | rfl
      · exact c0 _ rfl
      · exact cline_of _ (by decide)
      · exact c0 _ rfl
    have := ((((b1.append (authors_block cit hc)).append b2).append decl_block).append be).append b3
    simpa using this

theorem cardsR (A : Arith) (ke ks km : ℝ) (cit : Citation) (hc : CleanCitation cit) (r : Neutronic) (f : SdefFile ℝ) (T : ℝ)
    (hfT : f.ionTemp = .fin T) (hp : Printable f.cards) {F : List (List (List Char))}
    (hd : ∀ d, energyTextR A ke ks km r (.fin T) = .ok d → Block 128 d F)
    (text : List Char) (h : sdefTextR A ke ks km cit r f = .ok text) :
    readCards 128 text = sdefDecl :: F ++ positionFields f.cards := by
  obtain ⟨p1, p2, p3, p4⟩ := hp
  unfold sdefTextR at h
  rw [hfT] at h
  simp only [bind, Except.bind] at h
  split at h
  · cases h
  rename_i hh hhd
  split at h
  · cases h
  rename_i si hsi
  split at h
  · cases h
  rename_i sp hsp
  split at h
  · cases h
  rename_i ds hds
  split at h
  · cases h
  rename_i vs hvs
  obtain rfl := Except.ok.inj h
  apply Block.read
  have b0 := headerR_block A ke ks km cit hc r f.total T hd hh hhd
  have b1 := Block.plain 128 _ 6 si (by simp) (good_card _ _ f.cards.si3
    (good_short _ (by decide) (by decide) (by decide) (by decide))
    (good_short _ (by decide) (by decide) (by decide) (by decide)) p1) le_rfl (by norm_num)
    (by intro x xs hx; rw [← (List.cons.inj hx).1]; decide) hsi
  have b2 := Block.plain 128 _ 6 sp (by simp) (good_card _ _ f.cards.sp3
    (good_short _ (by decide) (by decide) (by decide) (by decide))
    (good_short _ (by decide) (by decide) (by decide) (by decide)) p2) le_rfl (by norm_num)
    (by intro x xs hx; rw [← (List.cons.inj hx).1]; decide) hsp
  have b3 := Block.plain 128 _ 6 ds (by simp) (by
      intro x hx
      rcases List.mem_cons.1 hx with rfl | hx
      · exact good_short _ (by decide) (by decide) (by decide) (by decide)
      · rcases List.mem_cons.1 hx with rfl | hx
        · exact good_short _ (by decide) (by decide) (by decide) (by decide)
        · obtain ⟨n, hn, rfl⟩ := List.mem_map.1 hx
          exact good_formatD [] n (p3 n hn).2 (by simp) (by simp)) le_rfl (by norm_num)
    (by intro x xs hx; rw [← (List.cons.inj hx).1]; decide) hds
  have b4 : Block 128 (nlText ["C".toList,
      "C 3. Neutron Emission Probability - Vertical Distribution".toList, "C".toList]) [] := by
    apply Block.comments 128 (by norm_num)
    intro l hl
    simp only [List.mem_cons, List.not_mem_nil, or_false] at hl
    rcases hl with rfl | rfl | rfl
    · exact ⟨.inl rfl, by decide⟩
    · exact cline_of _ (by decide)
    · exact ⟨.inl rfl, by decide⟩
  have b5 : Block 128 vs.flatten (f.cards.vertical.flatMap (fun v =>
      [("SI".toList ++ formatD v.1) :: "H".toList :: v.2.1.map (formatE 5),
      ("SP".toList ++ formatD v.1) :: "D".toList :: v.2.2.map (formatE 5)])) := by
    have key : ∀ (l : List (ℕ × List ℝ × List ℝ)) (vs : List (List Char)), l.mapM verticalText = .ok vs →
        (∀ v ∈ l, (0 < v.1 ∧ v.1 < 10 ^ 40) ∧ (∀ x ∈ v.2.1, InRange x) ∧ ∀ x ∈ v.2.2, InRange x) →
        Block 128 vs.flatten (l.flatMap (fun v =>
          [("SI".toList ++ formatD v.1) :: "H".toList :: v.2.1.map (formatE 5),
            ("SP".toList ++ formatD v.1) :: "D".toList :: v.2.2.map (formatE 5)])) := by
      intro l
      induction l with
      | nil =>
        intro vs hvs _
        obtain rfl : vs = [] := by simpa [pure, Except.pure] using hvs.symm
        exact Block.nil 128
      | cons v l ih =>
        intro vs hvs hall
        rw [List.mapM_cons] at hvs
        simp only [bind, Except.bind] at hvs
        split at hvs
        · cases hvs
        rename_i tv htv
        split at hvs
        · cases hvs
        rename_i ts hts
        obtain rfl : tv :: ts = vs := Except.ok.inj hvs
        have := (vertical_block v (hall v (by simp)) tv htv).append
          (ih ts hts (fun w hw => hall w (List.mem_cons_of_mem _ hw)))
        simpa using this
    exact key _ _ hvs p4
  have := ((((b0.append b1).append b2).append b3).append b4).append b5
  simpa [positionFields] using this


theorem sdefTextR_ok (A : Arith) (ke ks km : ℝ) (cit : Citation) (r : Neutronic) (f : SdefFile ℝ) (T : ℝ)
    (hfT : f.ionTemp = .fin T) (hp : Printable f.cards) {te : List Char}
    (he : energyTextR A ke ks km r (.fin T) = .ok te) : ∃ t, sdefTextR A ke ks km cit r f = .ok t := by
  obtain ⟨p1, p2, p3, p4⟩ := hp
  obtain ⟨t1, h1⟩ := textWrap_good _ 6 (by simp) (good_card _ _ f.cards.si3 good_SI3 good_H p1) le_rfl
  obtain ⟨t2, h2⟩ := textWrap_good _ 6 (by simp) (good_card _ _ f.cards.sp3 good_SP3 good_D p2) le_rfl
  have g3 : ∀ x ∈ "DS4".toList :: "S".toList :: f.cards.ds4.map formatD, GoodField x := by
    intro x hx
    rcases List.mem_cons.1 hx with rfl | hx
    · exact good_DS4
    · rcases List.mem_cons.1 hx with rfl | hx
      · exact good_S
      · obtain ⟨n, hn, rfl⟩ := List.mem_map.1 hx
        exact good_formatD [] n (p3 n hn).2 (by simp) (by simp)
  obtain ⟨t3, h3⟩ := textWrap_good _ 6 (by simp) g3 le_rfl
  have hv : ∀ l : List (ℕ × List ℝ × List ℝ), (∀ v ∈ l, (0 < v.1 ∧ v.1 < 10 ^ 40) ∧
      (∀ x ∈ v.2.1, InRange x) ∧ ∀ x ∈ v.2.2, InRange x) → ∃ vs, l.mapM verticalText = .ok vs := by
    intro l
    induction l with
    | nil => intro _; exact ⟨[], rfl⟩
    | cons v l ih =>
      intro hall
      obtain ⟨vs, hvs⟩ := ih (fun w hw => hall w (List.mem_cons_of_mem _ hw))
      obtain ⟨⟨h0, hN⟩, a, b⟩ := hall v (by simp)
      obtain ⟨s1, e1⟩ := textWrap_good _ (indentOffset v.1) (by simp) (good_card _ _ v.2.1
        (good_formatD "SI".toList v.1 hN (by decide) (by decide)) good_H a) (C26_indent v.1 h0)
      obtain ⟨s2, e2⟩ := textWrap_good _ (indentOffset v.1) (by simp) (good_card _ _ v.2.2
        (good_formatD "SP".toList v.1 hN (by decide) (by decide)) good_D b) (C26_indent v.1 h0)
      refine ⟨(s1 ++ s2) :: vs, ?_⟩
      rw [List.mapM_cons]
      simp only [verticalText, e1, e2, bind, Except.bind, hvs]
      rfl
  obtain ⟨vs, hvs⟩ := hv _ p4
  unfold sdefTextR sdefHeaderR
  rw [hfT]
  simp only [he, h1, h2, h3, hvs, bind, Except.bind]
  exact ⟨_, rfl⟩


/-! ### The energies -/

theorem inRange_near {x x' : ℝ} (h1 : 1 / 10 ^ 120 ≤ x) (h2 : x ≤ 10 ^ 120) (h : |x' - x| ≤ 1 / 2 * x) : InRange x' := by
  obtain ⟨a, b⟩ := abs_le.1 h
  have h0 : 0 < x := lt_of_lt_of_le (by positivity) h1
  right
  rw [abs_of_pos (by linarith)]
  constructor
  · refine le_trans ?_ (show 1 / 10 ^ 120 * (1 / 2) ≤ x' by linarith)
    calc (10 : ℝ) ^ (-400 : ℤ) ≤ (10 : ℝ) ^ (-121 : ℤ) := zpow_le_zpow_right₀ (by norm_num) (by norm_num)
      _ ≤ 1 / 10 ^ 120 * (1 / 2) := by
        rw [zpow_neg, show (121 : ℤ) = ((121 : ℕ) : ℤ) by norm_num, zpow_natCast]; norm_num
  · refine (show x' ≤ 10 ^ 121 by linarith).trans ?_
    rw [← zpow_natCast]
    exact zpow_le_zpow_right₀ (by norm_num) (by norm_num)

theorem zpow121 : (10 : ℝ) ^ 120 * 2 ≤ 10 ^ 121 := by norm_num

/-- A printed number is as near as the number that is printed, up to six digits. -/
theorem printed_near {x x' δ : ℝ} (hx : 0 < x) (h : |x' - x| ≤ δ * x) (hδ : δ ≤ 1 / 10 ^ 7) :
    |printed x' - x| ≤ (5.1 / 10 ^ 6 + δ) * x := by
  have h1 := printed_err x'
  have h2 : |x'| ≤ (1 + δ) * x := by
    have := abs_le.1 h
    rw [abs_le]; constructor <;> nlinarith
  have h3 := abs_sub_le (printed x') x' x
  nlinarith

theorem gaussian_energy {A : Arith} {u : ℝ} (hA : StandardModel A u) (hu : u ≤ 1 / 10 ^ 10) {km T : ℝ}
    (hkm : ScaleFactor u (1 / 1000) km) (hT : 0 < T) : |A.rd (T * km) - T / 1000| ≤ 12 * u * (T / 1000) := by
  have h0 := hA.u_nonneg
  unfold ScaleFactor at hkm
  have h1 : |T * km - T / 1000| ≤ 10 * u * (T / 1000) := by
    rw [show T * km - T / 1000 = T * (km - 1 / 1000) by ring, abs_mul, abs_of_pos hT]
    have := mul_le_mul_of_nonneg_left hkm hT.le
    linarith
  have h2 := hA.rel (T * km)
  have h3 : |T * km| ≤ 1.1 * (T / 1000) := by
    have := abs_le.1 h1
    have k : 10 * u * (T / 1000) ≤ 10 * (1 / 10 ^ 10) * (T / 1000) := by
      have : 0 < T / 1000 := by positivity
      nlinarith
    rw [abs_le]; constructor <;> linarith
  have h4 := abs_sub_le (A.rd (T * km)) (T * km) (T / 1000)
  have h5 := mul_le_mul_of_nonneg_left h3 h0
  have : 0 ≤ u * (T / 1000) := by positivity
  nlinarith

/-- The two T-T cards in floating point. -/
theorem tt_energy {A : Arith} {u : ℝ} (hA : StandardModel A u) (hm : Monotone A.rd) (h1 : A.rd 1 = 1) (hu : u ≤ 1 / 10 ^ 12)
    {ke ks km : ℝ} (hke : ScaleFactor u 1000 ke) (hks : ScaleFactor u (1 / 1000) ks) (hkm : ScaleFactor u (1 / 1000) km)
    (t : ℝ) : ∃ (t' c : ℝ) (pairs : List (ℝ × ℝ)), TableTemperature (500 * u) t t' ∧ 0 < c ∧
      (∃ text, energyTextR A ke ks km .T_T (.fin t) = .ok text) ∧
      (∀ text, energyTextR A ke ks km .T_T (.fin t) = .ok text → Block 128 text (energyFields .T_T 0 pairs)) ∧
      ((0 :: pairs.map fun q => printed (q.1 / 1000)).Pairwise (· < ·)) ∧ (∀ q ∈ pairs, 0 < printed q.2) ∧
      List.Forall₂ (fun q p : ℝ × ℝ => |printed (q.1 / 1000) - p.1 / 10 ^ 6| ≤ 6 / 10 ^ 6 * (p.1 / 10 ^ 6) ∧
        |printed q.2 - c * p.2| ≤ 6 / 10 ^ 6 * (c * p.2)) pairs (publishedTT t') := by
  have h0 := hA.u_nonneg
  obtain ⟨t', e', e, p', p, w, w', b1, b2, b3, -, b5, b6, b7, -⟩ := tt_core hA hm h1 (by linarith) hke hks t .DATA
  -- the tables as lists
  obtain ⟨pr, lg, k1, -, k2⟩ := tt_bounds120 t'
  rw [show (Reaction.n .T_T) = Reaction.TT from rfl, b2] at k1
  simp only [Except.ok.injEq, Prod.mk.injEq, Option.some.injEq] at k1
  obtain ⟨rfl, -⟩ := k1
  have nes : neutronEnergySpectrum .DATA (.n .T_T) t' = .ok (.tabular ((List.range 500).map fun i => (e i * 1000, p i))) := by
    have : neutronEnergySpectrum .DATA (.n .T_T) t' = (do
        let s ← energySpectrum t' .TT .DATA
        match s.1 with
        | none => .error .tnsError
        | some l => .ok (.tabular (l.map (fun p => (p.1 * 1000, p.2))))) := rfl
    rw [this, b2]
    simp only [Bind.bind, Except.bind, List.map_map, Function.comp_def]
  obtain ⟨l₀, c, c0, l1, l2, -⟩ := law_table .DATA .T_T t' (by linarith [b1.lower]) (by linarith [b1.upper]) (.inr rfl) nes
  have l1 : l₀ = publishedTT t' := by
    simp only [publishedLaw, NeutronDist.tabular.injEq] at l1
    exact l1.symm
  -- what is printed
  have le : ∀ i < 500, LC (23.8 * u) (A.rd (e' i * km)) (e i / 1000) := by
    intro i hi
    have k := LC.of_rel (by norm_num : (0 : ℝ) < 1 / 1000) (by linarith) hkm
    have := (LC.round hA (by linarith) le_rfl ((b5 i hi).mul k)).mono (show _ ≤ 23.8 * u by linarith)
    rwa [mul_one_div] at this
  have ge : ∀ i < 500, |printed (A.rd (e' i * km)) - e i / 1000| ≤ 6 / 10 ^ 6 * (e i / 1000) := by
    intro i hi
    have := (le i hi).2.1
    have k := printed_near this ((le i hi).rel (by linarith)) (by linarith)
    exact k.trans (mul_le_mul_of_nonneg_right (by linarith) this.le)
  have gp : ∀ i < 500, |printed (p' i) - p i| ≤ 6 / 10 ^ 6 * p i := by
    intro i hi
    have := (b7 i hi).2.1
    have k := printed_near this ((b7 i hi).rel (by linarith)) (by linarith)
    exact k.trans (mul_le_mul_of_nonneg_right (by linarith) this.le)
  have hran : ∀ q ∈ (List.range 500).map (fun i => (1000 * A.rd (e' i * km), p' i)), InRange (q.1 / 1000) ∧ InRange q.2 := by
    intro q hq
    obtain ⟨i, hi, rfl⟩ := List.mem_map.1 hq
    have hi' := List.mem_range.1 hi
    obtain ⟨⟨r1, r2⟩, r3, r4⟩ := k2 (e i, p i) (List.mem_map.2 ⟨i, hi, rfl⟩)
    have m1 := (le i hi').rel (by linarith)
    have m2 := (b7 i hi').rel (by linarith)
    have n1 := (le i hi').2.1
    have n2 := (b7 i hi').2.1
    refine ⟨?_, ?_⟩
    · show InRange (1000 * A.rd (e' i * km) / 1000)
      rw [mul_div_cancel_left₀ _ (by norm_num)]
      exact inRange_near r1 r2 (m1.trans (mul_le_mul_of_nonneg_right (by linarith) n1.le))
    · exact inRange_near r3 r4 (m2.trans (mul_le_mul_of_nonneg_right (by linarith) n2.le))
  have text : energyTextR A ke ks km .T_T (.fin t) = (do
      let si ← textWrap (joinBlank (formatE 5 (0 : ℝ) :: (((List.range 500).map
        (fun i => (1000 * A.rd (e' i * km), p' i))).map (fun q => q.1 / 1000)).map (formatE 5))) 6 80 1
      let sp ← textWrap (joinBlank (formatE 5 (0 : ℝ) :: (((List.range 500).map
        (fun i => (1000 * A.rd (e' i * km), p' i))).map (fun q => q.2)).map (formatE 5))) 6 80 1
      .ok ("SI2 H ".toList ++ si ++ ("SP2 D ".toList ++ sp))) := by
    have a1 : ((List.range 500).map (fun i => (1000 * A.rd (e' i * km), p' i))).map (fun q => q.1 / 1000) =
        ((List.range 500).map fun i => (e' i, p' i)).map (fun q => A.rd (q.1 * km)) := by
      rw [List.map_map, List.map_map]
      refine List.map_congr_left fun i _ => ?_
      show 1000 * A.rd (e' i * km) / 1000 = A.rd (e' i * km)
      exact mul_div_cancel_left₀ _ (by norm_num)
    have a2 : ((List.range 500).map (fun i => (1000 * A.rd (e' i * km), p' i))).map (fun q => q.2) =
        ((List.range 500).map fun i => (e' i, p' i)).map (fun q => q.2) := by
      rw [List.map_map, List.map_map]; rfl
    rw [a1, a2]
    simp only [energyTextR, b3, Bind.bind, Except.bind]
  have asc : ∀ i < 499, printed (A.rd (e' i * km)) < printed (A.rd (e' (i + 1) * km)) := by
    intro i hi
    have x1 := (abs_le.1 (ge i (by omega))).2
    have x2 := (abs_le.1 (ge (i + 1) (by omega))).1
    have x3 := b6 i hi
    have x4 := (b5 i (by omega)).2.1
    have x5 := (b5 (i + 1) (by omega)).2.1
    linarith
  refine ⟨t', c, (List.range 500).map fun i => (1000 * A.rd (e' i * km), p' i), b1, c0, ?_, ?_, ?_, ?_, ?_⟩
  · obtain ⟨x, hx⟩ := tt_cards_ok _ hran
    exact ⟨x, text.trans hx⟩
  · intro x hx
    exact tt_cards 0 _ hran x (text.symm.trans hx)
  · have key := ascending (n := 499) (f := fun i => printed (A.rd (e' i * km))) (g := fun _ => 0) asc
    have e1 : ((List.range 500).map fun i => (1000 * A.rd (e' i * km), p' i)).map (fun q => printed (q.1 / 1000)) =
        (List.range (499 + 1)).map fun i => printed (A.rd (e' i * km)) := by
      rw [List.map_map]
      refine List.map_congr_left fun i _ => ?_
      show printed (1000 * A.rd (e' i * km) / 1000) = _
      rw [mul_div_cancel_left₀ _ (by norm_num)]
    rw [e1, List.pairwise_cons]
    refine ⟨?_, ?_⟩
    · intro x hx
      obtain ⟨i, hi, rfl⟩ := List.mem_map.1 hx
      have hi' : i < 500 := List.mem_range.1 hi
      have := (abs_le.1 (ge i hi')).1
      have := (le i hi').2.1
      linarith
    · rw [List.pairwise_map] at key ⊢
      exact key
  · intro q hq
    obtain ⟨i, hi, rfl⟩ := List.mem_map.1 hq
    have hi' : i < 500 := List.mem_range.1 hi
    have := (abs_le.1 (gp i hi')).1
    have := (b7 i hi').2.1
    show 0 < printed (p' i)
    linarith
  · rw [← l1]
    have key : List.Forall₂ (fun q p : ℝ × ℝ => |printed (q.1 / 1000) - p.1 / 10 ^ 6| ≤ 6 / 10 ^ 6 * (p.1 / 10 ^ 6) ∧
        |printed q.2 - p.2| ≤ 6 / 10 ^ 6 * p.2) ((List.range 500).map fun i => (1000 * A.rd (e' i * km), p' i))
        ((List.range 500).map fun i => (e i * 1000, p i)) := by
      rw [List.forall₂_map_left_iff, List.forall₂_map_right_iff, List.forall₂_same]
      intro i hi
      have hi' := List.mem_range.1 hi
      refine ⟨?_, gp i hi'⟩
      show |printed (1000 * A.rd (e' i * km) / 1000) - e i * 1000 / 10 ^ 6| ≤ 6 / 10 ^ 6 * (e i * 1000 / 10 ^ 6)
      rw [mul_div_cancel_left₀ _ (by norm_num), show e i * 1000 / 10 ^ 6 = e i / 1000 by ring]
      exact ge i hi'
    rw [l2, List.forall₂_map_right_iff] at key
    exact key

/-! ### The file -/

/-- The fields of the cards, and the energy cards among them, whatever the reaction. -/
theorem text_cards {A : Arith} {u : ℝ} (hA : StandardModel A u) (hm : Monotone A.rd) (h1 : A.rd 1 = 1) (hu : u ≤ 1 / 10 ^ 12)
    {ke ks km : ℝ} (hke : ScaleFactor u 1000 ke) (hks : ScaleFactor u (1 / 1000) ks) (hkm : ScaleFactor u (1 / 1000) km)
    (cit : Citation) (hc : CleanCitation cit) (r : Neutronic) (f : SdefFile ℝ) (T : ℝ) (hfT : f.ionTemp = .fin T)
    (hT : 1 / 10 ^ 100 ≤ T ∧ T ≤ 10 ^ 100) (hp : Printable f.cards) (hds : f.cards.vertical.map (·.1) = f.cards.ds4)
    (hnd : f.cards.ds4.Nodup) (h5 : ∀ n ∈ f.cards.ds4, 5 ≤ n) :
    ∃ (text : List Char) (T₁ : ℝ) (pairs : List (ℝ × ℝ)), sdefTextR A ke ks km cit r f = .ok text ∧
      readCards 128 text = sdefDecl :: energyFields r T₁ pairs ++ positionFields f.cards ∧
      EnergyCards (500 * u) r T (readCards 128 text) := by
  have h0 := hA.u_nonneg
  have hT0 : 0 < T := lt_of_lt_of_le (by positivity) hT.1
  have names := fun (T₁ : ℝ) (pairs : List (ℝ × ℝ)) => names_nodup r T₁ pairs f.cards (hds ▸ hnd)
    (fun v hv => h5 _ (hds ▸ List.mem_map.2 ⟨v, hv, rfl⟩))
  have gauss := gaussian_energy hA (by linarith) hkm hT0
  have hran : InRange (1000 * A.rd (T * km) / 1000) := by
    rw [mul_div_cancel_left₀ _ (by norm_num)]
    refine inRange_near (x := T / 1000) ?_ ?_ (gauss.trans (mul_le_mul_of_nonneg_right (by linarith) (by positivity)))
    · refine le_trans ?_ (div_le_div_of_nonneg_right hT.1 (by norm_num)); norm_num
    · refine le_trans (div_le_div_of_nonneg_right hT.2 (by norm_num)) ?_; norm_num
  have value : |(sciOf 6 (A.rd (T * km))).value 6 - T / 1000| ≤ 6 / 10 ^ 7 * (T / 1000) := by
    have a1 : |(sciOf 6 (A.rd (T * km))).value 6 - A.rd (T * km)| ≤ 5 / 10 ^ 7 * |A.rd (T * km)| :=
      le_trans (value_err 6 _) (le_of_eq (by norm_num))
    have a2 : 12 * u * (T / 1000) ≤ 1 / 10 ^ 10 * (T / 1000) := mul_le_mul_of_nonneg_right (by linarith) (by positivity)
    have a3 : |A.rd (T * km)| ≤ 1.01 * (T / 1000) := by
      have := abs_le.1 gauss
      have : 0 < T / 1000 := by positivity
      rw [abs_le]; constructor <;> linarith
    have a4 := abs_sub_le ((sciOf 6 (A.rd (T * km))).value 6) (A.rd (T * km)) (T / 1000)
    have : 0 < T / 1000 := by positivity
    linarith
  cases r with
  | D_T =>
    have he : energyTextR A ke ks km .D_T (.fin T) =
        .ok ("SP2 -4 ".toList ++ formatE 6 (A.rd (T * km)) ++ " -1".toList ++ ['\n']) := rfl
    obtain ⟨text, ht⟩ := sdefTextR_ok A ke ks km cit .D_T f T hfT hp he
    have rc := cardsR A ke ks km cit hc .D_T f T hfT hp (F := energyFields .D_T (1000 * A.rd (T * km)) []) (by
      intro d hd
      rw [he] at hd
      obtain rfl := Except.ok.inj hd
      rcases sp2_block _ hran "-1".toList ⟨⟨by decide, by decide⟩, by decide, by decide⟩ with b | b
      · have e : 1000 * A.rd (T * km) / 1000 = A.rd (T * km) := mul_div_cancel_left₀ _ (by norm_num)
        rw [e] at b
        simpa [energyFields] using b
      · exact absurd b (by decide)) text ht
    refine ⟨text, _, _, ht, rc, ?_⟩
    rw [rc]
    refine ⟨formatE 6 (A.rd (T * km)), (sciOf 6 (A.rd (T * km))).value 6, cardArgs_of _ (names _ _) _ _ _ ?_,
      readFloat_render 6 _ (sciOf_digits 6 _), value⟩
    simp [energyFields]
  | D_D =>
    have he : energyTextR A ke ks km .D_D (.fin T) =
        .ok ("SP2 -4 ".toList ++ formatE 6 (A.rd (T * km)) ++ " -2".toList ++ ['\n']) := rfl
    obtain ⟨text, ht⟩ := sdefTextR_ok A ke ks km cit .D_D f T hfT hp he
    have rc := cardsR A ke ks km cit hc .D_D f T hfT hp (F := energyFields .D_D (1000 * A.rd (T * km)) []) (by
      intro d hd
      rw [he] at hd
      obtain rfl := Except.ok.inj hd
      rcases sp2_block _ hran "-2".toList ⟨⟨by decide, by decide⟩, by decide, by decide⟩ with b | b
      · have e : 1000 * A.rd (T * km) / 1000 = A.rd (T * km) := mul_div_cancel_left₀ _ (by norm_num)
        rw [e] at b
        simpa [energyFields] using b
      · exact absurd b (by decide)) text ht
    refine ⟨text, _, _, ht, rc, ?_⟩
    rw [rc]
    refine ⟨formatE 6 (A.rd (T * km)), (sciOf 6 (A.rd (T * km))).value 6, cardArgs_of _ (names _ _) _ _ _ ?_,
      readFloat_render 6 _ (sciOf_digits 6 _), value⟩
    simp [energyFields]
  | T_T =>
    obtain ⟨t', c, pairs, k1, k2, ⟨te, k3⟩, k4, k5, k6, k7⟩ := tt_energy hA hm h1 hu hke hks hkm T
    obtain ⟨text, ht⟩ := sdefTextR_ok A ke ks km cit .T_T f T hfT hp k3
    have rc := cardsR A ke ks km cit hc .T_T f T hfT hp k4 text ht
    refine ⟨text, _, _, ht, rc, ?_⟩
    rw [rc]
    have z : printed 0 = 0 := by have := printed_err 0; simpa using this
    refine ⟨t', pairs.map fun q => printed (q.1 / 1000), pairs.map fun q => printed q.2, c, k1, k2, ?_, ?_, k5, ?_, ?_, ?_⟩
    · have := cardNums_of _ (names 0 pairs) "SI2".toList "H".toList (0 :: pairs.map fun q => q.1 / 1000)
        (by simp [energyFields])
      rw [this, List.map_cons, z, List.map_map]; rfl
    · have := cardNums_of _ (names 0 pairs) "SP2".toList "D".toList (0 :: pairs.map fun q => q.2)
        (by simp [energyFields])
      rw [this, List.map_cons, z, List.map_map]; rfl
    · intro x hx
      obtain ⟨q, hq, rfl⟩ := List.mem_map.1 hx
      exact k6 q hq
    · rw [List.forall₂_map_left_iff]
      exact k7.imp fun _ _ h => h.1
    · rw [List.forall₂_map_left_iff]
      exact k7.imp fun _ _ h => h.2

/-- C111.  For every file whose numbers are in the range of doubles: the text with energy cards computed in floating point is
written; read by MCNP's rules its position cards are those of the file, every number to six digits and in the same order, and
its energy cards are those of the reaction at the ion temperature of the file. -/
theorem C111_file {A : Arith} {u : ℝ} (hA : StandardModel A u) (hm : Monotone A.rd) (h1 : A.rd 1 = 1) (hu : u ≤ 1 / 10 ^ 12)
    {ke ks km : ℝ} (hke : ScaleFactor u 1000 ke) (hks : ScaleFactor u (1 / 1000) ks) (hkm : ScaleFactor u (1 / 1000) km)
    (cit : Citation) (hc : CleanCitation cit) (r : Neutronic) (f : SdefFile ℝ) (T : ℝ) (hfT : f.ionTemp = .fin T)
    (hT : 1 / 10 ^ 100 ≤ T ∧ T ≤ 10 ^ 100) (hp : Printable f.cards) (hds : f.cards.vertical.map (·.1) = f.cards.ds4)
    (hnd : f.cards.ds4.Nodup) (h5 : ∀ n ∈ f.cards.ds4, 5 ≤ n) :
    ∃ (text : List Char) (φ : ℝ → ℝ), sdefTextR A ke ks km cit r f = .ok text ∧
      (∀ x, |φ x - x| ≤ 5 / 10 ^ 6 * |x|) ∧ Monotone φ ∧
      readSdef (readCards 128 text) = some (mapNums φ f.cards) ∧ EnergyCards (500 * u) r T (readCards 128 text) := by
  obtain ⟨text, T₁, pairs, k1, k2, k3⟩ := text_cards hA hm h1 hu hke hks hkm cit hc r f T hfT hT hp hds hnd h5
  refine ⟨text, printed, k1, printed_err, printed_mono, ?_, k3⟩
  rw [k2]
  refine readSdef_of r T₁ pairs f.cards hds.symm (hds ▸ hnd) fun v hv => ?_
  exact h5 _ (hds ▸ List.mem_map.2 ⟨v, hv, rfl⟩)

/-- C111.  The position cards in the file do not depend on how the energies are rounded: MCNP reads those of `sdefText`. -/
theorem same_positions {A : Arith} {u : ℝ} (hA : StandardModel A u) (hm : Monotone A.rd) (h1 : A.rd 1 = 1)
    (hu : u ≤ 1 / 10 ^ 12)
    {ke ks km : ℝ} (hke : ScaleFactor u 1000 ke) (hks : ScaleFactor u (1 / 1000) ks) (hkm : ScaleFactor u (1 / 1000) km)
    (cit : Citation) (hc : CleanCitation cit) (r : Neutronic) (f : SdefFile ℝ) (T : ℝ) (hfT : f.ionTemp = .fin T)
    (hT : 1 / 10 ^ 100 ≤ T ∧ T ≤ 10 ^ 100) (hp : Printable f.cards) (hds : f.cards.vertical.map (·.1) = f.cards.ds4)
    (hnd : f.cards.ds4.Nodup) (h5 : ∀ n ∈ f.cards.ds4, 5 ≤ n) (text : List Char) (ht : sdefText cit r f = .ok text) :
    ∃ textR : List Char, sdefTextR A ke ks km cit r f = .ok textR ∧
      readSdef (readCards 128 textR) = readSdef (readCards 128 text) ∧ EnergyCards (500 * u) r T (readCards 128 textR) := by
  obtain ⟨textR, T₁, pairs, k1, k2, k3⟩ := text_cards hA hm h1 hu hke hks hkm cit hc r f T hfT hT hp hds hnd h5
  obtain ⟨pr, log, e, -, hr⟩ := tt_printable T
  have hT' : InRange (T / 1000) := by
    refine inRange_of _ ?_ ?_
    · refine le_trans ?_ (div_le_div_of_nonneg_right hT.1 (by norm_num)); norm_num
    · refine le_trans (div_le_div_of_nonneg_right hT.2 (by norm_num)) ?_; norm_num
  refine ⟨textR, k1, ?_, k3⟩
  have h5' : ∀ v ∈ f.cards.vertical, 5 ≤ v.1 := fun v hv => h5 _ (hds ▸ List.mem_map.2 ⟨v, hv, rfl⟩)
  rw [k2, C67_cards cit hc r f T hfT hT' hp pr log (fun _ => ⟨e, hr⟩) text ht,
    readSdef_of r T₁ pairs f.cards hds.symm (hds ▸ hnd) h5', readSdef_of r T pr f.cards hds.symm (hds ▸ hnd) h5']

/-- C111.  Without rounding the text is that of `sdefText`. -/
theorem C111_exact (cit : Citation) (r : Neutronic) (f : SdefFile ℝ) :
    sdefTextR exactArith 1000 (1 / 1000) (1 / 1000) cit r f = sdefText cit r f := by
  have e : ∀ T : XF ℝ, energyTextR exactArith 1000 (1 / 1000) (1 / 1000) r T = energyText r T := by
    intro T
    have rd : ∀ x : ℝ, exactArith.rd x = x := fun _ => rfl
    cases T with
    | fin t =>
      cases r with
      | D_T => simp only [energyTextR, energyText, rd, mul_one_div]; rfl
      | D_D => simp only [energyTextR, energyText, rd, mul_one_div]; rfl
      | T_T =>
        obtain ⟨s, w, k1, k2⟩ := C107_exact t .DATA
        simp only [energyTextR, energyText, k1, show (Reaction.n .T_T) = Reaction.TT from rfl, k2, rd, mul_one_div]
        rfl
    | _ => cases r <;> rfl
  unfold sdefTextR sdefHeaderR sdefText sdefHeader
  rw [e]

/-- The hypotheses of C111 hold of a file with two cells, for every reaction. -/
example (r : Neutronic) : ∃ text, sdefTextR binary64 1000 (binary64.rd (1 / 1000)) (binary64.rd (1 / 1000)) Ex.citation r Ex.fileR =
    .ok text ∧ (readSdef (readCards 128 text)).isSome ∧ EnergyCards (500 * (2 : ℝ) ^ (-53 : ℤ)) r (13 / 5)
      (readCards 128 text) := by
  have hu : (2 : ℝ) ^ (-53 : ℤ) ≤ 1 / 10 ^ 12 := by
    rw [zpow_neg, show (53 : ℤ) = ((53 : ℕ) : ℤ) by norm_num, zpow_natCast]; norm_num
  obtain ⟨text, φ, k1, -, -, k2, k3⟩ := C111_file C74_binary64 C100_binary64_order round53_one hu scale_factors.1 scale_factors.2
    scale_factors.2 Ex.citation Ex.citation_clean r Ex.fileR (13 / 5) rfl ⟨by norm_num, by norm_num⟩ Ex.printableR rfl
    (by simp [Ex.fileR]) (by simp [Ex.fileR])
  exact ⟨text, k1, by rw [k2]; rfl, k3⟩

end
end TNS
