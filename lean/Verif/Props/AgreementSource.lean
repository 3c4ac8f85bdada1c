import Verif.Props.Agreement
import Verif.Props.Hotter
/-
C81 for the whole source: the choice of the reactivity method.
-/

set_option autoImplicit false
set_option maxRecDepth 100000

namespace TNS
open Spec

section
variable {K : Type} [Field K] [LinearOrder K] [IsStrictOrderedRing K]

/-- Non-negative and within a relative distance. -/
def Within (ε a b : K) : Prop := 0 ≤ b ∧ |a - b| ≤ ε * b

theorem Within.scale {ε a b c : K} (h : Within ε a b) (hc : 0 ≤ c) : Within ε (c * a) (c * b) := by
  refine ⟨mul_nonneg hc h.1, ?_⟩
  rw [← mul_sub, abs_mul, abs_of_nonneg hc]
  calc c * |a - b| ≤ c * (ε * b) := mul_le_mul_of_nonneg_left h.2 hc
    _ = _ := by ring

theorem Within.add {ε a b c d : K} (h : Within ε a b) (h' : Within ε c d) :
    Within ε (a + c) (b + d) := by
  refine ⟨add_nonneg h.1 h'.1, ?_⟩
  have e : a + c - (b + d) = (a - b) + (c - d) := by ring
  rw [e]
  refine (abs_add_le _ _).trans ?_
  rw [mul_add]
  exact add_le_add h.2 h'.2

theorem within_sum {ε : K} {l l' : List K} (h : List.Forall₂ (Within ε) l l') :
    Within ε l.sum l'.sum := by
  induction h with
  | nil => exact ⟨le_refl _, by simp⟩
  | cons hab _ ih =>
    simp only [List.sum_cons]
    exact hab.add ih

theorem within_zip_left {ε : K} {l m m' : List K} (hl : ∀ c ∈ l, 0 ≤ c)
    (h : List.Forall₂ (Within ε) m m') :
    List.Forall₂ (Within ε) (List.zipWith (· * ·) l m) (List.zipWith (· * ·) l m') := by
  induction h generalizing l with
  | nil => simp
  | cons hab _ ih =>
    cases l with
    | nil => simp
    | cons c l =>
      exact .cons (hab.scale (hl c (by simp))) (ih fun c hc => hl c (List.mem_cons_of_mem _ hc))

theorem within_zip_right {ε : K} {l m m' : List K} (hl : ∀ c ∈ l, 0 ≤ c)
    (h : List.Forall₂ (Within ε) m m') :
    List.Forall₂ (Within ε) (List.zipWith (· * ·) m l) (List.zipWith (· * ·) m' l) := by
  have e : ∀ m : List K, List.zipWith (· * ·) m l = List.zipWith (· * ·) l m := fun m => by
    rw [List.zipWith_comm]
    congr 1
    funext a b
    exact mul_comm _ _
  rw [e, e]
  exact within_zip_left hl h

variable [FloorRing K]

/-- Two ways of computing reactivities that agree up to `ε` give sources that agree up to `ε`. -/
theorem init_within {pi : K} {Q : Reaction → K} (hQ : ∀ r, 0 ≤ Q r) {ε : K}
    {sv sv' : Reaction → List K → Except Err (List K)}
    {tr : TransportView K} {fm : FluxMapView K} {arg : SourceArg} {L : K} {s s' : Source K}
    (hs : Source.init pi Q sv tr fm arg L none = .ok s)
    (hs' : Source.init pi Q sv' tr fm arg L none = .ok s')
    (hD : AtMost tr.deuterium tr.deuterium) (hT : AtMost tr.tritium tr.tritium)
    (hH : AtMost tr.helium3 tr.helium3) (hvol : ∀ v ∈ s.dVolume, 0 ≤ v)
    (hsv : ∀ r ∈ s.sourceType, ∀ v v', sv r s.temperature = .ok v → sv' r s.temperature = .ok v' →
      List.Forall₂ (Within ε) v v') :
    EmitsWithin ε Q s s' := by
  obtain ⟨temp, d, t, he, f, h1, ht0, hd, ht, hh, hx, hz, hv, -, htemp, hcl, hstr⟩ := Source.init_none hs
  obtain ⟨temp', d', t', he', f', h1', ht0', hd', ht', hh', hx', hz', hv', -, htemp', hcl', hstr'⟩ :=
    Source.init_none hs'
  have hst : s.sourceType = s'.sourceType := by rw [h1] at h1'; exact Except.ok.inj h1'
  have et : temp = temp' := by rw [ht0] at ht0'; exact Except.ok.inj ht0'
  have ed : d = d' := by rw [hd] at hd'; exact Except.ok.inj hd'
  have ett : t = t' := by rw [ht] at ht'; exact Except.ok.inj ht'
  have eh : he = he' := by rw [hh] at hh'; exact Except.ok.inj hh'
  subst et ed ett eh
  have hp : ∀ r, ∀ c ∈ pairDensity r d t he, 0 ≤ c := by
    intro r c hc
    have := dom_pair (dom_mapM hD hd hd) (dom_mapM hT ht ht) (dom_mapM hH hh hh) r
    exact ((List.forall₂_same.1 this) c hc).1
  have hdom : ∀ r ∈ s.sourceType, List.Forall₂ (Within ε) (f r) (f' r) := by
    intro r hr
    obtain ⟨v, e1, e2⟩ := strengthOf_ok (hstr r hr)
    obtain ⟨v', e1', e2'⟩ := strengthOf_ok (hstr' r (hst ▸ hr))
    rw [e2, e2']
    refine within_zip_right ?_ (within_zip_left (hp r) (hsv r hr v v' (by rw [htemp]; exact e1)
      (by rw [htemp]; exact e1')))
    intro w hw
    exact hvol w (by rw [hv]; exact hw)
  obtain ⟨c0, c1, c2, c3⟩ := hcl
  obtain ⟨c0', c1', c2', c3'⟩ := hcl'
  have hnn : ∀ r ∈ s.sourceType, Within ε ((f r).sum * (r.numNeutrons : K))
      ((f' r).sum * (r.numNeutrons : K)) := by
    intro r hr
    have := (within_sum (hdom r hr)).scale (c := (r.numNeutrons : K)) (Nat.cast_nonneg _)
    rwa [mul_comm, mul_comm _ (f' r).sum] at this
  have hnr : ∀ r, Within ε (s.numReactions.getD r 0) (s'.numReactions.getD r 0) := by
    intro r
    rw [c2, c2', ← hst]
    by_cases hr : r ∈ s.sourceType
    · simpa [Dict.getD, Dict.get?_map_pair, hr] using (within_sum (hdom r hr))
    · simp [Dict.getD, Dict.get?_map_pair, hr, Within]
  refine ⟨hst, by rw [hx, hx'], by rw [hz, hz'], by rw [hv, hv'], ?_, fun r => (hnr r).2, ?_, ?_, ?_, ?_⟩
  · intro r
    rw [c1, c1', ← hst]
    by_cases hr : r ∈ s.sourceType
    · simp only [Dict.getD, Dict.get?_map_pair, hr, if_true, Option.getD_some]
      exact (hdom r hr).imp fun _ _ h => h.2
    · simp [Dict.getD, Dict.get?_map_pair, hr]
  · intro r
    rw [c3, c3', ← hst]
    by_cases hr : r ∈ s.sourceType
    · simpa [Dict.getD, Dict.get?_map_pair, hr] using (hnn r hr).2
    · simp [Dict.getD, Dict.get?_map_pair, hr]
  · unfold Source.sourceRate
    rw [c3, c3', ← hst]
    simp only [Dict.values, List.map_map]
    refine (within_sum (ε := ε) ?_).2
    rw [List.forall₂_map_left_iff, List.forall₂_map_right_iff, List.forall₂_same]
    exact fun r hr => hnn r hr
  · unfold Source.sourceTRate
    simp only [List.sum_cons, List.sum_nil, add_zero]
    have a := hnr .DT
    have b := (hnr .TT).scale (c := 2) (by norm_num)
    have := (a.add b).2
    simpa [mul_comm] using this
  · rw [Source.Closed.totalPower (f := f) ⟨c0, c1, c2, c3⟩,
      Source.Closed.totalPower (f := f') ⟨c0', c1', c2', c3'⟩, ← hst]
    refine (within_sum (ε := ε) ?_).2
    rw [List.forall₂_map_left_iff, List.forall₂_map_right_iff, List.forall₂_same]
    intro r hr
    have := (within_sum (hdom r hr)).scale (hQ r)
    rwa [mul_comm, mul_comm _ (f' r).sum] at this

end

/-- The two methods at one list of temperatures. -/
theorem methods_within {u : SI} {m : Masses ℝ} (h : PhysicalData u m) (hm : Measured u m)
    (method : ReactivityMethod) (r : Reaction) (ts : List ℝ) (hne : ts ≠ []) (ε : ℝ)
    (hε : methodGap r ≤ ε) (hts : ∀ t ∈ ts, 0 < t ∧ gapFrom r ≤ t ∧ t ≤ 100) (v v' : List ℝ)
    (hv : reactivity u m .XS r ts = .ok v) (hv' : reactivity u m method r ts = .ok v') :
    List.Forall₂ (Within ε) v v' := by
  have same : v = v' → 0 ≤ ε → List.Forall₂ (Within ε) v v' := by
    intro e hε
    subst e
    rw [List.forall₂_same]
    intro a ha
    have := (C70_reactivity_nonneg u m h method r _ _ hv').2 a ha
    refine ⟨this, ?_⟩
    rw [sub_self, abs_zero]
    positivity
  have key : ∀ lo hi, MethodsAgree u m r lo hi ts → 1 - ε ≤ lo → hi ≤ 1 + ε →
      reactivity u m .BOSCH_HALE r ts = .ok v' → List.Forall₂ (Within ε) v v' := by
    rintro lo hi ⟨xs, bh, e1, e2, -, hf⟩ h1 h2 hb
    rw [e1] at hv
    rw [e2] at hb
    cases hv
    cases hb
    refine hf.imp fun a b ⟨b0, l, g⟩ => ⟨b0.le, ?_⟩
    rw [abs_le]
    constructor <;> nlinarith
  have hg0 : 0 ≤ methodGap r := by
    rcases r with (_ | _ | _) | (_ | _) <;> norm_num [methodGap]
  by_cases hx : method = .XS
  · subst hx
    rw [hv] at hv'
    exact same (Except.ok.inj hv') (hg0.trans hε)
  · have hb : reactivity u m .BOSCH_HALE r ts = .ok v' := by
      rw [← hv']
      cases method
      · exact absurd rfl hx
      all_goals rfl
    match r, hε, hts with
    | .DT, hε, hts =>
      simp only [methodGap, gapFrom] at hε hts
      exact key _ _ (C81_DT u m h hm ts hne fun t ht => ⟨by linarith [(hts t ht).2.1], (hts t ht).2.2⟩)
        (by linarith) (by linarith) hb
    | .DDn, hε, hts =>
      simp only [methodGap, gapFrom] at hε hts
      exact key _ _ ((C81_DDn u m h hm ts hne).1 fun t ht => ⟨by linarith [(hts t ht).2.1], (hts t ht).2.2⟩)
        (by linarith) (by linarith) hb
    | .DDp, hε, hts =>
      simp only [methodGap, gapFrom] at hε hts
      exact key _ _ ((C81_DDp u m h hm ts hne).1 fun t ht => ⟨by linarith [(hts t ht).2.1], (hts t ht).2.2⟩)
        (by linarith) (by linarith) hb
    | .TT, hε, hts => exact same (Except.ok.inj (hv.symm.trans hb)) (hg0.trans hε)
    | .DHe3, hε, hts => exact same (Except.ok.inj (hv.symm.trans hb)) (hg0.trans hε)

/-- **C81**, the whole source: for a plasma between the temperatures at which the methods agree and 100 keV,
the source computed from the tabulated cross sections has the same cells as the source computed with any other
method, and its strengths, rates and powers differ from it by at most the largest gap of the reactions
requested: 0.74 % for D-T alone, 2.82 % for all of them. -/
theorem C81_source {u : SI} {m : Masses ℝ} {c : ℝ} (hc : GoodConstants u m c) (hm : Measured u m)
    (method : ReactivityMethod) (arg : SourceArg) (st : List Reaction)
    (hst : parseSourceType arg = .ok st) (tr : Transport) (hg : GoodPlasma .XS st tr)
    (hg' : GoodPlasma method st tr) (fm : ParamMap) (hfm : PlasmaMap fm) (psi : ℝ → ℝ → ℝ) (L : ℝ)
    (hL : 0 < L) (ε : ℝ) (hε : ∀ r ∈ st, methodGap r ≤ ε)
    (htemp : ∀ p T, tr.temperature.value p = .ok T → ∀ r ∈ st, gapFrom r ≤ T ∧ T ≤ 100) :
    ∃ s s', makeSource u m c tr (fm.view psi) arg L none .XS = .ok s ∧
      makeSource u m c tr (fm.view psi) arg L none method = .ok s' ∧
      EmitsWithin ε (totalEnergy m c) s s' := by
  obtain ⟨s, hs, hty, hO, hcells⟩ := C70_constructs hc .XS arg st hst tr hg fm hfm psi L hL
  obtain ⟨s', hs', -, -⟩ := C70_constructs hc method arg st hst tr hg' fm hfm psi L hL
  have hrefl : ∀ f : ℝ → Except Err ℝ, (∀ p, ∃ n, f p = .ok n ∧ 0 ≤ n) → AtMost f f := by
    intro f hf p a b ha hb
    obtain ⟨n, e, hn⟩ := hf p
    rw [e] at ha hb; cases ha; cases hb
    exact ⟨hn, le_refl _⟩
  refine ⟨s, s', hs, hs', init_within (fun r => (physicalInput hc hg (plasmaMap_data hfm) psi).Q_pos r |>.le) hs hs'
    (hrefl _ hg.deuterium) (hrefl _ hg.tritium) (hrefl _ hg.helium3) ?_ ?_⟩
  · intro v hv
    obtain ⟨-, -, -, -, -, -, -, -, -, -, -, -, hvol, -⟩ := Source.init_none hs
    rw [hvol] at hv
    simp only [sampleSpace2d, List.mem_map] at hv
    obtain ⟨q, hq, rfl⟩ := hv
    have hin : (fm.view psi).inside q = true := by
      unfold samplePoints at hq
      exact (List.mem_filter.1 hq).2
    have := (plasmaMap_data hfm).1 q hin
    exact ((C15_volume Real.pi [] [] (fun _ => false) 0 0 L).2 Real.pi_pos hL q.1 this).le
  · intro r hr v v' hv hv'
    have hr' : r ∈ st := hty ▸ hr
    refine methods_within hc.data hm method r s.temperature ?_ ε (hε r hr') ?_ v v' hv hv'
    · obtain ⟨cells, -, hlen, hall⟩ := hcells r hr'
      obtain ⟨i, hi, hi'⟩ := List.mem_iff_getElem.1 hO
      rw [List.length_zip] at hi
      have hx : i < s.x.length := lt_of_lt_of_le hi (min_le_left _ _)
      have hz : i < s.z.length := lt_of_lt_of_le hi (min_le_right _ _)
      obtain ⟨T, -, -, -, hT, -⟩ := hall i _ _ _ (List.getElem?_eq_getElem hx) (List.getElem?_eq_getElem hz)
        (List.getElem?_eq_getElem (hlen ▸ hx))
      intro e
      rw [e] at hT
      simp at hT
    · intro t ht
      obtain ⟨temp, -, -, -, -, -, ht0, -, -, -, -, -, -, -, htt, -⟩ := Source.init_none hs
      rw [htt] at ht
      obtain ⟨p, -, hp⟩ := mapM_mem ht0 t ht
      obtain ⟨T, hT, hgood⟩ := hg.temperature p
      have e : T = t := Except.ok.inj (hT.symm.trans hp)
      subst e
      have h0 := hgood r hr'
      simp only [goodTemperature, ne_eq, not_true, false_and, if_false] at h0
      exact ⟨h0, htemp p T hT r hr'⟩

theorem ex_measured : Measured Ex.si Ex.massesR := by
  constructor <;> norm_num [Ex.si, Ex.massesR]

/-- A plasma from 1 to 25 keV with 50:50 D-T fuel: the default source is the same up to 2.82 %. -/
example : ∃ fm : ParamMap, ∀ psi : ℝ → ℝ → ℝ, ∃ tr s s',
    makeSource Ex.si Ex.massesR 1.4924180856e-10 tr (fm.view psi) .none 0.1 none .XS = .ok s ∧
    makeSource Ex.si Ex.massesR 1.4924180856e-10 tr (fm.view psi) .none 0.1 none .AUTO = .ok s' ∧
    EmitsWithin 0.0282 (totalEnergy Ex.massesR 1.4924180856e-10) s s' := by
  obtain ⟨l, hl⟩ := (C39_accepted (9 : ℝ) 0 3 1.7 0.3 0.5 0).2 (by norm_num [abs_of_pos])
  obtain ⟨fm, hfm, -⟩ := C48_labels .fausser l [0, 0.5, 1] 50 (by norm_num) ⟨1, by simp, by norm_num⟩
    .linear
  refine ⟨fm, fun psi => ?_⟩
  obtain ⟨comp, hcomp, -⟩ := (C31_fractions (1 : ℝ) 1 0).2.1 (by norm_num)
  obtain ⟨h', ref, tr, -, -, hg, hT, hb⟩ := C70_pedestal .XS [.DT, .DDn, .DDp, .TT]
    [⟨.pedestal 25 5 1 1.5 2 0.9, 1⟩, ⟨.pedestal 1e20 8e19 3e19 1 2 0.9, 1⟩] 0 1
    25 5 1 1.5 2 0.9 1e20 8e19 3e19 1 2 0.9 rfl rfl (by norm_num) (by norm_num) (by norm_num)
    (by norm_num) 1 1 0 (by norm_num) (by norm_num) (by norm_num) comp hcomp
  refine ⟨tr, C81_source Ex.good_constants ex_measured .AUTO .none [.DT, .DDn, .DDp, .TT] C01_default tr hg
    ⟨?_, hg.deuterium, hg.tritium, hg.helium3⟩ fm
    ⟨.fausser, 9, 0, 3, 1.7, 0.3, 0.5, 0, l, [0, 0.5, 1], 50, .linear, .inl rfl, hl, by norm_num, hfm⟩ psi 0.1
    (by norm_num) _ ?_ ?_⟩
  · intro rho
    obtain ⟨T, e, -⟩ := hg.temperature rho
    obtain ⟨h1, h2⟩ := hT rho T e
    refine ⟨T, e, fun r _ => ?_⟩
    unfold goodTemperature
    split_ifs
    · intro _; linarith
    · linarith
  · rintro ((_ | _ | _) | (_ | _)) <;> norm_num [methodGap]
  · intro p T e r hr
    obtain ⟨h1, h2⟩ := hT p T e
    have : gapFrom r ≤ 1 := by rcases r with (_ | _ | _) | (_ | _) <;> norm_num [gapFrom]
    exact ⟨by linarith, by linarith⟩

example : ∃ xs bh, reactivity Ex.si Ex.massesR .XS .DT [10, 0.2, 20 / 3] = .ok xs ∧
    reactivity Ex.si Ex.massesR .BOSCH_HALE .DT [10, 0.2, 20 / 3] = .ok bh ∧ bh.length = 3 ∧
    List.Forall₂ (fun x b => 0 < b ∧ 0.9926 * b ≤ x ∧ x ≤ 1.0036 * b) xs bh :=
  C81_DT _ _ Ex.good_constants.data ex_measured _ (by simp) (by norm_num)

end TNS
