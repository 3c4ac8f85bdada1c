import Verif.Props.Monotone
import Verif.Props.Workflow
import Mathlib.Algebra.Order.BigOperators.Group.List
/-
C76 for the whole source: a hotter and denser plasma emits at least as much.
-/

set_option autoImplicit false

namespace TNS
open Spec

section
variable {K : Type} [Field K] [LinearOrder K] [IsStrictOrderedRing K]

/-- Entries non-negative and not larger. -/
def Dom (a b : K) : Prop := 0 ≤ a ∧ a ≤ b

theorem Dom.mul {a b c d : K} (h : Dom a b) (h' : Dom c d) : Dom (a * c) (b * d) :=
  ⟨mul_nonneg h.1 h'.1, mul_le_mul h.2 h'.2 h'.1 (h.1.trans h.2)⟩

theorem dom_zipWith {l l' m m' : List K} (h : List.Forall₂ Dom l l') (h' : List.Forall₂ Dom m m') :
    List.Forall₂ Dom (List.zipWith (· * ·) l m) (List.zipWith (· * ·) l' m') := by
  induction h generalizing m m' with
  | nil => simp
  | cons hab _ ih =>
    cases h' with
    | nil => simp
    | cons hcd h' => exact .cons (hab.mul hcd) (ih h')

theorem dom_half {l l' : List K} (h : List.Forall₂ Dom l l') :
    List.Forall₂ Dom (l.map (· / 2)) (l'.map (· / 2)) := by
  induction h with
  | nil => simp
  | cons hab _ ih =>
    refine .cons ⟨?_, ?_⟩ ih
    · exact div_nonneg hab.1 (by norm_num)
    · exact div_le_div_of_nonneg_right hab.2 (by norm_num)

theorem dom_sum {l l' : List K} (h : List.Forall₂ Dom l l') : Dom l.sum l'.sum := by
  induction h with
  | nil => simp [Dom]
  | cons hab _ ih =>
    simp only [List.sum_cons]
    exact ⟨add_nonneg hab.1 ih.1, add_le_add hab.2 ih.2⟩

theorem dom_pair {d d' t t' h h' : List K} (hd : List.Forall₂ Dom d d') (ht : List.Forall₂ Dom t t')
    (hh : List.Forall₂ Dom h h') (r : Reaction) :
    List.Forall₂ Dom (pairDensity r d t h) (pairDensity r d' t' h') := by
  rcases r with (_ | _ | _) | (_ | _) <;> simp only [pairDensity]
  · exact dom_zipWith hd ht
  · exact dom_half (dom_zipWith hd hd)
  · exact dom_half (dom_zipWith ht ht)
  · exact dom_half (dom_zipWith hd hd)
  · exact dom_zipWith hd hh

theorem dom_refl {l : List K} (h : ∀ v ∈ l, 0 ≤ v) : List.Forall₂ Dom l l := by
  induction l with
  | nil => exact .nil
  | cons a l ih =>
    exact .cons ⟨h a (by simp), le_refl _⟩ (ih fun v hv => h v (List.mem_cons_of_mem _ hv))

theorem dom_mapM {f g : K → Except Err K} (h : AtMost f g) {l v w : List K} (hv : l.mapM f = .ok v)
    (hw : l.mapM g = .ok w) : List.Forall₂ Dom v w := by
  rw [mapM_ok_iff] at hv hw
  induction l generalizing v w with
  | nil => cases hv; cases hw; exact .nil
  | cons a l ih =>
    cases hv with
    | cons h1 h2 =>
      cases hw with
      | cons h3 h4 => exact .cons (h a _ _ h1 h3) (ih h2 h4)

theorem strengthOf_ok {sv : Reaction → List K → Except Err (List K)} {d t h temp vol : List K}
    {r : Reaction} {w : List K} (e : strengthOf sv d t h temp vol r = .ok w) :
    ∃ v, sv r temp = .ok v ∧
      w = List.zipWith (· * ·) (List.zipWith (· * ·) (pairDensity r d t h) v) vol := by
  unfold strengthOf densityWeightedReactivity at e
  cases hs : sv r temp with
  | error x => rw [hs] at e; simp [Bind.bind, Except.bind] at e
  | ok v =>
    rw [hs] at e
    simp only [Bind.bind, Except.bind, Except.ok.injEq] at e
    exact ⟨v, rfl, e.symm⟩

variable [FloorRing K]

/-- The general statement: larger densities and larger reactivities give a larger source. -/
theorem init_dom {pi : K} {Q : Reaction → K} (hQ : ∀ r, 0 ≤ Q r)
    {sv : Reaction → List K → Except Err (List K)}
    {tr tr' : TransportView K} {fm : FluxMapView K} {arg : SourceArg} {L : K} {s s' : Source K}
    (hs : Source.init pi Q sv tr fm arg L none = .ok s)
    (hs' : Source.init pi Q sv tr' fm arg L none = .ok s')
    (hD : AtMost tr.deuterium tr'.deuterium) (hT : AtMost tr.tritium tr'.tritium)
    (hH : AtMost tr.helium3 tr'.helium3) (hvol : ∀ v ∈ s.dVolume, 0 ≤ v)
    (hsv : ∀ r ∈ s.sourceType, ∀ v v', sv r s.temperature = .ok v → sv r s'.temperature = .ok v' →
      List.Forall₂ Dom v v') :
    EmitsAtMost Q s s' := by
  obtain ⟨temp, d, t, he, f, h1, -, hd, ht, hh, hx, hz, hv, -, htemp, hcl, hstr⟩ := Source.init_none hs
  obtain ⟨temp', d', t', he', f', h1', -, hd', ht', hh', hx', hz', hv', -, htemp', hcl', hstr'⟩ :=
    Source.init_none hs'
  have hst : s.sourceType = s'.sourceType := by rw [h1] at h1'; exact Except.ok.inj h1'
  have hdom : ∀ r ∈ s.sourceType, List.Forall₂ Dom (f r) (f' r) := by
    intro r hr
    obtain ⟨v, e1, e2⟩ := strengthOf_ok (hstr r hr)
    obtain ⟨v', e1', e2'⟩ := strengthOf_ok (hstr' r (hst ▸ hr))
    rw [e2, e2']
    refine dom_zipWith (dom_zipWith (dom_pair (dom_mapM hD hd hd') (dom_mapM hT ht ht')
      (dom_mapM hH hh hh') r) (hsv r hr v v' (by rw [htemp]; exact e1) (by rw [htemp']; exact e1')))
      (dom_refl ?_)
    intro w hw
    exact hvol w (by rw [hv]; exact hw)
  obtain ⟨c0, c1, c2, c3⟩ := hcl
  obtain ⟨c0', c1', c2', c3'⟩ := hcl'
  have hnn : ∀ r ∈ s.sourceType, (f r).sum * (r.numNeutrons : K) ≤ (f' r).sum * (r.numNeutrons : K) :=
    fun r hr => mul_le_mul_of_nonneg_right (dom_sum (hdom r hr)).2 (Nat.cast_nonneg _)
  have hnr : ∀ r, s.numReactions.getD r 0 ≤ s'.numReactions.getD r 0 := by
    intro r
    rw [c2, c2', ← hst]
    by_cases hr : r ∈ s.sourceType
    · simpa [Dict.getD, Dict.get?_map_pair, hr] using (dom_sum (hdom r hr)).2
    · simp [Dict.getD, Dict.get?_map_pair, hr]
  refine ⟨hst, by rw [hx, hx'], by rw [hz, hz'], by rw [hv, hv'], ?_, hnr, ?_, ?_, ?_, ?_⟩
  · intro r
    rw [c1, c1', ← hst]
    by_cases hr : r ∈ s.sourceType
    · simp only [Dict.getD, Dict.get?_map_pair, hr, if_true, Option.getD_some]
      exact (hdom r hr).imp fun _ _ h => h.2
    · simp [Dict.getD, Dict.get?_map_pair, hr]
  · intro r
    rw [c3, c3', ← hst]
    by_cases hr : r ∈ s.sourceType
    · simpa [Dict.getD, Dict.get?_map_pair, hr] using hnn r hr
    · simp [Dict.getD, Dict.get?_map_pair, hr]
  · unfold Source.sourceRate
    rw [c3, c3', ← hst]
    simp only [Dict.values, List.map_map]
    exact List.sum_le_sum fun r hr => hnn r hr
  · unfold Source.sourceTRate
    simp only [List.sum_cons, List.sum_nil]
    have a := hnr .DT
    have b := hnr .TT
    linarith
  · rw [Source.Closed.totalPower (f := f) ⟨c0, c1, c2, c3⟩,
      Source.Closed.totalPower (f := f') ⟨c0', c1', c2', c3'⟩, ← hst]
    exact List.sum_le_sum fun r hr => mul_le_mul_of_nonneg_right (dom_sum (hdom r hr)).2 (hQ r)

end

theorem thermalReactivity_nonneg (u : SI) (m : Masses ℝ) (h : PhysicalData u m)
    (method : ReactivityMethod) (r : Reaction) (t : ℝ) (hg : goodTemperature method r t) :
    0 ≤ thermalReactivity u m method r t := by
  have e := C51_dispatch u m h method r [t] (by simp) (by simpa using hg)
  exact (C70_reactivity_nonneg u m h method r _ _ e).2 _ (by simp [thermalReactivity])

/-- What the successful call says about the temperatures. -/
theorem reactivity_ok_value (u : SI) (m : Masses ℝ) (h : PhysicalData u m) (method : ReactivityMethod)
    (r : Reaction) (ts vs : List ℝ) (hts : ∀ t ∈ ts, t ≤ riseLimit method r)
    (e : reactivity u m method r ts = .ok vs) :
    vs = ts.map (thermalReactivity u m method r) ∧ ∀ t ∈ ts, goodTemperature method r t := by
  have hgood : ∀ t ∈ ts, goodTemperature method r t := by
    intro t ht
    by_cases hc : method ≠ .XS ∧ hasBoschHale r = true
    · unfold goodTemperature
      rw [if_pos hc]
      exact fun _ => (hts t ht).trans (riseLimit_le method r)
    · unfold goodTemperature
      rw [if_neg hc]
      have e' : (r.crossSection u m).reactivity u ts = .ok vs := by
        cases method
        · exact e
        all_goals
          have : r.boschHale = none := by
            rcases r with (_ | _ | _) | (_ | _) <;> simp_all [hasBoschHale, Reaction.boschHale]
          simpa only [reactivity, this] using e
      exact xs_positive u _ ts vs e' t ht
  by_cases hne : ts = []
  · subst hne
    refine ⟨?_, hgood⟩
    by_cases hc : method ≠ .XS ∧ hasBoschHale r = true
    · rw [C51_empty u m method r hc.1 hc.2] at e; cases e
    · cases vs with
      | nil => rfl
      | cons v vs =>
        exfalso
        have e' : (r.crossSection u m).reactivity u [] = .ok (v :: vs) := by
          cases method
          · exact e
          all_goals
            have : r.boschHale = none := by
              rcases r with (_ | _ | _) | (_ | _) <;> simp_all [hasBoschHale, Reaction.boschHale]
            simpa only [reactivity, this] using e
        unfold CrossSection.reactivity at e'
        cases hsg : tGridKeV.mapM (r.crossSection u m).call with
        | error x => rw [hsg] at e'; simp [Bind.bind, Except.bind] at e'
        | ok sg =>
          rw [hsg] at e'
          simp [Bind.bind, Except.bind, Pure.pure, Except.pure] at e'
  · refine ⟨?_, hgood⟩
    have := C51_dispatch u m h method r ts hne hgood
    rw [e] at this
    exact Except.ok.inj this

/-- Below its limit the reactivity never falls, also from non-positive temperatures (where a
Bosch-Hale reactivity is 0). -/
theorem thermalReactivity_mono (u : SI) (m : Masses ℝ) (h : PhysicalData u m) (hm : KnownMasses u m)
    (method : ReactivityMethod) (r : Reaction) (a b : ℝ) (hab : a ≤ b) (hb : b ≤ riseLimit method r)
    (ga : goodTemperature method r a) (gb : goodTemperature method r b) :
    thermalReactivity u m method r a ≤ thermalReactivity u m method r b := by
  by_cases ha : 0 < a
  · exact (thermalReactivity_strictMono u m h hm method r).monotoneOn ⟨ha, hab.trans hb⟩
      ⟨ha.trans_le hab, hb⟩ hab
  · have hc : method ≠ .XS ∧ hasBoschHale r = true := by
      by_contra hc
      unfold goodTemperature at ga
      rw [if_neg hc] at ga
      exact ha ga
    have e : thermalReactivity u m method r a = 0 := by
      unfold thermalReactivity boschHaleValue
      rw [if_pos hc, if_pos (not_lt.1 ha)]
    rw [e]
    exact thermalReactivity_nonneg u m h method r b gb

/-- **C76**, the whole source: if the densities (non-negative) and the temperature of one plasma are
nowhere larger than those of another with the same flux map, and no temperature of the hotter one exceeds the
limit of a requested reaction, then the cooler one emits at most as much as the hotter one in every
respect.  No fusion power is requested (otherwise it fixes the totals). -/
theorem C76_hotter {u : SI} {m : Masses ℝ} (h : PhysicalData u m) (hm : KnownMasses u m) {c : ℝ}
    (hQ : ∀ r, 0 ≤ totalEnergy m c r) {tr tr' : Transport} {fm : FluxMapView ℝ} {arg : SourceArg}
    {L : ℝ} {method : ReactivityMethod} {s s' : Source ℝ}
    (hs : makeSource u m c tr fm arg L none method = .ok s)
    (hs' : makeSource u m c tr' fm arg L none method = .ok s')
    (hD : AtMost tr.deuterium.value tr'.deuterium.value)
    (hT : AtMost tr.tritium.value tr'.tritium.value)
    (hH : AtMost tr.helium3.value tr'.helium3.value)
    (htemp : ∀ p a b, tr.temperature.value p = .ok a → tr'.temperature.value p = .ok b → a ≤ b)
    (hlim : ∀ r ∈ s.sourceType, ∀ t ∈ s'.temperature, t ≤ riseLimit method r)
    (hvol : ∀ v ∈ s.dVolume, 0 ≤ v) :
    EmitsAtMost (totalEnergy m c) s s' := by
  refine init_dom hQ hs hs' hD hT hH hvol ?_
  intro r hr v v' e e'
  obtain ⟨temp, -, -, -, -, -, ht, -, -, -, -, -, -, -, htt, -⟩ := Source.init_none hs
  obtain ⟨temp', -, -, -, -, -, ht', -, -, -, -, -, -, -, htt', -⟩ := Source.init_none hs'
  have hle : List.Forall₂ (· ≤ ·) s.temperature s'.temperature := by
    rw [htt, htt']
    rw [mapM_ok_iff] at ht ht'
    clear e e' hlim htt htt' hs hs' hD hT hH
    generalize List.zipWith fm.psiNorm _ _ = psi at ht ht'
    induction psi generalizing temp temp' with
    | nil => cases ht; cases ht'; exact .nil
    | cons a l ih =>
      cases ht with
      | cons h1 h2 =>
        cases ht' with
        | cons h3 h4 => exact .cons (htemp a _ _ h1 h3) (ih _ _ h2 h4)
  have hl' := hlim r hr
  have hl : ∀ t ∈ s.temperature, t ≤ riseLimit method r := by
    intro t ht
    obtain ⟨i, hi, rfl⟩ := List.getElem_of_mem ht
    have hlen := hle.length_eq
    exact (List.Forall₂.get hle hi (hlen ▸ hi)).trans (hl' _ (List.getElem_mem _))
  obtain ⟨e1, g1⟩ := reactivity_ok_value u m h method r _ _ hl e
  obtain ⟨e2, g2⟩ := reactivity_ok_value u m h method r _ _ hl' e'
  rw [e1, e2, List.forall₂_map_left_iff, List.forall₂_map_right_iff]
  clear e1 e2 e e' hl htt htt' hlim hr
  generalize s.temperature = ts at *
  generalize s'.temperature = ts' at *
  clear hs hs' hvol
  induction hle with
  | nil => exact .nil
  | cons hab hrest ih =>
    refine .cons ⟨thermalReactivity_nonneg u m h method r _ (g1 _ (by simp)),
      thermalReactivity_mono u m h hm method r _ _ hab (hl' _ (by simp)) (g1 _ (by simp))
        (g2 _ (by simp))⟩ (ih ?_ ?_ ?_)
    · exact fun t ht => g1 t (List.mem_cons_of_mem _ ht)
    · exact fun t ht => hl' t (List.mem_cons_of_mem _ ht)
    · exact fun t ht => g2 t (List.mem_cons_of_mem _ ht)

/-- **C76**, in terms of the inputs: with physical constants, a flux map from an accepted Fausser
parameterisation and two plasmas with non-negative densities, the second nowhere less dense and nowhere
cooler than the first and nowhere hotter than the limit of a requested reaction, both sources are built and
the first emits at most as much as the second. -/
theorem C76_plasma {u : SI} {m : Masses ℝ} {c : ℝ} (hc : GoodConstants u m c) (hm : KnownMasses u m)
    (method : ReactivityMethod) (arg : SourceArg) (st : List Reaction)
    (hst : parseSourceType arg = .ok st) (tr tr' : Transport) (hg : GoodPlasma method st tr)
    (hg' : GoodPlasma method st tr') (fm : ParamMap) (hfm : PlasmaMap fm) (psi : ℝ → ℝ → ℝ) (L : ℝ)
    (hL : 0 < L)
    (hD : AtMost tr.deuterium.value tr'.deuterium.value)
    (hT : AtMost tr.tritium.value tr'.tritium.value)
    (hH : AtMost tr.helium3.value tr'.helium3.value)
    (htemp : ∀ p a b, tr.temperature.value p = .ok a → tr'.temperature.value p = .ok b →
      a ≤ b ∧ ∀ r ∈ st, b ≤ riseLimit method r) :
    ∃ s s', makeSource u m c tr (fm.view psi) arg L none method = .ok s ∧
      makeSource u m c tr' (fm.view psi) arg L none method = .ok s' ∧
      EmitsAtMost (totalEnergy m c) s s' := by
  obtain ⟨s, hs, hty, -⟩ := C70_constructs hc method arg st hst tr hg fm hfm psi L hL
  obtain ⟨s', hs', -, -⟩ := C70_constructs hc method arg st hst tr' hg' fm hfm psi L hL
  refine ⟨s, s', hs, hs', C76_hotter hc.data hm (fun r => (physicalInput hc hg (plasmaMap_data hfm) psi).Q_pos r |>.le) hs
    hs' hD hT hH (fun p a b h1 h2 => (htemp p a b h1 h2).1) ?_ ?_⟩
  · intro r hr t ht
    obtain ⟨temp', -, -, -, -, -, ht', -, -, -, -, -, -, -, htt', -⟩ := Source.init_none hs'
    rw [htt'] at ht
    obtain ⟨p, -, hp⟩ := mapM_mem ht' t ht
    obtain ⟨a, ha, -⟩ := hg.temperature p
    exact (htemp p a t ha hp).2 r (hty ▸ hr)
  · intro v hv
    obtain ⟨-, -, -, -, -, -, -, -, -, -, -, -, hvol, -⟩ := Source.init_none hs
    rw [hvol] at hv
    simp only [sampleSpace2d, List.mem_map] at hv
    obtain ⟨q, hq, rfl⟩ := hv
    have hin : (fm.view psi).inside q = true := by
      unfold samplePoints at hq
      exact (List.mem_filter.1 hq).2
    have := (plasmaMap_data hfm).1 q hin
    exact ((C15_volume Real.pi [] [] (fun _ => false) 0 0 L).2 Real.pi_pos hL q.1 this).le

/-- The plasma of 25 keV and the same plasma twice as hot, both with 50:50 D-T fuel. -/
example : ∃ fm : ParamMap, ∀ psi : ℝ → ℝ → ℝ, ∃ tr s s',
    makeSource Ex.si Ex.massesR 1.4924180856e-10 tr (fm.view psi) .none 0.1 none .AUTO = .ok s ∧
    makeSource Ex.si Ex.massesR 1.4924180856e-10 { tr with temperature := tr.temperature.setScale 2 }
      (fm.view psi) .none 0.1 none .AUTO = .ok s' ∧
    EmitsAtMost (totalEnergy Ex.massesR 1.4924180856e-10) s s' := by
  obtain ⟨l, hl⟩ := (C39_accepted (9 : ℝ) 0 3 1.7 0.3 0.5 0).2 (by norm_num [abs_of_pos])
  obtain ⟨fm, hfm, -⟩ := C48_labels .fausser l [0, 0.5, 1] 50 (by norm_num) ⟨1, by simp, by norm_num⟩
    .linear
  refine ⟨fm, fun psi => ?_⟩
  obtain ⟨comp, hcomp, -⟩ := (C31_fractions (1 : ℝ) 1 0).2.1 (by norm_num)
  obtain ⟨h', ref, tr, -, -, hg, hT, hb⟩ := C70_pedestal .AUTO [.DT, .DDn, .DDp, .TT]
    [⟨.pedestal 25 5 0.1 1.5 2 0.9, 1⟩, ⟨.pedestal 1e20 8e19 3e19 1 2 0.9, 1⟩] 0 1
    25 5 0.1 1.5 2 0.9 1e20 8e19 3e19 1 2 0.9 rfl rfl (by norm_num) (by norm_num) (by norm_num)
    (by norm_num) 1 1 0 (by norm_num) (by norm_num) (by norm_num) comp hcomp
  have hsc : ∀ p, (tr.temperature.setScale 2).value p = (tr.temperature.value p).map (2 * ·) := by
    intro p
    simpa using C34_scale tr.temperature [2] p
  have hrefl : ∀ f : ℝ → Except Err ℝ, (∀ p, ∃ n, f p = .ok n ∧ 0 ≤ n) → AtMost f f := by
    intro f hf p a b ha hb
    obtain ⟨n, e, hn⟩ := hf p
    rw [e] at ha hb; cases ha; cases hb
    exact ⟨hn, le_refl _⟩
  have hlim : ∀ r : Reaction, (50 : ℝ) ≤ riseLimit .AUTO r := by
    rintro ((_ | _ | _) | (_ | _)) <;> simp [riseLimit, hasBoschHale, boschHaleLimit,
      crossSectionLimit] <;> norm_num
  refine ⟨tr, C76_plasma Ex.good_constants ⟨by constructor <;> norm_num [Ex.si, Ex.massesR], by norm_num [Ex.massesR]⟩ .AUTO
    .none [.DT, .DDn, .DDp, .TT] C01_default tr
    { tr with temperature := tr.temperature.setScale 2 } hg ⟨?_, hg.deuterium, hg.tritium, hg.helium3⟩ fm
    ⟨.fausser, 9, 0, 3, 1.7, 0.3, 0.5, 0, l, [0, 0.5, 1], 50, .linear, .inl rfl, hl, by norm_num, hfm⟩ psi 0.1
    (by norm_num) (hrefl _ hg.deuterium) (hrefl _ hg.tritium) (hrefl _ hg.helium3) ?_⟩
  · intro rho
    obtain ⟨T, e, -⟩ := hg.temperature rho
    obtain ⟨h1, h2⟩ := hT rho T e
    refine ⟨2 * T, by rw [hsc, e]; rfl, fun r _ => ?_⟩
    unfold goodTemperature
    split_ifs
    · intro _; linarith
    · linarith
  · intro p a b ha hb
    rw [hsc, ha] at hb
    cases hb
    obtain ⟨h1, h2⟩ := hT p a ha
    exact ⟨by linarith, fun r _ => by linarith [hlim r]⟩

end TNS
