import Verif.Props.RoundedXs
import Verif.Props.RoundedMakeExact
/-
C94, continued: the cross-section reactivity without rounding is the exact model, and the whole constructor in floating
point for every choice of reactions and method.
-/

set_option autoImplicit false

namespace TNS
open Spec
noncomputable section

theorem loadR_exact (u : SI) (a b : ℝ) (rows : List (ℝ × ℝ)) :
    CrossSection.loadR exactArith u a b rows = CrossSection.load u a b rows := by
  unfold CrossSection.loadR CrossSection.load
  have rdid : ∀ x, exactArith.rd x = x := fun _ => rfl
  simp only [rdid]
  norm_num

theorem crossSectionR_exact (u : SI) (m : Masses ℝ) (r : Reaction) :
    r.crossSectionR exactArith u m = r.crossSection u m := by
  rw [crossSectionR_eq, crossSection_eq, loadR_exact]

theorem npInterpR_exact (t : List (ℝ × ℝ)) (x : ℝ) : npInterpR exactArith t x = npInterp t x := by
  have rdid : ∀ x, exactArith.rd x = x := fun _ => rfl
  induction t with
  | nil => rfl
  | cons p l ih =>
    cases l with
    | nil => rfl
    | cons q l =>
      simp only [npInterpR, npInterp, rdid]
      by_cases h : x < q.1
      · rw [if_pos h, if_pos h]
        rcases lt_trichotomy x p.1 with h' | h' | h'
        · rw [if_pos h'.le, if_pos h']
        · rw [if_pos h'.le, if_neg (by rw [h']; exact lt_irrefl _), h']
          ring
        · rw [if_neg (not_le.2 h'), if_neg (not_lt.2 h'.le)]
      · rw [if_neg h, if_neg h]
        exact ih

theorem interp1dR_exact (t : List (ℝ × ℝ)) (x : ℝ) : interp1dR exactArith t x = interp1d t x := by
  unfold interp1dR interp1d
  have e : (fun p q : ℝ × ℝ => @decide (p.1 ≤ q.1) (Classical.propDecidable _)) =
      fun p q : ℝ × ℝ => decide (p.1 ≤ q.1) := by
    funext p q
    congr
  simp only [npInterpR_exact, e]
  generalize t.mergeSort (fun p q : ℝ × ℝ => decide (p.1 ≤ q.1)) = l
  cases l.head? with
  | none => rfl
  | some a =>
    cases l.getLast? with
    | none => rfl
    | some b => simp only

theorem tGridKeVR_exact : tGridKeVR exactArith exactLib = tGridKeV := by
  have rdid : ∀ x, exactArith.rd x = x := fun _ => rfl
  unfold tGridKeVR tGridKeV
  refine List.map_congr_left fun i _ => ?_
  simp only [exactLib, rdid]
  congr 1
  by_cases h : i = 999
  · rw [if_pos h, h]; norm_num
  · rw [if_neg h]; ring

theorem trapezoidTermsR_exact (l : List (ℝ × ℝ)) : (trapezoidTermsR exactArith l).sum = trapezoid l := by
  have rdid : ∀ x, exactArith.rd x = x := fun _ => rfl
  induction l with
  | nil => rfl
  | cons p l ih =>
    cases l with
    | nil => rfl
    | cons q l => simp only [trapezoidTermsR, trapezoid, List.sum_cons, rdid, ih]

/-- C94.  Without rounding this is the cross-section reactivity of the exact model. -/
theorem C94_exact (u : SI) (hk : 0 < u.keV) (m : Masses ℝ) (r : Reaction) (ts : List ℝ) :
    reactivityXsR exactArith exactLib Real.pi u m r ts = reactivity u m .XS r ts := by
  have rdid : ∀ x, exactArith.rd x = x := fun _ => rfl
  have e : ∀ (xs : CrossSection) (sigma : List ℝ) (t : ℝ),
      xs.entryR exactArith exactLib Real.pi u sigma t = xs.entry u sigma t := by
    intro xs sigma t
    unfold CrossSection.entryR CrossSection.entry
    rw [tGridKeVR_exact]
    generalize tGridKeV = grid
    have np : exactArith.npSum = List.sum := rfl
    simp only [keVToJR, rdid, xsFactorR, integrandR, exactLib, np, trapezoidTermsR_exact]
    by_cases h : t ≤ 0
    · rw [if_pos h, if_pos (mul_nonpos_of_nonpos_of_nonneg h hk.le)]
    · rw [if_neg h, if_neg (not_le.2 (mul_pos (not_le.1 h) hk))]
  have e2 : ∀ xs : CrossSection, xs.reactivityR exactArith exactLib Real.pi u ts = xs.reactivity u ts := by
    intro xs
    unfold CrossSection.reactivityR CrossSection.reactivity CrossSection.call
    rw [tGridKeVR_exact, show interp1dR exactArith xs.table = interp1d xs.table from funext (interp1dR_exact _)]
    refine congrArg _ (funext fun sigma => ?_)
    rw [show xs.entryR exactArith exactLib Real.pi u sigma = xs.entry u sigma from funext (e xs sigma)]
  unfold reactivityXsR
  rw [crossSectionR_exact, e2]
  rfl

/-- All reactivities are accurate. -/
theorem all_accurate {A : Arith} {u v : ℝ} (hA : StandardModel A u) {F : MathLib} (hF : AccurateLib F v)
    (huv : u ≤ v) (hv : v ≤ 1 / 10 ^ 8) {pi : ℝ} (hpi : |pi - Real.pi| ≤ u * Real.pi) {U : SI} {m : Masses ℝ}
    (hm : RoughData U m) (method : ReactivityMethod) (r : Reaction) :
    AccurateReactivity (reactivityR A F (reactivityXsR A F pi U m) method) (referenceReactivity U m method)
      (165000 * v) r := by
  have hv0 : 0 ≤ v := hA.u_nonneg.trans huv
  by_cases hr : method ≠ .XS ∧ hasBoschHale r = true
  · obtain ⟨h1, h2, h3⟩ := boschHale_accurate hA hF huv (by linarith) (xs := reactivityXsR A F pi U m) hr.1 hr.2
    have e : referenceReactivity U m method r = publishedReactivity r := by
      funext t
      unfold referenceReactivity
      rw [if_pos hr]
    refine ⟨by rw [e]; exact h1, h2, fun ts hts ys hy => ?_⟩
    rw [e]
    have h := h3 ts hts ys hy
    rw [List.forall₂_iff_get] at h ⊢
    refine ⟨h.1, fun i i1 i2 => (h.2 i i1 i2).trans (mul_le_mul_of_nonneg_right (by linarith) ?_)⟩
    have := hts _ (List.get_mem ts ⟨i, i1⟩)
    exact (h1 _ this.1 this.2).le
  · have e : referenceReactivity U m method r = averagedReactivity U m r := by
      funext t
      unfold referenceReactivity
      rw [if_neg hr]
    have e' : ∀ ts, reactivityR A F (reactivityXsR A F pi U m) method r ts = reactivityXsR A F pi U m r ts := by
      intro ts
      unfold reactivityR
      cases method with
      | XS => rfl
      | _ =>
        have : r.boschHale = none := by
          have : hasBoschHale r = false := by
            by_contra hc
            exact hr ⟨by simp, by simpa using hc⟩
          rcases r with (_ | _ | _) | (_ | _) <;> simp [hasBoschHale] at this <;> rfl
        simp only [this]
    have key := fun ts hts => C94_reactivity (gradual_of_standard hA) (gradual_of_accurate hF) huv hv (by positivity)
      hpi hm r ts hts
    refine ⟨fun T h1 h2 => ?_, fun ts _ hts => ?_, fun ts hts ys hy => ?_⟩
    · rw [e]
      obtain ⟨ys, -, h⟩ := key [T] (by simpa using ⟨h1, h2⟩)
      cases h with
      | cons h _ => exact h.1
    · rw [e']
      obtain ⟨ys, h, -⟩ := key ts hts
      exact ⟨ys, h⟩
    · rw [e'] at hy
      rw [e]
      obtain ⟨ys', h, h'⟩ := key ts hts
      rw [h] at hy
      cases hy
      exact h'.imp fun _ _ h => h.2

/-- C94.  The whole constructor in floating point, for every source type and every method: the strength of a cell of a
source normalised to the power `P` is `P x (its reaction rate) / (power of all cells by the formulas)`, with a relative
error of at most `379500 v + 3 (cells + channels + 14) u`. -/
theorem C94_source {A : Arith} {u v : ℝ} (hA : StandardModel A u) {F : MathLib} (hF : AccurateLib F v)
    (huv : u ≤ v) (hv : v ≤ 1 / 10 ^ 9) {pi : ℝ} (hpi : |pi - Real.pi| ≤ u * Real.pi) {U : SI} {m : Masses ℝ}
    (hm : RoughData U m) {Q : Reaction → ℝ} (hQ : ∀ r, 0 < Q r)
    {pts : List (ℝ × ℝ)} {oX oZ : ℝ} {psi : ℝ → ℝ → ℝ} {tr : TransportView ℝ} {arg : SourceArg} {L : ℝ}
    {method : ReactivityMethod} {s : Source ℝ} {P : ℝ} (hP : 0 < P)
    (hs : Source.makeR A F (reactivityXsR A F pi U m) pi Q pts oX oZ psi tr arg L (some P) method = .ok s)
    (hok : PlasmaOK tr psi (centres s))
    (hsmall : 379500 * v + 3 * ((cells s : ℝ) + s.sourceType.length + 14) * u ≤ 1 / 500) :
    0 < cellsPower (referenceReactivity U m method) Q tr psi L (centres s) s.sourceType ∧
    ∀ r ∈ s.sourceType, List.Forall₂ (fun a p =>
      |a - P * cellRate (referenceReactivity U m method) tr psi L r p /
          cellsPower (referenceReactivity U m method) Q tr psi L (centres s) s.sourceType| ≤
        (379500 * v + 3 * ((cells s : ℝ) + s.sourceType.length + 14) * u) *
          (P * cellRate (referenceReactivity U m method) tr psi L r p /
            cellsPower (referenceReactivity U m method) Q tr psi L (centres s) s.sourceType))
      (strengths s r) (centres s) := by
  have hv0 : 0 ≤ v := hA.u_nonneg.trans huv
  have e : 2.3 * (165000 * v) + 3 * ((cells s : ℝ) + s.sourceType.length + 14) * u =
      379500 * v + 3 * ((cells s : ℝ) + s.sourceType.length + 14) * u := by ring
  have := C93_strengths hA hpi hQ (e := 165000 * v) (by linarith)
    (fun r _ => all_accurate hA hF huv (by linarith) hpi hm method r) hok hP hs (by rw [e]; exact hsmall)
  rw [e] at this
  exact this

/-- C94.  With binary64 numbers, library functions accurate to 4 units of rounding and at most a million cells, every
strength is right to one part in 10⁹, for every source type and method. -/
theorem C94_source_binary64 {F : MathLib} (hF : AccurateLib F (4 * (2 : ℝ) ^ (-53 : ℤ)))
    {U : SI} {m : Masses ℝ} (hm : RoughData U m) {Q : Reaction → ℝ} (hQ : ∀ r, 0 < Q r)
    {pts : List (ℝ × ℝ)} {oX oZ : ℝ} {psi : ℝ → ℝ → ℝ} {tr : TransportView ℝ}
    {arg : SourceArg} {L : ℝ} {method : ReactivityMethod} {s : Source ℝ} {P : ℝ} (hP : 0 < P)
    (hs : Source.makeR binary64 F (reactivityXsR binary64 F (round53 Real.pi) U m) (round53 Real.pi) Q pts oX oZ psi tr
      arg L (some P) method = .ok s)
    (hok : PlasmaOK tr psi (centres s)) (hN : cells s + s.sourceType.length ≤ 1000000) :
    ∀ r ∈ s.sourceType, List.Forall₂ (fun a p =>
      |a - P * cellRate (referenceReactivity U m method) tr psi L r p /
          cellsPower (referenceReactivity U m method) Q tr psi L (centres s) s.sourceType| ≤
        1 / 10 ^ 9 * (P * cellRate (referenceReactivity U m method) tr psi L r p /
          cellsPower (referenceReactivity U m method) Q tr psi L (centres s) s.sourceType))
      (strengths s r) (centres s) := by
  have h53 := u53
  have hp : (0 : ℝ) < (2 : ℝ) ^ (-53 : ℤ) := by positivity
  have hpi : |round53 Real.pi - Real.pi| ≤ (2 : ℝ) ^ (-53 : ℤ) * Real.pi := by
    have := C74_binary64.rel Real.pi
    rwa [abs_of_pos Real.pi_pos] at this
  have hN' : (cells s : ℝ) + s.sourceType.length ≤ 1000000 := by exact_mod_cast hN
  have hε : 379500 * (4 * (2 : ℝ) ^ (-53 : ℤ)) +
      3 * ((cells s : ℝ) + s.sourceType.length + 14) * (2 : ℝ) ^ (-53 : ℤ) ≤ 1 / 10 ^ 9 := by
    have : 3 * ((cells s : ℝ) + s.sourceType.length + 14) * (2 : ℝ) ^ (-53 : ℤ) ≤
        3 * 1000014 * (2 : ℝ) ^ (-53 : ℤ) := mul_le_mul_of_nonneg_right (by linarith) hp.le
    linarith
  obtain ⟨hT, h⟩ := C94_source C74_binary64 hF (by linarith) (by linarith) hpi hm hQ hP hs hok (hε.trans (by norm_num))
  intro r hr
  have h := h r hr
  rw [List.forall₂_iff_get] at h ⊢
  refine ⟨h.1, fun i h1 h2 => (h.2 i h1 h2).trans (mul_le_mul_of_nonneg_right hε ?_)⟩
  obtain ⟨p1, p2, p3, p4⟩ := hok _ (List.get_mem (centres s) ⟨i, h2⟩)
  have := Real.pi_pos
  have hacc := all_accurate C74_binary64 hF (by linarith) (by linarith) hpi hm method r
  have := mul_nonneg (rateDensity_nonneg' _ p2 _ (hacc.pos _ p3 p4).le r)
    (show 0 ≤ 2 * Real.pi * ((centres s).get ⟨i, h2⟩).1 * L ^ 2 by positivity)
  exact div_nonneg (mul_nonneg hP.le this) hT.le

namespace Ex

/-- The hypotheses are met: a 500 MW source with the default reactions, of which T-T has no published fit. -/
theorem default_source (psi : ℝ → ℝ → ℝ) : ∃ s,
    Source.makeR binary64 roundedLib (reactivityXsR binary64 roundedLib (round53 Real.pi)
        ⟨1.602176634e-16, 1.66053906660e-27⟩ ⟨2.01410177812, 3.0160492779, 4.002602, 3.0160293201, 1.00866491588,
        1.007276466621, 5.48579909065e-4⟩)
        (round53 Real.pi) (fun _ => 2.8e-12) rectangle 2 0 psi flat .none (3 / 10) (some 5e8) .AUTO = .ok s ∧
      .TT ∈ s.sourceType ∧ .DT ∈ s.sourceType ∧ PlasmaOK flat psi (centres s) ∧ cells s + s.sourceType.length ≤ 1000000 ∧
      centres s ≠ [] := by
  generalize hU : (⟨1.602176634e-16, 1.66053906660e-27⟩ : SI) = U
  generalize hM : (⟨2.01410177812, 3.0160492779, 4.002602, 3.0160293201, 1.00866491588,
        1.007276466621, 5.48579909065e-4⟩ : Masses ℝ) = m
  have hm : RoughData U m := by rw [← hU, ← hM]; exact rough_measured
  obtain ⟨st, hst, hst1, hst2, hst3⟩ : ∃ st, parseSourceType .none = .ok st ∧ (.TT ∈ st ∧ .DT ∈ st) ∧ Reaction.DHe3 ∉ st ∧
      st.length ≤ 5 := by
    refine ⟨_, rfl, ?_, ?_, ?_⟩ <;> rw [finish_eq_filter] <;> decide
  have hpi : |round53 Real.pi - Real.pi| ≤ (2 : ℝ) ^ (-53 : ℤ) * Real.pi := by
    have := C74_binary64.rel Real.pi
    rwa [abs_of_pos Real.pi_pos] at this
  have h53 := u53
  have hp : (0 : ℝ) < (2 : ℝ) ^ (-53 : ℤ) := by positivity
  have hne : samplePointsR binary64 rectangle 2 0 (3 / 10) ≠ [] := by
    obtain ⟨p, hp, -⟩ := C79_o_point _ _ _ _ _ _ _ rect_resolved (rect_far _ ⟨0, 0, by simp, by simp⟩)
    exact List.ne_nil_of_mem hp
  have hacc := all_accurate C74_binary64 accurate_libs.2 (by linarith) (by linarith) hpi hm .AUTO
  have hpow : 0 < cellsPower (referenceReactivity U m .AUTO) (fun _ => 2.8e-12) flat psi (3 / 10)
      (samplePointsR binary64 rectangle 2 0 (3 / 10)) st := by
    unfold cellsPower channelRate
    refine List.sum_pos _ ?_ (by simpa using List.ne_nil_of_mem hst1.1)
    intro y hy
    obtain ⟨r, hr, rfl⟩ := List.mem_map.1 hy
    refine mul_pos (List.sum_pos _ ?_ (by simpa using hne)) (by norm_num)
    intro x hx
    obtain ⟨p, hp, rfl⟩ := List.mem_map.1 hx
    have h1 := rect_radius p hp
    have h2 := (hacc r).pos 10 (by norm_num) (by norm_num)
    have := Real.pi_pos
    have : 0 < p.1 := by linarith
    have hr' : r ≠ .DHe3 := fun e => hst2 (e ▸ hr)
    unfold cellRate rateDensity
    generalize referenceReactivity U m .AUTO r = ref at h2
    have e : valueAt flat.temperature (psi p.1 p.2) = 10 := by simp [valueAt, flat]
    rw [e]
    refine mul_pos (div_pos (mul_pos ?_ h2) ?_) (by positivity)
    · rcases r with (_ | _ | _) | (_ | _)
      · simp [reactants, density, valueAt, flat]; norm_num
      · simp [reactants, density, valueAt, flat]; norm_num
      · simp [reactants, density, valueAt, flat]; norm_num
      · simp [reactants, density, valueAt, flat]; norm_num
      · exact absurd rfl hr'
    · split_ifs <;> norm_num
  obtain ⟨s, hs⟩ := C93_succeeds C74_binary64 hpi (Q := fun _ => 2.8e-12) (fun _ => by norm_num)
    (e := 165000 * (4 * (2 : ℝ) ^ (-53 : ℤ))) (by positivity) (by linarith) hst (fun r _ => hacc r)
    (flat_ok psi) (by
      intro p _ f hf
      simp only [flat, List.mem_cons, List.not_mem_nil, or_false] at hf
      rcases hf with rfl | rfl | rfl | rfl <;> exact ⟨_, rfl⟩) hne (some 5e8) hpow
  obtain ⟨c1, c2⟩ := C93_cells hs
  rw [hst] at c1
  obtain ⟨st', temp, d, t, h, sv, hm', H⟩ := makeR_ok_iff.1 hs
  obtain ⟨f1, f2, f3⟩ := unscaled_fields binary64 (round53 Real.pi) rectangle 2 0 (3 / 10) st' temp d t h sv (parse_nodup hm'.parse)
  obtain ⟨g1, g2, g3⟩ := normaliseR_fields H
  have c1 := (Except.ok.inj c1).symm
  refine ⟨s, hs, ?_, ?_, ?_, ?_, ?_⟩
  · rw [c1]; exact hst1.1
  · rw [c1]; exact hst1.2
  · rw [c2]; exact flat_ok psi
  · rw [c1, g3, f3]
    have := rect_count
    omega
  · rw [c2]; exact hne

end Ex

end
end TNS
