import Verif.Props.RoundedSdefText
/-
C111: from the plasma to the text of the SDEF files, energy cards included, with binary64 numbers.
-/

set_option autoImplicit false

namespace TNS
open Spec
noncomputable section

/-- The distributions of a file are numbered from 5, each once, in the order of the list DS4. -/
theorem files_numbered {A : Arith} {u : ℝ} (hA : StandardModel A u) (hu : u ≤ 1 / 10 ^ 9) {Q : Reaction → ℝ}
    (hQ : ∀ r, 0 < Q r) {j : ℕ} {s : Source ℝ} (hs : ReachableR A Q j s) (hw : CellWise s) (hsp : CellsApart s)
    (hL : 0 < s.cellSideLength) (hne : s.x ≠ [])
    (hres : ∀ c ∈ s.x, |c| + s.cellSideLength ≤ 40000 * s.cellSideLength)
    (stub : String) (files : List (SdefFile ℝ)) (hf : s.toSdefR A stub = .ok files) (f : SdefFile ℝ) (hfm : f ∈ files) :
    f.cards.vertical.map (·.1) = f.cards.ds4 ∧ f.cards.ds4.Nodup ∧ ∀ n ∈ f.cards.ds4, 5 ≤ n := by
  have h0 := hA.u_nonneg
  obtain ⟨c, hr, -, hnn, hlen, hcards, hfeq⟩ := toSdefR_mem hA hQ hs stub files hf f hfm
  set L := s.cellSideLength with hLdef
  have hd : (strengths s f.reaction).length = s.x.length := hw.strength _ hr
  have hsort := spaced_sorted hsp hL hw.z
  have hg : ∀ a ∈ s.x, ∀ b ∈ s.x, a < b → A.rd (a * 100) < A.rd (b * 100) := by
    intro a ha b hb hab
    have hgap := spaced_gap hsp hL hw.z a b ha hb hab
    have r1 := hA.rel (a * 100)
    have r2 := hA.rel (b * 100)
    rw [abs_mul, abs_of_pos (by norm_num : (0 : ℝ) < 100)] at r1 r2
    have b1 : u * (|a| * 100) ≤ 1 / 10 ^ 9 * (40000 * L * 100) :=
      mul_le_mul hu (by linarith [hres a ha]) (by positivity) (by norm_num)
    have b2 : u * (|b| * 100) ≤ 1 / 10 ^ 9 * (40000 * L * 100) :=
      mul_le_mul hu (by linarith [hres b hb]) (by positivity) (by norm_num)
    rw [abs_le] at r1 r2
    rw [← hLdef] at hgap
    linarith [r1.2, r2.1]
  have hcl := sdefCardsR_eq A s.x s.z L (strengths s f.reaction) hsort hne hw.z hd hg
  simp only at hcl
  rw [hcards] at hcl
  have hcl := Except.ok.inj hcl
  have hfc : f.cards = c := by rw [hfeq]
  rw [hfc, hcl]
  refine ⟨?_, ?_, ?_⟩
  · apply List.ext_getElem
    · simp [genCards]
    · intro n h1 h2; simp [genCards]
  · simp only [genCards]
    exact List.nodup_range.map (fun a b h => by simpa using h)
  · intro n hn
    simp only [genCards, List.mem_map] at hn
    obtain ⟨i, -, rfl⟩ := hn
    omega

theorem energyCards_mono {ε δ : ℝ} (h : ε ≤ δ) {r : Neutronic} {T : ℝ} {cards : List (List (List Char))}
    (hc : EnergyCards ε r T cards) : EnergyCards δ r T cards := by
  cases r with
  | D_T => exact hc
  | D_D => exact hc
  | T_T =>
    obtain ⟨t', es, ps, c, h1, h2⟩ := hc
    exact ⟨t', es, ps, c, ⟨h1.lower, h1.upper, h1.near.trans h, h1.below, h1.above⟩, h2⟩

/-- A weighted mean temperature lies in the range of the temperatures. -/
theorem mean_temperature_range {ref : Reaction → ℝ → ℝ} {tr : TransportView ℝ} {psi : ℝ → ℝ → ℝ} {L : ℝ} {r : Reaction}
    {cs : List (ℝ × ℝ)} (hw : ∀ p ∈ cs, 0 ≤ cellRate ref tr psi L r p)
    (ht : ∀ p ∈ cs, 0.2 ≤ temperatureAt tr psi p ∧ temperatureAt tr psi p ≤ 100) (hch : 0 < channelRate ref tr psi L cs r) :
    0.2 ≤ (cs.map fun p => cellRate ref tr psi L r p * temperatureAt tr psi p).sum / channelRate ref tr psi L cs r ∧
      (cs.map fun p => cellRate ref tr psi L r p * temperatureAt tr psi p).sum / channelRate ref tr psi L cs r ≤ 100 := by
  rw [le_div_iff₀ hch, div_le_iff₀ hch]
  unfold channelRate
  rw [← List.sum_map_mul_left, ← List.sum_map_mul_left]
  constructor
  · refine List.sum_le_sum ?_
    intro p hp
    have := mul_le_mul_of_nonneg_left (ht p hp).1 (hw p hp)
    linarith
  · refine List.sum_le_sum ?_
    intro p hp
    have := mul_le_mul_of_nonneg_left (ht p hp).2 (hw p hp)
    linarith

/-- C111.  With binary64 numbers, library functions accurate to 4 units of rounding and at most a million cells and channels:
every reaction with neutrons has its SDEF file, and if it occurs, then the total and the ion temperature are those of the
plasma to 4 parts in 10⁹, and the text of the file, read by MCNP's rules, has a bin for each cell, with its edges and its share
of the reaction, and energy cards for the neutrons of the reaction at that ion temperature. -/
theorem C111_binary64 {F : MathLib} (hF : AccurateLib F (4 * (2 : ℝ) ^ (-53 : ℤ)))
    {U : SI} {m : Masses ℝ} (hm : RoughData U m) {Q : Reaction → ℝ} (hQ : ∀ r, 0 < Q r)
    {pts : List (ℝ × ℝ)} {oX oZ : ℝ} {psi : ℝ → ℝ → ℝ} {tr : TransportView ℝ}
    {arg : SourceArg} {L : ℝ} {method : ReactivityMethod} {s : Source ℝ} {P : ℝ} (hP : 0 < P)
    (hs : Source.makeR binary64 F (reactivityXsR binary64 F (round53 Real.pi) U m) (round53 Real.pi) Q pts oX oZ psi tr
      arg L (some P) method = .ok s)
    (hok : PlasmaOK tr psi (centres s)) (hN : cells s + s.sourceType.length ≤ 1000000)
    {M : ℝ} (hres : Resolved binary64 ((2 : ℝ) ^ (-53 : ℤ)) pts oX oZ L M)
    (hfar : ∀ p ∈ centres s, |p.1| + L ≤ 40000 * L ∧ |p.2| + L ≤ 40000 * L) (hne : centres s ≠ [])
    {ke ks km : ℝ} (hke : ScaleFactor ((2 : ℝ) ^ (-53 : ℤ)) 1000 ke) (hks : ScaleFactor ((2 : ℝ) ^ (-53 : ℤ)) (1 / 1000) ks)
    (hkm : ScaleFactor ((2 : ℝ) ^ (-53 : ℤ)) (1 / 1000) km) (stub : String) :
    ∃ files, s.toSdefR binary64 stub = .ok files ∧
      files.map SdefFile.reaction = s.sourceType.filter (fun r => decide (0 < neutronYield r)) ∧
      ∀ f ∈ files, f.name = sdefFileName stub f.reaction ∧
        (0 < channelRate (referenceReactivity U m method) tr psi L (centres s) f.reaction →
          RelClose (4 / 10 ^ 9) f.total
            (P * channelRate (referenceReactivity U m method) tr psi L (centres s) f.reaction /
              cellsPower (referenceReactivity U m method) Q tr psi L (centres s) s.sourceType) ∧
          ∃ T, f.ionTemp = .fin T ∧
            RelClose (4 / 10 ^ 9) T
              (((centres s).map fun p =>
                  cellRate (referenceReactivity U m method) tr psi L f.reaction p * temperatureAt tr psi p).sum /
                channelRate (referenceReactivity U m method) tr psi L (centres s) f.reaction) ∧
            ∀ (r : Neutronic) (cit : Citation), f.reaction = .n r → CleanCitation cit → Printable f.cards →
              ∃ text c, sdefTextR binary64 ke ks km cit r f = .ok text ∧ readSdef (readCards 128 text) = some c ∧
                List.Forall₂ (fun p b => BinIdeal L (centres s)
                    (cellRate (referenceReactivity U m method) tr psi L f.reaction p /
                      channelRate (referenceReactivity U m method) tr psi L (centres s) f.reaction) p b)
                  (centres s) (sdefBins c) ∧
                EnergyCards (1 / 10 ^ 13) r T (readCards 128 text)) := by
  have h53 := u53
  have hp : (0 : ℝ) < (2 : ℝ) ^ (-53 : ℤ) := by positivity
  have hpi : |round53 Real.pi - Real.pi| ≤ (2 : ℝ) ^ (-53 : ℤ) * Real.pi := by
    have := C74_binary64.rel Real.pi
    rwa [abs_of_pos Real.pi_pos] at this
  have hN' : (cells s : ℝ) + s.sourceType.length ≤ 1000000 := by exact_mod_cast hN
  have hε : 2.3 * (165000 * (4 * (2 : ℝ) ^ (-53 : ℤ))) +
      3 * ((cells s : ℝ) + s.sourceType.length + 14) * (2 : ℝ) ^ (-53 : ℤ) ≤ 1 / 10 ^ 9 := by
    have : 3 * ((cells s : ℝ) + s.sourceType.length + 14) * (2 : ℝ) ^ (-53 : ℤ) ≤
        3 * 1000014 * (2 : ℝ) ^ (-53 : ℤ) := mul_le_mul_of_nonneg_right (by linarith) hp.le
    linarith
  have hacc : ∀ r ∈ s.sourceType, _ := fun r (_ : r ∈ s.sourceType) =>
    all_accurate C74_binary64 hF (by linarith) (by linarith) hpi hm method r
  have hr := makeR_ready C74_binary64 hpi hQ (by positivity) hacc hok hP hs (hε.trans (by norm_num))
  obtain ⟨w1, w2, w3, w4, w5⟩ := makeR_wise hs
  obtain ⟨files, hf, hf1, key⟩ := C95_sdef C74_binary64 hpi hQ (by positivity) hacc hok hP hs hres (by linarith)
    (hε.trans (by norm_num)) hfar hne stub
  refine ⟨files, hf, hf1, fun f hfm => ⟨(key f hfm).1, fun hch => ?_⟩⟩
  obtain ⟨k1, ⟨T, k2, k3⟩, k4⟩ := (key f hfm).2 hch
  have hm' : f.reaction ∈ s.sourceType := by
    have : f.reaction ∈ files.map SdefFile.reaction := List.mem_map_of_mem hfm
    rw [hf1] at this
    exact List.mem_of_mem_filter this
  have hnn : ∀ p ∈ centres s, 0 ≤ cellRate (referenceReactivity U m method) tr psi L f.reaction p :=
    fun p hp => hr.rate p hp _ hm'
  obtain ⟨t1, t2⟩ := mean_temperature_range hnn (fun p hp => (hok p hp).2.2) hch
  have mono : ∀ {a x : ℝ}, 0 ≤ x → RelClose (3.5 * (2.3 * (165000 * (4 * (2 : ℝ) ^ (-53 : ℤ))) +
      3 * ((cells s : ℝ) + s.sourceType.length + 14) * (2 : ℝ) ^ (-53 : ℤ))) a x → RelClose (4 / 10 ^ 9) a x := by
    intro a x hx h
    exact le_trans h (mul_le_mul_of_nonneg_right (by linarith) hx)
  have k3 := mono (by linarith) k3
  refine ⟨mono (?_ : (0 : ℝ) ≤ _) k1, T, k2, k3, ?_⟩
  · rw [mul_div_right_comm]
    exact mul_nonneg hr.k_pos.le hch.le
  intro r cit hrf hcit hpr
  obtain ⟨text, c, c1, c2, c3⟩ := k4 r cit hcit hpr
  have hxne : s.x ≠ [] := by rw [w1]; simpa using hne
  have hapart : CellsApart s := C89_sampled binary64 _ (round53 Real.pi) pts oX oZ L M hres s (by
      rw [w1, (C93_cells hs).2]; rfl) (by rw [w2, (C93_cells hs).2]; rfl) w4
  obtain ⟨n1, n2, n3⟩ := files_numbered C74_binary64 (by linarith) hQ hr.reach hr.wise hapart (by rw [w4]; exact hres.side) hxne
    (by
      rw [w4, w1]
      intro a ha
      obtain ⟨p, hp, rfl⟩ := List.mem_map.1 ha; exact (hfar p hp).1) stub files hf f hfm
  have hT : 1 / 10 ^ 100 ≤ T ∧ T ≤ 10 ^ 100 := by
    unfold RelClose at k3
    generalize ((centres s).map fun p => cellRate (referenceReactivity U m method) tr psi L f.reaction p *
      temperatureAt tr psi p).sum / channelRate (referenceReactivity U m method) tr psi L (centres s) f.reaction = x at *
    have := abs_le.1 k3
    constructor
    · refine le_trans (by norm_num : (1 : ℝ) / 10 ^ 100 ≤ 0.1) (by linarith)
    · refine le_trans (by linarith : T ≤ 101) (by norm_num)
  obtain ⟨textR, e1, e2, e3⟩ := same_positions C74_binary64 C100_binary64_order round53_one (by linarith) hke hks hkm cit hcit r
    f T k2 hT hpr n1 n2 n3 text c1
  exact ⟨textR, c, e1, e2.trans c2, c3, energyCards_mono (by linarith) e3⟩

/-- The hypotheses of C111 are met: a 500 MW source with the default reactions has SDEF files, one of them for D-T, whose ion
temperature is 10 keV. -/
example (psi : ℝ → ℝ → ℝ) : ∃ (s : Source ℝ) (files : List (SdefFile ℝ)), s.toSdefR binary64 "out" = .ok files ∧
    ∃ f ∈ files, f.reaction = .DT ∧ ∃ T, f.ionTemp = .fin T ∧ RelClose (4 / 10 ^ 9) T 10 ∧
      (Printable f.cards → ∃ text, sdefTextR binary64 1000 (binary64.rd (1 / 1000)) (binary64.rd (1 / 1000)) Ex.citation .D_T f =
        .ok text ∧ EnergyCards (1 / 10 ^ 13) .D_T T (readCards 128 text)) := by
  obtain ⟨s, hs, -, hdt, hok, hN, hne⟩ := Ex.default_source psi
  generalize hU : (⟨1.602176634e-16, 1.66053906660e-27⟩ : SI) = U at hs
  generalize hM : (⟨2.01410177812, 3.0160492779, 4.002602, 3.0160293201, 1.00866491588,
        1.007276466621, 5.48579909065e-4⟩ : Masses ℝ) = m at hs
  have hm : RoughData U m := by rw [← hU, ← hM]; exact rough_measured
  have hc := (C93_cells hs).2
  have hx : ∀ p ∈ centres s, 0 < p.1 := by
    intro p hp
    rw [hc] at hp
    linarith [Ex.rect_radius p hp]
  have hQ : ∀ r : Reaction, (0 : ℝ) < (fun _ => 2.8e-12) r := fun _ => by norm_num
  have ht : ∀ p : ℝ × ℝ, temperatureAt Ex.flat psi p = 10 := fun p => by simp [temperatureAt, valueAt, Ex.flat]
  obtain ⟨files, h1, h2, h3⟩ := C111_binary64 accurate_libs.2 hm hQ (by norm_num) hs hok hN Ex.rect_resolved (by
      intro p hp
      rw [hc] at hp
      obtain ⟨e1, e2⟩ := Ex.rect_extent p hp
      constructor <;> linarith) hne scale_factors.1 scale_factors.2 scale_factors.2 "out"
  have hmem : Reaction.DT ∈ files.map SdefFile.reaction := by
    rw [h2]
    exact List.mem_filter.2 ⟨hdt, by simp [neutronYield]⟩
  obtain ⟨f, hf, hfr⟩ := List.mem_map.1 hmem
  have hch : 0 < channelRate (referenceReactivity U m .AUTO) Ex.flat psi (3 / 10) (centres s) f.reaction := by
    rw [hfr]
    have := Ex.rate_sum_pos hm psi [.DT] (by simp) (centres s) hne hx
    have e : neutronRate (referenceReactivity U m .AUTO) Ex.flat psi (3 / 10) [.DT] =
        cellRate (referenceReactivity U m .AUTO) Ex.flat psi (3 / 10) .DT := by
      funext p
      simp only [neutronRate, channelNeutrons, List.map_cons, List.map_nil, List.sum_cons, List.sum_nil, add_zero,
        show neutronYield .DT = 1 from rfl, Nat.cast_one, one_mul]
    rwa [e] at this
  obtain ⟨-, T, k2, k3, k4⟩ := (h3 f hf).2 hch
  refine ⟨s, files, h1, f, hf, hfr, T, k2, ?_, ?_⟩
  · have e : ((centres s).map fun p => cellRate (referenceReactivity U m .AUTO) Ex.flat psi (3 / 10) f.reaction p *
        temperatureAt Ex.flat psi p).sum / channelRate (referenceReactivity U m .AUTO) Ex.flat psi (3 / 10) (centres s)
          f.reaction = 10 := by
      simp only [ht, List.sum_map_mul_right]
      rw [show ((centres s).map fun p => cellRate (referenceReactivity U m .AUTO) Ex.flat psi (3 / 10) f.reaction p).sum =
        channelRate (referenceReactivity U m .AUTO) Ex.flat psi (3 / 10) (centres s) f.reaction from rfl]
      exact mul_div_cancel_left₀ _ hch.ne'
    rwa [e] at k3
  · intro hp
    obtain ⟨text, c, q1, -, -, q4⟩ := k4 .D_T Ex.citation hfr Ex.citation_clean hp
    exact ⟨text, q1, q4⟩

end
end TNS
