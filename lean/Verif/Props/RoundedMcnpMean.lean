import Verif.Props.RoundedSdefInput
import Verif.Props.RoundedMean
import Verif.Props.SdefLimit
import Verif.Spec.RoundedMcnpMean
/-
C115: the mean of any function of the starting point over the neutrons that MCNP samples from the text of an SDEF file written
in floating point is that over the reactions of the plasma, up to an explicit error.
-/

set_option autoImplicit false

namespace TNS
open Spec MeasureTheory
noncomputable section

/-- The mean over one bin is near any number that the function is near around the cell. -/
theorem binIdeal_mean {L share : ℝ} {cs : List (ℝ × ℝ)} {p : ℝ × ℝ} {b : SBin ℝ} (h : BinIdeal L cs share p b) (hL : 0 < L)
    (hgap : NoGaps L cs) (hp : p ∈ cs) (hfar : ∀ p ∈ cs, |p.1| + L ≤ 40000 * L ∧ |p.2| + L ≤ 40000 * L)
    {g : ℝ × ℝ → ℝ} (hg : Continuous g) {c η : ℝ} (hη : 0 ≤ η)
    (hc : ∀ q : ℝ × ℝ, |q.1 - p.1| ≤ L → |q.2 - p.2| ≤ L → |g q - c| ≤ η) :
    |uniformMean g b.rLo b.rHi b.zLo b.zHi - c| ≤ η := by
  have f0 := hfar p hp
  have a1 := abs_le.1 h.rLo
  have a2 := abs_le.1 h.zLo
  have b1 : b.rHi ≤ 100 * (p.1 + L) := by
    rcases h.rHi with ⟨x', m1, m2, m3, m4⟩ | ⟨-, m4⟩
    · have k := hgap.columns p hp x' m1 m2 m3
      obtain ⟨q, hq, e⟩ := List.mem_map.1 m1
      have f1 := hfar q hq
      rw [e] at f1
      have m4 := abs_le.1 m4
      linarith
    · have m4 := abs_le.1 m4
      linarith
  have b2 : b.zHi ≤ 100 * (p.2 + L) := by
    rcases h.zHi with ⟨z', m1, m2, m3, m4⟩ | ⟨-, m4⟩
    · have k := hgap.rows p hp z' m1 m2 m3
      have f1 := hfar _ m1
      have m4 := abs_le.1 m4
      simp only at f1
      linarith
    · have m4 := abs_le.1 m4
      linarith
  rw [uniformMean_eq]
  refine boxMean_close hg h.nonempty.1 h.nonempty.2 zero_le_one one_pos hη ?_
  intro x z x1 x2 z1 z2
  refine hc _ ?_ ?_
  · rw [abs_le]; constructor <;> simp only <;> linarith
  · rw [abs_le]; constructor <;> simp only <;> linarith

/-- The mean over the bins, in terms of the cells. -/
theorem bins_mean {L : ℝ} {cs : List (ℝ × ℝ)} {w : ℝ × ℝ → ℝ} {N : ℝ} {c : SdefCards ℝ} (hN : (cs.map w).sum = N) (hN0 : 0 < N)
    (hw : ∀ p ∈ cs, 0 ≤ w p) (hb : List.Forall₂ (fun p b => BinIdeal L cs (w p / N) p b) cs (sdefBins c)) (hL : 0 < L)
    (hgap : NoGaps L cs) (hfar : ∀ p ∈ cs, |p.1| + L ≤ 40000 * L ∧ |p.2| + L ≤ 40000 * L)
    {g : ℝ × ℝ → ℝ} (hg : Continuous g) {η G : ℝ} (hη : 0 ≤ η)
    (hclose : ∀ p ∈ cs, ∀ q : ℝ × ℝ, |q.1 - p.1| ≤ L → |q.2 - p.2| ≤ L → |g q - g p| ≤ η) (hG : ∀ p ∈ cs, |g p| ≤ G) :
    |mcnpMean g c - (cs.map fun p => w p * g p).sum / N| ≤ (1 + 22 / 10 ^ 6) * η + 22 / 10 ^ 6 * G := by
  have key := paired_sums hb (fun b => b.prob * uniformMean g b.rLo b.rHi b.zLo b.zHi) (fun p => w p * g p / N)
    (fun p => ((1 + 22 / 10 ^ 6) * η + 22 / 10 ^ 6 * G) * (w p / N)) (by
      intro p hp b hbi
      have hm := binIdeal_mean hbi hL hgap hp hfar hg hη (hclose p hp)
      have hpr := hbi.prob
      unfold RelClose at hpr
      have x0 : 0 ≤ w p / N := div_nonneg (hw p hp) hN0.le
      have hG := hG p hp
      have e2 : w p * g p / N = w p / N * g p := by ring
      rw [e2]
      generalize w p / N = x at *
      generalize uniformMean g b.rLo b.rHi b.zLo b.zHi = m at *
      have e3 : b.prob * m - x * g p = b.prob * (m - g p) + (b.prob - x) * g p := by ring
      have hs : |b.prob| ≤ (1 + 22 / 10 ^ 6) * x := by
        have := abs_sub_abs_le_abs_sub b.prob x
        rw [abs_of_nonneg x0] at this
        linarith
      rw [e3]
      refine (abs_add_le _ _).trans ?_
      rw [abs_mul, abs_mul (b.prob - x)]
      have m1 := mul_le_mul hs hm (abs_nonneg _) (by positivity)
      have m2 := mul_le_mul hpr hG (abs_nonneg _) (by positivity)
      linarith)
  have e1 : (cs.map fun p => w p * g p / N).sum = (cs.map fun p => w p * g p).sum / N := by
    simp only [div_eq_mul_inv]
    rw [List.sum_map_mul_right]
  have e2 : (cs.map fun p => ((1 + 22 / 10 ^ 6) * η + 22 / 10 ^ 6 * G) * (w p / N)).sum =
      (1 + 22 / 10 ^ 6) * η + 22 / 10 ^ 6 * G := by
    rw [List.sum_map_mul_left]
    simp only [div_eq_mul_inv]
    rw [List.sum_map_mul_right, hN, mul_inv_cancel₀ hN0.ne', mul_one]
  rwa [e1, e2] at key

/-- C115.  With binary64 numbers and a grid without gaps: for every reaction with neutrons that occurs, the mean of a function
of the starting point over the neutrons that MCNP samples from the text of its SDEF file is the mean over the reactions of the
plasma, up to the change of the function over a cell, a relative 22e-6 (five printed digits), and the discretisation errors of
first order in the cell side. -/
theorem C115_binary64 {F : MathLib} (hF : AccurateLib F (4 * (2 : ℝ) ^ (-53 : ℤ)))
    {U : SI} {m : Masses ℝ} (hm : RoughData U m) {Q : Reaction → ℝ} (hQ : ∀ r, 0 < Q r)
    {pts : List (ℝ × ℝ)} {oX oZ : ℝ} {psi : ℝ → ℝ → ℝ} {tr : TransportView ℝ}
    {arg : SourceArg} {L : ℝ} {method : ReactivityMethod} {s : Source ℝ} {P : ℝ} (hP : 0 < P)
    (hs : Source.makeR binary64 F (reactivityXsR binary64 F (round53 Real.pi) U m) (round53 Real.pi) Q pts oX oZ psi tr
      arg L (some P) method = .ok s)
    (hok : PlasmaOK tr psi (centres s)) (hN : cells s + s.sourceType.length ≤ 1000000)
    {M : ℝ} (hres : Resolved binary64 ((2 : ℝ) ^ (-53 : ℤ)) pts oX oZ L M) (σ : ℤ) (hw : WindsOnce pts σ)
    (hfar : ∀ p ∈ centres s, |p.1| + L ≤ 40000 * L ∧ |p.2| + L ≤ 40000 * L) (hgap : NoGaps L (centres s))
    {ke ks km : ℝ} (hke : ScaleFactor ((2 : ℝ) ^ (-53 : ℤ)) 1000 ke) (hks : ScaleFactor ((2 : ℝ) ^ (-53 : ℤ)) (1 / 1000) ks)
    (hkm : ScaleFactor ((2 : ℝ) ^ (-53 : ℤ)) (1 / 1000) km) (stub : String)
    (k : Neutronic) (hk : .n k ∈ s.sourceType)
    (hch : 0 < channelRate (referenceReactivity U m method) tr psi L (centres s) (.n k))
    {g : ℝ × ℝ → ℝ} (hg : Continuous g) {η G : ℝ} (hη : 0 ≤ η) (hG0 : 0 ≤ G)
    (hclose : ∀ p ∈ centres s, ∀ q : ℝ × ℝ, |q.1 - p.1| ≤ L → |q.2 - p.2| ≤ L → |g q - g p| ≤ η)
    (hG : ∀ p ∈ centres s, |g p| ≤ G) {C ω C' ω' : ℝ} (hC : 0 ≤ C) (hω : 0 ≤ ω) (hC' : 0 ≤ C') (hω' : 0 ≤ ω')
    (hν : Gentle pts (centres s) L (rateAt (referenceReactivity U m method) tr psi (.n k)) C ω)
    (he : Gentle pts (centres s) L (fun p => rateAt (referenceReactivity U m method) tr psi (.n k) p * g p) C' ω')
    (hI : 0 < insideRate (referenceReactivity U m method) tr psi pts (.n k)) :
    let u := (2 : ℝ) ^ (-53 : ℤ)
    let I := insideRate (referenceReactivity U m method) tr psi pts (.n k)
    ∃ files, s.toSdefR binary64 stub = .ok files ∧ (∃ f ∈ files, f.reaction = .n k) ∧
      ∀ f ∈ files, f.reaction = .n k → ∀ cit : Citation, CleanCitation cit → Printable f.cards →
        ∃ text c, sdefTextR binary64 ke ks km cit k f = .ok text ∧ readSdef (readCards 128 text) = some c ∧
          |mcnpMean g c -
              insideIntegral pts (fun p => rateAt (referenceReactivity U m method) tr psi (.n k) p * g p) / I| ≤
            (1 + 22 / 10 ^ 6) * η + 22 / 10 ^ 6 * G + (rateError u M L pts C' ω' + G * rateError u M L pts C ω) / I := by
  intro u I
  have hL := hres.side
  have hne : centres s ≠ [] := by
    intro e
    rw [e] at hch
    simp [channelRate] at hch
  obtain ⟨files, hf, hf1, key⟩ := C111_binary64 hF hm hQ hP hs hok hN hres hfar hne hke hks hkm stub
  refine ⟨files, hf, ?_, ?_⟩
  · have hmem : Reaction.n k ∈ files.map SdefFile.reaction := by
      rw [hf1]
      refine List.mem_filter.2 ⟨hk, ?_⟩
      cases k <;> simp [neutronYield]
    obtain ⟨f, hfm, e⟩ := List.mem_map.1 hmem
    exact ⟨f, hfm, e⟩
  intro f hfm hfr cit hcit hprint
  obtain ⟨-, T, -, -, k4⟩ := (key f hfm).2 (by rw [hfr]; exact hch)
  obtain ⟨text, c, t1, t2, t3, -⟩ := k4 k cit hfr hcit hprint
  refine ⟨text, c, t1, t2, ?_⟩
  rw [hfr] at t3
  have hcs := (C93_cells hs).2
  have h53 := u53
  have hp : (0 : ℝ) < (2 : ℝ) ^ (-53 : ℤ) := by positivity
  have hpi : |round53 Real.pi - Real.pi| ≤ (2 : ℝ) ^ (-53 : ℤ) * Real.pi := by
    have := C74_binary64.rel Real.pi
    rwa [abs_of_pos Real.pi_pos] at this
  have hacc := all_accurate C74_binary64 hF (by linarith) (by linarith) hpi hm method (.n k)
  have hcell : ∀ p ∈ centres s, 0 ≤ cellRate (referenceReactivity U m method) tr psi L (.n k) p := by
    intro p hp
    obtain ⟨p1, p2, p3, p4⟩ := hok _ hp
    have h0 := rateDensity_nonneg' _ p2 _ (hacc.pos _ p3 p4).le (.n k)
    have := Real.pi_pos
    unfold cellRate
    positivity
  have step := bins_mean (w := cellRate (referenceReactivity U m method) tr psi L (.n k))
    (N := channelRate (referenceReactivity U m method) tr psi L (centres s) (.n k)) rfl hch hcell t3 hL hgap hfar hg hη
    hclose hG
  have dN := C113_sum hres σ hw _ C ω hC hω (by rw [hcs] at hν; exact hν)
  have dA := C113_sum hres σ hw _ C' ω' hC' hω' (by rw [hcs] at he; exact he)
  rw [← hcs] at dN dA
  have e4 : ((centres s).map fun p => rateAt (referenceReactivity U m method) tr psi (.n k) p * g p *
      (2 * Real.pi * p.1 * L ^ 2)).sum =
      ((centres s).map fun p => cellRate (referenceReactivity U m method) tr psi L (.n k) p * g p).sum := by
    refine congrArg List.sum (List.map_congr_left fun p _ => ?_)
    unfold cellRate rateAt
    ring
  rw [e4] at dA
  change |channelRate (referenceReactivity U m method) tr psi L (centres s) (.n k) - I| ≤ _ at dN
  change |_ - insideIntegral pts (fun p => rateAt (referenceReactivity U m method) tr psi (.n k) p * g p)| ≤ _ at dA
  have hA : |((centres s).map fun p => cellRate (referenceReactivity U m method) tr psi L (.n k) p * g p).sum| ≤
      G * channelRate (referenceReactivity U m method) tr psi L (centres s) (.n k) := by
    have : ∀ l : List (ℝ × ℝ), (∀ p ∈ l, p ∈ centres s) →
        |(l.map fun p => cellRate (referenceReactivity U m method) tr psi L (.n k) p * g p).sum| ≤
        G * (l.map (cellRate (referenceReactivity U m method) tr psi L (.n k))).sum := by
      intro l hl
      induction l with
      | nil => simp
      | cons p l ih =>
        simp only [List.map_cons, List.sum_cons]
        have ih := ih fun x hx => hl x (List.mem_cons_of_mem _ hx)
        have hp := hl p (by simp)
        have h0 := hcell p hp
        refine (abs_add_le _ _).trans ?_
        rw [abs_mul, abs_of_nonneg h0]
        have := mul_le_mul_of_nonneg_left (hG p hp) h0
        linarith
    exact this _ fun p hp => hp
  have main : |((centres s).map fun p => cellRate (referenceReactivity U m method) tr psi L (.n k) p * g p).sum /
      channelRate (referenceReactivity U m method) tr psi L (centres s) (.n k) -
      insideIntegral pts (fun p => rateAt (referenceReactivity U m method) tr psi (.n k) p * g p) / I| ≤
      (rateError u M L pts C' ω' + G * rateError u M L pts C ω) / I := by
    have hI' : 0 < I := hI
    generalize insideIntegral pts (fun p => rateAt (referenceReactivity U m method) tr psi (.n k) p * g p) = J at *
    generalize ((centres s).map fun p => cellRate (referenceReactivity U m method) tr psi L (.n k) p * g p).sum = X at *
    generalize channelRate (referenceReactivity U m method) tr psi L (centres s) (.n k) = N at *
    have e : X / N - J / I = ((X - J) + X / N * (I - N)) / I := by
      field_simp
      ring
    have hXN : |X / N| ≤ G := by
      rw [abs_div, abs_of_pos hch, div_le_iff₀ hch]
      exact hA
    rw [e, abs_div, abs_of_pos hI']
    refine div_le_div_of_nonneg_right ((abs_add_le _ _).trans (add_le_add dA ?_)) hI'.le
    rw [abs_mul, abs_sub_comm]
    exact mul_le_mul hXN dN (abs_nonneg _) hG0
  have tri := abs_sub_le (mcnpMean g c) (((centres s).map fun p =>
      cellRate (referenceReactivity U m method) tr psi L (.n k) p * g p).sum /
      channelRate (referenceReactivity U m method) tr psi L (centres s) (.n k))
    (insideIntegral pts (fun p => rateAt (referenceReactivity U m method) tr psi (.n k) p * g p) / I)
  linarith

/-! ### The hypotheses are met: 500 MW of D-T from the rectangular plasma with flat profiles -/

namespace Ex

/-- The computed cells of the rectangle stand for the 7 × 7 lattice points in it. -/
theorem rect_index (p : ℝ × ℝ) (hp : p ∈ samplePointsR binary64 rectangle 2 0 (3 / 10)) : ∃ i j : ℤ, -3 ≤ i ∧ i ≤ 3 ∧ -3 ≤ j ∧
    j ≤ 3 ∧ |p.1 - (2 + 3 / 10 * i)| ≤ 1 / 10 ^ 12 ∧ |p.2 - 3 / 10 * j| ≤ 1 / 10 ^ 12 := by
  obtain ⟨q, hq, ⟨c1, c2⟩, h3⟩ := C79_sampled _ _ _ _ _ _ _ rect_resolved p hp
  have hin := h3.resolve_right (rect_far q hq)
  obtain ⟨i, j, e1, e2⟩ := hq
  obtain ⟨⟨a, ha, a1⟩, ⟨b, hb, b1⟩, ⟨c, hc', c1'⟩, ⟨d, hd, d1⟩⟩ := C65_within_box rectangle _ hin
  have k1 : ∀ a ∈ rectangle.map Prod.fst, 1 ≤ a ∧ a ≤ 3 := by
    intro a ha
    simp only [rectangle, List.map_cons, List.map_nil, List.mem_cons, List.not_mem_nil, or_false] at ha
    rcases ha with rfl | rfl | rfl | rfl | rfl <;> norm_num
  have k2 : ∀ a ∈ rectangle.map Prod.snd, -1 ≤ a ∧ a ≤ 1 := by
    intro a ha
    simp only [rectangle, List.map_cons, List.map_nil, List.mem_cons, List.not_mem_nil, or_false] at ha
    rcases ha with rfl | rfl | rfl | rfl | rfl <;> norm_num
  have w1 := (k1 _ ha).1
  have w2 := (k1 _ hb).2
  have w3 := (k2 _ hc').1
  have w4 := (k2 _ hd).2
  have i1 : (-4 : ℝ) < i := by linarith
  have i2 : (i : ℝ) < 4 := by linarith
  have j1 : (-4 : ℝ) < j := by linarith
  have j2 : (j : ℝ) < 4 := by linarith
  have i1 : -4 < i := by exact_mod_cast i1
  have i2 : i < 4 := by exact_mod_cast i2
  have j1 : -4 < j := by exact_mod_cast j1
  have j2 : j < 4 := by exact_mod_cast j2
  refine ⟨i, j, by omega, by omega, by omega, by omega, ?_, ?_⟩
  · rw [← e1]; exact c1.trans rect_tol
  · rw [zero_add] at e2; rw [← e2]; exact c2.trans rect_tol

theorem rect_found (i j : ℤ) (i1 : -3 ≤ i) (i2 : i ≤ 3) (j1 : -3 ≤ j) (j2 : j ≤ 3) :
    ∃ p ∈ samplePointsR binary64 rectangle 2 0 (3 / 10), |p.1 - (2 + 3 / 10 * i)| ≤ 1 / 10 ^ 12 ∧ |p.2 - 3 / 10 * j| ≤ 1 / 10 ^ 12 := by
  have hq : Lattice (2 : ℝ) 0 (3 / 10) (2 + 3 / 10 * (i : ℝ), 3 / 10 * (j : ℝ)) := ⟨i, j, rfl, by simp⟩
  have hin : containsPoint rectangle (2 + 3 / 10 * (i : ℝ), 3 / 10 * (j : ℝ)) = true := by
    interval_cases i <;> interval_cases j <;> norm_num [containsPoint, pathEdges, rectangle, crosses]
  obtain ⟨p, ⟨hp, c1, c2⟩, -⟩ := C79_covered _ _ _ _ _ _ _ rect_resolved _ hq hin (rect_far _ hq)
  exact ⟨p, hp, c1.trans rect_tol, c2.trans rect_tol⟩

theorem rect_column (p q : ℝ × ℝ) (hp : p ∈ samplePointsR binary64 rectangle 2 0 (3 / 10))
    (hq : q ∈ samplePointsR binary64 rectangle 2 0 (3 / 10)) (h : |p.1 - q.1| ≤ 1 / 10) : p.1 = q.1 := by
  have hap := List.pairwise_iff_getElem.1 (sampled_apart _ _ _ _ _ _ _ rect_resolved)
  obtain ⟨i, hi, rfl⟩ := List.mem_iff_getElem.1 hp
  obtain ⟨j, hj, rfl⟩ := List.mem_iff_getElem.1 hq
  have h := abs_le.1 h
  rcases lt_trichotomy i j with hij | rfl | hij
  · rcases hap i j hi hj hij with k | k
    · norm_num at k; linarith [h.1]
    · exact k.1
  · rfl
  · rcases hap j i hj hi hij with k | k
    · norm_num at k; linarith [h.2]
    · exact k.1.symm

theorem rect_no_gaps : NoGaps (3 / 10) (samplePointsR binary64 rectangle 2 0 (3 / 10)) := by
  constructor
  · intro p hp x' hx' hlt hmin
    obtain ⟨q, hq, rfl⟩ := List.mem_map.1 hx'
    obtain ⟨i, j, i1, i2, j1, j2, a1, a2⟩ := rect_index p hp
    obtain ⟨i', j', k1, k2, -, -, b1, -⟩ := rect_index q hq
    by_contra hn
    push Not at hn
    have a1 := abs_le.1 a1
    have b1 := abs_le.1 b1
    have h1 : (i : ℝ) + 1 < i' := by norm_num at hn a1 b1; linarith
    have h1 : i + 1 < i' := by exact_mod_cast h1
    have h2 : (i : ℝ) + 2 ≤ i' := by exact_mod_cast (by omega : i + 2 ≤ i')
    obtain ⟨y, hy, c1, -⟩ := rect_found (i + 1) j (by omega) (by omega) j1 j2
    have c1 := abs_le.1 c1
    push_cast at c1
    rcases hmin _ (List.mem_map_of_mem hy) with h | h <;> norm_num at a1 b1 c1 <;> linarith
  · intro p hp z' hz' hlt hmin
    obtain ⟨i, j, i1, i2, j1, j2, a1, a2⟩ := rect_index p hp
    obtain ⟨i', j', -, -, k1, k2, -, b2⟩ := rect_index _ hz'
    by_contra hn
    push Not at hn
    have a2 := abs_le.1 a2
    have b2 := abs_le.1 b2
    simp only at b2
    have h1 : (j : ℝ) + 1 < j' := by norm_num at hn a2 b2; linarith
    have h1 : j + 1 < j' := by exact_mod_cast h1
    have h2 : (j : ℝ) + 2 ≤ j' := by exact_mod_cast (by omega : j + 2 ≤ j')
    obtain ⟨y, hy, c1, c2⟩ := rect_found i (j + 1) i1 i2 (by omega) (by omega)
    have e : p.1 = y.1 := by
      refine rect_column p y hp hy ?_
      have := abs_sub_le p.1 (2 + 3 / 10 * i) y.1
      rw [abs_sub_comm (2 + 3 / 10 * (i : ℝ)) y.1] at this
      have h12 : (1 : ℝ) / 10 ^ 12 ≤ 1 / 100 := by norm_num
      linarith
    have c2 := abs_le.1 c2
    push_cast at c2
    have hy' : (p.1, y.2) ∈ samplePointsR binary64 rectangle 2 0 (3 / 10) := by rw [e]; exact hy
    rcases hmin _ hy' with h | h <;> norm_num at a2 b2 c2 <;> linarith

/-- The mean major radius of the neutrons that MCNP samples, with 30 cm cells. -/
example (psi : ℝ → ℝ → ℝ) : ∃ (s : Source ℝ) (files : List (SdefFile ℝ)) (f : SdefFile ℝ) (I J ν : ℝ),
    s.toSdefR binary64 "out" = .ok files ∧ f ∈ files ∧ f.reaction = .n .D_T ∧ 0 < ν ∧ 0 < I ∧
    (Printable f.cards → ∃ text c, sdefTextR binary64 1000 (binary64.rd (1 / 1000)) (binary64.rd (1 / 1000)) Ex.citation .D_T f =
        .ok text ∧ readSdef (readCards 128 text) = some c ∧
      |mcnpMean (fun q => q.1) c - J / I| ≤ (1 + 22 / 10 ^ 6) * (3 / 10) + 22 / 10 ^ 6 * 3.3 +
      (rateError ((2 : ℝ) ^ (-53 : ℤ)) 3 (3 / 10) rectangle (ν * 3.3) (ν * (3 / 16)) +
        3.3 * rateError ((2 : ℝ) ^ (-53 : ℤ)) 3 (3 / 10) rectangle ν 0) / I) := by
  obtain ⟨U, m, hm⟩ : ∃ (U : SI) (m : Masses ℝ), RoughData U m := ⟨_, _, rough_measured⟩
  obtain ⟨s, hs, hst, hok, hN, hc, hne⟩ := Ex.dt_source psi hm
  have h53 := u53
  have hp : (0 : ℝ) < (2 : ℝ) ^ (-53 : ℤ) := by positivity
  have hpi : |round53 Real.pi - Real.pi| ≤ (2 : ℝ) ^ (-53 : ℤ) * Real.pi := by
    have := C74_binary64.rel Real.pi
    rwa [abs_of_pos Real.pi_pos] at this
  have hacc := all_accurate C74_binary64 accurate_libs.2 (by linarith) (by linarith) hpi hm .AUTO
  have hx : ∀ p ∈ centres s, 1 / 2 ≤ p.1 := fun p hp => Ex.rect_radius p (hc ▸ hp)
  have hch : 0 < channelRate (referenceReactivity U m .AUTO) Ex.flat psi (3 / 10) (centres s) (.n .D_T) := by
    have := Ex.rate_sum_pos hm psi [.DT] (by simp) (centres s) hne (fun p hp => by linarith [hx p hp])
    have e : neutronRate (referenceReactivity U m .AUTO) Ex.flat psi (3 / 10) [.DT] =
        cellRate (referenceReactivity U m .AUTO) Ex.flat psi (3 / 10) .DT := by
      funext p
      simp only [neutronRate, channelNeutrons, List.map_cons, List.map_nil, List.sum_cons, List.sum_nil, add_zero,
        show neutronYield .DT = 1 from rfl, Nat.cast_one, one_mul]
    rwa [e] at this
  have hν0 : 0 < rateAt (referenceReactivity U m .AUTO) flat psi (.n .D_T) (0, 0) := by
    have h2 := (hacc (.n .D_T)).pos 10 (by norm_num) (by norm_num)
    have hT : valueAt flat.temperature (psi 0 0) = 10 := by simp [valueAt, flat]
    unfold rateAt rateDensity
    rw [hT]
    generalize referenceReactivity U m .AUTO (.n .D_T) = ref at h2
    refine div_pos (mul_pos ?_ h2) ?_
    · simp [reactants, density, valueAt, flat]; norm_num
    · split_ifs <;> norm_num
  set ν := rateAt (referenceReactivity U m .AUTO) flat psi (.n .D_T) (0, 0) with hν
  have e1 : rateAt (referenceReactivity U m .AUTO) flat psi (.n .D_T) = fun _ => ν := by
    funext p
    exact flat_rate _ psi (.n .D_T) p
  have hV : 0 < insideRate (referenceReactivity U m .AUTO) flat psi rectangle (.n .D_T) := by
    have hpi := Real.pi_pos
    have e0 : insideRate (referenceReactivity U m .AUTO) flat psi rectangle (.n .D_T) = ν * surfaceVolume rectangle := by
      rw [← (polygon_measures rectangle rect_resolved.closed rect_resolved.long 1 rect_winds).2]
      unfold insideRate
      rw [e1]
      exact MeasureTheory.integral_const_mul _ _
    have c1 : contour (fun x _ => x) rectangle = 4 := by
      simp only [rectangle, contour, seg_x]; norm_num
    have c2 : contour (fun x _ => x ^ 2) rectangle = 16 := by
      simp only [rectangle, contour, seg_xx]; norm_num
    have e := (C45_centroid _ rect_resolved.closed (by rw [rect_area]; norm_num)).1
    rw [c1, c2] at e
    rw [e0]
    refine mul_pos hν0 ?_
    unfold surfaceVolume
    rw [rect_area, e]
    positivity
  have hb : ∀ p ∈ centres s, |p.1| ≤ 3.3 := by
    intro p hp
    rw [hc] at hp
    have := (centre_bounds rect_resolved hp).1
    linarith
  obtain ⟨files, h1, ⟨f, hf, hfr⟩, h2⟩ := C115_binary64 accurate_libs.2 hm (fun _ => by norm_num) (by norm_num) hs hok hN
    rect_resolved 1 rect_winds (by
      intro p hp
      rw [hc] at hp
      obtain ⟨e1, e2⟩ := Ex.rect_extent p hp
      constructor <;> linarith) (by rw [hc]; exact rect_no_gaps) scale_factors.1 scale_factors.2 scale_factors.2 "out"
    .D_T (by rw [hst]; simp [Reaction.DT]) hch (g := Prod.fst) continuous_fst (η := 3 / 10) (G := 3.3) (by norm_num) (by norm_num)
    (fun p _ q h1 _ => h1) hb (C := ν) (ω := 0) (C' := ν * 3.3) (ω' := ν * (3 / 16)) hν0.le le_rfl
    (by positivity) (by positivity) (by
      rw [e1]
      exact ⟨fun _ _ => (abs_of_pos hν0).le, fun _ _ _ _ _ _ => by simp, continuousOn_const⟩) (by
      rw [e1]
      refine ⟨?_, ?_, ?_⟩
      · intro p hp
        rw [abs_mul, abs_of_pos hν0]
        refine mul_le_mul_of_nonneg_left ?_ hν0.le
        rcases hp with hp | hp
        · exact (inside_radius rect_resolved hp).trans (by norm_num)
        · exact hb p hp
      · intro p _ q _ h1 _
        rw [← mul_sub, abs_mul, abs_of_pos hν0]
        exact mul_le_mul_of_nonneg_left (by norm_num at h1 ⊢; linarith) hν0.le
      · exact (continuous_const.mul continuous_fst).continuousOn) hV
  exact ⟨s, files, f, _, _, ν, h1, hf, hfr, hν0, hV, fun hp => h2 f hf hfr Ex.citation Ex.citation_clean hp⟩

end Ex

end
end TNS
