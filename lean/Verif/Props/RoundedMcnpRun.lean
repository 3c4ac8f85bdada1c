import Verif.Props.RoundedMcnpMean
import Verif.Props.RoundedAgree
/-
C116: the mean of any function of the starting point over a whole MCNP run, all SDEF files combined with their weights, is that
over all neutrons of the plasma, up to an explicit error, in floating point.
-/

set_option autoImplicit false

namespace TNS
open Spec MeasureTheory
noncomputable section

/-- The contribution of one file to the run, in terms of the cells; `w` is the number of its neutrons by cell and `N` the
number of all neutrons. -/
theorem file_mean {L W N : ℝ} {cs : List (ℝ × ℝ)} {share w : ℝ × ℝ → ℝ} {c : SdefCards ℝ} (hN0 : 0 < N)
    (hw : ∀ p ∈ cs, 0 ≤ w p) (hb : List.Forall₂ (fun p b => BinIdeal L cs (share p) p b) cs (sdefBins c))
    (hW : List.Forall₂ (fun p (b : SBin ℝ) => RelClose (24 / 10 ^ 6) (b.prob * W) (w p / N)) cs (sdefBins c)) (hL : 0 < L)
    (hgap : NoGaps L cs) (hfar : ∀ p ∈ cs, |p.1| + L ≤ 40000 * L ∧ |p.2| + L ≤ 40000 * L)
    {g : ℝ × ℝ → ℝ} (hg : Continuous g) {η G : ℝ} (hη : 0 ≤ η)
    (hclose : ∀ p ∈ cs, ∀ q : ℝ × ℝ, |q.1 - p.1| ≤ L → |q.2 - p.2| ≤ L → |g q - g p| ≤ η) (hG : ∀ p ∈ cs, |g p| ≤ G) :
    |W * mcnpMean g c - (cs.map fun p => w p * g p).sum / N| ≤
      ((1 + 24 / 10 ^ 6) * η + 24 / 10 ^ 6 * G) * ((cs.map w).sum / N) := by
  have hboth : List.Forall₂ (fun p (b : SBin ℝ) => BinIdeal L cs (share p) p b ∧
      RelClose (24 / 10 ^ 6) (b.prob * W) (w p / N)) cs (sdefBins c) := by
    rw [List.forall₂_iff_get] at hb hW ⊢
    exact ⟨hb.1, fun i i1 i2 => ⟨hb.2 i i1 i2, hW.2 i i1 i2⟩⟩
  have key := paired_sums hboth (fun b => W * (b.prob * uniformMean g b.rLo b.rHi b.zLo b.zHi)) (fun p => w p * g p / N)
    (fun p => ((1 + 24 / 10 ^ 6) * η + 24 / 10 ^ 6 * G) * (w p / N)) (by
      rintro p hp b ⟨hbi, hpr⟩
      have hm := binIdeal_mean hbi hL hgap hp hfar hg hη (hclose p hp)
      unfold RelClose at hpr
      have x0 : 0 ≤ w p / N := div_nonneg (hw p hp) hN0.le
      have hG := hG p hp
      have e2 : w p * g p / N = w p / N * g p := by ring
      rw [e2]
      generalize w p / N = x at *
      generalize uniformMean g b.rLo b.rHi b.zLo b.zHi = m at *
      have e3 : W * (b.prob * m) - x * g p = b.prob * W * (m - g p) + (b.prob * W - x) * g p := by ring
      have hs : |b.prob * W| ≤ (1 + 24 / 10 ^ 6) * x := by
        have := abs_sub_abs_le_abs_sub (b.prob * W) x
        rw [abs_of_nonneg x0] at this
        linarith
      rw [e3]
      refine (abs_add_le _ _).trans ?_
      rw [abs_mul (b.prob * W), abs_mul (b.prob * W - x)]
      have m1 := mul_le_mul hs hm (abs_nonneg _) (by positivity)
      have m2 := mul_le_mul hpr hG (abs_nonneg _) (by positivity)
      linarith)
  have e1 : (cs.map fun p => w p * g p / N).sum = (cs.map fun p => w p * g p).sum / N := by
    simp only [div_eq_mul_inv]
    rw [List.sum_map_mul_right]
  have e2 : (cs.map fun p => ((1 + 24 / 10 ^ 6) * η + 24 / 10 ^ 6 * G) * (w p / N)).sum =
      ((1 + 24 / 10 ^ 6) * η + 24 / 10 ^ 6 * G) * ((cs.map w).sum / N) := by
    rw [List.sum_map_mul_left]
    simp only [div_eq_mul_inv]
    rw [List.sum_map_mul_right]
  rw [e1, e2, List.sum_map_mul_left] at key
  exact key

/-- Sums over the files, in terms of the channels of the source. -/
theorem files_sum {files : List (SdefFile ℝ)} {st : List Reaction}
    (h : files.map SdefFile.reaction = st.filter (fun r => decide (0 < neutronYield r))) (f : Reaction → ℝ) :
    (files.map fun x => (neutronYield x.reaction : ℝ) * f x.reaction).sum = (st.map fun r => (neutronYield r : ℝ) * f r).sum := by
  rw [← filter_yield, ← h, List.map_map]
  rfl

/-- Exchange of the sums over cells and channels. -/
theorem sums_swap (cs : List (ℝ × ℝ)) (st : List Reaction) (f : Reaction → ℝ × ℝ → ℝ) :
    (cs.map fun p => (st.map fun r => f r p).sum).sum = (st.map fun r => (cs.map fun p => f r p).sum).sum := by
  induction cs with
  | nil => simp
  | cons p cs ih =>
    simp only [List.map_cons, List.sum_cons]
    rw [ih, List.sum_map_add]

/-- The mean over a run with all files, in terms of the cells. -/
theorem mcnp_run_cells {F : MathLib} (hF : AccurateLib F (4 * (2 : ℝ) ^ (-53 : ℤ)))
    {U : SI} {m : Masses ℝ} (hm : RoughData U m) {Q : Reaction → ℝ} (hQ : ∀ r, 0 < Q r)
    {pts : List (ℝ × ℝ)} {oX oZ : ℝ} {psi : ℝ → ℝ → ℝ} {tr : TransportView ℝ}
    {arg : SourceArg} {L : ℝ} {method : ReactivityMethod} {s : Source ℝ} {P : ℝ} (hP : 0 < P)
    (hs : Source.makeR binary64 F (reactivityXsR binary64 F (round53 Real.pi) U m) (round53 Real.pi) Q pts oX oZ psi tr
      arg L (some P) method = .ok s)
    (hok : PlasmaOK tr psi (centres s)) (hN : cells s + s.sourceType.length ≤ 1000000)
    (hpos : 0 < ((centres s).map (neutronRate (referenceReactivity U m method) tr psi L s.sourceType)).sum)
    {M : ℝ} (hres : Resolved binary64 ((2 : ℝ) ^ (-53 : ℤ)) pts oX oZ L M)
    (hfar : ∀ p ∈ centres s, |p.1| + L ≤ 40000 * L ∧ |p.2| + L ≤ 40000 * L) (hgap : NoGaps L (centres s))
    {ke ks km : ℝ} (hke : ScaleFactor ((2 : ℝ) ^ (-53 : ℤ)) 1000 ke) (hks : ScaleFactor ((2 : ℝ) ^ (-53 : ℤ)) (1 / 1000) ks)
    (hkm : ScaleFactor ((2 : ℝ) ^ (-53 : ℤ)) (1 / 1000) km) (stub : String)
    {g : ℝ × ℝ → ℝ} (hg : Continuous g) {η G : ℝ} (hη : 0 ≤ η)
    (hclose : ∀ p ∈ centres s, ∀ q : ℝ × ℝ, |q.1 - p.1| ≤ L → |q.2 - p.2| ≤ L → |g q - g p| ≤ η)
    (hG : ∀ p ∈ centres s, |g p| ≤ G) :
    let occurs : SdefFile ℝ → Prop := fun f => 0 < channelRate (referenceReactivity U m method) tr psi L (centres s) f.reaction
    ∃ files, s.toSdefR binary64 stub = .ok files ∧ (files.map (sdefWeight files)).sum = 1 ∧
      (∀ f ∈ files, 0 < sdefWeight files f ↔ occurs f) ∧
      ∀ cit : Neutronic → Citation, (∀ k, CleanCitation (cit k)) → (∀ f ∈ files, occurs f → Printable f.cards) →
        (∀ f ∈ files, occurs f → ∃ k text c, f.reaction = .n k ∧ sdefTextR binary64 ke ks km (cit k) k f = .ok text ∧
          readSdef (readCards 128 text) = some c) ∧
        ∀ read : SdefFile ℝ → SdefCards ℝ,
          (∀ f ∈ files, occurs f → ∀ k text, f.reaction = .n k → sdefTextR binary64 ke ks km (cit k) k f = .ok text →
            readSdef (readCards 128 text) = some (read f)) →
          |(files.map fun f => sdefWeight files f * mcnpMean g (read f)).sum -
              ((centres s).map fun p => neutronRate (referenceReactivity U m method) tr psi L s.sourceType p * g p).sum /
                ((centres s).map (neutronRate (referenceReactivity U m method) tr psi L s.sourceType)).sum| ≤
            (1 + 24 / 10 ^ 6) * η + 24 / 10 ^ 6 * G := by
  intro occurs
  have hL := hres.side
  have hcs := (C93_cells hs).2
  have hne : centres s ≠ [] := by
    intro e
    rw [e] at hpos
    simp at hpos
  have h53 := u53
  have hp : (0 : ℝ) < (2 : ℝ) ^ (-53 : ℤ) := by positivity
  have hpi : |round53 Real.pi - Real.pi| ≤ (2 : ℝ) ^ (-53 : ℤ) * Real.pi := by
    have := C74_binary64.rel Real.pi
    rwa [abs_of_pos Real.pi_pos] at this
  obtain ⟨files, hf, hf1, key⟩ := C111_binary64 hF hm hQ hP hs hok hN hres hfar hne hke hks hkm stub
  obtain ⟨rings, files', hrings, hf', -, hsum1, key'⟩ := C112_binary64 hF hm hQ hP hs hok hN hpos hres hfar hke hks hkm stub
  obtain rfl : files = files' := Except.ok.inj (hf.symm.trans hf')
  have hring := C95_binary64 hF hm hQ hL.le hP hs hok hN hpos _ rings hrings
  have hnd : s.sourceType.Nodup := parse_nodup (C93_cells hs).1
  have hap : (centres s).Pairwise fun p q => p.1 + 3 / 4 * L ≤ q.1 ∨ p.1 = q.1 ∧ p.2 + 3 / 4 * L ≤ q.2 := by
    rw [hcs]
    exact sampled_apart _ _ _ _ _ _ _ hres
  have hmemf : ∀ f ∈ files, f.reaction ∈ s.sourceType ∧ 0 < neutronYield f.reaction := by
    intro f hfm
    have : f.reaction ∈ files.map SdefFile.reaction := List.mem_map_of_mem hfm
    rw [hf1] at this
    obtain ⟨h1, h2⟩ := List.mem_filter.1 this
    exact ⟨h1, by simpa using h2⟩
  have hacc := fun r => all_accurate C74_binary64 hF (by linarith) (by linarith) hpi hm method r
  have hcell : ∀ r, ∀ p ∈ centres s, 0 ≤ cellRate (referenceReactivity U m method) tr psi L r p := by
    intro r p hp
    obtain ⟨p1, p2, p3, p4⟩ := hok _ hp
    have h0 := rateDensity_nonneg' _ p2 _ ((hacc r).pos _ p3 p4).le r
    have := Real.pi_pos
    unfold cellRate
    positivity
  set ref := referenceReactivity U m method with hrefd
  set N := ((centres s).map (neutronRate ref tr psi L s.sourceType)).sum with hNd
  have hchan : ∀ r, ∀ p ∈ centres s, 0 ≤ channelNeutrons ref tr psi L r p :=
    fun r p hp => mul_nonneg (Nat.cast_nonneg _) (hcell r p hp)
  have hfrac : ∀ r ∈ s.sourceType, ∀ p ∈ centres s, RelClose (9 / 10 ^ 9) (openmcFractionAt rings r p)
      (channelNeutrons ref tr psi L r p / N) :=
    fun r hr p hp => fraction_at hL hnd (fun r _ => hchan r) hpos hap hfar hring r hr p hp
  have hch0 : ∀ r, 0 ≤ channelRate ref tr psi L (centres s) r := by
    intro r
    refine List.sum_nonneg ?_
    intro a ha
    obtain ⟨p, hp, rfl⟩ := List.mem_map.1 ha
    exact hcell r p hp
  refine ⟨files, hf, hsum1, ?_, ?_⟩
  · intro f hfm
    refine ⟨fun h => ?_, fun h => ((key' f hfm).2 h).1⟩
    rcases (hch0 f.reaction).lt_or_eq with h' | h'
    · exact h'
    · rw [((key' f hfm).1 h'.symm).1] at h
      exact absurd h (lt_irrefl _)
  intro cit hcit hprint
  have hneut : ∀ f ∈ files, ∃ k, f.reaction = .n k := by
    intro f hfm
    have := (hmemf f hfm).2
    cases h : f.reaction with
    | n k => exact ⟨k, rfl⟩
    | a k => rw [h] at this; cases k <;> simp [neutronYield] at this
  refine ⟨?_, ?_⟩
  · intro f hfm hoc
    obtain ⟨k, hk⟩ := hneut f hfm
    obtain ⟨-, text, c, t1, t2, -⟩ := (key' f hfm).2 hoc |>.imp_right fun h => h k (cit k) hk (hcit k) (hprint f hfm hoc)
    exact ⟨k, text, c, hk, t1, t2⟩
  intro read hread
  set K := (1 + 24 / 10 ^ 6) * η + 24 / 10 ^ 6 * G with hK
  -- file by file
  have one : ∀ f ∈ files, |sdefWeight files f * mcnpMean g (read f) -
      ((centres s).map fun p => channelNeutrons ref tr psi L f.reaction p * g p).sum / N| ≤
      K * (((centres s).map (channelNeutrons ref tr psi L f.reaction)).sum / N) := by
    intro f hfm
    rcases (hch0 f.reaction).lt_or_eq with hoc | h0
    · obtain ⟨k, hk⟩ := hneut f hfm
      obtain ⟨-, k4⟩ := (key' f hfm).2 hoc
      obtain ⟨text, c, t1, t2, t3⟩ := k4 k (cit k) hk (hcit k) (hprint f hfm hoc)
      obtain ⟨-, T, -, -, k5⟩ := (key f hfm).2 hoc
      obtain ⟨text', c', v1, v2, v3, -⟩ := k5 k (cit k) hk (hcit k) (hprint f hfm hoc)
      obtain rfl : text = text' := Except.ok.inj (t1.symm.trans v1)
      obtain rfl : c = c' := Option.some.inj (t2.symm.trans v2)
      obtain e0 : c = read f := Option.some.inj (t2.symm.trans (hread f hfm hoc k text hk t1))
      rw [← e0]
      refine file_mean hpos (hchan f.reaction) v3 ?_ hL hgap hfar hg hη hclose hG
      rw [List.forall₂_iff_get] at t3 ⊢
      refine ⟨t3.1, fun i i1 i2 => ?_⟩
      have h1 := t3.2 i i1 i2
      have hpm := List.get_mem (centres s) ⟨i, i1⟩
      have h2 := hfrac f.reaction (hmemf f hfm).1 _ hpm
      have h3 := div_nonneg (hchan f.reaction _ hpm) hpos.le
      generalize channelNeutrons ref tr psi L f.reaction ((centres s).get ⟨i, i1⟩) / N = x at *
      generalize openmcFractionAt rings f.reaction ((centres s).get ⟨i, i1⟩) = y at *
      generalize ((sdefBins c).get ⟨i, i2⟩).prob * sdefWeight files f = z at *
      unfold RelClose at h1 h2 ⊢
      have h4 := abs_sub_le z y x
      have h5 := (abs_le.1 h2).2
      linarith
    · have hz : ∀ p ∈ centres s, channelNeutrons ref tr psi L f.reaction p = 0 := by
        intro p hp
        have h1 : ∀ a ∈ (centres s).map (cellRate ref tr psi L f.reaction), 0 ≤ a := by
          intro a ha
          obtain ⟨q, hq, rfl⟩ := List.mem_map.1 ha
          exact hcell _ q hq
        have h2 := List.single_le_sum h1 _ (List.mem_map.2 ⟨p, hp, rfl⟩)
        rw [channelNeutrons, le_antisymm (h2.trans h0.symm.le) (hcell _ p hp), mul_zero]
      have e1 : ((centres s).map fun p => channelNeutrons ref tr psi L f.reaction p * g p) =
          (centres s).map fun _ => (0 : ℝ) := List.map_congr_left fun p hp => by rw [hz p hp, zero_mul]
      have e2 : (centres s).map (channelNeutrons ref tr psi L f.reaction) = (centres s).map fun _ => (0 : ℝ) :=
        List.map_congr_left fun p hp => hz p hp
      rw [e1, e2, ((key' f hfm).1 h0.symm).1]
      simp
  -- all files
  have allf : ∀ l : List (SdefFile ℝ), (∀ f ∈ l, f ∈ files) →
      |(l.map fun f => sdefWeight files f * mcnpMean g (read f)).sum -
        (l.map fun f => ((centres s).map fun p => channelNeutrons ref tr psi L f.reaction p * g p).sum / N).sum| ≤
      (l.map fun f => K * (((centres s).map (channelNeutrons ref tr psi L f.reaction)).sum / N)).sum := by
    intro l hl
    induction l with
    | nil => simp
    | cons f l ih =>
      simp only [List.map_cons, List.sum_cons]
      rw [add_sub_add_comm]
      exact (abs_add_le _ _).trans (add_le_add (one f (hl f (by simp))) (ih fun x hx => hl x (List.mem_cons_of_mem _ hx)))
  have step := allf files fun f hf => hf
  have s1 : (files.map fun f => ((centres s).map fun p => channelNeutrons ref tr psi L f.reaction p * g p).sum / N).sum =
      ((centres s).map fun p => neutronRate ref tr psi L s.sourceType p * g p).sum / N := by
    simp only [div_eq_mul_inv]
    rw [List.sum_map_mul_right]
    refine congrArg (· * N⁻¹) ?_
    have a1 : (files.map fun f => ((centres s).map fun p => channelNeutrons ref tr psi L f.reaction p * g p).sum) =
        files.map fun f => (neutronYield f.reaction : ℝ) *
          (fun r => ((centres s).map fun p => cellRate ref tr psi L r p * g p).sum) f.reaction := by
      refine List.map_congr_left fun f _ => ?_
      simp only
      rw [← List.sum_map_mul_left]
      refine congrArg List.sum (List.map_congr_left fun p _ => ?_)
      rw [channelNeutrons]; ring
    rw [a1, files_sum hf1 fun r => ((centres s).map fun p => cellRate ref tr psi L r p * g p).sum]
    have a2 : (s.sourceType.map fun r => (neutronYield r : ℝ) *
        ((centres s).map fun p => cellRate ref tr psi L r p * g p).sum) =
        s.sourceType.map fun r => ((centres s).map fun p => (neutronYield r : ℝ) * (cellRate ref tr psi L r p * g p)).sum := by
      refine List.map_congr_left fun r _ => ?_
      rw [← List.sum_map_mul_left]
    rw [a2, ← sums_swap (centres s) s.sourceType fun r p => (neutronYield r : ℝ) * (cellRate ref tr psi L r p * g p)]
    refine congrArg List.sum (List.map_congr_left fun p _ => ?_)
    unfold neutronRate
    rw [← List.sum_map_mul_right]
    refine congrArg List.sum (List.map_congr_left fun r _ => ?_)
    rw [channelNeutrons]
    ring
  have s2 : (files.map fun f => K * (((centres s).map (channelNeutrons ref tr psi L f.reaction)).sum / N)).sum = K := by
    rw [List.sum_map_mul_left]
    simp only [div_eq_mul_inv]
    rw [List.sum_map_mul_right]
    have a1 : (files.map fun f => ((centres s).map (channelNeutrons ref tr psi L f.reaction)).sum) =
        files.map fun f => (neutronYield f.reaction : ℝ) * channelRate ref tr psi L (centres s) f.reaction := by
      refine List.map_congr_left fun f _ => ?_
      unfold channelRate
      rw [← List.sum_map_mul_left]
      rfl
    have a2 : (files.map fun f => (neutronYield f.reaction : ℝ) * channelRate ref tr psi L (centres s) f.reaction).sum = N := by
      rw [hNd, neutrons_by_reaction, ← hf1, List.map_map]
      rfl
    rw [a1, a2, mul_inv_cancel₀ hpos.ne', mul_one]
  rw [s1, s2] at step
  exact step

/-- C116.  With binary64 numbers and a grid without gaps: every file whose reaction occurs has a text that MCNP can read (if the
numbers can be printed), and for cards that are what MCNP reads from the texts, the mean of a function of the starting point
over a run with all files, each with the share of the neutrons that its header gives, is the mean over the neutrons of the
plasma, up to the change of the function over a cell, a relative 24e-6 (five printed digits), and the discretisation errors of
first order in the cell side. -/
theorem C116_binary64 {F : MathLib} (hF : AccurateLib F (4 * (2 : ℝ) ^ (-53 : ℤ)))
    {U : SI} {m : Masses ℝ} (hm : RoughData U m) {Q : Reaction → ℝ} (hQ : ∀ r, 0 < Q r)
    {pts : List (ℝ × ℝ)} {oX oZ : ℝ} {psi : ℝ → ℝ → ℝ} {tr : TransportView ℝ}
    {arg : SourceArg} {L : ℝ} {method : ReactivityMethod} {s : Source ℝ} {P : ℝ} (hP : 0 < P)
    (hs : Source.makeR binary64 F (reactivityXsR binary64 F (round53 Real.pi) U m) (round53 Real.pi) Q pts oX oZ psi tr
      arg L (some P) method = .ok s)
    (hok : PlasmaOK tr psi (centres s)) (hN : cells s + s.sourceType.length ≤ 1000000)
    (hpos : 0 < ((centres s).map (neutronRate (referenceReactivity U m method) tr psi L s.sourceType)).sum)
    {M : ℝ} (hres : Resolved binary64 ((2 : ℝ) ^ (-53 : ℤ)) pts oX oZ L M) (σ : ℤ) (hw : WindsOnce pts σ)
    (hfar : ∀ p ∈ centres s, |p.1| + L ≤ 40000 * L ∧ |p.2| + L ≤ 40000 * L) (hgap : NoGaps L (centres s))
    {ke ks km : ℝ} (hke : ScaleFactor ((2 : ℝ) ^ (-53 : ℤ)) 1000 ke) (hks : ScaleFactor ((2 : ℝ) ^ (-53 : ℤ)) (1 / 1000) ks)
    (hkm : ScaleFactor ((2 : ℝ) ^ (-53 : ℤ)) (1 / 1000) km) (stub : String)
    {g : ℝ × ℝ → ℝ} (hg : Continuous g) {η G : ℝ} (hη : 0 ≤ η) (hG0 : 0 ≤ G)
    (hclose : ∀ p ∈ centres s, ∀ q : ℝ × ℝ, |q.1 - p.1| ≤ L → |q.2 - p.2| ≤ L → |g q - g p| ≤ η)
    (hG : ∀ p ∈ centres s, |g p| ≤ G) {C ω C' ω' : ℝ} (hC : 0 ≤ C) (hω : 0 ≤ ω) (hC' : 0 ≤ C') (hω' : 0 ≤ ω')
    (hν : Gentle pts (centres s) L (neutronsAt (referenceReactivity U m method) tr psi s.sourceType) C ω)
    (he : Gentle pts (centres s) L (fun p => neutronsAt (referenceReactivity U m method) tr psi s.sourceType p * g p) C' ω')
    (hI : 0 < insideIntegral pts (neutronsAt (referenceReactivity U m method) tr psi s.sourceType)) :
    let u := (2 : ℝ) ^ (-53 : ℤ)
    let I := insideIntegral pts (neutronsAt (referenceReactivity U m method) tr psi s.sourceType)
    let occurs : SdefFile ℝ → Prop := fun f => 0 < channelRate (referenceReactivity U m method) tr psi L (centres s) f.reaction
    ∃ files, s.toSdefR binary64 stub = .ok files ∧ (files.map (sdefWeight files)).sum = 1 ∧
      (∀ f ∈ files, 0 < sdefWeight files f ↔ occurs f) ∧
      ∀ cit : Neutronic → Citation, (∀ k, CleanCitation (cit k)) → (∀ f ∈ files, occurs f → Printable f.cards) →
        (∀ f ∈ files, occurs f → ∃ k text c, f.reaction = .n k ∧ sdefTextR binary64 ke ks km (cit k) k f = .ok text ∧
          readSdef (readCards 128 text) = some c) ∧
        ∀ read : SdefFile ℝ → SdefCards ℝ,
          (∀ f ∈ files, occurs f → ∀ k text, f.reaction = .n k → sdefTextR binary64 ke ks km (cit k) k f = .ok text →
            readSdef (readCards 128 text) = some (read f)) →
          |(files.map fun f => sdefWeight files f * mcnpMean g (read f)).sum -
              insideIntegral pts (fun p => neutronsAt (referenceReactivity U m method) tr psi s.sourceType p * g p) / I| ≤
            (1 + 24 / 10 ^ 6) * η + 24 / 10 ^ 6 * G + (rateError u M L pts C' ω' + G * rateError u M L pts C ω) / I := by
  intro u I occurs
  have hcs := (C93_cells hs).2
  have h53 := u53
  have hp : (0 : ℝ) < (2 : ℝ) ^ (-53 : ℤ) := by positivity
  have hpi : |round53 Real.pi - Real.pi| ≤ (2 : ℝ) ^ (-53 : ℤ) * Real.pi := by
    have := C74_binary64.rel Real.pi
    rwa [abs_of_pos Real.pi_pos] at this
  have hacc := fun r => all_accurate C74_binary64 hF (by linarith) (by linarith) hpi hm method r
  have hcell : ∀ r, ∀ p ∈ centres s, 0 ≤ cellRate (referenceReactivity U m method) tr psi L r p := by
    intro r p hp
    obtain ⟨p1, p2, p3, p4⟩ := hok _ hp
    have h0 := rateDensity_nonneg' _ p2 _ ((hacc r).pos _ p3 p4).le r
    have := Real.pi_pos
    unfold cellRate
    positivity
  obtain ⟨files, hf, hsum1, hocc, key⟩ := mcnp_run_cells hF hm hQ hP hs hok hN hpos hres hfar hgap hke hks hkm stub hg hη
    hclose hG
  refine ⟨files, hf, hsum1, hocc, fun cit hcit hprint => ⟨(key cit hcit hprint).1, fun read hread => ?_⟩⟩
  have step := (key cit hcit hprint).2 read hread
  set ref := referenceReactivity U m method with hrefd
  set N := ((centres s).map (neutronRate ref tr psi L s.sourceType)).sum with hNd
  have hchan : ∀ r, ∀ p ∈ centres s, 0 ≤ channelNeutrons ref tr psi L r p :=
    fun r p hp => mul_nonneg (Nat.cast_nonneg _) (hcell r p hp)
  have rateE : ∀ p : ℝ × ℝ, neutronRate ref tr psi L s.sourceType p =
      neutronsAt ref tr psi s.sourceType p * (2 * Real.pi * p.1 * L ^ 2) := by
    intro p
    unfold neutronRate neutronsAt
    rw [← List.sum_map_mul_right]
    refine congrArg List.sum (List.map_congr_left fun r _ => ?_)
    unfold channelNeutrons cellRate rateAt
    ring
  have s1 : ((centres s).map fun p => neutronRate ref tr psi L s.sourceType p * g p).sum =
      ((centres s).map fun p => neutronsAt ref tr psi s.sourceType p * g p * (2 * Real.pi * p.1 * L ^ 2)).sum := by
    refine congrArg List.sum (List.map_congr_left fun p _ => ?_)
    rw [rateE]
    ring
  rw [s1] at step
  have s3 : ((centres s).map fun p => neutronsAt ref tr psi s.sourceType p * (2 * Real.pi * p.1 * L ^ 2)).sum = N := by
    rw [hNd]
    refine congrArg List.sum (List.map_congr_left fun p _ => ?_)
    unfold neutronsAt neutronRate
    rw [← List.sum_map_mul_right]
    refine congrArg List.sum (List.map_congr_left fun r _ => ?_)
    unfold channelNeutrons cellRate rateAt
    ring
  have dN := C113_sum hres σ hw _ C ω hC hω (by rw [hcs] at hν; exact hν)
  have dA := C113_sum hres σ hw _ C' ω' hC' hω' (by rw [hcs] at he; exact he)
  rw [← hcs] at dN dA
  rw [s3] at dN
  change |N - I| ≤ _ at dN
  change |_ - insideIntegral pts (fun p => neutronsAt ref tr psi s.sourceType p * g p)| ≤ _ at dA
  have hrate0 : ∀ p ∈ centres s, 0 ≤ neutronsAt ref tr psi s.sourceType p * (2 * Real.pi * p.1 * L ^ 2) := by
    intro p hp
    have e : neutronsAt ref tr psi s.sourceType p * (2 * Real.pi * p.1 * L ^ 2) =
        (s.sourceType.map fun r => channelNeutrons ref tr psi L r p).sum := by
      unfold neutronsAt
      rw [← List.sum_map_mul_right]
      refine congrArg List.sum (List.map_congr_left fun r _ => ?_)
      unfold channelNeutrons cellRate rateAt
      ring
    rw [e]
    refine List.sum_nonneg ?_
    intro a ha
    obtain ⟨r, -, rfl⟩ := List.mem_map.1 ha
    exact hchan r p hp
  have hA : |((centres s).map fun p => neutronsAt ref tr psi s.sourceType p * g p * (2 * Real.pi * p.1 * L ^ 2)).sum| ≤
      G * N := by
    have : ∀ l : List (ℝ × ℝ), (∀ p ∈ l, p ∈ centres s) →
        |(l.map fun p => neutronsAt ref tr psi s.sourceType p * g p * (2 * Real.pi * p.1 * L ^ 2)).sum| ≤
        G * (l.map fun p => neutronsAt ref tr psi s.sourceType p * (2 * Real.pi * p.1 * L ^ 2)).sum := by
      intro l hl
      induction l with
      | nil => simp
      | cons p l ih =>
        simp only [List.map_cons, List.sum_cons]
        have ih := ih fun x hx => hl x (List.mem_cons_of_mem _ hx)
        have hp := hl p (by simp)
        have h0 := hrate0 p hp
        have e : neutronsAt ref tr psi s.sourceType p * g p * (2 * Real.pi * p.1 * L ^ 2) =
            neutronsAt ref tr psi s.sourceType p * (2 * Real.pi * p.1 * L ^ 2) * g p := by ring
        refine (abs_add_le _ _).trans ?_
        rw [e, abs_mul, abs_of_nonneg h0]
        have := mul_le_mul_of_nonneg_left (hG p hp) h0
        linarith
    have := this _ fun p hp => hp
    rwa [s3] at this
  have main : |((centres s).map fun p => neutronsAt ref tr psi s.sourceType p * g p * (2 * Real.pi * p.1 * L ^ 2)).sum / N -
      insideIntegral pts (fun p => neutronsAt ref tr psi s.sourceType p * g p) / I| ≤
      (rateError u M L pts C' ω' + G * rateError u M L pts C ω) / I := by
    have hI' : 0 < I := hI
    generalize insideIntegral pts (fun p => neutronsAt ref tr psi s.sourceType p * g p) = J at *
    generalize ((centres s).map fun p => neutronsAt ref tr psi s.sourceType p * g p * (2 * Real.pi * p.1 * L ^ 2)).sum = X at *
    have e : X / N - J / I = ((X - J) + X / N * (I - N)) / I := by
      field_simp
      ring
    have hXN : |X / N| ≤ G := by
      rw [abs_div, abs_of_pos hpos, div_le_iff₀ hpos]
      exact hA
    rw [e, abs_div, abs_of_pos hI']
    refine div_le_div_of_nonneg_right ((abs_add_le _ _).trans (add_le_add dA ?_)) hI'.le
    rw [abs_mul, abs_sub_comm]
    exact mul_le_mul hXN dN (abs_nonneg _) hG0
  have tri := abs_sub_le (files.map fun f => sdefWeight files f * mcnpMean g (read f)).sum
    (((centres s).map fun p => neutronsAt ref tr psi s.sourceType p * g p * (2 * Real.pi * p.1 * L ^ 2)).sum / N)
    (insideIntegral pts (fun p => neutronsAt ref tr psi s.sourceType p * g p) / I)
  linarith

/-! ### The hypotheses are met: 500 MW of D-T from the rectangular plasma with flat profiles -/

namespace Ex

/-- The mean major radius of the neutrons of a run, with 30 cm cells. -/
example (psi : ℝ → ℝ → ℝ) : ∃ (s : Source ℝ) (files : List (SdefFile ℝ)) (I J ν : ℝ),
    s.toSdefR binary64 "out" = .ok files ∧ s.sourceType = [.DT] ∧ 0 < ν ∧ 0 < I ∧
    ∀ read : SdefFile ℝ → SdefCards ℝ, (∀ f ∈ files, Printable f.cards) →
      (∀ f ∈ files, ∀ k text, f.reaction = .n k →
        sdefTextR binary64 1000 (binary64.rd (1 / 1000)) (binary64.rd (1 / 1000)) Ex.citation k f = .ok text →
        readSdef (readCards 128 text) = some (read f)) →
      |(files.map fun f => sdefWeight files f * mcnpMean (fun q => q.1) (read f)).sum - J / I| ≤
        (1 + 24 / 10 ^ 6) * (3 / 10) + 24 / 10 ^ 6 * 3.3 +
      (rateError ((2 : ℝ) ^ (-53 : ℤ)) 3 (3 / 10) rectangle (ν * 3.3) (ν * (3 / 16)) +
        3.3 * rateError ((2 : ℝ) ^ (-53 : ℤ)) 3 (3 / 10) rectangle ν 0) / I := by
  obtain ⟨U, m, hm⟩ : ∃ (U : SI) (m : Masses ℝ), RoughData U m := ⟨_, _, rough_measured⟩
  obtain ⟨s, hs, hst, hok, hN, hc, hne⟩ := Ex.dt_source psi hm
  have h53 := u53
  have hp : (0 : ℝ) < (2 : ℝ) ^ (-53 : ℤ) := by positivity
  have hpi : |round53 Real.pi - Real.pi| ≤ (2 : ℝ) ^ (-53 : ℤ) * Real.pi := by
    have := C74_binary64.rel Real.pi
    rwa [abs_of_pos Real.pi_pos] at this
  have hacc := all_accurate C74_binary64 accurate_libs.2 (by linarith) (by linarith) hpi hm .AUTO
  have hx : ∀ p ∈ centres s, 1 / 2 ≤ p.1 := fun p hp => Ex.rect_radius p (hc ▸ hp)
  have ht : ∀ p : ℝ × ℝ, temperatureAt Ex.flat psi p = 10 := fun p => by simp [temperatureAt, valueAt, Ex.flat]
  have hpos := Ex.rate_sum_pos hm psi s.sourceType (by rw [hst]; simp) (centres s) hne (fun p hp => by linarith [hx p hp])
  have hν0 : 0 < rateAt (referenceReactivity U m .AUTO) flat psi .DT (0, 0) := by
    have h2 := (hacc .DT).pos 10 (by norm_num) (by norm_num)
    have hT : valueAt flat.temperature (psi 0 0) = 10 := by simp [valueAt, flat]
    unfold rateAt rateDensity
    rw [hT]
    generalize referenceReactivity U m .AUTO .DT = ref at h2
    refine div_pos (mul_pos ?_ h2) ?_
    · simp [reactants, density, valueAt, flat, Reaction.DT]; norm_num
    · split_ifs <;> norm_num
  have ey : (neutronYield .DT : ℝ) = 1 := by norm_num [neutronYield, Reaction.DT]
  set ν := rateAt (referenceReactivity U m .AUTO) flat psi .DT (0, 0) with hν
  have e1 : neutronsAt (referenceReactivity U m .AUTO) flat psi s.sourceType = fun _ => ν := by
    funext p
    rw [hst]
    simp only [neutronsAt, List.map_cons, List.map_nil, List.sum_cons, List.sum_nil, add_zero, ey, one_mul]
    exact flat_rate _ psi .DT p
  have hV : 0 < insideIntegral rectangle fun _ => ν := by
    have hpi := Real.pi_pos
    have e0 : insideIntegral rectangle (fun _ => ν) = ν * surfaceVolume rectangle := by
      rw [← (polygon_measures rectangle rect_resolved.closed rect_resolved.long 1 rect_winds).2]
      exact MeasureTheory.integral_const_mul _ _
    have c1 : contour (fun x _ => x) rectangle = 4 := by
      simp only [rectangle, contour, seg_x]; norm_num
    have c2 : contour (fun x _ => x ^ 2) rectangle = 16 := by
      simp only [rectangle, contour, seg_xx]; norm_num
    have e := (C45_centroid _ rect_resolved.closed (by rw [rect_area]; norm_num)).1
    rw [c1, c2] at e
    rw [e0]
    refine mul_pos hν0 ?_
    unfold surfaceVolume
    rw [rect_area, e]
    positivity
  have hcon : ∀ k : ℝ, Gentle rectangle (centres s) (3 / 10) (fun _ => k) |k| 0 := fun k =>
    ⟨fun _ _ => le_rfl, fun _ _ _ _ _ _ => by simp, continuousOn_const⟩
  have hconν := hcon ν
  rw [abs_of_pos hν0] at hconν
  have hb : ∀ p ∈ centres s, |p.1| ≤ 3.3 := by
    intro p hp
    rw [hc] at hp
    have := (centre_bounds rect_resolved hp).1
    linarith
  obtain ⟨files, h1, -, -, h2⟩ := C116_binary64 accurate_libs.2 hm (fun _ => by norm_num) (by norm_num) hs hok hN hpos
    rect_resolved 1 rect_winds (by
      intro p hp
      rw [hc] at hp
      obtain ⟨e1, e2⟩ := Ex.rect_extent p hp
      constructor <;> linarith) (by rw [hc]; exact rect_no_gaps) scale_factors.1 scale_factors.2 scale_factors.2 "out"
    (g := Prod.fst) continuous_fst (η := 3 / 10) (G := 3.3) (by norm_num) (by norm_num)
    (fun p _ q h1 _ => h1) hb (C := ν) (ω := 0) (C' := ν * 3.3) (ω' := ν * (3 / 16)) hν0.le le_rfl
    (by positivity) (by positivity) (by rw [e1]; exact hconν) (by
      rw [e1]
      refine ⟨?_, ?_, ?_⟩
      · intro p hp
        rw [abs_mul, abs_of_pos hν0]
        refine mul_le_mul_of_nonneg_left ?_ hν0.le
        rcases hp with hp | hp
        · exact (inside_radius rect_resolved hp).trans (by norm_num)
        · exact hb p hp
      · intro p _ q _ h1 _
        rw [← mul_sub, abs_mul, abs_of_pos hν0]
        exact mul_le_mul_of_nonneg_left (by norm_num at h1 ⊢; linarith) hν0.le
      · exact (continuous_const.mul continuous_fst).continuousOn) (by rw [e1]; exact hV)
  rw [e1] at h2
  exact ⟨s, files, _, _, ν, h1, hst, hν0, hV, fun read hp hr =>
    (h2 (fun _ => Ex.citation) (fun _ => Ex.citation_clean) fun f hf _ => hp f hf).2 read fun f hf _ => hr f hf⟩

end Ex

end
end TNS
