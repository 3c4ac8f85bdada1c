import Verif.Props.SdefRead
/-
C68: the distribution described by the text of an SDEF file is that of the source.
-/

set_option autoImplicit false

namespace TNS
open Spec
noncomputable section

/-! ### Probabilities after rounding -/

theorem sum_round (φ : ℝ → ℝ) (e : ℝ) (hφ : ∀ x, |φ x - x| ≤ e * |x|) (l : List ℝ)
    (hl : ∀ x ∈ l, 0 ≤ x) : |(l.map φ).sum - l.sum| ≤ e * l.sum := by
  induction l with
  | nil => simp
  | cons a l ih =>
    have h1 := hφ a
    rw [abs_of_nonneg (hl a (by simp))] at h1
    have h2 := ih (fun x hx => hl x (List.mem_cons_of_mem _ hx))
    rw [List.map_cons, List.sum_cons, List.sum_cons]
    rw [abs_le] at h1 h2 ⊢
    constructor <;> nlinarith

theorem quot_round (p p' t t' e : ℝ) (he0 : 0 ≤ e) (he : e ≤ 1 / 10 ^ 5) (hp : 0 ≤ p) (ht : 0 ≤ t)
    (h1 : |p' - p| ≤ e * p) (h2 : |t' - t| ≤ e * t) :
    |p' / t' - p / t| ≤ 201 / 100 * e * (p / t) := by
  rcases ht.eq_or_lt with h | h
  · subst h
    have : t' = 0 := by simpa using h2
    rw [this]; simp
  · rw [abs_le] at h1 h2
    have ht' : 0 < t' := by nlinarith
    have h3 : t * (1 - e) ≤ t' := by linarith
    have key : |p' * t - p * t'| ≤ 2 * e * (p * t) := by
      rw [abs_le]
      constructor <;> nlinarith [mul_nonneg hp h.le]
    have : p' / t' - p / t = (p' * t - p * t') / (t' * t) := by field_simp
    rw [this, abs_div, abs_of_pos (mul_pos ht' h), div_le_iff₀ (mul_pos ht' h)]
    refine le_trans key ?_
    have e1 : 201 / 100 * e * (p / t) * (t' * t) = 201 / 100 * e * p * t' := by field_simp
    rw [e1]
    have h4 : 200 / 201 * t ≤ t' := by nlinarith
    have h5 : 0 ≤ e * p := mul_nonneg he0 hp
    nlinarith

/-- A bin and the bin read from the text. -/
def HRel (φ : ℝ → ℝ) (b b' : HBin ℝ) : Prop :=
  b'.lo = φ b.lo ∧ b'.hi = φ b.hi ∧ 0 ≤ b.prob ∧ |b'.prob - b.prob| ≤ 1005 / 10 ^ 8 * b.prob

theorem histogram_round (φ : ℝ → ℝ) (hφ : ∀ x, |φ x - x| ≤ 5 / 10 ^ 6 * |x|) (si sp : List ℝ)
    (hl : ∀ x ∈ sp, 0 ≤ x) :
    List.Forall₂ (HRel φ) (histogram si sp) (histogram (si.map φ) (sp.map φ)) := by
  have hs := sum_round φ _ hφ sp hl
  have ht : 0 ≤ sp.sum := List.sum_nonneg hl
  rw [List.forall₂_iff_get]
  constructor
  · simp [histogram]
  · intro i h1 h2
    have hm : sp.tail[i]'(by simp [histogram] at h1 ⊢; omega) ∈ sp :=
      List.mem_of_mem_tail (List.getElem_mem _)
    have hp := hl _ hm
    have hr := hφ (sp.tail[i]'(by simp [histogram] at h1 ⊢; omega))
    rw [abs_of_nonneg hp] at hr
    have q := quot_round _ _ _ _ _ (by norm_num) (by norm_num) hp ht hr hs
    unfold HRel
    simp only [histogram, List.get_eq_getElem, List.getElem_zipWith, List.getElem_zip, List.getElem_tail,
      List.getElem_map] at q ⊢
    refine ⟨trivial, trivial, div_nonneg ?_ ht, ?_⟩
    · simpa using hp
    · refine le_trans q (le_of_eq ?_)
      norm_num

/-- A ring-shaped bin and the one read from the text. -/
def SRel (φ : ℝ → ℝ) (b b' : SBin ℝ) : Prop :=
  b'.rLo = φ b.rLo ∧ b'.rHi = φ b.rHi ∧ b'.zLo = φ b.zLo ∧ b'.zHi = φ b.zHi ∧
    |b'.prob - b.prob| ≤ 21 / 10 ^ 6 * b.prob

theorem mul_round (a a' b b' : ℝ) (ha : 0 ≤ a) (hb : 0 ≤ b) (h1 : |a' - a| ≤ 1005 / 10 ^ 8 * a)
    (h2 : |b' - b| ≤ 1005 / 10 ^ 8 * b) : |a' * b' - a * b| ≤ 21 / 10 ^ 6 * (a * b) := by
  have e : a' * b' - a * b = (a' - a) * (b' - b) + a * (b' - b) + (a' - a) * b := by ring
  have k1 : |(a' - a) * (b' - b)| ≤ 1005 / 10 ^ 8 * a * (1005 / 10 ^ 8 * b) := by
    rw [abs_mul]; exact mul_le_mul h1 h2 (abs_nonneg _) (by positivity)
  have k2 : |a * (b' - b)| ≤ a * (1005 / 10 ^ 8 * b) := by
    rw [abs_mul, abs_of_nonneg ha]; exact mul_le_mul_of_nonneg_left h2 ha
  have k3 : |(a' - a) * b| ≤ 1005 / 10 ^ 8 * a * b := by
    rw [abs_mul, abs_of_nonneg hb]; exact mul_le_mul_of_nonneg_right h1 hb
  rw [e]
  refine le_trans (abs_add_le _ _) (le_trans (add_le_add (abs_add_le _ _) le_rfl) ?_)
  have : 0 ≤ a * b := mul_nonneg ha hb
  nlinarith

theorem sdefBins_elim (c : SdefCards ℝ) : sdefBins c =
    (List.zip (histogram c.si3 c.sp3) c.ds4).flatMap (fun q =>
      (c.vertical.find? (fun v => v.1 = q.2)).elim [] (fun v => (histogram v.2.1 v.2.2).map (fun b =>
        ⟨q.1.lo, q.1.hi, b.lo, b.hi, q.1.prob * b.prob⟩))) := by
  unfold sdefBins
  apply List.flatMap_congr
  intro q _
  generalize List.find? _ _ = o
  cases o <;> rfl

theorem sdefBins_round (φ : ℝ → ℝ) (hφ : ∀ x, |φ x - x| ≤ 5 / 10 ^ 6 * |x|) (c : SdefCards ℝ)
    (h3 : ∀ x ∈ c.sp3, 0 ≤ x) (hv : ∀ v ∈ c.vertical, ∀ x ∈ v.2.2, 0 ≤ x) :
    List.Forall₂ (SRel φ) (sdefBins c) (sdefBins (mapNums φ c)) := by
  have hh := histogram_round φ hφ c.si3 c.sp3 h3
  have hz : List.Forall₂ (fun q q' : HBin ℝ × ℕ => HRel φ q.1 q'.1 ∧ q'.2 = q.2)
      (List.zip (histogram c.si3 c.sp3) c.ds4)
      (List.zip (histogram (c.si3.map φ) (c.sp3.map φ)) c.ds4) := by
    generalize histogram c.si3 c.sp3 = A at hh
    generalize histogram (c.si3.map φ) (c.sp3.map φ) = B at hh
    generalize c.ds4 = d
    induction hh generalizing d with
    | nil => simp
    | cons h _ ih =>
      rcases d with _ | ⟨n, d⟩
      · simp
      · exact .cons ⟨h, rfl⟩ (ih d)
  rw [sdefBins_elim, sdefBins_elim]
  refine List.rel_flatMap hz ?_
  rintro q q' ⟨hb, hn⟩
  have hf : (mapNums φ c).vertical.find? (fun v => v.1 = q.2) =
      (c.vertical.find? (fun v => v.1 = q.2)).map (fun v => (v.1, v.2.1.map φ, v.2.2.map φ)) := by
    simp only [mapNums, List.find?_map]
    rfl
  beta_reduce
  rw [hn, hf]
  have hmem : ∀ v, c.vertical.find? (fun v => v.1 = q.2) = some v → v ∈ c.vertical :=
    fun v h => List.mem_of_find?_eq_some h
  generalize c.vertical.find? (fun v => v.1 = q.2) = o at hmem ⊢
  rcases o with _ | v
  · exact .nil
  · simp only [Option.map_some, Option.elim_some]
    rw [List.forall₂_map_left_iff, List.forall₂_map_right_iff]
    refine (histogram_round φ hφ v.2.1 v.2.2 (hv v (hmem v rfl))).imp ?_
    intro d d' hd
    exact ⟨hb.1, hb.2.1, hd.1, hd.2.1, mul_round _ _ _ _ hb.2.2.1 hd.2.2.1 hb.2.2.2 hd.2.2.2⟩

/-- **C68.**  For physical inputs and every file that is written: the text of the file, read by the rules
of MCNP input, describes one ring-shaped bin per cell of the source, in the order of the cells.  Up to
the printed precision (relative 5e-6) its lower edges are those of the cell, and its sampling probability
differs from the share of the cell in the rate of the reaction by at most 2.1e-5 of that share. -/
theorem C68_source {pi : ℝ} {Q : Reaction → ℝ} {sv : Reaction → List ℝ → Except Err (List ℝ)}
    {s : Source ℝ} (h : PhysReachable pi Q sv s) (hL : 0 < s.cellSideLength) (hne : s.x ≠ [])
    (stub : String) (files : List (SdefFile ℝ)) (hf : s.toSdef stub = .ok files)
    (f : SdefFile ℝ) (hfm : f ∈ files) (r : Neutronic) (T : ℝ)
    (cit : Citation) (hc : CleanCitation cit) (hfT : f.ionTemp = .fin T) (hT : InRange (T / 1000))
    (hp : Printable f.cards) :
    ∃ text φ c cells rate, sdefText cit r f = .ok text ∧
      (∀ x, |φ x - x| ≤ 5 / 10 ^ 6 * |x|) ∧ Monotone φ ∧
      readSdef (readCards 128 text) = some c ∧
      s.strength.get? f.reaction = some cells ∧ s.numReactions.get? f.reaction = some rate ∧
      List.Forall₂ (fun (q : ℝ × ℝ × ℝ) (b : SBin ℝ) =>
          b.rLo = φ (100 * (q.1 - s.cellSideLength / 2)) ∧
          b.zLo = φ (100 * (q.2.1 - s.cellSideLength / 2)) ∧
          |b.prob - q.2.2 / rate| ≤ 21 / 10 ^ 6 * (q.2.2 / rate))
        (List.zip s.x (List.zip s.z cells)) (sdefBins c) := by
  obtain ⟨cells, rate, hs, hr, hb⟩ := C24_source h hL hne stub files hf f hfm
  obtain ⟨_, hphys⟩ := h.phys
  have hr' := h.reachable
  obtain ⟨fm, hx, hz⟩ := reachable_sampled hr'
  have hsort : s.x.Pairwise (· ≤ ·) := by
    rw [hx]
    simp only [sampleSpace2d]
    rw [List.pairwise_map]
    exact (C16_order fm.lcfsX fm.lcfsZ fm.inside fm.oX fm.oZ _ hL).imp (by
      rintro p q (h | ⟨h, _⟩)
      exacts [h.le, h.le])
  obtain ⟨p, hpm, he⟩ := mapM_mem hf f hfm
  simp only [bind, Except.bind] at he
  split at he
  · cases he
  rename_i c0 hc0
  cases he
  have hget : s.strength.get? p.1 = some p.2 := by
    obtain ⟨g, hcl⟩ := reachable_closed hr'
    have hpm' := (List.mem_filter.1 hpm).1
    rw [hcl.2.1] at hpm' ⊢
    obtain ⟨r, hrm, rfl⟩ := List.mem_map.1 hpm'
    rw [Dict.get?_map_pair, if_pos hrm]
  simp only at hs hr hb hfT hp
  rw [hget] at hs
  cases hs
  have hlen := hphys.len p.1 p.2 hget
  have hnn := hphys.nonneg p.1 p.2 hget
  obtain ⟨c1, e1, -, -, -, s4, s5, s6, -⟩ := C23_structure s.x s.z p.2 s.cellSideLength hsort hne
    hphys.z_len hlen
  rw [hc0] at e1; cases e1
  have s7 : ∀ n ∈ c0.ds4, 5 ≤ n := by
    intro n hn
    rw [s4] at hn
    exact (List.mem_range'_1.1 hn).1
  obtain ⟨text, φ, ht, hφ, hmono, hread⟩ := C67_file cit hc r (SdefFile.mk _ _ _ _ c0) T hfT hT hp s5 s6 s7
  refine ⟨text, φ, _, p.2, rate, ht, hφ, hmono, hread, hget, hr, ?_⟩
  have hcl := sdefCards_eq s.x s.z s.cellSideLength p.2 hsort hne hphys.z_len hlen
  rw [hc0] at hcl
  have hcl := Except.ok.inj hcl
  have hat : ∀ ρ, ∀ x ∈ atRadius (s.x.map (· * 100)) p.2 ρ, 0 ≤ x := fun ρ x hx =>
    hnn x (List.of_mem_zip ((mem_atRadius _ _ _ _).1 hx)).2
  have hround := sdefBins_round φ hφ c0 (by
      rw [hcl]
      intro x hx
      simp only [closedCards, List.mem_cons, List.mem_map] at hx
      rcases hx with rfl | ⟨ρ, -, rfl⟩
      · exact le_rfl
      · exact List.sum_nonneg (hat ρ)) (by
      rw [hcl]
      intro v hv x hx
      simp only [closedCards] at hv
      obtain ⟨n, hn, rfl⟩ := List.mem_iff_getElem.1 hv
      simp only [List.getElem_zipWith, List.mem_cons] at hx
      rcases hx with rfl | hx
      · exact le_rfl
      · exact hat _ x hx)
  have hb2 : List.Forall₂ (fun (q : ℝ × ℝ × ℝ) (b : SBin ℝ) =>
      b.rLo = 100 * (q.1 - s.cellSideLength / 2) ∧ b.zLo = 100 * (q.2.1 - s.cellSideLength / 2) ∧
        b.prob = q.2.2 / rate) (List.zip s.x (List.zip s.z p.2)) (sdefBins c0) := by
    have hb' : List.Forall₂ Eq ((List.zip s.x (List.zip s.z p.2)).map (fun q =>
          (100 * (q.1 - s.cellSideLength / 2), 100 * (q.2.1 - s.cellSideLength / 2),
            q.2.2 / rate))) ((sdefBins c0).map (fun b => (b.rLo, b.zLo, b.prob))) := by
      rw [hb]; exact List.forall₂_same.2 (fun _ _ => rfl)
    rw [List.forall₂_map_left_iff, List.forall₂_map_right_iff] at hb'
    exact hb'.imp (fun q b e => by
      simp only [Prod.mk.injEq] at e
      exact ⟨e.1.symm, e.2.1.symm, e.2.2.symm⟩)
  have comp : ∀ {A : List (ℝ × ℝ × ℝ)} {B C : List (SBin ℝ)},
      List.Forall₂ (fun (q : ℝ × ℝ × ℝ) (b : SBin ℝ) =>
        b.rLo = 100 * (q.1 - s.cellSideLength / 2) ∧ b.zLo = 100 * (q.2.1 - s.cellSideLength / 2) ∧
        b.prob = q.2.2 / rate) A B → List.Forall₂ (SRel φ) B C →
      List.Forall₂ (fun (q : ℝ × ℝ × ℝ) (b : SBin ℝ) =>
          b.rLo = φ (100 * (q.1 - s.cellSideLength / 2)) ∧
          b.zLo = φ (100 * (q.2.1 - s.cellSideLength / 2)) ∧
          |b.prob - q.2.2 / rate| ≤ 21 / 10 ^ 6 * (q.2.2 / rate)) A C := by
    intro A B C h1
    induction h1 generalizing C with
    | nil => intro h2; cases h2; exact .nil
    | cons hab _ ih =>
      intro h2
      cases h2 with
      | cons hbc ht =>
        refine .cons ?_ (ih ht)
        obtain ⟨a1, a2, a3⟩ := hab
        obtain ⟨b1, -, b3, -, b5⟩ := hbc
        rw [a1] at b1; rw [a2] at b3; rw [a3] at b5
        exact ⟨b1, b3, b5⟩
  exact comp hb2 hround

/-! ### Examples -/
namespace Ex

/-- A small plasma of real numbers: two points are inside. -/
def fluxR : FluxMapView ℝ where
  lcfsX := [1, 4]
  lcfsZ := [0, 0]
  inside := fun p => decide (p = (2, 0) ∨ p = (3, 0))
  oX := 2
  oZ := 0
  psiNorm := fun x _ => x / 10

def transportR : TransportView ℝ where
  temperature := fun p => .ok (10 * p)
  deuterium := fun _ => .ok 2
  tritium := fun _ => .ok 3
  helium3 := fun _ => .ok 0

def svR : Reaction → List ℝ → Except Err (List ℝ) := fun _ T => .ok (T.map (fun _ => 1))

def srcR : Source ℝ where
  sourceType := [.DT]
  x := [2, 3]
  z := [0, 0]
  dVolume := [12, 18]
  cellSideLength := 1
  temperature := [2, 3]
  strength := [(.DT, [72, 108])]
  numReactions := [(.DT, 180)]
  numNeutrons := [(.DT, 180)]

theorem gridR1 : gridAxis ([1, 4] : List ℝ) 2 1 = [-1, 0, 1, 2, 3, 4, 5, 6] := by
  have h : ⌈((4 : ℝ) + 2 * 1 - (1 - 2 * 1 + (pyMod (2 - (1 - 2 * 1)) 1 - 1 / 2 * 1))) / 1⌉.toNat = 8 := by
    unfold pyMod
    norm_num
    rfl
  unfold gridAxis arange
  simp only [npMin, npMax, List.foldl_cons, List.foldl_nil]
  rw [show min (1 : ℝ) 4 = 1 by norm_num, show max (1 : ℝ) 4 = 4 by norm_num, h]
  simp only [pyMod, List.range_succ, List.range_zero]
  norm_num

theorem gridR2 : gridAxis ([0, 0] : List ℝ) 0 1 = [-2, -1, 0, 1, 2] := by
  have h : ⌈((0 : ℝ) + 2 * 1 - (0 - 2 * 1 + (pyMod (0 - (0 - 2 * 1)) 1 - 1 / 2 * 1))) / 1⌉.toNat = 5 := by
    unfold pyMod
    norm_num
    rfl
  unfold gridAxis arange
  simp only [npMin, npMax, List.foldl_cons, List.foldl_nil, min_self, max_self]
  rw [h]
  simp only [pyMod, List.range_succ, List.range_zero]
  norm_num

theorem pointsR : samplePoints fluxR.lcfsX fluxR.lcfsZ fluxR.inside fluxR.oX fluxR.oZ 1 =
    [(2, 0), (3, 0)] := by
  unfold samplePoints
  show (meshPoints (gridAxis [1, 4] 2 1) (gridAxis [0, 0] 0 1)).filter fluxR.inside = _
  rw [gridR1, gridR2]
  simp [meshPoints, fluxR, List.filter_cons]
  norm_num

theorem initR : Source.init 3 (fun _ => 1) svR transportR fluxR (.str "D-T") 1 none = .ok srcR := by
  have hp : parseSourceType (.str "D-T") = .ok [.DT] := by
    simp only [parseSourceType, finish_eq_filter]; decide +kernel
  unfold Source.init
  simp only [hp, sampleSpace2d, pointsR]
  simp [fluxR, transportR, svR, srcR, cellVolume, Source.addReaction, densityWeightedReactivity, pairDensity,
    bind, Except.bind, pure, Except.pure, List.mapM_cons, Dict.set, Reaction.numNeutrons]
  norm_num

theorem physR : PhysReachable 3 (fun _ => 1) svR srcR := by
  refine .constructed ⟨by norm_num, fun _ => by norm_num, ?_, ?_, ?_, ?_, ?_, ?_⟩ (by simp) initR
  · intro p n h; obtain rfl := Except.ok.inj h; norm_num
  · intro p n h; obtain rfl := Except.ok.inj h; norm_num
  · intro p n h; obtain rfl := Except.ok.inj h; norm_num
  · intro p h
    simp only [fluxR, decide_eq_true_eq] at h
    rcases h with rfl | rfl <;> norm_num
  · intro r T w h; obtain rfl := Except.ok.inj h; simp
  · intro r T w h v hv
    obtain rfl := Except.ok.inj h
    obtain ⟨_, _, rfl⟩ := List.mem_map.1 hv
    norm_num

/-- The file of the source. -/
def fileR : SdefFile ℝ where
  name := sdefFileName "out" .DT
  reaction := .DT
  total := 180
  ionTemp := .fin (13 / 5)
  cards := {
    si3 := [150, 250, 350]
    sp3 := [0, 72, 108]
    ds4 := [5, 6]
    vertical := [(5, [-50, 50], [0, 72]), (6, [-50, 50], [0, 108])] }

theorem sdefR : srcR.toSdef "out" = .ok [fileR] := by
  have hu : npUnique ([200, 300] : List ℝ) = [200, 300] := by
    simp [npUnique, insertUnique]; norm_num
  have hc : sdefCards srcR.x srcR.z srcR.cellSideLength [72, 108] = .ok fileR.cards := by
    rw [show srcR.cellSideLength = 1 from rfl, sdefCards_eq srcR.x srcR.z 1 [72, 108] (by simp [srcR]; norm_num) (by simp [srcR]) (by simp [srcR]) (by simp [srcR])]
    have e : srcR.x.map (· * 100) = [200, 300] := by simp [srcR]; norm_num
    have e2 : srcR.z.map (· * 100) = [0, 0] := by simp [srcR]
    rw [e, e2]
    simp only [closedCards, hu, fileR]
    simp [atRadius, List.range_succ]
    norm_num
  unfold Source.toSdef
  have hf : srcR.strength.filter (fun p => p.1.isNeutronic) = [(.DT, [72, 108])] := by
    simp [srcR, Reaction.isNeutronic]
  rw [hf]
  simp only [List.mapM_cons, List.mapM_nil, hc, bind, Except.bind, pure, Except.pure]
  simp [fileR, headerTotal, meanIonTemp, srcR]
  constructor
  · norm_num
  · show XF.div _ _ = _
    simp [XF.div]
    norm_num

/-- The citation file of the repository. -/
def citation : Citation where
  authors := [
    ⟨"M.".toList, "Coleman".toList, "United Kingdom Atomic Energy Authority, Culham Science Centre, Abingdon, Oxfordshire OX14 3DB, United Kingdom".toList⟩,
    ⟨"J. E.".toList, "Cook".toList, "United Kingdom Atomic Energy Authority, Culham Science Centre, Abingdon, Oxfordshire OX14 3DB, United Kingdom".toList⟩,
    ⟨"T.".toList, "Eade".toList, "United Kingdom Industrial Fusion Solutions, Culham Science Centre, Abingdon, Oxfordshire OX14 3DB, United Kingdom".toList⟩,
    ⟨"O.".toList, "Wong".toList, "United Kingdom Atomic Energy Authority, Culham Science Centre, Abingdon, Oxfordshire OX14 3DB, United Kingdom".toList⟩]
  repository := "https://github.com/Fusion-Power-Plant-Framework/tokamak-neutron-source".toList

theorem citation_clean : CleanCitation citation := by
  unfold CleanCitation citation
  decide

theorem rangeR (x : ℝ) (h1 : 1 / 1000 ≤ |x|) (h2 : |x| ≤ 1000) : InRange x := by
  rcases le_total 0 x with h | h
  · rw [abs_of_nonneg h] at h1 h2
    exact inRange_of x (le_trans (by norm_num) h1) (le_trans h2 (by norm_num))
  · rw [abs_of_nonpos h] at h1 h2
    have := inRange_of (-x) (le_trans (by norm_num) h1) (le_trans h2 (by norm_num))
    rcases this with h0 | h0
    · exact .inl (by linarith)
    · right; rwa [abs_neg] at h0

theorem printableR : Printable fileR.cards := by
  have z : InRange (0 : ℝ) := .inl rfl
  have k : ∀ x : ℝ, 1 / 1000 ≤ |x| ∧ |x| ≤ 1000 → InRange x := fun x h => rangeR x h.1 h.2
  unfold Printable fileR
  refine ⟨?_, ?_, ?_, ?_⟩
  · intro x hx
    simp only [List.mem_cons, List.not_mem_nil, or_false] at hx
    rcases hx with rfl | rfl | rfl <;> exact k _ (by norm_num)
  · intro x hx
    simp only [List.mem_cons, List.not_mem_nil, or_false] at hx
    rcases hx with rfl | rfl | rfl
    · exact z
    all_goals exact k _ (by norm_num)
  · intro n hn
    simp only [List.mem_cons, List.not_mem_nil, or_false] at hn
    rcases hn with rfl | rfl <;> norm_num
  · intro v hv
    simp only [List.mem_cons, List.not_mem_nil, or_false] at hv
    rcases hv with rfl | rfl <;> refine ⟨by norm_num, ?_, ?_⟩ <;> intro x hx <;>
      simp only [List.mem_cons, List.not_mem_nil, or_false] at hx <;> rcases hx with rfl | rfl <;>
      first | exact z | exact k _ (by norm_num)

/-- The hypotheses of `C68_source` (so of `C67_file`) hold of a source with two cells and the citation
file of the repository. -/
example : ∃ text c, sdefText citation .D_T fileR = .ok text ∧ readSdef (readCards 128 text) = some c ∧
    (sdefBins c).length = 2 := by
  obtain ⟨text, φ, c, cells, rate, h1, -, -, h2, h3, -, h4⟩ := C68_source physR (by norm_num [srcR])
    (by simp [srcR]) "out" _ sdefR fileR (by simp) .D_T (13 / 5) citation citation_clean rfl
    (rangeR _ (by norm_num) (by norm_num)) printableR
  refine ⟨text, c, h1, h2, ?_⟩
  have : cells = [72, 108] := by
    have : srcR.strength.get? fileR.reaction = some [72, 108] := by simp [srcR, fileR, Dict.get?]
    rw [this] at h3; exact (Option.some.inj h3).symm
  rw [← h4.length_eq, this]
  simp [srcR]

end Ex

end
end TNS
