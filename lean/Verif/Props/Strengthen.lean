import Verif.Props.PointInPath
import Verif.Props.Mcnp
import Verif.Props.OpenMC
/-
C12–C15 for the polygon test the program uses (no assumption on the test), the total of the cell
volumes (C15), and the SDEF files of a source under normalisation (C30).
-/

set_option autoImplicit false

namespace TNS
open Spec MeasureTheory

/-- **C12**, for a closed LCFS polygon: the sampled points are exactly the points of the lattice through
the O-point about which the LCFS winds an odd number of times. -/
theorem C12_polygon (pts : List (ℝ × ℝ)) (hc : pts.head? = pts.getLast?) (hl : 3 ≤ pts.length)
    (oX oZ L : ℝ) (hL : 0 < L) (p : ℝ × ℝ) :
    p ∈ samplePoints (pts.map Prod.fst) (pts.map Prod.snd) (containsPoint pts) oX oZ L ↔
      Lattice oX oZ L p ∧ Odd (winding p pts) := by
  rw [C12_exact _ _ _ (C65_within_box pts) oX oZ L hL, C65_winding pts hc hl]

/-- **C13**, for a closed LCFS polygon: if it winds an odd number of times about the O-point, the O-point
is a cell centre, however large the cells. -/
theorem C13_polygon (pts : List (ℝ × ℝ)) (hc : pts.head? = pts.getLast?) (hl : 3 ≤ pts.length)
    (oX oZ L : ℝ) (hL : 0 < L) (ho : Odd (winding (oX, oZ) pts)) :
    (oX, oZ) ∈ samplePoints (pts.map Prod.fst) (pts.map Prod.snd) (containsPoint pts) oX oZ L :=
  (C12_polygon pts hc hl oX oZ L hL _).2 ⟨⟨0, 0, by simp, by simp⟩, ho⟩

/-- **C14**, for a closed LCFS polygon: every point of the plane lies in the cell of exactly one lattice
point, and that cell is a sampled one exactly when the LCFS winds an odd number of times about its
centre. -/
theorem C14_polygon (pts : List (ℝ × ℝ)) (hc : pts.head? = pts.getLast?) (hl : 3 ≤ pts.length)
    (oX oZ L : ℝ) (hL : 0 < L) (q : ℝ × ℝ) :
    ∃ p, Lattice oX oZ L p ∧ Cell L p q ∧ (∀ p', Lattice oX oZ L p' → Cell L p' q → p' = p) ∧
      (Odd (winding p pts) ↔
        p ∈ samplePoints (pts.map Prod.fst) (pts.map Prod.snd) (containsPoint pts) oX oZ L) := by
  obtain ⟨p, h1, h2, h3, h4⟩ := C14_cover _ _ _ (C65_within_box pts) oX oZ L hL q
  exact ⟨p, h1, h2, h3, by rw [← h4, C65_winding pts hc hl]⟩

/-- The hypotheses of `C12_polygon`–`C14_polygon` hold of a square plasma about its centre. -/
example : let pts : List (ℝ × ℝ) := [(1, -1), (3, -1), (3, 1), (1, 1), (1, -1)]
    pts.head? = pts.getLast? ∧ 3 ≤ pts.length ∧ Odd (winding (2, 0) pts) := by
  refine ⟨rfl, by simp, ?_⟩
  have : winding (2, 0) ([(1, -1), (3, -1), (3, 1), (1, 1), (1, -1)] : List (ℝ × ℝ)) = 1 := by
    simp only [winding, signedCross, UpCross, DownCross, abscissa]
    norm_num
  rw [this]; exact odd_one

/-- The integral over the cells of a list of centres is the sum of the cell volumes, if the cells are
pairwise disjoint. -/
theorem integral_cells (L : ℝ) (hL : 0 < L) (l : List (ℝ × ℝ)) (hnd : l.Nodup)
    (hdis : ∀ p ∈ l, ∀ p' ∈ l, ∀ q, Cell L p q → Cell L p' q → p = p') :
    IntegrableOn (fun q : ℝ × ℝ => 2 * Real.pi * q.1) {q | ∃ p ∈ l, Cell L p q} ∧
    MeasurableSet {q : ℝ × ℝ | ∃ p ∈ l, Cell L p q} ∧
    ∫ q in {q : ℝ × ℝ | ∃ p ∈ l, Cell L p q}, 2 * Real.pi * q.1 =
      (l.map (fun p => cellVolume Real.pi p.1 L)).sum := by
  induction l with
  | nil => simp
  | cons a l ih =>
    rw [List.nodup_cons] at hnd
    obtain ⟨i1, i2, i3⟩ := ih hnd.2 (fun p hp p' hp' => hdis p (List.mem_cons_of_mem _ hp) p'
      (List.mem_cons_of_mem _ hp'))
    have hset : {q : ℝ × ℝ | ∃ p ∈ a :: l, Cell L p q} =
        cellSet L a ∪ {q | ∃ p ∈ l, Cell L p q} := by
      ext q; simp [cellSet]
    have hd : Disjoint (cellSet L a) {q | ∃ p ∈ l, Cell L p q} := by
      rw [Set.disjoint_left]
      rintro q hq ⟨p, hp, hpq⟩
      have := hdis a List.mem_cons_self p (List.mem_cons_of_mem _ hp) q hq hpq
      exact hnd.1 (this ▸ hp)
    have hint : IntegrableOn (fun q : ℝ × ℝ => 2 * Real.pi * q.1) (cellSet L a) := by
      have hb : cellSet L a ⊆ Set.Icc (a.1 - L / 2) (a.1 + L / 2) ×ˢ
          Set.Icc (a.2 - L / 2) (a.2 + L / 2) := by
        rw [cellSet_eq]
        exact Set.prod_mono Set.Ico_subset_Icc_self Set.Ico_subset_Icc_self
      refine IntegrableOn.mono_set ?_ hb
      exact (by fun_prop : Continuous fun q : ℝ × ℝ => 2 * Real.pi * q.1).continuousOn.integrableOn_compact
        (isCompact_Icc.prod isCompact_Icc)
    rw [hset]
    refine ⟨hint.union i1, (cellSet_measurable L a).union i2, ?_⟩
    rw [setIntegral_union hd i2 hint i1, i3, List.map_cons, List.sum_cons,
      C15_integral a.1 a.2 L hL]
    rfl

/-- **C15**, total: the cell volumes of the sampled points add up to the volume swept by the union of
their squares (which do not overlap), for every polygon and cell size. -/
theorem C15_total (pts : List (ℝ × ℝ)) (oX oZ L : ℝ) (hL : 0 < L) :
    (sampleSpace2d Real.pi (pts.map Prod.fst) (pts.map Prod.snd) (containsPoint pts) oX oZ L).dVolume.sum =
      ∫ q in {q : ℝ × ℝ | ∃ p, Lattice oX oZ L p ∧ containsPoint pts p = true ∧ Cell L p q},
        2 * Real.pi * q.1 := by
  set l := samplePoints (pts.map Prod.fst) (pts.map Prod.snd) (containsPoint pts) oX oZ L with hl
  have h := (integral_cells L hL l (C12_nodup _ _ _ oX oZ L hL)
    (fun p hp p' hp' q => C14_disjoint _ _ _ (C65_within_box pts) oX oZ L hL p p' q hp hp')).2.2
  have hs : {q : ℝ × ℝ | ∃ p, Lattice oX oZ L p ∧ containsPoint pts p = true ∧ Cell L p q} =
      {q : ℝ × ℝ | ∃ p ∈ l, Cell L p q} := by
    ext q
    constructor
    · rintro ⟨p, h1, h2, h3⟩
      exact ⟨p, (C12_exact _ _ _ (C65_within_box pts) oX oZ L hL p).2 ⟨h1, h2⟩, h3⟩
    · rintro ⟨p, h1, h3⟩
      obtain ⟨h1, h2⟩ := (C12_exact _ _ _ (C65_within_box pts) oX oZ L hL p).1 h1
      exact ⟨p, h1, h2, h3⟩
  rw [hs, h]
  rfl

/-! ### The SDEF files of a source -/

section
variable {K : Type} [Field K] [LinearOrder K] [IsStrictOrderedRing K] [FloorRing K]

theorem slice_map {α β : Type} (g : α → β) (l : List α) (a b : ℤ) :
    slice (l.map g) a b = (slice l a b).map g := by
  unfold slice; rw [← List.map_drop, ← List.map_take]

theorem columns_map {α β : Type} (g : α → β) (zi : List ℤ) (l : List α) :
    columns zi (l.map g) = (columns zi l).map (List.map g) := by
  unfold columns
  rw [List.map_zipWith]
  simp only [slice_map]

theorem histogram_scale (c : K) (hc : c ≠ 0) (si sp : List K) :
    histogram si (sp.map (· * c)) = histogram si sp := by
  unfold histogram
  rw [← List.map_tail, List.sum_map_mul_right, List.map_id', List.zipWith_map_right]
  simp only [mul_div_mul_right _ _ hc]

/-- Multiplying the strengths by a non-zero factor does not change the distribution the cards
describe. -/
theorem sdefCards_scale (r z data : List K) (L c : K) (hc : c ≠ 0) (cards : SdefCards K)
    (h : sdefCards r z L data = .ok cards) :
    ∃ cards', sdefCards r z L (data.map (· * c)) = .ok cards' ∧ sdefBins cards' = sdefBins cards := by
  unfold sdefCards at h ⊢
  dsimp only at h ⊢
  cases hb : rBounds (r.map (· * 100)) (L * 100) with
  | error e => rw [hb] at h; cases h
  | ok b =>
    rw [hb] at h
    simp only [Bind.bind, Except.bind, Except.ok.injEq] at h ⊢
    subst h
    refine ⟨_, rfl, ?_⟩
    unfold sdefBins
    have hsp : ∀ zi : List ℤ, (0 : K) :: (columns zi (data.map (· * c))).map List.sum =
        ((0 : K) :: (columns zi data).map List.sum).map (· * c) := by
      intro zi
      rw [columns_map]
      simp only [List.map_map, List.map_cons, zero_mul]
      congr 1
      apply List.map_congr_left
      intro l _
      simp only [Function.comp_apply, List.sum_map_mul_right, List.map_id']
    simp only
    rw [hsp, histogram_scale c hc]
    have hv : ∀ (zi : List ℤ) (z' : List K) (d : K), verticalCards zi z' (data.map (· * c)) d =
        (verticalCards zi z' data d).map (fun v => (v.1, v.2.1, v.2.2.map (· * c))) := by
      intro zi z' d
      unfold verticalCards
      rw [columns_map, List.map_zipWith, List.zipWith_map_right]
      generalize List.zip zi.tail (columns zi z') = A
      generalize columns zi data = B
      have : List.zipWith (fun (p : ℤ × List K) (d' : List K) =>
          (p.2.map (· - d) ++ [((z'[p.1.toNat]?).getD 0) + d], 0 :: d'.map (· * c))) A B =
        (List.zipWith (fun (p : ℤ × List K) d' =>
          (p.2.map (· - d) ++ [((z'[p.1.toNat]?).getD 0) + d], (0 : K) :: d')) A B).map
          (fun v => (v.1, v.2.map (· * c))) := by
        rw [List.map_zipWith]
        simp
      rw [this, List.zipWith_map_right]
    rw [hv]
    congr 1
    funext q
    rw [List.find?_map]
    simp only [Function.comp_def]
    generalize List.find? _ (verticalCards _ _ data _) = o
    cases o with
    | none => rfl
    | some v => simp only [Option.map_some, histogram_scale c hc]

/-- **C30**, source: the ion temperature of the file of a channel that reacts at all is the mean of the
cell temperatures weighted with the channel's cell strengths, and lies between any bounds on the cell
temperatures; for a channel that does not react it is `nan`. -/
theorem C30_source {pi : K} {Q : Reaction → K} {sv : Reaction → List K → Except Err (List K)}
    {s : Source K} (h : PhysReachable pi Q sv s) (stub : String) (files : List (SdefFile K))
    (hf : s.toSdef stub = .ok files) (f : SdefFile K) (hfm : f ∈ files) :
    ∃ cells rate, s.strength.get? f.reaction = some cells ∧
      s.numReactions.get? f.reaction = some rate ∧ 0 ≤ rate ∧
      (rate = 0 → f.ionTemp = .nan) ∧
      (0 < rate → ∃ T, f.ionTemp = .fin T ∧
        T * rate = (List.zipWith (· * ·) cells s.temperature).sum ∧
        ∀ lo hi, (∀ t ∈ s.temperature, lo ≤ t) → (∀ t ∈ s.temperature, t ≤ hi) → lo ≤ T ∧ T ≤ hi) := by
  have hp := h.phys.2
  have hr := h.reachable
  obtain ⟨-, hkeys, -, -, hbook, -⟩ := C04_bookkeeping hr
  obtain ⟨p, hpm, he⟩ := mapM_mem hf f hfm
  simp only [bind, Except.bind] at he
  split at he
  · cases he
  rename_i c hc
  cases he
  have hpm' := (List.mem_filter.1 hpm).1
  have hget : s.strength.get? p.1 = some p.2 := by
    obtain ⟨g, hcl⟩ := reachable_closed hr
    rw [hcl.2.1] at hpm' ⊢
    obtain ⟨r, hrm, rfl⟩ := List.mem_map.1 hpm'
    rw [Dict.get?_map_pair, if_pos hrm]
  have hmem : p.1 ∈ s.sourceType := by
    rw [← hkeys]; exact List.mem_map.2 ⟨p, hpm', rfl⟩
  obtain ⟨cells, h1, h2, _⟩ := hbook p.1 hmem
  rw [hget] at h1; cases h1
  have hnn := hp.nonneg p.1 p.2 hget
  have hlen : s.temperature.length = p.2.length := by
    rw [hp.temp_len, hp.len p.1 p.2 hget]
  refine ⟨p.2, p.2.sum, hget, h2, List.sum_nonneg hnn, ?_, ?_⟩
  · intro h0
    refine C30_zero p.2 s.temperature ?_
    intro v hv
    exact le_antisymm (h0 ▸ List.single_le_sum hnn v hv) (hnn v hv)
  · intro hpos
    -- some bounds exist for a finite list
    obtain ⟨T, e1, -, -, e4, -⟩ := C30_mean p.2 s.temperature hlen hnn hpos
      (npMin s.temperature) (npMax s.temperature) (fun t ht => npMin_le _ t ht)
      (fun t ht => le_npMax _ t ht)
    refine ⟨T, e1, e4, ?_⟩
    intro lo hi hlo hhi
    obtain ⟨T', f1, f2, f3, -⟩ := C30_mean p.2 s.temperature hlen hnn hpos lo hi hlo hhi
    have : meanIonTemp p.2 s.temperature = .fin T := e1
    rw [f1] at this
    cases this
    exact ⟨f2, f3⟩

theorem meanIonTemp_scale (c : K) (hc : 0 < c) (strength temperature : List K) :
    meanIonTemp (strength.map (· * c)) temperature = meanIonTemp strength temperature := by
  unfold meanIonTemp
  have h1 : (List.zipWith (· * ·) (strength.map (· * c)) temperature).sum =
      (List.zipWith (· * ·) strength temperature).sum * c := by
    have := List.sum_map_mul_right (l := List.zipWith (· * ·) strength temperature)
      (f := fun x : K => x) (r := c)
    rw [List.map_id'] at this
    rw [← this, List.map_zipWith, List.zipWith_map_left]
    congr 2
    funext a b
    ring
  rw [h1, List.sum_map_mul_right, List.map_id', fin_div_scale _ _ _ hc]

/-- **C30**, normalisation: normalising the source to a positive power changes neither the set of files,
nor their ion temperatures, nor the distribution of neutrons in space they describe; the header totals
are multiplied by the ratio of the powers. -/
theorem C30_normalise {pi : K} {Q : Reaction → K}
    {sv : Reaction → List K → Except Err (List K)} {s s' : Source K} {P : K}
    (h : Reachable pi Q sv s) (hP : 0 < P) (hpow : 0 < s.totalPower Q)
    (hn : s.normalise Q P = .ok s') (stub : String) (files : List (SdefFile K))
    (hf : s.toSdef stub = .ok files) :
    ∃ files', s'.toSdef stub = .ok files' ∧
      List.Forall₂ (fun f f' => f'.name = f.name ∧ f'.reaction = f.reaction ∧
        f'.ionTemp = f.ionTemp ∧ sdefBins f'.cards = sdefBins f.cards ∧
        f'.total * s.totalPower Q = f.total * P) files files' := by
  obtain ⟨g, hg⟩ := reachable_closed h
  obtain ⟨_, _, rfl⟩ := (Source.normalise_ok_iff Q P s s').1 hn
  have hc : 0 < P / s.totalPower Q := div_pos hP hpow
  have hcp : P / s.totalPower Q * s.totalPower Q = P := div_mul_cancel₀ _ hpow.ne'
  generalize P / s.totalPower Q = c at hc hcp
  rw [(hg.scale c).1]
  have h2 := (mapM_ok_iff _ _ _).1 hf
  unfold Source.toSdef
  dsimp only
  rw [List.filter_map]
  have hfil : ((fun p : Reaction × List K => p.1.isNeutronic) ∘
      fun p : Reaction × List K => (p.1, p.2.map (· * c))) = fun p => p.1.isNeutronic := rfl
  rw [hfil]
  generalize (s.strength.filter (fun p => p.1.isNeutronic)) = l at h2
  clear hf hfil
  induction h2 with
  | nil => exact ⟨[], rfl, List.Forall₂.nil⟩
  | @cons p f l fs hpf _ ih =>
    obtain ⟨fs', e1, e2⟩ := ih
    simp only [bind, Except.bind] at hpf
    split at hpf
    · cases hpf
    rename_i cards hcards
    cases hpf
    obtain ⟨cards', hc1, hc2⟩ := sdefCards_scale s.x s.z p.2 s.cellSideLength c hc.ne' cards hcards
    refine ⟨⟨sdefFileName stub p.1, p.1, headerTotal (p.2.map (· * c)),
      meanIonTemp (p.2.map (· * c)) s.temperature, cards'⟩ :: fs', ?_, List.Forall₂.cons ?_ e2⟩
    · rw [List.map_cons, List.mapM_cons, e1]
      simp only [hc1, Bind.bind, Except.bind]
      rfl
    · refine ⟨rfl, rfl, meanIonTemp_scale c hc _ _, hc2, ?_⟩
      simp only [headerTotal, List.sum_map_mul_right, List.map_id']
      rw [mul_assoc, hcp]

end

/-- The source of `Verif.Spec.Source` satisfies the hypotheses of `C30_source` and `C30_normalise`: it is
physical, has positive power, writes its files, and its D-T channel reacts. -/
example : PhysReachable 3 Ex.Q Ex.svPos Ex.src ∧ 0 < Ex.src.totalPower Ex.Q ∧
    (∃ files, Ex.src.toSdef "out" = .ok files) ∧ (∃ s', Ex.src.normalise Ex.Q 7 = .ok s') ∧
    0 < Ex.src.numReactions.getD .DT 0 := by
  have hp : 0 < Ex.src.totalPower Ex.Q := by decide +kernel
  obtain ⟨files, hf, -⟩ := C28_files Ex.src_phys.reachable (by decide +kernel) "out"
  obtain ⟨s', hs', -⟩ := C03_normalise_reaches Ex.src_phys.reachable hp.ne' 7
  exact ⟨Ex.src_phys, hp, ⟨files, hf⟩, ⟨s', hs'⟩, by decide +kernel⟩

end TNS
