import Verif.Spec.Exports
import Verif.Props.SdefSource
import Verif.Props.OpenMC
/-
C84: the OpenMC and the MCNP export describe the same spatial distribution of neutrons.
-/

set_option autoImplicit false

namespace TNS
open Spec

section
variable {K : Type} [Field K] [LinearOrder K] [IsStrictOrderedRing K] [FloorRing K]
variable {pi : K} {Q : Reaction → K} {sv : Reaction → List K → Except Err (List K)} {s : Source K}

/-- The weight of a reaction in the mixture of an emitting cell. -/
theorem mixture_weight (hp : s.Phys) (hnd : s.sourceType.Nodup) (r : Reaction) (hr : r ∈ s.sourceType)
    (i : ℕ) (t : K) :
    (((mixtureAt s (fun r _ => r) i t).filter (fun p => decide (p.2 = r))).map Prod.fst).sum =
      (neutronYield r : K) * cellStrength s r i / emission s i := by
  unfold mixtureAt
  rw [List.filter_map, List.filter_filter, List.map_map]
  have : ∀ l : List Reaction, l.Nodup → l.filter (fun a =>
      ((fun p : K × Reaction => decide (p.2 = r)) ∘ fun r =>
        ((neutronYield r : K) * cellStrength s r i / emission s i, r)) a &&
      decide (0 < (neutronYield a : K) * cellStrength s a i)) =
      (if r ∈ l ∧ 0 < (neutronYield r : K) * cellStrength s r i then [r] else []) := by
    intro l
    induction l with
    | nil => intro _; simp
    | cons a l ih =>
      intro hl
      rw [List.nodup_cons] at hl
      rw [List.filter_cons, ih hl.2]
      simp only [Function.comp_apply]
      by_cases ha : a = r
      · subst ha
        simp [hl.1]
      · have : r ≠ a := fun e => ha e.symm
        simp [ha, this]
  rw [this _ hnd]
  simp only [hr, true_and]
  split
  · simp
  · rename_i hneg
    have h0 : 0 ≤ (neutronYield r : K) * cellStrength s r i :=
      mul_nonneg (Nat.cast_nonneg _) (hp.cellStrength_nonneg r i)
    rw [le_antisymm (not_lt.1 hneg) h0]
    simp

/-- A sum over the only index with a property. -/
theorem sum_filter_unique (l : List ℕ) (hl : l.Nodup) (p : ℕ → Bool) (g : ℕ → K) (i : ℕ) (hi : i ∈ l)
    (hp : ∀ j ∈ l, p j = true → j = i) :
    ((l.filter p).map g).sum = if p i = true then g i else 0 := by
  induction l with
  | nil => cases hi
  | cons a l ih =>
    rw [List.nodup_cons] at hl
    rcases List.mem_cons.1 hi with rfl | hi'
    · have : l.filter p = [] := by
        rw [List.filter_eq_nil_iff]
        intro j hj hpj
        exact hl.1 (hp j (List.mem_cons_of_mem _ hj) hpj ▸ hj)
      rw [List.filter_cons, this]
      split_ifs <;> simp
    · have hne : a ≠ i := fun e => hl.1 (e ▸ hi')
      have ha : ¬ p a = true := fun h => hne (hp a List.mem_cons_self h)
      rw [List.filter_cons_of_neg ha]
      exact ih hl.2 hi' (fun j hj => hp j (List.mem_cons_of_mem _ hj))

/-- The centres of two different cells differ. -/
theorem cells_distinct (h : Reachable pi Q sv s) (hL : 0 < s.cellSideLength) {i j : ℕ} {x z : K}
    (hxi : s.x[i]? = some x) (hzi : s.z[i]? = some z) (hxj : s.x[j]? = some x)
    (hzj : s.z[j]? = some z) : i = j := by
  obtain ⟨fm, hx, hz⟩ := reachable_sampled h
  set pts := samplePoints fm.lcfsX fm.lcfsZ fm.inside fm.oX fm.oZ s.cellSideLength with hpts
  have hord := C16_order fm.lcfsX fm.lcfsZ fm.inside fm.oX fm.oZ _ hL
  have hnd : pts.Nodup := by
    refine List.Pairwise.imp ?_ hord
    rintro p q (h | ⟨_, h⟩) rfl
    · exact lt_irrefl _ h
    · exact lt_irrefl _ h
  have hpt : ∀ k : ℕ, s.x[k]? = some x → s.z[k]? = some z → pts[k]? = some (x, z) := by
    intro k h1 h2
    rw [hx] at h1
    rw [hz] at h2
    simp only [sampleSpace2d, List.getElem?_map, Option.map_eq_some_iff] at h1 h2
    obtain ⟨p, e1, e2⟩ := h1
    obtain ⟨q, e3, e4⟩ := h2
    rw [e1] at e3
    cases e3
    rw [e1, ← e2, ← e4]
  have h1 := hpt i hxi hzi
  have h2 := hpt j hxj hzj
  obtain ⟨hi, -⟩ := List.getElem?_eq_some_iff.1 h1
  exact (List.getElem?_inj hi hnd).1 (h1.trans h2.symm)

/-- What OpenMC does with the neutrons of reaction `r` in cell `i`. -/
theorem openmc_cell (h : PhysReachable pi Q sv s) (hL : 0 < s.cellSideLength) (r : Reaction)
    (hr : r ∈ s.sourceType) {i : ℕ} {x z : K} (hx : s.x[i]? = some x) (hz : s.z[i]? = some z) :
    ∃ rings : List (Ring K Reaction), s.toOpenmc (fun r _ => .ok r) = .ok rings ∧
      openmcFraction rings r (100 * (x - s.cellSideLength / 2)) (100 * (z - s.cellSideLength / 2)) =
        (neutronYield r : K) * cellStrength s r i / s.sourceRate := by
  have hch : s.sourceType ≠ [] := List.ne_nil_of_mem hr
  have hnd := (C04_bookkeeping h.reachable).1
  have hp := h.phys.2
  refine ⟨_, C22_export h hch (fun r _ => .ok r) (fun r _ => r) (fun _ _ _ _ => rfl), ?_⟩
  obtain ⟨hi, -⟩ := List.getElem?_eq_some_iff.1 hx
  unfold openmcFraction
  rw [List.filter_map, List.filter_filter, List.map_map]
  rw [sum_filter_unique (List.range s.x.length) List.nodup_range _ _ i (List.mem_range.2 hi)]
  · have hcorner : (decide ((ringAt s (fun r _ => r) i ((s.x[i]?).getD 0) ((s.z[i]?).getD 0)
        ((s.temperature[i]?).getD 0)).rLo = 100 * (x - s.cellSideLength / 2) ∧
        (ringAt s (fun r (_ : K) => r) i ((s.x[i]?).getD 0) ((s.z[i]?).getD 0)
        ((s.temperature[i]?).getD 0)).zLo = 100 * (z - s.cellSideLength / 2))) = true := by
      rw [hx, hz]; simp [ringAt]
    simp only [Function.comp_apply, hcorner, Bool.true_and, decide_eq_true_eq]
    have hw := mixture_weight hp hnd r hr i ((s.temperature[i]?).getD 0)
    split_ifs with hpos
    · simp only [ringAt, finValue]
      rw [hw]
      field_simp
    · have he : emission s i = 0 := le_antisymm (not_lt.1 hpos) (emission_nonneg hp i)
      have hle : (neutronYield r : K) * cellStrength s r i ≤ emission s i := by
        refine List.single_le_sum ?_ _ (List.mem_map_of_mem hr)
        intro b hb
        obtain ⟨q, _, rfl⟩ := List.mem_map.1 hb
        exact mul_nonneg (Nat.cast_nonneg _) (hp.cellStrength_nonneg q i)
      have h0 : 0 ≤ (neutronYield r : K) * cellStrength s r i :=
        mul_nonneg (Nat.cast_nonneg _) (hp.cellStrength_nonneg r i)
      rw [le_antisymm (by rw [← he]; exact hle) h0, zero_div]
  · intro j hj hpj
    have hj' := List.mem_range.1 hj
    have hzl : j < s.z.length := by rw [hp.z_len]; exact hj'
    simp only [Function.comp_apply, Bool.and_eq_true, decide_eq_true_eq] at hpj
    obtain ⟨⟨h1, h2⟩, -⟩ := hpj
    simp only [ringAt, List.getElem?_eq_getElem hj', List.getElem?_eq_getElem hzl, Option.getD_some] at h1 h2
    have e1 : s.x[j] = x := by linarith
    have e2 : s.z[j] = z := by linarith
    exact (cells_distinct h.reachable hL hx hz (by rw [List.getElem?_eq_getElem hj', e1])
      (by rw [List.getElem?_eq_getElem hzl, e2])).symm

/-- The files account for all neutrons of the source. -/
theorem sdef_neutrons (h : Reachable pi Q sv s) (stub : String) (files : List (SdefFile K))
    (hf : s.toSdef stub = .ok files) : (files.map sdefNeutrons).sum = s.sourceRate := by
  obtain ⟨f, h0, h1, h2, h3⟩ := reachable_closed h
  have hF := toSdef_forall₂ hf
  have hmap : ∀ (l : List (Reaction × List K)) (fs : List (SdefFile K)),
      List.Forall₂ (fun (p : Reaction × List K) (f : SdefFile K) =>
      f.name = sdefFileName stub p.1 ∧ f.reaction = p.1 ∧ f.total = p.2.sum ∧
      f.ionTemp = meanIonTemp p.2 s.temperature ∧
      sdefCards s.x s.z s.cellSideLength p.2 = .ok f.cards) l fs →
      fs.map sdefNeutrons = l.map (fun p => (neutronYield p.1 : K) * p.2.sum) := by
    intro l fs h
    induction h with
    | nil => rfl
    | cons h _ ih =>
      rw [List.map_cons, List.map_cons, ih]
      unfold sdefNeutrons
      rw [h.2.1, h.2.2.1]
  rw [hmap _ _ hF, h1]
  unfold Source.sourceRate
  rw [h3]
  have : ∀ l : List Reaction,
      ((((l.map (fun r => (r, f r))).filter (fun p => p.1.isNeutronic)).map
        (fun p => (neutronYield p.1 : K) * p.2.sum))).sum =
      (Dict.values (l.map (fun r => (r, (f r).sum * (r.numNeutrons : K))))).sum := by
    intro l
    induction l with
    | nil => rfl
    | cons a l ih =>
      simp only [List.map_cons, Dict.values, List.sum_cons] at ih ⊢
      rw [← ih]
      rcases a with (_ | _ | _) | (_ | _) <;>
        simp [Reaction.isNeutronic, neutronYield, Reaction.numNeutrons]
      ring
  exact this _

/-- **C84.**  For physical inputs and any file written with neutrons in it: the bins read from the cards of the
file and the OpenMC sources agree on where the neutrons are born.  For the bin of each cell, its probability
times the weight of the file (its share of all neutrons in the files) is the fraction of the neutrons that
OpenMC starts in the ring with the same lower corner by the same reaction. -/
theorem C84_same_positions (h : PhysReachable pi Q sv s) (hL : 0 < s.cellSideLength) (hne : s.x ≠ [])
    (stub : String) (files : List (SdefFile K)) (hf : s.toSdef stub = .ok files)
    (f : SdefFile K) (hfm : f ∈ files) (hpos : 0 < f.total) :
    ∃ rings : List (Ring K Reaction), s.toOpenmc (fun r _ => .ok r) = .ok rings ∧
      (sdefBins f.cards).length = s.x.length ∧
      ∀ b ∈ sdefBins f.cards, b.prob * sdefWeight files f = openmcFraction rings f.reaction b.rLo b.zLo := by
  obtain ⟨cells, rate, hs, hr, hb⟩ := C24_source h hL hne stub files hf f hfm
  have hp := h.phys.2
  have hmem : f.reaction ∈ s.sourceType := by
    by_contra hn
    have := ((C04_bookkeeping h.reachable).2.2.2.2.2 _ hn).1
    rw [hs] at this; cases this
  obtain ⟨re, ne, hre, -, htot, -⟩ := C29_header h.reachable stub files hf f hfm
  rw [hr] at hre; cases hre
  obtain ⟨rings, hrings⟩ : ∃ rings : List (Ring K Reaction), s.toOpenmc (fun r _ => .ok r) = .ok rings :=
    ⟨_, C22_export h (List.ne_nil_of_mem hmem) (fun r _ => .ok r) (fun r _ => r) (fun _ _ _ _ => rfl)⟩
  have hcl := hp.len _ _ hs
  refine ⟨rings, hrings, ?_, ?_⟩
  · have := congrArg List.length hb
    simp only [List.length_map, List.length_zip, hcl, hp.z_len, min_self] at this
    exact this
  · intro b hbm
    have : (b.rLo, b.zLo, b.prob) ∈ (List.zip s.x (List.zip s.z cells)).map (fun q =>
          (100 * (q.1 - s.cellSideLength / 2), 100 * (q.2.1 - s.cellSideLength / 2), q.2.2 / rate)) := by
      rw [← hb]; exact List.mem_map_of_mem hbm
    obtain ⟨q, hq, e⟩ := List.mem_map.1 this
    obtain ⟨i, hi⟩ := List.mem_iff_getElem?.1 hq
    rw [List.getElem?_zip_eq_some, List.getElem?_zip_eq_some] at hi
    obtain ⟨hx, hz, hc⟩ := hi
    simp only [Prod.mk.injEq] at e
    obtain ⟨e1, e2, e3⟩ := e
    obtain ⟨rings', hr', hfrac⟩ := openmc_cell h hL f.reaction hmem hx hz
    rw [hrings] at hr'; cases hr'
    rw [← e1, ← e2, hfrac, ← e3]
    have hcs : cellStrength s f.reaction i = q.2.2 := by
      unfold cellStrength Dict.getD
      rw [hs]; simp [hc]
    unfold sdefWeight
    rw [sdef_neutrons h.reachable stub files hf, hcs]
    unfold sdefNeutrons
    rw [htot] at hpos ⊢
    field_simp

/-- The neutrons of a file are not negative. -/
theorem sdefNeutrons_nonneg (h : PhysReachable pi Q sv s) (stub : String) (files : List (SdefFile K))
    (hf : s.toSdef stub = .ok files) (f : SdefFile K) (hfm : f ∈ files) : 0 ≤ sdefNeutrons f := by
  unfold sdefNeutrons
  refine mul_nonneg (Nat.cast_nonneg _) ?_
  obtain ⟨p, hpm, he⟩ := mapM_mem hf f hfm
  simp only [bind, Except.bind] at he
  split at he
  · cases he
  cases he
  have hpm' := (List.mem_filter.1 hpm).1
  have hget : s.strength.get? p.1 = some p.2 := by
    obtain ⟨g, hcl⟩ := reachable_closed h.reachable
    rw [hcl.2.1] at hpm' ⊢
    obtain ⟨r, hrm, rfl⟩ := List.mem_map.1 hpm'
    rw [Dict.get?_map_pair, if_pos hrm]
  exact List.sum_nonneg (h.phys.2.nonneg _ _ hget)

/-- **C84**, weights: the weights of the files are not negative and add up to 1. -/
theorem C84_weights (h : PhysReachable pi Q sv s) (hrate : 0 < s.sourceRate) (stub : String)
    (files : List (SdefFile K)) (hf : s.toSdef stub = .ok files) :
    (∀ f ∈ files, 0 ≤ sdefWeight files f) ∧ (files.map (sdefWeight files)).sum = 1 := by
  have hs := sdef_neutrons h.reachable stub files hf
  constructor
  · intro f hfm
    unfold sdefWeight
    rw [hs]
    exact div_nonneg (sdefNeutrons_nonneg h stub files hf f hfm) hrate.le
  · have : files.map (sdefWeight files) =
        (files.map sdefNeutrons).map (· / (files.map sdefNeutrons).sum) := by
      rw [List.map_map]; rfl
    rw [this]
    have hdiv : ∀ (l : List K) (c : K), (l.map (· / c)).sum = l.sum / c := by
      intro l c
      induction l with
      | nil => simp
      | cons a l ih => simp [ih, add_div]
    rw [hdiv, hs, div_self hrate.ne']

end

/-- **C84**, text: the same for the file as MCNP reads it.  The bins read from the text belong to the cells of
the source, in order; the probability read for a cell, times the weight of the file, differs from the fraction
OpenMC starts in the same cell by the same reaction by at most 2.1e-5 of that fraction. -/
theorem C84_text {pi : ℝ} {Q : Reaction → ℝ} {sv : Reaction → List ℝ → Except Err (List ℝ)}
    {s : Source ℝ} (h : PhysReachable pi Q sv s) (hL : 0 < s.cellSideLength) (hne : s.x ≠ [])
    (stub : String) (files : List (SdefFile ℝ)) (hf : s.toSdef stub = .ok files)
    (f : SdefFile ℝ) (hfm : f ∈ files) (hpos : 0 < f.total) (r : Neutronic) (T : ℝ)
    (cit : Citation) (hc : CleanCitation cit) (hfT : f.ionTemp = .fin T) (hT : InRange (T / 1000))
    (hp : Printable f.cards) :
    ∃ text c, ∃ rings : List (Ring ℝ Reaction), sdefText cit r f = .ok text ∧
      readSdef (readCards 128 text) = some c ∧ s.toOpenmc (fun r _ => .ok r) = .ok rings ∧
      (sdefBins c).length = s.x.length ∧
      ∀ (i : ℕ) (x z : ℝ), s.x[i]? = some x → s.z[i]? = some z → ∃ b, (sdefBins c)[i]? = some b ∧
        |b.prob * sdefWeight files f -
          openmcFraction rings f.reaction (100 * (x - s.cellSideLength / 2)) (100 * (z - s.cellSideLength / 2))|
        ≤ 21 / 10 ^ 6 * openmcFraction rings f.reaction (100 * (x - s.cellSideLength / 2))
            (100 * (z - s.cellSideLength / 2)) := by
  obtain ⟨text, φ, c, cells, rate, h1, -, -, h2, hs, hr, h4⟩ :=
    C68_source h hL hne stub files hf f hfm r T cit hc hfT hT hp
  have hph := h.phys.2
  have hmem : f.reaction ∈ s.sourceType := by
    by_contra hn
    have := ((C04_bookkeeping h.reachable).2.2.2.2.2 _ hn).1
    rw [hs] at this; cases this
  obtain ⟨re, ne, hre, -, htot, -⟩ := C29_header h.reachable stub files hf f hfm
  rw [hr] at hre; cases hre
  obtain ⟨rings, hrings⟩ : ∃ rings : List (Ring ℝ Reaction), s.toOpenmc (fun r _ => .ok r) = .ok rings :=
    ⟨_, C22_export h (List.ne_nil_of_mem hmem) (fun r _ => .ok r) (fun r _ => r) (fun _ _ _ _ => rfl)⟩
  have hcl := hph.len _ _ hs
  have hlen := h4.length_eq
  simp only [List.length_zip, hcl, hph.z_len, min_self] at hlen
  refine ⟨text, c, rings, h1, h2, hrings, hlen.symm, ?_⟩
  intro i x z hx hz
  obtain ⟨hi, -⟩ := List.getElem?_eq_some_iff.1 hx
  have hic : i < cells.length := by rw [hcl]; exact hi
  have hib : i < (sdefBins c).length := by rw [← hlen]; exact hi
  have hizip : i < (List.zip s.x (List.zip s.z cells)).length := by
    rw [h4.length_eq]; exact hib
  have hq : (List.zip s.x (List.zip s.z cells))[i]? = some (x, z, cells[i]) := by
    rw [List.getElem?_zip_eq_some, List.getElem?_zip_eq_some]
    exact ⟨hx, hz, List.getElem?_eq_getElem hic⟩
  have hrel := (List.forall₂_iff_get.1 h4).2 i hizip hib
  have hq' : (List.zip s.x (List.zip s.z cells)).get ⟨i, hizip⟩ = (x, z, cells[i]) := by
    rw [List.getElem?_eq_getElem hizip] at hq
    exact Option.some.inj hq
  rw [hq'] at hrel
  refine ⟨_, List.getElem?_eq_getElem hib, ?_⟩
  obtain ⟨-, -, hprob⟩ := hrel
  obtain ⟨rings', hr', hfrac⟩ := openmc_cell h hL f.reaction hmem hx hz
  rw [hrings] at hr'; cases hr'
  have hcs : cellStrength s f.reaction i = cells[i] := by
    unfold cellStrength Dict.getD
    rw [hs]; simp [hic]
  have hw : sdefWeight files f = (neutronYield f.reaction : ℝ) * rate / s.sourceRate := by
    unfold sdefWeight
    rw [sdef_neutrons h.reachable stub files hf]
    unfold sdefNeutrons
    rw [htot]
  have hrate : 0 ≤ s.sourceRate := by
    rw [← sdef_neutrons h.reachable stub files hf]
    refine List.sum_nonneg ?_
    intro a ha
    obtain ⟨g, hg, rfl⟩ := List.mem_map.1 ha
    exact sdefNeutrons_nonneg h stub files hf g hg
  rw [htot] at hpos
  have hw0 : 0 ≤ sdefWeight files f := by
    rw [hw]; exact div_nonneg (mul_nonneg (Nat.cast_nonneg _) hpos.le) hrate
  have hfe : openmcFraction rings f.reaction (100 * (x - s.cellSideLength / 2))
      (100 * (z - s.cellSideLength / 2)) = cells[i] / rate * sdefWeight files f := by
    rw [hfrac, hw, hcs]; field_simp
  rw [hfe, ← sub_mul, abs_mul, abs_of_nonneg hw0, ← mul_assoc]
  exact mul_le_mul_of_nonneg_right hprob hw0

namespace Ex

/-- A physical source of 3 × 3 cells and three files meets the hypotheses of `C84_same_positions` and
`C84_weights`: the files carry 3474, 310.5 and 2 · 138 neutrons. -/
example : ∃ files : List (SdefFile ℚ), src.toSdef "out" = .ok files ∧
    files.map sdefNeutrons = [3474, 621/2, 276] ∧ (∀ f ∈ files, 0 < f.total) ∧
    (0 : ℚ) < src.cellSideLength ∧ src.x ≠ [] ∧ 0 < src.sourceRate ∧ PhysReachable 3 Q svPos src := by
  obtain ⟨files, hf, h1, h2, _⟩ := C28_files src_reachable (by decide +kernel) "out"
  have h3 := toSdef_forall₂ hf
  have e : src.strength.filter (fun p => p.1.isNeutronic) =
      [(.DT, str .DT), (.DDn, str .DDn), (.TT, str .TT)] := by decide +kernel
  have e1 : (str .DT).sum = 3474 := by decide +kernel
  have e2 : (str .DDn).sum = 621/2 := by decide +kernel
  have e3 : (str .TT).sum = 138 := by decide +kernel
  rw [e] at h3
  rcases h3 with _ | ⟨a, _ | ⟨b, _ | ⟨c, _ | _⟩⟩⟩
  have t1 := a.2.2.1
  have t2 := b.2.2.1
  have t3 := c.2.2.1
  rw [e1] at t1
  rw [e2] at t2
  rw [e3] at t3
  refine ⟨_, hf, ?_, ?_, by decide +kernel, by decide +kernel, by decide +kernel, src_phys⟩
  · simp [sdefNeutrons, t1, t2, t3, a.2.1, b.2.1, c.2.1, neutronYield]
    norm_num
  · intro f hfm
    simp only [List.mem_cons, List.not_mem_nil, or_false] at hfm
    rcases hfm with rfl | rfl | rfl
    · rw [t1]; norm_num
    · rw [t2]; norm_num
    · rw [t3]; norm_num

/-- The hypotheses of `C84_text` hold of a source with two cells. -/
example : ∃ text c, sdefText citation .D_T fileR = .ok text ∧ readSdef (readCards 128 text) = some c ∧
    (sdefBins c).length = 2 := by
  obtain ⟨text, c, rings, h1, h2, -, h3, -⟩ := C84_text physR (by norm_num [srcR])
    (by simp [srcR]) "out" _ sdefR fileR (by simp) (by norm_num [fileR]) .D_T (13 / 5) citation citation_clean rfl
    (rangeR _ (by norm_num) (by norm_num)) printableR
  exact ⟨text, c, h1, h2, by rw [h3]; simp [srcR]⟩

end Ex
end TNS
