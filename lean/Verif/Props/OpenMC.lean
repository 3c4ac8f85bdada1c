import Verif.Spec.OpenMC
import Verif.Props.Physical
/-
Properties C18-C22 of the OpenMC export.
-/

set_option autoImplicit false
set_option linter.unusedSectionVars false

namespace TNS
open Spec

section
variable {K E : Type} [Field K] [LinearOrder K] [IsStrictOrderedRing K] [FloorRing K]

theorem getD_closed {s : Source K} {f : Reaction → List K} (hf : s.strength = s.sourceType.map (fun r => (r, f r)))
    (r : Reaction) (hr : r ∈ s.sourceType) : s.strength.getD r [] = f r := by
  rw [hf, Dict.getD, Dict.get?_map_pair, if_pos hr]; rfl

theorem nStrength_closed {s : Source K} {f : Reaction → List K} (hf : s.strength = s.sourceType.map (fun r => (r, f r))) :
    nStrength s.strength = (s.sourceType.filter (fun r => r.isNeutronic)).map
      (fun r => (r, (f r).map (· * (r.numNeutrons : K)))) := by
  rw [hf, nStrength, List.filter_map, List.map_map]
  rfl

/-- The weights of cell `i`, in closed form. -/
theorem cellWeights_eq (spectrum : Reaction → K → Except Err E) (sp : Reaction → K → E) (t : K)
    (i : ℕ) (l : List Reaction) (g : Reaction → List K)
    (hlen : ∀ r ∈ l, i < (g r).length)
    (hsp : ∀ r ∈ l, 0 < ((g r)[i]?).getD 0 → spectrum r t = .ok (sp r t)) :
    cellWeights spectrum t i (l.map (fun r => (r, g r))) =
      .ok ((l.filter (fun r => decide (0 < ((g r)[i]?).getD 0))).map
        (fun r => (((g r)[i]?).getD 0, sp r t))) := by
  induction l with
  | nil => rfl
  | cons a l ih =>
    have ih := ih (fun r hr => hlen r (List.mem_cons_of_mem _ hr))
      (fun r hr => hsp r (List.mem_cons_of_mem _ hr))
    have ha := hlen a List.mem_cons_self
    have e : (g a)[i]? = some (g a)[i] := List.getElem?_eq_getElem ha
    rw [List.map_cons, cellWeights, e]
    simp only
    by_cases hp : 0 < (g a)[i]
    · simp [hp, hsp a List.mem_cons_self (by rw [e]; exact hp), ih, e, Bind.bind, Except.bind]
    · simp [hp, ih, e]

/-- Emission as the sum of the positive neutronic contributions. -/
theorem emission_eq_weights {s : Source K} (hnn : ∀ r i, 0 ≤ cellStrength s r i) (i : ℕ) :
    emission s i = (((s.sourceType.filter (fun r => r.isNeutronic)).filter
      (fun r => decide (0 < cellStrength s r i * (r.numNeutrons : K)))).map
        (fun r => cellStrength s r i * (r.numNeutrons : K))).sum := by
  unfold emission
  generalize s.sourceType = l
  induction l with
  | nil => rfl
  | cons a l ih =>
    rw [List.map_cons, List.sum_cons, ih]
    have h0 := hnn a i
    by_cases hn : a.isNeutronic
    · rw [List.filter_cons_of_pos (by simpa using hn)]
      have hy : neutronYield a = a.numNeutrons := (numNeutrons_eq_yield a).symm
      by_cases hp : 0 < cellStrength s a i * (a.numNeutrons : K)
      · rw [List.filter_cons_of_pos (by simpa using hp), List.map_cons, List.sum_cons, hy]
        ring
      · rw [List.filter_cons_of_neg (by simpa using hp)]
        have : 0 ≤ cellStrength s a i * (a.numNeutrons : K) := mul_nonneg h0 (Nat.cast_nonneg _)
        have : cellStrength s a i * (a.numNeutrons : K) = 0 := le_antisymm (not_lt.1 hp) this
        rw [hy, mul_comm, this, zero_add]
    · rw [List.filter_cons_of_neg (by simpa using hn)]
      have : neutronYield a = 0 := by
        rcases a with (_ | _ | _) | (_ | _) <;> simp_all [neutronYield, Reaction.isNeutronic]
      rw [this]; simp

theorem Source.Phys.cellStrength_nonneg {s : Source K} (h : s.Phys) (r : Reaction) (i : ℕ) :
    0 ≤ cellStrength s r i := by
  unfold cellStrength Dict.getD
  cases e : s.strength.get? r with
  | none => simp
  | some cells =>
    simp only [Option.getD_some]
    cases e2 : cells[i]? with
    | none => simp
    | some v => exact h.nonneg r cells e v (List.mem_of_getElem? e2)

/-- The energy mixture of cell `i` in the form the loop produces. -/
def mixtureOf (s : Source K) (sp : Reaction → K → E) (i : ℕ) (t : K) : List (K × E) :=
  ((s.sourceType.filter (fun r => r.isNeutronic)).filter
    (fun r => decide (0 < cellStrength s r i * (r.numNeutrons : K)))).map
      (fun r => (cellStrength s r i * (r.numNeutrons : K) / emission s i, sp r t))

theorem mixtureOf_eq (s : Source K) (sp : Reaction → K → E) (i : ℕ) (t : K) :
    mixtureOf s sp i t = mixtureAt s sp i t := by
  unfold mixtureOf mixtureAt
  rw [List.filter_filter]
  have : ∀ r : Reaction, (decide (0 < cellStrength s r i * (r.numNeutrons : K)) && r.isNeutronic) =
      decide (0 < (neutronYield r : K) * cellStrength s r i) := by
    intro r
    rw [numNeutrons_eq_yield, mul_comm]
    rcases r with (_ | _ | _) | (_ | _) <;> simp [neutronYield, Reaction.isNeutronic]
  simp only [this]
  apply List.map_congr_left
  intro r _
  rw [numNeutrons_eq_yield, mul_comm]

theorem zipIdx_cells (s : Source K) (h : s.Phys) :
    (List.zip s.x (List.zip s.z s.temperature)).zipIdx =
      (List.range s.x.length).map (fun i =>
        (((s.x[i]?).getD 0, (s.z[i]?).getD 0, (s.temperature[i]?).getD 0), i)) := by
  have h1 := h.z_len
  have h2 := h.temp_len
  apply List.ext_getElem
  · simp [h1, h2]
  · intro i hi hi'
    have hx : i < s.x.length := by simpa using hi'
    have hz : i < s.z.length := by omega
    have ht : i < s.temperature.length := by omega
    simp [hx, hz, ht]

/-- The local strength divided by the rate is positive exactly for emitting cells. -/
theorem gt_zero_iff {a b : K} (hab : 0 < a → 0 < b) (ha : 0 ≤ a) :
    (XF.fin a / XF.fin b : XF K).gt 0 = decide (0 < a) := by
  by_cases hb : b = 0
  · subst hb
    have : a = 0 := le_antisymm (not_lt.1 fun h => lt_irrefl _ (hab h)) ha
    subst this
    rw [XF.fin_div_zero]
    simp [XF.signedInf, XF.gt]
  · rw [XF.fin_div _ _ hb]
    simp only [XF.zero_eq, XF.gt, decide_eq_decide]
    constructor
    · intro h; by_contra hn
      have : a = 0 := le_antisymm (not_lt.1 hn) ha
      subst this; simp at h
    · intro h; exact div_pos h (hab h)

theorem sum_cells {s : Source K} (hp : s.Phys) (r : Reaction) (cells : List K)
    (e : s.strength.get? r = some cells) :
    ((List.range s.x.length).map (fun i => cellStrength s r i)).sum = cells.sum := by
  congr 1
  apply List.ext_getElem
  · simp [hp.len r cells e]
  · intro i h1 h2
    simp [cellStrength, Dict.getD, e, List.getElem?_eq_getElem h2]

theorem sum_map_sum_comm {α β : Type} (l : List α) (m : List β) (g : α → β → K) :
    (l.map (fun a => (m.map (fun b => g a b)).sum)).sum =
      (m.map (fun b => (l.map (fun a => g a b)).sum)).sum := by
  induction l with
  | nil => simp
  | cons a l ih => simp only [List.map_cons, List.sum_cons, ih, List.sum_map_add]

/-- The total source rate is the sum of the cell emissions and of the channel emissions. -/
theorem rate_eq_sum_emission {pi : K} {Q : Reaction → K}
    {sv : Reaction → List K → Except Err (List K)} {s : Source K} (h : PhysReachable pi Q sv s) :
    s.sourceRate = ((List.range s.x.length).map (fun i => emission s i)).sum ∧
      s.sourceRate = (s.sourceType.map (fun r => channelEmission s r)).sum := by
  have hp := h.phys.2
  have e1 : s.sourceRate = (s.sourceType.map (fun r => channelEmission s r)).sum := by
    rw [(C08_source_rates h.reachable).1]
    congr 1
    apply List.map_congr_left
    intro r hr
    obtain ⟨cells, c1, c2, _⟩ := (C04_bookkeeping h.reachable).2.2.2.2.1 r hr
    rw [channelEmission, sum_cells hp r cells c1, Dict.getD, c2]
    rfl
  refine ⟨?_, e1⟩
  rw [e1]
  unfold emission
  rw [sum_map_sum_comm]
  congr 1
  apply List.map_congr_left
  intro r _
  rw [channelEmission, List.sum_map_mul_left]

theorem emission_nonneg {s : Source K} (hp : s.Phys) (i : ℕ) : 0 ≤ emission s i := by
  apply List.sum_nonneg
  intro a ha
  obtain ⟨r, _, rfl⟩ := List.mem_map.1 ha
  exact mul_nonneg (Nat.cast_nonneg _) (hp.cellStrength_nonneg r i)

/-- The export of an object whose arrays fit together, in closed form; `strength` and the rates need not belong together. -/
theorem export_emitting_of {s : Source K} (hp : s.Phys) (f : Reaction → List K)
    (hstr : s.strength = s.sourceType.map (fun r => (r, f r))) (hnum : s.numNeutrons ≠ [])
    (hrpos : ∀ i < s.x.length, 0 < emission s i → 0 < s.sourceRate)
    (spectrum : Reaction → K → Except Err E) (sp : Reaction → K → E)
    (hsp : ∀ i < s.x.length, ∀ r ∈ s.sourceType, 0 < (neutronYield r : K) * cellStrength s r i →
      spectrum r ((s.temperature[i]?).getD 0) = .ok (sp r ((s.temperature[i]?).getD 0))) :
    s.toOpenmc spectrum = .ok
      (((List.range s.x.length).filter (fun i => decide (0 < emission s i))).map (fun i =>
        ringAt s sp i ((s.x[i]?).getD 0) ((s.z[i]?).getD 0) ((s.temperature[i]?).getD 0))) := by
  have hrate : s.pyRate = .float (.fin s.sourceRate) := by
    unfold Source.pyRate
    rw [if_neg hnum]
  unfold Source.toOpenmc combinedSource
  rw [zipIdx_cells s hp, hrate, nStrength_closed hstr]
  dsimp only
  have hcell : ∀ i ∈ List.range s.x.length,
      cellSource spectrum (s.cellSideLength / 2) (.float (.fin s.sourceRate))
        ((s.sourceType.filter (fun r => r.isNeutronic)).map
          (fun r => (r, (f r).map (· * (r.numNeutrons : K)))))
        (((s.x[i]?).getD 0, (s.z[i]?).getD 0, (s.temperature[i]?).getD 0), i) =
      .ok (ringSource ((s.x[i]?).getD 0) ((s.z[i]?).getD 0) (s.cellSideLength / 2)
        (mixtureOf s sp i ((s.temperature[i]?).getD 0))
        (XF.fin (emission s i) / XF.fin s.sourceRate)) := by
    intro i hi
    have hi : i < s.x.length := List.mem_range.1 hi
    have hst : ∀ r ∈ s.sourceType, i < (f r).length ∧ (f r)[i]? = some (cellStrength s r i) := by
      intro r hr
      have e : s.strength.get? r = some (f r) := by rw [hstr, Dict.get?_map_pair, if_pos hr]
      have hl := hp.len r (f r) e
      refine ⟨by omega, ?_⟩
      rw [cellStrength, getD_closed hstr r hr, List.getElem?_eq_getElem (by omega)]
      rfl
    unfold cellSource
    rw [cellWeights_eq spectrum sp _ i _ (fun r => (f r).map (· * (r.numNeutrons : K)))]
    rotate_left
    · intro r hr
      rw [List.length_map]
      exact (hst r (List.mem_filter.1 hr).1).1
    · intro r hr hpos
      have hr' := (List.mem_filter.1 hr).1
      apply hsp i hi r hr'
      rw [List.getElem?_map, (hst r hr').2] at hpos
      rw [← numNeutrons_eq_yield, mul_comm]
      exact hpos
    have hval : ∀ r ∈ s.sourceType.filter (fun r => r.isNeutronic),
        (((f r).map (· * (r.numNeutrons : K)))[i]?).getD 0 =
          cellStrength s r i * (r.numNeutrons : K) := by
      intro r hr
      rw [List.getElem?_map, (hst r (List.mem_filter.1 hr).1).2]
      rfl
    have hfil : (s.sourceType.filter (fun r => r.isNeutronic)).filter
        (fun r => decide (0 < (((f r).map (· * (r.numNeutrons : K)))[i]?).getD 0)) =
        (s.sourceType.filter (fun r => r.isNeutronic)).filter
        (fun r => decide (0 < cellStrength s r i * (r.numNeutrons : K))) := by
      apply List.filter_congr
      intro r hr
      rw [hval r hr]
    rw [hfil]
    have hmap : ∀ {γ : Type} (G : K → Reaction → γ),
        ((s.sourceType.filter (fun r => r.isNeutronic)).filter
        (fun r => decide (0 < cellStrength s r i * (r.numNeutrons : K)))).map
        (fun r => G ((((f r).map (· * (r.numNeutrons : K)))[i]?).getD 0) r) =
        ((s.sourceType.filter (fun r => r.isNeutronic)).filter
        (fun r => decide (0 < cellStrength s r i * (r.numNeutrons : K)))).map
        (fun r => G (cellStrength s r i * (r.numNeutrons : K)) r) := by
      intro γ G
      apply List.map_congr_left
      intro r hr
      rw [hval r (List.mem_filter.1 hr).1]
    simp only [Bind.bind, Except.bind, List.map_map, Function.comp_def, pyDiv]
    have m1 := hmap (fun v _ => v)
    rw [m1, ← emission_eq_weights (fun r i => hp.cellStrength_nonneg r i) i,
      hmap (fun v r => (v / emission s i, sp r ((s.temperature[i]?).getD 0)))]
    rfl
  have hmapM : ∀ (l : List ℕ), (∀ i ∈ l, i ∈ List.range s.x.length) →
      (l.map (fun i => (((s.x[i]?).getD 0, (s.z[i]?).getD 0, (s.temperature[i]?).getD 0), i))).mapM
        (cellSource spectrum (s.cellSideLength / 2) (.float (.fin s.sourceRate))
          ((s.sourceType.filter (fun r => r.isNeutronic)).map
          (fun r => (r, (f r).map (· * (r.numNeutrons : K)))))) =
      .ok (l.map (fun i => ringSource ((s.x[i]?).getD 0) ((s.z[i]?).getD 0)
        (s.cellSideLength / 2) (mixtureOf s sp i ((s.temperature[i]?).getD 0))
        (XF.fin (emission s i) / XF.fin s.sourceRate))) := by
    intro l
    induction l with
    | nil => intro _; rfl
    | cons a l ih =>
      intro hl
      rw [List.map_cons, List.mapM_cons, hcell a (hl a List.mem_cons_self),
        ih (fun i hi => hl i (List.mem_cons_of_mem _ hi))]
      rfl
  rw [hmapM _ (fun i hi => hi)]
  simp only [Bind.bind, Except.bind, Except.ok.injEq]
  rw [List.filterMap_map]
  have : ∀ l : List ℕ, (∀ i ∈ l, i ∈ List.range s.x.length) →
      l.filterMap (id ∘ fun i => ringSource ((s.x[i]?).getD 0) ((s.z[i]?).getD 0)
        (s.cellSideLength / 2) (mixtureOf s sp i ((s.temperature[i]?).getD 0))
        (XF.fin (emission s i) / XF.fin s.sourceRate)) =
      (l.filter (fun i => decide (0 < emission s i))).map (fun i =>
        ringAt s sp i ((s.x[i]?).getD 0) ((s.z[i]?).getD 0) ((s.temperature[i]?).getD 0)) := by
    intro l
    induction l with
    | nil => intro _; rfl
    | cons a l ih =>
      intro hl
      have ih := ih (fun i hi => hl i (List.mem_cons_of_mem _ hi))
      have ha := List.mem_range.1 (hl a List.mem_cons_self)
      have hgt := gt_zero_iff (hrpos a ha) (emission_nonneg hp a)
      rw [List.filterMap_cons, ih]
      by_cases hpos : 0 < emission s a
      · have hne : s.sourceRate ≠ 0 := (hrpos a ha hpos).ne'
        rw [List.filter_cons_of_pos (by simpa using hpos), List.map_cons]
        have e : (id ∘ fun i => ringSource ((s.x[i]?).getD 0) ((s.z[i]?).getD 0)
            (s.cellSideLength / 2) (mixtureOf s sp i ((s.temperature[i]?).getD 0))
            (XF.fin (emission s i) / XF.fin s.sourceRate)) a =
            some (ringAt s sp a ((s.x[a]?).getD 0) ((s.z[a]?).getD 0)
              ((s.temperature[a]?).getD 0)) := by
          simp only [Function.comp_apply, id_eq, ringSource, hgt, hpos, decide_true, if_true]
          simp only [mixtureOf_eq, XF.fin_div _ _ hne, ringAt, Option.some.injEq, Ring.mk.injEq,
            List.sum_cons, List.sum_nil, add_zero, and_true, true_and]
          refine ⟨by ring, by ring, ?_, ?_, by ring, by ring⟩
          · rw [← add_mul, mul_div_mul_right _ _ (by norm_num : (100 : K) ≠ 0)]
            ring_nf
          · rw [← add_mul, mul_div_mul_right _ _ (by norm_num : (100 : K) ≠ 0)]
            ring_nf
        rw [e]
      · rw [List.filter_cons_of_neg (by simpa using hpos)]
        have e : (id ∘ fun i => ringSource ((s.x[i]?).getD 0) ((s.z[i]?).getD 0)
            (s.cellSideLength / 2) (mixtureOf s sp i ((s.temperature[i]?).getD 0))
            (XF.fin (emission s i) / XF.fin s.sourceRate)) a = none := by
          simp only [Function.comp_apply, id_eq, ringSource, hgt, hpos, decide_false,
            Bool.false_eq_true, if_false]
        rw [e]
  exact this _ (fun i hi => hi)

/-- **C22** (and the full description of the export): for a physical source with at least one
reaction channel, if the spectrum can be computed for every reaction that emits neutrons in a cell, at the
temperature of that cell, the export is the list, in sampling order, with exactly one entry for each cell
that emits neutrons, namely `Spec.ringAt`. -/
theorem C22_export_emitting {pi : K} {Q : Reaction → K} {sv : Reaction → List K → Except Err (List K)}
    {s : Source K} (h : PhysReachable pi Q sv s) (hch : s.sourceType ≠ [])
    (spectrum : Reaction → K → Except Err E) (sp : Reaction → K → E)
    (hsp : ∀ i < s.x.length, ∀ r ∈ s.sourceType, 0 < (neutronYield r : K) * cellStrength s r i →
      spectrum r ((s.temperature[i]?).getD 0) = .ok (sp r ((s.temperature[i]?).getD 0))) :
    s.toOpenmc spectrum = .ok
      (((List.range s.x.length).filter (fun i => decide (0 < emission s i))).map (fun i =>
        ringAt s sp i ((s.x[i]?).getD 0) ((s.z[i]?).getD 0) ((s.temperature[i]?).getD 0))) := by
  have hp := h.phys.2
  obtain ⟨f, hf⟩ := reachable_closed h.reachable
  refine export_emitting_of hp f hf.2.1 ?_ ?_ spectrum sp hsp
  · rw [hf.2.2.2]
    simpa using hch
  · intro i hi hpos
    refine lt_of_lt_of_le hpos ?_
    rw [(rate_eq_sum_emission h).1]
    refine List.single_le_sum ?_ _ (List.mem_map_of_mem (List.mem_range.2 hi))
    intro a ha
    obtain ⟨j, _, rfl⟩ := List.mem_map.1 ha
    exact emission_nonneg hp j

/-- **C22**, corollary: the same when all spectra can be computed at all temperatures of the source. -/
theorem C22_export {pi : K} {Q : Reaction → K} {sv : Reaction → List K → Except Err (List K)}
    {s : Source K} (h : PhysReachable pi Q sv s) (hch : s.sourceType ≠ [])
    (spectrum : Reaction → K → Except Err E) (sp : Reaction → K → E)
    (hsp : ∀ r, r.isNeutronic = true → ∀ t ∈ s.temperature, spectrum r t = .ok (sp r t)) :
    s.toOpenmc spectrum = .ok
      (((List.range s.x.length).filter (fun i => decide (0 < emission s i))).map (fun i =>
        ringAt s sp i ((s.x[i]?).getD 0) ((s.z[i]?).getD 0) ((s.temperature[i]?).getD 0))) := by
  refine C22_export_emitting h hch spectrum sp (fun i hi r _ hpos => hsp r ?_ _ ?_)
  · rcases r with (_ | _ | _) | (_ | _) <;> simp_all [neutronYield, Reaction.isNeutronic]
  · have ht : i < s.temperature.length := by have := h.phys.2.temp_len; omega
    rw [List.getElem?_eq_getElem ht]
    exact List.getElem_mem _

/-- A loop that raises for some element raises, with the exception of one of its elements. -/
theorem mapM_raises {α β : Type} (f : α → Except Err β) (P : Err → Prop) (l : List α)
    (hall : ∀ a ∈ l, ∀ e, f a = .error e → P e) (hex : ∃ a ∈ l, ∃ e, f a = .error e) :
    ∃ e, l.mapM f = .error e ∧ P e := by
  induction l with
  | nil => obtain ⟨a, ha, _⟩ := hex; cases ha
  | cons a l ih =>
    rw [List.mapM_cons]
    cases hfa : f a with
    | error e => exact ⟨e, rfl, hall a List.mem_cons_self e hfa⟩
    | ok b =>
      obtain ⟨c, hc, e, he⟩ := hex
      have hc' : c ∈ l := by
        rcases List.mem_cons.1 hc with rfl | hc
        · rw [hfa] at he; cases he
        · exact hc
      obtain ⟨e', h1, h2⟩ := ih (fun a ha => hall a (List.mem_cons_of_mem _ ha)) ⟨c, hc', e, he⟩
      exact ⟨e', by simp [h1, Bind.bind, Except.bind], h2⟩

/-- The weights of a cell raise only what a spectrum of an emitting reaction raises. -/
theorem cellWeights_error (spectrum : Reaction → K → Except Err E) (t : K)
    (i : ℕ) (l : List Reaction) (g : Reaction → List K) (hlen : ∀ r ∈ l, i < (g r).length) :
    (∀ e, cellWeights spectrum t i (l.map (fun r => (r, g r))) = .error e →
      ∃ r ∈ l, 0 < ((g r)[i]?).getD 0 ∧ spectrum r t = .error e) ∧
    ((∃ r ∈ l, 0 < ((g r)[i]?).getD 0 ∧ ∃ e, spectrum r t = .error e) →
      ∃ e, cellWeights spectrum t i (l.map (fun r => (r, g r))) = .error e) := by
  induction l with
  | nil =>
    refine ⟨fun e he => ?_, ?_⟩
    · simp [cellWeights] at he
    · rintro ⟨r, hr, _⟩
      simp at hr
  | cons a l ih =>
    obtain ⟨ih1, ih2⟩ := ih (fun r hr => hlen r (List.mem_cons_of_mem _ hr))
    have ha := hlen a List.mem_cons_self
    have e : (g a)[i]? = some (g a)[i] := List.getElem?_eq_getElem ha
    rw [List.map_cons, cellWeights, e]
    dsimp only
    split_ifs with hp
    · cases hs : spectrum a t with
      | error x =>
        refine ⟨fun e' he => ?_, fun _ => ⟨x, rfl⟩⟩
        obtain rfl : x = e' := by simpa [Bind.bind, Except.bind] using he
        exact ⟨a, List.mem_cons_self, by rw [e]; exact hp, hs⟩
      | ok d =>
        cases hw : cellWeights spectrum t i (l.map (fun r => (r, g r))) with
        | error x =>
          refine ⟨fun e' he => ?_, fun _ => ⟨x, by simp [Bind.bind, Except.bind]⟩⟩
          obtain rfl : x = e' := by simpa [Bind.bind, Except.bind] using he
          obtain ⟨r, hr, h1, h2⟩ := ih1 x hw
          exact ⟨r, List.mem_cons_of_mem _ hr, h1, h2⟩
        | ok w =>
          refine ⟨fun e' he => by simp [Bind.bind, Except.bind] at he, fun ⟨r, hr, h1, x, h2⟩ => ?_⟩
          rcases List.mem_cons.1 hr with rfl | hr
          · rw [hs] at h2; cases h2
          · obtain ⟨x', hx'⟩ := ih2 ⟨r, hr, h1, x, h2⟩
            rw [hw] at hx'; cases hx'
    · refine ⟨fun e' he => ?_, fun ⟨r, hr, h1, x, h2⟩ => ?_⟩
      · obtain ⟨r, hr, h1, h2⟩ := ih1 e' he
        exact ⟨r, List.mem_cons_of_mem _ hr, h1, h2⟩
      · rcases List.mem_cons.1 hr with rfl | hr
        · rw [e] at h1; exact absurd h1 hp
        · exact ih2 ⟨r, hr, h1, x, h2⟩

/-- **C22**, failures: if the spectrum of a reaction that emits neutrons in a cell cannot be computed at
the temperature of that cell, the export raises, namely the exception of one such spectrum; nothing is
exported. -/
theorem C22_failure {pi : K} {Q : Reaction → K} {sv : Reaction → List K → Except Err (List K)}
    {s : Source K} (h : PhysReachable pi Q sv s) (spectrum : Reaction → K → Except Err E)
    (hex : ∃ i < s.x.length, ∃ r ∈ s.sourceType, 0 < (neutronYield r : K) * cellStrength s r i ∧
      ∃ e, spectrum r ((s.temperature[i]?).getD 0) = .error e) :
    ∃ e, s.toOpenmc spectrum = .error e ∧ ∃ i < s.x.length, ∃ r ∈ s.sourceType,
      0 < (neutronYield r : K) * cellStrength s r i ∧
      spectrum r ((s.temperature[i]?).getD 0) = .error e := by
  have hp := h.phys.2
  obtain ⟨f, hf⟩ := reachable_closed h.reachable
  have hch : s.sourceType ≠ [] := by
    obtain ⟨_, _, r, hr, _⟩ := hex
    exact List.ne_nil_of_mem hr
  have hrate : s.pyRate = .float (.fin s.sourceRate) := by
    unfold Source.pyRate
    rw [if_neg]
    rw [hf.2.2.2]
    simpa using hch
  unfold Source.toOpenmc combinedSource
  rw [zipIdx_cells s hp, hrate, nStrength_closed hf.2.1]
  dsimp only
  have hval : ∀ i < s.x.length, ∀ r ∈ s.sourceType,
      i < ((f r).map (· * (r.numNeutrons : K))).length ∧
      (((f r).map (· * (r.numNeutrons : K)))[i]?).getD 0 =
        (neutronYield r : K) * cellStrength s r i := by
    intro i hi r hr
    have e : s.strength.get? r = some (f r) := by rw [hf.2.1, Dict.get?_map_pair, if_pos hr]
    have hl := hp.len r (f r) e
    refine ⟨by rw [List.length_map]; omega, ?_⟩
    rw [cellStrength, getD_closed hf.2.1 r hr, List.getElem?_map, List.getElem?_eq_getElem (by omega),
      ← numNeutrons_eq_yield, mul_comm]
    rfl
  have hcell : ∀ i < s.x.length, ∀ e,
      (cellSource spectrum (s.cellSideLength / 2) (.float (.fin s.sourceRate))
        ((s.sourceType.filter (fun r => r.isNeutronic)).map
          (fun r => (r, (f r).map (· * (r.numNeutrons : K)))))
        (((s.x[i]?).getD 0, (s.z[i]?).getD 0, (s.temperature[i]?).getD 0), i) = .error e ↔
      cellWeights spectrum ((s.temperature[i]?).getD 0) i
        ((s.sourceType.filter (fun r => r.isNeutronic)).map
          (fun r => (r, (f r).map (· * (r.numNeutrons : K))))) = .error e) := by
    intro i _ e
    unfold cellSource
    cases cellWeights spectrum ((s.temperature[i]?).getD 0) i
        ((s.sourceType.filter (fun r => r.isNeutronic)).map
          (fun r => (r, (f r).map (· * (r.numNeutrons : K))))) <;>
      simp [Bind.bind, Except.bind, pyDiv]
  have hneu : ∀ r : Reaction, ∀ a : K, 0 < (neutronYield r : K) * a → r.isNeutronic = true := by
    intro r a ha
    rcases r with (_ | _ | _) | (_ | _) <;> simp_all [neutronYield, Reaction.isNeutronic]
  have key := mapM_raises
    (cellSource spectrum (s.cellSideLength / 2) (.float (.fin s.sourceRate))
        ((s.sourceType.filter (fun r => r.isNeutronic)).map
          (fun r => (r, (f r).map (· * (r.numNeutrons : K))))))
    (fun e => ∃ i < s.x.length, ∃ r ∈ s.sourceType,
      0 < (neutronYield r : K) * cellStrength s r i ∧
      spectrum r ((s.temperature[i]?).getD 0) = .error e)
    ((List.range s.x.length).map (fun i =>
        (((s.x[i]?).getD 0, (s.z[i]?).getD 0, (s.temperature[i]?).getD 0), i)))
    (by
      intro a ha e he
      obtain ⟨i, hi, rfl⟩ := List.mem_map.1 ha
      have hi := List.mem_range.1 hi
      rw [hcell i hi] at he
      obtain ⟨r, hr, h1, h2⟩ := (cellWeights_error spectrum _ i _ _ (fun r hr =>
        (hval i hi r (List.mem_filter.1 hr).1).1)).1 e he
      have hr := (List.mem_filter.1 hr).1
      rw [(hval i hi r hr).2] at h1
      exact ⟨i, hi, r, hr, h1, h2⟩)
    (by
      obtain ⟨i, hi, r, hr, h1, e, h2⟩ := hex
      obtain ⟨e', he'⟩ := (cellWeights_error spectrum ((s.temperature[i]?).getD 0) i _
        (fun r => (f r).map (· * (r.numNeutrons : K))) (fun r hr =>
        (hval i hi r (List.mem_filter.1 hr).1).1)).2 ⟨r, List.mem_filter.2 ⟨hr, hneu r _ h1⟩,
          by rw [(hval i hi r hr).2]; exact h1, e, h2⟩
      exact ⟨_, List.mem_map_of_mem (List.mem_range.2 hi), e', (hcell i hi e').2 he'⟩)
  obtain ⟨e, h1, h2⟩ := key
  exact ⟨e, by simp [h1, Bind.bind, Except.bind], h2⟩

/-- **C22**, corollary: the number of sources is the number of emitting cells. -/
theorem C22_count {pi : K} {Q : Reaction → K} {sv : Reaction → List K → Except Err (List K)}
    {s : Source K} (h : PhysReachable pi Q sv s) (hch : s.sourceType ≠ [])
    (spectrum : Reaction → K → Except Err E) (sp : Reaction → K → E)
    (hsp : ∀ r, r.isNeutronic = true → ∀ t ∈ s.temperature, spectrum r t = .ok (sp r t)) :
    ∃ rings, s.toOpenmc spectrum = .ok rings ∧
      rings.length = (List.range s.x.length).countP (fun i => decide (0 < emission s i)) := by
  refine ⟨_, C22_export h hch spectrum sp hsp, ?_⟩
  rw [List.length_map, List.countP_eq_length_filter]

/-- **C22**, aneutronic sources: the export of a source with only aneutronic channels succeeds and is
empty (no spectrum is even computed). -/
theorem C22_aneutronic {pi : K} {Q : Reaction → K} {sv : Reaction → List K → Except Err (List K)}
    {s : Source K} (h : Reachable pi Q sv s) (hch : s.sourceType ≠ [])
    (han : ∀ r ∈ s.sourceType, r.isNeutronic = false)
    (spectrum : Reaction → K → Except Err E) : s.toOpenmc spectrum = .ok [] := by
  obtain ⟨f, hf⟩ := reachable_closed h
  have hns : nStrength s.strength = [] := by
    rw [nStrength_closed hf.2.1, List.filter_eq_nil_iff.2 (fun r hr => by simp [han r hr])]
    rfl
  have hrate : s.sourceRate = 0 := by
    rw [(C08_source_rates h).1]
    apply List.sum_eq_zero
    intro a ha
    obtain ⟨r, hr, rfl⟩ := List.mem_map.1 ha
    have := han r hr
    rcases r with (_ | _ | _) | (_ | _) <;> simp_all [Reaction.isNeutronic, neutronYield]
  have hpy : s.pyRate = .float (.fin 0) := by
    unfold Source.pyRate
    rw [if_neg, hrate]
    rw [hf.2.2.2]; simpa using hch
  unfold Source.toOpenmc combinedSource
  rw [hns, hpy]
  have : ∀ l : List ((K × K × K) × ℕ), l.mapM (cellSource spectrum (s.cellSideLength / 2)
      (.float (.fin 0)) []) = .ok (l.map (fun _ => none)) := by
    intro l
    induction l with
    | nil => rfl
    | cons a l ih =>
      rw [List.mapM_cons, ih]
      have : cellSource spectrum (s.cellSideLength / 2) (.float (.fin 0)) [] a = .ok none := by
        simp only [cellSource, cellWeights, Bind.bind, Except.bind, List.map_nil, List.sum_nil,
          pyDiv, XF.fin_div_zero]
        simp [ringSource, XF.signedInf, XF.gt]
      rw [this]; rfl
  dsimp only
  rw [this]
  simp only [Bind.bind, Except.bind, Except.ok.injEq]
  rw [List.filterMap_eq_nil_iff]
  intro a ha
  obtain ⟨_, _, rfl⟩ := List.mem_map.1 ha
  rfl

/-- **C22**, no channel: with an empty channel list and at least one cell the export raises
`ZeroDivisionError`. -/
theorem C22_no_channel {pi : K} {Q : Reaction → K} {sv : Reaction → List K → Except Err (List K)}
    {s : Source K} (h : Reachable pi Q sv s) (hch : s.sourceType = [])
    (hx : s.x ≠ []) (hz : s.z ≠ []) (ht : s.temperature ≠ [])
    (spectrum : Reaction → K → Except Err E) :
    s.toOpenmc spectrum = .error .zeroDivisionError := by
  obtain ⟨f, hf⟩ := reachable_closed h
  obtain ⟨x, xs, ex⟩ := List.exists_cons_of_ne_nil hx
  obtain ⟨z, zs, ez⟩ := List.exists_cons_of_ne_nil hz
  obtain ⟨t, ts, et⟩ := List.exists_cons_of_ne_nil ht
  unfold Source.toOpenmc combinedSource
  have h1 : s.pyRate = .intZero := by
    unfold Source.pyRate
    rw [if_pos]; rw [hf.2.2.2, hch]; rfl
  have h2 : nStrength s.strength = [] := by rw [hf.2.1, hch]; rfl
  rw [h1, h2, ex, ez, et]
  simp only [List.zip_cons_cons, List.zipIdx_cons, List.mapM_cons, cellSource, cellWeights,
    Bind.bind, Except.bind, pyDiv]

/-- **C18.**  The strengths of the exported sources are finite, positive, and sum to 1 (whenever the
source emits any neutrons): they are, in cell order, the neutron emissions of the emitting cells over
the source rate. -/
theorem C18_strengths {pi : K} {Q : Reaction → K} {sv : Reaction → List K → Except Err (List K)}
    {s : Source K} (h : PhysReachable pi Q sv s) (hrate : 0 < s.sourceRate)
    (spectrum : Reaction → K → Except Err E) (sp : Reaction → K → E)
    (hsp : ∀ r, r.isNeutronic = true → ∀ t ∈ s.temperature, spectrum r t = .ok (sp r t)) :
    ∃ rings, s.toOpenmc spectrum = .ok rings ∧
      ∃ vals : List K, rings.map (·.strength) = vals.map XF.fin ∧ (∀ v ∈ vals, 0 < v) ∧
        vals.sum = 1 ∧
        vals = ((List.range s.x.length).filter (fun i => decide (0 < emission s i))).map
          (fun i => emission s i / s.sourceRate) := by
  have hch : s.sourceType ≠ [] := by
    intro e
    rw [(C08_source_rates h.reachable).1, e] at hrate
    simp at hrate
  refine ⟨_, C22_export h hch spectrum sp hsp,
    ((List.range s.x.length).filter (fun i => decide (0 < emission s i))).map
      (fun i => emission s i / s.sourceRate), ?_, ?_, ?_, rfl⟩
  · rw [List.map_map, List.map_map]; rfl
  · intro v hv
    obtain ⟨i, hi, rfl⟩ := List.mem_map.1 hv
    have : 0 < emission s i := by simpa using (List.mem_filter.1 hi).2
    positivity
  · have key : ∀ l : List ℕ, ((l.filter (fun i => decide (0 < emission s i))).map
        (fun i => emission s i / s.sourceRate)).sum =
        (l.map (fun i => emission s i)).sum / s.sourceRate := by
      intro l
      induction l with
      | nil => simp
      | cons a l ih =>
        by_cases hpos : 0 < emission s a
        · rw [List.filter_cons_of_pos (by simpa using hpos)]
          simp only [List.map_cons, List.sum_cons, ih, add_div]
        · rw [List.filter_cons_of_neg (by simpa using hpos), ih, List.map_cons, List.sum_cons]
          have : emission s a = 0 := le_antisymm (not_lt.1 hpos) (emission_nonneg h.phys.2 a)
          rw [this, zero_add]
    rw [key, ← (rate_eq_sum_emission h).1, div_self hrate.ne']

/-- **C20**, mixtures: the weights of the energy mixture of each exported source are positive and
sum to 1, so in particular the mixture is not empty; the distributions are exactly the spectra, at the
cell's temperature, of the reactions emitting neutrons in the cell, one each. -/
theorem C20_mixture {pi : K} {Q : Reaction → K} {sv : Reaction → List K → Except Err (List K)}
    {s : Source K} (h : PhysReachable pi Q sv s) (hch : s.sourceType ≠ [])
    (spectrum : Reaction → K → Except Err E) (sp : Reaction → K → E)
    (hsp : ∀ r, r.isNeutronic = true → ∀ t ∈ s.temperature, spectrum r t = .ok (sp r t)) :
    ∃ rings, s.toOpenmc spectrum = .ok rings ∧ ∀ ring ∈ rings,
      (∀ p ∈ ring.energy, 0 < p.1) ∧ (ring.energy.map Prod.fst).sum = 1 ∧
      ∃ i t, i < s.x.length ∧ 0 < emission s i ∧ s.temperature[i]? = some t ∧
        ring.energy.map Prod.snd = (s.sourceType.filter (fun r =>
          decide (0 < (neutronYield r : K) * cellStrength s r i))).map (fun r => sp r t) := by
  refine ⟨_, C22_export h hch spectrum sp hsp, ?_⟩
  intro ring hring
  obtain ⟨i, hi, rfl⟩ := List.mem_map.1 hring
  have hpos : 0 < emission s i := by simpa using (List.mem_filter.1 hi).2
  have hix : i < s.x.length := by simpa using (List.mem_filter.1 hi).1
  have ht : i < s.temperature.length := by have := h.phys.2.temp_len; omega
  refine ⟨?_, ?_, i, s.temperature[i], hix, hpos, List.getElem?_eq_getElem ht, ?_⟩
  rotate_left 2
  · simp only [ringAt, mixtureAt, List.map_map, List.getElem?_eq_getElem ht, Option.getD_some]
    rfl
  · intro p hp
    simp only [ringAt, mixtureAt, List.mem_map, List.mem_filter, decide_eq_true_eq] at hp
    obtain ⟨r, ⟨_, hr⟩, rfl⟩ := hp
    exact div_pos hr hpos
  · simp only [ringAt]
    rw [← mixtureOf_eq]
    simp only [mixtureOf, List.map_map, Function.comp_def]
    have hdiv : ∀ (l : List Reaction) (g : Reaction → K) (c : K),
        (l.map (fun r => g r / c)).sum = (l.map g).sum / c := by
      intro l g c
      induction l with
      | nil => simp
      | cons a l ih => simp only [List.map_cons, List.sum_cons, ih, add_div]
    rw [hdiv, ← emission_eq_weights (fun r i => h.phys.2.cellStrength_nonneg r i),
      div_self hpos.ne']

/-- **C20**, channel shares: summed over the exported sources, strength times mixture weight of the
entries carrying reaction `r` is `r`'s share of the total neutron rate.  (Entries are recognised by
taking the spectrum of a reaction to be the reaction itself.) -/
theorem C20_channel_share {pi : K} {Q : Reaction → K}
    {sv : Reaction → List K → Except Err (List K)}
    {s : Source K} (h : PhysReachable pi Q sv s) (hrate : 0 < s.sourceRate) (r : Reaction)
    (hr : r ∈ s.sourceType) :
    ∃ rings : List (Ring K Reaction), s.toOpenmc (fun r _ => .ok r) = .ok rings ∧
      ∃ vals : List K, rings.map (·.strength) = vals.map XF.fin ∧
      (List.zipWith (fun v ring => v * (((ring.energy.filter (fun p => p.2 = r)).map
        Prod.fst).sum)) vals rings).sum =
        (neutronYield r : K) * s.numReactions.getD r 0 / s.sourceRate := by
  have hch : s.sourceType ≠ [] := List.ne_nil_of_mem hr
  have hnd := (C04_bookkeeping h.reachable).1
  have hp := h.phys.2
  refine ⟨_, C22_export h hch (fun r _ => .ok r) (fun r _ => r) (fun _ _ _ _ => rfl),
    ((List.range s.x.length).filter (fun i => decide (0 < emission s i))).map
      (fun i => emission s i / s.sourceRate), ?_, ?_⟩
  · rw [List.map_map, List.map_map]; rfl
  rw [List.zipWith_map, List.zipWith_self]
  obtain ⟨cells, c1, c2, _⟩ := (C04_bookkeeping h.reachable).2.2.2.2.1 r hr
  have hnum : s.numReactions.getD r 0 =
      ((List.range s.x.length).map (fun i => cellStrength s r i)).sum := by
    rw [sum_cells hp r cells c1, Dict.getD, c2]; rfl
  -- the weight of reaction `r` in the mixture of an emitting cell
  have hw : ∀ i, 0 < emission s i →
      (((mixtureAt s (fun r _ => r) i ((s.temperature[i]?).getD 0)).filter
        (fun p => decide (p.2 = r))).map Prod.fst).sum =
        (neutronYield r : K) * cellStrength s r i / emission s i := by
    intro i hi
    unfold mixtureAt
    rw [List.filter_map, List.filter_filter, List.map_map]
    have hfil : s.sourceType.filter (fun a =>
        ((fun p : K × Reaction => decide (p.2 = r)) ∘ fun r =>
          ((neutronYield r : K) * cellStrength s r i / emission s i, r)) a &&
        decide (0 < (neutronYield a : K) * cellStrength s a i)) =
        (if 0 < (neutronYield r : K) * cellStrength s r i then [r] else []) := by
      have : ∀ l : List Reaction, l.Nodup → l.filter (fun a =>
        ((fun p : K × Reaction => decide (p.2 = r)) ∘ fun r =>
          ((neutronYield r : K) * cellStrength s r i / emission s i, r)) a &&
        decide (0 < (neutronYield a : K) * cellStrength s a i)) =
        (if r ∈ l ∧ 0 < (neutronYield r : K) * cellStrength s r i then [r] else []) := by
        intro l
        induction l with
        | nil => intro _; simp
        | cons a l ih =>
          intro hl
          rw [List.nodup_cons] at hl
          rw [List.filter_cons, ih hl.2]
          simp only [Function.comp_apply]
          by_cases ha : a = r
          · subst ha
            simp [hl.1]
          · have : r ≠ a := fun e => ha e.symm
            simp [ha, this]
      rw [this _ hnd]
      simp [hr]
    rw [hfil]
    split
    · simp
    · rename_i hneg
      have h0 : 0 ≤ (neutronYield r : K) * cellStrength s r i :=
        mul_nonneg (Nat.cast_nonneg _) (hp.cellStrength_nonneg r i)
      rw [le_antisymm (not_lt.1 hneg) h0]
      simp
  have key : ∀ l : List ℕ, ((l.filter (fun i => decide (0 < emission s i))).map (fun i =>
      emission s i / s.sourceRate *
        (((ringAt s (fun r _ => r) i ((s.x[i]?).getD 0) ((s.z[i]?).getD 0)
          ((s.temperature[i]?).getD 0)).energy.filter (fun p => decide (p.2 = r))).map
            Prod.fst).sum)).sum =
      (neutronYield r : K) * (l.map (fun i => cellStrength s r i)).sum / s.sourceRate := by
    intro l
    induction l with
    | nil => simp
    | cons a l ih =>
      by_cases hpos : 0 < emission s a
      · rw [List.filter_cons_of_pos (by simpa using hpos)]
        simp only [List.map_cons, List.sum_cons, ih]
        have := hw a hpos
        simp only [ringAt] at this ⊢
        rw [this]
        field_simp
      · rw [List.filter_cons_of_neg (by simpa using hpos), ih, List.map_cons, List.sum_cons]
        have he : emission s a = 0 := le_antisymm (not_lt.1 hpos) (emission_nonneg hp a)
        have : (neutronYield r : K) * cellStrength s r a ≤ emission s a := by
          refine List.single_le_sum ?_ _ (List.mem_map_of_mem hr)
          intro b hb
          obtain ⟨q, _, rfl⟩ := List.mem_map.1 hb
          exact mul_nonneg (Nat.cast_nonneg _) (hp.cellStrength_nonneg q a)
        have h0 : 0 ≤ (neutronYield r : K) * cellStrength s r a :=
          mul_nonneg (Nat.cast_nonneg _) (hp.cellStrength_nonneg r a)
        have : (neutronYield r : K) * cellStrength s r a = 0 := le_antisymm (by rw [← he]; exact this) h0
        rw [mul_add, this, zero_add]
  rw [hnum]
  exact key _

theorem cellWeights_scale (spectrum : Reaction → K → Except Err E) (t : K) (i : ℕ) (c : K)
    (hc : 0 < c) (d : Dict Reaction (List K)) :
    cellWeights spectrum t i (d.map (fun p => (p.1, p.2.map (· * c)))) =
      (cellWeights spectrum t i d).map (fun l => l.map (fun p => (p.1 * c, p.2))) := by
  induction d with
  | nil => rfl
  | cons a d ih =>
    obtain ⟨r, l⟩ := a
    rw [List.map_cons, cellWeights, cellWeights]
    cases e : l[i]? with
    | none => simp [e, Except.map]
    | some v =>
      simp only [List.getElem?_map, e, Option.map_some]
      by_cases hv : 0 < v
      · rw [if_pos hv, if_pos (mul_pos hv hc), ih]
        cases spectrum r t with
        | error x => rfl
        | ok y =>
          cases cellWeights spectrum t i d with
          | error x => rfl
          | ok w => rfl
      · have : ¬ 0 < v * c := fun h => hv (pos_of_mul_pos_left h hc.le)
        rw [if_neg hv, if_neg this, ih]

theorem fin_div_scale (a b c : K) (hc : 0 < c) :
    (XF.fin (a * c) / XF.fin (b * c) : XF K) = XF.fin a / XF.fin b := by
  by_cases hb : b = 0
  · subst hb
    rw [zero_mul, XF.fin_div_zero, XF.fin_div_zero]
    unfold XF.signedInf
    have h1 : a * c = 0 ↔ a = 0 := by simp [hc.ne']
    have h2 : 0 < a * c ↔ 0 < a := by
      constructor
      · intro h; exact pos_of_mul_pos_left h hc.le
      · intro h; positivity
    simp only [h1, h2]
  · rw [XF.fin_div _ _ hb, XF.fin_div _ _ (mul_ne_zero hb hc.ne'),
      mul_div_mul_right _ _ hc.ne']

/-- **C19.**  `to_openmc_source` gives the same result (list or exception) before and after a
normalisation to a positive power, for every source of positive power and every spectrum function. -/
theorem C19_normalisation_invariant {pi : K} {Q : Reaction → K}
    {sv : Reaction → List K → Except Err (List K)} {s s' : Source K} {P : K}
    (h : Reachable pi Q sv s) (hP : 0 < P) (hpow : 0 < s.totalPower Q)
    (hn : s.normalise Q P = .ok s') (spectrum : Reaction → K → Except Err E) :
    s'.toOpenmc spectrum = s.toOpenmc spectrum := by
  obtain ⟨f, hf⟩ := reachable_closed h
  obtain ⟨_, _, rfl⟩ := (Source.normalise_ok_iff Q P s s').1 hn
  have hc : 0 < P / s.totalPower Q := div_pos hP hpow
  generalize P / s.totalPower Q = c at hc
  rw [(hf.scale c).1]
  unfold Source.toOpenmc combinedSource
  dsimp only
  have hns : nStrength (s.strength.map (fun p => (p.1, p.2.map (· * c)))) =
      (nStrength s.strength).map (fun p => (p.1, p.2.map (· * c))) := by
    unfold nStrength
    rw [List.filter_map, List.map_map, List.map_map]
    apply List.map_congr_left
    intro p _
    simp only [Function.comp_apply, List.map_map, Prod.mk.injEq, true_and]
    apply List.map_congr_left
    intro v _
    simp only [Function.comp_apply]; ring
  rw [hns]
  have hr : ∀ a : K, pyDiv (.fin (a * c)) (Source.pyRate
        { s with
          strength := s.strength.map (fun p => (p.1, p.2.map (· * c)))
          numReactions := s.numReactions.map (fun p => (p.1, p.2 * c))
          numNeutrons := s.numNeutrons.map (fun p => (p.1, p.2 * c)) }) =
      pyDiv (.fin a) s.pyRate := by
    intro a
    unfold Source.pyRate
    by_cases e : s.numNeutrons = []
    · simp [e, pyDiv]
    · have e' : ¬ (s.numNeutrons.map (fun p => (p.1, p.2 * c)) = []) := by simpa using e
      rw [if_neg e, if_neg e']
      have : Source.sourceRate
        { s with
          strength := s.strength.map (fun p => (p.1, p.2.map (· * c)))
          numReactions := s.numReactions.map (fun p => (p.1, p.2 * c))
          numNeutrons := s.numNeutrons.map (fun p => (p.1, p.2 * c)) } = s.sourceRate * c := by
        simp only [Source.sourceRate, Dict.values, List.map_map, Function.comp_def]
        rw [← List.sum_map_mul_right]
      rw [this]
      simp only [pyDiv, fin_div_scale _ _ _ hc]
  have hcell : ∀ cc, cellSource spectrum (s.cellSideLength / 2) (Source.pyRate
        { s with
          strength := s.strength.map (fun p => (p.1, p.2.map (· * c)))
          numReactions := s.numReactions.map (fun p => (p.1, p.2 * c))
          numNeutrons := s.numNeutrons.map (fun p => (p.1, p.2 * c)) })
        ((nStrength s.strength).map (fun p => (p.1, p.2.map (· * c)))) cc =
      cellSource spectrum (s.cellSideLength / 2) s.pyRate (nStrength s.strength) cc := by
    intro cc
    unfold cellSource
    rw [cellWeights_scale _ _ _ _ hc]
    cases cellWeights spectrum cc.1.2.2 cc.2 (nStrength s.strength) with
    | error x => rfl
    | ok w =>
      have hsum : ((w.map (fun p => (p.1 * c, p.2))).map Prod.fst).sum =
          (w.map Prod.fst).sum * c := by
        rw [List.map_map, ← List.sum_map_mul_right]
        rfl
      simp only [Except.map, Bind.bind, Except.bind]
      rw [hsum, hr]
      have hmix : (w.map (fun p => (p.1 * c, p.2))).map
          (fun p => (p.1 / ((w.map Prod.fst).sum * c), p.2)) =
          w.map (fun p => (p.1 / (w.map Prod.fst).sum, p.2)) := by
        rw [List.map_map]
        apply List.map_congr_left
        intro p _
        simp only [Function.comp_apply, mul_div_mul_right _ _ hc.ne']
      rw [hmix]
  have hfun := funext hcell
  rw [hfun]

end

/-! ### The example source emits neutrons from all its nine cells -/
namespace Ex

example : 0 < src.sourceRate ∧
    (List.range src.x.length).filter (fun i => decide (0 < emission src i)) =
      [0, 1, 2, 3, 4, 5, 6, 7, 8] := by decide +kernel

/-- A plasma whose edge cells do not emit: the export lists the one emitting cell. -/
example : (Source.toOpenmc (fun r (_ : ℚ) => Except.ok r)
    { src with strength := [(.TT, [0, 0, 0, 0, 3, 0, 0, 0, 0]), (.DDp, List.replicate 9 1)]
               numNeutrons := [(.TT, 6), (.DDp, 0)] }).toOption.map
      (fun l => l.map (fun (r : Ring ℚ Reaction) => (r.rLo, r.rHi, r.energy))) =
    some [(175, 225, [(1, .TT)])] := by decide +kernel

end Ex
end TNS
