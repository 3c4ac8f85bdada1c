import Verif.Spec.NormThreads
import Verif.Props.World
/-
C92: `normalise_fusion_power` in several threads.
-/

set_option autoImplicit false

namespace TNS
open Spec
noncomputable section

/-! ### One thread on a source regarded as a value -/

/-- `NormPc.step` on a value. -/
def vstep (Q : Reaction → XF ℝ) (P : XF ℝ) (c : Source (XF ℝ) × NormPc) : Source (XF ℝ) × NormPc :=
  match c.2 with
  | .power sums [] => (c.1, if c.1.sourceType = [] then .raised else .loop (P / sums.sum) c.1.sourceType)
  | .power sums (r :: todo) => (c.1, .read r [] sums todo)
  | .read r tmp sums todo =>
    (c.1, match (c.1.strength.getD r [])[tmp.length]? with
      | some x => .read r (tmp ++ [x * Q r]) sums todo
      | none => .power (sums ++ [tmp.sum]) todo)
  | .loop _ [] => (c.1, .done)
  | .loop f (r :: todo) => (c.1, .mulLoad f r 0 todo)
  | .mulLoad f r i todo =>
    (c.1, match (c.1.strength.getD r [])[i]? with
      | some x => .mulStore f r i (x * f) todo
      | none => .reacLoad f r todo)
  | .mulStore f r i v todo =>
    ({ c.1 with strength := c.1.strength.modify r (fun l => l.set i v) }, .mulLoad f r (i + 1) todo)
  | .reacLoad f r todo =>
    (c.1, match c.1.numReactions.get? r with
      | some x => .reacStore f r (x * f) todo
      | none => .neutLoad f r todo)
  | .reacStore f r v todo =>
    ({ c.1 with numReactions := c.1.numReactions.modify r (fun _ => v) }, .neutLoad f r todo)
  | .neutLoad f r todo =>
    (c.1, match c.1.numNeutrons.get? r with
      | some x => .neutStore f r (x * f) todo
      | none => .loop f todo)
  | .neutStore f r v todo =>
    ({ c.1 with numNeutrons := c.1.numNeutrons.modify r (fun _ => v) }, .loop f todo)
  | .done => (c.1, .done)
  | .raised => (c.1, .raised)

/-- Some number of steps leads from one configuration to the other. -/
def Leads (Q : Reaction → XF ℝ) (P : XF ℝ) (c c' : Source (XF ℝ) × NormPc) : Prop := ∃ n, (vstep Q P)^[n] c = c'

theorem Leads.refl {Q : Reaction → XF ℝ} {P : XF ℝ} (c : Source (XF ℝ) × NormPc) : Leads Q P c c := ⟨0, rfl⟩

theorem Leads.trans {Q : Reaction → XF ℝ} {P : XF ℝ} {a b c : Source (XF ℝ) × NormPc} (h : Leads Q P a b)
    (h' : Leads Q P b c) : Leads Q P a c := by
  obtain ⟨n, rfl⟩ := h
  obtain ⟨k, rfl⟩ := h'
  exact ⟨k + n, by rw [Function.iterate_add_apply]⟩

theorem Leads.head {Q : Reaction → XF ℝ} {P : XF ℝ} {a b c : Source (XF ℝ) × NormPc} (h : vstep Q P a = b)
    (h' : Leads Q P b c) : Leads Q P a c := Leads.trans ⟨1, h⟩ h'

section
variable {Q : Reaction → XF ℝ} {P : XF ℝ}

/-- Reading one channel. -/
theorem leads_read (S : Source (XF ℝ)) (r : Reaction) (sums : List (XF ℝ)) (todo : List Reaction) :
    Leads Q P (S, .read r [] sums todo)
      (S, .power (sums ++ [((S.strength.getD r []).map (· * Q r)).sum]) todo) := by
  set l := S.strength.getD r [] with hl
  have gen : ∀ k i, i + k = l.length → Leads Q P (S, .read r ((l.take i).map (· * Q r)) sums todo)
      (S, .power (sums ++ [(l.map (· * Q r)).sum]) todo) := by
    intro k
    induction k with
    | zero =>
      intro i hi
      refine Leads.head (b := _) ?_ (Leads.refl _)
      have h1 : i = l.length := by omega
      subst h1
      simp [vstep, ← hl]
    | succ k ih =>
      intro i hi
      refine Leads.head ?_ (ih (i + 1) (by omega))
      have hlt : i < l.length := by omega
      have e : (List.map (fun x => x * Q r) (List.take i l)).length = i := by simp; omega
      simp only [vstep, ← hl, e, List.getElem?_eq_getElem hlt]
      rw [List.take_succ_eq_append_getElem hlt, List.map_append]
      rfl
  simpa using gen l.length 0 (by omega)

/-- The total power. -/
theorem leads_power (S : Source (XF ℝ)) (sums : List (XF ℝ)) (todo : List Reaction) :
    Leads Q P (S, .power sums todo)
      (S, .power (sums ++ todo.map (fun r => ((S.strength.getD r []).map (· * Q r)).sum)) []) := by
  induction todo generalizing sums with
  | nil => simpa using Leads.refl _
  | cons r todo ih =>
    refine Leads.head (b := (S, .read r [] sums todo)) rfl ((leads_read S r sums todo).trans ?_)
    simpa using ih (sums ++ [((S.strength.getD r []).map (· * Q r)).sum])

theorem Dict.modify_modify {α β : Type} [DecidableEq α] (d : Dict α β) (k : α) (f g : β → β) :
    (d.modify k f).modify k g = d.modify k (fun x => g (f x)) := by
  unfold Dict.modify
  rw [List.map_map]
  apply List.map_congr_left
  intro p _
  by_cases h : p.1 = k <;> simp [h]

theorem Dict.modify_id {α β : Type} [DecidableEq α] (d : Dict α β) (k : α) : d.modify k (fun x => x) = d := by
  unfold Dict.modify
  conv_rhs => rw [← List.map_id d]
  apply List.map_congr_left
  intro p _
  split <;> rfl

theorem Dict.get?_modify {α β : Type} [DecidableEq α] (d : Dict α β) (k : α) (f : β → β) :
    (d.modify k f).get? k = (d.get? k).map f := by
  unfold Dict.modify Dict.get?
  induction d with
  | nil => simp
  | cons p d ih =>
    by_cases h : p.1 = k
    · simp [h]
    · simp only [List.map_cons, h, if_false, List.find?_cons, decide_false]
      exact ih

theorem Dict.modify_congr {α β : Type} [DecidableEq α] (d : Dict α β) (hn : d.keys.Nodup) (k : α) (f g : β → β)
    (h : ∀ v, d.get? k = some v → f v = g v) : d.modify k f = d.modify k g := by
  unfold Dict.modify
  apply List.map_congr_left
  intro p hp
  split
  · rename_i e
    rw [h p.2]
    have := Dict.eq_map_of_keys d d.keys hn rfl p.2
    subst e
    unfold Dict.get?
    have hk : ∀ q ∈ d, q.1 = p.1 → q = p := by
      intro q hq e
      exact List.inj_on_of_nodup_map hn hq hp e
    cases e2 : d.find? (fun q => decide (q.1 = p.1)) with
    | none => have := List.find?_eq_none.1 e2 p hp; simp at this
    | some q =>
      have := hk q (List.mem_of_find?_eq_some e2) (by simpa using List.find?_some e2)
      simp [this]
  · rfl

theorem Dict.keys_modify {α β : Type} [DecidableEq α] (d : Dict α β) (k : α) (f : β → β) :
    (d.modify k f).keys = d.keys := by
  unfold Dict.modify Dict.keys
  rw [List.map_map]
  apply List.map_congr_left
  intro p _
  simp only [Function.comp_apply]
  split <;> simp_all

/-- Multiplying one channel. -/
theorem leads_mul (S : Source (XF ℝ)) (hn : S.strength.keys.Nodup) (f : XF ℝ) (r : Reaction) (todo : List Reaction) :
    Leads Q P (S, .mulLoad f r 0 todo)
      ({ S with strength := S.strength.modify r (fun l => l.map (· * f)) }, .reacLoad f r todo) := by
  set l := S.strength.getD r [] with hl
  let g : ℕ → List (XF ℝ) → List (XF ℝ) := fun i l => (l.take i).map (· * f) ++ l.drop i
  have hget : ∀ v, S.strength.get? r = some v → v = l := by
    intro v hv
    rw [hl]; unfold Dict.getD; rw [hv]; rfl
  have hch : ∀ i, (S.strength.modify r (g i)).getD r [] = g i l := by
    intro i
    rw [hl]; unfold Dict.getD
    rw [Dict.get?_modify]
    cases S.strength.get? r <;> simp [g]
  have gen : ∀ k i, i + k = l.length →
      Leads Q P ({ S with strength := S.strength.modify r (g i) }, .mulLoad f r i todo)
        ({ S with strength := S.strength.modify r (fun l => l.map (· * f)) }, .reacLoad f r todo) := by
    intro k
    induction k with
    | zero =>
      intro i hi
      refine Leads.head (b := _) ?_ (Leads.refl _)
      have h1 : i = l.length := by omega
      have e1 : S.strength.modify r (g i) = S.strength.modify r (fun l => l.map (· * f)) := by
        apply Dict.modify_congr _ hn
        intro v hv
        rw [hget v hv, h1]
        simp [g]
      have e2 : ((S.strength.modify r (g i)).getD r [])[i]? = none := by
        rw [hch, h1]; simp [g]
      simp only [vstep, e2]
      rw [e1]
    | succ k ih =>
      intro i hi
      have hlt : i < l.length := by omega
      have e2 : ((S.strength.modify r (g i)).getD r [])[i]? = some l[i] := by
        rw [hch]
        have : ((l.take i).map (· * f)).length = i := by simp; omega
        simp only [g]
        rw [List.getElem?_append_right (by omega), this]
        simp [List.getElem?_eq_getElem hlt]
      have e3 : (S.strength.modify r (g i)).modify r (fun l' => l'.set i (l[i] * f)) = S.strength.modify r (g (i + 1)) := by
        rw [Dict.modify_modify]
        apply Dict.modify_congr _ hn
        intro v hv
        rw [hget v hv]
        simp only [g]
        have h3 : ((l.take i).map (· * f)).length = i := by simp; omega
        rw [List.set_append_right _ _ (by omega), h3, List.take_succ_eq_append_getElem hlt, List.drop_eq_getElem_cons hlt,
          Nat.sub_self, List.map_append, List.append_assoc]
        rfl
      refine Leads.head (b := ({ S with strength := S.strength.modify r (g i) }, .mulStore f r i (l[i] * f) todo)) ?_
        (Leads.head ?_ (ih (i + 1) (by omega)))
      · simp only [vstep, e2]
      · simp only [vstep, e3]
  have := gen l.length 0 (by omega)
  have e0 : S.strength.modify r (g 0) = S.strength := by
    have : g 0 = fun x => x := by funext x; simp [g]
    rw [this, Dict.modify_id]
  rwa [e0] at this

/-- No key occurs twice. -/
def Keyed (S : Source (XF ℝ)) : Prop := S.strength.keys.Nodup ∧ S.numReactions.keys.Nodup ∧ S.numNeutrons.keys.Nodup

theorem Keyed.scale {S : Source (XF ℝ)} (h : Keyed S) (f : XF ℝ) (r : Reaction) : Keyed (Source.scaleReaction f S r) := by
  obtain ⟨h1, h2, h3⟩ := h
  refine ⟨?_, ?_, ?_⟩ <;> simp only [Source.scaleReaction, Dict.keys_modify] <;> assumption

/-- One reaction. -/
theorem leads_scale (S : Source (XF ℝ)) (hk : Keyed S) (f : XF ℝ) (r : Reaction) (todo : List Reaction) :
    Leads Q P (S, .loop f (r :: todo)) (Source.scaleReaction f S r, .loop f todo) := by
  obtain ⟨h1, h2, h3⟩ := hk
  refine Leads.head (b := (S, .mulLoad f r 0 todo)) rfl ((leads_mul S h1 f r todo).trans ?_)
  set S1 : Source (XF ℝ) := { S with strength := S.strength.modify r (fun l => l.map (· * f)) } with hS1
  set S2 : Source (XF ℝ) := { S1 with numReactions := S1.numReactions.modify r (· * f) } with hS2
  have a : Leads Q P (S1, .reacLoad f r todo) (S2, .neutLoad f r todo) := by
    cases e : S1.numReactions.get? r with
    | none =>
      refine Leads.head (b := _) ?_ (Leads.refl _)
      have : S1.numReactions.modify r (· * f) = S1.numReactions.modify r (fun x => x) :=
        Dict.modify_congr _ h2 _ _ _ (by intro v hv; rw [e] at hv; cases hv)
      rw [Dict.modify_id] at this
      simp only [vstep, e, hS2, this]
    | some x =>
      refine Leads.head (b := (S1, .reacStore f r (x * f) todo)) ?_ (Leads.head (b := _) ?_ (Leads.refl _))
      · simp only [vstep, e]
      · have : S1.numReactions.modify r (fun _ => x * f) = S1.numReactions.modify r (· * f) :=
          Dict.modify_congr _ h2 _ _ _ (by intro v hv; rw [e] at hv; cases hv; rfl)
        simp only [vstep, this, hS2]
  refine a.trans ?_
  have e2 : Source.scaleReaction f S r = { S2 with numNeutrons := S2.numNeutrons.modify r (· * f) } := rfl
  rw [e2]
  cases e : S2.numNeutrons.get? r with
  | none =>
    refine Leads.head (b := _) ?_ (Leads.refl _)
    have : S2.numNeutrons.modify r (· * f) = S2.numNeutrons.modify r (fun x => x) :=
      Dict.modify_congr _ h3 _ _ _ (by intro v hv; rw [e] at hv; cases hv)
    rw [Dict.modify_id] at this
    simp only [vstep, e, this]
  | some x =>
    refine Leads.head (b := (S2, .neutStore f r (x * f) todo)) ?_ (Leads.head (b := _) ?_ (Leads.refl _))
    · simp only [vstep, e]
    · have : S2.numNeutrons.modify r (fun _ => x * f) = S2.numNeutrons.modify r (· * f) :=
        Dict.modify_congr _ h3 _ _ _ (by intro v hv; rw [e] at hv; cases hv; rfl)
      simp only [vstep, this]

theorem leads_loop (S : Source (XF ℝ)) (hk : Keyed S) (f : XF ℝ) (todo : List Reaction) :
    Leads Q P (S, .loop f todo) (todo.foldl (Source.scaleReaction f) S, .done) := by
  induction todo generalizing S with
  | nil => exact Leads.head (b := _) rfl (Leads.refl _)
  | cons r todo ih => exact (leads_scale S hk f r todo).trans (ih _ (hk.scale f r))

/-- Alone, a thread makes of the source what the call makes of it. -/
theorem leads_call (S : Source (XF ℝ)) (hk : Keyed S) :
    Leads Q P (S, .power [] S.sourceType)
      (match S.normaliseRaw Q P with
        | .ok S' => (S', .done)
        | .error _ => (S, .raised)) := by
  have h1 := leads_power (Q := Q) (P := P) S [] S.sourceType
  refine h1.trans ?_
  unfold Source.normaliseRaw
  by_cases h : S.sourceType = []
  · refine Leads.head (b := _) ?_ (Leads.refl _)
    simp [vstep, h]
  · simp only [if_neg h]
    refine Leads.head ?_ (leads_loop S hk _ S.sourceType)
    simp only [vstep, if_neg h, List.nil_append]
    rfl

theorem vstep_over (n : ℕ) (S : Source (XF ℝ)) (pc : NormPc) (h : pc = .done ∨ pc = .raised) :
    (vstep Q P)^[n] (S, pc) = (S, pc) := by
  induction n with
  | zero => rfl
  | succ n ih =>
    rw [Function.iterate_succ_apply']
    rw [ih]
    rcases h with rfl | rfl <;> rfl

/-- When a thread is over, whatever the number of steps, the source is what the call makes of it. -/
theorem over_eq (S : Source (XF ℝ)) (hk : Keyed S) (n : ℕ)
    (h : ((vstep Q P)^[n] (S, .power [] S.sourceType)).2 = .done ∨
      ((vstep Q P)^[n] (S, .power [] S.sourceType)).2 = .raised) :
    (vstep Q P)^[n] (S, .power [] S.sourceType) =
      (match S.normaliseRaw Q P with
        | .ok S' => (S', .done)
        | .error _ => (S, .raised)) := by
  obtain ⟨k, hk'⟩ := leads_call (Q := Q) (P := P) S hk
  have a : (vstep Q P)^[k + n] (S, .power [] S.sourceType) = (vstep Q P)^[n] (S, .power [] S.sourceType) := by
    rw [Function.iterate_add_apply]
    exact vstep_over k _ _ h
  have b : (vstep Q P)^[n + k] (S, .power [] S.sourceType) = (vstep Q P)^[k] (S, .power [] S.sourceType) := by
    rw [Function.iterate_add_apply, hk']
    cases S.normaliseRaw Q P with
    | ok S' => exact vstep_over n _ _ (Or.inl rfl)
    | error e => exact vstep_over n _ _ (Or.inr rfl)
  rw [← a, add_comm, b, hk']


/-! ### Threads in memory -/

theorem channel_view (m : Arrays) (s : SourceRef) (r : Reaction) : s.channel m r = (s.view m).strength.getD r [] := by
  simp only [SourceRef.channel, SourceRef.view, Dict.getD, Dict.get?_mapVal s.strength (fun a => m.read a)]
  cases s.strength.get? r <;> rfl

theorem numReactions_view (m : Arrays) (s : SourceRef) : (s.view m).numReactions = s.numReactions := rfl
theorem numNeutrons_view (m : Arrays) (s : SourceRef) : (s.view m).numNeutrons = s.numNeutrons := rfl

/-- A step in memory is a step on the value, touches no array of anyone else, and allocates nothing. -/
theorem step_sim (Q : Reaction → XF ℝ) (P : XF ℝ) (m : Arrays) (s : SourceRef) (pc : NormPc)
    (hn : s.addrs.Nodup) (hb : ∀ a ∈ s.addrs, a < m.length) (hk : s.strength.keys.Nodup) :
    let e := pc.step Q P m s
    (e.1.2.view e.1.1, e.2) = vstep Q P (s.view m, pc) ∧
    e.1.2.addrs = s.addrs ∧ e.1.2.strength = s.strength ∧ e.1.2.sourceType = s.sourceType ∧
    e.1.1.length = m.length ∧ ∀ b, b ∉ s.addrs → e.1.1.read b = m.read b := by
  have keep : ∀ pc' : NormPc, ((s.view m, pc') = vstep Q P (s.view m, pc)) →
      (s.view m, pc') = vstep Q P (s.view m, pc) ∧ s.addrs = s.addrs ∧ s.strength = s.strength ∧
      s.sourceType = s.sourceType ∧ m.length = m.length ∧ ∀ b, b ∉ s.addrs → m.read b = m.read b :=
    fun pc' h => ⟨h, rfl, rfl, rfl, rfl, fun _ _ => rfl⟩
  cases pc with
  | power sums todo =>
    cases todo with
    | nil => exact keep _ rfl
    | cons r todo => exact keep _ rfl
  | read r tmp sums todo =>
    refine keep _ ?_
    simp only [NormPc.step, vstep, channel_view]
    cases ((s.view m).strength.getD r [])[tmp.length]? <;> rfl
  | loop f todo =>
    cases todo with
    | nil => exact keep _ rfl
    | cons r todo => exact keep _ rfl
  | mulLoad f r i todo =>
    refine keep _ ?_
    simp only [NormPc.step, vstep, channel_view]
    cases ((s.view m).strength.getD r [])[i]? <;> rfl
  | mulStore f r i v todo =>
    simp only [NormPc.step, vstep, SourceRef.store]
    cases ha : s.strength.get? r with
    | none =>
      refine ⟨?_, trivial, trivial, trivial, by trivial, by simp⟩
      have hr : r ∉ (s.view m).strength.keys := by
        rw [view_keys]
        intro hmem
        obtain ⟨a, ha'⟩ := Dict.get?_eq_some_of_mem_keys _ _ hmem
        rw [ha] at ha'; cases ha'
      rw [Dict.modify_of_not_mem _ _ _ hr]
    | some a =>
      have hra := Dict.mem_of_get? _ _ _ ha
      have haddr : a ∈ s.addrs := by
        simp only [SourceRef.addrs, List.mem_append]
        exact Or.inr (List.mem_map_of_mem (f := Prod.snd) hra)
      refine ⟨?_, trivial, trivial, trivial, List.length_modify .., fun b hb' => ?_⟩
      · simp only
        rw [view_modify m s r a _ hn (hb a haddr) hk ha]
      · exact read_modify_ne _ _ _ _ (fun e => hb' (e ▸ haddr))
  | reacLoad f r todo =>
    refine keep _ ?_
    simp only [NormPc.step, vstep, numReactions_view]
    cases s.numReactions.get? r <;> rfl
  | reacStore f r v todo => exact ⟨rfl, rfl, rfl, rfl, rfl, fun _ _ => rfl⟩
  | neutLoad f r todo =>
    refine keep _ ?_
    simp only [NormPc.step, vstep, numNeutrons_view]
    cases s.numNeutrons.get? r <;> rfl
  | neutStore f r v todo => exact ⟨rfl, rfl, rfl, rfl, rfl, fun _ _ => rfl⟩
  | done => exact keep _ rfl
  | raised => exact keep _ rfl

/-- The energies as numpy holds them. -/
def energyX (pkg : Package) : Reaction → XF ℝ := fun r => .fin (pkg.energy r)

/-- What one step of the pool does. -/
theorem pool_step (pkg : Package) (p : Pool) (hw : p.world.Inv) (t : ℕ) :
    (p.step pkg t).world.Inv ∧
    (∀ j, (∀ th, p.threads[t]? = some th → th.src ≠ j) → (p.step pkg t).world.source? j = p.world.source? j) ∧
    (∀ th S, p.threads[t]? = some th → p.world.source? th.src = some S →
      (p.step pkg t).world.source? th.src = some (vstep (energyX pkg) (.fin th.power) (S, th.pc)).1 ∧
      (p.step pkg t).threads[t]? = some { th with pc := (vstep (energyX pkg) (.fin th.power) (S, th.pc)).2 }) ∧
    (∀ u, u ≠ t → (p.step pkg t).threads[u]? = p.threads[u]?) ∧
    (p.step pkg t).threads.length = p.threads.length ∧
    (p.step pkg t).world.sources.length = p.world.sources.length := by
  unfold Pool.step
  cases e1 : p.threads[t]? with
  | none =>
    refine ⟨hw, fun _ _ => rfl, fun th S h => (by cases h), fun _ _ => rfl, rfl, rfl⟩
  | some th =>
    simp only
    cases e2 : p.world.sources[th.src]? with
    | none =>
      refine ⟨hw, fun _ _ => rfl, fun th' S h h' => ?_, fun _ _ => rfl, rfl, rfl⟩
      cases h
      unfold World.source? at h'
      rw [e2] at h'; cases h'
    | some s =>
      obtain ⟨i1, i2, i3, i4⟩ := hw.source e2
      obtain ⟨v1, v2, v3, v4, v5, v6⟩ := step_sim (energyX pkg) (.fin th.power) p.world.arrays s th.pc i1 i2 i4
      refine ⟨World.Inv.replace hw e2 v2 v3 v4 v5, ?_, ?_, ?_, ?_, ?_⟩
      · intro j hj
        have hne := hj th rfl
        unfold World.source?
        simp only [List.getElem?_set_ne hne]
        cases e3 : p.world.sources[j]? with
        | none => rfl
        | some s' =>
          simp only [Option.map_some, Option.some.injEq]
          apply view_congr
          intro a ha
          exact v6 a (hw.disjoint (Ne.symm hne) e3 e2 a ha)
      · intro th' S h h'
        cases h
        have hS : S = s.view p.world.arrays := by
          unfold World.source? at h'
          rw [e2] at h'
          exact (Option.some.inj h').symm
        subst hS
        obtain ⟨hlt, -⟩ := List.getElem?_eq_some_iff.1 e2
        obtain ⟨hlt', -⟩ := List.getElem?_eq_some_iff.1 e1
        refine ⟨?_, ?_⟩
        · unfold World.source?
          simp only [List.getElem?_set_self hlt, Option.map_some]
          exact congrArg (fun q => some (Prod.fst q)) v1
        · simp only [List.getElem?_set_self hlt']
          exact congrArg (fun q : Source (XF ℝ) × NormPc => some { th with pc := q.2 }) v1
      · intro u hu
        simp only [List.getElem?_set_ne (Ne.symm hu)]
      · simp
      · simp

/-- A thread stays at its source. -/
theorem pool_step_src (pkg : Package) (p : Pool) (hw : p.world.Inv) (t : ℕ) : ∀ (u : ℕ) (th' : NormThread),
    (p.step pkg t).threads[u]? = some th' → ∃ th, p.threads[u]? = some th ∧ th.src = th'.src := by
  obtain ⟨-, -, -, s4, -⟩ := pool_step pkg p hw t
  intro u th' h
  by_cases hu : u = t
  · subst hu
    cases e1 : p.threads[u]? with
    | none =>
      have : p.step pkg u = p := by unfold Pool.step; rw [e1]
      rw [this, e1] at h; cases h
    | some th =>
      refine ⟨th, rfl, ?_⟩
      obtain ⟨hlt', -⟩ := List.getElem?_eq_some_iff.1 e1
      unfold Pool.step at h
      rw [e1] at h
      simp only at h
      cases e2 : p.world.sources[th.src]? with
      | none => rw [e2] at h; simp only at h; rw [e1] at h; cases h; rfl
      | some s =>
        rw [e2] at h
        simp only [List.getElem?_set_self hlt'] at h
        cases h; rfl
  · rw [s4 u hu] at h
    exact ⟨th', h, rfl⟩

theorem pool_run_cons (pkg : Package) (p : Pool) (t : ℕ) (sched : List ℕ) :
    p.run pkg (t :: sched) = (p.step pkg t).run pkg sched := rfl

theorem pool_run_append (pkg : Package) (p : Pool) (l l' : List ℕ) :
    p.run pkg (l ++ l') = (p.run pkg l).run pkg l' := by
  simp [Pool.run, List.foldl_append]

/-- Threads on pairwise different sources: every thread and its source go their own way. -/
theorem pool_run (pkg : Package) (sched : List ℕ) : ∀ (p : Pool), p.world.Inv →
    (∀ (t u : ℕ) (th th' : NormThread), p.threads[t]? = some th → p.threads[u]? = some th' → th.src = th'.src → t = u) →
    (p.run pkg sched).world.Inv ∧
    (∀ j, (∀ th ∈ p.threads, th.src ≠ j) → (p.run pkg sched).world.source? j = p.world.source? j) ∧
    (∀ t th S, p.threads[t]? = some th → p.world.source? th.src = some S →
      let c := (vstep (energyX pkg) (.fin th.power))^[sched.count t] (S, th.pc)
      (p.run pkg sched).world.source? th.src = some c.1 ∧
      (p.run pkg sched).threads[t]? = some { th with pc := c.2 }) ∧
    (p.run pkg sched).threads.length = p.threads.length := by
  induction sched with
  | nil =>
    intro p hw _
    refine ⟨hw, fun _ _ => rfl, fun t th S h h' => ⟨h', h⟩, rfl⟩
  | cons t sched ih =>
    intro p hw hd
    obtain ⟨s1, s2, s3, s4, s5, -⟩ := pool_step pkg p hw t
    have hsrc := pool_step_src pkg p hw t
    have hd' : ∀ (t' u : ℕ) (th th' : NormThread), (p.step pkg t).threads[t']? = some th → (p.step pkg t).threads[u]? = some th' →
        th.src = th'.src → t' = u := by
      intro t' u th th' h h' e
      obtain ⟨a, ha, ea⟩ := hsrc _ _ h
      obtain ⟨b, hb, eb⟩ := hsrc _ _ h'
      exact hd t' u a b ha hb (by rw [ea, eb, e])
    obtain ⟨r1, r2, r3, r4⟩ := ih (p.step pkg t) s1 hd'
    refine ⟨r1, ?_, ?_, by rw [pool_run_cons, r4, s5]⟩
    · intro j hj
      rw [pool_run_cons, r2 j ?_, s2 j (fun th h => hj th (List.mem_of_getElem? h))]
      intro th' hmem
      obtain ⟨u, hu⟩ := List.getElem?_of_mem hmem
      obtain ⟨th, h1, h2⟩ := hsrc u th' hu
      rw [← h2]
      exact hj th (List.mem_of_getElem? h1)
    · intro u th S h h'
      rw [pool_run_cons]
      by_cases hu : u = t
      · subst hu
        obtain ⟨q1, q2⟩ := s3 th S h h'
        have := r3 u _ _ q2 q1
        simp only [List.count_cons_self, Function.iterate_succ_apply]
        exact this
      · have h2 : (p.step pkg t).world.source? th.src = some S := by
          rw [s2 th.src, h']
          intro th2 h2 e
          exact hu (hd u t th th2 h h2 e.symm)
        have := r3 u th S (by rw [s4 u hu]; exact h) h2
        rw [List.count_cons_of_ne (Ne.symm hu)]
        exact this


/-- One thread alone for a while. -/
theorem pool_solo (pkg : Package) (t n : ℕ) : ∀ (p : Pool) (th : NormThread) (S : Source (XF ℝ)), p.world.Inv →
    p.threads[t]? = some th → p.world.source? th.src = some S →
    let c := (vstep (energyX pkg) (.fin th.power))^[n] (S, th.pc)
    (p.run pkg (List.replicate n t)).world.Inv ∧
    (p.run pkg (List.replicate n t)).world.source? th.src = some c.1 ∧
    (p.run pkg (List.replicate n t)).threads[t]? = some { th with pc := c.2 } ∧
    (∀ u, u ≠ t → (p.run pkg (List.replicate n t)).threads[u]? = p.threads[u]?) ∧
    (p.run pkg (List.replicate n t)).threads.length = p.threads.length := by
  induction n with
  | zero => intro p th S hw h h'; exact ⟨hw, h', h, fun _ _ => rfl, rfl⟩
  | succ n ih =>
    intro p th S hw h h'
    obtain ⟨s1, -, s3, s4, s5, -⟩ := pool_step pkg p hw t
    obtain ⟨q1, q2⟩ := s3 th S h h'
    obtain ⟨r1, r2, r3, r4, r5⟩ := ih (p.step pkg t) _ _ s1 q2 q1
    rw [List.replicate_succ, pool_run_cons, Function.iterate_succ_apply]
    exact ⟨r1, r2, r3, fun u hu => by rw [r4 u hu, s4 u hu], by rw [r5, s5]⟩

/-! ### Keys -/

theorem Keyed.apply {S : Source (XF ℝ)} (h : Keyed S) (energy : Reaction → ℝ) (c : Call) :
    Keyed (Call.apply energy S c) := by
  cases c with
  | normalise P =>
    simp only [Call.apply, Source.normaliseRaw]
    split
    · rename_i s' e
      split_ifs at e
      cases e
      have gen : ∀ (l : List Reaction) (S : Source (XF ℝ)) (f : XF ℝ), Keyed S →
          Keyed (l.foldl (Source.scaleReaction f) S) := by
        intro l
        induction l with
        | nil => intro S f h; exact h
        | cons r l ih => intro S f h; exact ih _ f (h.scale f r)
      exact gen _ _ _ h
    · exact h
  | write r i v =>
    obtain ⟨h1, h2, h3⟩ := h
    exact ⟨by simpa only [Call.apply, Dict.keys_modify] using h1, h2, h3⟩

theorem keyed_of_reachable {pi : ℝ} {Q : Reaction → ℝ} {sv : Reaction → List ℝ → Except Err (List ℝ)} {S : Source ℝ}
    (h : Reachable pi Q sv S) : Keyed S.toXF := by
  obtain ⟨h0, h1, h2, h3, -⟩ := C04_bookkeeping h
  have e : ∀ {β γ : Type} (d : Dict Reaction β) (g : β → γ), Dict.keys (d.map (fun p => (p.1, g p.2))) = d.keys := by
    intro β γ d g; simp [Dict.keys, Function.comp_def]
  refine ⟨?_, ?_, ?_⟩
  · show (Dict.keys (S.strength.map (fun p => (p.1, p.2.map XF.fin)))).Nodup
    rw [e S.strength (fun l => l.map XF.fin), h1]; exact h0
  · show (Dict.keys (S.numReactions.map (fun p => (p.1, XF.fin p.2)))).Nodup
    rw [e S.numReactions XF.fin, h2]; exact h0
  · show (Dict.keys (S.numNeutrons.map (fun p => (p.1, XF.fin p.2)))).Nodup
    rw [e S.numNeutrons XF.fin, h3]; exact h0

theorem keyed_run (pkg : Package) (ops : List Op) (j : ℕ) (S : Source (XF ℝ))
    (h : (World.run pkg ops).source? j = some S) : Keyed S := by
  have hj : j < (World.run pkg ops).sources.length := by
    unfold World.source? at h
    cases e : (World.run pkg ops).sources[j]? with
    | none => rw [e] at h; cases h
    | some s => exact (List.getElem?_eq_some_iff.1 e).1
  obtain ⟨b, a, t, k, arg, L, power, method, tr, fm, S0, -, -, -, -, h5, -, h7⟩ := C83_all pkg ops j hj
  rw [h7] at h
  cases h
  have gen : ∀ (l : List Call) (S : Source (XF ℝ)), Keyed S → Keyed (l.foldl (Call.apply pkg.energy) S) := by
    intro l
    induction l with
    | nil => intro S h; exact h
    | cons c l ih => intro S h; exact ih _ (h.apply _ c)
  exact gen _ _ (keyed_of_reachable (.constructed h5))

/-! ### The theorems -/

theorem start_thread (w : World) (calls : List (ℕ × ℝ)) (t : ℕ) (th : NormThread)
    (h : (startAll w calls).threads[t]? = some th) : ∃ c, calls[t]? = some c ∧ th = NormThread.start w c.1 c.2 := by
  simp only [startAll, List.getElem?_map, Option.map_eq_some_iff] at h
  obtain ⟨c, h1, h2⟩ := h
  exact ⟨c, h1, h2.symm⟩

theorem start_distinct (w : World) (calls : List (ℕ × ℝ)) (hd : (calls.map Prod.fst).Nodup) :
    ∀ (t u : ℕ) (th th' : NormThread), (startAll w calls).threads[t]? = some th →
      (startAll w calls).threads[u]? = some th' → th.src = th'.src → t = u := by
  intro t u th th' h h' e
  obtain ⟨c, h1, rfl⟩ := start_thread w calls t th h
  obtain ⟨c', h2, rfl⟩ := start_thread w calls u th' h'
  have e' : c.1 = c'.1 := e
  have a1 : (calls.map Prod.fst)[t]? = some c.1 := by rw [List.getElem?_map, h1]; rfl
  have a2 : (calls.map Prod.fst)[u]? = some c.1 := by rw [List.getElem?_map, h2, e']; rfl
  obtain ⟨l1, g1⟩ := List.getElem?_eq_some_iff.1 a1
  obtain ⟨l2, g2⟩ := List.getElem?_eq_some_iff.1 a2
  exact (List.Nodup.getElem_inj_iff hd).1 (g1.trans g2.symm)

theorem start_of_source (w : World) (j : ℕ) (P : ℝ) (S : Source (XF ℝ)) (h : w.source? j = some S) :
    NormThread.start w j P = ⟨j, P, .power [] S.sourceType⟩ := by
  unfold World.source? at h
  unfold NormThread.start
  cases e : w.sources[j]? with
  | none => rw [e] at h; cases h
  | some s =>
    rw [e] at h
    cases h
    rfl

theorem callsOn_normalises (calls : List (ℕ × ℝ)) (hd : (calls.map Prod.fst).Nodup) (j : ℕ) :
    (∀ P, (j, P) ∈ calls → callsOn j (calls.map (fun c => Op.normalise c.1 c.2)) = [.normalise P]) ∧
    (j ∉ calls.map Prod.fst → callsOn j (calls.map (fun c => Op.normalise c.1 c.2)) = []) := by
  induction calls with
  | nil => simp [callsOn]
  | cons c calls ih =>
    rw [List.map_cons, List.nodup_cons] at hd
    obtain ⟨i1, i2⟩ := ih hd.2
    refine ⟨?_, ?_⟩
    · intro P hP
      rcases List.mem_cons.1 hP with rfl | hP
      · simp only [List.map_cons, callsOn, if_true]
        rw [i2 hd.1]
      · have : c.1 ≠ j := by
          rintro rfl
          exact hd.1 (List.mem_map.2 ⟨_, hP, rfl⟩)
        simp only [List.map_cons, callsOn, if_neg this]
        exact i1 P hP
    · intro hj
      rw [List.map_cons, List.mem_cons, not_or] at hj
      simp only [List.map_cons, callsOn, if_neg (Ne.symm hj.1)]
      exact i2 hj.2

theorem source?_isSome (w : World) (j : ℕ) (h : j < w.sources.length) : ∃ S, w.source? j = some S := by
  unfold World.source?
  rw [List.getElem?_eq_getElem h]
  exact ⟨_, rfl⟩

/-- **C92**, different sources: when `normalise_fusion_power` is called by any number of threads, each on its own
source, then under every schedule, once all calls are over, every source shows exactly what it would show had the
calls been made one after the other; and a call raised if and only if its source has no channel. -/
theorem C92_independent (pkg : Package) (ops : List Op) (calls : List (ℕ × ℝ)) (hd : (calls.map Prod.fst).Nodup)
    (hex : ∀ c ∈ calls, c.1 < (World.run pkg ops).sources.length) (sched : List ℕ)
    (hover : ∀ th ∈ ((startAll (World.run pkg ops) calls).run pkg sched).threads, NormThread.Over th) :
    (∀ j, ((startAll (World.run pkg ops) calls).run pkg sched).world.source? j =
      (World.run pkg (ops ++ calls.map (fun c => Op.normalise c.1 c.2))).source? j) ∧
    ∀ (t : ℕ) (c : ℕ × ℝ) (S : Source (XF ℝ)), calls[t]? = some c → (World.run pkg ops).source? c.1 = some S →
      ∃ th : NormThread, ((startAll (World.run pkg ops) calls).run pkg sched).threads[t]? = some th ∧
        (th.pc = .raised ↔ S.sourceType = []) := by
  set w := World.run pkg ops with hw
  have hinv : w.Inv := inv_run pkg ops
  obtain ⟨-, r2, r3, -⟩ := pool_run pkg sched (startAll w calls) hinv (start_distinct w calls hd)
  have main : ∀ (t : ℕ) (c : ℕ × ℝ) (S : Source (XF ℝ)), calls[t]? = some c → w.source? c.1 = some S →
      ((startAll w calls).run pkg sched).world.source? c.1 = some (Call.apply pkg.energy S (.normalise c.2)) ∧
      ∃ th : NormThread, ((startAll w calls).run pkg sched).threads[t]? = some th ∧ (th.pc = .raised ↔ S.sourceType = []) := by
    intro t c S h hS
    have h1 : (startAll w calls).threads[t]? = some (NormThread.start w c.1 c.2) := by
      simp only [startAll, List.getElem?_map, h]; rfl
    rw [start_of_source w c.1 c.2 S hS] at h1
    obtain ⟨q1, q2⟩ := r3 t _ S h1 hS
    have ho := hover _ (List.mem_of_getElem? q2)
    have e := over_eq (Q := energyX pkg) (P := .fin c.2) S (keyed_run pkg ops c.1 S hS) (sched.count t) ho
    simp only at q1 q2
    rw [e] at q1 q2
    refine ⟨?_, _, q2, ?_⟩
    · rw [q1]
      simp only [Call.apply]
      show some (Prod.fst (match S.normaliseRaw (energyX pkg) (.fin c.2) with
        | .ok S' => (S', NormPc.done)
        | .error _ => (S, NormPc.raised))) = some (match S.normaliseRaw (energyX pkg) (.fin c.2) with
        | .ok s' => s'
        | .error _ => S)
      cases S.normaliseRaw (energyX pkg) (.fin c.2) <;> rfl
    · simp only [Source.normaliseRaw]
      by_cases h0 : S.sourceType = [] <;> simp [h0]
  refine ⟨fun j => ?_, fun t c S h hS => (main t c S h hS).2⟩
  rw [run_append]
  by_cases hj : j < w.sources.length
  · rw [foldl_old pkg _ w hinv j hj]
    obtain ⟨c1, c2⟩ := callsOn_normalises calls hd j
    obtain ⟨S, hS⟩ := source?_isSome w j hj
    by_cases hm : j ∈ calls.map Prod.fst
    · obtain ⟨c, hc, rfl⟩ := List.mem_map.1 hm
      obtain ⟨t, ht⟩ := List.getElem?_of_mem hc
      rw [(main t c S ht hS).1, c1 c.2 hc, hS]
      rfl
    · rw [r2 j ?_, c2 hm]
      · show w.source? j = _
        rw [hS]; rfl
      · intro th hth
        obtain ⟨t, ht⟩ := List.getElem?_of_mem hth
        obtain ⟨c, h1, rfl⟩ := start_thread w calls t th ht
        rintro rfl
        exact hm (List.mem_map_of_mem (f := Prod.fst) (List.mem_of_getElem? h1))
  · -- there is no such source on either side
    have h1 : ∀ th ∈ (startAll w calls).threads, th.src ≠ j := by
      intro th hth
      obtain ⟨t, ht⟩ := List.getElem?_of_mem hth
      obtain ⟨c, h1, rfl⟩ := start_thread w calls t th ht
      rintro rfl
      exact hj (hex c (List.mem_of_getElem? h1))
    rw [r2 j h1]
    have gen : ∀ (l : List (ℕ × ℝ)) (w : World), ¬ j < w.sources.length →
        ((l.map (fun c => Op.normalise c.1 c.2)).foldl (World.step pkg) w).source? j = none := by
      intro l
      induction l with
      | nil =>
        intro w h
        show w.source? j = none
        unfold World.source?
        rw [List.getElem?_eq_none (by omega)]; rfl
      | cons c l ih =>
        intro w h
        rw [List.map_cons, List.foldl_cons]
        apply ih
        intro hlt
        apply h
        simp only [World.step, World.exec] at hlt
        cases e : w.sources[c.1]? with
        | none => rw [e] at hlt; exact hlt
        | some s =>
          rw [e] at hlt
          simp only [Bind.bind, Except.bind] at hlt
          cases e2 : SourceRef.normalise (fun r => XF.fin (pkg.energy r)) (XF.fin c.2) w.arrays s with
          | error x => rw [e2] at hlt; exact hlt
          | ok st => rw [e2] at hlt; simpa only [List.length_set] using hlt
    rw [gen calls w hj]
    show w.source? j = none
    unfold World.source?
    rw [List.getElem?_eq_none (by omega)]; rfl

/-- **C92**, bystanders: at every moment, a source on which no thread works shows what it showed before, also when
several threads work on one source. -/
theorem C92_bystanders (pkg : Package) (ops : List Op) (calls : List (ℕ × ℝ)) (sched : List ℕ) (j : ℕ)
    (hj : j ∉ calls.map Prod.fst) :
    ((startAll (World.run pkg ops) calls).run pkg sched).world.source? j = (World.run pkg ops).source? j := by
  have gen : ∀ (sched : List ℕ) (p : Pool), p.world.Inv → (∀ th ∈ p.threads, th.src ≠ j) →
      (p.run pkg sched).world.source? j = p.world.source? j := by
    intro sched
    induction sched with
    | nil => intro p _ _; rfl
    | cons t sched ih =>
      intro p hw h
      obtain ⟨s1, s2, -⟩ := pool_step pkg p hw t
      rw [pool_run_cons, ih _ s1, s2 j (fun th h' => h th (List.mem_of_getElem? h'))]
      intro th' hmem
      obtain ⟨u, hu⟩ := List.getElem?_of_mem hmem
      obtain ⟨th, h1, h2⟩ := pool_step_src pkg p hw t u th' hu
      rw [← h2]
      exact h th (List.mem_of_getElem? h1)
  rw [gen sched _ (inv_run pkg ops)]
  · rfl
  · intro th hth
    obtain ⟨t, ht⟩ := List.getElem?_of_mem hth
    obtain ⟨c, h1, rfl⟩ := start_thread _ calls t th ht
    rintro rfl
    exact hj (List.mem_map_of_mem (f := Prod.fst) (List.mem_of_getElem? h1))

/-- **C92**, progress: there is a number of steps after which every call is over, whatever the other threads do in
between. -/
theorem C92_progress (pkg : Package) (ops : List Op) (calls : List (ℕ × ℝ)) (hd : (calls.map Prod.fst).Nodup)
    (hex : ∀ c ∈ calls, c.1 < (World.run pkg ops).sources.length) :
    ∃ N, ∀ sched : List ℕ, (∀ t < calls.length, N ≤ sched.count t) →
      ∀ th ∈ ((startAll (World.run pkg ops) calls).run pkg sched).threads, NormThread.Over th := by
  set w := World.run pkg ops with hw
  have hinv : w.Inv := inv_run pkg ops
  have one : ∀ c : ℕ × ℝ, ∃ n, ∀ S, w.source? c.1 = some S → ∀ k, n ≤ k →
      NormThread.Over ⟨c.1, c.2, ((vstep (energyX pkg) (.fin c.2))^[k] (S, .power [] S.sourceType)).2⟩ := by
    intro c
    cases hS : w.source? c.1 with
    | none => exact ⟨0, fun S h => by cases h⟩
    | some S =>
      obtain ⟨n, hn⟩ := leads_call (Q := energyX pkg) (P := .fin c.2) S (keyed_run pkg ops c.1 S hS)
      refine ⟨n, fun S' h k hk => ?_⟩
      cases h
      have : (vstep (energyX pkg) (.fin c.2))^[k] (S, .power [] S.sourceType) =
          (vstep (energyX pkg) (.fin c.2))^[n] (S, .power [] S.sourceType) := by
        obtain ⟨d, rfl⟩ := Nat.exists_eq_add_of_le hk
        rw [add_comm, Function.iterate_add_apply, hn]
        cases S.normaliseRaw (energyX pkg) (.fin c.2) with
        | ok S' => exact vstep_over d _ _ (Or.inl rfl)
        | error e => exact vstep_over d _ _ (Or.inr rfl)
      rw [this, hn]
      cases S.normaliseRaw (energyX pkg) (.fin c.2) with
      | ok S' => exact Or.inl rfl
      | error e => exact Or.inr rfl
  choose n hn using one
  refine ⟨(calls.map n).sum, fun sched hs th hth => ?_⟩
  obtain ⟨-, -, r3, r4⟩ := pool_run pkg sched (startAll w calls) hinv (start_distinct w calls hd)
  obtain ⟨t, ht⟩ := List.getElem?_of_mem hth
  have hlt : t < calls.length := by
    have := (List.getElem?_eq_some_iff.1 ht).1
    rw [r4] at this
    simpa [startAll] using this
  have hc : calls[t]? = some calls[t] := List.getElem?_eq_getElem hlt
  obtain ⟨S, hS⟩ := source?_isSome w _ (hex _ (List.getElem_mem hlt))
  have h1 : (startAll w calls).threads[t]? = some (NormThread.start w calls[t].1 calls[t].2) := by
    simp only [startAll, List.getElem?_map, hc]; rfl
  rw [start_of_source w _ _ S hS] at h1
  obtain ⟨-, q2⟩ := r3 t _ S h1 hS
  rw [ht] at q2
  cases q2
  apply hn calls[t] S hS
  refine le_trans ?_ (hs t hlt)
  exact List.single_le_sum (fun _ _ => Nat.zero_le _) _ (List.mem_map_of_mem (List.getElem_mem hlt))


/-! ### Two threads on one source -/

/-- Two threads on one source: memory, source, program counters. -/
def TwoAt (pkg : Package) (p : Pool) (j : ℕ) (Pa Pb : ℝ) (S : Source (XF ℝ)) (a b : NormPc) : Prop :=
  p.world.Inv ∧ p.world.source? j = some S ∧ p.threads = [⟨j, Pa, a⟩, ⟨j, Pb, b⟩]

theorem two_first (pkg : Package) {p : Pool} {j : ℕ} {Pa Pb : ℝ} {S S' : Source (XF ℝ)} {a b a' : NormPc}
    (h : TwoAt pkg p j Pa Pb S a b) (hl : Leads (energyX pkg) (.fin Pa) (S, a) (S', a')) :
    ∃ sched, TwoAt pkg (p.run pkg sched) j Pa Pb S' a' b := by
  obtain ⟨n, hn⟩ := hl
  obtain ⟨h1, h2, h3⟩ := h
  obtain ⟨r1, r2, r3, r4, r5⟩ := pool_solo pkg 0 n p ⟨j, Pa, a⟩ S h1 (by rw [h3]; rfl) h2
  simp only at r2 r3
  rw [hn] at r2 r3
  refine ⟨_, r1, r2, ?_⟩
  have r6 := r4 1 (by omega)
  rw [h3] at r5 r6
  apply List.ext_getElem?
  intro i
  match i with
  | 0 => exact r3
  | 1 => exact r6
  | i + 2 => rw [List.getElem?_eq_none (by rw [r5]; simp), List.getElem?_eq_none (by simp)]

theorem two_second (pkg : Package) {p : Pool} {j : ℕ} {Pa Pb : ℝ} {S S' : Source (XF ℝ)} {a b b' : NormPc}
    (h : TwoAt pkg p j Pa Pb S a b) (hl : Leads (energyX pkg) (.fin Pb) (S, b) (S', b')) :
    ∃ sched, TwoAt pkg (p.run pkg sched) j Pa Pb S' a b' := by
  obtain ⟨n, hn⟩ := hl
  obtain ⟨h1, h2, h3⟩ := h
  obtain ⟨r1, r2, r3, r4, r5⟩ := pool_solo pkg 1 n p ⟨j, Pb, b⟩ S h1 (by rw [h3]; rfl) h2
  simp only at r2 r3
  rw [hn] at r2 r3
  refine ⟨_, r1, r2, ?_⟩
  have r6 := r4 0 (by omega)
  rw [h3] at r5 r6
  apply List.ext_getElem?
  intro i
  match i with
  | 0 => exact r6
  | 1 => exact r3
  | i + 2 => rw [List.getElem?_eq_none (by rw [r5]; simp), List.getElem?_eq_none (by simp)]

theorem TwoAt.start (pkg : Package) (ops : List Op) {j : ℕ} {S : Source (XF ℝ)} (Pa Pb : ℝ)
    (h : (World.run pkg ops).source? j = some S) :
    TwoAt pkg (startAll (World.run pkg ops) [(j, Pa), (j, Pb)]) j Pa Pb S (.power [] S.sourceType)
      (.power [] S.sourceType) := by
  refine ⟨inv_run pkg ops, h, ?_⟩
  simp only [startAll, List.map_cons, List.map_nil, start_of_source _ _ _ S h]

theorem TwoAt.over {pkg : Package} {p : Pool} {j : ℕ} {Pa Pb : ℝ} {S : Source (XF ℝ)}
    (h : TwoAt pkg p j Pa Pb S .done .done) : ∀ th ∈ p.threads, NormThread.Over th := by
  rw [h.2.2]
  intro th hth
  simp only [List.mem_cons, List.not_mem_nil, or_false] at hth
  rcases hth with rfl | rfl <;> exact Or.inl rfl

theorem leads_factor (S : Source (XF ℝ)) (h : S.sourceType ≠ []) :
    Leads Q P (S, .power [] S.sourceType) (S, .loop (P / S.totalPower Q) S.sourceType) := by
  refine (leads_power S [] S.sourceType).trans ?_
  refine Leads.head (b := _) ?_ (Leads.refl _)
  simp only [vstep, if_neg h, List.nil_append]
  rfl

/-- **C92**, one source, scaled twice: if two threads normalise the *same* source, there is always a schedule after
which the power is neither of the two asked for but their product divided by the old power: both factors were
computed from the old power and both were applied. -/
theorem C92_scaled_twice (pkg : Package) (ops : List Op) (j : ℕ) {sv : Reaction → List ℝ → Except Err (List ℝ)}
    {S : Source ℝ} (hr : Reachable pkg.pi pkg.energy sv S) (hS : (World.run pkg ops).source? j = some S.toXF)
    (hp : S.totalPower pkg.energy ≠ 0) (Pa Pb : ℝ) (hb : Pb ≠ 0) :
    ∃ sched S', S.normalise pkg.energy (Pa * Pb / S.totalPower pkg.energy) = .ok S' ∧
      S'.totalPower pkg.energy = Pa * Pb / S.totalPower pkg.energy ∧
      ((startAll (World.run pkg ops) [(j, Pa), (j, Pb)]).run pkg sched).world.source? j = some S'.toXF ∧
      ∀ th ∈ ((startAll (World.run pkg ops) [(j, Pa), (j, Pb)]).run pkg sched).threads, NormThread.Over th := by
  set p0 := S.totalPower pkg.energy with hp0
  have hne : S.toXF.sourceType ≠ [] := by
    intro e; apply hp; rw [hp0]; simp [Source.totalPower, show S.sourceType = [] from e]
  obtain ⟨S1, n1, x1⟩ := C07_finite_when_power hr hp Pb
  obtain ⟨S1', n1', w1⟩ := C03_normalise_reaches hr hp Pb
  rw [n1] at n1'; cases n1'
  have hr1 : Reachable pkg.pi pkg.energy sv S1 := .normalised hr n1
  have hp1 : S1.totalPower pkg.energy ≠ 0 := by rw [w1]; exact hb
  obtain ⟨S2, n2, x2⟩ := C07_finite_when_power hr1 hp1 (Pa * Pb / p0)
  have htw : S.normalise pkg.energy (Pa * Pb / p0) = .ok S2 := by
    have := (C05_last_wins hr hp [Pb] (by simpa using hb) (Pa * Pb / p0)).1
    rw [← this]
    simp only [Source.normalises, List.cons_append, List.nil_append, List.foldlM_cons, n1, Bind.bind, Except.bind, n2,
      List.foldlM_nil]
    rfl
  -- thread 0 computes its factor, thread 1 makes the whole call, thread 0 goes on
  have t0 := TwoAt.start pkg ops Pa Pb hS
  obtain ⟨s1, t1⟩ := two_first pkg t0 (leads_factor S.toXF hne)
  have hcall := leads_call (Q := energyX pkg) (P := .fin Pb) S.toXF (keyed_of_reachable hr)
  have x1' : S.toXF.normaliseRaw (energyX pkg) (.fin Pb) = .ok S1.toXF := x1
  rw [x1'] at hcall
  obtain ⟨s2, t2⟩ := two_second pkg t1 hcall
  have e1 : S.toXF.totalPower (energyX pkg) = .fin p0 := toXF_totalPower S pkg.energy
  rw [e1, XF.fin_div _ _ hp] at t2
  obtain ⟨s3, t3⟩ := two_first pkg t2 (leads_loop S1.toXF (keyed_of_reachable hr1) _ _)
  have e2 : S.toXF.sourceType.foldl (Source.scaleReaction (.fin (Pa / p0))) S1.toXF = S2.toXF := by
    unfold Source.normaliseRaw at x2
    split_ifs at x2
    rw [← Except.ok.inj x2, toXF_totalPower, XF.fin_div _ _ hp1, w1]
    have e3 : Pa * Pb / p0 / Pb = Pa / p0 := by field_simp
    rw [e3]
    have e4 : S1.toXF.sourceType = S.toXF.sourceType := by
      show S1.sourceType = S.sourceType
      obtain ⟨f, hf⟩ := reachable_closed hr
      obtain ⟨-, -, rfl⟩ := (Source.normalise_ok_iff _ _ _ _).1 n1
      rw [(hf.scale _).1]
    rw [e4]
  rw [e2] at t3
  refine ⟨s1 ++ s2 ++ s3, S2, htw, ?_, ?_, ?_⟩
  · obtain ⟨S3, n3, w3⟩ := C03_normalise_reaches hr hp (Pa * Pb / p0)
    rw [htw] at n3; cases n3
    exact w3
  · rw [pool_run_append, pool_run_append]; exact t3.2.1
  · rw [pool_run_append, pool_run_append]; exact t3.over


/-- **C92**, one source, lost update: if two threads normalise the same source with a single channel, there is always
a schedule that loses one of the two updates of the reaction rate.  All cell strengths carry both factors, the
reaction rate only one, so it is no longer the sum of the strengths (unless one of the factors is trivial). -/
theorem C92_lost_update (pkg : Package) (ops : List Op) (j : ℕ) {sv : Reaction → List ℝ → Except Err (List ℝ)}
    {S : Source ℝ} (hr : Reachable pkg.pi pkg.energy sv S) (hS : (World.run pkg ops).source? j = some S.toXF)
    (hp : S.totalPower pkg.energy ≠ 0) {r : Reaction} (hone : S.sourceType = [r]) (Pa Pb : ℝ) (ha : Pa ≠ 0)
    (hb : Pb ≠ S.totalPower pkg.energy) :
    ∃ (sched : List ℕ) (S' : Source ℝ) (cells cells' : List ℝ) (num' : ℝ), S.strength.get? r = some cells ∧ S'.strength.get? r = some cells' ∧
      S'.numReactions.get? r = some num' ∧
      cells' = cells.map (fun v => v * (Pa / S.totalPower pkg.energy) * (Pb / S.totalPower pkg.energy)) ∧
      num' = cells.sum * (Pa / S.totalPower pkg.energy) ∧ num' ≠ cells'.sum ∧
      ((startAll (World.run pkg ops) [(j, Pa), (j, Pb)]).run pkg sched).world.source? j = some S'.toXF ∧
      ∀ th ∈ ((startAll (World.run pkg ops) [(j, Pa), (j, Pb)]).run pkg sched).threads, NormThread.Over th := by
  set p0 := S.totalPower pkg.energy with hp0
  obtain ⟨f, h0, h1, h2, h3⟩ := reachable_closed hr
  have hsum : (f r).sum ≠ 0 := by
    intro e
    apply hp
    rw [hp0, Source.Closed.totalPower ⟨h0, h1, h2, h3⟩, hone]
    simp [e]
  rw [hone] at h1 h2 h3
  simp only [List.map_cons, List.map_nil] at h1 h2 h3
  have hx : S.toXF.sourceType = [r] := hone
  have hne : S.toXF.sourceType ≠ [] := by rw [hx]; simp
  have hkey := keyed_of_reachable hr
  have e1 : S.toXF.totalPower (energyX pkg) = .fin p0 := toXF_totalPower S pkg.energy
  have t0 := TwoAt.start pkg ops Pa Pb hS
  obtain ⟨s1, t1⟩ := two_first pkg t0 (leads_factor S.toXF hne)
  obtain ⟨s2, t2⟩ := two_second pkg t1 (leads_factor S.toXF hne)
  rw [e1, XF.fin_div _ _ hp, XF.fin_div _ _ hp, hx] at t2
  -- thread 0 scales the strengths and loads the rate
  obtain ⟨s3, t3⟩ := two_first pkg t2 ((Leads.head (b := (S.toXF, .mulLoad (.fin (Pa / p0)) r 0 [])) rfl
    (leads_mul S.toXF hkey.1 (.fin (Pa / p0)) r [])))
  set S1 : Source (XF ℝ) := { S.toXF with
    strength := S.toXF.strength.modify r (fun l => l.map (· * XF.fin (Pa / p0))) } with hS1
  have hget : S1.numReactions.get? r = some (.fin (f r).sum) := by
    show (S.toXF.numReactions).get? r = _
    simp [Source.toXF, h2, Dict.get?]
  obtain ⟨s4, t4⟩ := two_first pkg t3 (Leads.head (c := (S1, .reacStore (.fin (Pa / p0)) r
    (XF.fin (f r).sum * .fin (Pa / p0)) [])) (by simp only [vstep, hget]) (Leads.refl _))
  -- thread 1 does its work
  have hk1 : Keyed S1 := by
    obtain ⟨k1, k2, k3⟩ := hkey
    exact ⟨by rw [hS1]; simpa only [Dict.keys_modify] using k1, k2, k3⟩
  obtain ⟨s5, t5⟩ := two_second pkg t4 (leads_loop S1 hk1 (.fin (Pb / p0)) [r])
  simp only [List.foldl_cons, List.foldl_nil] at t5
  set S2 := Source.scaleReaction (.fin (Pb / p0)) S1 r with hS2
  -- thread 0 stores the rate it has computed before
  set S3 : Source (XF ℝ) := { S2 with
    numReactions := S2.numReactions.modify r (fun _ => XF.fin (f r).sum * .fin (Pa / p0)) } with hS3
  have hget3 : S3.numNeutrons.get? r = some (.fin ((f r).sum * (r.numNeutrons : ℝ)) * .fin (Pb / p0)) := by
    show (S.toXF.numNeutrons.modify r (· * XF.fin (Pb / p0))).get? r = _
    rw [Dict.get?_modify]
    simp [Source.toXF, h3, Dict.get?]
  set v3 := (XF.fin ((f r).sum * (r.numNeutrons : ℝ)) * .fin (Pb / p0)) * XF.fin (Pa / p0) with hv3
  obtain ⟨s6, t6⟩ := two_first pkg t5 (Leads.head (b := (S3, .neutLoad (.fin (Pa / p0)) r [])) rfl
    (Leads.head (b := (S3, .neutStore (.fin (Pa / p0)) r v3 [])) (by simp only [vstep, hget3, hv3])
      (Leads.head (b := ({ S3 with numNeutrons := S3.numNeutrons.modify r (fun _ => v3) }, .loop (.fin (Pa / p0)) []))
        rfl (Leads.head (b := ({ S3 with numNeutrons := S3.numNeutrons.modify r (fun _ => v3) }, .done)) rfl
          (Leads.refl _)))))
  let S' : Source ℝ := { S with
    strength := [(r, (f r).map (fun v => v * (Pa / p0) * (Pb / p0)))]
    numReactions := [(r, (f r).sum * (Pa / p0))]
    numNeutrons := [(r, (f r).sum * (r.numNeutrons : ℝ) * (Pb / p0) * (Pa / p0))] }
  have efin : ({ S3 with numNeutrons := S3.numNeutrons.modify r (fun _ => v3) } : Source (XF ℝ)) = S'.toXF := by
    simp only [hS3, hS2, hS1, hv3, Source.scaleReaction, Source.toXF, S', h1, h2, h3, Dict.modify, List.map_cons,
      List.map_nil, if_true, List.map_map, Function.comp_def, XF.fin_mul]
  rw [efin] at t6
  refine ⟨s1 ++ s2 ++ s3 ++ s4 ++ s5 ++ s6, S', f r, _, _, ?_, ?_, ?_, rfl, rfl, ?_, ?_, ?_⟩
  · simp [h1, Dict.get?]
  · simp [S', Dict.get?]
  · simp [S', Dict.get?]
  · have e : ((f r).map (fun v => v * (Pa / p0) * (Pb / p0))).sum = (f r).sum * (Pa / p0) * (Pb / p0) := by
      rw [List.sum_map_mul_right, List.sum_map_mul_right, List.map_id']
    rw [e]
    intro h
    have hc : (f r).sum * (Pa / p0) ≠ 0 := mul_ne_zero hsum (div_ne_zero ha hp)
    have h4 : Pb / p0 = 1 := by
      apply mul_left_cancel₀ hc
      linarith
    rw [div_eq_one_iff_eq hp] at h4
    exact hb h4
  · simp only [pool_run_append]; exact t6.2.1
  · simp only [pool_run_append]; exact t6.over

end
end
end TNS
