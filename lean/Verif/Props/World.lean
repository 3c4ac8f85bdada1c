import Verif.Spec.World
import Verif.Props.Special
/-
Property C83: sources are independent objects.
-/

set_option autoImplicit false
set_option linter.unusedSectionVars false

namespace TNS
open Spec
noncomputable section

/-! ### Memory -/

/-- The addresses of a source. -/
def SourceRef.addrs (s : SourceRef) : List ℕ :=
  [s.x, s.z, s.dVolume, s.temperature] ++ s.strength.map Prod.snd

theorem read_append (m e : Arrays) (a : ℕ) (h : a < m.length) :
    Arrays.read (m ++ e) a = m.read a := by
  unfold Arrays.read
  rw [List.getElem?_append_left h]

theorem read_new (m : Arrays) (l : List (XF ℝ)) : Arrays.read (m ++ [l]) m.length = l := by
  simp [Arrays.read]

theorem read_modify_ne (m : Arrays) (a b : ℕ) (f : List (XF ℝ) → List (XF ℝ)) (h : b ≠ a) :
    Arrays.read (m.modify a f) b = m.read b := by
  unfold Arrays.read
  rw [List.getElem?_modify]
  cases m[b]? <;> simp [Ne.symm h]

theorem read_modify_eq (m : Arrays) (a : ℕ) (f : List (XF ℝ) → List (XF ℝ)) (h : a < m.length) :
    Arrays.read (m.modify a f) a = f (m.read a) := by
  unfold Arrays.read
  rw [List.getElem?_modify, List.getElem?_eq_getElem h]
  simp

/-- A source looks the same in two memories that agree at its addresses. -/
theorem view_congr (m m' : Arrays) (s : SourceRef) (h : ∀ a ∈ s.addrs, m'.read a = m.read a) :
    s.view m' = s.view m := by
  unfold SourceRef.view
  have h1 := h s.x (by simp [SourceRef.addrs])
  have h2 := h s.z (by simp [SourceRef.addrs])
  have h3 := h s.dVolume (by simp [SourceRef.addrs])
  have h4 := h s.temperature (by simp [SourceRef.addrs])
  have h5 : s.strength.map (fun p => (p.1, m'.read p.2)) =
      s.strength.map (fun p => (p.1, m.read p.2)) := by
    apply List.map_congr_left
    intro p hp
    rw [h p.2 (by
      simp only [SourceRef.addrs, List.mem_append, List.mem_map]
      exact Or.inr ⟨p, hp, rfl⟩)]
  rw [h1, h2, h3, h4, h5]

theorem Dict.set_self {α β : Type} [DecidableEq α] (d : Dict α β) (k : α) (v : β)
    (hn : d.keys.Nodup) (h : d.get? k = some v) : d.set k v = d := by
  have hmem : ∃ p ∈ d, p.1 = k ∧ p.2 = v := by
    unfold Dict.get? at h
    rw [Option.map_eq_some_iff] at h
    obtain ⟨p, hp, rfl⟩ := h
    exact ⟨p, List.mem_of_find?_eq_some hp, by simpa using List.find?_some hp, rfl⟩
  obtain ⟨p, hp, rfl, rfl⟩ := hmem
  unfold Dict.set
  have : d.any (fun q => decide (q.1 = p.1)) = true := by
    rw [List.any_eq_true]; exact ⟨p, hp, by simp⟩
  rw [if_pos this]
  conv_rhs => rw [← List.map_id d]
  apply List.map_congr_left
  intro q hq
  split_ifs with e
  · have : q = p := List.inj_on_of_nodup_map hn hq hp e
    simp [this]
  · rfl

theorem Dict.mem_of_get? {α β : Type} [DecidableEq α] (d : Dict α β) (k : α) (v : β)
    (h : d.get? k = some v) : (k, v) ∈ d := by
  unfold Dict.get? at h
  rw [Option.map_eq_some_iff] at h
  obtain ⟨p, hp, rfl⟩ := h
  have : p.1 = k := by simpa using List.find?_some hp
  exact this ▸ List.mem_of_find?_eq_some hp

theorem Dict.modify_of_not_mem {α β : Type} [DecidableEq α] (d : Dict α β) (k : α) (f : β → β)
    (h : k ∉ d.keys) : d.modify k f = d := by
  unfold Dict.modify
  conv_rhs => rw [← List.map_id d]
  apply List.map_congr_left
  intro p hp
  have : ¬ p.1 = k := fun e => h (by rw [← e]; exact List.mem_map_of_mem hp)
  simp [this]

theorem view_keys (m : Arrays) (s : SourceRef) : (s.view m).strength.keys = s.strength.keys := by
  simp [SourceRef.view, Dict.keys, Function.comp_def]

/-- Writing into the array of channel `r` is seen as a change of that channel and of nothing else. -/
theorem view_modify (m : Arrays) (s : SourceRef) (r : Reaction) (a : ℕ)
    (f : List (XF ℝ) → List (XF ℝ)) (hn : s.addrs.Nodup) (hb : a < m.length)
    (hk : s.strength.keys.Nodup) (h : s.strength.get? r = some a) :
    s.view (m.modify a f) = { s.view m with strength := (s.view m).strength.modify r f } := by
  have hra := Dict.mem_of_get? _ _ _ h
  have hmem : a ∈ s.strength.map Prod.snd := List.mem_map_of_mem hra
  unfold SourceRef.addrs at hn
  rw [List.nodup_append] at hn
  obtain ⟨_, hn2, hn3⟩ := hn
  have ne : ∀ b ∈ [s.x, s.z, s.dVolume, s.temperature], b ≠ a := fun b hb' => hn3 b hb' a hmem
  unfold SourceRef.view
  simp only [read_modify_ne m a s.x f (ne _ (by simp)), read_modify_ne m a s.z f (ne _ (by simp)),
    read_modify_ne m a s.dVolume f (ne _ (by simp)),
    read_modify_ne m a s.temperature f (ne _ (by simp))]
  have : s.strength.map (fun p => (p.1, Arrays.read (m.modify a f) p.2)) =
      Dict.modify (s.strength.map (fun p => (p.1, m.read p.2))) r f := by
    unfold Dict.modify
    rw [List.map_map]
    apply List.map_congr_left
    intro p hp
    simp only [Function.comp_apply]
    split_ifs with e
    · have : p = (r, a) := List.inj_on_of_nodup_map hk hp hra e
      subst this
      rw [read_modify_eq m _ f hb]
    · have : p.2 ≠ a := by
        intro e2
        have : p = (r, a) := List.inj_on_of_nodup_map hn2 hp hra e2
        exact e (by rw [this])
      rw [read_modify_ne m a p.2 f this]
  rw [this]

/-! ### Normalisation in place -/

theorem world_totalPower (Q : Reaction → XF ℝ) (m : Arrays) (s : SourceRef) :
    s.totalPower Q m = (s.view m).totalPower Q := by
  unfold SourceRef.totalPower Source.totalPower
  refine congrArg List.sum (List.map_congr_left fun r _ => ?_)
  simp only [SourceRef.view, Dict.getD, Dict.get?_mapVal s.strength (fun a => m.read a)]
  cases s.strength.get? r <;> rfl

/-- What the normalisation loop guarantees, after any number of iterations. -/
theorem scale_loop (f : XF ℝ) (l : List Reaction) (m : Arrays) (s : SourceRef)
    (hn : s.addrs.Nodup) (hb : ∀ a ∈ s.addrs, a < m.length) (hk : s.strength.keys.Nodup)
    (hl : ∀ r ∈ l, r ∈ s.strength.keys) :
    let st := l.foldl (SourceRef.scaleReaction f) (m, s)
    st.2.view st.1 = l.foldl (Source.scaleReaction f) (s.view m) ∧
    st.2.addrs = s.addrs ∧ st.2.strength = s.strength ∧ st.2.sourceType = s.sourceType ∧
    st.1.length = m.length ∧ ∀ b, b ∉ s.addrs → st.1.read b = m.read b := by
  induction l generalizing m s with
  | nil => simp
  | cons r l ih =>
    intro st
    obtain ⟨a, ha⟩ := Dict.get?_eq_some_of_mem_keys _ _ (hl r List.mem_cons_self)
    have hra := Dict.mem_of_get? _ _ _ ha
    have haddr : a ∈ s.addrs := by
      simp only [SourceRef.addrs, List.mem_append]
      exact Or.inr (List.mem_map_of_mem (f := Prod.snd) hra)
    have e : SourceRef.scaleReaction f (m, s) r =
        (m.modify a (fun l => l.map (· * f)),
          { s with
            numReactions := s.numReactions.modify r (· * f)
            numNeutrons := s.numNeutrons.modify r (· * f) }) := by
      unfold SourceRef.scaleReaction
      simp only [ha]
      rw [Dict.set_self _ _ _ hk ha]
    have hst : st = l.foldl (SourceRef.scaleReaction f) (SourceRef.scaleReaction f (m, s) r) := rfl
    rw [hst, e]
    set s' : SourceRef := { s with
            numReactions := s.numReactions.modify r (· * f)
            numNeutrons := s.numNeutrons.modify r (· * f) } with hs'
    obtain ⟨i1, i2, i3, i4, i5, i6⟩ := ih (m.modify a (fun l => l.map (· * f))) s' hn
      (fun b hb' => by rw [List.length_modify]; exact hb b hb') hk
      (fun q hq => hl q (List.mem_cons_of_mem _ hq))
    refine ⟨?_, i2, i3, i4, by rw [i5, List.length_modify], fun b hb' => ?_⟩
    · rw [i1]
      have : s'.view (m.modify a (fun l => l.map (· * f))) =
          Source.scaleReaction f (s.view m) r := by
        rw [view_modify m s' r a _ hn (hb a haddr) hk ha]
        rfl
      rw [this]
      rfl
    · rw [i6 b hb', read_modify_ne]
      intro e
      exact hb' (e ▸ haddr)

/-! ### The constructor -/

section build
variable (sv : Reaction → List ℝ → Except Err (List ℝ)) (temp d t h dV : List ℝ)

/-- The object under construction in memory `m`, `m0` being the memory before. -/
structure Building (m0 m : Arrays) (s : SourceRef) (S : Source ℝ) : Prop where
  ext : ∃ e, m = m0 ++ e
  view : s.view m = S.toXF
  nodup : s.addrs.Nodup
  bounds : ∀ a ∈ s.addrs, m0.length ≤ a ∧ a < m.length

theorem view_strength_keys {m : Arrays} {s : SourceRef} {S : Source ℝ} (h : s.view m = S.toXF) :
    s.strength.keys = S.strength.keys := by
  rw [← view_keys m s, h]
  simp [Source.toXF, Dict.keys, Function.comp_def]

theorem build_step (m0 m : Arrays) (s : SourceRef) (S : Source ℝ) (r : Reaction)
    (H : Building m0 m s S) (hT : S.temperature = temp) (hV : S.dVolume = dV)
    (hr : r ∉ S.strength.keys) (hr2 : r ∉ S.numReactions.keys) (hr3 : r ∉ S.numNeutrons.keys) :
    match Source.addReaction sv d t h S r with
    | .error e => SourceRef.addReaction sv temp d t h dV (m, s) r = .error e
    | .ok S' => ∃ m' s', SourceRef.addReaction sv temp d t h dV (m, s) r = .ok (m', s') ∧
        Building m0 m' s' S' ∧ S'.temperature = temp ∧ S'.dVolume = dV ∧
        S'.strength.keys = S.strength.keys ++ [r] ∧
        S'.numReactions.keys = S.numReactions.keys ++ [r] ∧
        S'.numNeutrons.keys = S.numNeutrons.keys ++ [r] := by
  unfold Source.addReaction SourceRef.addReaction
  simp only [Bind.bind, Except.bind]
  rw [hT]
  cases e : densityWeightedReactivity sv temp d t h r with
  | error x => rfl
  | ok w =>
    simp only [hV]
    obtain ⟨⟨ex, hex⟩, hview, hnd, hbd⟩ := H
    set str := List.zipWith (· * ·) w dV with hstr
    have hk1 : r ∉ s.strength.keys := by rwa [view_strength_keys hview]
    have hk2 : s.numReactions = S.toXF.numReactions := congrArg Source.numReactions hview
    have hk3 : s.numNeutrons = S.toXF.numNeutrons := congrArg Source.numNeutrons hview
    have hk2' : r ∉ s.numReactions.keys := by
      rw [hk2]; simpa [Source.toXF, Dict.keys, Function.comp_def] using hr2
    have hk3' : r ∉ s.numNeutrons.keys := by
      rw [hk3]; simpa [Source.toXF, Dict.keys, Function.comp_def] using hr3
    refine ⟨_, _, rfl, ⟨⟨ex ++ [str.map XF.fin], ?_⟩, ?_, ?_, ?_⟩, ?_, ?_, ?_, ?_, ?_⟩
    · simp only [Arrays.new, hex, List.append_assoc]
    · have hv : s.view (m ++ [str.map XF.fin]) = S.toXF := by
        rw [← hview]
        exact view_congr _ _ _ (fun a ha => read_append _ _ _ (hbd a ha).2)
      rw [Dict.set_of_not_mem _ _ _ hk1, Dict.set_of_not_mem _ _ _ hk2',
        Dict.set_of_not_mem _ _ _ hk3', Dict.set_of_not_mem _ _ _ hr,
        Dict.set_of_not_mem _ _ _ hr2, Dict.set_of_not_mem _ _ _ hr3]
      have p1 := congrArg Source.sourceType hv
      have p2 := congrArg Source.x hv
      have p3 := congrArg Source.z hv
      have p4 := congrArg Source.dVolume hv
      have p5 := congrArg Source.cellSideLength hv
      have p6 := congrArg Source.temperature hv
      have p7 := congrArg Source.strength hv
      simp only [SourceRef.view, Source.toXF] at p1 p2 p3 p4 p5 p6 p7
      simp only [SourceRef.view, Source.toXF, Arrays.new, List.map_append, List.map_cons,
        List.map_nil, read_new]
      rw [p1, p2, p3, p4, p5, p6, p7, hk2, hk3]
      simp [Source.toXF, hV, hT]
    · simp only [SourceRef.addrs, Arrays.new] at hnd hbd ⊢
      rw [Dict.set_of_not_mem _ _ _ hk1, List.map_append, ← List.append_assoc]
      rw [List.nodup_append]
      refine ⟨hnd, by simp, ?_⟩
      intro a ha b hb
      simp only [List.map_cons, List.map_nil, List.mem_singleton] at hb
      have := (hbd a ha).2
      omega
    · simp only [SourceRef.addrs, Arrays.new] at hbd ⊢
      rw [Dict.set_of_not_mem _ _ _ hk1, List.map_append, ← List.append_assoc]
      intro a ha
      have hle : m0.length ≤ m.length := by rw [hex]; simp
      rcases List.mem_append.1 ha with ha | ha
      · have := hbd a ha
        simp only [List.length_append, List.length_singleton]
        omega
      · simp only [List.map_cons, List.map_nil, List.mem_singleton] at ha
        simp only [List.length_append, List.length_singleton]
        omega
    · trivial
    · trivial
    · rw [Dict.set_of_not_mem _ _ _ hr, Dict.keys_append]; rfl
    · rw [Dict.set_of_not_mem _ _ _ hr2, Dict.keys_append]; rfl
    · rw [Dict.set_of_not_mem _ _ _ hr3, Dict.keys_append]; rfl

theorem build_loop (m0 : Arrays) (l : List Reaction) (hl : l.Nodup) (m : Arrays) (s : SourceRef)
    (S : Source ℝ) (H : Building m0 m s S) (hT : S.temperature = temp) (hV : S.dVolume = dV)
    (hr : ∀ r ∈ l, r ∉ S.strength.keys) (hr2 : ∀ r ∈ l, r ∉ S.numReactions.keys)
    (hr3 : ∀ r ∈ l, r ∉ S.numNeutrons.keys) :
    match l.foldlM (Source.addReaction sv d t h) S with
    | .error e => l.foldlM (SourceRef.addReaction sv temp d t h dV) (m, s) = .error e
    | .ok S' => ∃ m' s', l.foldlM (SourceRef.addReaction sv temp d t h dV) (m, s) = .ok (m', s') ∧
        Building m0 m' s' S' := by
  induction l generalizing m s S with
  | nil => exact ⟨m, s, rfl, H⟩
  | cons r l ih =>
    rw [List.nodup_cons] at hl
    have step := build_step sv temp d t h dV m0 m s S r H hT hV (hr r List.mem_cons_self)
      (hr2 r List.mem_cons_self) (hr3 r List.mem_cons_self)
    rw [List.foldlM_cons, List.foldlM_cons]
    cases e : Source.addReaction sv d t h S r with
    | error x =>
      rw [e] at step
      simp only [Bind.bind, Except.bind, step]
    | ok S1 =>
      rw [e] at step
      obtain ⟨m1, s1, e1, H1, t1, v1, k1, k2, k3⟩ := step
      rw [e1]
      have aux : ∀ (K K' : List Reaction), K' = K ++ [r] → (∀ q ∈ r :: l, q ∉ K) →
          ∀ q ∈ l, q ∉ K' := by
        rintro K K' rfl hK q hq hmem
        rcases List.mem_append.1 hmem with hmem | hmem
        · exact hK q (List.mem_cons_of_mem _ hq) hmem
        · rw [List.mem_singleton] at hmem
          exact hl.1 (hmem ▸ hq)
      exact ih hl.2 m1 s1 S1 H1 t1 v1 (aux _ _ k1 hr) (aux _ _ k2 hr2) (aux _ _ k3 hr3)

end build

/-- The constructor without a power. -/
theorem init_world (pkg : Package) (m : Arrays) (tr : TransportView ℝ) (fm : FluxMapView ℝ)
    (arg : SourceArg) (L : ℝ) (method : ReactivityMethod) :
    match Source.init pkg.pi pkg.energy (pkg.reactivity method) tr fm arg L none with
    | .error e => ∀ power, SourceRef.init pkg m tr fm arg L power method = .error e
    | .ok S => ∃ m' s', Building m m' s' S ∧ ∀ power,
        SourceRef.init pkg m tr fm arg L power method =
          match power with
          | none => .ok (m', s')
          | some P => SourceRef.normalise (fun r => .fin (pkg.energy r)) (.fin P) m' s' := by
  unfold Source.init SourceRef.init
  simp only [Bind.bind, Except.bind]
  cases e1 : parseSourceType arg with
  | error x => intro power; rfl
  | ok st =>
  simp only
  generalize sampleSpace2d pkg.pi fm.lcfsX fm.lcfsZ fm.inside fm.oX fm.oZ L = smp
  generalize List.zipWith fm.psiNorm smp.x smp.z = psi
  cases e2 : psi.mapM tr.temperature with
  | error x => intro power; rfl
  | ok temp =>
  cases e3 : psi.mapM tr.deuterium with
  | error x => intro power; rfl
  | ok d =>
  cases e4 : psi.mapM tr.tritium with
  | error x => intro power; rfl
  | ok t =>
  cases e5 : psi.mapM tr.helium3 with
  | error x => intro power; rfl
  | ok he =>
  simp only
  have H := build_loop (pkg.reactivity method) temp d t he smp.dVolume m st (parse_nodup e1)
    (((((m.new smp.x).1.new smp.z).1.new smp.dVolume).1.new temp).1)
    { sourceType := st, x := (m.new smp.x).2, z := ((m.new smp.x).1.new smp.z).2,
      dVolume := (((m.new smp.x).1.new smp.z).1.new smp.dVolume).2, cellSideLength := .fin L,
      temperature := ((((m.new smp.x).1.new smp.z).1.new smp.dVolume).1.new temp).2,
      strength := [], numReactions := [], numNeutrons := [] }
    { sourceType := st, x := smp.x, z := smp.z, dVolume := smp.dVolume, cellSideLength := L,
      temperature := temp, strength := [], numReactions := [], numNeutrons := [] }
    (by
      refine ⟨⟨[smp.x.map XF.fin, smp.z.map XF.fin, smp.dVolume.map XF.fin, temp.map XF.fin], ?_⟩,
        ?_, ?_, ?_⟩
      · simp [Arrays.new]
      · simp [SourceRef.view, Source.toXF, Arrays.new, Arrays.read, List.getElem?_append]
      · simp [SourceRef.addrs, Arrays.new]
      · simp [SourceRef.addrs, Arrays.new])
    rfl rfl (by simp [Dict.keys]) (by simp [Dict.keys]) (by simp [Dict.keys])
  revert H
  generalize st.foldlM (Source.addReaction (pkg.reactivity method) d t he) _ = A
  generalize st.foldlM (SourceRef.addReaction (pkg.reactivity method) temp d t he smp.dVolume) _ = B
  intro H
  cases A with
  | error x =>
    simp only at H
    subst H
    intro power; rfl
  | ok S =>
    obtain ⟨m', s', rfl, hB⟩ := H
    exact ⟨m', s', hB, fun power => by cases power <;> rfl⟩

/-! ### Programs -/

/-- All addresses held by sources. -/
def World.addrs (w : World) : List ℕ := w.sources.flatMap SourceRef.addrs

/-- No two attributes of no two sources share an array. -/
structure World.Inv (w : World) : Prop where
  nodup : w.addrs.Nodup
  bounds : ∀ a ∈ w.addrs, a < w.arrays.length
  keys : ∀ s ∈ w.sources, s.strength.keys = s.sourceType
  types : ∀ s ∈ w.sources, s.sourceType.Nodup

theorem World.Inv.source {w : World} (hw : w.Inv) {j : ℕ} {s : SourceRef} (h : w.sources[j]? = some s) :
    s.addrs.Nodup ∧ (∀ a ∈ s.addrs, a < w.arrays.length) ∧ s.strength.keys = s.sourceType ∧
      s.strength.keys.Nodup := by
  have hm := List.mem_of_getElem? h
  refine ⟨?_, fun a ha => hw.bounds a (List.mem_flatMap.2 ⟨s, hm, ha⟩), hw.keys s hm,
    by rw [hw.keys s hm]; exact hw.types s hm⟩
  exact (List.nodup_flatMap.1 hw.nodup).1 s hm

theorem World.Inv.disjoint {w : World} (hw : w.Inv) {j k : ℕ} {s s' : SourceRef} (hjk : j ≠ k)
    (h : w.sources[j]? = some s) (h' : w.sources[k]? = some s') :
    ∀ a ∈ s.addrs, a ∉ s'.addrs := by
  have hp := (List.nodup_flatMap.1 hw.nodup).2
  rw [List.pairwise_iff_getElem] at hp
  obtain ⟨hj, ej⟩ := List.getElem?_eq_some_iff.1 h
  obtain ⟨hk, ek⟩ := List.getElem?_eq_some_iff.1 h'
  intro a ha ha'
  rcases Nat.lt_or_gt_of_ne hjk with hlt | hlt
  · have := hp j k hj hk hlt
    simp only [Function.onFun, ej, ek] at this
    exact this ha ha'
  · have := hp k j hk hj hlt
    simp only [Function.onFun, ej, ek] at this
    exact this ha' ha

/-- Replacing a source by one with the same addresses, keys and channels keeps the invariant. -/
theorem World.Inv.replace {w : World} (hw : w.Inv) {j : ℕ} {s s' : SourceRef} {m : Arrays}
    (h : w.sources[j]? = some s) (ha : s'.addrs = s.addrs) (hk : s'.strength = s.strength)
    (ht : s'.sourceType = s.sourceType) (hm : m.length = w.arrays.length) :
    World.Inv { w with arrays := m, sources := w.sources.set j s' } := by
  have e : (w.sources.set j s').flatMap SourceRef.addrs = w.addrs := by
    unfold World.addrs
    rw [List.flatMap_def, List.flatMap_def, List.map_set, ha]
    congr 1
    obtain ⟨hj, ej⟩ := List.getElem?_eq_some_iff.1 h
    apply List.ext_getElem (by simp)
    intro i h1 h2
    rw [List.getElem_set]
    split_ifs with hi
    · subst hi; simp [ej]
    · rfl
  have hmem : ∀ q ∈ w.sources.set j s', q ∈ w.sources ∨ q = s' := fun q hq =>
    List.mem_or_eq_of_mem_set hq
  have hs := List.mem_of_getElem? h
  refine ⟨by rw [World.addrs, e]; exact hw.nodup, ?_, ?_, ?_⟩
  · intro a h'
    rw [World.addrs, e] at h'
    show a < m.length
    rw [hm]; exact hw.bounds a h'
  · intro q hq
    rcases hmem q hq with hq | rfl
    · exact hw.keys q hq
    · rw [hk, ht]; exact hw.keys s hs
  · intro q hq
    rcases hmem q hq with hq | rfl
    · exact hw.types q hq
    · rw [ht]; exact hw.types s hs

/-- The effect of normalisation on the object in memory. -/
theorem normalise_world (Q : Reaction → XF ℝ) (P : XF ℝ) (m : Arrays) (s : SourceRef)
    (hn : s.addrs.Nodup) (hb : ∀ a ∈ s.addrs, a < m.length) (hk : s.strength.keys = s.sourceType)
    (hk' : s.strength.keys.Nodup) :
    match (s.view m).normaliseRaw Q P with
    | .error e => s.normalise Q P m = .error e
    | .ok S => ∃ m' s', s.normalise Q P m = .ok (m', s') ∧ s'.view m' = S ∧
        s'.addrs = s.addrs ∧ s'.strength = s.strength ∧ s'.sourceType = s.sourceType ∧
        m'.length = m.length ∧ ∀ b, b ∉ s.addrs → m'.read b = m.read b := by
  unfold Source.normaliseRaw SourceRef.normalise
  have ht : (s.view m).sourceType = s.sourceType := rfl
  rw [ht]
  by_cases h : s.sourceType = []
  · rw [if_pos h, if_pos h]
  · rw [if_neg h, if_neg h]
    rw [world_totalPower]
    obtain ⟨h1, h2, h3, h4, h5, h6⟩ := scale_loop (P / (s.view m).totalPower Q) s.sourceType m s
      hn hb hk' (fun r hr => by rw [hk]; exact hr)
    exact ⟨_, _, rfl, h1, h2, h3, h4, h5, h6⟩

/-- Reading the attributes of a source when memory was only added to. -/
theorem source_append (w : World) (hw : w.Inv) (m : Arrays) (q : SourceRef) (j : ℕ)
    (hm : ∀ a, a < w.arrays.length → m.read a = w.arrays.read a) (hj : j < w.sources.length) :
    World.source? { w with arrays := m, sources := w.sources ++ [q] } j = w.source? j := by
  unfold World.source?
  simp only [List.getElem?_append_left hj]
  obtain ⟨s, hs⟩ : ∃ s, w.sources[j]? = some s := ⟨_, List.getElem?_eq_getElem hj⟩
  rw [hs]
  simp only [Option.map_some, Option.some.injEq]
  obtain ⟨_, h2, _, _⟩ := hw.source hs
  exact view_congr _ _ _ (fun a ha => hm a (h2 a ha))

theorem World.Inv.append {w : World} (hw : w.Inv) (m : Arrays) (q : SourceRef)
    (hm : w.arrays.length ≤ m.length) (hq : q.addrs.Nodup)
    (hb : ∀ a ∈ q.addrs, w.arrays.length ≤ a ∧ a < m.length)
    (hk : q.strength.keys = q.sourceType) (ht : q.sourceType.Nodup) :
    World.Inv { w with arrays := m, sources := w.sources ++ [q] } := by
  have e : (w.sources ++ [q]).flatMap SourceRef.addrs = w.addrs ++ q.addrs := by
    simp [World.addrs, List.flatMap_append]
  refine ⟨?_, ?_, ?_, ?_⟩
  · rw [World.addrs, e, List.nodup_append]
    refine ⟨hw.nodup, hq, fun a ha b hb' => ?_⟩
    have h1 := hw.bounds a ha
    have h2 := (hb b hb').1
    omega
  · intro a ha
    rw [World.addrs, e] at ha
    show a < m.length
    rcases List.mem_append.1 ha with ha | ha
    · exact lt_of_lt_of_le (hw.bounds a ha) hm
    · exact (hb a ha).2
  · intro s hs
    rcases List.mem_append.1 hs with hs | hs
    · exact hw.keys s hs
    · rw [List.mem_singleton] at hs; subst hs; exact hk
  · intro s hs
    rcases List.mem_append.1 hs with hs | hs
    · exact hw.types s hs
    · rw [List.mem_singleton] at hs; subst hs; exact ht

/-- The calls on source `j` among one operation, applied. -/
def applyCalls (pkg : Package) (calls : List Call) (S : Source (XF ℝ)) : Source (XF ℝ) :=
  calls.foldl (Call.apply pkg.energy) S

/-- A construction: what it does to the memory. -/
theorem construct_world (pkg : Package) (w : World) (hw : w.Inv) (tr : Transport)
    (fm : FluxMapView ℝ) (arg : SourceArg) (L : ℝ) (power : Option ℝ) (method : ReactivityMethod) :
    match built pkg tr fm arg L method with
    | .error e => SourceRef.init pkg w.arrays tr.view fm arg L power method = .error e
    | .ok S =>
      if power = none ∨ S.sourceType ≠ [] then
        ∃ m q, SourceRef.init pkg w.arrays tr.view fm arg L power method = .ok (m, q) ∧
          World.Inv { w with arrays := m, sources := w.sources ++ [q] } ∧
          q.view m = applyCalls pkg (power.toList.map Call.normalise) S.toXF ∧
          ∀ a, a < w.arrays.length → m.read a = w.arrays.read a
      else SourceRef.init pkg w.arrays tr.view fm arg L power method = .error .zeroDivisionError := by
  have H := init_world pkg w.arrays tr.view fm arg L method
  unfold built
  cases e : Source.init pkg.pi pkg.energy (pkg.reactivity method) tr.view fm arg L none with
  | error x => rw [e] at H; exact H power
  | ok S =>
    rw [e] at H
    obtain ⟨m, s, hB, hp⟩ := H
    simp only
    rw [hp power]
    obtain ⟨_, _, _, _, f, hS⟩ := Source.init_none e
    obtain ⟨-, -, -, -, -, -, -, -, -, -, ⟨hnd, hst, -, -⟩, -⟩ := hS
    obtain ⟨⟨ex, hex⟩, hview, hn, hb⟩ := hB
    have htype : s.sourceType = S.sourceType := congrArg Source.sourceType hview
    have hkeys : s.strength.keys = s.sourceType := by
      rw [view_strength_keys hview, htype, hst]; simp [Dict.keys, Function.comp_def]
    have hold : ∀ a, a < w.arrays.length → m.read a = w.arrays.read a := fun a ha => by
      rw [hex]; exact read_append _ _ _ ha
    cases power with
    | none =>
      rw [if_pos (Or.inl rfl)]
      refine ⟨m, s, rfl, ?_, by rw [hview]; rfl, hold⟩
      exact hw.append m s (by rw [hex]; simp) hn hb hkeys (htype ▸ hnd)
    | some P =>
      have hN := normalise_world (fun r => .fin (pkg.energy r)) (.fin P) m s hn
        (fun a ha => (hb a ha).2) hkeys (by rw [hkeys, htype]; exact hnd)
      simp only
      by_cases hz : S.sourceType = []
      · rw [if_neg (by simp [hz])]
        unfold SourceRef.normalise
        rw [if_pos (htype.trans hz)]
      · rw [if_pos (Or.inr hz)]
        cases e2 : (s.view m).normaliseRaw (fun r => XF.fin (pkg.energy r)) (.fin P) with
        | error x =>
          exfalso
          unfold Source.normaliseRaw at e2
          rw [if_neg (by rw [hview]; exact hz)] at e2
          cases e2
        | ok S2 =>
          rw [e2] at hN
          obtain ⟨m', s', e3, v, a1, a2, a3, a4, a5⟩ := hN
          refine ⟨m', s', e3, ?_, ?_, ?_⟩
          · refine hw.append m' s' (by rw [a4, hex]; simp) (a1 ▸ hn) (fun a ha => ?_) ?_ ?_
            · rw [a1] at ha; rw [a4]; exact hb a ha
            · rw [a2, a3]; exact hkeys
            · rw [a3, htype]; exact hnd
          · rw [v]
            simp only [applyCalls, Option.toList, List.map_cons, List.map_nil, List.foldl_cons,
              List.foldl_nil, Call.apply]
            rw [← hview, e2]
          · intro a ha
            rw [a5 a (fun hmem => by have := (hb a hmem).1; omega)]
            exact hold a ha

theorem callsOn_append (j : ℕ) (l l' : List Op) :
    callsOn j (l ++ l') = callsOn j l ++ callsOn j l' := by
  induction l with
  | nil => rfl
  | cons op l ih =>
    cases op <;> simp only [List.cons_append, callsOn, ih]
    all_goals split_ifs <;> simp

/-- The objects other than sources do not touch sources. -/
theorem exec_keeps {w w' : World} (h1 : w'.arrays = w.arrays) (h2 : w'.sources = w.sources)
    (hw : w.Inv) : w'.Inv ∧ ∀ j, w'.source? j = w.source? j := by
  refine ⟨⟨?_, ?_, ?_, ?_⟩, fun j => by unfold World.source?; rw [h1, h2]⟩
  · unfold World.addrs; rw [h2]; exact hw.nodup
  · unfold World.addrs; rw [h1, h2]; exact hw.bounds
  · rw [h2]; exact hw.keys
  · rw [h2]; exact hw.types

/-- One call, on a source that exists already. -/
theorem step_old (pkg : Package) (w : World) (hw : w.Inv) (op : Op) :
    (w.step pkg op).Inv ∧
    (∀ j, j < w.sources.length → (w.step pkg op).source? j =
      (w.source? j).map (applyCalls pkg (callsOn j [op]))) ∧
    w.sources.length ≤ (w.step pkg op).sources.length := by
  have triv : ∀ w' : World, w'.arrays = w.arrays → w'.sources = w.sources →
      (∀ j, callsOn j [op] = []) →
      w'.Inv ∧ (∀ j, j < w.sources.length → w'.source? j =
        (w.source? j).map (applyCalls pkg (callsOn j [op]))) ∧
      w.sources.length ≤ w'.sources.length := by
    intro w' h1 h2 h3
    obtain ⟨i1, i2⟩ := exec_keeps h1 h2 hw
    refine ⟨i1, fun j _ => ?_, by rw [h2]⟩
    rw [i2, h3]
    cases w.source? j <;> rfl
  cases op with
  | newProfile p => exact triv _ rfl rfl (fun _ => rfl)
  | setScale i c => exact triv _ rfl rfl (fun _ => rfl)
  | newTransport tr => exact triv _ rfl rfl (fun _ => rfl)
  | newMap fm => exact triv _ rfl rfl (fun _ => rfl)
  | fromParameterisations temp fuel c =>
    simp only [World.step, World.exec]
    cases TNS.fromParameterisations w.profiles temp fuel c with
    | none => exact triv _ rfl rfl (fun _ => rfl)
    | some p => obtain ⟨h, t⟩ := p; exact triv _ rfl rfl (fun _ => rfl)
  | construct t k arg L power method =>
    simp only [World.step, World.exec]
    cases e1 : w.transports[t]?.bind (TransportRef.read w.profiles) with
    | none => exact triv _ rfl rfl (fun _ => rfl)
    | some tr =>
    cases e2 : w.maps[k]? with
    | none => exact triv _ rfl rfl (fun _ => rfl)
    | some fm =>
      simp only [Bind.bind, Except.bind]
      have H := construct_world pkg w hw tr fm arg L power method
      cases e3 : SourceRef.init pkg w.arrays tr.view fm arg L power method with
      | error x => exact triv _ rfl rfl (fun _ => rfl)
      | ok st =>
        rw [e3] at H
        cases e4 : built pkg tr fm arg L method with
        | error x => rw [e4] at H; cases H
        | ok S =>
          rw [e4] at H
          simp only at H
          by_cases hc : power = none ∨ S.sourceType ≠ []
          · rw [if_pos hc] at H
            obtain ⟨m, q, h1, h2, h3, h4⟩ := H
            cases h1
            refine ⟨h2, fun j hj => ?_, by simp⟩
            refine (source_append w hw m q j h4 hj).trans ?_
            simp only [callsOn, applyCalls, List.foldl_nil]
            cases w.source? j <;> rfl
          · rw [if_neg hc] at H; cases H
  | normalise k P =>
    simp only [World.step, World.exec]
    cases e1 : w.sources[k]? with
    | none =>
      refine ⟨hw, fun j hj => ?_, le_rfl⟩
      have : k ≠ j := by
        rintro rfl
        rw [List.getElem?_eq_getElem hj] at e1
        cases e1
      simp only [callsOn, if_neg this, applyCalls, List.foldl_nil]
      cases w.source? j <;> rfl
    | some s =>
      obtain ⟨n1, n2, n3, n4⟩ := hw.source e1
      have hN := normalise_world (fun r => .fin (pkg.energy r)) (.fin P) w.arrays s n1 n2 n3 n4
      have hsrc : w.source? k = some (s.view w.arrays) := by
        unfold World.source?; rw [e1]; rfl
      simp only [Bind.bind, Except.bind]
      cases e2 : (s.view w.arrays).normaliseRaw (fun r => XF.fin (pkg.energy r)) (.fin P) with
      | error x =>
        rw [e2] at hN
        rw [hN]
        refine ⟨hw, fun j hj => ?_, le_rfl⟩
        by_cases hjk : k = j
        · subst hjk
          simp only [callsOn, if_true, applyCalls, List.foldl_cons, List.foldl_nil, hsrc,
            Option.map_some, Call.apply, e2]
        · simp only [callsOn, if_neg hjk, applyCalls, List.foldl_nil]
          cases w.source? j <;> rfl
      | ok S =>
        rw [e2] at hN
        obtain ⟨m', s', e3, v, a1, a2, a3, a4, a5⟩ := hN
        rw [e3]
        refine ⟨hw.replace e1 a1 a2 a3 a4, fun j hj => ?_, by simp⟩
        by_cases hjk : k = j
        · subst hjk
          simp only [callsOn, if_true, applyCalls, List.foldl_cons, List.foldl_nil, hsrc,
            Option.map_some, Call.apply, e2]
          unfold World.source?
          simp only [List.getElem?_set_self hj, Option.map_some, v]
        · simp only [callsOn, if_neg hjk, applyCalls, List.foldl_nil]
          have hs2 : ∃ s2, w.sources[j]? = some s2 := ⟨_, List.getElem?_eq_getElem hj⟩
          obtain ⟨s2, hs2⟩ := hs2
          unfold World.source?
          simp only [List.getElem?_set_ne hjk, hs2, Option.map_some, Option.some.injEq]
          exact view_congr _ _ _ (fun a ha => a5 a
            (hw.disjoint (Ne.symm hjk) hs2 e1 a ha))
  | write k r i v =>
    simp only [World.step, World.exec]
    cases e1 : w.sources[k]? with
    | none =>
      simp only [Option.bind_none]
      refine ⟨hw, fun j hj => ?_, le_rfl⟩
      have : k ≠ j := by
        rintro rfl
        rw [List.getElem?_eq_getElem hj] at e1
        cases e1
      simp only [callsOn, if_neg this, applyCalls, List.foldl_nil]
      cases w.source? j <;> rfl
    | some s =>
      obtain ⟨n1, n2, n3, n4⟩ := hw.source e1
      have hsrc : w.source? k = some (s.view w.arrays) := by
        unfold World.source?; rw [e1]; rfl
      simp only [Option.bind_some]
      cases e2 : s.strength.get? r with
      | none =>
        refine ⟨hw, fun j hj => ?_, le_rfl⟩
        by_cases hjk : k = j
        · subst hjk
          simp only [callsOn, if_true, applyCalls, List.foldl_cons, List.foldl_nil, hsrc,
            Option.map_some, Call.apply]
          rw [Dict.modify_of_not_mem]
          rw [view_keys]
          intro hmem
          obtain ⟨v, hv⟩ := Dict.get?_eq_some_of_mem_keys _ _ hmem
          rw [e2] at hv; cases hv
        · simp only [callsOn, if_neg hjk, applyCalls, List.foldl_nil]
          cases w.source? j <;> rfl
      | some a =>
        have hra := Dict.mem_of_get? _ _ _ e2
        have haddr : a ∈ s.addrs := by
          simp only [SourceRef.addrs, List.mem_append]
          exact Or.inr (List.mem_map_of_mem (f := Prod.snd) hra)
        have hview := view_modify w.arrays s r a (fun l => l.set i v) n1 (n2 a haddr) n4 e2
        simp only
        split_ifs with hi
        · refine ⟨⟨hw.nodup, fun b hb => ?_, hw.keys, hw.types⟩, fun j hj => ?_, le_rfl⟩
          · show b < (w.arrays.modify a _).length
            rw [List.length_modify]; exact hw.bounds b hb
          · by_cases hjk : k = j
            · subst hjk
              simp only [callsOn, if_true, applyCalls, List.foldl_cons, List.foldl_nil, hsrc,
                Option.map_some, Call.apply]
              unfold World.source?
              simp only [e1, Option.map_some, hview]
            · simp only [callsOn, if_neg hjk, applyCalls, List.foldl_nil]
              obtain ⟨s2, hs2⟩ : ∃ s2, w.sources[j]? = some s2 := ⟨_, List.getElem?_eq_getElem hj⟩
              unfold World.source?
              simp only [hs2, Option.map_some, Option.some.injEq]
              refine view_congr _ _ _ (fun b hb => read_modify_ne _ _ _ _ ?_)
              rintro rfl
              exact hw.disjoint (Ne.symm hjk) hs2 e1 b hb haddr
        · refine ⟨hw, fun j hj => ?_, le_rfl⟩
          by_cases hjk : k = j
          · subst hjk
            simp only [callsOn, if_true, applyCalls, List.foldl_cons, List.foldl_nil, hsrc,
              Option.map_some, Call.apply]
            congr 1
            have : w.arrays.modify a (fun l => l.set i v) = w.arrays := by
              apply List.ext_getElem?
              intro n
              rw [List.getElem?_modify]
              by_cases hn : a = n
              · subst hn
                rw [List.getElem?_eq_getElem (n2 a haddr)]
                have : w.arrays.read a = w.arrays[a]'(n2 a haddr) := by
                  unfold Arrays.read
                  rw [List.getElem?_eq_getElem (n2 a haddr)]; rfl
                rw [this] at hi
                simp [List.set_eq_of_length_le (not_lt.1 hi)]
              · simp [hn]
            rw [← hview, this]
          · simp only [callsOn, if_neg hjk, applyCalls, List.foldl_nil]
            cases w.source? j <;> rfl

theorem inv_empty : World.empty.Inv := by
  refine ⟨?_, ?_, ?_, ?_⟩ <;> simp [World.empty, World.addrs]

theorem run_append (pkg : Package) (l l' : List Op) :
    World.run pkg (l ++ l') = l'.foldl (World.step pkg) (World.run pkg l) := by
  simp [World.run, List.foldl_append]

theorem inv_foldl (pkg : Package) (ops : List Op) (w : World) (hw : w.Inv) :
    (ops.foldl (World.step pkg) w).Inv := by
  induction ops generalizing w with
  | nil => exact hw
  | cons op ops ih => exact ih _ (step_old pkg w hw op).1

theorem inv_run (pkg : Package) (ops : List Op) : (World.run pkg ops).Inv :=
  inv_foldl pkg ops _ inv_empty

/-- Any number of calls, on a source that exists already. -/
theorem foldl_old (pkg : Package) (ops : List Op) (w : World) (hw : w.Inv) (j : ℕ)
    (hj : j < w.sources.length) :
    (ops.foldl (World.step pkg) w).source? j =
      (w.source? j).map (applyCalls pkg (callsOn j ops)) := by
  induction ops generalizing w with
  | nil =>
    simp only [List.foldl_nil, callsOn, applyCalls]
    cases w.source? j <;> rfl
  | cons op ops ih =>
    obtain ⟨h1, h2, h3⟩ := step_old pkg w hw op
    rw [List.foldl_cons, ih _ h1 (lt_of_lt_of_le hj h3), h2 j hj]
    have : callsOn j (op :: ops) = callsOn j [op] ++ callsOn j ops := callsOn_append j [op] ops
    rw [this]
    cases w.source? j with
    | none => rfl
    | some S => simp only [Option.map_some, applyCalls, List.foldl_append]

/-- A construction as an operation. -/
theorem step_construct (pkg : Package) (w : World) (hw : w.Inv) {t k : ℕ} {arg : SourceArg} {L : ℝ}
    {power : Option ℝ} {method : ReactivityMethod} {tr : Transport} {fm : FluxMapView ℝ}
    (htr : transportNow w t = some tr) (hfm : w.maps[k]? = some fm) :
    match built pkg tr fm arg L method with
    | .error e => w.exec pkg (.construct t k arg L power method) = .error e
    | .ok S =>
      if power = none ∨ S.sourceType ≠ [] then
        ∃ w', w.exec pkg (.construct t k arg L power method) = .ok w' ∧
          w'.sources.length = w.sources.length + 1 ∧
          w'.source? w.sources.length =
            some (applyCalls pkg (power.toList.map Call.normalise) S.toXF)
      else w.exec pkg (.construct t k arg L power method) = .error .zeroDivisionError := by
  have H := construct_world pkg w hw tr fm arg L power method
  unfold transportNow at htr
  simp only [World.exec, htr, hfm, Bind.bind, Except.bind]
  cases e : built pkg tr fm arg L method with
  | error x => rw [e] at H; simp only at H; simp only [H]
  | ok S =>
    rw [e] at H
    simp only at H ⊢
    by_cases hc : power = none ∨ S.sourceType ≠ []
    · rw [if_pos hc] at H ⊢
      obtain ⟨m, q, h1, h2, h3, h4⟩ := H
      refine ⟨_, by rw [h1], by simp, ?_⟩
      unfold World.source?
      simp [h3]
    · rw [if_neg hc] at H ⊢
      simp only [H]

/-! ### The property -/

/-- **C83**, the life of a source.  In *any* program, a source built at some point is, at the end, what
one gets by building it from the plasma *as it was at that point* and applying, in order, the calls made
on that source itself.  Nothing else in the program matters: not the other sources, not what was built
before or after, not the later rescaling of profiles. -/
theorem C83_life (pkg : Package) (before after : List Op) {t k : ℕ} {arg : SourceArg} {L : ℝ}
    {power : Option ℝ} {method : ReactivityMethod} {tr : Transport} {fm : FluxMapView ℝ}
    {S : Source ℝ} (htr : transportNow (World.run pkg before) t = some tr)
    (hfm : (World.run pkg before).maps[k]? = some fm)
    (hS : built pkg tr fm arg L method = .ok S) (hP : power = none ∨ S.sourceType ≠ []) :
    let j := (World.run pkg before).sources.length
    (World.run pkg (before ++ .construct t k arg L power method :: after)).source? j =
      some ((power.toList.map Call.normalise ++ callsOn j after).foldl (Call.apply pkg.energy)
        S.toXF) := by
  intro j
  have hw := inv_run pkg before
  have H := step_construct pkg _ hw (arg := arg) (L := L) (power := power) (method := method) htr hfm
  rw [hS] at H
  simp only [if_pos hP] at H
  obtain ⟨w', h1, h2, h3⟩ := H
  have hstep : (World.run pkg before).step pkg (.construct t k arg L power method) = w' := by
    unfold World.step; rw [h1]
  rw [run_append, List.foldl_cons]
  rw [foldl_old pkg after _ (step_old pkg _ hw _).1 j (by rw [hstep, h2]; exact Nat.lt_succ_self _),
    hstep, h3]
  simp only [Option.map_some, applyCalls, List.foldl_append]

/-- **C83**, no other sources: every source there is at the end of a program came into being by a
construction that succeeded, and its life is as told by `C83_life`. -/
theorem C83_all (pkg : Package) (ops : List Op) (j : ℕ)
    (hj : j < (World.run pkg ops).sources.length) :
    ∃ (before after : List Op) (t k : ℕ) (arg : SourceArg) (L : ℝ) (power : Option ℝ)
      (method : ReactivityMethod) (tr : Transport) (fm : FluxMapView ℝ) (S : Source ℝ),
      ops = before ++ .construct t k arg L power method :: after ∧
      (World.run pkg before).sources.length = j ∧
      transportNow (World.run pkg before) t = some tr ∧
      (World.run pkg before).maps[k]? = some fm ∧
      built pkg tr fm arg L method = .ok S ∧ (power = none ∨ S.sourceType ≠ []) ∧
      (World.run pkg ops).source? j =
        some ((power.toList.map Call.normalise ++ callsOn j after).foldl (Call.apply pkg.energy)
          S.toXF) := by
  suffices h : ∃ (before after : List Op) (t k : ℕ) (arg : SourceArg) (L : ℝ) (power : Option ℝ)
      (method : ReactivityMethod) (tr : Transport) (fm : FluxMapView ℝ) (S : Source ℝ),
      ops = before ++ .construct t k arg L power method :: after ∧
      (World.run pkg before).sources.length = j ∧
      transportNow (World.run pkg before) t = some tr ∧
      (World.run pkg before).maps[k]? = some fm ∧
      built pkg tr fm arg L method = .ok S ∧ (power = none ∨ S.sourceType ≠ []) by
    obtain ⟨b, a, t, k, arg, L, power, method, tr, fm, S, h1, h2, h3, h4, h5, h6⟩ := h
    refine ⟨b, a, t, k, arg, L, power, method, tr, fm, S, h1, h2, h3, h4, h5, h6, ?_⟩
    have := C83_life pkg b a h3 h4 h5 h6
    simp only [h2] at this
    rw [h1]; exact this
  induction ops using List.reverseRecOn with
  | nil => simp [World.run, World.empty] at hj
  | append_singleton ops op ih =>
    by_cases hlt : j < (World.run pkg ops).sources.length
    · obtain ⟨b, a, t, k, arg, L, power, method, tr, fm, S, h1, h2⟩ := ih hlt
      exact ⟨b, a ++ [op], t, k, arg, L, power, method, tr, fm, S, by rw [h1]; simp, h2⟩
    · set w := World.run pkg ops with hw
      have hinv : w.Inv := inv_run pkg ops
      have hrun : World.run pkg (ops ++ [op]) = w.step pkg op := by rw [run_append]; rfl
      rw [hrun] at hj
      cases op with
      | construct t k arg L power method =>
        cases e1 : transportNow w t with
        | none =>
          exfalso; unfold transportNow at e1
          simp only [World.step, World.exec, e1] at hj; exact hlt hj
        | some tr =>
        cases e2 : w.maps[k]? with
        | none =>
          exfalso; unfold transportNow at e1
          simp only [World.step, World.exec, e1, e2] at hj; exact hlt hj
        | some fm =>
          have H := step_construct pkg w hinv (arg := arg) (L := L) (power := power)
            (method := method) e1 e2
          cases e3 : built pkg tr fm arg L method with
          | error x =>
            exfalso; rw [e3] at H; simp only at H
            simp only [World.step, H] at hj; exact hlt hj
          | ok S =>
            rw [e3] at H
            simp only at H
            by_cases hc : power = none ∨ S.sourceType ≠ []
            · rw [if_pos hc] at H
              obtain ⟨w', h1, h2, _⟩ := H
              have hj' : j < w.sources.length + 1 := by
                rw [← h2]
                have e5 : w.step pkg (.construct t k arg L power method) = w' := by
                  unfold World.step; rw [h1]
                rwa [e5] at hj
              refine ⟨ops, [], t, k, arg, L, power, method, tr, fm, S, rfl, ?_, e1, e2, e3, hc⟩
              show w.sources.length = j
              omega
            · exfalso; rw [if_neg hc] at H
              simp only [World.step, H] at hj; exact hlt hj
      | newProfile p => exact absurd hj hlt
      | setScale i c => exact absurd hj hlt
      | newTransport tr => exact absurd hj hlt
      | newMap fm => exact absurd hj hlt
      | fromParameterisations temp fuel c =>
        exfalso
        simp only [World.step, World.exec] at hj
        cases e : TNS.fromParameterisations w.profiles temp fuel c with
        | none => rw [e] at hj; exact hlt hj
        | some p => rw [e] at hj; exact hlt hj
      | normalise i P =>
        exfalso
        simp only [World.step, World.exec] at hj
        cases e : w.sources[i]? with
        | none => rw [e] at hj; exact hlt hj
        | some s =>
          rw [e] at hj
          simp only [Bind.bind, Except.bind] at hj
          cases e2 : SourceRef.normalise (fun r => XF.fin (pkg.energy r)) (XF.fin P) w.arrays s with
          | error x => rw [e2] at hj; exact hlt hj
          | ok st => rw [e2] at hj; simp only [List.length_set] at hj; exact hlt hj
      | write i r n v =>
        exfalso
        simp only [World.step, World.exec] at hj
        cases e : (w.sources[i]?).bind (fun s => s.strength.get? r) with
        | none => rw [e] at hj; exact hlt hj
        | some a =>
          rw [e] at hj
          simp only at hj
          split_ifs at hj <;> exact hlt hj

/-- **C83**, failed constructions: if the source cannot be built the same exception is raised and no
object changes; if it can be built but has no channel, asking for a power raises `ZeroDivisionError`. -/
theorem C83_construct_raises (pkg : Package) (ops : List Op) {t k : ℕ} {arg : SourceArg} {L : ℝ}
    {power : Option ℝ} {method : ReactivityMethod} {tr : Transport} {fm : FluxMapView ℝ}
    (htr : transportNow (World.run pkg ops) t = some tr)
    (hfm : (World.run pkg ops).maps[k]? = some fm) :
    (∀ e, built pkg tr fm arg L method = .error e →
      (World.run pkg ops).exec pkg (.construct t k arg L power method) = .error e) ∧
    (∀ S, built pkg tr fm arg L method = .ok S → S.sourceType = [] → power ≠ none →
      (World.run pkg ops).exec pkg (.construct t k arg L power method) =
        .error .zeroDivisionError) := by
  have H := step_construct pkg _ (inv_run pkg ops) (arg := arg) (L := L) (power := power)
    (method := method) htr hfm
  refine ⟨fun e he => by rw [he] at H; exact H, fun S hS h1 h2 => ?_⟩
  rw [hS] at H
  simp only at H
  rwa [if_neg (by simp [h1, h2])] at H

/-- **C83**, isolation: a call that is not made on source `j` leaves everything one can read from source
`j` as it was. -/
theorem C83_isolated (pkg : Package) (ops : List Op) (op : Op) (j : ℕ)
    (hj : j < (World.run pkg ops).sources.length) (hop : callsOn j [op] = []) :
    (World.run pkg (ops ++ [op])).source? j = (World.run pkg ops).source? j := by
  rw [run_append, foldl_old pkg [op] _ (inv_run pkg ops) j hj, hop]
  cases (World.run pkg ops).source? j <;> rfl

/-- **C83**, arrays keep their identity: an array the user got from a source *is* the source's array
for ever (normalisation multiplies it in place), so both always show the same numbers. -/
theorem C83_arrays_stay (pkg : Package) (ops : List Op) (op : Op) (j : ℕ) (s : SourceRef)
    (hs : (World.run pkg ops).sources[j]? = some s) :
    ∃ s', (World.run pkg (ops ++ [op])).sources[j]? = some s' ∧ s'.x = s.x ∧ s'.z = s.z ∧
      s'.dVolume = s.dVolume ∧ s'.temperature = s.temperature ∧ s'.strength = s.strength := by
  have hw := inv_run pkg ops
  rw [run_append]
  simp only [List.foldl_cons, List.foldl_nil]
  set w := World.run pkg ops with hwdef
  have keep : ∀ w' : World, w'.sources = w.sources → ∃ s', w'.sources[j]? = some s' ∧ s'.x = s.x ∧
      s'.z = s.z ∧ s'.dVolume = s.dVolume ∧ s'.temperature = s.temperature ∧
      s'.strength = s.strength := fun w' h =>
    ⟨s, by rw [h]; exact hs, rfl, rfl, rfl, rfl, rfl⟩
  cases op with
  | newProfile p => exact keep _ rfl
  | setScale i c => exact keep _ rfl
  | newTransport tr => exact keep _ rfl
  | newMap fm => exact keep _ rfl
  | fromParameterisations temp fuel c =>
    simp only [World.step, World.exec]
    cases TNS.fromParameterisations w.profiles temp fuel c with
    | none => exact keep _ rfl
    | some p => exact keep _ rfl
  | construct t k arg L power method =>
    simp only [World.step, World.exec]
    cases e1 : w.transports[t]?.bind (TransportRef.read w.profiles) with
    | none => exact keep _ rfl
    | some tr =>
    cases e2 : w.maps[k]? with
    | none => exact keep _ rfl
    | some fm =>
      simp only [Bind.bind, Except.bind]
      cases e3 : SourceRef.init pkg w.arrays tr.view fm arg L power method with
      | error x => exact keep _ rfl
      | ok st =>
        refine ⟨s, ?_, rfl, rfl, rfl, rfl, rfl⟩
        obtain ⟨hj, -⟩ := List.getElem?_eq_some_iff.1 hs
        simp only [List.getElem?_append_left hj]
        exact hs
  | normalise i P =>
    simp only [World.step, World.exec]
    cases e1 : w.sources[i]? with
    | none => exact keep _ rfl
    | some s1 =>
      simp only [Bind.bind, Except.bind]
      obtain ⟨n1, n2, n3, n4⟩ := hw.source e1
      have hN := scale_loop (XF.fin P / s1.totalPower (fun r => XF.fin (pkg.energy r)) w.arrays)
        s1.sourceType w.arrays s1 n1 n2 n4 (fun r hr => by rw [n3]; exact hr)
      unfold SourceRef.normalise
      by_cases hz : s1.sourceType = []
      · rw [if_pos hz]; exact keep _ rfl
      · rw [if_neg hz]
        simp only
        by_cases hij : i = j
        · subst hij
          rw [hs] at e1; cases e1
          obtain ⟨hj, -⟩ := List.getElem?_eq_some_iff.1 hs
          refine ⟨_, List.getElem?_set_self hj, ?_⟩
          obtain ⟨-, ha, hst, -⟩ := hN
          unfold SourceRef.addrs at ha
          rw [hst] at ha
          have ha' := List.append_cancel_right ha
          simp only [List.cons.injEq, and_true] at ha'
          exact ⟨ha'.1, ha'.2.1, ha'.2.2.1, ha'.2.2.2, hst⟩
        · exact ⟨s, by rw [List.getElem?_set_ne hij]; exact hs, rfl, rfl, rfl, rfl, rfl⟩
  | write i r n v =>
    simp only [World.step, World.exec]
    cases (w.sources[i]?).bind (fun s => s.strength.get? r) with
    | none => exact keep _ rfl
    | some a =>
      simp only
      split_ifs
      · exact keep _ rfl
      · exact keep _ rfl

/-- **C83**, link with the other theorems: as long as no power is zero and the user writes nothing into
the arrays, what the user reads are the exact numbers of the pure model (`Source.init`,
`Source.normalise`), about which the other properties speak. -/
theorem C83_exact (pkg : Package) (before after : List Op) {t k : ℕ} {arg : SourceArg} {L : ℝ}
    {power : Option ℝ} {method : ReactivityMethod} {tr : Transport} {fm : FluxMapView ℝ}
    {Ps : List ℝ} {S S' : Source ℝ} (htr : transportNow (World.run pkg before) t = some tr)
    (hfm : (World.run pkg before).maps[k]? = some fm)
    (hS : Source.init pkg.pi pkg.energy (pkg.reactivity method) tr.view fm arg L power = .ok S)
    (hcalls : callsOn (World.run pkg before).sources.length after = Ps.map Call.normalise)
    (hPs : S.normalises pkg.energy Ps = .ok S') :
    (World.run pkg (before ++ .construct t k arg L power method :: after)).source?
      (World.run pkg before).sources.length = some S'.toXF := by
  -- a sequence of successful exact normalisations is what numpy computes
  have aux : ∀ (Ps : List ℝ) (S S' : Source ℝ),
      Reachable pkg.pi pkg.energy (pkg.reactivity method) S → S.normalises pkg.energy Ps = .ok S' →
      (Ps.map Call.normalise).foldl (Call.apply pkg.energy) S.toXF = S'.toXF := by
    intro Ps
    induction Ps with
    | nil =>
      intro S S' _ h
      simp only [Source.normalises, List.foldlM_nil] at h
      cases h; rfl
    | cons P Ps ih =>
      intro S S' hr h
      simp only [Source.normalises, List.foldlM_cons, Bind.bind, Except.bind] at h
      cases e : S.normalise pkg.energy P with
      | error x => rw [e] at h; cases h
      | ok S1 =>
        rw [e] at h
        obtain ⟨-, hp, -⟩ := (Source.normalise_ok_iff _ _ _ _).1 e
        obtain ⟨S2, h1, h2⟩ := C07_finite_when_power hr hp P
        rw [e] at h1; cases h1
        rw [List.map_cons, List.foldl_cons]
        have : Call.apply pkg.energy S.toXF (.normalise P) = S1.toXF := by
          simp only [Call.apply, h2]
        rw [this]
        exact ih S1 S' (.normalised hr e) h
  cases power with
  | none =>
    have H := C83_life pkg before after (power := none) htr hfm hS (Or.inl rfl)
    simp only [hcalls] at H
    rw [H]
    exact congrArg some (aux Ps S S' (.constructed hS) hPs)
  | some P =>
    obtain ⟨S0, h0, hn⟩ := Source.init_some hS
    obtain ⟨hne, hp, -⟩ := (Source.normalise_ok_iff _ _ _ _).1 hn
    have H := C83_life pkg before after (power := some P) htr hfm h0 (Or.inr hne)
    simp only [hcalls] at H
    rw [H]
    refine congrArg some (aux (P :: Ps) S0 S' (.constructed h0) ?_)
    simp only [Source.normalises, List.foldlM_cons, Bind.bind, Except.bind, hn]
    exact hPs

/-! ### A concrete program -/

section example_
open Classical

/-- A package with a simple reactivity (proportional to temperature). -/
def exPackage : Package :=
  { pi := 3, energy := fun _ => 1, reactivity := fun _ _ T => .ok T }

/-- A parabolic plasma. -/
def exPlasma : Transport :=
  { deuterium := ⟨.parabolic 1 1 2, 1⟩, tritium := ⟨.parabolic 1 1 2, 1⟩
    helium3 := ⟨.parabolic 0 1 2, 1⟩, temperature := ⟨.parabolic 10 1 2, 1⟩ }

theorem mapM_ok_parabolic (p : Profile) {core a b : ℝ} (hp : p.kind = .parabolic core a b)
    (l : List ℝ) : ∃ v, l.mapM p.value = .ok v := by
  induction l with
  | nil => exact ⟨[], rfl⟩
  | cons x l ih =>
    obtain ⟨v, hv⟩ := ih
    refine ⟨p.scale * parabolicValue core a b x :: v, ?_⟩
    rw [List.mapM_cons, hv]
    unfold Profile.value
    rw [hp]
    rfl

/-- The plasma gives a D-T source on every flux map. -/
theorem exPlasma_built (fm : FluxMapView ℝ) (L : ℝ) :
    ∃ S, built exPackage exPlasma fm (.member .DT) L .AUTO = .ok S ∧ S.sourceType = [.DT] := by
  unfold built Source.init
  have hparse : parseSourceType (.member .DT) = .ok [.DT] := by decide +kernel
  simp only [hparse, Bind.bind, Except.bind]
  generalize sampleSpace2d exPackage.pi fm.lcfsX fm.lcfsZ fm.inside fm.oX fm.oZ L = smp
  generalize List.zipWith fm.psiNorm smp.x smp.z = psi
  obtain ⟨v1, h1⟩ := mapM_ok_parabolic exPlasma.temperature rfl psi
  obtain ⟨v2, h2⟩ := mapM_ok_parabolic exPlasma.deuterium rfl psi
  obtain ⟨v3, h3⟩ := mapM_ok_parabolic exPlasma.tritium rfl psi
  obtain ⟨v4, h4⟩ := mapM_ok_parabolic exPlasma.helium3 rfl psi
  have e1 : psi.mapM exPlasma.view.temperature = .ok v1 := h1
  have e2 : psi.mapM exPlasma.view.deuterium = .ok v2 := h2
  have e3 : psi.mapM exPlasma.view.tritium = .ok v3 := h3
  have e4 : psi.mapM exPlasma.view.helium3 = .ok v4 := h4
  rw [e1, e2, e3, e4]
  exact ⟨_, rfl, rfl⟩

/-- Two sources are built from the same transport object, the deuterium profile being doubled in
between; each is normalised to another power.  Each source shows its own story only. -/
example (fm : FluxMapView ℝ) : ∃ S : Source ℝ,
    built exPackage exPlasma fm (.member .DT) 1 .AUTO = .ok S ∧
    (World.run exPackage ([.newTransport exPlasma, .newMap fm] ++
      .construct 0 0 (.member .DT) 1 (some 500) .AUTO ::
      [.setScale 0 2, .construct 0 0 (.member .DT) 1 none .AUTO, .normalise 1 300,
        .normalise 0 700])).source? 0 =
    some (Call.apply exPackage.energy (Call.apply exPackage.energy S.toXF (.normalise 500))
      (.normalise 700)) := by
  obtain ⟨S, hS, hst⟩ := exPlasma_built fm 1
  refine ⟨S, hS, ?_⟩
  have := C83_life exPackage [.newTransport exPlasma, .newMap fm]
    [.setScale 0 2, .construct 0 0 (.member .DT) 1 none .AUTO, .normalise 1 300, .normalise 0 700]
    (t := 0) (k := 0) (arg := .member .DT) (L := 1) (power := some 500) (method := .AUTO)
    (tr := exPlasma) (fm := fm) (S := S) rfl rfl hS (Or.inr (by rw [hst]; simp))
  exact this

end example_

end
end TNS
