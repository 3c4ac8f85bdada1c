import Verif.Spec.SdefThreads
import Verif.Props.ExportThreads
import Verif.Props.Mcnp
import Verif.Props.Strengthen
/-
C102: `to_sdef_card` while other threads normalise.
-/

set_option autoImplicit false

namespace TNS
open Spec
noncomputable section

/-! ### The exporting thread on a source regarded as a value -/

/-- `SdefPc.step` on a value. -/
def sstep (S : Source (XF ℝ)) : SdefPc → SdefPc
  | .next d [] => .written d
  | .next d (r :: todo) => .pass d r [] [] todo
  | .pass d r got tmp todo =>
    match (S.strength.getD r [])[tmp.length]? with
    | some v => .pass d r got (tmp ++ [v]) todo
    | none =>
      if got.length + 1 = sdefPasses then .next (d ++ [(r, got ++ [tmp])]) todo else .pass d r (got ++ [tmp]) [] todo
  | .written d => .written d

theorem sstep_sim (m : Arrays) (s : SourceRef) (pc : SdefPc) : pc.step m s = sstep (s.view m) pc := by
  cases pc with
  | next d todo => cases todo <;> rfl
  | pass d r got tmp todo =>
    simp only [SdefPc.step, sstep, channel_view]
    cases ((s.view m).strength.getD r [])[tmp.length]? <;> rfl
  | written d => rfl

/-- One load of a channel. -/
def PassOk (g : Reaction → List ℝ) (f : ℝ) (r : Reaction) (p : List (XF ℝ)) : Prop :=
  ∃ l : List ℝ, p = l.map XF.fin ∧ List.Forall₂ (OldNew f) (g r) l

/-- All loads of a channel. -/
def PassesOk (g : Reaction → List ℝ) (f : ℝ) (r : Reaction) (p : Reaction × List (List (XF ℝ))) : Prop :=
  ∃ ls, p = (r, ls) ∧ ls.length = sdefPasses ∧ ∀ l ∈ ls, PassOk g f r l

/-- What the exporting thread holds. -/
def SLoaded (st : List Reaction) (g : Reaction → List ℝ) (f : ℝ) : SdefPc → Prop
  | .next d todo => ∃ past, st.filter (fun r => r.isNeutronic) = past ++ todo ∧ List.Forall₂ (PassesOk g f) past d
  | .pass d r got tmp todo =>
    (∃ past, st.filter (fun r => r.isNeutronic) = past ++ r :: todo ∧ List.Forall₂ (PassesOk g f) past d) ∧
    got.length < sdefPasses ∧ (∀ l ∈ got, PassOk g f r l) ∧
    ∃ l : List ℝ, tmp = l.map XF.fin ∧ l.length ≤ (g r).length ∧ List.Forall₂ (OldNew f) ((g r).take l.length) l
  | .written d => List.Forall₂ (PassesOk g f) (st.filter (fun r => r.isNeutronic)) d

/-- Steps for the channels still to be written. -/
def leftNext (g : Reaction → List ℝ) (todo : List Reaction) : ℕ :=
  (todo.map (fun r => sdefPasses * ((g r).length + 1) + 1)).sum + 1

/-- Steps the exporting thread has still to make. -/
def sleft (g : Reaction → List ℝ) : SdefPc → ℕ
  | .next _ todo => leftNext g todo
  | .pass _ r got tmp todo =>
    (sdefPasses - 1 - got.length) * ((g r).length + 1) + ((g r).length - tmp.length + 1) + leftNext g todo
  | .written _ => 0

theorem sstep_ok {S0 : Source ℝ} {g : Reaction → List ℝ} {N : Reaction → ℝ} {f : ℝ} {S : Source (XF ℝ)}
    (h : Torn S0 g N f S) {pc : SdefPc} (hl : SLoaded S0.sourceType g f pc) :
    SLoaded S0.sourceType g f (sstep S pc) ∧ sleft g (sstep S pc) = sleft g pc - 1 := by
  obtain ⟨A, C, hA, hC, hv⟩ := h.values
  cases pc with
  | next d todo =>
    obtain ⟨past, hst, hd⟩ := hl
    cases todo with
    | nil =>
      rw [List.append_nil] at hst
      refine ⟨by show SLoaded _ _ _ (.written d); rw [SLoaded, hst]; exact hd, ?_⟩
      simp [sstep, sleft, leftNext]
    | cons r todo =>
      refine ⟨⟨⟨past, hst, hd⟩, by simp [sdefPasses], by simp, [], rfl, by simp, by simp⟩, ?_⟩
      simp only [sstep, sleft, leftNext, List.map_cons, List.sum_cons, List.length_nil, sdefPasses]
      omega
  | pass d r got tmp todo =>
    obtain ⟨⟨past, hst, hd⟩, hgot, hgs, l, rfl, hlen, hl⟩ := hl
    have hr : r ∈ S0.sourceType := by
      have : r ∈ S0.sourceType.filter (fun r => r.isNeutronic) := by rw [hst]; simp
      exact (List.mem_filter.1 this).1
    have e : S.strength.getD r [] = (A r).map XF.fin := by rw [hA, Dict.getD, Dict.get?_map_pair, if_pos hr]; rfl
    simp only [sstep, e, List.length_map, List.getElem?_map]
    obtain ⟨g1, g2⟩ := forall₂_get (hv r hr).1 l.length
    cases ea : (A r)[l.length]? with
    | none =>
      have hle : (g r).length ≤ l.length := List.getElem?_eq_none_iff.1 (g2.1 ea)
      rw [List.take_of_length_le hle] at hl
      have hp : PassOk g f r (l.map XF.fin) := ⟨l, rfl, hl⟩
      have hgs' : ∀ q ∈ got ++ [l.map XF.fin], PassOk g f r q := by
        intro q hq
        rcases List.mem_append.1 hq with hq | hq
        · exact hgs q hq
        · rw [List.mem_singleton.1 hq]; exact hp
      simp only [Option.map_none]
      by_cases h5 : got.length + 1 = sdefPasses
      · rw [if_pos h5]
        refine ⟨⟨past ++ [r], by rw [hst]; simp, forall₂_snoc hd ⟨_, rfl, by simp [h5], hgs'⟩⟩, ?_⟩
        simp only [sleft, List.length_map]
        have : sdefPasses - 1 - got.length = 0 := by omega
        rw [this]
        omega
      · rw [if_neg h5]
        refine ⟨⟨⟨past, hst, hd⟩, by simp; omega, hgs', [], rfl, by simp, by simp⟩, ?_⟩
        simp only [sleft, List.length_map, List.length_append, List.length_singleton, List.length_nil]
        have : sdefPasses - 1 - got.length = sdefPasses - 1 - (got.length + 1) + 1 := by omega
        rw [this, Nat.succ_mul]
        omega
    | some b =>
      obtain ⟨a, ha, hab⟩ := g1 b ea
      have hlt : l.length < (g r).length := by
        by_contra hn
        rw [List.getElem?_eq_none (by omega)] at ha; cases ha
      simp only [Option.map_some]
      refine ⟨⟨⟨past, hst, hd⟩, hgot, hgs, l ++ [b], by simp, by simp; omega, ?_⟩, ?_⟩
      · have : (g r).take (l ++ [b]).length = (g r).take l.length ++ [a] := by
          rw [List.length_append, List.length_singleton, List.take_add_one, ha]; rfl
        rw [this]
        exact forall₂_snoc hl hab
      · simp only [sleft, List.length_append, List.length_map, List.length_singleton]
        omega
  | written d => exact ⟨hl, rfl⟩

theorem sleft_zero {g : Reaction → List ℝ} {pc : SdefPc} (h : sleft g pc = 0) : ∃ d, pc = .written d := by
  cases pc with
  | next d todo => simp only [sleft, leftNext] at h; omega
  | pass d r got tmp todo => simp only [sleft] at h; omega
  | written d => exact ⟨_, rfl⟩

/-! ### The whole pool -/

/-- What holds of the memory and the normalising threads while at most one of them works on source `j`. -/
structure PoolWatched (S0 : Source ℝ) (g : Reaction → List ℝ) (N : Reaction → ℝ) (f P : ℝ)
    (D : Source (XF ℝ) × NormPc → Prop) (j t0 : ℕ) (p : Pool) : Prop where
  inv : p.world.Inv
  source : ∃ S, p.world.source? j = some S ∧ Torn S0 g N f S ∧
    ∀ t th, p.threads[t]? = some th → th.src = j → t = t0 ∧ th.power = P ∧ D (S, th.pc)

theorem poolWatched_step (pkg : Package) {S0 : Source ℝ} {g : Reaction → List ℝ} {N : Reaction → ℝ} {f P : ℝ}
    {D : Source (XF ℝ) × NormPc → Prop} (hD : ∀ c, D c → Torn S0 g N f c.1)
    (hDs : ∀ c, D c → D (vstep (energyX pkg) (.fin P) c)) {j t0 : ℕ} {p : Pool}
    (h : PoolWatched S0 g N f P D j t0 p) (t : ℕ) : PoolWatched S0 g N f P D j t0 (p.step pkg t) := by
  -- as in `watched_step`
  obtain ⟨hinv, S, hS, hT, hth⟩ := h
  obtain ⟨s1, s2, s3, s4, -⟩ := pool_step pkg p hinv t
  refine ⟨s1, ?_⟩
  by_cases ht : ∃ th, p.threads[t]? = some th ∧ th.src = j
  · obtain ⟨th, ht, hj⟩ := ht
    obtain ⟨rfl, hP, hd⟩ := hth t th ht hj
    obtain ⟨a1, a2⟩ := s3 th S ht (by rw [hj]; exact hS)
    rw [hj, hP] at a1
    rw [hP] at a2
    have hd' := hDs _ hd
    refine ⟨_, a1, hD _ hd', ?_⟩
    intro u th' hu hj'
    by_cases hut : u = t
    · subst hut
      rw [a2] at hu
      cases hu
      exact ⟨rfl, rfl, hd'⟩
    · rw [s4 u hut] at hu
      exact absurd (hth u th' hu hj').1 hut
  · have hno : ∀ th, p.threads[t]? = some th → th.src ≠ j := fun th h1 h2 => ht ⟨th, h1, h2⟩
    refine ⟨S, by rw [s2 j hno]; exact hS, hT, ?_⟩
    intro u th' hu hj'
    by_cases hut : u = t
    · subst hut
      obtain ⟨th, h1, h2⟩ := pool_step_src pkg p hinv u u th' hu
      exact absurd (h2.trans hj') (hno th h1)
    · rw [s4 u hut] at hu
      exact hth u th' hu hj'

/-- What holds of the whole pool. -/
structure SWatched (S0 : Source ℝ) (g : Reaction → List ℝ) (N : Reaction → ℝ) (f P : ℝ)
    (D : Source (XF ℝ) × NormPc → Prop) (j t0 n : ℕ) (e : SdefPool) : Prop where
  pool : PoolWatched S0 g N f P D j t0 e.pool
  src : e.src = j
  loaded : SLoaded S0.sourceType g f e.pc
  left : sleft g e.pc ≤ n

theorem swatched_step (pkg : Package) {S0 : Source ℝ} {g : Reaction → List ℝ} {N : Reaction → ℝ} {f P : ℝ}
    {D : Source (XF ℝ) × NormPc → Prop} (hD : ∀ c, D c → Torn S0 g N f c.1)
    (hDs : ∀ c, D c → D (vstep (energyX pkg) (.fin P) c)) {j t0 n : ℕ} {e : SdefPool}
    (h : SWatched S0 g N f P D j t0 n e) (o : Option ℕ) :
    SWatched S0 g N f P D j t0 (if o = none then n - 1 else n) (e.step pkg o) := by
  obtain ⟨hp, hsrc, hl, hle⟩ := h
  cases o with
  | none =>
    obtain ⟨S, hS, hT, -⟩ := hp.source
    obtain ⟨s, hs, rfl⟩ : ∃ s, e.pool.world.sources[j]? = some s ∧ s.view e.pool.world.arrays = S := by
      simpa [World.source?] using hS
    have e1 : e.step pkg none = { e with pc := sstep (s.view e.pool.world.arrays) e.pc } := by
      simp only [SdefPool.step, hsrc, hs, sstep_sim]
    rw [e1]
    obtain ⟨l1, l2⟩ := sstep_ok hT hl
    refine ⟨hp, hsrc, l1, ?_⟩
    simp only [if_true]
    rw [l2]
    omega
  | some t => exact ⟨poolWatched_step pkg hD hDs hp t, hsrc, hl, hle⟩

theorem swatched_run (pkg : Package) {S0 : Source ℝ} {g : Reaction → List ℝ} {N : Reaction → ℝ} {f P : ℝ}
    {D : Source (XF ℝ) × NormPc → Prop} (hD : ∀ c, D c → Torn S0 g N f c.1)
    (hDs : ∀ c, D c → D (vstep (energyX pkg) (.fin P) c)) {j t0 : ℕ} (sched : List (Option ℕ)) :
    ∀ {n : ℕ} {e : SdefPool}, SWatched S0 g N f P D j t0 n e →
      SWatched S0 g N f P D j t0 (n - sched.count none) (e.run pkg sched) := by
  induction sched with
  | nil => intro n e h; simpa [SdefPool.run] using h
  | cons o sched ih =>
    intro n e h
    have h1 := ih (swatched_step pkg hD hDs h o)
    rw [List.count_cons]
    cases o with
    | none =>
      simp only [if_true] at h1
      simp only [beq_self_eq_true, if_true]
      rw [show n - (sched.count none + 1) = n - 1 - sched.count none by omega]
      exact h1
    | some t =>
      have : (some t == (none : Option ℕ)) = false := rfl
      simp only [this, Bool.false_eq_true, if_false, add_zero]
      exact h1

/-! ### The numbers loaded -/

/-- The five loads of a channel. -/
structure Five where
  total : List ℝ
  product : List ℝ
  weight : List ℝ
  column : List ℝ
  vertical : List ℝ

/-- Each number loaded is old or new. -/
structure FiveOk (f : ℝ) (l : List ℝ) (F : Five) : Prop where
  total : List.Forall₂ (OldNew f) l F.total
  product : List.Forall₂ (OldNew f) l F.product
  weight : List.Forall₂ (OldNew f) l F.weight
  column : List.Forall₂ (OldNew f) l F.column
  vertical : List.Forall₂ (OldNew f) l F.vertical

def Five.lists (F : Five) : List (List ℝ) := [F.total, F.product, F.weight, F.column, F.vertical]

/-- The file made of five loads. -/
def fiveFile (stub : String) (S : Source ℝ) (r : Reaction) (F : Five) : Except Err (SdefFile ℝ) :=
  sdefFileLoaded stub S.x S.z S.cellSideLength S.temperature r F.total F.product F.weight F.column F.vertical

theorem passes_five {g : Reaction → List ℝ} {f : ℝ} {r : Reaction} {p : Reaction × List (List (XF ℝ))}
    (h : PassesOk g f r p) : ∃ F : Five, p = (r, F.lists.map (fun l => l.map XF.fin)) ∧ FiveOk f (g r) F := by
  obtain ⟨ls, rfl, hlen, hls⟩ := h
  obtain ⟨a, b, c, d, e, rfl⟩ : ∃ a b c d e, ls = [a, b, c, d, e] := by
    simp only [sdefPasses] at hlen
    match ls, hlen with
    | [a, b, c, d, e], _ => exact ⟨a, b, c, d, e, rfl⟩
  obtain ⟨a', rfl, ha⟩ := hls a (by simp)
  obtain ⟨b', rfl, hb⟩ := hls b (by simp)
  obtain ⟨c', rfl, hc⟩ := hls c (by simp)
  obtain ⟨d', rfl, hd⟩ := hls d (by simp)
  obtain ⟨e', rfl, he⟩ := hls e (by simp)
  exact ⟨⟨a', b', c', d', e'⟩, rfl, ha, hb, hc, hd, he⟩

theorem mapM_some_map {α β γ : Type} (l : List α) (G : β → Option γ) (h : α → β) (k : α → γ)
    (hG : ∀ a, G (h a) = some (k a)) : (l.map h).mapM G = some (l.map k) := by
  induction l with
  | nil => rfl
  | cons a d ih => rw [List.map_cons, List.mapM_cons, ih, hG]; rfl

theorem written_result (stub : String) {S0 : Source ℝ} {S : Source (XF ℝ)} {e : SdefPool}
    (hS : e.pool.world.source? e.src = some S) (hx : S.x = S0.x.map XF.fin) (hz : S.z = S0.z.map XF.fin)
    (hcell : S.cellSideLength = .fin S0.cellSideLength) (ht : S.temperature = S0.temperature.map XF.fin)
    (st : List Reaction) (F : Reaction → Five)
    (hpc : e.pc = .written (st.map (fun r => (r, (F r).lists.map (fun l => l.map XF.fin))))) :
    e.result stub = some (st.mapM (fun r => fiveFile stub S0 r (F r))) := by
  have m0 : ∀ ls : List (List ℝ), (ls.map (fun l => l.map XF.fin)).mapM (fun q : List (XF ℝ) => q.mapM XF.fin?) = some ls := by
    intro ls
    induction ls with
    | nil => rfl
    | cons a d ih => rw [List.map_cons, List.mapM_cons, ih, mapM_fin]; rfl
  have m1 : ∀ st : List Reaction, (st.map (fun r => (r, (F r).lists.map (fun l => l.map XF.fin)))).mapM
      (fun p : Reaction × List (List (XF ℝ)) => do let l ← p.2.mapM (fun q => q.mapM XF.fin?); some (p.1, l)) =
        some (st.map (fun r => (r, (F r).lists))) := by
    intro st
    induction st with
    | nil => rfl
    | cons a d ih => rw [List.map_cons, List.mapM_cons, ih]; simp only [m0]; rfl
  have m2 : sdefFilesLoaded stub S0.x S0.z S0.cellSideLength S0.temperature (st.map (fun r => (r, (F r).lists))) =
      some ((st.map (fun r => fiveFile stub S0 r (F r))).mapM (fun f => f)) := by
    unfold sdefFilesLoaded
    rw [mapM_some_map _ _ (fun r => (r, (F r).lists)) (fun r => fiveFile stub S0 r (F r)) (fun r => rfl)]
    rfl
  have m3 : ∀ a : ℝ, (XF.fin a).fin? = some a := fun _ => rfl
  have m4 : ∀ st : List Reaction, (st.map (fun r => fiveFile stub S0 r (F r))).mapM (fun f => f) =
      st.mapM (fun r => fiveFile stub S0 r (F r)) := by
    intro st
    induction st with
    | nil => rfl
    | cons a d ih => rw [List.map_cons, List.mapM_cons, List.mapM_cons, ih]
  unfold SdefPool.result
  rw [hpc, hS]
  simp only [hx, hz, hcell, ht, mapM_fin, m1, m3]
  simp only [Bind.bind, Option.bind, m2, m4]

/-- The files are made of five loads for each channel, each number of which is old or new. -/
theorem swatched_result (stub : String) {S0 : Source ℝ} {g : Reaction → List ℝ} {N : Reaction → ℝ} {f P : ℝ}
    {D : Source (XF ℝ) × NormPc → Prop} {j t0 n : ℕ} {e : SdefPool} (hn : S0.sourceType.Nodup)
    (h : SWatched S0 g N f P D j t0 n e) :
    (n = 0 → (e.result stub).isSome) ∧ ∀ res, e.result stub = some res →
      ∃ F : Reaction → Five, (∀ r ∈ S0.sourceType.filter (fun r => r.isNeutronic), FiveOk f (g r) (F r)) ∧
        res = (S0.sourceType.filter (fun r => r.isNeutronic)).mapM (fun r => fiveFile stub S0 r (F r)) := by
  obtain ⟨⟨hinv, S, hS, hT, hth⟩, hsrc, hl, hle⟩ := h
  have key : ∀ d, e.pc = .written d → ∃ F : Reaction → Five,
      (∀ r ∈ S0.sourceType.filter (fun r => r.isNeutronic), FiveOk f (g r) (F r)) ∧
      e.result stub = some ((S0.sourceType.filter (fun r => r.isNeutronic)).mapM (fun r => fiveFile stub S0 r (F r))) := by
    intro d hpc
    rw [hpc] at hl
    have h1 : List.Forall₂ (PassesOk g f) (S0.sourceType.filter (fun r => r.isNeutronic)) d := hl
    obtain ⟨G, hG, hG'⟩ := forall₂_fun (fun r => (r, [])) h1 (hn.filter _)
    have cF : ∀ r, ∃ F : Five, r ∈ S0.sourceType.filter (fun r => r.isNeutronic) →
        G r = (r, F.lists.map (fun l => l.map XF.fin)) ∧ FiveOk f (g r) F := by
      intro r
      by_cases hr : r ∈ S0.sourceType.filter (fun r => r.isNeutronic)
      · obtain ⟨F, hF⟩ := passes_five (hG' r hr); exact ⟨F, fun _ => hF⟩
      · exact ⟨⟨[], [], [], [], []⟩, fun h => absurd h hr⟩
    choose F hF using cF
    refine ⟨F, fun r hr => (hF r hr).2, ?_⟩
    refine written_result stub (by rw [hsrc]; exact hS) hT.x hT.z hT.cell hT.temperature _ F ?_
    rw [hpc, hG]
    congr 1
    exact List.map_congr_left (fun r hr => (hF r hr).1)
  refine ⟨?_, ?_⟩
  · rintro rfl
    obtain ⟨d, hpc⟩ := sleft_zero (Nat.le_zero.1 hle)
    obtain ⟨F, -, h2⟩ := key d hpc
    rw [h2]; rfl
  · intro res hres
    have : ∃ d, e.pc = .written d := by
      unfold SdefPool.result at hres
      split at hres
      · rename_i d _ h1 _; exact ⟨d, h1⟩
      · cases hres
    obtain ⟨d, hpc⟩ := this
    obtain ⟨F, h1, h2⟩ := key d hpc
    rw [h2] at hres
    exact ⟨F, h1, (Option.some.inj hres).symm⟩

/-! ### The beginning -/

theorem sdef_start (w : World) (calls : List (ℕ × ℝ)) (j : ℕ) {S : Source ℝ} {g : Reaction → List ℝ} (hc : S.Closed g)
    (h : w.source? j = some S.toXF) :
    SdefPool.start (startAll w calls) j =
      ⟨startAll w calls, j, .next [] (S.sourceType.filter (fun r => r.isNeutronic))⟩ := by
  obtain ⟨s, hs, hv⟩ : ∃ s, w.sources[j]? = some s ∧ s.view w.arrays = S.toXF := by simpa [World.source?] using h
  have : s.strength.keys = S.sourceType := by
    have e : s.strength.keys = S.toXF.strength.keys := by
      rw [← hv]; simp [SourceRef.view, Dict.keys, Function.comp_def]
    rw [e, (toXF_parts hc).1]
    simp [Dict.keys, Function.comp_def]
  simp only [SdefPool.start, startAll, hs, Option.map_some, Option.getD_some, this]

theorem swatched_start (pkg : Package) (ops : List Op) (calls : List (ℕ × ℝ)) (j : ℕ) {S : Source ℝ}
    {g : Reaction → List ℝ} (hc : S.Closed g) (hS : (World.run pkg ops).source? j = some S.toXF) (f P : ℝ)
    (D : Source (XF ℝ) × NormPc → Prop) (t0 : ℕ)
    (hth : ∀ t c, calls[t]? = some c → c.1 = j → t = t0 ∧ c.2 = P ∧ D (S.toXF, .power [] S.sourceType)) :
    SWatched S g (ratesOf g) f P D j t0 (leftNext g (S.sourceType.filter (fun r => r.isNeutronic)))
      (SdefPool.start (startAll (World.run pkg ops) calls) j) := by
  have h := watched_start pkg ops calls j hc hS f P D t0 hth
  rw [export_start _ calls j hc hS] at h
  rw [sdef_start _ calls j hc hS]
  exact ⟨⟨h.inv, h.source⟩, rfl, ⟨[], rfl, .nil⟩, le_rfl⟩

/-! ### Undisturbed -/

theorem fiveFile_same (stub : String) (S : Source ℝ) (r : Reaction) (l : List ℝ) :
    fiveFile stub S r ⟨l, l, l, l, l⟩ = (do
      let c ← sdefCards S.x S.z S.cellSideLength l
      .ok { name := sdefFileName stub r, reaction := r, total := headerTotal l
            ionTemp := meanIonTemp l S.temperature, cards := c }) := rfl

theorem toSdef_closed (stub : String) {S : Source ℝ} {g : Reaction → List ℝ} (hc : S.Closed g) :
    S.toSdef stub = (S.sourceType.filter (fun r => r.isNeutronic)).mapM
      (fun r => fiveFile stub S r ⟨g r, g r, g r, g r, g r⟩) := by
  unfold Source.toSdef
  rw [hc.2.1, List.filter_map, List.mapM_map]
  rfl

/-- **C102**, other sources: the SDEF files written for a source that no other thread normalises are those it would write
alone, under every schedule and whatever happens to the other sources; and they are written as soon as the exporting thread
has made a certain number of steps. -/
theorem C102_undisturbed (pkg : Package) (ops : List Op) (calls : List (ℕ × ℝ)) (j : ℕ)
    (hj : j ∉ calls.map Prod.fst) {sv : Reaction → List ℝ → Except Err (List ℝ)} {S : Source ℝ}
    (hr : Reachable pkg.pi pkg.energy sv S) (hS : (World.run pkg ops).source? j = some S.toXF) (stub : String) :
    ∃ steps : ℕ, ∀ sched : List (Option ℕ),
      let res := ((SdefPool.start (startAll (World.run pkg ops) calls) j).run pkg sched).result stub
      (res = none ∨ res = some (S.toSdef stub)) ∧
      (steps ≤ sched.count none → res = some (S.toSdef stub)) := by
  obtain ⟨g, hc⟩ := reachable_closed hr
  have h0 := swatched_start pkg ops calls j hc hS 1 0 (fun _ => False) 0 (by
    intro t c h1 h2
    exact absurd (List.mem_map.2 ⟨c, List.mem_of_getElem? h1, h2⟩) hj)
  refine ⟨leftNext g (S.sourceType.filter (fun r => r.isNeutronic)), fun sched => ?_⟩
  have h1 := swatched_run pkg (by simp) (by simp) sched h0
  obtain ⟨r1, r2⟩ := swatched_result stub hc.1 h1
  have r3 : ∀ res, ((SdefPool.start (startAll (World.run pkg ops) calls) j).run pkg sched).result stub = some res →
      res = S.toSdef stub := by
    intro res hres
    obtain ⟨F, hF, rfl⟩ := r2 res hres
    rw [toSdef_closed stub hc]
    have : ∀ l : List Reaction, (∀ r ∈ l, FiveOk 1 (g r) (F r)) → l.mapM (fun r => fiveFile stub S r (F r)) =
        l.mapM (fun r => fiveFile stub S r ⟨g r, g r, g r, g r, g r⟩) := by
      intro l
      induction l with
      | nil => intro _; rfl
      | cons a l ih =>
        intro h
        have e : F a = ⟨g a, g a, g a, g a, g a⟩ := by
          obtain ⟨h1, h2, h3, h4, h5⟩ := h a List.mem_cons_self
          have := forall₂_oldNew_one h1
          have := forall₂_oldNew_one h2
          have := forall₂_oldNew_one h3
          have := forall₂_oldNew_one h4
          have := forall₂_oldNew_one h5
          cases e : F a
          simp_all
        rw [List.mapM_cons, List.mapM_cons, ih (fun r hr => h r (List.mem_cons_of_mem _ hr)), e]
    exact this _ hF
  dsimp only
  cases hres : ((SdefPool.start (startAll (World.run pkg ops) calls) j).run pkg sched).result stub with
  | none =>
    refine ⟨Or.inl rfl, fun hle => ?_⟩
    have := r1 (by omega)
    rw [hres] at this
    cases this
  | some res =>
    rw [r3 res hres]
    exact ⟨Or.inr rfl, fun _ => rfl⟩

/-! ### One normalisation of the same source -/

/-- A number between `m` and `M` times a non-negative one. -/
def NearTo (m M a b : ℝ) : Prop := 0 ≤ a ∧ m * a ≤ b ∧ b ≤ M * a

theorem near_oldNew {f : ℝ} (hf : 0 < f) {l l' : List ℝ} (h : List.Forall₂ (OldNew f) l l') :
    (∀ a ∈ l, 0 ≤ a) → List.Forall₂ (NearTo (min 1 f) (max 1 f)) l l' := by
  induction h with
  | nil => intro _; exact .nil
  | cons h1 _ ih =>
    intro ha
    have h0 := ha _ List.mem_cons_self
    exact .cons ⟨h0, oldNew_bounds hf h0 h1⟩ (ih (fun a h => ha a (List.mem_cons_of_mem _ h)))

theorem near_sum {m M : ℝ} {l l' : List ℝ} (h : List.Forall₂ (NearTo m M) l l') : NearTo m M l.sum l'.sum := by
  induction h with
  | nil => simp [NearTo]
  | cons h1 _ ih =>
    obtain ⟨a1, a2, a3⟩ := h1
    obtain ⟨b1, b2, b3⟩ := ih
    simp only [List.sum_cons]
    exact ⟨by linarith, by linarith, by linarith⟩

theorem near_zip {m M : ℝ} {l l' : List ℝ} (h : List.Forall₂ (NearTo m M) l l') :
    ∀ T : List ℝ, (∀ t ∈ T, 0 ≤ t) →
      List.Forall₂ (NearTo m M) (List.zipWith (· * ·) l T) (List.zipWith (· * ·) l' T) := by
  induction h with
  | nil => intro T _; simp
  | cons h1 _ ih =>
    intro T hT
    cases T with
    | nil => simp
    | cons t T =>
      obtain ⟨a1, a2, a3⟩ := h1
      have ht := hT t List.mem_cons_self
      exact .cons ⟨mul_nonneg a1 ht, by nlinarith, by nlinarith⟩ (ih T (fun t h => hT t (List.mem_cons_of_mem _ h)))

theorem near_div {m M a b a' b' : ℝ} (hm : 0 < m) (hM : 0 < M) (ha : NearTo m M a a') (hb : NearTo m M b b') :
    WithinFactor (M / m) (a / b) (a' / b') ∧ 0 ≤ a / b ∧ 0 ≤ a' / b' := by
  obtain ⟨a1, a2, a3⟩ := ha
  obtain ⟨b1, b2, b3⟩ := hb
  have a4 : 0 ≤ a' := le_trans (mul_nonneg hm.le a1) a2
  have b4 : 0 ≤ b' := le_trans (mul_nonneg hm.le b1) b2
  refine ⟨?_, div_nonneg a1 b1, div_nonneg a4 b4⟩
  rcases b1.lt_or_eq with h | h
  · exact within_div hm hM h (lt_of_lt_of_le (mul_pos hm h) b2) a2 a3 b2 b3 a1 a4
  · have : b' = 0 := le_antisymm (by rw [← h, mul_zero] at b3; exact b3) b4
    rw [this, ← h]
    simp [WithinFactor]

theorem within_mul {g a b c d : ℝ} (hg : 0 ≤ g) (ha : 0 ≤ a) (hb : 0 ≤ b) (hc : 0 ≤ c) (hd : 0 ≤ d)
    (h1 : WithinFactor g a c) (h2 : WithinFactor g b d) : WithinFactor (g ^ 2) (a * b) (c * d) := by
  constructor
  · calc a * b ≤ (g * c) * (g * d) := mul_le_mul h1.1 h2.1 hb (mul_nonneg hg hc)
      _ = g ^ 2 * (c * d) := by ring
  · calc c * d ≤ (g * a) * (g * b) := mul_le_mul h1.2 h2.2 hd (mul_nonneg hg ha)
      _ = g ^ 2 * (a * b) := by ring

theorem forall₂_zipWith_right {α β β' γ γ' : Type} {R : β → β' → Prop} {P : γ → γ' → Prop} (F : α → β → γ) (F' : α → β' → γ')
    (hF : ∀ a b b', R b b' → P (F a b) (F' a b')) (l : List α) {m : List β} {m' : List β'} (h : List.Forall₂ R m m') :
    List.Forall₂ P (List.zipWith F l m) (List.zipWith F' l m') := by
  induction h generalizing l with
  | nil => simp
  | cons h1 _ ih =>
    cases l with
    | nil => simp
    | cons a l => exact .cons (hF a _ _ h1) (ih l)

theorem forall₂_zip_left {α β β' : Type} {R : β → β' → Prop} {m : List β} {m' : List β'} (h : List.Forall₂ R m m')
    (l : List α) : List.Forall₂ (fun p q => R p.1 q.1 ∧ q.2 = p.2) (List.zip m l) (List.zip m' l) := by
  induction h generalizing l with
  | nil => simp
  | cons h1 _ ih =>
    cases l with
    | nil => simp
    | cons a l => exact .cons ⟨h1, rfl⟩ (ih l)

/-- Bins of a histogram. -/
def NearBin (g : ℝ) (p q : HBin ℝ) : Prop :=
  q.lo = p.lo ∧ q.hi = p.hi ∧ WithinFactor g p.prob q.prob ∧ 0 ≤ p.prob ∧ 0 ≤ q.prob

theorem histogram_near {m M : ℝ} (hm : 0 < m) (hM : 0 < M) (si : List ℝ) {sp sp' : List ℝ}
    (h : List.Forall₂ (NearTo m M) sp sp') :
    List.Forall₂ (NearBin (M / m)) (histogram si sp) (histogram si sp') := by
  unfold histogram
  have hs := near_sum h
  refine forall₂_zipWith_right _ _ ?_ _ (R := NearTo m M) ?_
  · intro e a b hab
    obtain ⟨h1, h2, h3⟩ := near_div hm hM hab hs
    exact ⟨rfl, rfl, h1, h2, h3⟩
  · cases h with
    | nil => exact .nil
    | cons _ h2 => exact h2

theorem find_near {m M : ℝ} {v v' : List (ℕ × List ℝ × List ℝ)} (n : ℕ)
    (h : List.Forall₂ (fun a b => b.1 = a.1 ∧ b.2.1 = a.2.1 ∧ List.Forall₂ (NearTo m M) a.2.2 b.2.2) v v') :
    (v.find? (fun a => decide (a.1 = n)) = none ∧ v'.find? (fun a => decide (a.1 = n)) = none) ∨
    ∃ a b, v.find? (fun a => decide (a.1 = n)) = some a ∧ v'.find? (fun a => decide (a.1 = n)) = some b ∧
      b.2.1 = a.2.1 ∧ List.Forall₂ (NearTo m M) a.2.2 b.2.2 := by
  induction h with
  | nil => exact Or.inl ⟨rfl, rfl⟩
  | @cons a b v v' h1 _ ih =>
    by_cases ha : a.1 = n
    · refine Or.inr ⟨a, b, ?_, ?_, h1.2⟩
      · rw [List.find?_cons_of_pos (by simpa using ha)]
      · rw [List.find?_cons_of_pos (by simpa [h1.1] using ha)]
    · rw [List.find?_cons_of_neg (by simpa using ha), List.find?_cons_of_neg (by simpa [h1.1] using ha)]
      exact ih

theorem sdefBins_near {m M : ℝ} (hm : 0 < m) (hM : 0 < M) {c c' : SdefCards ℝ} (h1 : c'.si3 = c.si3)
    (h2 : List.Forall₂ (NearTo m M) c.sp3 c'.sp3) (h3 : c'.ds4 = c.ds4)
    (h4 : List.Forall₂ (fun a b => b.1 = a.1 ∧ b.2.1 = a.2.1 ∧ List.Forall₂ (NearTo m M) a.2.2 b.2.2)
      c.vertical c'.vertical) :
    List.Forall₂ (fun p q : SBin ℝ => q.rLo = p.rLo ∧ q.rHi = p.rHi ∧ q.zLo = p.zLo ∧ q.zHi = p.zHi ∧
      WithinFactor ((M / m) ^ 2) p.prob q.prob) (sdefBins c) (sdefBins c') := by
  unfold sdefBins
  rw [h1, h3]
  have hz := forall₂_zip_left (histogram_near hm hM c.si3 h2) c.ds4
  generalize List.zip (histogram c.si3 c.sp3) c.ds4 = A at hz
  generalize List.zip (histogram c.si3 c'.sp3) c.ds4 = B at hz
  induction hz with
  | nil => exact .nil
  | @cons a b A B hab _ ih =>
    simp only [List.flatMap_cons]
    refine List.rel_append ?_ ih
    obtain ⟨⟨e1, e2, e3, e4, e5⟩, e6⟩ := hab
    rw [e6]
    rcases find_near a.2 h4 with ⟨f1, f2⟩ | ⟨u, v, f1, f2, f3, f4⟩
    · rw [f1, f2]; exact .nil
    · rw [f1, f2]
      simp only [f3]
      rw [List.forall₂_map_left_iff, List.forall₂_map_right_iff]
      refine (histogram_near hm hM u.2.1 f4).imp ?_
      rintro p q ⟨g1, g2, g3, g4, g5⟩
      exact ⟨e1, e2, g1, g2, within_mul (div_nonneg hM.le hm.le) e4 g4 e5 g5 e3 g3⟩

theorem columns_near {m M : ℝ} (zi : List ℤ) {l l' : List ℝ} (h : List.Forall₂ (NearTo m M) l l') :
    List.Forall₂ (List.Forall₂ (NearTo m M)) (columns zi l) (columns zi l') := by
  unfold columns
  generalize zi.tail = zt
  induction zi generalizing zt with
  | nil => simp
  | cons a zi ih =>
    cases zt with
    | nil => simp
    | cons b zt => exact .cons (List.forall₂_take _ (List.forall₂_drop _ h)) (ih zt)

/-- The cards made of loaded numbers. -/
theorem cardsLoaded_near {m M : ℝ} (hm : 0 < m) (hM : 0 < M) (x z : List ℝ) (L : ℝ) {l d4 d5 : List ℝ} (hne : x ≠ [])
    (h4 : List.Forall₂ (NearTo m M) l d4) (h5 : List.Forall₂ (NearTo m M) l d5) :
    ∃ c c', sdefCards x z L l = .ok c ∧ sdefCardsLoaded x z L d4 d5 = .ok c' ∧
      List.Forall₂ (fun p q : SBin ℝ => q.rLo = p.rLo ∧ q.rHi = p.rHi ∧ q.zLo = p.zLo ∧ q.zHi = p.zHi ∧
        WithinFactor ((M / m) ^ 2) p.prob q.prob) (sdefBins c) (sdefBins c') := by
  have hb : ∃ b, rBounds (x.map (· * 100)) (L * 100) = .ok b := by
    obtain ⟨c, hc⟩ := sdefCards_ok x z l L hne
    unfold sdefCards at hc
    cases hb : rBounds (x.map (· * 100)) (L * 100) with
    | error e => simp only [hb] at hc; cases hc
    | ok b => exact ⟨b, rfl⟩
  obtain ⟨b, hb⟩ := hb
  unfold sdefCards sdefCardsLoaded
  simp only [hb]
  refine ⟨_, _, rfl, rfl, sdefBins_near hm hM rfl ?_ rfl ?_⟩
  · refine .cons ⟨le_rfl, by simp, by simp⟩ ?_
    simp only [List.forall₂_map_left_iff, List.forall₂_map_right_iff]
    exact (columns_near _ h4).imp (fun _ _ h => near_sum h)
  · unfold verticalCards
    refine forall₂_zipWith_right (R := fun a b => b.1 = a.1 ∧ List.Forall₂ (NearTo m M) a.2 b.2) _ _ ?_ _ ?_
    · rintro n a b ⟨h1, h2⟩; exact ⟨rfl, h1, h2⟩
    · refine forall₂_zipWith_right (R := List.Forall₂ (NearTo m M)) _ _ ?_ _ (columns_near _ h5)
      intro p a b hab
      exact ⟨rfl, .cons ⟨le_rfl, by simp, by simp⟩ hab⟩

theorem fiveFile_near (stub : String) (S : Source ℝ) (r : Reaction) {l : List ℝ} {F : Five} {f : ℝ} (hf : 0 < f)
    (hne : S.x ≠ []) (h0 : ∀ a ∈ l, 0 ≤ a) (hT : ∀ t ∈ S.temperature, 0 ≤ t) (hF : FiveOk f l F) :
    ∃ a b, fiveFile stub S r ⟨l, l, l, l, l⟩ = .ok a ∧ fiveFile stub S r F = .ok b ∧ SameSdef (max f (1 / f)) a b := by
  have hm : 0 < min 1 f := lt_min one_pos hf
  have hM : 0 < max 1 f := lt_of_lt_of_le one_pos (le_max_left _ _)
  have n1 := near_sum (near_oldNew hf hF.total h0)
  have n2 := near_sum (near_zip (near_oldNew hf hF.product h0) S.temperature hT)
  have n3 := near_sum (near_oldNew hf hF.weight h0)
  obtain ⟨c, c', hc, hc', hbins⟩ := cardsLoaded_near hm hM S.x S.z S.cellSideLength hne
    (near_oldNew hf hF.column h0) (near_oldNew hf hF.vertical h0)
  have e1 : fiveFile stub S r ⟨l, l, l, l, l⟩ = .ok ⟨sdefFileName stub r, r, l.sum, meanIonTemp l S.temperature, c⟩ := by
    rw [fiveFile_same, hc]; rfl
  have e2 : fiveFile stub S r F = .ok ⟨sdefFileName stub r, r, F.total.sum,
      XF.fin (List.zipWith (· * ·) F.product S.temperature).sum / XF.fin F.weight.sum, c'⟩ := by
    unfold fiveFile sdefFileLoaded
    rw [hc']; rfl
  refine ⟨_, _, e1, e2, rfl, rfl, ?_, ?_, by rw [factor_eq hf]; exact hbins⟩
  · rw [factor_eq hf]
    have h := (near_div (b := 1) (b' := 1) hm hM n1 ⟨zero_le_one, by simp, by simp⟩).1
    simpa using h
  · rcases n3.1.lt_or_eq with h | h
    · right
      have h' : 0 < F.weight.sum := lt_of_lt_of_le (mul_pos hm h) n3.2.1
      refine ⟨_, _, XF.fin_div _ _ h.ne', XF.fin_div _ _ h'.ne', ?_⟩
      rw [factor_eq hf]
      exact (near_div hm hM n2 n3).1
    · left
      have z1 : F.weight.sum = 0 := le_antisymm (by have := n3.2.2; rwa [← h, mul_zero] at this)
        (by have := n3.2.1; rwa [← h, mul_zero] at this)
      have z2 : F.total.sum = 0 := le_antisymm (by have := n1.2.2; rwa [← h, mul_zero] at this)
        (by have := n1.2.1; rwa [← h, mul_zero] at this)
      have hl : ∀ v ∈ l, v = 0 := fun v hv => le_antisymm (h ▸ List.single_le_sum h0 v hv) (h0 v hv)
      have z3 : ∀ (l : List ℝ) (T : List ℝ), (∀ v ∈ l, v = 0) → (List.zipWith (· * ·) l T).sum = 0 := by
        intro l
        induction l with
        | nil => intro T _; simp
        | cons a l ih =>
          intro T h
          cases T with
          | nil => simp
          | cons t T =>
            rw [List.zipWith_cons_cons, List.sum_cons, h a List.mem_cons_self,
              ih T (fun v hv => h v (List.mem_cons_of_mem _ hv))]
            simp
      have z4 := z3 l S.temperature hl
      have z5 : (List.zipWith (· * ·) F.product S.temperature).sum = 0 := by
        rw [z4] at n2
        exact le_antisymm (by simpa using n2.2.2) (by simpa using n2.2.1)
      refine ⟨h.symm, z2, C30_zero l S.temperature hl, ?_⟩
      show XF.fin _ / XF.fin _ = XF.nan
      rw [z1, z5]
      show XF.div _ _ = _
      simp [XF.div, XF.signedInf]

theorem mapM_ok_forall₂ {α β β' : Type} {R : β → β' → Prop} (l : List α) (F : α → Except Err β) (F' : α → Except Err β')
    (h : ∀ a ∈ l, ∃ b b', F a = .ok b ∧ F' a = .ok b' ∧ R b b') :
    ∃ m m', l.mapM F = .ok m ∧ l.mapM F' = .ok m' ∧ List.Forall₂ R m m' := by
  induction l with
  | nil => exact ⟨[], [], rfl, rfl, .nil⟩
  | cons a l ih =>
    obtain ⟨b, b', h1, h2, h3⟩ := h a List.mem_cons_self
    obtain ⟨m, m', h4, h5, h6⟩ := ih (fun a ha => h a (List.mem_cons_of_mem _ ha))
    refine ⟨b :: m, b' :: m', ?_, ?_, .cons h3 h6⟩
    · rw [List.mapM_cons, h1, h4]; rfl
    · rw [List.mapM_cons, h2, h5]; rfl

theorem cells_of_power {S : Source ℝ} (hp : S.Phys) {q : Reaction → ℝ} (hpow : 0 < S.totalPower q) : S.x ≠ [] := by
  intro hx
  have : S.totalPower q = 0 := by
    unfold Source.totalPower
    refine List.sum_eq_zero ?_
    intro v hv
    obtain ⟨r, -, rfl⟩ := List.mem_map.1 hv
    have : S.strength.getD r [] = [] := by
      unfold Dict.getD
      cases h : S.strength.get? r with
      | none => rfl
      | some l =>
        have := hp.len r l h
        rw [hx] at this
        exact List.eq_nil_of_length_eq_zero this
    rw [this]
    rfl
  linarith

/-- **C102**, the same source: while one thread calls `normalise_fusion_power(P)` on a source (and others normalise other
sources), `to_sdef_card` on that source writes, under every schedule, the same files as alone, with the same bins; with
`f = P / power` the totals and the ion temperatures are wrong by at most the factor `f` (or its inverse), the probability of
each bin by at most its square. -/
theorem C102_bounded (pkg : Package) (ops : List Op) (before after : List (ℕ × ℝ)) (j : ℕ) (P : ℝ) (hP : 0 < P)
    (hbefore : j ∉ before.map Prod.fst) (hafter : j ∉ after.map Prod.fst)
    {sv : Reaction → List ℝ → Except Err (List ℝ)} {S : Source ℝ} (hr : PhysReachable pkg.pi pkg.energy sv S)
    (hS : (World.run pkg ops).source? j = some S.toXF) (hpow : 0 < S.totalPower pkg.energy)
    (hT : ∀ t ∈ S.temperature, 0 ≤ t) (stub : String) :
    ∃ (files : List (SdefFile ℝ)) (steps : ℕ), S.toSdef stub = .ok files ∧ ∀ sched : List (Option ℕ),
      let f := P / S.totalPower pkg.energy
      let res := ((SdefPool.start (startAll (World.run pkg ops) (before ++ (j, P) :: after)) j).run pkg sched).result stub
      let Good := ∃ files', res = some (.ok files') ∧ List.Forall₂ (SameSdef (max f (1 / f))) files files'
      (res = none ∨ Good) ∧ (steps ≤ sched.count none → Good) := by
  obtain ⟨g, hc⟩ := reachable_closed hr.reachable
  have hp := hr.phys.2
  set f := P / S.totalPower pkg.energy with hfdef
  have hf : 0 < f := div_pos hP hpow
  have hne : S.sourceType ≠ [] := by
    intro e
    rw [Source.totalPower, e] at hpow
    simp at hpow
  have hW := chanPower_total hc pkg.energy
  have hstep : ∀ c, During S pkg.energy g (ratesOf g) f c →
      During S pkg.energy g (ratesOf g) f (vstep (energyX pkg) (.fin P) c) := fun c h =>
    during_step (P := P) hc.1 hne (by rw [hW]; exact hpow.ne') (by rw [hW]) h
  have h0 := swatched_start pkg ops (before ++ (j, P) :: after) j hc hS f P
    (During S pkg.energy g (ratesOf g) f) before.length (by
      intro t c h1 h2
      have hnb : ∀ (t : ℕ) (c : ℕ × ℝ), before[t]? = some c → c.1 ≠ j := fun t c h e =>
        hbefore (List.mem_map.2 ⟨c, List.mem_of_getElem? h, e⟩)
      have hna : ∀ (t : ℕ) (c : ℕ × ℝ), after[t]? = some c → c.1 ≠ j := fun t c h e =>
        hafter (List.mem_map.2 ⟨c, List.mem_of_getElem? h, e⟩)
      rcases lt_trichotomy t before.length with hlt | rfl | hgt
      · rw [List.getElem?_append_left hlt] at h1
        exact absurd h2 (hnb t c h1)
      · rw [List.getElem?_append_right le_rfl, Nat.sub_self] at h1
        cases h1
        exact ⟨rfl, rfl, during_start hc _ _⟩
      · rw [List.getElem?_append_right hgt.le, List.getElem?_cons, if_neg (by omega)] at h1
        exact absurd h2 (hna _ c h1))
  have hgnn : ∀ r ∈ S.sourceType, ∀ v ∈ g r, 0 ≤ v := fun r hr =>
    hp.nonneg r (g r) (by rw [hc.2.1, Dict.get?_map_pair, if_pos hr])
  have both : ∀ F : Reaction → Five, (∀ r ∈ S.sourceType.filter (fun r => r.isNeutronic), FiveOk f (g r) (F r)) →
      ∃ m m', S.toSdef stub = .ok m ∧
        (S.sourceType.filter (fun r => r.isNeutronic)).mapM (fun r => fiveFile stub S r (F r)) = .ok m' ∧
        List.Forall₂ (SameSdef (max f (1 / f))) m m' := by
    intro F hF
    rw [toSdef_closed stub hc]
    exact mapM_ok_forall₂ _ _ _ (fun r hr =>
      fiveFile_near stub S r hf (cells_of_power hp hpow) (hgnn r (List.mem_filter.1 hr).1) hT (hF r hr))
  obtain ⟨files, -, hfiles, -, -⟩ := both (fun r => ⟨g r, g r, g r, g r, g r⟩) (fun r _ =>
    ⟨forall₂_old f _, forall₂_old f _, forall₂_old f _, forall₂_old f _, forall₂_old f _⟩)
  refine ⟨files, leftNext g (S.sourceType.filter (fun r => r.isNeutronic)), hfiles, fun sched => ?_⟩
  have h1 := swatched_run pkg (fun c hd => hd.torn) hstep sched h0
  obtain ⟨r1, r2⟩ := swatched_result stub hc.1 h1
  have r3 : ∀ res, ((SdefPool.start (startAll (World.run pkg ops) (before ++ (j, P) :: after)) j).run pkg
      sched).result stub = some res → ∃ files', res = .ok files' ∧
        List.Forall₂ (SameSdef (max f (1 / f))) files files' := by
    intro res hres
    obtain ⟨F, hF, rfl⟩ := r2 res hres
    obtain ⟨m, m', e1, e2, e3⟩ := both F hF
    rw [hfiles] at e1
    cases e1
    exact ⟨m', e2, e3⟩
  dsimp only
  cases hres : ((SdefPool.start (startAll (World.run pkg ops) (before ++ (j, P) :: after)) j).run pkg
      sched).result stub with
  | none =>
    refine ⟨Or.inl rfl, fun hle => ?_⟩
    have := r1 (by omega)
    rw [hres] at this
    cases this
  | some res =>
    obtain ⟨files', rfl, h2⟩ := r3 res hres
    exact ⟨Or.inr ⟨files', rfl, h2⟩, fun _ => ⟨files', rfl, h2⟩⟩

/-! ### A schedule that mixes old and new strengths in the mean temperature -/

/-- The exporting thread gets from one point to another while the source stands still. -/
def SLeads (S : Source (XF ℝ)) (a b : SdefPc) : Prop := ∃ n, (sstep S)^[n] a = b

theorem SLeads.refl {S : Source (XF ℝ)} (a : SdefPc) : SLeads S a a := ⟨0, rfl⟩

theorem SLeads.head {S : Source (XF ℝ)} {a b c : SdefPc} (h : sstep S a = b) (h' : SLeads S b c) : SLeads S a c := by
  obtain ⟨n, rfl⟩ := h'
  exact ⟨n + 1, by rw [Function.iterate_succ_apply, h]⟩

theorem SLeads.trans {S : Source (XF ℝ)} {a b c : SdefPc} (h : SLeads S a b) (h' : SLeads S b c) : SLeads S a c := by
  obtain ⟨n, rfl⟩ := h
  obtain ⟨k, rfl⟩ := h'
  exact ⟨k + n, by rw [Function.iterate_add_apply]⟩

theorem sleads_pass {S : Source (XF ℝ)} (d : Dict Reaction (List (List (XF ℝ)))) (r : Reaction)
    (got : List (List (XF ℝ))) (todo : List Reaction) :
    SLeads S (.pass d r got [] todo)
      (if got.length + 1 = sdefPasses then .next (d ++ [(r, got ++ [S.strength.getD r []])]) todo
        else .pass d r (got ++ [S.strength.getD r []]) [] todo) := by
  set l := S.strength.getD r [] with hl
  have gen : ∀ k i, i + k = l.length → SLeads S (.pass d r got (l.take i) todo)
      (if got.length + 1 = sdefPasses then .next (d ++ [(r, got ++ [l])]) todo
        else .pass d r (got ++ [l]) [] todo) := by
    intro k
    induction k with
    | zero =>
      intro i hi
      have h1 : (l.take i).length = l.length := by simp; omega
      refine SLeads.head (b := _) ?_ (SLeads.refl _)
      simp only [sstep, ← hl, h1, List.getElem?_eq_none le_rfl]
      rw [List.take_of_length_le (by omega)]
    | succ k ih =>
      intro i hi
      have h1 : (l.take i).length = i := by simp; omega
      have h2 : l[i]? = some l[i] := List.getElem?_eq_getElem (by omega)
      refine SLeads.head (b := .pass d r got (l.take (i + 1)) todo) ?_ (ih (i + 1) (by omega))
      simp only [sstep, ← hl, h1, h2]
      rw [List.take_add_one, h2]
      rfl
  have := gen l.length 0 (by omega)
  simpa using this

theorem sleads_two {S : Source (XF ℝ)} (d : Dict Reaction (List (List (XF ℝ)))) (r : Reaction) (todo : List Reaction) :
    SLeads S (.next d (r :: todo)) (.pass d r [S.strength.getD r [], S.strength.getD r []] [] todo) :=
  SLeads.head (b := .pass d r [] [] todo) rfl ((sleads_pass d r [] todo).trans (sleads_pass d r [_] todo))

theorem sleads_three {S : Source (XF ℝ)} (d : Dict Reaction (List (List (XF ℝ)))) (r : Reaction) (a b : List (XF ℝ))
    (todo : List Reaction) :
    SLeads S (.pass d r [a, b] [] todo)
      (.next (d ++ [(r, [a, b, S.strength.getD r [], S.strength.getD r [], S.strength.getD r []])]) todo) :=
  ((sleads_pass d r [a, b] todo).trans (sleads_pass d r [a, b, _] todo)).trans (sleads_pass d r [a, b, _, _] todo)

theorem sleads_next {S : Source (XF ℝ)} (todo rest : List Reaction) :
    ∀ d, SLeads S (.next d (todo ++ rest)) (.next (d ++ todo.map (fun r => (r, [S.strength.getD r [], S.strength.getD r [],
      S.strength.getD r [], S.strength.getD r [], S.strength.getD r []]))) rest) := by
  induction todo with
  | nil => intro d; simpa using SLeads.refl _
  | cons r todo ih =>
    intro d
    have h := ((sleads_two (S := S) d r (todo ++ rest)).trans (sleads_three d r _ _ (todo ++ rest))).trans (ih _)
    simpa using h

theorem sleads_end {S : Source (XF ℝ)} (todo : List Reaction) (d : Dict Reaction (List (List (XF ℝ)))) :
    SLeads S (.next d todo) (.written (d ++ todo.map (fun r => (r, [S.strength.getD r [], S.strength.getD r [],
      S.strength.getD r [], S.strength.getD r [], S.strength.getD r []])))) := by
  have h := sleads_next (S := S) todo [] d
  rw [List.append_nil] at h
  exact h.trans (SLeads.head rfl (SLeads.refl _))

theorem sdef_solo (pkg : Package) (n : ℕ) : ∀ (e : SdefPool) (S : Source (XF ℝ)), e.pool.world.source? e.src = some S →
    e.run pkg (List.replicate n none) = { e with pc := (sstep S)^[n] e.pc } := by
  induction n with
  | zero => intro e S _; rfl
  | succ n ih =>
    intro e S hS
    obtain ⟨s, hs, rfl⟩ : ∃ s, e.pool.world.sources[e.src]? = some s ∧ s.view e.pool.world.arrays = S := by
      simpa [World.source?] using hS
    have e1 : e.step pkg none = { e with pc := sstep (s.view e.pool.world.arrays) e.pc } := by
      simp only [SdefPool.step, hs, sstep_sim]
    rw [List.replicate_succ, SdefPool.run, List.foldl_cons, e1]
    exact ih { e with pc := sstep (s.view e.pool.world.arrays) e.pc } _ hS

theorem sdef_pool (pkg : Package) (sched : List ℕ) : ∀ (e : SdefPool),
    e.run pkg (sched.map some) = { e with pool := e.pool.run pkg sched } := by
  induction sched with
  | nil => intro e; rfl
  | cons t sched ih => intro e; exact ih { e with pool := e.pool.step pkg t }

theorem sdef_append (pkg : Package) (e : SdefPool) (l l' : List (Option ℕ)) :
    e.run pkg (l ++ l') = (e.run pkg l).run pkg l' := by
  simp [SdefPool.run, List.foldl_append]

/-- The file of a channel after the normalisation. -/
theorem fiveFile_new (stub : String) (S : Source ℝ) (r : Reaction) (l : List ℝ) {f : ℝ} (hf : 0 < f) {a : SdefFile ℝ}
    (ha : fiveFile stub S r ⟨l, l, l, l, l⟩ = .ok a) :
    ∃ b, fiveFile stub S r ⟨l.map (· * f), l.map (· * f), l.map (· * f), l.map (· * f), l.map (· * f)⟩ = .ok b ∧
      b.name = a.name ∧ b.reaction = a.reaction ∧ sdefBins b.cards = sdefBins a.cards ∧ b.ionTemp = a.ionTemp ∧
      a.reaction = r := by
  rw [fiveFile_same] at ha ⊢
  cases hc : sdefCards S.x S.z S.cellSideLength l with
  | error e => rw [hc] at ha; cases ha
  | ok c =>
    rw [hc] at ha
    cases ha
    obtain ⟨c', hc', hb⟩ := sdefCards_scale S.x S.z l S.cellSideLength f hf.ne' c hc
    rw [hc']
    exact ⟨_, rfl, rfl, rfl, hb, meanIonTemp_scale f hf l S.temperature, rfl⟩

/-- The file of the channel in whose mean temperature the old and the new strengths meet. -/
theorem fiveFile_mixed (stub : String) (S : Source ℝ) (r : Reaction) (l : List ℝ) {f : ℝ} (hf : 0 < f)
    (hl : 0 < l.sum) {a : SdefFile ℝ} (ha : fiveFile stub S r ⟨l, l, l, l, l⟩ = .ok a) :
    ∃ b, fiveFile stub S r ⟨l, l, l.map (· * f), l.map (· * f), l.map (· * f)⟩ = .ok b ∧
      b.name = a.name ∧ b.reaction = a.reaction ∧ sdefBins b.cards = sdefBins a.cards ∧ b.total = a.total ∧
      ∃ u, a.ionTemp = .fin u ∧ b.ionTemp = .fin (u / f) := by
  rw [fiveFile_same] at ha
  cases hc : sdefCards S.x S.z S.cellSideLength l with
  | error e => rw [hc] at ha; cases ha
  | ok c =>
    rw [hc] at ha
    cases ha
    obtain ⟨c', hc', hb⟩ := sdefCards_scale S.x S.z l S.cellSideLength f hf.ne' c hc
    have hc'' : sdefCardsLoaded S.x S.z S.cellSideLength (l.map (· * f)) (l.map (· * f)) = .ok c' := hc'
    unfold fiveFile sdefFileLoaded
    rw [hc'']
    have e1 : (l.map (· * f)).sum = l.sum * f := by rw [List.sum_map_mul_right, List.map_id']
    refine ⟨_, rfl, rfl, rfl, hb, rfl, _, XF.fin_div _ _ hl.ne', ?_⟩
    show XF.fin _ / XF.fin _ = _
    rw [e1, XF.fin_div _ _ (mul_pos hl hf).ne', div_div]

/-- **C102**, the bound is reached: for every source that releases power, every power and every neutron-producing channel
that reacts there is a schedule under which the file of that channel states the undisturbed total, the same distribution in
space and the ion temperature divided by `f = P / power`.  (Alone, the export states the same temperature before and after the
normalisation, C30.) -/
theorem C102_mixed (pkg : Package) (ops : List Op) (j : ℕ) (P : ℝ) (hP : 0 < P)
    {sv : Reaction → List ℝ → Except Err (List ℝ)} {S : Source ℝ} (hr : PhysReachable pkg.pi pkg.energy sv S)
    (hS : (World.run pkg ops).source? j = some S.toXF) (hpow : 0 < S.totalPower pkg.energy)
    (r : Reaction) (hrm : r ∈ S.sourceType) (hrn : 0 < neutronYield r) (hpos : 0 < (S.strength.getD r []).sum)
    (stub : String) :
    ∃ (sched : List (Option ℕ)) (files files' : List (SdefFile ℝ)), S.toSdef stub = .ok files ∧
      ((SdefPool.start (startAll (World.run pkg ops) [(j, P)]) j).run pkg sched).result stub = some (.ok files') ∧
      (∃ a ∈ files, a.reaction = r) ∧
      List.Forall₂ (fun a b => b.name = a.name ∧ b.reaction = a.reaction ∧ sdefBins b.cards = sdefBins a.cards ∧
        (a.reaction ≠ r → b.ionTemp = a.ionTemp) ∧
        (a.reaction = r → b.total = a.total ∧ ∃ u, a.ionTemp = .fin u ∧
          b.ionTemp = .fin (u / (P / S.totalPower pkg.energy)))) files files' := by
  obtain ⟨g, hc⟩ := reachable_closed hr.reachable
  have hp := hr.phys.2
  set f := P / S.totalPower pkg.energy with hfdef
  have hf : 0 < f := div_pos hP hpow
  have hne := cells_of_power hp hpow
  have hrn' : r.isNeutronic = true := by
    rcases r with (_ | _ | _) | (_ | _) <;> simp_all [neutronYield, Reaction.isNeutronic]
  have hrf : r ∈ S.sourceType.filter (fun r => r.isNeutronic) := List.mem_filter.2 ⟨hrm, hrn'⟩
  rw [getD_closed hc.2.1 r hrm] at hpos
  obtain ⟨bef, aft, hsplit⟩ := List.append_of_mem hrf
  have hnd : (bef ++ r :: aft).Nodup := hsplit ▸ hc.1.filter _
  have hnd1 := List.nodup_append.1 hnd
  have hmemT : ∀ r' ∈ bef ++ r :: aft, r' ∈ S.sourceType := fun r' h =>
    (List.mem_filter.1 (show r' ∈ S.sourceType.filter (fun r => r.isNeutronic) by rw [hsplit]; exact h)).1
  -- the source after the normalisation
  obtain ⟨S1, n1, x1⟩ := C07_finite_when_power hr.reachable hpow.ne' P
  have x1' : S.toXF.normaliseRaw (energyX pkg) (.fin P) = .ok S1.toXF := x1
  have hcall := leads_call (Q := energyX pkg) (P := .fin P) S.toXF (keyed_of_reachable hr.reachable)
  rw [x1'] at hcall
  have hcall : Leads (energyX pkg) (.fin P) (S.toXF, .power [] S.toXF.sourceType) (S1.toXF, .done) := hcall
  obtain ⟨n, hn⟩ := hcall
  obtain ⟨-, -, e1⟩ := (Source.normalise_ok_iff _ _ _ _).1 n1
  have hS1 := hc.scale f
  rw [← hfdef] at e1
  rw [← e1] at hS1
  obtain ⟨q1, q2⟩ := hS1
  have q3 : S1.sourceType = S.sourceType := by rw [q1]
  have c0 : ∀ r' ∈ S.sourceType, S.toXF.strength.getD r' [] = (g r').map XF.fin := by
    intro r' h
    rw [(toXF_parts hc).1, Dict.getD, Dict.get?_map_pair, if_pos h]; rfl
  have c1 : ∀ r' ∈ S.sourceType, S1.toXF.strength.getD r' [] = ((g r').map (· * f)).map XF.fin := by
    intro r' h
    rw [(toXF_parts q2).1, Dict.getD, Dict.get?_map_pair, if_pos (by rw [q3]; exact h)]; rfl
  -- the schedule
  obtain ⟨k1, hk1⟩ := (sleads_next (S := S.toXF) bef (r :: aft) []).trans (sleads_two _ r aft)
  obtain ⟨k2, hk2⟩ := ((sleads_three (S := S1.toXF) (bef.map (fun r => (r, [S.toXF.strength.getD r [],
      S.toXF.strength.getD r [], S.toXF.strength.getD r [], S.toXF.strength.getD r [], S.toXF.strength.getD r []]))) r
      (S.toXF.strength.getD r []) (S.toXF.strength.getD r []) aft).trans
    (sleads_end aft _))
  rw [List.nil_append] at hk1
  set e0 := SdefPool.start (startAll (World.run pkg ops) [(j, P)]) j with he0
  have he0' : e0 = ⟨startAll (World.run pkg ops) [(j, P)], j, .next [] (bef ++ r :: aft)⟩ := by
    rw [← hsplit]; exact sdef_start _ _ j hc hS
  have s1 := sdef_solo pkg k1 e0 S.toXF (by rw [he0']; exact hS)
  have hpc0 : e0.pc = .next [] (bef ++ r :: aft) := by rw [he0']
  rw [hpc0, hk1] at s1
  have hth : (startAll (World.run pkg ops) [(j, P)]).threads[0]? = some ⟨j, P, .power [] S.toXF.sourceType⟩ := by
    simp only [startAll, List.map_cons, List.map_nil, start_of_source _ _ _ _ hS]; rfl
  obtain ⟨-, w2, -⟩ := pool_solo pkg 0 n _ _ S.toXF (inv_run pkg ops) hth hS
  simp only at w2
  rw [hn] at w2
  have w2 : ((startAll (World.run pkg ops) [(j, P)]).run pkg (List.replicate n 0)).world.source? j = some S1.toXF := w2
  set fin := (e0.run pkg (List.replicate k1 none ++ (List.replicate n 0).map some ++ List.replicate k2 none)) with hfin
  set F : Reaction → Five := fun r' =>
    if r' ∈ bef then ⟨g r', g r', g r', g r', g r'⟩
    else if r' = r then ⟨g r', g r', (g r').map (· * f), (g r').map (· * f), (g r').map (· * f)⟩
    else ⟨(g r').map (· * f), (g r').map (· * f), (g r').map (· * f), (g r').map (· * f), (g r').map (· * f)⟩ with hF
  have Fb : ∀ r' ∈ bef, F r' = ⟨g r', g r', g r', g r', g r'⟩ := fun r' h => by simp only [hF, if_pos h]
  have hrb : r ∉ bef := fun h => hnd1.2.2 r h r (by simp) rfl
  have Fr : F r = ⟨g r, g r, (g r).map (· * f), (g r).map (· * f), (g r).map (· * f)⟩ := by
    simp only [hF, if_neg hrb, if_true]
  have Fa : ∀ r' ∈ aft, F r' =
      ⟨(g r').map (· * f), (g r').map (· * f), (g r').map (· * f), (g r').map (· * f), (g r').map (· * f)⟩ := by
    intro r' h
    have h1 : r' ∉ bef := fun h' => hnd1.2.2 r' h' r' (List.mem_cons_of_mem _ h) rfl
    have h2 : r' ≠ r := by rintro rfl; exact (List.nodup_cons.1 hnd1.2.1).1 h
    simp only [hF, if_neg h1, if_neg h2]
  have s3 : fin = ⟨(startAll (World.run pkg ops) [(j, P)]).run pkg (List.replicate n 0), j,
      .written ((bef ++ r :: aft).map (fun r' => (r', (F r').lists.map (fun l => l.map XF.fin))))⟩ := by
    rw [hfin, sdef_append, sdef_append, s1, sdef_pool, sdef_solo pkg k2 _ S1.toXF (by rw [he0']; exact w2), he0']
    refine congrArg (SdefPool.mk _ _) (hk2.trans (congrArg SdefPc.written ?_))
    rw [List.map_append, List.map_cons, Fr]
    have e1 : bef.map (fun r' => (r', (F r').lists.map (fun l => l.map XF.fin))) =
        bef.map (fun r => (r, [S.toXF.strength.getD r [], S.toXF.strength.getD r [], S.toXF.strength.getD r [],
          S.toXF.strength.getD r [], S.toXF.strength.getD r []])) :=
      List.map_congr_left (fun r' h => by rw [Fb r' h, c0 r' (hmemT r' (by simp [h]))]; rfl)
    have e2 : aft.map (fun r' => (r', (F r').lists.map (fun l => l.map XF.fin))) =
        aft.map (fun r => (r, [S1.toXF.strength.getD r [], S1.toXF.strength.getD r [], S1.toXF.strength.getD r [],
          S1.toXF.strength.getD r [], S1.toXF.strength.getD r []])) :=
      List.map_congr_left (fun r' h => by rw [Fa r' h, c1 r' (hmemT r' (by simp [h]))]; rfl)
    rw [e1, e2, c0 r hrm, c1 r hrm]
    simp [Five.lists]
  have hres : fin.result stub = some ((bef ++ r :: aft).mapM (fun r => fiveFile stub S r (F r))) := by
    refine written_result stub (S0 := S) (S := S1.toXF) (by rw [s3]; exact w2) ?_ ?_ ?_ ?_ _ F (by rw [s3])
    · rw [q1]; rfl
    · rw [q1]; rfl
    · rw [q1]; rfl
    · rw [q1]; rfl
  -- its files
  obtain ⟨files, hfiles⟩ : ∃ files, S.toSdef stub = .ok files := by
    obtain ⟨files, h, -⟩ := C28_files hr.reachable hne stub
    exact ⟨files, h⟩
  obtain ⟨m, m', h1, h2, h3⟩ := mapM_ok_forall₂ (R := fun a b => b.name = a.name ∧ b.reaction = a.reaction ∧
      sdefBins b.cards = sdefBins a.cards ∧ (a.reaction ≠ r → b.ionTemp = a.ionTemp) ∧
      (a.reaction = r → b.total = a.total ∧ ∃ u, a.ionTemp = .fin u ∧ b.ionTemp = .fin (u / f)))
    (bef ++ r :: aft) (fun r => fiveFile stub S r ⟨g r, g r, g r, g r, g r⟩) (fun r => fiveFile stub S r (F r)) (by
      intro r' hr'
      obtain ⟨a, ha⟩ : ∃ a, fiveFile stub S r' ⟨g r', g r', g r', g r', g r'⟩ = .ok a := by
        obtain ⟨c, hc⟩ := sdefCards_ok S.x S.z (g r') S.cellSideLength hne
        rw [fiveFile_same, hc]; exact ⟨_, rfl⟩
      obtain ⟨b, hb, b1, b2, b3, b4, b5⟩ := fiveFile_new stub S r' (g r') hf ha
      by_cases hrr : r' = r
      · subst hrr
        obtain ⟨b, hb, b1, b2, b3, b4, b5'⟩ := fiveFile_mixed stub S r' (g r') hf hpos ha
        exact ⟨a, b, ha, by rw [Fr]; exact hb, b1, b2, b3, fun h => absurd b5 h, fun _ => ⟨b4, b5'⟩⟩
      · rcases List.mem_append.1 hr' with h | h
        · exact ⟨a, a, ha, by rw [Fb r' h]; exact ha, rfl, rfl, rfl, fun _ => rfl,
            fun e => absurd (b5.symm.trans e) hrr⟩
        · have h : r' ∈ aft := by simpa [hrr] using h
          exact ⟨a, b, ha, by rw [Fa r' h]; exact hb, b1, b2, b3, fun _ => b4, fun e => absurd (b5.symm.trans e) hrr⟩)
  rw [toSdef_closed stub hc, hsplit] at hfiles ⊢
  refine ⟨_, m, m', h1, by rw [hres, h2], ?_, h3⟩
  obtain ⟨files2, hf2, hre, -⟩ := C28_files hr.reachable hne stub
  rw [toSdef_closed stub hc, hsplit, h1] at hf2
  cases hf2
  have : r ∈ m.map (·.reaction) := by
    rw [hre]; exact List.mem_filter.2 ⟨hrm, by simpa using hrn⟩
  obtain ⟨a, ha, he⟩ := List.mem_map.1 this
  exact ⟨a, ha, he⟩

end
end TNS
