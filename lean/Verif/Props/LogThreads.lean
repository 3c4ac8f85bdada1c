import Verif.Spec.LogThreads
import Mathlib.Data.List.Basic
import Mathlib.Data.List.Nodup
/-
C85: exports in several threads and the log filter.
-/

set_option autoImplicit false

namespace TNS
open Spec

/-! ### The code of the threads -/

/-- What is attached is detached later, and not attached twice. -/
def CodeWf : List Instr → Prop
  | [] => True
  | .attach lg e :: c => .detach lg e ∈ c ∧ .attach lg e ∉ c ∧ CodeWf c
  | .detach _ _ :: c => CodeWf c
  | .log _ :: c => CodeWf c

theorem CodeWf.tail {i : Instr} {c : List Instr} (h : CodeWf (i :: c)) : CodeWf c := by
  cases i <;> simp_all [CodeWf]

theorem attach_mem_code {l : List LogSession} {lg : Bool} {e : ℕ}
    (h : Instr.attach lg e ∈ l.flatMap LogSession.code) : e ∈ exportsOf l := by
  induction l with
  | nil => simp at h
  | cons a l ih =>
    rw [List.flatMap_cons, List.mem_append] at h
    cases a with
    | exporting e' body =>
      rcases h with h | h
      · simp [LogSession.code] at h
        simp only [exportsOf, List.mem_cons]
        exact .inl (by rcases h with h | h <;> exact h.2)
      · exact List.mem_cons_of_mem _ (ih h)
    | logging r =>
      rcases h with h | h
      · simp [LogSession.code] at h
      · exact ih h

theorem log_mem_code {l : List LogSession} {r : LogRecord} :
    Instr.log r ∈ l.flatMap LogSession.code ↔ r ∈ recordsOf l := by
  induction l with
  | nil => simp [recordsOf]
  | cons a l ih =>
    rw [List.flatMap_cons, List.mem_append, ih]
    cases a <;> simp [LogSession.code, recordsOf]

theorem codeWf_logs (body : List LogRecord) (c : List Instr) (h : CodeWf c) :
    CodeWf (body.map .log ++ c) := by
  induction body with
  | nil => exact h
  | cons a l ih => exact ih

theorem codeWf_prog (l : List LogSession) (h : (exportsOf l).Nodup) :
    CodeWf (l.flatMap LogSession.code) := by
  induction l with
  | nil => exact trivial
  | cons a l ih =>
    cases a with
    | exporting e body =>
      simp only [exportsOf, List.nodup_cons] at h
      have hn : ∀ lg, Instr.attach lg e ∉ l.flatMap LogSession.code := fun lg h' => h.1 (attach_mem_code h')
      have hw := ih h.2
      rw [List.flatMap_cons]
      simp only [LogSession.code, List.cons_append, List.append_assoc]
      refine ⟨by simp, ?_, by simp, ?_, ?_⟩
      · simpa using hn false
      · simpa using hn true
      · exact codeWf_logs _ _ (by simpa [CodeWf] using hw)
    | logging r =>
      rw [List.flatMap_cons]
      exact ih h

/-! ### The invariant -/

/-- Index in the history of attached filters. -/
abbrev pos (H : List FilterObj) (f : FilterObj) : ℕ := H.idxOf f

/-- The filters the call has still to take from the list. -/
def LogCall.rest (s : LogSys) (c : LogCall) : List FilterObj :=
  match c.phase with
  | .next => (s.filters c.record.logger).drop c.idx
  | _ => (s.filters c.record.logger).drop (c.idx + 1)

/-- The filter the call is asking. -/
def LogCall.asks (c : LogCall) (e : ℕ) : Prop := c.phase = .check e ∨ c.phase = .add e

/-- Every filter the call may still ask was attached after the filter of the export `e`. -/
structure Past (H : List FilterObj) (s : LogSys) (c : LogCall) (e : ℕ) : Prop where
  rest : ∀ g ∈ c.rest s, pos H (.quiet e) < pos H g
  asks : ∀ e', c.asks e' → pos H (.quiet e) < pos H (.quiet e')

structure LInv (user : ℕ → LogRecord → Bool) (F0 : Bool → List FilterObj) (prog : ℕ → List LogSession)
    (lgOf : String → Bool) (H : Bool → List FilterObj) (s : LogSys) : Prop where
  sub : ∀ b, (s.filters b).Sublist (H b)
  nodup : ∀ b, (H b).Nodup
  pre : ∀ b, F0 b <+: s.filters b
  preH : ∀ b, F0 b <+: H b
  userH : ∀ b n, .user n ∈ H b → .user n ∈ F0 b
  att : ∀ b e, .quiet e ∈ s.filters b → ∃ t, .detach b e ∈ (s.threads t).code
  fresh : ∀ t b e, .attach b e ∈ (s.threads t).code → .quiet e ∉ H b
  wf : ∀ t, CodeWf (s.threads t).code
  uniq : ∀ t t', t ≠ t' → ∀ b e, .attach b e ∈ (s.threads t).code → .attach b e ∉ (s.threads t').code
  lgCode : ∀ t r, .log r ∈ (s.threads t).code → r.logger = lgOf r.msg
  lgCall : ∀ t c, (s.threads t).call = some c → c.record.logger = lgOf c.record.msg
  cur : ∀ t c e, (s.threads t).call = some c → c.asks e → .quiet e ∈ H c.record.logger ∧
    ∀ g ∈ c.rest s, pos (H c.record.logger) (.quiet e) < pos (H c.record.logger) g
  memH : ∀ e m, m ∈ s.msgs e → .quiet e ∈ H (lgOf m)
  main : ∀ e m, m ∈ s.msgs e → m ∈ s.out.map LogRecord.msg ∨
    ∃ t c, (s.threads t).call = some c ∧ c.record.msg = m ∧ Past (H (lgOf m)) s c e
  told : ∀ t r, r ∈ recordsOf (prog t) → UserPasses user F0 r → .log r ∈ (s.threads t).code ∨
    (∃ c, (s.threads t).call = some c ∧ c.record = r) ∨ r.msg ∈ s.out.map LogRecord.msg ∨
    ∃ e, r.msg ∈ s.msgs e

theorem mem_drop_erase {α : Type} [DecidableEq α] {l : List α} {x g : α} :
    ∀ {k : ℕ}, g ∈ (l.erase x).drop k → g ∈ l.drop k := by
  induction l with
  | nil => simp
  | cons a l ih =>
    intro k h
    by_cases ha : a = x
    · subst ha
      rw [List.erase_cons_head] at h
      cases k with
      | zero => exact List.mem_cons_of_mem _ (by simpa using h)
      | succ k =>
        rw [List.drop_succ_cons]
        rw [← List.tail_drop] at h
        exact List.mem_of_mem_tail h
    · rw [List.erase_cons_tail (by simpa using ha)] at h
      cases k with
      | zero =>
        rw [List.drop_zero] at h ⊢
        rcases List.mem_cons.1 h with h | h
        · exact List.mem_cons.2 (.inl h)
        · exact List.mem_cons_of_mem _ (List.mem_of_mem_erase h)
      | succ k => rw [List.drop_succ_cons] at h ⊢; exact ih h

theorem pos_append {H : List FilterObj} {f x : FilterObj} (h : f ∈ H) : pos (H ++ [x]) f = pos H f :=
  List.idxOf_append_of_mem h

theorem pos_new {H : List FilterObj} {x : FilterObj} (h : x ∉ H) : pos (H ++ [x]) x = H.length := by
  unfold pos
  rw [List.idxOf_append_of_notMem h]
  simp

theorem pos_lt_length {H : List FilterObj} {f : FilterObj} (h : f ∈ H) : pos H f < H.length :=
  List.idxOf_lt_length_iff.2 h

/-- In a list without repetition, later elements have larger positions, also in a longer list. -/
theorem pos_lt_of_sublist {H l : List FilterObj} (hn : H.Nodup) (hs : l.Sublist H) {k : ℕ}
    {f g : FilterObj} (hf : l[k]? = some f) (hg : g ∈ l.drop (k + 1)) : pos H f < pos H g := by
  have hpw : H.Pairwise (fun a b => pos H a < pos H b) := by
    rw [List.pairwise_iff_getElem]
    intro i j hi hj hij
    unfold pos
    rw [List.Nodup.idxOf_getElem hn, List.Nodup.idxOf_getElem hn]
    exact hij
  have := hpw.sublist hs
  obtain ⟨hk, rfl⟩ := List.getElem?_eq_some_iff.1 hf
  rw [List.pairwise_iff_getElem] at this
  obtain ⟨i, hi, rfl⟩ := List.getElem_of_mem hg
  rw [List.getElem_drop]
  rw [List.length_drop] at hi
  exact this k (k + 1 + i) hk (by omega) (by omega)

/-- The filters of the user come before those of the exports. -/
theorem pos_user_lt {F0 H : List FilterObj} (hp : F0 <+: H) (hn : H.Nodup) {n e : ℕ}
    (hu : .user n ∈ F0) (he : FilterObj.quiet e ∉ F0) : pos H (.user n) < pos H (.quiet e) := by
  obtain ⟨t, rfl⟩ := hp
  unfold pos
  rw [List.idxOf_append_of_mem hu, List.idxOf_append_of_notMem he]
  have := List.idxOf_lt_length_iff.2 hu
  omega

section
variable {user : ℕ → LogRecord → Bool} {F0 : Bool → List FilterObj} {prog : ℕ → List LogSession}
  {lgOf : String → Bool} {H : Bool → List FilterObj} {s : LogSys}

theorem setCall_code (t t' : ℕ) (c : Option LogCall) :
    ((s.setCall t c).threads t').code = (s.threads t').code := by
  unfold LogSys.setCall
  by_cases h : t' = t
  · subst h; simp
  · simp [Function.update_of_ne h]

theorem setCall_call (t : ℕ) (c : Option LogCall) : ((s.setCall t c).threads t).call = c := by
  simp [LogSys.setCall]

theorem setCall_call_ne {t t' : ℕ} (c : Option LogCall) (h : t' ≠ t) :
    ((s.setCall t c).threads t').call = (s.threads t').call := by
  simp [LogSys.setCall, Function.update_of_ne h]

/-- A step of a log call: the code of the threads and the filters stay. -/
theorem LInv.call_step (hi : LInv user F0 prog lgOf H s) {s' : LogSys} {t : ℕ}
    (hf : s'.filters = s.filters) (hcode : ∀ t', (s'.threads t').code = (s.threads t').code)
    (hne : ∀ t', t' ≠ t → (s'.threads t').call = (s.threads t').call)
    (hlg : ∀ c, (s'.threads t).call = some c → c.record.logger = lgOf c.record.msg)
    (hcur : ∀ c e, (s'.threads t).call = some c → c.asks e → .quiet e ∈ H c.record.logger ∧
      ∀ g ∈ c.rest s, pos (H c.record.logger) (.quiet e) < pos (H c.record.logger) g)
    (hmem : ∀ e m, m ∈ s'.msgs e → .quiet e ∈ H (lgOf m))
    (hmain : ∀ e m, m ∈ s'.msgs e → m ∈ s'.out.map LogRecord.msg ∨
      ∃ t c, (s'.threads t).call = some c ∧ c.record.msg = m ∧ Past (H (lgOf m)) s c e)
    (htold : ∀ t r, r ∈ recordsOf (prog t) → UserPasses user F0 r → .log r ∈ (s'.threads t).code ∨
      (∃ c, (s'.threads t).call = some c ∧ c.record = r) ∨ r.msg ∈ s'.out.map LogRecord.msg ∨
      ∃ e, r.msg ∈ s'.msgs e) :
    LInv user F0 prog lgOf H s' := by
  have hrest : ∀ c : LogCall, c.rest s' = c.rest s := by
    intro c; unfold LogCall.rest; rw [hf]
  have hpast : ∀ h c e, Past h s c e → Past h s' c e := fun h c e hp =>
    ⟨fun g hg => hp.rest g (by rw [hrest] at hg; exact hg), hp.asks⟩
  constructor
  · rw [hf]; exact hi.sub
  · exact hi.nodup
  · rw [hf]; exact hi.pre
  · exact hi.preH
  · exact hi.userH
  · intro b e h
    rw [hf] at h
    obtain ⟨t', h'⟩ := hi.att b e h
    exact ⟨t', by rw [hcode]; exact h'⟩
  · intro t' b e h; rw [hcode] at h; exact hi.fresh t' b e h
  · intro t'; rw [hcode]; exact hi.wf t'
  · intro t1 t2 h b e h1 h2
    rw [hcode] at h1 h2
    exact hi.uniq t1 t2 h b e h1 h2
  · intro t' r h; rw [hcode] at h; exact hi.lgCode t' r h
  · intro t' c h
    by_cases ht : t' = t
    · subst ht; exact hlg c h
    · rw [hne t' ht] at h; exact hi.lgCall t' c h
  · intro t' c e h ha
    rw [hrest]
    by_cases ht : t' = t
    · subst ht; exact hcur c e h ha
    · rw [hne t' ht] at h; exact hi.cur t' c e h ha
  · exact hmem
  · intro e m hm
    rcases hmain e m hm with h | ⟨t', c, h1, h2, h3⟩
    · exact .inl h
    · exact .inr ⟨t', c, h1, h2, hpast _ _ _ h3⟩
  · exact htold

theorem stepCall_inv (hi : LInv user F0 prog lgOf H s) (hF : UserFilters F0) (t : ℕ) (c : LogCall)
    (hc : (s.threads t).call = some c) : LInv user F0 prog lgOf H (s.stepCall user t c) := by
  have hlg := hi.lgCall t c hc
  have hq : ∀ b e, FilterObj.quiet e ∉ F0 b := by
    intro b e h
    obtain ⟨n, hn⟩ := (hF b).2 _ h
    cases hn
  unfold LogSys.stepCall
  cases hp : c.phase with
  | next =>
    have hr : c.rest s = (s.filters c.record.logger).drop c.idx := by unfold LogCall.rest; rw [hp]
    cases hg : (s.filters c.record.logger)[c.idx]? with
    | none =>
      -- the record is emitted
      simp only
      refine hi.call_step (t := t) rfl (fun t' => setCall_code t t' none) (fun t' h => setCall_call_ne none h)
        ?_ ?_ hi.memH ?_ ?_
      · intro c' h; exact absurd ((setCall_call (s := s) t none).symm.trans h) (by simp)
      · intro c' e h; exact absurd ((setCall_call (s := s) t none).symm.trans h) (by simp)
      · intro e m hm
        rcases hi.main e m hm with h | ⟨t', c', h1, h2, h3⟩
        · exact .inl (by simp only [List.map_append, List.mem_append]; exact .inl h)
        · by_cases ht : t' = t
          · subst ht
            rw [hc] at h1; cases h1
            exact .inl (by simp [h2])
          · exact .inr ⟨t', c', (setCall_call_ne (s := s) none ht).trans h1, h2, h3⟩
      · intro t' r hr' hu
        rcases hi.told t' r hr' hu with h | ⟨c', h1, h2⟩ | h | h
        · exact .inl (by rw [show ((({ s.setCall t none with out := s.out ++ [c.record] } : LogSys).threads t').code) = _ from setCall_code t t' none]; exact h)
        · by_cases ht : t' = t
          · subst ht
            rw [hc] at h1; cases h1
            exact .inr (.inr (.inl (by simp [h2])))
          · exact .inr (.inl ⟨c', (setCall_call_ne (s := s) none ht).trans h1, h2⟩)
        · exact .inr (.inr (.inl (by simp only [List.map_append, List.mem_append]; exact .inl h)))
        · exact .inr (.inr (.inr h))
    | some f =>
      have hfm : f ∈ s.filters c.record.logger := List.mem_of_getElem? hg
      have hfd : f ∈ c.rest s := by
        rw [hr]
        obtain ⟨h1, h2⟩ := List.getElem?_eq_some_iff.1 hg
        rw [List.drop_eq_getElem_cons h1, h2]
        exact List.mem_cons_self
      have hsub : ∀ g ∈ (s.filters c.record.logger).drop (c.idx + 1), g ∈ c.rest s := by
        intro g hg'
        rw [hr]
        rw [← List.tail_drop] at hg'
        exact List.mem_of_mem_tail hg'
      cases f with
      | user n =>
        have hnF : FilterObj.user n ∈ F0 c.record.logger := hi.userH _ _ ((hi.sub _).subset hfm)
        have hnot : ∀ e, Past (H (lgOf c.record.msg)) s c e → FilterObj.quiet e ∈ H (lgOf c.record.msg) → False := by
          intro e hpst _
          have h1 := hpst.rest _ hfd
          rw [← hlg] at h1
          have h2 := pos_user_lt (hi.preH _) (hi.nodup _) hnF (hq c.record.logger e)
          omega
        by_cases hu : user n c.record = true
        · simp only [hu, if_true]
          refine hi.call_step (t := t) rfl (fun t' => setCall_code t t' _) (fun t' h => setCall_call_ne _ h)
            ?_ ?_ hi.memH ?_ ?_
          · intro c' h; rw [setCall_call] at h; cases h; exact hlg
          · intro c' e h ha; rw [setCall_call] at h; cases h
            simp [LogCall.asks, hp] at ha
          · intro e m hm
            rcases hi.main e m hm with h | ⟨t', c', h1, h2, h3⟩
            · exact .inl h
            · by_cases ht : t' = t
              · subst ht
                rw [hc] at h1; cases h1
                exact absurd (hi.memH e m hm) (fun h => by subst h2; exact hnot e h3 h)
              · exact .inr ⟨t', c', (setCall_call_ne _ ht).trans h1, h2, h3⟩
          · intro t' r hr' hu'
            rcases hi.told t' r hr' hu' with h | ⟨c', h1, h2⟩ | h | h
            · exact .inl (by rw [setCall_code]; exact h)
            · by_cases ht : t' = t
              · subst ht
                rw [hc] at h1; cases h1
                exact .inr (.inl ⟨_, setCall_call _ _, h2⟩)
              · exact .inr (.inl ⟨c', (setCall_call_ne _ ht).trans h1, h2⟩)
            · exact .inr (.inr (.inl h))
            · exact .inr (.inr (.inr h))
        · simp only [hu, if_false, Bool.false_eq_true]
          refine hi.call_step (t := t) rfl (fun t' => setCall_code t t' _) (fun t' h => setCall_call_ne _ h)
            ?_ ?_ hi.memH ?_ ?_
          · intro c' h; rw [setCall_call] at h; cases h
          · intro c' e h ha; rw [setCall_call] at h; cases h
          · intro e m hm
            rcases hi.main e m hm with h | ⟨t', c', h1, h2, h3⟩
            · exact .inl h
            · by_cases ht : t' = t
              · subst ht
                rw [hc] at h1; cases h1
                exact absurd (hi.memH e m hm) (fun h => by subst h2; exact hnot e h3 h)
              · exact .inr ⟨t', c', (setCall_call_ne _ ht).trans h1, h2, h3⟩
          · intro t' r hr' hu'
            rcases hi.told t' r hr' hu' with h | ⟨c', h1, h2⟩ | h | h
            · exact .inl (by rw [setCall_code]; exact h)
            · by_cases ht : t' = t
              · subst ht
                rw [hc] at h1; cases h1
                subst h2
                exact absurd (hu' n hnF) hu
              · exact .inr (.inl ⟨c', (setCall_call_ne _ ht).trans h1, h2⟩)
            · exact .inr (.inr (.inl h))
            · exact .inr (.inr (.inr h))
      | quiet e0 =>
        simp only
        refine hi.call_step (t := t) rfl (fun t' => setCall_code t t' _) (fun t' h => setCall_call_ne _ h)
          ?_ ?_ hi.memH ?_ ?_
        · intro c' h; rw [setCall_call] at h; cases h; exact hlg
        · intro c' e h ha; rw [setCall_call] at h; cases h
          simp only [LogCall.asks, CallPhase.check.injEq, reduceCtorEq, or_false] at ha
          subst ha
          exact ⟨(hi.sub _).subset hfm, fun g hg' => pos_lt_of_sublist (hi.nodup _) (hi.sub _) hg hg'⟩
        · intro e m hm
          rcases hi.main e m hm with h | ⟨t', c', h1, h2, h3⟩
          · exact .inl h
          · by_cases ht : t' = t
            · subst ht
              rw [hc] at h1; cases h1
              refine .inr ⟨t', _, setCall_call _ _, h2, fun g hg' => h3.rest g (hsub g hg'), ?_⟩
              intro e' ha
              simp only [LogCall.asks, CallPhase.check.injEq, reduceCtorEq, or_false] at ha
              subst ha
              exact h3.rest _ hfd
            · exact .inr ⟨t', c', (setCall_call_ne _ ht).trans h1, h2, h3⟩
        · intro t' r hr' hu'
          rcases hi.told t' r hr' hu' with h | ⟨c', h1, h2⟩ | h | h
          · exact .inl (by rw [setCall_code]; exact h)
          · by_cases ht : t' = t
            · subst ht
              rw [hc] at h1; cases h1
              exact .inr (.inl ⟨_, setCall_call _ _, h2⟩)
            · exact .inr (.inl ⟨c', (setCall_call_ne _ ht).trans h1, h2⟩)
          · exact .inr (.inr (.inl h))
          · exact .inr (.inr (.inr h))
  | check e0 =>
    have hcur := hi.cur t c e0 hc (.inl hp)
    by_cases hd : c.record.msg ∈ s.msgs e0
    · -- refused
      simp only [hd, if_true]
      refine hi.call_step (t := t) rfl (fun t' => setCall_code t t' _) (fun t' h => setCall_call_ne _ h)
        ?_ ?_ hi.memH ?_ ?_
      · intro c' h; rw [setCall_call] at h; cases h
      · intro c' e h ha; rw [setCall_call] at h; cases h
      · intro e m hm
        rcases hi.main e m hm with h | ⟨t', c', h1, h2, h3⟩
        · exact .inl h
        · by_cases ht : t' = t
          · subst ht
            rw [hc] at h1; cases h1
            subst h2
            have hlt := h3.asks e0 (.inl hp)
            rcases hi.main e0 c.record.msg hd with h | ⟨t2, c2, k1, k2, k3⟩
            · exact .inl h
            · have hne : t2 ≠ t' := by
                intro h
                subst h
                rw [hc] at k1; cases k1
                exact absurd (k3.asks e0 (.inl hp)) (lt_irrefl _)
              exact .inr ⟨t2, c2, (setCall_call_ne _ hne).trans k1, k2,
                fun g hg => hlt.trans (k3.rest g hg), fun e' ha => hlt.trans (k3.asks e' ha)⟩
          · exact .inr ⟨t', c', (setCall_call_ne _ ht).trans h1, h2, h3⟩
      · intro t' r hr' hu'
        rcases hi.told t' r hr' hu' with h | ⟨c', h1, h2⟩ | h | h
        · exact .inl (by rw [setCall_code]; exact h)
        · by_cases ht : t' = t
          · subst ht
            rw [hc] at h1; cases h1
            subst h2
            exact .inr (.inr (.inr ⟨e0, hd⟩))
          · exact .inr (.inl ⟨c', (setCall_call_ne _ ht).trans h1, h2⟩)
        · exact .inr (.inr (.inl h))
        · exact .inr (.inr (.inr h))
    · simp only [hd, if_false]
      have hr : c.rest s = (s.filters c.record.logger).drop (c.idx + 1) := by unfold LogCall.rest; rw [hp]
      refine hi.call_step (t := t) rfl (fun t' => setCall_code t t' _) (fun t' h => setCall_call_ne _ h)
        ?_ ?_ hi.memH ?_ ?_
      · intro c' h; rw [setCall_call] at h; cases h; exact hlg
      · intro c' e h ha; rw [setCall_call] at h; cases h
        simp only [LogCall.asks, CallPhase.add.injEq, reduceCtorEq, false_or] at ha
        subst ha
        refine ⟨hcur.1, fun g hg => hcur.2 g ?_⟩
        rw [hr]; exact hg
      · intro e m hm
        rcases hi.main e m hm with h | ⟨t', c', h1, h2, h3⟩
        · exact .inl h
        · by_cases ht : t' = t
          · subst ht
            rw [hc] at h1; cases h1
            refine .inr ⟨t', _, setCall_call _ _, h2, fun g hg' => h3.rest g (by rw [hr]; exact hg'), ?_⟩
            intro e' ha
            simp only [LogCall.asks, CallPhase.add.injEq, reduceCtorEq, false_or] at ha
            subst ha
            exact h3.asks _ (.inl hp)
          · exact .inr ⟨t', c', (setCall_call_ne _ ht).trans h1, h2, h3⟩
      · intro t' r hr' hu'
        rcases hi.told t' r hr' hu' with h | ⟨c', h1, h2⟩ | h | h
        · exact .inl (by rw [setCall_code]; exact h)
        · by_cases ht : t' = t
          · subst ht
            rw [hc] at h1; cases h1
            exact .inr (.inl ⟨_, setCall_call _ _, h2⟩)
          · exact .inr (.inl ⟨c', (setCall_call_ne _ ht).trans h1, h2⟩)
        · exact .inr (.inr (.inl h))
        · exact .inr (.inr (.inr h))
  | add e0 =>
    have hcur := hi.cur t c e0 hc (.inr hp)
    have hr : c.rest s = (s.filters c.record.logger).drop (c.idx + 1) := by unfold LogCall.rest; rw [hp]
    simp only
    have hcc : ((({ s.setCall t (some { c with idx := c.idx + 1, phase := .next }) with
      msgs := Function.update s.msgs e0 (c.record.msg :: s.msgs e0) } : LogSys).threads t).call) =
      some { c with idx := c.idx + 1, phase := .next } := setCall_call (s := s) t _
    have hsplit : ∀ e m, m ∈ (Function.update s.msgs e0 (c.record.msg :: s.msgs e0)) e →
        m ∈ s.msgs e ∨ e = e0 ∧ m = c.record.msg := by
      intro e m hm
      by_cases he : e = e0
      · subst he
        rw [Function.update_self, List.mem_cons] at hm
        rcases hm with h | h
        · exact .inr ⟨rfl, h⟩
        · exact .inl h
      · rw [Function.update_of_ne he] at hm
        exact .inl hm
    have hnew : Past (H (lgOf c.record.msg)) s { c with idx := c.idx + 1, phase := .next } e0 := by
      rw [← hlg]
      refine ⟨fun g hg => hcur.2 g (by rw [hr]; exact hg), ?_⟩
      intro e' ha
      simp [LogCall.asks] at ha
    refine hi.call_step (t := t) rfl (fun t' => setCall_code (s := s) t t' _)
      (fun t' h => setCall_call_ne (s := s) _ h) ?_ ?_ ?_ ?_ ?_
    · intro c' h; rw [hcc] at h; cases h; exact hlg
    · intro c' e h ha; rw [hcc] at h; cases h
      simp [LogCall.asks] at ha
    · intro e m hm
      rcases hsplit e m hm with h | ⟨rfl, rfl⟩
      · exact hi.memH e m h
      · rw [← hlg]; exact hcur.1
    · intro e m hm
      rcases hsplit e m hm with h | ⟨rfl, rfl⟩
      · rcases hi.main e m h with h | ⟨t', c', h1, h2, h3⟩
        · exact .inl h
        · by_cases ht : t' = t
          · subst ht
            rw [hc] at h1; cases h1
            refine .inr ⟨t', _, hcc, h2, fun g hg' => h3.rest g (by rw [hr]; exact hg'), ?_⟩
            intro e' ha
            simp [LogCall.asks] at ha
          · exact .inr ⟨t', c', (setCall_call_ne (s := s) _ ht).trans h1, h2, h3⟩
      · exact .inr ⟨t, _, hcc, rfl, hnew⟩
    · intro t' r hr' hu'
      rcases hi.told t' r hr' hu' with h | ⟨c', h1, h2⟩ | h | ⟨e, h⟩
      · exact .inl (by rw [show ((({ s.setCall t (some { c with idx := c.idx + 1, phase := .next }) with
          msgs := Function.update s.msgs e0 (c.record.msg :: s.msgs e0) } : LogSys).threads t').code) = _ from
          setCall_code (s := s) t t' _]; exact h)
      · by_cases ht : t' = t
        · subst ht
          rw [hc] at h1; cases h1
          exact .inr (.inl ⟨_, hcc, h2⟩)
        · exact .inr (.inl ⟨c', (setCall_call_ne (s := s) _ ht).trans h1, h2⟩)
      · exact .inr (.inr (.inl h))
      · refine .inr (.inr (.inr ⟨e, ?_⟩))
        by_cases he : e = e0
        · subst he
          simp only [Function.update_self]
          exact List.mem_cons_of_mem _ h
        · simp only [Function.update_of_ne he]
          exact h

theorem update_code {t t' : ℕ} {i : Instr} {rest : List Instr} {x : Instr} {cl : Option LogCall}
    (hcode : (s.threads t).code = i :: rest)
    (h : x ∈ (Function.update s.threads t ⟨rest, cl⟩ t').code) : x ∈ (s.threads t').code := by
  by_cases ht : t' = t
  · subst ht
    rw [Function.update_self] at h
    rw [hcode]; exact List.mem_cons_of_mem _ h
  · rw [Function.update_of_ne ht] at h; exact h

theorem update_code_mem {t t' : ℕ} {i : Instr} {rest : List Instr} {x : Instr} {cl : Option LogCall}
    (hcode : (s.threads t).code = i :: rest) (hx : x ≠ i) (h : x ∈ (s.threads t').code) :
    x ∈ (Function.update s.threads t ⟨rest, cl⟩ t').code := by
  by_cases ht : t' = t
  · subst ht
    rw [Function.update_self]
    rw [hcode] at h
    exact (List.mem_cons.1 h).resolve_left hx
  · rw [Function.update_of_ne ht]; exact h

theorem update_call {t t' : ℕ} {rest : List Instr} {c : LogCall}
    (h : (Function.update s.threads t ⟨rest, none⟩ t').call = some c) : t' ≠ t ∧ (s.threads t').call = some c := by
  by_cases ht : t' = t
  · subst ht; rw [Function.update_self] at h; cases h
  · rw [Function.update_of_ne ht] at h; exact ⟨ht, h⟩

theorem update_call_mem {t t' : ℕ} {rest : List Instr} {c : LogCall} {cl : Option LogCall}
    (hn : (s.threads t).call = none) (h : (s.threads t').call = some c) :
    (Function.update s.threads t ⟨rest, cl⟩ t').call = some c := by
  have ht : t' ≠ t := by rintro rfl; rw [hn] at h; cases h
  rw [Function.update_of_ne ht]; exact h

/-- A step of the code of thread `t` that attaches or detaches. -/
theorem LInv.code_step (hi : LInv user F0 prog lgOf H s) {H' : Bool → List FilterObj} {t : ℕ} {i : Instr}
    {rest : List Instr} {fl : Bool → List FilterObj}
    (hcall : (s.threads t).call = none) (hcode : (s.threads t).code = i :: rest)
    (hil : ∀ r, i ≠ .log r)
    (sub : ∀ b, (fl b).Sublist (H' b)) (nodup : ∀ b, (H' b).Nodup) (pre : ∀ b, F0 b <+: fl b)
    (preH : ∀ b, F0 b <+: H' b) (userH : ∀ b n, .user n ∈ H' b → .user n ∈ F0 b)
    (att : ∀ b e, .quiet e ∈ fl b →
      ∃ t', .detach b e ∈ (Function.update s.threads t ⟨rest, none⟩ t').code)
    (fresh : ∀ t' b e, .attach b e ∈ (Function.update s.threads t ⟨rest, none⟩ t').code → .quiet e ∉ H' b)
    (hH : ∀ b f, f ∈ H b → f ∈ H' b)
    (hfl : ∀ b k g, g ∈ (fl b).drop k → g ∈ (s.filters b).drop k ∨ g ∉ H b)
    (hpos : ∀ b e g, .quiet e ∈ H b → (g ∈ H b → pos (H b) (.quiet e) < pos (H b) g) → g ∈ H' b →
      pos (H' b) (.quiet e) < pos (H' b) g) :
    LInv user F0 prog lgOf H' { s with filters := fl, threads := Function.update s.threads t ⟨rest, none⟩ } := by
  have hmemfl : ∀ b g, g ∈ fl b → g ∈ H' b := fun b g hg => (sub b).subset hg
  have hrest : ∀ (c : LogCall) (e : ℕ), FilterObj.quiet e ∈ H c.record.logger →
      (∀ g ∈ c.rest s, pos (H c.record.logger) (.quiet e) < pos (H c.record.logger) g) →
      ∀ g ∈ c.rest { s with filters := fl, threads := Function.update s.threads t ⟨rest, none⟩ },
      pos (H' c.record.logger) (.quiet e) < pos (H' c.record.logger) g := by
    intro c e he h g hg
    have hg1 : g ∈ fl c.record.logger := by
      unfold LogCall.rest at hg
      split at hg <;> exact List.mem_of_mem_drop hg
    refine hpos _ e g he (fun hgH => h g ?_) (hmemfl _ _ hg1)
    unfold LogCall.rest at hg ⊢
    split at hg <;> exact (hfl _ _ _ hg).resolve_right (fun h => h hgH)
  constructor
  · exact sub
  · exact nodup
  · exact pre
  · exact preH
  · exact userH
  · exact att
  · exact fresh
  · intro t'
    by_cases ht : t' = t
    · subst ht
      simp only [Function.update_self]
      have := hi.wf t'
      rw [hcode] at this
      exact this.tail
    · simp only [Function.update_of_ne ht]; exact hi.wf t'
  · intro t1 t2 h b e h1 h2
    exact hi.uniq t1 t2 h b e (update_code hcode h1) (update_code hcode h2)
  · intro t' r h
    exact hi.lgCode t' r (update_code hcode h)
  · intro t' c h
    exact hi.lgCall t' c (update_call h).2
  · intro t' c e h ha
    have h' := (update_call h).2
    obtain ⟨h1, h2⟩ := hi.cur t' c e h' ha
    exact ⟨hH _ _ h1, hrest c e h1 h2⟩
  · intro e m hm
    exact hH _ _ (hi.memH e m hm)
  · intro e m hm
    rcases hi.main e m hm with h | ⟨t', c, h1, h2, h3⟩
    · exact .inl h
    · refine .inr ⟨t', c, update_call_mem hcall h1, h2, ?_⟩
      have hl := hi.lgCall t' c h1
      have hmH := hi.memH e m hm
      subst h2
      rw [← hl] at h3 hmH ⊢
      refine ⟨hrest c e hmH h3.rest, fun e' ha => ?_⟩
      exact hpos _ e _ hmH (fun _ => h3.asks e' ha) (hH _ _ (hi.cur t' c e' h1 ha).1)
  · intro t' r hr hu
    rcases hi.told t' r hr hu with h | ⟨c', h1, h2⟩ | h | h
    · exact .inl (update_code_mem hcode (fun h => hil r h.symm) h)
    · exact .inr (.inl ⟨c', update_call_mem hcall h1, h2⟩)
    · exact .inr (.inr (.inl h))
    · exact .inr (.inr (.inr h))

theorem step_inv (hi : LInv user F0 prog lgOf H s) (hF : UserFilters F0) (t : ℕ) :
    ∃ H', LInv user F0 prog lgOf H' (s.step user t) := by
  have hq : ∀ b e, FilterObj.quiet e ∉ F0 b := by
    intro b e h
    obtain ⟨n, hn⟩ := (hF b).2 _ h
    cases hn
  unfold LogSys.step
  cases hc : (s.threads t).call with
  | some c => exact ⟨H, stepCall_inv hi hF t c hc⟩
  | none =>
    cases hcode : (s.threads t).code with
    | nil => exact ⟨H, hi⟩
    | cons i rest =>
      cases i with
      | attach lg e =>
        have hfr := hi.fresh t lg e (by rw [hcode]; exact List.mem_cons_self)
        have hnot : FilterObj.quiet e ∉ s.filters lg := fun h => hfr ((hi.sub _).subset h)
        have hwf := hi.wf t
        rw [hcode] at hwf
        refine ⟨fun b => if b = lg then H b ++ [.quiet e] else H b, hi.code_step hc hcode (by simp) ?_ ?_ ?_ ?_ ?_
          ?_ ?_ ?_ ?_ ?_⟩
        · intro b
          by_cases hb : b = lg
          · subst hb; simp only [if_true, hnot, if_false]
            exact (hi.sub b).append (List.Sublist.refl _)
          · simp only [hb, if_false]; exact hi.sub b
        · intro b
          by_cases hb : b = lg
          · subst hb; simp only [if_true]
            rw [List.nodup_append]
            refine ⟨hi.nodup b, List.nodup_singleton _, fun a ha c hc' => ?_⟩
            rw [List.mem_singleton] at hc'
            subst hc'
            rintro rfl
            exact hfr ha
          · simp only [hb, if_false]; exact hi.nodup b
        · intro b
          by_cases hb : b = lg
          · subst hb; simp only [if_true, hnot, if_false]
            exact (hi.pre b).trans (List.prefix_append _ _)
          · simp only [hb, if_false]; exact hi.pre b
        · intro b
          by_cases hb : b = lg
          · subst hb; simp only [if_true]
            exact (hi.preH b).trans (List.prefix_append _ _)
          · simp only [hb, if_false]; exact hi.preH b
        · intro b n h
          by_cases hb : b = lg
          · subst hb; simp only [if_true, List.mem_append, List.mem_singleton, reduceCtorEq, or_false] at h
            exact hi.userH b n h
          · simp only [hb, if_false] at h; exact hi.userH b n h
        · intro b e' h
          by_cases hb : b = lg ∧ e' = e
          · obtain ⟨rfl, rfl⟩ := hb
            exact ⟨t, by rw [Function.update_self]; exact hwf.1⟩
          · have h' : FilterObj.quiet e' ∈ s.filters b := by
              by_cases hb' : b = lg
              · subst hb'
                simp only [if_true, hnot, if_false, List.mem_append, List.mem_singleton,
                  FilterObj.quiet.injEq] at h
                exact h.resolve_right (fun h => hb ⟨rfl, h⟩)
              · simp only [hb', if_false] at h; exact h
            obtain ⟨t', h2⟩ := hi.att b e' h'
            exact ⟨t', update_code_mem hcode (by simp) h2⟩
        · intro t' b e' h
          have h' := hi.fresh t' b e' (update_code hcode h)
          by_cases hb : b = lg
          · subst hb
            simp only [if_true, List.mem_append, List.mem_singleton, FilterObj.quiet.injEq, not_or]
            refine ⟨h', ?_⟩
            rintro rfl
            by_cases ht : t' = t
            · subst ht
              rw [Function.update_self] at h
              exact hwf.2.1 h
            · rw [Function.update_of_ne ht] at h
              exact hi.uniq t t' (Ne.symm ht) b e' (by rw [hcode]; exact List.mem_cons_self) h
          · simp only [hb, if_false]; exact h'
        · intro b f h
          by_cases hb : b = lg
          · subst hb; simp only [if_true]; exact List.mem_append_left _ h
          · simp only [hb, if_false]; exact h
        · intro b k g h
          by_cases hb : b = lg
          · subst hb
            simp only [if_true, hnot, if_false] at h
            rw [List.drop_append, List.mem_append] at h
            rcases h with h | h
            · exact .inl h
            · refine .inr ?_
              have := List.mem_of_mem_drop h
              rw [List.mem_singleton] at this
              subst this
              exact hfr
          · simp only [hb, if_false] at h; exact .inl h
        · intro b e' g he' hlt hg
          by_cases hb : b = lg
          · subst hb
            simp only [if_true] at hg ⊢
            rw [pos_append he']
            by_cases hgH : g ∈ H b
            · rw [pos_append hgH]; exact hlt hgH
            · rw [List.mem_append, List.mem_singleton] at hg
              have hge := hg.resolve_left hgH
              subst hge
              rw [pos_new hgH]
              exact pos_lt_length he'
          · simp only [hb, if_false] at hg ⊢
            exact hlt hg
      | detach lg e =>
        refine ⟨H, hi.code_step hc hcode (by simp) ?_ hi.nodup ?_ hi.preH hi.userH ?_ ?_ (fun b f h => h) ?_
          (fun b e' g _ h hg => h hg)⟩
        · intro b
          by_cases hb : b = lg
          · subst hb; simp only [if_true]
            split
            · exact (List.erase_sublist).trans (hi.sub b)
            · exact hi.sub b
          · simp only [hb, if_false]; exact hi.sub b
        · intro b
          by_cases hb : b = lg
          · subst hb; simp only [if_true]
            split
            · obtain ⟨r, hr⟩ := hi.pre b
              rw [← hr, List.erase_append_right _ (hq b e)]
              exact List.prefix_append _ _
            · exact hi.pre b
          · simp only [hb, if_false]; exact hi.pre b
        · intro b e' h
          by_cases hb : b = lg ∧ e' = e
          · obtain ⟨rfl, rfl⟩ := hb
            exfalso
            simp only [if_true] at h
            split at h
            · exact ((hi.nodup b).sublist (hi.sub b)).not_mem_erase h
            · exact absurd h (by assumption)
          · have h' : FilterObj.quiet e' ∈ s.filters b := by
              by_cases hb' : b = lg
              · subst hb'
                simp only [if_true] at h
                split at h
                · exact List.mem_of_mem_erase h
                · exact h
              · simp only [hb', if_false] at h; exact h
            obtain ⟨t', h2⟩ := hi.att b e' h'
            refine ⟨t', update_code_mem hcode ?_ h2⟩
            intro h3
            cases h3
            exact hb ⟨rfl, rfl⟩
        · intro t' b e' h
          exact hi.fresh t' b e' (update_code hcode h)
        · intro b k g h
          by_cases hb : b = lg
          · subst hb
            simp only [if_true] at h
            split at h
            · exact .inl (mem_drop_erase h)
            · exact .inl h
          · simp only [hb, if_false] at h; exact .inl h
      | log r =>
        have hcl : ∀ t', ({ s with threads := Function.update s.threads t ⟨rest, some ⟨r, 0, .next⟩⟩ } : LogSys).threads t' =
          Function.update s.threads t ⟨rest, some ⟨r, 0, .next⟩⟩ t' := fun _ => rfl
        have hrl := hi.lgCode t r (by rw [hcode]; exact List.mem_cons_self)
        refine ⟨H, hi.sub, hi.nodup, hi.pre, hi.preH, hi.userH, ?_, ?_, ?_, ?_, ?_, ?_, ?_, hi.memH, ?_, ?_⟩
        · intro b e h
          obtain ⟨t', h2⟩ := hi.att b e h
          exact ⟨t', update_code_mem hcode (by simp) h2⟩
        · intro t' b e h; exact hi.fresh t' b e (update_code hcode h)
        · intro t'
          rw [hcl]
          by_cases ht : t' = t
          · subst ht
            simp only [Function.update_self]
            have := hi.wf t'
            rw [hcode] at this
            exact this.tail
          · simp only [Function.update_of_ne ht]; exact hi.wf t'
        · intro t1 t2 h b e h1 h2
          exact hi.uniq t1 t2 h b e (update_code hcode h1) (update_code hcode h2)
        · intro t' r' h; exact hi.lgCode t' r' (update_code hcode h)
        · intro t' c h
          rw [hcl] at h
          by_cases ht : t' = t
          · subst ht; rw [Function.update_self] at h; cases h; exact hrl
          · rw [Function.update_of_ne ht] at h; exact hi.lgCall t' c h
        · intro t' c e h ha
          rw [hcl] at h
          by_cases ht : t' = t
          · subst ht; rw [Function.update_self] at h; cases h; simp [LogCall.asks] at ha
          · rw [Function.update_of_ne ht] at h; exact hi.cur t' c e h ha
        · intro e m hm
          rcases hi.main e m hm with h | ⟨t', c, h1, h2, h3⟩
          · exact .inl h
          · exact .inr ⟨t', c, update_call_mem hc h1, h2, h3.rest, h3.asks⟩
        · intro t' r' hr' hu
          rcases hi.told t' r' hr' hu with h | ⟨c', h1, h2⟩ | h | h
          · by_cases ht : t' = t ∧ r' = r
            · obtain ⟨rfl, rfl⟩ := ht
              exact .inr (.inl ⟨⟨r', 0, .next⟩, by rw [hcl, Function.update_self], rfl⟩)
            · refine .inl ?_
              rw [hcl]
              by_cases ht' : t' = t
              · refine update_code_mem hcode ?_ h
                intro h'
                cases h'
                exact ht ⟨ht', rfl⟩
              · rw [Function.update_of_ne ht']; exact h
          · exact .inr (.inl ⟨c', update_call_mem hc h1, h2⟩)
          · exact .inr (.inr (.inl h))
          · exact .inr (.inr (.inr h))

theorem run_inv (hi : LInv user F0 prog lgOf H s) (hF : UserFilters F0) (sched : List ℕ) :
    ∃ H', LInv user F0 prog lgOf H' (s.run user sched) := by
  induction sched generalizing s H with
  | nil => exact ⟨H, hi⟩
  | cons t l ih =>
    obtain ⟨H', h'⟩ := step_inv hi hF t
    exact ih h'

theorem start_inv (hF : UserFilters F0) (hd : DistinctExports prog)
    (hl : ∀ t, ∀ r ∈ recordsOf (prog t), r.logger = lgOf r.msg) :
    LInv user F0 prog lgOf F0 (LogSys.start F0 prog) := by
  have hq : ∀ b e, FilterObj.quiet e ∉ F0 b := by
    intro b e h
    obtain ⟨n, hn⟩ := (hF b).2 _ h
    cases hn
  constructor
  · exact fun b => List.Sublist.refl _
  · exact fun b => (hF b).1
  · exact fun b => List.prefix_rfl
  · exact fun b => List.prefix_rfl
  · exact fun b n h => h
  · exact fun b e h => absurd h (hq b e)
  · exact fun t b e _ => hq b e
  · exact fun t => codeWf_prog _ (hd.1 t)
  · exact fun t t' h b e h1 h2 => hd.2 t t' h e (attach_mem_code h1) (attach_mem_code h2)
  · exact fun t r h => hl t r (log_mem_code.1 h)
  · intro t c h; cases h
  · intro t c e h; cases h
  · intro e m h; cases h
  · intro e m h; cases h
  · exact fun t r h _ => .inl (log_mem_code.2 h)

end

/-! ### The filters alone -/

structure FInv (F0 : Bool → List FilterObj) (s : LogSys) : Prop where
  pre : ∀ b, F0 b <+: s.filters b
  nodup : ∀ b, (s.filters b).Nodup
  user : ∀ b n, .user n ∈ s.filters b → .user n ∈ F0 b
  att : ∀ b e, .quiet e ∈ s.filters b → ∃ t, .detach b e ∈ (s.threads t).code
  wf : ∀ t, CodeWf (s.threads t).code

theorem FInv.same {F0 : Bool → List FilterObj} {s s' : LogSys} (hi : FInv F0 s)
    (hf : s'.filters = s.filters) (hcode : ∀ t', (s'.threads t').code = (s.threads t').code) : FInv F0 s' := by
  refine ⟨?_, ?_, ?_, ?_, ?_⟩
  · rw [hf]; exact hi.pre
  · rw [hf]; exact hi.nodup
  · rw [hf]; exact hi.user
  · intro b e h
    rw [hf] at h
    obtain ⟨t, ht⟩ := hi.att b e h
    exact ⟨t, by rw [hcode]; exact ht⟩
  · intro t; rw [hcode]; exact hi.wf t

theorem stepCall_same (user : ℕ → LogRecord → Bool) (s : LogSys) (t : ℕ) (c : LogCall) :
    (s.stepCall user t c).filters = s.filters ∧
    ∀ t', ((s.stepCall user t c).threads t').code = (s.threads t').code := by
  unfold LogSys.stepCall
  split
  · split
    · exact ⟨rfl, fun t' => setCall_code (s := s) t t' _⟩
    · split <;> exact ⟨rfl, fun t' => setCall_code (s := s) t t' _⟩
    · exact ⟨rfl, fun t' => setCall_code (s := s) t t' _⟩
  · split <;> exact ⟨rfl, fun t' => setCall_code (s := s) t t' _⟩
  · exact ⟨rfl, fun t' => setCall_code (s := s) t t' _⟩

theorem update_wf {s : LogSys} {t : ℕ} {i : Instr} {rest : List Instr} {cl : Option LogCall}
    (hcode : (s.threads t).code = i :: rest) (h : ∀ t, CodeWf (s.threads t).code) (t' : ℕ) :
    CodeWf (Function.update s.threads t ⟨rest, cl⟩ t').code := by
  by_cases ht : t' = t
  · subst ht
    rw [Function.update_self]
    have := h t'
    rw [hcode] at this
    exact this.tail
  · rw [Function.update_of_ne ht]; exact h t'

theorem FInv.step {user : ℕ → LogRecord → Bool} {F0 : Bool → List FilterObj} {s : LogSys}
    (hi : FInv F0 s) (hF : UserFilters F0) (t : ℕ) : FInv F0 (s.step user t) := by
  have hq : ∀ b e, FilterObj.quiet e ∉ F0 b := by
    intro b e h
    obtain ⟨n, hn⟩ := (hF b).2 _ h
    cases hn
  unfold LogSys.step
  cases hc : (s.threads t).call with
  | some c => exact hi.same (stepCall_same user s t c).1 (stepCall_same user s t c).2
  | none =>
    cases hcode : (s.threads t).code with
    | nil => exact hi
    | cons i rest =>
      cases i with
      | attach lg e =>
        have hwf := hi.wf t
        rw [hcode] at hwf
        refine ⟨?_, ?_, ?_, ?_, fun t' => update_wf hcode hi.wf t'⟩
        · intro b
          by_cases hb : b = lg
          · subst hb; simp only [if_true]
            split
            · exact hi.pre b
            · exact (hi.pre b).trans (List.prefix_append _ _)
          · simp only [hb, if_false]; exact hi.pre b
        · intro b
          by_cases hb : b = lg
          · subst hb; simp only [if_true]
            split
            · exact hi.nodup b
            · rename_i hnot
              rw [List.nodup_append]
              refine ⟨hi.nodup b, List.nodup_singleton _, fun a ha c hc' => ?_⟩
              rw [List.mem_singleton] at hc'
              subst hc'
              rintro rfl
              exact hnot ha
          · simp only [hb, if_false]; exact hi.nodup b
        · intro b n h
          by_cases hb : b = lg
          · subst hb; simp only [if_true] at h
            split at h
            · exact hi.user b n h
            · simp only [List.mem_append, List.mem_singleton, reduceCtorEq, or_false] at h
              exact hi.user b n h
          · simp only [hb, if_false] at h; exact hi.user b n h
        · intro b e' h
          by_cases hb : b = lg ∧ e' = e
          · obtain ⟨rfl, rfl⟩ := hb
            exact ⟨t, by simp only [Function.update_self]; exact hwf.1⟩
          · have h' : FilterObj.quiet e' ∈ s.filters b := by
              by_cases hb' : b = lg
              · subst hb'
                simp only [if_true] at h
                split at h
                · exact h
                · simp only [List.mem_append, List.mem_singleton, FilterObj.quiet.injEq] at h
                  exact h.resolve_right (fun h => hb ⟨rfl, h⟩)
              · simp only [hb', if_false] at h; exact h
            obtain ⟨t', h2⟩ := hi.att b e' h'
            exact ⟨t', update_code_mem hcode (by simp) h2⟩
      | detach lg e =>
        refine ⟨?_, ?_, ?_, ?_, fun t' => update_wf hcode hi.wf t'⟩
        · intro b
          by_cases hb : b = lg
          · subst hb; simp only [if_true]
            split
            · obtain ⟨r, hr⟩ := hi.pre b
              rw [← hr, List.erase_append_right _ (hq b e)]
              exact List.prefix_append _ _
            · exact hi.pre b
          · simp only [hb, if_false]; exact hi.pre b
        · intro b
          by_cases hb : b = lg
          · subst hb; simp only [if_true]
            split
            · exact (hi.nodup b).erase _
            · exact hi.nodup b
          · simp only [hb, if_false]; exact hi.nodup b
        · intro b n h
          by_cases hb : b = lg
          · subst hb; simp only [if_true] at h
            split at h
            · exact hi.user b n (List.mem_of_mem_erase h)
            · exact hi.user b n h
          · simp only [hb, if_false] at h; exact hi.user b n h
        · intro b e' h
          by_cases hb : b = lg ∧ e' = e
          · obtain ⟨rfl, rfl⟩ := hb
            exfalso
            simp only [if_true] at h
            split at h
            · exact (hi.nodup b).not_mem_erase h
            · exact absurd h (by assumption)
          · have h' : FilterObj.quiet e' ∈ s.filters b := by
              by_cases hb' : b = lg
              · subst hb'
                simp only [if_true] at h
                split at h
                · exact List.mem_of_mem_erase h
                · exact h
              · simp only [hb', if_false] at h; exact h
            obtain ⟨t', h2⟩ := hi.att b e' h'
            refine ⟨t', update_code_mem hcode ?_ h2⟩
            intro h3
            cases h3
            exact hb ⟨rfl, rfl⟩
      | log r =>
        refine ⟨hi.pre, hi.nodup, hi.user, ?_, fun t' => update_wf hcode hi.wf t'⟩
        intro b e h
        obtain ⟨t', h2⟩ := hi.att b e h
        exact ⟨t', update_code_mem hcode (by simp) h2⟩

theorem FInv.run {user : ℕ → LogRecord → Bool} {F0 : Bool → List FilterObj} {s : LogSys}
    (hi : FInv F0 s) (hF : UserFilters F0) (sched : List ℕ) : FInv F0 (s.run user sched) := by
  induction sched generalizing s with
  | nil => exact hi
  | cons t l ih => exact ih (hi.step hF t)

/-- **C85**: exports in any number of threads, interleaved in any way: when all threads have come to their
end, both loggers have the filters they had before. -/
theorem C85_restored (user : ℕ → LogRecord → Bool) (filters : Bool → List FilterObj)
    (hF : UserFilters filters) (prog : ℕ → List LogSession) (hd : DistinctExports prog)
    (sched : List ℕ) (hdone : AllDone ((LogSys.start filters prog).run user sched)) :
    ((LogSys.start filters prog).run user sched).filters = filters := by
  have hq : ∀ b e, FilterObj.quiet e ∉ filters b := by
    intro b e h
    obtain ⟨n, hn⟩ := (hF b).2 _ h
    cases hn
  have h0 : FInv filters (LogSys.start filters prog) :=
    ⟨fun b => List.prefix_rfl, fun b => (hF b).1, fun b n h => h, fun b e h => absurd h (hq b e),
      fun t => codeWf_prog _ (hd.1 t)⟩
  have hi := h0.run (user := user) hF sched
  funext b
  obtain ⟨r, hr⟩ := hi.pre b
  cases r with
  | nil => rw [← hr, List.append_nil]
  | cons f r =>
    exfalso
    have hmem : f ∈ ((LogSys.start filters prog).run user sched).filters b := by rw [← hr]; simp
    have hn := hi.nodup b
    rw [← hr] at hn
    cases f with
    | user n =>
      have := hi.user b n hmem
      exact (List.nodup_append.1 hn).2.2 _ this _ List.mem_cons_self rfl
    | quiet e =>
      obtain ⟨t, ht⟩ := hi.att b e hmem
      rw [(hdone t).1] at ht
      cases ht

/-- Every record in the output, in a call or in the code comes from the program. -/
structure SrcInv (prog : ℕ → List LogSession) (s : LogSys) : Prop where
  code : ∀ t r, .log r ∈ (s.threads t).code → ∃ t', r ∈ recordsOf (prog t')
  call : ∀ t c, (s.threads t).call = some c → ∃ t', c.record ∈ recordsOf (prog t')
  out : ∀ r ∈ s.out, ∃ t', r ∈ recordsOf (prog t')

theorem SrcInv.setCall {prog : ℕ → List LogSession} {s : LogSys} (hi : SrcInv prog s) (t : ℕ)
    (c : Option LogCall) (hc : ∀ d, c = some d → ∃ t', d.record ∈ recordsOf (prog t')) :
    SrcInv prog (s.setCall t c) := by
  refine ⟨fun t' r h => ?_, fun t' d h => ?_, hi.out⟩
  · rw [setCall_code] at h; exact hi.code t' r h
  · by_cases ht : t' = t
    · subst ht; rw [setCall_call] at h; exact hc d h
    · rw [setCall_call_ne c ht] at h; exact hi.call t' d h

theorem SrcInv.step {user : ℕ → LogRecord → Bool} {prog : ℕ → List LogSession} {s : LogSys}
    (hi : SrcInv prog s) (t : ℕ) : SrcInv prog (s.step user t) := by
  unfold LogSys.step
  cases hc : (s.threads t).call with
  | some c =>
    have hcr := hi.call t c hc
    have hnone : SrcInv prog (s.setCall t none) := hi.setCall t none (fun d h => by cases h)
    simp only
    unfold LogSys.stepCall
    split
    · split
      · refine ⟨hnone.code, hnone.call, fun r h => ?_⟩
        rcases List.mem_append.1 h with h | h
        · exact hi.out r h
        · rw [List.mem_singleton] at h; subst h; exact hcr
      · split
        · exact hi.setCall t _ (fun d h => by cases h; exact hcr)
        · exact hnone
      · exact hi.setCall t _ (fun d h => by cases h; exact hcr)
    · split
      · exact hnone
      · exact hi.setCall t _ (fun d h => by cases h; exact hcr)
    · have := hi.setCall t (some { c with idx := c.idx + 1, phase := .next })
        (fun d h => by cases h; exact hcr)
      exact ⟨this.code, this.call, this.out⟩
  | none =>
    cases hcode : (s.threads t).code with
    | nil => exact hi
    | cons i rest =>
      have key : ∀ (cl : Option LogCall), (∀ d, cl = some d → ∃ t', d.record ∈ recordsOf (prog t')) →
          ∀ t' d, (Function.update s.threads t ⟨rest, cl⟩ t').call = some d →
            ∃ t', d.record ∈ recordsOf (prog t') := by
        intro cl hcl t' d h
        by_cases ht : t' = t
        · subst ht; rw [Function.update_self] at h; exact hcl d h
        · rw [Function.update_of_ne ht] at h; exact hi.call t' d h
      cases i with
      | attach lg e =>
        exact ⟨fun t' r h => hi.code t' r (update_code hcode h), key none (fun d h => by cases h), hi.out⟩
      | detach lg e =>
        exact ⟨fun t' r h => hi.code t' r (update_code hcode h), key none (fun d h => by cases h), hi.out⟩
      | log r =>
        refine ⟨fun t' r h => hi.code t' r (update_code hcode h), key _ (fun d h => ?_), hi.out⟩
        cases h
        exact hi.code t r (by rw [hcode]; exact List.mem_cons_self)

theorem SrcInv.run {user : ℕ → LogRecord → Bool} {prog : ℕ → List LogSession} {s : LogSys}
    (hi : SrcInv prog s) (sched : List ℕ) : SrcInv prog (s.run user sched) := by
  induction sched generalizing s with
  | nil => exact hi
  | cons t l ih => exact ih (hi.step t)

theorem SrcInv.start (filters : Bool → List FilterObj) (prog : ℕ → List LogSession) :
    SrcInv prog (LogSys.start filters prog) :=
  ⟨fun t _ h => ⟨t, log_mem_code.1 h⟩, (fun _ _ h => by cases h), (fun _ h => by cases h)⟩

/-- **C85**: nothing is emitted that no thread logged. -/
theorem C85_sound (user : ℕ → LogRecord → Bool) (filters : Bool → List FilterObj)
    (prog : ℕ → List LogSession) (sched : List ℕ) (r : LogRecord)
    (hr : r ∈ ((LogSys.start filters prog).run user sched).out) : ∃ t, r ∈ recordsOf (prog t) :=
  ((SrcInv.start filters prog).run sched).out r hr

/-- **C85**: and no warning is lost: a message that some thread logged, inside or outside of an export, and
that the filters of the user let through has been emitted at least once.  (Every message belongs to one of the
two loggers.) -/
theorem C85_told (user : ℕ → LogRecord → Bool) (filters : Bool → List FilterObj)
    (hF : UserFilters filters) (prog : ℕ → List LogSession) (hd : DistinctExports prog)
    (hl : ∀ t t', ∀ r ∈ recordsOf (prog t), ∀ r' ∈ recordsOf (prog t'), r.msg = r'.msg → r.logger = r'.logger)
    (sched : List ℕ) (hdone : AllDone ((LogSys.start filters prog).run user sched))
    (t : ℕ) (r : LogRecord) (hr : r ∈ recordsOf (prog t)) (hu : UserPasses user filters r) :
    r ∈ ((LogSys.start filters prog).run user sched).out := by
  classical
  let lgOf : String → Bool := fun m =>
    if h : ∃ r' : LogRecord, (∃ t', r' ∈ recordsOf (prog t')) ∧ r'.msg = m then h.choose.logger else false
  have hlg : ∀ t', ∀ r' ∈ recordsOf (prog t'), r'.logger = lgOf r'.msg := by
    intro t' r' hr'
    have h : ∃ r'' : LogRecord, (∃ t', r'' ∈ recordsOf (prog t')) ∧ r''.msg = r'.msg := ⟨r', ⟨t', hr'⟩, rfl⟩
    obtain ⟨⟨t'', h1⟩, h2⟩ := h.choose_spec
    show r'.logger = dite _ _ _
    rw [dif_pos h]
    exact (hl t'' t' _ h1 _ hr' h2).symm
  obtain ⟨H, hi⟩ := run_inv (user := user) (start_inv (lgOf := lgOf) hF hd hlg) hF sched
  have hs := (SrcInv.start filters prog).run (user := user) sched
  have hmsg : r.msg ∈ ((LogSys.start filters prog).run user sched).out.map LogRecord.msg := by
    rcases hi.told t r hr hu with h | ⟨c, h, _⟩ | h | ⟨e, h⟩
    · rw [(hdone t).1] at h; cases h
    · rw [(hdone t).2] at h; cases h
    · exact h
    · rcases hi.main e _ h with h | ⟨t', c, h, _⟩
      · exact h
      · rw [(hdone t').2] at h; cases h
  obtain ⟨r', hr', hm⟩ := List.mem_map.1 hmsg
  obtain ⟨t', ht'⟩ := hs.out r' hr'
  have hlr := hl t' t r' ht' r hr hm
  have : r' = r := by
    cases r; cases r'
    simp only at hm hlr
    subst hm hlr
    rfl
  exact this ▸ hr'

/-! ### Non-vacuity, and what can go wrong -/

/-- Three threads: an export with the same warning twice, and two exports without warnings. -/
def progThree : ℕ → List LogSession
  | 0 => [.exporting 0 [⟨true, "m"⟩, ⟨true, "m"⟩]]
  | 1 => [.exporting 1 []]
  | 2 => [.exporting 2 []]
  | _ => []

/-- An order of the steps of the three threads. -/
def schedThree : List ℕ :=
  [2, 2, 1, 1, 0, 0, 0, 0, 0, 0, 2, 2, 0, 0, 0, 0, 0, 0, 0, 0, 1, 1, 0, 0, 0]

theorem progThree_distinct : DistinctExports progThree := by
  constructor
  · intro t
    match t with
    | 0 => decide
    | 1 => decide
    | 2 => decide
    | (n + 3) => exact List.nodup_nil
  · intro t t' h e h1 h2
    match t, t' with
    | 0, 0 => exact h rfl
    | 1, 1 => exact h rfl
    | 2, 2 => exact h rfl
    | 0, 1 => simp [progThree, exportsOf] at h1 h2; omega
    | 0, 2 => simp [progThree, exportsOf] at h1 h2; omega
    | 1, 0 => simp [progThree, exportsOf] at h1 h2; omega
    | 1, 2 => simp [progThree, exportsOf] at h1 h2; omega
    | 2, 0 => simp [progThree, exportsOf] at h1 h2; omega
    | 2, 1 => simp [progThree, exportsOf] at h1 h2; omega
    | (n + 3), _ => simp [progThree, exportsOf] at h1
    | _, (n + 3) => simp [progThree, exportsOf] at h2

/-- The hypotheses of `C85_restored` and `C85_told` are met by the three threads, with a filter of the user
on the first logger. -/
example : UserFilters (fun b => if b then [] else [.user 0]) ∧ DistinctExports progThree ∧
    (∀ t t', ∀ r ∈ recordsOf (progThree t), ∀ r' ∈ recordsOf (progThree t'),
      r.msg = r'.msg → r.logger = r'.logger) := by
  refine ⟨?_, progThree_distinct, ?_⟩
  · intro b
    cases b
    · exact ⟨by simp, by simp⟩
    · exact ⟨by simp, by simp⟩
  · have key : ∀ t, ∀ r ∈ recordsOf (progThree t), r.logger = true := by
      intro t r hr
      match t with
      | 0 => simp [progThree, recordsOf] at hr; subst hr; rfl
      | 1 => simp [progThree, recordsOf] at hr
      | 2 => simp [progThree, recordsOf] at hr
      | (n + 3) => simp [progThree, recordsOf] at hr
    intro t t' r hr r' hr' _
    rw [key t r hr, key t' r' hr']

/-- Every thread past the last never moves. -/
theorem threads_ge {user : ℕ → LogRecord → Bool} {t : ℕ} {sched : List ℕ} (ht : t ∉ sched) :
    ∀ s : LogSys, (s.run user sched).threads t = s.threads t := by
  induction sched with
  | nil => intro s; rfl
  | cons a l ih =>
    intro s
    have hne : t ≠ a := fun h => ht (by rw [h]; exact List.mem_cons_self)
    have hl : t ∉ l := fun h => ht (List.mem_cons_of_mem _ h)
    refine (ih hl (s.step user a)).trans ?_
    unfold LogSys.step
    split
    · unfold LogSys.stepCall
      split
      · split
        · simp [LogSys.setCall, Function.update_of_ne hne]
        · split <;> simp [LogSys.setCall, Function.update_of_ne hne]
        · simp [LogSys.setCall, Function.update_of_ne hne]
      · split <;> simp [LogSys.setCall, Function.update_of_ne hne]
      · simp [LogSys.setCall, Function.update_of_ne hne]
    · split
      · rfl
      · simp [Function.update_of_ne hne]
      · simp [Function.update_of_ne hne]
      · simp [Function.update_of_ne hne]

/-- The code and the call of a thread are used up. -/
def LogThread.done (t : LogThread) : Bool := t.code.isEmpty && t.call.isNone

theorem allDone_of {user : ℕ → LogRecord → Bool} {filters : Bool → List FilterObj}
    {prog : ℕ → List LogSession} {sched : List ℕ} (n : ℕ) (hn : ∀ t, n ≤ t → prog t = [] ∧ t ∉ sched)
    (h : ∀ t < n, (((LogSys.start filters prog).run user sched).threads t).done = true) :
    AllDone ((LogSys.start filters prog).run user sched) := by
  intro t
  by_cases ht : t < n
  · have := h t ht
    simpa [LogThread.done] using this
  · have h1 := hn t (by omega)
    rw [threads_ge h1.2]
    simp [LogSys.start, h1.1]

/-- C85 (finding).  Inside of one export the same warning can be emitted twice, if other exports end at the
wrong moment: leaving an export removes its filter from the list along which `logging` is walking, and the next
filter is not asked. -/
theorem C85_twice : ∃ (prog : ℕ → List LogSession) (sched : List ℕ), DistinctExports prog ∧
    AllDone ((LogSys.start (fun _ => []) prog).run (fun _ _ => true) sched) ∧
    prog 0 = [.exporting 0 [⟨true, "m"⟩, ⟨true, "m"⟩]] ∧ (∀ t ≠ 0, recordsOf (prog t) = []) ∧
    ((LogSys.start (fun _ => []) prog).run (fun _ _ => true) sched).out = [⟨true, "m"⟩, ⟨true, "m"⟩] := by
  refine ⟨progThree, schedThree, progThree_distinct, ?_, rfl, ?_, by decide +kernel⟩
  · refine allDone_of 3 ?_ (by decide +kernel)
    intro t ht
    match t, ht with
    | (n + 3), _ => exact ⟨rfl, by simp [schedThree]⟩
  · intro t ht
    match t with
    | 0 => exact absurd rfl ht
    | 1 => rfl
    | 2 => rfl
    | (n + 3) => rfl

/-- Two threads that log the same text, each to another logger. -/
def progTwo : ℕ → List LogSession
  | 0 => [.exporting 0 [⟨false, "m"⟩]]
  | 1 => [.exporting 1 [⟨true, "m"⟩]]
  | _ => []

/-- C85: that every message belongs to one of the two loggers is needed for `C85_told`: were the same text
logged by both modules, it could be lost.  (The texts of the two modules differ.) -/
theorem C85_told_needs_loggers : ∃ (prog : ℕ → List LogSession) (sched : List ℕ), DistinctExports prog ∧
    AllDone ((LogSys.start (fun _ => []) prog).run (fun _ _ => true) sched) ∧
    ⟨false, "m"⟩ ∈ recordsOf (prog 0) ∧ ⟨true, "m"⟩ ∈ recordsOf (prog 1) ∧
    ((LogSys.start (fun _ => []) prog).run (fun _ _ => true) sched).out = [] := by
  refine ⟨progTwo, [0, 1, 1, 0, 0, 1, 0, 1, 0, 1, 0, 1, 0, 0, 1, 1, 0, 0, 1, 1], ⟨?_, ?_⟩, ?_,
    by decide, by decide, by decide +kernel⟩
  · intro t
    match t with
    | 0 => decide
    | 1 => decide
    | (n + 2) => exact List.nodup_nil
  · intro t t' h e h1 h2
    match t, t' with
    | 0, 0 => exact h rfl
    | 1, 1 => exact h rfl
    | 0, 1 => simp [progTwo, exportsOf] at h1 h2; omega
    | 1, 0 => simp [progTwo, exportsOf] at h1 h2; omega
    | (n + 2), _ => simp [progTwo, exportsOf] at h1
    | _, (n + 2) => simp [progTwo, exportsOf] at h2
  · refine allDone_of 2 ?_ (by decide +kernel)
    intro t ht
    match t, ht with
    | (n + 2), _ => exact ⟨rfl, by simp⟩

end TNS
