import Verif.Model.Tools
import Verif.Spec.Source
import Mathlib.Tactic.Linarith
/-
C59, C61, C62: log filter, data directory, plot selection.
-/

set_option autoImplicit false
set_option linter.unusedSectionVars false

namespace TNS

/-! ## C59 -/

section
variable (q : ℕ) (other : ℕ → LogRecord → Bool)

/-- Does a record pass the filters that were attached before? -/
def passes (other : ℕ → LogRecord → Bool) (filters : Bool → List ℕ) (r : LogRecord) : Bool :=
  (filters r.logger).all (fun f => other f r)

/-- The records of the list that pass the other filters and whose message is not in `seen` and does
not occur in an earlier passing record. -/
def firsts (other : ℕ → LogRecord → Bool) (filters : Bool → List ℕ) (seen : List String) :
    List LogRecord → List LogRecord
  | [] => []
  | r :: rs =>
    if passes other filters r then
      if r.msg ∈ seen then firsts other filters seen rs
      else r :: firsts other filters (r.msg :: seen) rs
    else firsts other filters seen rs

theorem runFilters_end (r : LogRecord) (l : List ℕ) (hq : q ∉ l) (msgs : List String) :
    runFilters q other r (l ++ [q]) msgs =
      if l.all (fun f => other f r) then filterCall msgs r else (false, msgs) := by
  induction l with
  | nil =>
    simp only [List.nil_append, runFilters, if_true, List.all_nil]
    unfold filterCall
    by_cases h : r.msg ∈ msgs <;> simp [h]
  | cons f l ih =>
    have hf : f ≠ q := fun h => hq (by simp [h])
    have hl : q ∉ l := fun h => hq (by simp [h])
    rw [List.cons_append, runFilters, if_neg hf, ih hl]
    by_cases h : other f r <;> simp [h]

theorem runOps_logs (filters : Bool → List ℕ) (hq : ∀ b, q ∉ filters b) (rs : List LogRecord)
    (msgs : List String) :
    ∃ msgs', runOps q other ⟨fun b => filters b ++ [q], msgs⟩ (rs.map .log) =
      (⟨fun b => filters b ++ [q], msgs'⟩, firsts other filters msgs rs) := by
  induction rs generalizing msgs with
  | nil => exact ⟨msgs, rfl⟩
  | cons r rs ih =>
    simp only [List.map_cons, runOps, LogOp.step, runFilters_end q other r _ (hq r.logger)]
    by_cases hp : passes other filters r
    · have hp' : (filters r.logger).all (fun f => other f r) = true := hp
      rw [if_pos hp']
      by_cases hm : r.msg ∈ msgs
      · obtain ⟨m', e⟩ := ih msgs
        refine ⟨m', ?_⟩
        simp only [filterCall, hm, decide_true, Bool.not_true, if_true, Bool.false_eq_true, if_false,
          e, firsts, hp, List.nil_append]
      · obtain ⟨m', e⟩ := ih (r.msg :: msgs)
        refine ⟨m', ?_⟩
        simp only [filterCall, hm, decide_false, Bool.not_false, if_true, Bool.false_eq_true,
          if_false, e, firsts, hp, List.cons_append, List.nil_append]
    · have hp' : ¬ (filters r.logger).all (fun f => other f r) = true := hp
      rw [if_neg hp']
      obtain ⟨m', e⟩ := ih msgs
      refine ⟨m', ?_⟩
      simp only [Bool.false_eq_true, if_false, e, firsts, hp, List.nil_append]

/-- The specification by positions: record `i` of the list is let through exactly if it passes the
other filters and no earlier passing record (of either logger) has the same message. -/
def emitted (other : ℕ → LogRecord → Bool) (filters : Bool → List ℕ) (rs : List LogRecord) :
    List LogRecord :=
  rs.zipIdx.filterMap (fun p : LogRecord × ℕ =>
    if passes other filters p.1 ∧
      ∀ r ∈ rs.take p.2, passes other filters r → r.msg ≠ p.1.msg then some p.1 else none)

theorem firsts_eq_aux (filters : Bool → List ℕ) (rs pre : List LogRecord) (seen : List String)
    (hseen : ∀ m, m ∈ seen ↔ ∃ r ∈ pre, passes other filters r ∧ r.msg = m) :
    firsts other filters seen rs =
      (rs.zipIdx pre.length).filterMap (fun p : LogRecord × ℕ =>
        if passes other filters p.1 ∧
          ∀ r ∈ (pre ++ rs).take p.2, passes other filters r → r.msg ≠ p.1.msg
        then some p.1 else none) := by
  induction rs generalizing pre seen with
  | nil => rfl
  | cons r rs ih =>
    rw [List.zipIdx_cons, List.filterMap_cons]
    have htake : (pre ++ r :: rs).take pre.length = pre := List.take_left' rfl
    have hnext : pre ++ r :: rs = (pre ++ [r]) ++ rs := by simp
    have hl : pre.length + 1 = (pre ++ [r]).length := by simp
    simp only [htake]
    by_cases hp : passes other filters r
    · by_cases hm : r.msg ∈ seen
      · obtain ⟨r', h1, h2, h3⟩ := (hseen _).1 hm
        rw [if_neg (by
          rintro ⟨-, h⟩
          exact h r' h1 h2 h3)]
        simp only [firsts, hp, hm, if_true]
        rw [ih (pre ++ [r]) seen (by
          intro m
          rw [hseen]
          constructor
          · rintro ⟨x, a, b⟩; exact ⟨x, by simp [a], b⟩
          · rintro ⟨x, a, b, c⟩
            rcases List.mem_append.1 a with a | a
            · exact ⟨x, a, b, c⟩
            · simp at a; subst a; exact ⟨r', h1, h2, by rw [h3, c]⟩), hnext, hl]
      · rw [if_pos ⟨hp, by
          intro x a b c
          exact hm ((hseen _).2 ⟨x, a, b, c⟩)⟩]
        simp only [firsts, hp, hm, if_true, if_false]
        rw [ih (pre ++ [r]) (r.msg :: seen) (by
          intro m
          rw [List.mem_cons, hseen]
          constructor
          · rintro (rfl | ⟨x, a, b⟩)
            · exact ⟨r, by simp, hp, rfl⟩
            · exact ⟨x, by simp [a], b⟩
          · rintro ⟨x, a, b, c⟩
            rcases List.mem_append.1 a with a | a
            · exact Or.inr ⟨x, a, b, c⟩
            · simp at a; subst a; exact Or.inl c.symm), hnext, hl]
    · rw [if_neg (by rintro ⟨h, -⟩; exact hp h)]
      simp only [firsts, hp, Bool.false_eq_true, if_false]
      rw [ih (pre ++ [r]) seen (by
          intro m
          rw [hseen]
          constructor
          · rintro ⟨x, a, b⟩; exact ⟨x, by simp [a], b⟩
          · rintro ⟨x, a, b, c⟩
            rcases List.mem_append.1 a with a | a
            · exact ⟨x, a, b, c⟩
            · simp at a; subst a; exact absurd b hp), hnext, hl]

/-- **C59**: for every sequence of log records on the two loggers, in any interleaving, and any
filters already attached: the records let through are, in order, exactly the first occurrences of
each message among those the other filters let through; the filters afterwards are those before; an
exception of the body is passed on. -/
theorem C59_quiet (filters : Bool → List ℕ) (hq : ∀ b, q ∉ filters b) (rs : List LogRecord)
    (raises : Option Err) :
    withQuiet q other filters (rs.map .log) raises =
      (filters, emitted other filters rs, raises) := by
  have ha : ∀ b, addFilter q (filters b) = filters b ++ [q] := fun b => if_neg (hq b)
  have hr : ∀ b, removeFilter q (filters b ++ [q]) = filters b := by
    intro b
    unfold removeFilter
    rw [if_pos (by simp), List.erase_append_right _ (hq b)]
    simp
  obtain ⟨m', e⟩ := runOps_logs q other filters hq rs []
  unfold withQuiet
  simp only [ha, e, hr]
  have := firsts_eq_aux other filters rs [] [] (by simp)
  simp only [List.length_nil, List.nil_append] at this
  rw [this]
  rfl

/-- **C59**: in particular no message is let through twice, and every message that the other filters
let through at least once is let through. -/
theorem C59_each_once (filters : Bool → List ℕ) (rs : List LogRecord) :
    ((emitted other filters rs).map LogRecord.msg).Nodup ∧
    ∀ m, m ∈ (emitted other filters rs).map LogRecord.msg ↔
      ∃ r ∈ rs, passes other filters r ∧ r.msg = m := by
  have e : emitted other filters rs = firsts other filters [] rs := by
    have := firsts_eq_aux other filters rs [] [] (by simp)
    simp only [List.length_nil, List.nil_append] at this
    exact this.symm
  rw [e]
  have key : ∀ (rs : List LogRecord) (seen : List String),
      ((firsts other filters seen rs).map LogRecord.msg).Nodup ∧
      ∀ m, m ∈ (firsts other filters seen rs).map LogRecord.msg ↔
        m ∉ seen ∧ ∃ r ∈ rs, passes other filters r ∧ r.msg = m := by
    intro rs
    induction rs with
    | nil => intro seen; simp [firsts]
    | cons r rs ih =>
      intro seen
      unfold firsts
      split_ifs with hp hm
      · obtain ⟨a, b⟩ := ih seen
        refine ⟨a, fun m => ?_⟩
        rw [b]
        constructor
        · rintro ⟨h1, x, h2, h3⟩; exact ⟨h1, x, by simp [h2], h3⟩
        · rintro ⟨h1, x, h2, h3, h4⟩
          rcases List.mem_cons.1 h2 with rfl | h2
          · rw [h4] at hm; exact absurd hm h1
          · exact ⟨h1, x, h2, h3, h4⟩
      · obtain ⟨a, b⟩ := ih (r.msg :: seen)
        refine ⟨?_, fun m => ?_⟩
        · rw [List.map_cons, List.nodup_cons]
          refine ⟨?_, a⟩
          rw [b]; simp
        · rw [List.map_cons, List.mem_cons, b]
          constructor
          · rintro (rfl | ⟨h1, x, h2, h3⟩)
            · exact ⟨hm, r, by simp, hp, rfl⟩
            · exact ⟨fun h => h1 (by simp [h]), x, by simp [h2], h3⟩
          · rintro ⟨h1, x, h2, h3, h4⟩
            by_cases hmm : m = r.msg
            · exact Or.inl hmm
            · right
              refine ⟨by simp [hmm, h1], ?_⟩
              rcases List.mem_cons.1 h2 with rfl | h2
              · exact absurd h4.symm hmm
              · exact ⟨x, h2, h3, h4⟩
      · obtain ⟨a, b⟩ := ih seen
        refine ⟨a, fun m => ?_⟩
        rw [b]
        constructor
        · rintro ⟨h1, x, h2, h3⟩; exact ⟨h1, x, by simp [h2], h3⟩
        · rintro ⟨h1, x, h2, h3, h4⟩
          rcases List.mem_cons.1 h2 with rfl | h2
          · exact absurd h3 hp
          · exact ⟨h1, x, h2, h3, h4⟩
  simpa using key rs []

/-- Filter lists after a sequence of operations, ignoring log records. -/
def filtersAfter (filters : Bool → List ℕ) : List LogOp → (Bool → List ℕ)
  | [] => filters
  | .log _ :: ops => filtersAfter filters ops
  | .add lg f :: ops =>
    filtersAfter (fun b => if b = lg then addFilter f (filters b) else filters b) ops
  | .remove lg f :: ops =>
    filtersAfter (fun b => if b = lg then removeFilter f (filters b) else filters b) ops

/-- The operation attaches or detaches `q` itself. -/
def LogOp.touches (q : ℕ) : LogOp → Prop
  | .log _ => False
  | .add _ f => f = q
  | .remove _ f => f = q

/-- **C59**: even if the body attaches or detaches other filters, afterwards the filters are those
that the body alone would have left. -/
theorem C59_restores (filters : Bool → List ℕ) (hq : ∀ b, q ∉ filters b) (body : List LogOp)
    (hb : ∀ op ∈ body, ¬ op.touches q) (raises : Option Err) :
    (withQuiet q other filters body raises).1 = filtersAfter filters body ∧
    (withQuiet q other filters body raises).2.2 = raises := by
  refine ⟨?_, rfl⟩
  have erase : ∀ l : List ℕ, (l.filter (· ≠ q)) = l.filter (· ≠ q) := fun _ => rfl
  have key : ∀ (body : List LogOp) (g : Bool → List ℕ) (s : LogState),
      (∀ op ∈ body, ¬ op.touches q) →
      (∀ b, q ∉ g b) → (∀ b, ∃ l1 l2, s.filters b = l1 ++ q :: l2 ∧ g b = l1 ++ l2) →
      ∀ b, ∃ l1 l2, (runOps q other s body).1.filters b = l1 ++ q :: l2 ∧
        filtersAfter g body b = l1 ++ l2 ∧ q ∉ l1 := by
    intro body
    induction body with
    | nil =>
      intro g s _ hg hs b
      obtain ⟨l1, l2, h1, h2⟩ := hs b
      exact ⟨l1, l2, h1, h2, fun h => hg b (by rw [h2]; simp [h])⟩
    | cons op ops ih =>
      intro g s hb hg hs
      have hops : ∀ op ∈ ops, ¬ op.touches q := fun o ho => hb o (List.mem_cons_of_mem _ ho)
      cases op with
      | log r =>
        simp only [runOps, LogOp.step, filtersAfter]
        exact ih g _ hops hg hs
      | add lg f =>
        have hf : f ≠ q := hb _ (List.mem_cons_self)
        simp only [runOps, LogOp.step, filtersAfter]
        refine ih _ _ hops ?_ ?_
        · intro b
          by_cases h : b = lg
          · simp only [h, if_true]
            unfold addFilter
            split_ifs
            · exact hg lg
            · simp [hg lg, Ne.symm hf]
          · simp only [h, if_false]; exact hg b
        · intro b
          obtain ⟨l1, l2, h1, h2⟩ := hs b
          by_cases h : b = lg
          · simp only [h, if_true]
            rw [h] at h1 h2
            unfold addFilter
            rw [h1, h2]
            by_cases hm : f ∈ l1 ++ l2
            · rw [if_pos (by simp at hm ⊢; tauto), if_pos hm]; exact ⟨l1, l2, rfl, rfl⟩
            · rw [if_neg (by simp at hm ⊢; tauto), if_neg hm]
              exact ⟨l1, l2 ++ [f], by simp, by simp⟩
          · simp only [h, if_false]; exact ⟨l1, l2, h1, h2⟩
      | remove lg f =>
        have hf : f ≠ q := hb _ (List.mem_cons_self)
        simp only [runOps, LogOp.step, filtersAfter]
        refine ih _ _ hops ?_ ?_
        · intro b
          by_cases h : b = lg
          · simp only [h, if_true]
            unfold removeFilter
            split_ifs
            · exact fun h' => hg lg (List.mem_of_mem_erase h')
            · exact hg lg
          · simp only [h, if_false]; exact hg b
        · intro b
          obtain ⟨l1, l2, h1, h2⟩ := hs b
          by_cases h : b = lg
          · simp only [h, if_true]
            rw [h] at h1 h2
            unfold removeFilter
            rw [h1, h2]
            by_cases hm1 : f ∈ l1
            · rw [if_pos (by simp [hm1]), if_pos (by simp [hm1]), List.erase_append_left _ hm1,
                List.erase_append_left _ hm1]
              exact ⟨l1.erase f, l2, rfl, rfl⟩
            · by_cases hm2 : f ∈ l2
              · rw [if_pos (by simp [hm2]), if_pos (by simp [hm2]), List.erase_append_right _ hm1,
                  List.erase_append_right _ hm1, List.erase_cons_tail (by simpa using Ne.symm hf)]
                exact ⟨l1, l2.erase f, rfl, rfl⟩
              · rw [if_neg (by simp [hm1, hm2, hf]), if_neg (by simp [hm1, hm2])]
                exact ⟨l1, l2, rfl, rfl⟩
          · simp only [h, if_false]; exact ⟨l1, l2, h1, h2⟩
  funext b
  obtain ⟨l1, l2, h1, h2, h3⟩ := key body filters
    { filters := fun b => addFilter q (filters b), msgs := [] } hb hq
    (fun b => ⟨filters b, [], by simp [addFilter, hq b], by simp⟩) b
  show removeFilter q ((runOps q other _ body).1.filters b) = _
  rw [h1, h2]
  unfold removeFilter
  rw [if_pos (by simp), List.erase_append_right _ h3]
  simp

end

/-- The same message from both loggers is let through once; a filter already attached still acts. -/
example : withQuiet 7 (fun _ r => r.msg ≠ "b") (fun b => if b then [3] else [])
    ([⟨true, "a"⟩, ⟨true, "b"⟩, ⟨false, "a"⟩, ⟨false, "c"⟩].map .log) none =
    (fun b => if b then [3] else [], [⟨true, "a"⟩, ⟨false, "c"⟩], none) := by
  rw [C59_quiet _ _ _ (by intro b; cases b <;> simp)]
  refine Prod.ext rfl (Prod.ext ?_ rfl)
  decide +kernel

/-! ## C61 -/

/-- **C61**: unless the letters "egg" occur in the installation path, the lookup returns
`root/subfolder/path` exactly if it and `root/subfolder` are directories, and raises `ValueError`
otherwise. -/
theorem C61_lookup (isDir : String → Bool) (root path subfolder : String)
    (h : ¬ "egg".toList <:+: root.toList) (res : Except Err String) :
    getTnsPath isDir root path subfolder = res ↔
      (isDir (pathJoin root subfolder) ∧ isDir (pathJoin (pathJoin root subfolder) path) ∧
        res = .ok (pathJoin (pathJoin root subfolder) path)) ∨
      ((isDir (pathJoin root subfolder) = false ∨
        isDir (pathJoin (pathJoin root subfolder) path) = false) ∧ res = .error .valueError) := by
  unfold getTnsPath
  rw [if_neg h]
  unfold getRelpath
  by_cases h1 : isDir (pathJoin root subfolder) <;>
    by_cases h2 : isDir (pathJoin (pathJoin root subfolder) path) <;>
    simp [h1, h2, Bind.bind, Except.bind, eq_comm]

/-- **C61**, finding: if "egg" occurs anywhere in the installation path, the answer is `/subfolder`
whatever the file system contains and whatever path was asked for. -/
theorem C61_egg (isDir : String → Bool) (root path subfolder : String)
    (h : "egg".toList <:+: root.toList) :
    getTnsPath isDir root path subfolder = .ok ("/" ++ subfolder) := by
  unfold getTnsPath; rw [if_pos h]

/-- Concrete cases: an ordinary root, and a user called Gregg. -/
example : getTnsPath (fun _ => true) "/opt/tns" "data/spectra" "tokamak_neutron_source" =
    .ok "/opt/tns/tokamak_neutron_source/data/spectra" := by decide +kernel
example : getTnsPath (fun _ => false) "/home/gregg/tns" "data/spectra" "tokamak_neutron_source" =
    .ok "/tokamak_neutron_source" := by decide +kernel

/-! ## C62 -/

section
variable {K : Type} [Field K]

theorem plotSelect_fst (st l : List Reaction) : (plotSelect st l).1 = l.filter (· ∈ st) := by
  induction l with
  | nil => rfl
  | cons r rs ih =>
    by_cases h : r ∈ st <;> simp [plotSelect, h, ih]

theorem plotSelect_snd (st l : List Reaction) : (plotSelect st l).2 = l.filter (· ∉ st) := by
  induction l with
  | nil => rfl
  | cons r rs ih =>
    by_cases h : r ∈ st <;> simp [plotSelect, h, ih]

/-- **C62**: with a list of reactions, the panels are those of the requested reactions that are in
the source, in the requested order, each with the strengths of its own reaction; `TNSError` exactly
if there are none. -/
theorem C62_requested (s : Source K) (l : List Reaction) :
    s.plot (some l) = if ∀ r ∈ l, r ∉ s.sourceType then .error .tnsError
      else .ok ((l.filter (· ∈ s.sourceType)).map
        (fun r => ⟨r.label ++ " reaction", s.strength.getD r []⟩)) := by
  unfold Source.plot
  simp only [plotSelect_fst]
  by_cases h : ∀ r ∈ l, r ∉ s.sourceType
  · have : (l.filter (· ∈ s.sourceType)) = [] := List.filter_eq_nil_iff.2 (by simpa using h)
    rw [if_pos h, this]; rfl
  · have : ¬ (l.filter (· ∈ s.sourceType)).length = 0 := by
      intro h0
      have := List.filter_eq_nil_iff.1 (List.length_eq_zero_iff.1 h0)
      exact h (by simpa using this)
    rw [if_neg h, if_neg this, if_neg this]

/-- **C62**: with no argument, one panel per channel of the source, in the source's order. -/
theorem C62_all (s : Source K) (h : s.sourceType ≠ []) :
    s.plot none = .ok (s.sourceType.map
        (fun r => ⟨r.label ++ " reaction", s.strength.getD r []⟩)) := by
  unfold Source.plot
  simp only
  rw [if_neg (by simpa using h)]

/-- **C62**: asking for all channels of the source explicitly is the same as asking for none. -/
theorem C62_explicit_all (s : Source K) (h : s.sourceType ≠ []) :
    s.plot (some s.sourceType) = s.plot none := by
  rw [C62_requested, C62_all s h, if_neg]
  · congr 2
    exact List.filter_eq_self.2 (by simp)
  · intro h'
    cases hs : s.sourceType with
    | nil => exact h hs
    | cons a l => exact h' a (by rw [hs]; simp) (by rw [hs]; simp)

/-- **C62**: reactions that are not in the source are warned about, and only those. -/
theorem C62_warned (s : Source K) (l : List Reaction) (r : Reaction) :
    r ∈ (plotSelect s.sourceType l).2 ↔ r ∈ l ∧ r ∉ s.sourceType := by
  rw [plotSelect_snd]; simp

end

example (s : Source ℚ) (h : s.sourceType = [.DT, .TT]) :
    (s.plot (some [.DDn, .TT])) = .ok [⟨"T + T → ⁴He + 2n reaction", s.strength.getD .TT []⟩] := by
  rw [C62_requested, h, if_neg (by decide +kernel)]
  have : ([Reaction.DDn, Reaction.TT].filter (· ∈ [Reaction.DT, Reaction.TT])) = [.TT] := by
    decide +kernel
  rw [this]
  rfl

end TNS
