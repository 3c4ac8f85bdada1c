import Verif.Spec.Files
import Verif.Props.Mcnp
import Verif.Props.SdefSource
/-
C86: the files of an SDEF export under crashes and parallel calls.
-/

set_option autoImplicit false

namespace TNS
open Spec

/-! ### One event -/

/-- The calls other than the one of the event stay. -/
def FileEvent.job : FileEvent → ℕ
  | .step t => t
  | .flush t _ => t
  | .kill t => t

theorem flush_jobs_ne (s : FileSys) (t n : ℕ) {t' : ℕ} (h : t' ≠ t) : (s.flush t n).jobs t' = s.jobs t' := by
  unfold FileSys.flush
  split
  · rfl
  · simp [Function.update_of_ne h]

theorem next_jobs_ne (s : FileSys) (e : FileEvent) {t' : ℕ} (h : t' ≠ e.job) :
    (s.next e).jobs t' = s.jobs t' := by
  cases e with
  | step t =>
    simp only [FileEvent.job] at h
    show (s.step t).jobs t' = _
    unfold FileSys.step
    split
    · rfl
    · simp [Function.update_of_ne h]
    · simp [Function.update_of_ne h]
    · simp only [Function.update_of_ne h]
      exact flush_jobs_ne s t _ h
    · simp [Function.update_of_ne h]
  | flush t n => exact flush_jobs_ne s t n h
  | kill t =>
    simp only [FileEvent.job] at h
    simp [FileSys.next, FileSys.kill, Function.update_of_ne h]

theorem flush_disk (s : FileSys) (t n : ℕ) (name : String)
    (h : ∀ hd, (s.jobs t).handle = some hd → hd.name ≠ name) : (s.flush t n).disk name = s.disk name := by
  unfold FileSys.flush
  split
  · rfl
  · rename_i hd hh
    simp [Function.update_of_ne (h hd hh).symm]

/-- A file is changed only by a call that has it open or opens it. -/
theorem next_disk (s : FileSys) (e : FileEvent) (name : String)
    (h : ∀ hd, (s.jobs e.job).handle = some hd → hd.name ≠ name)
    (ho : .openW name ∉ (s.jobs e.job).code) : (s.next e).disk name = s.disk name := by
  cases e with
  | step t =>
    simp only [FileEvent.job] at h ho
    show (s.step t).disk name = _
    unfold FileSys.step
    split
    · rfl
    · rename_i n rest hc
      have : name ≠ n := by rintro rfl; exact ho (by rw [hc]; exact List.mem_cons_self)
      simp [Function.update_of_ne this]
    · rfl
    · exact flush_disk s t _ name h
    · rfl
  | flush t n => exact flush_disk s t n name h
  | kill t => rfl

theorem next_code_sub (s : FileSys) (e : FileEvent) (t : ℕ) : ∀ op ∈ ((s.next e).jobs t).code, op ∈ (s.jobs t).code := by
  by_cases h : t = e.job
  · subst h
    cases e with
    | step t =>
      show ∀ op ∈ ((s.step t).jobs t).code, op ∈ (s.jobs t).code
      unfold FileSys.step
      intro op
      split
      · exact id
      · rename_i hc; intro h; simp only [Function.update_self] at h; rw [hc]; exact List.mem_cons_of_mem _ h
      · rename_i hc; intro h; simp only [Function.update_self] at h; rw [hc]; exact List.mem_cons_of_mem _ h
      · rename_i hc; intro h; simp only [Function.update_self] at h; rw [hc]; exact List.mem_cons_of_mem _ h
      · intro h; simp at h
    | flush t n =>
      show ∀ op ∈ ((s.flush t n).jobs t).code, op ∈ (s.jobs t).code
      unfold FileSys.flush
      split
      · exact fun _ h => h
      · intro op h; simpa using h
    | kill t => simp [FileSys.next, FileSys.kill, FileEvent.job]
  · rw [next_jobs_ne s e h]; exact fun _ h => h

theorem next_handle_name (s : FileSys) (e : FileEvent) (t : ℕ) (hd : FileHandle)
    (h : ((s.next e).jobs t).handle = some hd) :
    (∃ hd', (s.jobs t).handle = some hd' ∧ hd'.name = hd.name) ∨ .openW hd.name ∈ (s.jobs t).code := by
  by_cases ht : t = e.job
  · subst ht
    cases e with
    | step t =>
      simp only [FileEvent.job] at h ⊢
      have h : ((s.step t).jobs t).handle = some hd := h
      unfold FileSys.step at h
      split at h
      · exact .inl ⟨hd, h, rfl⟩
      · rename_i hc
        simp only [Function.update_self, Option.some.injEq] at h
        subst h
        exact .inr (by rw [hc]; exact List.mem_cons_self)
      · simp only [Function.update_self, Option.map_eq_some_iff] at h
        obtain ⟨a, h1, rfl⟩ := h
        exact .inl ⟨a, h1, rfl⟩
      · simp at h
      · simp at h
    | flush t n =>
      simp only [FileEvent.job] at h ⊢
      have h : ((s.flush t n).jobs t).handle = some hd := h
      unfold FileSys.flush at h
      split at h
      · exact .inl ⟨hd, h, rfl⟩
      · rename_i a ha
        simp only [Function.update_self, Option.some.injEq] at h
        subst h
        exact .inl ⟨a, ha, rfl⟩
    | kill t => simp [FileSys.next, FileSys.kill, FileEvent.job] at h
  · rw [next_jobs_ne s e ht] at h
    exact .inl ⟨hd, h, rfl⟩

theorem soleWriter_next {s : FileSys} {t : ℕ} {names : List String} (h : SoleWriter s t names) (e : FileEvent) :
    SoleWriter (s.next e) t names := by
  intro t' ht'
  refine ⟨fun hd hh => ?_, fun n hn => (h t' ht').2 n (next_code_sub s e t' _ hn)⟩
  rcases next_handle_name s e t' hd hh with ⟨hd', h1, h2⟩ | h1
  · rw [← h2]; exact (h t' ht').1 hd' h1
  · exact (h t' ht').2 _ h1

theorem soleWriter_run {s : FileSys} {t : ℕ} {names : List String} (h : SoleWriter s t names)
    (es : List FileEvent) : SoleWriter (s.run es) t names := by
  induction es generalizing s with
  | nil => exact h
  | cons e es ih => exact ih (soleWriter_next h e)

/-! ### The invariant of one call -/

/-- The operations for one file. -/
def block (p : String × List (List Char)) : List FileOp :=
  .openW p.1 :: (p.2.map .write ++ [.close])

/-- Name and content. -/
def blockFile (p : String × List (List Char)) : String × List Char := (p.1, p.2.flatten)

inductive JInv (bs : List (String × List (List Char))) (before : Disk) (t : ℕ) (s : FileSys) : Prop
  | idle (done rest : List (String × List (List Char))) (hb : bs = done ++ rest)
      (hj : s.jobs t = ⟨rest.flatMap block, none, false, none⟩)
      (hd : ∀ p ∈ done, s.disk p.1 = some p.2.flatten) (hr : ∀ p ∈ rest, s.disk p.1 = before p.1)
  | writing (done rest : List (String × List (List Char))) (n : String) (cs ws : List (List Char))
      (w buf : List Char) (hb : bs = done ++ (n, cs) :: rest)
      (hj : s.jobs t = ⟨ws.map .write ++ .close :: rest.flatMap block, some ⟨n, w.length, buf⟩, false, none⟩)
      (hn : s.disk n = some w) (hw : w ++ buf ++ ws.flatten = cs.flatten)
      (hd : ∀ p ∈ done, s.disk p.1 = some p.2.flatten) (hr : ∀ p ∈ rest, s.disk p.1 = before p.1)
  | dead (hj : s.jobs t = ⟨[], none, true, none⟩) (hw : WrittenUpTo (bs.map blockFile) before s.disk)

theorem JInv.shape {bs : List (String × List (List Char))} {before : Disk} {t : ℕ} {s : FileSys}
    (h : JInv bs before t s) : WrittenUpTo (bs.map blockFile) before s.disk := by
  cases h with
  | idle done rest hb hj hd hr =>
    refine ⟨done.map blockFile, rest.map blockFile, by rw [hb, List.map_append], ?_, ?_, ?_⟩
    · intro p hp
      obtain ⟨q, hq, rfl⟩ := List.mem_map.1 hp
      exact hd q hq
    · intro p hp
      obtain ⟨q, hq, rfl⟩ := List.mem_map.1 (List.mem_of_mem_head? hp)
      exact .inl (hr q hq)
    · intro p hp
      obtain ⟨q, hq, rfl⟩ := List.mem_map.1 (List.mem_of_mem_tail hp)
      exact hr q hq
  | writing done rest n cs ws w buf hb hj hn hw hd hr =>
    refine ⟨done.map blockFile, ((n, cs) :: rest).map blockFile, by rw [hb, List.map_append], ?_, ?_, ?_⟩
    · intro p hp
      obtain ⟨q, hq, rfl⟩ := List.mem_map.1 hp
      exact hd q hq
    · intro p hp
      simp only [List.map_cons, List.head?_cons, Option.mem_def, Option.some.injEq] at hp
      subst hp
      refine .inr ⟨w, ?_, hn⟩
      show w <+: cs.flatten
      rw [← hw, List.append_assoc]
      exact List.prefix_append _ _
    · intro p hp
      rw [List.map_cons, List.tail_cons] at hp
      obtain ⟨q, hq, rfl⟩ := List.mem_map.1 hp
      exact hr q hq
  | dead hj hw => exact hw

theorem writtenUpTo_congr {files : List (String × List Char)} {before after after' : Disk}
    (h : WrittenUpTo files before after) (he : ∀ p ∈ files, after' p.1 = after p.1) :
    WrittenUpTo files before after' := by
  obtain ⟨done, rest, rfl, h1, h2, h3⟩ := h
  have hm : ∀ p ∈ rest, after' p.1 = after p.1 := fun p hp => he p (List.mem_append_right _ hp)
  refine ⟨done, rest, rfl, ?_, ?_, ?_⟩
  · intro p hp; rw [he p (List.mem_append_left _ hp)]; exact h1 p hp
  · intro p hp; rw [hm p (List.mem_of_mem_head? hp)]; exact h2 p hp
  · intro p hp; rw [hm p (List.mem_of_mem_tail hp)]; exact h3 p hp

theorem overwrite_end (w d : List Char) : overwrite w w.length d = w ++ d := by
  simp [overwrite, List.drop_eq_nil_of_le]

theorem JInv.other {bs : List (String × List (List Char))} {before : Disk} {t : ℕ} {s : FileSys}
    (h : JInv bs before t s) (hs : SoleWriter s t (bs.map (·.1))) (e : FileEvent) (hne : e.job ≠ t) :
    JInv bs before t (s.next e) := by
  have hj' : (s.next e).jobs t = s.jobs t := next_jobs_ne s e hne.symm
  have hdisk : ∀ p ∈ bs, (s.next e).disk p.1 = s.disk p.1 := by
    intro p hp
    have hm : p.1 ∈ bs.map (·.1) := List.mem_map_of_mem hp
    exact next_disk s e p.1 (fun hd hh h => (hs _ hne).1 hd hh (h ▸ hm)) (fun h => (hs _ hne).2 _ h hm)
  cases h with
  | idle done rest hb hj hd hr =>
    refine .idle done rest hb (hj'.trans hj) ?_ ?_
    · intro p hp; rw [hdisk p (by rw [hb]; exact List.mem_append_left _ hp)]; exact hd p hp
    · intro p hp; rw [hdisk p (by rw [hb]; exact List.mem_append_right _ hp)]; exact hr p hp
  | writing done rest n cs ws w buf hb hj hn hw hd hr =>
    refine .writing done rest n cs ws w buf hb (hj'.trans hj) ?_ hw ?_ ?_
    · exact (hdisk (n, cs) (by rw [hb]; simp)).trans hn
    · intro p hp; rw [hdisk p (by rw [hb]; exact List.mem_append_left _ hp)]; exact hd p hp
    · intro p hp
      rw [hdisk p (by rw [hb]; exact List.mem_append_right _ (List.mem_cons_of_mem _ hp))]; exact hr p hp
  | dead hj hw =>
    refine .dead (hj'.trans hj) (writtenUpTo_congr hw ?_)
    intro p hp
    obtain ⟨q, hq, rfl⟩ := List.mem_map.1 hp
    exact hdisk q hq

theorem flush_of {s : FileSys} {t n : ℕ} {h : FileHandle} (hh : (s.jobs t).handle = some h) :
    s.flush t n = ⟨Function.update s.disk h.name
        (some (overwrite ((s.disk h.name).getD []) h.pos (h.buf.take n))),
      Function.update s.jobs t { s.jobs t with
        handle := some ⟨h.name, h.pos + (h.buf.take n).length, h.buf.drop n⟩ }⟩ := by
  unfold FileSys.flush
  rw [hh]

theorem JInv.own {bs : List (String × List (List Char))} (hnd : (bs.map (·.1)).Nodup) {before : Disk} {t : ℕ}
    {s : FileSys} (h : JInv bs before t s) (e : FileEvent) (hne : e.job = t) :
    JInv bs before t (s.next e) := by
  have hne' : ∀ {done rest : List (String × List (List Char))} {n : String} {cs : List (List Char)},
      bs = done ++ (n, cs) :: rest → (∀ p ∈ done, p.1 ≠ n) ∧ ∀ p ∈ rest, p.1 ≠ n := by
    intro done rest n cs hb
    rw [hb, List.map_append, List.map_cons, List.nodup_append, List.nodup_cons] at hnd
    refine ⟨fun p hp h => ?_, fun p hp h => ?_⟩
    · exact hnd.2.2 p.1 (List.mem_map_of_mem hp) n List.mem_cons_self h
    · have := List.mem_map_of_mem (f := fun x : String × List (List Char) => x.1) hp
      rw [h] at this
      exact hnd.2.1.1 this
  cases e with
  | kill t' =>
    obtain rfl : t' = t := hne
    refine .dead ?_ h.shape
    have : (s.jobs t').raised = none := by
      cases h with
      | idle _ _ _ hj => rw [hj]
      | writing _ _ _ _ _ _ _ _ hj => rw [hj]
      | dead hj _ => rw [hj]
    simp [FileSys.next, FileSys.kill, this]
  | flush t' m =>
    obtain rfl : t' = t := hne
    show JInv bs before t' (s.flush t' m)
    cases h with
    | idle done rest hb hj hd hr =>
      have : s.flush t' m = s := by unfold FileSys.flush; rw [hj]
      rw [this]; exact .idle done rest hb hj hd hr
    | dead hj hw =>
      have : s.flush t' m = s := by unfold FileSys.flush; rw [hj]
      rw [this]; exact .dead hj hw
    | writing done rest n cs ws w buf hb hj hn hw hd hr =>
      have hh : (s.jobs t').handle = some ⟨n, w.length, buf⟩ := by rw [hj]
      rw [flush_of hh]
      simp only [hn, Option.getD_some, overwrite_end]
      refine .writing done rest n cs ws (w ++ buf.take m) (buf.drop m) hb ?_ ?_ ?_ ?_ ?_
      · simp only [Function.update_self, hj, List.length_append]
      · simp
      · rw [List.append_assoc w, List.take_append_drop]; exact hw
      · intro p hp
        simp only [Function.update_of_ne ((hne' hb).1 p hp)]
        exact hd p hp
      · intro p hp
        simp only [Function.update_of_ne ((hne' hb).2 p hp)]
        exact hr p hp
  | step t' =>
    obtain rfl : t' = t := hne
    show JInv bs before t' (s.step t')
    cases h with
    | dead hj hw =>
      have : s.step t' = s := by unfold FileSys.step; rw [hj]
      rw [this]; exact .dead hj hw
    | idle done rest hb hj hd hr =>
      cases rest with
      | nil =>
        have : s.step t' = s := by unfold FileSys.step; rw [hj]; rfl
        rw [this]; exact .idle done [] hb hj hd hr
      | cons p rest =>
        obtain ⟨n, cs⟩ := p
        have hc : (s.jobs t').code = .openW n :: (cs.map .write ++ .close :: rest.flatMap block) := by
          rw [hj]; simp [block]
        unfold FileSys.step
        rw [hc]
        refine .writing done rest n cs cs [] [] hb ?_ ?_ ?_ ?_ ?_
        · simp only [Function.update_self, hj, List.length_nil]
        · simp
        · simp
        · intro p hp
          simp only [Function.update_of_ne ((hne' hb).1 p hp)]
          exact hd p hp
        · intro p hp
          simp only [Function.update_of_ne ((hne' hb).2 p hp)]
          exact hr p (List.mem_cons_of_mem _ hp)
    | writing done rest n cs ws w buf hb hj hn hw hd hr =>
      cases ws with
      | cons x ws =>
        have hc : (s.jobs t').code = .write x :: (ws.map .write ++ .close :: rest.flatMap block) := by
          rw [hj]; simp
        unfold FileSys.step
        rw [hc]
        refine .writing done rest n cs ws w (buf ++ x) hb ?_ hn ?_ hd hr
        · simp only [Function.update_self, hj, Option.map_some]
        · simpa using hw
      | nil =>
        have hc : (s.jobs t').code = .close :: rest.flatMap block := by rw [hj]; simp
        have hh : (s.jobs t').handle = some ⟨n, w.length, buf⟩ := by rw [hj]
        unfold FileSys.step
        rw [hc]
        simp only [hh, Option.map_some, Option.getD_some]
        rw [flush_of hh]
        simp only [hn, Option.getD_some, overwrite_end, List.take_length]
        refine .idle (done ++ [(n, cs)]) rest (by rw [hb]; simp) ?_ ?_ ?_
        · simp only [Function.update_self, hj]
        · intro p hp
          rcases List.mem_append.1 hp with hp | hp
          · simp only [Function.update_of_ne ((hne' hb).1 p hp)]
            exact hd p hp
          · rw [List.mem_singleton] at hp
            subst hp
            simp only [Function.update_self]
            rw [← hw, List.flatten_nil, List.append_nil]
        · intro p hp
          simp only [Function.update_of_ne ((hne' hb).2 p hp)]
          exact hr p hp

theorem JInv.run {bs : List (String × List (List Char))} (hnd : (bs.map (·.1)).Nodup) {before : Disk} {t : ℕ}
    {s : FileSys} (h : JInv bs before t s) (hs : SoleWriter s t (bs.map (·.1))) (es : List FileEvent) :
    JInv bs before t (s.run es) := by
  induction es generalizing s with
  | nil => exact h
  | cons e es ih =>
    refine ih ?_ (soleWriter_next hs e)
    by_cases he : e.job = t
    · exact h.own hnd e he
    · exact h.other hs e he

/-- A call that has returned has written everything. -/
theorem JInv.returned {bs : List (String × List (List Char))} {before : Disk} {t : ℕ} {s : FileSys}
    (h : JInv bs before t s) (hr : Returned (s.jobs t)) : AllWritten (bs.map blockFile) s.disk := by
  cases h with
  | idle done rest hb hj hd hr' =>
    rw [hj] at hr
    cases rest with
    | nil =>
      intro p hp
      obtain ⟨q, hq, rfl⟩ := List.mem_map.1 hp
      exact hd q (by rw [hb, List.append_nil] at hq; exact hq)
    | cons p rest => simp [Returned, block] at hr
  | writing done rest n cs ws w buf hb hj hn hw hd hr' =>
    rw [hj] at hr
    simp [Returned] at hr
  | dead hj hw => rw [hj] at hr; simp [Returned] at hr

/-! ### The operations of an export -/

/-- The chunks in which a file is written. -/
noncomputable def chunks (cit : Citation) (r : Neutronic) (f : SdefFile ℝ) : List (List Char) :=
  match headText cit r f, f.cards.vertical.mapM verticalText with
  | .ok h, .ok vs => h :: vs
  | _, _ => []

theorem verticalOps_ok {vs : List (ℕ × List ℝ × List ℝ)} {ts : List (List Char)}
    (h : vs.mapM verticalText = .ok ts) : verticalOps vs = ts.map .write ++ [.close] := by
  rw [mapM_ok_iff] at h
  induction h with
  | nil => rfl
  | cons h _ ih => simp [verticalOps, h, ih]

theorem sdefText_split {cit : Citation} {r : Neutronic} {f : SdefFile ℝ} {text : List Char}
    (h : sdefText cit r f = .ok text) :
    ∃ hd vs, headText cit r f = .ok hd ∧ f.cards.vertical.mapM verticalText = .ok vs ∧ text = hd ++ vs.flatten := by
  unfold sdefText at h
  unfold headText
  simp only [bind, Except.bind] at h ⊢
  split at h
  · cases h
  rename_i a ha
  split at h
  · cases h
  rename_i b hb
  split at h
  · cases h
  rename_i c hc
  split at h
  · cases h
  rename_i d hd
  split at h
  · cases h
  rename_i e he
  refine ⟨_, e, rfl, he, ?_⟩
  simp only [Except.ok.injEq] at h
  rw [← h]

/-- The operations of an export whose files have texts. -/
theorem sdefOps_blocks {cit : Citation} {stub : String} {s : Source ℝ} {files : List (SdefFile ℝ)}
    (hf : s.toSdef stub = .ok files)
    {texts : List (String × List Char)}
    (ht : List.Forall₂ (fun (f : SdefFile ℝ) (p : String × List Char) =>
      p.1 = f.name ∧ ∃ r, f.reaction = .n r ∧ sdefText cit r f = .ok p.2) files texts) :
    ∃ bs : List (String × List (List Char)), bs.map blockFile = texts ∧ s.sdefOps cit stub = bs.flatMap block := by
  have h2 := toSdef_forall₂ hf
  clear hf
  unfold Source.sdefOps
  generalize s.strength = str at h2
  induction str generalizing files texts with
  | nil =>
    cases h2
    cases ht
    exact ⟨[], rfl, rfl⟩
  | cons p str ih =>
    obtain ⟨r, data⟩ := p
    cases r with
    | a r =>
      have : ((Reaction.a r, data) :: str).filter (fun p => p.1.isNeutronic) =
        str.filter (fun p => p.1.isNeutronic) := by simp [Reaction.isNeutronic]
      rw [this] at h2
      obtain ⟨bs, h3, h4⟩ := ih ht h2
      exact ⟨bs, h3, by rw [List.flatMap_cons]; simpa using h4⟩
    | n r =>
      have : ((Reaction.n r, data) :: str).filter (fun p => p.1.isNeutronic) =
        (Reaction.n r, data) :: str.filter (fun p => p.1.isNeutronic) := by simp [Reaction.isNeutronic]
      rw [this] at h2
      cases h2 with
      | cons hf1 hrest =>
        cases ht with
        | cons ht1 htrest =>
          rename_i f files' q texts'
          obtain ⟨bs, h3, h4⟩ := ih htrest hrest
          obtain ⟨e1, e2, e3, e4, e5⟩ := hf1
          obtain ⟨t1, r', t2, t3⟩ := ht1
          obtain ⟨hd, vs, s1, s2, s3⟩ := sdefText_split t3
          have hr : r' = r := by
            rw [t2] at e2
            exact (Reaction.n.inj e2)
          subst hr
          have hfe : f = ⟨sdefFileName stub (.n r'), .n r', headerTotal data,
              meanIonTemp data s.temperature, f.cards⟩ := by
            obtain ⟨a, b, c, d, e⟩ := f
            simp only at e1 e2 e3 e4
            subst e1 e2 e3 e4
            rfl
          refine ⟨(q.1, hd :: vs) :: bs, ?_, ?_⟩
          · rw [List.map_cons, h3]
            congr 1
            obtain ⟨q1, q2⟩ := q
            simp only at s3
            simp [blockFile, s3]
          · rw [List.flatMap_cons, List.flatMap_cons, h4]
            congr 1
            show fileOps cit stub s r' data = _
            unfold fileOps
            rw [e5]
            simp only
            rw [← hfe, s1]
            simp only
            rw [verticalOps_ok s2, t1, e1]
            simp [block]

theorem names_of_texts {cit : Citation} {files : List (SdefFile ℝ)} {texts : List (String × List Char)}
    (ht : List.Forall₂ (fun (f : SdefFile ℝ) (p : String × List Char) =>
      p.1 = f.name ∧ ∃ r, f.reaction = .n r ∧ sdefText cit r f = .ok p.2) files texts) :
    texts.map (·.1) = files.map (·.name) := by
  induction ht with
  | nil => rfl
  | cons h _ ih => simp [ih, h.1]

theorem blockFile_names (bs : List (String × List (List Char))) :
    (bs.map blockFile).map (·.1) = bs.map (·.1) := by
  rw [List.map_map]; rfl

/-- An export as a list of blocks with distinct names. -/
theorem export_blocks {pi : ℝ} {Q : Reaction → ℝ} {sv : Reaction → List ℝ → Except Err (List ℝ)}
    {s : Source ℝ} (hs : Reachable pi Q sv s) {cit : Citation} {stub : String}
    {texts : List (String × List Char)} (ht : SdefTexts cit stub s texts) :
    ∃ bs : List (String × List (List Char)), bs.map blockFile = texts ∧ bs.map (·.1) = texts.map (·.1) ∧
      (bs.map (·.1)).Nodup ∧ s.sdefOps cit stub = bs.flatMap block := by
  obtain ⟨files, hf, ht⟩ := ht
  obtain ⟨bs, h1, h2⟩ := sdefOps_blocks hf ht
  have hn : bs.map (·.1) = texts.map (·.1) := by rw [← h1, blockFile_names]
  refine ⟨bs, h1, hn, ?_, h2⟩
  rw [hn, names_of_texts ht]
  by_cases hx : s.x = []
  · have h3 := toSdef_forall₂ hf
    cases hfl : s.strength.filter (fun p => p.1.isNeutronic) with
    | nil => rw [hfl] at h3; cases h3; exact List.nodup_nil
    | cons p l =>
      rw [hfl] at h3
      cases h3 with
      | cons h _ =>
        have := h.2.2.2.2
        rw [hx] at this
        simp [sdefCards, rBounds, npUnique, Bind.bind, Except.bind] at this
  · obtain ⟨files', hf', -, -, hnd⟩ := C28_files hs hx stub
    rw [hf] at hf'
    cases hf'
    exact hnd

/-! ### C86 -/

section
variable {pi : ℝ} {Q : Reaction → ℝ} {sv : Reaction → List ℝ → Except Err (List ℝ)} {s : Source ℝ}
  {cit : Citation} {stub : String} {texts : List (String × List Char)}

/-- **C86**: whatever happens around it, and wherever it is killed, an export that is the only writer of its
files leaves each of them complete, untouched, or, for at most one of them, cut off; the complete ones come
first. -/
theorem C86_crash (hs : Reachable pi Q sv s) (ht : SdefTexts cit stub s texts) (σ : FileSys) (t : ℕ)
    (hj : σ.jobs t = .start (s.sdefOps cit stub)) (hw : SoleWriter σ t (texts.map (·.1)))
    (es : List FileEvent) : WrittenUpTo texts σ.disk (σ.run es).disk := by
  obtain ⟨bs, h1, h2, h3, h4⟩ := export_blocks hs ht
  have h0 : JInv bs σ.disk t σ := .idle [] bs rfl (by rw [hj, h4]; rfl) (by simp) (fun _ _ => rfl)
  rw [← h1]
  exact (h0.run h3 (h2 ▸ hw) es).shape

/-- **C86**: once it has returned, all its files are complete, whatever was there before, and stay so. -/
theorem C86_returned (hs : Reachable pi Q sv s) (ht : SdefTexts cit stub s texts) (σ : FileSys) (t : ℕ)
    (hj : σ.jobs t = .start (s.sdefOps cit stub)) (hw : SoleWriter σ t (texts.map (·.1)))
    (es : List FileEvent) (hr : Returned ((σ.run es).jobs t)) : AllWritten texts (σ.run es).disk := by
  obtain ⟨bs, h1, h2, h3, h4⟩ := export_blocks hs ht
  have h0 : JInv bs σ.disk t σ := .idle [] bs rfl (by rw [hj, h4]; rfl) (by simp) (fun _ _ => rfl)
  rw [← h1]
  exact (h0.run h3 (h2 ▸ hw) es).returned hr

theorem fileRun_append (σ : FileSys) (es fs : List FileEvent) : σ.run (es ++ fs) = (σ.run es).run fs := by
  unfold FileSys.run; rw [List.foldl_append]

theorem JInv.finishes {bs : List (String × List (List Char))} (hnd : (bs.map (·.1)).Nodup) {before : Disk}
    {t : ℕ} (n : ℕ) : ∀ {s : FileSys}, JInv bs before t s → (s.jobs t).code.length ≤ n →
      (s.jobs t).killed = false → Returned ((s.run (List.replicate n (.step t))).jobs t) := by
  induction n with
  | zero =>
    intro s h hl hk
    have hc : (s.jobs t).code = [] := List.length_eq_zero_iff.1 (by omega)
    show Returned (s.jobs t)
    cases h with
    | idle done rest hb hj hd hr => rw [hj] at hc ⊢; exact ⟨hc, rfl, rfl, rfl⟩
    | writing done rest n cs ws w buf hb hj hn hw hd hr => rw [hj] at hc; simp at hc
    | dead hj hw => rw [hj] at hk; cases hk
  | succ n ih =>
    intro s h hl hk
    rw [List.replicate_succ]
    show Returned (((s.next (.step t)).run _).jobs t)
    refine ih (h.own hnd (.step t) rfl) ?_ ?_
    · show ((s.step t).jobs t).code.length ≤ n
      unfold FileSys.step
      split
      · rename_i hc; rw [hc]; simp
      · rename_i hc; rw [hc] at hl; simp only [Function.update_self]; simp at hl; omega
      · rename_i hc; rw [hc] at hl; simp only [Function.update_self]; simp at hl; omega
      · rename_i hc; rw [hc] at hl; simp only [Function.update_self]; simp at hl; omega
      · simp
    · show ((s.step t).jobs t).killed = false
      unfold FileSys.step
      split
      · exact hk
      · simpa using hk
      · simpa using hk
      · simpa using hk
      · simpa using hk

/-- **C86**: after any history in which all other calls have returned, raised or been killed, whatever they left
behind: a call that then returns leaves exactly its own texts. -/
theorem C86_retry (hs : Reachable pi Q sv s) (ht : SdefTexts cit stub s texts) (σ : FileSys) (t : ℕ)
    (es : List FileEvent) (hj : (σ.run es).jobs t = .start (s.sdefOps cit stub))
    (hd : ∀ t' ≠ t, ((σ.run es).jobs t').code = [] ∧ ((σ.run es).jobs t').handle = none)
    (es' : List FileEvent) (hr : Returned ((σ.run (es ++ es')).jobs t)) :
    AllWritten texts (σ.run (es ++ es')).disk := by
  have fileRun_append : σ.run (es ++ es') = (σ.run es).run es' := by unfold FileSys.run; rw [List.foldl_append]
  rw [fileRun_append] at hr ⊢
  refine C86_returned hs ht _ t hj (fun t' ht' => ⟨fun h hh => ?_, fun n hn => ?_⟩) es' hr
  · rw [(hd t' ht').2] at hh; cases hh
  · rw [(hd t' ht').1] at hn; cases hn

/-- **C86**: the export can always be completed: after any history in which it has not been killed, it returns
if it only gets to run. -/
theorem C86_completes (hs : Reachable pi Q sv s) (ht : SdefTexts cit stub s texts) (σ : FileSys) (t : ℕ)
    (hj : σ.jobs t = .start (s.sdefOps cit stub)) (hw : SoleWriter σ t (texts.map (·.1)))
    (es : List FileEvent) (hk : ((σ.run es).jobs t).killed = false) :
    ∃ n, Returned ((σ.run (es ++ List.replicate n (.step t))).jobs t) := by
  obtain ⟨bs, h1, h2, h3, h4⟩ := export_blocks hs ht
  have h0 : JInv bs σ.disk t σ := .idle [] bs rfl (by rw [hj, h4]; rfl) (by simp) (fun _ _ => rfl)
  refine ⟨((σ.run es).jobs t).code.length, ?_⟩
  rw [fileRun_append]
  exact (h0.run h3 (h2 ▸ hw) es).finishes h3 _ le_rfl hk

end

/-- **C86**: a file that no call has open or is going to open is never changed. -/
theorem C86_untouched (σ : FileSys) (name : String) (hh : ∀ t h, (σ.jobs t).handle = some h → h.name ≠ name)
    (ho : ∀ t, .openW name ∉ (σ.jobs t).code) (es : List FileEvent) : (σ.run es).disk name = σ.disk name := by
  induction es generalizing σ with
  | nil => rfl
  | cons e es ih =>
    refine (ih (σ.next e) ?_ ?_).trans (next_disk σ e name (hh e.job) (ho e.job))
    · intro t h h1 h2
      rcases next_handle_name σ e t h h1 with ⟨h', h3, h4⟩ | h3
      · exact hh t h' h3 (h4.trans h2)
      · exact ho t (h2 ▸ h3)
    · exact fun t h => ho t (next_code_sub σ e t _ h)

theorem verticalOps_no_open (vs : List (ℕ × List ℝ × List ℝ)) (n : String) : .openW n ∉ verticalOps vs := by
  induction vs with
  | nil => simp [verticalOps]
  | cons v vs ih =>
    unfold verticalOps
    split
    · simp
    · simpa using ih

/-- An export opens only files with its own stub. -/
theorem openW_sdefOps {cit : Citation} {stub : String} {s : Source ℝ} {n : String}
    (h : .openW n ∈ s.sdefOps cit stub) : ∃ r, n = sdefFileName stub (.n r) := by
  unfold Source.sdefOps at h
  rw [List.mem_flatMap] at h
  obtain ⟨⟨r, data⟩, -, h⟩ := h
  cases r with
  | a r => simp at h
  | n r =>
    simp only at h
    unfold fileOps at h
    split at h
    · simp at h
    · split at h
      · simp at h
      · rw [List.mem_cons, List.mem_cons] at h
        rcases h with h | h | h
        · exact ⟨r, FileOp.openW.inj h⟩
        · cases h
        · exact absurd h (verticalOps_no_open _ n)

theorem sdefFileName_stub {stub stub' : String} {r r' : Neutronic}
    (h : sdefFileName stub (.n r) = sdefFileName stub' (.n r')) : stub = stub' := by
  rw [sdefFileName_eq, sdefFileName_eq] at h
  have h2 := congrArg String.toList h
  simp only [String.toList_append] at h2
  have hl : ∀ r : Neutronic, (sdefSuffix r).toList.length = 2 := by intro r; cases r <;> decide
  rw [List.append_assoc, List.append_assoc] at h2
  have := List.append_inj_left' h2 (by simp [hl])
  exact String.toList_inj.1 this

theorem texts_names {cit : Citation} {stub : String} {s : Source ℝ} {texts : List (String × List Char)}
    (ht : SdefTexts cit stub s texts) : ∀ n ∈ texts.map (·.1), ∃ r, n = sdefFileName stub (.n r) := by
  obtain ⟨files, hf, ht⟩ := ht
  intro n hn
  rw [names_of_texts ht] at hn
  obtain ⟨f, hfm, rfl⟩ := List.mem_map.1 hn
  obtain ⟨p, hp, he⟩ := mapM_mem hf f hfm
  have hp2 := (List.mem_filter.1 hp).2
  simp only [bind, Except.bind] at he
  split at he
  · cases he
  · cases he
    rcases p with ⟨r | r, l⟩
    · exact ⟨r, rfl⟩
    · simp [Reaction.isNeutronic] at hp2

/-- **C86**: any number of exports at the same time, in any interleaving, each killed anywhere or nowhere, with
different names: each one's files are as if it were alone, and all other files are as they were. -/
theorem C86_parallel {pi : ℝ} {Q : Reaction → ℝ} {sv : Reaction → List ℝ → Except Err (List ℝ)}
    (cit : Citation) (stub : ℕ → String) (hst : Function.Injective stub) (src : ℕ → Source ℝ)
    (hs : ∀ t, Reachable pi Q sv (src t)) (texts : ℕ → List (String × List Char))
    (ht : ∀ t, SdefTexts cit (stub t) (src t) (texts t)) (disk : Disk) (es : List FileEvent) :
    let σ : FileSys := ⟨disk, fun t => .start ((src t).sdefOps cit (stub t))⟩
    (∀ t, WrittenUpTo (texts t) disk (σ.run es).disk) ∧
    (∀ t, Returned ((σ.run es).jobs t) → AllWritten (texts t) (σ.run es).disk) ∧
    ∀ name, (∀ t r, name ≠ stub t ++ "." ++ sdefSuffix r) → (σ.run es).disk name = disk name := by
  intro σ
  have hw : ∀ t, SoleWriter σ t ((texts t).map (·.1)) := by
    intro t t' hne
    refine ⟨(fun h hh => by cases hh), fun n hn hm => ?_⟩
    obtain ⟨r, hr⟩ := openW_sdefOps hn
    obtain ⟨r', hr'⟩ := texts_names (ht t) n hm
    exact hne (hst (sdefFileName_stub (hr.symm.trans hr')))
  refine ⟨fun t => C86_crash (hs t) (ht t) σ t rfl (hw t) es,
    fun t hr => C86_returned (hs t) (ht t) σ t rfl (hw t) es hr, fun name hn => ?_⟩
  refine C86_untouched σ name (fun t h hh => by cases hh) (fun t ho => ?_) es
  obtain ⟨r, hr⟩ := openW_sdefOps ho
  exact hn t r (by rw [hr, sdefFileName_eq])

/-- **C86**: with no cell the export raises before any file is opened. -/
theorem C86_empty (cit : Citation) (stub : String) (s : Source ℝ) (hx : s.x = []) (n : String) :
    .openW n ∉ s.sdefOps cit stub := by
  intro h
  unfold Source.sdefOps at h
  rw [List.mem_flatMap] at h
  obtain ⟨⟨r, data⟩, -, h⟩ := h
  cases r with
  | a r => simp at h
  | n r =>
    simp only at h
    unfold fileOps at h
    rw [hx] at h
    simp [sdefCards, rBounds, npUnique, Bind.bind, Except.bind] at h

theorem finish_block (t : ℕ) (ws : List (List Char)) : ∀ (σ : FileSys) (rest : List FileOp) (n : String) (pos : ℕ)
    (buf : List Char), (σ.jobs t).code = ws.map .write ++ .close :: rest →
    (σ.jobs t).handle = some ⟨n, pos, buf⟩ →
    (σ.run (List.replicate (ws.length + 1) (.step t))).disk =
      Function.update σ.disk n (some (overwrite ((σ.disk n).getD []) pos (buf ++ ws.flatten))) ∧
    ∀ t' ≠ t, (σ.run (List.replicate (ws.length + 1) (.step t))).jobs t' = σ.jobs t' := by
  induction ws with
  | nil =>
    intro σ rest n pos buf hc hh
    have hc : (σ.jobs t).code = .close :: rest := by simpa using hc
    show (σ.step t).disk = _ ∧ ∀ t' ≠ t, (σ.step t).jobs t' = _
    refine ⟨?_, fun t' ht' => next_jobs_ne σ (.step t) ht'⟩
    unfold FileSys.step
    rw [hc]
    simp only [hh, Option.map_some, Option.getD_some]
    rw [flush_of hh]
    simp
  | cons w ws ih =>
    intro σ rest n pos buf hc hh
    have hc : (σ.jobs t).code = .write w :: (ws.map .write ++ .close :: rest) := by simpa using hc
    have hs : σ.next (.step t) = { σ with jobs := Function.update σ.jobs t { σ.jobs t with
        code := ws.map .write ++ .close :: rest,
        handle := (σ.jobs t).handle.map (fun h => { h with buf := h.buf ++ w }) } } := by
      show σ.step t = _
      unfold FileSys.step
      rw [hc]
    obtain ⟨h1, h2⟩ := ih (σ.next (.step t)) rest n pos (buf ++ w) (by rw [hs]; simp) (by rw [hs]; simp [hh])
    rw [List.length_cons, List.replicate_succ]
    refine ⟨?_, fun t' ht' => (h2 t' ht').trans (next_jobs_ne σ (.step t) ht')⟩
    refine h1.trans ?_
    rw [hs]
    simp

/-- C86 (finding).  Two exports at the same time with the same name: the file can end up with the text of one
followed by the rest of the longer text of the other. -/
theorem C86_same_name {pi : ℝ} {Q : Reaction → ℝ} {sv : Reaction → List ℝ → Except Err (List ℝ)}
    {s s' : Source ℝ} (hs : Reachable pi Q sv s) (hs' : Reachable pi Q sv s') {cit : Citation} {stub name : String}
    {text text' : List Char} (ht : SdefTexts cit stub s [(name, text)])
    (ht' : SdefTexts cit stub s' [(name, text')]) (σ : FileSys)
    (hj : σ.jobs 0 = .start (s.sdefOps cit stub)) (hj' : σ.jobs 1 = .start (s'.sdefOps cit stub)) :
    ∃ es, (σ.run es).disk name = some (text' ++ text.drop text'.length) := by
  obtain ⟨bs, h1, -, -, h4⟩ := export_blocks hs ht
  obtain ⟨bs', h1', -, -, h4'⟩ := export_blocks hs' ht'
  obtain ⟨⟨n, cs⟩, rfl, hb⟩ := List.map_eq_singleton_iff.1 h1
  obtain ⟨⟨n', cs'⟩, rfl, hb'⟩ := List.map_eq_singleton_iff.1 h1'
  simp only [blockFile, Prod.mk.injEq] at hb hb'
  obtain ⟨rfl, rfl⟩ := hb
  obtain ⟨rfl, rfl⟩ := hb'
  have c0 : (σ.jobs 0).code = .openW n' :: (cs.map .write ++ .close :: []) := by
    rw [hj, h4]; simp [FileJob.start, block]
  have c1 : (σ.jobs 1).code = .openW n' :: (cs'.map .write ++ .close :: []) := by
    rw [hj', h4']; simp [FileJob.start, block]
  let σ1 := σ.next (.step 0)
  have e1 : σ1 = ⟨Function.update σ.disk n' (some []), Function.update σ.jobs 0 { σ.jobs 0 with
      code := cs.map .write ++ .close :: [], handle := some ⟨n', 0, []⟩ }⟩ := by
    show σ.step 0 = _
    unfold FileSys.step
    rw [c0]
  let σ2 := σ1.next (.step 1)
  have c1' : (σ1.jobs 1).code = .openW n' :: (cs'.map .write ++ .close :: []) := by
    rw [e1]; simp [c1]
  have e2 : σ2 = ⟨Function.update σ1.disk n' (some []), Function.update σ1.jobs 1 { σ1.jobs 1 with
      code := cs'.map .write ++ .close :: [], handle := some ⟨n', 0, []⟩ }⟩ := by
    show σ1.step 1 = _
    unfold FileSys.step
    rw [c1']
  obtain ⟨d0, j0⟩ := finish_block 0 cs σ2 [] n' 0 [] (by rw [e2]; simp [e1]) (by rw [e2]; simp [e1])
  obtain ⟨d1, j1⟩ := finish_block 1 cs' (σ2.run (List.replicate (cs.length + 1) (.step 0))) [] n' 0 []
    (by rw [j0 1 (by decide), e2]; simp) (by rw [j0 1 (by decide), e2]; simp)
  refine ⟨.step 0 :: .step 1 :: (List.replicate (cs.length + 1) (.step 0) ++
    List.replicate (cs'.length + 1) (.step 1)), ?_⟩
  show ((σ2.run _).disk) n' = _
  rw [fileRun_append, d1, d0, e2]
  simp [overwrite]

/-! ### Non-vacuity -/

open Ex

theorem textsR : ∃ text, SdefTexts citation "out" srcR [("out" ++ "." ++ "DT", text)] := by
  obtain ⟨text, h⟩ := sdefText_ok citation .D_T fileR (13 / 5) rfl printableR
  refine ⟨text, [fileR], sdefR, .cons ⟨?_, .D_T, rfl, h⟩ .nil⟩
  show _ = sdefFileName "out" .DT
  rw [sdefFileName_eq]; rfl

/-- The hypotheses of `C86_crash`, `C86_returned` and `C86_completes` hold of a source with two cells on any disk;
the export returns with its file complete. -/
example (disk : Disk) : ∃ text n,
    ((⟨disk, fun t => if t = 0 then .start (srcR.sdefOps citation "out") else .start []⟩ : FileSys).run
      (List.replicate n (.step 0))).disk "out.DT" = some text := by
  obtain ⟨text, ht⟩ := textsR
  let σ : FileSys := ⟨disk, fun t => if t = 0 then .start (srcR.sdefOps citation "out") else .start []⟩
  have hj : σ.jobs 0 = .start (srcR.sdefOps citation "out") := rfl
  have hw : SoleWriter σ 0 ([("out" ++ "." ++ "DT", text)].map (·.1)) := by
    intro t' hne
    have : σ.jobs t' = .start [] := if_neg hne
    rw [this]
    exact ⟨(fun h hh => by cases hh), (fun n hn => by cases hn)⟩
  obtain ⟨n, hn⟩ := C86_completes physR.reachable ht σ 0 hj hw [] (by show (σ.jobs 0).killed = false; rw [hj]; rfl)
  have := C86_returned physR.reachable ht σ 0 hj hw _ hn _ (List.mem_singleton.2 rfl)
  exact ⟨text, n, this⟩

end TNS
