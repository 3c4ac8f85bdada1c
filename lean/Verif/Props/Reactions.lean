import Verif.Spec.Reactions
import Mathlib.Data.List.Sort

/-
C01 (source-type normalisation) and C02 (reaction name parsing).
-/

set_option autoImplicit false

namespace TNS

open Spec

/-! ### C02 -/

private theorem dash_eq {c : Char} {d : Char} (h1 : d ≠ '_') (h2 : d ≠ '-') :
    (if c = '-' then '_' else c) = d ↔ c = d := by
  split <;> rename_i h
  · subst h; exact ⟨fun h => absurd h.symm h1, fun h => absurd h.symm h2⟩
  · exact Iff.rfl

private theorem dash_us {c : Char} :
    (if c = '-' then '_' else c) = '_' ↔ (c = '_' ∨ c = '-') := by
  split <;> rename_i h <;> simp [h]

private theorem dash_toList (s : String) :
    (dashToUnderscore s).toList = s.toList.map (fun c => if c = '-' then '_' else c) := by
  simp [dashToUnderscore]

private theorem dash3 (s : String) (x y : Char)
    (hx : x ≠ '_') (hx' : x ≠ '-') (hy : y ≠ '_') (hy' : y ≠ '-') :
    dashToUnderscore s = String.ofList [x, '_', y] ↔
      s = String.ofList [x, '_', y] ∨ s = String.ofList [x, '-', y] := by
  rw [← String.toList_inj, dash_toList]
  rw [← String.toList_inj, ← String.toList_inj]
  simp only [String.toList_ofList]
  rcases hs : s.toList with _ | ⟨a, _ | ⟨b, _ | ⟨c, _ | ⟨d, l⟩⟩⟩⟩ <;>
    simp [dash_eq hx hx', dash_eq hy hy', dash_us]
  tauto

private theorem dash5 (s : String) :
    dashToUnderscore s = "D_He3" ↔ s = "D_He3" ∨ s = "D-He3" := by
  rw [← String.toList_inj, dash_toList]
  rw [← String.toList_inj, ← String.toList_inj]
  rcases hs : s.toList with _ | ⟨a, _ | ⟨b, _ | ⟨c, _ | ⟨d, _ | ⟨e, _ | ⟨f, l⟩⟩⟩⟩⟩⟩ <;>
    simp [dash_eq (d := 'D') (by decide) (by decide), dash_eq (d := 'H') (by decide) (by decide),
      dash_eq (d := 'e') (by decide) (by decide), dash_eq (d := '3') (by decide) (by decide),
      dash_us]
  tauto

/-- **C02.** A reaction argument parses to `r` exactly when it denotes `r`: a member denotes itself,
and the only accepted strings are the eight spellings of the table (with `D_D` meaning the
neutronic branch). -/
theorem C02_parse_ok_iff (a : ReactionArg) (r : Reaction) :
    parseReaction a = .ok r ↔ Denotes a r := by
  cases a with
  | member r' => simp [parseReaction, Denotes]
  | other => simp [parseReaction, Denotes]
  | str s =>
    have h1 := dash3 s 'D' 'T' (by decide) (by decide) (by decide) (by decide)
    have h2 := dash3 s 'D' 'D' (by decide) (by decide) (by decide) (by decide)
    have h3 := dash3 s 'T' 'T' (by decide) (by decide) (by decide) (by decide)
    have h4 := dash5 s
    have e1 : String.ofList ['D', '_', 'T'] = "D_T" := rfl
    have e2 : String.ofList ['D', '-', 'T'] = "D-T" := rfl
    have e3 : String.ofList ['D', '_', 'D'] = "D_D" := rfl
    have e4 : String.ofList ['D', '-', 'D'] = "D-D" := rfl
    have e5 : String.ofList ['T', '_', 'T'] = "T_T" := rfl
    have e6 : String.ofList ['T', '-', 'T'] = "T-T" := rfl
    rw [e1, e2] at h1
    rw [e3, e4] at h2
    rw [e5, e6] at h3
    simp only [parseReaction, Denotes, spelling, Neutronic.ofName, Aneutronic.ofName]
    by_cases c1 : dashToUnderscore s = "D_T"
    · rcases h1.mp c1 with rfl | rfl <;> simp [c1] <;> exact eq_comm
    by_cases c2 : dashToUnderscore s = "D_D"
    · rcases h2.mp c2 with rfl | rfl <;> simp [c2] <;> exact eq_comm
    by_cases c3 : dashToUnderscore s = "T_T"
    · rcases h3.mp c3 with rfl | rfl <;> simp [c3] <;> exact eq_comm
    by_cases c4 : dashToUnderscore s = "D_He3"
    · rcases h4.mp c4 with rfl | rfl <;> simp [c4] <;> exact eq_comm
    simp only [c1, c2, c3, c4, if_false]
    have n1 := not_or.mp (mt h1.mpr c1)
    have n2 := not_or.mp (mt h2.mpr c2)
    have n3 := not_or.mp (mt h3.mpr c3)
    have n4 := not_or.mp (mt h4.mpr c4)
    simp [n1, n2, n3, n4]

/-- **C02.** Every argument that denotes no reaction is rejected with `ReactivityError`, and no
other exception is possible. -/
theorem C02_parse_error_iff (a : ReactionArg) (e : Err) :
    parseReaction a = .error e ↔ (e = .reactivityError ∧ ∀ r, ¬ Denotes a r) := by
  have key : ∀ r, Denotes a r ↔ parseReaction a = .ok r := fun r => (C02_parse_ok_iff a r).symm
  simp only [key]
  cases a with
  | member r => simp [parseReaction]
  | other => simp [parseReaction, eq_comm]
  | str s =>
    simp only [parseReaction]
    cases h1 : Neutronic.ofName (dashToUnderscore s) with
    | some r => simp
    | none =>
      cases h2 : Aneutronic.ofName (dashToUnderscore s) with
      | some r => simp
      | none => simp [eq_comm]

example : Denotes (.str "D-He3") .DHe3 := by simp [Denotes, spelling]
example : parseReaction (.str "D-D") = .ok .DDn := (C02_parse_ok_iff _ _).mpr (by simp [Denotes, spelling])
example : parseReaction (.str "D-X") = .error .reactivityError :=
  (C02_parse_error_iff _ _).mpr ⟨rfl, by simp [Denotes, spelling]⟩

/-! ### C01 -/

private theorem mem_uniqueFrom (l seen : List Reaction) (r : Reaction) :
    r ∈ uniqueFrom seen l ↔ r ∈ l ∧ r ∉ seen := by
  induction l generalizing seen with
  | nil => simp [uniqueFrom]
  | cons x xs ih =>
    by_cases hx : x ∈ seen
    · simp only [uniqueFrom, hx, if_true, ih, List.mem_cons]
      constructor
      · rintro ⟨h, h'⟩; exact ⟨Or.inr h, h'⟩
      · rintro ⟨h | h, h'⟩
        · exact absurd (h ▸ hx) h'
        · exact ⟨h, h'⟩
    · simp only [uniqueFrom, hx, if_false, List.mem_cons, ih]
      by_cases hr : r = x
      · subst hr; simp [hx]
      · simp [hr]

private theorem nodup_uniqueFrom (l seen : List Reaction) : (uniqueFrom seen l).Nodup := by
  induction l generalizing seen with
  | nil => simp [uniqueFrom]
  | cons x xs ih =>
    by_cases hx : x ∈ seen
    · simpa [uniqueFrom, hx] using ih seen
    · simp only [uniqueFrom, hx, if_false, List.nodup_cons, ih, and_true]
      simp [mem_uniqueFrom]

private theorem ordering_inj {a b : Reaction} (h : ordering a = ordering b) : a = b := by
  rcases a with (_ | _ | _) | (_ | _) <;> rcases b with (_ | _ | _) | (_ | _) <;>
    first | rfl | (exact absurd h (by decide))

theorem finish_eq_filter (l : List Reaction) :
    finishSourceType l = channelOrder.filter (fun r => r ∈ addProtonBranch l) := by
  have hle : ∀ a b : Reaction, ((decide (ordering a ≤ ordering b)) = true ↔ ordering a ≤ ordering b) :=
    fun a b => decide_eq_true_iff
  have hsorted : (finishSourceType l).Pairwise (fun a b => ordering a ≤ ordering b) := by
    have := List.pairwise_mergeSort (le := fun a b => decide (ordering a ≤ ordering b))
      (by intro a b c; simp; omega) (by intro a b; simp; omega) (uniqueFrom [] (addProtonBranch l))
    exact this.imp (fun h => (hle _ _).mp h)
  have hsorted' : (channelOrder.filter (fun r => r ∈ addProtonBranch l)).Pairwise
      (fun a b => ordering a ≤ ordering b) := by
    apply List.Pairwise.filter
    decide
  have hnd : (finishSourceType l).Nodup :=
    (List.mergeSort_perm _ _).nodup_iff.mpr (nodup_uniqueFrom _ _)
  have hnd' : (channelOrder.filter (fun r => r ∈ addProtonBranch l)).Nodup :=
    List.Nodup.filter _ (by decide)
  have hall : ∀ r : Reaction, r ∈ channelOrder := by
    intro r; rcases r with (_ | _ | _) | (_ | _) <;> decide
  have hperm : (finishSourceType l).Perm (channelOrder.filter (fun r => r ∈ addProtonBranch l)) := by
    rw [List.perm_ext_iff_of_nodup hnd hnd']
    intro r
    rw [finishSourceType, (List.mergeSort_perm _ _).mem_iff, mem_uniqueFrom]
    simp [hall]
  exact hperm.eq_of_pairwise (fun a b _ _ h1 h2 => ordering_inj (le_antisymm h1 h2)) hsorted hsorted'

private theorem mem_addProton (l : List Reaction) (r : Reaction) :
    r ∈ addProtonBranch l ↔ r ∈ l ∨ (r = .DDp ∧ Reaction.DDn ∈ l) := by
  unfold addProtonBranch
  split <;> rename_i h <;> simp [h]

private theorem mapM_ok_iff (l : List ReactionArg) :
    (∃ rs, l.mapM parseReaction = .ok rs) ↔ ∀ a ∈ l, ∃ r, Denotes a r := by
  induction l with
  | nil => exact ⟨fun _ => by simp, fun _ => ⟨[], rfl⟩⟩
  | cons a l ih =>
    simp only [List.mapM_cons, List.forall_mem_cons, ← ih]
    cases h : parseReaction a with
    | error e =>
      have := ((C02_parse_error_iff a e).mp h).2
      constructor
      · rintro ⟨rs, hrs⟩; cases hrs
      · rintro ⟨⟨r, hr⟩, _⟩; exact absurd hr (this r)
    | ok r =>
      have hr := (C02_parse_ok_iff a r).mp h
      cases h2 : l.mapM parseReaction with
      | error e =>
        constructor
        · rintro ⟨rs, hrs⟩; cases hrs
        · rintro ⟨_, ⟨rs, hrs⟩⟩; cases hrs
      | ok rs => exact ⟨fun _ => ⟨⟨r, hr⟩, rs, rfl⟩, fun _ => ⟨r :: rs, rfl⟩⟩

private theorem mem_mapM (l : List ReactionArg) (rs : List Reaction)
    (h : l.mapM parseReaction = .ok rs) (r : Reaction) :
    r ∈ rs ↔ ∃ a ∈ l, Denotes a r := by
  induction l generalizing rs with
  | nil => cases h; simp
  | cons a l ih =>
    rw [List.mapM_cons] at h
    cases h1 : parseReaction a with
    | error e => rw [h1] at h; cases h
    | ok r1 =>
      rw [h1] at h
      cases h2 : l.mapM parseReaction with
      | error e => rw [h2] at h; cases h
      | ok rs2 =>
        rw [h2] at h
        cases h
        have := ih rs2 h2
        have hd : Denotes a r ↔ r = r1 := by
          rw [← C02_parse_ok_iff, h1]; simp [eq_comm]
        simp [this, hd]

private theorem mapM_error (l : List ReactionArg) (e : Err)
    (h : l.mapM parseReaction = .error e) : e = .reactivityError := by
  induction l with
  | nil => cases h
  | cons a l ih =>
    rw [List.mapM_cons] at h
    cases h1 : parseReaction a with
    | error e' =>
      rw [h1] at h; cases h
      exact ((C02_parse_error_iff a _).mp h1).1
    | ok r1 =>
      rw [h1] at h
      cases h2 : l.mapM parseReaction with
      | error e' => rw [h2] at h; cases h; exact ih h2
      | ok rs2 => rw [h2] at h; cases h

/-- **C01.** For every understood argument the parsed source type is the sublist of the documented
channel order (hence duplicate-free and in that order) whose members are exactly the wanted
reactions. -/
theorem C01_source_type (a : SourceArg) (h : Understood a) :
    ∃ l, parseSourceType a = .ok l ∧ l.Sublist channelOrder ∧ l.Nodup ∧ ∀ r, r ∈ l ↔ Wanted a r := by
  have hall : ∀ r : Reaction, r ∈ channelOrder := by
    intro r; rcases r with (_ | _ | _) | (_ | _) <;> decide
  have main : ∀ rs : List Reaction, (∀ r, r ∈ rs ↔ Asked a r) →
      (finishSourceType rs).Sublist channelOrder ∧ (finishSourceType rs).Nodup ∧
        ∀ r, r ∈ finishSourceType rs ↔ Wanted a r := by
    intro rs hrs
    rw [finish_eq_filter]
    refine ⟨List.filter_sublist, List.Nodup.filter _ (by decide), fun r => ?_⟩
    simp [hall, mem_addProton, hrs, Wanted]
  cases a with
  | none =>
    refine ⟨_, rfl, main _ ?_⟩
    intro r; simp [Asked]; tauto
  | str s =>
    obtain ⟨r0, hr0⟩ := h
    have hp := (C02_parse_ok_iff _ _).mpr hr0
    refine ⟨finishSourceType [r0], by simp [parseSourceType, hp, bind, Except.bind], main _ ?_⟩
    intro r
    simp only [List.mem_singleton, Asked]
    rw [← C02_parse_ok_iff, hp]; simp [eq_comm]
  | member r0 =>
    refine ⟨_, rfl, main [r0] ?_⟩
    intro r; simp [Asked, eq_comm]
  | list l =>
    obtain ⟨rs, hrs⟩ := (mapM_ok_iff l).mpr h
    refine ⟨finishSourceType rs, by simp [parseSourceType, hrs, bind, Except.bind], main _ ?_⟩
    intro r; exact mem_mapM l rs hrs r
  | other => exact absurd h id

/-- **C01.** Everything else is rejected with `ReactivityError`. -/
theorem C01_rejects (a : SourceArg) (h : ¬ Understood a) :
    parseSourceType a = .error .reactivityError := by
  cases a with
  | none => exact absurd trivial h
  | str s =>
    have : parseReaction (.str s) = .error .reactivityError :=
      (C02_parse_error_iff _ _).mpr ⟨rfl, fun r hr => h ⟨r, hr⟩⟩
    simp [parseSourceType, this, bind, Except.bind]
  | member r => exact absurd trivial h
  | list l =>
    cases hm : l.mapM parseReaction with
    | ok rs => exact absurd ((mapM_ok_iff l).mp ⟨rs, hm⟩) h
    | error e =>
      have := mapM_error l e hm
      subst this
      simp [parseSourceType, hm, bind, Except.bind]
  | other => rfl

/-- **C01.** Only the set of requested reactions matters: order, repetition and spelling do not. -/
theorem C01_depends_on_set_only (a b : SourceArg) (ha : Understood a) (hb : Understood b)
    (h : ∀ r, Asked a r ↔ Asked b r) : parseSourceType a = parseSourceType b := by
  obtain ⟨la, ea, sa, na, ma⟩ := C01_source_type a ha
  obtain ⟨lb, eb, sb, nb, mb⟩ := C01_source_type b hb
  have hmem : ∀ r, r ∈ la ↔ r ∈ lb := by
    intro r; rw [ma, mb]; simp only [Wanted, h]
  rw [ea, eb]
  congr 1
  have hp : la.Perm lb := (List.perm_ext_iff_of_nodup na nb).mpr hmem
  have hs : channelOrder.Pairwise (fun a b => ordering a ≤ ordering b) := by decide
  exact hp.eq_of_pairwise (fun a b _ _ h1 h2 => ordering_inj (le_antisymm h1 h2))
    (hs.sublist sa) (hs.sublist sb)

/-- **C01.** Re-submitting a parsed source type gives it back. -/
theorem C01_idempotent (a : SourceArg) (l : List Reaction) (h : parseSourceType a = .ok l) :
    parseSourceType (.list (l.map .member)) = .ok l := by
  have hu : Understood a := by
    by_contra hn
    rw [C01_rejects a hn] at h; cases h
  obtain ⟨l', e', s', n', m'⟩ := C01_source_type a hu
  rw [h] at e'
  cases e'
  have hu2 : Understood (.list (l.map .member)) := by
    intro x hx
    obtain ⟨r, _, rfl⟩ := List.mem_map.mp hx
    exact ⟨r, rfl⟩
  obtain ⟨l2, e2, s2, n2, m2⟩ := C01_source_type _ hu2
  rw [e2]
  congr 1
  have hask : ∀ r, Asked (.list (l.map .member)) r ↔ r ∈ l := by
    intro r
    simp only [Asked, List.mem_map]
    constructor
    · rintro ⟨x, ⟨r', hr', rfl⟩, hd⟩
      have : r' = r := hd
      exact this ▸ hr'
    · intro hr; exact ⟨_, ⟨r, hr, rfl⟩, rfl⟩
  have hmem : ∀ r, r ∈ l2 ↔ r ∈ l := by
    intro r
    rw [m2]
    simp only [Wanted, hask]
    constructor
    · rintro (hr | ⟨rfl, hr⟩)
      · exact hr
      · rw [m'] at hr ⊢
        rcases hr with hr | ⟨hr, _⟩
        · exact Or.inr ⟨rfl, hr⟩
        · cases hr
    · exact Or.inl
  have hp : l2.Perm l := (List.perm_ext_iff_of_nodup n2 n').mpr hmem
  have hs : channelOrder.Pairwise (fun a b => ordering a ≤ ordering b) := by decide
  exact hp.eq_of_pairwise (fun a b _ _ h1 h2 => ordering_inj (le_antisymm h1 h2))
    (hs.sublist s2) (hs.sublist s')

/-- **C01.** The default is D-T, both D-D branches and T-T. -/
theorem C01_default : parseSourceType .none = .ok [.DT, .DDn, .DDp, .TT] := by
  rw [parseSourceType, finish_eq_filter]; decide

example : Understood (.list [.str "T-T", .member .DDn, .str "T_T"]) := by
  simp [Understood, Denotes, spelling]
example : parseSourceType (.list [.str "T-T", .member .DDn, .str "T_T"]) =
    parseSourceType (.list [.str "D_D", .member .TT]) :=
  C01_depends_on_set_only _ _ (by simp [Understood, Denotes, spelling])
    (by simp [Understood, Denotes, spelling])
    (by intro r; simp [Asked, Denotes, spelling, eq_comm]; tauto)

end TNS
