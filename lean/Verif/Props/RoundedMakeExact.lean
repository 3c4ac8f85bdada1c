import Verif.Props.RoundedMake
/-
C93: without rounding the constructor of `Verif.Model.RoundedMake` is that of `Verif.Model.Source`; and a concrete
source in binary64 that meets the hypotheses of C93.
-/

set_option autoImplicit false

namespace TNS
open Spec
noncomputable section

theorem pyModR_exact (a b : ℝ) (hb : 0 < b) : pyModR exactArith a b = pyMod a b := by
  have key : ∀ x, exactArith.rd x = x := fun _ => rfl
  unfold pyModR pyMod fmod
  simp only [key]
  by_cases h : 0 ≤ a / b
  · simp only [if_pos h]
    have hm : 0 ≤ a - b * (⌊a / b⌋ : ℝ) := by
      have := Int.floor_le (a / b)
      rw [le_div_iff₀ hb] at this
      linarith
    rw [if_neg]
    rintro ⟨-, h2⟩
    exact h2 ⟨fun h => absurd h (not_lt.2 hb.le), fun h => absurd h (not_lt.2 hm)⟩
  · simp only [if_neg h]
    have hm : a - b * (⌈a / b⌉ : ℝ) ≤ 0 := by
      have := Int.le_ceil (a / b)
      rw [div_le_iff₀ hb] at this
      linarith
    split_ifs with h2
    · have hne := h2.1
      have : (⌈a / b⌉ : ℝ) = ⌊a / b⌋ + 1 := by
        have h1 := Int.ceil_le_floor_add_one (a / b)
        have h3 : ⌊a / b⌋ < ⌈a / b⌉ := by
          rw [Int.lt_ceil]
          refine lt_of_le_of_ne (Int.floor_le _) fun e => hne ?_
          have e1 : ⌈a / b⌉ = ⌊a / b⌋ := by
            rw [← e]; simp
          rw [e1, e]
          field_simp
          ring
        have : ⌈a / b⌉ = ⌊a / b⌋ + 1 := by omega
        exact_mod_cast this
      rw [this]; ring
    · have h0 : a - b * (⌈a / b⌉ : ℝ) = 0 := by
        by_contra hne
        refine h2 ⟨hne, fun hi => ?_⟩
        exact absurd (hi.2 (lt_of_le_of_ne hm hne)) (not_lt.2 hb.le)
      have e : a / b = (⌈a / b⌉ : ℝ) := by
        rw [div_eq_iff hb.ne']; linarith
      have e1 : ⌊a / b⌋ = ⌈a / b⌉ := by
        conv_lhs => rw [e]
        exact Int.floor_intCast _
      rw [e1]

theorem arangeR_exact (a b s : ℝ) : arangeR exactArith a b s = arange a b s := by
  have key : ∀ x, exactArith.rd x = x := fun _ => rfl
  unfold arangeR arange
  simp only [key]
  refine List.map_congr_left fun i _ => ?_
  split_ifs with h1 h2
  · subst h1; simp
  · subst h2; simp
  · ring

theorem gridAxisR_exact (c : List ℝ) (o L : ℝ) (hL : 0 < L) : gridAxisR exactArith c o L = gridAxis c o L := by
  have key : ∀ x, exactArith.rd x = x := fun _ => rfl
  unfold gridAxisR gridAxis
  simp only [key, arangeR_exact, pyModR_exact _ _ hL]

theorem containsPointR_exact (pts : List (ℝ × ℝ)) : containsPointR exactArith pts = containsPoint pts := by
  have key : ∀ x, exactArith.rd x = x := fun _ => rfl
  funext p
  have : ∀ a b, crossesR exactArith p a b = crosses p a b := by
    intro a b
    unfold crossesR crosses
    simp only [key]
  unfold containsPointR containsPoint
  simp only [this]

theorem sampleSpace2dR_exact (pts : List (ℝ × ℝ)) (oX oZ L : ℝ) (hL : 0 < L) :
    sampleSpace2dR exactArith Real.pi pts oX oZ L =
      sampleSpace2d Real.pi (pts.map Prod.fst) (pts.map Prod.snd) (containsPoint pts) oX oZ L := by
  unfold sampleSpace2dR sampleSpace2d samplePointsR samplePoints meshPoints
  simp only [gridAxisR_exact _ _ _ hL, containsPointR_exact]
  rfl

theorem strengthR_exact (d t h y vol : List ℝ) (r : Reaction) :
    strengthR exactArith d t h y vol r =
      List.zipWith (· * ·) (List.zipWith (· * ·) (pairDensity r d t h) y) vol := by
  have key : ∀ x, exactArith.rd x = x := fun _ => rfl
  rcases r with (_ | _ | _) | (_ | _) <;> simp only [strengthR, pairDensityR, pairDensity, key]

theorem addReaction_exact (sv : Reaction → List ℝ → Except Err (List ℝ)) (d t h : List ℝ) (y : Reaction → List ℝ)
    (s : Source ℝ) (r : Reaction) (hr : sv r s.temperature = .ok (y r)) :
    Source.addReaction sv d t h s r = .ok (Source.addReactionR exactArith d t h y s r) := by
  unfold Source.addReaction Source.addReactionR densityWeightedReactivity
  rw [strengthR_exact, hr]
  rfl

theorem foldlM_exact (sv : Reaction → List ℝ → Except Err (List ℝ)) (d t h : List ℝ) (y : Reaction → List ℝ)
    (l : List Reaction) (s : Source ℝ) (hl : ∀ r ∈ l, sv r s.temperature = .ok (y r)) :
    l.foldlM (Source.addReaction sv d t h) s = .ok (l.foldl (Source.addReactionR exactArith d t h y) s) := by
  induction l generalizing s with
  | nil => rfl
  | cons a l ih =>
    rw [List.foldlM_cons, addReaction_exact sv d t h y s a (hl a (by simp))]
    exact ih _ fun r hr => hl r (by simp [hr])

theorem foldlM_error (sv : Reaction → List ℝ → Except Err (List ℝ)) (d t h : List ℝ)
    (l : List Reaction) (s : Source ℝ) (e : Err) (he : l.mapM (fun r => sv r s.temperature) = .error e) :
    l.foldlM (Source.addReaction sv d t h) s = .error e := by
  induction l generalizing s with
  | nil => cases he
  | cons a l ih =>
    rw [List.foldlM_cons]
    rw [List.mapM_cons] at he
    cases ha : sv a s.temperature with
    | error x =>
      rw [ha] at he
      simp only [Bind.bind, Except.bind] at he
      cases he
      simp only [Source.addReaction, densityWeightedReactivity, ha, Bind.bind, Except.bind]
    | ok w =>
      rw [addReaction_exact sv d t h (fun _ => w) s a ha]
      rw [ha] at he
      refine ih _ ?_
      simp only [Bind.bind, Except.bind] at he
      cases hl : l.mapM (fun r => sv r s.temperature) with
      | error x =>
        rw [hl] at he
        cases he
        exact hl
      | ok ys => rw [hl] at he; cases he

theorem reactivityR_exact (u : SI) (m : Masses ℝ) (method : ReactivityMethod) (r : Reaction) (ts : List ℝ) :
    reactivityR exactArith exactLib (fun r ts => (r.crossSection u m).reactivity u ts) method r ts =
      reactivity u m method r ts := by
  unfold reactivityR reactivity
  cases method
  · rfl
  · simp only [C90_exact]
    cases r.boschHale <;> rfl
  · simp only [C90_exact]
    cases r.boschHale <;> rfl

/-- C93.  With exact arithmetic this constructor is the one of the exact model. -/
theorem C93_exact (u : SI) (m : Masses ℝ) (Q : Reaction → ℝ) (pts : List (ℝ × ℝ)) (oX oZ : ℝ) (psi : ℝ → ℝ → ℝ)
    (tr : TransportView ℝ) (arg : SourceArg) (L : ℝ) (hL : 0 < L) (power : Option ℝ) (method : ReactivityMethod) :
    Source.makeR exactArith exactLib (fun r ts => (r.crossSection u m).reactivity u ts) Real.pi Q pts oX oZ psi tr
        arg L power method =
      Source.init Real.pi Q (reactivity u m method) tr
        { lcfsX := pts.map Prod.fst, lcfsZ := pts.map Prod.snd, inside := containsPoint pts, oX := oX, oZ := oZ,
          psiNorm := psi } arg L power := by
  unfold Source.makeR Source.init
  rw [sampleSpace2dR_exact _ _ _ _ hL]
  simp only [reactivityR_exact]
  cases h0 : parseSourceType arg with
  | error e => rfl
  | ok st =>
  simp only [Bind.bind, Except.bind]
  generalize sampleSpace2d Real.pi (pts.map Prod.fst) (pts.map Prod.snd) (containsPoint pts) oX oZ L = smp
  cases (List.zipWith psi smp.x smp.z).mapM tr.temperature with
  | error e => rfl
  | ok temp =>
  simp only
  cases (List.zipWith psi smp.x smp.z).mapM tr.deuterium with
  | error e => rfl
  | ok d =>
  simp only
  cases (List.zipWith psi smp.x smp.z).mapM tr.tritium with
  | error e => rfl
  | ok t =>
  simp only
  cases (List.zipWith psi smp.x smp.z).mapM tr.helium3 with
  | error e => rfl
  | ok h =>
  simp only
  cases h5 : st.mapM (fun r => reactivity u m method r temp) with
  | error e =>
    rw [foldlM_error (reactivity u m method) d t h st _ e h5]
  | ok ys =>
    have hn := parse_nodup h0
    let f : Reaction → List ℝ := fun r => match reactivity u m method r temp with
      | .ok y => y
      | .error _ => []
    have h7 : List.Forall₂ (fun r y => f r = y) st ys :=
      ((mapM_ok_iff _ _ _).1 h5).imp fun r y hy => by simp only [f, hy]
    have h8 := zip_map_getD f st ys [] hn h7
    rw [foldlM_exact (reactivity u m method) d t h (fun r => Dict.getD (st.zip ys) r []) st]
    · simp only
      cases power with
      | none => rfl
      | some P => exact (C74_exact Q P _).2.2
    · intro r hr
      simp only [h8, if_pos hr]
      obtain ⟨i, hi, rfl⟩ := List.mem_iff_getElem.1 hr
      have hl := mapM_length h5
      have := mapM_get h5 i hi (by omega)
      simp only [f, this]


namespace Ex

theorem rect_resolved : Resolved binary64 ((2 : ℝ) ^ (-53 : ℤ)) rectangle 2 0 (3 / 10) 3 := by
  refine ⟨C74_binary64.u_nonneg, by norm_num, C74_binary64.rel, ⟨by simp [rectangle], by simp [rectangle]⟩,
    by simp [rectangle], ?_, ?_, by norm_num, by norm_num [gridTol]⟩
  · simp [rectangle]
  · norm_num [containsPoint, pathEdges, rectangle, crosses]

theorem rect_tol : gridTol ((2 : ℝ) ^ (-53 : ℤ)) 3 (3 / 10) ≤ 1 / 10 ^ 12 := by norm_num [gridTol]

theorem rect_far (q : ℝ × ℝ) (hq : Lattice 2 0 (3 / 10) q) :
    ¬ NearLine rectangle (2 * gridTol ((2 : ℝ) ^ (-53 : ℤ)) 3 (3 / 10)) q := by
  have htol := rect_tol
  obtain ⟨a, b, ha, hb⟩ := hq
  rintro ⟨r, ⟨i, hi, t, t0, t1, r1, r2⟩, c1, c2⟩
  have c1 := abs_le.1 (c1.trans (by linarith : _ ≤ (1 / 100 : ℝ)))
  have c2 := abs_le.1 (c2.trans (by linarith : _ ≤ (1 / 100 : ℝ)))
  have far : ∀ (k : ℤ) (w : ℤ), 10 * w - 3 * k ≠ 0 → ¬ (-(1 / 100 : ℝ) ≤ w - 3 / 10 * k ∧ (w : ℝ) - 3 / 10 * k ≤ 1 / 100) := by
    intro k w hk ⟨h1, h2⟩
    have h3 : |((10 * w - 3 * k : ℤ) : ℝ)| < 1 := by
      rw [abs_lt]; push_cast; constructor <;> linarith
    have h4 : |10 * w - 3 * k| < 1 := by exact_mod_cast h3
    exact hk (Int.abs_lt_one_iff.1 h4)
  simp only [rectangle, List.length_cons, List.length_nil] at hi
  have : i = 0 ∨ i = 1 ∨ i = 2 ∨ i = 3 := by omega
  rcases this with rfl | rfl | rfl | rfl <;> simp [rectangle] at r1 r2
  · refine far b (-1) (by omega) ?_
    push_cast
    constructor <;> linarith [c2.1, c2.2]
  · refine far a 1 (by omega) ?_
    push_cast
    constructor <;> linarith [c1.1, c1.2]
  · refine far b 1 (by omega) ?_
    push_cast
    constructor <;> linarith [c2.1, c2.2]
  · refine far a (-1) (by omega) ?_
    push_cast
    constructor <;> linarith [c1.1, c1.2]

theorem rect_cells : List.Forall₂ (CloseTo (1 / 10 ^ 12)) (samplePointsR binary64 rectangle 2 0 (3 / 10))
    (samplePoints (rectangle.map Prod.fst) (rectangle.map Prod.snd) (containsPoint rectangle) 2 0 (3 / 10)) :=
  (C79_same_cells _ _ _ _ _ _ _ rect_resolved rect_far).imp fun p q h => ⟨h.1.trans rect_tol, h.2.trans rect_tol⟩

theorem rect_radius (p : ℝ × ℝ) (hp : p ∈ samplePointsR binary64 rectangle 2 0 (3 / 10)) : 1 / 2 ≤ p.1 := by
  obtain ⟨i, hi, rfl⟩ := List.mem_iff_getElem.1 hp
  have h := List.forall₂_iff_get.1 rect_cells
  have hi' := h.1 ▸ hi
  have hc := (h.2 i hi hi').1
  simp only [List.get_eq_getElem] at hc
  have hm := List.getElem_mem hi'
  have hb := C65_within_box rectangle _ (List.mem_filter.1 hm).2
  obtain ⟨a, ha, h1⟩ := hb.1
  have ha : 1 ≤ a := by
    simp only [rectangle, List.map_cons, List.map_nil, List.mem_cons, List.not_mem_nil, or_false] at ha
    rcases ha with rfl | rfl | rfl | rfl | rfl <;> norm_num
  have := (abs_le.1 hc).1
  linarith

theorem axis_count (c : List ℝ) (o L : ℝ) (hL : 0 < L) (n : ℕ) (hn : (npMax c - npMin c) / L + 9 / 2 ≤ n) :
    (gridAxis c o L).length ≤ n := by
  have h0 : 0 ≤ pyMod (o - (npMin c - 2 * L)) L := by
    unfold pyMod
    have := Int.floor_le ((o - (npMin c - 2 * L)) / L)
    rw [le_div_iff₀ hL] at this
    linarith
  simp only [gridAxis, arange, List.length_map, List.length_range]
  rw [Int.toNat_le, Int.ceil_le, div_le_iff₀ hL]
  push_cast
  rw [div_add' _ _ _ hL.ne', div_le_iff₀ hL] at hn
  linarith

theorem rect_count : (samplePointsR binary64 rectangle 2 0 (3 / 10)).length ≤ 400 := by
  rw [rect_cells.length_eq]
  unfold samplePoints
  refine (List.length_filter_le _ _).trans ?_
  have e : ∀ xs zs : List ℝ, (meshPoints xs zs).length = xs.length * zs.length := by
    intro xs zs
    simp [meshPoints, List.length_flatMap]
  rw [e]
  have a1 := axis_count (rectangle.map Prod.fst) 2 (3 / 10) (by norm_num) 20 (by simp [rectangle, npMin, npMax]; norm_num)
  have a2 := axis_count (rectangle.map Prod.snd) 0 (3 / 10) (by norm_num) 20 (by simp [rectangle, npMin, npMax]; norm_num)
  exact Nat.mul_le_mul a1 a2

/-- A plasma at 10 keV, half deuterium and half tritium. -/
def flat : TransportView ℝ :=
  { temperature := fun _ => .ok 10
    deuterium := fun _ => .ok 1e20
    tritium := fun _ => .ok 1e20
    helium3 := fun _ => .ok 0 }

theorem flat_ok (psi : ℝ → ℝ → ℝ) : PlasmaOK flat psi (samplePointsR binary64 rectangle 2 0 (3 / 10)) := by
  intro p hp
  refine ⟨by have := rect_radius p hp; linarith, ?_, ?_, ?_⟩
  · intro sp
    cases sp <;> simp [density, valueAt, flat] <;> norm_num
  · simp [valueAt, flat]; norm_num
  · simp [valueAt, flat]; norm_num

/-- The hypotheses of C93 are met: a 500 MW D-T source in binary64 with correctly rounded library functions. -/
theorem rect_source (psi : ℝ → ℝ → ℝ) (xs : Reaction → List ℝ → Except Err (List ℝ)) :
    ∃ s, Source.makeR binary64 roundedLib xs (round53 Real.pi) (fun _ => 2.8e-12) rectangle 2 0 psi flat
        (.list [.member .DT]) (3 / 10) (some 5e8) .AUTO = .ok s ∧
      (∀ r ∈ s.sourceType, hasBoschHale r = true) ∧ PlasmaOK flat psi (centres s) ∧
      cells s + s.sourceType.length ≤ 1000000 ∧ centres s ≠ [] := by
  have hst : parseSourceType (.list [.member .DT]) = .ok [.DT] := by
    have e : finishSourceType [Reaction.DT] = [Reaction.DT] := by rw [finish_eq_filter]; decide
    change Except.ok (finishSourceType [Reaction.DT]) = _
    rw [e]
  have hpi : |round53 Real.pi - Real.pi| ≤ (2 : ℝ) ^ (-53 : ℤ) * Real.pi := by
    have := C74_binary64.rel Real.pi
    rwa [abs_of_pos Real.pi_pos] at this
  have h53 : (2 : ℝ) ^ (-53 : ℤ) ≤ 1.2 / 10 ^ 16 := by
    rw [zpow_neg, show ((2 : ℝ) ^ (53 : ℤ)) = 2 ^ 53 by norm_cast]; norm_num
  have hp : (0 : ℝ) < (2 : ℝ) ^ (-53 : ℤ) := by positivity
  have hne : samplePointsR binary64 rectangle 2 0 (3 / 10) ≠ [] := by
    obtain ⟨p, hp, -⟩ := C79_o_point _ _ _ _ _ _ _ rect_resolved (rect_far _ ⟨0, 0, by simp, by simp⟩)
    exact List.ne_nil_of_mem hp
  have hpow : 0 < cellsPower publishedReactivity (fun _ => 2.8e-12) flat psi (3 / 10)
      (samplePointsR binary64 rectangle 2 0 (3 / 10)) [.DT] := by
    simp only [cellsPower, List.map_cons, List.map_nil, List.sum_cons, List.sum_nil, add_zero, channelRate]
    refine mul_pos (List.sum_pos _ ?_ (by simpa using hne)) (by norm_num)
    intro x hx
    obtain ⟨p, hp, rfl⟩ := List.mem_map.1 hx
    have h1 := rect_radius p hp
    have h2 := published_pos (r := .DT) rfl 10 (by norm_num) (by norm_num)
    have := Real.pi_pos
    simp only [cellRate, rateDensity, reactants, Reaction.DT, density, valueAt, flat] at h2 ⊢
    have : 0 < p.1 := by linarith
    simp
    positivity
  obtain ⟨s, hs⟩ := C93_succeeds C74_binary64 hpi (Q := fun _ => 2.8e-12) (fun _ => by norm_num) (e := 1000 * (4 * (2 : ℝ) ^ (-53 : ℤ)))
    (by positivity) (by linarith) hst
    (fun r hr => boschHale_accurate (xs := xs) (method := .AUTO) C74_binary64 accurate_libs.2 (by linarith) (by linarith) (by simp)
      (by simp at hr; rw [hr]; rfl))
    (flat_ok psi) (by
      intro p _ f hf
      simp only [flat, List.mem_cons, List.not_mem_nil, or_false] at hf
      rcases hf with rfl | rfl | rfl | rfl <;> exact ⟨_, rfl⟩) hne (some 5e8) hpow
  obtain ⟨c1, c2⟩ := C93_cells hs
  rw [hst] at c1
  obtain ⟨st, temp, d, t, h, sv, hm, H⟩ := makeR_ok_iff.1 hs
  obtain ⟨f1, f2, f3⟩ := unscaled_fields binary64 (round53 Real.pi) rectangle 2 0 (3 / 10) st temp d t h sv (parse_nodup hm.parse)
  obtain ⟨g1, g2, g3⟩ := normaliseR_fields H
  have c1 := (Except.ok.inj c1).symm
  refine ⟨s, hs, ?_, ?_, ?_, ?_⟩
  · rw [c1]; simp [hasBoschHale, Reaction.DT]
  · rw [c2]; exact flat_ok psi
  · rw [c1, g3, f3]
    have := rect_count
    simp only [List.length_cons, List.length_nil]
    omega
  · rw [c2]; exact hne

end Ex
end
end TNS
