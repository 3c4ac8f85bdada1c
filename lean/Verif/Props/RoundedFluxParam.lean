import Verif.Props.RoundedFluxMap
import Verif.Lemmas.MapM
/-
C101: the map of a parameterised plasma in floating point; the exact model as a special case; numbers for binary64.
-/

set_option autoImplicit false

namespace TNS
open Spec
noncomputable section

theorem mapM_pair {α β : Type} {f g : α → Except Err β} {R : β → β → Prop} {l : List α} {ys zs : List β}
    (hf : l.mapM f = .ok ys) (hg : l.mapM g = .ok zs)
    (h : ∀ a ∈ l, ∀ b c, f a = .ok b → g a = .ok c → R b c) : List.Forall₂ R ys zs := by
  rw [mapM_ok_iff] at hf hg
  induction l generalizing ys zs with
  | nil => cases hf; cases hg; exact .nil
  | cons a l ih =>
    cases hf with | cons f1 f2 =>
    cases hg with | cons g1 g2 =>
    exact .cons (h a List.mem_cons_self _ _ f1 g1) (ih f2 g2 (fun x hx => h x (List.mem_cons_of_mem _ hx)))

theorem forall₂_flatten {β : Type} {R : β → β → Prop} {ys zs : List (List β)} (h : List.Forall₂ (List.Forall₂ R) ys zs) :
    List.Forall₂ R ys.flatten zs.flatten := by
  induction h with
  | nil => exact .nil
  | cons h1 _ ih => rw [List.flatten_cons, List.flatten_cons]; exact List.rel_append h1 ih

section
variable {A : Arith} {F : MathLib} {G : TrigLib} {u v pi : ℝ}

/-- A computed surface exists, has the right number of points, and they are close. -/
theorem surface_computed (hA : StandardModel A u) (hG : AccurateTrig G v) (huv : u ≤ v) (hv : v ≤ 1 / 10 ^ 5)
    (hpi : |pi - Real.pi| ≤ u * Real.pi) {r0 z0 aspect kappa delta shift sq : ℝ} {l : LCFSInfo ℝ}
    (hl : LCFSInfo.make r0 z0 aspect kappa delta shift sq = .ok l) (p : Parameterisation) {n : ℕ} (hn : 2 ≤ n)
    (hE : 50 * v * extent l 1 ≤ 1 / 10 ^ 12) (psi : ℝ) (h : |psi| ≤ 1) :
    ∃ pts pts', fluxSurface p l psi n = .ok pts ∧
      fluxSurfaceR A G pi p { l with minor := A.rd (r0 / aspect) } psi n = .ok pts' ∧
      List.Forall₂ (CloseTo (110 * v * extent l 1)) pts' pts := by
  have v0 := hA.u_nonneg.trans huv
  obtain ⟨h1, h2, h3, h4, h5⟩ := (C39_accepted r0 z0 aspect kappa delta shift sq).1 ⟨l, hl⟩
  obtain ⟨⟨e1, e2, e3, e4, e5, e6, e7⟩, em, -, -, hs, -⟩ := C39_stored r0 z0 aspect kappa delta shift sq l hl
  have r1 : 0 < l.r0 := by rw [e1]; exact h1
  have r2 : 1 < l.aspect := by rw [e3]; exact h2
  have r3 : 1 ≤ l.kappa := by rw [e4]; exact h3
  have mono := extent_mono r1 r2 r3 hs h
  have E0 : 0 ≤ extent l psi :=
    le_trans (by positivity) (extent_bounds r1 r2 r3 hs psi).1
  have k50 : 50 * v * extent l psi ≤ 50 * v * extent l 1 := mul_le_mul_of_nonneg_left mono (by positivity)
  have k18 : 18 * v * extent l psi ≤ 50 * v * extent l psi := mul_le_mul_of_nonneg_right (by linarith) E0
  obtain ⟨pts, hp, hc⟩ := C101_points hA hG huv hv hpi hl p psi hn
  obtain ⟨pts', hp'⟩ : ∃ pts', fluxSurfaceR A G pi p { l with minor := A.rd (r0 / aspect) } psi n = .ok pts' := by
    cases p with
    | fausser =>
      obtain ⟨q, hq, -⟩ := C101_closes_fausser hA hG huv hv hpi hl psi hn (by linarith)
      exact ⟨q, hq⟩
    | sauter =>
      obtain ⟨q, hq, -⟩ := C101_closes_sauter hA hG huv hv hpi hl psi hn (by linarith)
      exact ⟨q, hq⟩
  refine ⟨pts, pts', hp, hp', (hc pts' hp').imp fun a b h => ?_⟩
  have : 110 * v * extent l psi ≤ 110 * v * extent l 1 := mul_le_mul_of_nonneg_left mono (by positivity)
  exact ⟨h.1.trans this, h.2.trans this⟩

/-- C101.  The map of a parameterised plasma: for every accepted parameter set whose plasma is not too large (45 m in double
precision), flux labels up to 1 of which one is positive, and at least two points per surface, the map is computed; its last
closed flux surface and all its points are right to `110 v` times the size of the plasma, its magnetic axis to one rounding, and
its labels to `5 v`. -/
theorem C101_map (hA : StandardModel A u) (hF : AccurateLib F v) (hG : AccurateTrig G v) (huv : u ≤ v) (hv : v ≤ 1 / 10 ^ 5)
    (hpi : |pi - Real.pi| ≤ u * Real.pi) {r0 z0 aspect kappa delta shift sq : ℝ} {l l' : LCFSInfo ℝ}
    (hl : LCFSInfo.make r0 z0 aspect kappa delta shift sq = .ok l)
    (hl' : LCFSInfo.makeR A r0 z0 aspect kappa delta shift sq = .ok l') (p : Parameterisation) {n : ℕ} (hn : 2 ≤ n)
    (rho : List ℝ) (hpos : ∃ r ∈ rho, 0 < r) (h1 : ∀ r ∈ rho, r ≤ 1) (hE : 50 * v * extent l 1 ≤ 1 / 10 ^ 12)
    (conv : FluxConvention) :
    ∃ m m', fromParameterisation p l rho n conv = .ok m ∧ fromParameterisationR A F G pi p l' rho n conv = .ok m' ∧
      List.Forall₂ (CloseTo (110 * v * extent l 1)) m'.lcfs m.lcfs ∧
      |m'.oPoint.x - m.oPoint.x| ≤ u * m.oPoint.x ∧ m'.oPoint.z = m.oPoint.z ∧
      List.Forall₂ (CloseTo (110 * v * extent l 1)) m'.pts m.pts ∧
      List.Forall₂ (LabelClose v conv) m'.labels m.labels := by
  have v0 := hA.u_nonneg.trans huv
  have el := made_both hl hl'
  obtain ⟨g1, g2, g3, g4, g5⟩ := (C39_accepted r0 z0 aspect kappa delta shift sq).1 ⟨l, hl⟩
  obtain ⟨⟨e1, e2, e3, e4, e5, e6, e7⟩, em, -, -, hs, -⟩ := C39_stored r0 z0 aspect kappa delta shift sq l hl
  have r1 : 0 < l.r0 := by rw [e1]; exact g1
  have S := surface_computed hA hG huv hv hpi hl p hn hE
  rw [← el] at S
  obtain ⟨lc, lc', q1, q2, q3⟩ := S 1 (by norm_num)
  set rs := rho.filter (fun r => decide (r > 0)) with hrs
  have hr : ∀ r ∈ rs, 0 < r ∧ r ≤ 1 := by
    intro r h
    obtain ⟨a, b⟩ := List.mem_filter.1 h
    exact ⟨by simpa using b, h1 r a⟩
  have hne : rs ≠ [] := by
    obtain ⟨r, h, h0⟩ := hpos
    exact List.ne_nil_of_mem (List.mem_filter.2 ⟨h, by simpa using h0⟩)
  have ab : ∀ r ∈ rs, |r| ≤ 1 := fun r h => by rw [abs_of_pos (hr r h).1]; exact (hr r h).2
  obtain ⟨ys, hy⟩ := mapM_exists_ok (fun r => fluxSurface p l r n) rs fun r h => by
    obtain ⟨a, b, c, d, e⟩ := S r (ab r h); exact ⟨a, c⟩
  obtain ⟨ys', hy'⟩ := mapM_exists_ok (fun r => fluxSurfaceR A G pi p l' r n) rs fun r h => by
    obtain ⟨a, b, c, d, e⟩ := S r (ab r h); exact ⟨b, d⟩
  have n1 : ys ≠ [] := fun e => hne (by have := mapM_length hy; rw [e] at this; exact List.length_eq_zero_iff.1 this.symm)
  have n2 : ys' ≠ [] := fun e => hne (by have := mapM_length hy'; rw [e] at this; exact List.length_eq_zero_iff.1 this.symm)
  have cl := forall₂_flatten (mapM_pair hy' hy (R := List.Forall₂ (CloseTo (110 * v * extent l 1))) fun r h b c hb hc => by
    obtain ⟨a, a', x, y, z⟩ := S r (ab r h)
    rw [← Except.ok.inj (x.symm.trans hc), ← Except.ok.inj (y.symm.trans hb)]
    exact z)
  have ox : |A.rd (l.r0 + l.shift) - (l.r0 + l.shift)| ≤ u * (l.r0 + l.shift) := by
    have := hA.rel (l.r0 + l.shift)
    rwa [abs_of_pos (show 0 < l.r0 + l.shift by linarith)] at this
  have hx : (paramOPointR A l').x = A.rd (l.r0 + l.shift) := by rw [el]; rfl
  have hz : (paramOPointR A l').z = l.z0 := by rw [el]; rfl
  refine ⟨⟨lc, paramOPoint l, ((paramOPoint l).x, (paramOPoint l).z) :: ys.flatten,
      (1 :: rs.flatMap (fun r => List.replicate n (1 - r))).map (fun q => normalisePsi q 1 0 conv)⟩,
    ⟨lc', paramOPointR A l', ((paramOPointR A l').x, (paramOPointR A l').z) :: ys'.flatten,
      (1 :: rs.flatMap (fun r => List.replicate n (A.rd (1 - r)))).map (fun q => normalisePsiR A F q 1 0 conv)⟩,
    ?_, ?_, q3, ?_, ?_, ?_, ?_⟩
  · unfold fromParameterisation
    simp only [q1, ← hrs, hy, Bind.bind, Except.bind]
    rw [if_neg n1]
  · unfold fromParameterisationR
    simp only [q2, ← hrs, hy', Bind.bind, Except.bind]
    rw [if_neg n2]
  · simp only [hx]; exact ox
  · simp only [hz]; rfl
  · refine .cons ⟨?_, ?_⟩ cl
    · simp only [hx]
      refine ox.trans ?_
      have b := (extent_bounds r1 (by rw [e3]; exact g2) (by rw [e4]; exact g3) hs 1).1
      have m1 : l.r0 + l.shift ≤ extent l 1 := by
        have := abs_nonneg (1 * (l.r0 / l.aspect))
        rw [abs_of_pos r1, abs_of_nonneg hs] at b
        linarith
      have m2 : u * (l.r0 + l.shift) ≤ v * extent l 1 := mul_le_mul huv m1 (by linarith) v0
      have m3 : 0 ≤ v * extent l 1 := mul_nonneg v0 (le_trans (by linarith) m1)
      linarith
    · simp only [hz]
      rw [show l.z0 - (paramOPoint l).z = 0 by simp [paramOPoint], abs_zero]
      have : 0 ≤ extent l 1 := le_trans (by positivity) (extent_bounds r1 (by rw [e3]; exact g2) (by rw [e4]; exact g3) hs 1).1
      positivity
  · simp only
    rw [show rs.flatMap (fun r => List.replicate n (1 - r)) = (rs.flatMap (fun r => List.replicate n r)).map (fun r => 1 - r) by
        simp [List.map_flatMap, List.map_replicate],
      show rs.flatMap (fun r => List.replicate n (A.rd (1 - r))) =
        (rs.flatMap (fun r => List.replicate n r)).map (fun r => A.rd (1 - r)) by
        simp [List.map_flatMap, List.map_replicate],
      List.map_cons, List.map_cons, List.map_map, List.map_map]
    refine .cons ?_ ?_
    · have := label_err (A := A) (F := F) hA hF huv hv (r := 0) le_rfl zero_le_one (q := 1) (by simpa using v0) (fun _ => rfl) conv
      rwa [sub_zero] at this
    · rw [List.forall₂_map_left_iff, List.forall₂_map_right_iff, List.forall₂_same]
      intro r hmem
      obtain ⟨r', hr', hm⟩ := List.mem_flatMap.1 hmem
      obtain rfl := List.eq_of_mem_replicate hm
      obtain ⟨p0, p1⟩ := hr r hr'
      refine label_err hA hF huv hv p0.le p1 ?_ (fun h => absurd h p0.ne') conv
      have rr := hA.rel (1 - r)
      rw [abs_of_nonneg (show 0 ≤ 1 - r by linarith)] at rr
      refine rr.trans (le_trans (mul_le_mul huv (show 1 - r ≤ 1 by linarith) (by linarith) v0) (by rw [mul_one]))

end

/-! ### Without rounding: the exact model -/

theorem anglesR_exact (n : ℕ) : anglesR exactArith Real.pi n = angles n := by
  unfold anglesR angles
  split_ifs with h
  · subst h; rfl
  · refine List.map_congr_left fun i hi => ?_
    have hi := List.mem_range.1 hi
    unfold angleR
    simp only [exactArith, id]
    split_ifs with h1 h2
    · subst h1; simp
    · have e : (i : ℝ) = (n : ℝ) - 1 := by rw [← h2]; push_cast; ring
      have : (n : ℝ) - 1 ≠ 0 := by rw [← e]; exact_mod_cast h1
      rw [e, div_self this, mul_one]
    · ring

theorem fluxSurfaceR_exact (p : Parameterisation) (l : LCFSInfo ℝ) (psi : ℝ) (n : ℕ) :
    fluxSurfaceR exactArith exactTrig Real.pi p l psi n = fluxSurface p l psi n := by
  unfold fluxSurfaceR fluxSurface makeClosedR makeClosed
  have e : p.pointR exactArith exactTrig l psi = p.point l psi := by
    cases p <;> rfl
  rw [anglesR_exact, e]
  generalize (angles n).map (p.point l psi) = q
  have : isClosedR exactArith q (exactArith.rd closedTol) = isClosed q closedTol := by
    unfold isClosedR isClosed
    cases q.head? <;> cases q.getLast? <;> simp [exactArith] <;> congr!
  rw [this]

/-- C101.  Without rounding errors the model with rounding is the exact model: parameters, surfaces, maps of parameterised
plasmas and of EQDSK files. -/
theorem C101_exact (p : Parameterisation) (l : LCFSInfo ℝ) (psi : ℝ) (rho : List ℝ) (n : ℕ) (conv : FluxConvention)
    (r0 z0 aspect kappa delta shift sq : ℝ) (eq : Eqdsk ℝ) (lcfsPsi : Eqdsk ℝ → List ℝ) :
    LCFSInfo.makeR exactArith r0 z0 aspect kappa delta shift sq = LCFSInfo.make r0 z0 aspect kappa delta shift sq ∧
    fluxSurfaceR exactArith exactTrig Real.pi p l psi n = fluxSurface p l psi n ∧
    fromParameterisationR exactArith exactLib exactTrig Real.pi p l rho n conv = fromParameterisation p l rho n conv ∧
    loadEqdskR exactArith eq = loadEqdsk eq ∧
    fromEqdskPsiR exactArith exactLib eq lcfsPsi conv = fromEqdskPsi eq lcfsPsi conv := by
  have n1 : ∀ x a b, normalisePsiR exactArith exactLib x a b conv = normalisePsi x a b conv := by
    intro x a b; cases conv <;> rfl
  have ld : loadEqdskR exactArith eq = loadEqdsk eq := by
    unfold loadEqdskR loadEqdsk
    split_ifs <;> rfl
  refine ⟨rfl, fluxSurfaceR_exact p l psi n, ?_, ld, ?_⟩
  · unfold fromParameterisationR fromParameterisation
    simp only [fluxSurfaceR_exact, n1]
    rfl
  · unfold fromEqdskPsiR fromEqdskPsi
    simp only [ld, n1]

/-! ### Double precision -/

theorem accurate_trigs : AccurateTrig exactTrig 0 ∧ AccurateTrig roundedTrig (4 * (2 : ℝ) ^ (-53 : ℤ)) := by
  refine ⟨⟨by simp [exactTrig], by simp [exactTrig]⟩, ?_⟩
  have key : ∀ y : ℝ, |round53 y - y| ≤ 4 * (2 : ℝ) ^ (-53 : ℤ) * |y| := by
    intro y
    refine (C74_binary64.rel y).trans (mul_le_mul_of_nonneg_right ?_ (abs_nonneg _))
    have hp : (0 : ℝ) < (2 : ℝ) ^ (-53 : ℤ) := by positivity
    linarith
  exact ⟨fun x => key _, fun x => key _⟩

theorem np_pi : |round53 Real.pi - Real.pi| ≤ (2 : ℝ) ^ (-53 : ℤ) * Real.pi := by
  have := C74_binary64.rel Real.pi
  rwa [abs_of_pos Real.pi_pos] at this

/-- C101.  In double precision with library functions right to four roundings: every accepted plasma whose coordinates stay
below 45 m has a map; its surfaces and points are right to `5·10⁻¹⁴` of its size (half a picometre for 10 m) and the labels of
the LINEAR convention to `3·10⁻¹⁵`. -/
theorem C101_binary64 {F : MathLib} {G : TrigLib} (hF : AccurateLib F (4 * (2 : ℝ) ^ (-53 : ℤ)))
    (hG : AccurateTrig G (4 * (2 : ℝ) ^ (-53 : ℤ))) {r0 z0 aspect kappa delta shift sq : ℝ} {l l' : LCFSInfo ℝ}
    (hl : LCFSInfo.make r0 z0 aspect kappa delta shift sq = .ok l)
    (hl' : LCFSInfo.makeR binary64 r0 z0 aspect kappa delta shift sq = .ok l') (p : Parameterisation) {n : ℕ} (hn : 2 ≤ n)
    (rho : List ℝ) (hpos : ∃ r ∈ rho, 0 < r) (h1 : ∀ r ∈ rho, r ≤ 1) (hE : extent l 1 ≤ 45) :
    ∃ m m', fromParameterisation p l rho n .linear = .ok m ∧
      fromParameterisationR binary64 F G (round53 Real.pi) p l' rho n .linear = .ok m' ∧
      List.Forall₂ (CloseTo (5 / 10 ^ 14 * extent l 1)) m'.lcfs m.lcfs ∧
      List.Forall₂ (CloseTo (5 / 10 ^ 14 * extent l 1)) m'.pts m.pts ∧
      List.Forall₂ (fun y' y => |y' - y| ≤ 3 / 10 ^ 15) m'.labels m.labels := by
  obtain ⟨g1, g2, g3, g4, g5⟩ := (C39_accepted r0 z0 aspect kappa delta shift sq).1 ⟨l, hl⟩
  obtain ⟨⟨e1, e2, e3, e4, e5, e6, e7⟩, em, -, -, hs, -⟩ := C39_stored r0 z0 aspect kappa delta shift sq l hl
  have E0 : 0 ≤ extent l 1 := le_trans (by positivity)
    (extent_bounds (by rw [e1]; exact g1) (by rw [e3]; exact g2) (by rw [e4]; exact g3) hs 1).1
  have v1 : 50 * (4 * (2 : ℝ) ^ (-53 : ℤ)) * 45 ≤ 1 / 10 ^ 12 := by norm_num
  obtain ⟨m, m', a1, a2, a3, a4, a5, a6, a7⟩ := C101_map C74_binary64 hF hG (by norm_num) (by norm_num) np_pi hl hl' p hn
    rho hpos h1 ((mul_le_mul_of_nonneg_left hE (by positivity)).trans v1) .linear
  have w : 110 * (4 * (2 : ℝ) ^ (-53 : ℤ)) * extent l 1 ≤ 5 / 10 ^ 14 * extent l 1 :=
    mul_le_mul_of_nonneg_right (by norm_num) E0
  exact ⟨m, m', a1, a2, a3.imp fun _ _ h => ⟨h.1.trans w, h.2.trans w⟩, a6.imp fun _ _ h => ⟨h.1.trans w, h.2.trans w⟩,
    a7.imp fun _ _ h => le_trans h (by norm_num)⟩

/-! ### The hypotheses are met -/

namespace Ex

/-- A small circular plasma, with surfaces of four edges. -/
def circle : LCFSInfo ℝ := ⟨3, 0, 3, 1, 0, 0, 0, 1⟩

theorem circle_made : LCFSInfo.make (3 : ℝ) 0 3 1 0 0 0 = .ok circle := by
  unfold LCFSInfo.make circle; norm_num

theorem binary64_one : binary64.rd 1 = 1 := by
  simp only [binary64, round53]
  norm_num

theorem circle_madeR : LCFSInfo.makeR binary64 (3 : ℝ) 0 3 1 0 0 0 = .ok circle := by
  unfold LCFSInfo.makeR circle
  have : binary64.rd (3 / 3) = 1 := by rw [show (3 : ℝ) / 3 = 1 by norm_num]; exact binary64_one
  simp only [this]
  norm_num

theorem circle_extent : extent circle 1 = 4 := by unfold extent circle; norm_num

def diamond : List (ℝ × ℝ) := [(4, 0), (3, 1), (2, 0), (3, -1), (4, 0)]

theorem circle_points : fluxSurface .fausser circle 1 5 = .ok diamond := by
  obtain ⟨s, hs, -⟩ := C42_closed .fausser circle 1 5 (by norm_num)
  rw [hs, fluxSurface_eq _ _ _ _ _ hs]
  have c3 : Real.cos (2 * Real.pi * (3 / 4)) = 0 := by
    rw [show 2 * Real.pi * (3 / 4) = Real.pi / 2 + Real.pi by ring, Real.cos_add_pi, Real.cos_pi_div_two, neg_zero]
  have s3 : Real.sin (2 * Real.pi * (3 / 4)) = -1 := by
    rw [show 2 * Real.pi * (3 / 4) = Real.pi / 2 + Real.pi by ring, Real.sin_add_pi, Real.sin_pi_div_two]
  have a : angles 5 = [0, Real.pi / 2, Real.pi, 2 * Real.pi * (3 / 4), 2 * Real.pi] := by
    unfold angles
    rw [if_neg (by norm_num)]
    simp only [List.range_succ, List.range_zero, List.nil_append, List.map_append, List.map_cons, List.map_nil, List.cons_append,
      List.cons.injEq, and_true]
    refine ⟨by norm_num, by push_cast; ring, by push_cast; ring, by push_cast; ring, by push_cast; ring⟩
  rw [a]
  simp only [List.map_cons, List.map_nil, Parameterisation.point, fausserPoint, circle, diamond]
  norm_num [c3, s3]

theorem diamond_far (t : ℝ) (ht : t ≤ 1 / 100) (q : ℝ × ℝ) (hq : Spec.Lattice (paramOPoint circle).x (paramOPoint circle).z (3 / 10) q) :
    ¬ NearLine diamond t q := by
  rintro ⟨r, ⟨i, hi, s, s0, s1, r1, r2⟩, c1, c2⟩
  obtain ⟨a, b, ha, hb⟩ := hq
  simp only [paramOPoint, circle] at ha hb
  have c1 := abs_le.1 (c1.trans ht)
  have c2 := abs_le.1 (c2.trans ht)
  have far : ∀ k : ℤ, ¬ (-(2 / 100 : ℝ) ≤ 1 - 3 / 10 * k ∧ 1 - 3 / 10 * (k : ℝ) ≤ 2 / 100) := by
    rintro k ⟨h1, h2⟩
    have h3 : (3 : ℝ) < k := by linarith
    have h4 : (k : ℝ) < 4 := by linarith
    have h3' : 3 < k := by exact_mod_cast h3
    have h4' : k < 4 := by exact_mod_cast h4
    omega
  simp only [diamond, List.length_cons, List.length_nil] at hi
  have : i = 0 ∨ i = 1 ∨ i = 2 ∨ i = 3 := by omega
  rcases this with rfl | rfl | rfl | rfl <;> simp [diamond] at r1 r2
  · refine far (a + b) ?_
    push_cast
    constructor <;> linarith [c1.1, c1.2, c2.1, c2.2]
  · refine far (b - a) ?_
    push_cast
    constructor <;> linarith [c1.1, c1.2, c2.1, c2.2]
  · refine far (-a - b) ?_
    push_cast
    constructor <;> linarith [c1.1, c1.2, c2.1, c2.2]
  · refine far (a - b) ?_
    push_cast
    constructor <;> linarith [c1.1, c1.2, c2.1, c2.2]

theorem circle_plasma : ∃ m', ParamPlasma binary64 roundedLib roundedTrig ((2 : ℝ) ^ (-53 : ℤ)) (4 * (2 : ℝ) ^ (-53 : ℤ))
    (round53 Real.pi) .fausser circle circle [0, 0.5, 1] 5 .linear m' diamond (3 / 10) := by
  obtain ⟨m, m', a1, a2, -⟩ := C101_binary64 accurate_libs.2 accurate_trigs.2 circle_made circle_madeR .fausser (n := 5) (by norm_num)
    [0, 0.5, 1] ⟨1, by simp, one_pos⟩ (by intro r hr; fin_cases hr <;> norm_num) (by rw [circle_extent]; norm_num)
  refine ⟨m', C74_binary64, accurate_trigs.2, by norm_num, by norm_num, np_pi, ⟨3, 0, 3, 1, 0, 0, 0, circle_made, circle_madeR⟩,
    by norm_num, a2, circle_points, C66_axis_inside _ _ _ _ _ _ _ circle circle_made 5 le_rfl _ circle_points, ?_, by norm_num, ?_, ?_⟩
  · rw [circle_extent]
    exact diamond_far _ (by norm_num) _ ⟨0, 0, by simp, by simp⟩
  · rw [circle_extent]; norm_num [gridTol]
  · rw [circle_extent]; norm_num

/-- With 30 cm cells, the cells of this plasma computed in double precision, from its parameters, are the exact ones to a
picometre, one by one. -/
example : ∃ m', fromParameterisationR binary64 roundedLib roundedTrig (round53 Real.pi) .fausser circle [0, 0.5, 1] 5 .linear = .ok m' ∧
    List.Forall₂ (fun x x' => |x - x'| ≤ 1 / 10 ^ 12) (sampleSpace2dR binary64 (round53 Real.pi) m'.lcfs m'.oPoint.x m'.oPoint.z (3 / 10)).x
      (sampleSpace2d Real.pi (diamond.map Prod.fst) (diamond.map Prod.snd) (containsPoint diamond) 3 0 (3 / 10)).x := by
  obtain ⟨m', h⟩ := circle_plasma
  have tol : plasmaTol ((2 : ℝ) ^ (-53 : ℤ)) (4 * (2 : ℝ) ^ (-53 : ℤ)) circle (3 / 10) ≤ 1 / 10 ^ 12 := by
    unfold plasmaTol; rw [circle_extent]; norm_num [gridTol]
  obtain ⟨-, s, -⟩ := C101_same_cells h (fun q hq => diamond_far _ (by linarith) q hq)
  refine ⟨m', h.computed, ?_⟩
  have e : (paramOPoint circle).x = 3 ∧ (paramOPoint circle).z = 0 := by simp [paramOPoint, circle]
  rw [e.1, e.2] at s
  exact s.imp fun _ _ h => h.trans tol

end Ex
end
end TNS
