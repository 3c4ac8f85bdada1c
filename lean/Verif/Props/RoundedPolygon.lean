import Verif.Spec.RoundedPolygon
import Verif.Lemmas.FluxErr
import Verif.Props.Polygon
/-
C103: sums over the edges of a polygon in floating point.
-/

set_option autoImplicit false

namespace TNS
open Spec
noncomputable section

section
variable {A : Arith} {D : DotLib} {u w R H pi : ℝ}

/-- Sums accumulated in a loop over the edges. -/
theorem edgeSum_err (hA : StandardModel A u) {n : ℕ} (hn : (n : ℝ) * u ≤ w) (hw : w ≤ 1 / 10 ^ 5) (hu : u ≤ w) {e M : ℝ}
    (he : 0 ≤ e) (hM : 0 ≤ M) (Q : ℝ × ℝ → ℝ × ℝ → Prop) (f' f : ℝ × ℝ → ℝ × ℝ → ℝ)
    (hf : ∀ p' p q' q, Q p' p → Q q' q → MagErr w e M (f' p' q') (f p q)) :
    ∀ (pts' pts : List (ℝ × ℝ)), List.Forall₂ Q pts' pts → ∀ (k : ℕ) (acc' acc : ℝ), k + pts.length ≤ n →
      MagErr w (1.001 * e + 1.1) ((k : ℝ) * M) acc' acc →
      MagErr w (1.001 * e + 1.1) (((k + pts.length : ℕ) : ℝ) * M) (edgeSumR A f' acc' pts') (acc + edgeSum f pts) := by
  have w0 := hA.u_nonneg.trans hu
  intro pts' pts h
  induction h with
  | nil => intro k acc' acc _ ha; simpa [edgeSumR, edgeSum] using ha
  | @cons p' p l' l hp hl ih =>
    intro k acc' acc hk ha
    cases hl with
    | nil =>
      simp only [edgeSumR, edgeSum, add_zero, List.length_cons, List.length_nil, zero_add]
      refine ha.weaken le_rfl ?_ (by positivity) w0
      exact mul_le_mul_of_nonneg_right (by push_cast; linarith) hM
    | @cons q' q l' l hq hl =>
      simp only [edgeSumR, edgeSum]
      have t := hf p' p q' q hp hq
      have step : MagErr w (1.001 * e + 1.1) (((k + 1 : ℕ) : ℝ) * M) (A.rd (acc' + f' p' q')) (acc + f p q) := by
        have b : |acc + f p q| ≤ ((k + 1 : ℕ) : ℝ) * M := by
          refine (abs_add_le _ _).trans ?_
          push_cast
          linarith [ha.bound, t.bound]
        refine ⟨?_, b⟩
        have e1 : |acc' + f' p' q' - (acc + f p q)| ≤ (1.001 * e + 1.1) * ((k : ℝ) * M) * w + e * M * w := by
          rw [show acc' + f' p' q' - (acc + f p q) = (acc' - acc) + (f' p' q' - f p q) by ring]
          exact (abs_add_le _ _).trans (add_le_add ha.err t.err)
        have r := rd_absv hA (le_refl u) e1 b
        refine r.trans ?_
        have hk1 : ((k + 1 : ℕ) : ℝ) * u ≤ w := by
          refine le_trans (mul_le_mul_of_nonneg_right ?_ hA.u_nonneg) hn
          simp only [List.length_cons] at hk
          exact_mod_cast (by omega : k + 1 ≤ n)
        push_cast at hk1 ⊢
        have k0 : (0 : ℝ) ≤ (k : ℝ) := Nat.cast_nonneg _
        have hku : (k : ℝ) * u ≤ w := by nlinarith [hA.u_nonneg]
        set c := 1.001 * e + 1.1 with hc
        have c0 : 0 ≤ c := by positivity
        have z1 : u * (c * ((k : ℝ) * M) * w) ≤ 1 / 10 ^ 5 * (c * M * w) := by
          have : u * (c * ((k : ℝ) * M) * w) = ((k : ℝ) * u) * (c * M * w) := by ring
          rw [this]
          exact mul_le_mul_of_nonneg_right (hku.trans hw) (by positivity)
        have z2 : u * (e * M * w) ≤ 1 / 10 ^ 5 * (e * M * w) :=
          mul_le_mul_of_nonneg_right (hu.trans hw) (by positivity)
        have z3 : u * (((k : ℝ) + 1) * M) ≤ w * M := by
          rw [show u * (((k : ℝ) + 1) * M) = ((k : ℝ) + 1) * u * M by ring]
          exact mul_le_mul_of_nonneg_right hk1 hM
        have m0 : 0 ≤ M * w := by positivity
        have em : 0 ≤ e * (M * w) := by positivity
        have cc : c * M * w = 1.001 * (e * (M * w)) + 1.1 * (M * w) := by rw [hc]; ring
        have goal : (1 + u) * (c * ((k : ℝ) * M) * w + e * M * w) + u * (((k : ℝ) + 1) * M) ≤
            c * ((k : ℝ) * M) * w + (1 / 10 ^ 5 * (c * M * w) + 1 / 10 ^ 5 * (e * M * w) + e * M * w + w * M) := by
          nlinarith
        refine goal.trans ?_
        rw [show c * (((k : ℝ) + 1) * M) * w = c * ((k : ℝ) * M) * w + c * M * w by ring, cc]
        norm_num
        nlinarith
      have := ih (k + 1) (A.rd (acc' + f' p' q')) (acc + f p q) (by simp only [List.length_cons] at hk ⊢; omega) step
      rw [show k + (p :: q :: l).length = k + 1 + (q :: l).length by simp only [List.length_cons]; omega, ← add_assoc]
      exact this

/-- The term of the orientation loop. -/
theorem ccwTerm_err (hA : StandardModel A u) (hu : u ≤ w) (hw : w ≤ 1 / 10 ^ 5) {p' p q' q : ℝ × ℝ}
    (p1 : MagErr w 1 R p'.1 p.1) (p2 : MagErr w 1 H p'.2 p.2) (q1 : MagErr w 1 R q'.1 q.1) (q2 : MagErr w 1 H q'.2 q.2) :
    MagErr w 5.1 (4 * R * H) (ccwTermR A p' q') ((q.1 - p.1) * (q.2 + p.2)) := by
  have w0 := hA.u_nonneg.trans hu
  have w1 : w ≤ 1 / 1000 := hw.trans (by norm_num)
  have a := (q1.sub p1).rd hA hu hw zero_le_one
  have b := (q2.add p2).rd hA hu hw zero_le_one
  have c := (a.mul w0 w1 (by norm_num) (by norm_num) b).rd hA hu hw (by norm_num)
  exact c.weaken (by norm_num) (le_of_eq (by ring)) (by norm_num) w0

theorem cross_err (hA : StandardModel A u) (hu : u ≤ w) (hw : w ≤ 1 / 10 ^ 5) {p' p q' q : ℝ × ℝ}
    (p1 : MagErr w 1 R p'.1 p.1) (p2 : MagErr w 1 H p'.2 p.2) (q1 : MagErr w 1 R q'.1 q.1) (q2 : MagErr w 1 H q'.2 q.2) :
    MagErr w 4.1 (2 * R * H) (crossR A p' q') (p.1 * q.2 - q.1 * p.2) := by
  have w0 := hA.u_nonneg.trans hu
  have w1 : w ≤ 1 / 1000 := hw.trans (by norm_num)
  have a := (p1.mul w0 w1 (by norm_num) (by norm_num) q2).rd hA hu hw (by norm_num)
  have b := (q1.mul w0 w1 (by norm_num) (by norm_num) p2).rd hA hu hw (by norm_num)
  have c := (a.sub b).rd hA hu hw (by norm_num)
  exact c.weaken (by norm_num) (le_of_eq (by ring)) (by norm_num) w0

theorem momentX_err (hA : StandardModel A u) (hu : u ≤ w) (hw : w ≤ 1 / 10 ^ 5) {p' p q' q : ℝ × ℝ}
    (p1 : MagErr w 1 R p'.1 p.1) (p2 : MagErr w 1 H p'.2 p.2) (q1 : MagErr w 1 R q'.1 q.1) (q2 : MagErr w 1 H q'.2 q.2) :
    MagErr w 7.2 (4 * R * H * R) (A.rd (A.rd (p'.1 + q'.1) * crossR A p' q')) ((p.1 + q.1) * (p.1 * q.2 - q.1 * p.2)) := by
  have w0 := hA.u_nonneg.trans hu
  have w1 : w ≤ 1 / 1000 := hw.trans (by norm_num)
  have a := (p1.add q1).rd hA hu hw zero_le_one
  have c := (a.mul w0 w1 (by norm_num) (by norm_num) (cross_err hA hu hw p1 p2 q1 q2)).rd hA hu hw (by norm_num)
  exact c.weaken (by norm_num) (le_of_eq (by ring)) (by norm_num) w0

theorem momentZ_err (hA : StandardModel A u) (hu : u ≤ w) (hw : w ≤ 1 / 10 ^ 5) {p' p q' q : ℝ × ℝ}
    (p1 : MagErr w 1 R p'.1 p.1) (p2 : MagErr w 1 H p'.2 p.2) (q1 : MagErr w 1 R q'.1 q.1) (q2 : MagErr w 1 H q'.2 q.2) :
    MagErr w 7.2 (4 * R * H * H) (A.rd (A.rd (p'.2 + q'.2) * crossR A p' q')) ((p.2 + q.2) * (p.1 * q.2 - q.1 * p.2)) := by
  have w0 := hA.u_nonneg.trans hu
  have w1 : w ≤ 1 / 1000 := hw.trans (by norm_num)
  have a := (p2.add q2).rd hA hu hw zero_le_one
  have c := (a.mul w0 w1 (by norm_num) (by norm_num) (cross_err hA hu hw p1 p2 q1 q2)).rd hA hu hw (by norm_num)
  exact c.weaken (by norm_num) (le_of_eq (by ring)) (by norm_num) w0

/-! ## Dot products -/

theorem zip_err (hu : 0 ≤ w) (hw : w ≤ 1 / 1000) {M N : ℝ} {a' a b' b : List ℝ}
    (ha : List.Forall₂ (MagErr w 1 M) a' a) (hb : List.Forall₂ (MagErr w 1 N) b' b) (hl : a.length = b.length) :
    MagErr w 2.1 ((a.length : ℝ) * (M * N)) (List.zipWith (fun x y => x * y) a' b').sum (List.zipWith (fun x y => x * y) a b).sum ∧
    (List.zipWith (fun x y => |x * y|) a' b').sum ≤ 1.01 * ((a.length : ℝ) * (M * N)) := by
  induction ha generalizing b' b with
  | nil =>
    simp only [List.zipWith_nil_left, List.sum_nil, List.length_nil, Nat.cast_zero, zero_mul, mul_zero, le_refl, and_true]
    exact ⟨by simp, by simp⟩
  | @cons x' x a' a hx _ ih =>
    cases hb with
    | nil => simp at hl
    | @cons y' y b' b hy hb =>
      obtain ⟨i1, i2⟩ := ih hb (by simpa using hl)
      have t := (hx.mul hu hw (by norm_num) (by norm_num) hy).err_le (f := 2.1) (by norm_num) hu
      simp only [List.zipWith_cons_cons, List.sum_cons, List.length_cons]
      constructor
      · have := t.add i1
        refine this.weaken le_rfl (le_of_eq ?_) (by norm_num) hu
        push_cast; ring
      · have hb : |x' * y'| ≤ 1.01 * (M * N) := by
          rw [show x' * y' = x * y + (x' * y' - x * y) by ring]
          refine (abs_add_le _ _).trans ?_
          have e1 := t.err
          have e2 := t.bound
          have m0 := t.nonneg
          nlinarith
        push_cast
        linarith

theorem dot_err (hA : StandardModel A u) (hD : AccurateDot D u) (hu : u ≤ w) (hw : w ≤ 1 / 10 ^ 5) {M N : ℝ} {a' a b' b : List ℝ}
    (ha : List.Forall₂ (MagErr w 1 M) a' a) (hb : List.Forall₂ (MagErr w 1 N) b' b) (hl : a.length = b.length)
    (hn : (a.length : ℝ) * u ≤ w) :
    MagErr w 3.2 ((a.length : ℝ) * (M * N)) (D.dot a' b') (List.zipWith (fun x y => x * y) a b).sum := by
  have w0 := hA.u_nonneg.trans hu
  obtain ⟨i1, i2⟩ := zip_err w0 (hw.trans (by norm_num)) ha hb hl
  have la := ha.length_eq
  have lb := hb.length_eq
  have d := hD a' b' (by rw [la, lb, hl]) (by rw [la]; exact hn.trans (hw.trans (by norm_num)))
  rw [la] at d
  refine ⟨?_, i1.bound⟩
  have tri := abs_sub_le (D.dot a' b') (List.zipWith (fun x y => x * y) a' b').sum (List.zipWith (fun x y => x * y) a b).sum
  have m0 := i1.nonneg
  have e1 := i1.err
  have k : 1.02 * ((a.length : ℝ) * u) * (List.zipWith (fun x y => |x * y|) a' b').sum ≤
      1.02 * w * (1.01 * ((a.length : ℝ) * (M * N))) := by
    refine mul_le_mul (mul_le_mul_of_nonneg_left hn (by norm_num)) i2 ?_ (by positivity)
    refine List.sum_nonneg fun z hz => ?_
    obtain ⟨i, hi, rfl⟩ := List.getElem_of_mem hz
    simp only [List.getElem_zipWith]
    exact abs_nonneg _
  have m1 : 0 ≤ (a.length : ℝ) * (M * N) * w := by positivity
  nlinarith

theorem roll_forall₂ {Q : ℝ × ℝ → ℝ × ℝ → Prop} {pts' pts : List (ℝ × ℝ)} (h : List.Forall₂ Q pts' pts) :
    List.Forall₂ Q (roll pts') (roll pts) := by
  have h := List.forall₂_reverse_iff.2 h
  rw [← List.reverse_reverse pts', ← List.reverse_reverse pts]
  generalize pts'.reverse = r' at h ⊢
  generalize pts.reverse = r at h ⊢
  cases h with
  | nil => exact .nil
  | @cons b' b r' r hb hr =>
    unfold roll
    simp only [List.reverse_cons, List.getLast?_concat, List.dropLast_concat]
    exact .cons hb (List.forall₂_reverse_iff.2 hr)

theorem roll_length (pts : List (ℝ × ℝ)) : (roll pts).length = pts.length := by
  unfold roll
  cases h : pts.getLast? with
  | none => rw [List.getLast?_eq_none_iff] at h; rw [h]
  | some b =>
    have : pts ≠ [] := by rintro rfl; simp at h
    have := List.length_pos_of_ne_nil this
    simp only [List.length_cons, List.length_dropLast]
    omega

/-! ## The polygon -/

/-- Both coordinates of a vertex. -/
def VertexErr (w R H : ℝ) (p' p : ℝ × ℝ) : Prop := MagErr w 1 R p'.1 p.1 ∧ MagErr w 1 H p'.2 p.2

theorem known_vertexErr {pts' pts : List (ℝ × ℝ)} (h : PolygonKnown u w R H pts' pts) :
    List.Forall₂ (VertexErr w R H) pts' pts := by
  have h1 := h.radii
  have h2 := h.heights
  have h3 := h.vertices
  clear h
  induction h3 with
  | nil => exact .nil
  | @cons a' a l' l ha _ ih =>
    refine .cons ⟨⟨?_, h1 a List.mem_cons_self⟩, ⟨?_, h2 a List.mem_cons_self⟩⟩
      (ih (fun p hp => h1 p (List.mem_cons_of_mem _ hp)) (fun p hp => h2 p (List.mem_cons_of_mem _ hp)))
    · linarith [ha.1]
    · linarith [ha.2]

theorem area_err (hA : StandardModel A u) (hD : AccurateDot D u) (hu : u ≤ w) (hw : w ≤ 1 / 10 ^ 5) {pts' pts : List (ℝ × ℝ)}
    (h : List.Forall₂ (VertexErr w R H) pts' pts) (hn : (pts.length : ℝ) * u ≤ w) :
    MagErr w 5.4 ((pts.length : ℝ) * (R * H)) (getArea2dR A D pts') (getArea2d pts) := by
  have w0 := hA.u_nonneg.trans hu
  have w1 : w ≤ 1 / 1000 := hw.trans (by norm_num)
  have r := roll_forall₂ h
  have f1 : ∀ {l' l : List (ℝ × ℝ)}, List.Forall₂ (VertexErr w R H) l' l →
      List.Forall₂ (MagErr w 1 R) (l'.map Prod.fst) (l.map Prod.fst) := fun h => by
    rw [List.forall₂_map_left_iff, List.forall₂_map_right_iff]
    exact h.imp fun _ _ h => h.1
  have f2 : ∀ {l' l : List (ℝ × ℝ)}, List.Forall₂ (VertexErr w R H) l' l →
      List.Forall₂ (MagErr w 1 H) (l'.map Prod.snd) (l.map Prod.snd) := fun h => by
    rw [List.forall₂_map_left_iff, List.forall₂_map_right_iff]
    exact h.imp fun _ _ h => h.2
  have d1 := dot_err hA hD hu hw (f1 h) (f2 r) (by simp [roll_length]) (by simpa using hn)
  have d2 := dot_err hA hD hu hw (f2 h) (f1 r) (by simp [roll_length]) (by simpa using hn)
  have s := (d1.sub d2).rd hA hu hw (by norm_num)
  have ab : MagErr w (1.001 * 3.2 + 1) (2 * ((pts.length : ℝ) * (R * H)))
      |A.rd (D.dot (pts'.map Prod.fst) ((roll pts').map Prod.snd) - D.dot (pts'.map Prod.snd) ((roll pts').map Prod.fst))|
      |(List.zipWith (fun p q : ℝ × ℝ => p.1 * q.2) pts (roll pts)).sum -
        (List.zipWith (fun p q : ℝ × ℝ => p.2 * q.1) pts (roll pts)).sum| := by
    rw [List.zipWith_map, List.zipWith_map] at s
    have s := s.weaken (N := 2 * ((pts.length : ℝ) * (R * H))) le_rfl
      (le_of_eq (by simp only [List.length_map]; ring)) (by norm_num) w0
    exact ⟨(abs_abs_sub_abs_le_abs_sub _ _).trans s.err, by rw [abs_abs]; exact s.bound⟩
  have half := (((MagErr.exact (v := w) (show |(1 / 2 : ℝ)| ≤ 1 / 2 by norm_num)).mul w0 w1 le_rfl (by norm_num) ab).rd hA hu hw
    (by norm_num)).weaken (f := 5.4) (N := (pts.length : ℝ) * (R * H)) (by norm_num) (le_of_eq (by ring)) (by norm_num) w0
  exact half

theorem ccw_err (hA : StandardModel A u) (hu : u ≤ w) (hw : w ≤ 1 / 10 ^ 5) {pts' pts : List (ℝ × ℝ)}
    (h : List.Forall₂ (VertexErr w R H) pts' pts) (hn : (pts.length : ℝ) * u ≤ w) (hM : 0 ≤ R * H) :
    MagErr w 6.3 ((pts.length : ℝ) * (4 * R * H)) (edgeSumR A (ccwTermR A) 0 pts')
      (edgeSum (fun p q => (q.1 - p.1) * (q.2 + p.2)) pts) := by
  have w0 := hA.u_nonneg.trans hu
  have := edgeSum_err hA hn hw hu (e := 5.1) (M := 4 * R * H) (by norm_num) (by linarith) (VertexErr w R H) (ccwTermR A)
    (fun p q => (q.1 - p.1) * (q.2 + p.2)) (fun p' p q' q hp hq => ccwTerm_err hA hu hw hp.1 hp.2 hq.1 hq.2) pts' pts h 0 0 0
    (by simp) ⟨by simp, by simp⟩
  rw [zero_add, zero_add] at this
  exact this.err_le (by norm_num) w0

theorem mx_err (hA : StandardModel A u) (hu : u ≤ w) (hw : w ≤ 1 / 10 ^ 5) {pts' pts : List (ℝ × ℝ)}
    (h : List.Forall₂ (VertexErr w R H) pts' pts) (hn : (pts.length : ℝ) * u ≤ w) (hR : 0 ≤ R) (hH : 0 ≤ H) :
    MagErr w 8.4 ((pts.length : ℝ) * (4 * R * H * R)) (edgeSumR A (fun p q => A.rd (A.rd (p.1 + q.1) * crossR A p q)) 0 pts')
      (edgeSum (fun p q => (p.1 + q.1) * (p.1 * q.2 - q.1 * p.2)) pts) := by
  have w0 := hA.u_nonneg.trans hu
  have := edgeSum_err hA hn hw hu (e := 7.2) (M := 4 * R * H * R) (by norm_num) (by positivity) (VertexErr w R H)
    (fun p q => A.rd (A.rd (p.1 + q.1) * crossR A p q)) (fun p q => (p.1 + q.1) * (p.1 * q.2 - q.1 * p.2))
    (fun p' p q' q hp hq => momentX_err hA hu hw hp.1 hp.2 hq.1 hq.2) pts' pts h 0 0 0 (by simp) ⟨by simp, by simp⟩
  rw [zero_add, zero_add] at this
  exact this.err_le (by norm_num) w0

theorem mz_err (hA : StandardModel A u) (hu : u ≤ w) (hw : w ≤ 1 / 10 ^ 5) {pts' pts : List (ℝ × ℝ)}
    (h : List.Forall₂ (VertexErr w R H) pts' pts) (hn : (pts.length : ℝ) * u ≤ w) (hR : 0 ≤ R) (hH : 0 ≤ H) :
    MagErr w 8.4 ((pts.length : ℝ) * (4 * R * H * H)) (edgeSumR A (fun p q => A.rd (A.rd (p.2 + q.2) * crossR A p q)) 0 pts')
      (edgeSum (fun p q => (p.2 + q.2) * (p.1 * q.2 - q.1 * p.2)) pts) := by
  have w0 := hA.u_nonneg.trans hu
  have := edgeSum_err hA hn hw hu (e := 7.2) (M := 4 * R * H * H) (by norm_num) (by positivity) (VertexErr w R H)
    (fun p q => A.rd (A.rd (p.2 + q.2) * crossR A p q)) (fun p q => (p.2 + q.2) * (p.1 * q.2 - q.1 * p.2))
    (fun p' p q' q hp hq => momentZ_err hA hu hw hp.1 hp.2 hq.1 hq.2) pts' pts h 0 0 0 (by simp) ⟨by simp, by simp⟩
  rw [zero_add, zero_add] at this
  exact this.err_le (by norm_num) w0

/-- A quotient `m' / (6 a')` of a moment and an area; `t` is at most a hundredth of the area. -/
theorem quotient_err (hA : StandardModel A u) (hu : u ≤ w) (hw : w ≤ 1 / 10 ^ 5) {m' m a' a t B : ℝ} (ht : 0 ≤ t)
    (hta : 100 * t ≤ a) (ha : 0 < a) (hB : 0 ≤ B) (hwt : w * a ≤ t) (hm : |m' - m| ≤ 33.6 * t * B) (haa : |a' - a| ≤ 5.4 * t) :
    |A.rd (m' / A.rd (6 * a')) - m / (6 * a)| ≤ 8 * (t / a) * (B + |m / (6 * a)|) := by
  have w0 := hA.u_nonneg.trans hu
  set q := m / (6 * a) with hq
  set s := A.rd (6 * a') with hs
  set η := t / a with hη
  have η0 : 0 ≤ η := div_nonneg ht ha.le
  have η1 : η ≤ 1 / 100 := by rw [hη, div_le_iff₀ ha]; linarith
  have tη : t = η * a := by rw [hη]; field_simp
  have wη : w ≤ η := by rw [hη, le_div_iff₀ ha]; exact hwt
  have hs1 : |s - 6 * a| ≤ 38.5 * η * a := by
    have e1 : |6 * a' - 6 * a| ≤ 32.4 * t := by
      rw [show 6 * a' - 6 * a = 6 * (a' - a) by ring, abs_mul, abs_of_pos (by norm_num : (0 : ℝ) < 6)]; linarith
    have r := rd_absv hA hu e1 (show |6 * a| ≤ 6 * a by rw [abs_of_pos (by linarith)])
    rw [← hs] at r
    refine r.trans ?_
    have : w * (32.4 * t) ≤ 1 / 10 ^ 5 * (32.4 * t) := mul_le_mul_of_nonneg_right hw (by positivity)
    have : w * (6 * a) = 6 * (w * a) := by ring
    rw [show 38.5 * η * a = 38.5 * t by rw [tη]; ring]
    norm_num at *
    linarith
  have hs2 : 5.6 * a ≤ s := by
    have := (abs_le.1 hs1).1
    have : 38.5 * η * a ≤ 38.5 * (1 / 100) * a := by
      refine mul_le_mul_of_nonneg_right ?_ ha.le; linarith
    norm_num at *
    linarith
  have s0 : 0 < s := by linarith
  have mq : m = q * (6 * a) := by rw [hq]; field_simp
  have e : |m' / s - q| ≤ 6.01 * η * B + 6.9 * η * |q| := by
    rw [show m' / s - q = ((m' - m) + q * (6 * a - s)) / s by rw [mq]; field_simp; ring, abs_div, abs_of_pos s0, div_le_iff₀ s0]
    refine (abs_add_le _ _).trans ?_
    rw [abs_mul, abs_sub_comm (6 * a)]
    have k1 : |q| * |s - 6 * a| ≤ |q| * (38.5 * η * a) := mul_le_mul_of_nonneg_left hs1 (abs_nonneg _)
    have k2 : (6.01 * η * B + 6.9 * η * |q|) * (5.6 * a) ≤ (6.01 * η * B + 6.9 * η * |q|) * s :=
      mul_le_mul_of_nonneg_left hs2 (by positivity)
    rw [tη] at hm
    have k3 : 0 ≤ η * a * B := by positivity
    have k4 : 0 ≤ η * a * |q| := by positivity
    norm_num at *
    nlinarith
  have r := rd_absv hA hu e (le_refl |q|)
  refine r.trans ?_
  have k1 : w * |q| ≤ η * |q| := mul_le_mul_of_nonneg_right wη (abs_nonneg _)
  have k2 : w * (6.01 * η * B + 6.9 * η * |q|) ≤ 1 / 10 ^ 5 * (6.01 * η * B + 6.9 * η * |q|) :=
    mul_le_mul_of_nonneg_right hw (by positivity)
  have k3 : 0 ≤ η * B := by positivity
  have k4 : 0 ≤ η * |q| := by positivity
  norm_num at *
  nlinarith

/-- The product `2 π area radius`. -/
theorem volume_err (hA : StandardModel A u) (hu : u ≤ w) (hw : w ≤ 1 / 10 ^ 5) (hpi : |pi - Real.pi| ≤ u * Real.pi)
    {a' a t x' x B : ℝ} (ht : 0 ≤ t) (hta : 100 * t ≤ a) (ha : 0 < a) (hB : 0 ≤ B) (hwt : w * a ≤ t) (haa : |a' - a| ≤ 5.4 * t)
    (hx : |x' - x| ≤ 8 * (t / a) * (B + |x|)) :
    |A.rd (A.rd (A.rd (2 * pi) * a') * x') - 2 * Real.pi * a * x| ≤ 20 * (2 * Real.pi) * t * (B + |x|) := by
  have w0 := hA.u_nonneg.trans hu
  have p0 := Real.pi_pos
  set P := 2 * Real.pi with hP
  have P0 : 0 < P := by positivity
  set η := t / a with hη
  have η0 : 0 ≤ η := div_nonneg ht ha.le
  have η1 : η ≤ 1 / 100 := by rw [hη, div_le_iff₀ ha]; linarith
  have tη : t = η * a := by rw [hη]; field_simp
  have wη : w ≤ η := by rw [hη, le_div_iff₀ ha]; exact hwt
  have c1 : |A.rd (2 * pi) - P| ≤ 2.1 * η * P := by
    have e1 : |2 * pi - P| ≤ w * P := by
      rw [hP, show 2 * pi - 2 * Real.pi = 2 * (pi - Real.pi) by ring, abs_mul, abs_two]
      have : u * Real.pi ≤ w * Real.pi := mul_le_mul_of_nonneg_right hu p0.le
      linarith
    have r := rd_absv hA hu e1 (show |P| ≤ P by rw [abs_of_pos P0])
    refine r.trans ?_
    have k1 : w * P ≤ η * P := mul_le_mul_of_nonneg_right wη P0.le
    have k2 : w * (w * P) ≤ 1 / 10 ^ 5 * (w * P) := mul_le_mul_of_nonneg_right hw (by positivity)
    norm_num at *
    nlinarith
  have c2 : |A.rd (2 * pi) * a' - P * a| ≤ 7.7 * η * (P * a) := by
    rw [show A.rd (2 * pi) * a' - P * a = (A.rd (2 * pi) - P) * a' + P * (a' - a) by ring]
    refine (abs_add_le _ _).trans ?_
    rw [abs_mul, abs_mul, abs_of_pos P0]
    have a1 : |a'| ≤ 1.054 * a := by
      rw [show a' = a + (a' - a) by ring]
      refine (abs_add_le _ _).trans ?_
      rw [abs_of_pos ha]
      norm_num at *
      linarith
    have k1 : |A.rd (2 * pi) - P| * |a'| ≤ 2.1 * η * P * (1.054 * a) := mul_le_mul c1 a1 (abs_nonneg _) (by positivity)
    have k2 : P * |a' - a| ≤ P * (5.4 * t) := mul_le_mul_of_nonneg_left haa P0.le
    rw [tη] at k2
    have k3 : 0 ≤ η * P * a := by positivity
    norm_num at *
    nlinarith
  have Pa0 : 0 < P * a := mul_pos P0 ha
  set K := P * a with hK
  have c3 : |A.rd (A.rd (2 * pi) * a') - K| ≤ 8.8 * η * K := by
    have r := rd_absv hA hu c2 (show |K| ≤ K by rw [abs_of_pos Pa0])
    refine r.trans ?_
    have k1 : w * K ≤ η * K := mul_le_mul_of_nonneg_right wη Pa0.le
    have k2 : w * (7.7 * η * K) ≤ 1 / 10 ^ 5 * (7.7 * η * K) := mul_le_mul_of_nonneg_right hw (by positivity)
    have k3 : 0 ≤ η * K := by positivity
    norm_num at *
    nlinarith
  set T := A.rd (A.rd (2 * pi) * a') with hT
  have c4 : |T * x' - K * x| ≤ K * η * (8.8 * B + 17.6 * |x|) := by
    rw [show T * x' - K * x = T * (x' - x) + (T - K) * x by ring]
    refine (abs_add_le _ _).trans ?_
    rw [abs_mul, abs_mul]
    have t1 : |T| ≤ 1.09 * K := by
      rw [show T = K + (T - K) by ring]
      refine (abs_add_le _ _).trans ?_
      rw [abs_of_pos Pa0]
      have : 8.8 * η * K ≤ 8.8 * (1 / 100) * K := mul_le_mul_of_nonneg_right (by linarith) Pa0.le
      norm_num at *
      linarith
    have k1 : |T| * |x' - x| ≤ 1.09 * K * (8 * η * (B + |x|)) := mul_le_mul t1 hx (abs_nonneg _) (by positivity)
    have k2 : |T - K| * |x| ≤ 8.8 * η * K * |x| := mul_le_mul_of_nonneg_right c3 (abs_nonneg _)
    have k3 : 0 ≤ K * η * B := by positivity
    have k4 : 0 ≤ K * η * |x| := by positivity
    norm_num at *
    nlinarith
  have r := rd_absv hA hu c4 (show |K * x| ≤ K * |x| by rw [abs_mul, abs_of_pos Pa0])
  refine r.trans ?_
  have e : 20 * P * t * (B + |x|) = 20 * (K * η * B) + 20 * (K * η * |x|) := by rw [hK, tη]; ring
  rw [e]
  have k1 : w * (K * |x|) ≤ η * (K * |x|) := mul_le_mul_of_nonneg_right wη (by positivity)
  have k2 : w * (K * η * (8.8 * B + 17.6 * |x|)) ≤ 1 / 10 ^ 5 * (K * η * (8.8 * B + 17.6 * |x|)) :=
    mul_le_mul_of_nonneg_right hw (by positivity)
  have k3 : 0 ≤ K * η * B := by positivity
  have k4 : 0 ≤ K * η * |x| := by positivity
  norm_num at *
  nlinarith

/-! ## C103 -/

theorem known_basics {pts' pts : List (ℝ × ℝ)} (hA : StandardModel A u) (h : PolygonKnown u w R H pts' pts) :
    0 ≤ R ∧ 0 ≤ H ∧ u ≤ w ∧ 0 ≤ w ∧ ExactlyClosed pts := by
  have hc : ExactlyClosed pts := h.closed
  obtain ⟨p, hp⟩ := List.exists_mem_of_ne_nil _ h.closed.1
  have n1 : (1 : ℝ) ≤ pts.length := by exact_mod_cast List.length_pos_of_ne_nil h.closed.1
  have u1 : u ≤ w := le_trans (by nlinarith [hA.u_nonneg]) h.count
  exact ⟨(abs_nonneg _).trans (h.radii p hp), (abs_nonneg _).trans (h.heights p hp), u1, hA.u_nonneg.trans u1, hc⟩

/-- C103.  The computed area of a closed surface is the enclosed area, up to `6 w n R H`. -/
theorem C103_area (hA : StandardModel A u) (hD : AccurateDot D u) {pts' pts : List (ℝ × ℝ)} (h : PolygonKnown u w R H pts' pts) :
    |getArea2dR A D pts' - (|contour (fun x _ => x) pts|)| ≤ 6 * areaTol w R H pts := by
  obtain ⟨r0, h0, u1, w0, hc⟩ := known_basics hA h
  have e := area_err hA hD u1 h.small (known_vertexErr h) h.count
  rw [← C45_area _ hc]
  refine e.err.trans ?_
  unfold areaTol
  have : 0 ≤ w * (pts.length : ℝ) * R * H := by positivity
  norm_num
  nlinarith

/-- C103.  The computed orientation is right whenever the area is not lost in rounding. -/
theorem C103_orientation (hA : StandardModel A u) {pts' pts : List (ℝ × ℝ)} (h : PolygonKnown u w R H pts' pts)
    (ha : 13 * areaTol w R H pts < |contour (fun x _ => x) pts|) :
    checkCcwR A pts' ↔ 0 < contour (fun x _ => x) pts := by
  obtain ⟨r0, h0, u1, w0, hc⟩ := known_basics hA h
  have e := (ccw_err hA u1 h.small (known_vertexErr h) h.count (mul_nonneg r0 h0)).err
  have s : edgeSum (fun p q => (q.1 - p.1) * (q.2 + p.2)) pts = -(2 * contour (fun x _ => x) pts) := by
    rw [← shoelace_eq pts hc, shoelace]
    have h1 := edgeSum_closed (fun p => p.1 * p.2) pts hc
    have h2 := edgeSum_add (fun p q => (q.1 - p.1) * (q.2 + p.2)) (fun p q => p.1 * q.2 - q.1 * p.2) pts
    have h3 := edgeSum_congr (fun p q => (q.1 - p.1) * (q.2 + p.2) + (p.1 * q.2 - q.1 * p.2))
      (fun p q => q.1 * q.2 - p.1 * p.2) (fun p q => by ring) pts
    linarith
  rw [s] at e
  have k : 6.3 * ((pts.length : ℝ) * (4 * R * H)) * w = 25.2 * areaTol w R H pts := by unfold areaTol; ring
  have t0 : 0 ≤ areaTol w R H pts := by unfold areaTol; positivity
  rw [k] at e
  obtain ⟨e1, e2⟩ := abs_le.1 e
  unfold checkCcwR
  rcases lt_abs.1 ha with hp | hn
  · constructor
    · intro _; linarith
    · intro _; norm_num at *; linarith
  · constructor
    · intro hlt; exfalso; norm_num at *; linarith
    · intro hlt; linarith

/-- C103.  The computed centroid is that of the enclosed region.  With `η` the unit of area over the area, at most a hundredth, the
error of the radius is at most `8 η` times the largest radius plus that of the centroid, and likewise for the height. -/
theorem C103_centroid (hA : StandardModel A u) (hD : AccurateDot D u) {pts' pts : List (ℝ × ℝ)}
    (h : PolygonKnown u w R H pts' pts) (area : ℝ) (harea : area = |contour (fun x _ => x) pts|) (ha : 0 < area)
    (hsmall : 100 * areaTol w R H pts ≤ area) :
    |(getCentroid2dR A D pts').1 - contour (fun x _ => x ^ 2) pts / 2 / contour (fun x _ => x) pts| ≤
      8 * (areaTol w R H pts / area) * (R + |contour (fun x _ => x ^ 2) pts / 2 / contour (fun x _ => x) pts|) ∧
    |(getCentroid2dR A D pts').2 - contour (fun x z => x * z) pts / contour (fun x _ => x) pts| ≤
      8 * (areaTol w R H pts / area) * (H + |contour (fun x z => x * z) pts / contour (fun x _ => x) pts|) := by
  obtain ⟨r0, h0, u1, w0, hc⟩ := known_basics hA h
  have t0 : 0 ≤ areaTol w R H pts := by unfold areaTol; positivity
  have ea : getArea2d pts = area := by rw [C45_area _ hc, harea]
  have ne : getArea2d pts ≠ 0 := by rw [ea]; exact ha.ne'
  have o := C103_orientation hA h (by rw [← harea]; linarith)
  rw [← ccw_iff pts hc] at o
  obtain ⟨q1, q2⟩ := C45_centroid pts hc ne
  rw [← q1, ← q2]
  -- the list both programs go on with
  obtain ⟨l', l, hl, hlen, hla, el', el⟩ : ∃ l' l, List.Forall₂ (VertexErr w R H) l' l ∧ l.length = pts.length ∧
      getArea2d l = area ∧
      getCentroid2dR A D pts' = (if getArea2dR A D l' ≠ 0 then
        (A.rd (edgeSumR A (fun p q => A.rd (A.rd (p.1 + q.1) * crossR A p q)) 0 l' / A.rd (6 * getArea2dR A D l')),
          A.rd (edgeSumR A (fun p q => A.rd (A.rd (p.2 + q.2) * crossR A p q)) 0 l' / A.rd (6 * getArea2dR A D l')))
        else (edgeSumR A (fun p q => A.rd (A.rd (p.1 + q.1) * crossR A p q)) 0 l',
          edgeSumR A (fun p q => A.rd (A.rd (p.2 + q.2) * crossR A p q)) 0 l')) ∧
      getCentroid2d pts = (edgeSum (fun p q => (p.1 + q.1) * (p.1 * q.2 - q.1 * p.2)) l / (6 * getArea2d l),
        edgeSum (fun p q => (p.2 + q.2) * (p.1 * q.2 - q.1 * p.2)) l / (6 * getArea2d l)) := by
    by_cases c : checkCcw pts
    · refine ⟨pts', pts, (known_vertexErr h), rfl, ea, ?_, ?_⟩
      · unfold getCentroid2dR; simp only [if_pos (o.2 c)]
      · unfold getCentroid2d; simp only [if_pos c, if_pos ne]
    · have ra := (C45_direction pts hc ne).1
      refine ⟨pts'.reverse, pts.reverse, List.forall₂_reverse_iff.2 (known_vertexErr h), List.length_reverse, by rw [ra, ea], ?_, ?_⟩
      · unfold getCentroid2dR; simp only [if_neg (fun k => c (o.1 k))]
      · unfold getCentroid2d; simp only [if_neg c, if_pos (show getArea2d pts.reverse ≠ 0 by rw [ra]; exact ne)]
  have hn : (l.length : ℝ) * u ≤ w := by rw [hlen]; exact h.count
  have ae := area_err hA hD u1 h.small hl hn
  have mx := (mx_err hA u1 h.small hl hn r0 h0).err
  have mz := (mz_err hA u1 h.small hl hn r0 h0).err
  rw [hla, hlen] at ae
  rw [hlen] at mx mz
  have ab := ae.bound
  rw [abs_of_pos ha] at ab
  have ae := ae.err
  have wt : w * area ≤ areaTol w R H pts :=
    (mul_le_mul_of_nonneg_left ab w0).trans (le_of_eq (by unfold areaTol; ring))
  rw [show 5.4 * ((pts.length : ℝ) * (R * H)) * w = 5.4 * areaTol w R H pts by unfold areaTol; ring] at ae
  rw [show 8.4 * ((pts.length : ℝ) * (4 * R * H * R)) * w = 33.6 * areaTol w R H pts * R by unfold areaTol; ring] at mx
  rw [show 8.4 * ((pts.length : ℝ) * (4 * R * H * H)) * w = 33.6 * areaTol w R H pts * H by unfold areaTol; ring] at mz
  have ne' : getArea2dR A D l' ≠ 0 := by
    intro z
    rw [z, zero_sub, abs_neg, abs_of_pos ha] at ae
    norm_num at *
    linarith
  rw [el', el, if_pos ne', hla]
  exact ⟨quotient_err hA u1 h.small t0 hsmall ha r0 wt mx ae, quotient_err hA u1 h.small t0 hsmall ha h0 wt mz ae⟩

/-- C103.  The computed volume is the volume of the ring swept by the enclosed region, `2 π` times area times radius of the
centroid, up to `40 π` units of area times the largest radius plus that of the centroid. -/
theorem C103_volume (hA : StandardModel A u) (hD : AccurateDot D u) (hpi : |pi - Real.pi| ≤ u * Real.pi)
    {pts' pts : List (ℝ × ℝ)} (h : PolygonKnown u w R H pts' pts) (area radius : ℝ)
    (harea : area = |contour (fun x _ => x) pts|) (hradius : radius = contour (fun x _ => x ^ 2) pts / 2 / contour (fun x _ => x) pts)
    (ha : 0 < area) (hsmall : 100 * areaTol w R H pts ≤ area) :
    |surfaceVolumeR A D pi pts' - 2 * Real.pi * area * radius| ≤ 20 * (2 * Real.pi) * areaTol w R H pts * (R + |radius|) := by
  obtain ⟨r0, h0, u1, w0, hc⟩ := known_basics hA h
  have t0 : 0 ≤ areaTol w R H pts := by unfold areaTol; positivity
  have ea : getArea2d pts = area := by rw [C45_area _ hc, harea]
  have ae := area_err hA hD u1 h.small (known_vertexErr h) h.count
  rw [ea] at ae
  have ab := ae.bound
  rw [abs_of_pos ha] at ab
  have ae := ae.err
  have wt : w * area ≤ areaTol w R H pts :=
    (mul_le_mul_of_nonneg_left ab w0).trans (le_of_eq (by unfold areaTol; ring))
  rw [show 5.4 * ((pts.length : ℝ) * (R * H)) * w = 5.4 * areaTol w R H pts by unfold areaTol; ring] at ae
  have c := (C103_centroid hA hD h area harea ha hsmall).1
  rw [← hradius] at c
  exact volume_err hA u1 h.small hpi t0 hsmall ha r0 wt ae c

end
end
end TNS
