import Verif.Props.RoundedFluxPoints
/-
C101: which computed flux surfaces pass the closure test.
-/

set_option autoImplicit false

namespace TNS
open Spec
noncomputable section

section
variable {A : Arith} {F : MathLib} {G : TrigLib} {u v pi : ℝ}

theorem two_pi_within (hA : StandardModel A u) (huv : u ≤ v) (hv : v ≤ 1 / 10 ^ 5) (hpi : |pi - Real.pi| ≤ u * Real.pi) :
    |A.rd (2 * pi) - 2 * Real.pi| ≤ 12.7 * v := by
  have v0 := hA.u_nonneg.trans huv
  have v1 : v ≤ 1 / 1000 := hv.trans (by norm_num)
  have pi0 := Real.pi_pos
  have pi1 := Real.pi_lt_d2
  have h0 : MagErr v 1 Real.pi pi Real.pi :=
    ⟨hpi.trans (by rw [one_mul, mul_comm]; exact mul_le_mul_of_nonneg_left huv pi0.le), by rw [abs_of_pos pi0]⟩
  have h1 := (((MagErr.exact (v := v) (show |(2 : ℝ)| ≤ 2 by norm_num)).mul v0 v1 le_rfl zero_le_one h0).rd hA huv hv
      (by norm_num)).err
  refine h1.trans (mul_le_mul_of_nonneg_right ?_ v0)
  nlinarith

theorem sin_near_zero (hG : AccurateTrig G v) (hv0 : 0 ≤ v) {w e c : ℝ} (k : ℤ) (hc : c = k * (2 * Real.pi))
    (h : |w - c| ≤ e) : |G.sin w| ≤ (1 + v) * e := by
  have s : |Real.sin w| ≤ e := by
    have : Real.sin w = Real.sin (w - c) := by
      rw [hc, Real.sin_sub_int_mul_two_pi]
    rw [this]
    exact (Real.abs_sin_le_abs).trans h
  have := hG.sin w
  have t : |G.sin w| ≤ |Real.sin w| + |G.sin w - Real.sin w| := by
    rw [show G.sin w = Real.sin w + (G.sin w - Real.sin w) by ring]
    refine (abs_add_le _ _).trans ?_
    rw [add_sub_cancel]
  have m : v * |Real.sin w| ≤ v * e := mul_le_mul_of_nonneg_left s hv0
  linarith

theorem cos_near_one (hG : AccurateTrig G v) (hv0 : 0 ≤ v) (hv : v ≤ 1 / 10 ^ 5) {w : ℝ}
    (h : |w - 2 * Real.pi| ≤ 33 * v) : MagErr v 1.01 1 (G.cos w) 1 := by
  refine ⟨?_, by norm_num⟩
  have e : Real.cos w = Real.cos (w - 2 * Real.pi) := (Real.cos_sub_two_pi w).symm
  have c1 := Real.one_sub_sq_div_two_le_cos (x := w - 2 * Real.pi)
  have c2 := Real.cos_le_one (w - 2 * Real.pi)
  have sq : (w - 2 * Real.pi) ^ 2 ≤ (33 * v) ^ 2 := by
    rw [← sq_abs (w - 2 * Real.pi)]
    exact pow_le_pow_left₀ (abs_nonneg _) h 2
  have g := hG.cos w
  have m : v * |Real.cos w| ≤ v * 1 := mul_le_mul_of_nonneg_left (Real.abs_cos_le_one _) hv0
  have k : |Real.cos w - 1| ≤ 0.006 * v := by
    rw [e, abs_le]
    constructor <;> nlinarith
  have := abs_sub_le (G.cos w) (Real.cos w) 1
  linarith

/-- The cosine factor at the two ends of a surface. -/
theorem end_cosines (hA : StandardModel A u) (hG : AccurateTrig G v) (huv : u ≤ v) (hv : v ≤ 1 / 10 ^ 5)
    (hpi : |pi - Real.pi| ≤ u * Real.pi) {delta : ℝ} (hd : |delta| ≤ 1) :
    MagErr v 1.01 1 (G.cos (A.rd (0 + A.rd (delta * G.sin 0)))) 1 ∧
    MagErr v 1.01 1 (G.cos (A.rd (A.rd (2 * pi) + A.rd (delta * G.sin (A.rd (2 * pi)))))) 1 := by
  have v0 := hA.u_nonneg.trans huv
  have s0 : G.sin 0 = 0 := by
    have := hG.sin 0
    rw [Real.sin_zero, abs_zero, mul_zero, sub_zero] at this
    exact abs_eq_zero.1 (le_antisymm this (abs_nonneg _))
  constructor
  · rw [s0, mul_zero, rd_zero' hA, add_zero, rd_zero' hA]
    have := hG.cos 0
    rw [Real.cos_zero, abs_one] at this
    exact ⟨by linarith, by norm_num⟩
  · have h1 := two_pi_within hA huv hv hpi
    set t := A.rd (2 * pi)
    have h2 : |G.sin t| ≤ 12.8 * v := by
      have := sin_near_zero hG v0 (w := t) (c := 2 * Real.pi) 1 (by push_cast; ring) h1
      nlinarith
    have h3 : |delta * G.sin t - 0| ≤ 12.8 * v := by
      rw [sub_zero, abs_mul]
      have := mul_le_mul hd h2 (abs_nonneg _) zero_le_one
      linarith
    have h4 := rd_absv hA huv h3 (show |(0 : ℝ)| ≤ 0 by simp)
    have h5 : |t + A.rd (delta * G.sin t) - 2 * Real.pi| ≤ 25.6 * v := by
      rw [show t + A.rd (delta * G.sin t) - 2 * Real.pi = (t - 2 * Real.pi) + (A.rd (delta * G.sin t) - 0) by ring]
      refine (abs_add_le _ _).trans ?_
      nlinarith
    have h6 := rd_absv hA huv h5 (show |2 * Real.pi| ≤ 6.3 by
      rw [abs_of_pos (by positivity)]; linarith [Real.pi_lt_d2])
    exact cos_near_one hG v0 hv (h6.trans (by nlinarith))

theorem radius_end (hA : StandardModel A u) (huv : u ≤ v) (hv : v ≤ 1 / 10 ^ 5) {r0 m a' a C : ℝ}
    (ha : MagErr v 2.1 m a' a) (hC : MagErr v 1.01 1 C 1) :
    MagErr v 5.2 (|r0| + m) (A.rd (r0 + A.rd (a' * C))) (r0 + a) := by
  have v0 := hA.u_nonneg.trans huv
  have v1 : v ≤ 1 / 1000 := hv.trans (by norm_num)
  have h1 := (ha.mul v0 v1 (by norm_num) (by norm_num) hC).rd hA huv hv (by norm_num)
  have h2 := (((MagErr.exact (v := v) (le_refl |r0|)).err_le (by norm_num) v0).add h1).rd hA huv hv (by norm_num)
  rw [mul_one, mul_one] at h2
  exact h2.err_le (by norm_num) v0

/-- The computed height at an end of a surface: `s` is a computed sine that should be 0. -/
theorem height_end (hA : StandardModel A u) (huv : u ≤ v) (hv : v ≤ 1 / 10 ^ 5) {z0 m ak e s : ℝ} (hm : |ak| ≤ 1.01 * m)
    (he : 0 ≤ e) (hs : |s| ≤ e * v) :
    MagErr v (1.02 * e + 2.1) (|z0| + m) (A.rd (z0 + A.rd (ak * s))) z0 := by
  have v0 := hA.u_nonneg.trans huv
  have m0 : 0 ≤ m := by have := (abs_nonneg _).trans hm; linarith
  have h1 : MagErr v (1.01 * e) m (ak * s) 0 := by
    refine ⟨?_, by simpa using m0⟩
    rw [sub_zero, abs_mul]
    have := mul_le_mul hm hs (abs_nonneg _) (by positivity)
    nlinarith
  have h2 := (((MagErr.exact (v := v) (le_refl |z0|)).err_le (show (0 : ℝ) ≤ 1.001 * (1.01 * e) + 1 by positivity) v0).add
    (h1.rd hA huv hv (by positivity))).rd hA huv hv (by positivity)
  rw [add_zero] at h2
  exact h2.err_le (by nlinarith) v0

/-- Two coordinates that are close pass the closure test. -/
theorem coordinate_closes (hA : StandardModel A u) (huv : u ≤ v) (hv : v ≤ 1 / 10 ^ 5) {x y c E : ℝ} (hc : 0 < c)
    (h : |x - y| ≤ c * v * E) (hE : (c + 0.1) * v * E ≤ closedTol) (hE0 : 0 ≤ E) (hc1 : c ≤ 60) :
    |A.rd (x - y)| ≤ A.rd closedTol := by
  have u0 := hA.u_nonneg
  have v0 := u0.trans huv
  have t0 : (0 : ℝ) < closedTol := by unfold closedTol; positivity
  have r1 := rd_absv hA huv (show |(x - y) - 0| ≤ c * v * E by rw [sub_zero]; exact h) (show |(0 : ℝ)| ≤ 0 by simp)
  have r2 := hA.rel (closedTol : ℝ)
  rw [abs_of_pos t0] at r2
  have r3 := (abs_le.1 r2).1
  have r4 : u * (closedTol : ℝ) ≤ v * closedTol := mul_le_mul_of_nonneg_right huv t0.le
  rw [sub_zero] at r1
  have k : 0 ≤ v * E := by positivity
  have k2 : v * (c * v * E) ≤ 1 / 10 ^ 5 * (60 * (v * E)) := by
    rw [show v * (c * v * E) = v * (c * (v * E)) by ring]
    exact mul_le_mul hv (mul_le_mul_of_nonneg_right hc1 k) (by positivity) (by positivity)
  have k3 : v * closedTol ≤ 1 / 10 ^ 5 * (closedTol : ℝ) := mul_le_mul_of_nonneg_right hv t0.le
  by_cases hbig : 60 * (v * E) ≤ closedTol
  · nlinarith
  · nlinarith

theorem closes_of_ends {pts : List (ℝ × ℝ)} {a b : ℝ × ℝ} (ha : pts.head? = some a) (hb : pts.getLast? = some b)
    (h1 : |A.rd (a.1 - b.1)| ≤ A.rd closedTol) (h2 : |A.rd (a.2 - b.2)| ≤ A.rd closedTol) : makeClosedR A pts = .ok pts := by
  unfold makeClosedR isClosedR
  rw [ha, hb]
  simp [h1, h2, Bind.bind, Except.bind]

theorem anglesR_ends {n : ℕ} (hn : 2 ≤ n) :
    (anglesR A pi n).head? = some 0 ∧ (anglesR A pi n).getLast? = some (A.rd (2 * pi)) := by
  obtain ⟨m, rfl⟩ : ∃ m, n = m + 2 := ⟨n - 2, by omega⟩
  unfold anglesR
  constructor
  · rw [List.head?_map, List.head?_range]; simp [angleR]
  · rw [List.getLast?_map, List.getLast?_range]; simp [angleR]

/-- C101.  Fausser surfaces close: every accepted parameter set, flux label and number of points, as long as the surface is
small enough for the absolute tolerance of `1e-12` (in double precision, a size of 125 m). -/
theorem C101_closes_fausser (hA : StandardModel A u) (hG : AccurateTrig G v) (huv : u ≤ v) (hv : v ≤ 1 / 10 ^ 5)
    (hpi : |pi - Real.pi| ≤ u * Real.pi) {r0 z0 aspect kappa delta shift sq : ℝ} {l : LCFSInfo ℝ}
    (hl : LCFSInfo.make r0 z0 aspect kappa delta shift sq = .ok l) (psi : ℝ) {n : ℕ} (hn : 2 ≤ n)
    (hE : 18 * v * extent l psi ≤ 1 / 10 ^ 12) :
    ∃ pts, fluxSurfaceR A G pi .fausser { l with minor := A.rd (r0 / aspect) } psi n = .ok pts ∧ pts.length = n := by
  have v0 := hA.u_nonneg.trans huv
  have v1 : v ≤ 1 / 1000 := hv.trans (by norm_num)
  obtain ⟨h1, h2, h3, h4, h5⟩ := (C39_accepted r0 z0 aspect kappa delta shift sq).1 ⟨l, hl⟩
  obtain ⟨⟨e1, e2, e3, e4, e5, e6, e7⟩, em, -, -, hs, -⟩ := C39_stored r0 z0 aspect kappa delta shift sq l hl
  have hd : |l.delta| ≤ 1 := by rw [e5]; exact h4
  have hk : 1 ≤ l.kappa := by rw [e4]; exact h3
  obtain ⟨b1, b2, b3, b4⟩ := extent_bounds (l := l) (by rw [e1]; exact h1) (by rw [e3]; exact h2) hk hs psi
  set l' : LCFSInfo ℝ := { l with minor := A.rd (r0 / aspect) } with hl'
  obtain ⟨a1, a2⟩ := anglesR_ends (A := A) (pi := pi) hn
  obtain ⟨ha, -⟩ := minor_within hA huv hv psi l.r0 l.aspect
  obtain ⟨c1, c2⟩ := end_cosines hA hG huv hv hpi hd
  set m := |psi * (l.r0 / l.aspect)| with hm
  have m0 : 0 ≤ m := abs_nonneg _
  have s0 : G.sin 0 = 0 := by
    have := hG.sin 0
    rw [Real.sin_zero, abs_zero, mul_zero, sub_zero] at this
    exact abs_eq_zero.1 (le_antisymm this (abs_nonneg _))
  have hsn : |G.sin (A.rd (2 * pi))| ≤ 12.8 * v := by
    have := sin_near_zero hG v0 (c := 2 * Real.pi) 1 (by push_cast; ring) (two_pi_within hA huv hv hpi)
    nlinarith
  have E0 : 0 ≤ extent l psi := by
    have : 0 ≤ |l.z0| + m * |l.kappa| := by positivity
    exact this.trans b4
  have rad : ∀ al, MagErr v 1.01 1 (G.cos (A.rd (al + A.rd (l.delta * G.sin al)))) 1 →
      MagErr v 6.3 (|l.r0| + m + |l.shift| * (1 + psi ^ 2)) (fausserPointR A G l' psi al).1
        (l.r0 + psi * (l.r0 / l.aspect) + |l.shift| * (1 - psi ^ 2)) := by
    intro al hc
    have k1 := radius_end hA huv hv (r0 := l.r0) ha hc
    exact ((k1.add ((shift_within hA huv hv l.shift psi).err_le (by norm_num) v0)).rd hA huv hv (by norm_num)).err_le
      (by norm_num) v0
  have ak : |A.rd (A.rd (A.rd (psi * l.r0) / l.aspect) * l.kappa)| ≤ 1.01 * (m * |l.kappa|) := by
    have k := (ha.mul v0 v1 (by norm_num) le_rfl (MagErr.exact (le_refl |l.kappa|))).rd hA huv hv (by norm_num)
    have k1 := k.err
    have k2 := k.bound
    have p0 : 0 ≤ m * |l.kappa| := by positivity
    set w := A.rd (A.rd (A.rd (psi * l.r0) / l.aspect) * l.kappa)
    have : |w| ≤ |psi * (l.r0 / l.aspect) * l.kappa| + |w - psi * (l.r0 / l.aspect) * l.kappa| := by
      have := abs_add_le (psi * (l.r0 / l.aspect) * l.kappa) (w - psi * (l.r0 / l.aspect) * l.kappa)
      rwa [add_sub_cancel] at this
    norm_num at k1
    nlinarith
  have t1 := rad 0 c1
  have t2 := rad _ c2
  have z1 := height_end hA huv hv (z0 := l.z0) ak (e := 0) le_rfl (s := G.sin 0) (by rw [s0]; simp)
  have z2 := height_end hA huv hv (z0 := l.z0) ak (e := 12.8) (by norm_num) hsn
  have dist : ∀ {e f M x y z : ℝ}, MagErr v e M x z → MagErr v f M y z → M ≤ extent l psi → 0 ≤ e + f → e + f ≤ 18 - 0.1 →
      |x - y| ≤ (18 - 0.1) * v * extent l psi := by
    intro e f M x y z hx hy hM hef0 hef
    have := abs_sub_le x z y
    rw [abs_sub_comm z y] at this
    have k1 : (e + f) * M ≤ (18 - 0.1) * extent l psi :=
      mul_le_mul hef hM hx.nonneg (by norm_num)
    have k2 := mul_le_mul_of_nonneg_right k1 v0
    have k3 := hx.err
    have k4 := hy.err
    nlinarith
  have hE' : (18 - 0.1 + 0.1) * v * extent l psi ≤ closedTol := by
    unfold closedTol; norm_num at hE ⊢; linarith
  refine ⟨_, closes_of_ends (a := fausserPointR A G l' psi 0) (b := fausserPointR A G l' psi (A.rd (2 * pi)))
    (by rw [List.head?_map, a1]; rfl) (by rw [List.getLast?_map, a2]; rfl) ?_ ?_, by simp [anglesR]⟩
  · exact coordinate_closes hA huv hv (by norm_num) (dist t1 t2 b1 (by norm_num) (by norm_num)) hE' E0 (by norm_num)
  · exact coordinate_closes hA huv hv (by norm_num) (dist z1 z2 b4 (by norm_num) (by norm_num)) hE' E0 (by norm_num)

theorem sin_zero_lib (hG : AccurateTrig G v) : G.sin 0 = 0 := by
  have := hG.sin 0
  rw [Real.sin_zero, abs_zero, mul_zero, sub_zero] at this
  exact abs_eq_zero.1 (le_antisymm this (abs_nonneg _))

/-- The computed `squareness * sin(2 α)` at the end of the surface. -/
theorem sauter_sine (hA : StandardModel A u) (hG : AccurateTrig G v) (huv : u ≤ v) (hv : v ≤ 1 / 10 ^ 5)
    {t : ℝ} (ht1 : |t - 2 * Real.pi| ≤ 12.7 * v) (q : ℝ) :
    MagErr v 38.3 |q| (A.rd (q * G.sin (A.rd (2 * t)))) 0 := by
  have v0 := hA.u_nonneg.trans huv
  have pi1 := Real.pi_lt_d2
  have pi0 := Real.pi_pos
  have q1 : |A.rd (2 * t) - 4 * Real.pi| ≤ 38.1 * v := by
    have := rd_absv hA huv (show |2 * t - 4 * Real.pi| ≤ 25.4 * v by
      rw [show 2 * t - 4 * Real.pi = 2 * (t - 2 * Real.pi) by ring, abs_mul, abs_of_pos (by norm_num : (0 : ℝ) < 2)]
      linarith) (show |4 * Real.pi| ≤ 12.6 by rw [abs_of_pos (by positivity)]; linarith)
    nlinarith
  have q2 : |G.sin (A.rd (2 * t))| ≤ 38.2 * v := by
    have := sin_near_zero hG v0 (c := 4 * Real.pi) 2 (by push_cast; ring) q1
    nlinarith
  have h : |q * G.sin (A.rd (2 * t)) - 0| ≤ 38.2 * |q| * v := by
    rw [sub_zero, abs_mul]
    have := mul_le_mul_of_nonneg_left q2 (abs_nonneg q)
    linarith
  have := rd_absv hA huv h (show |(0 : ℝ)| ≤ 0 by simp)
  refine ⟨this.trans ?_, by simp⟩
  have : 0 ≤ |q| * v := by positivity
  nlinarith

/-- The computed `sin(α + squareness * sin(2 α))` at the end of the surface. -/
theorem sauter_height_sine (hA : StandardModel A u) (hG : AccurateTrig G v) (huv : u ≤ v) (hv : v ≤ 1 / 10 ^ 5)
    {t : ℝ} (ht1 : |t - 2 * Real.pi| ≤ 12.7 * v) (q : ℝ) :
    |G.sin (A.rd (t + A.rd (q * G.sin (A.rd (2 * t)))))| ≤ 38.6 * (1 + |q|) * v := by
  have v0 := hA.u_nonneg.trans huv
  have pi1 := Real.pi_lt_d2
  have pi0 := Real.pi_pos
  have q3 := sauter_sine hA hG huv hv ht1 q
  set S := |q|
  have S0 : 0 ≤ S := abs_nonneg _
  have g1 : |t + A.rd (q * G.sin (A.rd (2 * t))) - 2 * Real.pi| ≤ (12.7 + 38.3 * S) * v := by
    rw [show t + A.rd (q * G.sin (A.rd (2 * t))) - 2 * Real.pi =
      (t - 2 * Real.pi) + (A.rd (q * G.sin (A.rd (2 * t))) - 0) by ring]
    refine (abs_add_le _ _).trans ?_
    linarith [q3.err]
  have g2 := rd_absv hA huv g1 (show |2 * Real.pi| ≤ 6.3 by rw [abs_of_pos (by positivity)]; linarith)
  have g3 := sin_near_zero hG v0 (c := 2 * Real.pi) 1 (by push_cast; ring) g2
  have k0 : 0 ≤ S * v := by positivity
  have k1 : v * ((12.7 + 38.3 * S) * v) ≤ 1 / 10 ^ 5 * ((12.7 + 38.3 * S) * v) := mul_le_mul_of_nonneg_right hv (by positivity)
  have k2 : (1 + v) * ((12.7 + 38.3 * S) * v) + v * 6.3 ≤ 19.1 * v + 38.31 * (S * v) := by nlinarith
  have k3 : (1 + v) * ((1 + v) * ((12.7 + 38.3 * S) * v) + v * 6.3) ≤ (1 + 1 / 10 ^ 5) * (19.1 * v + 38.31 * (S * v)) :=
    mul_le_mul (by linarith) k2 (by positivity) (by norm_num)
  refine g3.trans (k3.trans ?_)
  nlinarith

theorem sauter_amplitude (hA : StandardModel A u) (huv : u ≤ v) (hv : v ≤ 1 / 10 ^ 5) {k m a' a : ℝ}
    (ha : MagErr v 2.1 m a' a) : |A.rd (k * a')| ≤ 1.01 * (m * |k|) := by
  have v0 := hA.u_nonneg.trans huv
  have v1 : v ≤ 1 / 1000 := hv.trans (by norm_num)
  have h := ((MagErr.exact (v := v) (le_refl |k|)).mul v0 v1 le_rfl (by norm_num) ha).rd hA huv hv (by norm_num)
  have k1 := h.err
  have k2 := h.bound
  have m0 := ha.nonneg
  have p0 : 0 ≤ m * |k| := by positivity
  have : |A.rd (k * a')| ≤ |k * a| + |A.rd (k * a') - k * a| := by
    have := abs_add_le (k * a) (A.rd (k * a') - k * a)
    rwa [add_sub_cancel] at this
  norm_num at k1
  nlinarith

/-- The computed height at the end of a Sauter surface. -/
theorem sauter_height_end (hA : StandardModel A u) (huv : u ≤ v) (hv : v ≤ 1 / 10 ^ 5) {z0 m S w s : ℝ} (m0 : 0 ≤ m)
    (S0 : 0 ≤ S) (ak : |w| ≤ 1.01 * m) (hsn : |s| ≤ 38.6 * (1 + S) * v) :
    MagErr v 42 (|z0| + m * (1 + S)) (A.rd (z0 + A.rd (w * s))) z0 := by
  have v0 := hA.u_nonneg.trans huv
  have h1 : MagErr v 39 (m * (1 + S)) (w * s) 0 := by
    refine ⟨?_, by rw [abs_zero]; positivity⟩
    rw [sub_zero, abs_mul]
    have := mul_le_mul ak hsn (abs_nonneg _) (by positivity)
    have k0 : 0 ≤ m * (1 + S) * v := by positivity
    nlinarith
  have h2 := (((MagErr.exact (v := v) (le_refl |z0|)).err_le (show (0 : ℝ) ≤ 1.001 * 39 + 1 by norm_num) v0).add
    (h1.rd hA huv hv (by norm_num))).rd hA huv hv (by norm_num)
  rw [add_zero] at h2
  exact h2.err_le (by norm_num) v0

/-- C101.  Sauter surfaces close in the same way (in double precision, up to a size of 45 m). -/
theorem C101_closes_sauter (hA : StandardModel A u) (hG : AccurateTrig G v) (huv : u ≤ v) (hv : v ≤ 1 / 10 ^ 5)
    (hpi : |pi - Real.pi| ≤ u * Real.pi) {r0 z0 aspect kappa delta shift sq : ℝ} {l : LCFSInfo ℝ}
    (hl : LCFSInfo.make r0 z0 aspect kappa delta shift sq = .ok l) (psi : ℝ) {n : ℕ} (hn : 2 ≤ n)
    (hE : 50 * v * extent l psi ≤ 1 / 10 ^ 12) :
    ∃ pts, fluxSurfaceR A G pi .sauter { l with minor := A.rd (r0 / aspect) } psi n = .ok pts ∧ pts.length = n := by
  have v0 := hA.u_nonneg.trans huv
  have v1 : v ≤ 1 / 1000 := hv.trans (by norm_num)
  obtain ⟨h1, h2, h3, h4, h5⟩ := (C39_accepted r0 z0 aspect kappa delta shift sq).1 ⟨l, hl⟩
  obtain ⟨⟨e1, e2, e3, e4, e5, e6, e7⟩, em, -, -, hs, -⟩ := C39_stored r0 z0 aspect kappa delta shift sq l hl
  have hd : |l.delta| ≤ 1 := by rw [e5]; exact h4
  have hk : 1 ≤ l.kappa := by rw [e4]; exact h3
  obtain ⟨b1, b2, b3, b4⟩ := extent_bounds (l := l) (by rw [e1]; exact h1) (by rw [e3]; exact h2) hk hs psi
  set l' : LCFSInfo ℝ := { l with minor := A.rd (r0 / aspect) } with hl'
  obtain ⟨a1, a2⟩ := anglesR_ends (A := A) (pi := pi) hn
  obtain ⟨-, ha⟩ := minor_within hA huv hv psi l.r0 l.aspect
  obtain ⟨c1, c2⟩ := end_cosines hA hG huv hv hpi hd
  have hminor : l'.minor = A.rd (l.r0 / l.aspect) := by rw [e1, e3]
  set m := |psi * (l.r0 / l.aspect)| with hm
  have m0 : 0 ≤ m := abs_nonneg _
  set S := |l.squareness| with hS
  have S0 : 0 ≤ S := abs_nonneg _
  have s0 := sin_zero_lib hG
  set t := A.rd (2 * pi) with ht
  have ht1 : |t - 2 * Real.pi| ≤ 12.7 * v := two_pi_within hA huv hv hpi
  have q3 := sauter_sine hA hG huv hv ht1 l.squareness
  have E0 : 0 ≤ extent l psi := by
    have : 0 ≤ |l.z0| + m * |l.kappa| := by positivity
    exact this.trans b4
  have rad : ∀ al, MagErr v 1.01 1 (G.cos (A.rd (al + A.rd (l.delta * G.sin al)))) 1 →
      ∀ f, 5.2 ≤ f → MagErr v f S (A.rd (l.squareness * G.sin (A.rd (2 * al)))) 0 →
      MagErr v (1.001 * f + 1) (|l.r0| + m + S) (sauterPointR A G l' psi al).1 (l.r0 + psi * (l.r0 / l.aspect)) := by
    intro al hc f hf hq
    have k1 := radius_end hA huv hv (r0 := l.r0) ha hc
    have k2 := (((k1.err_le hf v0).sub hq).rd hA huv hv (by linarith))
    rw [sub_zero] at k2
    unfold sauterPointR
    simp only [hminor]
    exact k2
  have t1 := rad 0 c1 5.2 le_rfl (by
    rw [mul_zero, rd_zero' hA, s0, mul_zero, rd_zero' hA]
    exact ⟨by rw [sub_zero, abs_zero]; positivity, by simpa using S0⟩)
  have t2 := rad _ c2 38.3 (by norm_num) q3
  have ak : |A.rd (l.kappa * A.rd (psi * A.rd (l.r0 / l.aspect)))| ≤ 1.01 * (m * |l.kappa|) :=
    sauter_amplitude hA huv hv ha
  have ak' : |A.rd (l.kappa * A.rd (psi * A.rd (l.r0 / l.aspect)))| ≤ 1.01 * (m * |l.kappa| * (1 + S)) := by
    refine ak.trans ?_
    have p0 : 0 ≤ m * |l.kappa| := by positivity
    nlinarith [mul_nonneg p0 S0]
  have hs0 : |G.sin (A.rd (0 + A.rd (l.squareness * G.sin (A.rd (2 * 0)))))| ≤ 0 * v := by
    rw [mul_zero, rd_zero' hA, s0, mul_zero, rd_zero' hA, add_zero, rd_zero' hA, s0]; simp
  have hsn := sauter_height_sine hA hG huv hv ht1 l.squareness
  have z1 : |(sauterPointR A G l' psi 0).2 - l.z0| ≤ 2.1 * extent l psi * v := by
    have k := height_end hA huv hv (z0 := l.z0) ak' (e := 0) le_rfl hs0
    have := (k.weaken (f := 2.1) (by norm_num) b3 (by norm_num) v0).err
    unfold sauterPointR
    simp only [hminor]
    exact this
  have z2 : |(sauterPointR A G l' psi t).2 - l.z0| ≤ 42 * extent l psi * v := by
    have k := sauter_height_end hA huv hv (z0 := l.z0) (m := m * |l.kappa|) (by positivity) S0 ak hsn
    unfold sauterPointR
    simp only [hminor]
    exact (k.weaken (f := 42) le_rfl b3 (by norm_num) v0).err
  have hE' : (49.9 + 0.1) * v * extent l psi ≤ closedTol := by
    unfold closedTol; norm_num at hE ⊢; linarith
  refine ⟨_, closes_of_ends (a := sauterPointR A G l' psi 0) (b := sauterPointR A G l' psi t)
    (by rw [List.head?_map, a1]; rfl) (by rw [List.getLast?_map, a2]; rfl) ?_ ?_, by simp [anglesR]⟩
  · refine coordinate_closes hA huv hv (c := 49.9) (by norm_num) ?_ hE' E0 (by norm_num)
    have w1 := (t1.weaken (f := 6.3) (by norm_num) b2 (by norm_num) v0).err
    have w2 := (t2.weaken (f := 39.4) (by norm_num) b2 (by norm_num) v0).err
    have := abs_sub_le (sauterPointR A G l' psi 0).1 (l.r0 + psi * (l.r0 / l.aspect)) (sauterPointR A G l' psi t).1
    rw [abs_sub_comm (l.r0 + psi * (l.r0 / l.aspect))] at this
    have k0 : 0 ≤ extent l psi * v := by positivity
    linarith
  · refine coordinate_closes hA huv hv (c := 49.9) (by norm_num) ?_ hE' E0 (by norm_num)
    have := abs_sub_le (sauterPointR A G l' psi 0).2 l.z0 (sauterPointR A G l' psi t).2
    rw [abs_sub_comm l.z0] at this
    have k0 : 0 ≤ extent l psi * v := by positivity
    linarith

end
end
end TNS
