import Verif.Lemmas.PolyBound
import Verif.Lemmas.FixedPoint
import Verif.Lemmas.NodeSums
import Verif.Data.BhNodes
import Mathlib.Analysis.SpecialFunctions.Log.Deriv
import Mathlib.Analysis.SpecialFunctions.ExpDeriv
import Mathlib.Analysis.Convex.Deriv
import Mathlib.Analysis.SpecialFunctions.Pow.Real
/-
The Bosch-Hale formula as a function of `β = 1/T`: the reactivity is a constant times
`β^(3/2) / (χ^(5/2) exp(3 χ))` with `χ^3 = A U(β) / V(β)`.  The logarithm of the denominator is concave;
bounds at the nodes.
-/

set_option autoImplicit false
set_option maxRecDepth 100000

namespace TNS
open Set

/-- Coefficients of `χ^3`. -/
structure KCoef where
  aN : ℕ
  aD : ℕ
  U : List ℤ
  V : List ℤ

namespace KCoef

def toQ (l : List ℤ) : List ℚ := l.map (fun z : ℤ => (z : ℚ))

noncomputable def u (b : KCoef) (β : ℝ) : ℝ := peval (toQ b.U) β
noncomputable def v (b : KCoef) (β : ℝ) : ℝ := peval (toQ b.V) β

/-- The logarithm of `χ`. -/
noncomputable def logChi (b : KCoef) (β : ℝ) : ℝ :=
  (Real.log ((b.aN : ℝ) / b.aD) + Real.log (b.u β) - Real.log (b.v β)) / 3

noncomputable def chi (b : KCoef) (β : ℝ) : ℝ := Real.exp (b.logChi β)

/-- `χ^(5/2) exp(3 χ)`. -/
noncomputable def G (b : KCoef) (β : ℝ) : ℝ := Real.exp (5 / 2 * b.logChi β + 3 * b.chi β)

/-- Numerator and denominator of the logarithmic derivative of `U / V`. -/
def W (b : KCoef) : List ℚ :=
  padd (pmul (pderiv (toQ b.U)) (toQ b.V)) (pscale (-1) (pmul (toQ b.U) (pderiv (toQ b.V))))
def Z (b : KCoef) : List ℚ := pmul (toQ b.U) (toQ b.V)

/-- `-(W² + 3 (W' Z - W Z'))`. -/
def X (b : KCoef) : List ℚ :=
  pscale (-1) (padd (pmul b.W b.W)
    (pscale 3 (padd (pmul (pderiv b.W) b.Z) (pscale (-1) (pmul b.W (pderiv b.Z))))))

/-- What is checked on the interval `[p, q]`. -/
def check (b : KCoef) (p q : ℚ) : Bool :=
  ppos (toQ b.U) p q && ppos (toQ b.V) p q && ppos b.X p q

theorem hasDerivAt_logChi (b : KCoef) (β : ℝ) (hu : 0 < b.u β) (hv : 0 < b.v β) :
    HasDerivAt b.logChi (peval b.W β / (3 * peval b.Z β)) β := by
  have h1 := (hasDerivAt_peval (toQ b.U) β).log hu.ne'
  have h2 := (hasDerivAt_peval (toQ b.V) β).log hv.ne'
  have h := ((h1.const_add (Real.log ((b.aN : ℝ) / b.aD))).sub h2).div_const 3
  refine h.congr_deriv ?_
  unfold u at hu
  unfold v at hv
  simp only [W, Z, peval_padd, peval_pmul, peval_pscale]
  push_cast
  field_simp
  ring

theorem log_G (b : KCoef) (β : ℝ) : Real.log (b.G β) = 5 / 2 * b.logChi β + 3 * b.chi β := by
  unfold G; rw [Real.log_exp]

theorem concaveOn_log_G (b : KCoef) (p q : ℚ) (h : b.check p q = true) :
    ConcaveOn ℝ (Icc (p : ℝ) q) (fun β => Real.log (b.G β)) := by
  simp only [check, Bool.and_eq_true] at h
  obtain ⟨⟨hU, hV⟩, hX⟩ := h
  have hu : ∀ β ∈ Icc (p : ℝ) q, 0 < b.u β := fun β hβ => ppos_sound hU β hβ.1 hβ.2
  have hv : ∀ β ∈ Icc (p : ℝ) q, 0 < b.v β := fun β hβ => ppos_sound hV β hβ.1 hβ.2
  have hx : ∀ β ∈ Icc (p : ℝ) q, 0 < peval b.X β := fun β hβ => ppos_sound hX β hβ.1 hβ.2
  have hz : ∀ β ∈ Icc (p : ℝ) q, 0 < peval b.Z β := by
    intro β hβ
    unfold Z
    rw [peval_pmul]
    exact mul_pos (hu β hβ) (hv β hβ)
  have hl := fun β hβ => b.hasDerivAt_logChi β (hu β hβ) (hv β hβ)
  have hchi : ∀ β ∈ Icc (p : ℝ) q, HasDerivAt b.chi (b.chi β * (peval b.W β / (3 * peval b.Z β))) β :=
    fun β hβ => (hl β hβ).exp
  have hd : ∀ β ∈ Icc (p : ℝ) q, HasDerivAt (fun β => Real.log (b.G β))
      ((5 / 2 + 3 * b.chi β) * (peval b.W β / (3 * peval b.Z β))) β := by
    intro β hβ
    have := ((hl β hβ).const_mul (5 / 2)).add ((hchi β hβ).const_mul 3)
    have e : (fun β => Real.log (b.G β)) = fun β => 5 / 2 * b.logChi β + 3 * b.chi β :=
      funext b.log_G
    rw [e]
    refine this.congr_deriv ?_
    ring
  have hd2 : ∀ β ∈ Icc (p : ℝ) q, HasDerivAt
      (fun β => (5 / 2 + 3 * b.chi β) * (peval b.W β / (3 * peval b.Z β)))
      (3 * (b.chi β * (peval b.W β / (3 * peval b.Z β))) * (peval b.W β / (3 * peval b.Z β)) +
        (5 / 2 + 3 * b.chi β) * ((peval (pderiv b.W) β * (3 * peval b.Z β) -
          peval b.W β * (3 * peval (pderiv b.Z) β)) / (3 * peval b.Z β) ^ 2)) β := by
    intro β hβ
    have h3 : (3 * peval b.Z β) ≠ 0 := (mul_pos (by norm_num) (hz β hβ)).ne'
    exact (((hchi β hβ).const_mul 3).const_add (5 / 2)).mul
      ((hasDerivAt_peval b.W β).div ((hasDerivAt_peval b.Z β).const_mul 3) h3)
  refine concaveOn_of_hasDerivWithinAt2_nonpos (convex_Icc _ _)
    (fun β hβ => (hd β hβ).continuousAt.continuousWithinAt)
    (fun β hβ => (hd β (interior_subset hβ)).hasDerivWithinAt)
    (fun β hβ => (hd2 β (interior_subset hβ)).hasDerivWithinAt) ?_
  intro β hβ
  have hβ := interior_subset hβ
  have hX := hx β hβ
  have hZ := hz β hβ
  have hc : 0 < b.chi β := Real.exp_pos _
  simp only [X, peval_pscale, peval_padd, peval_pmul] at hX
  push_cast at hX
  generalize peval b.W β = w at *
  generalize peval (pderiv b.W) β = w' at *
  generalize peval b.Z β = z at *
  generalize peval (pderiv b.Z) β = z' at *
  generalize b.chi β = c at *
  have e : 3 * (c * (w / (3 * z))) * (w / (3 * z)) +
      (5 / 2 + 3 * c) * ((w' * (3 * z) - w * (3 * z')) / (3 * z) ^ 2) =
      (3 * c * (w * w + 3 * (w' * z + -1 * (w * z'))) + 5 / 2 * (3 * (w' * z + -1 * (w * z')))) /
        (9 * z ^ 2) := by
    field_simp
    ring
  rw [e]
  refine div_nonpos_of_nonpos_of_nonneg ?_ (by positivity)
  nlinarith [mul_self_nonneg w]

/-! ## Nodes -/

/-- `l` at `n / d`, times a power of `d`. -/
def hev (n d : ℤ) : List ℤ → ℤ
  | [] => 0
  | c :: l => c * d ^ (l.length + 1) + n * hev n d l

theorem hev_eq (n d : ℤ) (hd : (d : ℝ) ≠ 0) (l : List ℤ) :
    (hev n d l : ℝ) = peval (toQ l) ((n : ℝ) / d) * (d : ℝ) ^ l.length := by
  induction l with
  | nil => simp [hev, toQ]
  | cons c l ih =>
    simp only [hev, toQ, List.map_cons, peval_cons, List.length_cons]
    push_cast
    rw [ih]
    unfold toQ
    field_simp
    ring

/-- The certificate of a node: `y` encloses `√χ`, and `gl`, `gh` enclose `G`. -/
noncomputable def nodeOk (P K : ℕ) (b : KCoef) (n y gl gh : ℕ) : Bool :=
  force y (fun y => decide ((y : ℤ) ^ 6 * (b.aD * 6400 * hev n 6400 b.V) ≤ 10 ^ 72 * b.aN * hev n 6400 b.U) &&
    decide (10 ^ 72 * b.aN * hev n 6400 b.U ≤ ((y : ℤ) + 1) ^ 6 * (b.aD * 6400 * hev n 6400 b.V)) &&
    decide (3 * (y + 1) ^ 2 ≤ 64 * 10 ^ 24) &&
    force (expChain P 106 (3 * y ^ 2) (10 ^ 24)) (fun e1 =>
      decide (gl * ((e1 + K) * 10 ^ 48) ≤ y ^ 5 * P)) &&
    force (expChain P 106 (3 * (y + 1) ^ 2) (10 ^ 24)) (fun e2 =>
      decide (0 < e2) && decide ((y + 1) ^ 5 * P ≤ gh * (e2 * 10 ^ 48))))

theorem chi_cube (b : KCoef) (β : ℝ) (hN : 0 < b.aN) (hD : 0 < b.aD) (hu : 0 < b.u β)
    (hv : 0 < b.v β) : b.chi β ^ 3 = (b.aN : ℝ) / b.aD * b.u β / b.v β := by
  unfold chi logChi
  rw [← Real.exp_nat_mul]
  have hN' : (0 : ℝ) < b.aN := by exact_mod_cast hN
  have hD' : (0 : ℝ) < b.aD := by exact_mod_cast hD
  have e : ((3 : ℕ) : ℝ) * ((Real.log ((b.aN : ℝ) / b.aD) + Real.log (b.u β) - Real.log (b.v β)) / 3) =
      Real.log ((b.aN : ℝ) / b.aD) + Real.log (b.u β) - Real.log (b.v β) := by push_cast; ring
  rw [e, Real.exp_sub, Real.exp_add, Real.exp_log (by positivity), Real.exp_log hu, Real.exp_log hv]

theorem G_eq (b : KCoef) (β : ℝ) :
    b.G β = Real.sqrt (b.chi β) ^ 5 * Real.exp (3 * b.chi β) := by
  have hs : Real.sqrt (b.chi β) = Real.exp (b.logChi β / 2) := by
    unfold chi
    rw [Real.exp_half]
  rw [hs, ← Real.exp_nat_mul, ← Real.exp_add]
  unfold G
  congr 1
  push_cast; ring

theorem expChain_106 (a : ℕ) (h : a ≤ 64 * 10 ^ 24) :
    Apx (2 ^ 200) (expChain (2 ^ 200) 106 a (10 ^ 24)) (2 ^ 106 * 3)
      (Real.exp (-((a : ℝ) / ((10 ^ 24 : ℕ) : ℝ)))) := by
  apply expChain_apx
  · positivity
  · positivity
  · exact lt_of_le_of_lt h (by norm_num)
  · have : 2 ^ 200 * a / (10 ^ 24 * 2 ^ 106) ≤ 2 ^ 200 * (64 * 10 ^ 24) / (10 ^ 24 * 2 ^ 106) :=
      Nat.div_le_div_right (Nat.mul_le_mul_left _ h)
    exact (Nat.add_le_add_right this 1).trans (by norm_num)
  · have : a ^ 2 ≤ (64 * 10 ^ 24) ^ 2 := Nat.pow_le_pow_left h 2
    exact (Nat.mul_le_mul_left _ this).trans (by norm_num)

theorem nodeOk_sound (b : KCoef) (hN : 0 < b.aN) (hD : 0 < b.aD)
    (hlen : b.U.length = b.V.length + 1) (n y gl gh : ℕ)
    (hu : 0 < b.u ((n : ℝ) / 6400)) (hv : 0 < b.v ((n : ℝ) / 6400))
    (h : nodeOk (2 ^ 200) (2 ^ 106 * 3) b n y gl gh = true) :
    (gl : ℝ) ≤ 10 ^ 12 * b.G ((n : ℝ) / 6400) ∧ 10 ^ 12 * b.G ((n : ℝ) / 6400) ≤ gh := by
  simp only [nodeOk, force_eq, Bool.and_eq_true, decide_eq_true_eq] at h
  obtain ⟨⟨⟨⟨h1, h2⟩, h3⟩, h4⟩, h5, h6⟩ := h
  set β : ℝ := (n : ℝ) / 6400 with hβ
  have hN' : (0 : ℝ) < b.aN := by exact_mod_cast hN
  have hD' : (0 : ℝ) < b.aD := by exact_mod_cast hD
  have hc : 0 < b.chi β := Real.exp_pos _
  have e1 : ((hev n 6400 b.U : ℤ) : ℝ) = b.u β * 6400 ^ b.U.length := by
    have := hev_eq n 6400 (by norm_num) b.U
    rw [this]; unfold u; rw [hβ]; push_cast; rfl
  have e2 : ((hev n 6400 b.V : ℤ) : ℝ) = b.v β * 6400 ^ b.V.length := by
    have := hev_eq n 6400 (by norm_num) b.V
    rw [this]; unfold v; rw [hβ]; push_cast; rfl
  have h1' : (y : ℝ) ^ 6 * (b.aD * 6400 * (b.v β * 6400 ^ b.V.length)) ≤
      10 ^ 72 * b.aN * (b.u β * 6400 ^ b.U.length) := by
    rw [← e1, ← e2]
    have := (Int.cast_le (R := ℝ)).2 h1
    simpa only [Int.cast_mul, Int.cast_pow, Int.cast_natCast, Int.cast_ofNat] using this
  have h2' : 10 ^ 72 * b.aN * (b.u β * 6400 ^ b.U.length) ≤
      ((y : ℝ) + 1) ^ 6 * (b.aD * 6400 * (b.v β * 6400 ^ b.V.length)) := by
    rw [← e1, ← e2]
    have := (Int.cast_le (R := ℝ)).2 h2
    simpa only [Int.cast_mul, Int.cast_pow, Int.cast_natCast, Int.cast_ofNat, Int.cast_add,
      Int.cast_one] using this
  rw [hlen, pow_succ] at h1' h2'
  have hcube := b.chi_cube β hN hD hu hv
  set s := Real.sqrt (b.chi β) with hs
  have hs0 : 0 ≤ s := Real.sqrt_nonneg _
  have hss : s ^ 2 = b.chi β := Real.sq_sqrt hc.le
  have hs6 : s ^ 6 = (b.aN : ℝ) / b.aD * b.u β / b.v β := by
    rw [← hcube, ← hss]; ring
  have hq : (0 : ℝ) < b.aD * 6400 * (b.v β * 6400 ^ b.V.length) := by positivity
  have k1 : (y : ℝ) ^ 6 ≤ (10 ^ 12 * s) ^ 6 := by
    refine le_of_mul_le_mul_right (h1'.trans (le_of_eq ?_)) hq
    rw [mul_pow, hs6]; field_simp; try ring
  have k2 : (10 ^ 12 * s) ^ 6 ≤ ((y : ℝ) + 1) ^ 6 := by
    refine le_of_mul_le_mul_right ((le_of_eq ?_).trans h2') hq
    rw [mul_pow, hs6]; field_simp; try ring
  have y0 : (0 : ℝ) ≤ y := Nat.cast_nonneg _
  have s1 : (y : ℝ) ≤ 10 ^ 12 * s := (pow_le_pow_iff_left₀ y0 (by positivity) (by norm_num)).1 k1
  have s2 : 10 ^ 12 * s ≤ (y : ℝ) + 1 :=
    (pow_le_pow_iff_left₀ (by positivity) (by positivity) (by norm_num)).1 k2
  have c1 : (3 * (y : ℝ) ^ 2) / 10 ^ 24 ≤ 3 * b.chi β := by
    rw [← hss, div_le_iff₀ (by norm_num)]
    have := pow_le_pow_left₀ y0 s1 2
    nlinarith
  have c2 : 3 * b.chi β ≤ (3 * ((y : ℝ) + 1) ^ 2) / 10 ^ 24 := by
    rw [← hss, le_div_iff₀ (by norm_num)]
    have := pow_le_pow_left₀ (by positivity) s2 2
    nlinarith
  have a1 := expChain_106 (3 * y ^ 2)
    ((Nat.mul_le_mul_left 3 (Nat.pow_le_pow_left (Nat.le_succ y) 2)).trans h3)
  have a2 := expChain_106 (3 * (y + 1) ^ 2) h3
  generalize expChain (2 ^ 200) 106 (3 * y ^ 2) (10 ^ 24) = E1 at *
  generalize expChain (2 ^ 200) 106 (3 * (y + 1) ^ 2) (10 ^ 24) = E2 at *
  have hi := a1.hi
  have lo := a2.lo
  simp only [Nat.cast_mul, Nat.cast_pow, Nat.cast_ofNat, Nat.cast_add, Nat.cast_one] at hi lo
  have h4' : (gl : ℝ) * ((E1 + 2 ^ 106 * 3) * 10 ^ 48) ≤ y ^ 5 * 2 ^ 200 := by
    have := (Nat.cast_le (α := ℝ)).2 h4
    simpa only [Nat.cast_mul, Nat.cast_pow, Nat.cast_ofNat, Nat.cast_add] using this
  have h6' : ((y : ℝ) + 1) ^ 5 * 2 ^ 200 ≤ gh * (E2 * 10 ^ 48) := by
    have := (Nat.cast_le (α := ℝ)).2 h6
    simpa only [Nat.cast_mul, Nat.cast_pow, Nat.cast_ofNat, Nat.cast_add, Nat.cast_one] using this
  have x1 : Real.exp (3 * b.chi β) * Real.exp (-(3 * (y : ℝ) ^ 2 / 10 ^ 24)) ≥ 1 := by
    rw [← Real.exp_add]; exact Real.one_le_exp (by linarith)
  have x2 : Real.exp (3 * b.chi β) * Real.exp (-(3 * ((y : ℝ) + 1) ^ 2 / 10 ^ 24)) ≤ 1 := by
    rw [← Real.exp_add, Real.exp_le_one_iff]; linarith
  have hX : 0 < Real.exp (3 * b.chi β) := Real.exp_pos _
  rw [G_eq, ← hs]
  generalize Real.exp (3 * b.chi β) = X at *
  generalize Real.exp (-(3 * (y : ℝ) ^ 2 / 10 ^ 24)) = t1 at *
  generalize Real.exp (-(3 * ((y : ℝ) + 1) ^ 2 / 10 ^ 24)) = t2 at *
  have g0 : (0 : ℝ) ≤ gl := Nat.cast_nonneg _
  have gh0 : (0 : ℝ) ≤ gh := Nat.cast_nonneg _
  have p5 := pow_le_pow_left₀ y0 s1 5
  have q5 := pow_le_pow_left₀ (by positivity) s2 5
  have hA : (0 : ℝ) < 2 ^ 200 := by positivity
  have e60 : ((10 : ℝ) ^ 12 * s) ^ 5 = 10 ^ 48 * (10 ^ 12 * s ^ 5) := by ring
  rw [e60] at p5 q5
  have s5 : 0 ≤ s ^ 5 := by positivity
  generalize s ^ 5 = S5 at *
  generalize (y : ℝ) ^ 5 = Y5 at *
  generalize ((y : ℝ) + 1) ^ 5 = Y6 at *
  generalize (2 : ℝ) ^ 200 = A at *
  constructor
  · -- gl ≤ 10^12 S5 X
    have w1 : (gl : ℝ) * (A * t1) * 10 ^ 48 ≤ Y5 * A := by
      have := mul_le_mul_of_nonneg_left hi g0
      linarith
    have w2 : (gl : ℝ) * t1 * 10 ^ 48 ≤ Y5 :=
      le_of_mul_le_mul_right (by linarith : (gl : ℝ) * t1 * 10 ^ 48 * A ≤ Y5 * A) hA
    have w3 : (gl : ℝ) * t1 ≤ 10 ^ 12 * S5 := by
      have : (10 : ℝ) ^ 48 * ((gl : ℝ) * t1) ≤ 10 ^ 48 * (10 ^ 12 * S5) := by linarith
      exact le_of_mul_le_mul_left this (by norm_num)
    have w4 := mul_le_mul_of_nonneg_right w3 hX.le
    have w5 := mul_le_mul_of_nonneg_left x1 g0
    linarith
  · have w1 : Y6 * A ≤ gh * (A * t2) * 10 ^ 48 := by
      have := mul_le_mul_of_nonneg_left lo gh0
      linarith
    have w2 : Y6 ≤ gh * t2 * 10 ^ 48 :=
      le_of_mul_le_mul_right (by linarith : Y6 * A ≤ gh * t2 * 10 ^ 48 * A) hA
    have w3 : 10 ^ 12 * S5 ≤ gh * t2 := by
      have : (10 : ℝ) ^ 48 * (10 ^ 12 * S5) ≤ 10 ^ 48 * (gh * t2) := by linarith
      exact le_of_mul_le_mul_left this (by norm_num)
    have w4 := mul_le_mul_of_nonneg_right w3 hX.le
    have w5 := mul_le_mul_of_nonneg_left x2 gh0
    linarith

/-- All nodes. -/
noncomputable def tableOk (P K : ℕ) (b : KCoef) (y gl gh : List (List ℕ)) : Bool :=
  (List.range 66).all fun m => (List.range 9).all fun j =>
    nodeOk P K b ((63 + m) * 2 ^ j) (get2 y m j) (get2 gl m j) (get2 gh m j)

end KCoef

def kDT : KCoef :=
  ⟨118217005929, 400000000, [0, 12041, 889357, 6005250, 100000000], [1366, 1350000, 7518860, 100000000]⟩
def kDDn : KCoef :=
  ⟨985771609, 4000000, [0, -2964, 1824440, 1000000000], [-2964, 7682220, 1000000000]⟩
def kDDp : KCoef :=
  ⟨985771609, 4000000, [0, 10506, -1421000, 1000000000], [10506, 1991670, 1000000000]⟩

theorem kCheck : kDT.check (63 / 6400) (512 / 100) = true ∧ kDDn.check (63 / 6400) (512 / 100) = true ∧
    kDDp.check (63 / 6400) (512 / 100) = true := by decide +kernel

theorem tableDT : KCoef.tableOk (2 ^ 200) (2 ^ 106 * 3) kDT Data.yDT Data.glDT Data.ghDT = true := by
  decide +kernel
theorem tableDDn : KCoef.tableOk (2 ^ 200) (2 ^ 106 * 3) kDDn Data.yDDn Data.glDDn Data.ghDDn = true := by
  decide +kernel
theorem tableDDp : KCoef.tableOk (2 ^ 200) (2 ^ 106 * 3) kDDp Data.yDDp Data.glDDp Data.ghDDp = true := by
  decide +kernel

end TNS
