import Verif.Model.RoundedSpace
import Verif.Spec.Rounded
import Verif.Lemmas.Separation
import Verif.Props.Space
/-
Error analysis of the rounded grid and of the rounded crossing test.
-/

set_option autoImplicit false

namespace TNS
open Spec

/-! ### The crossing test -/

theorem rd_mul_sub (A : Arith) (u : ℝ) (h0 : 0 ≤ u) (h1 : u ≤ 1 / 36)
    (hA : ∀ x, |A.rd x - x| ≤ u * |x|) (x y : ℝ) :
    |A.rd (A.rd x * A.rd y) - x * y| ≤ 4 * u * |x * y| := by
  have hx := hA x
  have hy := hA y
  have hxy := hA (A.rd x * A.rd y)
  have e1 : |A.rd x| ≤ (1 + u) * |x| := by
    have := abs_sub_abs_le_abs_sub (A.rd x) x; linarith
  have e2 : |A.rd x * A.rd y - x * y| ≤ (2 * u + u ^ 2) * (|x| * |y|) := by
    have e : A.rd x * A.rd y - x * y = A.rd x * (A.rd y - y) + (A.rd x - x) * y := by ring
    rw [e]
    refine (abs_add_le _ _).trans ?_
    rw [abs_mul, abs_mul]
    have a1 : |A.rd x| * |A.rd y - y| ≤ (1 + u) * |x| * (u * |y|) :=
      mul_le_mul e1 hy (abs_nonneg _) (by positivity)
    have a2 : |A.rd x - x| * |y| ≤ u * |x| * |y| := mul_le_mul_of_nonneg_right hx (abs_nonneg _)
    nlinarith
  have e3 : |A.rd x * A.rd y| ≤ (1 + (2 * u + u ^ 2)) * (|x| * |y|) := by
    have := abs_sub_abs_le_abs_sub (A.rd x * A.rd y) (x * y)
    rw [abs_mul x y] at this
    linarith
  rw [abs_mul x y]
  have hp : 0 ≤ |x| * |y| := by positivity
  have e4 : |A.rd (A.rd x * A.rd y) - x * y| ≤
      u * |A.rd x * A.rd y| + |A.rd x * A.rd y - x * y| :=
    (abs_sub_le _ (A.rd x * A.rd y) _).trans (add_le_add hxy le_rfl)
  have e5 : u * |A.rd x * A.rd y| ≤ u * ((1 + (2 * u + u ^ 2)) * (|x| * |y|)) :=
    mul_le_mul_of_nonneg_left e3 h0
  have e6 : u * (1 + (2 * u + u ^ 2)) + (2 * u + u ^ 2) ≤ 4 * u := by nlinarith [sq_nonneg u]
  nlinarith [mul_le_mul_of_nonneg_right e6 hp]

/-- A rounded crossing test that differs from the exact one has an edge point at the height of the
point, close to it. -/
theorem crossesR_near (A : Arith) (u : ℝ) (h0 : 0 ≤ u) (h1 : u ≤ 1 / 36)
    (hA : ∀ x, |A.rd x - x| ≤ u * |x|) (p a b : ℝ × ℝ) (h : crossesR A p a b ≠ crosses p a b) :
    ∃ t, 0 ≤ t ∧ t ≤ 1 ∧ (edgePoint a b t).2 = p.2 ∧
      |(edgePoint a b t).1 - p.1| ≤ 9 * u * |a.1 - b.1| := by
  have hs : ¬ (p.2 ≤ a.2 ↔ p.2 ≤ b.2) := by
    intro hs
    apply h
    rw [crosses_false p a b hs]
    simp [crossesR, hs]
  have hne : b.2 - a.2 ≠ 0 := by
    intro h'
    apply hs
    rw [show a.2 = b.2 by linarith]
  set t := (p.2 - a.2) / (b.2 - a.2) with ht
  have ht1 : t * (b.2 - a.2) = p.2 - a.2 := by rw [ht]; field_simp
  have hrange : 0 ≤ t ∧ t ≤ 1 := by
    rcases lt_or_gt_of_ne hne with hlt | hgt
    · have : p.2 ≤ a.2 ∧ b.2 < p.2 := by
        by_contra hc
        apply hs
        constructor
        · intro h'
          by_contra hb
          exact hc ⟨h', not_le.1 hb⟩
        · intro h'; linarith
      constructor <;> nlinarith [this.1, this.2]
    · have : p.2 ≤ b.2 ∧ a.2 < p.2 := by
        by_contra hc
        apply hs
        constructor
        · intro h'; linarith
        · intro h'
          by_contra hb
          exact hc ⟨h', not_le.1 hb⟩
      constructor <;> nlinarith [this.1, this.2]
  refine ⟨t, hrange.1, hrange.2, ?_, ?_⟩
  · simp only [edgePoint]; linarith
  have hx : (edgePoint a b t).1 = a.1 + t * (b.1 - a.1) := by simp only [edgePoint]
  set l := (b.1 - p.1) * (a.2 - b.2) with hl
  set r := (b.2 - p.2) * (a.1 - b.1) with hr
  have dl := rd_mul_sub A u h0 h1 hA (b.1 - p.1) (a.2 - b.2)
  have dr := rd_mul_sub A u h0 h1 hA (b.2 - p.2) (a.1 - b.1)
  rw [← hl] at dl
  rw [← hr] at dr
  set l' := A.rd (A.rd (b.1 - p.1) * A.rd (a.2 - b.2)) with hl'
  set r' := A.rd (A.rd (b.2 - p.2) * A.rd (a.1 - b.1)) with hr'
  have hdec : ¬ (l' ≤ r' ↔ l ≤ r) := by
    intro hiff
    apply h
    simp only [crossesR, crosses, ← hl, ← hr, ← hl', ← hr', hiff]
  have hdiff : |l - r| ≤ 4 * u * (|l| + |r|) := by
    rw [abs_le] at dl dr
    rw [abs_le]
    rcases le_or_gt l r with hlr | hlr
    · have : r' < l' := by
        by_contra hc
        exact hdec ⟨fun _ => hlr, fun _ => not_lt.1 hc⟩
      constructor <;> linarith [dl.1, dl.2, dr.1, dr.2, mul_nonneg h0 (abs_nonneg l), mul_nonneg h0 (abs_nonneg r)]
    · have : l' ≤ r' := by
        by_contra hc
        exact hdec ⟨fun h' => absurd h' hc, fun h' => absurd h' (not_le.2 hlr)⟩
      constructor <;> linarith [dl.1, dl.2, dr.1, dr.2, mul_nonneg h0 (abs_nonneg l), mul_nonneg h0 (abs_nonneg r)]
  set D := |b.2 - a.2| with hD
  have hD0 : 0 < D := abs_pos.2 hne
  set e := (edgePoint a b t).1 - p.1 with he
  have e1 : l - r = -(b.2 - a.2) * e := by
    rw [he, hx, hl, hr]
    linear_combination (b.1 - a.1) * ht1
  have e2 : r = -((1 - t) * (b.2 - a.2) * (b.1 - a.1)) := by
    rw [hr]
    linear_combination (-(b.1 - a.1)) * ht1
  have e3 : |l - r| = D * |e| := by rw [e1, abs_mul, abs_neg]
  have e4 : |r| ≤ D * |a.1 - b.1| := by
    rw [e2, abs_neg, abs_mul, abs_mul, ← hD, abs_sub_comm b.1 a.1, abs_of_nonneg (by linarith [hrange.2])]
    have : (1 - t) * (D * |a.1 - b.1|) ≤ 1 * (D * |a.1 - b.1|) :=
      mul_le_mul_of_nonneg_right (by linarith [hrange.1]) (by positivity)
    linarith
  have e5 : |l| ≤ |l - r| + |r| := by
    have := abs_add_le (l - r) r
    rwa [sub_add_cancel] at this
  have e6 : D * |e| ≤ 4 * u * (D * |e|) + 8 * u * (D * |a.1 - b.1|) := by
    rw [← e3]
    have : 4 * u * (|l| + |r|) ≤ 4 * u * (|l - r| + 2 * (D * |a.1 - b.1|)) :=
      mul_le_mul_of_nonneg_left (by linarith) (by linarith)
    linarith
  have e7 : |e| ≤ 4 * u * |e| + 8 * u * |a.1 - b.1| := by
    have : D * |e| ≤ D * (4 * u * |e| + 8 * u * |a.1 - b.1|) := by linarith
    exact le_of_mul_le_mul_left this hD0
  have e8 : (1 - 4 * u) * |e| ≤ 8 * u * |a.1 - b.1| := by linarith
  have hn : 0 ≤ u * |a.1 - b.1| := by positivity
  have e9 : 8 / 9 * |e| ≤ (1 - 4 * u) * |e| := mul_le_mul_of_nonneg_right (by linarith) (abs_nonneg _)
  linarith

/-- Where the rounded and the exact point-in-polygon tests differ, the polygon is close. -/
theorem containsPointR_near (A : Arith) (u : ℝ) (h0 : 0 ≤ u) (h1 : u ≤ 1 / 36)
    (hA : ∀ x, |A.rd x - x| ≤ u * |x|) (pts : List (ℝ × ℝ)) (p : ℝ × ℝ)
    (h : containsPointR A pts p ≠ containsPoint pts p) :
    ∃ e ∈ pathEdges pts, ∃ t, 0 ≤ t ∧ t ≤ 1 ∧ (edgePoint e.1 e.2 t).2 = p.2 ∧
      |(edgePoint e.1 e.2 t).1 - p.1| ≤ 9 * u * |e.1.1 - e.2.1| := by
  by_contra hc
  apply h
  unfold containsPointR containsPoint
  congr 1
  have key : ∀ (l : List ((ℝ × ℝ) × (ℝ × ℝ))) (b : Bool), (∀ e ∈ l, crossesR A p e.1 e.2 = crosses p e.1 e.2) →
      l.foldl (fun f e => f ^^ crossesR A p e.1 e.2) b = l.foldl (fun f e => f ^^ crosses p e.1 e.2) b := by
    intro l
    induction l with
    | nil => intro b _; rfl
    | cons a l ih =>
      intro b hb
      simp only [List.foldl_cons, hb a List.mem_cons_self]
      exact ih _ fun e he => hb e (List.mem_cons_of_mem _ he)
  apply key
  intro e he
  by_contra hne
  exact hc ⟨e, he, crossesR_near A u h0 h1 hA p e.1 e.2 hne⟩

/-! ### One axis of the grid -/

theorem fmod_of_nonneg (a L : ℝ) (hL : 0 < L) (ha : 0 ≤ a) :
    fmod a L = a - L * (⌊a / L⌋ : ℝ) ∧ 0 ≤ fmod a L ∧ fmod a L < L := by
  have h0 : 0 ≤ a / L := div_nonneg ha hL.le
  have e : fmod a L = a - L * (⌊a / L⌋ : ℝ) := by rw [fmod, if_pos h0]
  have h1 := Int.floor_le (a / L)
  have h2 := Int.lt_floor_add_one (a / L)
  have e2 : a = L * (a / L) := by field_simp
  have h3 := mul_le_mul_of_nonneg_left h1 hL.le
  have h4 := mul_lt_mul_of_pos_left h2 hL
  refine ⟨e, ?_, ?_⟩ <;> rw [e] <;> nlinarith

theorem pyModR_of_nonneg (A : Arith) (a L : ℝ) (hL : 0 < L) (ha : 0 ≤ a) : pyModR A a L = fmod a L := by
  obtain ⟨_, h1, _⟩ := fmod_of_nonneg a L hL ha
  unfold pyModR
  simp only
  rw [if_neg]
  rintro ⟨_, h⟩
  exact h ⟨fun h => absurd h (not_lt.2 hL.le), fun h => absurd h (not_lt.2 h1)⟩

set_option maxHeartbeats 2000000 in
/-- Error of one axis: value number `i` is the lattice coordinate number `i - k`, up to `ε`; lattice
coordinates inside the plasma have a number. -/
theorem gridAxisR_error (A : Arith) (u : ℝ) (h0 : 0 ≤ u) (h1 : u ≤ 1 / 1000)
    (hA : ∀ x, |A.rd x - x| ≤ u * |x|) (c : List ℝ) (o L M ε : ℝ) (hL : 0 < L)
    (hlo : npMin c ≤ o) (hhi : o ≤ npMax c) (hMlo : |npMin c| ≤ M) (hMhi : |npMax c| ≤ M)
    (hε : ε = 3 * ((npMax c - npMin c) / L + 20) * (u * (M + 3 * L))) (hsmall : ε ≤ L / 4) :
    ∃ (k : ℤ) (n : ℕ) (g : ℕ → ℝ), gridAxisR A c o L = (List.range n).map g ∧
      (∀ i : ℕ, i < n → |g i - (o + L * ((i : ℝ) - k))| ≤ ε) ∧
      ∀ j : ℤ, npMin c ≤ o + L * j → o + L * j ≤ npMax c → ∃ i : ℕ, i < n ∧ (i : ℤ) = j + k := by
  set lo := npMin c with hlo'
  set hi := npMax c with hhi'
  set B := M + 3 * L with hB
  set δ := u * B with hδ
  have hM0 : 0 ≤ M := (abs_nonneg _).trans hMlo
  have hB0 : 0 < B := by positivity
  have hδ0 : 0 ≤ δ := by positivity
  have hδB : δ ≤ B / 1000 := by
    have := mul_le_mul_of_nonneg_right h1 hB0.le
    linarith
  have hN0 : 0 ≤ (hi - lo) / L := div_nonneg (by linarith) hL.le
  set N := (hi - lo) / L + 20 with hN
  have hNL : N * L = hi - lo + 20 * L := by rw [hN]; field_simp
  have hεδ : ε = 3 * (N * δ) := by rw [hε]; ring
  have hNδ : N * δ ≤ L / 12 := by linarith
  have hδL : δ ≤ L / 240 := by nlinarith
  rw [abs_le] at hMlo hMhi
  have rel : ∀ (x q : ℝ), |x| ≤ q * B → |A.rd x - x| ≤ q * δ := by
    intro x q hx
    refine (hA x).trans ?_
    rw [hδ]
    have := mul_le_mul_of_nonneg_left hx h0
    linarith
  -- offset and bounds
  have r1 := rel (2 * L) 1 (by rw [abs_le]; constructor <;> linarith)
  set off := A.rd (2 * L) with hoff
  rw [abs_le] at r1
  have r2 := rel (lo - off) (11 / 10) (by rw [abs_le]; constructor <;> linarith [r1.1, r1.2, hMlo.1, hMlo.2])
  set cMin := A.rd (lo - off) with hcMin
  rw [abs_le] at r2
  have r3 := rel (hi + off) (11 / 10) (by rw [abs_le]; constructor <;> linarith [r1.1, r1.2, hMhi.1, hMhi.2])
  set cMax := A.rd (hi + off) with hcMax
  rw [abs_le] at r3
  -- remainder
  have r4 := rel (o - cMin) (22 / 10) (by
    rw [abs_le]; constructor <;> linarith [r1.1, r1.2, r2.1, r2.2, hMhi.1, hMhi.2, hMlo.1, hMlo.2])
  set a := A.rd (o - cMin) with ha
  rw [abs_le] at r4
  have ha0 : 0 ≤ a := by linarith [r4.1, r1.1, r2.2]
  obtain ⟨f1, f2, f3⟩ := fmod_of_nonneg a L hL ha0
  set m := fmod a L with hm
  set k := ⌊a / L⌋ with hk
  -- half a cell
  have r5 := rel (1 / 2 * L) 1 (by rw [abs_le]; constructor <;> linarith)
  set hf := A.rd (1 / 2 * L) with hhf
  rw [abs_le] at r5
  have r6 := rel (m - hf) 1 (by rw [abs_le]; constructor <;> linarith [r5.1, r5.2])
  set d := A.rd (m - hf) with hd
  rw [abs_le] at r6
  have r7 := rel (cMin + d) (13 / 10) (by
    rw [abs_le]; constructor <;> linarith [r1.1, r1.2, r2.1, r2.2, r5.1, r5.2, r6.1, r6.2, hMlo.1, hMlo.2])
  set st := A.rd (cMin + d) with hst
  rw [abs_le] at r7
  have hstart : |st - (o - L * k - L / 2)| ≤ 6 * δ := by
    rw [abs_le]; constructor <;> linarith [r4.1, r4.2, r5.1, r5.2, r6.1, r6.2, r7.1, r7.2]
  rw [abs_le] at hstart
  have hstB : -(14 / 10 * B) ≤ st ∧ st ≤ 14 / 10 * B := by
    constructor <;> linarith [r1.1, r1.2, r2.1, r2.2, r5.1, r5.2, r6.1, r6.2, r7.1, r7.2, hMlo.1, hMlo.2]
  -- length
  have r8 := rel (cMax - st) (26 / 10) (by
    rw [abs_le]; constructor <;>
      linarith [hstB.1, hstB.2, r1.1, r1.2, r3.1, r3.2, hMhi.1, hMhi.2])
  rw [abs_le] at r8
  have r9 := hA (A.rd (cMax - st) / L)
  set w := A.rd (cMax - st) with hw
  set y := A.rd (w / L) with hy
  set n := ⌈y⌉.toNat with hn
  have hw0 : 0 ≤ w := by
    linarith [r1.1, r1.2, r2.1, r2.2, r3.1, r3.2, r5.1, r5.2, r6.1, r6.2, r7.1, r7.2, r8.1, r8.2]
  have hwB : w ≤ 3 * B := by linarith [r8.2, hstB.1, r1.2, r3.2, hMhi.2]
  have hyL : |y * L - w| ≤ 3 * δ := by
    have e : y * L - w = (y - w / L) * L := by field_simp
    rw [e, abs_mul, abs_of_pos hL]
    have e2 : |w / L| = w / L := abs_of_nonneg (div_nonneg hw0 hL.le)
    rw [e2] at r9
    have e3 : u * (w / L) * L = u * w := by field_simp
    have := mul_le_mul_of_nonneg_right r9 hL.le
    have h4 := mul_le_mul_of_nonneg_left hwB h0
    linarith
  rw [abs_le] at hyL
  have hyn : y ≤ n := (Int.le_ceil y).trans (by exact_mod_cast Int.self_le_toNat ⌈y⌉)
  have hny : ∀ i : ℕ, i < n → (i : ℝ) < y := by
    intro i hi'
    have : (i : ℤ) < ⌈y⌉ := by omega
    exact_mod_cast Int.lt_ceil.1 this
  -- values
  have r10 := rel (st + L) (18 / 10) (by rw [abs_le]; constructor <;> linarith [hstB.1, hstB.2])
  set nx := A.rd (st + L) with hnx
  rw [abs_le] at r10
  have r11 := rel (nx - st) 1 (by rw [abs_le]; constructor <;> linarith [r10.1, r10.2])
  set dl := A.rd (nx - st) with hdl
  rw [abs_le] at r11
  set v : ℕ → ℝ := fun i : ℕ => if i = 0 then st else if i = 1 then nx else A.rd (st + A.rd ((i : ℝ) * dl))
    with hv
  refine ⟨k, n, fun i => A.rd (v i + hf), ?_, ?_, ?_⟩
  · unfold gridAxisR arangeR
    simp only [← hoff, ← hcMin, ← hcMax, ← ha, pyModR_of_nonneg A a L hL ha0, ← hm, ← hhf, ← hd, ← hst, ← hlo',
      ← hhi', ← hw, ← hy, ← hn, ← hnx, ← hdl, List.map_map]
    rfl
  · intro i hi'
    have hiy := hny i hi'
    have hiL : (i : ℝ) * L ≤ hi - lo + 6 * L := by
      have := mul_lt_mul_of_pos_right hiy hL
      linarith [hyL.2, r8.2, r3.2, r1.1, r1.2, r2.1, r2.2, r5.1, r5.2, r6.1, r6.2, r7.1, r7.2]
    have hi0 : (0 : ℝ) ≤ i := Nat.cast_nonneg i
    have hiN : (i : ℝ) ≤ N - 14 := by
      have : (i : ℝ) * L ≤ (N - 14) * L := by linarith
      exact le_of_mul_le_mul_right this hL
    have hiδ : (i : ℝ) * δ ≤ N * δ - 14 * δ := by
      have := mul_le_mul_of_nonneg_right hiN hδ0
      linarith
    have hiδ0 : 0 ≤ (i : ℝ) * δ := by positivity
    -- the value before half a cell is added
    have hvi : |v i - (st + i * L)| ≤ 28 / 10 * (i * δ) + 8 * δ := by
      by_cases i0 : i = 0
      · subst i0
        simp [hv]; linarith
      by_cases i1 : i = 1
      · subst i1
        simp only [hv, if_neg i0, if_true]
        rw [abs_le]; push_cast; constructor <;> linarith [r10.1, r10.2]
      simp only [hv, if_neg i0, if_neg i1]
      have p1 : |(i : ℝ) * dl - i * L| ≤ 28 / 10 * (i * δ) := by
        rw [← mul_sub, abs_mul, abs_of_nonneg hi0]
        have : |dl - L| ≤ 28 / 10 * δ := by rw [abs_le]; constructor <;> linarith [r10.1, r10.2, r11.1, r11.2]
        have := mul_le_mul_of_nonneg_left this hi0
        linarith
      rw [abs_le] at p1
      have hiL0 : 0 ≤ (i : ℝ) * L := by positivity
      have p2 := rel ((i : ℝ) * dl) 3 (by
        rw [abs_le]; constructor <;> linarith [p1.1, p1.2, hMhi.1, hMhi.2, hMlo.1, hMlo.2])
      rw [abs_le] at p2
      have p3 := rel (st + A.rd ((i : ℝ) * dl)) (47 / 10) (by
        rw [abs_le]; constructor <;>
          linarith [p1.1, p1.2, p2.1, p2.2, hMhi.1, hMhi.2, hMlo.1, hMlo.2, hstB.1, hstB.2])
      rw [abs_le] at p3
      rw [abs_le]; constructor <;> linarith [p1.1, p1.2, p2.1, p2.2, p3.1, p3.2]
    rw [abs_le] at hvi
    have hiL0 : 0 ≤ (i : ℝ) * L := by positivity
    have q1 := rel (v i + hf) 5 (by
      rw [abs_le]; constructor <;>
        linarith [hvi.1, hvi.2, hMhi.1, hMhi.2, hMlo.1, hMlo.2, hstB.1, hstB.2, r5.1, r5.2])
    rw [abs_le] at q1
    have e : o + L * ((i : ℝ) - k) = (o - L * k - L / 2) + i * L + L / 2 := by ring
    rw [hεδ, e, abs_le]
    constructor <;> linarith [q1.1, q1.2, hvi.1, hvi.2, hstart.1, hstart.2, r5.1, r5.2]
  · intro j hj1 hj2
    have hjk0 : 0 ≤ j + k := by
      by_contra hneg
      have : j + k ≤ -1 := by omega
      have h' : ((j : ℝ) + k) ≤ -1 := by exact_mod_cast this
      have := mul_le_mul_of_nonneg_left h' hL.le
      linarith [r1.1, r2.2, r4.1, f3, f1]
    refine ⟨(j + k).toNat, ?_, by omega⟩
    have hlt : ((j + k).toNat : ℝ) < n := by
      have e : (((j + k).toNat : ℕ) : ℝ) = (j : ℝ) + k := by
        have : (((j + k).toNat : ℕ) : ℤ) = j + k := by omega
        exact_mod_cast this
      rw [e]
      refine lt_of_lt_of_le ?_ hyn
      have : ((j : ℝ) + k) * L < y * L := by
        linarith [hyL.1, r8.1, r3.1, r1.1, hstart.2]
      exact lt_of_mul_lt_mul_right this hL.le
    exact_mod_cast hlt

end TNS
