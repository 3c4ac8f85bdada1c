import Verif.Props.PointInPath
/-
If the polygon test changes between two points, the polygon passes between them.
-/

set_option autoImplicit false

namespace TNS
open Spec

/-- Point of the edge `a → b` at parameter `t`. -/
noncomputable def edgePoint (a b : ℝ × ℝ) (t : ℝ) : ℝ × ℝ :=
  (a.1 + t * (b.1 - a.1), a.2 + t * (b.2 - a.2))

/-- Parity of the number of members of a list with a property. -/
def xorSum {α : Type} (l : List α) (f : α → Bool) : Bool := l.foldl (fun b e => b ^^ f e) false

theorem xorSum_aux {α : Type} (l : List α) (f : α → Bool) (b : Bool) :
    l.foldl (fun b e => b ^^ f e) b = (b ^^ xorSum l f) := by
  induction l generalizing b with
  | nil => simp [xorSum]
  | cons a l ih =>
    unfold xorSum
    rw [List.foldl_cons, List.foldl_cons, ih, ih]
    simp

theorem xorSum_cons {α : Type} (a : α) (l : List α) (f : α → Bool) :
    xorSum (a :: l) f = (f a ^^ xorSum l f) := by
  unfold xorSum
  rw [List.foldl_cons, xorSum_aux]
  simp [xorSum]

theorem xorSum_nil {α : Type} (f : α → Bool) : xorSum [] f = false := rfl

theorem xorSum_xor {α : Type} (l : List α) (f g : α → Bool) :
    (xorSum l f ^^ xorSum l g) = xorSum l (fun e => f e ^^ g e) := by
  induction l with
  | nil => rfl
  | cons a l ih =>
    rw [xorSum_cons, xorSum_cons, xorSum_cons, ← ih]
    cases f a <;> cases g a <;> cases xorSum l f <;> cases xorSum l g <;> rfl

theorem xorSum_zip {α : Type} (u v : List α) (h : u.length = v.length) (g : α → Bool) :
    xorSum (List.zip u v) (fun e => g e.1 ^^ g e.2) = (xorSum u g ^^ xorSum v g) := by
  induction u generalizing v with
  | nil => cases v <;> simp_all [xorSum_nil]
  | cons a u ih =>
    cases v with
    | nil => simp at h
    | cons b v =>
      rw [List.zip_cons_cons, xorSum_cons, xorSum_cons, xorSum_cons, ih v (by simpa using h)]
      cases g a <;> cases g b <;> cases xorSum u g <;> cases xorSum v g <;> rfl

theorem xorSum_append {α : Type} (u v : List α) (g : α → Bool) :
    xorSum (u ++ v) g = (xorSum u g ^^ xorSum v g) := by
  induction u with
  | nil => simp [xorSum_nil]
  | cons a u ih => rw [List.cons_append, xorSum_cons, xorSum_cons, ih, Bool.xor_assoc]

theorem xorSum_cycle {α : Type} (pts : List α) (g : α → Bool) :
    xorSum (pathEdges pts) (fun e => g e.1 ^^ g e.2) = false := by
  cases pts with
  | nil => rfl
  | cons a l =>
    unfold pathEdges
    rw [xorSum_zip _ _ (by simp), xorSum_append, xorSum_cons, xorSum_cons, xorSum_nil]
    cases g a <;> cases xorSum l g <;> rfl

theorem containsPoint_xor (pts : List (ℝ × ℝ)) (p q : ℝ × ℝ)
    (h : containsPoint pts p ≠ containsPoint pts q) :
    xorSum (pathEdges pts) (fun e => crosses p e.1 e.2 ^^ crosses q e.1 e.2) = true := by
  rw [← xorSum_xor]
  unfold containsPoint at h
  change (decide _ && xorSum _ _) ≠ (decide _ && xorSum _ _) at h
  by_contra hne
  apply h
  have : xorSum (pathEdges pts) (fun e => crosses p e.1 e.2) =
      xorSum (pathEdges pts) (fun e => crosses q e.1 e.2) := by
    revert hne
    cases xorSum (pathEdges pts) (fun e => crosses p e.1 e.2) <;>
      cases xorSum (pathEdges pts) (fun e => crosses q e.1 e.2) <;> simp
  rw [this]

theorem xorSum_true {α : Type} (l : List α) (f : α → Bool) (h : xorSum l f = true) :
    ∃ e ∈ l, f e = true := by
  by_contra hcon
  push Not at hcon
  induction l with
  | nil => simp [xorSum_nil] at h
  | cons a l ih =>
    rw [xorSum_cons, Bool.eq_false_iff.2 (hcon a (by simp))] at h
    exact ih (by simpa using h) (fun e he => hcon e (by simp [he]))

/-- What it means that an edge is crossed: its end points lie on different sides of the level of `p`, and the
point of the edge at that level is to the right. -/
theorem crosses_param (p a b : ℝ × ℝ) (h : ¬ (p.2 ≤ a.2 ↔ p.2 ≤ b.2)) :
    ∃ t, 0 ≤ t ∧ t ≤ 1 ∧ (edgePoint a b t).2 = p.2 ∧
      ((edgePoint a b t).1 ≠ p.1 → (crosses p a b = true ↔ p.1 < (edgePoint a b t).1)) ∧
      (crosses p a b = true → p.1 ≤ (edgePoint a b t).1) ∧
      (crosses p a b = false → (edgePoint a b t).1 ≤ p.1) := by
  have hne : b.2 - a.2 ≠ 0 := by
    intro h0
    have : b.2 = a.2 := by linarith
    rw [this] at h
    exact h Iff.rfl
  refine ⟨(p.2 - a.2) / (b.2 - a.2), ?_, ?_, ?_, ?_⟩
  · rcases lt_or_gt_of_ne hne with hd | hd
    · apply div_nonneg_of_nonpos _ hd.le
      by_contra hc
      exact h ⟨fun h' => absurd h' (by linarith), fun h' => absurd h' (by linarith)⟩
    · apply div_nonneg _ hd.le
      by_contra hc
      exact h ⟨fun h' => by linarith, fun h' => by linarith⟩
  · rcases lt_or_gt_of_ne hne with hd | hd
    · rw [div_le_one_of_neg hd]
      by_contra hc
      exact h ⟨fun h' => by linarith, fun h' => by linarith⟩
    · rw [div_le_one hd]
      by_contra hc
      exact h ⟨fun h' => absurd h' (by linarith), fun h' => absurd h' (by linarith)⟩
  · simp only [edgePoint]; field_simp; ring
  · have key : (edgePoint a b ((p.2 - a.2) / (b.2 - a.2))).1 - p.1 =
        ((b.1 - p.1) * (a.2 - b.2) - (b.2 - p.2) * (a.1 - b.1)) / (a.2 - b.2) := by
      have h2 : a.2 - b.2 ≠ 0 := by intro h0; apply hne; linarith
      simp only [edgePoint]
      rw [eq_div_iff h2]
      field_simp
      ring
    generalize (edgePoint a b ((p.2 - a.2) / (b.2 - a.2))).1 = X at *
    have hcr : crosses p a b = true ↔
        (((b.1 - p.1) * (a.2 - b.2) ≤ (b.2 - p.2) * (a.1 - b.1)) ↔ p.2 ≤ b.2) := by
      unfold crosses
      rw [Bool.and_eq_true, bne_iff_ne, beq_iff_eq, ne_eq, decide_eq_decide, decide_eq_decide]
      exact ⟨fun x => x.2, fun x => ⟨h, x⟩⟩
    have hcrf : crosses p a b = false ↔
        ¬ (((b.1 - p.1) * (a.2 - b.2) ≤ (b.2 - p.2) * (a.1 - b.1)) ↔ p.2 ≤ b.2) := by
      rw [← hcr]; simp
    by_cases hb : p.2 ≤ b.2
    · have ha : a.2 < p.2 := by
        by_contra hc
        exact h ⟨fun _ => hb, fun _ => not_lt.1 hc⟩
      have hd : a.2 - b.2 < 0 := by linarith
      rw [hcr, hcrf]
      simp only [hb, iff_true]
      have e1 : (b.1 - p.1) * (a.2 - b.2) ≤ (b.2 - p.2) * (a.1 - b.1) ↔ p.1 ≤ X := by
        have : 0 ≤ X - p.1 ↔ (b.1 - p.1) * (a.2 - b.2) - (b.2 - p.2) * (a.1 - b.1) ≤ 0 := by
          rw [key, le_div_iff_of_neg hd, zero_mul]
        constructor
        · intro h'; have := this.2 (by linarith); linarith
        · intro h'; have := this.1 (by linarith); linarith
      rw [e1]
      refine ⟨fun hX => ⟨fun h' => lt_of_le_of_ne h' (Ne.symm hX), le_of_lt⟩, id, fun h' => (not_le.1 h').le⟩
    · have ha : p.2 ≤ a.2 := by
        by_contra hc
        exact h ⟨fun h' => absurd h' hc, fun h' => absurd h' hb⟩
      have hd : 0 < a.2 - b.2 := by linarith [not_le.1 hb]
      rw [hcr, hcrf]
      simp only [hb, iff_false, not_le]
      have e1 : (b.2 - p.2) * (a.1 - b.1) < (b.1 - p.1) * (a.2 - b.2) ↔ p.1 < X := by
        have : 0 < X - p.1 ↔ 0 < (b.1 - p.1) * (a.2 - b.2) - (b.2 - p.2) * (a.1 - b.1) := by
          rw [key, lt_div_iff₀ hd, zero_mul]
        constructor
        · intro h'; have := this.2 (by linarith); linarith
        · intro h'; have := this.1 (by linarith); linarith
      rw [e1]
      exact ⟨fun _ => Iff.rfl, le_of_lt, not_lt.1⟩

theorem crosses_false (p a b : ℝ × ℝ) (h : p.2 ≤ a.2 ↔ p.2 ≤ b.2) : crosses p a b = false := by
  unfold crosses
  rw [Bool.and_eq_false_iff]
  left
  rw [bne_eq_false_iff_eq, decide_eq_decide]
  exact h

/-- Horizontal step. -/
theorem crosses_horizontal (p q a b : ℝ × ℝ) (hz : p.2 = q.2) (h : crosses p a b ≠ crosses q a b) :
    ∃ t, 0 ≤ t ∧ t ≤ 1 ∧ (edgePoint a b t).2 = q.2 ∧ |(edgePoint a b t).1 - q.1| ≤ |p.1 - q.1| := by
  by_cases hl : p.2 ≤ a.2 ↔ p.2 ≤ b.2
  · exact absurd ((crosses_false p a b hl).trans (crosses_false q a b (hz ▸ hl)).symm) h
  obtain ⟨t, t0, t1, e1, -, p1, p2⟩ := crosses_param p a b hl
  obtain ⟨t', t0', t1', e1', -, q1, q2⟩ := crosses_param q a b (hz ▸ hl)
  have ht : t = t' := by
    have hd : b.2 - a.2 ≠ 0 := by
      intro h0
      have : b.2 = a.2 := by linarith
      rw [this] at hl
      exact hl Iff.rfl
    have : (t - t') * (b.2 - a.2) = 0 := by
      simp only [edgePoint] at e1 e1'
      linarith
    rcases mul_eq_zero.1 this with h0 | h0
    · linarith
    · exact absurd h0 hd
  subst ht
  refine ⟨t, t0, t1, e1', ?_⟩
  cases hp : crosses p a b <;> cases hq : crosses q a b
  · exact absurd (hp.trans hq.symm) h
  · have := p2 hp; have := q1 hq
    rw [abs_of_nonneg (by linarith), abs_of_nonneg (by linarith)]; linarith
  · have := p1 hp; have := q2 hq
    rw [abs_of_nonpos (by linarith), abs_of_nonpos (by linarith)]; linarith
  · exact absurd (hp.trans hq.symm) h

/-- Which vertices lie in the strip to the right of the vertical segment from `p` up to `q`. -/
noncomputable def inStrip (p q v : ℝ × ℝ) : Bool := decide ((p.2 ≤ v.2 ∧ ¬ q.2 ≤ v.2) ∧ p.1 < v.1)

theorem crosses_vertical (p q a b : ℝ × ℝ) (hx : p.1 = q.1) (hz : p.2 ≤ q.2)
    (hno : ∀ t, 0 ≤ t → t ≤ 1 → (edgePoint a b t).1 = p.1 → p.2 ≤ (edgePoint a b t).2 →
      (edgePoint a b t).2 ≤ q.2 → False) :
    (crosses p a b ^^ crosses q a b) = (inStrip p q a ^^ inStrip p q b) := by
  -- the side of the points at levels between the two
  have side : ∀ t1 t2, 0 ≤ t1 → t1 ≤ 1 → 0 ≤ t2 → t2 ≤ 1 →
      p.2 ≤ (edgePoint a b t1).2 → (edgePoint a b t1).2 ≤ q.2 →
      p.2 ≤ (edgePoint a b t2).2 → (edgePoint a b t2).2 ≤ q.2 →
      p.1 < (edgePoint a b t1).1 → p.1 < (edgePoint a b t2).1 := by
    intro t1 t2 a1 a2 b1 b2 c1 c2 d1 d2 h1
    by_contra hcon
    have h2 : (edgePoint a b t2).1 - p.1 ≤ 0 := by linarith
    -- where the edge meets the vertical
    obtain ⟨s, s0, s1, hs⟩ : ∃ s, 0 ≤ s ∧ s ≤ 1 ∧
        s * ((edgePoint a b t1).1 - p.1) + (1 - s) * ((edgePoint a b t2).1 - p.1) = 0 := by
      have hpos : 0 < (edgePoint a b t1).1 - p.1 - ((edgePoint a b t2).1 - p.1) := by linarith
      refine ⟨-((edgePoint a b t2).1 - p.1) /
        ((edgePoint a b t1).1 - p.1 - ((edgePoint a b t2).1 - p.1)), div_nonneg (by linarith) hpos.le, ?_, ?_⟩
      · rw [div_le_one hpos]; linarith
      · field_simp; ring
    have y0 : 0 ≤ 1 - s := by linarith
    have e1 : (edgePoint a b (s * t1 + (1 - s) * t2)).1 =
        s * (edgePoint a b t1).1 + (1 - s) * (edgePoint a b t2).1 := by simp only [edgePoint]; ring
    have e2 : (edgePoint a b (s * t1 + (1 - s) * t2)).2 =
        s * (edgePoint a b t1).2 + (1 - s) * (edgePoint a b t2).2 := by simp only [edgePoint]; ring
    refine hno (s * t1 + (1 - s) * t2) (by positivity) ?_ ?_ ?_ ?_
    · have := mul_le_mul_of_nonneg_left a2 s0
      have := mul_le_mul_of_nonneg_left b2 y0
      linarith
    · rw [e1]; linarith
    · rw [e2]
      have := mul_le_mul_of_nonneg_left c1 s0
      have := mul_le_mul_of_nonneg_left d1 y0
      linarith
    · rw [e2]
      have := mul_le_mul_of_nonneg_left c2 s0
      have := mul_le_mul_of_nonneg_left d2 y0
      linarith
  have p0 : edgePoint a b 0 = a := by simp [edgePoint]
  have p1 : edgePoint a b 1 = b := by
    have : ∀ x y : ℝ, x + 1 * (y - x) = y := fun x y => by ring
    simp only [edgePoint, this]
  by_cases hR : ∃ t, 0 ≤ t ∧ t ≤ 1 ∧ p.2 ≤ (edgePoint a b t).2 ∧ (edgePoint a b t).2 ≤ q.2 ∧
      p.1 < (edgePoint a b t).1
  · -- the edge is to the right
    obtain ⟨t, t0, t1, l1, l2, hr⟩ := hR
    have right : ∀ t', 0 ≤ t' → t' ≤ 1 → p.2 ≤ (edgePoint a b t').2 → (edgePoint a b t').2 ≤ q.2 →
        p.1 < (edgePoint a b t').1 := fun t' h0 h1 h2 h3 => side t t' t0 t1 h0 h1 l1 l2 h2 h3 hr
    have cp : crosses p a b = (decide (p.2 ≤ a.2) ^^ decide (p.2 ≤ b.2)) := by
      by_cases hl : p.2 ≤ a.2 ↔ p.2 ≤ b.2
      · rw [crosses_false p a b hl, decide_eq_decide.2 hl, Bool.xor_self]
      · obtain ⟨t', h0, h1, e, h2, -, -⟩ := crosses_param p a b hl
        have hrt := right t' h0 h1 (by rw [e]) (by rw [e]; exact hz)
        rw [(h2 hrt.ne').2 hrt]
        by_cases u : p.2 ≤ a.2 <;> by_cases v : p.2 ≤ b.2 <;> simp_all
    have cq : crosses q a b = (decide (q.2 ≤ a.2) ^^ decide (q.2 ≤ b.2)) := by
      by_cases hl : q.2 ≤ a.2 ↔ q.2 ≤ b.2
      · rw [crosses_false q a b hl, decide_eq_decide.2 hl, Bool.xor_self]
      · obtain ⟨t', h0, h1, e, h2, -, -⟩ := crosses_param q a b hl
        have hrt := right t' h0 h1 (by rw [e]; exact hz) (by rw [e])
        rw [hx] at hrt
        rw [(h2 hrt.ne').2 hrt]
        by_cases u : q.2 ≤ a.2 <;> by_cases v : q.2 ≤ b.2 <;> simp_all
    have ga : inStrip p q a = (decide (p.2 ≤ a.2) ^^ decide (q.2 ≤ a.2)) := by
      unfold inStrip
      by_cases u : p.2 ≤ a.2 <;> by_cases v : q.2 ≤ a.2
      · simp [u, v]
      · have := right 0 le_rfl zero_le_one (by rw [p0]; exact u) (by rw [p0]; exact (not_le.1 v).le)
        rw [p0] at this
        simp [u, v, this]
      · exact absurd (hz.trans v) u
      · simp [u, v]
    have gb : inStrip p q b = (decide (p.2 ≤ b.2) ^^ decide (q.2 ≤ b.2)) := by
      unfold inStrip
      by_cases u : p.2 ≤ b.2 <;> by_cases v : q.2 ≤ b.2
      · simp [u, v]
      · have := right 1 zero_le_one le_rfl (by rw [p1]; exact u) (by rw [p1]; exact (not_le.1 v).le)
        rw [p1] at this
        simp [u, v, this]
      · exact absurd (hz.trans v) u
      · simp [u, v]
    rw [cp, cq, ga, gb]
    cases decide (p.2 ≤ a.2) <;> cases decide (p.2 ≤ b.2) <;> cases decide (q.2 ≤ a.2) <;>
      cases decide (q.2 ≤ b.2) <;> rfl
  · -- the edge is to the left or elsewhere
    have left : ∀ t', 0 ≤ t' → t' ≤ 1 → p.2 ≤ (edgePoint a b t').2 → (edgePoint a b t').2 ≤ q.2 →
        ¬ p.1 < (edgePoint a b t').1 := fun t' h0 h1 h2 h3 h4 => hR ⟨t', h0, h1, h2, h3, h4⟩
    have cp : crosses p a b = false := by
      by_cases hl : p.2 ≤ a.2 ↔ p.2 ≤ b.2
      · exact crosses_false p a b hl
      · obtain ⟨t', h0, h1, e, h2, -, -⟩ := crosses_param p a b hl
        have hrt := left t' h0 h1 (by rw [e]) (by rw [e]; exact hz)
        have hne : (edgePoint a b t').1 ≠ p.1 := fun h' => hno t' h0 h1 h' (by rw [e]) (by rw [e]; exact hz)
        exact Bool.eq_false_iff.2 (fun h' => hrt ((h2 hne).1 h'))
    have cq : crosses q a b = false := by
      by_cases hl : q.2 ≤ a.2 ↔ q.2 ≤ b.2
      · exact crosses_false q a b hl
      · obtain ⟨t', h0, h1, e, h2, -, -⟩ := crosses_param q a b hl
        have hrt := left t' h0 h1 (by rw [e]; exact hz) (by rw [e])
        have hne : (edgePoint a b t').1 ≠ q.1 :=
          fun h' => hno t' h0 h1 (h'.trans hx.symm) (by rw [e]; exact hz) (by rw [e])
        rw [hx] at hrt
        exact Bool.eq_false_iff.2 (fun h' => hrt ((h2 hne).1 h'))
    have ga : inStrip p q a = false := by
      unfold inStrip
      rw [decide_eq_false_iff_not]
      rintro ⟨⟨u, v⟩, w⟩
      exact left 0 le_rfl zero_le_one (by rw [p0]; exact u) (by rw [p0]; exact (not_le.1 v).le) (by rw [p0]; exact w)
    have gb : inStrip p q b = false := by
      unfold inStrip
      rw [decide_eq_false_iff_not]
      rintro ⟨⟨u, v⟩, w⟩
      exact left 1 zero_le_one le_rfl (by rw [p1]; exact u) (by rw [p1]; exact (not_le.1 v).le) (by rw [p1]; exact w)
    rw [cp, cq, ga, gb]

/-- If one of two points is inside and the other is not, an edge of the polygon has a point that is no further
from `q`, along either axis, than `p` is. -/
theorem separated (pts : List (ℝ × ℝ)) (p q : ℝ × ℝ) (h : containsPoint pts p ≠ containsPoint pts q) :
    ∃ e ∈ pathEdges pts, ∃ t, 0 ≤ t ∧ t ≤ 1 ∧
      |(edgePoint e.1 e.2 t).1 - q.1| ≤ |p.1 - q.1| ∧ |(edgePoint e.1 e.2 t).2 - q.2| ≤ |p.2 - q.2| := by
  have hor : ∀ u v : ℝ × ℝ, u.2 = v.2 → containsPoint pts u ≠ containsPoint pts v →
      ∃ e ∈ pathEdges pts, ∃ t, 0 ≤ t ∧ t ≤ 1 ∧ (edgePoint e.1 e.2 t).2 = v.2 ∧
        |(edgePoint e.1 e.2 t).1 - v.1| ≤ |u.1 - v.1| := by
    intro u v hz hne
    obtain ⟨e, he, hf⟩ := xorSum_true _ _ (containsPoint_xor pts u v hne)
    refine ⟨e, he, crosses_horizontal u v e.1 e.2 hz ?_⟩
    intro h'
    rw [h'] at hf
    simp at hf
  have ver : ∀ u v : ℝ × ℝ, u.1 = v.1 → u.2 ≤ v.2 → containsPoint pts u ≠ containsPoint pts v →
      ∃ e ∈ pathEdges pts, ∃ t, 0 ≤ t ∧ t ≤ 1 ∧ (edgePoint e.1 e.2 t).1 = u.1 ∧
        u.2 ≤ (edgePoint e.1 e.2 t).2 ∧ (edgePoint e.1 e.2 t).2 ≤ v.2 := by
    intro u v hx hz hne
    by_contra hcon
    have h1 := containsPoint_xor pts u v hne
    have h2 : xorSum (pathEdges pts) (fun e => crosses u e.1 e.2 ^^ crosses v e.1 e.2) =
        xorSum (pathEdges pts) (fun e => inStrip u v e.1 ^^ inStrip u v e.2) := by
      rw [← Bool.not_eq_not]
      by_contra hc
      have h3 : (xorSum (pathEdges pts) (fun e => crosses u e.1 e.2 ^^ crosses v e.1 e.2) ^^
          xorSum (pathEdges pts) (fun e => inStrip u v e.1 ^^ inStrip u v e.2)) = true := by
        revert hc
        cases xorSum (pathEdges pts) (fun e => crosses u e.1 e.2 ^^ crosses v e.1 e.2) <;>
          cases xorSum (pathEdges pts) (fun e => inStrip u v e.1 ^^ inStrip u v e.2) <;> simp
      rw [xorSum_xor] at h3
      obtain ⟨e, he, hf⟩ := xorSum_true _ _ h3
      rw [crosses_vertical u v e.1 e.2 hx hz
        (fun t h0 h1 h2 h3 h4 => hcon ⟨e, he, t, h0, h1, h2, h3, h4⟩)] at hf
      simp at hf
    rw [h2, xorSum_cycle pts (inStrip u v)] at h1
    cases h1
  by_cases h1 : containsPoint pts p = containsPoint pts (q.1, p.2)
  · rw [h1] at h
    rcases le_total p.2 q.2 with hz | hz
    · obtain ⟨e, he, t, t0, t1, e1, e2, e3⟩ := ver (q.1, p.2) q rfl hz h
      refine ⟨e, he, t, t0, t1, ?_, ?_⟩
      · rw [e1]; simp
      · simp only at e2
        rw [abs_of_nonpos (by linarith), abs_of_nonpos (by linarith)]; linarith
    · obtain ⟨e, he, t, t0, t1, e1, e2, e3⟩ := ver q (q.1, p.2) rfl hz h.symm
      refine ⟨e, he, t, t0, t1, ?_, ?_⟩
      · rw [e1]; simp
      · simp only at e3
        rw [abs_of_nonneg (by linarith), abs_of_nonneg (by linarith)]; linarith
  · obtain ⟨e, he, t, t0, t1, e1, e2⟩ := hor p (q.1, p.2) rfl h1
    refine ⟨e, he, t, t0, t1, e2, ?_⟩
    rw [e1]

end TNS
