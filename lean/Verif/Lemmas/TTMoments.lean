import Verif.Props.Spectra
import Verif.Lemmas.TTChunks
import Verif.Spec.TTMean
/-
Moments of the T-T spectra at every temperature, from the sums over the table.
-/

set_option autoImplicit false
set_option linter.unusedSectionVars false

namespace TNS
open Spec

/-! ### Checks on the integers -/

/-- `ws` are the weights of the area under the polygonal line. -/
def wOkA (c : Nat) : List (Nat × List Nat) → List Nat → Bool
  | r :: l, w :: ws =>
    match l with
    | [] => Nat.beq w c
    | q :: _ => match Nat.beq w (Nat.add c (Nat.sub q.1 r.1)) with
      | true => wOkA (Nat.sub q.1 r.1) l ws
      | false => false
  | [], _ => false
  | _ :: _, [] => false

/-- `ws` are the weights of its first moment. -/
def wOkM (c : Nat) : List (Nat × List Nat) → List Nat → Bool
  | r :: l, w :: ws =>
    match l with
    | [] => Nat.beq w c
    | q :: _ => match Nat.beq w (Nat.add c (Nat.mul (Nat.sub q.1 r.1) (Nat.add (Nat.mul 2 r.1) q.1))) with
      | true => wOkM (Nat.mul (Nat.sub q.1 r.1) (Nat.add r.1 (Nat.mul 2 q.1))) l ws
      | false => false
  | [], _ => false
  | _ :: _, [] => false

/-- `ws` are twice the centres of the histogram bins. -/
def wOkH (e : Nat) : List (Nat × List Nat) → List Nat → Bool
  | [], [] => true
  | r :: l, w :: ws => match Nat.beq w (Nat.add e r.1) with
    | true => wOkH r.1 l ws
    | false => false
  | [], _ :: _ => false
  | _ :: _, [] => false

def wOkS : List (Nat × List Nat) → List Nat → Bool
  | [], [] => true
  | _ :: l, w :: ws => match Nat.beq w 1 with
    | true => wOkS l ws
    | false => false
  | [], _ :: _ => false
  | _ :: _, [] => false

set_option maxRecDepth 100000 in
theorem wA_ok : wOkA 0 Data.ttSpectra Data.wA = true := by decide +kernel
set_option maxRecDepth 100000 in
theorem wM_ok : wOkM 0 Data.ttSpectra Data.wM = true := by decide +kernel
set_option maxRecDepth 100000 in
theorem wH_ok : wOkH 0 Data.ttSpectra Data.wH = true := by decide +kernel
set_option maxRecDepth 100000 in
theorem wS_ok : wOkS Data.ttSpectra Data.wS = true := by decide +kernel

/-- The inequalities between the sums of one column or of two neighbouring ones. -/
def sumsLow (a m h s a' m' h' s' : Nat) : Bool :=
  Nat.ble (Nat.add (Nat.mul 3 (Nat.add (Nat.mul h a') (Nat.mul h' a)))
    (Nat.mul 6312000000000 (Nat.add (Nat.mul a s') (Nat.mul a' s))))
    (Nat.mul 2 (Nat.add (Nat.mul m s') (Nat.mul m' s)))

def sumsHigh (a m h s a' m' h' s' : Nat) : Bool :=
  Nat.ble (Nat.mul 2 (Nat.add (Nat.mul m s') (Nat.mul m' s)))
    (Nat.add (Nat.mul 3 (Nat.add (Nat.mul h a') (Nat.mul h' a)))
      (Nat.mul 6318000000000 (Nat.add (Nat.mul a s') (Nat.mul a' s))))

def sumsCol (a m h s : Nat) : Bool :=
  sumsLow a m h s a m h s && sumsHigh a m h s a m h s && Nat.ble 1 a && Nat.ble 1 s &&
    Nat.ble (Nat.mul 1380600000000000 a) m && Nat.ble m (Nat.mul 1390200000000000 a)

/-- All columns and all pairs of neighbours. -/
def sumsAll : List Nat → List Nat → List Nat → List Nat → Bool
  | a :: a' :: A, m :: m' :: M, h :: h' :: H, s :: s' :: S =>
    match sumsCol a m h s && sumsCol a' m' h' s' && sumsLow a m h s a' m' h' s' &&
      sumsHigh a m h s a' m' h' s' with
    | true => sumsAll (a' :: A) (m' :: M) (h' :: H) (s' :: S)
    | false => false
  | _, _, _, _ => true

set_option maxRecDepth 100000 in
theorem sums_ok : sumsAll Data.accA20 Data.accM20 Data.accH20 Data.accS20 = true := by decide +kernel

/-! ### From the integers to the sums -/

/-- Weighted sum over the rows. -/
noncomputable def dotR (ws : List Nat) (rows : List (Nat × List Nat)) (f : List Nat → ℝ) : ℝ :=
  (List.zipWith (fun w r => (w : ℝ) * f r.2) ws rows).sum

theorem dotR_cons (w : Nat) (ws : List Nat) (r : Nat × List Nat) (rows : List (Nat × List Nat))
    (f : List Nat → ℝ) : dotR (w :: ws) (r :: rows) f = (w : ℝ) * f r.2 + dotR ws rows f := by
  simp [dotR]

theorem dotR_nil_left (rows : List (Nat × List Nat)) (f : List Nat → ℝ) : dotR [] rows f = 0 := by
  simp [dotR]

theorem dotR_nil_right (ws : List Nat) (f : List Nat → ℝ) : dotR ws [] f = 0 := by
  simp [dotR]

theorem dotR_comb (ws : List Nat) (rows : List (Nat × List Nat)) (f g h : List Nat → ℝ) (a b : ℝ)
    (e : ∀ r, f r = a * g r + b * h r) : dotR ws rows f = a * dotR ws rows g + b * dotR ws rows h := by
  induction ws generalizing rows with
  | nil => simp [dotR_nil_left]
  | cons w ws ih =>
    cases rows with
    | nil => simp [dotR_nil_right]
    | cons r rows => rw [dotR_cons, dotR_cons, dotR_cons, ih, e]; ring

theorem vadd_length (w : Nat) (l acc : List Nat) (h : l.length = acc.length) :
    (vadd w l acc).length = acc.length := by
  induction l generalizing acc with
  | nil => cases acc <;> simp_all [vadd]
  | cons x l ih =>
    cases acc with
    | nil => simp at h
    | cons a acc => simp only [vadd, List.length_cons] at h ⊢; rw [ih acc (by simpa using h)]

theorem vadd_getD (w : Nat) (l acc : List Nat) (h : l.length = acc.length) (k : ℕ) :
    (vadd w l acc).getD k 0 = w * l.getD k 0 + acc.getD k 0 := by
  induction l generalizing acc k with
  | nil => cases acc <;> simp_all [vadd]
  | cons x l ih =>
    cases acc with
    | nil => simp at h
    | cons a acc =>
      cases k with
      | zero => simp [vadd]
      | succ k => simpa [vadd] using ih acc (by simpa using h) k

theorem vdot_getD (n : ℕ) (ws : List Nat) (rows : List (Nat × List Nat)) (acc : List Nat)
    (hr : ∀ r ∈ rows, r.2.length = n) (ha : acc.length = n) (k : ℕ) :
    (((vdot ws rows acc).getD k 0 : ℕ) : ℝ) =
      (acc.getD k 0 : ℕ) + dotR ws rows (fun l => ((l.getD k 0 : ℕ) : ℝ)) := by
  induction ws generalizing rows acc with
  | nil => simp [vdot, dotR_nil_left]
  | cons w ws ih =>
    cases rows with
    | nil => simp [vdot, dotR_nil_right]
    | cons r rows =>
      have h1 : r.2.length = acc.length := by rw [ha]; exact hr r (by simp)
      rw [vdot, ih rows _ (fun q hq => hr q (by simp [hq])) (by rw [vadd_length _ _ _ h1, ha]),
        vadd_getD _ _ _ h1, dotR_cons]
      push_cast
      ring

/-! ### The weights are those of the integrals -/

theorem segment_moment (a b p q : ℝ) (h : a < b) :
    (∫ x in a..b, x * (p + (q - p) * ((x - a) / (b - a)))) =
      (b - a) / 6 * (2 * a * p + a * q + b * p + 2 * b * q) := by
  have hb : b - a ≠ 0 := sub_ne_zero.2 h.ne'
  have e : (fun x : ℝ => x * (p + (q - p) * ((x - a) / (b - a)))) =
      fun x => (p - (q - p) * a / (b - a)) * x + (q - p) / (b - a) * x ^ 2 := by
    funext x; field_simp; ring
  rw [e, intervalIntegral.integral_add (by apply Continuous.intervalIntegrable; fun_prop)
    (by apply Continuous.intervalIntegrable; fun_prop), intervalIntegral.integral_const_mul,
    intervalIntegral.integral_const_mul, integral_id, integral_pow]
  push_cast
  field_simp
  ring

theorem weights_area (σ : ℝ) (f : List Nat → ℝ) (c : Nat) (rows : List (Nat × List Nat)) (ws : List Nat)
    (h : wOkA c rows ws = true) (hs : rows.Pairwise (fun p q => p.1 < q.1)) :
    σ * dotR ws rows f = σ * c * f (rows.headD (0, [])).2 +
      2 * area (rows.map (fun r => (σ * (r.1 : ℝ), f r.2))) := by
  induction rows generalizing c ws with
  | nil => cases ws <;> simp [wOkA] at h
  | cons r l ih =>
    cases ws with
    | nil => simp [wOkA] at h
    | cons w ws =>
      cases l with
      | nil =>
        have hw : w = c := by simpa [wOkA] using h
        rw [dotR_cons, dotR_nil_right, hw]
        simp [area]
        ring
      | cons q l =>
        unfold wOkA at h
        simp only at h
        split at h
        · rename_i hw
          have hw : w = c + (q.1 - r.1) := by simpa using hw
          have hlt : r.1 < q.1 := (List.pairwise_cons.1 hs).1 q (by simp)
          have := ih _ _ h (List.pairwise_cons.1 hs).2
          rw [dotR_cons, mul_add, this, hw]
          have e : ((Nat.sub q.1 r.1 : ℕ) : ℝ) = (q.1 : ℝ) - r.1 := by
            rw [show Nat.sub q.1 r.1 = q.1 - r.1 from rfl, Nat.cast_sub hlt.le]
          rw [e, Nat.cast_add, Nat.cast_sub hlt.le]
          simp only [area, List.map_cons, List.tail_cons, List.zipWith_cons_cons, List.sum_cons,
            List.headD_cons]
          ring
        · cases h

theorem weights_moment (σ : ℝ) (hσ : 0 < σ) (f : List Nat → ℝ) (c : Nat) (rows : List (Nat × List Nat))
    (ws : List Nat) (h : wOkM c rows ws = true) (hs : rows.Pairwise (fun p q => p.1 < q.1)) :
    σ ^ 2 * dotR ws rows f = σ ^ 2 * c * f (rows.headD (0, [])).2 +
      6 * firstMoment (rows.map (fun r => (σ * (r.1 : ℝ), f r.2))) := by
  induction rows generalizing c ws with
  | nil => cases ws <;> simp [wOkM] at h
  | cons r l ih =>
    cases ws with
    | nil => simp [wOkM] at h
    | cons w ws =>
      cases l with
      | nil =>
        have hw : w = c := by simpa [wOkM] using h
        rw [dotR_cons, dotR_nil_right, hw]
        simp [firstMoment]
        ring
      | cons q l =>
        unfold wOkM at h
        simp only at h
        split at h
        · rename_i hw
          have hw : w = c + (q.1 - r.1) * (2 * r.1 + q.1) := by simpa using hw
          have hlt : r.1 < q.1 := (List.pairwise_cons.1 hs).1 q (by simp)
          have := ih _ _ h (List.pairwise_cons.1 hs).2
          rw [dotR_cons, mul_add, this, hw]
          have e : ((Nat.mul (Nat.sub q.1 r.1) (Nat.add r.1 (Nat.mul 2 q.1)) : ℕ) : ℝ) =
              ((q.1 : ℝ) - r.1) * (r.1 + 2 * q.1) := by
            rw [show Nat.mul (Nat.sub q.1 r.1) (Nat.add r.1 (Nat.mul 2 q.1)) =
              (q.1 - r.1) * (r.1 + 2 * q.1) from rfl]
            push_cast [Nat.cast_sub hlt.le]
            ring
          have hlt' : σ * (r.1 : ℝ) < σ * q.1 := by gcongr
          rw [e]
          simp only [firstMoment, List.map_cons, List.tail_cons, List.zipWith_cons_cons, List.sum_cons,
            List.headD_cons]
          rw [segment_moment _ _ _ _ hlt']
          push_cast [Nat.cast_sub hlt.le]
          ring
        · cases h

theorem weights_hist (σ : ℝ) (f : List Nat → ℝ) (e : Nat) (rows : List (Nat × List Nat))
    (ws : List Nat) (h : wOkH e rows ws = true) :
    (List.zipWith (fun (b : ℝ × ℝ) p => p * ((b.1 + b.2) / 2))
      (List.zip (σ * (e : ℝ) :: rows.map (fun r => σ * (r.1 : ℝ))) (rows.map (fun r => σ * (r.1 : ℝ))))
      (rows.map (fun r => f r.2))).sum = σ / 2 * dotR ws rows f := by
  induction rows generalizing e ws with
  | nil => simp [dotR_nil_right]
  | cons r l ih =>
    cases ws with
    | nil => simp [wOkH] at h
    | cons w ws =>
      unfold wOkH at h
      split at h
      · rename_i hw
        have hw : w = e + r.1 := by simpa using hw
        rw [dotR_cons, mul_add, ← ih _ _ h, hw]
        simp only [List.map_cons, List.zip_cons_cons, List.zipWith_cons_cons, List.sum_cons]
        push_cast
        ring
      · cases h

theorem weights_sum (f : List Nat → ℝ) (rows : List (Nat × List Nat)) (ws : List Nat)
    (h : wOkS rows ws = true) : (rows.map (fun r => f r.2)).sum = dotR ws rows f := by
  induction rows generalizing ws with
  | nil => simp [dotR_nil_right]
  | cons r l ih =>
    cases ws with
    | nil => simp [wOkS] at h
    | cons w ws =>
      unfold wOkS at h
      split at h
      · rename_i hw
        have hw : w = 1 := by simpa using hw
        rw [dotR_cons, ← ih _ h, hw]
        simp
      · cases h

/-! ### The inequalities between the sums -/

theorem sumsAll_spec (A M H S : List Nat) (h : sumsAll A M H S = true) (j : ℕ) (hA : j + 1 < A.length)
    (hM : j + 1 < M.length) (hH : j + 1 < H.length) (hS : j + 1 < S.length) :
    sumsCol (A.getD j 0) (M.getD j 0) (H.getD j 0) (S.getD j 0) = true ∧
    sumsCol (A.getD (j + 1) 0) (M.getD (j + 1) 0) (H.getD (j + 1) 0) (S.getD (j + 1) 0) = true ∧
    sumsLow (A.getD j 0) (M.getD j 0) (H.getD j 0) (S.getD j 0)
      (A.getD (j + 1) 0) (M.getD (j + 1) 0) (H.getD (j + 1) 0) (S.getD (j + 1) 0) = true ∧
    sumsHigh (A.getD j 0) (M.getD j 0) (H.getD j 0) (S.getD j 0)
      (A.getD (j + 1) 0) (M.getD (j + 1) 0) (H.getD (j + 1) 0) (S.getD (j + 1) 0) = true := by
  induction j generalizing A M H S with
  | zero =>
    rcases A with _ | ⟨a, _ | ⟨a', A⟩⟩ <;> simp at hA
    rcases M with _ | ⟨m, _ | ⟨m', M⟩⟩ <;> simp at hM
    rcases H with _ | ⟨x, _ | ⟨x', H⟩⟩ <;> simp at hH
    rcases S with _ | ⟨s, _ | ⟨s', S⟩⟩ <;> simp at hS
    unfold sumsAll at h
    split at h
    · rename_i e
      simpa [and_assoc] using e
    · cases h
  | succ j ih =>
    rcases A with _ | ⟨a, _ | ⟨a', A⟩⟩ <;> simp at hA
    rcases M with _ | ⟨m, _ | ⟨m', M⟩⟩ <;> simp at hM
    rcases H with _ | ⟨x, _ | ⟨x', H⟩⟩ <;> simp at hH
    rcases S with _ | ⟨s, _ | ⟨s', S⟩⟩ <;> simp at hS
    unfold sumsAll at h
    split at h
    · simpa using ih _ _ _ _ h (by simpa using hA) (by simpa using hM) (by simpa using hH)
        (by simpa using hS)
    · cases h


/-- What the checks give at a temperature between two tabulated ones (`x` from 0 to 1). -/
theorem sums_between (a m h s a' m' h' s' : Nat) (c1 : sumsCol a m h s = true)
    (c2 : sumsCol a' m' h' s' = true) (c3 : sumsLow a m h s a' m' h' s' = true)
    (c4 : sumsHigh a m h s a' m' h' s' = true) (x : ℝ) (x0 : 0 ≤ x) (x1 : x ≤ 1)
    (A M H S : ℝ) (eA : A = (1 - x) * a + x * a') (eM : M = (1 - x) * m + x * m')
    (eH : H = (1 - x) * h + x * h') (eS : S = (1 - x) * s + x * s') :
    0 < A ∧ 0 < S ∧ 3 * (H * A) + 6312000000000 * (A * S) ≤ 2 * (M * S) ∧
      2 * (M * S) ≤ 3 * (H * A) + 6318000000000 * (A * S) ∧
      1380600000000000 * A ≤ M ∧ M ≤ 1390200000000000 * A := by
  have y0 : 0 ≤ 1 - x := sub_nonneg.2 x1
  simp only [sumsCol, sumsLow, sumsHigh, Bool.and_eq_true, Nat.ble_eq, Nat.add_eq, Nat.mul_eq] at c1 c2 c3 c4
  obtain ⟨⟨⟨⟨⟨l1, u1⟩, pa1⟩, ps1⟩, v1⟩, w1⟩ := c1
  obtain ⟨⟨⟨⟨⟨l2, u2⟩, pa2⟩, ps2⟩, v2⟩, w2⟩ := c2
  have l1 : (3 * ((h : ℝ) * a + h * a) + 6312000000000 * (a * s + a * s)) ≤ 2 * (m * s + m * s) := by
    exact_mod_cast l1
  have u1 : (2 * ((m : ℝ) * s + m * s)) ≤ 3 * (h * a + h * a) + 6318000000000 * (a * s + a * s) := by
    exact_mod_cast u1
  have l2 : (3 * ((h' : ℝ) * a' + h' * a') + 6312000000000 * (a' * s' + a' * s')) ≤
      2 * (m' * s' + m' * s') := by
    exact_mod_cast l2
  have u2 : (2 * ((m' : ℝ) * s' + m' * s')) ≤
      3 * (h' * a' + h' * a') + 6318000000000 * (a' * s' + a' * s') := by
    exact_mod_cast u2
  have l3 : (3 * ((h : ℝ) * a' + h' * a) + 6312000000000 * (a * s' + a' * s)) ≤ 2 * (m * s' + m' * s) := by
    exact_mod_cast c3
  have u3 : (2 * ((m : ℝ) * s' + m' * s)) ≤ 3 * (h * a' + h' * a) + 6318000000000 * (a * s' + a' * s) := by
    exact_mod_cast c4
  have pa1 : (1 : ℝ) ≤ a := by exact_mod_cast pa1
  have pa2 : (1 : ℝ) ≤ a' := by exact_mod_cast pa2
  have ps1 : (1 : ℝ) ≤ s := by exact_mod_cast ps1
  have ps2 : (1 : ℝ) ≤ s' := by exact_mod_cast ps2
  have v1 : (1380600000000000 * (a : ℝ)) ≤ m := by exact_mod_cast v1
  have v2 : (1380600000000000 * (a' : ℝ)) ≤ m' := by exact_mod_cast v2
  have w1 : (m : ℝ) ≤ 1390200000000000 * a := by exact_mod_cast w1
  have w2 : (m' : ℝ) ≤ 1390200000000000 * a' := by exact_mod_cast w2
  have t1 : 0 ≤ (1 - x) * (1 - x) := mul_nonneg y0 y0
  have t2 : 0 ≤ x * x := mul_nonneg x0 x0
  have t3 : 0 ≤ (1 - x) * x := mul_nonneg y0 x0
  have g1 := mul_le_mul_of_nonneg_left l1 t1
  have g2 := mul_le_mul_of_nonneg_left l2 t2
  have g3 := mul_le_mul_of_nonneg_left l3 t3
  have k1 := mul_le_mul_of_nonneg_left u1 t1
  have k2 := mul_le_mul_of_nonneg_left u2 t2
  have k3 := mul_le_mul_of_nonneg_left u3 t3
  have z1 := mul_le_mul_of_nonneg_left pa1 y0
  have z2 := mul_le_mul_of_nonneg_left pa2 x0
  have z3 := mul_le_mul_of_nonneg_left ps1 y0
  have z4 := mul_le_mul_of_nonneg_left ps2 x0
  have q1 := mul_le_mul_of_nonneg_left v1 y0
  have q2 := mul_le_mul_of_nonneg_left v2 x0
  have q3 := mul_le_mul_of_nonneg_left w1 y0
  have q4 := mul_le_mul_of_nonneg_left w2 x0
  subst eA eM eH eS
  refine ⟨by linarith, by linarith, ?_, ?_, by linarith, by linarith⟩
  · generalize (a : ℝ) = a at *
    generalize (m : ℝ) = m at *
    generalize (h : ℝ) = h at *
    generalize (s : ℝ) = s at *
    generalize (a' : ℝ) = a' at *
    generalize (m' : ℝ) = m' at *
    generalize (h' : ℝ) = h' at *
    generalize (s' : ℝ) = s' at *
    linear_combination (1 / 2 : ℝ) * g1 + (1 / 2 : ℝ) * g2 + g3
  · linear_combination (1 / 2 : ℝ) * k1 + (1 / 2 : ℝ) * k2 + k3

theorem acc_lengths : Data.accA20.length = 40 ∧ Data.accM20.length = 40 ∧ Data.accH20.length = 40 ∧
    Data.accS20.length = 40 := ⟨rfl, rfl, rfl, rfl⟩

theorem dotR_linear (ws acc0 acc : List Nat) (h : vdot ws Data.ttSpectra acc0 = acc)
    (h0 : acc0.length = 40) (hz : ∀ k, acc0.getD k 0 = 0) (j : ℕ) (t x : ℝ)
    (hx : x = (t - ttTemp j) / (ttTemp (j + 1) - ttTemp j)) :
    dotR ws Data.ttSpectra (fun l => ttLinear l j t) =
      ((1 - x) * (acc.getD j 0 : ℕ) + x * (acc.getD (j + 1) 0 : ℕ)) / 10 ^ 95 := by
  have hr : ∀ r ∈ Data.ttSpectra, r.2.length = 40 := fun r hr => (tt_rows r hr).1
  have e : ∀ k, dotR ws Data.ttSpectra (fun l => ((l.getD k 0 : ℕ) : ℝ)) = (acc.getD k 0 : ℕ) := by
    intro k
    have := vdot_getD 40 ws Data.ttSpectra acc0 hr h0 k
    rw [h, hz] at this
    simpa using this.symm
  rw [dotR_comb ws Data.ttSpectra _ (fun l => ((l.getD j 0 : ℕ) : ℝ))
    (fun l => ((l.getD (j + 1) 0 : ℕ) : ℝ)) ((1 - x) / 10 ^ 95) (x / 10 ^ 95), e, e]
  · ring
  · intro r
    unfold ttLinear
    rw [← hx]
    ring

end TNS
