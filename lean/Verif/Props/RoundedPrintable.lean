import Verif.Props.RoundedCodes
/-
C118: the numbers on the cards can be printed.
-/

set_option autoImplicit false

namespace TNS
open Spec
noncomputable section

/-- The sum or difference of two doubles is zero or not much smaller than either. -/
theorem double_sum_gap (a b c : ℝ) (hc : c = round53 b ∨ c = -round53 b) :
    round53 a + c = 0 ∨ (2 : ℝ) ^ (-55 : ℤ) * |c| ≤ |round53 a + c| := by
  have hcb : |c| = |round53 b| := by rcases hc with rfl | rfl <;> simp
  by_cases hb : b = 0
  · right; subst hb
    have z : round53 0 = 0 := by simp [round53]
    rw [hcb, z]; simp
  by_cases ha : a = 0
  · right; subst ha
    have : (2 : ℝ) ^ (-55 : ℤ) ≤ 1 := by norm_num
    have z : round53 0 = 0 := by simp [round53]
    rw [z, zero_add]
    nlinarith [abs_nonneg c]
  have bnd : ∀ x : ℝ, x ≠ 0 → (2 : ℝ) ^ Int.log 2 |x| ≤ |round53 x| ∧ |round53 x| ≤ (2 : ℝ) ^ (Int.log 2 |x| + 1) := by
    intro x hx
    rcases lt_or_gt_of_ne hx with h | h
    · obtain ⟨h1, h2⟩ := round53_neg_bounds h
      have : (0 : ℝ) < (2 : ℝ) ^ Int.log 2 (-x) := by positivity
      rw [abs_of_neg h, abs_of_neg (by linarith)]
      constructor <;> linarith
    · obtain ⟨h1, h2⟩ := round53_pos_bounds h
      have : (0 : ℝ) < (2 : ℝ) ^ Int.log 2 x := by positivity
      rw [abs_of_pos h, abs_of_pos (by linarith)]
      exact ⟨h1, h2⟩
  obtain ⟨a1, a2⟩ := bnd a ha
  obtain ⟨b1, b2⟩ := bnd b hb
  set e := Int.log 2 |a| with he
  set f := Int.log 2 |b| with hf
  rw [← hcb] at b1 b2
  -- multiples of the coarser grid
  have mult : ∀ (x : ℝ) (k : ℤ), k ≤ Int.log 2 |x| - 52 → ∃ n : ℤ, round53 x = n * (2 : ℝ) ^ k := by
    intro x k hk
    refine ⟨round (x / (2 : ℝ) ^ (Int.log 2 |x| - 52)) * 2 ^ (Int.log 2 |x| - 52 - k).toNat, ?_⟩
    have h1 : ((2 : ℝ)) ^ (Int.log 2 |x| - 52 - k).toNat = (2 : ℝ) ^ (Int.log 2 |x| - 52 - k) := by
      rw [← zpow_natCast, Int.toNat_of_nonneg (by omega)]
    push_cast
    rw [h1, mul_assoc, ← zpow_add₀ (by norm_num : (2 : ℝ) ≠ 0)]
    unfold round53
    congr 2
    ring
  have gap : ∀ k : ℤ, k ≤ e - 52 → k ≤ f - 52 → f - 54 ≤ k → round53 a + c = 0 ∨
      (2 : ℝ) ^ (-55 : ℤ) * |c| ≤ |round53 a + c| := by
    intro k k1 k2 k3
    obtain ⟨n, hn⟩ := mult a k k1
    obtain ⟨m, hm⟩ : ∃ m : ℤ, c = m * (2 : ℝ) ^ k := by
      obtain ⟨m, hm⟩ := mult b k k2
      rcases hc with h | h
      · exact ⟨m, h.trans hm⟩
      · refine ⟨-m, ?_⟩
        rw [h, hm]; push_cast; ring
    rcases eq_or_ne (n + m) 0 with h | h
    · left
      rw [hn, hm, ← add_mul]
      have : (n : ℝ) + m = 0 := by exact_mod_cast h
      rw [this, zero_mul]
    · right
      have h1 : (1 : ℝ) ≤ |(n : ℝ) + m| := by exact_mod_cast Int.one_le_abs h
      have hk : (0 : ℝ) < (2 : ℝ) ^ k := by positivity
      have e1 : |round53 a + c| = |(n : ℝ) + m| * (2 : ℝ) ^ k := by
        rw [hn, hm, ← add_mul, abs_mul, abs_of_pos hk]
      rw [e1]
      have h2 : (2 : ℝ) ^ (-55 : ℤ) * (2 : ℝ) ^ (f + 1) ≤ (2 : ℝ) ^ k := by
        rw [← zpow_add₀ (by norm_num : (2 : ℝ) ≠ 0)]
        exact zpow_le_zpow_right₀ (by norm_num) (by omega)
      have h3 := mul_le_mul_of_nonneg_left b2 (by positivity : (0 : ℝ) ≤ (2 : ℝ) ^ (-55 : ℤ))
      have h4 := mul_le_mul_of_nonneg_right h1 hk.le
      linarith
  rcases le_or_gt f e with h | h
  · exact gap (f - 52) (by omega) le_rfl (by omega)
  rcases eq_or_lt_of_le (show e + 1 ≤ f by omega) with h' | h'
  · exact gap (e - 52) le_rfl (by omega) (by omega)
  · right
    have h1 : |round53 a| ≤ (2 : ℝ) ^ (f - 1) := a2.trans (zpow_le_zpow_right₀ (by norm_num) (by omega))
    have h2 : (2 : ℝ) ^ f = 2 * (2 : ℝ) ^ (f - 1) := by
      rw [zpow_sub₀ (by norm_num : (2 : ℝ) ≠ 0)]; norm_num; ring
    have h3 := abs_sub_abs_le_abs_sub c (-round53 a)
    rw [abs_neg, sub_neg_eq_add, add_comm c] at h3
    have h4 : (2 : ℝ) ^ (-55 : ℤ) ≤ 1 / 4 := by norm_num
    have h5 := mul_le_mul_of_nonneg_right h4 (abs_nonneg c)
    refine h5.trans ?_
    linarith

/-- Rounding keeps numbers away from zero. -/
theorem round53_gap (x : ℝ) : |x| / 2 ≤ |round53 x| ∧ |round53 x| ≤ 2 * |x| := by
  have h := C74_binary64.rel x
  have h53 := u53
  change |round53 x - x| ≤ _ at h
  have h1 := abs_sub_abs_le_abs_sub x (round53 x)
  have h2 := abs_sub_abs_le_abs_sub (round53 x) x
  rw [abs_sub_comm] at h1
  have : (2 : ℝ) ^ (-53 : ℤ) * |x| ≤ 1 / 2 * |x| := mul_le_mul_of_nonneg_right (by linarith) (abs_nonneg _)
  have h := h.trans this
  constructor <;> linarith

/-- A computed edge: the rounded sum or difference of two doubles, the second of the size of a cell. -/
theorem edge_range {L : ℝ} (hL : 1 / (10 : ℝ) ^ 330 ≤ L) (hL' : L ≤ (10 : ℝ) ^ 330) (a b c : ℝ)
    (hc : c = round53 b ∨ c = -round53 b) (h1 : 10 * L ≤ |c|) (h2 : |c| ≤ 1000 * L)
    (h3 : |round53 a| ≤ 10 ^ 9 * L) :
    InRange (round53 (round53 a + c)) ∧ |round53 (round53 a + c)| ≤ 2 * (|round53 a| + |c|) := by
  have hL0 : 0 < L := lt_of_lt_of_le (by positivity) hL
  obtain ⟨g1, g2⟩ := round53_gap (round53 a + c)
  have tri := abs_add_le (round53 a) c
  refine ⟨?_, by linarith⟩
  rcases double_sum_gap a b c hc with h | h
  · left; rw [h]; simp [round53]
  · right
    have e1 : (10 : ℝ) ^ (-400 : ℤ) = 1 / 10 ^ 330 * (1 / 10 ^ 70) := by
      rw [zpow_neg, ← one_div, one_div_mul_one_div, ← pow_add]
      norm_cast
    have e2 : (10 : ℝ) ^ (400 : ℤ) = 10 ^ 330 * 10 ^ 70 := by
      rw [← pow_add]; norm_cast
    rw [e1, e2]
    constructor
    · have k1 : 1 / (10 : ℝ) ^ 330 * (1 / 10 ^ 70) ≤ L * (1 / 10 ^ 70) := mul_le_mul_of_nonneg_right hL (by positivity)
      have k2 : (2 : ℝ) ^ (-55 : ℤ) * (10 * L) ≤ (2 : ℝ) ^ (-55 : ℤ) * |c| := mul_le_mul_of_nonneg_left h1 (by positivity)
      have k3 : L * (1 / 10 ^ 70) ≤ (2 : ℝ) ^ (-55 : ℤ) * (10 * L) / 2 := by
        have : (1 : ℝ) / 10 ^ 70 ≤ (2 : ℝ) ^ (-55 : ℤ) * 10 / 2 := by norm_num
        have := mul_le_mul_of_nonneg_left this hL0.le
        refine this.trans (le_of_eq ?_)
        ring
      have k4 := (k2.trans h)
      refine (k1.trans k3).trans (le_trans ?_ g1)
      exact div_le_div_of_nonneg_right k4 (by norm_num)
    · have k1 : L * (10 : ℝ) ^ 70 ≤ 10 ^ 330 * 10 ^ 70 := mul_le_mul_of_nonneg_right hL' (by positivity)
      refine le_trans ?_ k1
      have k2 : 4 * (10 : ℝ) ^ 9 ≤ 10 ^ 70 := by norm_num
      have k3 := mul_le_mul_of_nonneg_left k2 hL0.le
      refine le_trans ?_ k3
      have : |round53 (round53 a + c)| ≤ 2 * (10 ^ 9 * L + 1000 * L) := by linarith
      refine this.trans ?_
      have : 2 * (10 ^ 9 * L + 1000 * L) = L * (2 * (10 ^ 9 + 1000)) := by ring
      rw [this]
      exact mul_le_mul_of_nonneg_left (by norm_num) hL0.le

/-- Strengths and sums of strengths. -/
theorem strength_range {x : ℝ} (h : x = 0 ∨ 1 / (10 : ℝ) ^ 340 ≤ x ∧ x ≤ 10 ^ 340) : InRange x := by
  rcases h with h | ⟨h1, h2⟩
  · exact Or.inl h
  · right
    have h0 : 0 ≤ x := le_trans (by positivity) h1
    rw [abs_of_nonneg h0]
    constructor
    · refine le_trans ?_ h1
      rw [zpow_neg, ← one_div]
      have : (10 : ℝ) ^ 340 ≤ (10 : ℝ) ^ (400 : ℤ) := by
        exact_mod_cast pow_le_pow_right₀ (by norm_num : (1 : ℝ) ≤ 10) (by norm_num : 340 ≤ 400)
      exact one_div_le_one_div_of_le (by positivity) this
    · refine h2.trans ?_
      exact_mod_cast pow_le_pow_right₀ (by norm_num : (1 : ℝ) ≤ 10) (by norm_num : 340 ≤ 400)

theorem sum_range (l : List ℝ) (hl : ∀ x ∈ l, x = 0 ∨ 1 / (10 : ℝ) ^ 340 ≤ x ∧ x ≤ 10 ^ 340) (hn : l.length ≤ 10 ^ 12) :
    InRange (binary64.npSum l) := by
  have hnn : ∀ x ∈ l, 0 ≤ x := by
    intro x hx
    rcases hl x hx with h | h
    · exact h.ge
    · exact le_trans (by positivity) h.1
  have fac : Factors ((2 : ℝ) ^ (-53 : ℤ)) (l.length - 1) (binary64.npSum l) l.sum :=
    (near_addsUp C74_binary64 C74_binary64.npSum l hnn).factors C74_binary64.u_nonneg C74_binary64.u_lt_one (List.sum_nonneg hnn)
  have h53 := u53
  have hlen : ((l.length - 1 : ℕ) : ℝ) ≤ 10 ^ 12 := by
    exact_mod_cast (Nat.sub_le _ _).trans hn
  have hsmall : ((l.length - 1 : ℕ) : ℝ) * (2 : ℝ) ^ (-53 : ℤ) ≤ 1 / 4 := by
    refine (mul_le_mul hlen h53 (by positivity) (by positivity)).trans (by norm_num)
  have hb := fac.bound C74_binary64.u_nonneg C74_binary64.u_lt_one (List.sum_nonneg hnn) (by linarith)
  have hb' : |binary64.npSum l - l.sum| ≤ 1 / 2 * l.sum := by
    refine hb.trans (mul_le_mul_of_nonneg_right (by linarith) (List.sum_nonneg hnn))
  have hb' := abs_le.1 hb'
  by_cases hz : ∀ x ∈ l, x = 0
  · left
    have : l.sum = 0 := List.sum_eq_zero hz
    rw [this] at hb'
    linarith
  · push Not at hz
    obtain ⟨x, hx, hx0⟩ := hz
    obtain ⟨x1, -⟩ := (hl x hx).resolve_left hx0
    have s1 : x ≤ l.sum := List.single_le_sum hnn x hx
    have s2 : l.sum ≤ l.length * (10 : ℝ) ^ 340 := by
      have := List.sum_le_card_nsmul l ((10 : ℝ) ^ 340) (by
        intro y hy
        rcases hl y hy with h | h
        · rw [h]; positivity
        · exact h.2)
      simpa using this
    have s3 : (l.length : ℝ) * (10 : ℝ) ^ 340 ≤ 10 ^ 12 * 10 ^ 340 :=
      mul_le_mul_of_nonneg_right (by exact_mod_cast hn) (by positivity)
    right
    have hpos : 0 < l.sum := lt_of_lt_of_le (lt_of_lt_of_le (by positivity) x1) s1
    rw [abs_of_pos (by linarith)]
    have e1 : (10 : ℝ) ^ (-400 : ℤ) = 1 / 10 ^ 340 * (1 / 10 ^ 60) := by
      rw [zpow_neg, ← one_div, one_div_mul_one_div, ← pow_add]
      norm_cast
    have e2 : (10 : ℝ) ^ (400 : ℤ) = 10 ^ 60 * 10 ^ 340 := by
      rw [← pow_add]; norm_cast
    rw [e1, e2]
    constructor
    · have : 1 / (10 : ℝ) ^ 340 * (1 / 10 ^ 60) ≤ 1 / (10 : ℝ) ^ 340 * (1 / 2) :=
        mul_le_mul_of_nonneg_left (by norm_num) (by positivity)
      have k : 1 / (10 : ℝ) ^ 340 * (1 / 2) ≤ l.sum * (1 / 2) := mul_le_mul_of_nonneg_right (x1.trans s1) (by norm_num)
      refine (this.trans k).trans ?_
      linarith
    · have : 3 / 2 * ((10 : ℝ) ^ 12 * 10 ^ 340) ≤ 10 ^ 60 * 10 ^ 340 := by
        rw [← mul_assoc]
        exact mul_le_mul_of_nonneg_right (by norm_num) (by positivity)
      refine le_trans ?_ this
      have k := s2.trans s3
      generalize (10 : ℝ) ^ 12 * 10 ^ 340 = t at *
      linarith

/-- C118, any source: with cells of any side between 1e-330 and 1e330 m within 40000 sides of the axes, and strengths of the size
of doubles, the numbers on the cards of every file can be printed. -/
theorem C118_cards {Q : Reaction → ℝ} (hQ : ∀ r, 0 < Q r) {j : ℕ} {s : Source ℝ} (hs : ReachableR binary64 Q j s)
    (hw : CellWise s) (hsp : CellsApart s) (hL : 1 / (10 : ℝ) ^ 330 ≤ s.cellSideLength) (hL' : s.cellSideLength ≤ (10 : ℝ) ^ 330)
    (hne : s.x ≠ []) (hres : ∀ c ∈ s.x ++ s.z, |c| + s.cellSideLength ≤ 40000 * s.cellSideLength)
    (hn : cells s ≤ 10 ^ 12) (stub : String) (files : List (SdefFile ℝ)) (hf : s.toSdefR binary64 stub = .ok files)
    (f : SdefFile ℝ) (hfm : f ∈ files)
    (hσ : ∀ x ∈ strengths s f.reaction, x = 0 ∨ 1 / (10 : ℝ) ^ 340 ≤ x ∧ x ≤ 10 ^ 340) : Printable f.cards := by
  obtain ⟨c, hr, -, hnn, hlen, hcards, hfeq⟩ := toSdefR_mem C74_binary64 hQ hs stub files hf f hfm
  have hL0 : 0 < s.cellSideLength := lt_of_lt_of_le (by positivity) hL
  have hsort := spaced_sorted hsp hL0 hw.z
  have hgapx : ∀ a ∈ s.x, ∀ b ∈ s.x, a < b → a + s.cellSideLength / 2 ≤ b :=
    fun a ha b hb hab => spaced_gap hsp hL0 hw.z a b ha hb hab
  have hd : (strengths s f.reaction).length = s.x.length := hw.strength _ hr
  have hz := hw.z
  have hxl : s.x.length ≤ 10 ^ 12 := by rw [← hd]; exact hlen.trans hn
  generalize s.cellSideLength = L at *
  generalize strengths s f.reaction = data at *
  have hrx : ∀ a ∈ s.x, |a| + L ≤ 40000 * L := fun a ha => hres a (List.mem_append_left _ ha)
  have hrz : ∀ a ∈ s.z, |a| + L ≤ 40000 * L := fun a ha => hres a (List.mem_append_right _ ha)
  generalize s.x = xs at *
  generalize s.z = zs at *
  have hg : ∀ a ∈ xs, ∀ b ∈ xs, a < b → binary64.rd (a * 100) < binary64.rd (b * 100) := by
    intro a ha b hb hab
    have hgap := hgapx a ha b hb hab
    have h53 := u53
    have r1 := C74_binary64.rel (a * 100)
    have r2 := C74_binary64.rel (b * 100)
    rw [abs_mul, abs_of_pos (by norm_num : (0 : ℝ) < 100)] at r1 r2
    have hu : (2 : ℝ) ^ (-53 : ℤ) ≤ 1 / 10 ^ 9 := by linarith
    have b1 := mul_le_mul hu (show |a| * 100 ≤ 40000 * L * 100 by linarith [hrx a ha]) (by positivity) (by norm_num)
    have b2 := mul_le_mul hu (show |b| * 100 ≤ 40000 * L * 100 by linarith [hrx b hb]) (by positivity) (by norm_num)
    have r1 := abs_le.1 (r1.trans b1)
    have r2 := abs_le.1 (r2.trans b2)
    linarith [r1.2, r2.1]
  have hcl := sdefCardsR_eq binary64 xs zs L data hsort hne hz hd hg
  simp only at hcl
  rw [hcards] at hcl
  have hcl := Except.ok.inj hcl
  have hfc : f.cards = c := by rw [hfeq]
  rw [hfc, hcl]
  change Printable (genCards (npUnique xs) (fun x => round53 (round53 (x * 100) - round53 (round53 (L * 100) / 2)))
      (round53 (round53 (round53 (((npUnique xs).getLast?).getD 0 * 100) - round53 (round53 (L * 100) / 2)) + round53 (L * 100)))
      (fun ρ => binary64.npSum (atRadius xs data ρ))
      (fun ρ => (atRadius xs zs ρ).map (fun x => round53 (round53 (x * 100) - round53 (round53 (L * 100) / 2))))
      (fun ρ => atRadius xs data ρ)
      (fun ρ => round53 (round53 (((atRadius xs zs ρ).getLast?).getD 0 * 100) + round53 (round53 (L * 100) / 2))))
  have d1 : 50 * L ≤ |round53 (L * 100)| ∧ |round53 (L * 100)| ≤ 200 * L := by
    obtain ⟨g1, g2⟩ := round53_gap (L * 100)
    rw [abs_of_pos (by positivity : 0 < L * 100)] at g1 g2
    constructor <;> linarith
  have d2 : 10 * L ≤ |round53 (round53 (L * 100) / 2)| ∧ |round53 (round53 (L * 100) / 2)| ≤ 200 * L := by
    obtain ⟨g1, g2⟩ := round53_gap (round53 (L * 100) / 2)
    rw [abs_div, abs_of_pos (by norm_num : (0 : ℝ) < 2)] at g1 g2
    constructor <;> linarith [d1.1, d1.2]
  have big : ∀ x, |x| ≤ 40000 * L → |round53 (x * 100)| ≤ 10 ^ 7 * L := by
    intro x hx
    have g2 := (round53_gap (x * 100)).2
    rw [abs_mul, abs_of_pos (by norm_num : (0 : ℝ) < 100)] at g2
    linarith
  have lower : ∀ x, |x| ≤ 40000 * L → InRange (round53 (round53 (x * 100) - round53 (round53 (L * 100) / 2))) ∧
      |round53 (round53 (x * 100) - round53 (round53 (L * 100) / 2))| ≤ 10 ^ 8 * L := by
    intro x hx
    have hb := big x hx
    rw [sub_eq_add_neg]
    obtain ⟨e1, e2⟩ := edge_range hL hL' (x * 100) (round53 (L * 100) / 2) _ (Or.inr rfl)
      (by rw [abs_neg]; exact d2.1) (by rw [abs_neg]; linarith [d2.2]) (by linarith)
    rw [abs_neg] at e2
    exact ⟨e1, by linarith [d2.2]⟩
  have hlast : ∀ l : List ℝ, (∀ x ∈ l, |x| ≤ 40000 * L) → |(l.getLast?).getD 0| ≤ 40000 * L := by
    intro l hl
    cases h : l.getLast? with
    | none => simpa using hL0.le
    | some y => exact hl y (List.mem_of_getLast? h)
  have hux : ∀ x ∈ npUnique xs, |x| ≤ 40000 * L := fun x hx => by linarith [hrx x ((mem_npUnique _ _).1 hx)]
  have huz : ∀ ρ, ∀ x ∈ atRadius xs zs ρ, |x| ≤ 40000 * L := by
    intro ρ x hx
    linarith [hrz x (List.of_mem_zip ((mem_atRadius _ _ _ _).1 hx)).2]
  have hud : ∀ ρ, ∀ x ∈ atRadius xs data ρ, x = 0 ∨ 1 / (10 : ℝ) ^ 340 ≤ x ∧ x ≤ 10 ^ 340 :=
    fun ρ x hx => hσ x (List.of_mem_zip ((mem_atRadius _ _ _ _).1 hx)).2
  have hdl : ∀ ρ, (atRadius xs data ρ).length ≤ 10 ^ 12 := by
    intro ρ
    unfold atRadius
    rw [List.length_map]
    refine (List.length_filter_le _ _).trans ?_
    rw [List.length_zip]
    exact (min_le_left _ _).trans hxl
  have zero : InRange 0 := Or.inl rfl
  have hcount : ∀ i, i < (npUnique xs).length → 0 < 5 + i ∧ 5 + i < 10 ^ 40 := by
    intro i hi
    have : (npUnique xs).length ≤ xs.length := by
      have hnd : (npUnique xs).Nodup := (sorted_npUnique xs).imp fun {a b} (h : a < b) => h.ne
      exact (hnd.subperm fun x hx => (mem_npUnique _ _).1 hx).length_le
    have h1 : i < 10 ^ 12 := by omega
    constructor
    · omega
    · calc 5 + i < 5 + 10 ^ 12 := by omega
        _ < 10 ^ 40 := by norm_num
  refine ⟨?_, ?_, ?_, ?_⟩
  · intro x hx
    simp only [genCards, List.mem_append, List.mem_map, List.mem_singleton] at hx
    rcases hx with ⟨y, hy, rfl⟩ | rfl
    · exact (lower y (hux y hy)).1
    · have h := (lower _ (hlast _ hux)).2
      refine (edge_range hL hL' _ (L * 100) _ (Or.inl rfl) ?_ ?_ ?_).1
      · linarith [d1.1]
      · linarith [d1.2]
      · linarith
  · intro x hx
    simp only [genCards, List.mem_cons, List.mem_map] at hx
    rcases hx with rfl | ⟨y, -, rfl⟩
    · exact zero
    · exact sum_range _ (hud y) (hdl y)
  · intro n hn
    simp only [genCards, List.mem_map, List.mem_range] at hn
    obtain ⟨i, hi, rfl⟩ := hn
    exact hcount i hi
  · intro v hv
    simp only [genCards] at hv
    obtain ⟨i, hi, rfl⟩ := List.mem_iff_getElem.1 hv
    simp only [List.length_zipWith, List.length_range, min_self] at hi
    rw [List.getElem_zipWith]
    simp only [List.getElem_range]
    refine ⟨hcount i hi, ?_, ?_⟩
    · intro x hx
      simp only [List.mem_append, List.mem_map, List.mem_singleton] at hx
      rcases hx with ⟨y, hy, rfl⟩ | rfl
      · exact (lower y (huz _ y hy)).1
      · have h := big _ (hlast _ (huz (npUnique xs)[i]))
        refine (edge_range hL hL' _ (round53 (L * 100) / 2) _ (Or.inl rfl) ?_ ?_ ?_).1
        · exact d2.1
        · linarith [d2.2]
        · linarith
    · intro x hx
      rcases List.mem_cons.1 hx with rfl | hx
      · exact zero
      · exact strength_range (hud _ x hx)

/-- C118.  With binary64 numbers: if the cell side is between 1e-330 and 1e330 m, no cell is further than 40000 sides from the
axes, and each cell has of each reaction a rate that is zero or between 1e-330 and 1e330 per second, then all numbers on the
cards of all SDEF files can be printed. -/
theorem C118_binary64 {F : MathLib} (hF : AccurateLib F (4 * (2 : ℝ) ^ (-53 : ℤ)))
    {U : SI} {m : Masses ℝ} (hm : RoughData U m) {Q : Reaction → ℝ} (hQ : ∀ r, 0 < Q r)
    {pts : List (ℝ × ℝ)} {oX oZ : ℝ} {psi : ℝ → ℝ → ℝ} {tr : TransportView ℝ}
    {arg : SourceArg} {L : ℝ} {method : ReactivityMethod} {s : Source ℝ} {P : ℝ} (hP : 0 < P)
    (hs : Source.makeR binary64 F (reactivityXsR binary64 F (round53 Real.pi) U m) (round53 Real.pi) Q pts oX oZ psi tr
      arg L (some P) method = .ok s)
    (hok : PlasmaOK tr psi (centres s)) (hN : cells s + s.sourceType.length ≤ 1000000)
    {M : ℝ} (hres : Resolved binary64 ((2 : ℝ) ^ (-53 : ℤ)) pts oX oZ L M)
    (hfar : ∀ p ∈ centres s, |p.1| + L ≤ 40000 * L ∧ |p.2| + L ≤ 40000 * L) (hne : centres s ≠ [])
    (hL : 1 / (10 : ℝ) ^ 330 ≤ L) (hL' : L ≤ (10 : ℝ) ^ 330)
    (hσ : ∀ r ∈ s.sourceType, ∀ p ∈ centres s,
      P / cellsPower (referenceReactivity U m method) Q tr psi L (centres s) s.sourceType *
          cellRate (referenceReactivity U m method) tr psi L r p = 0 ∨
        1 / (10 : ℝ) ^ 330 ≤ P / cellsPower (referenceReactivity U m method) Q tr psi L (centres s) s.sourceType *
          cellRate (referenceReactivity U m method) tr psi L r p ∧
        P / cellsPower (referenceReactivity U m method) Q tr psi L (centres s) s.sourceType *
          cellRate (referenceReactivity U m method) tr psi L r p ≤ (10 : ℝ) ^ 330)
    (stub : String) (files : List (SdefFile ℝ)) (hf : s.toSdefR binary64 stub = .ok files) :
    ∀ f ∈ files, Printable f.cards := by
  intro f hfm
  have h53 := u53
  have hp : (0 : ℝ) < (2 : ℝ) ^ (-53 : ℤ) := by positivity
  have hpi : |round53 Real.pi - Real.pi| ≤ (2 : ℝ) ^ (-53 : ℤ) * Real.pi := by
    have := C74_binary64.rel Real.pi
    rwa [abs_of_pos Real.pi_pos] at this
  have hN' : (cells s : ℝ) + s.sourceType.length ≤ 1000000 := by exact_mod_cast hN
  have hε : 2.3 * (165000 * (4 * (2 : ℝ) ^ (-53 : ℤ))) +
      3 * ((cells s : ℝ) + s.sourceType.length + 14) * (2 : ℝ) ^ (-53 : ℤ) ≤ 1 / 10 ^ 9 := by
    have : 3 * ((cells s : ℝ) + s.sourceType.length + 14) * (2 : ℝ) ^ (-53 : ℤ) ≤
        3 * 1000014 * (2 : ℝ) ^ (-53 : ℤ) := mul_le_mul_of_nonneg_right (by linarith) hp.le
    linarith
  have hacc : ∀ r ∈ s.sourceType, _ := fun r (_ : r ∈ s.sourceType) =>
    all_accurate C74_binary64 hF (by linarith) (by linarith) hpi hm method r
  have hr := makeR_ready C74_binary64 hpi hQ (by positivity) hacc hok hP hs (hε.trans (by norm_num))
  obtain ⟨w1, w2, w3, w4, w5⟩ := makeR_wise hs
  obtain ⟨c, hmem, -⟩ := toSdefR_mem C74_binary64 hQ hr.reach stub files hf f hfm
  have hapart : CellsApart s := C89_sampled binary64 _ (round53 Real.pi) pts oX oZ L M hres s (by
      rw [w1, (C93_cells hs).2]; rfl) (by rw [w2, (C93_cells hs).2]; rfl) w4
  have hlist := hr.list _ hmem
  refine C118_cards hQ hr.reach hr.wise hapart (by rw [w4]; exact hL) (by rw [w4]; exact hL') ?_ ?_ (by omega) stub files hf f
    hfm ?_
  · rw [w1]; simpa using hne
  · rw [w4, w1, w2]
    intro a ha
    rcases List.mem_append.1 ha with ha | ha
    · obtain ⟨p, hp, rfl⟩ := List.mem_map.1 ha; exact (hfar p hp).1
    · obtain ⟨p, hp, rfl⟩ := List.mem_map.1 ha; exact (hfar p hp).2
  · intro x hx
    obtain ⟨i, hi, rfl⟩ := List.mem_iff_getElem.1 hx
    obtain ⟨l1, l2⟩ := List.forall₂_iff_get.1 hlist
    have hb := l2 i hi (l1 ▸ hi)
    have h := hσ f.reaction hmem _ (List.get_mem (centres s) ⟨i, l1 ▸ hi⟩)
    simp only [List.get_eq_getElem] at hb h
    generalize P / cellsPower (referenceReactivity U m method) Q tr psi L (centres s) s.sourceType *
          cellRate (referenceReactivity U m method) tr psi L f.reaction (centres s)[i] = y at *
    generalize (strengths s f.reaction)[i] = x at *
    rcases h with h | ⟨h1, h2⟩
    · left
      rw [h] at hb
      simpa using hb
    · right
      have h0 : 0 < y := lt_of_lt_of_le (by positivity) h1
      have hb' := abs_le.1 (hb.trans (mul_le_mul_of_nonneg_right (hε.trans (by norm_num : (1 : ℝ) / 10 ^ 9 ≤ 1 / 2)) h0.le))
      have e1 : (1 : ℝ) / 10 ^ 340 = 1 / 10 ^ 330 * (1 / 10 ^ 10) := by rw [one_div_mul_one_div, ← pow_add]
      have e2 : (10 : ℝ) ^ 340 = 10 ^ 330 * 10 ^ 10 := by rw [← pow_add]
      rw [e1, e2]
      have k1 : 1 / (10 : ℝ) ^ 330 * (1 / 10 ^ 10) ≤ y * (1 / 10 ^ 10) := mul_le_mul_of_nonneg_right h1 (by positivity)
      have k2 : y * (10 : ℝ) ^ 10 ≤ 10 ^ 330 * 10 ^ 10 := mul_le_mul_of_nonneg_right h2 (by positivity)
      constructor
      · refine k1.trans ?_
        linarith
      · refine le_trans ?_ k2
        linarith

/-- C118, texts: under the same conditions every file whose reaction occurs has a text, for every citation, and MCNP reads cards
with a bin for each cell from it. -/
theorem C118_text {F : MathLib} (hF : AccurateLib F (4 * (2 : ℝ) ^ (-53 : ℤ)))
    {U : SI} {m : Masses ℝ} (hm : RoughData U m) {Q : Reaction → ℝ} (hQ : ∀ r, 0 < Q r)
    {pts : List (ℝ × ℝ)} {oX oZ : ℝ} {psi : ℝ → ℝ → ℝ} {tr : TransportView ℝ}
    {arg : SourceArg} {L : ℝ} {method : ReactivityMethod} {s : Source ℝ} {P : ℝ} (hP : 0 < P)
    (hs : Source.makeR binary64 F (reactivityXsR binary64 F (round53 Real.pi) U m) (round53 Real.pi) Q pts oX oZ psi tr
      arg L (some P) method = .ok s)
    (hok : PlasmaOK tr psi (centres s)) (hN : cells s + s.sourceType.length ≤ 1000000)
    {M : ℝ} (hres : Resolved binary64 ((2 : ℝ) ^ (-53 : ℤ)) pts oX oZ L M)
    (hfar : ∀ p ∈ centres s, |p.1| + L ≤ 40000 * L ∧ |p.2| + L ≤ 40000 * L) (hne : centres s ≠ [])
    (hL : 1 / (10 : ℝ) ^ 330 ≤ L) (hL' : L ≤ (10 : ℝ) ^ 330)
    (hσ : ∀ r ∈ s.sourceType, ∀ p ∈ centres s,
      P / cellsPower (referenceReactivity U m method) Q tr psi L (centres s) s.sourceType *
          cellRate (referenceReactivity U m method) tr psi L r p = 0 ∨
        1 / (10 : ℝ) ^ 330 ≤ P / cellsPower (referenceReactivity U m method) Q tr psi L (centres s) s.sourceType *
          cellRate (referenceReactivity U m method) tr psi L r p ∧
        P / cellsPower (referenceReactivity U m method) Q tr psi L (centres s) s.sourceType *
          cellRate (referenceReactivity U m method) tr psi L r p ≤ (10 : ℝ) ^ 330)
    {ke ks km : ℝ} (hke : ScaleFactor ((2 : ℝ) ^ (-53 : ℤ)) 1000 ke) (hks : ScaleFactor ((2 : ℝ) ^ (-53 : ℤ)) (1 / 1000) ks)
    (hkm : ScaleFactor ((2 : ℝ) ^ (-53 : ℤ)) (1 / 1000) km) (stub : String) :
    ∃ files, s.toSdefR binary64 stub = .ok files ∧
      ∀ f ∈ files, 0 < channelRate (referenceReactivity U m method) tr psi L (centres s) f.reaction →
        ∀ (r : Neutronic) (cit : Citation), f.reaction = .n r → CleanCitation cit →
          ∃ text c, sdefTextR binary64 ke ks km cit r f = .ok text ∧ readSdef (readCards 128 text) = some c ∧
            (sdefBins c).length = (centres s).length := by
  obtain ⟨files, h1, -, h3⟩ := C111_binary64 hF hm hQ hP hs hok hN hres hfar hne hke hks hkm stub
  have hp := C118_binary64 hF hm hQ hP hs hok hN hres hfar hne hL hL' hσ stub files h1
  refine ⟨files, h1, fun f hf hoc r cit hfr hcit => ?_⟩
  obtain ⟨-, T, -, -, k⟩ := (h3 f hf).2 hoc
  obtain ⟨text, c, t1, t2, t3, -⟩ := k r cit hfr hcit (hp f hf)
  exact ⟨text, c, t1, t2, t3.length_eq.symm⟩

/-! ### The hypotheses are met: 500 MW of D-T from the rectangular plasma with flat profiles -/

namespace Ex

/-- The files of the example source of C114 to C117 can be printed, that of D-T has a text, and MCNP reads cards from it. -/
example (psi : ℝ → ℝ → ℝ) : ∃ (s : Source ℝ) (files : List (SdefFile ℝ)) (f : SdefFile ℝ),
    s.sourceType = [.DT] ∧ s.toSdefR binary64 "out" = .ok files ∧ f ∈ files ∧ f.reaction = .n .D_T ∧
    (∀ f ∈ files, Printable f.cards) ∧
    ∃ text c, sdefTextR binary64 1000 (binary64.rd (1 / 1000)) (binary64.rd (1 / 1000)) Ex.citation .D_T f = .ok text ∧
      readSdef (readCards 128 text) = some c := by
  obtain ⟨U, m, hm⟩ : ∃ (U : SI) (m : Masses ℝ), RoughData U m := ⟨_, _, rough_measured⟩
  obtain ⟨s, hs, hst, hok, hN, hc, hne⟩ := Ex.dt_source psi hm
  have h53 := u53
  have hp : (0 : ℝ) < (2 : ℝ) ^ (-53 : ℤ) := by positivity
  have hpi : |round53 Real.pi - Real.pi| ≤ (2 : ℝ) ^ (-53 : ℤ) * Real.pi := by
    have := C74_binary64.rel Real.pi
    rwa [abs_of_pos Real.pi_pos] at this
  have hacc := all_accurate C74_binary64 accurate_libs.2 (by linarith) (by linarith) hpi hm .AUTO
  have hx : ∀ p ∈ centres s, 1 / 2 ≤ p.1 := fun p hp => Ex.rect_radius p (hc ▸ hp)
  have hb : ∀ p ∈ centres s, p.1 ≤ 3.3 := by
    intro p hp
    rw [hc] at hp
    have := abs_le.1 (centre_bounds rect_resolved hp).1
    linarith
  have hfar : ∀ p ∈ centres s, |p.1| + 3 / 10 ≤ 40000 * (3 / 10) ∧ |p.2| + 3 / 10 ≤ 40000 * (3 / 10) := by
    intro p hp
    rw [hc] at hp
    obtain ⟨e1, e2⟩ := Ex.rect_extent p hp
    constructor <;> linarith
  have hν0 : 0 < rateAt (referenceReactivity U m .AUTO) flat psi .DT (0, 0) := by
    have h2 := (hacc .DT).pos 10 (by norm_num) (by norm_num)
    have hT : valueAt flat.temperature (psi 0 0) = 10 := by simp [valueAt, flat]
    unfold rateAt rateDensity
    rw [hT]
    generalize referenceReactivity U m .AUTO .DT = ref at h2
    refine div_pos (mul_pos ?_ h2) ?_
    · simp [reactants, density, valueAt, flat, Reaction.DT]; norm_num
    · split_ifs <;> norm_num
  have hcell : ∀ p, cellRate (referenceReactivity U m .AUTO) flat psi (3 / 10) .DT p =
      rateAt (referenceReactivity U m .AUTO) flat psi .DT (0, 0) * (2 * Real.pi * (3 / 10) ^ 2) * p.1 := by
    intro p
    rw [← flat_rate _ psi .DT p]
    unfold cellRate rateAt
    ring
  have hfac : 0 < rateAt (referenceReactivity U m .AUTO) flat psi .DT (0, 0) * (2 * Real.pi * (3 / 10) ^ 2) := by
    have := Real.pi_pos
    positivity
  set κ := rateAt (referenceReactivity U m .AUTO) flat psi .DT (0, 0) * (2 * Real.pi * (3 / 10) ^ 2) with hκ
  have hchan : channelRate (referenceReactivity U m .AUTO) flat psi (3 / 10) (centres s) .DT =
      κ * ((centres s).map Prod.fst).sum := by
    unfold channelRate
    rw [← List.sum_map_mul_left]
    exact congrArg List.sum (List.map_congr_left fun p _ => hcell p)
  have hsum : 1 / 2 ≤ ((centres s).map Prod.fst).sum ∧ ((centres s).map Prod.fst).sum ≤ 1320 := by
    have hnn : ∀ a ∈ (centres s).map Prod.fst, 0 ≤ a := by
      intro a ha
      obtain ⟨p, hp, rfl⟩ := List.mem_map.1 ha
      linarith [hx p hp]
    constructor
    · obtain ⟨p, hp⟩ := List.exists_mem_of_ne_nil _ hne
      exact (hx p hp).trans (List.single_le_sum hnn _ (List.mem_map.2 ⟨p, hp, rfl⟩))
    · have h1 := List.sum_le_card_nsmul ((centres s).map Prod.fst) (3.3 : ℝ) (by
        intro a ha
        obtain ⟨p, hp, rfl⟩ := List.mem_map.1 ha
        exact hb p hp)
      rw [List.length_map, nsmul_eq_mul] at h1
      have h2 : ((centres s).length : ℝ) ≤ 400 := by rw [hc]; exact_mod_cast rect_count
      linarith
  have hpow : cellsPower (referenceReactivity U m .AUTO) (fun _ => 2.8e-12) flat psi (3 / 10) (centres s) s.sourceType =
      κ * (((centres s).map Prod.fst).sum * 2.8e-12) := by
    unfold cellsPower
    rw [hst]
    simp only [List.map_cons, List.map_nil, List.sum_cons, List.sum_nil, add_zero]
    rw [hchan]
    ring
  have hch : 0 < channelRate (referenceReactivity U m .AUTO) flat psi (3 / 10) (centres s) (.n .D_T) := by
    change 0 < channelRate (referenceReactivity U m .AUTO) flat psi (3 / 10) (centres s) .DT
    rw [hchan]
    exact mul_pos hfac (by linarith [hsum.1])
  obtain ⟨files, h1, h2, h3⟩ := C111_binary64 accurate_libs.2 hm (fun _ => by norm_num) (by norm_num) hs hok hN rect_resolved
    hfar hne scale_factors.1 scale_factors.2 scale_factors.2 "out"
  have hprint : ∀ f ∈ files, Printable f.cards := by
    refine C118_binary64 accurate_libs.2 hm (fun _ => by norm_num) (by norm_num) hs hok hN rect_resolved hfar hne
      ?_ ?_ ?_ "out" files h1
    · exact le_trans (one_div_le_one_div_of_le (by positivity) (le_self_pow₀ (by norm_num) (by norm_num))) (by norm_num : (1 : ℝ) / 10 ≤ 3 / 10)
    · exact le_trans (by norm_num : (3 : ℝ) / 10 ≤ 10) (le_self_pow₀ (by norm_num) (by norm_num))
    · intro r hr p hp
      rw [hst] at hr
      obtain rfl : r = .DT := by simpa using hr
      right
      rw [hpow, hcell p]
      have x1 := hx p hp
      have x2 := hb p hp
      have e : 5e8 / (κ * (((centres s).map Prod.fst).sum * 2.8e-12)) * (κ * p.1) =
          5e8 * p.1 / (((centres s).map Prod.fst).sum * 2.8e-12) := by
        have h0 : ((centres s).map Prod.fst).sum ≠ 0 := by linarith [hsum.1]
        field_simp
      rw [e]
      obtain ⟨s1, s2⟩ := hsum
      generalize ((centres s).map Prod.fst).sum = S at *
      have hd : 0 < S * 2.8e-12 := by norm_num; linarith
      constructor
      · refine le_trans (b := 1 / 10) (one_div_le_one_div_of_le (by positivity) (le_self_pow₀ (by norm_num) (by norm_num))) ?_
        rw [le_div_iff₀ hd]
        norm_num
        linarith
      · refine le_trans (b := (10 : ℝ) ^ 30) ?_ (pow_le_pow_right₀ (by norm_num) (by norm_num))
        rw [div_le_iff₀ hd]
        norm_num
        linarith
  have hmem : Reaction.n .D_T ∈ files.map SdefFile.reaction := by
    rw [h2, hst]
    simp [Reaction.DT, neutronYield]
  obtain ⟨f, hf, hfr⟩ := List.mem_map.1 hmem
  obtain ⟨-, T, -, -, k⟩ := (h3 f hf).2 (by rw [hfr]; exact hch)
  obtain ⟨text, c, t1, t2, -⟩ := k .D_T Ex.citation hfr Ex.citation_clean (hprint f hf)
  exact ⟨s, files, f, hst, h1, hf, hfr, hprint, text, c, t1, t2⟩

end Ex

end
end TNS
