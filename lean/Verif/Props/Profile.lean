import Verif.Model.Profile
import Verif.Lemmas.Interp
import Mathlib.Analysis.SpecialFunctions.Pow.Continuity
import Mathlib.Tactic.NormNum
import Mathlib.Tactic.Positivity
/-
C31-C35, C38: fuel composition, species densities, profile objects, tabulated profiles.
-/

set_option autoImplicit false
set_option linter.unusedSectionVars false

namespace TNS

section ordered
variable {K : Type} [Field K] [LinearOrder K] [IsStrictOrderedRing K]

/-! ## C31 -/

/-- C31.  A zero sum is rejected; otherwise the stored fractions sum to 1, are in the ratios given,
are the given ones if these already sum to 1, and are stable under building a composition again. -/
theorem C31_fractions (d t h : K) :
    (d + t + h = 0 → Composition.make d t h = .error .zeroDivisionError) ∧
    (d + t + h ≠ 0 → ∃ c : Composition K, Composition.make d t h = .ok c ∧
      c.D + c.T + c.He3 = 1 ∧
      c.D * (d + t + h) = d ∧ c.T * (d + t + h) = t ∧ c.He3 * (d + t + h) = h ∧
      Composition.make c.D c.T c.He3 = .ok c) ∧
    (d + t + h = 1 → Composition.make d t h = .ok ⟨d, t, h⟩) := by
  refine ⟨fun e => ?_, fun e => ?_, fun e => ?_⟩
  · simp [Composition.make, e]
  · by_cases h1 : d + t + h = 1
    · exact ⟨⟨d, t, h⟩, by simp [Composition.make, h1], h1, by simp [h1], by simp [h1],
        by simp [h1], by simp [Composition.make, h1]⟩
    · have hs : d / (d + t + h) + t / (d + t + h) + h / (d + t + h) = 1 := by
        rw [← add_div, ← add_div, div_self e]
      refine ⟨⟨d / (d + t + h), t / (d + t + h), h / (d + t + h)⟩, by simp [Composition.make, e, h1],
        hs, div_mul_cancel₀ _ e, div_mul_cancel₀ _ e, div_mul_cancel₀ _ e, ?_⟩
      simp [Composition.make, hs]
  · simp [Composition.make, e]

/-- Non-negative fractions stay non-negative. -/
theorem C31_nonneg (d t h : K) (hd : 0 ≤ d) (ht : 0 ≤ t) (hh : 0 ≤ h) (c : Composition K)
    (hc : Composition.make d t h = .ok c) :
    (0 ≤ c.D ∧ c.D ≤ 1) ∧ (0 ≤ c.T ∧ c.T ≤ 1) ∧ 0 ≤ c.He3 ∧ c.He3 ≤ 1 := by
  by_cases e : d + t + h = 0
  · rw [(C31_fractions d t h).1 e] at hc; simp at hc
  obtain ⟨c', h0, h1, h2, h3, h4, -⟩ := (C31_fractions d t h).2.1 e
  rw [h0] at hc
  obtain rfl : c' = c := by simpa using hc
  have hp : 0 < d + t + h := lt_of_le_of_ne (by linarith) (Ne.symm e)
  have p1 : 0 ≤ c'.D := by by_contra hn; nlinarith
  have p2 : 0 ≤ c'.T := by by_contra hn; nlinarith
  have p3 : 0 ≤ c'.He3 := by by_contra hn; nlinarith
  refine ⟨⟨p1, ?_⟩, ⟨p2, ?_⟩, p3, ?_⟩ <;> linarith

/-- A composition given as 2:1:1 becomes 1/2, 1/4, 1/4. -/
example : ∃ c : Composition ℚ, Composition.make 2 1 1 = .ok c ∧ c.D = 1/2 ∧ c.T = 1/4 ∧
    c.He3 = 1/4 :=
  ⟨⟨2/(2+1+1), 1/(2+1+1), 1/(2+1+1)⟩, by rw [Composition.make]; norm_num, by norm_num, by norm_num,
    by norm_num⟩
example : Composition.make (1 : ℚ) (-1) 0 = .error .zeroDivisionError :=
  (C31_fractions 1 (-1) 0).1 (by norm_num)

/-! ## C35 -/

theorem clip_mem (x : K) : 0 ≤ clip 0 1 x ∧ clip 0 1 x ≤ 1 :=
  ⟨le_min (le_max_right _ _) zero_le_one, min_le_right _ _⟩

theorem clip_of_mem (x : K) (h0 : 0 ≤ x) (h1 : x ≤ 1) : clip 0 1 x = x := by
  simp [clip, h0, h1]

theorem clip_le (x : K) (h : x ≤ 0) : clip 0 1 x = 0 := by simp [clip, h]

theorem clip_ge (x : K) (h : 1 ≤ x) : clip 0 1 x = 1 := by
  have : (0 : K) ≤ x := zero_le_one.trans h
  simp [clip, h, this]

theorem clip_mono (x y : K) (h : x ≤ y) : clip 0 1 x ≤ clip 0 1 y :=
  min_le_min_right _ (max_le_max_right _ h)

theorem dataValue_sorted (t : List (K × K)) (hs : SortedTable t) (a b : K × K)
    (ha : t.head? = some a) (hb : t.getLast? = some b) (s x : K) :
    dataValue t s x = if clip 0 1 x < a.1 ∨ b.1 < clip 0 1 x then .error .valueError
      else .ok (s * npInterp t (clip 0 1 x)) := by
  unfold dataValue interp1d
  simp only [mergeSort_sorted t hs, ha, hb]
  split_ifs <;> rfl

/-- C35.  `value` fails, with `ValueError`, exactly when the argument clipped to [0,1] is outside the
tabulated range. -/
theorem C35_range (t : List (K × K)) (hs : SortedTable t) (a b : K × K)
    (ha : t.head? = some a) (hb : t.getLast? = some b) (s x : K) :
    (dataValue t s x = .error .valueError ↔ clip 0 1 x < a.1 ∨ b.1 < clip 0 1 x) ∧
    (a.1 ≤ clip 0 1 x ∧ clip 0 1 x ≤ b.1 ↔ ∃ v : K, dataValue t s x = .ok v) := by
  rw [dataValue_sorted t hs a b ha hb]
  split_ifs with h
  · refine ⟨by simp [h], ⟨fun h' => ?_, fun ⟨v, hv⟩ => by simp at hv⟩⟩
    rcases h with h | h
    · exact absurd h'.1 (not_le.2 h)
    · exact absurd h'.2 (not_le.2 h)
  · refine ⟨by simp [h], ⟨fun _ => ⟨_, rfl⟩, fun _ => ?_⟩⟩
    rw [not_or] at h
    exact ⟨not_lt.1 h.1, not_lt.1 h.2⟩

/-- C35.  Between two neighbouring data points the value is on the straight line joining them, and
so between the two tabulated values. -/
theorem C35_linear (l : List (K × K)) (p q : K × K) (r : List (K × K))
    (hs : SortedTable (l ++ p :: q :: r)) (s x : K) (h1 : p.1 ≤ clip 0 1 x)
    (h2 : clip 0 1 x ≤ q.1) :
    dataValue (l ++ p :: q :: r) s x =
      .ok (s * (p.2 + (q.2 - p.2) * ((clip 0 1 x - p.1) / (q.1 - p.1)))) ∧
    min p.2 q.2 ≤ p.2 + (q.2 - p.2) * ((clip 0 1 x - p.1) / (q.1 - p.1)) ∧
    p.2 + (q.2 - p.2) * ((clip 0 1 x - p.1) / (q.1 - p.1)) ≤ max p.2 q.2 := by
  have hpq : p.1 < q.1 := by
    have := (List.pairwise_append.1 hs).2.1
    exact (List.pairwise_cons.1 this).1 q (by simp)
  obtain ⟨f0, f1⟩ := frac_mem p.1 q.1 (clip 0 1 x) hpq h1 h2
  refine ⟨?_, seg_between _ _ _ _ _ f0 f1 (min_le_left _ _) (min_le_right _ _) (le_max_left _ _)
    (le_max_right _ _)⟩
  obtain ⟨a, ha⟩ : ∃ a, (l ++ p :: q :: r).head? = some a := by cases l <;> exact ⟨_, rfl⟩
  obtain ⟨b, hb⟩ : ∃ b, (l ++ p :: q :: r).getLast? = some b :=
    Option.isSome_iff_exists.1 (by simp [List.getLast?_isSome])
  have hap : a.1 ≤ p.1 := by
    cases l with
    | nil => simp at ha; rw [ha]
    | cons c l =>
      simp at ha; subst ha
      exact ((List.pairwise_cons.1 hs).1 p (by simp)).le
  have hqb : q.1 ≤ b.1 := by
    have e : (q :: r).getLast? = some b := by
      rw [← hb]
      have : l ++ p :: q :: r = (l ++ [p]) ++ (q :: r) := by simp
      rw [this, List.getLast?_append_of_ne_nil _ (by simp)]
    rcases List.eq_nil_or_concat r with rfl | ⟨r', z, rfl⟩
    · simp at e; rw [e]
    · rw [List.concat_eq_append] at *
      have : q :: (r' ++ [z]) = (q :: r') ++ [z] := rfl
      have hz : z = b := by
        rw [this, List.getLast?_append_of_ne_nil _ (by simp)] at e; simpa using e
      subst hz
      have h3 := (List.pairwise_cons.1 ((List.pairwise_append.1 hs).2.1)).2
      exact ((List.pairwise_cons.1 h3).1 z (by simp)).le
  rw [dataValue_sorted _ hs a b ha hb, if_neg (by
    rw [not_or]; exact ⟨not_lt.2 (hap.trans h1), not_lt.2 (h2.trans hqb)⟩),
    npInterp_seg l p q r hs _ h1 h2]

/-- C35.  At every tabulated radius in [0,1] the value is the tabulated one. -/
theorem C35_nodes (t : List (K × K)) (hs : SortedTable t) (h2 : 2 ≤ t.length) (p : K × K)
    (hp : p ∈ t) (h0 : 0 ≤ p.1) (h1 : p.1 ≤ 1) (s : K) :
    dataValue t s p.1 = .ok (s * p.2) := by
  obtain ⟨l, r, rfl⟩ := List.append_of_mem hp
  have hc := clip_of_mem p.1 h0 h1
  cases r with
  | cons q r =>
    have hpq : p.1 < q.1 :=
      (List.pairwise_cons.1 (List.pairwise_append.1 hs).2.1).1 q (by simp)
    rw [(C35_linear l p q r hs s p.1 hc.ge (hc.le.trans hpq.le)).1, hc]
    simp
  | nil =>
    rcases List.eq_nil_or_concat l with rfl | ⟨l', o, rfl⟩
    · simp at h2
    · have e : (l' ++ [o]) ++ [p] = l' ++ o :: p :: [] := by simp
      rw [List.concat_eq_append] at *
      rw [e] at hs ⊢
      have hop : o.1 < p.1 :=
        (List.pairwise_cons.1 (List.pairwise_append.1 hs).2.1).1 p (by simp)
      rw [(C35_linear l' o p [] hs s p.1 (hop.le.trans hc.ge) hc.le).1, hc]
      have : p.1 - o.1 ≠ 0 := (sub_pos.2 hop).ne'
      rw [div_self this]
      simp

/-- C35.  With a non-negative scale every value lies between the bounds of the data. -/
theorem C35_bounds (t : List (K × K)) (hs : SortedTable t) (lo hi s x v : K) (hs0 : 0 ≤ s)
    (hlo : ∀ p ∈ t, lo ≤ p.2) (hhi : ∀ p ∈ t, p.2 ≤ hi) (hv : dataValue t s x = .ok v) :
    s * lo ≤ v ∧ v ≤ s * hi := by
  cases t with
  | nil => simp [dataValue, interp1d, bind, Except.bind] at hv
  | cons a t =>
    obtain ⟨b, hb⟩ : ∃ b, (a :: t).getLast? = some b :=
      Option.isSome_iff_exists.1 (by simp [List.getLast?_isSome])
    rw [dataValue_sorted _ hs a b rfl hb] at hv
    split_ifs at hv
    obtain rfl : s * npInterp (a :: t) (clip 0 1 x) = v := by simpa using hv
    obtain ⟨b1, b2⟩ := npInterp_bounds (a :: t) hs (by simp) lo hi hlo hhi (clip 0 1 x)
    exact ⟨mul_le_mul_of_nonneg_left b1 hs0, mul_le_mul_of_nonneg_left b2 hs0⟩

theorem dataValue_ok (t : List (K × K)) (hs : SortedTable t) (s x v : K)
    (hv : dataValue t s x = .ok v) : v = s * npInterp t (clip 0 1 x) := by
  cases t with
  | nil => simp [dataValue, interp1d, bind, Except.bind] at hv
  | cons a t =>
    obtain ⟨b, hb⟩ : ∃ b, (a :: t).getLast? = some b :=
      Option.isSome_iff_exists.1 (by simp [List.getLast?_isSome])
    rw [dataValue_sorted _ hs a b rfl hb] at hv
    split_ifs at hv
    exact (by simpa using hv : s * npInterp (a :: t) (clip 0 1 x) = v).symm

/-- C35.  Monotone data give monotone profiles (both directions). -/
theorem C35_monotone (t : List (K × K)) (hs : SortedTable t) (s x y v w : K) (hs0 : 0 ≤ s)
    (hxy : x ≤ y) (hv : dataValue t s x = .ok v) (hw : dataValue t s y = .ok w) :
    (t.Pairwise (fun p q => p.2 ≤ q.2) → v ≤ w) ∧ (t.Pairwise (fun p q => q.2 ≤ p.2) → w ≤ v) := by
  rw [dataValue_ok t hs s x v hv, dataValue_ok t hs s y w hw]
  refine ⟨fun hm => mul_le_mul_of_nonneg_left (npInterp_mono t hs hm _ _ (clip_mono _ _ hxy)) hs0,
    fun hm => mul_le_mul_of_nonneg_left ?_ hs0⟩
  have h := npInterp_mono (t.map (fun p => (p.1, (-1) * p.2)))
    (List.pairwise_map.2 hs)
    (List.pairwise_map.2 (hm.imp (fun h => by simpa using h))) _ _ (clip_mono _ _ hxy)
  rw [npInterp_scale, npInterp_scale] at h
  linarith

/-- C35.  The profile is constant outside [0,1]. -/
theorem C35_outside (t : List (K × K)) (s x : K) :
    (x ≤ 0 → dataValue t s x = dataValue t s 0) ∧ (1 ≤ x → dataValue t s x = dataValue t s 1) := by
  unfold dataValue
  refine ⟨fun h => ?_, fun h => ?_⟩
  · rw [clip_le x h, clip_le 0 (le_refl _)]
  · rw [clip_ge x h, clip_ge 1 (le_refl _)]

/-- C35.  The order in which the data points are listed is irrelevant (distinct radii). -/
theorem C35_order (t t' : List (K × K)) (hp : t.Perm t') (hd : (t.map Prod.fst).Nodup) (s x : K) :
    dataValue t s x = dataValue t' s x := by
  have e : t.mergeSort (fun p q => decide (p.1 ≤ q.1)) =
      t'.mergeSort (fun p q => decide (p.1 ≤ q.1)) := by
    have htr : ∀ a b c : K × K, decide (a.1 ≤ b.1) = true → decide (b.1 ≤ c.1) = true →
        decide (a.1 ≤ c.1) = true := by
      intro a b c; simpa using le_trans
    have hto : ∀ a b : K × K, (decide (a.1 ≤ b.1) || decide (b.1 ≤ a.1)) = true := by
      intro a b; simpa using le_total a.1 b.1
    have hinj : ∀ a ∈ t, ∀ b ∈ t, a.1 = b.1 → a = b := by
      intro a ha b hb hab
      exact List.inj_on_of_nodup_map hd ha hb hab
    refine List.Perm.eq_of_pairwise ?_ (List.pairwise_mergeSort htr hto t)
      (List.pairwise_mergeSort htr hto t') ?_
    · intro a b ha hb h1 h2
      exact hinj a (List.mem_mergeSort.1 ha) b (hp.mem_iff.2 (List.mem_mergeSort.1 hb))
        (le_antisymm (by simpa using h1) (by simpa using h2))
    · exact ((List.mergeSort_perm _ _).trans hp).trans (List.mergeSort_perm _ _).symm
  unfold dataValue interp1d
  rw [e]

end ordered

/-- C35.  A table covering [0,1] gives a profile that is defined everywhere and continuous. -/
theorem C35_continuous (t : List (ℝ × ℝ)) (hs : SortedTable t) (a b : ℝ × ℝ)
    (ha : t.head? = some a) (hb : t.getLast? = some b) (h0 : a.1 ≤ 0) (h1 : 1 ≤ b.1) (s : ℝ) :
    ∃ f : ℝ → ℝ, Continuous f ∧ ∀ x, dataValue t s x = .ok (f x) := by
  refine ⟨fun x => s * npInterp t (clip 0 1 x), ?_, fun x => ?_⟩
  · refine continuous_const.mul ((npInterp_continuous t hs).comp ?_)
    unfold clip
    fun_prop
  · rw [dataValue_sorted t hs a b ha hb, if_neg]
    obtain ⟨c0, c1⟩ := clip_mem x
    rw [not_or]
    exact ⟨not_lt.2 (h0.trans c0), not_lt.2 (c1.trans h1)⟩

/-- A table with three points: value at the middle of the first segment, and outside. -/
example : dataValue [((0 : ℚ), (4 : ℚ)), (1/2, 2), (1, 0)] 3 (1/4) = .ok 9 ∧
    dataValue [((0 : ℚ), (4 : ℚ)), (1/2, 2), (1, 0)] 3 7 = .ok 0 := by
  have hs : SortedTable [((0 : ℚ), (4 : ℚ)), (1/2, 2), (1, 0)] := by
    simp [SortedTable]; norm_num
  have c1 : clip 0 1 (1/4 : ℚ) = 1/4 := clip_of_mem _ (by norm_num) (by norm_num)
  have c2 : clip 0 1 (7 : ℚ) = 1 := clip_ge _ (by norm_num)
  refine ⟨?_, ?_⟩
  · have := (C35_linear [] ((0 : ℚ), (4 : ℚ)) (1/2, 2) [(1, 0)] hs 3 (1/4) (by rw [c1]; norm_num)
      (by rw [c1]; norm_num)).1
    rw [List.nil_append] at this
    rw [this, c1]; norm_num
  · rw [(C35_outside _ 3 7).2 (by norm_num)]
    have := C35_nodes _ hs (by simp) (1, 0) (by simp) (by norm_num) (by norm_num) 3
    simpa using this

/-! ## C38 -/
section jsp
variable {K : Type} [Field K] [LinearOrder K] [IsStrictOrderedRing K]

/-- The frame selected by a frame number: the last one for -1, otherwise the numbered one. -/
def jspSelected (frames : List (JspFrame K)) (n : ℤ) : Option (JspFrame K) :=
  if n = -1 then frames.getLast? else if n < 0 then none else frames[n.toNat]?

/-- C38.  Frame numbers other than -1, …, n-1 are rejected with `ValueError`; an accepted number
selects the frame meant. -/
theorem C38_frames (frames : List (JspFrame K)) (hne : frames ≠ []) (n : ℤ) :
    ((n < -1 ∨ (frames.length : ℤ) ≤ n) → loadJsp frames n = .error .valueError) ∧
    (-1 ≤ n ∧ n < frames.length → ∃ f ∈ frames, jspSelected frames n = some f ∧
      ∀ ti0 til nd0 ndl nt0 ntl r0 rl, f.ti = ti0 :: til → f.nd = nd0 :: ndl → f.nt = nt0 :: ntl →
        f.rho = r0 :: rl →
        loadJsp frames n = .ok
          { rho := 0 :: f.rho
            ionTemperature := (ti0 :: f.ti).map (· / 1000)
            dDensity := nd0 :: f.nd
            tDensity := nt0 :: f.nt
            he3Density := List.replicate (f.rho.length + 1) 0 }) := by
  have hpos : 0 < frames.length := List.length_pos_iff.2 hne
  refine ⟨fun h => ?_, fun ⟨h1, h2⟩ => ?_⟩
  · unfold loadJsp
    rw [if_pos (by omega)]
  · set t : ℤ := if n = -1 then (frames.length : ℤ) - 1 else n with ht
    have ht0 : 0 ≤ t := by rw [ht]; split_ifs <;> omega
    have htl : t.toNat < frames.length := by rw [ht]; split_ifs <;> omega
    refine ⟨frames[t.toNat], List.getElem_mem _, ?_, ?_⟩
    · unfold jspSelected
      by_cases hn : n = -1
      · rw [if_pos hn, List.getLast?_eq_getElem?]
        have : t.toNat = frames.length - 1 := by rw [ht, if_pos hn]; omega
        rw [← this]; exact List.getElem?_eq_getElem htl
      · rw [if_neg hn, if_neg (by omega)]
        have : t = n := by rw [ht, if_neg hn]
        rw [this] at htl
        simp only [this]
        exact List.getElem?_eq_getElem htl
    · intro ti0 til nd0 ndl nt0 ntl r0 rl e1 e2 e3 e4
      unfold loadJsp
      rw [if_neg (by omega)]
      simp only [← ht]
      rw [List.getElem?_eq_getElem htl]
      simp only
      rw [if_neg (by omega), e1, e2, e3, e4]
      simp only [insertFirst, List.map_cons, bind, Except.bind]
      congr 2
      · simp [div_eq_mul_inv]
      · simp [List.map_const', List.replicate_succ]

/-- C38.  All returned profiles have one point more than the file when the file's rows are equally
long. -/
theorem C38_lengths (frames : List (JspFrame K)) (n : ℤ) (out : JettoOutput K)
    (h : loadJsp frames n = .ok out) :
    ∃ f ∈ frames, out.rho.length = f.rho.length + 1 ∧ out.he3Density.length = f.rho.length + 1 ∧
      out.ionTemperature.length = f.ti.length + 1 ∧ out.dDensity.length = f.nd.length + 1 ∧
      out.tDensity.length = f.nt.length + 1 := by
  unfold loadJsp at h
  split_ifs at h with h1
  · simp only at h
    split at h
    · simp at h
    · rename_i f hf
      split_ifs at h
      refine ⟨f, List.mem_of_getElem? hf, ?_⟩
      obtain ⟨r, ti, nd, nt⟩ := f
      cases r <;> cases ti <;> cases nd <;> cases nt <;>
        simp [insertFirst, bind, Except.bind] at h
      subst h
      simp
  · simp only at h
    split at h
    · simp at h
    · rename_i f hf
      split_ifs at h
      refine ⟨f, List.mem_of_getElem? hf, ?_⟩
      obtain ⟨r, ti, nd, nt⟩ := f
      cases r <;> cases ti <;> cases nd <;> cases nt <;>
        simp [insertFirst, bind, Except.bind] at h
      subst h
      simp

/-- Two frames; frame -1 is the second. -/
example : loadJsp [⟨[1/2], [1000], [5], [6]⟩, (⟨[1/2, 1], [2000, 1000], [7, 8], [9, 1]⟩ : JspFrame ℚ)]
    (-1) = .ok ⟨[0, 1/2, 1], [2, 2, 1], [7, 7, 8], [9, 9, 1], [0, 0, 0]⟩ := by
  obtain ⟨f, -, hf, h⟩ := (C38_frames [⟨[1/2], [1000], [5], [6]⟩,
    (⟨[1/2, 1], [2000, 1000], [7, 8], [9, 1]⟩ : JspFrame ℚ)] (by simp) (-1)).2 (by simp)
  simp only [jspSelected, if_true, List.getLast?_cons_cons, List.getLast?_singleton,
    Option.some.injEq] at hf
  subst hf
  rw [h _ _ _ _ _ _ _ _ rfl rfl rfl rfl]
  norm_num [List.replicate]

end jsp

/-! ## C32, C33, C34 -/
noncomputable section

/-- C34.  After any sequence of `set_scale` calls the value is the original one times the product of
the scales, failing exactly when the original fails. -/
theorem C34_scale (p : Profile) (cs : List ℝ) (rho : ℝ) :
    (cs.foldl Profile.setScale p).value rho = (p.value rho).map (cs.prod * ·) := by
  have hf : ∀ cs : List ℝ, cs.foldl Profile.setScale p = ⟨p.kind, p.scale * cs.prod⟩ := by
    intro cs
    induction cs generalizing p with
    | nil => simp
    | cons c cs ih => rw [List.foldl_cons, ih]; simp [Profile.setScale, mul_assoc]
  rw [hf]
  unfold Profile.value
  cases p.kind with
  | data t =>
    simp only [dataValue]
    cases interp1d t (clip 0 1 rho) with
    | error e => rfl
    | ok v => simp [bind, Except.bind, Except.map]; ring
  | parabolic => simp [Except.map]; ring
  | pedestal => simp [Except.map]; ring

/-- C34.  The order of the `set_scale` calls is irrelevant. -/
theorem C34_order (p : Profile) (cs cs' : List ℝ) (h : cs.Perm cs') (rho : ℝ) :
    (cs.foldl Profile.setScale p).value rho = (cs'.foldl Profile.setScale p).value rho := by
  rw [C34_scale, C34_scale, h.prod_eq]

/-- A parabolic profile scaled by 2 and then 3 has six times its value. -/
example (rho : ℝ) : (((⟨.parabolic 5 1 2, 1⟩ : Profile).setScale 2).setScale 3).value rho =
    .ok (6 * (1 * parabolicValue 5 1 2 rho)) := by
  have := C34_scale ⟨.parabolic 5 1 2, 1⟩ [2, 3] rho
  simp only [List.foldl_cons, List.foldl_nil] at this
  rw [this]
  simp only [Profile.value, Except.map, List.prod_cons, List.prod_nil]
  norm_num

/-- The scale of a profile built from arrays is absorbed in its data. -/
theorem zip_map_scale (rho fuel : List ℝ) (c : ℝ) :
    List.zip rho (fuel.map (c * ·)) = (List.zip rho fuel).map (fun p => (p.1, c * p.2)) := by
  induction rho generalizing fuel with
  | nil => simp
  | cons r rho ih => cases fuel <;> simp [ih]

/-- C32.  From arrays: at every radius each species density is its fraction of the fuel density (and
is undefined exactly where the fuel density is). -/
theorem C32_arrays (rho fuel temp : List ℝ) (c : Composition ℝ) (tr : Transport)
    (h : Transport.fromProfiles rho fuel temp c = .ok tr) (x : ℝ) :
    let n := (⟨.data (List.zip rho fuel), 1⟩ : Profile).value x
    tr.deuterium.value x = n.map (c.D * ·) ∧ tr.tritium.value x = n.map (c.T * ·) ∧
    tr.helium3.value x = n.map (c.He3 * ·) ∧
    tr.temperature.value x = (⟨.data (List.zip rho temp), 1⟩ : Profile).value x := by
  unfold Transport.fromProfiles at h
  split_ifs at h
  obtain rfl := (by simpa using h : _ = tr)
  have key : ∀ a : ℝ, (⟨.data (List.zip rho (fuel.map (a * ·))), 1⟩ : Profile).value x =
      ((⟨.data (List.zip rho fuel), 1⟩ : Profile).value x).map (a * ·) := by
    intro a
    simp only [Profile.value, dataValue, zip_map_scale, interp1d_scale]
    cases interp1d (List.zip rho fuel) (clip 0 1 x) <;> simp [Except.map, bind, Except.bind]
  exact ⟨key _, key _, key _, rfl⟩

/-- C32.  With a composition built by the constructor the species densities sum to the fuel
density. -/
theorem C32_sum (d t h : ℝ) (c : Composition ℝ) (hc : Composition.make d t h = .ok c)
    (rho fuel temp : List ℝ) (tr : Transport) (htr : Transport.fromProfiles rho fuel temp c = .ok tr)
    (x n : ℝ) (hn : (⟨.data (List.zip rho fuel), 1⟩ : Profile).value x = .ok n) :
    ∃ nD nT nH : ℝ, tr.deuterium.value x = .ok nD ∧ tr.tritium.value x = .ok nT ∧
      tr.helium3.value x = .ok nH ∧ nD + nT + nH = n := by
  obtain ⟨a, b, e, -⟩ := C32_arrays rho fuel temp c tr htr x
  rw [hn] at a b e
  refine ⟨_, _, _, a, b, e, ?_⟩
  by_cases h0 : d + t + h = 0
  · rw [(C31_fractions d t h).1 h0] at hc; simp at hc
  · obtain ⟨c', h1, h2, -⟩ := (C31_fractions d t h).2.1 h0
    rw [h1] at hc
    obtain rfl : c' = c := by simpa using hc
    rw [← add_mul, ← add_mul, h2, one_mul]

/-- `from_profiles` fails exactly for arrays of different lengths. -/
theorem C32_lengths (rho fuel temp : List ℝ) (c : Composition ℝ) :
    (∃ tr, Transport.fromProfiles rho fuel temp c = .ok tr) ↔
      fuel.length = rho.length ∧ temp.length = rho.length := by
  unfold Transport.fromProfiles
  split_ifs with h
  · simp; intro h1 h2; exact h.elim (fun h => h h1) (fun h => h h2)
  · simp at h ⊢; exact h

/-- What `from_parameterisations` builds. -/
theorem fromParam_eq (h : Heap) (temp fuel : ℕ) (c : Composition ℝ) (p q : Profile)
    (hp : h[fuel]? = some p) (hq : h[temp]? = some q) :
    fromParameterisations h temp fuel c =
      some (h ++ [p.setScale c.D, p.setScale c.T, p.setScale c.He3],
        ⟨h.length, h.length + 1, h.length + 2, temp⟩) := by
  have hlt : fuel < h.length := (List.getElem?_eq_some_iff.1 hp).1
  have m : ∀ (l : List Profile) (a : Profile) (f : Profile → Profile),
      (l ++ [a]).modify l.length f = l ++ [f a] := by
    intro l a f
    induction l with
    | nil => rfl
    | cons b l ih => simpa using ih
  have g : ∀ l : List Profile, (h ++ l)[fuel]? = some p := by
    intro l; rw [List.getElem?_append_left hlt, hp]
  simp only [fromParameterisations, hp, hq, Heap.deepcopy, Heap.setScale, Option.bind_eq_bind,
    Option.bind_some, m, g]
  have e1 : (h ++ [p.setScale c.D]).length = h.length + 1 := by simp
  have e2 : (h ++ [p.setScale c.D] ++ [p.setScale c.T]).length = h.length + 2 := by simp
  have g2 : (h ++ [p.setScale c.D] ++ [p.setScale c.T])[fuel]? = some p := by
    rw [List.append_assoc, g]
  simp only [g2, Option.bind_some, m]
  simp

/-- C32.  Building from a profile object gives, at every radius, the same densities as building from
arrays with the same data. -/
theorem C32_same (rho fuel temp : List ℝ) (c : Composition ℝ) (tr : Transport)
    (htr : Transport.fromProfiles rho fuel temp c = .ok tr) (h : Heap) (i j : ℕ)
    (hi : h[i]? = some ⟨.data (List.zip rho fuel), 1⟩)
    (hj : h[j]? = some ⟨.data (List.zip rho temp), 1⟩) :
    ∃ h' r, fromParameterisations h j i c = some (h', r) ∧
      ∃ pD pT pH pTemp, h'[r.deuterium]? = some pD ∧ h'[r.tritium]? = some pT ∧
        h'[r.helium3]? = some pH ∧ h'[r.temperature]? = some pTemp ∧
        ∀ x, pD.value x = tr.deuterium.value x ∧ pT.value x = tr.tritium.value x ∧
          pH.value x = tr.helium3.value x ∧ pTemp.value x = tr.temperature.value x := by
  refine ⟨_, _, fromParam_eq h j i c _ _ hi hj,
    Profile.setScale ⟨.data (List.zip rho fuel), 1⟩ c.D,
    Profile.setScale ⟨.data (List.zip rho fuel), 1⟩ c.T,
    Profile.setScale ⟨.data (List.zip rho fuel), 1⟩ c.He3,
    ⟨.data (List.zip rho temp), 1⟩, ?_, ?_, ?_, ?_, fun x => ?_⟩
  · simp
  · simp [List.getElem?_append_right]
  · simp [List.getElem?_append_right]
  · simp only
    rw [List.getElem?_append_left (List.getElem?_eq_some_iff.1 hj).1, hj]
  · obtain ⟨a, b, d, e⟩ := C32_arrays rho fuel temp c tr htr x
    have s := fun y => C34_scale ⟨.data (List.zip rho fuel), 1⟩ [y] x
    simp only [List.foldl_cons, List.foldl_nil, List.prod_singleton] at s
    exact ⟨by rw [s, a], by rw [s, b], by rw [s, d], e.symm⟩

/-- C33.  `from_parameterisations` succeeds for valid references; the three density profiles are new
objects, distinct from each other and from every object the caller had, and hold the fuel density
scaled by the fractions; no object of the caller is changed, and the temperature profile is the
caller's object itself. -/
theorem C33_fresh (h : Heap) (temp fuel : ℕ) (c : Composition ℝ) (p : Profile)
    (hp : h[fuel]? = some p) (ht : temp < h.length) :
    ∃ h' r, fromParameterisations h temp fuel c = some (h', r) ∧
      (∀ i, i < h.length → h'[i]? = h[i]?) ∧
      (h.length ≤ r.deuterium ∧ h.length ≤ r.tritium ∧ h.length ≤ r.helium3) ∧
      (r.deuterium ≠ r.tritium ∧ r.deuterium ≠ r.helium3 ∧ r.tritium ≠ r.helium3) ∧
      r.temperature = temp ∧
      h'[r.deuterium]? = some (p.setScale c.D) ∧ h'[r.tritium]? = some (p.setScale c.T) ∧
      h'[r.helium3]? = some (p.setScale c.He3) := by
  refine ⟨_, _, fromParam_eq h temp fuel c p h[temp] hp (List.getElem?_eq_getElem ht), ?_, ?_, ?_,
    rfl, ?_, ?_, ?_⟩
  · intro i hi; exact List.getElem?_append_left hi
  · simp only; omega
  · simp only; omega
  · simp
  · simp [List.getElem?_append_right]
  · simp [List.getElem?_append_right]

/-- A history of `set_scale` calls on objects. -/
def Heap.run (h : Heap) (ops : List (ℕ × ℝ)) : Heap := ops.foldl (fun h o => h.setScale o.1 o.2) h

/-- The scales applied to object `i` by a history. -/
def scalesOn (i : ℕ) (ops : List (ℕ × ℝ)) : List ℝ :=
  (ops.filter (fun o => o.1 = i)).map Prod.snd

theorem run_get (h : Heap) (ops : List (ℕ × ℝ)) (i : ℕ) :
    (h.run ops)[i]? = (h[i]?).map (fun p => (scalesOn i ops).foldl Profile.setScale p) := by
  induction ops generalizing h with
  | nil => simp [Heap.run, scalesOn]
  | cons o ops ih =>
    have : h.run (o :: ops) = (h.setScale o.1 o.2).run ops := rfl
    rw [this, ih, Heap.setScale, List.getElem?_modify]
    by_cases ho : o.1 = i
    · cases h[i]? <;> simp [scalesOn, ho]
    · cases h[i]? <;> simp [scalesOn, ho]

/-- C33.  After construction, whatever sequence of `set_scale` calls is made on any objects (the
caller's or the transport's), the density of each species is its fraction of the fuel density at
construction times the scales applied to that species' own profile: calls on the caller's profile or
on another species' profile have no effect on it.  The caller's profile likewise sees only the calls
made on it.  The temperature profile is shared: it sees exactly the calls made on the caller's
object. -/
theorem C33_isolated (h : Heap) (temp fuel : ℕ) (c : Composition ℝ) (p q : Profile)
    (hp : h[fuel]? = some p) (hq : h[temp]? = some q) (h' : Heap) (r : TransportRef)
    (hr : fromParameterisations h temp fuel c = some (h', r)) (ops : List (ℕ × ℝ)) :
    ∃ pD pT pH pFuel pTemp,
      (h'.run ops)[r.deuterium]? = some pD ∧ (h'.run ops)[r.tritium]? = some pT ∧
      (h'.run ops)[r.helium3]? = some pH ∧ (h'.run ops)[fuel]? = some pFuel ∧
      (h'.run ops)[r.temperature]? = some pTemp ∧ (h'.run ops)[temp]? = some pTemp ∧
      ∀ x : ℝ,
        pD.value x = (p.value x).map (c.D * (scalesOn r.deuterium ops).prod * ·) ∧
        pT.value x = (p.value x).map (c.T * (scalesOn r.tritium ops).prod * ·) ∧
        pH.value x = (p.value x).map (c.He3 * (scalesOn r.helium3 ops).prod * ·) ∧
        pFuel.value x = (p.value x).map ((scalesOn fuel ops).prod * ·) ∧
        pTemp.value x = (q.value x).map ((scalesOn temp ops).prod * ·) := by
  obtain ⟨h'', r', e, hold, -, -, et, eD, eT, eH⟩ := C33_fresh h temp fuel c p hp
    (List.getElem?_eq_some_iff.1 hq).1
  rw [hr] at e
  obtain ⟨rfl, rfl⟩ : h' = h'' ∧ r = r' := by simpa using e
  have hf : h'[fuel]? = some p := by rw [hold _ (List.getElem?_eq_some_iff.1 hp).1, hp]
  have ht : h'[temp]? = some q := by rw [hold _ (List.getElem?_eq_some_iff.1 hq).1, hq]
  refine ⟨_, _, _, _, _, by rw [run_get, eD]; rfl, by rw [run_get, eT]; rfl,
    by rw [run_get, eH]; rfl, by rw [run_get, hf]; rfl, by rw [run_get, et, ht]; rfl,
    by rw [run_get, ht]; rfl, fun x => ⟨?_, ?_, ?_, C34_scale _ _ _, C34_scale _ _ _⟩⟩
  · exact C34_scale p (c.D :: scalesOn r.deuterium ops) x
  · exact C34_scale p (c.T :: scalesOn r.tritium ops) x
  · exact C34_scale p (c.He3 :: scalesOn r.helium3 ops) x

/-- A caller rescaling its density profile after construction: the deuterium density stays one half
of the old density, the caller's own doubles. -/
example (p q : Profile) (x : ℝ) : ∃ h' r pD pFuel,
    fromParameterisations [p, q] 1 0 ⟨1/2, 1/2, 0⟩ = some (h', r) ∧
    (h'.run [(0, 2)])[r.deuterium]? = some pD ∧ (h'.run [(0, 2)])[0]? = some pFuel ∧
    pD.value x = (p.value x).map ((1/2) * ·) ∧ pFuel.value x = (p.value x).map (2 * ·) := by
  obtain ⟨h', r, e, -, hg, -⟩ := C33_fresh [p, q] 1 0 ⟨1/2, 1/2, 0⟩ p rfl (by simp)
  obtain ⟨pD, _, _, pF, _, a, _, _, b, _, _, hv⟩ :=
    C33_isolated [p, q] 1 0 ⟨1/2, 1/2, 0⟩ p q rfl rfl h' r e [(0, 2)]
  refine ⟨h', r, pD, pF, e, a, b, ?_, ?_⟩
  · have : scalesOn r.deuterium [(0, 2)] = [] := by
      simp at hg
      simp [scalesOn]; omega
    rw [(hv x).1, this]; simp
  · rw [(hv x).2.2.2.1]; simp [scalesOn]

end
end TNS
