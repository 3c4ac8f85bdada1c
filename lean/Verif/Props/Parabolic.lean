import Verif.Props.Profile
/-
C36, C37: parameterised profiles.  Exponents are positive.
-/

set_option autoImplicit false

namespace TNS

theorem clip_continuous : Continuous (fun x : ℝ => clip 0 1 x) := by
  unfold clip; fun_prop

/-! ## C36 -/

/-- C36.  The parabolic profile is `core (1 - ρ^β)^α` with ρ the argument clipped to [0,1]. -/
theorem C36_formula (core alpha beta rho : ℝ) (ha : 0 < alpha) (hb : 0 < beta) :
    parabolicValue core alpha beta rho = core * (1 - (clip 0 1 rho) ^ beta) ^ alpha := by
  obtain ⟨h0, h1⟩ := clip_mem rho
  unfold parabolicValue
  simp only
  have e : ((SignType.sign (clip 0 1 rho) : SignType) : ℝ) * |clip 0 1 rho| ^ beta =
      clip 0 1 rho ^ beta := by
    rcases h0.eq_or_lt with h | h
    · rw [← h]; simp [Real.zero_rpow hb.ne']
    · rw [sign_pos h, abs_of_pos h]; simp
  rw [e]
  have hp : clip 0 1 rho ^ beta ≤ 1 := Real.rpow_le_one h0 h1 hb.le
  rcases (sub_nonneg.2 hp).eq_or_lt with h | h
  · rw [← h]; simp [Real.zero_rpow ha.ne']
  · rw [sign_pos h, abs_of_pos h]; simp

/-- C36.  End values, bounds, monotonicity and continuity. -/
theorem C36_parabolic (core alpha beta : ℝ) (ha : 0 < alpha) (hb : 0 < beta) (hc : 0 ≤ core) :
    (∀ rho ≤ 0, parabolicValue core alpha beta rho = core) ∧
    (∀ rho ≥ 1, parabolicValue core alpha beta rho = 0) ∧
    (∀ rho, 0 ≤ parabolicValue core alpha beta rho ∧ parabolicValue core alpha beta rho ≤ core) ∧
    Antitone (parabolicValue core alpha beta) ∧ Continuous (parabolicValue core alpha beta) := by
  refine ⟨fun r hr => ?_, fun r hr => ?_, fun r => ?_, fun r s hrs => ?_, ?_⟩
  · rw [C36_formula _ _ _ _ ha hb, clip_le r hr]; simp [Real.zero_rpow hb.ne']
  · rw [C36_formula _ _ _ _ ha hb, clip_ge r hr]; simp [Real.zero_rpow ha.ne']
  · rw [C36_formula _ _ _ _ ha hb]
    obtain ⟨h0, h1⟩ := clip_mem r
    have hp : clip 0 1 r ^ beta ≤ 1 := Real.rpow_le_one h0 h1 hb.le
    have hq : 0 ≤ clip 0 1 r ^ beta := Real.rpow_nonneg h0 _
    have h2 : (1 - clip 0 1 r ^ beta) ^ alpha ≤ 1 :=
      Real.rpow_le_one (by linarith) (by linarith) ha.le
    have h3 : 0 ≤ (1 - clip 0 1 r ^ beta) ^ alpha := Real.rpow_nonneg (by linarith) _
    exact ⟨mul_nonneg hc h3, mul_le_of_le_one_right hc h2⟩
  · rw [C36_formula _ _ _ _ ha hb, C36_formula _ _ _ _ ha hb]
    obtain ⟨h0, h1⟩ := clip_mem r
    obtain ⟨h0', h1'⟩ := clip_mem s
    have hp : clip 0 1 s ^ beta ≤ 1 := Real.rpow_le_one h0' h1' hb.le
    have hm : clip 0 1 r ^ beta ≤ clip 0 1 s ^ beta :=
      Real.rpow_le_rpow h0 (clip_mono _ _ hrs) hb.le
    exact mul_le_mul_of_nonneg_left
      (Real.rpow_le_rpow (by linarith) (by linarith) ha.le) hc
  · have e : parabolicValue core alpha beta =
        fun rho => core * (1 - (clip 0 1 rho) ^ beta) ^ alpha :=
      funext fun r => C36_formula _ _ _ _ ha hb
    rw [e]
    refine continuous_const.mul (Continuous.rpow_const ?_ (fun _ => Or.inr ha.le))
    exact continuous_const.sub (clip_continuous.rpow_const (fun _ => Or.inr hb.le))

/-- C36.  Inside (0,1) the profile is strictly decreasing when the core value is positive. -/
theorem C36_strict (core alpha beta : ℝ) (ha : 0 < alpha) (hb : 0 < beta) (hc : 0 < core) :
    StrictAntiOn (parabolicValue core alpha beta) (Set.Icc 0 1) := by
  intro r hr s hs hrs
  rw [C36_formula _ _ _ _ ha hb, C36_formula _ _ _ _ ha hb, clip_of_mem r hr.1 hr.2,
    clip_of_mem s hs.1 hs.2]
  have hm : r ^ beta < s ^ beta := Real.rpow_lt_rpow hr.1 hrs hb
  have hp : s ^ beta ≤ 1 := Real.rpow_le_one hs.1 hs.2 hb.le
  exact mul_lt_mul_of_pos_left (Real.rpow_lt_rpow (by linarith) (by linarith) ha) hc

/-- Core value 10, exponents 1 and 2: 7.5 at half radius. -/
example : parabolicValue 10 1 2 (1/2) = 7.5 := by
  rw [C36_formula _ _ _ _ (by norm_num) (by norm_num), clip_of_mem _ (by norm_num) (by norm_num)]
  have : ((1:ℝ)/2) ^ (2:ℝ) = 1/4 := by
    rw [show (2:ℝ) = ((2:ℕ):ℝ) by norm_num, Real.rpow_natCast]; norm_num
  rw [this, Real.rpow_one]; norm_num

/-! ## C37 -/

section pedestal
variable (core ped sep alpha beta rp : ℝ)

/-- C37.  Core and pedestal formulas for an interior pedestal radius. -/
theorem C37_formula (ha : 0 < alpha) (hb : 0 < beta) (h0 : 0 < rp) (h1 : rp < 1) (rho : ℝ) :
    pedestalValue core ped sep alpha beta rp rho =
      if clip 0 1 rho < rp then ped + (core - ped) * (1 - (clip 0 1 rho / rp) ^ beta) ^ alpha
      else sep + (ped - sep) * (1 - clip 0 1 rho) / (1 - rp) := by
  unfold pedestalValue
  simp only
  rw [clip_of_mem rp h0.le h1.le]
  rw [if_neg h1.ne]
  split_ifs with h
  · obtain ⟨c0, c1⟩ := clip_mem rho
    have q0 : 0 ≤ clip 0 1 rho / rp := div_nonneg c0 h0.le
    have q1 : clip 0 1 rho / rp ≤ 1 := (div_le_one h0).2 h.le
    rw [clip_of_mem _ (sub_nonneg.2 (Real.rpow_le_one q0 q1 hb.le))
      (by linarith [Real.rpow_nonneg q0 beta])]
  · rfl

/-- The two branches of C37 as one function without case distinction. -/
theorem pedestal_joined (ha : 0 < alpha) (hb : 0 < beta) (h0 : 0 < rp) (h1 : rp < 1) (rho : ℝ) :
    pedestalValue core ped sep alpha beta rp rho =
      sep + (ped - sep) * ((1 - max (clip 0 1 rho) rp) / (1 - rp)) +
        (core - ped) * (1 - (min (clip 0 1 rho) rp / rp) ^ beta) ^ alpha := by
  rw [C37_formula core ped sep alpha beta rp ha hb h0 h1]
  have : 1 - rp ≠ 0 := by linarith
  split_ifs with h
  · rw [max_eq_right h.le, min_eq_left h.le, div_self this]; ring
  · rw [not_lt] at h
    rw [max_eq_left h, min_eq_right h, div_self h0.ne', Real.one_rpow, sub_self,
      Real.zero_rpow ha.ne']
    ring

/-- C37.  Values at the axis, the pedestal and the separatrix, and outside. -/
theorem C37_values (ha : 0 < alpha) (hb : 0 < beta) (h0 : 0 < rp) (h1 : rp < 1) :
    (∀ rho ≤ 0, pedestalValue core ped sep alpha beta rp rho = core) ∧
    pedestalValue core ped sep alpha beta rp rp = ped ∧
    (∀ rho ≥ 1, pedestalValue core ped sep alpha beta rp rho = sep) := by
  refine ⟨fun r hr => ?_, ?_, fun r hr => ?_⟩
  · rw [C37_formula _ _ _ _ _ _ ha hb h0 h1, clip_le r hr, if_pos h0]
    simp [Real.zero_rpow hb.ne']
  · rw [C37_formula _ _ _ _ _ _ ha hb h0 h1, clip_of_mem rp h0.le h1.le, if_neg (lt_irrefl _)]
    have : 1 - rp ≠ 0 := by linarith
    field_simp
    ring
  · rw [C37_formula _ _ _ _ _ _ ha hb h0 h1, clip_ge r hr, if_neg (not_lt.2 h1.le)]
    simp

/-- C37.  The profile is continuous (in particular at the pedestal). -/
theorem C37_continuous (ha : 0 < alpha) (hb : 0 < beta) (h0 : 0 < rp) (h1 : rp < 1) :
    Continuous (pedestalValue core ped sep alpha beta rp) := by
  rw [funext (pedestal_joined core ped sep alpha beta rp ha hb h0 h1)]
  have hc := clip_continuous
  refine Continuous.add ?_ (continuous_const.mul (Continuous.rpow_const ?_ (fun _ => Or.inr ha.le)))
  · exact continuous_const.add (continuous_const.mul
      ((continuous_const.sub (hc.max continuous_const)).div_const _))
  · exact continuous_const.sub
      (((hc.min continuous_const).div_const _).rpow_const (fun _ => Or.inr hb.le))

/-- C37.  With core ≥ ped ≥ sep the profile never increases outwards. -/
theorem C37_antitone (ha : 0 < alpha) (hb : 0 < beta) (h0 : 0 < rp) (h1 : rp < 1)
    (hcp : ped ≤ core) (hps : sep ≤ ped) :
    Antitone (pedestalValue core ped sep alpha beta rp) := by
  intro r s hrs
  rw [pedestal_joined core ped sep alpha beta rp ha hb h0 h1,
    pedestal_joined core ped sep alpha beta rp ha hb h0 h1]
  have hc := clip_mono r s hrs
  obtain ⟨r0, r1⟩ := clip_mem r
  obtain ⟨s0, s1⟩ := clip_mem s
  have a1 : (1 - max (clip 0 1 s) rp) / (1 - rp) ≤ (1 - max (clip 0 1 r) rp) / (1 - rp) := by
    apply div_le_div_of_nonneg_right _ (by linarith)
    have := max_le_max_right rp hc
    linarith
  have q0 : 0 ≤ min (clip 0 1 r) rp / rp := div_nonneg (le_min r0 h0.le) h0.le
  have q1 : min (clip 0 1 s) rp / rp ≤ 1 := (div_le_one h0).2 (min_le_right _ _)
  have q2 : min (clip 0 1 r) rp / rp ≤ min (clip 0 1 s) rp / rp :=
    div_le_div_of_nonneg_right (min_le_min_right rp hc) h0.le
  have a2 : (1 - (min (clip 0 1 s) rp / rp) ^ beta) ^ alpha ≤
      (1 - (min (clip 0 1 r) rp / rp) ^ beta) ^ alpha := by
    apply Real.rpow_le_rpow _ _ ha.le
    · exact sub_nonneg.2 (Real.rpow_le_one (q0.trans q2) q1 hb.le)
    · have := Real.rpow_le_rpow q0 q2 hb.le
      linarith
  have b1 := mul_le_mul_of_nonneg_left a1 (sub_nonneg.2 hps)
  have b2 := mul_le_mul_of_nonneg_left a2 (sub_nonneg.2 hcp)
  linarith

/-- C37.  With core ≥ ped ≥ sep all values are between the separatrix and the core value. -/
theorem C37_bounds (ha : 0 < alpha) (hb : 0 < beta) (h0 : 0 < rp) (h1 : rp < 1)
    (hcp : ped ≤ core) (hps : sep ≤ ped) (rho : ℝ) :
    sep ≤ pedestalValue core ped sep alpha beta rp rho ∧
      pedestalValue core ped sep alpha beta rp rho ≤ core := by
  have hm := C37_antitone core ped sep alpha beta rp ha hb h0 h1 hcp hps
  obtain ⟨v0, -, v1⟩ := C37_values core ped sep alpha beta rp ha hb h0 h1
  refine ⟨?_, ?_⟩
  · rcases le_total rho 1 with h | h
    · exact (v1 1 (le_refl _)).ge.trans (hm h)
    · exact (v1 rho h).ge
  · rcases le_total rho 0 with h | h
    · exact (v0 rho h).le
    · exact (hm h).trans (v0 0 (le_refl _)).le

/-- C37.  A pedestal radius of 1 or more: the core formula everywhere inside, and the separatrix
value (not the pedestal value) at 1; so the profile jumps from `ped` to `sep`. -/
theorem C37_pedestal_at_edge (hb : 0 < beta) (h1 : 1 ≤ rp) :
    (∀ rho ≥ 1, pedestalValue core ped sep alpha beta rp rho = sep) ∧
    (∀ rho, 0 ≤ rho → rho < 1 → pedestalValue core ped sep alpha beta rp rho =
      ped + (core - ped) * (1 - rho ^ beta) ^ alpha) := by
  refine ⟨fun r hr => ?_, fun r h r1 => ?_⟩
  · simp [pedestalValue, clip_ge rp h1, clip_ge r hr]
  · simp only [pedestalValue, clip_ge rp h1, clip_of_mem r h r1.le, div_one, if_pos r1]
    rw [clip_of_mem _ (sub_nonneg.2 (Real.rpow_le_one h r1.le hb.le))
      (by linarith [Real.rpow_nonneg h beta])]

/-- C37.  A pedestal radius of 0 or less: the profile is the straight line from the pedestal value at
the axis to the separatrix value; the core value is ignored. -/
theorem C37_pedestal_at_axis (h0 : rp ≤ 0) (rho : ℝ) :
    pedestalValue core ped sep alpha beta rp rho = sep + (ped - sep) * (1 - clip 0 1 rho) := by
  unfold pedestalValue
  simp only
  rw [clip_le rp h0, if_neg (not_lt.2 (clip_mem rho).1), if_neg (by norm_num)]
  simp

end pedestal

/-- A typical profile: core 20, pedestal 5 at 0.9, separatrix 0.1. -/
example : pedestalValue 20 5 0.1 1.5 2 0.9 0 = 20 ∧ pedestalValue 20 5 0.1 1.5 2 0.9 0.9 = 5 ∧
    pedestalValue 20 5 0.1 1.5 2 0.9 1 = 0.1 := by
  obtain ⟨a, b, c⟩ := C37_values 20 5 0.1 1.5 2 0.9 (by norm_num) (by norm_num) (by norm_num)
    (by norm_num)
  exact ⟨a 0 (le_refl _), b, c 1 (le_refl _)⟩

/-! ## C32, C38: transport from arrays and from JETTO -/

/-- C38.  The transport built from a JETTO frame with equally long rows: at rho = 0 each profile has
the first tabulated value (temperature in keV), helium-3 is absent everywhere it is defined. -/
theorem C38_transport (frames : List (JspFrame ℝ)) (n : ℤ) (f : JspFrame ℝ)
    (hn : -1 ≤ n ∧ n < frames.length) (hsel : jspSelected frames n = some f)
    (r0 ti0 nd0 nt0 : ℝ) (rl til ndl ntl : List ℝ)
    (hr : f.rho = r0 :: rl) (hti : f.ti = ti0 :: til) (hnd : f.nd = nd0 :: ndl)
    (hnt : f.nt = nt0 :: ntl)
    (hlen : f.ti.length = f.rho.length ∧ f.nd.length = f.rho.length ∧ f.nt.length = f.rho.length)
    (hsort : (0 :: f.rho).Pairwise (· < ·)) :
    ∃ tr, Transport.fromJetto frames n = .ok tr ∧
      tr.deuterium.value 0 = .ok nd0 ∧ tr.tritium.value 0 = .ok nt0 ∧
      tr.temperature.value 0 = .ok (ti0 / 1000) ∧
      ∀ x v, tr.helium3.value x = .ok v → v = 0 := by
  have hne : frames ≠ [] := by rintro rfl; simp [jspSelected] at hsel
  obtain ⟨f', -, hf', hl⟩ := (C38_frames frames hne n).2 hn
  rw [hsel] at hf'
  obtain rfl : f = f' := by simpa using hf'
  have hl := hl _ _ _ _ _ _ _ _ hti hnd hnt hr
  have sorted : ∀ v : List ℝ, SortedTable (List.zip (0 :: f.rho) v) := by
    intro v
    have : ∀ (a b : List ℝ), a.Pairwise (· < ·) → SortedTable (List.zip a b) := by
      intro a
      induction a with
      | nil => intro b _; simp [SortedTable]
      | cons x a ih =>
        intro b h
        cases b with
        | nil => simp [SortedTable]
        | cons y b =>
          rw [List.zip_cons_cons]
          obtain ⟨h1, h2⟩ := List.pairwise_cons.1 h
          refine List.pairwise_cons.2 ⟨fun p hp => h1 _ (List.of_mem_zip hp).1, ih b h2⟩
    exact this _ _ hsort
  have at0 : ∀ (v : List ℝ) (v0 : ℝ) (vl : List ℝ), v = v0 :: vl → v.length = f.rho.length →
      (⟨.data (List.zip (0 :: f.rho) (v0 :: v)), 1⟩ : Profile).value 0 = .ok v0 := by
    intro v v0 vl hv hvl
    have := C35_nodes (List.zip (0 :: f.rho) (v0 :: v)) (sorted _) (by
      rw [List.length_zip]; simp [hvl, hr]) (0, v0) (by simp) (le_refl _) zero_le_one 1
    simpa [Profile.value] using this
  refine ⟨_, by
    unfold Transport.fromJetto
    rw [hl]
    simp only [bind, Except.bind]
    rw [if_neg (by simp [hlen])], ?_, ?_, ?_, ?_⟩
  · exact at0 _ _ _ hnd hlen.2.1
  · exact at0 _ _ _ hnt hlen.2.2
  · have := at0 (f.ti.map (· / 1000)) (ti0 / 1000) (til.map (· / 1000)) (by rw [hti]; rfl)
      (by simp [hlen.1])
    simpa using this
  · intro x v hv
    have hz : ∀ p ∈ List.zip (0 :: f.rho) (List.replicate (f.rho.length + 1) (0 : ℝ)), p.2 = 0 := by
      intro p hp
      exact (List.mem_replicate.1 (List.of_mem_zip hp).2).2
    obtain ⟨b1, b2⟩ := C35_bounds _ (sorted _) 0 0 1 x v zero_le_one
      (fun p hp => (hz p hp).ge) (fun p hp => (hz p hp).le) hv
    linarith

/-- Transport from arrays: a 50-50 mixture of a linear density 4 to 0. -/
example : ∃ tr, Transport.fromProfiles [0, 1] [4, 0] [10, 1] ⟨1/2, 1/2, 0⟩ = .ok tr ∧
    tr.deuterium.value 0 = .ok 2 := by
  obtain ⟨tr, htr⟩ := (C32_lengths [0, 1] [4, 0] [10, 1] ⟨1/2, 1/2, 0⟩).2 (by simp)
  refine ⟨tr, htr, ?_⟩
  rw [(C32_arrays _ _ _ _ _ htr 0).1]
  have : (⟨.data (List.zip [(0:ℝ), 1] [4, 0]), 1⟩ : Profile).value 0 = .ok 4 := by
    have := C35_nodes [((0:ℝ), (4:ℝ)), (1, 0)] (by simp [SortedTable]) (by simp) (0, 4) (by simp)
      (le_refl _) zero_le_one 1
    simpa [Profile.value] using this
  rw [this]; simp [Except.map]; norm_num

/-- A JETTO file with one frame. -/
example : ∃ tr, Transport.fromJetto [⟨[1/2, 1], [2000, 1000], [7, 8], [9, 1]⟩] (-1) = .ok tr ∧
    tr.deuterium.value 0 = .ok 7 ∧ tr.temperature.value 0 = .ok (2000 / 1000) := by
  obtain ⟨tr, h, a, -, b, -⟩ := C38_transport [⟨[1/2, 1], [2000, 1000], [7, 8], [9, 1]⟩] (-1) _
    (by simp) rfl (1/2) 2000 7 9 [1] [1000] [8] [1] rfl rfl rfl rfl (by simp)
    (by simp; norm_num)
  exact ⟨tr, h, a, b⟩

/-- C36.  The value a user reads from a `ParabolicProfile(core, alpha, beta)` object after any
`set_scale` calls: the product of the scales times `core (1 - ρ^β)^α` on [0,1]. -/
theorem C36_object (core alpha beta : ℝ) (ha : 0 < alpha) (hb : 0 < beta) (cs : List ℝ) (rho : ℝ)
    (h0 : 0 ≤ rho) (h1 : rho ≤ 1) :
    (cs.foldl Profile.setScale ⟨.parabolic core alpha beta, 1⟩).value rho =
      .ok (cs.prod * (core * (1 - rho ^ beta) ^ alpha)) := by
  rw [C34_scale]
  simp only [Profile.value, Except.map, one_mul]
  rw [C36_formula _ _ _ _ ha hb, clip_of_mem rho h0 h1]

/-- C37.  The value a user reads from a `ParabolicPedestalProfile` object after any `set_scale`
calls: the core parabola inside the pedestal radius, the straight line outside. -/
theorem C37_object (core ped sep alpha beta rp : ℝ) (ha : 0 < alpha) (hb : 0 < beta) (hp0 : 0 < rp)
    (hp1 : rp < 1) (cs : List ℝ) (rho : ℝ) (h0 : 0 ≤ rho) (h1 : rho ≤ 1) :
    (rho < rp → (cs.foldl Profile.setScale ⟨.pedestal core ped sep alpha beta rp, 1⟩).value rho =
      .ok (cs.prod * (ped + (core - ped) * (1 - (rho / rp) ^ beta) ^ alpha))) ∧
    (rp ≤ rho → (cs.foldl Profile.setScale ⟨.pedestal core ped sep alpha beta rp, 1⟩).value rho =
      .ok (cs.prod * (sep + (ped - sep) * ((1 - rho) / (1 - rp))))) := by
  refine ⟨fun h => ?_, fun h => ?_⟩
  · rw [C34_scale]
    simp only [Profile.value, Except.map, mul_one]
    rw [C37_formula _ _ _ _ _ _ ha hb hp0 hp1, clip_of_mem rho h0 h1, if_pos h]
  · rw [C34_scale]
    simp only [Profile.value, Except.map, mul_one]
    rw [C37_formula _ _ _ _ _ _ ha hb hp0 hp1, clip_of_mem rho h0 h1, if_neg (not_lt.2 h),
      mul_div_assoc]

/-- Core value 10, exponents 1 and 2, scaled by one half twice. -/
example : ([1/2, 1/2].foldl Profile.setScale ⟨.parabolic 10 1 2, 1⟩).value (1/2) = .ok (15/8) := by
  rw [C36_object _ _ _ (by norm_num) (by norm_num) _ _ (by norm_num) (by norm_num)]
  norm_num

end TNS
