import Verif.Props.RoundedProfileC100
/-
C100: plasmas from tabulated profiles, and the way to the source strengths.
-/

set_option autoImplicit false

namespace TNS
open Spec
noncomputable section

/-- Values replaced by close ones. -/
theorem npInterp_map_close {g : ℝ → ℝ} {c η : ℝ} (l : List (ℝ × ℝ)) (x : ℝ)
    (hg : ∀ p ∈ l, |g p.2 - c * p.2| ≤ η * (c * p.2)) :
    |npInterp (l.map fun p => (p.1, g p.2)) x - c * npInterp l x| ≤ η * (c * npInterp l x) := by
  induction l with
  | nil => simp [npInterp]
  | cons p l ih =>
    cases l with
    | nil => simpa [npInterp] using hg p (by simp)
    | cons q l =>
      have p0 := hg p (by simp)
      have q0 := hg q (by simp)
      simp only [npInterp, List.map_cons]
      by_cases h1 : x < q.1
      · rw [if_pos h1, if_pos h1]
        by_cases h2 : x < p.1
        · rw [if_pos h2, if_pos h2]; exact p0
        · rw [if_neg h2, if_neg h2]
          push Not at h2
          have hpq : p.1 < q.1 := lt_of_le_of_lt h2 h1
          set r := (x - p.1) / (q.1 - p.1) with hr
          have r0 : 0 ≤ r := div_nonneg (by linarith) (by linarith)
          have r1 : r ≤ 1 := (div_le_one (by linarith)).2 (by linarith)
          have e0 : ∀ a b : ℝ, (b - a) / (q.1 - p.1) * (x - p.1) + a = b * r + a * (1 - r) := by
            intro a b
            rw [hr]
            have : q.1 - p.1 ≠ 0 := by linarith
            field_simp
            ring
          rw [e0, e0]
          have e : g q.2 * r + g p.2 * (1 - r) - c * (q.2 * r + p.2 * (1 - r)) =
            (g q.2 - c * q.2) * r + (g p.2 - c * p.2) * (1 - r) := by ring
          rw [e]
          refine (abs_add_le _ _).trans ?_
          rw [abs_mul, abs_mul, abs_of_nonneg r0, abs_of_nonneg (show 0 ≤ 1 - r by linarith)]
          have m1 := mul_le_mul_of_nonneg_right q0 r0
          have m2 := mul_le_mul_of_nonneg_right p0 (show 0 ≤ 1 - r by linarith)
          linarith
      · rw [if_neg h1, if_neg h1]
        have := ih fun r hr => hg r (List.mem_cons_of_mem _ hr)
        simpa only [List.map_cons] using this

theorem zip_map_values (rho fuel : List ℝ) (g : ℝ → ℝ) :
    List.zip rho (fuel.map g) = (List.zip rho fuel).map fun p => (p.1, g p.2) := by
  rw [List.zip_map_right]
  rfl

theorem data_map_value {table : List (ℝ × ℝ)} (g : ℝ → ℝ) {rho y : ℝ}
    (h : (Profile.mk (.data table) 1).value rho = .ok y) :
    (Profile.mk (.data (table.map fun p => (p.1, g p.2))) 1).value rho =
      .ok (1 * npInterp ((table.mergeSort fun p q => decide (p.1 ≤ q.1)).map fun p => (p.1, g p.2)) (clip 0 1 rho)) := by
  have hm := List.map_mergeSort (r := fun p q : ℝ × ℝ => decide (p.1 ≤ q.1)) (s := fun p q : ℝ × ℝ => decide (p.1 ≤ q.1))
    (f := fun p : ℝ × ℝ => (p.1, g p.2)) (l := table) (fun a _ b _ => rfl)
  simp only [Profile.value, dataValue, interp1d] at h ⊢
  rw [← hm]
  generalize table.mergeSort (fun p q : ℝ × ℝ => decide (p.1 ≤ q.1)) = l at h ⊢
  generalize clip 0 1 rho = x at h ⊢
  rw [List.head?_map, List.getLast?_map]
  cases h1 : l.head? with
  | none => simp [h1, Bind.bind, Except.bind] at h
  | some a =>
    cases h2 : l.getLast? with
    | none => simp [h1, h2, Bind.bind, Except.bind] at h
    | some b =>
      simp only [h1, h2, Option.map_some] at h ⊢
      split_ifs at h with h3
      · cases h
      · rw [if_neg h3]; rfl

section
variable {A : Arith} {F : MathLib} {u v : ℝ}

/-- One species of a tabulated plasma. -/
theorem agree_table (hA : StandardModel A u) (huv : u ≤ v) (hv : v ≤ 1 / 1000) {m M : ℝ} (hm : 0 < m)
    (table : List (ℝ × ℝ)) (rho : ℝ) (ht : ∀ p ∈ table, m ≤ p.2 ∧ p.2 ≤ M) {y : ℝ}
    (hin : (Profile.mk (.data table) 1).value rho = .ok y) {c' c : ℝ} (hc : 0 ≤ c) (hcc : |c' - c| ≤ 4 * v * c) :
    AgreeAt (14 * v * (M / m)) ((Profile.mk (.data (table.map fun p => (p.1, A.rd (c' * p.2)))) 1).valueR A F)
      (fun r => ((Profile.mk (.data table) 1).value r).map fun n => c * n) rho := by
  have v0 := hA.u_nonneg.trans huv
  have hg : ∀ n, 0 ≤ n → |A.rd (c' * n) - c * n| ≤ 5.1 * v * (c * n) := by
    intro n hn
    have m1 : |c' * n - c * n| ≤ 4 * v * (c * n) := by
      rw [← sub_mul, abs_mul, abs_of_nonneg hn]
      have := mul_le_mul_of_nonneg_right hcc hn
      linarith
    have cn := mul_nonneg hc hn
    have := rd_absv hA huv m1 (show |c * n| ≤ c * n by rw [abs_of_nonneg cn])
    have e : (1 + v) * (4 * v * (c * n)) + v * (c * n) = ((1 + v) * (4 * v) + v) * (c * n) := by ring
    rw [e] at this
    exact this.trans (mul_le_mul_of_nonneg_right (by nlinarith) cn)
  obtain ⟨hne, hy⟩ := data_value_eq hin
  obtain ⟨p, hp⟩ := List.exists_mem_of_ne_nil _ hne
  have hmM : m ≤ M := (ht p hp).1.trans (ht p hp).2
  have hM0 : 0 ≤ M := by linarith
  have low : m ≤ npInterp (table.mergeSort fun p q => decide (p.1 ≤ q.1)) (clip 0 1 rho) :=
    npInterp_lower _ _ (by
      intro h
      have := List.mem_mergeSort (le := fun p q : ℝ × ℝ => decide (p.1 ≤ q.1)) |>.2 hp
      rw [h] at this
      cases this) fun p hp => (ht p (List.mem_mergeSort.1 hp)).1
  have hclose := npInterp_map_close (g := fun n => A.rd (c' * n)) (c := c) (η := 5.1 * v)
    (table.mergeSort fun p q => decide (p.1 ≤ q.1)) (clip 0 1 rho)
    (fun p hp => hg p.2 (hm.le.trans (ht p (List.mem_mergeSort.1 hp)).1))
  have hval := data_map_value (fun n => A.rd (c' * n)) hin
  obtain ⟨y', h1, h2⟩ := (C100_data (F := F) (scale := 1) (M := 1.01 * (c * M)) hA huv hv (by positivity)
    (table.map fun p => (p.1, A.rd (c' * p.2))) rho (by
      intro p hp
      rw [List.mem_map] at hp
      obtain ⟨q, hq, rfl⟩ := hp
      obtain ⟨q1, q2⟩ := ht q hq
      have qn : 0 ≤ q.2 := hm.le.trans q1
      obtain ⟨a1, a2⟩ := abs_le.1 (hg q.2 qn)
      have cq : 0 ≤ c * q.2 := mul_nonneg hc qn
      have cM : c * q.2 ≤ c * M := mul_le_mul_of_nonneg_left q2 hc
      constructor
      · simp only; nlinarith
      · simp only; nlinarith)).2 _ hval
  refine ⟨y', c * y, h1, by simp only [hin]; rfl, ?_⟩
  rw [one_mul] at h2
  rw [hy, one_mul]
  generalize npInterp (table.mergeSort fun p q => decide (p.1 ≤ q.1)) (clip 0 1 rho) = w at low hclose ⊢
  generalize npInterp ((table.mergeSort fun p q => decide (p.1 ≤ q.1)).map fun p => (p.1, A.rd (c' * p.2)))
    (clip 0 1 rho) = w' at h2 hclose
  have w0 : 0 ≤ w := by linarith
  have cw : 0 ≤ c * w := mul_nonneg hc w0
  rw [abs_one, one_mul] at h2
  have e : y' - c * w = (y' - w') + (w' - c * w) := by ring
  rw [e]
  refine (abs_add_le _ _).trans ?_
  have q1 : 1 ≤ M / m := by rw [le_div_iff₀ hm]; linarith
  have q2 : c * M ≤ M / m * (c * w) := by
    calc c * M = M / m * (c * m) := by field_simp
      _ ≤ _ := mul_le_mul_of_nonneg_left (mul_le_mul_of_nonneg_left low hc) (by positivity)
  have q3 : c * w ≤ M / m * (c * w) := le_mul_of_one_le_left cw q1
  have a1 : 8 * v * (1.01 * (c * M)) ≤ 8 * v * (1.01 * (M / m * (c * w))) :=
    mul_le_mul_of_nonneg_left (by linarith) (by positivity)
  have a2 : 5.1 * v * (c * w) ≤ 5.1 * v * (M / m * (c * w)) := mul_le_mul_of_nonneg_left q3 (by positivity)
  have a3 : 0 ≤ v * (M / m * (c * w)) := by positivity
  nlinarith

/-- C100.  A plasma made by `from_profiles` from arrays of positive densities and temperatures, at a radius covered by
the table: all its densities and its temperature are right to `14 v` times the ratio of the largest to the smallest
value. -/
theorem C100_profiles (hA : StandardModel A u) (huv : u ≤ v) (hv : v ≤ 1 / 1000) {d t h : ℝ} (hd : 0 ≤ d) (ht : 0 ≤ t)
    (hh : 0 ≤ h) (hS : 0 < d + t + h) {rhos fuel temp : List ℝ} (hl1 : fuel.length = rhos.length)
    (hl2 : temp.length = rhos.length) {n0 n1 t0 t1 κ : ℝ} (hn0 : 0 < n0) (ht0 : 0 < t0)
    (hn : ∀ n ∈ fuel, n0 ≤ n ∧ n ≤ n1) (htt : ∀ T ∈ temp, t0 ≤ T ∧ T ≤ t1) (hκ1 : n1 / n0 ≤ κ) (hκ2 : t1 / t0 ≤ κ)
    {rho : ℝ} (hin : ∃ y, (Profile.mk (.data (List.zip rhos fuel)) 1).value rho = .ok y)
    (hin' : ∃ y, (Profile.mk (.data (List.zip rhos temp)) 1).value rho = .ok y) :
    ∃ c tr, Composition.makeR A d t h = .ok c ∧ Transport.fromProfilesR A rhos fuel temp c = .ok tr ∧
      PlasmaAgrees (14 * v * κ) (tr.viewR A F)
        (idealPlasma (Profile.mk (.data (List.zip rhos temp)) 1).value (Profile.mk (.data (List.zip rhos fuel)) 1).value
          d t h) rho := by
  have v0 := hA.u_nonneg.trans huv
  obtain ⟨c, hc, cd, ct, ch, -⟩ := C100_composition hA (huv.trans hv) hd ht hh hS
  have up : ∀ {a b : ℝ}, 0 ≤ b → |a - b| ≤ 4 * u * b → |a - b| ≤ 4 * v * b := fun hb h =>
    h.trans (mul_le_mul_of_nonneg_right (by linarith) hb)
  have nd : ∀ {x : ℝ}, 0 ≤ x → 0 ≤ x / (d + t + h) := fun hx => div_nonneg hx hS.le
  obtain ⟨y, hy⟩ := hin
  obtain ⟨z, hz⟩ := hin'
  have hn' : ∀ p ∈ List.zip rhos fuel, n0 ≤ p.2 ∧ p.2 ≤ n1 := fun p hp => hn p.2 (List.of_mem_zip hp).2
  have ht' : ∀ p ∈ List.zip rhos temp, t0 ≤ p.2 ∧ p.2 ≤ t1 := fun p hp => htt p.2 (List.of_mem_zip hp).2
  have low : ∀ {table : List (ℝ × ℝ)} {m M w : ℝ}, 0 < m → (∀ p ∈ table, m ≤ p.2 ∧ p.2 ≤ M) →
      (Profile.mk (.data table) 1).value rho = .ok w → 0 ≤ w := by
    intro table m M w hm hb hw
    obtain ⟨hne, hy⟩ := data_value_eq hw
    obtain ⟨p, hp⟩ := List.exists_mem_of_ne_nil _ hne
    have := npInterp_lower (m := m) (table.mergeSort fun p q => decide (p.1 ≤ q.1)) (clip 0 1 rho) (by
      intro h
      have := List.mem_mergeSort (le := fun p q : ℝ × ℝ => decide (p.1 ≤ q.1)) |>.2 hp
      rw [h] at this
      cases this) fun p hp => (hb p (List.mem_mergeSort.1 hp)).1
    rw [hy, one_mul]; linarith
  have mono : ∀ {f' f : ℝ → Except Err ℝ} {δ' : ℝ}, δ' ≤ 14 * v * κ → (∀ w, f rho = .ok w → 0 ≤ w) → AgreeAt δ' f' f rho →
      AgreeAt (14 * v * κ) f' f rho := by
    rintro f' f δ' hle hp ⟨a, b, e1, e2, e3⟩
    exact ⟨a, b, e1, e2, e3.trans (mul_le_mul_of_nonneg_right hle (hp b e2))⟩
  have le1 : 14 * v * (n1 / n0) ≤ 14 * v * κ := mul_le_mul_of_nonneg_left hκ1 (by positivity)
  have sp : ∀ {x c' : ℝ}, 0 ≤ x → |c' - x / (d + t + h)| ≤ 4 * u * (x / (d + t + h)) → AgreeAt (14 * v * κ)
      ((Profile.mk (.data (List.zip rhos (fuel.map fun n => A.rd (c' * n)))) 1).valueR A F)
      (fun r => ((Profile.mk (.data (List.zip rhos fuel)) 1).value r).map fun n => x / (d + t + h) * n) rho := by
    intro x c' hx hc'
    rw [zip_map_values]
    refine mono le1 ?_ (agree_table hA huv hv hn0 _ rho hn' hy (nd hx) (up (nd hx) hc'))
    intro w hw
    simp only [hy, Except.map] at hw
    cases hw
    exact mul_nonneg (nd hx) (low hn0 hn' hy)
  have htr : Transport.fromProfilesR A rhos fuel temp c = .ok
      { deuterium := ⟨.data (List.zip rhos (fuel.map fun n => A.rd (c.D * n))), 1⟩
        tritium := ⟨.data (List.zip rhos (fuel.map fun n => A.rd (c.T * n))), 1⟩
        helium3 := ⟨.data (List.zip rhos (fuel.map fun n => A.rd (c.He3 * n))), 1⟩
        temperature := ⟨.data (List.zip rhos temp), 1⟩ } := by
    unfold Transport.fromProfilesR
    rw [if_neg (by push Not; exact ⟨hl1, hl2⟩)]
  refine ⟨c, _, hc, htr, ?_⟩
  · refine ⟨?_, sp hd cd, sp ht ct, sp hh ch⟩
    have hM : 0 ≤ t1 / t0 := by
      obtain ⟨p, hp⟩ := List.exists_mem_of_ne_nil _ (data_value_eq hz).1
      have := ht' p hp
      exact div_nonneg (by linarith) ht0.le
    refine mono (δ' := 8 * v * (t1 / t0)) ?_ (fun w hw => low ht0 ht' hw)
      (C100_agree_data (F := F) hA huv hv ht0 _ rho ht' ⟨z, hz⟩ 1 zero_le_one)
    have : 14 * v * (t1 / t0) ≤ 14 * v * κ := mul_le_mul_of_nonneg_left hκ2 (by positivity)
    have : 0 ≤ v * (t1 / t0) := by positivity
    linarith

theorem agree_valueAt {δ : ℝ} {f' f : ℝ → Except Err ℝ} {rho : ℝ} (h : AgreeAt δ f' f rho) :
    |valueAt f' rho - valueAt f rho| ≤ δ * valueAt f rho := by
  obtain ⟨a, b, e1, e2, e3⟩ := h
  unfold valueAt
  rw [e1, e2]; exact e3

theorem prod_close {δ a' a b' b : ℝ} (hδ0 : 0 ≤ δ) (hδ : δ ≤ 1 / 100) (ha : 0 ≤ a) (hb : 0 ≤ b) (h1 : |a' - a| ≤ δ * a)
    (h2 : |b' - b| ≤ δ * b) : |a' * b' - a * b| ≤ 2.01 * δ * (a * b) := by
  have e : a' * b' - a * b = (a' - a) * (b' - b) + a * (b' - b) + (a' - a) * b := by ring
  rw [e]
  refine (abs_add_three _ _ _).trans ?_
  rw [abs_mul, abs_mul, abs_mul, abs_of_nonneg ha, abs_of_nonneg hb]
  have m1 := mul_le_mul h1 h2 (abs_nonneg _) (by positivity)
  have m2 := mul_le_mul_of_nonneg_left h2 ha
  have m3 := mul_le_mul_of_nonneg_right h1 hb
  have ab := mul_nonneg ha hb
  have m4 : δ * δ * (a * b) ≤ δ * (1 / 100) * (a * b) :=
    mul_le_mul_of_nonneg_right (mul_le_mul_of_nonneg_left hδ hδ0) ab
  nlinarith

/-- The rate of a cell for two plasmas that agree, with Bosch-Hale reactivities. -/
theorem cellRate_close {δ : ℝ} (hδ0 : 0 ≤ δ) (hδ : δ ≤ 1 / 10 ^ 5) {tr' tr : TransportView ℝ} {psi : ℝ → ℝ → ℝ} {L : ℝ}
    {p : ℝ × ℝ} (hp : 0 ≤ p.1) (hag : PlasmaAgrees δ tr' tr (psi p.1 p.2))
    (hd : ∀ sp, 0 ≤ density tr (psi p.1 p.2) sp) (hT0 : 0.21 ≤ valueAt tr.temperature (psi p.1 p.2))
    (hT1 : valueAt tr.temperature (psi p.1 p.2) ≤ 99) {r : Reaction} (hr : hasBoschHale r = true) :
    0 ≤ cellRate publishedReactivity tr psi L r p ∧
    |cellRate publishedReactivity tr' psi L r p - cellRate publishedReactivity tr psi L r p| ≤
      245 * δ * cellRate publishedReactivity tr psi L r p := by
  set ρ := psi p.1 p.2 with hρ
  have hdens : ∀ sp, |density tr' ρ sp - density tr ρ sp| ≤ δ * density tr ρ sp := by
    intro sp
    cases sp with
    | deuterium => exact agree_valueAt hag.deuterium
    | tritium => exact agree_valueAt hag.tritium
    | helium3 => exact agree_valueAt hag.helium3
  have hT := agree_valueAt hag.temperature
  set T' := valueAt tr'.temperature ρ
  set T := valueAt tr.temperature ρ
  norm_num at hT0
  have hT' : T' ≤ 100 := by
    have := (abs_le.1 hT).2
    nlinarith
  have hs := C100_conditioned hr hδ0 hδ hT (by norm_num; linarith) (by linarith) hT'
  have hsp := published_pos hr T (by linarith) (by linarith)
  have hv : 0 ≤ 2 * Real.pi * p.1 * L ^ 2 := by have := Real.pi_pos; positivity
  unfold cellRate rateDensity
  rw [← hρ]
  set k : ℝ := 1 + if (reactants r).1 = (reactants r).2 then 1 else 0 with hk
  have k0 : 0 < k := by rw [hk]; split_ifs <;> norm_num
  set a := density tr ρ (reactants r).1
  set b := density tr ρ (reactants r).2
  set a' := density tr' ρ (reactants r).1
  set b' := density tr' ρ (reactants r).2
  have ha : 0 ≤ a := hd _
  have hb : 0 ≤ b := hd _
  have hab := prod_close hδ0 (by linarith) ha hb (hdens _) (hdens _)
  set s := publishedReactivity r T
  set s' := publishedReactivity r T'
  have hs' : |s' - s| ≤ 240 * δ * s := hs
  have ab := mul_nonneg ha hb
  have m : |a' * b' * s' - a * b * s| ≤ 245 * δ * (a * b * s) := by
    have e : a' * b' * s' - a * b * s = (a' * b' - a * b) * (s' - s) + a * b * (s' - s) + (a' * b' - a * b) * s := by ring
    rw [e]
    refine (abs_add_three _ _ _).trans ?_
    rw [abs_mul, abs_mul (a * b), abs_mul _ s, abs_of_nonneg ab, abs_of_pos hsp]
    have m1 := mul_le_mul hab hs' (abs_nonneg _) (by positivity)
    have m2 := mul_le_mul_of_nonneg_left hs' ab
    have m3 := mul_le_mul_of_nonneg_right hab hsp.le
    have abs' : 0 ≤ a * b * s := mul_nonneg ab hsp.le
    have m4 : δ * δ * (a * b * s) ≤ δ * (1 / 10 ^ 5) * (a * b * s) :=
      mul_le_mul_of_nonneg_right (mul_le_mul_of_nonneg_left hδ hδ0) abs'
    have m5 := mul_nonneg hδ0 abs'
    nlinarith
  refine ⟨mul_nonneg (div_nonneg (mul_nonneg ab hsp.le) k0.le) hv, ?_⟩
  set V := 2 * Real.pi * p.1 * L ^ 2
  have e : a' * b' * s' / k * V - a * b * s / k * V = (a' * b' * s' - a * b * s) * (V / k) := by ring
  have e2 : 245 * δ * (a * b * s / k * V) = 245 * δ * (a * b * s) * (V / k) := by ring
  rw [e, e2, abs_mul, abs_of_nonneg (div_nonneg hv k0.le)]
  exact mul_le_mul_of_nonneg_right m (div_nonneg hv k0.le)

/-- C100.  From profile parameters to strengths: if the profiles are evaluated to the relative accuracy `δ`, the strength
computed for every cell is the reaction rate there of the plasma without rounding, up to a relative error of
`250 δ + 1200 v + 20 u` (Bosch-Hale reactivities, temperatures from 0.21 to 99 keV). -/
theorem C100_source (hA : StandardModel A u) (hF : AccurateLib F v) (huv : u ≤ v) (hv : v ≤ 1 / 10 ^ 6)
    {xs : Reaction → List ℝ → Except Err (List ℝ)} {pi : ℝ} (hpi : |pi - Real.pi| ≤ u * Real.pi) {Q : Reaction → ℝ}
    {pts : List (ℝ × ℝ)} {oX oZ : ℝ} {psi : ℝ → ℝ → ℝ} {tr' tr : TransportView ℝ}
    {arg : SourceArg} {L : ℝ} {method : ReactivityMethod} (hmeth : method ≠ .XS) {s : Source ℝ} {δ : ℝ} (hδ0 : 0 ≤ δ)
    (hδ : δ ≤ 1 / 10 ^ 5)
    (hs : Source.makeR A F xs pi Q pts oX oZ psi tr' arg L none method = .ok s)
    (hbh : ∀ r ∈ s.sourceType, hasBoschHale r = true)
    (hplasma : ∀ p ∈ centres s, 0 ≤ p.1 ∧ PlasmaAgrees δ tr' tr (psi p.1 p.2) ∧
      (∀ sp, 0 ≤ density tr (psi p.1 p.2) sp) ∧ 0.21 ≤ valueAt tr.temperature (psi p.1 p.2) ∧
      valueAt tr.temperature (psi p.1 p.2) ≤ 99) :
    ∀ r ∈ s.sourceType, List.Forall₂
      (fun a p => |a - cellRate publishedReactivity tr psi L r p| ≤
        (250 * δ + 1200 * v + 20 * u) * cellRate publishedReactivity tr psi L r p)
      (strengths s r) (centres s) := by
  have u0 := hA.u_nonneg
  have v0 := u0.trans huv
  have hok : PlasmaOK tr' psi (centres s) := by
    intro p hp
    obtain ⟨h1, h2, h3, h4, h5⟩ := hplasma p hp
    have hT := agree_valueAt h2.temperature
    obtain ⟨a1, a2⟩ := abs_le.1 hT
    norm_num at h4
    refine ⟨h1, fun sp => ?_, by norm_num; nlinarith, by nlinarith⟩
    have hsp := h3 sp
    cases sp with
    | deuterium =>
      have := (abs_le.1 (agree_valueAt h2.deuterium)).1
      simp only [density] at hsp ⊢; nlinarith
    | tritium =>
      have := (abs_le.1 (agree_valueAt h2.tritium)).1
      simp only [density] at hsp ⊢; nlinarith
    | helium3 =>
      have := (abs_le.1 (agree_valueAt h2.helium3)).1
      simp only [density] at hsp ⊢; nlinarith
  have hacc : ∀ r ∈ s.sourceType, AccurateReactivity (reactivityR A F xs method) publishedReactivity (1000 * v) r :=
    fun r hr => boschHale_accurate hA hF huv hv hmeth (hbh r hr)
  have H := C93_unscaled hA hpi (by positivity) hacc hok hs (by linarith) (by linarith)
  intro r hr
  have h := H r hr
  rw [List.forall₂_iff_get] at h ⊢
  refine ⟨h.1, fun i h1 h2 => ?_⟩
  have e1 := h.2 i h1 h2
  obtain ⟨p1, p2, p3, p4, p5⟩ := hplasma _ (List.get_mem (centres s) ⟨i, h2⟩)
  obtain ⟨c0, c1⟩ := cellRate_close (L := L) hδ0 hδ p1 p2 p3 p4 p5 (hbh r hr)
  generalize (strengths s r).get ⟨i, h1⟩ = a at e1 ⊢
  generalize (centres s).get ⟨i, h2⟩ = p at e1 c0 c1 ⊢
  generalize cellRate publishedReactivity tr' psi L r p = R' at e1 c1
  generalize cellRate publishedReactivity tr psi L r p = R at c0 c1 ⊢
  have hR' : R' ≤ (1 + 245 * δ) * R := by
    have := (abs_le.1 c1).2
    linarith
  have e : a - R = (a - R') + (R' - R) := by ring
  rw [e]
  refine (abs_add_le _ _).trans ?_
  have k0 : 0 ≤ 1.1 * (1000 * v + 14 * u) := by positivity
  have m1 := mul_le_mul_of_nonneg_left hR' k0
  have m2 : 1.1 * (1000 * v + 14 * u) * ((1 + 245 * δ) * R) + 245 * δ * R =
    (1.1 * (1000 * v + 14 * u) * (1 + 245 * δ) + 245 * δ) * R := by ring
  have m3 : 1.1 * (1000 * v + 14 * u) * (1 + 245 * δ) + 245 * δ ≤ 250 * δ + 1200 * v + 20 * u := by
    have : (1000 * v + 14 * u) * δ ≤ (1000 * v + 14 * u) * (1 / 10 ^ 5) := mul_le_mul_of_nonneg_left hδ (by positivity)
    nlinarith
  have m4 := mul_le_mul_of_nonneg_right m3 c0
  linarith

end

end
end TNS
