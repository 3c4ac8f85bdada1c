import Verif.Model.TransportPlot
import Verif.Props.Profile
/-
C119: the plot of a `TransportInformation`.
-/

set_option autoImplicit false

namespace TNS
noncomputable section

/-- `y` is the list of the values of the profile at the radii `rho`. -/
def ValuesAt (p : Profile) (rho y : List ℝ) : Prop := List.Forall₂ (fun r v => p.value r = .ok v) rho y

/-- The species is visible: somewhere its density exceeds 1e-8 per cubic metre. -/
def Visible (y : List ℝ) : Prop := ∃ v ∈ y, 1 / 10 ^ 8 < |v|

theorem mapM_values {p : Profile} {rho y : List ℝ} (h : ValuesAt p rho y) : rho.mapM p.value = .ok y := by
  unfold ValuesAt at h
  induction h with
  | nil => rfl
  | cons h _ ih => rw [List.mapM_cons, h, ih]; rfl

theorem allcloseZero_iff (y : List ℝ) : allcloseZero y = true ↔ ¬ Visible y := by
  unfold allcloseZero Visible
  simp

theorem allcloseZero_eq (y : List ℝ) [Decidable (Visible y)] : allcloseZero y = !decide (Visible y) := by
  by_cases h : Visible y
  · have := (allcloseZero_iff y).not.2 (not_not.2 h)
    simp [h, this]
  · simp [h, (allcloseZero_iff y).2 h]

open Classical in
/-- C119.  If all profiles have values at the radii of the object, plotting raises `ValueError` exactly if helium-3 is visible;
otherwise the figure has one density line for each of deuterium and tritium that is visible, in this order and through the values
of its own profile, and the line of the temperature. -/
theorem C119_plot (tr : Transport) (rho d t h T : List ℝ) (hd : ValuesAt tr.deuterium rho d) (ht : ValuesAt tr.tritium rho t)
    (hh : ValuesAt tr.helium3 rho h) (hT : ValuesAt tr.temperature rho T) :
    (Visible h → tr.plot rho = .error .valueError) ∧
    (¬ Visible h → ∃ fig, tr.plot rho = .ok fig ∧
      fig.densities.map (fun c => (c.label, c.points)) =
        (if Visible d then [("D", List.zip rho d)] else []) ++ (if Visible t then [("T", List.zip rho t)] else []) ∧
      fig.temperature.points = List.zip rho T) := by
  have e : tr.plot rho = (do
      let cs ← plotSpecies rho [(d, "D", "-."), (t, "T", "--"), (h, "³He", ".")]
      .ok ⟨cs, ⟨"$T_{i}$", "-", List.zip rho T⟩⟩) := by
    unfold Transport.plot
    rw [mapM_values hd, mapM_values ht, mapM_values hh, mapM_values hT]
    rfl
  rw [e]
  have s1 : "-." ∈ lineStyles := by decide +kernel
  have s2 : "--" ∈ lineStyles := by decide +kernel
  have s3 : "." ∉ lineStyles := by decide +kernel
  constructor <;> intro vh <;> by_cases vd : Visible d <;> by_cases vt : Visible t <;>
    simp [plotSpecies, axPlot, allcloseZero_eq, vh, vd, vt, s1, s2, s3, bind, Except.bind]

/-- C119: the lines have different styles. -/
theorem C119_styles (tr : Transport) (rho : List ℝ) (fig : TransportFigure) (h : tr.plot rho = .ok fig) :
    (fig.densities.map Curve.style).Nodup ∧ ∀ c ∈ fig.densities, c.style ∈ lineStyles := by
  have s1 : "-." ∈ lineStyles := by decide +kernel
  have s2 : "--" ∈ lineStyles := by decide +kernel
  have s3 : "." ∉ lineStyles := by decide +kernel
  unfold Transport.plot at h
  cases hd : rho.mapM tr.deuterium.value with
  | error e => simp [hd, bind, Except.bind] at h
  | ok d =>
  cases ht : rho.mapM tr.tritium.value with
  | error e => simp [hd, ht, bind, Except.bind] at h
  | ok t =>
  cases hh : rho.mapM tr.helium3.value with
  | error e => simp [hd, ht, hh, bind, Except.bind] at h
  | ok he =>
  cases hT : rho.mapM tr.temperature.value with
  | error e =>
    simp only [hd, ht, hh, hT, bind, Except.bind] at h
    split at h <;> simp at h
  | ok T =>
  simp only [hd, ht, hh, hT, bind, Except.bind] at h
  cases a1 : allcloseZero d <;> cases a2 : allcloseZero t <;> cases a3 : allcloseZero he <;>
    simp [plotSpecies, axPlot, a1, a2, a3, s1, s2, s3, bind, Except.bind] at h <;> subst h <;> simp [s1, s2]

/-- The values of a table at its own nodes. -/
theorem nodes_values (rho y : List ℝ) (hl : y.length = rho.length) (h2 : 2 ≤ rho.length) (hs : rho.Pairwise (· < ·))
    (h01 : ∀ r ∈ rho, 0 ≤ r ∧ r ≤ 1) : ValuesAt ⟨.data (List.zip rho y), 1⟩ rho y := by
  have e : (List.zip rho y).map Prod.fst = rho := List.map_fst_zip (le_of_eq hl.symm)
  have hst : SortedTable (List.zip rho y) := by
    have : (List.zip rho y).Pairwise (fun p q => p.1 < q.1) := by
      rw [← List.pairwise_map (f := Prod.fst) (R := (· < ·)), e]; exact hs
    exact this
  unfold ValuesAt
  refine List.forall₂_iff_get.2 ⟨hl.symm, fun i hi hj => ?_⟩
  have hz : i < (List.zip rho y).length := by simp; omega
  have hp : (rho[i], y[i]) ∈ List.zip rho y := by
    have := List.getElem_mem hz
    rwa [List.getElem_zip] at this
  obtain ⟨a, b⟩ := h01 _ (List.getElem_mem hi)
  have := C35_nodes (List.zip rho y) hst (by simp; omega) _ hp a b 1
  simpa [Profile.value] using this

/-- C119, objects built from arrays over increasing radii in [0, 1]: plotting raises `ValueError` exactly if the helium-3 density
exceeds 1e-8 somewhere. -/
theorem C119_arrays (rho fuel temp : List ℝ) (c : Composition ℝ) (hf : fuel.length = rho.length)
    (ht : temp.length = rho.length) (h2 : 2 ≤ rho.length) (hs : rho.Pairwise (· < ·)) (h01 : ∀ r ∈ rho, 0 ≤ r ∧ r ≤ 1) :
    ∃ tr, Transport.fromProfiles rho fuel temp c = .ok tr ∧
      ((∃ n ∈ fuel, 1 / 10 ^ 8 < |c.He3 * n|) → tr.plot rho = .error .valueError) ∧
      ((∀ n ∈ fuel, |c.He3 * n| ≤ 1 / 10 ^ 8) → ∃ fig, tr.plot rho = .ok fig ∧ fig.temperature.points = List.zip rho temp) := by
  refine ⟨_, by unfold Transport.fromProfiles; rw [if_neg (by simp [hf, ht])], ?_⟩
  have v : ∀ k : ℝ, ValuesAt ⟨.data (List.zip rho (fuel.map (k * ·))), 1⟩ rho (fuel.map (k * ·)) := fun k =>
    nodes_values rho _ (by simp [hf]) h2 hs h01
  have key := C119_plot
    { deuterium := ⟨.data (List.zip rho (fuel.map (c.D * ·))), 1⟩
      tritium := ⟨.data (List.zip rho (fuel.map (c.T * ·))), 1⟩
      helium3 := ⟨.data (List.zip rho (fuel.map (c.He3 * ·))), 1⟩
      temperature := ⟨.data (List.zip rho temp), 1⟩ } rho _ _ _ _ (v _) (v _) (v _) (nodes_values rho temp ht h2 hs h01)
  refine ⟨fun ⟨n, hn, h⟩ => key.1 ⟨_, List.mem_map_of_mem hn, h⟩, fun h => ?_⟩
  obtain ⟨fig, k1, -, k3⟩ := key.2 (by
    rintro ⟨v, hv, hlt⟩
    obtain ⟨n, hn, rfl⟩ := List.mem_map.1 hv
    exact absurd (h n hn) (not_le.2 hlt))
  exact ⟨fig, k1, k3⟩

/-- C119, objects built from profile objects that have values `n`, `T` at the radii: the same. -/
theorem C119_parameterisations (hp : Heap) (i j : ℕ) (p q : Profile) (hi : hp[i]? = some p) (hj : hp[j]? = some q)
    (c : Composition ℝ) (rho n T : List ℝ) (hn : ValuesAt p rho n) (hT : ValuesAt q rho T) :
    ∃ h' r tr, fromParameterisations hp j i c = some (h', r) ∧ r.read h' = some tr ∧
      ((∃ v ∈ n, 1 / 10 ^ 8 < |c.He3 * v|) → tr.plot rho = .error .valueError) ∧
      ((∀ v ∈ n, |c.He3 * v| ≤ 1 / 10 ^ 8) → ∃ fig, tr.plot rho = .ok fig ∧ fig.temperature.points = List.zip rho T) := by
  have hjlt : j < hp.length := (List.getElem?_eq_some_iff.1 hj).1
  refine ⟨_, _, ⟨p.setScale c.D, p.setScale c.T, p.setScale c.He3, q⟩, fromParam_eq hp j i c p q hi hj, ?_, ?_⟩
  · simp [TransportRef.read, List.getElem?_append_right, List.getElem?_append_left hjlt, hj]
  have v : ∀ k : ℝ, ValuesAt (p.setScale k) rho (n.map (k * ·)) := by
    intro k
    unfold ValuesAt at hn ⊢
    rw [List.forall₂_map_right_iff]
    refine hn.imp fun r v hv => ?_
    have := C34_scale p [k] r
    simp only [List.foldl_cons, List.foldl_nil, List.prod_cons, List.prod_nil, mul_one] at this
    rw [this, hv]
    rfl
  have key := C119_plot ⟨p.setScale c.D, p.setScale c.T, p.setScale c.He3, q⟩ rho _ _ _ _ (v _) (v _) (v _) hT
  refine ⟨fun ⟨n, hn, h⟩ => key.1 ⟨_, List.mem_map_of_mem hn, h⟩, fun h => ?_⟩
  obtain ⟨fig, k1, -, k3⟩ := key.2 (by
    rintro ⟨v, hv, hlt⟩
    obtain ⟨n, hn, rfl⟩ := List.mem_map.1 hv
    exact absurd (h n hn) (not_le.2 hlt))
  exact ⟨fig, k1, k3⟩

/-- A table of zeros has only the value 0. -/
theorem zeros_value (t : List (ℝ × ℝ)) (ht : ∀ p ∈ t, p.2 = 0) (s x v : ℝ) (h : dataValue t s x = .ok v) : v = 0 := by
  have npz : ∀ l : List (ℝ × ℝ), (∀ p ∈ l, p.2 = 0) → ∀ x, npInterp l x = 0 := by
    intro l
    induction l with
    | nil => intro _ x; rfl
    | cons p l ih =>
      cases l with
      | nil => intro hl x; exact hl p (by simp)
      | cons q l =>
        intro hl x
        unfold npInterp
        have hp := hl p (by simp)
        have hq := hl q (by simp)
        split_ifs
        · exact hp
        · rw [hp, hq]; simp
        · exact ih (fun p hp => hl p (by simp [hp])) x
  unfold dataValue interp1d at h
  simp only at h
  split at h
  · split_ifs at h
    · simp [bind, Except.bind] at h
    · rw [npz _ (fun p hp => ht p (List.mem_mergeSort.1 hp))] at h
      simpa [bind, Except.bind] using h.symm
  · simp [bind, Except.bind] at h

/-- C119: an object read from a JETTO file can be plotted at all radii where its profiles have values. -/
theorem C119_jetto (frames : List (JspFrame ℝ)) (k : ℤ) (tr : Transport) (hj : Transport.fromJetto frames k = .ok tr)
    (rho d t h T : List ℝ) (hd : ValuesAt tr.deuterium rho d) (ht : ValuesAt tr.tritium rho t)
    (hh : ValuesAt tr.helium3 rho h) (hT : ValuesAt tr.temperature rho T) :
    ∃ fig, tr.plot rho = .ok fig ∧ fig.temperature.points = List.zip rho T := by
  have hz : ∃ l : List (ℝ × ℝ), tr.helium3 = ⟨.data l, 1⟩ ∧ ∀ p ∈ l, p.2 = 0 := by
    unfold Transport.fromJetto at hj
    cases hl : loadJsp frames k with
    | error e => simp [hl, bind, Except.bind] at hj
    | ok data =>
      simp only [hl, bind, Except.bind] at hj
      split_ifs at hj
      simp only [Except.ok.injEq] at hj
      subst hj
      refine ⟨_, rfl, fun p hp => ?_⟩
      have hm := (List.of_mem_zip hp).2
      unfold loadJsp at hl
      by_cases h0 : k < -1 ∨ k > (frames.length : ℤ) - 1
      · rw [if_pos h0] at hl; simp at hl
      rw [if_neg h0] at hl
      simp only at hl
      generalize (if k = -1 then (frames.length : ℤ) - 1 else k) = t at hl
      split at hl
      · simp at hl
      · rename_i f _
        split_ifs at hl
        cases h1 : insertFirst f.ti with
        | error e => simp [h1, bind, Except.bind] at hl
        | ok a1 =>
        cases h2 : insertFirst f.nd with
        | error e => simp [h1, h2, bind, Except.bind] at hl
        | ok a2 =>
        cases h3 : insertFirst f.nt with
        | error e => simp [h1, h2, h3, bind, Except.bind] at hl
        | ok a3 =>
        cases h4 : insertFirst (f.rho.map (fun _ => (0 : ℝ))) with
        | error e => simp only [h1, h2, h3, h4, bind, Except.bind, reduceCtorEq] at hl
        | ok a4 =>
        simp only [h1, h2, h3, h4, bind, Except.bind, Except.ok.injEq] at hl
        subst hl
        simp only at hm
        cases hr : f.rho with
        | nil => rw [hr] at h4; simp [insertFirst] at h4
        | cons r0 rl =>
          rw [hr] at h4
          simp only [insertFirst, List.map_cons, Except.ok.injEq] at h4
          rw [← h4] at hm
          simp only [List.mem_cons, List.mem_map] at hm
          rcases hm with h | h | ⟨_, _, h⟩
          · exact h
          · exact h
          · exact h.symm
  obtain ⟨l, e, hl⟩ := hz
  obtain ⟨fig, k1, -, k3⟩ := (C119_plot tr rho d t h T hd ht hh hT).2 (by
    rintro ⟨v, hv, hlt⟩
    obtain ⟨i, hi, rfl⟩ := List.mem_iff_getElem.1 hv
    have hi' : i < rho.length := by have := hh.length_eq; omega
    have := (List.forall₂_iff_get.1 hh).2 i hi' hi
    simp only [List.get_eq_getElem, e, Profile.value] at this
    rw [zeros_value l hl 1 _ _ this] at hlt
    norm_num at hlt)
  exact ⟨fig, k1, k3⟩

/-- A 40-40-20 mixture of 1e20 per cubic metre cannot be plotted; without helium-3 it can. -/
example : (∃ tr, Transport.fromProfiles [0, 1] [1e20, 1e20] [10, 1] ⟨0.4, 0.4, 0.2⟩ = .ok tr ∧
      tr.plot [0, 1] = .error .valueError) ∧
    ∃ tr fig, Transport.fromProfiles [0, 1] [1e20, 1e20] [10, 1] ⟨0.5, 0.5, 0⟩ = .ok tr ∧
      tr.plot [0, 1] = .ok fig ∧ fig.temperature.points = [(0, 10), (1, 1)] := by
  have h01 : ∀ r ∈ ([0, 1] : List ℝ), 0 ≤ r ∧ r ≤ 1 := by simp
  constructor
  · obtain ⟨tr, h1, h2, -⟩ := C119_arrays [0, 1] [1e20, 1e20] [10, 1] ⟨0.4, 0.4, 0.2⟩ rfl rfl (by simp) (by simp) h01
    refine ⟨tr, h1, h2 ⟨1e20, by simp, ?_⟩⟩
    norm_num [abs_of_pos]
  · obtain ⟨tr, h1, -, h3⟩ := C119_arrays [0, 1] [1e20, 1e20] [10, 1] ⟨0.5, 0.5, 0⟩ rfl rfl (by simp) (by simp) h01
    obtain ⟨fig, k1, k2⟩ := h3 (by simp)
    exact ⟨tr, fig, h1, k1, by simpa using k2⟩

end
end TNS
