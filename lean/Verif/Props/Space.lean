import Verif.Model.Space
import Verif.Spec.Space
import Verif.Spec.Source
import Mathlib.Tactic.Linarith
import Mathlib.Tactic.FieldSimp
import Mathlib.Tactic.Ring
import Mathlib.Tactic.Positivity
import Mathlib.Data.List.Nodup
/-
Properties C12-C16 of `sample_space_2d`.
-/

set_option autoImplicit false
set_option linter.unusedSectionVars false

namespace TNS
open Spec

variable {K : Type} [Field K] [LinearOrder K] [IsStrictOrderedRing K] [FloorRing K]

theorem npMin_le (l : List K) (a : K) (h : a ∈ l) : npMin l ≤ a := by
  have aux : ∀ (l : List K) (b : K), l.foldl min b ≤ b ∧ ∀ a ∈ l, l.foldl min b ≤ a := by
    intro l
    induction l with
    | nil => intro b; simp
    | cons c l ih =>
      intro b
      rw [List.foldl_cons]
      obtain ⟨h1, h2⟩ := ih (min b c)
      refine ⟨h1.trans (min_le_left _ _), fun a ha => ?_⟩
      rcases List.mem_cons.1 ha with rfl | ha
      · exact h1.trans (min_le_right _ _)
      · exact h2 a ha
  cases l with
  | nil => simp at h
  | cons c l =>
    rcases List.mem_cons.1 h with rfl | h
    · exact (aux l a).1
    · exact (aux l c).2 a h

theorem le_npMax (l : List K) (a : K) (h : a ∈ l) : a ≤ npMax l := by
  have aux : ∀ (l : List K) (b : K), b ≤ l.foldl max b ∧ ∀ a ∈ l, a ≤ l.foldl max b := by
    intro l
    induction l with
    | nil => intro b; simp
    | cons c l ih =>
      intro b
      rw [List.foldl_cons]
      obtain ⟨h1, h2⟩ := ih (max b c)
      refine ⟨(le_max_left _ _).trans h1, fun a ha => ?_⟩
      rcases List.mem_cons.1 ha with rfl | ha
      · exact (le_max_right _ _).trans h1
      · exact h2 a ha
  cases l with
  | nil => simp at h
  | cons c l =>
    rcases List.mem_cons.1 h with rfl | h
    · exact (aux l a).1
    · exact (aux l c).2 a h

/-- The grid axis is a list of consecutive lattice coordinates. -/
theorem gridAxis_eq (c : List K) (o L : K) (hL : 0 < L) :
    ∃ (i0 : ℤ) (n : ℕ), gridAxis c o L =
        (List.range n).map (fun k : ℕ => o + L * ((i0 + (k : ℤ) : ℤ) : K)) ∧
      o + L * (i0 : K) < npMin c - L ∧ npMax c + L < o + L * ((i0 + (n : ℤ) : ℤ) : K) := by
  have hL' := hL.ne'
  set m : K := npMin c - 2 * L with hm
  set M : K := npMax c + 2 * L with hM
  set q : ℤ := ⌊(o - m) / L⌋ with hq
  set N : ℕ := ⌈(M - (m + (pyMod (o - m) L - 1 / 2 * L))) / L⌉.toNat with hN
  have q1 : (q : K) * L ≤ o - m := by
    have := Int.floor_le ((o - m) / L); rw [← hq, le_div_iff₀ hL] at this; exact this
  have q2 : o - m < ((q : K) + 1) * L := by
    have := Int.lt_floor_add_one ((o - m) / L); rw [← hq, div_lt_iff₀ hL] at this; exact this
  have hmod : pyMod (o - m) L = o - m - L * (q : K) := rfl
  refine ⟨-q, N, ?_, ?_, ?_⟩
  · unfold gridAxis arange
    simp only [← hm, ← hM, List.map_map]
    rw [← hN]
    apply List.map_congr_left
    intro i _
    simp only [Function.comp_apply, hmod]
    push_cast
    ring
  · push_cast
    rw [hm] at q2
    linarith
  · have hc : (M - (m + (pyMod (o - m) L - 1 / 2 * L))) / L ≤ (N : K) := by
      refine (Int.le_ceil _).trans ?_
      rw [hN]
      have : ∀ z : ℤ, (z : K) ≤ ((z.toNat : ℕ) : K) := by
        intro z
        have h := Int.self_le_toNat z
        have : ((z : ℤ) : K) ≤ (((z.toNat : ℕ) : ℤ) : K) := Int.cast_le.2 h
        rwa [Int.cast_natCast] at this
      exact this _
    rw [div_le_iff₀ hL, hmod] at hc
    push_cast
    rw [hM] at hc
    nlinarith

theorem mem_gridAxis (c : List K) (o L v : K) (hL : 0 < L)
    (hlo : npMin c ≤ v) (hhi : v ≤ npMax c) :
    v ∈ gridAxis c o L ↔ ∃ i : ℤ, v = o + L * (i : K) := by
  obtain ⟨i0, n, he, h1, h2⟩ := gridAxis_eq c o L hL
  rw [he, List.mem_map]
  constructor
  · rintro ⟨k, _, rfl⟩; exact ⟨_, rfl⟩
  · rintro ⟨i, rfl⟩
    have hi0 : i0 < i := by
      have : L * (i0 : K) < L * (i : K) := by linarith
      have := lt_of_mul_lt_mul_left this hL.le
      exact_mod_cast this
    have hi1 : i < i0 + n := by
      have : L * (i : K) < L * ((i0 + (n : ℤ) : ℤ) : K) := by linarith
      have := lt_of_mul_lt_mul_left this hL.le
      exact_mod_cast this
    refine ⟨(i - i0).toNat, ?_, ?_⟩
    · rw [List.mem_range]; omega
    · have : (i0 + ((i - i0).toNat : ℤ)) = i := by omega
      rw [this]

theorem gridAxis_lattice (c : List K) (o L v : K) (hL : 0 < L) (h : v ∈ gridAxis c o L) :
    ∃ i : ℤ, v = o + L * (i : K) := by
  obtain ⟨i0, n, he, _⟩ := gridAxis_eq c o L hL
  rw [he, List.mem_map] at h
  obtain ⟨k, _, rfl⟩ := h
  exact ⟨_, rfl⟩

theorem gridAxis_sorted (c : List K) (o L : K) (hL : 0 < L) :
    (gridAxis c o L).Pairwise (· < ·) := by
  obtain ⟨i0, n, he, _⟩ := gridAxis_eq c o L hL
  rw [he, List.pairwise_map]
  refine List.pairwise_lt_range.imp ?_
  intro a b hab
  have : ((i0 + (a : ℤ) : ℤ) : K) < ((i0 + (b : ℤ) : ℤ) : K) := by
    exact_mod_cast (by omega : i0 + (a : ℤ) < i0 + (b : ℤ))
  nlinarith

theorem mem_meshPoints (xs zs : List K) (p : K × K) :
    p ∈ meshPoints xs zs ↔ p.1 ∈ xs ∧ p.2 ∈ zs := by
  unfold meshPoints
  simp only [List.mem_flatMap, List.mem_map]
  constructor
  · rintro ⟨x, hx, z, hz, rfl⟩; exact ⟨hx, hz⟩
  · rintro ⟨hx, hz⟩; exact ⟨p.1, hx, p.2, hz, rfl⟩

theorem meshPoints_sorted (xs zs : List K) (hx : xs.Pairwise (· < ·)) (hz : zs.Pairwise (· < ·)) :
    (meshPoints xs zs).Pairwise (fun p q => p.1 < q.1 ∨ (p.1 = q.1 ∧ p.2 < q.2)) := by
  unfold meshPoints
  rw [List.pairwise_flatMap]
  refine ⟨fun x _ => ?_, ?_⟩
  · rw [List.pairwise_map]
    exact hz.imp (fun h => Or.inr ⟨rfl, h⟩)
  · refine hx.imp ?_
    intro a b hab p hp q hq
    obtain ⟨_, _, rfl⟩ := List.mem_map.1 hp
    obtain ⟨_, _, rfl⟩ := List.mem_map.1 hq
    exact Or.inl hab

/-- **C16.**  Sampled points come with non-decreasing radius and, at equal radius, strictly
increasing height. -/
theorem C16_order (xs zs : List K) (inside : K × K → Bool) (oX oZ L : K) (hL : 0 < L) :
    (samplePoints xs zs inside oX oZ L).Pairwise
      (fun p q => p.1 < q.1 ∨ (p.1 = q.1 ∧ p.2 < q.2)) :=
  (meshPoints_sorted _ _ (gridAxis_sorted _ _ _ hL) (gridAxis_sorted _ _ _ hL)).filter _

/-- **C12.**  The sampled points are exactly the points of the lattice through the O-point that the
LCFS polygon test accepts. -/
theorem C12_exact (xs zs : List K) (inside : K × K → Bool) (hbox : WithinBox xs zs inside)
    (oX oZ L : K) (hL : 0 < L) (p : K × K) :
    p ∈ samplePoints xs zs inside oX oZ L ↔ Lattice oX oZ L p ∧ inside p = true := by
  unfold samplePoints
  rw [List.mem_filter, mem_meshPoints]
  constructor
  · rintro ⟨⟨h1, h2⟩, h3⟩
    obtain ⟨i, hi⟩ := gridAxis_lattice _ _ _ _ hL h1
    obtain ⟨j, hj⟩ := gridAxis_lattice _ _ _ _ hL h2
    exact ⟨⟨i, j, hi, hj⟩, h3⟩
  · rintro ⟨⟨i, j, hi, hj⟩, h3⟩
    obtain ⟨⟨a, ha, ha'⟩, ⟨b, hb, hb'⟩, ⟨c, hc, hc'⟩, ⟨d, hd, hd'⟩⟩ := hbox p h3
    exact ⟨⟨(mem_gridAxis xs oX L _ hL ((npMin_le _ _ ha).trans ha')
        (hb'.trans (le_npMax _ _ hb))).2 ⟨i, hi⟩,
      (mem_gridAxis zs oZ L _ hL ((npMin_le _ _ hc).trans hc')
        (hd'.trans (le_npMax _ _ hd))).2 ⟨j, hj⟩⟩, h3⟩

/-- **C12**, no repetition. -/
theorem C12_nodup (xs zs : List K) (inside : K × K → Bool) (oX oZ L : K) (hL : 0 < L) :
    (samplePoints xs zs inside oX oZ L).Nodup := by
  refine (C16_order xs zs inside oX oZ L hL).imp ?_
  rintro p q (h | ⟨_, h⟩) rfl
  · exact lt_irrefl _ h
  · exact lt_irrefl _ h

/-- **C12**, returned arrays: `x`, `z` and `d_volume` are the columns of the sampled points, hence
of equal length. -/
theorem C12_arrays (pi : K) (xs zs : List K) (inside : K × K → Bool) (oX oZ L : K) :
    List.zip (sampleSpace2d pi xs zs inside oX oZ L).x (sampleSpace2d pi xs zs inside oX oZ L).z =
        samplePoints xs zs inside oX oZ L ∧
      (sampleSpace2d pi xs zs inside oX oZ L).x.length =
        (sampleSpace2d pi xs zs inside oX oZ L).z.length ∧
      (sampleSpace2d pi xs zs inside oX oZ L).dVolume.length =
        (sampleSpace2d pi xs zs inside oX oZ L).x.length := by
  refine ⟨?_, by simp [sampleSpace2d], by simp [sampleSpace2d]⟩
  simp only [sampleSpace2d]
  generalize samplePoints xs zs inside oX oZ L = l
  induction l with
  | nil => rfl
  | cons a l ih => simp [ih]

/-- **C13.**  An O-point inside the LCFS is itself a cell centre, so there is at least one cell. -/
theorem C13_o_point (xs zs : List K) (inside : K × K → Bool) (hbox : WithinBox xs zs inside)
    (oX oZ L : K) (hL : 0 < L) (h : inside (oX, oZ) = true) :
    (oX, oZ) ∈ samplePoints xs zs inside oX oZ L :=
  (C12_exact xs zs inside hbox oX oZ L hL _).2 ⟨⟨0, 0, by simp, by simp⟩, h⟩

/-- Cells of two lattice points that share a point coincide. -/
theorem lattice_cell_unique (oX oZ L : K) (hL : 0 < L) (p p' q : K × K)
    (hp : Lattice oX oZ L p) (hp' : Lattice oX oZ L p') (h : Cell L p q) (h' : Cell L p' q) :
    p = p' := by
  obtain ⟨i, j, hi, hj⟩ := hp
  obtain ⟨i', j', hi', hj'⟩ := hp'
  obtain ⟨a1, a2, a3, a4⟩ := h
  obtain ⟨b1, b2, b3, b4⟩ := h'
  have key : ∀ (i i' : ℤ) (o v : K), o + L * (i : K) - L / 2 ≤ v → v < o + L * (i : K) + L / 2 →
      o + L * (i' : K) - L / 2 ≤ v → v < o + L * (i' : K) + L / 2 → i = i' := by
    intro i i' o v h1 h2 h3 h4
    have e1 : L * (i : K) < L * ((i' : K) + 1) := by linarith
    have e2 : L * (i' : K) < L * ((i : K) + 1) := by linarith
    have e1 := lt_of_mul_lt_mul_left e1 hL.le
    have e2 := lt_of_mul_lt_mul_left e2 hL.le
    have e1 : i < i' + 1 := by exact_mod_cast e1
    have e2 : i' < i + 1 := by exact_mod_cast e2
    omega
  rw [hi] at a1 a2; rw [hi'] at b1 b2; rw [hj] at a3 a4; rw [hj'] at b3 b4
  have e1 := key i i' oX q.1 a1 a2 b1 b2
  have e2 := key j j' oZ q.2 a3 a4 b3 b4
  ext
  · rw [hi, hi', e1]
  · rw [hj, hj', e2]

/-- **C14**, disjointness: no point lies in the cells of two different sampled centres. -/
theorem C14_disjoint (xs zs : List K) (inside : K × K → Bool) (hbox : WithinBox xs zs inside)
    (oX oZ L : K) (hL : 0 < L) (p p' q : K × K)
    (hp : p ∈ samplePoints xs zs inside oX oZ L) (hp' : p' ∈ samplePoints xs zs inside oX oZ L)
    (h : Cell L p q) (h' : Cell L p' q) : p = p' :=
  lattice_cell_unique oX oZ L hL p p' q ((C12_exact xs zs inside hbox oX oZ L hL p).1 hp).1
    ((C12_exact xs zs inside hbox oX oZ L hL p').1 hp').1 h h'

/-- **C14**, covering: every point of the plane lies in the cell of exactly one lattice point; that
lattice point is a sampled centre exactly when it is inside the LCFS. -/
theorem C14_cover (xs zs : List K) (inside : K × K → Bool) (hbox : WithinBox xs zs inside)
    (oX oZ L : K) (hL : 0 < L) (q : K × K) :
    ∃ p, Lattice oX oZ L p ∧ Cell L p q ∧
      (∀ p', Lattice oX oZ L p' → Cell L p' q → p' = p) ∧
      (inside p = true ↔ p ∈ samplePoints xs zs inside oX oZ L) := by
  have key : ∀ (o v : K), ∃ i : ℤ, o + L * (i : K) - L / 2 ≤ v ∧ v < o + L * (i : K) + L / 2 := by
    intro o v
    refine ⟨⌊(v - o) / L + 1 / 2⌋, ?_, ?_⟩
    · have := Int.floor_le ((v - o) / L + 1 / 2)
      have h2 : L * (⌊(v - o) / L + 1 / 2⌋ : K) ≤ L * ((v - o) / L + 1 / 2) :=
        mul_le_mul_of_nonneg_left this hL.le
      have h3 : L * ((v - o) / L + 1 / 2) = v - o + L / 2 := by field_simp
      linarith
    · have := Int.lt_floor_add_one ((v - o) / L + 1 / 2)
      have h2 : L * ((v - o) / L + 1 / 2) < L * ((⌊(v - o) / L + 1 / 2⌋ : K) + 1) :=
        mul_lt_mul_of_pos_left this hL
      have h3 : L * ((v - o) / L + 1 / 2) = v - o + L / 2 := by field_simp
      linarith
  obtain ⟨i, hi1, hi2⟩ := key oX q.1
  obtain ⟨j, hj1, hj2⟩ := key oZ q.2
  have hlat : Lattice oX oZ L (oX + L * (i : K), oZ + L * (j : K)) := ⟨i, j, rfl, rfl⟩
  refine ⟨(oX + L * (i : K), oZ + L * (j : K)), hlat, ⟨hi1, hi2, hj1, hj2⟩, ?_,
    fun h => (C12_exact xs zs inside hbox oX oZ L hL _).2 ⟨hlat, h⟩,
    fun h => ((C12_exact xs zs inside hbox oX oZ L hL _).1 h).2⟩
  intro p' hp' hc'
  exact lattice_cell_unique oX oZ L hL _ _ q hp' hlat hc' ⟨hi1, hi2, hj1, hj2⟩

/-- **C15.**  The volume returned with each sampled point `p` is that of its square's solid of
revolution: height times the area of the annulus between the square's radii.  It is positive when
the radius is. -/
theorem C15_volume (pi : K) (xs zs : List K) (inside : K × K → Bool) (oX oZ L : K) :
    (sampleSpace2d pi xs zs inside oX oZ L).dVolume =
      (samplePoints xs zs inside oX oZ L).map (fun p =>
        ((p.2 + L / 2) - (p.2 - L / 2)) * (pi * (p.1 + L / 2) ^ 2 - pi * (p.1 - L / 2) ^ 2)) ∧
    (0 < pi → 0 < L → ∀ x : K, 0 < x → 0 < cellVolume pi x L) := by
  constructor
  · simp only [sampleSpace2d, cellVolume]
    apply List.map_congr_left
    intro p _
    ring
  · intro h1 h2 x hx
    unfold cellVolume
    positivity

/-! ### The hypotheses are met by the square plasma of `Verif.Spec.Source` -/

theorem Ex.within : WithinBox Ex.flux.lcfsX Ex.flux.lcfsZ Ex.flux.inside := by
  intro p hp
  simp only [Ex.flux, decide_eq_true_eq] at hp ⊢
  obtain ⟨h1, h2, h3, h4⟩ := hp
  refine ⟨⟨1, by simp, h1.le⟩, ⟨3, by simp, h2.le⟩, ⟨-1, by simp, h3.le⟩, ⟨1, by simp, h4.le⟩⟩

example : samplePoints Ex.flux.lcfsX Ex.flux.lcfsZ Ex.flux.inside 2 0 (2/3) =
    [(4/3, -2/3), (4/3, 0), (4/3, 2/3), (2, -2/3), (2, 0), (2, 2/3), (8/3, -2/3), (8/3, 0),
      (8/3, 2/3)] := by
  decide +kernel

/-- However coarse the cells: with 100 m cells the O-point cell remains. -/
example : samplePoints Ex.flux.lcfsX Ex.flux.lcfsZ Ex.flux.inside 2 0 100 = [(2, 0)] := by
  decide +kernel

end TNS
