import Verif.Lemmas.XsTable
/-
The cross section at a rounded energy.
-/

set_option autoImplicit false

namespace TNS
open Spec
noncomputable section

theorem LC.symm {ε a b : ℝ} (h : LC ε a b) : LC ε b a := ⟨h.2.1, h.1, by rw [abs_sub_comm]; exact h.2.2⟩

theorem sorted_round {C : ℕ} {lo cut v : ℝ} (hv0 : 0 ≤ v) (hv : v ≤ 1 / 10 ^ 8) (rows rows' : List (ℝ × ℝ))
    (hclose : List.Forall₂ (RowClose v) rows' rows) (hch : rows.IsChain (SegR C lo cut)) : SortedTable rows' := by
  have hc' : rows'.IsChain (fun p q => p.1 < q.1) := by
    induction rows generalizing rows' with
    | nil => cases hclose; exact .nil
    | cons p l ih =>
      cases hclose with
      | @cons p' _ l' _ hp hl =>
      cases l with
      | nil => cases hl; exact .singleton _
      | cons q l =>
        cases hl with
        | @cons q' _ l' _ hq hl =>
        obtain ⟨hseg, hch'⟩ := List.isChain_cons_cons.1 hch
        refine List.isChain_cons_cons.2 ⟨?_, ih _ (.cons hq hl) hch'⟩
        have := RowClose.sorted hv0 hv hseg hp hq
        have := hseg.lt
        linarith
  have : IsTrans (ℝ × ℝ) (fun p q => p.1 < q.1) := ⟨fun _ _ _ => lt_trans⟩
  exact List.isChain_iff_pairwise.1 hc'

theorem interp1dR_sorted (A : Arith) (t : List (ℝ × ℝ)) (hs : SortedTable t) (a b : ℝ × ℝ) (ha : t.head? = some a)
    (hb : t.getLast? = some b) (x : ℝ) (h1 : a.1 ≤ x) (h2 : x ≤ b.1) : interp1dR A t x = .ok (npInterpR A t x) := by
  unfold interp1dR
  simp only
  rw [List.mergeSort_of_pairwise (hs.imp fun h => decide_eq_true h.le), ha, hb]
  simp only
  rw [if_neg]
  push Not
  exact ⟨h1, h2⟩

/-- The part of the cross-section file below which nothing is checked. -/
def cutOf : Reaction → ℕ
  | .n .D_T | .a .D_He3 => 1400000000
  | _ => 1900000000

theorem crossSectionR_eq (A : Arith) (U : SI) (m : Masses ℝ) (r : Reaction) :
    r.crossSectionR A U m = .loadR A U (colliderMass m r).1 (colliderMass m r).2 (genfromtxt (fileRows r)) := by
  rcases r with (_ | _ | _) | (_ | _) <;> rfl

theorem rough_mass {U : SI} {m : Masses ℝ} (h : RoughData U m) (r : Reaction) :
    2 ≤ (colliderMass m r).1 ∧ (colliderMass m r).1 ≤ 4 ∧ 2 ≤ (colliderMass m r).2 ∧ (colliderMass m r).2 ≤ 4 ∧
    (cutOf r : ℝ) * comFactor (colliderMass m r).1 (colliderMass m r).2 ≤ 0.95 := by
  obtain ⟨-, -, ⟨d1, d2⟩, ⟨t1, t2⟩, ⟨h1, h2⟩⟩ := h
  have two : ∀ a b : ℝ, 2 ≤ a → a ≤ 3 → 3 ≤ b → b ≤ 4 → (1400000000 : ℝ) * comFactor a b ≤ 0.95 := by
    intro a b ha ha' hb hb'
    unfold comFactor
    have : b / (a + b) ≤ 2 / 3 := by rw [div_le_div_iff₀ (by linarith) (by norm_num)]; linarith
    linarith
  have one : ∀ a : ℝ, 2 ≤ a → (1900000000 : ℝ) * comFactor a a ≤ 0.95 := by
    intro a ha
    unfold comFactor
    have : a / (a + a) = 1 / 2 := by rw [← two_mul]; field_simp
    rw [this]; norm_num
  rcases r with (_ | _ | _) | (_ | _) <;> simp only [colliderMass, cutOf] <;> push_cast <;>
    refine ⟨by linarith, by linarith, by linarith, by linarith, ?_⟩
  · exact two _ _ d1 d2 t1 t2
  · exact one _ d1
  · exact one _ (by linarith)
  · exact one _ d1
  · exact two _ _ d1 d2 h1 h2

theorem chainB_file (r : Reaction) : chainB (cutOf r) (fileRows r).dropLast = true := by
  obtain ⟨h1, h2, h3, h4, h5⟩ := chainB_all
  rcases r with (_ | _ | _) | (_ | _)
  · exact h1
  · exact h2
  · exact h4
  · exact h3
  · exact h5

/-- The cross section computed at a computed energy. -/
theorem sigma_close {A : Arith} {F : MathLib} {u v η : ℝ} (S : Setting A F u v η) {U : SI} {m : Masses ℝ}
    (hm : RoughData U m) (r : Reaction) {x g : ℝ} (h : LC (26 * v) x g) (hg : 1 ≤ g) (hg' : g ≤ 1000) :
    interp1dR A (r.crossSectionR A U m).table x = .ok (npInterpR A (r.crossSectionR A U m).table x) ∧
      LC (2100 * v) (npInterpR A (r.crossSectionR A U m).table x) (npInterp (r.crossSection U m).table g) ∧
      1 / 10 ^ 80 ≤ npInterp (r.crossSection U m).table g ∧ npInterp (r.crossSection U m).table g ≤ 1 / 2 := by
  have hv := S.v_nonneg
  have hv1 := S.v_le
  obtain ⟨a1, a2, b1, b2, hcut⟩ := rough_mass hm r
  have hrows := fileRows_ok r
  have hchB := chainB_file r
  rw [crossSectionR_eq, crossSection_eq, load_table_eq]
  have htR : (CrossSection.loadR A U (colliderMass m r).1 (colliderMass m r).2 (genfromtxt (fileRows r))).table =
      (fileRows r).dropLast.map fun p : ℕ × ℕ =>
        (A.rd (A.rd (A.rd ((p.1 : ℝ) / 10 ^ 12) * A.rd ((colliderMass m r).2 /
          A.rd ((colliderMass m r).1 + (colliderMass m r).2))) * 1000), A.rd (A.rd ((p.2 : ℝ) / 10 ^ 50) * A.rd 1e-28)) := by
    unfold CrossSection.loadR genfromtxt
    rw [List.map_map]; rfl
  rw [htR]
  generalize (colliderMass m r).1 = m1 at *
  generalize (colliderMass m r).2 = m2 at *
  generalize (fileRows r) = file at *
  unfold rowsOk at hrows
  rw [Bool.and_eq_true] at hrows
  obtain ⟨-, hrows⟩ := hrows
  generalize file.dropLast = rows at *
  have hα : 0 < comFactor m1 m2 := by unfold comFactor; positivity
  have hα1 : comFactor m1 m2 ≤ 2 / 3 / 10 ^ 9 := by
    unfold comFactor
    have : m2 / (m1 + m2) ≤ 2 / 3 := by rw [div_le_div_iff₀ (by linarith) (by norm_num)]; linarith
    gcongr
  have hα2 : 1 / 3 / 10 ^ 9 ≤ comFactor m1 m2 := by
    unfold comFactor
    have : 1 / 3 ≤ m2 / (m1 + m2) := by rw [div_le_div_iff₀ (by norm_num) (by linarith)]; linarith
    gcongr
  have hch := chainB_sound hα (by linarith) hcut rows hchB
  have hclose : List.Forall₂ (RowClose v)
      (rows.map fun p : ℕ × ℕ => (A.rd (A.rd (A.rd ((p.1 : ℝ) / 10 ^ 12) * A.rd (m2 / A.rd (m1 + m2))) * 1000),
        A.rd (A.rd ((p.2 : ℝ) / 10 ^ 50) * A.rd 1e-28)))
      (rows.map fun p => ((p.1 : ℝ) * comFactor m1 m2, (p.2 : ℝ) * (1 / 10 ^ 78))) := by
    rw [List.forall₂_map_left_iff, List.forall₂_map_right_iff, List.forall₂_same]
    intro p _
    exact rowClose S (by linarith) (by linarith) (by linarith) (by linarith) p
  have hs' := sorted_round hv hv1 _ _ hclose hch
  have hs : SortedTable (rows.map fun p => ((p.1 : ℝ) * comFactor m1 m2, (p.2 : ℝ) * (1 / 10 ^ 78))) := by
    have : IsTrans (ℝ × ℝ) (fun p q => p.1 < q.1) := ⟨fun _ _ _ => lt_trans⟩
    exact List.isChain_iff_pairwise.1 (hch.imp fun p q h => h.lt)
  cases rows with
  | nil => simp at hrows
  | cons p l =>
    cases hl : (p :: l).getLast? with
    | none => simp at hl
    | some q =>
      simp only [hl, Bool.and_eq_true, decide_eq_true_eq, List.all_eq_true] at hrows
      obtain ⟨⟨hp, -⟩, hq⟩ := hrows
      have hp' : (p.1 : ℝ) < 10 ^ 9 := by exact_mod_cast hp
      have hq' : (6 * 10 ^ 12 : ℝ) ≤ q.1 := by exact_mod_cast hq
      have hl2 : l ≠ [] := by
        rintro rfl
        simp only [List.getLast?_singleton, Option.some.injEq] at hl
        subst hl
        omega
      have rp := rowClose S (by linarith : 1 ≤ m1) (by linarith) (by linarith : 1 ≤ m2) (by linarith) p
      have rq := rowClose S (by linarith : 1 ≤ m1) (by linarith) (by linarith : 1 ≤ m2) (by linarith) q
      set fR : ℕ × ℕ → ℝ × ℝ := fun p =>
        (A.rd (A.rd (A.rd ((p.1 : ℝ) / 10 ^ 12) * A.rd (m2 / A.rd (m1 + m2))) * 1000),
        A.rd (A.rd ((p.2 : ℝ) / 10 ^ 50) * A.rd 1e-28)) with hfR
      set f : ℕ × ℕ → ℝ × ℝ := fun p => ((p.1 : ℝ) * comFactor m1 m2, (p.2 : ℝ) * (1 / 10 ^ 78)) with hf
      change RowClose v (fR p) (f p) at rp
      change RowClose v (fR q) (f q) at rq
      have ef1 : (f p).1 = p.1 * comFactor m1 m2 := rfl
      have eq1 : (f q).1 = q.1 * comFactor m1 m2 := rfl
      have hx := h.rel (by linarith)
      have hx1 := abs_le.1 hx
      have hx2 : 1.02 * (26 * v) * g ≤ 1 / 10 ^ 3 * 1 * g := mul_le_mul_of_nonneg_right (by linarith) (by linarith)
      have first : (f p).1 ≤ 0.7 := by
        rw [ef1]
        have : (p.1 : ℝ) * comFactor m1 m2 ≤ 10 ^ 9 * (2 / 3 / 10 ^ 9) :=
          mul_le_mul hp'.le hα1 hα.le (by positivity)
        linarith
      have last : 2000 ≤ (f q).1 := by
        rw [eq1]
        have : 6 * 10 ^ 12 * (1 / 3 / 10 ^ 9) ≤ (q.1 : ℝ) * comFactor m1 m2 :=
          mul_le_mul hq' hα2 (by positivity) (by positivity)
        norm_num at this ⊢
        linarith
      have fp0 : 0 ≤ (f p).1 := by rw [ef1]; positivity
      have k1 := (abs_le.1 rp.x).2
      have k2 := (abs_le.1 rq.x).1
      have k3 : 6 * v * (f p).1 ≤ 0.01 * (f p).1 := mul_le_mul_of_nonneg_right (by linarith) fp0
      have k4 : 6 * v * (f q).1 ≤ 0.01 * (f q).1 := mul_le_mul_of_nonneg_right (by linarith) (by linarith)
      have c1 : (fR p).1 ≤ x := by linarith
      have c2 : x ≤ (fR q).1 := by linarith
      have hR? : ((p :: l).map fR).getLast? = some (fR q) := by rw [List.getLast?_map, hl]; rfl
      have hE? : ((p :: l).map f).getLast? = some (f q) := by rw [List.getLast?_map, hl]; rfl
      obtain ⟨y, y1, y2, y3, y4⟩ := interp_round S ((p :: l).map f) ((p :: l).map fR) hclose hch hs x (by linarith)
        (f p) (fR p) (f q) (fR q) rfl hE? rfl hR? c1 c2
      have y0 : 0 < y := by
        by_contra hn
        push Not at hn
        have := (abs_le.1 y3).2
        have : 6 * v * y ≤ 0 := mul_nonpos_of_nonneg_of_nonpos (by positivity) hn
        linarith
      have ly : LC (6.12 * v) x y := (LC.of_rel y0 (by linarith) y3).mono (by linarith)
      have lyg : LC (32.2 * v) y g := (ly.symm.trans h).mono (by linarith)
      have hyg := abs_le.1 (lyg.rel (by linarith))
      have hyg' : 1.02 * (32.2 * v) * g ≤ 1 / 10 ^ 3 * 1 * g := mul_le_mul_of_nonneg_right (by linarith) (by linarith)
      rw [List.map_cons] at hch hs hE? y4 ⊢
      have hl3 : l.map f ≠ [] := by simpa using hl2
      have el := elastic (by positivity) (by norm_num) (f p) (l.map f) (f q) hch hs hE? hl3 lyg (by linarith) y1 y2
        (by linarith) (by linarith) (by linarith)
      have low := (elastic_pow (by positivity) (by norm_num) (f p) (l.map f) (f q) hch hs hE? hl3 g g (by linarith)
        (by linarith) le_rfl (by linarith)).1
      refine ⟨?_, ?_, low, ?_⟩
      · rw [← List.map_cons]
        exact interp1dR_sorted A _ hs' (fR p) (fR q) rfl hR? x c1 c2
      · have l1 := LC.of_rel el.1 (by linarith) y4
        exact (l1.trans el).mono (by push_cast; linarith)
      · refine (npInterp_bounds _ hs (by simp) (-1) (1 / 2) ?_ ?_ g).2
        · intro p hp
          rw [← List.map_cons] at hp
          obtain ⟨q, -, rfl⟩ := List.mem_map.1 hp
          have : (0 : ℝ) ≤ (f q).2 := by simp only [hf]; positivity
          linarith
        · have allLe : ∀ l : List (ℝ × ℝ), l.IsChain (SegR 64 (1 / 10 ^ 80) 0.95) → 2 ≤ l.length →
              ∀ p ∈ l, p.2 ≤ 1 / 2 := by
            intro l
            induction l with
            | nil => intro _ h; simp at h
            | cons a l ih =>
              intro hc h2 p hp
              cases l with
              | nil => simp at h2
              | cons b l =>
                obtain ⟨hseg, hc'⟩ := List.isChain_cons_cons.1 hc
                rcases List.mem_cons.1 hp with rfl | hp
                · exact hseg.y_le.1
                · cases l with
                  | nil =>
                    simp only [List.mem_singleton] at hp
                    subst hp
                    exact hseg.y_le.2
                  | cons c l => exact ih hc' (by simp) p hp
          refine allLe _ hch ?_
          cases l with
          | nil => exact absurd rfl hl2
          | cons b l => simp

end
end TNS
