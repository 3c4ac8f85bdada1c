import Verif.Spec.FileSdef
import Verif.Props.FileLimit
import Verif.Props.SdefLimit
import Verif.Props.ConvexInside
import Mathlib.Analysis.Convex.Topology
/-
C106: SDEF files written from EQDSK and JETTO files: the bins of cells of any shape, and the limit of the source that MCNP
samples as the cells shrink.
-/

set_option autoImplicit false

namespace TNS
open Spec Filter Topology MeasureTheory
noncomputable section

/-! ## The bins of any set of cells -/

theorem forall₂_flatMap {α β γ : Type} (rel : β → γ → Prop) (l : List α) (f : α → List β) (g : α → List γ)
    (h : ∀ x ∈ l, List.Forall₂ rel (f x) (g x)) : List.Forall₂ rel (l.flatMap f) (l.flatMap g) := by
  induction l with
  | nil => simp
  | cons a l ih =>
    rw [List.flatMap_cons, List.flatMap_cons]
    exact List.rel_append (h a List.mem_cons_self) (ih fun x hx => h x (List.mem_cons_of_mem _ hx))

theorem uppers_edge (h : ℝ) (l : List ℝ) (hs : l.Pairwise (· < ·)) (e : ℝ × ℝ) (he : e ∈ List.zip l (uppers h l)) :
    (∃ b ∈ l, e.1 < b ∧ (∀ d ∈ l, e.1 < d → b ≤ d) ∧ e.2 = b - h) ∨ ((∀ b ∈ l, b ≤ e.1) ∧ e.2 = e.1 + h) := by
  induction l with
  | nil => simp at he
  | cons a l ih =>
    cases l with
    | nil =>
      simp only [uppers, List.tail_cons, List.map_nil, List.nil_append, List.getLast?_singleton, Option.getD_some,
        List.zip_cons_cons, List.zip_nil_left, List.mem_singleton] at he
      subst he
      right; simp
    | cons b l =>
      have hu : uppers h (a :: b :: l) = (b - h) :: uppers h (b :: l) := by simp [uppers]
      rw [hu, List.zip_cons_cons, List.mem_cons] at he
      have hs' := List.pairwise_cons.1 hs
      rcases he with rfl | he
      · left
        refine ⟨b, by simp, hs'.1 b (by simp), fun d hd hda => ?_, rfl⟩
        rcases List.mem_cons.1 hd with rfl | hd
        · exact absurd hda (lt_irrefl _)
        · rcases List.mem_cons.1 hd with rfl | hd
          · exact le_rfl
          · exact ((List.pairwise_cons.1 hs'.2).1 d hd).le
      · have hlt : a < e.1 := hs'.1 _ (List.of_mem_zip he).1
        rcases ih hs'.2 he with ⟨c, hc, h1, h2, h3⟩ | ⟨h1, h2⟩
        · left
          refine ⟨c, List.mem_cons_of_mem _ hc, h1, fun d hd hd' => ?_, h3⟩
          rcases List.mem_cons.1 hd with rfl | hd
          · exact absurd hd' (not_lt.2 hlt.le)
          · exact h2 d hd hd'
        · right
          refine ⟨fun d hd => ?_, h2⟩
          rcases List.mem_cons.1 hd with rfl | hd
          · exact hlt.le
          · exact h1 d hd

/-- **C106**, the bins: for any cells in sampling order and any strengths that are not negative, the SDEF file has one bin per
cell, in the order of the cells. Its lower edges are those of the cell, its probability is the cell's share of the strength;
it ends in radius where the next sampled radius begins, and in height where the next cell of the same column begins (after
the last of them half a side above the centre of the cell). -/
theorem C106_bins (r z data : List ℝ) (L : ℝ) (hne : r ≠ []) (hz : z.length = r.length) (hd : data.length = r.length)
    (hpos : ∀ s ∈ data, 0 ≤ s)
    (hlex : (List.zip r z).Pairwise (fun p q => p.1 < q.1 ∨ (p.1 = q.1 ∧ p.2 < q.2))) :
    ∃ c, sdefCards r z L data = .ok c ∧
      List.Forall₂ (fun (q : ℝ × ℝ × ℝ) (b : SBin ℝ) => b.rLo = 100 * (q.1 - L / 2) ∧ UpperEdge r L q.1 b.rHi ∧
          b.zLo = 100 * (q.2.1 - L / 2) ∧
          UpperEdge (((List.zip r z).filter fun p => decide (p.1 = q.1)).map Prod.snd) L q.2.1 b.zHi ∧
          b.prob = q.2.2 / data.sum)
        (List.zip r (List.zip z data)) (sdefBins c) := by
  have hr := lex_fst hz hlex
  refine ⟨_, sdefCards_eq r z L data hr hne hz hd, ?_⟩
  set R := r.map (· * 100) with hRdef
  set Z := z.map (· * 100) with hZdef
  set h := L * 100 / 2 with hh
  have hR : R.Pairwise (· ≤ ·) := scaled_sorted hr
  have hRne : R ≠ [] := by simpa [hRdef] using hne
  have hzR : Z.length = R.length := by simp [hRdef, hZdef, hz]
  have hdR : data.length = R.length := by simp [hRdef, hd]
  have hzip : List.zip R Z = (List.zip r z).map (fun p => (p.1 * 100, p.2 * 100)) := by
    rw [hRdef, hZdef, List.zip_map]; rfl
  have hlexR : (List.zip R Z).Pairwise Lex := by
    rw [hzip, List.pairwise_map]
    refine hlex.imp ?_
    rintro p q (h | ⟨h1, h2⟩)
    · left; simp only; linarith
    · right; simp only; exact ⟨by rw [h1], by linarith⟩
  have hzip3 : List.zip r (List.zip z data) = (List.zip R (List.zip Z data)).map
      (fun q => (q.1 / 100, q.2.1 / 100, q.2.2)) := by
    rw [hRdef, hZdef, List.zip_map_left, List.zip_map_left, List.zip_map_right, List.map_map, List.map_map]
    rw [eq_comm]
    conv_rhs => rw [← List.map_id (List.zip r (List.zip z data))]
    refine List.map_congr_left ?_
    rintro ⟨a, b, s⟩ _
    simp
  rw [sdefBins_closed _ _ _ _ hR hRne hzR hdR, hzip3, List.forall₂_map_left_iff,
    ← flatMap_atRadius R (List.zip Z data) hR (by simp [hzR, hdR])]
  have hu := npUnique_ne_nil _ hRne
  have h3 : (List.zip (npUnique R) (uppers h (npUnique R))).map Prod.fst = npUnique R :=
    List.map_fst_zip (by rw [length_uppers _ _ hu])
  conv_lhs => rw [← h3]
  rw [List.flatMap_map]
  refine forall₂_flatMap _ _ _ _ ?_
  rintro ⟨ρ, ub⟩ he
  have hρ : ρ ∈ R := (mem_npUnique _ _).1 (List.of_mem_zip he).1
  have hne' := atRadius_ne_nil R Z hzR ρ hρ
  have hl1 := length_uppers h _ hne'
  have hl2 := atRadius_length R Z data ρ hzR hdR
  rw [← atRadius_zip R Z data ρ hzR hdR, List.forall₂_iff_get]
  refine ⟨by simp [hl1, hl2], ?_⟩
  intro n a1 a2
  have hn : n < (atRadius R Z ρ).length := by simp at a1; omega
  simp only [List.get_eq_getElem, List.getElem_map, List.getElem_zip, List.getElem_zipWith]
  refine ⟨by rw [hh]; ring, ?_, by linarith [hh], ?_, ?_⟩
  · rcases uppers_edge h _ (sorted_npUnique R) _ he with ⟨b, hb, h1, h2, h3⟩ | ⟨h1, h2⟩
    · left
      obtain ⟨b', hb', rfl⟩ := List.mem_map.1 ((mem_npUnique _ _).1 hb)
      simp only at h1 h3
      refine ⟨b', hb', by linarith, fun d hd hlt => ?_, by rw [h3, hh]; ring⟩
      have := h2 (d * 100) ((mem_npUnique _ _).2 (List.mem_map.2 ⟨d, hd, rfl⟩)) (by simp only; linarith)
      linarith
    · right
      simp only at h2
      refine ⟨fun b hb => ?_, by rw [h2, hh]; ring⟩
      have := h1 (b * 100) ((mem_npUnique _ _).2 (List.mem_map.2 ⟨b, hb, rfl⟩))
      simp only at this
      linarith
  · have hm : ((atRadius R Z ρ)[n], (uppers h (atRadius R Z ρ))[n]'(by omega)) ∈
        List.zip (atRadius R Z ρ) (uppers h (atRadius R Z ρ)) := by
      rw [List.mem_iff_getElem]; exact ⟨n, by simp; omega, by simp⟩
    have hcol : ∀ y : ℝ, y * 100 ∈ atRadius R Z ρ ↔
        y ∈ ((List.zip r z).filter fun p => decide (p.1 = ρ / 100)).map Prod.snd := by
      intro y
      rw [mem_atRadius, hzip, List.mem_map, List.mem_map]
      constructor
      · rintro ⟨⟨a, b⟩, hab, e⟩
        simp only [Prod.mk.injEq] at e
        have e2 : b = y := by linarith [e.2]
        exact ⟨(a, b), List.mem_filter.2 ⟨hab, by simp only [decide_eq_true_eq]; linarith [e.1]⟩, e2⟩
      · rintro ⟨⟨a, b⟩, hab, e⟩
        obtain ⟨h1, h2⟩ := List.mem_filter.1 hab
        simp only [decide_eq_true_eq] at h2 e
        exact ⟨(a, b), h1, by rw [h2, e]; simp⟩
    have hcol' : ∀ w ∈ atRadius R Z ρ, ∃ y, y ∈ ((List.zip r z).filter fun p => decide (p.1 = ρ / 100)).map Prod.snd ∧
        w = y * 100 := by
      intro w hw
      exact ⟨w / 100, (hcol _).1 (by rw [div_mul_cancel₀ _ (by norm_num)]; exact hw), by ring⟩
    rcases uppers_edge h _ (lex_column hlexR ρ) _ hm with ⟨b, hb, h1, h2, h3⟩ | ⟨h1, h2⟩
    · left
      obtain ⟨b', hb', rfl⟩ := hcol' b hb
      simp only at h1 h3
      refine ⟨b', hb', by linarith, fun d hd hlt => ?_, by rw [h3, hh]; ring⟩
      have := h2 (d * 100) ((hcol d).2 hd) (by simp only; linarith)
      linarith
    · right
      simp only at h2
      refine ⟨fun b hb => ?_, by rw [h2, hh]; ring⟩
      have := h1 (b * 100) ((hcol b).2 hb)
      simp only at this
      linarith
  · rw [cell_prob _ (fun a ha => hpos a ?_) _ _ (List.getElem_mem _)]
    exact (List.of_mem_zip ((mem_atRadius R data ρ a).1 ha)).2


/-! ## Stretched bins are few -/

theorem card_separated (S : Finset ℝ) (A B ω : ℝ) (hω : 0 < ω) (hAB : A ≤ B) (hS : ∀ a ∈ S, A ≤ a ∧ a ≤ B)
    (hsep : ∀ a ∈ S, ∀ b ∈ S, a < b → a + ω ≤ b) : (S.card : ℝ) ≤ (B - A) / ω + 1 := by
  have hcard : S.card ≤ (Finset.range (⌊(B - A) / ω⌋₊ + 1)).card := by
    refine Finset.card_le_card_of_injOn (fun a => ⌊(a - A) / ω⌋₊) ?_ ?_
    · intro a ha
      simp only [Finset.coe_range, Set.mem_Iio, Nat.lt_succ_iff]
      exact Nat.floor_le_floor (div_le_div_of_nonneg_right (by linarith [(hS a ha).2]) hω.le)
    · have key : ∀ a ∈ S, ∀ b ∈ S, a < b → ⌊(a - A) / ω⌋₊ ≠ ⌊(b - A) / ω⌋₊ := by
        intro a ha b hb hlt he
        have h1 := Nat.lt_floor_add_one ((a - A) / ω)
        have h2 := Nat.floor_le (a := (b - A) / ω) (div_nonneg (by linarith [(hS b hb).1]) hω.le)
        have h3 : (a - A) / ω + 1 ≤ (b - A) / ω := by
          rw [div_add_one hω.ne', div_le_div_iff_of_pos_right hω]
          have := hsep a ha b hb hlt
          linarith
        have h4 := Nat.floor_le (a := (a - A) / ω) (div_nonneg (by linarith [(hS a ha).1]) hω.le)
        have h5 : ⌊(a - A) / ω⌋₊ + 1 ≤ ⌊(b - A) / ω⌋₊ := by
          refine Nat.le_floor ?_
          push_cast
          linarith
        omega
      intro a ha b hb he
      rcases lt_trichotomy a b with h | h | h
      · exact absurd he (key a ha b hb h)
      · exact h
      · exact absurd he.symm (key b hb a ha h)
  rw [Finset.card_range] at hcard
  have h1 : (S.card : ℝ) ≤ (⌊(B - A) / ω⌋₊ : ℝ) + 1 := by exact_mod_cast hcard
  have h2 := Nat.floor_le (a := (B - A) / ω) (div_nonneg (by linarith) hω.le)
  linarith

/-- The next sampled radius is more than `ω` away. -/
def FarRadius (smp : List (ℝ × ℝ)) (ω x : ℝ) : Prop :=
  (∃ q ∈ smp, x < q.1) ∧ ∀ q ∈ smp, x < q.1 → x + ω < q.1

/-- The next cell of the column is more than `ω` away. -/
def FarHeight (smp : List (ℝ × ℝ)) (ω : ℝ) (p : ℝ × ℝ) : Prop :=
  (∃ q ∈ smp, q.1 = p.1 ∧ p.2 < q.2) ∧ ∀ q ∈ smp, q.1 = p.1 → p.2 < q.2 → p.2 + ω < q.2

open Classical in
/-- The number of cells before a gap, for any cells that are at least one side apart. -/
theorem far_count (smp : List (ℝ × ℝ)) (hnd : smp.Nodup) (X1 X2 Z1 Z2 L ω : ℝ) (hL : 0 < L) (hω : 0 < ω)
    (hX : X1 ≤ X2) (hZ : Z1 ≤ Z2) (hbox : ∀ p ∈ smp, X1 ≤ p.1 ∧ p.1 ≤ X2 ∧ Z1 ≤ p.2 ∧ p.2 ≤ Z2)
    (hsx : ∀ p ∈ smp, ∀ q ∈ smp, p.1 < q.1 → p.1 + L ≤ q.1) (hsz : ∀ p ∈ smp, ∀ q ∈ smp, p.2 < q.2 → p.2 + L ≤ q.2) :
    ((smp.filter fun p => decide (FarRadius smp ω p.1 ∨ FarHeight smp ω p)).length : ℝ) ≤
      ((X2 - X1) / ω + 1) * ((Z2 - Z1) / L + 1) + ((X2 - X1) / L + 1) * ((Z2 - Z1) / ω + 1) := by
  set S := smp.toFinset with hS
  set Xs := S.image Prod.fst with hXs
  set Zs := S.image Prod.snd with hZs
  have hXs1 : (Xs.card : ℝ) ≤ (X2 - X1) / L + 1 := by
    refine card_separated Xs X1 X2 L hL hX ?_ ?_
    · intro a ha
      obtain ⟨p, hp, rfl⟩ := Finset.mem_image.1 ha
      obtain ⟨h1, h2, -⟩ := hbox p (List.mem_toFinset.1 hp)
      exact ⟨h1, h2⟩
    · intro a ha b hb hab
      obtain ⟨p, hp, rfl⟩ := Finset.mem_image.1 ha
      obtain ⟨q, hq, rfl⟩ := Finset.mem_image.1 hb
      exact hsx p (List.mem_toFinset.1 hp) q (List.mem_toFinset.1 hq) hab
  have hZs1 : (Zs.card : ℝ) ≤ (Z2 - Z1) / L + 1 := by
    refine card_separated Zs Z1 Z2 L hL hZ ?_ ?_
    · intro a ha
      obtain ⟨p, hp, rfl⟩ := Finset.mem_image.1 ha
      obtain ⟨-, -, h1, h2⟩ := hbox p (List.mem_toFinset.1 hp)
      exact ⟨h1, h2⟩
    · intro a ha b hb hab
      obtain ⟨p, hp, rfl⟩ := Finset.mem_image.1 ha
      obtain ⟨q, hq, rfl⟩ := Finset.mem_image.1 hb
      exact hsz p (List.mem_toFinset.1 hp) q (List.mem_toFinset.1 hq) hab
  have hfar : ((Xs.filter fun x => FarRadius smp ω x).card : ℝ) ≤ (X2 - X1) / ω + 1 := by
    refine card_separated _ X1 X2 ω hω hX ?_ ?_
    · intro a ha
      obtain ⟨p, hp, rfl⟩ := Finset.mem_image.1 (Finset.mem_filter.1 ha).1
      obtain ⟨h1, h2, -⟩ := hbox p (List.mem_toFinset.1 hp)
      exact ⟨h1, h2⟩
    · intro a ha b hb hab
      obtain ⟨q, hq, rfl⟩ := Finset.mem_image.1 (Finset.mem_filter.1 hb).1
      exact ((Finset.mem_filter.1 ha).2.2 q (List.mem_toFinset.1 hq) hab).le
  have hA : ((S.filter fun p => FarRadius smp ω p.1).card : ℝ) ≤ ((X2 - X1) / ω + 1) * ((Z2 - Z1) / L + 1) := by
    have h1 : (S.filter fun p => FarRadius smp ω p.1).card ≤ ((Xs.filter fun x => FarRadius smp ω x) ×ˢ Zs).card := by
      refine Finset.card_le_card ?_
      intro p hp
      obtain ⟨hp, hpf⟩ := Finset.mem_filter.1 hp
      rw [Finset.mem_product, Finset.mem_filter]
      exact ⟨⟨Finset.mem_image_of_mem _ hp, hpf⟩, Finset.mem_image_of_mem _ hp⟩
    rw [Finset.card_product] at h1
    have h2 : ((S.filter fun p => FarRadius smp ω p.1).card : ℝ) ≤
        (Xs.filter fun x => FarRadius smp ω x).card * Zs.card := by exact_mod_cast h1
    refine h2.trans (mul_le_mul hfar hZs1 (Nat.cast_nonneg _) ?_)
    exact (Nat.cast_nonneg _).trans hfar
  have hB : ((S.filter fun p => FarHeight smp ω p).card : ℝ) ≤ ((X2 - X1) / L + 1) * ((Z2 - Z1) / ω + 1) := by
    have hsum : (S.filter fun p => FarHeight smp ω p).card =
        ∑ x ∈ Xs, ((S.filter fun p => FarHeight smp ω p).filter fun p => p.1 = x).card := by
      refine Finset.card_eq_sum_card_fiberwise ?_
      intro p hp
      exact Finset.mem_image_of_mem _ (Finset.mem_filter.1 hp).1
    have hfib : ∀ x ∈ Xs, (((S.filter fun p => FarHeight smp ω p).filter fun p => p.1 = x).card : ℝ) ≤
        (Z2 - Z1) / ω + 1 := by
      intro x _
      have hinj : ((S.filter fun p => FarHeight smp ω p).filter fun p => p.1 = x).card =
          (((S.filter fun p => FarHeight smp ω p).filter fun p => p.1 = x).image Prod.snd).card := by
        rw [Finset.card_image_of_injOn]
        intro p hp q hq he
        have h1 := (Finset.mem_filter.1 hp).2
        have h2 := (Finset.mem_filter.1 hq).2
        exact Prod.ext (h1.trans h2.symm) he
      rw [hinj]
      refine card_separated _ Z1 Z2 ω hω hZ ?_ ?_
      · intro a ha
        obtain ⟨p, hp, rfl⟩ := Finset.mem_image.1 ha
        obtain ⟨-, -, h1, h2⟩ := hbox p (List.mem_toFinset.1 (Finset.mem_filter.1 (Finset.mem_filter.1 hp).1).1)
        exact ⟨h1, h2⟩
      · intro a ha b hb hab
        obtain ⟨p, hp, rfl⟩ := Finset.mem_image.1 ha
        obtain ⟨q, hq, rfl⟩ := Finset.mem_image.1 hb
        obtain ⟨hp, hpx⟩ := Finset.mem_filter.1 hp
        obtain ⟨hq, hqx⟩ := Finset.mem_filter.1 hq
        exact ((Finset.mem_filter.1 hp).2.2 q (List.mem_toFinset.1 (Finset.mem_filter.1 hq).1) (hqx.trans hpx.symm) hab).le
    rw [hsum]
    push_cast
    refine (Finset.sum_le_sum hfib).trans ?_
    rw [Finset.sum_const, nsmul_eq_mul]
    refine mul_le_mul_of_nonneg_right hXs1 ?_
    have : 0 ≤ (Z2 - Z1) / ω := div_nonneg (by linarith) hω.le
    linarith
  have hlen : (smp.filter fun p => decide (FarRadius smp ω p.1 ∨ FarHeight smp ω p)).length =
      (S.filter fun p => FarRadius smp ω p.1 ∨ FarHeight smp ω p).card := by
    rw [← List.toFinset_card_of_nodup (hnd.filter _)]
    congr 1
    ext p
    simp [hS]
  rw [hlen, Finset.filter_or]
  have h1 := Finset.card_union_le (S.filter fun p => FarRadius smp ω p.1) (S.filter fun p => FarHeight smp ω p)
  have h2 : ((S.filter (fun p => FarRadius smp ω p.1) ∪ S.filter fun p => FarHeight smp ω p).card : ℝ) ≤
      (S.filter fun p => FarRadius smp ω p.1).card + (S.filter fun p => FarHeight smp ω p).card := by exact_mod_cast h1
  linarith

/-! ## One file -/

theorem tendsto_of_dist_small {F : Filter ℝ} {f h : ℝ → ℝ} {a : ℝ} (hf : Tendsto f F (𝓝 a))
    (hd : ∀ ε > 0, ∀ᶠ L in F, |h L - f L| ≤ ε) : Tendsto h F (𝓝 a) := by
  rw [Metric.tendsto_nhds] at hf ⊢
  intro ε hε
  filter_upwards [hf (ε / 2) (by linarith), hd (ε / 3) (by linarith)] with L h1 h2
  rw [Real.dist_eq] at h1 ⊢
  have := abs_sub_le (h L) (f L) a
  linarith

open Classical in
/-- The source on the cards is close to the cells, for all small cells and all strengths bounded per area. -/
theorem cards_uniform (pts : List (ℝ × ℝ)) (oX oZ : ℝ) (g : ℝ × ℝ → ℝ) (hg : Continuous g) (C : ℝ) (hC : 0 ≤ C)
    (ε : ℝ) (hε : 0 < ε) :
    ∀ᶠ L in 𝓝[>] (0 : ℝ), ∀ (w : ℝ × ℝ → ℝ) (k : ℝ) (cards : SdefCards ℝ), 0 < k →
      (∀ p ∈ samplePoints (pts.map Prod.fst) (pts.map Prod.snd) (containsPoint pts) oX oZ L, 0 ≤ w p ∧ w p ≤ C * L ^ 2) →
      0 < ((samplePoints (pts.map Prod.fst) (pts.map Prod.snd) (containsPoint pts) oX oZ L).map w).sum →
      sdefCards ((samplePoints (pts.map Prod.fst) (pts.map Prod.snd) (containsPoint pts) oX oZ L).map Prod.fst)
        ((samplePoints (pts.map Prod.fst) (pts.map Prod.snd) (containsPoint pts) oX oZ L).map Prod.snd) L
        ((samplePoints (pts.map Prod.fst) (pts.map Prod.snd) (containsPoint pts) oX oZ L).map fun p => k * w p) =
          .ok cards →
      |((samplePoints (pts.map Prod.fst) (pts.map Prod.snd) (containsPoint pts) oX oZ L).map w).sum * mcnpMean g cards -
        ((samplePoints (pts.map Prod.fst) (pts.map Prod.snd) (containsPoint pts) oX oZ L).map fun p => w p * g p).sum| ≤
      ε * (((samplePoints (pts.map Prod.fst) (pts.map Prod.snd) (containsPoint pts) oX oZ L).map w).sum + 1) := by
  set X1 := npMin (pts.map Prod.fst)
  set X2 := npMax (pts.map Prod.fst)
  set Z1 := npMin (pts.map Prod.snd)
  set Z2 := npMax (pts.map Prod.snd)
  set B : Set (ℝ × ℝ) := Set.Icc (X1 - 1) (X2 + 1) ×ˢ Set.Icc (Z1 - 1) (Z2 + 1) with hB
  have hin : ∀ p, containsPoint pts p = true → X1 ≤ p.1 ∧ p.1 ≤ X2 ∧ Z1 ≤ p.2 ∧ p.2 ≤ Z2 := by
    intro p hp
    obtain ⟨⟨a, ha, ha'⟩, ⟨b, hb, hb'⟩, ⟨c, hc, hc'⟩, ⟨d, hd, hd'⟩⟩ := C65_within_box pts p hp
    exact ⟨(npMin_le _ _ ha).trans ha', hb'.trans (le_npMax _ _ hb),
      (npMin_le _ _ hc).trans hc', hd'.trans (le_npMax _ _ hd)⟩
  have hBc : IsCompact B := isCompact_Icc.prod isCompact_Icc
  have huc : UniformContinuousOn g B := hBc.uniformContinuousOn_of_continuous hg.continuousOn
  rw [Metric.uniformContinuousOn_iff_le] at huc
  obtain ⟨δ, hδ, hd⟩ := huc (ε / 2) (by linarith)
  obtain ⟨G, hG⟩ := hBc.exists_bound_of_continuousOn hg.continuousOn
  simp only [Real.norm_eq_abs] at hG
  set ω := min δ 1 with hωd
  have hω : 0 < ω := lt_min hδ one_pos
  have hclose : ∀ p q : ℝ × ℝ, containsPoint pts p = true → |q.1 - p.1| ≤ ω → |q.2 - p.2| ≤ ω → |g q - g p| ≤ ε / 2 := by
    intro p q hp h1 h2
    obtain ⟨a, b, c, d⟩ := hin p hp
    have h1' := h1.trans (min_le_right _ _)
    have h2' := h2.trans (min_le_right _ _)
    rw [abs_le] at h1' h2'
    have := hd q ⟨⟨by linarith [h1'.1], by linarith [h1'.2]⟩, ⟨by linarith [h2'.1], by linarith [h2'.2]⟩⟩ p
      ⟨⟨by linarith, by linarith⟩, ⟨by linarith, by linarith⟩⟩ (by
        rw [Prod.dist_eq, Real.dist_eq, Real.dist_eq]
        exact max_le (h1.trans (min_le_left _ _)) (h2.trans (min_le_left _ _)))
    rwa [Real.dist_eq] at this
  have hlt : ∀ᶠ L in 𝓝[>] (0 : ℝ), L < ω := (gt_mem_nhds hω).filter_mono nhdsWithin_le_nhds
  set N : ℝ → ℝ := fun L => L ^ 2 * (((X2 - X1) / ω + 1) * ((Z2 - Z1) / L + 1) + ((X2 - X1) / L + 1) * ((Z2 - Z1) / ω + 1))
    with hN
  have hNlim : Tendsto N (𝓝[>] 0) (𝓝 0) := by
    have hcont : Tendsto (fun L : ℝ => ((X2 - X1) / ω + 1) * ((Z2 - Z1) * L + L ^ 2) +
        ((X2 - X1) * L + L ^ 2) * ((Z2 - Z1) / ω + 1)) (𝓝 0) (𝓝 (((X2 - X1) / ω + 1) * ((Z2 - Z1) * 0 + 0 ^ 2) +
        ((X2 - X1) * 0 + 0 ^ 2) * ((Z2 - Z1) / ω + 1))) := Continuous.tendsto (by fun_prop) 0
    have h0 : ((X2 - X1) / ω + 1) * ((Z2 - Z1) * 0 + 0 ^ 2) + ((X2 - X1) * 0 + 0 ^ 2) * ((Z2 - Z1) / ω + 1) = 0 := by ring
    rw [h0] at hcont
    refine (hcont.mono_left nhdsWithin_le_nhds).congr' ?_
    filter_upwards [self_mem_nhdsWithin] with L hL
    have hL : L ≠ 0 := (show (0:ℝ) < L from hL).ne'
    simp only [hN]
    field_simp
  have hNsmall : ∀ᶠ L in 𝓝[>] (0 : ℝ), 2 * G * C * N L < ε / 2 := by
    have : Tendsto (fun L => 2 * G * C * N L) (𝓝[>] 0) (𝓝 (2 * G * C * 0)) := hNlim.const_mul (2 * G * C)
    rw [mul_zero] at this
    exact this.eventually (gt_mem_nhds (by linarith))
  filter_upwards [hNsmall, hlt, self_mem_nhdsWithin] with L hNL hLω hL0 w k cards hk hw hW hcards
  have hL0 : 0 < L := hL0
  have hex := C12_exact (pts.map Prod.fst) (pts.map Prod.snd) (containsPoint pts) (C65_within_box pts) oX oZ L hL0
  have hord := C16_order (pts.map Prod.fst) (pts.map Prod.snd) (containsPoint pts) oX oZ L hL0
  have hnd := C12_nodup (pts.map Prod.fst) (pts.map Prod.snd) (containsPoint pts) oX oZ L hL0
  set smp := samplePoints (pts.map Prod.fst) (pts.map Prod.snd) (containsPoint pts) oX oZ L with hsmp
  have hlat : ∀ (o : ℝ) (i i' : ℤ), o + L * (i : ℝ) < o + L * (i' : ℝ) → o + L * (i : ℝ) + L ≤ o + L * (i' : ℝ) := by
    intro o i i' a1
    have h1 : (i : ℝ) < i' := by
      by_contra hcon
      have := mul_le_mul_of_nonneg_left (not_lt.1 hcon) hL0.le
      linarith
    have h2 : (i : ℝ) + 1 ≤ i' := by exact_mod_cast Int.add_one_le_iff.2 (by exact_mod_cast h1)
    have := mul_le_mul_of_nonneg_left h2 hL0.le
    linarith
  have hsx : ∀ p ∈ smp, ∀ q ∈ smp, p.1 < q.1 → p.1 + L ≤ q.1 := by
    intro p hp q hq h
    obtain ⟨⟨i, j, hi, hj⟩, -⟩ := (hex p).1 hp
    obtain ⟨⟨i', j', hi', hj'⟩, -⟩ := (hex q).1 hq
    rw [hi, hi'] at h ⊢
    exact hlat oX i i' h
  have hsz : ∀ p ∈ smp, ∀ q ∈ smp, p.2 < q.2 → p.2 + L ≤ q.2 := by
    intro p hp q hq h
    obtain ⟨⟨i, j, hi, hj⟩, -⟩ := (hex p).1 hp
    obtain ⟨⟨i', j', hi', hj'⟩, -⟩ := (hex q).1 hq
    rw [hj, hj'] at h ⊢
    exact hlat oZ j j' h
  have hbox : ∀ p ∈ smp, X1 ≤ p.1 ∧ p.1 ≤ X2 ∧ Z1 ≤ p.2 ∧ p.2 ≤ Z2 := fun p hp => hin p ((hex p).1 hp).2
  have hzip : List.zip (smp.map Prod.fst) (smp.map Prod.snd) = smp := by
    rw [List.zip_map']; simp
  have hne : smp ≠ [] := by
    intro e
    rw [e] at hW
    simp at hW
  obtain ⟨o, ho⟩ := List.exists_mem_of_ne_nil smp hne
  have hX12 : X1 ≤ X2 := (hbox o ho).1.trans (hbox o ho).2.1
  have hZ12 : Z1 ≤ Z2 := (hbox o ho).2.2.1.trans (hbox o ho).2.2.2
  have hG0 : 0 ≤ G := (abs_nonneg _).trans (hG o ⟨⟨by linarith [hbox o ho], by linarith [hbox o ho]⟩,
    ⟨by linarith [hbox o ho], by linarith [hbox o ho]⟩⟩)
  have hcount := far_count smp hnd X1 X2 Z1 Z2 L ω hL0 hω hX12 hZ12 hbox hsx hsz
  obtain ⟨c, hc, hbins⟩ := C106_bins (smp.map Prod.fst) (smp.map Prod.snd) (smp.map fun p => k * w p) L (by simpa using hne)
    (by simp) (by simp) (by
      intro s hs
      obtain ⟨p, hp, rfl⟩ := List.mem_map.1 hs
      exact mul_nonneg hk.le (hw p hp).1) (by rw [hzip]; exact hord)
  rw [hcards] at hc
  cases hc
  rw [hzip, show List.zip (smp.map Prod.fst) (List.zip (smp.map Prod.snd) (smp.map fun p => k * w p)) =
    smp.map fun p => (p.1, p.2, k * w p) by rw [List.zip_map', List.zip_map'], List.forall₂_map_left_iff,
    List.sum_map_mul_left] at hbins
  set e : ℝ × ℝ → ℝ := fun p => ε / 2 + if FarRadius smp ω p.1 ∨ FarHeight smp ω p then 2 * G else 0 with he
  have hterm : List.Forall₂ (fun (p : ℝ × ℝ) (b : SBin ℝ) =>
      |(smp.map w).sum * (b.prob * uniformMean g b.rLo b.rHi b.zLo b.zHi) - w p * g p| ≤ w p * e p)
      smp (sdefBins cards) := by
    have hmem : ∀ p ∈ smp, p ∈ smp := fun p h => h
    have hb2 : List.Forall₂ (fun (p : ℝ × ℝ) (b : SBin ℝ) => p ∈ smp ∧ (b.rLo = 100 * (p.1 - L / 2) ∧
        UpperEdge (smp.map Prod.fst) L p.1 b.rHi ∧ b.zLo = 100 * (p.2 - L / 2) ∧
        UpperEdge ((smp.filter fun q => decide (q.1 = p.1)).map Prod.snd) L p.2 b.zHi ∧
        b.prob = k * w p / (k * (smp.map w).sum))) smp (sdefBins cards) := by
      rw [List.forall₂_and_left]
      exact ⟨hmem, hbins⟩
    refine hb2.imp ?_
    rintro p b ⟨hp, h1, h2, h3, h4, h5⟩
    obtain ⟨⟨i, j, hi, hj⟩, hpin⟩ := (hex p).1 hp
    obtain ⟨b1, b2, b3, b4⟩ := hbox p hp
    have hL1 : L < 1 := hLω.trans_le (min_le_right _ _)
    have hr : b.rLo < b.rHi ∧ b.rHi ≤ 100 * (X2 + 1) ∧ (¬ FarRadius smp ω p.1 → b.rHi ≤ 100 * (p.1 + ω)) := by
      rcases h2 with ⟨a, ha, a1, a2, a3⟩ | ⟨-, a3⟩
      · obtain ⟨q, hq, rfl⟩ := List.mem_map.1 ha
        have := (hbox q hq).2.1
        refine ⟨by linarith, by linarith, fun hnf => ?_⟩
        unfold FarRadius at hnf
        push Not at hnf
        obtain ⟨s, hs, s1, s2⟩ := hnf ⟨q, hq, a1⟩
        have := a2 s.1 (List.mem_map.2 ⟨s, hs, rfl⟩) s1
        linarith
      · exact ⟨by linarith, by linarith, fun _ => by linarith⟩
    have hzz : b.zLo < b.zHi ∧ b.zHi ≤ 100 * (Z2 + 1) ∧ (¬ FarHeight smp ω p → b.zHi ≤ 100 * (p.2 + ω)) := by
      rcases h4 with ⟨a, ha, a1, a2, a3⟩ | ⟨-, a3⟩
      · obtain ⟨q, hq, rfl⟩ := List.mem_map.1 ha
        obtain ⟨hq, hqe⟩ := List.mem_filter.1 hq
        simp only [decide_eq_true_eq] at hqe
        have := (hbox q hq).2.2.2
        refine ⟨by linarith, by linarith, fun hnf => ?_⟩
        unfold FarHeight at hnf
        push Not at hnf
        obtain ⟨s, hs, s0, s1, s2⟩ := hnf ⟨q, hq, hqe, a1⟩
        have := a2 s.2 (List.mem_map.2 ⟨s, List.mem_filter.2 ⟨hs, by simp [s0]⟩, rfl⟩) s1
        linarith
      · exact ⟨by linarith, by linarith, fun _ => by linarith⟩
    have hmean : |uniformMean g b.rLo b.rHi b.zLo b.zHi - g p| ≤ e p := by
      rw [uniformMean_eq]
      by_cases hf : FarRadius smp ω p.1 ∨ FarHeight smp ω p
      · have hep : e p = ε / 2 + 2 * G := by simp only [he, if_pos hf]
        rw [hep]
        refine boxMean_close hg hr.1 hzz.1 zero_le_one one_pos (by linarith) ?_
        intro x z x1 x2 z1 z2
        have hq := hG (x / 100, z / 100) ⟨⟨by simp only; linarith, by simp only; linarith [hr.2.1]⟩,
          ⟨by simp only; linarith, by simp only; linarith [hzz.2.1]⟩⟩
        have hpB := hG p ⟨⟨by linarith, by linarith⟩, ⟨by linarith, by linarith⟩⟩
        have := abs_sub (g (x / 100, z / 100)) (g p)
        linarith
      · have hep : e p = ε / 2 := by simp only [he, if_neg hf, add_zero]
        rw [hep]
        obtain ⟨hf1, hf2⟩ := not_or.1 hf
        have hr3 := hr.2.2 hf1
        have hz3 := hzz.2.2 hf2
        refine boxMean_close hg hr.1 hzz.1 zero_le_one one_pos (by linarith) ?_
        intro x z x1 x2 z1 z2
        refine hclose p _ hpin ?_ ?_
        · rw [abs_le]; constructor <;> simp only <;> linarith
        · rw [abs_le]; constructor <;> simp only <;> linarith
    have hp0 : 0 ≤ w p := (hw p hp).1
    have hS : (smp.map w).sum * (k * w p / (k * (smp.map w).sum) * uniformMean g b.rLo b.rHi b.zLo b.zHi) =
        w p * uniformMean g b.rLo b.rHi b.zLo b.zHi := by
      field_simp
    rw [h5, hS, ← mul_sub, abs_mul, abs_of_nonneg hp0]
    exact mul_le_mul_of_nonneg_left hmean hp0
  have hsum : ∀ (l : List (ℝ × ℝ)) (bs : List (SBin ℝ)), List.Forall₂ (fun (p : ℝ × ℝ) (b : SBin ℝ) =>
      |(smp.map w).sum * (b.prob * uniformMean g b.rLo b.rHi b.zLo b.zHi) - w p * g p| ≤ w p * e p) l bs →
      |(smp.map w).sum * (bs.map fun b => b.prob * uniformMean g b.rLo b.rHi b.zLo b.zHi).sum -
        (l.map fun p => w p * g p).sum| ≤ (l.map fun p => w p * e p).sum := by
    intro l bs h
    induction h with
    | nil => simp
    | cons h1 _ ih =>
      simp only [List.map_cons, List.sum_cons]
      refine le_trans ?_ (add_le_add h1 ih)
      refine le_trans (le_of_eq ?_) (abs_add_le _ _)
      congr 1; ring
  have hfin := hsum smp (sdefBins cards) hterm
  refine hfin.trans ?_
  have hle : ∀ l : List (ℝ × ℝ), (∀ p ∈ l, p ∈ smp) →
      (l.map fun p => w p * e p).sum ≤ (l.map w).sum * (ε / 2) +
        C * L ^ 2 * (2 * G) * (l.filter fun p => decide (FarRadius smp ω p.1 ∨ FarHeight smp ω p)).length := by
    intro l
    induction l with
    | nil => simp
    | cons p l ih =>
      intro hl
      have ih := ih fun q hq => hl q (List.mem_cons_of_mem _ hq)
      have hwp := hw p (hl p List.mem_cons_self)
      have hsh2 := mul_le_mul_of_nonneg_right hwp.2 (by linarith : (0:ℝ) ≤ 2 * G)
      simp only [List.map_cons, List.sum_cons]
      by_cases hf : FarRadius smp ω p.1 ∨ FarHeight smp ω p
      · have hep : e p = ε / 2 + 2 * G := by simp only [he, if_pos hf]
        rw [List.filter_cons_of_pos (by simpa using hf), List.length_cons, hep]
        push_cast
        linarith
      · have hep : e p = ε / 2 := by simp only [he, if_neg hf, add_zero]
        rw [List.filter_cons_of_neg (by simpa using hf), hep]
        linarith
  have h1 := hle smp fun p hp => hp
  have h2 : C * L ^ 2 * (2 * G) * ((smp.filter fun p => decide (FarRadius smp ω p.1 ∨ FarHeight smp ω p)).length : ℝ) ≤
      2 * G * C * N L := by
    have h3 := mul_le_mul_of_nonneg_left hcount (show 0 ≤ C * L ^ 2 * (2 * G) by positivity)
    refine h3.trans (le_of_eq ?_)
    simp only [hN]
    ring
  have h3 : (smp.map w).sum * (ε / 2) ≤ ε * (smp.map w).sum := by
    have := mul_pos hε hW
    linarith
  linarith

section limit
variable {u : SI} {m : Masses ℝ} {method : ReactivityMethod} {st : List Reaction} {tr : Transport}
  {T : ℝ → ℝ} {n : Species → ℝ → ℝ}

/-- What the files are made from, for a plasma of any shape. -/
theorem sdef_made {c : ℝ} (hc : GoodConstants u m c) (arg : SourceArg)
    (hst : parseSourceType arg = .ok st) (hv : ProfilesAre tr T n)
    (hp : ContinuousPlasma method st T n) (fm : ParamMap) (hfm : Roomy fm) (psi : ℝ → ℝ → ℝ)
    (r0 : Reaction) (hr0 : r0 ∈ st) (hb : Burns tr r0 (psi fm.oPoint.x fm.oPoint.z))
    (P : ℝ) (hP : 0 < P) (stub : String) (L : ℝ) (hL : 0 < L) :
    ∃ s k files, makeSource u m c tr (fm.view psi) arg L (some P) method = .ok s ∧ 0 < k ∧
      s.toSdef stub = .ok files ∧ (files.map (·.reaction)) = st.filter (fun r => decide (0 < neutronYield r)) ∧
      0 < ((samplePoints (fm.lcfs.map Prod.fst) (fm.lcfs.map Prod.snd) (containsPoint fm.lcfs) fm.oPoint.x
        fm.oPoint.z L).map fun p => localRate u m method T n r0 (psi p.1 p.2) * (2 * Real.pi * p.1 * L ^ 2)).sum ∧
      ∀ f ∈ files, f.reaction ∈ st ∧
        sdefCards ((samplePoints (fm.lcfs.map Prod.fst) (fm.lcfs.map Prod.snd) (containsPoint fm.lcfs) fm.oPoint.x
        fm.oPoint.z L).map Prod.fst) ((samplePoints (fm.lcfs.map Prod.fst) (fm.lcfs.map Prod.snd) (containsPoint fm.lcfs) fm.oPoint.x
        fm.oPoint.z L).map Prod.snd) L ((samplePoints (fm.lcfs.map Prod.fst) (fm.lcfs.map Prod.snd) (containsPoint fm.lcfs) fm.oPoint.x
        fm.oPoint.z L).map fun p => k * (localRate u m method T n f.reaction (psi p.1 p.2) * (2 * Real.pi * p.1 * L ^ 2))) = .ok f.cards ∧
        f.total = k * ((samplePoints (fm.lcfs.map Prod.fst) (fm.lcfs.map Prod.snd) (containsPoint fm.lcfs) fm.oPoint.x
        fm.oPoint.z L).map fun p => localRate u m method T n f.reaction (psi p.1 p.2) * (2 * Real.pi * p.1 * L ^ 2)).sum ∧
        f.ionTemp = XF.fin (k * ((samplePoints (fm.lcfs.map Prod.fst) (fm.lcfs.map Prod.snd) (containsPoint fm.lcfs) fm.oPoint.x
        fm.oPoint.z L).map fun p => localRate u m method T n f.reaction (psi p.1 p.2) * (2 * Real.pi * p.1 * L ^ 2) * T (psi p.1 p.2)).sum) /
          XF.fin (k * ((samplePoints (fm.lcfs.map Prod.fst) (fm.lcfs.map Prod.snd) (containsPoint fm.lcfs) fm.oPoint.x
        fm.oPoint.z L).map fun p => localRate u m method T n f.reaction (psi p.1 p.2) * (2 * Real.pi * p.1 * L ^ 2)).sum) := by
  obtain ⟨s, k, hs, hphys, hty, hk, hx, hz, ht, hcl, hstr⟩ :=
    source_cells hc arg hst hv hp fm hfm psi r0 hr0 hb P hP L hL
  obtain ⟨-, s', -, -, hs', -, -, -, -, -, -, -, -, -, hnum⟩ :=
    power_of hc method arg st hst tr (good_of_continuous hp hv) fm hfm.1 psi L hL r0 hr0 hb P hP
  rw [hs] at hs'
  cases hs'
  obtain ⟨hnd, hkeys, _, _, hbook, _⟩ := C04_bookkeeping hphys.reachable
  obtain ⟨-, hph⟩ := hphys.phys
  have hsum : ∀ (r : Reaction) (pts : List (ℝ × ℝ)), (pts.map fun p => k * (localRate u m method T n r (psi p.1 p.2) *
      (2 * Real.pi * p.1 * L ^ 2))).sum = k * (pts.map fun p => localRate u m method T n r (psi p.1 p.2) *
      (2 * Real.pi * p.1 * L ^ 2)).sum := fun r pts => by rw [List.sum_map_mul_left]
  set pts := samplePoints (fm.lcfs.map Prod.fst) (fm.lcfs.map Prod.snd) (containsPoint fm.lcfs) fm.oPoint.x
    fm.oPoint.z L with hpts
  have hpos : 0 < (pts.map fun p => localRate u m method T n r0 (psi p.1 p.2) * (2 * Real.pi * p.1 * L ^ 2)).sum := by
    obtain ⟨cells, h1, h2, -⟩ := hbook r0 (hty ▸ hr0)
    rw [hstr r0 hr0] at h1
    cases h1
    unfold Dict.getD at hnum
    rw [h2, hsum] at hnum
    exact (mul_pos_iff_of_pos_left hk).1 hnum
  have hne : s.x ≠ [] := by
    rw [hx]
    intro e
    rw [List.map_eq_nil_iff] at e
    rw [e] at hpos
    simp at hpos
  obtain ⟨files, hfiles, hreact, -, hnames⟩ := C28_files hphys.reachable hne stub
  rw [hty] at hreact
  refine ⟨s, k, files, hs, hk, hfiles, hreact, hpos, ?_⟩
  intro f hf
  have hmem : f.reaction ∈ st := by
    have : f.reaction ∈ files.map (·.reaction) := List.mem_map.2 ⟨f, hf, rfl⟩
    rw [hreact] at this
    exact (List.mem_filter.1 this).1
  obtain ⟨p, hpm, he⟩ := mapM_mem hfiles f hf
  have hpm' := (List.mem_filter.1 hpm).1
  have hget : s.strength.get? p.1 = some p.2 := by
    obtain ⟨g, hcl'⟩ := reachable_closed hphys.reachable
    rw [hcl'.2.1] at hpm' ⊢
    obtain ⟨r, hrm, rfl⟩ := List.mem_map.1 hpm'
    rw [Dict.get?_map_pair, if_pos hrm]
  rw [hx, hz, hcl] at he
  simp only [Bind.bind, Except.bind] at he
  split at he
  · cases he
  rename_i cards hcards
  cases he
  have h2 : p.2 = pts.map fun q => k * (localRate u m method T n p.1 (psi q.1 q.2) * (2 * Real.pi * q.1 * L ^ 2)) := by
    rw [hstr p.1 hmem] at hget
    exact (Option.some.inj hget).symm
  refine ⟨hmem, ?_, ?_, ?_⟩
  · show sdefCards (pts.map Prod.fst) (pts.map Prod.snd) L _ = .ok cards
    rw [← hcards, h2]
  · show headerTotal p.2 = _
    unfold headerTotal
    rw [h2, hsum]
  · show meanIonTemp p.2 s.temperature = _
    unfold meanIonTemp
    rw [h2, hsum, ht, List.zipWith_map, List.zipWith_self]
    congr 2
    rw [← List.sum_map_mul_left]
    congr 1
    refine List.map_congr_left ?_
    intro q _
    ring

theorem weight_bound (hd : PhysicalData u m) (hp : ContinuousPlasma method st T n) (hv : ProfilesAre tr T n)
    (fm : ParamMap) (hfm : Roomy fm) (psi : ℝ → ℝ → ℝ) (r : Reaction) (hr : r ∈ st) (oX oZ : ℝ) :
    ∃ C : ℝ, 0 ≤ C ∧ ∀ L, ∀ p ∈ samplePoints (fm.lcfs.map Prod.fst) (fm.lcfs.map Prod.snd) (containsPoint fm.lcfs) oX oZ L,
      0 ≤ localRate u m method T n r (psi p.1 p.2) * (2 * Real.pi * p.1 * L ^ 2) ∧
      localRate u m method T n r (psi p.1 p.2) * (2 * Real.pi * p.1 * L ^ 2) ≤ C * L ^ 2 := by
  obtain ⟨C, hC⟩ := localRate_bounded hd hp hv r hr
  have hpi := Real.pi_pos
  refine ⟨|C| * (2 * Real.pi * |npMax (fm.lcfs.map Prod.fst)|), by positivity, fun L p hp' => ?_⟩
  have hin := (List.mem_filter.1 hp').2
  have hx := hfm.1.1 p hin
  obtain ⟨-, ⟨b, hb, hb'⟩, -⟩ := C65_within_box fm.lcfs p hin
  have hx2 : p.1 ≤ |npMax (fm.lcfs.map Prod.fst)| := (hb'.trans (le_npMax _ _ hb)).trans (le_abs_self _)
  have h0 := localRate_nonneg hd hp r hr (psi p.1 p.2)
  have h1 : localRate u m method T n r (psi p.1 p.2) ≤ |C| := ((le_abs_self _).trans (hC _)).trans (le_abs_self _)
  refine ⟨by positivity, ?_⟩
  have h2 : localRate u m method T n r (psi p.1 p.2) * p.1 ≤ |C| * |npMax (fm.lcfs.map Prod.fst)| :=
    mul_le_mul h1 hx2 hx.le (abs_nonneg _)
  have h3 := mul_le_mul_of_nonneg_right h2 (show 0 ≤ 2 * Real.pi * L ^ 2 by positivity)
  linarith

/-- One file, for a plasma of any shape. -/
theorem sdef_file_of {c : ℝ} (hc : GoodConstants u m c) (arg : SourceArg)
    (hst : parseSourceType arg = .ok st) (hv : ProfilesAre tr T n)
    (hp : ContinuousPlasma method st T n) (fm : ParamMap) (hfm : Roomy fm) (psi : ℝ → ℝ → ℝ)
    (hpsi : ContinuousOn (fun p : ℝ × ℝ => psi p.1 p.2) {p | containsPoint fm.lcfs p = true})
    (r : Neutronic) (hr : .n r ∈ st) (hb : Burns tr (.n r) (psi fm.oPoint.x fm.oPoint.z))
    (P : ℝ) (hP : 0 < P) (stub : String) :
    ∃ (s : ℝ → Source ℝ) (files : ℝ → List (SdefFile ℝ)) (f : ℝ → SdefFile ℝ) (t : ℝ → ℝ),
      (∀ L > 0, makeSource u m c tr (fm.view psi) arg L (some P) method = .ok (s L) ∧
        (s L).toSdef stub = .ok (files L) ∧ f L ∈ files L ∧ (f L).reaction = .n r ∧
        (f L).name = stub ++ "." ++ sdefSuffix r ∧ (f L).ionTemp = .fin (t L)) ∧
      0 < plasmaRate u m method T n psi {p | containsPoint fm.lcfs p = true} (.n r) ∧
      (∀ g : ℝ × ℝ → ℝ, Continuous g → Tendsto (fun L => mcnpMean g (f L).cards) (𝓝[>] 0)
        (𝓝 (reactionMean u m method T n psi {p | containsPoint fm.lcfs p = true} (.n r) g))) ∧
      Tendsto t (𝓝[>] 0) (𝓝 (reactionMean u m method T n psi {p | containsPoint fm.lcfs p = true} (.n r)
        fun p => T (psi p.1 p.2))) := by
  set pts := fun L : ℝ => samplePoints (fm.lcfs.map Prod.fst) (fm.lcfs.map Prod.snd) (containsPoint fm.lcfs) fm.oPoint.x
    fm.oPoint.z L with hpts
  set w : ℝ → ℝ × ℝ → ℝ := fun L p => localRate u m method T n (.n r) (psi p.1 p.2) * (2 * Real.pi * p.1 * L ^ 2) with hw
  have hw0 : ∀ L, ∀ p ∈ pts L, 0 ≤ w L p := by
    intro L p hpp
    have h1 := hfm.1.1 p (List.mem_filter.1 hpp).2
    have := Real.pi_pos
    exact mul_nonneg (localRate_nonneg hc.data hp _ hr _) (by positivity)
  have hex : ∀ L : ℝ, ∃ (s : Source ℝ) (files : List (SdefFile ℝ)) (f : SdefFile ℝ) (k : ℝ), 0 < L →
      (makeSource u m c tr (fm.view psi) arg L (some P) method = .ok s ∧
        s.toSdef stub = .ok files ∧ f ∈ files ∧ f.reaction = .n r ∧
        f.name = stub ++ "." ++ sdefSuffix r ∧
        f.ionTemp = .fin (((pts L).map fun p => w L p * T (psi p.1 p.2)).sum / ((pts L).map (w L)).sum)) ∧
      0 < k ∧ 0 < ((pts L).map (w L)).sum ∧
      sdefCards ((pts L).map Prod.fst) ((pts L).map Prod.snd) L ((pts L).map fun p => k * w L p) = .ok f.cards := by
    have one : ∀ L : ℝ, 0 < L → ∃ (s : Source ℝ) (files : List (SdefFile ℝ)) (f : SdefFile ℝ) (k : ℝ),
      (makeSource u m c tr (fm.view psi) arg L (some P) method = .ok s ∧
        s.toSdef stub = .ok files ∧ f ∈ files ∧ f.reaction = .n r ∧
        f.name = stub ++ "." ++ sdefSuffix r ∧
        f.ionTemp = .fin (((pts L).map fun p => w L p * T (psi p.1 p.2)).sum / ((pts L).map (w L)).sum)) ∧
      0 < k ∧ 0 < ((pts L).map (w L)).sum ∧
      sdefCards ((pts L).map Prod.fst) ((pts L).map Prod.snd) L ((pts L).map fun p => k * w L p) = .ok f.cards := by
      intro L hL
      obtain ⟨s, k, files, hs, hk, hfiles, hreact, hpos, hform⟩ :=
        sdef_made hc arg hst hv hp fm hfm psi (.n r) hr hb P hP stub L hL
      have hm : (Reaction.n r) ∈ files.map (·.reaction) := by
        rw [hreact, List.mem_filter]
        exact ⟨hr, by cases r <;> simp [neutronYield]⟩
      obtain ⟨f, hf, hfr⟩ := List.mem_map.1 hm
      obtain ⟨-, h1, -, h3⟩ := hform f hf
      rw [hfr] at h1 h3
      have hname : f.name = stub ++ "." ++ sdefSuffix r := by
        obtain ⟨p, hpm, he⟩ := mapM_mem hfiles f hf
        simp only [Bind.bind, Except.bind] at he
        split at he
        · cases he
        cases he
        have hfr : p.1 = .n r := hfr
        show sdefFileName stub p.1 = _
        rw [hfr, sdefFileName_eq]
      refine ⟨s, files, f, k, ⟨hs, hfiles, hf, hfr, hname, ?_⟩, hk, hpos, h1⟩
      rw [h3]
      have hdiv : ∀ a b : ℝ, b ≠ 0 → (XF.fin a / XF.fin b) = XF.fin (a / b) := by
        intro a b hb
        show XF.div _ _ = _
        simp [XF.div, hb]
      rw [hdiv _ _ (mul_pos hk hpos).ne', mul_div_mul_left _ _ hk.ne']
    intro L
    by_cases hL : 0 < L
    · obtain ⟨s, files, f, k, h⟩ := one L hL
      exact ⟨s, files, f, k, fun _ => h⟩
    · obtain ⟨s, files, f, k, h⟩ := one 1 one_pos
      exact ⟨s, files, f, k, fun h => absurd h hL⟩
  choose s files f k hs using hex
  have hpos := plasmaRate_pos hc.data hv hp fm hfm psi hpsi (.n r) hr hb
  have hden : Tendsto (fun L : ℝ => ((pts L).map (w L)).sum) (𝓝[>] 0)
      (𝓝 (plasmaRate u m method T n psi {p | containsPoint fm.lcfs p = true} (.n r))) :=
    rate_limit hc.data hv hp fm psi hpsi (.n r) hr _ _
  have hM : CellAverage fun g _ p => g p := by
    intro g _ L ω p _ _ hω _
    simpa using hω
  refine ⟨s, files, f, fun L => ((pts L).map fun p => w L p * T (psi p.1 p.2)).sum / ((pts L).map (w L)).sum,
    fun L hL => (hs L hL).1, hpos, ?_, ?_⟩
  · intro g hg
    have hnum := channel_limit hM hc.data hv hp fm hfm psi hpsi (.n r) hr (fun _ p => g p)
      (by fun_prop) fm.oPoint.x fm.oPoint.z
    obtain ⟨C, hC0, hC⟩ := weight_bound hc.data hp hv fm hfm psi (.n r) hr fm.oPoint.x fm.oPoint.z
    have hnum' : Tendsto (fun L => ((pts L).map (w L)).sum * mcnpMean g (f L).cards) (𝓝[>] 0)
        (𝓝 (∫ p in {p | containsPoint fm.lcfs p = true}, g p *
          (localRate u m method T n (.n r) (psi p.1 p.2) * (2 * Real.pi * p.1)))) := by
      refine tendsto_of_dist_small hnum fun ε hε => ?_
      set S := plasmaRate u m method T n psi {p | containsPoint fm.lcfs p = true} (.n r) with hS
      have hle : ∀ᶠ L in 𝓝[>] (0 : ℝ), ((pts L).map (w L)).sum < S + 1 := hden.eventually (gt_mem_nhds (by linarith))
      filter_upwards [cards_uniform fm.lcfs fm.oPoint.x fm.oPoint.z g hg C hC0 (ε / (S + 2)) (by positivity), hle,
        self_mem_nhdsWithin] with L hL hL1 hL0
      obtain ⟨-, h1, h2, h3⟩ := hs L hL0
      refine (hL (w L) (k L) (f L).cards h1 (hC L) h2 h3).trans ?_
      calc ε / (S + 2) * (((pts L).map (w L)).sum + 1) ≤ ε / (S + 2) * (S + 2) :=
            mul_le_mul_of_nonneg_left (by linarith) (by positivity)
        _ = ε := by field_simp
    refine (hnum'.div hden hpos.ne').congr' ?_
    filter_upwards [self_mem_nhdsWithin] with L hL0
    obtain ⟨-, -, h2, -⟩ := hs L hL0
    exact mul_div_cancel_left₀ _ h2.ne'
  · have hnum := channel_limit hM hc.data hv hp fm hfm psi hpsi (.n r) hr (fun t _ => t)
      (by fun_prop) fm.oPoint.x fm.oPoint.z
    exact hnum.div hden hpos.ne'

/-- All files, for a plasma of any shape. -/
theorem sdef_run_of {c : ℝ} (hc : GoodConstants u m c) (arg : SourceArg)
    (hst : parseSourceType arg = .ok st) (hv : ProfilesAre tr T n)
    (hp : ContinuousPlasma method st T n) (fm : ParamMap) (hfm : Roomy fm) (psi : ℝ → ℝ → ℝ)
    (hpsi : ContinuousOn (fun p : ℝ × ℝ => psi p.1 p.2) {p | containsPoint fm.lcfs p = true})
    (r0 : Reaction) (hr0 : r0 ∈ st) (hy : 0 < neutronYield r0) (hb : Burns tr r0 (psi fm.oPoint.x fm.oPoint.z))
    (P : ℝ) (hP : 0 < P) (stub : String) :
    ∃ (s : ℝ → Source ℝ) (files : ℝ → List (SdefFile ℝ)),
      (∀ L > 0, makeSource u m c tr (fm.view psi) arg L (some P) method = .ok (s L) ∧
        (s L).toSdef stub = .ok (files L)) ∧
      0 < plasmaNeutrons u m method T n psi {p | containsPoint fm.lcfs p = true} st (fun _ _ _ => 1) ∧
      ∀ g : ℝ × ℝ → ℝ, Continuous g → Tendsto (fun L => mcnpRunMean g (files L)) (𝓝[>] 0)
        (𝓝 (plasmaNeutrons u m method T n psi {p | containsPoint fm.lcfs p = true} st (fun _ _ p => g p) /
          plasmaNeutrons u m method T n psi {p | containsPoint fm.lcfs p = true} st (fun _ _ _ => 1))) := by
  set pts := fun L : ℝ => samplePoints (fm.lcfs.map Prod.fst) (fm.lcfs.map Prod.snd) (containsPoint fm.lcfs) fm.oPoint.x
    fm.oPoint.z L with hpts
  set w : Reaction → ℝ → ℝ × ℝ → ℝ := fun r L p =>
    localRate u m method T n r (psi p.1 p.2) * (2 * Real.pi * p.1 * L ^ 2) with hw
  have hw0 : ∀ r ∈ st, ∀ L, ∀ p ∈ pts L, 0 ≤ w r L p := by
    intro r hr L p hpp
    have h1 := hfm.1.1 p (List.mem_filter.1 hpp).2
    have := Real.pi_pos
    exact mul_nonneg (localRate_nonneg hc.data hp r hr _) (by positivity)
  have hS0 : ∀ r ∈ st, ∀ L, 0 ≤ ((pts L).map (w r L)).sum := by
    intro r hr L
    refine List.sum_nonneg fun a ha => ?_
    obtain ⟨q, hq, rfl⟩ := List.mem_map.1 ha
    exact hw0 r hr L q hq
  have hex : ∀ L : ℝ, ∃ (s : Source ℝ) (files : List (SdefFile ℝ)), 0 < L →
      (makeSource u m c tr (fm.view psi) arg L (some P) method = .ok s ∧ s.toSdef stub = .ok files) ∧
      (files.map (·.reaction)) = st.filter (fun r => decide (0 < neutronYield r)) ∧
      0 < ((pts L).map (w r0 L)).sum ∧ ∃ k, 0 < k ∧ ∀ f ∈ files, f.reaction ∈ st ∧
        sdefCards ((pts L).map Prod.fst) ((pts L).map Prod.snd) L ((pts L).map fun p => k * w f.reaction L p) = .ok f.cards ∧
        f.total = k * ((pts L).map (w f.reaction L)).sum := by
    have one : ∀ L : ℝ, 0 < L → ∃ (s : Source ℝ) (files : List (SdefFile ℝ)),
      (makeSource u m c tr (fm.view psi) arg L (some P) method = .ok s ∧ s.toSdef stub = .ok files) ∧
      (files.map (·.reaction)) = st.filter (fun r => decide (0 < neutronYield r)) ∧
      0 < ((pts L).map (w r0 L)).sum ∧ ∃ k, 0 < k ∧ ∀ f ∈ files, f.reaction ∈ st ∧
        sdefCards ((pts L).map Prod.fst) ((pts L).map Prod.snd) L ((pts L).map fun p => k * w f.reaction L p) = .ok f.cards ∧
        f.total = k * ((pts L).map (w f.reaction L)).sum := by
      intro L hL
      obtain ⟨s, k, files, hs, hk, hfiles, hreact, hpos, hform⟩ :=
        sdef_made hc arg hst hv hp fm hfm psi r0 hr0 hb P hP stub L hL
      exact ⟨s, files, ⟨hs, hfiles⟩, hreact, hpos, k, hk, fun f hf => ⟨(hform f hf).1, (hform f hf).2.1, (hform f hf).2.2.1⟩⟩
    intro L
    by_cases hL : 0 < L
    · obtain ⟨s, files, h⟩ := one L hL
      exact ⟨s, files, fun _ => h⟩
    · obtain ⟨s, files, h⟩ := one 1 one_pos
      exact ⟨s, files, fun h => absurd h hL⟩
  choose s files hs using hex
  have hden : plasmaNeutrons u m method T n psi {p | containsPoint fm.lcfs p = true} st (fun _ _ _ => 1) =
      (st.map fun r => (neutronYield r : ℝ) * plasmaRate u m method T n psi {p | containsPoint fm.lcfs p = true} r).sum := by
    unfold plasmaNeutrons plasmaRate
    simp only [one_mul]
  have hpos : 0 < plasmaNeutrons u m method T n psi {p | containsPoint fm.lcfs p = true} st (fun _ _ _ => 1) := by
    rw [hden]
    have h1 : 0 < (neutronYield r0 : ℝ) * plasmaRate u m method T n psi {p | containsPoint fm.lcfs p = true} r0 :=
      mul_pos (by exact_mod_cast hy) (plasmaRate_pos hc.data hv hp fm hfm psi hpsi r0 hr0 hb)
    refine h1.trans_le (List.single_le_sum (fun x hx => ?_) _ (List.mem_map.2 ⟨r0, hr0, rfl⟩))
    obtain ⟨r, hr, rfl⟩ := List.mem_map.1 hx
    exact mul_nonneg (Nat.cast_nonneg _) (plasmaRate_nonneg hc.data hp fm hfm psi r hr)
  refine ⟨s, files, fun L hL => (hs L hL).1, hpos, ?_⟩
  intro g hg
  have hM : CellAverage fun g _ p => g p := by
    intro g _ L ω p _ _ hω _
    simpa using hω
  have hnum : Tendsto (fun L : ℝ => (st.map fun r => (neutronYield r : ℝ) *
        ((pts L).map fun p => w r L p * g p).sum).sum) (𝓝[>] 0)
      (𝓝 (plasmaNeutrons u m method T n psi {p | containsPoint fm.lcfs p = true} st (fun _ _ p => g p))) := by
    unfold plasmaNeutrons
    refine tendsto_listSum st _ _ _ ?_
    intro r hr
    exact tendsto_const_nhds.mul (channel_limit hM hc.data hv hp fm hfm psi hpsi r hr (fun _ p => g p)
        (by fun_prop) _ _)
  have hdenl : Tendsto (fun L : ℝ => (st.map fun r => (neutronYield r : ℝ) * ((pts L).map (w r L)).sum).sum) (𝓝[>] 0)
      (𝓝 (plasmaNeutrons u m method T n psi {p | containsPoint fm.lcfs p = true} st (fun _ _ _ => 1))) := by
    rw [hden]
    refine tendsto_listSum st _ _ _ ?_
    intro r hr
    exact tendsto_const_nhds.mul (rate_limit hc.data hv hp fm psi hpsi r hr _ _)
  have hbnd : ∃ C : ℝ, 0 ≤ C ∧ ∀ r ∈ st, ∀ L, ∀ p ∈ pts L, 0 ≤ w r L p ∧ w r L p ≤ C * L ^ 2 := by
    have : ∀ l : List Reaction, (∀ r ∈ l, r ∈ st) →
        ∃ C : ℝ, 0 ≤ C ∧ ∀ r ∈ l, ∀ L, ∀ p ∈ pts L, 0 ≤ w r L p ∧ w r L p ≤ C * L ^ 2 := by
      intro l
      induction l with
      | nil => exact fun _ => ⟨0, le_rfl, by simp⟩
      | cons r l ih =>
        intro hl
        obtain ⟨C, c0, c1⟩ := ih fun q hq => hl q (List.mem_cons_of_mem _ hq)
        obtain ⟨C', c0', c1'⟩ := weight_bound hc.data hp hv fm hfm psi r (hl r List.mem_cons_self) fm.oPoint.x fm.oPoint.z
        refine ⟨C + C', by linarith, fun q hq L p hpp => ?_⟩
        have hL2 := sq_nonneg L
        rcases List.mem_cons.1 hq with rfl | hq
        · obtain ⟨a1, a2⟩ := c1' L p hpp
          exact ⟨a1, a2.trans (by nlinarith)⟩
        · obtain ⟨a1, a2⟩ := c1 q hq L p hpp
          exact ⟨a1, a2.trans (by nlinarith)⟩
    exact this st fun r hr => hr
  obtain ⟨C, hC0, hC⟩ := hbnd
  set Dl := plasmaNeutrons u m method T n psi {p | containsPoint fm.lcfs p = true} st (fun _ _ _ => 1) with hDl
  set Y := ((st.filter fun r => decide (0 < neutronYield r)).map fun r => (neutronYield r : ℝ)).sum with hY
  have hY0 : 0 ≤ Y := List.sum_nonneg fun a ha => by
    obtain ⟨r, -, rfl⟩ := List.mem_map.1 ha
    exact Nat.cast_nonneg _
  have hnum' : Tendsto (fun L => ((files L).map fun f =>
      (neutronYield f.reaction : ℝ) * (((pts L).map (w f.reaction L)).sum * mcnpMean g f.cards)).sum) (𝓝[>] 0)
      (𝓝 (plasmaNeutrons u m method T n psi {p | containsPoint fm.lcfs p = true} st (fun _ _ p => g p))) := by
    refine tendsto_of_dist_small hnum fun ε hε => ?_
    have hle : ∀ᶠ L in 𝓝[>] (0 : ℝ), (st.map fun r => (neutronYield r : ℝ) * ((pts L).map (w r L)).sum).sum < Dl + 1 :=
      hdenl.eventually (gt_mem_nhds (by linarith))
    filter_upwards [cards_uniform fm.lcfs fm.oPoint.x fm.oPoint.z g hg C hC0 (ε / (Dl + 1 + Y)) (by positivity), hle,
      self_mem_nhdsWithin] with L hL hL1 hL0
    obtain ⟨-, hreact, -, k, hk, hform⟩ := hs L hL0
    have hnumf : (st.map fun r => (neutronYield r : ℝ) * ((pts L).map fun p => w r L p * g p).sum).sum =
        ((files L).map fun f => (neutronYield f.reaction : ℝ) * ((pts L).map fun p => w f.reaction L p * g p).sum).sum := by
      rw [← filter_yield, ← hreact, List.map_map]
      rfl
    have hdenf : (st.map fun r => (neutronYield r : ℝ) * ((pts L).map (w r L)).sum).sum =
        ((files L).map fun f => (neutronYield f.reaction : ℝ) * ((pts L).map (w f.reaction L)).sum).sum := by
      rw [← filter_yield, ← hreact, List.map_map]
      rfl
    have hYf : Y = ((files L).map fun f => (neutronYield f.reaction : ℝ)).sum := by
      rw [hY, ← hreact, List.map_map]
      rfl
    rw [hnumf]
    have hbound : ∀ l : List (SdefFile ℝ), (∀ f ∈ l, f ∈ files L) →
        |(l.map fun f => (neutronYield f.reaction : ℝ) * (((pts L).map (w f.reaction L)).sum * mcnpMean g f.cards)).sum -
          (l.map fun f => (neutronYield f.reaction : ℝ) * ((pts L).map fun p => w f.reaction L p * g p).sum).sum| ≤
        ε / (Dl + 1 + Y) * ((l.map fun f => (neutronYield f.reaction : ℝ) * ((pts L).map (w f.reaction L)).sum).sum +
          (l.map fun f => (neutronYield f.reaction : ℝ)).sum) := by
      intro l
      induction l with
      | nil => simp
      | cons f l ih =>
        intro hmem
        have ih := ih fun f hf => hmem f (List.mem_cons_of_mem _ hf)
        obtain ⟨hm, h1, h2⟩ := hform f (hmem f List.mem_cons_self)
        simp only [List.map_cons, List.sum_cons]
        have hone : |((pts L).map (w f.reaction L)).sum * mcnpMean g f.cards -
            ((pts L).map fun p => w f.reaction L p * g p).sum| ≤
            ε / (Dl + 1 + Y) * (((pts L).map (w f.reaction L)).sum + 1) := by
          rcases eq_or_lt_of_le (hS0 _ hm L) with h0 | h0
          · have hz : ∀ p ∈ pts L, w f.reaction L p = 0 := by
              intro p hpp
              refine le_antisymm ?_ (hw0 _ hm L p hpp)
              rw [h0]
              exact List.single_le_sum (by
                intro a ha
                obtain ⟨q, hq, rfl⟩ := List.mem_map.1 ha
                exact hw0 _ hm L q hq) _ (List.mem_map.2 ⟨p, hpp, rfl⟩)
            have e : ((pts L).map fun p => w f.reaction L p * g p) = (pts L).map fun _ => (0 : ℝ) :=
              List.map_congr_left fun p hpp => by rw [hz p hpp, zero_mul]
            have hpe : 0 < ε / (Dl + 1 + Y) := by positivity
            rw [← h0, e]
            simpa using hpe.le
          · exact hL (w f.reaction L) k f.cards hk (hC _ hm L) h0 h1
        have hone' := mul_le_mul_of_nonneg_left hone (Nat.cast_nonneg (α := ℝ) (neutronYield f.reaction))
        rw [← abs_of_nonneg (Nat.cast_nonneg (α := ℝ) (neutronYield f.reaction)), ← abs_mul,
          abs_of_nonneg (Nat.cast_nonneg (α := ℝ) (neutronYield f.reaction))] at hone'
        refine le_trans (le_of_eq ?_) ((abs_add_le _ _).trans ((add_le_add hone' ih).trans (le_of_eq ?_)))
        · congr 1; ring
        · ring
    refine (hbound (files L) fun f hf => hf).trans ?_
    rw [← hdenf, ← hYf]
    calc ε / (Dl + 1 + Y) * ((st.map fun r => (neutronYield r : ℝ) * ((pts L).map (w r L)).sum).sum + Y)
        ≤ ε / (Dl + 1 + Y) * (Dl + 1 + Y) := mul_le_mul_of_nonneg_left (by linarith) (by positivity)
      _ = ε := by field_simp
  refine (hnum'.div hdenl hpos.ne').congr' ?_
  filter_upwards [self_mem_nhdsWithin] with L hL0
  obtain ⟨-, hreact, hr0pos, k, hk, hform⟩ := hs L hL0
  have htot : ((files L).map sdefNeutrons).sum =
      k * (st.map fun r => (neutronYield r : ℝ) * ((pts L).map (w r L)).sum).sum := by
    rw [← filter_yield, ← hreact, List.map_map, ← List.sum_map_mul_left]
    congr 1
    refine List.map_congr_left ?_
    intro f hf
    obtain ⟨-, -, h2⟩ := hform f hf
    simp only [sdefNeutrons, h2, Function.comp_apply]
    ring
  simp only [Pi.div_apply]
  unfold mcnpRunMean sdefWeight
  rw [htot]
  generalize (st.map fun r => (neutronYield r : ℝ) * ((pts L).map (w r L)).sum).sum = D
  rw [div_eq_mul_inv, ← List.sum_map_mul_right]
  congr 1
  refine List.map_congr_left fun f hf => ?_
  obtain ⟨-, -, h2⟩ := hform f hf
  simp only [sdefNeutrons, h2]
  rcases eq_or_ne D 0 with hD | hD
  · rw [hD]; simp
  · field_simp

end limit


/-! ## From files -/

section
variable {u : SI} {m : Masses ℝ} {c : ℝ} (hc : GoodConstants u m c) (spline : List ℝ → ℝ × ℝ → ℝ)
  (hcont : ∀ data, Continuous (spline data))
  (method : ReactivityMethod) (arg : SourceArg) {st : List Reaction} (hst : parseSourceType arg = .ok st)
  (frames : List (JspFrame ℝ)) (n : ℤ) (hn : -1 ≤ n ∧ n < frames.length) {f : JspFrame ℝ}
  (hf : jspSelected frames n = some f) (hg : GoodFrame f) (hfu : FuelledFrame f)
  (eq : EqdskFile) (heq : GoodEqdsk eq) (ha : AxisClear eq) 
  (conv : FluxConvention) {P : ℝ} (hP : 0 < P) (stub : String)

include hc hcont hst hn hf hg hfu heq ha hP

/-- **C106**, one file: whatever the shape of the boundary in the EQDSK file, for every cell size the source made from the files is
built and written to SDEF files, one for each channel that makes neutrons. As the cells shrink, the mean of any continuous
function of the starting point over the neutrons that MCNP samples from the file of a channel tends to its mean over the
reactions of the channel inside the boundary; and the ion temperature in the file is finite and tends to their mean ion
temperature. -/
theorem C106_file (r : Neutronic) (hr : .n r ∈ st) :
    ∃ tr T dens fm, ∃ (s : ℝ → Source ℝ) (files : ℝ → List (SdefFile ℝ)) (file : ℝ → SdefFile ℝ) (t : ℝ → ℝ),
      Transport.fromJetto frames n = .ok tr ∧ Interpolates f T dens ∧ (fromEqdsk spline eq conv).2 = .ok fm ∧
      (∀ L > 0, makeSource u m c tr (fm.view spline) arg L (some P) method = .ok (s L) ∧
        (s L).toSdef stub = .ok (files L) ∧ file L ∈ files L ∧ (file L).reaction = .n r ∧
        (file L).name = stub ++ "." ++ sdefSuffix r ∧ (file L).ionTemp = .fin (t L)) ∧
      0 < plasmaRate u m method T dens (fm.value spline) {p | Odd (winding p eq.bdry)} (.n r) ∧
      (∀ g : ℝ × ℝ → ℝ, Continuous g → Tendsto (fun L => mcnpMean g (file L).cards) (𝓝[>] 0)
        (𝓝 (reactionMean u m method T dens (fm.value spline) {p | Odd (winding p eq.bdry)} (.n r) g))) ∧
      Tendsto t (𝓝[>] 0) (𝓝 (reactionMean u m method T dens (fm.value spline) {p | Odd (winding p eq.bdry)} (.n r)
        fun p => T (fm.value spline p.1 p.2))) := by
  obtain ⟨tr, T, dens, htr, hpr, hcp, hint⟩ := C82_transport method st frames n hn f hf hg
  obtain ⟨fm, hfm, pm, hroom, -, -, -, hview, hset⟩ := eqdsk_roomy spline eq heq ha conv
  obtain ⟨s, files, file, t, hs, hpos, h1, h2⟩ := sdef_file_of hc arg hst hpr hcp pm hroom
    (fm.value spline)
    (((hcont fm.psiNorm).continuousOn) : ContinuousOn (fun p : ℝ × ℝ => fm.value spline p.1 p.2) _)
    r hr (frame_burns hg hfu hpr hint (by cases r <;> simp [neutronYield]) _) P hP stub
  simp only [hset] at hpos h1 h2
  exact ⟨tr, T, dens, fm, s, files, file, t, htr, hint, hfm, fun L hL => by rw [hview]; exact hs L hL, hpos, h1, h2⟩

/-- **C106**, all files: the files together, each taken with the share of the neutrons that its header gives, tend to the
neutrons of the plasma in the EQDSK and JETTO files; the limit is the one of the exported OpenMC source
(`C105_positions`). -/
theorem C106_run {r0 : Reaction} (hr0 : r0 ∈ st) (hy : 0 < neutronYield r0) :
    ∃ tr T dens fm, ∃ (s : ℝ → Source ℝ) (files : ℝ → List (SdefFile ℝ)),
      Transport.fromJetto frames n = .ok tr ∧ Interpolates f T dens ∧ (fromEqdsk spline eq conv).2 = .ok fm ∧
      (∀ L > 0, makeSource u m c tr (fm.view spline) arg L (some P) method = .ok (s L) ∧
        (s L).toSdef stub = .ok (files L)) ∧
      0 < plasmaNeutrons u m method T dens (fm.value spline) {p | Odd (winding p eq.bdry)} st (fun _ _ _ => 1) ∧
      ∀ g : ℝ × ℝ → ℝ, Continuous g → Tendsto (fun L => mcnpRunMean g (files L)) (𝓝[>] 0)
        (𝓝 (plasmaNeutrons u m method T dens (fm.value spline) {p | Odd (winding p eq.bdry)} st (fun _ _ p => g p) /
          plasmaNeutrons u m method T dens (fm.value spline) {p | Odd (winding p eq.bdry)} st (fun _ _ _ => 1))) := by
  obtain ⟨tr, T, dens, htr, hpr, hcp, hint⟩ := C82_transport method st frames n hn f hf hg
  obtain ⟨fm, hfm, pm, hroom, -, -, -, hview, hset⟩ := eqdsk_roomy spline eq heq ha conv
  obtain ⟨s, files, hs, hpos, h1⟩ := sdef_run_of hc arg hst hpr hcp pm hroom
    (fm.value spline)
    (((hcont fm.psiNorm).continuousOn) : ContinuousOn (fun p : ℝ × ℝ => fm.value spline p.1 p.2) _)
    r0 hr0 hy (frame_burns hg hfu hpr hint hy _) P hP stub
  simp only [hset] at hpos h1
  exact ⟨tr, T, dens, fm, s, files, htr, hint, hfm, fun L hL => by rw [hview]; exact hs L hL, hpos, h1⟩

end

/-! ### The hypotheses are met -/

/-- The D-T file of the plasma of `C105` at 500 MW: as the cells shrink, the mean radius at which MCNP starts neutrons and the
ion temperature in the file have limits. -/
example : ∃ tr fm, ∃ (file : ℝ → SdefFile ℝ) (t : ℝ → ℝ) (x T0 : ℝ),
    Transport.fromJetto [Ex.frame] (-1) = .ok tr ∧ (fromEqdsk twoPoint Ex.eqdsk .sqrt).2 = .ok fm ∧
    (∀ L > 0, ∃ s files, makeSource Ex.si Ex.massesR 1.4924180856e-10 tr (fm.view twoPoint) .none L (some 5e8) .AUTO = .ok s ∧
      s.toSdef "out" = .ok files ∧ file L ∈ files ∧ (file L).name = "out.DT" ∧ (file L).ionTemp = .fin (t L)) ∧
    Tendsto (fun L => mcnpMean Prod.fst (file L).cards) (𝓝[>] 0) (𝓝 x) ∧ Tendsto t (𝓝[>] 0) (𝓝 T0) := by
  obtain ⟨tr, T, dens, fm, s, files, file, t, h1, -, h3, h4, -, h6, h7⟩ :=
    C106_file Ex.good_constants twoPoint (fun data => by unfold twoPoint; fun_prop) .AUTO .none C01_default [Ex.frame] (-1)
      (by simp) (f := Ex.frame) rfl Ex.good_frame Ex.fuelled Ex.eqdsk Ex.good_eqdsk Ex.axis_clear .sqrt
      (P := 5e8) (by norm_num) "out" .D_T (by simp [Reaction.DT])
  refine ⟨tr, fm, file, t, _, _, h1, h3, fun L hL => ?_, h6 Prod.fst continuous_fst, h7⟩
  obtain ⟨a1, a2, a3, -, a5, a6⟩ := h4 L hL
  exact ⟨s L, files L, a1, a2, a3, by rw [a5]; rfl, a6⟩

end
end TNS
