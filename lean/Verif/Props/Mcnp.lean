import Verif.Lemmas.Sdef
import Verif.Props.Space
import Verif.Props.Source
import Verif.Props.Physical
import Verif.Lemmas.MapM
/-
C23, C24, C25, C28, C29, C30: the SDEF cards.
-/

set_option autoImplicit false
set_option linter.unusedSectionVars false

namespace TNS
open Spec
variable {K : Type} [Field K] [LinearOrder K] [IsStrictOrderedRing K]

/-- **C23.**  For cells sorted by radius (which sampled cells are, C16) the cards are always
written, and: SI3 and SP3 both have one entry more than there are distinct radii, the first
probability is 0; DS4 lists 5, 6, ..., one number per radial bin; the numbers of the vertical
distributions are exactly those listed on DS4, in order, without repetition; each vertical
distribution has as many boundaries as probabilities, one more than there are cells with that
radius, and first probability 0. -/
theorem C23_structure (r z data : List K) (L : K) (hr : r.Pairwise (· ≤ ·)) (hne : r ≠ [])
    (hz : z.length = r.length) (hd : data.length = r.length) :
    ∃ c, sdefCards r z L data = .ok c ∧
      c.si3.length = r.dedup.length + 1 ∧ c.sp3.length = r.dedup.length + 1 ∧
      c.sp3.head? = some 0 ∧
      c.ds4 = List.range' 5 r.dedup.length ∧
      c.vertical.map (·.1) = c.ds4 ∧ c.ds4.Nodup ∧
      (∀ v ∈ c.vertical, v.2.1.length = v.2.2.length ∧ v.2.2.head? = some 0 ∧
        ∃ ρ ∈ r, v.2.1.length = r.count ρ + 1) := by
  have hnu : (npUnique (r.map (· * 100))).length = r.dedup.length := by
    have h1 : (npUnique (r.map (· * 100))).Perm (r.map (· * 100)).dedup := by
      rw [List.perm_ext_iff_of_nodup ((sorted_npUnique _).imp (fun h => h.ne)) (List.nodup_dedup _)]
      intro a
      rw [mem_npUnique, List.mem_dedup]
    rw [h1.length_eq, List.dedup_map_of_injective (fun a b h => by simpa using h), List.length_map]
  refine ⟨_, sdefCards_eq r z L data hr hne hz hd, ?_, ?_, ?_, ?_, ?_, ?_, ?_⟩
  · simp [closedCards, hnu]
  · simp [closedCards, hnu]
  · simp [closedCards]
  · simp only [closedCards, hnu, List.range'_eq_map_range]
  · apply List.ext_getElem
    · simp [closedCards]
    · intro n h1 h2; simp [closedCards]
  · simp only [closedCards]
    exact (List.nodup_map_iff (by intro a b; simp)).2 List.nodup_range
  · intro v hv
    simp only [closedCards] at hv
    obtain ⟨n, hn, rfl⟩ := List.mem_iff_getElem.1 hv
    have hn' : n < (npUnique (r.map (· * 100))).length := by simpa using hn
    simp only [List.getElem_zipWith]
    refine ⟨?_, by simp, ?_⟩
    · have := atRadius_length (r.map (· * 100)) (z.map (· * 100)) data
        (npUnique (r.map (· * 100)))[n] (by simp [hz]) (by simp [hd])
      simp [this]
    · have hm := (mem_npUnique _ _).1 (List.getElem_mem hn')
      obtain ⟨ρ, hρ, e⟩ := List.mem_map.1 hm
      refine ⟨ρ, hρ, ?_⟩
      rw [← e]
      have aux : ∀ (r : List K) (Z : List K), Z.length = r.length →
          (atRadius (r.map (· * 100)) Z (ρ * 100)).length = r.count ρ := by
        intro r
        induction r with
        | nil => intro Z _; simp [atRadius]
        | cons a r ih =>
          intro Z hZ
          rcases Z with _ | ⟨b, Z⟩
          · simp at hZ
          have := ih Z (by simpa using hZ)
          unfold atRadius at this ⊢
          by_cases h : a = ρ
          · simpa [h] using this
          · simpa [h] using this
      simp [aux r (z.map (· * 100)) (by simp [hz])]

/-- **C23**, the empty source: no cell at all makes the writer fail on the last boundary. -/
theorem C23_empty (L : K) : sdefCards ([] : List K) [] L [] = .error .indexError := rfl

theorem cell_prob (l : List K) (hl : ∀ a ∈ l, 0 ≤ a) (t s : K) (hs : s ∈ l) :
    l.sum / t * (s / l.sum) = s / t := by
  by_cases h : l.sum = 0
  · have h0 : ∀ a ∈ l, a = 0 := fun a ha =>
      le_antisymm (h ▸ List.single_le_sum hl a ha) (hl a ha)
    rw [h0 s hs]; simp
  · field_simp

/-- **C24.**  Reading the cards back as the two-stage histogram MCNP samples, there is one bin per
cell, in the order of the cells; its lower edges are the cell's (in cm) and its probability is the
cell's share of the total strength. -/
theorem C24_probabilities (r z data : List K) (L : K) (hr : r.Pairwise (· ≤ ·)) (hne : r ≠ [])
    (hz : z.length = r.length) (hd : data.length = r.length) (hpos : ∀ s ∈ data, 0 ≤ s) :
    ∃ c, sdefCards r z L data = .ok c ∧
      (sdefBins c).map (fun b => (b.rLo, b.zLo, b.prob)) =
        (List.zip r (List.zip z data)).map (fun q =>
          (100 * (q.1 - L / 2), 100 * (q.2.1 - L / 2), q.2.2 / data.sum)) := by
  refine ⟨_, sdefCards_eq r z L data hr hne hz hd, ?_⟩
  have hR := scaled_sorted hr
  have hRne : r.map (· * 100) ≠ [] := by simpa using hne
  rw [sdefBins_closed _ _ _ _ hR hRne (by simp [hz]) (by simp [hd])]
  set R := r.map (· * 100) with hRdef
  set Z := z.map (· * 100) with hZdef
  set h := L * 100 / 2 with hh
  have hzR : Z.length = R.length := by simp [hRdef, hZdef, hz]
  have hdR : data.length = R.length := by simp [hRdef, hd]
  rw [List.map_flatMap]
  have h1 : (List.zip (npUnique R) (uppers h (npUnique R))).flatMap (fun e =>
      (List.zipWith (fun (f : K × K) s => (⟨e.1 - h, e.2, f.1 - h, f.2,
            (atRadius R data e.1).sum / data.sum * (s / (atRadius R data e.1).sum)⟩ : SBin K))
          (List.zip (atRadius R Z e.1) (uppers h (atRadius R Z e.1))) (atRadius R data e.1)).map
          (fun b => (b.rLo, b.zLo, b.prob))) =
      (List.zip (npUnique R) (uppers h (npUnique R))).flatMap (fun e =>
        ((atRadius R (List.zip Z data) e.1).map (fun x => (e.1, x))).map (fun q =>
          (q.1 - h, q.2.1 - h, q.2.2 / data.sum))) := by
    apply List.flatMap_congr
    rintro ⟨ρ, ub⟩ he
    have hρ : ρ ∈ R := (mem_npUnique _ _).1 (List.of_mem_zip he).1
    simp only
    have hne := atRadius_ne_nil R Z hzR ρ hρ
    have hl1 := length_uppers h _ hne
    have hl2 := atRadius_length R Z data ρ hzR hdR
    rw [← atRadius_zip R Z data ρ hzR hdR]
    apply List.ext_getElem
    · simp [hl1, hl2]
    · intro n a1 a2
      simp only [List.getElem_map, List.getElem_zipWith, List.getElem_zip]
      rw [cell_prob _ (fun a ha => hpos a ?_) _ _ (List.getElem_mem _)]
      exact (List.of_mem_zip ((mem_atRadius R data ρ a).1 ha)).2
  rw [h1]
  have h2 := flatMap_atRadius R (List.zip Z data) hR (by simp [hzR, hdR])
  have h3 : (List.zip (npUnique R) (uppers h (npUnique R))).map Prod.fst = npUnique R :=
    List.map_fst_zip (by rw [length_uppers _ _ (npUnique_ne_nil _ hRne)])
  have h4 : (List.zip (npUnique R) (uppers h (npUnique R))).flatMap (fun e =>
        ((atRadius R (List.zip Z data) e.1).map (fun x => (e.1, x))).map (fun q =>
          (q.1 - h, q.2.1 - h, q.2.2 / data.sum))) =
      ((List.zip (npUnique R) (uppers h (npUnique R))).map Prod.fst).flatMap (fun ρ =>
        ((atRadius R (List.zip Z data) ρ).map (fun x => (ρ, x))).map (fun q =>
          (q.1 - h, q.2.1 - h, q.2.2 / data.sum))) := by
    rw [List.flatMap_map]
  rw [h4, h3, ← List.map_flatMap, h2, hRdef, hZdef, List.zip_map_left, List.zip_map_left,
    List.zip_map_right, List.map_map, List.map_map]
  apply List.map_congr_left
  rintro ⟨a, b, s⟩ _
  simp only [Function.comp, Prod.map, hh, id]
  ext <;> ring

/-! ### C25 -/

theorem uppers_eq_iff (h : K) (l : List K) (hl : l ≠ []) :
    uppers h l = l.map (· + h) ↔ l.IsChain (fun a b => b = a + 2 * h) := by
  induction l with
  | nil => exact absurd rfl hl
  | cons a l ih =>
    cases l with
    | nil => simp [uppers]
    | cons b l =>
      have : uppers h (a :: b :: l) = (b - h) :: uppers h (b :: l) := by simp [uppers]
      rw [this, List.map_cons, List.isChain_cons_cons, List.cons.injEq, ih (by simp)]
      constructor
      · rintro ⟨h1, h2⟩; exact ⟨by linarith, h2⟩
      · rintro ⟨h1, h2⟩; exact ⟨by linarith, h2⟩

/-- A strictly increasing list with gaps of at least `w` has all gaps equal to `w` iff every entry
but the largest has a successor at distance `w`. -/
theorem chain_iff (w : K) (hw : 0 < w) (l : List K) (hs : l.Pairwise (· < ·))
    (hgap : ∀ a ∈ l, ∀ b ∈ l, a < b → a + w ≤ b) :
    l.IsChain (fun a b => b = a + w) ↔ ∀ a ∈ l, (∀ b ∈ l, b ≤ a) ∨ a + w ∈ l := by
  induction l with
  | nil => simp
  | cons a l ih =>
    rw [List.pairwise_cons] at hs
    have ih := ih hs.2 (fun x hx y hy => hgap x (List.mem_cons_of_mem _ hx) y
      (List.mem_cons_of_mem _ hy))
    cases l with
    | nil => simp
    | cons b l =>
      rw [List.isChain_cons_cons, ih]
      constructor
      · rintro ⟨h1, h2⟩ c hc
        rcases List.mem_cons.1 hc with rfl | hc'
        · right; rw [← h1]; simp
        · rcases h2 c hc' with h | h
          · left
            intro d hd
            rcases List.mem_cons.1 hd with hd' | hd'
            · rw [hd']; exact (hs.1 c hc').le
            · exact h d hd'
          · right; exact List.mem_cons_of_mem _ h
      · intro h
        constructor
        · rcases h a List.mem_cons_self with h | h
          · exact absurd (h b (by simp)) (not_le.2 (hs.1 b (by simp)))
          · have hab := hs.1 b (by simp)
            have h1 := hgap a (by simp) b (by simp) hab
            refine le_antisymm ?_ h1
            rcases List.mem_cons.1 h with h | h
            · linarith
            · rcases List.mem_cons.1 h with h | h
              · exact h.ge
              · exact ((List.pairwise_cons.1 hs.2).1 _ h).le
        · intro c hc
          rcases h c (List.mem_cons_of_mem _ hc) with h | h
          · left; exact fun d hd => h d (List.mem_cons_of_mem _ hd)
          · right
            rcases List.mem_cons.1 h with h | h
            · have := hs.1 c hc; linarith
            · exact h

theorem flatMap_eq_iff {α β : Type} (l : List α) (f g : α → List β)
    (hlen : ∀ x ∈ l, (f x).length = (g x).length) :
    l.flatMap f = l.flatMap g ↔ ∀ x ∈ l, f x = g x := by
  induction l with
  | nil => simp
  | cons a l ih =>
    rw [List.flatMap_cons, List.flatMap_cons, List.forall_mem_cons]
    constructor
    · intro h
      obtain ⟨h1, h2⟩ := List.append_inj h (hlen a (by simp))
      exact ⟨h1, (ih (fun x hx => hlen x (List.mem_cons_of_mem _ hx))).1 h2⟩
    · rintro ⟨h1, h2⟩
      rw [h1, (ih (fun x hx => hlen x (List.mem_cons_of_mem _ hx))).2 h2]

theorem closed_bins_iff (R Z : List K) (h : K) (data : List K) (hR : R.Pairwise (· ≤ ·))
    (hne : R ≠ []) (hz : Z.length = R.length) (hd : data.length = R.length)
    (hpos : ∀ s ∈ data, 0 ≤ s) :
    sdefBins (closedCards R Z h data) = (List.zip R (List.zip Z data)).map (fun q =>
      ⟨q.1 - h, q.1 + h, q.2.1 - h, q.2.1 + h, q.2.2 / data.sum⟩) ↔
    uppers h (npUnique R) = (npUnique R).map (· + h) ∧
      ∀ ρ ∈ R, uppers h (atRadius R Z ρ) = (atRadius R Z ρ).map (· + h) := by
  have hu := npUnique_ne_nil _ hne
  rw [sdefBins_closed R Z h data hR hne hz hd, ← flatMap_atRadius R (List.zip Z data) hR (by simp [hz, hd])]
  have h3 : (List.zip (npUnique R) (uppers h (npUnique R))).map Prod.fst = npUnique R :=
    List.map_fst_zip (by rw [length_uppers _ _ hu])
  conv_lhs => rhs; rw [← h3]
  rw [List.map_flatMap, List.flatMap_map]
  simp only [List.map_map, Function.comp_def]
  rw [flatMap_eq_iff]
  · have key : ∀ e ∈ List.zip (npUnique R) (uppers h (npUnique R)),
        (List.zipWith (fun (f : K × K) s => (⟨e.1 - h, e.2, f.1 - h, f.2,
            (atRadius R data e.1).sum / data.sum * (s / (atRadius R data e.1).sum)⟩ : SBin K))
          (List.zip (atRadius R Z e.1) (uppers h (atRadius R Z e.1))) (atRadius R data e.1) =
        (atRadius R (List.zip Z data) e.1).map (fun q =>
          ⟨e.1 - h, e.1 + h, q.1 - h, q.1 + h, q.2 / data.sum⟩)) ↔
        e.2 = e.1 + h ∧ uppers h (atRadius R Z e.1) = (atRadius R Z e.1).map (· + h) := by
      rintro ⟨ρ, ub⟩ he
      have hρ : ρ ∈ R := (mem_npUnique _ _).1 (List.of_mem_zip he).1
      simp only
      have hne := atRadius_ne_nil R Z hz ρ hρ
      have hl1 := length_uppers h _ hne
      have hl2 := atRadius_length R Z data ρ hz hd
      rw [← atRadius_zip R Z data ρ hz hd]
      constructor
      · intro he
        have hg : ∀ (n : ℕ) (hn : n < (atRadius R Z ρ).length), ub = ρ + h ∧
            (uppers h (atRadius R Z ρ))[n]'(by omega) = (atRadius R Z ρ)[n] + h := by
          intro n hn
          have := List.getElem_of_eq he (i := n) (by simp; omega)
          simp only [List.getElem_map, List.getElem_zipWith, List.getElem_zip, SBin.mk.injEq] at this
          exact ⟨this.2.1, this.2.2.2.1⟩
        refine ⟨(hg 0 (List.length_pos_of_ne_nil hne)).1, ?_⟩
        apply List.ext_getElem
        · simp [hl1]
        · intro n a1 a2
          rw [(hg n (by omega)).2]; simp
      · rintro ⟨rfl, h2⟩
        rw [h2]
        apply List.ext_getElem
        · simp
        · intro n a1 a2
          simp only [List.getElem_map, List.getElem_zipWith, List.getElem_zip]
          rw [cell_prob _ (fun a ha => hpos a ?_) _ _ (List.getElem_mem _)]
          exact (List.of_mem_zip ((mem_atRadius R data ρ a).1 ha)).2
    rw [forall₂_congr key]
    have hl := length_uppers h _ hu
    constructor
    · intro H
      refine ⟨?_, ?_⟩
      · apply List.ext_getElem
        · simp [hl]
        · intro n a1 a2
          have := (H ((npUnique R)[n]'(by omega), (uppers h (npUnique R))[n])
            (by rw [List.mem_iff_getElem]; exact ⟨n, by simp; omega, by simp⟩)).1
          simpa using this
      · intro ρ hρ
        obtain ⟨n, hn, rfl⟩ := List.mem_iff_getElem.1 ((mem_npUnique ρ R).2 hρ)
        exact (H ((npUnique R)[n], (uppers h (npUnique R))[n]'(by omega))
            (by rw [List.mem_iff_getElem]; exact ⟨n, by simp; omega, by simp⟩)).2
    · rintro ⟨h1, h2⟩ e he
      refine ⟨?_, h2 _ ((mem_npUnique _ _).1 (List.of_mem_zip he).1)⟩
      rw [h1] at he
      obtain ⟨n, hn, rfl⟩ := List.mem_iff_getElem.1 he
      simp
  · rintro ⟨ρ, ub⟩ he
    have hρ : ρ ∈ R := (mem_npUnique _ _).1 (List.of_mem_zip he).1
    have hne := atRadius_ne_nil R Z hz ρ hρ
    have hl1 := length_uppers h _ hne
    have hl2 := atRadius_length R Z data ρ hz hd
    have hl3 := atRadius_length R Z (List.zip Z data) ρ hz (by simp [hz, hd])
    simp [hl1, hl2, ← hl3]

/-- Order of the sampled cells: by radius, then by height. -/
def Lex (p q : K × K) : Prop := p.1 < q.1 ∨ (p.1 = q.1 ∧ p.2 < q.2)

theorem lex_fst {r z : List K} (hz : z.length = r.length) (h : (List.zip r z).Pairwise Lex) :
    r.Pairwise (· ≤ ·) := by
  have := h.imp (S := fun p q => p.1 ≤ q.1) (by rintro p q (h | ⟨h, _⟩); exacts [h.le, h.le])
  rw [← List.map_fst_zip (l₁ := r) (l₂ := z) (by omega), List.pairwise_map]
  exact this

theorem lex_column {r z : List K} (h : (List.zip r z).Pairwise Lex) (ρ : K) :
    (atRadius r z ρ).Pairwise (· < ·) := by
  unfold atRadius
  rw [List.pairwise_map, List.pairwise_filter]
  refine h.imp ?_
  rintro p q (h | ⟨_, h⟩) hp hq
  · simp only [decide_eq_true_eq] at hp hq
    rw [hp, hq] at h; exact absurd h (lt_irrefl _)
  · exact h

/-- **C25**, exact condition.  For cells in sampling order, at least one side length apart in each
direction, with non-negative strengths: the bins read from the cards are exactly the cells (both
edges in both directions, and probability) **iff** there is no gap: every radius but the largest is
followed by the radius one side further, and every cell but the topmost of its column has the cell
one side higher above it. -/
theorem C25_bins_iff (r z data : List K) (L : K) (hL : 0 < L) (hne : r ≠ [])
    (hz : z.length = r.length) (hd : data.length = r.length) (hpos : ∀ s ∈ data, 0 ≤ s)
    (hlex : (List.zip r z).Pairwise (fun p q => p.1 < q.1 ∨ (p.1 = q.1 ∧ p.2 < q.2)))
    (hgr : ∀ a ∈ r, ∀ b ∈ r, a < b → a + L ≤ b) (hgz : ∀ a ∈ z, ∀ b ∈ z, a < b → a + L ≤ b) :
    ∃ c, sdefCards r z L data = .ok c ∧
      (sdefBins c = cellBins r z L data ↔
        (∀ a ∈ r, (∀ b ∈ r, b ≤ a) ∨ a + L ∈ r) ∧
        (∀ p ∈ List.zip r z, (∀ q ∈ List.zip r z, q.1 = p.1 → q.2 ≤ p.2) ∨
          (p.1, p.2 + L) ∈ List.zip r z)) := by
  have hr := lex_fst hz hlex
  refine ⟨_, sdefCards_eq r z L data hr hne hz hd, ?_⟩
  set R := r.map (· * 100) with hRdef
  set Z := z.map (· * 100) with hZdef
  set h := L * 100 / 2 with hh
  have hzip : List.zip R Z = (List.zip r z).map (fun p => (p.1 * 100, p.2 * 100)) := by
    rw [hRdef, hZdef, List.zip_map]; rfl
  have hcell : cellBins r z L data = (List.zip R (List.zip Z data)).map (fun q =>
      ⟨q.1 - h, q.1 + h, q.2.1 - h, q.2.1 + h, q.2.2 / data.sum⟩) := by
    unfold cellBins
    rw [hRdef, hZdef, List.zip_map_left, List.zip_map_left, List.zip_map_right, List.map_map,
      List.map_map]
    apply List.map_congr_left
    rintro ⟨a, b, s⟩ _
    simp only [Function.comp, Prod.map, hh, id, SBin.mk.injEq]
    refine ⟨?_, ?_, ?_, ?_, trivial⟩ <;> ring
  have hRne : R ≠ [] := by simpa [hRdef] using hne
  have hlexR : (List.zip R Z).Pairwise Lex := by
    rw [hzip, List.pairwise_map]
    refine hlex.imp ?_
    rintro p q (h | ⟨h1, h2⟩)
    · left; simp only; linarith
    · right; simp only; exact ⟨by rw [h1], by linarith⟩
  rw [hcell, closed_bins_iff R Z h data (scaled_sorted hr) hRne (by simp [hRdef, hZdef, hz])
    (by simp [hRdef, hd]) hpos]
  have hw : (2 : K) * h = L * 100 := by rw [hh]; ring
  have hwpos : (0 : K) < 2 * h := by rw [hw]; linarith
  have hiffR : uppers h (npUnique R) = (npUnique R).map (· + h) ↔
      ∀ a ∈ r, (∀ b ∈ r, b ≤ a) ∨ a + L ∈ r := by
    rw [uppers_eq_iff h _ (npUnique_ne_nil _ hRne), chain_iff (2 * h) hwpos _ (sorted_npUnique _)]
    · simp only [mem_npUnique, hRdef, List.forall_mem_map, hw]
      apply forall₂_congr
      intro a _
      apply or_congr
      · apply forall₂_congr; intro b _; constructor <;> intro <;> linarith
      · rw [show a * 100 + L * 100 = (a + L) * 100 by ring]
        constructor
        · intro hm
          obtain ⟨b, hb, e⟩ := List.mem_map.1 hm
          have : b = a + L := by linarith
          exact this ▸ hb
        · intro hm; exact List.mem_map.2 ⟨_, hm, rfl⟩
    · simp only [mem_npUnique, hRdef, List.forall_mem_map, hw]
      intro a ha b hb hab
      have := hgr a ha b hb (by linarith)
      linarith
  rw [hiffR]
  apply and_congr_right
  intro _
  have hcol : ∀ ρ ∈ R, (uppers h (atRadius R Z ρ) = (atRadius R Z ρ).map (· + h) ↔
      ∀ a ∈ atRadius R Z ρ, (∀ b ∈ atRadius R Z ρ, b ≤ a) ∨ a + 2 * h ∈ atRadius R Z ρ) := by
    intro ρ hρ
    rw [uppers_eq_iff h _ (atRadius_ne_nil R Z (by simp [hRdef, hZdef, hz]) ρ hρ),
      chain_iff (2 * h) hwpos _ (lex_column hlexR ρ)]
    intro a ha b hb hab
    rw [mem_atRadius] at ha hb
    have ha' := (List.of_mem_zip ha).2
    have hb' := (List.of_mem_zip hb).2
    rw [hZdef, List.mem_map] at ha' hb'
    obtain ⟨a, ha', rfl⟩ := ha'
    obtain ⟨b, hb', rfl⟩ := hb'
    have := hgz a ha' b hb' (by linarith)
    rw [hw]; linarith
  rw [forall₂_congr hcol]
  have hmem : ∀ x y : K, (x * 100, y * 100) ∈ List.zip R Z ↔ (x, y) ∈ List.zip r z := by
    intro x y
    rw [hzip, List.mem_map]
    constructor
    · rintro ⟨⟨a, b⟩, hm, e⟩
      simp only [Prod.mk.injEq] at e
      have h1 : a = x := by linarith [e.1]
      have h2 : b = y := by linarith [e.2]
      rw [← h1, ← h2]; exact hm
    · intro hm; exact ⟨_, hm, rfl⟩
  simp only [mem_atRadius, hRdef, List.forall_mem_map]
  rw [← hRdef]
  constructor
  · rintro H ⟨x, y⟩ hp
    rcases H x (List.of_mem_zip hp).1 (y * 100) ((hmem x y).2 hp) with H | H
    · left
      rintro ⟨x', y'⟩ hq rfl
      have := H (y' * 100) ((hmem _ _).2 hq)
      simp only; linarith
    · right
      rw [hw, show y * 100 + L * 100 = (y + L) * 100 by ring, hmem] at H
      exact H
  · intro H x hx a ha
    have ha' := (List.of_mem_zip ha).2
    rw [hZdef, List.mem_map] at ha'
    obtain ⟨y, _, rfl⟩ := ha'
    rw [hmem] at ha
    rcases H (x, y) ha with H | H
    · left
      intro b hb
      have hb' := (List.of_mem_zip hb).2
      rw [hZdef, List.mem_map] at hb'
      obtain ⟨y', _, rfl⟩ := hb'
      rw [hmem] at hb
      have := H (x, y') hb rfl
      simp only at this; linarith
    · right
      rw [hw, show y * 100 + L * 100 = (y + L) * 100 by ring, hmem]
      exact H

variable [FloorRing K]

/-- **C25**, the good case: if the plasma is vertically convex and every sampled radius is sampled
at the height of the O-point, with no gap along that row, then for the cells sampled from the LCFS
and any non-negative strengths, the SDEF bins are exactly the cells. -/
theorem C25_no_gap (xs zs : List K) (inside : K × K → Bool) (hbox : WithinBox xs zs inside)
    (oX oZ L : K) (hL : 0 < L)
    (hvert : ∀ x z₁ z₂ z₃, inside (x, z₁) = true → inside (x, z₃) = true → z₁ ≤ z₂ → z₂ ≤ z₃ →
      inside (x, z₂) = true)
    (hrow : ∀ x z, inside (x, z) = true → inside (x, oZ) = true)
    (hhor : ∀ x₁ x₂ x₃, inside (x₁, oZ) = true → inside (x₃, oZ) = true → x₁ ≤ x₂ → x₂ ≤ x₃ →
      inside (x₂, oZ) = true)
    (ho : inside (oX, oZ) = true) (pi : K) (data : List K)
    (hd : data.length = (samplePoints xs zs inside oX oZ L).length) (hpos : ∀ s ∈ data, 0 ≤ s) :
    let smp := sampleSpace2d pi xs zs inside oX oZ L
    ∃ c, sdefCards smp.x smp.z L data = .ok c ∧ sdefBins c = cellBins smp.x smp.z L data := by
  intro smp
  obtain ⟨hzip, hxz, -⟩ := C12_arrays pi xs zs inside oX oZ L
  have hx : smp.x.length = (samplePoints xs zs inside oX oZ L).length := by
    simp [smp, sampleSpace2d]
  have hne : smp.x ≠ [] := by
    have := C13_o_point xs zs inside hbox oX oZ L hL ho
    intro h
    rw [h, List.length_nil] at hx
    rw [List.length_eq_zero_iff.1 hx.symm] at this
    simp at this
  have hlat : ∀ i i' : ℤ, ∀ o : K, o + L * (i : K) < o + L * (i' : K) →
      o + L * (i : K) + L ≤ o + L * (i' : K) := by
    intro i i' o h
    have h1 : (i : K) < i' := by
      by_contra hc
      have := mul_le_mul_of_nonneg_left (not_lt.1 hc) hL.le
      linarith
    have h2 : (i : K) + 1 ≤ i' := by exact_mod_cast Int.add_one_le_iff.2 (by exact_mod_cast h1)
    have := mul_le_mul_of_nonneg_left h2 hL.le
    linarith
  have hmx : ∀ a ∈ smp.x, ∃ z, (a, z) ∈ samplePoints xs zs inside oX oZ L := by
    intro a ha
    obtain ⟨p, hp, rfl⟩ := List.mem_map.1 ha
    exact ⟨p.2, hp⟩
  have hmz : ∀ a ∈ smp.z, ∃ x, (x, a) ∈ samplePoints xs zs inside oX oZ L := by
    intro a ha
    obtain ⟨p, hp, rfl⟩ := List.mem_map.1 ha
    exact ⟨p.1, hp⟩
  have hx_of : ∀ a z, (a, z) ∈ samplePoints xs zs inside oX oZ L → a ∈ smp.x :=
    fun a z h => List.mem_map.2 ⟨_, h, rfl⟩
  obtain ⟨c, hc, hiff⟩ := C25_bins_iff smp.x smp.z data L hL hne hxz.symm (by omega) hpos
    (by rw [hzip]; exact C16_order xs zs inside oX oZ L hL)
    (by
      intro a ha b hb hab
      obtain ⟨_, h1⟩ := hmx a ha
      obtain ⟨_, h2⟩ := hmx b hb
      obtain ⟨⟨i, _, hi, _⟩, _⟩ := (C12_exact xs zs inside hbox oX oZ L hL _).1 h1
      obtain ⟨⟨i', _, hi', _⟩, _⟩ := (C12_exact xs zs inside hbox oX oZ L hL _).1 h2
      simp only at hi hi'
      rw [hi, hi'] at hab ⊢
      exact hlat i i' oX hab)
    (by
      intro a ha b hb hab
      obtain ⟨_, h1⟩ := hmz a ha
      obtain ⟨_, h2⟩ := hmz b hb
      obtain ⟨⟨_, i, _, hi⟩, _⟩ := (C12_exact xs zs inside hbox oX oZ L hL _).1 h1
      obtain ⟨⟨_, i', _, hi'⟩, _⟩ := (C12_exact xs zs inside hbox oX oZ L hL _).1 h2
      simp only at hi hi'
      rw [hi, hi'] at hab ⊢
      exact hlat i i' oZ hab)
  refine ⟨c, hc, hiff.2 ⟨?_, ?_⟩⟩
  · intro a ha
    by_cases hmax : ∀ b ∈ smp.x, b ≤ a
    · exact .inl hmax
    · right
      push Not at hmax
      obtain ⟨b, hb, hab⟩ := hmax
      obtain ⟨z1, h1⟩ := hmx a ha
      obtain ⟨z2, h2⟩ := hmx b hb
      obtain ⟨⟨i, _, hi, _⟩, hin1⟩ := (C12_exact xs zs inside hbox oX oZ L hL _).1 h1
      obtain ⟨⟨i', _, hi', _⟩, hin2⟩ := (C12_exact xs zs inside hbox oX oZ L hL _).1 h2
      simp only at hi hi'
      have hstep : a + L ≤ b := by
        have := hab; rw [hi, hi'] at this ⊢; exact hlat i i' oX this
      refine hx_of (a + L) oZ ((C12_exact xs zs inside hbox oX oZ L hL _).2 ⟨⟨i + 1, 0, ?_, ?_⟩, ?_⟩)
      · simp only; rw [hi]; push_cast; ring
      · simp
      · exact hhor a (a + L) b (hrow _ _ hin1) (hrow _ _ hin2) (by linarith) hstep
  · rw [hzip]
    rintro ⟨x, z⟩ hp
    by_cases hmax : ∀ q ∈ samplePoints xs zs inside oX oZ L, q.1 = x → q.2 ≤ z
    · exact .inl hmax
    · right
      push Not at hmax
      obtain ⟨⟨x', z'⟩, hq, hx', hlt⟩ := hmax
      simp only at hx' hlt
      subst hx'
      obtain ⟨⟨i, j, hi, hj⟩, hin1⟩ := (C12_exact xs zs inside hbox oX oZ L hL _).1 hp
      obtain ⟨⟨_, j', _, hj'⟩, hin2⟩ := (C12_exact xs zs inside hbox oX oZ L hL _).1 hq
      simp only at hi hj hj'
      have hstep : z + L ≤ z' := by
        have := hlt; rw [hj, hj'] at this ⊢; exact hlat j j' oZ this
      refine (C12_exact xs zs inside hbox oX oZ L hL _).2 ⟨⟨i, j + 1, hi, ?_⟩, ?_⟩
      · simp only; rw [hj]; push_cast; ring
      · exact hvert x' z (z + L) z' hin1 hin2 (by linarith) hstep

/-- **C25**, the failing case: an indented (L-shaped) plasma `0.5 < x < 3.5` that has cells at
heights 0 and 2 of one column but not at height 1.  The bin of the lower cell is stretched over the
gap: from -50 cm to 150 cm instead of 50 cm. -/
theorem C25_gap : ∃ c, sdefCards [1, 2, 2, 2, 3, 3] [0, 0, 1, 2, 0, 2] (1 : ℚ) [1, 1, 1, 1, 1, 1] = .ok c ∧
    sdefBins c ≠ cellBins [1, 2, 2, 2, 3, 3] [0, 0, 1, 2, 0, 2] 1 [1, 1, 1, 1, 1, 1] ∧
    ⟨250, 350, -50, 150, 1 / 6⟩ ∈ sdefBins c :=
  ⟨closedCards ([1, 2, 2, 2, 3, 3].map (· * 100)) ([0, 0, 1, 2, 0, 2].map (· * 100)) (1 * 100 / 2)
      [1, 1, 1, 1, 1, 1],
    sdefCards_eq _ _ _ _ (by decide +kernel) (by simp) rfl rfl, by decide +kernel, by decide +kernel⟩

/-! ### The files of a source -/

/-- In every state of its life a source's cells are the ones sampled at construction. -/
theorem reachable_sampled {pi : K} {Q : Reaction → K}
    {sv : Reaction → List K → Except Err (List K)} {s : Source K} (h : Reachable pi Q sv s) :
    ∃ fm : FluxMapView K,
      let smp := sampleSpace2d pi fm.lcfsX fm.lcfsZ fm.inside fm.oX fm.oZ s.cellSideLength
      s.x = smp.x ∧ s.z = smp.z := by
  induction h with
  | @constructed tr fm arg L power s h =>
    cases power with
    | none =>
      obtain ⟨_, _, _, _, _, _, _, _, _, _, hx, hz, _, hL, _⟩ := Source.init_none h
      exact ⟨fm, by rw [hL]; exact ⟨hx, hz⟩⟩
    | some P =>
      obtain ⟨s0, h0, hn⟩ := Source.init_some h
      obtain ⟨_, _, _, _, _, _, _, _, _, _, hx, hz, _, hL, _⟩ := Source.init_none h0
      obtain ⟨c, _, _, e1, e2, _, _, e5, _⟩ := C06_one_factor (.constructed h0) hn
      exact ⟨fm, by rw [e1, e2, e5, hL]; exact ⟨hx, hz⟩⟩
  | normalised hs hn ih =>
    obtain ⟨fm, hx, hz⟩ := ih
    obtain ⟨c, _, _, e1, e2, _, _, e5, _⟩ := C06_one_factor hs hn
    exact ⟨fm, by rw [e1, e2, e5]; exact ⟨hx, hz⟩⟩

theorem sdefCards_ok (r z data : List K) (L : K) (hne : r ≠ []) :
    ∃ c, sdefCards r z L data = .ok c := by
  unfold sdefCards rBounds
  have hu := npUnique_ne_nil (r.map (· * 100)) (by simpa using hne)
  obtain ⟨b, hb⟩ : ∃ b, (npUnique (r.map (· * 100))).getLast? = some b :=
    ⟨_, List.getLast?_eq_some_getLast hu⟩
  simp only [List.getLast?_map, hb, Option.map_some]
  exact ⟨_, rfl⟩

/-- The suffix of the SDEF file name of each neutronic reaction. -/
def Spec.sdefSuffix : Neutronic → String
  | .D_T => "DT" | .D_D => "DD" | .T_T => "TT"

theorem sdefFileName_eq (stub : String) (r : Neutronic) :
    sdefFileName stub (.n r) = stub ++ "." ++ sdefSuffix r := by
  cases r <;> simp [sdefFileName, shortReact, Reaction.label, sdefSuffix] <;> decide

theorem sdefFileName_inj (stub : String) (r r' : Neutronic)
    (h : sdefFileName stub (.n r) = sdefFileName stub (.n r')) : r = r' := by
  rw [sdefFileName_eq, sdefFileName_eq] at h
  have : sdefSuffix r = sdefSuffix r' := by
    have := congrArg String.toList h
    simp only [String.toList_append] at this
    exact String.toList_inj.1 (List.append_cancel_left this)
  revert this
  cases r <;> cases r' <;> simp [sdefSuffix]

theorem toSdef_forall₂ {s : Source K} {stub : String} {files : List (SdefFile K)}
    (h : s.toSdef stub = .ok files) :
    List.Forall₂ (fun (p : Reaction × List K) (f : SdefFile K) =>
      f.name = sdefFileName stub p.1 ∧ f.reaction = p.1 ∧ f.total = p.2.sum ∧
      f.ionTemp = meanIonTemp p.2 s.temperature ∧
      sdefCards s.x s.z s.cellSideLength p.2 = .ok f.cards)
      (s.strength.filter (fun p => p.1.isNeutronic)) files := by
  have := (mapM_ok_iff _ _ _).1 h
  refine this.imp ?_
  intro p f hf
  simp only [bind, Except.bind] at hf
  split at hf
  · cases hf
  · rename_i c hc
    cases hf
    exact ⟨rfl, rfl, rfl, rfl, hc⟩

/-- **C28.**  For a source with at least one cell, `to_sdef_card` succeeds and writes one file for
each neutronic reaction of the source (in the order of `source_type`) and none for an aneutronic
one; the file of D-T, D-D, T-T is `<stub>.DT`, `<stub>.DD`, `<stub>.TT`; no two files have the same
name, whatever the stub. -/
theorem C28_files {pi : K} {Q : Reaction → K} {sv : Reaction → List K → Except Err (List K)}
    {s : Source K} (h : Reachable pi Q sv s) (hne : s.x ≠ []) (stub : String) :
    ∃ files, s.toSdef stub = .ok files ∧
      files.map (·.reaction) = s.sourceType.filter (fun r => decide (0 < neutronYield r)) ∧
      (∀ f ∈ files, ∃ r, f.reaction = .n r ∧ f.name = stub ++ "." ++ sdefSuffix r) ∧
      (files.map (·.name)).Nodup := by
  obtain ⟨hnd, hkeys, _⟩ := C04_bookkeeping h
  obtain ⟨files, hf⟩ : ∃ files, s.toSdef stub = .ok files := by
    apply mapM_exists_ok
    intro p _
    obtain ⟨c, hc⟩ := sdefCards_ok s.x s.z p.2 s.cellSideLength hne
    exact ⟨_, by rw [hc]; rfl⟩
  have h2 := toSdef_forall₂ hf
  have hy : ∀ r : Reaction, decide (0 < neutronYield r) = r.isNeutronic := by
    rintro ((_ | _ | _) | (_ | _)) <;> rfl
  have hreact : files.map (·.reaction) =
      s.sourceType.filter (fun r => decide (0 < neutronYield r)) := by
    simp only [hy]
    rw [← hkeys, Dict.keys, List.filter_map]
    have : ∀ (l : List (Reaction × List K)) (fs : List (SdefFile K)),
        List.Forall₂ (fun (p : Reaction × List K) (f : SdefFile K) =>
        f.name = sdefFileName stub p.1 ∧ f.reaction = p.1 ∧ f.total = p.2.sum ∧
        f.ionTemp = meanIonTemp p.2 s.temperature ∧
        sdefCards s.x s.z s.cellSideLength p.2 = .ok f.cards) l fs →
        fs.map (·.reaction) = l.map Prod.fst := by
      intro l fs h
      induction h with
      | nil => rfl
      | cons h _ ih => simp [ih, h.2.1]
    exact this _ _ h2
  have hname : ∀ f ∈ files, ∃ r, f.reaction = .n r ∧ f.name = sdefFileName stub (.n r) := by
    intro f hfm
    obtain ⟨p, hp, he⟩ := mapM_mem hf f hfm
    have hp2 := (List.mem_filter.1 hp).2
    simp only [bind, Except.bind] at he
    split at he
    · cases he
    · cases he
      rcases p with ⟨r | r, l⟩
      · exact ⟨r, rfl, rfl⟩
      · simp [Reaction.isNeutronic] at hp2
  refine ⟨files, hf, hreact, ?_, ?_⟩
  · intro f hfm
    obtain ⟨r, h1, h2⟩ := hname f hfm
    exact ⟨r, h1, by rw [h2, sdefFileName_eq]⟩
  · have hnr : (files.map (·.reaction)).Nodup := hreact ▸ hnd.filter _
    refine List.Nodup.map_on ?_ (List.Nodup.of_map _ hnr)
    intro f hfm g hgm e
    obtain ⟨r, h1, h2⟩ := hname f hfm
    obtain ⟨r', h1', h2'⟩ := hname g hgm
    rw [h2, h2'] at e
    have := sdefFileName_inj stub r r' e
    subst this
    exact List.inj_on_of_nodup_map hnr hfm hgm (by rw [h1, h1'])

/-- **C24** for a source: for physical inputs, in every file the bins read back are the source's
cells in order, each with its share of that reaction's rate. -/
theorem C24_source {pi : K} {Q : Reaction → K} {sv : Reaction → List K → Except Err (List K)}
    {s : Source K} (h : PhysReachable pi Q sv s) (hL : 0 < s.cellSideLength) (hne : s.x ≠ [])
    (stub : String) (files : List (SdefFile K)) (hf : s.toSdef stub = .ok files)
    (f : SdefFile K) (hfm : f ∈ files) :
    ∃ cells rate, s.strength.get? f.reaction = some cells ∧
      s.numReactions.get? f.reaction = some rate ∧
      (sdefBins f.cards).map (fun b => (b.rLo, b.zLo, b.prob)) =
        (List.zip s.x (List.zip s.z cells)).map (fun q =>
          (100 * (q.1 - s.cellSideLength / 2), 100 * (q.2.1 - s.cellSideLength / 2),
            q.2.2 / rate)) := by
  obtain ⟨_, hp⟩ := h.phys
  have hr := h.reachable
  obtain ⟨hnd, hkeys, _, _, hbook, _⟩ := C04_bookkeeping hr
  obtain ⟨fm, hx, hz⟩ := reachable_sampled hr
  have hsort : s.x.Pairwise (· ≤ ·) := by
    rw [hx]
    simp only [sampleSpace2d]
    rw [List.pairwise_map]
    exact (C16_order fm.lcfsX fm.lcfsZ fm.inside fm.oX fm.oZ _ hL).imp (by
      rintro p q (h | ⟨h, _⟩)
      exacts [h.le, h.le])
  obtain ⟨p, hpm, he⟩ := mapM_mem hf f hfm
  simp only [bind, Except.bind] at he
  split at he
  · cases he
  rename_i c hc
  cases he
  have hpm' := (List.mem_filter.1 hpm).1
  have hget : s.strength.get? p.1 = some p.2 := by
    obtain ⟨g, hcl⟩ := reachable_closed hr
    rw [hcl.2.1] at hpm' ⊢
    obtain ⟨r, hrm, rfl⟩ := List.mem_map.1 hpm'
    rw [Dict.get?_map_pair, if_pos hrm]
  have hmem : p.1 ∈ s.sourceType := by
    rw [← hkeys]; exact List.mem_map.2 ⟨p, hpm', rfl⟩
  obtain ⟨cells, h1, h2, _⟩ := hbook p.1 hmem
  rw [hget] at h1; cases h1
  refine ⟨p.2, p.2.sum, hget, h2, ?_⟩
  obtain ⟨c', hc', hbins⟩ := C24_probabilities s.x s.z p.2 s.cellSideLength hsort hne hp.z_len
    (hp.len p.1 p.2 hget) (hp.nonneg p.1 p.2 hget)
  rw [hc] at hc'; cases hc'
  exact hbins

/-- **C29.**  The "Total source neutrons" of a file is the reaction's `num_reactions_per_second`; it
equals `num_neutrons_per_second`, as the text promises, exactly when the reaction yields one neutron
(D-T, D-D) or does not happen at all.  For T-T it is half the number of neutrons. -/
theorem C29_header {pi : K} {Q : Reaction → K} {sv : Reaction → List K → Except Err (List K)}
    {s : Source K} (h : Reachable pi Q sv s) (stub : String) (files : List (SdefFile K))
    (hf : s.toSdef stub = .ok files) (f : SdefFile K) (hfm : f ∈ files) :
    ∃ reactions neutrons, s.numReactions.get? f.reaction = some reactions ∧
      s.numNeutrons.get? f.reaction = some neutrons ∧ f.total = reactions ∧
      (f.total = neutrons ↔ f.reaction ≠ .TT ∨ reactions = 0) ∧
      (f.reaction = .TT → neutrons = 2 * f.total) := by
  obtain ⟨hnd, hkeys, _, _, hbook, _⟩ := C04_bookkeeping h
  obtain ⟨p, hpm, he⟩ := mapM_mem hf f hfm
  simp only [bind, Except.bind] at he
  split at he
  · cases he
  rename_i c hc
  cases he
  obtain ⟨hpm', hneu⟩ := List.mem_filter.1 hpm
  have hget : s.strength.get? p.1 = some p.2 := by
    obtain ⟨g, hcl⟩ := reachable_closed h
    rw [hcl.2.1] at hpm' ⊢
    obtain ⟨r, hrm, rfl⟩ := List.mem_map.1 hpm'
    rw [Dict.get?_map_pair, if_pos hrm]
  have hmem : p.1 ∈ s.sourceType := by
    rw [← hkeys]; exact List.mem_map.2 ⟨p, hpm', rfl⟩
  obtain ⟨cells, h1, h2, h3⟩ := hbook p.1 hmem
  rw [hget] at h1; cases h1
  refine ⟨_, _, h2, h3, rfl, ?_, ?_⟩
  · show p.2.sum = _ ↔ _
    rcases hp1 : p.1 with (_ | _ | _) | (_ | _) <;> rw [hp1] at hneu <;>
      simp [neutronYield, Reaction.isNeutronic] at hneu ⊢
    constructor
    · intro e; linarith
    · intro e; rw [e]; simp
  · intro e
    show _ = 2 * p.2.sum
    have e' : p.1 = .TT := e
    rw [e']; simp [neutronYield]; ring

/-- **C30.**  The mean ion temperature of non-negative strengths with positive total is a finite
number between any bounds on the cell temperatures, and multiplying the strengths by a common
positive factor does not change it. -/
theorem C30_mean (strength temperature : List K) (hlen : temperature.length = strength.length)
    (hpos : ∀ v ∈ strength, 0 ≤ v) (hsum : 0 < strength.sum) (lo hi : K)
    (hlo : ∀ T ∈ temperature, lo ≤ T) (hhi : ∀ T ∈ temperature, T ≤ hi) :
    ∃ T, meanIonTemp strength temperature = .fin T ∧ lo ≤ T ∧ T ≤ hi ∧
      T * strength.sum = (List.zipWith (· * ·) strength temperature).sum ∧
      ∀ c, 0 < c → meanIonTemp (strength.map (· * c)) temperature = .fin T := by
  have hdiv : ∀ a b : K, b ≠ 0 → (XF.fin a / XF.fin b) = XF.fin (a / b) := by
    intro a b hb
    show XF.div _ _ = _
    simp [XF.div, hb]
  have hne := hsum.ne'
  have key : ∀ (s T : List K), T.length = s.length → (∀ v ∈ s, 0 ≤ v) → (∀ t ∈ T, lo ≤ t) →
      (∀ t ∈ T, t ≤ hi) → lo * s.sum ≤ (List.zipWith (· * ·) s T).sum ∧
        (List.zipWith (· * ·) s T).sum ≤ hi * s.sum := by
    intro s
    induction s with
    | nil => intro T _ _ _ _; simp
    | cons a s ih =>
      intro T hl h0 h1 h2
      rcases T with _ | ⟨t, T⟩
      · simp at hl
      obtain ⟨i1, i2⟩ := ih T (by simpa using hl) (fun v hv => h0 v (List.mem_cons_of_mem _ hv))
        (fun v hv => h1 v (List.mem_cons_of_mem _ hv)) (fun v hv => h2 v (List.mem_cons_of_mem _ hv))
      have a0 := h0 a (by simp)
      have t1 := mul_le_mul_of_nonneg_left (h1 t (by simp)) a0
      have t2 := mul_le_mul_of_nonneg_left (h2 t (by simp)) a0
      simp only [List.zipWith_cons_cons, List.sum_cons]
      constructor <;> linarith
  obtain ⟨k1, k2⟩ := key strength temperature hlen hpos hlo hhi
  refine ⟨_, hdiv _ _ hne, ?_, ?_, ?_, ?_⟩
  · rw [le_div_iff₀ hsum]; exact k1
  · rw [div_le_iff₀ hsum]; exact k2
  · field_simp
  · intro c hc
    unfold meanIonTemp
    have e1 : (strength.map (· * c)).sum = strength.sum * c := by
      rw [List.sum_map_mul_right]; simp
    have e2 : (List.zipWith (· * ·) (strength.map (· * c)) temperature).sum =
        (List.zipWith (· * ·) strength temperature).sum * c := by
      have hm : ∀ l : List K, l.sum * c = (l.map (· * c)).sum := by
        intro l; rw [List.sum_map_mul_right]; simp
      rw [List.zipWith_map_left, hm, List.map_zipWith]
      congr 2
      funext a b; ring
    rw [e1, e2, hdiv _ _ (mul_ne_zero hne hc.ne')]
    congr 1
    field_simp

/-- **C30**, source without neutrons: zero strengths everywhere give `nan`, whatever the
temperatures. -/
theorem C30_zero (strength temperature : List K) (h0 : ∀ v ∈ strength, v = 0) :
    meanIonTemp strength temperature = .nan := by
  have e1 : strength.sum = 0 := List.sum_eq_zero h0
  have e2 : (List.zipWith (· * ·) strength temperature).sum = 0 := by
    apply List.sum_eq_zero
    intro v hv
    obtain ⟨i, hi, rfl⟩ := List.mem_iff_getElem.1 hv
    simp only [List.getElem_zipWith]
    rw [h0 _ (List.getElem_mem _), zero_mul]
  unfold meanIonTemp
  rw [e1, e2]
  show XF.div _ _ = _
  simp [XF.div, XF.signedInf]

/-! ### Examples -/
namespace Ex

/-- The example source of 3 × 3 cells writes three files; the theorems apply to it. -/
example : ∃ files, src.toSdef "out" = .ok files ∧ files.map (·.name) = ["out.DT", "out.DD", "out.TT"] ∧
    files.map (·.total) = [3474, 621/2, 138] := by
  obtain ⟨files, hf, h1, h2, _⟩ := C28_files src_reachable (by decide +kernel) "out"
  have h3 := toSdef_forall₂ hf
  refine ⟨files, hf, ?_, ?_⟩
  · have e : src.strength.filter (fun p => p.1.isNeutronic) =
      [(.DT, str .DT), (.DDn, str .DDn), (.TT, str .TT)] := by decide +kernel
    rw [e] at h3
    rcases h3 with _ | ⟨a, _ | ⟨b, _ | ⟨c, _ | _⟩⟩⟩
    simp [a.1, b.1, c.1, sdefFileName_eq, sdefSuffix]
  · have e : src.strength.filter (fun p => p.1.isNeutronic) =
      [(.DT, str .DT), (.DDn, str .DDn), (.TT, str .TT)] := by decide +kernel
    rw [e] at h3
    rcases h3 with _ | ⟨a, _ | ⟨b, _ | ⟨c, _ | _⟩⟩⟩
    simp only [List.map_cons, List.map_nil, a.2.2.1, b.2.2.1, c.2.2.1]
    decide +kernel

example : (0 : ℚ) < src.cellSideLength ∧ src.x ≠ [] ∧ PhysReachable 3 Q svPos src :=
  ⟨by decide +kernel, by decide +kernel, src_phys⟩

/-- The hypotheses of `C25_no_gap` hold of the example plasma. -/
example : (∀ x z₁ z₂ z₃, flux.inside (x, z₁) = true → flux.inside (x, z₃) = true → z₁ ≤ z₂ → z₂ ≤ z₃ →
      flux.inside (x, z₂) = true) ∧ (∀ x z, flux.inside (x, z) = true → flux.inside (x, 0) = true) ∧
    (∀ x₁ x₂ x₃, flux.inside (x₁, 0) = true → flux.inside (x₃, 0) = true → x₁ ≤ x₂ → x₂ ≤ x₃ →
      flux.inside (x₂, 0) = true) ∧ flux.inside (2, 0) = true := by
  refine ⟨?_, ?_, ?_, by decide +kernel⟩
  · intro x z₁ z₂ z₃ h1 h3 h12 h23
    simp only [flux, decide_eq_true_eq] at h1 h3 ⊢
    exact ⟨h1.1, h1.2.1, by linarith [h1.2.2.1], by linarith [h3.2.2.2]⟩
  · intro x z h
    simp only [flux, decide_eq_true_eq] at h ⊢
    exact ⟨h.1, h.2.1, by norm_num, by norm_num⟩
  · intro x₁ x₂ x₃ h1 h3 h12 h23
    simp only [flux, decide_eq_true_eq] at h1 h3 ⊢
    exact ⟨by linarith [h1.1], by linarith [h3.2.1], by norm_num, by norm_num⟩

example : meanIonTemp [1, 3] [(2 : ℚ), 6] = .fin 5 := by decide +kernel

end Ex
end TNS
