import Verif.Lemmas.Sdef
import Verif.Model.RoundedSdef
import Verif.Spec.SdefRead
import Mathlib.Tactic.Linarith
/-
Closed form of the SDEF cards in rounded arithmetic, and of their bins.
-/

set_option autoImplicit false

namespace TNS
open Spec
noncomputable section

/-! ### Radii after rounding -/

theorem npUnique_map (g : ℝ → ℝ) (r : List ℝ) (hg : ∀ a ∈ r, ∀ b ∈ r, a < b → g a < g b) :
    npUnique (r.map g) = (npUnique r).map g := by
  have s1 := sorted_npUnique (r.map g)
  have s2 : ((npUnique r).map g).Pairwise (· < ·) := by
    rw [List.pairwise_map]
    refine (sorted_npUnique r).imp_of_mem ?_
    intro a b ha hb hab
    exact hg a ((mem_npUnique _ _).1 ha) b ((mem_npUnique _ _).1 hb) hab
  have n1 : (npUnique (r.map g)).Nodup := s1.imp (fun h => h.ne)
  have n2 : ((npUnique r).map g).Nodup := s2.imp (fun h => h.ne)
  have hp : (npUnique (r.map g)).Perm ((npUnique r).map g) := by
    rw [List.perm_ext_iff_of_nodup n1 n2]
    intro a
    rw [mem_npUnique, List.mem_map, List.mem_map]
    simp only [mem_npUnique]
  exact hp.eq_of_pairwise (fun a b _ _ h1 h2 => absurd h2 (not_lt.2 h1.le)) s1 s2

theorem atRadius_map {α : Type} (g : ℝ → ℝ) (r : List ℝ) (l : List α) (hg : ∀ a ∈ r, ∀ b ∈ r, a < b → g a < g b)
    (ρ : ℝ) (hρ : ρ ∈ r) : atRadius (r.map g) l (g ρ) = atRadius r l ρ := by
  have inj : ∀ a ∈ r, g a = g ρ → a = ρ := by
    intro a ha h
    rcases lt_trichotomy a ρ with h' | h' | h'
    · exact absurd h (hg a ha ρ hρ h').ne
    · exact h'
    · exact absurd h (hg ρ hρ a ha h').ne'
  unfold atRadius
  rw [List.zip_map_left, List.filter_map, List.map_map]
  have : List.filter ((fun p : ℝ × α => decide (p.1 = g ρ)) ∘ Prod.map g id) (List.zip r l) =
      List.filter (fun p => decide (p.1 = ρ)) (List.zip r l) := by
    apply List.filter_congr
    intro p hp
    have hm := (List.of_mem_zip hp).1
    simp only [Function.comp, Prod.map_fst]
    by_cases h : p.1 = ρ
    · simp [h]
    · have : g p.1 ≠ g ρ := fun e => h (inj _ hm e)
      simp [h, this]
  rw [this]
  rfl

theorem atRadius_map_right {α β : Type} (f : α → β) (r : List ℝ) (l : List α) (ρ : ℝ) :
    atRadius r (l.map f) ρ = (atRadius r l ρ).map f := by
  unfold atRadius
  rw [List.zip_map_right, List.filter_map, List.map_map, List.map_map]
  rfl

/-! ### Cards with arbitrary numbers -/

/-- Cards with one column for each entry of `U`: lower edge `lo`, weight `w`, lower edges `zs` and weights `ds` of
the cells; the last upper edges are `top` and `ztop`. -/
def genCards (U : List ℝ) (lo : ℝ → ℝ) (top : ℝ) (w : ℝ → ℝ) (zs ds : ℝ → List ℝ) (ztop : ℝ → ℝ) :
    SdefCards ℝ where
  si3 := U.map lo ++ [top]
  sp3 := 0 :: U.map w
  ds4 := (List.range U.length).map (5 + ·)
  vertical := List.zipWith (fun i ρ => (5 + i, zs ρ ++ [ztop ρ], 0 :: ds ρ)) (List.range U.length) U

theorem mapNums_genCards (φ : ℝ → ℝ) (h0 : φ 0 = 0) (U : List ℝ) (lo : ℝ → ℝ) (top : ℝ) (w : ℝ → ℝ)
    (zs ds : ℝ → List ℝ) (ztop : ℝ → ℝ) :
    mapNums φ (genCards U lo top w zs ds ztop) =
      genCards U (fun ρ => φ (lo ρ)) (φ top) (fun ρ => φ (w ρ)) (fun ρ => (zs ρ).map φ) (fun ρ => (ds ρ).map φ)
        (fun ρ => φ (ztop ρ)) := by
  simp [mapNums, genCards, h0, List.map_zipWith, Function.comp_def]

theorem histogram_gen (l w : List ℝ) (t : ℝ) (hl : l ≠ []) :
    histogram (l ++ [t]) (0 :: w) =
      List.zipWith (fun (e : ℝ × ℝ) p => ⟨e.1, e.2, p / w.sum⟩) (List.zip l (l.tail ++ [t])) w := by
  unfold histogram
  have e : (l ++ [t]).tail = l.tail ++ [t] := by
    cases l with
    | nil => exact absurd rfl hl
    | cons a l => simp
  rw [e]
  simp only [List.tail_cons, List.sum_cons, zero_add]
  have : List.zip (l ++ [t]) (l.tail ++ [t]) = List.zip l (l.tail ++ [t]) := by
    have h0 : l.tail ++ [t] = (l.tail ++ [t]) ++ [] := by simp
    conv_lhs => rw [h0]
    rw [List.zip_append (by
      cases l with
      | nil => exact absurd rfl hl
      | cons a l => simp)]
    simp
  rw [this]

theorem sdefBins_gen (U : List ℝ) (lo : ℝ → ℝ) (top : ℝ) (w : ℝ → ℝ) (zs ds : ℝ → List ℝ) (ztop : ℝ → ℝ)
    (hU : U ≠ []) (hz : ∀ ρ ∈ U, zs ρ ≠ []) :
    sdefBins (genCards U lo top w zs ds ztop) =
      (List.zip U ((U.map lo).tail ++ [top])).flatMap (fun e =>
        List.zipWith (fun (f : ℝ × ℝ) s => (⟨lo e.1, e.2, f.1, f.2,
            w e.1 / (U.map w).sum * (s / (ds e.1).sum)⟩ : SBin ℝ))
          (List.zip (zs e.1) ((zs e.1).tail ++ [ztop e.1])) (ds e.1)) := by
  unfold sdefBins
  simp only [genCards]
  rw [histogram_gen _ _ _ (by simpa using hU)]
  have hlen : ((U.map lo).tail ++ [top]).length = U.length := by
    cases U with
    | nil => exact absurd rfl hU
    | cons a U => simp
  rw [List.flatMap_def, List.flatMap_def]
  congr 1
  apply List.ext_getElem
  · simp [hlen]
  · intro n h1 h2
    have hn : n < U.length := by simpa [hlen] using h1
    simp only [List.getElem_map, List.getElem_zip, List.getElem_zipWith, List.getElem_range]
    rw [find_number (fun _ ρ => (zs ρ ++ [ztop ρ], 0 :: ds ρ)) U 5 n _ (fun _ => rfl)]
    rw [List.getElem?_eq_getElem hn, Option.map_some]
    simp only
    rw [histogram_gen _ _ _ (hz _ (List.getElem_mem _))]
    rw [List.map_zipWith]

/-! ### The next entry -/

/-- `e` is `lo` of the entry of `U` after `ρ`, or `top ρ` after the last. -/
def NextIn (U : List ℝ) (lo top : ℝ → ℝ) (ρ e : ℝ) : Prop :=
  (∃ ρ' ∈ U, ρ < ρ' ∧ (∀ y ∈ U, y ≤ ρ ∨ ρ' ≤ y) ∧ e = lo ρ') ∨ ((∀ y ∈ U, y ≤ ρ) ∧ e = top ρ)

theorem nextIn_index (U : List ℝ) (hU : U.Pairwise (· < ·)) (lo top : ℝ → ℝ) (t : ℝ)
    (ht : ∀ a, U.getLast? = some a → t = top a) (n : ℕ) (hn : n < U.length) (h' : n < ((U.map lo).tail ++ [t]).length) :
    NextIn U lo top U[n] (((U.map lo).tail ++ [t])[n]) := by
  have mono : ∀ i j (hi : i < U.length) (hj : j < U.length), i < j → U[i] < U[j] := fun i j hi hj hij =>
    List.pairwise_iff_getElem.1 hU i j hi hj hij
  by_cases h : n + 1 < U.length
  · left
    refine ⟨U[n + 1], List.getElem_mem _, mono _ _ _ _ (by omega), ?_, ?_⟩
    · intro y hy
      obtain ⟨k, hk, rfl⟩ := List.mem_iff_getElem.1 hy
      rcases lt_trichotomy k n with hkn | hkn | hkn
      · exact .inl (mono _ _ _ _ hkn).le
      · subst hkn; exact .inl le_rfl
      · rcases (show n + 1 ≤ k from hkn).eq_or_lt with e | e
        · subst e; exact .inr le_rfl
        · exact .inr (mono _ _ _ _ e).le
    · rw [List.getElem_append_left (by simp; omega)]
      simp
  · right
    have hn' : n = U.length - 1 := by omega
    constructor
    · intro y hy
      obtain ⟨k, hk, rfl⟩ := List.mem_iff_getElem.1 hy
      rcases (show k ≤ n by omega).eq_or_lt with e | e
      · subst e; exact le_rfl
      · exact (mono _ _ _ _ e).le
    · rw [List.getElem_append_right (by simp; omega)]
      simp only [List.getElem_singleton]
      apply ht
      rw [List.getLast?_eq_getElem?, ← hn', List.getElem?_eq_getElem hn]

/-- The bins of the cards of cells sorted by radius and height, one for each cell in order. -/
theorem genBins_cells (r z data : List ℝ) (hr : r.Pairwise (· ≤ ·)) (hne : r ≠ []) (hz : z.length = r.length)
    (hd : data.length = r.length)
    (hcol : ∀ ρ ∈ r, (atRadius r z ρ).Pairwise (· < ·))
    (lo top zlo ztop ψ w : ℝ → ℝ) (t : ℝ) (ht : ∀ a, (npUnique r).getLast? = some a → t = top a)
    (zt : ℝ → ℝ) (hzt : ∀ ρ ∈ r, ∀ a, (atRadius r z ρ).getLast? = some a → zt ρ = ztop a) :
    List.Forall₂ (fun (q : ℝ × ℝ × ℝ) (b : SBin ℝ) =>
        b.rLo = lo q.1 ∧ b.zLo = zlo q.2.1 ∧ NextIn (npUnique r) lo top q.1 b.rHi ∧
        NextIn (atRadius r z q.1) zlo ztop q.2.1 b.zHi ∧
        b.prob = w q.1 / ((npUnique r).map w).sum * (ψ q.2.2 / ((atRadius r data q.1).map ψ).sum))
      (List.zip r (List.zip z data))
      (sdefBins (genCards (npUnique r) lo t w (fun ρ => (atRadius r z ρ).map zlo)
        (fun ρ => (atRadius r data ρ).map ψ) zt)) := by
  have hU := npUnique_ne_nil _ hne
  have hmem : ∀ ρ ∈ npUnique r, ρ ∈ r := fun ρ h => (mem_npUnique ρ r).1 h
  rw [sdefBins_gen _ _ _ _ _ _ _ hU (fun ρ hρ => by
    simpa using atRadius_ne_nil r z hz ρ (hmem ρ hρ))]
  rw [← flatMap_atRadius r (List.zip z data) hr (by simp [hz, hd])]
  have hlen : (((npUnique r).map lo).tail ++ [t]).length = (npUnique r).length := by
    generalize npUnique r = U at hU
    cases U with
    | nil => exact absurd rfl hU
    | cons a U => simp
  have hz2 : List.Forall₂ (fun (ρ : ℝ) (e : ℝ × ℝ) => ρ ∈ r ∧ e.1 = ρ ∧ NextIn (npUnique r) lo top ρ e.2)
      (npUnique r) (List.zip (npUnique r) (((npUnique r).map lo).tail ++ [t])) := by
    rw [List.forall₂_iff_get]
    refine ⟨by simp [hlen], ?_⟩
    intro n h1 h2
    simp only [List.get_eq_getElem, List.getElem_zip]
    exact ⟨hmem _ (List.getElem_mem _), trivial, nextIn_index _ (sorted_npUnique r) lo top t ht n h1 (by rw [hlen]; exact h1)⟩
  refine List.rel_flatMap hz2 ?_
  rintro ρ ⟨ρ', e⟩ ⟨hρ, rfl, hnext⟩
  simp only at hρ hnext ⊢
  have hane := atRadius_ne_nil r z hz _ hρ
  have hl2 := atRadius_length r z data ρ' hz hd
  rw [← atRadius_zip r z data _ hz hd]
  have hlz : (((atRadius r z ρ').map zlo).tail ++ [zt ρ']).length = (atRadius r z ρ').length := by
    generalize atRadius r z ρ' = U at hane
    cases U with
    | nil => exact absurd rfl hane
    | cons a U => simp
  rw [List.forall₂_iff_get]
  refine ⟨by simp [hlz, hl2], ?_⟩
  intro n h1 h2
  have hn : n < (atRadius r z ρ').length := by simpa [hl2] using h1
  simp only [List.get_eq_getElem, List.getElem_map, List.getElem_zip, List.getElem_zipWith]
  exact ⟨trivial, trivial, hnext, nextIn_index _ (hcol _ hρ) zlo ztop _ (hzt _ hρ) n hn (by rw [hlz]; exact hn), trivial⟩

/-! ### The cards of the export -/

theorem verticalCardsR_eq (A : Arith) (r z data : List ℝ) (h : ℝ) (hr : r.Pairwise (· ≤ ·)) (hne : r ≠ [])
    (hz : z.length = r.length) (hd : data.length = r.length) :
    verticalCardsR A (zInts r) z data h =
      List.zipWith (fun i ρ => (5 + i, (atRadius r z ρ).map (fun x => A.rd (x - h)) ++
          [A.rd (((atRadius r z ρ).getLast?).getD 0 + h)], 0 :: atRadius r data ρ))
        (List.range (npUnique r).length) (npUnique r) := by
  have hcz := columns_sorted r z hr hne hz
  have hcd := columns_sorted r data hr hne hd
  have hlen : (npUnique r).length = (zInts r).length - 1 := by
    rw [← length_columns r z, hcz, List.length_map]
  unfold verticalCardsR
  rw [← hlen]
  have key : List.zipWith (fun (p : ℤ × List ℝ) d =>
        (p.2.map (fun x => A.rd (x - h)) ++ [A.rd (((z[p.1.toNat]?).getD 0) + h)], 0 :: d))
      (List.zip (zInts r).tail (columns (zInts r) z)) (columns (zInts r) data) =
      List.zipWith (fun (p : ℤ × List ℝ) d =>
        (p.2.map (fun x => A.rd (x - h)) ++ [A.rd ((p.2.getLast?).getD 0 + h)], 0 :: d))
      (List.zip (zInts r).tail (columns (zInts r) z)) (columns (zInts r) data) := by
    apply List.ext_getElem
    · simp
    · intro n h1 h2
      simp only [List.getElem_zipWith]
      rw [columns_last r z hz hne _ (List.getElem_mem _)]
  rw [key, hcz, hcd]
  have hl2 : (zInts r).tail.length = (npUnique r).length := by simp [hlen]
  apply List.ext_getElem
  · simp [hl2]
  · intro n h1 h2
    simp

theorem sdefCardsR_eq (A : Arith) (r z : List ℝ) (L : ℝ) (data : List ℝ) (hr : r.Pairwise (· ≤ ·)) (hne : r ≠ [])
    (hz : z.length = r.length) (hd : data.length = r.length)
    (hg : ∀ a ∈ r, ∀ b ∈ r, a < b → A.rd (a * 100) < A.rd (b * 100)) :
    let dr := A.rd (L * 100)
    let half := A.rd (dr / 2)
    sdefCardsR A r z L data = .ok (genCards (npUnique r) (fun x => A.rd (A.rd (x * 100) - half))
      (A.rd (A.rd (A.rd (((npUnique r).getLast?).getD 0 * 100) - half) + dr)) (fun ρ => A.npSum (atRadius r data ρ))
      (fun ρ => (atRadius r z ρ).map (fun x => A.rd (A.rd (x * 100) - half))) (fun ρ => atRadius r data ρ)
      (fun ρ => A.rd (A.rd (((atRadius r z ρ).getLast?).getD 0 * 100) + half))) := by
  intro dr half
  set g : ℝ → ℝ := fun x => A.rd (x * 100) with hgdef
  have hR : (r.map g).Pairwise (· ≤ ·) := by
    rw [List.pairwise_map]
    refine hr.imp_of_mem ?_
    intro a b ha hb hab
    rcases hab.eq_or_lt with e | e
    · rw [e]
    · exact (hg a ha b hb e).le
  have hRne : r.map g ≠ [] := by simpa using hne
  have hu := npUnique_ne_nil _ hne
  have hmem : ∀ ρ ∈ npUnique r, ρ ∈ r := fun ρ h => (mem_npUnique ρ r).1 h
  have hg' : ∀ a ∈ r, ∀ b ∈ r, a < b → g a < g b := hg
  have hun := npUnique_map g r hg'
  unfold sdefCardsR
  simp only
  change (do
    let bounds ← rBoundsR A (r.map g) half dr
    Except.ok { si3 := bounds
                sp3 := 0 :: (columns (zInts (r.map g)) data).map A.npSum
                ds4 := ds4 bounds
                vertical := verticalCardsR A (zInts (r.map g)) (z.map g) data half : SdefCards ℝ }) = _
  rw [verticalCardsR_eq _ _ _ _ _ hR hRne (by simp [hz]) (by simp [hd]),
    columns_sorted _ _ hR hRne (by simp [hd])]
  unfold rBoundsR genCards
  simp only [List.getLast?_map, hun]
  obtain ⟨b, hb⟩ : ∃ b, (npUnique r).getLast? = some b :=
    ⟨_, List.getLast?_eq_some_getLast hu⟩
  rw [hb]
  simp only [Option.map_some, Option.getD_some, List.map_map, Bind.bind, Except.bind]
  congr 1
  have e1 : ∀ ρ ∈ npUnique r, atRadius (r.map g) data (g ρ) = atRadius r data ρ := fun ρ h =>
    atRadius_map g r data hg' ρ (hmem ρ h)
  have e2 : ∀ ρ ∈ npUnique r, atRadius (r.map g) (z.map g) (g ρ) = (atRadius r z ρ).map g := fun ρ h => by
    rw [atRadius_map_right, atRadius_map g r z hg' ρ (hmem ρ h)]
  congr 1
  · congr 1
    apply List.map_congr_left
    intro ρ h
    simp only [Function.comp]
    rw [e1 ρ h]
  · simp [ds4]
  · apply List.ext_getElem
    · simp
    · intro n h1 h2
      have hn : n < (npUnique r).length := by simpa using h1
      simp only [List.getElem_zipWith, List.getElem_map, List.getElem_range]
      rw [e1 _ (List.getElem_mem _), e2 _ (List.getElem_mem _)]
      have hne' := atRadius_ne_nil r z hz _ (hmem _ (List.getElem_mem hn))
      obtain ⟨c, hc⟩ : ∃ c, (atRadius r z (npUnique r)[n]).getLast? = some c :=
        ⟨_, List.getLast?_eq_some_getLast hne'⟩
      simp only [List.getLast?_map, hc, Option.map_some, Option.getD_some, List.map_map]
      rfl

end
end TNS
