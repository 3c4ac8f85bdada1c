import Verif.Lemmas.Mcnp
import Verif.Spec.Mcnp
import Mathlib.Tactic.FieldSimp
import Mathlib.Tactic.Ring
import Mathlib.Data.List.Induction
import Mathlib.Algebra.Order.BigOperators.Group.List
import Mathlib.Algebra.Order.Field.Basic
/-
Closed form of the SDEF cards and of their bins for cells sorted by radius.
-/

set_option autoImplicit false
set_option linter.unusedSectionVars false

namespace TNS
open Spec
variable {K : Type} [Field K] [LinearOrder K] {α β : Type}

/-- Upper edges: the lower edges of the following entries, and the last plus `h`. -/
def uppers (h : K) (l : List K) : List K := l.tail.map (· - h) ++ [(l.getLast?).getD 0 + h]

theorem length_uppers (h : K) (l : List K) (hl : l ≠ []) : (uppers h l).length = l.length := by
  cases l with
  | nil => exact absurd rfl hl
  | cons a l => simp [uppers]

theorem npUnique_ne_nil (r : List K) (h : r ≠ []) : npUnique r ≠ [] := by
  obtain ⟨a, ha⟩ := List.exists_mem_of_ne_nil r h
  exact List.ne_nil_of_mem ((mem_npUnique a r).2 ha)

theorem atRadius_ne_nil (r : List K) (l : List α) (hl : l.length = r.length) (ρ : K) (h : ρ ∈ r) :
    atRadius r l ρ ≠ [] := by
  obtain ⟨i, hi, rfl⟩ := List.mem_iff_getElem.1 h
  have : (r[i], l[i]) ∈ List.zip r l := by
    rw [List.mem_iff_getElem]
    exact ⟨i, by simp; omega, by simp⟩
  intro h0
  have h2 : l[i] ∈ atRadius r l r[i] := by
    unfold atRadius
    rw [List.mem_map]
    exact ⟨(r[i], l[i]), by simp [this], rfl⟩
  rw [h0] at h2
  simp at h2

theorem atRadius_zip (r : List K) (l : List α) (m : List β) (ρ : K)
    (hl : l.length = r.length) (hm : m.length = r.length) :
    List.zip (atRadius r l ρ) (atRadius r m ρ) = atRadius r (List.zip l m) ρ := by
  induction r generalizing l m with
  | nil => simp [atRadius]
  | cons a r ih =>
    rcases l with _ | ⟨x, l⟩
    · simp at hl
    rcases m with _ | ⟨y, m⟩
    · simp at hm
    have := ih l m (by simpa using hl) (by simpa using hm)
    unfold atRadius at this ⊢
    by_cases h : a = ρ
    · simp [h, this]
    · simp [h, this]

theorem atRadius_length (r : List K) (l : List α) (m : List β) (ρ : K)
    (hl : l.length = r.length) (hm : m.length = r.length) :
    (atRadius r l ρ).length = (atRadius r m ρ).length := by
  induction r generalizing l m with
  | nil => simp [atRadius]
  | cons a r ih =>
    rcases l with _ | ⟨x, l⟩
    · simp at hl
    rcases m with _ | ⟨y, m⟩
    · simp at hm
    have := ih l m (by simpa using hl) (by simpa using hm)
    unfold atRadius at this ⊢
    by_cases h : a = ρ
    · simpa [h] using this
    · simpa [h] using this

theorem mem_atRadius (r : List K) (l : List α) (ρ : K) (x : α) :
    x ∈ atRadius r l ρ ↔ (ρ, x) ∈ List.zip r l := by
  unfold atRadius
  simp only [List.mem_map, List.mem_filter, decide_eq_true_eq]
  constructor
  · rintro ⟨⟨a, b⟩, ⟨h, rfl⟩, rfl⟩; exact h
  · intro h; exact ⟨(ρ, x), ⟨h, rfl⟩, rfl⟩

/-- Grouping by radius and concatenating gives the list back. -/
theorem flatMap_atRadius (r : List K) (l : List α) (hr : r.Pairwise (· ≤ ·))
    (hl : l.length = r.length) :
    (npUnique r).flatMap (fun ρ => (atRadius r l ρ).map (fun x => (ρ, x))) = List.zip r l := by
  induction r generalizing l with
  | nil => simp [npUnique]
  | cons a t ih =>
    rcases l with _ | ⟨x, l⟩
    · simp at hl
    rw [List.pairwise_cons] at hr
    have ih := ih l hr.2 (by simpa using hl)
    obtain ⟨u, hu, hu2⟩ := npUnique_head a t hr.1
    rw [hu, List.flatMap_cons]
    have h1 : u.flatMap (fun ρ => (atRadius (a :: t) (x :: l) ρ).map (fun x => (ρ, x))) =
        u.flatMap (fun ρ => (atRadius t l ρ).map (fun x => (ρ, x))) := by
      apply List.flatMap_congr
      intro ρ hρ
      have : a ≠ ρ := (hu2 ρ hρ).ne
      simp [atRadius, this]
    rw [h1]
    have h2 : atRadius (a :: t) (x :: l) a = x :: atRadius t l a := by simp [atRadius]
    rw [h2, List.map_cons, List.cons_append, List.zip_cons_cons]
    congr 1
    -- the rest is the grouping of `t`
    by_cases hat : a ∈ t
    · -- `a` is the head of `npUnique t`
      have : npUnique t = a :: u := by
        have hsub : ∀ c ∈ t, a ≤ c := hr.1
        obtain ⟨b, t', rfl⟩ := List.exists_cons_of_ne_nil (List.ne_nil_of_mem hat)
        have hb : b = a := by
          rcases List.mem_cons.1 hat with h | h
          · exact h.symm
          · exact le_antisymm ((List.pairwise_cons.1 hr.2).1 a h) (hsub b List.mem_cons_self)
        subst hb
        rw [← hu, npUnique_cons_same b t' (List.pairwise_cons.1 hr.2).1]
      rw [this, List.flatMap_cons] at ih
      exact ih
    · have hlt : ∀ b ∈ t, a < b := fun b hb => lt_of_le_of_ne (hr.1 b hb) (fun h => hat (h ▸ hb))
      have h3 : npUnique t = u := by
        rw [npUnique_cons_lt a t hlt] at hu
        exact (List.cons.inj hu).2
      have h4 : atRadius t l a = [] := by
        unfold atRadius
        rw [List.map_eq_nil_iff, List.filter_eq_nil_iff]
        rintro ⟨c, v⟩ hp
        have hc : c ∈ t := (List.of_mem_zip hp).1
        simpa using (hlt c hc).ne'
      rw [h4, List.map_nil, List.nil_append, ← ih, h3]

theorem flatMap_atRadius' (r : List K) (l : List α) (hr : r.Pairwise (· ≤ ·))
    (hl : l.length = r.length) : ((npUnique r).map (atRadius r l)).flatten = l := by
  have h := congrArg (List.map Prod.snd) (flatMap_atRadius r l hr hl)
  rw [List.map_flatMap] at h
  simp only [List.map_map, Function.comp_def, List.map_id'] at h
  rw [List.map_snd_zip (by omega)] at h
  rw [List.flatMap_def] at h
  exact h

theorem sum_atRadius (r l : List K) (hr : r.Pairwise (· ≤ ·)) (hl : l.length = r.length) :
    ((npUnique r).map (fun ρ => (atRadius r l ρ).sum)).sum = l.sum := by
  have h := congrArg List.sum (flatMap_atRadius' r l hr hl)
  rw [List.sum_flatten, List.map_map] at h
  exact h

/-- The last index of each column points at its last entry. -/
theorem columns_last (r : List K) (l : List α) (hl : l.length = r.length) (hne : r ≠ []) :
    ∀ p ∈ List.zip (zInts r).tail (columns (zInts r) l), p.2.getLast? = l[p.1.toNat]? := by
  have hmono : (colBounds r).Pairwise (· < ·) ∧ ∀ b ∈ colBounds r, b ≤ r.length := by
    unfold colBounds
    have hlen : 0 < r.length := List.length_pos_of_ne_nil hne
    constructor
    · rw [List.pairwise_cons, List.pairwise_append, List.pairwise_map]
      refine ⟨?_, ⟨?_, by simp, ?_⟩⟩
      · intro a ha
        simp only [List.mem_append, List.mem_map, List.mem_singleton] at ha
        omega
      · exact ((List.pairwise_lt_range).filter _).imp (by intro a b h; omega)
      · intro a ha b hb
        simp only [List.mem_map, List.mem_filter, List.mem_range, List.mem_singleton] at ha hb
        obtain ⟨i, ⟨hi, _⟩, rfl⟩ := ha
        omega
    · intro b hb
      simp only [List.mem_cons, List.mem_append, List.mem_map, List.mem_filter, List.mem_range,
        List.not_mem_nil, or_false] at hb
      omega
  rw [columns_eq, zInts_eq, ← List.map_tail]
  generalize colBounds r = cb at hmono
  obtain ⟨h1, h2⟩ := hmono
  induction cb with
  | nil => simp
  | cons a t ih =>
    cases t with
    | nil => simp
    | cons b t =>
      intro p hp
      simp only [List.tail_cons, List.map_cons, List.zipWith_cons_cons, List.zip_cons_cons,
        List.mem_cons] at hp
      rcases hp with rfl | hp
      · have hab : a < b := (List.pairwise_cons.1 h1).1 b List.mem_cons_self
        have hb : b ≤ l.length := hl ▸ h2 b (by simp)
        show ((l.drop a).take (b - a)).getLast? = l[((b : ℤ) - 1).toNat]?
        rw [List.getLast?_eq_getElem?, List.getElem?_take, if_pos (by simp; omega),
          List.getElem?_drop]
        congr 1
        simp
        omega
      · exact ih (List.pairwise_cons.1 h1).2 (fun c hc => h2 c (List.mem_cons_of_mem _ hc)) p hp

theorem length_columns (r : List K) (l : List α) :
    (columns (zInts r) l).length = (zInts r).length - 1 := by
  simp [columns]

/-- The vertical cards for cells sorted by radius: one pair per distinct radius. -/
theorem verticalCards_eq (r z data : List K) (h : K) (hr : r.Pairwise (· ≤ ·)) (hne : r ≠ [])
    (hz : z.length = r.length) (hd : data.length = r.length) :
    verticalCards (zInts r) z data h =
      List.zipWith (fun i ρ => (5 + i, (atRadius r z ρ).map (· - h) ++
          [((atRadius r z ρ).getLast?).getD 0 + h], 0 :: atRadius r data ρ))
        (List.range (npUnique r).length) (npUnique r) := by
  have hcz := columns_sorted r z hr hne hz
  have hcd := columns_sorted r data hr hne hd
  have hlen : (npUnique r).length = (zInts r).length - 1 := by
    rw [← length_columns r z, hcz, List.length_map]
  unfold verticalCards
  rw [← hlen]
  have key : List.zipWith (fun (p : ℤ × List K) d =>
        (p.2.map (· - h) ++ [((z[p.1.toNat]?).getD 0) + h], 0 :: d))
      (List.zip (zInts r).tail (columns (zInts r) z)) (columns (zInts r) data) =
      List.zipWith (fun (p : ℤ × List K) d =>
        (p.2.map (· - h) ++ [(p.2.getLast?).getD 0 + h], 0 :: d))
      (List.zip (zInts r).tail (columns (zInts r) z)) (columns (zInts r) data) := by
    apply List.ext_getElem
    · simp
    · intro n h1 h2
      simp only [List.getElem_zipWith]
      rw [columns_last r z hz hne _ (List.getElem_mem _)]
  rw [key, hcz, hcd]
  have hl2 : (zInts r).tail.length = (npUnique r).length := by simp [hlen]
  apply List.ext_getElem
  · simp [hl2]
  · intro n h1 h2
    simp

/-- Finding the vertical distribution with a given number. -/
theorem find_number {γ : Type} (f : ℕ → β → γ) (u : List β) (k n : ℕ)
    (w : ℕ × γ → Bool) (hw : ∀ q, w q = decide (q.1 = k + n)) :
    (List.zipWith (fun i ρ => (k + i, f i ρ)) (List.range u.length) u).find? w =
      (u[n]?).map (fun ρ => (k + n, f n ρ)) := by
  obtain rfl : w = fun q => decide (q.1 = k + n) := funext hw
  induction u using List.reverseRecOn generalizing n with
  | nil => simp
  | append_singleton u a ih =>
    rw [List.length_append, List.length_singleton, List.range_succ, List.zipWith_append (by simp),
      List.find?_append, ih _ (fun _ => rfl)]
    by_cases h : n < u.length
    · rw [List.getElem?_append_left h]
      simp [List.getElem?_eq_getElem h]
    · rw [List.getElem?_eq_none (by omega)]
      by_cases h' : n = u.length
      · subst h'; simp
      · have : u.length ≠ n := fun h => h' h.symm
        simp [this]
        omega

theorem histogram_eq (h : K) (l w : List K) (hl : l ≠ []) :
    histogram (l.map (· - h) ++ [(l.getLast?).getD 0 + h]) (0 :: w) =
      List.zipWith (fun (e : K × K) p => ⟨e.1 - h, e.2, p / w.sum⟩) (List.zip l (uppers h l)) w := by
  cases l with
  | nil => exact absurd rfl hl
  | cons a l =>
    unfold histogram
    have e : ((a :: l).map (· - h) ++ [((a :: l).getLast?).getD 0 + h]).tail =
        uppers h (a :: l) := by simp [uppers]
    rw [e]
    simp only [List.tail_cons, List.sum_cons, zero_add]
    have : List.zip ((a :: l).map (· - h) ++ [((a :: l).getLast?).getD 0 + h])
        (uppers h (a :: l)) = (List.zip (a :: l) (uppers h (a :: l))).map
          (fun e => (e.1 - h, e.2)) := by
      have h0 : uppers h (a :: l) = uppers h (a :: l) ++ [] := by simp
      conv_lhs => rw [h0]
      rw [List.zip_append (by simp [uppers])]
      rw [List.zip_nil_right, List.append_nil, List.zip_map_left]
      rfl
    rw [this, List.zipWith_map_left]

variable [IsStrictOrderedRing K]

/-- The cards of cells sorted by radius in closed form (`R`, `Z` in cm, `h` the half width). -/
def closedCards (R Z : List K) (h : K) (data : List K) : SdefCards K where
  si3 := (npUnique R).map (· - h) ++ [((npUnique R).getLast?).getD 0 + h]
  sp3 := 0 :: (npUnique R).map (fun ρ => (atRadius R data ρ).sum)
  ds4 := (List.range (npUnique R).length).map (5 + ·)
  vertical := List.zipWith (fun i ρ => (5 + i, (atRadius R Z ρ).map (· - h) ++
    [((atRadius R Z ρ).getLast?).getD 0 + h], 0 :: atRadius R data ρ))
    (List.range (npUnique R).length) (npUnique R)

theorem scaled_sorted {r : List K} (hr : r.Pairwise (· ≤ ·)) :
    (r.map (· * 100)).Pairwise (· ≤ ·) := by
  rw [List.pairwise_map]
  exact hr.imp (fun h => by nlinarith)

theorem sdefCards_eq (r z : List K) (L : K) (data : List K) (hr : r.Pairwise (· ≤ ·))
    (hne : r ≠ []) (hz : z.length = r.length) (hd : data.length = r.length) :
    sdefCards r z L data = .ok
      (closedCards (r.map (· * 100)) (z.map (· * 100)) (L * 100 / 2) data) := by
  have hR := scaled_sorted hr
  have hRne : r.map (· * 100) ≠ [] := by simpa using hne
  unfold sdefCards
  have hu := npUnique_ne_nil _ hRne
  simp only
  rw [verticalCards_eq _ _ _ _ hR hRne (by simp [hz]) (by simp [hd]),
    columns_sorted _ _ hR hRne (by simp [hd])]
  unfold rBounds closedCards
  simp only [List.getLast?_map]
  obtain ⟨b, hb⟩ : ∃ b, (npUnique (r.map (· * 100))).getLast? = some b :=
    ⟨_, List.getLast?_eq_some_getLast hu⟩
  rw [hb]
  have e : b - L * 100 / 2 + L * 100 = b + L * 100 / 2 := by ring
  simp only [Option.map_some, Option.getD_some, List.map_map, e]
  simp [ds4, bind, Except.bind, Function.comp_def]

theorem sdefBins_closed (R Z : List K) (h : K) (data : List K) (hR : R.Pairwise (· ≤ ·))
    (hne : R ≠ []) (hz : Z.length = R.length) (hd : data.length = R.length) :
    sdefBins (closedCards R Z h data) =
      (List.zip (npUnique R) (uppers h (npUnique R))).flatMap (fun e =>
        List.zipWith (fun (f : K × K) s => (⟨e.1 - h, e.2, f.1 - h, f.2,
            (atRadius R data e.1).sum / data.sum * (s / (atRadius R data e.1).sum)⟩ : SBin K))
          (List.zip (atRadius R Z e.1) (uppers h (atRadius R Z e.1))) (atRadius R data e.1)) := by
  have hu := npUnique_ne_nil _ hne
  unfold sdefBins
  simp only [closedCards]
  rw [histogram_eq h _ _ hu, sum_atRadius R data hR hd]
  set u := npUnique R with hu_def
  have hlen := length_uppers h u hu
  have hu_mem : ∀ ρ ∈ u, ρ ∈ R := fun ρ hρ => (mem_npUnique ρ R).1 hρ
  rw [List.flatMap_def, List.flatMap_def]
  congr 1
  apply List.ext_getElem
  · simp [hlen]
  · intro n h1 h2
    have hn : n < u.length := by simpa [hlen] using h1
    simp only [List.getElem_map, List.getElem_zip, List.getElem_zipWith, List.getElem_range]
    rw [find_number (fun _ ρ => ((atRadius R Z ρ).map (· - h) ++
      [((atRadius R Z ρ).getLast?).getD 0 + h], 0 :: atRadius R data ρ)) u 5 n _ (fun _ => rfl)]
    rw [List.getElem?_eq_getElem hn, Option.map_some]
    simp only
    rw [histogram_eq h _ _ (atRadius_ne_nil R Z hz _ (hu_mem _ (List.getElem_mem _)))]
    rw [List.map_zipWith]

end TNS
