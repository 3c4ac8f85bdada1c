import Verif.Lemmas.RoundedSdef
import Verif.Spec.RoundedSdef
import Verif.Props.RoundedOpenMC
import Verif.Props.RoundedSpace
import Verif.Props.SdefSource
/-
C89: the SDEF files are accurate although every number in them is computed with rounding.
-/

set_option autoImplicit false

namespace TNS
open Spec
noncomputable section

/-! ### Edges -/

section
variable {A : Arith} {u : ℝ} (hA : StandardModel A u) (hu : u ≤ 1 / 10 ^ 9)
include hA hu

theorem sdef_edges (x L : ℝ) (hL : 0 ≤ L) :
    |A.rd (A.rd (x * 100) - A.rd (A.rd (L * 100) / 2)) - 100 * (x - L / 2)| ≤ 4 * u * (100 * (|x| + L)) ∧
    |A.rd (A.rd (x * 100) + A.rd (A.rd (L * 100) / 2)) - 100 * (x + L / 2)| ≤ 4 * u * (100 * (|x| + L)) ∧
    |A.rd (A.rd (A.rd (x * 100) - A.rd (A.rd (L * 100) / 2)) + A.rd (L * 100)) - 100 * (x + L / 2)| ≤
      8 * u * (100 * (|x| + L)) := by
  have h0 := hA.u_nonneg
  have hu1 : u ≤ 1 / 8 := hu.trans (by norm_num)
  set B := 100 * (|x| + L) with hB
  have hx0 := abs_nonneg x
  have hB0 : 0 ≤ B := by positivity
  have r1 := hA.rel (x * 100)
  rw [abs_mul, abs_of_pos (by norm_num : (0 : ℝ) < 100)] at r1
  set a := A.rd (x * 100)
  have r2 := hA.rel (L * 100)
  rw [abs_of_nonneg (by positivity : (0 : ℝ) ≤ L * 100)] at r2
  set d := A.rd (L * 100)
  rw [abs_le] at r2
  have hd0 : 0 ≤ d := by nlinarith
  have r3 := hA.rel (d / 2)
  rw [abs_of_nonneg (by positivity : (0 : ℝ) ≤ d / 2)] at r3
  set h := A.rd (d / 2)
  have hxB : |x| * 100 + 100 * L = B := by rw [hB]; ring
  rw [abs_le] at r1 r3
  have hd : d ≤ 113 * L := by nlinarith
  have hh : |h - 50 * L| ≤ u * (107 * L) := by
    rw [abs_le]; constructor <;> nlinarith
  rw [abs_le] at hh
  have hh1 : -(64 * L) ≤ h ∧ h ≤ 64 * L := by constructor <;> nlinarith
  have hx1 := neg_abs_le x
  have hx2 := le_abs_self x
  have ha : -(113 * |x|) ≤ a ∧ a ≤ 113 * |x| := by constructor <;> nlinarith
  have hux : 0 ≤ u * |x| := by positivity
  have huL : 0 ≤ u * L := by positivity
  have huB : u * B = 100 * (u * |x|) + 100 * (u * L) := by rw [hB]; ring
  have gen : ∀ y y0 : ℝ, |y - y0| ≤ u * (100 * |x| + 107 * L) → |y| ≤ 113 * |x| + 64 * L →
      |A.rd y - y0| ≤ 4 * u * B := by
    intro y y0 h1 h2
    refine (rd_abs hA y y0 _ h1 _ h2).trans ?_
    nlinarith
  have e1 : |A.rd (a - h) - 100 * (x - L / 2)| ≤ 4 * u * B := by
    refine gen _ _ ?_ ?_
    · rw [abs_le]; constructor <;> nlinarith
    · rw [abs_le]; constructor <;> linarith [ha.1, ha.2, hh1.1, hh1.2]
  refine ⟨e1, ?_, ?_⟩
  · refine gen _ _ ?_ ?_
    · rw [abs_le]; constructor <;> nlinarith
    · rw [abs_le]; constructor <;> linarith [ha.1, ha.2, hh1.1, hh1.2]
  · rw [abs_le] at e1
    refine (rd_abs hA _ _ (4 * u * B + u * (100 * L)) ?_ (2 * B) ?_).trans ?_
    · rw [abs_le]; constructor <;> nlinarith
    · have hx3 : u * B ≤ B / 8 := by nlinarith
      rw [abs_le]; constructor <;> nlinarith
    · nlinarith

theorem edge_printed (φ : ℝ → ℝ) (hφ : ∀ x, |φ x - x| ≤ 5 / 10 ^ 6 * |x|) (L c e y : ℝ) (hL : 0 ≤ L)
    (hy : |y| ≤ |c| + L) (h : |e - 100 * y| ≤ 8 * u * (100 * (|c| + L))) : EdgeClose L c (φ e) y := by
  have h0 := hA.u_nonneg
  unfold EdgeClose
  set B := 100 * (|c| + L) with hB
  have hB0 : 0 ≤ B := by have := abs_nonneg c; positivity
  have hub : 8 * u * B ≤ 8 / 10 ^ 9 * B := by
    apply mul_le_mul_of_nonneg_right _ hB0
    linarith
  have he : |e| ≤ B + 8 / 10 ^ 9 * B := by
    calc |e| = |(e - 100 * y) + 100 * y| := by congr 1; ring
      _ ≤ |e - 100 * y| + |100 * y| := abs_add_le _ _
      _ ≤ 8 / 10 ^ 9 * B + B := by
        rw [abs_mul, abs_of_pos (by norm_num : (0 : ℝ) < 100)]
        linarith
      _ = _ := by ring
  calc |φ e - 100 * y| = |(φ e - e) + (e - 100 * y)| := by congr 1; ring
    _ ≤ |φ e - e| + |e - 100 * y| := abs_add_le _ _
    _ ≤ 5 / 10 ^ 6 * |e| + 8 / 10 ^ 9 * B := add_le_add (hφ e) (h.trans hub)
    _ ≤ _ := by nlinarith

/-! ### Probabilities -/

omit hu in
theorem printed_sum (φ : ℝ → ℝ) (hφ : ∀ x, |φ x - x| ≤ 5 / 10 ^ 6 * |x|) (l : List ℝ) (hl : ∀ x ∈ l, 0 ≤ x)
    (hn : 2 * (l.length : ℝ) * u ≤ 1 / 10 ^ 7) :
    |φ (A.npSum l) - l.sum| ≤ 511 / 10 ^ 8 * l.sum := by
  have h0 := hA.u_nonneg
  have hs := List.sum_nonneg hl
  have hnear := near_addsUp hA hA.npSum l hl
  have hle : ((l.length - 1 : ℕ) : ℝ) ≤ (l.length : ℝ) := by exact_mod_cast Nat.sub_le _ _
  have hk : ((l.length - 1 : ℕ) : ℝ) * u ≤ 1 / 10 ^ 7 / 2 := by
    have := mul_le_mul_of_nonneg_right hle h0
    linarith
  have hb := hnear.bound h0 hA.u_lt_one hs (hk.trans (by norm_num))
  have hb' : |A.npSum l - l.sum| ≤ 1 / 10 ^ 7 * l.sum := by
    refine hb.trans (mul_le_mul_of_nonneg_right ?_ hs)
    linarith
  have hp := hφ (A.npSum l)
  rw [abs_of_nonneg (hnear.nonneg h0 hA.u_lt_one hs)] at hp
  rw [abs_le] at *
  constructor <;> linarith [hp.1, hp.2, hb'.1, hb'.2]

end

theorem mul_close (a a' b b' α β : ℝ) (ha : 0 ≤ a) (hb : 0 ≤ b) (hα : 0 ≤ α) (h1 : |a' - a| ≤ α * a)
    (h2 : |b' - b| ≤ β * b) : |a' * b' - a * b| ≤ (α * β + β + α) * (a * b) := by
  have e : a' * b' - a * b = (a' - a) * (b' - b) + a * (b' - b) + (a' - a) * b := by ring
  have k1 : |(a' - a) * (b' - b)| ≤ α * a * (β * b) := by
    rw [abs_mul]; exact mul_le_mul h1 h2 (abs_nonneg _) (by positivity)
  have k2 : |a * (b' - b)| ≤ a * (β * b) := by
    rw [abs_mul, abs_of_nonneg ha]; exact mul_le_mul_of_nonneg_left h2 ha
  have k3 : |(a' - a) * b| ≤ α * a * b := by
    rw [abs_mul, abs_of_nonneg hb]; exact mul_le_mul_of_nonneg_right h1 hb
  rw [e]
  refine le_trans (abs_add_le _ _) (le_trans (add_le_add (abs_add_le _ _) le_rfl) ?_)
  nlinarith

theorem sum_close (l : List ℝ) (f g : ℝ → ℝ) (ε : ℝ) (h : ∀ x ∈ l, |f x - g x| ≤ ε * g x) :
    |(l.map f).sum - (l.map g).sum| ≤ ε * (l.map g).sum := by
  induction l with
  | nil => simp
  | cons a l ih =>
    have h1 := h a List.mem_cons_self
    have h2 := ih fun x hx => h x (List.mem_cons_of_mem _ hx)
    simp only [List.map_cons, List.sum_cons]
    rw [abs_le] at *
    constructor <;> nlinarith [h1.1, h1.2, h2.1, h2.2]

/-! ### Order of the cells -/

theorem spaced_sorted {s : Source ℝ} (h : CellsApart s) (hL : 0 < s.cellSideLength) (hz : s.z.length = s.x.length) :
    s.x.Pairwise (· ≤ ·) := by
  have e : s.x = (List.zip s.x s.z).map Prod.fst := (List.map_fst_zip (by omega)).symm
  rw [e, List.pairwise_map]
  refine List.Pairwise.imp ?_ h
  rintro p q (h | ⟨h, _⟩)
  · linarith
  · exact h.le

theorem spaced_gap {s : Source ℝ} (h : CellsApart s) (hL : 0 < s.cellSideLength) (hz : s.z.length = s.x.length) (a b : ℝ)
    (ha : a ∈ s.x) (hb : b ∈ s.x) (hab : a < b) : a + s.cellSideLength / 2 ≤ b := by
  obtain ⟨i, hi, rfl⟩ := List.mem_iff_getElem.1 ha
  obtain ⟨j, hj, rfl⟩ := List.mem_iff_getElem.1 hb
  have hp := List.pairwise_iff_getElem.1 h
  have hlen : (List.zip s.x s.z).length = s.x.length := by simp [hz]
  rcases lt_trichotomy i j with hij | hij | hij
  · have := hp i j (by omega) (by omega) hij
    simp only [List.getElem_zip] at this
    rcases this with h | ⟨h, _⟩
    · exact h
    · exact absurd h hab.ne
  · subst hij; exact absurd rfl hab.ne
  · have := hp j i (by omega) (by omega) hij
    simp only [List.getElem_zip] at this
    rcases this with h | ⟨h, _⟩
    · linarith
    · exact absurd h hab.ne'

theorem spaced_column {s : Source ℝ} (h : CellsApart s) (hL : 0 < s.cellSideLength) (ρ : ℝ) :
    (atRadius s.x s.z ρ).Pairwise (fun a b => a + s.cellSideLength / 2 ≤ b) := by
  unfold atRadius
  rw [List.pairwise_map]
  refine (h.filter _).imp_of_mem ?_
  intro p q hp hq h
  have h1 : p.1 = ρ := by simpa using (List.mem_filter.1 hp).2
  have h2 : q.1 = ρ := by simpa using (List.mem_filter.1 hq).2
  rcases h with h | ⟨_, h⟩
  · rw [h1, h2] at h; linarith
  · exact h

theorem pairwise_gap {l : List ℝ} {L : ℝ} (hL : 0 < L) (h : l.Pairwise (fun a b => a + L / 2 ≤ b)) (a b : ℝ)
    (ha : a ∈ l) (hb : b ∈ l) (hab : a < b) : a + L / 2 ≤ b := by
  obtain ⟨i, hi, rfl⟩ := List.mem_iff_getElem.1 ha
  obtain ⟨j, hj, rfl⟩ := List.mem_iff_getElem.1 hb
  have hp := List.pairwise_iff_getElem.1 h
  rcases lt_trichotomy i j with hij | hij | hij
  · exact hp i j hi hj hij
  · subst hij; exact absurd rfl hab.ne
  · have := hp j i hj hi hij
    linarith

/-! ### The files -/

theorem toSdefR_mem {A : Arith} {u : ℝ} (hA : StandardModel A u) {Q : Reaction → ℝ} (hQ : ∀ r, 0 < Q r) {j : ℕ}
    {s : Source ℝ} (hs : ReachableR A Q j s) (stub : String) (files : List (SdefFile ℝ))
    (hf : s.toSdefR A stub = .ok files) (f : SdefFile ℝ) (hfm : f ∈ files) :
    ∃ c, f.reaction ∈ s.sourceType ∧ f.reaction.isNeutronic = true ∧
      (∀ x ∈ strengths s f.reaction, 0 ≤ x) ∧ (strengths s f.reaction).length ≤ cells s ∧
      sdefCardsR A s.x s.z s.cellSideLength (strengths s f.reaction) = .ok c ∧
      f = { name := sdefFileName stub f.reaction, reaction := f.reaction, total := A.pySum (strengths s f.reaction)
            ionTemp := meanIonTempR A (strengths s f.reaction) s.temperature, cards := c } := by
  obtain ⟨F, g, w, hH, hi⟩ := reachableR_inv hA hQ hs
  obtain ⟨p, hpm, he⟩ := mapM_mem hf f hfm
  simp only [Bind.bind, Except.bind] at he
  split at he
  · cases he
  rename_i c hc
  cases he
  obtain ⟨hpm', hneu⟩ := List.mem_filter.1 hpm
  rw [hH.2.1] at hpm'
  obtain ⟨r, hr, rfl⟩ := List.mem_map.1 hpm'
  obtain ⟨i1, i2, -⟩ := hi r hr
  have hst : strengths s r = F r := by unfold strengths; rw [(hH.getD r hr).1]
  refine ⟨c, hr, hneu, ?_, ?_, ?_, ?_⟩
  · simp only [hst]; exact i1
  · simp only [hst]; exact i2
  · simp only [hst]; exact hc
  · simp only [hst]

/-- **C89.**  For a source computed with rounding and normalised any number of times: the text of every SDEF file,
whose numbers are computed with rounding as well and printed with six digits, read by the rules of MCNP input,
describes one bin for each cell, in the order of the cells.  Its edges are those of the cell to five digits of the
distance of the cell, no bin is empty, and its sampling probability differs from the share of the cell in the rate
of the reaction by at most 2.1e-5 of that share. -/
theorem C89_bins {A : Arith} {u : ℝ} (hA : StandardModel A u) (hu : u ≤ 1 / 10 ^ 9) {Q : Reaction → ℝ}
    (hQ : ∀ r, 0 < Q r) {j : ℕ} {s : Source ℝ} (hs : ReachableR A Q j s) (hw : CellWise s) (hsp : CellsApart s)
    (hL : 0 < s.cellSideLength) (hne : s.x ≠ [])
    (hres : ∀ c ∈ s.x ++ s.z, |c| + s.cellSideLength ≤ 40000 * s.cellSideLength)
    (hn : 2 * (cells s : ℝ) * u ≤ 1 / 10 ^ 7)
    (stub : String) (files : List (SdefFile ℝ)) (hf : s.toSdefR A stub = .ok files)
    (f : SdefFile ℝ) (hfm : f ∈ files) (r : Neutronic) (T : ℝ) (cit : Citation) (hc : CleanCitation cit)
    (hfT : f.ionTemp = .fin T) (hT : InRange (T / 1000)) (hp : Printable f.cards) :
    ∃ text c, sdefText cit r f = .ok text ∧ readSdef (readCards 128 text) = some c ∧
      f.reaction ∈ s.sourceType ∧
      List.Forall₂ (fun (q : ℝ × ℝ × ℝ) (b : SBin ℝ) =>
          BinAccurate s (strengths s f.reaction).sum q.1 q.2.1 q.2.2 b)
        (List.zip s.x (List.zip s.z (strengths s f.reaction))) (sdefBins c) := by
  have h0 := hA.u_nonneg
  obtain ⟨c, hr, -, hnn, hlen, hcards, hfeq⟩ := toSdefR_mem hA hQ hs stub files hf f hfm
  set L := s.cellSideLength with hLdef
  set data := strengths s f.reaction with hdata
  have hd : data.length = s.x.length := hw.strength _ hr
  have hsort := spaced_sorted hsp hL hw.z
  have hrx : ∀ a ∈ s.x, |a| + L ≤ 40000 * L := fun a ha => hres a (List.mem_append_left _ ha)
  have hrz : ∀ a ∈ s.z, |a| + L ≤ 40000 * L := fun a ha => hres a (List.mem_append_right _ ha)
  have hg : ∀ a ∈ s.x, ∀ b ∈ s.x, a < b → A.rd (a * 100) < A.rd (b * 100) := by
    intro a ha b hb hab
    have hgap := spaced_gap hsp hL hw.z a b ha hb hab
    have r1 := hA.rel (a * 100)
    have r2 := hA.rel (b * 100)
    rw [abs_mul, abs_of_pos (by norm_num : (0 : ℝ) < 100)] at r1 r2
    have b1 : u * (|a| * 100) ≤ 1 / 10 ^ 9 * (40000 * L * 100) :=
      mul_le_mul hu (by linarith [hrx a ha]) (by positivity) (by norm_num)
    have b2 : u * (|b| * 100) ≤ 1 / 10 ^ 9 * (40000 * L * 100) :=
      mul_le_mul hu (by linarith [hrx b hb]) (by positivity) (by norm_num)
    rw [abs_le] at r1 r2
    rw [← hLdef] at hgap
    linarith [r1.2, r2.1]
  have hcl := sdefCardsR_eq A s.x s.z L data hsort hne hw.z hd hg
  simp only at hcl
  rw [hcards] at hcl
  have hcl := Except.ok.inj hcl
  have hfc : f.cards = c := by rw [hfeq]
  -- the text
  have s5 : c.vertical.map (·.1) = c.ds4 := by
    rw [hcl]
    apply List.ext_getElem
    · simp [genCards]
    · intro n h1 h2; simp [genCards]
  have s6 : c.ds4.Nodup := by
    rw [hcl]
    simp only [genCards]
    exact List.nodup_range.map (fun a b h => by simpa using h)
  have s7 : ∀ n ∈ c.ds4, 5 ≤ n := by
    rw [hcl]
    intro n hn
    simp only [genCards, List.mem_map] at hn
    obtain ⟨i, -, rfl⟩ := hn
    omega
  obtain ⟨text, φ, ht, hφ, hmono, hread⟩ := C67_file cit hc r f T hfT hT hp (by rw [hfc]; exact s5)
    (by rw [hfc]; exact s6) (by rw [hfc]; exact s7)
  refine ⟨text, _, ht, hread, hr, ?_⟩
  have hφ0 : φ 0 = 0 := by have := hφ 0; simpa using this
  rw [hfc, hcl, mapNums_genCards φ hφ0]
  simp only [List.map_map]
  have hcolL : ∀ ρ, (atRadius s.x s.z ρ).Pairwise (fun a b => a + L / 2 ≤ b) := fun ρ => spaced_column hsp hL ρ
  have bins := genBins_cells s.x s.z data hsort hne hw.z hd
    (fun ρ _ => (hcolL ρ).imp (fun h => by linarith))
    (fun x => φ (A.rd (A.rd (x * 100) - A.rd (A.rd (L * 100) / 2))))
    (fun x => φ (A.rd (A.rd (A.rd (x * 100) - A.rd (A.rd (L * 100) / 2)) + A.rd (L * 100))))
    (fun x => φ (A.rd (A.rd (x * 100) - A.rd (A.rd (L * 100) / 2))))
    (fun x => φ (A.rd (A.rd (x * 100) + A.rd (A.rd (L * 100) / 2))))
    φ (fun ρ => φ (A.npSum (atRadius s.x data ρ)))
    (φ (A.rd (A.rd (A.rd (((npUnique s.x).getLast?).getD 0 * 100) - A.rd (A.rd (L * 100) / 2)) + A.rd (L * 100))))
    (fun a ha => by rw [ha]; rfl)
    (fun ρ => φ (A.rd (A.rd (((atRadius s.x s.z ρ).getLast?).getD 0 * 100) + A.rd (A.rd (L * 100) / 2))))
    (fun ρ _ a ha => by rw [ha]; rfl)
  have hmemz : ∀ {α β : Type} {R S : α → β → Prop} {l : List α} {l' : List β}, List.Forall₂ R l l' →
      (∀ a ∈ l, ∀ b, R a b → S a b) → List.Forall₂ S l l' := by
    intro α β R S l l' h hi
    induction h with
    | nil => exact .nil
    | cons h1 _ ih => exact .cons (hi _ List.mem_cons_self _ h1) (ih fun a ha => hi a (List.mem_cons_of_mem _ ha))
  refine hmemz bins ?_
  rintro ⟨x, z, σ⟩ hq b ⟨b1, b2, b3, b4, b5⟩
  simp only at b1 b2 b3 b4 b5 ⊢
  have hx : x ∈ s.x := (List.of_mem_zip hq).1
  have hzd : (z, σ) ∈ List.zip s.z data := (List.of_mem_zip hq).2
  have hz : z ∈ s.z := (List.of_mem_zip hzd).1
  have hσ : σ ∈ data := (List.of_mem_zip hzd).2
  have hlo : ∀ y : ℝ, EdgeClose L y (φ (A.rd (A.rd (y * 100) - A.rd (A.rd (L * 100) / 2)))) (y - L / 2) := by
    intro y
    have := (sdef_edges hA hu y L hL.le).1
    refine edge_printed hA hu φ hφ L y _ _ hL.le ?_ (this.trans ?_)
    · have := abs_sub y (L / 2); rw [abs_of_pos (by positivity : 0 < L / 2)] at this; linarith
    · have : 0 ≤ u * (100 * (|y| + L)) := by have := abs_nonneg y; positivity
      linarith
  have htop : ∀ y : ℝ, EdgeClose L y
      (φ (A.rd (A.rd (A.rd (y * 100) - A.rd (A.rd (L * 100) / 2)) + A.rd (L * 100)))) (y + L / 2) := by
    intro y
    refine edge_printed hA hu φ hφ L y _ _ hL.le ?_ (sdef_edges hA hu y L hL.le).2.2
    have := abs_add_le y (L / 2); rw [abs_of_pos (by positivity : 0 < L / 2)] at this; linarith
  have hztop : ∀ y : ℝ, EdgeClose L y (φ (A.rd (A.rd (y * 100) + A.rd (A.rd (L * 100) / 2)))) (y + L / 2) := by
    intro y
    refine edge_printed hA hu φ hφ L y _ _ hL.le ?_ ((sdef_edges hA hu y L hL.le).2.1.trans ?_)
    · have := abs_add_le y (L / 2); rw [abs_of_pos (by positivity : 0 < L / 2)] at this; linarith
    · have : 0 ≤ u * (100 * (|y| + L)) := by have := abs_nonneg y; positivity
      linarith
  have hcolmem : ∀ y, y ∈ atRadius s.x s.z x ↔ (x, y) ∈ List.zip s.x s.z := fun y => mem_atRadius _ _ _ _
  have hxz : (x, z) ∈ List.zip s.x s.z := by
    obtain ⟨n, hn', hn2⟩ := List.mem_iff_getElem.1 hq
    simp only [List.getElem_zip, Prod.mk.injEq] at hn2
    rw [List.mem_iff_getElem]
    refine ⟨n, by simp at hn' ⊢; omega, ?_⟩
    simp [hn2.1, hn2.2.1]
  have hxzs : ∀ y, (x, y) ∈ List.zip s.x s.z → y ∈ s.z := fun y h => (List.of_mem_zip h).2
  have A1 : EdgeClose L x b.rLo (x - L / 2) := by rw [b1]; exact hlo x
  have A2 : EdgeClose L z b.zLo (z - L / 2) := by rw [b2]; exact hlo z
  have A3 : (∃ x' ∈ s.x, x < x' ∧ (∀ y ∈ s.x, y ≤ x ∨ x' ≤ y) ∧ EdgeClose L x' b.rHi (x' - L / 2)) ∨
      ((∀ y ∈ s.x, y ≤ x) ∧ EdgeClose L x b.rHi (x + L / 2)) := by
    rcases b3 with ⟨x', hx', hlt, hbet, e⟩ | ⟨hall, e⟩
    · left
      refine ⟨x', (mem_npUnique _ _).1 hx', hlt, fun y hy => hbet y ((mem_npUnique _ _).2 hy), ?_⟩
      rw [e]; exact hlo x'
    · right
      refine ⟨fun y hy => hall y ((mem_npUnique _ _).2 hy), ?_⟩
      rw [e]; exact htop x
  have A4 : (∃ z', (x, z') ∈ List.zip s.x s.z ∧ z < z' ∧ (∀ y, (x, y) ∈ List.zip s.x s.z → y ≤ z ∨ z' ≤ y) ∧
      EdgeClose L z' b.zHi (z' - L / 2)) ∨
      ((∀ y, (x, y) ∈ List.zip s.x s.z → y ≤ z) ∧ EdgeClose L z b.zHi (z + L / 2)) := by
    rcases b4 with ⟨z', hz', hlt, hbet, e⟩ | ⟨hall, e⟩
    · left
      refine ⟨z', (hcolmem z').1 hz', hlt, fun y hy => hbet y ((hcolmem y).2 hy), ?_⟩
      rw [e]; exact hlo z'
    · right
      refine ⟨fun y hy => hall y ((hcolmem y).2 hy), ?_⟩
      rw [e]; exact hztop z
  have wide : ∀ (c c' e e' y y' : ℝ), |c| + L ≤ 40000 * L → |c'| + L ≤ 40000 * L → EdgeClose L c e y →
      EdgeClose L c' e' y' → y + L / 2 ≤ y' → e < e' := by
    intro c c' e e' y y' h1 h2 h3 h4 h5
    unfold EdgeClose at h3 h4
    rw [abs_le] at h3 h4
    linarith [h3.2, h4.1]
  refine ⟨A1, A2, A3, A4, ⟨?_, ?_⟩, ?_⟩
  · rcases A3 with ⟨x', hx', hlt, -, e⟩ | ⟨-, e⟩
    · have hgap := spaced_gap hsp hL hw.z x x' hx hx' hlt
      exact wide _ _ _ _ _ _ (hrx x hx) (hrx x' hx') A1 e (by rw [← hLdef] at hgap; linarith)
    · exact wide _ _ _ _ _ _ (hrx x hx) (hrx x hx) A1 e (by linarith)
  · rcases A4 with ⟨z', hz', hlt, -, e⟩ | ⟨-, e⟩
    · have hgap := pairwise_gap hL (hcolL x) z z' ((hcolmem z).2 hxz) ((hcolmem z').2 hz') hlt
      exact wide _ _ _ _ _ _ (hrz z hz) (hrz z' (hxzs z' hz')) A2 e (by linarith)
    · exact wide _ _ _ _ _ _ (hrz z hz) (hrz z hz) A2 e (by linarith)
  · -- probability
    have hat : ∀ ρ, ∀ y ∈ atRadius s.x data ρ, 0 ≤ y := fun ρ y hy =>
      hnn y (List.of_mem_zip ((mem_atRadius _ _ _ _).1 hy)).2
    have hlenat : ∀ ρ, 2 * ((atRadius s.x data ρ).length : ℝ) * u ≤ 1 / 10 ^ 7 := by
      intro ρ
      have h1 : (atRadius s.x data ρ).length ≤ cells s := by
        unfold atRadius
        rw [List.length_map]
        refine (List.length_filter_le _ _).trans ?_
        rw [List.length_zip]
        exact (min_le_right _ _).trans hlen
      have h2 : ((atRadius s.x data ρ).length : ℝ) ≤ (cells s : ℝ) := by exact_mod_cast h1
      have := mul_le_mul_of_nonneg_right h2 h0
      linarith
    have hσat : σ ∈ atRadius s.x data x := by
      rw [mem_atRadius]
      obtain ⟨n, hn', hn2⟩ := List.mem_iff_getElem.1 hq
      simp only [List.getElem_zip, Prod.mk.injEq] at hn2
      rw [List.mem_iff_getElem]
      refine ⟨n, by simp at hn' ⊢; omega, ?_⟩
      simp [hn2.1, hn2.2.2]
    have tot := sum_atRadius s.x data hsort hd
    have w1 := printed_sum hA φ hφ (atRadius s.x data x) (hat x) (hlenat x)
    have w2 := sum_close (npUnique s.x) (fun ρ => φ (A.npSum (atRadius s.x data ρ)))
      (fun ρ => (atRadius s.x data ρ).sum) (511 / 10 ^ 8) (fun ρ _ => printed_sum hA φ hφ _ (hat ρ) (hlenat ρ))
    rw [tot] at w2
    have q1 := quot_round _ _ _ _ (511 / 10 ^ 8) (by norm_num) (by norm_num) (List.sum_nonneg (hat x))
      (List.sum_nonneg hnn) w1 w2
    have v1 := hφ σ
    rw [abs_of_nonneg (hnn σ hσ)] at v1
    have v2 := sum_round φ _ hφ (atRadius s.x data x) (hat x)
    have q2 := quot_round _ _ _ _ (5 / 10 ^ 6) (by norm_num) (by norm_num) (hnn σ hσ)
      (List.sum_nonneg (hat x)) v1 v2
    have q3 := mul_close _ _ _ _ _ _ (div_nonneg (List.sum_nonneg (hat x)) (List.sum_nonneg hnn))
      (div_nonneg (hnn σ hσ) (List.sum_nonneg (hat x))) (by norm_num) q1 q2
    rw [cell_prob _ (hat x) _ _ hσat] at q3
    rw [b5]
    refine q3.trans (mul_le_mul_of_nonneg_right (by norm_num) (div_nonneg (hnn σ hσ) (List.sum_nonneg hnn)))

/-- **C89**, which files: the export succeeds for every non-empty source and writes one file for each neutronic
reaction of the source, in order. -/
theorem C89_files {A : Arith} {u : ℝ} (hA : StandardModel A u) {Q : Reaction → ℝ} (hQ : ∀ r, 0 < Q r) {j : ℕ}
    {s : Source ℝ} (hs : ReachableR A Q j s) (hne : s.x ≠ []) (stub : String) :
    ∃ files, s.toSdefR A stub = .ok files ∧
      files.map SdefFile.reaction = s.sourceType.filter (fun r => decide (0 < neutronYield r)) ∧
      ∀ f ∈ files, f.name = sdefFileName stub f.reaction := by
  obtain ⟨F, g, w, hH, hi⟩ := reachableR_inv hA hQ hs
  have hb : ∀ d h, ∃ b, rBoundsR A (s.x.map fun x => A.rd (x * 100)) d h = .ok b := by
    intro d h
    have hu := npUnique_ne_nil (s.x.map fun x => A.rd (x * 100)) (by simpa using hne)
    unfold rBoundsR
    simp only [List.getLast?_map]
    rw [List.getLast?_eq_some_getLast hu]
    exact ⟨_, rfl⟩
  have hc : ∀ data, ∃ c, sdefCardsR A s.x s.z s.cellSideLength data = .ok c := by
    intro data
    obtain ⟨b, hb⟩ := hb (A.rd (A.rd (s.cellSideLength * 100) / 2)) (A.rd (s.cellSideLength * 100))
    unfold sdefCardsR
    simp only [hb, Bind.bind, Except.bind]
    exact ⟨_, rfl⟩
  have hn : ∀ r : Reaction, r.isNeutronic = decide (0 < neutronYield r) := by
    intro r
    match r with
    | .n .D_T | .n .D_D | .n .T_T | .a .D_D | .a .D_He3 => rfl
  unfold Source.toSdefR
  rw [hH.2.1]
  generalize s.sourceType = st
  induction st with
  | nil => exact ⟨[], rfl, rfl, by simp⟩
  | cons r st ih =>
    obtain ⟨files, h1, h2, h3⟩ := ih
    obtain ⟨c, hc⟩ := hc (F r)
    rw [List.map_cons, List.filter_cons, List.filter_cons]
    by_cases h : r.isNeutronic = true
    · rw [if_pos (by simpa using h), if_pos (by rw [← hn]; exact h), List.mapM_cons]
      simp only [Bind.bind, Except.bind] at h1
      simp only [hc, h1, Bind.bind, Except.bind]
      refine ⟨_, rfl, ?_, ?_⟩
      · rw [List.map_cons, h2]
      · intro f hf
        rcases List.mem_cons.1 hf with rfl | hf
        · rfl
        · exact h3 f hf
    · rw [if_neg (by simpa using h), if_neg (by rw [← hn]; exact h)]
      exact ⟨files, h1, h2, h3⟩

/-- **C89**, header: the total of the header is the sum of the strengths, and the ion temperature of the energy card
the strength-weighted mean of the cell temperatures, up to four roundings per cell. -/
theorem C89_header {A : Arith} {u : ℝ} (hA : StandardModel A u) {Q : Reaction → ℝ} (hQ : ∀ r, 0 < Q r) {j : ℕ}
    {s : Source ℝ} (hs : ReachableR A Q j s) (hw : CellWise s) (htemp : ∀ t ∈ s.temperature, 0 ≤ t)
    (hn : 4 * (cells s : ℝ) * u ≤ 1)
    (stub : String) (files : List (SdefFile ℝ)) (hf : s.toSdefR A stub = .ok files)
    (f : SdefFile ℝ) (hfm : f ∈ files) (hpos : 0 < (strengths s f.reaction).sum) :
    RelClose (4 * (cells s : ℝ) * u) f.total (strengths s f.reaction).sum ∧
    ∃ T, f.ionTemp = .fin T ∧ RelClose (4 * (cells s : ℝ) * u) T
      ((List.zipWith (· * ·) (strengths s f.reaction) s.temperature).sum / (strengths s f.reaction).sum) := by
  have h0 := hA.u_nonneg
  have h1 := hA.u_lt_one
  obtain ⟨c, hr, -, hnn, hlen, -, hfeq⟩ := toSdefR_mem hA hQ hs stub files hf f hfm
  set data := strengths s f.reaction with hdata
  have hd : data.length = s.x.length := hw.strength _ hr
  have hcells : cells s = data.length := by unfold cells; rw [hw.volume, hd]
  have hdne : 0 < data.length := by
    rcases Nat.eq_zero_or_pos data.length with h | h
    · rw [List.length_eq_zero_iff.1 h] at hpos; simp at hpos
    · exact h
  have hk : ((data.length - 1 : ℕ) : ℝ) ≤ (cells s : ℝ) := by
    rw [hcells]; exact_mod_cast Nat.sub_le _ _
  constructor
  · have hfac := within_pySum hA data hnn
    have := hfac.bound h0 h1 hpos.le (by
      have := mul_le_mul_of_nonneg_right hk h0
      linarith)
    have e : f.total = A.pySum data := by rw [hfeq]
    rw [e]
    refine this.trans (mul_le_mul_of_nonneg_right ?_ hpos.le)
    have := mul_le_mul_of_nonneg_right hk h0
    have h3 : 0 ≤ (cells s : ℝ) * u := by positivity
    linarith
  · have hden := (near_addsUp hA hA.npSum data hnn).factors h0 h1 hpos.le
    have hdp := hden.pos h1 hpos
    have e : f.ionTemp = .fin (A.rd (A.npSum (List.zipWith (fun a b => A.rd (a * b)) data s.temperature) /
        A.npSum data)) := by
      rw [hfeq]
      unfold meanIonTempR
      simp only [if_neg hdp.ne']
    refine ⟨_, e, ?_⟩
    have hlt : data.length = s.temperature.length := by rw [hd, hw.temperature]
    have hz1 : List.zipWith (fun a b => A.rd (a * b)) data s.temperature =
        (List.zip data s.temperature).map (fun p => A.rd (p.1 * p.2)) := by
      rw [List.zip, List.map_zipWith]
    have hz2 : List.zipWith (fun a b => a * b) data s.temperature =
        (List.zip data s.temperature).map (fun p => p.1 * p.2) := by
      rw [List.zip, List.map_zipWith]
    have hp0 : ∀ p ∈ List.zip data s.temperature, 0 ≤ p.1 * p.2 := fun p hp =>
      mul_nonneg (hnn _ (List.of_mem_zip hp).1) (htemp _ (List.of_mem_zip hp).2)
    have n1 : ∀ y ∈ (List.zip data s.temperature).map (fun p => A.rd (p.1 * p.2)), 0 ≤ y := by
      intro y hy
      obtain ⟨p, hp, rfl⟩ := List.mem_map.1 hy
      exact rd_nonneg hA (hp0 p hp)
    have n2 : 0 ≤ ((List.zip data s.temperature).map (fun p => p.1 * p.2)).sum := by
      apply List.sum_nonneg
      intro y hy
      obtain ⟨p, hp, rfl⟩ := List.mem_map.1 hy
      exact hp0 p hp
    have f1 := (near_addsUp hA hA.npSum _ n1).factors h0 h1 (List.sum_nonneg n1)
    have f2 := Factors.sum (u := u) (k := 1) (List.zip data s.temperature) (fun p => A.rd (p.1 * p.2))
      (fun p => p.1 * p.2) (fun p hp => within_rd hA (hp0 p hp))
    have f3 := f1.trans h1 f2
    have f4 := f3.div h0 h1 hden n2 hdp hpos
    have hq : 0 ≤ ((List.zip data s.temperature).map (fun p => p.1 * p.2)).sum / data.sum := div_nonneg n2 hpos.le
    have f5 := (within_rd hA (f4.nonneg h1 hq)).trans h1 f4
    have hl : ((List.zip data s.temperature).map (fun p => A.rd (p.1 * p.2))).length = data.length := by
      simp [← hlt]
    rw [hl] at f5
    have ek : 1 + (data.length - 1 + 1 + (data.length - 1)) = 2 * data.length := by omega
    rw [ek] at f5
    have hb := f5.bound h0 h1 hq (by push_cast; rw [hcells] at hn; linarith)
    rw [hz1]
    change |_ - (List.zipWith (fun a b => a * b) data s.temperature).sum / _| ≤ _ * (_ / _)
    rw [hz2]
    refine hb.trans (le_of_eq ?_)
    rw [hcells]; push_cast; ring

/-- **C89**, the spacing: cells sampled with rounding are spaced as C89 needs, whenever the grid is resolved by the
arithmetic (C79). -/
theorem C89_sampled (A : Arith) (u pi : ℝ) (pts : List (ℝ × ℝ)) (oX oZ L M : ℝ) (h : Resolved A u pts oX oZ L M)
    (s : Source ℝ) (hx : s.x = (sampleSpace2dR A pi pts oX oZ L).x) (hz : s.z = (sampleSpace2dR A pi pts oX oZ L).z)
    (hL : s.cellSideLength = L) : CellsApart s := by
  obtain ⟨k, k', n, n', g, g', e1, e2, e3, -⟩ := rounded_grid A u pts oX oZ L M h
  have hzip : List.zip s.x s.z = samplePointsR A pts oX oZ L := by
    rw [hx, hz]
    simp only [sampleSpace2dR]
    rw [List.zip_map']
    simp
  unfold CellsApart
  rw [hzip, hL, e1]
  have gapL : ∀ (o : ℝ) (g : ℕ → ℝ) (k : ℤ) (n : ℕ), (∀ i : ℕ, i < n → |g i - (o + L * ((i : ℝ) - k))| ≤ gridTol u M L) →
      ((List.range n).map g).Pairwise (fun a b => a + L / 2 ≤ b) := by
    intro o g k n hg
    rw [List.pairwise_map]
    refine List.pairwise_lt_range.imp_of_mem ?_
    intro a b ha hb hab
    have i1 := abs_le.1 (hg a (List.mem_range.1 ha))
    have i2 := abs_le.1 (hg b (List.mem_range.1 hb))
    have i3 : (a : ℝ) + 1 ≤ b := by exact_mod_cast hab
    have i4 := mul_le_mul_of_nonneg_left i3 h.side.le
    have := h.resolved
    linarith [i1.2, i2.1]
  refine List.Pairwise.filter _ ?_
  unfold meshPoints
  rw [List.pairwise_flatMap]
  refine ⟨fun x _ => ?_, ?_⟩
  · rw [List.pairwise_map]
    exact (gapL oZ g' k' n' e3).imp (fun h => Or.inr ⟨rfl, h⟩)
  · refine (gapL oX g k n e2).imp ?_
    intro a b hab p hp q hq
    obtain ⟨_, _, rfl⟩ := List.mem_map.1 hp
    obtain ⟨_, _, rfl⟩ := List.mem_map.1 hq
    exact Or.inl hab

/-- **C89**.  Without rounding the numbers are those of `Verif.Model.Mcnp`, to which C23-C30 apply. -/
theorem C89_exact (stub : String) (s : Source ℝ) : s.toSdefR exactArith stub = s.toSdef stub := by
  have e1 : ∀ data, sdefCardsR exactArith s.x s.z s.cellSideLength data =
      sdefCards s.x s.z s.cellSideLength data := by
    intro data
    have r : ∀ (l : List ℝ) (dr : ℝ), rBoundsR exactArith l (dr / 2) dr = rBounds l dr := by
      intro l dr
      unfold rBoundsR rBounds
      simp only [exactArith, id]
      cases ((npUnique l).map (fun x => x - dr / 2)).getLast? <;> rfl
    unfold sdefCardsR sdefCards
    change (do
      let bounds ← rBoundsR exactArith (s.x.map (· * 100)) (s.cellSideLength * 100 / 2) (s.cellSideLength * 100)
      _) = _
    rw [r]
    rfl
  have e2 : ∀ data, meanIonTempR exactArith data s.temperature = meanIonTemp data s.temperature := by
    intro data
    unfold meanIonTempR meanIonTemp
    by_cases h : exactArith.npSum data = 0
    · simp only [if_pos h]
      rw [show data.sum = 0 from h]
      rfl
    · simp only [if_neg h]
      rw [XF.fin_div _ _ (show data.sum ≠ 0 from h)]
      rfl
  unfold Source.toSdefR Source.toSdef
  simp only [e1, e2]
  rfl

/-- **C89** in binary64 arithmetic, for up to four hundred million cells. -/
theorem C89_binary64 {Q : Reaction → ℝ} (hQ : ∀ r, 0 < Q r) {j : ℕ} {s : Source ℝ}
    (hs : ReachableR binary64 Q j s) (hw : CellWise s) (hsp : CellsApart s)
    (hL : 0 < s.cellSideLength) (hne : s.x ≠ [])
    (hres : ∀ c ∈ s.x ++ s.z, |c| + s.cellSideLength ≤ 40000 * s.cellSideLength)
    (hn : cells s ≤ 400000000)
    (stub : String) (files : List (SdefFile ℝ)) (hf : s.toSdefR binary64 stub = .ok files)
    (f : SdefFile ℝ) (hfm : f ∈ files) (r : Neutronic) (T : ℝ) (cit : Citation) (hc : CleanCitation cit)
    (hfT : f.ionTemp = .fin T) (hT : InRange (T / 1000)) (hp : Printable f.cards) :
    ∃ text c, sdefText cit r f = .ok text ∧ readSdef (readCards 128 text) = some c ∧
      f.reaction ∈ s.sourceType ∧
      List.Forall₂ (fun (q : ℝ × ℝ × ℝ) (b : SBin ℝ) =>
          BinAccurate s (strengths s f.reaction).sum q.1 q.2.1 q.2.2 b)
        (List.zip s.x (List.zip s.z (strengths s f.reaction))) (sdefBins c) := by
  refine C89_bins C74_binary64 (by rw [zpow_neg]; norm_num) hQ hs hw hsp hL hne hres ?_ stub files hf f hfm r T cit hc
    hfT hT hp
  have : (cells s : ℝ) ≤ 400000000 := by exact_mod_cast hn
  rw [zpow_neg]
  norm_num
  linarith

namespace Ex

theorem initR_srcR : Source.initR exactArith [.DT] [2, 3] [0, 0] [12, 18] [2, 3] [2, 2] [3, 3] [0, 0] 1
    (fun _ => [1, 1]) = srcR := by
  simp only [Source.initR, List.foldl_cons, List.foldl_nil, Source.addReactionR, strengthR, pairDensityR, Reaction.DT,
    exactArith, id, List.zipWith_cons_cons, List.zipWith_nil_left, Dict.set, srcR]
  norm_num [Reaction.numNeutrons]

/-- The hypotheses of C89 hold of a source with two cells and the citation file of the repository. -/
example : ∃ text c, sdefText citation .D_T fileR = .ok text ∧ readSdef (readCards 128 text) = some c ∧
    (sdefBins c).length = 2 := by
  have hp : parseSourceType (.list [.member .DT]) = .ok [.DT] := by
    have e : finishSourceType [Reaction.DT] = [Reaction.DT] := by rw [finish_eq_filter]; decide
    change Except.ok (finishSourceType [Reaction.DT]) = _
    rw [e]
  have hr := ReachableR.constructed (A := exactArith) (Q := fun _ => 3) _ _ hp [2, 3] [0, 0] [12, 18] [2, 3] [2, 2]
    [3, 3] [0, 0] 1 (fun _ => [1, 1]) (by simp) (by simp) (by simp) (by simp) (by simp)
  rw [initR_srcR] at hr
  have hstr : strengths srcR .DT = [72, 108] := by simp [strengths, srcR, Dict.getD, Dict.get?]
  have hw : CellWise srcR := by
    refine ⟨rfl, rfl, rfl, ?_⟩
    intro r hr
    have : r = .DT := by simpa [srcR] using hr
    rw [this, hstr]; rfl
  have hsp : CellsApart srcR := by
    unfold CellsApart
    simp [srcR]
    norm_num
  obtain ⟨text, c, h1, h2, -, h4⟩ := C89_bins (C74_exact (fun _ => 3) 1 srcR).1 (by norm_num) (fun _ => by norm_num)
    hr hw hsp (by norm_num [srcR]) (by simp [srcR]) (by
      intro a ha
      simp only [srcR, List.cons_append, List.nil_append, List.mem_cons, List.not_mem_nil, or_false] at ha ⊢
      rcases ha with rfl | rfl | rfl | rfl <;> norm_num) (by norm_num) "out" [fileR]
    (by rw [C89_exact]; exact sdefR) fileR (by simp) .D_T (13 / 5) citation citation_clean rfl
    (rangeR _ (by norm_num) (by norm_num)) printableR
  refine ⟨text, c, h1, h2, ?_⟩
  rw [← h4.length_eq, show fileR.reaction = .DT from rfl, hstr]
  simp [srcR]

end Ex
end
end TNS
