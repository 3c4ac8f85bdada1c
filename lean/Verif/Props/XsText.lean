import Verif.Props.Genfromtxt
import Verif.Data.Chars
/-
C88: the text of the cross-section files of the package gives the tables of `Verif.Data.CrossSections`.
-/

set_option autoImplicit false
set_option maxRecDepth 100000

namespace TNS
open Spec

/-- The number is `n` in units of `10^-k`. -/
def decFix (k : ℕ) (p : ℤ × ℤ) (n : ℕ) : Bool :=
  decide (0 ≤ p.2 + k) && decide (p.1 * 10 ^ (p.2 + k).toNat = (n : ℤ))

/-- The line is the given row of the table. -/
def checkRow (c : List Char) (r : ℕ × ℕ) : Bool :=
  match (splitLine c).map pyFloat with
  | [some a, some b] => decFix 12 a r.1 && decFix 50 b r.2
  | _ => false

/-- The lines are the given rows. -/
def checkRows : List (List Char) → List (ℕ × ℕ) → Bool
  | [], [] => true
  | c :: cs, r :: rs => checkRow c r && checkRows cs rs
  | _, _ => false

/-- A row of the table in MeV and barn. -/
noncomputable def rowVal (p : ℕ × ℕ) : ℝ × ℝ := ((p.1 : ℝ) / 10 ^ 12, (p.2 : ℝ) / 10 ^ 50)

theorem decFix_val {k : ℕ} {p : ℤ × ℤ} {n : ℕ} (h : decFix k p n = true) : decVal p = (n : ℝ) / 10 ^ k := by
  unfold decFix at h
  simp only [Bool.and_eq_true, decide_eq_true_eq] at h
  obtain ⟨h1, h2⟩ := h
  have h3 : (p.1 : ℝ) * 10 ^ (p.2 + k).toNat = (n : ℝ) := by exact_mod_cast h2
  have h4 : ((p.2 + k).toNat : ℤ) = p.2 + k := Int.toNat_of_nonneg h1
  rw [← h3, ← zpow_natCast, h4, zpow_add₀ (by norm_num), zpow_natCast, decVal]
  field_simp

theorem checkRow_read {c : List Char} {r : ℕ × ℕ} (h : checkRow c r = true) : RowRead c (rowVal r) := by
  unfold checkRow at h
  split at h
  · rename_i a b e
    rw [Bool.and_eq_true] at h
    exact ⟨a, b, e, decFix_val h.1, decFix_val h.2⟩
  · simp at h

theorem checkRows_read {cs : List (List Char)} {rs : List (ℕ × ℕ)} (h : checkRows cs rs = true) :
    List.Forall₂ RowRead cs (rs.map rowVal) := by
  induction cs generalizing rs with
  | nil =>
    cases rs with
    | nil => exact .nil
    | cons _ _ => simp [checkRows] at h
  | cons c cs ih =>
    cases rs with
    | nil => simp [checkRows] at h
    | cons r rs =>
      rw [checkRows, Bool.and_eq_true] at h
      exact .cons (checkRow_read h.1) (ih h.2)

theorem chunk {ls : List String} {cs : List (List Char)} (h : ls.map String.toList = cs) (rs : List (ℕ × ℕ))
    (hc : checkRows cs rs = true) : List.Forall₂ RowRead (ls.map String.toList) (rs.map rowVal) := by
  rw [h]; exact checkRows_read hc

/-- Lines without values. -/
def blankLines (cs : List (List Char)) : Bool := cs.all (fun c => (splitLine c).isEmpty)

theorem blank {ls : List String} {cs : List (List Char)} (h : ls.map String.toList = cs) (hc : blankLines cs = true) :
    ∀ l ∈ ls.map String.toList, splitLine l = [] := by
  rw [h]
  intro l hl
  have := List.all_eq_true.1 hc l hl
  simpa using this

/-- The marker and the lines after it. -/
def endLines : List (List Char) → Bool
  | [] => false
  | m :: t => decide ((splitLine m).length = 1) && blankLines t

theorem ending {ls : List String} {cs : List (List Char)} (h : ls.map String.toList = cs) (hc : endLines cs = true) :
    ∃ m t, ls.map String.toList = m :: t ∧ (splitLine m).length = 1 ∧ ∀ l ∈ t, splitLine l = [] := by
  rw [h]
  cases cs with
  | nil => simp [endLines] at hc
  | cons m t =>
    rw [endLines, Bool.and_eq_true, decide_eq_true_eq] at hc
    refine ⟨m, t, rfl, hc.1, fun l hl => ?_⟩
    have := List.all_eq_true.1 hc.2 l hl
    simpa using this

theorem whole (hd dat en : List String) (rs : List (ℕ × ℕ)) (h1 : ∀ l ∈ hd.map String.toList, splitLine l = [])
    (h2 : List.Forall₂ RowRead (dat.map String.toList) (rs.map rowVal)) (hl : 3 ≤ rs.length)
    (h3 : ∃ m t, en.map String.toList = m :: t ∧ (splitLine m).length = 1 ∧ ∀ l ∈ t, splitLine l = []) :
    readXs ((hd ++ dat ++ en).map String.toList) = .ok (genfromtxt rs) := by
  obtain ⟨m, t, e, h4, h5⟩ := h3
  rw [List.map_append, List.map_append, e]
  have := readXs_layout (hd.map String.toList) (dat.map String.toList) t m (rs.map rowVal) h1 h2 (by simpa using hl) h4 h5
  rw [List.append_assoc] at this ⊢
  rw [List.append_assoc, List.singleton_append] at this
  rw [this, genfromtxt, List.map_dropLast]
  rfl

theorem join {a b : List String} {ra rb : List (ℕ × ℕ)}
    (h : List.Forall₂ RowRead (a.map String.toList) (ra.map rowVal))
    (h' : List.Forall₂ RowRead (b.map String.toList) (rb.map rowVal)) :
    List.Forall₂ RowRead ((a ++ b).map String.toList) ((ra ++ rb).map rowVal) := by
  rw [List.map_append, List.map_append]; exact List.rel_append h h'

theorem dt_chunk0 : List.Forall₂ RowRead (Data.dtText0.map String.toList) (Data.dtRows0.map rowVal) :=
  chunk (chars_of% Data.dtText0) Data.dtRows0 (by decide +kernel)

theorem dt_chunk1 : List.Forall₂ RowRead (Data.dtText1.map String.toList) (Data.dtRows1.map rowVal) :=
  chunk (chars_of% Data.dtText1) Data.dtRows1 (by decide +kernel)

theorem dt_chunk2 : List.Forall₂ RowRead (Data.dtText2.map String.toList) (Data.dtRows2.map rowVal) :=
  chunk (chars_of% Data.dtText2) Data.dtRows2 (by decide +kernel)

theorem dt_chunk3 : List.Forall₂ RowRead (Data.dtText3.map String.toList) (Data.dtRows3.map rowVal) :=
  chunk (chars_of% Data.dtText3) Data.dtRows3 (by decide +kernel)

theorem dt_chunk4 : List.Forall₂ RowRead (Data.dtText4.map String.toList) (Data.dtRows4.map rowVal) :=
  chunk (chars_of% Data.dtText4) Data.dtRows4 (by decide +kernel)

theorem dt_chunk5 : List.Forall₂ RowRead (Data.dtText5.map String.toList) (Data.dtRows5.map rowVal) :=
  chunk (chars_of% Data.dtText5) Data.dtRows5 (by decide +kernel)

theorem dt_chunk6 : List.Forall₂ RowRead (Data.dtText6.map String.toList) (Data.dtRows6.map rowVal) :=
  chunk (chars_of% Data.dtText6) Data.dtRows6 (by decide +kernel)

theorem dt_chunk7 : List.Forall₂ RowRead (Data.dtText7.map String.toList) (Data.dtRows7.map rowVal) :=
  chunk (chars_of% Data.dtText7) Data.dtRows7 (by decide +kernel)

theorem dt_chunk8 : List.Forall₂ RowRead (Data.dtText8.map String.toList) (Data.dtRows8.map rowVal) :=
  chunk (chars_of% Data.dtText8) Data.dtRows8 (by decide +kernel)

theorem dt_chunk9 : List.Forall₂ RowRead (Data.dtText9.map String.toList) (Data.dtRows9.map rowVal) :=
  chunk (chars_of% Data.dtText9) Data.dtRows9 (by decide +kernel)

theorem dt_chunk10 : List.Forall₂ RowRead (Data.dtText10.map String.toList) (Data.dtRows10.map rowVal) :=
  chunk (chars_of% Data.dtText10) Data.dtRows10 (by decide +kernel)

theorem dt_chunk11 : List.Forall₂ RowRead (Data.dtText11.map String.toList) (Data.dtRows11.map rowVal) :=
  chunk (chars_of% Data.dtText11) Data.dtRows11 (by decide +kernel)

theorem dt_chunk12 : List.Forall₂ RowRead (Data.dtText12.map String.toList) (Data.dtRows12.map rowVal) :=
  chunk (chars_of% Data.dtText12) Data.dtRows12 (by decide +kernel)

theorem dt_chunk13 : List.Forall₂ RowRead (Data.dtText13.map String.toList) (Data.dtRows13.map rowVal) :=
  chunk (chars_of% Data.dtText13) Data.dtRows13 (by decide +kernel)

theorem dt_chunk14 : List.Forall₂ RowRead (Data.dtText14.map String.toList) (Data.dtRows14.map rowVal) :=
  chunk (chars_of% Data.dtText14) Data.dtRows14 (by decide +kernel)

theorem dt_chunk15 : List.Forall₂ RowRead (Data.dtText15.map String.toList) (Data.dtRows15.map rowVal) :=
  chunk (chars_of% Data.dtText15) Data.dtRows15 (by decide +kernel)

theorem dt_lines : List.Forall₂ RowRead ((Data.dtText0 ++ Data.dtText1 ++ Data.dtText2 ++ Data.dtText3 ++ Data.dtText4 ++ Data.dtText5 ++ Data.dtText6 ++ Data.dtText7 ++ Data.dtText8 ++ Data.dtText9 ++ Data.dtText10 ++ Data.dtText11 ++ Data.dtText12 ++ Data.dtText13 ++ Data.dtText14 ++ Data.dtText15).map String.toList)
    (Data.dtRows.map rowVal) :=
  (join (join (join (join (join (join (join (join (join (join (join (join (join (join (join dt_chunk0 dt_chunk1) dt_chunk2) dt_chunk3) dt_chunk4) dt_chunk5) dt_chunk6) dt_chunk7) dt_chunk8) dt_chunk9) dt_chunk10) dt_chunk11) dt_chunk12) dt_chunk13) dt_chunk14) dt_chunk15)

theorem dt_text : readXs (Data.dtText.map String.toList) = .ok (genfromtxt Data.dtRows) := by
  have h := whole Data.dtTextH (Data.dtText0 ++ Data.dtText1 ++ Data.dtText2 ++ Data.dtText3 ++ Data.dtText4 ++ Data.dtText5 ++ Data.dtText6 ++ Data.dtText7 ++ Data.dtText8 ++ Data.dtText9 ++ Data.dtText10 ++ Data.dtText11 ++ Data.dtText12 ++ Data.dtText13 ++ Data.dtText14 ++ Data.dtText15) Data.dtTextE Data.dtRows
    (blank (chars_of% Data.dtTextH) (by decide +kernel)) dt_lines (by decide +kernel)
    (ending (chars_of% Data.dtTextE) (by decide +kernel))
  have e : Data.dtTextH ++ (Data.dtText0 ++ Data.dtText1 ++ Data.dtText2 ++ Data.dtText3 ++ Data.dtText4 ++ Data.dtText5 ++ Data.dtText6 ++ Data.dtText7 ++ Data.dtText8 ++ Data.dtText9 ++ Data.dtText10 ++ Data.dtText11 ++ Data.dtText12 ++ Data.dtText13 ++ Data.dtText14 ++ Data.dtText15) ++ Data.dtTextE = Data.dtText := by
    unfold Data.dtText; simp only [List.append_assoc]
  rw [e] at h; exact h

theorem ddn_chunk0 : List.Forall₂ RowRead (Data.ddnText0.map String.toList) (Data.ddnRows0.map rowVal) :=
  chunk (chars_of% Data.ddnText0) Data.ddnRows0 (by decide +kernel)

theorem ddn_chunk1 : List.Forall₂ RowRead (Data.ddnText1.map String.toList) (Data.ddnRows1.map rowVal) :=
  chunk (chars_of% Data.ddnText1) Data.ddnRows1 (by decide +kernel)

theorem ddn_chunk2 : List.Forall₂ RowRead (Data.ddnText2.map String.toList) (Data.ddnRows2.map rowVal) :=
  chunk (chars_of% Data.ddnText2) Data.ddnRows2 (by decide +kernel)

theorem ddn_lines : List.Forall₂ RowRead ((Data.ddnText0 ++ Data.ddnText1 ++ Data.ddnText2).map String.toList)
    (Data.ddnRows.map rowVal) :=
  (join (join ddn_chunk0 ddn_chunk1) ddn_chunk2)

theorem ddn_text : readXs (Data.ddnText.map String.toList) = .ok (genfromtxt Data.ddnRows) := by
  have h := whole Data.ddnTextH (Data.ddnText0 ++ Data.ddnText1 ++ Data.ddnText2) Data.ddnTextE Data.ddnRows
    (blank (chars_of% Data.ddnTextH) (by decide +kernel)) ddn_lines (by decide +kernel)
    (ending (chars_of% Data.ddnTextE) (by decide +kernel))
  have e : Data.ddnTextH ++ (Data.ddnText0 ++ Data.ddnText1 ++ Data.ddnText2) ++ Data.ddnTextE = Data.ddnText := by
    unfold Data.ddnText; simp only [List.append_assoc]
  rw [e] at h; exact h

theorem ddp_chunk0 : List.Forall₂ RowRead (Data.ddpText0.map String.toList) (Data.ddpRows0.map rowVal) :=
  chunk (chars_of% Data.ddpText0) Data.ddpRows0 (by decide +kernel)

theorem ddp_chunk1 : List.Forall₂ RowRead (Data.ddpText1.map String.toList) (Data.ddpRows1.map rowVal) :=
  chunk (chars_of% Data.ddpText1) Data.ddpRows1 (by decide +kernel)

theorem ddp_chunk2 : List.Forall₂ RowRead (Data.ddpText2.map String.toList) (Data.ddpRows2.map rowVal) :=
  chunk (chars_of% Data.ddpText2) Data.ddpRows2 (by decide +kernel)

theorem ddp_lines : List.Forall₂ RowRead ((Data.ddpText0 ++ Data.ddpText1 ++ Data.ddpText2).map String.toList)
    (Data.ddpRows.map rowVal) :=
  (join (join ddp_chunk0 ddp_chunk1) ddp_chunk2)

theorem ddp_text : readXs (Data.ddpText.map String.toList) = .ok (genfromtxt Data.ddpRows) := by
  have h := whole Data.ddpTextH (Data.ddpText0 ++ Data.ddpText1 ++ Data.ddpText2) Data.ddpTextE Data.ddpRows
    (blank (chars_of% Data.ddpTextH) (by decide +kernel)) ddp_lines (by decide +kernel)
    (ending (chars_of% Data.ddpTextE) (by decide +kernel))
  have e : Data.ddpTextH ++ (Data.ddpText0 ++ Data.ddpText1 ++ Data.ddpText2) ++ Data.ddpTextE = Data.ddpText := by
    unfold Data.ddpText; simp only [List.append_assoc]
  rw [e] at h; exact h

theorem tt_chunk0 : List.Forall₂ RowRead (Data.ttText0.map String.toList) (Data.ttRows0.map rowVal) :=
  chunk (chars_of% Data.ttText0) Data.ttRows0 (by decide +kernel)

theorem tt_chunk1 : List.Forall₂ RowRead (Data.ttText1.map String.toList) (Data.ttRows1.map rowVal) :=
  chunk (chars_of% Data.ttText1) Data.ttRows1 (by decide +kernel)

theorem tt_chunk2 : List.Forall₂ RowRead (Data.ttText2.map String.toList) (Data.ttRows2.map rowVal) :=
  chunk (chars_of% Data.ttText2) Data.ttRows2 (by decide +kernel)

theorem tt_chunk3 : List.Forall₂ RowRead (Data.ttText3.map String.toList) (Data.ttRows3.map rowVal) :=
  chunk (chars_of% Data.ttText3) Data.ttRows3 (by decide +kernel)

theorem tt_chunk4 : List.Forall₂ RowRead (Data.ttText4.map String.toList) (Data.ttRows4.map rowVal) :=
  chunk (chars_of% Data.ttText4) Data.ttRows4 (by decide +kernel)

theorem tt_chunk5 : List.Forall₂ RowRead (Data.ttText5.map String.toList) (Data.ttRows5.map rowVal) :=
  chunk (chars_of% Data.ttText5) Data.ttRows5 (by decide +kernel)

theorem tt_chunk6 : List.Forall₂ RowRead (Data.ttText6.map String.toList) (Data.ttRows6.map rowVal) :=
  chunk (chars_of% Data.ttText6) Data.ttRows6 (by decide +kernel)

theorem tt_chunk7 : List.Forall₂ RowRead (Data.ttText7.map String.toList) (Data.ttRows7.map rowVal) :=
  chunk (chars_of% Data.ttText7) Data.ttRows7 (by decide +kernel)

theorem tt_chunk8 : List.Forall₂ RowRead (Data.ttText8.map String.toList) (Data.ttRows8.map rowVal) :=
  chunk (chars_of% Data.ttText8) Data.ttRows8 (by decide +kernel)

theorem tt_chunk9 : List.Forall₂ RowRead (Data.ttText9.map String.toList) (Data.ttRows9.map rowVal) :=
  chunk (chars_of% Data.ttText9) Data.ttRows9 (by decide +kernel)

theorem tt_chunk10 : List.Forall₂ RowRead (Data.ttText10.map String.toList) (Data.ttRows10.map rowVal) :=
  chunk (chars_of% Data.ttText10) Data.ttRows10 (by decide +kernel)

theorem tt_chunk11 : List.Forall₂ RowRead (Data.ttText11.map String.toList) (Data.ttRows11.map rowVal) :=
  chunk (chars_of% Data.ttText11) Data.ttRows11 (by decide +kernel)

theorem tt_chunk12 : List.Forall₂ RowRead (Data.ttText12.map String.toList) (Data.ttRows12.map rowVal) :=
  chunk (chars_of% Data.ttText12) Data.ttRows12 (by decide +kernel)

theorem tt_lines : List.Forall₂ RowRead ((Data.ttText0 ++ Data.ttText1 ++ Data.ttText2 ++ Data.ttText3 ++ Data.ttText4 ++ Data.ttText5 ++ Data.ttText6 ++ Data.ttText7 ++ Data.ttText8 ++ Data.ttText9 ++ Data.ttText10 ++ Data.ttText11 ++ Data.ttText12).map String.toList)
    (Data.ttRows.map rowVal) :=
  (join (join (join (join (join (join (join (join (join (join (join (join tt_chunk0 tt_chunk1) tt_chunk2) tt_chunk3) tt_chunk4) tt_chunk5) tt_chunk6) tt_chunk7) tt_chunk8) tt_chunk9) tt_chunk10) tt_chunk11) tt_chunk12)

theorem tt_text : readXs (Data.ttText.map String.toList) = .ok (genfromtxt Data.ttRows) := by
  have h := whole Data.ttTextH (Data.ttText0 ++ Data.ttText1 ++ Data.ttText2 ++ Data.ttText3 ++ Data.ttText4 ++ Data.ttText5 ++ Data.ttText6 ++ Data.ttText7 ++ Data.ttText8 ++ Data.ttText9 ++ Data.ttText10 ++ Data.ttText11 ++ Data.ttText12) Data.ttTextE Data.ttRows
    (blank (chars_of% Data.ttTextH) (by decide +kernel)) tt_lines (by decide +kernel)
    (ending (chars_of% Data.ttTextE) (by decide +kernel))
  have e : Data.ttTextH ++ (Data.ttText0 ++ Data.ttText1 ++ Data.ttText2 ++ Data.ttText3 ++ Data.ttText4 ++ Data.ttText5 ++ Data.ttText6 ++ Data.ttText7 ++ Data.ttText8 ++ Data.ttText9 ++ Data.ttText10 ++ Data.ttText11 ++ Data.ttText12) ++ Data.ttTextE = Data.ttText := by
    unfold Data.ttText; simp only [List.append_assoc]
  rw [e] at h; exact h

theorem dhe3_chunk0 : List.Forall₂ RowRead (Data.dhe3Text0.map String.toList) (Data.dhe3Rows0.map rowVal) :=
  chunk (chars_of% Data.dhe3Text0) Data.dhe3Rows0 (by decide +kernel)

theorem dhe3_chunk1 : List.Forall₂ RowRead (Data.dhe3Text1.map String.toList) (Data.dhe3Rows1.map rowVal) :=
  chunk (chars_of% Data.dhe3Text1) Data.dhe3Rows1 (by decide +kernel)

theorem dhe3_chunk2 : List.Forall₂ RowRead (Data.dhe3Text2.map String.toList) (Data.dhe3Rows2.map rowVal) :=
  chunk (chars_of% Data.dhe3Text2) Data.dhe3Rows2 (by decide +kernel)

theorem dhe3_chunk3 : List.Forall₂ RowRead (Data.dhe3Text3.map String.toList) (Data.dhe3Rows3.map rowVal) :=
  chunk (chars_of% Data.dhe3Text3) Data.dhe3Rows3 (by decide +kernel)

theorem dhe3_chunk4 : List.Forall₂ RowRead (Data.dhe3Text4.map String.toList) (Data.dhe3Rows4.map rowVal) :=
  chunk (chars_of% Data.dhe3Text4) Data.dhe3Rows4 (by decide +kernel)

theorem dhe3_chunk5 : List.Forall₂ RowRead (Data.dhe3Text5.map String.toList) (Data.dhe3Rows5.map rowVal) :=
  chunk (chars_of% Data.dhe3Text5) Data.dhe3Rows5 (by decide +kernel)

theorem dhe3_lines : List.Forall₂ RowRead ((Data.dhe3Text0 ++ Data.dhe3Text1 ++ Data.dhe3Text2 ++ Data.dhe3Text3 ++ Data.dhe3Text4 ++ Data.dhe3Text5).map String.toList)
    (Data.dhe3Rows.map rowVal) :=
  (join (join (join (join (join dhe3_chunk0 dhe3_chunk1) dhe3_chunk2) dhe3_chunk3) dhe3_chunk4) dhe3_chunk5)

theorem dhe3_text : readXs (Data.dhe3Text.map String.toList) = .ok (genfromtxt Data.dhe3Rows) := by
  have h := whole Data.dhe3TextH (Data.dhe3Text0 ++ Data.dhe3Text1 ++ Data.dhe3Text2 ++ Data.dhe3Text3 ++ Data.dhe3Text4 ++ Data.dhe3Text5) Data.dhe3TextE Data.dhe3Rows
    (blank (chars_of% Data.dhe3TextH) (by decide +kernel)) dhe3_lines (by decide +kernel)
    (ending (chars_of% Data.dhe3TextE) (by decide +kernel))
  have e : Data.dhe3TextH ++ (Data.dhe3Text0 ++ Data.dhe3Text1 ++ Data.dhe3Text2 ++ Data.dhe3Text3 ++ Data.dhe3Text4 ++ Data.dhe3Text5) ++ Data.dhe3TextE = Data.dhe3Text := by
    unfold Data.dhe3Text; simp only [List.append_assoc]
  rw [e] at h; exact h

end TNS
