import Verif.Data.TTSpectra
import Verif.Data.TTSums
/-
Generated by scripts/gen_ttsums.py.  The partial sums of `Verif.Data.TTSums` are those of the T-T table.
-/

set_option autoImplicit false
set_option maxRecDepth 100000

namespace TNS

/-- `acc + w * row`. -/
def vadd (w : Nat) : List Nat → List Nat → List Nat
  | [], _ => []
  | _ :: _, [] => []
  | x :: xs, a :: as => Nat.add (Nat.mul w x) a :: vadd w xs as

/-- The weighted sum of the rows, added to `acc`. -/
def vdot : List Nat → List (Nat × List Nat) → List Nat → List Nat
  | [], _, acc => acc
  | _ :: _, [], acc => acc
  | w :: ws, q :: l, acc => vdot ws l (vadd w q.2 acc)

/-- Equality of lists. -/
def beqL : List Nat → List Nat → Bool
  | [], [] => true
  | a :: l, b :: m => match Nat.beq a b with
    | true => beqL l m
    | false => false
  | [], _ :: _ => false
  | _ :: _, [] => false

theorem beqL_eq : ∀ l m : List Nat, beqL l m = true → l = m
  | [], [], _ => rfl
  | a :: l, b :: m, h => by
    unfold beqL at h
    split at h
    · rename_i hab
      rw [Nat.eq_of_beq_eq_true hab, beqL_eq l m h]
    · cases h

theorem vdot_append (ws ws' : List Nat) (l l' : List (Nat × List Nat)) (acc acc' : List Nat)
    (h : ws.length = l.length) (h' : beqL (vdot ws l acc) acc' = true) :
    vdot (ws ++ ws') (l ++ l') acc = vdot ws' l' acc' := by
  rw [← beqL_eq _ _ h']
  clear h'
  induction ws generalizing l acc with
  | nil =>
    cases l with
    | nil => rfl
    | cons a l => simp at h
  | cons w ws ih =>
    cases l with
    | nil => simp at h
    | cons a l => exact ih l _ (by simpa using h)

theorem chunkA0 : beqL (vdot Data.wA0 Data.ttSpec0 Data.accA0) Data.accA1 = true := by
  decide +kernel
theorem chunkA1 : beqL (vdot Data.wA1 Data.ttSpec1 Data.accA1) Data.accA2 = true := by
  decide +kernel
theorem chunkA2 : beqL (vdot Data.wA2 Data.ttSpec2 Data.accA2) Data.accA3 = true := by
  decide +kernel
theorem chunkA3 : beqL (vdot Data.wA3 Data.ttSpec3 Data.accA3) Data.accA4 = true := by
  decide +kernel
theorem chunkA4 : beqL (vdot Data.wA4 Data.ttSpec4 Data.accA4) Data.accA5 = true := by
  decide +kernel
theorem chunkA5 : beqL (vdot Data.wA5 Data.ttSpec5 Data.accA5) Data.accA6 = true := by
  decide +kernel
theorem chunkA6 : beqL (vdot Data.wA6 Data.ttSpec6 Data.accA6) Data.accA7 = true := by
  decide +kernel
theorem chunkA7 : beqL (vdot Data.wA7 Data.ttSpec7 Data.accA7) Data.accA8 = true := by
  decide +kernel
theorem chunkA8 : beqL (vdot Data.wA8 Data.ttSpec8 Data.accA8) Data.accA9 = true := by
  decide +kernel
theorem chunkA9 : beqL (vdot Data.wA9 Data.ttSpec9 Data.accA9) Data.accA10 = true := by
  decide +kernel
theorem chunkA10 : beqL (vdot Data.wA10 Data.ttSpec10 Data.accA10) Data.accA11 = true := by
  decide +kernel
theorem chunkA11 : beqL (vdot Data.wA11 Data.ttSpec11 Data.accA11) Data.accA12 = true := by
  decide +kernel
theorem chunkA12 : beqL (vdot Data.wA12 Data.ttSpec12 Data.accA12) Data.accA13 = true := by
  decide +kernel
theorem chunkA13 : beqL (vdot Data.wA13 Data.ttSpec13 Data.accA13) Data.accA14 = true := by
  decide +kernel
theorem chunkA14 : beqL (vdot Data.wA14 Data.ttSpec14 Data.accA14) Data.accA15 = true := by
  decide +kernel
theorem chunkA15 : beqL (vdot Data.wA15 Data.ttSpec15 Data.accA15) Data.accA16 = true := by
  decide +kernel
theorem chunkA16 : beqL (vdot Data.wA16 Data.ttSpec16 Data.accA16) Data.accA17 = true := by
  decide +kernel
theorem chunkA17 : beqL (vdot Data.wA17 Data.ttSpec17 Data.accA17) Data.accA18 = true := by
  decide +kernel
theorem chunkA18 : beqL (vdot Data.wA18 Data.ttSpec18 Data.accA18) Data.accA19 = true := by
  decide +kernel
theorem chunkA19 : beqL (vdot Data.wA19 Data.ttSpec19 Data.accA19) Data.accA20 = true := by
  decide +kernel

theorem vdotA : vdot Data.wA Data.ttSpectra Data.accA0 = Data.accA20 := by
  unfold Data.wA Data.ttSpectra
  simp only [List.append_assoc]
  rw [vdot_append _ _ _ _ _ _ rfl chunkA0]
  rw [vdot_append _ _ _ _ _ _ rfl chunkA1]
  rw [vdot_append _ _ _ _ _ _ rfl chunkA2]
  rw [vdot_append _ _ _ _ _ _ rfl chunkA3]
  rw [vdot_append _ _ _ _ _ _ rfl chunkA4]
  rw [vdot_append _ _ _ _ _ _ rfl chunkA5]
  rw [vdot_append _ _ _ _ _ _ rfl chunkA6]
  rw [vdot_append _ _ _ _ _ _ rfl chunkA7]
  rw [vdot_append _ _ _ _ _ _ rfl chunkA8]
  rw [vdot_append _ _ _ _ _ _ rfl chunkA9]
  rw [vdot_append _ _ _ _ _ _ rfl chunkA10]
  rw [vdot_append _ _ _ _ _ _ rfl chunkA11]
  rw [vdot_append _ _ _ _ _ _ rfl chunkA12]
  rw [vdot_append _ _ _ _ _ _ rfl chunkA13]
  rw [vdot_append _ _ _ _ _ _ rfl chunkA14]
  rw [vdot_append _ _ _ _ _ _ rfl chunkA15]
  rw [vdot_append _ _ _ _ _ _ rfl chunkA16]
  rw [vdot_append _ _ _ _ _ _ rfl chunkA17]
  rw [vdot_append _ _ _ _ _ _ rfl chunkA18]
  exact beqL_eq _ _ chunkA19

theorem chunkM0 : beqL (vdot Data.wM0 Data.ttSpec0 Data.accM0) Data.accM1 = true := by
  decide +kernel
theorem chunkM1 : beqL (vdot Data.wM1 Data.ttSpec1 Data.accM1) Data.accM2 = true := by
  decide +kernel
theorem chunkM2 : beqL (vdot Data.wM2 Data.ttSpec2 Data.accM2) Data.accM3 = true := by
  decide +kernel
theorem chunkM3 : beqL (vdot Data.wM3 Data.ttSpec3 Data.accM3) Data.accM4 = true := by
  decide +kernel
theorem chunkM4 : beqL (vdot Data.wM4 Data.ttSpec4 Data.accM4) Data.accM5 = true := by
  decide +kernel
theorem chunkM5 : beqL (vdot Data.wM5 Data.ttSpec5 Data.accM5) Data.accM6 = true := by
  decide +kernel
theorem chunkM6 : beqL (vdot Data.wM6 Data.ttSpec6 Data.accM6) Data.accM7 = true := by
  decide +kernel
theorem chunkM7 : beqL (vdot Data.wM7 Data.ttSpec7 Data.accM7) Data.accM8 = true := by
  decide +kernel
theorem chunkM8 : beqL (vdot Data.wM8 Data.ttSpec8 Data.accM8) Data.accM9 = true := by
  decide +kernel
theorem chunkM9 : beqL (vdot Data.wM9 Data.ttSpec9 Data.accM9) Data.accM10 = true := by
  decide +kernel
theorem chunkM10 : beqL (vdot Data.wM10 Data.ttSpec10 Data.accM10) Data.accM11 = true := by
  decide +kernel
theorem chunkM11 : beqL (vdot Data.wM11 Data.ttSpec11 Data.accM11) Data.accM12 = true := by
  decide +kernel
theorem chunkM12 : beqL (vdot Data.wM12 Data.ttSpec12 Data.accM12) Data.accM13 = true := by
  decide +kernel
theorem chunkM13 : beqL (vdot Data.wM13 Data.ttSpec13 Data.accM13) Data.accM14 = true := by
  decide +kernel
theorem chunkM14 : beqL (vdot Data.wM14 Data.ttSpec14 Data.accM14) Data.accM15 = true := by
  decide +kernel
theorem chunkM15 : beqL (vdot Data.wM15 Data.ttSpec15 Data.accM15) Data.accM16 = true := by
  decide +kernel
theorem chunkM16 : beqL (vdot Data.wM16 Data.ttSpec16 Data.accM16) Data.accM17 = true := by
  decide +kernel
theorem chunkM17 : beqL (vdot Data.wM17 Data.ttSpec17 Data.accM17) Data.accM18 = true := by
  decide +kernel
theorem chunkM18 : beqL (vdot Data.wM18 Data.ttSpec18 Data.accM18) Data.accM19 = true := by
  decide +kernel
theorem chunkM19 : beqL (vdot Data.wM19 Data.ttSpec19 Data.accM19) Data.accM20 = true := by
  decide +kernel

theorem vdotM : vdot Data.wM Data.ttSpectra Data.accM0 = Data.accM20 := by
  unfold Data.wM Data.ttSpectra
  simp only [List.append_assoc]
  rw [vdot_append _ _ _ _ _ _ rfl chunkM0]
  rw [vdot_append _ _ _ _ _ _ rfl chunkM1]
  rw [vdot_append _ _ _ _ _ _ rfl chunkM2]
  rw [vdot_append _ _ _ _ _ _ rfl chunkM3]
  rw [vdot_append _ _ _ _ _ _ rfl chunkM4]
  rw [vdot_append _ _ _ _ _ _ rfl chunkM5]
  rw [vdot_append _ _ _ _ _ _ rfl chunkM6]
  rw [vdot_append _ _ _ _ _ _ rfl chunkM7]
  rw [vdot_append _ _ _ _ _ _ rfl chunkM8]
  rw [vdot_append _ _ _ _ _ _ rfl chunkM9]
  rw [vdot_append _ _ _ _ _ _ rfl chunkM10]
  rw [vdot_append _ _ _ _ _ _ rfl chunkM11]
  rw [vdot_append _ _ _ _ _ _ rfl chunkM12]
  rw [vdot_append _ _ _ _ _ _ rfl chunkM13]
  rw [vdot_append _ _ _ _ _ _ rfl chunkM14]
  rw [vdot_append _ _ _ _ _ _ rfl chunkM15]
  rw [vdot_append _ _ _ _ _ _ rfl chunkM16]
  rw [vdot_append _ _ _ _ _ _ rfl chunkM17]
  rw [vdot_append _ _ _ _ _ _ rfl chunkM18]
  exact beqL_eq _ _ chunkM19

theorem chunkH0 : beqL (vdot Data.wH0 Data.ttSpec0 Data.accH0) Data.accH1 = true := by
  decide +kernel
theorem chunkH1 : beqL (vdot Data.wH1 Data.ttSpec1 Data.accH1) Data.accH2 = true := by
  decide +kernel
theorem chunkH2 : beqL (vdot Data.wH2 Data.ttSpec2 Data.accH2) Data.accH3 = true := by
  decide +kernel
theorem chunkH3 : beqL (vdot Data.wH3 Data.ttSpec3 Data.accH3) Data.accH4 = true := by
  decide +kernel
theorem chunkH4 : beqL (vdot Data.wH4 Data.ttSpec4 Data.accH4) Data.accH5 = true := by
  decide +kernel
theorem chunkH5 : beqL (vdot Data.wH5 Data.ttSpec5 Data.accH5) Data.accH6 = true := by
  decide +kernel
theorem chunkH6 : beqL (vdot Data.wH6 Data.ttSpec6 Data.accH6) Data.accH7 = true := by
  decide +kernel
theorem chunkH7 : beqL (vdot Data.wH7 Data.ttSpec7 Data.accH7) Data.accH8 = true := by
  decide +kernel
theorem chunkH8 : beqL (vdot Data.wH8 Data.ttSpec8 Data.accH8) Data.accH9 = true := by
  decide +kernel
theorem chunkH9 : beqL (vdot Data.wH9 Data.ttSpec9 Data.accH9) Data.accH10 = true := by
  decide +kernel
theorem chunkH10 : beqL (vdot Data.wH10 Data.ttSpec10 Data.accH10) Data.accH11 = true := by
  decide +kernel
theorem chunkH11 : beqL (vdot Data.wH11 Data.ttSpec11 Data.accH11) Data.accH12 = true := by
  decide +kernel
theorem chunkH12 : beqL (vdot Data.wH12 Data.ttSpec12 Data.accH12) Data.accH13 = true := by
  decide +kernel
theorem chunkH13 : beqL (vdot Data.wH13 Data.ttSpec13 Data.accH13) Data.accH14 = true := by
  decide +kernel
theorem chunkH14 : beqL (vdot Data.wH14 Data.ttSpec14 Data.accH14) Data.accH15 = true := by
  decide +kernel
theorem chunkH15 : beqL (vdot Data.wH15 Data.ttSpec15 Data.accH15) Data.accH16 = true := by
  decide +kernel
theorem chunkH16 : beqL (vdot Data.wH16 Data.ttSpec16 Data.accH16) Data.accH17 = true := by
  decide +kernel
theorem chunkH17 : beqL (vdot Data.wH17 Data.ttSpec17 Data.accH17) Data.accH18 = true := by
  decide +kernel
theorem chunkH18 : beqL (vdot Data.wH18 Data.ttSpec18 Data.accH18) Data.accH19 = true := by
  decide +kernel
theorem chunkH19 : beqL (vdot Data.wH19 Data.ttSpec19 Data.accH19) Data.accH20 = true := by
  decide +kernel

theorem vdotH : vdot Data.wH Data.ttSpectra Data.accH0 = Data.accH20 := by
  unfold Data.wH Data.ttSpectra
  simp only [List.append_assoc]
  rw [vdot_append _ _ _ _ _ _ rfl chunkH0]
  rw [vdot_append _ _ _ _ _ _ rfl chunkH1]
  rw [vdot_append _ _ _ _ _ _ rfl chunkH2]
  rw [vdot_append _ _ _ _ _ _ rfl chunkH3]
  rw [vdot_append _ _ _ _ _ _ rfl chunkH4]
  rw [vdot_append _ _ _ _ _ _ rfl chunkH5]
  rw [vdot_append _ _ _ _ _ _ rfl chunkH6]
  rw [vdot_append _ _ _ _ _ _ rfl chunkH7]
  rw [vdot_append _ _ _ _ _ _ rfl chunkH8]
  rw [vdot_append _ _ _ _ _ _ rfl chunkH9]
  rw [vdot_append _ _ _ _ _ _ rfl chunkH10]
  rw [vdot_append _ _ _ _ _ _ rfl chunkH11]
  rw [vdot_append _ _ _ _ _ _ rfl chunkH12]
  rw [vdot_append _ _ _ _ _ _ rfl chunkH13]
  rw [vdot_append _ _ _ _ _ _ rfl chunkH14]
  rw [vdot_append _ _ _ _ _ _ rfl chunkH15]
  rw [vdot_append _ _ _ _ _ _ rfl chunkH16]
  rw [vdot_append _ _ _ _ _ _ rfl chunkH17]
  rw [vdot_append _ _ _ _ _ _ rfl chunkH18]
  exact beqL_eq _ _ chunkH19

theorem chunkS0 : beqL (vdot Data.wS0 Data.ttSpec0 Data.accS0) Data.accS1 = true := by
  decide +kernel
theorem chunkS1 : beqL (vdot Data.wS1 Data.ttSpec1 Data.accS1) Data.accS2 = true := by
  decide +kernel
theorem chunkS2 : beqL (vdot Data.wS2 Data.ttSpec2 Data.accS2) Data.accS3 = true := by
  decide +kernel
theorem chunkS3 : beqL (vdot Data.wS3 Data.ttSpec3 Data.accS3) Data.accS4 = true := by
  decide +kernel
theorem chunkS4 : beqL (vdot Data.wS4 Data.ttSpec4 Data.accS4) Data.accS5 = true := by
  decide +kernel
theorem chunkS5 : beqL (vdot Data.wS5 Data.ttSpec5 Data.accS5) Data.accS6 = true := by
  decide +kernel
theorem chunkS6 : beqL (vdot Data.wS6 Data.ttSpec6 Data.accS6) Data.accS7 = true := by
  decide +kernel
theorem chunkS7 : beqL (vdot Data.wS7 Data.ttSpec7 Data.accS7) Data.accS8 = true := by
  decide +kernel
theorem chunkS8 : beqL (vdot Data.wS8 Data.ttSpec8 Data.accS8) Data.accS9 = true := by
  decide +kernel
theorem chunkS9 : beqL (vdot Data.wS9 Data.ttSpec9 Data.accS9) Data.accS10 = true := by
  decide +kernel
theorem chunkS10 : beqL (vdot Data.wS10 Data.ttSpec10 Data.accS10) Data.accS11 = true := by
  decide +kernel
theorem chunkS11 : beqL (vdot Data.wS11 Data.ttSpec11 Data.accS11) Data.accS12 = true := by
  decide +kernel
theorem chunkS12 : beqL (vdot Data.wS12 Data.ttSpec12 Data.accS12) Data.accS13 = true := by
  decide +kernel
theorem chunkS13 : beqL (vdot Data.wS13 Data.ttSpec13 Data.accS13) Data.accS14 = true := by
  decide +kernel
theorem chunkS14 : beqL (vdot Data.wS14 Data.ttSpec14 Data.accS14) Data.accS15 = true := by
  decide +kernel
theorem chunkS15 : beqL (vdot Data.wS15 Data.ttSpec15 Data.accS15) Data.accS16 = true := by
  decide +kernel
theorem chunkS16 : beqL (vdot Data.wS16 Data.ttSpec16 Data.accS16) Data.accS17 = true := by
  decide +kernel
theorem chunkS17 : beqL (vdot Data.wS17 Data.ttSpec17 Data.accS17) Data.accS18 = true := by
  decide +kernel
theorem chunkS18 : beqL (vdot Data.wS18 Data.ttSpec18 Data.accS18) Data.accS19 = true := by
  decide +kernel
theorem chunkS19 : beqL (vdot Data.wS19 Data.ttSpec19 Data.accS19) Data.accS20 = true := by
  decide +kernel

theorem vdotS : vdot Data.wS Data.ttSpectra Data.accS0 = Data.accS20 := by
  unfold Data.wS Data.ttSpectra
  simp only [List.append_assoc]
  rw [vdot_append _ _ _ _ _ _ rfl chunkS0]
  rw [vdot_append _ _ _ _ _ _ rfl chunkS1]
  rw [vdot_append _ _ _ _ _ _ rfl chunkS2]
  rw [vdot_append _ _ _ _ _ _ rfl chunkS3]
  rw [vdot_append _ _ _ _ _ _ rfl chunkS4]
  rw [vdot_append _ _ _ _ _ _ rfl chunkS5]
  rw [vdot_append _ _ _ _ _ _ rfl chunkS6]
  rw [vdot_append _ _ _ _ _ _ rfl chunkS7]
  rw [vdot_append _ _ _ _ _ _ rfl chunkS8]
  rw [vdot_append _ _ _ _ _ _ rfl chunkS9]
  rw [vdot_append _ _ _ _ _ _ rfl chunkS10]
  rw [vdot_append _ _ _ _ _ _ rfl chunkS11]
  rw [vdot_append _ _ _ _ _ _ rfl chunkS12]
  rw [vdot_append _ _ _ _ _ _ rfl chunkS13]
  rw [vdot_append _ _ _ _ _ _ rfl chunkS14]
  rw [vdot_append _ _ _ _ _ _ rfl chunkS15]
  rw [vdot_append _ _ _ _ _ _ rfl chunkS16]
  rw [vdot_append _ _ _ _ _ _ rfl chunkS17]
  rw [vdot_append _ _ _ _ _ _ rfl chunkS18]
  exact beqL_eq _ _ chunkS19

end TNS
