import Verif.Lemmas.FixedPoint
import Mathlib.Algebra.BigOperators.Group.List.Basic
/-
Sums `Σ V q^n` over a list of rows `(g, q, V)` for all nodes `n = (63 + m) 2^j`, evaluated by Lean's
kernel on natural numbers.
-/

set_option autoImplicit false

namespace TNS

/-- Entry of a table. -/
def get2 (t : List (List ℕ)) (m j : ℕ) : ℕ := (t.getD m []).getD j 0

noncomputable def col (S V : ℕ) (cs : List ℕ) : ℕ → List ℕ → List ℕ :=
  List.rec (fun _ out => out) (fun c _ ih a out =>
    force (Nat.add c (Nat.mul a V)) (fun c' =>
      force (Nat.div (Nat.mul a a) S) (fun a' => ih a' (c' :: out)))) cs

noncomputable def forceL {α : Type} (l : List ℕ) (k : List ℕ → α) : α :=
  List.rec (k []) (fun a l _ => k (a :: l)) l

theorem forceL_eq {α : Type} (l : List ℕ) (k : List ℕ → α) : forceL l k = k l := by cases l <;> rfl

noncomputable def row (S q V : ℕ) (ccs : List (List ℕ)) : ℕ → List (List ℕ) → List (List ℕ) :=
  List.rec (fun _ out => out) (fun cs _ ih b out =>
    forceL (col S V cs b []) (fun cs' => forceL (List.reverse cs') (fun cs'' =>
      force (Nat.div (Nat.mul b q) S) (fun b' => ih b' (cs'' :: out))))) ccs

/-- `q^63`. -/
noncomputable def pw63 {α : Type} (S q : ℕ) (k : ℕ → α) : α :=
  force (Nat.div (Nat.mul (Nat.div (Nat.mul q q) S) q) S) (fun q3 =>
  force (Nat.div (Nat.mul (Nat.div (Nat.mul q3 q3) S) q) S) (fun q7 =>
  force (Nat.div (Nat.mul (Nat.div (Nat.mul q7 q7) S) q) S) (fun q15 =>
  force (Nat.div (Nat.mul (Nat.div (Nat.mul q15 q15) S) q) S) (fun q31 =>
  force (Nat.div (Nat.mul (Nat.div (Nat.mul q31 q31) S) q) S) k))))

noncomputable def rows (S : ℕ) (l : List (ℕ × ℕ × ℕ)) : List (List ℕ) → List (List ℕ) :=
  List.rec (fun acc => acc) (fun p _ ih acc =>
    pw63 S p.2.1 (fun b => ih ((row S p.2.1 p.2.2 acc b []).reverse))) l

def eqRow : List ℕ → List ℕ → Bool
  | [], [] => true
  | a :: l, b :: m => match Nat.beq a b with
    | true => eqRow l m
    | false => false
  | [], _ :: _ => false
  | _ :: _, [] => false

def beqLL : List (List ℕ) → List (List ℕ) → Bool
  | [], [] => true
  | a :: l, b :: m => match eqRow a b with
    | true => beqLL l m
    | false => false
  | [], _ :: _ => false
  | _ :: _, [] => false

theorem eqRow_eq (l m : List ℕ) (h : eqRow l m = true) : l = m := by
  induction l generalizing m with
  | nil => cases m with
    | nil => rfl
    | cons b m => simp [eqRow] at h
  | cons a l ih => cases m with
    | nil => simp [eqRow] at h
    | cons b m =>
      rw [eqRow] at h
      split at h
      · rename_i h1
        rw [Nat.eq_of_beq_eq_true h1, ih m h]
      · exact absurd h (by simp)

theorem beqLL_eq (l m : List (List ℕ)) (h : beqLL l m = true) : l = m := by
  induction l generalizing m with
  | nil => cases m with
    | nil => rfl
    | cons b m => simp [beqLL] at h
  | cons a l ih => cases m with
    | nil => simp [beqLL] at h
    | cons b m =>
      rw [beqLL] at h
      split at h
      · rename_i h1
        rw [eqRow_eq _ _ h1, ih m h]
      · exact absurd h (by simp)

/-! What the evaluators compute -/

def specCol (S V : ℕ) : List ℕ → ℕ → List ℕ
  | [], _ => []
  | c :: cs, a => (c + a * V) :: specCol S V cs (a * a / S)

theorem col_eq (S V : ℕ) (cs : List ℕ) (a : ℕ) (out : List ℕ) :
    col S V cs a out = (specCol S V cs a).reverse ++ out := by
  induction cs generalizing a out with
  | nil => rfl
  | cons c cs ih =>
    change force (Nat.add c (Nat.mul a V)) (fun c' =>
      force (Nat.div (Nat.mul a a) S) (fun a' => col S V cs a' (c' :: out))) = _
    rw [force_eq, force_eq, ih, specCol, List.reverse_cons, List.append_assoc]
    rfl

def specRow (S q V : ℕ) : List (List ℕ) → ℕ → List (List ℕ)
  | [], _ => []
  | cs :: ccs, b => specCol S V cs b :: specRow S q V ccs (b * q / S)

theorem row_eq (S q V : ℕ) (ccs : List (List ℕ)) (b : ℕ) (out : List (List ℕ)) :
    row S q V ccs b out = (specRow S q V ccs b).reverse ++ out := by
  induction ccs generalizing b out with
  | nil => rfl
  | cons cs ccs ih =>
    change forceL (col S V cs b []) (fun cs' => forceL (List.reverse cs') (fun cs'' =>
      force (Nat.div (Nat.mul b q) S) (fun b' => row S q V ccs b' (cs'' :: out)))) = _
    rw [forceL_eq, forceL_eq, force_eq, ih, specRow, List.reverse_cons, List.append_assoc, col_eq,
      List.append_nil, List.reverse_reverse]
    rfl

def q63 (S q : ℕ) : ℕ :=
  let s := fun a => a * a / S * q / S
  s (s (s (s (s q))))

theorem pw63_eq {α : Type} (S q : ℕ) (k : ℕ → α) : pw63 S q k = k (q63 S q) := by
  unfold pw63
  simp only [force_eq]
  rfl

theorem rows_cons (S : ℕ) (p : ℕ × ℕ × ℕ) (l : List (ℕ × ℕ × ℕ)) (acc : List (List ℕ)) :
    rows S (p :: l) acc = rows S l (specRow S p.2.1 p.2.2 acc (q63 S p.2.1)) := by
  change pw63 S p.2.1 (fun b => rows S l ((row S p.2.1 p.2.2 acc b []).reverse)) = _
  rw [pw63_eq, row_eq, List.append_nil, List.reverse_reverse]

/-- `b q^m`. -/
def mulPow (S q : ℕ) : ℕ → ℕ → ℕ
  | 0, b => b
  | m + 1, b => mulPow S q m (b * q / S)

/-- The power of `q` at node `(63 + m) 2^j`. -/
noncomputable def nodePow (S q m j : ℕ) : ℕ := sqs S j (mulPow S q m (q63 S q))

/-- A table with `66` rows of `9` entries. -/
def Shape (t : List (List ℕ)) : Prop := t.length = 66 ∧ ∀ r ∈ t, r.length = 9

theorem specCol_length (S V : ℕ) (cs : List ℕ) (a : ℕ) : (specCol S V cs a).length = cs.length := by
  induction cs generalizing a with
  | nil => rfl
  | cons c cs ih => simp [specCol, ih]

theorem specCol_get (S V : ℕ) (cs : List ℕ) (a j : ℕ) (hj : j < cs.length) :
    (specCol S V cs a).getD j 0 = cs.getD j 0 + sqs S j a * V := by
  induction cs generalizing a j with
  | nil => simp at hj
  | cons c cs ih =>
    cases j with
    | zero => simp [specCol]
    | succ j =>
      simp only [specCol, List.getD_cons_succ]
      rw [ih _ _ (by simpa using hj), sqs_succ]

theorem specRow_shape (S q V : ℕ) (t : List (List ℕ)) (b : ℕ) :
    (specRow S q V t b).length = t.length ∧
      ((∀ r ∈ t, r.length = 9) → ∀ r ∈ specRow S q V t b, r.length = 9) := by
  induction t generalizing b with
  | nil => simp [specRow]
  | cons cs t ih =>
    obtain ⟨h1, h2⟩ := ih (b * q / S)
    refine ⟨by simp [specRow, h1], fun h r hr => ?_⟩
    simp only [specRow, List.mem_cons] at hr
    rcases hr with rfl | hr
    · rw [specCol_length]; exact h cs (by simp)
    · exact h2 (fun r hr => h r (List.mem_cons_of_mem _ hr)) r hr

theorem specRow_get (S q V : ℕ) (t : List (List ℕ)) (b m j : ℕ) (hm : m < t.length)
    (hj : j < 9) (h9 : ∀ r ∈ t, r.length = 9) :
    get2 (specRow S q V t b) m j = get2 t m j + sqs S j (mulPow S q m b) * V := by
  induction t generalizing b m with
  | nil => simp at hm
  | cons cs t ih =>
    cases m with
    | zero =>
      simp only [get2, specRow, List.getD_cons_zero, mulPow]
      exact specCol_get _ _ _ _ _ (by rw [h9 cs (by simp)]; exact hj)
    | succ m =>
      have := ih (b * q / S) m (by simpa using hm) (fun r hr => h9 r (List.mem_cons_of_mem _ hr))
      simp only [get2, specRow, List.getD_cons_succ, mulPow] at this ⊢
      exact this

theorem rows_get (S : ℕ) (l : List (ℕ × ℕ × ℕ)) (t : List (List ℕ)) (ht : Shape t) :
    Shape (rows S l t) ∧ ∀ m j, m < 66 → j < 9 →
      get2 (rows S l t) m j = get2 t m j + (l.map fun p => nodePow S p.2.1 m j * p.2.2).sum := by
  induction l generalizing t with
  | nil => exact ⟨ht, fun m j _ _ => by simp [rows]⟩
  | cons p l ih =>
    rw [rows_cons]
    have hs : Shape (specRow S p.2.1 p.2.2 t (q63 S p.2.1)) := by
      obtain ⟨h1, h2⟩ := specRow_shape S p.2.1 p.2.2 t (q63 S p.2.1)
      exact ⟨h1.trans ht.1, h2 ht.2⟩
    obtain ⟨i1, i2⟩ := ih _ hs
    refine ⟨i1, fun m j hm hj => ?_⟩
    rw [i2 m j hm hj, specRow_get _ _ _ _ _ _ _ (by rw [ht.1]; exact hm) hj ht.2, List.map_cons,
      List.sum_cons]
    unfold nodePow
    ring

/-! Accuracy -/

theorem Apx.mulN {S a b n l : ℕ} {α : ℝ} (hS : 0 < S) (h0 : 0 ≤ α) (h1 : α ≤ 1) (hn : 0 < n)
    (hl : 0 < l) (ha : Apx S a (3 * n - 1) (α ^ n)) (hb : Apx S b (3 * l - 1) (α ^ l)) :
    Apx S (a * b / S) (3 * (n + l) - 1) (α ^ (n + l)) := by
  have := ha.mul hS hb (by positivity) (pow_le_one₀ h0 h1) (by positivity) (pow_le_one₀ h0 h1)
  rw [pow_add]
  exact this.mono (by omega)

theorem q63_apx {S q : ℕ} {α : ℝ} (hS : 0 < S) (h0 : 0 ≤ α) (h1 : α ≤ 1) (h : Apx S q 2 α) :
    Apx S (q63 S q) (3 * 63 - 1) (α ^ 63) := by
  have hq : Apx S q (3 * 1 - 1) (α ^ 1) := by simpa using h
  have step : ∀ n a, 0 < n → Apx S a (3 * n - 1) (α ^ n) →
      Apx S (a * a / S * q / S) (3 * (n + n + 1) - 1) (α ^ (n + n + 1)) := fun n a hn ha =>
    (ha.mulN hS h0 h1 hn hn ha).mulN hS h0 h1 (by omega) one_pos hq
  exact step 31 _ (by norm_num) (step 15 _ (by norm_num) (step 7 _ (by norm_num)
    (step 3 _ (by norm_num) (step 1 _ (by norm_num) hq))))

theorem mulPow_apx {S q : ℕ} {α : ℝ} (hS : 0 < S) (h0 : 0 ≤ α) (h1 : α ≤ 1) (h : Apx S q 2 α)
    (m n b : ℕ) (hn : 0 < n) (hb : Apx S b (3 * n - 1) (α ^ n)) :
    Apx S (mulPow S q m b) (3 * (n + m) - 1) (α ^ (n + m)) := by
  induction m generalizing n b with
  | zero => simpa [mulPow] using hb
  | succ m ih =>
    have hq : Apx S q (3 * 1 - 1) (α ^ 1) := by simpa using h
    have := ih (n + 1) (b * q / S) (by omega) (hb.mulN hS h0 h1 hn one_pos hq)
    have e : n + (m + 1) = n + 1 + m := by omega
    rw [e]; exact this

theorem nodePow_apx {S q : ℕ} {α : ℝ} (hS : 0 < S) (h0 : 0 ≤ α) (h1 : α ≤ 1) (h : Apx S q 2 α)
    (m j : ℕ) :
    Apx S (nodePow S q m j) (3 * ((63 + m) * 2 ^ j)) (α ^ ((63 + m) * 2 ^ j)) := by
  have h63 := mulPow_apx hS h0 h1 h m 63 _ (by norm_num) (q63_apx hS h0 h1 h)
  have := sqs_apx hS h63 (by positivity) (pow_le_one₀ h0 h1) j
  rw [← pow_mul] at this
  refine this.mono ?_
  have e : 3 * (63 + m) - 1 + 1 = 3 * (63 + m) := by omega
  rw [e]
  refine (Nat.sub_le _ _).trans (le_of_eq ?_)
  ring

/-- Chaining chunks. -/
theorem rows_append (S : ℕ) (l l' : List (ℕ × ℕ × ℕ)) (t : List (List ℕ)) :
    rows S (l ++ l') t = rows S l' (rows S l t) := by
  induction l generalizing t with
  | nil => rfl
  | cons p l ih => rw [List.cons_append, rows_cons, rows_cons, ih]

end TNS
