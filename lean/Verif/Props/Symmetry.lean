import Verif.Spec.Symmetry
import Verif.Lemmas.Source
import Verif.Lemmas.MapM
import Verif.Model.PointInPath
import Mathlib.Tactic.FieldSimp
import Mathlib.Tactic.Ring
import Mathlib.Tactic.Linarith
import Mathlib.Tactic.Positivity
/-
C75: a plasma moved up or down, enlarged, or with all densities scaled.
-/

set_option autoImplicit false

namespace TNS
open Spec

section
variable {K : Type} [Field K] [LinearOrder K] [IsStrictOrderedRing K] [FloorRing K]

/-! ### The grid -/

theorem foldl_min_shift (d : K) (l : List K) (a : K) :
    (l.map (· + d)).foldl min (a + d) = l.foldl min a + d := by
  induction l generalizing a with
  | nil => rfl
  | cons b l ih => simp only [List.map_cons, List.foldl_cons]; rw [min_add_add_right, ih]

theorem foldl_max_shift (d : K) (l : List K) (a : K) :
    (l.map (· + d)).foldl max (a + d) = l.foldl max a + d := by
  induction l generalizing a with
  | nil => rfl
  | cons b l ih => simp only [List.map_cons, List.foldl_cons]; rw [max_add_add_right, ih]

theorem npMin_shift (d : K) (l : List K) (h : l ≠ []) : npMin (l.map (· + d)) = npMin l + d := by
  cases l with
  | nil => exact absurd rfl h
  | cons a l => exact foldl_min_shift d l a

theorem npMax_shift (d : K) (l : List K) (h : l ≠ []) : npMax (l.map (· + d)) = npMax l + d := by
  cases l with
  | nil => exact absurd rfl h
  | cons a l => exact foldl_max_shift d l a

theorem gridAxis_shift (d : K) (l : List K) (h : l ≠ []) (o L : K) :
    gridAxis (l.map (· + d)) (o + d) L = (gridAxis l o L).map (· + d) := by
  unfold gridAxis
  simp only [npMin_shift d l h, npMax_shift d l h, arange, List.map_map]
  have e1 : o + d - (npMin l + d - 2 * L) = o - (npMin l - 2 * L) := by ring
  have e2 : ∀ q : K, npMax l + d + 2 * L - (npMin l + d - 2 * L + q) =
      npMax l + 2 * L - (npMin l - 2 * L + q) := fun q => by ring
  rw [e1, e2]
  refine List.map_congr_left fun i _ => ?_
  simp only [Function.comp]
  ring

theorem foldl_min_mul (c : K) (hc : 0 < c) (l : List K) (a : K) :
    (l.map (c * ·)).foldl min (c * a) = c * l.foldl min a := by
  induction l generalizing a with
  | nil => rfl
  | cons b l ih => simp only [List.map_cons, List.foldl_cons]; rw [← mul_min_of_nonneg _ _ hc.le, ih]

theorem foldl_max_mul (c : K) (hc : 0 < c) (l : List K) (a : K) :
    (l.map (c * ·)).foldl max (c * a) = c * l.foldl max a := by
  induction l generalizing a with
  | nil => rfl
  | cons b l ih => simp only [List.map_cons, List.foldl_cons]; rw [← mul_max_of_nonneg _ _ hc.le, ih]

theorem npMin_mul (c : K) (hc : 0 < c) (l : List K) : npMin (l.map (c * ·)) = c * npMin l := by
  cases l with
  | nil => simp [npMin]
  | cons a l => exact foldl_min_mul c hc l a

theorem npMax_mul (c : K) (hc : 0 < c) (l : List K) : npMax (l.map (c * ·)) = c * npMax l := by
  cases l with
  | nil => simp [npMax]
  | cons a l => exact foldl_max_mul c hc l a

theorem gridAxis_mul (c : K) (hc : 0 < c) (l : List K) (o L : K) :
    gridAxis (l.map (c * ·)) (c * o) (c * L) = (gridAxis l o L).map (c * ·) := by
  have hc' := hc.ne'
  have cancel : ∀ a b : K, c * a / (c * b) = a / b := fun a b => mul_div_mul_left a b hc'
  unfold gridAxis
  simp only [npMin_mul c hc, npMax_mul c hc, arange, List.map_map, pyMod]
  have e1 : c * o - (c * npMin l - 2 * (c * L)) = c * (o - (npMin l - 2 * L)) := by ring
  rw [e1, cancel]
  generalize (⌊(o - (npMin l - 2 * L)) / L⌋ : K) = q
  have e2 : c * npMax l + 2 * (c * L) - (c * npMin l - 2 * (c * L) +
      (c * (o - (npMin l - 2 * L)) - c * L * q - 1 / 2 * (c * L))) =
      c * (npMax l + 2 * L - (npMin l - 2 * L + (o - (npMin l - 2 * L) - L * q - 1 / 2 * L))) := by ring
  rw [e2, cancel]
  refine List.map_congr_left fun i _ => ?_
  simp only [Function.comp]
  ring

theorem meshPoints_map (f g : K → K) (xs zs : List K) :
    meshPoints (xs.map f) (zs.map g) = (meshPoints xs zs).map (fun p => (f p.1, g p.2)) := by
  unfold meshPoints
  simp only [List.flatMap_map, List.map_flatMap, List.map_map]
  rfl

/-- What is sampled, for a plasma moved by `d` along `z`. -/
theorem samplePoints_shift (d : K) (xs zs : List K) (h : zs ≠ []) (inside inside' : K × K → Bool)
    (hin : ∀ x z, inside' (x, z + d) = inside (x, z)) (oX oZ L : K) :
    samplePoints xs (zs.map (· + d)) inside' oX (oZ + d) L =
      (samplePoints xs zs inside oX oZ L).map (fun p => (p.1, p.2 + d)) := by
  unfold samplePoints
  rw [gridAxis_shift d zs h]
  have := meshPoints_map id (· + d) (gridAxis xs oX L) (gridAxis zs oZ L)
  rw [List.map_id] at this
  rw [this, List.filter_map]
  congr 1
  refine List.filter_congr fun p _ => ?_
  exact hin p.1 p.2

/-- What is sampled, for everything enlarged by the factor `c`. -/
theorem samplePoints_mul (c : K) (hc : 0 < c) (xs zs : List K) (inside inside' : K × K → Bool)
    (hin : ∀ x z, inside' (c * x, c * z) = inside (x, z)) (oX oZ L : K) :
    samplePoints (xs.map (c * ·)) (zs.map (c * ·)) inside' (c * oX) (c * oZ) (c * L) =
      (samplePoints xs zs inside oX oZ L).map (fun p => (c * p.1, c * p.2)) := by
  unfold samplePoints
  rw [gridAxis_mul c hc, gridAxis_mul c hc, meshPoints_map, List.filter_map]
  congr 1
  refine List.filter_congr fun p _ => ?_
  exact hin p.1 p.2

/-! ### matplotlib's test -/

theorem pathEdges_map {α β : Type} (f : α → β) (l : List α) :
    pathEdges (l.map f) = (pathEdges l).map (fun e => (f e.1, f e.2)) := by
  cases l with
  | nil => rfl
  | cons a l =>
    simp only [pathEdges, List.map_cons]
    have : l.map f ++ [f a] = (l ++ [a]).map f := by simp
    rw [this, ← List.map_cons, List.zip_map]
    rfl

omit [FloorRing K] in
theorem containsPoint_shift (d : K) (pts : List (K × K)) (x z : K) :
    containsPoint (pts.map fun p => (p.1, p.2 + d)) (x, z + d) = containsPoint pts (x, z) := by
  unfold containsPoint
  rw [pathEdges_map, List.foldl_map, List.length_map]
  congr 2
  funext f e
  congr 1
  simp only [crosses, add_le_add_iff_right, add_sub_add_right_eq_sub]

omit [FloorRing K] in
theorem containsPoint_mul (c : K) (hc : 0 < c) (pts : List (K × K)) (x z : K) :
    containsPoint (pts.map fun p => (c * p.1, c * p.2)) (c * x, c * z) = containsPoint pts (x, z) := by
  unfold containsPoint
  rw [pathEdges_map, List.foldl_map, List.length_map]
  congr 2
  funext f e
  congr 1
  have hcc : 0 < c * c := mul_pos hc hc
  have e1 : ∀ a b : K, (c * a ≤ c * b) = (a ≤ b) := fun a b => propext (mul_le_mul_iff_right₀ hc)
  have e2 : ∀ a b a' b' : K, ((c * a - c * b) * (c * a' - c * b')) = c * c * ((a - b) * (a' - b')) :=
    fun a b a' b' => by ring
  have e3 : ∀ a b : K, (c * c * a ≤ c * c * b) = (a ≤ b) := fun a b => propext (mul_le_mul_iff_right₀ hcc)
  simp only [crosses, e2, e3, e1]

end

/-! ### The source -/

section
variable {K : Type} [Field K]

theorem dict_set_map {β : Type} (f : β → β) (d : Dict Reaction β) (r : Reaction) (v : β) :
    Dict.set (d.map fun p => (p.1, f p.2)) r (f v) = (d.set r v).map fun p => (p.1, f p.2) := by
  unfold Dict.set
  have : (List.any (List.map (fun p : Reaction × β => (p.1, f p.2)) d) fun p => decide (p.1 = r)) =
      List.any d fun p => decide (p.1 = r) := by
    rw [List.any_map]; rfl
  rw [this]
  split_ifs
  · simp only [List.map_map]
    refine List.map_congr_left fun p _ => ?_
    simp only [Function.comp]
    split_ifs <;> rfl
  · simp

theorem dict_modify_map {β : Type} (f g : β → β) (d : Dict Reaction β) (r : Reaction)
    (h : ∀ x, g (f x) = f (g x)) :
    Dict.modify (d.map fun p => (p.1, f p.2)) r g = (d.modify r g).map fun p => (p.1, f p.2) := by
  unfold Dict.modify
  simp only [List.map_map]
  refine List.map_congr_left fun p _ => ?_
  simp only [Function.comp]
  split_ifs <;> simp [h]

theorem pairDensity_scale (c : K) (r : Reaction) (d t h : List K) :
    pairDensity r (d.map (c * ·)) (t.map (c * ·)) (h.map (c * ·)) =
      (pairDensity r d t h).map (c ^ 2 * ·) := by
  have e : ∀ l l' : List K, List.zipWith (· * ·) (l.map (c * ·)) (l'.map (c * ·)) =
      (List.zipWith (· * ·) l l').map (c ^ 2 * ·) := by
    intro l l'
    rw [List.zipWith_map, List.map_zipWith]
    congr 1
    funext a b
    ring
  rcases r with (_ | _ | _) | (_ | _) <;> simp only [pairDensity, e, List.map_map]
  all_goals
    refine List.map_congr_left fun a _ => ?_
    simp only [Function.comp]
    ring

theorem zip_scale (a b : K) (l l' : List K) :
    List.zipWith (· * ·) (l.map (a * ·)) (l'.map (b * ·)) =
      (List.zipWith (· * ·) l l').map (a * b * ·) := by
  rw [List.zipWith_map, List.map_zipWith]
  congr 1
  funext x y
  ring

theorem addReaction_stretch (sv : Reaction → List K → Except Err (List K)) (c n v : K)
    (d t h : List K) (s : Source K) (r : Reaction) :
    Source.addReaction sv (d.map (n * ·)) (t.map (n * ·)) (h.map (n * ·))
        (stretch c v (n ^ 2 * v) s) r =
      (Source.addReaction sv d t h s r).map (stretch c v (n ^ 2 * v)) := by
  unfold Source.addReaction densityWeightedReactivity
  rw [pairDensity_scale]
  simp only [stretch]
  cases e : sv r s.temperature with
  | error x => rfl
  | ok w =>
    simp only [Bind.bind, Except.bind, Except.map]
    have e1 : List.zipWith (· * ·) ((pairDensity r d t h).map (n ^ 2 * ·)) w =
        (List.zipWith (· * ·) (pairDensity r d t h) w).map (n ^ 2 * ·) := by
      have := zip_scale (n ^ 2) 1 (pairDensity r d t h) w
      simpa using this
    rw [e1, zip_scale]
    generalize List.zipWith (· * ·) (List.zipWith (· * ·) (pairDensity r d t h) w) s.dVolume = str
    have hsum : (str.map (n ^ 2 * v * ·)).sum = n ^ 2 * v * str.sum := by
      rw [List.sum_map_mul_left]; simp
    have m1 := dict_set_map (List.map (n ^ 2 * v * ·)) s.strength r str
    have m2 := dict_set_map (n ^ 2 * v * ·) s.numReactions r str.sum
    have m3 := dict_set_map (n ^ 2 * v * ·) s.numNeutrons r (str.sum * (r.numNeutrons : K))
    rw [hsum]
    simp only [← mul_assoc] at m3 ⊢
    rw [m1, m2, m3]
    rfl

theorem foldlM_map_comm {σ α ε : Type} (F F' : σ → α → Except ε σ) (g : σ → σ)
    (h : ∀ s a, F' (g s) a = (F s a).map g) (l : List α) (s : σ) :
    l.foldlM F' (g s) = (l.foldlM F s).map g := by
  induction l generalizing s with
  | nil => rfl
  | cons a l ih =>
    rw [List.foldlM_cons, List.foldlM_cons, h]
    cases e : F s a with
    | error x => rfl
    | ok s' => exact ih s'

theorem addReaction_move (sv : Reaction → List K → Except Err (List K)) (d t h : List K) (e : K)
    (s : Source K) (r : Reaction) :
    Source.addReaction sv d t h (move e s) r = (Source.addReaction sv d t h s r).map (move e) := by
  unfold Source.addReaction
  simp only [move]
  cases densityWeightedReactivity sv s.temperature d t h r <;> rfl

theorem scale_move (f e : K) (l : List Reaction) (s : Source K) :
    l.foldl (Source.scaleReaction f) (move e s) = move e (l.foldl (Source.scaleReaction f) s) := by
  induction l generalizing s with
  | nil => rfl
  | cons a l ih => rw [List.foldl_cons, List.foldl_cons, ← ih]; rfl

theorem getD_map {β : Type} (f : β → β) (d : Dict Reaction β) (r : Reaction) (b : β) (hb : f b = b) :
    Dict.getD (d.map fun p => (p.1, f p.2)) r b = f (d.getD r b) := by
  unfold Dict.getD
  rw [Dict.get?_map_val]
  cases d.get? r with
  | none => exact hb.symm
  | some x => rfl

theorem totalPower_stretch (Q : Reaction → K) (c v k : K) (s : Source K) :
    (stretch c v k s).totalPower Q = k * s.totalPower Q := by
  unfold Source.totalPower
  simp only [stretch]
  rw [← List.sum_map_mul_left]
  congr 1
  refine List.map_congr_left fun r _ => ?_
  rw [getD_map (List.map (k * ·)) s.strength r [] rfl, ← List.sum_map_mul_left]
  rw [List.map_map]
  congr 1
  refine List.map_congr_left fun x _ => ?_
  simp only [Function.comp]
  ring

/-- Scaling a stretched source. -/
theorem scaleReaction_stretch (c v k f : K) (s : Source K) (r : Reaction) :
    Source.scaleReaction f (stretch c v k s) r = stretch c v k (Source.scaleReaction f s r) := by
  simp only [Source.scaleReaction, stretch]
  rw [dict_modify_map (List.map (k * ·)) (List.map (· * f)) s.strength r
      (by intro x; simp only [List.map_map]; exact List.map_congr_left fun y _ => by
            simp only [Function.comp]; ring),
    dict_modify_map (k * ·) (· * f) s.numReactions r (by intro x; ring),
    dict_modify_map (k * ·) (· * f) s.numNeutrons r (by intro x; ring)]

end

section
variable {K : Type} [Field K]

theorem mapM_map {α : Type} (f : α → Except Err K) (g : K → K) (l : List α) :
    l.mapM (fun a => (f a).map g) = (l.mapM f).map (List.map g) := by
  induction l with
  | nil => rfl
  | cons a l ih =>
    rw [List.mapM_cons, List.mapM_cons, ih]
    cases f a with
    | error e => rfl
    | ok b =>
      cases l.mapM f with
      | error e => rfl
      | ok bs => rfl

variable [DecidableEq K]

theorem normalise_move (Q : Reaction → K) (P e : K) (s : Source K) :
    (move e s).normalise Q P = (s.normalise Q P).map (move e) := by
  unfold Source.normalise Source.normaliseRaw
  have h1 : (move e s).sourceType = s.sourceType := rfl
  have h2 : (move e s).totalPower Q = s.totalPower Q := rfl
  rw [h1, h2]
  split_ifs
  · rfl
  · rfl
  · rw [scale_move]; rfl

/-- Strengths multiplied by `k` and then normalised. -/
theorem normalise_stretch (Q : Reaction → K) (P c v k : K) (hk : k ≠ 0) (s : Source K)
    (hs : ∃ f, s.Closed f) :
    (stretch c v k s).normalise Q P = (s.normalise Q P).map (stretch c v 1) := by
  unfold Source.normalise Source.normaliseRaw
  have h1 : (stretch c v k s).sourceType = s.sourceType := rfl
  rw [h1, totalPower_stretch]
  simp only [mul_eq_zero, hk, false_or]
  split_ifs
  · rfl
  · rfl
  · simp only [Except.map]
    congr 1
    have hcomm : ∀ (l : List Reaction) (f : K) (s : Source K),
        l.foldl (Source.scaleReaction f) (stretch c v k s) =
          stretch c v k (l.foldl (Source.scaleReaction f) s) := by
      intro l f
      induction l with
      | nil => intro s; rfl
      | cons a l ih =>
        intro s
        rw [List.foldl_cons, List.foldl_cons, scaleReaction_stretch, ih]
    rw [hcomm]
    obtain ⟨f, hf⟩ := hs
    rw [(hf.scale _).1, (hf.scale _).1]
    have e : ∀ x : K, k * (x * (P / (k * s.totalPower Q))) = x * (P / s.totalPower Q) := by
      intro x
      rw [mul_div_assoc', mul_div_assoc', mul_div_assoc', ← mul_assoc k, mul_comm k x, mul_assoc x, mul_comm k P, ← mul_assoc]
      rw [mul_comm k]
      exact mul_div_mul_right _ _ hk
    simp only [stretch, List.map_map, one_mul, Function.comp_def, e]

end

section
variable {K : Type} [Field K] [LinearOrder K] [IsStrictOrderedRing K] [FloorRing K]

/-- C75.  A plasma moved by `d` along `z` gives the same source, moved by `d`: same strengths, same
rates, same temperatures, cell by cell. -/
theorem C75_moved (pi : K) (Q : Reaction → K) (sv : Reaction → List K → Except Err (List K))
    (tr : TransportView K) (fm : FluxMapView K) (hne : fm.lcfsZ ≠ []) (arg : SourceArg) (L : K)
    (power : Option K) (d : K) :
    Source.init pi Q sv tr (moveMap d fm) arg L power =
      (Source.init pi Q sv tr fm arg L power).map (move d) := by
  unfold Source.init
  cases parseSourceType arg with
  | error e => rfl
  | ok st =>
    have hp := samplePoints_shift d fm.lcfsX fm.lcfsZ hne fm.inside (moveMap d fm).inside
      (by intro x z; simp [moveMap]) fm.oX fm.oZ L
    have e1 : sampleSpace2d pi (moveMap d fm).lcfsX (moveMap d fm).lcfsZ (moveMap d fm).inside
        (moveMap d fm).oX (moveMap d fm).oZ L =
        { sampleSpace2d pi fm.lcfsX fm.lcfsZ fm.inside fm.oX fm.oZ L with
          z := (sampleSpace2d pi fm.lcfsX fm.lcfsZ fm.inside fm.oX fm.oZ L).z.map (· + d) } := by
      unfold sampleSpace2d
      simp only [moveMap] at hp ⊢
      rw [hp]
      simp [List.map_map, Function.comp_def]
    simp only [Bind.bind, Except.bind]
    rw [e1]
    generalize sampleSpace2d pi fm.lcfsX fm.lcfsZ fm.inside fm.oX fm.oZ L = smp
    have e2 : List.zipWith (moveMap d fm).psiNorm smp.x (smp.z.map (· + d)) =
        List.zipWith fm.psiNorm smp.x smp.z := by
      rw [List.zipWith_map_right]
      simp [moveMap]
    simp only [e2]
    generalize List.zipWith fm.psiNorm smp.x smp.z = psi
    cases psi.mapM tr.temperature with
    | error e => rfl
    | ok temp =>
    cases psi.mapM tr.deuterium with
    | error e => rfl
    | ok dd =>
    cases psi.mapM tr.tritium with
    | error e => rfl
    | ok t =>
    cases psi.mapM tr.helium3 with
    | error e => rfl
    | ok h =>
    simp only
    have e3 := foldlM_map_comm (Source.addReaction sv dd t h) (Source.addReaction sv dd t h) (move d)
      (fun s a => addReaction_move sv dd t h d s a) st
      { sourceType := st, x := smp.x, z := smp.z, dVolume := smp.dVolume, cellSideLength := L,
        temperature := temp, strength := [], numReactions := [], numNeutrons := [] }
    simp only [move] at e3 ⊢
    rw [e3]
    cases List.foldlM (Source.addReaction sv dd t h) _ st with
    | error e => rfl
    | ok s =>
      cases power with
      | none => rfl
      | some P => exact normalise_move Q P d s

/-- The general statement behind `C75_enlarged` and `C75_denser`. -/
theorem init_stretch (pi : K) (Q : Reaction → K) (sv : Reaction → List K → Except Err (List K))
    (tr : TransportView K) (fm : FluxMapView K) (arg : SourceArg) (L : K) (power : Option K) (c n : K)
    (hc : 0 < c) (hn : n ≠ 0) :
    Source.init pi Q sv (denser n tr) (enlargeMap c fm) arg (c * L) power =
      (Source.init pi Q sv tr fm arg L power).map
        (stretch c (c ^ 3) (if power = none then n ^ 2 * c ^ 3 else 1)) := by
  unfold Source.init
  cases hst : parseSourceType arg with
  | error e => rfl
  | ok st =>
    have hp := samplePoints_mul c hc fm.lcfsX fm.lcfsZ fm.inside (enlargeMap c fm).inside
      (by intro x z; simp [enlargeMap, mul_div_cancel_left₀ _ hc.ne']) fm.oX fm.oZ L
    have e1 : sampleSpace2d pi (enlargeMap c fm).lcfsX (enlargeMap c fm).lcfsZ (enlargeMap c fm).inside
        (enlargeMap c fm).oX (enlargeMap c fm).oZ (c * L) =
        { x := (sampleSpace2d pi fm.lcfsX fm.lcfsZ fm.inside fm.oX fm.oZ L).x.map (c * ·)
          z := (sampleSpace2d pi fm.lcfsX fm.lcfsZ fm.inside fm.oX fm.oZ L).z.map (c * ·)
          dVolume := (sampleSpace2d pi fm.lcfsX fm.lcfsZ fm.inside fm.oX fm.oZ L).dVolume.map (c ^ 3 * ·) } := by
      unfold sampleSpace2d
      simp only [enlargeMap] at hp ⊢
      rw [hp]
      simp only [List.map_map, Function.comp_def, Sampled.mk.injEq, true_and]
      refine List.map_congr_left fun p _ => ?_
      simp only [cellVolume]; ring
    simp only [Bind.bind, Except.bind]
    rw [e1]
    generalize sampleSpace2d pi fm.lcfsX fm.lcfsZ fm.inside fm.oX fm.oZ L = smp
    have e2 : List.zipWith (enlargeMap c fm).psiNorm (smp.x.map (c * ·)) (smp.z.map (c * ·)) =
        List.zipWith fm.psiNorm smp.x smp.z := by
      rw [List.zipWith_map]
      simp [enlargeMap, mul_div_cancel_left₀ _ hc.ne']
    simp only [e2]
    generalize List.zipWith fm.psiNorm smp.x smp.z = psi
    simp only [denser, mapM_map]
    cases psi.mapM tr.temperature with
    | error e => rfl
    | ok temp =>
    cases psi.mapM tr.deuterium with
    | error e => rfl
    | ok dd =>
    cases psi.mapM tr.tritium with
    | error e => rfl
    | ok t =>
    cases psi.mapM tr.helium3 with
    | error e => rfl
    | ok h =>
    simp only [Except.map]
    have e3 := foldlM_map_comm (Source.addReaction sv dd t h)
      (Source.addReaction sv (dd.map (n * ·)) (t.map (n * ·)) (h.map (n * ·)))
      (stretch c (c ^ 3) (n ^ 2 * c ^ 3))
      (fun s a => addReaction_stretch sv c n (c ^ 3) dd t h s a) st
      { sourceType := st, x := smp.x, z := smp.z, dVolume := smp.dVolume, cellSideLength := L,
        temperature := temp, strength := [], numReactions := [], numNeutrons := [] }
    have e4 : stretch c (c ^ 3) (n ^ 2 * c ^ 3)
        { sourceType := st, x := smp.x, z := smp.z, dVolume := smp.dVolume, cellSideLength := L,
          temperature := temp, strength := [], numReactions := [], numNeutrons := [] } =
        { sourceType := st, x := smp.x.map (c * ·), z := smp.z.map (c * ·),
          dVolume := smp.dVolume.map (c ^ 3 * ·), cellSideLength := c * L,
          temperature := temp, strength := [], numReactions := [], numNeutrons := [] } := rfl
    rw [e4] at e3
    rw [e3]
    cases hs : List.foldlM (Source.addReaction sv dd t h) _ st with
    | error e => rfl
    | ok s =>
      cases power with
      | none => rfl
      | some P =>
        have hk : n ^ 2 * c ^ 3 ≠ 0 := mul_ne_zero (pow_ne_zero 2 hn) (pow_ne_zero 3 hc.ne')
        obtain ⟨f, -, hf⟩ := foldlM_addReaction sv dd t h st (parse_nodup hst) _ s (by simp [Dict.keys])
          (by simp [Dict.keys]) (by simp [Dict.keys]) hs
        have hcl : s.Closed f := by
          rw [hf]
          exact ⟨parse_nodup hst, by simp, by simp, by simp⟩
        exact normalise_stretch Q P c (c ^ 3) _ hk s ⟨f, hcl⟩

theorem map_mul_one (l : List K) : l.map (1 * ·) = l := by simp

/-- C75.  A plasma enlarged by the factor `c` (with the cell side) gives the enlarged source: as many
cells, in the enlarged places, with volumes, strengths and rates multiplied by `c³` and the same
temperatures; if a total power is requested, strengths and rates are the same as for the original. -/
theorem C75_enlarged (pi : K) (Q : Reaction → K) (sv : Reaction → List K → Except Err (List K))
    (tr : TransportView K) (fm : FluxMapView K) (arg : SourceArg) (L : K) (c : K) (hc : 0 < c) :
    Source.init pi Q sv tr (enlargeMap c fm) arg (c * L) none =
      (Source.init pi Q sv tr fm arg L none).map (stretch c (c ^ 3) (c ^ 3)) ∧
    ∀ P, Source.init pi Q sv tr (enlargeMap c fm) arg (c * L) (some P) =
      (Source.init pi Q sv tr fm arg L (some P)).map (stretch c (c ^ 3) 1) := by
  have hd : denser 1 tr = tr := by
    have : ∀ x : Except Err K, x.map (1 * ·) = x := by
      intro x; cases x <;> simp [Except.map]
    simp only [denser, this]
  constructor
  · have := init_stretch pi Q sv tr fm arg L none c 1 hc one_ne_zero
    rw [hd] at this
    simpa using this
  · intro P
    have := init_stretch pi Q sv tr fm arg L (some P) c 1 hc one_ne_zero
    rw [hd] at this
    simpa using this

/-- C75.  All densities multiplied by `n`: strengths and rates are multiplied by `n²`; if a total
power is requested they do not change at all. -/
theorem C75_denser (pi : K) (Q : Reaction → K) (sv : Reaction → List K → Except Err (List K))
    (tr : TransportView K) (fm : FluxMapView K) (arg : SourceArg) (L : K) (n : K) (hn : n ≠ 0) :
    Source.init pi Q sv (denser n tr) fm arg L none =
      (Source.init pi Q sv tr fm arg L none).map (stretch 1 1 (n ^ 2)) ∧
    ∀ P, Source.init pi Q sv (denser n tr) fm arg L (some P) =
      Source.init pi Q sv tr fm arg L (some P) := by
  have hf : enlargeMap 1 fm = fm := by
    simp [enlargeMap]
  constructor
  · have := init_stretch pi Q sv tr fm arg L none 1 n one_pos hn
    rw [hf] at this
    simpa using this
  · intro P
    have := init_stretch pi Q sv tr fm arg L (some P) 1 n one_pos hn
    rw [hf] at this
    have hid : (stretch 1 1 1 : Source K → Source K) = id := by
      funext s
      simp [stretch]
    have hmap : ∀ x : Except Err (Source K), x.map id = x := by intro x; cases x <;> rfl
    simpa [hid, hmap] using this

end

end TNS
