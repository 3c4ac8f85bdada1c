import Verif.Spec.RoundedMake
import Verif.Props.RoundedReactivity
import Verif.Props.RoundedSpace
import Verif.Lemmas.MapM
import Verif.Lemmas.LogClose
/-
C93: the whole constructor in floating point.
-/

set_option autoImplicit false

namespace TNS
open Spec
noncomputable section

theorem zip_map_getD {β : Type} (f : Reaction → β) (st : List Reaction) (ys : List β) (dflt : β)
    (hn : st.Nodup) (h : List.Forall₂ (fun r y => f r = y) st ys) (r : Reaction) :
    Dict.getD (st.zip ys) r dflt = if r ∈ st then f r else dflt := by
  have : ys = st.map f := by
    induction h with
    | nil => rfl
    | cons h1 _ ih => rw [List.map_cons, h1, ih (List.nodup_cons.1 hn).2]
  rw [this]
  have e : st.zip (st.map f) = st.map fun r => (r, f r) := by
    rw [List.zip_map_right]
    induction st with
    | nil => rfl
    | cons a l ih => simp [List.zip]
  rw [e, Dict.getD, Dict.get?_map_pair]
  split_ifs <;> rfl

/-- What the constructor does, with the intermediate results named. -/
structure Made (A : Arith) (F : MathLib) (xs : Reaction → List ℝ → Except Err (List ℝ))
    (pts : List (ℝ × ℝ)) (oX oZ : ℝ) (psi : ℝ → ℝ → ℝ) (tr : TransportView ℝ)
    (arg : SourceArg) (L : ℝ) (method : ReactivityMethod) (st : List Reaction) (temp d t h : List ℝ)
    (sv : Reaction → List ℝ) : Prop where
  parse : parseSourceType arg = .ok st
  htemp : List.Forall₂ (fun p y => tr.temperature (psi p.1 p.2) = .ok y) (samplePointsR A pts oX oZ L) temp
  hd : List.Forall₂ (fun p y => tr.deuterium (psi p.1 p.2) = .ok y) (samplePointsR A pts oX oZ L) d
  ht : List.Forall₂ (fun p y => tr.tritium (psi p.1 p.2) = .ok y) (samplePointsR A pts oX oZ L) t
  hh : List.Forall₂ (fun p y => tr.helium3 (psi p.1 p.2) = .ok y) (samplePointsR A pts oX oZ L) h
  hsv : ∀ r ∈ st, reactivityR A F xs method r temp = .ok (sv r)
  other : ∀ r, r ∉ st → sv r = []

/-- The source before normalisation. -/
def unscaled (A : Arith) (pi : ℝ) (pts : List (ℝ × ℝ)) (oX oZ L : ℝ) (st : List Reaction) (temp d t h : List ℝ)
    (sv : Reaction → List ℝ) : Source ℝ :=
  Source.initR A st (sampleSpace2dR A pi pts oX oZ L).x (sampleSpace2dR A pi pts oX oZ L).z
    (sampleSpace2dR A pi pts oX oZ L).dVolume temp d t h L sv

theorem psis (A : Arith) (pi : ℝ) (pts : List (ℝ × ℝ)) (oX oZ L : ℝ) (psi : ℝ → ℝ → ℝ) :
    List.zipWith psi (sampleSpace2dR A pi pts oX oZ L).x (sampleSpace2dR A pi pts oX oZ L).z =
      (samplePointsR A pts oX oZ L).map fun p => psi p.1 p.2 := by
  simp only [sampleSpace2dR]
  generalize samplePointsR A pts oX oZ L = l
  induction l with
  | nil => rfl
  | cons a l ih => simp [ih]

theorem mapM_psis {l : List (ℝ × ℝ)} {psi : ℝ → ℝ → ℝ} {f : ℝ → Except Err ℝ} {ys : List ℝ} :
    (l.map fun p => psi p.1 p.2).mapM f = .ok ys ↔
      List.Forall₂ (fun p y => f (psi p.1 p.2) = .ok y) l ys := by
  rw [mapM_ok_iff, List.forall₂_map_left_iff]

theorem makeR_ok_iff {A : Arith} {F : MathLib} {xs : Reaction → List ℝ → Except Err (List ℝ)} {pi : ℝ}
    {Q : Reaction → ℝ} {pts : List (ℝ × ℝ)} {oX oZ : ℝ} {psi : ℝ → ℝ → ℝ} {tr : TransportView ℝ}
    {arg : SourceArg} {L : ℝ} {power : Option ℝ} {method : ReactivityMethod} {s : Source ℝ} :
    Source.makeR A F xs pi Q pts oX oZ psi tr arg L power method = .ok s ↔
    ∃ st temp d t h sv, Made A F xs pts oX oZ psi tr arg L method st temp d t h sv ∧
      match power with
      | none => s = unscaled A pi pts oX oZ L st temp d t h sv
      | some P => (unscaled A pi pts oX oZ L st temp d t h sv).normaliseR A Q P = .ok s := by
  unfold Source.makeR
  simp only [psis]
  constructor
  · intro H
    cases h0 : parseSourceType arg with
    | error e => rw [h0] at H; cases H
    | ok st =>
    simp only [h0, Bind.bind, Except.bind] at H
    cases h1 : ((samplePointsR A pts oX oZ L).map fun p => psi p.1 p.2).mapM tr.temperature with
    | error e => rw [h1] at H; cases H
    | ok temp =>
    simp only [h1] at H
    cases h2 : ((samplePointsR A pts oX oZ L).map fun p => psi p.1 p.2).mapM tr.deuterium with
    | error e => rw [h2] at H; cases H
    | ok d =>
    simp only [h2] at H
    cases h3 : ((samplePointsR A pts oX oZ L).map fun p => psi p.1 p.2).mapM tr.tritium with
    | error e => rw [h3] at H; cases H
    | ok t =>
    simp only [h3] at H
    cases h4 : ((samplePointsR A pts oX oZ L).map fun p => psi p.1 p.2).mapM tr.helium3 with
    | error e => rw [h4] at H; cases H
    | ok h =>
    simp only [h4] at H
    cases h5 : st.mapM (fun r => reactivityR A F xs method r temp) with
    | error e => rw [h5] at H; cases H
    | ok ys =>
    simp only [h5] at H
    have hn := parse_nodup h0
    let f : Reaction → List ℝ := fun r => match reactivityR A F xs method r temp with
      | .ok y => y
      | .error _ => []
    have h6 := (mapM_ok_iff _ _ _).1 h5
    have h7 : List.Forall₂ (fun r y => f r = y) st ys := h6.imp fun r y hy => by simp only [f, hy]
    have h8 : ∀ r, Dict.getD (st.zip ys) r [] = if r ∈ st then f r else [] := zip_map_getD f st ys [] hn h7
    refine ⟨st, temp, d, t, h, fun r => Dict.getD (st.zip ys) r [], ⟨h0, mapM_psis.1 h1, mapM_psis.1 h2,
      mapM_psis.1 h3, mapM_psis.1 h4, ?_, ?_⟩, ?_⟩
    · intro r hr
      simp only [h8, if_pos hr]
      obtain ⟨i, hi, rfl⟩ := List.mem_iff_getElem.1 hr
      have hl := mapM_length h5
      have := mapM_get h5 i hi (by omega)
      simp only [f, this]
    · intro r hr
      simp only [h8, if_neg hr]
    · cases power with
      | none => simp only [Except.ok.injEq] at H; exact H.symm
      | some P => exact H
  · rintro ⟨st, temp, d, t, h, sv, ⟨h0, h1, h2, h3, h4, h5, h6⟩, H⟩
    have hn := parse_nodup h0
    have h7 : List.Forall₂ (fun r y => sv r = y) st (st.map sv) := by
      rw [List.forall₂_map_right_iff, List.forall₂_same]
      exact fun _ _ => rfl
    have h8 : (fun r => Dict.getD (st.zip (st.map sv)) r []) = sv := by
      funext r
      rw [zip_map_getD sv st _ [] hn h7]
      split_ifs with hr
      · rfl
      · exact (h6 r hr).symm
    have h9 : st.mapM (fun r => reactivityR A F xs method r temp) = .ok (st.map sv) := by
      rw [mapM_ok_iff, List.forall₂_map_right_iff, List.forall₂_same]
      exact h5
    simp only [h0, Bind.bind, Except.bind, mapM_psis.2 h1, mapM_psis.2 h2, mapM_psis.2 h3, mapM_psis.2 h4, h9, h8]
    cases power with
    | none => simp only at H; rw [H]; rfl
    | some P => exact H

theorem rd_rel {A : Arith} {u : ℝ} (hA : StandardModel A u) : ∀ x, |A.rd x - x| ≤ u * |x| := hA.rel

/-- Multiplying relative errors. -/
theorem rel_mul {a b x y e f : ℝ} (hx : 0 ≤ x) (hy : 0 ≤ y) (he : 0 ≤ e) (hf : 0 ≤ f) (ha : |a - x| ≤ e * x)
    (hb : |b - y| ≤ f * y) : |a * b - x * y| ≤ (e + f + e * f) * (x * y) := by
  have e1 : a * b - x * y = (a - x) * (b - y) + (a - x) * y + x * (b - y) := by ring
  rw [e1]
  refine (abs_add_le _ _).trans ((add_le_add (abs_add_le _ _) le_rfl).trans ?_)
  rw [abs_mul, abs_mul, abs_mul, abs_of_nonneg hx, abs_of_nonneg hy]
  have h1 := mul_le_mul ha hb (abs_nonneg _) (by positivity)
  have h2 := mul_le_mul_of_nonneg_right ha hy
  have h3 := mul_le_mul_of_nonneg_left hb hx
  nlinarith

theorem rel_trans {a b c e f : ℝ} (he : 0 ≤ e) (ha : |a - b| ≤ e * b)
    (hb : |b - c| ≤ f * c) : |a - c| ≤ (e + f + e * f) * c := by
  have e1 : a - c = (a - b) + (b - c) := by ring
  rw [e1]
  refine (abs_add_le _ _).trans ?_
  have h1 := (abs_le.1 hb).2
  have h2 : e * b ≤ e * ((1 + f) * c) := mul_le_mul_of_nonneg_left (by linarith) he
  nlinarith

theorem rateDensity_lin (n : Species → ℝ) (q : ℝ) (r : Reaction) : rateDensity n q r = rateDensity n 1 r * q := by
  unfold rateDensity; ring

theorem rateDensity_nonneg' (n : Species → ℝ) (hn : ∀ sp, 0 ≤ n sp) (q : ℝ) (hq : 0 ≤ q) (r : Reaction) :
    0 ≤ rateDensity n q r := by
  unfold rateDensity
  have := hn (reactants r).1
  have := hn (reactants r).2
  split_ifs <;> positivity

theorem strength_density {A : Arith} {u : ℝ} (hA : StandardModel A u) (hu : u ≤ 1 / 8) (arg : SourceArg)
    (st : List Reaction) (hst : parseSourceType arg = .ok st) (x z vol temp d t h : List ℝ) (L : ℝ)
    (sv : Reaction → List ℝ)
    (hvol : ∀ a ∈ vol, 0 ≤ a) (hd : ∀ a ∈ d, 0 ≤ a) (ht : ∀ a ∈ t, 0 ≤ a) (hh : ∀ a ∈ h, 0 ≤ a)
    (hsv : ∀ r, ∀ a ∈ sv r, 0 ≤ a) (r : Reaction) (hr : r ∈ st) (i : ℕ) (n : Species → ℝ) (si vi : ℝ)
    (e1 : d[i]? = some (n .deuterium)) (e2 : t[i]? = some (n .tritium)) (e3 : h[i]? = some (n .helium3))
    (e4 : (sv r)[i]? = some si) (e5 : vol[i]? = some vi) :
    ∃ str, (strengths (Source.initR A st x z vol temp d t h L sv) r)[i]? = some str ∧
      |str - rateDensity n si r * vi| ≤ 8 * u * (rateDensity n si r * vi) := by
  obtain ⟨str, a1, a2⟩ := C74_strength hA hu arg st hst x z vol temp d t h L sv hvol hd ht hh hsv r hr i _ _ _ si vi
    e1 e2 e3 e4 e5
  refine ⟨str, a1, ?_⟩
  clear a1 e4 hr
  rcases r with (_ | _ | _) | (_ | _) <;> exact a2

section
variable {A : Arith} {u : ℝ} (hA : StandardModel A u) (hu : u ≤ 1 / 1000)
  {F : MathLib} {xs : Reaction → List ℝ → Except Err (List ℝ)} {pi : ℝ} (hpi : |pi - Real.pi| ≤ u * Real.pi)
  {pts : List (ℝ × ℝ)} {oX oZ : ℝ} {psi : ℝ → ℝ → ℝ} {tr : TransportView ℝ}
  {arg : SourceArg} {L : ℝ} {method : ReactivityMethod} {st : List Reaction} {temp d t h : List ℝ}
  {sv : Reaction → List ℝ} (hm : Made A F xs pts oX oZ psi tr arg L method st temp d t h sv)
  {ref : Reaction → ℝ → ℝ} {e : ℝ} (he : 0 ≤ e) (he1 : e ≤ 1 / 1000)
  (hacc : ∀ r ∈ st, AccurateReactivity (reactivityR A F xs method) ref e r)
  (hok : PlasmaOK tr psi (samplePointsR A pts oX oZ L))

omit hA hu hpi hm he he1 hacc hok in
theorem valueAt_list {f : ℝ → Except Err ℝ} {l : List (ℝ × ℝ)} {ys : List ℝ}
    (h : List.Forall₂ (fun p y => f (psi p.1 p.2) = .ok y) l ys) : ys = l.map fun p => valueAt f (psi p.1 p.2) := by
  induction h with
  | nil => rfl
  | cons h1 _ ih => rw [List.map_cons, ← ih, valueAt, h1]

include hm in
theorem made_lists :
    temp = (samplePointsR A pts oX oZ L).map (fun p => valueAt tr.temperature (psi p.1 p.2)) ∧
    d = (samplePointsR A pts oX oZ L).map (fun p => density tr (psi p.1 p.2) .deuterium) ∧
    t = (samplePointsR A pts oX oZ L).map (fun p => density tr (psi p.1 p.2) .tritium) ∧
    h = (samplePointsR A pts oX oZ L).map (fun p => density tr (psi p.1 p.2) .helium3) :=
  ⟨valueAt_list hm.htemp, valueAt_list hm.hd, valueAt_list hm.ht, valueAt_list hm.hh⟩

include hA hu hpi hok in
theorem made_vol_nonneg : ∀ a ∈ (sampleSpace2dR A pi pts oX oZ L).dVolume, 0 ≤ a := by
  have hv := C79_volume A u hA.u_nonneg hu hA.rel pi hpi pts oX oZ L
  intro a ha
  obtain ⟨i, hi, rfl⟩ := List.mem_iff_getElem.1 ha
  have hi' : i < (sampleSpace2dR A pi pts oX oZ L).x.length := hv.length_eq ▸ hi
  have := (List.forall₂_iff_get.1 hv).2 i hi hi'
  simp only [List.get_eq_getElem] at this
  have hx : 0 ≤ (sampleSpace2dR A pi pts oX oZ L).x[i] := by
    have := List.getElem_mem hi'
    obtain ⟨p, hp, e⟩ := List.mem_map.1 (show _ ∈ (samplePointsR A pts oX oZ L).map Prod.fst from this)
    rw [← e]; exact (hok p hp).1
  have hp := Real.pi_pos
  have h0 : 0 ≤ 2 * Real.pi * (sampleSpace2dR A pi pts oX oZ L).x[i] * L ^ 2 := by positivity
  rw [abs_of_nonneg h0] at this
  have := (abs_le.1 this).1
  have hu0 := hA.u_nonneg
  nlinarith

include hm hok in
theorem made_temp : ∀ T ∈ temp, 0.2 ≤ T ∧ T ≤ 100 := by
  intro T hT
  rw [(made_lists hm).1] at hT
  obtain ⟨p, hp, rfl⟩ := List.mem_map.1 hT
  exact (hok p hp).2.2

include hm he1 hacc hok in
theorem made_sv_nonneg : ∀ r, ∀ a ∈ sv r, 0 ≤ a := by
  intro r a ha
  by_cases hr : r ∈ st
  · have ht := made_temp hm hok
    have hc := (hacc r hr).close temp ht _ (hm.hsv r hr)
    obtain ⟨i, hi, rfl⟩ := List.mem_iff_getElem.1 ha
    have hi' : i < temp.length := hc.length_eq ▸ hi
    have := (List.forall₂_iff_get.1 hc).2 i hi' hi
    simp only [List.get_eq_getElem] at this
    have hT := ht _ (List.getElem_mem hi')
    have hp := (hacc r hr).pos _ hT.1 hT.2
    have := (abs_le.1 this).1
    nlinarith
  · rw [hm.other r hr] at ha; cases ha

include hA hu hpi hm he he1 hacc hok in
/-- Strengths before normalisation. -/
theorem made_strength (r : Reaction) (hr : r ∈ st) :
    List.Forall₂ (fun a w => 0 ≤ w ∧ |a - w| ≤ 1.1 * (e + 14 * u) * w)
      (strengths (unscaled A pi pts oX oZ L st temp d t h sv) r)
      ((samplePointsR A pts oX oZ L).map (cellRate ref tr psi L r)) := by
  have hu0 := hA.u_nonneg
  obtain ⟨l1, l2, l3, l4⟩ := made_lists hm
  have htemp := made_temp hm hok
  have hsv0 := made_sv_nonneg hm he1 hacc hok
  have hvol := made_vol_nonneg hA hu hpi hok
  have hc := (hacc r hr).close temp htemp _ (hm.hsv r hr)
  have hv := C79_volume A u hA.u_nonneg hu hA.rel pi hpi pts oX oZ L
  have hlenv : (sampleSpace2dR A pi pts oX oZ L).dVolume.length = (samplePointsR A pts oX oZ L).length := by
    simp [sampleSpace2dR]
  set l := samplePointsR A pts oX oZ L with hl
  have nn : ∀ sp, ∀ a ∈ l.map (fun p => density tr (psi p.1 p.2) sp), 0 ≤ a := by
    intro sp a ha
    obtain ⟨p, hp, rfl⟩ := List.mem_map.1 ha
    exact (hok p hp).2.1 sp
  have hd := nn .deuterium
  have ht := nn .tritium
  have hh := nn .helium3
  rw [← l2] at hd
  rw [← l3] at ht
  rw [← l4] at hh
  have key : ∀ (i : ℕ) (hi : i < l.length), ∃ str,
      (strengths (unscaled A pi pts oX oZ L st temp d t h sv) r)[i]? = some str ∧
        0 ≤ cellRate ref tr psi L r l[i] ∧
        |str - cellRate ref tr psi L r l[i]| ≤ 1.1 * (e + 14 * u) * cellRate ref tr psi L r l[i] := by
    intro i hi
    have hit : i < temp.length := by rw [l1, List.length_map]; exact hi
    have his : i < (sv r).length := hc.length_eq ▸ hit
    have hiv : i < (sampleSpace2dR A pi pts oX oZ L).dVolume.length := by rw [hlenv]; exact hi
    have hix : i < (sampleSpace2dR A pi pts oX oZ L).x.length := hv.length_eq ▸ hiv
    obtain ⟨p1, p2, p3, p4⟩ := hok l[i] (List.getElem_mem hi)
    obtain ⟨str, a1, a2⟩ := strength_density hA (by linarith) arg st hm.parse (sampleSpace2dR A pi pts oX oZ L).x
      (sampleSpace2dR A pi pts oX oZ L).z (sampleSpace2dR A pi pts oX oZ L).dVolume temp d t h L sv hvol hd ht hh hsv0 r hr
      i (density tr (psi l[i].1 l[i].2)) (sv r)[i] (sampleSpace2dR A pi pts oX oZ L).dVolume[i]
      (by rw [l2]; simp [hi]) (by rw [l3]; simp [hi]) (by rw [l4]; simp [hi])
      (List.getElem?_eq_getElem his) (List.getElem?_eq_getElem hiv)
    have b1 := (List.forall₂_iff_get.1 hc).2 i hit his
    have b2 := (List.forall₂_iff_get.1 hv).2 i hiv hix
    simp only [List.get_eq_getElem] at b1 b2
    have ex : (sampleSpace2dR A pi pts oX oZ L).x[i] = l[i].1 := by simp [sampleSpace2dR, hl]
    have et : temp[i] = valueAt tr.temperature (psi l[i].1 l[i].2) := by simp [l1]
    rw [ex] at b2
    rw [et] at b1
    have hp := Real.pi_pos
    have hV : 0 ≤ 2 * Real.pi * l[i].1 * L ^ 2 := by positivity
    rw [abs_of_nonneg hV] at b2
    have hs0 := (hacc r hr).pos _ p3 p4
    have hn0 := rateDensity_nonneg' _ p2 1 zero_le_one r
    rw [rateDensity_lin] at a2
    unfold cellRate
    rw [rateDensity_lin]
    generalize rateDensity (density tr (psi l[i].1 l[i].2)) 1 r = n at a2 hn0 ⊢
    generalize ref r (valueAt tr.temperature (psi l[i].1 l[i].2)) = y at b1 hs0 ⊢
    generalize 2 * Real.pi * l[i].1 * L ^ 2 = V at b2 hV ⊢
    have c1 : |n * (sv r)[i] - n * y| ≤ e * (n * y) := by
      rw [← mul_sub, abs_mul, abs_of_nonneg hn0]
      have := mul_le_mul_of_nonneg_left b1 hn0
      linarith
    have hny : 0 ≤ n * y := mul_nonneg hn0 hs0.le
    have c2 := rel_mul hny hV he (by positivity) c1 b2
    have c3 := rel_trans (by positivity) a2 c2
    have hw : 0 ≤ n * y * V := mul_nonneg hny hV
    refine ⟨str, a1, hw, c3.trans (mul_le_mul_of_nonneg_right ?_ hw)⟩
    nlinarith [mul_nonneg he hu0, mul_nonneg (mul_nonneg he hu0) hu0]
  obtain ⟨q1, q2, q3⟩ := initR_holds A st (parse_nodup hm.parse) (sampleSpace2dR A pi pts oX oZ L).x
      (sampleSpace2dR A pi pts oX oZ L).z (sampleSpace2dR A pi pts oX oZ L).dVolume temp d t h L sv
  have hlen : (strengths (unscaled A pi pts oX oZ L st temp d t h sv) r).length ≤ l.length := by
    unfold strengths unscaled
    rw [(q3.getD r (by rw [q1]; exact hr)).1]
    unfold strengthR
    rw [List.length_zipWith, hlenv]
    exact min_le_right _ _
  have hlen' : (strengths (unscaled A pi pts oX oZ L st temp d t h sv) r).length = l.length := by
    refine le_antisymm hlen ?_
    by_contra hlt
    push Not at hlt
    obtain ⟨str, a, -⟩ := key _ hlt
    simp at a
  rw [List.forall₂_iff_get]
  refine ⟨by rw [hlen', List.length_map], fun i h1 h2 => ?_⟩
  obtain ⟨str, a1, a2, a3⟩ := key i (by omega)
  rw [List.getElem?_eq_getElem h1, Option.some.injEq] at a1
  simp only [List.get_eq_getElem, List.getElem_map]
  rw [a1]
  exact ⟨a2, a3⟩

/-- Relative errors of sums. -/
theorem rel_sum {a w : List ℝ} {δ : ℝ} (h : List.Forall₂ (fun a w => 0 ≤ w ∧ |a - w| ≤ δ * w) a w) :
    0 ≤ w.sum ∧ |a.sum - w.sum| ≤ δ * w.sum := by
  induction h with
  | nil => simp
  | cons h1 _ ih =>
    simp only [List.sum_cons]
    refine ⟨add_nonneg h1.1 ih.1, ?_⟩
    rename_i x y l l' _
    have e : x + l.sum - (y + l'.sum) = (x - y) + (l.sum - l'.sum) := by ring
    rw [e]
    refine (abs_add_le _ _).trans ?_
    have := h1.2
    have := ih.2
    linarith

include hA hu hpi hm he he1 hacc hok in
/-- Power before normalisation. -/
theorem made_power {Q : Reaction → ℝ} (hQ : ∀ r, 0 < Q r) :
    0 ≤ cellsPower ref Q tr psi L (samplePointsR A pts oX oZ L) st ∧
    |truePower Q (unscaled A pi pts oX oZ L st temp d t h sv) -
      cellsPower ref Q tr psi L (samplePointsR A pts oX oZ L) st| ≤
      1.1 * (e + 14 * u) * cellsPower ref Q tr psi L (samplePointsR A pts oX oZ L) st := by
  obtain ⟨q1, -, -⟩ := initR_holds A st (parse_nodup hm.parse) (sampleSpace2dR A pi pts oX oZ L).x
      (sampleSpace2dR A pi pts oX oZ L).z (sampleSpace2dR A pi pts oX oZ L).dVolume temp d t h L sv
  have q1' : (unscaled A pi pts oX oZ L st temp d t h sv).sourceType = st := q1
  unfold truePower cellsPower
  rw [q1']
  apply rel_sum
  rw [List.forall₂_map_left_iff, List.forall₂_map_right_iff, List.forall₂_same]
  intro r hr
  obtain ⟨a1, a2⟩ := rel_sum (made_strength hA hu hpi hm he he1 hacc hok r hr)
  have hq := (hQ r).le
  change 0 ≤ channelRate ref tr psi L (samplePointsR A pts oX oZ L) r at a1
  change |_ - channelRate ref tr psi L (samplePointsR A pts oX oZ L) r| ≤
    _ * channelRate ref tr psi L (samplePointsR A pts oX oZ L) r at a2
  refine ⟨mul_nonneg a1 hq, ?_⟩
  rw [← sub_mul, abs_mul, abs_of_nonneg hq]
  have := mul_le_mul_of_nonneg_right a2 hq
  linarith

include hA hu hpi hm he1 hacc hok in
theorem made_reachable (Q : Reaction → ℝ) : ReachableR A Q 0 (unscaled A pi pts oX oZ L st temp d t h sv) := by
  obtain ⟨l1, l2, l3, l4⟩ := made_lists hm
  have nn : ∀ sp, ∀ a ∈ (samplePointsR A pts oX oZ L).map (fun p => density tr (psi p.1 p.2) sp), 0 ≤ a := by
    intro sp a ha
    obtain ⟨p, hp, rfl⟩ := List.mem_map.1 ha
    exact (hok p hp).2.1 sp
  exact ReachableR.constructed arg st hm.parse _ _ _ _ _ _ _ _ _ (made_vol_nonneg hA hu hpi hok) (l2 ▸ nn .deuterium)
    (l3 ▸ nn .tritium) (l4 ▸ nn .helium3) (made_sv_nonneg hm he1 hacc hok)

end

/-! ### The claims -/

theorem unscaled_fields (A : Arith) (pi : ℝ) (pts : List (ℝ × ℝ)) (oX oZ L : ℝ) (st : List Reaction)
    (temp d t h : List ℝ) (sv : Reaction → List ℝ) (hst : st.Nodup) :
    (unscaled A pi pts oX oZ L st temp d t h sv).sourceType = st ∧
    centres (unscaled A pi pts oX oZ L st temp d t h sv) = samplePointsR A pts oX oZ L ∧
    cells (unscaled A pi pts oX oZ L st temp d t h sv) = (samplePointsR A pts oX oZ L).length := by
  unfold unscaled Source.initR
  rw [foldl_addReactionR A d t h sv st hst _ (by simp [Dict.keys]) (by simp [Dict.keys]) (by simp [Dict.keys])]
  refine ⟨rfl, ?_, ?_⟩
  · simp only [centres, sampleSpace2dR]
    generalize samplePointsR A pts oX oZ L = l
    induction l with
    | nil => rfl
    | cons a l ih => simp [ih]
  · simp [cells, sampleSpace2dR]

theorem normaliseR_fields {A : Arith} {Q : Reaction → ℝ} {P : ℝ} {s s' : Source ℝ} (h : s.normaliseR A Q P = .ok s') :
    s'.sourceType = s.sourceType ∧ centres s' = centres s ∧ cells s' = cells s := by
  unfold Source.normaliseR at h
  split_ifs at h with c1 c2
  cases h
  rw [foldl_scaleReactionR]
  exact ⟨rfl, rfl, rfl⟩

section
variable {A : Arith} {u : ℝ} (hA : StandardModel A u)
  {F : MathLib} {xs : Reaction → List ℝ → Except Err (List ℝ)} {pi : ℝ} (hpi : |pi - Real.pi| ≤ u * Real.pi)
  {Q : Reaction → ℝ} (hQ : ∀ r, 0 < Q r)
  {pts : List (ℝ × ℝ)} {oX oZ : ℝ} {psi : ℝ → ℝ → ℝ} {tr : TransportView ℝ}
  {arg : SourceArg} {L : ℝ} {method : ReactivityMethod} {s : Source ℝ}
  {ref : Reaction → ℝ → ℝ} {e : ℝ} (he : 0 ≤ e)
  (hacc : ∀ r ∈ s.sourceType, AccurateReactivity (reactivityR A F xs method) ref e r)
  (hok : PlasmaOK tr psi (centres s))

/-- C93.  The cells of a source are those of the sampling, whether or not it was normalised. -/
theorem C93_cells {power : Option ℝ}
    (hs : Source.makeR A F xs pi Q pts oX oZ psi tr arg L power method = .ok s) :
    parseSourceType arg = .ok s.sourceType ∧ centres s = samplePointsR A pts oX oZ L := by
  obtain ⟨st, temp, d, t, h, sv, hm, H⟩ := makeR_ok_iff.1 hs
  obtain ⟨f1, f2, f3⟩ := unscaled_fields A pi pts oX oZ L st temp d t h sv (parse_nodup hm.parse)
  cases power with
  | none => simp only at H; subst H; exact ⟨by rw [f1]; exact hm.parse, f2⟩
  | some P =>
    obtain ⟨g1, g2, g3⟩ := normaliseR_fields H
    exact ⟨by rw [g1, f1]; exact hm.parse, by rw [g2, f2]⟩

include hA hpi he hacc hok in
/-- C93.  Without normalisation: the strength computed for a cell is its reaction rate with a relative error of at most
`1.1 (e + 14 u)`, `e` the relative error of the reactivities. -/
theorem C93_unscaled (hs : Source.makeR A F xs pi Q pts oX oZ psi tr arg L none method = .ok s)
    (hu : u ≤ 1 / 1000) (he1 : e ≤ 1 / 1000) :
    ∀ r ∈ s.sourceType, List.Forall₂
      (fun a p => |a - cellRate ref tr psi L r p| ≤ 1.1 * (e + 14 * u) * cellRate ref tr psi L r p)
      (strengths s r) (centres s) := by
  obtain ⟨st, temp, d, t, h, sv, hm, H⟩ := makeR_ok_iff.1 hs
  obtain ⟨f1, f2, f3⟩ := unscaled_fields A pi pts oX oZ L st temp d t h sv (parse_nodup hm.parse)
  simp only at H
  subst H
  rw [f1] at hacc ⊢
  rw [f2] at hok ⊢
  intro r hr
  have := made_strength hA hu hpi hm he he1 hacc hok r hr
  rw [List.forall₂_map_right_iff] at this
  exact this.imp fun _ _ h => h.2

include hA hpi he hacc hok hQ in
/-- C93.  The whole constructor in floating point: the strength of a cell of a source normalised to the power `P` is
`P x (its reaction rate) / (power of all cells by the formulas)`, with a relative error of at most
`2.3 e + 3 (cells + channels + 14) u`, where `e` is the relative error of the reactivities and `u` the unit roundoff. -/
theorem C93_strengths {P : ℝ} (hP : 0 < P)
    (hs : Source.makeR A F xs pi Q pts oX oZ psi tr arg L (some P) method = .ok s)
    (hsmall : 2.3 * e + 3 * ((cells s : ℝ) + s.sourceType.length + 14) * u ≤ 1 / 500) :
    0 < cellsPower ref Q tr psi L (centres s) s.sourceType ∧
    ∀ r ∈ s.sourceType, List.Forall₂ (fun a p =>
      |a - P * cellRate ref tr psi L r p / cellsPower ref Q tr psi L (centres s) s.sourceType| ≤
        (2.3 * e + 3 * ((cells s : ℝ) + s.sourceType.length + 14) * u) *
          (P * cellRate ref tr psi L r p / cellsPower ref Q tr psi L (centres s) s.sourceType))
      (strengths s r) (centres s) := by
  have hu0 := hA.u_nonneg
  obtain ⟨st, temp, d, t, h, sv, hm, H⟩ := makeR_ok_iff.1 hs
  simp only at H
  obtain ⟨f1, f2, f3⟩ := unscaled_fields A pi pts oX oZ L st temp d t h sv (parse_nodup hm.parse)
  obtain ⟨g1, g2, g3⟩ := normaliseR_fields H
  rw [f1] at g1
  rw [f2] at g2
  rw [f3] at g3
  have hN : (0 : ℝ) ≤ cells s := Nat.cast_nonneg _
  have hM : (0 : ℝ) ≤ s.sourceType.length := Nat.cast_nonneg _
  have hNu : 0 ≤ (cells s : ℝ) * u := mul_nonneg hN hu0
  have hMu : 0 ≤ (s.sourceType.length : ℝ) * u := mul_nonneg hM hu0
  have hu : u ≤ 1 / 10000 := by nlinarith
  have he1 : e ≤ 1 / 1000 := by nlinarith
  rw [g1] at hacc hsmall ⊢
  rw [g2] at hok ⊢
  rw [g1] at hMu hM
  set s0 := unscaled A pi pts oX oZ L st temp d t h sv with hs0
  have hre := made_reachable hA (by linarith) hpi hm he1 hacc hok Q
  rw [← hs0] at hre
  obtain ⟨p0, p1⟩ := made_power hA (by linarith) hpi hm he he1 hacc hok hQ
  rw [← hs0] at p1
  have hc1 : cells s0 = cells s := by rw [f3, g3]
  have ht1 : s0.sourceType = st := f1
  obtain ⟨w1, -⟩ := C74_power hA hQ hre hP H (by rw [hc1, ht1]; nlinarith)
  rw [hc1, ht1] at w1
  obtain ⟨-, c, hc0, hc⟩ := C74_shape hA hQ hre hP H
  rw [ht1] at hc
  set T := cellsPower ref Q tr psi L (samplePointsR A pts oX oZ L) st with hT
  set δ := 1.1 * (e + 14 * u) with hδ
  have hδ0 : 0 ≤ δ := by rw [hδ]; positivity
  have hδ1 : δ ≤ 1 / 100 := by rw [hδ]; linarith
  -- the power of the scaled source is `c` times that of the unscaled one
  have w2 : |truePower Q s - c * truePower Q s0| ≤ u * (c * truePower Q s0) := by
    have e1 : c * truePower Q s0 = (st.map fun r => (strengths s0 r).sum * c * Q r).sum := by
      unfold truePower
      rw [ht1, ← List.sum_map_mul_left]
      refine congrArg List.sum (List.map_congr_left fun r _ => by ring)
    rw [e1]
    unfold truePower
    rw [g1]
    refine (rel_sum ?_).2
    rw [List.forall₂_map_left_iff, List.forall₂_map_right_iff, List.forall₂_same]
    intro r hr
    have h1 := (hc r hr).1
    have hq := (hQ r).le
    obtain ⟨f, g, w, hH, hi⟩ := reachableR_inv hA hQ hre
    have hnn : ∀ x ∈ strengths s0 r, 0 ≤ x := by
      unfold strengths
      rw [(hH.getD r (by rw [ht1]; exact hr)).1]
      exact (hi r (by rw [ht1]; exact hr)).1
    have h2 : List.Forall₂ (fun a w => 0 ≤ w ∧ |a - w| ≤ u * w) (strengths s r) ((strengths s0 r).map (c * ·)) := by
      rw [List.forall₂_map_right_iff, List.forall₂_iff_get]
      refine ⟨h1.length_eq.symm, fun i a b => ⟨mul_nonneg hc0 (hnn _ (List.get_mem _ _)), ?_⟩⟩
      exact (List.forall₂_iff_get.1 h1).2 i b a
    obtain ⟨h3, h4⟩ := rel_sum h2
    rw [List.sum_map_mul_left, List.map_id'] at h3 h4
    refine ⟨mul_nonneg (by linarith) hq, ?_⟩
    rw [← sub_mul, abs_mul, abs_of_nonneg hq, mul_comm _ c]
    have := mul_le_mul_of_nonneg_right h4 hq
    linarith
  have hK : 2 * ((cells s : ℝ) + st.length + 1) * u ≤ 1 / 100 := by nlinarith
  have LP : LC (1.02 * (2 * ((cells s : ℝ) + st.length + 1) * u)) (truePower Q s) P := LC.of_rel hP hK w1
  have hTs : 0 < truePower Q s := LP.1
  have hcT0 : 0 < c * truePower Q s0 := by
    by_contra hn
    have h0 : 0 ≤ truePower Q s0 := by
      obtain ⟨f, g, w, hH, hi⟩ := reachableR_inv hA hQ hre
      exact (near_power hA hQ hH fun r hr => ⟨(hi r hr).1, (hi r hr).2.1⟩).1
    have hz : c * truePower Q s0 = 0 := le_antisymm (not_lt.1 hn) (mul_nonneg hc0 h0)
    rw [hz] at w2
    have := (abs_le.1 w2).2
    linarith
  have hcpos : 0 < c := by
    rcases hc0.lt_or_eq with h | h
    · exact h
    · rw [← h, zero_mul] at hcT0; exact absurd hcT0 (lt_irrefl _)
  have hTpos : 0 < T := by
    rcases p0.lt_or_eq with h | h
    · exact h
    · rw [← h, mul_zero] at p1
      have := abs_nonpos_iff.1 p1
      have h0 : truePower Q s0 = 0 := by linarith
      rw [h0, mul_zero] at hcT0; exact absurd hcT0 (lt_irrefl _)
  refine ⟨hTpos, fun r hr => ?_⟩
  have L0 : LC (1.02 * δ) (truePower Q s0) T := LC.of_rel hTpos hδ1 p1
  have L1 : LC (1.02 * u) (truePower Q s) (c * truePower Q s0) := LC.of_rel hcT0 (by linarith) w2
  have L2 : LC (1.02 * u + 1.02 * δ) (truePower Q s) (c * T) := L1.trans (L0.mul_left hcpos)
  have hstr := made_strength hA (by linarith) hpi hm he he1 hacc hok r hr
  rw [List.forall₂_map_right_iff] at hstr
  have hsc := (hc r hr).1
  rw [List.forall₂_iff_get]
  refine ⟨hsc.length_eq.symm.trans hstr.length_eq, fun i h1 h2 => ?_⟩
  have h3 : i < (strengths s0 r).length := by rw [hsc.length_eq]; exact h1
  have b1 := (List.forall₂_iff_get.1 hsc).2 i h3 h1
  have b2 := (List.forall₂_iff_get.1 hstr).2 i h3 h2
  generalize (strengths s r).get ⟨i, h1⟩ = σ at b1 ⊢
  generalize (strengths s0 r).get ⟨i, h3⟩ = a at b1 b2
  simp only [List.get_eq_getElem] at b2 ⊢
  generalize cellRate ref tr psi L r (samplePointsR A pts oX oZ L)[i] = w at b2 ⊢
  obtain ⟨hw, b2⟩ := b2
  rcases hw.lt_or_eq with hw | hw
  · have M0 : LC (1.02 * δ) a w := LC.of_rel hw hδ1 b2
    have M1 : LC (1.02 * u) σ (c * a) := LC.of_rel (mul_pos hcpos M0.1) (by linarith) b1
    have M2 : LC (1.02 * u + 1.02 * δ) σ (c * w) := M1.trans (M0.mul_left hcpos)
    -- `σ = (σ / P) P`
    have M3 : LC ((1.02 * u + 1.02 * δ) + (1.02 * u + 1.02 * δ)) (σ / truePower Q s) (c * w / (c * T)) := M2.div L2
    have e1 : c * w / (c * T) = w / T := mul_div_mul_left _ _ hcpos.ne'
    rw [e1] at M3
    have M4 := M3.mul LP
    have e2 : σ / truePower Q s * truePower Q s = σ := div_mul_cancel₀ _ hTs.ne'
    have e3 : w / T * P = P * w / T := by ring
    rw [e2, e3] at M4
    have hε : 1.02 * u + 1.02 * δ + (1.02 * u + 1.02 * δ) + 1.02 * (2 * ((cells s : ℝ) + st.length + 1) * u) ≤ 1 / 100 := by
      rw [hδ]; nlinarith
    refine (M4.rel hε).trans (mul_le_mul_of_nonneg_right ?_ (by positivity))
    rw [hδ]; nlinarith
  · rw [← hw, mul_zero] at b2
    have ha := abs_nonpos_iff.1 b2
    have ha : a = 0 := by linarith
    rw [ha, mul_zero, mul_zero] at b1
    have hσ := abs_nonpos_iff.1 b1
    rw [← hw]
    simp only [mul_zero, zero_div, sub_zero] at hσ ⊢
    rw [hσ, abs_zero]

include hA hpi he hacc hok hQ in
/-- C93.  The rates reported for a channel: reactions per second, and neutrons per second. -/
theorem C93_rates {P : ℝ} (hP : 0 < P)
    (hs : Source.makeR A F xs pi Q pts oX oZ psi tr arg L (some P) method = .ok s)
    (hsmall : 2.3 * e + 3 * ((cells s : ℝ) + s.sourceType.length + 14) * u ≤ 1 / 500) (r : Reaction)
    (hr : r ∈ s.sourceType) :
    let rate := P * channelRate ref tr psi L (centres s) r / cellsPower ref Q tr psi L (centres s) s.sourceType
    let ε := 2.3 * e + 8 * ((cells s : ℝ) + s.sourceType.length + 14) * u
    |s.numReactions.getD r 0 - rate| ≤ ε * rate ∧
    |s.numNeutrons.getD r 0 - (neutronYield r : ℝ) * rate| ≤ ε * ((neutronYield r : ℝ) * rate) := by
  intro rate ε
  have hu0 := hA.u_nonneg
  obtain ⟨hT, hstr⟩ := C93_strengths hA hpi hQ he hacc hok hP hs hsmall
  have hstr := hstr r hr
  set T := cellsPower ref Q tr psi L (centres s) s.sourceType with hTdef
  have hN : (0 : ℝ) ≤ cells s := Nat.cast_nonneg _
  have hM : (0 : ℝ) ≤ s.sourceType.length := Nat.cast_nonneg _
  have hNu : 0 ≤ (cells s : ℝ) * u := mul_nonneg hN hu0
  have hMu : 0 ≤ (s.sourceType.length : ℝ) * u := mul_nonneg hM hu0
  have hu : u ≤ 1 / 10000 := by nlinarith
  have he1 : e ≤ 1 / 1000 := by nlinarith
  set ε0 := 2.3 * e + 3 * ((cells s : ℝ) + s.sourceType.length + 14) * u with hε0
  have hε0' : 0 ≤ ε0 := by rw [hε0]; positivity
  obtain ⟨st, temp, d, t, h, sv, hm, H⟩ := makeR_ok_iff.1 hs
  simp only at H
  obtain ⟨f1, f2, f3⟩ := unscaled_fields A pi pts oX oZ L st temp d t h sv (parse_nodup hm.parse)
  obtain ⟨g1, g2, g3⟩ := normaliseR_fields H
  rw [f1] at g1
  rw [f2] at g2
  have hre : ReachableR A Q 1 s := ReachableR.normalised
    (made_reachable hA (by linarith) hpi hm he1 (g1 ▸ hacc) (g2 ▸ hok) Q) hP H
  obtain ⟨r1, r2⟩ := C74_rates hA hQ hre r hr (by push_cast; nlinarith)
  push_cast at r1 r2
  have hcell : ∀ p ∈ centres s, 0 ≤ cellRate ref tr psi L r p := by
    intro p hp
    obtain ⟨p1, p2, p3, p4⟩ := hok p hp
    have := Real.pi_pos
    exact mul_nonneg (rateDensity_nonneg' _ p2 _ ((hacc r hr).pos _ p3 p4).le r) (by positivity)
  have hsum : 0 ≤ rate ∧ |(strengths s r).sum - rate| ≤ ε0 * rate := by
    have e1 : rate = ((centres s).map fun p => P * cellRate ref tr psi L r p / T).sum := by
      have : (fun p => P * cellRate ref tr psi L r p / T) = fun p => P / T * cellRate ref tr psi L r p := by
        funext p; ring
      rw [this, List.sum_map_mul_left]
      change P * channelRate ref tr psi L (centres s) r / T = P / T * channelRate ref tr psi L (centres s) r
      ring
    rw [e1]
    apply rel_sum
    rw [List.forall₂_map_right_iff, List.forall₂_iff_get]
    refine ⟨hstr.length_eq, fun i h1 h2 => ⟨?_, (List.forall₂_iff_get.1 hstr).2 i h1 h2⟩⟩
    have := hcell _ (List.get_mem _ ⟨i, h2⟩)
    positivity
  obtain ⟨h0, h1⟩ := hsum
  have a1 := rel_trans (by positivity) r1 h1
  have hy : (0 : ℝ) ≤ neutronYield r := Nat.cast_nonneg _
  have a2 : |(neutronYield r : ℝ) * s.numReactions.getD r 0 - neutronYield r * rate| ≤
      (4 * ((cells s : ℝ) + 1) * u + ε0 + 4 * ((cells s : ℝ) + 1) * u * ε0) * (neutronYield r * rate) := by
    rw [← mul_sub, abs_mul, abs_of_nonneg hy]
    have := mul_le_mul_of_nonneg_left a1 hy
    linarith
  have a3 := rel_trans (by positivity) r2 a2
  have hk : 4 * ((cells s : ℝ) + 1) * u ≤ 1 / 100 := by nlinarith
  have hk0 : 0 ≤ 4 * ((cells s : ℝ) + 1) * u := by positivity
  have x1 : 4 * ((cells s : ℝ) + 1) * u = 4 * (cells s * u) + 4 * u := by ring
  have x2 : 3 * ((cells s : ℝ) + s.sourceType.length + 14) * u =
      3 * (cells s * u) + 3 * (s.sourceType.length * u) + 42 * u := by ring
  have x3 : 8 * ((cells s : ℝ) + s.sourceType.length + 14) * u =
      8 * (cells s * u) + 8 * (s.sourceType.length * u) + 112 * u := by ring
  set κ := 4 * ((cells s : ℝ) + 1) * u with hκ
  have k1 : κ * ε0 ≤ κ * (1 / 500) := mul_le_mul_of_nonneg_left hsmall hk0
  have k2 : 4 * (1 + 1) * u * (κ + ε0 + κ * ε0) ≤ 4 * (1 + 1) * u * 1 :=
    mul_le_mul_of_nonneg_left (by linarith) (by positivity)
  constructor
  · refine a1.trans (mul_le_mul_of_nonneg_right ?_ h0)
    simp only [ε]
    rw [x3]
    linarith
  · refine a3.trans (mul_le_mul_of_nonneg_right ?_ (mul_nonneg hy h0))
    simp only [ε]
    rw [x3]
    linarith

end

/-- C93.  Success: with a source type that is understood and at least one cell, profiles that have values at all cells,
and a positive power by the formulas, the constructor does not fail. -/
theorem C93_succeeds {A : Arith} {u : ℝ} (hA : StandardModel A u)
    {F : MathLib} {xs : Reaction → List ℝ → Except Err (List ℝ)} {pi : ℝ} (hpi : |pi - Real.pi| ≤ u * Real.pi)
    {Q : Reaction → ℝ} (hQ : ∀ r, 0 < Q r)
    {pts : List (ℝ × ℝ)} {oX oZ : ℝ} {psi : ℝ → ℝ → ℝ} {tr : TransportView ℝ}
    {arg : SourceArg} {L : ℝ} {method : ReactivityMethod} {st : List Reaction}
    {ref : Reaction → ℝ → ℝ} {e : ℝ} (he : 0 ≤ e) (hsmall : e + 14 * u ≤ 1 / 2000)
    (hst : parseSourceType arg = .ok st)
    (hacc : ∀ r ∈ st, AccurateReactivity (reactivityR A F xs method) ref e r)
    (hok : PlasmaOK tr psi (samplePointsR A pts oX oZ L))
    (hval : ∀ p ∈ samplePointsR A pts oX oZ L, ∀ f ∈ [tr.temperature, tr.deuterium, tr.tritium, tr.helium3],
      ∃ y, f (psi p.1 p.2) = .ok y)
    (hne : samplePointsR A pts oX oZ L ≠ []) (power : Option ℝ)
    (hpow : 0 < cellsPower ref Q tr psi L (samplePointsR A pts oX oZ L) st) :
    ∃ s, Source.makeR A F xs pi Q pts oX oZ psi tr arg L power method = .ok s := by
  have hu0 := hA.u_nonneg
  have key : ∀ f ∈ [tr.temperature, tr.deuterium, tr.tritium, tr.helium3],
      ∃ ys, List.Forall₂ (fun (p : ℝ × ℝ) y => f (psi p.1 p.2) = .ok y) (samplePointsR A pts oX oZ L) ys := by
    intro f hf
    obtain ⟨ys, hy⟩ := mapM_exists_ok f ((samplePointsR A pts oX oZ L).map fun p => psi p.1 p.2) (by
      intro a ha
      obtain ⟨p, hp, rfl⟩ := List.mem_map.1 ha
      exact hval p hp f hf)
    exact ⟨ys, mapM_psis.1 hy⟩
  obtain ⟨temp, h1⟩ := key tr.temperature (by simp)
  obtain ⟨d, h2⟩ := key tr.deuterium (by simp)
  obtain ⟨t, h3⟩ := key tr.tritium (by simp)
  obtain ⟨h, h4⟩ := key tr.helium3 (by simp)
  have htne : temp ≠ [] := by
    rintro rfl
    exact hne (List.length_eq_zero_iff.1 h1.length_eq)
  have htemp : ∀ T ∈ temp, 0.2 ≤ T ∧ T ≤ 100 := by
    intro T hT
    rw [valueAt_list h1] at hT
    obtain ⟨p, hp, rfl⟩ := List.mem_map.1 hT
    exact (hok p hp).2.2
  have h5 : ∃ sv : Reaction → List ℝ, ∀ r, (r ∈ st → reactivityR A F xs method r temp = .ok (sv r)) ∧ (r ∉ st → sv r = []) := by
    have : ∀ r, ∃ y : List ℝ, (r ∈ st → reactivityR A F xs method r temp = .ok y) ∧ (r ∉ st → y = []) := by
      intro r
      by_cases hr : r ∈ st
      · obtain ⟨y, hy⟩ := (hacc r hr).succeeds temp htne htemp
        exact ⟨y, fun _ => hy, fun h => absurd hr h⟩
      · exact ⟨[], fun h => absurd h hr, fun _ => rfl⟩
    exact ⟨fun r => (this r).choose, fun r => (this r).choose_spec⟩
  obtain ⟨sv, h5⟩ := h5
  have hm : Made A F xs pts oX oZ psi tr arg L method st temp d t h sv :=
    ⟨hst, h1, h2, h3, h4, fun r => (h5 r).1, fun r => (h5 r).2⟩
  cases power with
  | none => exact ⟨_, makeR_ok_iff.2 ⟨st, temp, d, t, h, sv, hm, rfl⟩⟩
  | some P =>
    have hre := made_reachable hA (by linarith) hpi hm (by linarith) hacc hok Q
    obtain ⟨p0, p1⟩ := made_power hA (by linarith) hpi hm he (by linarith) hacc hok hQ
    have := (abs_le.1 p1).1
    obtain ⟨s', hs'⟩ := C74_succeeds hA hQ hre (by nlinarith) P
    exact ⟨s', makeR_ok_iff.2 ⟨st, temp, d, t, h, sv, hm, hs'⟩⟩

/-- The Bosch-Hale reactivities are accurate. -/
theorem boschHale_accurate {A : Arith} {u v : ℝ} (hA : StandardModel A u) {F : MathLib} (hF : AccurateLib F v)
    (huv : u ≤ v) (hv : v ≤ 1 / 10 ^ 6) {xs : Reaction → List ℝ → Except Err (List ℝ)} {method : ReactivityMethod}
    (hmeth : method ≠ .XS) {r : Reaction} (hr : hasBoschHale r = true) :
    AccurateReactivity (reactivityR A F xs method) publishedReactivity (1000 * v) r := by
  have e0 : ∀ ts, reactivityR A F xs method r ts = reactivityBoschHaleR A F ts r := by
    intro ts
    obtain ⟨b, hb⟩ := boschHale_some hr
    cases method
    · exact absurd rfl hmeth
    · simp only [reactivityR, hb]
    · simp only [reactivityR, hb]
  have rng : ∀ ts : List ℝ, (∀ T ∈ ts, 0.2 ≤ T ∧ T ≤ 100) → ∀ t ∈ ts, t ≤ 0 ∨ 1 / 1000 ≤ t ∧ t ≤ 100 := by
    intro ts h t ht
    have := h t ht
    exact .inr ⟨by norm_num at this ⊢; linarith, this.2⟩
  refine ⟨fun T h1 h2 => published_pos hr T (lt_of_lt_of_le (by norm_num) h1) h2, fun ts hne hts => ?_, fun ts hts ys hy => ?_⟩
  · obtain ⟨ys, h, -⟩ := C90_reactivity hA hF huv hv hr ts hne (rng ts hts)
    exact ⟨ys, by rw [e0]; exact h⟩
  · rw [e0] at hy
    by_cases hne : ts = []
    · subst hne
      obtain ⟨b, hb⟩ := boschHale_some hr
      simp only [reactivityBoschHaleR, hb, if_true] at hy
      cases hy
    · obtain ⟨ys', h, hc⟩ := C90_reactivity hA hF huv hv hr ts hne (rng ts hts)
      rw [hy] at h
      cases h
      rw [List.forall₂_iff_get] at hc ⊢
      exact ⟨hc.1, fun i a b => (hc.2 i a b).2.1 (hts _ (List.get_mem ts ⟨i, a⟩)).1⟩

/-- C93.  With binary64 numbers, library functions accurate to 2 ulp, Bosch-Hale reactivities and at most a million
cells, every strength of a source normalised to `P` is right to one part in a billion. -/
theorem C93_binary64 {F : MathLib} (hF : AccurateLib F (4 * (2 : ℝ) ^ (-53 : ℤ)))
    {xs : Reaction → List ℝ → Except Err (List ℝ)} {Q : Reaction → ℝ} (hQ : ∀ r, 0 < Q r)
    {pts : List (ℝ × ℝ)} {oX oZ : ℝ} {psi : ℝ → ℝ → ℝ} {tr : TransportView ℝ}
    {arg : SourceArg} {L : ℝ} {method : ReactivityMethod} (hmeth : method ≠ .XS) {s : Source ℝ} {P : ℝ} (hP : 0 < P)
    (hs : Source.makeR binary64 F xs (round53 Real.pi) Q pts oX oZ psi tr arg L (some P) method = .ok s)
    (hbh : ∀ r ∈ s.sourceType, hasBoschHale r = true) (hok : PlasmaOK tr psi (centres s))
    (hN : cells s + s.sourceType.length ≤ 1000000) :
    ∀ r ∈ s.sourceType, List.Forall₂ (fun a p =>
      |a - P * cellRate publishedReactivity tr psi L r p /
          cellsPower publishedReactivity Q tr psi L (centres s) s.sourceType| ≤
        1 / 10 ^ 9 * (P * cellRate publishedReactivity tr psi L r p /
          cellsPower publishedReactivity Q tr psi L (centres s) s.sourceType))
      (strengths s r) (centres s) := by
  have h53 : (2 : ℝ) ^ (-53 : ℤ) ≤ 1.2 / 10 ^ 16 := by
    rw [zpow_neg, show ((2 : ℝ) ^ (53 : ℤ)) = 2 ^ 53 by norm_cast]; norm_num
  have hp : (0 : ℝ) < (2 : ℝ) ^ (-53 : ℤ) := by positivity
  have hpi : |round53 Real.pi - Real.pi| ≤ (2 : ℝ) ^ (-53 : ℤ) * Real.pi := by
    have := C74_binary64.rel Real.pi
    rwa [abs_of_pos Real.pi_pos] at this
  have hN' : (cells s : ℝ) + s.sourceType.length ≤ 1000000 := by exact_mod_cast hN
  have hacc : ∀ r ∈ s.sourceType, AccurateReactivity (reactivityR binary64 F xs method) publishedReactivity
      (1000 * (4 * (2 : ℝ) ^ (-53 : ℤ))) r := fun r hr =>
    boschHale_accurate C74_binary64 hF (by linarith) (by linarith) hmeth (hbh r hr)
  have hε : 2.3 * (1000 * (4 * (2 : ℝ) ^ (-53 : ℤ))) +
      3 * ((cells s : ℝ) + s.sourceType.length + 14) * (2 : ℝ) ^ (-53 : ℤ) ≤ 1 / 10 ^ 9 := by
    have : 3 * ((cells s : ℝ) + s.sourceType.length + 14) * (2 : ℝ) ^ (-53 : ℤ) ≤
        3 * 1000014 * (2 : ℝ) ^ (-53 : ℤ) := mul_le_mul_of_nonneg_right (by linarith) hp.le
    linarith
  obtain ⟨hT, h⟩ := C93_strengths C74_binary64 hpi hQ (by positivity) hacc hok hP hs (hε.trans (by norm_num))
  intro r hr
  have h := h r hr
  rw [List.forall₂_iff_get] at h ⊢
  refine ⟨h.1, fun i h1 h2 => (h.2 i h1 h2).trans (mul_le_mul_of_nonneg_right hε ?_)⟩
  obtain ⟨p1, p2, p3, p4⟩ := hok _ (List.get_mem (centres s) ⟨i, h2⟩)
  have := Real.pi_pos
  have := mul_nonneg (rateDensity_nonneg' _ p2 _ ((hacc r hr).pos _ p3 p4).le r)
    (show 0 ≤ 2 * Real.pi * ((centres s).get ⟨i, h2⟩).1 * L ^ 2 by positivity)
  exact div_nonneg (mul_nonneg hP.le this) hT.le

end
end TNS
