import Verif.Props.RoundedSdefInput
import Verif.Spec.RoundedAgree
/-
C112: the two exports describe the same source, in floating point.
-/

set_option autoImplicit false

namespace TNS
open Spec
noncomputable section

/-- The one entry of a list that belongs to `q`. -/
theorem forall2_pick {α β : Type} {R : α → β → Prop} {l : List α} {l' : List β} (h : List.Forall₂ R l l') (hnd : l.Nodup)
    (sel : β → Bool) (v : β → ℝ) (q : α) (hsel : ∀ p ∈ l, ∀ g, R p g → (sel g = true ↔ p = q)) :
    (q ∉ l → ((l'.filter sel).map v).sum = 0) ∧ (q ∈ l → ∃ g, R q g ∧ ((l'.filter sel).map v).sum = v g) := by
  induction h with
  | nil => simp
  | @cons a b l l' hab hl ih =>
    obtain ⟨n1, n2⟩ := List.nodup_cons.1 hnd
    obtain ⟨i1, i2⟩ := ih n2 fun p hp g hg => hsel p (List.mem_cons_of_mem _ hp) g hg
    have key := hsel a (by simp) b hab
    by_cases e : a = q
    · subst e
      have hs := key.2 rfl
      refine ⟨fun hn => absurd (by simp) hn, fun _ => ⟨b, hab, ?_⟩⟩
      rw [List.filter_cons_of_pos hs, List.map_cons, List.sum_cons, i1 n1, add_zero]
    · have hs : ¬ sel b = true := fun h => e (key.1 h)
      rw [List.filter_cons_of_neg hs]
      refine ⟨fun hn => i1 fun hm => hn (List.mem_cons_of_mem _ hm), fun hm => ?_⟩
      rcases List.mem_cons.1 hm with hm | hm
      · exact absurd hm.symm e
      · exact i2 hm

/-- Sampled cells are at least three quarters of a side apart. -/
theorem sampled_apart (A : Arith) (u : ℝ) (pts : List (ℝ × ℝ)) (oX oZ L M : ℝ) (h : Resolved A u pts oX oZ L M) :
    (samplePointsR A pts oX oZ L).Pairwise fun p q => p.1 + 3 / 4 * L ≤ q.1 ∨ p.1 = q.1 ∧ p.2 + 3 / 4 * L ≤ q.2 := by
  obtain ⟨k, k', n, n', g, g', e1, e2, e3, -⟩ := rounded_grid A u pts oX oZ L M h
  rw [e1]
  have gapL : ∀ (o : ℝ) (g : ℕ → ℝ) (k : ℤ) (n : ℕ), (∀ i : ℕ, i < n → |g i - (o + L * ((i : ℝ) - k))| ≤ gridTol u M L) →
      ((List.range n).map g).Pairwise (fun a b => a + 3 / 4 * L ≤ b) := by
    intro o g k n hg
    rw [List.pairwise_map]
    refine List.pairwise_lt_range.imp_of_mem ?_
    intro a b ha hb hab
    have i1 := abs_le.1 (hg a (List.mem_range.1 ha))
    have i2 := abs_le.1 (hg b (List.mem_range.1 hb))
    have i3 : (a : ℝ) + 1 ≤ b := by exact_mod_cast hab
    have i4 := mul_le_mul_of_nonneg_left i3 h.side.le
    have := h.resolved
    linarith [i1.2, i2.1]
  refine List.Pairwise.filter _ ?_
  unfold meshPoints
  rw [List.pairwise_flatMap]
  refine ⟨fun x _ => ?_, ?_⟩
  · rw [List.pairwise_map]
    exact (gapL oZ g' k' n' e3).imp (fun h => Or.inr ⟨rfl, h⟩)
  · refine (gapL oX g k n e2).imp ?_
    intro a b hab p hp q hq
    obtain ⟨_, _, rfl⟩ := List.mem_map.1 hp
    obtain ⟨_, _, rfl⟩ := List.mem_map.1 hq
    exact Or.inl hab

/-- Neutrons per second of all reactions, added up by reaction. -/
theorem neutrons_by_reaction (sv : Reaction → ℝ → ℝ) (tr : TransportView ℝ) (psi : ℝ → ℝ → ℝ) (L : ℝ) (st : List Reaction)
    (cs : List (ℝ × ℝ)) : (cs.map (neutronRate sv tr psi L st)).sum =
      ((st.filter fun r => decide (0 < neutronYield r)).map fun r => (neutronYield r : ℝ) * channelRate sv tr psi L cs r).sum := by
  have e1 : ((st.filter fun r => decide (0 < neutronYield r)).map fun r =>
      (neutronYield r : ℝ) * channelRate sv tr psi L cs r).sum =
      (st.map fun r => (neutronYield r : ℝ) * channelRate sv tr psi L cs r).sum := by
    induction st with
    | nil => rfl
    | cons r st ih =>
      by_cases h : 0 < neutronYield r
      · rw [List.filter_cons_of_pos (by simpa using h), List.map_cons, List.sum_cons, ih, List.map_cons, List.sum_cons]
      · rw [List.filter_cons_of_neg (by simpa using h), ih, List.map_cons, List.sum_cons, Nat.eq_zero_of_not_pos h]
        simp
  rw [e1]
  clear e1
  induction cs with
  | nil => simp [channelRate]
  | cons p cs ih =>
    rw [List.map_cons, List.sum_cons, ih]
    have : (fun r => (neutronYield r : ℝ) * channelRate sv tr psi L (p :: cs) r) =
        fun r => channelNeutrons sv tr psi L r p + (neutronYield r : ℝ) * channelRate sv tr psi L cs r := by
      funext r
      simp only [channelRate, List.map_cons, List.sum_cons, channelNeutrons]
      ring
    rw [this, List.sum_map_add]
    rfl

theorem relClose_mul {a x b y α β : ℝ} (hx : 0 ≤ x) (hy : 0 ≤ y) (hα : 0 ≤ α) (h1 : RelClose α a x)
    (h2 : RelClose β b y) : RelClose (α + β + α * β) (a * b) (x * y) := by
  unfold RelClose at *
  have e : a * b - x * y = (a - x) * (b - y) + (a - x) * y + x * (b - y) := by ring
  rw [e]
  have k1 := abs_add_le ((a - x) * (b - y) + (a - x) * y) (x * (b - y))
  have k2 := abs_add_le ((a - x) * (b - y)) ((a - x) * y)
  rw [abs_mul, abs_mul, abs_of_nonneg hy] at k2
  rw [abs_mul x, abs_of_nonneg hx] at k1
  have k3 : |a - x| * |b - y| ≤ (α * x) * (β * y) := mul_le_mul h1 h2 (abs_nonneg _) (mul_nonneg hα hx)
  have k4 := mul_le_mul_of_nonneg_right h1 hy
  have k5 := mul_le_mul_of_nonneg_left h2 hx
  nlinarith

/-- Two approximations of one number. -/
theorem relClose_both {a b x : ℝ} (hx : 0 ≤ x) (h1 : RelClose (221 / 10 ^ 7) a x) (h2 : RelClose (9 / 10 ^ 9) b x) :
    RelClose (23 / 10 ^ 6) a b := by
  unfold RelClose at *
  have k := abs_sub_le a x b
  rw [abs_sub_comm x b] at k
  have := abs_le.1 h2
  linarith

/-- The fraction that a ring gives to a reaction. -/
theorem ring_fraction {sv : Reaction → ℝ → ℝ} {tr : TransportView ℝ} {psi : ℝ → ℝ → ℝ} {L : ℝ} {st : List Reaction}
    (hst : st.Nodup) {cs : List (ℝ × ℝ)} {p : ℝ × ℝ} {ring : Ring ℝ Reaction}
    (hn : ∀ r ∈ st, 0 ≤ channelNeutrons sv tr psi L r p) (hp : 0 < neutronRate sv tr psi L st p)
    (hN : 0 < (cs.map (neutronRate sv tr psi L st)).sum)
    (h : RingIdeal (fun r _ => .ok r) sv tr psi L st cs (4 / 10 ^ 9) p ring) (r : Reaction) (hr : r ∈ st) :
    RelClose (9 / 10 ^ 9) (finValue ring.strength * ((ring.energy.filter fun q => decide (q.2 = r)).map Prod.fst).sum)
      (channelNeutrons sv tr psi L r p / (cs.map (neutronRate sv tr psi L st)).sum) := by
  obtain ⟨σ, hσ, h1⟩ := h.strength
  rw [hσ]
  show RelClose _ (σ * _) _
  have pick := forall2_pick h.energy (hst.filter _) (fun q => decide (q.2 = r)) Prod.fst r (by
    intro r' _ q hq
    have := Except.ok.inj hq.2
    rw [decide_eq_true_eq, this])
  rcases (hn r hr).lt_or_eq with hpos | h0
  · obtain ⟨q, ⟨k1, -⟩, k2⟩ := pick.2 (List.mem_filter.2 ⟨hr, by simpa using hpos⟩)
    rw [k2]
    have m := relClose_mul (div_nonneg hp.le hN.le) (div_nonneg hpos.le hp.le) (by norm_num) h1 k1
    rw [show neutronRate sv tr psi L st p / (cs.map (neutronRate sv tr psi L st)).sum *
      (channelNeutrons sv tr psi L r p / neutronRate sv tr psi L st p) =
      channelNeutrons sv tr psi L r p / (cs.map (neutronRate sv tr psi L st)).sum by field_simp] at m
    exact le_trans m (mul_le_mul_of_nonneg_right (by norm_num) (div_nonneg hpos.le hN.le))
  · rw [pick.1 (by
      intro hm
      have := (List.mem_filter.1 hm).2
      rw [← h0] at this
      simp at this), ← h0]
    simp [RelClose]

/-- The ring around the centre of a cell is that of the cell. -/
theorem fraction_at {sv : Reaction → ℝ → ℝ} {tr : TransportView ℝ} {psi : ℝ → ℝ → ℝ} {L : ℝ} (hL : 0 < L) {st : List Reaction}
    (hst : st.Nodup) {cs : List (ℝ × ℝ)} (hn : ∀ r ∈ st, ∀ p ∈ cs, 0 ≤ channelNeutrons sv tr psi L r p)
    (hN : 0 < (cs.map (neutronRate sv tr psi L st)).sum)
    (hap : cs.Pairwise fun p q => p.1 + 3 / 4 * L ≤ q.1 ∨ p.1 = q.1 ∧ p.2 + 3 / 4 * L ≤ q.2)
    (hfar : ∀ p ∈ cs, |p.1| + L ≤ 40000 * L ∧ |p.2| + L ≤ 40000 * L) {rings : List (Ring ℝ Reaction)}
    (h : List.Forall₂ (RingIdeal (fun r _ => .ok r) sv tr psi L st cs (4 / 10 ^ 9))
      (cs.filter fun p => decide (0 < neutronRate sv tr psi L st p)) rings) (r : Reaction) (hr : r ∈ st) (p : ℝ × ℝ)
    (hp : p ∈ cs) :
    RelClose (9 / 10 ^ 9) (openmcFractionAt rings r p)
      (channelNeutrons sv tr psi L r p / (cs.map (neutronRate sv tr psi L st)).sum) := by
  have hne : ∀ a b : ℝ × ℝ, (a.1 + 3 / 4 * L ≤ b.1 ∨ a.1 = b.1 ∧ a.2 + 3 / 4 * L ≤ b.2) → a ≠ b := by
    rintro a b hab rfl
    rcases hab with hab | hab <;> linarith [hab]
  have hnd : cs.Nodup := hap.imp fun {a b} h => hne a b h
  have sep : ∀ a ∈ cs, ∀ b ∈ cs, a ≠ b → (3 / 4 * L ≤ |a.1 - b.1| ∨ 3 / 4 * L ≤ |a.2 - b.2|) := by
    intro a ha b hb hab
    obtain ⟨i, hi, rfl⟩ := List.mem_iff_getElem.1 ha
    obtain ⟨j, hj, rfl⟩ := List.mem_iff_getElem.1 hb
    have g := List.pairwise_iff_getElem.1 hap
    rcases lt_trichotomy i j with hij | rfl | hij
    · rcases g i j hi hj hij with h | h
      · left; rw [abs_sub_comm, le_abs]; left; linarith
      · right; rw [abs_sub_comm, le_abs]; left; linarith [h.2]
    · exact absurd rfl hab
    · rcases g j i hj hi hij with h | h
      · left; rw [le_abs]; left; linarith
      · right; rw [le_abs]; left; linarith [h.2]
  have pick := forall2_pick h (hnd.filter _)
    (fun g => decide (g.rLo < 100 * p.1 ∧ 100 * p.1 < g.rHi ∧ g.zLo < 100 * p.2 ∧ 100 * p.2 < g.zHi))
    (fun g => finValue g.strength * ((g.energy.filter fun q => decide (q.2 = r)).map Prod.fst).sum) p (by
    intro p' hp' g hg
    have hp'' := (List.mem_filter.1 hp').1
    obtain ⟨x1, x2, x3, x4⟩ := hg.extent
    obtain ⟨f1, f2⟩ := hfar p' hp''
    have x1 := abs_le.1 x1
    have x2 := abs_le.1 x2
    have x3 := abs_le.1 x3
    have x4 := abs_le.1 x4
    rw [decide_eq_true_eq]
    constructor
    · rintro ⟨y1, y2, y3, y4⟩
      by_contra hne'
      rcases sep p' hp'' p hp hne' with s1 | s1
      · rcases le_abs.1 s1 with s1 | s1 <;> linarith
      · rcases le_abs.1 s1 with s1 | s1 <;> linarith
    · rintro rfl
      refine ⟨?_, ?_, ?_, ?_⟩ <;> linarith)
  unfold openmcFractionAt
  by_cases hm : 0 < neutronRate sv tr psi L st p
  · obtain ⟨g, hg, e⟩ := pick.2 (List.mem_filter.2 ⟨hp, by simpa using hm⟩)
    rw [e]
    exact ring_fraction hst (fun r hr => hn r hr p hp) hm hN hg r hr
  · have e0 : channelNeutrons sv tr psi L r p = 0 := by
      have h1 : ∀ a ∈ st.map fun r => channelNeutrons sv tr psi L r p, 0 ≤ a := by
        intro a ha
        obtain ⟨r, hr, rfl⟩ := List.mem_map.1 ha
        exact hn r hr p hp
      have h2 := List.single_le_sum h1 _ (List.mem_map.2 ⟨r, hr, rfl⟩)
      exact le_antisymm (h2.trans (not_lt.1 hm)) (hn r hr p hp)
    rw [pick.1 (by
      intro hq
      have := (List.mem_filter.1 hq).2
      exact hm (by simpa using this)), e0]
    simp [RelClose]

/-- C112.  With binary64 numbers: the OpenMC input and the texts of the SDEF files of a source describe the same neutrons.
The reactions with neutrons and the files are in correspondence; the weights with which the files are to be combined add up to
1; a reaction that does not occur has weight 0 and no neutrons in OpenMC; and for every other reaction each bin that MCNP
reads, in the order of the cells, carries the fraction of all neutrons that OpenMC samples from that reaction in the ring there,
up to 23 parts per million. -/
theorem C112_binary64 {F : MathLib} (hF : AccurateLib F (4 * (2 : ℝ) ^ (-53 : ℤ)))
    {U : SI} {m : Masses ℝ} (hm : RoughData U m) {Q : Reaction → ℝ} (hQ : ∀ r, 0 < Q r)
    {pts : List (ℝ × ℝ)} {oX oZ : ℝ} {psi : ℝ → ℝ → ℝ} {tr : TransportView ℝ}
    {arg : SourceArg} {L : ℝ} {method : ReactivityMethod} {s : Source ℝ} {P : ℝ} (hP : 0 < P)
    (hs : Source.makeR binary64 F (reactivityXsR binary64 F (round53 Real.pi) U m) (round53 Real.pi) Q pts oX oZ psi tr
      arg L (some P) method = .ok s)
    (hok : PlasmaOK tr psi (centres s)) (hN : cells s + s.sourceType.length ≤ 1000000)
    (hpos : 0 < ((centres s).map (neutronRate (referenceReactivity U m method) tr psi L s.sourceType)).sum)
    {M : ℝ} (hres : Resolved binary64 ((2 : ℝ) ^ (-53 : ℤ)) pts oX oZ L M)
    (hfar : ∀ p ∈ centres s, |p.1| + L ≤ 40000 * L ∧ |p.2| + L ≤ 40000 * L)
    {ke ks km : ℝ} (hke : ScaleFactor ((2 : ℝ) ^ (-53 : ℤ)) 1000 ke) (hks : ScaleFactor ((2 : ℝ) ^ (-53 : ℤ)) (1 / 1000) ks)
    (hkm : ScaleFactor ((2 : ℝ) ^ (-53 : ℤ)) (1 / 1000) km) (stub : String) :
    ∃ (rings : List (Ring ℝ Reaction)) (files : List (SdefFile ℝ)),
      s.toOpenmcR binary64 (fun r _ => .ok r) = .ok rings ∧ s.toSdefR binary64 stub = .ok files ∧
      files.map SdefFile.reaction = s.sourceType.filter (fun r => decide (0 < neutronYield r)) ∧
      (files.map (sdefWeight files)).sum = 1 ∧
      ∀ f ∈ files,
        (channelRate (referenceReactivity U m method) tr psi L (centres s) f.reaction = 0 →
          sdefWeight files f = 0 ∧ ∀ p ∈ centres s, openmcFractionAt rings f.reaction p = 0) ∧
        (0 < channelRate (referenceReactivity U m method) tr psi L (centres s) f.reaction →
          0 < sdefWeight files f ∧
          ∀ (r : Neutronic) (cit : Citation), f.reaction = .n r → CleanCitation cit → Printable f.cards →
            ∃ text c, sdefTextR binary64 ke ks km cit r f = .ok text ∧ readSdef (readCards 128 text) = some c ∧
              List.Forall₂ (fun p b => RelClose (23 / 10 ^ 6) (b.prob * sdefWeight files f)
                (openmcFractionAt rings f.reaction p)) (centres s) (sdefBins c)) := by
  have h53 := u53
  have hp : (0 : ℝ) < (2 : ℝ) ^ (-53 : ℤ) := by positivity
  have hpi : |round53 Real.pi - Real.pi| ≤ (2 : ℝ) ^ (-53 : ℤ) * Real.pi := by
    have := C74_binary64.rel Real.pi
    rwa [abs_of_pos Real.pi_pos] at this
  have hN' : (cells s : ℝ) + s.sourceType.length ≤ 1000000 := by exact_mod_cast hN
  have hε : 2.3 * (165000 * (4 * (2 : ℝ) ^ (-53 : ℤ))) +
      3 * ((cells s : ℝ) + s.sourceType.length + 14) * (2 : ℝ) ^ (-53 : ℤ) ≤ 1 / 10 ^ 9 := by
    have : 3 * ((cells s : ℝ) + s.sourceType.length + 14) * (2 : ℝ) ^ (-53 : ℤ) ≤
        3 * 1000014 * (2 : ℝ) ^ (-53 : ℤ) := mul_le_mul_of_nonneg_right (by linarith) hp.le
    linarith
  have hacc : ∀ r ∈ s.sourceType, _ := fun r (_ : r ∈ s.sourceType) =>
    all_accurate C74_binary64 hF (by linarith) (by linarith) hpi hm method r
  have hr := makeR_ready C74_binary64 hpi hQ (by positivity) hacc hok hP hs (hε.trans (by norm_num))
  have hne : centres s ≠ [] := by
    intro e
    rw [e] at hpos
    simp at hpos
  have hL : 0 < L := hres.side
  obtain ⟨rings, hrings⟩ := C95_succeeds C74_binary64 hpi hQ (by positivity) hacc hok hP hs
    (hε.trans (by norm_num)) hpos (fun r _ => .ok r) (fun r _ => r) (fun _ _ _ _ _ => rfl)
  have key := C95_binary64 hF hm hQ hL.le hP hs hok hN hpos _ rings hrings
  obtain ⟨files, hf, hf1, hfile⟩ := C111_binary64 hF hm hQ hP hs hok hN hres hfar hne hke hks hkm stub
  have hnd : s.sourceType.Nodup := parse_nodup (C93_cells hs).1
  have hap : (centres s).Pairwise fun p q => p.1 + 3 / 4 * L ≤ q.1 ∨ p.1 = q.1 ∧ p.2 + 3 / 4 * L ≤ q.2 := by
    rw [(C93_cells hs).2]
    exact sampled_apart _ _ _ _ _ _ _ hres
  have hmem : ∀ f ∈ files, f.reaction ∈ s.sourceType := by
    intro f hfm
    have : f.reaction ∈ files.map SdefFile.reaction := List.mem_map_of_mem hfm
    rw [hf1] at this
    exact List.mem_of_mem_filter this
  have hcell := hr.rate
  have hk := hr.k_pos
  have hlist := hr.list
  generalize hrefd : referenceReactivity U m method = ref at *
  set k := P / cellsPower ref Q tr psi L (centres s) s.sourceType with hkd
  set N := ((centres s).map (neutronRate ref tr psi L s.sourceType)).sum with hNd
  have hcn : ∀ r ∈ s.sourceType, ∀ p ∈ centres s, 0 ≤ channelNeutrons ref tr psi L r p :=
    fun r hr p hp => mul_nonneg (Nat.cast_nonneg _) (hcell p hp r hr)
  have hfrac : ∀ r ∈ s.sourceType, ∀ p ∈ centres s, RelClose (9 / 10 ^ 9) (openmcFractionAt rings r p)
      (channelNeutrons ref tr psi L r p / N) :=
    fun r hr p hp => fraction_at hL hnd hcn hpos hap hfar key r hr p hp
  have hch0 : ∀ r ∈ s.sourceType, 0 ≤ channelRate ref tr psi L (centres s) r := by
    intro r hr
    refine List.sum_nonneg ?_
    intro a ha
    obtain ⟨p, hp, rfl⟩ := List.mem_map.1 ha
    exact hcell p hp r hr
  -- totals
  have htot : ∀ f ∈ files, |f.total - k * channelRate ref tr psi L (centres s) f.reaction| ≤
      4 / 10 ^ 9 * (k * channelRate ref tr psi L (centres s) f.reaction) := by
    intro f hfm
    rcases (hch0 _ (hmem f hfm)).lt_or_eq with h | h
    · have := ((hfile f hfm).2 h).1
      unfold RelClose at this
      rwa [mul_div_right_comm] at this
    · rw [← h]
      obtain ⟨c, -, -, c1, -, -, c2⟩ := toSdefR_mem C74_binary64 hQ hr.reach stub files hf f hfm
      have hzero : ∀ x ∈ strengths s f.reaction, x = 0 := by
        intro x hx
        obtain ⟨i, hi, rfl⟩ := List.mem_iff_getElem.1 hx
        have fl := hlist _ (hmem f hfm)
        have hi' : i < (centres s).length := by rw [← fl.length_eq]; exact hi
        have b := (List.forall₂_iff_get.1 fl).2 i hi hi'
        simp only [List.get_eq_getElem] at b
        have z : cellRate ref tr psi L f.reaction (centres s)[i] = 0 := by
          have h1 : ∀ a ∈ (centres s).map (cellRate ref tr psi L f.reaction), 0 ≤ a := by
            intro a ha
            obtain ⟨p, hp, rfl⟩ := List.mem_map.1 ha
            exact hcell p hp _ (hmem f hfm)
          have h2 := List.single_le_sum h1 _ (List.mem_map.2 ⟨_, List.getElem_mem hi', rfl⟩)
          exact le_antisymm (h2.trans h.symm.le) (h1 _ (List.mem_map.2 ⟨_, List.getElem_mem hi', rfl⟩))
        rw [z] at b
        simpa using b
      have hsum : (strengths s f.reaction).sum = 0 := List.sum_eq_zero hzero
      have fac := (within_pySum C74_binary64 (strengths s f.reaction) c1).bound C74_binary64.u_nonneg C74_binary64.u_lt_one
        hsum.ge (by
          have e1 : ((strengths s f.reaction).length : ℝ) = cells s := by
            rw [(hlist _ (hmem f hfm)).length_eq, ← hr.cells]
          have e2 : (((strengths s f.reaction).length - 1 : ℕ) : ℝ) ≤ (strengths s f.reaction).length := by
            exact_mod_cast Nat.sub_le _ _
          have e3 : (0 : ℝ) ≤ s.sourceType.length := Nat.cast_nonneg _
          have e4 : (((strengths s f.reaction).length - 1 : ℕ) : ℝ) * (2 : ℝ) ^ (-53 : ℤ) ≤ 1000000 * (2 : ℝ) ^ (-53 : ℤ) :=
            mul_le_mul_of_nonneg_right (by linarith) hp.le
          linarith)
      have ft : f.total = binary64.pySum (strengths s f.reaction) := by rw [c2]
      rw [hsum] at fac
      rw [ft]
      simpa using fac
  have hsn : ∀ f ∈ files, |sdefNeutrons f - (neutronYield f.reaction : ℝ) * (k * channelRate ref tr psi L (centres s) f.reaction)| ≤
      4 / 10 ^ 9 * ((neutronYield f.reaction : ℝ) * (k * channelRate ref tr psi L (centres s) f.reaction)) := by
    intro f hfm
    unfold sdefNeutrons
    rw [← mul_sub, abs_mul, abs_of_nonneg (Nat.cast_nonneg _)]
    have := mul_le_mul_of_nonneg_left (htot f hfm) (Nat.cast_nonneg (α := ℝ) (neutronYield f.reaction))
    linarith
  have hsum := list_sum_close files sdefNeutrons
    (fun f => (neutronYield f.reaction : ℝ) * (k * channelRate ref tr psi L (centres s) f.reaction)) _ hsn
  have hkN : (files.map fun f => (neutronYield f.reaction : ℝ) * (k * channelRate ref tr psi L (centres s) f.reaction)).sum =
      k * N := by
    rw [hNd, neutrons_by_reaction, ← hf1, List.map_map, ← List.sum_map_mul_left]
    congr 1
    refine List.map_congr_left fun f _ => ?_
    simp only [Function.comp]
    ring
  rw [hkN] at hsum
  have hkNpos : 0 < k * N := mul_pos hk hpos
  have hS : 0 < (files.map sdefNeutrons).sum := (pos_iff_close hkNpos.le (by norm_num) hsum).2 hkNpos
  have hw : ∀ f ∈ files, RelClose (81 / 10 ^ 10) (sdefWeight files f)
      ((neutronYield f.reaction : ℝ) * channelRate ref tr psi L (centres s) f.reaction / N) := by
    intro f hfm
    have hq : 0 ≤ (neutronYield f.reaction : ℝ) * channelRate ref tr psi L (centres s) f.reaction :=
      mul_nonneg (Nat.cast_nonneg _) (hch0 _ (hmem f hfm))
    have e : (neutronYield f.reaction : ℝ) * (k * channelRate ref tr psi L (centres s) f.reaction) =
        k * ((neutronYield f.reaction : ℝ) * channelRate ref tr psi L (centres s) f.reaction) := by ring
    have b := hsn f hfm
    rw [e] at b
    have := ratio_close (mul_nonneg hk.le hq) hkNpos (by norm_num) (by norm_num) b hsum
    rw [mul_div_mul_left _ _ hk.ne'] at this
    exact le_trans this (mul_le_mul_of_nonneg_right (by norm_num) (div_nonneg hq hpos.le))
  refine ⟨rings, files, hrings, hf, hf1, ?_, fun f hfm => ⟨fun h0 => ⟨?_, fun p hp => ?_⟩, fun h => ⟨?_, ?_⟩⟩⟩
  · have : files.map (sdefWeight files) = files.map fun f => sdefNeutrons f * ((files.map sdefNeutrons).sum)⁻¹ := by
      refine List.map_congr_left fun f _ => ?_
      rw [sdefWeight, div_eq_mul_inv]
    rw [this, List.sum_map_mul_right]
    exact mul_inv_cancel₀ hS.ne'
  · have := hw f hfm
    rw [h0] at this
    simpa [RelClose] using this
  · have b := hfrac _ (hmem f hfm) p hp
    have z : cellRate ref tr psi L f.reaction p = 0 := by
      have h1 : ∀ a ∈ (centres s).map (cellRate ref tr psi L f.reaction), 0 ≤ a := by
        intro a ha
        obtain ⟨p, hp, rfl⟩ := List.mem_map.1 ha
        exact hcell p hp _ (hmem f hfm)
      have h2 := List.single_le_sum h1 _ (List.mem_map.2 ⟨p, hp, rfl⟩)
      exact le_antisymm (h2.trans h0.le) (h1 _ (List.mem_map.2 ⟨p, hp, rfl⟩))
    rw [channelNeutrons, z] at b
    simpa [RelClose] using b
  · have hy : f.reaction ∈ s.sourceType.filter fun r => decide (0 < neutronYield r) := by
      rw [← hf1]; exact List.mem_map_of_mem hfm
    have hy : 0 < neutronYield f.reaction := by simpa using (List.mem_filter.1 hy).2
    have : 0 < (neutronYield f.reaction : ℝ) * channelRate ref tr psi L (centres s) f.reaction / N :=
      div_pos (mul_pos (by exact_mod_cast hy) h) hpos
    exact (pos_iff_close this.le (by norm_num) (hw f hfm)).2 this
  · intro r cit hrf hcit hpr
    obtain ⟨-, T, -, -, k4⟩ := (hfile f hfm).2 h
    obtain ⟨text, c, t1, t2, t3, -⟩ := k4 r cit hrf hcit hpr
    refine ⟨text, c, t1, t2, ?_⟩
    rw [List.forall₂_iff_get] at t3 ⊢
    refine ⟨t3.1, fun i i1 i2 => ?_⟩
    have hb := (t3.2 i i1 i2).prob
    have hpm := List.get_mem (centres s) ⟨i, i1⟩
    generalize (centres s).get ⟨i, i1⟩ = p at *
    generalize (sdefBins c).get ⟨i, i2⟩ = b at *
    have hc0 := hcell p hpm _ (hmem f hfm)
    have hq : 0 ≤ (neutronYield f.reaction : ℝ) * channelRate ref tr psi L (centres s) f.reaction / N :=
      div_nonneg (mul_nonneg (Nat.cast_nonneg _) h.le) hpos.le
    have mm := relClose_mul (div_nonneg hc0 h.le) hq (by norm_num) hb (hw f hfm)
    rw [show cellRate ref tr psi L f.reaction p / channelRate ref tr psi L (centres s) f.reaction *
      ((neutronYield f.reaction : ℝ) * channelRate ref tr psi L (centres s) f.reaction / N) =
      channelNeutrons ref tr psi L f.reaction p / N by unfold channelNeutrons; field_simp] at mm
    have hx : 0 ≤ channelNeutrons ref tr psi L f.reaction p / N := div_nonneg (hcn _ (hmem f hfm) p hpm) hpos.le
    exact relClose_both hx (le_trans mm (mul_le_mul_of_nonneg_right (by norm_num) hx)) (hfrac _ (hmem f hfm) p hpm)

/-- The hypotheses are met: the default source on the rectangle; the D-T file has a positive weight and its bins carry what
OpenMC samples. -/
example (psi : ℝ → ℝ → ℝ) : ∃ (s : Source ℝ) (rings : List (Ring ℝ Reaction)) (files : List (SdefFile ℝ)),
    s.toOpenmcR binary64 (fun r _ => .ok r) = .ok rings ∧ s.toSdefR binary64 "out" = .ok files ∧ centres s ≠ [] ∧
    ∃ f ∈ files, f.reaction = .DT ∧ 0 < sdefWeight files f ∧
      (Printable f.cards → ∃ text c, sdefTextR binary64 1000 (binary64.rd (1 / 1000)) (binary64.rd (1 / 1000)) Ex.citation .D_T f =
        .ok text ∧ readSdef (readCards 128 text) = some c ∧
        List.Forall₂ (fun p b => RelClose (23 / 10 ^ 6) (b.prob * sdefWeight files f) (openmcFractionAt rings f.reaction p))
          (centres s) (sdefBins c)) := by
  obtain ⟨s, hs, -, hdt, hok, hN, hne⟩ := Ex.default_source psi
  generalize hU : (⟨1.602176634e-16, 1.66053906660e-27⟩ : SI) = U at hs
  generalize hM : (⟨2.01410177812, 3.0160492779, 4.002602, 3.0160293201, 1.00866491588,
        1.007276466621, 5.48579909065e-4⟩ : Masses ℝ) = m at hs
  have hm : RoughData U m := by rw [← hU, ← hM]; exact rough_measured
  have hc := (C93_cells hs).2
  have hx : ∀ p ∈ centres s, 0 < p.1 := by
    intro p hp
    rw [hc] at hp
    linarith [Ex.rect_radius p hp]
  have hQ : ∀ r : Reaction, (0 : ℝ) < (fun _ => 2.8e-12) r := fun _ => by norm_num
  obtain ⟨rings, files, h0, h1, h2, -, h3⟩ := C112_binary64 accurate_libs.2 hm hQ (by norm_num) hs hok hN
    (Ex.rate_sum_pos hm psi s.sourceType hdt (centres s) hne hx) Ex.rect_resolved (by
      intro p hp
      rw [hc] at hp
      obtain ⟨e1, e2⟩ := Ex.rect_extent p hp
      constructor <;> linarith) scale_factors.1 scale_factors.2 scale_factors.2 "out"
  have hmem : Reaction.DT ∈ files.map SdefFile.reaction := by
    rw [h2]
    exact List.mem_filter.2 ⟨hdt, by simp [neutronYield]⟩
  obtain ⟨f, hf, hfr⟩ := List.mem_map.1 hmem
  have hch : 0 < channelRate (referenceReactivity U m .AUTO) Ex.flat psi (3 / 10) (centres s) f.reaction := by
    rw [hfr]
    have := Ex.rate_sum_pos hm psi [.DT] (by simp) (centres s) hne hx
    have e : neutronRate (referenceReactivity U m .AUTO) Ex.flat psi (3 / 10) [.DT] =
        cellRate (referenceReactivity U m .AUTO) Ex.flat psi (3 / 10) .DT := by
      funext p
      simp only [neutronRate, channelNeutrons, List.map_cons, List.map_nil, List.sum_cons, List.sum_nil, add_zero,
        show neutronYield .DT = 1 from rfl, Nat.cast_one, one_mul]
    rwa [e] at this
  obtain ⟨w, k⟩ := (h3 f hf).2 hch
  exact ⟨s, rings, files, h0, h1, hne, f, hf, hfr, w, fun hp => k .D_T Ex.citation hfr Ex.citation_clean hp⟩

end
end TNS
