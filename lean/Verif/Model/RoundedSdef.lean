import Verif.Model.Rounded
import Verif.Model.Mcnp
/-
The arithmetic of the SDEF export with rounding, see `Verif.Model.Rounded`.
-/

set_option autoImplicit false

namespace TNS
noncomputable section

/-- `r_bounds` (`mcnp_interface.py` 75-76): `np.unique(r) - drad` and the last boundary plus `dr`. -/
def rBoundsR (A : Arith) (r : List ℝ) (drad dr : ℝ) : Except Err (List ℝ) :=
  let b := (npUnique r).map (fun x => A.rd (x - drad))
  match b.getLast? with
  | none => .error .indexError
  | some last => .ok (b ++ [A.rd (last + dr)])

/-- `_si_sp_vertical_dist_cards` (`mcnp_interface.py` 114-149) with `offset = 5`. -/
def verticalCardsR (A : Arith) (zi : List ℤ) (z data : List ℝ) (dzed : ℝ) : List (ℕ × List ℝ × List ℝ) :=
  List.zipWith (fun i p => (5 + i, p)) (List.range (zi.length - 1))
    (List.zipWith (fun (p : ℤ × List ℝ) d =>
        (p.2.map (fun x => A.rd (x - dzed)) ++ [A.rd (((z[p.1.toNat]?).getD 0) + dzed)], 0 :: d))
      (List.zip zi.tail (columns zi z)) (columns zi data))

/-- The numbers on the cards of one reaction (`mcnp_interface.py` 55-107).  `raw_uc(.., "m", "cm")` is one
rounded multiplication by 100. -/
def sdefCardsR (A : Arith) (r z : List ℝ) (side : ℝ) (data : List ℝ) : Except Err (SdefCards ℝ) := do
  let r := r.map (fun x => A.rd (x * 100))
  let z := z.map (fun x => A.rd (x * 100))
  let dr := A.rd (side * 100)
  let half := A.rd (dr / 2)
  let bounds ← rBoundsR A r half dr
  let zi := zInts r
  .ok { si3 := bounds
        sp3 := 0 :: (columns zi data).map A.npSum
        ds4 := ds4 bounds
        vertical := verticalCardsR A zi z data half }

open Classical in
/-- `mean_ion_temp` (`mcnp_interface.py` 239-241). -/
def meanIonTempR (A : Arith) (strength temperature : List ℝ) : XF ℝ :=
  let n := A.npSum (List.zipWith (fun a b => A.rd (a * b)) strength temperature)
  let d := A.npSum strength
  if d = 0 then XF.fin n / XF.fin 0 else .fin (A.rd (n / d))

/-- `to_sdef_card` (`main.py` 244-261) and the loop of `write_mcnp_sdef_source` (`mcnp_interface.py` 66-112); the
header total is `sum(reaction_data)` (line 171). -/
def Source.toSdefR (A : Arith) (stub : String) (s : Source ℝ) : Except Err (List (SdefFile ℝ)) :=
  (s.strength.filter (fun p => p.1.isNeutronic)).mapM (fun p => do
    let c ← sdefCardsR A s.x s.z s.cellSideLength p.2
    .ok { name := sdefFileName stub p.1, reaction := p.1, total := A.pySum p.2
          ionTemp := meanIonTempR A p.2 s.temperature, cards := c })

end
end TNS
