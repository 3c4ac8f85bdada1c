import Verif.Model.Special
/-
Model of `tokamak_neutron_source/mcnp_interface.py`: the numbers on the SDEF cards.
Formatting of the numbers is in `Verif.Model.Format`, line wrapping in `Verif.Model.Wrap`.
-/

set_option autoImplicit false

namespace TNS

section
variable {K : Type} [Field K] [LinearOrder K]

/-- Insert into a strictly increasing list. Part of `np.unique`, `mcnp_interface.py` 75. -/
def insertUnique (a : K) : List K → List K
  | [] => [a]
  | b :: l => if a < b then a :: b :: l else if a = b then b :: l else b :: insertUnique a l

/-- `np.unique(r)`: the distinct values in increasing order. `mcnp_interface.py` 75. -/
def npUnique (r : List K) : List K := r.foldr insertUnique []

/-- `np.unique(r) - drad`, with the last boundary appended (`mcnp_interface.py` 75-76).
`IndexError` (`r_bounds[-1]`) for an empty array. -/
def rBounds (r : List K) (dr : K) : Except Err (List K) :=
  let b := (npUnique r).map (· - dr / 2)
  match b.getLast? with
  | none => .error .indexError
  | some last => .ok (b ++ [last + dr])

/-- `z_ints` (`mcnp_interface.py` 80): `-1`, the indices where the radius changes, `len(r) - 1`. -/
def zInts (r : List K) : List ℤ :=
  [-1] ++ ((List.range (r.length - 1)).filter (fun i => r[i + 1]? ≠ r[i]?)).map Int.ofNat ++
    [(r.length : ℤ) - 1]

/-- `l[a:b]` for `0 ≤ a`, `0 ≤ b` (`mcnp_interface.py` 88, 137, 145). -/
def slice {α : Type} (l : List α) (a b : ℤ) : List α := (l.drop a.toNat).take (b.toNat - a.toNat)

/-- `l[z_ints[i] + 1 : z_ints[i + 1] + 1]` for `i in range(len(z_ints) - 1)`
(`mcnp_interface.py` 87-89, 133-137). -/
def columns {α : Type} (zi : List ℤ) (l : List α) : List (List α) :=
  List.zipWith (fun a b => slice l (a + 1) (b + 1)) zi zi.tail

/-- The `range(offset, offset + len(r_bounds) - 1)` of the DS4 card (`mcnp_interface.py` 96),
`offset = 5` (line 64). -/
def ds4 (bounds : List K) : List ℕ := (List.range (bounds.length - 1)).map (5 + ·)

/-- The numbers on the cards of one SDEF file, before formatting. `mcnp_interface.py` 75-98, 132-148. -/
structure SdefCards (K : Type) where
  /-- boundaries on the SI3 card -/
  si3 : List K
  /-- probabilities on the SP3 card -/
  sp3 : List K
  /-- distribution numbers on the DS4 card -/
  ds4 : List ℕ
  /-- for each vertical distribution: its number, boundaries (SI) and probabilities (SP) -/
  vertical : List (ℕ × List K × List K)

/-- `_si_sp_vertical_dist_cards` (`mcnp_interface.py` 114-149) with `offset = 5`, for `z` in cm.
`z[z_ints[i + 1]]` is the last height of the column (`IndexError` cannot occur, columns are
non-empty; modelled with a default). -/
def verticalCards (zi : List ℤ) (z data : List K) (dzed : K) : List (ℕ × List K × List K) :=
  List.zipWith (fun i p => (5 + i, p)) (List.range (zi.length - 1))
    (List.zipWith (fun (p : ℤ × List K) d =>
        (p.2.map (· - dzed) ++ [((z[p.1.toNat]?).getD 0) + dzed], 0 :: d))
      (List.zip zi.tail (columns zi z)) (columns zi data))

/-- The cards written for one reaction by `write_mcnp_sdef_source` (`mcnp_interface.py` 55-107),
for cell centres `r`, `z` and side length in m. -/
def sdefCards (r z : List K) (side : K) (data : List K) : Except Err (SdefCards K) := do
  let r := r.map (· * 100)
  let z := z.map (· * 100)
  let dr := side * 100
  let bounds ← rBounds r dr
  let zi := zInts r
  .ok { si3 := bounds
        sp3 := 0 :: (columns zi data).map List.sum
        ds4 := ds4 bounds
        vertical := verticalCards zi z data (dr / 2) }

/-- `re.findall(r"[DT]", reaction.label)` and the file name suffix (`mcnp_interface.py` 68-69). -/
def shortReact (label : String) : List Char := (label.toList.filter (fun c => c = 'D' || c = 'T')).take 2

/-- The file name written for a reaction (`mcnp_interface.py` 69). -/
def sdefFileName (stub : String) (r : Reaction) : String :=
  stub ++ "." ++ String.ofList (shortReact r.label)

/-- The "Total source neutrons" figure of the header (`mcnp_interface.py` 171, 223). -/
def headerTotal (data : List K) : K := data.sum

/-- `mean_ion_temp` (`mcnp_interface.py` 239-241): numpy floats, so 0/0 is `nan`. -/
def meanIonTemp (strength temperature : List K) : XF K :=
  XF.fin (List.zipWith (· * ·) strength temperature).sum / XF.fin strength.sum

/-- One SDEF file: name, reaction named in the header, the header total, the ion temperature and
the position cards. `mcnp_interface.py` 68-110. -/
structure SdefFile (K : Type) where
  name : String
  reaction : Reaction
  total : K
  ionTemp : XF K
  cards : SdefCards K

/-- `to_sdef_card` (`main.py` 244-261) and the loop of `write_mcnp_sdef_source`
(`mcnp_interface.py` 66-112).  Simplifications: the energy card (SP2, or SI2/SP2 for T-T) is not part
of the result; files written before an exception are not reported. -/
def Source.toSdef (stub : String) (s : Source K) : Except Err (List (SdefFile K)) :=
  (s.strength.filter (fun p => p.1.isNeutronic)).mapM (fun p => do
    let c ← sdefCards s.x s.z s.cellSideLength p.2
    .ok { name := sdefFileName stub p.1, reaction := p.1, total := headerTotal p.2
          ionTemp := meanIonTemp p.2 s.temperature, cards := c })

end
end TNS
