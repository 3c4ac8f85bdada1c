import Verif.Spec.Refine
import Verif.Spec.FluxMap
import Verif.Spec.PointInPath
import Verif.Model.FluxMap
/-
Specification: what the EQDSK and JETTO files of a plasma satisfy.
-/

set_option autoImplicit false

namespace TNS.Spec
noncomputable section

/-- An equilibrium file that describes a plasma: a closed boundary at positive radius that goes round the
magnetic axis, and fluxes that differ between axis and boundary. -/
structure GoodEqdsk (f : EqdskFile) : Prop where
  closed : f.bdry.head? = f.bdry.getLast?
  points : 3 ≤ f.bdry.length
  radius : ∀ p ∈ f.bdry, 0 < p.1
  axis : Odd (winding (f.xmag, f.zmag) f.bdry)
  flux : f.data.psimag ≠ f.data.psibdry

/-- A JETTO time slice that describes a plasma: radii increasing from the first grid point after the axis to
the separatrix, one temperature (eV) and one density (1/m³) of deuterium and tritium for each, temperatures
positive and below 960 keV, densities not negative. -/
structure GoodFrame (f : JspFrame ℝ) : Prop where
  ti : f.ti.length = f.rho.length
  nd : f.nd.length = f.rho.length
  nt : f.nt.length = f.rho.length
  radii : (0 :: f.rho).Pairwise (· < ·)
  separatrix : ∃ b, f.rho.getLast? = some b ∧ 1 ≤ b
  ti_range : ∀ T ∈ f.ti, 0 < T ∧ T ≤ 960000
  nd_nonneg : ∀ n ∈ f.nd, 0 ≤ n
  nt_nonneg : ∀ n ∈ f.nt, 0 ≤ n

/-- `g` joins the points of the columns `rho` and `v` by straight lines; it is constant from the axis to the
first radius, and outside [0, 1] it keeps the values at 0 and 1. -/
structure StraightLines (rho v : List ℝ) (g : ℝ → ℝ) : Prop where
  core : ∀ r y x : ℝ, rho.head? = some r → v.head? = some y → 0 ≤ x → x ≤ r → x ≤ 1 → g x = y
  line : ∀ (i : ℕ) (r r' y y' x : ℝ), rho[i]? = some r → rho[i + 1]? = some r' → v[i]? = some y →
    v[i + 1]? = some y' → r ≤ x → x ≤ r' → x ≤ 1 → g x = y + (y' - y) * ((x - r) / (r' - r))
  below : ∀ x ≤ 0, g x = g 0
  above : ∀ x ≥ 1, g x = g 1

/-- The functions `T` (keV) and `n` (1/m³) of the normalised radius take the values in the file at its radii,
those of the first radius on the axis, are straight lines between, and lie between the smallest and the largest value in the file; there
is no helium-3. -/
structure Interpolates (f : JspFrame ℝ) (T : ℝ → ℝ) (n : Species → ℝ → ℝ) : Prop where
  at_radii : ∀ (i : ℕ) (r t d tr : ℝ), f.rho[i]? = some r → r ≤ 1 → f.ti[i]? = some t → f.nd[i]? = some d →
    f.nt[i]? = some tr → T r = t / 1000 ∧ n .deuterium r = d ∧ n .tritium r = tr
  on_axis : ∀ t d tr : ℝ, f.ti.head? = some t → f.nd.head? = some d → f.nt.head? = some tr →
    T 0 = t / 1000 ∧ n .deuterium 0 = d ∧ n .tritium 0 = tr
  T_lines : StraightLines f.rho (f.ti.map (· / 1000)) T
  d_lines : StraightLines f.rho f.nd (n .deuterium)
  t_lines : StraightLines f.rho f.nt (n .tritium)
  T_between : ∀ lo hi : ℝ, (∀ t ∈ f.ti, lo ≤ t ∧ t ≤ hi) → ∀ rho, lo / 1000 ≤ T rho ∧ T rho ≤ hi / 1000
  d_between : ∀ lo hi : ℝ, (∀ d ∈ f.nd, lo ≤ d ∧ d ≤ hi) → ∀ rho, lo ≤ n .deuterium rho ∧ n .deuterium rho ≤ hi
  t_between : ∀ lo hi : ℝ, (∀ d ∈ f.nt, lo ≤ d ∧ d ≤ hi) → ∀ rho, lo ≤ n .tritium rho ∧ n .tritium rho ≤ hi
  no_helium3 : ∀ rho, n .helium3 rho = 0

end
end TNS.Spec
