"""Generates lean/Verif/Data/*.lean from the data files of the package (exact decimal fixed point)."""
from fractions import Fraction as F
from pathlib import Path
R = Path("/repo/tokamak_neutron_source/data")
O = Path("/verif/lean/Verif/Data")

def rows(f):
    out = []
    for l in open(f, encoding="utf-8"):
        l = l.split("#")[0].split()
        if l and l[0] != "//":
            out.append([F(x) for x in l])
    return out

def fix(x, e):
    y = x * 10**e
    assert y.denominator == 1, (x, e)
    return str(y.numerator)

names = {"dtRows": "D_T_He_n.txt", "ddnRows": "D_D_He3_n.txt", "ddpRows": "D_D_T_p.txt",
         "ttRows": "T_T_He_2n.txt", "dhe3Rows": "D_He3_He_p.txt"}
s = ["/-", "Generated by scripts/gen_data.py from tokamak_neutron_source/data/cross_sections/*.txt.",
     "Each row is (energy in 1e-12 MeV, cross section in 1e-50 barn), exact.", "-/", "",
     "set_option autoImplicit false", "set_option maxRecDepth 100000", "", "namespace TNS.Data", ""]
CH = 60
for n, f in names.items():
    rs = rows(R / "cross_sections" / f)
    parts = []
    for k in range(0, len(rs), CH):
        p = f"{n}{k//CH}"
        parts.append(p)
        s.append(f"def {p} : List (Nat × Nat) := [")
        s.append(",\n".join(f"  ({fix(a,12)}, {fix(b,50)})" for a, b in rs[k:k+CH]) + "]")
    s.append(f"/-- All data rows of `data/cross_sections/{f}`. -/")
    s.append(f"def {n} : List (Nat × Nat) :=\n  " + " ++\n  ".join(parts))
    s.append("")
s += ["end TNS.Data", ""]
(O / "CrossSections.lean").write_text("\n".join(s))

rs = rows(R / "spectra" / "T_T_spectra.txt")
E = 92
s = ["/-", "Generated by scripts/gen_data.py from tokamak_neutron_source/data/spectra/T_T_spectra.txt.",
     f"Each row is (energy in 1e-14 MeV, 40 intensities in 1e-{E} / MeV), exact.", "-/", "",
     "set_option autoImplicit false", "set_option maxRecDepth 100000", "", "namespace TNS.Data", ""]
parts = []
CH = 25
for k in range(0, len(rs), CH):
    p = f"ttSpec{k//CH}"
    parts.append(p)
    s.append(f"noncomputable def {p} : List (Nat × List Nat) := [")
    s.append(",\n".join(f"  ({fix(r[0],14)}, [" + ", ".join(fix(x,E) for x in r[1:]) + "])" for r in rs[k:k+CH]) + "]")
s.append("/-- All data rows of `data/spectra/T_T_spectra.txt`. -/")
s.append("noncomputable def ttSpectra : List (Nat × List Nat) :=\n  " + " ++\n  ".join(parts))
s += ["", "end TNS.Data", ""]
(O / "TTSpectra.lean").write_text("\n".join(s))
