"""Generates lean/Verif/Data/XsText.lean: the text of the cross-section files, line by line."""
from pathlib import Path
R = Path("/repo/tokamak_neutron_source/data/cross_sections")
O = Path("/verif/lean/Verif/Data/XsText.lean")
names = {"dtText": "D_T_He_n.txt", "ddnText": "D_D_He3_n.txt", "ddpText": "D_D_T_p.txt",
         "ttText": "T_T_He_2n.txt", "dhe3Text": "D_He3_He_p.txt"}
CH = 60
s = ["/-", "Generated by scripts/gen_text.py: the lines of tokamak_neutron_source/data/cross_sections/*.txt.", "-/", "",
     "set_option autoImplicit false", "set_option maxRecDepth 100000", "", "namespace TNS.Data", ""]
def q(l):
    assert l.isascii() and all(c == "\t" or 32 <= ord(c) < 127 for c in l), l
    return '"' + l.replace("\\", "\\\\").replace('"', '\\"').replace("\t", "\\t") + '"'
for n, f in names.items():
    t = (R / f).read_text()
    assert t.endswith("\n") and "\r" not in t
    ls = t[:-1].split("\n")
    first = next(i for i, l in enumerate(ls) if l.split("#")[0].split())
    last = max(i for i, l in enumerate(ls) if l.split("#")[0].split())
    assert ls[last].split()[0] == "//"
    cuts = [0] + list(range(first, last, CH)) + [last, len(ls)]
    parts = []
    for k, (a, b) in enumerate(zip(cuts, cuts[1:])):
        p = f"{n}{'H' if a < first else 'E' if a >= last else k - 1}"
        parts.append(p)
        s.append(f"def {p} : List String := [")
        s.append(",\n".join("  " + q(l) for l in ls[a:b]) + "]")
    s.append(f"/-- The lines of `data/cross_sections/{f}`. -/")
    s.append(f"def {n} : List String :=\n  " + " ++\n  ".join(parts))
    s.append("")
s += ["end TNS.Data", ""]
O.write_text("\n".join(s))
