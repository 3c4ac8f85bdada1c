"""Generates lean/Verif/Data/TTSums.lean and lean/Verif/Lemmas/TTChunks.lean: weighted sums over the rows of
the T-T table with partial sums after every 25 rows, each step checked by the kernel against the table.
Proof material, not part of the model."""
from fractions import Fraction as F
from pathlib import Path
rs = []
for l in open("/repo/tokamak_neutron_source/data/spectra/T_T_spectra.txt", encoding="utf-8"):
    l = l.split("#")[0].split()
    if l and l[0] != "//":
        rs.append([F(x) for x in l])
e = [int(r[0] * 10**14) for r in rs]
p = [[int(x * 10**92) for x in r[1:]] for r in rs]
n = len(e)
d = [e[i+1] - e[i] for i in range(n - 1)]
W = {"A": [(d[i] if i < n-1 else 0) + (d[i-1] if i else 0) for i in range(n)],
     "M": [(d[i]*(2*e[i]+e[i+1]) if i < n-1 else 0) + (d[i-1]*(e[i-1]+2*e[i]) if i else 0) for i in range(n)],
     "H": [(e[i-1] if i else 0) + e[i] for i in range(n)],
     "S": [1]*n}
CH = 25
s = ["/-", "Generated by scripts/gen_ttsums.py.  Proof material, not part of the model: weights for the rows of the",
     "T-T table, and weighted partial sums over its rows.", "-/", "", "set_option autoImplicit false",
     "set_option maxRecDepth 100000", "", "namespace TNS.Data", ""]
t = ["import Verif.Data.TTSpectra", "import Verif.Data.TTSums", "/-", "Generated by scripts/gen_ttsums.py.  The partial sums of `Verif.Data.TTSums` are those of the T-T table.",
     "-/", "", "set_option autoImplicit false", "set_option maxRecDepth 100000", "", "namespace TNS", "",
'''/-- `acc + w * row`. -/
def vadd (w : Nat) : List Nat → List Nat → List Nat
  | [], _ => []
  | _ :: _, [] => []
  | x :: xs, a :: as => Nat.add (Nat.mul w x) a :: vadd w xs as

/-- The weighted sum of the rows, added to `acc`. -/
def vdot : List Nat → List (Nat × List Nat) → List Nat → List Nat
  | [], _, acc => acc
  | _ :: _, [], acc => acc
  | w :: ws, q :: l, acc => vdot ws l (vadd w q.2 acc)

/-- Equality of lists. -/
def beqL : List Nat → List Nat → Bool
  | [], [] => true
  | a :: l, b :: m => match Nat.beq a b with
    | true => beqL l m
    | false => false
  | [], _ :: _ => false
  | _ :: _, [] => false

theorem beqL_eq : ∀ l m : List Nat, beqL l m = true → l = m
  | [], [], _ => rfl
  | a :: l, b :: m, h => by
    unfold beqL at h
    split at h
    · rename_i hab
      rw [Nat.eq_of_beq_eq_true hab, beqL_eq l m h]
    · cases h

theorem vdot_append (ws ws' : List Nat) (l l' : List (Nat × List Nat)) (acc acc' : List Nat)
    (h : ws.length = l.length) (h' : beqL (vdot ws l acc) acc' = true) :
    vdot (ws ++ ws') (l ++ l') acc = vdot ws' l' acc' := by
  rw [← beqL_eq _ _ h']
  clear h'
  induction ws generalizing l acc with
  | nil =>
    cases l with
    | nil => rfl
    | cons a l => simp at h
  | cons w ws ih =>
    cases l with
    | nil => simp at h
    | cons a l => exact ih l _ (by simpa using h)
''']
for f in "AMHS":
    w = W[f]
    acc = [0]*40
    s.append(f"noncomputable def acc{f}0 : List Nat := [{', '.join(map(str, acc))}]")
    for c in range(0, n, CH):
        k = c // CH
        s.append(f"noncomputable def w{f}{k} : List Nat := [{', '.join(map(str, w[c:c+CH]))}]")
        for i in range(c, c+CH):
            acc = [a + w[i]*x for a, x in zip(acc, p[i])]
        s.append(f"noncomputable def acc{f}{k+1} : List Nat := [{', '.join(map(str, acc))}]")
        t.append(f"theorem chunk{f}{k} : beqL (vdot Data.w{f}{k} Data.ttSpec{k} Data.acc{f}{k}) Data.acc{f}{k+1} = true := by\n  decide +kernel")
    N = n // CH
    s.append(f"noncomputable def w{f} : List Nat :=\n  " + " ++ ".join(f"w{f}{k}" for k in range(N)))
    t.append("")
    t.append(f"theorem vdot{f} : vdot Data.w{f} Data.ttSpectra Data.acc{f}0 = Data.acc{f}{N} := by\n"
             f"  unfold Data.w{f} Data.ttSpectra\n  simp only [List.append_assoc]\n" +
             "".join(f"  rw [vdot_append _ _ _ _ _ _ rfl chunk{f}{k}]\n" for k in range(N-1)) +
             f"  exact beqL_eq _ _ chunk{f}{N-1}\n")
s += ["", "end TNS.Data", ""]
t += ["end TNS", ""]
Path("/verif/lean/Verif/Data/TTSums.lean").write_text("\n".join(s))
Path("/verif/lean/Verif/Lemmas/TTChunks.lean").write_text("\n".join(t))
