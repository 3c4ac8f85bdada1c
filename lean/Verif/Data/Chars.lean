import Lean
/-
`chars_of% d`, for a definition `d` of a list of string literals: a proof that the characters of these strings are
the obvious ones (the kernel checks it; evaluating `String.toList` in the kernel would be slow).
-/

set_option autoImplicit false

namespace TNS

theorem chars_nil : ([] : List String).map String.toList = [] := rfl

theorem chars_cons {s : String} {c : List Char} {ls : List String} {cs : List (List Char)}
    (h : s.toList = c) (h' : ls.map String.toList = cs) : (s :: ls).map String.toList = c :: cs := by
  rw [List.map_cons, h, h']

open Lean Elab Term Meta in
/-- The proof term for a list of string literals. -/
partial def charsProof (e : Expr) : MetaM (Expr × Expr) := do
  match e.getAppFnArgs with
  | (``List.nil, _) => return (← mkConstWithFreshMVarLevels ``TNS.chars_nil, toExpr ([] : List (List Char)))
  | (``List.cons, #[_, .lit (.strVal s), ls]) =>
    let (p, cs) ← charsProof ls
    let c := toExpr s.toList
    let h := mkApp (mkConst ``String.toList_ofList) c
    let csx ← mkAppM ``List.cons #[c, cs]
    return (mkAppN (mkConst ``TNS.chars_cons) #[.lit (.strVal s), c, ls, cs, h, p], csx)
  | _ => throwError "not a list of string literals: {e}"

open Lean Elab Term Meta in
elab "chars_of% " d:ident : term => do
  let n ← realizeGlobalConstNoOverload d
  let some v := (← getConstInfo n).value? | throwError "no value"
  let (p, cs) ← charsProof (← zetaReduce v)
  let ty ← mkEq (← mkAppM ``List.map #[mkConst ``String.toList, mkConst n]) cs
  mkExpectedTypeHint p ty

end TNS
