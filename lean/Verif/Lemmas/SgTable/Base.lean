import Verif.Lemmas.SgLook

/-!
# Notation for the data of a space group table

Terms that are built directly from numbers and texts, because the elaborator is slow for long literals. `krfl` leaves an
equation to the kernel. All of this only builds terms: the kernel checks them like any other.
-/

namespace Systre.Sg
open Lean Elab Tactic Meta

/-- leave a proof by reflexivity to the kernel -/
elab "krfl" : tactic => do
  let g ← getMainGoal
  let t ← instantiateMVars (← g.getType)
  let some (ty, a, _) := t.eq? | throwError "not an equation"
  let u ← getLevel ty
  g.assign (mkApp2 (mkConst ``Eq.refl [u]) ty a)

def mkListOf (ty : Expr) (l : List Expr) : Expr :=
  l.foldr (fun c e => mkApp3 (mkConst ``List.cons [0]) ty c e) (mkApp (mkConst ``List.nil [0]) ty)

def mkInt (z : Int) : Expr :=
  match z with
  | .ofNat n => mkApp (mkConst ``Int.ofNat) (mkRawNatLit n)
  | .negSucc n => mkApp (mkConst ``Int.negSucc) (mkRawNatLit n)

def natsOf (s : String) : List Nat := ((s.splitOn " ").filter (· ≠ "")).map (fun x => x.toNat!)

def natList (s : String) : Expr := mkListOf (mkConst ``Nat) ((natsOf s).map mkRawNatLit)

def rowOf (l : List Int) : Expr := mkAppN (mkConst ``R.mk) (l.map mkInt).toArray

def opName (n : Nat) : Expr := mkConst (.str `Systre.Sg.Data s!"t{n}")

syntax "chars! " str : term
elab_rules : term
  | `(chars! $s:str) =>
    return mkListOf (mkConst ``Char) (s.getString.toList.map (fun c => mkApp (mkConst ``Char.ofNat) (mkRawNatLit c.toNat)))

syntax "nat! " str : term
elab_rules : term
  | `(nat! $s:str) => return mkRawNatLit s.getString.toNat!

syntax "nats! " str : term
elab_rules : term
  | `(nats! $s:str) => return natList s.getString

syntax "words! " str : term
elab_rules : term
  | `(words! $s:str) =>
    return mkListOf (mkApp (mkConst ``List [0]) (mkConst ``Nat)) ((s.getString.splitOn ";").map natList)

syntax "r! " str : term
elab_rules : term
  | `(r! $s:str) => return rowOf ((s.getString.splitOn " ").map (fun x => x.toInt!))

syntax "q! " str : term
elab_rules : term
  | `(q! $s:str) => do
    let l := (s.getString.splitOn " ").map (fun x => x.toInt!)
    return mkApp3 (mkConst ``Q.mk) (rowOf (l.take 4)) (rowOf ((l.drop 4).take 4)) (rowOf (l.drop 8))

syntax "trs! " str : term
elab_rules : term
  | `(trs! $s:str) => return mkListOf (mkConst ``Tr) ((natsOf s.getString).map opName)

syntax "gens! " str : term
elab_rules : term
  | `(gens! $s:str) => do
    let gs := ((s.getString.splitOn ";").filter (· ≠ "")).map natsOf
    return mkListOf (mkConst ``G) (gs.map (fun g => mkApp3 (mkConst ``G.mk) (opName g[0]!) (mkRawNatLit g[1]!) (mkRawNatLit g[2]!)))

end Systre.Sg
