import Verif.Basic.PyTree

/-!
# Specification vocabulary: positions in a tree

Used to say where a leaf comes from without mentioning flattening.
-/

namespace JaxAct.PyTree
variable {β : Type}

/-- One step down: a position in a list, tuple or object of a user class, or a dict key. -/
inductive Step where
  | idx (i : Nat)
  | key (s : String)
  deriving DecidableEq, Repr

/-- Which child a step leads to. -/
def childIndex : Kind → Step → Option Nat
  | .list, .idx i => some i
  | .tuple, .idx i => some i
  | .user _, .idx i => some i
  | .dict ks, .key s => ks.idxOf? s
  | _, _ => Option.none

/-- The child reached by a step: `t[i]` or `t[key]`. -/
def child (k : Kind) (cs : List (PyTree β)) (s : Step) : Option (PyTree β) :=
  (childIndex k s).bind fun i => cs[i]?

/-- The subtree at a path, e.g. `t["a"][0]["b"]`. -/
def atPath : PyTree β → List Step → Option (PyTree β)
  | t, [] => some t
  | node k cs, i :: p =>
    match child k cs i with
    | some c => atPath c p
    | Option.none => Option.none
  | leaf _, _ :: _ => Option.none
  | none, _ :: _ => Option.none

mutual
/-- `s` can be spread over `t`: where `s` has a non-empty container `t` has the same container (same
class, keys and number of children), and where `s` has an empty container or `None` there is no leaf
in `t`.  A leaf of `s` fits everything. -/
def Fits : TreeDef → TreeDef → Prop
  | leaf _, _ => True
  | none, t => t.leaves = []
  | node k cs, t => (cs = [] ∧ t.leaves = []) ∨
      match t with
      | node k' cs' => cs ≠ [] ∧ k = k' ∧ FitsL cs cs'
      | _ => False
/-- `Fits` on children. -/
def FitsL : List TreeDef → List TreeDef → Prop
  | [], [] => True
  | c :: cs, d :: ds => Fits c d ∧ FitsL cs ds
  | _, _ => False
end

mutual
/-- The part of `Fits` that concerns containers: where `s` has a non-empty container, `t` has the same
one. -/
def Descends : TreeDef → TreeDef → Prop
  | leaf _, _ => True
  | none, _ => True
  | node k cs, t => cs = [] ∨
      match t with
      | node k' cs' => k = k' ∧ DescendsL cs cs'
      | _ => False
/-- `Descends` on children. -/
def DescendsL : List TreeDef → List TreeDef → Prop
  | [], [] => True
  | c :: cs, d :: ds => Descends c d ∧ DescendsL cs ds
  | _, _ => False
end

mutual
/-- `s` is `t` with some subtrees that hold at least one leaf collapsed to leaves. -/
def Collapse : TreeDef → TreeDef → Prop
  | leaf _, t => t.leaves ≠ []
  | none, none => True
  | node k cs, node k' cs' => k = k' ∧ CollapseL cs cs'
  | _, _ => False
/-- `Collapse` on children. -/
def CollapseL : List TreeDef → List TreeDef → Prop
  | [], [] => True
  | c :: cs, d :: ds => Collapse c d ∧ CollapseL cs ds
  | _, _ => False
end

mutual
/-- No `None` and no empty container anywhere. -/
def NoEmpty : TreeDef → Prop
  | leaf _ => True
  | none => False
  | node _ cs => cs ≠ [] ∧ NoEmptyL cs
/-- `NoEmpty` on children. -/
def NoEmptyL : List TreeDef → Prop
  | [] => True
  | c :: cs => NoEmpty c ∧ NoEmptyL cs
end

end JaxAct.PyTree
