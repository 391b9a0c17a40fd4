import Verif.Model.Utils

/-!
`_validate_children_descent` (`core/utils.py:360-430`) on any two nodes JAX can produce, also of
classes registered with static data.  `Utils.validateChildrenDescent` is the same function on the
nodes of `PyTree`, which have no static data (C96 proves that the two agree there).
-/

namespace JaxAct

/-- The second component of `PyTreeDef.node_data()`, `utils.py:377-378`: `None` for lists, tuples and
namedtuples, the sorted keys for dicts, the static data for a registered class.  Static data are
either something `zip` can iterate over or not. -/
inductive NodeKeys (κ : Type)
  | none
  | items (l : List κ)
  | atom (v : κ)
  deriving DecidableEq

/-- What `_validate_children_descent` reads of a node, `utils.py:377-381`: class, keys, number of
children. -/
structure NodeData (κ : Type) where
  cls : Cls
  keys : NodeKeys κ
  arity : Nat
  deriving DecidableEq

/-- `_validate_children_descent`, `utils.py:360-430`.  `zip` raises `TypeError` for what it cannot
iterate over, `None` included. -/
def validateDescent {κ : Type} [DecidableEq κ] (source target : NodeData κ) : Res Unit :=
  if source.cls ≠ target.cls then raise .runtimeError
  else if source.arity ≠ target.arity then raise .runtimeError
  else match source.keys, target.keys with
    | .none, _ => .ok ()
    | .items ks, .items ks' =>
      if Utils.keysMatch (ks.zip ks') then .ok () else raise .runtimeError
    | _, _ => raise .typeError

/-- The node data of a node of `PyTree`: only dicts have keys. -/
def Kind.nodeData (k : Kind) (n : Nat) : NodeData String :=
  ⟨k.cls, match k with
    | .dict ks => .items ks
    | _ => .none, n⟩

end JaxAct
