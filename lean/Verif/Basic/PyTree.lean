import Verif.Basic.Err
import Mathlib.Data.List.Sort
import Mathlib.Data.String.Basic

/-!
# JAX pytrees

Nested lists, tuples and string-keyed dicts (`/repo/src/jax_act/core/types.py:17-21`), plus
`None`, which JAX treats as a node without children, and the classes JAX knows besides: namedtuples
and classes registered by the user, as far as they have no static data.  Dict entries are kept in
insertion order; flattening visits them in key order (`canon`).
-/

namespace JaxAct

/-- The class of a container node, together with the keys of a dict.  `user` is a namedtuple or a
registered class: its name, which stands for the class object; the children are what its flattening
function gives. -/
inductive Kind where
  | list
  | tuple
  | dict (keys : List String)
  | user (name : String)
  deriving DecidableEq, Repr

/-- The Python class of the container. -/
inductive Cls where
  | list | tuple | dict
  | user (name : String)
  deriving DecidableEq, Repr

/-- `type(container)` -/
def Kind.cls : Kind → Cls
  | .list => .list
  | .tuple => .tuple
  | .dict _ => .dict
  | .user c => .user c

/-- A pytree with leaves in `β`. -/
inductive PyTree (β : Type) where
  | leaf (x : β)
  | none
  | node (k : Kind) (cs : List (PyTree β))

/-- A `PyTreeDef`: the tree with the leaf contents forgotten (dict keys sorted). -/
abbrev TreeDef := PyTree Unit

namespace PyTree
variable {β γ : Type}

/-- `x is None` -/
def isNone : PyTree β → Bool
  | none => true
  | _ => false

mutual
/-- Map over the leaves. -/
def map (f : β → γ) : PyTree β → PyTree γ
  | leaf x => leaf (f x)
  | none => none
  | node k cs => node k (mapL f cs)
/-- `map` on children. -/
def mapL (f : β → γ) : List (PyTree β) → List (PyTree γ)
  | [] => []
  | c :: cs => map f c :: mapL f cs
end

mutual
/-- Leaves, left to right. -/
def leaves : PyTree β → List β
  | leaf x => [x]
  | none => []
  | node _ cs => leavesL cs
/-- `leaves` on children. -/
def leavesL : List (PyTree β) → List β
  | [] => []
  | c :: cs => leaves c ++ leavesL cs
end

/-- Sort dict entries by key. -/
def sortKV (kvs : List (String × PyTree β)) : List (String × PyTree β) :=
  kvs.insertionSort (fun x y => x.1 ≤ y.1)

/-- A container node with its dict entries sorted by key. -/
def sortNode : Kind → List (PyTree β) → PyTree β
  | .list, cs => node .list cs
  | .tuple, cs => node .tuple cs
  | .user c, cs => node (.user c) cs
  | .dict ks, cs =>
    let s := sortKV (ks.zip cs)
    node (.dict (s.map Prod.fst)) (s.map Prod.snd)

mutual
/-- The tree with every dict in key order: what `tree_unflatten(*tree_flatten(t))` rebuilds. -/
def canon : PyTree β → PyTree β
  | leaf x => leaf x
  | none => none
  | node k cs => sortNode k (canonL cs)
/-- `canon` on children. -/
def canonL : List (PyTree β) → List (PyTree β)
  | [] => []
  | c :: cs => canon c :: canonL cs
end

/-- Forget the leaf contents. -/
def struct (t : PyTree β) : TreeDef := t.map fun _ => ()

mutual
/-- Put leaves into a structure, returning the unused ones; `none` if there are too few. -/
def fill : TreeDef → List β → Option (PyTree β × List β)
  | leaf _, x :: q => some (leaf x, q)
  | leaf _, [] => Option.none
  | none, q => some (none, q)
  | node k cs, q =>
    match fillL cs q with
    | some (ts, q') => some (node k ts, q')
    | Option.none => Option.none
/-- `fill` on children. -/
def fillL : List TreeDef → List β → Option (List (PyTree β) × List β)
  | [], q => some ([], q)
  | c :: cs, q =>
    match fill c q with
    | some (t, q') =>
      match fillL cs q' with
      | some (ts, q'') => some (t :: ts, q'')
      | Option.none => Option.none
    | Option.none => Option.none
end

/-- `jax.tree_util.tree_leaves(t)` -/
def treeLeaves (t : PyTree β) : List β := t.canon.leaves

/-- `jax.tree_util.tree_structure(t)` -/
def treeStructure (t : PyTree β) : TreeDef := t.canon.struct

/-- `jax.tree_util.tree_unflatten(treedef, leaves)`: `ValueError` unless the number of leaves is
right. -/
def treeUnflatten (d : TreeDef) (ls : List β) : Res (PyTree β) :=
  match fill d ls with
  | some (t, []) => .ok t
  | some (_, _ :: _) => .error .valueError
  | Option.none => .error .valueError

/-- Run a function that may raise on every element, in order. -/
def mapMRes (f : β → Res γ) : List β → Res (List γ)
  | [] => .ok []
  | x :: xs => do
    let y ← f x
    let ys ← mapMRes f xs
    pure (y :: ys)

/-- `jax.tree_util.tree_map(f, t)` -/
def treeMap (f : β → Res γ) (t : PyTree β) : Res (PyTree γ) := do
  let ls ← mapMRes f t.treeLeaves
  treeUnflatten t.treeStructure ls

mutual
/-- Structural equality test. -/
def beq [DecidableEq β] : PyTree β → PyTree β → Bool
  | leaf x, leaf y => decide (x = y)
  | none, none => true
  | node k cs, node k' cs' => decide (k = k') && beqL cs cs'
  | _, _ => false
/-- `beq` on children. -/
def beqL [DecidableEq β] : List (PyTree β) → List (PyTree β) → Bool
  | [], [] => true
  | c :: cs, d :: ds => beq c d && beqL cs ds
  | _, _ => false
end

mutual
theorem beq_iff [DecidableEq β] : ∀ s t : PyTree β, beq s t = true ↔ s = t
  | leaf x, leaf y => by simp [beq]
  | none, none => by simp [beq]
  | node k cs, node k' cs' => by simp [beq, beqL_iff cs cs']
  | leaf _, none => by simp [beq]
  | leaf _, node _ _ => by simp [beq]
  | none, leaf _ => by simp [beq]
  | none, node _ _ => by simp [beq]
  | node _ _, leaf _ => by simp [beq]
  | node _ _, none => by simp [beq]
theorem beqL_iff [DecidableEq β] : ∀ s t : List (PyTree β), beqL s t = true ↔ s = t
  | [], [] => by simp [beqL]
  | c :: cs, d :: ds => by simp [beqL, beq_iff c d, beqL_iff cs ds]
  | [], _ :: _ => by simp [beqL]
  | _ :: _, [] => by simp [beqL]
end

instance [DecidableEq β] : DecidableEq (PyTree β) := fun s t =>
  decidable_of_iff _ (beq_iff s t)

mutual
/-- Representation invariant of Python dicts inside the tree: one value per key, keys distinct. -/
def WF : PyTree β → Prop
  | leaf _ => True
  | none => True
  | node k cs => (∀ ks, k = .dict ks → ks.Nodup ∧ ks.length = cs.length) ∧ WFL cs
/-- `WF` on children. -/
def WFL : List (PyTree β) → Prop
  | [] => True
  | c :: cs => WF c ∧ WFL cs
end

end PyTree
end JaxAct
