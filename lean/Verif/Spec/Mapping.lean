import Verif.Spec.Paths
import Verif.Model.State
import Mathlib.Data.Finset.Basic
import Mathlib.Data.Finset.Dedup

/-!
# Specification vocabulary: equality of trees with dicts compared as mappings

Two trees are the same if at every path (of list positions and dict keys) the same thing is found.
Nothing here refers to flattening or to an order of the keys.
-/

namespace JaxAct.PyTree
variable {β : Type}

/-- What is seen of a subtree without looking into its children. -/
inductive Head (β : Type) where
  | leaf (x : β)
  | none
  | list (n : Nat)
  | tuple (n : Nat)
  | dict (keys : Finset String)
  | user (name : String) (n : Nat)

/-- The head of a tree. -/
def head : PyTree β → Head β
  | leaf x => .leaf x
  | none => .none
  | node .list cs => .list cs.length
  | node .tuple cs => .tuple cs.length
  | node (.dict ks) _ => .dict ks.toFinset
  | node (.user c) cs => .user c cs.length

/-- Equality of trees with dicts compared as mappings, as Python's `==` does. -/
def SameMapping (s t : PyTree β) : Prop := ∀ p, (s.atPath p).map head = (t.atPath p).map head

end JaxAct.PyTree

namespace JaxAct
variable {α β : Type}

/-- Dicts of trees that are equal as (nested) mappings. -/
def DictSame (d d' : Dict (PyTree β)) : Prop :=
  ∀ n, Option.Rel PyTree.SameMapping (d.get? n) (d'.get? n)

/-- States equal up to the insertion order of dicts, at every depth. -/
structure ACTStates.Same (s s' : ACTStates α) : Prop where
  epsilon : s.epsilon = s'.epsilon
  iterations : s.iterations = s'.iterations
  residuals : s.residuals = s'.residuals
  probabilities : s.probabilities = s'.probabilities
  depression_constant : s.depression_constant = s'.depression_constant
  error_mode : s.error_mode = s'.error_mode
  accumulators : DictSame s.accumulators s'.accumulators
  defaults : DictSame s.defaults s'.defaults
  updates : DictSame s.updates s'.updates

/-- A dict of trees all of whose dicts have distinct keys (true of every Python object). -/
def DictWF (d : Dict (PyTree β)) : Prop := d.WF ∧ ∀ n t, d.get? n = some t → t.WF

/-- All dicts of a state have distinct keys, at every depth (true of every Python object). -/
structure ACTStates.DictsWF (s : ACTStates α) : Prop where
  accumulators : DictWF s.accumulators
  defaults : DictWF s.defaults
  updates : DictWF s.updates

end JaxAct
