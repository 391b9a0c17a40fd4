import Verif.Basic.Err
import Mathlib.Data.List.Nodup

/-!
# Python dictionaries with string keys

Insertion ordered association lists.  The invariant `Dict.WF` (keys are distinct) holds of every
Python dict.
-/

namespace JaxAct

/-- A `Dict[str, V]`, entries in insertion order. -/
abbrev Dict (V : Type) := List (String × V)

namespace Dict
variable {V W : Type}

/-- keys in iteration order -/
def keys (d : Dict V) : List String := d.map Prod.fst

/-- Representation invariant: no duplicate keys. -/
def WF (d : Dict V) : Prop := d.keys.Nodup

/-- `d.get(k)` -/
def get? : Dict V → String → Option V
  | [], _ => none
  | (k', v) :: d, k => if k' = k then some v else get? d k

/-- `d[k]`: `KeyError` if absent. -/
def getItem (d : Dict V) (k : String) : Res V :=
  match d.get? k with
  | some v => .ok v
  | none => .error .keyError

/-- `k in d` -/
def mem (d : Dict V) (k : String) : Bool := (d.get? k).isSome

/-- `d[k] = v`: an existing key keeps its position, a new key goes last. -/
def set : Dict V → String → V → Dict V
  | [], k, v => [(k, v)]
  | (k', v') :: d, k, v => if k' = k then (k', v) :: d else (k', v') :: set d k v

/-- The dict without key `k`. -/
def erase : Dict V → String → Dict V
  | [], _ => []
  | (k', v') :: d, k => if k' = k then d else (k', v') :: erase d k

/-- `d.pop(k)` (result: the remaining dict): `KeyError` if absent. -/
def pop (d : Dict V) (k : String) : Res (Dict V) :=
  if d.mem k then .ok (d.erase k) else .error .keyError

/-- `{k: f(v) for k, v in d.items()}` for a function that may raise. -/
def mapM (f : V → Res W) : Dict V → Res (Dict W)
  | [] => .ok []
  | (k, v) :: d => do
    let w ← f v
    let r ← mapM f d
    pure ((k, w) :: r)

end Dict
end JaxAct
