import Verif.Spec.Session
import Verif.Spec.Mapping

/-!
# Specification vocabulary: sessions and calls that differ only in the insertion order of dicts
-/

namespace JaxAct
variable {α : Type} [Arith α]
open PyTree

omit [Arith α] in
/-- Objects of the same class (editors: in the same mode) with states equal up to insertion order. -/
def Session.Same : Session α → Session α → Prop
  | .builder b, .builder b' => b.state.Same b'.state
  | .controller c, .controller c' => c.state.Same c'.state
  | .editor e, .editor e' => e.state.Same e'.state ∧ e.errorMode = e'.errorMode
  | .viewer v, .viewer v' => v.state.Same v'.state
  | _, _ => False

omit [Arith α] in
/-- The dicts inside the argument have distinct keys (true of every Python object). -/
def ApiCall.DictsWF : ApiCall α → Prop
  | .define _ t => t.WF
  | .byShape _ s _ _ => s.WF
  | .cache _ t => t.WF
  | .setAccumulator _ t => t.WF
  | .setDefaults _ t => t.WF
  | .setUpdates _ t => t.WF
  | _ => True

omit [Arith α] in
/-- The same method with the same arguments, trees compared up to insertion order. -/
def ApiCall.Same : ApiCall α → ApiCall α → Prop
  | .define n t, .define n' t' => n = n' ∧ SameMapping t t'
  | .byShape n s d f, .byShape n' s' d' f' => n = n' ∧ SameMapping s s' ∧ d = d' ∧ f = f'
  | .cache n t, .cache n' t' => n = n' ∧ SameMapping t t'
  | .setAccumulator n t, .setAccumulator n' t' => n = n' ∧ SameMapping t t'
  | .setDefaults n t, .setDefaults n' t' => n = n' ∧ SameMapping t t'
  | .setUpdates n t, .setUpdates n' t' => n = n' ∧ SameMapping t t'
  | op, op' => op = op'

end JaxAct
