import Verif.Spec.Pause
import Verif.Spec.Stream

/-!
# Updates with the opposite sign

Two turns that give two elements the same halting probability and opposite updates for one entry of each.  This file
does not mention the controller.
-/

namespace JaxAct

/-- Element `b` with its entry `q` in the first turn, element `b'` with its entry `q'` in the second. -/
structure Mirrored {α : Type} (neg : α → α) (b b' : List Nat) (q q' : Place) (x y : Turn α) : Prop where
  reset : y.reset = x.reset
  dtype : y.round.halting.dtype = x.round.halting.dtype
  halting : ∃ h, x.round.halting.at? b = some h ∧ y.round.halting.at? b' = some h
  update : ∃ d u, x.round.UpdateAt q d u ∧ y.round.UpdateAt q' d (neg u)

/-- An arithmetic in which the sign plays no role for sums, products and conversions. -/
structure OddArith {α : Type} [Arith α] (neg : α → α) : Prop where
  add : ∀ (d : DType) (x y : α), Arith.add d (neg x) (neg y) = neg (Arith.add d x y)
  mul : ∀ (d : DType) (x y : α), Arith.mul d x (neg y) = neg (Arith.mul d x y)
  cast : ∀ (d : DType) (x : α), Arith.cast d (neg x) = neg (Arith.cast d x)

end JaxAct
