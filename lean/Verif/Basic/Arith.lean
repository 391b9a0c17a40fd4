import Verif.Basic.DType
import Mathlib.Algebra.Order.Field.Basic
import Mathlib.Order.Lattice

/-!
# Scalar arithmetic as a parameter

The array code only ever performs the operations listed in `Arith`.  The class has **no laws**,
so a theorem proved for every `Arith` holds for IEEE arithmetic with rounding, infinities
and NaN, as well as for exact arithmetic.
-/

namespace JaxAct

/-- Scalar operations used by the library.  `add d x y` is `x + y` carried out in dtype `d`. -/
class Arith (α : Type) where
  /-- the literals `0`, `0.0` (exact in every dtype) -/
  zero : α
  /-- the literals `1`, `1.0` (exact in every dtype) -/
  one : α
  add : DType → α → α → α
  sub : DType → α → α → α
  mul : DType → α → α → α
  /-- `jnp.maximum` -/
  max : α → α → α
  /-- `jnp.minimum` -/
  min : α → α → α
  /-- conversion to a dtype -/
  cast : DType → α → α
  /-- `x < y` (false on NaN) -/
  lt : α → α → Bool
  /-- `x <= y` (false on NaN) -/
  le : α → α → Bool

namespace Arith

/-- A bool converted to a number. -/
def ofBool {α : Type} [Arith α] (b : Bool) : α := if b then one else zero

/-- Exact arithmetic in a linearly ordered field: no rounding, casts are the identity. -/
@[reducible] def exact (K : Type) [Field K] [LinearOrder K] : Arith K where
  zero := 0
  one := 1
  add _ x y := x + y
  sub _ x y := x - y
  mul _ x y := x * y
  max x y := x ⊔ y
  min x y := x ⊓ y
  cast _ x := x
  lt x y := decide (x < y)
  le x y := decide (x ≤ y)

end Arith

/-- Conversion of one number from dtype `f` to dtype `t` (no operation if they agree). -/
def convS {α : Type} [Arith α] (f t : DType) (x : α) : α := if f = t then x else Arith.cast t x

end JaxAct
