import Verif.Basic.Arith
import Mathlib.Algebra.Order.Floor.Ring
import Mathlib.Algebra.Order.Round
import Mathlib.Data.Int.Log
import Mathlib.Data.Rat.Floor

/-!
# Floating point arithmetic: rounding to nearest, ties to even

Finite binary floating point numbers are rationals.  A format has a precision (bits of the
significand, the hidden one included) and a smallest exponent (the spacing of the subnormal
numbers).  Every operation is the exact operation followed by rounding to the nearest number of the
format, ties to the even significand, which is what IEEE 754 prescribes.

Simplified: no overflow to infinity, no NaN, no signed zero, and subnormal results are not flushed
to zero.  None of the probabilities, weights or residuals the library computes is near the
overflow limit.  Casts to `bool` and `i32` and integer operations are exact (no wrap around).
-/

namespace JaxAct

/-- A binary floating point format. -/
structure Fmt where
  /-- number of bits of the significand -/
  prec : Nat
  /-- exponent of the spacing of the subnormal numbers -/
  emin : Int
  deriving DecidableEq, Repr

namespace Fmt

/-- The formats considered: at least one bit, and the numbers just below 1 are not subnormal. -/
def Valid (f : Fmt) : Prop := 1 ≤ f.prec ∧ f.emin ≤ -(f.prec : Int)

instance (f : Fmt) : Decidable f.Valid := inferInstanceAs (Decidable (_ ∧ _))

/-- Nearest integer, ties to even. -/
def rne (x : ℚ) : ℤ :=
  if 2 * Int.fract x < 1 then ⌊x⌋
  else if 1 < 2 * Int.fract x then ⌊x⌋ + 1
  else if Even ⌊x⌋ then ⌊x⌋ else ⌊x⌋ + 1

/-- Exponent of the spacing of the format around `x`. -/
def ulpExp (f : Fmt) (x : ℚ) : ℤ := max (Int.log 2 |x| - (f.prec - 1)) f.emin

/-- Spacing of the format around `x`. -/
def ulp (f : Fmt) (x : ℚ) : ℚ := (2 : ℚ) ^ f.ulpExp x

/-- The number of the format nearest to `x`, ties to even. -/
def rnd (f : Fmt) (x : ℚ) : ℚ := rne (x / f.ulp x) * f.ulp x

/-- `x` is a number of the format. -/
def Rep (f : Fmt) (x : ℚ) : Prop := f.rnd x = x

instance (f : Fmt) (x : ℚ) : Decidable (f.Rep x) := inferInstanceAs (Decidable (_ = _))

end Fmt

/-- The floating point dtypes: bfloat16, float16, float32, float64 (IEEE 754 binary16/32/64). -/
def DType.fmt : DType → Fmt
  | .bf16 => ⟨8, -133⟩
  | .f16 => ⟨11, -24⟩
  | .f32 => ⟨24, -149⟩
  | .f64 => ⟨53, -1074⟩
  | .bool | .i32 => ⟨53, -1074⟩

namespace Arith

/-- Rounding into a dtype, for a given choice of formats: integers and bools are left alone. -/
def roundTo (F : DType → Fmt) (d : DType) (x : ℚ) : ℚ :=
  if d.isFloating then (F d).rnd x else x

/-- Arithmetic with one rounding per operation, in a format per dtype. -/
@[reducible] def rounded (F : DType → Fmt) : Arith ℚ where
  zero := 0
  one := 1
  add d x y := roundTo F d (x + y)
  sub d x y := roundTo F d (x - y)
  mul d x y := roundTo F d (x * y)
  max x y := x ⊔ y
  min x y := x ⊓ y
  cast d x := roundTo F d x
  lt x y := decide (x < y)
  le x y := decide (x ≤ y)

end Arith

/-- IEEE 754 arithmetic (finite numbers) in the formats of the dtypes. -/
@[reducible] def ieee : Arith ℚ := Arith.rounded DType.fmt

end JaxAct
