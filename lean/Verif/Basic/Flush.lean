import Verif.Basic.Round

/-!
# Arithmetic that flushes to zero

XLA lets most backends replace subnormal results by zero.  The numbers and the rounding are those of
`Basic/Round`; a result that is smaller than every normal number of its format becomes zero.
-/

namespace JaxAct

namespace Fmt

/-- The smallest positive normal number. -/
def minNormal (f : Fmt) : ℚ := (2 : ℚ) ^ (f.emin + f.prec - 1)

/-- Subnormal numbers become zero. -/
def flush (f : Fmt) (x : ℚ) : ℚ := if |x| < f.minNormal then 0 else x

/-- Zero or a normal number. -/
def NotTiny (f : Fmt) (x : ℚ) : Prop := x = 0 ∨ f.minNormal ≤ |x|

instance (f : Fmt) (x : ℚ) : Decidable (f.NotTiny x) := inferInstanceAs (Decidable (_ ∨ _))

/-- The differences between one and the numbers below it are not subnormal.  True of bfloat16, float16,
float32 and float64. -/
def Wide (f : Fmt) : Prop := f.Valid ∧ f.emin + f.prec - 1 ≤ -(f.prec : ℤ)

instance (f : Fmt) : Decidable f.Wide := inferInstanceAs (Decidable (_ ∧ _))

end Fmt

namespace Arith

/-- Rounding into a dtype and flushing; integers and bools are left alone. -/
def flushTo (F : DType → Fmt) (d : DType) (x : ℚ) : ℚ :=
  if d.isFloating then (F d).flush ((F d).rnd x) else x

/-- Arithmetic with one rounding per operation in which subnormal results become zero. -/
@[reducible] def flushing (F : DType → Fmt) : Arith ℚ where
  zero := 0
  one := 1
  add d x y := flushTo F d (x + y)
  sub d x y := flushTo F d (x - y)
  mul d x y := flushTo F d (x * y)
  max x y := x ⊔ y
  min x y := x ⊓ y
  cast d x := flushTo F d x
  lt x y := decide (x < y)
  le x y := decide (x ≤ y)

end Arith
end JaxAct
