import Verif.Basic.Round

/-!
# Floating point arithmetic with infinities and NaN

Numbers are rationals, two infinities and NaN (IEEE 754).  `R d x` is what the rational `x` becomes
in dtype `d`: a rounded number, or an infinity if it is too large; it is a parameter.

Simplified: one zero, one NaN.  Conversions of NaN and infinities to integers do not occur in the
library.
-/

namespace JaxAct

/-- Rational numbers, infinities (`true` is the negative one) and NaN. -/
inductive Ext where
  | num (x : ℚ)
  | inf (neg : Bool)
  | nan
  deriving DecidableEq, Repr

namespace Ext

/-- Rounding of a number; infinities and NaN are left alone. -/
def round (r : ℚ → Ext) : Ext → Ext
  | num x => r x
  | x => x

/-- Change of sign. -/
def neg : Ext → Ext
  | num x => num (-x)
  | inf b => inf (!b)
  | nan => nan

/-- Sum: `inf - inf` is NaN. -/
def add (r : ℚ → Ext) : Ext → Ext → Ext
  | nan, _ => nan
  | _, nan => nan
  | num x, num y => r (x + y)
  | num _, inf b => inf b
  | inf a, num _ => inf a
  | inf a, inf b => if a = b then inf a else nan

/-- An infinity of sign `a` times a number: `inf * 0` is NaN. -/
def infMul (a : Bool) (x : ℚ) : Ext :=
  if x = 0 then nan else inf (xor a (decide (x < 0)))

/-- Product: `inf * 0` is NaN. -/
def mul (r : ℚ → Ext) : Ext → Ext → Ext
  | nan, _ => nan
  | _, nan => nan
  | num x, num y => r (x * y)
  | num x, inf b => infMul b x
  | inf a, num y => infMul a y
  | inf a, inf b => inf (xor a b)

/-- `x < y`, false if one is NaN. -/
def lt : Ext → Ext → Bool
  | nan, _ => false
  | _, nan => false
  | num x, num y => decide (x < y)
  | num _, inf b => !b
  | inf a, num _ => a
  | inf a, inf b => a && !b

/-- `x <= y`, false if one is NaN. -/
def le : Ext → Ext → Bool
  | nan, _ => false
  | _, nan => false
  | x, y => !lt y x

/-- `jnp.maximum`: NaN if one is NaN. -/
def max : Ext → Ext → Ext
  | nan, _ => nan
  | _, nan => nan
  | x, y => if lt x y then y else x

/-- `jnp.minimum`: NaN if one is NaN. -/
def min : Ext → Ext → Ext
  | nan, _ => nan
  | _, nan => nan
  | x, y => if lt y x then y else x

end Ext

/-- Arithmetic with infinities and NaN over a given rounding. -/
@[reducible] def Arith.special (R : DType → ℚ → Ext) : Arith Ext where
  zero := .num 0
  one := .num 1
  add d := Ext.add (R d)
  sub d x y := Ext.add (R d) x y.neg
  mul d := Ext.mul (R d)
  max := Ext.max
  min := Ext.min
  cast d := Ext.round (R d)
  lt := Ext.lt
  le := Ext.le

/-- The largest finite numbers of the floating point dtypes. -/
def DType.largest : DType → ℚ
  | .bf16 => (2 - 2 ^ (-7 : ℤ)) * 2 ^ (127 : ℤ)
  | .f16 => 65504
  | .f32 => (2 - 2 ^ (-23 : ℤ)) * 2 ^ (127 : ℤ)
  | .f64 | .bool | .i32 => (2 - 2 ^ (-52 : ℤ)) * 2 ^ (1023 : ℤ)

/-- IEEE 754 rounding to nearest even with overflow to infinity. -/
def DType.ieeeRound (d : DType) (x : ℚ) : Ext :=
  if d.isFloating then
    let y := d.fmt.rnd x
    if d.largest < y then .inf false else if y < -d.largest then .inf true else .num y
  else .num x

/-- IEEE 754 arithmetic in the formats of the dtypes, with infinities and NaN. -/
@[reducible] def ieeeSpecial : Arith Ext := Arith.special DType.ieeeRound

end JaxAct
