import Verif.Basic.Arith

/-!
# Forward-mode differentiation (`jax.jvp`) as an arithmetic

`jax.jvp` runs a program on pairs of a value and a tangent.  Sums, differences and products follow the
usual rules, comparisons look at the values only, and the branch of a `select` takes its tangent along.
`maximum` and `minimum` take the tangent of the larger (smaller) argument, and the mean of the two at a
tie (`_balanced_eq` in `jax/_src/lax/lax.py`).

Simplification: a cast keeps value and tangent, as in exact arithmetic.  (JAX drops the tangent at a cast
to an integer dtype; the library casts only to floating dtypes.)
-/

namespace JaxAct

/-- A value and its tangent. -/
@[ext] structure Dual (K : Type) where
  re : K
  im : K
  deriving DecidableEq

/-- Exact arithmetic on values and tangents. -/
@[reducible] def Arith.dual (K : Type) [Field K] [LinearOrder K] : Arith (Dual K) where
  zero := ⟨0, 0⟩
  one := ⟨1, 0⟩
  add _ x y := ⟨x.re + y.re, x.im + y.im⟩
  sub _ x y := ⟨x.re - y.re, x.im - y.im⟩
  mul _ x y := ⟨x.re * y.re, x.im * y.re + x.re * y.im⟩
  max x y := if x.re < y.re then y else if y.re < x.re then x else ⟨x.re, (x.im + y.im) / 2⟩
  min x y := if x.re < y.re then x else if y.re < x.re then y else ⟨x.re, (x.im + y.im) / 2⟩
  cast _ x := x
  lt x y := decide (x.re < y.re)
  le x y := decide (x.re ≤ y.re)

end JaxAct
