/-!
# dtypes and JAX type promotion

The fragment of JAX's dtype lattice that the library can meet (default configuration,
`jax_enable_x64` off: the default integer is int32, the default float is float32).
-/

namespace JaxAct

/-- dtypes. -/
inductive DType where
  | bool | i32 | bf16 | f16 | f32 | f64
  deriving DecidableEq, Repr

namespace DType

/-- `jnp.issubdtype(d, jnp.floating)`. -/
def isFloating : DType → Bool
  | bool | i32 => false
  | bf16 | f16 | f32 | f64 => true

/-- JAX binary promotion between two strongly typed arrays.
`bf16` with `f16` gives `f32`; an integer or bool with a float gives the float. -/
def promote : DType → DType → DType
  | bool, d => d
  | d, bool => d
  | i32, d => d
  | d, i32 => d
  | bf16, bf16 => bf16
  | f16, f16 => f16
  | f64, _ => f64
  | _, f64 => f64
  | bf16, f16 => f32
  | f16, bf16 => f32
  | f32, _ => f32
  | _, f32 => f32

/-- Promotion of an array dtype with a Python `float` (weakly typed). -/
def withFloat (d : DType) : DType := if d.isFloating then d else f32

/-- Promotion of an array dtype with a Python `int` (weakly typed). -/
def withInt (d : DType) : DType := if d = bool then i32 else d

end DType
end JaxAct
