import Verif.Spec.Types

/-!
# Specification vocabulary: families of values related entry by entry to one value

`R f X` relates a family `f` of numbers to one number of another kind; the definitions here carry it over
to tensors, trees, states and calls.  Shapes, dtypes and structures have to be the same throughout.
-/

namespace JaxAct
variable {ι α β : Type} (R : (ι → α) → β → Prop)

/-- Tensors related entry by entry. -/
def TensorRel (t : ι → Tensor α) (T : Tensor β) : Prop :=
  (∀ θ, TensorsAlike (t θ) T) ∧
  ∀ i X, T.at? i = some X → ∃ f : ι → α, (∀ θ, (t θ).at? i = some (f θ)) ∧ R f X

/-- Observation: entry `i` of leaf number `k` (in flattening order) of a tree. -/
def PyTree.entry? (t : PyTree (Leaf α)) (k : Nat) (i : List Nat) : Option α :=
  match t.treeLeaves[k]? with
  | some l => l.at? i
  | Option.none => Option.none

/-- Trees related entry by entry. -/
def TreeRel (t : ι → PyTree (Leaf α)) (T : PyTree (Leaf β)) : Prop :=
  (∀ θ, TreesAlike (t θ) T) ∧
  ∀ k i X, T.entry? k i = some X → ∃ f : ι → α, (∀ θ, (t θ).entry? k i = some (f θ)) ∧ R f X

/-- Dictionaries related entry by entry. -/
def DictRel (d : ι → Dict (PyTree (Leaf α))) (D : Dict (PyTree (Leaf β))) : Prop :=
  (∀ θ, DictsAlike (d θ) D) ∧
  ∀ n k i X, ACTStates.entry? D n k i = some X →
    ∃ f : ι → α, (∀ θ, ACTStates.entry? (d θ) n k i = some (f θ)) ∧ R f X

/-- States related entry by entry. -/
structure StateRel (s : ι → ACTStates α) (S : ACTStates β) : Prop where
  epsilon : R (fun θ => (s θ).epsilon) S.epsilon
  depression : R (fun θ => (s θ).depression_constant) S.depression_constant
  error_mode : ∀ θ, (s θ).error_mode = S.error_mode
  probabilities : TensorRel R (fun θ => (s θ).probabilities) S.probabilities
  residuals : TensorRel R (fun θ => (s θ).residuals) S.residuals
  iterations : TensorRel R (fun θ => (s θ).iterations) S.iterations
  defaults : DictRel R (fun θ => (s θ).defaults) S.defaults
  accumulators : DictRel R (fun θ => (s θ).accumulators) S.accumulators
  updates : DictRel R (fun θ => (s θ).updates) S.updates

/-- The same call with related arguments. -/
inductive CallRel : (ι → Op α) → Op β → Prop
  | cache (name : String) {t : ι → PyTree (Leaf α)} {T : PyTree (Leaf β)} (h : TreeRel R t T) :
      CallRel (fun θ => .cache name (t θ)) (.cache name T)
  | iterate {h : ι → Tensor α} {H : Tensor β} (e : TensorRel R h H) :
      CallRel (fun θ => .iterate (h θ)) (.iterate H)
  | reset : CallRel (fun _ => .reset) .reset

/-- The same exception throughout, or controllers with related states. -/
inductive OutcomesRel : (ι → Res (Controller α)) → Res (Controller β) → Prop
  | ok {c : ι → Controller α} {C : Controller β} (h : StateRel R (fun θ => (c θ).state) C.state) :
      OutcomesRel (fun θ => .ok (c θ)) (.ok C)
  | error (e : Err) : OutcomesRel (fun _ => .error e) (.error e)

end JaxAct
