import Verif.Spec.Loop
import Verif.Spec.Tangent

/-!
# Specification vocabulary: layers and loops related to a layer on another kind of numbers

Continues `Spec/Families`: families of layers, of what their methods return, and of loop carries.
-/

namespace JaxAct

section Rel
variable {ι α β A B : Type} (R : (ι → α) → β → Prop)

/-- The same exception throughout, or related results. -/
def ResRel (Q : (ι → A) → B → Prop) (r : ι → Res A) : Res B → Prop
  | .error e => ∀ θ, r θ = .error e
  | .ok Y => ∃ y : ι → A, (∀ θ, r θ = .ok (y θ)) ∧ Q y Y

/-- Well-formed controllers with related states. -/
structure CtrlRel (c : ι → Controller α) (C : Controller β) : Prop where
  state : StateRel R (fun θ => (c θ).state) C.state
  wf : ∀ θ, (c θ).state.WF
  wf' : C.state.WF

/-- What `make_controller` returns. -/
def MadeRel (m : ι → Made α) : Made β → Prop
  | .ctrl C => ∃ c : ι → Controller α, (∀ θ, m θ = .ctrl (c θ)) ∧ CtrlRel R c C
  | .other => ∀ θ, m θ = .other

/-- A component of what `run_iteration` returns. -/
def ItemRel (m : ι → Item α) : Item β → Prop
  | .given => ∀ θ, m θ = .given
  | .ctrl C => ∃ c : ι → Controller α, (∀ θ, m θ = .ctrl (c θ)) ∧ CtrlRel R c C
  | .value T => ∃ t : ι → PyTree (Leaf α), (∀ θ, m θ = .value (t θ)) ∧ TreeRel R t T

/-- What `run_iteration` returns. -/
def RetRel (r : ι → Ret α) : Ret β → Prop
  | .tuple IS => ∃ is : List (ι → Item α), (∀ θ, r θ = .tuple (is.map (· θ))) ∧
      List.Forall₂ (ItemRel R) is IS
  | .list IS => ∃ is : List (ι → Item α), (∀ θ, r θ = .list (is.map (· θ))) ∧
      List.Forall₂ (ItemRel R) is IS
  | .other => ∀ θ, r θ = .other

/-- The methods of the layers give related results on related arguments; `run_iteration` only where `Reg`
holds of the arguments at `θ₀`. -/
structure LayerRel (θ₀ : ι) (Reg : Controller α → PyTree (Leaf α) → Prop) (l : ι → Layer α)
    (L : Layer β) : Prop where
  make : ∀ s S d D, TreeRel R s S → R d D →
    ResRel (MadeRel R) (fun θ => (l θ).makeController (s θ) (d θ)) (L.makeController S D)
  setup : ∀ c C s S, CtrlRel R c C → TreeRel R s S →
    ResRel (fun (_ : ι → Unit) (_ : Unit) => True) (fun θ => (l θ).setupLazyParameters (c θ) (s θ))
      (L.setupLazyParameters C S)
  run : ∀ c C s S, CtrlRel R c C → TreeRel R s S → Reg (c θ₀) (s θ₀) →
    ResRel (RetRel R) (fun θ => (l θ).runIteration (c θ) (s θ)) (L.runIteration C S)

/-- Related carries. -/
structure CarryRel (x : ι → Carry α) (X : Carry β) : Prop where
  controller : CtrlRel R (fun θ => (x θ).controller) X.controller
  state : TreeRel R (fun θ => (x θ).state) X.state
  metadata : ∀ θ, (x θ).metadata = X.metadata

end Rel

/-- `y` is the carry before some iteration of the loop, or the last one. -/
inductive Visits {σ : Type} (cond : σ → Bool) (step : σ → Res σ) : σ → σ → Prop
  | start (x : σ) : Visits cond step x x
  | next (x y z : σ) : cond x = true → step x = .ok y → Visits cond step y z → Visits cond step x z

/-- `y` is a carry the loop of `execute_act` visits. -/
def Layer.Visited {α : Type} [Arith α] (l : Layer α) (s : PyTree (Leaf α)) (depression : α)
    (maxIterations : Int) (check : Bool) (y : Carry α) : Prop :=
  ∃ c, l.prepare check s depression = .ok c ∧
    Visits isActNotComplete (fun x => (l.adapter check x).map Carry.rebuild)
      (Carry.rebuild ⟨c, s, ⟨0, maxIterations⟩⟩) y

/-- The calls and the next state of two layers made of controller calls are related. -/
structure CallsRel {ι α β : Type} (R : (ι → α) → β → Prop)
    (calls : ι → PyTree (Leaf α) → List (Op α)) (CALLS : PyTree (Leaf β) → List (Op β))
    (next : ι → PyTree (Leaf α) → PyTree (Leaf α)) (NEXT : PyTree (Leaf β) → PyTree (Leaf β)) :
    Prop where
  calls : ∀ s S, TreeRel R s S → ∃ ops : List (ι → Op α),
    (∀ θ, calls θ (s θ) = ops.map (· θ)) ∧ List.Forall₂ (CallRel R) ops (CALLS S)
  next : ∀ s S, TreeRel R s S → TreeRel R (fun θ => next θ (s θ)) (NEXT S)

end JaxAct
