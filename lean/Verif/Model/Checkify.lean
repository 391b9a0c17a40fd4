import Verif.Spec.Session
import Verif.Model.Layers

/-!
# Model of `jit_and_checkify` (`/repo/src/jax_act/core/utils.py:27-41`)

`checkify.checkify(f)` runs `f` with every `checkify.check`, and every `errors.throw()` of a nested
`checkify`, recorded instead of raised; `jax.jit` runs the Python code once, on tracers.  A Python
exception raised meanwhile propagates.  A failed check does not stop the function: it goes on with
whatever it computes.

Simplifications: the function takes and returns one object of the package; arrays used inside are the
values themselves (`epsilon` and `depression_constant` keep their precision, see `Spec/Traced`).  Only
the text of the reported error says which of several failed checks came first; texts are not modelled.
-/

namespace JaxAct
variable {α : Type}

/-- The outcome of a function run under `checkify`: a Python exception, or its value and whether all
checks held. -/
abbrev Staged (β : Type) : Type := Res (β × Bool)

/-- Sequencing: an exception ends the run, a failed check does not. -/
def Staged.bind {β γ : Type} (x : Staged β) (f : β → Staged γ) : Staged γ :=
  match x with
  | .error e => .error e
  | .ok (v, b) =>
    match f v with
    | .error e => .error e
    | .ok (w, b') => .ok (w, b && b')

/-- Code without checks. -/
def Staged.lift {β : Type} (x : Res β) : Staged β := x.map fun v => (v, true)

/-- Code that records a check and then goes on with `v`. -/
def Staged.recorded {β : Type} (check : Res Bool) (x : Res β) : Staged β :=
  match check with
  | .error e => .error e
  | .ok b => x.map fun v => (v, b)

variable [Arith α]

/-- `_execute_validation`, `tensoreditor.py:280-299`, followed by the rest of a setter (`next`), when the
setter runs under `checkify`: in mode `"standard"` the outcome of the checks is recorded. -/
def Editor.stagedSet (e : Editor α) (checks : Res Bool) (next : Res (ACTStates α)) :
    Staged (Session α) :=
  Staged.recorded (if e.errorMode = "standard" then checks else .ok true)
    (next.map fun s => .editor ⟨s, e.errorMode⟩)

/-- One call under `checkify`.  Only the setters of the editor (`tensoreditor.py:300-462`) contain
checks; their conditions and effects are those of `Model/Editor`. -/
def ApiCall.staged : Session α → ApiCall α → Staged (Session α)
  | .editor e, .setProbabilities v =>
    e.stagedSet (.ok (Editor.sameShape e.state.probabilities v &&
      Editor.sameDtype e.state.probabilities v && Editor.isProbability v))
      (e.state.replace (probabilities := some v))
  | .editor e, .setResiduals v =>
    e.stagedSet (.ok (Editor.sameShape e.state.residuals v &&
      Editor.sameDtype e.state.residuals v && Editor.isProbability v))
      (e.state.replace (residuals := some v))
  | .editor e, .setIterations v =>
    e.stagedSet (.ok (Editor.sameShape e.state.iterations v &&
      Editor.sameDtype e.state.iterations v && Editor.isNatural v))
      (e.state.replace (iterations := some v))
  | .editor e, .setEpsilon v =>
    e.stagedSet (.ok (Arith.le Arith.zero v && Arith.le v Arith.one))
      (e.state.replace (epsilon := some v))
  | .editor e, .setAccumulator n v =>
    e.stagedSet (e.checkAgainstAccumulator n v)
      (e.state.replace (accumulators := some (e.state.accumulators.set n v)))
  | .editor e, .setDefaults n v =>
    e.stagedSet (e.checkAgainstAccumulator n v)
      (e.state.replace (defaults := some (e.state.defaults.set n v)))
  | .editor e, .setUpdates n v =>
    e.stagedSet (e.checkUpdate n v)
      (e.state.replace (updates := some (e.state.updates.set n v)))
  | s, op => Staged.lift (op.call s)

/-- The calls one after the other, under `checkify`. -/
def runStaged (s : Session α) : List (ApiCall α) → Staged (Session α)
  | [] => Staged.lift (.ok s)
  | op :: ops => (op.staged s).bind fun s' => runStaged s' ops

omit [Arith α]

/-- The object as a Python object. -/
def Session.raw : Session α → RawObj (Atom α)
  | .builder b => b.raw
  | .controller c => c.raw
  | .editor e => e.raw
  | .viewer v => v.raw

/-- The object with its dicts in key order: what flattening and unflattening it gives back
(`ACTStates.raw_canon` in `Lemmas/Flatten`). -/
def Session.sorted : Session α → Session α
  | .builder b => .builder ⟨b.state.sorted⟩
  | .controller c => .controller ⟨c.state.sorted⟩
  | .editor e => .editor ⟨e.state.sorted, e.errorMode⟩
  | .viewer v => .viewer ⟨v.state.sorted⟩

/-- What `jax.jit` does with an argument or result: `TypeError` unless all leaves are arrays or numbers;
flattening and unflattening put dicts in key order. -/
def Session.throughJit (s : Session α) : Res (Session α) :=
  match avals (flattenObj s.raw).1 with
  | some _ => .ok s.sorted
  | none => raise .typeError

/-- `jit_and_checkify(function)(x)`, `utils.py:35-41`. -/
def jitAndCheckify (function : Session α → Staged (Session α)) (x : Session α) : Res (Session α) :=
  match x.throughJit with
  | .error e => .error e
  | .ok x =>
    match function x with
    | .error e => .error e
    | .ok (out, checks) =>
      match out.throughJit with
      | .error e => .error e
      | .ok out => if checks then .ok out else raise .jaxRuntimeError

end JaxAct
