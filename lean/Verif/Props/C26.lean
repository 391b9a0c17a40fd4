import Verif.Lemmas.Builder
import Verif.Lemmas.History
import Verif.Props.C14

/-! # C26 The three accumulator dictionaries stay aligned -/

namespace JaxAct
variable {α : Type} [Arith α]
open Builder

/-- One builder call. -/
inductive BuildOp (α : Type) where
  | define (name : String) (tree : PyTree (Leaf α))
  | byShape (name : String) (shapes : PyTree ShapeItem) (dtype : DType) (fill : α)
  | delete (name : String)

/-- Perform the builder call. -/
def BuildOp.call (b : Builder α) : BuildOp α → Res (Builder α)
  | define n t => b.defineAccumulatorDirectly n t
  | byShape n s d f => b.defineAccumulatorByShape n s d f
  | delete n => b.deleteDefinition n

/-- A builder program: the calls one after the other; stops at the first exception. -/
def runBuild (b : Builder α) : List (BuildOp α) → Res (Builder α)
  | [] => .ok b
  | op :: ops => do
    let b' ← op.call b
    runBuild b' ops

/-- The state that `new_builder` describes (zero probabilities, residuals and iterations of the
batch shape, no accumulators), with the `error_mode` it forgets. -/
def baseState (batch : List Nat) (d : DType) (eps dep : α) (mode : Option String) : ACTStates α where
  epsilon := eps
  iterations := Tensor.zeros batch d
  residuals := Tensor.zeros batch d
  probabilities := Tensor.zeros batch d
  defaults := []
  accumulators := []
  updates := []
  depression_constant := dep
  error_mode := mode

theorem baseState_wf (batch : List Nat) {d : DType} (hd : d.isFloating = true) (eps dep : α)
    (mode : Option String) : (baseState batch d eps dep mode).WF where
  floating := hd
  res_shape := rfl
  res_dtype := rfl
  it_shape := rfl
  it_dtype := by rintro h; rw [show d = .bool from h] at hd; cases hd
  acc_keys := Dict.WF.nil
  def_keys := Dict.WF.nil
  upd_keys := Dict.WF.nil
  def_iff := fun _ => Iff.rfl
  upd_iff := fun _ => Iff.rfl
  batched := by intro n t h; simp [baseState] at h
  same := by intro n t u h; simp [baseState] at h

omit [Arith α] in
theorem define_wf {s : ACTStates α} (hwf : s.WF) {name : String} {t : PyTree (Leaf α)}
    {b' : Builder α} (h : define ⟨s⟩ name t = .ok b') : b'.state.WF := by
  obtain ⟨hg, rfl⟩ := define_ok_iff.1 h
  have hb : Batched s.probabilities.shape t := hg
  refine { hwf with
    acc_keys := hwf.acc_keys.set _ _
    def_keys := hwf.def_keys.set _ _
    upd_keys := hwf.upd_keys.set _ _
    def_iff := fun n => ?_, upd_iff := fun n => ?_
    batched := fun n u hu => ?_, same := fun n u v hu hv => ?_ }
  · simp only [Dict.mem_keys_set, hwf.def_iff]
  · simp only [Dict.mem_keys_set, hwf.upd_iff]
  · simp only [Dict.get?_set] at hu
    split at hu
    · cases hu; exact hb
    · exact hwf.batched n u hu
  · simp only [Dict.get?_set] at hu hv
    split at hu
    · cases hu; rw [if_pos ‹_›] at hv; cases hv; exact SameType.refl_of_batched hb
    · rw [if_neg ‹_›] at hv; exact hwf.same n u v hu hv

omit [Arith α] in
theorem delete_wf {s : ACTStates α} (hwf : s.WF) {name : String} {b' : Builder α}
    (h : deleteDefinition ⟨s⟩ name = .ok b') : b'.state.WF := by
  obtain ⟨-, -, -, rfl⟩ := delete_ok_iff.1 h
  have hmem : ∀ {d : Dict (PyTree (Leaf α))}, d.WF → ∀ n, n ∈ (d.erase name).keys ↔
      n ≠ name ∧ n ∈ d.keys := by
    intro d hd n
    simp only [Dict.mem_keys_iff, Dict.get?_erase hd]
    by_cases hn : name = n
    · simp [hn]
    · simp [hn, Ne.symm (a := name) hn]
  have hget : ∀ {d : Dict (PyTree (Leaf α))}, d.WF → ∀ {n t}, (d.erase name).get? n = some t →
      d.get? n = some t := by
    intro d hd n t ht
    rw [Dict.get?_erase hd] at ht
    split at ht
    · cases ht
    · exact ht
  exact { hwf with
    acc_keys := hwf.acc_keys.erase _
    def_keys := hwf.def_keys.erase _
    upd_keys := hwf.upd_keys.erase _
    def_iff := fun n => by rw [hmem hwf.def_keys, hmem hwf.acc_keys, hwf.def_iff]
    upd_iff := fun n => by rw [hmem hwf.upd_keys, hmem hwf.acc_keys, hwf.upd_iff]
    batched := fun n u hu => hwf.batched n u (hget hwf.acc_keys hu)
    same := fun n u v hu hv => hwf.same n u v (hget hwf.acc_keys hu) (hget hwf.def_keys hv) }

theorem runBuild_wf (ops : List (BuildOp α)) {s : ACTStates α} (hwf : s.WF) {b' : Builder α}
    (h : runBuild ⟨s⟩ ops = .ok b') : b'.state.WF := by
  induction ops generalizing s with
  | nil => cases h; exact hwf
  | cons op ops ih =>
    obtain ⟨b, h1, h2⟩ := bind_ok.1 h
    refine ih (s := b.state) ?_ h2
    cases op with
    | define n t => exact define_wf hwf h1
    | byShape n sh d f =>
      obtain ⟨t, -, h1⟩ := bind_ok.1 h1
      exact define_wf hwf h1
    | delete n => exact delete_wf hwf h1

/-- C26: for every batch shape, every floating dtype, every program of builder calls and every
sequence of controller calls: defaults, accumulators and update slots have the same names, each
accumulator has the structure, leaf shapes and leaf dtypes of its default, and every leaf is a
floating tensor with the batch shape in front. -/
theorem C26_aligned (batch : List Nat) {d : DType} (hd : d.isFloating = true) (eps dep : α)
    (mode : Option String) (prog : List (BuildOp α)) (ops : List (Op α)) {b : Builder α}
    {c : Controller α} (hb : runBuild ⟨baseState batch d eps dep mode⟩ prog = .ok b)
    (hc : run b.build ops = .ok c) :
    (∀ n, n ∈ c.state.defaults.keys ↔ n ∈ c.state.accumulators.keys) ∧
    (∀ n, n ∈ c.state.updates.keys ↔ n ∈ c.state.accumulators.keys) ∧
    (∀ n t u, c.state.accumulators.get? n = some t → c.state.defaults.get? n = some u →
      SameType t u ∧ Batched c.state.probabilities.shape t) := by
  have hw := runBuild_wf prog (baseState_wf batch hd eps dep mode) hb
  have h := run_wf hw hc
  exact ⟨h.def_iff, h.upd_iff, fun n t u h1 h2 => ⟨h.same n t u h1 h2, h.batched n t h1⟩⟩

/-- C26: the well-formedness that the other theorems assume holds of every state that a builder
program and a sequence of controller calls can reach. -/
theorem C26_reachable_wf (batch : List Nat) {d : DType} (hd : d.isFloating = true) (eps dep : α)
    (mode : Option String) (prog : List (BuildOp α)) (ops : List (Op α)) {b : Builder α}
    {c : Controller α} (hb : runBuild ⟨baseState batch d eps dep mode⟩ prog = .ok b)
    (hc : run b.build ops = .ok c) : b.build.state.WF ∧ c.state.WF :=
  have hw := runBuild_wf prog (baseState_wf batch hd eps dep mode) hb
  ⟨hw, run_wf hw hc⟩

section Example
open Fixtures
attribute [local instance] Arith.exact

/-- A program that defines three accumulators, deletes one and then iterates. -/
def exampleProgram : List (BuildOp ℚ) :=
  [.define "x" (bare (vec [1, 2])),
   .byShape "out" (.node .list [.leaf (.int 2), .leaf (.int 1)]) .f32 0,
   .define "tree" (pair (vec [0, 0]) (col 1 1)), .delete "x"]

example : obs (runBuild ⟨baseState [2] .f32 (1/10) 1 none⟩ exampleProgram >>= fun b =>
      run b.build (roundOps [round [1/2, 1] 3 4]))
    (fun c => some (c.state.defaults.keys, c.state.accumulators.keys, c.state.updates.keys,
      ACTStates.entry? c.accumulators "tree" 1 [1, 0])) =
    some (["out", "tree"], ["out", "tree"], ["out", "tree"], some 4) := by decide +kernel

end Example
end JaxAct
