import Verif.Model.Checkify
import Verif.Lemmas.Editor
import Verif.Props.C62

/-! # C74 jit_and_checkify reports what an eager run reports -/

namespace JaxAct
variable {α : Type} [Arith α]

/-- What a staged outcome must be, given the eager one. -/
private def Reports {β : Type} (r : Res β) (s : Staged β) : Prop :=
  match r with
  | .ok v => s = .ok (v, true)
  | .error e => s = .error e ∨ e = .jaxRuntimeError ∧ ((∃ e', s = .error e') ∨ ∃ v, s = .ok (v, false))

private theorem reports_lift {β : Type} (r : Res β) : Reports r (Staged.lift r) := by
  cases r with
  | ok v => rfl
  | error e => exact .inl rfl

omit [Arith α] in
private theorem reports_set (e : Editor α) (checks : Res Bool) (next : Res (ACTStates α)) :
    Reports ((do e.executeValidation checks; let state ← next; pure (⟨state, e.errorMode⟩ : Editor α)
      : Res (Editor α)).map Session.editor) (e.stagedSet checks next) := by
  unfold Editor.executeValidation Editor.stagedSet Staged.recorded
  by_cases hm : e.errorMode = "standard"
  · rw [if_pos hm, if_pos hm]
    rcases checks with err | (_ | _)
    · exact .inl rfl
    · cases next with
      | error err => exact .inr ⟨rfl, .inl ⟨_, rfl⟩⟩
      | ok s => exact .inr ⟨rfl, .inr ⟨_, rfl⟩⟩
    · cases next with
      | error err => exact .inl rfl
      | ok s => rfl
  · rw [if_neg hm, if_neg hm]
    cases next with
    | error err => exact .inl rfl
    | ok s => rfl

private theorem reports_call (s : Session α) (op : ApiCall α) : Reports (op.call s) (op.staged s) := by
  cases s with
  | editor e =>
    cases op <;> first | exact reports_set e _ _ | exact reports_lift _
  | _ => exact reports_lift _

private theorem reports_error (e : Editor α) (op : ApiCall α)
    (h : op.call (.editor e) = .error .jaxRuntimeError) :
    op.staged (.editor e) = .error .jaxRuntimeError ∨ ∃ v, op.staged (.editor e) = .ok (v, false) := by
  have set : ∀ (checks : Res Bool) (s : ACTStates α),
      (do e.executeValidation checks; let state ← .ok s; pure (⟨state, e.errorMode⟩ : Editor α)
        : Res (Editor α)).map Session.editor = .error .jaxRuntimeError →
      e.stagedSet checks (.ok s) = .error .jaxRuntimeError ∨
        ∃ v, e.stagedSet checks (.ok s) = .ok (v, false) := by
    intro checks s h
    rcases reports_set e checks (.ok s) with h'
    rw [h] at h'
    rcases h' with h' | ⟨-, ⟨e', h'⟩ | h'⟩
    · exact .inl h'
    · unfold Editor.stagedSet Staged.recorded at h' ⊢
      unfold Editor.executeValidation at h
      by_cases hm : e.errorMode = "standard"
      · rw [if_pos hm] at h h' ⊢
        cases checks with
        | error err => cases h; exact .inl rfl
        | ok b => cases h'
      · rw [if_neg hm] at h'; cases h'
    · exact .inr h'
  cases op <;> first
    | exact set _ _ h
    | exact .inl (by
        show Staged.lift _ = _
        rw [h]
        rfl)

private theorem reports_run (ops : List (ApiCall α)) (s : Session α) :
    Reports (runApi s ops) (runStaged s ops) := by
  induction ops generalizing s with
  | nil => rfl
  | cons op ops ih =>
    have h1 := reports_call s op
    unfold runApi runStaged Staged.bind
    cases hc : op.call s with
    | error e =>
      rw [hc] at h1
      rcases h1 with h1 | ⟨rfl, ⟨e', h1⟩ | ⟨v, h1⟩⟩
      · rw [h1]; exact .inl rfl
      · rw [h1]; exact .inr ⟨rfl, .inl ⟨_, rfl⟩⟩
      · rw [h1]
        refine .inr ⟨rfl, ?_⟩
        simp only
        cases runStaged v ops with
        | error e' => exact .inl ⟨e', rfl⟩
        | ok p => exact .inr ⟨p.1, rfl⟩
    | ok s' =>
      rw [hc] at h1
      have h2 := ih s'
      rw [show op.staged s = .ok (s', true) from h1]
      simp only [ok_bind]
      cases hr : runApi s' ops with
      | ok v =>
        rw [hr] at h2
        rw [show runStaged s' ops = .ok (v, true) from h2]
        rfl
      | error e =>
        rw [hr] at h2
        rcases h2 with h2 | ⟨rfl, ⟨e', h2⟩ | ⟨v, h2⟩⟩
        · rw [h2]; exact .inl rfl
        · rw [h2]; exact .inr ⟨rfl, .inl ⟨_, rfl⟩⟩
        · rw [h2]; exact .inr ⟨rfl, .inr ⟨v, rfl⟩⟩

/-- C74: for any sequence of calls on any object, the wrapped function returns exactly when the eager
calls return, and it returns the same (the arguments and results having passed through `jit`). -/
theorem C74_returns (ops : List (ApiCall α)) (x y : Session α) :
    jitAndCheckify (runStaged · ops) x = .ok y ↔
      ∃ x' y', x.throughJit = .ok x' ∧ runApi x' ops = .ok y' ∧ y'.throughJit = .ok y := by
  unfold jitAndCheckify
  cases hx : x.throughJit with
  | error e => simp
  | ok x' =>
    simp only [Except.ok.injEq, exists_and_left, exists_eq_left']
    have h := reports_run ops x'
    cases hr : runApi x' ops with
    | ok v =>
      rw [hr] at h
      rw [show runStaged x' ops = .ok (v, true) from h]
      simp only [if_true, Except.ok.injEq, exists_eq_left']
      cases v.throughJit <;> simp
    | error e =>
      rw [hr] at h
      simp only [reduceCtorEq, false_and, exists_false, iff_false]
      rcases h with h | ⟨rfl, ⟨e', h⟩ | ⟨v, h⟩⟩
      · rw [h]; simp
      · rw [h]; simp
      · rw [h]
        simp only
        cases v.throughJit <;> simp

/-- C74: an exception that is not a failed check is raised unchanged. -/
theorem C74_exceptions (ops : List (ApiCall α)) {x x' : Session α} (hx : x.throughJit = .ok x')
    {e : Err} (he : e ≠ .jaxRuntimeError) (h : runApi x' ops = .error e) :
    jitAndCheckify (runStaged · ops) x = .error e := by
  unfold jitAndCheckify
  rw [hx]
  have := reports_run ops x'
  rw [h] at this
  rcases this with h | ⟨h, -⟩
  · simp only; rw [h]
  · exact absurd h he

/-- C74: a failed check is never lost: the wrapped function raises too. -/
theorem C74_failed_check (ops : List (ApiCall α)) {x x' : Session α} (hx : x.throughJit = .ok x')
    {e : Err} (h : runApi x' ops = .error e) :
    ∃ e', jitAndCheckify (runStaged · ops) x = .error e' := by
  cases hj : jitAndCheckify (runStaged · ops) x with
  | error e' => exact ⟨e', rfl⟩
  | ok y =>
    obtain ⟨x1, y', h1, h2, -⟩ := (C74_returns ops x y).1 hj
    rw [hx] at h1
    cases h1
    rw [h] at h2
    cases h2

/-- C74: if the last call fails its checks, the wrapped function raises `JaxRuntimeError`, or `TypeError`
if the object holds something `jit` cannot return. -/
theorem C74_last_check (ops : List (ApiCall α)) (op : ApiCall α) {x x' : Session α} {e : Editor α}
    (hx : x.throughJit = .ok x') (h1 : runApi x' ops = .ok (.editor e))
    (h2 : op.call (.editor e) = .error .jaxRuntimeError) :
    jitAndCheckify (runStaged · (ops ++ [op])) x = .error .jaxRuntimeError ∨
    jitAndCheckify (runStaged · (ops ++ [op])) x = .error .typeError := by
  have key : ∀ (ops : List (ApiCall α)) (x' : Session α), runApi x' ops = .ok (.editor e) →
      runStaged x' (ops ++ [op]) = op.staged (.editor e) := by
    intro ops
    induction ops with
    | nil =>
      intro x' h
      cases h
      simp only [List.nil_append, runStaged, Staged.bind, Staged.lift, Except.map]
      cases op.staged (.editor e) with
      | error e' => rfl
      | ok p => simp
    | cons o ops ih =>
      intro x' h
      simp only [runApi] at h
      obtain ⟨s', h5, h6⟩ := bind_ok.1 h
      have h7 := reports_call x' o
      rw [h5] at h7
      rw [List.cons_append, runStaged, show o.staged x' = .ok (s', true) from h7, Staged.bind]
      rw [ih s' h6]
      cases op.staged (.editor e) with
      | error e' => rfl
      | ok p => simp
  have hs : op.staged (.editor e) = .error .jaxRuntimeError ∨
      ∃ v, op.staged (.editor e) = .ok (v, false) := by
    rcases reports_error _ _ h2 with h | h
    · exact .inl h
    · exact .inr h
  unfold jitAndCheckify
  simp only [hx, key ops x' h1]
  rcases hs with hs | ⟨v, hs⟩
  · rw [hs]; exact .inl rfl
  · rw [hs]
    simp only [Session.throughJit]
    cases avals (flattenObj v.raw).1 with
    | none => exact .inr rfl
    | some _ => exact .inl rfl

section Example
open Fixtures
attribute [local instance] Arith.exact

/-- A wrapped function that edits a controller and iterates: it returns, and the probabilities are what
they should be. -/
example : seen (jitAndCheckify (runStaged · [.setProbabilities (vec [1/3, 1/2]), .build,
      .cache "out" (bare (col 4 6)), .iterate (vec [1/2, 1])]) (.editor ⟨simple, "standard"⟩))
    (fun x => some (x.state.probabilities.at? [0], x.state.probabilities.at? [1])) =
    some (some (5/6), some 1) := by decide +kernel

/-- An out of range probability is reported at the end, though the calls after it succeed. -/
example : raised (jitAndCheckify (runStaged · [.setProbabilities (vec [4/3, 1/2]), .build,
      .cache "out" (bare (col 4 6)), .iterate (vec [1/2, 1])]) (.editor ⟨simple, "standard"⟩)) =
    some .jaxRuntimeError := by decide +kernel

/-- C74: the exception is not always the one of the eager run.  The failed check of `set_accumulator`
does not stop the wrapped function, and `iterate_act` raises something else. -/
theorem C74_other_exception : ∃ (ops : List (ApiCall ℚ)) (x : Session ℚ),
    raised (x.throughJit >>= fun x => runApi x ops) = some .jaxRuntimeError ∧
    raised (jitAndCheckify (runStaged · ops) x) = some .runtimeError :=
  ⟨[.setAccumulator "out" (bare (vec [1, 2, 3])), .build, .cache "out" (bare (col 4 6)),
      .iterate (vec [1/2, 1])],
    .editor ⟨simple, "standard"⟩, by decide +kernel, by decide +kernel⟩

end Example
end JaxAct
