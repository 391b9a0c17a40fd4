import Verif.Model.StaticData
import Verif.Lemmas.Broadcast

/-!
C96: what `_validate_children_descent` (`core/utils.py:360-430`) compares.  Its docstring promises
that a pair of nodes passes if and only if the classes match, "all keys, if they exist, match", and
the numbers of children match.
-/

namespace JaxAct

open Utils

variable {κ : Type} [DecidableEq κ]

private theorem keysMatch_zip_iff : ∀ {ks ks' : List κ},
    keysMatch (ks.zip ks') = true ↔ ks <+: ks' ∨ ks' <+: ks
  | [], ks' => by simp [keysMatch]
  | _ :: _, [] => by simp [keysMatch]
  | a :: ks, b :: ks' => by
    have ih := keysMatch_zip_iff (ks := ks) (ks' := ks')
    simp only [List.zip_cons_cons, keysMatch, List.cons_prefix_cons]
    split
    · rename_i hne
      simp only [Bool.false_eq_true, false_iff]
      rintro (h | h)
      · exact hne h.1
      · exact hne h.1.symm
    · rename_i he
      rw [ih, not_not.1 he]; simp

/-- What the code accepts: the same class, the same number of children, and then either a source
without keys or two collections of keys of which one begins with the other. -/
theorem C96_accepts_iff (source target : NodeData κ) :
    validateDescent source target = .ok () ↔
      source.cls = target.cls ∧ source.arity = target.arity ∧
        (source.keys = .none ∨ ∃ ks ks', source.keys = .items ks ∧ target.keys = .items ks' ∧
          (ks <+: ks' ∨ ks' <+: ks)) := by
  obtain ⟨c, a, n⟩ := source
  obtain ⟨c', a', n'⟩ := target
  simp only [validateDescent]
  by_cases hc : c = c'
  · by_cases hn : n = n'
    · simp only [hc, hn, ne_eq, not_true, if_false, true_and]
      cases a with
      | none => simp
      | atom v => simp
      | items ks =>
        cases a' with
        | none => simp
        | atom v => simp
        | items ks' =>
          have h := keysMatch_zip_iff (ks := ks) (ks' := ks')
          by_cases hk : keysMatch (ks.zip ks') = true
          · simp [hk, h.1 hk]
          · have : ¬ (ks <+: ks' ∨ ks' <+: ks) := fun hh => hk (h.2 hh)
            simp [hk, this]
    · simp [hc, hn]
  · simp [hc]

/-- Everything else raises `RuntimeError`, except that keys which cannot be iterated over, `None` on
the side of the target included, give a `TypeError`. -/
theorem C96_error_iff (source target : NodeData κ) :
    validateDescent source target = .error .typeError ↔
      source.cls = target.cls ∧ source.arity = target.arity ∧ source.keys ≠ .none ∧
        ¬ ∃ ks ks', source.keys = .items ks ∧ target.keys = .items ks' := by
  obtain ⟨c, a, n⟩ := source
  obtain ⟨c', a', n'⟩ := target
  simp only [validateDescent]
  by_cases hc : c = c'
  · by_cases hn : n = n'
    · simp only [hc, hn, ne_eq, not_true, if_false, true_and]
      cases a with
      | none => simp
      | atom v => simp
      | items ks =>
        cases a' with
        | none => simp
        | atom v => simp
        | items ks' =>
          by_cases hk : keysMatch (ks.zip ks') = true <;> simp [hk]
    · simp [hc, hn]
  · simp [hc]

theorem C96_errors (source target : NodeData κ) {e : Err}
    (h : validateDescent source target = .error e) : e = .runtimeError ∨ e = .typeError := by
  unfold validateDescent at h
  split at h
  · cases h; exact .inl rfl
  · split at h
    · cases h; exact .inl rfl
    · split at h
      · cases h
      · split at h
        · cases h
        · cases h; exact .inl rfl
      · cases h; exact .inr rfl

/-- The promise of the docstring, for nodes that both have no keys or both have as many keys as
children, as dicts do.  For classes with static data it fails, see below. -/
theorem C96_docstring_partial (source target : NodeData κ)
    (h : (source.keys = .none ∧ target.keys = .none) ∨
      ∃ ks ks', source.keys = .items ks ∧ target.keys = .items ks' ∧
        ks.length = source.arity ∧ ks'.length = target.arity) :
    validateDescent source target = .ok () ↔ source = target := by
  rw [C96_accepts_iff]
  obtain ⟨c, a, n⟩ := source
  obtain ⟨c', a', n'⟩ := target
  simp only [NodeData.mk.injEq] at h ⊢
  rcases h with ⟨rfl, rfl⟩ | ⟨ks, ks', rfl, rfl, rfl, rfl⟩
  · simp
  · simp only [reduceCtorEq, NodeKeys.items.injEq, false_or]
    constructor
    · rintro ⟨hc, hl, l, l', rfl, rfl, hp | hp⟩
      · exact ⟨hc, hp.eq_of_length hl, hl⟩
      · exact ⟨hc, (hp.eq_of_length hl.symm).symm, hl⟩
    · rintro ⟨hc, rfl, hl⟩
      exact ⟨hc, rfl, ks, ks, rfl, rfl, .inl (List.prefix_refl _)⟩

/-- On lists, tuples, dicts and namedtuples this is the check the rest of the development uses. -/
theorem C96_builtin (k k' : Kind) (cs cs' : List TreeDef) :
    validateChildrenDescent k cs k' cs' =
      validateDescent (k.nodeData cs.length) (k'.nodeData cs'.length) := by
  by_cases hl : cs.length = cs'.length <;> cases k <;> cases k' <;>
    simp [validateChildrenDescent, validateDescent, Kind.nodeData, Kind.cls, hl]

/-- The promise of the docstring fails for registered classes: whatever the static data of the source
are, if they are an iterable then longer static data of the target are not noticed, and vice versa. -/
theorem C96_longer_static_data_unnoticed (c : String) (n : Nat) (ks : List κ) (x : κ)
    (extra : List κ) :
    validateDescent ⟨.user c, .items ks, n⟩ ⟨.user c, .items (ks ++ x :: extra), n⟩ = .ok () ∧
    validateDescent ⟨.user c, .items (ks ++ x :: extra), n⟩ ⟨.user c, .items ks, n⟩ = .ok () ∧
    (⟨.user c, .items ks, n⟩ : NodeData κ) ≠ ⟨.user c, .items (ks ++ x :: extra), n⟩ := by
  refine ⟨(C96_accepts_iff _ _).2 ⟨rfl, rfl, .inr ⟨_, _, rfl, rfl, .inl ⟨_, rfl⟩⟩⟩,
    (C96_accepts_iff _ _).2 ⟨rfl, rfl, .inr ⟨_, _, rfl, rfl, .inr ⟨_, rfl⟩⟩⟩, ?_⟩
  intro h
  simp only [NodeData.mk.injEq, NodeKeys.items.injEq, true_and, and_true] at h
  have := congrArg List.length h
  simp at this

/-- Static data that are not iterable, such as a number, make two equal nodes fail with a
`TypeError`. -/
theorem C96_atom_fails (d : NodeData κ) (v : κ) (h : d.keys = .atom v) :
    validateDescent d d = .error .typeError :=
  (C96_error_iff d d).2 ⟨rfl, rfl, by simp [h], by simp [h]⟩

/-- The check is neither symmetric nor transitive. -/
theorem C96_not_symmetric_nor_transitive (c : String) (n : Nat) {x y : κ} (h : x ≠ y) :
    (validateDescent ⟨.user c, .none, n⟩ ⟨.user c, .items [x], n⟩ = .ok () ∧
      validateDescent ⟨.user c, .items [x], n⟩ ⟨.user c, .none, n⟩ ≠ .ok ()) ∧
    (validateDescent ⟨.user c, .items [x], n⟩ ⟨.user c, .items ([] : List κ), n⟩ = .ok () ∧
      validateDescent ⟨.user c, .items ([] : List κ), n⟩ ⟨.user c, .items [y], n⟩ = .ok () ∧
      validateDescent ⟨.user c, .items [x], n⟩ ⟨.user c, .items [y], n⟩ ≠ .ok ()) := by
  simp only [ne_eq, C96_accepts_iff]
  simp [h, Ne.symm h]

/-- Concrete cases: two dicts with the same and with different keys, a class whose static data
`("relu", 2)` and `("relu",)` are taken for the same, and one whose static data are a number. -/
example :
    validateDescent ((Kind.dict ["a", "b"]).nodeData 2) ((Kind.dict ["a", "b"]).nodeData 2) = .ok () ∧
    validateDescent ((Kind.dict ["a", "b"]).nodeData 2) ((Kind.dict ["a", "c"]).nodeData 2) =
      .error .runtimeError ∧
    validateDescent ⟨.user "Cell", .items ["relu", "2"], 3⟩ ⟨.user "Cell", .items ["relu"], 3⟩ =
      .ok () ∧
    validateDescent ⟨.user "Cell", .atom "2", 3⟩ ⟨.user "Cell", .atom "2", 3⟩ =
      .error .typeError := by
  refine ⟨?_, ?_, ?_, ?_⟩ <;> rfl

end JaxAct
