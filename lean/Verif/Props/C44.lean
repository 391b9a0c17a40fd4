import Verif.Model.Immutable
import Verif.Lemmas.Dict
import Verif.Lemmas.Res

/-!
# C44 Objects are immutable after construction

**Full statement**: after construction every attribute assignment on a controller, builder, viewer or
editor raises `AttributeError` and leaves it unchanged.

It is false for one attribute: `_is_immutable` itself can always be assigned, and assigning a falsy
value to it unlocks all others (`C44_flag_assignable`, `C44_unlocked`).  `C44_frozen_partial` is the
statement for all other attributes.
-/

namespace JaxAct.Obj
variable {V : Type} {truthy : V → Bool} {false_ true_ : V}

/-- What a program sees of a sequence of assignments `o.k = v`, each in its own `try`: the object
afterwards and the exceptions.  An assignment that raises leaves the object as it was. -/
def attempts (truthy : V → Bool) : Obj V → List (String × V) → Obj V × List (Option Err)
  | o, [] => (o, [])
  | o, (k, v) :: rest =>
    match o.setattr truthy k v with
    | .ok o' => ((attempts truthy o' rest).1, none :: (attempts truthy o' rest).2)
    | .error e => ((attempts truthy o rest).1, some e :: (attempts truthy o rest).2)

/-- The object is one a constructor of the package returned. -/
def Constructed (truthy : V → Bool) (o : Obj V) : Prop :=
  ∃ false_ true_ state mode : V, truthy false_ = false ∧ truthy true_ = true ∧
    (constructStateHolder truthy false_ true_ state = .ok o ∨
     constructEditor truthy false_ true_ state mode = .ok o)

theorem Constructed.flag {o : Obj V} (h : Constructed truthy o) :
    ∃ f, o.attrs.get? "_is_immutable" = some f ∧ truthy f = true := by
  obtain ⟨f, t, s, m, hf, ht, h | h⟩ := h <;>
  · simp [constructStateHolder, constructEditor, construct, init, makeImmutable, setattr, Dict.get?,
      Dict.set, hf, bind, Except.bind, pure, Except.pure] at h
    subst h
    exact ⟨t, by simp [Dict.get?], ht⟩

/-- The constructors succeed and store what they were given. -/
theorem C44_constructors (truthy : V → Bool) (false_ true_ state mode : V)
    (hf : truthy false_ = false) :
    (∃ o, constructStateHolder truthy false_ true_ state = .ok o ∧
      o.attrs.get? "state" = some state) ∧
    (∃ o, constructEditor truthy false_ true_ state mode = .ok o ∧
      o.attrs.get? "state" = some state ∧ o.attrs.get? "error_mode" = some mode) := by
  constructor
  · refine ⟨⟨[("_is_immutable", true_), ("state", state)]⟩, ?_, by simp [Dict.get?]⟩
    simp [constructStateHolder, construct, init, makeImmutable, setattr, Dict.get?, Dict.set, hf,
      bind, Except.bind, pure, Except.pure]
  · refine ⟨⟨[("_is_immutable", true_), ("error_mode", mode), ("state", state)]⟩, ?_,
      by simp [Dict.get?], by simp [Dict.get?]⟩
    simp [constructEditor, construct, init, makeImmutable, setattr, Dict.get?, Dict.set, hf,
      bind, Except.bind, pure, Except.pure]

/-- C44 for every attribute but `_is_immutable`: every assignment of a sequence of any length raises
`AttributeError`, and the object is the same afterwards.  Missing from the full statement: the
attribute `_is_immutable`, for which it is false. -/
theorem C44_frozen_partial (o : Obj V) (h : Constructed truthy o) (l : List (String × V))
    (hl : ∀ kv ∈ l, kv.1 ≠ "_is_immutable") :
    attempts truthy o l = (o, l.map fun _ => some .attributeError) := by
  obtain ⟨f, hf, ht⟩ := h.flag
  induction l with
  | nil => rfl
  | cons kv l ih =>
    obtain ⟨k, v⟩ := kv
    have hk : k ≠ "_is_immutable" := hl (k, v) (by simp)
    have hs : o.setattr truthy k v = .error .attributeError := by
      simp [setattr, hf, ht, hk]
    simp only [attempts, hs, ih fun kv hkv => hl kv (by simp [hkv]), List.map_cons]

/-- As long as nothing falsy is assigned to `_is_immutable`, all other attributes keep their values
through any sequence of assignments. -/
theorem C44_other_attributes (o : Obj V) (h : Constructed truthy o) (l : List (String × V))
    (hl : ∀ kv ∈ l, kv.1 = "_is_immutable" → truthy kv.2 = true) (k : String)
    (hk : k ≠ "_is_immutable") :
    (attempts truthy o l).1.attrs.get? k = o.attrs.get? k := by
  have hflag := h.flag
  clear h
  induction l generalizing o with
  | nil => rfl
  | cons kv l ih =>
    obtain ⟨k', v⟩ := kv
    obtain ⟨f, hf, ht⟩ := hflag
    have hrest : ∀ kv ∈ l, kv.1 = "_is_immutable" → truthy kv.2 = true :=
      fun kv hkv => hl kv (by simp [hkv])
    by_cases hk' : k' = "_is_immutable"
    · subst hk'
      have hs : o.setattr truthy "_is_immutable" v = .ok ⟨o.attrs.set "_is_immutable" v⟩ := by
        simp [setattr, hf]
      simp only [attempts, hs]
      rw [ih _ hrest ⟨v, by simp, hl ("_is_immutable", v) (by simp) rfl⟩]
      exact Dict.get?_set_ne _ (Ne.symm hk) _
    · have hs : o.setattr truthy k' v = .error .attributeError := by simp [setattr, hf, ht, hk']
      simp only [attempts, hs]
      exact ih o hrest ⟨f, hf, ht⟩

/-- The full statement is false: assigning `_is_immutable` never raises and changes the object. -/
theorem C44_flag_assignable (o : Obj V) (h : Constructed truthy o) (v : V) :
    ∃ o', o.setattr truthy "_is_immutable" v = .ok o' ∧ o'.attrs.get? "_is_immutable" = some v := by
  obtain ⟨f, hf, -⟩ := h.flag
  exact ⟨⟨o.attrs.set "_is_immutable" v⟩, by simp [setattr, hf], by simp⟩

/-- After `o._is_immutable = False` every assignment succeeds, for instance `o.state = other`. -/
theorem C44_unlocked (o : Obj V) (h : Constructed truthy o) (falsy : V) (hf : truthy falsy = false)
    (k : String) (v : V) :
    ∃ o', attempts truthy o [("_is_immutable", falsy), (k, v)] = (o', [none, none]) ∧
      o'.attrs.get? k = some v := by
  obtain ⟨f, hg, -⟩ := h.flag
  have h1 : o.setattr truthy "_is_immutable" falsy = .ok ⟨o.attrs.set "_is_immutable" falsy⟩ := by
    simp [setattr, hg]
  have h2 : Obj.setattr truthy ⟨o.attrs.set "_is_immutable" falsy⟩ k v
      = .ok ⟨(o.attrs.set "_is_immutable" falsy).set k v⟩ := by
    simp [setattr, hf]
  exact ⟨⟨(o.attrs.set "_is_immutable" falsy).set k v⟩, by simp only [attempts, h1, h2], by simp⟩

/-- Deletion is not covered by the statement, and is not prevented: `del o.state` succeeds. -/
theorem C44_deletion_unprotected (truthy : V → Bool) (false_ true_ state : V)
    (hf : truthy false_ = false) :
    ∃ o o', constructStateHolder truthy false_ true_ state = .ok o ∧ o.delattr "state" = .ok o' ∧
      o'.attrs.get? "state" = none := by
  refine ⟨⟨[("_is_immutable", true_), ("state", state)]⟩, ⟨[("_is_immutable", true_)]⟩, ?_, ?_, ?_⟩
  · simp [constructStateHolder, construct, init, makeImmutable, setattr, Dict.get?, Dict.set, hf,
      bind, Except.bind, pure, Except.pure]
  · simp [delattr, Dict.mem, Dict.get?, Dict.erase]
  · simp [Dict.get?]

/-! Non-vacuity: with numbers for values (zero is falsy), a constructed editor. -/

example : Constructed (fun n : Nat => n != 0)
    ⟨[("_is_immutable", 1), ("error_mode", 7), ("state", 42)]⟩ :=
  ⟨0, 1, 42, 7, rfl, rfl, Or.inr rfl⟩

example : attempts (fun n : Nat => n != 0)
    ⟨[("_is_immutable", 1), ("error_mode", 7), ("state", 42)]⟩ [("state", 3), ("probabilities", 4)]
    = (⟨[("_is_immutable", 1), ("error_mode", 7), ("state", 42)]⟩,
       [some .attributeError, some .attributeError]) := rfl

end JaxAct.Obj
