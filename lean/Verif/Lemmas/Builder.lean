import Verif.Model.Builder
import Verif.Spec.WellFormed
import Verif.Lemmas.Dict
import Verif.Lemmas.PyTree
import Verif.Lemmas.Res

/-! # Lemmas on the builder -/

namespace JaxAct.Builder
variable {α : Type}

/-- What validation asks of one leaf. -/
def GoodLeaf (batch : List Nat) (l : Leaf α) : Prop :=
  ∃ a : Tensor α, l = .tensor a ∧ a.dtype.isFloating = true ∧ batch <+: a.shape

/-- A leaf with a dtype problem. -/
def BadDtype (l : Leaf α) : Prop := ∀ a : Tensor α, l = .tensor a → a.dtype.isFloating = false

/-- A floating leaf with a batch shape problem. -/
def BadShape (batch : List Nat) (l : Leaf α) : Prop :=
  ∃ a : Tensor α, l = .tensor a ∧ a.dtype.isFloating = true ∧ ¬ batch <+: a.shape

theorem prefix_iff_take' {b s : List Nat} : b <+: s ↔ b.length ≤ s.length ∧ s.take b.length = b := by
  constructor
  · intro h; exact ⟨h.length_le, (List.prefix_iff_eq_take.1 h).symm⟩
  · rintro ⟨-, h⟩; rw [← h]; exact List.take_prefix _ _

theorem validateLeaves_cases (batch : List Nat) (ls : List (Leaf α)) :
    (validateLeaves batch ls = .ok () ∧ ∀ l ∈ ls, GoodLeaf batch l) ∨
    (∃ pre l post, ls = pre ++ l :: post ∧ (∀ x ∈ pre, GoodLeaf batch x) ∧
      ((validateLeaves batch ls = .error .typeError ∧ BadDtype l) ∨
       (validateLeaves batch ls = .error .valueError ∧ BadShape batch l))) := by
  induction ls with
  | nil => left; exact ⟨rfl, by simp⟩
  | cons l ls ih =>
    cases l with
    | obj o => exact .inr ⟨[], _, ls, rfl, by simp, .inl ⟨rfl, by rintro a ⟨⟩⟩⟩
    | tensor t =>
      by_cases hd : t.dtype.isFloating = true
      · by_cases hs : batch <+: t.shape
        · have hv : validateLeaves batch (.tensor t :: ls) = validateLeaves batch ls := by
            obtain ⟨h1, h2⟩ := prefix_iff_take'.1 hs
            simp [validateLeaves, hd, h2, not_lt.2 h1]
          have hg : GoodLeaf batch (.tensor t) := ⟨t, rfl, hd, hs⟩
          rw [hv]
          rcases ih with ⟨h1, h2⟩ | ⟨pre, l, post, rfl, h2, h3⟩
          · left
            refine ⟨h1, fun l hl => ?_⟩
            rcases List.mem_cons.1 hl with rfl | hl
            · exact hg
            · exact h2 l hl
          · right
            refine ⟨.tensor t :: pre, l, post, rfl, fun x hx => ?_, h3⟩
            rcases List.mem_cons.1 hx with rfl | hx
            · exact hg
            · exact h2 x hx
        · right
          refine ⟨[], _, ls, rfl, by simp, .inr ⟨?_, t, rfl, hd, hs⟩⟩
          rw [prefix_iff_take', not_and_or] at hs
          by_cases h1 : batch.length ≤ t.shape.length
          · simp [validateLeaves, hd, not_lt.2 h1]
            intro h2
            exact absurd h2 (hs.resolve_left (not_not.2 h1))
          · simp [validateLeaves, hd, not_le.1 h1]
      · right
        refine ⟨[], _, ls, rfl, by simp, .inl ⟨?_, ?_⟩⟩
        · simp [validateLeaves, hd]
        · rintro a ⟨⟩; simpa using hd

theorem not_good_of_badDtype {batch : List Nat} {l : Leaf α} (h : BadDtype l) :
    ¬ GoodLeaf batch l := by
  rintro ⟨a, rfl, h1, -⟩
  have := h a rfl
  rw [h1] at this; cases this

theorem not_good_of_badShape {batch : List Nat} {l : Leaf α} (h : BadShape batch l) :
    ¬ GoodLeaf batch l := by
  rintro ⟨a, rfl, h1, h2⟩
  obtain ⟨b, hb, -, h3⟩ := h
  cases hb; exact h3 h2

theorem not_badDtype_of_badShape {batch : List Nat} {l : Leaf α} (h : BadShape batch l) :
    ¬ BadDtype l := by
  intro h'
  obtain ⟨a, rfl, h1, -⟩ := h
  have := h' a rfl
  rw [h1] at this; cases this

theorem validateLeaves_ok_iff {batch : List Nat} {ls : List (Leaf α)} :
    validateLeaves batch ls = .ok () ↔ ∀ l ∈ ls, GoodLeaf batch l := by
  rcases validateLeaves_cases batch ls with ⟨h1, h2⟩ | ⟨pre, l, post, rfl, -, h3⟩
  · exact ⟨fun _ => h2, fun _ => h1⟩
  · have hb : ¬ GoodLeaf batch l := by
      rcases h3 with ⟨-, h⟩ | ⟨-, h⟩
      · exact not_good_of_badDtype h
      · exact not_good_of_badShape h
    constructor
    · intro h; rcases h3 with ⟨h', -⟩ | ⟨h', -⟩ <;> rw [h] at h' <;> cases h'
    · intro h; exact absurd (h l (by simp)) hb

/-- The first element not satisfying a predicate is unique. -/
theorem first_unique {β : Type} {P : β → Prop} : ∀ {p q : List β} {x y : β} {r s : List β},
    p ++ x :: r = q ++ y :: s → (∀ z ∈ p, P z) → (∀ z ∈ q, P z) → ¬ P x → ¬ P y → x = y
  | [], [], x, y, r, s, h, _, _, _, _ => by simp at h; exact h.1
  | [], z :: q, x, y, r, s, h, _, hq, hx, _ => by
    simp at h; exact absurd (h.1 ▸ hq z (by simp)) hx
  | z :: p, [], x, y, r, s, h, hp, _, _, hy => by
    simp at h; exact absurd (h.1 ▸ hp z (by simp)) hy
  | z :: p, w :: q, x, y, r, s, h, hp, hq, hx, hy => by
    simp at h
    exact first_unique h.2 (fun z hz => hp z (by simp [hz])) (fun z hz => hq z (by simp [hz])) hx hy

/-- `define` after validation. -/
theorem define_ok_iff {b b' : Builder α} {name : String} {t : PyTree (Leaf α)} :
    b.define name t = .ok b' ↔ (∀ l ∈ t.treeLeaves, GoodLeaf b.state.probabilities.shape l) ∧
      b' = ⟨{ b.state with
        defaults := b.state.defaults.set name t
        accumulators := b.state.accumulators.set name t
        updates := b.state.updates.set name .none }⟩ := by
  rw [← validateLeaves_ok_iff]
  unfold define
  rcases h : validateLeaves b.state.probabilities.shape t.treeLeaves with e | u
  · simp
  · simp [ACTStates.replace, eq_comm]

theorem define_error_iff {b : Builder α} {name : String} {t : PyTree (Leaf α)} {e : Err} :
    b.define name t = .error e ↔
      validateLeaves b.state.probabilities.shape t.treeLeaves = .error e := by
  unfold define
  rcases h : validateLeaves b.state.probabilities.shape t.treeLeaves with e | u
  · simp
  · simp [ACTStates.replace]

theorem pop_ok_iff {V : Type} {d d' : Dict V} {k : String} :
    d.pop k = .ok d' ↔ k ∈ d.keys ∧ d' = d.erase k := by
  unfold Dict.pop
  by_cases h : k ∈ d.keys
  · simp [Dict.mem_iff.2 h, h, eq_comm]
  · have : ¬ d.mem k = true := fun h' => h (Dict.mem_iff.1 h')
    simp [this, h]

theorem pop_error_iff {V : Type} {d : Dict V} {k : String} {e : Err} :
    d.pop k = .error e ↔ k ∉ d.keys ∧ e = .keyError := by
  unfold Dict.pop
  by_cases h : k ∈ d.keys
  · simp [Dict.mem_iff.2 h, h]
  · have : ¬ d.mem k = true := fun h' => h (Dict.mem_iff.1 h')
    simp [this, h, eq_comm]

theorem delete_ok_iff {b b' : Builder α} {name : String} :
    b.deleteDefinition name = .ok b' ↔ name ∈ b.state.defaults.keys ∧
      name ∈ b.state.accumulators.keys ∧ name ∈ b.state.updates.keys ∧
      b' = ⟨{ b.state with
        defaults := b.state.defaults.erase name
        accumulators := b.state.accumulators.erase name
        updates := b.state.updates.erase name }⟩ := by
  unfold deleteDefinition
  constructor
  · intro h
    obtain ⟨d, h1, h⟩ := bind_ok.1 h
    obtain ⟨a, h2, h⟩ := bind_ok.1 h
    obtain ⟨u, h3, h⟩ := bind_ok.1 h
    obtain ⟨k1, rfl⟩ := pop_ok_iff.1 h1
    obtain ⟨k2, rfl⟩ := pop_ok_iff.1 h2
    obtain ⟨k3, rfl⟩ := pop_ok_iff.1 h3
    refine ⟨k1, k2, k3, ?_⟩
    simpa [ACTStates.replace, eq_comm] using h
  · rintro ⟨h1, h2, h3, rfl⟩
    rw [pop_ok_iff.2 ⟨h1, rfl⟩, pop_ok_iff.2 ⟨h2, rfl⟩, pop_ok_iff.2 ⟨h3, rfl⟩]
    rfl

theorem delete_error_iff {b : Builder α} {name : String} {e : Err} :
    b.deleteDefinition name = .error e ↔ e = .keyError ∧ (name ∉ b.state.defaults.keys ∨
      name ∉ b.state.accumulators.keys ∨ name ∉ b.state.updates.keys) := by
  rcases h : b.deleteDefinition name with e' | b'
  · have : e' = .keyError ∧ (name ∉ b.state.defaults.keys ∨
      name ∉ b.state.accumulators.keys ∨ name ∉ b.state.updates.keys) := by
      unfold deleteDefinition at h
      rcases bind_error.1 h with h | ⟨d, -, h⟩
      · have := pop_error_iff.1 h; exact ⟨this.2, .inl this.1⟩
      rcases bind_error.1 h with h | ⟨a, -, h⟩
      · have := pop_error_iff.1 h; exact ⟨this.2, .inr (.inl this.1)⟩
      rcases bind_error.1 h with h | ⟨u, -, h⟩
      · have := pop_error_iff.1 h; exact ⟨this.2, .inr (.inr this.1)⟩
      simp [ACTStates.replace] at h
    constructor
    · intro h'; cases h'; exact this
    · rintro ⟨rfl, -⟩; rw [this.1]
  · obtain ⟨h1, h2, h3, -⟩ := delete_ok_iff.1 h
    simp [h1, h2, h3]

end JaxAct.Builder
