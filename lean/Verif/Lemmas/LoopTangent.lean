import Mathlib.Order.Filter.Basic
import Verif.Spec.LoopTangent
import Verif.Lemmas.Families
import Verif.Lemmas.Layers
import Verif.Lemmas.Sig
import Verif.Lemmas.Sorted

/-! # Loops of related layers -/

namespace JaxAct
open PyTree Filter
variable {ι α β A B A' B' : Type} {R : (ι → α) → β → Prop}

theorem ResRel.bind {P : (ι → A) → B → Prop} {Q : (ι → A') → B' → Prop} {r : ι → Res A} {Y : Res B}
    {k : ι → A → Res A'} {K : B → Res B'} (h : ResRel P r Y)
    (hk : ∀ a b, P a b → ResRel Q (fun θ => k θ (a θ)) (K b)) :
    ResRel Q (fun θ => r θ >>= k θ) (Y >>= K) := by
  cases Y with
  | error e =>
    intro θ
    show (r θ >>= k θ) = _
    rw [h θ]
    rfl
  | ok b =>
    obtain ⟨a, h1, h2⟩ := h
    have := hk a b h2
    have e : (fun θ => r θ >>= k θ) = fun θ => k θ (a θ) := by
      funext θ
      rw [h1 θ]
      rfl
    rw [e]
    exact this

theorem ResRel.pure {Q : (ι → A) → B → Prop} {a : ι → A} {b : B} (h : Q a b) :
    ResRel Q (fun θ => (.ok (a θ) : Res A)) (.ok b) := ⟨a, fun _ => rfl, h⟩

theorem ResRel.raise {Q : (ι → A) → B → Prop} (e : Err) :
    ResRel Q (fun _ => (.error e : Res A)) (.error e) := fun _ => rfl

theorem ResRel.map {P : (ι → A) → B → Prop} {Q : (ι → A') → B' → Prop} {r : ι → Res A} {Y : Res B}
    {f : A → A'} {F : B → B'} (h : ResRel P r Y) (hf : ∀ a b, P a b → Q (fun θ => f (a θ)) (F b)) :
    ResRel Q (fun θ => (r θ).map f) (Y.map F) := by
  cases Y with
  | error e => intro θ; show (r θ).map f = _; rw [h θ]; rfl
  | ok b =>
    obtain ⟨a, h1, h2⟩ := h
    exact ⟨fun θ => f (a θ), fun θ => by show (r θ).map f = _; rw [h1 θ]; rfl, hf a b h2⟩

/-! ### Carries -/

/-- Related carries have the same signature. -/
theorem CarryRel.sig {x : ι → Carry α} {X : Carry β} (h : CarryRel R x X) (θ : ι) :
    (x θ).sig = X.sig := by
  have hal : StatesAlike (x θ).controller.state X.controller.state := h.controller.state.alike θ
  have hw := h.controller.wf θ
  have hw' := h.controller.wf'
  cases hx : (x θ).sig with
  | some g => exact (Carry.sig_of_alike hx hw hw' hal (h.state.1 θ)).symm
  | none =>
    cases hX : X.sig with
    | none => rfl
    | some g =>
      have := Carry.sig_of_alike hX hw' hw (StatesAlike.symm hal) (TreesAlike.symm (h.state.1 θ))
      rw [hx] at this
      cases this

theorem TreeRel.canon {t : ι → PyTree (Leaf α)} {T : PyTree (Leaf β)} (h : TreeRel R t T) :
    TreeRel R (fun θ => (t θ).canon) T.canon := by
  refine ⟨fun θ => ?_, fun k i X hX => ?_⟩
  · have := h.1 θ
    unfold TreesAlike at this ⊢
    rwa [treeStructure_canon, treeStructure_canon, treeLeaves_canon, treeLeaves_canon]
  · unfold PyTree.entry? at hX ⊢
    rw [treeLeaves_canon] at hX
    simp only [treeLeaves_canon]
    exact h.2 k i X hX

theorem entry?_sorted {d : Dict (PyTree (Leaf α))} (h : d.WF) (n : String) (k : Nat) (i : List Nat) :
    ACTStates.entry? d.sorted n k i = ACTStates.entry? d n k i := by
  unfold ACTStates.entry? ACTStates.leaf?
  rw [Dict.get?_sorted h]
  cases d.get? n with
  | none => rfl
  | some t => simp only [Option.map_some, treeLeaves_canon]

theorem DictRel.sorted {d : ι → Dict (PyTree (Leaf α))} {D : Dict (PyTree (Leaf β))}
    (hw : ∀ θ, (d θ).WF) (hW : D.WF) (h : DictRel R d D) :
    DictRel R (fun θ => (d θ).sorted) D.sorted := by
  refine ⟨fun θ n => ?_, fun n k i X hX => ?_⟩
  · rw [Dict.get?_sorted (hw θ), Dict.get?_sorted hW]
    have := h.1 θ n
    generalize (d θ).get? n = a at this
    generalize D.get? n = b at this
    cases this with
    | none => exact .none
    | some this =>
      refine .some ?_
      unfold TreesAlike at this ⊢
      rwa [treeStructure_canon, treeStructure_canon, treeLeaves_canon, treeLeaves_canon]
  · rw [entry?_sorted hW] at hX
    obtain ⟨f, h1, h2⟩ := h.2 n k i X hX
    exact ⟨f, fun θ => by rw [entry?_sorted (hw θ)]; exact h1 θ, h2⟩

theorem CarryRel.rebuild {x : ι → Carry α} {X : Carry β} (h : CarryRel R x X) :
    CarryRel R (fun θ => (x θ).rebuild) X.rebuild where
  controller :=
    { state :=
        { epsilon := h.controller.state.epsilon
          depression := h.controller.state.depression
          error_mode := h.controller.state.error_mode
          probabilities := h.controller.state.probabilities
          residuals := h.controller.state.residuals
          iterations := h.controller.state.iterations
          defaults := h.controller.state.defaults.sorted (fun θ => (h.controller.wf θ).def_keys)
            h.controller.wf'.def_keys
          accumulators := h.controller.state.accumulators.sorted (fun θ => (h.controller.wf θ).acc_keys)
            h.controller.wf'.acc_keys
          updates := h.controller.state.updates.sorted (fun θ => (h.controller.wf θ).upd_keys)
            h.controller.wf'.upd_keys }
      wf := fun θ => (h.controller.wf θ).sorted
      wf' := h.controller.wf'.sorted }
  state := h.state.canon
  metadata := h.metadata

/-! ### The methods of the wrapper -/

theorem TreesAlike.isNone {t : PyTree (Leaf α)} {T : PyTree (Leaf β)} (h : TreesAlike t T) :
    t.isNone = T.isNone := by
  have := h.none_iff
  have key : ∀ {γ : Type} (u : PyTree (Leaf γ)), u.isNone = true ↔ u = .none := by
    intro γ u; cases u <;> simp [PyTree.isNone]
  rw [Bool.eq_iff_iff, key, key]
  exact this

theorem DictsAlike.exists_iff {d : Dict (PyTree (Leaf α))} {D : Dict (PyTree (Leaf β))}
    (h : DictsAlike d D) (b : Bool) : (∃ n u, d.get? n = some u ∧ u.isNone = b) ↔
      ∃ n u, D.get? n = some u ∧ u.isNone = b := by
  constructor
  · rintro ⟨n, u, h1, h2⟩
    have := h n
    rw [h1] at this
    generalize hU : D.get? n = U at this
    cases this with
    | some this => exact ⟨n, _, hU, this.isNone ▸ h2⟩
  · rintro ⟨n, u, h1, h2⟩
    have := h n
    rw [h1] at this
    generalize hU : d.get? n = U at this
    cases this with
    | some this => exact ⟨n, _, hU, this.isNone ▸ h2⟩

theorem StatesAlike.hasCached {c : Controller α} {C : Controller β} (hw : c.state.WF) (hW : C.state.WF)
    (h : StatesAlike c.state C.state) : c.hasCachedUpdates = C.hasCachedUpdates := by
  have key : ∀ {γ : Type} (c : Controller γ), c.state.WF → (c.hasCachedUpdates = true ↔
      ∃ n u, c.state.updates.get? n = some u ∧ u.isNone = false) := by
    intro γ c hw
    unfold Controller.hasCachedUpdates
    simp only [List.any_eq_true, Bool.not_eq_true', Prod.exists]
    exact ⟨fun ⟨n, u, h1, h2⟩ => ⟨n, u, Dict.get?_of_mem hw.upd_keys h1, h2⟩,
      fun ⟨n, u, h1, h2⟩ => ⟨n, u, Dict.mem_of_get? h1, h2⟩⟩
  rw [Bool.eq_iff_iff, key c hw, key C hW, h.updates.exists_iff]

theorem StatesAlike.ready {c : Controller α} {C : Controller β} (hw : c.state.WF) (hW : C.state.WF)
    (h : StatesAlike c.state C.state) : c.updatesReadyToCommit = C.updatesReadyToCommit := by
  have key : ∀ {γ : Type} (c : Controller γ), c.state.WF → (c.updatesReadyToCommit = true ↔
      ¬ ∃ n u, c.state.updates.get? n = some u ∧ u.isNone = true) := by
    intro γ c hw
    unfold Controller.updatesReadyToCommit
    simp only [List.all_eq_true, Bool.not_eq_true', Prod.forall]
    constructor
    · rintro h ⟨n, u, h1, h2⟩
      rw [h n u (Dict.mem_of_get? h1)] at h2
      cases h2
    · intro h n u h1
      by_contra h2
      exact h ⟨n, u, Dict.get?_of_mem hw.upd_keys h1, by simpa using h2⟩
  rw [Bool.eq_iff_iff, key c hw, key C hW, h.updates.exists_iff]

theorem StatesAlike.empty_iff {c : Controller α} {C : Controller β}
    (h : StatesAlike c.state C.state) :
    c.state.accumulators.length = 0 ↔ C.state.accumulators.length = 0 := by
  have key : ∀ {γ : Type} (d : Dict (PyTree (Leaf γ))), d.length = 0 ↔ ∀ n, n ∉ d.keys := by
    intro γ d
    cases d with
    | nil => simp [Dict.keys]
    | cons kv d =>
      refine iff_of_false (by simp) fun h => h kv.1 ?_
      simp [Dict.keys]
  rw [key, key]
  simp only [h.accumulators.keys_iff]

variable [Arith α] [Arith β] {θ₀ : ι} {Reg : Controller α → PyTree (Leaf α) → Prop}
  {l : ι → Layer α} {L : Layer β}

omit [Arith α] [Arith β] in
theorem prepare_rel (hl : LayerRel R θ₀ Reg l L) {s : ι → PyTree (Leaf α)} {S : PyTree (Leaf β)}
    {d : ι → α} {D : β} (hs : TreeRel R s S) (hd : R d D) (check : Bool) :
    ResRel (CtrlRel R) (fun θ => (l θ).prepare check (s θ) (d θ)) (L.prepare check S D) := by
  unfold Layer.prepare
  refine ResRel.bind (P := MadeRel R) ?_ ?_
  · unfold Layer.wrappedMake
    refine ResRel.bind (hl.make s S d D hs hd) fun m M hm => ?_
    cases check
    · exact .pure hm
    · refine ResRel.bind (P := CtrlRel R) ?_ fun c C hc => ?_
      · cases M with
        | ctrl C =>
          obtain ⟨c, h1, h2⟩ := hm
          simp only [h1]
          exact .pure h2
        | other =>
          have h1 : ∀ θ, m θ = .other := hm
          simp only [h1]
          exact .raise _
      · have he : ∀ θ, validateNotEmpty (c θ) = validateNotEmpty C := by
          intro θ
          unfold validateNotEmpty
          simp only [(hc.state.alike θ).empty_iff]
        simp only [he]
        cases validateNotEmpty C with
        | error e => exact .raise e
        | ok u => exact .pure hm
  · intro m M hm
    cases M with
    | other =>
      have h1 : ∀ θ, m θ = .other := hm
      simp only [h1]
      exact .raise _
    | ctrl C =>
      obtain ⟨c, h1, h2⟩ := hm
      simp only [h1]
      exact ResRel.bind (hl.setup c C s S h2 hs) fun _ _ _ => .pure h2

theorem wrappedRun_rel (hl : LayerRel R θ₀ Reg l L) {c : ι → Controller α} {C : Controller β}
    {s : ι → PyTree (Leaf α)} {S : PyTree (Leaf β)} (hc : CtrlRel R c C) (hs : TreeRel R s S)
    (hr : Reg (c θ₀) (s θ₀)) (check : Bool) :
    ResRel (RetRel R) (fun θ => (l θ).wrappedRun check (c θ) (s θ)) (L.wrappedRun check C S) := by
  unfold Layer.wrappedRun
  refine ResRel.bind (hl.run c C s S hc hs hr) fun u U hu => ?_
  cases check
  · exact .pure hu
  · have hv : ∀ θ, validateUpdate (c θ) (u θ) = validateUpdate C U := by
      intro θ
      have hcom : validateAllCommitted (c θ) = validateAllCommitted C := by
        unfold validateAllCommitted
        have e := hc.state.alike θ
        rw [StatesAlike.hasCached (hc.wf θ) hc.wf' e, StatesAlike.ready (hc.wf θ) hc.wf' e]
      cases U with
      | other =>
        have h1 : ∀ θ, u θ = .other := hu
        rw [h1 θ]; rfl
      | list IS =>
        obtain ⟨is, h1, -⟩ := hu
        rw [h1 θ]; rfl
      | tuple IS =>
        obtain ⟨is, h1, h2⟩ := hu
        rw [h1 θ]
        unfold validateUpdate validateIsTuple
        rcases h2 with _ | ⟨e1, _ | ⟨e2, _ | ⟨e3, _⟩⟩⟩
        · rfl
        · rfl
        · rename_i a A b B
          simp only [List.map_cons, List.map_nil, validateLengthTwo, ok_bind]
          cases A with
          | given =>
            have h3 : ∀ θ, a θ = .given := e1
            simp only [h3 θ, hcom]
            rfl
          | ctrl C' =>
            obtain ⟨c', h3, -⟩ := e1
            simp only [h3 θ, hcom]
            rfl
          | value T =>
            obtain ⟨t, h3, -⟩ := e1
            simp only [h3 θ, hcom]
            rfl
        · rfl
    simp only [if_true, hv]
    cases validateUpdate C U with
    | error e => exact .raise e
    | ok w => exact .pure hu

theorem adapter_rel (hl : LayerRel R θ₀ Reg l L) {x : ι → Carry α} {X : Carry β} (hx : CarryRel R x X)
    (hr : Reg (x θ₀).controller (x θ₀).state) (check : Bool) :
    ResRel (CarryRel R) (fun θ => (l θ).adapter check (x θ)) (L.adapter check X) := by
  unfold Layer.adapter
  refine ResRel.bind (wrappedRun_rel hl hx.controller hx.state hr check) fun u U hu => ?_
  have items : ∀ (is : List (ι → Item α)) (IS : List (Item β)), List.Forall₂ (ItemRel R) is IS →
      ResRel (CarryRel R)
        (fun θ => Ret.unpack (.tuple (is.map (· θ))) >>= asCarry (x θ).controller
          (x θ).metadata.increaseCounter)
        (Ret.unpack (.tuple IS) >>= asCarry X.controller X.metadata.increaseCounter) := by
    intro is IS h
    rcases h with _ | ⟨e1, _ | ⟨e2, _ | ⟨e3, _⟩⟩⟩
    · exact .raise _
    · exact .raise _
    · rename_i a A b B
      simp only [List.map_cons, List.map_nil, Ret.unpack, ok_bind]
      have hm : ∀ θ, (x θ).metadata = X.metadata := hx.metadata
      simp only [hm]
      cases A with
      | value T =>
        obtain ⟨t, h3, -⟩ := e1
        simp only [h3]
        exact .raise _
      | given =>
        have h3 : ∀ θ, a θ = .given := e1
        simp only [h3]
        cases B with
        | value T =>
          obtain ⟨t, h4, h5⟩ := e2
          simp only [h4]
          exact .pure ⟨hx.controller, h5, fun _ => rfl⟩
        | given =>
          have h4 : ∀ θ, b θ = .given := e2
          simp only [h4]
          exact .raise _
        | ctrl C' =>
          obtain ⟨c', h4, -⟩ := e2
          simp only [h4]
          exact .raise _
      | ctrl C =>
        obtain ⟨c, h3, h3'⟩ := e1
        simp only [h3]
        cases B with
        | value T =>
          obtain ⟨t, h4, h5⟩ := e2
          simp only [h4]
          exact .pure ⟨h3', h5, fun _ => rfl⟩
        | given =>
          have h4 : ∀ θ, b θ = .given := e2
          simp only [h4]
          exact .raise _
        | ctrl C' =>
          obtain ⟨c', h4, -⟩ := e2
          simp only [h4]
          exact .raise _
    · exact .raise _
  have hlist : ∀ {γ : Type} (ls : List (Item γ)), Ret.unpack (.list ls) = Ret.unpack (.tuple ls) := by
    intro γ ls
    rcases ls with _ | ⟨a, _ | ⟨b, _ | ⟨c, d⟩⟩⟩ <;> rfl
  cases U with
  | other =>
    have h1 : ∀ θ, u θ = .other := hu
    simp only [h1]
    exact .raise _
  | tuple IS =>
    obtain ⟨is, h1, h2⟩ := hu
    simp only [h1]
    exact items is IS h2
  | list IS =>
    obtain ⟨is, h1, h2⟩ := hu
    simp only [h1, hlist]
    exact items is IS h2

/-! ### The loop -/

section Loop
variable {σ τ : Type} {Q : (ι → σ) → τ → Prop} {F : Filter ι} {cond : σ → Bool} {COND : τ → Bool}
  {step : ι → σ → Res σ} {STEP : τ → Res τ} {G : σ → Prop}

/-- Loops from related carries, if the loop on the other side ends. -/
theorem WhileSteps.rel (hcond : ∀ x X, Q x X → G (x θ₀) →
      COND X = cond (x θ₀) ∧ ∀ᶠ θ in F, cond (x θ) = cond (x θ₀))
    (hstep : ∀ x X, Q x X → G (x θ₀) → cond (x θ₀) = true →
      ResRel Q (fun θ => step θ (x θ)) (STEP X)) {X Z : τ} (h : WhileSteps COND STEP X Z) :
    ∀ {x : ι → σ}, Q x X → (∀ y, Visits cond (step θ₀) (x θ₀) y → G y) →
      ∃ z, Q z Z ∧ WhileSteps cond (step θ₀) (x θ₀) (z θ₀) ∧
        ∀ᶠ θ in F, WhileSteps cond (step θ) (x θ) (z θ) := by
  induction h with
  | stop X hX =>
    intro x hx hg
    obtain ⟨h1, h2⟩ := hcond x X hx (hg _ (.start _))
    rw [hX] at h1
    refine ⟨x, hx, .stop _ h1.symm, ?_⟩
    filter_upwards [h2] with θ hθ
    exact .stop _ (hθ.trans h1.symm)
  | next X Y Z hX hY _ ih =>
    intro x hx hg
    obtain ⟨h1, h2⟩ := hcond x X hx (hg _ (.start _))
    rw [hX] at h1
    have hs := hstep x X hx (hg _ (.start _)) h1.symm
    rw [hY] at hs
    obtain ⟨y, h3, h4⟩ := hs
    obtain ⟨z, h5, h6, h7⟩ := ih h4 fun w hw => hg w (.next _ _ _ h1.symm (h3 θ₀) hw)
    refine ⟨z, h5, .next _ _ _ h1.symm (h3 θ₀) h6, ?_⟩
    filter_upwards [h2, h7] with θ hθ hz
    exact .next _ _ _ (hθ.trans h1.symm) (h3 θ) hz

/-- Loops from related carries, if the loop at `θ₀` ends. -/
theorem WhileSteps.rel' (hcond : ∀ x X, Q x X → G (x θ₀) →
      COND X = cond (x θ₀) ∧ ∀ᶠ θ in F, cond (x θ) = cond (x θ₀))
    (hstep : ∀ x X, Q x X → G (x θ₀) → cond (x θ₀) = true →
      ResRel Q (fun θ => step θ (x θ)) (STEP X)) {x₀ z₀ : σ} (h : WhileSteps cond (step θ₀) x₀ z₀) :
    ∀ {x : ι → σ} {X : τ}, x θ₀ = x₀ → Q x X → (∀ y, Visits cond (step θ₀) x₀ y → G y) →
      ∃ Z, WhileSteps COND STEP X Z := by
  induction h with
  | stop x₀ h0 =>
    intro x X e hx hg
    subst e
    obtain ⟨h1, -⟩ := hcond x X hx (hg _ (.start _))
    exact ⟨X, .stop _ (h1.trans h0)⟩
  | next x₀ y₀ z₀ h0 hy _ ih =>
    intro x X e hx hg
    subst e
    obtain ⟨h1, -⟩ := hcond x X hx (hg _ (.start _))
    have hs := hstep x X hx (hg _ (.start _)) h0
    cases hS : STEP X with
    | error e =>
      rw [hS] at hs
      have e' : step θ₀ (x θ₀) = .error e := hs θ₀
      rw [hy] at e'
      cases e'
    | ok Y =>
      rw [hS] at hs
      obtain ⟨y, h3, h4⟩ := hs
      have e : y θ₀ = y₀ := Except.ok.inj ((h3 θ₀).symm.trans hy)
      obtain ⟨Z, hZ⟩ := ih e h4 fun w hw => hg w (.next _ _ _ h0 hy hw)
      exact ⟨Z, .next _ _ _ (h1.trans h0) hS hZ⟩

end Loop

end JaxAct
