import Verif.Model.Utils
import Verif.Lemmas.PyTree
import Verif.Lemmas.Tensor

/-! # Lemmas on `merge_pytrees` -/

namespace JaxAct.Utils
variable {β γ δ : Type}

theorem mergeLoop_ok {f : β → γ → Res δ} : ∀ {as : List β} {bs : List γ} {out : List δ},
    mergeLoop f as bs = .ok out →
    out.length = min as.length bs.length ∧
    ∀ (k : Nat) a b, as[k]? = some a → bs[k]? = some b → ∃ x, f a b = .ok x ∧ out[k]? = some x
  | [], bs, out, h => by
    simp only [mergeLoop] at h; cases h; simp
  | a :: as, [], out, h => by
    simp only [mergeLoop] at h; cases h; simp
  | a :: as, b :: bs, out, h => by
    simp only [mergeLoop, bind_ok] at h
    obtain ⟨x, hx, xs, hxs, h⟩ := h
    cases h
    obtain ⟨h1, h2⟩ := mergeLoop_ok hxs
    refine ⟨by simp [h1], fun k a' b' ha hb => ?_⟩
    cases k with
    | zero =>
      simp only [List.getElem?_cons_zero, Option.some.injEq] at ha hb
      subst ha; subst hb
      exact ⟨x, hx, by simp⟩
    | succ k =>
      simp only [List.getElem?_cons_succ] at ha hb ⊢
      exact h2 k a' b' ha hb

theorem mergeLoop_of {f : β → γ → Res δ} : ∀ {as : List β} {bs : List γ},
    (∀ (k : Nat) a b, as[k]? = some a → bs[k]? = some b → ∃ x, f a b = .ok x) →
    ∃ out, mergeLoop f as bs = .ok out
  | [], _, _ => ⟨[], by simp [mergeLoop]⟩
  | _ :: _, [], _ => ⟨[], by simp [mergeLoop]⟩
  | a :: as, b :: bs, h => by
    obtain ⟨x, hx⟩ := h 0 a b (by simp) (by simp)
    obtain ⟨out, hout⟩ := mergeLoop_of (as := as) (bs := bs) fun k a' b' ha hb =>
      h (k+1) a' b' (by simpa using ha) (by simpa using hb)
    exact ⟨x :: out, by simp [mergeLoop, hx, hout]⟩

theorem mergeLoop_error {f : β → γ → Res δ} {e : Err} : ∀ {as : List β} {bs : List γ},
    mergeLoop f as bs = .error e →
    ∃ (k : Nat) (a : β) (b : γ), as[k]? = some a ∧ bs[k]? = some b ∧ f a b = .error e
  | [], _, h => by simp [mergeLoop] at h
  | _ :: _, [], h => by simp [mergeLoop] at h
  | a :: as, b :: bs, h => by
    simp only [mergeLoop, bind_error] at h
    rcases h with h | ⟨x, hx, h | ⟨_, _, h⟩⟩
    · exact ⟨0, a, b, by simp, by simp, h⟩
    · obtain ⟨k, a', b', h1, h2, h3⟩ := mergeLoop_error h
      exact ⟨k+1, a', b', by simpa using h1, by simpa using h2, h3⟩
    · cases h

theorem mergePytrees_ok {f : β → γ → Res δ} {p : PyTree β} {a : PyTree γ} {t : PyTree δ}
    (h : mergePytrees f p a = .ok t) :
    p.treeLeaves.length = a.treeLeaves.length ∧ t.treeStructure = p.treeStructure ∧ t.canon = t ∧
    t.treeLeaves.length = p.treeLeaves.length ∧
    ∀ (k : Nat) x y, p.treeLeaves[k]? = some x → a.treeLeaves[k]? = some y →
      ∃ z, f x y = .ok z ∧ t.treeLeaves[k]? = some z := by
  unfold mergePytrees at h
  simp only at h
  split at h
  · cases h
  · rename_i hl
    rw [not_not] at hl
    rw [bind_ok] at h
    obtain ⟨ls, h1, h2⟩ := h
    obtain ⟨h3, h4, h5⟩ := PyTree.unflatten_treeStructure h2
    obtain ⟨h6, h7⟩ := mergeLoop_ok h1
    refine ⟨hl, h3, h5, ?_, ?_⟩
    · rw [h4, h6]; omega
    · rw [h4]; exact h7

theorem mergePytrees_of {f : β → γ → Res δ} {p : PyTree β} {a : PyTree γ}
    (hl : p.treeLeaves.length = a.treeLeaves.length)
    (h : ∀ (k : Nat) x y, p.treeLeaves[k]? = some x → a.treeLeaves[k]? = some y →
      ∃ z, f x y = .ok z) : ∃ t, mergePytrees f p a = .ok t := by
  unfold mergePytrees
  simp only
  rw [if_neg (by simp [hl])]
  obtain ⟨ls, hls⟩ := mergeLoop_of h
  rw [hls]
  refine PyTree.treeUnflatten_ok ?_
  rw [PyTree.treeStructure_leaves_length, (mergeLoop_ok hls).1]; omega

theorem mergePytrees_error {f : β → γ → Res δ} {p : PyTree β} {a : PyTree γ} {e : Err}
    (h : mergePytrees f p a = .error e) :
    (p.treeLeaves.length ≠ a.treeLeaves.length ∧ e = .assertionError) ∨
    (p.treeLeaves.length = a.treeLeaves.length ∧
      ∃ (k : Nat) (x : β) (y : γ), p.treeLeaves[k]? = some x ∧ a.treeLeaves[k]? = some y ∧
        f x y = .error e) := by
  unfold mergePytrees at h
  simp only at h
  split at h
  · rename_i hl; cases h; exact .inl ⟨hl, rfl⟩
  · rename_i hl
    rw [not_not] at hl
    rw [bind_error] at h
    rcases h with h | ⟨ls, h1, h2⟩
    · exact .inr ⟨hl, mergeLoop_error h⟩
    · have := (PyTree.treeUnflatten_error h2).2
      rw [PyTree.treeStructure_leaves_length, (mergeLoop_ok h1).1] at this
      omega

end JaxAct.Utils
