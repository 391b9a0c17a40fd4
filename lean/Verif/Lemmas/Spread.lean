import Verif.Lemmas.Binary

/-! # How spreads of a tree over another one compose -/

namespace JaxAct
open Utils PyTree
variable {β γ δ ε : Type}

theorem spread_node_iff {k : Kind} {cs : List (PyTree β)} {T : PyTree γ} {r : PyTree β} :
    Spread (.node k cs) T r ↔ (cs = [] ∧ r.struct = T.struct ∧ T.leaves = []) ∨
      ∃ ts rs, T = .node k ts ∧ r = .node k rs ∧ cs ≠ [] ∧ SpreadL cs ts rs := by
  constructor
  · rintro (h | h)
    · exact .inl h
    · cases T with
      | leaf _ => exact h.elim
      | none => exact h.elim
      | node k' ts =>
        cases r with
        | leaf _ => exact h.elim
        | none => exact h.elim
        | node k'' rs =>
          obtain ⟨h1, rfl, rfl, h4⟩ := h
          exact .inr ⟨ts, rs, rfl, rfl, h1, h4⟩
  · rintro (h | ⟨ts, rs, rfl, rfl, h1, h2⟩)
    · exact .inl h
    · exact .inr ⟨h1, rfl, rfl, h2⟩

mutual
theorem spread_struct : ∀ (S : PyTree β) (T : PyTree γ) (r : PyTree β), Spread S T r →
    r.struct = T.struct
  | .leaf _, _, _, h => by
    rw [show _ = _ from h, struct_map]
  | .none, _, _, h => h.1
  | .node _ cs, _, _, h => by
    rcases spread_node_iff.1 h with h | ⟨ts, rs, rfl, rfl, -, h⟩
    · exact h.2.1
    · simp only [struct, PyTree.map, spreadL_struct cs ts rs h]
theorem spreadL_struct : ∀ (cs : List (PyTree β)) (ts : List (PyTree γ)) (rs : List (PyTree β)),
    SpreadL cs ts rs → mapL (fun _ => ()) rs = mapL (fun _ => ()) ts
  | [], [], [], _ => rfl
  | c :: cs, t :: ts, r :: rs, h => by
    simp only [mapL, spreadL_struct cs ts rs h.2]
    rw [show PyTree.map (fun _ => ()) r = PyTree.map (fun _ => ()) t from spread_struct c t r h.1]
  | [], [], _ :: _, h => h.elim
  | [], _ :: _, _, h => h.elim
  | _ :: _, [], _, h => h.elim
  | _ :: _, _ :: _, [], h => h.elim
end

theorem eq_of_struct_empty {r r' : PyTree β} {T : PyTree γ} (h : r.struct = T.struct)
    (h' : r'.struct = T.struct) (he : T.leaves = []) : r = r' := by
  refine eq_of_struct_leaves (h.trans h'.symm) ?_
  have e1 := leaves_length_of_struct h
  have e2 := leaves_length_of_struct h'
  rw [he] at e1 e2
  rw [List.length_eq_zero_iff.1 e1, List.length_eq_zero_iff.1 e2]

mutual
theorem spread_unique : ∀ (S : PyTree β) (T : PyTree γ) (r r' : PyTree β), Spread S T r →
    Spread S T r' → r = r'
  | .leaf _, _, _, _, h, h' => Eq.trans h (Eq.symm h')
  | .none, _, _, _, h, h' => eq_of_struct_empty h.1 h'.1 h.2
  | .node _ cs, _, _, _, h, h' => by
    rcases spread_node_iff.1 h with h | ⟨ts, rs, rfl, rfl, hn, h⟩
    · rcases spread_node_iff.1 h' with h' | ⟨ts, rs, -, -, hn, -⟩
      · exact eq_of_struct_empty h.2.1 h'.2.1 h.2.2
      · exact absurd h.1 hn
    · rcases spread_node_iff.1 h' with h' | ⟨ts', rs', hT, rfl, -, h'⟩
      · exact absurd h'.1 hn
      · cases hT
        rw [spreadL_unique cs ts rs rs' h h']
theorem spreadL_unique : ∀ (cs : List (PyTree β)) (ts : List (PyTree γ)) (rs rs' : List (PyTree β)),
    SpreadL cs ts rs → SpreadL cs ts rs' → rs = rs'
  | [], [], [], [], _, _ => rfl
  | c :: cs, t :: ts, r :: rs, r' :: rs', h, h' => by
    rw [spread_unique c t r r' h.1 h'.1, spreadL_unique cs ts rs rs' h.2 h'.2]
  | [], [], _ :: _, _, h, _ => h.elim
  | [], [], [], _ :: _, _, h => h.elim
  | [], _ :: _, _, _, h, _ => h.elim
  | _ :: _, [], _, _, h, _ => h.elim
  | _ :: _, _ :: _, [], _, h, _ => h.elim
  | _ :: _, _ :: _, _ :: _, [], _, h => h.elim
end

mutual
/-- Spreading over the same structure changes nothing. -/
theorem spread_self : ∀ (S : PyTree β) (T : PyTree γ), S.struct = T.struct → Spread S T S
  | .leaf x, T, h => by
    show PyTree.leaf x = T.map fun _ => x
    cases T with
    | leaf _ => rfl
    | none => simp [struct, PyTree.map] at h
    | node _ _ => simp [struct, PyTree.map] at h
  | .none, T, h => by
    refine ⟨h, ?_⟩
    have := leaves_length_of_struct h
    exact List.length_eq_zero_iff.1 this.symm
  | .node k cs, T, h => by
    obtain ⟨ts, rfl, hts⟩ := struct_node_inv (r := T) h.symm
    cases cs with
    | nil =>
      refine .inl ⟨rfl, h, ?_⟩
      have := leaves_length_of_struct h
      exact List.length_eq_zero_iff.1 this.symm
    | cons c cs => exact .inr ⟨by simp, rfl, rfl, spreadL_self (c :: cs) ts hts.symm⟩
theorem spreadL_self : ∀ (cs : List (PyTree β)) (ts : List (PyTree γ)),
    mapL (fun _ => ()) cs = mapL (fun _ => ()) ts → SpreadL cs ts cs
  | [], [], _ => trivial
  | c :: cs, t :: ts, h => by
    simp only [mapL, List.cons.injEq] at h
    exact ⟨spread_self c t h.1, spreadL_self cs ts h.2⟩
  | [], _ :: _, h => by simp [mapL] at h
  | _ :: _, [], h => by simp [mapL] at h
end

mutual
/-- Spreading a tree whose leaves are all `x`. -/
theorem spread_const (x : β) : ∀ (U : PyTree β) (V : PyTree γ) (W : PyTree β),
    (∀ y ∈ U.leaves, y = x) → Spread U V W → W = V.map fun _ => x
  | .leaf y, V, W, hx, h => by
    rw [hx y (by simp [leaves])] at h
    exact h
  | .none, V, W, _, h => eq_of_struct_empty h.1 (struct_map _ V) h.2
  | .node k cs, V, W, hx, h => by
    rcases spread_node_iff.1 h with h | ⟨ts, rs, rfl, rfl, -, h⟩
    · exact eq_of_struct_empty h.2.1 (struct_map _ V) h.2.2
    · simp only [PyTree.map, spreadL_const x cs ts rs hx h]
theorem spreadL_const (x : β) : ∀ (us : List (PyTree β)) (vs : List (PyTree γ))
    (ws : List (PyTree β)), (∀ y ∈ leavesL us, y = x) → SpreadL us vs ws →
    ws = mapL (fun _ => x) vs
  | [], [], [], _, _ => rfl
  | u :: us, v :: vs, w :: ws, hx, h => by
    simp only [leavesL, List.mem_append] at hx
    rw [mapL, spread_const x u v w (fun y hy => hx y (.inl hy)) h.1,
      spreadL_const x us vs ws (fun y hy => hx y (.inr hy)) h.2]
  | [], [], _ :: _, _, h => h.elim
  | [], _ :: _, _, _, h => h.elim
  | _ :: _, [], _, _, h => h.elim
  | _ :: _, _ :: _, [], _, h => h.elim
end

mutual
/-- A tree without leaves spreads only over trees without leaves. -/
theorem spread_empty : ∀ (U : PyTree β) (V : PyTree γ) (W : PyTree β), U.leaves = [] →
    Spread U V W → V.leaves = []
  | .leaf _, _, _, he, _ => by simp [leaves] at he
  | .none, _, _, _, h => h.2
  | .node _ cs, _, _, he, h => by
    rcases spread_node_iff.1 h with h | ⟨ts, rs, rfl, rfl, -, h⟩
    · exact h.2.2
    · exact spreadL_empty cs ts rs he h
theorem spreadL_empty : ∀ (us : List (PyTree β)) (vs : List (PyTree γ)) (ws : List (PyTree β)),
    leavesL us = [] → SpreadL us vs ws → leavesL vs = []
  | [], [], [], _, _ => rfl
  | u :: us, v :: vs, w :: ws, he, h => by
    simp only [leavesL, List.append_eq_nil_iff] at he ⊢
    exact ⟨spread_empty u v w he.1 h.1, spreadL_empty us vs ws he.2 h.2⟩
  | [], [], _ :: _, _, h => h.elim
  | [], _ :: _, _, _, h => h.elim
  | _ :: _, [], _, _, h => h.elim
  | _ :: _, _ :: _, [], _, h => h.elim
end

mutual
/-- Two spreads in a row are one. -/
theorem spread_trans : ∀ (S : PyTree β) (T : PyTree γ) (U : PyTree β) (V : PyTree δ) (W : PyTree β),
    Spread S T U → Spread U V W → Spread S V W
  | .leaf x, T, U, V, W, h, h' => by
    have hU : U = T.map fun _ => x := h
    refine spread_const x U V W (fun y hy => ?_) h'
    rw [hU, leaves_map] at hy
    obtain ⟨_, -, e⟩ := List.mem_map.1 hy
    exact e.symm
  | .none, T, U, V, W, h, h' => by
    refine ⟨spread_struct _ _ _ h', spread_empty U V W ?_ h'⟩
    have := leaves_length_of_struct h.1
    rw [h.2] at this
    exact List.length_eq_zero_iff.1 this
  | .node k cs, T, U, V, W, h, h' => by
    rcases spread_node_iff.1 h with h | ⟨ts, us, rfl, rfl, hn, h⟩
    · refine .inl ⟨h.1, spread_struct _ _ _ h', spread_empty U V W ?_ h'⟩
      have := leaves_length_of_struct h.2.1
      rw [h.2.2] at this
      exact List.length_eq_zero_iff.1 this
    · rcases spread_node_iff.1 h' with h' | ⟨vs, ws, rfl, rfl, -, h'⟩
      · obtain ⟨rfl, -⟩ := h'
        cases cs with
        | nil => exact absurd rfl hn
        | cons c cs => cases ts <;> exact h.elim
      · exact spread_node_iff.2 (.inr ⟨vs, ws, rfl, rfl, hn, spreadL_trans cs ts us vs ws h h'⟩)
theorem spreadL_trans : ∀ (cs : List (PyTree β)) (ts : List (PyTree γ)) (us : List (PyTree β))
    (vs : List (PyTree δ)) (ws : List (PyTree β)), SpreadL cs ts us → SpreadL us vs ws →
    SpreadL cs vs ws
  | [], [], [], [], [], _, _ => trivial
  | c :: cs, t :: ts, u :: us, v :: vs, w :: ws, h, h' =>
    ⟨spread_trans c t u v w h.1 h'.1, spreadL_trans cs ts us vs ws h.2 h'.2⟩
  | [], [], [], [], _ :: _, _, h => h.elim
  | [], [], [], _ :: _, _, _, h => h.elim
  | [], [], _ :: _, _, _, h, _ => h.elim
  | [], _ :: _, _, _, _, h, _ => h.elim
  | _ :: _, [], _, _, _, h, _ => h.elim
  | _ :: _, _ :: _, [], _, _, h, _ => h.elim
  | _ :: _, _ :: _, _ :: _, [], _, _, h => h.elim
  | _ :: _, _ :: _, _ :: _, _ :: _, [], _, h => h.elim
end

mutual
/-- Spreading commutes with changing the leaves. -/
theorem spread_map (f : β → δ) (g : γ → ε) : ∀ (S : PyTree β) (T : PyTree γ) (r : PyTree β),
    Spread S T r → Spread (S.map f) (T.map g) (r.map f)
  | .leaf x, T, r, h => by
    show r.map f = (T.map g).map fun _ => f x
    rw [show r = T.map fun _ => x from h, map_map, map_map]
    rfl
  | .none, T, r, h => by
    refine ⟨by rw [struct_map, struct_map, h.1], ?_⟩
    rw [leaves_map, h.2]; rfl
  | .node k cs, T, r, h => by
    rcases spread_node_iff.1 h with ⟨rfl, h1, h2⟩ | ⟨ts, rs, rfl, rfl, hn, h⟩
    · refine .inl ⟨rfl, by rw [struct_map, struct_map, h1], ?_⟩
      rw [leaves_map, h2]; rfl
    · refine .inr ⟨?_, rfl, rfl, spreadL_map f g cs ts rs h⟩
      intro e
      cases cs with
      | nil => exact hn rfl
      | cons c cs => simp [mapL] at e
theorem spreadL_map (f : β → δ) (g : γ → ε) : ∀ (cs : List (PyTree β)) (ts : List (PyTree γ))
    (rs : List (PyTree β)), SpreadL cs ts rs → SpreadL (mapL f cs) (mapL g ts) (mapL f rs)
  | [], [], [], _ => trivial
  | c :: cs, t :: ts, r :: rs, h => ⟨spread_map f g c t r h.1, spreadL_map f g cs ts rs h.2⟩
  | [], [], _ :: _, h => h.elim
  | [], _ :: _, _, h => h.elim
  | _ :: _, [], _, h => h.elim
  | _ :: _, _ :: _, [], h => h.elim
end

end JaxAct
