import Verif.Basic.Dict
import Verif.Lemmas.Res

/-! # Dict lemmas -/

namespace JaxAct.Dict
variable {V W : Type}

@[simp] theorem get?_nil (k : String) : get? ([] : Dict V) k = none := rfl

theorem get?_cons (a : String × V) (d : Dict V) (k : String) :
    get? (a :: d) k = if a.1 = k then some a.2 else get? d k := rfl

theorem get?_set (d : Dict V) (k k' : String) (v : V) :
    (d.set k v).get? k' = if k = k' then some v else d.get? k' := by
  induction d with
  | nil => simp [set, get?]
  | cons a d ih =>
    obtain ⟨ka, va⟩ := a
    simp only [set]
    split
    · subst_vars; simp only [get?]; split <;> simp_all
    · simp only [get?, ih]; split <;> split <;> simp_all

@[simp] theorem get?_set_self (d : Dict V) (k : String) (v : V) : (d.set k v).get? k = some v := by
  simp [get?_set]

theorem get?_set_ne (d : Dict V) {k k' : String} (h : k ≠ k') (v : V) :
    (d.set k v).get? k' = d.get? k' := by
  simp [get?_set, h]

theorem mem_keys_iff {d : Dict V} {k : String} : k ∈ d.keys ↔ ∃ v, d.get? k = some v := by
  induction d with
  | nil => simp [keys]
  | cons a d ih =>
    simp only [keys, List.map_cons, List.mem_cons, get?_cons] at *
    split
    · rename_i h; simp [h]
    · rename_i h
      rw [ih]
      constructor
      · rintro (h' | h')
        · exact absurd h'.symm h
        · exact h'
      · exact .inr

theorem get?_eq_none_iff {d : Dict V} {k : String} : d.get? k = none ↔ k ∉ d.keys := by
  rw [mem_keys_iff]
  cases d.get? k <;> simp

theorem mem_iff {d : Dict V} {k : String} : d.mem k = true ↔ k ∈ d.keys := by
  rw [mem_keys_iff, mem, Option.isSome_iff_exists]

theorem getItem_ok {d : Dict V} {k : String} {v : V} : d.getItem k = .ok v ↔ d.get? k = some v := by
  unfold getItem; split <;> simp_all

theorem getItem_error {d : Dict V} {k : String} {e : Err} :
    d.getItem k = .error e ↔ e = .keyError ∧ d.get? k = none := by
  unfold getItem
  split
  · simp_all
  · simp_all; exact eq_comm

theorem get?_of_mem {d : Dict V} (hd : d.WF) {k : String} {v : V} (h : (k, v) ∈ d) :
    d.get? k = some v := by
  induction d with
  | nil => cases h
  | cons a d ih =>
    simp only [WF, keys, List.map_cons, List.nodup_cons] at hd
    rw [get?_cons]
    rcases List.mem_cons.1 h with rfl | h
    · simp
    · have : a.1 ≠ k := by
        rintro rfl
        exact hd.1 (List.mem_map.2 ⟨_, h, rfl⟩)
      rw [if_neg this]
      exact ih hd.2 h

theorem mem_of_get? {d : Dict V} {k : String} {v : V} (h : d.get? k = some v) : (k, v) ∈ d := by
  induction d with
  | nil => cases h
  | cons a d ih =>
    rw [get?_cons] at h
    split at h
    · rename_i hk; cases h; subst hk; simp
    · exact List.mem_cons_of_mem _ (ih h)

theorem keys_set_of_mem {d : Dict V} {k : String} (h : k ∈ d.keys) (v : V) :
    (d.set k v).keys = d.keys := by
  induction d with
  | nil => simp [keys] at h
  | cons a d ih =>
    simp only [set]
    split
    · rfl
    · rename_i hk
      simp only [keys, List.map_cons, List.mem_cons] at *
      rw [ih (by rcases h with h | h; exact absurd h.symm hk; exact h)]

theorem keys_set_of_not_mem {d : Dict V} {k : String} (h : k ∉ d.keys) (v : V) :
    (d.set k v).keys = d.keys ++ [k] := by
  induction d with
  | nil => rfl
  | cons a d ih =>
    simp only [keys, List.map_cons, List.mem_cons, not_or] at h
    simp only [set]
    rw [if_neg (fun h' => h.1 h'.symm)]
    simp only [keys, List.map_cons, List.cons_append]
    congr 1
    exact ih h.2

theorem mem_keys_set {d : Dict V} {k k' : String} {v : V} :
    k' ∈ (d.set k v).keys ↔ k' = k ∨ k' ∈ d.keys := by
  simp only [mem_keys_iff, get?_set]
  by_cases h : k = k'
  · simp [h]
  · simp [h, Ne.symm h]

theorem WF.set {d : Dict V} (h : d.WF) (k : String) (v : V) : (d.set k v).WF := by
  by_cases hk : k ∈ d.keys
  · unfold WF; rw [keys_set_of_mem hk]; exact h
  · unfold WF; rw [keys_set_of_not_mem hk]
    exact List.nodup_append.2 ⟨h, by simp, by
      intro a ha b hb; simp at hb; subst hb; rintro rfl; exact hk ha⟩

theorem WF.nil : WF ([] : Dict V) := List.nodup_nil

theorem keys_erase_sub (d : Dict V) (k : String) : (d.erase k).keys.Sublist d.keys := by
  induction d with
  | nil => exact List.Sublist.slnil
  | cons a d ih =>
    simp only [erase]
    split
    · exact List.sublist_cons_self _ _
    · exact List.Sublist.cons_cons _ ih

theorem WF.erase {d : Dict V} (h : d.WF) (k : String) : (d.erase k).WF :=
  List.Nodup.sublist (keys_erase_sub d k) h

theorem get?_erase {d : Dict V} (hd : d.WF) (k k' : String) :
    (d.erase k).get? k' = if k = k' then none else d.get? k' := by
  induction d with
  | nil => simp [Dict.erase]
  | cons a d ih =>
    simp only [WF, keys, List.map_cons, List.nodup_cons] at hd
    simp only [Dict.erase]
    by_cases h1 : a.1 = k
    · rw [if_pos h1]
      by_cases h2 : k = k'
      · rw [if_pos h2, get?_eq_none_iff, ← h2, ← h1]; exact hd.1
      · rw [if_neg h2, get?_cons, if_neg (by rw [h1]; exact h2)]
    · rw [if_neg h1, get?_cons, ih hd.2, get?_cons]
      by_cases h2 : k = k'
      · rw [if_neg (by rw [← h2]; exact h1)]
        simp [h2]
      · simp [h2]

theorem erase_set_of_not_mem {d : Dict V} {k : String} (h : k ∉ d.keys) (v : V) :
    (d.set k v).erase k = d := by
  induction d with
  | nil => simp [Dict.set, Dict.erase]
  | cons a d ih =>
    simp only [keys, List.map_cons, List.mem_cons, not_or] at h
    have h1 : ¬ a.1 = k := fun h' => h.1 h'.symm
    simp only [Dict.set]
    rw [if_neg h1]
    simp only [Dict.erase]
    rw [if_neg h1, ih h.2]

theorem set_set_ne_of_mem {d : Dict V} {k k' : String} (v w : V) (hne : k ≠ k')
    (hk : k ∈ d.keys) (hk' : k' ∈ d.keys) :
    (d.set k v).set k' w = (d.set k' w).set k v := by
  induction d with
  | nil => simp [keys] at hk
  | cons a d ih =>
    obtain ⟨ka, va⟩ := a
    simp only [keys, List.map_cons, List.mem_cons] at hk hk'
    by_cases h1 : ka = k
    · subst h1
      simp [Dict.set, hne]
    · by_cases h2 : ka = k'
      · subst h2
        simp [Dict.set, h1]
      · have hk : k ∈ Dict.keys d := by
          rcases hk with h | h
          · exact absurd h.symm h1
          · exact h
        have hk' : k' ∈ Dict.keys d := by
          rcases hk' with h | h
          · exact absurd h.symm h2
          · exact h
        simp [Dict.set, h1, h2, ih hk hk']

theorem mapM_ok {f : V → Res W} {d : Dict V} {r : Dict W} (h : d.mapM f = .ok r) :
    r.keys = d.keys ∧ ∀ k, match d.get? k with
      | some v => ∃ w, f v = .ok w ∧ r.get? k = some w
      | none => r.get? k = none := by
  induction d generalizing r with
  | nil => simp only [mapM] at h; cases h; exact ⟨rfl, fun k => rfl⟩
  | cons a d ih =>
    obtain ⟨ka, va⟩ := a
    simp only [mapM, bind_ok] at h
    obtain ⟨w, hw, rest, hrest, h⟩ := h
    cases h
    obtain ⟨h1, h2⟩ := ih hrest
    refine ⟨by simp only [keys, List.map_cons] at *; rw [h1], fun k => ?_⟩
    rw [get?_cons, get?_cons]
    by_cases hk : ka = k
    · simp [hk, hw]
    · simp only [hk, if_false]; exact h2 k

theorem mapM_error {f : V → Res W} {d : Dict V} {e : Err} (h : d.mapM f = .error e) :
    ∃ k v, (k, v) ∈ d ∧ f v = .error e := by
  induction d with
  | nil => cases h
  | cons a d ih =>
    obtain ⟨ka, va⟩ := a
    simp only [mapM, bind_error] at h
    rcases h with h | ⟨w, hw, h | ⟨_, _, h⟩⟩
    · exact ⟨ka, va, by simp, h⟩
    · obtain ⟨k, v, hm, hf⟩ := ih h
      exact ⟨k, v, List.mem_cons_of_mem _ hm, hf⟩
    · cases h

theorem mapM_of {f : V → Res W} {d : Dict V} (h : ∀ kv ∈ d, ∃ w, f kv.2 = .ok w) :
    ∃ r, d.mapM f = .ok r := by
  induction d with
  | nil => exact ⟨[], rfl⟩
  | cons a d ih =>
    obtain ⟨w, hw⟩ := h a (by simp)
    obtain ⟨r, hr⟩ := ih fun kv hkv => h kv (List.mem_cons_of_mem _ hkv)
    exact ⟨(a.1, w) :: r, by simp [mapM, hw, hr]⟩

/-- Dictionaries with the same keys in the same order and the same values are equal. -/
theorem ext_get? {d e : Dict V} (hd : e.WF) (hk : d.keys = e.keys)
    (h : ∀ k, d.get? k = e.get? k) : d = e := by
  induction d generalizing e with
  | nil =>
    cases e with
    | nil => rfl
    | cons _ _ => simp [keys] at hk
  | cons a d ih =>
    cases e with
    | nil => simp [keys] at hk
    | cons b e =>
      simp only [keys, List.map_cons, List.cons.injEq] at hk
      simp only [WF, keys, List.map_cons, List.nodup_cons] at hd
      have h0 := h b.1
      rw [get?_cons, get?_cons, if_pos hk.1, if_pos rfl] at h0
      have hab : a = b := Prod.ext hk.1 (Option.some.inj h0)
      subst hab
      congr 1
      refine ih hd.2 hk.2 fun k => ?_
      by_cases hka : a.1 = k
      · subst hka
        have h2 : get? d a.1 = none := by
          rw [get?_eq_none_iff, keys, hk.2]; exact hd.1
        have h3 : get? e a.1 = none := by rw [get?_eq_none_iff, keys]; exact hd.1
        rw [h2, h3]
      · have := h k
        rwa [get?_cons, get?_cons, if_neg hka, if_neg hka] at this

end JaxAct.Dict
