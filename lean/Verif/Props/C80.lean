import Verif.Props.C54
import Verif.Props.C56
import Verif.Props.C61
import Verif.Props.C03
import Verif.Props.C05
import Verif.Props.C20Demo

/-!
# C80 What execute_act accumulates for an element does not depend on the rest of the batch

The loop goes on until every element is halted, so how often the layer is run depends on the whole batch.
The elements that are halted early are carried along; what the controller holds for them does not change.
-/

namespace JaxAct
open PyTree ACTStates

section AnyArith
variable {α : Type}

theorem DictAgree.entry {b b' : List Nat} {d e : Dict (PyTree (Leaf α))} (h : DictAgree b b' d e)
    (name : String) (k : Nat) (i : List Nat) :
    entry? d name k (b ++ i) = entry? e name k (b' ++ i) := by
  have hn := h name
  unfold entry? leaf?
  generalize d.get? name = o at hn ⊢
  generalize e.get? name = q at hn ⊢
  cases hn with
  | none => rfl
  | @some x y hxy =>
    have hxy : List.Forall₂ (LeafAgree b b') x.treeLeaves y.treeLeaves := hxy
    simp only
    by_cases hk : k < x.treeLeaves.length
    · have hk' : k < y.treeLeaves.length := hxy.length_eq ▸ hk
      obtain ⟨t, u, h1, h2, -, h4⟩ := (List.forall₂_iff_get.1 hxy).2 k hk hk'
      simp only [List.get_eq_getElem] at h1 h2
      rw [List.getElem?_eq_getElem hk, List.getElem?_eq_getElem hk', h1, h2]
      exact h4 i
    · have hk' : ¬ k < y.treeLeaves.length := hxy.length_eq ▸ hk
      rw [List.getElem?_eq_none (by omega), List.getElem?_eq_none (by omega)]

variable [Arith α]

/-- What a controller holds for batch element `b` is what another one holds for `b'`: residual, counter,
halting decision and every accumulator entry. -/
structure SameResults (b b' : List Nat) (c d : Controller α) : Prop where
  residual : c.residuals.at? b = d.residuals.at? b'
  iterations : c.iterations.at? b = d.iterations.at? b'
  halted : c.haltedBatches.at? b = d.haltedBatches.at? b'
  accumulators : ∀ (name : String) (k : Nat) (i : List Nat),
    entry? c.accumulators name k (b ++ i) = entry? d.accumulators name k (b' ++ i)

/-- In histories without reset a halted element stays halted (true in exact arithmetic and with rounding,
see C02 and C54). -/
def StaysHalted (c : Controller α) : Prop :=
  ∀ (ops : List (Op α)) (c' : Controller α) (b : List Nat), (∀ op ∈ ops, op.NotReset) →
    run c ops = .ok c' → ∀ (ops' : List (Op α)) (c'' : Controller α), (∀ op ∈ ops', op.NotReset) →
    run c' ops' = .ok c'' → c'.haltedBatches.at? b = some true → c''.haltedBatches.at? b = some true

theorem frozen_of_stays {c : Controller α} {b : List Nat} : ∀ {ops : List (Op α)} {c' : Controller α},
    c.state.WF → StaysHalted c → c.haltedBatches.at? b = some true → (∀ op ∈ ops, op.NotReset) →
    run c ops = .ok c' → SameResults b b c' c := by
  intro ops
  induction ops generalizing c with
  | nil => intro c' _ _ _ _ h; cases h; exact ⟨rfl, rfl, rfl, fun _ _ _ => rfl⟩
  | cons op ops ih =>
    intro c' hwf hst hb hn h
    have hall := hst [] c b (by simp) rfl (op :: ops) c' hn h hb
    simp only [run, bind_ok] at h
    obtain ⟨c1, h1, h2⟩ := h
    have n1 : ∀ o ∈ [op], o.NotReset := fun o ho => hn o (by simp_all)
    have r1 : run c [op] = .ok c1 := by simp [run, h1]
    have hb1 : c1.haltedBatches.at? b = some true := hst [] c b (by simp) rfl [op] c1 n1 r1 hb
    have hst1 : StaysHalted c1 := by
      intro o1 d1 b1 k1 k2 o2 d2 k3 k4 k5
      refine hst (op :: o1) d1 b1 ?_ ?_ o2 d2 k3 k4 k5
      · intro o ho
        rcases List.mem_cons.1 ho with rfl | ho
        · exact hn _ (by simp)
        · exact k1 o ho
      · simp only [run, h1]; exact k2
    have w1 : c1.state.WF := run_wf (s := c.state) hwf r1
    have rest := ih w1 hst1 hb1 (fun o ho => hn o (by simp [ho])) h2
    cases op with
    | cache n t =>
      have heq := (Controller.cacheUpdate_ok_iff.1 h1).2
      obtain ⟨s1⟩ := c1
      simp only at heq
      subst heq
      exact ⟨rest.residual, rest.iterations, rest.halted, rest.accumulators⟩
    | iterate x =>
      obtain ⟨e1, e2, e3⟩ := C03_halted_elements_frozen hwf h1 hb
      exact ⟨rest.residual.trans e1, rest.iterations.trans e2, hall.trans hb.symm,
        fun name k i => (rest.accumulators name k i).trans (e3 name k i)⟩
    | reset => exact absurd (hn .reset (by simp)) (by simp [Op.NotReset])

/-- Whenever the element is halted after a history, its cumulative probability is one. -/
def HaltsAtOne (c : Controller α) (b : List Nat) : Prop :=
  ∀ (ops : List (Op α)) (c' : Controller α), run c ops = .ok c' → c'.haltedBatches.at? b = some true →
    c'.probabilities.at? b = some Arith.one

theorem AgreeAt.results {c d : Controller α} {b b' : List Nat} (hc : c.state.WF) (hd : d.state.WF)
    (h : AgreeAt b b' c.state d.state) : SameResults b b' c d :=
  ⟨h.resid, h.iter, h.halted hc hd, h.acc.entry⟩

theorem SameResults.symm {c d : Controller α} {b b' : List Nat} (h : SameResults b b' c d) :
    SameResults b' b d c :=
  ⟨h.1.symm, h.2.symm, h.3.symm, fun n k i => (h.4 n k i).symm⟩

theorem SameResults.trans {c d e : Controller α} {b b' b'' : List Nat} (h : SameResults b b' c d)
    (h' : SameResults b' b'' d e) : SameResults b b'' c e :=
  ⟨h.1.trans h'.1, h.2.trans h'.2, h.3.trans h'.3, fun n k i => (h.4 n k i).trans (h'.4 n k i)⟩

theorem SameResults.of_same {c d : Controller α} (b : List Nat) (hc : c.state.DictsWF)
    (hd : d.state.DictsWF) (h : c.state.Same d.state) : SameResults b b c d := by
  refine ⟨?_, ?_, ?_, fun n k i => entry?_same hc.accumulators hd.accumulators h.accumulators n k _⟩
  · unfold Controller.residuals; rw [h.residuals]
  · unfold Controller.iterations; rw [h.iterations]
  · unfold Controller.haltedBatches Controller.haltThreshold Controller.probabilities
    rw [h.probabilities, h.epsilon]

/-- One of the two loops runs at least as long as the other. -/
theorem longer_loop {c0 d0 : Controller α} {b b' : List Nat} {p : α}
    {f g : Nat → List (Op α)} (hc : c0.state.WF) (hd : d0.state.WF)
    (hb : c0.probabilities.at? b = some p) (hag : AgreeAt b b' c0.state d0.state)
    (hfg : ∀ t, List.Forall₂ (OpAgree b b') (f t) (g t))
    (hng : ∀ t, ∀ op ∈ g t, op.NotReset) (hstay : StaysHalted d0) {k m : Nat} (hkm : k ≤ m)
    {c d : Controller α} (h1 : run c0 ((List.range k).flatMap f) = .ok c)
    (h2 : run d0 ((List.range m).flatMap g) = .ok d)
    (hstop : k < m → c.haltedBatches.at? b = some true) : SameResults b b' c d ∧
      (c.probabilities.at? b = d.probabilities.at? b' ∨ c.haltedBatches.at? b = some true) := by
  obtain ⟨j, rfl⟩ := Nat.exists_eq_add_of_le hkm
  have hsplit : (List.range (k + j)).flatMap g =
      (List.range k).flatMap g ++ (List.range j).flatMap (fun t => g (k + t)) := by
    rw [List.range_add, List.flatMap_append, List.flatMap_map]
  rw [hsplit, run_append, bind_ok] at h2
  obtain ⟨d1, h3, h4⟩ := h2
  have hops : List.Forall₂ (OpAgree b b') ((List.range k).flatMap f) ((List.range k).flatMap g) := by
    generalize List.range k = l
    induction l with
    | nil => exact .nil
    | cons t l ih => exact List.rel_append (hfg t) ih
  have wc : c.state.WF := run_wf (s := c0.state) hc h1
  have wd : d1.state.WF := run_wf (s := d0.state) hd h3
  have a0 := (C56_position_irrelevant hc hd hb hag hops h1 h3).1
  have a1 : SameResults b b' c d1 := a0.results wc wd
  have n1 : ∀ op ∈ (List.range k).flatMap g, op.NotReset := fun op ho => by
    obtain ⟨t, -, ht⟩ := List.mem_flatMap.1 ho
    exact hng t op ht
  rcases Nat.eq_zero_or_pos j with rfl | hj
  · cases h4; exact ⟨a1, .inl a0.prob⟩
  · have hh : d1.haltedBatches.at? b' = some true := a1.halted ▸ hstop (by omega)
    refine ⟨a1.trans (frozen_of_stays wd ?_ hh ?_ h4).symm, .inr (hstop (by omega))⟩
    · intro o1 e1 b1 k1 k2 o2 e2 k3 k4 k5
      refine hstay ((List.range k).flatMap g ++ o1) e1 b1 ?_ ?_ o2 e2 k3 k4 k5
      · intro op ho
        rcases List.mem_append.1 ho with ho | ho
        · exact n1 op ho
        · exact k1 op ho
      · rw [run_append, h3]; exact k2
    · intro op ho
      obtain ⟨t, -, ht⟩ := List.mem_flatMap.1 ho
      exact hng _ op ht

/-- Both loops, in an arithmetic in which halted elements stay halted. -/
theorem same_results {make make' : PyTree (Leaf α) → α → Res (Made α)}
    {calls calls' : PyTree (Leaf α) → List (Op α)} {next next' : PyTree (Leaf α) → PyTree (Leaf α)}
    {s0 s0' : PyTree (Leaf α)} {dep dep' : α} {max : Int} {check check' : Bool} {c0 d0 : Controller α}
    (hmake : make s0 dep = .ok (.ctrl c0)) (hmake' : make' s0' dep' = .ok (.ctrl d0))
    (hc : c0.state.WF) (hcd : c0.state.DictsWF) (hd : d0.state.WF) (hdd : d0.state.DictsWF)
    {b b' : List Nat} {p : α} (hb : c0.probabilities.at? b = some p)
    (hag : AgreeAt b b' c0.state d0.state)
    (hcalls : ∀ t, List.Forall₂ (OpAgree b b') (calls (loopStates next s0 t))
      (calls' (loopStates next' s0' t)))
    (hops : ∀ t, ∀ op ∈ calls (loopStates next s0 t), op.DictsWF ∧ op.NotReset)
    (hops' : ∀ t, ∀ op ∈ calls' (loopStates next' s0' t), op.DictsWF ∧ op.NotReset)
    (hstay : StaysHalted c0) (hstay' : StaysHalted d0)
    {c d : Controller α} {s s' : PyTree (Leaf α)}
    (h : (callLayer make calls next).ExecuteAct s0 dep max check (.ok (c, s)))
    (h' : (callLayer make' calls' next').ExecuteAct s0' dep' max check' (.ok (d, s'))) :
    SameResults b b' c d ∧ (HaltsAtOne c0 b → HaltsAtOne d0 b' →
      c.probabilities.at? b = d.probabilities.at? b') := by
  obtain ⟨k, hk, -, -, wdc, ⟨cf, r1, r2⟩, stop, -⟩ := C61_loop_is_history make calls next s0 dep max
    check hmake hc hcd (fun t op ho => (hops t op ho).1) h
  obtain ⟨m, hm, -, -, wdd, ⟨df, q1, q2⟩, stop', -⟩ := C61_loop_is_history make' calls' next' s0' dep' max
    check' hmake' hd hdd (fun t op ho => (hops' t op ho).1) h'
  have hdc : cf.state.DictsWF := run_dictsWF (s := c0.state) hc hcd (fun op ho => by
    obtain ⟨j, -, hj⟩ := List.mem_flatMap.1 ho
    exact (hops j op hj).1) r1
  have hdd' : df.state.DictsWF := run_dictsWF (s := d0.state) hd hdd (fun op ho => by
    obtain ⟨j, -, hj⟩ := List.mem_flatMap.1 ho
    exact (hops' j op hj).1) q1
  have halted : ∀ {e0 e : Controller α} {ops : List (Op α)} {b : List Nat} {p : α}, e0.state.WF →
      e0.probabilities.at? b = some p → run e0 ops = .ok e → AllHalted e →
      e.haltedBatches.at? b = some true := by
    intro e0 e ops b p w hp hr ha
    have we : e.state.WF := run_wf (s := e0.state) w hr
    have hsh : e.state.probabilities.shape = e0.state.probabilities.shape :=
      (C14_types_invariant (s := e0.state) w _ hr).2.2.1
    obtain ⟨q, hq⟩ := Controller.at?_some_of_shape (b := e.state.probabilities) hsh hp
    obtain ⟨x, hx⟩ : ∃ x, e.haltedBatches.at? b = some x :=
      ⟨_, (halted_iff (s := e.state) we.floating).2 ⟨_, hq, rfl⟩⟩
    rw [hx, ha b x hx]
  have hb' : d0.probabilities.at? b' = some p := hag.prob ▸ hb
  have o1 := SameResults.of_same b wdc hdc r2
  have o2 := (SameResults.of_same b' wdd hdd' q2).symm
  suffices hs : SameResults b b' cf df ∧
      (cf.probabilities.at? b = df.probabilities.at? b' ∨ cf.haltedBatches.at? b = some true) by
    refine ⟨o1.trans (hs.1.trans o2), fun g1 g2 => ?_⟩
    have e1 : c.probabilities = cf.probabilities := r2.probabilities
    have e2 : d.probabilities = df.probabilities := q2.probabilities
    rw [e1, e2]
    rcases hs.2 with hp | hp
    · exact hp
    · rw [g1 _ _ r1 hp, g2 _ _ q1 (hs.1.halted ▸ hp)]
  have sym : AgreeAt b' b d0.state c0.state := by
    have tsym : ∀ {x y : PyTree (Leaf α)}, TreeAgree b b' x y → TreeAgree b' b y x := fun h =>
      h.flip.imp fun _ _ ⟨t, u, e1, e2, e3, e4⟩ => ⟨u, t, e2, e1, e3.symm, fun i => (e4 i).symm⟩
    have dsym : ∀ {x y : Dict (PyTree (Leaf α))}, DictAgree b b' x y → DictAgree b' b y x := by
      intro x y h n
      have := h n
      cases h1 : x.get? n <;> cases h2 : y.get? n <;> rw [h1, h2] at this <;> cases this
      · exact .none
      · rename_i h; exact .some (tsym h)
    exact ⟨hag.1.symm, hag.2.symm, hag.3.symm, hag.4.symm, hag.5.symm, hag.6.symm, hag.7.symm,
      dsym hag.8, dsym hag.9, dsym hag.10⟩
  have csym : ∀ t, List.Forall₂ (OpAgree b' b) (calls' (loopStates next' s0' t))
      (calls (loopStates next s0 t)) := fun t => (hcalls t).flip.imp fun _ _ h => by
    cases h with
    | cache h => exact .cache (h.flip.imp fun _ _ ⟨t, u, e1, e2, e3, e4⟩ =>
        ⟨u, t, e2, e1, e3.symm, fun i => (e4 i).symm⟩)
    | iterate h1 h2 => exact .iterate h1.symm h2.symm
    | reset => exact .reset
  rcases Nat.le_total k m with hkm | hkm
  · refine longer_loop hc hd hb hag hcalls (fun t op ho => (hops' t op ho).2) hstay' hkm r1 q1
      fun hlt => ?_
    rcases stop with stop | stop
    · exact halted hc hb r1 ((allHalted_same r2).1 stop)
    · omega
  · have := longer_loop hd hc hb' sym csym (fun t op ho => (hops t op ho).2) hstay hkm q1 r1
      fun hlt => ?_
    · exact ⟨this.1.symm, this.2.imp Eq.symm fun h => this.1.halted ▸ h⟩
    rcases stop' with stop' | stop'
    · exact halted hd hb' q1 ((allHalted_same q2).1 stop')
    · omega

end AnyArith

section Exact
variable {K : Type} [Field K] [LinearOrder K] [IsStrictOrderedRing K]
attribute [local instance] Arith.exact

theorem staysHalted_exact {c : Controller K} (hwf : c.state.WF) (he0 : 0 < c.state.epsilon)
    (hdep : 0 ≤ c.state.depression_constant) : StaysHalted c := by
  intro ops c' b _ hr ops' c'' hn' hr' hb
  obtain ⟨w, h1, h2⟩ := run_induction (s := c.state)
    (Inv := fun t => 0 < t.epsilon ∧ 0 ≤ t.depression_constant)
    (fun _ _ _ _ _ st i => by obtain ⟨-, rfl⟩ := st; exact i)
    (fun _ _ _ _ st i => by rw [st.epsilon, st.depression]; exact i)
    (fun _ _ _ st i => by rw [st.epsilon, st.depression]; exact i) ops hwf ⟨he0, hdep⟩ hr
  exact C02_halted_stays_halted (s := c'.state) w h1 h2 hb ops' hn' hr'

/-- C80, exact arithmetic.  Two layers that call the controller are run by `execute_act` with the same
`max_iterations`, on batches of whatever shapes.  Element `b` of the first batch starts like element `b'` of
the second, and in every iteration the two are given the same updates and halting probabilities.  Then the
two controllers returned hold the same for them: residual, counter, halting decision and all accumulator
entries, and the cumulative probability unless the element was halted from the start.  Nothing is asked of
the other elements, so the two loops may run for different numbers of iterations. -/
theorem C80_rest_of_batch_irrelevant {make make' : PyTree (Leaf K) → K → Res (Made K)}
    {calls calls' : PyTree (Leaf K) → List (Op K)} {next next' : PyTree (Leaf K) → PyTree (Leaf K)}
    {s0 s0' : PyTree (Leaf K)} {dep dep' : K} {max : Int} {check check' : Bool} {c0 d0 : Controller K}
    (hmake : make s0 dep = .ok (.ctrl c0)) (hmake' : make' s0' dep' = .ok (.ctrl d0))
    (hc : c0.state.WF) (hcd : c0.state.DictsWF) (hd : d0.state.WF) (hdd : d0.state.DictsWF)
    (he0 : 0 < c0.state.epsilon) (he1 : c0.state.epsilon ≤ 1)
    (hdep : 0 ≤ c0.state.depression_constant)
    {b b' : List Nat} {p : K} (hb : c0.probabilities.at? b = some p)
    (hag : AgreeAt b b' c0.state d0.state)
    (hcalls : ∀ t, List.Forall₂ (OpAgree b b') (calls (loopStates next s0 t))
      (calls' (loopStates next' s0' t)))
    (hops : ∀ t, ∀ op ∈ calls (loopStates next s0 t), op.DictsWF ∧ op.NotReset)
    (hops' : ∀ t, ∀ op ∈ calls' (loopStates next' s0' t), op.DictsWF ∧ op.NotReset)
    {c d : Controller K} {s s' : PyTree (Leaf K)}
    (h : (callLayer make calls next).ExecuteAct s0 dep max check (.ok (c, s)))
    (h' : (callLayer make' calls' next').ExecuteAct s0' dep' max check' (.ok (d, s'))) :
    SameResults b b' c d ∧ (c0.haltedBatches.at? b = some false →
      c.probabilities.at? b = d.probabilities.at? b') := by
  have e0 : 0 < d0.state.epsilon := hag.epsilon ▸ he0
  have e1 : d0.state.epsilon ≤ 1 := hag.epsilon ▸ he1
  have e2 : 0 ≤ d0.state.depression_constant := hag.depression ▸ hdep
  obtain ⟨r1, r2⟩ := same_results hmake hmake' hc hcd hd hdd hb hag hcalls hops hops'
    (staysHalted_exact hc he0 hdep) (staysHalted_exact hd e0 e2) h h'
  refine ⟨r1, fun hf => r2 ?_ ?_⟩
  · exact fun ops c' hr hh => C05_halted_probability_is_one (s := c0.state) hc he0 he1 hdep hf ops hr hh
  · have hf' : (Controller.haltedBatches ⟨d0.state⟩).at? b' = some false :=
      (hag.halted hc hd).symm.trans hf
    exact fun ops c' hr hh => C05_halted_probability_is_one (s := d0.state) hd e0 e1 e2 hf' ops hr hh

end Exact

section Rounded
variable {F : DType → Fmt} [A : Arith ℚ]

theorem staysHalted_rounded (hA : A = Arith.rounded F) (hF64 : (F .f64).Valid) {c : Controller ℚ}
    (hwf : c.state.WF) (inv : RoundedInv F c.state) : StaysHalted c := by
  intro ops c' b _ hr ops' c'' hn' hr' hb
  have i := RoundedInv.run hA hF64 hwf inv ops hr
  exact C54_halted_stays_halted hA hF64 (s := c'.state) (run_wf (s := c.state) hwf hr) i.fmt i.eps i.dep
    i.cells hb ops' hn' hr'

/-- C80 with rounding, in formats of any precision. -/
theorem C80_rest_of_batch_irrelevant_rounded (hA : A = Arith.rounded F) (hF64 : (F .f64).Valid)
    {make make' : PyTree (Leaf ℚ) → ℚ → Res (Made ℚ)}
    {calls calls' : PyTree (Leaf ℚ) → List (Op ℚ)} {next next' : PyTree (Leaf ℚ) → PyTree (Leaf ℚ)}
    {s0 s0' : PyTree (Leaf ℚ)} {dep dep' : ℚ} {max : Int} {check check' : Bool} {c0 d0 : Controller ℚ}
    (hmake : make s0 dep = .ok (.ctrl c0)) (hmake' : make' s0' dep' = .ok (.ctrl d0))
    (hc : c0.state.WF) (hcd : c0.state.DictsWF) (hd : d0.state.WF) (hdd : d0.state.DictsWF)
    (hF : (F c0.state.probabilities.dtype).Valid)
    (he0 : 0 ≤ c0.state.epsilon) (he1 : c0.state.epsilon ≤ 1)
    (hdep : 0 ≤ c0.state.depression_constant)
    (hp : ∀ b p, c0.probabilities.at? b = some p →
      (F c0.state.probabilities.dtype).rnd p = p ∧ 0 ≤ p ∧ p ≤ 1)
    (hp' : ∀ b p, d0.probabilities.at? b = some p →
      (F c0.state.probabilities.dtype).rnd p = p ∧ 0 ≤ p ∧ p ≤ 1)
    {b b' : List Nat} {p : ℚ} (hb : c0.probabilities.at? b = some p)
    (hag : AgreeAt b b' c0.state d0.state)
    (hcalls : ∀ t, List.Forall₂ (OpAgree b b') (calls (loopStates next s0 t))
      (calls' (loopStates next' s0' t)))
    (hops : ∀ t, ∀ op ∈ calls (loopStates next s0 t), op.DictsWF ∧ op.NotReset)
    (hops' : ∀ t, ∀ op ∈ calls' (loopStates next' s0' t), op.DictsWF ∧ op.NotReset)
    {c d : Controller ℚ} {s s' : PyTree (Leaf ℚ)}
    (h : (callLayer make calls next).ExecuteAct s0 dep max check (.ok (c, s)))
    (h' : (callLayer make' calls' next').ExecuteAct s0' dep' max check' (.ok (d, s'))) :
    SameResults b b' c d ∧ (c0.haltedBatches.at? b = some false →
      c.probabilities.at? b = d.probabilities.at? b') := by
  have e0 : 0 ≤ d0.state.epsilon := hag.epsilon ▸ he0
  have e1 : d0.state.epsilon ≤ 1 := hag.epsilon ▸ he1
  have e2 : 0 ≤ d0.state.depression_constant := hag.depression ▸ hdep
  rw [hag.pdtype] at hp'
  have hF' : (F d0.state.probabilities.dtype).Valid := hag.pdtype ▸ hF
  obtain ⟨r1, r2⟩ := same_results hmake hmake' hc hcd hd hdd hb hag hcalls hops hops'
    (staysHalted_rounded hA hF64 hc ⟨hF, he0, hdep, hp⟩)
    (staysHalted_rounded hA hF64 hd ⟨hF', e0, e2, hp'⟩) h h'
  have one : (Arith.one : ℚ) = 1 := by subst hA; rfl
  refine ⟨r1, fun hf => r2 ?_ ?_⟩
  · intro ops c' hr hh
    rw [one]
    exact C19_halted_probability_is_one hA hF64 (s := c0.state) hc hF he0 he1 hdep hp hf ops hr hh
  · have hf' : (Controller.haltedBatches ⟨d0.state⟩).at? b' = some false :=
      (hag.halted hc hd).symm.trans hf
    intro ops c' hr hh
    rw [one]
    exact C19_halted_probability_is_one hA hF64 (s := d0.state) hd hF' e0 e1 e2 hp' hf' ops hr hh

end Rounded

section Example
open Fixtures

/-- A user state that grows: every entry by `1/4`. -/
def grow : PyTree (Leaf ℚ) → PyTree (Leaf ℚ)
  | .leaf (.tensor t) => .leaf (.tensor ⟨t.dtype, t.arr.map (· + 1/4)⟩)
  | s => s

/-- The layer of C50 with a user state that grows from iteration to iteration; its halting probabilities
are the user state. -/
def growLayer [Arith ℚ] : Layer ℚ :=
  callLayer (fun _ _ => .ok (.ctrl ⟨simple⟩)) (fun s => (demoRound s).ops) grow

theorem grow_typed [Arith ℚ] (x y : ℚ) : TypedCalls (fun s => (demoRound s).ops) grow (bare (vec [x, y])) := by
  refine ⟨fun s hs => ?_, fun s hs => ?_⟩ <;>
  · obtain ⟨l, rfl⟩ := hs.leaf_iff.1 ⟨_, rfl⟩
    have h2 := hs.2
    simp only [bare, treeLeaves, PyTree.canon, leaves, List.map_cons, List.map_nil, List.cons.injEq,
      and_true] at h2
    obtain ⟨t, rfl, h3, h4⟩ := Leaf.type_some.1 h2.symm
    first
    | exact .cons (.cache _ (.refl _)) (.cons (.iterate ⟨h3.symm, h4.symm⟩) .nil)
    | exact hs

/-- The user state after `t` iterations. -/
theorem grow_states (x y : ℚ) (t : Nat) : ∃ u : Tensor ℚ,
    loopStates grow (bare (vec [x, y])) t = bare u ∧ u.dtype = .f32 ∧ u.at? [0] = some (x + t / 4) := by
  induction t with
  | zero => exact ⟨_, rfl, rfl, by simp [vec, Arr.at?, InB]⟩
  | succ t ih =>
    obtain ⟨u, h1, h2, h3⟩ := ih
    refine ⟨⟨u.dtype, u.arr.map (· + 1/4)⟩, ?_, h2, ?_⟩
    · unfold loopStates; rw [h1]; rfl
    · simp only [Tensor.at?, Arr.at?_map] at h3 ⊢
      rw [h3]
      simp only [Option.map_some, Option.some.injEq]
      push_cast
      ring

theorem grow_executes [Arith ℚ] {x y : ℚ} (max : Int) (check : Bool)
    (hok : succeeds (run ⟨simple⟩ (demoRound (bare (vec [x, y]))).ops) = true) :
    ∃ c s, growLayer.ExecuteAct (bare (vec [x, y])) 1 max check (.ok (c, s)) := by
  cases hr : run ⟨simple⟩ (demoRound (bare (vec [x, y]))).ops with
  | error e => rw [hr] at hok; cases hok
  | ok c1 =>
    exact C50_execute_act_succeeds _ demoRound grow check ⟨simple⟩ c1 _ 1 max rfl simple_wf rfl
      (by simp [simple]) simple_idle (vec_tensors _) (grow_typed x y) hr

theorem bare_agree (b : List Nat) (t : Tensor ℚ) : TreeAgree b b (bare t) (bare t) :=
  .cons ⟨t, t, rfl, rfl, rfl, fun _ => rfl⟩ .nil

theorem simple_agree (b : List Nat) : AgreeAt b b simple simple := by
  have one : ∀ x : PyTree (Leaf ℚ), TreeAgree b b x x → DictAgree b b [("out", x)] [("out", x)] := by
    intro x hx n
    simp only [Dict.get?]
    split
    · exact .some hx
    · exact .none
  exact ⟨rfl, rfl, rfl, rfl, rfl, rfl, rfl, one _ (bare_agree b _), one _ (bare_agree b _), one _ .nil⟩

theorem grow_ops (x y : ℚ) (t : Nat) : ∀ op ∈ (demoRound (loopStates grow (bare (vec [x, y])) t)).ops,
    op.DictsWF ∧ op.NotReset := by
  obtain ⟨u, h1, -, -⟩ := grow_states x y t
  rw [h1]
  intro op ho
  simp only [demoRound, bare, Round.ops, List.map_cons, List.map_nil, List.cons_append, List.nil_append,
    List.mem_cons, List.not_mem_nil, or_false] at ho
  rcases ho with rfl | rfl
  · exact ⟨trivial, trivial⟩
  · exact ⟨trivial, trivial⟩

theorem grow_calls (x y z : ℚ) (t : Nat) : List.Forall₂ (OpAgree [0] [0])
    (demoRound (loopStates grow (bare (vec [x, y])) t)).ops
    (demoRound (loopStates grow (bare (vec [x, z])) t)).ops := by
  obtain ⟨u, e1, e2, e3⟩ := grow_states x y t
  obtain ⟨v, f1, f2, f3⟩ := grow_states x z t
  rw [e1, f1]
  exact .cons (.cache (bare_agree _ _)) (.cons (.iterate (e2.trans f2.symm) (e3.trans f3.symm)) .nil)

section
attribute [local instance] Arith.exact

/-- All hypotheses hold for two batches that have element 0 in common. -/
theorem grow_same_results {x y z : ℚ} {max : Int} {check : Bool} {c d : Controller ℚ}
    {s s' : PyTree (Leaf ℚ)}
    (h : growLayer.ExecuteAct (bare (vec [x, y])) 1 max check (.ok (c, s)))
    (h' : growLayer.ExecuteAct (bare (vec [x, z])) 1 max check (.ok (d, s'))) :
    SameResults [0] [0] c d ∧ c.probabilities.at? [0] = d.probabilities.at? [0] := by
  obtain ⟨h1, h2⟩ := C80_rest_of_batch_irrelevant (c0 := ⟨simple⟩) (d0 := ⟨simple⟩) rfl rfl simple_wf
    simple_dictsWF simple_wf simple_dictsWF (by decide +kernel) (by decide +kernel) (by decide +kernel)
    (b := [0]) (b' := [0]) (p := 0) (by decide +kernel) (simple_agree _) (grow_calls x y z)
    (grow_ops x y) (grow_ops x z) h h'
  exact ⟨h1, h2 (by decide +kernel)⟩

/-- Entry 0 of a user state that is a tensor. -/
def stateAt0 : PyTree (Leaf ℚ) → Option ℚ
  | .leaf (.tensor t) => t.at? [0]
  | _ => Option.none

/-- C80, the user state is not covered: it is the one after the last iteration of the whole batch, so for
an element that is halted early it depends on the rest of the batch.  Element 0 is halted after two
iterations; beside another such element its state comes back as `5/4`, beside one that needs four iterations
as `7/4`. -/
theorem C80_state_depends_on_batch : ∃ c s d s',
    growLayer.ExecuteAct (bare (vec [3/4, 3/4])) 1 10 true (.ok (c, s)) ∧
    growLayer.ExecuteAct (bare (vec [3/4, 0])) 1 10 true (.ok (d, s')) ∧
    SameResults [0] [0] c d ∧ c.iterations.at? [0] = some 2 ∧ c.haltedBatches.at? [0] = some true ∧
    stateAt0 s = some (5/4) ∧ stateAt0 s' = some (7/4) := by
  have f1 : (whileFuel isActNotComplete (fun x => (growLayer.adapter true x).map Carry.rebuild) 5
      (Carry.rebuild ⟨⟨simple⟩, bare (vec [3/4, 3/4]), ⟨0, 10⟩⟩)).map (fun z =>
        (z.controller.iterations.at? [0], z.controller.haltedBatches.at? [0], stateAt0 z.state)) =
      some (some 2, some true, some (5/4)) := by decide +kernel
  have f2 : (whileFuel isActNotComplete (fun x => (growLayer.adapter true x).map Carry.rebuild) 5
      (Carry.rebuild ⟨⟨simple⟩, bare (vec [3/4, 0]), ⟨0, 10⟩⟩)).map (fun z => stateAt0 z.state) =
      some (some (7/4)) := by decide +kernel
  obtain ⟨z, hz, o1⟩ := Option.map_eq_some_iff.1 f1
  obtain ⟨w, hw, o2⟩ := Option.map_eq_some_iff.1 f2
  have e1 := execute_of_fuel (grow_executes 10 true (by decide +kernel)) rfl hz
  have e2 := execute_of_fuel (grow_executes 10 true (by decide +kernel)) rfl hw
  simp only [Prod.mk.injEq] at o1
  exact ⟨_, _, _, _, e1, e2, (grow_same_results e1 e2).1, o1.1, o1.2.1, o1.2.2, o2⟩

end

section
attribute [local instance] ieee

/-- The same with rounding: `execute_act` returns for both batches, and what it holds for element 0 is the
same. -/
example : ∃ c s d s', growLayer.ExecuteAct (bare (vec [3/4, 3/4])) 1 10 true (.ok (c, s)) ∧
    growLayer.ExecuteAct (bare (vec [3/4, 0])) 1 10 true (.ok (d, s')) ∧ SameResults [0] [0] c d ∧
    c.probabilities.at? [0] = d.probabilities.at? [0] := by
  obtain ⟨c, s, e1⟩ := grow_executes (x := 3/4) (y := 3/4) 10 true (by decide +kernel)
  obtain ⟨d, s', e2⟩ := grow_executes (x := 3/4) (y := 0) 10 true (by decide +kernel)
  have hp : ∀ b p, simple.probabilities.at? b = some p →
      (DType.f32.fmt).rnd p = p ∧ 0 ≤ p ∧ p ≤ 1 := by
    intro b p hb
    rcases vec_two hb with ⟨-, rfl⟩ | ⟨-, rfl⟩ <;> decide +kernel
  obtain ⟨h1, h2⟩ := C80_rest_of_batch_irrelevant_rounded (F := DType.fmt) (c0 := ⟨simple⟩)
    (d0 := ⟨simple⟩) rfl (by decide) rfl rfl simple_wf simple_dictsWF simple_wf simple_dictsWF
    (show DType.f32.fmt.Valid by decide) (by decide +kernel) (by decide +kernel) (by decide +kernel) hp hp
    (b := [0]) (b' := [0]) (p := 0) (by decide +kernel) (simple_agree _) (grow_calls _ _ _)
    (grow_ops _ _) (grow_ops _ _) e1 e2
  exact ⟨c, s, d, s', e1, e2, h1, h2 (by decide +kernel)⟩

end
end Example
end JaxAct
