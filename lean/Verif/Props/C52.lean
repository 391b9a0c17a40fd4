import Verif.Model.Text
import Mathlib.Data.List.TakeWhile
import Mathlib.Data.List.Forall2

/-! # C52 Error messages carry context -/

namespace JaxAct.Text

/-! ### Lines -/

theorem lines_ne_nil (t : Str) : lines t ≠ [] := by
  cases t with
  | nil => simp [lines]
  | cons c cs =>
    unfold lines
    split
    · simp
    · split <;> simp

theorem lines_cons_of_ne {c : Char} (h : c ≠ '\n') (cs : Str) :
    ∃ l ls, lines cs = l :: ls ∧ lines (c :: cs) = (c :: l) :: ls := by
  cases hl : lines cs with
  | nil => exact absurd hl (lines_ne_nil cs)
  | cons l ls => exact ⟨l, ls, rfl, by simp [lines, h, hl]⟩

theorem lines_no_newline (t : Str) : ∀ l ∈ lines t, '\n' ∉ l := by
  induction t with
  | nil => simp [lines]
  | cons c cs ih =>
    by_cases h : c = '\n'
    · subst h; simpa [lines] using ih
    · obtain ⟨l, ls, h1, h2⟩ := lines_cons_of_ne h cs
      rw [h2]
      rw [h1] at ih
      intro x hx
      rcases List.mem_cons.1 hx with rfl | hx
      · have := ih l (by simp)
        simp [this, Ne.symm h]
      · exact ih x (by simp [hx])

/-- Splitting a text whose first line is `l`. -/
theorem lines_append_newline {l : Str} (h : '\n' ∉ l) (t : Str) :
    lines (l ++ '\n' :: t) = l :: lines t := by
  induction l with
  | nil => simp [lines]
  | cons c l ih =>
    have hc : c ≠ '\n' := by rintro rfl; simp at h
    have := ih (by intro h'; exact h (by simp [h']))
    show lines (c :: (l ++ '\n' :: t)) = _
    simp [lines, hc, this]

theorem lines_of_no_newline {l : Str} (h : '\n' ∉ l) : lines l = [l] := by
  induction l with
  | nil => rfl
  | cons c l ih =>
    have hc : c ≠ '\n' := by rintro rfl; simp at h
    have := ih (by intro h'; exact h (by simp [h']))
    simp [lines, hc, this]

theorem lines_unlines : ∀ {ls : List Str}, ls ≠ [] → (∀ l ∈ ls, '\n' ∉ l) →
    lines (unlines ls) = ls
  | [], h, _ => absurd rfl h
  | [l], _, h => lines_of_no_newline (h l (by simp))
  | l :: l' :: ls, _, h => by
    show lines (l ++ '\n' :: unlines (l' :: ls)) = _
    rw [lines_append_newline (h l (by simp)),
      lines_unlines (ls := l' :: ls) (by simp) (fun x hx => h x (by simp [hx]))]

theorem unlines_lines (t : Str) : unlines (lines t) = t := by
  induction t with
  | nil => rfl
  | cons c cs ih =>
    by_cases h : c = '\n'
    · subst h
      cases hl : lines cs with
      | nil => exact absurd hl (lines_ne_nil cs)
      | cons l ls => rw [hl] at ih; simp [lines, hl, unlines, ih]
    · obtain ⟨l, ls, h1, h2⟩ := lines_cons_of_ne h cs
      rw [h1] at ih
      rw [h2]
      cases ls with
      | nil => simp only [unlines] at ih ⊢; rw [ih]
      | cons l' ls => simp only [unlines, List.cons_append] at ih ⊢; rw [ih]

/-- Splitting the concatenation of a text, a newline and another text. -/
theorem lines_append (s t : Str) : lines (s ++ '\n' :: t) = lines s ++ lines t := by
  induction s with
  | nil => simp [lines]
  | cons c cs ih =>
    by_cases h : c = '\n'
    · subst h; simp [lines, ih]
    · obtain ⟨l, ls, h1, h2⟩ := lines_cons_of_ne h cs
      obtain ⟨l', ls', h1', h2'⟩ := lines_cons_of_ne h (cs ++ '\n' :: t)
      rw [ih, h1] at h1'
      rw [List.cons_append, h2', h2]
      simp only [List.cons_append, List.cons.injEq] at h1' ⊢
      exact ⟨⟨trivial, h1'.1.symm⟩, h1'.2.symm⟩

/-! ### The margin -/

theorem firstMismatch_prefix (m i : Str) : firstMismatch m i <+: m := by
  induction m generalizing i with
  | nil => cases i <;> simp [firstMismatch]
  | cons x m ih =>
    cases i with
    | nil => simp [firstMismatch]
    | cons y i =>
      unfold firstMismatch
      split
      · exact List.nil_prefix
      · exact (List.prefix_cons_inj x).2 (ih i)

theorem firstMismatch_prefix_right {m i : Str} (h : ¬ m <+: i) (h' : ¬ i <+: m) :
    firstMismatch m i <+: i := by
  induction m generalizing i with
  | nil => exact absurd List.nil_prefix h
  | cons x m ih =>
    cases i with
    | nil => exact absurd List.nil_prefix h'
    | cons y i =>
      unfold firstMismatch
      split
      · exact List.nil_prefix
      · rename_i hxy
        rw [not_not] at hxy
        subst hxy
        exact (List.prefix_cons_inj x).2 (ih (fun e => h ((List.prefix_cons_inj x).2 e))
          (fun e => h' ((List.prefix_cons_inj x).2 e)))

theorem prefix_firstMismatch {w m i : Str} (hm : w <+: m) (hi : w <+: i) :
    w <+: firstMismatch m i := by
  induction w generalizing m i with
  | nil => exact List.nil_prefix
  | cons x w ih =>
    obtain ⟨m', rfl⟩ := hm
    obtain ⟨i', rfl⟩ := hi
    simp only [List.cons_append, firstMismatch, ne_eq, not_true_eq_false, if_false]
    exact (List.prefix_cons_inj x).2 (ih (List.prefix_append _ _) (List.prefix_append _ _))

theorem marginStep_some (m i : Str) : ∃ m', marginStep (some m) i = some m' ∧ m' <+: m ∧ m' <+: i ∧
    ∀ w, w <+: m → w <+: i → w <+: m' := by
  unfold marginStep
  simp only
  split
  · rename_i h; rw [List.isPrefixOf_iff_prefix] at h
    exact ⟨m, rfl, List.prefix_rfl, h, fun w h1 _ => h1⟩
  · rename_i h1
    split
    · rename_i h; rw [List.isPrefixOf_iff_prefix] at h
      exact ⟨i, rfl, h, List.prefix_rfl, fun w _ h2 => h2⟩
    · rename_i h2
      rw [List.isPrefixOf_iff_prefix] at h1 h2
      exact ⟨_, rfl, firstMismatch_prefix _ _, firstMismatch_prefix_right h1 h2,
        fun w => prefix_firstMismatch⟩

theorem foldl_margin (is : List Str) (m : Str) : ∃ m', is.foldl marginStep (some m) = some m' ∧
    m' <+: m ∧ (∀ i ∈ is, m' <+: i) ∧ ∀ w, w <+: m → (∀ i ∈ is, w <+: i) → w <+: m' := by
  induction is generalizing m with
  | nil => exact ⟨m, rfl, List.prefix_rfl, by simp, fun w h _ => h⟩
  | cons i is ih =>
    obtain ⟨m1, h1, h2, h3, h4⟩ := marginStep_some m i
    obtain ⟨m2, g1, g2, g3, g4⟩ := ih m1
    refine ⟨m2, by rw [List.foldl_cons, h1, g1], g2.trans h2, ?_, ?_⟩
    · intro j hj
      rcases List.mem_cons.1 hj with rfl | hj
      · exact g2.trans h3
      · exact g3 j hj
    · intro w hw hall
      exact g4 w (h4 w hw (hall i (by simp))) (fun j hj => hall j (by simp [hj]))

/-- The lines on which a message has something to say: those with a character other than a blank or
a tab. -/
def Solid (l : Str) : Prop := ∃ c ∈ l, c ≠ ' ' ∧ c ≠ '\t'

theorem all_blank_iff {l : Str} : l.all isBlank = true ↔ ¬ Solid l := by
  unfold Solid isBlank
  rw [List.all_eq_true]
  constructor
  · rintro h ⟨c, hc, h1, h2⟩
    have := h c hc
    simp [h1, h2] at this
  · intro h c hc
    by_contra hn
    refine h ⟨c, hc, ?_, ?_⟩ <;> rintro rfl <;> simp at hn

/-- Specification: `w` is the common margin of the lines: blanks and tabs only, at the start of each
solid line, and the longest such string. -/
structure IsMargin (ls : List Str) (w : Str) : Prop where
  blank : ∀ c ∈ w, c = ' ' ∨ c = '\t'
  common : ∀ l ∈ ls, Solid l → w <+: l
  longest : ∀ v : Str, (∀ c ∈ v, c = ' ' ∨ c = '\t') → (∀ l ∈ ls, Solid l → v <+: l) →
    (∃ l ∈ ls, Solid l) → v <+: w

theorem prefix_takeWhile {v l : Str} (hv : ∀ c ∈ v, c = ' ' ∨ c = '\t') (h : v <+: l) :
    v <+: l.takeWhile isBlank := by
  induction v generalizing l with
  | nil => exact List.nil_prefix
  | cons c v ih =>
    obtain ⟨l', rfl⟩ := h
    have hc : isBlank c = true := by
      unfold isBlank; rcases hv c (by simp) with rfl | rfl <;> rfl
    rw [List.cons_append, List.takeWhile_cons_of_pos hc]
    exact (List.prefix_cons_inj c).2 (ih (fun c h => hv c (by simp [h])) (List.prefix_append _ _))

theorem takeWhile_blank (l : Str) : ∀ c ∈ l.takeWhile isBlank, c = ' ' ∨ c = '\t' := by
  intro c hc
  have := List.mem_takeWhile_imp hc
  unfold isBlank at this
  simpa using this

theorem margin_spec (ls : List Str) :
    (margin ls = none ∧ ∀ l ∈ ls, ¬ Solid l) ∨ ∃ w, margin ls = some w ∧ IsMargin ls w := by
  have hmem : ∀ i, i ∈ indents ls ↔ ∃ l ∈ ls, Solid l ∧ i = l.takeWhile isBlank := by
    intro i
    unfold indents
    rw [List.mem_filterMap]
    constructor
    · rintro ⟨l, hl, h⟩
      split at h
      · cases h
      · rename_i hs; rw [all_blank_iff, not_not] at hs; cases h; exact ⟨l, hl, hs, rfl⟩
    · rintro ⟨l, hl, hs, rfl⟩
      exact ⟨l, hl, by rw [if_neg (by rw [all_blank_iff, not_not]; exact hs)]⟩
  unfold margin
  cases hi : indents ls with
  | nil =>
    left
    refine ⟨rfl, fun l hl hs => ?_⟩
    have := (hmem _).2 ⟨l, hl, hs, rfl⟩
    rw [hi] at this
    simp at this
  | cons i is =>
    right
    obtain ⟨w, h1, h2, h3, h4⟩ := foldl_margin is i
    refine ⟨w, h1, ?_, ?_, ?_⟩
    · obtain ⟨l, -, -, rfl⟩ := (hmem i).1 (by rw [hi]; simp)
      exact fun c hc => takeWhile_blank l c (h2.mem hc)
    · intro l hl hs
      have hm := (hmem _).2 ⟨l, hl, hs, rfl⟩
      rw [hi] at hm
      refine List.IsPrefix.trans ?_ (List.takeWhile_prefix isBlank)
      rcases List.mem_cons.1 hm with e | hm
      · rw [e]; exact h2
      · exact h3 _ hm
    · intro v hv hall _
      have key : ∀ j ∈ i :: is, v <+: j := by
        intro j hj
        rw [← hi] at hj
        obtain ⟨l, hl, hs, rfl⟩ := (hmem j).1 hj
        exact prefix_takeWhile hv (hall l hl hs)
      exact h4 v (key i (by simp)) (fun j hj => key j (by simp [hj]))

theorem solid_normalize {l : Str} : Solid (normalize l) ↔ Solid l := by
  unfold normalize
  split
  · rename_i h
    rw [all_blank_iff] at h
    constructor
    · rintro ⟨c, hc, -⟩; cases hc
    · intro h'; exact absurd h' h
  · rfl

theorem normalize_solid {l : Str} (h : Solid l) : normalize l = l := by
  unfold normalize; rw [if_neg (by rw [all_blank_iff, not_not]; exact h)]

/-- What `dedent` does: the same number of lines; each solid line loses the common margin, each other
line becomes empty. -/
theorem C52_dedent (t : Str) : ∃ w, IsMargin (lines t) w ∧
    List.Forall₂ (fun l l' => (Solid l → l = w ++ l') ∧ (¬ Solid l → l' = []))
      (lines t) (lines (dedent t)) := by
  have hno : ∀ l ∈ (lines t).map normalize, '\n' ∉ l := by
    intro l hl
    obtain ⟨l0, h0, rfl⟩ := List.mem_map.1 hl
    unfold normalize
    split
    · simp
    · exact lines_no_newline t l0 h0
  have hne : (lines t).map normalize ≠ [] := by simp [lines_ne_nil]
  have lift : ∀ w, IsMargin ((lines t).map normalize) w → IsMargin (lines t) w := by
    rintro w ⟨h1, h2, h3⟩
    refine ⟨h1, fun l hl hs => ?_, fun v hv hall ⟨l, hl, hs⟩ => ?_⟩
    · have := h2 (normalize l) (List.mem_map_of_mem hl) (solid_normalize.2 hs)
      rwa [normalize_solid hs] at this
    · refine h3 v hv (fun l' hl' hs' => ?_) ⟨normalize l, List.mem_map_of_mem hl, solid_normalize.2 hs⟩
      obtain ⟨l0, h0, rfl⟩ := List.mem_map.1 hl'
      have hs0 := solid_normalize.1 hs'
      rw [normalize_solid hs0]
      exact hall l0 h0 hs0
  have keep : ∀ w, w = [] → lines (dedent t) = (lines t).map normalize →
      List.Forall₂ (fun l l' => (Solid l → l = w ++ l') ∧ (¬ Solid l → l' = []))
        (lines t) (lines (dedent t)) := by
    rintro w rfl h
    rw [h, List.forall₂_map_right_iff, List.forall₂_same]
    intro l hl
    refine ⟨fun hs => by rw [normalize_solid hs]; rfl, fun hs => ?_⟩
    unfold normalize; rw [if_pos (all_blank_iff.2 hs)]
  rcases margin_spec ((lines t).map normalize) with ⟨hm, hs⟩ | ⟨w, hm, hw⟩
  · refine ⟨[], ⟨by simp, fun _ _ _ => List.nil_prefix, fun v _ _ ⟨l, hl, h⟩ => ?_⟩, ?_⟩
    · exact absurd (solid_normalize.2 h) (hs _ (List.mem_map_of_mem hl))
    · refine keep [] rfl ?_
      unfold dedent
      simp only [hm]
      exact lines_unlines hne hno
  · refine ⟨w, lift w hw, ?_⟩
    cases w with
    | nil =>
      refine keep [] rfl ?_
      unfold dedent
      simp only [hm]
      exact lines_unlines hne hno
    | cons c w =>
      have hd : lines (dedent t) = ((lines t).map normalize).map (stripMargin (c :: w)) := by
        unfold dedent
        simp only [hm]
        refine lines_unlines (by simp [lines_ne_nil]) ?_
        intro l hl
        obtain ⟨l0, h0, rfl⟩ := List.mem_map.1 hl
        have := hno l0 h0
        unfold stripMargin
        split
        · exact fun h => this (List.mem_of_mem_drop h)
        · exact this
      rw [hd, List.map_map, List.forall₂_map_right_iff, List.forall₂_same]
      intro l hl
      refine ⟨fun hs => ?_, fun hs => ?_⟩
      · have hp := (lift _ hw).common l hl hs
        simp only [Function.comp_apply, normalize_solid hs, stripMargin]
        rw [if_pos (List.isPrefixOf_iff_prefix.2 hp)]
        obtain ⟨r, hr⟩ := hp
        rw [← hr, List.drop_left]
      · simp only [Function.comp_apply]
        unfold normalize
        rw [if_pos (all_blank_iff.2 hs)]
        rfl

/-! ### Indentation -/

theorem splitlinesFrom_cr_nl (cur cs : Str) : splitlinesFrom cur ('\r' :: '\n' :: cs) =
    (cur.reverse ++ ['\r', '\n']) :: splitlinesFrom [] cs := by
  simp [splitlinesFrom]

theorem splitlinesFrom_cons (cur : Str) {c : Char} {cs : Str}
    (h : ¬ (c = '\r' ∧ ∃ cs', cs = '\n' :: cs')) : splitlinesFrom cur (c :: cs) =
      if isBreak c then (cur.reverse ++ [c]) :: splitlinesFrom [] cs
      else splitlinesFrom (c :: cur) cs := by
  rw [splitlinesFrom]
  rintro cs' rfl
  intro h'
  exact h ⟨rfl, cs', h'⟩

/-- Nothing is lost or reordered by splitting into lines. -/
theorem splitlinesFrom_flatten (cur t : Str) :
    (splitlinesFrom cur t).flatten = cur.reverse ++ t := by
  fun_induction splitlinesFrom cur t with
  | case1 => rfl
  | case2 => simp
  | case3 cur cs ih => simp [ih]
  | case4 cur c cs _ h ih => simp [ih]
  | case5 cur c cs _ h ih => simp [ih]

/-- A newline ends a line. -/
theorem splitlinesFrom_append (cur l t : Str) :
    splitlinesFrom cur (l ++ '\n' :: t) = splitlinesFrom cur (l ++ ['\n']) ++ splitlines t := by
  unfold splitlines
  fun_induction splitlinesFrom cur l with
  | case1 => simp [splitlinesFrom, isBreak]
  | case2 cur h => simp [splitlinesFrom, isBreak]
  | case3 cur cs ih => simp [splitlinesFrom_cr_nl, ih]
  | case4 cur c cs hne h ih =>
    by_cases hr : c = '\r'
    · subst hr
      cases cs with
      | nil => simp [splitlinesFrom_cr_nl, splitlinesFrom]
      | cons d cs =>
        have hd : d ≠ '\n' := by rintro rfl; exact hne cs rfl rfl
        have e : ∀ x, ¬ ('\r' = '\r' ∧ ∃ cs', d :: cs ++ x = '\n' :: cs') := by
          rintro x ⟨-, cs', hc⟩; exact hd (List.cons.inj hc).1
        have e1 := splitlinesFrom_cons cur (e ('\n' :: t))
        have e2 := splitlinesFrom_cons cur (e ['\n'])
        rw [if_pos h] at e1 e2
        rw [List.cons_append (as := d :: cs), List.cons_append (as := d :: cs), e1, e2, ih]
        rfl
    · rw [List.cons_append, List.cons_append, splitlinesFrom_cons _ (fun hh => hr hh.1),
        splitlinesFrom_cons _ (fun hh => hr hh.1), if_pos h, if_pos h, ih, List.cons_append]
  | case5 cur c cs hne h ih =>
    have hr : c ≠ '\r' := by rintro rfl; exact h (by decide)
    rw [List.cons_append, List.cons_append, splitlinesFrom_cons _ (fun hh => hr hh.1),
      splitlinesFrom_cons _ (fun hh => hr hh.1), if_neg h, if_neg h, ih]

/-- Each line of `splitlines`, indented. -/
def indentLines (pre : Str) (ls : List Str) : Str :=
  (ls.map fun l => if l.all isSpace then l else pre ++ l).flatten

theorem isSpace_of_isBreak {c : Char} (h : isBreak c = true) : isSpace c = true := by
  unfold isBreak at h
  unfold isSpace
  simp only [List.mem_cons, List.not_mem_nil, or_false, decide_eq_true_eq] at h ⊢
  tauto

theorem all_space_append {a b : Str} (h : b.all isSpace = true) :
    (a ++ b).all isSpace = a.all isSpace := by rw [List.all_append, h, Bool.and_true]

/-- The newline at the end of a line is not affected by indentation. -/
theorem indent_newline (pre cur l : Str) (hl : '\n' ∉ l) :
    indentLines pre (splitlinesFrom cur (l ++ ['\n'])) =
      indentLines pre (splitlinesFrom cur l) ++ ['\n'] := by
  have hnl : isSpace '\n' = true := by decide
  fun_induction splitlinesFrom cur l with
  | case1 => simp [splitlinesFrom, isBreak, indentLines, hnl]
  | case2 cur h =>
    have h1 : splitlinesFrom cur ([] ++ ['\n']) = [cur.reverse ++ ['\n']] := by
      rw [List.nil_append, splitlinesFrom_cons _ (by simp), if_pos (by decide)]
      rfl
    rw [h1]
    simp only [indentLines, List.map_cons, List.map_nil, List.flatten_cons, List.flatten_nil,
      List.append_nil]
    rw [all_space_append (by simp [hnl])]
    split <;> simp
  | case3 cur cs ih => simp at hl
  | case4 cur c cs hne h ih =>
    have hl' : '\n' ∉ cs := fun hh => hl (by simp [hh])
    have hcs : ∀ x y : Str, indentLines pre ((x : Str) :: splitlinesFrom [] y) =
      (if x.all isSpace then x else pre ++ x) ++ indentLines pre (splitlinesFrom [] y) := by
      intro x y; simp [indentLines]
    by_cases hr : c = '\r'
    · subst hr
      cases cs with
      | nil =>
        have h1 : splitlinesFrom cur (['\r'] ++ ['\n']) = [cur.reverse ++ ['\r', '\n']] := by
          show splitlinesFrom cur ('\r' :: '\n' :: []) = _
          rw [splitlinesFrom_cr_nl]; rfl
        rw [h1]
        simp only [splitlinesFrom, indentLines, if_true, List.map_cons, List.map_nil,
          List.flatten_cons, List.flatten_nil, List.append_nil]
        rw [all_space_append (by decide), all_space_append (by decide)]
        split <;> simp
      | cons d cs =>
        have hd : d ≠ '\n' := by rintro rfl; simp at hl'
        have e : ¬ ('\r' = '\r' ∧ ∃ cs', d :: (cs ++ ['\n']) = '\n' :: cs') := by
          rintro ⟨-, cs', hc⟩; exact hd (List.cons.inj hc).1
        have := ih hl'
        simp only [List.cons_append] at this ⊢
        rw [splitlinesFrom_cons _ e, if_pos h, hcs, hcs, this, List.append_assoc]
    · have := ih hl'
      rw [List.cons_append, splitlinesFrom_cons _ (fun hh => hr hh.1), if_pos h, hcs, hcs, this,
        List.append_assoc]
  | case5 cur c cs hne h ih =>
    have hr : c ≠ '\r' := by rintro rfl; exact h (by decide)
    rw [List.cons_append, splitlinesFrom_cons _ (fun hh => hr hh.1), if_neg h]
    exact ih (fun hh => hl (by simp [hh]))

theorem indent_cons_line (pre : Str) {l : Str} (hl : '\n' ∉ l) (t : Str) :
    indent (l ++ '\n' :: t) pre = indent l pre ++ '\n' :: indent t pre := by
  have h1 : indent (l ++ '\n' :: t) pre =
      indentLines pre (splitlinesFrom [] (l ++ ['\n'])) ++ indent t pre := by
    unfold indent
    rw [splitlines, splitlinesFrom_append]
    simp [indentLines, splitlines]
  rw [h1, indent_newline pre [] l hl, List.append_assoc]
  rfl

/-- Indentation does not add newlines. -/
theorem indent_no_newline {pre : Str} (hp : '\n' ∉ pre) {l : Str} (hl : '\n' ∉ l) :
    '\n' ∉ indent l pre := by
  intro h
  unfold indent at h
  obtain ⟨x, hx, hn⟩ := List.mem_flatten.1 h
  obtain ⟨p, hp', rfl⟩ := List.mem_map.1 hx
  have hsub : ∀ c ∈ p, c ∈ l := by
    intro c hc
    have : c ∈ (splitlines l).flatten := List.mem_flatten.2 ⟨p, hp', hc⟩
    rwa [splitlines, splitlinesFrom_flatten] at this
  split at hn
  · exact hl (hsub _ hn)
  · rcases List.mem_append.1 hn with hn | hn
    · exact hp hn
    · exact hl (hsub _ hn)

theorem lines_indent_unlines {pre : Str} (hp : '\n' ∉ pre) : ∀ {ls : List Str}, ls ≠ [] →
    (∀ l ∈ ls, '\n' ∉ l) → lines (indent (unlines ls) pre) = ls.map (indent · pre)
  | [], h, _ => absurd rfl h
  | [l], _, h => by
    simp only [unlines, List.map_cons, List.map_nil]
    exact lines_of_no_newline (indent_no_newline hp (h l (by simp)))
  | l :: l' :: ls, _, h => by
    show lines (indent (l ++ '\n' :: unlines (l' :: ls)) pre) = _
    rw [indent_cons_line pre (h l (by simp)),
      lines_append_newline (indent_no_newline hp (h l (by simp))),
      lines_indent_unlines hp (ls := l' :: ls) (by simp) (fun x hx => h x (by simp [hx]))]
    rfl

/-- Indentation works line by line. -/
theorem lines_indent {pre : Str} (hp : '\n' ∉ pre) (t : Str) :
    lines (indent t pre) = (lines t).map (indent · pre) := by
  have := lines_indent_unlines hp (lines_ne_nil t) (lines_no_newline t)
  rwa [unlines_lines] at this

/-- A line without further line boundaries: indented unless it is only white space. -/
theorem indent_plain (pre : Str) {l : Str} (h : ∀ c ∈ l, isBreak c = false) :
    indent l pre = if l.all isSpace then l else pre ++ l := by
  have key : ∀ (l cur : Str), (∀ c ∈ l, isBreak c = false) → cur.reverse ++ l ≠ [] →
      splitlinesFrom cur l = [cur.reverse ++ l] := by
    intro l
    induction l with
    | nil =>
      intro cur _ hne
      have : cur ≠ [] := by rintro rfl; simp at hne
      simp [splitlinesFrom, this]
    | cons c l ih =>
      intro cur hb _
      have hc : isBreak c = false := hb c (by simp)
      have hr : c ≠ '\r' := by rintro rfl; exact absurd hc (by decide)
      rw [splitlinesFrom_cons _ (fun hh => hr hh.1), if_neg (by simp [hc]),
        ih (c :: cur) (fun c h => hb c (by simp [h])) (by simp)]
      simp
  cases l with
  | nil => simp [indent, splitlines, splitlinesFrom]
  | cons c l =>
    unfold indent splitlines
    rw [key (c :: l) [] h (by simp)]
    simp

/-! ### The property -/

/-- C52, context.  The message starts with the dedented context and a newline. -/
theorem C52_context_on_top (message context : Str) :
    dedent context ++ ['\n'] <+: formatErrorMessage message context :=
  ⟨indent (dedent message) "    ".toList, rfl⟩

/-- C52, message.  Below the lines of the context come the lines of the message, as many as there
were.  With `w` the common margin of the message: a line with a visible character (and no exotic line
boundary in it) stands there without the margin and indented by four spaces. -/
theorem C52_message_indented (message context : Str) :
    ∃ w, IsMargin (lines message) w ∧
      (lines (formatErrorMessage message context)).length =
        (lines context).length + (lines message).length ∧
      ∀ i l, (lines message)[i]? = some l → (∃ c ∈ l, isSpace c = false) →
        (∀ c ∈ l, isBreak c = false) →
        ∃ l', l = w ++ l' ∧
          (lines (formatErrorMessage message context))[(lines context).length + i]? =
            some ("    ".toList ++ l') := by
  obtain ⟨wc, -, hc⟩ := C52_dedent context
  obtain ⟨w, hw, hm⟩ := C52_dedent message
  have hl : lines (formatErrorMessage message context) =
      lines (dedent context) ++ (lines (dedent message)).map (indent · "    ".toList) := by
    unfold formatErrorMessage
    simp only
    rw [← lines_indent (by decide), ← lines_append]
    simp
  refine ⟨w, hw, ?_, fun i l hi ⟨c, hcl, hcs⟩ hbr => ?_⟩
  · rw [hl, List.length_append, List.length_map, hc.length_eq, hm.length_eq]
  · have hs : Solid l := ⟨c, hcl, by rintro rfl; exact absurd hcs (by decide),
      by rintro rfl; exact absurd hcs (by decide)⟩
    obtain ⟨hil, hi'⟩ := List.getElem?_eq_some_iff.1 hi
    have hil' : i < (lines (dedent message)).length := by rw [← hm.length_eq]; exact hil
    have h2 := ((List.forall₂_iff_get.1 hm).2 i hil hil').1
    simp only [List.get_eq_getElem, hi'] at h2
    have h3 := h2 hs
    refine ⟨_, h3, ?_⟩
    rw [hl, hc.length_eq, List.getElem?_append_right (Nat.le_add_right _ _), Nat.add_sub_cancel_left,
      List.getElem?_map, List.getElem?_eq_getElem hil', Option.map_some,
      indent_plain _ (fun c hc => hbr c (by rw [h3]; simp [hc])), if_neg]
    intro hall
    rw [List.all_eq_true] at hall
    rw [h3] at hcl
    rcases List.mem_append.1 hcl with hcl | hcl
    · rcases hw.blank c hcl with rfl | rfl <;> exact absurd hcs (by decide)
    · rw [hall c hcl] at hcs; cases hcs

/-- C52, lines in the sense of `str.splitlines` (which knows more line boundaries than the newline):
each of them that is not blank appears in the message with four spaces in front. -/
theorem C52_every_line_indented (message context : Str) (l : Str)
    (hl : l ∈ splitlines (dedent message)) (hc : ∃ c ∈ l, isSpace c = false) :
    "    ".toList ++ l <:+: formatErrorMessage message context := by
  have hn : ¬ l.all isSpace = true := by
    obtain ⟨c, h1, h2⟩ := hc
    intro h
    rw [List.all_eq_true] at h
    rw [h c h1] at h2; cases h2
  obtain ⟨a, b, hab⟩ := List.append_of_mem hl
  refine ⟨dedent context ++ ['\n'] ++ indentLines "    ".toList a, indentLines "    ".toList b, ?_⟩
  unfold formatErrorMessage indent
  simp only
  rw [hab]
  simp only [indentLines, List.map_append, List.map_cons, List.flatten_append, List.flatten_cons,
    if_neg hn, List.append_assoc]
  rfl

/-- `str.splitlines` loses nothing. -/
theorem C52_splitlines_flatten (t : Str) : (splitlines t).flatten = t := by
  unfold splitlines; rw [splitlinesFrom_flatten]; rfl

section Example

/-- An indented two line message under an indented context. -/
example : formatErrorMessage "  first\n    second\n  \n  third".toList "    While testing".toList =
    "While testing\n    first\n      second\n\n    third".toList := by decide +kernel

/-- Tabs and spaces are not mixed up: no common margin. -/
example : dedent "\ta\n  b".toList = "\ta\n  b".toList ∧ dedent "  \ta\n  b".toList = "\ta\nb".toList := by
  decide +kernel

end Example
end JaxAct.Text
