import Verif.Model.Heap

/-! # What an object on the heap looks like from outside

Everything that can be read from an object by following its references.  The result is `none` when
a reference leads to an object of the wrong kind. -/

namespace JaxAct.Mem
variable {α : Type}

/-- The pytree a dictionary value stands for. -/
def viewTree (h : Heap α) : Val → Option (PyTree (Leaf α))
  | none => some .none
  | some r =>
    match h[r]? with
    | some (.tree t) => some t
    | _ => none

/-- The contents of a dictionary. -/
def viewEntries (h : Heap α) : Dict Val → Option (Dict (PyTree (Leaf α)))
  | [] => some []
  | (k, v) :: d =>
    match viewTree h v, viewEntries h d with
    | some t, some e => some ((k, t) :: e)
    | _, _ => none

/-- A dictionary. -/
def viewDict (h : Heap α) (r : Ref) : Option (Dict (PyTree (Leaf α))) :=
  match h[r]? with
  | some (.dict d) => viewEntries h d
  | _ => none

/-- A state with its dictionaries. -/
def viewState (h : Heap α) (r : Ref) : Option (ACTStates α) :=
  match h[r]? with
  | some (.state s) =>
    match viewDict h s.defaults, viewDict h s.accumulators, viewDict h s.updates with
    | some d, some a, some u =>
      some { epsilon := s.epsilon
             iterations := s.iterations
             residuals := s.residuals
             probabilities := s.probabilities
             defaults := d
             accumulators := a
             updates := u
             depression_constant := s.depression_constant
             error_mode := s.error_mode }
    | _, _, _ => none
  | _ => none

/-- A controller, builder, viewer or editor: its class and its state. -/
def view (h : Heap α) (r : Ref) : Option (Cls × ACTStates α) :=
  match h[r]? with
  | some (.obj c (some st)) => (viewState h st).map (c, ·)
  | _ => none

end JaxAct.Mem
