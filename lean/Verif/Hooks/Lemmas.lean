import Verif.Hooks.Spec
namespace H2.Hooks
open Spec

/-! ### The arrays -/

theorem append_at (l : List Nat) (n : Nat) (f : Nat) (r : List (Option Nat)) (hr : r = List.replicate n none) :
    append (l.map some ++ r) f = if n ≤ 1 then l.map some ++ r else (l ++ [f]).map some ++ List.replicate (n - 1) none := by
  subst hr
  induction l with
  | nil =>
    match n with
    | 0 => rfl
    | 1 => rfl
    | n + 2 => rw [if_neg (by omega)]; rfl
  | cons g l ih =>
    rw [List.map_cons, List.cons_append, append, ih]
    · split
      · rfl
      · rfl
    
theorem foldl_append (fs : List Nat) (l : List Nat) (n : Nat) :
    fs.foldl append (l.map some ++ List.replicate (n + 1) none) = (l ++ fs.take n).map some ++ List.replicate (n + 1 - (fs.take n).length) none := by
  induction fs generalizing l n with
  | nil => simp
  | cons f fs ih =>
    rw [List.foldl_cons, append_at l (n + 1) f _ rfl]
    cases n with
    | zero => rw [if_pos (by omega), ih]; simp
    | succ n =>
      rw [if_neg (by omega), show n + 1 + 1 - 1 = n + 1 by omega, ih, List.take_succ_cons, List.append_assoc]
      simp

theorem called_map (l : List Nat) (n : Nat) : called (l.map some ++ List.replicate n none) = l := by
  induction l with
  | nil => cases n <;> rfl
  | cons f l ih => rw [List.map_cons, List.cons_append, called, ih]

theorem called_register (fs : List Nat) : called (register fs) = fs.take 1023 := by
  have := foldl_append fs [] 1023
  unfold register empty
  rw [show (List.replicate 1024 (none : Option Nat)) = List.map some [] ++ List.replicate (1023 + 1) none from rfl, this, called_map, List.nil_append]

/-! ### The trace -/

/-- What is added to the trace, if the outcome is defined. -/
def Adds (o : Outcome) (st : State) (es : List Event) : Prop := ∀ st', o = .going st' → st'.trace = st.trace ++ es

theorem adds_bind {o : Outcome} {k : State → Outcome} {st : State} {a b : List Event} (h : Adds o st a) (g : ∀ st', Adds (k st') st' b) :
    Adds (o.bind k) st (a ++ b) := by
  intro st' e
  cases o with
  | undefined s => exact nomatch e
  | going s =>
    rw [g s st' e, h s rfl, List.append_assoc]

theorem adds_failing (w : World) (e : Event) (st : State) : Adds (failing w e st) st [] := by
  intro st' h
  unfold failing at h
  rw [List.append_nil]
  split at h
  · rw [← Outcome.going.inj h]
  · split at h
    · rw [← Outcome.going.inj h]
    · exact nomatch h

theorem adds_call (w : World) (e : Event) (st : State) : Adds (call w e st) st [e] := by
  intro st' h
  unfold call at h
  simp only at h
  split at h
  · rw [adds_failing w e _ st' h, List.append_nil]
  · rw [← Outcome.going.inj h]

theorem adds_calls (w : World) (kind : Nat → Event) (fs : List Nat) (st : State) : Adds (calls w kind fs st) st (fs.map kind) := by
  induction fs generalizing st with
  | nil => intro st' h; rw [← Outcome.going.inj h]; exact (List.append_nil _).symm
  | cons f fs ih => exact adds_bind (adds_call w (kind f) st) ih

theorem adds_each {α : Type} (f : α → State → Outcome) (out : α → List Event) (h : ∀ x st, Adds (f x st) st (out x)) (l : List α) (st : State) :
    Adds (each f l st) st (l.flatMap out) := by
  induction l generalizing st with
  | nil => intro st' h; rw [← Outcome.going.inj h]; exact (List.append_nil _).symm
  | cons x xs ih => rw [List.flatMap_cons]; exact adds_bind (h x st) ih

theorem adds_note {o : State → Outcome} {b : List Event} {e : Event} (g : ∀ st', Adds (o st') st' b) (st : State) : Adds (o (st.note e)) st (e :: b) := by
  intro st' h
  rw [g _ st' h]
  show st.trace ++ [e] ++ b = _
  rw [List.append_assoc]
  rfl

theorem adds_collect (a : Arrays) (w : World) (s : Nat) (st : State) :
    Adds (collect a w s st) st (around ((called a.suiteSetups).map .suiteSetup) [.collect s] ((called a.suiteCleanups).map .suiteCleanup)) := by
  unfold around
  rw [List.append_assoc]
  exact adds_bind (adds_calls w _ _ st) fun st' => adds_note (adds_calls w _ _) st'

theorem adds_runCase (a : Arrays) (w : World) (s : Nat) (c : Nat × Bool) (st : State) :
    Adds (runCase a w s c st) st (if c.2 then around ((called a.caseSetups).map .caseSetup) [.test s c.1] ((called a.caseCleanups).map .caseCleanup) else []) := by
  unfold runCase
  simp only
  split
  · unfold around
    rw [List.append_assoc]
    refine adds_bind (fun st' h => ?_) fun st' => adds_note (adds_calls w _ _) st'
    exact adds_calls w _ _ { st with current := some (s, c.1) } st' h
  · intro st' h
    rw [← Outcome.going.inj h]
    exact (List.append_nil _).symm

theorem adds_runCases (a : Arrays) (w : World) (s : Nat) (cs : List (Nat × Bool)) (st : State) :
    Adds (runCases a w s cs st) st ((cs.filter (·.2)).flatMap fun c =>
      around ((called a.caseSetups).map .caseSetup) [.test s c.1] ((called a.caseCleanups).map .caseCleanup)) := by
  induction cs generalizing st with
  | nil => intro st' h; rw [← Outcome.going.inj h]; exact (List.append_nil _).symm
  | cons c cs ih =>
    have h1 := adds_bind (adds_runCase a w s c st) ih
    cases e : c.2 with
    | true => rw [List.filter_cons_of_pos (by exact e), List.flatMap_cons]; rw [if_pos e] at h1; exact h1
    | false => rw [List.filter_cons_of_neg (by rw [e]; decide)]; rw [if_neg (by rw [e]; decide), List.nil_append] at h1; exact h1

theorem flatten_each (f : Nat × List (Nat × Bool) → List Event) (rounds : List (List (Nat × List (Nat × Bool)))) :
    rounds.flatten.flatMap f = rounds.flatMap fun r => r.flatMap f := by
  induction rounds with
  | nil => rfl
  | cons r rs ih => rw [List.flatten_cons, List.flatMap_append, ih, List.flatMap_cons]

theorem adds_main (a : Arrays) (w : World) (suites : List Nat) (rounds : List (List (Nat × List (Nat × Bool)))) :
    Adds (main a w suites rounds) {}
      (Globals.run ⟨called a.setups, called a.cleanups, called a.suiteSetups, called a.suiteCleanups, called a.caseSetups, called a.caseCleanups⟩ suites rounds) := by
  unfold Globals.run
  unfold around
  rw [List.append_assoc, List.append_assoc, flatten_each]
  refine adds_bind (adds_calls w _ _ _) fun st1 => adds_bind (adds_each _ _ (adds_collect a w) suites st1) fun st2 =>
    adds_bind (adds_each _ _ (fun r st => adds_each _ _ (fun s st => ?_) r st) rounds st2) fun st3 => adds_calls w _ _ st3
  unfold Globals.suite around
  rw [List.append_assoc]
  exact adds_bind (adds_calls w _ _ st) fun st' => adds_bind (adds_runCases a w s.1 s.2 st') fun st'' => adds_calls w _ _ st''

end H2.Hooks
