import Verif.Shared.Steps
/-
C41: reference-counted objects are destroyed exactly once, when their last owner goes.
-/
namespace H2.Shared

/-- The objects given to shared pointers in a history. -/
def created (ops : List Op) : List Nat := ops.filterMap fun op => match op with | .make o _ => some o | _ => none

/-- C41: no history of construction, copy, assignment, reset and destruction uses a freed counter or
deletes an object twice. -/
theorem C41_defined {ops : List Op} {s : State} (r : Run ops s) {op : Op} (hv : Valid s op) :
    ∃ s', s.step op = some s' ∧ Run (ops ++ [op]) s' := by
  obtain ⟨s', e, _⟩ := step_good r.good hv
  exact ⟨s', e, r.step (by cases op <;> exact hv) e⟩

/-- C41: each pointer owns what the program gave it: assignments and copies share, reset drops. -/
theorem C41_owners {ops : List Op} {s : State} (r : Run ops s) : s.handles.map (·.px) = ops.foldl own [] := r.owners

/-- C41: an object is alive exactly while some pointer owns it. -/
theorem C41_alive {ops : List Op} {s : State} (r : Run ops s) (o : Nat) : o ∈ s.objects ↔ some o ∈ ops.foldl own [] := by
  rw [← r.owners]
  have g := r.good
  constructor
  · intro h
    obtain ⟨p, hp, e⟩ := g.owned o h
    exact List.mem_map.2 ⟨p, hp, e⟩
  · intro h
    obtain ⟨p, hp, e⟩ := List.mem_map.1 h
    rcases g.shape p hp with ⟨a, _⟩ | ⟨o', _, _, a, _, _, d⟩
    · rw [a] at e; cases e
    · rw [a] at e; cases e; exact d

theorem created_iff {ops : List Op} {s : State} (r : Run ops s) (o : Nat) :
    o ∈ created ops ↔ o ∈ s.objects ∨ o ∈ s.deleted := by
  induction r with
  | start => simp [created]
  | @step ops s s' op r hv hs ih =>
    have hv' : Valid s op := by cases op <;> exact hv
    obtain ⟨s'', e, g', hown, eff⟩ := step_good r.good hv'
    rw [hs] at e
    cases e
    have r' : Run (ops ++ [op]) s' := r.step hv hs
    have ha := C41_alive r o
    have ha' := C41_alive r' o
    rw [← r.owners] at ha
    rw [← r'.owners] at ha'
    have hc : o ∈ created (ops ++ [op]) ↔ o ∈ created ops ∨ ∃ m, op = .make o m := by
      unfold created
      rw [List.filterMap_append, List.mem_append]
      refine or_congr_right ?_
      cases op <;> simp [List.filterMap]
      constructor <;> exact Eq.symm
    rw [hc, ih]
    have key : ∀ o', (∃ h ∈ s'.handles, h.px = some o') ↔ o' ∈ s'.objects := by
      intro o'
      have := C41_alive r' o'
      rw [← r'.owners] at this
      rw [this, List.mem_map]
    have key0 : ∀ o', (∃ h ∈ s.handles, h.px = some o') ↔ o' ∈ s.objects := by
      intro o'
      have := C41_alive r o'
      rw [← r.owners] at this
      rw [this, List.mem_map]
    -- objects owned after are owned before or made now
    have hnew : o ∈ s'.objects → o ∈ s.objects ∨ ∃ m, op = .make o m := by
      intro h
      rw [ha', hown] at h
      rw [ha]
      cases op with
      | make o' m =>
        rcases List.mem_append.1 h with x | x
        · exact .inl x
        · right; refine ⟨m, ?_⟩; have : o = o' := by simpa using x
          rw [this]
      | null =>
        rcases List.mem_append.1 h with x | x
        · exact .inl x
        · simp at x
      | copy j =>
        rcases List.mem_append.1 h with x | x
        · exact .inl x
        · left
          have x : some o = ((s.handles.map (·.px))[j]?).getD none := by simpa using x
          cases hj : (s.handles.map (·.px))[j]? with
          | none => rw [hj] at x; cases x
          | some y => rw [hj] at x; rw [x]; exact List.mem_of_getElem? hj
      | assign i j =>
        rcases List.mem_or_eq_of_mem_set h with x | x
        · exact .inl x
        · left
          cases hj : (s.handles.map (·.px))[j]? with
          | none => rw [hj] at x; cases x
          | some y => rw [hj] at x; rw [x]; exact List.mem_of_getElem? hj
      | reset i =>
        rcases List.mem_or_eq_of_mem_set h with x | x
        · exact .inl x
        · cases x
      | destroy i => exact .inl (List.mem_of_mem_eraseIdx h)
    have hmade : (∃ m, op = .make o m) → o ∈ s'.objects := by
      rintro ⟨m, rfl⟩
      rw [ha', hown]
      exact List.mem_append_right _ (by simp)
    rcases eff with ⟨hd, hk⟩ | ⟨d, hd, hb, haf, hk⟩
    · constructor
      · rintro ((x | x) | x)
        · obtain ⟨h, hh, e⟩ := (key0 o).2 x
          exact .inl ((key o).1 (hk h hh o e))
        · right; rw [hd]; exact x
        · exact .inl (hmade x)
      · rintro (x | x)
        · rcases hnew x with y | y
          · exact .inl (.inl y)
          · exact .inr y
        · rw [hd] at x; exact .inl (.inr x)
    · constructor
      · rintro ((x | x) | x)
        · by_cases ho : o = d
          · right; rw [hd, ho]; simp
          · obtain ⟨h, hh, e⟩ := (key0 o).2 x
            exact .inl ((key o).1 (hk h hh o ho e))
        · right; rw [hd]; exact List.mem_append_left _ x
        · exact .inl (hmade x)
      · rintro (x | x)
        · rcases hnew x with y | y
          · exact .inl (.inl y)
          · exact .inr y
        · rw [hd] at x
          rcases List.mem_append.1 x with y | y
          · exact .inl (.inr y)
          · have : o = d := by simpa using y
            subst this
            exact .inl (.inl ((key0 o).1 hb))

/-- C41: an object is deleted at most once, and the objects deleted are exactly those handed over
that nobody owns any more. -/
theorem C41_once {ops : List Op} {s : State} (r : Run ops s) :
    s.deleted.Nodup ∧ ∀ o, o ∈ s.deleted ↔ (o ∈ created ops ∧ some o ∉ ops.foldl own []) := by
  refine ⟨r.good.delNodup, fun o => ?_⟩
  have h1 := created_iff r o
  have h2 := C41_alive r o
  constructor
  · intro h
    exact ⟨h1.2 (.inr h), fun e => r.good.disj o (h2.2 e) h⟩
  · intro ⟨h, hn⟩
    rcases h1.1 h with x | x
    · exact absurd (h2.1 x) hn
    · exact x

/-- C41: an object is deleted by the very operation that takes away its last owner, and by no other. -/
theorem C41_when {ops : List Op} {s s' : State} {op : Op} (r : Run ops s) (hv : Valid s op) (hs : s.step op = some s') (o : Nat) :
    (o ∈ s'.deleted ∧ o ∉ s.deleted) ↔ (some o ∈ ops.foldl own [] ∧ some o ∉ (ops ++ [op]).foldl own []) := by
  have r' : Run (ops ++ [op]) s' := r.step (by cases op <;> exact hv) hs
  have h := (C41_once r).2 o
  have h' := (C41_once r').2 o
  have c := created_iff r o
  have a := C41_alive r o
  have hsub : o ∈ created ops → o ∈ created (ops ++ [op]) := by
    intro x; unfold created; rw [List.filterMap_append]; exact List.mem_append_left _ x
  have hnot : o ∈ created (ops ++ [op]) → o ∈ created ops ∨ some o ∈ (ops ++ [op]).foldl own [] := by
    intro x
    unfold created at x
    rw [List.filterMap_append] at x
    rcases List.mem_append.1 x with y | y
    · exact .inl y
    · right
      rw [List.foldl_append]
      show _ ∈ own (ops.foldl own []) op
      cases op with
      | make o' m =>
        have : o = o' := by simpa using y
        subst this
        exact List.mem_append_right _ (by simp)
      | _ => simp [List.filterMap] at y
  constructor
  · intro ⟨x, y⟩
    obtain ⟨x1, x2⟩ := h'.1 x
    refine ⟨?_, x2⟩
    rcases hnot x1 with z | z
    · exact Classical.byContradiction fun hn => y (h.2 ⟨z, hn⟩)
    · exact absurd z x2
  · intro ⟨x, y⟩
    refine ⟨h'.2 ⟨hsub (c.2 (.inl (a.2 x))), y⟩, fun z => (h.1 z).2 x⟩

/-- C41: a pointer tests true exactly if it owns an object. -/
theorem C41_bool {ops : List Op} {s : State} (r : Run ops s) (p : Ptr) (hp : p ∈ s.handles) : s.isSet p = true ↔ ∃ o, p.px = some o := by
  have g := r.good
  rcases g.shape p hp with ⟨a, b⟩ | ⟨o, n, v, a, b, c, _⟩
  · simp [State.isSet, a, b]
  · have hv := (g.val _ c).2
    simp only [State.isSet, b, g.value c, a]
    simp only at hv
    simp [hv]

/-- C41: once every pointer is gone, every object handed over has been deleted and every counter has
been released. -/
theorem C41_end {ops : List Op} {s : State} (r : Run ops s) (h : s.handles = []) :
    s.counters = [] ∧ s.objects = [] ∧ ∀ o, o ∈ created ops ↔ o ∈ s.deleted := by
  have g := r.good
  have hc : s.counters = [] := by
    cases hc : s.counters with
    | nil => rfl
    | cons c cs =>
      have := g.val c (by rw [hc]; exact List.mem_cons_self ..)
      rw [h] at this
      simp at this
      omega
  have ho : s.objects = [] := by
    cases ho : s.objects with
    | nil => rfl
    | cons o os =>
      obtain ⟨p, hp, _⟩ := g.owned o (by rw [ho]; exact List.mem_cons_self ..)
      rw [h] at hp
      cases hp
  refine ⟨hc, ho, fun o => ?_⟩
  rw [created_iff r o, ho]
  simp

/-- Two owners, self-assignment, then both go: the object is deleted once, at the end. -/
def sample : List Op := [.make 100 1, .copy 0, .assign 0 0, .null, .assign 2 1, .reset 0, .destroy 1, .make 200 2, .assign 1 2]

theorem sample_run : ∃ s, Run sample s ∧ s.deleted = [100] ∧ s.handles.length = 3 := by
  refine ⟨_, ((((((((Run.start.step (op := .make 100 1) ?_ rfl).step (op := .copy 0) ?_ rfl).step (op := .assign 0 0) ?_ rfl).step (op := .null) ?_ rfl).step
    (op := .assign 2 1) ?_ rfl).step (op := .reset 0) ?_ rfl).step (op := .destroy 1) ?_ rfl).step (op := .make 200 2) ?_ rfl).step (op := .assign 1 2) ?_ rfl, ?_, ?_⟩
  all_goals first | decide | rfl | exact trivial | skip

example : some 200 ∈ sample.foldl own [] ∧ some 100 ∉ sample.foldl own [] := by decide

/-- A complete life: everything destroyed at the end. -/
example : ∃ s, Run [.make 100 1, .copy 0, .destroy 0, .destroy 0] s ∧ s.handles = [] ∧ s.deleted = [100] := by
  refine ⟨_, (((Run.start.step (op := .make 100 1) ?_ rfl).step (op := .copy 0) ?_ rfl).step (op := .destroy 0) ?_ rfl).step (op := .destroy 0) ?_ rfl, ?_, ?_⟩
  all_goals first | decide | rfl

end H2.Shared
