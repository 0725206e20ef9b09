import Verif.Lifetime.Spec
namespace H2.Lifetime

open Spec

theorem exec_append (a b : List Op) (st : State) : exec (a ++ b) st = exec b (exec a st) := List.foldl_append

theorem exec_one (op : Op) (st : State) : exec [op] st = step st op := rfl

theorem addStub_keeps (o : Owner) (f : Nat) (code : Code) (st : State) :
    (addStub o f code st).suite = st.suite ∧ (addStub o f code st).case_ = st.case_ ∧ (addStub o f code st).trace = st.trace ∧
    (addStub o f code st).mocks = st.mocks := by
  unfold addStub
  split <;> exact ⟨rfl, rfl, rfl, rfl⟩

theorem delStub_keeps (o : Owner) (f : Nat) (st : State) :
    (delStub o f st).suite = st.suite ∧ (delStub o f st).case_ = st.case_ ∧ (delStub o f st).trace = st.trace ∧
    (delStub o f st).mocks = st.mocks := by
  unfold delStub
  split <;> exact ⟨rfl, rfl, rfl, rfl⟩

theorem step_keeps (op : Op) (st : State) :
    (step st op).suite = st.suite ∧ (step st op).case_ = st.case_ ∧ (step st op).trace = st.trace := by
  cases op with
  | stub f g => exact ⟨(addStub_keeps _ _ _ _).1, (addStub_keeps _ _ _ _).2.1, (addStub_keeps _ _ _ _).2.2.1⟩
  | unstub f => exact ⟨(delStub_keeps _ _ _).1, (delStub_keeps _ _ _).2.1, (delStub_keeps _ _ _).2.2.1⟩
  | mock m f => exact ⟨(addStub_keeps _ _ _ _).1, (addStub_keeps _ _ _ _).2.1, (addStub_keeps _ _ _ _).2.2.1⟩

theorem exec_keeps (ops : List Op) (st : State) :
    (exec ops st).suite = st.suite ∧ (exec ops st).case_ = st.case_ ∧ (exec ops st).trace = st.trace := by
  induction ops generalizing st with
  | nil => exact ⟨rfl, rfl, rfl⟩
  | cons op ops ih =>
    obtain ⟨a, b, c⟩ := ih (step st op)
    obtain ⟨a', b', c'⟩ := step_keeps op st
    exact ⟨a.trans a', b.trans b', c.trans c'⟩

theorem owner_congr {a b : State} (h1 : a.suite = b.suite) (h2 : a.case_ = b.case_) : a.owner = b.owner := by
  unfold State.owner
  rw [h1, h2]

theorem exec_owner (ops : List Op) (st : State) : (exec ops st).owner = st.owner :=
  owner_congr (exec_keeps ops st).1 (exec_keeps ops st).2.1

/-- The lists of the owner `o` hold what is needed to come back to `base`. -/
structure Tracks (base : Nat → Code) (o : Owner) (rest : List Entry) (st : State) : Prop where
  others : (st.stubs.filter fun e => !decide (e.owner = o)) = rest
  saved : ∀ e ∈ st.stubs, e.owner = o → e.saved = base e.fn
  same : ∀ f, (∀ e ∈ st.stubs, e.owner = o → e.fn ≠ f) → st.calls f = base f

theorem Tracks.start {o : Owner} {st : State} (h : ∀ e ∈ st.stubs, e.owner ≠ o) : Tracks st.calls o st.stubs st where
  others := List.filter_eq_self.mpr fun e he => by simp [h e he]
  saved := fun e he ho => absurd ho (h e he)
  same := fun _ _ => rfl

theorem find_none {l : List Entry} {o : Owner} {f : Nat} (h : find l o f = none) : ∀ e ∈ l, e.owner = o → e.fn ≠ f := by
  intro e he ho hf
  have := List.find?_eq_none.mp h e he
  simp [ho, hf] at this

theorem find_some {l : List Entry} {o : Owner} {f : Nat} {e : Entry} (h : find l o f = some e) : e ∈ l ∧ e.owner = o ∧ e.fn = f := by
  refine ⟨List.mem_of_find?_eq_some h, ?_⟩
  simpa using List.find?_some h

theorem setCode_same (calls : Nat → Code) (f : Nat) (code : Code) : setCode calls f code f = code := if_pos rfl

theorem setCode_other (calls : Nat → Code) {f g : Nat} (code : Code) (h : g ≠ f) : setCode calls f code g = calls g := if_neg h

theorem addStub_calls (o : Owner) (f : Nat) (code : Code) (st : State) : (addStub o f code st).calls = setCode st.calls f code := by
  unfold addStub
  split <;> rfl

theorem Tracks.add {base : Nat → Code} {o : Owner} {rest : List Entry} {st : State} (h : Tracks base o rest st) (f : Nat) (code : Code) :
    Tracks base o rest (addStub o f code st) := by
  unfold addStub
  split
  · rename_i e he
    obtain ⟨h1, h2, h3⟩ := find_some he
    refine ⟨h.others, h.saved, fun g hg => ?_⟩
    have : g ≠ f := fun e' => hg _ h1 h2 (h3.trans e'.symm)
    exact (setCode_other _ _ this).trans (h.same g hg)
  · rename_i hn
    refine ⟨?_, fun e he ho => ?_, fun g hg => ?_⟩
    · show List.filter _ (_ :: _) = _
      rw [List.filter_cons_of_neg (by simp)]
      exact h.others
    · cases List.mem_cons.mp he with
      | inl e1 => subst e1; exact h.same f (find_none hn)
      | inr h1 => exact h.saved e h1 ho
    · have h1 : f ≠ g := hg _ List.mem_cons_self rfl
      exact (setCode_other _ _ (Ne.symm h1)).trans (h.same g fun e he => hg e (List.mem_cons_of_mem _ he))

theorem Tracks.del {base : Nat → Code} {o : Owner} {rest : List Entry} {st : State} (h : Tracks base o rest st) (f : Nat) :
    Tracks base o rest (delStub o f st) ∧ (delStub o f st).calls = setCode st.calls f (base f) := by
  unfold delStub
  split
  · rename_i e he
    obtain ⟨h1, h2, h3⟩ := find_some he
    have es : e.saved = base f := h3 ▸ h.saved e h1 h2
    refine ⟨⟨?_, fun x hx ho => ?_, fun g hg => ?_⟩, ?_⟩
    · rw [← h.others]
      show List.filter _ (List.filter _ _) = _
      rw [List.filter_filter]
      refine List.filter_congr fun x _ => ?_
      by_cases hx : x.owner = o <;> simp [hx]
    · exact h.saved x (List.mem_filter.mp hx).1 ho
    · show setCode _ _ _ g = _
      by_cases hgf : g = f
      · subst hgf; rw [setCode_same, es]
      · rw [setCode_other _ _ hgf]
        refine h.same g fun x hx ho hfn => ?_
        refine hg x (List.mem_filter.mpr ⟨hx, ?_⟩) ho hfn
        have : x.fn ≠ f := fun e' => hgf (hfn.symm.trans e')
        simp [this]
    · show setCode _ _ _ = _
      rw [es]
  · rename_i hn
    refine ⟨h, funext fun g => ?_⟩
    by_cases hgf : g = f
    · subst hgf; rw [setCode_same]; exact h.same g (find_none hn)
    · rw [setCode_other _ _ hgf]

theorem Tracks.congr {base : Nat → Code} {o : Owner} {rest : List Entry} {a b : State} (h : Tracks base o rest a) (h1 : b.stubs = a.stubs)
    (h2 : b.calls = a.calls) : Tracks base o rest b :=
  ⟨h1 ▸ h.others, h1 ▸ h.saved, h1 ▸ h2 ▸ h.same⟩

theorem Tracks.step {base : Nat → Code} {o : Owner} {rest : List Entry} {st : State} (h : Tracks base o rest st) (ho : st.owner = o) (op : Op) :
    Tracks base o rest (step st op) := by
  cases op with
  | stub f g => exact ho ▸ (ho.symm ▸ h).add f _
  | unstub f => exact ho ▸ ((ho.symm ▸ h).del f).1
  | mock m f =>
    subst ho
    have h' : Tracks base st.owner rest (addMock st.owner m st) := h.congr rfl rfl
    exact h'.add f _

theorem reaches_snoc (base : Nat → Code) (ops : List Op) (op : Op) (g : Nat) :
    reaches base (ops ++ [op]) g =
      if about op = g then (match op with | .stub _ g => .other g | .mock m _ => .mocker m | .unstub _ => base g)
      else reaches base ops g := by
  unfold reaches
  rw [List.reverse_append, List.reverse_singleton, List.singleton_append]
  by_cases h : about op = g
  · rw [if_pos h, List.find?_cons_of_pos (by simpa using h)]
    cases op <;> rfl
  · rw [if_neg h, List.find?_cons_of_neg (by simpa using h)]

theorem exec_tracks {base : Nat → Code} {o : Owner} {rest : List Entry} {st : State} (h : Tracks base o rest st) (hc : st.calls = base)
    (ho : st.owner = o) (ops : List Op) :
    Tracks base o rest (exec ops st) ∧ (exec ops st).calls = reaches base ops := by
  obtain ⟨r, er⟩ : ∃ r, r = ops.reverse := ⟨_, rfl⟩
  induction r generalizing ops with
  | nil =>
    have : ops = [] := List.reverse_eq_nil_iff.mp er.symm
    subst this
    exact ⟨h, hc⟩
  | cons op r ih =>
    have eo : ops = r.reverse ++ [op] := by
      rw [← List.reverse_reverse ops, ← er, List.reverse_cons]
    subst eo
    obtain ⟨h1, h2⟩ := ih r.reverse (List.reverse_reverse r).symm
    have ho' : (exec r.reverse st).owner = o := (exec_owner _ _).trans ho
    rw [exec_append, exec_one]
    refine ⟨h1.step ho' op, funext fun g => ?_⟩
    rw [reaches_snoc, ← h2]
    cases op with
    | stub f k =>
      show (addStub _ _ _ _).calls g = _
      rw [addStub_calls]
      by_cases hg : f = g
      · subst hg; exact (setCode_same _ _ _).trans (if_pos rfl).symm
      · exact (setCode_other _ _ (Ne.symm hg)).trans (if_neg hg).symm
    | unstub f =>
      show (delStub _ _ _).calls g = _
      rw [ho', (h1.del f).2]
      by_cases hg : f = g
      · subst hg; exact (setCode_same _ _ _).trans (if_pos rfl).symm
      · exact (setCode_other _ _ (Ne.symm hg)).trans (if_neg hg).symm
    | mock m f =>
      show (addStub _ _ _ _).calls g = _
      rw [addStub_calls]
      by_cases hg : f = g
      · subst hg; exact (setCode_same _ _ _).trans (if_pos rfl).symm
      · exact (setCode_other _ _ (Ne.symm hg)).trans (if_neg hg).symm

theorem foldl_restore (base : Nat → Code) (l : List Entry) (calls : Nat → Code) (h : ∀ e ∈ l, e.saved = base e.fn) (g : Nat)
    (hg : (∀ e ∈ l, e.fn ≠ g) → calls g = base g) :
    l.foldl (fun calls e => setCode calls e.fn e.saved) calls g = base g := by
  induction l generalizing calls with
  | nil => exact hg (by simp)
  | cons e l ih =>
    refine ih _ (fun x hx => h x (List.mem_cons_of_mem _ hx)) fun hn => ?_
    show setCode calls e.fn e.saved g = base g
    by_cases he : g = e.fn
    · subst he; rw [setCode_same]; exact h e List.mem_cons_self
    · rw [setCode_other _ _ he]
      refine hg fun x hx => ?_
      cases List.mem_cons.mp hx with
      | inl e1 => subst e1; exact Ne.symm he
      | inr h1 => exact hn x h1

theorem Tracks.clear {base : Nat → Code} {o : Owner} {rest : List Entry} {st : State} (h : Tracks base o rest st) :
    (clearStubs o st).calls = base ∧ (clearStubs o st).stubs = rest := by
  refine ⟨funext fun g => ?_, h.others⟩
  refine foldl_restore base _ _ (fun e he => ?_) g fun hn => ?_
  · have := List.mem_filter.mp he
    exact h.saved e this.1 (by simpa using this.2)
  · exact h.same g fun e he ho => hn e (List.mem_filter.mpr ⟨he, by simpa using ho⟩)

theorem clearStubs_none {o : Owner} {st : State} (h : ∀ e ∈ st.stubs, e.owner ≠ o) : clearStubs o st = st := by
  have h1 : (st.stubs.filter fun e => decide (e.owner = o)) = [] := List.filter_eq_nil_iff.mpr fun e he => by simp [h e he]
  have h2 : (st.stubs.filter fun e => !decide (e.owner = o)) = st.stubs := List.filter_eq_self.mpr fun e he => by simp [h e he]
  unfold clearStubs
  rw [h1, h2]
  rfl

theorem clearMocks_none {o : Owner} {st : State} (h : ∀ e ∈ st.mocks, e.1 ≠ o) : clearMocks o st = st := by
  have h2 : (st.mocks.filter fun e => !decide (e.1 = o)) = st.mocks := List.filter_eq_self.mpr fun e he => by simp [h e he]
  unfold clearMocks
  rw [h2]

/-- The mockers. -/
theorem step_mocks (op : Op) (st : State) :
    (step st op).mocks = match mockerOf op with
      | some m => (st.owner, m) :: st.mocks.filter fun p => !decide (p.2 = m)
      | none => st.mocks := by
  cases op with
  | stub f g => exact (addStub_keeps _ _ _ _).2.2.2
  | unstub f => exact (delStub_keeps _ _ _).2.2.2
  | mock m f => exact (addStub_keeps _ _ _ _).2.2.2

theorem eraseDups_filter (p : Nat → Bool) (l : List Nat) : (l.filter p).eraseDups = l.eraseDups.filter p := by
  obtain ⟨n, hn⟩ : ∃ n, l.length ≤ n := ⟨_, Nat.le_refl _⟩
  induction n generalizing l with
  | zero =>
    have : l = [] := List.length_eq_zero_iff.mp (Nat.le_zero.mp hn)
    subst this; rfl
  | succ n ih =>
    cases l with
    | nil => rfl
    | cons a l =>
      have hl : l.length ≤ n := Nat.le_of_succ_le_succ hn
      have hf : (l.filter fun b => !b == a).length ≤ n := Nat.le_trans (List.length_filter_le _ _) hl
      rw [List.eraseDups_cons]
      by_cases h : p a = true
      · rw [List.filter_cons_of_pos h, List.filter_cons_of_pos h, List.eraseDups_cons, ← ih _ hf, List.filter_filter, List.filter_filter]
        congr 2
        exact List.filter_congr fun x _ => Bool.and_comm _ _
      · rw [List.filter_cons_of_neg h, List.filter_cons_of_neg h, ← ih _ hf, List.filter_filter]
        congr 1
        refine List.filter_congr fun x _ => ?_
        by_cases hx : x = a
        · subst hx; simp [h]
        · simp [hx]

theorem mockers_snoc (ops : List Op) (op : Op) :
    mockers (ops ++ [op]) = match mockerOf op with
      | some m => m :: (mockers ops).filter fun x => !decide (x = m)
      | none => mockers ops := by
  unfold mockers
  rw [List.filterMap_append, List.reverse_append]
  cases e : mockerOf op with
  | none => simp [e]
  | some m =>
    simp only [List.filterMap_cons, e, List.filterMap_nil, List.reverse_cons, List.reverse_nil, List.nil_append, List.cons_append]
    rw [List.eraseDups_cons, eraseDups_filter]
    congr 1

theorem exec_mocks (o : Owner) (st : State) (ho : st.owner = o) (hn : ∀ q ∈ st.mocks, q.1 ≠ o) (ops : List Op) :
    mocksOf o (exec ops st) = mockers ops ∧
    ((exec ops st).mocks.filter fun p => !decide (p.1 = o)) = st.mocks.filter fun p => !(mockers ops).contains p.2 := by
  obtain ⟨r, er⟩ : ∃ r, r = ops.reverse := ⟨_, rfl⟩
  induction r generalizing ops with
  | nil =>
    have : ops = [] := List.reverse_eq_nil_iff.mp er.symm
    subst this
    have h1 : (st.mocks.filter fun p => decide (p.1 = o)) = [] := List.filter_eq_nil_iff.mpr fun e he => by simp [hn e he]
    refine ⟨?_, ?_⟩
    · show List.map _ (st.mocks.filter fun p => decide (p.1 = o)) = _
      rw [h1]; rfl
    · refine List.filter_congr fun x hx => ?_
      simp [hn x hx, mockers]
  | cons op r ih =>
    have eo : ops = r.reverse ++ [op] := by
      rw [← List.reverse_reverse ops, ← er, List.reverse_cons]
    subst eo
    obtain ⟨h1, h2⟩ := ih r.reverse (List.reverse_reverse r).symm
    have ho' : (exec r.reverse st).owner = o := (exec_owner _ _).trans ho
    rw [exec_append, exec_one]
    rw [mocksOf, step_mocks, mockers_snoc, ho']
    cases e : mockerOf op with
    | none => exact ⟨h1, h2⟩
    | some m =>
      simp only []
      refine ⟨?_, ?_⟩
      · rw [List.filter_cons_of_pos (by simp), List.map_cons, ← h1, mocksOf, List.filter_map, List.filter_filter, List.filter_filter]
        congr 2
        exact List.filter_congr fun x _ => Bool.and_comm _ _
      · rw [List.filter_cons_of_neg (by simp), List.filter_filter]
        have : ((exec r.reverse st).mocks.filter fun p => !decide (p.1 = o) && !decide (p.2 = m)) =
            ((exec r.reverse st).mocks.filter fun p => !decide (p.1 = o)).filter fun p => !decide (p.2 = m) := by
          rw [List.filter_filter]
          exact List.filter_congr fun x _ => Bool.and_comm _ _
        rw [this, h2, List.filter_filter]
        refine List.filter_congr fun x _ => ?_
        by_cases hx : x.2 = m
        · simp [hx]
        · simp [hx]

theorem exec_others {st : State} {o : Owner} (ho : st.owner = o) {others : Nat → Owner} (h : ∀ q ∈ st.mocks, ∀ c, q.1 ≠ others c)
    (hn : ∀ c, o ≠ others c) (ops : List Op) : ∀ q ∈ (exec ops st).mocks, ∀ c, q.1 ≠ others c := by
  induction ops generalizing st with
  | nil => exact h
  | cons op ops ih =>
    refine ih ((owner_congr (step_keeps op st).1 (step_keeps op st).2.1).trans ho) fun q hq => ?_
    rw [step_mocks] at hq
    cases e : mockerOf op with
    | none => rw [e] at hq; exact h q hq
    | some m =>
      rw [e] at hq
      cases List.mem_cons.mp hq with
      | inl e1 => subst e1; rw [ho]; exact hn
      | inr h' => exact h q (List.mem_filter.mp h').1

end H2.Lifetime
