import Verif.Shared.Lemmas
namespace H2.Shared

/-- The side condition of `Run.step`. -/
def Valid (s : State) : Op → Prop
  | .make o m => o ∉ s.objects ∧ o ∉ s.deleted ∧ (∀ c ∈ s.counters, c.1 ≠ m)
  | .null => True
  | .copy j => j < s.handles.length
  | .assign i j => i < s.handles.length ∧ j < s.handles.length
  | .reset i => i < s.handles.length
  | .destroy i => i < s.handles.length

/-- What deleting means: the objects gained by `deleted` are those no longer owned. -/
def Effect (s s' : State) : Prop :=
  (s'.deleted = s.deleted ∧ (∀ h ∈ s.handles, ∀ o, h.px = some o → ∃ h' ∈ s'.handles, h'.px = some o)) ∨
    ∃ o, s'.deleted = s.deleted ++ [o] ∧ (∃ h ∈ s.handles, h.px = some o) ∧ (∀ h ∈ s'.handles, h.px ≠ some o) ∧
      (∀ h ∈ s.handles, ∀ o', o' ≠ o → h.px = some o' → ∃ h' ∈ s'.handles, h'.px = some o')

theorem map_append_one (l : List Ptr) (p : Ptr) : (l ++ [p]).map (·.px) = l.map (·.px) ++ [p.px] := by simp

theorem map_getD {l : List Ptr} {j : Nat} {q : Ptr} (h : l[j]? = some q) : ((l.map (·.px))[j]?).getD none = q.px := by
  simp [h]

theorem map_eraseIdx' (l : List Ptr) (i : Nat) : (l.eraseIdx i).map (·.px) = (l.map (·.px)).eraseIdx i := by
  induction l generalizing i with
  | nil => rfl
  | cons x xs ih =>
    cases i with
    | zero => rfl
    | succ i => simp only [List.eraseIdx_cons_succ, List.map_cons, ih]

theorem step_good {s : State} (g : Good s.handles s) {op : Op} (hv : Valid s op) :
    ∃ s', s.step op = some s' ∧ Good s'.handles s' ∧ s'.handles.map (·.px) = own (s.handles.map (·.px)) op ∧ Effect s s' := by
  cases op with
  | make o m =>
    obtain ⟨h1, h2, h3⟩ := hv
    refine ⟨{ s with objects := o :: s.objects, counters := (m, 1) :: s.counters, handles := s.handles ++ [⟨some o, some m⟩] }, rfl, ?_, map_append_one .., .inl ⟨rfl, ?_⟩⟩
    · exact ((g.make h1 h2 h3).congr (t := { s with objects := o :: s.objects, counters := (m, 1) :: s.counters, handles := s.handles ++ [⟨some o, some m⟩] }) rfl rfl rfl).perm
        (List.perm_append_comm (l₁ := [(⟨some o, some m⟩ : Ptr)]))
    · intro h hh o' e
      exact ⟨h, List.mem_append_left _ hh, e⟩
  | null =>
    refine ⟨{ s with handles := s.handles ++ [{}] }, rfl, ?_, map_append_one .., .inl ⟨rfl, ?_⟩⟩
    · exact (g.null.congr (t := { s with handles := s.handles ++ [{}] }) rfl rfl rfl).perm (List.perm_append_comm (l₁ := [({} : Ptr)]))
    · intro h hh o' e
      exact ⟨h, List.mem_append_left _ hh, e⟩
  | copy j =>
    have hj : j < s.handles.length := hv
    have hq : s.handles[j]? = some s.handles[j] := List.getElem?_eq_getElem hj
    obtain ⟨s', e, g', hd, ho, hh⟩ := g.copy (List.getElem_mem hj)
    refine ⟨{ s' with handles := s'.handles ++ [s.handles[j]] }, ?_, ?_, ?_, .inl ⟨hd, ?_⟩⟩
    · simp only [State.step, hq, e, Option.map_some]
    · have g2 := g'.congr (t := { s' with handles := s'.handles ++ [s.handles[j]] }) rfl rfl rfl
      refine g2.perm ?_
      show (s.handles[j] :: s.handles).Perm (s'.handles ++ [s.handles[j]])
      rw [hh]
      exact List.perm_append_comm (l₁ := [s.handles[j]])
    · show (s'.handles ++ [s.handles[j]]).map (·.px) = _
      rw [map_append_one, hh]
      show _ = s.handles.map (·.px) ++ [((s.handles.map (·.px))[j]?).getD none]
      rw [map_getD hq]
    · intro h hm o' e
      exact ⟨h, List.mem_append_left _ (by rw [hh]; exact hm), e⟩
  | assign i j =>
    obtain ⟨hi, hj⟩ := hv
    have hp : s.handles[i]? = some s.handles[i] := List.getElem?_eq_getElem hi
    have hq : s.handles[j]? = some s.handles[j] := List.getElem?_eq_getElem hj
    obtain ⟨p, ep⟩ : ∃ p, s.handles[i] = p := ⟨_, rfl⟩
    obtain ⟨q, eq⟩ : ∃ q, s.handles[j] = q := ⟨_, rfl⟩
    rw [ep] at hp
    rw [eq] at hq
    have hqm : q ∈ s.handles := by rw [← eq]; exact List.getElem_mem hj
    have hpm : p ∈ s.handles := by rw [← ep]; exact List.getElem_mem hi
    obtain ⟨s1, e1, g1, hd1, ho1, hh1⟩ := g.copy hqm
    have per : (q :: s.handles).Perm (p :: s.handles.set i q) := by
      refine ((perm_eraseIdx hp).cons q).trans ((List.Perm.swap ..).trans ?_)
      exact (perm_set hp q).symm.cons p
    have g2 : Good (p :: s.handles.set i q) { s1 with handles := s1.handles.set i q } := (g1.perm per).congr rfl rfl rfl
    obtain ⟨s2, e2, g3, hh2, eff⟩ := g2.release
    have hh2' : s2.handles = s.handles.set i q := by rw [hh2]; show s1.handles.set i q = _; rw [hh1]
    have hmem : ∀ h, h ∈ s.handles → h = p ∨ h ∈ s.handles.set i q := by
      intro h hm
      have := per.mem_iff.1 (List.mem_cons_of_mem q hm)
      simpa using this
    refine ⟨s2, ?_, ?_, ?_, ?_⟩
    · simp only [State.step, hp, hq, e1]
      exact e2
    · rw [hh2']; exact g3
    · rw [hh2', List.map_set]
      show _ = (s.handles.map (·.px)).set i (((s.handles.map (·.px))[j]?).getD none)
      rw [map_getD hq]
    · rcases eff with ⟨a, _, b⟩ | ⟨o, a, b, c, _⟩
      · refine .inl ⟨a.trans hd1, ?_⟩
        intro h hm o e
        rw [hh2']
        rcases hmem h hm with x | x
        · subst x; exact b o e
        · exact ⟨h, x, e⟩
      · refine .inr ⟨o, c.trans (by show s1.deleted ++ [o] = _; rw [hd1]), ⟨p, hpm, a⟩, by rw [hh2']; exact b, ?_⟩
        intro h hm o' hne e
        rw [hh2']
        rcases hmem h hm with x | x
        · subst x; rw [a] at e; exact absurd (Option.some.inj e).symm hne
        · exact ⟨h, x, e⟩
  | reset i =>
    have hi : i < s.handles.length := hv
    have hp : s.handles[i]? = some s.handles[i] := List.getElem?_eq_getElem hi
    obtain ⟨p, ep⟩ : ∃ p, s.handles[i] = p := ⟨_, rfl⟩
    rw [ep] at hp
    have hpm : p ∈ s.handles := by rw [← ep]; exact List.getElem_mem hi
    obtain ⟨s2, e2, g3, hh2, eff⟩ := (g.perm (perm_eraseIdx hp)).release
    have hnew : Good (s.handles.set i {}) s2 := g3.null.perm (perm_set hp {}).symm
    have hmem : ∀ h, h ∈ s.handles → h = p ∨ h ∈ s.handles.eraseIdx i := by
      intro h hm
      have := (perm_eraseIdx hp).mem_iff.1 hm
      simpa using this
    have hin : ∀ h, h ∈ s.handles.eraseIdx i → h ∈ s.handles.set i {} := by
      intro h hm
      exact (perm_set hp {}).mem_iff.2 (List.mem_cons_of_mem _ hm)
    have hout : ∀ h, h ∈ s.handles.set i {} → h = {} ∨ h ∈ s.handles.eraseIdx i := by
      intro h hm
      have := (perm_set hp {}).mem_iff.1 hm
      simpa using this
    refine ⟨{ s2 with handles := s2.handles.set i {} }, ?_, ?_, ?_, ?_⟩
    · simp only [State.step, hp, e2, Option.map_some]
    · show Good (s2.handles.set i {}) _
      rw [hh2]
      exact hnew.congr rfl rfl rfl
    · show (s2.handles.set i {}).map (·.px) = _
      rw [hh2, List.map_set]
      rfl
    · rcases eff with ⟨a, _, b⟩ | ⟨o, a, b, c, _⟩
      · refine .inl ⟨a, ?_⟩
        intro h hm o e
        show ∃ h' ∈ s2.handles.set i {}, _
        rw [hh2]
        rcases hmem h hm with x | x
        · subst x; obtain ⟨w, hw, ew⟩ := b o e; exact ⟨w, hin w hw, ew⟩
        · exact ⟨h, hin h x, e⟩
      · refine .inr ⟨o, c, ⟨p, hpm, a⟩, ?_, ?_⟩
        · show ∀ h ∈ s2.handles.set i {}, _
          rw [hh2]
          intro h hm
          rcases hout h hm with x | x
          · subst x; simp
          · exact b h x
        · intro h hm o' hne e
          show ∃ h' ∈ s2.handles.set i {}, _
          rw [hh2]
          rcases hmem h hm with x | x
          · subst x; rw [a] at e; exact absurd (Option.some.inj e).symm hne
          · exact ⟨h, hin h x, e⟩
  | destroy i =>
    have hi : i < s.handles.length := hv
    have hp : s.handles[i]? = some s.handles[i] := List.getElem?_eq_getElem hi
    obtain ⟨p, ep⟩ : ∃ p, s.handles[i] = p := ⟨_, rfl⟩
    rw [ep] at hp
    have hpm : p ∈ s.handles := by rw [← ep]; exact List.getElem_mem hi
    obtain ⟨s2, e2, g3, hh2, eff⟩ := (g.perm (perm_eraseIdx hp)).release
    have hmem : ∀ h, h ∈ s.handles → h = p ∨ h ∈ s.handles.eraseIdx i := by
      intro h hm
      have := (perm_eraseIdx hp).mem_iff.1 hm
      simpa using this
    refine ⟨{ s2 with handles := s2.handles.eraseIdx i }, ?_, ?_, ?_, ?_⟩
    · simp only [State.step, hp, e2, Option.map_some]
    · show Good (s2.handles.eraseIdx i) _
      rw [hh2]
      exact g3.congr rfl rfl rfl
    · show (s2.handles.eraseIdx i).map (·.px) = _
      rw [hh2, map_eraseIdx']
      rfl
    · rcases eff with ⟨a, _, b⟩ | ⟨o, a, b, c, _⟩
      · refine .inl ⟨a, ?_⟩
        intro h hm o e
        show ∃ h' ∈ s2.handles.eraseIdx i, _
        rw [hh2]
        rcases hmem h hm with x | x
        · subst x; exact b o e
        · exact ⟨h, x, e⟩
      · refine .inr ⟨o, c, ⟨p, hpm, a⟩, ?_, ?_⟩
        · show ∀ h ∈ s2.handles.eraseIdx i, _
          rw [hh2]; exact b
        · intro h hm o' hne e
          show ∃ h' ∈ s2.handles.eraseIdx i, _
          rw [hh2]
          rcases hmem h hm with x | x
          · subst x; rw [a] at e; exact absurd (Option.some.inj e).symm hne
          · exact ⟨h, x, e⟩

theorem Run.good {ops : List Op} {s : State} (r : Run ops s) : Good s.handles s := by
  induction r with
  | start =>
    exact ⟨.nil, by simp, by simp, by simp, .nil, by simp, .nil, by simp⟩
  | @step ops s s' op r hv hs ih =>
    have hv : Valid s op := by cases op <;> exact hv
    obtain ⟨s'', e, g, _⟩ := step_good ih hv
    rw [hs] at e
    cases e
    exact g

theorem Run.owners {ops : List Op} {s : State} (r : Run ops s) : s.handles.map (·.px) = ops.foldl own [] := by
  induction r with
  | start => rfl
  | @step ops s s' op r hv hs ih =>
    have hv : Valid s op := by cases op <;> exact hv
    obtain ⟨s'', e, _, g, _⟩ := step_good r.good hv
    rw [hs] at e
    cases e
    rw [g, ih, List.foldl_append]; rfl

end H2.Shared
