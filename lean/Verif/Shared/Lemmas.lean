import Verif.Shared.Spec
namespace H2.Shared

/-- The invariant, over the list of all pointers that exist (including temporaries). -/
structure Good (hs : List Ptr) (s : State) : Prop where
  keys : (s.counters.map (·.1)).Nodup
  val : ∀ c ∈ s.counters, c.2 = ((hs.countP (fun h => h.pn == some c.1) : Nat) : Int) ∧ 0 < c.2
  shape : ∀ h ∈ hs, (h.px = none ∧ h.pn = none) ∨ ∃ o n v, h.px = some o ∧ h.pn = some n ∧ (n, v) ∈ s.counters ∧ o ∈ s.objects
  same : ∀ h ∈ hs, ∀ h' ∈ hs, h.pn ≠ none → (h.pn = h'.pn ↔ h.px = h'.px)
  objNodup : s.objects.Nodup
  owned : ∀ o ∈ s.objects, ∃ h ∈ hs, h.px = some o
  delNodup : s.deleted.Nodup
  disj : ∀ o ∈ s.objects, o ∉ s.deleted

theorem Good.perm {hs hs' : List Ptr} {s : State} (p : hs.Perm hs') (g : Good hs s) : Good hs' s where
  keys := g.keys
  val := fun c hc => by
    have := g.val c hc
    rwa [p.countP_eq] at this
  shape := fun h hh => g.shape h (p.mem_iff.2 hh)
  same := fun h hh h' hh' => g.same h (p.mem_iff.2 hh) h' (p.mem_iff.2 hh')
  objNodup := g.objNodup
  owned := fun o ho => by
    obtain ⟨h, hh, e⟩ := g.owned o ho
    exact ⟨h, p.mem_iff.1 hh, e⟩
  delNodup := g.delNodup
  disj := g.disj

theorem value_of_mem {cs : List (Nat × Int)} (h : (cs.map (·.1)).Nodup) {n : Nat} {v : Int} (hm : (n, v) ∈ cs) :
    (cs.find? (fun c => c.1 == n)).map (·.2) = some v := by
  induction cs with
  | nil => cases hm
  | cons c cs ih =>
    rw [List.map_cons, List.nodup_cons] at h
    rw [List.find?_cons]
    rcases List.mem_cons.1 hm with e | e
    · subst e; simp
    · have : c.1 ≠ n := by
        intro ec; apply h.1; rw [ec]; exact List.mem_map.2 ⟨_, e, rfl⟩
      have hb : (c.1 == n) = false := by simp [this]
      rw [hb]
      exact ih h.2 e

theorem Good.value {hs : List Ptr} {s : State} (g : Good hs s) {n : Nat} {v : Int} (hm : (n, v) ∈ s.counters) :
    s.value n = some v := value_of_mem g.keys hm

theorem map_fst_store (cs : List (Nat × Int)) (n : Nat) (v : Int) :
    (cs.map fun c => if c.1 = n then (n, v) else c).map (·.1) = cs.map (·.1) := by
  rw [List.map_map]
  apply List.map_congr_left
  intro c _
  simp only [Function.comp]
  split <;> simp_all

theorem Good.null {hs : List Ptr} {s : State} (g : Good hs s) : Good ({} :: hs) s where
  keys := g.keys
  val := fun c hc => by
    have := g.val c hc
    rw [List.countP_cons]
    simpa using this
  shape := fun h hh => by
    rcases List.mem_cons.1 hh with e | e
    · subst e; exact .inl ⟨rfl, rfl⟩
    · exact g.shape h e
  same := fun h hh h' hh' hn => by
    rcases List.mem_cons.1 hh with e | e
    · subst e; exact absurd rfl hn
    · rcases List.mem_cons.1 hh' with e' | e'
      · subst e'
        rcases g.shape h e with ⟨_, b⟩ | ⟨o, n, v, a, b, _⟩
        · exact absurd b hn
        · simp [a, b]
      · exact g.same h e h' e' hn
  objNodup := g.objNodup
  owned := fun o ho => by
    obtain ⟨h, hh, e⟩ := g.owned o ho
    exact ⟨h, List.mem_cons_of_mem _ hh, e⟩
  delNodup := g.delNodup
  disj := g.disj

theorem Good.make {hs : List Ptr} {s : State} (g : Good hs s) {o m : Nat} (h1 : o ∉ s.objects) (h2 : o ∉ s.deleted)
    (h3 : ∀ c ∈ s.counters, c.1 ≠ m) :
    Good (⟨some o, some m⟩ :: hs) { s with objects := o :: s.objects, counters := (m, 1) :: s.counters } := by
  have hfresh : ∀ h ∈ hs, h.pn ≠ some m ∧ h.px ≠ some o := by
    intro h hh
    rcases g.shape h hh with ⟨a, b⟩ | ⟨o', n, v, a, b, c, d⟩
    · simp [a, b]
    · refine ⟨?_, ?_⟩
      · rw [b]; intro e; exact h3 _ c (Option.some.inj e)
      · rw [a]; intro e; rw [Option.some.inj e] at d; exact h1 d
  have hzero : hs.countP (fun h => h.pn == some m) = 0 := by
    rw [List.countP_eq_zero]
    intro h hh
    simpa using (hfresh h hh).1
  refine ⟨?_, ?_, ?_, ?_, ?_, ?_, g.delNodup, ?_⟩
  · rw [List.map_cons, List.nodup_cons]
    refine ⟨?_, g.keys⟩
    intro hm
    obtain ⟨c, hc, e⟩ := List.mem_map.1 hm
    exact h3 c hc e
  · intro c hc
    rcases List.mem_cons.1 hc with e | e
    · subst e
      simp only [List.countP_cons, hzero]
      simp
    · have := g.val c e
      have hne : (some m == some c.1) = false := by
        have := h3 c e; simp [Ne.symm this]
      simp only [List.countP_cons, hne]
      simpa using this
  · intro h hh
    rcases List.mem_cons.1 hh with e | e
    · subst e
      exact .inr ⟨o, m, 1, rfl, rfl, List.mem_cons_self .., List.mem_cons_self ..⟩
    · rcases g.shape h e with x | ⟨o', n, v, a, b, c, d⟩
      · exact .inl x
      · exact .inr ⟨o', n, v, a, b, List.mem_cons_of_mem _ c, List.mem_cons_of_mem _ d⟩
  · intro h hh h' hh' hn
    rcases List.mem_cons.1 hh with e | e
    · rcases List.mem_cons.1 hh' with e' | e'
      · subst e; subst e'; simp
      · subst e
        have := hfresh h' e'
        constructor
        · intro x; exact absurd x.symm this.1
        · intro x; exact absurd x.symm this.2
    · rcases List.mem_cons.1 hh' with e' | e'
      · subst e'
        have := hfresh h e
        constructor
        · intro x; exact absurd x this.1
        · intro x; exact absurd x this.2
      · exact g.same h e h' e' hn
  · exact List.nodup_cons.2 ⟨h1, g.objNodup⟩
  · intro o' ho'
    rcases List.mem_cons.1 ho' with e | e
    · subst e; exact ⟨_, List.mem_cons_self .., rfl⟩
    · obtain ⟨h, hh, x⟩ := g.owned o' e
      exact ⟨h, List.mem_cons_of_mem _ hh, x⟩
  · intro o' ho'
    rcases List.mem_cons.1 ho' with e | e
    · subst e; exact h2
    · exact g.disj o' e

/-- Copying a pointer. -/
theorem Good.copy {hs : List Ptr} {s : State} (g : Good hs s) {q : Ptr} (hq : q ∈ hs) :
    ∃ s', s.copyOf q = some (s', q) ∧ Good (q :: hs) s' ∧ s'.deleted = s.deleted ∧ s'.objects = s.objects ∧ s'.handles = s.handles := by
  rcases g.shape q hq with ⟨a, b⟩ | ⟨o, n, v, a, b, hc, ho⟩
  · refine ⟨s, ?_, ?_, rfl, rfl, rfl⟩
    · simp only [State.copyOf, State.acquire, a, b]
      congr 1
      rcases q with ⟨_, _⟩
      simp_all
    · have : q = {} := by rcases q with ⟨_, _⟩; simp_all
      rw [this]; exact g.null
  · refine ⟨s.store n (v + 1), ?_, ?_, rfl, rfl, rfl⟩
    · simp only [State.copyOf, State.acquire, a, b, g.value hc]
      rcases q with ⟨_, _⟩
      simp_all
    · have hv := g.val _ hc
      refine ⟨?_, ?_, ?_, ?_, g.objNodup, ?_, g.delNodup, g.disj⟩
      · simp only [State.store]; rw [map_fst_store]; exact g.keys
      · intro c hm
        simp only [State.store] at hm
        obtain ⟨c', hc', e⟩ := List.mem_map.1 hm
        by_cases hn : c'.1 = n
        · rw [if_pos hn] at e
          subst e
          simp only [List.countP_cons, b]
          simp only [beq_self_eq_true, if_true]
          simp only at hv
          omega
        · rw [if_neg hn] at e
          subst e
          have hne : (q.pn == some c'.1) = false := by rw [b]; simp [Ne.symm hn]
          simp only [List.countP_cons, hne]
          simpa using g.val c' hc'
      · have key : ∀ n' v', (n', v') ∈ s.counters → ∃ v'', (n', v'') ∈ (s.store n (v + 1)).counters := by
          intro n' v' h'
          by_cases hn : n' = n
          · exact ⟨v + 1, List.mem_map.2 ⟨_, h', by simp [hn]⟩⟩
          · exact ⟨v', List.mem_map.2 ⟨_, h', by simp [hn]⟩⟩
        have : ∀ h ∈ hs, (h.px = none ∧ h.pn = none) ∨ ∃ o n' v', h.px = some o ∧ h.pn = some n' ∧ (n', v') ∈ (s.store n (v + 1)).counters ∧ o ∈ s.objects := by
          intro h hh
          rcases g.shape h hh with x | ⟨o', n', v', a', b', c', d'⟩
          · exact .inl x
          · obtain ⟨v'', hv''⟩ := key _ _ c'
            exact .inr ⟨o', n', v'', a', b', hv'', d'⟩
        intro h hh
        rcases List.mem_cons.1 hh with e | e
        · subst e; exact this _ hq
        · exact this h e
      · intro h hh h' hh' hn
        have hh : h ∈ hs := by rcases List.mem_cons.1 hh with e | e; (subst e; exact hq); exact e
        have hh' : h' ∈ hs := by rcases List.mem_cons.1 hh' with e | e; (subst e; exact hq); exact e
        exact g.same h hh h' hh' hn
      · intro o' ho'
        obtain ⟨h, hh, x⟩ := g.owned o' ho'
        exact ⟨h, List.mem_cons_of_mem _ hh, x⟩

/-- Releasing a pointer: its object goes exactly if no other pointer owns it. -/
theorem Good.release {hs : List Ptr} {s : State} {p : Ptr} (g : Good (p :: hs) s) :
    ∃ s', s.release p = some s' ∧ Good hs s' ∧ s'.handles = s.handles ∧
      ((s'.deleted = s.deleted ∧ s'.objects = s.objects ∧ (∀ o, p.px = some o → ∃ h ∈ hs, h.px = some o)) ∨
        ∃ o, p.px = some o ∧ (∀ h ∈ hs, h.px ≠ some o) ∧ s'.deleted = s.deleted ++ [o] ∧ s'.objects = s.objects.erase o) := by
  have hp : p ∈ p :: hs := List.mem_cons_self ..
  have hsub : ∀ h ∈ hs, h ∈ p :: hs := fun h hh => List.mem_cons_of_mem _ hh
  rcases g.shape p hp with ⟨a, b⟩ | ⟨o, n, v, a, b, hc, ho⟩
  · refine ⟨s, by simp only [State.release, b], ?_, rfl, .inl ⟨rfl, rfl, by rw [a]; intro o e; cases e⟩⟩
    refine ⟨g.keys, ?_, fun h hh => g.shape h (hsub h hh), fun h hh h' hh' => g.same h (hsub h hh) h' (hsub h' hh'), g.objNodup, ?_, g.delNodup, g.disj⟩
    · intro c hc
      have := g.val c hc
      rw [List.countP_cons] at this
      simpa [b] using this
    · intro o ho
      obtain ⟨h, hh, e⟩ := g.owned o ho
      rcases List.mem_cons.1 hh with x | x
      · subst x; rw [a] at e; cases e
      · exact ⟨h, x, e⟩
  · have hv := g.val _ hc
    simp only [List.countP_cons, b, beq_self_eq_true, if_true] at hv
    by_cases hz : v - 1 = 0
    · -- last owner
      have hcnt : hs.countP (fun h => h.pn == some n) = 0 := by omega
      have hno : ∀ h ∈ hs, h.pn ≠ some n := by
        intro h hh e
        rw [List.countP_eq_zero] at hcnt
        exact hcnt h hh (by simp [e])
      have hnx : ∀ h ∈ hs, h.px ≠ some o := by
        intro h hh e
        have := (g.same p hp h (hsub h hh) (by rw [b]; simp)).2 (by rw [a, e])
        exact hno h hh (by rw [← this, b])
      have hkeep : ∀ c : Nat × Int, (c ∈ (s.store n (v - 1)).counters.filter fun c => c.1 ≠ n) ↔ (c ∈ s.counters ∧ c.1 ≠ n) := by
        intro c
        rw [List.mem_filter]
        simp only [State.store]
        constructor
        · intro ⟨hm, hn⟩
          have hn : c.1 ≠ n := by simpa using hn
          obtain ⟨c', hc', e⟩ := List.mem_map.1 hm
          by_cases hn' : c'.1 = n
          · rw [if_pos hn'] at e; subst e; exact absurd rfl hn
          · rw [if_neg hn'] at e; subst e; exact ⟨hc', hn⟩
        · intro ⟨hm, hn⟩
          exact ⟨List.mem_map.2 ⟨c, hm, by rw [if_neg hn]⟩, by simpa using hn⟩
      refine ⟨{ s.store n (v - 1) with objects := s.objects.erase o, deleted := s.deleted ++ [o], counters := (s.store n (v - 1)).counters.filter fun c => c.1 ≠ n }, ?_, ?_, rfl, .inr ⟨o, a, hnx, rfl, rfl⟩⟩
      · have ho' : o ∈ (s.store n (v - 1)).objects := ho
        simp only [State.release, b, g.value hc, a, if_pos hz, if_pos ho']
        rfl
      · refine ⟨?_, ?_, ?_, fun h hh h' hh' => g.same h (hsub h hh) h' (hsub h' hh'), g.objNodup.erase _, ?_, ?_, ?_⟩
        · apply List.Nodup.sublist (List.Sublist.map _ (List.filter_sublist))
          simp only [State.store]; rw [map_fst_store]; exact g.keys
        · intro c hm
          obtain ⟨h1, h2⟩ := (hkeep c).1 hm
          have := g.val c h1
          have hne : (p.pn == some c.1) = false := by rw [b]; simp [Ne.symm h2]
          simp only [List.countP_cons, hne] at this
          simpa using this
        · intro h hh
          rcases g.shape h (hsub h hh) with x | ⟨o', n', v', a', b', c', d'⟩
          · exact .inl x
          · refine .inr ⟨o', n', v', a', b', (hkeep _).2 ⟨c', ?_⟩, ?_⟩
            · intro e; simp only at e; exact hno h hh (by rw [b', e])
            · rw [g.objNodup.mem_erase_iff]
              exact ⟨fun e => hnx h hh (by rw [a', e]), d'⟩
        · intro o' ho'
          rw [g.objNodup.mem_erase_iff] at ho'
          obtain ⟨h, hh, e⟩ := g.owned o' ho'.2
          rcases List.mem_cons.1 hh with x | x
          · subst x; rw [a] at e; exact absurd (Option.some.inj e).symm ho'.1
          · exact ⟨h, x, e⟩
        · rw [List.nodup_append]
          refine ⟨g.delNodup, by simp, ?_⟩
          intro x hx y hy e
          have : y = o := by simpa using hy
          subst this; subst e
          exact g.disj _ ho hx
        · intro o' ho' hd
          rw [g.objNodup.mem_erase_iff] at ho'
          rcases List.mem_append.1 hd with x | x
          · exact g.disj o' ho'.2 x
          · exact ho'.1 (by simpa using x)
    · have hpos : 0 < hs.countP (fun h => h.pn == some n) := by omega
      obtain ⟨w, hw, ew⟩ := List.countP_pos_iff.1 hpos
      have ew : w.pn = some n := by simpa using ew
      have wx : w.px = some o := by
        have := (g.same p hp w (hsub w hw) (by rw [b]; simp)).1 (by rw [b, ew])
        rw [← this, a]
      refine ⟨s.store n (v - 1), ?_, ?_, rfl, .inl ⟨rfl, rfl, ?_⟩⟩
      · simp only [State.release, b, g.value hc, if_neg hz]
      · refine ⟨?_, ?_, ?_, fun h hh h' hh' => g.same h (hsub h hh) h' (hsub h' hh'), g.objNodup, ?_, g.delNodup, g.disj⟩
        · simp only [State.store]; rw [map_fst_store]; exact g.keys
        · intro c hm
          simp only [State.store] at hm
          obtain ⟨c', hc', e⟩ := List.mem_map.1 hm
          by_cases hn : c'.1 = n
          · rw [if_pos hn] at e
            subst e
            refine ⟨?_, ?_⟩
            · simp only; omega
            · simp only; omega
          · rw [if_neg hn] at e
            subst e
            have := g.val c' hc'
            have hne : (p.pn == some c'.1) = false := by rw [b]; simp [Ne.symm hn]
            simp only [List.countP_cons, hne] at this
            simpa using this
        · intro h hh
          rcases g.shape h (hsub h hh) with x | ⟨o', n', v', a', b', c', d'⟩
          · exact .inl x
          · by_cases hn : n' = n
            · exact .inr ⟨o', n', v - 1, a', b', List.mem_map.2 ⟨_, c', by simp [hn]⟩, d'⟩
            · exact .inr ⟨o', n', v', a', b', List.mem_map.2 ⟨_, c', by simp [hn]⟩, d'⟩
        · intro o' ho'
          obtain ⟨h, hh, e⟩ := g.owned o' ho'
          rcases List.mem_cons.1 hh with x | x
          · subst x; rw [a] at e; exact ⟨w, hw, by rw [wx, e]⟩
          · exact ⟨h, x, e⟩
      · intro o' e
        rw [a] at e
        exact ⟨w, hw, by rw [wx, e]⟩

theorem Good.congr {hs : List Ptr} {s t : State} (g : Good hs s) (h1 : t.counters = s.counters) (h2 : t.objects = s.objects) (h3 : t.deleted = s.deleted) :
    Good hs t := by
  obtain ⟨a, b, c, d, e, f, i, j⟩ := g
  exact ⟨h1 ▸ a, h1 ▸ b, h1 ▸ h2 ▸ c, d, h2 ▸ e, h2 ▸ f, h3 ▸ i, h2 ▸ h3 ▸ j⟩

theorem perm_eraseIdx {α : Type} {l : List α} {i : Nat} {p : α} (h : l[i]? = some p) : l.Perm (p :: l.eraseIdx i) := by
  induction l generalizing i with
  | nil => simp at h
  | cons x xs ih =>
    cases i with
    | zero => simp at h; subst h; exact .refl _
    | succ i =>
      rw [List.eraseIdx_cons_succ]
      exact ((ih (by simpa using h)).cons x).trans (.swap ..)

theorem perm_set {α : Type} {l : List α} {i : Nat} {p : α} (h : l[i]? = some p) (q : α) : (l.set i q).Perm (q :: l.eraseIdx i) := by
  induction l generalizing i with
  | nil => simp at h
  | cons x xs ih =>
    cases i with
    | zero => exact .refl _
    | succ i =>
      rw [List.eraseIdx_cons_succ, List.set_cons_succ]
      exact ((ih (by simpa using h)).cons x).trans (.swap ..)

end H2.Shared
