import Verif.Stub.Session
namespace H2.Stub

/-! ### The operations -/

theorem stub_cases {s : State} (w : WF s) (c : Nat) (fp dst : Addr) :
    (∃ t ∈ s.stubs, t.scope = c ∧ t.name = fp ∧ s.stub c fp dst = some { s with mem := write s.mem t.source (jumpCode t.source dst) }) ∨
    (∃ s1, NewStub s s1 c fp (s.resolve fp) ∧ (∀ t ∈ s.stubs, ¬ (t.scope = c ∧ t.name = fp)) ∧
      s.stub c fp dst = some { s1 with mem := write s1.mem (s.resolve fp) (jumpCode (s.resolve fp) dst) }) := by
  cases h : s.stubs.find? (isStub c fp) with
  | some t =>
    left
    have hm := List.mem_of_find?_eq_some h
    have hp := List.find?_some h
    simp [isStub] at hp
    obtain ⟨q, hq⟩ := patched_source (w.alive t hm)
    exact ⟨t, hm, hp.1, hp.2, by simp [State.stub, h, State.patch, hq]⟩
  | none =>
    right
    obtain ⟨h1, n⟩ := newStub_spec s c fp
    refine ⟨_, n, ?_, ?_⟩
    · intro t ht
      have := List.find?_eq_none.1 h t ht
      simpa [isStub] using this
    · obtain ⟨q, hq⟩ := patched_source ((n.patched _).2 (.inl rfl))
      simp only [State.stub, h, State.patch]
      rw [h1, hq]

theorem find_split {s : State} {c : Nat} {fp : Addr} {t : Stub} (h : s.stubs.find? (isStub c fp) = some t) :
    t.scope = c ∧ t.name = fp ∧ ∃ l r, s.stubs = l ++ t :: r ∧ ∀ u ∈ l, isStub t.scope t.name u = false := by
  obtain ⟨hp, l, r, h1, h2⟩ := List.find?_eq_some_iff_append.1 h
  simp [isStub] at hp
  refine ⟨hp.1, hp.2, l, r, h1, ?_⟩
  intro u hu
  have := h2 u hu
  rw [hp.1, hp.2]
  simpa using this

theorem unstub_cases {s : State} (w : WF s) (c : Nat) (fp : Addr) :
    s.unstub c fp = some s ∨
    ∃ l t r s', t.scope = c ∧ t.name = fp ∧ s.unstub c fp = some s' ∧ Dropped s s' l t r := by
  cases h : s.stubs.find? (isStub c fp) with
  | none => left; simp [State.unstub, h]
  | some t =>
    right
    obtain ⟨h1, h2, l, r, h3, h4⟩ := find_split h
    obtain ⟨s', h5, d⟩ := dropStub_spec w h3 h4
    exact ⟨l, t, r, s', h1, h2, by simp [State.unstub, h, h5], d⟩

/-- Any property that dropping the newest stub of list `c` preserves, `clear` preserves. -/
theorem clear_ind (P : State → Prop) (c : Nat) (hw : ∀ s, P s → WF s)
    (hd : ∀ s s' l t r, P s → t.scope = c → (∀ u ∈ l, u.scope ≠ c) → Dropped s s' l t r → P s') (s : State) (hs : P s) :
    ∃ s', s.clear c = some s' ∧ P s' ∧ s'.stubs = s.stubs.filter fun t => t.scope != c := by
  have main : ∀ (ts : List Stub) (s : State), P s → s.stubs.filter (fun t => t.scope == c) = ts →
      ∃ s', clearLoop ts s = some s' ∧ P s' ∧ s'.stubs = s.stubs.filter fun t => t.scope != c := by
    intro ts
    induction ts with
    | nil =>
      intro s hs hts
      refine ⟨s, rfl, hs, ?_⟩
      symm
      rw [List.filter_eq_self]
      intro t ht
      have := List.filter_eq_nil_iff.1 hts t ht
      simpa using this
    | cons t ts ih =>
      intro s hs hts
      obtain ⟨l, r, h1, h2, h3, h4⟩ := List.filter_eq_cons_iff.1 hts
      simp at h3
      have hl : ∀ u ∈ l, u.scope ≠ c := by
        intro u hu
        have := h2 u hu
        simpa using this
      obtain ⟨s1, e1, d⟩ := dropStub_spec (hw s hs) h1 (by
        intro u hu
        have := hl u hu
        simp [isStub, h3, this])
      have p1 := hd s s1 l t r hs h3 hl d
      obtain ⟨s', e2, p2, e3⟩ := ih s1 p1 (by
        rw [d.stubs, List.filter_append, h4, List.filter_eq_nil_iff.2 (by intro u hu; simpa using hl u hu)]; rfl)
      refine ⟨s', by simp [clearLoop, e1, e2], p2, ?_⟩
      rw [e3, d.stubs, h1, List.filter_append, List.filter_append, List.filter_cons_of_neg (by simp [h3])]
  exact main _ s hs rfl

theorem Reach.wf {s : State} (h : Reach s) : WF s := by
  induction h with
  | start m => exact ⟨List.Pairwise.nil, by simp, by simp, by simp, by simp⟩
  | @stub s s' c fp dst _ hc e ih =>
    rcases stub_cases ih c fp dst with ⟨t, _, _, _, h⟩ | ⟨s1, n, _, h⟩
    · rw [h] at e; simp at e; subst e; exact ih.setMem _
    · rw [h] at e; simp at e; subst e; exact (n.wf ih hc).setMem _
  | @unstub s s' c fp _ e ih =>
    rcases unstub_cases ih c fp with h | ⟨l, t, r, s1, _, _, h, d⟩
    · rw [h] at e; simp at e; subst e; exact ih
    · rw [h] at e; simp at e; subst e; exact d.wf ih
  | @clear s s' c _ e ih =>
    obtain ⟨s1, h1, h2, _⟩ := clear_ind WF c (fun _ h => h) (fun _ _ _ _ _ h _ _ d => d.wf h) s ih
    rw [h1] at e; simp at e; subst e; exact h2

/-! ### A session -/

/-- The stubs of the session on one function, newest first. -/
def mine (C : Nat → Prop) [DecidablePred C] (ts : List Stub) (a : Addr) : List Stub :=
  ts.filter fun t => decide (C t.scope) && t.source == a

structure Inv (C : Nat → Prop) [DecidablePred C] (s₀ s : State) : Prop where
  wf₀ : WF s₀
  wf : WF s
  old : ∀ t ∈ s₀.stubs, ¬ C t.scope
  stubs : s.stubs.filter (fun t => !decide (C t.scope)) = s₀.stubs
  keeps : ∀ q ∈ s₀.sources, ∃ q' ∈ s.sources, q'.addr = q.addr ∧ q'.origin = q.origin
  fresh : ∀ q ∈ s.sources, ¬ Patched s₀ q.addr → q.origin = read s₀.mem q.addr 12
  mem : ∀ x, (∀ t ∈ s.stubs, C t.scope → ¬ Within t.source x) → s.mem x = s₀.mem x
  front : ∃ new, s.stubs = new ++ s₀.stubs ∧ ∀ t ∈ new, C t.scope
  oldest : ∀ a, Patched s₀ a → ∀ t, (mine C s.stubs a).getLast? = some t → t.saved = read s₀.mem a 12

variable {C : Nat → Prop} [DecidablePred C] {s₀ s : State}

theorem Inv.start (w : WF s₀) (h : ∀ t ∈ s₀.stubs, ¬ C t.scope) : Inv C s₀ s₀ := by
  refine ⟨w, w, h, ?_, ?_, ?_, ?_, ⟨[], rfl, by simp⟩, ?_⟩
  · rw [List.filter_eq_self]
    intro t ht; simpa using h t ht
  · intro q hq; exact ⟨q, hq, rfl, rfl⟩
  · intro q hq hn; exact absurd ⟨q, hq, rfl⟩ hn
  · intro x _; rfl
  · intro a _ t ht
    have : t ∈ mine C s₀.stubs a := List.mem_of_getLast? ht
    simp [mine] at this
    exact absurd this.2.1 (h t this.1)

theorem mem_mine {ts : List Stub} {a : Addr} {t : Stub} : t ∈ mine C ts a ↔ t ∈ ts ∧ C t.scope ∧ t.source = a := by
  simp [mine]

/-- Where no stub of the session is on `a`, the code of `a` is as it was. -/
theorem Inv.untouched (i : Inv C s₀ s) {a : Addr} (ha : ∀ q ∈ s.sources, q.addr ≠ a → Apart a q.addr)
    (hn : ∀ t ∈ s.stubs, C t.scope → t.source ≠ a) : ∀ x, Within a x → s.mem x = s₀.mem x := by
  intro x hx
  apply i.mem
  intro t ht hc hw
  obtain ⟨q, hq, hqa⟩ := i.wf.alive t ht
  have := ha q hq (by rw [hqa]; exact hn t ht hc)
  rw [hqa] at this
  exact this x hx hw

theorem Inv.patch (i : Inv C s₀ s) {t : Stub} (ht : t ∈ s.stubs) (hc : C t.scope) (bs : List Byte) (hb : bs.length ≤ 12) :
    Inv C s₀ { s with mem := write s.mem t.source bs } := by
  refine ⟨i.wf₀, i.wf.setMem _, i.old, i.stubs, i.keeps, i.fresh, ?_, i.front, i.oldest⟩
  intro x hx
  simp only
  rw [write_out _ _ _ _ hb (hx t ht hc)]
  exact i.mem x hx

theorem Inv.newStub (i : Inv C s₀ s) {c : Nat} {fp p : Addr} {s1 : State} (hc : C c) (n : NewStub s s1 c fp p)
    (hp : Patched s p ∨ ∀ q ∈ s.sources, Apart p q.addr) : Inv C s₀ s1 := by
  have hap : ∀ q ∈ s.sources, q.addr ≠ p → Apart p q.addr := by
    intro q hq hne
    rcases hp with hp | hp
    · exact i.wf.apart' hp ⟨q, hq, rfl⟩ (fun h => hne h.symm)
    · exact hp q hq
  refine ⟨i.wf₀, n.wf i.wf hp, i.old, ?_, ?_, ?_, ?_, (by
    obtain ⟨new, e1, e2⟩ := i.front
    exact ⟨_ :: new, by rw [n.stubs, e1]; rfl, by simpa using ⟨hc, e2⟩⟩), ?_⟩
  · rw [n.stubs, List.filter_cons_of_neg (by simp [hc])]; exact i.stubs
  · intro q hq
    obtain ⟨q1, h1, h2, h3⟩ := i.keeps q hq
    obtain ⟨q2, h4, h5, h6⟩ := n.kept q1 h1
    exact ⟨q2, h4, by rw [h5, h2], by rw [h6, h3]⟩
  · intro q' hq' hn
    rcases n.keep q' hq' with ⟨q, hq, h1, h2, _⟩ | ⟨h1, h2, h3, _⟩
    · rw [← h2, ← h1]; exact i.fresh q hq (by rw [h1]; exact hn)
    · rw [h3, h1]
      apply read_congr
      refine i.untouched hap ?_
      intro t ht _ e
      exact h2 (e ▸ i.wf.alive t ht)
  · intro x hx
    rw [n.mem]
    apply i.mem
    intro t ht hct
    exact hx t (by rw [n.stubs]; exact List.mem_cons_of_mem _ ht) hct
  · intro a ha t ht
    rw [n.stubs] at ht
    by_cases e : p = a
    · subst e
      have hm : mine C ({ scope := c, name := fp, saved := read s.mem p 12, source := p } :: s.stubs) p =
          { scope := c, name := fp, saved := read s.mem p 12, source := p } :: mine C s.stubs p := by
        simp [mine, hc]
      rw [hm] at ht
      cases hmn : mine C s.stubs p with
      | nil =>
        rw [hmn] at ht
        simp at ht
        subst ht
        simp only
        apply read_congr
        refine i.untouched hap ?_
        intro t ht hct e
        have : t ∈ mine C s.stubs p := mem_mine.2 ⟨ht, hct, e⟩
        rw [hmn] at this; simp at this
      | cons u us =>
        apply i.oldest p ha t
        rw [hmn] at ht ⊢
        rw [List.getLast?_cons_cons] at ht
        exact ht
    · have hm : mine C ({ scope := c, name := fp, saved := read s.mem p 12, source := p } :: s.stubs) a = mine C s.stubs a := by
        simp [mine, e]
      rw [hm] at ht
      exact i.oldest a ha t ht

theorem Inv.drop (i : Inv C s₀ s) {s' : State} {l r : List Stub} {t : Stub} (d : Dropped s s' l t r) (hc : C t.scope)
    (ho : Patched s₀ t.source → ∀ u ∈ l, u.source ≠ t.source) : Inv C s₀ s' := by
  have htm : t ∈ s.stubs := by rw [d.before]; simp
  have hsub : ∀ u, u ∈ l ++ r → u ∈ s.stubs := by
    intro u hu
    rw [d.before]
    simp at hu ⊢
    rcases hu with hu | hu
    · exact .inl hu
    · exact .inr (.inr hu)
  -- a function patched before the session stays patched
  have hstay : ∀ a, Patched s₀ a → ∃ u ∈ l ++ r, u.source = a := by
    rintro a ⟨q, hq, rfl⟩
    obtain ⟨h1, h2⟩ := i.wf₀.refs q hq
    rw [h1, uses, count_pos_iff] at h2
    obtain ⟨u, hu, hus⟩ := h2
    have hu' := hu
    rw [← i.stubs] at hu'
    have hus' : u ∈ s.stubs ∧ ¬ C u.scope := by simpa using hu'
    refine ⟨u, ?_, hus⟩
    have := hus'.1
    rw [d.before] at this
    simp at this ⊢
    rcases this with h | h | h
    · exact .inl h
    · subst h; exact absurd hc hus'.2
    · exact .inr h
  have hfront : ∃ new, s'.stubs = new ++ s₀.stubs ∧ ∀ t ∈ new, C t.scope := by
    obtain ⟨new, e1, e2⟩ := i.front
    have e3 := d.before
    rw [e1] at e3
    rw [d.stubs]
    rcases List.append_eq_append_iff.1 e3 with ⟨m, f1, f2⟩ | ⟨m, f1, f2⟩
    · exact absurd hc (i.old t (by rw [f2]; simp))
    · cases m with
      | nil =>
        simp at f2
        exact absurd hc (i.old t (by rw [← f2]; simp))
      | cons u m =>
        simp at f2
        obtain ⟨rfl, rfl⟩ := f2
        refine ⟨l ++ m, by simp, ?_⟩
        intro v hv
        apply e2
        rw [f1]
        simp at hv ⊢
        rcases hv with hv | hv
        · exact .inl hv
        · exact .inr (.inr hv)
  refine ⟨i.wf₀, d.wf i.wf, i.old, ?_, ?_, ?_, ?_, hfront, ?_⟩
  · rw [← i.stubs, d.stubs, d.before, List.filter_append, List.filter_append, List.filter_cons_of_neg (by simp [hc])]
  · intro q hq
    obtain ⟨q1, h1, h2, h3⟩ := i.keeps q hq
    obtain ⟨q2, h4, h5, h6⟩ := d.kept q1 h1 (.inr (by rw [h2]; exact hstay _ ⟨q, hq, rfl⟩))
    exact ⟨q2, h4, by rw [h5, h2], by rw [h6, h3]⟩
  · intro q' hq' hn
    obtain ⟨q, hq, h1, h2, _⟩ := d.keep q' hq'
    rw [← h2, ← h1]; exact i.fresh q hq (by rw [h1]; exact hn)
  · intro x hx
    rw [d.stubs] at hx
    by_cases hw : Within t.source x
    · -- no stub of the session is left on this function
      have hnone : ∀ u ∈ l ++ r, C u.scope → u.source ≠ t.source := by
        intro u hu hcu e
        exact hx u hu hcu (by rw [e]; exact hw)
      obtain ⟨q, hq, hqa⟩ := i.wf.alive t htm
      rw [d.within q hq hqa x hw]
      by_cases hp : Patched s₀ t.source
      · rw [if_pos (hstay _ hp)]
        have hm : mine C s.stubs t.source = [t] := by
          have e1 : mine C (l ++ r) t.source = [] := by
            rw [List.eq_nil_iff_forall_not_mem]
            intro u hu
            obtain ⟨h1, h2, h3⟩ := mem_mine.1 hu
            exact hnone u h1 h2 h3
          unfold mine at e1 ⊢
          rw [List.filter_append] at e1
          rw [d.before, List.filter_append, List.filter_cons_of_pos (by simp [hc])]
          simp at e1
          rw [List.filter_eq_nil_iff.2 (by simpa using e1.1), List.filter_eq_nil_iff.2 (by simpa using e1.2)]
          rfl
        have := i.oldest t.source hp t (by rw [hm]; rfl)
        rw [this]
        exact write_read _ _ _ _ hw
      · have hno : ¬ ∃ u ∈ l ++ r, u.source = t.source := by
          rintro ⟨u, hu, hus⟩
          by_cases hcu : C u.scope
          · exact hnone u hu hcu hus
          · apply hp
            have : u ∈ s₀.stubs := by
              rw [← i.stubs]; simp [hsub u hu, hcu]
            have := i.wf₀.alive u this
            rwa [hus] at this
        rw [if_neg hno, i.fresh q hq (by rw [hqa]; exact hp), hqa]
        exact write_read _ _ _ _ hw
    · rw [d.out x hw]
      apply i.mem
      intro u hu hcu
      rw [d.before] at hu
      simp only [List.mem_append, List.mem_cons] at hu
      rcases hu with hu | rfl | hu
      · exact hx u (by simp [hu]) hcu
      · exact hw
      · exact hx u (by simp [hu]) hcu
  · intro a ha u hu
    apply i.oldest a ha u
    rw [d.stubs] at hu
    unfold mine at hu ⊢
    rw [d.before]
    rw [List.filter_append] at hu ⊢
    by_cases e : t.source = a
    · subst e
      have hl : l.filter (fun u => decide (C u.scope) && u.source == t.source) = [] := by
        rw [List.filter_eq_nil_iff]
        intro v hv
        have := ho ha v hv
        simp [this]
      rw [hl, List.nil_append] at hu ⊢
      rw [List.filter_cons_of_pos (by simp [hc])]
      cases hr : r.filter (fun u => decide (C u.scope) && u.source == t.source) with
      | nil => rw [hr] at hu; simp at hu
      | cons v vs =>
        rw [hr] at hu
        rw [List.getLast?_cons_cons]; exact hu
    · rw [List.filter_cons_of_neg (by simp [e])]; exact hu

theorem Session.inv (w : WF s₀) (h : ∀ t ∈ s₀.stubs, ¬ C t.scope) (ss : Session C s₀ s) : Inv C s₀ s := by
  induction ss with
  | start => exact Inv.start w h
  | @stub s s' c fp dst _ hC hc e ih =>
    rcases stub_cases ih.wf c fp dst with ⟨t, ht, hts, _, h⟩ | ⟨s1, n, _, h⟩
    · rw [h] at e; simp at e; subst e
      exact ih.patch ht (by rw [hts]; exact hC) _ (length_jumpCode _ _)
    · rw [h] at e; simp at e; subst e
      have i1 := ih.newStub hC n hc
      exact i1.patch (t := { scope := c, name := fp, saved := read s.mem (s.resolve fp) 12, source := s.resolve fp })
        (by rw [n.stubs]; simp) hC _ (length_jumpCode _ _)
  | @unstub s s' c fp _ hC ho e ih =>
    rcases unstub_cases ih.wf c fp with h | ⟨l, t, r, s1, h1, h2, h, d⟩
    · rw [h] at e; simp at e; subst e; exact ih
    · rw [h] at e; simp at e; subst e
      exact ih.drop d (by rw [h1]; exact hC) (fun hp => ho l t r d.before h1 h2 hp)
  | @clear s s' c _ hC ho e ih =>
    obtain ⟨s1, h1, h2, _⟩ := clear_ind (fun s => Inv C s₀ s ∧ InOrderAll s₀ s c) c (fun _ h => h.1.wf) (by
      intro s s' l t r hs hts hl d
      refine ⟨hs.1.drop d (by rw [hts]; exact hC) ?_, ?_⟩
      · intro hp u hu hus
        exact hl u hu (hs.2 l t r d.before hts hp u hu hus)
      · intro l' u r' hst hus hp v hv hvu
        rw [d.stubs] at hst
        rcases List.append_eq_append_iff.1 hst with ⟨m, e1, e2⟩ | ⟨m, e1, e2⟩
        · -- `l' = l ++ m`, `r = m ++ u :: r'`
          refine hs.2 (l ++ t :: m) u r' (by rw [d.before, e2]; simp) hus hp v ?_ hvu
          rw [e1] at hv
          simp at hv ⊢
          rcases hv with hv | hv
          · exact .inl hv
          · exact .inr (.inr hv)
        · cases m with
          | nil =>
            simp at e1 e2
            subst e1
            refine hs.2 (l ++ [t]) u r' (by rw [d.before, ← e2]; simp) hus hp v (by simp [hv]) hvu
          | cons w m =>
            simp at e2
            obtain ⟨rfl, rfl⟩ := e2
            refine hs.2 l' u (m ++ t :: r) (by rw [d.before, e1]; simp) hus hp v hv hvu) s ⟨ih, ho⟩
    rw [h1] at e; simp at e; subst e; exact h2.1

end H2.Stub
