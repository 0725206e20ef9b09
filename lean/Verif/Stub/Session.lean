import Verif.Stub.Jump
namespace H2.Stub

/-- Number of stubs of a function. -/
def uses (s : State) (a : Addr) : Nat := s.stubs.countP fun t => t.source == a

/-- Every state that stubbing reaches. -/
structure WF (s : State) : Prop where
  apart : s.sources.Pairwise fun q r => Apart q.addr r.addr
  refs : ∀ q ∈ s.sources, q.refs = uses s q.addr ∧ 0 < q.refs
  alive : ∀ t ∈ s.stubs, Patched s t.source
  origin : ∀ q ∈ s.sources, q.origin.length = 12
  saved : ∀ t ∈ s.stubs, t.saved.length = 12

theorem within_self (a : Addr) : Within a a := by simp [Within]

theorem Apart.ne {a b : Addr} (h : Apart a b) : a ≠ b := by
  rintro rfl; exact h a (within_self a) (within_self a)

theorem Apart.symm {a b : Addr} (h : Apart a b) : Apart b a := fun x hb ha => h x ha hb

theorem source?_some {s : State} {a : Addr} {q : Source} (h : s.source? a = some q) : q ∈ s.sources ∧ q.addr = a := by
  refine ⟨List.mem_of_find?_eq_some h, ?_⟩
  have := List.find?_some h
  simpa using this

theorem source?_isSome {s : State} {a : Addr} : (s.source? a).isSome ↔ Patched s a := by
  simp only [State.source?, List.find?_isSome, Patched, beq_iff_eq]

theorem source?_none {s : State} {a : Addr} : s.source? a = none ↔ ¬ Patched s a := by
  rw [← source?_isSome]; cases s.source? a <;> simp

theorem patched_source {s : State} {a : Addr} (h : Patched s a) : ∃ q, s.source? a = some q := by
  rw [← source?_isSome] at h
  exact Option.isSome_iff_exists.1 h

theorem WF.unique {s : State} (w : WF s) {q r : Source} (hq : q ∈ s.sources) (hr : r ∈ s.sources) (h : q.addr = r.addr) : q = r := by
  obtain ⟨i, hi, rfl⟩ := List.getElem_of_mem hq
  obtain ⟨j, hj, rfl⟩ := List.getElem_of_mem hr
  rcases Nat.lt_trichotomy i j with hij | hij | hij
  · exact absurd h ((List.pairwise_iff_getElem.1 w.apart) i j hi hj hij).ne
  · subst hij; rfl
  · exact absurd h.symm ((List.pairwise_iff_getElem.1 w.apart) j i hj hi hij).ne

theorem WF.apart' {s : State} (w : WF s) {a b : Addr} (ha : Patched s a) (hb : Patched s b) (hne : a ≠ b) : Apart a b := by
  obtain ⟨q, hq, rfl⟩ := ha
  obtain ⟨r, hr, rfl⟩ := hb
  obtain ⟨i, hi, rfl⟩ := List.getElem_of_mem hq
  obtain ⟨j, hj, rfl⟩ := List.getElem_of_mem hr
  rcases Nat.lt_trichotomy i j with hij | hij | hij
  · exact (List.pairwise_iff_getElem.1 w.apart) i j hi hj hij
  · subst hij; exact absurd rfl hne
  · exact ((List.pairwise_iff_getElem.1 w.apart) j i hj hi hij).symm

/-! ### Adding a stub -/

/-- What `newStub` does. -/
structure NewStub (s s' : State) (c : Nat) (fp p : Addr) : Prop where
  mem : s'.mem = s.mem
  stubs : s'.stubs = { scope := c, name := fp, saved := read s.mem p 12, source := p } :: s.stubs
  patched : ∀ a, Patched s' a ↔ a = p ∨ Patched s a
  keep : ∀ q' ∈ s'.sources, (∃ q ∈ s.sources, q.addr = q'.addr ∧ q.origin = q'.origin ∧ q'.refs = q.refs + if q.addr = p then 1 else 0) ∨
    (q'.addr = p ∧ ¬ Patched s p ∧ q'.origin = read s.mem p 12 ∧ q'.refs = 1)
  kept : ∀ q ∈ s.sources, ∃ q' ∈ s'.sources, q'.addr = q.addr ∧ q'.origin = q.origin
  apart : s.sources.Pairwise (fun q r => Apart q.addr r.addr) → (¬ Patched s p → ∀ q ∈ s.sources, Apart p q.addr) →
    s'.sources.Pairwise (fun q r => Apart q.addr r.addr)

theorem newStub_spec (s : State) (c : Nat) (fp : Addr) :
    (s.newStub c fp).2 = s.resolve fp ∧ NewStub s (s.newStub c fp).1 c fp (s.resolve fp) := by
  unfold State.newStub State.addSource
  simp only
  generalize s.resolve fp = p
  cases h : s.source? p with
  | some q =>
    simp only
    refine ⟨trivial, rfl, rfl, ?_, ?_, ?_, ?_⟩
    · intro a
      simp only [Patched, List.mem_map]
      constructor
      · rintro ⟨q', ⟨r, hr, rfl⟩, rfl⟩
        right
        refine ⟨r, hr, ?_⟩
        split <;> rfl
      · rintro (rfl | ⟨r, hr, rfl⟩)
        · obtain ⟨hq, hqa⟩ := source?_some h
          exact ⟨_, ⟨q, hq, rfl⟩, by split <;> exact hqa⟩
        · exact ⟨_, ⟨r, hr, rfl⟩, by split <;> rfl⟩
    · intro q' hq'
      simp only [List.mem_map] at hq'
      obtain ⟨r, hr, rfl⟩ := hq'
      left
      refine ⟨r, hr, ?_⟩
      by_cases hrp : r.addr = p
      · simp [hrp]
      · simp [hrp]
    · intro r hr
      refine ⟨_, List.mem_map.2 ⟨r, hr, rfl⟩, ?_⟩
      split <;> exact ⟨rfl, rfl⟩
    · intro ha _
      rw [List.pairwise_map]
      refine ha.imp ?_
      intro q r hqr
      have e : ∀ q : Source, (if q.addr = p then { q with refs := q.refs + 1 } else q).addr = q.addr := by
        intro q; split <;> rfl
      rw [e, e]; exact hqr
  | none =>
    have hn := source?_none.1 h
    simp only
    refine ⟨trivial, rfl, rfl, ?_, ?_, ?_, ?_⟩
    · intro a
      simp only [Patched, List.mem_cons]
      constructor
      · rintro ⟨q', rfl | hq, rfl⟩
        · left; rfl
        · right; exact ⟨q', hq, rfl⟩
      · rintro (rfl | ⟨r, hr, rfl⟩)
        · exact ⟨_, .inl rfl, rfl⟩
        · exact ⟨r, .inr hr, rfl⟩
    · intro q' hq'
      simp only [List.mem_cons] at hq'
      rcases hq' with rfl | hq'
      · exact .inr ⟨rfl, hn, rfl, rfl⟩
      · left
        refine ⟨q', hq', rfl, rfl, ?_⟩
        rw [if_neg]; · rfl
        rintro hp; exact hn ⟨q', hq', hp⟩
    · intro r hr
      exact ⟨r, List.mem_cons_of_mem _ hr, rfl, rfl⟩
    · intro ha hp
      rw [List.pairwise_cons]
      exact ⟨hp hn, ha⟩

theorem uses_cons (s : State) (t : Stub) (ts : List Stub) (a : Addr) (h : s.stubs = t :: ts) :
    uses s a = (ts.countP fun t => t.source == a) + if t.source = a then 1 else 0 := by
  unfold uses
  rw [h, List.countP_cons]
  simp

theorem NewStub.wf {s s' : State} {c : Nat} {fp p : Addr} (n : NewStub s s' c fp p) (w : WF s)
    (hc : Patched s p ∨ ∀ q ∈ s.sources, Apart p q.addr) : WF s' := by
  refine ⟨n.apart w.apart (fun hn => hc.resolve_left hn), ?_, ?_, ?_, ?_⟩
  · intro q' hq'
    rw [uses_cons s' _ _ _ n.stubs]
    rcases n.keep q' hq' with ⟨q, hq, h1, h2, h3⟩ | ⟨h1, h2, h3, h4⟩
    · have := w.refs q hq
      rw [h3, this.1, uses, h1]
      constructor
      · simp only [h1]
        by_cases e : q'.addr = p
        · simp [e]
        · simp [e, Ne.symm e]
      · have h0 := this.2
        rw [this.1, uses, h1] at h0
        omega
    · have : (s.stubs.countP fun t => t.source == q'.addr) = 0 := by
        rw [List.countP_eq_zero]
        intro t ht e
        simp at e
        apply h2
        have := w.alive t ht
        rwa [e, h1] at this
      rw [this, h4, h1]; simp
  · intro t ht
    rw [n.stubs] at ht
    simp only [List.mem_cons] at ht
    rw [n.patched]
    rcases ht with rfl | ht
    · exact .inl rfl
    · exact .inr (w.alive t ht)
  · intro q' hq'
    rcases n.keep q' hq' with ⟨q, hq, h1, h2, h3⟩ | ⟨h1, h2, h3, h4⟩
    · rw [← h2]; exact w.origin q hq
    · rw [h3]; simp [length_read]
  · intro t ht
    rw [n.stubs] at ht
    simp only [List.mem_cons] at ht
    rcases ht with rfl | ht
    · simp [length_read]
    · exact w.saved t ht

/-- Changing the memory only. -/
theorem WF.setMem {s : State} (w : WF s) (m : Mem) : WF { s with mem := m } :=
  ⟨w.apart, w.refs, w.alive, w.origin, w.saved⟩

/-! ### Dropping a stub -/

/-- What `dropStub` does. -/
structure Dropped (s s' : State) (l : List Stub) (t : Stub) (r : List Stub) : Prop where
  before : s.stubs = l ++ t :: r
  stubs : s'.stubs = l ++ r
  /-- The function stays patched iff another stub of it is left. -/
  patched : ∀ a, Patched s' a ↔ Patched s a ∧ (a ≠ t.source ∨ ∃ u ∈ l ++ r, u.source = a)
  keep : ∀ q' ∈ s'.sources, ∃ q ∈ s.sources, q.addr = q'.addr ∧ q.origin = q'.origin ∧ q'.refs = q.refs - if q.addr = t.source then 1 else 0
  kept : ∀ q ∈ s.sources, (q.addr ≠ t.source ∨ ∃ u ∈ l ++ r, u.source = q.addr) → ∃ q' ∈ s'.sources, q'.addr = q.addr ∧ q'.origin = q.origin
  apart : s.sources.Pairwise (fun q r => Apart q.addr r.addr) → s'.sources.Pairwise (fun q r => Apart q.addr r.addr)
  out : ∀ x, ¬ Within t.source x → s'.mem x = s.mem x
  /-- If another stub is left the bytes saved are back, else the bytes of the original function. -/
  within : ∀ q ∈ s.sources, q.addr = t.source → ∀ x, Within t.source x →
    s'.mem x = if ∃ u ∈ l ++ r, u.source = t.source then write s.mem t.source t.saved x else write s.mem t.source q.origin x

theorem count_pos_iff (ts : List Stub) (a : Addr) : 0 < (ts.countP fun t => t.source == a) ↔ ∃ u ∈ ts, u.source = a := by
  rw [List.countP_pos_iff]; simp

theorem dropStub_spec {s : State} (w : WF s) {l r : List Stub} {t : Stub} (h : s.stubs = l ++ t :: r)
    (hl : ∀ u ∈ l, isStub t.scope t.name u = false) : ∃ s', s.dropStub t = some s' ∧ Dropped s s' l t r := by
  have htm : t ∈ s.stubs := by rw [h]; simp
  obtain ⟨q, hq⟩ := patched_source (w.alive t htm)
  obtain ⟨hqm, hqa⟩ := source?_some hq
  have hsaved := w.saved t htm
  have hor := w.origin q hqm
  have herase : s.stubs.eraseP (isStub t.scope t.name) = l ++ r := by
    rw [h, List.eraseP_append_right _ (by intro b hb; simp [hl b hb]), List.eraseP_cons_of_pos (by simp [isStub])]
  have hrefs := w.refs q hqm
  have huses : uses s q.addr = ((l ++ r).countP fun u => u.source == t.source) + 1 := by
    rw [uses, h, hqa]
    simp [List.countP_append, List.countP_cons]; omega
  have hq2 : State.source? { s with mem := write s.mem t.source t.saved, stubs := l ++ r } t.source = some q := hq
  have hex := count_pos_iff (l ++ r) t.source
  unfold State.dropStub
  rw [hq]
  simp only [herase]
  unfold State.delSource
  rw [hq2]
  simp only
  by_cases hz : q.refs - 1 = 0
  · rw [if_pos hz]
    have hno : ¬ ∃ u ∈ l ++ r, u.source = t.source := by
      rw [← hex]; omega
    refine ⟨_, rfl, ⟨h, rfl, ?_, ?_, ?_, ?_, ?_, ?_⟩⟩
    · intro a
      simp only [Patched, List.mem_filter]
      constructor
      · rintro ⟨q', ⟨h1, h2⟩, rfl⟩
        exact ⟨⟨q', h1, rfl⟩, .inl (by simpa using h2)⟩
      · rintro ⟨⟨q', h1, rfl⟩, h2⟩
        rcases h2 with h2 | h2
        · exact ⟨q', ⟨h1, by simpa using h2⟩, rfl⟩
        · refine ⟨q', ⟨h1, ?_⟩, rfl⟩
          simp
          intro e
          rw [e] at h2
          exact hno h2
    · intro q' hq'
      simp only [List.mem_filter] at hq'
      refine ⟨q', hq'.1, rfl, rfl, ?_⟩
      have := hq'.2
      simp at this
      rw [if_neg this]; rfl
    · intro q' hq' hor'
      refine ⟨q', ?_, rfl, rfl⟩
      simp only [List.mem_filter]
      refine ⟨hq', ?_⟩
      rcases hor' with h2 | h2
      · simpa using h2
      · simp
        intro e
        rw [e] at h2
        exact hno h2
    · intro ha
      exact ha.filter _
    · intro x hx
      simp only
      rw [write_out _ _ _ _ (by omega) hx, write_out _ _ _ _ (by omega) hx]
    · intro q' hq' hq'a x hx
      rw [if_neg hno]
      have : q' = q := w.unique hq' hqm (by rw [hq'a, hqa])
      subst this
      simp only [write]
      have hx' : (x - t.source).toNat < 12 := hx
      simp only [List.getD]
      rw [List.getElem?_eq_getElem (by omega)]; rfl
  · rw [if_neg hz]
    have hyes : ∃ u ∈ l ++ r, u.source = t.source := by
      rw [← hex]; omega
    have ea : ∀ r : Source, (if r.addr = t.source then { r with refs := r.refs - 1 } else r).addr = r.addr := by
      intro r; split <;> rfl
    refine ⟨_, rfl, ⟨h, rfl, ?_, ?_, ?_, ?_, ?_, ?_⟩⟩
    · intro a
      simp only [Patched, List.mem_map]
      constructor
      · rintro ⟨q', ⟨r, hr, rfl⟩, rfl⟩
        rw [ea]
        refine ⟨⟨r, hr, rfl⟩, ?_⟩
        by_cases e : r.addr = t.source
        · rw [e]; exact .inr hyes
        · exact .inl e
      · rintro ⟨⟨q', h1, rfl⟩, _⟩
        exact ⟨_, ⟨q', h1, rfl⟩, ea q'⟩
    · intro q' hq'
      simp only [List.mem_map] at hq'
      obtain ⟨r, hr, rfl⟩ := hq'
      refine ⟨r, hr, ?_⟩
      by_cases e : r.addr = t.source <;> simp [e]
    · intro q' hq' _
      refine ⟨_, List.mem_map.2 ⟨q', hq', rfl⟩, ?_⟩
      split <;> exact ⟨rfl, rfl⟩
    · intro ha
      simp only
      rw [List.pairwise_map]
      refine ha.imp ?_
      intro q r hqr
      rw [ea, ea]; exact hqr
    · intro x hx
      exact write_out _ _ _ _ (by omega) hx
    · intro q' hq' hq'a x hx
      rw [if_pos hyes]

theorem Dropped.wf {s s' : State} {l r : List Stub} {t : Stub} (d : Dropped s s' l t r) (w : WF s) : WF s' := by
  have hu : ∀ a, uses s a = uses s' a + if t.source = a then 1 else 0 := by
    intro a
    rw [uses, uses, d.before, d.stubs]
    simp [List.countP_append, List.countP_cons]; omega
  refine ⟨d.apart w.apart, ?_, ?_, ?_, ?_⟩
  · intro q' hq'
    obtain ⟨q, hq, h1, h2, h3⟩ := d.keep q' hq'
    have hr := w.refs q hq
    have hua := hu q'.addr
    have hp : Patched s' q'.addr := ⟨q', hq', rfl⟩
    rw [d.patched] at hp
    rw [h1] at hr h3
    have hpos : 0 < uses s' q'.addr := by
      rcases hp.2 with h | ⟨u, hu, hus⟩
      · rw [if_neg (fun e => h e.symm)] at hua
        omega
      · rw [uses, d.stubs, count_pos_iff]; exact ⟨u, hu, hus⟩
    by_cases e : q'.addr = t.source
    · rw [if_pos e.symm] at hua; rw [if_pos e] at h3; omega
    · rw [if_neg (fun h => e h.symm)] at hua; rw [if_neg e] at h3; omega
  · intro u hu
    rw [d.stubs] at hu
    rw [d.patched]
    refine ⟨w.alive u ?_, .inr ⟨u, hu, rfl⟩⟩
    rw [d.before]
    simp at hu ⊢
    rcases hu with hu | hu
    · exact .inl hu
    · exact .inr (.inr hu)
  · intro q' hq'
    obtain ⟨q, hq, h1, h2, h3⟩ := d.keep q' hq'
    rw [← h2]; exact w.origin q hq
  · intro u hu
    rw [d.stubs] at hu
    apply w.saved
    rw [d.before]
    simp at hu ⊢
    rcases hu with hu | hu
    · exact .inl hu
    · exact .inr (.inr hu)

end H2.Stub
