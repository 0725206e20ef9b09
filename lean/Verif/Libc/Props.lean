import Verif.Libc.Lemmas
/-
C27: the tool's internal allocator never hands out overlapping memory.
-/
namespace H2.Libc

theorem Inv.two {s : State} {h : Held} (i : Inv s h) {a b : Nat × Nat} {rest : Held} (p : h.Perm (a :: rest)) (hb : b ∈ rest) :
    ∀ x, In (a.1 - 8) (a.2 + 8) x → ¬ In (b.1 - 8) (b.2 + 8) x := by
  intro x ha hb'
  have q := p.symm.trans i.held
  -- find the two entries of `live`
  have ham : a ∈ s.live.map fun c => (c.1.addr + 8, c.2) := q.mem_iff.1 (List.mem_cons_self ..)
  obtain ⟨c, hc, ec⟩ := List.mem_map.1 ham
  obtain ⟨l1, l2, el⟩ := List.append_of_mem hc
  have per : s.live.Perm (c :: (l1 ++ l2)) := by rw [el]; exact List.perm_middle
  have q2 := q.trans (per.map fun c => (c.1.addr + 8, c.2))
  rw [List.map_cons, ec] at q2
  have q3 := List.perm_cons a |>.1 q2
  obtain ⟨d, hd, ed⟩ := List.mem_map.1 (q3.mem_iff.1 hb)
  have hwc := (i.wfLive c hc).2
  have hwd := (i.wfLive d (per.mem_iff.2 (List.mem_cons_of_mem _ hd))).2
  subst ec; subst ed
  simp only [In, Nat.add_sub_cancel] at ha hb'
  exact i.addr_inj per hd x ⟨by omega, by omega⟩ ⟨by omega, by omega⟩

/-- C27: the areas handed out and not yet released never overlap, whatever the history of requests
and releases. -/
theorem C27_disjoint {s : State} {h : Held} (r : Run s h) : h.Pairwise fun a b => ∀ x, In a.1 a.2 x → ¬ In b.1 b.2 x := by
  have i := r.inv
  have hpos : ∀ a ∈ h, 8 ≤ a.1 := by
    intro a ha
    obtain ⟨c, _, ec⟩ := List.mem_map.1 (i.held.mem_iff.1 ha)
    subst ec
    show 8 ≤ c.1.addr + 8
    omega
  rw [List.pairwise_iff_forall_sublist]
  intro a b hs x ha hb
  obtain ⟨rest, per⟩ : ∃ rest, h.Perm (a :: b :: rest) := hs.exists_perm_append
  have h8a := hpos a (per.mem_iff.2 (List.mem_cons_self ..))
  have h8b := hpos b (per.mem_iff.2 (List.mem_cons_of_mem _ (List.mem_cons_self ..)))
  refine i.two per (List.mem_cons_self ..) x ?_ ?_ <;> simp only [In] at * <;> omega

/-- The chunk behind an area handed out. -/
theorem Inv.chunk {s : State} {h : Held} (i : Inv s h) {p n : Nat} (hp : (p, n) ∈ h) :
    ∃ c ∈ s.live, c.1.addr + 8 = p ∧ c.2 = n ∧ n + 8 ≤ c.1.size ∧ WF c.1 := by
  obtain ⟨c, hc, ec⟩ := List.mem_map.1 (i.held.mem_iff.1 hp)
  have := i.wfLive c hc
  cases ec
  exact ⟨c, hc, rfl, rfl, this.2, this.1⟩

/-- C27: an area handed out lies in mapped memory, behind the header of the block it comes from. -/
theorem C27_mapped {s : State} {h : Held} (r : Run s h) {p n : Nat} (hp : (p, n) ∈ h) (x : Nat) (hx : In p n x) :
    (∃ k ∈ s.blocks, In k.addr k.bytes x) ∧ ∀ k ∈ s.blocks, ¬ In k.addr 32 x := by
  have i := r.inv
  obtain ⟨c, hc, e1, e2, hsz, hw⟩ := i.chunk hp
  have h1 := i.tile x
  have h2 := i.one x
  have hin : In c.1.addr c.1.size x := by simp only [In] at *; omega
  have h3 := cov_mem (List.mem_map.2 ⟨c, hc, rfl⟩ : c.1 ∈ s.live.map (·.1)) x
  have h4 := has_pos.2 hin
  refine ⟨?_, ?_⟩
  · obtain ⟨m, hm, hmx⟩ := cov_pos (show 0 < cov (maps s.blocks) x by omega)
    obtain ⟨k, hk, ek⟩ := List.mem_map.1 hm
    subst ek
    exact ⟨k, hk, hmx⟩
  · intro k hk hkx
    have h5 : _ ≤ cov (heads s.blocks) x := cov_mem (List.mem_map.2 ⟨k, hk, rfl⟩ : (⟨k.addr, 32⟩ : Chunk) ∈ heads s.blocks) x
    have h6 := (has_pos (c := ⟨k.addr, 32⟩)).2 hkx
    omega

/-- C27: writing inside an area handed out touches neither a free chunk nor the size word in front of
any area in use, so it cannot disturb the allocator. -/
theorem C27_private {s : State} {h : Held} (r : Run s h) {p n : Nat} (hp : (p, n) ∈ h) (x : Nat) (hx : In p n x) :
    (∀ k ∈ s.blocks, ∀ f ∈ k.buddies, ¬ In f.addr f.size x) ∧ ∀ q m, (q, m) ∈ h → ¬ In (q - 8) 8 x := by
  have i := r.inv
  obtain ⟨c, hc, e1, e2, hsz, hw⟩ := i.chunk hp
  have h1 := i.tile x
  have h2 := i.one x
  have hin : In c.1.addr c.1.size x := by simp only [In] at *; omega
  refine ⟨?_, ?_⟩
  · intro k hk f hf hfx
    have h3 := cov_mem (List.mem_map.2 ⟨c, hc, rfl⟩ : c.1 ∈ s.live.map (·.1)) x
    have h4 := has_pos.2 hin
    have h5 := cov_mem (mem_frees.2 ⟨k, hk, hf⟩) x
    have h6 := has_pos.2 hfx
    omega
  · intro q m hq hqx
    by_cases e : (q, m) = (p, n)
    · cases e
      simp only [In] at hx hqx
      omega
    · obtain ⟨rest, per⟩ : ∃ rest, h.Perm ((p, n) :: rest) := ⟨_, List.perm_cons_erase hp⟩
      have hq' : (q, m) ∈ rest := by
        rcases List.mem_cons.1 (per.mem_iff.1 hq) with y | y
        · exact absurd y e
        · exact y
      refine i.two per hq' x ?_ ?_ <;> simp only [In] at * <;> omega

/-- C27: no memory is lost: every mapped byte belongs to a block header, to a free chunk or to a chunk
in use. -/
theorem C27_conserved {s : State} {h : Held} (r : Run s h) {k : Block} (hk : k ∈ s.blocks) (x : Nat) (hx : In k.addr k.bytes x) :
    (∃ k' ∈ s.blocks, In k'.addr 32 x) ∨ (∃ k' ∈ s.blocks, ∃ f ∈ k'.buddies, In f.addr f.size x) ∨ ∃ c ∈ s.live, In c.1.addr c.1.size x := by
  have i := r.inv
  have h1 := i.tile x
  have h2 : _ ≤ cov (maps s.blocks) x := cov_mem (List.mem_map.2 ⟨k, hk, rfl⟩ : (⟨k.addr, k.bytes⟩ : Chunk) ∈ maps s.blocks) x
  have h3 := (has_pos (c := ⟨k.addr, k.bytes⟩)).2 hx
  by_cases a : 0 < cov (heads s.blocks) x
  · obtain ⟨m, hm, hmx⟩ := cov_pos a
    obtain ⟨k', hk', ek⟩ := List.mem_map.1 hm
    subst ek
    exact .inl ⟨k', hk', hmx⟩
  · by_cases b : 0 < cov (frees s.blocks) x
    · obtain ⟨f, hf, hfx⟩ := cov_pos b
      obtain ⟨k', hk', hf'⟩ := mem_frees.1 hf
      exact .inr (.inl ⟨k', hk', f, hf', hfx⟩)
    · obtain ⟨c, hc, hcx⟩ := cov_pos (show 0 < cov (s.live.map (·.1)) x by omega)
      obtain ⟨d, hd, ed⟩ := List.mem_map.1 hc
      subst ed
      exact .inr (.inr ⟨d, hd, hcx⟩)

/-- C27: once everything is released, every byte of every block but the headers is free again. -/
theorem C27_released {s : State} (r : Run s []) {k : Block} (hk : k ∈ s.blocks) (x : Nat) (hx : In k.addr k.bytes x) (hx2 : k.addr + 32 ≤ x) :
    ∃ k' ∈ s.blocks, ∃ f ∈ k'.buddies, In f.addr f.size x := by
  have i := r.inv
  have hl : s.live = [] := by
    have := i.held.length_eq
    simp at this
    exact List.length_eq_zero_iff.1 this.symm
  rcases C27_conserved r hk x hx with ⟨k', hk', h1⟩ | h1 | ⟨c, hc, _⟩
  · exfalso
    -- the header of another block would lie in this one
    obtain ⟨l1, l2, el⟩ := List.append_of_mem hk
    have h2 := i.one x
    have per : s.blocks.Perm (k :: (l1 ++ l2)) := by rw [el]; exact List.perm_middle
    have h3 := cov_perm (per.map fun k => (⟨k.addr, k.bytes⟩ : Chunk)) x
    simp only [List.map_cons, cov] at h3
    have h4 := (has_pos (c := ⟨k.addr, k.bytes⟩)).2 hx
    rcases List.mem_cons.1 (per.mem_iff.1 hk') with e | e
    · subst e; simp only [In] at h1; omega
    · have h5 := cov_perm (per.map fun k => (⟨k.addr, 32⟩ : Chunk)) x
      simp only [List.map_cons, cov] at h5
      have h6 := cov_mem (List.mem_map.2 ⟨k', e, rfl⟩ : (⟨k'.addr, 32⟩ : Chunk) ∈ (l1 ++ l2).map fun k => ⟨k.addr, 32⟩) x
      have h7 := (has_pos (c := ⟨k'.addr, 32⟩)).2 h1
      have h8 := i.tile x
      have h9 : cov ((l1 ++ l2).map fun k => (⟨k.addr, k.bytes⟩ : Chunk)) x = 0 := by
        simp only [maps] at h2; omega
      have hb := r.block32 k' hk'
      have h10 := cov_mem (List.mem_map.2 ⟨k', e, rfl⟩ : (⟨k'.addr, k'.bytes⟩ : Chunk) ∈ (l1 ++ l2).map fun k => ⟨k.addr, k.bytes⟩) x
      have h11 := (has_pos (c := ⟨k'.addr, k'.bytes⟩) (x := x)).2 (by simp only [In] at *; omega)
      omega
  · exact h1
  · rw [hl] at hc; cases hc

/-- C27: every area starts at a multiple of 8 and is not null. -/
theorem C27_aligned {s : State} {h : Held} (r : Run s h) {p n : Nat} (hp : (p, n) ∈ h) : p % 8 = 0 ∧ p ≠ 0 := by
  obtain ⟨c, hc, e1, e2, hsz, hw⟩ := r.inv.chunk hp
  have := hw.al
  omega

/-- C27: releasing an area handed out is always possible. -/
theorem C27_free_defined {s : State} {h : Held} (r : Run s h) {p n : Nat} (hp : (p, n) ∈ h) : ∃ s', s.free p = some s' := by
  obtain ⟨c, hc, e1, _⟩ := r.inv.chunk hp
  unfold State.free
  rw [if_neg (C27_aligned r hp).2]
  cases hf : s.live.find? (fun c => c.1.addr + 8 == p) with
  | none => exact absurd e1 (by have := List.find?_eq_none.1 hf c hc; simpa using this)
  | some d => exact ⟨_, rfl⟩

/-- C27: a request is served unless its size, rounded, is within 40 bytes of the next multiple of
4 MB: a new block is mapped if the existing ones have no room. -/
theorem C27_served (s : State) (size map : Nat) (hs : size < 2 ^ 62) (h : roundUp (size + 10) + 40 ≤ batchBytes (roundUp (size + 10))) :
    ∃ s' p, s.malloc size map = (s', some p) := by
  obtain ⟨e, a, b, c, d, _⟩ := request hs
  simp only [State.malloc, e]
  cases h1 : alloc (roundUp (size + 10)) s.blocks with
  | some r => exact ⟨_, _, rfl⟩
  | none =>
    have : ∃ r, mallocIn (roundUp (size + 10)) [⟨map + 32, batchBytes (roundUp (size + 10)) - 32⟩] = some r := by
      unfold mallocIn
      rw [Nat.mod_eq_of_lt c]
      simp only
      rw [if_pos (by omega)]
      split <;> exact ⟨_, rfl⟩
    obtain ⟨r, hr⟩ := this
    simp only [alloc, Block.new, hr]
    exact ⟨_, _, rfl⟩

/-- Finding: a request just below 4 MB gets a null pointer although memory was mapped for it. -/
theorem C27_null_false : (State.malloc ⟨[], []⟩ 4194264 65536).2 = none := by decide +kernel

/-- Finding: a request within 10 of 2^64 gets a tiny area. -/
theorem C27_huge_false : ((State.malloc ⟨[], []⟩ (2 ^ 64 - 5) 65536).1.live.map fun c => (c.1.size, c.2)) = [(16, 2 ^ 64 - 5)] := by decide +kernel

/-- A history: two areas, the first released, a third one. -/
theorem sample : ∃ s, Run s [(4259728, 30), (4259776, 20)] ∧ s.blocks.length = 1 := by
  have r1 : Run ⟨[⟨65536, 4194304, [⟨65568, 4194240⟩]⟩], [(⟨4259808, 32⟩, 10)]⟩ [(4259816, 10)] :=
    Run.malloc (map := 65536) (size := 10) Run.start (by decide) (by decide) (by decide) (by decide +kernel) (by simp) (by decide +kernel)
  have hk : ∀ (bs : List Chunk) (n : Nat), n = 4194304 → ∀ k ∈ [(⟨65536, 4194304, bs⟩ : Block)], ∀ x, In 8000000 n x → ¬ In k.addr k.bytes x := by
    intro bs n hn k hk x
    have : k = ⟨65536, 4194304, bs⟩ := by simpa using hk
    subst this
    simp only [In]
    omega
  have r2 : Run ⟨[⟨65536, 4194304, [⟨65568, 4194200⟩]⟩], [(⟨4259768, 40⟩, 20), (⟨4259808, 32⟩, 10)]⟩ [(4259776, 20), (4259816, 10)] :=
    Run.malloc (map := 8000000) (size := 20) r1 (by decide) (by decide) (by decide) (by decide +kernel) (hk _ _ (by decide +kernel)) (by decide +kernel)
  have r3 : Run ⟨[⟨65536, 4194304, [⟨65568, 4194200⟩, ⟨4259808, 32⟩]⟩], [(⟨4259768, 40⟩, 20)]⟩ [(4259776, 20)] :=
    Run.free (p := 4259816) (n := 10) r2 (by decide) (by decide +kernel)
  have r4 : Run ⟨[⟨65536, 4194304, [⟨65568, 4194152⟩, ⟨4259808, 32⟩]⟩], [(⟨4259720, 48⟩, 30), (⟨4259768, 40⟩, 20)]⟩ [(4259728, 30), (4259776, 20)] :=
    Run.malloc (map := 8000000) (size := 30) r3 (by decide) (by decide) (by decide) (by decide +kernel) (hk _ _ (by decide +kernel)) (by decide +kernel)
  exact ⟨_, r4, rfl⟩

example : roundUp (100 + 10) + 40 ≤ batchBytes (roundUp (100 + 10)) := by decide +kernel

end H2.Libc
