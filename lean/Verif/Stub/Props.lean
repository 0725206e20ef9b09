import Verif.Stub.Invariant
/-
C30: original functions are restored; C31: a stubbed function jumps to its fake.
-/
namespace H2.Stub

/-- **C31**.  Whatever the two addresses, executing the bytes written at `src` jumps to `dst`. -/
theorem C31_jump (m : Mem) (src dst : Addr) : Jumps (write m src (jumpCode src dst)) src dst := jump_spec m src dst

/-- **C31**.  The same on arm64. -/
theorem C31_jump_arm (m : Mem) (src dst : Addr) : JumpsArm (write m src (jumpCodeArm dst)) src dst := by
  obtain ⟨C, hC⟩ : ∃ C, jumpCodeArm dst = C := ⟨_, rfl⟩
  have hlen : C.length = 16 := by rw [← hC]; simp [jumpCodeArm, length_leBytes]
  -- `read_write` for sixteen bytes
  have rw16 : ∀ i n, i + n ≤ 16 → read (write m src C) (src + BitVec.ofNat 64 i) n = (C.drop i).take n := by
    intro i n hi
    apply List.ext_getElem
    · simp [read]; omega
    · intro k h1 h2
      simp [read] at h1
      simp only [read, List.getElem_map, List.getElem_range, List.getElem_take, List.getElem_drop]
      have : src + BitVec.ofNat 64 i + BitVec.ofNat 64 k = src + BitVec.ofNat 64 (i + k) := by
        rw [BitVec.add_assoc, BitVec.ofNat_add]
      rw [this, write, sub_add_toNat _ _ (by omega), List.getD, List.getElem?_eq_getElem (by omega)]
      rfl
  obtain ⟨A, hA⟩ : ∃ A, leBytes (0x58000000 ||| ((8 / 4) <<< 5) ||| 17) 4 = A := ⟨_, rfl⟩
  obtain ⟨B, hB⟩ : ∃ B, leBytes (0xD61F0000 ||| (17 <<< 5)) 4 = B := ⟨_, rfl⟩
  obtain ⟨D, hD⟩ : ∃ D, leBytes dst.toNat 8 = D := ⟨_, rfl⟩
  have la : A.length = 4 := by rw [← hA, length_leBytes]
  have lb : B.length = 4 := by rw [← hB, length_leBytes]
  have ld : D.length = 8 := by rw [← hD, length_leBytes]
  have hCA : C = A ++ (B ++ D) := by rw [← hC, jumpCodeArm, hA, hB, hD, List.append_assoc]
  rw [hC]
  refine .literal 17 2 (by omega) (by omega) ?_ ?_ ?_
  · rw [field_eq]
    have e := rw16 0 4 (by omega)
    rw [List.drop_zero] at e
    have z : src + BitVec.ofNat 64 0 = src := by simp
    rw [z] at e
    have t : C.take 4 = A := by rw [hCA, ← la, List.take_left]
    rw [e, t, ← hA, le_leBytes]
    decide
  · rw [field_eq]
    have e : read (write m src C) (src + 4) 4 = (C.drop 4).take 4 := rw16 4 4 (by omega)
    have t : (C.drop 4).take 4 = B := by
      rw [hCA, show (4 : Nat) = A.length from la.symm, List.drop_left, la, show (4 : Nat) = B.length from lb.symm, List.take_left]
    rw [e, t, ← hB, le_leBytes]
    decide
  · rw [field_eq]
    have e : read (write m src C) (src + BitVec.ofNat 64 (4 * 2)) 8 = (C.drop 8).take 8 := rw16 8 8 (by omega)
    have t : (C.drop 8).take 8 = D := by
      rw [hCA, ← List.append_assoc, List.drop_left' (by simp [la, lb]), List.take_of_length_le (by omega)]
    rw [e, t, ← hD, le_leBytes]
    apply BitVec.eq_of_toNat_eq
    have := dst.isLt
    rw [BitVec.toNat_ofNat]; omega

/-- Both forms of the jump occur. -/
example : (jumpCode 0x1000 0x2000).length = 5 ∧ (jumpCode 0x1000 0x300000000000).length = 12 := by decide +kernel

/-- **C31**.  Stubbing has an effect: the function patched for the name jumps to the fake, and if the
name was not stubbed on that list before, it is the function the name stands for. -/
theorem C31_stub {s s' : State} (h : Reach s) {c : Nat} {fp dst : Addr} (e : s.stub c fp dst = some s') :
    ∃ t ∈ s'.stubs, t.scope = c ∧ t.name = fp ∧ Jumps s'.mem t.source dst ∧
      ((∀ u ∈ s.stubs, ¬ (u.scope = c ∧ u.name = fp)) → t.source = s.resolve fp) := by
  rcases stub_cases h.wf c fp dst with ⟨t, ht, h1, h2, h3⟩ | ⟨s1, n, hn, h3⟩
  · rw [h3] at e; simp at e; subst e
    exact ⟨t, ht, h1, h2, jump_spec _ _ _, fun hx => absurd ⟨h1, h2⟩ (hx t ht)⟩
  · rw [h3] at e; simp at e; subst e
    exact ⟨⟨c, fp, read s.mem (s.resolve fp) 12, s.resolve fp⟩, by rw [n.stubs]; simp, rfl, rfl, jump_spec _ _ _, fun _ => rfl⟩

/-- The bytes the jump at `a` depends on: its own, and those of the pointer it goes through. -/
def Footprint (m : Mem) (a x : Addr) : Prop :=
  Within a x ∨ (x - (a + 6 + BitVec.ofInt 64 ((BitVec.ofNat 32 (field m (a + 2) 4)).toInt))).toNat < 8 ∨
    (x - (a + 7 + BitVec.ofInt 64 ((BitVec.ofNat 32 (field m (a + 3) 4)).toInt))).toNat < 8

theorem field_congr {m m' : Mem} {a : Addr} {n : Nat} (hn : n < 2 ^ 64) (h : ∀ x, (x - a).toNat < n → m x = m' x) :
    field m a n = field m' a n := by
  rw [field_eq, field_eq]
  congr 1
  unfold read
  apply List.map_congr_left
  intro i hi
  apply h
  simp at hi
  rw [sub_add_toNat _ _ (by omega)]; exact hi

theorem sub_add (x a b : Addr) : x - (a + b) = x - a - b := by
  apply BitVec.eq_of_toNat_eq
  have := x.isLt
  have := a.isLt
  have := b.isLt
  simp only [BitVec.toNat_sub, BitVec.toNat_add]
  omega

theorem within_offset (a x : Addr) (i n : Nat) (hi : i + n ≤ 12) (h : (x - (a + BitVec.ofNat 64 i)).toNat < n) : Within a x := by
  unfold Within
  have : x - a = (x - (a + BitVec.ofNat 64 i)) + BitVec.ofNat 64 i := by
    rw [sub_add, BitVec.sub_add_cancel]
  rw [this, BitVec.toNat_add, BitVec.toNat_ofNat]
  omega

theorem Jumps.congr {m m' : Mem} {a b : Addr} (h : ∀ x, Footprint m a x → m x = m' x) (j : Jumps m a b) : Jumps m' a b := by
  have hw : ∀ i, i < 12 → m (a + BitVec.ofNat 64 i) = m' (a + BitVec.ofNat 64 i) := by
    intro i hi
    apply h; left
    rw [Within, sub_add_toNat _ _ (by omega)]; exact hi
  have hf : ∀ i n, i + n ≤ 12 → field m (a + BitVec.ofNat 64 i) n = field m' (a + BitVec.ofNat 64 i) n := by
    intro i n hin
    exact field_congr (by omega) fun x hx => h x (.inl (within_offset a x i n hin hx))
  have h0 : m a = m' a := by simpa using hw 0 (by omega)
  cases j with
  | rel32 h1 h2 =>
    refine .rel32 (by rw [← h0, h1]) ?_
    have := hf 1 4 (by omega)
    rw [h2]; exact congrArg (fun n => a + 5 + BitVec.ofInt 64 (BitVec.ofNat 32 n).toInt) this
  | rel8 h1 h2 =>
    refine .rel8 (by rw [← h0, h1]) ?_
    have := hf 1 1 (by omega)
    rw [h2]; exact congrArg (fun n => a + 2 + BitVec.ofInt 64 (BitVec.ofNat 8 n).toInt) this
  | mem h1 h2 h3 =>
    refine .mem (by rw [← h0, h1]) ((hw 1 (by omega)).symm.trans h2) ?_
    have e : field m (a + 2) 4 = field m' (a + 2) 4 := hf 2 4 (by omega)
    rw [h3, field_congr (m' := m') (by omega) (fun x hx => h x (.inr (.inl hx))), e]
  | memRex h1 h2 h3 h4 =>
    refine .memRex (by rw [← h0, h1]) ((hw 1 (by omega)).symm.trans h2) ((hw 2 (by omega)).symm.trans h3) ?_
    have e : field m (a + 3) 4 = field m' (a + 3) 4 := hf 3 4 (by omega)
    rw [h4, field_congr (m' := m') (by omega) (fun x hx => h x (.inr (.inr hx))), e]
  | rax h1 h2 h3 h4 h5 =>
    refine .rax (by rw [← h0, h1]) ((hw 1 (by omega)).symm.trans h2) ?_ ((hw 10 (by omega)).symm.trans h4)
      ((hw 11 (by omega)).symm.trans h5)
    have := hf 2 8 (by omega)
    rw [h3]; exact congrArg (BitVec.ofNat 64) this

/-- **C31**.  After `STUB(f, g)` a call to `f` arrives at `g`: also if `f` is a jump to the function
proper (a PLT entry), as long as the patch does not run into that jump or its pointer. -/
theorem C31_call {s s' : State} (h : Reach s) {c : Nat} {fp dst : Addr} (e : s.stub c fp dst = some s')
    (hnew : ∀ u ∈ s.stubs, ¬ (u.scope = c ∧ u.name = fp))
    (hfar : s.resolve fp ≠ fp → ∀ x, Footprint s.mem fp x → ¬ Within (s.resolve fp) x) : Arrives s'.mem fp dst := by
  rcases stub_cases h.wf c fp dst with ⟨t, ht, h1, h2, h3⟩ | ⟨s1, n, hn, h3⟩
  · exact absurd ⟨h1, h2⟩ (hnew t ht)
  · rw [h3] at e; simp at e; subst e
    by_cases hr : s.resolve fp = fp
    · rw [hr]; exact .one (jump_spec _ _ _)
    · refine .two (b := s.resolve fp) ?_ (jump_spec _ _ _)
      have hj : Jumps s.mem fp (s.resolve fp) := by
        unfold State.resolve at hr ⊢
        split
        · rename_i hs; rw [if_pos hs] at hr; exact absurd rfl hr
        · rename_i hs; rw [if_neg hs] at hr
          exact (followJmp_spec s.mem fp).resolve_left hr
      refine hj.congr ?_
      intro x hx
      simp only
      rw [write_out _ _ _ _ (length_jumpCode _ _) (hfar hr x hx), n.mem]

/-- **C30**.  Stubbing never uses a dead source: from every reachable state every operation succeeds. -/
theorem C30_defined {s : State} (h : Reach s) (c : Nat) (fp dst : Addr) :
    (s.stub c fp dst).isSome ∧ (s.unstub c fp).isSome ∧ (s.clear c).isSome := by
  refine ⟨?_, ?_, ?_⟩
  · rcases stub_cases h.wf c fp dst with ⟨t, _, _, _, e⟩ | ⟨s1, _, _, e⟩ <;> rw [e] <;> rfl
  · rcases unstub_cases h.wf c fp with e | ⟨_, _, _, s1, _, _, e, _⟩ <;> rw [e] <;> rfl
  · obtain ⟨s1, e, _⟩ := clear_ind WF c (fun _ h => h) (fun _ _ _ _ _ h _ _ d => d.wf h) s h.wf
    rw [e]; rfl

/-- **C30**.  A session of stubbing on any number of lists that were empty when it began leaves, once
they are empty again, every byte as it was. -/
theorem C30_session_partial {C : Nat → Prop} [DecidablePred C] {s₀ s : State} (h : Reach s₀) (hnew : ∀ t ∈ s₀.stubs, ¬ C t.scope)
    (ss : Session C s₀ s) (hdone : ∀ t ∈ s.stubs, ¬ C t.scope) : s.mem = s₀.mem ∧ s.stubs = s₀.stubs := by
  have i := Session.inv h.wf hnew ss
  refine ⟨funext fun x => i.mem x fun t ht hc => absurd hc (hdone t ht), ?_⟩
  rw [← i.stubs]
  symm
  rw [List.filter_eq_self]
  intro t ht; simpa using hdone t ht

/-- **C30**.  Whatever a case stubs and unstubs (unstubbing functions that were already patched when
the case began in order), clearing its list at the end of the case succeeds and makes every byte of
the code what it was when the case began. -/
theorem C30_case_partial {s₀ s : State} (h : Reach s₀) {c : Nat} (hnew : ∀ t ∈ s₀.stubs, t.scope ≠ c)
    (ss : Session (fun k => k = c) s₀ s) : ∃ s', s.clear c = some s' ∧ s'.mem = s₀.mem ∧ s'.stubs = s₀.stubs := by
  have i := Session.inv h.wf hnew ss
  have ho : InOrderAll s₀ s c := by
    intro l t r e ht hp u hu hus
    obtain ⟨new, e1, e2⟩ := i.front
    have e3 := e
    rw [e1] at e3
    rcases List.append_eq_append_iff.1 e3 with ⟨m, f1, f2⟩ | ⟨m, f1, f2⟩
    · exact absurd ht (hnew t (by rw [f2]; simp))
    · exact e2 u (by rw [f1]; simp [hu])
  obtain ⟨s', e, _, hst⟩ := clear_ind WF c (fun _ h => h) (fun _ _ _ _ _ h _ _ d => d.wf h) s i.wf
  have ss' : Session (fun k => k = c) s₀ s' := .clear ss rfl ho e
  refine ⟨s', e, C30_session_partial h hnew ss' ?_⟩
  intro t ht
  rw [hst] at ht
  simp at ht
  exact ht.2

/-- **C30**.  For functions not patched before the case, unstubbing is always in order: the
hypothesis on `UNSTUB` concerns only functions that were already stubbed outside the case. -/
theorem C30_order {s₀ s : State} {c : Nat} {fp : Addr} (h : ∀ t ∈ s.stubs, t.scope = c → t.name = fp → ¬ Patched s₀ t.source) :
    InOrder s₀ s c fp :=
  fun l t r e h1 h2 hp => absurd hp (h t (by rw [e]; simp) h1 h2)

/-- **C30**.  `UNSTUB` brings back the bytes found by the first `STUB` of that name, for a function
that stays patched, and the original bytes otherwise. -/
theorem C30_unstub {s s' : State} (h : Reach s) {c : Nat} {fp : Addr} (e : s.unstub c fp = some s') :
    (s' = s ∧ ∀ t ∈ s.stubs, ¬ (t.scope = c ∧ t.name = fp)) ∨
    ∃ t ∈ s.stubs, t.scope = c ∧ t.name = fp ∧ (∀ x, ¬ Within t.source x → s'.mem x = s.mem x) ∧
      ∃ q ∈ s.sources, q.addr = t.source ∧
        (Patched s' t.source → read s'.mem t.source 12 = t.saved) ∧ (¬ Patched s' t.source → read s'.mem t.source 12 = q.origin) := by
  cases hf : s.stubs.find? (isStub c fp) with
  | none =>
    left
    simp [State.unstub, hf] at e
    refine ⟨e.symm, fun t ht => ?_⟩
    have := List.find?_eq_none.1 hf t ht
    simpa [isStub] using this
  | some t =>
    right
    obtain ⟨h1, h2, l, r, h3, h4⟩ := find_split hf
    obtain ⟨s1, h5, d⟩ := dropStub_spec h.wf h3 h4
    simp [State.unstub, hf, h5] at e
    subst e
    have htm : t ∈ s.stubs := List.mem_of_find?_eq_some hf
    obtain ⟨q, hq, hqa⟩ := h.wf.alive t htm
    refine ⟨t, htm, h1, h2, d.out, q, hq, hqa, ?_⟩
    have hp : Patched s1 t.source ↔ ∃ u ∈ l ++ r, u.source = t.source := by
      rw [d.patched]
      constructor
      · rintro ⟨_, h | h⟩
        · exact absurd rfl h
        · exact h
      · intro h'; exact ⟨⟨q, hq, hqa⟩, .inr h'⟩
    have key : ∀ bs : List Byte, bs.length = 12 → (∀ x, Within t.source x → s1.mem x = write s.mem t.source bs x) → read s1.mem t.source 12 = bs := by
      intro bs hb hx
      rw [read_congr hx]
      have := read_write s.mem t.source bs 0 12 (by omega) (by omega)
      rw [show t.source + BitVec.ofNat 64 0 = t.source by simp, List.drop_zero] at this
      rw [this, List.take_of_length_le (by omega)]
    constructor
    · intro hh
      apply key _ (h.wf.saved t htm)
      intro x hx
      rw [d.within q hq hqa x hx, if_pos (hp.1 hh)]
    · intro hh
      apply key _ (h.wf.origin q hq)
      intro x hx
      rw [d.within q hq hqa x hx, if_neg (fun hu => hh (hp.2 hu))]

/-- **C30**.  While a mocked function calls the original, its code is the one it had when the case
began (for a function not patched before), and afterwards the stub is back. -/
theorem C30_temporary {C : Nat → Prop} [DecidablePred C] {s₀ s : State} (h : Reach s₀) (hnew : ∀ t ∈ s₀.stubs, ¬ C t.scope)
    (ss : Session C s₀ s) {fp : Addr} (hp : Patched s (s.resolve fp)) (hfresh : ¬ Patched s₀ (s.resolve fp)) :
    (∀ x, Within (s.resolve fp) x → (s.restoreBegin fp).1.mem x = s₀.mem x) ∧
    ((s.restoreBegin fp).1.resolve fp = s.resolve fp →
      (s.restoreBegin fp).1.restoreEnd fp (s.restoreBegin fp).2 = some s) := by
  have i := Session.inv h.wf hnew ss
  obtain ⟨q, hq⟩ := patched_source hp
  obtain ⟨hqm, hqa⟩ := source?_some hq
  constructor
  · intro x hx
    simp only [State.restoreBegin, hq]
    rw [i.fresh q hqm (by rw [hqa]; exact hfresh), hqa]
    exact write_read _ _ _ _ hx
  · intro hr
    have hq2 : (s.restoreBegin fp).1.source? (s.resolve fp) = some q := by
      simp only [State.restoreBegin, hq]; exact hq
    simp only [State.restoreEnd]
    rw [hr, hq2]
    simp only [State.restoreBegin, hq]
    congr 1
    have : write (write s.mem q.addr q.origin) q.addr (read s.mem q.addr e9Size) = s.mem := by
      funext x
      by_cases hx : Within q.addr x
      · exact write_read _ _ _ _ hx
      · rw [write_out _ _ _ _ (by simp [length_read, e9Size]) hx, write_out _ _ _ _ (by rw [i.wf.origin q hqm]; omega) hx]
    rw [this]

/-! ### Where the property fails -/

/-- Code with a jump (a PLT entry) at `0x1000` to the function at `0x2000`, and a stub of that
function on list 1 (the suite). -/
def outer : State :=
  ((State.stub ⟨write (fun _ => 0x90) 0x1000 (jumpCode 0x1000 0x2000), [], []⟩ 1 0x2000 0x3000).getD ⟨fun _ => 0, [], []⟩)

/-- **C30**, refuted for a function already stubbed by the suite that a case stubs under two names
(through its PLT entry and directly) and unstubs out of order. -/
theorem C30_alias_false :
    (((outer.stub 2 0x1000 0x4000).bind fun s => (s.stub 2 0x2000 0x5000).bind fun s =>
      (s.unstub 2 0x1000).bind fun s => s.clear 2).map fun s => (read s.mem 0x2000 5 == read outer.mem 0x2000 5)) = some false := by
  decide +kernel

/-- **C30**, refuted for a function already stubbed by the suite that a case stubs on two lists, of
which the first is cleared first (as with `STUB(send, …)` followed by `SOCK`). -/
theorem C30_two_lists_false :
    (((outer.stub 2 0x2000 0x4000).bind fun s => (s.stub 3 0x2000 0x5000).bind fun s =>
      (s.clear 2).bind fun s => s.clear 3).map fun s => (read s.mem 0x2000 5 == read outer.mem 0x2000 5)) = some false := by
  decide +kernel

/-- **C30**, refuted for two functions less than twelve bytes apart. -/
theorem C30_overlap_false :
    (((State.stub ⟨fun _ => 0x90, [], []⟩ 2 0x2000 0x300000000000).bind fun s => (s.stub 2 0x2008 0x400000000000).bind fun s =>
      (s.unstub 2 0x2000).bind fun s => s.clear 2).map fun s => (read s.mem 0x2000 12 == List.replicate 12 0x90)) = some false := by
  decide +kernel

/-! ### A concrete session -/

theorem outer_reach : Reach outer :=
  .stub (s := ⟨write (fun _ => 0x90) 0x1000 (jumpCode 0x1000 0x2000), [], []⟩) (c := 1) (fp := 0x2000) (dst := 0x3000)
    (.start _) (.inr (by simp)) (by
      obtain ⟨s, hs⟩ := Option.isSome_iff_exists.1 (C30_defined (.start (write (fun _ => 0x90) 0x1000 (jumpCode 0x1000 0x2000))) 1 0x2000 0x3000).1
      rw [outer, hs]; rfl)

/-- A case stubs the function through its PLT entry, replaces the fake and ends: hypotheses of
`C30_case_partial` and `C30_session_partial` are met, and the case did change the code. -/
example : ∃ s, Session (fun k => k = 2) outer s ∧ read s.mem 0x2000 5 ≠ read outer.mem 0x2000 5 ∧ ∀ t ∈ outer.stubs, t.scope ≠ 2 := by
  obtain ⟨s, hs⟩ := Option.isSome_iff_exists.1 (C30_defined outer_reach 2 0x1000 0x4000).1
  refine ⟨s, .stub .start rfl ?_ hs, ?_, ?_⟩
  · have h : outer.resolve 0x1000 = 0x2000 ∧ outer.sources.map (·.addr) = [0x2000] := by decide +kernel
    left
    rw [h.1]
    have : (0x2000 : Addr) ∈ outer.sources.map (·.addr) := by rw [h.2]; simp
    simpa [Patched] using this
  · have : (outer.stub 2 0x1000 0x4000).map (fun s => read s.mem 0x2000 5 == read outer.mem 0x2000 5) = some false := by decide +kernel
    rw [hs] at this
    simpa using this
  · have : outer.stubs.map (·.scope) = [1] := by decide +kernel
    intro t ht
    have ht' : t.scope ∈ outer.stubs.map (·.scope) := List.mem_map.2 ⟨t, ht, rfl⟩
    rw [this] at ht'
    simp at ht'
    rw [ht']; decide

end H2.Stub
