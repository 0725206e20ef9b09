import Verif.Libc.Spec
namespace H2.Libc

/-- Does the chunk contain the address? -/
def has (c : Chunk) (x : Nat) : Nat := if c.addr ≤ x ∧ x < c.addr + c.size then 1 else 0

/-- How many chunks contain the address. -/
def cov : List Chunk → Nat → Nat
  | [], _ => 0
  | c :: cs, x => has c x + cov cs x

theorem cov_append (as bs : List Chunk) (x : Nat) : cov (as ++ bs) x = cov as x + cov bs x := by
  induction as with
  | nil => simp [cov]
  | cons a as ih => simp only [List.cons_append, cov, ih]; omega

/-- Well-formed chunk. -/
structure WF (c : Chunk) : Prop where
  big : 24 ≤ c.size
  al : c.addr % 8 = 0
  sz : c.size % 8 = 0
  pos : 0 < c.addr
  top : c.addr + c.size ≤ 2 ^ 64

theorem mallocIn_spec {size : Nat} (h16 : 16 ≤ size) (h8 : size % 8 = 0) (hlt : size + 8 < W) {ps ps' : List Chunk} {c : Chunk} (hw : ∀ p ∈ ps, WF p)
    (h : mallocIn size ps = some (ps', c)) :
    (∀ x, cov ps x = cov ps' x + has c x) ∧ (∀ p ∈ ps', WF p) ∧ WF c ∧ size + 8 ≤ c.size := by
  induction ps generalizing ps' with
  | nil => simp [mallocIn] at h
  | cons p ps ih =>
    have hp := hw p (List.mem_cons_self ..)
    have hw' : ∀ p ∈ ps, WF p := fun q hq => hw q (List.mem_cons_of_mem _ hq)
    have hmod : (size + 8) % W = size + 8 := Nat.mod_eq_of_lt hlt
    simp only [mallocIn, hmod] at h
    obtain ⟨b, a, z, po, t⟩ := hp
    split at h
    · split at h
      · cases h
        refine ⟨?_, ?_, ?_, ?_⟩
        · intro x
          simp only [cov, has]
          split <;> split <;> split <;> omega
        · intro q hq
          rcases List.mem_cons.1 hq with e | e
          · subst e
            exact ⟨by simp only; omega, a, by simp only; omega, po, by simp only; omega⟩
          · exact hw' q e
        · exact ⟨by simp only; omega, by simp only; omega, by simp only; omega, by simp only; omega, by simp only; omega⟩
        · exact Nat.le_refl _
      · cases h
        exact ⟨fun x => by simp only [cov]; omega, hw', ⟨b, a, z, po, t⟩, by assumption⟩
    · cases hm : mallocIn size ps with
      | none => rw [hm] at h; cases h
      | some r =>
        rw [hm] at h
        cases h
        obtain ⟨h1, h2, h3, h4⟩ := ih hw' hm
        refine ⟨fun x => ?_, ?_, h3, h4⟩
        · simp only [cov, h1 x]; omega
        · intro q hq
          rcases List.mem_cons.1 hq with e | e
          · subst e; exact ⟨b, a, z, po, t⟩
          · exact h2 q e

theorem freeIn_spec {b : Chunk} (hb : WF b) {ps : List Chunk} (hw : ∀ p ∈ ps, WF p) :
    (∀ x, cov (freeIn b ps) x = cov ps x + has b x) ∧ (∀ p ∈ freeIn b ps, WF p) := by
  induction ps with
  | nil =>
    refine ⟨fun x => by simp only [freeIn, cov]; omega, ?_⟩
    intro p hp
    have : p = b := by simpa [freeIn] using hp
    subst this; exact hb
  | cons p ps ih =>
    have hp := hw p (List.mem_cons_self ..)
    have hw' : ∀ p ∈ ps, WF p := fun q hq => hw q (List.mem_cons_of_mem _ hq)
    obtain ⟨b1, a1, z1, po1, t1⟩ := hp
    obtain ⟨b2, a2, z2, po2, t2⟩ := hb
    unfold freeIn
    split
    · refine ⟨?_, ?_⟩
      · intro x
        simp only [cov, has]
        split <;> split <;> split <;> omega
      · intro q hq
        rcases List.mem_cons.1 hq with e | e
        · subst e
          exact ⟨by simp only; omega, a1, by simp only; omega, po1, by simp only; omega⟩
        · exact hw' q e
    · split
      · refine ⟨?_, ?_⟩
        · intro x
          simp only [cov, has]
          split <;> split <;> split <;> omega
        · intro q hq
          rcases List.mem_cons.1 hq with e | e
          · subst e
            exact ⟨by simp only; omega, a2, by simp only; omega, po2, by simp only; omega⟩
          · exact hw' q e
      · split
        · refine ⟨fun x => by simp only [cov]; omega, ?_⟩
          intro q hq
          rcases List.mem_cons.1 hq with e | e
          · subst e; exact ⟨b2, a2, z2, po2, t2⟩
          · exact hw q e
        · obtain ⟨h1, h2⟩ := ih hw'
          refine ⟨fun x => by simp only [cov, h1 x]; omega, ?_⟩
          intro q hq
          rcases List.mem_cons.1 hq with e | e
          · subst e; exact ⟨b1, a1, z1, po1, t1⟩
          · exact h2 q e

/-- All free chunks. -/
def frees : List Block → List Chunk
  | [] => []
  | k :: ks => k.buddies ++ frees ks

/-- The blocks' own headers. -/
def heads (ks : List Block) : List Chunk := ks.map fun k => ⟨k.addr, 32⟩
/-- The mapped memory. -/
def maps (ks : List Block) : List Chunk := ks.map fun k => ⟨k.addr, k.bytes⟩

theorem mem_frees {ks : List Block} {c : Chunk} : c ∈ frees ks ↔ ∃ k ∈ ks, c ∈ k.buddies := by
  induction ks with
  | nil => simp [frees]
  | cons k ks ih => simp [frees, ih]

theorem alloc_spec {size : Nat} (h16 : 16 ≤ size) (h8 : size % 8 = 0) (hlt : size + 8 < W) {ks ks' : List Block} {c : Chunk}
    (hw : ∀ p ∈ frees ks, WF p) (h : alloc size ks = some (ks', c)) :
    (∀ x, cov (frees ks) x = cov (frees ks') x + has c x) ∧ (∀ p ∈ frees ks', WF p) ∧ WF c ∧ size + 8 ≤ c.size ∧
      heads ks' = heads ks ∧ maps ks' = maps ks := by
  induction ks generalizing ks' with
  | nil => simp [alloc] at h
  | cons k ks ih =>
    have hk : ∀ p ∈ k.buddies, WF p := fun p hp => hw p (List.mem_append_left _ hp)
    have hks : ∀ p ∈ frees ks, WF p := fun p hp => hw p (List.mem_append_right _ hp)
    unfold alloc at h
    cases hm : mallocIn size k.buddies with
    | some r =>
      rw [hm] at h
      cases h
      obtain ⟨h1, h2, h3, h4⟩ := mallocIn_spec h16 h8 hlt hk hm
      refine ⟨fun x => ?_, ?_, h3, h4, rfl, rfl⟩
      · simp only [frees, cov_append, h1 x]; omega
      · intro p hp
        rcases List.mem_append.1 hp with e | e
        · exact h2 p e
        · exact hks p e
    | none =>
      rw [hm] at h
      cases ha : alloc size ks with
      | none => rw [ha] at h; cases h
      | some r =>
        rw [ha] at h
        cases h
        obtain ⟨h1, h2, h3, h4, h5, h6⟩ := ih hks ha
        refine ⟨fun x => ?_, ?_, h3, h4, ?_, ?_⟩
        · simp only [frees, cov_append, h1 x]; omega
        · intro p hp
          rcases List.mem_append.1 hp with e | e
          · exact hk p e
          · exact h2 p e
        · show _ :: heads r.1 = _ :: heads ks; rw [h5]
        · show _ :: maps r.1 = _ :: maps ks; rw [h6]

theorem Block.free_eq (k : Block) (b : Chunk) : k.free b = some { k with buddies := freeIn b k.buddies } := by
  unfold Block.free
  rw [if_neg (by omega)]

theorem freeBlocks_spec {b : Chunk} (hb : WF b) {ks : List Block} (hne : ks ≠ []) (hw : ∀ p ∈ frees ks, WF p) :
    (∀ x, cov (frees (freeBlocks b ks)) x = cov (frees ks) x + has b x) ∧ (∀ p ∈ frees (freeBlocks b ks), WF p) ∧
      heads (freeBlocks b ks) = heads ks ∧ maps (freeBlocks b ks) = maps ks := by
  cases ks with
  | nil => exact absurd rfl hne
  | cons k ks =>
    obtain ⟨h1, h2⟩ := freeIn_spec hb (ps := k.buddies) (fun p hp => hw p (List.mem_append_left _ hp))
    simp only [freeBlocks, Block.free_eq]
    refine ⟨fun x => ?_, ?_, rfl, rfl⟩
    · simp only [frees, cov_append, h1 x]; omega
    · intro p hp
      rcases List.mem_append.1 hp with e | e
      · exact h2 p e
      · exact hw p (List.mem_append_right _ e)

/-- The invariant. -/
structure Inv (s : State) (h : Held) : Prop where
  tile : ∀ x, cov (frees s.blocks) x + cov (s.live.map (·.1)) x + cov (heads s.blocks) x = cov (maps s.blocks) x
  one : ∀ x, cov (maps s.blocks) x ≤ 1
  wfFree : ∀ p ∈ frees s.blocks, WF p
  wfLive : ∀ c ∈ s.live, WF c.1 ∧ c.2 + 8 ≤ c.1.size
  held : h.Perm (s.live.map fun c => (c.1.addr + 8, c.2))

theorem roundUp_eq {n : Nat} (h : n < 2 ^ 63) : roundUp n = (n + 7) / 8 * 8 := by
  unfold roundUp
  rw [Nat.mod_eq_of_lt (show n + 7 < W by unfold W; omega)]

theorem has_le_one (c : Chunk) (x : Nat) : has c x ≤ 1 := by unfold has; split <;> omega

theorem has_pos {c : Chunk} {x : Nat} : 0 < has c x ↔ In c.addr c.size x := by
  unfold has In; split <;> simp_all

theorem cov_pos {cs : List Chunk} {x : Nat} (h : 0 < cov cs x) : ∃ c ∈ cs, In c.addr c.size x := by
  induction cs with
  | nil => simp [cov] at h
  | cons c cs ih =>
    by_cases hc : 0 < has c x
    · exact ⟨c, List.mem_cons_self .., has_pos.1 hc⟩
    · obtain ⟨d, hd, e⟩ := ih (by simp only [cov] at h; omega)
      exact ⟨d, List.mem_cons_of_mem _ hd, e⟩

theorem cov_mem {cs : List Chunk} {c : Chunk} (hc : c ∈ cs) (x : Nat) : has c x ≤ cov cs x := by
  induction cs with
  | nil => cases hc
  | cons d cs ih =>
    simp only [cov]
    rcases List.mem_cons.1 hc with e | e
    · subst e; omega
    · have := ih e; omega

theorem cov_perm {as bs : List Chunk} (p : as.Perm bs) (x : Nat) : cov as x = cov bs x := by
  induction p with
  | nil => rfl
  | cons a _ ih => simp only [cov, ih]
  | swap a b l => simp only [cov]; omega
  | trans _ _ ih1 ih2 => rw [ih1, ih2]

theorem Inv.start : Inv ⟨[], []⟩ [] :=
  ⟨fun x => rfl, fun x => by simp [maps, cov], by simp [frees], by simp, .nil⟩

theorem batch_ge {n : Nat} (h : 16 ≤ n) : 4194304 ≤ batchBytes n ∧ batchBytes n % 8 = 0 := by
  unfold batchBytes; omega

theorem Inv.batch {s : State} {h : Held} (i : Inv s h) {map n : Nat} (h16 : 16 ≤ n) (h0 : map % 8 = 0) (hpos : 0 < map) (htop : map + batchBytes n ≤ 2 ^ 64)
    (hfresh : ∀ k ∈ s.blocks, ∀ x, In map (batchBytes n) x → ¬ In k.addr k.bytes x) :
    Inv { s with blocks := Block.new map (batchBytes n) :: s.blocks } h := by
  have hb := batch_ge h16
  refine ⟨?_, ?_, ?_, i.wfLive, i.held⟩
  · intro x
    have := i.tile x
    simp only [frees, Block.new, heads, maps, List.map_cons, cov_append, cov]
    simp only [heads, maps] at this
    have e : has ⟨map + 32, batchBytes n - 32⟩ x + has ⟨map, 32⟩ x = has ⟨map, batchBytes n⟩ x := by
      unfold has
      simp only
      split <;> split <;> split <;> omega
    omega
  · intro x
    have := i.one x
    simp only [maps, List.map_cons, cov, Block.new]
    by_cases hx : 0 < has ⟨map, batchBytes n⟩ x
    · have hz : cov (s.blocks.map fun k => ⟨k.addr, k.bytes⟩) x = 0 := by
        apply Classical.byContradiction
        intro hn
        obtain ⟨c, hc, e⟩ := cov_pos (Nat.pos_of_ne_zero hn)
        obtain ⟨k, hk, ek⟩ := List.mem_map.1 hc
        subst ek
        exact hfresh k hk x (has_pos.1 hx) e
      have := has_le_one ⟨map, batchBytes n⟩ x
      omega
    · simp only [maps] at this
      omega
  · intro p hp
    rcases List.mem_append.1 hp with e | e
    · have : p = ⟨map + 32, batchBytes n - 32⟩ := by simpa [Block.new] using e
      subst this
      exact ⟨by simp only; omega, by simp only; omega, by simp only; omega, by simp only; omega, by simp only; omega⟩
    · exact i.wfFree p e

theorem Inv.take {s : State} {h : Held} (i : Inv s h) {size n : Nat} (h16 : 16 ≤ n) (h8 : n % 8 = 0) (hlt : n + 8 < W) (hsz : size ≤ n) {ks : List Block} {c : Chunk}
    (ha : alloc n s.blocks = some (ks, c)) : Inv { blocks := ks, live := (c, size) :: s.live } ((c.addr + 8, size) :: h) := by
  obtain ⟨h1, h2, h3, h4, h5, h6⟩ := alloc_spec h16 h8 hlt i.wfFree ha
  refine ⟨?_, ?_, h2, ?_, ?_⟩
  · intro x
    have := i.tile x
    rw [h1 x] at this
    simp only [List.map_cons, cov, h5, h6]
    omega
  · intro x; simp only [h6]; exact i.one x
  · intro d hd
    rcases List.mem_cons.1 hd with e | e
    · subst e; exact ⟨h3, by simp only; omega⟩
    · exact i.wfLive d e
  · exact i.held.cons _

theorem request {size : Nat} (h : size < 2 ^ 62) :
    (size + 10) % W = size + 10 ∧ 16 ≤ roundUp (size + 10) ∧ roundUp (size + 10) % 8 = 0 ∧ roundUp (size + 10) + 8 < W ∧ size ≤ roundUp (size + 10) ∧
      size + 10 ≤ roundUp (size + 10) ∧ roundUp (size + 10) < size + 18 := by
  have e : (size + 10) % W = size + 10 := Nat.mod_eq_of_lt (by unfold W; omega)
  rw [roundUp_eq (n := size + 10) (by omega)]
  unfold W
  omega

theorem Inv.malloc {s s' : State} {h : Held} (i : Inv s h) {size map : Nat} {r : Option Nat} (hs : size < 2 ^ 62) (h0 : map % 8 = 0) (hpos : 0 < map)
    (htop : map + batchBytes (roundUp (size + 10)) ≤ 2 ^ 64) (hfresh : ∀ k ∈ s.blocks, ∀ x, In map (batchBytes (roundUp (size + 10))) x → ¬ In k.addr k.bytes x)
    (hm : s.malloc size map = (s', r)) :
    match r with
    | some p => Inv s' ((p, size) :: h)
    | none => Inv s' h := by
  obtain ⟨e, a, b, c, d, _⟩ := request hs
  simp only [State.malloc, e] at hm
  cases h1 : alloc (roundUp (size + 10)) s.blocks with
  | some r1 =>
    rw [h1] at hm
    cases hm
    exact i.take a b c d (c := r1.2) (ks := r1.1) h1
  | none =>
    rw [h1] at hm
    have i' := i.batch a h0 hpos htop hfresh
    cases h2 : alloc (roundUp (size + 10)) (Block.new map (batchBytes (roundUp (size + 10))) :: s.blocks) with
    | some r2 =>
      simp only [h2] at hm
      cases hm
      exact i'.take a b c d (c := r2.2) (ks := r2.1) h2
    | none =>
      simp only [h2] at hm
      cases hm
      exact i'

theorem find_erase {l : List (Chunk × Nat)} {p : Nat} {c : Chunk × Nat} (h : l.find? (fun c => c.1.addr + 8 == p) = some c) :
    l.Perm (c :: l.eraseP (fun c => c.1.addr + 8 == p)) := by
  induction l with
  | nil => cases h
  | cons d l ih =>
    rw [List.find?_cons] at h
    by_cases hd : (d.1.addr + 8 == p) = true
    · rw [hd] at h
      cases h
      rw [List.eraseP_cons_of_pos (by simpa using hd)]
    · have hd' : (d.1.addr + 8 == p) = false := by simpa using hd
      rw [hd'] at h
      rw [List.eraseP_cons_of_neg (by simpa using hd)]
      exact ((ih h).cons d).trans (.swap ..)

/-- Two entries of `live` at the same address are the same entry. -/
theorem Inv.addr_inj {s : State} {h : Held} (i : Inv s h) {c : Chunk × Nat} {rest : List (Chunk × Nat)} (p : s.live.Perm (c :: rest)) {d : Chunk × Nat}
    (hd : d ∈ rest) : ∀ x, In c.1.addr c.1.size x → ¬ In d.1.addr d.1.size x := by
  intro x hc hd'
  have h1 := i.tile x
  have h2 := i.one x
  rw [cov_perm (p.map (·.1)) x] at h1
  simp only [List.map_cons, cov] at h1
  have := has_pos.2 hc
  have hm := cov_mem (List.mem_map.2 ⟨d, hd, rfl⟩ : d.1 ∈ rest.map (·.1)) x
  have := has_pos.2 hd'
  omega

theorem Inv.free {s s' : State} {h : Held} (i : Inv s h) {p n : Nat} (hp : (p, n) ∈ h) (hf : s.free p = some s') : Inv s' (h.erase (p, n)) := by
  have hlive := i.held.mem_iff.1 hp
  obtain ⟨d, hd, ed⟩ := List.mem_map.1 hlive
  have hp0 : p ≠ 0 := by
    have := congrArg Prod.fst ed
    simp only at this
    omega
  simp only [State.free, if_neg hp0] at hf
  cases hfind : s.live.find? (fun c => c.1.addr + 8 == p) with
  | none => rw [hfind] at hf; cases hf
  | some c =>
    rw [hfind] at hf
    cases hf
    have per := find_erase hfind
    have hca : c.1.addr + 8 = p := by simpa using List.find?_some hfind
    have hcm : c ∈ s.live := List.mem_of_find?_eq_some hfind
    have hcd : c = d := by
      have := per.mem_iff.1 hd
      rcases List.mem_cons.1 this with e | e
      · exact e.symm
      · exfalso
        have hda : d.1.addr + 8 = p := congrArg Prod.fst ed
        have hwc := (i.wfLive c hcm).1.big
        have hwd := (i.wfLive d hd).1.big
        exact i.addr_inj per e c.1.addr ⟨Nat.le_refl _, by omega⟩ ⟨by omega, by omega⟩
    subst hcd
    have hwc := i.wfLive c hcm
    have hne : s.blocks ≠ [] := by
      intro e
      have := i.tile c.1.addr
      rw [e] at this
      simp only [maps, frees, heads, List.map_nil, cov] at this
      have h1 := cov_mem (List.mem_map.2 ⟨c, hcm, rfl⟩ : c.1 ∈ s.live.map (·.1)) c.1.addr
      have h2 : 0 < has c.1 c.1.addr := has_pos.2 ⟨Nat.le_refl _, by have := hwc.1.big; omega⟩
      omega
    obtain ⟨h1, h2, h3, h4⟩ := freeBlocks_spec hwc.1 hne i.wfFree
    refine ⟨?_, ?_, h2, ?_, ?_⟩
    · intro x
      have := i.tile x
      rw [cov_perm (per.map (·.1)) x] at this
      simp only [List.map_cons, cov] at this
      simp only [h1 x, h3, h4]
      omega
    · intro x; simp only [h4]; exact i.one x
    · intro d hd
      exact i.wfLive d (per.mem_iff.2 (List.mem_cons_of_mem _ hd))
    · have q := i.held.trans (per.map fun c => (c.1.addr + 8, c.2))
      rw [List.map_cons] at q
      have q2 := q.erase (p, n)
      rw [ed, List.erase_cons_head] at q2
      exact q2

theorem Run.inv {s : State} {h : Held} (r : Run s h) : Inv s h := by
  induction r with
  | start => exact Inv.start
  | malloc r h1 h2 h3 h4 h5 hm ih => exact ih.malloc h1 h2 h3 h4 h5 hm
  | fail r h1 h2 h3 h4 h5 hm ih => exact ih.malloc h1 h2 h3 h4 h5 hm
  | free r hp hf ih => exact ih.free hp hf
  | freeNull r hf ih =>
    simp only [State.free, if_true] at hf
    cases hf
    exact ih

theorem bytes_of_maps {ks ks' : List Block} (h : maps ks' = maps ks) {P : Nat → Prop} (hk : ∀ k ∈ ks, P k.bytes) : ∀ k ∈ ks', P k.bytes := by
  intro k' hk'
  have : (⟨k'.addr, k'.bytes⟩ : Chunk) ∈ maps ks := by rw [← h]; exact List.mem_map.2 ⟨k', hk', rfl⟩
  obtain ⟨k, hk1, e⟩ := List.mem_map.1 this
  have e2 : k.bytes = k'.bytes := congrArg Chunk.size e
  rw [← e2]
  exact hk k hk1

theorem alloc_maps {size : Nat} {ks ks' : List Block} {c : Chunk} (h : alloc size ks = some (ks', c)) : maps ks' = maps ks := by
  induction ks generalizing ks' with
  | nil => simp [alloc] at h
  | cons k ks ih =>
    unfold alloc at h
    cases hm : mallocIn size k.buddies with
    | some r => rw [hm] at h; cases h; rfl
    | none =>
      rw [hm] at h
      cases ha : alloc size ks with
      | none => rw [ha] at h; cases h
      | some r => rw [ha] at h; cases h; show _ :: maps r.1 = _ :: maps ks; rw [ih ha]

theorem freeBlocks_maps (b : Chunk) (ks : List Block) : maps (freeBlocks b ks) = maps ks := by
  cases ks with
  | nil => rfl
  | cons k ks => simp only [freeBlocks, Block.free_eq]; rfl

theorem malloc_block32 {s s' : State} {size map : Nat} {r : Option Nat} (hs : size < 2 ^ 62) (ih : ∀ k ∈ s.blocks, 32 ≤ k.bytes) (hm : s.malloc size map = (s', r)) :
    ∀ k ∈ s'.blocks, 32 ≤ k.bytes := by
  obtain ⟨e, a, b, c, d, _⟩ := request hs
  simp only [State.malloc, e] at hm
  have hnew : ∀ k ∈ Block.new map (batchBytes (roundUp (size + 10))) :: s.blocks, 32 ≤ k.bytes := by
    intro k hk
    rcases List.mem_cons.1 hk with x | x
    · subst x
      have := batch_ge a
      simp only [Block.new]
      omega
    · exact ih k x
  cases h1 : alloc (roundUp (size + 10)) s.blocks with
  | some r1 =>
    rw [h1] at hm
    cases hm
    exact bytes_of_maps (P := (32 ≤ ·)) (alloc_maps (c := r1.2) (ks' := r1.1) h1) ih
  | none =>
    rw [h1] at hm
    cases h2 : alloc (roundUp (size + 10)) (Block.new map (batchBytes (roundUp (size + 10))) :: s.blocks) with
    | some r2 =>
      simp only [h2] at hm
      cases hm
      exact bytes_of_maps (P := (32 ≤ ·)) (alloc_maps (c := r2.2) (ks' := r2.1) h2) hnew
    | none =>
      simp only [h2] at hm
      cases hm
      exact hnew

theorem Run.block32 {s : State} {h : Held} (r : Run s h) : ∀ k ∈ s.blocks, 32 ≤ k.bytes := by
  induction r with
  | start => simp
  | malloc r h1 h2 h3 h4 h5 hm ih => exact malloc_block32 h1 ih hm
  | fail r h1 h2 h3 h4 h5 hm ih => exact malloc_block32 h1 ih hm
  | @free s h s' p n r hp hf ih =>
    unfold State.free at hf
    split at hf
    · cases hf; exact ih
    · split at hf
      · cases hf
      · cases hf
        exact bytes_of_maps (P := (32 ≤ ·)) (freeBlocks_maps ..) ih
  | freeNull r hf ih =>
    simp only [State.free, if_true] at hf
    cases hf
    exact ih

end H2.Libc
