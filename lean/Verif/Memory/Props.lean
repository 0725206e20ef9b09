import Verif.Memory.Facts
/- Properties of the checked heap: C20-C26 and C55. -/
namespace H2.Memory

/-! ### C20: placement -/

/-- **C20.** The user bytes of every successful allocation lie inside the writable pages of its own
mapping, whatever the size (below 2^63) and the alignment (below 2^31). -/
theorem C20_inside {page es} {h : Heap} (hp : 0 < page) (_hr : Reach page es h) {pagePtr who size alignment fill site p}
    (hf : Fresh h page pagePtr size alignment site)
    (hs : (h.newPiece page pagePtr who size alignment fill site).2 = some p) :
    pagePtr ≤ p.userPtr ∧ p.userPtr + size ≤ p.pageEnd ∧
    ∀ c ∈ h.blocks, ∀ q ∈ c.pieces,
      p.userPtr + size ≤ q.pagePtr ∨ q.pagePtr + q.page * (q.count + 1) ≤ p.userPtr := by
  obtain ⟨b, hb, _, hpe, _⟩ := newPiece_some hs
  have ⟨ha, hap⟩ := hf.2.2 b hb
  have hm := mk_bounds page pagePtr size _ who site (h.flower + 1) hp hf.1 ha
  rw [← hpe] at hm
  refine ⟨hm.1, hm.2, ?_⟩
  intro c hc q hq
  have := hap c hc q hq who site (h.flower + 1)
  rw [← hpe] at this
  have hpp : p.pagePtr = pagePtr := by rw [hpe]; rfl
  have hpg : p.page = page := by rw [hpe]; rfl
  unfold Apart at this
  unfold Piece.pageEnd at hm
  rw [Nat.mul_add, Nat.mul_one] at this
  omega

/-- **C20 (partial).** With an alignment that is a power of two, at least 8 and at most the page size,
the pointer is a multiple of the alignment and fewer than that many bytes separate the end of the user
area from the guard page.  Missing: other alignments, for which it is false (below). -/
theorem C20_aligned_partial {h : Heap} {m k pagePtr who size fill site p} (hk : 3 ≤ k) (hkm : k ≤ m) (hm : k < 31)
    (hf : Fresh h (2 ^ m) pagePtr size (2 ^ k) site)
    (hs : (h.newPiece (2 ^ m) pagePtr who size (2 ^ k) fill site).2 = some p) :
    p.userPtr % 2 ^ k = 0 ∧ p.userPtr + size ≤ p.pageEnd ∧ p.pageEnd - (p.userPtr + size) < 2 ^ k := by
  obtain ⟨b, hb, _, hpe, _⟩ := newPiece_some hs
  have hpos : 0 < 2 ^ k := Nat.two_pow_pos k
  have hal : (if 2 ^ k = 0 then b.attrs.alignment else 2 ^ k) = 2 ^ k := by rw [if_neg (by omega)]
  have ha : 2 ^ k < 2 ^ 31 := (Nat.pow_lt_pow_iff_right (by omega)).2 hm
  have h8 : 2 ^ 3 ≤ 2 ^ k := Nat.pow_le_pow_right (by omega) hk
  have hb := mk_bounds (2 ^ m) pagePtr size (2 ^ k) who site (h.flower + 1) (Nat.two_pow_pos m) hf.1 ha
  rw [hal] at hpe
  rw [← hpe] at hb
  have hpl := plus_bounds size k hf.1 (by omega)
  have hpeq := plus_eq size k hf.1 (by omega)
  have hend : p.pageEnd = pagePtr + 2 ^ m * pageCount (userSizePlus size (2 ^ k)) (2 ^ m) := by
    rw [hpe]; unfold Piece.pageEnd; simp only [mkPiece, alignment2n_of_pow k ha h8]
  have hup : p.userPtr = pagePtr + 2 ^ m * pageCount (userSizePlus size (2 ^ k)) (2 ^ m) - userSizePlus size (2 ^ k) + 2 ^ k := by
    rw [hpe]; simp only [mkPiece, userPtr, alignment2n_of_pow k ha h8]
  have hcov := count_covers (userSizePlus size (2 ^ k)) (2 ^ m) (Nat.two_pow_pos m)
  refine ⟨?_, hb.2, by omega⟩
  have hdm : 2 ^ k ∣ 2 ^ m := Nat.pow_dvd_pow 2 hkm
  have hd1 : 2 ^ k ∣ pagePtr := Nat.dvd_trans hdm (Nat.dvd_of_mod_eq_zero hf.2.1)
  have hd2 : 2 ^ k ∣ 2 ^ m * pageCount (userSizePlus size (2 ^ k)) (2 ^ m) := Nat.dvd_trans hdm (Nat.dvd_mul_right _ _)
  have hd3 : 2 ^ k ∣ userSizePlus size (2 ^ k) := by rw [hpeq]; exact Nat.dvd_mul_left _ _
  rw [hup]
  apply Nat.mod_eq_zero_of_dvd
  exact Nat.dvd_add (Nat.dvd_sub (Nat.dvd_add hd1 hd2) hd3) (Nat.dvd_refl _)

/-- **C20, refuted (alignment above the page size).** An 8192-byte alignment on 4096-byte pages is not
honoured when the kernel returns an odd page. -/
theorem C20_large_alignment_false :
    (mkPiece 4096 (4096 * 5) 4000 8192 .alignedAlloc ⟨0, false⟩ 1).userPtr % 8192 ≠ 0 := by decide

/-- **C20, refuted (alignment below 8).** A 4-byte alignment may leave 11 unguarded bytes, more than
the alignment, behind the area. -/
theorem C20_small_alignment_false :
    let p := mkPiece 4096 (4096 * 5) 1 4 .posixMemalign ⟨0, false⟩ 1
    p.pageEnd - (p.userPtr + 1) = 11 := by decide

/-- **C20, refuted (alignment not a power of two).** -/
theorem C20_odd_alignment_false :
    (mkPiece 4096 (4096 * 5) 100 24 .alignedAlloc ⟨0, false⟩ 1).userPtr % 24 ≠ 0 := by decide

/-! ### C21: leaks -/

theorem check_eq {page l} {b : Block} (hr : All2 (Rep page) l b.pieces) (hbad : ∀ e ∈ l, e.bad = none) :
    b.check = (b.pieces.foldl (fun ls p =>
      if !b.attrs.noleak && p.freeTimes == 0 then addLeak p.userPtr p.userSize p.site ls else ls) []).map leakFail := by
  have : b.pieces.filter (fun p => decide (p.violateTimes ≠ 0)) = [] := by
    rw [List.filter_eq_nil_iff]
    intro p hp
    obtain ⟨e, he, hrep⟩ := hr.right p hp
    simp [(hrep.badNone (hbad e he)).1]
  unfold Block.check
  simp only [this, List.map_nil, ne_eq, not_true_eq_false, if_false]

theorem foldl_noleak (ps : List Piece) (ls : List LeakEntry) :
    ps.foldl (fun ls p => if !true && p.freeTimes == 0 then addLeak p.userPtr p.userSize p.site ls else ls) ls = ls := by
  induction ps with
  | nil => rfl
  | cons p ps ih => rw [List.foldl_cons]; simpa using ih

theorem pop_cons {page es h a l rest} (hp : 0 < page) (hr : Reach page es h) (hh : history page es = (a, l) :: rest) :
    ∃ b bs, h.blocks = b :: bs ∧ b.attrs = a ∧ All2 (Rep page) l b.pieces ∧ h.pop.2 = b.check := by
  have hi := (reach_inv hp hr).rep
  rw [hh] at hi
  obtain ⟨bs, hbs⟩ : ∃ bs, h.blocks = bs := ⟨_, rfl⟩
  rw [hbs] at hi
  cases hi with
  | cons h1 h2 =>
    refine ⟨_, _, hbs, h1.1, h1.2, ?_⟩
    unfold Heap.pop
    rw [hbs]

theorem live_partner {page l ps} (h : All2 (Rep page) l ps) :
    All2 (Rep page) (live l) (ps.filter (fun p => p.freeTimes == 0)) := by
  unfold live
  induction h with
  | nil => exact .nil
  | cons h _ ih =>
    simp only [List.filter_cons, h.live_iff]
    split
    · exact .cons h ih
    · exact ih

theorem site_partner {page l ps} (s : Site) (h : All2 (Rep page) l ps) :
    All2 (Rep page) (l.filter (fun e => e.site == s)) (ps.filter (fun p => p.site == s)) := by
  induction h with
  | nil => exact .nil
  | cons h _ ih =>
    simp only [List.filter_cons, h.site]
    split
    · exact .cons h ih
    · exact ih

theorem size_partner {page l ps} (h : All2 (Rep page) l ps) :
    ps.map (fun p => p.userSize) = l.map (fun e => e.size) := by
  induction h with
  | nil => rfl
  | cons h _ ih => simp only [List.map_cons, ih, h.size]

theorem count_partner {page l ps} (n : Nat) (h : All2 (Rep page) l ps) :
    (ps.filter (fun p => p.userSize == n)).length = (l.filter (fun e => e.size == n)).length := by
  induction h with
  | nil => rfl
  | cons h _ ih =>
    simp only [List.filter_cons, h.size]
    split
    · simp only [List.length_cons, ih]
    · exact ih

theorem leaks_inv {page es h a l rest} (hp : 0 < page) (hr : Reach page es h) (hh : history page es = (a, l) :: rest)
    (hbad : ∀ e ∈ l, e.bad = none) (hn : a.noleak = false) :
    ∃ (ps : List Piece) (ls : List LeakEntry), All2 (Rep page) (live l) ps ∧ LeakInv ps ls ∧ h.pop.2 = ls.map leakFail := by
  obtain ⟨b, bs, hb, hattr, hall, hpop⟩ := pop_cons hp hr hh
  refine ⟨b.pieces.filter (fun p => p.freeTimes == 0), _, live_partner hall, ?_, by rw [hpop, check_eq hall hbad]⟩
  have := leakInv_foldl b.attrs.noleak (by rw [hattr, hn]) b.pieces [] [] ⟨by simp, by simp, by simp⟩
  simpa using this

/-- **C21.** When the innermost block ends and no forbidden access happened to its areas, a failure is
reported exactly when some area handed out in it has not been released (and the block does not waive
leaks). -/
theorem C21_leak_iff {page es h a l rest} (hp : 0 < page) (hr : Reach page es h) (hh : history page es = (a, l) :: rest)
    (hbad : ∀ e ∈ l, e.bad = none) : h.pop.2 ≠ [] ↔ a.noleak = false ∧ ∃ e ∈ l, e.freed = false := by
  cases hn : a.noleak with
  | true =>
    obtain ⟨b, bs, hb, hattr, hall, hpop⟩ := pop_cons hp hr hh
    rw [hpop, check_eq hall hbad, hattr, hn, foldl_noleak]
    simp
  | false =>
    obtain ⟨ps, ls, hps, hinv, hpop⟩ := leaks_inv hp hr hh hbad hn
    rw [hpop]
    simp only [true_and]
    constructor
    · intro hne
      cases ls with
      | nil => simp at hne
      | cons x ls =>
        obtain ⟨zs, hz⟩ : ∃ zs, ps.filter (fun p => p.site == x.2.1) = zs := ⟨_, rfl⟩
        cases zs with
        | nil =>
          have := hinv.none x.2.1 hz
          simp at this
        | cons z zs =>
          have hzm : z ∈ ps := (List.mem_filter.1 (by rw [hz]; exact List.mem_cons_self : z ∈ ps.filter (fun p => p.site == x.2.1))).1
          obtain ⟨e, he, _⟩ := hps.right z hzm
          unfold live at he
          rw [List.mem_filter] at he
          exact ⟨e, he.1, by simpa using he.2⟩
    · rintro ⟨e, he, hfr⟩ hnil
      have hel : e ∈ live l := by unfold live; rw [List.mem_filter]; exact ⟨he, by simp [hfr]⟩
      obtain ⟨p, hpm, hrep⟩ := hps.left e hel
      have hls : ls = [] := by simpa using hnil
      obtain ⟨zs, hz⟩ : ∃ zs, ps.filter (fun q => q.site == p.site) = zs := ⟨_, rfl⟩
      cases zs with
      | nil =>
        have := List.filter_eq_nil_iff.1 hz p hpm
        simp at this
      | cons z zs =>
        obtain ⟨l', h1, _⟩ := hinv.some p.site z zs hz
        rw [hls] at h1
        simp at h1

theorem count_one {x : Site} (l : List Site) (hn : l.Nodup) (hx : x ∈ l) : l.count x = 1 := by
  induction l with
  | nil => simp at hx
  | cons a l ih =>
    rw [List.nodup_cons] at hn
    rw [List.count_cons]
    rcases List.mem_cons.1 hx with e | e
    · subst e
      rw [List.count_eq_zero.2 hn.1]; simp
    · have : ¬ a = x := by intro h; subst h; exact hn.1 e
      rw [ih hn.2 e]; simp [this]

/-- **C21.** The failures are one per call site that leaked, each naming the first area leaked there,
the total of the leaked bytes and the number of areas of each size. -/
theorem C21_leak_report {page es h a l rest} (hp : 0 < page) (hr : Reach page es h)
    (hh : history page es = (a, l) :: rest) (hbad : ∀ e ∈ l, e.bad = none) (hn : a.noleak = false) :
    (∀ f ∈ h.pop.2, IsLeakOf (live l) f) ∧
    ∀ e ∈ live l, ((h.pop.2).filter (isLeakAt e.site)).length = 1 := by
  obtain ⟨ps, ls, hps, hinv, hpop⟩ := leaks_inv hp hr hh hbad hn
  have hfind : ∀ x ∈ ls, ls.find? (fun y => y.2.1 == x.2.1) = some x := by
    have := hinv.nodup
    clear hinv hpop
    induction ls with
    | nil => simp
    | cons y ls ih =>
      simp only [List.map_cons, List.nodup_cons] at this
      intro x hx
      rcases List.mem_cons.1 hx with e | e
      · subst e; simp
      · have hne : (y.2.1 == x.2.1) = false := by
          simp only [beq_eq_false_iff_ne, ne_eq]
          intro heq
          exact this.1 (by rw [heq]; exact List.mem_map_of_mem (f := fun e : LeakEntry => e.2.1) e)
        rw [List.find?_cons, hne]
        exact ih this.2 x e
  rw [hpop]
  constructor
  · intro f hf
    obtain ⟨x, hx, rfl⟩ := List.mem_map.1 hf
    obtain ⟨zs, hz⟩ : ∃ zs, ps.filter (fun p => p.site == x.2.1) = zs := ⟨_, rfl⟩
    cases zs with
    | nil =>
      have := hinv.none x.2.1 hz
      rw [hfind x hx] at this
      simp at this
    | cons z zs =>
      obtain ⟨l', h1, h2, h3⟩ := hinv.some x.2.1 z zs hz
      rw [hfind x hx] at h1
      have h1 := Option.some.inj h1
      have hsp := site_partner x.2.1 hps
      rw [hz] at hsp
      obtain ⟨es', hes⟩ : ∃ es', (live l).filter (fun e => e.site == x.2.1) = es' := ⟨_, rfl⟩
      rw [hes] at hsp
      have hsp0 := hsp
      cases hsp with
      | @cons e _ ys _ hr1 hr2 =>
        refine ⟨e, ys, hes, ?_, ?_, ?_⟩
        · rw [← hr1.ptr, h1]
        · have hl : x.2.2 = l' := by rw [h1]
          rw [← hl, size_partner hsp0] at h2
          exact h2
        · intro n
          have hl : x.2.2 = l' := by rw [h1]
          have h3 := h3 n
          rw [← hl, count_partner n hsp0] at h3
          exact h3
  · intro e he
    obtain ⟨p, hpm, hrep⟩ := hps.left e he
    obtain ⟨zs, hz⟩ : ∃ zs, ps.filter (fun q => q.site == p.site) = zs := ⟨_, rfl⟩
    cases zs with
    | nil =>
      have := List.filter_eq_nil_iff.1 hz p hpm
      simp at this
    | cons z zs =>
      obtain ⟨l', h1, _⟩ := hinv.some p.site z zs hz
      have hmem : p.site ∈ ls.map (fun e => e.2.1) := by
        have := List.mem_map_of_mem (f := fun e : LeakEntry => e.2.1) (List.mem_of_find?_eq_some h1)
        exact this
      rw [← hrep.site, List.filter_map, List.length_map]
      have hcomp : ls.filter (isLeakAt p.site ∘ leakFail) = ls.filter (fun e => e.2.1 == p.site) := rfl
      rw [hcomp]
      have : (ls.filter (fun e => e.2.1 == p.site)).length = (ls.map (fun e => e.2.1)).count p.site := by
        rw [List.count_eq_length_filter, List.filter_map, List.length_map]
        congr 1
      rw [this]
      exact count_one _ hinv.nodup hmem

/-! ### C22: frees -/

theorem find_entry {page es} {h : Heap} (hp : 0 < page) (hr : Reach page es h) {b e} (hb : b ∈ history page es) (he : e ∈ b.2)
    (r : Rel) : ∃ p ∈ pieces h.blocks, Rep page e p ∧ (h.relPiece r e.area.ptr).2 = p.freeFail h.mem (some r) := by
  have hi := reach_inv hp hr
  obtain ⟨c, hc, hbc⟩ := hi.rep.left b hb
  obtain ⟨p, hpc, hrep⟩ := hbc.2.left e he
  have hpm : p ∈ pieces h.blocks := List.mem_flatMap.2 ⟨c, hc, hpc⟩
  have hq : (p.userPtr == e.area.ptr) = true := by rw [hrep.ptr]; simp
  obtain ⟨p', hpm', hq', heq⟩ := relPiece_some (r := r) ⟨p, hpm, hq⟩
  have : p' = p := unique_of_pairwise (fun p : Piece => p.userPtr == e.area.ptr) _
    (List.Pairwise.imp_of_mem (fun h1 h2 h3 => hi.ptr_unique hp _ _ h3 h1 h2 e.area.ptr) hi.apart) p' p hpm' hpm hq' hq
  subst this
  exact ⟨p', hpm, hrep, by rw [heq]⟩

/-- **C22.** Releasing an area of an open block once more reports a double free. -/
theorem C22_double {page es} {h : Heap} (hp : 0 < page) (hr : Reach page es h) {b e} (hb : b ∈ history page es) (he : e ∈ b.2)
    (hf : e.freed = true) (r : Rel) : (h.relPiece r e.area.ptr).2 = some (.doubleFree e.area.ptr) := by
  obtain ⟨p, _, hrep, heq⟩ := find_entry hp hr hb he r
  have : p.freeTimes ≠ 0 := by
    have := hrep.freed
    rw [hf] at this
    have := of_decide_eq_true this.symm
    omega
  rw [heq]
  unfold Piece.freeFail
  rw [if_pos this, hrep.ptr]

theorem not_freed {page e p} (hrep : Rep page e p) (hf : e.freed = false) : p.freeTimes = 0 := by
  have := hrep.freed
  rw [hf] at this
  have := of_decide_eq_false this.symm
  omega

theorem asym_eq (p : Piece) (r : Rel) :
    p.checkAsymmetric r = if matching p.who r || p.site.exempt then none else some (.asymmetric p.userPtr p.who r) := by
  unfold Piece.checkAsymmetric
  cases p.who <;> cases r <;> simp [Alloc.isC, Rel.isC, matching]

/-- **C22.** Releasing a live area with a function of the other family reports an asymmetric free
(unless it was allocated by an exempt function). -/
theorem C22_asymmetric {page es} {h : Heap} (hp : 0 < page) (hr : Reach page es h) {b e} (hb : b ∈ history page es)
    (he : e ∈ b.2) (hf : e.freed = false) (r : Rel) (hm : matching e.who r = false) (hx : e.site.exempt = false) :
    (h.relPiece r e.area.ptr).2 = some (.asymmetric e.area.ptr e.who r) := by
  obtain ⟨p, _, hrep, heq⟩ := find_entry hp hr hb he r
  rw [heq]
  unfold Piece.freeFail
  rw [if_neg (by simp [not_freed hrep hf])]
  simp only [Option.bind_some, asym_eq, hrep.who, hrep.site, hm, hx, hrep.ptr]
  simp

theorem matched_eq {page es} {h : Heap} (hp : 0 < page) (hr : Reach page es h) {b e} (hb : b ∈ history page es)
    (he : e ∈ b.2) (hf : e.freed = false) (r : Rel) (hm : matching e.who r = true ∨ e.site.exempt = true) :
    ∃ p, Rep page e p ∧ (h.relPiece r e.area.ptr).2 = p.checkSnow h.mem := by
  obtain ⟨p, _, hrep, heq⟩ := find_entry hp hr hb he r
  refine ⟨p, hrep, ?_⟩
  rw [heq]
  unfold Piece.freeFail
  rw [if_neg (by simp [not_freed hrep hf])]
  simp only [Option.bind_some, asym_eq, hrep.who, hrep.site]
  have : (matching e.who r || e.site.exempt) = true := by rcases hm with h | h <;> simp [h]
  rw [this]
  simp

theorem checkSnow_none {page e p} (hrep : Rep page e p) (m : Mem) :
    p.checkSnow m = none ↔ ∀ a, e.padding a → m a = e.area.mem a := by
  have h1 := hrep.ptr; have h2 := hrep.lo; have h3 := hrep.hi; have h4 := hrep.size
  have g1 := hrep.geo1; have g2 := hrep.geo2
  have hs := hrep.snow
  have key : (∀ a, e.padding a → m a = e.area.mem a) ↔ ∀ a, e.padding a → m a = p.flower := by
    constructor
    · intro h a ha; rw [h a ha, hs a ha]
    · intro h a ha; rw [h a ha, hs a ha]
  rw [key]
  unfold Piece.checkSnow
  obtain ⟨o, ho⟩ : ∃ o, snowLoop p m (p.userPtr + p.userSize) (p.pageEnd - (p.userPtr + p.userSize)) = o := ⟨_, rfl⟩
  rw [ho]
  cases o with
  | some f =>
    simp only [reduceCtorEq, false_iff]
    intro hh
    obtain ⟨a, _, _, ha1, ha2, ha3, _⟩ := snowLoop_some _ _ _ _ _ ho
    exact ha3 (hh a (Or.inr ⟨by omega, by omega⟩))
  | none =>
    simp only
    rw [snowLoop_none] at ho ⊢
    constructor
    · intro hh a ha
      rcases ha with ha | ha
      · exact hh a (by omega) (by omega)
      · exact ho a (by omega) (by omega)
    · intro hh a ha1 ha2
      exact hh a (Or.inl ⟨by omega, by omega⟩)

/-- **C22.** Releasing a live area once with a function of the same family, its padding untouched,
reports nothing. -/
theorem C22_matched {page es} {h : Heap} (hp : 0 < page) (hr : Reach page es h) {b e} (hb : b ∈ history page es)
    (he : e ∈ b.2) (hf : e.freed = false) (r : Rel) (hm : matching e.who r = true)
    (hpad : ∀ a, e.padding a → h.mem a = e.area.mem a) : (h.relPiece r e.area.ptr).2 = none := by
  obtain ⟨p, hrep, heq⟩ := matched_eq hp hr hb he hf r (Or.inl hm)
  rw [heq]
  exact (checkSnow_none hrep _).2 hpad

/-- **C22.** A pointer the open blocks did not hand out is released silently (a warning at most) and
changes nothing. -/
theorem C22_unknown {page es} {h : Heap} (hp : 0 < page) (hr : Reach page es h) (ptr : Nat) (r : Rel)
    (hn : ∀ b ∈ history page es, ∀ e ∈ b.2, e.area.ptr ≠ ptr) : h.relPiece r ptr = (h, none) := by
  refine relPiece_none ?_
  intro p hpm
  obtain ⟨b, hb, e, he, hrep⟩ := (reach_inv hp hr).partner hpm
  have := hn b hb e he
  rw [← hrep.ptr] at this
  simpa using this

/-! ### C25: stray writes -/

/-- **C25.** Releasing a live area with a matching function reports exactly the changes to its
padding. -/
theorem C25_detect {page es} {h : Heap} (hp : 0 < page) (hr : Reach page es h) {b e} (hb : b ∈ history page es)
    (he : e ∈ b.2) (hf : e.freed = false) (r : Rel) (hm : matching e.who r = true) :
    (h.relPiece r e.area.ptr).2 = none ↔ ∀ a, e.padding a → h.mem a = e.area.mem a := by
  obtain ⟨p, hrep, heq⟩ := matched_eq hp hr hb he hf r (Or.inl hm)
  rw [heq]
  exact checkSnow_none hrep _

/-- **C25.** The report names the area and the lowest changed address behind it or, if nothing behind
it changed, the lowest changed one in front of it; the bytes shown are the memory's, from the first
changed byte to the last one changed within the next eight. -/
theorem C25_address {page es} {h : Heap} (hp : 0 < page) (hr : Reach page es h) {b e} (hb : b ∈ history page es)
    (he : e ∈ b.2) (hf : e.freed = false) (r : Rel) (hm : matching e.who r = true) (f : Fail)
    (hfail : (h.relPiece r e.area.ptr).2 = some f) :
    ∃ a spot, f = .overflow e.area.ptr e.size a .write spot ∧ e.padding a ∧ h.mem a ≠ e.area.mem a ∧
      ((e.area.ptr + e.size ≤ a ∧ ∀ c, e.area.ptr + e.size ≤ c → c < a → h.mem c = e.area.mem c) ∨
       (a < e.area.ptr ∧ (∀ c, e.area.ptr + e.size ≤ c → c < e.area.hi → h.mem c = e.area.mem c) ∧
        ∀ c, e.area.lo ≤ c → c < a → h.mem c = e.area.mem c)) ∧
      1 ≤ spot.length ∧ spot.length ≤ 8 ∧ (∀ i (hi : i < spot.length), spot[i] = h.mem (a + i)) ∧
      e.padding (a + (spot.length - 1)) ∧ h.mem (a + (spot.length - 1)) ≠ e.area.mem (a + (spot.length - 1)) := by
  obtain ⟨p, hrep, heq⟩ := matched_eq hp hr hb he hf r (Or.inl hm)
  rw [heq] at hfail
  have h1 := hrep.ptr; have h2 := hrep.lo; have h3 := hrep.hi; have h4 := hrep.size
  have g1 := hrep.geo1; have g2 := hrep.geo2
  have hs := hrep.snow
  unfold Piece.checkSnow at hfail
  obtain ⟨o, ho⟩ : ∃ o, snowLoop p h.mem (p.userPtr + p.userSize) (p.pageEnd - (p.userPtr + p.userSize)) = o := ⟨_, rfl⟩
  rw [ho] at hfail
  cases o with
  | some f' =>
    obtain rfl := Option.some.inj hfail
    obtain ⟨a, spot, e1, e2, e3, e4, e5, e6, e7, e8, e9, e10, _⟩ := snowLoop_some _ _ _ _ _ ho
    have pa : e.padding a := Or.inr ⟨by omega, by omega⟩
    have pb : e.padding (a + (spot.length - 1)) := Or.inr ⟨by omega, by omega⟩
    refine ⟨a, spot, by rw [e1, h1, h4], pa, by rw [hs a pa]; exact e4, Or.inl ⟨by omega, ?_⟩, e6, e7, e9, pb, by rw [hs _ pb]; exact e10⟩
    intro c c1 c2
    rw [hs c (Or.inr ⟨c1, by omega⟩)]
    exact e5 c (by omega) c2
  | none =>
    rw [snowLoop_none] at ho
    obtain ⟨a, spot, e1, e2, e3, e4, e5, e6, e7, e8, e9, e10, _⟩ := snowLoop_some _ _ _ _ _ hfail
    have pa : e.padding a := Or.inl ⟨by omega, by omega⟩
    have pb : e.padding (a + (spot.length - 1)) := Or.inl ⟨by omega, by omega⟩
    refine ⟨a, spot, by rw [e1, h1, h4], pa, by rw [hs a pa]; exact e4, Or.inr ⟨by omega, ?_, ?_⟩, e6, e7, e9, pb, by rw [hs _ pb]; exact e10⟩
    · intro c c1 c2
      rw [hs c (Or.inr ⟨c1, c2⟩)]
      exact ho c (by omega) (by omega)
    · intro c c1 c2
      rw [hs c (Or.inl ⟨c1, by omega⟩)]
      exact e5 c (by omega) c2

/-! ### C23: limits -/

/-- **C23 (partial).** In a history without double frees and with limits of at most 2^63, an allocation
in the innermost block fails exactly when the bytes live in it plus the request exceed its limit.
Missing: requests of 2^63 bytes and more, and histories with a double free, for which it is false
(below). -/
theorem C23_limit_partial {page es} {h : Heap} (hp : 0 < page) (hr : Reach page es h) (hd : NoDouble es) (hl : Limits es) {a l rest}
    (hh : history page es = (a, l) :: rest) (pagePtr : Nat) (who : Alloc) (size alignment : Nat) (fill : Option UInt8)
    (site : Site) (hx : site.exempt = false) (hs : size < 2 ^ 63) :
    (h.newPiece page pagePtr who size alignment fill site).2 = none ↔ a.limit < liveBytes l + size := by
  obtain ⟨b, bs, hb, hattr, hall, _⟩ := pop_cons hp hr hh
  have hacc := accounted hp hr hd hl b (by rw [hb]; exact List.mem_cons_self)
  have hlp := liveP_eq hall
  have ht : h.target site = some b := by unfold Heap.target; rw [hx, hb]; rfl
  have hmod : (b.allocated + size) % 2 ^ 64 = b.allocated + size := by
    apply Nat.mod_eq_of_lt
    unfold Accounted at hacc
    omega
  unfold Accounted at hacc
  by_cases hlim : b.attrs.limit < (b.allocated + size) % 2 ^ 64
  · simp only [Heap.newPiece, ht, if_pos hlim, true_iff]
    rw [hmod, hattr] at hlim
    omega
  · simp only [Heap.newPiece, ht, if_neg hlim, reduceCtorEq, false_iff]
    rw [hmod, hattr] at hlim
    omega

/-- **C23.** The bytes live in every open block never exceed its limit (same histories). -/
theorem C23_never_above {page es} {h : Heap} (hp : 0 < page) (hr : Reach page es h) (hd : NoDouble es) (hl : Limits es) :
    ∀ b ∈ history page es, liveBytes b.2 ≤ b.1.limit := by
  intro b hb
  obtain ⟨c, hc, hbc⟩ := (reach_inv hp hr).rep.left b hb
  have hacc := accounted hp hr hd hl c hc
  unfold Accounted at hacc
  rw [liveP_eq hbc.2, ← hbc.1]
  exact hacc.2.1

/-- A heap with one block with limit 1000 in which 10 bytes are live. -/
def tiny : Heap :=
  ((Heap.push ⟨[{}], fun _ => 0, 0⟩ { limit := 1000 }).newPiece 4096 4096 .malloc 10 0 none ⟨0, false⟩).1

/-- **C23, refuted (huge requests).** With a limit of 1000 and 10 bytes live, `malloc(2^64 - 1)`
succeeds: the sum wraps around. -/
theorem C23_huge_false : ((tiny.newPiece 4096 (4096 * 10) .malloc (2 ^ 64 - 1) 0 none ⟨0, false⟩).2).isSome = true := by
  decide +kernel

/-- **C23, refuted (after a double free).** The double free subtracts the size again: with nothing
live and a limit of 1000, a request of 4 bytes fails. -/
theorem C23_double_free_false :
    let h := ((tiny.relPiece .free 8176).1.relPiece .free 8176).1
    ((h.blocks.map (fun b => b.pieces.map (fun p => (p.userPtr, p.freeTimes)))) = [[(8176, 2)], []]) ∧
    ((h.newPiece 4096 (4096 * 10) .malloc 4 0 none ⟨0, false⟩).2).isNone = true := by
  decide +kernel

/-! ### C24: fill -/

/-- **C24.** In a block with a fill pattern of `n` bytes, byte `i` of every fresh area is byte `i mod n`
of the pattern. -/
theorem C24_fill {page} {h : Heap} {pagePtr who size alignment site p b} (hs : (h.newPiece page pagePtr who size alignment none site).2 = some p)
    (hb : h.target site = some b) (hne : b.attrs.fill ≠ []) (i : Nat) (hi : i < size) :
    (h.newPiece page pagePtr who size alignment none site).1.mem (p.userPtr + i) =
      b.attrs.fill[i % b.attrs.fill.length]'(Nat.mod_lt _ (List.length_pos_iff.2 hne)) := by
  obtain ⟨b', hb', _, _, hm, _⟩ := newPiece_some hs
  rw [hb] at hb'
  obtain rfl := Option.some.inj hb'
  rw [hm]
  unfold fillArea fillPattern
  rw [if_neg hne]
  simp only
  rw [if_pos ⟨by omega, by omega⟩, Nat.add_sub_cancel_left]
  have := Nat.mod_lt i (List.length_pos_iff.2 hne)
  simp [this]

/-- **C24.** The bytes of an area from `calloc` are all zero, whatever the block's pattern. -/
theorem C24_calloc {page} {h : Heap} {pagePtr count size site p} (hs : (h.calloc page pagePtr count size site).2 = some p)
    (hov : size * count < 2 ^ 64) (i : Nat) (hi : i < count * size) :
    (h.calloc page pagePtr count size site).1.mem (p.userPtr + i) = 0 ∧ p.userSize = count * size := by
  unfold Heap.calloc at hs ⊢
  obtain ⟨b', hb', _, hp, hm, _⟩ := newPiece_some hs
  rw [Nat.mod_eq_of_lt hov] at hm hs hp ⊢
  have hc := Nat.mul_comm size count
  refine ⟨?_, by rw [hp]; exact hc⟩
  rw [hm]
  unfold fillArea fillPattern
  simp only [List.cons_ne_nil, if_false]
  rw [if_pos ⟨by omega, by omega⟩]
  simp [Nat.mod_one]

/-- **C24, refuted (overflowing calloc).** `calloc(2^32, 2^32)` succeeds with no byte at all. -/
theorem C24_calloc_overflow_false :
    ((tiny.calloc 4096 (4096 * 10) (2 ^ 32) (2 ^ 32) ⟨0, false⟩).2.map (fun p => p.userSize)) = some 0 := by decide +kernel

/-- **C24.** A decimal fill value is written with the least number of 1, 2, 4 or 8 bytes that hold it,
least significant byte first. -/
theorem C24_parse_decimal (v : Nat) (hv : v < 2 ^ 64) :
    ((parseFill v).foldr (fun b acc => b.toNat + 256 * acc) 0 = v) ∧
    (parseFill v).length = (if v < 2 ^ 8 then 1 else if v < 2 ^ 16 then 2 else if v < 2 ^ 32 then 4 else 8) := by
  have hle : ∀ n w, w < 256 ^ n → (leBytes n w).foldr (fun b acc => b.toNat + 256 * acc) 0 = w ∧ (leBytes n w).length = n := by
    intro n
    induction n with
    | zero => intro w hw; simp at hw; simp [leBytes, hw]
    | succ k ih =>
      intro w hw
      have hd : w / 256 < 256 ^ k := by
        rw [Nat.div_lt_iff_lt_mul (by omega)]
        rw [Nat.pow_succ] at hw; exact hw
      have ⟨i1, i2⟩ := ih (w / 256) hd
      simp only [leBytes, List.foldr_cons, List.length_cons, i1, i2]
      refine ⟨?_, trivial⟩
      have : (UInt8.ofNat (w % 256)).toNat = w % 256 := by
        rw [UInt8.toNat_ofNat']; exact Nat.mod_mod _ _
      rw [this]
      omega
  unfold parseFill
  split
  · have := hle 1 v (by omega)
    rw [if_pos (by omega)]; exact this
  · split
    · have := hle 2 v (by omega)
      rw [if_neg (by omega), if_pos (by omega)]; exact this
    · split
      · have := hle 4 v (by omega)
        rw [if_neg (by omega), if_neg (by omega), if_pos (by omega)]; exact this
      · have := hle 8 v (by omega)
        rw [if_neg (by omega), if_neg (by omega), if_neg (by omega)]; exact this

end H2.Memory
