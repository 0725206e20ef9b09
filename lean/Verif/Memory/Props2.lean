import Verif.Memory.Props
/- Properties of the checked heap, continued: C26 (realloc) and C55 (forbidden accesses). -/
namespace H2.Memory

/-! ### Lemmas -/

theorem getPiece_eq {page s} {h : Heap} (hp : 0 < page) (hi : Inv page s h) {p : Piece} (hm : p ∈ pieces h.blocks) :
    h.getPiece p.userPtr = some p := by
  obtain ⟨o, ho⟩ : ∃ o, h.getPiece p.userPtr = o := ⟨_, rfl⟩
  rw [ho]
  unfold Heap.getPiece at ho
  cases o with
  | none =>
    rw [List.findSome?_eq_none_iff] at ho
    obtain ⟨b, hb, hpb⟩ := List.mem_flatMap.1 hm
    have := ho b hb
    unfold Block.getPiece at this
    have := List.find?_eq_none.1 this p hpb
    simp at this
  | some x =>
    obtain ⟨b, hb, hx⟩ := List.exists_of_findSome?_eq_some ho
    unfold Block.getPiece at hx
    have h1 : x ∈ pieces h.blocks := List.mem_flatMap.2 ⟨b, hb, List.mem_of_find?_eq_some hx⟩
    have h2 := List.find?_some (p := fun q : Piece => q.userPtr == p.userPtr) hx
    rw [unique_of_pairwise (fun q : Piece => q.userPtr == p.userPtr) _
      (List.Pairwise.imp_of_mem (fun h1 h2 h3 => hi.ptr_unique hp _ _ h3 h1 h2 p.userPtr) hi.apart) x p h1 hm h2 (by simp)]

theorem mem_updHead {α : Type} (f : α → α) (l : List α) (x : α) (h : x ∈ l) :
    x ∈ updHead f l ∨ ∃ y, l.head? = some y ∧ x = y ∧ f y ∈ updHead f l := by
  cases l with
  | nil => simp at h
  | cons a l =>
    rcases List.mem_cons.1 h with e | e
    · exact Or.inr ⟨a, rfl, e, List.mem_cons_self⟩
    · exact Or.inl (List.mem_cons_of_mem _ e)

theorem pieces_alloc {h : Heap} {page pagePtr who size alignment fill site p}
    (hs : (h.newPiece page pagePtr who size alignment fill site).2 = some p) :
    p ∈ pieces (h.newPiece page pagePtr who size alignment fill site).1.blocks ∧
    ∀ q ∈ pieces h.blocks, q ∈ pieces (h.newPiece page pagePtr who size alignment fill site).1.blocks := by
  obtain ⟨b, hb, _, _, _, hbl⟩ := newPiece_some hs
  rw [hbl]
  have hne : h.blocks ≠ [] := by
    intro hnil
    unfold Heap.target at hb
    rw [hnil] at hb
    simp at hb
  simp only
  split
  · rw [pieces_updLast p _ (fun _ => rfl) _ hne]
    exact ⟨by simp, fun q hq => List.mem_append_left _ hq⟩
  · revert hne
    generalize h.blocks = bs
    intro hne
    cases bs with
    | nil => exact absurd rfl hne
    | cons c cs =>
      simp only [updHead, pieces, List.flatMap_cons]
      constructor
      · simp
      · intro q hq
        rcases List.mem_append.1 hq with h1 | h1
        · exact List.mem_append_left _ (List.mem_append_left _ h1)
        · exact List.mem_append_right _ h1

theorem alloc_rep {h : Heap} {page pagePtr who size alignment fill site p} (hp : 0 < page)
    (hf : Fresh h page pagePtr size alignment site)
    (hs : (h.newPiece page pagePtr who size alignment fill site).2 = some p) :
    Rep page { area := p.area (h.newPiece page pagePtr who size alignment fill site).1.mem, who := who, size := size, site := site } p ∧
    (∀ q ∈ pieces h.blocks, Apart p q) ∧
    ∀ a, p.inRange a = false → (h.newPiece page pagePtr who size alignment fill site).1.mem a = h.mem a := by
  obtain ⟨b, hb, hl, hpe, hm, hbl⟩ := newPiece_some hs
  obtain ⟨hsz, hpg, hfr⟩ := hf
  have ⟨ha, hap⟩ := hfr b hb
  have hrep : Rep page { area := p.area (h.newPiece page pagePtr who size alignment fill site).1.mem, who := who, size := size, site := site } p := by
    rw [hm, hpe]
    refine mk_rep page pagePtr size _ who site _ _ hp hsz ha ?_
    intro a hpad
    exact alloc_mem_padding (mkPiece page pagePtr size _ who site (h.flower + 1)) _ _ a hpad
  refine ⟨hrep, ?_, ?_⟩
  · intro q hq
    obtain ⟨c, hc, hqc⟩ := List.mem_flatMap.1 hq
    rw [hpe]
    exact hap c hc q hqc _ _ _
  · intro a hr
    have g1 := hrep.geo1; have g2 := hrep.geo2; have gs := hrep.size
    have hsz' : p.userSize = size := gs
    have hr' : ¬ (p.pagePtr ≤ a ∧ a < p.pageEnd) := by
      intro hh
      rw [hrep.inRange] at hr
      have hr : (decide (p.pagePtr ≤ a) && decide (a < p.pageEnd + page)) = false := hr
      simp only [Bool.and_eq_false_iff, decide_eq_false_iff_not] at hr
      omega
    have g1 : p.pagePtr ≤ p.userPtr := g1
    have g2 : p.userPtr + size ≤ p.pageEnd := g2
    rw [hm]
    have hsn : p.markSnow h.mem a = h.mem a := by
      unfold Piece.markSnow Mem.fillRange
      rw [if_neg (by omega), if_neg (by omega)]
    unfold fillArea
    split
    · exact hsn
    · show (if _ then _ else _) = _
      rw [if_neg (by omega), hsn]

/-! ### C26: realloc -/

/-- **C26.** A successful `realloc` of a live area returns an area whose first bytes, up to the smaller
of both sizes, are those of the old one; the history is that of one allocation, some reads and writes,
and exactly one release of the old area. -/
theorem C26_realloc {page es} {h : Heap} (hp : 0 < page) (hr : Reach page es h) {b e} (hb : b ∈ history page es) (he : e ∈ b.2)
    (hlive : e.freed = false) (hnz : e.area.ptr ≠ 0) {pagePtr size site} (hsz : 0 < size)
    (hf : Fresh h page pagePtr size 0 site) {h' new f}
    (hre : h.realloc page pagePtr e.area.ptr size site = (h', some new, f)) :
    (∀ i, i < min e.size size → h'.mem (new.userPtr + i) = h.mem (e.area.ptr + i)) ∧
    new.userSize = size ∧
    ∃ ev area, (∀ x ∈ ev, (∃ a, x = Event.read a) ∨ ∃ a, x = Event.write a) ∧ area.ptr = new.userPtr ∧
      Reach page (.free .free e.area.ptr f :: (ev ++ .alloc .realloc size site (some area) :: es)) h' := by
  have hi := reach_inv hp hr
  obtain ⟨c, hc, hbc⟩ := hi.rep.left b hb
  obtain ⟨p, hpc, hrep⟩ := hbc.2.left e he
  have hpm : p ∈ pieces h.blocks := List.mem_flatMap.2 ⟨c, hc, hpc⟩
  have hget : h.getPiece e.area.ptr = some p := by rw [← hrep.ptr]; exact getPiece_eq hp hi hpm
  have hclean : e.clean = false := by
    cases hcl : e.clean with
    | false => rfl
    | true => have := hrep.cleanFreed hcl; rw [hlive] at this; simp at this
  unfold Heap.realloc at hre
  simp only [if_neg hnz, if_neg (Nat.ne_of_gt hsz), hget] at hre
  obtain ⟨o, ho⟩ : ∃ o, (h.newPiece page pagePtr .realloc size 0 none site).2 = o := ⟨_, rfl⟩
  rw [ho] at hre
  cases o with
  | none => simp at hre
  | some q =>
    simp only [Prod.mk.injEq, Option.some.injEq] at hre
    obtain ⟨e1, rfl, e3⟩ := hre
    have ⟨hrq, hap, hout⟩ := alloc_rep hp hf ho
    have ⟨hqm, hold⟩ := pieces_alloc ho
    have hr1 := hr.alloc pagePtr .realloc size 0 none site hf
    rw [ho] at hr1
    simp only [Option.map_some] at hr1
    generalize h.newPiece page pagePtr .realloc size 0 none site = np at *
    have hcopy := copy_spec hp hr1 (eo := e) (po := p) (en := { area := q.area np.1.mem, who := .realloc, size := size, site := site })
      (pn := q) ⟨hold p hpm, hrep, hclean⟩ ⟨hqm, hrq, rfl⟩ (apart_symm (hap p hpm)) site.id (min e.size size)
      (Nat.min_le_left _ _) (Nat.min_le_right _ _)
    have hq : ({ area := q.area np.1.mem, who := .realloc, size := size, site := site } : Entry).area.ptr = q.userPtr := rfl
    rw [hq] at hcopy
    obtain ⟨⟨ev, hev, hreach⟩, hbl, hmem⟩ := hcopy
    rw [hrep.size] at e1 e3
    generalize np.1.copy q.userPtr e.area.ptr site.id (min e.size size) = h2 at *
    have hfree := hreach.free .free e.area.ptr
    rw [e1, e3] at hfree
    have hmm : h'.mem = h2.mem := by
      rw [← e1]
      unfold Heap.relPiece
      split
      · rfl
      · split <;> rfl
    refine ⟨?_, hrq.size, ev, q.area np.1.mem, hev, rfl, hfree⟩
    intro i hlt
    rw [hmm, hmem, if_pos ⟨by omega, by omega⟩, Nat.add_sub_cancel_left]
    refine hout _ ?_
    have hx := apart_inRange (hap p hpm) (e.area.ptr + i)
    have hin : p.inRange (e.area.ptr + i) = true := by
      rw [hrep.inRange]
      have := hrep.geo1; have := hrep.geo2
      simp only [Entry.covers, Bool.and_eq_true, decide_eq_true_eq]
      omega
    cases hz : q.inRange (e.area.ptr + i) with
    | false => rfl
    | true => exact absurd ⟨hz, hin⟩ hx

/-- **C26.** `realloc` of an area from the C family with intact padding reports nothing, whether or not
it could allocate. -/
theorem C26_realloc_silent {page es} {h : Heap} (hp : 0 < page) (hr : Reach page es h) {b e} (hb : b ∈ history page es) (he : e ∈ b.2)
    (hlive : e.freed = false) (hnz : e.area.ptr ≠ 0) (hm : matching e.who .free = true)
    (hpad : ∀ a, e.padding a → h.mem a = e.area.mem a) {pagePtr size site} (hf : Fresh h page pagePtr size 0 site) :
    (h.realloc page pagePtr e.area.ptr size site).2.2 = none := by
  have hi := reach_inv hp hr
  obtain ⟨c, hc, hbc⟩ := hi.rep.left b hb
  obtain ⟨p, hpc, hrep⟩ := hbc.2.left e he
  have hpm : p ∈ pieces h.blocks := List.mem_flatMap.2 ⟨c, hc, hpc⟩
  have hget : h.getPiece e.area.ptr = some p := by rw [← hrep.ptr]; exact getPiece_eq hp hi hpm
  have hclean : e.clean = false := by
    cases hcl : e.clean with
    | false => rfl
    | true => have := hrep.cleanFreed hcl; rw [hlive] at this; simp at this
  unfold Heap.realloc
  simp only [if_neg hnz, hget]
  by_cases hsz : size = 0
  · rw [if_pos hsz]
    exact C22_matched hp hr hb he hlive .free hm hpad
  · rw [if_neg hsz]
    obtain ⟨o, ho⟩ : ∃ o, (h.newPiece page pagePtr .realloc size 0 none site).2 = o := ⟨_, rfl⟩
    rw [ho]
    cases o with
    | none =>
      simp only
      rw [newPiece_none ho]
      exact C22_matched hp hr hb he hlive .free hm hpad
    | some q =>
      simp only
      have ⟨hrq, hap, hout⟩ := alloc_rep hp hf ho
      have ⟨hqm, hold⟩ := pieces_alloc ho
      have hr1 := hr.alloc pagePtr .realloc size 0 none site hf
      rw [ho] at hr1
      simp only [Option.map_some] at hr1
      generalize h.newPiece page pagePtr .realloc size 0 none site = np at *
      have hcopy := copy_spec hp hr1 (eo := e) (po := p) (en := { area := q.area np.1.mem, who := .realloc, size := size, site := site })
        (pn := q) ⟨hold p hpm, hrep, hclean⟩ ⟨hqm, hrq, rfl⟩ (apart_symm (hap p hpm)) site.id (min e.size size)
        (Nat.min_le_left _ _) (Nat.min_le_right _ _)
      have hq : ({ area := q.area np.1.mem, who := .realloc, size := size, site := site } : Entry).area.ptr = q.userPtr := rfl
      rw [hq] at hcopy
      obtain ⟨⟨ev, hev, hreach⟩, hbl, hmem⟩ := hcopy
      rw [hrep.size]
      generalize np.1.copy q.userPtr e.area.ptr site.id (min e.size size) = h2 at *
      have hi2 := reach_inv hp hreach
      have hpm2 : p ∈ pieces h2.blocks := by rw [hbl]; exact hold p hpm
      have hqp : (p.userPtr == e.area.ptr) = true := by rw [hrep.ptr]; simp
      obtain ⟨p', hpm', hq', heq⟩ := relPiece_some (r := .free) ⟨p, hpm2, hqp⟩
      have : p' = p := unique_of_pairwise (fun p : Piece => p.userPtr == e.area.ptr) _
        (List.Pairwise.imp_of_mem (fun h1 h2 h3 => hi2.ptr_unique hp _ _ h3 h1 h2 e.area.ptr) hi2.apart) p' p hpm' hpm2 hq' hqp
      subst this
      rw [heq]
      simp only
      unfold Piece.freeFail
      rw [if_neg (by simp [not_freed hrep hlive])]
      simp only [Option.bind_some, asym_eq, hrep.who, hrep.site, hm, Bool.true_or, if_true]
      refine (checkSnow_none hrep _).2 ?_
      intro a ha
      have hpr : p'.inRange a = true := by
        rw [hrep.inRange]
        have := hrep.geo1; have := hrep.geo2
        unfold Entry.padding at ha
        simp only [Entry.covers, Bool.and_eq_true, decide_eq_true_eq]
        omega
      have hqr : q.inRange a = false := by
        cases hz : q.inRange a with
        | false => rfl
        | true => exact absurd ⟨hz, hpr⟩ (apart_inRange (hap p' hpm) a)
      have hnin : ¬ (q.userPtr ≤ a ∧ a < q.userPtr + min e.size size) := by
        intro hh
        rw [hrq.inRange] at hqr
        have h1 := hrq.geo1; have h2 := hrq.geo2
        have h1 : q.pagePtr ≤ q.userPtr := h1
        have h2 : q.userPtr + size ≤ q.pageEnd := h2
        have hqr : (decide (q.pagePtr ≤ a) && decide (a < q.pageEnd + page)) = false := hqr
        simp only [Bool.and_eq_false_iff, decide_eq_false_iff_not] at hqr
        omega
      rw [hmem, if_neg hnin, hout a hqr, hpad a ha]

/-- **C26.** `realloc(NULL, n)` is an allocation, `realloc(p, 0)` a release. -/
theorem C26_null_and_zero (h : Heap) (page pagePtr ptr size : Nat) (site : Site) (hs : 0 < size) (hp : ptr ≠ 0) :
    h.realloc page pagePtr 0 size site =
      ((h.newPiece page pagePtr .realloc size 0 none site).1, (h.newPiece page pagePtr .realloc size 0 none site).2, none) ∧
    h.realloc page pagePtr ptr 0 site = ((h.relPiece .free ptr).1, none, (h.relPiece .free ptr).2) := by
  constructor
  · unfold Heap.realloc
    simp only [if_true, if_neg (Nat.ne_of_gt hs)]
  · unfold Heap.realloc
    simp only [if_neg hp, if_true]
    cases h.getPiece ptr <;> rfl

/-- **C26, refuted (limit reached).** Unlike the C library, a `realloc` that cannot allocate releases
the old area: with 10 bytes live and a limit of 1000, `realloc(p, 2000)` returns null and `p` is
gone. -/
theorem C26_failed_realloc_false :
    let r := tiny.realloc 4096 (4096 * 10) 8176 2000 ⟨0, false⟩
    r.2.1.isNone = true ∧ (r.1.getPiece 8176).map (fun p => p.freeTimes) = some 1 := by
  decide +kernel

/-! ### C55: forbidden accesses -/

/-- The failure for a forbidden access. -/
def forbiddenFail (f : Fail) (e : Entry) : Prop :=
  match e.bad with
  | none => False
  | some (a, true) => ∃ act, f = .useAfterFree e.area.ptr a act
  | some (a, false) => ∃ act, f = .overflow e.area.ptr e.size a act []

/-- **C55.** When the innermost block ends, the failures are exactly the first forbidden access of
every area of the block that suffered one, in the order of allocation: a use after free when the area
had been released, an overflow when it had not (and leaks are not reported then). -/
theorem C55_forbidden {page es h a l rest} (hp : 0 < page) (hr : Reach page es h) (hh : history page es = (a, l) :: rest)
    (hbad : ∃ e ∈ l, e.bad ≠ none) :
    All2 forbiddenFail h.pop.2 (l.filter (fun e => e.bad.isSome)) := by
  obtain ⟨b, bs, hb, hattr, hall, hpop⟩ := pop_cons hp hr hh
  have key : All2 forbiddenFail ((b.pieces.filter (fun p => decide (p.violateTimes ≠ 0))).map Piece.violateFail)
      (l.filter (fun e => e.bad.isSome)) := by
    clear hh hbad hpop
    generalize b.pieces = ps at hall
    induction hall with
    | nil => exact .nil
    | @cons e p l ps hrep _ ih =>
      obtain ⟨o, ho⟩ : ∃ o, e.bad = o := ⟨_, rfl⟩
      cases o with
      | none =>
        have := (hrep.badNone ho).1
        simp only [List.filter_cons, this, ho]
        simpa using ih
      | some x =>
        obtain ⟨x, u⟩ := x
        have ⟨h1, h2, h3⟩ := hrep.badSome x u ho
        simp only [List.filter_cons, h1, ho, ne_eq, not_false_eq_true, decide_true, if_true, Option.isSome_some, List.map_cons]
        refine .cons ?_ ih
        unfold forbiddenFail Piece.violateFail
        rw [ho, h3]
        cases u with
        | true => simp only [if_true]; exact ⟨_, by rw [hrep.ptr, h2]⟩
        | false => simp only [Bool.false_eq_true, if_false]; exact ⟨_, by rw [hrep.ptr, hrep.size, h2]⟩
  have hne : (b.pieces.filter (fun p => decide (p.violateTimes ≠ 0))).map Piece.violateFail ≠ [] := by
    intro hnil
    obtain ⟨e, he, heb⟩ := hbad
    rw [hnil] at key
    have hmem : e ∈ l.filter (fun e => e.bad.isSome) := by
      rw [List.mem_filter]
      refine ⟨he, ?_⟩
      cases hx : e.bad with
      | none => exact absurd hx heb
      | some _ => rfl
    obtain ⟨f, hf, _⟩ := key.right e hmem
    simp at hf
  rw [hpop]
  unfold Block.check
  simp only [if_pos hne]
  exact key

/-- **C55.** Any access to an area released without complaint counts, as does any write to the guard
page: the next event records it (unless one was recorded before). -/
theorem C55_recorded (page : Nat) (s : Hist) (addr : Nat) (isWrite : Bool) (b : Attrs × List Entry) (e : Entry) (_hb : b ∈ s) (_he : e ∈ b.2)
    (hc : e.area.lo ≤ addr ∧ addr < e.area.hi + page) (hf : e.clean = true ∨ (isWrite = true ∧ e.area.hi ≤ addr)) :
    ((e.touch page addr isWrite).bad).isSome = true := by
  unfold Entry.touch Entry.covers
  have h1 : (decide (e.area.lo ≤ addr) && decide (addr < e.area.hi + page)) = true := by simp [hc.1, hc.2]
  have h2 : (e.clean || isWrite && decide (e.area.hi ≤ addr)) = true := by
    rcases hf with h | h
    · simp [h]
    · simp [h.1, h.2]
  rw [h1, h2]
  cases hb : e.bad with
  | none => simp
  | some x => simp [hb]

/-- **C55.** The reported action: a store is reported as a write, a load as a read. -/
theorem C55_action {page es h} (hp : 0 < page) (hr : Reach page es h) {b e} (hb : b ∈ history page es) (he : e ∈ b.2)
    (hcl : e.clean = true) (hbad : e.bad = none) (addr site : Nat) (v : UInt8) (hc : e.area.lo ≤ addr ∧ addr < e.area.hi + page) :
    (∃ p, (h.load addr site).1.hostPiece addr = some p ∧ p.violateFail = .useAfterFree e.area.ptr addr .read) ∧
    (∃ p, (h.store addr site v).hostPiece addr = some p ∧ p.violateFail = .useAfterFree e.area.ptr addr .write) := by
  have hi := reach_inv hp hr
  obtain ⟨c, hcb, hbc⟩ := hi.rep.left b hb
  obtain ⟨p, hpc, hrep⟩ := hbc.2.left e he
  have hpm : p ∈ pieces h.blocks := List.mem_flatMap.2 ⟨c, hcb, hpc⟩
  have hin : p.inRange addr = true := by
    rw [hrep.inRange]; simp only [Entry.covers, Bool.and_eq_true, decide_eq_true_eq]; exact hc
  have hhost := hi.host_eq hpm hin
  have hperm := hrep.permAt hbad hin
  rw [hcl] at hperm
  simp only [if_true] at hperm
  have hfr : 0 < p.freeTimes := by
    have := hrep.freed
    rw [hrep.cleanFreed hcl] at this
    exact of_decide_eq_true this.symm
  have hv0 := (hrep.badNone hbad).1
  -- the hosting piece after a fault
  have fault_host : ∀ (g : Heap) (x : Piece), g.hostPiece addr = some x → (g.fault addr site).hostPiece addr = some (x.violate addr site) := by
    intro g x hx
    unfold Heap.hostPiece at hx ⊢
    unfold Heap.fault
    simp only
    have hv : ∀ y : Piece, (y.violate addr site).inRange addr = y.inRange addr := by
      intro y; unfold Piece.violate; split <;> rfl
    generalize g.blocks = bs at hx
    induction bs with
    | nil => simp at hx
    | cons d ds ih =>
      rw [List.findSome?_cons] at hx
      obtain ⟨o, ho⟩ : ∃ o, d.hostPiece addr = o := ⟨_, rfl⟩
      rw [ho] at hx
      rw [updFirst]
      cases o with
      | none =>
        simp only at hx
        rw [ho]
        simp only [Option.isSome_none, Bool.false_eq_true, if_false, List.findSome?_cons, ho]
        exact ih hx
      | some y =>
        simp only [Option.some.injEq] at hx
        subst hx
        rw [ho]
        simp only [Option.isSome_some, if_true, List.findSome?_cons]
        have : ({ d with pieces := updFirst (fun p => p.inRange addr) (fun p => p.violate addr site) d.pieces } : Block).hostPiece addr
            = some (y.violate addr site) := by
          unfold Block.hostPiece at ho ⊢
          simp only
          generalize d.pieces = ps at ho
          clear ih
          induction ps with
          | nil => simp at ho
          | cons z zs ih2 =>
            rw [List.find?_cons] at ho
            rw [updFirst]
            cases hz : z.inRange addr with
            | true =>
              rw [hz] at ho
              simp only [Option.some.injEq] at ho
              subst ho
              simp only [if_true, List.find?_cons, hv, hz]
            | false =>
              rw [hz] at ho
              simp only at ho
              simp only [Bool.false_eq_true, if_false, List.find?_cons, hz]
              exact ih2 ho
        rw [this]
  have h1 := fault_host h p hhost
  have hviol : p.violate addr site = { p with violateTimes := 1, perm := .read, violateSite := site, violatePtr := addr, violateAction := .read, violateAfterFree := true } := by
    unfold Piece.violate
    rw [if_pos hv0]
    simp [hfr]
  constructor
  · refine ⟨p.violate addr site, ?_, ?_⟩
    · simp only [Heap.load, hhost, hperm, if_true]
      exact h1
    · rw [hviol]
      unfold Piece.violateFail
      simp only [if_true, hrep.ptr]
  · have hp1 : (p.violate addr site).permAt addr = .read := by
      rw [hviol]
      have hb1 := hrep.fbPage; have hb2 := hrep.fbSize; have := hrep.geo1; have := hrep.geo2
      rw [hcl] at hb1 hb2
      simp only [if_true] at hb1 hb2
      unfold Piece.permAt
      simp only
      rw [if_pos (by omega)]
    have h2 := fault_host _ _ h1
    refine ⟨(p.violate addr site).violate addr site, ?_, ?_⟩
    · have : (h.store addr site v).hostPiece addr = ((h.fault addr site).fault addr site).hostPiece addr := by
        have s1 : h.store1 addr site = h.fault addr site := by
          simp only [Heap.store1, hhost, hperm]; rfl
        have s2 : (h.fault addr site).store1 addr site = (h.fault addr site).fault addr site := by
          simp only [Heap.store1, h1, hp1]; rfl
        unfold Heap.hostPiece
        rw [store_eq, s1, s2]
      rw [this]
      exact h2
    · rw [hviol]
      unfold Piece.violate Piece.violateFail
      simp only [if_true, hrep.ptr]
      simp

end H2.Memory
