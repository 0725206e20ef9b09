import Verif.Memory.Lemmas
/- The heap refines its history (helper lemmas). -/
namespace H2.Memory

theorem host_none {h : Heap} {addr} (hn : h.hostPiece addr = none) : ∀ p ∈ pieces h.blocks, p.inRange addr = false := by
  intro p hp
  obtain ⟨b, hb, hpb⟩ := List.mem_flatMap.1 hp
  unfold Heap.hostPiece at hn
  rw [List.findSome?_eq_none_iff] at hn
  have := hn b hb
  unfold Block.hostPiece at this
  simpa using List.find?_eq_none.1 this p hpb

theorem host_some {h : Heap} {addr p} (hs : h.hostPiece addr = some p) : p ∈ pieces h.blocks ∧ p.inRange addr = true := by
  unfold Heap.hostPiece at hs
  obtain ⟨b, hb, hx⟩ := List.exists_of_findSome?_eq_some hs
  unfold Block.hostPiece at hx
  exact ⟨List.mem_flatMap.2 ⟨b, hb, List.mem_of_find?_eq_some hx⟩, List.find?_some (p := fun p : Piece => p.inRange addr) hx⟩

theorem Inv.host_unique {page s} {h : Heap} (hi : Inv page s h) {addr : Nat} {p q : Piece} (hp : p ∈ pieces h.blocks)
    (hq : q ∈ pieces h.blocks) (h1 : p.inRange addr = true) (h2 : q.inRange addr = true) : p = q :=
  unique_of_pairwise (fun p : Piece => p.inRange addr) _
    (List.Pairwise.imp (fun h => apart_inRange h addr) hi.apart) p q hp hq h1 h2

theorem Rep.touch_other {page e p addr w} (h : Rep page e p) (hq : p.inRange addr = false) :
    Rep page (e.touch page addr w) p := by
  unfold Entry.touch
  rw [← h.inRange, hq]
  simpa using h

/-- The access right of an address of the mapping, when nothing forbidden happened yet. -/
theorem Rep.permAt {page e p addr} (h : Rep page e p) (hb : e.bad = none) (hq : p.inRange addr = true) :
    p.permAt addr = if e.clean then Perm.none else if e.area.hi ≤ addr then Perm.read else Perm.rw := by
  have h1 := (h.badNone hb).2
  have h2 := h.fbPage; have h3 := h.fbSize; have := h.geo1; have := h.geo2
  rw [h.inRange] at hq
  simp only [Entry.covers, Bool.and_eq_true, decide_eq_true_eq] at hq
  unfold Piece.permAt
  cases hc : e.clean with
  | true =>
    simp only [hc, if_true] at h1 h2 h3 ⊢
    rw [if_pos (by omega), h1]
  | false =>
    simp only [hc, Bool.false_eq_true, if_false] at h1 h2 h3 ⊢
    by_cases hh : e.area.hi ≤ addr
    · rw [if_pos (by omega), if_pos hh, h1]
    · rw [if_neg (by omega), if_neg hh]

theorem Rep.violate_again {page e p} (a s : Nat) (h : Rep page e p) (hb : e.bad ≠ none) : Rep page e (p.violate a s) := by
  obtain ⟨⟨x, u⟩, hx⟩ := Option.ne_none_iff_exists'.1 hb
  have hv := h.badSome x u hx
  unfold Piece.violate
  rw [if_neg hv.1]
  exact { ptr := h.ptr, lo := h.lo, hi := h.hi, pg := h.pg, size := h.size, site := h.site, who := h.who,
          geo1 := h.geo1, geo2 := h.geo2, freed := h.freed, cleanFreed := h.cleanFreed, fbPage := h.fbPage,
          fbSize := h.fbSize, badNone := fun hn => absurd hn hb,
          badSome := fun a' u' hau => by
            rw [hx] at hau
            obtain ⟨rfl, rfl⟩ := Prod.mk.inj (Option.some.inj hau)
            exact ⟨Nat.succ_ne_zero _, hv.2⟩, snow := h.snow }

theorem Rep.violate_first {page e p} (a s : Nat) (h : Rep page e p) (hb : e.bad = none) :
    Rep page { e with bad := some (a, e.freed) } (p.violate a s) := by
  have hv := h.badNone hb
  unfold Piece.violate
  rw [if_pos hv.1]
  exact { ptr := h.ptr, lo := h.lo, hi := h.hi, pg := h.pg, size := h.size, site := h.site, who := h.who,
          geo1 := h.geo1, geo2 := h.geo2, freed := h.freed, cleanFreed := h.cleanFreed, fbPage := h.fbPage,
          fbSize := h.fbSize, badNone := fun hn => by simp at hn,
          badSome := fun a' u' hau => by
            obtain ⟨rfl, rfl⟩ := Prod.mk.inj (Option.some.inj hau)
            exact ⟨Nat.succ_ne_zero _, rfl, h.freed.symm⟩, snow := h.snow }

/-- `touch` and a fault. -/
theorem Rep.touch_fault {page e p addr} (w : Bool) (s : Nat) (h : Rep page e p) (hq : p.inRange addr = true)
    (hf : p.permAt addr = .none ∨ (w = true ∧ p.permAt addr ≠ .rw)) :
    Rep page (e.touch page addr w) (p.violate addr s) := by
  have hc : e.covers page addr = true := by rw [← h.inRange]; exact hq
  by_cases hb : e.bad = none
  · have hperm := h.permAt hb hq
    have : (e.clean || (w && decide (e.area.hi ≤ addr))) = true := by
      rw [hperm] at hf
      cases hcl : e.clean with
      | true => simp
      | false =>
        simp only [hcl, Bool.false_eq_true, if_false] at hf
        by_cases hh : e.area.hi ≤ addr
        · simp only [hh, if_true] at hf
          rcases hf with hf | hf
          · simp at hf
          · simp [hf.1, hh]
        · simp [hh] at hf
    unfold Entry.touch
    rw [hc, this, hb]
    simp only [Option.isNone_none, Bool.and_self, if_true]
    exact h.violate_first addr s hb
  · unfold Entry.touch
    have : e.bad.isNone = false := by cases h : e.bad with | none => exact absurd h hb | some _ => rfl
    rw [this]
    simp only [Bool.and_false, Bool.false_eq_true, if_false]
    exact h.violate_again addr s hb

theorem Rep.touch_ok {page e p addr} (w : Bool) (h : Rep page e p) (hq : p.inRange addr = true)
    (hf : p.permAt addr = .rw ∨ (w = false ∧ p.permAt addr ≠ .none)) : e.touch page addr w = e := by
  unfold Entry.touch
  split
  · next hc =>
    simp only [Bool.and_eq_true, Option.isNone_iff_eq_none] at hc
    have hperm := h.permAt hc.2 hq
    rw [hperm] at hf
    cases hcl : e.clean with
    | true => simp [hcl] at hf
    | false =>
      simp only [hcl, Bool.false_or, Bool.and_eq_true, decide_eq_true_eq, Bool.false_eq_true, if_false] at hc hf
      simp [hc.1.2.1, hc.1.2.2] at hf
  · rfl

theorem Inv.touch_id {page s} {h : Heap} (hi : Inv page s h) (addr : Nat) (w : Bool)
    (ht : ∀ e p, p ∈ pieces h.blocks → p.inRange addr = true → Rep page e p → e.touch page addr w = e) :
    Inv page (s.map (Entry.touch page addr w)) h := by
  refine ⟨hi.rep.mapLeft _ ?_, hi.apart⟩
  intro a b _ hb hr
  refine ⟨hr.1, hr.2.mapLeft _ ?_⟩
  intro e p _ hpb hep
  cases hq : p.inRange addr with
  | false => exact hep.touch_other hq
  | true => rw [ht e p (List.mem_flatMap.2 ⟨b, hb, hpb⟩) hq hep]; exact hep

theorem fault_eq (h : Heap) (addr site : Nat) :
    h.fault addr site = ⟨updFirst (fun b => (b.pieces.find? (fun p => p.inRange addr)).isSome)
      (fun b => { b with allocated := b.allocated,
                         pieces := updFirst (fun p => p.inRange addr) (fun p => p.violate addr site) b.pieces })
      h.blocks, h.mem, h.flower⟩ := rfl

theorem Inv.fault {page s} {h : Heap} (hi : Inv page s h) (addr site : Nat) (g : Entry → Entry)
    (ht : ∀ e p, p ∈ pieces h.blocks → p.inRange addr = true → Rep page e p → Rep page (g e) (p.violate addr site))
    (hn : ∀ e p, Rep page e p → p.inRange addr = false → Rep page (g e) p) :
    Inv page (s.map g) (h.fault addr site) := by
  rw [fault_eq]
  exact hi.update g (fun p => p.inRange addr) (fun p => p.violate addr site) (fun b => b.allocated)
    (fun p p' ha _ _ => apart_inRange ha addr) (mapping_violate _ _)
    (fun a b hb hr hq => ht a b hb hq hr) hn

theorem Hist.map_id (s : Hist) : s.map (fun e => e) = s := by
  unfold Hist.map
  simp

theorem Inv.load {page s} {h : Heap} (hi : Inv page s h) (addr site : Nat) :
    Inv page (s.map (Entry.touch page addr false)) (h.load addr site).1 := by
  obtain ⟨o, ho⟩ : ∃ o, h.hostPiece addr = o := ⟨_, rfl⟩
  cases o with
  | none =>
    have := host_none ho
    simp only [Heap.load, ho]
    refine hi.touch_id _ _ ?_
    intro e p hp hq
    rw [this p hp] at hq; simp at hq
  | some p =>
    have ⟨hm, hq⟩ := host_some ho
    simp only [Heap.load, ho]
    by_cases hperm : p.permAt addr = .none
    · rw [if_pos hperm]
      refine hi.fault addr site _ ?_ (fun e p hr hq => hr.touch_other hq)
      intro e p' hp' hq' hr
      have := hi.host_unique hp' hm hq' hq
      subst this
      exact hr.touch_fault false site hq (Or.inl hperm)
    · rw [if_neg hperm]
      refine hi.touch_id _ _ ?_
      intro e p' hp' hq' hr
      have := hi.host_unique hp' hm hq' hq
      subst this
      exact hr.touch_ok false hq (Or.inr ⟨rfl, hperm⟩)

/-- After the first fault of a store. -/
def Heap.store1 (h : Heap) (addr site : Nat) : Heap :=
  match h.hostPiece addr with
  | none => h
  | some p => if p.permAt addr = .rw then h else h.fault addr site

theorem Inv.store1 {page s} {h : Heap} (hi : Inv page s h) (addr site : Nat) :
    Inv page (s.map (Entry.touch page addr true)) (h.store1 addr site) := by
  obtain ⟨o, ho⟩ : ∃ o, h.hostPiece addr = o := ⟨_, rfl⟩
  cases o with
  | none =>
    have := host_none ho
    simp only [Heap.store1, ho]
    refine hi.touch_id _ _ ?_
    intro e p hp hq
    rw [this p hp] at hq; simp at hq
  | some p =>
    have ⟨hm, hq⟩ := host_some ho
    simp only [Heap.store1, ho]
    by_cases hperm : p.permAt addr = .rw
    · rw [if_pos hperm]
      refine hi.touch_id _ _ ?_
      intro e p' hp' hq' hr
      have := hi.host_unique hp' hm hq' hq
      subst this
      exact hr.touch_ok true hq (Or.inl hperm)
    · rw [if_neg hperm]
      refine hi.fault addr site _ ?_ (fun e p hr hq => hr.touch_other hq)
      intro e p' hp' hq' hr
      have := hi.host_unique hp' hm hq' hq
      subst this
      exact hr.touch_fault true site hq (Or.inr ⟨rfl, hperm⟩)

theorem touch_touch (page addr : Nat) (w : Bool) (e : Entry) :
    (e.touch page addr w).touch page addr w = e.touch page addr w := by
  unfold Entry.touch
  by_cases hc : (e.covers page addr && (e.clean || w && decide (e.area.hi ≤ addr)) && e.bad.isNone) = true
  · rw [if_pos hc]; simp
  · rw [if_neg hc, if_neg hc]

/-- A page that is still not writable after the first fault of a store was faulted on. -/
theorem Inv.store2 {page} {s : Hist} {addr : Nat} {h : Heap} (hi : Inv page (s.map (Entry.touch page addr true)) h) (site : Nat) :
    Inv page (s.map (Entry.touch page addr true)) (h.store1 addr site) := by
  have key := hi.store1 addr site
  have : Hist.map (Entry.touch page addr true) (Hist.map (Entry.touch page addr true) s) = Hist.map (Entry.touch page addr true) s := by
    simp [Hist.map, touch_touch]
  rw [this] at key
  exact key

theorem store_eq (h : Heap) (addr site : Nat) (v : UInt8) :
    (h.store addr site v).blocks = ((h.store1 addr site).store1 addr site).blocks := by
  obtain ⟨o, ho⟩ : ∃ o, h.hostPiece addr = o := ⟨_, rfl⟩
  cases o with
  | none => simp only [Heap.store, Heap.store1, ho]
  | some p =>
    have : h.store1 addr site = if p.permAt addr = .rw then h else h.fault addr site := by
      simp only [Heap.store1, ho]
    simp only [Heap.store, ho]
    rw [← this]
    rfl

theorem Inv.store {page s} {h : Heap} (hi : Inv page s h) (addr site : Nat) (v : UInt8) :
    Inv page (s.map (Entry.touch page addr true)) (h.store addr site v) := by
  have h2 := (hi.store1 addr site).store2 site
  exact ⟨by rw [store_eq]; exact h2.rep, by rw [store_eq]; exact h2.apart⟩

theorem Inv.push {page s} {h : Heap} (hi : Inv page s h) (a : Attrs) : Inv page ((a, []) :: s) (h.push a) :=
  ⟨.cons ⟨rfl, .nil⟩ hi.rep, hi.apart⟩

theorem Inv.pop {page s} {h : Heap} (hi : Inv page s h) : Inv page s.tail h.pop.1 := by
  obtain ⟨hr, ha⟩ := hi
  unfold Heap.pop
  obtain ⟨bs, hbs⟩ : ∃ bs, h.blocks = bs := ⟨_, rfl⟩
  rw [hbs] at hr ha
  cases hr with
  | nil => simp only [hbs]; exact ⟨by rw [hbs]; exact .nil, by rw [hbs]; exact ha⟩
  | cons h1 h2 =>
    simp only [hbs, List.tail_cons]
    simp only [pieces, List.flatMap_cons, List.pairwise_append] at ha
    exact ⟨h2, ha.2.1⟩

/-- The memory after an allocation: the padding carries the snow, the user area the pattern. -/
theorem alloc_mem_padding (p : Piece) (m : Mem) (pattern : List UInt8) (a : Nat)
    (h : (p.pagePtr ≤ a ∧ a < p.userPtr) ∨ (p.userPtr + p.userSize ≤ a ∧ a < p.pageEnd)) :
    fillArea (p.markSnow m) p.userPtr p.userSize pattern a = p.flower := by
  have hs : p.markSnow m a = p.flower := by
    unfold Piece.markSnow Mem.fillRange
    rcases h with h | h
    · simp [h]
    · simp [h]
  unfold fillArea
  split
  · exact hs
  · show (if _ then _ else _) = _
    rw [if_neg (by omega)]
    exact hs

theorem mk_rep (page pagePtr size al : Nat) (who : Alloc) (site : Site) (f : UInt8) (m : Mem) (hp : 0 < page)
    (hs : size < 2 ^ 63) (ha : al < 2 ^ 31)
    (hm : ∀ a, (pagePtr ≤ a ∧ a < (mkPiece page pagePtr size al who site f).userPtr) ∨
      ((mkPiece page pagePtr size al who site f).userPtr + size ≤ a ∧ a < (mkPiece page pagePtr size al who site f).pageEnd) →
      m a = f) :
    Rep page { area := (mkPiece page pagePtr size al who site f).area m, who := who, size := size, site := site }
      (mkPiece page pagePtr size al who site f) := by
  have hb := mk_bounds page pagePtr size al who site f hp hs ha
  exact { ptr := rfl, lo := rfl, hi := rfl, pg := rfl, size := rfl, site := rfl, who := rfl, geo1 := hb.1, geo2 := hb.2,
          freed := rfl, cleanFreed := by simp, fbPage := rfl, fbSize := rfl, badNone := fun _ => ⟨rfl, rfl⟩,
          badSome := by simp, snow := hm }

/-- What a successful allocation does. -/
theorem newPiece_some {h : Heap} {page pagePtr who size alignment fill site p}
    (hs : (h.newPiece page pagePtr who size alignment fill site).2 = some p) :
    ∃ b, h.target site = some b ∧ ¬ b.attrs.limit < (b.allocated + size) % 2 ^ 64 ∧
      p = mkPiece page pagePtr size (if alignment = 0 then b.attrs.alignment else alignment) who site (h.flower + 1) ∧
      (h.newPiece page pagePtr who size alignment fill site).1.mem =
        fillArea (p.markSnow h.mem) p.userPtr size (fillPattern fill b.attrs) ∧
      (h.newPiece page pagePtr who size alignment fill site).1.blocks =
        (let upd := fun c : Block => { c with allocated := (b.allocated + size) % 2 ^ 64, footprint := if b.footprint < (b.allocated + size) % 2 ^ 64 then (b.allocated + size) % 2 ^ 64 else b.footprint, pieces := c.pieces ++ [p] }
         if site.exempt then updLast upd h.blocks else updHead upd h.blocks) := by
  obtain ⟨o, ho⟩ : ∃ o, h.target site = o := ⟨_, rfl⟩
  cases o with
  | none => simp [Heap.newPiece, ho] at hs
  | some b =>
    by_cases hl : b.attrs.limit < (b.allocated + size) % 2 ^ 64
    · simp only [Heap.newPiece, ho, if_pos hl] at hs
      simp at hs
    · simp only [Heap.newPiece, ho, if_neg hl] at hs ⊢
      have hs := (Option.some.inj hs).symm
      refine ⟨b, rfl, hl, hs, ?_, ?_⟩
      · rw [hs]
      · rw [hs]

theorem newPiece_none {h : Heap} {page pagePtr who size alignment fill site}
    (hs : (h.newPiece page pagePtr who size alignment fill site).2 = none) :
    (h.newPiece page pagePtr who size alignment fill site).1 = h := by
  obtain ⟨o, ho⟩ : ∃ o, h.target site = o := ⟨_, rfl⟩
  cases o with
  | none => simp [Heap.newPiece, ho]
  | some b =>
    by_cases hl : b.attrs.limit < (b.allocated + size) % 2 ^ 64
    · simp only [Heap.newPiece, ho, if_pos hl]
    · simp only [Heap.newPiece, ho, if_neg hl] at hs
      simp at hs

theorem pairwise_add {α : Type} {R : α → α → Prop} (hsymm : ∀ a b, R a b → R b a) (l m : List α) (x : α)
    (h : (l ++ m).Pairwise R) (hx : ∀ y ∈ l ++ m, R x y) : (l ++ [x] ++ m).Pairwise R := by
  rw [List.append_assoc, List.pairwise_append]
  rw [List.pairwise_append] at h
  refine ⟨h.1, ?_, ?_⟩
  · rw [List.singleton_append, List.pairwise_cons]
    exact ⟨fun y hy => hx y (List.mem_append_right _ hy), h.2.1⟩
  · intro a ha b hb
    rw [List.singleton_append, List.mem_cons] at hb
    rcases hb with e | e
    · subst e; exact hsymm _ _ (hx a (List.mem_append_left _ ha))
    · exact h.2.2 a ha b e

theorem pieces_updLast (x : Piece) (upd : Block → Block) (hu : ∀ b, (upd b).pieces = b.pieces ++ [x]) (bs : List Block) (hne : bs ≠ []) :
    pieces (updLast upd bs) = pieces bs ++ [x] := by
  induction bs with
  | nil => exact absurd rfl hne
  | cons b bs ih =>
    cases bs with
    | nil => simp [updLast, pieces, hu]
    | cons c cs =>
      have := ih (by simp)
      simp only [pieces] at this
      simp only [updLast, pieces, List.flatMap_cons] at this ⊢
      rw [this]
      simp

theorem Inv.alloc {page s} {h : Heap} (hp : 0 < page) (hi : Inv page s h) (pagePtr : Nat) (who : Alloc)
    (size alignment : Nat) (fill : Option UInt8) (site : Site) (hf : Fresh h page pagePtr size alignment site) :
    Inv page (s.step page (.alloc who size site ((h.newPiece page pagePtr who size alignment fill site).2.map
          (fun p => p.area (h.newPiece page pagePtr who size alignment fill site).1.mem))))
      (h.newPiece page pagePtr who size alignment fill site).1 := by
  obtain ⟨o, ho⟩ : ∃ o, (h.newPiece page pagePtr who size alignment fill site).2 = o := ⟨_, rfl⟩
  cases o with
  | none =>
    rw [newPiece_none ho, ho]
    exact hi
  | some p =>
    obtain ⟨b, hb, hl, hpe, hm, hbl⟩ := newPiece_some ho
    obtain ⟨hs, hpg, hfr⟩ := hf
    have ⟨ha, hap⟩ := hfr b hb
    have hap' : ∀ q ∈ pieces h.blocks, Apart p q := by
      intro q hq
      obtain ⟨c, hc, hqc⟩ := List.mem_flatMap.1 hq
      rw [hpe]
      exact hap c hc q hqc _ _ _
    have hrep : Rep page { area := p.area (h.newPiece page pagePtr who size alignment fill site).1.mem, who := who, size := size, site := site } p := by
      rw [hm, hpe]
      refine mk_rep page pagePtr size _ who site _ _ hp hs ha ?_
      intro a hpad
      exact alloc_mem_padding (mkPiece page pagePtr size _ who site (h.flower + 1)) _ _ a hpad
    rw [ho]
    simp only [Option.map_some, Hist.step]
    generalize hent : ({ area := p.area (h.newPiece page pagePtr who size alignment fill site).1.mem, who := who, size := size, site := site } : Entry) = ent at hrep ⊢
    have hsite : ent.site = site := by rw [← hent]
    obtain ⟨hr, hapw⟩ := hi
    have hne : h.blocks ≠ [] := by
      intro hnil
      unfold Heap.target at hb
      rw [hnil] at hb
      simp at hb
    constructor
    · rw [hbl]
      simp only
      generalize h.blocks = bs at hr
      cases hr with
      | nil => simp only [addEntry, updLast, updHead, ite_self]; exact .nil
      | cons h1 h2 =>
        simp only [addEntry, hsite]
        split
        · refine All2.lastUpd _ _ (.cons h1 h2) ?_
          intro a c hac
          exact ⟨hac.1, hac.2.append (.cons hrep .nil)⟩
        · exact .cons ⟨h1.1, h1.2.append (.cons hrep .nil)⟩ h2
    · rw [hbl]
      simp only
      split
      · rw [pieces_updLast p _ (fun _ => rfl) _ hne]
        have := pairwise_add (R := Apart) (fun _ _ => apart_symm) (pieces h.blocks) [] p (by simpa using hapw) (by simpa using hap')
        simpa using this
      · revert hapw hap'
        generalize h.blocks = bs
        intro hap' hapw
        cases bs with
        | nil => exact .nil
        | cons c cs =>
          simp only [pieces, List.flatMap_cons] at hapw hap' ⊢
          exact pairwise_add (R := Apart) (fun _ _ => apart_symm) _ _ p hapw hap'

/-- **Refinement.** The heap always represents its history. -/
theorem reach_inv {page es h} (hp : 0 < page) (hr : Reach page es h) : Inv page (history page es) h := by
  induction hr with
  | start m f => exact ⟨.cons ⟨rfl, .nil⟩ .nil, .nil⟩
  | push a _ ih => exact ih.push a
  | pop _ ih => exact ih.pop
  | alloc pagePtr who size alignment fill site _ hf ih => exact ih.alloc hp pagePtr who size alignment fill site hf
  | free r ptr _ ih => exact ih.free hp r ptr
  | read a s _ ih => exact ih.load a s
  | write a s v _ ih => exact ih.store a s v

end H2.Memory
