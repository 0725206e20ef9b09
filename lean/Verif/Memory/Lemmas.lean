import Verif.Memory.Spec
import Verif.Misc.Props
/- Helper lemmas: geometry, and the relation between the heap and its history. -/
namespace H2.Memory

/-! ### Geometry -/

theorem and_mask (x k : Nat) (hx : x < 2 ^ 64) (hk : k ≤ 64) : x &&& (2 ^ 64 - 2 ^ k) = x / 2 ^ k * 2 ^ k := by
  have e : (2 : Nat) ^ 64 - 2 ^ k = (2 ^ (64 - k) - 1) <<< k := by
    rw [Nat.shiftLeft_eq, Nat.sub_mul, ← Nat.pow_add, Nat.sub_add_cancel hk]; simp
  have e2 : x / 2 ^ k * 2 ^ k = (x >>> k) <<< k := by
    rw [Nat.shiftLeft_eq, Nat.shiftRight_eq_div_pow]
  rw [e, e2]
  apply Nat.eq_of_testBit_eq
  intro i
  simp only [Nat.testBit_and, Nat.testBit_shiftLeft, Nat.testBit_two_pow_sub_one, Nat.testBit_shiftRight]
  by_cases h : k ≤ i
  · simp only [ge_iff_le, h, decide_true, Bool.true_and]
    rw [Nat.add_sub_cancel' h]
    by_cases h2 : i < 64
    · have : i - k < 64 - k := by omega
      simp [this]
    · have : x.testBit i = false := by
        apply Nat.testBit_lt_two_pow
        exact Nat.lt_of_lt_of_le hx (Nat.pow_le_pow_right (by omega) (by omega))
      simp [this]
  · simp [h]

theorem alignment2n_pow (a : Nat) (h : a < 2 ^ 31) :
    (∃ k, k ≤ 31 ∧ alignment2n a = 2 ^ k) ∧ a ≤ alignment2n a ∧ 8 ≤ alignment2n a := by
  by_cases h0 : a = 0
  · subst h0; exact ⟨⟨3, by omega, by decide⟩, by decide, by decide⟩
  · have ⟨⟨k, hk⟩, h1, h2⟩ := H2.Misc.C48_align2n_partial a (by omega) h
    have h3 := h2 31 (by omega)
    unfold alignment2n
    simp only
    split
    · exact ⟨⟨3, by omega, rfl⟩, by omega, by omega⟩
    · refine ⟨⟨k, ?_, hk⟩, h1, by omega⟩
      rw [hk] at h3
      exact (Nat.pow_le_pow_iff_right (by omega)).1 h3

theorem alignment2n_of_pow (k : Nat) (h : 2 ^ k < 2 ^ 31) (h8 : 8 ≤ 2 ^ k) : alignment2n (2 ^ k) = 2 ^ k := by
  have ⟨_, h1, h2⟩ := H2.Misc.C48_align2n_partial (2 ^ k) (by omega) h
  have := h2 k (Nat.le_refl _)
  unfold alignment2n
  simp only
  rw [if_neg (by omega)]
  omega

theorem plus_eq (size k : Nat) (hs : size < 2 ^ 63) (hk : k ≤ 31) :
    userSizePlus size (2 ^ k) = (size + 2 ^ k - 1 + 2 ^ k) / 2 ^ k * 2 ^ k := by
  have : 2 ^ k ≤ 2 ^ 31 := Nat.pow_le_pow_right (by omega) hk
  have h : size + 2 ^ k - 1 + 2 ^ k < 2 ^ 64 := by omega
  unfold userSizePlus
  rw [Nat.mod_eq_of_lt h, and_mask _ _ h (by omega)]

theorem plus_bounds (size k : Nat) (hs : size < 2 ^ 63) (hk : k ≤ 31) :
    size + 2 ^ k ≤ userSizePlus size (2 ^ k) ∧ userSizePlus size (2 ^ k) ≤ size + 2 ^ k - 1 + 2 ^ k := by
  rw [plus_eq size k hs hk]
  have hp : 0 < 2 ^ k := Nat.two_pow_pos k
  have h1 := Nat.div_mul_le_self (size + 2 ^ k - 1 + 2 ^ k) (2 ^ k)
  have h2 := Nat.mod_lt (size + 2 ^ k - 1 + 2 ^ k) hp
  have h3 := Nat.div_add_mod (size + 2 ^ k - 1 + 2 ^ k) (2 ^ k)
  rw [Nat.mul_comm] at h3
  omega

theorem count_covers (plus page : Nat) (hp : 0 < page) : plus ≤ page * pageCount plus page := by
  unfold pageCount
  have h2 := Nat.mod_lt (plus + page - 1) hp
  have h3 := Nat.div_add_mod (plus + page - 1) page
  omega

/-- Geometry of a fresh piece. -/
theorem mk_bounds (page pagePtr size al : Nat) (who : Alloc) (site : Site) (f : UInt8) (hp : 0 < page)
    (hs : size < 2 ^ 63) (ha : al < 2 ^ 31) :
    pagePtr ≤ (mkPiece page pagePtr size al who site f).userPtr ∧
    (mkPiece page pagePtr size al who site f).userPtr + size ≤ (mkPiece page pagePtr size al who site f).pageEnd := by
  have ⟨⟨k, hk, e⟩, h1, _⟩ := alignment2n_pow al ha
  have hb := plus_bounds size k hs hk
  rw [e] at h1
  unfold Piece.pageEnd
  simp only [mkPiece, userPtr, e]
  have hc := count_covers (userSizePlus size (2 ^ k)) page hp
  omega

/-! ### Lists related element by element -/

inductive All2 {α β : Type} (R : α → β → Prop) : List α → List β → Prop
  | nil : All2 R [] []
  | cons {a b l m} : R a b → All2 R l m → All2 R (a :: l) (b :: m)

namespace All2
variable {α β : Type} {R : α → β → Prop}

theorem append {l m l' m'} (h : All2 R l m) (h' : All2 R l' m') : All2 R (l ++ l') (m ++ m') := by
  induction h with
  | nil => exact h'
  | cons h _ ih => exact .cons h ih

theorem left {l m} (h : All2 R l m) : ∀ a ∈ l, ∃ b ∈ m, R a b := by
  induction h with
  | nil => simp
  | cons h _ ih =>
    intro a ha
    rcases List.mem_cons.1 ha with e | e
    · subst e; exact ⟨_, List.mem_cons_self, h⟩
    · obtain ⟨b, hb, hr⟩ := ih a e; exact ⟨b, List.mem_cons_of_mem _ hb, hr⟩

theorem right {l m} (h : All2 R l m) : ∀ b ∈ m, ∃ a ∈ l, R a b := by
  induction h with
  | nil => simp
  | cons h _ ih =>
    intro a ha
    rcases List.mem_cons.1 ha with e | e
    · subst e; exact ⟨_, List.mem_cons_self, h⟩
    · obtain ⟨b, hb, hr⟩ := ih a e; exact ⟨b, List.mem_cons_of_mem _ hb, hr⟩

theorem mapLeft {l m} (g : α → α) (h : All2 R l m) (hg : ∀ a b, a ∈ l → b ∈ m → R a b → R (g a) b) :
    All2 R (l.map g) m := by
  induction h with
  | nil => exact .nil
  | cons h _ ih =>
    refine .cons (hg _ _ List.mem_cons_self List.mem_cons_self h) (ih ?_)
    intro a b ha hb
    exact hg a b (List.mem_cons_of_mem _ ha) (List.mem_cons_of_mem _ hb)

theorem lastUpd {l m} (g : α → α) (f : β → β) (h : All2 R l m) (hg : ∀ a b, R a b → R (g a) (f b)) :
    All2 R (updLast g l) (updLast f m) := by
  induction h with
  | nil => exact .nil
  | cons h t ih =>
    cases t with
    | nil => exact .cons (hg _ _ h) .nil
    | cons h2 t2 => exact .cons h ih

/-- Updating the only element satisfying `q` against mapping on the other side. -/
theorem firstUpd {l m} (g : α → α) (q : β → Bool) (f : β → β) (h : All2 R l m)
    (hu : m.Pairwise (fun x y => ¬ (q x = true ∧ q y = true)))
    (ht : ∀ a b, b ∈ m → R a b → q b = true → R (g a) (f b)) (hn : ∀ a b, R a b → q b = false → R (g a) b) :
    All2 R (l.map g) (updFirst q f m) := by
  induction h with
  | nil => exact .nil
  | @cons a b l m h t ih =>
    rw [List.pairwise_cons] at hu
    simp only [List.map_cons, updFirst]
    by_cases hq : q b = true
    · rw [if_pos hq]
      refine .cons (ht _ _ List.mem_cons_self h hq) (mapLeft g t ?_)
      intro a' b' _ hb' hr
      refine hn a' b' hr ?_
      have := hu.1 b' hb'
      cases h' : q b' with
      | false => rfl
      | true => exact absurd ⟨hq, h'⟩ this
    · rw [if_neg hq]
      exact .cons (hn _ _ h (by simpa using hq)) (ih hu.2 (fun a b hb => ht a b (List.mem_cons_of_mem _ hb)))

end All2

/-! ### The relation between a piece and the history's entry -/

structure Rep (page : Nat) (e : Entry) (p : Piece) : Prop where
  ptr : p.userPtr = e.area.ptr
  lo : p.pagePtr = e.area.lo
  hi : p.pageEnd = e.area.hi
  pg : p.page = page
  size : p.userSize = e.size
  site : p.site = e.site
  who : p.who = e.who
  geo1 : e.area.lo ≤ e.area.ptr
  geo2 : e.area.ptr + e.size ≤ e.area.hi
  freed : e.freed = decide (0 < p.freeTimes)
  cleanFreed : e.clean = true → e.freed = true
  fbPage : p.fbPage = if e.clean then e.area.lo else e.area.hi
  fbSize : p.fbSize = if e.clean then e.area.hi - e.area.lo + page else page
  badNone : e.bad = none → p.violateTimes = 0 ∧ p.perm = if e.clean then Perm.none else Perm.read
  badSome : ∀ a u, e.bad = some (a, u) → p.violateTimes ≠ 0 ∧ p.violatePtr = a ∧ p.violateAfterFree = u
  snow : ∀ a, e.padding a → e.area.mem a = p.flower

def BRep (page : Nat) (s : Attrs × List Entry) (b : Block) : Prop :=
  b.attrs = s.1 ∧ All2 (Rep page) s.2 b.pieces

/-- All pieces. -/
def pieces (bs : List Block) : List Piece := bs.flatMap (fun b => b.pieces)

structure Inv (page : Nat) (s : Hist) (h : Heap) : Prop where
  rep : All2 (BRep page) s h.blocks
  apart : (pieces h.blocks).Pairwise Apart

theorem Rep.inRange {page e p} (h : Rep page e p) (a : Nat) : p.inRange a = e.covers page a := by
  have h1 := h.lo; have h2 := h.hi; have h3 := h.pg
  unfold Piece.pageEnd at h2
  unfold Piece.inRange Entry.covers
  rw [← h1, ← h2, ← h3, Nat.mul_add, Nat.mul_one, ← Nat.add_assoc]

theorem Rep.owns {page e p} (h : Rep page e p) (hp : 0 < page) : p.inRange p.userPtr = true := by
  rw [h.inRange, h.ptr]
  have := h.geo1; have := h.geo2
  simp only [Entry.covers, Bool.and_eq_true, decide_eq_true_eq]
  omega

theorem apart_inRange {p q : Piece} (h : Apart p q) (a : Nat) : ¬ (p.inRange a = true ∧ q.inRange a = true) := by
  simp only [Apart, Piece.inRange, Bool.and_eq_true, decide_eq_true_eq] at *
  omega

theorem apart_symm {p q : Piece} (h : Apart p q) : Apart q p := by unfold Apart at *; omega

/-- Update of the block that has the piece satisfying `q`. -/
theorem BRep.update {page} {s : Hist} {bs : List Block} (h : All2 (BRep page) s bs)
    (g : Entry → Entry) (q : Piece → Bool) (f : Piece → Piece) (k : Block → Nat)
    (hu : (pieces bs).Pairwise (fun x y => ¬ (q x = true ∧ q y = true)))
    (ht : ∀ a b, b ∈ pieces bs → Rep page a b → q b = true → Rep page (g a) (f b))
    (hn : ∀ a b, Rep page a b → q b = false → Rep page (g a) b) :
    All2 (BRep page) (Hist.map g s)
      (updFirst (fun b => (b.pieces.find? q).isSome)
        (fun b => { b with allocated := k b, pieces := updFirst q f b.pieces }) bs) := by
  induction h with
  | nil => exact .nil
  | @cons a b l m h t ih =>
    simp only [pieces, List.flatMap_cons, List.pairwise_append] at hu
    simp only [Hist.map, List.map_cons, updFirst]
    by_cases hq : (b.pieces.find? q).isSome = true
    · rw [if_pos hq]
      refine .cons ⟨h.1, h.2.firstUpd g q f hu.1
        (fun x y hy => ht x y (List.mem_flatMap.2 ⟨b, List.mem_cons_self, hy⟩)) hn⟩ (t.mapLeft _ ?_)
      intro a' b' _ hb' hr
      refine ⟨hr.1, hr.2.mapLeft g ?_⟩
      intro e p _ hp hep
      refine hn e p hep ?_
      obtain ⟨x, hx⟩ := Option.isSome_iff_exists.1 hq
      have h1 := List.mem_of_find?_eq_some hx
      have h2 := List.find?_some hx
      have := hu.2.2 x h1 p (List.mem_flatMap.2 ⟨b', hb', hp⟩)
      cases h' : q p with
      | false => rfl
      | true => exact absurd ⟨h2, h'⟩ this
    · rw [if_neg hq]
      refine .cons ⟨h.1, h.2.mapLeft g ?_⟩ (ih hu.2.1 ?_)
      · intro e p _ hp hep
        refine hn e p hep ?_
        have hq' : b.pieces.find? q = none := by simpa using hq
        have := List.find?_eq_none.1 hq' p hp
        simpa using this
      · intro x y hy
        obtain ⟨c, hc, hy⟩ := List.mem_flatMap.1 hy
        exact ht x y (List.mem_flatMap.2 ⟨c, List.mem_cons_of_mem _ hc, hy⟩)

/-- Updates that leave the mappings alone keep them apart. -/
theorem pairwise_updFirst_map {α β : Type} (k : α → β) (q : α → Bool) (f : α → α) (hf : ∀ a, k (f a) = k a) (l : List α) :
    (updFirst q f l).map k = l.map k := by
  induction l with
  | nil => rfl
  | cons a l ih =>
    simp only [updFirst]
    split
    · simp [hf]
    · simp [ih]

/-- The mapping of a piece. -/
def Piece.mapping (p : Piece) : Nat × Nat := (p.pagePtr, p.pagePtr + p.page * (p.count + 1))

theorem apart_iff (p q : Piece) : Apart p q ↔ (p.mapping.2 ≤ q.mapping.1 ∨ q.mapping.2 ≤ p.mapping.1) := Iff.rfl

theorem pairwise_apart_map (l : List Piece) :
    l.Pairwise Apart ↔ (l.map Piece.mapping).Pairwise (fun x y => x.2 ≤ y.1 ∨ y.2 ≤ x.1) := by
  rw [List.pairwise_map]; exact Iff.rfl

theorem pieces_update_map (q : Piece → Bool) (f : Piece → Piece) (k : Block → Nat) (r : Block → Bool)
    (hf : ∀ a, (f a).mapping = a.mapping) (bs : List Block) :
    (pieces (updFirst r (fun b => { b with allocated := k b, pieces := updFirst q f b.pieces }) bs)).map Piece.mapping
      = (pieces bs).map Piece.mapping := by
  induction bs with
  | nil => rfl
  | cons b bs ih =>
    simp only [updFirst]
    split
    · simp only [pieces, List.flatMap_cons, List.map_append, pairwise_updFirst_map Piece.mapping q f hf]
    · simp only [pieces, List.flatMap_cons, List.map_append]
      congr 1

/-- Generic update step. -/
theorem Inv.update {page s} {h : Heap} (hi : Inv page s h) (g : Entry → Entry) (q : Piece → Bool) (f : Piece → Piece)
    (k : Block → Nat) (hq : ∀ p p' : Piece, Apart p p' → p ∈ pieces h.blocks → p' ∈ pieces h.blocks → ¬ (q p = true ∧ q p' = true))
    (hf : ∀ a, (f a).mapping = a.mapping)
    (ht : ∀ a b, b ∈ pieces h.blocks → Rep page a b → q b = true → Rep page (g a) (f b))
    (hn : ∀ a b, Rep page a b → q b = false → Rep page (g a) b) :
    Inv page (Hist.map g s) ⟨(updFirst (fun b => (b.pieces.find? q).isSome)
        (fun b => { b with allocated := k b, pieces := updFirst q f b.pieces }) h.blocks), h.mem, h.flower⟩ := by
  refine ⟨BRep.update hi.rep g q f k ?_ ht hn, ?_⟩
  · exact List.Pairwise.imp_of_mem (fun h1 h2 h3 => hq _ _ h3 h1 h2) hi.apart
  · show (pieces _).Pairwise Apart
    rw [pairwise_apart_map, pieces_update_map q f k _ hf, ← pairwise_apart_map]
    exact hi.apart

theorem Inv.partner {page s} {h : Heap} (hi : Inv page s h) {p : Piece} (hp : p ∈ pieces h.blocks) :
    ∃ b ∈ s, ∃ e ∈ b.2, Rep page e p := by
  obtain ⟨b, hb, hpb⟩ := List.mem_flatMap.1 hp
  obtain ⟨a, ha, hr⟩ := hi.rep.right b hb
  obtain ⟨e, he, hr'⟩ := hr.2.right p hpb
  exact ⟨a, ha, e, he, hr'⟩

theorem mapping_freed (m : Mem) (r : Option Rel) (p : Piece) : (p.freed m r).mapping = p.mapping := by
  unfold Piece.freed; split <;> rfl

theorem mapping_violate (a s : Nat) (p : Piece) : (p.violate a s).mapping = p.mapping := by
  unfold Piece.violate; split <;> rfl

theorem unique_of_pairwise {α : Type} (q : α → Bool) (l : List α)
    (hu : l.Pairwise (fun x y => ¬ (q x = true ∧ q y = true))) (x y : α) (hx : x ∈ l) (hy : y ∈ l)
    (qx : q x = true) (qy : q y = true) : x = y := by
  induction l with
  | nil => simp at hx
  | cons a l ih =>
    rw [List.pairwise_cons] at hu
    rcases List.mem_cons.1 hx with e | e <;> rcases List.mem_cons.1 hy with e' | e'
    · rw [e, e']
    · subst e; exact absurd ⟨qx, qy⟩ (hu.1 y e')
    · subst e'; exact absurd ⟨qy, qx⟩ (hu.1 x e)
    · exact ih hu.2 e e'

theorem updFirst_none {α : Type} (q : α → Bool) (f : α → α) (l : List α) (h : ∀ x ∈ l, q x = false) :
    updFirst q f l = l := by
  induction l with
  | nil => rfl
  | cons a l ih =>
    simp only [updFirst]
    rw [if_neg (by simp [h a List.mem_cons_self]), ih (fun x hx => h x (List.mem_cons_of_mem _ hx))]

/-- Two pieces of the heap do not share their user pointer. -/
theorem Inv.ptr_unique {page s} {h : Heap} (hp : 0 < page) (hi : Inv page s h) (p p' : Piece) (ha : Apart p p')
    (h1 : p ∈ pieces h.blocks) (h2 : p' ∈ pieces h.blocks) (ptr : Nat) :
    ¬ ((p.userPtr == ptr) = true ∧ (p'.userPtr == ptr) = true) := by
  obtain ⟨_, _, e, _, hr⟩ := hi.partner h1
  obtain ⟨_, _, e', _, hr'⟩ := hi.partner h2
  rintro ⟨x, y⟩
  have x := of_decide_eq_true x
  have y := of_decide_eq_true y
  have o1 := hr.owns hp
  have o2 := hr'.owns hp
  rw [x] at o1; rw [y] at o2
  exact apart_inRange ha ptr ⟨o1, o2⟩

theorem Rep.release_other {page e p ptr ok} (h : Rep page e p) (hq : (p.userPtr == ptr) = false) :
    Rep page (e.release ptr ok) p := by
  have : e.area.ptr ≠ ptr := by rw [← h.ptr]; simpa using hq
  unfold Entry.release
  rw [if_neg this]; exact h

theorem mapping_size {page e p} (h : Rep page e p) : p.page * (p.count + 1) = e.area.hi - e.area.lo + page := by
  have h1 := h.lo; have h2 := h.hi; have h3 := h.pg
  unfold Piece.pageEnd at h2
  rw [← h1, ← h2, ← h3, Nat.mul_add, Nat.mul_one]; omega

theorem Rep.release_self {page e p ptr} (m : Mem) (r : Option Rel) (h : Rep page e p) (hq : (p.userPtr == ptr) = true) :
    Rep page (e.release ptr (p.freeFail m r).isNone) (p.freed m r) := by
  have hp : e.area.ptr = ptr := by rw [← h.ptr]; simpa using hq
  have hms := mapping_size h
  unfold Entry.release Piece.freed
  rw [if_pos hp]
  by_cases hc : (p.freeFail m r).isNone = true
  · have hf0 : p.freeTimes = 0 := by
      unfold Piece.freeFail at hc
      by_cases h0 : p.freeTimes = 0
      · exact h0
      · simp [h0] at hc
    have hnf : e.freed = false := by rw [h.freed, hf0]; rfl
    have hnc : e.clean = false := by
      cases hcl : e.clean with
      | false => rfl
      | true => have := h.cleanFreed hcl; rw [hnf] at this; simp at this
    rw [if_pos hc, hc]
    refine { ptr := h.ptr, lo := h.lo, hi := h.hi, pg := h.pg, size := h.size, site := h.site, who := h.who,
             geo1 := h.geo1, geo2 := h.geo2, freed := by simp, cleanFreed := by simp, fbPage := by simp [h.lo],
             fbSize := by simp [hms], badNone := ?_, badSome := h.badSome, snow := h.snow }
    intro hb
    simp only [Bool.or_true, if_true]
    exact ⟨(h.badNone hb).1, trivial⟩
  · have hc' : (p.freeFail m r).isNone = false := by
      cases h' : (p.freeFail m r).isNone with
      | false => rfl
      | true => exact absurd h' hc
    rw [if_neg hc, hc']
    refine { ptr := h.ptr, lo := h.lo, hi := h.hi, pg := h.pg, size := h.size, site := h.site, who := h.who,
             geo1 := h.geo1, geo2 := h.geo2, freed := by simp, cleanFreed := by simp, fbPage := by simp [h.fbPage],
             fbSize := by simp [h.fbSize], badNone := ?_, badSome := h.badSome, snow := h.snow }
    intro hb
    simp only [Bool.or_false]
    exact h.badNone hb

theorem relPiece_none {h : Heap} {r ptr} (hn : ∀ p ∈ pieces h.blocks, (p.userPtr == ptr) = false) :
    h.relPiece r ptr = (h, none) := by
  have : h.blocks.find? (fun b => (b.getPiece ptr).isSome) = none := by
    rw [List.find?_eq_none]
    intro b hb
    have : b.getPiece ptr = none := by
      unfold Block.getPiece
      rw [List.find?_eq_none]
      intro p hp
      simp [hn p (List.mem_flatMap.2 ⟨b, hb, hp⟩)]
    simp [this]
  unfold Heap.relPiece
  rw [this]

theorem relPiece_some {h : Heap} {r ptr} (hs : ∃ p ∈ pieces h.blocks, (p.userPtr == ptr) = true) :
    ∃ p ∈ pieces h.blocks, (p.userPtr == ptr) = true ∧
      h.relPiece r ptr = (⟨updFirst (fun b => (b.pieces.find? (fun p => p.userPtr == ptr)).isSome)
        (fun b => { b with allocated := (b.allocated + 2 ^ 64 - p.userSize) % 2 ^ 64,
                           pieces := updFirst (fun p => p.userPtr == ptr) (fun p => p.freed h.mem (some r)) b.pieces })
        h.blocks, h.mem, h.flower⟩, p.freeFail h.mem (some r)) := by
  obtain ⟨p, hp, hq⟩ := hs
  obtain ⟨b, hb, hpb⟩ := List.mem_flatMap.1 hp
  have h1 : (h.blocks.find? (fun b => (b.getPiece ptr).isSome)).isSome = true := by
    rw [List.find?_isSome]
    refine ⟨b, hb, ?_⟩
    unfold Block.getPiece
    rw [List.find?_isSome]
    exact ⟨p, hpb, hq⟩
  obtain ⟨c, hc⟩ := Option.isSome_iff_exists.1 h1
  have h2 := List.find?_some hc
  have h3 := List.mem_of_find?_eq_some hc
  obtain ⟨x, hx⟩ := Option.isSome_iff_exists.1 h2
  have hx' := hx
  unfold Block.getPiece at hx'
  refine ⟨x, List.mem_flatMap.2 ⟨c, h3, List.mem_of_find?_eq_some hx'⟩, ?_, ?_⟩
  · exact List.find?_some (p := fun p : Piece => p.userPtr == ptr) hx'
  · unfold Heap.relPiece
    rw [hc]
    simp only [hx]
    rfl

theorem Inv.free {page s} {h : Heap} (hp : 0 < page) (hi : Inv page s h) (r : Rel) (ptr : Nat) :
    Inv page (s.map (Entry.release ptr (h.relPiece r ptr).2.isNone)) (h.relPiece r ptr).1 := by
  by_cases hs : ∃ p ∈ pieces h.blocks, (p.userPtr == ptr) = true
  · obtain ⟨p, hpm, hq, e⟩ := relPiece_some (r := r) hs
    rw [e]
    refine hi.update _ _ _ (fun b => (b.allocated + 2 ^ 64 - p.userSize) % 2 ^ 64) (fun p p' ha h1 h2 => hi.ptr_unique hp p p' ha h1 h2 ptr)
      (mapping_freed _ _) ?_ ?_
    · intro a b hb hr hqb
      have : b = p := unique_of_pairwise (fun p : Piece => p.userPtr == ptr) _
        (List.Pairwise.imp_of_mem (fun h1 h2 h3 => hi.ptr_unique hp _ _ h3 h1 h2 ptr) hi.apart) b p hb hpm hqb hq
      subst this
      exact hr.release_self _ _ hqb
    · intro a b hr hqb
      exact hr.release_other hqb
  · have hn : ∀ p ∈ pieces h.blocks, (p.userPtr == ptr) = false := by
      intro p hp'
      cases hq : (p.userPtr == ptr) with
      | false => rfl
      | true => exact absurd ⟨p, hp', hq⟩ hs
    rw [relPiece_none hn]
    refine ⟨hi.rep.mapLeft _ ?_, hi.apart⟩
    intro a b _ hb hr
    refine ⟨hr.1, hr.2.mapLeft _ ?_⟩
    intro e p _ hpb hep
    exact hep.release_other (hn p (List.mem_flatMap.2 ⟨b, hb, hpb⟩))

end H2.Memory
