import Verif.Memory.Examples
/-
C98: the footprint of a case is the most memory it held at one time.
-/
namespace H2.Memory

/-- `h2_memory::stack::footprint`, `/repo/source/memory/h2_memory.cpp:58-61`; `none`: there is no block (undefined behaviour). -/
def Heap.footprint (h : Heap) : Option Nat := h.blocks.head?.map Block.footprint

/-! ### Specification -/

/-- The bytes handed out and not released in a block; blocks are counted from the outermost one (0). -/
def held (page d : Nat) (es : List Event) : Nat :=
  match (history page es).reverse[d]? with
  | some b => liveBytes b.2
  | none => 0

/-- The block opened by the event before `now` is open all the time of `now`. -/
def StaysOpen (page : Nat) (now : List Event) (a : Attrs) (before : List Event) : Prop :=
  ∀ s, s <:+ now → (history page before).length < (history page (s ++ .push a :: before)).length

/-- The block opened by the event before `now` is the innermost one. -/
def Innermost (page : Nat) (now : List Event) (a : Attrs) (before : List Event) : Prop :=
  (history page (now ++ .push a :: before)).length = (history page before).length + 1

/-! ### Lemmas -/

/-- One event: the counter of a block, and what it was. -/
def Grown (b b' : Block) : Prop := b'.footprint = max b.footprint b'.allocated

def Covered (b : Block) : Prop := b.allocated ≤ b.footprint

theorem grown_self {b : Block} (h : Covered b) : Grown b b := by unfold Grown Covered at *; omega

theorem all2_self {α : Type} {R : α → α → Prop} {l : List α} (h : ∀ x ∈ l, R x x) : All2 R l l := by
  induction l with
  | nil => exact .nil
  | cons x l ih => exact .cons (h x (by simp)) (ih fun y hy => h y (by simp [hy]))

theorem all2_updFirst {α : Type} {R : α → α → Prop} {q : α → Bool} {f : α → α} {l : List α} (h : ∀ x ∈ l, R x x) (hf : ∀ x ∈ l, q x = true → R x (f x)) :
    All2 R l (updFirst q f l) := by
  induction l with
  | nil => exact .nil
  | cons x l ih =>
    unfold updFirst
    split
    · next hq => exact .cons (hf x (by simp) hq) (all2_self fun y hy => h y (by simp [hy]))
    · exact .cons (h x (by simp)) (ih (fun y hy => h y (by simp [hy])) fun y hy => hf y (by simp [hy]))

theorem all2_updLast {α : Type} {R : α → α → Prop} {f : α → α} {l : List α} (h : ∀ x ∈ l, R x x) (hf : ∀ x, l.getLast? = some x → R x (f x)) :
    All2 R l (updLast f l) := by
  induction l with
  | nil => exact .nil
  | cons x l ih =>
    cases l with
    | nil => exact .cons (hf x rfl) .nil
    | cons y l => exact .cons (h x (by simp)) (ih (fun z hz => h z (by simp [hz])) fun z hz => hf z (by simpa [List.getLast?_cons_cons] using hz))

theorem all2_reverse {α β : Type} {R : α → β → Prop} {l : List α} {m : List β} (h : All2 R l m) : All2 R l.reverse m.reverse := by
  induction h with
  | nil => exact .nil
  | cons h _ ih => simp only [List.reverse_cons]; exact ih.append (.cons h .nil)

theorem all2_get {α β : Type} {R : α → β → Prop} {l : List α} {m : List β} (h : All2 R l m) : ∀ (d : Nat) b, m[d]? = some b → ∃ a, l[d]? = some a ∧ R a b := by
  induction h with
  | nil => intro d b hb; simp at hb
  | cons h _ ih =>
    intro d b hb
    cases d with
    | zero => simp only [List.getElem?_cons_zero, Option.some.injEq] at hb; subst hb; exact ⟨_, rfl, h⟩
    | succ d => simpa using ih d b (by simpa using hb)

theorem all2_length {α β : Type} {R : α → β → Prop} {l : List α} {m : List β} (h : All2 R l m) : l.length = m.length := by
  induction h with
  | nil => rfl
  | cons _ _ ih => simp [ih]

theorem grown_fault {h : Heap} (addr site : Nat) (hc : ∀ b ∈ h.blocks, Covered b) : All2 Grown h.blocks (h.fault addr site).blocks := by
  refine all2_updFirst (fun b hb => grown_self (hc b hb)) fun b hb _ => ?_
  exact grown_self (b := b) (hc b hb)

theorem covered_of {l m : List Block} (h : All2 Grown l m) : ∀ b ∈ m, Covered b := by
  intro b hb
  obtain ⟨a, _, hg⟩ := h.right b hb
  unfold Grown Covered at *; omega

theorem grown_alloc {page es} {h : Heap} (hp : 0 < page) (hr : Reach page es h) (hd : NoDouble es) (hl : Limits es) (hc : ∀ b ∈ h.blocks, Covered b)
    (pagePtr : Nat) (who : Alloc) (size alignment : Nat) (fill : Option UInt8) (site : Site) :
    All2 Grown h.blocks (h.newPiece page pagePtr who size alignment fill site).1.blocks := by
  obtain ⟨o, ho⟩ : ∃ o, (h.newPiece page pagePtr who size alignment fill site).2 = o := ⟨_, rfl⟩
  cases o with
  | none => rw [newPiece_none ho]; exact all2_self fun b hb => grown_self (hc b hb)
  | some p =>
    obtain ⟨b, hb, hlim, _, _, hbl⟩ := newPiece_some ho
    have hcb := hc b (acc_target hb)
    rw [hbl]
    dsimp only
    generalize (b.allocated + size) % 2 ^ 64 = n
    have key : Grown b { b with allocated := n, footprint := if b.footprint < n then n else b.footprint, pieces := b.pieces ++ [p] } := by
      unfold Grown; dsimp only; split <;> omega
    unfold Heap.target at hb
    split
    · next hex =>
      rw [if_pos hex] at hb
      refine all2_updLast (fun b hb => grown_self (hc b hb)) fun x hx => ?_
      rw [hb] at hx
      obtain rfl := Option.some.inj hx
      exact key
    · next hex =>
      rw [if_neg hex] at hb
      obtain ⟨bs, hbs⟩ : ∃ bs, h.blocks = bs := ⟨_, rfl⟩
      rw [hbs] at hb hc ⊢
      cases bs with
      | nil => simp at hb
      | cons d ds =>
        simp only [List.head?_cons, Option.some.injEq] at hb
        subst hb
        exact .cons key (all2_self fun b hb => grown_self (hc b (by simp [hb])))

theorem grown_free {page es} {h : Heap} (hp : 0 < page) (r : Rel) (ptr : Nat) (hr : Reach page es h) (hd : NoDouble (.free r ptr (h.relPiece r ptr).2 :: es))
    (hl : Limits es) (hc : ∀ b ∈ h.blocks, Covered b) : All2 Grown h.blocks (h.relPiece r ptr).1.blocks := by
  have hd' : NoDouble es := fun r p q hm => hd r p q (List.mem_cons_of_mem _ hm)
  have hacc := accounted hp hr hd' hl
  have hi := reach_inv hp hr
  by_cases hs : ∃ p ∈ pieces h.blocks, (p.userPtr == ptr) = true
  · obtain ⟨p, hpm, hq, e⟩ := relPiece_some (r := r) hs
    have hft : p.freeTimes = 0 := by
      by_cases h0 : p.freeTimes = 0
      · exact h0
      · exfalso
        have : p.freeFail h.mem (some r) = some (.doubleFree p.userPtr) := by
          unfold Piece.freeFail; rw [if_pos h0]
        rw [e] at hd
        exact hd r ptr p.userPtr (by rw [this]; exact List.mem_cons_self)
    rw [e]
    refine all2_updFirst (fun b hb => grown_self (hc b hb)) fun y hy hqy => ?_
    have hay := hacc y hy
    have hsum : liveP (updFirst (fun p => p.userPtr == ptr) (fun p => p.freed h.mem (some r)) y.pieces) + p.userSize = liveP y.pieces := by
      refine liveP_freed _ _ _ _ ?_ ?_ hqy
      · intro x hx hqx
        have : x = p := unique_of_pairwise (fun p : Piece => p.userPtr == ptr) _
          (List.Pairwise.imp_of_mem (fun h1 h2 h3 => hi.ptr_unique hp _ _ h3 h1 h2 ptr) hi.apart) x p
          (List.mem_flatMap.2 ⟨y, hy, hx⟩) hpm hqx hq
        subst this; exact ⟨rfl, hft⟩
      · intro x; unfold Piece.freed; split <;> exact Nat.succ_ne_zero _
    have hcy := hc y hy
    have : (y.allocated + 2 ^ 64 - p.userSize) % 2 ^ 64 = y.allocated - p.userSize := by
      unfold Accounted at hay
      rw [show y.allocated + 2 ^ 64 - p.userSize = (y.allocated - p.userSize) + 2 ^ 64 from by omega, Nat.add_mod_right]
      apply Nat.mod_eq_of_lt
      omega
    unfold Grown Covered at *
    dsimp only
    rw [this]; omega
  · have hn : ∀ p ∈ pieces h.blocks, (p.userPtr == ptr) = false := by
      intro p hp'
      cases hq : (p.userPtr == ptr) with
      | false => rfl
      | true => exact absurd ⟨p, hp', hq⟩ hs
    rw [relPiece_none hn]
    exact all2_self fun b hb => grown_self (hc b hb)

theorem grown_store1 {h : Heap} (addr site : Nat) (hc : ∀ b ∈ h.blocks, Covered b) : All2 Grown h.blocks (h.store1 addr site).blocks := by
  unfold Heap.store1
  split
  · exact all2_self fun b hb => grown_self (hc b hb)
  · split
    · exact all2_self fun b hb => grown_self (hc b hb)
    · exact grown_fault addr site hc

theorem all2_trans {l m n : List Block} (h : All2 Grown l m) (h' : All2 Grown m n)
    (he : All2 (fun a b : Block => a.allocated = b.allocated) m n) :
    All2 Grown l n := by
  induction h generalizing n with
  | nil => cases h' with | nil => exact .nil
  | cons h _ ih =>
    cases h' with
    | cons h1 h2 =>
      cases he with
      | cons e1 e2 =>
        refine .cons ?_ (ih h2 e2)
        unfold Grown at *; omega

theorem same_store1 {h : Heap} (addr site : Nat) : All2 (fun a b : Block => a.allocated = b.allocated) h.blocks (h.store1 addr site).blocks := by
  unfold Heap.store1
  split
  · exact all2_self fun _ _ => rfl
  · split
    · exact all2_self fun _ _ => rfl
    · exact all2_updFirst (fun _ _ => rfl) fun _ _ _ => rfl

/-- One event: each block that was open before and still is. -/
theorem one_step {page e es h'} (hp : 0 < page) (hr : Reach page (e :: es) h') (hd : NoDouble (e :: es)) (hl : Limits (e :: es))
    (ih : ∀ h, Reach page es h → ∀ b ∈ h.blocks, Covered b) : (∀ b ∈ h'.blocks, Covered b) ∧
    ∃ h, Reach page es h ∧ ∀ d b', d < h.blocks.length → h'.blocks.reverse[d]? = some b' → ∃ b, h.blocks.reverse[d]? = some b ∧ Grown b b' := by
  have hd' : NoDouble es := fun r p q hm => hd r p q (List.mem_cons_of_mem _ hm)
  have hl' : Limits es := fun a hm => hl a (List.mem_cons_of_mem _ hm)
  have fin : ∀ h, Reach page es h → All2 Grown h.blocks h'.blocks → (∀ b ∈ h'.blocks, Covered b) ∧
      ∃ h, Reach page es h ∧ ∀ d b', d < h.blocks.length → h'.blocks.reverse[d]? = some b' → ∃ b, h.blocks.reverse[d]? = some b ∧ Grown b b' :=
    fun h hr a => ⟨covered_of a, h, hr, fun d b' _ hb => all2_get (all2_reverse a) d b' hb⟩
  cases hr with
  | push a hr =>
    rename_i h
    refine ⟨?_, h, hr, ?_⟩
    · intro b hb
      rcases List.mem_cons.1 hb with rfl | hb
      · exact Nat.le_refl _
      · exact ih h hr b hb
    · intro d b' hlt hb
      have : (h.push a).blocks.reverse = h.blocks.reverse ++ [{ attrs := a }] := by simp [Heap.push]
      rw [this, List.getElem?_append_left (by simpa using hlt)] at hb
      exact ⟨b', hb, grown_self (ih h hr b' (List.mem_reverse.1 (List.mem_of_getElem? hb)))⟩
  | pop hr =>
    rename_i h
    refine ⟨?_, h, hr, ?_⟩
    · intro b hb
      refine ih h hr b ?_
      unfold Heap.pop at hb
      split at hb
      · exact hb
      · next x y => rw [y]; exact List.mem_cons_of_mem _ hb
    · intro d b' hlt hb
      unfold Heap.pop at hb
      split at hb
      · exact ⟨b', hb, grown_self (ih h hr b' (List.mem_reverse.1 (List.mem_of_getElem? hb)))⟩
      · next x y =>
        have hb0 : h.blocks.reverse[d]? = some b' := by
          rw [y, List.reverse_cons, List.getElem?_append_left]
          · exact hb
          · exact (List.getElem?_eq_some_iff.1 hb).1
        exact ⟨b', hb0, grown_self (ih h hr b' (List.mem_reverse.1 (List.mem_of_getElem? hb0)))⟩
  | alloc pagePtr who size alignment fill site hr hf => exact fin _ hr (grown_alloc hp hr hd' hl' (ih _ hr) pagePtr who size alignment fill site)
  | free r ptr hr => exact fin _ hr (grown_free hp r ptr hr hd hl' (ih _ hr))
  | read a s hr =>
    refine fin _ hr ?_
    unfold Heap.load
    split
    · exact all2_self fun b hb => grown_self (ih _ hr b hb)
    · split
      · exact grown_fault a s (ih _ hr)
      · exact all2_self fun b hb => grown_self (ih _ hr b hb)
  | write a s v hr =>
    refine fin _ hr ?_
    rw [store_eq]
    have g1 := grown_store1 a s (ih _ hr)
    exact all2_trans g1 (grown_store1 a s (covered_of g1)) (same_store1 a s)

theorem covered {page es} (hp : 0 < page) : ∀ h, Reach page es h → NoDouble es → Limits es → ∀ b ∈ h.blocks, Covered b := by
  induction es with
  | nil =>
    intro h hr _ _ b hb
    cases hr
    simp only [List.mem_singleton] at hb
    subst hb
    exact Nat.le_refl _
  | cons e es ih =>
    intro h hr hd hl
    exact (one_step hp hr hd hl fun h hr => ih h hr (fun r p q hm => hd r p q (List.mem_cons_of_mem _ hm)) fun a hm => hl a (List.mem_cons_of_mem _ hm)).1

theorem held_eq {page es h d b} (hp : 0 < page) (hr : Reach page es h) (hd : NoDouble es) (hl : Limits es) (hb : h.blocks.reverse[d]? = some b) :
    held page d es = b.allocated := by
  obtain ⟨c, hc, hrep⟩ := all2_get (all2_reverse (reach_inv hp hr).rep) d b hb
  unfold held
  rw [hc]
  have := (accounted hp hr hd hl b (List.mem_reverse.1 (List.mem_of_getElem? hb))).1
  rw [this]
  exact liveP_eq hrep.2

theorem length_eq {page es h} (hp : 0 < page) (hr : Reach page es h) : (history page es).length = h.blocks.length := all2_length (reach_inv hp hr).rep

/-- The counter of a block is the most that was held in it. -/
theorem peak {page now a before} (hp : 0 < page) : ∀ h, Reach page (now ++ .push a :: before) h → NoDouble (now ++ .push a :: before) →
    Limits (now ++ .push a :: before) → StaysOpen page now a before →
    ∃ b, h.blocks.reverse[(history page before).length]? = some b ∧
      (∀ s, s <:+ now → held page (history page before).length (s ++ .push a :: before) ≤ b.footprint) ∧
      ∃ s, s <:+ now ∧ held page (history page before).length (s ++ .push a :: before) = b.footprint := by
  induction now with
  | nil =>
    intro h hr hd hl _
    have hr0 : Reach page (.push a :: before) h := hr
    have hd0 : NoDouble (.push a :: before) := hd
    have hl0 : Limits (.push a :: before) := hl
    have hb : ∃ h0, Reach page before h0 ∧ h = h0.push a := by cases hr0 with | push _ hr1 => exact ⟨_, hr1, rfl⟩
    obtain ⟨h0, hr1, rfl⟩ := hb
    have hb : (h0.push a).blocks.reverse[(history page before).length]? = some { attrs := a } := by
      rw [length_eq hp hr1]
      simp [Heap.push]
    have hh := held_eq hp hr0 hd0 hl0 hb
    refine ⟨_, hb, ?_, [], List.suffix_refl _, hh⟩
    intro s hs
    rw [List.suffix_nil] at hs
    subst hs
    exact Nat.le_of_eq hh
  | cons e now ih =>
    intro h hr hd hl ho
    have hd' : NoDouble (now ++ .push a :: before) := fun r p q hm => hd r p q (List.mem_cons_of_mem _ hm)
    have hl' : Limits (now ++ .push a :: before) := fun a hm => hl a (List.mem_cons_of_mem _ hm)
    have hr : Reach page (e :: (now ++ .push a :: before)) h := hr
    obtain ⟨hcov, h1, hr1, hst⟩ := one_step hp hr hd hl fun h hr => covered hp h hr hd' hl'
    have ho' : StaysOpen page now a before := fun s hs => ho s (List.IsSuffix.trans hs (List.suffix_cons e now))
    obtain ⟨b, hb, hle, s, hs, heq⟩ := ih h1 hr1 hd' hl' ho'
    have hlt := ho (e :: now) (List.suffix_refl _)
    have hlen : (history page (e :: now ++ Event.push a :: before)).length = h.blocks.length := length_eq hp hr
    obtain ⟨b', hb'⟩ : ∃ b', h.blocks.reverse[(history page before).length]? = some b' :=
      ⟨_, List.getElem?_eq_getElem (by rw [List.length_reverse]; omega)⟩
    obtain ⟨c, hc, hg⟩ := hst _ b' (by have := ho' now (List.suffix_refl _); rw [length_eq hp hr1] at this; exact this) hb'
    rw [hb] at hc
    obtain rfl := Option.some.inj hc
    have hh := held_eq hp hr hd hl hb'
    refine ⟨b', hb', ?_, ?_⟩
    · intro t ht
      unfold Grown at hg
      rcases List.suffix_cons_iff.1 ht with rfl | ht
      · rw [show e :: now ++ Event.push a :: before = e :: (now ++ .push a :: before) from rfl, hh]; omega
      · have := hle t ht; omega
    · unfold Grown at hg
      by_cases hm : b'.allocated ≤ b.footprint
      · exact ⟨s, List.IsSuffix.trans hs (List.suffix_cons e now), by omega⟩
      · exact ⟨e :: now, List.suffix_refl _, by rw [show e :: now ++ Event.push a :: before = e :: (now ++ .push a :: before) from rfl, hh]; omega⟩

/-! ### C98 -/

/-- **C98 (partial).** When a case (or a suite) ends, the footprint that is told about it is the most memory held at one time: at no
moment since it began were more bytes allocated in it and not released, and at some moment just as many were.  Missing: histories with a
double free, memory of inner blocks, and limits above 2^63 (see below). -/
theorem C98_peak_partial {page now a before h} (hp : 0 < page) (hr : Reach page (now ++ .push a :: before) h) (hd : NoDouble (now ++ .push a :: before))
    (hl : Limits (now ++ .push a :: before)) (ho : StaysOpen page now a before) (hi : Innermost page now a before) :
    ∃ f, h.footprint = some f ∧
      (∀ s, s <:+ now → held page (history page before).length (s ++ .push a :: before) ≤ f) ∧
      ∃ s, s <:+ now ∧ held page (history page before).length (s ++ .push a :: before) = f := by
  obtain ⟨b, hb, h1, h2⟩ := peak hp h hr hd hl ho
  refine ⟨b.footprint, ?_, h1, h2⟩
  have hlen : h.blocks.length = (history page before).length + 1 := by rw [← length_eq hp hr]; exact hi
  unfold Heap.footprint
  obtain ⟨bs, hbs⟩ : ∃ bs, h.blocks = bs := ⟨_, rfl⟩
  rw [hbs] at hb hlen ⊢
  cases bs with
  | nil => simp at hlen
  | cons x xs =>
    rw [List.reverse_cons, List.getElem?_append_right (by simp at hlen ⊢; omega)] at hb
    have : (history page before).length - xs.reverse.length = 0 := by simp at hlen ⊢; omega
    rw [this] at hb
    simp only [List.getElem?_cons_zero, Option.some.injEq] at hb
    subst hb
    rfl

section
open Examples

/-- 10 bytes are allocated, then 20, then the 10 are released. -/
def given : List Event :=
  [.free .free 8176 (r2.1.relPiece .free 8176).2, .alloc .new 20 ⟨8, false⟩ (r2.2.map (fun p => p.area r2.1.mem)),
   .alloc .malloc 10 s7 (r1.2.map (fun p => p.area r1.1.mem))]

example : Reach 4096 (given ++ .push { limit := 1000, fill := [1, 2, 3] } :: []) (r2.1.relPiece .free 8176).1 ∧
    NoDouble (given ++ .push { limit := 1000, fill := [1, 2, 3] } :: []) ∧ Limits (given ++ .push { limit := 1000, fill := [1, 2, 3] } :: []) ∧
    StaysOpen 4096 given { limit := 1000, fill := [1, 2, 3] } [] ∧ Innermost 4096 given { limit := 1000, fill := [1, 2, 3] } [] ∧
    (r2.1.relPiece .free 8176).1.footprint = some 30 ∧ held 4096 1 (given ++ .push { limit := 1000, fill := [1, 2, 3] } :: []) = 20 := by
  refine ⟨reach2.free .free 8176, ?_, ?_, ?_, by unfold Innermost; decide +kernel, by decide +kernel, by decide +kernel⟩
  · have e : (r2.1.relPiece .free 8176).2 = none := by decide +kernel
    intro r p q h
    simp [given, e] at h
  · intro a h
    simp [given] at h
    subst h
    decide
  · intro s hs
    simp only [given, List.suffix_cons_iff, List.suffix_nil] at hs
    rcases hs with rfl | rfl | rfl | rfl <;> decide +kernel
end

/-- **C98, refuted (inner blocks).** What is allocated in a BLOCK inside of the case is not counted for the case: 100 bytes are held, the
footprint is 0. -/
theorem C98_inner_false :
    let h := Heap.push ⟨[{}], fun _ => 0, 0⟩ {}
    let r := (h.push {}).newPiece 4096 4096 .malloc 100 0 none ⟨0, false⟩
    r.2.isSome = true ∧ ((r.1.relPiece .free (r.2.map (·.userPtr)).get!).1.pop.1).footprint = some 0 := by
  decide +kernel

/-- **C98, refuted (after a double free).** 10 bytes are released twice; then 20 are held, and the footprint is 10. -/
theorem C98_double_free_false :
    let h := ((tiny.relPiece .free 8176).1.relPiece .free 8176).1
    let r := h.newPiece 4096 (4096 * 10) .malloc 20 0 none ⟨0, false⟩
    r.2.map (·.userSize) = some 20 ∧ r.1.footprint = some 10 := by
  decide +kernel

/-- **C98, refuted (left early).** An assertion fails inside of a BLOCK, which is not closed then: the footprint told about the case is
that of the BLOCK. -/
theorem C98_left_false :
    (tiny.push {}).footprint = some 0 ∧ tiny.footprint = some 10 := by
  decide +kernel

end H2.Memory
