import Verif.MemText.Lemmas
import Verif.Memory.Examples
/- C66: what is printed about memory failures. -/
namespace H2.MemText
open H2.Layout (Word Line text)
open H2.Memory

/-- The names of the frames contain no escape character. -/
def Plain (t : Traces) : Prop :=
  (∀ f ∈ t.allocate, '\x1b' ∉ f) ∧ (∀ f ∈ t.release, '\x1b' ∉ f) ∧ ∀ fs, t.access = some fs → ∀ f ∈ fs, '\x1b' ∉ f

theorem Plain.acc {t : Traces} (h : Plain t) : ∀ f ∈ t.access.getD [], '\x1b' ∉ f := by
  cases e : t.access with
  | none => simp
  | some fs => exact h.2.2 fs e

/-- **C66.** When a block ends with areas left, a report is printed for every call site that left some, in the order of the first area
each left: the address of the first area, the bytes left there in all, the sizes with how often each occurs (completely from verbosity
4 on; before, three sizes and the number of others), unless there is only one area, and the backtrace of the allocation. -/
theorem C66_leak {page es h a l rest} (hp : 0 < page) (hr : Reach page es h) (hh : history page es = (a, l) :: rest)
    (hbad : ∀ e ∈ l, e.bad = none) (hn : a.noleak = false) (verbose : Int) (where_ : Word) (place : Option Word) (t : Fail → Traces)
    (frames : Site → List Word) (ht : ∀ p n ns s, (t (.leak p n ns s)).allocate = frames s) (hf : ∀ s, ∀ f ∈ frames s, '\x1b' ∉ f)
    (hw : '\x1b' ∉ where_) (hpl : ∀ p, place = some p → '\x1b' ∉ p) :
    h.pop.2.map (fun f => (print verbose where_ place (t f) f).map text) =
      (distinct ((live l).map fun e => e.site)).map fun s => leakReport verbose (ofSite s (live l)) where_ place (frames s) := by
  rw [pop_leaks hp hr hh hbad hn, List.map_map]
  apply List.map_congr_left
  intro s _
  simp only [Function.comp, print, List.map_cons, leakReport, ht]
  rw [text_leak _ _ _ _ _ hw hpl, text_backtrace _ _ (hf s)]
  congr 1

/-- **C66.** The sizes told at verbosity 4 and above account for every area left: each is the size of an area left at that call site,
all of them are there, and none twice. -/
theorem C66_sizes (verbose : Int) (hv : 4 ≤ verbose) (ns : List Nat) :
    sizesTold verbose ns = (distinct ns).map (sizeItem ns) ∧ (∀ n, n ∈ distinct ns ↔ n ∈ ns) ∧ (distinct ns).Nodup ∧
      ((distinct ns).map fun n => n * ns.count n).sum = ns.sum := by
  refine ⟨?_, fun n => distinct_mem n ns, distinct_nodup ns, ?_⟩
  · unfold sizesTold; simp only; rw [if_pos (Or.inl hv)]
  · have := total_tally ns
    unfold totalOf tally at this
    rw [List.map_map] at this
    exact this

/-- **C66.** A stray write found when an area is released is reported with the distance of the first changed byte from the area: `+k`
and "overflow" if it is the byte `k` bytes behind the end, `-k` and "underflow" if it is `k` bytes before the beginning, and with the
values now there. -/
theorem C66_stray {page es} {h : Heap} (hp : 0 < page) (hr : Reach page es h) {b e} (hb : b ∈ history page es)
    (he : e ∈ b.2) (hfr : e.freed = false) (r : Rel) (hm : matching e.who r = true) (f : Fail)
    (hfail : (h.relPiece r e.area.ptr).2 = some f) (hnear : e.area.hi ≤ e.area.ptr + e.size + 2 ^ 31 ∧ e.area.ptr ≤ e.area.lo + 2 ^ 31)
    (verbose : Int) (where_ : Word) (place : Option Word) (t : Traces) (ht : Plain t) (ha : t.access = none) :
    ∃ addr bytes, e.padding addr ∧ h.mem addr ≠ e.area.mem addr ∧ (∀ i (hi : i < bytes.length), bytes[i] = h.mem (addr + i)) ∧ 1 ≤ bytes.length ∧
      (print verbose where_ place t f).map text =
        outsideText e.area.ptr e.size addr .write bytes :: "  which allocate at backtrace:".toList :: traceText 3 t.allocate := by
  obtain ⟨addr, spot, rfl, hpad, hne, _, hl, _, hval, _⟩ := C25_address hp hr hb he hfr r hm f hfail
  refine ⟨addr, spot, hpad, hne, hval, hl, ?_⟩
  have ho : addr < e.area.ptr ∨ e.area.ptr + e.size ≤ addr := by rcases hpad with h | h <;> omega
  simp only [print, List.map_cons, List.map_append, ha, Option.isSome_none, Option.getD_none]
  rw [text_over _ _ _ _ _ _ ho (by rcases hpad with h | h <;> omega) (by rcases hpad with h | h <;> omega), text_backtrace _ _ ht.1]
  simp only [Bool.false_eq_true, if_false, List.append_nil]
  rfl

/-- What is printed about a forbidden access. -/
def accessReport (e : Entry) (t : Traces) (addr : Nat) (after : Bool) (action : Action) : List Text :=
  if after then
    afterText e.area.ptr addr action :: (traceText 2 (t.access.getD []) ++ "  which allocate at backtrace:".toList :: (traceText 3 t.allocate ++
      "  and free at backtrace:".toList :: traceText 3 t.release))
  else
    (outsideText e.area.ptr e.size addr action [] ++ " at backtrace:".toList) :: (traceText 3 (t.access.getD []) ++
      "  which allocate at backtrace:".toList :: traceText 3 t.allocate)

/-- **C66, part.** When a block ends with forbidden accesses to its areas, the first access to each area is printed: for a released area
the distance from its beginning and "after free"; for others the distance from its end and "overflow".  Missing: accesses further than
2 GiB from the area, see `C66_after_free_far`; the right word for the action is C55's. -/
theorem C66_access_partial {page es h a l rest} (hp : 0 < page) (hr : Reach page es h) (hh : history page es = (a, l) :: rest)
    (hbad : ∃ e ∈ l, e.bad ≠ none)
    (hnear : ∀ e ∈ l, e.area.ptr ≤ e.area.lo + 2 ^ 31 ∧ (if e.freed then e.area.hi + page ≤ e.area.ptr + 2 ^ 31 else e.area.hi + page ≤ e.area.ptr + e.size + 2 ^ 31))
    (verbose : Int) (where_ : Word) (place : Option Word) (t : Fail → Traces) (ht : ∀ f, Plain (t f)) (ha : ∀ f, (t f).access.isSome = true) :
    All2 (fun f e => ∃ addr after action, e.bad = some (addr, after) ∧ e.area.lo ≤ addr ∧ addr < e.area.hi + page ∧
        (after = false → e.area.hi ≤ addr) ∧ (print verbose where_ place (t f) f).map text = accessReport e (t f) addr after action)
      h.pop.2 (l.filter fun e => e.bad.isSome) := by
  have h1 := C55_forbidden hp hr hh hbad
  obtain ⟨b, bs, hb, hattr, hall, hpop⟩ := pop_cons hp hr hh
  have hsound : ∀ e ∈ l.filter (fun e => e.bad.isSome), Sound page e ∧ e.area.lo ≤ e.area.ptr ∧ e.area.ptr + e.size ≤ e.area.hi ∧
      e.area.ptr ≤ e.area.lo + 2 ^ 31 ∧ (∀ a, e.bad = some (a, true) → e.area.hi + page ≤ e.area.ptr + 2 ^ 31) ∧
      (e.area.hi + page ≤ e.area.ptr + e.size + 2 ^ 31) := by
    intro e he
    have he := (List.mem_filter.1 he).1
    obtain ⟨p, _, hrep⟩ := hall.left e he
    obtain ⟨n1, n2⟩ := hnear e he
    refine ⟨sound_history page es (a, l) (by rw [hh]; simp) e he, hrep.geo1, hrep.geo2, n1, ?_, ?_⟩
    · intro x hx
      rw [(sound_history page es (a, l) (by rw [hh]; simp) e he).freed x hx] at n2
      simpa using n2
    · split at n2 <;> omega
  generalize l.filter (fun e => e.bad.isSome) = es' at h1 hsound
  generalize h.pop.2 = fs at h1
  clear hpop
  induction h1 with
  | nil => exact .nil
  | @cons f e fs es'' hfe _ ih =>
    refine .cons ?_ (ih fun e he => hsound e (List.mem_cons_of_mem _ he))
    obtain ⟨hs, g1, g2, n1, n2, n3⟩ := hsound e List.mem_cons_self
    unfold forbiddenFail at hfe
    split at hfe
    · exact hfe.elim
    · next addr hb' =>
      obtain ⟨act, rfl⟩ := hfe
      have hin := hs.inside _ _ hb'
      have n2 := n2 _ hb'
      refine ⟨addr, true, act, hb', hin.1, hin.2, by simp, ?_⟩
      simp only [print, accessReport, if_true, List.map_cons, List.map_append]
      rw [text_after _ _ _ (by omega) (by omega), text_backtrace _ _ (ht _).1, text_backtrace _ _ (ht _).acc, text_backtrace _ _ (ht _).2.1]
      rfl
    · next addr hb' =>
      obtain ⟨act, rfl⟩ := hfe
      have hin := hs.inside _ _ hb'
      have hg := hs.guard _ hb'
      refine ⟨addr, false, act, hb', hin.1, hin.2, fun _ => hg, ?_⟩
      simp only [print, accessReport, List.map_cons, List.map_append, ha, Bool.false_eq_true, if_false]
      rw [text_over _ _ _ _ _ _ (by omega) (by omega) (by omega), text_backtrace _ _ (ht _).1, text_backtrace _ _ (ht _).acc]
      rfl

/-- **C66.** Releasing an area again is reported with its address, where it is released, and where it was allocated and released. -/
theorem C66_double {page es} {h : Heap} (hp : 0 < page) (hr : Reach page es h) {b e} (hb : b ∈ history page es) (he : e ∈ b.2)
    (hf : e.freed = true) (r : Rel) (verbose : Int) (where_ : Word) (place : Option Word) (t : Traces) (ht : Plain t) :
    ((h.relPiece r e.area.ptr).2.map fun f => (print verbose where_ place t f).map text) =
      some ((" ".toList ++ address e.area.ptr ++ " double free at backtrace:".toList) :: (traceText 2 (t.access.getD []) ++
        "  which allocate at backtrace:".toList :: (traceText 3 t.allocate ++ "  already free at backtrace:".toList :: traceText 3 t.release))) := by
  rw [C22_double hp hr hb he hf r, Option.map_some]
  simp only [print, List.map_cons, List.map_append]
  have hesc : '\x1b' ∉ " ".toList ++ pointer e.area.ptr := by
    intro h
    rcases List.mem_append.1 h with h | h
    · exact absurd h (by decide)
    · exact esc_address _ h
  have e1 : " double free at backtrace:".toList = " double free".toList ++ " at backtrace:".toList := by decide
  rw [text_backtrace _ _ ht.1, text_backtrace _ _ ht.acc, text_backtrace _ _ ht.2.1, H2.Message.text_append, H2.Message.text_append, H2.Message.text_brush,
    H2.Message.text_word _ hesc, H2.Message.text_word _ (by decide), H2.Message.text_word _ (by decide), pointer_eq, e1]
  simp only [List.append_assoc]
  rfl

/-- **C66.** Releasing an area with a function that does not belong to the one it came from is reported with both names, the right way
round. -/
theorem C66_asymmetric {page es} {h : Heap} (hp : 0 < page) (hr : Reach page es h) {b e} (hb : b ∈ history page es)
    (he : e ∈ b.2) (hf : e.freed = false) (r : Rel) (hm : matching e.who r = false) (hx : e.site.exempt = false)
    (verbose : Int) (where_ : Word) (place : Option Word) (t : Traces) (ht : Plain t) :
    ((h.relPiece r e.area.ptr).2.map fun f => (print verbose where_ place t f).map text) =
      some ((" ".toList ++ address e.area.ptr ++ " allocate with ".toList ++ (allocator e.who).toList ++ ", release by ".toList ++
        (releaser r).toList ++ " asymmetrically at backtrace:".toList) :: (traceText 2 t.release ++
        "  which allocate at backtrace:".toList :: traceText 3 t.allocate)) := by
  rw [C22_asymmetric hp hr hb he hf r hm hx, Option.map_some]
  simp only [print, List.map_cons, List.map_append]
  have hesc : '\x1b' ∉ " ".toList ++ pointer e.area.ptr ++ " allocate with ".toList := by
    intro h
    rcases List.mem_append.1 h with h | h
    · rcases List.mem_append.1 h with h | h
      · exact absurd h (by decide)
      · exact esc_address _ h
    · exact absurd h (by decide)
  rw [text_backtrace _ _ ht.1, text_backtrace _ _ ht.2.1, H2.Message.text_append, H2.Message.text_append, H2.Message.text_append,
    H2.Message.text_append, H2.Message.text_brush, H2.Message.text_brush,
    H2.Message.text_word _ hesc, H2.Message.text_word _ (esc_alloc _), H2.Message.text_word _ (by decide), H2.Message.text_word _ (esc_rel _),
    H2.Message.text_word _ (by decide), pointer_eq, alloc_eq, rel_eq]
  rfl

/-! ### What is not told right -/

/-- Three gigabytes, released, and then read two gigabytes after the beginning. -/
def big := (Heap.mk [{}] (fun _ => 0) 0).newPiece 4096 4096 .malloc (3 * 2 ^ 30) 0 none ⟨7, false⟩
def bigPtr : Nat := 8192
def bigFreed := (big.1.relPiece .free bigPtr)
def bigRead := (bigFreed.1.load (bigPtr + 2 ^ 31) 3).1

theorem big_ptr : big.2.map (·.userPtr) = some bigPtr := by decide +kernel

theorem big_fresh : Fresh ⟨[{}], fun _ => 0, 0⟩ 4096 4096 (3 * 2 ^ 30) 0 ⟨7, false⟩ := by
  refine ⟨by decide, by decide, ?_⟩
  intro b hb
  have : b = {} := (Option.some.inj hb).symm
  subst this
  refine ⟨by decide, ?_⟩
  intro c hc q hq
  simp at hc
  subst hc
  simp at hq

/-- **C66, refuted (far accesses).** Reading a released area of three gigabytes two gigabytes after its beginning is reported as an
access *before* it: the distance told is -2147483648. -/
theorem C66_after_free_far : ∃ es, Reach 4096 es bigRead ∧
    (bigRead.pop.2.map fun f => ((print 4 [] none ⟨[], [], some []⟩ f).map text).head?) =
      [some (" ".toList ++ address bigPtr ++ " -2147483648 (".toList ++ address (bigPtr + 2 ^ 31) ++ ") read after free at backtrace:".toList)] := by
  refine ⟨_, (((Reach.start (fun _ => 0) 0).alloc 4096 .malloc (3 * 2 ^ 30) 0 none ⟨7, false⟩ big_fresh).free .free bigPtr).read (bigPtr + 2 ^ 31) 3, ?_⟩
  decide +kernel

/-! ### Frames -/

theorem contains_iff (t : Word) : ∀ s : Word, contains s t = true ↔ t <:+: s
  | [] => by
    rw [contains]
    constructor
    · intro h; rw [List.isEmpty_iff.1 h]; exact List.infix_refl _
    · intro h; rw [List.infix_nil.1 h]; rfl
  | c :: s => by
    rw [contains, Bool.or_eq_true, List.isPrefixOf_iff_prefix, contains_iff t s, List.infix_cons_iff]

theorem sequence_get (pad : Nat) : ∀ (ls : List Line) (i j : Nat) (l : Line), ls[j]? = some l →
    ∃ pre, (sequence pad i ls)[j]? = some (pre ++ ("\x1b{-dark gray}".toList :: l))
  | [], _, _, _, h => by simp at h
  | x :: ls, i, 0, l, h => by
    simp only [List.getElem?_cons_zero, Option.some.injEq] at h
    subst h
    rw [sequence, List.getElem?_cons_zero, H2.Layout.indent]
    split
    · exact ⟨["\x1b{+dark gray}".toList, number i ++ ". ".toList], rfl⟩
    · exact ⟨[H2.Layout.spaces pad, "\x1b{+dark gray}".toList, number i ++ ". ".toList], rfl⟩
  | x :: ls, i, j + 1, l, h => by
    rw [sequence, List.getElem?_cons_succ]
    exact sequence_get pad ls (i + 1) j l (by simpa using h)

/-- **C66 (frames).** In a backtrace the frames of the library itself, those whose name begins with `h2::` or has it behind a colon and
a blank, are dark gray, and no others. -/
theorem C66_frames (pad : Nat) (frames : List Word) (i : Nat) (f : Word) (h : frames[i]? = some f) :
    ∃ line, (backtrace pad frames)[i]? = some line ∧
      if "h2::".toList <+: f ∨ ": h2::".toList <:+: f then ["\x1b{dark gray}".toList, f, "\x1b{reset}".toList] <:+ line
      else ["\x1b{-dark gray}".toList, f] <:+ line := by
  obtain ⟨pre, hp⟩ := sequence_get pad (frames.map fun c =>
    if "h2::".toList.isPrefixOf c || contains c ": h2::".toList then H2.Layout.brush [c] "dark gray".toList else [c]) 0 i _
    (by rw [List.getElem?_map, h]; rfl)
  refine ⟨_, hp, ?_⟩
  dsimp only
  have hc : ("h2::".toList.isPrefixOf f || contains f ": h2::".toList) = true ↔ ("h2::".toList <+: f ∨ ": h2::".toList <:+: f) := by
    rw [Bool.or_eq_true, List.isPrefixOf_iff_prefix, contains_iff]
  by_cases hg : "h2::".toList <+: f ∨ ": h2::".toList <:+: f
  · rw [if_pos hg, if_pos (hc.2 hg)]
    exact ⟨pre ++ ["\x1b{-dark gray}".toList], by rw [List.append_assoc]; rfl⟩
  · rw [if_neg hg, if_neg (fun h => hg (hc.1 h))]
    exact ⟨pre, rfl⟩

example : (backtrace 3 ["main".toList, "h2::f".toList, "a.out: h2::g".toList])
    = [["   ".toList, "\x1b{+dark gray}".toList, "0. ".toList, "\x1b{-dark gray}".toList, "main".toList],
       ["   ".toList, "\x1b{+dark gray}".toList, "1. ".toList, "\x1b{-dark gray}".toList, "\x1b{dark gray}".toList, "h2::f".toList, "\x1b{reset}".toList],
       ["   ".toList, "\x1b{+dark gray}".toList, "2. ".toList, "\x1b{-dark gray}".toList, "\x1b{dark gray}".toList, "a.out: h2::g".toList,
        "\x1b{reset}".toList]] := by decide +kernel

/-! ### Examples -/

/-- Frames for the examples. -/
def noTraces : Traces := ⟨["main".toList], ["h2::f".toList], none⟩

/-- The history of two leaked areas meets the hypotheses of `C66_leak`. -/
example : Reach 4096 H2.Memory.Examples.es2 H2.Memory.Examples.r2.1 ∧
    List.map (fun b => (b.1.noleak, b.2.map fun e => (e.area.ptr, e.size, e.freed, e.bad.isNone))) (history 4096 H2.Memory.Examples.es2) =
      [(false, [(8176, 10, false, true), (45032, 20, false, true)]), (false, [])] ∧
    (H2.Memory.Examples.r2.1.pop.2.map fun f => ((print 4 "case".toList (some "a.cpp:3".toList) noTraces f).map text).head?) =
      [some " 0x1ff0 memory leak 10 bytes in case totally at a.cpp:3".toList, some " 0xafe8 memory leak 20 bytes in case totally at a.cpp:3".toList] :=
  ⟨H2.Memory.Examples.reach2, by decide +kernel, by decide +kernel⟩

/-- Nine areas of five sizes. -/
example : String.ofList (leakText 4 4096 [8, 16, 8, 8, 4, 16, 2, 1, 8] "block".toList none) =
    " 0x1000 memory leak 71 [8x4, 16x2, 4, 2, 1] bytes in block totally" := by decide +kernel
example : String.ofList (leakText 3 4096 [8, 16, 8, 8, 4, 16, 2, 1, 8] "block".toList none) =
    " 0x1000 memory leak 71 [8x4, 16x2, 4, ...2] bytes in block totally" := by decide +kernel

/-- The stray write of `H2.Memory.Examples` meets the hypotheses of `C66_stray`. -/
example : Reach 4096 (.write 8187 :: H2.Memory.Examples.es2) H2.Memory.Examples.h3 ∧
    (H2.Memory.Examples.f4.2.map fun f => (print 4 [] none noTraces f).map text) =
      some [" 0x1ff0 +1 (0x1ffb) write overflow 63 ".toList, "  which allocate at backtrace:".toList, "   0. main".toList] :=
  ⟨H2.Memory.Examples.reach3, by decide +kernel⟩
example : String.ofList (outsideText 8176 10 8174 .write [0xAB, 0x0C]) = " 0x1ff0 -2 (0x1fee) write underflow AB 0C " := by decide +kernel

/-- A read after the release and a write to the guard page meet the hypotheses of `C66_access_partial`. -/
example : ((H2.Memory.Examples.r2.1.relPiece .free 8176).1.load 8180 3).1.pop.2.map (fun f => (print 4 [] none ⟨[], [], some ["f".toList]⟩ f).map text) =
    [[" 0x1ff0 +4 (0x1ff4) read after free at backtrace:".toList, "  0. f".toList, "  which allocate at backtrace:".toList, "  and free at backtrace:".toList]] := by
  decide +kernel
example : (H2.Memory.Examples.r2.1.store 8192 3 0).pop.2.map (fun f => (print 4 [] none ⟨[], [], some ["f".toList]⟩ f).map text) =
    [[" 0x1ff0 +6 (0x2000) write overflow  at backtrace:".toList, "   0. f".toList, "  which allocate at backtrace:".toList]] := by
  decide +kernel

/-- A double free and an asymmetric one. -/
example : ((H2.Memory.Examples.f4.1.relPiece .free 8176).2.map fun f => ((print 4 [] none noTraces f).map text).head?) =
    some (some " 0x1ff0 double free at backtrace:".toList) := by decide +kernel
example : (H2.Memory.Examples.f5.2.map fun f => ((print 4 [] none noTraces f).map text).head?) =
    some (some " 0xafe8 allocate with new, release by free asymmetrically at backtrace:".toList) := by decide +kernel

end H2.MemText
