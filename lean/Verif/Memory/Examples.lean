import Verif.Memory.Props2
/- Concrete histories that meet the hypotheses of the heap theorems. -/
namespace H2.Memory.Examples
open H2.Memory

def s7 : Site := ⟨7, false⟩
def h0 : Heap := Heap.push ⟨[{}], fun _ => 0, 0⟩ { limit := 1000, fill := [1, 2, 3] }
def r1 := h0.newPiece 4096 4096 .malloc 10 0 none s7
def r2 := r1.1.newPiece 4096 40960 .new 20 0 none ⟨8, false⟩
/-- A stray write just behind the first area (8176 .. 8186), then both are released. -/
def h3 := r2.1.store 8187 5 99
def f4 := h3.relPiece .free 8176
def f5 := h3.relPiece .free 45032

theorem fresh1 : Fresh h0 4096 4096 10 0 s7 := by
  refine ⟨by decide, by decide, ?_⟩
  intro b hb
  have : b = { attrs := { limit := 1000, fill := [1, 2, 3] } } := (Option.some.inj hb).symm
  subst this
  refine ⟨by decide, ?_⟩
  intro c hc q hq
  simp [h0, Heap.push] at hc
  rcases hc with rfl | rfl <;> simp at hq

def es1 : List Event := [.alloc .malloc 10 s7 (r1.2.map (fun p => p.area r1.1.mem)), .push { limit := 1000, fill := [1, 2, 3] }]

theorem reach1 : Reach 4096 es1 r1.1 := (Reach.start _ _ |>.push _).alloc 4096 .malloc 10 0 none s7 fresh1

theorem fresh2 : Fresh r1.1 4096 40960 20 0 ⟨8, false⟩ := by
  refine ⟨by decide, by decide, ?_⟩
  intro b hb
  have hb : b = (r1.1.blocks.head (by decide)) := (Option.some.inj hb).symm
  subst hb
  refine ⟨by decide, ?_⟩
  intro c hc q hq
  have hb : r1.1.blocks = [⟨[mkPiece 4096 4096 10 8 .malloc s7 1], { limit := 1000, fill := [1, 2, 3] }, 10, 10⟩, {}] := rfl
  rw [hb] at hc
  simp only [List.mem_cons, List.not_mem_nil, or_false] at hc
  rcases hc with rfl | rfl
  · simp only [List.mem_cons, List.not_mem_nil, or_false] at hq
    subst hq
    intro who s f
    right
    show 4096 + 4096 * (pageCount (userSizePlus 10 (alignment2n 8)) 4096 + 1) ≤ 40960
    decide
  · simp at hq

def es2 : List Event := .alloc .new 20 ⟨8, false⟩ (r2.2.map (fun p => p.area r2.1.mem)) :: es1
theorem reach2 : Reach 4096 es2 r2.1 := reach1.alloc 40960 .new 20 0 none ⟨8, false⟩ fresh2
theorem reach3 : Reach 4096 (.write 8187 :: es2) h3 := reach2.write 8187 5 99
theorem reach4 : Reach 4096 (.free .free 8176 f4.2 :: .write 8187 :: es2) f4.1 := reach3.free .free 8176

/-- The history has both areas in the inner block (hypotheses of C21-C26 and C55). -/
example : List.map (fun b => b.2.map (fun e => (e.area.ptr, e.size, e.freed, e.clean, e.bad.isSome))) (history 4096 es2) =
    [[(8176, 10, false, false, false), (45032, 20, false, false, false)], []] := by decide +kernel

/-- C21: both are leaked from two call sites, and reported so. -/
example : r2.1.pop.2 = [.leak 8176 10 [(10, 1)] s7, .leak 45032 20 [(20, 1)] ⟨8, false⟩] := by decide +kernel

/-- C25: the stray write is reported with its address and bytes. -/
example : f4.2 = some (.overflow 8176 10 8187 .write [99]) := by decide +kernel
example : (List.map (fun b => b.2.map (fun e => e.area.hi)) (history 4096 es2)) = [[8192, 45056], []] := by decide +kernel

/-- C22: a mismatched free, a matched one, a double free. -/
example : f5.2 = some (.asymmetric 45032 .new .free) := by decide +kernel
example : (h3.relPiece .deleteArr 45032).2 = none := by decide +kernel
example : (f4.1.relPiece .free 8176).2 = some (.doubleFree 8176) := by decide +kernel

/-- C23: 30 bytes are live, 970 more fit, 971 do not. -/
example : ((r2.1.newPiece 4096 81920 .malloc 970 0 none s7).2.isSome,
    (r2.1.newPiece 4096 81920 .malloc 971 0 none s7).2.isSome) = (true, false) := by decide +kernel
example : NoDouble es2 ∧ Limits es2 := by
  constructor
  · intro r p q h
    simp [es2, es1] at h
  · intro a h
    simp [es2, es1] at h
    subst h
    decide

/-- C24: the fill pattern. -/
example : (List.range 10).map (fun i => r1.1.mem (8176 + i)) = [1, 2, 3, 1, 2, 3, 1, 2, 3, 1] := by decide +kernel

/-- C26: growing the first area keeps its ten bytes. -/
example : let r := r2.1.realloc 4096 81920 8176 12 s7
    (r.2.1.map (fun p => (List.range 12).map (fun i => r.1.mem (p.userPtr + i)))) = some [1, 2, 3, 1, 2, 3, 1, 2, 3, 1, 2, 3]
    ∧ r.2.2 = none := by decide +kernel

/-- C55: reading a released area, and writing to the guard page of a live one. -/
example : ((r2.1.relPiece .free 8176).1.load 8180 3).1.pop.2 = [.useAfterFree 8176 8180 .read] := by decide +kernel
example : (r2.1.store 8192 3 0).pop.2 = [.overflow 8176 10 8192 .write []] := by decide +kernel
/-- Reading the guard page is not reported. -/
example : (r2.1.load 8192 3).1.pop.2.length = 2 := by decide +kernel

/-- C20: an alignment of 64. -/
example : (mkPiece 4096 8192 100 64 .alignedAlloc s7 1).userPtr = 12160 := by decide

end H2.Memory.Examples
