/-
Model of the intrusive circular lists, `/repo/source/utils/h2_list.{cpp,hpp}`: a heap of nodes with
`next` and `prev` pointers.
-/
namespace H2.Link

/-- Address of an `h2_list` node. -/
abbrev Addr := Nat

/-- The pointers of all nodes, `/repo/source/utils/h2_list.hpp:17`. -/
structure Heap where
  next : Addr → Addr
  prev : Addr → Addr

/-- A store `a->next = v`. -/
def Heap.setNext (h : Heap) (a v : Addr) : Heap := { h with next := fun x => if x = a then v else h.next x }
/-- A store `a->prev = v`. -/
def Heap.setPrev (h : Heap) (a v : Addr) : Heap := { h with prev := fun x => if x = a then v else h.prev x }

/-- All nodes just constructed, `/repo/source/utils/h2_list.hpp:19`. -/
def Heap.init : Heap := { next := id, prev := id }

/-- `add_between`, `/repo/source/utils/h2_list.cpp:1-7`. -/
def Heap.addBetween (h : Heap) (thus prev next : Addr) : Heap :=
  (((h.setPrev next thus).setNext thus next).setPrev thus prev).setNext prev thus

/-- `add_head` and `push`, `/repo/source/utils/h2_list.cpp:9-13`, `h2_list.hpp:27`. -/
def Heap.addHead (h : Heap) (this entry : Addr) : Heap := h.addBetween entry this (h.next this)
/-- `add_tail` and `push_back`, `/repo/source/utils/h2_list.cpp:15-19`, `h2_list.hpp:26`. -/
def Heap.addTail (h : Heap) (this entry : Addr) : Heap := h.addBetween entry (h.prev this) this
/-- `add_before`, `/repo/source/utils/h2_list.cpp:21-25`. -/
def Heap.addBefore (h : Heap) (this entry : Addr) : Heap := h.addBetween entry (h.prev this) this
/-- `add_after`, `/repo/source/utils/h2_list.cpp:27-31`. -/
def Heap.addAfter (h : Heap) (this entry : Addr) : Heap := h.addBetween entry this (h.next this)

/-- `out`, `/repo/source/utils/h2_list.cpp:33-39`: `prev->next = next; next->prev = prev;
next = prev = this`, each statement reading the pointers anew. -/
def Heap.out (h : Heap) (this : Addr) : Heap :=
  let h := h.setNext (h.prev this) (h.next this)
  let h := h.setPrev (h.next this) (h.prev this)
  (h.setPrev this this).setNext this this

/-- `pop`, `/repo/source/utils/h2_list.hpp:28`: `next->out()`, returning the node taken out. -/
def Heap.pop (h : Heap) (this : Addr) : Heap × Addr := (h.out (h.next this), h.next this)
/-- `pop_back`, `/repo/source/utils/h2_list.hpp:29`. -/
def Heap.popBack (h : Heap) (this : Addr) : Heap × Addr := (h.out (h.prev this), h.prev this)

/-- `empty`, `/repo/source/utils/h2_list.hpp:36`. -/
def Heap.empty (h : Heap) (this : Addr) : Bool := h.next this == this
/-- `is_first`, `is_last`, `/repo/source/utils/h2_list.hpp:31-32`. -/
def Heap.isFirst (h : Heap) (this entry : Addr) : Bool := h.next this == entry
def Heap.isLast (h : Heap) (this entry : Addr) : Bool := h.prev this == entry

/-- The loop of `count`, `/repo/source/utils/h2_list.cpp:41-46`, for at most `fuel` rounds (`none`:
still running). -/
def countLoop (h : Heap) (this : Addr) : Nat → Addr → Nat → Option Nat
  | 0, _, _ => none
  | fuel + 1, p, c => if p = this then some c else countLoop h this fuel (h.next p) (c + 1)

def Heap.count (h : Heap) (this : Addr) (fuel : Nat) : Option Nat := countLoop h this fuel (h.next this) 0

/-- The inner loop of `sort`, `/repo/source/utils/h2_list.cpp:54-56`: where to insert. -/
def findLoop (h : Heap) (sorted p : Addr) (cmp : Addr → Addr → Int) : Nat → Addr → Option Addr
  | 0, _ => none
  | fuel + 1, q =>
    if q = sorted then some q
    else if 0 < cmp q p then some q
    else findLoop h sorted p cmp fuel (h.next q)

/-- The first loop of `sort`, `/repo/source/utils/h2_list.cpp:52-58`. -/
def insertLoop (this sorted : Addr) (cmp : Addr → Addr → Int) : Nat → Heap → Option Heap
  | 0, _ => none
  | fuel + 1, h =>
    if h.empty this then some h
    else
      let r := h.pop this
      match findLoop r.1 sorted r.2 cmp fuel (r.1.next sorted) with
      | none => none
      | some q => insertLoop this sorted cmp fuel (r.1.addBefore q r.2)

/-- The second loop of `sort`, `/repo/source/utils/h2_list.cpp:59`. -/
def backLoop (this sorted : Addr) : Nat → Heap → Option Heap
  | 0, _ => none
  | fuel + 1, h =>
    if h.empty sorted then some h
    else
      let r := h.pop sorted
      backLoop this sorted fuel (r.1.addTail this r.2)

/-- `sort`, `/repo/source/utils/h2_list.cpp:48-60`; `sorted` is the address of its local list. -/
def Heap.sort (h : Heap) (this sorted : Addr) (cmp : Addr → Addr → Int) (fuel : Nat) : Option Heap :=
  match insertLoop this sorted cmp fuel h with
  | none => none
  | some h => backLoop this sorted fuel h

/-- `h2_list_for_each_entry`, `/repo/source/utils/h2_list.hpp:5`, with a body that may take the
visited node out (`remove`): the nodes visited, in order, and the heap left. -/
def eachLoop (head : Addr) (remove : Addr → Bool) : Nat → Heap → Addr → Addr → Option (List Addr × Heap)
  | 0, _, _, _ => none
  | fuel + 1, h, p, t =>
    if p = head then some ([], h)
    else
      let h' := if remove p then h.out p else h
      (eachLoop head remove fuel h' t (h'.next t)).map fun r => (p :: r.1, r.2)

def Heap.each (h : Heap) (head : Addr) (remove : Addr → Bool) (fuel : Nat) : Option (List Addr × Heap) :=
  eachLoop head remove fuel h (h.next head) (h.next (h.next head))

end H2.Link
