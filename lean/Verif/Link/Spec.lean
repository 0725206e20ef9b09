import Verif.Link.Model
/-
Lists as plain sequences: the abstract state gives for every list head the sequence of its entries.
-/
namespace H2.Link

/-- Abstract state: the entries of the list with a given head.  A node that is in no list owns one
itself (it is a head; a free node is the head of an empty list). -/
abbrev State := Addr → List Addr

/-- `a` is an entry of some list. -/
def Listed (σ : State) (a : Addr) : Prop := ∃ hd, a ∈ σ hd

/-- A free node: in no list, and heading an empty one. -/
def Free (σ : State) (a : Addr) : Prop := ¬ Listed σ a ∧ σ a = []

/-- Replace the sequence of one head. -/
def State.set (σ : State) (hd : Addr) (xs : List Addr) : State := fun a => if a = hd then xs else σ a

/-- Operations on lists. -/
inductive Op where
  | push (hd e : Addr)
  | pushBack (hd e : Addr)
  | before (x e : Addr)
  | after (x e : Addr)
  | pop (hd : Addr)
  | popBack (hd : Addr)
  | out (e : Addr)
  /-- `hd.sort(cmp)`; `tmp` is the address of its local list. -/
  | sort (hd tmp : Addr) (cmp : Addr → Addr → Int)

/-- Stable insertion: in front of the first greater entry. -/
def insertStable (cmp : Addr → Addr → Int) (p : Addr) : List Addr → List Addr
  | [] => [p]
  | q :: qs => if 0 < cmp q p then p :: q :: qs else q :: insertStable cmp p qs

/-- Insertion sort: the entries inserted one after the other. -/
def insertionSort (cmp : Addr → Addr → Int) (xs : List Addr) : List Addr :=
  xs.foldl (fun ys p => insertStable cmp p ys) []

/-- The operations as they act on sequences. -/
inductive Step : State → Op → State → Prop where
  | push {σ hd e} : ¬ Listed σ hd → Free σ e → e ≠ hd → Step σ (.push hd e) (σ.set hd (e :: σ hd))
  | pushBack {σ hd e} : ¬ Listed σ hd → Free σ e → e ≠ hd → Step σ (.pushBack hd e) (σ.set hd (σ hd ++ [e]))
  | before {σ hd l x r e} : σ hd = l ++ x :: r → Free σ e → e ≠ hd → Step σ (.before x e) (σ.set hd (l ++ e :: x :: r))
  | after {σ hd l x r e} : σ hd = l ++ x :: r → Free σ e → e ≠ hd → Step σ (.after x e) (σ.set hd (l ++ x :: e :: r))
  | pop {σ hd x xs} : σ hd = x :: xs → Step σ (.pop hd) (σ.set hd xs)
  | popEmpty {σ hd} : Free σ hd → Step σ (.pop hd) σ
  | popBack {σ hd x xs} : σ hd = xs ++ [x] → Step σ (.popBack hd) (σ.set hd xs)
  | popBackEmpty {σ hd} : Free σ hd → Step σ (.popBack hd) σ
  | out {σ hd l e r} : σ hd = l ++ e :: r → Step σ (.out e) (σ.set hd (l ++ r))
  | outFree {σ e} : Free σ e → Step σ (.out e) σ
  | sort {σ hd tmp cmp} : ¬ Listed σ hd → Free σ tmp → tmp ≠ hd →
      Step σ (.sort hd tmp cmp) (σ.set hd (insertionSort cmp (σ hd)))

/-- Histories of operations on sequences, from no list having an entry. -/
inductive Reach : List Op → State → Prop where
  | nil : Reach [] (fun _ => [])
  | snoc {ops σ op σ'} : Reach ops σ → Step σ op σ' → Reach (ops ++ [op]) σ'

/-- The operations as the code does them: `h'` is the heap left when `op` returns. -/
inductive Exec : Heap → Op → Heap → Prop where
  | push {h hd e} : Exec h (.push hd e) (h.addHead hd e)
  | pushBack {h hd e} : Exec h (.pushBack hd e) (h.addTail hd e)
  | before {h x e} : Exec h (.before x e) (h.addBefore x e)
  | after {h x e} : Exec h (.after x e) (h.addAfter x e)
  | pop {h hd} : Exec h (.pop hd) (h.pop hd).1
  | popBack {h hd} : Exec h (.popBack hd) (h.popBack hd).1
  | out {h e} : Exec h (.out e) (h.out e)
  | sort {h hd tmp cmp fuel h'} : h.sort hd tmp cmp fuel = some h' → Exec h (.sort hd tmp cmp) h'

/-- The code run on a history, from freshly constructed nodes. -/
inductive Runs : List Op → Heap → Prop where
  | nil : Runs [] Heap.init
  | snoc {ops h op h'} : Runs ops h → Exec h op h' → Runs (ops ++ [op]) h'

/-- Following `next` pointers from `a`: the first `n` nodes. -/
def forward (h : Heap) : Nat → Addr → List Addr
  | 0, _ => []
  | n + 1, a => h.next a :: forward h n (h.next a)

/-- Following `prev` pointers. -/
def backward (h : Heap) : Nat → Addr → List Addr
  | 0, _ => []
  | n + 1, a => h.prev a :: backward h n (h.prev a)

/-- The heap shows the list `xs` with head `hd`: walking forward visits the entries and returns to
the head, walking backward visits them in reverse and returns to the head. -/
def Shows (h : Heap) (hd : Addr) (xs : List Addr) : Prop :=
  forward h (xs.length + 1) hd = xs ++ [hd] ∧ backward h (xs.length + 1) hd = xs.reverse ++ [hd]

end H2.Link
