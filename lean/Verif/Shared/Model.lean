/-
Model of `h2_shared_ptr`, `/repo/source/utils/h2_shared_ptr.hpp`.

Objects and counters are addresses.  `handles` are the shared pointers that exist; copying and
constructing append one, destroying removes one.  Destroying an object whose members are shared
pointers themselves is a sequence of further `destroy` operations.  `none` is undefined behaviour:
use of a freed counter, or deleting an object that is not alive.
-/
namespace H2.Shared

/-- The fields, `/repo/source/utils/h2_shared_ptr.hpp:34-35`; `none` is a null pointer. -/
structure Ptr where
  px : Option Nat := none
  pn : Option Nat := none
deriving DecidableEq

structure State where
  handles : List Ptr
  /-- Allocated counters and their values. -/
  counters : List (Nat × Int)
  /-- Objects not deleted. -/
  objects : List Nat
  /-- Objects deleted so far, in order. -/
  deleted : List Nat

/-- `*n`. -/
def State.value (s : State) (n : Nat) : Option Int := (s.counters.find? (fun c => c.1 == n)).map (·.2)
/-- `*n = v`. -/
def State.store (s : State) (n : Nat) (v : Int) : State :=
  { s with counters := s.counters.map fun c => if c.1 = n then (n, v) else c }

/-- `acquire`, `/repo/source/utils/h2_shared_ptr.hpp:18-23`; `m` is the address `h2_libc::malloc`
returns if it is called. -/
def State.acquire (s : State) (p n : Option Nat) (m : Nat) : Option (State × Ptr) :=
  match p with
  | none => some (s, ⟨none, n⟩)
  | some o =>
    match n with
    | some n =>
      match s.value n with
      | none => none
      | some v => some (s.store n (v + 1), ⟨some o, some n⟩)
    | none => some ({ s with counters := (m, 1) :: s.counters }, ⟨some o, some m⟩)

/-- `release`, `/repo/source/utils/h2_shared_ptr.hpp:24-32`, of the pointer `p`; the caller overwrites
the pointer with nulls. -/
def State.release (s : State) (p : Ptr) : Option State :=
  match p.pn with
  | none => some s
  | some n =>
    match s.value n with
    | none => none
    | some v =>
      let s := s.store n (v - 1)
      if v - 1 = 0 then
        match p.px with
        | none => some { s with counters := s.counters.filter fun c => c.1 ≠ n }
        | some o =>
          if o ∈ s.objects then
            some { s with objects := s.objects.erase o, deleted := s.deleted ++ [o], counters := s.counters.filter fun c => c.1 ≠ n }
          else none
      else some s

inductive Op where
  /-- `h2_shared_ptr<T> p(new T)`: object and counter addresses. -/
  | make (o m : Nat)
  /-- `h2_shared_ptr<T> p;` -/
  | null
  /-- `h2_shared_ptr<T> p(q);` with `q` the handle number `j`. -/
  | copy (j : Nat)
  /-- `p = q;` -/
  | assign (i j : Nat)
  | reset (i : Nat)
  /-- End of life of a handle. -/
  | destroy (i : Nat)

/-- Copy construction, `/repo/source/utils/h2_shared_ptr.hpp:5`. -/
def State.copyOf (s : State) (q : Ptr) : Option (State × Ptr) := s.acquire q.px q.pn 0

/-- One operation; `none` also for handle numbers that do not exist (not a program). -/
def State.step (s : State) : Op → Option State
  | .make o m =>
    (({ s with objects := o :: s.objects } : State).acquire (some o) none m).map fun r => { r.1 with handles := r.1.handles ++ [r.2] }
  | .null => some { s with handles := s.handles ++ [{}] }
  | .copy j =>
    match s.handles[j]? with
    | none => none
    | some q => (s.copyOf q).map fun r => { r.1 with handles := r.1.handles ++ [r.2] }
  | .assign i j =>
    -- `operator=` takes its argument by value (copy), swaps, and the argument dies
    match s.handles[i]?, s.handles[j]? with
    | some p, some q =>
      match s.copyOf q with
      | none => none
      | some r => State.release { r.1 with handles := r.1.handles.set i r.2 } p
    | _, _ => none
  | .reset i =>
    match s.handles[i]? with
    | none => none
    | some p => (s.release p).map fun s => { s with handles := s.handles.set i {} }
  | .destroy i =>
    match s.handles[i]? with
    | none => none
    | some p => (s.release p).map fun s => { s with handles := s.handles.eraseIdx i }

/-- `operator bool`, `/repo/source/utils/h2_shared_ptr.hpp:14`. -/
def State.isSet (s : State) (p : Ptr) : Bool :=
  match p.pn with
  | none => false
  | some n => match s.value n with
    | none => false
    | some v => 0 < v

end H2.Shared
