/-
Model of function stubbing, `/repo/source/stub/*.cpp` and `h2_runner::stub/unstub`: machine code is
bytes in memory, patched in place.  64-bit addresses; x86-64 code, and the arm64 jump.

The lists of sources and stubs are sequences (`Verif.Link` proves that the intrusive lists behave
like them).  All lists of stubs (of the runner, of each suite and case, and the framework's own) are
kept in one sequence, newest first, each stub tagged with the list it is on; an operation on one list
looks only at the stubs with its tag.  `mprotect` is assumed to succeed.  An `h2_source*` is the
address it patches (two live sources never have the same one); `none` is use of a dead source.
-/
namespace H2.Stub

abbrev Addr := BitVec 64
abbrev Byte := UInt8
abbrev Mem := Addr → Byte

/-- The `n` bytes from `a` on (`memcpy` out of the code). -/
def read (m : Mem) (a : Addr) (n : Nat) : List Byte := (List.range n).map fun i => m (a + BitVec.ofNat 64 i)

/-- `memcpy` of `bs` to `a`. -/
def write (m : Mem) (a : Addr) (bs : List Byte) : Mem := fun x => bs.getD (x - a).toNat (m x)

/-- Little-endian encoding in `k` bytes. -/
def leBytes (n : Nat) : Nat → List Byte
  | 0 => []
  | k + 1 => UInt8.ofNat n :: leBytes (n / 256) k

/-- Little-endian decoding. -/
def le : List Byte → Nat
  | [] => 0
  | b :: bs => b.toNat + 256 * le bs

/-- Sign extension of a `bits`-wide number to 64 bits. -/
def signed (bits n : Nat) : Addr := if n < 2 ^ (bits - 1) then BitVec.ofNat 64 n else BitVec.ofNat 64 n - BitVec.ofNat 64 (2 ^ bits)

/-- `h2_e9_size`, `/repo/source/stub/h2_e9.cpp:6`. -/
def e9Size : Nat := 12

/-- The bytes `h2_e9_set` stores on x86-64, `/repo/source/stub/h2_e9.cpp:30-40`.  Simplification:
line 38 stores eight bytes into the last four of a five-byte array (undefined behaviour on LP64);
the low four are modelled. -/
def jumpCode (src dst : Addr) : List Byte :=
  let delta : Addr := dst - src - 5
  if delta.toInt < -0x7fffffff ∨ 0x7fffffff < delta.toInt then [0x48, 0xB8] ++ leBytes dst.toNat 8 ++ [0xFF, 0xE0]
  else 0xE9 :: leBytes delta.toNat 4

/-- The bytes `h2_e9_set` stores on arm64, `/repo/source/stub/h2_e9.cpp:58-62` (the other branch is
disabled by `1 ||`). -/
def jumpCodeArm (dst : Addr) : List Byte :=
  leBytes (0x58000000 ||| ((8 / 4) <<< 5) ||| 17) 4 ++ leBytes (0xD61F0000 ||| (17 <<< 5)) 4 ++ leBytes dst.toNat 8

/-- `follow_jmp(fp, 1)`, `/repo/source/symbol/h2_cxa.cpp:14-56`, 64-bit. -/
def followJmp (m : Mem) (p : Addr) : Addr :=
  if m p = 0xE9 then p + 5 + signed 32 (le (read m (p + 1) 4))
  else if m p = 0xEB then p + 2 + signed 8 (le (read m (p + 1) 1))
  else if m p = 0xFF ∧ m (p + 1) = 0x25 then BitVec.ofNat 64 (le (read m (p + signed 32 (le (read m (p + 2) 4)) + 6) 8))
  else if m p = 0x48 ∧ m (p + 1) = 0xFF ∧ m (p + 2) = 0x25 then
    BitVec.ofNat 64 (le (read m (p + 1 + signed 32 (le (read m (p + 1 + 2) 4)) + 6) 8))
  else p

/-- `h2_source`, `/repo/source/stub/h2_source.cpp:1-19`. -/
structure Source where
  addr : Addr
  origin : List Byte
  refs : Nat

/-- `h2_stub`, `/repo/source/stub/h2_stubs.cpp:1-5`; `scope` tells the list it is on. -/
structure Stub where
  scope : Nat
  name : Addr
  saved : List Byte
  source : Addr

/-- Code memory, live sources, live stubs (newest first). -/
structure State where
  mem : Mem
  sources : List Source
  stubs : List Stub

/-- `__find`, `/repo/source/stub/h2_source.cpp:25-31`. -/
def State.source? (s : State) (a : Addr) : Option Source := s.sources.find? (fun q => q.addr == a)

/-- `__follow`, `/repo/source/stub/h2_source.cpp:33-45`: the function really patched for a name. -/
def State.resolve (s : State) (fp : Addr) : Addr := if (s.source? fp).isSome then fp else followJmp s.mem fp

/-- `h2_sources::add`, `/repo/source/stub/h2_source.cpp:49-59`. -/
def State.addSource (s : State) (fp : Addr) : State × Addr :=
  let p := s.resolve fp
  match s.source? p with
  | some _ => ({ s with sources := s.sources.map fun q => if q.addr = p then { q with refs := q.refs + 1 } else q }, p)
  | none => ({ s with sources := { addr := p, origin := read s.mem p e9Size, refs := 1 } :: s.sources }, p)

/-- `h2_sources::del`, `/repo/source/stub/h2_source.cpp:61-67`, with the destructor of `h2_source`,
line 14. -/
def State.delSource (s : State) (p : Addr) : Option State :=
  match s.source? p with
  | none => none
  | some q =>
    if q.refs - 1 = 0 then
      some { s with mem := write s.mem p q.origin, sources := s.sources.filter fun r => r.addr ≠ p }
    else some { s with sources := s.sources.map fun r => if r.addr = p then { r with refs := r.refs - 1 } else r }

/-- `h2_stubs_get`, `/repo/source/stub/h2_stubs.cpp:25-31`. -/
def isStub (c : Nat) (fp : Addr) (t : Stub) : Bool := t.scope == c && t.name == fp

/-- `h2_stub::stub`, `/repo/source/stub/h2_stubs.cpp:19-22`, with `h2_source::set`. -/
def State.patch (s : State) (p dst : Addr) : Option State :=
  match s.source? p with
  | none => none
  | some _ => some { s with mem := write s.mem p (jumpCode p dst) }

/-- The constructor of `h2_stub`, `/repo/source/stub/h2_stubs.cpp:7-11`, and the push in
`h2_stubs::add`. -/
def State.newStub (s : State) (c : Nat) (fp : Addr) : State × Addr :=
  let r := s.addSource fp
  ({ r.1 with stubs := { scope := c, name := fp, saved := read r.1.mem r.2 e9Size, source := r.2 } :: r.1.stubs }, r.2)

/-- `h2_stubs::add`, `/repo/source/stub/h2_stubs.cpp:33-42`. -/
def State.stub (s : State) (c : Nat) (fp dst : Addr) : Option State :=
  match s.stubs.find? (isStub c fp) with
  | some t => s.patch t.source dst
  | none => let r := s.newStub c fp; r.1.patch r.2 dst

/-- `stub->x.out(); delete stub;`, `/repo/source/stub/h2_stubs.cpp:48-49` and the destructor, 12-18. -/
def State.dropStub (s : State) (t : Stub) : Option State :=
  match s.source? t.source with
  | none => none
  | some _ =>
    let mem := write s.mem t.source t.saved
    State.delSource { s with mem := mem, stubs := s.stubs.eraseP (isStub t.scope t.name) } t.source

/-- `h2_stubs::clear(stubs, srcfp)`, `/repo/source/stub/h2_stubs.cpp:44-51`. -/
def State.unstub (s : State) (c : Nat) (fp : Addr) : Option State :=
  match s.stubs.find? (isStub c fp) with
  | some t => s.dropStub t
  | none => some s

/-- The loop of `h2_stubs::clear(stubs)`, `/repo/source/stub/h2_stubs.cpp:55-58`. -/
def clearLoop : List Stub → State → Option State
  | [], s => some s
  | t :: ts, s =>
    match s.dropStub t with
    | none => none
    | some s => clearLoop ts s

/-- `h2_stubs::clear(stubs)`, `/repo/source/stub/h2_stubs.cpp:53-59`. -/
def State.clear (s : State) (c : Nat) : Option State := clearLoop (s.stubs.filter fun t => t.scope == c) s

/-- The constructor of `h2_stub_temporary_restore`, `/repo/source/stub/h2_temporary.cpp:1-8`: the
state and the bytes kept (`none` if the function is not stubbed). -/
def State.restoreBegin (s : State) (fp : Addr) : State × Option (List Byte) :=
  match s.source? (s.resolve fp) with
  | some q => ({ s with mem := write s.mem q.addr q.origin }, some (read s.mem q.addr e9Size))
  | none => (s, none)

/-- Its destructor, `/repo/source/stub/h2_temporary.cpp:10-14`; `kept = none` is an uninitialised
array, used only if the function was stubbed meanwhile. -/
def State.restoreEnd (s : State) (fp : Addr) (kept : Option (List Byte)) : Option State :=
  match s.source? (s.resolve fp) with
  | some q =>
    match kept with
    | some bs => some { s with mem := write s.mem q.addr bs }
    | none => none
  | none => some s

/-- `h2_runner::stub`, `/repo/source/core/h2_runner.cpp:180-186`; `scope` is the list of the running
case, else suite, else the runner. -/
def State.runnerStub (s : State) (scope : Nat) (src dst : Addr) : Option State :=
  if src = 0 ∨ dst = 0 then some s else s.stub scope src dst

/-- `h2_runner::unstub`, `/repo/source/core/h2_runner.cpp:188-194`. -/
def State.runnerUnstub (s : State) (scope : Nat) (src : Addr) : Option State :=
  if src = 0 then some s else s.unstub scope src

end H2.Stub
