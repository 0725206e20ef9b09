import Verif.Nm.Model
import Verif.Stub.Model
import Verif.Message.Model
import Verif.MemText.Model
/-
Model of how STUB, MOCK and UNSTUB find the function they are given: `/repo/source/stub/h2_fp.hpp`, `/repo/source/symbol/h2_load.cpp`,
and of the failure told when they do not: `h2_fail_symbol` of `/repo/source/report/h2_failure.cpp:395-407` (not Windows).
-/
namespace H2.Lookup
open H2.Layout (Word Line brush)
open H2.Stub (Addr)

/-- What the process and its file are: the outputs of `nm` with and without `--demangle` (with `before` as in `Verif.Nm.Model`), the
address of `main`, the virtual table of an object of `h2_vtable_test`, the mangled name of that class, and the words of memory. -/
structure Program where
  before : Char
  dl : List H2.Nm.Line
  ml : List H2.Nm.Line
  mainPtr : Addr
  testTable : Addr
  testName : List Char
  word : Addr → Addr

/-- `h2_nm` and `h2_load`, `/repo/source/symbol/h2_load.hpp:1-8`. -/
structure St where
  nm : H2.Nm.St := {}
  textOffset : Addr := -1
  vtableOffset : Addr := -1

/-- `get_load_text_offset`, `/repo/source/symbol/h2_load.cpp:1-6`. -/
def loadTextOffset (P : Program) (s : H2.Nm.St) : Addr × H2.Nm.St :=
  match H2.Nm.getByName P.before P.dl (some "main".toList) 16 s with
  | ([], s) => (0, s)
  | (p :: _, s) => (P.mainPtr - BitVec.ofNat 64 p.addr, s)

/-- `get_load_vtable_offset`, `/repo/source/symbol/h2_load.cpp:8-17`.  Simplification: the warning printed is left out. -/
def loadVtableOffset (P : Program) (s : H2.Nm.St) : Addr × H2.Nm.St :=
  let r := H2.Nm.getMangle P.ml (some ("_ZTV".toList ++ P.testName)) s
  (P.testTable - BitVec.ofNat 64 r.1, r.2)

/-- `if (I().vtable_offset == -1) …`, `/repo/source/symbol/h2_load.cpp:21`. -/
def setVtable (P : Program) (s : St) : St :=
  if s.vtableOffset = -1 then { s with nm := (loadVtableOffset P s.nm).2, vtableOffset := (loadVtableOffset P s.nm).1 } else s

/-- `vtable_to_ptr`, `/repo/source/symbol/h2_load.cpp:19-23`. -/
def vtableToPtr (P : Program) (s : St) (addr : Nat) : Addr × St := (BitVec.ofNat 64 addr + (setVtable P s).vtableOffset, setVtable P s)

/-- `if (I().text_offset == -1) …`, `/repo/source/symbol/h2_load.cpp:30,40`. -/
def setText (P : Program) (s : St) : St :=
  if s.textOffset = -1 then { s with nm := (loadTextOffset P s.nm).2, textOffset := (loadTextOffset P s.nm).1 } else s

/-- `addr_to_ptr`, `/repo/source/symbol/h2_load.cpp:25-33`. -/
def addrToPtr (P : Program) (s : St) (addr : Nat) : Addr × St := (BitVec.ofNat 64 addr + (setText P s).textOffset, setText P s)

/-- `ptr_to_addr`, `/repo/source/symbol/h2_load.cpp:35-43`. -/
def ptrToAddr (P : Program) (s : St) (ptr : Addr) : Nat × St := ((ptr - (setText P s).textOffset).toNat, setText P s)

/-- The fields of `h2_fail_symbol`, `/repo/source/report/h2_failure.cpp:395-398`. -/
structure Failure where
  symbol : Word
  candidates : List Word := []
  explain : Line := []
deriving DecidableEq

/-- The loop of `h2_fail_symbol::print`, `/repo/source/report/h2_failure.cpp:402-403`, from `i`. -/
def candidateLines : Nat → List Word → List Line
  | _, [] => []
  | i, c :: cs =>
    (["  ".toList] ++ brush [H2.MemText.number i ++ ". ".toList] "dark gray".toList ++ brush [c] "yellow".toList) :: candidateLines (i + 1) cs

/-- `h2_fail_symbol::print`, `/repo/source/report/h2_failure.cpp:399-406`. -/
def Failure.print (f : Failure) : List Line :=
  [brush [if f.candidates.isEmpty then " Not found ".toList else " Find multiple ".toList] "yellow".toList ++ brush [f.symbol] "bold,red".toList] ++
    candidateLines 0 f.candidates ++ (if H2.Layout.lineWidth f.explain ≠ 0 then [f.explain] else [])

/-- What is found: a pointer (0 for null), and the failure told. -/
abbrev Result := Addr × Option Failure

/-- `h2_fp<>::get(const char*)`, `/repo/source/stub/h2_fp.hpp:84-93`. -/
def getByText (P : Program) (s : St) (fn : Word) : Result × St :=
  let r := H2.Nm.getByName P.before P.dl (some fn) 16 s.nm
  let s := { s with nm := r.2 }
  if r.1.length = 1 then
    let a := addrToPtr P s ((r.1.headD ⟨[], 0⟩).addr)
    ((a.1, none), a.2)
  else ((0, some { symbol := fn, candidates := r.1.map (H2.Nm.name s.nm.leading) }), s)

/-- A pointer to a member function, as the compiler keeps it: what `h2_numberfy` takes of it, and the adjustment it drops,
`/repo/source/utils/h2_numberfy.hpp:11-22`. -/
structure MemberPtr where
  ptr : Addr
  adj : Addr := 0

/-- `is_virtual_mfp`, `/repo/source/stub/h2_fp.hpp:199-205`; `low` tells whether the lowest bit marks virtual functions (not so on ARM). -/
def isVirtual (low : Bool) (f : Addr) : Bool :=
  if low then f.toNat % 2 = 1 && (f.toNat - 1) % 8 = 0 && f.toNat < 1000 * 8
  else f.toNat % 8 = 0 && f.toNat < 100 * 8

/-- `get_virtual_mfp`, `/repo/source/stub/h2_fp.hpp:191-198`, of a virtual table. -/
def slot (P : Program) (table : Addr) (f : Addr) : Addr := P.word (table + BitVec.ofNat 64 ((f &&& ~~~1).toNat / 8 * 8))

/-- What `h2_constructible<Class>::O` gives, `/repo/source/stub/h2_fp.hpp:1-74`: an object made with a constructor, at an address above
2, or the number of an error. -/
inductive Maker where
  | object (o : Addr)
  | abstract
  | noConstructor
deriving DecidableEq

/-- `constructible_errors`, `/repo/source/stub/h2_fp.hpp:79`. -/
def Maker.error : Maker → Word
  | .object _ => []
  | .abstract => "abstract ".toList
  | .noConstructor => "non default constructor ".toList

/-- The hint, `/repo/source/stub/h2_fp.hpp:179`. -/
def hint : Line :=
  ["  try: ".toList] ++ brush ["STUB/MOCK(".toList] "yellow".toList ++ brush ["Object".toList] "bold,red".toList ++
    brush [", Class, Method, ...)".toList] "yellow".toList

/-- A class: its mangled and its readable name, and how objects are made. -/
structure Class where
  mangled : Word
  readable : Word
  maker : Maker

/-- The end of `get1`, `/repo/source/stub/h2_fp.hpp:170-183`: without an object. -/
def getByTable (P : Program) (s : St) (c : Class) (f : Addr) : Result × St :=
  let v := H2.Nm.getMangle P.ml (some ("_ZTV".toList ++ c.mangled)) s.nm
  let v := if v.1 = 0 then H2.Nm.getMangle P.ml (some ("_ZTI".toList ++ c.mangled)) v.2 else v
  let s := { s with nm := v.2 }
  if v.1 = 0 then ((0, some { symbol := "vtable of ".toList ++ c.maker.error ++ c.readable, explain := hint }), s)
  else
    let t := vtableToPtr P s v.1
    ((slot P t.1 f, none), t.2)

/-- `get1`, `/repo/source/stub/h2_fp.hpp:159-184`.  Simplification: the constructor and the destructor of the class have no effect. -/
def getMethod (P : Program) (s : St) (low : Bool) (c : Class) (f : MemberPtr) : Result × St :=
  if isVirtual low f.ptr then
    match c.maker with
    | .object o => ((slot P (P.word o) f.ptr, none), s)
    | _ => getByTable P s c f.ptr
  else ((f.ptr, none), s)

/-- `get2`, `/repo/source/stub/h2_fp.hpp:185-189`. -/
def getMethodOf (P : Program) (low : Bool) (o : Addr) (f : MemberPtr) : Addr :=
  if isVirtual low f.ptr then slot P (P.word o) f.ptr else f.ptr

/-- What else uses the symbols and the offsets: backtraces (`/repo/source/symbol/h2_backtrace.cpp:125,135`), exempted functions
(`/repo/source/memory/h2_exempt.cpp:72-77`), and the functions above. -/
inductive Op where
  | text (fn : Word)
  | method (low : Bool) (c : Class) (f : MemberPtr)
  | toPtr (addr : Nat)
  | toAddr (ptr : Addr)
  | find (fn : Word)

/-- One use. -/
def step (P : Program) (s : St) : Op → St
  | .text fn => (getByText P s fn).2
  | .method low c f => (getMethod P s low c f).2
  | .toPtr a => (addrToPtr P s a).2
  | .toAddr p => (ptrToAddr P s p).2
  | .find fn => { s with nm := (H2.Nm.getByName P.before P.dl (some fn) 16 s.nm).2 }

/-- A history of uses. -/
def run (P : Program) (ops : List Op) : St := ops.foldl (step P) {}

/-- What a test has: the code and stubs, the failures of the running case, and whether the test goes on. -/
structure Test where
  stubs : H2.Stub.State
  fails : List Failure := []
  on : Bool := true

/-- `h2_runner::failing`, `/repo/source/core/h2_runner.cpp:203-208`, and `h2_case::failing`, `/repo/source/core/h2_case.cpp:26-35`, of a
failure that is no warning; `inCase` tells whether a case is running, `continue_` is the option `-c`.  Simplification: no debugger. -/
def failing (inCase continue_ : Bool) (f : Option Failure) (t : Test) : Test :=
  match f with
  | none => t
  | some f => if inCase then { t with fails := t.fails ++ [f], on := continue_ } else t

/-- `H2STUB_2`, `/repo/source/stub/h2_stub.hpp:6`: the function is found, then `h2_runner::stub` is called unless the case was left. -/
def stubWith (inCase continue_ : Bool) (scope : Nat) (r : Result) (dst : Addr) (t : Test) : Option Test :=
  let t := failing inCase continue_ r.2 t
  if t.on then (t.stubs.runnerStub scope r.1 dst).map fun s => { t with stubs := s } else some t

/-- `H2UNSTUB_1`, `/repo/source/stub/h2_stub.hpp:12`. -/
def unstubWith (inCase continue_ : Bool) (scope : Nat) (r : Result) (t : Test) : Option Test :=
  let t := failing inCase continue_ r.2 t
  if t.on then (t.stubs.runnerUnstub scope r.1).map fun s => { t with stubs := s } else some t

end H2.Lookup
