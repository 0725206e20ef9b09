import Verif.Backtrace.Model
import Verif.Lookup.Spec
/-
What a call stack is, how the system describes it, and which functions a history of UNMEM names.
-/
namespace H2.Backtrace
open H2.Stub (Addr Mem)

/-- What the dynamic linker knows of a code address: the function it is in, if that is an exported one, or else only the file. -/
inductive Known where
  | function (file name : Text) (start : Addr)
  | file (file : Text) (base : Addr)
  | nothing

/-- A frame of a call stack: the return address, and what is known of it. -/
structure Frame where
  addr : Addr
  known : Known

def hex (n : Nat) : Text := Nat.toDigits 16 n

/-- How `backtrace_symbols` of the GNU C library describes a frame. -/
def Frame.line (f : Frame) : Text :=
  match f.known with
  | .function p n s => p ++ "(".toList ++ n ++ "+0x".toList ++ hex (f.addr - s).toNat ++ ") [0x".toList ++ hex f.addr.toNat ++ "]".toList
  | .file p b => p ++ "(+0x".toList ++ hex (f.addr - b).toNat ++ ") [0x".toList ++ hex f.addr.toNat ++ "]".toList
  | .nothing => "[0x".toList ++ hex f.addr.toNat ++ "]".toList

/-- The path of the file has no parenthesis, and the name is an identifier as compilers make them: it begins with a letter or an
underscore, and has neither `)` nor `+` in it. -/
def Frame.Proper (f : Frame) : Prop :=
  match f.known with
  | .function p n _ => p ≠ [] ∧ '(' ∉ p ∧ (∃ c cs, n = c :: cs ∧ (c = '_' ∨ c.isAlpha = true)) ∧ ')' ∉ n ∧ '+' ∉ n
  | .file p _ => p ≠ [] ∧ '(' ∉ p
  | .nothing => True

/-- The frame is a call from within the function that begins at `a`, and it is known to be. -/
def Frame.Runs (f : Frame) (a : Addr) : Prop := ∃ p n, f.known = .function p n a

/-- No file is loaded where one of these functions begins. -/
def Frame.Apart (f : Frame) (fs : List Addr) : Prop := ∀ p b, f.known = .file p b → b ∉ fs

/-- The function at `a` does not begin with a jump. -/
def NoJump (m : Mem) (a : Addr) : Prop :=
  m a ≠ 0xE9 ∧ m a ≠ 0xEB ∧ ¬ (m a = 0xFF ∧ m (a + 1) = 0x25) ∧ ¬ (m a = 0x48 ∧ m (a + 1) = 0xFF ∧ m (a + 2) = 0x25)

/-- The functions an operation names: the function itself, or those the name stands for (`H2.Lookup.Stands`, C67), sixteen at most. -/
inductive Names (P : H2.Lookup.Program) (base : Addr) : Op → List Addr → Prop
  | fp {m a} : NoJump m a → a ≠ 0 → Names P base (.fp m a) [a]
  | name {m nm} {all : List H2.Nm.Symbol} : nm ≠ [] → H2.Lookup.Stands P nm all → all.length ≤ 16 →
      (∀ p ∈ all, NoJump m (base + BitVec.ofNat 64 p.addr) ∧ base + BitVec.ofNat 64 p.addr ≠ 0) →
      Names P base (.name m nm) (all.map fun p => base + BitVec.ofNat 64 p.addr)
  | lookup {o} : Names P base (.lookup o) []

/-- All functions a history names, in order. -/
inductive Named (P : H2.Lookup.Program) (base : Addr) : List Op → List Addr → Prop
  | nil : Named P base [] []
  | cons {o ops as bs} : Names P base o as → Named P base ops bs → Named P base (o :: ops) (as ++ bs)

/-- The frame is in `main`, or in what calls `main`. -/
def Frame.IsMain (f : Frame) : Prop := ∃ p n s, f.known = .function p n s ∧ (n = "main".toList ∨ n = "__libc_start_main".toList)

/-- What is told of a frame: what `addr2line` finds, or else the function as the user calls it (`dem`), or else what the system says. -/
def told (dem : Text → Text) : Frame × Option Text → Text
  | (_, some p) => p
  | (⟨_, .function _ n _⟩, none) => dem n
  | (f, none) => f.line

/-- What `addr2line` and demangling give is not empty; names are not longer than 1023 characters. -/
structure Usual (dem : Text → Text) (f : Frame × Option Text) : Prop where
  proper : f.1.Proper
  found : f.2 ≠ some []
  name : ∀ p n s, f.1.known = .function p n s → dem n ≠ [] ∧ n.length ≤ 1023
  empty : dem [] = []

end H2.Backtrace
