import Verif.Around.Model
/-
What a user expects: a call runs the fake of `STUB`, else what the library puts in its place, and that only where
it is wanted.  Nothing here knows of lists of stubs, saved bytes or counts.
-/
namespace H2.Around

/-- What functions are about. -/
inductive Kind where
  | clock | output | hosts | throwing | memory | sockets | other
  deriving DecidableEq

def kind : Fn → Kind
  | .gmtime | .ctime | .asctime | .localtime | .mktime | .gmtime_r | .ctime_r | .asctime_r | .localtime_r => .clock
  | .printf | .vprintf | .putchar | .puts | .fprintf | .fputc | .putc | .fputs | .fwrite | .write | .syslog | .vsyslog => .output
  | .getaddrinfo | .freeaddrinfo | .gethostbyname => .hosts
  | .cxaThrow => .throwing
  | .free | .malloc | .realloc | .calloc | .posixMemalign | .alignedAlloc => .memory
  | .new | .newNothrow | .newArray | .newArrayNothrow | .delete | .deleteNothrow | .deleteArray | .deleteArrayNothrow => .memory
  | .sendto | .recvfrom | .sendmsg | .recvmsg | .send | .recv | .accept | .connect => .sockets
  | .plain _ => .other

/-- Where in a case we are: the stubs in force, and whether inside of `SOCK` and of an unmem block. -/
structure Env where
  stubs : Fn → Option Nat
  sock : Bool
  unmem : Bool

def Env.empty : Env := { stubs := fun _ => none, sock := false, unmem := false }

/-- Has the library something in the place of `f` here? -/
def replaced (check : Bool) (e : Env) (f : Fn) : Bool :=
  match kind f with
  | .clock => check
  | .output | .hosts | .throwing => true
  | .memory => check && !e.unmem
  | .sockets => e.sock
  | .other => false

/-- What a call of `f` is expected to run: inside of `SOCK` the functions of sockets are those of `SOCK`; otherwise
the stub, and without one what the library has in its place. -/
def expected (check : Bool) (e : Env) (f : Fn) : Code :=
  if kind f = .sockets ∧ e.sock = true then .lib
  else match e.stubs f with
    | some k => .fake k
    | none => if replaced check e f then .lib else .own

/-- What the calls of a program are expected to run, and the stubs afterwards. -/
def meaning (check : Bool) : Prog → Env → Trace × (Fn → Option Nat) × Exit
  | .skip, e => ([], e.stubs, .done)
  | .seq p q, e =>
    match meaning check p e with
    | (t, b, .jump) => (t, b, .jump)
    | (t, b, .done) => let r := meaning check q { e with stubs := b }; (t ++ r.1, r.2)
  | .call f, e => ([(f, expected check e f)], e.stubs, .done)
  | .stub f k, e => ([], fun g => if g = f then some k else e.stubs g, .done)
  | .unstub f, e => ([], fun g => if g = f then none else e.stubs g, .done)
  | .lookup, e => ([], e.stubs, .done)
  | .sock p, e => meaning check p { e with sock := true }
  | .unmem p, e => meaning check p { e with unmem := true }
  | .fail, e => ([], e.stubs, .jump)

/-- Programs for which it is so: no stubs of the memory functions, no stub of a function of sockets is made or taken
back inside of `SOCK`, blocks of one sort not inside of one another, and no lookups or exceptions in unmem blocks. -/
def Tidy : Prog → (sock unmem : Bool) → Prop
  | .skip, _, _ => True
  | .seq p q, a, b => Tidy p a b ∧ Tidy q a b
  | .call f, _, b => kind f = .throwing → b = false
  | .stub f _, a, _ => kind f ≠ .memory ∧ (kind f = .sockets → a = false)
  | .unstub f, a, _ => kind f ≠ .memory ∧ (kind f = .sockets → a = false)
  | .lookup, _, b => b = false
  | .sock p, a, b => a = false ∧ Tidy p true b
  | .unmem p, a, b => b = false ∧ Tidy p a true
  | .fail, _, _ => True

/-- For a single function of sockets: it is not stubbed or unstubbed inside of `SOCK`, and no `SOCK` is inside of another. -/
def TidySock (f : Fn) : Prog → (sock : Bool) → Prop
  | .seq p q, a => TidySock f p a ∧ TidySock f q a
  | .stub g _, a => g = f → a = false
  | .unstub g, a => g = f → a = false
  | .sock p, a => a = false ∧ TidySock f p true
  | .unmem p, a => TidySock f p a
  | _, _ => True

/-- Does a program stub `f`? -/
def Stubs (f : Fn) : Prog → Prop
  | .seq p q => Stubs f p ∨ Stubs f q
  | .stub g _ => g = f
  | .sock p => Stubs f p
  | .unmem p => Stubs f p
  | _ => False

/-- The calls of one function. -/
def only (f : Fn) (t : Trace) : Trace := t.filter (fun x => x.1 = f)

/-! ### Time -/

/-- The number of days from the first of January 1970 to a day of the Gregorian calendar, months from 0; the formula
of POSIX for seconds since the Epoch. -/
def daysBeforeYear (year : Int) : Int := (year - 1970) * 365 + ((year - 1969) / 4 - (year - 1901) / 100 + (year - 1601) / 400)

/-- POSIX, "Seconds Since the Epoch", for the broken-down time `t` in UTC. -/
def seconds (t : Tm) : Int := t.sec + t.min * 60 + t.hour * 3600 + (t.yday + daysBeforeYear (t.year + 1900)) * 86400

end H2.Around
