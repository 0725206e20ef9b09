import Verif.Mock.Model
/-
Model of mocks at work: what a call of a mocked function runs, and what is called from there.  A mock is
found by the place in the source where it is written; while it works, the function it is for has its own
code again.

One case is modelled, starting without stubs.  Functions, places and fakes are numbers; what the code of a
function or a fake does is a list of actions for each list of arguments.  That the bytes of a jump lead where
they should is C31; which expectation a call is charged to is C28.
-/
namespace H2.Nest
open H2.Mock (Mocker Outcome)

/-- What a call of a function runs. -/
inductive Code where
  /-- the function itself -/
  | own
  /-- a jump to the mock written at place `p` -/
  | mock (p : Nat)
  /-- a jump to the fake `k` of `STUB` -/
  | fake (k : Nat)
  deriving DecidableEq

/-- What a test or a function does. -/
inductive Act (V : Type) where
  | call (f : Nat) (args : List V)
  /-- an assertion, whether it holds -/
  | check (holds : Bool)
  /-- `MOCK(f, …).Once(…)…` written at place `p`; `m` is what the calls behind it build -/
  | mock (p f : Nat) (m : Mocker V Nat)
  /-- `STUB(f, fake)` -/
  | stub (f k : Nat)
  /-- `UNSTUB(f)` -/
  | unstub (f : Nat)

/-- What happened. -/
inductive Event (V : Type) where
  /-- a function ran -/
  | own (f : Nat) (args : List V)
  /-- a fake, or the reaction of a mock, ran -/
  | fake (k : Nat) (args : List V)
  /-- a call was reported by the mock at `p` -/
  | wrong (p : Nat) (args : List V)
  /-- an assertion failed -/
  | failed
  deriving DecidableEq

/-- How an action ends. -/
inductive Exit where
  | done
  /-- a failure left the case with `longjmp` -/
  | jump
  deriving DecidableEq

/-- The program under test and the fakes. -/
structure Env (V : Type) where
  body : Nat → List V → List (Act V)
  fake : Nat → List V → List (Act V)
  /-- `-c`, `O.continue_assert` -/
  cont : Bool

/-- What the library remembers. -/
structure St (V : Type) where
  /-- the first bytes of each function -/
  code : Nat → Code
  /-- there is an `h2_stub` for the function -/
  known : Nat → Bool
  /-- the singletons `h2_mocker<Counter, …>`: `srcfp` and the expectations -/
  mockers : Nat → Option (Nat × Mocker V Nat)
  /-- the list `mocks` of the case, newest first -/
  listed : List Nat
  log : List (Event V)

variable {V : Type}

/-- Note an event. -/
def St.note (e : Event V) (s : St V) : St V := { s with log := s.log ++ [e] }

/-- Write the first bytes of a function. -/
def St.write (f : Nat) (c : Code) (s : St V) : St V := { s with code := fun g => if g = f then c else s.code g }

/-- `h2_stubs::add`, `/repo/source/stub/h2_stubs.cpp:33-42`. -/
def St.stub (f : Nat) (c : Code) (s : St V) : St V :=
  { s.write f c with known := fun g => if g = f then true else s.known g }

/-- `h2_stubs::clear` of one function, `/repo/source/stub/h2_stubs.cpp:44-51`; `saved_opcode` are the bytes of the
function itself. -/
def St.unstub (f : Nat) (s : St V) : St V :=
  if s.known f then { s.write f .own with known := fun g => if g = f then false else s.known g } else s

/-- Store the expectations at a place. -/
def St.keep (p f : Nat) (m : Mocker V Nat) (s : St V) : St V :=
  { s with mockers := fun q => if q = p then some (f, m) else s.mockers q }

/-- `h2_mocker::I(srcfp, srcfn, filine)` and `mock()`, `/repo/source/mock/h2_mocker.hpp:106-121`,
`/repo/source/mock/h2_mocker.cpp:14-19`, with the expectations written behind it: `reset`, into the list, stub. -/
def St.mock (p f : Nat) (m : Mocker V Nat) (s : St V) : St V :=
  { (s.keep p f m).stub f (.mock p) with listed := p :: s.listed.filter (· ≠ p) }

/-- A failed assertion, `/repo/source/core/h2_runner.cpp:203-208`, `/repo/source/core/h2_case.cpp:26-37`. -/
def St.fail (cont : Bool) (e : Event V) (s : St V) : St V × Exit := (s.note e, if cont then .done else .jump)

/-- Was a call reported? -/
def reported (o : Outcome) : Bool := !o.wrong.isEmpty || o.charged.isNone

/-- What `h2_stub_temporary_restore` does first, `/repo/source/stub/h2_temporary.cpp:1-8`. -/
def St.lift (g : Nat) (s : St V) : St V := if s.known g then s.write g .own else s

/-- What it does at the end of the scope, `/repo/source/stub/h2_temporary.cpp:10-14`; `longjmp` passes it by.  With
a stub that was not there before, bytes are written that were never saved: `none`. -/
def St.lower (g : Nat) (before : St V) (r : St V × Exit) : Option (St V × Exit) :=
  if r.2 = .jump then some r
  else if r.1.known g then (if before.known g then some (r.1.write g (before.code g), .done) else none)
  else some r

mutual
/-- Actions one after the other; the number bounds the depth.  `none`: not finished within it, or undefined. -/
def run (env : Env V) : Nat → List (Act V) → St V → Option (St V × Exit)
  | 0, _, _ => none
  | _ + 1, [], s => some (s, .done)
  | n + 1, a :: as, s => (act env n a s).bind fun r => if r.2 = .jump then some r else run env n as r.1
/-- One action. -/
def act (env : Env V) : Nat → Act V → St V → Option (St V × Exit)
  | 0, _, _ => none
  | n + 1, .call f args, s => call env n f args s
  | _ + 1, .check b, s => if b then some (s, .done) else some (s.fail env.cont .failed)
  | _ + 1, .mock p f m, s => some (s.mock p f m, .done)
  | _ + 1, .stub f k, s => some (s.stub f (.fake k), .done)
  | _ + 1, .unstub f, s => some (s.unstub f, .done)
/-- A call of `f`. -/
def call (env : Env V) : Nat → Nat → List V → St V → Option (St V × Exit)
  | 0, _, _, _ => none
  | n + 1, f, args, s =>
    match s.code f with
    | .own => run env n (env.body f args) (s.note (.own f args))
    | .fake k => run env n (env.fake k args) (s.note (.fake k args))
    | .mock p => answer env n p args s
/-- `function_stub` of the mock at `p`, `/repo/source/mock/h2_mocker.hpp:37-44`: `matches`; then the reaction, or the
function that the mock was last made for. -/
def answer (env : Env V) : Nat → Nat → List V → St V → Option (St V × Exit)
  | 0, _, _, _ => none
  | n + 1, p, args, s =>
    (s.mockers p).bind fun t => (t.2.call args).bind fun q =>
      if reported q.2 && !env.cont then some (s.fail false (.wrong p args))
      else
        let s1 := (if reported q.2 then s.note (.wrong p args) else s).keep p t.1 q.1
        match q.1.reply q.2 with
        | .original => (call env n t.1 args (s1.lift t.1)).bind (St.lower t.1 s1)
        | .routine k => (run env n (env.fake k args) ((s1.lift t.1).note (.fake k args))).bind (St.lower t.1 s1)
end

/-- A case begins. -/
def start : St V := { code := fun _ => .own, known := fun _ => false, mockers := fun _ => none, listed := [], log := [] }

/-- `h2_mocks::clear` with the check at the end of a case, `/repo/source/mock/h2_mocks.cpp:9-18`: the places whose
mock is reported, and the numbers of its expectations. -/
def finish (s : St V) : List (Nat × List Nat) :=
  s.listed.filterMap fun p => (s.mockers p).bind fun t => if t.2.check = [] then none else some (p, t.2.check)

end H2.Nest
