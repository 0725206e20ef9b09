import Verif.Matcher.Model
/-
Matching as the program the user sees: which of their own functions are called while a value is
set against a matcher, and in which order.

`Verif.Matcher.Model` takes every base matcher as a pure test.  But a matcher the user defines with
`H2MATCHER` has a body the user writes, and `Member` calls a method of the user's class: both may
have effects and may answer differently from one call to the next.  Here matching is a program whose
steps are these calls; the answers come from an environment with a state.
The context `C`, the modifiers `Cfg`, the ranges `Rng`, the values `Val`, the shape of a failure and
the parts of the container matchers that call nothing are those of `Verif.Matcher.Model`.
-/
namespace H2.Calls
open H2.Matcher

/-- A program that calls the user's functions.  The three calls are
* `ask id v`: the body of the user's own matcher number `id`, `__matches(a)`,
  `/repo/source/matcher/h2_matcher_customize.hpp:3,6`;
* `explain id v`: the message of that matcher, which is an expression the user writes and which is
  written to a stream, `/repo/source/matcher/h2_matcher_customize.hpp:8-10`;
* `call f v`: a method of the object `v` with the arguments written (or the read of one of its data
  members, or of what a pointer points at), `/repo/source/matcher/h2_matches_member.hpp:10,51`,
  `/repo/source/matcher/h2_matches_pointee.hpp:9`.
Simplified: exceptions thrown by the user's functions, null pointers, and the functions by which the
user's types are printed or compared are left out. -/
inductive Prog (α : Type) where
  | ret (x : α)
  | ask (id : Nat) (v : Val) (k : Bool → Prog α)
  | explain (id : Nat) (v : Val) (k : Prog α)
  | call (f : Nat) (v : Val) (k : Val → Prog α)

/-- One program after the other (the `;` of C++). -/
def Prog.bind {α β : Type} : Prog α → (α → Prog β) → Prog β
  | .ret x, g => g x
  | .ask id v k, g => .ask id v (fun b => (k b).bind g)
  | .explain id v k, g => .explain id v (k.bind g)
  | .call f v k, g => .call f v (fun w => (k w).bind g)

instance : Monad Prog where
  pure := Prog.ret
  bind := Prog.bind

mutual
/-- Matcher expressions with the user's functions in them.  An object is a handle, a value of `Val`;
what it holds is in the state of the environment. -/
inductive X where
  /-- A matcher the user defines, `H2MATCHER`, `/repo/source/matcher/h2_matcher_customize.hpp:1-21`. -/
  | own (id : Nat)
  /-- A base matcher of the library, which calls nothing of the user's; `leaf` of `Verif.Matcher.Model`. -/
  | plain (test : Bool → Bool → Val → Bool)
  /-- `h2_member_data_matches`, `h2_member_method_matches` (`clear = false`),
  `/repo/source/matcher/h2_matches_member.hpp:1-14,42-55`, and `h2_pointee_matches` (`clear = true`),
  `/repo/source/matcher/h2_matches_pointee.hpp:1-15`. -/
  | member (clear : Bool) (f : Nat) (m : X)
  /-- `h2_polymorphic_matcher`, `/repo/source/matcher/h2_matcher.hpp:22-71`. -/
  | poly (g : Cfg) (m : X)
  /-- `h2_not_matches`, `/repo/source/matcher/h2_matches_logic.hpp:1-15`. -/
  | not (m : X)
  /-- `h2_conditional_matches`, `/repo/source/matcher/h2_matches_logic.hpp:17-33`. -/
  | cond (b : Bool) (t f : X)
  /-- `h2_and_matches`, `/repo/source/matcher/h2_matches_logic.hpp:35-66`. -/
  | and (l r : X)
  /-- `h2_or_matches`, `/repo/source/matcher/h2_matches_logic.hpp:68-102`. -/
  | or (l r : X)
  /-- `h2_allof_matches`, `/repo/source/matcher/h2_matches_logic.hpp:104-135`. -/
  | allOf (ms : Xs)
  /-- `h2_anyof_matches`, `/repo/source/matcher/h2_matches_logic.hpp:137-173`. -/
  | anyOf (ms : Xs)
  /-- `h2_noneof_matches`, `/repo/source/matcher/h2_matches_logic.hpp:175-209`. -/
  | noneOf (ms : Xs)
  /-- `h2_pair_matches`, `/repo/source/matcher/h2_matches_container.hpp:26-55`. -/
  | pair (k v : X)
  /-- `h2_every1_matches`, `/repo/source/matcher/h2_matches_container.hpp:96-120`. -/
  | every (r : Rng) (m : X)
  /-- `h2_has1_matches`, `/repo/source/matcher/h2_matches_container.hpp:133-172`; `keyOnly` is the HasKey scenario. -/
  | has (r : Rng) (keyOnly : Bool) (m : X)
  /-- `h2_listof_matches`, `/repo/source/matcher/h2_matches_container.hpp:191-230`. -/
  | listOf (r : Rng) (ms : Xs)
  /-- `h2_countof_matches`, `h2_maxmin_matches`, `h2_avg_matches`, `/repo/source/matcher/h2_matches_container.hpp:232-283`. -/
  | stat (s : Stat) (r : Rng) (m : X)
/-- The matchers of a `h2_matcher_tuple`, in order, `/repo/source/matcher/h2_matches_container.hpp:1-24`. -/
inductive Xs where
  | nil
  | cons (m : X) (ms : Xs)
end

/-- The loop of Every, `/repo/source/matcher/h2_matches_container.hpp:104-110`: `f` matches one element. -/
def everyLoop (inside : Int → Bool) (f : Val → Prog (Option Fail)) : Int → List Val → Prog (List Fail)
  | _, [] => .ret []
  | i, x :: xs =>
    if inside i then do
      let fail ← f x
      let fails ← everyLoop inside f (i + 1) xs
      .ret (fail.toList ++ fails)
    else everyLoop inside f (i + 1) xs

/-- The loop of Has with its early `break`, `/repo/source/matcher/h2_matches_container.hpp:156-163`. -/
def hasLoop (inside : Int → Bool) (f : Val → Prog (Option Fail)) (times : Int) : Int → List Val → Int → Prog Int
  | _, [], found => .ret found
  | i, x :: xs, found =>
    if inside i then do
      let fail ← f x
      if fail.isNone then
        if found + 1 ≥ times then .ret (found + 1) else hasLoop inside f times (i + 1) xs (found + 1)
      else hasLoop inside f times (i + 1) xs found
    else hasLoop inside f times (i + 1) xs found

/-- What Has sets its matcher against: the key of an entry in the HasKey scenario,
`/repo/source/matcher/h2_matches_container.hpp:144,159`. -/
def entry (keyOnly : Bool) (x : Val) : Val := if keyOnly then x.key else x

/-- A step of ListOf: the element is compared if it is there, otherwise the matcher is not run,
`/repo/source/matcher/h2_matches_container.hpp:204-214`. -/
def listStep (i : Nat) (f : Val → Prog (Option Fail)) : Option Val → Prog (List Fail)
  | none => .ret [Fail.mk (some i) []]
  | some x => do
    let fail ← f x
    .ret (fail.map (Fail.withSeq i)).toList

/-- A step of a statistics matcher, `H2_MATCHES_STATS`, `/repo/source/matcher/h2_matches_container.hpp:87-94`: the
matcher is run unless there is no value. -/
def statStep (c : C) (f : Val → Prog (Option Fail)) : Option Rat → Prog (Option Fail)
  | none => .ret (conclude c false [])
  | some q => do
    let fail ← f (.num q)
    .ret (conclude c fail.isNone [])

mutual
/-- `matches(a, c)` of every kind of matcher; line references on the constructors of `X`. -/
def run : X → Val → C → Prog (Option Fail)
  | .own id, a, c =>
    .ask id a (fun b => if c.fit b then .ret none else .explain id a (.ret (some (.mk none []))))
  | .plain test, a, c => .ret (conclude c (test c.caseless c.squash a) [])
  | .member clear f m, a, c => .call f a (fun v => run m v (if clear then c.clearSize else c))
  | .poly g m, a, c => run m a (g.configure c)
  | .not m, a, c => run m a (c.setNegative (!c.negative))
  | .cond b t f, a, c => if b then run t a c else run f a c
  | .and l r, a, c => do
    let f1 ← run l a (c.setNegative false)
    let f2 ← run r a (c.setNegative false)
    .ret (conclude c (f1.toList ++ f2.toList).isEmpty (f1.toList ++ f2.toList))
  | .or l r, a, c => do
    let f1 ← run l a (c.setNegative false)
    let f2 ← run r a (c.setNegative false)
    .ret (conclude c (f1.isNone || f2.isNone) (f1.toList ++ f2.toList))
  | .allOf ms, a, c => do
    let fails ← allLoop ms a (c.setNegative false) 0
    .ret (conclude c fails.isEmpty fails)
  | .anyOf ms, a, c => do
    let r ← anyLoop ms a (c.setNegative false) 0
    .ret (conclude c r.1 r.2)
  | .noneOf ms, a, c => do
    let fails ← noneLoop ms a (c.setNegative false) 0
    .ret (conclude c fails.isEmpty fails)
  | .pair k v, a, c =>
    match a with
    | .pair ka va => do
      let f1 ← run k ka (c.clearSize.setNegative false)
      let f2 ← run v va (c.clearSize.setNegative false)
      .ret (conclude c (f1.toList ++ f2.toList).isEmpty (f1.toList ++ f2.toList))
    | _ => .ret (some (.mk none []))
  | .every r m, a, c => do
    let fails ← everyLoop (rangeIn r c) (fun x => run m x (c.clearSize.setNegative false)) 0 a.elems
    .ret (conclude c fails.isEmpty fails)
  | .has r keyOnly m, a, c => do
    let found ← hasLoop (rangeIn r c) (fun x => run m (entry keyOnly x) (c.clearSize.setNegative false)) c.times 0 a.elems 0
    .ret (conclude c (found ≥ c.times) [])
  | .listOf r ms, a, c => do
    let fails ← listLoop ms a.elems (max c.rangeStart r.start) (c.clearSize.setNegative false) 0
    .ret (conclude c fails.isEmpty fails)
  | .stat s r m, a, c =>
    statStep c (fun v => run m v (c.clearSize.setNegative false)) (statValue s r c a.elems)
/-- The loop of AllOf, `/repo/source/matcher/h2_matches_logic.hpp:115-120`. -/
def allLoop : Xs → Val → C → Nat → Prog (List Fail)
  | .nil, _, _, _ => .ret []
  | .cons m ms, a, c, i => do
    let fail ← run m a c
    let fails ← allLoop ms a c (i + 1)
    .ret ((fail.map (Fail.withSeq i)).toList ++ fails)
/-- The loop of AnyOf with its early `break`, `/repo/source/matcher/h2_matches_logic.hpp:148-158`. -/
def anyLoop : Xs → Val → C → Nat → Prog (Bool × List Fail)
  | .nil, _, _, _ => .ret (false, [])
  | .cons m ms, a, c, i => do
    let fail ← run m a c
    match fail with
    | none => .ret (true, [])
    | some f => do
      let r ← anyLoop ms a c (i + 1)
      .ret (r.1, f.withSeq i :: r.2)
/-- The loop of NoneOf, `/repo/source/matcher/h2_matches_logic.hpp:186-195`. -/
def noneLoop : Xs → Val → C → Nat → Prog (List Fail)
  | .nil, _, _, _ => .ret []
  | .cons m ms, a, c, i => do
    let fail ← run m a c
    let fails ← noneLoop ms a c (i + 1)
    .ret (match fail with
      | none => .mk (some i) [] :: fails
      | some _ => fails)
/-- The outer loop of ListOf, `/repo/source/matcher/h2_matches_container.hpp:202-216`. -/
def listLoop : Xs → List Val → Int → C → Nat → Prog (List Fail)
  | .nil, _, _, _, _ => .ret []
  | .cons m ms, xs, start, c, i => do
    let here ← listStep i (fun x => run m x c) (pick (i + start) 0 xs)
    let fails ← listLoop ms xs start c (i + 1)
    .ret (here ++ fails)
end

/-- `OK(m, a)` (`oppose = false`) and `KO(m, a)` (`oppose = true`): the program and whether the assertion passes,
`/repo/source/assert/h2_assert.hpp:27-39,90-97`, `/repo/source/assert/h2_assert.cpp:36-53`. -/
def assertion (oppose : Bool) (m : X) (a : Val) : Prog Bool := do
  let fail ← run m a {}
  .ret (stash oppose fail).isNone

/-- The user's functions: what they answer and what they do to a state `σ` (the user's objects and variables). -/
structure Env (σ : Type) where
  /-- the body of an own matcher -/
  ask : Nat → Val → σ → Bool × σ
  /-- the message of an own matcher -/
  explain : Nat → Val → σ → σ
  /-- a method, the read of a data member or of what is pointed at -/
  call : Nat → Val → σ → Val × σ

/-- A program run with the user's functions. -/
def exec {σ α : Type} (e : Env σ) : Prog α → σ → α × σ
  | .ret x, s => (x, s)
  | .ask id v k, s => exec e (k (e.ask id v s).1) (e.ask id v s).2
  | .explain id v k, s => exec e k (e.explain id v s)
  | .call f v k, s => exec e (k (e.call f v s).1) (e.call f v s).2

end H2.Calls
