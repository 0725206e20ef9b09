import Verif.Mock.Model
/-
What the properties of mocked functions mean, without the scanning loop.
-/
namespace H2.Mock

/-- An expectation accepts arguments when each argument passes the matcher at its position. -/
def Accepts (e : Exp V R) (args : List V) : Prop := ∀ k a, args[k]? = some a → e.matchers k a = true

/-- The count of an expectation is in its bounds. -/
def InBounds (k : Checkin) : Prop := k.least ≤ k.call ∧ k.call ≤ k.most

/-- An expectation takes the call for itself instead of looking at the next one: it has not reached
its maximum, and in non-greedy mode it still lacks calls. -/
def Takes (greed : Bool) (k : Checkin) : Prop := k.call ≠ k.most ∧ (greed = true ∨ k.call < k.least)

/-- Expectation number `j` is the one a call with `args` belongs to.  Let `first` be the first
accepting expectation from the one that took the previous call on.  The call belongs to the first
expectation, within the unbroken stretch of accepting ones starting at `first`, that takes it; to
the last of the stretch if none does. -/
structure BelongsTo (m : Mocker V R) (args : List V) (j : Nat) : Prop where
  bound : j < m.exps.length
  exist : ∃ first, m.index ≤ first ∧ first ≤ j ∧
    (∀ i e, m.index ≤ i → i < first → m.exps[i]? = some e → ¬ Accepts e args) ∧
    (∀ i e, first ≤ i → i ≤ j → m.exps[i]? = some e → Accepts e args) ∧
    (∀ i e, first ≤ i → i < j → m.exps[i]? = some e → ¬ Takes m.greed e.checkin) ∧
    ((∃ e, m.exps[j]? = some e ∧ Takes m.greed e.checkin) ∨ ∀ e, m.exps[j + 1]? = some e → ¬ Accepts e args)

/-- The expectation after `n` more calls counted for it. -/
def Exp.plus (e : Exp V R) (n : Nat) : Exp V R :=
  { e with checkin := { e.checkin with call := e.checkin.call + (n : Int) } }

/-- `es'` is `es` with one more call counted for expectation `j`. -/
def Counted (es es' : List (Exp V R)) (j : Nat) : Prop :=
  ∀ i, es'[i]? = es[i]?.map fun e =>
    if i = j then { e with checkin := { e.checkin with call := e.checkin.call + 1 } } else e

/-- A sequence of calls and the end-of-case check produce no failure. -/
def Passes (m : Mocker V R) (as : List (List V)) : Prop :=
  ∃ m' os, m.calls as = some (m', os) ∧ (∀ o ∈ os, o.charged ≠ none ∧ o.wrong = []) ∧ m'.check = []

/-- The calls can be handed out to the expectations (`js` gives the expectation of each call) in
order, every call accepted by its expectation and every count ending in its bounds. -/
structure Plan (m : Mocker V R) (as : List (List V)) (js : List Nat) : Prop where
  length : js.length = as.length
  start : ∀ j ∈ js, m.index ≤ j
  sorted : js.Pairwise (· ≤ ·)
  accepted : ∀ (k : Nat) (j : Nat) (a : List V), js[k]? = some j → as[k]? = some a → ∃ e, m.exps[j]? = some e ∧ Accepts e a
  bounds : ∀ (i : Nat) (e : Exp V R), m.exps[i]? = some e →
    e.checkin.least ≤ e.checkin.call + ((js.count i : Nat) : Int) ∧ e.checkin.call + ((js.count i : Nat) : Int) ≤ e.checkin.most

/-- The expectation numbers `i, i+1, …`, each as often as its minimum says. -/
def slots : List (Exp V R) → Nat → List Nat
  | [], _ => []
  | e :: es, i => List.replicate e.checkin.least.toNat i ++ slots es (i + 1)

end H2.Mock
