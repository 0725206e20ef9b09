import Verif.Dns.Model
/-
Specification of the substitution of name resolution, on histories of calls.
-/
namespace H2.Dns

/-- Case `c` is the one the runner last turned to before call `i`. -/
def Current (ops : List Op) (i c : Nat) : Prop :=
  ∃ j, j < i ∧ ops[j]? = some (.begins c) ∧ ∀ k c', j < k → k < i → ops[k]? ≠ some (.begins c')

/-- Call `i` is a setting that still holds: the case it was made in has not ended since. -/
def Live (ops : List Op) (i : Nat) (args : List (Option Text)) : Prop :=
  ops[i]? = some (.set args) ∧ args ≠ [] ∧ ∀ c k, Current ops i c → i < k → ops[k]? ≠ some (.ends c)

/-- The names among the arguments: what is no address. -/
def names (inet : Inet) (args : List (Option Text)) : List Text := (args.filterMap id).filter fun p => inet p = none

/-- `host` is the name that is resolved: the first of the shortest names; `*`, which stands for all, when only addresses are given. -/
def IsHost (inet : Inet) (args : List (Option Text)) (host : Text) : Prop :=
  names inet args = [] ∧ host = ['*'] ∨
  ∃ before after, names inet args = before ++ host :: after ∧ (∀ n ∈ before, host.length < n.length) ∧ ∀ n ∈ after, host.length ≤ n.length

end H2.Dns
