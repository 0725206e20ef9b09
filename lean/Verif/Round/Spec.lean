import Verif.Round.Model
/-
The numbers of a floating type, and what it is to round to the nearest of them.
-/
namespace H2.Round
open H2.Matcher (rabs)

/-- Numbers with `p` binary digits and any exponent. -/
def Representable (p : Nat) (x : Rat) : Prop := ∃ (m k : Int), m.natAbs < 2 ^ p ∧ x = m * (2 : Rat) ^ k

/-- `Range` accepts `a`; it rejects it; it never returns. -/
def Accepts (start stop step a : Rat) : Prop := ∃ fuel, rangeLoop a stop step fuel start = some true
def Rejects (start stop step a : Rat) : Prop := ∃ fuel, rangeLoop a stop step fuel start = some false
def Hangs (start stop step a : Rat) : Prop := ∀ fuel, rangeLoop a stop step fuel start = none

end H2.Round
