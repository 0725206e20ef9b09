import Verif.Macro.Spec
import Verif.Macro.Mocker
/-
What is to be written for each of the twenty arguments of a mocked function.
-/
namespace H2.Macro

/-- The type of the matcher of an argument. -/
def matcherType (i : Nat) : List Tok := [.id "h2_matcher", .other "<", .id "h2_nth_decay", .other "<", .num (toString i), .comma, .id "Args", .other "...", .other ">>"]

/-- The parameter with a number: of the type for the argument with this number, named after it, with a default. -/
def parameter (i : Nat) : List Tok := matcherType i ++ [.id ("_" ++ toString i), .other "=", .other "{", .other "}"]

/-- The parameter with a number, passed on. -/
def passed (i : Nat) : List Tok := [.id "std", .other "::", .id "forward", .other "<"] ++ matcherType i ++ [.other ">", .lp, .id ("_" ++ toString i), .rp]

/-- The member function that sets the matcher with a number and no other one. -/
def setter (i : Nat) : List Tok :=
  [.id "h2_mocker", .other "&", .id ("Th" ++ toString i), .lp] ++ matcherType i ++ [.id "e", .other "=", .other "{", .other "}", .rp, .other "{"] ++
  [.id "if", .lp, .id "checkin_array", .other ".", .id "empty", .lp, .rp, .rp, .id "Any", .lp, .rp, .other ";"] ++
  [.id "std", .other "::", .id "get", .other "<", .num (toString i), .other ">", .lp, .id "matcher_array", .other ".", .id "back", .lp, .rp, .rp, .other "=", .id "e", .other ";"] ++
  [.id "return", .other "*", .id "this", .other ";", .other "}"]

/-- The names in these texts. -/
def mockerNames : List String :=
  ["h2_matcher", "h2_nth_decay", "Args", "std", "forward", "h2_mocker", "e", "if", "checkin_array", "empty", "Any", "get", "matcher_array", "back", "return", "this"] ++
  (List.range 20).map (fun i => "_" ++ toString i) ++ (List.range 20).map (fun i => "Th" ++ toString i)

/-- The program does not define macros with one of these names. -/
def Unharmed (user : String → Option Macro) : Prop := ∀ s ∈ mockerNames, user s = none

end H2.Macro
