import Verif.Json.JeLemmas
import Verif.Json.MatchProps
import Verif.Json.SelectProps
/-
C72: `Je(expected, selector)` compares with the part of the actual text that the selector leads to.
-/
namespace H2.Json.Je
open H2.Json H2.Json.Dual

/-- C72.  A simple value that is written down, folded or not, is read again as the same value. -/
theorem C72_text (m : Expr.Machine) (hm : Negates m) (cast : Rat → Int) (fold : Bool) {x : Json} (h : Simple m x) :
    tree m (linesText (format (number cast) fold ['"'] 0 false [] x)) = .ok x [] := by
  have := shape_text (m := m) (num := number cast) (fun q hq => number_numeral hm cast hq) h
  rw [text_format (number cast) fold ⟨'"', [], rfl, by decide, by decide⟩ (number_visible cast)]
  simp only [label, commaText, if_true, Bool.false_eq_true, if_false, List.nil_append, List.append_nil]
  exact C14_restore m (bare_value' this)

/-- C72.  What is written does not depend on whether lines are folded, whatever the value. -/
theorem C72_fold (m : Expr.Machine) (v : Env) (cast : Rat → Int) (fold fold' caseless negated : Bool) (e sel a : Str) :
    je m v cast fold caseless negated e sel a = je m v cast fold' caseless negated e sel a := by
  have key : ∀ x, linesText (format (number cast) fold ['"'] 0 false [] x) = linesText (format (number cast) fold' ['"'] 0 false [] x) := by
    intro x
    rw [text_format (number cast) fold ⟨'"', [], rfl, by decide, by decide⟩ (number_visible cast),
      text_format (number cast) fold' ⟨'"', [], rfl, by decide, by decide⟩ (number_visible cast)]
  unfold je pick
  simp only [key]

theorem judge_ok {m v caseless negated e a ej aj} (he : tree m e = .ok ej []) (ha : tree m a = .ok aj []) :
    judge m v caseless negated e a = if matches? v caseless ej aj != negated then .passes else .fails := by
  unfold judge; rw [he, ha]

theorem verdict_iff {v caseless negated ej aj} {w : Verdict}
    (h : w = if matches? v caseless ej aj != negated then .passes else .fails) :
    (w = .passes ↔ (Match v caseless ej aj ↔ negated = false)) ∧ (w = .passes ∨ w = .fails) := by
  subst h
  rw [← C11_match]
  cases matches? v caseless ej aj <;> cases negated <;> decide

theorem je_text {m v cast fold caseless negated e sel a aj s} (hs : sel ≠ []) (ha : tree m a = .ok aj [])
    (hp : pick m cast fold a sel caseless = .text s) :
    je m v cast fold caseless negated e sel a = judge m v caseless negated e s := by
  unfold je; rw [if_neg hs, hp]

/-- C72.  Without a selector the matcher passes exactly if the expected tree accepts the actual tree (with `!`: exactly if it does not). -/
theorem C72_whole (m : Expr.Machine) (v : Env) (cast : Rat → Int) (fold caseless negated : Bool) {e a : Str} {ej aj : Json}
    (he : tree m e = .ok ej []) (ha : tree m a = .ok aj []) :
    (je m v cast fold caseless negated e [] a = .passes ↔ (Match v caseless ej aj ↔ negated = false)) ∧
    (je m v cast fold caseless negated e [] a = .passes ∨ je m v cast fold caseless negated e [] a = .fails) := by
  apply verdict_iff
  unfold je; rw [if_pos rfl]; exact judge_ok he ha

/-- C72.  With a selector that leads to a simple value the matcher passes exactly if the expected tree accepts that value (with `!`:
exactly if it does not).  The full statement is without the condition that the value is simple, and is false: see below. -/
theorem C72_selected_partial (m : Expr.Machine) (hm : Negates m) (v : Env) (cast : Rat → Int) (fold caseless negated : Bool)
    {e a sel : Str} {ej aj x : Json} {p : List Step} (he : tree m e = .ok ej []) (ha : tree m a = .ok aj []) (hs : sel ≠ [])
    (hp : Says sel p) (hx : Leads caseless aj p x) (hk : Simple m x) :
    (je m v cast fold caseless negated e sel a = .passes ↔ (Match v caseless ej x ↔ negated = false)) ∧
    (je m v cast fold caseless negated e sel a = .passes ∨ je m v cast fold caseless negated e sel a = .fails) := by
  apply verdict_iff
  have : pick m cast fold a sel caseless = .text (linesText (format (number cast) fold ['"'] 0 false [] x)) := by
    unfold pick; rw [ha]; simp only [(C15_found aj x sel caseless).2 ⟨p, hp, hx⟩]
  rw [je_text hs ha this]
  exact judge_ok he (C72_text m hm cast fold hk)

/-- C72.  If the selector leads to nothing, only because of its last step, then nothing is accepted: the matcher fails, and with `!` it
passes. -/
theorem C72_nothing (m : Expr.Machine) (v : Env) (cast : Rat → Int) (fold caseless negated : Bool) {e a sel : Str} {ej aj y : Json}
    {p : List Step} {c : Step} (he : tree m e = .ok ej []) (ha : tree m a = .ok aj [])
    (hp : Says sel (p ++ [c])) (hy : Leads caseless aj p y) (hc : ¬ ∃ x, Child caseless y c x) :
    je m v cast fold caseless negated e sel a = if negated then .passes else .fails := by
  have hs : sel ≠ [] := by
    rintro rfl
    cases p <;> cases hp
  have h1 : pick m cast fold a sel caseless = .text [] := by
    unfold pick; rw [ha]; simp only [(C15_nothing aj sel caseless).2 ⟨p, c, y, hp, hy, hc⟩]
  have h2 : tree m [] = .ok .absent [] := (C14_parse m [] .absent).2 (.inl ⟨rfl, rfl⟩)
  rw [je_text hs ha h1, judge_ok he h2]
  have : matches? v caseless ej .absent = false := by
    cases h : matches? v caseless ej .absent with
    | false => rfl
    | true => cases (C11_match v caseless ej .absent).1 h
  rw [this]
  cases negated <;> rfl

/-- C72.  If the expected text is ill-formed the failure says so, whatever is selected and whether negated or not. -/
theorem C72_illformed_expected (m : Expr.Machine) (hm : Negates m) (v : Env) (cast : Rat → Int) (fold caseless negated : Bool)
    {e a sel : Str} {aj x : Json} {p : List Step} (he : tree m e = .illformed) (ha : tree m a = .ok aj [])
    (hp : Says sel p) (hx : Leads caseless aj p x) (hk : Simple m x) :
    je m v cast fold caseless negated e sel a = .illformed := by
  by_cases hs : sel = []
  · unfold je judge; rw [if_pos hs, he, ha]
  · have : pick m cast fold a sel caseless = .text (linesText (format (number cast) fold ['"'] 0 false [] x)) := by
      unfold pick; rw [ha]; simp only [(C15_found aj x sel caseless).2 ⟨p, hp, hx⟩]
    rw [je_text hs ha this]
    unfold judge; rw [he, C72_text m hm cast fold hk]

/-- C72.  If the actual text is ill-formed the failure says so, with every selector, whether negated or not. -/
theorem C72_illformed_actual (m : Expr.Machine) (v : Env) (cast : Rat → Int) (fold caseless negated : Bool) {e a : Str} (sel : Str)
    {ej : Json} (he : tree m e = .ok ej [] ∨ tree m e = .illformed) (ha : tree m a = .illformed) :
    je m v cast fold caseless negated e sel a = .illformed := by
  have hj : judge m v caseless negated e a = .illformed := by
    unfold judge; rcases he with he | he <;> rw [he, ha]
  unfold je pick
  rw [ha]
  split <;> exact hj

/-- C72.  If the selector leads to nothing already before its last step, the behaviour is undefined (a member function is called through a
null pointer). -/
theorem C72_undefined (m : Expr.Machine) (v : Env) (cast : Rat → Int) (fold caseless negated : Bool) {e a sel : Str} {aj y : Json}
    {p q : List Step} {c : Step} (ha : tree m a = .ok aj []) (hq : q ≠ [])
    (hp : Says sel (p ++ c :: q)) (hy : Leads caseless aj p y) (hc : ¬ ∃ x, Child caseless y c x) :
    je m v cast fold caseless negated e sel a = .undefined := by
  have hs : sel ≠ [] := by
    rintro rfl
    cases p <;> cases hp
  unfold je pick
  rw [if_neg hs, ha]
  simp only [(C15_undefined aj sel caseless).2 ⟨p, c, q, y, hq, hp, hy, hc⟩]

/-! ### Where the condition is needed -/

/-- A machine with exact numbers. -/
def exactly : Expr.Machine := Expr.builtin { fl := .fin, apply := fun _ _ => .nan }

/-- Finding.  An object with an empty key is accepted by itself without a selector; selected, its text is ill-formed. -/
theorem C72_key_false :
    je exactly exact (fun _ => 0) false false false "{\"\":null}".toList [] "{\"\":null}".toList = .passes ∧
    je exactly exact (fun _ => 0) false false false "{\"\":null}".toList ".a".toList "{\"a\":{\"\":null}}".toList = .illformed := by
  decide +kernel

/-- Finding.  A string with a quotation mark in it is accepted by itself without a selector; selected, its text is ill-formed. -/
theorem C72_quote_false :
    je exactly exact (fun _ => 0) false false false "\"x\\\"y\"".toList [] "\"x\\\"y\"".toList = .passes ∧
    je exactly exact (fun _ => 0) false false false "\"x\\\"y\"".toList ".a".toList "{\"a\":\"x\\\"y\"}".toList = .illformed := by
  decide +kernel

/-- Finding.  A string of two backslashes is accepted by itself without a selector; selected, it has become one backslash. -/
theorem C72_backslash_false :
    je exactly exact (fun _ => 0) false false false "\"\\\\\\\\\"".toList [] "\"\\\\\\\\\"".toList = .passes ∧
    je exactly exact (fun _ => 0) false false false "\"\\\\\\\\\"".toList "[0]".toList "[\"\\\\\\\\\"]".toList = .fails ∧
    je exactly exact (fun _ => 0) false false false "\"\\\\\"".toList "[0]".toList "[\"\\\\\\\\\"]".toList = .passes := by
  decide +kernel

/-- Finding.  A whole number beyond `long long`, selected, is what the machine makes of the conversion, which is undefined. -/
theorem C72_large_false :
    je exactly exact (fun _ => 0) false false false "10000000000000000000".toList [] "10000000000000000000".toList = .passes ∧
    je exactly exact (fun _ => 0) false false false "10000000000000000000".toList "[0]".toList "[10000000000000000000]".toList = .fails ∧
    je exactly exact (fun _ => -2 ^ 63) false false false "-9223372036854775808".toList "[0]".toList "[10000000000000000000]".toList = .passes := by
  decide +kernel

/-! ### Cases -/

theorem exactly_negates : Negates exactly := fun _ => rfl

/-- A value with everything in it. -/
def sampleSimple : Json :=
  .obj [("a".toList, .arr [.num (.fin (-3)), .num (.fin (5 / 4)), .bool true, .null]), ("b c".toList, .str "x 'y'".toList), ("p".toList, .pat "^.*$".toList)]

theorem sample_simple : Simple exactly sampleSimple := by
  refine .obj (by unfold Clean; simp) ?_
  have h1 : Simple exactly (.num (.fin (-3))) := .num (.whole 3 (by decide +kernel) (by decide) rfl)
  have h2 : Simple exactly (.num (.fin (5 / 4))) := by
    refine .num (.decimals 1250000 ?_ (congrArg _ (by decide +kernel)) (by decide +kernel))
    intro k h
    have : (5 / 4 : Rat).den = ((k : Rat)).den := congrArg _ h
    rw [Rat.den_intCast] at this
    exact absurd this (by decide +kernel)
  have h3 : Simple exactly (.arr [.num (.fin (-3)), .num (.fin (5 / 4)), .bool true, .null]) := by
    refine .arr ?_
    intro x hx
    simp only [List.mem_cons, List.not_mem_nil, or_false] at hx
    rcases hx with rfl | rfl | rfl | rfl
    · exact h1
    · exact h2
    · exact .bool _
    · exact .null
  intro p hp
  simp only [List.mem_cons, List.not_mem_nil, or_false] at hp
  rcases hp with rfl | rfl | rfl
  · exact h3
  · exact .str (by unfold Clean; decide)
  · exact .pat (by decide)

example : Simple exactly sampleSimple ∧ Negates exactly := ⟨sample_simple, exactly_negates⟩
example : linesText (format (number fun _ => 0) true ['"'] 0 false [] sampleSimple) =
    "{\"a\": [-3, 1.250000, true, null], \"b c\": \"x 'y'\", \"p\": /^.*$/}".toList := by decide +kernel
/-- A text that is read as the sample. -/
theorem sample_read : tree exactly "{\"a\": [-3, 1.250000, true, null], \"b c\": \"x 'y'\", \"p\": /^.*$/}".toList = .ok sampleSimple [] := by
  have := C72_text exactly exactly_negates (fun _ => 0) true sample_simple
  rwa [show linesText (format (number fun _ => 0) true ['"'] 0 false [] sampleSimple) =
    "{\"a\": [-3, 1.250000, true, null], \"b c\": \"x 'y'\", \"p\": /^.*$/}".toList from by decide +kernel] at this
example : Says ".a[1]".toList [.key ['a'], .index 1] ∧ Leads false sampleSimple [.key ['a'], .index 1] (.num (.fin (5 / 4))) := by
  refine ⟨?_, .step (.key (l₁ := []) (.inl rfl) (by simp)) (.step (.index (l₁ := [(none, .num (.fin (-3)))]) (l₂ := [(none, .bool true), (none, .null)]) (.arr _)) .here)⟩
  rw [← C15_path]
  have : selector ".a[1]".toList = [{ key := ['a'] }, { index := 1 }] := by decide +kernel
  rw [this]; rfl
example : Says ".a[-1]".toList [.key ['a'], .index (-1)] ∧
    Leads false (.obj [("a".toList, .arr [.num (.fin 1), .num (.fin 2)])]) [.key ['a'], .index (-1)] (.num (.fin 2)) := by
  refine ⟨?_, .step (.key (l₁ := []) (.inl rfl) (by simp)) (.step (.fromEnd (l₁ := [(none, .num (.fin 1))]) (l₂ := []) (.arr _)) .here)⟩
  rw [← C15_path]
  have : selector ".a[-1]".toList = [{ key := ['a'] }, { index := -1 }] := by decide +kernel
  rw [this]; rfl
example : je exactly exact (fun _ => 0) false false false "2".toList ".a[-1]".toList "{'a': [1, 2]}".toList = .passes ∧
    je exactly exact (fun _ => 0) true false true "1".toList ".a[-1]".toList "{'a': [1, 2]}".toList = .passes ∧
    je exactly exact (fun _ => 0) false false false "1".toList ".a[-1]".toList "{'a': [1, 2]}".toList = .fails ∧
    je exactly exact (fun _ => 0) false false false "1".toList ".b".toList "{'a': [1, 2]}".toList = .fails ∧
    je exactly exact (fun _ => 0) false false true "1".toList ".b".toList "{'a': [1, 2]}".toList = .passes ∧
    je exactly exact (fun _ => 0) false false true "1".toList ".b.c".toList "{'a': [1, 2]}".toList = .undefined ∧
    je exactly exact (fun _ => 0) false false true "[1".toList ".a".toList "{'a': [1, 2]}".toList = .illformed ∧
    je exactly exact (fun _ => 0) false false true "1".toList ".a".toList "{'a' [1, 2]}".toList = .illformed := by decide +kernel

end H2.Json.Je
