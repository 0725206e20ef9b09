import Verif.Message.Lemmas
/-
C64: the line about a failed assertion tells what was expected and what was found.

The full statement is false of the code: `JE` does not show the documents, and if one of them is short nothing else does
(`C64_json_hidden`); for output that is not as expected (`COUT`) neither is shown (`C64_cout`); failures of `NoneOf` and of `Me`
without a size drop the message of the user (`C64_normal`); a failure printed twice is not printed the same (`C64_twice`).
-/
namespace H2.Message
open H2.Layout (Word Line isctrl lineWidth text room)
open H2.Abbrev (shown Shortened)

/-- Comparisons: expected operand, operator, actual operand, explanation, message and place. -/
theorem C64_two (v : Int) (f : Fail) (ci : Nat) (h : Ordinary f) (name : String) (hn : name = "OK" ∨ name = "KO") (ht : f.type = name ++ "2") :
    ∃ l c e a, printUnexpect v f 0 ci = some (l, c) ∧
      text l = List.replicate (2 * ci + 1) ' ' ++ name.toList ++ "(".toList ++ e ++ " ".toList ++ f.op ++ " ".toList ++ a ++ ")".toList ++
        ending false (text f.explain) f.user f.filine ∧
      TellsExpected v f.eExpr (text f.expection) e ∧ TellsActual v f.aExpr (text f.represent) a := by
  have hp : printUnexpect v f 0 ci = some (Layout.indent [] (ci * 2 + 1) ++ printOK2 v name.toList f ++ (explanations f 0).1 ++ locate f, (explanations f 0).2) := by
    unfold printUnexpect
    rcases hn with rfl | rfl <;> rw [ht] <;> rfl
  refine ⟨_, _, text (expectPart v f), text (actualPart v f), hp, ?_, tells_expected v f h, tells_actual v f h⟩
  have hname : '\x1b' ∉ name.toList := by rcases hn with rfl | rfl <;> decide
  rw [List.append_assoc (_ ++ _), text_append, text_explanations f 0 h.user h.place, text_append, text_indent, Nat.mul_comm]
  unfold printOK2
  simp only [text_append]
  rw [text_word _ hname, text_gray _ (by decide), text_gray _ (by decide), text_word _ (by decide), text_word _ h.op]
  simp only [List.append_assoc]
  rfl

/-- What the values are: the text of the actual value stands in the line, and so does that of the expected value or an expression that
makes it obvious. -/
theorem C64_values (v : Int) (f : Fail) (ci : Nat) (h : Ordinary f) (ht : f.type = "OK2" ∨ f.type = "KO2")
    (hr : text f.represent ≠ [] ∧ room (shown (text f.represent)) ≤ 10000) (he : text f.expection ≠ [] ∧ room (shown (text f.expection)) ≤ 10000)
    (hx : room (shown f.eExpr) ≤ 10000) :
    ∃ l c, printUnexpect v f 0 ci = some (l, c) ∧ shown (text f.represent) <:+: text l ∧
      (shown (text f.expection) <:+: text l ∨ Obvious f.eExpr (text f.expection) ∧ shown f.eExpr <:+: text l) := by
  obtain ⟨name, hn, hnt⟩ : ∃ name, (name = "OK" ∨ name = "KO") ∧ f.type = name ++ "2" := by
    rcases ht with ht | ht
    · exact ⟨"OK", .inl rfl, ht⟩
    · exact ⟨"KO", .inr rfl, ht⟩
  obtain ⟨l, c, e, a, h1, h2, h3, h4⟩ := C64_two v f ci h name hn hnt
  refine ⟨l, c, h1, ?_, ?_⟩
  · rw [h2]
    have : shown (text f.represent) <:+: a := by
      by_cases ho : Obvious f.aExpr (text f.represent) ∨ f.aExpr = []
      · rw [(h4.2.1 hr.1 ho).1 hr.2]; exact List.infix_refl _
      · obtain ⟨x, y, e1, e2, e3⟩ := h4.2.2 hr.1 ho
        rw [e1, e2.1 hr.2, List.append_assoc]; exact ⟨[], _, rfl⟩
    obtain ⟨p, q, eq⟩ := this
    rw [← eq]
    exact ⟨List.replicate (2 * ci + 1) ' ' ++ name.toList ++ "(".toList ++ e ++ " ".toList ++ f.op ++ " ".toList ++ p, q ++ ")".toList ++ ending false (text f.explain) f.user f.filine,
      by simp only [List.append_assoc]⟩
  · rw [h2]
    have put : ∀ t, t <:+: e → t <:+: List.replicate (2 * ci + 1) ' ' ++ name.toList ++ "(".toList ++ e ++ " ".toList ++ f.op ++ " ".toList ++ a ++ ")".toList ++
        ending false (text f.explain) f.user f.filine := by
      rintro t ⟨p, q, eq⟩
      rw [← eq]
      exact ⟨List.replicate (2 * ci + 1) ' ' ++ name.toList ++ "(".toList ++ p, q ++ " ".toList ++ f.op ++ " ".toList ++ a ++ ")".toList ++ ending false (text f.explain) f.user f.filine,
        by simp only [List.append_assoc]⟩
    by_cases ho : Obvious f.eExpr (text f.expection)
    · refine .inr ⟨ho, put _ ?_⟩
      rw [(h3.1 (.inr ho)).1 hx]; exact List.infix_refl _
    · obtain ⟨x, y, e1, e2, e3⟩ := h3.2 (fun x => x.elim he.1 ho)
      refine .inl (put _ ?_)
      rw [e1, e3.1 he.2]; exact (List.suffix_append _ _).isInfix

/-- `OK(3, n)` with `n` 4. -/
def sample : Fail := { type := "OK2", eExpr := "3".toList, aExpr := "n".toList, expection := ["3".toList], represent := ["4".toList], user := "count".toList, filine := some "t.cpp:7".toList }

theorem ordinary_sample : Ordinary sample :=
  ⟨by decide, by decide, by decide, by decide, by intro p h; cases h; decide, by decide, by decide, by decide⟩

example : (printUnexpect 4 sample 0 0).map (fun x => text x.1) = some " OK(3 , 4⟸  n) count at t.cpp:7".toList := by decide +kernel
example : (printUnexpect 4 { sample with eExpr := "limit".toList, op := "==".toList, explain := ["too many".toList] } 0 1).map (fun x => text x.1) =
    some "   OK(limit⟹  3 == 4⟸  n) too many, count at t.cpp:7".toList := by decide +kernel
example : Obvious "nullptr".toList "(nil)".toList ∧ ¬ Obvious "n".toList "4".toList := by
  refine ⟨.inr (.inl ⟨.null, "nullptr", by decide, "(nil)", by decide, by decide, by decide⟩), ?_⟩
  rw [← synonym_iff]; decide +kernel

/-- A condition: the expression and, unless it is obvious, its value. -/
theorem C64_one (v : Int) (f : Fail) (ci : Nat) (h : Ordinary f) (name : String) (hn : name = "OK" ∨ name = "KO") (ht : f.type = name ++ "1") :
    ∃ l c is, printUnexpect v f 0 ci = some (l, c) ∧
      text l = List.replicate (2 * ci + 1) ' ' ++ name.toList ++ "(".toList ++ f.aExpr ++ ")".toList ++ is ++ ending false (text f.explain) f.user f.filine ∧
      (Obvious f.aExpr (text f.represent) → is = []) ∧
      (¬ Obvious f.aExpr (text f.represent) → ∃ w, is = " is ".toList ++ w ∧ ShownIn 10000 3 (text f.represent) w) := by
  have hp : printUnexpect v f 0 ci = some (Layout.indent [] (ci * 2 + 1) ++ printOK1 name.toList f ++ (explanations f 0).1 ++ locate f, (explanations f 0).2) := by
    unfold printUnexpect
    rcases hn with rfl | rfl <;> rw [ht] <;> rfl
  have hname : '\x1b' ∉ name.toList := by rcases hn with rfl | rfl <;> decide
  have te : text [f.aExpr] = f.aExpr := text_word _ h.aExpr
  refine ⟨_, _, text (if !isSynonym f.aExpr (string f.represent) then [" is ".toList] ++ Layout.brush (Abbrev.abbreviate f.represent 10000 3) "bold,red".toList else []), hp, ?_, ?_, ?_⟩
  · rw [List.append_assoc (_ ++ _), text_append, text_explanations f 0 h.user h.place, text_append, text_indent, Nat.mul_comm]
    unfold printOK1
    simp only [text_append]
    rw [text_word _ hname, text_gray _ (by decide), text_gray _ (by decide), text_brush, (Abbrev.C60_quotes _ (by rw [te]; exact h.aExpr)).1, te]
    simp only [List.append_assoc]
    rfl
  · intro ho
    rw [string_text, (synonym_iff _ _).2 ho]; rfl
  · intro ho
    have hs : isSynonym f.aExpr (text f.represent) = false := by
      rw [Bool.eq_false_iff]; exact fun x => ho ((synonym_iff _ _).1 x)
    rw [string_text, hs]
    refine ⟨text (Abbrev.abbreviate f.represent 10000 3), ?_, abbreviate_shown _ _ _ h.represent h.lengths.2.2.2 (by omega)⟩
    rw [Bool.not_false, if_pos rfl, text_append, text_brush, text_word _ (by decide)]

example : (printUnexpect 4 { sample with type := "OK1", eExpr := [], aExpr := "p && n".toList, expection := [], represent := ["false".toList] } 0 0).map (fun x => text x.1) =
    some " OK(p && n) is false count at t.cpp:7".toList := by decide +kernel

/-- A failure within another: what was expected and what was found, where there is any. -/
theorem C64_within (v : Int) (f : Fail) (ci : Nat) (h : Ordinary f) (ht : f.type = "In") :
    ∃ l c e a, printUnexpect v f 0 ci = some (l, c) ∧
      text l = List.replicate (2 * ci + 1) ' ' ++ (if 0 ≤ f.seqno then (toString f.seqno).toList ++ ". ".toList else []) ++
        (if text f.expection = [] then [] else "expect is ".toList ++ e) ++
        (if text f.represent = [] then [] else (if text f.expection = [] then [] else ", ".toList) ++ "actual is ".toList ++ a) ++
        ending (decide (text f.expection ≠ [] ∨ text f.represent ≠ [])) (text f.explain) f.user f.filine ∧
      ShownIn (exprRoom v) 3 (text f.expection) e ∧ ShownIn (exprRoom v) 3 (text f.represent) a := by
  have hp : printUnexpect v f 0 ci = some (Layout.indent [] (ci * 2 + 1) ++ (printIn v f 0).1 ++ (explanations f (printIn v f 0).2).1 ++ locate f,
      (explanations f (printIn v f 0).2).2) := by
    unfold printUnexpect
    rw [ht]; rfl
  refine ⟨_, _, text (Abbrev.abbreviate f.expection (limit v 120) 3), text (Abbrev.abbreviate f.represent (limit v 120) 3), hp, ?_,
    abbreviate_shown _ _ _ h.expection h.lengths.2.2.1 (limit_room v), abbreviate_shown _ _ _ h.represent h.lengths.2.2.2 (limit_room v)⟩
  rw [List.append_assoc (_ ++ _), text_append, text_explanations f _ h.user h.place, text_append, text_indent, Nat.mul_comm]
  have hs : text (if 0 ≤ f.seqno then number f.seqno else []) = if 0 ≤ f.seqno then (toString f.seqno).toList ++ ". ".toList else [] := by
    split
    · exact text_number _
    · rfl
  unfold printIn
  by_cases h1 : lineWidth f.expection = 0 <;> by_cases h2 : lineWidth f.represent = 0
  · have t1 := (width_zero _).1 h1
    have t2 := (width_zero _).1 h2
    simp only [h1, h2, ne_eq, not_true_eq_false, if_false, t1, t2, if_true, text_append, hs, text_nil, List.append_nil, or_self, decide_false]
  · have t1 := (width_zero _).1 h1
    have t2 : text f.represent ≠ [] := fun e => h2 ((width_zero _).2 e)
    simp only [h1, h2, ne_eq, not_true_eq_false, not_false_eq_true, if_false, t1, t2, if_true, text_append, hs, text_nil, List.append_nil, text_brush, false_or, decide_true]
    rw [text_word _ (by decide)]
    simp only [List.append_assoc]
    rfl
  · have t1 : text f.expection ≠ [] := fun e => h1 ((width_zero _).2 e)
    have t2 := (width_zero _).1 h2
    simp only [h1, h2, ne_eq, not_true_eq_false, not_false_eq_true, if_false, t1, t2, if_true, text_append, hs, text_nil, List.append_nil, text_brush, or_false, decide_true]
    rw [text_word _ (by decide)]
    simp only [List.append_assoc]
    rfl
  · have t1 : text f.expection ≠ [] := fun e => h1 ((width_zero _).2 e)
    have t2 : text f.represent ≠ [] := fun e => h2 ((width_zero _).2 e)
    simp only [h1, h2, ne_eq, not_true_eq_false, not_false_eq_true, if_false, t1, t2, if_true, text_append, hs, text_nil, List.append_nil, text_brush, or_self, decide_true]
    rw [text_word _ (by decide), text_word _ (by decide)]
    simp only [List.append_assoc]
    rfl

example : (printUnexpect 4 { sample with type := "In", seqno := 2 } 0 1).map (fun x => text x.1) = some "   2. expect is 3, actual is 4, count at t.cpp:7".toList := by decide +kernel

/-- `JE` shows the two expressions, without quotation marks around them and with blanks squashed. -/
theorem C64_json_partial (v : Int) (f : Fail) (eValue aValue : Word) (ci : Nat) (h : Ordinary { f with eExpr := H2.Str.squash f.eExpr true, aExpr := H2.Str.squash f.aExpr true })
    (ht : f.type = "JE") (e a : Text) (he : Unquoted (H2.Str.squash f.eExpr true) e) (ha : Unquoted (H2.Str.squash f.aExpr true) a) :
    ∃ out x y, printJson v f eValue aValue ci = some out ∧
      text out.line = List.replicate (2 * ci + 1) ' ' ++ "JE(".toList ++ x ++ ", ".toList ++ y ++ ")".toList ++ ending false (text f.explain) f.user f.filine ∧
      ShownIn (jsonRoom v) 2 e x ∧ ShownIn (jsonRoom v) 2 a y := by
  have h1 := unquote_eq _ _ he
  have h2 := unquote_eq _ _ ha
  obtain ⟨e1, e2⟩ := unquoted_ordinary _ _ he h.eExpr h.lengths.1
  obtain ⟨a1, a2⟩ := unquoted_ordinary _ _ ha h.aExpr h.lengths.2.1
  have te : text [e] = e := text_word _ e1
  have ta : text [a] = a := text_word _ a1
  have hl : 2 + 3 ≤ limit v 30 := by unfold limit; split <;> omega
  refine ⟨⟨Layout.indent [] (ci * 2 + 1) ++ (["JE".toList] ++ gray "(".toList ++ Layout.brush (Abbrev.abbreviate [e] (limit v 30) 2) "cyan".toList ++ [", ".toList] ++
      Layout.brush (Abbrev.abbreviate [a] (limit v 30) 2) "bold,red".toList ++ gray ")".toList) ++ (explanations f 0).1 ++ locate f,
      !(Layout.wordWidth eValue < 16 || Layout.wordWidth aValue < 16)⟩,
    text (Abbrev.abbreviate [e] (limit v 30) 2), text (Abbrev.abbreviate [a] (limit v 30) 2), ?_, ?_, ?_, ?_⟩
  · unfold printJson printUnexpect printJE
    simp only [ht, h1, h2]
    rfl
  · rw [List.append_assoc (_ ++ _), text_append, text_explanations f 0 h.user h.place, text_append, text_indent, Nat.mul_comm]
    simp only [text_append, text_brush]
    rw [text_word _ (by decide), text_gray _ (by decide), text_gray _ (by decide), text_word _ (by decide)]
    simp only [List.append_assoc]
    rfl
  · have := abbreviate_shown [e] (limit v 30) 2 (by rw [te]; exact e1) (by rw [te]; exact e2) hl
    rw [te] at this; exact this
  · have := abbreviate_shown [a] (limit v 30) 2 (by rw [ta]; exact a1) (by rw [ta]; exact a2) hl
    rw [ta] at this; exact this

/-- `JE("{'n': 1}", answer)`. -/
def json : Fail := { type := "JE", eExpr := "\"{'n':   1}\"".toList, aExpr := "answer".toList, filine := some "t.cpp:7".toList }

example : (printJson 4 json "{'n': 1}".toList "{'n': 2}".toList 0).map (fun o => (text o.line, o.more)) = some (" JE({'n': 1}, answer) at t.cpp:7".toList, false) := by decide +kernel
example : Unquoted "\"{'n': 1}\"".toList "{'n': 1}".toList ∧ Unquoted "answer".toList "answer".toList :=
  ⟨⟨"{'n': 1}".toList, .inl (by decide +kernel), .inr ⟨rfl, by decide, by rintro ⟨m, h⟩; simp at h⟩⟩,
   ⟨"answer".toList, .inr ⟨rfl, by decide, by rintro ⟨m, h⟩; simp at h⟩, .inr ⟨rfl, by decide, by rintro ⟨m, h⟩; simp at h⟩⟩⟩
example : H2.Str.squash json.eExpr true = "\"{'n': 1}\"".toList ∧ H2.Str.squash json.aExpr true = "answer".toList := by decide +kernel

/-- A failed `JE` with a short document prints the same whatever was expected and whatever was found. -/
theorem C64_json_hidden (v : Int) (f : Fail) (expection represent : Line) (e a e' a' : Word) (ci : Nat) (ht : f.type = "JE")
    (hs : room a < 16) (hs' : room a' < 16) :
    printJson v f e a ci = printJson v { f with expection := expection, represent := represent } e' a' ci ∧ ∀ o, printJson v f e a ci = some o → o.more = false := by
  have w1 : Layout.wordWidth a < 16 := hs
  have w2 : Layout.wordWidth a' < 16 := hs'
  constructor
  · have key : ∀ x y, printUnexpect v { f with eExpr := H2.Str.squash f.eExpr true, aExpr := H2.Str.squash f.aExpr true, expection := x, represent := y } 0 ci =
        printUnexpect v { f with eExpr := H2.Str.squash f.eExpr true, aExpr := H2.Str.squash f.aExpr true } 0 ci := by
      intro x y
      rw [json_line, json_line]
      · rfl
      · exact ht
      · exact ht
    unfold printJson
    simp only [w1, w2, decide_true, Bool.or_true, Bool.not_true]
    rw [key expection represent]
  · intro o ho
    unfold printJson at ho
    simp only [Option.map_eq_some_iff] at ho
    obtain ⟨p, _, rfl⟩ := ho
    simp [w1]

example : room "{'n': 2}".toList < 16 := by decide

/-- A failed `COUT` tells neither what was expected nor what was written: the line is the same for all. -/
theorem C64_cout (v : Int) (f : Fail) (e place : Word) (ci : Nat) (he : '\x1b' ∉ place) (hu : f.user = []) :
    ∃ l c, printUnexpect v (cout f e place) 0 ci = some (l, c) ∧ text l = List.replicate (2 * ci + 1) ' ' ++ " COUT at ".toList ++ place := by
  have hp : printUnexpect v (cout f e place) 0 ci = some (Layout.indent [] (ci * 2 + 1) ++ [] ++ (explanations (cout f e place) 0).1 ++ locate (cout f e place),
      (explanations (cout f e place) 0).2) := rfl
  refine ⟨_, _, hp, ?_⟩
  rw [List.append_assoc (_ ++ _), text_append, text_explanations _ 0 (by show '\x1b' ∉ f.user; rw [hu]; simp) (by intro p h; cases h; exact he), List.append_nil,
    text_indent, Nat.mul_comm]
  show _ ++ ending _ (text ["COUT".toList]) f.user (some place) = _
  rw [hu, text_word _ (by decide), List.append_assoc]
  rfl

example : (printUnexpect 4 (cout { expection := ["\"yes\"".toList], represent := ["\"no\"".toList] } "\"yes\"".toList "t.cpp:9".toList) 0 0).map (fun x => text x.1) =
    some "  COUT at t.cpp:9".toList := by decide +kernel

/-- The message of the user is dropped where the failure is an explanation only, as those of `NoneOf`. -/
theorem C64_normal (f : Fail) (user : Word) (ci : Nat) : printNormal { f with user := user } ci = printNormal f ci := rfl

example : text (printNormal { sample with explain := ["should not match 3".toList] } 0) = " should not match 3 at t.cpp:7".toList := by decide +kernel

/-- The counter of commas is kept: printed again, a failure looks different. -/
theorem C64_twice : ∃ l c m d, printUnexpect 4 sample 0 0 = some (l, c) ∧ printUnexpect 4 sample c 0 = some (m, d) ∧ text l ≠ text m := by
  refine ⟨_, _, _, _, rfl, rfl, ?_⟩
  decide +kernel

end H2.Message
