import Verif.Macro.Props
import Verif.Macro.Repeat
import Verif.Macro.Last
import Verif.Macro.MockerSpec
/-
What `H2PP_REPEAT`, `H2PP_LAST`, `H2PP_NCALL` and the tests of numbers write.
-/
namespace H2.Macro

variable {user : String → Option Macro} {rest : List Tok} {ts : List Tok}

theorem repAll_eq {S s : List Tok} (hS : Bal false S) (hs : Bare S s) (o : Nat → List Tok) (n : Nat) :
    repAll S o n = ((List.range n).map fun i => (if i = 0 then [] else s) ++ o i).flatten := by
  induction n with
  | zero => rfl
  | succ n ih => rw [repAll, ih, List.range_succ, List.map_append, List.flatten_append, sep, ← bare_iff hS hs]; simp

/-- `H2PP_NOT` is 1 for the number 0 and 0 for the others, `H2PP_BOOL` the other way round.  For numbers up to 32. -/
theorem C105_bool (hu : Apart user) {n : Nat} (hn : n ≤ 32) (h : Becomes (defs user) [] (toks rest) ts) :
    Becomes (defs user) [] (toks (call "H2PP_NOT" [[.num (toString n)]] ++ rest)) (.num (if n = 0 then "1" else "0") :: ts) ∧
    Becomes (defs user) [] (toks (call "H2PP_BOOL" [[.num (toString n)]] ++ rest)) (.num (if n = 0 then "0" else "1") :: ts) := by
  rw [← idx_number hn, call_eq, call_eq, toks_append, toks_append]
  have h1 := not0 (N := []) hu (i := n) (by omega) ok_nil (by rw [marks_none]; exact ok_nil) h
  have h2 := boolN (N := []) hu (i := n) (by omega) ok_nil (by rw [marks_none]; exact ok_nil) h
  by_cases h0 : n = 0
  · subst h0
    exact ⟨h1, h2⟩
  · have hb : (n == 0) = false := by simpa using h0
    have hb' : (n != 0) = true := by simpa using h0
    rw [hb] at h1
    rw [hb'] at h2
    rw [if_neg h0, if_neg h0]
    exact ⟨h1, h2⟩

/-- `H2PP_REPEAT`: what the macro writes for the argument and each number below the count, from 0 on, with the separator between them.
For counts up to 32. -/
theorem C105_repeat (hu : Apart user) {S s A : List Tok} {M : String} (hS : Fixed (defs user) S) (hs : Bare S s) (hM : reserved M = false) (hc : Callable user M) (hA : Fixed (defs user) A)
    {n : Nat} (hn : n ≤ 32) {o : Nat → List Tok}
    (ho : ∀ i < n, Writes user [M] (call M [A, [.num (toString i)]]) (o i) ∧ (∀ t, .id t ∈ o i → defs user t = none) ∧ fits true 0 (o i) = true)
    (h : Becomes (defs user) [] (toks rest) ts) :
    Becomes (defs user) [] (toks (call "H2PP_REPEAT" [S, [.id M], A, [.num (toString n)]] ++ rest))
      (((List.range n).map fun i => (if i = 0 then [] else s) ++ o i).flatten ++ ts) := by
  haveI : Free [M] := ⟨by simpa using hM⟩
  have g : Given user [M] S M A := ⟨hS.plain, hS.bal, callee_still hc (by simp), still_plain hA.plain, hA.bal⟩
  have := repeats (N := [M]) hu g hn (o := o) ?_ [] (toks rest) ts ok_nil (by rw [marks_none]; exact ok_nil) h
  · rw [repAll_eq hS.bal hs] at this
    rw [call_eq, toks_append, ← idx_number hn]
    exact this
  · intro i hi
    obtain ⟨w, p, f⟩ := ho i hi
    rw [call_eq, ← idx_number (by omega)] at w
    exact ⟨w.step, p, bal_of_fits f⟩

/-- `H2PP_BOOL(7)` is 1 and `H2PP_BOOL(0)` is 0. -/
example : Becomes (defs none1) [] (toks (call "H2PP_BOOL" [[.num "7"]])) [.num "1"] ∧ Becomes (defs none1) [] (toks (call "H2PP_BOOL" [[.num "0"]])) [.num "0"] :=
  ⟨(C105_bool (rest := []) (ts := []) (n := 7) apart_none (by decide) .nil).2, (C105_bool (rest := []) (ts := []) (n := 0) apart_none (by decide) .nil).2⟩

/-- `H2PP_EQ` is 1 for the same number and 0 for different ones.  The first number is below 32, the second below 64. -/
theorem C105_equal (hu : Apart user) {a b : Nat} (ha : a ≤ 31) (hb : b ≤ 63) (h : Becomes (defs user) [] (toks rest) ts) :
    Becomes (defs user) [] (toks (call "H2PP_EQ" [[.num (toString a)], [.num (toString b)]] ++ rest)) (.num (if a = b then "1" else "0") :: ts) := by
  rw [call_eq, toks_append]
  have := eqN (N := []) hu (a := a) (i := b) (by omega) (by omega) bal_num bal_num ok_nil (by rw [marks_none]; exact ok_nil) (.tok (by simp) .nil) (.tok (by simp) .nil) h
  by_cases he : a = b
  · subst he
    have hb : (a == a) = true := by simp
    rw [hb] at this
    rw [if_pos rfl]
    exact this
  · have hb : (a == b) = false := by simpa using he
    rw [hb] at this
    rw [if_neg he]
    exact this

/-- `H2PP_EQ(3, 3)` is 1 and `H2PP_EQ(3, 13)` is 0. -/
example : Becomes (defs none1) [] (toks (call "H2PP_EQ" [[.num "3"], [.num "3"]])) [.num "1"] ∧ Becomes (defs none1) [] (toks (call "H2PP_EQ" [[.num "3"], [.num "13"]])) [.num "0"] :=
  ⟨C105_equal (rest := []) (ts := []) (a := 3) (b := 3) apart_none (by decide) (by decide) .nil, C105_equal (rest := []) (ts := []) (a := 3) (b := 13) apart_none (by decide) (by decide) .nil⟩

/-- `H2PP_EQ(32, 32)` is not 1. -/
theorem C105_equal_false : ¬ Becomes (defs none1) [] (toks (call "H2PP_EQ" [[.num "32"], [.num "32"]])) [.num "1"] := by
  intro h
  have h' : Becomes (defs none1) [] (toks (call "H2PP_EQ" [[.num "32"], [.num "32"]])) [.num "0"] := ⟨100, by decide +kernel⟩
  have := h.unique h'
  revert this
  decide

/-- `H2PP_LAST`: the last element of a list.  It is not empty. -/
theorem C105_last (hu : Apart user) {xs : List (List Tok)} (hxs : List63 (defs user) xs) {x : List Tok} (hx : xs.getLast? = some x) (h : Becomes (defs user) [] (toks rest) ts) :
    Becomes (defs user) [] (toks (call "H2PP_LAST" xs ++ rest)) (x ++ ts) := by
  cases xs with
  | nil => simp at hx
  | cons y ys =>
    rw [call_eq, toks_append]
    have e : (y :: ys).getLast (by simp) = x := by
      rw [List.getLast?_eq_some_getLast (by simp)] at hx
      exact Option.some.inj hx
    rw [← e]
    exact last (N := []) hu hxs.els [] (toks rest) ts ok_nil (by rw [marks_none]; exact ok_nil) h

/-- `H2PP_LAST(7, 8, 9)` is 9. -/
example : Becomes (defs none1) [] (toks (call "H2PP_LAST" [[.num "7"], [.num "8"], [.num "9"]])) [.num "9"] :=
  C105_last (rest := []) (ts := []) apart_none (nums_list ["7", "8", "9"] (by simp)) rfl .nil

/-- `H2PP_NCALL(M, n, …)`: `M` with a 1 behind it is called with the arguments when there are n of them, and `M` with a 0 otherwise.  For n below 32. -/
theorem C105_ncall (hu : Apart user) {M : String} (hM : defs user M = none) {n : Nat} (hn : n ≤ 31) {raws as : List (List Tok)} (hr : raws ≠ []) (hf : ∀ a ∈ raws, fits false 0 a = true)
    (ha : Args63 (defs user) as) (hA : Becomes (defs user) [] (toks (commas raws)) (commas as)) {G : String} (hG : G = M ++ (if number as = n then "1" else "0"))
    (hGr : reserved G = false) (hc : Callable user G) {Y : List Tok} (hY : ∀ s, .id s ∈ Y → defs user s = none)
    (hY' : Becomes (defs user) ["H2PP_NCALL"] (toks (call G as)) Y) (h : Becomes (defs user) [] (toks rest) ts) :
    Becomes (defs user) [] (toks (call "H2PP_NCALL" ([.id M] :: [.num (toString n)] :: raws) ++ rest)) (Y ++ ts) := by
  rw [commas_eq, commas_eq] at hA
  rw [call_eq] at hY'
  rw [call_eq, toks_append]
  refine ncall (N := []) hu hM (n := n) (by omega) hr (fun a h => bal_of_fits (hf a h)) ha.some ha.few ha.bal ha.plain ok_nil (by rw [marks_none]; exact ok_nil)
    (by simpa [marks_none] using hA) (G := G) ?_ (by simp [marks_none]) hGr hc hY (by simpa [marks_none] using hY') h
  rw [hG]
  show M ++ bit (n == number as) = _
  by_cases he : number as = n
  · have hb : (n == number as) = true := by simpa using he.symm
    rw [hb, if_pos he]; rfl
  · have hb : (n == number as) = false := by simpa using fun h => he h.symm
    rw [hb, if_neg he]; rfl

/-- `H2PP_NCALL(f_, 2, 7, 8)` is `f_1(7, 8)`, and `H2PP_NCALL(f_, 3, 7, 8)` is `f_0(7, 8)`. -/
example : Becomes (defs none1) [] (toks (call "H2PP_NCALL" [[.id "f_"], [.num "2"], [.num "7"], [.num "8"]])) (call "f_1" [[.num "7"], [.num "8"]]) ∧
    Becomes (defs none1) [] (toks (call "H2PP_NCALL" [[.id "f_"], [.num "3"], [.num "7"], [.num "8"]])) (call "f_0" [[.num "7"], [.num "8"]]) := by
  have h1 : defs none1 "f_1" = none := by decide +kernel
  have h0 : defs none1 "f_0" = none := by decide +kernel
  have hN := nums_args (user := none1) ["7", "8"] (by simp) (by simp)
  have hY : ∀ {g : String}, defs none1 g = none → ∀ s, .id s ∈ call g [[.num "7"], [.num "8"]] → defs none1 s = none := by
    intro g hg s hs
    simp [call, commas, List.intercalate] at hs
    rw [hs]; exact hg
  exact ⟨C105_ncall (rest := []) (ts := []) apart_none (M := "f_") (by decide +kernel) (n := 2) (by decide) (raws := [[.num "7"], [.num "8"]]) (by simp) (by simp [fits]) hN ⟨20, by decide +kernel⟩
      (G := "f_1") (by decide +kernel) (by decide +kernel) (fun m h => by rw [h1] at h; cases h) (hY h1) ⟨20, by decide +kernel⟩ .nil,
    C105_ncall (rest := []) (ts := []) apart_none (M := "f_") (by decide +kernel) (n := 3) (by decide) (raws := [[.num "7"], [.num "8"]]) (by simp) (by simp [fits]) hN ⟨20, by decide +kernel⟩
      (G := "f_0") (by decide +kernel) (by decide +kernel) (fun m h => by rw [h0] at h; cases h) (hY h0) ⟨20, by decide +kernel⟩ .nil⟩

/-! ### The matchers of a mock -/

theorem apart_mocker (hu : Apart user) : Apart (mocker user) := by
  have h : reserved "H2_Typedef_Matcher" = false ∧ reserved "H2_Default_Matcher" = false ∧ reserved "H2_Forward_Matcher" = false ∧ reserved "H2_Th_Matcher" = false := by decide +kernel
  intro s hs
  unfold mocker
  rw [if_neg, if_neg, if_neg, if_neg]
  · exact hu s hs
  · rintro rfl; rw [h.2.2.2] at hs; cases hs
  · rintro rfl; rw [h.2.2.1] at hs; cases hs
  · rintro rfl; rw [h.2.1] at hs; cases hs
  · rintro rfl; rw [h.1] at hs; cases hs

theorem names_free (hu : Unharmed user) : ∀ s ∈ mockerNames, defs (mocker user) s = none := by
  have h : ∀ s ∈ mockerNames, table.lookup s = none ∧ s ∉ ["H2_Typedef_Matcher", "H2_Default_Matcher", "H2_Forward_Matcher", "H2_Th_Matcher"] := by decide +kernel
  intro s hs
  obtain ⟨h1, h2⟩ := h s hs
  simp only [List.mem_cons, List.not_mem_nil, or_false, not_or] at h2
  unfold defs
  rw [h1]
  simp only [mocker, if_neg h2.1, if_neg h2.2.1, if_neg h2.2.2.1, if_neg h2.2.2.2]
  exact hu s hs

theorem mocker_defs : defs (mocker user) "H2_Typedef_Matcher" = some typedefMatcher ∧ defs (mocker user) "H2_Default_Matcher" = some defaultMatcher ∧
    defs (mocker user) "H2_Forward_Matcher" = some forwardMatcher ∧ defs (mocker user) "H2_Th_Matcher" = some thMatcher := by
  have h : ∀ s ∈ ["H2_Typedef_Matcher", "H2_Default_Matcher", "H2_Forward_Matcher", "H2_Th_Matcher"], table.lookup s = none := by decide +kernel
  refine ⟨?_, ?_, ?_, ?_⟩ <;> (unfold defs; rw [h _ (by simp)]; simp [mocker])

/-- A macro of the mocker, where it is called with a number. -/
theorem mocker_writes (hu : Unharmed user) {M : String} {m : Macro} (hd : defs (mocker user) M = some m) (hp : m.params = some (2, false)) {i : Nat} {X : List Tok}
    (hX : build (fun j => some ([[], [.num (toString i)]].getD j [])) (fun j => [[], [.num (toString i)]].getD j []) m.body = some X)
    (hq : ∀ s, .id s ∈ X → s ∈ mockerNames) (hf : fits true 0 X = true) :
    Writes (mocker user) [M] (call M [[], [.num (toString i)]]) X ∧ (∀ t, .id t ∈ X → defs (mocker user) t = none) ∧ fits true 0 X = true := by
  have hpl : Plain (defs (mocker user)) X := fun s hs => names_free hu s (hq s hs)
  refine ⟨?_, hpl, hf⟩
  intro out r ts haw h
  rw [call_eq]
  refine .fn hd hp [[], [.num (toString i)]] (haw M (by simp)) (by simp) (by simp [Bal.nil, bal_num]) rfl (fun j => [[], [.num (toString i)]].getD j []) ?_ hX (pass_plain hpl (.mark h))
  intro j _
  match j with
  | 0 => exact .nil
  | 1 => exact .tok (by simp) .nil
  | _ + 2 => exact .nil

theorem join_snoc (l : List (List Tok)) (x : List Tok) : join (l ++ [x]) = join l ++ ((if l = [] then [] else [.comma]) ++ x) := by
  induction l with
  | nil => simp [join]
  | cons a l ih =>
    cases l with
    | nil => simp [join]
    | cons b l =>
      have e : a :: b :: l ++ [x] = a :: b :: (l ++ [x]) := rfl
      rw [e, join, ← List.cons_append, ih, if_neg (by simp), if_neg (by simp), join]
      simp

theorem flat_commas (f : Nat → List Tok) (n : Nat) : ((List.range n).map fun i => (if i = 0 then [] else [.comma]) ++ f i).flatten = commas ((List.range n).map f) := by
  rw [commas_eq]
  induction n with
  | zero => rfl
  | succ n ih =>
    rw [List.range_succ, List.map_append, List.flatten_append, ih, List.map_append, show List.map f [n] = [f n] from rfl, join_snoc]
    by_cases h : n = 0
    · subst h; simp
    · have : (List.range n).map f ≠ [] := by simpa using h
      rw [if_neg this]
      simp [h]

theorem name_under {i : Nat} (hi : i < 20) : "_" ++ toString i ∈ mockerNames := by
  unfold mockerNames
  rw [List.mem_append, List.mem_append]
  exact .inl (.inr (List.mem_map.2 ⟨i, List.mem_range.2 hi, rfl⟩))

theorem name_th {i : Nat} (hi : i < 20) : "Th" ++ toString i ∈ mockerNames := by
  unfold mockerNames
  rw [List.mem_append]
  exact .inr (List.mem_map.2 ⟨i, List.mem_range.2 hi, rfl⟩)

/-- What the class of mocks says twenty times: the types of the matchers (`MatcherTuple`), the parameters of `Once` … `With`, the parameters as they are passed on,
and the member functions `Th0` … `Th19`; each for the argument with its own number, in their order. -/
theorem C105_mock (hu : Apart user) (hn : Unharmed user) {rest ts : List Tok} (h : Becomes (defs (mocker user)) [] (toks rest) ts) :
    Becomes (defs (mocker user)) [] (toks (call "H2PP_REPEAT" [[.lp, .comma, .rp], [.id "H2_Typedef_Matcher"], [], [.num "20"]] ++ rest)) (commas ((List.range 20).map matcherType) ++ ts) ∧
    Becomes (defs (mocker user)) [] (toks (call "H2PP_REPEAT" [[.lp, .comma, .rp], [.id "H2_Default_Matcher"], [], [.num "20"]] ++ rest)) (commas ((List.range 20).map parameter) ++ ts) ∧
    Becomes (defs (mocker user)) [] (toks (call "H2PP_REPEAT" [[.lp, .comma, .rp], [.id "H2_Forward_Matcher"], [], [.num "20"]] ++ rest)) (commas ((List.range 20).map passed) ++ ts) ∧
    Becomes (defs (mocker user)) [] (toks (call "H2PP_REPEAT" [[], [.id "H2_Th_Matcher"], [], [.num "20"]] ++ rest)) (((List.range 20).map setter).flatten ++ ts) := by
  obtain ⟨d1, d2, d3, d4⟩ := mocker_defs (user := user)
  have a := apart_mocker hu
  have e0 : ∀ {T : String → Option Macro}, Fixed T [] := ⟨rfl, by simp⟩
  have ec : ∀ {T : String → Option Macro}, Fixed T [.lp, .comma, .rp] := ⟨rfl, by simp⟩
  have e20 : "20" = toString 20 := by decide +kernel
  rw [e20, ← flat_commas, ← flat_commas, ← flat_commas]
  have call1 : ∀ {M : String} {m : Macro}, defs (mocker user) M = some m → m.params = some (2, false) → Callable (mocker user) M := by
    intro M m hd hp m' h'
    rw [hd] at h'
    cases h'
    rw [hp]; simp
  refine ⟨?_, ?_, ?_, ?_⟩
  · refine C105_repeat a ec (.inl ⟨rfl, rfl⟩) (by decide +kernel) (call1 d1 rfl) e0 (by decide) (fun i hi => mocker_writes hn d1 rfl ?_ ?_ ?_) h
    · simp [typedefMatcher, matcherElems, build, matcherType]
    · intro s hs
      simp [matcherType] at hs
      rcases hs with rfl | rfl | rfl <;> simp [mockerNames]
    · simp [matcherType, fits]
  · refine C105_repeat a ec (.inl ⟨rfl, rfl⟩) (by decide +kernel) (call1 d2 rfl) e0 (by decide) (fun i hi => mocker_writes hn d2 rfl ?_ ?_ ?_) h
    · simp [defaultMatcher, matcherElems, build, matcherType, parameter, pastes, paste, glue, operand]
    · intro s hs
      simp only [parameter, matcherType, List.mem_append, List.mem_cons, List.not_mem_nil, or_false, Tok.id.injEq, reduceCtorEq, false_or] at hs
      rcases hs with (rfl | rfl | rfl) | rfl
      · simp [mockerNames]
      · simp [mockerNames]
      · simp [mockerNames]
      · exact name_under hi
    · simp [parameter, matcherType, fits]
  · refine C105_repeat a ec (.inl ⟨rfl, rfl⟩) (by decide +kernel) (call1 d3 rfl) e0 (by decide) (fun i hi => mocker_writes hn d3 rfl ?_ ?_ ?_) h
    · simp [forwardMatcher, matcherElems, build, matcherType, passed, pastes, paste, glue, operand]
    · intro s hs
      simp only [passed, matcherType, List.mem_append, List.mem_cons, List.not_mem_nil, or_false, Tok.id.injEq, reduceCtorEq, false_or] at hs
      rcases hs with ((rfl | rfl) | (rfl | rfl | rfl)) | rfl
      · simp [mockerNames]
      · simp [mockerNames]
      · simp [mockerNames]
      · simp [mockerNames]
      · simp [mockerNames]
      · exact name_under hi
    · simp [passed, matcherType, fits]
  · have := C105_repeat (s := []) a (S := []) e0 (.inr ⟨by simp [Enclosed], rfl⟩) (M := "H2_Th_Matcher") (n := 20) (o := setter) (by decide +kernel) (call1 d4 rfl) e0 (by decide) (fun i hi => mocker_writes hn d4 rfl ?_ ?_ ?_) h
    · simpa using this
    · simp [thMatcher, matcherElems, build, matcherType, setter, pastes, paste, glue, operand]
    · intro s hs
      by_cases he : s = "Th" ++ toString i
      · rw [he]; exact name_th hi
      · have : s ∈ ["h2_matcher", "h2_nth_decay", "Args", "std", "forward", "h2_mocker", "e", "if", "checkin_array", "empty", "Any", "get", "matcher_array", "back", "return", "this"] := by
          simp [setter, matcherType] at hs
          simp [he] at hs ⊢
          grind
        unfold mockerNames
        exact List.mem_append_left _ (List.mem_append_left _ this)
    · simp [setter, matcherType, fits]

/-- A program without other macros. -/
example : Becomes (defs (mocker none1)) [] (toks (call "H2PP_REPEAT" [[.lp, .comma, .rp], [.id "H2_Default_Matcher"], [], [.num "20"]])) (commas ((List.range 20).map parameter)) := by
  have := (C105_mock (user := none1) apart_none (fun _ _ => rfl) (rest := []) (ts := []) .nil).2.1
  simpa using this

end H2.Macro
