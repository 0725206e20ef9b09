import Verif.Printer.Spec
/-
C95: the choice of a printer.
-/
namespace H2.Printer
open Spec
open H2.Stringify (quoteIf narrow)

/-! ### Lemmas -/

theorem able_iff {c : Cls} {m : Method} : able c m = true ↔ c.ret m = .text := by simp [able]

theorem anyAble_iff {c : Cls} : anyAble c = true ↔ Methodic c := by
  simp only [anyAble, Bool.or_eq_true, able_iff]
  constructor
  · rintro ((((h | h) | h) | h) | h) <;> exact ⟨_, h⟩
  · rintro ⟨m, h⟩
    cases m <;> simp [h]

theorem anyAble_false {c : Cls} : anyAble c = false ↔ ¬ Methodic c := by rw [← anyAble_iff, Bool.not_eq_true]

theorem callable_iff {c : Cls} : (!anyAble c || able c (called c)) = true ↔ Callable c := by
  have key : ∀ m, c.ret m = .text ↔ able c m = true := fun m => able_iff.symm
  simp only [anyAble, called, Callable, key, ne_eq]
  cases h1 : able c .tostring <;> cases h2 : able c .toString <;> cases h3 : able c .Tostring <;> cases h4 : able c .ToString <;>
    cases h5 : able c .to_string <;> simp [h1, h2, h3, h4, h5]

theorem callable_not {c : Cls} (h : ¬ Methodic c) : Callable c := Or.inl fun e => h ⟨_, e⟩

theorem isWchar_iff {t : Ty} : t.isWchar = true ↔ t = .wchar := by cases t <;> simp [Ty.isWchar]

theorem one3 (a b d : Bool) (x y z : Pick) :
    (given a x ++ given b y ++ given d z).length ≤ 1 ↔ AtMostOne [a = true, b = true, d = true] := by
  simp only [AtMostOne, List.pairwise_cons, List.forall_mem_cons, given]
  cases a <;> cases b <;> cases d <;> simp

theorem one4 (a b d e : Bool) (x y z w : Pick) :
    (given a x ++ given b y ++ given d z ++ given e w).length ≤ 1 ↔ AtMostOne [a = true, b = true, e = true, d = true] := by
  simp only [AtMostOne, List.pairwise_cons, List.forall_mem_cons, given]
  cases a <;> cases b <;> cases d <;> cases e <;> simp

theorem one_given (a b d : Bool) (x y z w : Pick) :
    (given a x ++ given b y ++ [z] ++ given d w).length ≤ 1 ↔ a = false ∧ b = false ∧ d = false := by
  cases a <;> cases b <;> cases d <;> simp [given]

theorem picks_box {c : Cls} {e : Ty} (h : c.substr = false) :
    picks (.box c e) = given (anyAble c) .method ++ given c.stream .stream ++ [.container] ++ given c.exc .exc := by
  simp [picks, h, given]

theorem picks_string {c : Cls} {e : Ty} (h : c.substr = true) :
    picks (.box c e) = given (anyAble c) .method ++ given c.stream .stream ++ given e.isWchar .wide ++ given c.exc .exc := by
  simp [picks, h, given]

/-! ### C95 -/

mutual
theorem clear_of : ∀ t, compiles t = true → Clear t
  | .null, _ => .null
  | .bool, _ => .bool
  | .num, _ => .num
  | .char, _ => .char
  | .uchar, _ => .uchar
  | .wchar, _ => .wchar
  | .chars, _ => .chars
  | .wchars, _ => .wchars
  | .raw s, _ => .raw s
  | .pair s a b, h => by
    simp only [compiles, Bool.and_eq_true] at h
    cases s with
    | true => simp [picks, given] at h
    | false => exact .pair (clear_of a h.1.2) (clear_of b h.2)
  | .tuple s ts, h => by
    simp only [compiles, Bool.and_eq_true] at h
    cases s with
    | true => simp [picks, given] at h
    | false => exact .tuple (clear_all ts h.2)
  | .cls c, h => by
    simp only [compiles, Bool.and_eq_true, callable_iff] at h
    refine .cls ?_ h.2
    rw [← anyAble_iff, ← one3 _ _ _ .method .stream .exc]
    exact of_decide_eq_true h.1
  | .box c e, h => by
    simp only [compiles, Bool.and_eq_true, callable_iff, decide_eq_true_eq] at h
    obtain ⟨⟨h1, h2⟩, h3⟩ := h
    by_cases hs : c.substr = true
    · refine .string hs ?_ h2
      rw [picks_string hs, one4, isWchar_iff, anyAble_iff] at h1
      exact h1
    · rw [Bool.not_eq_true] at hs
      rw [picks_box hs] at h1 h3
      have := (one_given ..).1 h1
      refine .box hs (anyAble_false.1 this.1) this.2.1 this.2.2 (clear_of e ?_)
      simpa [given, this] using h3
  | .adaptor c u, h => by
    simp only [compiles, Bool.and_eq_true] at h
    have := (one_given (anyAble c) c.stream c.exc .method .stream .adaptor .exc).1 (of_decide_eq_true h.1)
    exact .adaptor (anyAble_false.1 this.1) this.2.1 this.2.2 (clear_of u h.2)
  | .both c e u, h => by
    simp only [compiles, Bool.and_eq_true] at h
    have : anyAble c = false ∧ c.stream = false ∧ c.exc = false ∧ c.substr = true ∧ e.isWchar = false := by
      have h1 := of_decide_eq_true h.1
      simp only [picks] at h1
      revert h1
      cases anyAble c <;> cases c.stream <;> cases c.exc <;> cases c.substr <;> cases e.isWchar <;> simp [given]
    exact .both this.2.2.2.1 (fun he => by rw [isWchar_iff.2 he] at this; simp at this) (anyAble_false.1 this.1) this.2.1 this.2.2.1 (clear_of u h.2)
theorem clear_all : ∀ ts, compilesAll ts = true → ∀ t ∈ ts, Clear t
  | [], _ => by simp
  | t :: ts, h => by
    simp only [compilesAll, Bool.and_eq_true] at h
    have h1 := clear_of t h.1
    have h2 := clear_all ts h.2
    intro x hx
    rcases List.mem_cons.1 hx with e | hx
    · rw [e]; exact h1
    · exact h2 x hx
end

theorem compilesAll_iff : ∀ ts, compilesAll ts = true ↔ ∀ t ∈ ts, compiles t = true
  | [] => by simp [compilesAll]
  | t :: ts => by simp [compilesAll, compilesAll_iff ts]

theorem compiles_of {t : Ty} (h : Clear t) : compiles t = true := by
  induction h with
  | raw s => cases s <;> rfl
  | pair _ _ iha ihb => simp [compiles, picks, given, iha, ihb]
  | tuple _ ih => simp [compiles, picks, given, (compilesAll_iff _).2 ih]
  | @cls c h1 h2 =>
    rw [compiles, callable_iff.2 h2]
    rw [Bool.and_true, decide_eq_true_eq, picks, one3, anyAble_iff]
    exact h1
  | @box c e h1 h2 h3 h4 _ ih =>
    rw [compiles, callable_iff.2 (callable_not h2)]
    simp [picks, given, h1, h3, h4, anyAble_false.2 h2, ih]
  | @string c e h1 h2 h3 =>
    rw [compiles, callable_iff.2 h3, picks_string h1]
    have hc : (given (anyAble c) Pick.method ++ given c.stream .stream ++ given e.isWchar .wide ++ given c.exc .exc).contains .container = false := by
      cases anyAble c <;> cases c.stream <;> cases e.isWchar <;> cases c.exc <;> rfl
    rw [hc, Bool.not_false, Bool.true_or, Bool.and_true, Bool.and_true, decide_eq_true_eq, one4, isWchar_iff, anyAble_iff]
    exact h2
  | adaptor h1 h2 h3 _ ih => simp [compiles, picks, given, h2, h3, anyAble_false.2 h1, ih]
  | @both c e u h1 h2 h3 h4 h5 _ ih =>
    have : e.isWchar = false := by rw [← Bool.not_eq_true, isWchar_iff]; exact h2
    simp [compiles, picks, given, h1, h4, h5, this, anyAble_false.2 h3, ih]
  | _ => rfl

/-- A value can be printed, and so be used in an expectation at all, exactly if its type has no more than one way to print at each depth. -/
theorem C95_compiles (t : Ty) : compiles t = true ↔ Clear t := ⟨clear_of t, compiles_of⟩

theorem quoted_eq (r : Bool) (t : Text) : quoted r t = InQuotes r t := by cases r <;> simp [quoted, InQuotes, quoteIf]

theorem takeWhile_nul {t : Text} (h : '\x00' ∉ t) : t.takeWhile (· ≠ '\x00') = t := by
  induction t with
  | nil => rfl
  | cons c t ih =>
    simp only [List.mem_cons, not_or] at h
    rw [List.takeWhile_cons_of_pos (by simpa using Ne.symm h.1), ih h.2]

theorem streamed_eq (r b : Bool) {t : Text} (h : '\x00' ∉ t) : streamed r b t = InQuotes (r && b) t := by
  rw [streamed, takeWhile_nul h, quoted_eq]

theorem narrow_eq (t : Text) : narrow t = Latin t := by
  simp only [narrow, Latin]
  apply List.map_congr_left
  intro c _
  by_cases h : c.toNat ≤ 255
  · rw [if_pos h, if_neg (by omega)]
  · rw [if_neg h, if_pos (by omega)]

theorem narrow_nul {t : Text} (h : '\x00' ∉ t) : '\x00' ∉ narrow t := by
  rw [narrow, List.mem_map]
  rintro ⟨c, hc, e⟩
  split at e
  · exact h (e ▸ hc)
  · exact absurd e (by decide)

theorem first_called {c : Cls} {m : Method} (h : First c m) (hc : Callable c) : called c = m ∧ anyAble c = true := by
  refine ⟨?_, anyAble_iff.2 ?_⟩
  · cases h <;> simp_all [called, able, Callable]
  · cases h <;> exact ⟨_, ‹_›⟩

theorem box_callable {c : Cls} {e : Ty} (h : Clear (.box c e)) : Callable c := by
  cases h with
  | box h1 h2 => exact callable_not h2
  | string h1 h2 h3 => exact h3

/-- Elements after others. -/
def rest : List Text → Text
  | [] => []
  | s :: ss => ", ".toList ++ s ++ rest ss

theorem intercalate_rest (s : Text) (ss : List Text) : List.intercalate ", ".toList (s :: ss) = s ++ rest ss := by
  induction ss generalizing s with
  | nil => simp [List.intercalate, rest]
  | cons t ss ih =>
    have := ih t
    simp only [List.intercalate, List.intersperse_cons₂, List.flatten_cons] at this ⊢
    rw [this, rest]; simp

mutual
theorem shows {r : Bool} : ∀ {t v s}, Shows r t v s → Clear t → print r t v = s
  | _, _, _, .null, _ => by simp [print]
  | _, _, _, .true_, _ => by simp [print]
  | _, _, _, .false_, _ => by simp [print]
  | _, _, _, .num, _ => by simp [print, picks]
  | _, _, _, .uchar, _ => by simp [print]
  | _, _, _, .char, _ => by cases r <;> simp [print, quoteIf]
  | _, _, _, @Shows.wchar _ c, _ => by
    have := narrow_eq [c]
    simp only [narrow, List.map_cons, List.map_nil] at this
    cases r <;> simp [print, quoteIf, narrowChar, ← this]
  | _, _, _, .none, _ => by simp [print, charsText]
  | _, _, _, .wnone, _ => by simp [print, charsText]
  | _, _, _, .chars h, _ => by simp [print, charsText, streamed_eq _ _ h]
  | _, _, _, .wchars h, _ => by simp [print, charsText, streamed_eq _ _ (narrow_eq _ ▸ narrow_nul h), narrow_eq]
  | _, _, _, .raw h, _ => by simp [print, streamed_eq _ _ h, InQuotes]
  | _, _, _, .opaque, _ => by simp [print]
  | _, _, _, .pair h1 h2, h => by
    cases h with
    | pair ha hb => rw [print, shows h1 ha, shows h2 hb]; simp
  | _, _, _, .tuple h1, h => by
    cases h with
    | tuple ht =>
      rw [print, (showsEach h1 ht).1]; simp
  | _, _, _, .own hf, h => by
    cases h with
    | cls _ hc =>
      obtain ⟨h1, h2⟩ := first_called hf hc
      simp [print, picks, given, h1, h2, quoted_eq]
  | _, _, _, .ownBox hf, h => by
    obtain ⟨h1, h2⟩ := first_called hf (box_callable h)
    simp [print, picks, given, h1, h2, quoted_eq]
  | _, _, _, .stream h1 h2 h3, _ => by simp [print, picks, given, anyAble_false.2 h1, h2, streamed_eq _ _ h3]
  | _, _, _, .streamBox h1 h2 h3, _ => by simp [print, picks, given, anyAble_false.2 h1, h2, streamed_eq _ _ h3]
  | _, _, _, .what h1 h2 h3 h4 h5, _ => by simp [print, picks, given, anyAble_false.2 h1, h2, h3, h4, charsText, streamed_eq _ _ h5]
  | _, _, _, .unknown h1 h2 h3, _ => by simp [print, picks, given, anyAble_false.2 h1, h2, h3]
  | _, _, _, @Shows.elems _ c e o vs ss h1 h2 h3 h4 h5, h => by
    have he : Clear e := by
      cases h with
      | box _ _ _ _ he => exact he
      | string hs => rw [h1] at hs; cases hs
    rw [print, picks_box h1, anyAble_false.2 h2, h3]
    simp [given, Nat.not_lt.2 h4, (showsAll h5 he).1]
  | _, _, _, .many h1 h2 h3 h4, _ => by
    rw [print, picks_box h1, anyAble_false.2 h2, h3]
    simp [given, h4]
  | _, _, _, @Shows.wide _ c o t h1 h2 h3 h4, _ => by
    rw [print, picks_string h1, anyAble_false.2 h2, h3]
    have : (t.map Val.char).map charOf = t := by simp [List.map_map, Function.comp_def, charOf]
    simp only [given, Ty.isWchar, this]
    simp [charsText, streamed_eq _ _ (narrow_eq _ ▸ narrow_nul h4), narrow_eq]
  | _, _, _, .under h1, h => by
    cases h with
    | adaptor _ _ _ hu => rw [print, shows h1 hu]
  | _, _, _, .underBoth h1, h => by
    cases h with
    | both _ _ _ _ _ hu => rw [print, shows h1 hu]
theorem showsAll {r : Bool} : ∀ {t vs ss}, ShowsAll r t vs ss → Clear t →
    printAll r false t vs = List.intercalate ", ".toList ss ∧ printAll r true t vs = rest ss
  | _, _, _, .nil, _ => by simp [printAll, rest, List.intercalate]
  | _, _, _, .cons h1 h2, h => by
    have := showsAll h2 h
    rw [intercalate_rest, printAll, printAll, shows h1 h, this.2]
    simp [comma, rest]
theorem showsEach {r : Bool} : ∀ {ts vs ss}, ShowsEach r ts vs ss → (∀ t ∈ ts, Clear t) →
    printEach r false ts vs = List.intercalate ", ".toList ss ∧ printEach r true ts vs = rest ss
  | _, _, _, .nil, _ => by simp [printEach, rest, List.intercalate]
  | _, _, _, .cons h1 h2, h => by
    have := showsEach h2 fun t ht => h t (by simp [ht])
    rw [intercalate_rest, printEach, printEach, shows h1 (h _ (by simp)), this.2]
    simp [comma, rest]
end

/-- A value whose type can be printed is shown by what the type provides, at every depth. -/
theorem C95_shows (r : Bool) (t : Ty) (v : Val) (s : Text) (hc : Clear t) (h : Shows r t v s) : print r t v = s := shows h hc

/-- A class with two methods, one of which gives a text. -/
def point : Cls := { ret := fun | .ToString => .text | .tostring => .other | _ => .none }

/-- A class derived from `std::exception`. -/
def oops : Cls := { exc := true }

/-- A vector of pairs of points and tuples of a text and an exception. -/
example : Clear (.box {} (.pair false (.cls point) (.tuple false [.chars, .cls oops]))) ∧
    Shows true (.box {} (.pair false (.cls point) (.tuple false [.chars, .cls oops])))
      (.obj {} [.pair (.obj { says := fun _ => "1:2".toList } []) (.tuple [.ptr (some "no".toList), .obj { what := some "oops".toList } []])])
      ('[' :: List.intercalate ", ".toList ['(' :: ['"', '1', ':', '2', '"'] ++ ", ".toList ++ ('(' :: List.intercalate ", ".toList
        [['"', 'n', 'o', '"'], "\"oops\"".toList] ++ [')']) ++ [')']] ++ [']']) := by
  refine ⟨(C95_compiles _).1 (by decide), .elems rfl ?_ rfl ?_ (.cons (.pair (.own (m := .ToString) (.ToString ?_ ?_ ?_ rfl)) (.tuple (.cons (.chars ?_)
    (.cons (.what (t := "oops".toList) ?_ rfl rfl rfl ?_) .nil)))) .nil)⟩
  · rintro ⟨m, h⟩; cases h
  all_goals first | decide | (rintro ⟨m, h⟩; cases h)

example : print true (.box {} (.pair false (.cls point) (.tuple false [.chars, .cls oops])))
    (.obj {} [.pair (.obj { says := fun _ => "1:2".toList } []) (.tuple [.ptr (some "no".toList), .obj { what := some "oops".toList } []])]) =
      "[(\"1:2\", (\"no\", \"oops\"))]".toList := by decide +kernel

/-- "A class with `tostring()` and `operator<<` can be printed" is false, and so are a few alike: `std::bitset` has both. -/
theorem C95_two_false (c : Cls) (e : Ty) (hm : Methodic c ∨ c.exc = true) (hs : c.stream = true) :
    compiles (.cls c) = false ∧ compiles (.box c e) = false := by
  constructor <;> (rw [← Bool.not_eq_true, C95_compiles]; intro h)
  · cases h with
    | cls h1 =>
      simp only [AtMostOne, List.pairwise_cons, List.forall_mem_cons] at h1
      rcases hm with hm | hm
      · exact h1.1.1 ⟨hm, hs⟩
      · exact h1.2.1.1 ⟨hs, hm⟩
  · cases h with
    | box _ _ h1 => rw [hs] at h1; cases h1
    | string _ h1 =>
      simp only [AtMostOne, List.pairwise_cons, List.forall_mem_cons] at h1
      rcases hm with hm | hm
      · exact h1.1.1 ⟨hm, hs⟩
      · exact h1.2.1.1 ⟨hs, hm⟩

/-- "A container, pair or tuple with `operator<<` can be printed" is false. -/
theorem C95_container_false (c : Cls) (a b : Ty) (ts : List Ty) (hs : c.stream = true) (hb : c.substr = false) :
    compiles (.box c a) = false ∧ compiles (.adaptor c a) = false ∧ compiles (.pair true a b) = false ∧ compiles (.tuple true ts) = false := by
  refine ⟨?_, ?_, ?_, ?_⟩ <;> (rw [← Bool.not_eq_true, C95_compiles]; intro h)
  · cases h with
    | box _ _ h1 => rw [hs] at h1; cases h1
    | string h1 => rw [hb] at h1; cases h1
  · cases h with
    | adaptor _ h1 => rw [hs] at h1; cases h1
  · cases h
  · cases h

/-- "A class with `Tostring()` can be printed" is false if it has neither `tostring()` nor `toString()`. -/
theorem C95_Tostring_false (c : Cls) (h1 : c.ret .Tostring = .text) (h2 : c.ret .tostring ≠ .text) (h3 : c.ret .toString ≠ .text) :
    compiles (.cls c) = false := by
  rw [← Bool.not_eq_true, C95_compiles]
  intro h
  cases h with
  | cls _ hc =>
    rcases hc with hc | hc | hc
    · exact hc h1
    · exact h2 hc
    · exact h3 hc

example : Methodic point ∧ compiles (.cls { point with stream := true }) = false :=
  ⟨⟨.ToString, rfl⟩, (C95_two_false _ .null (Or.inl ⟨.ToString, rfl⟩) rfl).1⟩

example : compiles (.cls { ret := fun | .Tostring => .text | _ => .none }) = false :=
  C95_Tostring_false _ rfl (by decide) (by decide)

end H2.Printer
