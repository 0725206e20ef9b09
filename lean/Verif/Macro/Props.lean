import Verif.Macro.Bridge
/-
C84: macros with a variable number of arguments choose the form for what is written.
-/
namespace H2.Macro

variable {user : String → Option Macro} {rest ts : List Tok}

theorem marks_none : marks (toks rest) = [] := marks_toks

/-- `H2PP_IS_EMPTY`: `1` when nothing is written between the parentheses, otherwise `0`.  The arguments (`raws`) can be macros; `as` is
what becomes of them. -/
theorem C84_empty (hu : Apart user) {raws as : List (List Tok)} (hr : raws ≠ []) (hf : ∀ a ∈ raws, fits false 0 a = true) (ha : Args63 (defs user) as)
    (he : Becomes (defs user) [] (toks (commas raws)) (commas as)) (h : Becomes (defs user) [] (toks rest) ts) :
    Becomes (defs user) [] (toks (call "H2PP_IS_EMPTY" raws ++ rest)) (.num (if as = [[]] then "1" else "0") :: ts) := by
  rw [call_eq, toks_append]
  rw [commas_eq, commas_eq] at he
  have e : (if as = [[]] then "1" else "0") = bit (as == [[]]) := by
    by_cases h : as = [[]]
    · simp [h, bit]
    · have : (as == [[]]) = false := by simpa using h
      rw [this, if_neg h]; rfl
  rw [e]
  exact isEmpty (N := []) hu hr (fun a h => bal_of_fits (hf a h)) ha.some ha.few ha.bal ha.plain ok_nil (by rw [marks_none]; exact ok_nil) (by rw [marks_none]; exact he) h

/-- `H2PP_NARG`: the number of arguments. -/
theorem C84_count (hu : Apart user) {raws as : List (List Tok)} (hr : raws ≠ []) (hf : ∀ a ∈ raws, fits false 0 a = true) (ha : Args63 (defs user) as)
    (he : Becomes (defs user) [] (toks (commas raws)) (commas as)) (h : Becomes (defs user) [] (toks rest) ts) :
    Becomes (defs user) [] (toks (call "H2PP_NARG" raws ++ rest)) (.num (toString (number as)) :: ts) := by
  rw [call_eq, toks_append]
  rw [commas_eq, commas_eq] at he
  exact narg (N := []) hu hr (fun a h => bal_of_fits (hf a h)) ha.some ha.few ha.bal ha.plain ok_nil (by rw [marks_none]; exact ok_nil) (by rw [marks_none]; exact he) h

/-- `H2PP_VCALL`: the same text as when the macro for that number of arguments is called. -/
theorem C84_vcall (hu : Apart user) {M : String} (hM : defs user M = none) {raws as : List (List Tok)} (hr : raws ≠ []) (hf : ∀ a ∈ raws, fits false 0 a = true) (ha : Args63 (defs user) as)
    (he : Becomes (defs user) [] (toks (commas raws)) (commas as)) (hG : reserved (M ++ toString (number as)) = false) (hc : Callable user (M ++ toString (number as))) {Y : List Tok}
    (hq : ∀ s, .id s ∈ Y → defs user s = none) (hY : Becomes (defs user) ["H2PP_VCALL"] (toks (call (M ++ toString (number as)) as)) Y) (h : Becomes (defs user) [] (toks rest) ts) :
    Becomes (defs user) [] (toks (call "H2PP_VCALL" ([.id M] :: raws) ++ rest)) (Y ++ ts) := by
  rw [call_eq, toks_append]
  rw [commas_eq, commas_eq] at he
  rw [call_eq] at hY
  refine vcall (N := []) hu hM hr (fun a h => bal_of_fits (hf a h)) ha.some ha.few ha.bal ha.plain ok_nil (by rw [marks_none]; exact ok_nil) (by rw [marks_none]; exact he) rfl ?_ hG hc hq ?_ h
  · rw [marks_none]; simp
  · rw [marks_none]; exact hY

/-- `H2PP_IS_PARENTHESIS` of one argument: `1` when it stands in parentheses. -/
theorem C84_parenthesis (hu : Apart user) {a : List Tok} (ha : Fixed (defs user) a) (h : Becomes (defs user) [] (toks rest) ts) :
    (∀ s, Enclosed a s → Becomes (defs user) [] (toks (call "H2PP_IS_PARENTHESIS" [a] ++ rest)) (.num "1" :: ts)) ∧
    ((∀ s, ¬ Enclosed a s) → Becomes (defs user) [] (toks (call "H2PP_IS_PARENTHESIS" [a] ++ rest)) (.num "0" :: ts)) := by
  have := isParen (N := []) hu ha.bal ha.plain (out := []) (r := toks rest) ok_nil (by rw [marks_none]; exact ok_nil) h
  rw [call_eq, toks_append]
  refine ⟨fun s hs => ?_, fun hn => ?_⟩
  · rw [(enclosed_iff ha.bal).1 hs] at this; exact this
  · have hi : inner a = none := by
      cases hi : inner a with
      | none => rfl
      | some x => exact absurd ((enclosed_iff ha.bal).2 hi) (hn x)
    rw [hi] at this; exact this

/-- `H2PP_REMOVE_PARENTHESES_IF` of one argument. -/
theorem C84_remove (hu : Apart user) {a s : List Tok} (ha : Fixed (defs user) a) (hs : Bare a s) (h : Becomes (defs user) [] (toks rest) ts) :
    Becomes (defs user) [] (toks (call "H2PP_REMOVE_PARENTHESES_IF" [a] ++ rest)) (s ++ ts) := by
  rw [call_eq, toks_append, bare_iff ha.bal hs]
  exact removeParenIf (N := []) hu ha.bal ha.plain ok_nil (by rw [marks_none]; exact ok_nil) h

/-- `H2PP_FOREACH`: for every element, in their order, what the macro writes for the argument, the number of the element and the element;
the separator between them.  Up to 33 elements, so that the numbers are right. -/
theorem C84_foreach (hu : Apart user) {S s A : List Tok} {M : String} (hS : Fixed (defs user) S) (hs : Bare S s) (hM : reserved M = false) (hc : Callable user M) (hA : Fixed (defs user) A)
    {xs : List (List Tok)} (hxs : List63 (defs user) xs) (h33 : xs.length ≤ 33) {o : Nat → List Tok → List Tok}
    (ho : ∀ i x, xs[i]? = some x → Writes user [M] (call M [A, [.num (toString i)], x]) (o i x) ∧ (∀ t, .id t ∈ o i x → defs user t = none) ∧ fits true 0 (o i x) = true)
    (h : Becomes (defs user) [] (toks rest) ts) :
    Becomes (defs user) [] (toks (call "H2PP_FOREACH" ([S, [.id M], A] ++ (if xs = [] then [[]] else xs)) ++ rest))
      ((xs.mapIdx fun i x => (if i = 0 then [] else s) ++ o i x).flatten ++ ts) := by
  haveI : Free [M] := ⟨by simpa using hM⟩
  have g : Given user [M] S M A := ⟨hS.plain, hS.bal, callee_still hc (by simp), still_plain hA.plain, hA.bal⟩
  have := foreach (N := [M]) hu g (raws := norm xs) (norm_ne xs) (bal_norm hxs.els.bal) hxs.els (o := o) ?_ ?_ [] (toks rest) ts ok_nil (by rw [marks_none]; exact ok_nil) h
  · rw [eachAll_eq hS.bal hs] at this
    simp only [Nat.zero_add] at this
    rw [call_eq, toks_append]
    exact this
  · intro i x hx
    obtain ⟨w, p, f⟩ := ho i x hx
    have hi : i < xs.length := by rcases List.getElem?_eq_some_iff.1 hx with ⟨h, _⟩; exact h
    rw [call_eq, ← idx_number (by omega)] at w
    exact ⟨w.step, p, bal_of_fits f⟩
  · rw [join_norm]
    exact arg_plain (plain_join hxs.els.plain)

/-- `H2PP_FULLMESH`: for every element of the first list, and for it for every element of the second, in their order. -/
theorem C84_fullmesh (hu : Apart user) {S s A : List Tok} {M : String} (hS : Fixed (defs user) S) (hs : Bare S s) (hM : reserved M = false) (hc : Callable user M) (hA : Fixed (defs user) A)
    {xs ys : List (List Tok)} (hxs : List63 (defs user) xs) (hys : List63 (defs user) ys) (hx33 : xs.length ≤ 33) (hy33 : ys.length ≤ 33) {o : Nat → Nat → List Tok → List Tok → List Tok}
    (ho : ∀ i j x y, xs[i]? = some x → ys[j]? = some y → Writes user [M] (call M [A, [.num (toString i)], [.num (toString j)], x, y]) (o i j x y) ∧
      (∀ t, .id t ∈ o i j x y → defs user t = none) ∧ fits true 0 (o i j x y) = true)
    (h : Becomes (defs user) [] (toks rest) ts) :
    Becomes (defs user) [] (toks (call "H2PP_FULLMESH" [S, [.id M], A, [.lp] ++ commas xs ++ [.rp], [.lp] ++ commas ys ++ [.rp]] ++ rest))
      ((xs.mapIdx fun i x => (ys.mapIdx fun j y => (if i = 0 ∧ j = 0 then [] else s) ++ o i j x y).flatten).flatten ++ ts) := by
  haveI : Free [M] := ⟨by simpa using hM⟩
  have g : Given user [M] S M A := ⟨hS.plain, hS.bal, callee_still hc (by simp), still_plain hA.plain, hA.bal⟩
  have := fullmesh (N := [M]) hu g (X := [.lp] ++ commas xs ++ [.rp]) (Y := [.lp] ++ commas ys ++ [.rp]) (xs := xs) (ys := ys) (o := o) ⟨by simp [commas_eq, par], hxs.els⟩ ⟨by simp [commas_eq, par], hys.els⟩ ?_
    [] (toks rest) ts ok_nil (by rw [marks_none]; exact ok_nil) h
  · rw [xAll_eq hS.bal hs] at this
    simp only [Nat.zero_add] at this
    rw [call_eq, toks_append]
    exact this
  · intro i j x y hx hy
    obtain ⟨w, p, f⟩ := ho i j x y hx hy
    have hi : i < xs.length := by rcases List.getElem?_eq_some_iff.1 hx with ⟨h, _⟩; exact h
    have hj : j < ys.length := by rcases List.getElem?_eq_some_iff.1 hy with ⟨h, _⟩; exact h
    rw [call_eq, ← idx_number (by omega), ← idx_number (i := j) (by omega)] at w
    exact ⟨w.step, p, bal_of_fits f⟩

/-- `H2Foreach(f, (x, …))`: the text of the calls of `f`, one for each element, in their order.  The list can be a macro (`raw`); `a` is
what becomes of it. -/
theorem C84_h2foreach (hu : Apart user) {f : String} (hM : reserved f = false) (hc : Callable user f) {raw a : List Tok} (hr : fits false 0 raw = true)
    (he : Becomes (defs user) [] (toks raw) a) (ha : Fixed (defs user) a) {xs : List (List Tok)} (hxs : List63 (defs user) xs)
    (hb : Bare a (commas xs)) {o : List Tok → List Tok} (ho : ∀ x ∈ xs, Writes user [f] (call f [x]) (o x) ∧ (∀ t, .id t ∈ o x → defs user t = none) ∧ fits true 0 (o x) = true)
    (h : Becomes (defs user) [] (toks rest) ts) :
    Becomes (defs user) [] (toks (call "H2Foreach" [[.id f], raw] ++ rest)) ((xs.map o).flatten ++ ts) := by
  haveI : Free [f] := ⟨by simpa using hM⟩
  have := h2foreach (N := [f]) (out := []) (r := toks rest) hu hc (by simp) (bal_of_fits hr) ha.bal ha.plain hxs.els (by rw [← commas_eq]; exact bare_iff ha.bal hb) (o := o)
    (fun x hx => by obtain ⟨w, p, b⟩ := ho x hx; rw [call_eq] at w; exact ⟨w, p, bal_of_fits b⟩) ok_nil (by rw [marks_none]; exact ok_nil) (by rw [marks_none]; exact he) h
  rw [eachAll_eq .nil (s := []) (.inr ⟨by simp [Enclosed], rfl⟩)] at this
  rw [call_eq, toks_append]
  simpa [mapIdx_const] using this

/-- `H2Fullmesh(f, (x, …), (y, …))`: the text of the calls of `f`, one for each pair; `H2Fullmesh(f, (x, …))` takes the list twice. -/
theorem C84_h2fullmesh (hu : Apart user) {f : String} (hM : reserved f = false) (hc : Callable user f) {raws Ts xs ys : List (List Tok)} (hr0 : raws ≠ []) (hr : ∀ a ∈ raws, fits false 0 a = true)
    (he : Becomes (defs user) [] (toks (commas raws)) (commas Ts)) (hxs : List63 (defs user) xs) (hys : List63 (defs user) ys)
    (hT : Ts = [[.lp] ++ commas xs ++ [.rp], [.lp] ++ commas ys ++ [.rp]] ∨ Ts = [[.lp] ++ commas xs ++ [.rp]] ∧ ys = xs)
    {o : List Tok → List Tok → List Tok} (ho : ∀ x ∈ xs, ∀ y ∈ ys, Writes user [f] (call f [x, y]) (o x y) ∧ (∀ t, .id t ∈ o x y → defs user t = none) ∧ fits true 0 (o x y) = true)
    (h : Becomes (defs user) [] (toks rest) ts) :
    Becomes (defs user) [] (toks (call "H2Fullmesh" ([.id f] :: raws) ++ rest)) ((xs.map fun x => (ys.map (o x)).flatten).flatten ++ ts) := by
  haveI : Free [f] := ⟨by simpa using hM⟩
  rw [commas_eq, commas_eq] at he
  have := h2fullmesh (N := [f]) (out := []) (r := toks rest) hu hc (by simp) (X := [.lp] ++ commas xs ++ [.rp]) (xs := xs) (ys := ys) ⟨by simp [commas_eq, par], hxs.els⟩ hr0
    (fun a h => bal_of_fits (hr a h)) (Ts := Ts) (by
      rcases hT with rfl | ⟨rfl, rfl⟩
      · exact .inr ⟨_, rfl, ⟨by simp [commas_eq, par], hys.els⟩⟩
      · exact .inl ⟨rfl, rfl⟩) (o := o)
    (fun x hx y hy => by obtain ⟨w, p, b⟩ := ho x hx y hy; rw [call_eq] at w; exact ⟨w, p, bal_of_fits b⟩) ok_nil (by rw [marks_none]; exact ok_nil) (by rw [marks_none]; exact he) h
  rw [xAll_eq .nil (s := []) (.inr ⟨by simp [Enclosed], rfl⟩)] at this
  rw [call_eq, toks_append]
  simpa [mapIdx_const] using this

/-- The call of a function, or of anything that is no macro, writes the call. -/
theorem C84_function {f : String} (hf : defs user f = none) {as : List (List Tok)} (ha : ∀ a ∈ as, Fixed (defs user) a) (own : List String) : Writes user own (call f as) (call f as) := by
  intro out r ts _ h
  refine pass_plain ?_ h
  intro s hs
  rw [call_eq] at hs
  simp only [callT, List.mem_cons, List.mem_append, List.not_mem_nil, or_false, reduceCtorEq, false_or, Tok.id.injEq] at hs
  rcases hs with rfl | hs
  · exact hf
  · exact plain_join (fun a h => (ha a h).plain) s hs

/-- Without macros of the user. -/
def none1 : String → Option Macro := fun _ => none

theorem apart_none : Apart none1 := fun _ _ => rfl

theorem num_fixed (n : String) : Fixed (defs user) [.num n] := ⟨rfl, by simp⟩

/-- What is needed to call a function. -/
theorem function_gives {f : String} (hf : defs user f = none) {as : List (List Tok)} (ha : ∀ a ∈ as, Fixed (defs user) a) (own : List String) :
    Writes user own (call f as) (call f as) ∧ (∀ t, .id t ∈ call f as → defs user t = none) ∧ fits true 0 (call f as) = true := by
  refine ⟨C84_function hf ha own, ?_, ?_⟩
  · intro s hs
    rw [call_eq] at hs
    simp only [callT, List.mem_cons, List.mem_append, List.not_mem_nil, or_false, reduceCtorEq, false_or, Tok.id.injEq] at hs
    rcases hs with rfl | hs
    · exact hf
    · exact plain_join (fun a h => (ha a h).plain) s hs
  · rw [call_eq]; exact fits_of_bal (bal_callT fun a h => (ha a h).bal)

/-- `H2Foreach(f, (x, …))` of a function is the calls of the function. -/
theorem C84_calls (hu : Apart user) {f : String} (hM : reserved f = false) (hf : defs user f = none) {xs : List (List Tok)} (hxs : List63 (defs user) xs) :
    Becomes (defs user) [] (toks (call "H2Foreach" [[.id f], [.lp] ++ commas xs ++ [.rp]])) (xs.map fun x => call f [x]).flatten := by
  have hb : Bal true (commas xs) := by rw [commas_eq]; exact bal_join hxs.els.bal
  have hF : Fixed (defs user) ([.lp] ++ commas xs ++ [.rp]) := ⟨fits_of_bal (c := false) (.paren (ys := []) hb .nil), by
    intro s hs
    simp only [List.mem_append, List.mem_cons, List.not_mem_nil, or_false, reduceCtorEq, false_or, commas_eq] at hs
    exact plain_join hxs.els.plain s hs⟩
  have := C84_h2foreach (rest := []) (ts := []) hu hM (fun m h => by rw [hf] at h; cases h) hF.fits (pass_plain' hF.plain) hF hxs (.inl ⟨fits_of_bal hb, rfl⟩) (o := fun x => call f [x])
    (fun x hx => function_gives hf (by simpa using hxs.each x hx) _) .nil
  simpa using this

/-- `H2Fullmesh(f, (x, …), (y, …))` of a function is the calls of the function for all pairs. -/
theorem C84_pairs (hu : Apart user) {f : String} (hM : reserved f = false) (hf : defs user f = none) {xs ys : List (List Tok)} (hxs : List63 (defs user) xs) (hys : List63 (defs user) ys) :
    Becomes (defs user) [] (toks (call "H2Fullmesh" [[.id f], [.lp] ++ commas xs ++ [.rp], [.lp] ++ commas ys ++ [.rp]])) (xs.map fun x => (ys.map fun y => call f [x, y]).flatten).flatten := by
  have hb : ∀ zs, List63 (defs user) zs → Fixed (defs user) ([.lp] ++ commas zs ++ [.rp]) := by
    intro zs hz
    have hb : Bal true (commas zs) := by rw [commas_eq]; exact bal_join hz.els.bal
    refine ⟨fits_of_bal (c := false) (.paren (ys := []) hb .nil), ?_⟩
    intro s hs
    simp only [List.mem_append, List.mem_cons, List.not_mem_nil, or_false, reduceCtorEq, false_or, commas_eq] at hs
    exact plain_join hz.els.plain s hs
  have := C84_h2fullmesh (rest := []) (ts := []) hu hM (fun m h => by rw [hf] at h; cases h) (raws := [[.lp] ++ commas xs ++ [.rp], [.lp] ++ commas ys ++ [.rp]]) (by simp)
    (by intro a ha; simp only [List.mem_cons, List.not_mem_nil, or_false] at ha; rcases ha with rfl | rfl; (exact (hb _ hxs).fits); exact (hb _ hys).fits)
    (pass_plain' (by rw [commas_eq]; refine plain_join ?_; intro a ha; simp only [List.mem_cons, List.not_mem_nil, or_false] at ha; rcases ha with rfl | rfl; (exact (hb _ hxs).plain); exact (hb _ hys).plain))
    hxs hys (.inl rfl) (o := fun x y => call f [x, y])
    (fun x hx y hy => function_gives hf (by
      intro a ha; simp only [List.mem_cons, List.not_mem_nil, or_false] at ha; rcases ha with rfl | rfl; (exact hxs.each _ hx); exact hys.each _ hy) _) .nil
  simpa using this

/-! ### Cases -/

/-- `#define LIST 1, 2, 3`, `#define TEST_2(a, b) a + b`, `#define SHOW(A, i, x) x i A`. -/
def sample : String → Option Macro := fun s =>
  if s = "LIST" then some ⟨none, [.tok (.num "1"), .tok .comma, .tok (.num "2"), .tok .comma, .tok (.num "3")]⟩
  else if s = "TEST_2" then some ⟨some (2, false), [.arg 0, .tok (.other "+"), .arg 1]⟩
  else if s = "SHOW" then some ⟨some (3, false), [.arg 2, .arg 1, .arg 0]⟩
  else none

theorem apart_sample : Apart sample := by
  intro s hs
  unfold sample
  rw [if_neg, if_neg, if_neg]
  all_goals (rintro rfl; revert hs; decide +kernel)

theorem nums_args (l : List String) (h0 : l ≠ []) (h : l.length ≤ 63) : Args63 (defs user) (l.map fun n => [.num n]) :=
  ⟨by simpa using h0, by simp only [List.mem_map]; rintro a ⟨n, _, rfl⟩; exact num_fixed n, by simpa using h⟩

theorem nums_list (l : List String) (h : l.length ≤ 63) : List63 (defs user) (l.map fun n => [.num n]) :=
  ⟨by simp only [List.mem_map]; rintro a ⟨n, _, rfl⟩; exact num_fixed n, by
    intro e
    have := List.mem_of_getLast? e
    simp at this, by simpa using h⟩

/-- `H2PP_NARG(LIST)` is 3, though one argument is written. -/
example : Becomes (defs sample) [] (toks (call "H2PP_NARG" [[.id "LIST"]])) [.num "3"] :=
  C84_count (rest := []) apart_sample (raws := [[.id "LIST"]]) (as := ["1", "2", "3"].map fun n => [.num n]) (by simp) (by simp [fits]) (nums_args _ (by simp) (by simp))
    ⟨20, by decide +kernel⟩ .nil

/-- `H2PP_IS_EMPTY()` is 1, and `H2PP_IS_EMPTY((1))` is 0. -/
example : Becomes (defs sample) [] (toks (call "H2PP_IS_EMPTY" [[]])) [.num "1"] ∧ Becomes (defs sample) [] (toks (call "H2PP_IS_EMPTY" [[.lp, .num "1", .rp]])) [.num "0"] :=
  ⟨C84_empty (rest := []) apart_sample (raws := [[]]) (as := [[]]) (by simp) (by simp [fits]) ⟨by simp, by simp only [List.mem_singleton]; rintro a rfl; exact ⟨rfl, by simp⟩, by simp⟩ .nil .nil,
   C84_empty (rest := []) apart_sample (raws := [[.lp, .num "1", .rp]]) (as := [[.lp, .num "1", .rp]]) (by simp) (by simp [fits])
     ⟨by simp, by simp only [List.mem_singleton]; rintro a rfl; exact ⟨rfl, by simp⟩, by simp⟩ ⟨20, by decide +kernel⟩ .nil⟩

/-- `H2PP_VCALL(TEST_, 7, 8)` is `TEST_2(7, 8)`. -/
example : Becomes (defs sample) [] (toks (call "H2PP_VCALL" [[.id "TEST_"], [.num "7"], [.num "8"]])) [.num "7", .other "+", .num "8"] :=
  C84_vcall (rest := []) (ts := []) (Y := [.num "7", .other "+", .num "8"]) apart_sample (M := "TEST_") (by decide +kernel) (raws := [[.num "7"], [.num "8"]]) (as := ["7", "8"].map fun n => [.num n]) (by simp) (by simp [fits])
    (nums_args _ (by simp) (by simp)) ⟨20, by decide +kernel⟩ (by decide +kernel) (fun m h => by
      have : defs sample "TEST_2" = some ⟨some (2, false), [.arg 0, .tok (.other "+"), .arg 1]⟩ := by decide +kernel
      rw [show "TEST_" ++ toString (number (["7", "8"].map fun n => [Tok.num n])) = "TEST_2" by decide +kernel, this] at h
      cases h; simp) (by simp) ⟨20, by decide +kernel⟩ .nil

/-- `H2PP_REMOVE_PARENTHESES_IF((1, 2))` and `H2PP_REMOVE_PARENTHESES_IF(1)`. -/
example : Becomes (defs sample) [] (toks (call "H2PP_REMOVE_PARENTHESES_IF" [[.lp, .num "1", .comma, .num "2", .rp]])) [.num "1", .comma, .num "2"] ∧
    Becomes (defs sample) [] (toks (call "H2PP_REMOVE_PARENTHESES_IF" [[.num "1"]])) [.num "1"] :=
  ⟨C84_remove (rest := []) (ts := []) (a := [.lp, .num "1", .comma, .num "2", .rp]) (s := [.num "1", .comma, .num "2"]) apart_sample ⟨rfl, by simp⟩ (.inl ⟨by decide, rfl⟩) .nil,
   C84_remove (rest := []) (ts := []) (a := [.num "1"]) (s := [.num "1"]) apart_sample ⟨rfl, by simp⟩ (.inr ⟨by simp [Enclosed], rfl⟩) .nil⟩

/-- `H2PP_IS_PARENTHESIS((1))` is 1, and `H2PP_IS_PARENTHESIS((1)(2))` is 0. -/
example : Becomes (defs sample) [] (toks (call "H2PP_IS_PARENTHESIS" [[.lp, .num "1", .rp]])) [.num "1"] ∧
    Becomes (defs sample) [] (toks (call "H2PP_IS_PARENTHESIS" [[.lp, .num "1", .rp, .lp, .num "2", .rp]])) [.num "0"] := by
  refine ⟨(C84_parenthesis (rest := []) (ts := []) (a := [.lp, .num "1", .rp]) apart_sample ⟨rfl, by simp⟩ .nil).1 [.num "1"] ⟨rfl, rfl⟩, (C84_parenthesis (rest := []) (ts := []) (a := [.lp, .num "1", .rp, .lp, .num "2", .rp]) apart_sample ⟨rfl, by simp⟩ .nil).2 ?_⟩
  rintro s ⟨hf, e⟩
  have hs : s = [.num "1", .rp, .lp, .num "2"] := by
    have := congrArg (fun l => (l.drop 1).dropLast) e
    simpa using this.symm
  subst hs
  revert hf
  decide

/-- `H2PP_FOREACH((;), SHOW, A, 7, 8)` is `7 0 A ; 8 1 A`. -/
example : Becomes (defs sample) [] (toks (call "H2PP_FOREACH" [[.lp, .other ";", .rp], [.id "SHOW"], [.id "A"], [.num "7"], [.num "8"]]))
    [.num "7", .num "0", .id "A", .other ";", .num "8", .num "1", .id "A"] := by
  have hA : defs sample "A" = none := by decide +kernel
  have hd : defs sample "SHOW" = some ⟨some (3, false), [.arg 2, .arg 1, .arg 0]⟩ := by decide +kernel
  have pa : Fixed (defs sample) [.id "A"] := ⟨rfl, by simpa using hA⟩
  refine C84_foreach (rest := []) (ts := []) apart_sample (M := "SHOW") (S := [.lp, .other ";", .rp]) (A := [.id "A"]) (xs := ["7", "8"].map fun n => [.num n]) (s := [.other ";"]) ⟨rfl, by simp⟩ (.inl ⟨rfl, rfl⟩) (by decide +kernel) (fun m h => by rw [hd] at h; cases h; simp) pa
    (nums_list ["7", "8"] (by simp)) (by simp) (o := fun i x => x ++ [.num (toString i), .id "A"]) ?_ .nil
  intro i x hx
  have hx' : ∃ n, x = [.num n] := by
    have := List.mem_of_getElem? hx
    simp only [List.map_cons, List.map_nil, List.mem_cons, List.not_mem_nil, or_false] at this
    rcases this with rfl | rfl <;> exact ⟨_, rfl⟩
  obtain ⟨n, rfl⟩ := hx'
  refine ⟨?_, by simpa using hA, rfl⟩
  intro out r ts haw h
  rw [call_eq]
  refine .fn hd rfl [[.id "A"], [.num (toString i)], [.num n]] (haw "SHOW" (by simp)) (by simp) (by simp [bal_id, bal_num]) rfl (fun k => [[.id "A"], [.num (toString i)], [.num n]].getD k []) ?_
    (b := [.num n, .num (toString i), .id "A"]) (by simp [build]) ?_
  · intro k hk
    simp at hk
    have hk' : k = 0 ∨ k = 1 ∨ k = 2 := by omega
    clear hk
    rcases hk' with rfl | rfl | rfl
    · exact pass_plain' pa.plain
    · exact pass_plain' (num_fixed _).plain
    · exact pass_plain' (num_fixed _).plain
  · exact .tok (by simp) (.tok (by simp) (.name hA (.mark h)))

/-- `H2Foreach(f, (1, 2, 3))` is `f(1) f(2) f(3)`. -/
example : Becomes (defs sample) [] (toks (call "H2Foreach" [[.id "f"], [.lp, .num "1", .comma, .num "2", .comma, .num "3", .rp]])) (call "f" [[.num "1"]] ++ call "f" [[.num "2"]] ++ call "f" [[.num "3"]]) :=
  C84_calls apart_sample (f := "f") (by decide +kernel) (by decide +kernel) (nums_list ["1", "2", "3"] (by simp))

/-- `H2Foreach(f, (LIST))` too. -/
example : Becomes (defs sample) [] (toks (call "H2Foreach" [[.id "f"], [.lp, .id "LIST", .rp]])) (call "f" [[.num "1"]] ++ call "f" [[.num "2"]] ++ call "f" [[.num "3"]]) := by
  have hf : defs sample "f" = none := by decide +kernel
  refine C84_h2foreach (rest := []) (ts := []) apart_sample (f := "f") (by decide +kernel) (fun m h => by rw [hf] at h; cases h) (raw := [.lp, .id "LIST", .rp]) rfl (a := [.lp, .num "1", .comma, .num "2", .comma, .num "3", .rp]) ⟨20, by decide +kernel⟩
    ⟨rfl, by simp⟩ (nums_list ["1", "2", "3"] (by simp)) (.inl ⟨rfl, rfl⟩) (o := fun x => call "f" [x]) (fun x hx => function_gives hf ?_ _) .nil
  simpa using (nums_list ["1", "2", "3"] (by simp)).each x hx

/-- `H2Fullmesh(f, (1, 2), (3, 4))` is `f(1, 3) f(1, 4) f(2, 3) f(2, 4)`. -/
example : Becomes (defs sample) [] (toks (call "H2Fullmesh" [[.id "f"], [.lp, .num "1", .comma, .num "2", .rp], [.lp, .num "3", .comma, .num "4", .rp]]))
    ([("1", "3"), ("1", "4"), ("2", "3"), ("2", "4")].map fun p => call "f" [[.num p.1], [.num p.2]]).flatten := by
  have := C84_pairs apart_sample (f := "f") (by decide +kernel) (by decide +kernel) (nums_list ["1", "2"] (by simp)) (nums_list ["3", "4"] (by simp))
  simpa [commas, List.intercalate] using this

/-- `H2PP_FULLMESH(, f, A, (1, 2), (3))` is `f(A, 0, 0, 1, 3) f(A, 1, 0, 2, 3)`. -/
example : Becomes (defs sample) [] (toks (call "H2PP_FULLMESH" [[], [.id "f"], [.id "A"], [.lp, .num "1", .comma, .num "2", .rp], [.lp, .num "3", .rp]]))
    (call "f" [[.id "A"], [.num "0"], [.num "0"], [.num "1"], [.num "3"]] ++ call "f" [[.id "A"], [.num "1"], [.num "0"], [.num "2"], [.num "3"]]) := by
  have hf : defs sample "f" = none := by decide +kernel
  have hA : Fixed (defs sample) [.id "A"] := ⟨rfl, by simp only [List.mem_singleton, Tok.id.injEq]; rintro s rfl; decide +kernel⟩
  have := C84_fullmesh (rest := []) (ts := []) apart_sample (M := "f") (S := []) (s := []) (A := [.id "A"]) ⟨rfl, by simp⟩ (.inr ⟨by simp [Enclosed], rfl⟩) (by decide +kernel)
    (fun m h => by rw [hf] at h; cases h) hA (nums_list ["1", "2"] (by simp)) (nums_list ["3"] (by simp)) (by simp) (by simp)
    (o := fun i j x y => call "f" [[.id "A"], [.num (toString i)], [.num (toString j)], x, y]) (fun i j x y hx hy => function_gives hf (by
      intro a ha
      simp only [List.mem_cons, List.not_mem_nil, or_false] at ha
      rcases ha with rfl | rfl | rfl | rfl | rfl
      · exact hA
      · exact num_fixed _
      · exact num_fixed _
      · exact (nums_list ["1", "2"] (by simp)).each _ (List.mem_of_getElem? hx)
      · exact (nums_list ["3"] (by simp)).each _ (List.mem_of_getElem? hy)) _) .nil
  have e0 : Nat.repr 0 = "0" := rfl
  have e1 : Nat.repr 1 = "1" := rfl
  simpa [commas, List.intercalate, e0, e1] using this

/-! ### What does not hold -/

/-- Several arguments without parentheses around them: `H2PP_REMOVE_PARENTHESES_IF(1, 2, 3)` is not `1, 2, 3`; so
`H2Foreach(f, 1, 2, 3)` and `Cases("…", 1, 2, 3)` do not do what they do with parentheses. -/
theorem C84_several_false : ¬ Becomes (defs none1) [] (toks (call "H2PP_REMOVE_PARENTHESES_IF" [[.num "1"], [.num "2"], [.num "3"]])) (commas [[.num "1"], [.num "2"], [.num "3"]]) := by
  intro h
  have h' : Becomes (defs none1) [] (toks (call "H2PP_REMOVE_PARENTHESES_IF" [[.num "1"], [.num "2"], [.num "3"]]))
    [.id "_H2PP_REMOVE_PARENTHESES_IF__H2PP_IF_ELSE_2", .lp, .num "0", .comma, .num "0", .rp, .lp, .num "1", .comma, .num "2", .comma, .num "3", .rp] := ⟨300, by decide +kernel⟩
  have := h.unique h'
  revert this
  decide

/-- More arguments than 65 are not counted. -/
theorem C84_many_false : ¬ Becomes (defs none1) [] (toks (call "H2PP_NARG" (List.replicate 66 [.num "1"]))) [.num "66"] := by
  intro h
  have h' : Becomes (defs none1) [] (toks (call "H2PP_NARG" (List.replicate 66 [.num "1"]))) [.num "1"] := ⟨1000, by decide +kernel⟩
  have := h.unique h'
  revert this
  decide

/-- `#define f() ()`. -/
def parens : String → Option Macro := fun s => if s = "f" then some ⟨some (0, false), [.tok .lp, .tok .rp]⟩ else none

/-- The name of a macro can look like nothing: an argument `f` is not counted. -/
theorem C84_name_false : ¬ Becomes (defs parens) [] (toks (call "H2PP_NARG" [[.id "f"]])) [.num "1"] := by
  intro h
  have h' : Becomes (defs parens) [] (toks (call "H2PP_NARG" [[.id "f"]])) [.num "0"] := ⟨300, by decide +kernel⟩
  have := h.unique h'
  revert this
  decide

/-- An empty element at the end is left out. -/
theorem C84_last_false : ¬ Becomes (defs none1) [] (toks (call "H2PP_FOREACH" [[], [.id "M"], [], [.num "1"], []])) (call "M" [[], [.num "0"], [.num "1"]] ++ call "M" [[], [.num "1"], []]) := by
  intro h
  have h' : Becomes (defs none1) [] (toks (call "H2PP_FOREACH" [[], [.id "M"], [], [.num "1"], []])) (call "M" [[], [.num "0"], [.num "1"]]) := ⟨1000, by decide +kernel⟩
  have := h.unique h'
  revert this
  decide

/-- The numbers of the elements are right up to the 33rd element only: the 34th does not get the number 33. -/
theorem C84_index_false : ¬ Becomes (defs none1) [] (toks (call "H2PP_FOREACH" ([[], [.id "M"], []] ++ List.replicate 34 [.num "7"])))
    ((List.replicate 34 [.num "7"]).mapIdx fun i x => call "M" [[], [.num (toString i)], x]).flatten := by
  intro h
  have hM : defs none1 "M" = none := by decide +kernel
  have g : Given none1 [] [] "M" [] := ⟨by intro s hs; simp at hs, .nil, ⟨.inl hM, trivial⟩, trivial, .nil⟩
  have hxs : List63 (defs none1) (List.replicate 34 [.num "7"]) := by
    have := nums_list (user := none1) (List.replicate 34 "7") (by simp)
    simpa using this
  have h' := foreach (N := []) apart_none g (raws := List.replicate 34 [.num "7"]) (by simp) hxs.els.bal hxs.els (o := fun i x => callT "M" [[], [idx i], x]) ?_ (arg_plain (plain_join hxs.els.plain))
    [] [] [] ok_nil ok_nil .nil
  · rw [call_eq] at h
    rw [List.append_nil, List.append_nil] at h'
    have := h.unique h'
    revert this
    decide +kernel
  · intro i x hx
    have hi : i < 34 := by rcases List.getElem?_eq_some_iff.1 hx with ⟨h, _⟩; simpa using h
    have hm := List.mem_of_getElem? hx
    have hp : Plain (defs none1) (callT "M" [[], [idx i], x]) := by
      intro s hs
      simp only [callT, List.mem_cons, List.mem_append, List.not_mem_nil, or_false, reduceCtorEq, false_or, Tok.id.injEq] at hs
      rcases hs with rfl | hs
      · exact hM
      · refine plain_join (xs := [[], [idx i], x]) ?_ s hs
        intro a ha
        simp only [List.mem_cons, List.not_mem_nil, or_false] at ha
        rcases ha with rfl | rfl | rfl
        · intro s hs; simp at hs
        · exact plain_idx apart_none (by omega)
        · exact hxs.els.plain _ hm
    refine ⟨.plain hp, hp, bal_callT (d := false) ?_⟩
    intro a ha
    simp only [List.mem_cons, List.not_mem_nil, or_false] at ha
    rcases ha with rfl | rfl | rfl
    · exact .nil
    · exact bal_idx
    · exact hxs.els.bal _ hm

end H2.Macro
