import Verif.Macro.RepeatProps
import Verif.Macro.First
/-
C106: the value from which the variables of `Cases`, `Casess` and `Todos` get their types.
-/
namespace H2.Macro

variable {user : String → Option Macro} {rest : List Tok} {ts : List Tok}

/-- `H2_An`: the first of the values, without parentheses around it or around the list.  The values can be macros (`raws`); `xs` is what becomes of them. -/
theorem C106_first (hu : Apart user) (hk : Kept user) {n : Nat} (hn : n ≤ 256) {raws xs : List (List Tok)} {v : List Tok} (hr : raws ≠ []) (hf : ∀ a ∈ raws, fits false 0 a = true)
    (hA : Becomes (defs (cases user)) [] (toks (commas raws)) (commas xs)) (hv : FirstIn (defs (cases user)) n xs v) (h : Becomes (defs (cases user)) [] (toks rest) ts) :
    Becomes (defs (cases user)) [] (toks (call "H2_An" raws ++ rest)) (v ++ ts) := by
  rw [commas_eq, commas_eq] at hA
  rw [call_eq, toks_append]
  exact an hu hk hn hv hr (fun a h => bal_of_fits (hf a h)) (by rw [marks_none]; exact hA) (by rw [marks_none]; simp) ok_nil (by rw [marks_none]; exact ok_nil) h

/-- `H2_XAn`: the first of the values of the first list, and `H2_YAn`: of the last list. -/
theorem C106_lists (hu : Apart user) (hk : Kept user) {ls : List (List Tok)} (hl : List63 (defs (cases user)) ls) {l l' : List Tok} (h1 : ls.head? = some l) (h2 : ls.getLast? = some l')
    {n n' : Nat} (hn : n ≤ 256) (hn' : n' ≤ 256) {v v' : List Tok} (hv : FirstIn (defs (cases user)) n [l] v) (hv' : FirstIn (defs (cases user)) n' [l'] v')
    (h : Becomes (defs (cases user)) [] (toks rest) ts) :
    Becomes (defs (cases user)) [] (toks (call "H2_XAn" ls ++ rest)) (v ++ ts) ∧ Becomes (defs (cases user)) [] (toks (call "H2_YAn" ls ++ rest)) (v' ++ ts) := by
  cases ls with
  | nil => simp at h1
  | cons x xs =>
    simp only [List.head?_cons, Option.some.injEq] at h1
    subst h1
    have hxs := hl.els
    have hpx : Plain (defs (cases user)) (join (x :: xs)) := plain_join hxs.plain
    have hx : Ok anNames 29 (marks (.mark "H2_XAn" :: toks rest)) := by rw [marks, marks_none]; unfold Ok; decide +kernel
    have hy : Ok anNames 29 (marks (.mark "H2_YAn" :: toks rest)) := by rw [marks, marks_none]; unfold Ok; decide +kernel
    rw [call_eq, call_eq, toks_append, toks_append]
    refine ⟨?_, ?_⟩
    · refine .fn dXAn rfl (x :: xs) (by rw [marks_none]; simp) (by simp) hxs.bal (bs := [join (x :: xs)]) (by simp [bind]) (fun _ => join (x :: xs)) ?_
        (b := callT "H2_An" [callT "H2PP_HEAD" (x :: xs)]) (by simp [anX, build, callT, join]) ?_
      · intro j hj
        simp [anX] at hj
        subst hj
        exact pass_plain' hpx
      · refine an hu hk hn hv (by simp) (by simp; exact bal_callT hxs.bal) ?_ (by rw [marks, marks_none]; simp) ok_nil hx (.mark h)
        have := Becomes.fin (head (N := []) (apart_cases hu) hxs.bal hpx hxs.len hxs.one (out := [] ++ marks (.mark "H2_XAn" :: toks rest)) (r := [])
          (by rw [marks, marks_none]; unfold Ok; decide +kernel) ok_nil .nil)
        simpa [join] using this
    · refine .fn dYAn rfl (x :: xs) (by rw [marks_none]; simp) (by simp) hxs.bal (bs := [join (x :: xs)]) (by simp [bind]) (fun _ => join (x :: xs)) ?_
        (b := callT "H2_An" [callT "H2PP_LAST" (x :: xs)]) (by simp [anY, build, callT, join]) ?_
      · intro j hj
        simp [anY] at hj
        subst hj
        exact pass_plain' hpx
      · refine an hu hk hn' hv' (by simp) (by simp; exact bal_callT hxs.bal) ?_ (by rw [marks, marks_none]; simp) ok_nil hy (.mark h)
        have := (last (N := []) (apart_cases hu) hxs).fin (D := [] ++ marks (.mark "H2_YAn" :: toks rest)) (by rw [marks, marks_none]; unfold Ok; decide +kernel)
        have e : (x :: xs).getLast (by simp) = l' := by
          rw [List.getLast?_eq_some_getLast (by simp)] at h2
          exact Option.some.inj h2
        rw [e] at this
        simpa [join] using this

/-! ### Cases -/

theorem kept_none : Kept none1 := ⟨rfl, rfl⟩

theorem args_of {T : String → Option Macro} {xs : List (List Tok)} (h0 : xs ≠ []) (hf : ∀ x ∈ xs, fits false 0 x = true) (hq : ∀ x ∈ xs, ∀ s, .id s ∉ x) (h : xs.length ≤ 63) : Args63 T xs :=
  ⟨h0, fun x hx => ⟨hf x hx, fun s hs => absurd hs (hq x hx s)⟩, h⟩

theorem not_enclosed {x : List Tok} (h : x.head? ≠ some .lp) : ∀ s, ¬ Enclosed x s := by
  rintro s ⟨_, rfl⟩
  simp at h

theorem first_nums (a : String) (l : List String) (h : l.length ≤ 62) {T : String → Option Macro} : FirstIn T 0 ((a :: l).map fun n => [.num n]) [.num a] := by
  refine .value (by simp) (args_of (by simp) ?_ ?_ (by simp; omega)) (not_enclosed (by simp))
  · intro x hx
    simp only [List.mem_cons, List.mem_map] at hx
    rcases hx with rfl | ⟨n, _, rfl⟩ <;> rfl
  · intro x hx s
    simp only [List.mem_cons, List.mem_map] at hx
    rcases hx with rfl | ⟨n, _, rfl⟩ <;> simp

theorem list_nums (a : String) (l : List String) (h : l.length ≤ 62) {T : String → Option Macro} :
    FirstIn T 1 [[.lp] ++ commas ((a :: l).map fun n => [.num n]) ++ [.rp]] [.num a] := by
  have hb : ∀ y ∈ (a :: l).map fun n => [Tok.num n], fits false 0 y = true := by
    intro x hx
    simp only [List.mem_map] at hx
    obtain ⟨n, _, rfl⟩ := hx
    rfl
  have hf : fits true 0 (commas ((a :: l).map fun n => [Tok.num n])) = true := by
    rw [commas_eq]
    exact fits_of_bal (bal_join fun y hy => bal_of_fits (hb y hy))
  refine .inside (args_of (by simp) ?_ ?_ (by simp)) (by simp) hb ⟨hf, rfl⟩ (first_nums a l h)
  · simp only [List.mem_singleton]
    rintro x rfl
    have := bal_par (c := false) (d := false) (args := (a :: l).map fun n => [Tok.num n]) fun y hy => bal_of_fits (hb y hy)
    have e : [Tok.lp] ++ commas ((a :: l).map fun n => [Tok.num n]) ++ [.rp] = par ((a :: l).map fun n => [Tok.num n]) := by rw [commas_eq]; simp [par]
    rw [e]
    exact fits_of_bal this
  · simp only [List.mem_singleton]
    rintro x rfl s hs
    rw [commas_eq] at hs
    simp only [List.mem_append, List.mem_cons, List.not_mem_nil, or_false, reduceCtorEq, false_or] at hs
    have : Plain (fun _ => some anTop) (join ((a :: l).map fun n => [Tok.num n])) := plain_join fun y hy s hs => by
      simp only [List.mem_map] at hy
      obtain ⟨n, _, rfl⟩ := hy
      simp at hs
    cases this s hs

/-- `H2_An(7, 8)` and `H2_An((7, 8))` are 7. -/
example : Becomes (defs (cases none1)) [] (toks (call "H2_An" [[.num "7"], [.num "8"]])) [.num "7"] ∧
    Becomes (defs (cases none1)) [] (toks (call "H2_An" [[.lp, .num "7", .comma, .num "8", .rp]])) [.num "7"] := by
  have h1 := C106_first (user := none1) (rest := []) (ts := []) apart_none kept_none (n := 0) (by decide) (raws := [[.num "7"], [.num "8"]]) (by simp) (by simp [fits]) ⟨20, by decide +kernel⟩ (first_nums "7" ["8"] (by simp)) .nil
  have h2 := C106_first (user := none1) (rest := []) (ts := []) apart_none kept_none (n := 1) (by decide) (raws := [[.lp, .num "7", .comma, .num "8", .rp]]) (by simp) (by simp [fits]) ⟨20, by decide +kernel⟩ (list_nums "7" ["8"] (by simp)) .nil
  exact ⟨by simpa using h1, by simpa using h2⟩

/-- `H2_XAn((1, 2), (7, 8, 9))` is 1 and `H2_YAn((1, 2), (7, 8, 9))` is 7. -/
example : Becomes (defs (cases none1)) [] (toks (call "H2_XAn" [[.lp, .num "1", .comma, .num "2", .rp], [.lp, .num "7", .comma, .num "8", .comma, .num "9", .rp]])) [.num "1"] ∧
    Becomes (defs (cases none1)) [] (toks (call "H2_YAn" [[.lp, .num "1", .comma, .num "2", .rp], [.lp, .num "7", .comma, .num "8", .comma, .num "9", .rp]])) [.num "7"] := by
  have := C106_lists (user := none1) (rest := []) (ts := []) apart_none kept_none (ls := [[.lp, .num "1", .comma, .num "2", .rp], [.lp, .num "7", .comma, .num "8", .comma, .num "9", .rp]])
    ⟨by simp only [List.mem_cons, List.not_mem_nil, or_false]; rintro x (rfl | rfl) <;> exact ⟨rfl, by simp⟩, by simp, by simp⟩ rfl rfl (n := 1) (n' := 1) (by decide) (by decide)
    (list_nums "1" ["2"] (by simp)) (list_nums "7" ["8", "9"] (by simp)) .nil
  exact ⟨by simpa using this.1, by simpa using this.2⟩

/-- `P{1, 2}` in parentheses. -/
def pointValue : List Tok := [.lp, .id "P", .other "{", .num "1", .comma, .num "2", .other "}", .rp]

/-- A value that is put in parentheses for the sake of a comma in braces is torn: for `Cases(name, (P{1, 2}), 3)` the type would be that of `P{1`, although the list has the
value itself. -/
theorem C106_comma_false :
    Becomes (defs (cases none1)) [] (toks (call "H2_An" [pointValue, [.num "3"]])) [.id "P", .other "{", .num "1"] ∧
    Becomes (defs (cases none1)) [] (toks (call "H2PP_HEAD" [pointValue, [.num "3"]])) pointValue ∧
    ¬ Becomes (defs (cases none1)) [] (toks (call "H2_An" [pointValue, [.num "3"]])) pointValue := by
  have h : Becomes (defs (cases none1)) [] (toks (call "H2_An" [pointValue, [.num "3"]])) [.id "P", .other "{", .num "1"] := by
    have hP : defs (cases none1) "P" = none := by decide +kernel
    have hq : ∀ s, s = "P" → defs (cases none1) s = none := fun s h => h ▸ hP
    have hv : FirstIn (defs (cases none1)) 1 [pointValue, [.num "3"]] [.id "P", .other "{", .num "1"] := by
      refine .inside (ys := [[.id "P", .other "{", .num "1"], [.num "2", .other "}"]]) ⟨by simp, ?_, by simp⟩ (by simp) (by simp [fits]) ⟨by decide, by decide⟩ (.value (by simp) ⟨by simp, ?_, by simp⟩ (not_enclosed (by simp)))
      · simp only [List.mem_cons, List.not_mem_nil, or_false]
        rintro x (rfl | rfl)
        · exact ⟨by decide, fun s hs => hq s (by simpa [pointValue] using hs)⟩
        · exact ⟨rfl, by simp⟩
      · simp only [List.mem_cons, List.not_mem_nil, or_false]
        rintro x (rfl | rfl)
        · exact ⟨by decide, fun s hs => hq s (by simpa using hs)⟩
        · exact ⟨rfl, by simp⟩
    have := C106_first (user := none1) (rest := []) (ts := []) apart_none kept_none (n := 1) (by decide) (raws := [pointValue, [.num "3"]]) (by simp) (by simp [pointValue, fits]) ⟨20, by decide +kernel⟩ hv .nil
    simpa using this
  refine ⟨h, ⟨400, by decide +kernel⟩, fun h' => ?_⟩
  have := h.unique h'
  revert this
  decide

end H2.Macro
