import Verif.Macro.Eval
/-
The macros of the library that go through lists.
-/
namespace H2.Macro

variable {user : String → Option Macro} {N : List String} [Free N] {out : List String} {r : List Item} {ts us : List Tok}

/-- Replacement of an argument, which a comma or a parenthesis follows. -/
def Arg (user : String → Option Macro) (N : List String) (k : Nat) (X Y : List Tok) : Prop :=
  ∀ out r ts, Ok N k out → Ok N k (marks r) → opens r = none → Becomes (defs user) out r ts → Becomes (defs user) out (toks X ++ r) (Y ++ ts)

omit [Free N] in
theorem Step.arg {k : Nat} {X Y : List Tok} (h : Step user N k X Y) : Arg user N k X Y := fun out r ts h1 h2 _ hr => h out r ts h1 h2 hr

omit [Free N] in
theorem Arg.mono {k j : Nat} {X Y : List Tok} (h : Arg user N k X Y) (hj : k ≤ j) : Arg user N j X Y :=
  fun out r ts h1 h2 ho hr => h out r ts (h1.mono hj) (h2.mono hj) ho hr

omit [Free N] in
theorem arg_still {k : Nat} {X : List Tok} (h : Still (defs user) N X) (hk : 1 ≤ k) : Arg user N k X X :=
  fun out r ts h1 h2 ho hr => pass_still (N := N) h (ok_append.2 ⟨h1.mono hk, h2.mono hk⟩) ho hr

omit [Free N] in
theorem Arg.fin {k : Nat} {X Y : List Tok} (h : Arg user N k X Y) {D : List String} (hD : Ok N k D) : Becomes (defs user) D (toks X) Y := by
  have := h D [] [] hD ok_nil rfl .nil
  simpa using this

/-- Texts of several arguments, each replaced. -/
inductive Args (user : String → Option Macro) (N : List String) (k : Nat) : List (List Tok) → List (List Tok) → Prop where
  | one {X Y : List Tok} : Arg user N k X Y → Args user N k [X] [Y]
  | cons {X Y : List Tok} {Xs Ys : List (List Tok)} : Arg user N k X Y → Args user N k Xs Ys → Args user N k (X :: Xs) (Y :: Ys)

omit [Free N] in
theorem Args.pass {k : Nat} {Xs Ys : List (List Tok)} (h : Args user N k Xs Ys) : Arg user N k (join Xs) (join Ys) := by
  induction h with
  | one h => exact h
  | @cons X Y Xs Ys h hs ih =>
    intro out r ts h1 h2 ho hr
    cases Xs with
    | nil => cases hs
    | cons X' Xs' =>
      cases Ys with
      | nil => cases hs
      | cons Y' Ys' =>
        rw [join, join, toks_append, List.append_assoc, List.append_assoc]
        refine h out _ _ h1 ?_ rfl (.tok (by simp) (ih out r ts h1 h2 ho hr))
        rw [marks_append, marks_toks]; exact h2

omit [Free N] in
theorem Args.par {k : Nat} {Xs Ys : List (List Tok)} (h : Args user N k Xs Ys) : Step user N k (par Xs) (par Ys) := by
  intro out r ts h1 h2 hr
  have e : toks (H2.Macro.par Xs) ++ r = .tok .lp :: (toks (join Xs) ++ .tok .rp :: r) := by simp [H2.Macro.par, toks]
  have e' : H2.Macro.par Ys ++ ts = .lp :: (join Ys ++ .rp :: ts) := by simp [H2.Macro.par]
  rw [e, e']
  exact .tok (by simp) (h.pass out _ _ h1 h2 rfl (.tok (by simp) hr))

/-! ### Deferring -/

theorem defer {X : String} {m : Macro} {p : Nat × Bool} (hX : defs user X = some m) (hp : m.params = some p) (hr : rank N X = 0) : Step user N 2 (callT "H2PP_DEFER" [[.id X]]) [.id X] := by
  intro out r ts h1 h2 h
  refine .fn dH2PP_DEFER rfl [[.id X]] (Ok.not_mem (N := N) (k := 2) (by ok) (by rw [rH2PP_DEFER]; decide)) (by simp) (by simp [bal_id]) (bs := [[.id X]]) (by simp [bind, join])
    (fun _ => [.id X]) ?_ (b := .id X :: callT "H2PP_EMPTY" [[]]) (by simp [build, callT, join]) ?_
  · intro i hi
    simp at hi
    subst hi
    exact .alone (r := []) hX hp (Ok.not_mem (N := N) (k := 1) (by ok) (by rw [hr]; decide)) rfl .nil
  · refine .alone hX hp ?_ rfl ?_
    · have hok : Ok N 1 (out ++ marks r) := by ok
      refine Ok.not_mem (N := N) (k := 1) ?_ (by rw [hr]; decide)
      show Ok N 1 (out ++ marks (toks (callT "H2PP_EMPTY" [[]]) ++ .mark "H2PP_DEFER" :: r))
      ok
    · refine .fn dH2PP_EMPTY rfl [[]] (Ok.not_mem (N := N) (k := 1) (by ok) (by rw [rH2PP_EMPTY]; decide)) (by simp) (by simp [Bal.nil]) (bs := [[]]) (by simp [bind, join])
        (fun _ => []) (by simp) (b := []) (by simp [build]) ?_
      exact .mark (.mark h)

/-! ### Lists -/

/-- The arguments that stand for the elements of a list: one empty argument for no element. -/
def norm (xs : List (List Tok)) : List (List Tok) := if xs = [] then [[]] else xs

theorem norm_ne (xs : List (List Tok)) : norm xs ≠ [] := by unfold norm; split <;> simp [*]

theorem join_norm (xs : List (List Tok)) : join (norm xs) = join xs := by unfold norm; split <;> simp [*, join]

theorem plain_join {T : String → Option Macro} {xs : List (List Tok)} (h : ∀ x ∈ xs, Plain T x) : Plain T (join xs) := by
  induction xs with
  | nil => intro s hs; simp [join] at hs
  | cons x xs ih =>
    cases xs with
    | nil => exact h x (.head _)
    | cons y ys =>
      intro s hs
      simp only [join, List.mem_append, List.mem_cons, reduceCtorEq, false_or] at hs
      exact hs.elim (h x (.head _) s) (ih (fun z hz => h z (.tail _ hz)) s)

theorem bal_norm {xs : List (List Tok)} (h : ∀ x ∈ xs, Bal false x) : ∀ x ∈ norm xs, Bal false x := by
  unfold norm
  split
  · simp [Bal.nil]
  · exact h

theorem plain_norm {T : String → Option Macro} {xs : List (List Tok)} (h : ∀ x ∈ xs, Plain T x) : ∀ x ∈ norm xs, Plain T x := by
  unfold norm
  split
  · simp [Plain]
  · exact h

theorem norm_length {xs : List (List Tok)} (h : xs.length ≤ 63) : (norm xs).length ≤ 63 := by
  unfold norm
  split
  · simp
  · exact h

theorem join_join {x y : List (List Tok)} (hy : y ≠ []) : join (x ++ [join y]) = join (x ++ y) := by
  induction x with
  | nil => simp [join]
  | cons a x ih =>
    cases x with
    | nil =>
      cases y with
      | nil => exact absurd rfl hy
      | cons b y => rfl
    | cons b x => simp only [List.cons_append, join] at ih ⊢; rw [ih]

/-- What is asked of the elements of a list. -/
structure Elements (user : String → Option Macro) (xs : List (List Tok)) : Prop where
  plain : ∀ x ∈ xs, Plain (defs user) x
  bal : ∀ x ∈ xs, Bal false x
  last : xs.getLast? ≠ some []
  len : xs.length ≤ 63

omit [Free N] in
theorem Elements.tail {x : List Tok} {xs : List (List Tok)} (h : Elements user (x :: xs)) : Elements user xs := by
  refine ⟨fun y hy => h.plain y (.tail _ hy), fun y hy => h.bal y (.tail _ hy), ?_, by have := h.len; simp at this; omega⟩
  have := h.last
  cases xs with
  | nil => simp
  | cons y ys => simpa [List.getLast?_cons_cons] using this

omit [Free N] in
theorem Elements.one {x : List Tok} {xs : List (List Tok)} (h : Elements user (x :: xs)) : x :: xs ≠ [[]] := by
  intro e
  have := h.last
  rw [e] at this
  simp at this

/-! ### `H2PP_FOREACH` -/

/-- What is asked of the separator, the macro and its first argument. -/
structure Given (user : String → Option Macro) (N : List String) (S : List Tok) (M : String) (A : List Tok) : Prop where
  sepPlain : Plain (defs user) S
  sepBal : Bal false S
  mac : Still (defs user) N [.id M]
  argStill : Still (defs user) N A
  argBal : Bal false A

/-- The separator that is written before the element with an index. -/
def sep (S : List Tok) (i : Nat) : List Tok := if i = 0 then [] else (inner S).getD S

section
variable {S A : List Tok} {M : String}

theorem callMacro (hu : Apart user) (g : Given user N S M A) {i : Nat} (hi : i < 64) {X x o : List Tok} (hX : Bal false X) (hx : Bal false x) (px : Plain (defs user) x)
    (eX : Arg user N 14 X x) (ho : Step user N 12 (callT M [A, [idx i], x]) o) :
    Step user N 14 (callT "_H2PP_FOREACH_CALL_MACRO" [S, [.id M], A, [idx i], X]) (sep S i ++ o) := by
  intro out r ts h1 h2 h
  have hbal : ∀ a ∈ [S, [.id M], A, [idx i], x], Bal false a := by simp [g.sepBal, g.argBal, bal_id, bal_idx, hx]
  refine .fn d_H2PP_FOREACH_CALL_MACRO rfl [S, [.id M], A, [idx i], X] (Ok.not_mem (N := N) (k := 14) (by ok) (by rw [r_H2PP_FOREACH_CALL_MACRO]; decide)) (by simp)
    (by simp [g.sepBal, g.argBal, bal_id, bal_idx, hX]) rfl (fun i' => [S, [.id M], A, [idx i], x].getD i' []) ?_
    (b := callT "H2PP_CAT2" [[.id "_H2PP_FOREACH_CALL_MACRO_"], callT "H2PP_EQ" [[.num "0"], [idx i]]] ++ par [S, [.id M], A, [idx i], x]) (by simp [build, callT, join, par]) ?_
  · intro i' hi'
    simp at hi'
    have hi'' : i' = 0 ∨ i' = 1 ∨ i' = 2 ∨ i' = 3 ∨ i' = 4 := by omega
    clear hi'
    rcases hi'' with rfl | rfl | rfl | rfl | rfl
    · exact pass_plain' g.sepPlain
    · exact pass_still' g.mac (by ok)
    · exact pass_still' g.argStill (by ok)
    · exact pass_plain' (plain_idx hu hi)
    · exact eX.fin (by ok)
  · have hP : defs user "_H2PP_FOREACH_CALL_MACRO_" = none := defs_none hu (by decide +kernel) (by decide +kernel)
    have hE : Becomes (defs user) (out ++ marks (.mark "_H2PP_FOREACH_CALL_MACRO" :: r)) (toks (callT "H2PP_EQ" [[.num "0"], [idx i]])) [.num (bit (i == 0))] :=
      .fin (eq0 (N := N) hu hi (by ok) (by ok) .nil)
    have he : ∀ j, j = 0 ∨ j = 1 ∨ j = 2 ∨ j = 3 ∨ j = 4 → Becomes (defs user) (out ++ marks (.mark "_H2PP_FOREACH_CALL_MACRO" :: r)) (toks ([S, [.id M], A, [idx i], x].getD j [])) ([S, [.id M], A, [idx i], x].getD j []) := by
      rintro j (rfl | rfl | rfl | rfl | rfl)
      · exact pass_plain' g.sepPlain
      · exact pass_still' g.mac (by ok)
      · exact pass_still' g.argStill (by ok)
      · exact pass_plain' (plain_idx hu hi)
      · exact pass_plain' px
    by_cases h0 : i = 0
    · have hb : (i == 0) = true := by simpa using h0
      rw [hb] at hE
      refine dispatch (N := N) (k := 13) (.inl rfl) hP (bal_callT (d := false) (by simp [bal_num, bal_idx])) hE (G := "_H2PP_FOREACH_CALL_MACRO_1") (by decide +kernel) d_H2PP_FOREACH_CALL_MACRO_1 rfl
        (by rw [r_H2PP_FOREACH_CALL_MACRO_1]; decide) (by ok) (by ok) (by decide) (by decide +kernel) [S, [.id M], A, [idx i], x] (by simp) hbal rfl
        (fun j => [S, [.id M], A, [idx i], x].getD j []) ?_ (bd := callT M [A, [idx i], x]) (by simp [build, callT, join]) ?_
      · intro j hj
        simp at hj
        exact he j (by omega)
      · rw [sep, if_pos h0, List.nil_append]
        exact ho out _ ts (by ok) (by ok) (.mark (.mark h))
    · have hb : (i == 0) = false := by simpa using h0
      rw [hb] at hE
      refine dispatch (N := N) (k := 13) (.inl rfl) hP (bal_callT (d := false) (by simp [bal_num, bal_idx])) hE (G := "_H2PP_FOREACH_CALL_MACRO_0") (by decide +kernel) d_H2PP_FOREACH_CALL_MACRO_0 rfl
        (by rw [r_H2PP_FOREACH_CALL_MACRO_0]; decide) (by ok) (by ok) (by decide) (by decide +kernel) [S, [.id M], A, [idx i], x] (by simp) hbal rfl
        (fun j => [S, [.id M], A, [idx i], x].getD j []) ?_ (bd := callT "H2PP_REMOVE_PARENTHESES_IF" [S] ++ callT M [A, [idx i], x]) (by simp [build, callT, join]) ?_
      · intro j hj
        simp at hj
        exact he j (by omega)
      · rw [sep, if_neg h0, toks_append, List.append_assoc, List.append_assoc]
        refine removeParenIf (N := N) hu g.sepBal g.sepPlain (by ok) ?_ (ho out _ ts (by ok) (by ok) (.mark (.mark h)))
        rw [marks_append, marks_toks]
        ok

/-- The arguments of `_H2PP_FOREACH`. -/
def eachArgs (S : List Tok) (M : String) (A : List Tok) (i : Nat) (xs : List (List Tok)) : List (List Tok) := [S, [.id M], A, [idx i]] ++ norm xs

/-- The text that is left for the next time. -/
def eachRest (S : List Tok) (M : String) (A : List Tok) (i : Nat) (xs : List (List Tok)) : List Tok := .id "__H2PP_FOREACH" :: .lp :: .rp :: par (eachArgs S M A i xs)

theorem bal_eachArgs (g : Given user N S M A) {i : Nat} {xs : List (List Tok)} (hb : ∀ x ∈ xs, Bal false x) : ∀ a ∈ eachArgs S M A i xs, Bal false a := by
  intro a ha
  simp only [eachArgs, List.mem_append, List.mem_cons, List.not_mem_nil, or_false] at ha
  rcases ha with (rfl | rfl | rfl | rfl) | ha
  · exact g.sepBal
  · exact bal_id
  · exact g.argBal
  · exact bal_idx
  · exact bal_norm hb a ha

theorem bal_eachRest (g : Given user N S M A) {i : Nat} {xs : List (List Tok)} (hb : ∀ x ∈ xs, Bal false x) : Bal true (eachRest S M A i xs) :=
  .tok (by simp) (by simp) (by simp) (.paren (xs := []) .nil (bal_par (bal_eachArgs g hb)))

/-- What one call of `_H2PP_FOREACH` becomes. -/
def eachOut (S : List Tok) (M : String) (A : List Tok) (o : Nat → List Tok → List Tok) (i : Nat) : List (List Tok) → List Tok
  | [] => []
  | x :: xs => (sep S i ++ o i x) ++ eachRest S M A (i + 1) xs

theorem each (hu : Apart user) (g : Given user N S M A) {o : Nat → List Tok → List Tok} {i : Nat} {xs : List (List Tok)} (hxs : Elements user xs) (hi : i + xs.length ≤ 63)
    (ho : ∀ x xs', xs = x :: xs' → Step user N 12 (callT M [A, [idx i], x]) (o i x)) (ms : List String) (hms : "_H2PP_FOREACH" ∉ ms)
    (h1 : Ok N 16 out) (h2 : Ok N 16 (marks r)) (h : Becomes (defs user) out r ts) :
    Becomes (defs user) out (.tok (.id "_H2PP_FOREACH") :: (ms.map .mark ++ .tok .lp :: (toks (join (eachArgs S M A i xs)) ++ .tok .rp :: r))) (eachOut S M A o i xs ++ ts) := by
  have hbx := bal_norm hxs.bal
  have hpx : Plain (defs user) (join (norm xs)) := plain_join (plain_norm hxs.plain)
  have hi' : i < 64 := by omega
  refine .call d_H2PP_FOREACH rfl ms (eachArgs S M A i xs) ?_ (by simp [eachArgs]) (bal_eachArgs g hxs.bal) (bs := [S, [.id M], A, [idx i], join (norm xs)]) (by simp [bind, eachArgs])
    (fun j => [S, [.id M], A, [idx i], join (norm xs)].getD j []) ?_
    (b := callT "H2PP_CAT2" [[.id "_H2PP_FOREACH_"], callT "H2PP_IS_EMPTY" (norm xs)] ++ par (eachArgs S M A i xs)) ?_ ?_
  · have hok : Ok N 16 (out ++ marks r) := ok_append.2 ⟨h1, h2⟩
    have hn := hok.not_mem (s := "_H2PP_FOREACH") (by rw [r_H2PP_FOREACH]; decide)
    simp only [List.mem_append, not_or] at hn ⊢
    exact ⟨hn.1, hms, hn.2⟩
  · intro j hj
    simp at hj
    have hj' : j = 0 ∨ j = 1 ∨ j = 2 ∨ j = 3 ∨ j = 4 := by omega
    clear hj
    rcases hj' with rfl | rfl | rfl | rfl | rfl
    · exact pass_plain' g.sepPlain
    · exact pass_still' g.mac (by ok)
    · exact pass_still' g.argStill (by ok)
    · exact pass_plain' (plain_idx hu hi')
    · exact pass_plain' hpx
  · have e := join_join (x := [S, [.id M], A, [idx i]]) (norm_ne xs)
    simp only [build, callT, par, eachArgs, ← e]
    simp [join]
  · have hP : defs user "_H2PP_FOREACH_" = none := defs_none hu (by decide +kernel) (by decide +kernel)
    have hE : Becomes (defs user) (out ++ marks (.mark "_H2PP_FOREACH" :: r)) (toks (callT "H2PP_IS_EMPTY" (norm xs))) [.num (bit (norm xs == [[]]))] :=
      .fin (isEmpty (N := N) hu (norm_ne xs) hbx (norm_ne xs) (norm_length hxs.len) hbx hpx (by ok) (by ok) (pass_plain' hpx) .nil)
    cases xs with
    | nil =>
      refine dispatch (N := N) (k := 15) (.inl rfl) hP (bal_callT hbx) hE (G := "_H2PP_FOREACH_1") (by decide +kernel) d_H2PP_FOREACH_1 rfl (by rw [r_H2PP_FOREACH_1]; decide)
        (by ok) (by ok) (by decide) (by decide +kernel) (eachArgs S M A i []) (by simp [eachArgs]) (bal_eachArgs g hxs.bal) (bs := [join (eachArgs S M A i [])]) (by simp [bind])
        (fun _ => []) (by simp) (bd := []) (by simp [build]) ?_
      exact .mark (.mark h)
    | cons x xs =>
      have hne : norm (x :: xs) = x :: xs := by simp [norm]
      have heb : (norm (x :: xs) == [[]]) = false := by rw [hne]; simpa using hxs.one
      rw [heb] at hE
      rw [hne] at hpx hbx
      refine dispatch (N := N) (k := 15) (.inl rfl) hP (bal_callT (by rw [hne]; exact hbx)) hE (G := "_H2PP_FOREACH_0") (by decide +kernel) d_H2PP_FOREACH_0 rfl (by rw [r_H2PP_FOREACH_0]; decide)
        (by ok) (by ok) (by decide) (by decide +kernel) (eachArgs S M A i (x :: xs)) (by simp [eachArgs]) (bal_eachArgs g hxs.bal) (bs := [S, [.id M], A, [idx i], join (x :: xs)]) (by simp [bind, eachArgs, hne])
        (fun j => [S, [.id M], A, [idx i], join (x :: xs)].getD j []) ?_
        (bd := callT "_H2PP_FOREACH_CALL_MACRO" [S, [.id M], A, [idx i], callT "H2PP_HEAD" (x :: xs)] ++ (callT "H2PP_DEFER" [[.id "__H2PP_FOREACH"]] ++ ([.lp, .rp] ++
          par [S, [.id M], A, callT "H2PP_CAT2" [[.id "H2PP_INC_"], [idx i]], callT "H2PP_TAIL" (x :: xs)]))) ?_ ?_
      · intro j hj
        simp at hj
        have hj' : j = 0 ∨ j = 1 ∨ j = 2 ∨ j = 3 ∨ j = 4 := by omega
        clear hj
        rcases hj' with rfl | rfl | rfl | rfl | rfl
        · exact pass_plain' g.sepPlain
        · exact pass_still' g.mac (by ok)
        · exact pass_still' g.argStill (by ok)
        · exact pass_plain' (plain_idx hu hi')
        · exact pass_plain' hpx
      · simp [build, callT, join, par]
      · have hlen := hxs.len
        have hx0 : Plain (defs user) x := hxs.plain x (.head _)
        have s1 : Step user N 14 (callT "_H2PP_FOREACH_CALL_MACRO" [S, [.id M], A, [idx i], callT "H2PP_HEAD" (x :: xs)]) (sep S i ++ o i x) :=
          callMacro hu g hi' (bal_callT hxs.bal) (hxs.bal x (.head _)) hx0
            (fun out r ts o1 o2 _ hr => head (N := N) hu hxs.bal hpx hlen hxs.one (o1.mono (by decide)) (o2.mono (by decide)) hr) (ho x xs rfl)
        have s2 : Step user N 14 (callT "H2PP_DEFER" [[.id "__H2PP_FOREACH"]]) [.id "__H2PP_FOREACH"] := (defer (N := N) d__H2PP_FOREACH rfl r__H2PP_FOREACH).mono (by decide)
        have s3 : Step user N 14 [.lp, .rp] [.lp, .rp] := .plain (by intro s hs; simp at hs)
        have s4 : Step user N 14 (par [S, [.id M], A, callT "H2PP_CAT2" [[.id "H2PP_INC_"], [idx i]], callT "H2PP_TAIL" (x :: xs)]) (par [S, [.id M], A, [idx (i + 1)], join xs]) := by
          refine Args.par (.cons (Step.plain g.sepPlain).arg (.cons (arg_still g.mac (by decide)) (.cons (arg_still g.argStill (by decide)) (.cons ?_ (.one ?_)))))
          · exact fun out r ts o1 o2 _ hr => inc (N := N) hu hi' (o1.mono (by decide)) (o2.mono (by decide)) hr
          · exact fun out r ts o1 o2 _ hr => tail (N := N) hu hxs.bal hpx hlen hxs.one (o1.mono (by decide)) (o2.mono (by decide)) hr
        have e : par [S, [.id M], A, [idx (i + 1)], join xs] = par (eachArgs S M A (i + 1) xs) := by
          have := join_join (x := [S, [.id M], A, [idx (i + 1)]]) (norm_ne xs)
          rw [join_norm] at this
          rw [par, par, eachArgs, ← this]; rfl
        rw [e] at s4
        have := (s1.append (s2.append (s3.append s4))) out (.mark "_H2PP_FOREACH_0" :: .mark "_H2PP_FOREACH" :: r) ts (by ok) (by ok) (.mark (.mark h))
        simpa [eachOut, eachRest] using this

theorem eachStep (hu : Apart user) (g : Given user N S M A) {o : Nat → List Tok → List Tok} {i : Nat} {xs : List (List Tok)} (hxs : Elements user xs) (hi : i + xs.length ≤ 63)
    (ho : ∀ x xs', xs = x :: xs' → Step user N 12 (callT M [A, [idx i], x]) (o i x)) : Step user N 20 (eachRest S M A i xs) (eachOut S M A o i xs) := by
  intro out r ts h1 h2 h
  have hm : marks (toks (par (eachArgs S M A i xs)) ++ r) = marks r := by rw [marks_append, marks_toks]; rfl
  have key := each (N := N) hu g hxs hi ho ["__H2PP_FOREACH"] (by decide +kernel) (h1.mono (by decide)) (h2.mono (by decide)) h
  have := Becomes.fn (T := defs user) (out := out) (r := toks (par (eachArgs S M A i xs)) ++ r) d__H2PP_FOREACH rfl [[]]
    (Ok.not_mem (N := N) (k := 1) (by rw [hm]; ok) (by rw [r__H2PP_FOREACH]; decide)) (by simp) (by simp [Bal.nil]) (bs := []) (by simp [bind]) (fun _ => []) (by simp)
    (b := [.id "_H2PP_FOREACH"]) (by simp [build]) (by simpa [par, toks] using key)
  simpa [eachRest, callT, join, toks] using this

/-- All that is written for a list. -/
def eachAll (S : List Tok) (o : Nat → List Tok → List Tok) : Nat → List (List Tok) → List Tok
  | _, [] => []
  | i, x :: xs => (sep S i ++ o i x) ++ eachAll S o (i + 1) xs

theorem inner_some {S xs : List Tok} (hb : Bal false S) (h : inner S = some xs) : S = .lp :: (xs ++ [.rp]) ∧ Bal true xs := by
  cases hs : starts S with
  | false => rw [inner_starts hs] at h; simp at h
  | true =>
    obtain ⟨ys, zs, rfl, h1, h2⟩ := starts_iff hb hs
    rw [inner_split h1] at h
    split at h
    · rename_i e
      simp at h
      subst h e
      exact ⟨rfl, h1⟩
    · simp at h

theorem inner_plain {T : String → Option Macro} {S : List Tok} (hb : Bal false S) (hp : Plain T S) : Plain T ((inner S).getD S) := by
  cases hin : inner S with
  | none => exact hp
  | some xs =>
    obtain ⟨e, _⟩ := inner_some hb hin
    intro s hs
    exact hp s (by rw [e]; simp at hs ⊢; exact hs)

theorem inner_bal {S : List Tok} (hb : Bal false S) : Bal true ((inner S).getD S) := by
  cases hin : inner S with
  | none => exact hb.weak
  | some xs => exact (inner_some hb hin).2

theorem plain_sep (g : Given user N S M A) (i : Nat) : Plain (defs user) (sep S i) := by
  unfold sep
  split
  · intro s hs; simp at hs
  · exact inner_plain g.sepBal g.sepPlain

theorem bal_sep (g : Given user N S M A) (i : Nat) : Bal true (sep S i) := by
  unfold sep
  split
  · exact .nil
  · exact inner_bal g.sepBal

/-- What is asked of the texts that the macro becomes. -/
structure Gives (user : String → Option Macro) (N : List String) (M : String) (A : List Tok) (o : Nat → List Tok → List Tok) (i : Nat) (x : List Tok) : Prop where
  step : Step user N 12 (callT M [A, [idx i], x]) (o i x)
  plain : Plain (defs user) (o i x)
  bal : Bal true (o i x)

theorem eachRuns (hu : Apart user) (g : Given user N S M A) {o : Nat → List Tok → List Tok} {xs : List (List Tok)} : ∀ {i : Nat}, Elements user xs → i + xs.length ≤ 63 →
    (∀ j x, xs[j]? = some x → Gives user N M A o (i + j) x) → Runs user N (xs.length + 1) (eachRest S M A i xs) (eachAll S o i xs) := by
  induction xs with
  | nil =>
    intro i hxs hi _
    refine .step (bal_eachRest g hxs.bal) (X' := []) ?_ (.done (by intro s hs; simp at hs) .nil)
    exact eachStep hu g (o := o) hxs hi (by simp)
  | cons x xs ih =>
    intro i hxs hi ho
    refine .step (bal_eachRest g hxs.bal) (eachStep hu g hxs hi (fun y ys e => ?_)) (X' := eachOut S M A o i (x :: xs)) ?_
    · cases e; exact (ho 0 x rfl).step
    · have h0 := ho 0 x rfl
      rw [eachOut, eachAll]
      exact .append (.done (plain_append (plain_sep g i) h0.plain) ((bal_sep g i).append h0.bal))
        (ih hxs.tail (by simp at hi; omega) (fun j y hy => by have := ho (j + 1) y hy; rwa [← Nat.add_assoc, Nat.add_right_comm] at this))

/-- `H2PP_FOREACH`. -/
theorem foreach (hu : Apart user) (g : Given user N S M A) {o : Nat → List Tok → List Tok} {raws xs : List (List Tok)} (hr : raws ≠ []) (hrb : ∀ a ∈ raws, Bal false a)
    (hxs : Elements user xs) (ho : ∀ i x, xs[i]? = some x → Gives user N M A o i x) (hA : Arg user N 29 (join raws) (join xs)) :
    Step user N 31 (callT "H2PP_FOREACH" ([S, [.id M], A] ++ raws)) (eachAll S o 0 xs) := by
  intro out r ts h1 h2 h
  have hpx : Plain (defs user) (join xs) := plain_join hxs.plain
  have e0 : idx 0 = .num "0" := rfl
  refine .fn dH2PP_FOREACH rfl ([S, [.id M], A] ++ raws) (Ok.not_mem (N := N) (k := 31) (by ok) (by rw [rH2PP_FOREACH]; decide)) (by simp) ?_
    (bs := [S, [.id M], A, join raws]) (by simp [bind]) (fun j => [S, [.id M], A, join xs].getD j []) ?_
    (b := callT "H2PP_EVAL" [callT "_H2PP_FOREACH" (eachArgs S M A 0 xs)]) ?_ ?_
  · intro a ha
    simp only [List.mem_append, List.mem_cons, List.not_mem_nil, or_false] at ha
    rcases ha with (rfl | rfl | rfl) | ha
    · exact g.sepBal
    · exact bal_id
    · exact g.argBal
    · exact hrb a ha
  · intro j hj
    simp at hj
    have hj' : j = 0 ∨ j = 1 ∨ j = 2 ∨ j = 3 := by omega
    clear hj
    rcases hj' with rfl | rfl | rfl | rfl
    · exact pass_plain' g.sepPlain
    · exact pass_still' g.mac (by ok)
    · exact pass_still' g.argStill (by ok)
    · exact hA.fin (by ok)
  · have e := join_join (x := [S, [.id M], A, [idx 0]]) (norm_ne xs)
    rw [join_norm] at e
    simp only [build, callT, eachArgs, ← e]
    simp [join, e0]
  · refine eval (N := N) (by simp) (by simp; exact bal_callT (bal_eachArgs g hxs.bal)) (Y := eachAll S o 0 xs) ?_ out _ ts (by ok) (by ok) (.mark h)
    rw [join]
    have hlen := hxs.len
    have hst : Step user N 20 (callT "_H2PP_FOREACH" (eachArgs S M A 0 xs)) (eachOut S M A o 0 xs) := by
      intro out r ts h1 h2 h
      have := each (N := N) hu g (o := o) (i := 0) hxs (by omega) (fun x xs' e => (ho 0 x (by rw [e]; rfl)).step) [] (by simp) (h1.mono (by decide)) (h2.mono (by decide)) h
      simpa [callT, toks] using this
    refine .step (bal_callT (bal_eachArgs g hxs.bal)) hst ?_
    cases xs with
    | nil => exact .done (by intro s hs; simp [eachOut] at hs) .nil
    | cons x xs =>
      have h0 := ho 0 x rfl
      rw [eachOut, eachAll]
      refine .append (.done (plain_append (plain_sep g 0) h0.plain) ((bal_sep g 0).append h0.bal)) ?_
      exact (eachRuns hu g hxs.tail (by simp at hlen; omega) (fun j y hy => by have := ho (j + 1) y hy; rwa [Nat.add_comm] at this)).le (by simp at hlen; omega)

end
end H2.Macro
