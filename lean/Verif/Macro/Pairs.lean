import Verif.Macro.Mesh
/-
`H2PP_FULLMESH`.
-/
namespace H2.Macro

variable {user : String → Option Macro} {N : List String} [Free N] {out : List String} {r : List Item} {ts us : List Tok}
variable {S A : List Tok} {M : String}

/-- The separator that is written before a pair. -/
def sep2 (S : List Tok) (i j : Nat) : List Tok := if i = 0 ∧ j = 0 then [] else (inner S).getD S

theorem meshCall (hu : Apart user) (g : Given user N S M A) {i j : Nat} (hi : i < 64) (hj : j < 64) {x Y y o : List Tok} (hx : Bal false x) (px : Plain (defs user) x)
    (hY : Bal false Y) (hy : Bal false y) (py : Plain (defs user) y) (eY : Arg user N 14 Y y) (ho : Step user N 12 (callT M [A, [idx i], [idx j], x, y]) o) :
    Step user N 14 (callT "_H2PP_FULLMESH_CALL_MACRO" [S, [.id M], A, [idx i], [idx j], x, Y]) (sep2 S i j ++ o) := by
  intro out r ts h1 h2 h
  have hbal : ∀ a ∈ [S, [.id M], A, [idx i], [idx j], x, y], Bal false a := by simp [g.sepBal, g.argBal, bal_id, bal_idx, hx, hy]
  have he : ∀ D, Ok N 12 D → ∀ k, k = 0 ∨ k = 1 ∨ k = 2 ∨ k = 3 ∨ k = 4 ∨ k = 5 ∨ k = 6 →
      Becomes (defs user) D (toks ([S, [.id M], A, [idx i], [idx j], x, y].getD k [])) ([S, [.id M], A, [idx i], [idx j], x, y].getD k []) := by
    rintro D hD k (rfl | rfl | rfl | rfl | rfl | rfl | rfl)
    · exact pass_plain' g.sepPlain
    · exact pass_still' g.mac (hD.mono (by decide))
    · exact pass_still' g.argStill (hD.mono (by decide))
    · exact pass_plain' (plain_idx hu hi)
    · exact pass_plain' (plain_idx hu hj)
    · exact pass_plain' px
    · exact pass_plain' py
  refine .fn d_H2PP_FULLMESH_CALL_MACRO rfl [S, [.id M], A, [idx i], [idx j], x, Y] (Ok.not_mem (N := N) (k := 14) (by ok) (by rw [r_H2PP_FULLMESH_CALL_MACRO]; decide)) (by simp)
    (by simp [g.sepBal, g.argBal, bal_id, bal_idx, hx, hY]) rfl (fun k => [S, [.id M], A, [idx i], [idx j], x, y].getD k []) ?_
    (b := callT "H2PP_CAT2" [[.id "_H2PP_FULLMESH_CALL_MACRO_"], callT "H2PP_AND" [callT "H2PP_EQ" [[.num "0"], [idx i]], callT "H2PP_EQ" [[.num "0"], [idx j]]]] ++
      par [S, [.id M], A, [idx i], [idx j], x, y]) (by simp [build, callT, join, par]) ?_
  · intro k hk
    simp at hk
    have hk' : k ≤ 5 ∨ k = 6 := by omega
    clear hk
    rcases hk' with hk | rfl
    · have := he (out ++ marks r) (by ok) k (by omega)
      have e : [S, [.id M], A, [idx i], [idx j], x, Y].getD k [] = [S, [.id M], A, [idx i], [idx j], x, y].getD k [] := by
        have : k = 0 ∨ k = 1 ∨ k = 2 ∨ k = 3 ∨ k = 4 ∨ k = 5 := by omega
        rcases this with rfl | rfl | rfl | rfl | rfl | rfl <;> rfl
      rw [e]; exact this
    · exact eY.fin (by ok)
  · have hP : defs user "_H2PP_FULLMESH_CALL_MACRO_" = none := defs_none hu (by decide +kernel) (by decide +kernel)
    have heq : ∀ i, Bal false (callT "H2PP_EQ" [[.num "0"], [idx i]]) := fun i => bal_callT (d := false) (by simp [bal_num, bal_idx])
    have hE : Becomes (defs user) (out ++ marks (.mark "_H2PP_FULLMESH_CALL_MACRO" :: r)) (toks (callT "H2PP_AND" [callT "H2PP_EQ" [[.num "0"], [idx i]], callT "H2PP_EQ" [[.num "0"], [idx j]]]))
        [.num (bit (i == 0 && j == 0))] :=
      .fin (and_bits (N := N) hu (heq i) (heq j) (by ok) (by ok) (.fin (eq0 (N := N) hu hi (by ok) (by ok) .nil)) (.fin (eq0 (N := N) hu hj (by ok) (by ok) .nil)) .nil)
    have hbe : Bal false (callT "H2PP_AND" [callT "H2PP_EQ" [[.num "0"], [idx i]], callT "H2PP_EQ" [[.num "0"], [idx j]]]) := bal_callT (d := false) (by simp [heq])
    by_cases h0 : i = 0 ∧ j = 0
    · have hb : (i == 0 && j == 0) = true := by simpa using h0
      rw [hb] at hE
      refine dispatch (N := N) (k := 13) (.inl rfl) hP hbe hE (G := "_H2PP_FULLMESH_CALL_MACRO_1") (by decide +kernel) d_H2PP_FULLMESH_CALL_MACRO_1 rfl
        (by rw [r_H2PP_FULLMESH_CALL_MACRO_1]; decide) (by ok) (by ok) (by decide) (by decide +kernel) [S, [.id M], A, [idx i], [idx j], x, y] (by simp) hbal rfl
        (fun k => [S, [.id M], A, [idx i], [idx j], x, y].getD k []) ?_ (bd := callT M [A, [idx i], [idx j], x, y]) (by simp [build, callT, join]) ?_
      · intro k hk
        simp at hk
        exact he _ (by ok) k (by omega)
      · rw [sep2, if_pos h0, List.nil_append]
        exact ho out _ ts (by ok) (by ok) (.mark (.mark h))
    · have hb : (i == 0 && j == 0) = false := by simpa using h0
      rw [hb] at hE
      refine dispatch (N := N) (k := 13) (.inl rfl) hP hbe hE (G := "_H2PP_FULLMESH_CALL_MACRO_0") (by decide +kernel) d_H2PP_FULLMESH_CALL_MACRO_0 rfl
        (by rw [r_H2PP_FULLMESH_CALL_MACRO_0]; decide) (by ok) (by ok) (by decide) (by decide +kernel) [S, [.id M], A, [idx i], [idx j], x, y] (by simp) hbal rfl
        (fun k => [S, [.id M], A, [idx i], [idx j], x, y].getD k []) ?_ (bd := callT "H2PP_REMOVE_PARENTHESES_IF" [S] ++ callT M [A, [idx i], [idx j], x, y]) (by simp [build, callT, join]) ?_
      · intro k hk
        simp at hk
        exact he _ (by ok) k (by omega)
      · rw [sep2, if_neg h0, toks_append, List.append_assoc, List.append_assoc]
        refine removeParenIf (N := N) hu g.sepBal g.sepPlain (by ok) ?_ (ho out _ ts (by ok) (by ok) (.mark (.mark h)))
        rw [marks_append, marks_toks]
        ok

/-! ### The second list -/

/-- The arguments of `_H2PP_FOREACHy`. -/
def yArgs (S : List Tok) (M : String) (A : List Tok) (i j : Nat) (x : List Tok) (ys : List (List Tok)) : List (List Tok) := [S, [.id M], A, [idx i], [idx j], x] ++ norm ys

/-- The text that is left for the next time. -/
def yRest (S : List Tok) (M : String) (A : List Tok) (i j : Nat) (x : List Tok) (ys : List (List Tok)) : List Tok := .id "__H2PP_FOREACHy" :: .lp :: .rp :: par (yArgs S M A i j x ys)

theorem bal_yArgs (g : Given user N S M A) {i j : Nat} {x : List Tok} (hx : Bal false x) {ys : List (List Tok)} (hb : ∀ y ∈ ys, Bal false y) : ∀ a ∈ yArgs S M A i j x ys, Bal false a := by
  intro a ha
  simp only [yArgs, List.mem_append, List.mem_cons, List.not_mem_nil, or_false] at ha
  rcases ha with (rfl | rfl | rfl | rfl | rfl | rfl) | ha
  · exact g.sepBal
  · exact bal_id
  · exact g.argBal
  · exact bal_idx
  · exact bal_idx
  · exact hx
  · exact bal_norm hb a ha

theorem bal_yRest (g : Given user N S M A) {i j : Nat} {x : List Tok} (hx : Bal false x) {ys : List (List Tok)} (hb : ∀ y ∈ ys, Bal false y) : Bal true (yRest S M A i j x ys) :=
  .tok (by simp) (by simp) (by simp) (.paren (xs := []) .nil (bal_par (bal_yArgs g hx hb)))

/-- What one call of `_H2PP_FOREACHy` becomes. -/
def yOut (S : List Tok) (M : String) (A : List Tok) (o : Nat → Nat → List Tok → List Tok → List Tok) (i j : Nat) (x : List Tok) : List (List Tok) → List Tok
  | [] => []
  | y :: ys => (sep2 S i j ++ o i j x y) ++ yRest S M A i (j + 1) x ys

theorem eachY (hu : Apart user) (g : Given user N S M A) {o : Nat → Nat → List Tok → List Tok → List Tok} {i j : Nat} (hi : i < 64) {X x : List Tok} (hX : Bal false X) (hx : Bal false x)
    (px : Plain (defs user) x) (eX : Arg user N 16 X x) {raws ys : List (List Tok)} (hr : raws ≠ []) (hrb : ∀ a ∈ raws, Bal false a) (eR : Arg user N 16 (join raws) (join ys))
    (hys : Elements user ys) (hj : j + ys.length ≤ 63) (ho : ∀ y ys', ys = y :: ys' → Step user N 12 (callT M [A, [idx i], [idx j], x, y]) (o i j x y)) (ms : List String)
    (hms : "_H2PP_FOREACHy" ∉ ms) (h1 : Ok N 16 out) (h2 : Ok N 16 (marks r)) (h : Becomes (defs user) out r ts) :
    Becomes (defs user) out (.tok (.id "_H2PP_FOREACHy") :: (ms.map .mark ++ .tok .lp :: (toks (join ([S, [.id M], A, [idx i], [idx j], X] ++ raws)) ++ .tok .rp :: r))) (yOut S M A o i j x ys ++ ts) := by
  have hby := bal_norm hys.bal
  have hpy : Plain (defs user) (join (norm ys)) := plain_join (plain_norm hys.plain)
  have hj' : j < 64 := by omega
  have he : ∀ D, Ok N 12 D → ∀ k, k = 0 ∨ k = 1 ∨ k = 2 ∨ k = 3 ∨ k = 4 ∨ k = 5 ∨ k = 6 →
      Becomes (defs user) D (toks ([S, [.id M], A, [idx i], [idx j], x, join (norm ys)].getD k [])) ([S, [.id M], A, [idx i], [idx j], x, join (norm ys)].getD k []) := by
    rintro D hD k (rfl | rfl | rfl | rfl | rfl | rfl | rfl)
    · exact pass_plain' g.sepPlain
    · exact pass_still' g.mac (hD.mono (by decide))
    · exact pass_still' g.argStill (hD.mono (by decide))
    · exact pass_plain' (plain_idx hu hi)
    · exact pass_plain' (plain_idx hu hj')
    · exact pass_plain' px
    · exact pass_plain' hpy
  refine .call d_H2PP_FOREACHy rfl ms ([S, [.id M], A, [idx i], [idx j], X] ++ raws) ?_ (by simp) ?_ (bs := [S, [.id M], A, [idx i], [idx j], X, join raws]) (by simp [bind])
    (fun k => [S, [.id M], A, [idx i], [idx j], x, join (norm ys)].getD k []) ?_
    (b := callT "H2PP_CAT2" [[.id "_H2PP_FOREACHy_"], callT "H2PP_IS_EMPTY" (norm ys)] ++ par (yArgs S M A i j x ys)) ?_ ?_
  · have hok : Ok N 16 (out ++ marks r) := ok_append.2 ⟨h1, h2⟩
    have hn := hok.not_mem (s := "_H2PP_FOREACHy") (by rw [r_H2PP_FOREACHy]; decide)
    simp only [List.mem_append, not_or] at hn ⊢
    exact ⟨hn.1, hms, hn.2⟩
  · intro a ha
    simp only [List.mem_append, List.mem_cons, List.not_mem_nil, or_false] at ha
    rcases ha with (rfl | rfl | rfl | rfl | rfl | rfl) | ha
    · exact g.sepBal
    · exact bal_id
    · exact g.argBal
    · exact bal_idx
    · exact bal_idx
    · exact hX
    · exact hrb a ha
  · intro k hk
    simp at hk
    have hk' : k ≤ 4 ∨ k = 5 ∨ k = 6 := by omega
    clear hk
    rcases hk' with hk | rfl | rfl
    · have := he (out ++ marks r) (by ok) k (by omega)
      have e : [S, [.id M], A, [idx i], [idx j], X, join raws].getD k [] = [S, [.id M], A, [idx i], [idx j], x, join (norm ys)].getD k [] := by
        have : k = 0 ∨ k = 1 ∨ k = 2 ∨ k = 3 ∨ k = 4 := by omega
        rcases this with rfl | rfl | rfl | rfl | rfl <;> rfl
      rw [e]; exact this
    · exact eX.fin (by ok)
    · show Becomes _ _ (toks (join raws)) (join (norm ys))
      rw [join_norm]
      exact eR.fin (by ok)
  · have e := join_join (x := [S, [.id M], A, [idx i], [idx j], x]) (norm_ne ys)
    simp only [build, callT, par, yArgs, ← e]
    simp [join]
  · have hP : defs user "_H2PP_FOREACHy_" = none := defs_none hu (by decide +kernel) (by decide +kernel)
    have hE : Becomes (defs user) (out ++ marks (.mark "_H2PP_FOREACHy" :: r)) (toks (callT "H2PP_IS_EMPTY" (norm ys))) [.num (bit (norm ys == [[]]))] :=
      .fin (isEmpty (N := N) hu (norm_ne ys) hby (norm_ne ys) (norm_length hys.len) hby hpy (by ok) (by ok) (pass_plain' hpy) .nil)
    cases ys with
    | nil =>
      refine dispatch (N := N) (k := 15) (.inl rfl) hP (bal_callT hby) hE (G := "_H2PP_FOREACHy_1") (by decide +kernel) d_H2PP_FOREACHy_1 rfl (by rw [r_H2PP_FOREACHy_1]; decide)
        (by ok) (by ok) (by decide) (by decide +kernel) (yArgs S M A i j x []) (by simp [yArgs]) (bal_yArgs g hx hys.bal) (bs := [join (yArgs S M A i j x [])]) (by simp [bind])
        (fun _ => []) (by simp) (bd := []) (by simp [build]) ?_
      exact .mark (.mark h)
    | cons y ys =>
      have hne : norm (y :: ys) = y :: ys := by simp [norm]
      have heb : (norm (y :: ys) == [[]]) = false := by rw [hne]; simpa using hys.one
      rw [heb] at hE
      rw [hne] at hpy hby he
      refine dispatch (N := N) (k := 15) (.inl rfl) hP (bal_callT (by rw [hne]; exact hby)) hE (G := "_H2PP_FOREACHy_0") (by decide +kernel) d_H2PP_FOREACHy_0 rfl (by rw [r_H2PP_FOREACHy_0]; decide)
        (by ok) (by ok) (by decide) (by decide +kernel) (yArgs S M A i j x (y :: ys)) (by simp [yArgs]) (bal_yArgs g hx hys.bal) (bs := [S, [.id M], A, [idx i], [idx j], x, join (y :: ys)])
        (by simp [bind, yArgs, hne]) (fun k => [S, [.id M], A, [idx i], [idx j], x, join (y :: ys)].getD k []) ?_
        (bd := callT "_H2PP_FULLMESH_CALL_MACRO" [S, [.id M], A, [idx i], [idx j], x, callT "H2PP_HEAD" (y :: ys)] ++ (callT "H2PP_DEFER" [[.id "__H2PP_FOREACHy"]] ++ ([.lp, .rp] ++
          par [S, [.id M], A, [idx i], callT "H2PP_CAT2" [[.id "H2PP_INC_"], [idx j]], x, callT "H2PP_TAIL" (y :: ys)]))) ?_ ?_
      · intro k hk
        simp at hk
        exact he _ (by ok) k (by omega)
      · simp [build, callT, join, par]
      · have hlen := hys.len
        have s1 : Step user N 14 (callT "_H2PP_FULLMESH_CALL_MACRO" [S, [.id M], A, [idx i], [idx j], x, callT "H2PP_HEAD" (y :: ys)]) (sep2 S i j ++ o i j x y) :=
          meshCall hu g hi hj' hx px (bal_callT hys.bal) (hys.bal y (.head _)) (hys.plain y (.head _))
            (fun out r ts o1 o2 _ hr => head (N := N) hu hys.bal hpy hlen hys.one (o1.mono (by decide)) (o2.mono (by decide)) hr) (ho y ys rfl)
        have s2 : Step user N 14 (callT "H2PP_DEFER" [[.id "__H2PP_FOREACHy"]]) [.id "__H2PP_FOREACHy"] := (defer (N := N) d__H2PP_FOREACHy rfl r__H2PP_FOREACHy).mono (by decide)
        have s3 : Step user N 14 [.lp, .rp] [.lp, .rp] := .plain (by intro s hs; simp at hs)
        have s4 : Step user N 14 (par [S, [.id M], A, [idx i], callT "H2PP_CAT2" [[.id "H2PP_INC_"], [idx j]], x, callT "H2PP_TAIL" (y :: ys)]) (par [S, [.id M], A, [idx i], [idx (j + 1)], x, join ys]) := by
          refine Args.par (.cons (Step.plain g.sepPlain).arg (.cons (arg_still g.mac (by decide)) (.cons (arg_still g.argStill (by decide)) (.cons (Step.plain (plain_idx hu hi)).arg
            (.cons ?_ (.cons (Step.plain px).arg (.one ?_)))))))
          · exact fun out r ts o1 o2 _ hr => inc (N := N) hu hj' (o1.mono (by decide)) (o2.mono (by decide)) hr
          · exact fun out r ts o1 o2 _ hr => tail (N := N) hu hys.bal hpy hlen hys.one (o1.mono (by decide)) (o2.mono (by decide)) hr
        have e : par [S, [.id M], A, [idx i], [idx (j + 1)], x, join ys] = par (yArgs S M A i (j + 1) x ys) := by
          have := join_join (x := [S, [.id M], A, [idx i], [idx (j + 1)], x]) (norm_ne ys)
          rw [join_norm] at this
          rw [par, par, yArgs, ← this]; rfl
        rw [e] at s4
        have := (s1.append (s2.append (s3.append s4))) out (.mark "_H2PP_FOREACHy_0" :: .mark "_H2PP_FOREACHy" :: r) ts (by ok) (by ok) (.mark (.mark h))
        simpa [yOut, yRest] using this

theorem arg_plain {k : Nat} {X : List Tok} (h : Plain (defs user) X) : Arg user N k X X := (Step.plain h).arg

theorem yStep (hu : Apart user) (g : Given user N S M A) {o : Nat → Nat → List Tok → List Tok → List Tok} {i j : Nat} (hi : i < 64) {x : List Tok} (hx : Bal false x)
    (px : Plain (defs user) x) {ys : List (List Tok)} (hys : Elements user ys) (hj : j + ys.length ≤ 63)
    (ho : ∀ y ys', ys = y :: ys' → Step user N 12 (callT M [A, [idx i], [idx j], x, y]) (o i j x y)) : Step user N 20 (yRest S M A i j x ys) (yOut S M A o i j x ys) := by
  intro out r ts h1 h2 h
  have hm : marks (toks (par (yArgs S M A i j x ys)) ++ r) = marks r := by rw [marks_append, marks_toks]; rfl
  have key := eachY (N := N) hu g hi hx hx px (arg_plain px) (norm_ne ys) (bal_norm hys.bal) (by rw [join_norm]; exact arg_plain (plain_join hys.plain)) hys hj ho ["__H2PP_FOREACHy"] (by decide +kernel)
    (h1.mono (by decide)) (h2.mono (by decide)) h
  have := Becomes.fn (T := defs user) (out := out) (r := toks (par (yArgs S M A i j x ys)) ++ r) d__H2PP_FOREACHy rfl [[]]
    (Ok.not_mem (N := N) (k := 1) (by rw [hm]; ok) (by rw [r__H2PP_FOREACHy]; decide)) (by simp) (by simp [Bal.nil]) (bs := []) (by simp [bind]) (fun _ => []) (by simp)
    (b := [.id "_H2PP_FOREACHy"]) (by simp [build]) (by simpa [par, toks, yArgs] using key)
  simpa [yRest, callT, join, toks] using this

/-- All that is written for an element of the first list. -/
def yAll (S : List Tok) (o : Nat → Nat → List Tok → List Tok → List Tok) (i : Nat) (x : List Tok) : Nat → List (List Tok) → List Tok
  | _, [] => []
  | j, y :: ys => (sep2 S i j ++ o i j x y) ++ yAll S o i x (j + 1) ys

/-- What is asked of the texts that the macro becomes. -/
structure Gives2 (user : String → Option Macro) (N : List String) (M : String) (A : List Tok) (o : Nat → Nat → List Tok → List Tok → List Tok) (i j : Nat) (x y : List Tok) : Prop where
  step : Step user N 12 (callT M [A, [idx i], [idx j], x, y]) (o i j x y)
  plain : Plain (defs user) (o i j x y)
  bal : Bal true (o i j x y)

theorem plain_sep2 (g : Given user N S M A) (i j : Nat) : Plain (defs user) (sep2 S i j) := by
  unfold sep2
  split
  · intro s hs; simp at hs
  · exact inner_plain g.sepBal g.sepPlain

theorem bal_sep2 (g : Given user N S M A) (i j : Nat) : Bal true (sep2 S i j) := by
  unfold sep2
  split
  · exact .nil
  · exact inner_bal g.sepBal

theorem yOutRuns (g : Given user N S M A) {o : Nat → Nat → List Tok → List Tok → List Tok} {i j : Nat} {x y : List Tok} {ys : List (List Tok)} (h0 : Gives2 user N M A o i j x y) {n : Nat}
    (h : Runs user N n (yRest S M A i (j + 1) x ys) (yAll S o i x (j + 1) ys)) : Runs user N n (yOut S M A o i j x (y :: ys)) (yAll S o i x j (y :: ys)) := by
  rw [yOut, yAll]
  exact .append (.done (plain_append (plain_sep2 g i j) h0.plain) ((bal_sep2 g i j).append h0.bal)) h

theorem yRuns (hu : Apart user) (g : Given user N S M A) {o : Nat → Nat → List Tok → List Tok → List Tok} {i : Nat} (hi : i < 64) {x : List Tok} (hx : Bal false x) (px : Plain (defs user) x)
    {ys : List (List Tok)} : ∀ {j : Nat}, Elements user ys → j + ys.length ≤ 63 →
    (∀ k y, ys[k]? = some y → Gives2 user N M A o i (j + k) x y) → Runs user N (ys.length + 1) (yRest S M A i j x ys) (yAll S o i x j ys) := by
  induction ys with
  | nil =>
    intro j hys hj _
    refine .step (bal_yRest g hx hys.bal) (X' := []) ?_ (.done (by intro s hs; simp at hs) .nil)
    exact yStep hu g (o := o) hi hx px hys hj (by simp)
  | cons y ys ih =>
    intro j hys hj ho
    refine .step (bal_yRest g hx hys.bal) (yStep hu g hi hx px hys hj (fun z zs e => ?_)) (X' := yOut S M A o i j x (y :: ys)) ?_
    · cases e; exact (ho 0 y rfl).step
    · exact yOutRuns g (ho 0 y rfl) (ih hys.tail (by simp at hj; omega) (fun k z hz => by have := ho (k + 1) z hz; rwa [← Nat.add_assoc, Nat.add_right_comm] at this))

/-! ### The first list -/

/-- A list in parentheses. -/
structure Tuple (user : String → Option Macro) (T : List Tok) (ys : List (List Tok)) : Prop where
  eq : T = par ys
  els : Elements user ys

theorem Tuple.bal {T : List Tok} {ys : List (List Tok)} (h : Tuple user T ys) : Bal false T := h.eq ▸ bal_par h.els.bal

theorem plain_par {T : String → Option Macro} {ys : List (List Tok)} (h : ∀ y ∈ ys, Plain T y) : Plain T (par ys) := by
  intro s hs
  simp only [par, List.mem_cons, List.mem_append, List.not_mem_nil, reduceCtorEq, or_false, false_or] at hs
  exact plain_join h s hs

theorem Tuple.plain {T : List Tok} {ys : List (List Tok)} (h : Tuple user T ys) : Plain (defs user) T := h.eq ▸ plain_par h.els.plain

theorem Tuple.remove {T : List Tok} {ys : List (List Tok)} (h : Tuple user T ys) : Step user N 2 (callT "H2PP_REMOVE_PARENTHESES" [T]) (join ys) := by
  intro out r ts h1 h2 hr
  have hp := plain_join h.els.plain
  have := removeParen (user := user) (N := N) (xs := join ys) (out := out) (r := r) (ts := join ys ++ ts) (bal_join h.els.bal) h1 h2 (fun _ _ => pass_plain' hp)
    (fun _ _ => pass_plain' (by have := h.plain; rw [h.eq] at this; exact this)) (pass_plain hp (.mark (.mark hr)))
  rw [h.eq]; exact this

/-- The arguments of `_H2PP_FOREACHx`. -/
def xArgs (S : List Tok) (M : String) (A : List Tok) (i : Nat) (T : List Tok) (xs : List (List Tok)) : List (List Tok) := [S, [.id M], A, [idx i], T] ++ norm xs

/-- The text that is left for the next time. -/
def xRest (S : List Tok) (M : String) (A : List Tok) (i : Nat) (T : List Tok) (xs : List (List Tok)) : List Tok := .id "__H2PP_FOREACHx" :: .lp :: .rp :: par (xArgs S M A i T xs)

theorem bal_xArgs (g : Given user N S M A) {i : Nat} {T : List Tok} (hT : Bal false T) {xs : List (List Tok)} (hb : ∀ x ∈ xs, Bal false x) : ∀ a ∈ xArgs S M A i T xs, Bal false a := by
  intro a ha
  simp only [xArgs, List.mem_append, List.mem_cons, List.not_mem_nil, or_false] at ha
  rcases ha with (rfl | rfl | rfl | rfl | rfl) | ha
  · exact g.sepBal
  · exact bal_id
  · exact g.argBal
  · exact bal_idx
  · exact hT
  · exact bal_norm hb a ha

theorem bal_xRest (g : Given user N S M A) {i : Nat} {T : List Tok} (hT : Bal false T) {xs : List (List Tok)} (hb : ∀ x ∈ xs, Bal false x) : Bal true (xRest S M A i T xs) :=
  .tok (by simp) (by simp) (by simp) (.paren (xs := []) .nil (bal_par (bal_xArgs g hT hb)))

/-- What one call of `_H2PP_FOREACHx` becomes. -/
def xOut (S : List Tok) (M : String) (A : List Tok) (o : Nat → Nat → List Tok → List Tok → List Tok) (i : Nat) (T : List Tok) (ys : List (List Tok)) : List (List Tok) → List Tok
  | [] => []
  | x :: xs => yOut S M A o i 0 x ys ++ xRest S M A (i + 1) T xs

theorem eachX (hu : Apart user) (g : Given user N S M A) {o : Nat → Nat → List Tok → List Tok → List Tok} {i : Nat} {T : List Tok} {ys : List (List Tok)} (hT : Tuple user T ys)
    {raws xs : List (List Tok)} (hr : raws ≠ []) (hrb : ∀ a ∈ raws, Bal false a) (eR : Arg user N 18 (join raws) (join xs))
    (hxs : Elements user xs) (hi : i + xs.length ≤ 63) (ho : ∀ x xs' y ys', xs = x :: xs' → ys = y :: ys' → Step user N 12 (callT M [A, [idx i], [idx 0], x, y]) (o i 0 x y)) (ms : List String)
    (hms : "_H2PP_FOREACHx" ∉ ms) (h1 : Ok N 18 out) (h2 : Ok N 18 (marks r)) (h : Becomes (defs user) out r ts) :
    Becomes (defs user) out (.tok (.id "_H2PP_FOREACHx") :: (ms.map .mark ++ .tok .lp :: (toks (join ([S, [.id M], A, [idx i], T] ++ raws)) ++ .tok .rp :: r))) (xOut S M A o i T ys xs ++ ts) := by
  have hbx := bal_norm hxs.bal
  have hpx : Plain (defs user) (join (norm xs)) := plain_join (plain_norm hxs.plain)
  have hi' : i < 64 := by omega
  have he : ∀ D, Ok N 12 D → ∀ k, k = 0 ∨ k = 1 ∨ k = 2 ∨ k = 3 ∨ k = 4 ∨ k = 5 →
      Becomes (defs user) D (toks ([S, [.id M], A, [idx i], T, join (norm xs)].getD k [])) ([S, [.id M], A, [idx i], T, join (norm xs)].getD k []) := by
    rintro D hD k (rfl | rfl | rfl | rfl | rfl | rfl)
    · exact pass_plain' g.sepPlain
    · exact pass_still' g.mac (hD.mono (by decide))
    · exact pass_still' g.argStill (hD.mono (by decide))
    · exact pass_plain' (plain_idx hu hi')
    · exact pass_plain' hT.plain
    · exact pass_plain' hpx
  refine .call d_H2PP_FOREACHx rfl ms ([S, [.id M], A, [idx i], T] ++ raws) ?_ (by simp) ?_ (bs := [S, [.id M], A, [idx i], T, join raws]) (by simp [bind])
    (fun k => [S, [.id M], A, [idx i], T, join (norm xs)].getD k []) ?_
    (b := callT "H2PP_CAT2" [[.id "_H2PP_FOREACHx_"], callT "H2PP_IS_EMPTY" (norm xs)] ++ par (xArgs S M A i T xs)) ?_ ?_
  · have hok : Ok N 18 (out ++ marks r) := ok_append.2 ⟨h1, h2⟩
    have hn := hok.not_mem (s := "_H2PP_FOREACHx") (by rw [r_H2PP_FOREACHx]; decide)
    simp only [List.mem_append, not_or] at hn ⊢
    exact ⟨hn.1, hms, hn.2⟩
  · intro a ha
    simp only [List.mem_append, List.mem_cons, List.not_mem_nil, or_false] at ha
    rcases ha with (rfl | rfl | rfl | rfl | rfl) | ha
    · exact g.sepBal
    · exact bal_id
    · exact g.argBal
    · exact bal_idx
    · exact hT.bal
    · exact hrb a ha
  · intro k hk
    simp at hk
    have hk' : k ≤ 4 ∨ k = 5 := by omega
    clear hk
    rcases hk' with hk | rfl
    · have := he (out ++ marks r) (by ok) k (by omega)
      have e : [S, [.id M], A, [idx i], T, join raws].getD k [] = [S, [.id M], A, [idx i], T, join (norm xs)].getD k [] := by
        have : k = 0 ∨ k = 1 ∨ k = 2 ∨ k = 3 ∨ k = 4 := by omega
        rcases this with rfl | rfl | rfl | rfl | rfl <;> rfl
      rw [e]; exact this
    · show Becomes _ _ (toks (join raws)) (join (norm xs))
      rw [join_norm]
      exact eR.fin (by ok)
  · have e := join_join (x := [S, [.id M], A, [idx i], T]) (norm_ne xs)
    simp only [build, callT, par, xArgs, ← e]
    simp [join]
  · have hP : defs user "_H2PP_FOREACHx_" = none := defs_none hu (by decide +kernel) (by decide +kernel)
    have hE : Becomes (defs user) (out ++ marks (.mark "_H2PP_FOREACHx" :: r)) (toks (callT "H2PP_IS_EMPTY" (norm xs))) [.num (bit (norm xs == [[]]))] :=
      .fin (isEmpty (N := N) hu (norm_ne xs) hbx (norm_ne xs) (norm_length hxs.len) hbx hpx (by ok) (by ok) (pass_plain' hpx) .nil)
    cases xs with
    | nil =>
      refine dispatch (N := N) (k := 17) (.inl rfl) hP (bal_callT hbx) hE (G := "_H2PP_FOREACHx_1") (by decide +kernel) d_H2PP_FOREACHx_1 rfl (by rw [r_H2PP_FOREACHx_1]; decide)
        (by ok) (by ok) (by decide) (by decide +kernel) (xArgs S M A i T []) (by simp [xArgs]) (bal_xArgs g hT.bal hxs.bal) (bs := [join (xArgs S M A i T [])]) (by simp [bind])
        (fun _ => []) (by simp) (bd := []) (by simp [build]) ?_
      exact .mark (.mark h)
    | cons x xs =>
      have hne : norm (x :: xs) = x :: xs := by simp [norm]
      have heb : (norm (x :: xs) == [[]]) = false := by rw [hne]; simpa using hxs.one
      rw [heb] at hE
      rw [hne] at hpx hbx he
      refine dispatch (N := N) (k := 17) (.inl rfl) hP (bal_callT (by rw [hne]; exact hbx)) hE (G := "_H2PP_FOREACHx_0") (by decide +kernel) d_H2PP_FOREACHx_0 rfl (by rw [r_H2PP_FOREACHx_0]; decide)
        (by ok) (by ok) (by decide) (by decide +kernel) (xArgs S M A i T (x :: xs)) (by simp [xArgs]) (bal_xArgs g hT.bal hxs.bal) (bs := [S, [.id M], A, [idx i], T, join (x :: xs)])
        (by simp [bind, xArgs, hne]) (fun k => [S, [.id M], A, [idx i], T, join (x :: xs)].getD k []) ?_
        (bd := callT "_H2PP_FOREACHy" ([S, [.id M], A, [idx i], [idx 0], callT "H2PP_HEAD" (x :: xs)] ++ [callT "H2PP_REMOVE_PARENTHESES" [T]]) ++ (callT "H2PP_DEFER" [[.id "__H2PP_FOREACHx"]] ++ ([.lp, .rp] ++
          par [S, [.id M], A, callT "H2PP_CAT2" [[.id "H2PP_INC_"], [idx i]], T, callT "H2PP_TAIL" (x :: xs)]))) ?_ ?_
      · intro k hk
        simp at hk
        exact he _ (by ok) k (by omega)
      · have e0 : idx 0 = .num "0" := rfl
        simp [build, callT, join, par, e0]
      · have hlen := hxs.len
        have hylen := hT.els.len
        have s1 : Step user N 16 (callT "_H2PP_FOREACHy" ([S, [.id M], A, [idx i], [idx 0], callT "H2PP_HEAD" (x :: xs)] ++ [callT "H2PP_REMOVE_PARENTHESES" [T]])) (yOut S M A o i 0 x ys) := by
          intro out r ts h1 h2 h
          have := eachY (N := N) (j := 0) hu g hi' (bal_callT hxs.bal) (hxs.bal x (.head _)) (hxs.plain x (.head _))
            (fun out r ts o1 o2 _ hr => head (N := N) hu hxs.bal hpx hlen hxs.one (o1.mono (by decide)) (o2.mono (by decide)) hr)
            (raws := [callT "H2PP_REMOVE_PARENTHESES" [T]]) (by simp) (by simp; exact bal_callT (d := false) (by simp [hT.bal])) (by simpa [join] using ((hT.remove (N := N)).mono (by decide)).arg)
            hT.els (by omega) (fun y ys' e => ho x xs y ys' rfl e) [] (by simp) h1 h2 h
          simpa [callT, toks] using this
        have s2 : Step user N 16 (callT "H2PP_DEFER" [[.id "__H2PP_FOREACHx"]]) [.id "__H2PP_FOREACHx"] := (defer (N := N) d__H2PP_FOREACHx rfl r__H2PP_FOREACHx).mono (by decide)
        have s3 : Step user N 16 [.lp, .rp] [.lp, .rp] := .plain (by intro s hs; simp at hs)
        have s4 : Step user N 16 (par [S, [.id M], A, callT "H2PP_CAT2" [[.id "H2PP_INC_"], [idx i]], T, callT "H2PP_TAIL" (x :: xs)]) (par [S, [.id M], A, [idx (i + 1)], T, join xs]) := by
          refine Args.par (.cons (Step.plain g.sepPlain).arg (.cons (arg_still g.mac (by decide)) (.cons (arg_still g.argStill (by decide)) (.cons ?_ (.cons (arg_plain hT.plain) (.one ?_))))))
          · exact fun out r ts o1 o2 _ hr => inc (N := N) hu hi' (o1.mono (by decide)) (o2.mono (by decide)) hr
          · exact fun out r ts o1 o2 _ hr => tail (N := N) hu hxs.bal hpx hlen hxs.one (o1.mono (by decide)) (o2.mono (by decide)) hr
        have e : par [S, [.id M], A, [idx (i + 1)], T, join xs] = par (xArgs S M A (i + 1) T xs) := by
          have := join_join (x := [S, [.id M], A, [idx (i + 1)], T]) (norm_ne xs)
          rw [join_norm] at this
          rw [par, par, xArgs, ← this]; rfl
        rw [e] at s4
        have := (s1.append (s2.append (s3.append s4))) out (.mark "_H2PP_FOREACHx_0" :: .mark "_H2PP_FOREACHx" :: r) ts (by ok) (by ok) (.mark (.mark h))
        simpa [xOut, xRest] using this

theorem xStep (hu : Apart user) (g : Given user N S M A) {o : Nat → Nat → List Tok → List Tok → List Tok} {i : Nat} {T : List Tok} {ys : List (List Tok)} (hT : Tuple user T ys)
    {xs : List (List Tok)} (hxs : Elements user xs) (hi : i + xs.length ≤ 63)
    (ho : ∀ x xs' y ys', xs = x :: xs' → ys = y :: ys' → Step user N 12 (callT M [A, [idx i], [idx 0], x, y]) (o i 0 x y)) : Step user N 20 (xRest S M A i T xs) (xOut S M A o i T ys xs) := by
  intro out r ts h1 h2 h
  have hm : marks (toks (par (xArgs S M A i T xs)) ++ r) = marks r := by rw [marks_append, marks_toks]; rfl
  have key := eachX (N := N) hu g hT (norm_ne xs) (bal_norm hxs.bal) (by rw [join_norm]; exact arg_plain (plain_join hxs.plain)) hxs hi ho ["__H2PP_FOREACHx"] (by decide +kernel)
    (h1.mono (by decide)) (h2.mono (by decide)) h
  have := Becomes.fn (T := defs user) (out := out) (r := toks (par (xArgs S M A i T xs)) ++ r) d__H2PP_FOREACHx rfl [[]]
    (Ok.not_mem (N := N) (k := 1) (by rw [hm]; ok) (by rw [r__H2PP_FOREACHx]; decide)) (by simp) (by simp [Bal.nil]) (bs := []) (by simp [bind]) (fun _ => []) (by simp)
    (b := [.id "_H2PP_FOREACHx"]) (by simp [build]) (by simpa [par, toks, xArgs] using key)
  simpa [xRest, callT, join, toks] using this

/-- All that is written for two lists. -/
def xAll (S : List Tok) (o : Nat → Nat → List Tok → List Tok → List Tok) (ys : List (List Tok)) : Nat → List (List Tok) → List Tok
  | _, [] => []
  | i, x :: xs => yAll S o i x 0 ys ++ xAll S o ys (i + 1) xs

theorem xOutRuns (hu : Apart user) (g : Given user N S M A) {o : Nat → Nat → List Tok → List Tok → List Tok} {i : Nat} (hi : i < 64) {T : List Tok} {ys : List (List Tok)} (hT : Tuple user T ys)
    {x : List Tok} (hx : Bal false x) (px : Plain (defs user) x) {xs : List (List Tok)} (ho : ∀ k y, ys[k]? = some y → Gives2 user N M A o i k x y) {n : Nat} (hn : ys.length ≤ n)
    (h : Runs user N n (xRest S M A (i + 1) T xs) (xAll S o ys (i + 1) xs)) : Runs user N n (xOut S M A o i T ys (x :: xs)) (xAll S o ys i (x :: xs)) := by
  rw [xOut, xAll]
  refine .append ?_ h
  cases ys with
  | nil => exact .done (by intro s hs; simp [yOut] at hs) .nil
  | cons y ys =>
    have hl := hT.els.len
    refine (yOutRuns g (ho 0 y rfl) (yRuns hu g hi hx px hT.els.tail (by simp at hl; omega) (fun k z hz => by have := ho (k + 1) z hz; rwa [Nat.add_comm] at this))).le (by simpa using hn)

theorem xRuns (hu : Apart user) (g : Given user N S M A) {o : Nat → Nat → List Tok → List Tok → List Tok} {T : List Tok} {ys : List (List Tok)} (hT : Tuple user T ys)
    {xs : List (List Tok)} : ∀ {i : Nat}, Elements user xs → i + xs.length ≤ 63 →
    (∀ k l x y, xs[k]? = some x → ys[l]? = some y → Gives2 user N M A o (i + k) l x y) → Runs user N (xs.length + ys.length + 1) (xRest S M A i T xs) (xAll S o ys i xs) := by
  induction xs with
  | nil =>
    intro i hxs hi _
    refine .step (bal_xRest g hT.bal hxs.bal) (X' := []) ?_ (.done (by intro s hs; simp at hs) .nil)
    exact xStep hu g (o := o) hT hxs hi (by simp)
  | cons x xs ih =>
    intro i hxs hi ho
    have el : (x :: xs).length + ys.length + 1 = (xs.length + ys.length + 1) + 1 := by simp; omega
    rw [el]
    refine .step (bal_xRest g hT.bal hxs.bal) (xStep hu g (o := o) hT hxs hi (fun z zs y ys' e e' => ?_)) (X' := xOut S M A o i T ys (x :: xs)) ?_
    · cases e; exact (ho 0 0 x y rfl (by rw [e']; rfl)).step
    · exact xOutRuns hu g (by simp at hi; omega) hT (hxs.bal x (.head _)) (hxs.plain x (.head _)) (fun k y hy => ho 0 k x y rfl hy) (by omega)
        (ih hxs.tail (by simp at hi; omega) (fun k l z y hz hy => by have := ho (k + 1) l z y hz hy; rwa [← Nat.add_assoc, Nat.add_right_comm] at this))

/-- `H2PP_FULLMESH2`. -/
theorem fullmesh2 (hu : Apart user) (g : Given user N S M A) {o : Nat → Nat → List Tok → List Tok → List Tok} {X Y : List Tok} {xs ys : List (List Tok)} (hX : Tuple user X xs) (hY : Tuple user Y ys)
    (ho : ∀ i j x y, xs[i]? = some x → ys[j]? = some y → Gives2 user N M A o i j x y) : Step user N 31 (callT "H2PP_FULLMESH2" [S, [.id M], A, X, Y]) (xAll S o ys 0 xs) := by
  intro out r ts h1 h2 h
  have e0 : idx 0 = .num "0" := rfl
  have hbr : ∀ a ∈ [callT "H2PP_REMOVE_PARENTHESES" [X]], Bal false a := by simp; exact bal_callT (d := false) (by simp [hX.bal])
  have hba : ∀ a ∈ [S, [.id M], A, [idx 0], Y] ++ [callT "H2PP_REMOVE_PARENTHESES" [X]], Bal false a := by
    intro a ha
    simp only [List.mem_append, List.mem_cons, List.not_mem_nil, or_false] at ha
    rcases ha with (rfl | rfl | rfl | rfl | rfl) | rfl
    · exact g.sepBal
    · exact bal_id
    · exact g.argBal
    · exact bal_idx
    · exact hY.bal
    · exact hbr _ (by simp)
  refine .fn dH2PP_FULLMESH2 rfl [S, [.id M], A, X, Y] (Ok.not_mem (N := N) (k := 31) (by ok) (by rw [rH2PP_FULLMESH2]; decide)) (by simp)
    (by simp [g.sepBal, g.argBal, bal_id, hX.bal, hY.bal]) rfl (fun k => [S, [.id M], A, X, Y].getD k []) ?_
    (b := callT "H2PP_EVAL" [callT "_H2PP_FOREACHx" ([S, [.id M], A, [idx 0], Y] ++ [callT "H2PP_REMOVE_PARENTHESES" [X]])]) (by simp [build, callT, join, e0]) ?_
  · intro k hk
    simp at hk
    have hk' : k = 0 ∨ k = 1 ∨ k = 2 ∨ k = 3 ∨ k = 4 := by omega
    clear hk
    rcases hk' with rfl | rfl | rfl | rfl | rfl
    · exact pass_plain' g.sepPlain
    · exact pass_still' g.mac (by ok)
    · exact pass_still' g.argStill (by ok)
    · exact pass_plain' hX.plain
    · exact pass_plain' hY.plain
  · refine eval (N := N) (by simp) (by simp only [List.mem_cons, List.not_mem_nil, or_false, forall_eq]; exact bal_callT hba) (Y := xAll S o ys 0 xs) ?_ out _ ts (by ok) (by ok) (.mark h)
    rw [join]
    have hlen := hX.els.len
    have hlen' := hY.els.len
    have hst : Step user N 20 (callT "_H2PP_FOREACHx" ([S, [.id M], A, [idx 0], Y] ++ [callT "H2PP_REMOVE_PARENTHESES" [X]])) (xOut S M A o 0 Y ys xs) := by
      intro out r ts h1 h2 h
      have := eachX (N := N) hu g (o := o) (i := 0) hY (raws := [callT "H2PP_REMOVE_PARENTHESES" [X]]) (by simp) hbr (by simpa [join] using ((hX.remove (N := N)).mono (by decide)).arg) hX.els (by omega)
        (fun x xs' y ys' e e' => (ho 0 0 x y (by rw [e]; rfl) (by rw [e']; rfl)).step) [] (by simp) (h1.mono (by decide)) (h2.mono (by decide)) h
      simpa [callT, toks] using this
    refine .step (bal_callT hba) hst ?_
    cases xs with
    | nil => exact .done (by intro s hs; simp [xOut] at hs) .nil
    | cons x xs =>
      refine xOutRuns hu g (by decide) hY (hX.els.bal x (.head _)) (hX.els.plain x (.head _)) (fun k y hy => ho 0 k x y rfl hy) (by omega) ?_
      exact (xRuns hu g hY hX.els.tail (by simp at hlen; omega) (fun k l z y hz hy => by have := ho (k + 1) l z y hz hy; rwa [Nat.add_comm] at this)).le (by simp at hlen; omega)

/-! ### One list or two -/

theorem still_join {T : String → Option Macro} {as : List (List Tok)} (h : ∀ a ∈ as, Still T N a) : Still T N (join as) := by
  induction as with
  | nil => trivial
  | cons a as ih =>
    cases as with
    | nil => exact h a (.head _)
    | cons b bs => exact still_append (h a (.head _)) (y := .comma :: join (b :: bs)) (show Still T N (join (b :: bs)) from ih fun x hx => h x (.tail _ hx)) (by simp)

theorem still_par {T : String → Option Macro} {as : List (List Tok)} (h : ∀ a ∈ as, Still T N a) : Still T N (par as) :=
  still_lp.2 (still_append (still_join h) (y := [.rp]) (by simp [Still]) (by simp))

/-- `H2PP_RESCAN` of what becomes a text without macros. -/
theorem rescanStep {k : Nat} (hk : 2 ≤ k) {X Y : List Tok} (hX : Bal false X) (h : Step user N k X Y) (hY : Plain (defs user) Y) : Step user N k (callT "H2PP_RESCAN" [X]) Y :=
  fun _ _ _ h1 h2 hr => rescan (N := N) (h1.mono hk) (h2.mono hk) hX (h.fin (ok_append.2 ⟨h1, h2⟩)) (pass_plain hY (.mark hr))

/-- A macro that calls another with what stands in parentheses. -/
theorem rescanCall {P F : String} {k : Nat} (hk : 2 ≤ k) (hP : defs user P = some ⟨some (1, false), [.tok (.id "H2PP_RESCAN"), .tok .lp, .tok (.id F), .arg 0, .tok .rp]⟩) (hr : rank N P = k)
    {args : List (List Tok)} (hb : ∀ a ∈ args, Bal false a) (hs : ∀ a ∈ args, Still (defs user) N a) {Y : List Tok} (h : Step user N k (callT F args) Y) (hY : Plain (defs user) Y) :
    Step user N (k + 1) (callT P [par args]) Y := by
  intro out r ts h1 h2 hR
  have hok : Ok N (k + 1) (out ++ marks r) := ok_append.2 ⟨h1, h2⟩
  refine .fn hP rfl [par args] (hok.not_mem (by omega)) (by simp) (by simp only [List.mem_cons, List.not_mem_nil, or_false, forall_eq]; exact bal_par hb) rfl (fun _ => par args) ?_
    (b := callT "H2PP_RESCAN" [callT F args]) (by simp [build, callT, join, par]) ?_
  · intro i hi
    simp at hi
    subst hi
    exact pass_still' (still_par hs) (hok.mono (by omega))
  · exact rescanStep hk (bal_callT hb) h hY out (.mark P :: r) ts (h1.mono (by omega)) (ok_cons.2 ⟨by omega, h2.mono (by omega)⟩) (.mark hR)

/-- Two lists. -/
theorem fullmesh1_two (hu : Apart user) (g : Given user N S M A) {X Y : List Tok} (hX : Bal false X) (pX : Plain (defs user) X) (hY : Bal false Y) (pY : Plain (defs user) Y) (hne : Y ≠ []) {Z : List Tok}
    (hZ : Step user N 31 (callT "H2PP_FULLMESH2" [S, [.id M], A, X, Y]) Z) (pZ : Plain (defs user) Z) : Step user N 34 (callT "H2PP_FULLMESH1" [S, [.id M], A, X, Y]) Z := by
  intro out r ts h1 h2 h
  have hb : ∀ a ∈ [S, [.id M], A, X, Y], Bal false a := by simp [g.sepBal, g.argBal, bal_id, hX, hY]
  have hs : ∀ a ∈ [S, [.id M], A, X, Y], Still (defs user) N a := by simp [g.argStill, g.mac, still_plain g.sepPlain, still_plain pX, still_plain pY]
  have he : ∀ D, Ok N 12 D → ∀ k, k < 5 → Becomes (defs user) D (toks ([S, [.id M], A, X, Y].getD k [])) ([S, [.id M], A, X, Y].getD k []) := by
    intro D hD k hk
    have e : [S, [.id M], A, X, Y].getD k [] = [S, [.id M], A, X, Y][k] := by rw [List.getD_eq_getElem?_getD, List.getElem?_eq_getElem hk]; rfl
    rw [e]
    exact pass_still' (hs _ (List.getElem_mem hk)) (hD.mono (by decide))
  refine .fn dH2PP_FULLMESH1 rfl [S, [.id M], A, X, Y] (Ok.not_mem (N := N) (k := 34) (by ok) (by rw [rH2PP_FULLMESH1]; decide)) (by simp) hb (bs := [S, [.id M], A, X, Y]) rfl
    (fun k => [S, [.id M], A, X, Y].getD k []) ?_
    (b := callT "H2PP_CAT2" [[.id "_H2PP_FULLMESH2_"], callT "H2PP_IS_EMPTY" [Y]] ++ par [S, [.id M], A, X, Y]) (by simp [build, callT, join, par]) ?_
  · intro k hk
    simp at hk
    exact he _ (by ok) k (by omega)
  · have hP : defs user "_H2PP_FULLMESH2_" = none := defs_none hu (by decide +kernel) (by decide +kernel)
    have hE : Becomes (defs user) (out ++ marks (.mark "H2PP_FULLMESH1" :: r)) (toks (callT "H2PP_IS_EMPTY" [Y])) [.num (bit ([Y] == [[]]))] :=
      .fin (isEmpty (N := N) hu (by simp) (by simp [hY]) (by simp) (by simp) (by simp [hY]) (by simpa [join] using pY) (by ok) (by ok) (pass_plain' (by simpa [join] using pY)) .nil)
    have heb : ([Y] == [[]]) = false := by simpa using hne
    rw [heb] at hE
    refine dispatch (N := N) (k := 33) (.inl rfl) hP (bal_callT (d := false) (by simp [hY])) hE (G := "_H2PP_FULLMESH2_0") (by decide +kernel) d_H2PP_FULLMESH2_0 rfl (by rw [r_H2PP_FULLMESH2_0]; decide)
      (by ok) (by ok) (by decide) (by decide +kernel) [S, [.id M], A, X, Y] (by simp) hb (bs := [join [S, [.id M], A, X, Y]]) (by simp [bind])
      (fun _ => join [S, [.id M], A, X, Y]) ?_ (bd := callT "_H2PP_FULLMESH2_0_R" [par [S, [.id M], A, X, Y]]) (by simp [build, callT, join, par]) ?_
    · intro k hk
      simp at hk
      subst hk
      exact pass_still' (still_join hs) (by ok)
    · exact rescanCall (N := N) (by decide) d_H2PP_FULLMESH2_0_R r_H2PP_FULLMESH2_0_R hb hs hZ pZ out _ ts (by ok) (by ok) (.mark (.mark h))

/-- One list is taken twice. -/
theorem fullmesh1_one (hu : Apart user) (g : Given user N S M A) {X : List Tok} (hX : Bal false X) (pX : Plain (defs user) X) {Z : List Tok}
    (hZ : Step user N 31 (callT "H2PP_FULLMESH2" [S, [.id M], A, X, X]) Z) : Step user N 34 (callT "H2PP_FULLMESH1" [S, [.id M], A, X]) Z := by
  intro out r ts h1 h2 h
  have hb : ∀ a ∈ [S, [.id M], A, X], Bal false a := by simp [g.sepBal, g.argBal, bal_id, hX]
  have hb' : ∀ a ∈ [S, [.id M], A, X, []], Bal false a := by simp [g.sepBal, g.argBal, bal_id, hX, Bal.nil]
  have hs : ∀ a ∈ [S, [.id M], A, X, []], Still (defs user) N a := by
    have hn : Still (defs user) N [] := trivial
    simp [g.argStill, g.mac, still_plain g.sepPlain, still_plain pX, hn]
  have he : ∀ D, Ok N 12 D → ∀ k, k < 5 → Becomes (defs user) D (toks ([S, [.id M], A, X, []].getD k [])) ([S, [.id M], A, X, []].getD k []) := by
    intro D hD k hk
    have e : [S, [.id M], A, X, []].getD k [] = [S, [.id M], A, X, []][k] := by rw [List.getD_eq_getElem?_getD, List.getElem?_eq_getElem hk]; rfl
    rw [e]
    exact pass_still' (hs _ (List.getElem_mem hk)) (hD.mono (by decide))
  refine .fn dH2PP_FULLMESH1 rfl [S, [.id M], A, X] (Ok.not_mem (N := N) (k := 34) (by ok) (by rw [rH2PP_FULLMESH1]; decide)) (by simp) hb (bs := [S, [.id M], A, X, []]) (by simp [bind, join])
    (fun k => [S, [.id M], A, X, []].getD k []) ?_
    (b := callT "H2PP_CAT2" [[.id "_H2PP_FULLMESH2_"], callT "H2PP_IS_EMPTY" [[]]] ++ par [S, [.id M], A, X, []]) (by simp [build, callT, join, par]) ?_
  · intro k hk
    simp at hk
    exact he _ (by ok) k (by omega)
  · have hP : defs user "_H2PP_FULLMESH2_" = none := defs_none hu (by decide +kernel) (by decide +kernel)
    have pn : Plain (defs user) [] := by intro s hs; simp at hs
    have hE : Becomes (defs user) (out ++ marks (.mark "H2PP_FULLMESH1" :: r)) (toks (callT "H2PP_IS_EMPTY" [[]])) [.num (bit true)] :=
      .fin (isEmpty (N := N) hu (raws := [[]]) (as := [[]]) (by simp) (by simp [Bal.nil]) (by simp) (by simp) (by simp [Bal.nil]) (by simpa [join] using pn) (by ok) (by ok) .nil .nil)
    refine dispatch (N := N) (k := 33) (.inl rfl) hP (bal_callT (d := false) (by simp [Bal.nil])) hE (G := "_H2PP_FULLMESH2_1") (by decide +kernel) d_H2PP_FULLMESH2_1 rfl (by rw [r_H2PP_FULLMESH2_1]; decide)
      (by ok) (by ok) (by decide) (by decide +kernel) [S, [.id M], A, X, []] (by simp) hb' (bs := [S, [.id M], A, X, []]) (by simp [bind, join])
      (fun k => [S, [.id M], A, X, []].getD k []) ?_ (bd := callT "H2PP_FULLMESH2" [S, [.id M], A, X, X]) (by simp [build, callT, join]) ?_
    · intro k hk
      simp at hk
      exact he _ (by ok) k (by omega)
    · exact hZ out _ ts (by ok) (by ok) (.mark (.mark h))

/-- `H2PP_FULLMESH`. -/
theorem fullmeshCall (hu : Apart user) (g : Given user N S M A) {Ts : List (List Tok)} (hl : Ts.length ≤ 63) (h0 : Ts ≠ []) (hT : ∀ T ∈ Ts, Bal false T ∧ Plain (defs user) T) (hne : Ts ≠ [[]]) {Z : List Tok}
    (hZ : Step user N 34 (callT "H2PP_FULLMESH1" ([S, [.id M], A] ++ Ts)) Z) (pZ : Plain (defs user) Z) : Step user N 36 (callT "H2PP_FULLMESH" ([S, [.id M], A] ++ Ts)) Z := by
  intro out r ts h1 h2 h
  have hb : ∀ a ∈ [S, [.id M], A] ++ Ts, Bal false a := by
    intro a ha
    simp only [List.mem_append, List.mem_cons, List.not_mem_nil, or_false] at ha
    rcases ha with (rfl | rfl | rfl) | ha
    · exact g.sepBal
    · exact bal_id
    · exact g.argBal
    · exact (hT a ha).1
  have hs : ∀ a ∈ [S, [.id M], A] ++ Ts, Still (defs user) N a := by
    intro a ha
    simp only [List.mem_append, List.mem_cons, List.not_mem_nil, or_false] at ha
    rcases ha with (rfl | rfl | rfl) | ha
    · exact still_plain g.sepPlain
    · exact g.mac
    · exact g.argStill
    · exact still_plain (hT a ha).2
  have pT : Plain (defs user) (join Ts) := plain_join fun T h => (hT T h).2
  have hbT : ∀ T ∈ Ts, Bal false T := fun T h => (hT T h).1
  have e := join_join (x := [S, [.id M], A]) h0
  refine .fn dH2PP_FULLMESH rfl ([S, [.id M], A] ++ Ts) (Ok.not_mem (N := N) (k := 36) (by ok) (by rw [rH2PP_FULLMESH]; decide)) (by simp) hb
    (bs := [S, [.id M], A, join Ts]) (by simp [bind]) (fun k => [S, [.id M], A, join Ts].getD k []) ?_
    (b := callT "H2PP_RESCAN" [callT "H2PP_CAT2" [[.id "_H2PP_FULLMESH1_"], callT "H2PP_IS_EMPTY" Ts] ++ par [par ([S, [.id M], A] ++ Ts)]]) ?_ ?_
  · intro k hk
    simp at hk
    have hk' : k = 0 ∨ k = 1 ∨ k = 2 ∨ k = 3 := by omega
    clear hk
    rcases hk' with rfl | rfl | rfl | rfl
    · exact pass_plain' g.sepPlain
    · exact pass_still' g.mac (by ok)
    · exact pass_still' g.argStill (by ok)
    · exact pass_plain' pT
  · simp only [build, callT, par, ← e]
    simp [join]
  · refine rescanStep (N := N) (k := 35) (by decide) ((bal_callT (d := false) ?_).append (bal_par (d := false) ?_)) ?_ pZ out _ ts (by ok) (by ok) (.mark h)
    · simp only [List.mem_cons, List.not_mem_nil, or_false, forall_eq_or_imp, forall_eq]
      exact ⟨bal_id, bal_callT hbT⟩
    · simp only [List.mem_cons, List.not_mem_nil, or_false, forall_eq]
      exact bal_par hb
    · intro out r ts h1 h2 h
      have hP : defs user "_H2PP_FULLMESH1_" = none := defs_none hu (by decide +kernel) (by decide +kernel)
      have hE : Becomes (defs user) (out ++ marks r) (toks (callT "H2PP_IS_EMPTY" Ts)) [.num (bit (Ts == [[]]))] :=
        .fin (isEmpty (N := N) hu h0 hbT h0 hl hbT pT (by ok) (by ok) (pass_plain' pT) .nil)
      have heb : (Ts == [[]]) = false := by simpa using hne
      rw [heb] at hE
      refine dispatch (N := N) (k := 35) (.inl rfl) hP (bal_callT hbT) hE (G := "_H2PP_FULLMESH1_0") (by decide +kernel) d_H2PP_FULLMESH1_0 rfl (by rw [r_H2PP_FULLMESH1_0]; decide)
        (by ok) (by ok) (by decide) (by decide +kernel) [par ([S, [.id M], A] ++ Ts)] (by simp) (by simp only [List.mem_cons, List.not_mem_nil, or_false, forall_eq]; exact bal_par hb) (bs := [par ([S, [.id M], A] ++ Ts)]) (by simp [bind])
        (fun _ => par ([S, [.id M], A] ++ Ts)) ?_ (bd := callT "H2PP_RESCAN" [callT "H2PP_FULLMESH1" ([S, [.id M], A] ++ Ts)]) (by simp [build, callT, join, par]) ?_
      · intro k hk
        simp at hk
        subst hk
        exact pass_still' (still_par hs) (by ok)
      · exact rescanStep (N := N) (by decide) (bal_callT hb) hZ pZ out _ ts (by ok) (by ok) (.mark h)

theorem plain_yAll (g : Given user N S M A) {o : Nat → Nat → List Tok → List Tok → List Tok} {i : Nat} {x : List Tok} {ys : List (List Tok)} :
    ∀ {j : Nat}, (∀ k y, ys[k]? = some y → Plain (defs user) (o i (j + k) x y)) → Plain (defs user) (yAll S o i x j ys) := by
  induction ys with
  | nil => intro j _ s hs; simp [yAll] at hs
  | cons y ys ih =>
    intro j h
    exact plain_append (plain_append (plain_sep2 g i j) (h 0 y rfl)) (ih fun k z hz => by have := h (k + 1) z hz; rwa [← Nat.add_assoc, Nat.add_right_comm] at this)

theorem plain_xAll (g : Given user N S M A) {o : Nat → Nat → List Tok → List Tok → List Tok} {ys xs : List (List Tok)} :
    ∀ {i : Nat}, (∀ k l x y, xs[k]? = some x → ys[l]? = some y → Plain (defs user) (o (i + k) l x y)) → Plain (defs user) (xAll S o ys i xs) := by
  induction xs with
  | nil => intro j _ s hs; simp [xAll] at hs
  | cons x xs ih =>
    intro i h
    refine plain_append (plain_yAll g fun k y hy => by simpa using h 0 k x y rfl hy) (ih fun k l z y hz hy => ?_)
    have := h (k + 1) l z y hz hy; rwa [← Nat.add_assoc, Nat.add_right_comm] at this

theorem Tuple.ne {T : List Tok} {ys : List (List Tok)} (h : Tuple user T ys) : T ≠ [] := by rw [h.eq]; simp [par]

/-- `H2PP_FULLMESH` of two lists. -/
theorem fullmesh (hu : Apart user) (g : Given user N S M A) {o : Nat → Nat → List Tok → List Tok → List Tok} {X Y : List Tok} {xs ys : List (List Tok)} (hX : Tuple user X xs) (hY : Tuple user Y ys)
    (ho : ∀ i j x y, xs[i]? = some x → ys[j]? = some y → Gives2 user N M A o i j x y) : Step user N 36 (callT "H2PP_FULLMESH" [S, [.id M], A, X, Y]) (xAll S o ys 0 xs) := by
  have pZ : Plain (defs user) (xAll S o ys 0 xs) := plain_xAll g fun k l x y hx hy => by simpa using (ho k l x y hx hy).plain
  exact fullmeshCall hu g (Ts := [X, Y]) (by simp) (by simp) (by simp [hX.bal, hX.plain, hY.bal, hY.plain]) (by simp)
    (fullmesh1_two hu g hX.bal hX.plain hY.bal hY.plain hY.ne (fullmesh2 hu g hX hY ho) pZ) pZ

/-- `H2PP_FULLMESH` of a list. -/
theorem fullmeshSame (hu : Apart user) (g : Given user N S M A) {o : Nat → Nat → List Tok → List Tok → List Tok} {X : List Tok} {xs : List (List Tok)} (hX : Tuple user X xs)
    (ho : ∀ i j x y, xs[i]? = some x → xs[j]? = some y → Gives2 user N M A o i j x y) : Step user N 36 (callT "H2PP_FULLMESH" [S, [.id M], A, X]) (xAll S o xs 0 xs) := by
  have pZ : Plain (defs user) (xAll S o xs 0 xs) := plain_xAll g fun k l x y hx hy => by simpa using (ho k l x y hx hy).plain
  exact fullmeshCall hu g (Ts := [X]) (by simp) (by simp) (by simp [hX.bal, hX.plain]) (by simpa using hX.ne) (fullmesh1_one hu g hX.bal hX.plain (fullmesh2 hu g hX hX ho)) pZ

/-- The macro that `H2Fullmesh` gives to `H2PP_FULLMESH`. -/
theorem fullmeshMacro {C : String} (hC : Callee user C) (hN : C ∈ N) {i j : Nat} {x y Y : List Tok} (hx : Bal false x) (px : Plain (defs user) x)
    (hy : Bal false y) (py : Plain (defs user) y) (hY : Writes user N (callT C [x, y]) Y) : Step user N 12 (callT "_H2FullmeshMacro" [[.lp, .id C, .rp], [idx i], [idx j], x, y]) Y := by
  intro out r ts h1 h2 h
  have hr : reserved C = false := Free.free C hN
  have aw : Away N (out ++ marks r) := away_ok (ok_append.2 ⟨h1, h2⟩)
  have aw' : Away N (out ++ marks (.mark "_H2FullmeshMacro" :: r)) := by
    intro s hs hD
    simp only [marks, List.mem_append, List.mem_cons] at hD
    have := aw s hs
    simp only [List.mem_append, not_or] at this
    rcases hD with hD | rfl | hD
    · exact this.1 hD
    · rcases List.mem_append.1 hs with hs | hs
      · exact reserved_ne (by decide +kernel) hs
      · exact absurd hs (by decide +kernel)
    · exact this.2 hD
  have hm : marks (toks (par [x, y]) ++ .mark "_H2FullmeshMacro" :: r) = marks (.mark "_H2FullmeshMacro" :: r) := by rw [marks_append, marks_toks]; rfl
  have hbal : Bal false [.lp, .id C, .rp] := .paren (xs := [.id C]) (ys := []) bal_id .nil
  have hst : Still (defs user) N [.lp, .id C, .rp] := still_lp.2 (still_append (x := [.id C]) (y := [.rp]) (callee_still hC hN) (by simp [Still]) (by simp))
  refine .fn d_H2FullmeshMacro rfl [[.lp, .id C, .rp], [idx i], [idx j], x, y] (Ok.not_mem (N := N) (k := 12) (by ok) (by rw [r_H2FullmeshMacro]; decide)) (by simp) (by simp [hbal, bal_idx, hx, hy])
    rfl (fun i' => [[.lp, .id C, .rp], [idx i], [idx j], x, y].getD i' []) ?_ (b := callT "H2PP_REMOVE_PARENTHESES" [[.lp, .id C, .rp]] ++ par [x, y]) (by simp [build, callT, join, par]) ?_
  · intro i' hi'
    simp at hi'
    have hi'' : i' = 0 ∨ i' = 3 ∨ i' = 4 := by omega
    clear hi'
    rcases hi'' with rfl | rfl | rfl
    · exact pass_still' hst (by ok)
    · exact pass_plain' px
    · exact pass_plain' py
  · rw [toks_append, List.append_assoc]
    refine removeOne hC hr ?_ ?_ ?_ ?_
    · rw [hm]; exact aw' _ (by simp [helpers])
    · rw [hm]; exact aw' _ (by simp [helpers])
    · rw [hm]; exact aw' _ (by simp [hN])
    · have := Becomes.skip (T := defs user) (out := out) (G := C) (args := [x, y]) (ms := ["_H2PP_REMOVE_PARENTHESES", "H2PP_REMOVE_PARENTHESES"]) (r := .mark "_H2FullmeshMacro" :: r) (ts := Y ++ ts) ?_ hC
        (hY out _ ts aw' (.mark h))
      · simpa [toks] using this
      · have h3 := aw' C (by simp [hN])
        have hGn : ∀ s, reserved s = true → C ≠ s := by rintro s hs rfl; rw [hr] at hs; cases hs
        simp only [List.mem_append, List.mem_cons, List.not_mem_nil, or_false, not_or] at h3 ⊢
        exact ⟨h3.1, ⟨hGn _ (by decide +kernel), hGn _ (by decide +kernel)⟩, h3.2⟩

/-- What `H2Fullmesh` writes. -/
theorem h2fullmesh (hu : Apart user) {C : String} (hC : Callee user C) (hN : C ∈ N) {X : List Tok} {xs ys : List (List Tok)} (hX : Tuple user X xs) {raws Ts : List (List Tok)} (hr0 : raws ≠ []) (hrb : ∀ a ∈ raws, Bal false a)
    (hT : Ts = [X] ∧ ys = xs ∨ ∃ Y, Ts = [X, Y] ∧ Tuple user Y ys) {o : List Tok → List Tok → List Tok}
    (ho : ∀ x ∈ xs, ∀ y ∈ ys, Writes user N (callT C [x, y]) (o x y) ∧ Plain (defs user) (o x y) ∧ Bal true (o x y))
    (h1 : Ok N 41 out) (h2 : Ok N 41 (marks r)) (eA : Becomes (defs user) (out ++ marks r) (toks (join raws)) (join Ts)) (h : Becomes (defs user) out r ts) :
    Becomes (defs user) out (toks (callT "H2Fullmesh" ([[.id C]] ++ raws)) ++ r) (xAll [] (fun _ _ => o) ys 0 xs ++ ts) := by
  have hst : Still (defs user) N [.lp, .id C, .rp] := still_lp.2 (still_append (x := [.id C]) (y := [.rp]) (callee_still hC hN) (by simp [Still]) (by simp))
  have hbal : Bal false [.lp, .id C, .rp] := .paren (xs := [.id C]) (ys := []) bal_id .nil
  have g : Given user N [] "_H2FullmeshMacro" [.lp, .id C, .rp] :=
    ⟨by intro s hs; simp at hs, .nil, ⟨.inr ⟨_, _, d_H2FullmeshMacro, rfl, r_H2FullmeshMacro, by simp⟩, trivial⟩, hst, hbal⟩
  have hys : Elements user ys := by
    rcases hT with ⟨_, rfl⟩ | ⟨Y, _, hY⟩
    · exact hX.els
    · exact hY.els
  have hT0 : Ts ≠ [] := by rcases hT with ⟨rfl, _⟩ | ⟨Y, rfl, hY⟩ <;> simp
  have gv : ∀ i j x y, xs[i]? = some x → ys[j]? = some y → Gives2 user N "_H2FullmeshMacro" [.lp, .id C, .rp] (fun _ _ => o) i j x y := by
    intro i j x y hx hy
    have mx := List.mem_of_getElem? hx
    have my := List.mem_of_getElem? hy
    obtain ⟨w, p, b⟩ := ho x mx y my
    exact ⟨fullmeshMacro hC hN (hX.els.bal x mx) (hX.els.plain x mx) (hys.bal y my) (hys.plain y my) w, p, b⟩
  have hf : Step user N 36 (callT "H2PP_FULLMESH" ([[], [.id "_H2FullmeshMacro"], [.lp, .id C, .rp]] ++ Ts)) (xAll [] (fun _ _ => o) ys 0 xs) := by
    rcases hT with ⟨rfl, rfl⟩ | ⟨Y, rfl, hY⟩
    · exact fullmeshSame hu g hX gv
    · exact fullmesh hu g hX hY gv
  have e := join_join (x := [[], [.id "_H2FullmeshMacro"], [.lp, .id C, .rp]]) hT0
  refine Becomes.fn (out := out) (r := r) dH2Fullmesh rfl ([[.id C]] ++ raws) (Ok.not_mem (N := N) (k := 41) (by ok) (by rw [rH2Fullmesh]; decide)) (by simp) ?_ (bs := [[.id C], join raws]) (by simp [bind])
    (fun j => [[.id C], join Ts].getD j []) ?_ (b := callT "H2PP_FULLMESH" ([[], [.id "_H2FullmeshMacro"], [.lp, .id C, .rp]] ++ Ts)) ?_ ?_
  · intro a ha
    simp only [List.mem_append, List.mem_cons, List.not_mem_nil, or_false] at ha
    rcases ha with rfl | ha
    · exact bal_id
    · exact hrb a ha
  · intro j hj
    simp at hj
    have hj' : j = 0 ∨ j = 1 := by omega
    clear hj
    rcases hj' with rfl | rfl
    · exact pass_still' (callee_still hC hN) (by ok)
    · exact eA
  · simp only [build, callT, ← e]
    simp [join]
  · exact hf out _ ts (by ok) (by ok) (.mark h)

end H2.Macro
