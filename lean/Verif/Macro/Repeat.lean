import Verif.Macro.Each
/-
`H2PP_NOT`, `H2PP_BOOL`, the number before a number, and `H2PP_REPEAT`.
-/
namespace H2.Macro

/-! ### Names with a number in them -/

/-- The letters of `_H2PP_NOT_`. -/
def notL : List Char := ['_', 'H', '2', 'P', 'P', '_', 'N', 'O', 'T', '_']

/-- The letters of `H2PP_DEC_`. -/
def decL : List Char := ['H', '2', 'P', 'P', '_', 'D', 'E', 'C', '_']

theorem not_word (i : Nat) : "_H2PP_NOT_" ++ word (idx i) = String.ofList (notL ++ letters i) := by
  have e : "_H2PP_NOT_" = String.ofList notL := rfl
  rw [e, word_idx, String.ofList_append]

theorem dec_word (i : Nat) : "H2PP_DEC_" ++ word (idx i) = String.ofList (decL ++ letters i) := by
  have e : "H2PP_DEC_" = String.ofList decL := rfl
  rw [e, word_idx, String.ofList_append]

theorem begins_notL (l : List Char) : begins (notL ++ l) = true := by simp [begins, notL]

theorem begins_decL (l : List Char) : begins (decL ++ l) = true := by simp [begins, decL]

theorem small_decL (l : List Char) : small (decL ++ l) = true := by simp [small, decL]

theorem not_absent : ∀ i : Fin 64, i.val ≠ 0 → within (code (notL ++ letters i)) codes = false := by decide +kernel

theorem dec_there : ∀ i : Fin 32, table[232 + i.val]? = some (String.ofList (decL ++ letters (i.val + 1)), Macro.mk none [.tok (.num (toString i.val))]) := by decide +kernel

variable {user : String → Option Macro} {N : List String} [Free N] {out : List String} {r : List Item} {ts us : List Tok}

/-- `NOT(n)`. -/
theorem not0 (hu : Apart user) {i : Nat} (hi : i < 64) (h1 : Ok N 5 out) (h2 : Ok N 5 (marks r)) (h : Becomes (defs user) out r ts) :
    Becomes (defs user) out (toks (callT "H2PP_NOT" [[idx i]]) ++ r) (.num (bit (i == 0)) :: ts) := by
  have hg : pastes [] [[.id "_H2PP_NOT_"], [idx i]] = some [.id ("_H2PP_NOT_" ++ word (idx i))] := by
    rcases idx_word i with h | h <;> rw [h] <;> simp [pastes, paste, glue, word]
  refine .fn dH2PP_NOT rfl [[idx i]] (Ok.not_mem (N := N) (k := 5) (by ok) (by rw [rH2PP_NOT]; decide)) (by simp) (by simp [bal_idx]) rfl
    (fun j => [[idx i]].getD j []) ?_ (b := callT "H2PP_IS_PROBE" [callT "_H2PP_CAT2" [[.id "_H2PP_NOT_"], [idx i]]]) (by simp [build, callT, join]) ?_
  · intro j hj
    simp at hj
    subst hj
    exact pass_plain' (plain_idx hu hi)
  · have hbal : Bal false (callT "_H2PP_CAT2" [[.id "_H2PP_NOT_"], [idx i]]) := bal_callT (d := false) (by simp [bal_id, bal_idx])
    by_cases h0 : i = 0
    · subst h0
      have e : "_H2PP_NOT_" ++ word (idx 0) = "_H2PP_NOT_0" := by decide +kernel
      rw [e] at hg
      refine isProbe_yes (N := N) hbal .nil (by ok) (by ok) (.fin ?_) (.mark h)
      refine cat2' (N := N) (by ok) (by ok) bal_id bal_idx hg ?_
      have hok : Ok N 2 (out ++ marks (.mark "H2PP_NOT" :: r)) := by ok
      refine .obj d_H2PP_NOT_0 rfl ?_ (b := callT "H2PP_PROBE" [[]]) (by simp [build, callT, join]) ?_
      · intro hm
        rcases List.mem_append.1 hm with hm | hm
        · exact hok.not_mem (by rw [r_H2PP_NOT_0]; decide) hm
        · simp [marks] at hm
      · refine probe (N := N) (by ok) ?_ (.mark (.mark .nil))
        simp only [marks, ok_cons, ok_nil, r_H2PP_NOT_0, r_H2PP_CAT2]; decide
    · have hb : (i == 0) = false := by simpa using h0
      rw [hb]
      have hn : defs user ("_H2PP_NOT_" ++ word (idx i)) = none := by
        rw [not_word]
        exact defs_none hu (lookup_absent table_codes (not_absent ⟨i, hi⟩ h0)) (reserved_begins (begins_notL _))
      refine isProbe_no (N := N) hbal (a := [.id ("_H2PP_NOT_" ++ word (idx i))]) bal_id (by ok) (by ok) (.fin ?_) (.mark h)
      exact cat2' (N := N) (by ok) (by ok) bal_id bal_idx hg (.name hn (.mark .nil))

/-- `BOOL(n)`. -/
theorem boolN (hu : Apart user) {i : Nat} (hi : i < 64) (h1 : Ok N 7 out) (h2 : Ok N 7 (marks r)) (h : Becomes (defs user) out r ts) :
    Becomes (defs user) out (toks (callT "H2PP_BOOL" [[idx i]]) ++ r) (.num (bit (i != 0)) :: ts) := by
  refine .fn dH2PP_BOOL rfl [[idx i]] (Ok.not_mem (N := N) (k := 7) (by ok) (by rw [rH2PP_BOOL]; decide)) (by simp) (by simp [bal_idx]) rfl
    (fun j => [[idx i]].getD j []) ?_ (b := callT "H2PP_COMPL" [callT "H2PP_NOT" [[idx i]]]) (by simp [build, callT, join]) ?_
  · intro j hj
    simp at hj
    subst hj
    exact pass_plain' (plain_idx hu hi)
  · refine .fn dH2PP_COMPL rfl [callT "H2PP_NOT" [[idx i]]] (Ok.not_mem (N := N) (k := 6) (by ok) (by rw [rH2PP_COMPL]; decide)) (by simp)
      (by simp only [List.mem_singleton, forall_eq]; exact bal_callT (d := false) (by simp [bal_idx])) rfl
      (fun _ => [.num (bit (i == 0))]) ?_ (b := callT "_H2PP_CAT2" [[.id "_H2PP_COMPL_"], [.num (bit (i == 0))]]) (by simp [build, callT, join]) ?_
    · intro j hj
      simp at hj
      subst hj
      exact .fin (not0 (N := N) hu hi (by ok) (by ok) .nil)
    · by_cases h0 : i = 0
      · subst h0
        refine cat2' (N := N) (g := [.id "_H2PP_COMPL_1"]) (by ok) (by ok) bal_id bal_num (by decide +kernel) ?_
        refine .obj d_H2PP_COMPL_1 rfl ?_ (b := [.num "0"]) (by simp [build]) (.tok (by simp) (.mark (.mark (.mark (.mark h)))))
        exact Ok.not_mem (N := N) (k := 1) (by ok) (by rw [r_H2PP_COMPL_1]; decide)
      · have hb : (i == 0) = false := by simpa using h0
        have hb' : (i != 0) = true := by simpa using h0
        rw [hb, hb']
        refine cat2' (N := N) (g := [.id "_H2PP_COMPL_0"]) (by ok) (by ok) bal_id bal_num (by decide +kernel) ?_
        refine .obj d_H2PP_COMPL_0 rfl ?_ (b := [.num "1"]) (by simp [build]) (.tok (by simp) (.mark (.mark (.mark (.mark h)))))
        exact Ok.not_mem (N := N) (k := 1) (by ok) (by rw [r_H2PP_COMPL_0]; decide)

/-- The number before a number. -/
theorem dec (hu : Apart user) {i : Nat} (hi : i < 32) (h1 : Ok N 3 out) (h2 : Ok N 3 (marks r)) (h : Becomes (defs user) out r ts) :
    Becomes (defs user) out (toks (callT "H2PP_CAT2" [[.id "H2PP_DEC_"], [idx (i + 1)]]) ++ r) (idx i :: ts) := by
  have hg : pastes [] [[.id "H2PP_DEC_"], [idx (i + 1)]] = some [.id ("H2PP_DEC_" ++ word (idx (i + 1)))] := by
    rcases idx_word (i + 1) with h | h <;> rw [h] <;> simp [pastes, paste, glue, word]
  have hP : defs user "H2PP_DEC_" = none := defs_none hu (by decide +kernel) (by decide +kernel)
  refine cat2 (N := N) h1 h2 bal_id bal_idx (.name hP .nil) (pass_plain' (plain_idx hu (by omega))) bal_id bal_idx hg ?_
  rw [dec_word]
  have f3 : rank N (String.ofList (decL ++ letters (i + 1))) = 1 := rank_small (begins_decL _) (small_decL _)
  have f4 : String.ofList (decL ++ letters (i + 1)) ∉ ["_H2PP_CAT2", "H2PP_CAT2"] := by
    have e1 : "_H2PP_CAT2" = String.ofList ['_', 'H', '2', 'P', 'P', '_', 'C', 'A', 'T', '2'] := rfl
    have e2 : "H2PP_CAT2" = String.ofList ['H', '2', 'P', 'P', '_', 'C', 'A', 'T', '2'] := rfl
    rw [e1, e2]
    simp only [List.mem_cons, String.ofList_inj, List.not_mem_nil, or_false]
    simp [decL]
  refine .obj (defs_some (lookup_at table_codes codes_nodup (dec_there ⟨i, hi⟩))) rfl ?_ (b := [.num (toString i)]) (by simp [build]) ?_
  · have hok : Ok N 2 (out ++ marks r) := by ok
    intro hm
    simp only [marks, List.mem_append, List.mem_cons, List.not_mem_nil, or_false] at hm f4
    have hn := hok.not_mem (s := String.ofList (decL ++ letters (i + 1))) (by rw [f3]; decide)
    simp only [List.mem_append, not_or] at hn f4
    rcases hm with hm | hm | hm | hm
    · exact hn.1 hm
    · exact f4.1 hm
    · exact f4.2 hm
    · exact hn.2 hm
  · have e : idx i = .num (toString i) := by rw [idx, if_pos (by omega)]
    rw [e]
    exact .tok (by simp) (.mark (.mark (.mark h)))

/-! ### `H2PP_REPEAT` -/

section
variable {S A : List Tok} {M : String}

theorem repCall (hu : Apart user) (g : Given user N S M A) {i : Nat} (hi : i < 64) {X o : List Tok} (hX : Bal false X)
    (eX : Arg user N 14 X [idx i]) (ho : Step user N 12 (callT M [A, [idx i]]) o) :
    Step user N 14 (callT "_H2PP_REPEAT_CALL_MACRO" [S, [.id M], A, X]) (sep S i ++ o) := by
  intro out r ts h1 h2 h
  have hbal : ∀ a ∈ [S, [.id M], A, [idx i]], Bal false a := by simp [g.sepBal, g.argBal, bal_id, bal_idx]
  have he : ∀ {D : List String}, Ok N 1 D → ∀ j, j = 0 ∨ j = 1 ∨ j = 2 ∨ j = 3 → Becomes (defs user) D (toks ([S, [.id M], A, [idx i]].getD j [])) ([S, [.id M], A, [idx i]].getD j []) := by
    rintro D hD j (rfl | rfl | rfl | rfl)
    · exact pass_plain' g.sepPlain
    · exact pass_still' g.mac hD
    · exact pass_still' g.argStill hD
    · exact pass_plain' (plain_idx hu hi)
  refine .fn d_H2PP_REPEAT_CALL_MACRO rfl [S, [.id M], A, X] (Ok.not_mem (N := N) (k := 14) (by ok) (by rw [r_H2PP_REPEAT_CALL_MACRO]; decide)) (by simp)
    (by simp [g.sepBal, g.argBal, bal_id, hX]) rfl (fun i' => [S, [.id M], A, [idx i]].getD i' []) ?_
    (b := callT "H2PP_CAT2" [[.id "_H2PP_REPEAT_CALL_MACRO_"], callT "H2PP_EQ" [[.num "0"], [idx i]]] ++ par [S, [.id M], A, [idx i]]) (by simp [build, callT, join, par]) ?_
  · intro i' hi'
    simp at hi'
    have hi'' : i' = 0 ∨ i' = 1 ∨ i' = 2 ∨ i' = 3 := by omega
    clear hi'
    rcases hi'' with rfl | rfl | rfl | rfl
    · exact pass_plain' g.sepPlain
    · exact pass_still' g.mac (by ok)
    · exact pass_still' g.argStill (by ok)
    · exact eX.fin (by ok)
  · have hP : defs user "_H2PP_REPEAT_CALL_MACRO_" = none := defs_none hu (by decide +kernel) (by decide +kernel)
    have hE : Becomes (defs user) (out ++ marks (.mark "_H2PP_REPEAT_CALL_MACRO" :: r)) (toks (callT "H2PP_EQ" [[.num "0"], [idx i]])) [.num (bit (i == 0))] :=
      .fin (eq0 (N := N) hu hi (by ok) (by ok) .nil)
    by_cases h0 : i = 0
    · have hb : (i == 0) = true := by simpa using h0
      rw [hb] at hE
      refine dispatch (N := N) (k := 13) (.inl rfl) hP (bal_callT (d := false) (by simp [bal_num, bal_idx])) hE (G := "_H2PP_REPEAT_CALL_MACRO_1") (by decide +kernel) d_H2PP_REPEAT_CALL_MACRO_1 rfl
        (by rw [r_H2PP_REPEAT_CALL_MACRO_1]; decide) (by ok) (by ok) (by decide) (by decide +kernel) [S, [.id M], A, [idx i]] (by simp) hbal rfl
        (fun j => [S, [.id M], A, [idx i]].getD j []) ?_ (bd := callT M [A, [idx i]]) (by simp [build, callT, join]) ?_
      · intro j hj
        simp at hj
        exact he (by ok) j (by omega)
      · rw [sep, if_pos h0, List.nil_append]
        exact ho out _ ts (by ok) (by ok) (.mark (.mark h))
    · have hb : (i == 0) = false := by simpa using h0
      rw [hb] at hE
      refine dispatch (N := N) (k := 13) (.inl rfl) hP (bal_callT (d := false) (by simp [bal_num, bal_idx])) hE (G := "_H2PP_REPEAT_CALL_MACRO_0") (by decide +kernel) d_H2PP_REPEAT_CALL_MACRO_0 rfl
        (by rw [r_H2PP_REPEAT_CALL_MACRO_0]; decide) (by ok) (by ok) (by decide) (by decide +kernel) [S, [.id M], A, [idx i]] (by simp) hbal rfl
        (fun j => [S, [.id M], A, [idx i]].getD j []) ?_ (bd := callT "H2PP_REMOVE_PARENTHESES_IF" [S] ++ callT M [A, [idx i]]) (by simp [build, callT, join]) ?_
      · intro j hj
        simp at hj
        exact he (by ok) j (by omega)
      · rw [sep, if_neg h0, toks_append, List.append_assoc, List.append_assoc]
        refine removeParenIf (N := N) hu g.sepBal g.sepPlain (by ok) ?_ (ho out _ ts (by ok) (by ok) (.mark (.mark h)))
        rw [marks_append, marks_toks]
        ok

/-- The arguments of `_H2PP_REPEAT`. -/
def repArgs (S : List Tok) (M : String) (A : List Tok) (n : Nat) : List (List Tok) := [S, [.id M], A, [idx n]]

/-- The text that is left for the next time. -/
def repRest (S : List Tok) (M : String) (A : List Tok) (n : Nat) : List Tok := .id "__H2PP_REPEAT" :: .lp :: .rp :: par (repArgs S M A n)

theorem bal_repArgs (g : Given user N S M A) {n : Nat} : ∀ a ∈ repArgs S M A n, Bal false a := by
  simp [repArgs, g.sepBal, g.argBal, bal_id, bal_idx]

theorem bal_repRest (g : Given user N S M A) {n : Nat} : Bal true (repRest S M A n) :=
  .tok (by simp) (by simp) (by simp) (.paren (xs := []) .nil (bal_par (bal_repArgs g)))

/-- What one call of `_H2PP_REPEAT` becomes. -/
def repOut (S : List Tok) (M : String) (A : List Tok) (o : Nat → List Tok) : Nat → List Tok
  | 0 => []
  | n + 1 => repRest S M A n ++ (sep S n ++ o n)

theorem rep (hu : Apart user) (g : Given user N S M A) {o : Nat → List Tok} {n : Nat} (hn : n ≤ 32)
    (ho : ∀ k, n = k + 1 → Step user N 12 (callT M [A, [idx k]]) (o k)) (ms : List String) (hms : "_H2PP_REPEAT" ∉ ms)
    (h1 : Ok N 16 out) (h2 : Ok N 16 (marks r)) (h : Becomes (defs user) out r ts) :
    Becomes (defs user) out (.tok (.id "_H2PP_REPEAT") :: (ms.map .mark ++ .tok .lp :: (toks (join (repArgs S M A n)) ++ .tok .rp :: r))) (repOut S M A o n ++ ts) := by
  have hn' : n < 64 := by omega
  have he : ∀ {D : List String}, Ok N 1 D → ∀ j, j = 0 ∨ j = 1 ∨ j = 2 ∨ j = 3 → Becomes (defs user) D (toks ((repArgs S M A n).getD j [])) ((repArgs S M A n).getD j []) := by
    rintro D hD j (rfl | rfl | rfl | rfl)
    · exact pass_plain' g.sepPlain
    · exact pass_still' g.mac hD
    · exact pass_still' g.argStill hD
    · exact pass_plain' (plain_idx hu hn')
  refine .call d_H2PP_REPEAT rfl ms (repArgs S M A n) ?_ (by simp [repArgs]) (bal_repArgs g) (bs := repArgs S M A n) (by simp [bind, repArgs])
    (fun j => (repArgs S M A n).getD j []) ?_
    (b := callT "H2PP_CAT2" [[.id "_H2PP_REPEAT_"], callT "H2PP_BOOL" [[idx n]]] ++ par (repArgs S M A n)) (by simp [build, callT, join, par, repArgs]) ?_
  · have hok : Ok N 16 (out ++ marks r) := ok_append.2 ⟨h1, h2⟩
    have hn := hok.not_mem (s := "_H2PP_REPEAT") (by rw [r_H2PP_REPEAT]; decide)
    simp only [List.mem_append, not_or] at hn ⊢
    exact ⟨hn.1, hms, hn.2⟩
  · intro j hj
    simp at hj
    exact he (by ok) j (by omega)
  · have hP : defs user "_H2PP_REPEAT_" = none := defs_none hu (by decide +kernel) (by decide +kernel)
    have hE : Becomes (defs user) (out ++ marks (.mark "_H2PP_REPEAT" :: r)) (toks (callT "H2PP_BOOL" [[idx n]])) [.num (bit (n != 0))] :=
      .fin (boolN (N := N) hu hn' (by ok) (by ok) .nil)
    cases n with
    | zero =>
      refine dispatch (N := N) (k := 15) (.inl rfl) hP (bal_callT (d := false) (by simp [bal_idx])) hE (G := "_H2PP_REPEAT_0") (by decide +kernel) d_H2PP_REPEAT_0 rfl (by rw [r_H2PP_REPEAT_0]; decide)
        (by ok) (by ok) (by decide) (by decide +kernel) (repArgs S M A 0) (by simp [repArgs]) (bal_repArgs g) (bs := [join (repArgs S M A 0)]) (by simp [bind])
        (fun _ => []) (by simp) (bd := []) (by simp [build]) ?_
      exact .mark (.mark h)
    | succ n =>
      have hb : (n + 1 != 0) = true := by simp
      rw [hb] at hE
      refine dispatch (N := N) (k := 15) (.inl rfl) hP (bal_callT (d := false) (by simp [bal_idx])) hE (G := "_H2PP_REPEAT_1") (by decide +kernel) d_H2PP_REPEAT_1 rfl (by rw [r_H2PP_REPEAT_1]; decide)
        (by ok) (by ok) (by decide) (by decide +kernel) (repArgs S M A (n + 1)) (by simp [repArgs]) (bal_repArgs g) (bs := repArgs S M A (n + 1)) (by simp [bind, repArgs])
        (fun j => (repArgs S M A (n + 1)).getD j []) ?_
        (bd := callT "H2PP_DEFER" [[.id "__H2PP_REPEAT"]] ++ ([.lp, .rp] ++ (par [S, [.id M], A, callT "H2PP_CAT2" [[.id "H2PP_DEC_"], [idx (n + 1)]]] ++
          callT "_H2PP_REPEAT_CALL_MACRO" [S, [.id M], A, callT "H2PP_CAT2" [[.id "H2PP_DEC_"], [idx (n + 1)]]]))) ?_ ?_
      · intro j hj
        simp at hj
        exact he (by ok) j (by omega)
      · simp [build, callT, join, par, repArgs]
      · have sd : Arg user N 14 (callT "H2PP_CAT2" [[.id "H2PP_DEC_"], [idx (n + 1)]]) [idx n] :=
          fun out r ts o1 o2 _ hr => dec (N := N) hu (by omega) (o1.mono (by decide)) (o2.mono (by decide)) hr
        have s1 := repCall hu g (i := n) (by omega) (bal_callT (d := false) (by simp [bal_id, bal_idx])) sd (ho n rfl)
        have s2 : Step user N 14 (callT "H2PP_DEFER" [[.id "__H2PP_REPEAT"]]) [.id "__H2PP_REPEAT"] := (defer (N := N) d__H2PP_REPEAT rfl r__H2PP_REPEAT).mono (by decide)
        have s3 : Step user N 14 [.lp, .rp] [.lp, .rp] := .plain (by intro s hs; simp at hs)
        have s4 : Step user N 14 (par [S, [.id M], A, callT "H2PP_CAT2" [[.id "H2PP_DEC_"], [idx (n + 1)]]]) (par (repArgs S M A n)) :=
          Args.par (.cons (Step.plain g.sepPlain).arg (.cons (arg_still g.mac (by decide)) (.cons (arg_still g.argStill (by decide)) (.one sd))))
        have := (s2.append (s3.append (s4.append s1))) out (.mark "_H2PP_REPEAT_1" :: .mark "_H2PP_REPEAT" :: r) ts (by ok) (by ok) (.mark (.mark h))
        simpa [repOut, repRest] using this

theorem repStep (hu : Apart user) (g : Given user N S M A) {o : Nat → List Tok} {n : Nat} (hn : n ≤ 32)
    (ho : ∀ k, n = k + 1 → Step user N 12 (callT M [A, [idx k]]) (o k)) : Step user N 20 (repRest S M A n) (repOut S M A o n) := by
  intro out r ts h1 h2 h
  have hm : marks (toks (par (repArgs S M A n)) ++ r) = marks r := by rw [marks_append, marks_toks]; rfl
  have key := rep (N := N) hu g hn ho ["__H2PP_REPEAT"] (by decide +kernel) (h1.mono (by decide)) (h2.mono (by decide)) h
  have := Becomes.fn (T := defs user) (out := out) (r := toks (par (repArgs S M A n)) ++ r) d__H2PP_REPEAT rfl [[]]
    (Ok.not_mem (N := N) (k := 1) (by rw [hm]; ok) (by rw [r__H2PP_REPEAT]; decide)) (by simp) (by simp [Bal.nil]) (bs := []) (by simp [bind]) (fun _ => []) (by simp)
    (b := [.id "_H2PP_REPEAT"]) (by simp [build]) (by simpa [par, toks] using key)
  simpa [repRest, callT, join, toks] using this

/-- All that is written for a number. -/
def repAll (S : List Tok) (o : Nat → List Tok) : Nat → List Tok
  | 0 => []
  | n + 1 => repAll S o n ++ (sep S n ++ o n)

/-- What is asked of the texts that the macro becomes. -/
structure RepGives (user : String → Option Macro) (N : List String) (M : String) (A : List Tok) (o : Nat → List Tok) (i : Nat) : Prop where
  step : Step user N 12 (callT M [A, [idx i]]) (o i)
  plain : Plain (defs user) (o i)
  bal : Bal true (o i)

theorem repAfter (hu : Apart user) (g : Given user N S M A) {o : Nat → List Tok} : ∀ {n : Nat}, n ≤ 32 → (∀ i < n, RepGives user N M A o i) →
    Runs user N (n + 1) (repRest S M A n) (repAll S o n) ∧ Runs user N n (repOut S M A o n) (repAll S o n) := by
  intro n
  induction n with
  | zero =>
    intro hn _
    have d : Runs user N 0 (repOut S M A o 0) (repAll S o 0) := .done (by intro s hs; simp [repOut] at hs) .nil
    exact ⟨.step (bal_repRest g) (repStep hu g hn (by simp)) d, d⟩
  | succ n ih =>
    intro hn ho
    have h0 := ho n (by omega)
    have ih := (ih (by omega) (fun i hi => ho i (by omega))).1
    have d : Runs user N (n + 1) (repOut S M A o (n + 1)) (repAll S o (n + 1)) := by
      rw [repOut, repAll]
      exact .append ih (.done (plain_append (plain_sep g n) h0.plain) ((bal_sep g n).append h0.bal))
    exact ⟨.step (bal_repRest g) (repStep hu g hn (fun k e => by cases e; exact h0.step)) d, d⟩

/-- `H2PP_REPEAT`. -/
theorem repeats (hu : Apart user) (g : Given user N S M A) {o : Nat → List Tok} {n : Nat} (hn : n ≤ 32) (ho : ∀ i < n, RepGives user N M A o i) :
    Step user N 31 (callT "H2PP_REPEAT" [S, [.id M], A, [idx n]]) (repAll S o n) := by
  intro out r ts h1 h2 h
  refine .fn dH2PP_REPEAT rfl [S, [.id M], A, [idx n]] (Ok.not_mem (N := N) (k := 31) (by ok) (by rw [rH2PP_REPEAT]; decide)) (by simp) (bal_repArgs g)
    (bs := repArgs S M A n) (by simp [bind, repArgs]) (fun j => (repArgs S M A n).getD j []) ?_
    (b := callT "H2PP_EVAL" [callT "_H2PP_REPEAT" (repArgs S M A n)]) (by simp [build, callT, join, repArgs]) ?_
  · intro j hj
    simp at hj
    have hj' : j = 0 ∨ j = 1 ∨ j = 2 ∨ j = 3 := by omega
    clear hj
    rcases hj' with rfl | rfl | rfl | rfl
    · exact pass_plain' g.sepPlain
    · exact pass_still' g.mac (by ok)
    · exact pass_still' g.argStill (by ok)
    · exact pass_plain' (plain_idx hu (by omega))
  · refine eval (N := N) (by simp) (by simp; exact bal_callT (bal_repArgs g)) (Y := repAll S o n) ?_ out _ ts (by ok) (by ok) (.mark h)
    rw [join]
    have hst : Step user N 20 (callT "_H2PP_REPEAT" (repArgs S M A n)) (repOut S M A o n) := by
      intro out r ts h1 h2 h
      have := rep (N := N) hu g (o := o) hn (fun k e => (ho k (by omega)).step) [] (by simp) (h1.mono (by decide)) (h2.mono (by decide)) h
      simpa [callT, toks] using this
    exact .step (bal_callT (bal_repArgs g)) hst ((repAfter hu g hn ho).2.le (by omega))

end
end H2.Macro
