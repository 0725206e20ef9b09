import Verif.Macro.Eval
/-
`H2PP_EQ` of two numbers.
-/
namespace H2.Macro

variable {user : String → Option Macro} {N : List String} [Free N] {out : List String} {r : List Item} {ts us : List Tok}

/-- `EQ(X, Y)` is as if their replacements were written. -/
theorem eq_raw {X Y a b : List Tok} {c : Tok} (hX : Bal false X) (hY : Bal false Y) (ha : Bal false a) (hb : Bal false b) (h1 : Ok N 5 out) (h2 : Ok N 5 (marks r))
    (eX : Becomes (defs user) (out ++ marks r) (toks X) a) (eY : Becomes (defs user) (out ++ marks r) (toks Y) b)
    (h : ∀ {out : List String} {r : List Item} {ts : List Tok}, Ok N 4 out → Ok N 4 (marks r) → Becomes (defs user) out r ts →
      Becomes (defs user) out (toks (callT "H2PP_IS_PROBE" [callT "H2PP_CAT5" [[.id "_H2PP_EQ"], [.id "__"], a, [.id "__"], b]]) ++ r) (c :: ts))
    (hr : Becomes (defs user) out r ts) : Becomes (defs user) out (toks (callT "H2PP_EQ" [X, Y]) ++ r) (c :: ts) := by
  refine .fn dH2PP_EQ rfl [X, Y] (Ok.not_mem (N := N) (k := 5) (by ok) (by rw [rH2PP_EQ]; decide)) (by simp) (by simp [hX, hY]) rfl
    (fun i => [a, b].getD i []) ?_ (b := callT "H2PP_IS_PROBE" [callT "H2PP_CAT5" [[.id "_H2PP_EQ"], [.id "__"], a, [.id "__"], b]]) (by simp [build, callT, join]) ?_
  · intro i hi
    simp at hi
    rcases hi with rfl | rfl
    · exact eX
    · exact eY
  · exact h (by ok) (by ok) (.mark hr)

/-- The letters of `_H2PP_EQ__`. -/
def eqnL : List Char := ['_', 'H', '2', 'P', 'P', '_', 'E', 'Q', '_', '_']

/-- The letters of the name for two numbers. -/
def eqnW (a i : Nat) : List Char := eqnL ++ (Nat.toDigits 10 a ++ '_' :: '_' :: Nat.toDigits 10 i)

theorem eqn_absent : ∀ a : Fin 32, ∀ i : Fin 64, a.val ≠ i.val → within (code (eqnW a i)) codes = false := by decide +kernel

theorem eqn_there : ∀ a : Fin 32, table[104 + a.val]? = some (String.ofList (eqnW a a), Macro.mk none [.tok (.id "H2PP_PROBE"), .tok .lp, .tok .rp]) := by decide +kernel

theorem eqn_word (a i : Nat) : "_H2PP_EQ" ++ "__" ++ toString a ++ "__" ++ toString i = String.ofList (eqnW a i) := by
  have e : "_H2PP_EQ" ++ "__" = String.ofList eqnL := by decide +kernel
  have e2 : ('_' :: '_' :: Nat.toDigits 10 i) = ['_', '_'] ++ Nat.toDigits 10 i := rfl
  have e3 : "__" = String.ofList ['_', '_'] := rfl
  rw [e, eqnW, e2, String.ofList_append, String.ofList_append, String.ofList_append, e3, String.append_assoc, String.append_assoc]
  rfl

/-- Are two numbers the same? -/
theorem eqN (hu : Apart user) {X Y : List Tok} {a i : Nat} (ha : a < 32) (hi : i < 64) (hX : Bal false X) (hY : Bal false Y) (h1 : Ok N 5 out) (h2 : Ok N 5 (marks r))
    (eX : Becomes (defs user) (out ++ marks r) (toks X) [.num (toString a)]) (eY : Becomes (defs user) (out ++ marks r) (toks Y) [.num (toString i)]) (h : Becomes (defs user) out r ts) :
    Becomes (defs user) out (toks (callT "H2PP_EQ" [X, Y]) ++ r) (.num (bit (a == i)) :: ts) := by
  have hg : pastes [] [[.id "_H2PP_EQ"], [.id "__"], [.num (toString a)], [.id "__"], [.num (toString i)]] = some [.id (String.ofList (eqnW a i))] := by
    rw [← eqn_word]; simp [pastes, paste, glue]
  have p1 : ∀ n : String, Plain (defs user) [Tok.num n] := by intro n s hs; simp at hs
  refine eq_raw (N := N) hX hY bal_num bal_num h1 h2 eX eY ?_ h
  intro out r ts o1 o2 h
  have hbal : Bal false (callT "H2PP_CAT5" [[.id "_H2PP_EQ"], [.id "__"], [.num (toString a)], [.id "__"], [.num (toString i)]]) := bal_callT (d := false) (by simp [bal_num, bal_id])
  have hbeg : begins (eqnW a i) = true := by simp [eqnW, begins, eqnL]
  by_cases he : a = i
  · subst he
    have hb : (a == a) = true := by simp
    rw [hb]
    have hr : rank N (String.ofList (eqnW a a)) = 1 := rank_small hbeg (by simp [eqnW, small, eqnL])
    refine isProbe_yes (N := N) hbal .nil o1 o2 (.fin ?_) h
    refine cat5 (N := N) hu bal_num bal_num (p1 _) (p1 _) (by ok) (by ok) hg ?_
    have hok : Ok N 2 (out ++ marks r) := by ok
    refine .obj (defs_some (lookup_at table_codes codes_nodup (eqn_there ⟨a, ha⟩))) rfl ?_ (b := callT "H2PP_PROBE" [[]]) (by simp [build, callT, join]) ?_
    · intro hm
      rcases List.mem_append.1 hm with hm | hm
      · exact hok.not_mem (by rw [hr]; decide) hm
      · have e1 : "_H2PP_CAT5" = String.ofList ['_', 'H', '2', 'P', 'P', '_', 'C', 'A', 'T', '5'] := rfl
        have e2 : "H2PP_CAT5" = String.ofList ['H', '2', 'P', 'P', '_', 'C', 'A', 'T', '5'] := rfl
        rw [e1, e2] at hm
        simp only [marks, List.mem_cons, List.not_mem_nil, or_false, String.ofList_inj] at hm
        simp [eqnW, eqnL] at hm
    · refine probe (N := N) (by ok) ?_ (.mark (.mark (.mark .nil)))
      simp only [marks, ok_cons, ok_nil, hr, r_H2PP_CAT5, rH2PP_CAT5]; decide
  · have hb : (a == i) = false := by simpa using he
    rw [hb]
    have hn : defs user (String.ofList (eqnW a i)) = none :=
      defs_none hu (lookup_absent table_codes (eqn_absent ⟨a, ha⟩ ⟨i, hi⟩ he)) (reserved_begins hbeg)
    refine isProbe_no (N := N) hbal (a := [.id (String.ofList (eqnW a i))]) bal_id o1 o2 (.fin ?_) h
    exact cat5 (N := N) hu bal_num bal_num (p1 _) (p1 _) (by ok) (by ok) hg (.name hn (.mark (.mark .nil)))

end H2.Macro
