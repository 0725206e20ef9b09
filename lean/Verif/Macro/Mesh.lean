import Verif.Macro.Calls
/-
The macros of the library that go through pairs of lists.
-/
namespace H2.Macro

variable {user : String → Option Macro} {N : List String} [Free N] {out : List String} {r : List Item} {ts us : List Tok}

/-! ### Bits -/

theorem not_zero (hu : Apart user) {X : List Tok} (hX : Bal false X) (h1 : Ok N 5 out) (h2 : Ok N 5 (marks r)) (eX : Becomes (defs user) (out ++ marks r) (toks X) [.num "0"])
    (h : Becomes (defs user) out r ts) : Becomes (defs user) out (toks (callT "H2PP_NOT" [X]) ++ r) (.num "1" :: ts) := by
  refine .fn dH2PP_NOT rfl [X] (Ok.not_mem (N := N) (k := 5) (by ok) (by rw [rH2PP_NOT]; decide)) (by simp) (by simp [hX]) rfl
    (fun _ => [.num "0"]) ?_ (b := callT "H2PP_IS_PROBE" [callT "_H2PP_CAT2" [[.id "_H2PP_NOT_"], [.num "0"]]]) (by simp [build, callT, join]) ?_
  · intro i hi
    simp at hi
    subst hi
    exact eX
  · refine isProbe_yes (N := N) (bal_callT (d := false) (by simp [bal_num, bal_id])) .nil (by ok) (by ok) (.fin ?_) (.mark h)
    refine cat2' (N := N) (by ok) (by ok) bal_id bal_num (g := [.id "_H2PP_NOT_0"]) (by decide +kernel) ?_
    refine .obj d_H2PP_NOT_0 rfl ?_ (b := callT "H2PP_PROBE" [[]]) (by simp [build, callT, join]) ?_
    · have hok : Ok N 2 (out ++ marks (.mark "H2PP_NOT" :: r)) := by ok
      intro hm
      rcases List.mem_append.1 hm with hm | hm
      · exact hok.not_mem (by rw [r_H2PP_NOT_0]; decide) hm
      · exact absurd hm (by decide +kernel)
    · refine probe (N := N) (by ok) (by ok) (.mark (.mark .nil))

theorem not_one (hu : Apart user) {X : List Tok} (hX : Bal false X) (h1 : Ok N 5 out) (h2 : Ok N 5 (marks r)) {n : String} (eX : Becomes (defs user) (out ++ marks r) (toks X) [.num n])
    (hn : defs user ("_H2PP_NOT_" ++ n) = none)
    (h : Becomes (defs user) out r ts) : Becomes (defs user) out (toks (callT "H2PP_NOT" [X]) ++ r) (.num "0" :: ts) := by
  refine .fn dH2PP_NOT rfl [X] (Ok.not_mem (N := N) (k := 5) (by ok) (by rw [rH2PP_NOT]; decide)) (by simp) (by simp [hX]) rfl
    (fun _ => [.num n]) ?_ (b := callT "H2PP_IS_PROBE" [callT "_H2PP_CAT2" [[.id "_H2PP_NOT_"], [.num n]]]) (by simp [build, callT, join]) ?_
  · intro i hi
    simp at hi
    subst hi
    exact eX
  · refine isProbe_no (N := N) (bal_callT (d := false) (by simp [bal_num, bal_id])) (a := [.id ("_H2PP_NOT_" ++ n)]) bal_id (by ok) (by ok) (.fin ?_) (.mark h)
    exact cat2' (N := N) (by ok) (by ok) bal_id bal_num (g := [.id ("_H2PP_NOT_" ++ n)]) (by simp [pastes, paste, glue]) (.name hn (.mark .nil))

theorem compl (hu : Apart user) {X : List Tok} {b : Bool} (hX : Bal false X) (h1 : Ok N 6 out) (h2 : Ok N 6 (marks r)) (eX : Becomes (defs user) (out ++ marks r) (toks X) [.num (bit b)])
    (h : Becomes (defs user) out r ts) : Becomes (defs user) out (toks (callT "H2PP_COMPL" [X]) ++ r) (.num (bit (!b)) :: ts) := by
  refine .fn dH2PP_COMPL rfl [X] (Ok.not_mem (N := N) (k := 6) (by ok) (by rw [rH2PP_COMPL]; decide)) (by simp) (by simp [hX]) rfl
    (fun _ => [.num (bit b)]) ?_ (b := callT "_H2PP_CAT2" [[.id "_H2PP_COMPL_"], [.num (bit b)]]) (by simp [build, callT, join]) ?_
  · intro i hi
    simp at hi
    subst hi
    exact eX
  · cases b with
    | false =>
      refine cat2' (N := N) (by ok) (by ok) bal_id bal_num (g := [.id "_H2PP_COMPL_0"]) (by decide +kernel) ?_
      exact .obj d_H2PP_COMPL_0 rfl (Ok.not_mem (N := N) (k := 1) (by ok) (by rw [r_H2PP_COMPL_0]; decide)) (b := [.num "1"]) (by simp [build]) (.tok (by simp) (.mark (.mark (.mark h))))
    | true =>
      refine cat2' (N := N) (by ok) (by ok) bal_id bal_num (g := [.id "_H2PP_COMPL_1"]) (by decide +kernel) ?_
      exact .obj d_H2PP_COMPL_1 rfl (Ok.not_mem (N := N) (k := 1) (by ok) (by rw [r_H2PP_COMPL_1]; decide)) (b := [.num "0"]) (by simp [build]) (.tok (by simp) (.mark (.mark (.mark h))))

/-- `H2PP_BOOL` of a number. -/
theorem bool (hu : Apart user) {X : List Tok} {n : String} (hX : Bal false X) (h1 : Ok N 7 out) (h2 : Ok N 7 (marks r)) (eX : Becomes (defs user) (out ++ marks r) (toks X) [.num n])
    (hn : n ≠ "0" → defs user ("_H2PP_NOT_" ++ n) = none) (h : Becomes (defs user) out r ts) :
    Becomes (defs user) out (toks (callT "H2PP_BOOL" [X]) ++ r) (.num (bit (n != "0")) :: ts) := by
  refine .fn dH2PP_BOOL rfl [X] (Ok.not_mem (N := N) (k := 7) (by ok) (by rw [rH2PP_BOOL]; decide)) (by simp) (by simp [hX]) rfl
    (fun _ => [.num n]) ?_ (b := callT "H2PP_COMPL" [callT "H2PP_NOT" [[.num n]]]) (by simp [build, callT, join]) ?_
  · intro i hi
    simp at hi
    subst hi
    exact eX
  · have : (n != "0") = !(n == "0") := rfl
    rw [this]
    refine compl (N := N) hu (bal_callT (d := false) (by simp [bal_num])) (by ok) (by ok) (.fin ?_) (.mark h)
    by_cases h0 : n = "0"
    · subst h0
      exact not_zero (N := N) hu bal_num (by ok) (by ok) (.tok (by simp) .nil) .nil
    · have : (n == "0") = false := by simpa using h0
      rw [this]
      exact not_one (N := N) hu bal_num (by ok) (by ok) (.tok (by simp) .nil) (hn h0) .nil

theorem bool_bit (hu : Apart user) {X : List Tok} {b : Bool} (hX : Bal false X) (h1 : Ok N 7 out) (h2 : Ok N 7 (marks r)) (eX : Becomes (defs user) (out ++ marks r) (toks X) [.num (bit b)])
    (h : Becomes (defs user) out r ts) : Becomes (defs user) out (toks (callT "H2PP_BOOL" [X]) ++ r) (.num (bit b) :: ts) := by
  have := bool (N := N) hu hX h1 h2 eX (fun hb => ?_) h
  · have e : (bit b != "0") = b := by cases b <;> decide
    rwa [e] at this
  · cases b with
    | false => exact absurd rfl hb
    | true => exact defs_none hu (by decide +kernel) (by decide +kernel)

/-- `H2PP_AND` of bits. -/
theorem and_bits (hu : Apart user) {X Y : List Tok} {b c : Bool} (hX : Bal false X) (hY : Bal false Y) (h1 : Ok N 8 out) (h2 : Ok N 8 (marks r))
    (eX : Becomes (defs user) (out ++ marks r) (toks X) [.num (bit b)]) (eY : Becomes (defs user) (out ++ marks r) (toks Y) [.num (bit c)])
    (h : Becomes (defs user) out r ts) : Becomes (defs user) out (toks (callT "H2PP_AND" [X, Y]) ++ r) (.num (bit (b && c)) :: ts) := by
  refine .fn dH2PP_AND rfl [X, Y] (Ok.not_mem (N := N) (k := 8) (by ok) (by rw [rH2PP_AND]; decide)) (by simp) (by simp [hX, hY]) rfl
    (fun i => [[.num (bit b)], [.num (bit c)]].getD i []) ?_ (b := callT "H2PP_CAT2" [[.id "_H2PP_AND_"], callT "H2PP_BOOL" [[.num (bit b)]]] ++ par [callT "H2PP_BOOL" [[.num (bit c)]]]) (by simp [build, callT, join, par]) ?_
  · intro i hi
    simp at hi
    rcases hi with rfl | rfl
    · exact eX
    · exact eY
  · have hP : defs user "_H2PP_AND_" = none := defs_none hu (by decide +kernel) (by decide +kernel)
    have hbc : ∀ b, Bal false (callT "H2PP_BOOL" [[.num (bit b)]]) := fun b => bal_callT (d := false) (by simp [bal_num])
    have hE : ∀ b, Becomes (defs user) (out ++ marks (.mark "H2PP_AND" :: r)) (toks (callT "H2PP_BOOL" [[.num (bit b)]])) [.num (bit b)] := fun b =>
      .fin (bool_bit (N := N) hu bal_num (by ok) (by ok) (.tok (by simp) .nil) .nil)
    have hE1 := hE b
    cases b with
    | false =>
      exact dispatch (N := N) (k := 7) (.inl rfl) hP (hbc _) hE1 (G := "_H2PP_AND_0") (by decide +kernel) d_H2PP_AND_0 rfl (by rw [r_H2PP_AND_0]; decide)
        (by ok) (by ok) (by decide) (by decide +kernel) [callT "H2PP_BOOL" [[.num (bit c)]]] (by simp) (by simp [hbc]) rfl (fun _ => []) (by simp) (bd := [.num "0"]) (by simp [build])
        (.tok (by simp) (.mark (.mark h)))
    | true =>
      refine dispatch (N := N) (k := 7) (.inl rfl) hP (hbc _) hE1 (G := "_H2PP_AND_1") (by decide +kernel) d_H2PP_AND_1 rfl (by rw [r_H2PP_AND_1]; decide)
        (by ok) (by ok) (by decide) (by decide +kernel) [callT "H2PP_BOOL" [[.num (bit c)]]] (by simp) (by simp [hbc]) rfl (fun _ => [.num (bit c)]) ?_ (bd := [.num (bit c)]) (by simp [build])
        (.tok (by simp) (.mark (.mark h)))
      intro i hi
      simp at hi
      subst hi
      exact hE c

end H2.Macro
