import Verif.Macro.Paren
import Verif.Macro.Index
/-
The macros of the library that compare and count, and the repeated replacement.
-/
namespace H2.Macro

variable {user : String → Option Macro} {N : List String} [Free N] {out : List String} {r : List Item} {ts us : List Tok}

theorem cat5 {a b : Tok} {g : List Tok} (hu : Apart user) (ha : Bal false [a]) (hb : Bal false [b]) (pa : Plain (defs user) [a]) (pb : Plain (defs user) [b])
    (h1 : Ok N 3 out) (h2 : Ok N 3 (marks r)) (hg : pastes [] [[.id "_H2PP_EQ"], [.id "__"], [a], [.id "__"], [b]] = some g)
    (h : Becomes (defs user) out (toks g ++ .mark "_H2PP_CAT5" :: .mark "H2PP_CAT5" :: r) ts) :
    Becomes (defs user) out (toks (callT "H2PP_CAT5" [[.id "_H2PP_EQ"], [.id "__"], [a], [.id "__"], [b]]) ++ r) ts := by
  have hE : defs user "_H2PP_EQ" = none := defs_none hu (by decide +kernel) (by decide +kernel)
  have hU : defs user "__" = none := defs_none hu (by decide +kernel) (by decide +kernel)
  refine .fn dH2PP_CAT5 rfl [[.id "_H2PP_EQ"], [.id "__"], [a], [.id "__"], [b]] (Ok.not_mem (N := N) (k := 3) (by ok) (by rw [rH2PP_CAT5]; decide)) (by simp) (by simp [ha, hb, bal_id]) rfl
    (fun i => [[.id "_H2PP_EQ"], [.id "__"], [a], [.id "__"], [b]].getD i []) ?_ (b := callT "_H2PP_CAT5" [[.id "_H2PP_EQ"], [.id "__"], [a], [.id "__"], [b]]) (by simp [build, callT, join]) ?_
  · intro i hi
    simp at hi
    rcases hi with rfl | rfl | rfl | rfl | rfl
    · exact .name hE .nil
    · exact .name hU .nil
    · exact pass_plain' pa
    · exact .name hU .nil
    · exact pass_plain' pb
  · exact cat5' (N := N) (by ok) (by ok) (by simp [ha, hb, bal_id]) hg h

/-- `EQ(a, b)` where the joined name is a macro. -/
theorem eq_yes {a b : Tok} {G : String} (hu : Apart user) (ha : Bal false [a]) (hb : Bal false [b]) (pa : Plain (defs user) [a]) (pb : Plain (defs user) [b])
    (h1 : Ok N 5 out) (h2 : Ok N 5 (marks r)) (hg : pastes [] [[.id "_H2PP_EQ"], [.id "__"], [a], [.id "__"], [b]] = some [.id G])
    (hG : defs user G = some ⟨none, [.tok (.id "H2PP_PROBE"), .tok .lp, .tok .rp]⟩) (hr : rank N G = 1) (hne : G ∉ ["H2PP_PROBE", "_H2PP_CAT5", "H2PP_CAT5"])
    (h : Becomes (defs user) out r ts) : Becomes (defs user) out (toks (callT "H2PP_EQ" [[a], [b]]) ++ r) (.num "1" :: ts) := by
  refine .fn dH2PP_EQ rfl [[a], [b]] (Ok.not_mem (N := N) (k := 5) (by ok) (by rw [rH2PP_EQ]; decide)) (by simp) (by simp [ha, hb]) rfl
    (fun i => [[a], [b]].getD i []) ?_ (b := callT "H2PP_IS_PROBE" [callT "H2PP_CAT5" [[.id "_H2PP_EQ"], [.id "__"], [a], [.id "__"], [b]]]) (by simp [build, callT, join]) ?_
  · intro i hi
    simp at hi
    rcases hi with rfl | rfl
    · exact pass_plain' pa
    · exact pass_plain' pb
  · refine isProbe_yes (N := N) (bal_callT (d := false) (by simp [ha, hb, bal_id])) .nil (by ok) (by ok) (.fin ?_) (.mark h)
    refine cat5 (N := N) hu ha hb pa pb (by ok) (by ok) hg ?_
    have hok : Ok N 2 (out ++ marks (.mark "H2PP_EQ" :: r)) := by ok
    simp only [List.mem_cons, List.not_mem_nil, or_false, not_or] at hne
    refine .obj hG rfl ?_ (b := callT "H2PP_PROBE" [[]]) (by simp [build, callT, join]) ?_
    · intro hm
      rcases List.mem_append.1 hm with hm | hm
      · exact hok.not_mem (by rw [hr]; decide) hm
      · simp only [marks, List.mem_cons, List.not_mem_nil, or_false] at hm
        rcases hm with hm | hm
        · exact hne.2.1 hm
        · exact hne.2.2 hm
    · refine probe (N := N) (by ok) ?_ (.mark (.mark (.mark .nil)))
      simp only [marks, ok_cons, ok_nil, hr, r_H2PP_CAT5, rH2PP_CAT5]; decide

/-- `EQ(a, b)` where it is not. -/
theorem eq_no {a b : Tok} {G : String} (hu : Apart user) (ha : Bal false [a]) (hb : Bal false [b]) (pa : Plain (defs user) [a]) (pb : Plain (defs user) [b])
    (h1 : Ok N 5 out) (h2 : Ok N 5 (marks r)) (hg : pastes [] [[.id "_H2PP_EQ"], [.id "__"], [a], [.id "__"], [b]] = some [.id G])
    (hG : defs user G = none)
    (h : Becomes (defs user) out r ts) : Becomes (defs user) out (toks (callT "H2PP_EQ" [[a], [b]]) ++ r) (.num "0" :: ts) := by
  refine .fn dH2PP_EQ rfl [[a], [b]] (Ok.not_mem (N := N) (k := 5) (by ok) (by rw [rH2PP_EQ]; decide)) (by simp) (by simp [ha, hb]) rfl
    (fun i => [[a], [b]].getD i []) ?_ (b := callT "H2PP_IS_PROBE" [callT "H2PP_CAT5" [[.id "_H2PP_EQ"], [.id "__"], [a], [.id "__"], [b]]]) (by simp [build, callT, join]) ?_
  · intro i hi
    simp at hi
    rcases hi with rfl | rfl
    · exact pass_plain' pa
    · exact pass_plain' pb
  · refine isProbe_no (N := N) (bal_callT (d := false) (by simp [ha, hb, bal_id])) (a := [.id G]) bal_id (by ok) (by ok) (.fin ?_) (.mark h)
    exact cat5 (N := N) hu ha hb pa pb (by ok) (by ok) hg (.name hG (.mark (.mark .nil)))

/-! ### The index -/

theorem plain_idx (hu : Apart user) {i : Nat} (hi : i < 64) : Plain (defs user) [idx i] := by
  intro s hs
  simp only [List.mem_cons, List.not_mem_nil, or_false] at hs
  by_cases h32 : i ≤ 32
  · rw [idx, if_pos h32] at hs; simp at hs
  · have := idx_plain ⟨i, hi⟩ (by simp; omega)
    simp only [← hs, word] at this
    exact defs_none hu this.2 this.1

theorem bal_idx {c : Bool} {i : Nat} : Bal c [idx i] := by
  rcases idx_word i with h | h <;> rw [h]
  · exact bal_num
  · exact bal_id

theorem eq0 (hu : Apart user) {i : Nat} (hi : i < 64) (h1 : Ok N 5 out) (h2 : Ok N 5 (marks r)) (h : Becomes (defs user) out r ts) :
    Becomes (defs user) out (toks (callT "H2PP_EQ" [[.num "0"], [idx i]]) ++ r) (.num (bit (i == 0)) :: ts) := by
  have hg : pastes [] [[.id "_H2PP_EQ"], [.id "__"], [.num "0"], [.id "__"], [idx i]] = some [.id ("_H2PP_EQ" ++ "__" ++ "0" ++ "__" ++ word (idx i))] := by
    rcases idx_word i with h | h <;> rw [h] <;> simp [pastes, paste, glue, word]
  have hp0 : Plain (defs user) [Tok.num "0"] := by intro s hs; simp at hs
  have f := idx_eq0 ⟨i, hi⟩
  simp only at f
  cases i with
  | zero =>
    have e : "_H2PP_EQ" ++ "__" ++ "0" ++ "__" ++ word (idx 0) = "_H2PP_EQ__0__0" := by decide +kernel
    rw [if_pos rfl] at f
    rw [e] at f hg
    exact eq_yes (N := N) hu bal_num bal_idx hp0 (plain_idx hu hi) h1 h2 hg (defs_some f.1) (rank_reserved (by decide +kernel) (by decide +kernel)) (by decide +kernel) h
  | succ i =>
    rw [if_neg (by omega)] at f
    exact eq_no (N := N) hu bal_num bal_idx hp0 (plain_idx hu hi) h1 h2 hg (defs_none hu f.1 f.2) h

theorem inc (hu : Apart user) {i : Nat} (hi : i < 64) (h1 : Ok N 3 out) (h2 : Ok N 3 (marks r)) (h : Becomes (defs user) out r ts) :
    Becomes (defs user) out (toks (callT "H2PP_CAT2" [[.id "H2PP_INC_"], [idx i]]) ++ r) (idx (i + 1) :: ts) := by
  have hg : pastes [] [[.id "H2PP_INC_"], [idx i]] = some [.id ("H2PP_INC_" ++ word (idx i))] := by
    rcases idx_word i with h | h <;> rw [h] <;> simp [pastes, paste, glue, word]
  have hP : defs user "H2PP_INC_" = none := defs_none hu (by decide +kernel) (by decide +kernel)
  have f := idx_inc ⟨i, hi⟩
  simp only at f
  obtain ⟨f1, f2, f3, f4⟩ := f
  refine cat2 (N := N) h1 h2 bal_id bal_idx (.name hP .nil) (pass_plain' (plain_idx hu hi)) bal_id bal_idx hg ?_
  by_cases h32 : i < 32
  · rw [if_pos h32] at f1
    refine .obj (defs_some f1) rfl ?_ (b := [.num (toString (i + 1))]) (by simp [build]) ?_
    · have hok : Ok N 2 (out ++ marks r) := by ok
      intro hm
      simp only [marks, List.mem_append, List.mem_cons, List.not_mem_nil, or_false] at hm f4
      have hn := hok.not_mem (s := "H2PP_INC_" ++ word (idx i)) (by rw [f3]; decide)
      simp only [List.mem_append, not_or] at hn f4
      rcases hm with hm | hm | hm | hm
      · exact hn.1 hm
      · exact f4.1 hm
      · exact f4.2 hm
      · exact hn.2 hm
    · have e : idx (i + 1) = .num (toString (i + 1)) := by rw [idx, if_pos (by omega)]
      rw [e]
      exact .tok (by simp) (.mark (.mark (.mark h)))
  · rw [if_neg h32] at f1
    have e : idx (i + 1) = .id ("H2PP_INC_" ++ word (idx i)) := by
      rw [idx, if_neg (by omega)]
      by_cases he : i = 32
      · subst he; decide +kernel
      · rw [inc_word, letters, if_neg (by omega)]
        have : i + 1 - 32 = (i - 32) + 1 := by omega
        rw [this]; rfl
    rw [e]
    exact .name (defs_none hu f1 f2) (.mark (.mark h))

/-! ### Replacing again and again -/

/-- One replacement of a text, wherever it stands. -/
def Step (user : String → Option Macro) (N : List String) (k : Nat) (X Y : List Tok) : Prop :=
  ∀ out r ts, Ok N k out → Ok N k (marks r) → Becomes (defs user) out r ts → Becomes (defs user) out (toks X ++ r) (Y ++ ts)

omit [Free N] in
theorem Step.append {k : Nat} {X Y X' Y' : List Tok} (h : Step user N k X Y) (h' : Step user N k X' Y') : Step user N k (X ++ X') (Y ++ Y') := by
  intro out r ts h1 h2 hr
  rw [toks_append, List.append_assoc, List.append_assoc]
  refine h out _ _ h1 ?_ (h' out r ts h1 h2 hr)
  rw [marks_append, marks_toks]; exact h2

omit [Free N] in
theorem Step.plain {k : Nat} {X : List Tok} (h : Plain (defs user) X) : Step user N k X X := fun _ _ _ _ _ hr => pass_plain h hr

omit [Free N] in
theorem Step.mono {k j : Nat} {X Y : List Tok} (h : Step user N k X Y) (hj : k ≤ j) : Step user N j X Y :=
  fun out r ts h1 h2 hr => h out r ts (h1.mono hj) (h2.mono hj) hr

omit [Free N] in
theorem Step.fin {k : Nat} {X Y : List Tok} (h : Step user N k X Y) {D : List String} (hD : Ok N k D) : Becomes (defs user) D (toks X) Y := by
  have := h D [] [] hD ok_nil .nil
  simpa using this

/-- A text without macros is reached by so many replacements. -/
inductive Runs (user : String → Option Macro) (N : List String) : Nat → List Tok → List Tok → Prop where
  | done {n : Nat} {X : List Tok} : Plain (defs user) X → Bal true X → Runs user N n X X
  | step {n : Nat} {X X' Y : List Tok} : Bal true X → Step user N 20 X X' → Runs user N n X' Y → Runs user N (n + 1) X Y

omit [Free N] in
theorem Runs.le {n : Nat} {X Y : List Tok} (h : Runs user N n X Y) : ∀ {k}, n ≤ k → Runs user N k X Y := by
  induction h with
  | done h1 h2 => intro k _; exact .done h1 h2
  | step h1 h2 _ ih =>
    intro k hk
    obtain ⟨k, rfl⟩ : ∃ j, k = j + 1 := ⟨k - 1, by omega⟩
    exact .step h1 h2 (ih (by omega))

omit [Free N] in
theorem Runs.bal {n : Nat} {X Y : List Tok} (h : Runs user N n X Y) : Bal true X := by
  cases h with
  | done _ h => exact h
  | step h _ _ => exact h

omit [Free N] in
theorem plain_append {T : String → Option Macro} {X Y : List Tok} (h : Plain T X) (h' : Plain T Y) : Plain T (X ++ Y) :=
  fun s hs => (List.mem_append.1 hs).elim (h s) (h' s)

omit [Free N] in
theorem Runs.append {n : Nat} {X Y : List Tok} (h : Runs user N n X Y) : ∀ {X' Y'}, Runs user N n X' Y' → Runs user N n (X ++ X') (Y ++ Y') := by
  induction h with
  | done h1 h2 =>
    rename_i n X
    intro X' Y' h'
    induction h' with
    | done h3 h4 => exact .done (plain_append h1 h3) (h2.append h4)
    | step h3 h4 _ ih => exact .step (h2.append h3) ((Step.plain h1).append h4) ih
  | step h1 h2 hr ih =>
    intro X' Y' h'
    cases h' with
    | done h3 h4 => exact .step (h1.append h4) (h2.append (Step.plain h3)) (ih (.done h3 h4))
    | step h3 h4 h5 => exact .step (h1.append h3) (h2.append h4) (ih h5)

omit [Free N] in
/-- One replacement more. -/
theorem Runs.next {n : Nat} {X Y : List Tok} (h : Runs user N (n + 1) X Y) : ∃ X', Step user N 20 X X' ∧ Runs user N n X' Y := by
  cases h with
  | done h1 h2 => exact ⟨_, Step.plain h1, .done h1 h2⟩
  | step h1 h2 h3 => exact ⟨_, h2, h3⟩

/-- The macro `e` replaces its argument `g + 1` times. -/
def Does (user : String → Option Macro) (N : List String) (e : String) (k g : Nat) : Prop :=
  ∀ args X Y j, args ≠ [] → (∀ a ∈ args, Bal false a) → Step user N k (join args) X → Runs user N (g + j) X Y →
    ∃ X', Step user N k (callT e args) X' ∧ Runs user N j X' Y

theorem eval1 : Does user N "_H2PP_EVAL_1" 21 1 := by
  intro args X Y j hne hb hX hr
  rw [Nat.add_comm] at hr
  obtain ⟨X', h1, h2⟩ := hr.next
  refine ⟨X', ?_, h2⟩
  intro out r ts o1 o2 h
  refine .fn d_H2PP_EVAL_1 rfl args (Ok.not_mem (N := N) (k := 21) (by ok) (by rw [r_H2PP_EVAL_1]; decide)) hne hb (bs := [join args]) (by simp [bind]) (fun _ => X) ?_ (b := X) (by simp [build]) ?_
  · intro i hi
    simp at hi
    subst hi
    exact hX.fin (by ok)
  · exact h1 out _ ts (by ok) (by ok) (.mark h)

theorem evalTwice {d e : String} {k g : Nat} (hk : 20 ≤ k) (he : Does user N e k g)
    (hd : defs user d = some ⟨some (0, true), [.tok (.id e), .tok .lp, .tok (.id e), .tok .lp, .arg 0, .tok .rp, .tok .rp]⟩) (hr : rank N d = k) :
    Does user N d (k + 1) (2 * g + 1) := by
  intro args X Y j hne hb hX hrun
  have e1 : 2 * g + 1 + j = (g + (g + j)) + 1 := by omega
  rw [e1] at hrun
  obtain ⟨args1, hne1, hb1, ej⟩ := bal_split hrun.bal
  obtain ⟨X1, s1, r1⟩ := hrun.next
  obtain ⟨X2, s2, r2⟩ := he args1 X1 Y (g + j) hne1 hb1 (ej ▸ s1.mono hk) r1
  obtain ⟨X3, s3, r3⟩ := he [callT e args1] X2 Y j (by simp) (by simp; exact bal_callT hb1) (by simpa [join] using s2) r2
  refine ⟨X3, ?_, r3⟩
  intro out r ts o1 o2 h
  refine .fn hd rfl args (Ok.not_mem (N := N) (k := k + 1) (ok_append.2 ⟨o1, o2⟩) (by omega)) hne hb (bs := [join args]) (by simp [bind]) (fun _ => X) ?_
    (b := callT e [callT e args1]) (by simp [build, callT, join, ej]) ?_
  · intro i hi
    simp at hi
    subst hi
    exact hX.fin (ok_append.2 ⟨o1, o2⟩)
  · exact s3 out _ ts (o1.mono (by omega)) (by rw [marks, ok_cons]; exact ⟨by omega, o2.mono (by omega)⟩) (.mark h)

theorem eval128 : Does user N "_H2PP_EVAL_128" 28 255 :=
  evalTwice (by decide) (evalTwice (by decide) (evalTwice (by decide) (evalTwice (by decide) (evalTwice (by decide) (evalTwice (by decide) (evalTwice (by decide) eval1
    d_H2PP_EVAL_2 r_H2PP_EVAL_2) d_H2PP_EVAL_4 r_H2PP_EVAL_4) d_H2PP_EVAL_8 r_H2PP_EVAL_8) d_H2PP_EVAL_16 r_H2PP_EVAL_16) d_H2PP_EVAL_32 r_H2PP_EVAL_32)
    d_H2PP_EVAL_64 r_H2PP_EVAL_64) d_H2PP_EVAL_128 r_H2PP_EVAL_128

/-- `H2PP_EVAL` replaces its argument 257 times. -/
theorem eval {args : List (List Tok)} {Y : List Tok} (hne : args ≠ []) (hb : ∀ a ∈ args, Bal false a) (hr : Runs user N 257 (join args) Y) : Step user N 29 (callT "H2PP_EVAL" args) Y := by
  obtain ⟨X1, s1, r1⟩ := hr.next
  obtain ⟨args1, hne1, hb1, ej⟩ := bal_split r1.bal
  obtain ⟨X2, s2, r2⟩ := r1.next
  obtain ⟨X3, s3, r3⟩ := eval128 (user := user) (N := N) args1 X2 Y 0 hne1 hb1 (ej ▸ s2.mono (by decide)) r2
  have e : X3 = Y := by cases r3; rfl
  subst e
  intro out r ts o1 o2 h
  refine .fn dH2PP_EVAL rfl args (Ok.not_mem (N := N) (k := 29) (by ok) (by rw [rH2PP_EVAL]; decide)) hne hb (bs := [join args]) (by simp [bind]) (fun _ => X1) ?_
    (b := callT "_H2PP_EVAL_128" args1) (by simp [build, callT, ej]) ?_
  · intro i hi
    simp at hi
    subst hi
    exact (s1.mono (by decide)).fin (ok_append.2 ⟨o1, o2⟩)
  · exact s3 out _ ts (by ok) (by ok) (.mark h)

end H2.Macro
