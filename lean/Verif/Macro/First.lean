import Verif.Macro.Last
import Verif.Macro.Bridge
import Verif.Macro.FirstSpec
/-
`H2_An`.
-/
namespace H2.Macro

variable {user : String → Option Macro} {N : List String} [Free N] {out : List String} {r : List Item} {ts us : List Tok}

/-- Names that are replaced while these macros are. -/
def anNames : List String := ["_H2_An", "_H2_An1_1", "_H2_An1_0", "_H2_An1", "_H2_An2_0", "_H2_An2_1", "_H2_An2"]

instance freeAn : Free anNames := ⟨by decide +kernel⟩
instance freeA : Free ["_H2_An1_0", "_H2_An1_1"] := ⟨by decide +kernel⟩
instance freeB : Free ["_H2_An2_0", "_H2_An2_1"] := ⟨by decide +kernel⟩
instance freeD : Free ["_H2_An2"] := ⟨by decide +kernel⟩

theorem ok_sub {N M : List String} (h : ∀ s ∈ M, s ∈ N) {k : Nat} {D : List String} (ho : Ok N k D) : Ok M k D := by
  intro s hs
  have := ho s hs
  unfold rank at this ⊢
  by_cases hN : s ∈ N
  · rw [if_pos hN] at this; omega
  · rw [if_neg hN] at this
    rw [if_neg fun hm => hN (h s hm)]
    exact this

theorem an_table : ∀ s ∈ anTable.map (·.1), table.lookup s = none ∧ reserved s = false := by decide +kernel

theorem cases_defs {s : String} {m : Macro} (h : anTable.lookup s = some m) (ht : table.lookup s = none) : defs (cases user) s = some m := by
  unfold defs; rw [ht]; simp [cases, h]

theorem dAn : defs (cases user) "H2_An" = some anTop := cases_defs (by decide +kernel) (by decide +kernel)
theorem d_An : defs (cases user) "_H2_An" = some anList := cases_defs (by decide +kernel) (by decide +kernel)
theorem d_An1_1 : defs (cases user) "_H2_An1_1" = some anNothing := cases_defs (by decide +kernel) (by decide +kernel)
theorem d_An1_0 : defs (cases user) "_H2_An1_0" = some anSome := cases_defs (by decide +kernel) (by decide +kernel)
theorem d_An1 : defs (cases user) "_H2_An1" = some anHead := cases_defs (by decide +kernel) (by decide +kernel)
theorem d_An2_0 : defs (cases user) "_H2_An2_0" = some anValue := cases_defs (by decide +kernel) (by decide +kernel)
theorem d_An2_1 : defs (cases user) "_H2_An2_1" = some anInside := cases_defs (by decide +kernel) (by decide +kernel)
theorem d_An2 : defs (cases user) "_H2_An2" = some anAgain := cases_defs (by decide +kernel) (by decide +kernel)
theorem dXAn : defs (cases user) "H2_XAn" = some anX := cases_defs (by decide +kernel) (by decide +kernel)
theorem dYAn : defs (cases user) "H2_YAn" = some anY := cases_defs (by decide +kernel) (by decide +kernel)

theorem apart_cases (hu : Apart user) : Apart (cases user) := by
  intro s hs
  unfold cases
  have : anTable.lookup s = none := by
    cases h : anTable.lookup s with
    | none => rfl
    | some m =>
      obtain ⟨l1, l2, e, _⟩ := List.lookup_eq_some_iff.1 h
      have := (an_table s (by rw [e]; simp)).2
      rw [hs] at this; cases this
  rw [this]
  exact hu s hs

theorem kept_defs (hk : Kept user) : defs (cases user) "_H2_An1_" = none ∧ defs (cases user) "_H2_An2_" = none := by
  have h : ∀ s ∈ ["_H2_An1_", "_H2_An2_"], table.lookup s = none ∧ anTable.lookup s = none := by decide +kernel
  refine ⟨?_, ?_⟩
  · unfold defs; rw [(h _ (by simp)).1]; simp [cases, (h "_H2_An1_" (by simp)).2, hk.1]
  · unfold defs; rw [(h _ (by simp)).1]; simp [cases, (h "_H2_An2_" (by simp)).2, hk.2]

/-- The text that is left for the next time. -/
def anRest (x : List Tok) : List Tok := .id "_H2_An2" :: .lp :: .rp :: x

/-- What one call of `_H2_An` becomes. -/
def anOut (xs : List (List Tok)) : List Tok :=
  if xs = [[]] then [.num "0"] else if (inner (xs.headD [])).isSome then anRest (xs.headD []) else xs.headD []

/-- Closes goals about which macros are not being replaced, for lists of names that are given. -/
macro "okk1" : tactic => `(tactic| first | exact Ok.mono (by assumption) (by decide) | decide +kernel)
/-- The same for several lists. -/
macro "okk" : tactic => `(tactic| first | okk1 | (simp only [marks_append, marks_toks, marks, List.append_nil, List.nil_append, List.cons_append, List.append_assoc, ok_append, ok_cons, ok_nil, and_true, true_and]
                                                  first | okk1 | (and_intros <;> okk1)))

theorem anHeadStep (hu : Apart user) (hk : Kept user) {a : List Tok} (ha : Bal false a) (pa : Plain (defs (cases user)) a)
    (h1 : Ok anNames 20 out) (h2 : Ok ["_H2_An2_0", "_H2_An2_1"] 20 (marks r)) (h3 : Ok ["_H2_An2"] 20 (marks r)) (h : Becomes (defs (cases user)) out r ts) :
    Becomes (defs (cases user)) out (toks (callT "H2PP_CAT2" [[.id "_H2_An2_"], callT "H2PP_IS_PARENTHESIS" [a]] ++ par [a]) ++ r)
      ((if (inner a).isSome then anRest a else a) ++ ts) := by
  have hb1 : Ok ["_H2_An2_0", "_H2_An2_1"] 20 out := ok_sub (by decide +kernel) h1
  have hd1 : Ok ["_H2_An2"] 20 out := ok_sub (by decide +kernel) h1
  have hE : Becomes (defs (cases user)) (out ++ marks r) (toks (callT "H2PP_IS_PARENTHESIS" [a])) [.num (bit (inner a).isSome)] :=
    .fin (isParen (N := ["_H2_An2_0", "_H2_An2_1"]) (apart_cases hu) ha pa (r := []) (by okk) ok_nil .nil)
  by_cases hi : (inner a).isSome
  · rw [hi] at hE
    rw [if_pos hi]
    refine dispatch (N := ["_H2_An2_0", "_H2_An2_1"]) (k := 10) (.inl rfl) (kept_defs hk).2 (bal_callT (d := false) (by simp [ha])) hE (G := "_H2_An2_1") (by decide +kernel) d_An2_1 rfl (by decide +kernel)
      (by okk) (by okk) (by decide) (by decide +kernel) [a] (by simp) (by simp [ha]) (bs := [a]) (by simp [bind]) (fun _ => a) ?_
      (bd := callT "H2PP_DEFER" [[.id "_H2_An2"]] ++ ([.lp, .rp] ++ a)) (by simp [anInside, build, callT, join]) ?_
    · intro j hj
      simp [anInside] at hj
      subst hj
      exact pass_plain' pa
    · have s2 : Step (cases user) ["_H2_An2"] 10 (callT "H2PP_DEFER" [[.id "_H2_An2"]]) [.id "_H2_An2"] := (defer (N := ["_H2_An2"]) d_An2 rfl (by decide +kernel)).mono (by decide)
      have s3 : Step (cases user) ["_H2_An2"] 10 ([.lp, .rp] ++ a) ([.lp, .rp] ++ a) := .plain (plain_append (by intro s hs; simp at hs) pa)
      have := (s2.append s3) out (.mark "_H2_An2_1" :: r) ts (by okk) (by okk) (.mark h)
      simpa [anRest] using this
  · have hi' : (inner a).isSome = false := by simpa using hi
    rw [hi'] at hE
    rw [if_neg hi]
    refine dispatch (N := ["_H2_An2_0", "_H2_An2_1"]) (k := 10) (.inl rfl) (kept_defs hk).2 (bal_callT (d := false) (by simp [ha])) hE (G := "_H2_An2_0") (by decide +kernel) d_An2_0 rfl (by decide +kernel)
      (by okk) (by okk) (by decide) (by decide +kernel) [a] (by simp) (by simp [ha]) (bs := [a]) (by simp [bind]) (fun _ => a) ?_ (bd := a) (by simp [anValue, build]) ?_
    · intro j hj
      simp [anValue] at hj
      subst hj
      exact pass_plain' pa
    · exact pass_plain pa (.mark h)

theorem anBody (hu : Apart user) (hk : Kept user) {xs : List (List Tok)} (hx : Args63 (defs (cases user)) xs)
    (h1 : Ok anNames 20 out) (h2 : Ok anNames 20 (marks r)) (h : Becomes (defs (cases user)) out r ts) :
    Becomes (defs (cases user)) out (toks (callT "H2PP_CAT2" [[.id "_H2_An1_"], callT "H2PP_IS_EMPTY" xs] ++ par [par xs]) ++ .mark "_H2_An" :: r) (anOut xs ++ ts) := by
  have ha1 : Ok ["_H2_An1_0", "_H2_An1_1"] 20 out := ok_sub (by decide +kernel) h1
  have ha2 : Ok ["_H2_An1_0", "_H2_An1_1"] 20 (marks r) := ok_sub (by decide +kernel) h2
  have hb2 : Ok ["_H2_An2_0", "_H2_An2_1"] 20 (marks r) := ok_sub (by decide +kernel) h2
  have hd2 : Ok ["_H2_An2"] 20 (marks r) := ok_sub (by decide +kernel) h2
  have hpp : Plain (defs (cases user)) (par xs) := by
    intro s hs
    simp only [par, List.mem_cons, List.mem_append, List.not_mem_nil, or_false, reduceCtorEq, false_or] at hs
    exact hx.plain s hs
  have hE : Becomes (defs (cases user)) (out ++ marks (.mark "_H2_An" :: r)) (toks (callT "H2PP_IS_EMPTY" xs)) [.num (bit (xs == [[]]))] :=
    .fin (isEmpty (N := ["_H2_An1_0", "_H2_An1_1"]) (apart_cases hu) hx.some hx.bal hx.some hx.few hx.bal hx.plain (r := []) (by okk) ok_nil (pass_plain' hx.plain) .nil)
  by_cases he : xs = [[]]
  · subst he
    have hb : (([[]] : List (List Tok)) == [[]]) = true := by decide
    rw [hb] at hE
    rw [anOut, if_pos rfl]
    exact dispatch (N := ["_H2_An1_0", "_H2_An1_1"]) (k := 10) (.inl rfl) (kept_defs hk).1 (bal_callT hx.bal) hE (G := "_H2_An1_1") (by decide +kernel) d_An1_1 rfl (by decide +kernel)
      (by okk) (by okk) (by decide) (by decide +kernel) [par [[]]] (by simp) (by simp; exact bal_par hx.bal) (bs := [par [[]]]) (by simp [bind, join]) (fun _ => []) (by simp [anNothing])
      (bd := [.num "0"]) (by simp [anNothing, build]) (.tok (by simp) (.mark (.mark h)))
  · have hb : (xs == [[]]) = false := by simpa using he
    rw [hb] at hE
    rw [anOut, if_neg he]
    cases xs with
    | nil => exact absurd rfl hx.some
    | cons a as =>
      refine dispatch (N := ["_H2_An1_0", "_H2_An1_1"]) (k := 10) (.inl rfl) (kept_defs hk).1 (bal_callT hx.bal) hE (G := "_H2_An1_0") (by decide +kernel) d_An1_0 rfl (by decide +kernel)
        (by okk) (by okk) (by decide) (by decide +kernel) [par (a :: as)] (by simp) (by simp; exact bal_par hx.bal) (bs := [par (a :: as)]) (by simp [bind]) (fun _ => par (a :: as)) ?_
        (bd := callT "_H2_An1" (a :: as)) (by simp [anSome, build, callT, par]) ?_
      · intro j hj
        simp [anSome] at hj
        subst hj
        exact pass_plain' hpp
      · refine .fn d_An1 rfl (a :: as) ?_ (by simp) hx.bal (bs := [a, join as]) (by simp [bind]) (fun _ => a) ?_
          (b := callT "H2PP_CAT2" [[.id "_H2_An2_"], callT "H2PP_IS_PARENTHESIS" [a]] ++ par [a]) (by simp [anHead, build, callT, join, par]) ?_
        · have n1 := h1.not_mem (s := "_H2_An1") (by decide +kernel)
          have n2 := h2.not_mem (s := "_H2_An1") (by decide +kernel)
          simp only [marks, List.mem_append, List.mem_cons, not_or]
          exact ⟨n1, by decide +kernel, by decide +kernel, n2⟩
        · intro j hj
          simp [anHead] at hj
          subst hj
          exact pass_plain' (hx.each a (.head _)).plain
        · exact anHeadStep hu hk (hx.each a (.head _)).bal (hx.each a (.head _)).plain h1 (by okk) (by okk) (.mark (.mark (.mark h)))

theorem anFirst (hu : Apart user) (hk : Kept user) {xs : List (List Tok)} (hx : Args63 (defs (cases user)) xs) : Step (cases user) anNames 20 (callT "_H2_An" xs) (anOut xs) := by
  intro out r ts h1 h2 h
  refine .fn d_An rfl xs ?_ hx.some hx.bal (bs := [join xs]) (by simp [bind]) (fun _ => join xs) ?_
    (b := callT "H2PP_CAT2" [[.id "_H2_An1_"], callT "H2PP_IS_EMPTY" xs] ++ par [par xs]) (by simp [anList, build, callT, join, par]) (anBody hu hk hx h1 h2 h)
  · exact Ok.not_mem (N := anNames) (k := 20) (ok_append.2 ⟨h1, h2⟩) (by decide +kernel)
  · intro j hj
    simp [anList] at hj
    subst hj
    exact pass_plain' hx.plain

theorem anNext (hu : Apart user) (hk : Kept user) {xs : List (List Tok)} (hx : Args63 (defs (cases user)) xs) : Step (cases user) anNames 20 (anRest (par xs)) (anOut xs) := by
  intro out r ts h1 h2 h
  have hm : marks (toks (par xs) ++ r) = marks r := by rw [marks_append, marks_toks]; rfl
  have key : Becomes (defs (cases user)) out (.tok (.id "_H2_An") :: (["_H2_An2"].map .mark ++ .tok .lp :: (toks (join xs) ++ .tok .rp :: r))) (anOut xs ++ ts) := by
    refine .call d_An rfl ["_H2_An2"] xs ?_ hx.some hx.bal (bs := [join xs]) (by simp [bind]) (fun _ => join xs) ?_
      (b := callT "H2PP_CAT2" [[.id "_H2_An1_"], callT "H2PP_IS_EMPTY" xs] ++ par [par xs]) (by simp [anList, build, callT, join, par]) (anBody hu hk hx h1 h2 h)
    · have n1 := h1.not_mem (s := "_H2_An") (by decide +kernel)
      have n2 := h2.not_mem (s := "_H2_An") (by decide +kernel)
      simp only [List.mem_append, List.mem_cons, List.not_mem_nil, or_false, not_or]
      exact ⟨n1, by decide +kernel, n2⟩
    · intro j hj
      simp [anList] at hj
      subst hj
      exact pass_plain' hx.plain
  have := Becomes.fn (T := defs (cases user)) (out := out) (r := toks (par xs) ++ r) d_An2 rfl [[]]
    (Ok.not_mem (N := anNames) (k := 1) (by rw [hm]; exact ok_append.2 ⟨h1.mono (by decide), h2.mono (by decide)⟩) (by decide +kernel)) (by simp) (by simp [Bal.nil]) (bs := []) (by simp [bind]) (fun _ => [])
    (by simp [anAgain]) (b := [.id "_H2_An"]) (by simp [anAgain, build]) (by simpa [par, toks] using key)
  simpa [anRest, callT, join, toks] using this

theorem firstIn_args {T : String → Option Macro} {n : Nat} {xs : List (List Tok)} {v : List Tok} (h : FirstIn T n xs v) : Args63 T xs := by
  cases h with
  | nothing => exact ⟨by simp, by simp only [List.mem_singleton]; rintro a rfl; exact ⟨rfl, by simp⟩, by simp⟩
  | value _ h _ => exact h
  | inside h _ _ _ _ => exact h

theorem anRuns (hu : Apart user) (hk : Kept user) {n : Nat} {xs : List (List Tok)} {v : List Tok} (h : FirstIn (defs (cases user)) n xs v) :
    ∀ {X : List Tok}, Bal true X → Step (cases user) anNames 20 X (anOut xs) → Runs (cases user) anNames (n + 1) X v := by
  induction h with
  | nothing =>
    intro X hX hs
    refine .step hX hs ?_
    rw [anOut, if_pos rfl]
    exact .done (by intro s hs; simp at hs) bal_num
  | @value x xs h0 hx hn =>
    intro X hX hs
    refine .step hX hs ?_
    have hb := (hx.each x (.head _)).bal
    have hi : inner x = none := by
      cases hi : inner x with
      | none => rfl
      | some y => exact absurd ((enclosed_iff hb).2 hi) (hn y)
    rw [anOut, if_neg h0, if_neg (by simp [hi])]
    exact .done (hx.each x (.head _)).plain hb.weak
  | @inside n x v xs ys hx hy hf he hr ih =>
    intro X hX hs
    have hb := (hx.each x (.head _)).bal
    have h0 : x :: xs ≠ [[]] := by
      intro e
      have : x = [] := by simpa using (List.cons.inj e).1
      rw [this] at he
      have := he.2
      simp at this
    have hi := (enclosed_iff hb).1 he
    have e : anOut (x :: xs) = anRest (par ys) := by
      rw [anOut, if_neg h0, if_pos (by simp [hi])]
      simp only [List.headD_cons]
      rw [he.2, commas_eq]
      simp [par]
    rw [e] at hs
    refine .step hX hs (ih ?_ (anNext hu hk (firstIn_args hr)))
    exact .tok (by simp) (by simp) (by simp) (.paren (xs := []) .nil (bal_par fun y hy => bal_of_fits (hf y hy)))

/-- `H2_An`, where its arguments become these. -/
theorem an (hu : Apart user) (hk : Kept user) {n : Nat} (hn : n ≤ 256) {raws xs : List (List Tok)} {v : List Tok} (h : FirstIn (defs (cases user)) n xs v) (hr : raws ≠ []) (hrb : ∀ a ∈ raws, Bal false a)
    (hA : Becomes (defs (cases user)) (out ++ marks r) (toks (join raws)) (join xs)) (h0 : "H2_An" ∉ out ++ marks r) (h1 : Ok anNames 29 out) (h2 : Ok anNames 29 (marks r)) (hR : Becomes (defs (cases user)) out r ts) :
    Becomes (defs (cases user)) out (toks (callT "H2_An" raws) ++ r) (v ++ ts) := by
  have hx := firstIn_args h
  refine .fn dAn rfl raws h0 hr hrb (bs := [join raws]) (by simp [bind]) (fun _ => join xs) ?_ (b := callT "H2PP_EVAL" [callT "_H2_An" xs]) (by simp [anTop, build, callT, join]) ?_
  · intro j hj
    simp [anTop] at hj
    subst hj
    exact hA
  · have := anRuns hu hk h (bal_callT hx.bal) (anFirst hu hk hx)
    exact eval (N := anNames) (by simp) (by simp; exact bal_callT hx.bal) (Y := v) (by rw [join]; exact this.le (by omega)) out _ ts h1 (by okk) (.mark hR)

end H2.Macro
