import Verif.Macro.Choose
/-
The macros of the library that look at parentheses, and those that take lists apart.
-/
namespace H2.Macro

variable {user : String → Option Macro} {N : List String} [Free N] {out : List String} {r : List Item} {ts us : List Tok}

/-- `IF_ELSE` of a bit. -/
theorem ifElse (hu : Apart user) {C A B A' B' : List Tok} {b : Bool} (hC : Bal false C) (hA : Bal false A) (hB : Bal false B)
    (h1 : Ok N 9 out) (h2 : Ok N 9 (marks r)) (eC : Becomes (defs user) (out ++ marks r) (toks C) [.num (bit b)])
    (eA : Becomes (defs user) (out ++ marks r) (toks A) A') (eB : Becomes (defs user) (out ++ marks r) (toks B) B')
    (pA : Plain (defs user) A') (pB : Plain (defs user) B') (bA : Bal false A') (bB : Bal false B') (h : Becomes (defs user) out r ts) :
    Becomes (defs user) out (toks (callT "H2PP_IF_ELSE" [C, A, B]) ++ r) ((if b then A' else B') ++ ts) := by
  refine .fn dH2PP_IF_ELSE rfl [C, A, B] (Ok.not_mem (N := N) (k := 9) (by ok) (by rw [rH2PP_IF_ELSE]; decide)) (by simp) (by simp [hA, hB, hC]) rfl
    (fun i => [[.num (bit b)], A', B'].getD i []) ?_ (b := callT "H2PP_CAT2" [[.id "_H2PP_IF_ELSE_"], [.num (bit b)]] ++ par [A', B']) (by simp [build, callT, join, par]) ?_
  · intro i hi
    simp at hi
    rcases hi with rfl | rfl | rfl
    · exact eC
    · exact eA
    · exact eB
  · have hP : defs user "_H2PP_IF_ELSE_" = none := defs_none hu (by decide +kernel) (by decide +kernel)
    have he : ∀ i, i = 0 ∨ i = 1 → Becomes (defs user) (out ++ marks (.mark "H2PP_IF_ELSE" :: r)) (toks ([A', B'].getD i [])) ([A', B'].getD i []) := by
      rintro i (rfl | rfl)
      · exact pass_plain' pA
      · exact pass_plain' pB
    cases b with
    | true =>
      refine dispatch (N := N) (k := 8) (.inl rfl) hP bal_num (.tok (by simp) .nil) (G := "_H2PP_IF_ELSE_1") (by decide +kernel) d_H2PP_IF_ELSE_1 rfl (by rw [r_H2PP_IF_ELSE_1]; decide)
        (by ok) (by ok) (by decide) (by decide +kernel) [A', B'] (by simp) (by simp [bA, bB]) (bs := [A', B']) (by simp [bind]) (fun i => [A', B'].getD i []) ?_ (bd := A') (by simp [build]) ?_
      · intro i hi
        simp at hi
        exact he i (.inl hi)
      · exact pass_plain pA (.mark (.mark h))
    | false =>
      refine dispatch (N := N) (k := 8) (.inl rfl) hP bal_num (.tok (by simp) .nil) (G := "_H2PP_IF_ELSE_0") (by decide +kernel) d_H2PP_IF_ELSE_0 rfl (by rw [r_H2PP_IF_ELSE_0]; decide)
        (by ok) (by ok) (by decide) (by decide +kernel) [A', B'] (by simp) (by simp [bA, bB]) (bs := [A', B']) (by simp [bind]) (fun i => [A', B'].getD i []) ?_ (bd := B') (by simp [build]) ?_
      · intro i hi
        simp at hi
        exact he i (.inr hi)
      · exact pass_plain pB (.mark (.mark h))

/-- `IS_EMPTY(H2PP_EMPTY a)`, where `a` does not begin with a parenthesis. -/
theorem isEmptyName (hu : Apart user) {a : List Tok} (hb : Bal false a) (hp : Plain (defs user) a) (hs : starts a = false) (h1 : Ok N 7 out) (h2 : Ok N 7 (marks r))
    (h : Becomes (defs user) out r ts) :
    Becomes (defs user) out (toks (callT "H2PP_IS_EMPTY" [.id "H2PP_EMPTY" :: a]) ++ r) (.num "0" :: ts) := by
  have hh : a.head? ≠ some .lp := by simpa [starts] using hs
  have hE : Bal false (.id "H2PP_EMPTY" :: a) := .tok (by simp) (by simp) (by simp) hb
  have hpp : Bal false [.lp, .rp] := .paren (xs := []) (ys := []) .nil .nil
  have still : Still (defs user) N (.id "H2PP_EMPTY" :: a) := ⟨.inr ⟨_, _, dH2PP_EMPTY, rfl, rH2PP_EMPTY, hh⟩, still_plain hp⟩
  have hok : Ok N 6 (out ++ marks (.mark "H2PP_IS_EMPTY" :: r)) := by ok
  have comma : ∀ x : List Tok, x.head? ≠ some .lp → Still (defs user) N x → Still (defs user) N (.id "H2PP_COMMA" :: x) :=
    fun x hx sx => ⟨.inr ⟨_, _, dH2PP_COMMA, rfl, rH2PP_COMMA, hx⟩, sx⟩
  -- what becomes of the text with `()` behind
  have post : ∃ x, Becomes (defs user) (out ++ marks (.mark "H2PP_IS_EMPTY" :: r)) (toks (.id "H2PP_EMPTY" :: (a ++ [.lp, .rp]))) x ∧
      Becomes (defs user) (out ++ marks (.mark "H2PP_IS_EMPTY" :: r)) (toks (.id "H2PP_COMMA" :: .id "H2PP_EMPTY" :: (a ++ [.lp, .rp]))) (.id "H2PP_COMMA" :: x) ∧
      Bal false x ∧ x.head? ≠ some .lp ∧ Still (defs user) N x := by
    cases a with
    | nil =>
      have e1 : Becomes (defs user) (out ++ marks (.mark "H2PP_IS_EMPTY" :: r)) (toks (callT "H2PP_EMPTY" [[]]) ++ []) [] :=
        .fn dH2PP_EMPTY rfl [[]] (Ok.not_mem (N := N) (k := 6) (by ok) (by rw [rH2PP_EMPTY]; decide)) (by simp) (by simp [Bal.nil]) (bs := [[]]) (by simp [bind, join])
          (fun _ => []) (by simp) (b := []) (by simp [build]) (.mark .nil)
      refine ⟨[], by simpa [callT, join] using e1, ?_, .nil, by simp, trivial⟩
      refine .alone dH2PP_COMMA rfl ?_ rfl (by simpa [callT, join, toks] using e1)
      show "H2PP_COMMA" ∉ (out ++ marks (.mark "H2PP_IS_EMPTY" :: r)) ++ marks (toks (.id "H2PP_EMPTY" :: ([] ++ [.lp, .rp])))
      rw [marks_toks, List.append_nil]
      exact hok.not_mem (by rw [rH2PP_COMMA]; decide)
    | cons t a =>
      have st : Still (defs user) N (.id "H2PP_EMPTY" :: (t :: a ++ [.lp, .rp])) := by
        refine ⟨.inr ⟨_, _, dH2PP_EMPTY, rfl, rH2PP_EMPTY, by simpa using hh⟩, still_plain ?_⟩
        intro s hs
        rcases List.mem_append.1 hs with hs | hs
        · exact hp s hs
        · simp at hs
      exact ⟨_, pass_still' (N := N) st (hok.mono (by decide)), pass_still' (N := N) (comma _ (by simp) st) (hok.mono (by decide)), .tok (by simp) (by simp) (by simp) (hb.append hpp), by simp, st⟩
  obtain ⟨x, ex, ecx, bx, hx, sx⟩ := post
  refine .fn dH2PP_IS_EMPTY rfl [.id "H2PP_EMPTY" :: a] (Ok.not_mem (N := N) (k := 7) (by ok) (by rw [rH2PP_IS_EMPTY]; decide)) (by simp) (by simp [hE]) (bs := [.id "H2PP_EMPTY" :: a]) (by simp [bind, join])
    (fun _ => .id "H2PP_EMPTY" :: a) ?_ (b := callT "_H2PP_IS_EMPTY" [callT "H2PP_HAS_COMMA" [.id "H2PP_EMPTY" :: a], callT "H2PP_HAS_COMMA" [.id "H2PP_COMMA" :: .id "H2PP_EMPTY" :: a],
      callT "H2PP_HAS_COMMA" [.id "H2PP_EMPTY" :: (a ++ [.lp, .rp])], callT "H2PP_HAS_COMMA" [.id "H2PP_COMMA" :: .id "H2PP_EMPTY" :: (a ++ [.lp, .rp])]]) ?_ ?_
  · intro i hi
    simp at hi
    subst hi
    exact pass_still' (N := N) still (by ok)
  · simp [build, callT, join]
  · have hE2 : Bal false (.id "H2PP_EMPTY" :: (a ++ [.lp, .rp])) := .tok (by simp) (by simp) (by simp) (hb.append hpp)
    have hc : ∀ {x : List Tok}, Bal false x → Bal false (.id "H2PP_COMMA" :: x) := fun h => .tok (by simp) (by simp) (by simp) h
    have one : ∀ {R x : List Tok}, Bal false R → Bal false x → Still (defs user) N x → Becomes (defs user) (out ++ marks (.mark "H2PP_IS_EMPTY" :: r)) (toks R) x →
        Becomes (defs user) (out ++ marks (.mark "H2PP_IS_EMPTY" :: r)) (toks (callT "H2PP_HAS_COMMA" [R])) [.num (bit false)] := by
      intro R x hR hx sx e
      refine .fin (hasComma (N := N) (as := [x]) (by simp) (by simp [hR]) (by simp) (by simp) (by simp [hx]) (by simpa [join] using sx) (by ok) (by ok) (by simpa [marks, join] using e) rfl .nil)
    have := isEmpty' (N := N) (ts := ts) (c1 := false) (c2 := false) (c3 := false) (c4 := false) (out := out) (r := .mark "H2PP_IS_EMPTY" :: r) hu ?_ (by ok) (by ok)
      (one hE hE still (pass_still' (N := N) still (hok.mono (by decide))))
      (one (hc hE) (hc hE) (comma _ (by simp) still) (pass_still' (N := N) (comma _ (by simp) still) (hok.mono (by decide))))
      (one hE2 bx sx ex) (one (hc hE2) (hc bx) (comma _ hx sx) ecx) (.mark h)
    · exact this
    · intro y hy
      simp only [List.mem_cons, List.not_mem_nil, or_false] at hy
      rcases hy with rfl | rfl | rfl | rfl
      · exact bal_callT (d := false) (by simp [hE])
      · exact bal_callT (d := false) (by simp [hc hE])
      · exact bal_callT (d := false) (by simp [hE2])
      · exact bal_callT (d := false) (by simp [hc hE2])

/-- One pair of parentheses around everything, and what is in it. -/
def inner : List Tok → Option (List Tok)
  | .lp :: r => go 0 [] r
  | _ => none
where
  /-- The text up to the parenthesis that closes, if nothing is behind it. -/
  go : Nat → List Tok → List Tok → Option (List Tok)
    | _, _, [] => none
    | d, acc, .lp :: r => go (d + 1) (acc ++ [.lp]) r
    | 0, acc, .rp :: r => if r = [] then some acc else none
    | d + 1, acc, .rp :: r => go d (acc ++ [.rp]) r
    | d, acc, t :: r => go d (acc ++ [t]) r

theorem inner_go {c : Bool} {xs : List Tok} (h : Bal c xs) (d : Nat) (acc r : List Tok) : inner.go d acc (xs ++ r) = inner.go d (acc ++ xs) r := by
  induction h generalizing d acc r with
  | nil => simp
  | @tok c t ts h1 h2 h3 _ ih =>
    cases t with
    | lp => exact absurd rfl h1
    | rp => exact absurd rfl h2
    | _ => simp only [List.cons_append, inner.go]; rw [ih]; simp
  | @paren c xs ys h1 h2 ih1 ih2 =>
    simp only [List.cons_append, List.append_assoc, inner.go]
    rw [ih1]
    simp only [inner.go]
    rw [ih2]; simp

theorem inner_split {xs ys : List Tok} (h : Bal true xs) : inner (.lp :: (xs ++ .rp :: ys)) = if ys = [] then some xs else none := by
  rw [inner, inner_go h]; rfl

theorem inner_starts {a : List Tok} (h : starts a = false) : inner a = none := by
  cases a with
  | nil => rfl
  | cons t a =>
    cases t with
    | lp => simp [starts] at h
    | _ => rfl

theorem isParen (hu : Apart user) {a : List Tok} (ha : Bal false a) (hp : Plain (defs user) a) (h1 : Ok N 10 out) (h2 : Ok N 10 (marks r)) (h : Becomes (defs user) out r ts) :
    Becomes (defs user) out (toks (callT "H2PP_IS_PARENTHESIS" [a]) ++ r) (.num (bit (inner a).isSome) :: ts) := by
  refine .fn dH2PP_IS_PARENTHESIS rfl [a] (Ok.not_mem (N := N) (k := 10) (by ok) (by rw [rH2PP_IS_PARENTHESIS]; decide)) (by simp) (by simp [ha]) (bs := [a]) (by simp [bind, join])
    (fun _ => a) ?_ (b := callT "H2PP_IF_ELSE" [callT "H2PP_IS_BEGIN_PARENTHESIS" [a], callT "H2PP_IS_EMPTY" [.id "H2PP_EMPTY" :: a], [.num "0"]]) (by simp [build, callT, join]) ?_
  · intro i hi
    simp at hi
    subst hi
    exact pass_plain' hp
  · have hE : Bal false (.id "H2PP_EMPTY" :: a) := .tok (by simp) (by simp) (by simp) ha
    have fin : ∀ b' : Bool, Becomes (defs user) (out ++ marks (.mark "H2PP_IS_PARENTHESIS" :: r)) (toks (callT "H2PP_IS_EMPTY" [.id "H2PP_EMPTY" :: a])) [.num (bit b')] →
        Becomes (defs user) out (toks (callT "H2PP_IF_ELSE" [callT "H2PP_IS_BEGIN_PARENTHESIS" [a], callT "H2PP_IS_EMPTY" [.id "H2PP_EMPTY" :: a], [.num "0"]]) ++ .mark "H2PP_IS_PARENTHESIS" :: r)
          ((if starts a then [.num (bit b')] else [.num "0"]) ++ ts) := by
      intro b' e
      refine ifElse (N := N) hu (bal_callT (d := false) (by simp [ha])) (bal_callT (d := false) (by simp [hE])) bal_num (by ok) (by ok) ?_ e (.tok (by simp) .nil) (by intro s hs; simp at hs)
        (by intro s hs; simp at hs) bal_num bal_num (.mark h)
      exact .fin (isBegin (N := N) ha hp (by ok) (by ok) .nil)
    by_cases hs : starts a = true
    · obtain ⟨xs, ys, rfl, hx, hy⟩ := starts_iff ha hs
      obtain ⟨args, hne, hba, e⟩ := bal_split hx
      have hpy : Plain (defs user) ys := fun s hs => hp s (by simp [hs])
      have := fin (ys == []) ?_
      · rw [hs] at this
        rw [inner_split hx]
        have e2 : (if ys = [] then some xs else none).isSome = (ys == []) := by
          by_cases hy : ys = [] <;> simp [hy]
        rw [e2]; exact this
      · have e3 : ∀ b : Bool, (([ys] : List (List Tok)) == [[]]) = (ys == []) := by
          intro _
          cases ys <;> rfl
        rw [← e3 true]
        refine .fin (isEmpty (N := N) hu (as := [ys]) (by simp) (by simp [hE]) (by simp) (by simp) (by simp [hy]) (by simpa [join] using hpy) (by ok) (by ok) ?_ .nil)
        have e2 : toks (join [.id "H2PP_EMPTY" :: .lp :: (xs ++ .rp :: ys)]) = toks (callT "H2PP_EMPTY" args) ++ toks ys := by
          rw [callT, e]; simp [toks, join]
        rw [e2]
        refine .fn dH2PP_EMPTY rfl args (Ok.not_mem (N := N) (k := 1) (by ok) (by rw [rH2PP_EMPTY]; decide)) hne hba (bs := [join args]) (by simp [bind])
          (fun _ => []) (by simp) (b := []) (by simp [build]) ?_
        exact .mark (pass_plain' hpy)
    · rw [Bool.not_eq_true] at hs
      have := fin false (.fin (isEmptyName (N := N) hu ha hp hs (by ok) (by ok) .nil))
      rw [hs] at this
      rw [inner_starts hs]
      exact this

/-- `REMOVE_PARENTHESES` of a text in parentheses. -/
theorem removeParen {xs : List Tok} (hx : Bal true xs) (h1 : Ok N 2 out) (h2 : Ok N 2 (marks r))
    (hs : ∀ D, Ok N 1 D → Becomes (defs user) D (toks xs) xs) (hs' : ∀ D, Ok N 1 D → Becomes (defs user) D (toks (.lp :: (xs ++ [.rp]))) (.lp :: (xs ++ [.rp])))
    (h : Becomes (defs user) out (toks xs ++ .mark "_H2PP_REMOVE_PARENTHESES" :: .mark "H2PP_REMOVE_PARENTHESES" :: r) ts) :
    Becomes (defs user) out (toks (callT "H2PP_REMOVE_PARENTHESES" [.lp :: (xs ++ [.rp])]) ++ r) ts := by
  obtain ⟨args, hne, hba, e⟩ := bal_split hx
  have hbal : Bal false (.lp :: (xs ++ [.rp])) := .paren (ys := []) hx .nil
  refine Becomes.fn (out := out) (r := r) dH2PP_REMOVE_PARENTHESES rfl [.lp :: (xs ++ [.rp])] (Ok.not_mem (N := N) (k := 2) (by ok) (by rw [rH2PP_REMOVE_PARENTHESES]; decide)) (by simp) (by simp [hbal])
    (bs := [.lp :: (xs ++ [.rp])]) (by simp [bind, join]) (fun _ => .lp :: (xs ++ [.rp])) ?_ (b := callT "_H2PP_REMOVE_PARENTHESES" args) (by simp [build, callT, e]) ?_
  · intro i hi
    simp at hi
    subst hi
    exact hs' _ (by ok)
  · refine .fn d_H2PP_REMOVE_PARENTHESES rfl args (Ok.not_mem (N := N) (k := 1) (by ok) (by rw [r_H2PP_REMOVE_PARENTHESES]; decide)) hne hba (bs := [join args]) (by simp [bind])
      (fun _ => xs) ?_ (b := xs) (by simp [build]) h
    intro i hi
    simp at hi
    subst hi
    show Becomes _ _ (toks (join args)) xs
    rw [e]
    exact hs _ (by ok)

theorem removeParenIf (hu : Apart user) {a : List Tok} (ha : Bal false a) (hp : Plain (defs user) a) (h1 : Ok N 12 out) (h2 : Ok N 12 (marks r)) (h : Becomes (defs user) out r ts) :
    Becomes (defs user) out (toks (callT "H2PP_REMOVE_PARENTHESES_IF" [a]) ++ r) ((inner a).getD a ++ ts) := by
  refine .fn dH2PP_REMOVE_PARENTHESES_IF rfl [a] (Ok.not_mem (N := N) (k := 12) (by ok) (by rw [rH2PP_REMOVE_PARENTHESES_IF]; decide)) (by simp) (by simp [ha]) (bs := [a]) (by simp [bind, join])
    (fun _ => a) ?_ (b := callT "H2PP_CAT2" [[.id "_H2PP_REMOVE_PARENTHESES_IF_"], callT "H2PP_IS_PARENTHESIS" [a]] ++ par [a]) (by simp [build, callT, join, par]) ?_
  · intro i hi
    simp at hi
    subst hi
    exact pass_plain' hp
  · have hP : defs user "_H2PP_REMOVE_PARENTHESES_IF_" = none := defs_none hu (by decide +kernel) (by decide +kernel)
    have hE : Becomes (defs user) (out ++ marks (.mark "H2PP_REMOVE_PARENTHESES_IF" :: r)) (toks (callT "H2PP_IS_PARENTHESIS" [a])) [.num (bit (inner a).isSome)] :=
      .fin (isParen (N := N) hu ha hp (by ok) (by ok) .nil)
    have hbal : Bal false (callT "H2PP_IS_PARENTHESIS" [a]) := bal_callT (d := false) (by simp [ha])
    cases hi : inner a with
    | none =>
      rw [hi] at hE
      refine dispatch (N := N) (k := 11) (.inl rfl) hP hbal hE (G := "_H2PP_REMOVE_PARENTHESES_IF_0") (by decide +kernel) d_H2PP_REMOVE_PARENTHESES_IF_0 rfl (by rw [r_H2PP_REMOVE_PARENTHESES_IF_0]; decide)
        (by ok) (by ok) (by decide) (by decide +kernel) [a] (by simp) (by simp [ha]) (bs := [a]) (by simp [bind, join]) (fun _ => a) ?_ (bd := a) (by simp [build]) ?_
      · intro i hi
        simp at hi
        subst hi
        exact pass_plain' hp
      · exact pass_plain hp (.mark (.mark h))
    | some xs =>
      rw [hi] at hE
      have hE1 : Becomes (defs user) (out ++ marks (.mark "H2PP_REMOVE_PARENTHESES_IF" :: r)) (toks (callT "H2PP_IS_PARENTHESIS" [a])) [.num (bit true)] := hE
      have hs : starts a = true := by
        rw [← Bool.not_eq_false]; intro hs; rw [inner_starts hs] at hi; exact absurd hi (by simp)
      obtain ⟨xs', ys, ea, hx, hy⟩ := starts_iff ha hs
      rw [ea, inner_split hx] at hi
      have hys : ys = [] := by
        apply Classical.byContradiction; intro hne; rw [if_neg hne] at hi; exact absurd hi (by simp)
      subst hys
      have hx' : xs' = xs := by simpa using hi
      subst hx'
      refine dispatch (N := N) (k := 11) (.inl rfl) hP hbal hE1 (G := "_H2PP_REMOVE_PARENTHESES_IF_1") (by decide +kernel) d_H2PP_REMOVE_PARENTHESES_IF_1 rfl (by rw [r_H2PP_REMOVE_PARENTHESES_IF_1]; decide)
        (by ok) (by ok) (by decide) (by decide +kernel) [a] (by simp) (by simp [ha]) (bs := [a]) (by simp [bind, join]) (fun _ => a) ?_
        (bd := callT "H2PP_REMOVE_PARENTHESES" [a]) (by simp [build, callT, join]) ?_
      · intro i hi
        simp at hi
        subst hi
        exact pass_plain' hp
      · subst ea
        have hpx : Plain (defs user) xs' := fun s hs => hp s (by simp [hs])
        exact removeParen (N := N) hx (by ok) (by ok) (fun D _ => pass_plain' hpx) (fun D _ => pass_plain' hp) (pass_plain hpx (.mark (.mark (.mark (.mark h)))))

/-! ### The first, and the others -/

theorem head (hu : Apart user) {a : List Tok} {as : List (List Tok)} (hb : ∀ x ∈ a :: as, Bal false x) (hp : Plain (defs user) (join (a :: as))) (h63 : (a :: as).length ≤ 63)
    (hne : a :: as ≠ [[]]) (h1 : Ok N 9 out) (h2 : Ok N 9 (marks r)) (h : Becomes (defs user) out r ts) :
    Becomes (defs user) out (toks (callT "H2PP_HEAD" (a :: as)) ++ r) (a ++ ts) := by
  have pa : Plain (defs user) a := fun s hs => hp s (by rw [join_cons]; exact List.mem_append_left _ hs)
  refine .fn dH2PP_HEAD rfl (a :: as) (Ok.not_mem (N := N) (k := 9) (by ok) (by rw [rH2PP_HEAD]; decide)) (by simp) hb (bs := [join (a :: as)]) (by simp [bind])
    (fun _ => join (a :: as)) ?_ (b := callT "H2PP_CAT2" [[.id "_H2PP_HEAD_"], callT "H2PP_IS_EMPTY" (a :: as)] ++ par [par (a :: as)]) (by simp [build, callT, join, par]) ?_
  · intro i hi
    simp at hi
    subst hi
    exact pass_plain' hp
  · have hP : defs user "_H2PP_HEAD_" = none := defs_none hu (by decide +kernel) (by decide +kernel)
    have hE : Becomes (defs user) (out ++ marks (.mark "H2PP_HEAD" :: r)) (toks (callT "H2PP_IS_EMPTY" (a :: as))) [.num (bit (a :: as == [[]]))] :=
      .fin (isEmpty (N := N) hu (by simp) hb (by simp) h63 hb hp (by ok) (by ok) (pass_plain' hp) .nil)
    have heb : (a :: as == [[]]) = false := by simpa using hne
    rw [heb] at hE
    have ppar : Plain (defs user) (par (a :: as)) := by
      intro s hs
      simp only [par, List.mem_cons, List.mem_append, List.not_mem_nil, reduceCtorEq, or_false, false_or] at hs
      exact hp s hs
    refine dispatch (N := N) (k := 8) (.inl rfl) hP (bal_callT hb) hE (G := "_H2PP_HEAD_0") (by decide +kernel) d_H2PP_HEAD_0 rfl (by rw [r_H2PP_HEAD_0]; decide)
      (by ok) (by ok) (by decide) (by decide +kernel) [par (a :: as)] (by simp) (by simp; exact bal_par hb) (bs := [par (a :: as)]) (by simp [bind]) (fun _ => par (a :: as)) ?_
      (bd := callT "H2PP_RESCAN" [callT "_H2PP_HEAD_0_R" (a :: as)]) (by simp [build, callT, join, par]) ?_
    · intro i hi
      simp at hi
      subst hi
      exact pass_plain' ppar
    · refine rescan (N := N) (by ok) (by ok) (bal_callT hb) (R := a) (.fin ?_) (pass_plain pa (.mark (.mark (.mark h))))
      refine .fn d_H2PP_HEAD_0_R rfl (a :: as) (Ok.not_mem (N := N) (k := 1) (by ok) (by rw [r_H2PP_HEAD_0_R]; decide)) (by simp) hb (bs := [a, join as]) (by simp [bind])
        (fun _ => a) ?_ (b := a) (by simp [build]) ?_
      · intro i hi
        simp at hi
        subst hi
        exact pass_plain' pa
      · simpa using pass_plain pa (out := out ++ marks (.mark "_H2PP_HEAD_0" :: .mark "H2PP_HEAD" :: r)) (.mark .nil)

theorem tail (hu : Apart user) {a : List Tok} {as : List (List Tok)} (hb : ∀ x ∈ a :: as, Bal false x) (hp : Plain (defs user) (join (a :: as))) (h63 : (a :: as).length ≤ 63)
    (hne : a :: as ≠ [[]]) (h1 : Ok N 9 out) (h2 : Ok N 9 (marks r)) (h : Becomes (defs user) out r ts) :
    Becomes (defs user) out (toks (callT "H2PP_TAIL" (a :: as)) ++ r) (join as ++ ts) := by
  have pa : Plain (defs user) (join as) := fun s hs => hp s (by
    rw [join_cons]
    cases as with
    | nil => simp [join] at hs
    | cons b as => exact List.mem_append_right _ (.tail _ hs))
  refine .fn dH2PP_TAIL rfl (a :: as) (Ok.not_mem (N := N) (k := 9) (by ok) (by rw [rH2PP_TAIL]; decide)) (by simp) hb (bs := [join (a :: as)]) (by simp [bind])
    (fun _ => join (a :: as)) ?_ (b := callT "H2PP_CAT2" [[.id "_H2PP_TAIL_"], callT "H2PP_IS_EMPTY" (a :: as)] ++ par [par (a :: as)]) (by simp [build, callT, join, par]) ?_
  · intro i hi
    simp at hi
    subst hi
    exact pass_plain' hp
  · have hP : defs user "_H2PP_TAIL_" = none := defs_none hu (by decide +kernel) (by decide +kernel)
    have hE : Becomes (defs user) (out ++ marks (.mark "H2PP_TAIL" :: r)) (toks (callT "H2PP_IS_EMPTY" (a :: as))) [.num (bit (a :: as == [[]]))] :=
      .fin (isEmpty (N := N) hu (by simp) hb (by simp) h63 hb hp (by ok) (by ok) (pass_plain' hp) .nil)
    have heb : (a :: as == [[]]) = false := by simpa using hne
    rw [heb] at hE
    have ppar : Plain (defs user) (par (a :: as)) := by
      intro s hs
      simp only [par, List.mem_cons, List.mem_append, List.not_mem_nil, reduceCtorEq, or_false, false_or] at hs
      exact hp s hs
    refine dispatch (N := N) (k := 8) (.inl rfl) hP (bal_callT hb) hE (G := "_H2PP_TAIL_0") (by decide +kernel) d_H2PP_TAIL_0 rfl (by rw [r_H2PP_TAIL_0]; decide)
      (by ok) (by ok) (by decide) (by decide +kernel) [par (a :: as)] (by simp) (by simp; exact bal_par hb) (bs := [par (a :: as)]) (by simp [bind]) (fun _ => par (a :: as)) ?_
      (bd := callT "H2PP_RESCAN" [callT "_H2PP_TAIL_0_R" (a :: as)]) (by simp [build, callT, join, par]) ?_
    · intro i hi
      simp at hi
      subst hi
      exact pass_plain' ppar
    · refine rescan (N := N) (by ok) (by ok) (bal_callT hb) (R := join as) (.fin ?_) (pass_plain pa (.mark (.mark (.mark h))))
      refine .fn d_H2PP_TAIL_0_R rfl (a :: as) (Ok.not_mem (N := N) (k := 1) (by ok) (by rw [r_H2PP_TAIL_0_R]; decide)) (by simp) hb (bs := [a, join as]) (by simp [bind])
        (fun _ => join as) ?_ (b := join as) (by simp [build]) ?_
      · intro i hi
        simp at hi
        subst hi
        exact pass_plain' pa
      · simpa using pass_plain pa (out := out ++ marks (.mark "_H2PP_TAIL_0" :: .mark "H2PP_TAIL" :: r)) (.mark .nil)

end H2.Macro
