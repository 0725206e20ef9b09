import Verif.Macro.Lemmas
/-
The macros of the library that choose.
-/
namespace H2.Macro

variable {user : String → Option Macro} {N : List String} [Free N] {out : List String} {r : List Item} {ts us : List Tok}

/-- Arguments in parentheses. -/
def par (args : List (List Tok)) : List Tok := .lp :: (join args ++ [.rp])

theorem callT_eq (s : String) (args : List (List Tok)) : callT s args = .id s :: par args := rfl

theorem toks_append (a b : List Tok) : toks (a ++ b) = toks a ++ toks b := by simp [toks]

theorem bal_par {c d : Bool} {args : List (List Tok)} (h : ∀ a ∈ args, Bal d a) : Bal c (par args) := .paren (ys := []) (bal_join h) .nil

theorem cat {A B a b g : List Tok} (h1 : Ok N 3 out) (h2 : Ok N 3 (marks r)) (hA : Bal false A) (hB : Bal false B)
    (ha : Becomes (defs user) (out ++ marks r) (toks A) a) (hb : Becomes (defs user) (out ++ marks r) (toks B) b) (hA' : Bal false a) (hB' : Bal false b)
    (hg : pastes [] [a, b] = some g) (h : Becomes (defs user) out (toks g ++ .mark "_H2PP_CAT2" :: .mark "H2PP_CAT" :: r) ts) :
    Becomes (defs user) out (toks (callT "H2PP_CAT" [A, B]) ++ r) ts := by
  refine .fn dH2PP_CAT rfl [A, B] (Ok.not_mem (N := N) (k := 3) (by ok) (by rw [rH2PP_CAT]; decide)) (by simp) (by simp [hA, hB]) rfl (fun i => [a, b].getD i []) ?_
    (b := callT "_H2PP_CAT2" [a, b]) (by simp [build, callT, join]) ?_
  · intro i hi
    simp at hi
    rcases hi with rfl | rfl
    · exact ha
    · exact hb
  · exact cat2' (N := N) (by ok) (by ok) hA' hB' hg h

/-- `CAT2(P, X)(args)`, where `P` with what becomes of `X` is the name of a macro. -/
theorem dispatch {c P b G : String} (hc : c = "H2PP_CAT2" ∨ c = "H2PP_CAT") (hP : defs user P = none) {X : List Tok} (hX : Bal false X)
    (hXb : Becomes (defs user) (out ++ marks r) (toks X) [.num b]) (hG : P ++ b = G) {m : Macro} {p : Nat × Bool} (hs : defs user G = some m)
    (hp : m.params = some p) {k : Nat} (hk : rank N G < k) (h1 : Ok N k out) (h2 : Ok N k (marks r)) (h3 : 3 ≤ k) (hGc : G ∉ ["_H2PP_CAT2", "H2PP_CAT2", "H2PP_CAT"])
    (args : List (List Tok)) (hne : args ≠ []) (ha : ∀ a ∈ args, Bal false a)
    {bs : List (List Tok)} (hb : bind p args = some bs) (e : Nat → List Tok)
    (he : ∀ i, .arg i ∈ m.body → Becomes (defs user) (out ++ marks r) (toks (bs.getD i [])) (e i)) {bd : List Tok}
    (hbuild : build (fun i => some (e i)) (fun i => bs.getD i []) m.body = some bd)
    (h : Becomes (defs user) out (toks bd ++ .mark G :: r) ts) :
    Becomes (defs user) out (toks (callT c [[.id P], X] ++ par args) ++ r) ts := by
  have hm : marks (toks (par args) ++ r) = marks r := by rw [marks_append, marks_toks]; rfl
  have key : ∀ c, c ∈ ["H2PP_CAT2", "H2PP_CAT"] → Becomes (defs user) out (toks [.id G] ++ .mark "_H2PP_CAT2" :: .mark c :: (toks (par args) ++ r)) ts := by
    intro c hc
    have := Becomes.call (out := out) hs hp ["_H2PP_CAT2", c] args (r := r) ?_ hne ha hb e he hbuild h
    · simpa [par, toks] using this
    · intro hmem
      simp only [List.mem_append, List.mem_cons, List.not_mem_nil, or_false] at hmem
      rcases hmem with hmem | ((hmem | hmem) | hmem)
      · exact h1.not_mem hk hmem
      · exact hGc (by simp [hmem])
      · exact hGc (by simp at hc; rcases hc with hc | hc <;> simp [hmem, hc])
      · exact h2.not_mem hk hmem
  have hg : pastes [] [[.id P], [.num b]] = some [.id G] := by simp [pastes, paste, glue, hG]
  rw [toks_append, List.append_assoc]
  rcases hc with rfl | rfl
  · exact cat2 (N := N) (h1.mono h3) (hm ▸ h2.mono h3) bal_id hX (.name hP .nil) (by rw [hm]; exact hXb) bal_id bal_num hg (key _ (by simp))
  · exact cat (N := N) (h1.mono h3) (hm ▸ h2.mono h3) bal_id hX (.name hP .nil) (by rw [hm]; exact hXb) bal_id bal_num hg (key _ (by simp))

/-- The same where it is the name of no macro. -/
theorem dispatch_none {P b G : String} (hP : defs user P = none) {X : List Tok} (hX : Bal false X)
    (hXb : Becomes (defs user) (out ++ marks r) (toks X) [.num b]) (hG : P ++ b = G) (hs : defs user G = none)
    (h1 : Ok N 3 out) (h2 : Ok N 3 (marks r)) (h : Becomes (defs user) out r ts) :
    Becomes (defs user) out (toks (callT "H2PP_CAT2" [[.id P], X]) ++ r) (.id G :: ts) := by
  have hg : pastes [] [[.id P], [.num b]] = some [.id G] := by simp [pastes, paste, glue, hG]
  exact cat2 (N := N) h1 h2 bal_id hX (.name hP .nil) hXb bal_id bal_num hg (.name hs (.mark (.mark h)))

/-! ### Numbers of arguments -/

theorem narg (hu : Apart user) {raws as : List (List Tok)} (hr : raws ≠ []) (hrb : ∀ a ∈ raws, Bal false a) (h0 : as ≠ []) (h63 : as.length ≤ 63)
    (hb : ∀ a ∈ as, Bal false a) (hp : Plain (defs user) (join as)) (h1 : Ok N 9 out) (h2 : Ok N 9 (marks r))
    (hA : Becomes (defs user) (out ++ marks r) (toks (join raws)) (join as)) (h : Becomes (defs user) out r ts) :
    Becomes (defs user) out (toks (callT "H2PP_NARG" raws) ++ r) (.num (toString (if as = [[]] then 0 else as.length)) :: ts) := by
  refine .fn dH2PP_NARG rfl raws (Ok.not_mem (N := N) (k := 9) (by ok) (by rw [rH2PP_NARG]; decide)) hr hrb (bs := [join raws]) (by simp [bind])
    (fun _ => join as) ?_ (b := callT "H2PP_CAT" [[.id "_H2PP_NARG_"], callT "H2PP_IS_EMPTY" as] ++ par as) ?_ ?_
  · intro i hi
    simp at hi
    subst hi
    exact hA
  · simp [build, callT, join, par]
  · have hbalE : Bal false (callT "H2PP_IS_EMPTY" as) := bal_callT hb
    have hP : defs user "_H2PP_NARG_" = none := defs_none hu (by decide +kernel) (by decide +kernel)
    have hE : Becomes (defs user) (out ++ marks (.mark "H2PP_NARG" :: r)) (toks (callT "H2PP_IS_EMPTY" as)) [.num (bit (as == [[]]))] :=
      .fin (isEmpty (N := N) hu h0 hb h0 h63 hb hp (by ok) (by ok) (by simpa [marks] using pass_plain' hp) .nil)
    by_cases he : as = [[]]
    · rw [if_pos he]
      rw [he] at hE ⊢
      refine dispatch (N := N) (k := 8) (.inr rfl) hP (bal_callT (he ▸ hb)) hE (G := "_H2PP_NARG_1") (by decide +kernel) d_H2PP_NARG_1 rfl (by rw [r_H2PP_NARG_1]; decide)
        (by ok) (by ok) (by decide) (by decide +kernel) [[]] (by simp) (by simp [Bal.nil]) (bs := [[]]) (by simp [bind, join]) (fun _ => []) (by simp) (bd := [.num "0"]) (by simp [build]) ?_
      exact .tok (by simp) (.mark (.mark h))
    · rw [if_neg he]
      have heb : (as == [[]]) = false := by simpa using he
      rw [heb] at hE
      refine dispatch (N := N) (k := 8) (.inr rfl) hP hbalE hE (G := "_H2PP_NARG_0") (by decide +kernel) d_H2PP_NARG_0 rfl (by rw [r_H2PP_NARG_0]; decide)
        (by ok) (by ok) (by decide) (by decide +kernel) as h0 hb (bs := [join as]) (by simp [bind]) (fun _ => join as) ?_ (bd := callT "H2PP_ARG_COUNT" as) (by simp [build, callT]) ?_
      · intro i hi
        simp at hi
        subst hi
        exact pass_plain' hp
      · exact argCount (N := N) h0 hb h0 (by omega) hb (still_plain hp) (by ok) (by ok) (pass_plain' hp) (.mark (.mark h))

/-! ### Probes -/

theorem th1 {a0 : List Tok} {x : String} {as : List (List Tok)} (hb : ∀ a ∈ a0 :: [.num x] :: as, Bal false a) (h1 : Ok N 2 out) (h2 : Ok N 2 (marks r)) (h : Becomes (defs user) out r ts) :
    Becomes (defs user) out (toks (callT "_H2PP_TH1" (a0 :: [.num x] :: as)) ++ r) (.num x :: ts) := by
  refine .fn d_H2PP_TH1 rfl (a0 :: [.num x] :: as) (Ok.not_mem (N := N) (k := 2) (by ok) (by rw [r_H2PP_TH1]; decide)) (by simp) hb
    (bs := [a0, [.num x], join as]) (by simp [bind]) (fun _ => [.num x]) ?_ (b := [.num x]) (by simp [build]) ?_
  · intro i hi
    simp at hi
    subst hi
    exact .tok (by simp) .nil
  · exact .tok (by simp) (.mark h)

/-- `~ , 1 ,` and what follows is a probe. -/
theorem isProbe_yes {X : List Tok} (hX : Bal false X) {ys : List Tok} (hy : Bal false ys)
    (h1 : Ok N 4 out) (h2 : Ok N 4 (marks r)) (hA : Becomes (defs user) (out ++ marks r) (toks X) (.other "~" :: .comma :: .num "1" :: .comma :: ys))
    (h : Becomes (defs user) out r ts) : Becomes (defs user) out (toks (callT "H2PP_IS_PROBE" [X]) ++ r) (.num "1" :: ts) := by
  refine .fn dH2PP_IS_PROBE rfl [X] (Ok.not_mem (N := N) (k := 4) (by ok) (by rw [rH2PP_IS_PROBE]; decide)) (by simp) (by simp [hX]) (bs := [X]) (by simp [bind, join])
    (fun _ => .other "~" :: .comma :: .num "1" :: .comma :: ys) ?_ (b := callT "_H2PP_TH1" [[.other "~"], [.num "1"], ys, [.num "0"], []]) ?_ ?_
  · intro i hi
    simp at hi
    subst hi
    exact hA
  · simp [build, callT, join]
  · refine th1 (N := N) ?_ (by ok) (by ok) (.mark h)
    simp only [List.mem_cons, List.not_mem_nil, or_false]
    rintro a (rfl | rfl | rfl | rfl | rfl)
    · exact .tok (by simp) (by simp) (by simp) .nil
    · exact bal_num
    · exact hy
    · exact bal_num
    · exact .nil

/-- One thing is no probe. -/
theorem isProbe_no {X a : List Tok} (hX : Bal false X) (ha : Bal false a)
    (h1 : Ok N 4 out) (h2 : Ok N 4 (marks r)) (hA : Becomes (defs user) (out ++ marks r) (toks X) a)
    (h : Becomes (defs user) out r ts) : Becomes (defs user) out (toks (callT "H2PP_IS_PROBE" [X]) ++ r) (.num "0" :: ts) := by
  refine .fn dH2PP_IS_PROBE rfl [X] (Ok.not_mem (N := N) (k := 4) (by ok) (by rw [rH2PP_IS_PROBE]; decide)) (by simp) (by simp [hX]) (bs := [X]) (by simp [bind, join])
    (fun _ => a) ?_ (b := callT "_H2PP_TH1" [a, [.num "0"], []]) ?_ ?_
  · intro i hi
    simp at hi
    subst hi
    exact hA
  · simp [build, callT, join]
  · refine th1 (N := N) ?_ (by ok) (by ok) (.mark h)
    simp only [List.mem_cons, List.not_mem_nil, or_false]
    rintro b (rfl | rfl | rfl)
    · exact ha
    · exact bal_num
    · exact .nil

theorem probe (h1 : Ok N 1 out) (h2 : Ok N 1 (marks r)) (h : Becomes (defs user) out r ts) :
    Becomes (defs user) out (toks (callT "H2PP_PROBE" [[]]) ++ r) (.other "~" :: .comma :: .num "1" :: .comma :: ts) := by
  refine .fn dH2PP_PROBE rfl [[]] (Ok.not_mem (N := N) (k := 1) (by ok) (by rw [rH2PP_PROBE]; decide)) (by simp) (by simp [Bal.nil]) (bs := []) (by simp [bind])
    (fun _ => []) (by simp) (b := [.other "~", .comma, .num "1", .comma]) (by simp [build]) ?_
  exact .tok (by simp) (.tok (by simp) (.tok (by simp) (.tok (by simp) (.mark h))))

/-! ### Parentheses -/

/-- Does the text begin with a parenthesis? -/
def starts (a : List Tok) : Bool := a.head? == some .lp

theorem starts_iff {a : List Tok} (ha : Bal false a) (h : starts a = true) : ∃ xs ys, a = .lp :: (xs ++ .rp :: ys) ∧ Bal true xs ∧ Bal false ys := by
  cases a with
  | nil => simp [starts] at h
  | cons t a =>
    simp [starts] at h
    subst h
    obtain ⟨xs, ys, rfl, h1, h2⟩ := bal_lp ha
    exact ⟨xs, ys, rfl, h1, h2⟩

theorem isBegin {a : List Tok} (ha : Bal false a) (hp : Plain (defs user) a) (h1 : Ok N 8 out) (h2 : Ok N 8 (marks r)) (h : Becomes (defs user) out r ts) :
    Becomes (defs user) out (toks (callT "H2PP_IS_BEGIN_PARENTHESIS" [a]) ++ r) (.num (bit (starts a)) :: ts) := by
  refine .fn dH2PP_IS_BEGIN_PARENTHESIS rfl [a] (Ok.not_mem (N := N) (k := 8) (by ok) (by rw [rH2PP_IS_BEGIN_PARENTHESIS]; decide)) (by simp) (by simp [ha]) (bs := [a]) (by simp [bind, join])
    (fun _ => a) ?_ (b := callT "H2PP_IS_PROBE" [.id "_H2PP_IS_BEGIN_PARENTHESIS_PROBE" :: a]) (by simp [build, callT, join]) ?_
  · intro i hi
    simp at hi
    subst hi
    exact pass_plain' hp
  · have hbal : Bal false (.id "_H2PP_IS_BEGIN_PARENTHESIS_PROBE" :: a) := .tok (by simp) (by simp) (by simp) ha
    by_cases hs : starts a = true
    · rw [hs]
      obtain ⟨xs, ys, rfl, hx, hy⟩ := starts_iff ha hs
      obtain ⟨args, hne, hba, e⟩ := bal_split hx
      have hpy : Plain (defs user) ys := fun s hs => hp s (by simp [hs])
      refine isProbe_yes (N := N) hbal hy (by ok) (by ok) ?_ (.mark h)
      have e2 : toks (.id "_H2PP_IS_BEGIN_PARENTHESIS_PROBE" :: .lp :: (xs ++ .rp :: ys)) = toks (callT "_H2PP_IS_BEGIN_PARENTHESIS_PROBE" args) ++ toks ys := by
        rw [callT, e]; simp [toks]
      rw [e2]
      refine .fn d_H2PP_IS_BEGIN_PARENTHESIS_PROBE rfl args (Ok.not_mem (N := N) (k := 1) (by ok) (by rw [r_H2PP_IS_BEGIN_PARENTHESIS_PROBE]; decide)) hne hba (bs := [join args]) (by simp [bind])
        (fun _ => []) (by simp) (b := callT "H2PP_PROBE" [[]]) (by simp [build, callT, join]) ?_
      refine Becomes.fn dH2PP_PROBE rfl [[]] ?_ (by simp) (by simp [Bal.nil]) (bs := []) (by simp [bind])
        (fun _ => []) (by simp) (b := [.other "~", .comma, .num "1", .comma]) (by simp [build]) ?_
      · have hok : Ok N 1 (out ++ marks r) := by ok
        simp only [marks_append, marks_toks, marks, List.append_nil, List.mem_append, List.mem_cons, List.not_mem_nil, or_false, not_or]
        have := hok.not_mem (s := "H2PP_PROBE") (by rw [rH2PP_PROBE]; decide)
        simp only [List.mem_append, not_or] at this
        exact ⟨⟨this.1, by decide +kernel, this.2⟩, by decide +kernel⟩
      · exact .tok (by simp) (.tok (by simp) (.tok (by simp) (.tok (by simp) (.mark (.mark (pass_plain' hpy))))))
    · rw [Bool.not_eq_true] at hs
      rw [hs]
      have hst : Still (defs user) N (.id "_H2PP_IS_BEGIN_PARENTHESIS_PROBE" :: a) :=
        ⟨.inr ⟨_, _, d_H2PP_IS_BEGIN_PARENTHESIS_PROBE, rfl, r_H2PP_IS_BEGIN_PARENTHESIS_PROBE, by simpa [starts] using hs⟩, still_plain hp⟩
      exact isProbe_no (N := N) hbal hbal (by ok) (by ok) (pass_still' (N := N) hst (by ok)) (.mark h)

end H2.Macro
