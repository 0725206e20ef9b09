import Verif.Macro.Calls
import Verif.Macro.Equal
/-
`H2PP_LAST` and `H2PP_NCALL`.
-/
namespace H2.Macro

variable {user : String → Option Macro} {N : List String} [Free N] {out : List String} {r : List Item} {ts us : List Tok}

/-- The text that is left for the next time. -/
def lastRest (xs : List (List Tok)) : List Tok := .id "__H2PP_LAST" :: .lp :: .rp :: par xs

theorem bal_lastRest {xs : List (List Tok)} (hb : ∀ x ∈ xs, Bal false x) : Bal true (lastRest xs) :=
  .tok (by simp) (by simp) (by simp) (.paren (xs := []) .nil (bal_par hb))

/-- What one call of `_H2PP_LAST_0` becomes. -/
def lastOut (x : List Tok) (xs : List (List Tok)) : List Tok := if xs = [] then x else lastRest xs

/-- The call of `_H2PP_LAST_0` with its arguments. -/
def lastBody (x : List Tok) (xs : List (List Tok)) : List Tok :=
  callT "H2PP_CAT2" [[.id "_H2PP_LAST_0_"], callT "H2PP_EQ" [[.num "1"], callT "H2PP_NARG" (x :: xs)]] ++ par (x :: xs)

theorem last0Body (hu : Apart user) {x : List Tok} {xs : List (List Tok)} (hxs : Elements user (x :: xs))
    (h1 : Ok N 16 out) (h2 : Ok N 16 (marks r)) (h : Becomes (defs user) out r ts) :
    Becomes (defs user) out (toks (lastBody x xs) ++ .mark "_H2PP_LAST_0" :: r) (lastOut x xs ++ ts) := by
  have hpx : Plain (defs user) (join (x :: xs)) := plain_join hxs.plain
  have hlen := hxs.len
  have hP : defs user "_H2PP_LAST_0_" = none := defs_none hu (by decide +kernel) (by decide +kernel)
  have hN : Becomes (defs user) (out ++ marks (.mark "_H2PP_LAST_0" :: r)) (toks (callT "H2PP_NARG" (x :: xs))) [.num (toString (x :: xs).length)] := by
    have := Becomes.fin (narg (N := N) hu (by simp) hxs.bal (by simp) hlen hxs.bal hpx (out := out ++ marks (.mark "_H2PP_LAST_0" :: r)) (r := []) (by ok) (by ok) (pass_plain' hpx) .nil)
    rwa [if_neg hxs.one] at this
  have hE : Becomes (defs user) (out ++ marks (.mark "_H2PP_LAST_0" :: r)) (toks (callT "H2PP_EQ" [[.num "1"], callT "H2PP_NARG" (x :: xs)])) [.num (bit (1 == (x :: xs).length))] :=
    .fin (eqN (N := N) (a := 1) hu (by decide) (by omega) bal_num (bal_callT hxs.bal) (by ok) (by ok) (.tok (by simp) .nil) (by simpa [marks] using hN) .nil)
  have hbE : Bal false (callT "H2PP_EQ" [[.num "1"], callT "H2PP_NARG" (x :: xs)]) :=
    bal_callT (d := false) (by simp only [List.mem_cons, List.not_mem_nil, or_false]; exact fun a h => h.elim (fun e => e ▸ bal_num) (fun e => e ▸ bal_callT hxs.bal))
  by_cases he : xs = []
  · subst he
    have hb : (1 == [x].length) = true := by simp
    rw [hb] at hE
    refine dispatch (N := N) (k := 15) (.inl rfl) hP hbE hE (G := "_H2PP_LAST_0_1") (by decide +kernel) d_H2PP_LAST_0_1 rfl (by rw [r_H2PP_LAST_0_1]; decide)
      (by ok) (by ok) (by decide) (by decide +kernel) [x] (by simp) hxs.bal (bs := [x]) (by simp [bind, join]) (fun _ => x) ?_ (bd := x) (by simp [build]) ?_
    · intro j hj
      simp at hj
      subst hj
      exact pass_plain' (hxs.plain x (.head _))
    · rw [lastOut, if_pos rfl]
      exact pass_plain (hxs.plain x (.head _)) (.mark (.mark h))
  · have hb : (1 == (x :: xs).length) = false := by
      cases xs with
      | nil => exact absurd rfl he
      | cons y ys => simp
    rw [hb] at hE
    refine dispatch (N := N) (k := 15) (.inl rfl) hP hbE hE (G := "_H2PP_LAST_0_0") (by decide +kernel) d_H2PP_LAST_0_0 rfl (by rw [r_H2PP_LAST_0_0]; decide)
      (by ok) (by ok) (by decide) (by decide +kernel) (x :: xs) (by simp) hxs.bal (bs := [join (x :: xs)]) (by simp [bind]) (fun _ => join (x :: xs)) ?_
      (bd := callT "H2PP_DEFER" [[.id "__H2PP_LAST"]] ++ ([.lp, .rp] ++ par [callT "H2PP_TAIL" (x :: xs)])) (by simp [build, callT, join, par]) ?_
    · intro j hj
      simp at hj
      subst hj
      exact pass_plain' hpx
    · have s2 : Step user N 14 (callT "H2PP_DEFER" [[.id "__H2PP_LAST"]]) [.id "__H2PP_LAST"] := (defer (N := N) d__H2PP_LAST rfl r__H2PP_LAST).mono (by decide)
      have s3 : Step user N 14 [.lp, .rp] [.lp, .rp] := .plain (by intro s hs; simp at hs)
      have s4 : Step user N 14 (par [callT "H2PP_TAIL" (x :: xs)]) (par [join xs]) :=
        Args.par (.one fun out r ts o1 o2 _ hr => tail (N := N) hu hxs.bal hpx hlen hxs.one (o1.mono (by decide)) (o2.mono (by decide)) hr)
      have := (s2.append (s3.append s4)) out (.mark "_H2PP_LAST_0_0" :: .mark "_H2PP_LAST_0" :: r) ts (by ok) (by ok) (.mark (.mark h))
      rw [lastOut, if_neg he]
      simpa [lastRest, par, join] using this

theorem last0 (hu : Apart user) {x : List Tok} {xs : List (List Tok)} (hxs : Elements user (x :: xs)) (ms : List String) (hms : "_H2PP_LAST_0" ∉ ms)
    (h1 : Ok N 16 out) (h2 : Ok N 16 (marks r)) (h : Becomes (defs user) out r ts) :
    Becomes (defs user) out (.tok (.id "_H2PP_LAST_0") :: (ms.map .mark ++ .tok .lp :: (toks (join (x :: xs)) ++ .tok .rp :: r))) (lastOut x xs ++ ts) := by
  have hpx : Plain (defs user) (join (x :: xs)) := plain_join hxs.plain
  refine .call d_H2PP_LAST_0 rfl ms (x :: xs) ?_ (by simp) hxs.bal (bs := [join (x :: xs)]) (by simp [bind]) (fun _ => join (x :: xs)) ?_
    (b := lastBody x xs) (by simp [build, callT, join, par, lastBody]) (last0Body (N := N) hu hxs h1 h2 h)
  · have hok : Ok N 16 (out ++ marks r) := ok_append.2 ⟨h1, h2⟩
    have hn := hok.not_mem (s := "_H2PP_LAST_0") (by rw [r_H2PP_LAST_0]; decide)
    simp only [List.mem_append, not_or] at hn ⊢
    exact ⟨hn.1, hms, hn.2⟩
  · intro j hj
    simp at hj
    subst hj
    exact pass_plain' hpx

theorem lastStep (hu : Apart user) {x : List Tok} {xs : List (List Tok)} (hxs : Elements user (x :: xs)) : Step user N 20 (lastRest (x :: xs)) (lastOut x xs) := by
  intro out r ts h1 h2 h
  have hm : marks (toks (par (x :: xs)) ++ r) = marks r := by rw [marks_append, marks_toks]; rfl
  have key := last0 (N := N) hu hxs ["__H2PP_LAST"] (by decide +kernel) (h1.mono (by decide)) (h2.mono (by decide)) h
  have := Becomes.fn (T := defs user) (out := out) (r := toks (par (x :: xs)) ++ r) d__H2PP_LAST rfl [[]]
    (Ok.not_mem (N := N) (k := 1) (by rw [hm]; ok) (by rw [r__H2PP_LAST]; decide)) (by simp) (by simp [Bal.nil]) (bs := []) (by simp [bind]) (fun _ => []) (by simp)
    (b := [.id "_H2PP_LAST_0"]) (by simp [build]) (by simpa [par, toks] using key)
  simpa [lastRest, callT, join, toks] using this

theorem lastRuns (hu : Apart user) {xs : List (List Tok)} : ∀ {x : List Tok} (hxs : Elements user (x :: xs)),
    Runs user N (xs.length + 1) (lastRest (x :: xs)) ((x :: xs).getLast (by simp)) := by
  induction xs with
  | nil =>
    intro x hxs
    refine .step (bal_lastRest hxs.bal) (lastStep hu hxs) ?_
    rw [lastOut, if_pos rfl]
    exact .done (hxs.plain x (.head _)) (hxs.bal x (.head _)).weak
  | cons y ys ih =>
    intro x hxs
    refine .step (bal_lastRest hxs.bal) (lastStep hu hxs) ?_
    rw [lastOut, if_neg (by simp)]
    simpa using ih hxs.tail

/-- `H2PP_LAST`. -/
theorem last (hu : Apart user) {x : List Tok} {xs : List (List Tok)} (hxs : Elements user (x :: xs)) :
    Step user N 31 (callT "H2PP_LAST" (x :: xs)) ((x :: xs).getLast (by simp)) := by
  intro out r ts h1 h2 h
  have hpx : Plain (defs user) (join (x :: xs)) := plain_join hxs.plain
  have hlen := hxs.len
  refine .fn dH2PP_LAST rfl (x :: xs) (Ok.not_mem (N := N) (k := 31) (by ok) (by rw [rH2PP_LAST]; decide)) (by simp) hxs.bal
    (bs := [join (x :: xs)]) (by simp [bind]) (fun _ => join (x :: xs)) ?_ (b := callT "H2PP_EVAL" [callT "_H2PP_LAST" (x :: xs)]) (by simp [build, callT, join]) ?_
  · intro j hj
    simp at hj
    subst hj
    exact pass_plain' hpx
  · refine eval (N := N) (by simp) (by simp; exact bal_callT hxs.bal) (Y := (x :: xs).getLast (by simp)) ?_ out _ ts (by ok) (by ok) (.mark h)
    rw [join]
    have hst : Step user N 20 (callT "_H2PP_LAST" (x :: xs)) (lastOut x xs) := by
      intro out r ts h1 h2 h
      refine .fn d_H2PP_LAST rfl (x :: xs) (Ok.not_mem (N := N) (k := 17) (by ok) (by rw [r_H2PP_LAST]; decide)) (by simp) hxs.bal
        (bs := [join (x :: xs)]) (by simp [bind]) (fun _ => join (x :: xs)) ?_
        (b := callT "H2PP_CAT2" [[.id "_H2PP_LAST_"], callT "H2PP_IS_EMPTY" (x :: xs)] ++ par (x :: xs)) (by simp [build, callT, join, par]) ?_
      · intro j hj
        simp at hj
        subst hj
        exact pass_plain' hpx
      · have hP : defs user "_H2PP_LAST_" = none := defs_none hu (by decide +kernel) (by decide +kernel)
        have hE : Becomes (defs user) (out ++ marks (.mark "_H2PP_LAST" :: r)) (toks (callT "H2PP_IS_EMPTY" (x :: xs))) [.num "0"] := by
          have := Becomes.fin (isEmpty (N := N) hu (by simp) hxs.bal (by simp) hlen hxs.bal hpx (out := out ++ marks (.mark "_H2PP_LAST" :: r)) (r := []) (by ok) (by ok) (pass_plain' hpx) .nil)
          have hb : ((x :: xs) == [[]]) = false := by simpa using hxs.one
          rwa [hb] at this
        refine dispatch (N := N) (k := 16) (.inl rfl) hP (bal_callT hxs.bal) hE (G := "_H2PP_LAST_0") (by decide +kernel) d_H2PP_LAST_0 rfl (by rw [r_H2PP_LAST_0]; decide)
          (by ok) (by ok) (by decide) (by decide +kernel) (x :: xs) (by simp) hxs.bal (bs := [join (x :: xs)]) (by simp [bind]) (fun _ => join (x :: xs)) ?_
          (bd := lastBody x xs) (by simp [build, callT, join, par, lastBody]) ?_
        · intro j hj
          simp at hj
          subst hj
          exact pass_plain' hpx
        · exact last0Body (N := N) hu hxs (h1.mono (by decide)) (by ok) (.mark h)
    refine .step (bal_callT hxs.bal) hst ?_
    unfold lastOut
    by_cases he : xs = []
    · subst he
      exact .done (by rw [if_pos rfl]; exact hxs.plain x (.head _)) (by rw [if_pos rfl]; exact (hxs.bal x (.head _)).weak)
    · rw [if_neg he]
      cases xs with
      | nil => exact absurd rfl he
      | cons y ys => exact (lastRuns hu hxs.tail).le (by simp at hlen; omega)

/-- `H2PP_NCALL`: as if the macro for the answer were called. -/
theorem ncall (hu : Apart user) {M G : String} (hM : defs user M = none) {n : Nat} (hn : n < 32) {raws as : List (List Tok)} (hr : raws ≠ []) (hrb : ∀ a ∈ raws, Bal false a) (h0 : as ≠ [])
    (h63 : as.length ≤ 63) (hb : ∀ a ∈ as, Bal false a) (hp : Plain (defs user) (join as)) (h1 : Ok N 10 out) (h2 : Ok N 10 (marks r))
    (hA : Becomes (defs user) (out ++ marks r) (toks (join raws)) (join as)) (hG : M ++ bit (n == if as = [[]] then 0 else as.length) = G)
    (hk : G ∉ out ++ marks r) (hGr : reserved G = false) (ho : ∀ m, defs user G = some m → m.params ≠ none) {Y : List Tok} (pY : Plain (defs user) Y)
    (hY : Becomes (defs user) (out ++ "H2PP_NCALL" :: marks r) (toks (callT G as)) Y) (h : Becomes (defs user) out r ts) :
    Becomes (defs user) out (toks (callT "H2PP_NCALL" ([.id M] :: [.num (toString n)] :: raws)) ++ r) (Y ++ ts) := by
  refine .fn dH2PP_NCALL rfl ([.id M] :: [.num (toString n)] :: raws) (Ok.not_mem (N := N) (k := 10) (by ok) (by rw [rH2PP_NCALL]; decide)) (by simp) ?_
    (bs := [[.id M], [.num (toString n)], join raws]) (by simp [bind])
    (fun i => [[.id M], [.num (toString n)], join as].getD i []) ?_
    (b := callT "H2PP_RESCAN" [callT "H2PP_CAT2" [[.id M], callT "H2PP_EQ" [[.num (toString n)], callT "H2PP_NARG" as]] ++ par as]) ?_ ?_
  · intro a ha
    rcases List.mem_cons.1 ha with rfl | ha
    · exact bal_id
    · rcases List.mem_cons.1 ha with rfl | ha
      · exact bal_num
      · exact hrb a ha
  · intro i hi
    simp at hi
    have hi' : i = 0 ∨ i = 1 ∨ i = 2 := by omega
    clear hi
    rcases hi' with rfl | rfl | rfl
    · exact .name hM .nil
    · exact .tok (by simp) .nil
    · exact hA
  · simp [build, callT, join, par]
  · have hbE : Bal false (callT "H2PP_EQ" [[.num (toString n)], callT "H2PP_NARG" as]) :=
      bal_callT (d := false) (by simp only [List.mem_cons, List.not_mem_nil, or_false]; exact fun a h => h.elim (fun e => e ▸ bal_num) (fun e => e ▸ bal_callT hb))
    refine rescan (N := N) (by ok) (by ok) (.append (bal_callT (d := false) (by simp only [List.mem_cons, List.not_mem_nil, or_false]; exact fun a h => h.elim (fun e => e ▸ bal_id) (fun e => e ▸ hbE))) (bal_par hb)) (R := Y) ?_ (pass_plain pY (.mark (.mark h)))
    rw [toks_append]
    have hmm : marks (toks (par as)) = [] := marks_toks
    refine cat2 (N := N) (by ok) (by rw [hmm]; exact ok_nil) bal_id hbE (.name hM .nil) ?_ bal_id bal_num (b := [.num (bit (n == if as = [[]] then 0 else as.length))])
      (g := [.id G]) (by rw [← hG]; simp [pastes, paste, glue]) ?_
    · refine .fin (eqN (N := N) hu hn (i := if as = [[]] then 0 else as.length) (by split <;> omega) bal_num (bal_callT hb) ?_ ok_nil (.tok (by simp) .nil) ?_ .nil)
      · rw [hmm]; ok
      · refine .fin (narg (N := N) hu h0 hb h0 h63 hb hp ?_ ok_nil (pass_plain' hp) .nil)
        rw [hmm]
        simp only [marks, List.append_nil]
        ok
    · have hGn : ∀ s, reserved s = true → G ≠ s := by rintro s hs rfl; rw [hGr] at hs; cases hs
      have := Becomes.skip (T := defs user) (r := []) (ms := ["_H2PP_CAT2", "H2PP_CAT2"]) (G := G) (args := as) (out := out ++ "H2PP_NCALL" :: marks r) ?_ ho (by simpa using hY)
      · simpa [toks, marks] using this
      · simp only [List.mem_append, List.mem_cons, List.not_mem_nil, or_false, marks, not_or] at hk ⊢
        exact ⟨⟨hk.1, hGn _ (by decide +kernel), hk.2⟩, hGn _ (by decide +kernel), hGn _ (by decide +kernel)⟩

end H2.Macro
