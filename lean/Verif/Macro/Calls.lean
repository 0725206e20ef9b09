import Verif.Macro.Each
/-
The macros of the library that call other macros.
-/
namespace H2.Macro

variable {user : String → Option Macro} {N : List String} [Free N] {out : List String} {r : List Item} {ts us : List Tok}

/-- A call does not change when replacements end between the name and the parenthesis. -/
theorem Becomes.skip {T : String → Option Macro} {G : String} {args : List (List Tok)} {ms : List String} (hd : G ∉ out ++ (ms ++ marks r))
    (ho : ∀ m, T G = some m → m.params ≠ none) (h : Becomes T out (toks (callT G args) ++ r) ts) :
    Becomes T out (.tok (.id G) :: (ms.map .mark ++ (toks (par args) ++ r))) ts := by
  have hm : marks (toks (par args) ++ r) = marks r := by rw [marks_append, marks_toks]; rfl
  obtain ⟨n, hn⟩ := h
  cases n with
  | zero => simp [scan] at hn
  | succ n =>
    have e : toks (callT G args) ++ r = .tok (.id G) :: (toks (par args) ++ r) := by simp [callT_eq, toks]
    rw [e, scan] at hn
    cases hT : T G with
    | none =>
      rw [hT, Option.map_eq_some_iff] at hn
      obtain ⟨x, hx, rfl⟩ := hn
      refine .name hT ?_
      clear e hd
      induction ms with
      | nil => exact ⟨n, hx⟩
      | cons a ms ih => exact .mark ih
    | some m =>
      rw [hT] at hn
      dsimp only at hn
      have hd' : G ∉ out ++ marks (toks (par args) ++ r) := by
        rw [hm]; simp only [List.mem_append, not_or] at hd ⊢; exact ⟨hd.1, hd.2.2⟩
      rw [if_neg hd'] at hn
      cases hp : m.params with
      | none => exact absurd hp (ho m hT)
      | some p =>
        refine ⟨n + 1, ?_⟩
        rw [scan, hT]
        dsimp only
        have hd2 : G ∉ out ++ marks (ms.map .mark ++ (toks (par args) ++ r)) := by
          rw [marks_append, marks_marks, hm]; exact hd
        rw [if_neg hd2]
        rw [hp] at hn ⊢
        dsimp only at hn ⊢
        rw [opens_marks]
        exact hn

/-- `H2PP_VCALL`: as if the macro for the number of arguments were called. -/
theorem vcall (hu : Apart user) {M G : String} (hM : defs user M = none) {raws as : List (List Tok)} (hr : raws ≠ []) (hrb : ∀ a ∈ raws, Bal false a) (h0 : as ≠ [])
    (h63 : as.length ≤ 63) (hb : ∀ a ∈ as, Bal false a) (hp : Plain (defs user) (join as)) (h1 : Ok N 10 out) (h2 : Ok N 10 (marks r))
    (hA : Becomes (defs user) (out ++ marks r) (toks (join raws)) (join as)) (hG : M ++ toString (if as = [[]] then 0 else as.length) = G)
    (hk : G ∉ out ++ marks r) (hGr : reserved G = false) (ho : ∀ m, defs user G = some m → m.params ≠ none) {Y : List Tok} (pY : Plain (defs user) Y)
    (hY : Becomes (defs user) (out ++ "H2PP_VCALL" :: marks r) (toks (callT G as)) Y) (h : Becomes (defs user) out r ts) :
    Becomes (defs user) out (toks (callT "H2PP_VCALL" ([.id M] :: raws)) ++ r) (Y ++ ts) := by
  refine .fn dH2PP_VCALL rfl ([.id M] :: raws) (Ok.not_mem (N := N) (k := 10) (by ok) (by rw [rH2PP_VCALL]; decide)) (by simp) ?_ (bs := [[.id M], join raws]) (by simp [bind])
    (fun i => [[.id M], join as].getD i []) ?_ (b := callT "H2PP_RESCAN" [callT "H2PP_CAT2" [[.id M], callT "H2PP_NARG" as] ++ par as]) ?_ ?_
  · intro a ha
    rcases List.mem_cons.1 ha with rfl | ha
    · exact bal_id
    · exact hrb a ha
  · intro i hi
    simp at hi
    have hi' : i = 0 ∨ i = 1 := by omega
    clear hi
    rcases hi' with rfl | rfl
    · exact .name hM .nil
    · exact hA
  · simp [build, callT, join, par]
  · refine rescan (N := N) (by ok) (by ok) (.append (bal_callT (d := false) (by simp [bal_id]; exact bal_callT hb)) (bal_par hb)) (R := Y) ?_ (pass_plain pY (.mark (.mark h)))
    rw [toks_append]
    have hmm : marks (toks (par as)) = [] := marks_toks
    refine cat2 (N := N) (by ok) (by rw [hmm]; exact ok_nil) bal_id (bal_callT hb) (.name hM .nil) ?_ bal_id bal_num (b := [.num (toString (if as = [[]] then 0 else as.length))])
      (g := [.id G]) (by rw [← hG]; simp [pastes, paste, glue]) ?_
    · refine .fin (narg (N := N) hu h0 hb h0 h63 hb hp ?_ ok_nil (pass_plain' hp) .nil)
      rw [hmm]; ok
    · have hGn : ∀ s, reserved s = true → G ≠ s := by rintro s hs rfl; rw [hGr] at hs; cases hs
      have := Becomes.skip (T := defs user) (r := []) (ms := ["_H2PP_CAT2", "H2PP_CAT2"]) (G := G) (args := as) (out := out ++ "H2PP_VCALL" :: marks r) ?_ ho (by simpa using hY)
      · simpa [toks, marks] using this
      · simp only [List.mem_append, List.mem_cons, List.not_mem_nil, or_false, marks, not_or] at hk ⊢
        exact ⟨⟨hk.1, hGn _ (by decide +kernel), hk.2⟩, hGn _ (by decide +kernel), hGn _ (by decide +kernel)⟩

/-! ### `H2Foreach` -/

/-- A name that stays where no parenthesis follows. -/
def Callee (user : String → Option Macro) (C : String) : Prop := ∀ m, defs user C = some m → m.params ≠ none

theorem callee_pass {C : String} (hC : Callee user C) (hd : C ∉ out ++ marks r) (ho : opens r = none) (h : Becomes (defs user) out r ts) :
    Becomes (defs user) out (.tok (.id C) :: r) (.id C :: ts) := by
  cases hT : defs user C with
  | none => exact .name hT h
  | some m =>
    cases hp : m.params with
    | none => exact absurd hp (hC m hT)
    | some p => exact .alone hT hp hd ho h

theorem callee_still {C : String} (hC : Callee user C) (hN : C ∈ N) : Still (defs user) N [.id C] := by
  refine ⟨?_, trivial⟩
  cases hT : defs user C with
  | none => exact .inl rfl
  | some m =>
    cases hp : m.params with
    | none => exact absurd hp (hC m hT)
    | some p => exact .inr ⟨m, p, rfl, hp, rank_free hN, by simp⟩

/-- `REMOVE_PARENTHESES` of a name in parentheses. -/
theorem removeOne {C : String} (hC : Callee user C) (hr : reserved C = false) (n1 : "H2PP_REMOVE_PARENTHESES" ∉ out ++ marks r) (n2 : "_H2PP_REMOVE_PARENTHESES" ∉ out ++ marks r)
    (n3 : C ∉ out ++ marks r) (h : Becomes (defs user) out (toks [.id C] ++ .mark "_H2PP_REMOVE_PARENTHESES" :: .mark "H2PP_REMOVE_PARENTHESES" :: r) ts) :
    Becomes (defs user) out (toks (callT "H2PP_REMOVE_PARENTHESES" [[.lp, .id C, .rp]]) ++ r) ts := by
  have hbal : Bal false [.lp, .id C, .rp] := .paren (xs := [.id C]) (ys := []) bal_id .nil
  have hGn : ∀ s, reserved s = true → C ≠ s := by rintro s hs rfl; rw [hr] at hs; cases hs
  refine Becomes.fn (out := out) (r := r) dH2PP_REMOVE_PARENTHESES rfl [[.lp, .id C, .rp]] n1 (by simp) (by simp [hbal])
    (bs := [[.lp, .id C, .rp]]) (by simp [bind, join]) (fun _ => [.lp, .id C, .rp]) ?_ (b := callT "_H2PP_REMOVE_PARENTHESES" [[.id C]]) (by simp [build, callT, join]) ?_
  · intro i hi
    simp at hi
    subst hi
    exact .tok (by simp) (callee_pass hC (by simpa [marks] using n3) rfl (.tok (by simp) .nil))
  · simp only [List.mem_append, not_or] at n2 n3
    refine .fn d_H2PP_REMOVE_PARENTHESES rfl [[.id C]] ?_ (by simp) (by simp [bal_id]) (bs := [[.id C]]) (by simp [bind, join])
      (fun _ => [.id C]) ?_ (b := [.id C]) (by simp [build]) h
    · simp only [marks, List.mem_append, List.mem_cons, not_or]
      exact ⟨n2.1, by decide +kernel, n2.2⟩
    · intro i hi
      simp at hi
      subst hi
      refine callee_pass (r := []) hC ?_ rfl .nil
      simp only [marks, List.append_nil, List.mem_append, List.mem_cons, not_or]
      exact ⟨n3.1, hGn _ (by decide +kernel), n3.2⟩

theorem away_ok {D : List String} (h : Ok N 12 D) : Away N D := by
  intro s hs hD
  have h12 := h s hD
  rcases List.mem_append.1 hs with hs | hs
  · rw [rank_free hs] at h12; omega
  · simp only [helpers, List.mem_cons, List.not_mem_nil, or_false] at hs
    rcases hs with rfl | rfl | rfl | rfl | rfl
    · rw [rH2PP_REMOVE_PARENTHESES] at h12; omega
    · rw [r_H2PP_REMOVE_PARENTHESES] at h12; omega
    · rw [rH2PP_RESCAN] at h12; omega
    · rw [rH2PP_PROXY] at h12; omega
    · rw [r_H2PP_PROXY] at h12; omega

theorem Writes.step {X Y : List Tok} (h : Writes user N X Y) : Step user N 12 X Y :=
  fun out r ts h1 h2 hr => h out r ts (away_ok (ok_append.2 ⟨h1, h2⟩)) hr

theorem reserved_ne {N : List String} [hN : Free N] {s : String} (h : reserved s = true) : s ∉ N := fun hm => by
  have := hN.free s hm; rw [h] at this; cases this

/-- The macro that `H2Foreach` gives to `H2PP_FOREACH`. -/
theorem foreachMacro (hu : Apart user) {C : String} (hC : Callee user C) (hN : C ∈ N) {i : Nat} (hi : i < 64) {x Y : List Tok} (hx : Bal false x) (px : Plain (defs user) x)
    (hY : Writes user N (callT C [x]) Y) : Step user N 12 (callT "_H2ForeachMacro" [[.lp, .id C, .rp], [idx i], x]) Y := by
  intro out r ts h1 h2 h
  have hr : reserved C = false := Free.free C hN
  have aw : Away N (out ++ marks r) := away_ok (ok_append.2 ⟨h1, h2⟩)
  have aw' : Away N (out ++ marks (.mark "_H2ForeachMacro" :: r)) := by
    intro s hs hD
    simp only [marks, List.mem_append, List.mem_cons] at hD
    have := aw s hs
    simp only [List.mem_append, not_or] at this
    rcases hD with hD | rfl | hD
    · exact this.1 hD
    · rcases List.mem_append.1 hs with hs | hs
      · exact reserved_ne (by decide +kernel) hs
      · exact absurd hs (by decide +kernel)
    · exact this.2 hD
  have hm : marks (toks (par [x]) ++ .mark "_H2ForeachMacro" :: r) = marks (.mark "_H2ForeachMacro" :: r) := by rw [marks_append, marks_toks]; rfl
  have hbal : Bal false [.lp, .id C, .rp] := .paren (xs := [.id C]) (ys := []) bal_id .nil
  have hst : Still (defs user) N [.lp, .id C, .rp] := still_lp.2 (still_append (x := [.id C]) (y := [.rp]) (callee_still hC hN) (by simp [Still]) (by simp))
  refine .fn d_H2ForeachMacro rfl [[.lp, .id C, .rp], [idx i], x] (Ok.not_mem (N := N) (k := 12) (by ok) (by rw [r_H2ForeachMacro]; decide)) (by simp) (by simp [hbal, bal_idx, hx])
    rfl (fun i' => [[.lp, .id C, .rp], [idx i], x].getD i' []) ?_ (b := callT "H2PP_REMOVE_PARENTHESES" [[.lp, .id C, .rp]] ++ par [x]) (by simp [build, callT, join, par]) ?_
  · intro i' hi'
    simp at hi'
    have hi'' : i' = 0 ∨ i' = 2 := by omega
    clear hi'
    rcases hi'' with rfl | rfl
    · exact pass_still' hst (by ok)
    · exact pass_plain' px
  · rw [toks_append, List.append_assoc]
    refine removeOne hC hr ?_ ?_ ?_ ?_
    · rw [hm]; exact aw' _ (by simp [helpers])
    · rw [hm]; exact aw' _ (by simp [helpers])
    · rw [hm]; exact aw' _ (by simp [hN])
    · have := Becomes.skip (T := defs user) (out := out) (G := C) (args := [x]) (ms := ["_H2PP_REMOVE_PARENTHESES", "H2PP_REMOVE_PARENTHESES"]) (r := .mark "_H2ForeachMacro" :: r) (ts := Y ++ ts) ?_ hC
        (hY out _ ts aw' (.mark h))
      · simpa [toks] using this
      · have h3 := aw' C (by simp [hN])
        have hGn : ∀ s, reserved s = true → C ≠ s := by rintro s hs rfl; rw [hr] at hs; cases hs
        simp only [List.mem_append, List.mem_cons, List.not_mem_nil, or_false, not_or] at h3 ⊢
        exact ⟨h3.1, ⟨hGn _ (by decide +kernel), hGn _ (by decide +kernel)⟩, h3.2⟩

/-- What `H2Foreach` writes. -/
theorem h2foreach (hu : Apart user) {C : String} (hC : Callee user C) (hN : C ∈ N) {raw a : List Tok} (hraw : Bal false raw) (ha : Bal false a) (pa : Plain (defs user) a) {xs : List (List Tok)} (hxs : Elements user xs)
    (hj : join xs = (inner a).getD a) {o : List Tok → List Tok} (ho : ∀ x ∈ xs, Writes user N (callT C [x]) (o x) ∧ Plain (defs user) (o x) ∧ Bal true (o x))
    (h1 : Ok N 41 out) (h2 : Ok N 41 (marks r)) (eA : Becomes (defs user) (out ++ marks r) (toks raw) a) (h : Becomes (defs user) out r ts) :
    Becomes (defs user) out (toks (callT "H2Foreach" [[.id C], raw]) ++ r) (eachAll [] (fun _ => o) 0 xs ++ ts) := by
  have hst : Still (defs user) N [.lp, .id C, .rp] := still_lp.2 (still_append (x := [.id C]) (y := [.rp]) (callee_still hC hN) (by simp [Still]) (by simp))
  have hbal : Bal false [.lp, .id C, .rp] := .paren (xs := [.id C]) (ys := []) bal_id .nil
  have g : Given user N [] "_H2ForeachMacro" [.lp, .id C, .rp] :=
    ⟨by intro s hs; simp at hs, .nil, ⟨.inr ⟨_, _, d_H2ForeachMacro, rfl, r_H2ForeachMacro, by simp⟩, trivial⟩, hst, hbal⟩
  have hlen := hxs.len
  refine Becomes.fn (out := out) (r := r) dH2Foreach rfl [[.id C], raw] (Ok.not_mem (N := N) (k := 41) (by ok) (by rw [rH2Foreach]; decide)) (by simp) (by simp [bal_id, hraw]) (bs := [[.id C], raw]) (by simp [bind, join])
    (fun j => [[.id C], a].getD j []) ?_ (b := callT "H2PP_FOREACH" ([[], [.id "_H2ForeachMacro"], [.lp, .id C, .rp]] ++ [callT "H2PP_REMOVE_PARENTHESES_IF" [a]])) (by simp [build, callT, join]) ?_
  · intro j hj
    simp at hj
    have hj' : j = 0 ∨ j = 1 := by omega
    clear hj
    rcases hj' with rfl | rfl
    · exact pass_still' (callee_still hC hN) (by ok)
    · exact eA
  · refine foreach (N := N) hu g (by simp) (by simp; exact bal_callT (d := false) (by simp [ha])) hxs (o := fun _ => o) ?_ ?_ out _ ts (by ok) (by ok) (.mark h)
    · intro i x hx
      have hm := List.mem_of_getElem? hx
      have hi : i < xs.length := by rcases List.getElem?_eq_some_iff.1 hx with ⟨h, _⟩; exact h
      obtain ⟨w, p, b⟩ := ho x hm
      exact ⟨foreachMacro hu hC hN (by omega) (hxs.bal x hm) (hxs.plain x hm) w, p, b⟩
    · intro out r ts h1 h2 _ h
      simp only [join]
      rw [hj]
      exact removeParenIf (N := N) hu ha pa (h1.mono (by decide)) (h2.mono (by decide)) h

end H2.Macro
