import Verif.Pattern.Model
/-
Property C10: the greedy single-backtrack loop decides wildcard patterns.
-/
namespace H2.Pattern

/-! ### Specification -/

/-- `Glob eq p s`: the subject `s` can be split along the pattern `p`: `?` stands for one
character, `*` for any run, every other character for itself (up to `eq`). -/
inductive Glob (eq : Char → Char → Prop) : List Char → List Char → Prop
  | nil : Glob eq [] []
  | any {c p s} : Glob eq p s → Glob eq ('?' :: p) (c :: s)
  | star {p s} (run : List Char) : Glob eq p s → Glob eq ('*' :: p) (run ++ s)
  | lit {d c p s} : d ≠ '?' → d ≠ '*' → eq c d → Glob eq p s → Glob eq (d :: p) (c :: s)

/-- Equality of characters, up to ASCII case when `caseless`. -/
def CharEq (caseless : Bool) (c d : Char) : Prop :=
  if caseless then c.toLower = d.toLower else c = d

theorem same_iff (b : Bool) (c d : Char) : same b c d = true ↔ CharEq b c d := by
  cases b <;> simp [same, CharEq]

/-! ### Facts about the specification -/

variable {eq : Char → Char → Prop}

theorem glob_star_nil {p : List Char} : Glob eq ('*' :: p) [] ↔ Glob eq p [] := by
  constructor
  · intro h
    generalize hs : ([] : List Char) = s at h
    cases h with
    | star run hp =>
      have := hs.symm
      simp at this
      obtain ⟨h1, h2⟩ := this
      subst h2; subst h1; simpa using hp
    | lit h1 h2 _ _ => exact absurd rfl h2
  · intro h; exact Glob.star [] h

theorem glob_star_cons {p s : List Char} {c : Char} :
    Glob eq ('*' :: p) (c :: s) ↔ Glob eq p (c :: s) ∨ Glob eq ('*' :: p) s := by
  constructor
  · intro h
    generalize hs : c :: s = s' at h
    cases h with
    | star run hp =>
      cases run with
      | nil => left; simpa using hp
      | cons d r =>
        simp at hs
        right; rw [hs.2]; exact Glob.star r hp
    | lit h1 h2 _ _ => exact absurd rfl h2
  · rintro (h | h)
    · exact Glob.star [] h
    · generalize hq : '*' :: p = q at h
      cases h with
      | star run hp =>
        injection hq with _ hq; subst hq
        exact Glob.star (c :: run) hp
      | nil => simp at hq
      | any => simp at hq
      | lit h1 h2 _ _ => injection hq with hq _; exact absurd hq.symm h2

theorem glob_star_suffix {p s t : List Char} (h : Glob eq ('*' :: p) s) : Glob eq ('*' :: p) (t ++ s) := by
  induction t with
  | nil => exact h
  | cons c t ih => rw [List.cons_append, glob_star_cons]; exact Or.inr ih

theorem glob_cons_plain {d c : Char} {p s : List Char} (h1 : d ≠ '?') (h2 : d ≠ '*') :
    Glob eq (d :: p) (c :: s) ↔ eq c d ∧ Glob eq p s := by
  constructor
  · intro h
    generalize hs : c :: s = s' at h
    cases h with
    | any => exact absurd rfl h1
    | star => exact absurd rfl h2
    | lit _ _ h3 h4 => injection hs with e1 e2; subst e1; subst e2; exact ⟨h3, h4⟩
  · rintro ⟨h3, h4⟩; exact Glob.lit h1 h2 h3 h4

theorem glob_any {c : Char} {p s : List Char} : Glob eq ('?' :: p) (c :: s) ↔ Glob eq p s := by
  constructor
  · intro h
    cases h with
    | any h => exact h
    | lit h1 _ _ _ => exact absurd rfl h1
  · exact Glob.any

theorem glob_nil_cons {c : Char} {s : List Char} : ¬ Glob eq [] (c :: s) := by
  intro h; cases h

/-- A pattern piece without stars takes exactly its length. -/
theorem glob_starless {q p t : List Char} (hq : '*' ∉ q) (h : Glob eq (q ++ p) t) :
    ∃ u v, t = u ++ v ∧ u.length = q.length ∧ Glob eq p v := by
  induction q generalizing t with
  | nil => exact ⟨[], t, rfl, rfl, h⟩
  | cons d q ih =>
    simp at hq
    rw [List.cons_append] at h
    cases h with
    | any h =>
      obtain ⟨u, v, h1, h2, h3⟩ := ih hq.2 h
      exact ⟨_ :: u, v, by rw [h1]; rfl, by simp [h2], h3⟩
    | star => exact absurd rfl hq.1
    | lit _ _ _ h =>
      obtain ⟨u, v, h1, h2, h3⟩ := ih hq.2 h
      exact ⟨_ :: u, v, by rw [h1]; rfl, by simp [h2], h3⟩

/-- A match of a star pattern is a match of the rest on some suffix. -/
theorem glob_star_iff {p s : List Char} : Glob eq ('*' :: p) s ↔ ∃ u v, s = u ++ v ∧ Glob eq p v := by
  constructor
  · intro h
    cases h with
    | star run hp => exact ⟨run, _, rfl, hp⟩
    | lit _ h2 _ _ => exact absurd rfl h2
  · rintro ⟨u, v, h1, h2⟩; rw [h1]; exact Glob.star u h2

theorem skipStars_iff (p : List Char) : (skipStars p).isEmpty = true ↔ Glob eq p [] := by
  induction p with
  | nil => simp [skipStars]; exact Glob.nil
  | cons d p ih =>
    by_cases hd : d = '*'
    · subst hd; rw [skipStars, glob_star_nil]; exact ih
    · rw [skipStars]
      · simp only [List.isEmpty_cons, Bool.false_eq_true, false_iff]
        intro h
        generalize hs : ([] : List Char) = s at h
        cases h with
        | star => exact absurd rfl hd
        | any => simp at hs
        | lit => simp at hs
      · intro x hx; injection hx with hx _; exact hd hx

/-! ### The loop invariant -/

/-- What is still possible in a state: match from here, or move the last star one further. -/
def Possible (eq : Char → Char → Prop) (st : St) : Prop :=
  Glob eq st.p st.s ∨ ∃ ss pp, st.star = some (ss, pp) ∧ Glob eq ('*' :: pp) ss.tail

/-- Since the last star, a star-free piece of the pattern was matched. -/
def Inv (st : St) : Prop :=
  ∀ ss pp, st.star = some (ss, pp) →
    ∃ q u, '*' ∉ q ∧ pp = q ++ st.p ∧ ss = u ++ st.s ∧ u.length = q.length

/-- If the alternatives of an earlier star match, so does the later star met now. -/
theorem later_star {ss pp q u p s : List Char} (hq : '*' ∉ q) (hp : pp = q ++ '*' :: p) (hs : ss = u ++ s)
    (hl : u.length = q.length) (h : Glob eq ('*' :: pp) ss.tail) : Glob eq ('*' :: p) s := by
  obtain ⟨x, y, h1, h2⟩ := glob_star_iff.1 h
  rw [hp] at h2
  obtain ⟨u', v, h3, h4, h5⟩ := glob_starless hq h2
  -- v is a suffix of s
  have hsuf : v <:+ s := by
    have e : ss.tail = (x ++ u') ++ v := by rw [h1, h3, List.append_assoc]
    have h6 : v <:+ ss := by
      rw [← List.drop_one] at e
      exact (e ▸ List.suffix_append _ _ : v <:+ ss.drop 1).trans (List.drop_suffix 1 ss)
    have h7 : s <:+ ss := hs ▸ List.suffix_append _ _
    have hlen : v.length ≤ s.length := by
      have := congrArg List.length e
      simp [hs] at this
      omega
    exact List.suffix_of_suffix_length_le h6 h7 hlen
  obtain ⟨t, ht⟩ := hsuf
  rw [← ht]
  exact glob_star_suffix h5

/-- At the end of the subject the earlier star has no alternative left. -/
theorem no_alternative {ss pp q u p : List Char} (hq : '*' ∉ q) (hp : pp = q ++ p) (hs : ss = u)
    (hl : u.length = q.length) (hne : ss ≠ []) (h : Glob eq ('*' :: pp) ss.tail) : False := by
  obtain ⟨x, y, h1, h2⟩ := glob_star_iff.1 h
  rw [hp] at h2
  obtain ⟨u', v, h3, h4, _⟩ := glob_starless hq h2
  have := congrArg List.length h1
  rw [h3] at this
  cases ss with
  | nil => exact hne rfl
  | cons a b =>
    subst hs
    simp at this hl
    omega

/-- The length of the text at the last star, `big` before any star. -/
def starLen (big : Nat) (st : St) : Nat :=
  match st.star with
  | none => big
  | some (ss, _) => ss.length

/-- Everything the proof carries along. -/
structure Good (big : Nat) (st : St) : Prop where
  inv : Inv st
  sub : ∀ ss pp, st.star = some (ss, pp) → ss ≠ []
  bound : st.s.length < big

theorem run_mono (b : Bool) (n : Nat) (st : St) (r : Bool) (h : run b n st = some r) (m : Nat) (hm : n ≤ m) :
    run b m st = some r := by
  induction n generalizing st m with
  | zero => simp [run] at h
  | succ n ih =>
    cases m with
    | zero => omega
    | succ m =>
      rw [run] at h ⊢
      cases hs : step b st with
      | inl x => rw [hs] at h; simpa using h
      | inr o =>
        rw [hs] at h
        cases o with
        | none => simp at h
        | some st' => exact ih st' h m (by omega)

/-- The loop reaches an answer, and the answer is whether anything is still possible. -/
theorem run_correct (b : Bool) (big : Nat) (st : St) (hg : Good big st) :
    ∃ n r, run b n st = some r ∧ (r = true ↔ Possible (CharEq b) st) := by
  -- prove the two conclusions by describing one step
  cases hs : st.s with
  | nil =>
    refine ⟨1, (skipStars st.p).isEmpty, by simp [run, step, hs], ?_⟩
    rw [skipStars_iff (eq := CharEq b)]
    constructor
    · intro h; left; rw [hs]; exact h
    · rintro (h | ⟨ss, pp, h1, h2⟩)
      · rw [hs] at h; exact h
      · exfalso
        obtain ⟨q, u, hq, hp, hss, hl⟩ := hg.inv ss pp h1
        rw [hs, List.append_nil] at hss
        exact no_alternative hq hp hss hl (hg.sub ss pp h1) h2
  | cons c s =>
    -- the mismatch case, shared
    have hback : ¬ Glob (CharEq b) st.p st.s →
        (step b st = back st) →
        ∃ n r, run b n st = some r ∧ (r = true ↔ Possible (CharEq b) st) := by
      intro hno hstep
      cases hst : st.star with
      | none =>
        refine ⟨1, false, by simp [run, hstep, back, hst], ?_⟩
        simp only [Bool.false_eq_true, false_iff]
        rintro (h | ⟨ss, pp, h1, _⟩)
        · exact hno h
        · rw [hst] at h1; simp at h1
      | some sp =>
        obtain ⟨ss, pp⟩ := sp
        cases ss with
        | nil => exact absurd rfl (hg.sub [] pp hst)
        | cons a ss =>
          have hstep : step b st = .inr (some { s := ss, p := pp, star := some (ss, pp) }) := by
            rw [hstep]; simp [back, hst]
          cases hss : ss with
          | nil =>
            -- the subject is exhausted after the move
            refine ⟨2, (skipStars pp).isEmpty, ?_, ?_⟩
            · rw [run, hstep]; simp [run, hss, step]
            · rw [skipStars_iff (eq := CharEq b)]
              constructor
              · intro h; right; exact ⟨a :: ss, pp, hst, by rw [List.tail_cons, hss]; exact glob_star_nil.2 h⟩
              · rintro (h | ⟨ss', pp', h1, h2⟩)
                · exact absurd h hno
                · rw [hst] at h1; simp at h1
                  obtain ⟨h3, h4⟩ := h1
                  rw [← h3, ← h4, List.tail_cons, hss] at h2
                  exact glob_star_nil.1 h2
          | cons a' ss' =>
            obtain ⟨q, u, hq, hp, hu, hl⟩ := hg.inv _ _ hst
            have hg' : Good (ss.length + 1) { s := ss, p := pp, star := some (ss, pp) } := by
              refine ⟨?_, ?_, by simp⟩
              · intro ss1 pp1 h
                simp at h
                exact ⟨[], [], by simp, by simp [h.2], by simp [h.1], rfl⟩
              · intro ss1 pp1 h
                simp at h; rw [← h.1, hss]; simp
            obtain ⟨n, r, hr, hiff⟩ := run_correct b (ss.length + 1) { s := ss, p := pp, star := some (ss, pp) } hg'
            refine ⟨n + 1, r, by rw [run, hstep]; exact hr, hiff.trans ?_⟩
            constructor
            · rintro (h | ⟨ss1, pp1, h1, h2⟩)
              · right; exact ⟨a :: ss, pp, hst, by rw [List.tail_cons, hss, glob_star_cons]; left; rw [hss] at h; exact h⟩
              · simp at h1
                right; refine ⟨a :: ss, pp, hst, ?_⟩
                rw [List.tail_cons, hss, glob_star_cons]; right
                rw [← h1.1, ← h1.2, hss, List.tail_cons] at h2; exact h2
            · rintro (h | ⟨ss1, pp1, h1, h2⟩)
              · exact absurd h hno
              · rw [hst] at h1; simp at h1
                rw [← h1.1, ← h1.2, List.tail_cons, hss, glob_star_cons] at h2
                rcases h2 with h2 | h2
                · left; show Glob (CharEq b) pp ss; rw [hss]; exact h2
                · right; exact ⟨ss, pp, rfl, by rw [hss]; exact h2⟩
    cases hp : st.p with
    | nil =>
      refine hback ?_ ?_
      · rw [hs, hp]; exact glob_nil_cons
      · unfold step; rw [hs, hp]
    | cons d p =>
      by_cases hd1 : d = '?'
      · -- one character
        have hstep : step b st = .inr (some { st with s := s, p := p }) := by
          unfold step; rw [hs, hp]; simp [hd1]
        have hg' : Good big { st with s := s, p := p } := by
          refine ⟨?_, hg.sub, by have := hg.bound; rw [hs] at this; simp at this ⊢; omega⟩
          intro ss pp h
          obtain ⟨q, u, hq, hpp, hu, hl⟩ := hg.inv ss pp h
          refine ⟨q ++ ['?'], u ++ [c], by simp [hq], ?_, ?_, by simp [hl]⟩
          · rw [hpp, hp, hd1]; simp
          · rw [hu, hs]; simp
        obtain ⟨n, r, hr, hiff⟩ := run_correct b big { st with s := s, p := p } hg'
        refine ⟨n + 1, r, by rw [run, hstep]; exact hr, hiff.trans ?_⟩
        unfold Possible
        rw [hs, hp, hd1]
        simp only [glob_any]
      · by_cases hd2 : d = '*'
        · have hstep : step b st = .inr (some { st with p := p, star := some (c :: s, p) }) := by
            unfold step; rw [hs, hp]; simp [hd2]
          have hg' : Good big { st with p := p, star := some (c :: s, p) } := by
            refine ⟨?_, ?_, hg.bound⟩
            · intro ss pp h
              simp at h
              exact ⟨[], [], by simp, by simp [h.2], by simp [← h.1, hs], rfl⟩
            · intro ss pp h
              simp at h; rw [← h.1]; simp
          obtain ⟨n, r, hr, hiff⟩ := run_correct b big { st with p := p, star := some (c :: s, p) } hg'
          refine ⟨n + 1, r, by rw [run, hstep]; exact hr, hiff.trans ?_⟩
          unfold Possible
          rw [hs, hp, hd2]
          constructor
          · rintro (h | ⟨ss, pp, h1, h2⟩)
            · left; rw [glob_star_cons]; left; simpa [hs] using h
            · simp at h1
              left; rw [glob_star_cons]; right
              rw [← h1.1, ← h1.2, List.tail_cons] at h2; exact h2
          · intro h
            have hstar : Glob (CharEq b) ('*' :: p) (c :: s) := by
              rcases h with h | ⟨ss, pp, h1, h2⟩
              · exact h
              · obtain ⟨q, u, hq, hpp, hu, hl⟩ := hg.inv ss pp h1
                rw [hp, hd2] at hpp
                rw [hs] at hu
                exact later_star hq hpp hu hl h2
            rcases glob_star_cons.1 hstar with h | h
            · left; simpa [hs] using h
            · right; exact ⟨c :: s, p, rfl, h⟩
        · by_cases hc : same b c d = true
          · have hstep : step b st = .inr (some { st with s := s, p := p }) := by
              unfold step; rw [hs, hp]; simp [hd1, hd2, hc]
            have hg' : Good big { st with s := s, p := p } := by
              refine ⟨?_, hg.sub, by have := hg.bound; rw [hs] at this; simp at this ⊢; omega⟩
              intro ss pp h
              obtain ⟨q, u, hq, hpp, hu, hl⟩ := hg.inv ss pp h
              refine ⟨q ++ [d], u ++ [c], by simp [hq, Ne.symm hd2], ?_, ?_, by simp [hl]⟩
              · rw [hpp, hp]; simp
              · rw [hu, hs]; simp
            obtain ⟨n, r, hr, hiff⟩ := run_correct b big { st with s := s, p := p } hg'
            refine ⟨n + 1, r, by rw [run, hstep]; exact hr, hiff.trans ?_⟩
            unfold Possible
            rw [hs, hp]
            simp only [glob_cons_plain hd1 hd2, (same_iff b c d).1 hc, true_and]
          · refine hback ?_ ?_
            · rw [hs, hp, glob_cons_plain hd1 hd2]
              intro h; exact hc ((same_iff b c d).2 h.1)
            · unfold step; rw [hs, hp]; simp [hd1, hd2, hc]
termination_by (starLen (big + 1) st, st.s.length, st.p.length)
decreasing_by
  all_goals simp_wf
  · rw [Prod.lex_def]; left; simp [starLen, hst]
  · rw [Prod.lex_def]; right
    refine ⟨rfl, ?_⟩
    rw [Prod.lex_def]; left; simp [hs]
  · rw [Prod.lex_def]
    cases hst : st.star with
    | none =>
      left
      have := hg.bound
      rw [hs] at this
      simp [starLen, hst] at this ⊢; omega
    | some sp =>
      obtain ⟨ss, pp⟩ := sp
      obtain ⟨q, u, hq, hpp, hu, hl⟩ := hg.inv ss pp hst
      have e : ss.length = u.length + (s.length + 1) := by rw [hu, hs]; simp
      by_cases h0 : u.length = 0
      · right
        refine ⟨by simp [starLen, hst]; omega, ?_⟩
        rw [Prod.lex_def]; right; exact ⟨rfl, by simp [hp]⟩
      · left; simp [starLen, hst]; omega
  · rw [Prod.lex_def]; right
    refine ⟨rfl, ?_⟩
    rw [Prod.lex_def]; left; simp [hs]

/-! ### C10 -/

/-- **C10.** The built-in wildcard matcher always terminates with an answer, without reading past
the subject, and the answer is whether the subject splits along the pattern. -/
theorem C10_wildcard (caseless : Bool) (pattern subject : List Char) :
    ∃ n r, (∀ m, n ≤ m → run caseless m (start pattern subject) = some r) ∧
      (r = true ↔ Glob (CharEq caseless) pattern subject) := by
  obtain ⟨n, r, h1, h2⟩ := run_correct caseless (subject.length + 1) (start pattern subject)
    ⟨by intro ss pp h; simp [start] at h, by intro ss pp h; simp [start] at h, by simp [start]⟩
  refine ⟨n, r, fun m hm => run_mono _ _ _ _ h1 m hm, h2.trans ?_⟩
  simp [Possible, start]

/-! ### The hypotheses are met -/

/-- A pattern that needs the star to move twice. -/
example : run false 100 (start "a*bc?d*".toList "axbcbcxdz".toList) = some true := by decide
example : Glob (CharEq false) "a*bc?d*".toList "axbcbcxdz".toList :=
  .lit (by decide) (by decide) rfl (.star "xbc".toList (.lit (by decide) (by decide) rfl
    (.lit (by decide) (by decide) rfl (.any (.lit (by decide) (by decide) rfl
      (.star "z".toList .nil))))))
example : run true 100 (start "A?*".toList "ab".toList) = some true := by decide
example : run false 100 (start "*ab".toList "abab!".toList) = some false := by decide

end H2.Pattern
