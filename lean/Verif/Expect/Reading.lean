import Verif.Expect.Lemmas
import Verif.Str.Props
namespace H2.Expect.Spec
open H2.Layout (Word Line)
open H2.Message (gray)
open H2.Typed (Ord fit)

/-- A line that reads as `f`, and where it may stand without brackets. -/
structure Level (l : Line) (f : Form) : Prop where
  bal : Bal l
  or : IsOr (toks l) f
  and : hasWord l " or ".toList = false → IsAnd (toks l) f
  unit : hasWord l " or ".toList = false → hasWord l " and ".toList = false → IsUnit (toks l) f

theorem Level.of_unit {l f} (hb : Bal l) (h : IsUnit (toks l) f) : Level l f := ⟨hb, h.and.or, fun _ => h.and, fun _ _ => h⟩

theorem has_append (a b : Line) (w : Word) : hasWord (a ++ b) w = (hasWord a w || hasWord b w) := by
  simp [hasWord]

theorem Level.paren {l f} (h : Level l f) : IsUnit (toks (paren l)) f := by
  rw [toks_paren _ h.bal]; exact unit_paren h.or

/-- `fit` -/
theorem fit_eq (n b : Bool) : fit n b = if n then !b else b := by cases n <;> cases b <;> rfl

/-! ### Stars -/

/-- So many signs `*`. -/
def stars (k : Nat) : Line := List.replicate k ['*']

theorem bal_stars (k : Nat) : Bal (stars k) := by
  induction k with
  | zero => exact bal_nil
  | succ k ih => exact bal_append (a := [['*']]) (by decide) ih

theorem has_stars (k : Nat) (l : Line) (w : Word) (hw : w ≠ ['*']) : hasWord (stars k ++ l) w = hasWord l w := by
  rw [has_append]
  have : hasWord (stars k) w = false := by
    simp only [hasWord, stars, List.any_replicate]
    split
    · rfl
    · simp [Ne.symm hw]
  rw [this, Bool.false_or]

/-- A form under so many signs `*`. -/
def starred : Nat → Form → Form
  | 0, f => f
  | k + 1, f => .spaceless (starred k f)

theorem unit_stars {l f} (h : IsUnit (toks l) f) : ∀ k, IsUnit (toks (stars k ++ l)) (starred k f)
  | 0 => h
  | k + 1 => by
    show IsUnit (toks ([['*']] ++ (stars k ++ l))) _
    rw [toks_sign _ _ (by decide) (by decide) (by decide)]
    exact unit_spaceless (unit_stars h k)

theorem holds_stars {E ci f a} : ∀ k v, Holds E ci v (starred k f) a ↔ Holds E ci (if k = 0 then v else true) f a
  | 0, v => Iff.rfl
  | k + 1, v => by
    rw [starred, Holds, holds_stars k]
    cases k <;> simp

/-- A line that says `P` with any number of `*` before it, if `sq` there may be some, and whether or not it stands in
the scope of one. -/
def Good (E : Env) (l : Line) (sq : Bool) (P : Val → Prop) : Prop :=
  ∀ k, (k ≠ 0 → sq = true) → ∃ f, Level (stars k ++ l) f ∧ ∀ v, (v = true → sq = true) → ∀ a, Holds E false v f a ↔ P a

theorem Good.one {E l sq P} (h : Good E l sq P) :
    ∃ f, Level l f ∧ ∀ v, (v = true → sq = true) → ∀ a, Holds E false v f a ↔ P a :=
  h 0 (by simp)

theorem good_unit {E l f sq} {P : Val → Prop} (hb : Bal l) (h : IsUnit (toks l) f)
    (hP : ∀ v, (v = true → sq = true) → ∀ a, Holds E false v f a ↔ P a) : Good E l sq P := by
  intro k hk
  refine ⟨starred k f, Level.of_unit (bal_append (bal_stars k) hb) (unit_stars h k), fun v hv a => ?_⟩
  rw [holds_stars]
  refine hP _ ?_ a
  cases k with
  | zero => simpa using hv
  | succ k => intro _; exact hk (by simp)

/-- Signs before a part. -/
def preForm (n ci sq : Bool) (f : Form) : Form :=
  let f := if sq then .spaceless f else f
  let f := if ci then .caseless f else f
  if n then .neg f else f

theorem bal_pre (c : C) (ns : Char) (hq : ns ≠ '"') : Bal (pre c [ns]) := by
  have h1 : Bal [[ns]] := by
    rw [Bal, str_word _ (by simp [Layout.isctrl])]
    exact even_free (by simpa using hq)
  refine bal_append (bal_append ?_ ?_) ?_
  · split <;> first | exact h1 | exact bal_nil
  · split <;> decide
  · split <;> decide

theorem unit_pre {l f} (c : C) (ns : Char) (hns : ns = '!' ∨ ns = '≠') (hbare : c.bare = false) (h : IsUnit (toks l) f) :
    IsUnit (toks (pre c [ns] ++ l)) (preForm c.neg c.ci c.sq f) := by
  obtain ⟨b, n, ci, sq⟩ := c
  simp only at hbare
  subst hbare
  have h1 : IsUnit (toks ((if sq then [['*']] else []) ++ l)) (if sq then .spaceless f else f) := by
    cases sq
    · exact h
    · simp only [if_true]
      rw [toks_sign _ _ (by decide) (by decide) (by decide)]; exact unit_spaceless h
  have h2 : IsUnit (toks ((if ci then [['~']] else []) ++ ((if sq then [['*']] else []) ++ l)))
      (if ci then .caseless (if sq then .spaceless f else f) else (if sq then .spaceless f else f)) := by
    cases ci
    · exact h1
    · simp only [if_true]
      rw [toks_sign _ _ (by decide) (by decide) (by decide)]; exact unit_caseless h1
  simp only [pre, preForm, List.append_assoc]
  cases n
  · exact h2
  · simp only [Bool.not_false, Bool.true_and, if_true]
    rw [toks_sign _ _ (by rcases hns with rfl | rfl <;> decide) (by rcases hns with rfl | rfl <;> decide)
      (by rcases hns with rfl | rfl <;> decide)]
    exact unit_neg hns h2

theorem good_pre {E l f} {b : Val → Bool} (c : C) (ns : Char) (hns : ns = '!' ∨ ns = '≠') (hbare : c.bare = false) (hb : Bal l)
    (h : IsUnit (toks l) f) (hP : ∀ a, Holds E c.ci c.sq f a ↔ b a = true) :
    Good E (pre c [ns] ++ l) c.sq (fun a => fit c.neg (b a) = true) := by
  refine good_unit (bal_append (bal_pre c ns (by rcases hns with rfl | rfl <;> decide)) hb) (unit_pre c ns hns hbare h) ?_
  intro v hv a
  have key : Holds E false v (preForm false c.ci c.sq f) a ↔ b a = true := by
    rw [← hP a]
    cases hs : c.sq
    · have : v = false := by
        cases v
        · rfl
        · rw [hs] at hv; exact absurd (hv rfl) (by decide)
      subst this
      cases c.ci <;> simp [preForm, Holds]
    · cases c.ci <;> simp [preForm, Holds]
  cases hn : c.neg
  · rw [fit_eq]; simpa using key
  · rw [fit_eq]
    have e : preForm true c.ci c.sq f = .neg (preForm false c.ci c.sq f) := by simp [preForm]
    rw [e, Holds, key]
    cases b a <;> simp

/-- The left side of `and`. -/
theorem good_left {E l sq P} (h : Good E l sq P) (k : Nat) (hk : k ≠ 0 → sq = true) :
    ∃ f, Bal (stars k ++ (if hasWord l " or ".toList then paren l else l)) ∧
      IsAnd (toks (stars k ++ (if hasWord l " or ".toList then paren l else l))) f ∧
      ∀ v, (v = true → sq = true) → ∀ a, Holds E false v f a ↔ P a := by
  split
  · obtain ⟨f, h1, h2⟩ := h.one
    obtain ⟨g, k1, k2⟩ := good_unit (bal_paren h1.bal) h1.paren h2 k hk
    have hu : IsUnit (toks (stars k ++ paren l)) (starred k f) := unit_stars h1.paren k
    refine ⟨starred k f, k1.bal, hu.and, fun v hv a => ?_⟩
    rw [holds_stars]
    refine h2 _ ?_ a
    cases k with
    | zero => simpa using hv
    | succ k => intro _; exact hk (by simp)
  · rename_i hw
    obtain ⟨f, h1, h2⟩ := h k hk
    exact ⟨f, h1.bal, h1.and (by rw [has_stars _ _ _ (by decide)]; simpa using hw), h2⟩

/-- The number of signs `*` before a line. -/
def one (sq : Bool) : Nat := if sq then 1 else 0

theorem pre_stars (c : C) (ns : Word) (hn : c.neg = false) : pre { c with ci := false } ns = stars (one c.sq) := by
  cases h : c.sq <;> simp [pre, hn, h, stars, one]

theorem stars_add (j k : Nat) (l : Line) : stars j ++ (stars k ++ l) = stars (j + k) ++ l := by
  simp [stars, ← List.append_assoc]

theorem one_ok {k sq} (hk : k ≠ 0 → sq = true) : k + one sq ≠ 0 → sq = true := by
  cases sq
  · simpa [one] using hk
  · simp

theorem good_and {E sl sr} {bl br : Val → Bool} (c : C) (hbare : c.bare = false) (hl : Good E sl c.sq (fun a => bl a = true))
    (hr : Good E sr c.sq (fun a => br a = true)) :
    Good E (andText c sl sr) c.sq (fun a => fit c.neg (bl a && br a) = true) := by
  have hand : ∀ c ∈ "and".toList, letter c = true := by decide
  have hw : " and ".toList = ' ' :: "and".toList ++ [' '] := by decide
  obtain ⟨g, gb, gu, gv⟩ : ∃ g, Bal (if hasWord sr " and ".toList || hasWord sr " or ".toList then paren sr else sr) ∧
      IsUnit (toks (if hasWord sr " and ".toList || hasWord sr " or ".toList then paren sr else sr)) g ∧
      ∀ v, (v = true → c.sq = true) → ∀ a, Holds E false v g a ↔ br a = true := by
    obtain ⟨g, k1, k2⟩ := hr.one
    split
    · exact ⟨g, bal_paren k1.bal, k1.paren, k2⟩
    · rename_i h
      rw [Bool.or_eq_true, not_or] at h
      exact ⟨g, k1.bal, k1.unit (by simpa using h.2) (by simpa using h.1), k2⟩
  have side : ∀ k, (k ≠ 0 → c.sq = true) → ∃ f,
      Bal (stars k ++ ((if hasWord sl " or ".toList then paren sl else sl) ++ [" and ".toList] ++
        (if hasWord sr " and ".toList || hasWord sr " or ".toList then paren sr else sr))) ∧
      IsAnd (toks (stars k ++ ((if hasWord sl " or ".toList then paren sl else sl) ++ [" and ".toList] ++
        (if hasWord sr " and ".toList || hasWord sr " or ".toList then paren sr else sr)))) f ∧
      ∀ v, (v = true → c.sq = true) → ∀ a, Holds E false v f a ↔ (bl a && br a) = true := by
    intro k hk
    obtain ⟨f, fb, fa, fv⟩ := good_left hl k hk
    refine ⟨.and f g, ?_, ?_, fun v hv a => ?_⟩
    · rw [← List.append_assoc, ← List.append_assoc]
      exact bal_append (bal_append fb (by decide)) gb
    · have hs := and_and fa gu
      rw [← toks_infix _ _ _ fb hand (by decide), ← hw] at hs
      rw [← List.append_assoc, ← List.append_assoc]
      exact hs
    · rw [Holds, fv v hv, gv v hv, Bool.and_eq_true]
  unfold andText
  by_cases hn : c.neg = true
  case neg =>
    have hn' : c.neg = false := by simpa using hn
    intro k hk
    obtain ⟨f, fb, fa, fv⟩ := side (k + one c.sq) (one_ok hk)
    refine ⟨f, ?_, fun v hv a => by rw [fv v hv]; simp [fit_eq, hn']⟩
    dsimp only
    rw [if_neg hn, pre_stars c _ hn', stars_add]
    refine ⟨fb, fa.or, fun _ => fa, fun _ h => ?_⟩
    rw [has_stars _ _ _ (by decide)] at h
    simp [has_append, hasWord] at h
  case pos =>
    obtain ⟨f, fb, fa, fv⟩ := side 0 (by simp)
    dsimp only
    rw [if_pos hn]
    have := good_pre (E := E) (b := fun a => bl a && br a) { c with ci := false } '!' (.inl rfl) hbare (bal_paren fb)
      (by rw [toks_paren _ fb]; exact unit_paren fa.or) (fun a => fv c.sq id a)
    exact this

theorem good_or {E sl sr} {bl br : Val → Bool} (c : C) (hbare : c.bare = false) (hl : Good E sl c.sq (fun a => bl a = true))
    (hr : Good E sr c.sq (fun a => br a = true)) :
    Good E (orText c sl sr) c.sq (fun a => fit c.neg (bl a || br a) = true) := by
  have hor : ∀ c ∈ "or".toList, letter c = true := by decide
  have hw : " or ".toList = ' ' :: "or".toList ++ [' '] := by decide
  obtain ⟨g, gb, gu, gv⟩ := good_left hr 0 (by simp)
  have side : ∀ k, (k ≠ 0 → c.sq = true) → ∃ f,
      Bal (stars k ++ (sl ++ [" or ".toList] ++ (if hasWord sr " or ".toList then paren sr else sr))) ∧
      IsOr (toks (stars k ++ (sl ++ [" or ".toList] ++ (if hasWord sr " or ".toList then paren sr else sr)))) f ∧
      ∀ v, (v = true → c.sq = true) → ∀ a, Holds E false v f a ↔ (bl a || br a) = true := by
    intro k hk
    obtain ⟨f, fl, fv⟩ := hl k hk
    refine ⟨.or f g, ?_, ?_, fun v hv a => ?_⟩
    · rw [← List.append_assoc, ← List.append_assoc]
      exact bal_append (bal_append fl.bal (by decide)) gb
    · have hs := or_or fl.or gu
      have e : toks (stars k ++ sl ++ [' ' :: "or".toList ++ [' ']] ++ (stars 0 ++ (if hasWord sr " or ".toList then paren sr else sr))) =
          _ := toks_infix (stars k ++ sl) _ _ fl.bal hor (by decide)
      rw [← e, ← hw] at hs
      rw [← List.append_assoc, ← List.append_assoc]
      exact hs
    · rw [Holds, fv v hv, gv v hv, Bool.or_eq_true]
  unfold orText
  by_cases hn : c.neg = true
  case neg =>
    have hn' : c.neg = false := by simpa using hn
    intro k hk
    obtain ⟨f, fb, fa, fv⟩ := side (k + one c.sq) (one_ok hk)
    refine ⟨f, ?_, fun v hv a => by rw [fv v hv]; simp [fit_eq, hn']⟩
    dsimp only
    rw [if_neg hn, pre_stars c _ hn', stars_add]
    refine ⟨fb, fa, fun h => ?_, fun h => ?_⟩ <;>
    · rw [has_stars _ _ _ (by decide)] at h
      simp [has_append, hasWord] at h
  case pos =>
    obtain ⟨f, fb, fa, fv⟩ := side 0 (by simp)
    dsimp only
    rw [if_pos hn]
    have := good_pre (E := E) (b := fun a => bl a || br a) { c with ci := false } '!' (.inl rfl) hbare (bal_paren fb)
      (by rw [toks_paren _ fb]; exact unit_paren fa) (fun a => fv c.sq id a)
    exact this

theorem good_call {E l fs} {b : Val → Bool} (c : C) (hbare : c.bare = false) (w : Word) (hl : Bal l) (h : IsArgs (toks l) fs)
    (hw : ∀ c ∈ w, letter c = true) (hne : w ≠ []) (hi : intOf w = none)
    (hn : w ≠ "Any".toList ∧ w ≠ "true".toList ∧ w ≠ "false".toList) (hP : ∀ a, Holds E c.ci c.sq (.call w fs) a ↔ b a = true) :
    Good E (callText c w l) c.sq (fun a => fit c.neg (b a) = true) := by
  unfold callText
  rw [List.append_assoc]
  refine good_pre c '!' (.inl rfl) hbare (bal_append (bal_word hw) (bal_paren hl)) ?_ hP
  rw [toks_call w l hl hw hne]
  exact unit_call h hi hn

theorem good_list {E l fs} {b : Val → Bool} (c : C) (hbare : c.bare = false) (hl : Bal l) (h : IsArgs (toks l) fs)
    (hP : ∀ a, Holds E c.ci c.sq (.list fs) a ↔ b a = true) :
    Good E (pre c ['!'] ++ gray ['['] ++ l ++ gray [']']) c.sq (fun a => fit c.neg (b a) = true) := by
  rw [List.append_assoc, List.append_assoc]
  refine good_pre c '!' (.inl rfl) hbare (bal_append (by decide) (bal_append hl (by decide))) ?_ hP
  rw [← List.append_assoc, toks_list _ hl]
  exact unit_list h

/-- One argument. -/
theorem args_one {l f} (h : Level l f) : IsArgs (toks l) (.cons f .nil) := by
  have := args_cons h.or more_nil (.inl rfl)
  simpa using this

theorem unit_num (z : Int) : IsUnit (toks (number z)) (.rel .eq z) := by
  rw [toks_number]; exact unit_number (intOf_decimal z)

theorem level_number (z : Int) : Level (number z) (.rel .eq z) := Level.of_unit (bal_number z) (unit_num z)

/-- The relation of an order matcher. -/
def relOrd : Ord → Rel
  | .ge => .ge
  | .gt => .gt
  | .le => .le
  | .lt => .lt

theorem level_ord (o : Ord) (z : Int) : IsUnit (toks ([sign o] ++ number z)) (.rel (relOrd o) z) := by
  cases o <;>
  · rw [sign, toks_sign _ _ (by decide) (by decide) (by decide), toks_number]
    exact unit_rel rfl (intOf_decimal z) (by decide)

/-- The arguments of a matcher of the user. -/
def numForms : List Int → Forms
  | [] => .nil
  | z :: zs => .cons (.rel .eq z) (numForms zs)

theorem numForms_numbers (zs : List Int) : (numForms zs).numbers = some zs := by
  induction zs with
  | nil => rfl
  | cons z zs ih => simp [numForms, Forms.numbers, ih]

theorem args_more : ∀ (zs : List Int) (z : Int), IsMore (toks ([] ++ (gray ", ".toList ++ argsText (z :: zs)))) (numForms (z :: zs))
  | [], z => by
    rw [toks_comma _ _ bal_nil]
    have := more_cons (us := []) (level_number z).or more_nil (.inl rfl)
    rw [List.append_nil] at this
    exact this
  | y :: zs, z => by
    have ih := args_more zs y
    rw [toks_comma _ _ bal_nil] at ih ⊢
    have e : argsText (z :: y :: zs) = number z ++ (gray ", ".toList ++ argsText (y :: zs)) := by simp [argsText]
    rw [e, toks_comma _ _ (bal_number z)]
    have := more_cons (level_number z).or ih (.inr ⟨_, rfl⟩)
    exact this

theorem args_user (zs : List Int) : IsArgs (toks (argsText zs)) (numForms zs) := by
  cases zs with
  | nil => exact args_nil
  | cons z zs =>
    cases zs with
    | nil => exact args_one (level_number z)
    | cons y zs =>
      have e : argsText (z :: y :: zs) = number z ++ (gray ", ".toList ++ argsText (y :: zs)) := by simp [argsText]
      have := args_more zs y
      rw [e, toks_comma _ _ (bal_number z)]
      rw [toks_comma _ _ bal_nil] at this
      exact args_cons (level_number z).or this (.inr ⟨_, rfl⟩)


/-- The text of a matcher as an operand or elsewhere. -/
def shown (op : Bool) (m : Mx) (c : C) : Line := if op then operand m c (expect m c) else expect m c

theorem cmp_iff (o : Ord) (a : Val) (z : Int) : (relOrd o).Of a z ↔ a.cmp o z = true := by
  cases o <;> cases a <;> simp [Val.cmp, Ord.ints, relOrd, Rel.Of]

theorem none_any (E : Env) : ∀ (ms : Ms) (a : Val) (c : C), noneFit E ms a c = !anyFit E ms a c
  | .nil, _, _ => rfl
  | .cons m ms, a, c => by simp [noneFit, anyFit, none_any E ms a c]

theorem is_iff (a : Val) (z : Int) : Rel.Of .eq a z ↔ a.is z = true := by
  cases a <;> simp [Rel.Of, Val.is]

/-! ### Texts -/

theorem lower_eq (s : Word) : Str.lower s = s.map Char.toLower := rfl

theorem same_iff (ci sq : Bool) (s : Word) (a : Val) :
    (∃ t, a = .text t ∧ norm ci sq t = norm ci sq s) ↔ a.same ci sq s = true := by
  cases a with
  | text t =>
    simp only [Val.text.injEq, exists_eq_left', Val.same, Str.strTest, norm, Str.equals, lower_eq]
    cases ci <;> cases sq <;> simp
  | num z => simp [Val.same]
  | seq z => simp [Val.same]
  | pair x y => simp [Val.same]

theorem same_squash (ci sq : Bool) (s : Word) (a : Val) :
    (∃ t, a = .text t ∧ norm ci sq t = norm ci sq (if sq then Str.squash s else s)) ↔ a.same ci sq s = true := by
  rw [← same_iff]
  cases sq
  · simp
  · simp [norm, Str.C09_squash_idempotent]

theorem squash_plain {s : Word} (h : Plain s) : Plain (Str.squash s) := by
  have key : ∀ (s : Word) q1 q2 n, ∀ c ∈ Str.squashLoop false s q1 q2 n, c = ' ' ∨ c ∈ s := by
    intro s
    induction s with
    | nil => intro q1 q2 n c hc; simp [Str.squashLoop] at hc
    | cons d s ih =>
      intro q1 q2 n c hc
      have one : ∀ {q1 q2 n}, c ∈ (if Str.isBlank d then ' ' else d) :: Str.squashLoop false s q1 q2 n → c = ' ' ∨ c ∈ d :: s := by
        intro q1 q2 n h
        rw [List.mem_cons] at h
        rcases h with h | h
        · split at h
          · exact .inl h
          · exact .inr (by simp [h])
        · rcases ih _ _ _ _ h with h | h
          · exact .inl h
          · exact .inr (by simp [h])
      unfold Str.squashLoop at hc
      dsimp only at hc
      by_cases h1 : (!(if (!false && (if Str.isBlank d then ' ' else d) == '\'') then !q1 else q1) &&
          !(if (!false && (if Str.isBlank d then ' ' else d) == '"') then !q2 else q2) && (if Str.isBlank d then ' ' else d) == ' ') = true
      · rw [if_pos h1] at hc
        by_cases h2 : (if (if Str.isBlank d then ' ' else d) ≠ ' ' then 0 else n) ≠ 0
        · rw [if_pos h2] at hc
          rcases ih _ _ _ _ hc with h | h
          · exact .inl h
          · exact .inr (by simp [h])
        · rw [if_neg h2] at hc
          exact one hc
      · rw [if_neg h1] at hc
        exact one hc
  have trim : ∀ c ∈ Str.trim s, c ∈ s := by
    intro c hc
    simp only [Str.trim, List.mem_reverse] at hc
    have h1 := (List.dropWhile_sublist _).subset hc
    rw [List.mem_reverse] at h1
    exact (List.dropWhile_sublist _).subset h1
  intro c hc
  rcases key _ _ _ _ c hc with rfl | h'
  · decide
  · exact h c (trim c h')

theorem unit_quoted {s : Word} (h : Plain s) : IsUnit (toks (quoted s)) (.text s) := by
  rw [toks_quoted h]; exact unit_text s

/-- `*` does nothing to a text that is squashed, but for the actual one. -/
theorem norm_squashed (ci sq : Bool) {s : Word} (h : sq = true → Str.squash s = s) : norm ci sq s = norm ci false s := by
  cases sq
  · rfl
  · simp [norm, h rfl]

theorem norm_two (ci sq : Bool) (t : Word) : norm ci sq t = norm ci false (if sq then Str.squash t else t) := by
  cases sq <;> simp [norm]

theorem norm_low (ci : Bool) (t : Word) : norm ci false t = if ci then Str.lower t else t := by
  simp [norm, lower_eq]

theorem strTest_two (k : Str.Kind) (hk : k ≠ .se) (e : Word) (ci sq : Bool) (t : Word) :
    Str.strTest k e ci sq t = Str.strTest k e ci false (if sq then Str.squash t else t) := by
  cases k <;> first | exact absurd rfl hk | (cases sq <;> rfl)

theorem find_rel (k : Str.Kind) (hk : k ≠ .se) (e : Word) (ci sq : Bool) (t : Word) (h : sq = true → Str.squash e = e) :
    Str.strTest k e ci sq t = true ↔ Str.Relation k (norm ci sq e) (norm ci sq t) := by
  rw [strTest_two k hk, Str.strTest_plain, norm_squashed ci sq h, norm_two ci sq t, norm_low, norm_low]

theorem parts_iff (p : Val → Val → Bool) (a : Val) : a.parts p = true ↔ ∃ x y, a = .pair x y ∧ p x y = true := by
  cases a with
  | pair k v =>
    simp only [Val.parts, Val.pair.injEq]
    exact ⟨fun h => ⟨k, v, ⟨rfl, rfl⟩, h⟩, fun ⟨_, _, ⟨h1, h2⟩, h⟩ => by subst h1 h2; exact h⟩
  | _ => simp [Val.parts]

theorem bal_two {l r : Line} (hl : Bal l) (hr : Bal r) : Bal (l ++ gray ", ".toList ++ r) := bal_append (bal_append hl bal_comma) hr

theorem bal_two' {l r : Line} (hl : Bal l) (hr : Bal r) : Bal (l ++ [", ".toList] ++ r) := bal_append (bal_append hl (by decide)) hr

theorem args_two {l r : Line} {f g : Form} (h : Level l f) (k : Level r g) :
    IsArgs (toks (l ++ gray ", ".toList ++ r)) (.cons f (.cons g .nil)) := by
  rw [List.append_assoc, toks_comma _ _ h.bal]
  have := more_cons (us := []) k.or more_nil (.inl rfl)
  rw [List.append_nil] at this
  exact args_cons h.or this (.inr ⟨_, rfl⟩)

theorem args_two' {l r : Line} {f g : Form} (h : Level l f) (k : Level r g) :
    IsArgs (toks (l ++ [", ".toList] ++ r)) (.cons f (.cons g .nil)) := by
  have : toks (l ++ [", ".toList] ++ r) = toks (l ++ gray ", ".toList ++ r) := by
    unfold toks
    rw [str_append, str_append, str_append, str_append, show Message.string [", ".toList] = Message.string (gray ", ".toList) by decide]
  rw [this]
  exact args_two h k

theorem found_iff (E : Env) (c : C) (k : Find) {s : Word} (h : c.sq = true → Squashed k s) (a : Val) :
    Holds E c.ci c.sq (.call k.name (.cons (.text s) .nil)) a ↔ a.found E c k s = true := by
  have hn : k.name ∈ textNames := by cases k <;> decide
  have e : Holds E c.ci c.sq (.call k.name (.cons (.text s) .nil)) a ↔
      ∃ s' t, (Forms.cons (.text s) .nil).text = some s' ∧ a = .text t ∧ Named E c.ci c.sq k.name s' t := by
    rw [Holds, if_neg (by cases k <;> decide), if_neg (by cases k <;> decide), if_neg (by cases k <;> decide),
      if_neg (by cases k <;> decide), if_neg (by cases k <;> decide), if_neg (by cases k <;> decide), if_neg (by cases k <;> decide),
      if_neg (by cases k <;> decide), if_pos hn]
  rw [e]
  have : ∀ t, Named E c.ci c.sq k.name s t ↔ finds E c.ci c.sq k s t = true := by
    intro t
    cases k with
    | substr =>
      have hs : c.sq = true → Str.squash s = s := fun hq => by simpa [Squashed] using h hq
      rw [finds, find_rel _ (by decide) _ _ _ _ hs, Named, if_pos (by decide)]
      constructor
      · rintro ⟨l, r, h⟩; exact ⟨l, r, h.symm⟩
      · rintro ⟨l, r, h⟩; exact ⟨l, r, h.symm⟩
    | startsWith =>
      have hs : c.sq = true → Str.squash s = s := fun hq => by simpa [Squashed] using h hq
      rw [finds, find_rel _ (by decide) _ _ _ _ hs, Named, if_neg (by decide), if_pos (by decide)]
      constructor
      · rintro ⟨r, h⟩; exact ⟨r, h.symm⟩
      · rintro ⟨r, h⟩; exact ⟨r, h.symm⟩
    | endsWith =>
      have hs : c.sq = true → Str.squash s = s := fun hq => by simpa [Squashed] using h hq
      rw [finds, find_rel _ (by decide) _ _ _ _ hs, Named, if_neg (by decide), if_neg (by decide), if_pos (by decide)]
      constructor
      · rintro ⟨r, h⟩; exact ⟨r, h.symm⟩
      · rintro ⟨r, h⟩; exact ⟨r, h.symm⟩
    | we =>
      rw [finds, Named, if_neg (by decide), if_neg (by decide), if_neg (by decide), if_pos (by decide)]
      cases c.sq <;> simp [norm]
    | re =>
      rw [finds, Named, if_neg (by decide), if_neg (by decide), if_neg (by decide), if_neg (by decide)]
      cases c.sq <;> simp [norm]
  cases a with
  | text t => simp [Forms.text, Val.found, this]
  | num z => simp [Val.found]
  | seq z => simp [Val.found]
  | pair x y => simp [Val.found]

/-! ### Matchers -/

theorem good_eq (E : Env) (c : C) (hb : c.bare = false) (z : Int) :
    Good E (eqText c z) c.sq (fun a => fit c.neg (a.is z) = true) :=
  good_pre { c with ci := false } '≠' (.inr rfl) hb (bal_number z) (unit_num z) fun a => is_iff a z

theorem good_se (E : Env) (c : C) (hb : c.bare = false) {s : Word} (h : Plain s) :
    Good E (seText c s) c.sq (fun a => fit c.neg (a.same c.ci c.sq s) = true) := by
  have h' : Plain (if c.sq then Str.squash s else s) := by
    split
    · exact squash_plain h
    · exact h
  exact good_pre c '≠' (.inr rfl) hb (bal_quoted h') (unit_quoted h') fun a => same_squash c.ci c.sq s a

theorem bal_args : ∀ zs, Bal (argsText zs)
  | [] => by decide
  | [z] => bal_number z
  | z :: y :: zs => by
    have e : argsText (z :: y :: zs) = number z ++ (gray ", ".toList ++ argsText (y :: zs)) := by simp [argsText]
    rw [e]
    exact bal_append (bal_number z) (bal_append bal_comma (bal_args (y :: zs)))

theorem shown_other {m : Mx} (op : Bool) (c : C) (h1 : ∀ z, m ≠ .plain z) (h2 : ∀ s, m ≠ .str s) : shown op m c = expect m c := by
  cases op
  · rfl
  · cases m <;> first | rfl | exact absurd rfl (h1 _) | exact absurd rfl (h2 _)

theorem one_iff {E : Env} {sq : Bool} {f : Form} {b : Val → Bool}
    (h : ∀ v, (v = true → sq = true) → ∀ a, Holds E false v f a ↔ b a = true) (a : Val) : Holds E false sq f a ↔ b a = true :=
  h sq id a

mutual
/-- The line of a matcher reads as a form that is true of just what the matcher accepts. -/
theorem reads (E : Env) : ∀ (m : Mx) (c : C) (op : Bool), c.bare = false → Clear m c.neg c.ci c.sq op →
    Good E (shown op m c) c.sq (fun a => fits E m a c = true)
  | .plain z, c, op, hb, h => by
    cases op
    · have h : c.neg = false := by simpa [Clear] using h
      refine good_unit (bal_number z) (unit_num z) fun v _ a => ?_
      rw [fits, h, fit_eq, Holds, is_iff]; simp
    · simp only [fits]
      exact good_eq E c hb z
  | .str s, c, op, hb, h => by
    have h : Plain s ∧ ((c.neg = false ∧ c.ci = false ∧ c.sq = false) ∨ op = true) := h
    cases op
    · have h' : c.neg = false ∧ c.ci = false ∧ c.sq = false := by simpa using h.2
      obtain ⟨h1, h2, h3⟩ := h'
      refine good_unit (bal_quoted h.1) (unit_quoted h.1) fun v hv a => ?_
      have : v = false := by cases v <;> simp_all
      rw [fits, h1, h2, h3, fit_eq, this, Holds, same_iff]; simp
    · simp only [fits]
      exact good_se E c hb h.1
  | .eq z, c, op, hb, _ => by
    rw [shown_other op c (by simp) (by simp)]
    simp only [fits]
    exact good_eq E c hb z
  | .se s, c, op, hb, h => by
    rw [shown_other op c (by simp) (by simp)]
    simp only [fits]
    exact good_se E c hb h
  | .find k s, c, op, hb, h => by
    have h : Plain s ∧ (c.sq = true → Squashed k s) := h
    rw [shown_other op c (by simp) (by simp)]
    simp only [fits]
    refine good_call c hb k.name (bal_quoted h.1) (args_one (Level.of_unit (bal_quoted h.1) (unit_quoted h.1))) ?_ ?_ ?_ ?_
      fun a => found_iff E c k h.2 a
    all_goals cases k <;> decide
  | .ord o z, c, op, hb, _ => by
    rw [shown_other op c (by simp) (by simp), expect, if_neg (by simp [hb])]
    simp only [fits, List.append_assoc]
    refine good_pre { c with ci := false } '!' (.inl rfl) hb (bal_append ?_ (bal_number z)) (level_ord o z) fun a => cmp_iff o a z
    cases o <;> decide
  | .any, c, op, hb, _ => by
    rw [shown_other op c (by simp) (by simp), expect]
    cases hn : c.neg
    · exact good_unit (by decide) unit_any fun v _ a => by simp [Holds, fits, hn, fit_eq]
    · exact good_unit (f := .neg .any) (by decide) (unit_neg (.inl rfl) unit_any) fun v _ a => by simp [Holds, fits, hn, fit_eq]
  | .flag e, c, op, hb, _ => by
    rw [shown_other op c (by simp) (by simp), expect]
    have hu := unit_flag (if c.neg then !e else e)
    refine good_unit (f := .flag (if c.neg then !e else e)) ?_ ?_ fun v _ a => ?_
    · cases c.neg <;> cases e <;> decide
    · cases hn : c.neg <;> cases e <;> rw [hn] at hu <;> exact hu
    · cases a <;> cases hn : c.neg <;> cases e <;> simp [Holds, fits, hn, fit_eq, Val.truth]
  | .user w zs, c, op, hb, h => by
    have h : Name w := h
    rw [shown_other op c (by simp) (by simp)]
    simp only [fits]
    refine good_call c hb w (bal_args zs) (args_user zs) (name_letters h).1 (name_letters h).2 (name_not_number h)
        ⟨name_ne h _ (by simp), name_ne h _ (by simp), name_ne h _ (by simp)⟩ fun a => ?_
    have ht : w ∉ textNames := by
      intro hw
      obtain ⟨s, hs, e⟩ := List.mem_map.1 hw
      refine name_ne h s ?_ e.symm
      simp only [List.mem_cons, List.not_mem_nil, or_false] at hs
      rcases hs with rfl | rfl | rfl | rfl | rfl <;> simp
    rw [Holds, if_neg (name_ne h _ (by simp)), if_neg (name_ne h _ (by simp)), if_neg (name_ne h _ (by simp)),
      if_neg (name_ne h _ (by simp)), if_neg (name_ne h _ (by simp)), if_neg (name_ne h _ (by simp)), if_neg (name_ne h _ (by simp)),
      if_neg (name_ne h _ (by simp)), if_neg ht, numForms_numbers]
    simp
  | .not m, c, op, hb, h => by
    have h : Clear m (!c.neg) c.ci c.sq false := h
    rw [shown_other op c (by simp) (by simp)]
    simp only [fits]
    exact reads E m { c with neg := !c.neg } false hb h
  | .bang m, c, op, hb, h => by
    have h : Clear m (!c.neg) c.ci c.sq false := h
    rw [shown_other op c (by simp) (by simp)]
    simp only [fits]
    exact reads E m { c with neg := !c.neg } false hb h
  | .caseless m, c, op, hb, h => by
    have h : Clear m c.neg true c.sq true := h
    rw [shown_other op c (by simp) (by simp)]
    simp only [fits]
    exact reads E m { c with ci := true } true hb h
  | .spaceless m, c, op, hb, h => by
    have h : Clear m c.neg c.ci true true := h
    rw [shown_other op c (by simp) (by simp)]
    simp only [fits]
    have := reads E m { c with sq := true } true hb h
    intro k hk
    obtain ⟨f, h1, h2⟩ := this k (fun _ => rfl)
    exact ⟨f, h1, fun v _ => h2 v fun _ => rfl⟩
  | .cond b t e, c, op, hb, h => by
    rw [shown_other op c (by simp) (by simp)]
    cases b
    · simp only [fits, Bool.false_eq_true, if_false]
      exact reads E e c false hb h
    · simp only [fits, if_true]
      exact reads E t c false hb h
  | .and l r, c, op, hb, h => by
    have h : Clear l false c.ci c.sq true ∧ Clear r false c.ci c.sq true := h
    rw [shown_other op c (by simp) (by simp)]
    simp only [fits]
    exact good_and c hb (reads E l { c with neg := false } true hb h.1) (reads E r { c with neg := false } true hb h.2)
  | .or l r, c, op, hb, h => by
    have h : Clear l false c.ci c.sq true ∧ Clear r false c.ci c.sq true := h
    rw [shown_other op c (by simp) (by simp)]
    simp only [fits]
    exact good_or c hb (reads E l { c with neg := false } true hb h.1) (reads E r { c with neg := false } true hb h.2)
  | .allOf ms, c, op, hb, h => by
    obtain ⟨fs, h0, h1, hh⟩ := readsAll E ms { c with neg := false } hb h
    rw [shown_other op c (by simp) (by simp)]
    simp only [fits]
    exact good_call { c with ci := false } hb "AllOf".toList h0 h1 (by decide) (by decide) (by decide) (by decide) fun a => by
      rw [Holds, if_pos rfl, (hh c.sq id).1]
  | .anyOf ms, c, op, hb, h => by
    obtain ⟨fs, h0, h1, hh⟩ := readsAll E ms { c with neg := false } hb h
    rw [shown_other op c (by simp) (by simp)]
    simp only [fits]
    exact good_call { c with ci := false } hb "AnyOf".toList h0 h1 (by decide) (by decide) (by decide) (by decide) fun a => by
      rw [Holds, if_neg (by decide), if_pos rfl, (hh c.sq id).2.1]
  | .noneOf ms, c, op, hb, h => by
    obtain ⟨fs, h0, h1, hh⟩ := readsAll E ms { c with neg := false } hb h
    rw [shown_other op c (by simp) (by simp)]
    simp only [fits]
    exact good_call { c with ci := false } hb "NoneOf".toList h0 h1 (by decide) (by decide) (by decide) (by decide) fun a => by
      rw [Holds, if_neg (by decide), if_neg (by decide), if_pos rfl, (hh c.sq id).2.1, none_any]; simp
  | .every m, c, op, hb, h => by
    have h : c.ci = false ∧ Clear m false false c.sq false := h
    have hc : ({ c with neg := false } : C) = { c with ci := false, neg := false } := by simp [h.1]
    obtain ⟨f, h1, h2⟩ := (reads E m { c with ci := false, neg := false } false hb h.2).one
    rw [shown_other op c (by simp) (by simp)]
    simp only [fits]
    refine good_call { c with ci := false } hb "Every".toList h1.bal (args_one h1) (by decide) (by decide) (by decide) (by decide) fun a => ?_
    rw [Holds, if_neg (by decide), if_neg (by decide), if_neg (by decide), if_pos rfl]
    simp only [HoldElem, h2 c.sq id, List.all_eq_true, hc]
  | .has m, c, op, hb, h => by
    have h : c.ci = false ∧ Clear m false false c.sq false := h
    have hc : ({ c with neg := false } : C) = { c with ci := false, neg := false } := by simp [h.1]
    obtain ⟨f, h1, h2⟩ := (reads E m { c with ci := false, neg := false } false hb h.2).one
    rw [shown_other op c (by simp) (by simp)]
    simp only [fits]
    refine good_call { c with ci := false } hb "Has".toList h1.bal (args_one h1) (by decide) (by decide) (by decide) (by decide) fun a => ?_
    rw [Holds, if_neg (by decide), if_neg (by decide), if_neg (by decide), if_neg (by decide), if_pos rfl]
    simp only [HoldElem, h2 c.sq id, List.any_eq_true, hc]
  | .countOf m, c, op, hb, h => by
    have h : c.ci = false ∧ Clear m false false c.sq false := h
    have hc : ({ c with neg := false } : C) = { c with ci := false, neg := false } := by simp [h.1]
    obtain ⟨f, h1, h2⟩ := (reads E m { c with ci := false, neg := false } false hb h.2).one
    rw [shown_other op c (by simp) (by simp)]
    simp only [fits]
    refine good_call { c with ci := false } hb "CountOf".toList h1.bal (args_one h1) (by decide) (by decide) (by decide) (by decide) fun a => ?_
    rw [Holds, if_neg (by decide), if_neg (by decide), if_neg (by decide), if_neg (by decide), if_neg (by decide), if_pos rfl]
    simp only [HoldOne, h2 c.sq id, hc]
  | .listOf ms, c, op, hb, h => by
    obtain ⟨fs, h0, h1, hh⟩ := readsAll E ms { c with neg := false } hb h
    rw [shown_other op c (by simp) (by simp)]
    simp only [fits]
    exact good_list { c with ci := false } hb h0 h1 fun a => by rw [Holds, (hh c.sq id).2.2]
  | .pair k v, c, op, hb, h => by
    have h : c.neg = false ∧ Clear k false c.ci c.sq false ∧ Clear v false c.ci c.sq false := h
    obtain ⟨hn, hk, hv⟩ := h
    obtain ⟨f, h1, h2⟩ := (reads E k c false hb (hn ▸ hk)).one
    obtain ⟨g, k1, k2⟩ := (reads E v c false hb (hn ▸ hv)).one
    rw [shown_other op c (by simp) (by simp)]
    have hc : { c with neg := false } = c := by cases c; simp only at hn; simp [hn]
    have e : (fun a => fits E (.pair k v) a c = true) =
        fun a => fit c.neg (match a with | .pair x y => fits E k x c && fits E v y c | _ => false) = true := by
      funext a
      cases a <;> simp only [fits, hc] <;> simp [hn, fit_eq]
    rw [e, expect, List.append_assoc, List.append_assoc, List.append_assoc, List.append_assoc]
    refine good_pre { c with ci := false } '!' (.inl rfl) hb ?_ (f := .pair f g) ?_ fun a => ?_
    · exact bal_append (by decide) (bal_append h1.bal (bal_append bal_comma (bal_append k1.bal (by decide))))
    · rw [← List.append_assoc, ← List.append_assoc, ← List.append_assoc]
      have := toks_pair (expect k c) (expect v c) h1.bal k1.bal
      rw [this]
      exact unit_pair h1.or k1.or
    · rw [Holds]
      cases a with
      | pair x y =>
        simp only [Bool.and_eq_true, h2 c.sq id, k2 c.sq id]
        constructor
        · rintro ⟨_, _, e, p⟩; cases e; exact p
        · intro p; exact ⟨x, y, rfl, p⟩
      | num x => simp
      | seq x => simp
      | text x => simp
  | .hasPair k v, c, op, hb, h => by
    have h : Clear k false c.ci c.sq false ∧ Clear v false c.ci c.sq false := h
    obtain ⟨f, h1, h2⟩ := (reads E k { c with neg := false } false hb h.1).one
    obtain ⟨g, k1, k2⟩ := (reads E v { c with neg := false } false hb h.2).one
    rw [shown_other op c (by simp) (by simp)]
    simp only [fits]
    refine good_call { c with ci := false } hb "Has".toList (bal_two' h1.bal k1.bal) (args_two' h1 k1) (by decide) (by decide) (by decide) (by decide)
      fun a => ?_
    rw [Holds, if_neg (by decide), if_neg (by decide), if_neg (by decide), if_neg (by decide), if_pos rfl]
    simp only [HoldElem, h2 c.sq id, k2 c.sq id, List.any_eq_true, parts_iff, Bool.and_eq_true]
  | .hasKey k, c, op, hb, h => by
    have h : Clear k false c.ci c.sq false := h
    obtain ⟨f, h1, h2⟩ := (reads E k { c with neg := false } false hb h).one
    rw [shown_other op c (by simp) (by simp)]
    simp only [fits]
    refine good_call { c with ci := false } hb "HasKey".toList h1.bal (args_one h1) (by decide) (by decide) (by decide) (by decide) fun a => ?_
    rw [Holds, if_neg (by decide), if_neg (by decide), if_neg (by decide), if_neg (by decide), if_neg (by decide), if_neg (by decide), if_pos rfl]
    simp only [HoldOne, h2 c.sq id, List.any_eq_true, parts_iff]
    constructor
    · rintro ⟨x, y, hm, hx⟩; exact ⟨_, hm, x, y, rfl, hx⟩
    · rintro ⟨_, hm, x, y, rfl, hx⟩; exact ⟨x, y, hm, hx⟩
  | .hasValue v, c, op, hb, h => by
    have h : Clear v false c.ci c.sq false := h
    obtain ⟨f, h1, h2⟩ := (reads E v { c with neg := false } false hb h).one
    rw [shown_other op c (by simp) (by simp)]
    simp only [fits]
    refine good_call { c with ci := false } hb "HasValue".toList h1.bal (args_one h1) (by decide) (by decide) (by decide) (by decide) fun a => ?_
    rw [Holds, if_neg (by decide), if_neg (by decide), if_neg (by decide), if_neg (by decide), if_neg (by decide), if_neg (by decide),
      if_neg (by decide), if_pos rfl]
    simp only [HoldOne, h2 c.sq id, List.any_eq_true, parts_iff]
    constructor
    · rintro ⟨x, y, hm, hx⟩; exact ⟨_, hm, x, y, rfl, hx⟩
    · rintro ⟨_, hm, x, y, rfl, hx⟩; exact ⟨x, y, hm, hx⟩
  | .everyPair k v, c, op, hb, h => by
    have h : c.neg = false ∧ Clear k false c.ci c.sq false ∧ Clear v false c.ci c.sq false := h
    obtain ⟨hn, hk, hv⟩ := h
    have hc : { c with neg := false } = c := by cases c; simp only at hn; simp [hn]
    obtain ⟨f, h1, h2⟩ := (reads E k c false hb (hn ▸ hk)).one
    obtain ⟨g, k1, k2⟩ := (reads E v c false hb (hn ▸ hv)).one
    rw [shown_other op c (by simp) (by simp)]
    simp only [fits]
    refine good_call { c with ci := false } hb "Every".toList (bal_two h1.bal k1.bal) (args_two h1 k1) (by decide) (by decide) (by decide) (by decide)
      fun a => ?_
    rw [Holds, if_neg (by decide), if_neg (by decide), if_neg (by decide), if_pos rfl]
    simp only [HoldElem, h2 c.sq id, k2 c.sq id, List.all_eq_true, parts_iff, Bool.and_eq_true, hc]
/-- The same of several matchers. -/
theorem readsAll (E : Env) : ∀ (ms : Ms) (c : C), c.bare = false → ClearAll ms c.ci c.sq → ∃ fs, Bal (list ms { c with neg := false }) ∧
      IsArgs (toks (list ms { c with neg := false })) fs ∧ ∀ v, (v = true → c.sq = true) →
        (∀ a, HoldAll E false v fs a ↔ allFit E ms a { c with neg := false } = true) ∧
        (∀ a, HoldAny E false v fs a ↔ anyFit E ms a { c with neg := false } = true) ∧
        ∀ xs, HoldEach E false v fs xs ↔ listFit E ms xs { c with neg := false } = true
  | .nil, _, _, _ => ⟨.nil, bal_nil, args_nil, fun v _ => ⟨by simp [HoldAll, allFit], by simp [HoldAny, anyFit], by simp [HoldEach, listFit]⟩⟩
  | .cons m ms, c, hb, h => by
    have h : Clear m false c.ci c.sq false ∧ ClearAll ms c.ci c.sq := h
    obtain ⟨f, h1, h2⟩ := (reads E m { c with neg := false } false hb h.1).one
    obtain ⟨fs, k0, k1, k2, k3⟩ := readsTail E ms c hb h.2
    refine ⟨.cons f fs, bal_append h1.bal k0, ?_, fun v hv => ⟨?_, ?_, ?_⟩⟩
    · have : toks (list (.cons m ms) { c with neg := false }) =
          toks (expect m { c with neg := false }) ++ toks (tail ms { c with neg := false }) := by
        rw [list]
        cases ms with
        | nil => simp [tail]; rfl
        | cons m' ms => rw [tail, List.append_assoc, toks_comma (expect m { c with neg := false }) _ h1.bal]; rw [← List.nil_append (gray _ ++ _), toks_comma _ _ bal_nil]; rfl
      rw [this]
      exact args_cons h1.or k1 k2
    · intro a; simp [HoldAll, allFit, h2 v hv, (k3 v hv).1]
    · intro a; simp [HoldAny, anyFit, h2 v hv, (k3 v hv).2.1]
    · intro xs; cases xs <;> simp [HoldEach, listFit, h2 v hv, (k3 v hv).2.2]
/-- The same of those behind the first. -/
theorem readsTail (E : Env) : ∀ (ms : Ms) (c : C), c.bare = false → ClearAll ms c.ci c.sq → ∃ fs, Bal (tail ms { c with neg := false }) ∧
      IsMore (toks (tail ms { c with neg := false })) fs ∧
      (toks (tail ms { c with neg := false }) = [] ∨ ∃ vs, toks (tail ms { c with neg := false }) = .sym ',' :: vs) ∧
      ∀ v, (v = true → c.sq = true) →
        (∀ a, HoldAll E false v fs a ↔ allFit E ms a { c with neg := false } = true) ∧
        (∀ a, HoldAny E false v fs a ↔ anyFit E ms a { c with neg := false } = true) ∧
        ∀ xs, HoldEach E false v fs xs ↔ listFit E ms xs { c with neg := false } = true
  | .nil, _, _, _ => ⟨.nil, bal_nil, more_nil, .inl rfl, fun v _ => ⟨by simp [HoldAll, allFit], by simp [HoldAny, anyFit], by simp [HoldEach, listFit]⟩⟩
  | .cons m ms, c, hb, h => by
    have h : Clear m false c.ci c.sq false ∧ ClearAll ms c.ci c.sq := h
    obtain ⟨f, h1, h2⟩ := (reads E m { c with neg := false } false hb h.1).one
    obtain ⟨fs, k0, k1, k2, k3⟩ := readsTail E ms c hb h.2
    have e : toks (tail (.cons m ms) { c with neg := false }) =
        .sym ',' :: (toks (expect m { c with neg := false }) ++ toks (tail ms { c with neg := false })) := by
      rw [tail, List.append_assoc, ← List.nil_append (gray _ ++ _), toks_comma _ _ bal_nil]
      cases ms with
      | nil => simp [tail, show toks [] = [] from rfl]
      | cons m' ms =>
        rw [tail, List.append_assoc, toks_comma (expect m { c with neg := false }) _ h1.bal]; rw [← List.nil_append (gray _ ++ _), toks_comma _ _ bal_nil]; rfl
    refine ⟨.cons f fs, bal_append (bal_append bal_comma h1.bal) k0, ?_, .inr ⟨_, e⟩, fun v hv => ⟨?_, ?_, ?_⟩⟩
    · rw [e]; exact more_cons h1.or k1 k2
    · intro a; simp [HoldAll, allFit, h2 v hv, (k3 v hv).1]
    · intro a; simp [HoldAny, anyFit, h2 v hv, (k3 v hv).2.1]
    · intro xs; cases xs <;> simp [HoldEach, listFit, h2 v hv, (k3 v hv).2.2]
end

/-- The line of a failure reads as a form that is true of just what the matcher accepts. -/
theorem reads_failure (E : Env) : ∀ (m : Mx) (c : C), c.bare = false → ClearTop m c.neg c.ci c.sq →
    Good E (failure m c) c.sq (fun a => fits E m a c = true)
  | .plain z, c, hb, _ => by simp only [fits]; exact good_eq E c hb z
  | .str s, c, hb, h => by simp only [fits]; exact good_se E c hb h
  | .not m, c, hb, h => by simp only [fits]; exact reads_failure E m { c with neg := !c.neg } hb h
  | .bang m, c, hb, h => by simp only [fits]; exact reads_failure E m { c with neg := !c.neg } hb h
  | .caseless m, c, hb, h => by simp only [fits]; exact reads_failure E m { c with ci := true } hb h
  | .spaceless m, c, hb, h => by
    simp only [fits]
    have := reads_failure E m { c with sq := true } hb h
    intro k hk
    obtain ⟨f, h1, h2⟩ := this k (fun _ => rfl)
    exact ⟨f, h1, fun v _ => h2 v fun _ => rfl⟩
  | .cond b t e, c, hb, h => by
    cases b
    · simp only [fits, Bool.false_eq_true, if_false]
      exact reads_failure E e c hb h
    · simp only [fits, if_true]
      exact reads_failure E t c hb h
  | .eq z, c, hb, h => reads E (.eq z) c false hb h
  | .se s, c, hb, h => reads E (.se s) c false hb h
  | .find k s, c, hb, h => reads E (.find k s) c false hb h
  | .ord o z, c, hb, h => reads E (.ord o z) c false hb h
  | .any, c, hb, h => reads E .any c false hb h
  | .flag e, c, hb, h => reads E (.flag e) c false hb h
  | .user w zs, c, hb, h => reads E (.user w zs) c false hb h
  | .and l r, c, hb, h => reads E (.and l r) c false hb h
  | .or l r, c, hb, h => reads E (.or l r) c false hb h
  | .allOf ms, c, hb, h => reads E (.allOf ms) c false hb h
  | .anyOf ms, c, hb, h => reads E (.anyOf ms) c false hb h
  | .noneOf ms, c, hb, h => reads E (.noneOf ms) c false hb h
  | .every m, c, hb, h => reads E (.every m) c false hb h
  | .has m, c, hb, h => reads E (.has m) c false hb h
  | .countOf m, c, hb, h => reads E (.countOf m) c false hb h
  | .listOf ms, c, hb, h => reads E (.listOf ms) c false hb h
  | .pair k v, c, hb, h => reads E (.pair k v) c false hb h
  | .hasPair k v, c, hb, h => reads E (.hasPair k v) c false hb h
  | .hasKey k, c, hb, h => reads E (.hasKey k) c false hb h
  | .hasValue v, c, hb, h => reads E (.hasValue v) c false hb h
  | .everyPair k v, c, hb, h => reads E (.everyPair k v) c false hb h

end H2.Expect.Spec
