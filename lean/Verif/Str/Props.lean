import Verif.Str.Model
import Verif.Matcher.Props
/-
Property C09: string matchers decide the textbook relations.
-/
namespace H2.Str
open H2.Matcher (okPasses Cfg Val)

/-! ### Specification -/

/-- The relation each matcher stands for, between the expected text `e` and the actual `a`. -/
def Relation (k : Kind) (e a : List Char) : Prop :=
  match k with
  | .se => a = e
  | .substr => e <:+: a
  | .startsWith => e <+: a
  | .endsWith => e <:+ a

/-- The blanks of the text matchers: space, tab and newline. -/
def blank (c : Char) : Bool := [' ', '\t', '\n'].contains c

@[simp] theorem blank_eq (c : Char) : blank c = isBlank c := by
  simp only [isBlank, blank, List.contains_cons, List.contains_nil, Bool.or_false]
  cases c == ' ' <;> cases c == '\t' <;> cases c == '\n' <;> rfl

/-- Put the non-blank `c` in front of a text `s` whose words are `ws`. -/
def glue (c : Char) : List Char → List (List Char) → List (List Char)
  | d :: _, w :: ws => if blank d then [c] :: w :: ws else (c :: w) :: ws
  | _, ws => [c] :: ws

/-- The maximal runs of non-blank characters of a text, in order. -/
def words : List Char → List (List Char)
  | [] => []
  | c :: s =>
    if blank c then words s else glue c s (words s)

/-- Words joined by one space. -/
def unwords : List (List Char) → List Char
  | [] => []
  | [w] => w
  | w :: ws => w ++ ' ' :: unwords ws

/-! ### find and rfind -/

theorem find_isSome (n h : List Char) (i : Nat) : (find n h i).isSome = true ↔ n <:+: h := by
  induction h generalizing i with
  | nil =>
    unfold find
    split
    · rename_i hn; subst hn; simp
    · rename_i hn; simp [hn]
  | cons c h ih =>
    unfold find
    split
    · rename_i hp
      simp only [Option.isSome_some, true_iff]
      exact (List.isPrefixOf_iff_prefix.1 hp).isInfix
    · rename_i hp
      rw [ih, List.infix_cons_iff]
      have : ¬ n <+: c :: h := fun hh => hp (List.isPrefixOf_iff_prefix.2 hh)
      simp [this]

theorem find_ge (n h : List Char) (i j : Nat) (hj : find n h i = some j) : i ≤ j := by
  induction h generalizing i with
  | nil => unfold find at hj; split at hj <;> simp at hj; omega
  | cons c h ih =>
    unfold find at hj
    split at hj
    · simp at hj; omega
    · have := ih (i + 1) hj; omega

theorem find_zero (n h : List Char) (i : Nat) : find n h i = some i ↔ n <+: h := by
  cases h with
  | nil => unfold find; split <;> simp_all
  | cons c h =>
    unfold find
    split
    · rename_i hp; simp only [true_iff]; exact List.isPrefixOf_iff_prefix.1 hp
    · rename_i hp
      constructor
      · intro hh; have := find_ge _ _ _ _ hh; omega
      · intro hh; exact absurd (List.isPrefixOf_iff_prefix.2 hh) hp

theorem rfind_spec (n h : List Char) (i : Nat) :
    (∀ j, rfind n h i = some j → i ≤ j ∧ j ≤ i + h.length ∧ n <+: h.drop (j - i)) ∧
    (∀ j, i ≤ j → j ≤ i + h.length → n <+: h.drop (j - i) → ∃ k, rfind n h i = some k ∧ j ≤ k) := by
  induction h generalizing i with
  | nil =>
    unfold rfind
    constructor
    · intro j hj; split at hj <;> simp at hj; subst hj; simp_all
    · intro j h1 h2 h3
      have : j = i := by simp at h2; omega
      subst this
      simp at h3; subst h3; simp
  | cons c h ih =>
    obtain ⟨ih1, ih2⟩ := ih (i + 1)
    unfold rfind
    constructor
    · intro j hj
      cases hr : rfind n h (i + 1) with
      | some k =>
        rw [hr] at hj; simp at hj; subst hj
        obtain ⟨h1, h2, h3⟩ := ih1 k hr
        refine ⟨by omega, by simp; omega, ?_⟩
        have : k - i = (k - (i + 1)) + 1 := by omega
        rw [this]; simpa using h3
      | none =>
        rw [hr] at hj
        simp only at hj
        split at hj
        · rename_i hp; simp at hj; subst hj
          exact ⟨by omega, by omega, by simpa using List.isPrefixOf_iff_prefix.1 hp⟩
        · simp at hj
    · intro j h1 h2 h3
      by_cases hji : j = i
      · subst hji
        simp at h3
        cases hr : rfind n h (j + 1) with
        | some k =>
          obtain ⟨h4, _, _⟩ := ih1 k hr
          exact ⟨k, by simp, by omega⟩
        | none =>
          have : n.isPrefixOf (c :: h) = true := List.isPrefixOf_iff_prefix.2 h3
          exact ⟨j, by simp [this], by omega⟩
      · have e : j - i = (j - (i + 1)) + 1 := by omega
        rw [e] at h3
        obtain ⟨k, hk, hjk⟩ := ih2 j (by omega) (by simp at h2; omega) (by simpa using h3)
        exact ⟨k, by simp [hk], hjk⟩

theorem rfind_suffix (n h : List Char) (hl : n.length ≤ h.length) :
    rfind n h 0 = some (h.length - n.length) ↔ n <:+ h := by
  obtain ⟨h1, h2⟩ := rfind_spec n h 0
  constructor
  · intro hh
    obtain ⟨_, _, h3⟩ := h1 _ hh
    simp only [Nat.sub_zero] at h3
    have h4 : n = h.drop (h.length - n.length) := h3.eq_of_length (by simp; omega)
    rw [h4]; exact List.drop_suffix _ _
  · intro hh
    have h3 : n = h.drop (h.length - n.length) := List.suffix_iff_eq_drop.1 hh
    obtain ⟨k, hk, hle⟩ := h2 (h.length - n.length) (by omega) (by omega) (by
      simp only [Nat.sub_zero]; rw [← h3]; exact List.prefix_refl n)
    obtain ⟨_, h5, h6⟩ := h1 k hk
    simp only [Nat.sub_zero] at h6
    have := h6.length_le
    rw [List.length_drop] at this
    rw [hk]; congr 1; omega

@[simp] theorem lower_length (s : List Char) : (lower s).length = s.length := by simp [lower]

/-! ### C09 -/

theorem strTest_plain (k : Kind) (e a : List Char) (caseless : Bool) :
    strTest k e caseless false a = true ↔
      Relation k (if caseless then lower e else e) (if caseless then lower a else a) := by
  cases k
  · cases caseless <;> simp [strTest, equals, Relation]
  · cases caseless <;> simp [strTest, contains, Relation, find_isSome]
  · simp only [strTest, startswith, Relation, Bool.false_eq_true, if_false]
    split
    · rename_i hl
      simp only [Bool.false_eq_true, false_iff]
      intro hp
      cases caseless <;> (have := hp.length_le; simp at this; omega)
    · cases caseless <;> simp [find_zero]
  · simp only [strTest, endswith, Relation, Bool.false_eq_true, if_false]
    split
    · rename_i hl
      simp only [Bool.false_eq_true, false_iff]
      intro hp
      cases caseless <;> (have := hp.length_le; simp at this; omega)
    · rename_i hl
      cases caseless
      · simp only [Bool.false_eq_true, if_false, beq_iff_eq]
        exact rfind_suffix e a (by omega)
      · simp only [if_true, beq_iff_eq]
        have := rfind_suffix (lower e) (lower a) (by simp; omega)
        simpa using this

theorem okPasses_str (k : Kind) (e a : List Char) (g : Cfg) (hg : g.negative = false) :
    okPasses (.poly g (strMatcher k e)) (.str a) = strTest k e g.caseless g.squash a := by
  rw [H2.Matcher.okPasses_verdict]
  simp only [H2.Matcher.verdict, strMatcher, hg, Bool.false_eq_true, if_false, Option.map_id', H2.Matcher.yes_some,
    H2.Matcher.Env.under, H2.Matcher.topEnv, Bool.or_false]

/-- **C09.** Se, Substr, StartsWith and EndsWith accept exactly on equality, substring, prefix and
suffix. -/
theorem C09_relation (k : Kind) (e a : List Char) :
    okPasses (.poly {} (strMatcher k e)) (.str a) = true ↔ Relation k e a := by
  rw [okPasses_str k e a {} rfl]
  simpa using strTest_plain k e a false

/-- **C09.** With CaseLess (`~`) the relation is that of the lower-cased texts. -/
theorem C09_caseless (k : Kind) (e a : List Char) :
    okPasses (.poly ({} : Cfg).tilde (strMatcher k e)) (.str a) = true ↔ Relation k (lower e) (lower a) := by
  rw [okPasses_str k e a _ rfl]
  simpa [Cfg.tilde] using strTest_plain k e a true

/-- CaseLess really ignores case: upper-casing any characters of either text changes nothing. -/
theorem C09_caseless_insensitive (k : Kind) (e a e' a' : List Char) (he : lower e = lower e') (ha : lower a = lower a') :
    okPasses (.poly ({} : Cfg).tilde (strMatcher k e)) (.str a) =
      okPasses (.poly ({} : Cfg).tilde (strMatcher k e')) (.str a') := by
  rw [Bool.eq_iff_iff, C09_caseless, C09_caseless, he, ha]

/-- **C09.** With SpaceLess (`*`) equality is that of the squashed texts. -/
theorem C09_spaceless_se (e a : List Char) :
    okPasses (.poly ({} : Cfg).star (strMatcher .se e)) (.str a) = true ↔ squash a = squash e := by
  rw [okPasses_str .se e a _ rfl]
  simp [strTest, Cfg.star, equals]

/-- **C09.** With SpaceLess the other matchers compare the squashed actual text with the expected
text *as written*; so it is the stated relation whenever the expected text is already squashed. -/
theorem C09_spaceless_partial (k : Kind) (e a : List Char) (he : squash e = e) :
    okPasses (.poly ({} : Cfg).star (strMatcher k e)) (.str a) = true ↔ Relation k (squash e) (squash a) := by
  rw [okPasses_str k e a _ rfl]
  have := strTest_plain k e (squash a) false
  cases k <;> simp_all [strTest, Cfg.star]

/-- **C09 is false for a SpaceLess expected text with a run of blanks**: the very same text is
rejected. -/
theorem C09_spaceless_expected_false :
    okPasses (.poly ({} : Cfg).star (strMatcher .substr "a  b".toList)) (.str "a  b".toList) = false := by decide

/-! ### squash -/

/-- Characters that are not blank. -/
def solid (s : List Char) : List Char := s.filter (fun c => !blank c)

theorem dropWhile_append_singleton_aux (p : Char → Bool) (s : List Char) :
    ∃ pre, s = pre ++ s.dropWhile p ∧ pre.all p = true := by
  refine ⟨s.takeWhile p, (List.takeWhile_append_dropWhile).symm, ?_⟩
  rw [List.all_eq_true]
  intro x hx
  exact List.all_eq_true.1 (List.all_takeWhile (p := p) (l := s)) x hx

theorem trim_split (s : List Char) : ∃ l r, s = l ++ trim s ++ r ∧ l.all isBlank = true ∧ r.all isBlank = true := by
  obtain ⟨l, h1, h2⟩ := dropWhile_append_singleton_aux isBlank s
  obtain ⟨r, h3, h4⟩ := dropWhile_append_singleton_aux isBlank (s.dropWhile isBlank).reverse
  refine ⟨l, r.reverse, ?_, h2, by simpa using h4⟩
  have : s.dropWhile isBlank = trim s ++ r.reverse := by
    have := congrArg List.reverse h3
    simpa [trim] using this
  rw [List.append_assoc, ← this]; exact h1

theorem loop_blank (quote : Bool) (c : Char) (s : List Char) (q1 q2 : Bool) (n : Nat) (hc : isBlank c = true) :
    squashLoop quote (c :: s) q1 q2 n =
      if (!q1 && !q2) = true then
        (if n ≠ 0 then squashLoop quote s q1 q2 (n + 1) else ' ' :: squashLoop quote s q1 q2 (n + 1))
      else ' ' :: squashLoop quote s q1 q2 n := by
  conv => lhs; unfold squashLoop
  have h1 : (' ' == '\'') = false := by decide
  have h2 : (' ' == '"') = false := by decide
  simp [hc, h1, h2]

theorem loop_solid (quote : Bool) (c : Char) (q1 q2 : Bool) (hc : isBlank c = false) :
    ∃ r1 r2, ∀ s n, squashLoop quote (c :: s) q1 q2 n = c :: squashLoop quote s r1 r2 0 := by
  have hsp : ¬ c = ' ' := by intro h; subst h; simp [isBlank] at hc
  refine ⟨if !quote && c == '\'' then !q1 else q1, if !quote && c == '"' then !q2 else q2, fun s n => ?_⟩
  conv => lhs; unfold squashLoop
  simp [hc, hsp]

theorem loop_plain (quote : Bool) (c : Char) (s : List Char) (q1 q2 : Bool) (n : Nat) (hc : isBlank c = false)
    (h1 : c ≠ '\'') (h2 : c ≠ '"') :
    squashLoop quote (c :: s) q1 q2 n = c :: squashLoop quote s q1 q2 0 := by
  have hsp : ¬ c = ' ' := by intro h; subst h; simp [isBlank] at hc
  conv => lhs; unfold squashLoop
  simp [hc, hsp, h1, h2]

theorem squashLoop_solid (quote : Bool) (s : List Char) (q1 q2 : Bool) (n : Nat) :
    solid (squashLoop quote s q1 q2 n) = solid s := by
  induction s generalizing q1 q2 n with
  | nil => rfl
  | cons c s ih =>
    by_cases hc : isBlank c
    · rw [loop_blank quote c s q1 q2 n hc]
      have hb : isBlank ' ' = true := rfl
      have hcons : ∀ t, solid (' ' :: t) = solid t := fun t => by simp [solid, hb]
      have hcc : solid (c :: s) = solid s := by simp [solid, hc]
      rw [hcc]
      split
      · split
        · exact ih _ _ _
        · rw [hcons]; exact ih _ _ _
      · rw [hcons]; exact ih _ _ _
    · obtain ⟨r1, r2, h⟩ := loop_solid quote c q1 q2 (by simpa using hc)
      have hcc : ∀ t, solid (c :: t) = c :: solid t := fun t => by simp [solid, hc]
      rw [h, hcc, hcc, ih]

theorem solid_trim (s : List Char) : solid (trim s) = solid s := by
  obtain ⟨l, r, h, hl, hr⟩ := trim_split s
  have h0 : ∀ t : List Char, t.all isBlank = true → solid t = [] := by
    intro t ht
    unfold solid
    rw [List.filter_eq_nil_iff]
    intro x hx
    simpa using List.all_eq_true.1 ht x hx
  conv => rhs; rw [h]
  simp only [solid, List.filter_append] at *
  rw [h0 l hl, h0 r hr]
  simp

/-- **C09.** Squashing neither drops, adds nor reorders anything but blanks. -/
theorem C09_squash_content (s : List Char) : solid (squash s) = solid s := by
  unfold squash
  rw [squashLoop_solid, solid_trim]


/-! #### Squashing twice changes nothing -/

theorem loop_idem (quote : Bool) (s : List Char) (q1 q2 : Bool) (n m : Nat) (h : n = 0 → m = 0) :
    squashLoop quote (squashLoop quote s q1 q2 n) q1 q2 m = squashLoop quote s q1 q2 n := by
  induction s generalizing q1 q2 n m with
  | nil => rfl
  | cons c s ih =>
    by_cases hc : isBlank c
    · rw [loop_blank quote c s q1 q2 n hc]
      by_cases hq : (!q1 && !q2) = true
      · simp only [hq, if_true]
        by_cases hn : n = 0
        · subst hn
          have hm := h rfl
          subst hm
          simp only [ne_eq, not_true_eq_false, if_false]
          rw [loop_blank quote ' ' _ q1 q2 0 rfl]
          simp only [hq, if_true, ne_eq, not_true_eq_false, if_false]
          rw [ih q1 q2 (0 + 1) (0 + 1) (by omega)]
        · simp only [ne_eq, hn, not_false_eq_true, if_true]
          exact ih q1 q2 (n + 1) m (by omega)
      · simp only [hq, Bool.false_eq_true, if_false]
        rw [loop_blank quote ' ' _ q1 q2 m rfl]
        simp only [hq, Bool.false_eq_true, if_false]
        rw [ih q1 q2 n m h]
    · obtain ⟨r1, r2, hs⟩ := loop_solid quote c q1 q2 (by simpa using hc)
      rw [hs, hs, ih r1 r2 0 0 (fun _ => rfl)]

theorem loop_last (quote : Bool) (s : List Char) (c : Char) (hc : isBlank c = false) (q1 q2 : Bool) (n : Nat) :
    ∃ t, squashLoop quote (s ++ [c]) q1 q2 n = t ++ [c] := by
  induction s generalizing q1 q2 n with
  | nil =>
    obtain ⟨r1, r2, hs⟩ := loop_solid quote c q1 q2 hc
    exact ⟨[], by simp [hs, squashLoop]⟩
  | cons d s ih =>
    by_cases hd : isBlank d
    · rw [List.cons_append, loop_blank quote d _ q1 q2 n hd]
      split
      · split
        · exact ih _ _ _
        · obtain ⟨t, ht⟩ := ih q1 q2 (n + 1)
          exact ⟨' ' :: t, by rw [ht]; rfl⟩
      · obtain ⟨t, ht⟩ := ih q1 q2 n
        exact ⟨' ' :: t, by rw [ht]; rfl⟩
    · obtain ⟨r1, r2, hs⟩ := loop_solid quote d q1 q2 (by simpa using hd)
      obtain ⟨t, ht⟩ := ih r1 r2 0
      exact ⟨d :: t, by rw [List.cons_append, hs, ht]; rfl⟩

theorem dropWhile_head (p : Char → Bool) (s : List Char) : s.dropWhile p = [] ∨
    ∃ c t, s.dropWhile p = c :: t ∧ p c = false := by
  induction s with
  | nil => simp
  | cons c s ih =>
    by_cases h : p c
    · simp [h]; simpa using ih
    · right; exact ⟨c, s, by simp [h], by simpa using h⟩

theorem trim_fix (s : List Char) (c : Char) (t : List Char) (d : Char) (u : List Char)
    (h1 : s = c :: t) (hc : isBlank c = false) (h2 : s = u ++ [d]) (hd : isBlank d = false) : trim s = s := by
  have e1 : s.dropWhile isBlank = s := by rw [h1]; simp [hc]
  unfold trim
  rw [e1]
  have : s.reverse.dropWhile isBlank = s.reverse := by rw [h2]; simp [hd]
  rw [this, List.reverse_reverse]

/-- A trimmed text is empty or begins and ends with a non-blank. -/
theorem trim_ends (s : List Char) : trim s = [] ∨
    (∃ c t, trim s = c :: t ∧ isBlank c = false) ∧ (∃ d u, trim s = u ++ [d] ∧ isBlank d = false) := by
  rcases dropWhile_head isBlank s with h | ⟨c, t, h, hc⟩
  · left; simp [trim, h]
  · right
    have hne : ((s.dropWhile isBlank).reverse.dropWhile isBlank) ≠ [] := by
      rw [h]; intro he
      have : ((c :: t).reverse).all isBlank = true := by
        obtain ⟨pre, hp, hb⟩ := dropWhile_append_singleton_aux isBlank (c :: t).reverse
        rw [he, List.append_nil] at hp
        rw [hp]; exact hb
      simp [hc] at this
    rcases dropWhile_head isBlank (s.dropWhile isBlank).reverse with h' | ⟨d, u, h', hd⟩
    · exact absurd h' hne
    · constructor
      · -- the head of the trimmed text is the head of the left-trimmed text
        obtain ⟨r, h3, _⟩ := dropWhile_append_singleton_aux isBlank (s.dropWhile isBlank).reverse
        have h4 : s.dropWhile isBlank = trim s ++ r.reverse := by
          have := congrArg List.reverse h3
          simpa [trim] using this
        cases ht : trim s with
        | nil => unfold trim at ht; simp at ht; exact absurd ht (by simpa using hne)
        | cons x y =>
          rw [ht, h] at h4
          simp at h4
          exact ⟨x, y, rfl, h4.1 ▸ hc⟩
      · exact ⟨d, u.reverse, by unfold trim; rw [h']; simp, hd⟩

/-- **C09.** Squashing is idempotent (so comparing squashed texts is a comparison of normal forms). -/
theorem C09_squash_idempotent (s : List Char) : squash (squash s) = squash s := by
  unfold squash
  rcases trim_ends s with h | ⟨⟨c, t, h1, hc⟩, ⟨d, u, h2, hd⟩⟩
  · rw [h]; rfl
  · obtain ⟨r1, r2, hs⟩ := loop_solid false c false false hc
    obtain ⟨v, hv⟩ := loop_last false u d hd false false 0
    have e : trim (squashLoop false (trim s) false false 0) = squashLoop false (trim s) false false 0 :=
      trim_fix _ c (squashLoop false t r1 r2 0) d v (by rw [h1, hs]) hc (by rw [h2, hv]) hd
    rw [e]
    exact loop_idem false _ _ _ 0 0 (fun h => h)

/-! #### Without quotes, squashing is: the words, one space apart -/

theorem words_blank (c : Char) (s : List Char) (hc : isBlank c = true) : words (c :: s) = words s := by
  simp only [words, blank_eq, hc, if_true]

theorem words_last (c : Char) (hc : isBlank c = false) : words [c] = [[c]] := by
  simp [words, glue, hc]

theorem words_ne_nil (u : List Char) (d : Char) (hd : isBlank d = false) : words (u ++ [d]) ≠ [] := by
  induction u with
  | nil => simp [words, glue, hd]
  | cons c u ih =>
    rw [List.cons_append]
    by_cases hc : isBlank c
    · rw [words_blank _ _ hc]; exact ih
    · simp only [words, blank_eq, hc, Bool.false_eq_true, if_false]
      unfold glue
      split
      · split <;> simp
      · simp

/-- Begins with a blank. -/
def startsBlank : List Char → Bool
  | [] => false
  | c :: _ => isBlank c

theorem loop_words (u : List Char) (d : Char) (hd : isBlank d = false)
    (hq : ∀ x ∈ u ++ [d], x ≠ '\'' ∧ x ≠ '"') (n : Nat) :
    squashLoop false (u ++ [d]) false false n =
      if n = 0 ∧ startsBlank u then ' ' :: unwords (words (u ++ [d]))
      else unwords (words (u ++ [d])) := by
  induction u generalizing n with
  | nil =>
    have hdq := hq d (by simp)
    rw [List.nil_append, loop_plain _ _ _ _ _ _ hd hdq.1 hdq.2, words_last _ hd]
    simp [squashLoop, unwords, startsBlank]
  | cons c u ih =>
    have hcq := hq c (by simp)
    have hq' : ∀ x ∈ u ++ [d], x ≠ '\'' ∧ x ≠ '"' := fun x hx => hq x (by simp at hx ⊢; right; exact hx)
    rw [List.cons_append]
    by_cases hc : isBlank c
    · rw [loop_blank _ _ _ _ _ _ hc, words_blank _ _ hc]
      have h0 : ¬ (n + 1 = 0 ∧ startsBlank u = true) := by omega
      rw [ih hq' (n + 1), if_neg h0]
      by_cases hn : n = 0
      · have : (n = 0 ∧ startsBlank (c :: u) = true) := ⟨hn, hc⟩
        rw [if_pos this]; simp [hn]
      · have : ¬ (n = 0 ∧ startsBlank (c :: u) = true) := fun h => hn h.1
        rw [if_neg this]; simp [hn]
    · have hcf : isBlank c = false := by simpa using hc
      have : ¬ (n = 0 ∧ startsBlank (c :: u) = true) := by
        rintro ⟨_, hb⟩
        simp [startsBlank, hcf] at hb
      rw [if_neg this, loop_plain _ _ _ _ _ _ hcf hcq.1 hcq.2, ih hq' 0]
      have hw := words_ne_nil u d hd
      cases hwd : words (u ++ [d]) with
      | nil => exact absurd hwd hw
      | cons w ws =>
        cases u with
        | nil =>
          rw [List.nil_append] at hwd ⊢
          have : words [c, d] = (c :: w) :: ws := by
            rw [words, blank_eq, hcf, hwd]; simp [glue, hd]
          rw [this]
          cases ws <;> simp [unwords, startsBlank]
        | cons x u =>
          rw [List.cons_append] at hwd ⊢
          by_cases hx : isBlank x
          · have e : words (c :: x :: (u ++ [d])) = [c] :: w :: ws := by
              rw [words, blank_eq, hcf, hwd]; simp [glue, hx]
            rw [e, if_pos ⟨rfl, hx⟩]
            simp [unwords]
          · have e : words (c :: x :: (u ++ [d])) = (c :: w) :: ws := by
              rw [words, blank_eq, hcf, hwd]; simp [glue, hx]
            have hno : ¬ (0 = 0 ∧ startsBlank (x :: u) = true) := fun h => hx h.2
            rw [e, if_neg hno]
            cases ws <;> simp [unwords]

theorem words_blank_left (l s : List Char) (hl : l.all isBlank = true) : words (l ++ s) = words s := by
  induction l with
  | nil => rfl
  | cons c l ih =>
    simp at hl
    rw [List.cons_append, words_blank _ _ hl.1]
    exact ih (by simpa using hl.2)

theorem words_blank_right (s r : List Char) (hr : r.all isBlank = true) : words (s ++ r) = words s := by
  induction s with
  | nil => have := words_blank_left r [] hr; simpa using this
  | cons c s ih =>
    rw [List.cons_append]
    by_cases hc : isBlank c
    · rw [words_blank _ _ hc, words_blank _ _ hc, ih]
    · simp only [words, hc, Bool.false_eq_true, if_false, ih]
      cases s with
      | nil =>
        simp only [words]
        cases r <;> rfl
      | cons d s => cases words (d :: s) <;> rfl

/-- **C09.** On a text without quotation marks, squashing keeps the words and puts exactly one
space between them. -/
theorem C09_squash_words (s : List Char) (hq : ∀ x ∈ s, x ≠ '\'' ∧ x ≠ '"') : squash s = unwords (words s) := by
  obtain ⟨l, r, hs, hl, hr⟩ := trim_split s
  have hw : words s = words (trim s) := by
    conv => lhs; rw [hs]
    rw [words_blank_right _ _ hr, words_blank_left _ _ hl]
  rw [hw]
  unfold squash
  rcases trim_ends s with h | ⟨⟨c, t, h1, hc⟩, ⟨d, u, h2, hd⟩⟩
  · rw [h]; rfl
  · have hq' : ∀ x ∈ u ++ [d], x ≠ '\'' ∧ x ≠ '"' := by
      intro x hx
      apply hq x
      rw [hs, h2]; simp only [List.mem_append, List.mem_singleton] at hx ⊢
      exact Or.inl (Or.inr hx)
    rw [h2, loop_words u d hd hq' 0, if_neg]
    rintro ⟨_, hx⟩
    cases u with
    | nil => simp [startsBlank] at hx
    | cons x v =>
      rw [h2] at h1
      simp at h1
      rw [startsBlank, h1.1] at hx; simp [hc] at hx

/-- **C09.** Two quote-free texts are Se-equal under SpaceLess exactly when they have the same
words. -/
theorem C09_spaceless_se_words (e a : List Char) (he : ∀ x ∈ e, x ≠ '\'' ∧ x ≠ '"')
    (ha : ∀ x ∈ a, x ≠ '\'' ∧ x ≠ '"') :
    okPasses (.poly ({} : Cfg).star (strMatcher .se e)) (.str a) = true ↔ unwords (words a) = unwords (words e) := by
  rw [C09_spaceless_se, C09_squash_words a ha, C09_squash_words e he]

/-! ### The hypotheses are met -/

example : Relation .endsWith "lo".toList "hello".toList := ⟨"hel".toList, by decide⟩
example : okPasses (.poly ({} : Cfg).tilde (strMatcher .substr "ELL".toList)) (.str "Hello".toList) = true := by decide
example : okPasses (.poly {} (strMatcher .endsWith "aa".toList)) (.str "aaaa".toList) = true := by decide
example : squash "  a \t\n b ' x  y '  c ".toList = "a b ' x  y ' c".toList := by decide
example : squash "a b".toList = "a b".toList := by decide
example : words " ab  c ".toList = ["ab".toList, "c".toList] := by decide
example : okPasses (.poly ({} : Cfg).star (strMatcher .se " a   b".toList)) (.str "a b ".toList) = true := by decide
example : lower "HeLLo".toList = lower "hEllO".toList := by decide

end H2.Str
