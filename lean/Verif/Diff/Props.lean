import Verif.Diff.Lemmas
import Verif.Diff.Lcs
import Verif.Str.Model
/-
Properties C18 (the string diff) and C19 (edit distance).
-/
namespace H2.Diff

/-! ### C18 -/

/-- **C18.** The diff gives one mark per character; the characters marked on the two sides are equal
one by one; and no common subsequence is longer. -/
theorem C18_lcs {α : Type} (eq : α → α → Bool) (s1 s2 : List α) :
    (lcs eq s1 s2).1.length = s1.length ∧ (lcs eq s1 s2).2.length = s2.length ∧
    Same eq (marked (lcs eq s1 s2).1 s1) (marked (lcs eq s1 s2).2 s2) ∧
    ∀ u v : List α, u.Sublist s1 → v.Sublist s2 → Same eq u v → u.length ≤ (marked (lcs eq s1 s2).1 s1).length := by
  have ht := trace_ok eq s1 s2 s1.length s2.length (Nat.le_refl _) (Nat.le_refl _)
  rw [lcs_eq]
  have e1 : marked ((List.range s1.length).map (rowMark (traceback (T eq s1 s2) s1.length s2.length) s2.length)) s1 =
      pick (rowMark (traceback (T eq s1 s2) s1.length s2.length) s2.length) s1 s1.length := by simp [pick]
  have e2 : marked ((List.range s2.length).map (colMark (traceback (T eq s1 s2) s1.length s2.length) s1.length)) s2 =
      pick (colMark (traceback (T eq s1 s2) s1.length s2.length) s1.length) s2 s2.length := by simp [pick]
  refine ⟨by simp, by simp, ?_, ?_⟩
  · rw [e1, e2]; exact ht.same
  · intro u v hu hv h
    rw [e1, ht.count]
    exact upper eq s1 s2 s1.length s2.length (Nat.le_refl _) (Nat.le_refl _) u v (by simpa using hu) (by simpa using hv) h

/-- **C18**, for the case-sensitive diff: the marked characters spell the same text. -/
theorem C18_case_sensitive (s1 s2 : List (List Char)) :
    marked (lcs (fun a b => H2.Str.equals a b false) s1 s2).1 s1 =
      marked (lcs (fun a b => H2.Str.equals a b false) s1 s2).2 s2 := by
  have h := (C18_lcs (fun a b => H2.Str.equals a b false) s1 s2).2.2.1
  generalize marked (lcs (fun a b => H2.Str.equals a b false) s1 s2).1 s1 = u at h
  generalize marked (lcs (fun a b => H2.Str.equals a b false) s1 s2).2 s2 = v at h
  induction h with
  | nil => rfl
  | cons h1 _ ih =>
    simp [H2.Str.equals] at h1
    rw [h1, ih]

/-- **C18.** Everything is marked exactly when the two texts are equal. -/
theorem C18_all_marked {α : Type} (eq : α → α → Bool) (hr : ∀ a, eq a a = true) (s : List α) :
    marked (lcs eq s s).1 s = s := by
  have h := (C18_lcs eq s s).2.2.2 s s (List.Sublist.refl s) (List.Sublist.refl s) (by
    induction s with
    | nil => exact .nil
    | cons x s ih => exact .cons (hr x) ih)
  exact (marked_sublist _ _).eq_of_length_le h

/-! ### C19 -/

/-- **C19.** The computed distance is the least number of single character insertions, deletions and
substitutions that turn one text into the other (lower-cased when caseless); no index is out of range. -/
theorem C19_levenshtein (caseless : Bool) (s t : List Char) :
    ∃ n, levenshtein caseless s t = some n ∧ IsDistance (folded caseless s) (folded caseless t) n := by
  obtain ⟨n, h1, h2⟩ := levenshtein_least caseless s t
  exact ⟨n, h1, least_distance h2⟩

theorem align_zero {s t : List Char} {n : Nat} (h : Align s t n) (hn : n = 0) : s = t := by
  induction h with
  | nil => rfl
  | keep x _ ih => rw [ih hn]
  | _ => omega

theorem least_unique {s t : List Char} {n m : Nat} (h1 : Least s t n) (h2 : Least s t m) : n = m := by
  have := h1.2 m h2.1
  have := h2.2 n h1.1
  omega

theorem least_zero {s t : List Char} {n : Nat} (h : Least s t n) : n = 0 ↔ s = t := by
  constructor
  · exact align_zero h.1
  · intro e; subst e
    have := h.2 0 (align_refl s); omega

/-- **C19.** Distance is symmetric. -/
theorem C19_symmetric (caseless : Bool) (s t : List Char) :
    levenshtein caseless s t = levenshtein caseless t s := by
  obtain ⟨n, h1, h2⟩ := levenshtein_least caseless s t
  obtain ⟨m, h3, h4⟩ := levenshtein_least caseless t s
  rw [h1, h3]
  have : Least (folded caseless s) (folded caseless t) m :=
    ⟨align_sym h4.1, fun k hk => h4.2 k (align_sym hk)⟩
  rw [least_unique h2 this]

theorem align_le_max (s t : List Char) : ∃ n, n ≤ max s.length t.length ∧ Align s t n := by
  induction s generalizing t with
  | nil => exact ⟨t.length, by simp, (least_nil_left t).1⟩
  | cons x s ih =>
    cases t with
    | nil => exact ⟨(x :: s).length, by simp, (least_nil_right _).1⟩
    | cons y t =>
      obtain ⟨n, h1, h2⟩ := ih t
      exact ⟨n + 1, by simp; omega, .sub x y h2⟩

/-- **C19.** The similarity is 1 exactly for equal texts. -/
theorem C19_similarity_one (caseless : Bool) (s t : List Char) :
    estimate caseless s t = some 1 ↔ folded caseless s = folded caseless t := by
  unfold estimate
  by_cases h0 : s.length = 0 ∧ t.length = 0
  · rw [if_pos h0]
    have h1 := List.length_eq_zero_iff.1 h0.1
    have h2 := List.length_eq_zero_iff.1 h0.2
    simp [h1, h2]
  · rw [if_neg h0]
    obtain ⟨n, h1, h2⟩ := levenshtein_least caseless s t
    rw [h1, ← least_zero h2]
    rw [Option.map_some, Option.some.injEq]
    have hpos : (0 : Rat) < ((s.length + t.length : Nat) : Rat) * (1 / 2) := by
      have : (0 : Rat) < ((s.length + t.length : Nat) : Rat) := by
        have : 0 < s.length + t.length := by omega
        exact_mod_cast this
      grind
    generalize ((s.length + t.length : Nat) : Rat) * (1 / 2) = d at hpos
    constructor
    · intro h
      have h3 : (n : Rat) / d = 0 := by grind
      have h4 : (n : Rat) = 0 := by
        have := Rat.div_mul_cancel (a := (n : Rat)) (b := d) (by grind)
        rw [h3] at this; grind
      exact_mod_cast h4
    · intro h; subst h
      have : ((0 : Nat) : Rat) / d = 0 := by
        rw [Rat.div_def]; grind
      rw [this]; grind

/-- The score is documented to run from 0 ("absolute not match") to 1, but texts of different
lengths score below 0. -/
theorem C19_similarity_negative : estimate false "abc".toList [] = some (-1) := by decide +kernel

/-! ### The hypotheses are met -/

example : levenshtein false "kitten".toList "sitting".toList = some 3 := by decide +kernel
example : levenshtein true "ABC".toList "abd".toList = some 1 := by decide +kernel
example : (marked (lcs (fun a b : Char => a == b) "abcbdab".toList "bdcaba".toList).1 "abcbdab".toList).length = 4 := by
  decide +kernel
example : IsDistance ['a'] ['b'] 1 := ⟨.more (.done _) (.sub [] [] 'a' 'b'), fun m hm => by
  cases hm with
  | more => omega⟩

end H2.Diff
