import Verif.Amount.Spec
import Verif.Console.Lemmas
/-! Working lemmas of area Amount. -/
namespace H2.Amount
open H2.Console (Str decimal)
open Spec

theorem value_append (a b : Str) (n : Nat) : value (a ++ b) n = value b (value a n) := by
  induction a generalizing n with
  | nil => rfl
  | cons c a ih => exact ih _

theorem value_shift (b : Str) (n : Nat) : value b n = n * 10 ^ b.length + value b 0 := by
  induction b generalizing n with
  | nil => simp [value]
  | cons c b ih =>
    simp only [value, List.length_cons]
    rw [ih, ih (0 * 10 + _)]
    rw [Nat.pow_succ]
    grind

theorem decimal_digit {n : Nat} {c : Char} (h : c ∈ decimal n) : c.isDigit = true :=
  Nat.isDigit_of_mem_toDigits (by omega) (by omega) h

theorem digit_value : ∀ d < 10, (Nat.digitChar d).toNat - 48 = d := by decide

theorem value_decimal (n : Nat) : value (decimal n) 0 = n := by
  induction n using Nat.strongRecOn with
  | ind n ih =>
    by_cases h : n < 10
    · rw [decimal, Nat.toDigits_of_lt_base h]
      simp only [value, digit_value n h]; omega
    · rw [decimal, Nat.toDigits_of_base_le (by omega) (by omega), value_append]
      have := ih (n / 10) (by omega)
      rw [decimal] at this
      rw [this]
      simp only [value, digit_value (n % 10) (by omega)]; omega

theorem decimal_ne (n : Nat) : decimal n ≠ [] := Nat.toDigits_ne_nil

theorem takeWhile_all {α : Type} (p : α → Bool) (a b : List α) (ha : ∀ x ∈ a, p x = true) (hb : ∀ x ∈ b.head?, p x = false) :
    (a ++ b).takeWhile p = a ∧ (a ++ b).dropWhile p = b := by
  induction a with
  | nil =>
    cases b with
    | nil => exact ⟨rfl, rfl⟩
    | cons x b =>
      have := hb x (by simp)
      simp [List.takeWhile_cons, List.dropWhile_cons, this]
  | cons x a ih =>
    have h := ha x (by simp)
    obtain ⟨i, j⟩ := ih (fun y hy => ha y (by simp [hy]))
    simp [List.takeWhile_cons, List.dropWhile_cons, h, i, j]

theorem number_decimal (n : Nat) : number (decimal n) = some (n * 1000) := by
  have h := takeWhile_all Char.isDigit (decimal n) [] (fun c hc => decimal_digit hc) (by simp)
  rw [List.append_nil] at h
  simp only [number, h.1, h.2]
  rw [if_neg (decimal_ne n), value_decimal]

/-- The digits behind the point. -/
def pad (d m : Nat) : Str := List.replicate (d - (decimal m).length) '0' ++ decimal m

theorem pad_ok (d : Nat) (hd : d = 1 ∨ d = 2 ∨ d = 3) (m : Nat) (hm : m < 10 ^ d) :
    (pad d m).length = d ∧ (pad d m).all Char.isDigit = true ∧ value (pad d m) 0 = m := by
  have len : ∀ (d m : Nat), 0 < d → m < 10 ^ d → (decimal m).length ≤ d := by
    intro d
    induction d with
    | zero => intro m h; omega
    | succ d ih =>
      intro m _ hm
      by_cases h : m < 10
      · rw [decimal, Nat.toDigits_of_lt_base h]; simp
      · rw [decimal, Nat.toDigits_of_base_le (by omega) (by omega), List.length_append]
        have h1 : m / 10 < 10 ^ d := by rw [Nat.pow_succ] at hm; omega
        have h2 : 0 < d := by
          rcases Nat.eq_zero_or_pos d with h0 | h0
          · subst h0; simp at hm; omega
          · exact h0
        have := ih (m / 10) h2 h1
        rw [decimal] at this
        simp; omega
  have hl := len d m (by omega) hm
  have hz : ∀ k, value (List.replicate k '0') 0 = 0 := by
    intro k
    induction k with
    | zero => rfl
    | succ k ih => rw [List.replicate_succ]; exact ih
  refine ⟨?_, ?_, ?_⟩
  · simp only [pad, List.length_append, List.length_replicate]; omega
  · simp only [pad, List.all_append, Bool.and_eq_true, List.all_eq_true]
    refine ⟨fun c hc => by rw [List.eq_of_mem_replicate hc]; decide, fun c hc => decimal_digit hc⟩
  · rw [pad, value_append, hz, value_decimal]

theorem point_eq (d n : Nat) : point d n = decimal (n / 10 ^ d) ++ '.' :: pad d (n % 10 ^ d) := by
  simp [point, pad]

theorem number_point (d : Nat) (hd : d = 1 ∨ d = 2 ∨ d = 3) (n : Nat) : number (point d n) = some (n * 10 ^ (3 - d)) := by
  rw [point_eq]
  obtain ⟨h1, h2, h3⟩ := pad_ok d hd (n % 10 ^ d) (Nat.mod_lt _ (Nat.pow_pos (by omega)))
  have h := takeWhile_all Char.isDigit (decimal (n / 10 ^ d)) ('.' :: pad d (n % 10 ^ d)) (fun c hc => decimal_digit hc)
    (by intro x hx; simp at hx; subst hx; decide)
  simp only [number, h.1, h.2]
  rw [if_pos ⟨decimal_ne _, by intro e; rw [e] at h1; simp at h1; omega, h2, by omega⟩, h1]
  rw [value_append, value_decimal, value_shift, h1, h3, Nat.mul_comm (n / 10 ^ d), Nat.div_add_mod]

theorem figure_point (d : Nat) (hd : d = 1 ∨ d = 2 ∨ d = 3) (n : Nat) : ∀ c ∈ point d n, figure c = true := by
  intro c hc
  obtain ⟨_, h2, _⟩ := pad_ok d hd (n % 10 ^ d) (Nat.mod_lt _ (Nat.pow_pos (by omega)))
  rw [point_eq] at hc
  rcases List.mem_append.1 hc with h | h
  · simp [figure, decimal_digit h]
  · rcases List.mem_cons.1 h with h | h
    · simp [figure, h]
    · simp [figure, List.all_eq_true.1 h2 c h]

theorem figure_decimal (n : Nat) : ∀ c ∈ decimal n, figure c = true := fun c hc => by simp [figure, decimal_digit hc]

theorem quantity_eq (us : List (String × Nat)) (s u : Str) (n k : Nat) (hs : ∀ c ∈ s, figure c = true)
    (hu : ∀ c ∈ u.head?, figure c = false) (hn : number s = some n) (hk : (us.find? fun w => w.1.toList == u).map (·.2) = some k) :
    quantity us (s ++ u) = some (n * k) := by
  obtain ⟨h1, h2⟩ := takeWhile_all figure s u hs hu
  rw [quantity, h1, h2, hn, Option.bind_some]
  cases hf : us.find? fun w => w.1.toList == u with
  | none => rw [hf] at hk; cases hk
  | some w => rw [hf] at hk; simp only [Option.map_some] at hk ⊢; injection hk with hk; rw [hk]

theorem amount_pos (us : List (String × Nat)) (s : Str) (n : Nat) (h : quantity us s = some n) (hs : ∀ c ∈ s.head?, c ≠ '-') :
    amount us s = some (n : Int) := by
  rw [amount, h]
  · rfl
  · intro r e; subst e; exact absurd rfl (hs '-' (by simp))

theorem head_figure {s : Str} (u : Str) (hne : s ≠ []) (hs : ∀ c ∈ s, figure c = true) : ∀ c ∈ (s ++ u).head?, c ≠ '-' := by
  intro c hc e
  cases s with
  | nil => exact hne rfl
  | cons x s =>
    simp at hc; subst hc
    have := hs x (by simp)
    rw [e] at this; exact absurd this (by decide)

theorem point_ne (d n : Nat) : point d n ≠ [] := by rw [point_eq]; simp

theorem amount_point (us : List (String × Nat)) (d : Nat) (hd : d = 1 ∨ d = 2 ∨ d = 3) (n : Nat) (u : Str) (k : Nat)
    (hu : ∀ c ∈ u.head?, figure c = false) (hk : (us.find? fun w => w.1.toList == u).map (·.2) = some k) :
    amount us (point d n ++ u) = some ((n * 10 ^ (3 - d) * k : Nat) : Int) :=
  amount_pos us _ _ (quantity_eq us _ u _ k (figure_point d hd n) hu (number_point d hd n) hk)
    (head_figure u (point_ne d n) (figure_point d hd n))

theorem amount_decimal (us : List (String × Nat)) (n : Nat) (u : Str) (k : Nat)
    (hu : ∀ c ∈ u.head?, figure c = false) (hk : (us.find? fun w => w.1.toList == u).map (·.2) = some k) :
    amount us (decimal n ++ u) = some ((n * 1000 * k : Nat) : Int) :=
  amount_pos us _ _ (quantity_eq us _ u _ k (figure_decimal n) hu (number_decimal n) hk)
    (head_figure u (decimal_ne n) (figure_decimal n))

/-- What a duration is read as, in thousandths of a millisecond. -/
def shown (fixed : Nat → Nat → Nat → Nat) (ms : Int) : Int :=
  if ms < 100 then ms * 1000
  else if ms < 60000 then (fixed 1 ms.toNat 1000 * 100000 : Nat)
  else if ms < 3600000 then (fixed 2 ms.toNat 60000 * 600000 : Nat)
  else (fixed 3 ms.toNat 3600000 * 3600000 : Nat)

theorem amount_duration (fixed : Nat → Nat → Nat → Nat) (ms : Int) :
    amount times (formatDuration fixed ms) = some (shown fixed ms) := by
  unfold formatDuration shown
  by_cases h1 : ms < 100
  · rw [if_pos h1, if_pos h1, signed]
    by_cases h0 : ms < 0
    · rw [if_pos h0]
      show amount times ('-' :: (decimal (-ms).toNat ++ " milliseconds".toList)) = _
      rw [amount, quantity_eq times (decimal (-ms).toNat) " milliseconds".toList _ 1 (figure_decimal _) (by decide) (number_decimal _) (by decide +kernel)]
      simp only [Option.map_some]; congr 1; omega
    · rw [if_neg h0, amount_decimal times _ " milliseconds".toList 1 (by decide) (by decide +kernel)]
      congr 1; omega
  · rw [if_neg h1, if_neg h1]
    by_cases h2 : ms < 60000
    · rw [if_pos (show ms < 1000 * 60 by omega), if_pos h2, List.append_assoc]
      split
      · rw [amount_point times 1 (by simp) _ _ 1000 (by decide) (by decide +kernel)]; simp only [Nat.reducePow, Nat.reduceSub, Nat.mul_assoc, Nat.reduceMul]
      · rw [amount_point times 1 (by simp) _ _ 1000 (by decide) (by decide +kernel)]; simp only [Nat.reducePow, Nat.reduceSub, Nat.mul_assoc, Nat.reduceMul]
    · rw [if_neg (show ¬ ms < 1000 * 60 by omega), if_neg h2]
      by_cases h3 : ms < 3600000
      · rw [if_pos (show ms < 1000 * 60 * 60 by omega), if_pos h3, List.append_assoc]
        split
        · rw [amount_point times 2 (by simp) _ _ 60000 (by decide) (by decide +kernel)]; simp only [Nat.reducePow, Nat.reduceSub, Nat.mul_assoc, Nat.reduceMul]
        · rw [amount_point times 2 (by simp) _ _ 60000 (by decide) (by decide +kernel)]; simp only [Nat.reducePow, Nat.reduceSub, Nat.mul_assoc, Nat.reduceMul]
      · rw [if_neg (show ¬ ms < 1000 * 60 * 60 by omega), if_neg h3, List.append_assoc]
        split
        · rw [amount_point times 3 (by simp) _ _ 3600000 (by decide) (by decide +kernel)]; simp only [Nat.reducePow, Nat.reduceSub, Nat.mul_assoc, Nat.reduceMul]
        · rw [amount_point times 3 (by simp) _ _ 3600000 (by decide) (by decide +kernel)]; simp only [Nat.reducePow, Nat.reduceSub, Nat.mul_assoc, Nat.reduceMul]

/-- What a volume is read as, in thousandths of a byte. -/
def weighed (fixed : Nat → Nat → Nat → Nat) (v : Nat) : Int :=
  if v < 1024 then (v * 1000 : Nat)
  else if v < 1024 * 1024 then (fixed 1 v 1024 * 102400 : Nat)
  else if v < 1024 * 1024 * 1024 then (fixed 2 v (1024 * 1024) * 10485760 : Nat)
  else (fixed 3 v (1024 * 1024 * 1024) * 1073741824 : Nat)

theorem amount_volume (fixed : Nat → Nat → Nat → Nat) (v : Nat) : amount sizes (formatVolume fixed v) = some (weighed fixed v) := by
  unfold formatVolume weighed
  by_cases h1 : v < 1024
  · rw [if_pos h1, if_pos h1]
    have := amount_decimal sizes v [] 1 (by decide) (by decide +kernel)
    rw [List.append_nil] at this
    rw [this]; congr 2; omega
  · rw [if_neg h1, if_neg h1]
    by_cases h2 : v < 1024 * 1024
    · rw [if_pos h2, if_pos h2, amount_point sizes 1 (by simp) _ _ 1024 (by decide) (by decide +kernel)]; simp only [Nat.reducePow, Nat.reduceSub, Nat.mul_assoc, Nat.reduceMul]
    · rw [if_neg h2, if_neg h2]
      by_cases h3 : v < 1024 * 1024 * 1024
      · rw [if_pos h3, if_pos h3, amount_point sizes 2 (by simp) _ _ (1024 * 1024) (by decide) (by decide +kernel)]; simp only [Nat.reducePow, Nat.reduceSub, Nat.mul_assoc, Nat.reduceMul]
      · rw [if_neg h3, if_neg h3, amount_point sizes 3 (by simp) _ _ (1024 * 1024 * 1024) (by decide) (by decide +kernel)]; simp only [Nat.reducePow, Nat.reduceSub, Nat.mul_assoc, Nat.reduceMul]

end H2.Amount

namespace H2.Amount
open H2.Console (Str decimal units formatUnits words before said Gap Clean plural words_gap words_clean clean_decimal)
open H2.Runner (Stats Bucket)
open Spec

/-- A part of a line, with its words. -/
def Full (a : Str) (ws : List Str) : Prop := ∀ r, Gap r → words (a ++ r) = ws ++ words r

theorem Full.nil : Full [] [] := fun _ _ => rfl

theorem gap_blank (r : Str) : Gap (' ' :: r) := ⟨' ', r, rfl, .inl rfl⟩
theorem gap_comma (r : Str) : Gap (',' :: r) := ⟨',', r, rfl, .inr (.inl rfl)⟩

theorem Full.clean {w : Str} (h : Clean w) : Full w [w] := fun _ hr => words_clean h hr

theorem Full.two {a : Str} {ws : List Str} {w : Str} (ha : Full a ws) (h : Clean w) : Full (a ++ ' ' :: w) (ws ++ [w]) := by
  intro r hr
  rw [List.append_assoc, List.cons_append, ha _ (gap_blank _), words_gap ' ' (.inl rfl), words_clean h hr, List.append_assoc]; rfl

theorem Full.comma {a p : Str} {ws vs : List Str} (ha : Full a ws) (hp : Full p vs) : Full (a ++ ", ".toList ++ p) (ws ++ vs) := by
  intro r hr
  have e : a ++ ", ".toList ++ p ++ r = a ++ ',' :: ' ' :: (p ++ r) := by simp
  rw [e, ha _ (gap_comma _), words_gap ',' (.inr (.inl rfl)), words_gap ' ' (.inl rfl), hp r hr, List.append_assoc]

theorem Full.empty {ws : List Str} (h : Full [] ws) : ws = [] := by
  have := h [' '] (gap_blank [])
  simpa using congrArg List.length this

theorem Full.join {a p : Str} {ws vs : List Str} (ha : Full a ws) (hp : Full p vs) (c : Bool) :
    Full (H2.Amount.comma a c p) (ws ++ if c then vs else []) := by
  unfold H2.Amount.comma
  cases c with
  | false => simpa using ha
  | true =>
    simp only [if_true]
    by_cases h : a = []
    · subst h
      rw [ha.empty]
      simpa using hp
    · rw [if_pos h]; exact ha.comma hp

theorem Full.count (n : Nat) {w : Str} (h : Clean w) : Full (decimal n ++ ' ' :: w) [decimal n, w] :=
  (Full.clean (clean_decimal n)).two h

theorem Full.units (n : Nat) (w : String) (h1 : Clean w.toList) (h2 : Clean (w ++ "s").toList) :
    Full (formatUnits n (' ' :: w.toList)) [decimal n, plural n w] := by
  unfold formatUnits plural
  split
  · have e : decimal n ++ ' ' :: w.toList ++ "s".toList = decimal n ++ ' ' :: (w ++ "s").toList := by simp
    rw [e]; exact .count n h2
  · rw [List.append_nil]; exact .count n h1

theorem words_full {a : Str} {ws : List Str} (h : Full a ws) : words a = ws := by
  have trail : ∀ (s read : Str), H2.Console.wordsFrom read (s ++ [' ']) = H2.Console.wordsFrom read s := by
    intro s
    induction s with
    | nil => intro read; simp [H2.Console.wordsFrom]
    | cons c s ih =>
      intro read
      rw [List.cons_append, H2.Console.wordsFrom_cons, H2.Console.wordsFrom_cons, ih, ih]
  have := h [' '] (gap_blank [])
  rw [words, trail] at this
  rw [words, this]
  have : words [' '] = [] := by decide
  rw [this, List.append_nil]

theorem clean_of_figure {s : Str} (u : Str) (hne : s ≠ []) (hs : ∀ c ∈ s, figure c = true) (hu : ∀ c ∈ u, c ≠ ' ' ∧ c ≠ ',' ∧ c ≠ '(' ∧ c ≠ ')') :
    Clean (s ++ u) := by
  refine ⟨by simp [hne], ?_⟩
  intro c hc
  rcases List.mem_append.1 hc with h | h
  · have := hs c h
    refine ⟨?_, ?_, ?_, ?_⟩ <;> (intro e; subst e; exact absurd this (by decide))
  · exact hu c h

theorem clean_volume (fixed : Nat → Nat → Nat → Nat) (v : Nat) : Clean (formatVolume fixed v) := by
  unfold formatVolume
  split
  · have := clean_of_figure [] (decimal_ne v) (figure_decimal v) (by simp)
    simpa using this
  split
  · exact clean_of_figure _ (point_ne _ _) (figure_point 1 (by simp) _) (by decide)
  split
  · exact clean_of_figure _ (point_ne _ _) (figure_point 2 (by simp) _) (by decide)
  · exact clean_of_figure _ (point_ne _ _) (figure_point 3 (by simp) _) (by decide)

/-- The unit of a duration. -/
def IsUnit (u : Str) : Prop := u ∈ ["milliseconds".toList, "second".toList, "seconds".toList, "minute".toList, "minutes".toList, "hour".toList, "hours".toList]

theorem unit_clean {u : Str} (h : IsUnit u) : Clean u := by revert h; unfold IsUnit; revert u; decide

/-- A duration is a number and a unit. -/
theorem duration_parts (fixed : Nat → Nat → Nat → Nat) (ms : Int) :
    ∃ n u, formatDuration fixed ms = n ++ ' ' :: u ∧ Clean n ∧ IsUnit u ∧ ∃ c ∈ n, c.isDigit = true := by
  have dig : ∀ (d n : Nat), ∃ c ∈ point d n, c.isDigit = true := by
    intro d n
    rw [point_eq]
    obtain ⟨c, l, e⟩ : ∃ c l, decimal (n / 10 ^ d) = c :: l := by
      cases h : decimal (n / 10 ^ d) with
      | nil => exact absurd h (decimal_ne _)
      | cons c l => exact ⟨c, l, rfl⟩
    exact ⟨c, by simp [e], decimal_digit (n := n / 10 ^ d) (by simp [e])⟩
  have cp : ∀ (d : Nat) (hd : d = 1 ∨ d = 2 ∨ d = 3) (n : Nat), Clean (point d n) := by
    intro d hd n
    simpa using clean_of_figure [] (point_ne d n) (figure_point d hd n) (by simp)
  unfold formatDuration
  split
  · refine ⟨signed ms, "milliseconds".toList, rfl, ?_, by simp [IsUnit], ?_⟩
    · unfold signed
      split
      · refine ⟨by simp, ?_⟩
        intro c hc
        rcases List.mem_cons.1 hc with h | h
        · subst h; decide
        · exact (clean_decimal _).2 c h
      · exact clean_decimal _
    · have : ∃ c ∈ decimal (-ms).toNat, c.isDigit = true := by
        cases h : decimal (-ms).toNat with
        | nil => exact absurd h (decimal_ne _)
        | cons c l => exact ⟨c, by simp, decimal_digit (n := (-ms).toNat) (by simp [h])⟩
      have this' : ∃ c ∈ decimal ms.toNat, c.isDigit = true := by
        cases h : decimal ms.toNat with
        | nil => exact absurd h (decimal_ne _)
        | cons c l => exact ⟨c, by simp, decimal_digit (n := ms.toNat) (by simp [h])⟩
      unfold signed
      split
      · obtain ⟨c, h1, h2⟩ := this; exact ⟨c, by simp [h1], h2⟩
      · exact this'
  split
  · refine ⟨point 1 (fixed 1 ms.toNat 1000), if ms = 1000 then "second".toList else "seconds".toList, ?_, cp 1 (by simp) _, ?_, dig 1 _⟩
    · split <;> simp
    · split <;> simp [IsUnit]
  split
  · refine ⟨point 2 (fixed 2 ms.toNat 60000), if ms = 60000 then "minute".toList else "minutes".toList, ?_, cp 2 (by simp) _, ?_, dig 2 _⟩
    · split <;> simp
    · split <;> simp [IsUnit]
  · refine ⟨point 3 (fixed 3 ms.toNat 3600000), if ms = 3600000 then "hour".toList else "hours".toList, ?_, cp 3 (by simp) _, ?_, dig 3 _⟩
    · split <;> simp
    · split <;> simp [IsUnit]

/-- The counts of a suite that are told. -/
def told (t : Stats) : List (Str × Str) :=
  ([Bucket.passed, .failed, .warning, .todo, .filtered, .ignored].filter fun b => t.get b ≠ 0).map fun b => (decimal (t.get b).toNat, (said b).toList)

theorem full_outcomes (t : Stats) : Full (outcomes t) ((told t).flatMap fun p => [p.1, p.2]) := by
  have h := (((((Full.nil.join (Full.count t.passed.toNat (w := "passed".toList) (by decide)) (decide (t.passed ≠ 0))).join
    (Full.count t.failed.toNat (w := "failed".toList) (by decide)) (decide (t.failed ≠ 0))).join
    (Full.count t.warning.toNat (w := "warning".toList) (by decide)) (decide (t.warning ≠ 0))).join
    (Full.count t.todo.toNat (w := "todo".toList) (by decide)) (decide (t.todo ≠ 0))).join
    (Full.count t.filtered.toNat (w := "filtered".toList) (by decide)) (decide (t.filtered ≠ 0))).join
    (Full.count t.ignored.toNat (w := "ignored".toList) (by decide)) (decide (t.ignored ≠ 0))
  have e : ((told t).flatMap fun p => [p.1, p.2]) = [] ++ (if decide (t.passed ≠ 0) = true then [decimal t.passed.toNat, "passed".toList] else []) ++
      (if decide (t.failed ≠ 0) = true then [decimal t.failed.toNat, "failed".toList] else []) ++
      (if decide (t.warning ≠ 0) = true then [decimal t.warning.toNat, "warning".toList] else []) ++
      (if decide (t.todo ≠ 0) = true then [decimal t.todo.toNat, "todo".toList] else []) ++
      (if decide (t.filtered ≠ 0) = true then [decimal t.filtered.toNat, "filtered".toList] else []) ++
      (if decide (t.ignored ≠ 0) = true then [decimal t.ignored.toNat, "ignored".toList] else []) := by
    unfold told
    have cut : ∀ (b : Bucket) (bs : List Bucket), (((b :: bs).filter fun b => t.get b ≠ 0).map fun b => (decimal (t.get b).toNat, (said b).toList)).flatMap (fun p => [p.1, p.2])
        = (if decide (t.get b ≠ 0) = true then [decimal (t.get b).toNat, (said b).toList] else []) ++
          ((bs.filter fun b => t.get b ≠ 0).map fun b => (decimal (t.get b).toNat, (said b).toList)).flatMap (fun p => [p.1, p.2]) := by
      intro b bs
      by_cases hb : t.get b ≠ 0
      · rw [List.filter_cons_of_pos (by simpa using hb)]; simp [hb]
      · rw [List.filter_cons_of_neg (by simpa using hb)]; simp at hb; simp [hb]
    rw [cut, cut, cut, cut, cut, cut]
    simp only [List.filter_nil, List.map_nil, List.flatMap_nil, List.append_nil, List.nil_append, List.append_assoc]
    rfl
  rw [e]
  exact h

theorem find_told (t : Stats) (b : Bucket) : ((told t).find? fun p => p.2 == (said b).toList).map (·.1) =
    if t.get b ≠ 0 then some (decimal (t.get b).toNat) else none := by
  have inj : ∀ c, ((said c).toList == (said b).toList) = decide (c = b) := by cases b <;> intro c <;> cases c <;> decide
  have key : ∀ bs : List Bucket, (((bs.filter fun b => t.get b ≠ 0).map fun b => (decimal (t.get b).toNat, (said b).toList)).find? fun p => p.2 == (said b).toList).map (·.1)
      = if b ∈ bs ∧ t.get b ≠ 0 then some (decimal (t.get b).toNat) else none := by
    intro bs
    induction bs with
    | nil => simp
    | cons c bs ih =>
      by_cases hc : t.get c ≠ 0
      · rw [List.filter_cons_of_pos (by simpa using hc), List.map_cons]
        by_cases e : c = b
        · subst e
          rw [List.find?_cons_of_pos (by simp)]
          rw [if_pos ⟨by simp, hc⟩]; rfl
        · rw [List.find?_cons_of_neg (by simp only [inj]; simpa using e), ih]
          have : b ∈ c :: bs ↔ b ∈ bs := by simp [show ¬ b = c from fun x => e x.symm]
          simp only [this]
      · rw [List.filter_cons_of_neg (by simpa using hc), ih]
        by_cases e : c = b
        · subst e; rw [if_neg (fun x => hc x.2), if_neg (fun x => hc x.2)]
        · have : b ∈ c :: bs ↔ b ∈ bs := by simp [show ¬ b = c from fun x => e x.symm]
          simp only [this]
  rw [told, key]
  have : b ∈ [Bucket.passed, .failed, .warning, .todo, .filtered, .ignored] := by cases b <;> decide
  simp only [this, true_and]

end H2.Amount
