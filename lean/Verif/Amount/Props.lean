import Verif.Amount.Lemmas
/-! C91: durations, volumes and the lines about cases and suites. -/
namespace H2.Amount
open H2.Console (Str decimal words before said plural before_pairs before_at before_none)
open H2.Runner (Stats Bucket)
open Spec

/-- Rounding to nearest, as `printf` does. -/
def nearest (d a b : Nat) : Nat := (2 * a * 10 ^ d + b) / (2 * b)

theorem nearest_ok : Printf nearest := by
  refine ⟨?_, ?_, ?_⟩
  · intro d a b hb _
    have h := Nat.div_add_mod (2 * a * 10 ^ d + b) (2 * b)
    have hm := Nat.mod_lt (2 * a * 10 ^ d + b) (show 2 * b > 0 by omega)
    have e : 2 * b * nearest d a b = 2 * (nearest d a b * b) := by rw [Nat.mul_comm (nearest d a b), Nat.mul_assoc]
    have e2 : 2 * a * 10 ^ d = 2 * (a * 10 ^ d) := Nat.mul_assoc _ _ _
    have h' : 2 * b * nearest d a b + (2 * a * 10 ^ d + b) % (2 * b) = 2 * a * 10 ^ d + b := h
    rw [e] at h'
    omega
  · intro d a a' b _ h
    refine Nat.div_le_div_right (Nat.add_le_add_right (Nat.mul_le_mul_right _ (by omega)) _)
  · intro d k b hb _
    have e : 2 * (k * b) * 10 ^ d + b = b + (2 * b) * (k * 10 ^ d) := by grind
    rw [nearest, e, Nat.add_mul_div_left _ _ (by omega), Nat.div_eq_of_lt (by omega)]; omega

/-- **C91 (durations).**  A duration reads as the time it took, up to the last digit: exactly below a tenth of a second. -/
theorem C91_duration (fixed : Nat → Nat → Nat → Nat) (hf : Printf fixed) (ms : Int) (h : ms < 10 ^ 12) :
    ∃ v, amount times (formatDuration fixed ms) = some v ∧ (v - ms * 1000).natAbs < grain ms * 1000 ∧ (ms < 100 → v = ms * 1000) := by
  refine ⟨shown fixed ms, amount_duration fixed ms, ?_, ?_⟩
  · unfold shown grain
    by_cases h1 : ms < 100
    · rw [if_pos h1, if_pos h1]; omega
    · rw [if_neg h1, if_neg h1]
      by_cases h2 : ms < 60000
      · rw [if_pos h2, if_pos h2]
        have := hf.near 1 ms.toNat 1000 (by omega) (by omega)
        omega
      · rw [if_neg h2, if_neg h2]
        by_cases h3 : ms < 3600000
        · rw [if_pos h3, if_pos h3]
          have := hf.near 2 ms.toNat 60000 (by omega) (by omega)
          omega
        · rw [if_neg h3, if_neg h3]
          have := hf.near 3 ms.toNat 3600000 (by omega) (by omega)
          omega
  · intro h1; unfold shown; rw [if_pos h1]

example : formatDuration nearest 99 = "99 milliseconds".toList ∧ formatDuration nearest 100 = "0.1 seconds".toList
    ∧ formatDuration nearest 1000 = "1.0 second".toList ∧ formatDuration nearest 59999 = "60.0 seconds".toList
    ∧ formatDuration nearest 90000 = "1.50 minutes".toList ∧ formatDuration nearest 5400000 = "1.500 hours".toList
    ∧ formatDuration nearest (-7) = "-7 milliseconds".toList
    ∧ amount times "1.50 minutes".toList = some 90000000 := by decide +kernel

/-- **C91 (longer never reads as shorter).** -/
theorem C91_duration_order (fixed : Nat → Nat → Nat → Nat) (hf : Printf fixed) (a b : Int) (h : a ≤ b) :
    ∃ v w, amount times (formatDuration fixed a) = some v ∧ amount times (formatDuration fixed b) = some w ∧ v ≤ w := by
  refine ⟨_, _, amount_duration fixed a, amount_duration fixed b, ?_⟩
  have w1 := hf.mono 1 100 b.toNat 1000 (by omega)
  have w1' := hf.near 1 100 1000 (by omega) (by omega)
  have w2 := hf.whole 1 60 1000 (by omega) (by omega)
  have w3 := hf.whole 2 1 60000 (by omega) (by omega)
  have w4 := hf.whole 2 60 60000 (by omega) (by omega)
  have w5 := hf.whole 3 1 3600000 (by omega) (by omega)
  have m1 := hf.mono 1 a.toNat b.toNat 1000 (by omega) (by omega)
  have m2 := hf.mono 2 a.toNat b.toNat 60000 (by omega) (by omega)
  have m3 := hf.mono 3 a.toNat b.toNat 3600000 (by omega) (by omega)
  have a1 := hf.mono 1 a.toNat (60 * 1000) 1000 (by omega)
  have b2 := hf.mono 2 (1 * 60000) b.toNat 60000 (by omega)
  have a2 := hf.mono 2 a.toNat (60 * 60000) 60000 (by omega)
  have b3 := hf.mono 3 (1 * 3600000) b.toNat 3600000 (by omega)
  unfold shown
  by_cases x1 : a < 100
  · rw [if_pos x1]
    by_cases y1 : b < 100
    · rw [if_pos y1]; omega
    · rw [if_neg y1]
      by_cases y2 : b < 60000
      · rw [if_pos y2]
        have := w1 (by omega)
        omega
      · rw [if_neg y2]
        by_cases y3 : b < 3600000
        · rw [if_pos y3]; have := b2 (by omega); omega
        · rw [if_neg y3]; have := b3 (by omega); omega
  · rw [if_neg x1, if_neg (show ¬ b < 100 by omega)]
    by_cases x2 : a < 60000
    · rw [if_pos x2]
      have := a1 (by omega)
      by_cases y2 : b < 60000
      · rw [if_pos y2]; omega
      · rw [if_neg y2]
        by_cases y3 : b < 3600000
        · rw [if_pos y3]; have := b2 (by omega); omega
        · rw [if_neg y3]; have := b3 (by omega); omega
    · rw [if_neg x2, if_neg (show ¬ b < 60000 by omega)]
      by_cases x3 : a < 3600000
      · rw [if_pos x3]
        have := a2 (by omega)
        by_cases y3 : b < 3600000
        · rw [if_pos y3]; omega
        · rw [if_neg y3]; have := b3 (by omega); omega
      · rw [if_neg x3, if_neg (show ¬ b < 3600000 by omega)]; omega

example : Printf nearest ∧ (59999 : Int) ≤ 60000 := ⟨nearest_ok, by decide⟩

/-- **C91 (volumes).**  A volume reads as the bytes there were, up to the last digit: exactly below a kilobyte. -/
theorem C91_volume (fixed : Nat → Nat → Nat → Nat) (hf : Printf fixed) (v : Nat) (h : v < 10 ^ 12) :
    ∃ w, amount sizes (formatVolume fixed v) = some w ∧ (w - v * 1000).natAbs < grit v ∧ (v < 1024 → w = v * 1000) := by
  refine ⟨weighed fixed v, amount_volume fixed v, ?_, ?_⟩
  · unfold weighed grit
    by_cases h1 : v < 1024
    · rw [if_pos h1, if_pos h1]; omega
    · rw [if_neg h1, if_neg h1]
      by_cases h2 : v < 1024 * 1024
      · rw [if_pos h2, if_pos h2]
        have := hf.near 1 v 1024 (by omega) (by omega)
        omega
      · rw [if_neg h2, if_neg h2]
        by_cases h3 : v < 1024 * 1024 * 1024
        · rw [if_pos h3, if_pos h3]
          have := hf.near 2 v (1024 * 1024) (by omega) (by omega)
          omega
        · rw [if_neg h3, if_neg h3]
          have := hf.near 3 v (1024 * 1024 * 1024) (by omega) (by omega)
          omega
  · intro h1; unfold weighed; rw [if_pos h1]; omega

example : formatVolume nearest 1023 = "1023".toList ∧ formatVolume nearest 1536 = "1.5KB".toList
    ∧ formatVolume nearest 1048575 = "1024.0KB".toList ∧ formatVolume nearest 1048576 = "1.00MB".toList
    ∧ formatVolume nearest 5368709120 = "5.000GB".toList ∧ amount sizes "1.5KB".toList = some 1536000 := by decide +kernel

/-- **C91 (more never reads as less).** -/
theorem C91_volume_order (fixed : Nat → Nat → Nat → Nat) (hf : Printf fixed) (a b : Nat) (h : a ≤ b) :
    ∃ v w, amount sizes (formatVolume fixed a) = some v ∧ amount sizes (formatVolume fixed b) = some w ∧ v ≤ w := by
  refine ⟨_, _, amount_volume fixed a, amount_volume fixed b, ?_⟩
  have w1 := hf.whole 1 1 1024 (by omega) (by omega)
  have w2 := hf.whole 1 1024 1024 (by omega) (by omega)
  have w3 := hf.whole 2 1 (1024 * 1024) (by omega) (by omega)
  have w4 := hf.whole 2 1024 (1024 * 1024) (by omega) (by omega)
  have w5 := hf.whole 3 1 (1024 * 1024 * 1024) (by omega) (by omega)
  have m1 := hf.mono 1 a b 1024 (by omega) h
  have m2 := hf.mono 2 a b (1024 * 1024) (by omega) h
  have m3 := hf.mono 3 a b (1024 * 1024 * 1024) (by omega) h
  have b1 := hf.mono 1 (1 * 1024) b 1024 (by omega)
  have a1 := hf.mono 1 a (1024 * 1024) 1024 (by omega)
  have b2 := hf.mono 2 (1 * (1024 * 1024)) b (1024 * 1024) (by omega)
  have a2 := hf.mono 2 a (1024 * (1024 * 1024)) (1024 * 1024) (by omega)
  have b3 := hf.mono 3 (1 * (1024 * 1024 * 1024)) b (1024 * 1024 * 1024) (by omega)
  unfold weighed
  by_cases x1 : a < 1024
  · rw [if_pos x1]
    by_cases y1 : b < 1024
    · rw [if_pos y1]; omega
    · rw [if_neg y1]
      by_cases y2 : b < 1024 * 1024
      · rw [if_pos y2]; have := b1 (by omega); omega
      · rw [if_neg y2]
        by_cases y3 : b < 1024 * 1024 * 1024
        · rw [if_pos y3]; have := b2 (by omega); omega
        · rw [if_neg y3]; have := b3 (by omega); omega
  · rw [if_neg x1, if_neg (show ¬ b < 1024 by omega)]
    by_cases x2 : a < 1024 * 1024
    · rw [if_pos x2]
      have := a1 (by omega)
      by_cases y2 : b < 1024 * 1024
      · rw [if_pos y2]; omega
      · rw [if_neg y2]
        by_cases y3 : b < 1024 * 1024 * 1024
        · rw [if_pos y3]; have := b2 (by omega); omega
        · rw [if_neg y3]; have := b3 (by omega); omega
    · rw [if_neg x2, if_neg (show ¬ b < 1024 * 1024 by omega)]
      by_cases x3 : a < 1024 * 1024 * 1024
      · rw [if_pos x3]
        have := a2 (by omega)
        by_cases y3 : b < 1024 * 1024 * 1024
        · rw [if_pos y3]; omega
        · rw [if_neg y3]; have := b3 (by omega); omega
      · rw [if_neg x3, if_neg (show ¬ b < 1024 * 1024 * 1024 by omega)]; omega

example : Printf nearest ∧ (1048575 : Nat) ≤ 1048576 := ⟨nearest_ok, by decide⟩

/-- Words of the outcomes, and of numbers. -/
def Early (x : Str) : Prop := (∃ n, x = decimal n) ∨ x ∈ ["-", "passed", "failed", "warning", "todo", "filtered", "ignored", "case", "cases"].map String.toList

theorem tells (fixed : Nat → Nat → Nat → Nat) (hf : Printf fixed) (pre : List Str) (hp : ∀ x ∈ pre, Early x) (asserts footprint : Nat)
    (timecost least : Int) (h1 : footprint < 10 ^ 12) (h2 : timecost < 10 ^ 12) :
    Tells (pre ++ (if 0 < asserts then [decimal asserts, plural asserts "assert"] else []) ++
      (if 0 < footprint then [formatVolume fixed footprint, "footprint".toList] else []) ++
      (if least < timecost then words (formatDuration fixed timecost) else [])) asserts footprint timecost least := by
  obtain ⟨n, u, hd, hn, hu, hdig⟩ := duration_parts fixed timecost
  have hdw : words (formatDuration fixed timecost) = [n, u] := by
    rw [hd]; exact words_full ((Full.clean hn).two (unit_clean hu))
  rw [hdw]
  have hpl : plural asserts "assert" = (if 1 < asserts then "asserts" else "assert").toList := by unfold plural; split <;> rfl
  rw [hpl]
  have dne : ∀ (k : Nat) (w : String), (∀ c ∈ w.toList, c.isDigit = false) → decimal k ≠ w.toList := by
    intro k w hw e
    cases hk : decimal k with
    | nil => exact absurd hk (decimal_ne k)
    | cons c l =>
      have h := decimal_digit (n := k) (c := c) (by simp [hk])
      rw [hw c (by rw [← e, hk]; simp)] at h; cases h
  have early : ∀ w ∈ ["assert", "asserts", "footprint"], w.toList ∉ pre := by
    intro w hw hm
    rcases hp _ hm with ⟨k, e⟩ | e
    · have f : ∀ w ∈ ["assert", "asserts", "footprint"], ∀ c ∈ w.toList, c.isDigit = false := by decide
      exact dne k w (f w hw) e.symm
    · have f : ∀ w ∈ ["assert", "asserts", "footprint"],
          w.toList ∉ ["-", "passed", "failed", "warning", "todo", "filtered", "ignored", "case", "cases"].map String.toList := by decide
      exact f w hw e
  have vne : ∀ w ∈ ["assert", "asserts", "footprint"], formatVolume fixed footprint ≠ w.toList := by
    intro w hw e
    have : ∃ c l, formatVolume fixed footprint = c :: l ∧ c.isDigit = true := by
      have dd : ∀ k r, ∃ c l, decimal k ++ r = c :: l ∧ c.isDigit = true := by
        intro k r
        cases hk : decimal k with
        | nil => exact absurd hk (decimal_ne k)
        | cons c l => exact ⟨c, l ++ r, rfl, decimal_digit (n := k) (by simp [hk])⟩
      unfold formatVolume
      split
      · have := dd footprint []; rwa [List.append_nil] at this
      split
      · rw [point_eq, List.append_assoc]; exact dd _ _
      split
      · rw [point_eq, List.append_assoc]; exact dd _ _
      · rw [point_eq, List.append_assoc]; exact dd _ _
    obtain ⟨c, l, e1, e2⟩ := this
    rw [e1] at e
    have : ∀ w ∈ ["assert", "asserts", "footprint"], ∀ c ∈ w.toList.head?, c.isDigit = false := by decide
    rw [this w hw c (by rw [← e]; rfl)] at e2; cases e2
  have dur : ∀ w ∈ ["assert", "asserts", "footprint"], w.toList ∉ (if least < timecost then [n, u] else []) := by
    intro w hw
    split
    · intro hm
      rcases List.mem_cons.1 hm with e | e
      · obtain ⟨c, hc, hdc⟩ := hdig
        rw [← e] at hc
        have : ∀ w ∈ ["assert", "asserts", "footprint"], ∀ c ∈ w.toList, c.isDigit = false := by decide
        rw [this w hw c hc] at hdc; cases hdc
      · simp only [List.mem_singleton] at e
        rw [← e] at hu
        have f : ∀ w ∈ ["assert", "asserts", "footprint"], ¬ IsUnit w.toList := by unfold IsUnit; decide
        exact f w hw hu
    · simp
  have ham : (if 1 < asserts then "asserts" else "assert") ∈ ["assert", "asserts", "footprint"] := by split <;> simp
  have hnf : (if 1 < asserts then "asserts" else "assert").toList ≠ "footprint".toList := by split <;> decide
  refine ⟨?_, ?_, ?_⟩
  · by_cases ha : 0 < asserts
    · rw [if_pos ha, if_pos ha, List.append_assoc, List.append_assoc]
      exact before_at _ pre _ _ (early _ ham) (by
        intro e
        refine dne asserts _ ?_ e
        split <;> decide)
    · rw [if_neg ha, if_neg ha]
      refine before_none _ _ ?_
      simp only [List.mem_append, List.not_mem_nil, or_false, not_or]
      refine ⟨⟨early _ ham, ?_⟩, dur _ ham⟩
      split
      · intro hm
        rcases List.mem_cons.1 hm with e | e
        · exact vne _ ham e.symm
        · simp only [List.mem_singleton] at e; exact hnf e
      · simp
  · have hpre : "footprint".toList ∉ pre ++ (if 0 < asserts then [decimal asserts, (if 1 < asserts then "asserts" else "assert").toList] else []) := by
      simp only [List.mem_append, not_or]
      refine ⟨early _ (by simp), ?_⟩
      split
      · intro hm
        rcases List.mem_cons.1 hm with e | e
        · exact dne asserts "footprint" (by decide) e.symm
        · simp only [List.mem_singleton] at e; exact hnf e.symm
      · simp
    by_cases hb : 0 < footprint
    · rw [if_pos hb, if_pos hb]
      obtain ⟨v, e1, e2, _⟩ := C91_volume fixed hf footprint h1
      refine ⟨formatVolume fixed footprint, v, ?_, e1, e2⟩
      rw [List.append_assoc]
      exact before_at "footprint" _ _ _ hpre (vne _ (by simp))
    · rw [if_neg hb, if_neg hb, List.append_nil]
      refine before_none _ _ ?_
      intro hm
      rcases List.mem_append.1 hm with e | e
      · exact hpre e
      · exact dur _ (by simp) e
  · by_cases ht : least < timecost
    · rw [if_pos ht, if_pos ht]
      obtain ⟨v, e1, e2, _⟩ := C91_duration fixed hf timecost h2
      exact ⟨_, n, u, v, rfl, by rw [← hd]; exact e1, e2⟩
    · rw [if_neg ht, if_neg ht, List.append_nil]
      intro w hw m hm e
      have notunit : ∀ x : Str, (∀ c ∈ x.head?, c.isDigit = true) → m.1.toList ≠ ' ' :: x := by
        intro x hx e
        have : ∀ m ∈ times, ∃ c, (m.1.toList.drop 1).head? = some c ∧ c.isDigit = false := by decide
        obtain ⟨c, h3, h4⟩ := this m hm
        rw [e] at h3
        have := hx c h3
        rw [h4] at this; cases this
      have mem := List.mem_of_getLast? hw
      have words1 : ∀ x ∈ ["-", "passed", "failed", "warning", "todo", "filtered", "ignored", "case", "cases"].map String.toList,
          ∀ m ∈ times, m.1.toList ≠ ' ' :: x := by decide
      have words2 : ∀ x ∈ ["assert", "asserts", "footprint"], ∀ m ∈ times, m.1.toList ≠ ' ' :: x.toList := by decide
      have hd : ∀ k : Nat, ∀ c ∈ (decimal k).head?, c.isDigit = true := by
        intro k c hc
        exact decimal_digit (n := k) (List.mem_of_mem_head? hc)
      rcases List.mem_append.1 mem with mem | mem
      · rcases List.mem_append.1 mem with mem | mem
        · rcases hp w mem with ⟨k, h⟩ | h
          · subst h; exact notunit _ (hd k) e
          · exact words1 w h m hm e
        · split at mem
          · rcases List.mem_cons.1 mem with h | h
            · subst h; exact notunit _ (hd asserts) e
            · simp only [List.mem_singleton] at h
              rw [h] at e
              exact words2 _ ham m hm e
          · simp at mem
      · split at mem
        · rename_i hb
          have hlast : w = "footprint".toList := by
            rw [if_pos hb] at hw
            rw [show ∀ (a : List Str) (x y : Str), a ++ [x, y] = (a ++ [x]) ++ [y] from fun a x y => by simp, List.getLast?_concat] at hw
            injection hw with hw; exact hw.symm
          rw [hlast] at e
          exact words2 "footprint" (by simp) m hm e
        · simp at mem

/-- **C91 (behind a case that passed).**  The line tells its assertions, its footprint and its time, each unless it is 0. -/
theorem C91_detail (fixed : Nat → Nat → Nat → Nat) (hf : Printf fixed) (asserts footprint : Nat) (timecost : Int)
    (h1 : footprint < 10 ^ 12) (h2 : timecost < 10 ^ 12) :
    Tells (words (detailLine fixed asserts footprint timecost)) asserts footprint timecost 0 := by
  have hd : Full (formatDuration fixed timecost) (words (formatDuration fixed timecost)) := by
    obtain ⟨n, u, hd, hn, hu, _⟩ := duration_parts fixed timecost
    have := (Full.clean hn).two (unit_clean hu)
    rw [hd, words_full this]; exact this
  have F := ((Full.nil.join (Full.units asserts "assert" (by decide) (by decide)) (decide (0 < asserts))).join
    ((Full.clean (clean_volume fixed footprint)).two (w := "footprint".toList) (by decide)) (decide (0 < footprint))).join
    hd (decide (0 < timecost))
  have key : ∃ pre : List Str, (∀ x ∈ pre, Early x) ∧ words (detailLine fixed asserts footprint timecost) =
      pre ++ (if 0 < asserts then [decimal asserts, plural asserts "assert"] else []) ++
      (if 0 < footprint then [formatVolume fixed footprint, "footprint".toList] else []) ++
      (if 0 < timecost then words (formatDuration fixed timecost) else []) := by
    simp only [decide_eq_true_eq, List.nil_append] at F
    unfold detailLine
    dsimp only
    by_cases hne : H2.Amount.comma (H2.Amount.comma (H2.Amount.comma [] (decide (0 < asserts)) (H2.Console.formatUnits asserts " assert".toList)) (decide (0 < footprint))
        (formatVolume fixed footprint ++ " footprint".toList)) (decide (0 < timecost)) (formatDuration fixed timecost) = []
    · refine ⟨[], by simp, ?_⟩
      rw [if_neg (by simpa using hne)]
      have : (_ : List Str) = [] := Full.empty (by have := F; rw [show ' ' :: "assert".toList = " assert".toList from rfl, show ' ' :: "footprint".toList = " footprint".toList from rfl, hne] at this; exact this)
      rw [List.nil_append]
      exact this.symm
    · refine ⟨["-".toList], by intro x hx; simp at hx; subst hx; exact Or.inr (by simp), ?_⟩
      rw [if_pos hne]
      have G : Full ("- ".toList ++ H2.Amount.comma (H2.Amount.comma (H2.Amount.comma [] (decide (0 < asserts)) (H2.Console.formatUnits asserts " assert".toList)) (decide (0 < footprint))
        (formatVolume fixed footprint ++ " footprint".toList)) (decide (0 < timecost)) (formatDuration fixed timecost)) (["-".toList] ++ ((if 0 < asserts then [decimal asserts, plural asserts "assert"] else []) ++
          (if 0 < footprint then [formatVolume fixed footprint, "footprint".toList] else []) ++
          (if 0 < timecost then words (formatDuration fixed timecost) else []))) := by
        intro r hr
        have e : ∀ X : Str, "- ".toList ++ X ++ r = "-".toList ++ ' ' :: (X ++ r) := by intro X; simp
        rw [e, H2.Console.words_word "-".toList ' ' (.inl rfl) _ (by decide)]
        have := F r hr
        rw [show ' ' :: "assert".toList = " assert".toList from rfl, show ' ' :: "footprint".toList = " footprint".toList from rfl] at this
        rw [this]; rfl
      rw [words_full G]; simp only [List.append_assoc]
  obtain ⟨pre, hp, e⟩ := key
  rw [e]
  exact tells fixed hf pre hp asserts footprint timecost 0 h1 h2

example : detailLine nearest 3 1536 250 = "- 3 asserts, 1.5KB footprint, 0.3 seconds".toList ∧ detailLine nearest 0 0 0 = []
    ∧ detailLine nearest 0 100 7 = "- 100 footprint, 7 milliseconds".toList := by decide +kernel

/-- **C91 (about a suite).**  With a verbosity of 9 and without a filter, the line of a suite begins with its name and tells the
number of cases for each outcome there was, the assertions, the footprint and the time (if more than a millisecond). -/
theorem C91_suite (fixed : Nat → Nat → Nat → Nat) (hf : Printf fixed) (verbose : Int) (hv : 9 ≤ verbose) (name : Str) (t : Stats)
    (cases asserts footprint : Nat) (timecost : Int) (h1 : footprint < 10 ^ 12) (h2 : timecost < 10 ^ 12) :
    ∃ rest, suiteLine fixed verbose false name t cases asserts footprint timecost = some ("suite ".toList ++ name ++ rest)
      ∧ (∀ b, before (said b) (words rest) = if t.get b ≠ 0 then some (Nat.toDigits 10 (t.get b).toNat) else none)
      ∧ Tells (words rest) asserts footprint timecost 1 := by
  have hd : Full (formatDuration fixed timecost) (words (formatDuration fixed timecost)) := by
    obtain ⟨n, u, hd, hn, hu, _⟩ := duration_parts fixed timecost
    have := (Full.clean hn).two (unit_clean hu)
    rw [hd, words_full this]; exact this
  have opt : ∀ (a p : Str) (ws vs : List Str) (c : Prop) [Decidable c], Full a ws → Full p vs →
      Full (a ++ (if c then ", ".toList ++ p else [])) (ws ++ if c then vs else []) := by
    intro a p ws vs c _ ha hp
    split
    · rw [← List.append_assoc]; exact ha.comma hp
    · simpa using ha
  have huse : ∀ (a : Str) (ws : List Str), Full a ws →
      Full (a ++ (if 0 < cases then H2.Console.units cases " case".toList else [])) (ws ++ if 0 < cases then [plural cases "case"] else []) := by
    intro a ws ha
    split
    · unfold H2.Console.units plural
      split
      · have : a ++ (" case".toList ++ "s".toList) = a ++ ' ' :: "cases".toList := by simp
        rw [this]; exact ha.two (by decide)
      · exact ha.two (w := "case".toList) (by decide)
    · simpa using ha
  have main : ∀ (many : Bool), ∃ rest ws1, rest = (if many then " (".toList else " - ".toList) ++ outcomes t ++ (if many then ")".toList else []) ++
      (if 0 < cases then H2.Console.units cases " case".toList else []) ++
      (if 0 < asserts then ", ".toList ++ H2.Console.formatUnits asserts " assert".toList else []) ++
      (if 0 < footprint then ", ".toList ++ (formatVolume fixed footprint ++ " footprint".toList) else []) ++
      (if 1 < timecost then ", ".toList ++ formatDuration fixed timecost else []) ∧ (ws1 = [] ∨ ws1 = ["-".toList]) ∧
      words rest = (ws1 ++ ((told t).flatMap fun p => [p.1, p.2]) ++ (if 0 < cases then [plural cases "case"] else [])) ++
        (if 0 < asserts then [decimal asserts, plural asserts "assert"] else []) ++
        (if 0 < footprint then [formatVolume fixed footprint, "footprint".toList] else []) ++
        (if 1 < timecost then words (formatDuration fixed timecost) else []) := by
    intro many
    have ho := full_outcomes t
    have first : Full ((if many then " (".toList else " - ".toList) ++ outcomes t ++ (if many then ")".toList else []))
        ((if many then [] else ["-".toList]) ++ ((told t).flatMap fun p => [p.1, p.2])) := by
      intro r hr
      cases many with
      | true =>
        simp only [if_true]
        show words (' ' :: '(' :: (outcomes t ++ [')'] ++ r)) = _
        rw [H2.Console.words_gap ' ' (.inl rfl), H2.Console.words_gap '(' (.inr (.inr (.inl rfl))), List.append_assoc,
          ho ([')'] ++ r) ⟨')', r, rfl, .inr (.inr (.inr rfl))⟩]
        show _ ++ words (')' :: r) = _
        rw [H2.Console.words_gap ')' (.inr (.inr (.inr rfl)))]; rfl
      | false =>
        simp only [Bool.false_eq_true, if_false, List.append_nil]
        show words (' ' :: ("-".toList ++ ' ' :: (outcomes t ++ r))) = _
        rw [H2.Console.words_gap ' ' (.inl rfl), H2.Console.words_word "-".toList ' ' (.inl rfl) _ (by decide), ho r hr]; rfl
    refine ⟨_, if many then [] else ["-".toList], rfl, by cases many <;> simp, ?_⟩
    have F := opt _ _ _ _ (1 < timecost) (opt _ _ _ _ (0 < footprint) (opt _ _ _ _ (0 < asserts) (huse _ _ first)
      (Full.units asserts "assert" (by decide) (by decide)))
      ((Full.clean (clean_volume fixed footprint)).two (w := "footprint".toList) (by decide))) hd
    exact words_full F
  obtain ⟨rest, ws1, e, hw, hws⟩ := main (decide (1 < H2.Console.nonzeroCount [t.passed.toNat, t.warning.toNat, t.failed.toNat, t.todo.toNat, t.filtered.toNat, t.ignored.toNat]))
  refine ⟨rest, ?_, ?_, ?_⟩
  · rw [e, suiteLine, if_pos ⟨hv, by simp⟩]
    simp only [decide_eq_true_eq, List.append_assoc]
  · intro b
    have saidw : ∀ w : Str, (∃ c ∈ w, c.isDigit = true) → w ≠ (said b).toList := by
      intro w ⟨c, hc, hdc⟩ e
      rw [e] at hc
      have : ∀ b : Bucket, ∀ c ∈ (said b).toList, c.isDigit = false := by intro b; cases b <;> decide
      rw [this b c hc] at hdc; cases hdc
    have dd : ∀ k, ∃ c ∈ decimal k, c.isDigit = true := by
      intro k
      cases hk : decimal k with
      | nil => exact absurd hk (decimal_ne k)
      | cons c l => exact ⟨c, by simp, decimal_digit (n := k) (by simp [hk])⟩
    have hrest : (said b).toList ∉ (if 0 < cases then [plural cases "case"] else []) ++
        (if 0 < asserts then [decimal asserts, plural asserts "assert"] else []) ++
        (if 0 < footprint then [formatVolume fixed footprint, "footprint".toList] else []) ++
        (if 1 < timecost then words (formatDuration fixed timecost) else []) := by
      have f1 : ∀ b : Bucket, (said b).toList ≠ "case".toList ∧ (said b).toList ≠ "cases".toList ∧ (said b).toList ≠ "assert".toList ∧
          (said b).toList ≠ "asserts".toList ∧ (said b).toList ≠ "footprint".toList := by intro b; cases b <;> decide
      have f2 : ∀ b : Bucket, ¬ IsUnit (said b).toList := by intro b; unfold IsUnit; cases b <;> decide
      obtain ⟨n, u, hdu, hn, hu, hdig⟩ := duration_parts fixed timecost
      have hdw : words (formatDuration fixed timecost) = [n, u] := by
        rw [hdu]; exact words_full ((Full.clean hn).two (unit_clean hu))
      have vd : ∃ c ∈ formatVolume fixed footprint, c.isDigit = true := by
        have pd : ∀ d n, ∃ c ∈ point d n, c.isDigit = true := by
          intro d n
          obtain ⟨c, h1, h2⟩ := dd (n / 10 ^ d)
          exact ⟨c, by rw [point_eq]; simp [h1], h2⟩
        unfold formatVolume
        split
        · exact dd _
        split
        · obtain ⟨c, h1, h2⟩ := pd 1 (fixed 1 footprint 1024); exact ⟨c, List.mem_append_left _ h1, h2⟩
        split
        · obtain ⟨c, h1, h2⟩ := pd 2 (fixed 2 footprint (1024 * 1024)); exact ⟨c, List.mem_append_left _ h1, h2⟩
        · obtain ⟨c, h1, h2⟩ := pd 3 (fixed 3 footprint (1024 * 1024 * 1024)); exact ⟨c, List.mem_append_left _ h1, h2⟩
      rw [hdw]
      simp only [List.mem_append, not_or]
      refine ⟨⟨⟨?_, ?_⟩, ?_⟩, ?_⟩
      · split
        · simp only [List.mem_singleton, plural]; split
          · exact (f1 b).2.1
          · exact (f1 b).1
        · simp
      · split
        · simp only [List.mem_cons, List.not_mem_nil, or_false, not_or]
          refine ⟨fun e => saidw _ (dd asserts) e.symm, ?_⟩
          unfold plural; split
          · exact (f1 b).2.2.2.1
          · exact (f1 b).2.2.1
        · simp
      · split
        · simp only [List.mem_cons, List.not_mem_nil, or_false, not_or]
          exact ⟨fun e => saidw _ vd e.symm, (f1 b).2.2.2.2⟩
        · simp
      · split
        · simp only [List.mem_cons, List.not_mem_nil, or_false, not_or]
          exact ⟨fun e => saidw _ hdig e.symm, fun e => f2 b (by rw [e]; exact hu)⟩
        · simp
    have hps : ∀ p ∈ told t, p.1 ≠ (said b).toList := by
      intro p hp
      obtain ⟨b', _, rfl⟩ := List.mem_map.1 hp
      exact saidw _ (dd _)
    have drop : ∀ (l : List Str) (v : Str), l.head? ≠ some (said b).toList → before (said b) (v :: l) = before (said b) l := by
      intro l v hl
      cases l with
      | nil => rfl
      | cons x l =>
        show (if x = (said b).toList then some v else before (said b) (x :: l)) = _
        rw [if_neg (by intro e; rw [e] at hl; exact hl rfl)]
    have pairs := before_pairs (said b) (told t) _ "-".toList hps hrest
    rw [find_told] at pairs
    rw [hws]
    rcases hw with h | h
    · subst h
      have hh : (((told t).flatMap fun p => [p.1, p.2]) ++ ((if 0 < cases then [plural cases "case"] else []) ++
        (if 0 < asserts then [decimal asserts, plural asserts "assert"] else []) ++
        (if 0 < footprint then [formatVolume fixed footprint, "footprint".toList] else []) ++
        (if 1 < timecost then words (formatDuration fixed timecost) else []))).head? ≠ some (said b).toList := by
        cases ht : told t with
        | nil =>
          intro e
          simp only [List.flatMap_nil, List.nil_append] at e
          exact hrest (List.mem_of_mem_head? e)
        | cons p ps =>
          intro e
          simp only [List.flatMap_cons, List.cons_append, List.nil_append, List.head?_cons, Option.some.injEq] at e
          exact hps p (by rw [ht]; simp) e
      have := drop _ "-".toList hh
      rw [List.cons_append, this] at pairs
      refine Eq.trans ?_ pairs
      simp only [List.append_assoc, List.nil_append]
    · subst h
      refine Eq.trans ?_ pairs
      simp only [List.append_assoc, List.cons_append, List.nil_append]
  · rw [hws]
    refine tells fixed hf _ ?_ asserts footprint timecost 1 h1 h2
    intro x hx
    simp only [List.mem_append] at hx
    rcases hx with (hx | hx) | hx
    · rcases hw with h | h
      · subst h; simp at hx
      · subst h; simp only [List.mem_singleton] at hx; subst hx; exact Or.inr (by decide)
    · obtain ⟨p, hp, hx⟩ := List.mem_flatMap.1 hx
      obtain ⟨b', _, rfl⟩ := List.mem_map.1 hp
      simp only [List.mem_cons, List.not_mem_nil, or_false] at hx
      rcases hx with hx | hx
      · exact Or.inl ⟨_, hx⟩
      · subst hx
        have : ∀ b : Bucket, (said b).toList ∈ ["-", "passed", "failed", "warning", "todo", "filtered", "ignored", "case", "cases"].map String.toList := by
          intro b; cases b <;> decide
        exact Or.inr (this b')
    · split at hx
      · simp only [List.mem_singleton, plural] at hx
        subst hx
        split
        · exact Or.inr (by decide)
        · exact Or.inr (by decide)
      · simp at hx

example : suiteLine nearest 9 false "abc".toList { passed := 2, failed := 1 } 3 7 2048 1500
      = some "suite abc (2 passed, 1 failed) cases, 7 asserts, 2.0KB footprint, 1.5 seconds".toList
    ∧ suiteLine nearest 9 false "abc".toList { passed := 2 } 2 0 0 1 = some "suite abc - 2 passed cases".toList
    ∧ suiteLine nearest 9 true "abc".toList { passed := 2 } 2 0 0 1 = none
    ∧ suiteLine nearest 8 false "abc".toList { passed := 2 } 2 0 0 1 = none := by decide +kernel

end H2.Amount
