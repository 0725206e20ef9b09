import Verif.MemDiff.Lemmas
import Verif.Misc.Props
/-
C57: how two areas of memory that differ are shown.
-/
namespace H2.MemDiff
open H2.Layout (Line Word cellsFrom cells Style)

theorem rows_picture (n : Nat) (f : Nat → Option Sides) (l r : Nat → Line) (h : ∀ i, f i = some (l i, r i)) :
    rows ((List.range n).map f) = some ((List.range n).map l, (List.range n).map r) := by
  have : (List.range n).map f = ((List.range n).map fun i => ((l i, r i) : Sides)).map some := by
    rw [List.map_map]
    apply List.map_congr_left
    intro i _
    exact h i
  rw [this, rows_some, List.map_map, List.map_map]
  rfl

theorem gap_left (q : Nat) : Seg "green".toList (gap q).1 (List.replicate (bitBlanks q) (' ', false)) := by
  unfold gap
  by_cases h : bitBlanks q = 0
  · rw [if_pos h, h]; exact Seg.nil _
  · rw [if_neg h]
    have : bitBlanks q = 1 := by
      unfold bitBlanks at h ⊢
      by_cases h0 : q = 0
      · simp [h0] at h
      · by_cases h1 : q % 8 = 0
        · simp [h0, h1]
        · simp [h0, h1] at h
    rw [this]
    exact Seg.word (w := [' ']) (not_style_head (by simp))

theorem gap_right (q : Nat) : Seg "bold,red".toList (gap q).2 (List.replicate (bitBlanks q) (' ', false)) := by
  unfold gap
  by_cases h : bitBlanks q = 0
  · rw [if_pos h, h]; exact Seg.nil _
  · rw [if_neg h]
    have : bitBlanks q = 1 := by
      unfold bitBlanks at h ⊢
      by_cases h0 : q = 0
      · simp [h0] at h
      · by_cases h1 : q % 8 = 0
        · simp [h0, h1]
        · simp [h0, h1] at h
    rw [this]
    exact Seg.word (w := [' ']) (not_style_head (by simp))

theorem bitUnits_length (e a : Bytes) (length : Nat) : (bitUnits e a length).length = length := by simp [bitUnits]
theorem intUnits_length (e a : Bytes) (t length : Nat) : (intUnits e a t length).length = length := by simp [intUnits]

/-- The unit of a bit. -/
def bitUnit (mine other : Bytes) (k : Nat) : Shown := ([if bitAt mine k then '1' else '0'], bitAt mine k != bitAt other k)
def intUnit (mine other : Bytes) (t k : Nat) : Shown := (hex (2 * t) (unitAt mine t k), unitAt mine t k != unitAt other t k)

theorem bitSides_left (e a : Area) (length k : Nat) :
    Seg "green".toList (bitSides e a length k).1 (if k < length then (bitUnit e a k).1.map (·, (bitUnit e a k).2) else []) := by
  unfold bitSides
  split
  · have := compared_left (bitAt e k == bitAt a k) (e := [if bitAt e k then '1' else '0']) [if bitAt a k then '1' else '0'] (not_style_head (by split <;> simp))
    have e1 : ((bitUnit e a k).1.map (·, (bitUnit e a k).2)) = ([if bitAt e k then '1' else '0'].map fun c => (c, c != ' ' && !(bitAt e k == bitAt a k))) := by
      unfold bitUnit
      cases bitAt e k <;> cases bitAt a k <;> rfl
    rw [e1]; exact this
  · exact Seg.nil _

theorem bitSides_right (e a : Area) (length k : Nat) :
    Seg "bold,red".toList (bitSides e a length k).2 (if k < length then (bitUnit a e k).1.map (·, (bitUnit a e k).2) else []) := by
  unfold bitSides
  split
  · have := compared_right (bitAt e k == bitAt a k) [if bitAt e k then '1' else '0'] (a := [if bitAt a k then '1' else '0']) (not_style_head (by split <;> simp))
    have e1 : ((bitUnit a e k).1.map (·, (bitUnit a e k).2)) = ([if bitAt a k then '1' else '0'].map fun c => (c, c != ' ' && !(bitAt e k == bitAt a k))) := by
      unfold bitUnit
      cases bitAt e k <;> cases bitAt a k <;> rfl
    rw [e1]; exact this
  · exact Seg.nil _

theorem printBits_shows (e a : Area) (length : Nat) (he : e.length = (length + 7) / 8) (ha : a.length = (length + 7) / 8) :
    ∃ el al, printBits e a length 4 = some (el, al) ∧
      PictureShows "green".toList bitBlanks 32 (bitUnits e a length) el ∧ PictureShows "bold,red".toList bitBlanks 32 (bitUnits a e length) al := by
  refine ⟨_, _, rows_picture _ _ _ _ (fun i => bitsRow_eq e a length 4 i (by omega) (by omega)), ?_, ?_⟩
  · refine ⟨by rw [bitUnits_length, List.length_map, List.length_range, ceilDiv]; omega, ?_⟩
    intro i row hr
    rw [List.getElem?_map] at hr
    cases hx : (List.range (ceilDiv e.length 4))[i]? with
    | none => rw [hx] at hr; simp at hr
    | some j =>
      have hj : j = i := by
        have h2 := (List.getElem?_eq_some_iff.1 hx).2
        simpa using h2.symm
      subst hj
      rw [hx] at hr
      simp only [Option.map_some, Option.some.injEq] at hr
      subst hr
      obtain ⟨b, hb⟩ := row_units bitBlanks (bitUnit e a) length 32 j
      refine ⟨b, ?_⟩
      show _ = inRow bitBlanks ((((List.range length).map (bitUnit e a)).drop (32 * j)).take 32) ++ _
      rw [← hb]
      apply Seg.marks
      rw [List.flatMap_assoc]
      apply Seg.flatMap
      intro q _
      simp only [List.flatMap_cons, List.flatMap_nil, List.append_nil]
      exact (gap_left q).append (bitSides_left e a length _)
  · refine ⟨by rw [bitUnits_length, List.length_map, List.length_range, ceilDiv]; omega, ?_⟩
    intro i row hr
    rw [List.getElem?_map] at hr
    cases hx : (List.range (ceilDiv e.length 4))[i]? with
    | none => rw [hx] at hr; simp at hr
    | some j =>
      have hj : j = i := by
        have h2 := (List.getElem?_eq_some_iff.1 hx).2
        simpa using h2.symm
      subst hj
      rw [hx] at hr
      simp only [Option.map_some, Option.some.injEq] at hr
      subst hr
      obtain ⟨b, hb⟩ := row_units bitBlanks (bitUnit a e) length 32 j
      refine ⟨b, ?_⟩
      show _ = inRow bitBlanks ((((List.range length).map (bitUnit a e)).drop (32 * j)).take 32) ++ _
      rw [← hb]
      apply Seg.marks
      rw [List.flatMap_assoc]
      apply Seg.flatMap
      intro q _
      simp only [List.flatMap_cons, List.flatMap_nil, List.append_nil]
      exact (gap_right q).append (bitSides_right e a length _)

/-! ### Numbers -/

/-- The cells of a row of numbers: the row has blanks only before numbers that exist. -/
theorem row_ints (u : Nat → Shown) (n w i : Nat) :
    ((List.range w).flatMap fun q => if w * i + q < n then List.replicate (intBlanks q) (' ', false) ++ (u (w * i + q)).1.map (·, (u (w * i + q)).2) else []) =
      inRow intBlanks ((((List.range n).map u).drop (w * i)).take w) := by
  rw [drop_take_range, inRow_range]
  have hw : w = min w (n - w * i) + (w - min w (n - w * i)) := by omega
  have split : List.range w = List.range (min w (n - w * i)) ++ (List.range (w - min w (n - w * i))).map (min w (n - w * i) + ·) := by
    rw [← List.range_add, ← hw]
  rw [split, List.flatMap_append]
  have tail : (((List.range (w - min w (n - w * i))).map (min w (n - w * i) + ·)).flatMap fun q =>
      if w * i + q < n then List.replicate (intBlanks q) ((' ', false) : Char × Bool) ++ (u (w * i + q)).1.map (·, (u (w * i + q)).2) else []) = [] := by
    rw [List.flatMap_eq_nil_iff]
    intro q hq
    obtain ⟨p, hp, rfl⟩ := List.mem_map.1 hq
    have : p < w - min w (n - w * i) := by simpa using hp
    rw [if_neg (by omega)]
  rw [tail, List.append_nil]
  apply H2.Layout.flatMap_congr
  intro q hq
  have : q < min w (n - w * i) := by simpa using hq
  rw [if_pos (by omega)]

theorem intSides_left (e a : Area) (t length k q : Nat) : Seg "green".toList (intSides e a t length k q).1
    (if k < length then List.replicate (intBlanks q) (' ', false) ++ (intUnit e a t k).1.map (·, (intUnit e a t k).2) else []) := by
  unfold intSides
  split
  · have := compared_left (unitAt e t k == unitAt a t k) (separator q ++ hex (2 * t) (unitAt a t k)) (separator_not_style q _ (hex_digits (2 * t) (unitAt e t k)))
    rw [separator_marks _ _ _ (hex_digits _ _)] at this
    exact this
  · exact Seg.nil _

theorem intSides_right (e a : Area) (t length k q : Nat) : Seg "bold,red".toList (intSides e a t length k q).2
    (if k < length then List.replicate (intBlanks q) (' ', false) ++ (intUnit a e t k).1.map (·, (intUnit a e t k).2) else []) := by
  unfold intSides
  split
  · have := compared_right (unitAt e t k == unitAt a t k) (separator q ++ hex (2 * t) (unitAt e t k)) (separator_not_style q _ (hex_digits (2 * t) (unitAt a t k)))
    rw [separator_marks _ _ _ (hex_digits _ _)] at this
    have hs : (!(unitAt e t k == unitAt a t k)) = (intUnit a e t k).2 := by
      show (!(unitAt e t k == unitAt a t k)) = (unitAt a t k != unitAt e t k)
      by_cases h : unitAt e t k = unitAt a t k
      · simp [h]
      · simp only [beq_eq_false_iff_ne.2 h, bne, beq_eq_false_iff_ne.2 (Ne.symm h)]
    rw [hs] at this
    exact this
  · exact Seg.nil _

theorem intsRow_eq (e a : Area) (t u length i : Nat) (ht : 0 < t) (he : e.length = length * t) (ha : a.length = length * t) :
    intsRow e a t (t * u) i =
      some (((List.range u).map fun q => intSides e a t length (u * i + q) q).flatMap (·.1),
            ((List.range u).map fun q => intSides e a t length (u * i + q) q).flatMap (·.2)) := by
  unfold intsRow
  have e1 : ceilDiv (t * u) t = u := by
    unfold ceilDiv
    rw [Nat.add_sub_assoc ht, Nat.mul_add_div ht, Nat.div_eq_of_lt (by omega), Nat.add_zero]
  rw [e1]
  have : ((List.range u).map fun q => intCell e a t (t * u) i q) = ((List.range u).map fun q => intSides e a t length (u * i + q) q).map some := by
    rw [List.map_map]
    apply List.map_congr_left
    intro q _
    exact intCell_eq e a t u length i q ht he ha
  rw [this, collect_some]

theorem ceil_units (length t u : Nat) (ht : 0 < t) (hu : 0 < u) : ceilDiv (length * t) (t * u) = (length + u - 1) / u := by
  unfold ceilDiv
  rw [← Nat.div_div_eq_div_mul]
  congr 1
  rw [Nat.mul_comm length t, ← Nat.mul_add]
  have e : t * (length + u) - 1 = t * (length + u - 1) + (t - 1) := by
    obtain ⟨m, hm⟩ : ∃ m, length + u = m + 1 := ⟨length + u - 1, by omega⟩
    rw [hm, Nat.mul_add, Nat.mul_one, Nat.add_sub_cancel]
    omega
  rw [e, Nat.mul_add_div ht, Nat.div_eq_of_lt (by omega), Nat.add_zero]

theorem printInts_shows (e a : Area) (t u length : Nat) (ht : 0 < t) (hu : 0 < u) (he : e.length = length * t) (ha : a.length = length * t) :
    ∃ el al, printInts e a t (t * u) = some (el, al) ∧
      PictureShows "green".toList intBlanks u (intUnits e a t length) el ∧ PictureShows "bold,red".toList intBlanks u (intUnits a e t length) al := by
  refine ⟨_, _, rows_picture _ _ _ _ (fun i => intsRow_eq e a t u length i ht he ha), ?_, ?_⟩
  · refine ⟨by rw [intUnits_length, List.length_map, List.length_range, he, ceil_units _ _ _ ht hu], ?_⟩
    intro i row hr
    rw [List.getElem?_map] at hr
    cases hx : (List.range (ceilDiv e.length (t * u)))[i]? with
    | none => rw [hx] at hr; simp at hr
    | some j =>
      have hj : j = i := by
        have h2 := (List.getElem?_eq_some_iff.1 hx).2
        simpa using h2.symm
      subst hj
      rw [hx] at hr
      simp only [Option.map_some, Option.some.injEq] at hr
      subst hr
      refine ⟨0, ?_⟩
      rw [List.replicate_zero, List.append_nil]
      show _ = inRow intBlanks ((((List.range length).map (intUnit e a t)).drop (u * j)).take u)
      rw [← row_ints]
      apply Seg.marks
      rw [List.flatMap_map]
      exact Seg.flatMap _ _ _ fun q _ => intSides_left e a t length _ q
  · refine ⟨by rw [intUnits_length, List.length_map, List.length_range, he, ceil_units _ _ _ ht hu], ?_⟩
    intro i row hr
    rw [List.getElem?_map] at hr
    cases hx : (List.range (ceilDiv e.length (t * u)))[i]? with
    | none => rw [hx] at hr; simp at hr
    | some j =>
      have hj : j = i := by
        have h2 := (List.getElem?_eq_some_iff.1 hx).2
        simpa using h2.symm
      subst hj
      rw [hx] at hr
      simp only [Option.map_some, Option.some.injEq] at hr
      subst hr
      refine ⟨0, ?_⟩
      rw [List.replicate_zero, List.append_nil]
      show _ = inRow intBlanks ((((List.range length).map (intUnit a e t)).drop (u * j)).take u)
      rw [← row_ints]
      apply Seg.marks
      rw [List.flatMap_map]
      exact Seg.flatMap _ _ _ fun q _ => intSides_right e a t length _ q

/-! ### The table -/

theorem lowerDigit_eq : ∀ d, d < 16 → lowerDigit d ∈ "0123456789abcdef".toList ∧ "0123456789abcdef".toList.idxOf (lowerDigit d) = d ∧ (lowerDigit d = '0' ↔ d = 0) := by
  decide

theorem hexGo_spec (f : Nat) : ∀ n, n < f → IsHex (hexGo f n) n := by
  induction f with
  | zero => intro n h; omega
  | succ f ih =>
    intro n h
    have hd := lowerDigit_eq (n % 16) (Nat.mod_lt _ (by omega))
    rw [hexGo]
    by_cases h16 : n < 16
    · rw [if_pos h16, List.nil_append]
      rw [Nat.mod_eq_of_lt h16] at hd ⊢
      refine ⟨by simp, ?_, ?_, ?_⟩
      · by_cases h0 : n = 0
        · left; rw [hd.2.2.2 h0]
        · right
          simp only [List.head?_cons, ne_eq, Option.some.injEq]
          exact fun h => h0 (hd.2.2.1 h)
      · intro c hc
        simp only [List.mem_singleton] at hc
        rw [hc]; exact hd.1
      · simp only [List.foldl_cons, List.foldl_nil, hd.2.1]; omega
    · rw [if_neg h16]
      obtain ⟨i1, i2, i3, i4⟩ := ih (n / 16) (by omega)
      refine ⟨by simp, ?_, ?_, ?_⟩
      · right
        have hh : (hexGo f (n / 16)).head? ≠ some '0' := by
          rcases i2 with i2 | i2
          · exfalso
            rw [i2] at i4
            simp only [List.foldl_cons, List.foldl_nil] at i4
            have : "0123456789abcdef".toList.idxOf '0' = 0 := by decide
            omega
          · exact i2
        cases hl : hexGo f (n / 16) with
        | nil => exact absurd hl i1
        | cons x l => rw [hl] at hh; simpa using hh
      · intro c hc
        rcases List.mem_append.1 hc with hc | hc
        · exact i3 c hc
        · simp only [List.mem_singleton] at hc
          rw [hc]; exact hd.1
      · rw [List.foldl_append, i4]
        simp only [List.foldl_cons, List.foldl_nil, hd.2.1]
        omega

theorem hexText_spec (n : Nat) : IsHex (hexText n) n := hexGo_spec (n + 1) n (by omega)

theorem hexGo_length (f : Nat) : ∀ (n k : Nat), n < f → 1 ≤ k → n < 16 ^ k → (hexGo f n).length ≤ k := by
  induction f with
  | zero => intro n k h; omega
  | succ f ih =>
    intro n k h hk hn
    rw [hexGo, List.length_append, List.length_singleton]
    split
    · simpa using hk
    · rename_i h16
      obtain ⟨j, rfl⟩ : ∃ j, k = j + 1 := ⟨k - 1, by omega⟩
      have hj : 1 ≤ j := by
        apply Classical.byContradiction
        intro hc
        have : j = 0 := by omega
        subst this
        simp at hn; omega
      have := ih (n / 16) j (by omega) hj (by
        rw [Nat.pow_succ] at hn
        exact Nat.div_lt_of_lt_mul (by rw [Nat.mul_comm]; exact hn))
      omega

theorem number_not_style (w n : Nat) : ¬ Style (number w n) := by
  apply not_style_head
  obtain ⟨h1, -, h3, -⟩ := hexText_spec n
  unfold number
  cases hr : w - (hexText n).length with
  | zero =>
    cases hl : hexText n with
    | nil => exact absurd hl h1
    | cons x l =>
      intro h
      simp at h
      have := h3 x (by rw [hl]; simp)
      rw [h] at this
      exact absurd this (by decide)
  | succ k => simp [List.replicate_succ]

theorem linesMerge_step (number : Nat → Word) (s : Nat) (hs : s ≠ 0) (sw lw rw : Nat) (l r : List Line) :
    H2.Layout.linesMerge number (s != 0) sw lw rw l r = H2.Layout.linesMerge number true sw lw rw l r := by
  have : (s != 0) = true := by simp [hs]
  rw [this]

theorem split_shows (left right : List Line) (step width k : Nat) (hlen : left.length = right.length) (hs : 0 < step)
    (hk1 : 1 ≤ k) (hk2 : k ≤ 15) (hn : step * left.length < 16 ^ k) (hw : k + 10 ≤ width) :
    ∃ title table, split left right "expect".toList "actual".toList step width = some (title :: table) ∧ TableShows step left right table := by
  have h64 : 16 ^ k < 2 ^ 64 := by
    have : 16 ^ k ≤ 16 ^ 15 := Nat.pow_le_pow_right (by omega) hk2
    omega
  obtain ⟨sw, hsw, hsw1, hsw2, hsw3⟩ := H2.Misc.strlenLoop_spec (step * left.length) 16 (by omega) k hn h64 1 hk1 (Or.inr rfl) (by omega) 17 (by omega)
  have hswk : sw ≤ k := by
    rcases hsw3 with h | h
    · apply Classical.byContradiction
      intro hc
      have : 16 ^ k ≤ 16 ^ (sw - 1) := Nat.pow_le_pow_right (by omega) (by omega)
      omega
    · omega
  unfold split
  rw [← hlen, Nat.max_self]
  have hsw' : H2.Misc.numberStrlen (step * left.length) 16 17 = some sw := hsw
  rw [hsw']
  simp only
  generalize hcol : H2.Layout.columns width sw (max (linesWidth left) ("expect".toList).length) (max (linesWidth right) ("actual".toList).length) = c
  have h2 := (H2.Layout.C45_columns width sw (max (linesWidth left) ("expect".toList).length) (max (linesWidth right) ("actual".toList).length) _ rfl).2.2.2.1
    (by omega) (by have : ("expect".toList).length = 6 := rfl
                   omega) (by have : ("actual".toList).length = 6 := rfl
                              omega)
  rw [hcol] at h2
  obtain ⟨blocks, hb, hbl, hbs⟩ := H2.Layout.C45_side_by_side (fun i => number sw (step * i)) (fun i => number_not_style _ _) true sw c.1 c.2 h2.1 h2.2 left right
  rw [linesMerge_step _ _ (by omega), hb]
  simp only [Option.map_some]
  refine ⟨_, blocks.flatten, rfl, blocks, c.1, c.2, rfl, by rw [hbl, ← hlen, Nat.max_self], hlen, ?_⟩
  intro i l r block hl hr hblk
  have := hbs i block hblk
  simp only [hl, hr, Option.getD_some, if_true] at this
  have hi : i < left.length := (List.getElem?_eq_some_iff.1 hl).1
  have hle : (hexText (step * i)).length ≤ sw := by
    apply hexGo_length _ _ _ (by omega) hsw1
    have : step * i ≤ step * left.length := Nat.mul_le_mul_left step (Nat.le_of_lt hi)
    omega
  refine ⟨sw - (hexText (step * i)).length, hexText (step * i), hexText_spec _, ?_⟩
  rw [show sw - (hexText (step * i)).length + (hexText (step * i)).length + 2 = sw + 2 by omega]
  exact this

/-! ### Putting it together -/

theorem getD_take (m : Area) (n i : Nat) (h : i < n) : (m.take n).getD i 0 = m.getD i 0 := by
  rw [List.getD_eq_getElem?_getD, List.getD_eq_getElem?_getD, List.getElem?_take, if_pos h]

theorem bitAt_take (m : Area) (n k : Nat) (h : k / 8 < n) : bitAt (m.take n) k = bitAt m k := by
  unfold bitAt; rw [getD_take m n _ h]

theorem unitAt_take (m : Area) (n t k : Nat) (h : (k + 1) * t ≤ n) : unitAt (m.take n) t k = unitAt m t k := by
  unfold unitAt
  congr 1
  apply List.map_congr_left
  intro p hp
  have : p < t := by simpa using hp
  rw [getD_take m n _ (by rw [Nat.add_mul, Nat.one_mul] at h; omega)]

theorem bitUnits_take (e a : Area) (length n : Nat) (h : length ≤ 8 * n) : bitUnits (e.take n) (a.take n) length = bitUnits e a length := by
  unfold bitUnits
  apply List.map_congr_left
  intro k hk
  have : k < length := by simpa using hk
  rw [bitAt_take e n k (by omega), bitAt_take a n k (by omega)]

theorem intUnits_take (e a : Area) (t length n : Nat) (h : length * t ≤ n) : intUnits (e.take n) (a.take n) t length = intUnits e a t length := by
  unfold intUnits
  apply List.map_congr_left
  intro k hk
  have hk' : k < length := by simpa using hk
  have : (k + 1) * t ≤ length * t := Nat.mul_le_mul_right t hk'
  rw [unitAt_take e n t k (by omega), unitAt_take a n t k (by omega)]

/-- The blanks between units of a width. -/
def blanksOf (width : Nat) : Nat → Nat := if width = 1 then bitBlanks else intBlanks

theorem finish (e a : Area) (length width console k u perRow : Nat) (blanks : Nat → Nat) (e' a' : Area) (el al : List Line)
    (hse : stored e length width = some e') (hsa : stored a length width = some a')
    (hp : picture e' a' length width console = some ((el, al), perRow)) (hu : perRow * 8 / width = u) (hu0 : 0 < u) (hu1 : u ≤ 32)
    (hlen : length + 32 ≤ 16 ^ k) (hk1 : 1 ≤ k) (hk2 : k ≤ 15) (hw : k + 10 ≤ console) (x y : List Shown) (hx : x.length = length) (hy : y.length = length)
    (h1 : PictureShows "green".toList blanks u x el) (h2 : PictureShows "bold,red".toList blanks u y al) :
    ∃ title table, print e a length width console = some (title :: table) ∧ TableShows u el al table := by
  have hl : el.length = al.length := by rw [h1.1, h2.1, hx, hy]
  have hrows : u * el.length < 16 ^ k := by
    have h3 := h1.1
    rw [hx] at h3
    have := Nat.mul_div_le (length + u - 1) u
    rw [← h3] at this
    omega
  obtain ⟨title, table, e1, e2⟩ := split_shows el al u console k hl hu0 hk1 hk2 hrows hw
  refine ⟨title, table, ?_, e2⟩
  unfold print
  rw [hse, hsa]
  simp only [hp, hu]
  exact e1

/-- **C57**: when memory differs, the table below the message shows the units of both areas (bits, or numbers in hexadecimal) side by
side: every unit that was compared, in order, so many to a row, each row with the number of its first unit; a unit is coloured
exactly where the other area differs. -/
theorem C57_shown (e a : Bytes) (length width console k : Nat) (hwidth : width ∈ [1, 8, 16, 32, 64])
    (he : length * width ≤ 8 * e.length) (ha : length * width ≤ 8 * a.length)
    (hlen : length + 32 ≤ 16 ^ k) (hk : k ≤ 15) (hw : k + 10 ≤ console) :
    ∃ left right title table, print e a length width console = some (title :: table) ∧
      PictureShows "green".toList (blanksOf width) (unitsPerRow width console) (units e a length width) left ∧
      PictureShows "bold,red".toList (blanksOf width) (unitsPerRow width console) (units a e length width) right ∧
      TableShows (unitsPerRow width console) left right table := by
  have hk1 : 1 ≤ k := by
    apply Classical.byContradiction
    intro hc
    have : k = 0 := by omega
    subst this
    simp at hlen
  have hse : ∀ m : Area, length * width ≤ 8 * m.length → stored m length width = some (m.take ((length * width + 7) / 8)) := by
    intro m hm
    unfold stored
    rw [if_pos (by omega)]
  have hlt : ∀ m : Area, length * width ≤ 8 * m.length → (m.take ((length * width + 7) / 8)).length = (length * width + 7) / 8 := by
    intro m hm
    rw [List.length_take]; omega
  have ints : ∀ t u perRow, 0 < t → 0 < u → u ≤ 32 → perRow = t * u → width = 8 * t →
      (∀ e a : Area, picture e a length width console = (printInts e a t perRow).map (·, perRow)) → unitsPerRow width console = u →
      ∃ left right title table, print e a length width console = some (title :: table) ∧
        PictureShows "green".toList intBlanks u (intUnits e a t length) left ∧
        PictureShows "bold,red".toList intBlanks u (intUnits a e t length) right ∧ TableShows u left right table := by
    intro t u perRow ht hu hu32 hpr hwt hpic hupr
    have h8 : (length * width + 7) / 8 = length * t := by
      rw [hwt, Nat.mul_left_comm]; omega
    obtain ⟨el, al, e1, p1, p2⟩ := printInts_shows (e.take ((length * width + 7) / 8)) (a.take ((length * width + 7) / 8)) t u length ht hu
      (by rw [hlt e he, h8]) (by rw [hlt a ha, h8])
    rw [intUnits_take e a t length _ (by omega)] at p1
    rw [intUnits_take a e t length _ (by omega)] at p2
    obtain ⟨title, table, e3, e4⟩ := finish e a length width console k u perRow intBlanks _ _ el al (hse e he) (hse a ha)
      (by rw [hpic, hpr, e1]; rfl) (by rw [hpr, hwt, Nat.mul_right_comm, Nat.mul_comm t 8]; exact Nat.mul_div_cancel_left u (by omega)) hu hu32 hlen hk1 hk hw _ _ (intUnits_length _ _ _ _) (intUnits_length _ _ _ _) p1 p2
    exact ⟨el, al, title, table, e3, p1, p2, e4⟩
  simp only [List.mem_cons, List.not_mem_nil, or_false] at hwidth
  rcases hwidth with h | h | h | h | h
  · subst h
    rw [Nat.mul_one] at he ha hse hlt
    obtain ⟨el, al, e1, p1, p2⟩ := printBits_shows (e.take ((length + 7) / 8)) (a.take ((length + 7) / 8)) length (hlt e he) (hlt a ha)
    rw [bitUnits_take e a length _ (by omega)] at p1
    rw [bitUnits_take a e length _ (by omega)] at p2
    obtain ⟨title, table, e3, e4⟩ := finish e a length 1 console k 32 4 bitBlanks _ _ el al (hse e he) (hse a ha) (by show (printBits _ _ _ _).map (·, 4) = _; rw [e1]; rfl)
      (by omega) (by omega) (by omega) hlen hk1 hk hw _ _ (bitUnits_length _ _ _) (bitUnits_length _ _ _) p1 p2
    exact ⟨el, al, title, table, e3, p1, p2, e4⟩
  · subst h
    by_cases hc : console < 108
    · have := ints 1 8 8 (by omega) (by omega) (by omega) (by omega) (by omega) (fun e a => by unfold picture; simp only [if_pos hc]) (by unfold unitsPerRow; simp [hc])
      have hup : unitsPerRow 8 console = 8 := by unfold unitsPerRow; simp [hc]
      rw [hup]; exact this
    · have := ints 1 16 16 (by omega) (by omega) (by omega) (by omega) (by omega) (fun e a => by unfold picture; simp only [if_neg hc]) (by unfold unitsPerRow; simp [hc])
      have hup : unitsPerRow 8 console = 16 := by unfold unitsPerRow; simp [hc]
      rw [hup]; exact this
  · subst h; exact ints 2 8 16 (by omega) (by omega) (by omega) (by omega) (by omega) (fun e a => rfl) rfl
  · subst h; exact ints 4 4 16 (by omega) (by omega) (by omega) (by omega) (by omega) (fun e a => rfl) rfl
  · subst h; exact ints 8 2 16 (by omega) (by omega) (by omega) (by omega) (by omega) (fun e a => rfl) rfl

/-! ### Nothing is left out -/

theorem chunks {α : Type} (p : Nat) (l : List α) (n : Nat) : ((List.range n).flatMap fun i => (l.drop (p * i)).take p) = l.take (p * n) := by
  induction n with
  | zero => simp
  | succ n ih =>
    rw [List.range_succ, List.flatMap_append, ih]
    simp only [List.flatMap_cons, List.flatMap_nil, List.append_nil]
    rw [Nat.mul_add, Nat.mul_one, List.take_add]

theorem inRow_digits (blanks : Nat → Nat) (us : List Shown) (h : ∀ u ∈ us, ∀ c ∈ u.1, c ≠ ' ') :
    (inRow blanks us).filter (fun c => c.1 ≠ ' ') = us.flatMap fun u => u.1.map (·, u.2) := by
  obtain ⟨u, n, e, h'⟩ : ∃ (u : Nat → Shown) (n : Nat), us = (List.range n).map u ∧ ∀ q, q < n → ∀ c ∈ (u q).1, c ≠ ' ' := by
    refine ⟨fun q => us.getD q ([], false), us.length, ?_, ?_⟩
    · apply List.ext_getElem
      · simp
      · intro i h1 h2
        simp only [List.getElem_map, List.getElem_range, List.getD_eq_getElem?_getD, List.getElem?_eq_getElem h1, Option.getD_some]
    · intro q hq
      apply h
      show us.getD q ([], false) ∈ us
      rw [List.getD_eq_getElem?_getD, List.getElem?_eq_getElem hq]; exact List.getElem_mem hq
  rw [e, inRow_range, List.filter_flatMap, List.flatMap_map]
  apply H2.Layout.flatMap_congr
  intro q hq
  have hq' : q < n := by simpa using hq
  rw [List.filter_append]
  have e1 : (List.replicate (blanks q) ((' ', false) : Char × Bool)).filter (fun c => c.1 ≠ ' ') = [] := by
    rw [List.filter_eq_nil_iff]
    intro c hc
    rw [List.eq_of_mem_replicate hc]; simp
  rw [e1, List.nil_append, List.filter_eq_self]
  intro c hc
  obtain ⟨d, hd, rfl⟩ := List.mem_map.1 hc
  simpa using h' q hq' d hd

theorem units_digits (mine other : Bytes) (length width : Nat) : ∀ u ∈ units mine other length width, ∀ c ∈ u.1, c ≠ ' ' := by
  intro u hu c hc
  unfold units at hu
  split at hu
  · unfold bitUnits at hu
    obtain ⟨k, -, rfl⟩ := List.mem_map.1 hu
    simp only [List.mem_singleton] at hc
    rw [hc]
    split <;> decide
  · unfold intUnits at hu
    obtain ⟨k, -, rfl⟩ := List.mem_map.1 hu
    have := hex_digits _ _ c hc
    intro h
    rw [h] at this
    exact absurd this (by decide)

/-- **C57**: read row by row without the blanks, a side of the picture is exactly the digits of all units, coloured where they differ. -/
theorem C57_complete (mine other : Bytes) (length width perRow : Nat) (style : List Char) (blanks : Nat → Nat) (hp : 0 < perRow) (lines : List Line)
    (h : PictureShows style blanks perRow (units mine other length width) lines) :
    (lines.flatMap fun l => ((cells l).map (look style)).filter (fun c => c.1 ≠ ' ')) =
      (units mine other length width).flatMap fun u => u.1.map (·, u.2) := by
  obtain ⟨hl, hr⟩ := h
  have hd := units_digits mine other length width
  generalize units mine other length width = us at hl hr hd
  have e1 : (lines.flatMap fun l => ((cells l).map (look style)).filter (fun c => c.1 ≠ ' ')) =
      (List.range lines.length).flatMap fun i => ((us.drop (perRow * i)).take perRow).flatMap fun u => u.1.map (·, u.2) := by
    have : lines = (List.range lines.length).map fun i => lines.getD i [] := by
      apply List.ext_getElem
      · simp
      · intro i h1 h2
        simp only [List.getElem_map, List.getElem_range, List.getD_eq_getElem?_getD, List.getElem?_eq_getElem h1, Option.getD_some]
    conv => lhs; rw [this]
    rw [List.flatMap_map]
    apply H2.Layout.flatMap_congr
    intro i hi
    have hi' : i < lines.length := by simpa using hi
    obtain ⟨n, hn⟩ := hr i (lines.getD i []) (by rw [List.getD_eq_getElem?_getD, List.getElem?_eq_getElem hi']; rfl)
    rw [hn, List.filter_append, inRow_digits blanks _ (fun u hu => hd u (List.mem_of_mem_drop (List.mem_of_mem_take hu)))]
    have e2 : (List.replicate n ((' ', false) : Char × Bool)).filter (fun c => c.1 ≠ ' ') = [] := by
      rw [List.filter_eq_nil_iff]
      intro c hc
      rw [List.eq_of_mem_replicate hc]; simp
    rw [e2, List.append_nil]
  rw [e1, ← List.flatMap_assoc, chunks, List.take_of_length_le]
  rw [hl]
  have := Nat.div_add_mod (us.length + perRow - 1) perRow
  have := Nat.mod_lt (us.length + perRow - 1) hp
  omega

/-! ### Coloured where the areas differ -/

theorem byte_eq (x y : UInt8) (h : ∀ j, j < 8 → x.toNat.testBit j = y.toNat.testBit j) : x = y := by
  apply UInt8.toNat_inj.1
  apply Nat.eq_of_testBit_eq
  intro i
  by_cases hi : i < 8
  · exact h i hi
  · have big : ∀ z : UInt8, z.toNat.testBit i = false := by
      intro z
      apply Nat.testBit_lt_two_pow
      have h1 : z.toNat < 2 ^ 8 := z.toNat_lt
      have : 2 ^ 8 ≤ 2 ^ i := Nat.pow_le_pow_right (by omega) (by omega)
      omega
    rw [big, big]

theorem sum_range_inj (t : Nat) (f g : Nat → Nat) (hf : ∀ p, p < t → f p < 256) (hg : ∀ p, p < t → g p < 256)
    (h : ((List.range t).map fun p => f p * 256 ^ p).sum = ((List.range t).map fun p => g p * 256 ^ p).sum) : ∀ p, p < t → f p = g p := by
  have bound : ∀ t (f : Nat → Nat), (∀ p, p < t → f p < 256) → ((List.range t).map fun p => f p * 256 ^ p).sum < 256 ^ t := by
    intro t
    induction t with
    | zero => intro f _; simp
    | succ t ih =>
      intro f hf
      rw [List.range_succ, List.map_append, List.sum_append]
      have h1 := ih f (fun p hp => hf p (by omega))
      have h2 := hf t (by omega)
      have h3 : f t * 256 ^ t ≤ 255 * 256 ^ t := Nat.mul_le_mul_right _ (by omega)
      simp only [List.map_cons, List.map_nil, List.sum_cons, List.sum_nil]
      rw [Nat.pow_succ]; omega
  induction t with
  | zero => intro p hp; omega
  | succ t ih =>
    rw [List.range_succ, List.map_append, List.map_append, List.sum_append, List.sum_append] at h
    simp only [List.map_cons, List.map_nil, List.sum_cons, List.sum_nil, Nat.add_zero] at h
    have b1 := bound t f (fun p hp => hf p (by omega))
    have b2 := bound t g (fun p hp => hg p (by omega))
    have ht : f t = g t := by
      have e1 : (((List.range t).map fun p => f p * 256 ^ p).sum + f t * 256 ^ t) / 256 ^ t = f t := by
        rw [Nat.add_mul_div_right _ _ (Nat.pow_pos (by omega)), Nat.div_eq_of_lt b1, Nat.zero_add]
      have e2 : (((List.range t).map fun p => g p * 256 ^ p).sum + g t * 256 ^ t) / 256 ^ t = g t := by
        rw [Nat.add_mul_div_right _ _ (Nat.pow_pos (by omega)), Nat.div_eq_of_lt b2, Nat.zero_add]
      rw [← e1, ← e2, h]
    rw [ht] at h
    intro p hp
    by_cases hpt : p = t
    · rw [hpt, ht]
    · exact ih (fun p hp => hf p (by omega)) (fun p hp => hg p (by omega)) (by omega) p (by omega)

theorem unitAt_eq_iff (e a : Bytes) (t k : Nat) : unitAt e t k = unitAt a t k ↔ ∀ p, p < t → e.getD (k * t + p) 0 = a.getD (k * t + p) 0 := by
  constructor
  · intro h p hp
    apply UInt8.toNat_inj.1
    exact sum_range_inj t (fun p => (e.getD (k * t + p) 0).toNat) (fun p => (a.getD (k * t + p) 0).toNat)
      (fun p _ => (e.getD (k * t + p) 0).toNat_lt) (fun p _ => (a.getD (k * t + p) 0).toNat_lt) h p hp
  · intro h
    unfold unitAt
    congr 1
    apply List.map_congr_left
    intro p hp
    rw [h p (by simpa using hp)]

/-- **C57**: nothing is coloured exactly if the areas agree in all the bits compared. -/
theorem C57_coloured (e a : Bytes) (length width : Nat) (hwidth : width ∈ [1, 8, 16, 32, 64]) :
    (∀ u ∈ units e a length width, u.2 = false) ↔ ∀ k, k < length * width → bitAt e k = bitAt a k := by
  have ints : ∀ t, 0 < t → ((∀ u ∈ intUnits e a t length, u.2 = false) ↔ ∀ k, k < length * (8 * t) → bitAt e k = bitAt a k) := by
    intro t ht
    constructor
    · intro h k hk
      have hkk : k / 8 / t < length := by
        rw [Nat.div_div_eq_div_mul]
        exact Nat.div_lt_of_lt_mul (by rw [Nat.mul_comm]; exact hk)
      have := h (hex (2 * t) (unitAt e t (k / 8 / t)), unitAt e t (k / 8 / t) != unitAt a t (k / 8 / t))
        (List.mem_map.2 ⟨k / 8 / t, by simpa using hkk, rfl⟩)
      simp only [bne_eq_false_iff_eq] at this
      have hb := (unitAt_eq_iff e a t _).1 this (k / 8 % t) (Nat.mod_lt _ ht)
      rw [Nat.mul_comm (k / 8 / t) t, Nat.div_add_mod] at hb
      unfold bitAt
      rw [hb]
    · intro h u hu
      obtain ⟨k, hk, rfl⟩ := List.mem_map.1 hu
      have hk' : k < length := by simpa using hk
      simp only [bne_eq_false_iff_eq]
      rw [unitAt_eq_iff]
      intro p hp
      apply byte_eq
      intro j hj
      have hlt : 8 * (k * t + p) + (7 - j) < length * (8 * t) := by
        have h1 : (k + 1) * t ≤ length * t := Nat.mul_le_mul_right t hk'
        rw [Nat.add_mul, Nat.one_mul] at h1
        rw [Nat.mul_left_comm]
        omega
      have := h _ hlt
      unfold bitAt at this
      rw [show (8 * (k * t + p) + (7 - j)) / 8 = k * t + p by omega, show 7 - (8 * (k * t + p) + (7 - j)) % 8 = j by omega] at this
      exact this
  simp only [List.mem_cons, List.not_mem_nil, or_false] at hwidth
  rcases hwidth with h | h | h | h | h
  · subst h
    rw [Nat.mul_one]
    constructor
    · intro h k hk
      have := h ([if bitAt e k then '1' else '0'], bitAt e k != bitAt a k) (List.mem_map.2 ⟨k, by simpa using hk, rfl⟩)
      simpa using this
    · intro h u hu
      obtain ⟨k, hk, rfl⟩ := List.mem_map.1 hu
      simp [h k (by simpa using hk)]
  · subst h; exact ints 1 (by omega)
  · subst h; exact ints 2 (by omega)
  · subst h; exact ints 4 (by omega)
  · subst h; exact ints 8 (by omega)

/-- Memory compared in units of another width is not shown at all. -/
theorem C57_other_width (e a : Bytes) (length width console : Nat) (hwidth : width ∉ [1, 8, 16, 32, 64])
    (he : length * width ≤ 8 * e.length) (ha : length * width ≤ 8 * a.length) :
    ∃ title, print e a length width console = some [title] := by
  have hp : ∀ e a : Area, picture e a length width console = some (([], []), 0) := by
    intro e a
    unfold picture
    split <;> first | (exfalso; apply hwidth; simp; done) | rfl
  unfold print stored
  rw [if_pos (by omega), if_pos (by omega)]
  simp only [hp, Nat.zero_mul, Nat.zero_div]
  unfold split
  have : H2.Misc.numberStrlen (0 * max ([] : List Line).length ([] : List Line).length) 16 17 = some 1 := by decide
  rw [this]
  exact ⟨_, rfl⟩

/-! ### Examples -/

example : (print [0x12, 0x34, 0x56] [0x12, 0x35, 0x56] 3 8 80).map (·.map H2.Layout.text) =
    some ["    expect     actual ".toList, "0┊ 12 34 56 │ 12 35 56 ".toList] := by decide +kernel
/-- The number of the second row is 32 in base 16; two bits are left for it. -/
example : (print [0x12, 0x34, 0x56, 0, 0] [0x12, 0x35, 0x56, 0, 0] 34 1 80).map (fun l => (l.drop 1).map H2.Layout.text) =
    some [" 0┊ 00010010 00110100 01010110 00000000 │ 00010010 00110101 01010110 00000000 ".toList,
      "20┊ 00                                  │ 00                                  ".toList] := by decide +kernel
example : (units [0x12, 0x34] [0x12, 0x35] 1 16) = [("3412".toList, true)] ∧ (units [0x12, 0x34] [0x12, 0x35] 2 8) = [("12".toList, false), ("34".toList, true)] ∧
    units [0x80] [0x81] 8 1 = [("1".toList, false), ("0".toList, false), ("0".toList, false), ("0".toList, false), ("0".toList, false), ("0".toList, false),
      ("0".toList, false), ("0".toList, true)] := by decide +kernel
/-- A difference that is not in the compared bits is not coloured. -/
example : ∀ u ∈ units [0x80] [0x81] 7 1, u.2 = false := by decide +kernel
/-- The hypotheses of `C57_shown` are met. -/
example : 3 * 16 ≤ 8 * [0x12, 0x34, 0x56, 0, 0, 0].length ∧ 3 + 32 ≤ 16 ^ 2 ∧ 2 + 10 ≤ 80 := by decide

end H2.MemDiff
