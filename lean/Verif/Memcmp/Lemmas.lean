import Verif.Memcmp.Model
import Verif.Memcmp.Spec
import Verif.Misc.Props
namespace H2.Memcmp

theorem byteBits_length (b : UInt8) : (byteBits b).length = 8 := rfl

theorem bits_length (l : List UInt8) : (bits l).length = 8 * l.length := by
  induction l with
  | nil => rfl
  | cons b l ih => simp only [bits, List.flatMap_cons, List.length_append, byteBits_length] at *; rw [ih]; simp; omega

theorem byteBits_get (b : UInt8) (n : Nat) (h : n < 8) : (byteBits b)[n]? = some (b.toNat.testBit (7 - n)) := by
  match n with
  | 0 => rfl
  | 1 => rfl
  | 2 => rfl
  | 3 => rfl
  | 4 => rfl
  | 5 => rfl
  | 6 => rfl
  | 7 => rfl
  | n + 8 => omega

theorem bits_get (l : List UInt8) (n : Nat) : (bits l)[n]? = l[n / 8]?.map fun b => b.toNat.testBit (7 - n % 8) := by
  induction l generalizing n with
  | nil => simp [bits]
  | cons b l ih =>
    have e : bits (b :: l) = byteBits b ++ bits l := rfl
    rw [e]
    by_cases h : n < 8
    · rw [List.getElem?_append_left (by rw [byteBits_length]; exact h), byteBits_get b n h]
      have : n / 8 = 0 := by omega
      rw [this, Nat.mod_eq_of_lt h]; rfl
    · rw [List.getElem?_append_right (by rw [byteBits_length]; omega), byteBits_length, ih]
      have h1 : n / 8 = (n - 8) / 8 + 1 := by omega
      have h2 : (n - 8) % 8 = n % 8 := by omega
      rw [h1, h2]; rfl

theorem bit_eq (x y j : Nat) : ((x >>> j) &&& 1) = ((y >>> j) &&& 1) ↔ x.testBit j = y.testBit j := by
  have key : ∀ x, (x >>> j) &&& 1 = if x.testBit j then 1 else 0 := by
    intro x
    rw [Nat.testBit_eq_decide_div_mod_eq, Nat.shiftRight_eq_div_pow, Nat.and_one_is_mod]
    have := Nat.mod_two_eq_zero_or_one (x / 2 ^ j)
    rcases this with h | h <;> simp [h]
  rw [key, key]
  cases x.testBit j <;> cases y.testBit j <;> simp

/-- The comparison of bits: the first difference decides; without one, every bit must be in both areas. -/
theorem bitsLoop_spec (b1 b2 : Area) (m n : Nat) :
    (bitsLoop b1 b2 m n = some true ↔ ∀ k, n ≤ k → k < n + m → ∃ x, (bits b1)[k]? = some x ∧ (bits b2)[k]? = some x) ∧
    (bitsLoop b1 b2 m n = some false ↔ ∃ k, n ≤ k ∧ k < n + m ∧ (∀ i, n ≤ i → i < k → ∃ x, (bits b1)[i]? = some x ∧ (bits b2)[i]? = some x) ∧
      ∃ x y, (bits b1)[k]? = some x ∧ (bits b2)[k]? = some y ∧ x ≠ y) := by
  induction m generalizing n with
  | zero =>
    simp only [bitsLoop, Nat.add_zero]
    refine ⟨⟨fun _ k h1 h2 => by omega, fun _ => trivial⟩, ⟨fun h => by simp at h, ?_⟩⟩
    rintro ⟨k, h1, h2, -⟩; omega
  | succ m ih =>
    unfold bitsLoop
    have g1 := bits_get b1 n
    have g2 := bits_get b2 n
    split
    · rename_i x y hx hy
      rw [hx] at g1; rw [hy] at g2
      simp only [Option.map_some] at g1 g2
      by_cases hd : ((x.toNat >>> (7 - n % 8)) &&& 1) ≠ ((y.toNat >>> (7 - n % 8)) &&& 1)
      · rw [if_pos hd]
        rw [ne_eq, bit_eq] at hd
        constructor
        · refine ⟨fun h => by simp at h, fun h => ?_⟩
          obtain ⟨z, h1, h2⟩ := h n (Nat.le_refl _) (by omega)
          rw [g1] at h1; rw [g2] at h2
          simp at h1 h2
          exact absurd (h1.trans h2.symm) hd
        · refine ⟨fun _ => ⟨n, Nat.le_refl _, by omega, fun i h1 h2 => by omega, _, _, g1, g2, hd⟩, fun _ => rfl⟩
      · rw [if_neg hd]
        rw [ne_eq, bit_eq, Decidable.not_not] at hd
        obtain ⟨ih1, ih2⟩ := ih (n + 1)
        have hn : ∃ z, (bits b1)[n]? = some z ∧ (bits b2)[n]? = some z := ⟨_, g1, by rw [g2, hd]⟩
        constructor
        · rw [ih1]
          constructor
          · intro h k h1 h2
            by_cases e : k = n
            · subst e; exact hn
            · exact h k (by omega) (by omega)
          · intro h k h1 h2
            exact h k (by omega) (by omega)
        · rw [ih2]
          constructor
          · rintro ⟨k, h1, h2, h3, h4⟩
            refine ⟨k, by omega, by omega, ?_, h4⟩
            intro i hi1 hi2
            by_cases e : i = n
            · subst e; exact hn
            · exact h3 i (by omega) hi2
          · rintro ⟨k, h1, h2, h3, x', y', h4, h5, h6⟩
            by_cases e : k = n
            · subst e
              rw [g1] at h4; rw [g2] at h5
              simp at h4 h5
              exact absurd (h4.symm.trans (hd.trans h5)) h6
            · exact ⟨k, by omega, by omega, fun i hi1 hi2 => h3 i (by omega) hi2, x', y', h4, h5, h6⟩
    · rename_i hno
      have : ∀ z, (bits b1)[n]? = some z → (bits b2)[n]? = some z → False := by
        intro z h1 h2
        rw [g1] at h1; rw [g2] at h2
        obtain ⟨x, hx, -⟩ := Option.map_eq_some_iff.1 h1
        obtain ⟨y, hy, -⟩ := Option.map_eq_some_iff.1 h2
        exact hno x y hx hy
      constructor
      · refine ⟨fun h => by simp at h, fun h => ?_⟩
        obtain ⟨z, h1, h2⟩ := h n (Nat.le_refl _) (by omega)
        exact (this z h1 h2).elim
      · refine ⟨fun h => by simp at h, ?_⟩
        rintro ⟨k, h1, h2, h3, x, y, h4, h5, -⟩
        by_cases e : k = n
        · subst e
          rw [g1] at h4; rw [g2] at h5
          obtain ⟨x, hx, -⟩ := Option.map_eq_some_iff.1 h4
          obtain ⟨y, hy, -⟩ := Option.map_eq_some_iff.1 h5
          exact (hno x y hx hy).elim
        · obtain ⟨z, h6, h7⟩ := h3 n (Nat.le_refl _) (by omega)
          exact (this z h6 h7).elim

/-- With both areas large enough. -/
theorem bitsEqual_eq {b1 b2 : Area} {n : Nat} (h1 : n ≤ 8 * b1.length) (h2 : n ≤ 8 * b2.length) :
    bitsEqual b1 b2 n = some (decide ((bits b1).take n = (bits b2).take n)) := by
  obtain ⟨s1, s2⟩ := bitsLoop_spec b1 b2 n 0
  have l1 := bits_length b1
  have l2 := bits_length b2
  by_cases h : (bits b1).take n = (bits b2).take n
  · rw [decide_eq_true h, bitsEqual, s1]
    intro k _ hk
    have e := congrArg (·[k]?) h
    simp only [List.getElem?_take] at e
    rw [if_pos (by omega), if_pos (by omega)] at e
    exact ⟨(bits b1)[k]'(by omega), List.getElem?_eq_getElem (by omega), by rw [← e]; exact List.getElem?_eq_getElem (by omega)⟩
  · rw [decide_eq_false h, bitsEqual]
    cases hb : bitsLoop b1 b2 n 0 with
    | some r =>
      cases r with
      | false => rfl
      | true =>
        exfalso
        apply h
        have := s1.1 hb
        apply List.ext_getElem?
        intro k
        simp only [List.getElem?_take]
        split
        · obtain ⟨x, e1, e2⟩ := this k (by omega) (by omega)
          rw [e1, e2]
        · rfl
    | none =>
      exfalso
      -- no turn of the loop reads beyond
      have key : ∀ m n', n' + m = n → bitsLoop b1 b2 m n' ≠ none := by
        intro m
        induction m with
        | zero => intro n' _; simp [bitsLoop]
        | succ m ih =>
          intro n' hn
          unfold bitsLoop
          have g1 : n' / 8 < b1.length := by omega
          have g2 : n' / 8 < b2.length := by omega
          rw [List.getElem?_eq_getElem g1, List.getElem?_eq_getElem g2]
          simp only
          split
          · simp
          · exact ih (n' + 1) (by omega)
      exact key n 0 (by omega) hb

theorem cstring_some (s rest : Area) (h : 0 ∉ s) : cstring (s ++ 0 :: rest) = some s := by
  induction s with
  | nil => simp [cstring]
  | cons c s ih =>
    simp only [List.mem_cons, not_or] at h
    simp only [List.cons_append, cstring]
    rw [if_neg (fun e => h.1 e.symm), ih h.2]
    rfl

theorem strcmpEq_eq {s a : Area} (h : s.length < a.length) : strcmpEq s a = some (decide (s ++ [0] <+: a)) := by
  induction s generalizing a with
  | nil =>
    cases a with
    | nil => simp at h
    | cons y a =>
      simp only [strcmpEq, List.nil_append, List.cons_prefix_cons, List.nil_prefix, and_true]
      by_cases e : y = 0
      · subst e; simp
      · have e' : ¬ (0 : UInt8) = y := fun h => e h.symm
        simp [e, e']
  | cons x s ih =>
    cases a with
    | nil => simp at h
    | cons y a =>
      simp only [strcmpEq, List.cons_append, List.cons_prefix_cons]
      by_cases e : x = y
      · rw [if_pos e, ih (by simpa using h)]
        simp [e]
      · rw [if_neg e]
        simp [e]

/-! ### Binary digits -/

theorem byteBits_set (b : UInt8) (j : Nat) (hj : j < 8) (h0 : ∀ i, i ≤ j → b.toNat.testBit i = false) (x : Bool) :
    ∀ i, (UInt8.ofNat (b.toNat ||| ((if x then 1 else 0) <<< j))).toNat.testBit i = if i = j then x else b.toNat.testBit i := by
  intro i
  have hb : b.toNat ||| ((if x then 1 else 0) <<< j) < 2 ^ 8 := by
    apply Nat.or_lt_two_pow
    · exact b.toNat_lt
    · rw [Nat.shiftLeft_eq]
      have : 2 ^ j < 2 ^ 8 := Nat.pow_lt_pow_right (by omega) hj
      cases x <;> simp <;> omega
  rw [UInt8.toNat_ofNat_of_lt' hb, Nat.testBit_or, Nat.testBit_shiftLeft]
  by_cases e : i = j
  · subst e
    rw [h0 i (Nat.le_refl _)]
    cases x <;> simp
  · cases x
    · simp [e]
    · have : (decide (i ≥ j) && (if true = true then 1 else 0 : Nat).testBit (i - j)) = false := by
        simp only [if_true]
        by_cases hij : j ≤ i
        · obtain ⟨d, hd⟩ : ∃ d, i - j = d + 1 := ⟨i - j - 1, by omega⟩
          simp [hd, Nat.testBit_succ]
        · simp [hij]
      rw [this]; simp [e]

theorem binLoop_spec {s : Area} {ds : List Bool} (h : Binary s ds) : ∀ (c : Nat) (bytes : Area), c + ds.length ≤ 8 * bytes.length →
    (∀ k, c ≤ k → k < 8 * bytes.length → (bits bytes)[k]? = some false) →
    (binLoop s c bytes).1 = c + ds.length ∧ (binLoop s c bytes).2.length = bytes.length ∧
    (bits (binLoop s c bytes).2).take (c + ds.length) = (bits bytes).take c ++ ds ∧
    ∀ k, c + ds.length ≤ k → k < 8 * bytes.length → (bits (binLoop s c bytes).2)[k]? = some false := by
  -- one digit
  have step : ∀ (x : Bool) (c : Nat) (bytes : Area), c < 8 * bytes.length →
      (∀ k, c ≤ k → k < 8 * bytes.length → (bits bytes)[k]? = some false) →
      bits (bytes.modify (c / 8) fun b => UInt8.ofNat (b.toNat ||| ((if x then 1 else 0) <<< (7 - c % 8)))) = (bits bytes).set c x := by
    intro x c bytes hc h0
    apply List.ext_getElem?
    intro k
    have hlt : c / 8 < bytes.length := by omega
    rw [bits_get, List.getElem?_modify, List.getElem?_set, bits_length]
    by_cases e : c / 8 = k / 8
    · simp only [if_pos e]
      have hk : k / 8 < bytes.length := by omega
      rw [List.getElem?_eq_getElem hk, bits_get, List.getElem?_eq_getElem hk]
      simp only [Option.map_eq_map, Option.map_some]
      rw [byteBits_set _ _ (by omega)]
      · by_cases e2 : c = k
        · subst e2; simp [hc]
        · rw [if_neg (by omega), if_neg e2]
      · intro i hi
        have := h0 (8 * (k / 8) + (7 - i)) (by omega) (by omega)
        rw [bits_get] at this
        have d1 : (8 * (k / 8) + (7 - i)) / 8 = k / 8 := by omega
        have d2 : 7 - (8 * (k / 8) + (7 - i)) % 8 = i := by omega
        rw [d1, d2, List.getElem?_eq_getElem hk] at this
        simpa using this
    · simp only [if_neg e]
      rw [if_neg (by intro e'; subst e'; exact e rfl), bits_get]
      simp
  have take_set : ∀ (l : List Bool) (c : Nat) (x : Bool), c < l.length → (l.set c x).take (c + 1) = l.take c ++ [x] := by
    intro l c x h
    rw [List.take_add_one, List.take_set_of_le (Nat.le_refl _)]
    simp [h]
  have digit : ∀ (p : UInt8) (x : Bool) (s : Area) (ds : List Bool), p ≠ 0x20 → (p = 0x31 ↔ x = true) → 
      (∀ (c : Nat) (bytes : Area), c + ds.length ≤ 8 * bytes.length →
    (∀ k, c ≤ k → k < 8 * bytes.length → (bits bytes)[k]? = some false) →
    (binLoop s c bytes).1 = c + ds.length ∧ (binLoop s c bytes).2.length = bytes.length ∧
    (bits (binLoop s c bytes).2).take (c + ds.length) = (bits bytes).take c ++ ds ∧
    ∀ k, c + ds.length ≤ k → k < 8 * bytes.length → (bits (binLoop s c bytes).2)[k]? = some false) →
      ∀ (c : Nat) (bytes : Area), c + (x :: ds).length ≤ 8 * bytes.length →
    (∀ k, c ≤ k → k < 8 * bytes.length → (bits bytes)[k]? = some false) →
    (binLoop (p :: s) c bytes).1 = c + (x :: ds).length ∧ (binLoop (p :: s) c bytes).2.length = bytes.length ∧
    (bits (binLoop (p :: s) c bytes).2).take (c + (x :: ds).length) = (bits bytes).take c ++ (x :: ds) ∧
    ∀ k, c + (x :: ds).length ≤ k → k < 8 * bytes.length → (bits (binLoop (p :: s) c bytes).2)[k]? = some false := by
    intro p x s ds hp hx ih c bytes hc h0
    simp only [List.length_cons] at hc
    simp only [binLoop, if_neg hp]
    have hif : (if p = 0x31 then 1 else 0 : Nat) = if x then 1 else 0 := by
      cases x
      · rw [if_neg (by simp [hx])]; rfl
      · rw [if_pos (hx.2 rfl)]; rfl
    rw [hif]
    have hst := step x c bytes (by omega) h0
    generalize hb' : (bytes.modify (c / 8) fun b => UInt8.ofNat (b.toNat ||| ((if x then 1 else 0) <<< (7 - c % 8)))) = bytes' at hst
    have hl : bytes'.length = bytes.length := by rw [← hb', List.length_modify]
    obtain ⟨r1, r2, r3, r4⟩ := ih (c + 1) bytes' (by rw [hl]; omega) (by
      intro k h1 h2
      rw [hst, List.getElem?_set, if_neg (by omega)]
      exact h0 k (by omega) (by rw [hl] at h2; exact h2))
    refine ⟨by rw [r1]; simp; omega, by rw [r2, hl], ?_, ?_⟩
    · have : c + (x :: ds).length = c + 1 + ds.length := by simp; omega
      rw [this, r3, hst, take_set _ _ _ (by rw [bits_length]; omega)]
      simp
    · intro k h1 h2
      exact r4 k (by simp at h1; omega) (by rw [hl]; exact h2)
  induction h with
  | nil =>
    intro c bytes _ h0
    refine ⟨rfl, rfl, by simp [binLoop], ?_⟩
    intro k h1 h2
    exact h0 k (by simpa using h1) h2
  | zero _ ih => exact digit _ _ _ _ (by decide) (by decide) ih
  | one _ ih => exact digit _ _ _ _ (by decide) (by decide) ih
  | blank _ ih =>
    intro c bytes hc h0
    have : (' '.toUInt8 : UInt8) = 0x20 := by decide
    simp only [binLoop, this, if_true]
    exact ih c bytes hc h0

theorem binary_length {s : Area} {ds : List Bool} (h : Binary s ds) : ds.length ≤ s.length := by
  induction h with
  | nil => exact Nat.le_refl _
  | zero _ ih => simpa using ih
  | one _ ih => simpa using ih
  | blank _ ih => simp; omega

theorem bits_zero (n k : Nat) (h : k < 8 * n) : (bits (List.replicate n 0))[k]? = some false := by
  rw [bits_get, List.getElem?_replicate, if_pos (by omega)]
  simp

theorem binToBits_eq {s : Area} {ds : List Bool} (h : Binary s ds) : (binToBits s).1 = ds.length ∧ (binToBits s).2.length = s.length ∧
    (bits (binToBits s).2).take ds.length = ds := by
  have hl := binary_length h
  obtain ⟨h1, h2, h3, -⟩ := binLoop_spec h 0 (List.replicate s.length 0) (by simp; omega) (by
    intro k _ hk; exact bits_zero _ _ (by simpa using hk))
  refine ⟨by simpa [binToBits] using h1, by simpa [binToBits] using h2, by simpa [binToBits] using h3⟩

theorem binary_isBin {s : Area} {ds : List Bool} (h : Binary s ds) : isBinString s = true ∧ 0 ∉ s := by
  unfold isBinString
  induction h with
  | nil => simp
  | zero _ ih => exact ⟨by simp [ih.1]; decide, by simp [ih.2]; decide⟩
  | one _ ih => exact ⟨by simp [ih.1]; decide, by simp [ih.2]; decide⟩
  | blank _ ih => exact ⟨by simp [ih.1]; decide, by simp [ih.2]; decide⟩

/-! ### Hexadecimal digits -/

theorem digit_ok : ∀ n : Fin 256, ∀ x, hexValue (UInt8.ofNat n) = some x →
    x < 16 ∧ H2.Misc.isxdigit (char (UInt8.ofNat n)) = true ∧ H2.Misc.hex2byte (char (UInt8.ofNat n)) = x ∧ UInt8.ofNat n ≠ 0 := by
  have : ∀ n : Fin 256, (hexValue (UInt8.ofNat n)).all fun x => decide (x < 16 ∧ H2.Misc.isxdigit (char (UInt8.ofNat n)) = true ∧
    H2.Misc.hex2byte (char (UInt8.ofNat n)) = x ∧ UInt8.ofNat n ≠ 0) := by decide +kernel
  intro n x hx
  have := this n
  rw [hx] at this
  simpa using this

theorem hexValue_ok {c : UInt8} {x : Nat} (h : hexValue c = some x) :
    x < 16 ∧ H2.Misc.isxdigit (char c) = true ∧ H2.Misc.hex2byte (char c) = x ∧ c ≠ 0 := by
  have := digit_ok ⟨c.toNat, c.toNat_lt⟩ x
  simp only [UInt8.ofNat_toNat] at this
  exact this h

theorem pairs_even {s bs : Area} (h : Pairs s bs) : s.length = 2 * bs.length := by
  induction h with
  | nil => rfl
  | pair _ _ _ ih => simp [ih]; omega

theorem pairs_loop {s bs : Area} (h : Pairs s bs) : ∀ (i : Nat) (b : Option Char), i % 2 = 0 →
    H2.Misc.hexLoop (s.map char) i b = some (bs.map UInt8.toNat) := by
  induction h with
  | nil => intro i b _; rfl
  | pair h1 h2 _ ih =>
    intro i b hi
    obtain ⟨g1, -, g2, -⟩ := hexValue_ok h1
    obtain ⟨g3, -, g4, -⟩ := hexValue_ok h2
    simp only [List.map_cons]
    rw [H2.Misc.hexLoop.eq_def]; simp only; rw [if_neg (by omega), H2.Misc.hexLoop.eq_def]; simp only; rw [if_pos (by omega), ih _ _ (by omega)]
    simp only [H2.Misc.byte_eq, Option.map_some, g2, g4]
    congr 2
    rw [UInt8.toNat_ofNat_of_lt' (by simp [UInt8.size]; omega)]
    omega

theorem pairs_digits {s bs : Area} (h : Pairs s bs) : ∀ c ∈ s, ∃ x, hexValue c = some x := by
  induction h with
  | nil => simp
  | pair h1 h2 _ ih =>
    intro c hc
    simp at hc
    rcases hc with rfl | rfl | hc
    · exact ⟨_, h1⟩
    · exact ⟨_, h2⟩
    · exact ih c hc

theorem hex_digits {s bs : Area} (h : Hex s bs) : ∀ c ∈ s, ∃ x, hexValue c = some x := by
  cases h with
  | even h => exact pairs_digits h
  | odd h1 h2 =>
    intro c hc
    rcases List.mem_cons.1 hc with rfl | hc
    · exact ⟨_, h1⟩
    · exact pairs_digits h2 c hc

/-- Hexadecimal digits up to something else. -/
theorem hexToBytes_eq {s bs : Area} (h : Hex s bs) (rest : Area) (hr : ∀ c ∈ rest.head?, H2.Misc.isxdigit (char c) = false) :
    hexToBytes (s ++ rest) = some bs := by
  have htake : ((s ++ rest).map char).takeWhile H2.Misc.isxdigit = s.map char := by
    rw [List.map_append, List.takeWhile_append_of_pos]
    · cases rest with
      | nil => simp
      | cons c r => simp [hr c (by simp)]
    · intro c hc
      obtain ⟨d, hd, rfl⟩ := List.mem_map.1 hc
      obtain ⟨x, hx⟩ := hex_digits h d hd
      exact (hexValue_ok hx).2.1
  have hback : ∀ l : Area, (l.map UInt8.toNat).map UInt8.ofNat = l := by
    intro l; rw [List.map_map]; conv => rhs; rw [← List.map_id l]
    exact List.map_congr_left fun c _ => by simp
  unfold hexToBytes H2.Misc.hex2bytes
  simp only [htake]
  cases h with
  | even h =>
    rw [if_neg (by simp [pairs_even h]), pairs_loop h 0 none rfl]
    simp [hback]
  | odd h1 h2 =>
    obtain ⟨g1, -, g2, -⟩ := hexValue_ok h1
    rw [if_pos (by simp [pairs_even h2])]
    simp only [List.map_cons]
    rw [H2.Misc.hexLoop.eq_def]; simp only; rw [if_pos (by simp), pairs_loop h2 _ _ (by rfl)]
    simp only [Option.map_some, g2, List.map_cons, hback]
    congr 2
    have : H2.Misc.hex2byte '0' = 0 := by decide
    rw [this]
    congr 1
    rw [Nat.zero_shiftLeft]
    omega

theorem bits_append (l r : List UInt8) : bits (l ++ r) = bits l ++ bits r := List.flatMap_append

/-- The number that bits stand for. -/
def bitsValue (l : List Bool) : Nat := l.foldl (fun v b => 2 * v + if b then 1 else 0) 0

theorem bitsValue_byte : ∀ n : Fin 256, bitsValue (byteBits (UInt8.ofNat n)) = n := by decide +kernel

theorem byteBits_inj (m n : Fin 256) (h : byteBits (UInt8.ofNat m) = byteBits (UInt8.ofNat n)) : m = n := by
  apply Fin.ext
  rw [← bitsValue_byte m, ← bitsValue_byte n, h]

theorem byteBits_eq {b c : UInt8} (h : byteBits b = byteBits c) : b = c := by
  have := byteBits_inj ⟨b.toNat, b.toNat_lt⟩ ⟨c.toNat, c.toNat_lt⟩
  simp only [UInt8.ofNat_toNat, Fin.mk.injEq] at this
  exact UInt8.toNat_inj.1 (this h)

theorem bits_inj {l r : List UInt8} (h : bits l = bits r) : l = r := by
  induction l generalizing r with
  | nil =>
    cases r with
    | nil => rfl
    | cons b r => simp [bits, byteBits] at h
  | cons b l ih =>
    cases r with
    | nil => simp [bits, byteBits] at h
    | cons c r =>
      have e : byteBits b ++ bits l = byteBits c ++ bits r := h
      obtain ⟨e1, e2⟩ := List.append_inj e rfl
      rw [byteBits_eq e1, ih e2]

theorem bits_take (l : List UInt8) (n : Nat) : (bits l).take (n * 8) = bits (l.take n) := by
  induction n generalizing l with
  | zero => simp [bits]
  | succ n ih =>
    cases l with
    | nil => simp [bits]
    | cons b l =>
      have e : bits (b :: l) = byteBits b ++ bits l := rfl
      rw [e, List.take_append]
      have : (n + 1) * 8 - (byteBits b).length = n * 8 := by rw [byteBits_length]; omega
      rw [this, ih, List.take_of_length_le (by rw [byteBits_length]; omega)]
      rfl

theorem take_eq_prefix {α : Type} {p l : List α} : p = l.take p.length ↔ p <+: l := by
  constructor
  · intro h; rw [h]; exact List.take_prefix _ _
  · intro h; exact List.prefix_iff_eq_take.1 h

/-- As many bits as `p` has. -/
theorem bitsEqual_prefix {e a : Area} {p : List Bool} (h1 : (bits e).take p.length = p) (h2 : p.length ≤ 8 * a.length) :
    bitsEqual e a p.length = some (decide (p <+: bits a)) := by
  rw [bitsEqual_eq ?_ h2, h1]
  · congr 1
    exact decide_eq_decide.2 take_eq_prefix
  · have := congrArg List.length h1
    rw [List.length_take, bits_length] at this
    omega

/-- As many bytes as `p` has. -/
theorem bitsEqual_bytes {e a p : Area} (h1 : p <+: e) (h2 : p.length ≤ a.length) :
    bitsEqual e a (p.length * 8) = some (decide (p <+: a)) := by
  have hl := h1.length_le
  rw [bitsEqual_eq (by omega) (by omega), bits_take, bits_take, ← take_eq_prefix.2 h1]
  congr 1
  apply decide_eq_decide.2
  constructor
  · intro h; exact take_eq_prefix.1 (bits_inj h)
  · intro h; rw [← take_eq_prefix.2 h]

theorem isspace_iff (c : UInt8) : isspace c = true ↔ White c := by
  unfold isspace White
  simp only [List.map_cons, List.map_nil, List.mem_cons, List.not_mem_nil, or_false]
  have : ∀ n : Fin 256, isspace (UInt8.ofNat n) = true ↔ (UInt8.ofNat n = ' '.toUInt8 ∨ UInt8.ofNat n = '\t'.toUInt8 ∨ UInt8.ofNat n = '\n'.toUInt8 ∨
    UInt8.ofNat n = '\x0b'.toUInt8 ∨ UInt8.ofNat n = '\x0c'.toUInt8 ∨ UInt8.ofNat n = '\r'.toUInt8) := by decide +kernel
  have := this ⟨c.toNat, c.toNat_lt⟩
  simp only [UInt8.ofNat_toNat] at this
  exact this

theorem notHex_table : ∀ n : Fin 256, (H2.Misc.isxdigit (char (UInt8.ofNat n)) = true ↔ (hexValue (UInt8.ofNat n)).isSome) := by decide +kernel

theorem isxdigit_iff (c : UInt8) : H2.Misc.isxdigit (char c) = true ↔ ∃ x, hexValue c = some x := by
  have := notHex_table ⟨c.toNat, c.toNat_lt⟩
  simp only [UInt8.ofNat_toNat] at this
  rw [this, Option.isSome_iff_exists]

end H2.Memcmp
