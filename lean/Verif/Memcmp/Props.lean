import Verif.Memcmp.Lemmas
/-
C08: what `Me` accepts.
-/
namespace H2.Memcmp

/-- **C08**: with a size or a width given, or with a type that is no string, the first `size * width` bits decide; a size left out
is the dimension of the array, a width left out that of its elements. -/
theorem C08_me (m : Me) (a : Area) (negative : Bool) (size width : Nat)
    (hgiven : m.size ≠ 0 ∨ m.width ≠ 0 ∨ m.string = false)
    (hsize : size = m.size ∧ size ≠ 0 ∨ m.size = 0 ∧ size = m.dimension)
    (hwidth : width = m.width ∧ width ≠ 0 ∨ m.width = 0 ∧ width = m.elementBits)
    (hz : size ≠ 0) (hw : width ≠ 0) (hfit : size * width < 2 ^ 64)
    (he : size * width ≤ 8 * m.buffer.length) (ha : size * width ≤ 8 * a.length) :
    accepts m negative a = some (decide ((bits m.buffer).take (size * width) = (bits a).take (size * width)) != negative) := by
  have hc : ¬ (m.width = 0 ∧ m.size = 0 ∧ m.string = true) := by
    rintro ⟨h1, h2, h3⟩
    rcases hgiven with h | h | h
    · exact h h2
    · exact h h1
    · rw [h] at h3; simp at h3
  have e1 : (if m.width = 0 then m.elementBits else m.width) = width := by
    rcases hwidth with ⟨h1, h2⟩ | ⟨h1, h2⟩
    · rw [if_neg (by omega), h1]
    · rw [if_pos h1, h2]
  have e2 : (if m.size = 0 then m.dimension else m.size) = size := by
    rcases hsize with ⟨h1, h2⟩ | ⟨h1, h2⟩
    · rw [if_neg (by omega), h1]
    · rw [if_pos h1, h2]
  unfold accepts check finish
  rw [if_neg hc]
  simp only [e1, e2]
  rw [if_neg (by omega), Nat.mod_eq_of_lt hfit, bitsEqual_eq he ha]
  rfl

/-- twelve bits of two bytes, and a negation -/
example (x : UInt8) : accepts ⟨[0xab, 0xc0, x], true, 8, 0, 12, 1⟩ false [0xab, 0xcf] = some true ∧
    accepts ⟨[0xab, 0xc0, x], true, 8, 0, 12, 1⟩ true [0xab, 0xcf] = some false ∧
    accepts ⟨[0xab, 0xc0, x], true, 8, 0, 13, 1⟩ false [0xab, 0xcf] = some false := ⟨rfl, rfl, rfl⟩
/-- an array of three 16-bit integers -/
example : accepts ⟨[1, 0, 2, 0, 3, 0], false, 16, 3, 0, 0⟩ false [1, 0, 2, 0, 3, 0, 9] = some true := by
  rw [C08_me _ _ _ 3 16 (by simp) (by simp) (by simp) (by simp) (by simp) (by simp) (by simp) (by simp)]
  decide

/-- **C08**: whole bytes. -/
theorem C08_bytes (m : Me) (a : Area) (negative : Bool) (hsize : m.size ≠ 0) (hwidth : m.width = 8)
    (hfit : m.size * 8 < 2 ^ 64) (he : m.size ≤ m.buffer.length) (ha : m.size ≤ a.length) :
    accepts m negative a = some (decide (m.buffer.take m.size = a.take m.size) != negative) := by
  rw [C08_me m a negative m.size 8 (.inl hsize) (.inl ⟨rfl, hsize⟩) (.inl ⟨hwidth.symm, by omega⟩) hsize (by omega) hfit
    (by omega) (by omega), bits_take, bits_take]
  congr 2
  exact decide_eq_decide.2 ⟨bits_inj, fun h => by rw [h]⟩

example : accepts ⟨[1, 2, 3], false, 8, 0, 2, 8⟩ false [1, 2, 4] = some true ∧
    accepts ⟨[1, 2, 3], false, 8, 0, 3, 8⟩ false [1, 2, 4] = some false := by decide

/-- **C08**: when neither is known nothing is compared: the assertion fails, negated or not. -/
theorem C08_unspecified (m : Me) (a : Area) (negative : Bool) (hs : m.string = false) 
    (h : m.size = 0 ∧ m.dimension = 0 ∨ m.width = 0 ∧ m.elementBits = 0) : accepts m negative a = some false := by
  unfold accepts check finish
  rw [if_neg (by simp [hs])]
  simp only
  rw [if_pos]
  rcases h with ⟨h1, h2⟩ | ⟨h1, h2⟩
  · left; rw [if_pos h1, h2]
  · right; rw [if_pos h1, h2]

example : accepts ⟨[1, 2], false, 0, 0, 2, 0⟩ true [1, 2] = some false := C08_unspecified _ _ _ rfl (.inr ⟨rfl, rfl⟩)

/-- **C08**: no byte beyond the first `size * width` bits of either area has an influence. -/
theorem C08_only (m : Me) (a : Area) (negative : Bool) (hsize : m.size ≠ 0) (hwidth : m.width ≠ 0)
    (hfit : m.size * m.width < 2 ^ 64) (he : m.size * m.width ≤ 8 * m.buffer.length) (ha : m.size * m.width ≤ 8 * a.length) (x y : Area) :
    accepts { m with buffer := m.buffer ++ x } negative (a ++ y) = accepts m negative a := by
  rw [C08_me m a negative m.size m.width (.inl hsize) (.inl ⟨rfl, hsize⟩) (.inl ⟨rfl, hwidth⟩) hsize hwidth hfit he ha,
    C08_me { m with buffer := m.buffer ++ x } (a ++ y) negative m.size m.width (.inl hsize) (.inl ⟨rfl, hsize⟩) (.inl ⟨rfl, hwidth⟩)
      hsize hwidth hfit (by simp; omega) (by simp; omega)]
  simp only [bits_append]
  rw [List.take_append_of_le_length (by rw [bits_length]; exact he), List.take_append_of_le_length (by rw [bits_length]; exact ha)]

/-- The first difference decides: after one nothing more is read, so areas may end there. -/
theorem C08_reads (e a : Area) (n k : Nat) (x y : Bool) (hk : k < n) (hx : (bits e)[k]? = some x) (hy : (bits a)[k]? = some y)
    (hd : x ≠ y) : bitsEqual e a n = some false := by
  obtain ⟨s1, s2⟩ := bitsLoop_spec e a n 0
  -- the first of the differences
  have : ∀ k, ∀ x y, k < n → (bits e)[k]? = some x → (bits a)[k]? = some y → x ≠ y → ∃ k, 0 ≤ k ∧ k < 0 + n ∧
      (∀ i, 0 ≤ i → i < k → ∃ x, (bits e)[i]? = some x ∧ (bits a)[i]? = some x) ∧
      ∃ x y, (bits e)[k]? = some x ∧ (bits a)[k]? = some y ∧ x ≠ y := by
    intro k
    induction k using Nat.strongRecOn with
    | ind k ih =>
      intro x y hk hx hy hd
      by_cases h : ∃ i, i < k ∧ (bits e)[i]? ≠ (bits a)[i]?
      · obtain ⟨i, hi, hne⟩ := h
        have l1 : k < (bits e).length := (List.getElem?_eq_some_iff.1 hx).1
        have l2 : k < (bits a).length := (List.getElem?_eq_some_iff.1 hy).1
        rw [List.getElem?_eq_getElem (by omega), List.getElem?_eq_getElem (by omega)] at hne
        exact ih i hi _ _ (by omega) (List.getElem?_eq_getElem (by omega)) (List.getElem?_eq_getElem (by omega)) (fun e => hne (by rw [e]))
      · refine ⟨k, Nat.zero_le _, by omega, ?_, x, y, hx, hy, hd⟩
        intro i _ hi
        have e1 : (bits e)[i]? = (bits a)[i]? := Decidable.byContradiction fun hne => h ⟨i, hi, hne⟩
        have l1 : k < (bits e).length := (List.getElem?_eq_some_iff.1 hx).1
        exact ⟨(bits e)[i]'(by omega), List.getElem?_eq_getElem (by omega), by rw [← e1]; exact List.getElem?_eq_getElem (by omega)⟩
  exact s2.2 (this k x y hk hx hy hd)

example : bitsEqual [0xff] [0xfe, 1] 1000 = some false := C08_reads _ _ _ 7 true false (by omega) (by decide) (by decide) (by decide)

/-- `Me(string)`: neither size nor width, a type that converts to a string. -/
def Me.ofString (text rest : Area) (elementBits dimension : Nat) : Me := ⟨text ++ 0 :: rest, true, elementBits, dimension, 0, 0⟩

theorem accepts_string (text rest a : Area) (eb d : Nat) (negative : Bool) (h0 : 0 ∉ text) (ha : text.length < a.length) :
    accepts (Me.ofString text rest eb d) negative a =
      if text ++ [0] <+: a then some (!negative)
      else match (if isBinString text then finish (Me.ofString text rest eb d) a (binToBits text).2 (binToBits text).1 1
        else if isHexString text then
          match hexToBytes text with
          | none => .undefined
          | some e => finish (Me.ofString text rest eb d) a e e.length 8
        else finish (Me.ofString text rest eb d) a (text ++ 0 :: rest) text.length 8 : Outcome) with
      | .undefined => none
      | .unspecified => some false
      | .result b => some (b != negative) := by
  unfold accepts check
  rw [if_pos ⟨rfl, rfl, rfl⟩]
  have : (Me.ofString text rest eb d).buffer = text ++ 0 :: rest := rfl
  rw [this, cstring_some text rest h0]
  simp only
  rw [strcmpEq_eq ha]
  by_cases h : text ++ [0] <+: a
  · rw [decide_eq_true h, if_pos h]; simp
  · rw [decide_eq_false h, if_neg h]
    rfl

theorem finish_given (m : Me) (a e : Area) (z w : Nat) (hz : z ≠ 0) (hw : w ≠ 0) (hfit : z * w < 2 ^ 64) :
    finish m a e z w = .of (bitsEqual e a (z * w)) := by
  unfold finish
  simp only [if_neg hz, if_neg hw]
  rw [if_neg (by omega), Nat.mod_eq_of_lt hfit]

/-- **C08**: a text of binary digits and blanks accepts the same text, and what begins with these bits. -/
theorem C08_binary (text rest a : Area) (ds : List Bool) (eb d : Nat) (negative : Bool) (h : Binary text ds) (hds : ds ≠ [])
    (hfit : text.length < 2 ^ 64) (ha : text.length < a.length) :
    accepts (Me.ofString text rest eb d) negative a = some (decide (text ++ [0] <+: a ∨ ds <+: bits a) != negative) := by
  obtain ⟨hb, h0⟩ := binary_isBin h
  obtain ⟨b1, b2, b3⟩ := binToBits_eq h
  have hl := binary_length h
  have hpos : ds.length ≠ 0 := by simpa using hds
  rw [accepts_string text rest a eb d negative h0 ha]
  by_cases hp : text ++ [0] <+: a
  · rw [if_pos hp]
    simp [hp]
  · rw [if_neg hp]
    rw [if_pos hb, b1, finish_given _ _ _ _ _ hpos (by omega) (by omega), Nat.mul_one, bitsEqual_prefix b3 (by omega)]
    simp [hp, Outcome.of]

/-- bits 1010 1100 1 -/
example (x y : UInt8) : accepts (Me.ofString ("1010 1100 1".toList.map Char.toUInt8) [] 8 0) false
    ([0xac, 0x80] ++ [x, y, 0, 0, 0, 0, 0, 0, 0, 0]) = some true := by
  have h : Binary ("1010 1100 1".toList.map Char.toUInt8) [true, false, true, false, true, true, false, false, true] :=
    .one (.zero (.one (.zero (.blank (.one (.one (.zero (.zero (.blank (.one .nil))))))))))
  rw [C08_binary _ _ _ _ _ _ _ h (by simp) (by decide) (by simp)]
  have : [true, false, true, false, true, true, false, false, true] <+: bits ([0xac, 0x80] ++ [x, y, 0, 0, 0, 0, 0, 0, 0, 0]) :=
    ⟨_, rfl⟩
  rw [decide_eq_true (.inr this)]; rfl

theorem hex_notBin {text : Area} (h01 : ∃ c ∈ text, c ≠ '0'.toUInt8 ∧ c ≠ '1'.toUInt8 ∧ ¬ White c) : isBinString text = false := by
  obtain ⟨c, hc, h0, h1, h2⟩ := h01
  unfold isBinString
  rw [Bool.eq_false_iff]
  intro h
  have := List.all_eq_true.1 h c hc
  simp only [Bool.or_eq_true, beq_iff_eq] at this
  rcases this with (h | h) | h
  · exact h0 h
  · exact h1 h
  · exact h2 ((isspace_iff c).1 h)

theorem accepts_hex (text rest a : Area) (bs : Area) (eb d : Nat) (negative : Bool) (hbin : isBinString text = false)
    (hhex : isHexString text = true) (hbytes : hexToBytes text = some bs) (h0 : 0 ∉ text) (hbs : bs ≠ []) (hl : bs.length ≤ text.length)
    (hfit : 8 * text.length < 2 ^ 64) (ha : text.length < a.length) :
    accepts (Me.ofString text rest eb d) negative a = some (decide (text ++ [0] <+: a ∨ bs <+: a) != negative) := by
  rw [accepts_string text rest a eb d negative h0 ha]
  by_cases hp : text ++ [0] <+: a
  · rw [if_pos hp]
    simp [hp]
  · rw [if_neg hp]
    have hpos : bs.length ≠ 0 := by simpa using hbs
    rw [if_neg (by simp [hbin]), if_pos hhex, hbytes]
    simp only
    rw [finish_given _ _ _ _ _ hpos (by omega) (by omega), bitsEqual_bytes (List.prefix_refl _) (by omega)]
    simp [hp, Outcome.of]

theorem hex_length {s bs : Area} (h : Hex s bs) : bs.length ≤ s.length := by
  cases h with
  | even h => have := pairs_even h; omega
  | odd _ h => have := pairs_even h; simp; omega

/-- **C08**: a text of hexadecimal digits, not all of them 0 and 1, accepts the same text, and what begins with these bytes. -/
theorem C08_hex (text rest a : Area) (bs : Area) (eb d : Nat) (negative : Bool) (h : Hex text bs)
    (h01 : ∃ c ∈ text, c ≠ '0'.toUInt8 ∧ c ≠ '1'.toUInt8) (hfit : 8 * text.length < 2 ^ 64) (ha : text.length < a.length) :
    accepts (Me.ofString text rest eb d) negative a = some (decide (text ++ [0] <+: a ∨ bs <+: a) != negative) := by
  have hd := hex_digits h
  have hw : ∀ n : Fin 256, ¬ ((hexValue (UInt8.ofNat n)).isSome ∧ isspace (UInt8.ofNat n) = true) := by decide +kernel
  have hb : bs ≠ [] := by
    obtain ⟨c, hc, -⟩ := h01
    rintro rfl
    cases h with
    | even h => have := pairs_even h; simp at this; subst this; simp at hc
  apply accepts_hex text rest a bs eb d negative _ _ _ _ hb (hex_length h) hfit ha
  · obtain ⟨c, hc, g0, g1⟩ := h01
    refine hex_notBin ⟨c, hc, g0, g1, ?_⟩
    intro hwh
    have := hw ⟨c.toNat, c.toNat_lt⟩
    simp only [UInt8.ofNat_toNat] at this
    apply this
    exact ⟨by obtain ⟨x, hx⟩ := hd c hc; rw [hx]; rfl, (isspace_iff c).2 hwh⟩
  · unfold isHexString
    rw [Bool.or_eq_true]
    right
    rw [List.all_eq_true]
    intro c hc
    rw [(isxdigit_iff c).2 (hd c hc)]
    rfl
  · have := hexToBytes_eq h [] (by simp)
    simpa using this
  · intro hz
    obtain ⟨x, hx⟩ := hd 0 hz
    exact (hexValue_ok hx).2.2.2 rfl

/-- bytes 0x0a 0xbc 0x12 -/
example (x y : UInt8) : accepts (Me.ofString ("aBc12".toList.map Char.toUInt8) [] 8 0) false ([0x0a, 0xbc, 0x12] ++ [x, y, 1]) = some true := by
  have h : Hex ("aBc12".toList.map Char.toUInt8) [0x0a, 0xbc, 0x12] :=
    .odd (x := 10) (by decide) (.pair (x := 11) (y := 12) (by decide) (by decide) (.pair (x := 1) (y := 2) (by decide) (by decide) .nil))
  rw [C08_hex _ _ _ _ _ _ _ h ⟨'a'.toUInt8, by decide, by decide, by decide⟩ (by decide) (by simp)]
  simp

/-- **C08**: any other text, one with a character that is no hexadecimal digit, accepts what begins with the text. -/
theorem C08_text (text rest a : Area) (eb d : Nat) (negative : Bool) (h0 : 0 ∉ text)
    (hother : ∃ c ∈ text, hexValue c = none ∧ ¬ White c) (hno : ∀ x s, text = '0'.toUInt8 :: x :: s → x ≠ 'x'.toUInt8 ∧ x ≠ 'X'.toUInt8)
    (hfit : 8 * text.length < 2 ^ 64) (ha : text.length < a.length) :
    accepts (Me.ofString text rest eb d) negative a = some (decide (text <+: a) != negative) := by
  obtain ⟨c, hc, hv, hw⟩ := hother
  have hb : isBinString text = false := by
    refine hex_notBin ⟨c, hc, ?_, ?_, hw⟩
    · rintro rfl; revert hv; decide
    · rintro rfl; revert hv; decide
  have hx : isHexString text = false := by
    unfold isHexString
    rw [Bool.or_eq_false_iff]
    constructor
    · match text, hno with
      | [], _ => rfl
      | [p], _ => simp
      | p :: q :: s, hno =>
        rw [Bool.and_eq_false_iff]
        by_cases hp : p = 0x30
        · right
          subst hp
          obtain ⟨g1, g2⟩ := hno q s rfl
          have key : ∀ n : Fin 256, tolower (UInt8.ofNat n) = 0x78 → UInt8.ofNat n = 'x'.toUInt8 ∨ UInt8.ofNat n = 'X'.toUInt8 := by decide +kernel
          have := key ⟨q.toNat, q.toNat_lt⟩
          simp only [UInt8.ofNat_toNat] at this
          simp only [List.getElem?_cons_succ, List.getElem?_cons_zero, Option.map_some, beq_eq_false_iff_ne, ne_eq, Option.some.injEq]
          intro e
          rcases this e with e | e
          · exact g1 e
          · exact g2 e
        · left
          simp [hp]
    · rw [Bool.eq_false_iff]
      intro h
      have := List.all_eq_true.1 h c hc
      rw [Bool.or_eq_true, isxdigit_iff, isspace_iff] at this
      rcases this with ⟨x, e⟩ | e
      · rw [hv] at e; simp at e
      · exact hw e
  rw [accepts_string text rest a eb d negative h0 ha]
  by_cases hp : text ++ [0] <+: a
  · rw [if_pos hp]
    have : text <+: a := List.IsPrefix.trans (List.prefix_append _ _) hp
    simp [this]
  · rw [if_neg hp, if_neg (by simp [hb]), if_neg (by simp [hx])]
    have hpos : text.length ≠ 0 := by
      intro e
      rw [List.length_eq_zero_iff.1 e] at hc
      simp at hc
    rw [finish_given _ _ _ _ _ hpos (by omega) (by omega), bitsEqual_bytes (List.prefix_append _ _) (by omega)]
    rfl

example : accepts (Me.ofString ("hello".toList.map Char.toUInt8) [] 8 0) false ("hello world".toList.map Char.toUInt8) = some true := by
  decide +kernel
example : accepts (Me.ofString ("hello".toList.map Char.toUInt8) [] 8 0) false ("help world".toList.map Char.toUInt8) = some false := by
  decide +kernel

/-! ### What a user may not expect -/

/-- A blank ends hexadecimal digits: what follows is not compared. -/
theorem C08_hex_blank (text more rest a : Area) (bs : Area) (eb d : Nat) (negative : Bool) (h : Hex text bs) (hbs : bs ≠ [])
    (hmore : ∀ c ∈ more, (∃ x, hexValue c = some x) ∨ c = ' '.toUInt8) (h01 : ∃ c ∈ text ++ more, c ≠ '0'.toUInt8 ∧ c ≠ '1'.toUInt8 ∧ ¬ White c)
    (hfit : 8 * (text.length + 1 + more.length) < 2 ^ 64) (ha : text.length + 1 + more.length < a.length) :
    accepts (Me.ofString (text ++ ' '.toUInt8 :: more) rest eb d) negative a =
      some (decide (text ++ ' '.toUInt8 :: more ++ [0] <+: a ∨ bs <+: a) != negative) := by
  have hd := hex_digits h
  have hl : (text ++ ' '.toUInt8 :: more).length = text.length + 1 + more.length := by simp; omega
  have h1 := hex_length h
  apply accepts_hex _ rest a bs eb d negative _ _ _ _ hbs (by omega) (by omega) (by omega)
  · obtain ⟨c, hc, g⟩ := h01
    refine hex_notBin ⟨c, ?_, g⟩
    rcases List.mem_append.1 hc with h | h <;> simp [h]
  · unfold isHexString
    rw [Bool.or_eq_true]
    right
    rw [List.all_eq_true]
    intro c hc
    rw [Bool.or_eq_true, isxdigit_iff, isspace_iff]
    simp only [List.mem_append, List.mem_cons] at hc
    rcases hc with h | rfl | h
    · exact .inl (hd c h)
    · right; simp [White]
    · rcases hmore c h with g | rfl
      · exact .inl g
      · right; simp [White]
  · apply hexToBytes_eq h
    intro c hc
    simp at hc
    subst hc
    decide
  · intro hz
    simp only [List.mem_append, List.mem_cons] at hz
    rcases hz with h | h | h
    · obtain ⟨x, hx⟩ := hd 0 h
      exact (hexValue_ok hx).2.2.2 rfl
    · revert h; decide
    · rcases hmore 0 h with ⟨x, hx⟩ | h
      · exact (hexValue_ok hx).2.2.2 rfl
      · revert h; decide

/-- "12 34" accepts what begins with 0x12, whatever comes next. -/
example : accepts (Me.ofString ("12 34".toList.map Char.toUInt8) [] 8 0) false [0x12, 0x99, 0, 0, 0, 0] = some true := by decide +kernel
/-- "0x1234" accepts what begins with a zero byte. -/
example : accepts (Me.ofString ("0x1234".toList.map Char.toUInt8) [] 8 0) false [0, 0x99, 0x99, 0, 0, 0, 0] = some true ∧
    accepts (Me.ofString ("0x1234".toList.map Char.toUInt8) [] 8 0) false [0x12, 0x34, 0, 0, 0, 0, 0] = some false := by decide +kernel
/-- A tab between binary digits is a bit 0. -/
example : accepts (Me.ofString ("1\t1".toList.map Char.toUInt8) [] 8 0) false [0xa0, 0, 0, 0] = some true ∧
    accepts (Me.ofString ("1\t1".toList.map Char.toUInt8) [] 8 0) false [0xc0, 0, 0, 0] = some false := by decide +kernel
/-- "10" is two bits, not the byte 0x10. -/
example : accepts (Me.ofString ("10".toList.map Char.toUInt8) [] 8 0) false [0x10, 0, 0] = some false := by decide +kernel
/-- A size and width whose product does not fit is taken modulo 2^64: here nothing is compared. -/
example : accepts ⟨[1], false, 8, 0, 2 ^ 61, 8⟩ false [2] = some true := by decide

/-- **C08**: an empty string, or one of blanks, of which no dimension is known, fails, negated or not (unless the area begins with
the same text). -/
theorem C08_blank (text rest a : Area) (eb : Nat) (negative : Bool) (h : Binary text []) (ha : text.length < a.length)
    (hne : ¬ text ++ [0] <+: a) : accepts (Me.ofString text rest eb 0) negative a = some false := by
  obtain ⟨hb, h0⟩ := binary_isBin h
  obtain ⟨b1, -, -⟩ := binToBits_eq h
  rw [accepts_string text rest a eb 0 negative h0 ha, if_neg hne, if_pos hb, b1]
  have : finish (Me.ofString text rest eb 0) a (binToBits text).2 ([] : List Bool).length 1 = .unspecified := by
    unfold finish; rfl
  rw [this]

example : accepts (Me.ofString [] [] 8 0) true [1] = some false :=
  C08_blank [] [] [1] 8 true .nil (by simp) (by simp)

end H2.Memcmp
