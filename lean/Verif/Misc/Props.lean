import Verif.Misc.Model
/-
Properties C46 (UTF-8 splitting) and C48 (numeric helpers).
-/
namespace H2.Misc

/-! ### C48: powers of two -/

/-- **C48.** `not2n` is true exactly on the positive numbers that are not powers of two. -/
theorem C48_not2n_partial (x : Nat) : not2n x = true ↔ x ≠ 0 ∧ ∀ k, x ≠ 2 ^ k := by
  unfold not2n
  by_cases h : x = 0
  · subst h; simp
  · have := Nat.and_sub_one_eq_zero_iff_isPowerOfTwo h
    simp only [ne_eq, decide_eq_true_eq, this, Nat.isPowerOfTwo, not_exists, h, not_false_eq_true, true_and]

theorem smear_testBit (x s i : Nat) : (x ||| (x >>> s)).testBit i = (x.testBit i || x.testBit (s + i)) := by
  simp [Nat.testBit_or, Nat.testBit_shiftRight]

/-- `w` adjacent bits are gathered in `y`. -/
def Window (x y w : Nat) : Prop := ∀ i, y.testBit i = true ↔ ∃ j, j < w ∧ x.testBit (i + j) = true

theorem window_step {x y w : Nat} (h : Window x y w) : Window x (y ||| (y >>> w)) (w + w) := by
  intro i
  rw [smear_testBit]
  simp only [Bool.or_eq_true]
  rw [h i, h (w + i)]
  constructor
  · rintro (⟨j, h1, h2⟩ | ⟨j, h1, h2⟩)
    · exact ⟨j, by omega, h2⟩
    · exact ⟨w + j, by omega, by rw [show i + (w + j) = w + i + j by omega]; exact h2⟩
  · rintro ⟨j, h1, h2⟩
    by_cases hj : j < w
    · exact Or.inl ⟨j, hj, h2⟩
    · exact Or.inr ⟨j - w, by omega, by rw [show w + i + (j - w) = i + j by omega]; exact h2⟩

theorem mask_window (x : Nat) : Window x (mask2n x) 32 := by
  have h1 : Window x x 1 := by
    intro i
    constructor
    · intro h; exact ⟨0, by omega, h⟩
    · rintro ⟨j, hj, h⟩; have : j = 0 := by omega
      subst this; exact h
  exact window_step (window_step (window_step (window_step (window_step h1))))

/-- **C48.** `mask2n` of a 32-bit number with top bit `k` is `2^(k+1) - 1`. -/
theorem C48_mask2n_partial (x k : Nat) (h1 : 2 ^ k ≤ x) (h2 : x < 2 ^ (k + 1)) (h3 : x < 2 ^ 32) :
    mask2n x = 2 ^ (k + 1) - 1 := by
  apply Nat.eq_of_testBit_eq
  intro i
  rw [Nat.testBit_two_pow_sub_one, Bool.eq_iff_iff, mask_window x i, decide_eq_true_eq]
  have hk : k < 32 := by
    have : 2 ^ k < 2 ^ 32 := by omega
    exact (Nat.pow_lt_pow_iff_right (by omega)).1 this
  constructor
  · rintro ⟨j, _, h⟩
    have := Nat.ge_two_pow_of_testBit h
    have : 2 ^ (i + j) < 2 ^ (k + 1) := by omega
    have := (Nat.pow_lt_pow_iff_right (show 1 < 2 by omega)).1 this
    omega
  · intro h
    refine ⟨k - i, by omega, ?_⟩
    rw [show i + (k - i) = k by omega, Nat.testBit_eq_decide_div_mod_eq]
    have : x / 2 ^ k = 1 := by
      rw [Nat.pow_succ] at h2
      exact Nat.div_eq_of_lt_le (by omega) (by omega)
    simp [this]

/-- **C48.** The alignment the allocator works with is the least power of two not below the
requested one, for every alignment below `2^31` (and above 0). -/
theorem C48_align2n_partial (a : Nat) (h0 : 0 < a) (h : a < 2 ^ 31) :
    (∃ k, align2n a = 2 ^ k) ∧ a ≤ align2n a ∧ ∀ k, a ≤ 2 ^ k → align2n a ≤ 2 ^ k := by
  unfold align2n
  split
  · rename_i hn
    have hnp := (C48_not2n_partial a).1 hn
    have hlog : 2 ^ a.log2 ≤ a := Nat.log2_self_le (by omega)
    have hlt : a < 2 ^ (a.log2 + 1) := Nat.lt_log2_self
    rw [C48_mask2n_partial a a.log2 hlog hlt (by omega)]
    have hp : 0 < 2 ^ (a.log2 + 1) := Nat.pow_pos (by omega)
    rw [Nat.sub_add_cancel hp]
    refine ⟨⟨_, rfl⟩, by omega, ?_⟩
    intro k hk
    apply Nat.pow_le_pow_right (by omega)
    by_cases hle : k ≤ a.log2
    · have := Nat.pow_le_pow_right (show 0 < 2 by omega) hle
      have : a = 2 ^ k := by omega
      exact absurd this (hnp.2 k)
    · omega
  · rename_i hn
    have : ∃ k, a = 2 ^ k := by
      apply Classical.byContradiction
      intro hc
      exact hn ((C48_not2n_partial a).2 ⟨by omega, fun k hk => hc ⟨k, hk⟩⟩)
    exact ⟨this, Nat.le_refl _, fun k hk => hk⟩

/-! ### C48: digit counting -/

theorem strlenLoop_spec (number base : Nat) (hb : 2 ≤ base) (k : Nat) (hk : number < base ^ k) (hw : base ^ k < 2 ^ 64)
    (i : Nat) (hi : i ≤ k) (hlow : base ^ (i - 1) ≤ number ∨ i = 1) (hi0 : 1 ≤ i) (fuel : Nat) (hf : k + 1 ≤ fuel + i) :
    ∃ n, strlenLoop number base fuel i (base ^ (i - 1)) = some n ∧ i ≤ n ∧ number < base ^ n ∧
      (base ^ (n - 1) ≤ number ∨ n = 1) := by
  induction fuel generalizing i with
  | zero => omega
  | succ fuel ih =>
    have e : base ^ (i - 1) * base % 2 ^ 64 = base ^ i := by
      rw [← Nat.pow_succ, show (i - 1).succ = i by omega]
      apply Nat.mod_eq_of_lt
      have : base ^ i ≤ base ^ k := Nat.pow_le_pow_right (by omega) hi
      omega
    rw [strlenLoop, e]
    by_cases h : number < base ^ i
    · exact ⟨i, by simp [h], by omega, h, hlow⟩
    · have hik : i ≠ k := by intro h'; subst h'; exact h hk
      obtain ⟨n, h1, h2, h3, h4⟩ := ih (i + 1) (by omega) (Or.inl (by simpa using h)) (by omega) (by omega)
      rw [show i + 1 - 1 = i by omega] at h1
      exact ⟨n, by simp [h, h1], by omega, h3, h4⟩

/-- The number of digits of `number` in `base`: least `n ≥ 1` with `number < base^n`. -/
def IsDigitCount (number base n : Nat) : Prop :=
  1 ≤ n ∧ number < base ^ n ∧ ∀ m, 1 ≤ m → number < base ^ m → n ≤ m

/-- **C48.** Digit counting is right for every number below a power of the base that fits in 64
bits. -/
theorem C48_digits_partial (number base k : Nat) (hb : 2 ≤ base) (hk1 : 1 ≤ k) (hk : number < base ^ k) (hw : base ^ k < 2 ^ 64) :
    ∃ n, numberStrlen number base (k + 1) = some n ∧ IsDigitCount number base n := by
  obtain ⟨n, h1, h2, h3, h4⟩ := strlenLoop_spec number base hb k hk hw 1 hk1 (Or.inr rfl) (by omega) (k + 1) (by omega)
  refine ⟨n, h1, h2, h3, ?_⟩
  intro m hm hlt
  rcases h4 with h4 | h4
  · apply Classical.byContradiction
    intro hc
    have : base ^ m ≤ base ^ (n - 1) := Nat.pow_le_pow_right (by omega) (by omega)
    omega
  · omega

/-- **C48 is false for large numbers**: a 64-bit number of at least `16^15` never gets an answer in
hexadecimal, since `16^16` wraps to 0. -/
theorem C48_digits_hex_hangs (number : Nat) (h : 16 ^ 15 ≤ number) (fuel : Nat) :
    numberStrlen number 16 fuel = none := by
  have hz : ∀ fuel i, strlenLoop number 16 fuel i 0 = none := by
    intro fuel
    induction fuel with
    | zero => intro i; rfl
    | succ n ih => intro i; rw [strlenLoop]; simp [ih]
  have hstep : ∀ i fuel, 1 ≤ i → i ≤ 16 → strlenLoop number 16 fuel i (16 ^ (i - 1)) = none := by
    intro i fuel
    induction fuel generalizing i with
    | zero => intros; rfl
    | succ n ih =>
      intro h1 h2
      rw [strlenLoop]
      by_cases hi : i = 16
      · subst hi
        simp only [show 16 ^ (16 - 1) * 16 % 2 ^ 64 = 0 by decide, Nat.not_lt_zero, if_false]
        exact hz n _
      · have e : 16 ^ (i - 1) * 16 % 2 ^ 64 = 16 ^ i := by
          rw [← Nat.pow_succ, show (i - 1).succ = i by omega]
          apply Nat.mod_eq_of_lt
          have : 16 ^ i ≤ 16 ^ 15 := Nat.pow_le_pow_right (by omega) (by omega)
          omega
        have hle : 16 ^ i ≤ 16 ^ 15 := Nat.pow_le_pow_right (by omega) (by omega)
        simp only [e]
        rw [if_neg (by omega)]
        have := ih (i + 1) (by omega) (by omega)
        simpa using this
  exact hstep 1 fuel (by omega) (by omega)

/-- **C48 is false for large numbers**: `10^19`, a 20-digit 64-bit number, is given 26 digits. -/
theorem C48_digits_decimal_false : numberStrlen (10 ^ 19) 10 100 = some 26 := by decide +kernel

/-! ### C48: hexadecimal -/

/-- Value of a list of digits, most significant first. -/
def value (base : Nat) (ds : List Nat) : Nat := ds.foldl (fun v d => v * base + d) 0

/-- The digit a hexadecimal character stands for: its place in `0123456789abcdef`, whatever its case. -/
def digitOf (c : Char) : Nat := "0123456789abcdef".toList.idxOf c.toLower

theorem isxdigit_mem (c : Char) (h : isxdigit c = true) : c ∈ "0123456789ABCDEFabcdef".toList := by
  have key : ∀ n : Nat, n < 103 → isxdigit (Char.ofNat n) = true → Char.ofNat n ∈ "0123456789ABCDEFabcdef".toList := by
    decide +kernel
  have hn : c.toNat < 103 := by
    simp only [isxdigit, Char.reduceToNat, Bool.or_eq_true, Bool.and_eq_true, decide_eq_true_eq] at h
    omega
  have := key c.toNat hn
  rw [Char.ofNat_toNat] at this
  exact this h

theorem hex2byte_digit (c : Char) (h : isxdigit c = true) : hex2byte c = digitOf c := by
  have key : ∀ c ∈ "0123456789ABCDEFabcdef".toList, hex2byte c = digitOf c := by decide +kernel
  exact key c (isxdigit_mem c h)

theorem digits_eq (s : List Char) : (s.takeWhile isxdigit).map hex2byte = (s.takeWhile isxdigit).map digitOf := by
  apply List.map_congr_left
  intro c hc
  exact hex2byte_digit c (List.all_eq_true.1 (List.all_takeWhile (p := isxdigit) (l := s)) c hc)

theorem hex2byte_lt (c : Char) : hex2byte c < 16 := by
  unfold hex2byte
  simp only [Char.reduceToNat]
  split
  · omega
  · split
    · omega
    · split <;> omega

theorem byte_eq (b c : Char) : ((hex2byte b) <<< 4 + hex2byte c) % 256 = hex2byte b * 16 + hex2byte c := by
  have h1 := hex2byte_lt b
  have h2 := hex2byte_lt c
  rw [Nat.shiftLeft_eq]; omega

theorem foldl_value (base : Nat) (ds : List Nat) (v : Nat) :
    ds.foldl (fun v d => v * base + d) v = v * base ^ ds.length + value base ds := by
  induction ds generalizing v with
  | nil => simp [value]
  | cons d ds ih =>
    have h2 := ih d
    simp only [value] at ih h2 ⊢
    rw [List.foldl_cons, List.foldl_cons, ih, Nat.zero_mul, Nat.zero_add, h2, List.length_cons, Nat.pow_succ,
      Nat.add_mul, Nat.mul_assoc, Nat.mul_comm base, Nat.add_assoc]

theorem value_cons (base d : Nat) (ds : List Nat) : value base (d :: ds) = d * base ^ ds.length + value base ds := by
  show (d :: ds).foldl (fun v d => v * base + d) 0 = _
  rw [List.foldl_cons, foldl_value]; simp

theorem hexLoop_even (s : List Char) (i : Nat) (b : Option Char) (hi : i % 2 = 0) (hs : s.length % 2 = 0) :
    ∃ bs, hexLoop s i b = some bs ∧ bs.length * 2 = s.length ∧ (∀ x ∈ bs, x < 256) ∧
      value 256 bs = value 16 (s.map hex2byte) := by
  match s with
  | [] => exact ⟨[], rfl, rfl, by simp, rfl⟩
  | [_] => simp at hs
  | c :: d :: s =>
    simp at hs
    obtain ⟨bs, h1, h2, h3, h4⟩ := hexLoop_even s (i + 1 + 1) (some d) (by omega) (by omega)
    refine ⟨(hex2byte c * 16 + hex2byte d) :: bs, ?_, by simp; omega, ?_, ?_⟩
    · rw [hexLoop.eq_def]; simp only; rw [if_neg (by omega), hexLoop.eq_def]; simp only; rw [if_pos (by omega)]
      simp only [h1, byte_eq, Option.map_some]
    · intro x hx
      simp at hx
      rcases hx with hx | hx
      · have := hex2byte_lt c; have := hex2byte_lt d; omega
      · exact h3 x hx
    · rw [value_cons, h4, List.map_cons, List.map_cons, value_cons, value_cons, List.length_cons, List.length_map]
      have : (256 : Nat) ^ bs.length = 16 ^ s.length := by
        rw [← h2, Nat.mul_comm, Nat.pow_mul]
      rw [this, Nat.pow_succ, Nat.add_mul, Nat.mul_assoc, Nat.mul_comm 16, Nat.add_assoc]

theorem hexLoop_odd (s : List Char) :
    hexLoop s 1 (some '0') = hexLoop ('0' :: s) 0 none := by
  conv => rhs; rw [hexLoop]
  simp

/-- **C48.** Hex decoding never reads an uninitialised digit, and yields the bytes whose
base-256 value is the value of the leading run of hex digits, `⌈digits/2⌉` of them. -/
theorem C48_hex_partial (hex : List Char) :
    ∃ bs, hex2bytes hex = some bs ∧ bs.length = ((hex.takeWhile isxdigit).length + 1) / 2 ∧
      (∀ x ∈ bs, x < 256) ∧ value 256 bs = value 16 ((hex.takeWhile isxdigit).map digitOf) := by
  rw [← digits_eq]
  unfold hex2bytes
  by_cases h : (hex.takeWhile isxdigit).length % 2 = 1
  · simp only [h, if_true]
    rw [hexLoop_odd _]
    obtain ⟨bs, h1, h2, h3, h4⟩ := hexLoop_even ('0' :: hex.takeWhile isxdigit) 0 none rfl (by simp; omega)
    refine ⟨bs, h1, by simp at h2; omega, h3, ?_⟩
    rw [h4, List.map_cons, value_cons]
    simp [hex2byte]
  · simp only [h, if_false]
    obtain ⟨bs, h1, h2, h3, h4⟩ := hexLoop_even (hex.takeWhile isxdigit) 0 none rfl (by omega)
    exact ⟨bs, h1, by omega, h3, h4⟩

/-- Printing a byte as two lower-case hex digits. -/
def hexDigit (n : Nat) : Char := if n < 10 then Char.ofNat (n + 48) else Char.ofNat (n + 87)
def printHex (bs : List Nat) : List Char := bs.flatMap (fun b => [hexDigit (b / 16), hexDigit (b % 16)])

theorem hexDigit_ok : ∀ n : Fin 16, isxdigit (hexDigit n) = true ∧ hex2byte (hexDigit n) = n := by decide

/-- **C48.** Decoding inverts printing, whatever non-digit follows. -/
theorem C48_hex_roundtrip_partial (bs : List Nat) (hb : ∀ x ∈ bs, x < 256) (rest : List Char)
    (hr : rest = [] ∨ ∃ c t, rest = c :: t ∧ isxdigit c = false) : hex2bytes (printHex bs ++ rest) = some bs := by
  have htake : (printHex bs ++ rest).takeWhile isxdigit = printHex bs := by
    rw [List.takeWhile_append_of_pos]
    · rcases hr with h | ⟨c, t, h, hc⟩
      · simp [h]
      · simp [h, hc]
    · intro c hc
      simp only [printHex, List.mem_flatMap] at hc
      obtain ⟨b, hbm, hc⟩ := hc
      have h256 := hb b hbm
      have h1 := (hexDigit_ok ⟨b / 16, by omega⟩).1
      have h2 := (hexDigit_ok ⟨b % 16, by omega⟩).1
      simp at hc
      rcases hc with hc | hc <;> rw [hc] <;> assumption
  have hlen : (printHex bs).length = 2 * bs.length := by
    unfold printHex
    clear hr htake hb
    induction bs with
    | nil => rfl
    | cons b bs ih => simp at ih ⊢; omega
  have hloop : ∀ (bs : List Nat), (∀ x ∈ bs, x < 256) → ∀ i b, i % 2 = 0 → hexLoop (printHex bs) i b = some bs := by
    intro bs
    induction bs with
    | nil => intros; rfl
    | cons x bs ih =>
      intro hb i b hi
      have hx := hb x (by simp)
      have h1 := (hexDigit_ok ⟨x / 16, by omega⟩).2
      have h2 := (hexDigit_ok ⟨x % 16, by omega⟩).2
      simp only at h1 h2
      have e : printHex (x :: bs) = hexDigit (x / 16) :: hexDigit (x % 16) :: printHex bs := rfl
      rw [e, hexLoop.eq_def]; simp only; rw [if_neg (by omega), hexLoop.eq_def]; simp only; rw [if_pos (by omega), ih (fun y hy => hb y (by simp [hy])) _ _ (by omega)]
      simp only [byte_eq, h1, h2, Option.map_some]
      congr 2; omega
  unfold hex2bytes
  simp only [htake, hlen]
  rw [if_neg (by omega)]
  exact hloop bs hb 0 none rfl

/-! ### C46 -/

theorem utf8len_pos (b : UInt8) : 1 ≤ utf8len b := by
  unfold utf8len; split <;> (try split) <;> (try split) <;> omega

/-- **C46.** Whenever splitting succeeds, the pieces joined give the text back. -/
theorem C46_join_partial (s : List UInt8) (ps : List (List UInt8)) (h : disperse s = some ps) : ps.flatten = s := by
  match s with
  | [] => rw [disperse] at h; simp at h; subst h; rfl
  | b :: s =>
    rw [disperse] at h
    split at h
    · simp at h
    · cases hd : disperse ((b :: s).drop (utf8len b)) with
      | none => rw [hd] at h; simp at h
      | some qs =>
        rw [hd] at h
        simp only [Option.map_some, Option.some.injEq] at h
        have ih := C46_join_partial _ qs hd
        rw [← h, List.flatten_cons, ih, List.take_append_drop]
  termination_by s.length
  decreasing_by have := utf8len_pos b; simp; omega

theorem lead2 : ∀ n : Fin 32, utf8len (UInt8.ofNat (n + 0xc0)) = 2 := by decide
theorem lead3 : ∀ n : Fin 16, utf8len (UInt8.ofNat (n + 0xe0)) = 3 := by decide
theorem lead4 : ∀ n : Fin 8, utf8len (UInt8.ofNat (n + 0xf0)) = 4 := by decide
theorem lead1 : ∀ n : Fin 128, utf8len (UInt8.ofNat n) = 1 := by decide +kernel

theorem encode_head (c : Char) : ∃ b t, String.utf8EncodeChar c = b :: t ∧ utf8len b = (String.utf8EncodeChar c).length := by
  unfold String.utf8EncodeChar
  simp only
  split
  · rename_i h
    exact ⟨_, _, rfl, lead1 ⟨c.val.toNat, by omega⟩⟩
  · split
    · exact ⟨_, _, rfl, lead2 ⟨c.val.toNat / 64 % 0x20, by omega⟩⟩
    · split
      · exact ⟨_, _, rfl, lead3 ⟨c.val.toNat / 4096 % 0x10, by omega⟩⟩
      · exact ⟨_, _, rfl, lead4 ⟨c.val.toNat / 262144 % 0x08, by omega⟩⟩

/-- **C46.** The UTF-8 encoding of any list of characters splits into exactly the encodings of
those characters. -/
theorem C46_utf8_partial (cs : List Char) :
    disperse (cs.flatMap String.utf8EncodeChar) = some (cs.map String.utf8EncodeChar) := by
  induction cs with
  | nil => rw [List.flatMap_nil, disperse]; rfl
  | cons c cs ih =>
    obtain ⟨b, t, h1, h2⟩ := encode_head c
    rw [List.flatMap_cons]
    generalize hr : cs.flatMap String.utf8EncodeChar = r at ih ⊢
    rw [h1] at h2 ⊢
    rw [List.cons_append, disperse, ← List.cons_append, h2]
    rw [if_neg (by simp), List.drop_left, List.take_left, ih]
    simp [h1]

/-- **C46.** Its display width counts one column for an ASCII character and `fat` for any other. -/
theorem C46_width_partial (fat : Nat) (cs : List Char) :
    width fat (cs.flatMap String.utf8EncodeChar) =
      some ((cs.map (fun c => if c.val.toNat < 128 then 1 else fat)).sum) := by
  induction cs with
  | nil => rw [List.flatMap_nil, width]; rfl
  | cons c cs ih =>
    obtain ⟨b, t, h1, h2⟩ := encode_head c
    rw [List.flatMap_cons]
    generalize hr : cs.flatMap String.utf8EncodeChar = r at ih ⊢
    have h3 : utf8len b = 1 ↔ c.val.toNat < 128 := by
      rw [h2]
      unfold String.utf8EncodeChar
      simp only
      split
      · exact ⟨fun _ => by omega, fun _ => rfl⟩
      · split
        · simp only [List.length_cons, List.length_nil]; omega
        · split <;> (simp only [List.length_cons, List.length_nil]; omega)
    rw [h1] at h2 ⊢
    rw [List.cons_append, width, ← List.cons_append, h2]
    rw [if_neg (by simp), List.drop_left, ih]
    rw [← h2]
    simp only [Option.map_some, List.map_cons, List.sum_cons, h3]

/-- **C46 is false for truncated text**: a lead byte announcing more bytes than remain makes the
splitter read behind the terminator. -/
theorem C46_truncated_ub (s : List UInt8) (cs : List Char) (b : UInt8) (t : List UInt8)
    (hs : s = cs.flatMap String.utf8EncodeChar ++ b :: t) (ht : t.length + 1 < utf8len b) : disperse s = none := by
  subst hs
  induction cs with
  | nil => rw [List.flatMap_nil, List.nil_append, disperse, if_pos (by simpa using ht)]
  | cons c cs ih =>
    obtain ⟨b', t', h1, h2⟩ := encode_head c
    rw [List.flatMap_cons, List.append_assoc]
    generalize hr : cs.flatMap String.utf8EncodeChar ++ b :: t = r at ih ⊢
    rw [h1] at h2 ⊢
    rw [List.cons_append, disperse, ← List.cons_append, h2]
    rw [if_neg (by simp), List.drop_left, ih]
    rfl

/-! ### Base file name and centring (used by the reports) -/

/-- The base name is the longest tail of the path without a separator. -/
theorem C48_basefile_partial (path : List Char) :
    ∃ dir, path = dir ++ basefile path ∧ (∀ c ∈ basefile path, c ≠ '/' ∧ c ≠ '\\') ∧
      (dir = [] ∨ ∃ d c, dir = d ++ [c] ∧ (c = '/' ∨ c = '\\')) := by
  let p : Char → Bool := fun c => !(c == '/' || c == '\\')
  refine ⟨(path.reverse.dropWhile p).reverse, ?_, ?_, ?_⟩
  · have := congrArg List.reverse (List.takeWhile_append_dropWhile (p := p) (l := path.reverse))
    rw [List.reverse_append, List.reverse_reverse] at this
    exact this.symm
  · intro c hc
    have hc : c ∈ path.reverse.takeWhile p := by simpa [basefile, p] using hc
    have := List.all_eq_true.1 (List.all_takeWhile (p := p) (l := path.reverse)) c hc
    simpa [p] using this
  · cases h : path.reverse.dropWhile p with
    | nil => left; rfl
    | cons c t =>
      right
      refine ⟨t.reverse, c, by simp, ?_⟩
      have : p c = false := by
        have h2 : ∀ l : List Char, ∀ c t, l.dropWhile p = c :: t → p c = false := by
          intro l
          induction l with
          | nil => intro c t h; simp at h
          | cons x l ih =>
            intro c t h
            rw [List.dropWhile_cons] at h
            split at h
            · exact ih c t h
            · rename_i hx; simp at h; rw [← h.1]; simpa using hx
        exact h2 _ c t h
      simp only [p, Bool.not_eq_false', Bool.or_eq_true, beq_iff_eq] at this
      exact this

/-- Centring pads to the exact width, keeps the text, and the two margins differ by at most one. -/
theorem C48_centre_partial (s : List Char) (w : Nat) (h : s.length ≤ w) :
    ∃ l r, centre s w = List.replicate l ' ' ++ s ++ List.replicate r ' ' ∧ (centre s w).length = w ∧
      l ≤ r ∧ r ≤ l + 1 := by
  unfold centre
  split
  · exact ⟨0, 0, by simp, by omega, by omega, by omega⟩
  · refine ⟨(w - s.length) / 2, w - (w - s.length) / 2 - s.length, rfl, ?_, by omega, by omega⟩
    simp; omega

/-! ### The hypotheses are met -/

example : align2n 24 = 32 := by decide
example : align2n 1000 = 1024 := by decide
example : numberStrlen 4096 16 20 = some 4 := by decide
example : numberStrlen 999 10 20 = some 3 := by decide
example : hex2bytes "abc1g".toList = some [0xab, 0xc1] := by decide
example : hex2bytes "ABC1".toList = some [0xab, 0xc1] := by decide
example : hex2bytes "fab".toList = some [0x0f, 0xab] := by decide
example : hex2bytes (printHex [0, 255, 18] ++ " ".toList) = some [0, 255, 18] := by decide
example : ("aé漢😀".toList.flatMap String.utf8EncodeChar).length = 10 := by decide +kernel
example : (1 : Nat) + 1 < utf8len 0xe6 := by decide
example : basefile "a/b/c.cpp".toList = "c.cpp".toList := by decide
example : centre "ab".toList 5 = " ab  ".toList := by decide

end H2.Misc
