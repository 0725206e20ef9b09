import Verif.Attrs.Lemmas
import Verif.Misc.Props
namespace H2.Attrs
open H2.Sock (getKeyvalue isspace afterKey afterKey_skip)
open H2.Json.Expr (Literal Digits Exponent digitValue isHex isDecimal isLetter NumberEnds WordEnds)

theorem blank_ends {c e : Text} (hc : Blank c) (he : Ends e) : NumberEnds (c ++ e) := by
  have hb : ∀ d, (d = ' ' ∨ d = '\t' ∨ d = '\n') ∨ d = ',' → (isDecimal d = false ∧ isLetter d = false ∧ d ≠ '_') ∧ d ≠ '.' := by
    intro d hd
    rcases hd with (h | h | h) | h <;> subst h <;> decide +kernel
  have hh : ∀ d ∈ (c ++ e).head?, (d = ' ' ∨ d = '\t' ∨ d = '\n') ∨ d = ',' := by
    intro d hd
    cases c with
    | nil =>
      rcases he with rfl | ⟨t, rfl⟩
      · simp at hd
      · simp only [List.nil_append, List.head?_cons, Option.mem_def, Option.some.injEq] at hd
        exact Or.inr hd.symm
    | cons x c =>
      simp only [List.cons_append, List.head?_cons, Option.mem_def, Option.some.injEq] at hd
      subst hd
      exact Or.inl (hc _ (by simp))
  refine ⟨fun d hd => (hb d (hh d hd)).1, ?_⟩
  intro h
  exact (hb '.' (hh '.' h)).2 rfl

theorem digit_nospace {c} (h : (H2.Json.Expr.digit c || c == '.') = true) : isspace c = false ∧ c ≠ '-' ∧ c ≠ '+' ∧ c.toLower ≠ 'i' ∧ c.toLower ≠ 'n' := by
  have : ∀ c ∈ "0123456789.".toList, isspace c = false ∧ c ≠ '-' ∧ c ≠ '+' ∧ c.toLower ≠ 'i' ∧ c.toLower ≠ 'n' := by decide +kernel
  apply this
  rw [H2.Json.Expr.digit_eq, Bool.or_eq_true, beq_iff_eq] at h
  rcases h with h | rfl
  · have h' : c ∈ "0123456789".toList := List.contains_iff_mem.mp h
    have hs : ∀ c ∈ "0123456789".toList, c ∈ "0123456789.".toList := by decide +kernel
    exact hs c h'
  · decide +kernel

theorem toUnsigned_floor {q : Rat} {n : Nat} (h : q.floor = (n : Int)) (hn : n < 2 ^ 64) : toUnsigned q = some n := by
  have h1 : ((n : Int) : Rat) ≤ q := by rw [← h]; exact Rat.floor_le q
  have h2 : q < (((n : Int) + 1 : Int) : Rat) := by
    have := @Rat.lt_floor q
    rw [← h, Rat.intCast_add]
    have h1' : ((1 : Int) : Rat) = 1 := rfl
    grind
  have h3 : ((0 : Int) : Rat) ≤ ((n : Int) : Rat) := Rat.intCast_le_intCast.mpr (by omega)
  have h4 : (((n : Int) + 1 : Int) : Rat) ≤ ((18446744073709551616 : Int) : Rat) := Rat.intCast_le_intCast.mpr (by omega)
  have h5 : ((0 : Int) : Rat) = 0 := rfl
  have h6 : ((18446744073709551616 : Int) : Rat) = 18446744073709551616 := rfl
  have h7 : (-1 : Rat) < 0 := by decide +kernel
  unfold toUnsigned
  rw [if_pos ⟨by grind, by grind⟩, h]
  rfl

theorem number_literal {fl l q s} {n : Nat} (hl : Literal l q) (hs : NumberEnds s) (h : (fl q).floor = (n : Int)) (hn : n < 2 ^ 64) :
    number fl ((l ++ s).dropWhile isspace) = some n := by
  obtain ⟨c, r, hcr, hd⟩ := H2.Json.Expr.literal_head hl
  obtain ⟨h1, h2, h3, h4, h5⟩ := digit_nospace hd
  have hdrop : (l ++ s).dropWhile isspace = l ++ s := by
    rw [hcr, List.cons_append, List.dropWhile_cons, if_neg (by rw [h1]; simp)]
  have hstr : strtod (l ++ s) = some q := by
    have hm : magnitude (l ++ s) = some q := by
      unfold magnitude
      rw [if_neg, H2.Json.Expr.strtod_literal hl hs]
      rw [hcr, List.cons_append, List.take_succ_cons, List.map_cons]
      rintro (h | h)
      · exact h4 (List.cons.inj h).1
      · exact h5 (List.cons.inj h).1
    unfold strtod
    rw [hdrop]
    rw [hcr, List.cons_append] at hm ⊢
    split
    · rename_i heq; exact absurd (List.cons.inj heq).1 h2
    · rename_i heq; exact absurd (List.cons.inj heq).1 h3
    · exact hm
  rw [hdrop, number, hstr]
  exact toUnsigned_floor h hn

theorem leBytes_eq (w n : Nat) : H2.Memory.leBytes w n = (List.range w).map fun i => UInt8.ofNat (n / 256 ^ i % 256) := by
  induction w generalizing n with
  | zero => rfl
  | succ w ih =>
    rw [H2.Memory.leBytes, ih, List.range_succ_eq_map, List.map_cons, List.map_map]
    congr 1
    · simp
    · apply List.map_congr_left
      intro i _
      show _ = UInt8.ofNat (n / 256 ^ (i + 1) % 256)
      rw [Nat.div_div_eq_div_mul, Nat.pow_succ, Nat.mul_comm 256]

theorem parseFill_eq (n : Nat) : H2.Memory.parseFill n = littleEndian n := by
  unfold H2.Memory.parseFill littleEndian width
  simp only [leBytes_eq]
  have e1 : (n ≤ 0xFF) = (n < 2 ^ 8) := by simp only [eq_iff_iff]; omega
  have e2 : (n ≤ 0xFFFF) = (n < 2 ^ 16) := by simp only [eq_iff_iff]; omega
  have e3 : (n ≤ 0xFFFFFFFF) = (n < 2 ^ 32) := by simp only [eq_iff_iff]; omega
  simp only [e1, e2, e3]
  by_cases h1 : n < 2 ^ 8
  · rw [if_pos h1, if_pos h1]
  · rw [if_neg h1, if_neg h1]
    by_cases h2 : n < 2 ^ 16
    · rw [if_pos h2, if_pos h2]
    · rw [if_neg h2, if_neg h2]
      by_cases h3 : n < 2 ^ 32
      · rw [if_pos h3, if_pos h3]
      · rw [if_neg h3, if_neg h3]

theorem dec_facts : ∀ c ∈ "0123456789".toList, c.isDigit = true ∧ c.toNat - '0'.toNat = digitValue c ∧ isspace c = false ∧ c ≠ '-' ∧ c ≠ '+' ∧
    c.toLower ≠ 'x' := by decide +kernel

theorem dec_mem {c} (h : isDecimal c = true) : c ∈ "0123456789".toList := List.contains_iff_mem.mp h

theorem fold_number (ds : Text) (v : Nat) (hd : ∀ d ∈ ds, isDecimal d = true) :
    ds.foldl (fun v c => 10 * v + (c.toNat - '0'.toNat)) v = H2.Json.Expr.number 10 ds v := by
  induction ds generalizing v with
  | nil => rfl
  | cons d ds ih =>
    rw [List.foldl_cons, H2.Json.Expr.number, (dec_facts d (dec_mem (hd d (by simp)))).2.1, ih _ (fun c hc => hd c (by simp [hc]))]

theorem ends_nodigit {c e : Text} (hc : Blank c) (he : Ends e) : ∀ d ∈ (c ++ e).head?, d.isDigit = false ∧ H2.Misc.isxdigit d = false ∧ d.toLower ≠ 'x' := by
  have hb : ∀ d, (d = ' ' ∨ d = '\t' ∨ d = '\n') ∨ d = ',' → d.isDigit = false ∧ H2.Misc.isxdigit d = false ∧ d.toLower ≠ 'x' := by
    intro d hd
    rcases hd with (h | h | h) | h <;> subst h <;> decide +kernel
  intro d hd
  apply hb
  cases c with
  | nil =>
    rcases he with rfl | ⟨t, rfl⟩
    · simp at hd
    · simp only [List.nil_append, List.head?_cons, Option.mem_def, Option.some.injEq] at hd
      exact Or.inr hd.symm
  | cons x c =>
    simp only [List.cons_append, List.head?_cons, Option.mem_def, Option.some.injEq] at hd
    subst hd
    exact Or.inl (hc _ (by simp))

theorem decimal_digits {ds c e : Text} (hd : ∀ d ∈ ds, isDecimal d = true) (hc : Blank c) (he : Ends e)
    (hn : H2.Json.Expr.number 10 ds 0 < 2 ^ 64) : decimal (ds ++ (c ++ e)) = H2.Json.Expr.number 10 ds 0 := by
  have htake : (ds ++ (c ++ e)).takeWhile Char.isDigit = ds :=
    (H2.Json.Expr.span_eq (p := Char.isDigit) (fun d h => (dec_facts d (dec_mem (hd d h))).1) (fun d h => (ends_nodigit hc he d h).1)).1
  unfold decimal
  rw [htake, fold_number ds 0 hd]
  omega

theorem fill_plus {ds c e : Text} (hd : ∀ d ∈ ds, isDecimal d = true) (hc : Blank c) (he : Ends e)
    (hn : H2.Json.Expr.number 10 ds 0 < 2 ^ 64) :
    fill (('+' :: ds ++ (c ++ e)).dropWhile isspace) = some (littleEndian (H2.Json.Expr.number 10 ds 0)) := by
  have hdrop : ('+' :: ds ++ (c ++ e)).dropWhile isspace = '+' :: (ds ++ (c ++ e)) := rfl
  have hs : strtoull ('+' :: (ds ++ (c ++ e))) = H2.Json.Expr.number 10 ds 0 := decimal_digits hd hc he hn
  rw [hdrop, ← parseFill_eq, ← hs]
  rfl

theorem fill_minus {ds c e : Text} (hd : ∀ d ∈ ds, isDecimal d = true) (hc : Blank c) (he : Ends e)
    (h0 : 0 < H2.Json.Expr.number 10 ds 0) (hn : H2.Json.Expr.number 10 ds 0 < 2 ^ 64) :
    fill (('-' :: ds ++ (c ++ e)).dropWhile isspace) = some (littleEndian (2 ^ 64 - H2.Json.Expr.number 10 ds 0)) := by
  have hdrop : ('-' :: ds ++ (c ++ e)).dropWhile isspace = '-' :: (ds ++ (c ++ e)) := rfl
  have hs : strtoull ('-' :: (ds ++ (c ++ e))) = 2 ^ 64 - H2.Json.Expr.number 10 ds 0 := by
    show (2 ^ 64 - decimal (ds ++ (c ++ e))) % 2 ^ 64 = _
    rw [decimal_digits hd hc he hn]
    omega
  rw [hdrop, ← parseFill_eq, ← hs]
  rfl

theorem strtoull_digits {ds c e : Text} (hne : ds ≠ []) (hd : ∀ d ∈ ds, isDecimal d = true) (hc : Blank c) (he : Ends e)
    (hn : H2.Json.Expr.number 10 ds 0 < 2 ^ 64) : strtoull (ds ++ (c ++ e)) = H2.Json.Expr.number 10 ds 0 := by
  have hdec : decimal (ds ++ (c ++ e)) = H2.Json.Expr.number 10 ds 0 := decimal_digits hd hc he hn
  obtain ⟨x, r, rfl⟩ := List.exists_cons_of_ne_nil hne
  obtain ⟨_, _, h1, h2, h3, _⟩ := dec_facts x (dec_mem (hd x (by simp)))
  have hdrop : (x :: r ++ (c ++ e)).dropWhile isspace = x :: r ++ (c ++ e) := by
    rw [List.cons_append, List.dropWhile_cons, if_neg (by rw [h1]; simp)]
  unfold strtoull
  rw [hdrop]
  rw [List.cons_append] at hdec ⊢
  split
  · rename_i heq; exact absurd (List.cons.inj heq).1 h2
  · rename_i heq; exact absurd (List.cons.inj heq).1 h3
  · exact hdec

theorem fill_decimal {ds c e : Text} (hne : ds ≠ []) (hd : ∀ d ∈ ds, isDecimal d = true) (hc : Blank c) (he : Ends e)
    (hn : H2.Json.Expr.number 10 ds 0 < 2 ^ 64) :
    fill ((ds ++ (c ++ e)).dropWhile isspace) = some (littleEndian (H2.Json.Expr.number 10 ds 0)) := by
  have hs := strtoull_digits hne hd hc he hn
  have hdrop : (ds ++ (c ++ e)).dropWhile isspace = ds ++ (c ++ e) := by
    obtain ⟨x, r, rfl⟩ := List.exists_cons_of_ne_nil hne
    rw [List.cons_append, List.dropWhile_cons, if_neg (by rw [(dec_facts x (dec_mem (hd x (by simp)))).2.2.1]; simp)]
  rw [hdrop]
  have key : ∀ r x, ds ++ (c ++ e) = '0' :: x :: r → x.toLower ≠ 'x' := by
    intro r x heq
    match ds, hne with
    | [d], _ =>
      have : c ++ e = x :: r := (List.cons.inj heq).2
      exact (ends_nodigit hc he x (by rw [this]; rfl)).2.2
    | d :: d' :: ds, _ =>
      have := (List.cons.inj (List.cons.inj heq).2).1
      rw [← this]
      exact (dec_facts d' (dec_mem (hd d' (by simp)))).2.2.2.2.2
  unfold fill
  split
  · rename_i x r heq
    rw [if_neg (key r x heq), hs, parseFill_eq]
  · rw [hs, parseFill_eq]

/-! ### Bytes in hexadecimal -/

theorem hex_facts : ∀ c ∈ "0123456789abcdefABCDEF".toList, H2.Misc.isxdigit c = true ∧ H2.Misc.hex2byte c = digitValue c := by decide +kernel

theorem hexLoop_pairs (s : Text) (i : Nat) (b : Option Char) (hi : i % 2 = 0) (hs : s.length % 2 = 0)
    (hd : ∀ c ∈ s, isHex c = true) :
    ∃ bs, H2.Misc.hexLoop s i b = some bs ∧ bs.map UInt8.ofNat = pairs (s.map digitValue) ∧ bs.length * 2 = s.length := by
  match s with
  | [] => exact ⟨[], rfl, rfl, rfl⟩
  | [_] => simp at hs
  | c :: d :: s =>
    simp only [List.length_cons] at hs
    obtain ⟨bs, h1, h2, h3⟩ := hexLoop_pairs s (i + 1 + 1) (some d) (by omega) (by omega) (fun x hx => hd x (by simp [hx]))
    refine ⟨(H2.Misc.hex2byte c * 16 + H2.Misc.hex2byte d) :: bs, ?_, ?_, by simp; omega⟩
    · simp only [H2.Misc.hexLoop]
      rw [if_neg (by omega), if_pos (by omega), h1, Option.map_some]
      rw [H2.Misc.byte_eq]
    · rw [List.map_cons, h2, List.map_cons, List.map_cons, pairs,
        (hex_facts c (List.contains_iff_mem.mp (hd c (by simp)))).2, (hex_facts d (List.contains_iff_mem.mp (hd d (by simp)))).2, Nat.mul_comm]

theorem hex2bytes_pairs (ds s : Text) (hd : ∀ c ∈ ds, isHex c = true) (hs : ∀ c ∈ s.head?, H2.Misc.isxdigit c = false) :
    ∃ bs, H2.Misc.hex2bytes (ds ++ s) = some bs ∧ bs.map UInt8.ofNat = hexBytes ds ∧ bs.length = (ds.length + 1) / 2 := by
  have htake : (ds ++ s).takeWhile H2.Misc.isxdigit = ds :=
    (H2.Json.Expr.span_eq (p := H2.Misc.isxdigit) (fun d h => (hex_facts d (List.contains_iff_mem.mp (hd d h))).1) hs).1
  unfold H2.Misc.hex2bytes hexBytes
  simp only [htake]
  split
  · rename_i hodd
    match ds with
    | [] => simp at hodd
    | d :: ds =>
      simp only [List.length_cons] at hodd
      obtain ⟨bs, h1, h2, h3⟩ := hexLoop_pairs ds 2 (some d) rfl (by omega) (fun x hx => hd x (by simp [hx]))
      refine ⟨(H2.Misc.hex2byte '0' * 16 + H2.Misc.hex2byte d) :: bs, ?_, ?_, by simp; omega⟩
      · simp only [H2.Misc.hexLoop]
        rw [if_pos trivial, h1, Option.map_some]
        rw [H2.Misc.byte_eq]
      · rw [List.map_cons, h2, List.map_cons, pairs, (hex_facts d (List.contains_iff_mem.mp (hd d (by simp)))).2]
        rfl
  · rename_i heven
    obtain ⟨bs, h1, h2, h3⟩ := hexLoop_pairs ds 0 none rfl (by omega) hd
    exact ⟨bs, h1, h2, by omega⟩

theorem fill_hex {x : Char} {ds s : Text} (hx : x = 'x' ∨ x = 'X') (hd : ∀ d ∈ ds, isHex d = true)
    (hs : ∀ d ∈ s.head?, H2.Misc.isxdigit d = false) :
    fill (('0' :: x :: ds ++ s).dropWhile isspace) = if ds.length ≤ 64 then some (hexBytes ds) else none := by
  have hdrop : ('0' :: x :: ds ++ s).dropWhile isspace = '0' :: x :: (ds ++ s) := by
    rw [List.cons_append, List.cons_append, List.dropWhile_cons, if_neg (by decide)]
  rw [hdrop, fill, if_pos (by rcases hx with rfl | rfl <;> decide)]
  obtain ⟨bs, h1, h2, h3⟩ := hex2bytes_pairs ds s hd hs
  rw [h1]
  show stored bs = _
  unfold stored
  rw [h2]
  by_cases h : ds.length ≤ 64
  · rw [if_pos h, if_pos (by omega)]
  · rw [if_neg h, if_neg (by omega)]

end H2.Attrs
