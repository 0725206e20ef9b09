import Verif.Attrs.Values
import Verif.Memory.Props
/-
C74: a block has the attributes that are written for it.
-/
namespace H2.Attrs
open H2.Sock (getKeyvalue isspace afterKey)
open H2.Json.Expr (Literal Digits Exponent digitValue isHex isDecimal isLetter NumberEnds)

theorem limitOf_first {pre post : List Item} {n} (h : ∀ it ∈ pre, it.name ≠ "limit".toList) : limitOf (pre ++ .limit n :: post) = n := by
  induction pre with
  | nil => rfl
  | cons it pre ih =>
    have h' := h it (by simp)
    have := ih (fun i hi => h i (by simp [hi]))
    cases it <;> first | exact this | exact absurd rfl h'

theorem limitOf_none {its : List Item} (h : ∀ it ∈ its, it.name ≠ "limit".toList) : limitOf its = 2 ^ 48 - 1 := by
  induction its with
  | nil => rfl
  | cons it pre ih =>
    have h' := h it (by simp)
    have := ih (fun i hi => h i (by simp [hi]))
    cases it <;> first | exact this | exact absurd rfl h'

theorem alignOf_first {pre post : List Item} {n} (h : ∀ it ∈ pre, it.name ≠ "align".toList) : alignOf (pre ++ .align n :: post) = n := by
  induction pre with
  | nil => rfl
  | cons it pre ih =>
    have h' := h it (by simp)
    have := ih (fun i hi => h i (by simp [hi]))
    cases it <;> first | exact this | exact absurd rfl h'

theorem alignOf_none {its : List Item} (h : ∀ it ∈ its, it.name ≠ "align".toList) : alignOf its = 8 := by
  induction its with
  | nil => rfl
  | cons it pre ih =>
    have h' := h it (by simp)
    have := ih (fun i hi => h i (by simp [hi]))
    cases it <;> first | exact this | exact absurd rfl h'

theorem fillOf_first {pre post : List Item} {n} (h : ∀ it ∈ pre, it.name ≠ "fill".toList) : fillOf (pre ++ .fill n :: post) = n := by
  induction pre with
  | nil => rfl
  | cons it pre ih =>
    have h' := h it (by simp)
    have := ih (fun i hi => h i (by simp [hi]))
    cases it <;> first | exact this | exact absurd rfl h'

theorem fillOf_none {its : List Item} (h : ∀ it ∈ its, it.name ≠ "fill".toList) : fillOf its = [] := by
  induction its with
  | nil => rfl
  | cons it pre ih =>
    have h' := h it (by simp)
    have := ih (fun i hi => h i (by simp [hi]))
    cases it <;> first | exact this | exact absurd rfl h'

theorem given_limit {fl its t} (h : Attributes fl its t) :
    given (getKeyvalue t "limit".toList) 0xffffffffffff (number fl) = some (limitOf its) := by
  rcases getKeyvalue_attributes h "limit".toList (by decide) with ⟨h1, h2⟩ | ⟨pre, it, post, w, h1, h2, h3, h4, h5⟩
  · rw [h2, limitOf_none h1]; rfl
  · rw [h4]
    show number fl w = _
    cases it with
    | limit n =>
      rw [h1, limitOf_first h2]
      rcases h5 with h5 | h5 | ⟨v, c, e, hv, hc, he, rfl⟩
      · cases h5
      · cases h5
      · cases hv with
        | limit hl hq hn => exact number_literal hl (blank_ends hc he) hq hn
    | align n => exact absurd h3 (by show ¬ "align".toList = "limit".toList; decide)
    | fill bs => exact absurd h3 (by show ¬ "fill".toList = "limit".toList; decide)
    | noleak => exact absurd h3 (by decide)
    | unmem => exact absurd h3 (by decide)

theorem given_align {fl its t} (h : Attributes fl its t) :
    given (getKeyvalue t "align".toList) 8 (number fl) = some (alignOf its) := by
  rcases getKeyvalue_attributes h "align".toList (by decide) with ⟨h1, h2⟩ | ⟨pre, it, post, w, h1, h2, h3, h4, h5⟩
  · rw [h2, alignOf_none h1]; rfl
  · rw [h4]
    show number fl w = _
    cases it with
    | align n =>
      rw [h1, alignOf_first h2]
      rcases h5 with h5 | h5 | ⟨v, c, e, hv, hc, he, rfl⟩
      · cases h5
      · cases h5
      · cases hv with
        | align hl hq hn => exact number_literal hl (blank_ends hc he) hq hn
    | limit n => exact absurd h3 (by show ¬ "limit".toList = "align".toList; decide)
    | fill bs => exact absurd h3 (by show ¬ "fill".toList = "align".toList; decide)
    | noleak => exact absurd h3 (by decide)
    | unmem => exact absurd h3 (by decide)

theorem given_fill {fl its t} (h : Attributes fl its t) :
    given (getKeyvalue t "fill".toList) [] fill = some (fillOf its) := by
  rcases getKeyvalue_attributes h "fill".toList (by decide) with ⟨h1, h2⟩ | ⟨pre, it, post, w, h1, h2, h3, h4, h5⟩
  · rw [h2, fillOf_none h1]; rfl
  · rw [h4]
    show fill w = _
    cases it with
    | fill bs =>
      rw [h1, fillOf_first h2]
      rcases h5 with h5 | h5 | ⟨v, c, e, hv, hc, he, rfl⟩
      · cases h5
      · cases h5
      · cases hv with
        | hex hx hne hd hl =>
          rw [fill_hex hx hd (fun d hd => (ends_nodigit hc he d hd).2.1), if_pos hl]
        | decimal hne hd hn => exact fill_decimal hne hd hc he hn
        | plus hne hd hn => exact fill_plus hd hc he hn
        | minus hne hd h0 hn => exact fill_minus hd hc he h0 hn
    | limit n => exact absurd h3 (by show ¬ "limit".toList = "fill".toList; decide)
    | align n => exact absurd h3 (by show ¬ "align".toList = "fill".toList; decide)
    | noleak => exact absurd h3 (by decide)
    | unmem => exact absurd h3 (by decide)

theorem name_noleak {it : Item} : it.name = "noleak".toList ↔ it = .noleak := by
  cases it <;> simp [Item.name]

theorem name_unmem {it : Item} : it.name = "unmem".toList ↔ it = .unmem := by
  cases it <;> simp [Item.name]

theorem flag {fl its t} (h : Attributes fl its t) (it : Item) (hn : ∀ i : Item, i.name = it.name ↔ i = it) :
    (getKeyvalue t it.name).isSome = decide (it ∈ its) := by
  rcases getKeyvalue_attributes h it.name (name_mem it) with ⟨h1, h2⟩ | ⟨pre, i, post, w, h1, h2, h3, h4, h5⟩
  · rw [h2, eq_comm]
    exact decide_eq_false (fun hm => h1 it hm rfl)
  · rw [h4, eq_comm]
    refine decide_eq_true ?_
    rw [h1, (hn i).mp h3]
    simp

/-- **C74.** For every list of attributes, however it is written (any case of the letters, any blanks, any literal): the block has the
limit, the alignment and the fill that are written (the first of each, if there are several), is exempt from the check for leaks exactly
if `noleak` is written, and is outside of memory checks exactly if `unmem` is; what is not written is as without attributes. -/
theorem C74_attributes_partial {fl : Rat → Rat} {its : List Item} {t : Text} (h : Attributes fl its t) :
    parse fl t = some { limit := limitOf its, alignment := alignOf its, fill := fillOf its, noleak := decide (Item.noleak ∈ its) } ∧
    unmem t = decide (Item.unmem ∈ its) := by
  refine ⟨?_, flag h .unmem (fun i => name_unmem)⟩
  unfold parse
  rw [given_limit h, given_align h, given_fill h]
  have := flag h .noleak (fun i => name_noleak)
  simp only [Item.name] at this
  simp only [Option.bind_some, Option.map_some, this]

/-- `limit = 0x10, Fill=0xC55,noleak`. -/
theorem sample : Attributes id [.limit 16, .fill [0x0c, 0x55], .noleak] "limit = 0x10, Fill=0xC55,noleak".toList := by
  refine .cons (it := .limit 16) (a := []) (nm := "limit".toList) (r := " = 0x10".toList) (t := " Fill=0xC55,noleak".toList) (by simp [Blank]) (by decide) ?_ ?_
  · refine Rest.value (a := [' ']) (b := [' ']) (v := "0x10".toList) (c := []) (by simp [Blank]) (by simp [Blank]) (by simp [Blank]) ?_
    refine .limit (l := "0x10".toList) (q := 16) ?_ (by decide +kernel) (by decide)
    have := Literal.hexadecimal (c := 'x') (s := "10".toList) (n := 16) (k := 0) (x := []) (e := 0) (Or.inl rfl)
      (.whole (ds := "10".toList) (by decide) (by decide)) .none
    have e : ((16 : Nat) : Rat) * 2 ^ ((0 : Int) - 4 * ((0 : Nat) : Int)) = 16 := by decide +kernel
    rw [e] at this
    exact this
  · refine .cons (it := .fill [0x0c, 0x55]) (a := [' ']) (nm := "Fill".toList) (r := "=0xC55".toList) (t := "noleak".toList) (by simp [Blank]) (by decide) ?_ ?_
    · refine Rest.value (a := []) (b := []) (v := "0xC55".toList) (c := []) (by simp [Blank]) (by simp [Blank]) (by simp [Blank]) ?_
      exact Value.hex (x := 'x') (ds := "C55".toList) (Or.inl rfl) (by decide) (by decide) (by decide)
    · exact .last (a := []) (nm := "noleak".toList) (r := []) (by simp [Blank]) (by decide) (.noleak (by simp [Blank]))

/-- Its block has a limit of 16 bytes, is filled with 0c 55 and is not checked for leaks. -/
example : parse id "limit = 0x10, Fill=0xC55,noleak".toList = some ⟨16, 8, [0x0c, 0x55], true⟩ :=
  (C74_attributes_partial sample).1

/-- A negative number is written in two's complement: `fill=-2` fills with fe ff ff ff ff ff ff ff. -/
example : parse id "fill=-2".toList = some ⟨0xffffffffffff, 8, [0xfe, 0xff, 0xff, 0xff, 0xff, 0xff, 0xff, 0xff], false⟩ := by
  have h : Attributes id [.fill (littleEndian (2 ^ 64 - H2.Json.Expr.number 10 ['2'] 0))] "fill=-2".toList :=
    .last (a := []) (nm := "fill".toList) (r := "=-2".toList) (by simp [Blank]) (by decide)
      (Rest.value (a := []) (b := []) (v := "-2".toList) (c := []) (by simp [Blank]) (by simp [Blank]) (by simp [Blank])
        (.minus (ds := ['2']) (by decide) (by decide) (by decide) (by decide)))
  rw [(C74_attributes_partial h).1]
  rfl

/-- **C74.** What they do at the first allocation in such a block: it gets null exactly if it asks for more than the limit. -/
theorem C74_limit {fl : Rat → Rat} {its : List Item} {t : Text} (h : Attributes fl its t) {a} (ha : parse fl t = some a)
    (g : H2.Memory.Heap) (page pagePtr : Nat) (who : H2.Memory.Alloc) (size alignment : Nat) (c : Option UInt8) (id : Nat) (hs : size < 2 ^ 64) :
    ((g.push a).newPiece page pagePtr who size alignment c ⟨id, false⟩).2 = none ↔ limitOf its < size := by
  rw [(C74_attributes_partial h).1] at ha
  obtain rfl := Option.some.inj ha
  unfold H2.Memory.Heap.newPiece H2.Memory.Heap.target H2.Memory.Heap.push
  simp only [Bool.false_eq_true, if_false, List.head?_cons, Nat.zero_add, Nat.mod_eq_of_lt hs]
  by_cases hlt : limitOf its < size
  · simp [hlt]
  · simp [hlt]

/-- **C74.** And if it gets memory that it does not ask to be cleared: every byte is the one written for its place. -/
theorem C74_fill {fl : Rat → Rat} {its : List Item} {t : Text} (h : Attributes fl its t) {a} (ha : parse fl t = some a)
    (g : H2.Memory.Heap) (page pagePtr : Nat) (who : H2.Memory.Alloc) (size alignment : Nat) (id : Nat) {p}
    (hp : ((g.push a).newPiece page pagePtr who size alignment none ⟨id, false⟩).2 = some p) (hne : fillOf its ≠ []) (i : Nat) (hi : i < size) :
    (fillOf its)[i % (fillOf its).length]? = some (((g.push a).newPiece page pagePtr who size alignment none ⟨id, false⟩).1.mem (p.userPtr + i)) := by
  rw [(C74_attributes_partial h).1] at ha
  obtain rfl := Option.some.inj ha
  have hm := Nat.mod_lt i (List.length_pos_iff.2 hne)
  rw [List.getElem?_eq_getElem hm]
  congr 1
  exact (H2.Memory.C24_fill hp (b := { attrs := { limit := limitOf its, alignment := alignOf its, fill := fillOf its, noleak := decide (Item.noleak ∈ its) } }) rfl hne i hi).symm

/-- In the block of the sample, 17 bytes are not to be had. -/
example (g : H2.Memory.Heap) : ((g.push ⟨16, 8, [0x0c, 0x55], true⟩).newPiece 4096 8192 .malloc 17 0 none ⟨0, false⟩).2 = none :=
  (C74_limit sample (C74_attributes_partial sample).1 g 4096 8192 .malloc 17 0 none 0 (by decide)).mpr (by decide)

/-- **C74, refuted (flags).** `noleak = false` and `unmem = 0` have the same effect as `noleak` and `unmem`. -/
theorem C74_flag_false (fl : Rat → Rat) : parse fl "noleak=false, unmem=0".toList = some { noleak := true } ∧
    unmem "noleak=false, unmem=0".toList = true := by
  refine ⟨?_, by decide +kernel⟩
  have h1 : getKeyvalue "noleak=false, unmem=0".toList "limit".toList = none := by decide +kernel
  have h2 : getKeyvalue "noleak=false, unmem=0".toList "align".toList = none := by decide +kernel
  have h3 : getKeyvalue "noleak=false, unmem=0".toList "fill".toList = none := by decide +kernel
  have h4 : getKeyvalue "noleak=false, unmem=0".toList "noleak".toList = some "false, unmem=0".toList := by decide +kernel
  unfold parse
  rw [h1, h2, h3, h4]
  rfl

/-- **C74, refuted (other words).** A word that contains a key is taken for it: in `BLOCK(unlimited)` the limit is 0. -/
theorem C74_word_false {fl : Rat → Rat} (h0 : fl 0 = 0) : parse fl "unlimited".toList = some { limit := 0 } := by
  have h1 : getKeyvalue "unlimited".toList "limit".toList = some [] := by decide +kernel
  have h2 : getKeyvalue "unlimited".toList "align".toList = none := by decide +kernel
  have h3 : getKeyvalue "unlimited".toList "fill".toList = none := by decide +kernel
  have h4 : getKeyvalue "unlimited".toList "noleak".toList = none := by decide +kernel
  have h5 : number fl [] = some 0 := by
    have : strtod [] = some 0 := by decide +kernel
    rw [number, this]
    show toUnsigned (fl 0) = some 0
    rw [h0]
    decide +kernel
  unfold parse
  rw [h1, h2, h3, h4]
  show (number fl []).bind _ = _
  rw [h5]
  rfl

/-- **C74, refuted (long fills).** A fill of more than 32 bytes is stored beyond its place: undefined behaviour. -/
theorem C74_long_fill_false (fl : Rat → Rat) (ds : Text) (hd : ∀ d ∈ ds, isHex d = true) (hl : 64 < ds.length) :
    parse fl ("fill=0x".toList ++ ds) = none := by
  have hq : ∀ c ∈ ds, c ∈ quiet := fun c hc => hex_quiet (hd c hc)
  have hk : ∀ K ∈ keys, K ≠ "fill".toList → getKeyvalue ("fill=0x".toList ++ ds) K = none := by
    intro K hK hne
    have e : "fill=0x".toList ++ ds = "fill".toList ++ (("=0x".toList ++ ds) ++ []) := by rw [List.append_nil]; rfl
    have hnil : afterKey K [] = none := by
      obtain ⟨a, b, s, rfl, -⟩ := keys_second K hK
      rfl
    have : afterKey K ("fill=0x".toList ++ ds) = none := by
      rw [e, afterKey_name K "fill".toList "fill".toList _ hK (by decide) (Ne.symm hne) (by decide), afterKey_quiet K _ [] hK ?_ (Or.inl rfl), hnil]
      · intro c hc
        rcases List.mem_append.mp hc with hc | hc
        · have : ∀ c ∈ "=0x".toList, c ∈ quiet := by decide
          exact this c hc
        · exact hq c hc
      · intro c hc
        have : c = '=' := by
          rw [List.append_nil] at hc
          have h' : some '=' = some c := hc
          exact (Option.some.inj h').symm
        subst this
        decide
    rw [getKeyvalue, this]
  have hf : getKeyvalue ("fill=0x".toList ++ ds) "fill".toList = some (('0' :: 'x' :: ds ++ []).dropWhile isspace) := by
    have e : "fill=0x".toList ++ ds = "fill".toList ++ ('=' :: '0' :: 'x' :: ds) := rfl
    rw [e, getKeyvalue, afterKey_found "fill".toList "fill".toList _ (by decide) (by decide), List.append_nil]
    rfl
  unfold parse
  rw [hk _ (by decide) (by decide), hk _ (by decide) (by decide), hf]
  show Option.map _ (fill (('0' :: 'x' :: ds ++ []).dropWhile isspace)) = none
  rw [fill_hex (Or.inl rfl) hd (by simp), if_neg (by omega)]
  rfl

example : 64 < (List.replicate 65 'c').length ∧ ∀ d ∈ List.replicate 65 'c', isHex d = true := by decide +kernel

/-- **C74, refuted (the largest limit).** The largest number of 64 bits is rounded to 2^64, which does not fit: undefined behaviour. -/
theorem C74_largest_false {fl : Rat → Rat} (h : fl 18446744073709551615 = 18446744073709551616) :
    parse fl "limit=18446744073709551615".toList = none := by
  have h1 : getKeyvalue "limit=18446744073709551615".toList "limit".toList = some "18446744073709551615".toList := by decide +kernel
  have h5 : number fl "18446744073709551615".toList = none := by
    have : strtod "18446744073709551615".toList = some 18446744073709551615 := by decide +kernel
    rw [number, this]
    show toUnsigned (fl _) = none
    rw [h]
    decide +kernel
  unfold parse
  rw [h1]
  show (number fl _).bind _ = _
  rw [h5]
  rfl

end H2.Attrs
