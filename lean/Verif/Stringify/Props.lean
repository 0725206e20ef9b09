import Verif.Stringify.Decode
/-
C69: how values look in a failure, and that different values look different.
-/
namespace H2.Stringify
open H2.Layout (text Word Line)
open H2.Message (gray text_append text_gray text_word commaIf)

theorem intercalate_cons (t : Text) : ∀ ts : List Text, List.intercalate ", ".toList (t :: ts) = t ++ (ts.map fun s => ", ".toList ++ s).flatten
  | [] => by simp
  | s :: ts => by
    rw [List.intercalate_cons_cons, intercalate_cons s ts]
    simp

mutual
theorem looks : ∀ v, Fits v → Looks v (enc v)
  | .int n, _ => by rw [enc_int]; exact .int n
  | .float neg m, _ => .float (enc_float neg m)
  | .special w, h => by
    have e : enc (.special w) = w := by
      unfold enc
      rw [print]
      simp only [Fits, List.mem_cons, List.not_mem_nil, or_false] at h
      rcases h with rfl | rfl | rfl | rfl <;> decide
    rw [e]; exact .special w
  | .bool true, _ => by rw [enc_bool]; exact .yes
  | .bool false, _ => by rw [enc_bool]; exact .no
  | .char c, h => by rw [enc_char h]; exact .char c
  | .str t, h => by
    have e : enc (.str t) = '"' :: t ++ ['"'] := by
      unfold enc
      rw [print, strLine, takeWhile_plain t fun c hc e => h.2 (e ▸ hc), text_append, text_append, text_gray _ (by decide), text_word _ h.1]
      rfl
    rw [e]; exact .str t
  | .wstr t, h => by
    have e : enc (.wstr t) = '"' :: t ++ ['"'] := by
      unfold enc
      rw [print, narrow_plain h.2.2, strLine, takeWhile_plain t fun c hc e => h.2.1 (e ▸ hc), text_append, text_append,
        text_gray _ (by decide), text_word _ h.1]
      rfl
    rw [e]; exact .wstr t
  | .nullStr, _ => by rw [enc_null]; exact .nullStr
  | .nullPtr, _ => by
    have e : enc .nullPtr = "nullptr".toList := by unfold enc; rw [print, text_word]; decide
    rw [e]; exact .nullPtr
  | .unknown, _ => by
    have e : enc .unknown = "?".toList := by unfold enc; rw [print, text_word]; decide
    rw [e]; exact .unknown
  | .pair a b, h => by
    have e : enc (.pair a b) = '(' :: enc a ++ ", ".toList ++ enc b ++ [')'] := by rw [enc_pair]; simp
    rw [e]; exact .pair (looks a h.1) (looks b h.2)
  | .tuple vs, h => by
    obtain ⟨ts, h1, h2, _⟩ := looks_all vs h
    rw [enc_tuple, h2]; exact .tuple h1
  | .list vs, h => by
    obtain ⟨ts, h1, h2, _⟩ := looks_all vs h.2
    rw [enc_list vs h.1, h2]; exact .list h1
theorem looks_all : ∀ vs, AllFit vs → ∃ ts, AllLook vs ts ∧ text (elements true false vs) = List.intercalate ", ".toList ts ∧
    tail vs = (ts.map fun s => ", ".toList ++ s).flatten
  | [], _ => ⟨[], .nil, rfl, rfl⟩
  | v :: vs, h => by
    obtain ⟨ts, h1, _, h3⟩ := looks_all vs h.2
    refine ⟨enc v :: ts, .cons (looks v h.1) h1, ?_, ?_⟩
    · rw [first_cons, intercalate_cons, h3]
    · rw [tail_cons, h3]; simp
end

/-- **How a value looks**: integers in decimal; floating point numbers with their decimals up to the last that is not zero; truth values by
name; characters and texts in quotation marks; pairs, tuples and containers with each element, in order, in brackets. -/
theorem C69_looks (v : Val) (h : Fits v) : Looks v (text (print true v)) := looks v h

example : Fits (.list [.pair (.int (-3)) (.str "a\"b".toList), .pair (.int 4) .nullStr, .tuple [.float true 2500000, .unknown]]) :=
  ⟨by decide, ⟨⟨trivial, by decide, by decide⟩, ⟨trivial, trivial⟩, ⟨trivial, trivial, trivial⟩, trivial⟩⟩

example : String.ofList (text (print true (.list [.pair (.int (-3)) (.str "ab".toList), .pair (.int 4) .nullStr, .tuple [.float true 2500000, .unknown]]))) =
    "[(-3, \"ab\"), (4, (null)), (-2.5, ?)]" := by decide +kernel

/-- **Different values look different**: two values of a type that are printed whole and look the same are the same. -/
theorem C69_told_apart {τ : Ty} {v w : Val} (hv : Whole τ v) (hw : Whole τ w) (h : text (print true v) = text (print true w)) : v = w :=
  (apart τ v w hv hw [')'] [')'] (ends_cons _ _ (by simp)) (ends_cons _ _ (by simp)) (congrArg (· ++ [')']) h)).1

/-- Non-vacuity: lists of pairs that a printer without brackets or quotation marks would confuse. -/
example : Whole (.list (.pair .str (.list .int))) (.list [.pair (.str "a, b".toList) (.list [.int 1, .int (-1)]), .pair .nullStr (.list [])]) ∧
    Whole (.list (.pair .str (.list .int))) (.list [.pair (.str "(null)".toList) (.list [.int 11])]) := by
  refine ⟨.list (.cons (.pair (.str ?_) (.list (.cons (.int _) (.cons (.int _) .nil)) (by decide))) (.cons (.pair .nullStr (.list .nil (by decide))) .nil)) (by decide),
    .list (.cons (.pair (.str ?_) (.list (.cons (.int _) .nil) (by decide))) .nil) (by decide)⟩ <;> unfold Plain <;> decide

/-- **Without quotation marks too, for numbers**: what is shown of an integer, and of a floating point number, tells which it is. -/
theorem C69_numbers :
    (∀ (r : Bool) (m n : Int), text (print r (.int m)) = text (print r (.int n)) → m = n) ∧
    (∀ (r : Bool) (a b : Bool) (m n : Nat), text (print r (.float a m)) = text (print r (.float b n)) → a = b ∧ m = n) := by
  refine ⟨fun r m n h => ?_, fun r a b m n h => ?_⟩
  · have h' : enc (.int m) = enc (.int n) := by
      unfold enc; rw [print] at h ⊢; rw [print] at h ⊢; exact h
    rw [enc_int, enc_int] at h'
    exact int_inj h'
  · have h' : enc (.float a m) = enc (.float b n) := by
      unfold enc; rw [print] at h ⊢; rw [print] at h ⊢; exact h
    have := enc_float a m
    rw [h'] at this
    exact shows_unique this (enc_float b n)

theorem nearest_near (q : Rat) : q - 1 / 2 ≤ nearest q ∧ (nearest q : Rat) ≤ q + 1 / 2 := by
  have h1 := Rat.floor_le q
  have h2 := Rat.lt_floor_add_one q
  rw [Rat.intCast_add] at h2
  unfold nearest
  split
  · constructor <;> grind
  · split
    · rw [Rat.intCast_add]; constructor <;> grind
    · split
      · constructor <;> grind
      · rw [Rat.intCast_add]; constructor <;> grind

theorem nearest_nonneg {q : Rat} (h : 0 ≤ q) : 0 ≤ nearest q := by
  have : (0 : Int) ≤ q.floor := Rat.le_floor_iff.2 (by simpa using h)
  unfold nearest
  split
  · exact this
  · split
    · omega
    · split <;> omega

/-- **What is shown of a number is near it**: a floating point number `x` is shown as a decimal with at most six places that is within half a
millionth of `x`, with its sign. -/
theorem C69_near (x : Rat) : ∃ (neg : Bool) (m : Nat), ofRat x = .float neg m ∧ (neg = true ↔ x < 0) ∧ Shows (text (print true (ofRat x))) neg m ∧
    x - 1 / 2000000 ≤ (if neg then -(m : Rat) else m) / 1000000 ∧ (if neg then -(m : Rat) else (m : Rat)) / 1000000 ≤ x + 1 / 2000000 := by
  refine ⟨_, _, rfl, by simp, enc_float _ _, ?_⟩
  have key : ∀ y : Rat, 0 ≤ y → (((nearest (y * 1000000)).toNat : Nat) : Rat) = (nearest (y * 1000000) : Rat) := by
    intro y hy
    have := Int.toNat_of_nonneg (nearest_nonneg (q := y * 1000000) (Rat.mul_nonneg hy (by decide)))
    rw [← Rat.intCast_natCast, this]
  by_cases hx : x < 0
  · simp only [hx, decide_true, if_true]
    rw [key (-x) (by grind)]
    have := nearest_near (-x * 1000000)
    constructor <;> grind
  · simp only [hx, decide_false, if_false, Bool.false_eq_true]
    rw [key x (by grind)]
    have := nearest_near (x * 1000000)
    constructor <;> grind

example : String.ofList (text (print true (ofRat (-7/4)))) = "-1.75" ∧ String.ofList (text (print true (ofRat 100))) = "100" ∧
    String.ofList (text (print true (ofRat (1/3)))) = "0.333333" := by decide +kernel

/-- **Finding**: numbers that differ by less than a millionth can look the same, so that a failed comparison shows a number as if it
were not equal to itself. -/
theorem C69_alike_numbers_false : ∃ x y : Rat, x ≠ y ∧ text (print true (ofRat x)) = text (print true (ofRat y)) :=
  ⟨1, 1 + 1 / 10000000, by decide +kernel, by decide +kernel⟩

/-- **Finding**: containers with more than a hundred elements all look the same, whatever is in them. -/
theorem C69_large_false (r : Bool) (vs : List Val) (h : 100 < vs.length) : text (print r (.list vs)) = "[...]".toList := by
  rw [print, if_pos h, text_append, text_append, text_gray _ (by decide), text_gray _ (by decide), text_word _ (by decide)]
  rfl

example : 100 < (List.replicate 101 (Val.int 7)).length := by decide

/-- **Finding**: quotation marks in texts are not escaped: one text in a container can look like two. -/
theorem C69_quote_false : ∃ s t u : Text,
    text (print true (.list [.str s])) = text (print true (.list [.str t, .str u])) :=
  ⟨"a\", \"b".toList, "a".toList, "b".toList, by decide +kernel⟩

/-- **Finding**: texts are shown up to the first character 0, so that texts which differ behind it look the same. -/
theorem C69_nul_false (r : Bool) (s t u : Text) (h : '\x00' ∉ s) :
    text (print r (.str (s ++ '\x00' :: t))) = text (print r (.str (s ++ '\x00' :: u))) := by
  have key : ∀ z : Text, (s ++ '\x00' :: z).takeWhile (· ≠ '\x00') = s := by
    intro z
    rw [List.takeWhile_append, if_pos (by rw [takeWhile_plain s fun c hc e => h (e ▸ hc)])]
    rw [List.takeWhile_cons, if_neg (by decide), List.append_nil]
  rw [print, print, strLine, strLine, key, key]

example : '\x00' ∉ "abc".toList := by decide

/-- **Finding**: characters wider than a byte are all shown as `?`. -/
theorem C69_wide_false (r : Bool) (s t : Text) (hs : ∀ c ∈ s, 0xff < c.toNat) (ht : ∀ c ∈ t, 0xff < c.toNat) (hl : s.length = t.length) :
    text (print r (.wstr s)) = text (print r (.wstr t)) := by
  have key : ∀ z : Text, (∀ c ∈ z, 0xff < c.toNat) → narrow z = List.replicate z.length '?' := by
    intro z hz
    rw [List.eq_replicate_iff]
    refine ⟨by simp [narrow], ?_⟩
    intro b hb
    simp only [narrow, List.mem_map] at hb
    obtain ⟨c, hc, rfl⟩ := hb
    rw [if_neg (by have := hz c hc; omega)]
  rw [print, print, key s hs, key t ht, hl]

example : (∀ c ∈ "αβ".toList, 0xff < c.toNat) ∧ (∀ c ∈ "漢字".toList, 0xff < c.toNat) ∧ "αβ".toList.length = "漢字".toList.length := by decide

end H2.Stringify
