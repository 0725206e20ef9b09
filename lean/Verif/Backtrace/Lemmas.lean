import Verif.Backtrace.Spec
import Verif.Lookup.Lemmas
namespace H2.Backtrace
open H2.Stub (Addr Mem followJmp)

theorem takeWhile_stop (p : Char → Bool) (a : Text) (c : Char) (r : Text) (ha : ∀ x ∈ a, p x = true) (hc : p c = false) :
    (a ++ c :: r).takeWhile p = a ∧ (a ++ c :: r).dropWhile p = c :: r := by
  induction a with
  | nil => simp [hc]
  | cons x xs ih =>
    have hx := ha x (by simp)
    have := ih fun y hy => ha y (by simp [hy])
    simp [hx, this]

theorem skip_stop (p : Char → Bool) (a : Text) (c : Char) (r : Text) (ha : ∀ x ∈ a, p x = true) (hc : p c = false) (hn : a ≠ []) :
    skipSet p (a ++ c :: r) = some (c :: r) := by
  unfold skipSet
  rw [(takeWhile_stop p a c r ha hc).1, (takeWhile_stop p a c r ha hc).2, if_neg hn]

theorem skip_all (p : Char → Bool) (a : Text) (ha : ∀ x ∈ a, p x = true) : skipSet p a = none ∨ skipSet p a = some [] := by
  unfold skipSet
  have h1 : a.takeWhile p = a ∧ a.dropWhile p = [] := by
    induction a with
    | nil => exact ⟨rfl, rfl⟩
    | cons x xs ih =>
      have := ih fun y hy => ha y (by simp [hy])
      have hx := ha x (by simp)
      simp [hx, this]
  rw [h1.1, h1.2]
  split
  · exact .inl rfl
  · exact .inr rfl

theorem digitChar_hex : ∀ d, d < 16 → isxdigit d.digitChar = true ∧ hexValue d.digitChar = d ∧ isspace d.digitChar = false ∧
    d.digitChar ≠ '-' ∧ d.digitChar ≠ '+' ∧ d.digitChar ≠ 'x' ∧ d.digitChar ≠ 'X' ∧ d.digitChar ≠ '(' ∧ d.digitChar ≠ ')' := by
  decide

theorem hex_spec (n : Nat) : (∀ c ∈ hex n, ∃ d, d < 16 ∧ c = d.digitChar) ∧ hex n ≠ [] ∧
    (hex n).foldl (fun v c => 16 * v + hexValue c) 0 = n := by
  unfold hex
  induction n using Nat.strongRecOn with
  | ind n ih =>
    rw [Nat.toDigits_eq_if (by decide)]
    split
    · rename_i h
      refine ⟨fun c hc => ⟨n, h, by simpa using hc⟩, by simp, ?_⟩
      simp [(digitChar_hex n h).2.1]
    · rename_i h
      obtain ⟨h1, h2, h3⟩ := ih (n / 16) (by omega)
      have hm : n % 16 < 16 := Nat.mod_lt _ (by decide)
      refine ⟨?_, by simp, ?_⟩
      · intro c hc
        rcases List.mem_append.1 hc with hc | hc
        · exact h1 c hc
        · exact ⟨n % 16, hm, by simpa using hc⟩
      · rw [List.foldl_append, h3]
        simp only [List.foldl_cons, List.foldl_nil, (digitChar_hex _ hm).2.1]
        omega

theorem scan_hex (n : Nat) (hn : n < 2 ^ 64) (c : Char) (r : Text) (hc : c = ')' ∨ c = ']') : scanHex (hex n ++ c :: r) = some (BitVec.ofNat 64 n) := by
  obtain ⟨h1, h2, h3⟩ := hex_spec n
  obtain ⟨x, xs, e⟩ := List.exists_cons_of_ne_nil h2
  have hx : ∃ d, d < 16 ∧ x = d.digitChar := h1 x (by rw [e]; simp)
  obtain ⟨d, hd, rfl⟩ := hx
  have hdd := digitChar_hex d hd
  have hcx : isxdigit c = false ∧ c ≠ 'x' ∧ c ≠ 'X' := by rcases hc with rfl | rfl <;> decide
  have h2nd : ∀ y, (xs ++ c :: r).head? = some y → y ≠ 'x' ∧ y ≠ 'X' := by
    intro y hy
    cases xs with
    | nil => simp at hy; subst hy; exact hcx.2
    | cons z zs =>
      simp at hy; subst hy
      obtain ⟨d', hd', rfl⟩ := h1 z (by rw [e]; simp)
      exact ⟨(digitChar_hex d' hd').2.2.2.2.2.1, (digitChar_hex d' hd').2.2.2.2.2.2.1⟩
  have htw : (hex n ++ c :: r).takeWhile isxdigit = hex n :=
    (takeWhile_stop isxdigit (hex n) c r (fun y hy => by obtain ⟨d', hd', rfl⟩ := h1 y hy; exact (digitChar_hex d' hd').1) hcx.1).1
  have hs : (hex n ++ c :: r).dropWhile isspace = hex n ++ c :: r := by
    rw [e]; simp [List.dropWhile_cons, hdd.2.2.1]
  have hh : (hex n ++ c :: r).head? = some d.digitChar := by rw [e]; rfl
  have ht : ¬ ((hex n ++ c :: r).take 2 = ['0', 'x'] ∨ (hex n ++ c :: r).take 2 = ['0', 'X']) := by
    rw [e, List.cons_append]
    have : ∀ y, (d.digitChar :: (xs ++ c :: r)).take 2 = ['0', y] → (xs ++ c :: r).head? = some y := by
      intro y hy
      cases h : xs ++ c :: r with
      | nil => rw [h] at hy; simp at hy
      | cons a as => rw [h] at hy; simp at hy; rw [hy.2]; rfl
    rintro (h | h)
    · exact (h2nd _ (this _ h)).1 rfl
    · exact (h2nd _ (this _ h)).2 rfl
  unfold scanHex
  simp only [hs, hh, Option.some.injEq, hdd.2.2.2.1, hdd.2.2.2.2.1, or_self, if_false, ht, false_and, htw, h2, decide_false, Bool.false_eq_true, h3]
  rw [Nat.min_eq_left (by omega)]

theorem name_skip : ∀ c, nameStart c = true → c = '_' ∨ c.isAlpha = true := by
  intro c h
  simpa [nameStart] using h

/-- What is read of the description of a frame in an exported function. -/
theorem extract_function (p n : Text) (off : Nat) (tl : Text) (ho : off < 2 ^ 64) (hp : p ≠ []) (hp' : '(' ∉ p)
    (hn : ∃ c cs, n = c :: cs ∧ (c = '_' ∨ c.isAlpha = true)) (h1 : ')' ∉ n) (h2 : '+' ∉ n) :
    extract (p ++ "(".toList ++ n ++ "+0x".toList ++ hex off ++ ')' :: tl) =
      some (if n.length ≤ 1023 then n else [], BitVec.ofNat 64 off) := by
  obtain ⟨c, cs, rfl, hc⟩ := hn
  have e : p ++ "(".toList ++ (c :: cs) ++ "+0x".toList ++ hex off ++ ')' :: tl =
      p ++ '(' :: ((c :: cs) ++ '+' :: '0' :: 'x' :: (hex off ++ ')' :: tl)) := by simp
  rw [e]
  have s1 : skipSet (· ≠ '(') (p ++ '(' :: ((c :: cs) ++ '+' :: '0' :: 'x' :: (hex off ++ ')' :: tl))) =
      some ('(' :: ((c :: cs) ++ '+' :: '0' :: 'x' :: (hex off ++ ')' :: tl))) :=
    skip_stop _ p '(' _ (fun x hx => decide_eq_true fun e => hp' (e ▸ hx)) (by decide) hp
  have hcs : nameStart c = true := by rcases hc with rfl | h <;> simp [nameStart, *]
  have s2 : skipSet (fun c => !nameStart c) ('(' :: ((c :: cs) ++ '+' :: '0' :: 'x' :: (hex off ++ ')' :: tl))) =
      some (c :: (cs ++ '+' :: '0' :: 'x' :: (hex off ++ ')' :: tl))) :=
    skip_stop _ ['('] c (cs ++ '+' :: '0' :: 'x' :: (hex off ++ ')' :: tl)) (by decide) (by simp [hcs]) (by simp)
  have htw : ((c :: cs) ++ '+' :: '0' :: 'x' :: (hex off ++ ')' :: tl)).takeWhile (fun c => decide (c ≠ ')') && decide (c ≠ '+')) = c :: cs :=
    (takeWhile_stop _ (c :: cs) '+' _ (fun x hx => by
      have a : x ≠ ')' := fun e => h1 (e ▸ hx)
      have b : x ≠ '+' := fun e => h2 (e ▸ hx)
      simp [a, b]) (by decide)).1
  unfold extract
  by_cases hl : (c :: cs).length ≤ 1023
  · have s3 : takeSet (fun c => decide (c ≠ ')') && decide (c ≠ '+')) 1023 (c :: (cs ++ '+' :: '0' :: 'x' :: (hex off ++ ')' :: tl))) =
        some (c :: cs, '+' :: '0' :: 'x' :: (hex off ++ ')' :: tl)) := by
      unfold takeSet
      rw [← List.cons_append, htw, List.take_of_length_le hl, if_neg (by simp), List.drop_left]
    have s4 : named (p ++ '(' :: ((c :: cs) ++ '+' :: '0' :: 'x' :: (hex off ++ ')' :: tl))) = some (c :: cs, BitVec.ofNat 64 off) := by
      unfold named
      rw [s1, Option.bind_some, s2, Option.bind_some, s3, Option.bind_some]
      rw [show literal "+0x".toList ('+' :: '0' :: 'x' :: (hex off ++ ')' :: tl)) = some (hex off ++ ')' :: tl) from by simp [literal],
        Option.bind_some, scan_hex off ho _ _ (.inl rfl)]
      rfl
    rw [s4, if_pos hl]
  · have hlit : ∀ s : Text, s.head? ≠ some '+' → literal "+0x".toList s = none := by
      intro s hs
      unfold literal
      rw [if_neg]
      intro h
      cases s with
      | nil => simp at h
      | cons a as => simp at h hs; exact hs h.1
    have s4 : named (p ++ '(' :: ((c :: cs) ++ '+' :: '0' :: 'x' :: (hex off ++ ')' :: tl))) = none := by
      unfold named
      rw [s1, Option.bind_some, s2, Option.bind_some]
      have s3 : takeSet (fun c => decide (c ≠ ')') && decide (c ≠ '+')) 1023 (c :: (cs ++ '+' :: '0' :: 'x' :: (hex off ++ ')' :: tl))) =
          some ((c :: cs).take 1023, (c :: cs).drop 1023 ++ '+' :: '0' :: 'x' :: (hex off ++ ')' :: tl)) := by
        unfold takeSet
        rw [← List.cons_append, htw, if_neg (by simp)]
        have : ((c :: cs).take 1023).length = 1023 := by rw [List.length_take]; omega
        rw [this, List.drop_append_of_le_length (by omega)]
      rw [s3, Option.bind_some]
      rw [hlit]
      · rfl
      · have hd : (c :: cs).drop 1023 ≠ [] := by simp at hl ⊢; omega
        obtain ⟨z, zs, ez⟩ := List.exists_cons_of_ne_nil hd
        rw [ez]
        intro hz
        simp at hz
        exact h2 (List.mem_of_mem_drop (i := 1023) (by rw [ez]; simp [hz]))
    rw [s4, if_neg hl]
    have s5 : unnamed (p ++ '(' :: ((c :: cs) ++ '+' :: '0' :: 'x' :: (hex off ++ ')' :: tl))) = some (BitVec.ofNat 64 off) := by
      unfold unnamed
      rw [s1, Option.bind_some]
      rw [show '(' :: ((c :: cs) ++ '+' :: '0' :: 'x' :: (hex off ++ ')' :: tl)) = ('(' :: c :: cs) ++ '+' :: ('0' :: 'x' :: (hex off ++ ')' :: tl)) from rfl]
      rw [skip_stop _ ('(' :: c :: cs) '+' _ (fun x hx => by
        rcases List.mem_cons.1 hx with rfl | hx
        · decide
        · exact decide_eq_true fun e => h2 (e ▸ hx)) (by decide) (by simp)]
      rw [Option.bind_some, show literal "+0x".toList ('+' :: '0' :: 'x' :: (hex off ++ ')' :: tl)) = some (hex off ++ ')' :: tl) from by simp [literal],
        Option.bind_some, scan_hex off ho _ _ (.inl rfl)]
    rw [s5]
    rfl

/-- What is read of the description of a frame of which only the file is known. -/
theorem extract_file (p : Text) (off : Nat) (tl : Text) (ho : off < 2 ^ 64) (hp : p ≠ []) (hp' : '(' ∉ p) :
    extract (p ++ "(+0x".toList ++ hex off ++ ')' :: tl) = some ([], BitVec.ofNat 64 off) := by
  have e : p ++ "(+0x".toList ++ hex off ++ ')' :: tl = p ++ '(' :: '+' :: '0' :: 'x' :: (hex off ++ ')' :: tl) := by simp
  rw [e]
  have s1 : skipSet (· ≠ '(') (p ++ '(' :: '+' :: '0' :: 'x' :: (hex off ++ ')' :: tl)) = some ('(' :: '+' :: '0' :: 'x' :: (hex off ++ ')' :: tl)) :=
    skip_stop _ p '(' _ (fun x hx => decide_eq_true fun e => hp' (e ▸ hx)) (by decide) hp
  have s2 : skipSet (fun c => !nameStart c) ('(' :: '+' :: '0' :: 'x' :: (hex off ++ ')' :: tl)) = some ('x' :: (hex off ++ ')' :: tl)) :=
    skip_stop _ ['(', '+', '0'] 'x' (hex off ++ ')' :: tl) (by decide) (by decide) (by simp)
  obtain ⟨h1, h2, _⟩ := hex_spec off
  have hd : ∀ y ∈ hex off, y ≠ ')' ∧ y ≠ '+' := by
    intro y hy
    obtain ⟨d, hd, rfl⟩ := h1 y hy
    exact ⟨(digitChar_hex d hd).2.2.2.2.2.2.2.2, (digitChar_hex d hd).2.2.2.2.1⟩
  have htw : (('x' :: hex off) ++ ')' :: tl).takeWhile (fun c => decide (c ≠ ')') && decide (c ≠ '+')) = 'x' :: hex off :=
    (takeWhile_stop _ ('x' :: hex off) ')' _ (fun x hx => by
      rcases List.mem_cons.1 hx with rfl | hx
      · decide
      · simp [hd x hx]) (by decide)).1
  have s4 : named (p ++ '(' :: '+' :: '0' :: 'x' :: (hex off ++ ')' :: tl)) = none := by
    unfold named
    rw [s1, Option.bind_some, s2, Option.bind_some, takeSet]
    rw [← List.cons_append, htw, if_neg (by simp), Option.bind_some]
    have : literal "+0x".toList ((('x' :: hex off) ++ ')' :: tl).drop (('x' :: hex off).take 1023).length) = none := by
      unfold literal
      rw [if_neg]
      intro h
      have hm : '+' ∈ ('x' :: hex off) ++ [')'] := by
        rw [List.length_take] at h
        by_cases hl : ('x' :: hex off).length ≤ 1023
        · rw [Nat.min_eq_right hl, List.drop_left] at h
          exact absurd h (by simp)
        · rw [Nat.min_eq_left (by omega), List.drop_append_of_le_length (by omega)] at h
          have hd : ('x' :: hex off).drop 1023 ≠ [] := by simp at hl ⊢; omega
          obtain ⟨z, zs, ez⟩ := List.exists_cons_of_ne_nil hd
          rw [ez] at h
          have : z = '+' := by simp at h; exact h.1
          exact List.mem_append_left _ (List.mem_of_mem_drop (i := 1023) (by rw [ez]; simp [this]))
      simp only [List.mem_append, List.mem_cons, List.not_mem_nil, or_false] at hm
      rcases hm with (hm | hm) | hm
      · exact absurd hm (by decide)
      · exact (hd _ hm).2 rfl
      · exact absurd hm (by decide)
    rw [this]
    rfl
  unfold extract
  rw [s4]
  have s5 : unnamed (p ++ '(' :: '+' :: '0' :: 'x' :: (hex off ++ ')' :: tl)) = some (BitVec.ofNat 64 off) := by
    unfold unnamed
    rw [s1, Option.bind_some]
    rw [show skipSet (· ≠ '+') ('(' :: '+' :: '0' :: 'x' :: (hex off ++ ')' :: tl)) = some ('+' :: '0' :: 'x' :: (hex off ++ ')' :: tl)) from
      skip_stop _ ['('] '+' _ (by decide) (by decide) (by simp)]
    rw [Option.bind_some, show literal "+0x".toList ('+' :: '0' :: 'x' :: (hex off ++ ')' :: tl)) = some (hex off ++ ')' :: tl) from by simp [literal],
      Option.bind_some, scan_hex off ho _ _ (.inl rfl)]
  rw [s5]
  rfl

/-- Nothing is read of the description of an unknown frame. -/
theorem extract_nothing (n : Nat) : extract ("[0x".toList ++ hex n ++ "]".toList) = none := by
  have hall : ∀ x ∈ "[0x".toList ++ hex n ++ "]".toList, decide (x ≠ '(') = true := by
    intro x hx
    simp only [List.mem_append] at hx
    rcases hx with (hx | hx) | hx
    · revert hx x; decide
    · obtain ⟨d, hd, rfl⟩ := (hex_spec n).1 x hx
      simpa using (digitChar_hex d hd).2.2.2.2.2.2.2.1
    · revert hx x; decide
  unfold extract named unnamed
  rcases skip_all _ _ hall with h | h <;> rw [h]
  · rfl
  · rfl

theorem line_function (a s : Addr) (p n : Text) : Frame.line ⟨a, .function p n s⟩ =
    p ++ "(".toList ++ n ++ "+0x".toList ++ hex (a - s).toNat ++ ')' :: (" [0x".toList ++ hex a.toNat ++ "]".toList) := by
  simp [Frame.line]

theorem line_file (a b : Addr) (p : Text) : Frame.line ⟨a, .file p b⟩ =
    p ++ "(+0x".toList ++ hex (a - b).toNat ++ ')' :: (" [0x".toList ++ hex a.toNat ++ "]".toList) := by
  simp [Frame.line]

theorem extract_line (f : Frame) (h : f.Proper) : extract f.line =
    match f.known with
    | .function _ n s => some (if n.length ≤ 1023 then n else [], f.addr - s)
    | .file _ b => some ([], f.addr - b)
    | .nothing => none := by
  obtain ⟨a, k⟩ := f
  cases k with
  | function p n s =>
    obtain ⟨h1, h2, h3, h4, h5⟩ := h
    rw [line_function, extract_function p n _ _ (a - s).isLt h1 h2 h3 h4 h5, BitVec.ofNat_toNat, BitVec.setWidth_eq]
  | file p b =>
    rw [line_file, extract_file p _ _ (a - b).isLt h.1 h.2, BitVec.ofNat_toNat, BitVec.setWidth_eq]
  | nothing => exact extract_nothing _

/-- The entries of a null-terminated array. -/
def entries (fps : List Addr) : List Addr := fps.takeWhile (· ≠ 0)

theorem listed_iff (a : Addr) (fps : List Addr) : listed a fps = true ↔ a ∈ entries fps := by
  induction fps with
  | nil => simp [listed, entries]
  | cons f fs ih =>
    unfold listed entries
    by_cases hf : f = 0
    · simp [hf]
    · rw [if_neg hf, List.takeWhile_cons, show decide (f ≠ 0) = true from decide_eq_true hf]
      by_cases ha : a = f
      · simp [ha]
      · rw [if_neg ha, ih]
        simp [ha, entries]

theorem anyIn_iff (fps : List Addr) (fs : List Frame) (hp : ∀ f ∈ fs, f.Proper) (ha : ∀ f ∈ fs, f.Apart (entries fps)) :
    anyIn fps (fs.map fun f => (f.addr, f.line)) = true ↔ ∃ f ∈ fs, ∃ a ∈ entries fps, f.Runs a := by
  induction fs with
  | nil => simp [anyIn]
  | cons f fs ih =>
    have ih := ih (fun g hg => hp g (by simp [hg])) (fun g hg => ha g (by simp [hg]))
    have hx := extract_line f (hp f (by simp))
    have hap := ha f (by simp)
    rw [List.map_cons, anyIn]
    obtain ⟨a, k⟩ := f
    cases k with
    | function p n s =>
      simp only at hx
      rw [hx]
      simp only [show a - (a - s) = s from by bv_omega]
      by_cases hs : s ∈ entries fps
      · rw [if_pos ((listed_iff s fps).2 hs)]
        simp only [true_iff]
        exact ⟨_, List.mem_cons_self .., s, hs, p, n, rfl⟩
      · rw [if_neg (by rw [listed_iff]; exact hs), ih]
        constructor
        · rintro ⟨g, hg, r⟩; exact ⟨g, by simp [hg], r⟩
        · rintro ⟨g, hg, b, hb, q, m, e⟩
          rcases List.mem_cons.1 hg with rfl | hg
          · simp at e; exact absurd (e.2.2 ▸ hb) hs
          · exact ⟨g, hg, b, hb, q, m, e⟩
    | file p b =>
      simp only at hx
      rw [hx]
      simp only [show a - (a - b) = b from by bv_omega]
      rw [if_neg (by rw [listed_iff]; exact hap p b rfl), ih]
      constructor
      · rintro ⟨g, hg, r⟩; exact ⟨g, by simp [hg], r⟩
      · rintro ⟨g, hg, b, hb, q, m, e⟩
        rcases List.mem_cons.1 hg with rfl | hg
        · simp at e
        · exact ⟨g, hg, b, hb, q, m, e⟩
    | nothing =>
      simp only at hx
      rw [hx]
      simp only [ih]
      constructor
      · rintro ⟨g, hg, r⟩; exact ⟨g, by simp [hg], r⟩
      · rintro ⟨g, hg, b, hb, q, m, e⟩
        rcases List.mem_cons.1 hg with rfl | hg
        · simp at e
        · exact ⟨g, hg, b, hb, q, m, e⟩

theorem append_spec (as : List Addr) (k : Nat) (a : Addr) (h : 0 ∉ as) :
    append (as ++ List.replicate (k + 2) 0) a = as ++ a :: List.replicate (k + 1) 0 ∧
    append (as ++ [0]) a = as ++ [0] := by
  induction as with
  | nil => exact ⟨by rw [List.nil_append, show List.replicate (k + 2) (0 : Addr) = 0 :: 0 :: List.replicate k 0 from rfl, append, if_pos rfl]; rfl, rfl⟩
  | cons x xs ih =>
    have hx : x ≠ 0 := fun e => h (by rw [e]; exact List.mem_cons_self ..)
    have ih := ih fun hm => h (List.mem_cons_of_mem _ hm)
    constructor
    · cases xs with
      | nil =>
        have := ih.1
        rw [List.nil_append] at this
        rw [List.cons_append, List.nil_append, show List.replicate (k + 2) (0 : Addr) = 0 :: List.replicate (k + 1) 0 from rfl, append, if_neg hx]
        rw [show (0 : Addr) :: List.replicate (k + 1) 0 = List.replicate (k + 2) (0 : Addr) from rfl, this]
        rfl
      | cons y ys => rw [List.cons_append, List.cons_append, append, if_neg hx, ← List.cons_append, ih.1]; rfl
    · cases xs with
      | nil => rw [List.cons_append, List.nil_append, append, if_neg hx]; rfl
      | cons y ys => rw [List.cons_append, List.cons_append, append, if_neg hx, ← List.cons_append, ih.2]

theorem follow_nojump {m : Mem} {a : Addr} (h : NoJump m a) : followJmp m a = a := by
  obtain ⟨h1, h2, h3, h4⟩ := h
  unfold followJmp
  rw [if_neg h1, if_neg h2, if_neg h3, if_neg h4]

theorem follows_nojump {m : Mem} {a : Addr} (h : NoJump m a) : ∀ n, followJmps m n a = a
  | 0 => rfl
  | n + 1 => by rw [followJmps, follow_nojump h, follows_nojump h n]

/-- The array after some functions were added to an empty one. -/
def filled (as : List Addr) : List Addr := as ++ List.replicate (4096 - as.length) 0

theorem filled_append {as : List Addr} {a : Addr} (h : 0 ∉ as) (hl : as.length + 1 ≤ 4095) : append (filled as) a = filled (as ++ [a]) := by
  unfold filled
  have := (append_spec as (4094 - as.length) a h).1
  rw [show 4094 - as.length + 2 = 4096 - as.length from by omega] at this
  rw [this, List.length_append, List.append_assoc]
  simp only [List.length_cons, List.length_nil, List.singleton_append, Nat.zero_add]
  rw [show 4094 - as.length + 1 = 4096 - (as.length + 1) from by omega]

theorem entries_filled {as : List Addr} (h : 0 ∉ as) (hl : as.length ≤ 4095) : entries (filled as) = as := by
  unfold entries filled
  obtain ⟨k, hk⟩ : ∃ k, 4096 - as.length = k + 1 := ⟨4095 - as.length, by omega⟩
  rw [hk, List.replicate_succ]
  clear hk hl
  induction as with
  | nil => simp
  | cons x xs ih =>
    rw [List.cons_append, List.takeWhile_cons, if_pos (decide_eq_true (show x ≠ 0 from fun e => h (by rw [e]; exact List.mem_cons_self ..))), ih fun hm => h (List.mem_cons_of_mem _ hm)]

end H2.Backtrace
