import Verif.Inet.Spec
namespace H2.Inet

theorem number_eq (n : Nat) : number n = decimal n := Nat.toList_repr

theorem decimal_small {n : Nat} (h : n < 10) : decimal n = [Nat.digitChar n] := Nat.toDigits_of_lt_base h

theorem decimal_big {n : Nat} (h : 10 ≤ n) : decimal n = decimal (n / 10) ++ [Nat.digitChar (n % 10)] := Nat.toDigits_of_base_le (by omega) h

theorem digitChar_facts : ∀ d : Fin 10, isDigit (Nat.digitChar d.1) = true ∧ value (Nat.digitChar d.1) = d.1 ∧ isspace (Nat.digitChar d.1) = false ∧
    Nat.digitChar d.1 ≠ '-' ∧ Nat.digitChar d.1 ≠ '+' ∧ Nat.digitChar d.1 ≠ ':' ∧ Nat.digitChar d.1 ≠ '.' := by decide +kernel

theorem char_digit {c : Char} (h : isDigit c = true) : value c < 10 ∧ c = Nat.digitChar (value c) := by
  simp only [isDigit, Bool.and_eq_true, decide_eq_true_eq] at h
  have h1 : 48 ≤ c.toNat := h.1
  have h2 : c.toNat ≤ 57 := h.2
  have hv : value c = c.toNat - 48 := rfl
  refine ⟨by omega, ?_⟩
  have : ∀ n : Fin 58, 48 ≤ n.1 → Char.ofNat n.1 = Nat.digitChar (n.1 - 48) := by decide +kernel
  have := this ⟨c.toNat, by omega⟩ h1
  rw [hv]
  rw [← this]
  simp

/-- The characters of a number. -/
theorem decimal_mem {n : Nat} : ∀ c ∈ decimal n, isDigit c = true ∧ c ≠ ':' ∧ c ≠ '.' := by
  induction n using Nat.strongRecOn with
  | ind n ih =>
    by_cases h : n < 10
    · rw [decimal_small h]
      have := digitChar_facts ⟨n, h⟩
      simp only [List.mem_singleton]
      rintro c rfl
      exact ⟨this.1, this.2.2.2.2.2.1, this.2.2.2.2.2.2⟩
    · rw [decimal_big (by omega)]
      intro c hc
      rcases List.mem_append.1 hc with hc | hc
      · exact ih (n / 10) (by omega) c hc
      · have := digitChar_facts ⟨n % 10, by omega⟩
        simp only [List.mem_singleton] at hc
        subst hc
        exact ⟨this.1, this.2.2.2.2.2.1, this.2.2.2.2.2.2⟩

theorem decimal_ne (n : Nat) : decimal n ≠ [] := Nat.toDigits_ne_nil

theorem fold_decimal (n : Nat) : (decimal n).foldl (fun n c => n * 10 + value c) 0 = n := by
  induction n using Nat.strongRecOn with
  | ind n ih =>
    by_cases h : n < 10
    · rw [decimal_small h]
      have := (digitChar_facts ⟨n, h⟩).2.1
      simpa using this
    · rw [decimal_big (by omega), List.foldl_append, ih (n / 10) (by omega)]
      have := (digitChar_facts ⟨n % 10, by omega⟩).2.1
      simp only [List.foldl_cons, List.foldl_nil]
      simp only at this
      rw [this]; omega

theorem takeWhile_all {p : Char → Bool} {x : Text} (h : ∀ c ∈ x, p c = true) : x.takeWhile p = x := by
  have := List.takeWhile_append_of_pos (l₁ := x) (l₂ := []) h
  simpa using this

theorem digits_decimal (n : Nat) : digits (decimal n) = n := by
  unfold digits
  rw [takeWhile_all fun c hc => (decimal_mem c hc).1, fold_decimal]

theorem decimal_head (n : Nat) : ∃ c r, decimal n = c :: r ∧ isspace c = false ∧ c ≠ '-' ∧ c ≠ '+' := by
  cases h : decimal n with
  | nil => exact absurd h (decimal_ne n)
  | cons c r =>
    have hd := (decimal_mem (n := n) c (by rw [h]; exact .head _)).1
    obtain ⟨hv, e⟩ := char_digit hd
    have := digitChar_facts ⟨value c, hv⟩
    rw [← e] at this
    exact ⟨c, r, rfl, this.2.2.1, this.2.2.2.1, this.2.2.2.2.1⟩

theorem atoi_decimal {n : Nat} (h : n < 65536) : atoi (decimal n) = n := by
  obtain ⟨c, r, e, h1, h2, h3⟩ := decimal_head n
  have hs : signed (decimal n) = n := by
    have hd := digits_decimal n
    rw [e] at hd ⊢
    unfold signed
    split
    · rename_i t e'; exact absurd (List.cons.inj e').1 h2
    · rename_i t e'; exact absurd (List.cons.inj e').1 h3
    · rw [hd]; omega
  have hw : (decimal n).dropWhile isspace = decimal n := by rw [e, List.dropWhile_cons_of_neg (by simp [h1])]
  unfold atoi
  rw [hw, hs]
  rw [Int.bmod_eq_of_le] <;> omega

theorem u8 {n : Nat} (h : n < 256) : n.toUInt8.toNat = n := by simp [Nat.toUInt8]; omega

theorem htons_port {p : Nat} (h : p < 65536) : 256 * (htons p).1.toNat + (htons p).2.toNat = p := by
  have e : ((p : Int) % 65536).toNat = p := by omega
  simp only [htons, e]
  rw [u8 (by omega), u8 (by omega)]; omega

theorem htons_ntohs (p : UInt8 × UInt8) : htons (ntohs p : Nat) = p := by
  have h1 := p.1.toNat_lt
  have h2 := p.2.toNat_lt
  have e : ((ntohs p : Nat) : Int) % 65536 = (ntohs p : Nat) := by unfold ntohs; omega
  simp only [htons, e, Int.toNat_natCast]
  have a : ntohs p / 256 = p.1.toNat := by unfold ntohs; omega
  have b : ntohs p % 256 = p.2.toNat := by unfold ntohs; omega
  rw [a, b]
  refine Prod.ext ?_ ?_ <;> (apply UInt8.toNat.inj; simp [u8 (UInt8.toNat_lt _)])

/-! ### `inet_pton` -/

theorem loop_first {c : Char} (hc : isDigit c = true) {src : Text} {done : List Nat} {k : Nat} (hk : k < 4) :
    ptonLoop (c :: src) done 0 false k = ptonLoop src done (value c) true (k + 1) := by
  have := (char_digit hc).1
  rw [ptonLoop, if_pos hc, if_neg (by simp), if_neg (by omega), if_neg (by simp), if_neg (by omega)]
  simp

theorem loop_more {c : Char} (hc : isDigit c = true) {src : Text} {done : List Nat} {cur k : Nat} (h0 : cur ≠ 0) (h : cur * 10 + value c ≤ 255) :
    ptonLoop (c :: src) done cur true k = ptonLoop src done (cur * 10 + value c) true k := by
  rw [ptonLoop, if_pos hc, if_neg (by simpa using h0), if_neg (by omega), if_pos rfl]

/-- A number is read whole. -/
theorem loop_number {done : List Nat} {k : Nat} (hk : k < 4) (n : Nat) : n < 256 → ∀ src, ptonLoop (decimal n ++ src) done 0 false k = ptonLoop src done n true (k + 1) := by
  induction n using Nat.strongRecOn with
  | ind n ih =>
    intro hn src
    by_cases h : n < 10
    · have f := digitChar_facts ⟨n, h⟩
      rw [decimal_small h]
      simp only [List.cons_append, List.nil_append]
      rw [loop_first f.1 hk, f.2.1]
    · have f := digitChar_facts ⟨n % 10, by omega⟩
      simp only at f
      rw [decimal_big (by omega), List.append_assoc, ih (n / 10) (by omega) (by omega)]
      simp only [List.cons_append, List.nil_append]
      rw [loop_more f.1 (by omega) (by rw [f.2.1]; omega), f.2.1]
      congr 1; omega

theorem loop_dot {src : Text} {done : List Nat} {cur k : Nat} (hk : k ≠ 4) : ptonLoop ('.' :: src) done cur true k = ptonLoop src (done ++ [cur]) 0 false k := by
  rw [ptonLoop, if_neg (by decide), if_pos (by decide), if_neg (by simpa using hk)]

theorem dotted_eq (a b c d : Nat) : dotted a b c d = decimal a ++ '.' :: (decimal b ++ '.' :: (decimal c ++ '.' :: decimal d)) := by
  simp [dotted, number_eq]

theorem loop_dotted {a b c d : Nat} (h : Octets a b c d) : ptonLoop (dotted a b c d) [] 0 false 0 = some [a, b, c, d] := by
  obtain ⟨ha, hb, hc, hd⟩ := h
  rw [dotted_eq, loop_number (by decide) a ha, loop_dot (by decide), loop_number (by decide) b hb, loop_dot (by decide), loop_number (by decide) c hc, loop_dot (by decide)]
  have := loop_number (done := [] ++ [a] ++ [b] ++ [c]) (k := 3) (by decide) d hd []
  rw [List.append_nil] at this
  rw [this, ptonLoop]
  simp

theorem pton_dotted {a b c d : Nat} (h : Octets a b c d) : pton (dotted a b c d) = some (a.toUInt8, b.toUInt8, c.toUInt8, d.toUInt8) := by
  unfold pton; rw [loop_dotted h]

/-- What has been read, from the state of the loop. -/
def readSoFar (done : List Nat) (cur : Nat) (saw : Bool) : Text := (done.map fun n => decimal n ++ ['.']).flatten ++ if saw then decimal cur else []

theorem decimal_snoc {cur d : Nat} (h0 : cur ≠ 0) (hd : d < 10) : decimal (cur * 10 + d) = decimal cur ++ [Nat.digitChar d] := by
  rw [decimal_big (by omega)]
  have e1 : (cur * 10 + d) / 10 = cur := by omega
  have e2 : (cur * 10 + d) % 10 = d := by omega
  rw [e1, e2]

/-- What the loop accepts. -/
theorem loop_some {t : Text} : ∀ {done : List Nat} {cur k : Nat} {saw : Bool} {l : List Nat}, ptonLoop t done cur saw k = some l →
    k = done.length + (if saw then 1 else 0) → (saw = false → cur = 0 ∧ k < 4) → k ≤ 4 → (∀ n ∈ done, n < 256) → cur < 256 →
    l.length = 4 ∧ (∀ n ∈ l, n < 256) ∧ readSoFar done cur saw ++ t = readSoFar l.dropLast (l.getLastD 0) true := by
  induction t with
  | nil =>
    intro done cur k saw l h hk hs h4 hd hc
    rw [ptonLoop] at h
    split at h
    · cases h
    · cases saw with
      | false => have := (hs rfl).2; omega
      | true =>
        simp only [Option.some.injEq] at h
        subst h
        simp only [if_true] at hk
        refine ⟨by simp; omega, ?_, by simp⟩
        intro n hn
        rcases List.mem_append.1 hn with hn | hn
        · exact hd n hn
        · simp only [List.mem_singleton] at hn; omega
  | cons ch src ih =>
    intro done cur k saw l h hk hs h4 hd hc
    rw [ptonLoop] at h
    split at h
    · rename_i hdig
      obtain ⟨hv, e⟩ := char_digit hdig
      split at h
      · cases h
      · rename_i hz
        split at h
        · cases h
        · rename_i hbig
          split at h
          · rename_i hsaw
            subst hsaw
            have h0 : cur ≠ 0 := by simpa using hz
            obtain ⟨i1, i2, i3⟩ := ih h hk (by simp) h4 hd (by omega)
            refine ⟨i1, i2, ?_⟩
            rw [← i3]
            simp only [readSoFar, if_true]
            rw [decimal_snoc h0 hv, ← e]
            simp
          · rename_i hsaw
            have hsaw' : saw = false := by simpa using hsaw
            subst hsaw'
            obtain ⟨hc0, hk4⟩ := hs rfl
            subst hc0
            split at h
            · cases h
            · simp only [Bool.false_eq_true, if_false, Nat.add_zero] at hk
              obtain ⟨i1, i2, i3⟩ := ih h (by simp [hk]) (by simp) (by omega) hd (by omega)
              refine ⟨i1, i2, ?_⟩
              rw [← i3]
              simp only [readSoFar, if_true, Bool.false_eq_true, if_false, Nat.zero_mul, Nat.zero_add]
              rw [decimal_small hv, ← e]
              simp
    · split at h
      · rename_i hdot
        simp only [Bool.and_eq_true, beq_iff_eq] at hdot
        obtain ⟨rfl, rfl⟩ := hdot
        split at h
        · cases h
        · rename_i h4'
          have h4'' : k ≠ 4 := by simpa using h4'
          simp only [if_true] at hk
          obtain ⟨i1, i2, i3⟩ := ih h (by simp [hk]) (by intro _; exact ⟨rfl, by omega⟩) h4
            (fun n hn => (List.mem_append.1 hn).elim (hd n) (fun hn => by simp only [List.mem_singleton] at hn; omega)) (by decide)
          refine ⟨i1, i2, ?_⟩
          rw [← i3]
          simp [readSoFar]
      · cases h

theorem pton_some {t : Text} {x : UInt8 × UInt8 × UInt8 × UInt8} (h : pton t = some x) :
    ∃ a b c d, Octets a b c d ∧ t = dotted a b c d ∧ x = (a.toUInt8, b.toUInt8, c.toUInt8, d.toUInt8) := by
  unfold pton at h
  split at h
  · rename_i a b c d hl
    obtain ⟨_, i2, i3⟩ := loop_some hl rfl (by intro _; exact ⟨rfl, by decide⟩) (by decide) (by simp) (by decide)
    refine ⟨a, b, c, d, ⟨i2 a (by simp), i2 b (by simp), i2 c (by simp), i2 d (by simp)⟩, ?_, (Option.some.inj h).symm⟩
    rw [dotted_eq]
    simpa [readSoFar] using i3
  · cases h

/-! ### Up to the colon -/

theorem dotted_colon {a b c d : Nat} : ∀ x ∈ dotted a b c d, x ≠ ':' := by
  rw [dotted_eq]
  intro x hx
  simp only [List.mem_append, List.mem_cons] at hx
  rcases hx with hx | rfl | hx | rfl | hx | rfl | hx
  all_goals first
    | decide
    | exact (decimal_mem x hx).2.1

theorem split_colon {x : Text} (h : ∀ c ∈ x, c ≠ ':') (t : Text) : (x ++ ':' :: t).takeWhile (· ≠ ':') = x ∧ (x ++ ':' :: t).dropWhile (· ≠ ':') = ':' :: t := by
  refine ⟨?_, ?_⟩
  · rw [List.takeWhile_append_of_pos fun c hc => by simpa using h c hc]
    simp
  · rw [List.dropWhile_append_of_pos fun c hc => by simpa using h c hc]
    simp

theorem whole_colon {x : Text} (h : ∀ c ∈ x, c ≠ ':') : x.takeWhile (· ≠ ':') = x ∧ x.dropWhile (· ≠ ':') = [] := by
  refine ⟨takeWhile_all fun c hc => by simpa using h c hc, ?_⟩
  have := List.dropWhile_append_of_pos (p := (· ≠ ':')) (l₁ := x) (l₂ := []) fun c hc => by simpa using h c hc
  simpa using this

theorem decimal_length {n : Nat} (h : n < 65536) : (decimal n).length ≤ 5 := by
  unfold decimal
  have := Nat.length_toDigits_le_iff (b := 10) (n := n) (k := 5) (by omega) (by omega)
  rw [this]; omega

end H2.Inet
