import Verif.Addr.Spec
namespace H2.Addr

theorem decimal_text (n : Nat) : (toString n).toList = decimal n := Nat.toList_repr

theorem dot_text : (toString ".").toList = ['.'] := rfl

theorem colon_text : (toString ":").toList = [':'] := rfl

theorem host_toList (e : Endpoint) :
    e.host.toList = decimal e.a ++ '.' :: (decimal e.b ++ '.' :: (decimal e.c ++ '.' :: decimal e.d)) := by
  simp only [Endpoint.host, String.toList_append, decimal_text, dot_text, colon_text]
  simp

theorem text_toList (e : Endpoint) :
    e.text.toList = e.host.toList ++ ':' :: decimal e.port := by
  simp only [Endpoint.host, Endpoint.text, String.toList_append, decimal_text, dot_text, colon_text]
  simp

theorem swapped (m : Nat) (h : m < 65536) : (m % 256 * 256 + m / 256) % 2 ^ 16 = m % 256 * 256 + m / 256 :=
  Nat.mod_eq_of_lt (by omega)

theorem swap_swap (n : UInt16) : htons (ntohs n) = n := by
  have h : n.toNat < 65536 := n.toNat_lt
  apply UInt16.toNat.inj
  simp only [htons, ntohs, UInt16.toNat_ofNat']
  rw [swapped _ h, swapped _ (by omega)]
  omega

theorem swap_swap' (n : UInt16) : ntohs (htons n) = n := swap_swap n

theorem ntohs_toNat (n : UInt16) : (ntohs n).toNat = 256 * (n.toNat % 256) + n.toNat / 256 := by
  have h := n.toNat_lt
  simp only [ntohs, UInt16.toNat_ofNat']
  omega

theorem digit_char : ∀ d < 10, digit (Nat.digitChar d) = d ∧ (Nat.digitChar d).isDigit = true := by decide

theorem digit_lt {c : Char} (h : c.isDigit = true) : digit c < 10 ∧ Nat.digitChar (digit c) = c := by
  have h1 : 48 ≤ c.toNat ∧ c.toNat ≤ 57 := by
    have h' : c.val ≥ '0'.val ∧ c.val ≤ '9'.val := by simpa only [Char.isDigit, Bool.and_eq_true, decide_eq_true_eq] using h
    exact ⟨UInt32.le_iff_toNat_le.1 h'.1, UInt32.le_iff_toNat_le.1 h'.2⟩
  have key : ∀ k, 48 ≤ k ∧ k ≤ 57 → k - 48 < 10 ∧ Nat.digitChar (k - 48) = Char.ofNat k := by
    intro k ⟨a, b⟩
    have : k = 48 ∨ k = 49 ∨ k = 50 ∨ k = 51 ∨ k = 52 ∨ k = 53 ∨ k = 54 ∨ k = 55 ∨ k = 56 ∨ k = 57 := by omega
    rcases this with h | h | h | h | h | h | h | h | h | h <;> subst h <;> decide
  have := key c.toNat h1
  rw [Char.ofNat_toNat] at this
  exact this

theorem decimal_digit {n : Nat} {c : Char} (h : c ∈ decimal n) : c.isDigit = true := Nat.isDigit_of_mem_toDigits (by omega) (by omega) h

theorem decimal_ne (n : Nat) : decimal n ≠ [] := Nat.toDigits_ne_nil

theorem decimal_small {n : Nat} (h : n < 10) : decimal n = [Nat.digitChar n] := Nat.toDigits_of_lt_base h

theorem decimal_big {n : Nat} (h : 10 ≤ n) : decimal n = decimal (n / 10) ++ [Nat.digitChar (n % 10)] := Nat.toDigits_of_base_le (by omega) h

/-- Reading a numeral, then what is no digit. -/
theorem digits_append (ds r : Text) (hd : ∀ c ∈ ds, c.isDigit = true) (m : Nat) : digits (ds ++ r) m = digits r (digits ds m) := by
  induction ds generalizing m with
  | nil => rfl
  | cons c ds ih =>
    have hc := hd c (by simp)
    simp only [List.cons_append, digits, hc, if_true]
    exact ih (fun x hx => hd x (by simp [hx])) _

theorem digits_decimal (n : Nat) : digits (decimal n) 0 = n := by
  induction n using Nat.strongRecOn with
  | ind n ih =>
    by_cases h : n < 10
    · rw [decimal_small h]
      have := digit_char n h
      simp only [digits, this.2, if_true, this.1]
      omega
    · rw [decimal_big (by omega), digits_append _ _ (fun c hc => decimal_digit hc), ih _ (by omega)]
      have := digit_char (n % 10) (by omega)
      simp only [digits, this.2, if_true, this.1]
      omega

theorem digits_stop (n : Nat) (r : Text) (h : ∀ c ∈ r.head?, c.isDigit = false) : digits (decimal n ++ r) 0 = n := by
  rw [digits_append _ _ (fun c hc => decimal_digit hc), digits_decimal]
  cases r with
  | nil => rfl
  | cons c r => simp only [digits, h c (by simp)]; rfl

theorem digit_not {c : Char} (h : c.isDigit = true) : isspace c = false ∧ c ≠ '-' ∧ c ≠ '+' ∧ c ≠ ':' ∧ c ≠ '.' := by
  have := digit_lt h
  have key : ∀ d < 10, isspace (Nat.digitChar d) = false ∧ Nat.digitChar d ≠ '-' ∧ Nat.digitChar d ≠ '+' ∧ Nat.digitChar d ≠ ':' ∧ Nat.digitChar d ≠ '.' := by decide
  have k := key _ this.1
  rwa [this.2] at k

theorem strtol_decimal (n : Nat) (r : Text) (h : ∀ c ∈ r.head?, c.isDigit = false) : strtol (decimal n ++ r) = min (n : Int) 9223372036854775807 := by
  have hs := digits_stop n r h
  obtain ⟨c, l, e⟩ : ∃ c l, decimal n = c :: l := by
    cases e : decimal n with
    | nil => exact (decimal_ne n e).elim
    | cons c l => exact ⟨c, l, rfl⟩
  have hc := digit_not (decimal_digit (n := n) (c := c) (by rw [e]; simp))
  rw [e] at hs ⊢
  rw [strtol]
  simp only [List.cons_append, List.dropWhile_cons, hc.1, Bool.false_eq_true, if_false]
  split
  · next h1 => injection h1 with h1 _; exact (hc.2.1 h1).elim
  · next h1 => injection h1 with h1 _; exact (hc.2.2.1 h1).elim
  · rw [List.cons_append] at hs; rw [hs]

theorem port_decimal (n : Nat) (r : Text) (h : ∀ c ∈ r.head?, c.isDigit = false) (hn : n < 9223372036854775808) :
    (ntohs (htons (toUInt16 (atoi (decimal n ++ r))))).toNat = n % 65536 := by
  rw [swap_swap', atoi, strtol_decimal n r h, toUInt16]
  simp only [UInt16.toNat_ofNat']
  rw [Int.min_eq_left (by omega)]
  have : ((n : Int).bmod 4294967296) % 65536 = (n : Int) % 65536 := by
    rw [Int.bmod_def]
    split <;> omega
  rw [this]
  omega

/-! ### Before and after the colon -/

theorem colon_split (h r : Text) (hh : ':' ∉ h) : afterColon (h ++ ':' :: r) = some r ∧ beforeColon (h ++ ':' :: r) = h := by
  induction h with
  | nil => simp [afterColon, beforeColon]
  | cons c h ih =>
    have h1 : c ≠ ':' := by intro e; exact hh (by simp [e])
    have := ih (by intro e; exact hh (by simp [e]))
    simp only [beforeColon] at this
    simp [afterColon, beforeColon, h1, this.1, this.2]

theorem colon_none (h : Text) (hh : ':' ∉ h) : afterColon h = none ∧ beforeColon h = h := by
  induction h with
  | nil => simp [afterColon, beforeColon]
  | cons c h ih =>
    have h1 : c ≠ ':' := by intro e; exact hh (by simp [e])
    have := ih (by intro e; exact hh (by simp [e]))
    simp only [beforeColon] at this
    simp [afterColon, beforeColon, h1, this.1, this.2]

theorem colon_host (e : Endpoint) : ':' ∉ e.host.toList := by
  rw [host_toList]
  intro h
  simp only [List.mem_append, List.mem_cons] at h
  have k : ∀ n, ':' ∉ decimal n := fun n hn => (digit_not (decimal_digit hn)).2.2.2.1 rfl
  rcases h with h | h | h | h | h | h | h
  · exact k _ h
  · exact absurd h (by decide)
  · exact k _ h
  · exact absurd h (by decide)
  · exact k _ h
  · exact absurd h (by decide)
  · exact k _ h

/-! ### Four numbers -/

/-- What has been read when the loop of `inet_pton` holds these numbers. -/
def seen (before : List Nat) (now : Option Nat) : Text := before.flatMap (fun n => decimal n ++ ['.']) ++ (now.map decimal).getD []

theorem decimal_snoc {n : Nat} (h : n ≠ 0) {x : Char} (hx : x.isDigit = true) : decimal (n * 10 + digit x) = decimal n ++ [x] := by
  have := digit_lt hx
  rw [decimal_big (by omega), show (n * 10 + digit x) / 10 = n by omega, show (n * 10 + digit x) % 10 = digit x by omega, this.2]

/-- Reading a numeral below 256. -/
theorem quad_digits (s : Text) (before : List Nat) (hb : before.length < 4) (n : Nat) (hn : n < 256) :
    quad (decimal n ++ s) before none = quad s before (some n) := by
  have one : ∀ d < 10, ∀ s, quad (Nat.digitChar d :: s) before none = quad s before (some d) := by
    intro d hd s
    have := digit_char d hd
    rw [quad, if_pos this.2]; simp only [hb, if_true, this.1]
  have more : ∀ m d s, m ≠ 0 → d < 10 → m * 10 + d < 256 → quad (Nat.digitChar d :: s) before (some m) = quad s before (some (m * 10 + d)) := by
    intro m d s hm hd hl
    have := digit_char d hd
    rw [quad, if_pos this.2]; simp only [this.1]
    rw [if_neg (by omega)]
  by_cases h1 : n < 10
  · rw [decimal_small h1]; exact one n h1 s
  · by_cases h2 : n < 100
    · rw [decimal_big (by omega), decimal_small (n := n / 10) (by omega)]
      simp only [List.cons_append, List.nil_append]
      rw [one _ (by omega), more _ _ _ (by omega) (by omega) (by omega), show n / 10 * 10 + n % 10 = n by omega]
    · rw [decimal_big (by omega), decimal_big (n := n / 10) (by omega), decimal_small (n := n / 10 / 10) (by omega)]
      simp only [List.cons_append, List.nil_append]
      rw [one _ (by omega), more _ _ _ (by omega) (by omega) (by omega), more _ _ _ (by omega) (by omega) (by omega),
        show (n / 10 / 10 * 10 + n / 10 % 10) * 10 + n % 10 = n by omega]

theorem quad_dot (s : Text) (before : List Nat) (hb : before.length < 3) (n : Nat) :
    quad ('.' :: s) before (some n) = quad s (before ++ [n]) none := by
  rw [quad, if_neg (by decide)]; simp only [hb, and_self, if_true]

theorem pton_host (e : Endpoint) (h : e.Valid) :
    inetPton e.host.toList = some (UInt8.ofNat e.a, UInt8.ofNat e.b, UInt8.ofNat e.c, UInt8.ofNat e.d) := by
  obtain ⟨ha, hb, hc, hd, -⟩ := h
  rw [host_toList, inetPton, quad_digits _ _ (by simp) _ ha, quad_dot _ _ (by simp), quad_digits _ _ (by simp) _ hb, quad_dot _ _ (by simp),
    quad_digits _ _ (by simp) _ hc, quad_dot _ _ (by simp)]
  have := quad_digits [] ([] ++ [e.a] ++ [e.b] ++ [e.c]) (by simp) e.d hd
  rw [List.append_nil] at this
  rw [this]
  rfl

/-- Only texts of hosts are read. -/
theorem quad_only (s : Text) (before : List Nat) (now : Option Nat) (hb : ∀ n ∈ before, n < 256) (hn : ∀ n ∈ now, n < 256)
    (v : UInt8 × UInt8 × UInt8 × UInt8) (h : quad s before now = some v) : IsHost (seen before now ++ s) := by
  induction s generalizing before now with
  | nil =>
    rw [quad] at h
    unfold four at h
    split at h
    · next a b c d =>
      refine ⟨⟨a, b, c, d, 0⟩, ⟨hb a (by simp), hb b (by simp), hb c (by simp), hn d (by simp), by show 0 < 65536; decide⟩, ?_⟩
      rw [host_toList]
      simp [seen]
    · cases h
  | cons x s ih =>
    cases now with
    | none =>
      rw [quad] at h
      split at h
      · next hx =>
        have hd := digit_lt hx
        split at h
        · have := ih before (some (digit x)) hb (by intro n hn; simp at hn; omega) h
          have e : seen before (some (digit x)) ++ s = seen before none ++ x :: s := by
            simp [seen, decimal_small hd.1, hd.2]
          rwa [e] at this
        · cases h
      · cases h
    | some n =>
      rw [quad] at h
      split at h
      · next hx =>
        split at h
        · cases h
        · next hc =>
          have := ih before (some (n * 10 + digit x)) hb (by intro m hm; simp at hm; omega) h
          have e : seen before (some (n * 10 + digit x)) ++ s = seen before (some n) ++ x :: s := by
            simp [seen, decimal_snoc (n := n) (by omega) hx]
          rwa [e] at this
      · split at h
        · next hx =>
          have := ih (before ++ [n]) none (by
            intro m hm
            rcases List.mem_append.1 hm with hm | hm
            · exact hb m hm
            · rw [List.mem_singleton.1 hm]; exact hn n rfl) (by simp) h
          have e : seen (before ++ [n]) none ++ s = seen before (some n) ++ x :: s := by
            simp [seen, hx.1]
          rwa [e] at this
        · cases h

theorem pton_none (t : Text) (h : ¬ IsHost t) : inetPton t = none := by
  cases e : inetPton t with
  | none => rfl
  | some v => exact (h (by simpa [seen] using quad_only t [] none (by simp) (by simp) v e)).elim

end H2.Addr
