import Verif.Inet.Lemmas
/-
C107: addresses of packets, as the test writes them and as the program sees them.
-/
namespace H2.Inet

theorem withPort_eq (a b c d p : Nat) : withPort a b c d p = dotted a b c d ++ ':' :: decimal p := by simp [withPort, number_eq]

theorem octet_length {n : Nat} (h : n < 256) : (decimal n).length ≤ 5 := decimal_length (by omega)

theorem dotted_length {a b c d : Nat} (h : Octets a b c d) : (dotted a b c d).length ≤ 23 := by
  obtain ⟨ha, hb, hc, hd⟩ := h
  have := octet_length ha
  have := octet_length hb
  have := octet_length hc
  have := octet_length hd
  rw [dotted_eq]
  simp
  omega

/-- What the program sees as sender (`accept`, `recvfrom`): the address and the port that the test has written. -/
theorem C107_received {a b c d p : Nat} (h : Octets a b c d) (hp : p < 65536) (old : SockAddr) :
    ∃ s, iportParse (withPort a b c d p) old = some s ∧ s.family = 2 ∧ Means s a b c d p := by
  have hl := dotted_length h
  have hl' := decimal_length hp
  rw [withPort_eq]
  obtain ⟨e1, e2⟩ := split_colon dotted_colon (decimal p) (x := dotted a b c d)
  refine ⟨_, by rw [iportParse, if_neg (by simp; omega)], rfl, ?_⟩
  simp only [e1, e2, pton_dotted h, Option.getD_some, atoi_decimal hp]
  obtain ⟨ha, hb, hc, hd⟩ := h
  exact ⟨u8 ha, u8 hb, u8 hc, u8 hd, htons_port hp⟩

/-- What the test sees as sender and destination of a packet: the address and the port that the program has used. -/
theorem C107_sent {s : SockAddr} {a b c d p : Nat} (h : Means s a b c d p) : iportTostring s = withPort a b c d p := by
  obtain ⟨rfl, rfl, rfl, rfl, rfl⟩ := h
  rw [withPort_eq, dotted_eq, iportTostring, ntop, ntohs, Nat.mul_comm]

/-- An answer to the sender goes, as the test sees it, to the address that the test has written. -/
theorem C107_answer {a b c d p : Nat} (h : Octets a b c d) (hp : p < 65536) (old : SockAddr) :
    (iportParse (withPort a b c d p) old).map iportTostring = some (withPort a b c d p) := by
  obtain ⟨s, e, _, hm⟩ := C107_received h hp old
  rw [e, Option.map_some, C107_sent hm]

theorem means_self (s : SockAddr) : Octets s.addr.1.toNat s.addr.2.1.toNat s.addr.2.2.1.toNat s.addr.2.2.2.toNat ∧ 256 * s.port.1.toNat + s.port.2.toNat < 65536 ∧
    Means s s.addr.1.toNat s.addr.2.1.toNat s.addr.2.2.1.toNat s.addr.2.2.2.toNat (256 * s.port.1.toNat + s.port.2.toNat) := by
  have h1 := s.port.1.toNat_lt
  have h2 := s.port.2.toNat_lt
  exact ⟨⟨s.addr.1.toNat_lt, s.addr.2.1.toNat_lt, s.addr.2.2.1.toNat_lt, s.addr.2.2.2.toNat_lt⟩, by omega, rfl, rfl, rfl, rfl, rfl⟩

theorem means_eq {s s' : SockAddr} {a b c d p : Nat} (h : Means s a b c d p) (h' : Means s' a b c d p) : s.addr = s'.addr ∧ s.port = s'.port := by
  obtain ⟨a1, a2, a3, a4, a5⟩ := h
  obtain ⟨b1, b2, b3, b4, b5⟩ := h'
  have u : ∀ {x y : UInt8}, x.toNat = y.toNat → x = y := fun h => UInt8.toNat.inj h
  have k1 := s.port.1.toNat_lt
  have k2 := s.port.2.toNat_lt
  have k3 := s'.port.1.toNat_lt
  have k4 := s'.port.2.toNat_lt
  exact ⟨Prod.ext (u (by omega)) (Prod.ext (u (by omega)) (Prod.ext (u (by omega)) (u (by omega)))), Prod.ext (u (by omega)) (u (by omega))⟩

/-- What the test sees and writes as the sender of a packet is, for the program, the address it has used itself. -/
theorem C107_again (s old : SockAddr) : iportParse (iportTostring s) old = some { s with family := 2 } := by
  obtain ⟨h1, h2, h3⟩ := means_self s
  obtain ⟨s', e, hf, hm⟩ := C107_received h1 h2 old
  rw [C107_sent h3, e]
  obtain ⟨e1, e2⟩ := means_eq hm h3
  cases s'
  cases s
  simp_all

/-- Different addresses and ports are told apart by their texts. -/
theorem C107_distinct {s s' : SockAddr} (h : iportTostring s = iportTostring s') : s.addr = s'.addr ∧ s.port = s'.port := by
  have e1 := C107_again s s
  have e2 := C107_again s' s
  rw [h, e2] at e1
  simp only [Option.some.injEq, SockAddr.mk.injEq] at e1
  exact ⟨e1.2.2.symm, e1.2.1.symm⟩

/-- An address without a port: the port is 0. -/
theorem C107_no_port {a b c d : Nat} (h : Octets a b c d) (old : SockAddr) : ∃ s, iportParse (dotted a b c d) old = some s ∧ s.family = 2 ∧ Means s a b c d 0 := by
  have hl := dotted_length h
  obtain ⟨e1, e2⟩ := whole_colon dotted_colon (x := dotted a b c d)
  refine ⟨_, by rw [iportParse, if_neg (by omega)], rfl, ?_⟩
  simp only [e1, e2, pton_dotted h, Option.getD_some]
  obtain ⟨ha, hb, hc, hd⟩ := h
  exact ⟨u8 ha, u8 hb, u8 hc, u8 hd, rfl⟩

/-- What counts as an address for `DNS` and `SOCK`: four numbers below 256 without leading zeros, with points between them, and nothing else. -/
theorem C107_address (t : Text) : (∃ x, pton t = some x) ↔ ∃ a b c d, Octets a b c d ∧ t = dotted a b c d := by
  constructor
  · rintro ⟨x, h⟩
    obtain ⟨a, b, c, d, h1, h2, _⟩ := pton_some h
    exact ⟨a, b, c, d, h1, h2⟩
  · rintro ⟨a, b, c, d, h1, rfl⟩
    exact ⟨_, pton_dotted h1⟩

/-- The bytes of an address that `getaddrinfo` gives are those that `DNS` was given. -/
theorem C107_resolved {a b c d : Nat} (h : Octets a b c d) : ∃ s, resolve (dotted a b c d) = some s ∧ Means s a b c d 0 := by
  obtain ⟨ha, hb, hc, hd⟩ := id h
  exact ⟨_, by rw [resolve, pton_dotted h]; rfl, u8 ha, u8 hb, u8 hc, u8 hd, rfl⟩

/-- Texts that are no addresses, a `*` or nothing for instance, leave the address as it was before: the program sees what was in its memory. -/
theorem C107_no_address {t : Text} (hl : t.length < 1024) (h : ∀ a b c d, Octets a b c d → t.takeWhile (· ≠ ':') ≠ dotted a b c d) (old : SockAddr) :
    ∃ s, iportParse t old = some s ∧ s.addr = old.addr := by
  refine ⟨_, by rw [iportParse, if_neg (by omega)], ?_⟩
  have : pton (t.takeWhile (· ≠ ':')) = none := by
    cases e : pton (t.takeWhile (· ≠ ':')) with
    | none => rfl
    | some x =>
      obtain ⟨a, b, c, d, h1, h2, _⟩ := pton_some e
      exact absurd h2 (h a b c d h1)
  simp only [this, Option.getD_none]

/-! ### Cases -/

/-- Memory that has other contents before. -/
def dirty : SockAddr := ⟨7, (1, 2), (3, 4, 5, 6)⟩

/-- `192.168.1.20:8080`. -/
example : ∃ s, iportParse "192.168.1.20:8080".toList dirty = some s ∧ s.addr = (192, 168, 1, 20) ∧ s.port = (31, 144) := by
  have h := C107_received (a := 192) (b := 168) (c := 1) (d := 20) (p := 8080) (by unfold Octets; decide) (by decide) dirty
  have e : withPort 192 168 1 20 8080 = "192.168.1.20:8080".toList := by decide +kernel
  rw [e] at h
  obtain ⟨s, h1, _, h2⟩ := h
  have h3 : Means ⟨2, (31, 144), (192, 168, 1, 20)⟩ 192 168 1 20 8080 := by unfold Means; decide
  obtain ⟨h4, h5⟩ := means_eq h2 h3
  exact ⟨s, h1, h4, h5⟩

example : iportTostring ⟨2, (31, 144), (192, 168, 1, 20)⟩ = withPort 192 168 1 20 8080 := C107_sent (by unfold Means; decide)

example : (iportParse (withPort 127 0 0 1 80) dirty).map iportTostring = some (withPort 127 0 0 1 80) := C107_answer (by unfold Octets; decide) (by decide) dirty

example : ∃ s, iportParse (dotted 10 0 0 7) dirty = some s ∧ s.family = 2 ∧ Means s 10 0 0 7 0 := C107_no_port (by unfold Octets; decide) dirty

example : ∃ s, resolve (dotted 10 0 0 7) = some s ∧ Means s 10 0 0 7 0 := C107_resolved (by unfold Octets; decide)

/-- `1.2.3` and `01.2.3.4` are no addresses. -/
example : pton "1.2.3".toList = none ∧ pton "01.2.3.4".toList = none ∧ pton "1.2.3.256".toList = none := by decide +kernel

/-- Without `from` the sender is the empty text: the address that the program sees depends on what was in its memory. -/
theorem C107_sender_false : (iportParse [] dirty).map (·.addr) ≠ (iportParse [] { dirty with addr := (0, 0, 0, 0) }).map (·.addr) := by decide +kernel

/-- `C107_no_address` for a pattern. -/
example : ∃ s, iportParse "*:80".toList dirty = some s ∧ s.addr = dirty.addr := by
  refine C107_no_address (by decide +kernel) ?_ dirty
  intro a b c d h e
  have := pton_dotted h
  rw [← e] at this
  revert this
  have : pton ("*:80".toList.takeWhile (· ≠ ':')) = none := by decide +kernel
  rw [this]; simp

/-- A port beyond the largest is another port. -/
theorem C107_port_false : iportParse (withPort 1 2 3 4 65616) dirty = iportParse (withPort 1 2 3 4 80) dirty := by decide +kernel

/-- The address that `getaddrinfo` gives has no family, though `ai_family` says it has. -/
theorem C107_family_false : (resolve (dotted 10 0 0 7)).map (·.family) = some 0 ∧ afInet ≠ 0 := by decide +kernel

end H2.Inet
