import Verif.Addr.Lemmas
import Verif.Sock.Props
/-
C80: addresses of sockets as text.
-/
namespace H2.Addr

/-- **C80**: the text of an address is that of its four numbers and its port, as people write it. -/
theorem C80_text (m : SockAddr) (e : Endpoint) (h : Holds m e) : iportTostring m = e.text.toList := by
  obtain ⟨-, ha, hb, hc, hd, hp⟩ := h
  rw [text_toList, host_toList, iportTostring, inetNtop, ntohs_toNat, ha, hb, hc, hd, hp]

example : iportTostring ⟨2, 0x5000, 192, 168, 0, 1⟩ = "192.168.0.1:80".toList :=
  C80_text _ ⟨192, 168, 0, 1, 80⟩ ⟨rfl, rfl, rfl, rfl, rfl, rfl⟩

/-- **C80**: text of an address and a port is read as that address and port, whatever was in the structure before. -/
theorem C80_parse (e : Endpoint) (h : e.Valid) (old : SockAddr) : Holds (iportParse e.text.toList old) e := by
  have hc := colon_split e.host.toList (decimal e.port) (colon_host e)
  have hp := port_decimal e.port [] (by simp) (by have := h.2.2.2.2; omega)
  rw [List.append_nil, ntohs_toNat] at hp
  rw [text_toList, iportParse, hc.1, hc.2, pton_host e h]
  obtain ⟨h1, h2, h3, h4, h5⟩ := h
  refine ⟨rfl, ?_, ?_, ?_, ?_, hp.trans (Nat.mod_eq_of_lt h5)⟩
  · exact (UInt8.toNat_ofNat_of_lt' h1)
  · exact (UInt8.toNat_ofNat_of_lt' h2)
  · exact (UInt8.toNat_ofNat_of_lt' h3)
  · exact (UInt8.toNat_ofNat_of_lt' h4)

example (old : SockAddr) : Holds (iportParse "255.0.10.9:65535".toList old) ⟨255, 0, 10, 9, 65535⟩ :=
  C80_parse ⟨255, 0, 10, 9, 65535⟩ (by refine ⟨?_, ?_, ?_, ?_, ?_⟩ <;> decide) old

/-- What a structure of the internet family holds. -/
def held (m : SockAddr) : Endpoint :=
  ⟨m.ip.1.toNat, m.ip.2.1.toNat, m.ip.2.2.1.toNat, m.ip.2.2.2.toNat, 256 * (m.port.toNat % 256) + m.port.toNat / 256⟩

theorem held_holds (m : SockAddr) (h : m.family = 2) : Holds m (held m) ∧ (held m).Valid := by
  refine ⟨⟨h, rfl, rfl, rfl, rfl, rfl⟩, m.ip.1.toNat_lt, m.ip.2.1.toNat_lt, m.ip.2.2.1.toNat_lt, m.ip.2.2.2.toNat_lt, ?_⟩
  have : m.port.toNat < 65536 := m.port.toNat_lt
  show 256 * (m.port.toNat % 256) + m.port.toNat / 256 < 65536
  omega

theorem holds_inj (m m' : SockAddr) (e : Endpoint) (h : Holds m e) (h' : Holds m' e) : m = m' := by
  obtain ⟨f, p, a, b, c, d⟩ := m
  obtain ⟨f', p', a', b', c', d'⟩ := m'
  obtain ⟨h0, h1, h2, h3, h4, h5⟩ := h
  obtain ⟨g0, g1, g2, g3, g4, g5⟩ := h'
  dsimp only at h0 h1 h2 h3 h4 h5 g0 g1 g2 g3 g4 g5
  have hp : p = p' := by
    apply UInt16.toNat.inj
    have a1 : p.toNat < 65536 := p.toNat_lt
    have a2 : p'.toNat < 65536 := p'.toNat_lt
    omega
  rw [h0, g0, hp, UInt8.toNat.inj (h1.trans g1.symm), UInt8.toNat.inj (h2.trans g2.symm), UInt8.toNat.inj (h3.trans g3.symm),
    UInt8.toNat.inj (h4.trans g4.symm)]

/-- **C80**: every address survives the way through text: what is read from the text of an address is that address. -/
theorem C80_round (m : SockAddr) (h : m.family = 2) (old : SockAddr) : iportParse (iportTostring m) old = m := by
  have hh := held_holds m h
  rw [C80_text m _ hh.1]
  exact holds_inj _ _ _ (C80_parse _ hh.2 old) hh.1

example : iportParse (iportTostring ⟨2, 0x901f, 10, 0, 0, 255⟩) ⟨7, 1, 1, 2, 3, 4⟩ = ⟨2, 0x901f, 10, 0, 0, 255⟩ := C80_round _ rfl _

/-- **C80**: different addresses have different texts: packets and sockets told apart by text are told apart by address. -/
theorem C80_distinct (m m' : SockAddr) (h : m.family = 2) (h' : m'.family = 2) (he : iportTostring m = iportTostring m') : m = m' := by
  rw [← C80_round m h m, he, C80_round m' h' m]

example : iportTostring ⟨2, 0, 1, 11, 1, 1⟩ ≠ iportTostring ⟨2, 0, 11, 1, 1, 1⟩ := by
  intro h; exact absurd (C80_distinct _ _ rfl rfl h) (by decide)

/-- **C80**: text without a port is read as port 0. -/
theorem C80_no_port (e : Endpoint) (h : e.Valid) (hp : e.port = 0) (old : SockAddr) : Holds (iportParse e.host.toList old) e := by
  have hc := colon_none e.host.toList (colon_host e)
  rw [iportParse, hc.1, hc.2, pton_host e h]
  obtain ⟨h1, h2, h3, h4, h5⟩ := h
  refine ⟨rfl, ?_, ?_, ?_, ?_, by rw [hp]; show 256 * ((0 : UInt16).toNat % 256) + (0 : UInt16).toNat / 256 = 0; decide⟩
  · exact (UInt8.toNat_ofNat_of_lt' h1)
  · exact (UInt8.toNat_ofNat_of_lt' h2)
  · exact (UInt8.toNat_ofNat_of_lt' h3)
  · exact (UInt8.toNat_ofNat_of_lt' h4)

example (old : SockAddr) : Holds (iportParse "1.2.3.4".toList old) ⟨1, 2, 3, 4, 0⟩ :=
  C80_no_port ⟨1, 2, 3, 4, 0⟩ (by refine ⟨?_, ?_, ?_, ?_, ?_⟩ <;> decide) rfl old

/-- **C80**: when what stands before the colon is not four numbers below 256 with points between, the four bytes are what they were
before, whatever that was. -/
theorem C80_stale (t r : Text) (ht : ':' ∉ t) (h : ¬ IsHost t) (old : SockAddr) :
    (iportParse t old).ip = old.ip ∧ (iportParse (t ++ ':' :: r) old).ip = old.ip := by
  have h1 := colon_none t ht
  have h2 := colon_split t r ht
  have hp := pton_none t h
  constructor
  · rw [iportParse]; dsimp only; rw [h1.2, hp]; rfl
  · rw [iportParse]; dsimp only; rw [h2.2, hp]; rfl

/-- A pattern is no host. -/
theorem star_no_host : ¬ IsHost "*".toList := by
  rintro ⟨e, -, h⟩
  rw [host_toList] at h
  obtain ⟨c, l, hd⟩ : ∃ c l, decimal e.a = c :: l := by
    cases hd : decimal e.a with
    | nil => exact (decimal_ne _ hd).elim
    | cons c l => exact ⟨c, l, rfl⟩
  have hc := decimal_digit (n := e.a) (c := c) (by rw [hd]; simp)
  rw [hd] at h
  have : '*' = c := by simpa using (congrArg List.head? h)
  rw [← this] at hc
  exact absurd hc (by decide)

example (old : SockAddr) : (iportParse "*:53".toList old).ip = old.ip :=
  (C80_stale "*".toList "53".toList (by decide) star_no_host old).2

/-- **C80**: the port is the number after the colon, up to multiples of 65536. -/
theorem C80_port (t r : Text) (n : Nat) (ht : ':' ∉ t) (hr : ∀ c ∈ r.head?, c.isDigit = false) (hn : n < 2 ^ 63) (old : SockAddr) :
    256 * ((iportParse (t ++ ':' :: ((toString n).toList ++ r)) old).port.toNat % 256) +
      (iportParse (t ++ ':' :: ((toString n).toList ++ r)) old).port.toNat / 256 = n % 65536 := by
  have h2 := colon_split t ((toString n).toList ++ r) ht
  have hp := port_decimal n r hr hn
  rw [ntohs_toNat] at hp
  rw [iportParse, h2.1, decimal_text]
  exact hp

example (old : SockAddr) : 256 * ((iportParse "*:443 x".toList old).port.toNat % 256) + (iportParse "*:443 x".toList old).port.toNat / 256 = 443 :=
  C80_port "*".toList " x".toList 443 (by decide) (by decide) (by decide) old

/-- **C80** (fails): a port of 65536 or more is not reported, but read as another port. -/
theorem C80_port_false : ¬ ∀ (e e' : Endpoint) (old : SockAddr), e.a < 256 ∧ e.b < 256 ∧ e.c < 256 ∧ e.d < 256 → e'.Valid →
    Holds (iportParse e.text.toList old) e' → e.port = e'.port := by
  intro h
  exact absurd (h ⟨1, 2, 3, 4, 65616⟩ ⟨1, 2, 3, 4, 80⟩ ⟨0, 0, 0, 0, 0, 0⟩ (by refine ⟨?_, ?_, ?_, ?_⟩ <;> decide)
    (by refine ⟨?_, ?_, ?_, ?_, ?_⟩ <;> decide) (by unfold Holds; decide +kernel)) (by decide)

/-- **C80**: the text of an address, with its end, has at most 22 characters: the 64 bytes of the callers and the 128 bytes of the
latest destination are enough. -/
theorem C80_fits (m : SockAddr) : (iportTostring m).length + 1 ≤ 22 := by
  have k3 : ∀ n < 1000, (decimal n).length ≤ 3 := by
    intro n h
    by_cases h1 : n < 10
    · rw [decimal_small h1]; simp
    · by_cases h2 : n < 100
      · rw [decimal_big (by omega), decimal_small (n := n / 10) (by omega)]; simp
      · rw [decimal_big (by omega), decimal_big (n := n / 10) (by omega), decimal_small (n := n / 10 / 10) (by omega)]; simp
  have k5 : ∀ n < 65536, (decimal n).length ≤ 5 := by
    intro n h
    by_cases h1 : n < 1000
    · have := k3 n h1; omega
    · rw [decimal_big (by omega), decimal_big (n := n / 10) (by omega)]
      have := k3 (n / 10 / 10) (by omega)
      simp; omega
  have ha := k3 m.ip.1.toNat (by have := m.ip.1.toNat_lt; omega)
  have hb := k3 m.ip.2.1.toNat (by have := m.ip.2.1.toNat_lt; omega)
  have hc := k3 m.ip.2.2.1.toNat (by have := m.ip.2.2.1.toNat_lt; omega)
  have hd := k3 m.ip.2.2.2.toNat (by have := m.ip.2.2.2.toNat_lt; omega)
  have hp := k5 (ntohs m.port).toNat (by have := (ntohs m.port).toNat_lt; omega)
  simp only [iportTostring, inetNtop, List.length_append, List.length_cons]
  omega

example : (iportTostring ⟨2, 0xffff, 255, 255, 255, 255⟩).length + 1 = 22 := by decide +kernel

/-! ### Packets -/

variable {wild : Text → Text → Bool}

open H2.Sock (Op Result Packet IsWildcard run)

theorem text_ne (e : Endpoint) : e.text.toList ≠ [] := by rw [text_toList]; simp

theorem sender_of (hw : IsWildcard wild) (ops : List Op) (k : Nat) (here : Text) (b : Bool) (n : Nat) (p : Packet)
    (h : (run wild ops).2[k]? = some (.recv here b n, .received p)) (t : Text) (ht : t ≠ []) (dest : Text) (data : List UInt8) (r : Result)
    (hi : (run wild ops).2[p.id]? = some (.inject t dest data, r)) : p.sender = t := by
  obtain ⟨-, -, -, -, f, r', h1, h2⟩ := H2.Sock.C42_received hw ops k here b n p h
  rw [hi] at h1
  injection h1 with h1; injection h1 with h1 _; injection h1 with h1
  rcases h2 with ⟨-, h2⟩ | ⟨h2, -⟩
  · rw [h2, h1]
  · exact (ht (h1.trans h2)).elim

/-- **C80**: who receives a packet injected from an address sees that address, and what they send to it is recorded with the very
text of the injected one. -/
theorem C80_received (hw : IsWildcard wild) (ops : List Op) (k : Nat) (here : Text) (b : Bool) (n : Nat) (p : Packet)
    (h : (run wild ops).2[k]? = some (.recv here b n, .received p)) (e : Endpoint) (he : e.Valid) (dest : Text) (data : List UInt8) (r : Result)
    (hi : (run wild ops).2[p.id]? = some (.inject e.text.toList dest data, r)) (old : SockAddr) :
    Holds (iportParse p.sender old) e ∧ iportTostring (iportParse p.sender old) = e.text.toList := by
  have hs := sender_of hw ops k here b n p h _ (text_ne e) dest data r hi
  rw [hs]
  have := C80_parse e he old
  exact ⟨this, C80_text _ _ this⟩

example (hw : IsWildcard wild) (old : SockAddr) :
    Holds (iportParse (⟨0, "5.6.7.8:9".toList, ['*'], [1]⟩ : Packet).sender old) ⟨5, 6, 7, 8, 9⟩ := by
  have hf : wild ['*'] ['a'] = true := (H2.Sock.fits_iff hw _ _).2 (.star ['a'] .nil)
  have e : (run wild [.inject "5.6.7.8:9".toList ['*'] [1], .recv ['a'] false 5]).2 =
      [(.inject "5.6.7.8:9".toList ['*'] [1], .done), (.recv ['a'] false 5, .received ⟨0, "5.6.7.8:9".toList, ['*'], [1]⟩)] := by
    simp [run, H2.Sock.next, H2.Sock.step, H2.Sock.take, hf]
  exact (C80_received hw [.inject "5.6.7.8:9".toList ['*'] [1], .recv ['a'] false 5] 1 ['a'] false 5 _ (by rw [e]; rfl) ⟨5, 6, 7, 8, 9⟩
    (by refine ⟨?_, ?_, ?_, ?_, ?_⟩ <;> decide) ['*'] [1] .done (by rw [e]; rfl) old).1

/-- **C80**: a packet injected without a sender comes from where the latest packet was sent: who sent it to an address and then
receives sees that very address. -/
theorem C80_answer (hw : IsWildcard wild) (ops : List Op) (k : Nat) (here own : Text) (b : Bool) (n : Nat) (p : Packet) (to : SockAddr)
    (hto : to.family = 2) (dest : Text) (data sent : List UInt8) (r r' : Result)
    (h : (run wild ops).2[k]? = some (.recv here b n, .received p))
    (hi : (run wild ops).2[p.id]? = some (.inject [] dest data, r))
    (hs : 0 < p.id ∧ (run wild ops).2[p.id - 1]? = some (.sendto own (iportTostring to) sent, r')) (old : SockAddr) :
    iportParse p.sender old = to := by
  obtain ⟨-, -, -, -, f, r'', h1, h2⟩ := H2.Sock.C42_received hw ops k here b n p h
  rw [hi] at h1
  have hf : f = [] := by injection h1 with h1; injection h1 with h1 _; injection h1 with h1; exact h1.symm
  rcases h2 with ⟨h2, -⟩ | ⟨-, h2⟩
  · exact (h2 hf).elim
  · obtain ⟨hpos, hs⟩ := hs
    have sent_at : H2.Sock.SentAt (run wild ops).2 (p.id - 1) := ⟨_, _, hs, .inr ⟨_, _, _, rfl⟩⟩
    have : p.sender = iportTostring to := by
      rcases h2 with ⟨k', own', data', hk, hsent, hno, -⟩ | ⟨k', r3, hk, hst, hno, -⟩ | ⟨hno, -⟩
      · have : k' = p.id - 1 := by
          apply Classical.byContradiction
          intro hne
          exact hno (p.id - 1) (by omega) (by omega) sent_at
        subst this
        rcases hsent with ⟨r3, hsent⟩ | ⟨fd, r3, hsent, -⟩
        · rw [hs] at hsent
          injection hsent with hsent; injection hsent with hsent _; injection hsent with _ hsent _
          exact hsent.symm
        · rw [hs] at hsent
          injection hsent with hsent; injection hsent with hsent _; cases hsent
      · have : k' ≠ p.id - 1 := by
          intro hk'
          rw [hk', hs] at hst
          injection hst with hst; injection hst with hst _; cases hst
        exact (hno (p.id - 1) (by omega) (by omega) sent_at).elim
      · exact (hno (p.id - 1) (by omega) sent_at).elim
    rw [this, C80_round to hto old]

example (hw : IsWildcard wild) (to old : SockAddr) (h : to.family = 2) (t : Text) (ht : t = iportTostring to) : iportParse t old = to := by
  have hf : wild ['*'] ['a'] = true := (H2.Sock.fits_iff hw _ _).2 (.star ['a'] .nil)
  have e : (run wild [.sendto ['a'] t [7], .inject [] ['*'] [1], .recv ['a'] false 5]).2 =
      [(.sendto ['a'] t [7], .done), (.inject [] ['*'] [1], .done), (.recv ['a'] false 5, .received ⟨1, t, ['*'], [1]⟩)] := by
    simp [run, H2.Sock.next, H2.Sock.step, H2.Sock.take, H2.Sock.putOutgoing, hf]
  exact C80_answer hw [.sendto ['a'] t [7], .inject [] ['*'] [1], .recv ['a'] false 5] 2 ['a'] ['a'] false 5 ⟨1, t, ['*'], [1]⟩ to h ['*'] [1] [7]
    .done .done (by rw [e]; rfl) (by rw [e]; rfl) ⟨Nat.one_pos, by rw [e, ht]; rfl⟩ old

end H2.Addr
