import Verif.Sock.Run
/-
C42: what `SOCK` delivers and records.
-/
namespace H2.Sock

variable {wild : Text → Text → Bool}

/-- The address of a call that looks for packets. -/
def here : Op → Option Text
  | .recv a _ _ => some a
  | .accept a _ _ => some a
  | .connect a _ _ _ => some a
  | _ => none

/-- A packet given at call `k` was waiting, and was the first that fits. -/
theorem given_at (hw : IsWildcard wild) (ops : List Op) {k : Nat} {o : Op} {r : Result} {p : Packet} {a : Text}
    (h : (run wild ops).2[k]? = some (o, r)) (ho : here o = some a) (hr : r = .received p ∨ r = .overrun p ∨ r = .linked p) :
    ∃ x y, (run wild (ops.take k)).1.incoming = x ++ p :: y ∧ Fits p.dest a ∧ ∀ q ∈ x, ¬ Fits q.dest a := by
  obtain ⟨o', t, e, -, -⟩ := run_at wild ops k _ h
  simp only [Prod.mk.injEq] at e
  obtain ⟨rfl, e⟩ := e
  have key : ∀ q l, take wild a (run wild (ops.take k)).1.incoming = some (q, l) → q = p →
      ∃ x y, (run wild (ops.take k)).1.incoming = x ++ p :: y ∧ Fits p.dest a ∧ ∀ q ∈ x, ¬ Fits q.dest a := by
    rintro q l g rfl
    obtain ⟨x, y, h1, -, h3, h4⟩ := take_some g
    exact ⟨x, y, h1, (fits_iff hw _ _).1 h3, fun q' hq t => by rw [← fits_iff hw, h4 q' hq] at t; simp at t⟩
  have hab : ∀ b, absent b ≠ .received p ∧ absent b ≠ .overrun p ∧ absent b ≠ .linked p := by
    intro b; unfold absent; split <;> simp
  cases o <;> simp only [here, Option.some.injEq, reduceCtorEq] at ho <;> subst ho
  all_goals
    simp only [step] at e
    split at e
    · rcases hr with hr | hr | hr
      · exact ((hab _).1 (e.symm.trans hr)).elim
      · exact ((hab _).2.1 (e.symm.trans hr)).elim
      · exact ((hab _).2.2 (e.symm.trans hr)).elim
    · rename_i q l g
      apply key q l g
      simp only at e
      try (split at e)
      all_goals (rw [e] at hr; simpa using hr)

/-- No other call gives packets. -/
theorem given_here (ops : List Op) {k : Nat} {o : Op} {r : Result} {p : Packet}
    (h : (run wild ops).2[k]? = some (o, r)) (hr : r = .received p ∨ r = .overrun p ∨ r = .linked p) : ∃ a, here o = some a := by
  obtain ⟨o', t, e, -, -⟩ := run_at wild ops k _ h
  simp only [Prod.mk.injEq] at e
  obtain ⟨rfl, e⟩ := e
  cases o <;> simp only [here, Option.some.injEq, exists_eq']
  all_goals
    exfalso
    simp only [step] at e
    try split at e
    all_goals (rw [e] at hr; simp at hr)

/-- **C42**: what is received is what was injected before, for an address that fits: its data, its sender (or the latest
destination, when none was given), and not since forgotten. -/
theorem C42_received (hw : IsWildcard wild) (ops : List Op) (k : Nat) (a : Text) (b : Bool) (n : Nat) (p : Packet)
    (h : (run wild ops).2[k]? = some (.recv a b n, .received p)) :
    p.id < k ∧ Fits p.dest a ∧ p.data.length ≤ n ∧ ¬ Cleared (run wild ops).2 p.id k ∧
    ∃ (f : Text) (r : Result), (run wild ops).2[p.id]? = some (.inject f p.dest p.data, r) ∧
      (f ≠ [] ∧ p.sender = f ∨ f = [] ∧ Latest (run wild ops).2 p.id p.sender) := by
  obtain ⟨x, y, h1, h2, -⟩ := given_at hw ops h rfl (.inl rfl)
  obtain ⟨o', t, e, e2, e3⟩ := run_at wild ops k _ h
  have I := run_inv hw (ops.take k)
  have hm : p ∈ (run wild (ops.take k)).1.incoming := by rw [h1]; simp
  have ho := I.incoming.origin p hm
  have ag : Agree k (run wild (ops.take k)).2 (run wild ops).2 := by
    rw [e2]; have := agree_append (run wild (ops.take k)).2 ((.recv a b n, .received p) :: t); rw [e3] at this; exact this.symm
  have hlt : p.id < k := by rw [← e3]; exact ho.lt
  refine ⟨hlt, h2, ?_, ?_, ho.congr ag hlt⟩
  · simp only [Prod.mk.injEq] at e
    obtain ⟨rfl, e⟩ := e
    simp only [step] at e
    split at e
    · unfold absent at e; split at e <;> simp at e
    · simp only at e
      split at e
      · rename_i hle
        simp at e
        rw [e]; exact hle
      · simp at e
  · intro c
    apply (I.incoming.fresh p hm).1
    rw [e3]
    exact c.congr ag.symm (Nat.le_refl _)

/-- **C42**: no packet is used up twice. -/
theorem C42_once (hw : IsWildcard wild) (ops : List Op) (k k' i : Nat) (h : UsedUp (run wild ops).2 k i) (h' : UsedUp (run wild ops).2 k' i) :
    k = k' := by
  have key : ∀ k k', k < k' → UsedUp (run wild ops).2 k i → UsedUp (run wild ops).2 k' i → False := by
    intro k k' hlt h h'
    have hu := h
    obtain ⟨o, p, hp, g⟩ := h'
    obtain ⟨r, hk, hr⟩ : ∃ r, (run wild ops).2[k']? = some (o, r) ∧ (r = .received p ∨ r = .overrun p ∨ r = .linked p) := by
      rcases g with g | g | ⟨g, -⟩
      · exact ⟨_, g, .inl rfl⟩
      · exact ⟨_, g, .inr (.inl rfl)⟩
      · exact ⟨_, g, .inr (.inr rfl)⟩
    obtain ⟨a, ha⟩ := given_here ops hk hr
    obtain ⟨x, y, h1, -, -⟩ := given_at hw ops hk ha hr
    obtain ⟨o', t, -, e2, e3⟩ := run_at wild ops k' _ hk
    have ag : Agree k' (run wild (ops.take k')).2 (run wild ops).2 := by
      rw [e2]; have := agree_append (run wild (ops.take k')).2 ((o, r) :: t); rw [e3] at this; exact this.symm
    apply ((run_inv hw (ops.take k')).incoming.fresh p (by rw [h1]; simp)).2 k
    rw [hp]
    exact hu.congr ag.symm hlt
  rcases Nat.lt_trichotomy k k' with g | g | g
  · exact (key k k' g h h').elim
  · exact g
  · exact (key k' k g h' h).elim

/-- **C42**: in the order of injection: when a packet is given to a socket, every earlier packet that fits has been used up, or
forgotten. (`Apart` holds when nothing opens connections.) -/
theorem C42_order (hw : IsWildcard wild) (ops : List Op) (hap : Apart (run wild ops).2) (k : Nat) (o : Op) (r : Result) (p : Packet) (a : Text)
    (h : (run wild ops).2[k]? = some (o, r)) (ho : here o = some a) (hr : r = .received p ∨ r = .overrun p ∨ r = .linked p)
    (i : Nat) (dest : Text) (hi : i < p.id) (hinj : Injected (run wild ops).2 i dest) (hf : Fits dest a) :
    Cleared (run wild ops).2 i k ∨ ∃ k', k' < k ∧ UsedUp (run wild ops).2 k' i := by
  obtain ⟨x, y, h1, h2, h3⟩ := given_at hw ops h ho hr
  obtain ⟨o', t, -, e2, e3⟩ := run_at wild ops k _ h
  have I := (run_inv hw (ops.take k)).incoming
  have ag : Agree k (run wild (ops.take k)).2 (run wild ops).2 := by
    rw [e2]; have := agree_append (run wild (ops.take k)).2 ((o, r) :: t); rw [e3] at this; exact this.symm
  have hp : p.id < k := by rw [← e3]; exact (I.origin p (by rw [h1]; simp)).lt
  apply Classical.byContradiction
  intro hno
  rw [not_or] at hno
  obtain ⟨q, hq, e⟩ := I.all i dest (hinj.congr ag.symm (by omega)) (fun c => hno.1 (by rw [e3] at c; exact c.congr ag (Nat.le_refl _)))
    (fun k' u => hno.2 ⟨k', by rw [← e3]; exact u.lt, u.congr ag (by rw [← e3]; exact u.lt)⟩)
  have hd : q.dest = dest := by
    obtain ⟨f, r', g, -⟩ := I.origin q hq
    obtain ⟨f', d', r'', g'⟩ := hinj
    rw [e, ag i (by omega), g'] at g
    simp at g
    exact g.1.2.1.symm
  have hap' : Apart (run wild (ops.take k)).2 := by
    rw [e2] at hap; exact hap.prefix
  have hord := I.order hap'
  rw [h1] at hq hord
  rw [List.pairwise_append, List.pairwise_cons] at hord
  rcases List.mem_append.1 hq with hq | hq
  · exact h3 q hq (by rw [hd]; exact hf)
  · rcases List.mem_cons.1 hq with rfl | hq
    · omega
    · have := hord.2.1.1 q hq a h2 (by rw [hd]; exact hf)
      omega

theorem apart_of_no_open {h : List Event} (hno : ∀ a, ¬ Opens h a) : Apart h := fun _ _ _ _ here _ _ _ g => (hno here g).elim

/-- **C42**: a call finds nothing (or waits) only when no packet is left for it. -/
theorem C42_nothing (hw : IsWildcard wild) (ops : List Op) (k : Nat) (o : Op) (r : Result) (a : Text)
    (h : (run wild ops).2[k]? = some (o, r)) (ho : here o = some a) (hr : r = .nothing ∨ r = .waiting)
    (i : Nat) (dest : Text) (hi : i < k) (hinj : Injected (run wild ops).2 i dest) (hf : Fits dest a) :
    Cleared (run wild ops).2 i k ∨ ∃ k', k' < k ∧ UsedUp (run wild ops).2 k' i := by
  obtain ⟨o', t, e, e2, e3⟩ := run_at wild ops k _ h
  simp only [Prod.mk.injEq] at e
  obtain ⟨rfl, e⟩ := e
  have I := (run_inv hw (ops.take k)).incoming
  have ag : Agree k (run wild (ops.take k)).2 (run wild ops).2 := by
    rw [e2]; have := agree_append (run wild (ops.take k)).2 ((o, r) :: t); rw [e3] at this; exact this.symm
  have hnone : take wild a (run wild (ops.take k)).1.incoming = none := by
    cases ht : take wild a (run wild (ops.take k)).1.incoming with
    | none => rfl
    | some q =>
      exfalso
      cases o <;> simp only [here, Option.some.injEq, reduceCtorEq] at ho <;> subst ho
      all_goals
        simp only [step, ht] at e
        rw [e] at hr
        try (split at hr)
      all_goals simp at hr
  apply Classical.byContradiction
  intro hno
  rw [not_or] at hno
  obtain ⟨q, hq, e'⟩ := I.all i dest (hinj.congr ag.symm hi) (fun c => hno.1 (by rw [e3] at c; exact c.congr ag (Nat.le_refl _)))
    (fun k' u => hno.2 ⟨k', by rw [← e3]; exact u.lt, u.congr ag (by rw [← e3]; exact u.lt)⟩)
  have hd : q.dest = dest := by
    obtain ⟨f, r', g, -⟩ := I.origin q hq
    obtain ⟨f', d', r'', g'⟩ := hinj
    rw [e', ag i hi, g'] at g
    simp at g
    exact g.1.2.1.symm
  have := take_none hnone q hq
  rw [hd] at this
  rw [← fits_iff hw, this] at hf
  simp at hf

/-- **C42**: and then it says so: a socket that blocks waits, another is told. -/
theorem C42_blocking (ops : List Op) (k : Nat) (a : Text) (b : Bool) (n : Nat) (r : Result) 
    (h : (run wild ops).2[k]? = some (.recv a b n, r)) : (r = .waiting → b = true) ∧ (r = .nothing → b = false) := by
  obtain ⟨o', t, e, -, -⟩ := run_at wild ops k _ h
  simp only [Prod.mk.injEq] at e
  obtain ⟨rfl, e⟩ := e
  simp only [step] at e
  split at e
  · simp only [absent] at e
    cases b <;> simp [e]
  · simp only at e
    rw [e]
    split <;> simp

/-- **C42**, what is not so: a packet longer than the buffer is stored whole, beyond the buffer. -/
theorem C42_overrun (ops : List Op) (k : Nat) (a : Text) (b : Bool) (n : Nat) (p : Packet) 
    (h : (run wild ops).2[k]? = some (.recv a b n, .overrun p)) : n < p.data.length := by
  obtain ⟨o', t, e, -, -⟩ := run_at wild ops k _ h
  simp only [Prod.mk.injEq] at e
  obtain ⟨rfl, e⟩ := e
  simp only [step] at e
  split at e
  · unfold absent at e; split at e <;> simp at e
  · simp only at e
    split at e
    · simp at e
    · rename_i hle
      simp at e
      rw [e]; omega

/-! ### What was sent -/

theorem fetched_at (ops : List Op) {k : Nat} {o : Op} {f : Option Packet} (h : (run wild ops).2[k]? = some (o, .fetched f)) :
    (run wild (ops.take k)).1.outgoing.head? = f := by
  obtain ⟨o', t, e, -, -⟩ := run_at wild ops k _ h
  simp only [Prod.mk.injEq] at e
  obtain ⟨rfl, e⟩ := e
  cases o <;> simp only [step, absent, reduceCtorEq] at e
  case fetch => split at e <;> (simp at e; simp [*])
  all_goals
    split at e
    all_goals (try split at e)
    all_goals simp at e

/-- **C42**: what is fetched was sent before, with the addresses of the sender and of its destination, and not since forgotten. -/
theorem C42_sent (hw : IsWildcard wild) (ops : List Op) (k : Nat) (o : Op) (p : Packet) (h : (run wild ops).2[k]? = some (o, .fetched (some p))) :
    p.id < k ∧ Sent (run wild ops).2 p.id p.sender p.dest p.data ∧ ¬ Cleared (run wild ops).2 p.id k := by
  obtain ⟨o', t, e, e2, e3⟩ := run_at wild ops k _ h
  have ag : Agree k (run wild (ops.take k)).2 (run wild ops).2 := by
    rw [e2]; have := agree_append (run wild (ops.take k)).2 ((o, .fetched (some p)) :: t); rw [e3] at this; exact this.symm
  have I := (run_inv hw (ops.take k)).outgoing
  have hm : p ∈ (run wild (ops.take k)).1.outgoing := List.mem_of_mem_head? (fetched_at ops h)
  obtain ⟨h1, h2⟩ := I.origin p hm
  rw [e3] at h1
  refine ⟨h1, h2.congr ag h1, fun c => (I.fresh p hm).1 ?_⟩
  rw [e3]
  exact c.congr ag.symm (Nat.le_refl _)

/-- **C42**: each once. -/
theorem C42_sent_once (hw : IsWildcard wild) (ops : List Op) (k k' i : Nat) (h : Fetched (run wild ops).2 k i) (h' : Fetched (run wild ops).2 k' i) :
    k = k' := by
  have key : ∀ k k', k < k' → Fetched (run wild ops).2 k i → Fetched (run wild ops).2 k' i → False := by
    intro k k' hlt h h'
    obtain ⟨o, p, hp, g⟩ := h'
    obtain ⟨o', t, -, e2, e3⟩ := run_at wild ops k' _ g
    have ag : Agree k' (run wild (ops.take k')).2 (run wild ops).2 := by
      rw [e2]; have := agree_append (run wild (ops.take k')).2 ((o, .fetched (some p)) :: t); rw [e3] at this; exact this.symm
    apply ((run_inv hw (ops.take k')).outgoing.fresh p (List.mem_of_mem_head? (fetched_at ops g))).2 k
    rw [hp]
    exact h.congr ag.symm hlt
  rcases Nat.lt_trichotomy k k' with g | g | g
  · exact (key k k' g h h').elim
  · exact g
  · exact (key k' k g h' h).elim

/-- **C42**: in the order of sending, and none is missed: when something is fetched everything sent before it was fetched or
forgotten; when nothing is, everything. -/
theorem C42_sent_order (hw : IsWildcard wild) (ops : List Op) (k : Nat) (o : Op) (f : Option Packet)
    (h : (run wild ops).2[k]? = some (o, .fetched f)) (i : Nat) (hi : i < k) (hf : ∀ p, f = some p → i < p.id) (hs : SentAt (run wild ops).2 i) :
    Cleared (run wild ops).2 i k ∨ ∃ k', k' < k ∧ Fetched (run wild ops).2 k' i := by
  obtain ⟨o', t, -, e2, e3⟩ := run_at wild ops k _ h
  have I := (run_inv hw (ops.take k)).outgoing
  have ag : Agree k (run wild (ops.take k)).2 (run wild ops).2 := by
    rw [e2]; have := agree_append (run wild (ops.take k)).2 ((o, .fetched f) :: t); rw [e3] at this; exact this.symm
  apply Classical.byContradiction
  intro hno
  rw [not_or] at hno
  obtain ⟨q, hq, e⟩ := I.all i (hs.congr ag.symm hi) (fun c => hno.1 (by rw [e3] at c; exact c.congr ag (Nat.le_refl _)))
    (fun k' u => hno.2 ⟨k', by rw [← e3]; exact u.lt, u.congr ag (by rw [← e3]; exact u.lt)⟩)
  have hh := fetched_at ops h
  have ho := I.order
  cases hl : (run wild (ops.take k)).1.outgoing with
  | nil => rw [hl] at hq; simp at hq
  | cons p l =>
    rw [hl] at hq hh ho
    have := hf p (by rw [← hh]; rfl)
    rcases List.mem_cons.1 hq with rfl | hq
    · omega
    · have := (List.pairwise_cons.1 ho).1 q hq
      omega

/-- **C42**: `Ptx` fails when no packet is there, or any of its four matchers rejects its part. -/
theorem C42_ptx (sender dest : Text → Bool) (payload : List UInt8 → Bool) (size : Nat → Bool) (f : Option Packet) :
    ptx sender dest payload size f = false ↔
      ∃ p, f = some p ∧ sender p.sender = true ∧ dest p.dest = true ∧ payload p.data = true ∧ size p.data.length = true := by
  cases f with
  | none => simp [ptx]
  | some p => simp [ptx, and_assoc]

/-! ### Attributes -/

theorem parseLoop_address (x r acc : Text) (h : ∀ c ∈ x, AddressChar c) :
    parseLoop (x ++ r) acc = parseLoop r (acc ++ x) := by
  induction x generalizing acc with
  | nil => simp
  | cons c x ih =>
    have hc : (c.isDigit || c == '.' || c == ':' || c == '*' || c == '?') = true := by
      have := h c (by simp)
      revert this
      simp only [AddressChar]
      have : ∀ c ∈ "0123456789.:*?".toList, (c.isDigit || c == '.' || c == ':' || c == '*' || c == '?') = true := by decide
      exact this c
    rw [List.cons_append, parseLoop, if_pos hc, ih _ (fun d hd => h d (by simp [hd]))]
    simp

theorem afterKey_skip (key x r : Text) (k : Char) (ks : Text) (hk : key = k :: ks) (hx : ∀ c ∈ x, c.toLower ≠ k) :
    afterKey key (x ++ r) = afterKey key r := by
  induction x with
  | nil => rfl
  | cons c x ih =>
    rw [List.cons_append, afterKey, if_neg, ih (fun d hd => hx d (by simp [hd]))]
    subst hk
    have := hx c (by simp)
    simp only [List.map_cons, List.isPrefixOf, Bool.and_eq_true, beq_iff_eq]
    rintro ⟨h, -⟩
    exact this h.symm

theorem address_lower {c : Char} (h : AddressChar c) : c.toLower ≠ 'f' ∧ c.toLower ≠ 't' ∧ isspace c = false := by
  have : ∀ c ∈ "0123456789.:*?".toList, c.toLower ≠ 'f' ∧ c.toLower ≠ 't' ∧ isspace c = false := by decide
  exact this c h

theorem dropWhile_address (x r : Text) (h : ∀ c ∈ x, AddressChar c) (hne : x ≠ []) : (x ++ r).dropWhile isspace = x ++ r := by
  cases x with
  | nil => exact absurd rfl hne
  | cons c x => rw [List.cons_append, List.dropWhile_cons_of_neg]; simp [(address_lower (h c (by simp))).2.2]

/-- **C42**: the addresses of `Pij` are those written. -/
theorem C42_attributes (data : List UInt8) (x y : Text) (hx : ∀ c ∈ x, AddressChar c) (hy : ∀ c ∈ y, AddressChar c) (hxe : x ≠ []) (hye : y ≠ []) :
    inject data ("from=".toList ++ x ++ ", to=".toList ++ y) = .inject x y data ∧
    inject data ("to=".toList ++ y ++ ", from=".toList ++ x) = .inject x y data ∧
    inject data ("to=".toList ++ y) = .inject [] y data ∧
    inject data ("from=".toList ++ x) = .inject x ['*'] data ∧
    inject data [] = .inject [] ['*'] data := by
  have hcomma : ∀ r acc, parseLoop (',' :: r) acc = acc := by
    intro r acc; rw [parseLoop, if_neg (by decide), if_neg (by decide)]
  have pnil : ∀ acc, parseLoop [] acc = acc := fun acc => by rw [parseLoop]
  have get : ∀ (z r old : Text), (∀ c ∈ z, AddressChar c) → z ≠ [] → (r = [] ∨ ∃ r', r = ',' :: r') →
      parseIport (some ((z ++ r).dropWhile isspace)) old = z := by
    intro z r old hz hze hr
    rw [dropWhile_address z r hz hze]
    unfold parseIport
    simp only [Option.getD_some]
    rw [parseLoop_address z r [] hz]
    have : parseLoop r ([] ++ z) = z := by
      rcases hr with rfl | ⟨r', rfl⟩
      · rw [pnil]; simp
      · rw [hcomma]; simp
    rw [this]
    cases z with
    | nil => exact absurd rfl hze
    | cons c z => rfl
  have kv : ∀ (key pre v : Text) (k : Char) (ks : Text), key = k :: ks → (∀ c ∈ pre, c.toLower ≠ k) → (key.map Char.toLower = key) →
      getKeyvalue (pre ++ (key ++ '=' :: v)) key = some (v.dropWhile isspace) := by
    intro key pre v k ks hk hpre hlow
    unfold getKeyvalue
    rw [afterKey_skip key pre _ k ks hk hpre]
    have : afterKey key (key ++ '=' :: v) = some ('=' :: v) := by
      subst hk
      rw [List.cons_append, afterKey, if_pos]
      · simp
      · rw [← List.cons_append, List.map_append, hlow, List.isPrefixOf_iff_prefix]
        exact List.prefix_append _ _
    rw [this]
    rfl
  have none_ : ∀ (key s : Text) (k : Char) (ks : Text), key = k :: ks → (∀ c ∈ s, c.toLower ≠ k) → getKeyvalue s key = none := by
    intro key s k ks hk hs
    unfold getKeyvalue
    have := afterKey_skip key s [] k ks hk hs
    rw [List.append_nil] at this
    rw [this, hk]
    simp [afterKey]
  have pn : ∀ old, parseIport none old = old := by intro old; simp [parseIport, pnil]
  refine ⟨?_, ?_, ?_, ?_, ?_⟩
  · unfold inject
    have e1 : "from=".toList ++ x ++ ", to=".toList ++ y = [] ++ ("from".toList ++ '=' :: (x ++ (',' :: (" to=".toList ++ y)))) := by simp
    have e2 : "from=".toList ++ x ++ ", to=".toList ++ y = ("from=".toList ++ x ++ ", ".toList) ++ ("to".toList ++ '=' :: (y ++ [])) := by simp
    have g1 := kv "from".toList [] (x ++ (',' :: (" to=".toList ++ y))) 'f' "rom".toList (by decide) (by simp) (by decide)
    have g2 := kv "to".toList ("from=".toList ++ x ++ ", ".toList) (y ++ []) 't' "o".toList (by decide) (by
      intro c hc
      simp only [List.mem_append] at hc
      rcases hc with (hc | hc) | hc
      · have : ∀ c ∈ "from=".toList, c.toLower ≠ 't' := by decide
        exact this c hc
      · exact (address_lower (hx c hc)).2.1
      · have : ∀ c ∈ ", ".toList, c.toLower ≠ 't' := by decide
        exact this c hc) (by decide)
    rw [← e1] at g1
    rw [← e2] at g2
    rw [g1, g2, get x _ _ hx hxe (.inr ⟨_, rfl⟩), get y _ _ hy hye (.inl rfl)]
  · unfold inject
    have e1 : "to=".toList ++ y ++ ", from=".toList ++ x = ("to=".toList ++ y ++ ", ".toList) ++ ("from".toList ++ '=' :: (x ++ [])) := by simp
    have e2 : "to=".toList ++ y ++ ", from=".toList ++ x = [] ++ ("to".toList ++ '=' :: (y ++ (',' :: (" from=".toList ++ x)))) := by simp
    have g1 := kv "from".toList ("to=".toList ++ y ++ ", ".toList) (x ++ []) 'f' "rom".toList (by decide) (by
      intro c hc
      simp only [List.mem_append] at hc
      rcases hc with (hc | hc) | hc
      · have : ∀ c ∈ "to=".toList, c.toLower ≠ 'f' := by decide
        exact this c hc
      · exact (address_lower (hy c hc)).1
      · have : ∀ c ∈ ", ".toList, c.toLower ≠ 'f' := by decide
        exact this c hc) (by decide)
    have g2 := kv "to".toList [] (y ++ (',' :: (" from=".toList ++ x))) 't' "o".toList (by decide) (by simp) (by decide)
    rw [← e1] at g1
    rw [← e2] at g2
    rw [g1, g2, get x _ _ hx hxe (.inl rfl), get y _ _ hy hye (.inr ⟨_, rfl⟩)]
  · unfold inject
    have e2 : "to=".toList ++ y = [] ++ ("to".toList ++ '=' :: (y ++ [])) := by simp
    have g2 := kv "to".toList [] (y ++ []) 't' "o".toList (by decide) (by simp) (by decide)
    rw [← e2] at g2
    rw [g2, get y _ _ hy hye (.inl rfl), none_ "from".toList _ 'f' "rom".toList (by decide) (by
      intro c hc
      simp only [List.mem_append] at hc
      rcases hc with hc | hc
      · have : ∀ c ∈ "to=".toList, c.toLower ≠ 'f' := by decide
        exact this c hc
      · exact (address_lower (hy c hc)).1), pn]
  · unfold inject
    have e1 : "from=".toList ++ x = [] ++ ("from".toList ++ '=' :: (x ++ [])) := by simp
    have g1 := kv "from".toList [] (x ++ []) 'f' "rom".toList (by decide) (by simp) (by decide)
    rw [← e1] at g1
    rw [g1, get x _ _ hx hxe (.inl rfl), none_ "to".toList _ 't' "o".toList (by decide) (by
      intro c hc
      simp only [List.mem_append] at hc
      rcases hc with hc | hc
      · have : ∀ c ∈ "from=".toList, c.toLower ≠ 't' := by decide
        exact this c hc
      · exact (address_lower (hx c hc)).2.1), pn]
  · rfl

theorem dropWhile_spaces (n : Nat) (r : Text) (h : r.head?.all fun c => !isspace c) : (List.replicate n ' ' ++ r).dropWhile isspace = r := by
  induction n with
  | zero =>
    cases r with
    | nil => rfl
    | cons c r => rw [List.replicate_zero, List.nil_append, List.dropWhile_cons_of_neg]; simpa using h
  | succ n ih => rw [List.replicate_succ, List.cons_append, List.dropWhile_cons_of_pos (by decide)]; exact ih

/-- **C42**: the keys may be written in upper or lower case, with blanks around the equals signs. -/
theorem C42_attributes_blanks (data : List UInt8) (x y k1 k2 : Text) (n1 n2 n3 n4 n5 : Nat) (hx : ∀ c ∈ x, AddressChar c)
    (hy : ∀ c ∈ y, AddressChar c) (hxe : x ≠ []) (hye : y ≠ []) (h1 : k1.map Char.toLower = "from".toList) (h2 : k2.map Char.toLower = "to".toList) :
    inject data (k1 ++ List.replicate n1 ' ' ++ '=' :: List.replicate n2 ' ' ++ x ++ ',' :: List.replicate n3 ' ' ++
      k2 ++ List.replicate n4 ' ' ++ '=' :: List.replicate n5 ' ' ++ y) = .inject x y data := by
  have hsp : ∀ n (c : Char), c ∈ List.replicate n ' ' → c = ' ' := fun n c h => (List.mem_replicate.mp h).2
  have get : ∀ (z r old : Text), (∀ c ∈ z, AddressChar c) → z ≠ [] → (r = [] ∨ ∃ r', r = ',' :: r') →
      parseIport (some (z ++ r)) old = z := by
    intro z r old hz hze hr
    unfold parseIport
    simp only [Option.getD_some]
    rw [parseLoop_address z r [] hz]
    have : parseLoop r ([] ++ z) = z := by
      rcases hr with rfl | ⟨r', rfl⟩
      · rw [parseLoop]; simp
      · rw [parseLoop, if_neg (by decide), if_neg (by decide)]; simp
    rw [this]
    cases z with
    | nil => exact absurd rfl hze
    | cons c z => rfl
  have kv : ∀ (key k pre z r : Text) (n m : Nat) (k0 : Char) (ks : Text), key = k0 :: ks → k.map Char.toLower = key → (∀ c ∈ pre, c.toLower ≠ k0) →
      (∀ c ∈ z, AddressChar c) → z ≠ [] →
      getKeyvalue (pre ++ (k ++ (List.replicate n ' ' ++ ('=' :: (List.replicate m ' ' ++ (z ++ r)))))) key = some (z ++ r) := by
    intro key k pre z r n m k0 ks hk hlow hpre hz hze
    unfold getKeyvalue
    rw [afterKey_skip key pre _ k0 ks hk hpre]
    have e : ∀ t, afterKey key (k ++ t) = some t := by
      intro t
      have hl : key.length = k.length := by rw [← hlow]; simp
      cases hk' : k with
      | nil => rw [hk'] at hlow; rw [← hlow] at hk; simp at hk
      | cons c cs =>
        rw [List.cons_append, afterKey, if_pos]
        · rw [← List.cons_append, ← hk', hl]; simp
        · rw [← List.cons_append, List.map_append, ← hk', hlow, List.isPrefixOf_iff_prefix]
          exact List.prefix_append _ _
    rw [e]
    simp only
    rw [dropWhile_spaces n _ (by rfl)]
    simp only
    rw [dropWhile_spaces m]
    cases z with
    | nil => exact absurd rfl hze
    | cons c z => simp [(address_lower (hz c (by simp))).2.2]
  unfold inject
  have e1 : k1 ++ List.replicate n1 ' ' ++ '=' :: List.replicate n2 ' ' ++ x ++ ',' :: List.replicate n3 ' ' ++
      k2 ++ List.replicate n4 ' ' ++ '=' :: List.replicate n5 ' ' ++ y =
      [] ++ (k1 ++ (List.replicate n1 ' ' ++ ('=' :: (List.replicate n2 ' ' ++ (x ++ (',' :: (List.replicate n3 ' ' ++
      k2 ++ List.replicate n4 ' ' ++ '=' :: List.replicate n5 ' ' ++ y))))))) := by simp
  have e2 : k1 ++ List.replicate n1 ' ' ++ '=' :: List.replicate n2 ' ' ++ x ++ ',' :: List.replicate n3 ' ' ++
      k2 ++ List.replicate n4 ' ' ++ '=' :: List.replicate n5 ' ' ++ y =
      (k1 ++ List.replicate n1 ' ' ++ '=' :: List.replicate n2 ' ' ++ x ++ ',' :: List.replicate n3 ' ') ++
      (k2 ++ (List.replicate n4 ' ' ++ ('=' :: (List.replicate n5 ' ' ++ (y ++ []))))) := by simp
  have g1 := kv "from".toList k1 [] x (n := n1) (m := n2) (k0 := 'f') (ks := "rom".toList) (by decide) h1 (by simp) hx hxe (r := ',' :: (List.replicate n3 ' ' ++
      k2 ++ List.replicate n4 ' ' ++ '=' :: List.replicate n5 ' ' ++ y))
  have g2 := kv "to".toList k2 (k1 ++ List.replicate n1 ' ' ++ '=' :: List.replicate n2 ' ' ++ x ++ ',' :: List.replicate n3 ' ') y [] n4 n5 't' "o".toList
    (by decide) h2 (by
      have hs : (' ' : Char).toLower ≠ 't' := by decide
      intro c hc
      simp only [List.mem_append, List.mem_cons] at hc
      rcases hc with (((hc | hc) | hc | hc) | hc) | hc | hc
      · have : c.toLower ∈ k1.map Char.toLower := List.mem_map.mpr ⟨c, hc, rfl⟩
        rw [h1] at this
        have h : ∀ d ∈ "from".toList, d ≠ 't' := by decide
        exact h _ this
      · rw [hsp _ _ hc]; exact hs
      · rw [hc]; decide
      · rw [hsp _ _ hc]; exact hs
      · exact (address_lower (hx c hc)).2.1
      · rw [hc]; decide
      · rw [hsp _ _ hc]; exact hs) hy hye
  rw [← e1] at g1
  rw [← e2] at g2
  rw [g1, g2, get x _ _ hx hxe (.inr ⟨_, rfl⟩), get y _ _ hy hye (.inl rfl)]
example : inject [1] "From = 1.2.3.4:5, TO= 6.7.8.9:10".toList = .inject "1.2.3.4:5".toList "6.7.8.9:10".toList [1] := by decide

/-! ### Examples -/

theorem wildcard_exists : ∃ wild, IsWildcard wild := by
  have h := fun p s => H2.Pattern.C10_wildcard false p s
  refine ⟨fun p s => (h p s).choose_spec.choose, fun p s => ⟨(h p s).choose, (h p s).choose_spec.choose_spec.1⟩⟩

/-- With any matching loop: a packet for every address reaches a socket that does not open connections, and the theorems apply. -/
example (wild : Text → Text → Bool) (hw : IsWildcard wild) :
    (run wild [.inject [] ['*'] [1], .recv ['a'] false 5]).2 = [(.inject [] ['*'] [1], .done), (.recv ['a'] false 5, .received ⟨0, [], ['*'], [1]⟩)] ∧
    Apart (run wild [.inject [] ['*'] [1], .recv ['a'] false 5]).2 := by
  have hf : wild ['*'] ['a'] = true := (fits_iff hw _ _).2 (.star ['a'] .nil)
  have e : (run wild [.inject [] ['*'] [1], .recv ['a'] false 5]).2 =
      [(.inject [] ['*'] [1], .done), (.recv ['a'] false 5, .received ⟨0, [], ['*'], [1]⟩)] := by
    simp [run, next, step, take, hf]
  refine ⟨e, apart_of_no_open ?_⟩
  rw [e]
  rintro a ⟨k, r, ⟨b, fd, h⟩ | ⟨b, fd, d, h⟩⟩
  · match k with
    | 0 => simp at h
    | 1 => simp at h
    | k + 2 => simp at h
  · match k with
    | 0 => simp at h
    | 1 => simp at h
    | k + 2 => simp at h

/-- Equal addresses, or the star, as the matching loop answers on the addresses of the examples. -/
def simple (p s : Text) : Bool := p == ['*'] || p == s

/-- Two packets for one socket, one for another, and an answer. -/
def sample : List Op :=
  [.start, .inject [] "1.1.1.1:1".toList [1], .inject "3.3.3.3:3".toList "2.2.2.2:2".toList [2], .inject [] "*".toList [3, 4],
    .recv "2.2.2.2:2".toList false 10, .recv "1.1.1.1:1".toList false 10, .recv "1.1.1.1:1".toList false 1, .recv "1.1.1.1:1".toList false 9,
    .sendto "1.1.1.1:1".toList "3.3.3.3:3".toList [5], .fetch, .fetch]

example : ((run simple sample).2.map (·.2)) =
    [.done, .done, .done, .done, .received ⟨2, "3.3.3.3:3".toList, "2.2.2.2:2".toList, [2]⟩,
      .received ⟨1, "0.0.0.0:0".toList, "1.1.1.1:1".toList, [1]⟩, .overrun ⟨3, "0.0.0.0:0".toList, "*".toList, [3, 4]⟩, .nothing,
      .done, .fetched (some ⟨8, "1.1.1.1:1".toList, "3.3.3.3:3".toList, [5]⟩), .fetched none] := by decide +kernel

/-- A connection: the packet that opens it is received afterwards, and the answer goes to its sender. -/
example : ((run simple [.start, .inject "9.9.9.9:9".toList "*".toList [1], .accept "1.1.1.1:1".toList false 5, .recv "1.1.1.1:1".toList false 10,
    .send 5 [7], .fetch]).2.map (·.2)) =
    [.done, .done, .linked ⟨1, "9.9.9.9:9".toList, "*".toList, [1]⟩, .received ⟨1, "9.9.9.9:9".toList, "*".toList, [1]⟩, .done,
      .fetched (some ⟨4, "1.1.1.1:1".toList, "9.9.9.9:9".toList, [7]⟩)] := by decide +kernel

/-- Without `Apart` the order may change: opening a connection puts its packet before all others. -/
example : ((run simple [.inject [] "1.1.1.1:1".toList [1], .inject [] "*".toList [2], .accept "2.2.2.2:2".toList false 5,
    .recv "1.1.1.1:1".toList false 10]).2.map (·.2)) =
    [.done, .done, .linked ⟨1, [], "*".toList, [2]⟩, .received ⟨1, [], "*".toList, [2]⟩] := by decide +kernel

/-- A descriptor used again keeps its first ends. -/
example : ((run simple [.connect "1.1.1.1:1".toList false 5 "9.9.9.9:9".toList, .connect "1.1.1.1:1".toList false 5 "8.8.8.8:8".toList,
    .send 5 [7], .fetch]).2.map (·.2)) =
    [.nothing, .nothing, .done, .fetched (some ⟨2, "1.1.1.1:1".toList, "9.9.9.9:9".toList, [7]⟩)] := by decide +kernel

end H2.Sock
