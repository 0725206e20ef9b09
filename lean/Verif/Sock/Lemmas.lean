import Verif.Sock.Spec
namespace H2.Sock

theorem fits_iff {wild : Text → Text → Bool} (hw : IsWildcard wild) (p s : Text) : wild p s = true ↔ Fits p s := by
  obtain ⟨n, h⟩ := hw p s
  obtain ⟨n', r, h1, h2⟩ := H2.Pattern.C10_wildcard false p s
  have e1 := h (max n n') (by omega)
  have e2 := h1 (max n n') (by omega)
  rw [e1] at e2
  simp at e2
  rw [e2]
  exact h2

/-! ### Histories that agree -/

def Agree (n : Nat) (h h' : List Event) : Prop := ∀ k, k < n → h[k]? = h'[k]?

theorem Agree.symm {n : Nat} {h h' : List Event} (a : Agree n h h') : Agree n h' h := fun k hk => (a k hk).symm

theorem agree_append (h t : List Event) : Agree h.length (h ++ t) h := fun _ hk => List.getElem?_append_left hk

theorem agree_take (h : List Event) (n : Nat) : Agree n (h.take n) h := fun k hk => by rw [List.getElem?_take, if_pos hk]

theorem Tied.congr {n k fd : Nat} {h h' : List Event} {x y : Text} (a : Agree n h h') (hk : k < n) (t : Tied h k fd x y) : Tied h' k fd x y := by
  unfold Tied at *
  rw [a k hk] at t
  exact t

theorem SentAt.congr {n k : Nat} {h h' : List Event} (a : Agree n h h') (hk : k < n) (t : SentAt h k) : SentAt h' k := by
  unfold SentAt at *
  rw [a k hk] at t
  exact t

theorem UsedUp.congr {n k i : Nat} {h h' : List Event} (a : Agree n h h') (hk : k < n) (t : UsedUp h k i) : UsedUp h' k i := by
  unfold UsedUp at *
  rw [a k hk] at t
  exact t

theorem Fetched.congr {n k i : Nat} {h h' : List Event} (a : Agree n h h') (hk : k < n) (t : Fetched h k i) : Fetched h' k i := by
  unfold Fetched at *
  rw [a k hk] at t
  exact t

theorem Injected.congr {n k : Nat} {x : Text} {h h' : List Event} (a : Agree n h h') (hk : k < n) (t : Injected h k x) : Injected h' k x := by
  unfold Injected at *
  rw [a k hk] at t
  exact t

theorem Cleared.congr {n i j : Nat} {h h' : List Event} (a : Agree n h h') (hj : j ≤ n) (t : Cleared h i j) : Cleared h' i j := by
  obtain ⟨k, r, h1, h2, h3⟩ := t
  exact ⟨k, r, h1, h2, by rw [← a k (by omega)]; exact h3⟩

theorem Ends.congr {n i fd : Nat} {h h' : List Event} {x y : Text} (a : Agree n h h') (hi : i ≤ n) (t : Ends h i fd x y) : Ends h' i fd x y := by
  rcases t with ⟨k, h1, h2, h3⟩ | ⟨h1, h2, h3⟩
  · exact .inl ⟨k, h1, h2.congr a (by omega), fun k' o p hk t => h3 k' o p hk (t.congr a.symm (by omega))⟩
  · exact .inr ⟨fun k o p hk t => h1 k o p hk (t.congr a.symm (by omega)), h2, h3⟩

theorem Sent.congr {n i : Nat} {h h' : List Event} {x y : Text} {d : List UInt8} (a : Agree n h h') (hi : i < n) (t : Sent h i x y d) : Sent h' i x y d := by
  rcases t with ⟨r, h1⟩ | ⟨fd, r, h1, h2⟩
  · exact .inl ⟨r, by rw [← a i hi]; exact h1⟩
  · exact .inr ⟨fd, r, by rw [← a i hi]; exact h1, h2.congr a (by omega)⟩

theorem Latest.congr {n i : Nat} {h h' : List Event} {x : Text} (a : Agree n h h') (hi : i ≤ n) (t : Latest h i x) : Latest h' i x := by
  rcases t with ⟨k, o, d, h1, h2, h3, h4⟩ | ⟨k, r, h1, h2, h3, h4⟩ | ⟨h1, h2, h3⟩
  · exact .inl ⟨k, o, d, h1, h2.congr a (by omega), fun k' g1 g2 t => h3 k' g1 g2 (t.congr a.symm (by omega)),
      fun k' r g1 g2 => by rw [← a k' (by omega)]; exact h4 k' r g1 g2⟩
  · exact .inr (.inl ⟨k, r, h1, by rw [← a k (by omega)]; exact h2, fun k' g1 g2 t => h3 k' g1 g2 (t.congr a.symm (by omega)), h4⟩)
  · exact .inr (.inr ⟨fun k g t => h1 k g (t.congr a.symm (by omega)), fun k r g => by rw [← a k (by omega)]; exact h2 k r g, h3⟩)

theorem get_lt {h : List Event} {k : Nat} {e : Event} (hk : h[k]? = some e) : k < h.length := (List.getElem?_eq_some_iff.1 hk).1

theorem UsedUp.lt {h : List Event} {k i : Nat} (t : UsedUp h k i) : k < h.length := by
  obtain ⟨o, p, -, h1 | h1 | ⟨h1, -⟩⟩ := t <;> exact get_lt h1
theorem Fetched.lt {h : List Event} {k i : Nat} (t : Fetched h k i) : k < h.length := by
  obtain ⟨o, p, -, h1⟩ := t; exact get_lt h1
theorem Injected.lt {h : List Event} {k : Nat} {x : Text} (t : Injected h k x) : k < h.length := by
  obtain ⟨f, d, r, h1⟩ := t; exact get_lt h1
theorem SentAt.lt {h : List Event} {k : Nat} (t : SentAt h k) : k < h.length := by
  obtain ⟨o, r, h1, -⟩ := t; exact get_lt h1

theorem get_snoc (h : List Event) (x : Event) : (h ++ [x])[h.length]? = some x := by simp

theorem Apart.prefix {h t : List Event} (a : Apart (h ++ t)) : Apart h := by
  intro i j p q here other h1 h2 h3 h4 h5 h6
  have ag := (agree_append h t).symm
  refine a i j p q here other (h1.congr ag h1.lt) (h2.congr ag h2.lt) ?_ h4 h5 h6
  obtain ⟨k, r, g⟩ := h3
  refine ⟨k, r, ?_⟩
  rcases g with ⟨b, fd, g⟩ | ⟨b, fd, d, g⟩
  · exact .inl ⟨b, fd, by rw [← ag k (get_lt g)]; exact g⟩
  · exact .inr ⟨b, fd, d, by rw [← ag k (get_lt g)]; exact g⟩

/-- With one more call. -/
theorem cleared_snoc {h : List Event} {x : Event} {i : Nat} (t : Cleared (h ++ [x]) i (h.length + 1)) :
    Cleared h i h.length ∨ x.1 = .stop ∧ i < h.length := by
  obtain ⟨k, r, h1, h2, h3⟩ := t
  by_cases e : k = h.length
  · subst e
    rw [get_snoc] at h3
    simp at h3
    exact .inr ⟨by rw [h3], h1⟩
  · exact .inl ⟨k, r, h1, by omega, by rw [← agree_append h [x] k (by omega)]; exact h3⟩

theorem cleared_mono {h : List Event} {x : Event} {i : Nat} (t : Cleared h i h.length) : Cleared (h ++ [x]) i (h.length + 1) := by
  obtain ⟨k, r, h1, h2, h3⟩ := t
  exact ⟨k, r, h1, by omega, by rw [agree_append h [x] k h2]; exact h3⟩

/-- What the new call uses up. -/
def Uses (x : Event) (i : Nat) : Prop :=
  ∃ p : Packet, p.id = i ∧ (x.2 = .received p ∨ x.2 = .overrun p ∨ x.2 = .linked p ∧ p.data = [])

theorem usedUp_snoc {h : List Event} {x : Event} {k i : Nat} (t : UsedUp (h ++ [x]) k i) : UsedUp h k i ∨ Uses x i := by
  by_cases e : k < h.length
  · exact .inl (t.congr (agree_append h [x]) e)
  · have hl := t.lt
    simp at hl
    obtain rfl : k = h.length := by omega
    obtain ⟨o, p, h1, h2⟩ := t
    rw [get_snoc] at h2
    simp only [Option.some.injEq] at h2
    refine .inr ⟨p, h1, ?_⟩
    rcases h2 with h2 | h2 | ⟨h2, h3⟩
    · exact .inl (by rw [h2])
    · exact .inr (.inl (by rw [h2]))
    · exact .inr (.inr ⟨by rw [h2], h3⟩)

theorem usedUp_new {h : List Event} {x : Event} {i : Nat} (t : Uses x i) : UsedUp (h ++ [x]) h.length i := by
  obtain ⟨p, h1, h2⟩ := t
  refine ⟨x.1, p, h1, ?_⟩
  rw [get_snoc]
  rcases h2 with h2 | h2 | ⟨h2, h3⟩
  · exact .inl (by rw [← h2])
  · exact .inr (.inl (by rw [← h2]))
  · exact .inr (.inr ⟨by rw [← h2], h3⟩)

theorem usedUp_mono {h : List Event} {x : Event} {k i : Nat} (t : UsedUp h k i) : UsedUp (h ++ [x]) k i :=
  t.congr (agree_append h [x]).symm t.lt

/-! ### The packets that wait -/

/-- Where a packet comes from. -/
def Origin (h : List Event) (p : Packet) : Prop :=
  ∃ (f : Text) (r : Result), h[p.id]? = some (.inject f p.dest p.data, r) ∧ (f ≠ [] ∧ p.sender = f ∨ f = [] ∧ Latest h p.id p.sender)

theorem Origin.lt {h : List Event} {p : Packet} (t : Origin h p) : p.id < h.length := by
  obtain ⟨f, r, h1, -⟩ := t; exact get_lt h1

theorem Origin.congr {n : Nat} {h h' : List Event} {p : Packet} (a : Agree n h h') (hp : p.id < n) (t : Origin h p) : Origin h' p := by
  obtain ⟨f, r, h1, h2⟩ := t
  refine ⟨f, r, by rw [← a _ hp]; exact h1, ?_⟩
  rcases h2 with h2 | ⟨h2, h3⟩
  · exact .inl h2
  · exact .inr ⟨h2, h3.congr a (by omega)⟩

theorem Origin.injected {h : List Event} {p : Packet} (t : Origin h p) : Injected h p.id p.dest := by
  obtain ⟨f, r, h1, -⟩ := t; exact ⟨f, p.data, r, h1⟩

structure InvIn (l : List Packet) (h : List Event) : Prop where
  origin : ∀ p ∈ l, Origin h p
  nodup : l.Pairwise fun p q => p.id ≠ q.id
  fresh : ∀ p ∈ l, ¬ Cleared h p.id h.length ∧ ∀ k, ¬ UsedUp h k p.id
  all : ∀ i dest, Injected h i dest → ¬ Cleared h i h.length → (∀ k, ¬ UsedUp h k i) → ∃ p ∈ l, p.id = i
  past : ∀ k i, UsedUp h k i → i < h.length
  order : Apart h → l.Pairwise fun p q => ∀ L, Fits p.dest L → Fits q.dest L → p.id < q.id

theorem injected_snoc {h : List Event} {x : Event} {i : Nat} {dest : Text} (t : Injected (h ++ [x]) i dest) :
    Injected h i dest ∨ i = h.length ∧ ∃ f d, x.1 = .inject f dest d := by
  by_cases e : i < h.length
  · exact .inl (t.congr (agree_append h [x]) e)
  · have hl := t.lt
    simp at hl
    obtain rfl : i = h.length := by omega
    obtain ⟨f, d, r, h1⟩ := t
    rw [get_snoc] at h1
    simp at h1
    exact .inr ⟨rfl, f, d, by rw [h1]⟩

/-- Some packets leave. -/
theorem InvIn.leave {l l' : List Packet} {h : List Event} {x : Event} (I : InvIn l h) (hsub : l'.Sublist l)
    (hstop : x.1 = .stop → l' = []) (hinj : ∀ f t d, x.1 ≠ .inject f t d)
    (huse : ∀ i, Uses x i → (∃ p ∈ l, p.id = i) ∧ ∀ p ∈ l', p.id ≠ i)
    (hgone : ∀ p ∈ l, p ∉ l' → x.1 = .stop ∨ Uses x p.id) : InvIn l' (h ++ [x]) := by
  refine ⟨fun p hp => ?_, ?_, fun p hp => ⟨?_, ?_⟩, ?_, ?_, ?_⟩
  · have := I.origin p (hsub.subset hp)
    exact this.congr (agree_append h [x]).symm this.lt
  · exact I.nodup.sublist hsub
  · intro t
    rw [List.length_append] at t
    rcases cleared_snoc t with t | ⟨t, -⟩
    · exact (I.fresh p (hsub.subset hp)).1 t
    · rw [hstop t] at hp; simp at hp
  · intro k t
    rcases usedUp_snoc t with t | t
    · exact (I.fresh p (hsub.subset hp)).2 k t
    · exact (huse _ t).2 p hp rfl
  · intro i dest h1 h2 h3
    rw [List.length_append] at h2
    rcases injected_snoc h1 with h1 | ⟨-, f, d, h1⟩
    · obtain ⟨p, hp, rfl⟩ := I.all i dest h1 (fun t => h2 (cleared_mono t)) (fun k t => h3 k (usedUp_mono t))
      by_cases hp' : p ∈ l'
      · exact ⟨p, hp', rfl⟩
      · rcases hgone p hp hp' with g | g
        · exfalso
          apply h2
          have := (I.origin p hp).lt
          exact ⟨h.length, x.2, this, Nat.lt_succ_self _, by rw [get_snoc, ← g]⟩
        · exact (h3 _ (usedUp_new g)).elim
    · exact (hinj _ _ _ h1).elim
  · intro k i t
    rw [List.length_append]
    rcases usedUp_snoc t with t | t
    · have := I.past k i t; omega
    · obtain ⟨p, hp, rfl⟩ := (huse _ t).1
      have := (I.origin p hp).lt
      omega
  · intro a
    exact (I.order a.prefix).sublist hsub

theorem InvIn.inject {l : List Packet} {h : List Event} {f t : Text} {d : List UInt8} {last : Text} (I : InvIn l h)
    (hlast : Latest h h.length last) :
    InvIn (l ++ [⟨h.length, if f.isEmpty then last else f, t, d⟩]) (h ++ [(.inject f t d, .done)]) := by
  have ag := (agree_append h [(Op.inject f t d, Result.done)]).symm
  have nouse : ∀ i, ¬ Uses (Op.inject f t d, Result.done) i := by
    rintro i ⟨p, -, h | h | ⟨h, -⟩⟩ <;> simp at h
  refine ⟨fun p hp => ?_, ?_, fun p hp => ⟨?_, ?_⟩, ?_, ?_, ?_⟩
  · rcases List.mem_append.1 hp with hp | hp
    · exact (I.origin p hp).congr ag (I.origin p hp).lt
    · simp at hp
      subst hp
      refine ⟨f, .done, by simp, ?_⟩
      by_cases hf : f = []
      · right
        subst hf
        exact ⟨rfl, hlast.congr ag (Nat.le_refl _)⟩
      · left
        exact ⟨hf, by simp [hf]⟩
  · rw [List.pairwise_append]
    refine ⟨I.nodup, by simp, ?_⟩
    intro p hp q hq
    simp at hq
    subst hq
    have := (I.origin p hp).lt
    simp; omega
  · intro c
    rw [List.length_append] at c
    rcases cleared_snoc c with c | ⟨c, -⟩
    · rcases List.mem_append.1 hp with hp | hp
      · exact (I.fresh p hp).1 c
      · simp at hp
        subst hp
        obtain ⟨k, r, g1, g2, -⟩ := c
        simp at g1; omega
    · simp at c
  · intro k c
    rcases usedUp_snoc c with c | c
    · rcases List.mem_append.1 hp with hp | hp
      · exact (I.fresh p hp).2 k c
      · -- nothing has used up a packet that was not there
        simp at hp
        subst hp
        exact absurd (I.past k _ c) (Nat.lt_irrefl _)
    · exact nouse _ c
  · intro i dest h1 h2 h3
    rw [List.length_append] at h2
    rcases injected_snoc h1 with h1 | ⟨rfl, -⟩
    · obtain ⟨p, hp, e⟩ := I.all i dest h1 (fun t => h2 (cleared_mono t)) (fun k t => h3 k (usedUp_mono t))
      exact ⟨p, List.mem_append_left _ hp, e⟩
    · exact ⟨_, List.mem_append_right _ (List.mem_singleton.2 rfl), rfl⟩
  · intro k i c
    rw [List.length_append]
    rcases usedUp_snoc c with c | c
    · have := I.past k i c; omega
    · exact (nouse _ c).elim
  · intro a
    rw [List.pairwise_append]
    refine ⟨I.order a.prefix, by simp, ?_⟩
    intro p hp q hq L _ _
    simp at hq
    subst hq
    exact (I.origin p hp).lt

theorem InvIn.stop {l : List Packet} {h : List Event} {r : Result} (I : InvIn l h) (hr : r = .done) : InvIn [] (h ++ [(.stop, r)]) := by
  apply I.leave (List.nil_sublist _) (fun _ => rfl) (by simp)
  · rintro i ⟨p, -, h | h | ⟨h, -⟩⟩ <;> simp [hr] at h
  · intro p _ _; exact .inl rfl

/-- A call that concerns no waiting packet. -/
theorem InvIn.keep {l : List Packet} {h : List Event} {x : Event} (I : InvIn l h) (hstop : x.1 ≠ .stop)
    (hinj : ∀ f t d, x.1 ≠ .inject f t d) (huse : ∀ i, ¬ Uses x i) : InvIn l (h ++ [x]) := by
  apply I.leave (List.Sublist.refl _) (fun t => absurd t hstop) hinj
  · intro i t; exact (huse i t).elim
  · intro p h1 h2; exact (h2 h1).elim

theorem nodup_split {a b : List Packet} {p : Packet} (h : (a ++ p :: b).Pairwise fun p q => p.id ≠ q.id) :
    ∀ q ∈ a ++ b, q.id ≠ p.id := by
  rw [List.pairwise_append, List.pairwise_cons] at h
  obtain ⟨-, ⟨h2, -⟩, h3⟩ := h
  intro q hq
  rcases List.mem_append.1 hq with hq | hq
  · exact h3 q hq p (List.mem_cons_self)
  · exact fun e => h2 q hq e.symm

/-- One packet is used up. -/
theorem InvIn.use {a b : List Packet} {p : Packet} {h : List Event} {x : Event} (I : InvIn (a ++ p :: b) h) (hstop : x.1 ≠ .stop)
    (hinj : ∀ f t d, x.1 ≠ .inject f t d) (huse : ∀ i, Uses x i ↔ i = p.id) : InvIn (a ++ b) (h ++ [x]) := by
  have hn := nodup_split I.nodup
  apply I.leave (List.Sublist.append_left (List.sublist_cons_self _ _) _) (fun t => absurd t hstop) hinj
  · intro i t
    obtain rfl := (huse i).1 t
    exact ⟨⟨p, by simp, rfl⟩, hn⟩
  · intro q h1 h2
    right
    rw [huse]
    simp only [List.mem_append, List.mem_cons, not_or] at h1 h2
    rcases h1 with h1 | rfl | h1
    · exact (h2.1 h1).elim
    · rfl
    · exact (h2.2 h1).elim

/-- One packet moves to the front. -/
theorem InvIn.front {a b : List Packet} {p : Packet} {h : List Event} {x : Event} (I : InvIn (a ++ p :: b) h) (hstop : x.1 ≠ .stop)
    (hinj : ∀ f t d, x.1 ≠ .inject f t d) (huse : ∀ i, ¬ Uses x i) (here : Text)
    (hopen : Opens (h ++ [x]) here) (hp : Fits p.dest here) (ha : ∀ q ∈ a, ¬ Fits q.dest here) : InvIn (p :: (a ++ b)) (h ++ [x]) := by
  have K := I.keep hstop hinj huse
  have hmem : ∀ q, q ∈ p :: (a ++ b) ↔ q ∈ a ++ p :: b := by
    intro q; simp only [List.mem_cons, List.mem_append]; constructor
    · rintro (h | h | h) <;> simp [h]
    · rintro (h | h | h) <;> simp [h]
  refine ⟨fun q hq => K.origin q ((hmem q).1 hq), ?_, fun q hq => K.fresh q ((hmem q).1 hq), ?_, K.past, ?_⟩
  · rw [List.pairwise_cons]
    exact ⟨fun q hq e => nodup_split K.nodup q hq e.symm, K.nodup.sublist (List.Sublist.append_left (List.sublist_cons_self _ _) _)⟩
  · intro i dest h1 h2 h3
    obtain ⟨q, hq, e⟩ := K.all i dest h1 h2 h3
    exact ⟨q, (hmem q).2 hq, e⟩
  · intro ap
    have ho := K.order ap
    rw [List.pairwise_cons]
    refine ⟨?_, ho.sublist (List.Sublist.append_left (List.sublist_cons_self _ _) _)⟩
    intro q hq L h1 h2
    rcases List.mem_append.1 hq with hq | hq
    · exfalso
      apply ha q hq
      exact ap _ _ _ _ here L (K.origin p (by simp)).injected (K.origin q (by simp [hq])).injected hopen hp h1 h2
    · rw [List.pairwise_append, List.pairwise_cons] at ho
      exact ho.2.1.1 q hq L h1 h2

/-- The walk. -/
theorem take_some {wild : Text → Text → Bool} {here : Text} {l l' : List Packet} {p : Packet} (h : take wild here l = some (p, l')) :
    ∃ a b, l = a ++ p :: b ∧ l' = a ++ b ∧ wild p.dest here = true ∧ ∀ q ∈ a, wild q.dest here = false := by
  induction l generalizing l' with
  | nil => simp [take] at h
  | cons q l ih =>
    simp only [take] at h
    split at h
    · rename_i hq
      simp at h
      obtain ⟨rfl, rfl⟩ := h
      exact ⟨[], l, rfl, rfl, hq, by simp⟩
    · rename_i hq
      obtain ⟨⟨p', r⟩, h1, h2⟩ := Option.map_eq_some_iff.1 h
      simp at h2
      obtain ⟨rfl, rfl⟩ := h2
      obtain ⟨a, b, e1, e2, h3, h4⟩ := ih h1
      refine ⟨q :: a, b, by rw [e1]; rfl, by rw [e2]; rfl, h3, ?_⟩
      intro x hx
      rcases List.mem_cons.1 hx with rfl | hx
      · simpa using hq
      · exact h4 x hx

theorem take_none {wild : Text → Text → Bool} {here : Text} {l : List Packet} (h : take wild here l = none) :
    ∀ q ∈ l, wild q.dest here = false := by
  induction l with
  | nil => simp
  | cons q l ih =>
    simp only [take] at h
    split at h
    · simp at h
    · rename_i hq
      intro x hx
      rcases List.mem_cons.1 hx with rfl | hx
      · simpa using hq
      · exact ih (Option.map_eq_none_iff.1 h) x hx

/-! ### The packets sent -/

structure InvOut (l : List Packet) (h : List Event) : Prop where
  origin : ∀ p ∈ l, p.id < h.length ∧ Sent h p.id p.sender p.dest p.data
  order : l.Pairwise fun p q => p.id < q.id
  fresh : ∀ p ∈ l, ¬ Cleared h p.id h.length ∧ ∀ k, ¬ Fetched h k p.id
  all : ∀ i, SentAt h i → ¬ Cleared h i h.length → (∀ k, ¬ Fetched h k i) → ∃ p ∈ l, p.id = i
  past : ∀ k i, Fetched h k i → i < h.length

theorem fetched_snoc {h : List Event} {x : Event} {k i : Nat} (t : Fetched (h ++ [x]) k i) :
    Fetched h k i ∨ ∃ p : Packet, p.id = i ∧ x.2 = .fetched (some p) := by
  by_cases e : k < h.length
  · exact .inl (t.congr (agree_append h [x]) e)
  · have hl := t.lt
    simp at hl
    obtain rfl : k = h.length := by omega
    obtain ⟨o, p, h1, h2⟩ := t
    rw [get_snoc] at h2
    simp only [Option.some.injEq] at h2
    exact .inr ⟨p, h1, by rw [h2]⟩

theorem fetched_mono {h : List Event} {x : Event} {k i : Nat} (t : Fetched h k i) : Fetched (h ++ [x]) k i :=
  t.congr (agree_append h [x]).symm t.lt

theorem sentAt_snoc {h : List Event} {x : Event} {i : Nat} (t : SentAt (h ++ [x]) i) :
    SentAt h i ∨ i = h.length ∧ ((∃ fd d, x.1 = .send fd d) ∨ ∃ a b d, x.1 = .sendto a b d) := by
  by_cases e : i < h.length
  · exact .inl (t.congr (agree_append h [x]) e)
  · have hl := t.lt
    simp at hl
    obtain rfl : i = h.length := by omega
    obtain ⟨o, r, h1, h2⟩ := t
    rw [get_snoc] at h1
    simp at h1
    exact .inr ⟨rfl, by rw [h1]; exact h2⟩

theorem InvOut.leave {l l' : List Packet} {h : List Event} {x : Event} (I : InvOut l h) (hsub : l'.Sublist l)
    (hstop : x.1 = .stop → l' = []) (hsend : ¬ ((∃ fd d, x.1 = .send fd d) ∨ ∃ a b d, x.1 = .sendto a b d))
    (hget : ∀ p, x.2 = .fetched (some p) → p ∈ l ∧ ∀ q ∈ l', q.id ≠ p.id)
    (hgone : ∀ p ∈ l, p ∉ l' → x.1 = .stop ∨ x.2 = .fetched (some p)) : InvOut l' (h ++ [x]) := by
  have ag := (agree_append h [x]).symm
  refine ⟨fun p hp => ?_, I.order.sublist hsub, fun p hp => ⟨?_, ?_⟩, ?_, ?_⟩
  · obtain ⟨h1, h2⟩ := I.origin p (hsub.subset hp)
    exact ⟨by rw [List.length_append]; omega, h2.congr ag h1⟩
  · intro t
    rw [List.length_append] at t
    rcases cleared_snoc t with t | ⟨t, -⟩
    · exact (I.fresh p (hsub.subset hp)).1 t
    · rw [hstop t] at hp; simp at hp
  · intro k t
    rcases fetched_snoc t with t | ⟨q, e, t⟩
    · exact (I.fresh p (hsub.subset hp)).2 k t
    · exact (hget q t).2 p hp e.symm
  · intro i h1 h2 h3
    rw [List.length_append] at h2
    rcases sentAt_snoc h1 with h1 | ⟨-, h1⟩
    · obtain ⟨p, hp, rfl⟩ := I.all i h1 (fun t => h2 (cleared_mono t)) (fun k t => h3 k (fetched_mono t))
      by_cases hp' : p ∈ l'
      · exact ⟨p, hp', rfl⟩
      · rcases hgone p hp hp' with g | g
        · exfalso
          apply h2
          exact ⟨h.length, x.2, (I.origin p hp).1, Nat.lt_succ_self _, by rw [get_snoc, ← g]⟩
        · exact (h3 h.length ⟨x.1, p, rfl, by rw [get_snoc, ← g]⟩).elim
    · exact (hsend h1).elim
  · intro k i t
    rw [List.length_append]
    rcases fetched_snoc t with t | ⟨p, e, g⟩
    · have := I.past k i t; omega
    · have := (I.origin p (hget p g).1).1; omega

theorem InvOut.keep {l : List Packet} {h : List Event} {x : Event} (I : InvOut l h) (hstop : x.1 ≠ .stop)
    (hsend : ¬ ((∃ fd d, x.1 = .send fd d) ∨ ∃ a b d, x.1 = .sendto a b d)) (hget : ∀ p, x.2 ≠ .fetched (some p)) : InvOut l (h ++ [x]) :=
  I.leave (List.Sublist.refl _) (fun t => absurd t hstop) hsend (fun p t => (hget p t).elim) (fun p h1 h2 => (h2 h1).elim)

theorem InvOut.put {l : List Packet} {h : List Event} {x : Event} (I : InvOut l h) (p : Packet) (hid : p.id = h.length)
    (hs : Sent (h ++ [x]) h.length p.sender p.dest p.data) (hstop : x.1 ≠ .stop) (hget : ∀ p, x.2 ≠ .fetched (some p)) :
    InvOut (l ++ [p]) (h ++ [x]) := by
  have ag := (agree_append h [x]).symm
  refine ⟨fun q hq => ?_, ?_, fun q hq => ⟨?_, ?_⟩, ?_, ?_⟩
  · rcases List.mem_append.1 hq with hq | hq
    · obtain ⟨h1, h2⟩ := I.origin q hq
      exact ⟨by rw [List.length_append]; omega, h2.congr ag h1⟩
    · simp at hq
      subst hq
      rw [hid]
      exact ⟨by simp, hs⟩
  · rw [List.pairwise_append]
    refine ⟨I.order, by simp, ?_⟩
    intro q hq q' hq'
    simp at hq'
    subst hq'
    rw [hid]
    exact (I.origin q hq).1
  · intro t
    rw [List.length_append] at t
    rcases cleared_snoc t with t | ⟨t, -⟩
    · rcases List.mem_append.1 hq with hq | hq
      · exact (I.fresh q hq).1 t
      · simp at hq
        subst hq
        obtain ⟨k, r, g1, g2, -⟩ := t
        omega
    · exact hstop t
  · intro k t
    rcases fetched_snoc t with t | ⟨q, e, t⟩
    · rcases List.mem_append.1 hq with hq | hq
      · exact (I.fresh q hq).2 k t
      · simp at hq
        subst hq
        have := I.past k _ t
        omega
    · exact hget q t
  · intro i h1 h2 h3
    rw [List.length_append] at h2
    rcases sentAt_snoc h1 with h1 | ⟨h1, -⟩
    · obtain ⟨q, hq, e⟩ := I.all i h1 (fun t => h2 (cleared_mono t)) (fun k t => h3 k (fetched_mono t))
      exact ⟨q, List.mem_append_left _ hq, e⟩
    · exact ⟨p, by simp, by rw [hid, h1]⟩
  · intro k i t
    rw [List.length_append]
    rcases fetched_snoc t with t | ⟨q, -, t⟩
    · have := I.past k i t; omega
    · exact (hget q t).elim

/-! ### Ends and the latest destination -/

def InvEnds (l : List Peer) (h : List Event) : Prop :=
  ∀ fd, match l.find? (·.fd == fd) with
    | none => Ends h h.length fd [] [] ∧ ∀ k own peer, ¬ Tied h k fd own peer
    | some t => ∃ k, k < h.length ∧ Tied h k fd t.sender t.dest ∧ ∀ k' own' peer', k' < k → ¬ Tied h k' fd own' peer'

theorem Tied.lt {h : List Event} {k fd : Nat} {x y : Text} (t : Tied h k fd x y) : k < h.length := by
  rcases t with ⟨b, p, h1, -⟩ | ⟨b, r, h1⟩ <;> exact get_lt h1

theorem InvEnds.ends {l : List Peer} {h : List Event} (I : InvEnds l h) (fd : Nat) :
    match l.find? (·.fd == fd) with
    | none => Ends h h.length fd [] []
    | some t => Ends h h.length fd t.sender t.dest := by
  have := I fd
  split at this
  · exact this.1
  · obtain ⟨k, h1, h2, h3⟩ := this
    exact .inl ⟨k, h1, h2, h3⟩

theorem InvEnds.keep {l : List Peer} {h : List Event} {x : Event} (I : InvEnds l h)
    (hno : ∀ fd own peer, ¬ Tied (h ++ [x]) h.length fd own peer) : InvEnds l (h ++ [x]) := by
  have ag := agree_append h [x]
  have key : ∀ k fd own peer, Tied (h ++ [x]) k fd own peer → Tied h k fd own peer := by
    intro k fd own peer t
    by_cases e : k < h.length
    · exact t.congr ag e
    · have hl := t.lt
      simp at hl
      obtain rfl : k = h.length := by omega
      exact (hno _ _ _ t).elim
  intro fd
  have := I fd
  split at this
  · refine ⟨.inr ⟨fun k o p _ t => this.2 k o p (key _ _ _ _ t), rfl, rfl⟩, fun k o p t => this.2 k o p (key _ _ _ _ t)⟩
  · obtain ⟨k, h1, h2, h3⟩ := this
    exact ⟨k, by rw [List.length_append]; omega, h2.congr ag.symm h1, fun k' o p hk t => h3 k' o p hk (key _ _ _ _ t)⟩

theorem InvEnds.add {l : List Peer} {h : List Event} {x : Event} (I : InvEnds l h) (t : Peer)
    (ht : Tied (h ++ [x]) h.length t.fd t.sender t.dest) (honly : ∀ fd own peer, Tied (h ++ [x]) h.length fd own peer → fd = t.fd) :
    InvEnds (l ++ [t]) (h ++ [x]) := by
  have ag := agree_append h [x]
  intro fd
  have := I fd
  rw [List.find?_append]
  cases hf : l.find? (·.fd == fd) with
  | some t' =>
    rw [hf] at this
    obtain ⟨k, h1, h2, h3⟩ := this
    simp only [Option.some_or]
    exact ⟨k, by rw [List.length_append]; omega, h2.congr ag.symm h1, fun k' o p hk u => h3 k' o p hk (u.congr ag (by omega))⟩
  | none =>
    rw [hf] at this
    simp only [Option.none_or]
    by_cases e : t.fd = fd
    · have e' : [t].find? (·.fd == fd) = some t := by simp [e]
      rw [e']
      subst e
      exact ⟨h.length, by simp, ht, fun k' o p hk u => this.2 k' o p (u.congr ag hk)⟩
    · have e' : [t].find? (·.fd == fd) = none := by simp [e]
      rw [e']
      have key : ∀ k own peer, ¬ Tied (h ++ [x]) k fd own peer := by
        intro k own peer u
        by_cases hk : k < h.length
        · exact this.2 k own peer (u.congr ag hk)
        · have hl := u.lt
          simp at hl
          obtain rfl : k = h.length := by omega
          exact e (honly _ _ _ u).symm
      exact ⟨.inr ⟨fun k o p _ u => key k o p u, rfl, rfl⟩, key⟩

theorem latest_keep {h : List Event} {x : Event} {last : Text} (t : Latest h h.length last) (hsend : ¬ SentAt (h ++ [x]) h.length)
    (hstart : x.1 ≠ .start) : Latest (h ++ [x]) (h.length + 1) last := by
  have ag := agree_append h [x]
  have hs : ∀ k, k < h.length + 1 → SentAt (h ++ [x]) k → k < h.length ∧ SentAt h k := by
    intro k hk t
    by_cases e : k = h.length
    · subst e; exact (hsend t).elim
    · exact ⟨by omega, t.congr ag (by omega)⟩
  have hst : ∀ k r, k < h.length + 1 → (h ++ [x])[k]? = some (.start, r) → k < h.length ∧ h[k]? = some (.start, r) := by
    intro k r hk t
    by_cases e : k = h.length
    · subst e
      rw [get_snoc] at t
      simp at t
      exact (hstart (by rw [t])).elim
    · exact ⟨by omega, by rw [← ag k (by omega)]; exact t⟩
  rcases t with ⟨k, o, d, h1, h2, h3, h4⟩ | ⟨k, r, h1, h2, h3, h4⟩ | ⟨h1, h2, h3⟩
  · refine .inl ⟨k, o, d, by omega, h2.congr ag.symm h1, fun k' g1 g2 t => ?_, fun k' r g1 g2 t => ?_⟩
    · obtain ⟨g3, g4⟩ := hs k' g2 t
      exact h3 k' g1 g3 g4
    · obtain ⟨g3, g4⟩ := hst k' r g2 t
      exact h4 k' r g1 g3 g4
  · refine .inr (.inl ⟨k, r, by omega, by rw [ag k h1]; exact h2, fun k' g1 g2 t => ?_, h4⟩)
    obtain ⟨g3, g4⟩ := hs k' g2 t
    exact h3 k' g1 g3 g4
  · refine .inr (.inr ⟨fun k g t => ?_, fun k r g t => ?_, h3⟩)
    · obtain ⟨g3, g4⟩ := hs k g t
      exact h1 k g3 g4
    · obtain ⟨g3, g4⟩ := hst k r g t
      exact h2 k r g3 g4

theorem latest_sent {h : List Event} {x : Event} {own dest : Text} {d : List UInt8} (t : Sent (h ++ [x]) h.length own dest d) :
    Latest (h ++ [x]) (h.length + 1) dest :=
  .inl ⟨h.length, own, d, by omega, t, fun k' g1 g2 => by omega, fun k' r g1 g2 => by omega⟩

theorem latest_start (h : List Event) (r : Result) : Latest (h ++ [(.start, r)]) (h.length + 1) "0.0.0.0:0".toList :=
  .inr (.inl ⟨h.length, r, by omega, get_snoc _ _, fun k' g1 g2 => by omega, rfl⟩)

end H2.Sock
