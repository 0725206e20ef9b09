import Verif.Sock.Lemmas
namespace H2.Sock

structure Inv (s : St) (h : List Event) : Prop where
  now : s.now = h.length
  incoming : InvIn s.incoming h
  outgoing : InvOut s.outgoing h
  ends : InvEnds s.sockets h
  latest : Latest h h.length s.lastTo

theorem not_tied {h : List Event} {x : Event} (h1 : ∀ a b fd p, x ≠ (.accept a b fd, .linked p)) (h2 : ∀ a b fd d, x.1 ≠ .connect a b fd d) :
    ∀ fd own peer, ¬ Tied (h ++ [x]) h.length fd own peer := by
  rintro fd own peer (⟨b, p, g, -⟩ | ⟨b, r, g⟩)
  · rw [get_snoc] at g
    simp at g
    exact h1 _ _ _ _ g
  · rw [get_snoc] at g
    simp at g
    exact h2 _ _ _ _ (by rw [g])

theorem not_sentAt {h : List Event} {x : Event} (h1 : ∀ fd d, x.1 ≠ .send fd d) (h2 : ∀ a b d, x.1 ≠ .sendto a b d) :
    ¬ SentAt (h ++ [x]) h.length := by
  rintro ⟨o, r, g1, ⟨fd, d, g2⟩ | ⟨a, b, d, g2⟩⟩
  · rw [get_snoc] at g1; simp at g1; exact h1 fd d (by rw [g1, g2])
  · rw [get_snoc] at g1; simp at g1; exact h2 a b d (by rw [g1, g2])

theorem no_use {o : Op} {r : Result} (h1 : ∀ p, r ≠ .received p) (h2 : ∀ p, r ≠ .overrun p) (h3 : ∀ p, r ≠ .linked p) : ∀ i, ¬ Uses (o, r) i := by
  rintro i ⟨p, -, g | g | ⟨g, -⟩⟩
  · exact h1 p g
  · exact h2 p g
  · exact h3 p g

theorem use_one {o : Op} {r : Result} {p : Packet} (h : r = .received p ∨ r = .overrun p ∨ r = .linked p ∧ p.data = []) :
    ∀ i, Uses (o, r) i ↔ i = p.id := by
  intro i
  constructor
  · rintro ⟨q, rfl, g⟩
    rcases h with h | h | ⟨h, h'⟩ <;> subst h <;> simp at g
    · rw [g]
    · rw [g]
    · rw [g.1]
  · rintro rfl
    exact ⟨p, rfl, h⟩

/-- One call keeps the invariant. -/
theorem inv_next {wild : Text → Text → Bool} (hw : IsWildcard wild) {s : St} {h : List Event} (I : Inv s h) (o : Op) :
    Inv (next wild (s, h) o).1 (next wild (s, h) o).2 := by
  have hlen : ∀ x : Event, s.now + 1 = (h ++ [x]).length := by intro x; rw [I.now]; simp
  have hl : ∀ x : Event, (h ++ [x]).length = h.length + 1 := by intro x; simp
  have hfits : ∀ p here, wild p here = false → ¬ Fits p here := by
    intro p here g t; rw [← fits_iff hw, g] at t; simp at t
  -- a call that sends nothing
  have rest : ∀ (x : Event) (s' : St), (∀ fd d, x.1 ≠ .send fd d) → (∀ a b d, x.1 ≠ .sendto a b d) → x.1 ≠ .start → x.1 ≠ .stop →
      (∀ p, x.2 ≠ .fetched (some p)) → s'.now = s.now + 1 → s'.outgoing = s.outgoing → s'.lastTo = s.lastTo →
      InvIn s'.incoming (h ++ [x]) → InvEnds s'.sockets (h ++ [x]) → Inv s' (h ++ [x]) := by
    intro x s' h1 h2 h3 h4 h5 e1 e2 e3 h6 h7
    refine ⟨by rw [e1]; exact hlen x, h6, ?_, h7, ?_⟩
    · rw [e2]
      apply I.outgoing.keep h4 _ h5
      rintro (⟨fd, d, g⟩ | ⟨a, b, d, g⟩)
      · exact h1 _ _ g
      · exact h2 _ _ _ g
    · rw [e3, hl]
      exact latest_keep I.latest (not_sentAt h1 h2) h3
  cases o with
  | start =>
    simp only [next, step]
    refine ⟨hlen _, I.incoming.keep (by simp) (by simp) (no_use (by simp) (by simp) (by simp)), I.outgoing.keep (by simp) (by simp) (by simp),
      I.ends.keep (not_tied (by simp) (by simp)), ?_⟩
    rw [hl]
    exact latest_start h .done
  | stop =>
    simp only [next, step]
    refine ⟨hlen _, I.incoming.stop rfl, ?_, I.ends.keep (not_tied (by simp) (by simp)), ?_⟩
    · exact I.outgoing.leave (List.nil_sublist _) (fun _ => rfl) (by simp) (by simp) (fun p _ _ => .inl rfl)
    · rw [hl]
      exact latest_keep I.latest (not_sentAt (by simp) (by simp)) (by simp)
  | inject f t d =>
    simp only [next, step]
    refine rest _ _ (by simp) (by simp) (by simp) (by simp) (by simp) rfl rfl rfl ?_ ?_
    · have := I.incoming.inject (f := f) (t := t) (d := d) I.latest
      rw [I.now]
      exact this
    · exact I.ends.keep (not_tied (by simp) (by simp))
  | recv here block length =>
    simp only [next, step]
    cases ht : take wild here s.incoming with
    | none =>
      have hr : absent block = .waiting ∨ absent block = .nothing := by unfold absent; split <;> simp
      refine rest _ _ (by simp) (by simp) (by simp) (by simp) (by rcases hr with e | e <;> simp [e]) rfl rfl rfl ?_ ?_
      · exact I.incoming.keep (by simp) (by simp) (no_use (by rcases hr with e | e <;> simp [e]) (by rcases hr with e | e <;> simp [e])
          (by rcases hr with e | e <;> simp [e]))
      · exact I.ends.keep (not_tied (by simp) (by simp))
    | some r =>
      obtain ⟨p, l⟩ := r
      obtain ⟨a, b, e1, e2, g1, g2⟩ := take_some ht
      subst e2
      have hr : ∀ q, (if p.data.length ≤ length then Result.received p else .overrun p) ≠ .fetched (some q) := by
        intro q; split <;> simp
      refine rest _ _ (by simp) (by simp) (by simp) (by simp) hr rfl rfl rfl ?_ ?_
      · have II := I.incoming
        rw [e1] at II
        exact II.use (by simp) (by simp) (use_one (by by_cases hlen : p.data.length ≤ length <;> simp [hlen]))
      · exact I.ends.keep (not_tied (by simp) (by simp))
  | accept here block fd =>
    simp only [next, step]
    cases ht : take wild here s.incoming with
    | none =>
      have hr : absent block = .waiting ∨ absent block = .nothing := by unfold absent; split <;> simp
      refine rest _ _ (by simp) (by simp) (by simp) (by simp) (by rcases hr with e | e <;> simp [e]) rfl rfl rfl ?_ ?_
      · exact I.incoming.keep (by simp) (by simp) (no_use (by rcases hr with e | e <;> simp [e]) (by rcases hr with e | e <;> simp [e])
          (by rcases hr with e | e <;> simp [e]))
      · exact I.ends.keep (not_tied (by rcases hr with e | e <;> simp [e]) (by simp))
    | some r =>
      obtain ⟨p, l⟩ := r
      obtain ⟨a, b, e1, e2, g1, g2⟩ := take_some ht
      subst e2
      refine rest _ _ (by simp) (by simp) (by simp) (by simp) (by simp) rfl rfl rfl ?_ ?_
      · have II := I.incoming
        rw [e1] at II
        simp only [putBack]
        by_cases hd : p.data = []
        · rw [if_pos (by simp [hd])]
          exact II.use (by simp) (by simp) (use_one (by simp [hd]))
        · rw [if_neg (by simp [hd])]
          refine II.front (by simp) (by simp) ?_ here ?_ ((fits_iff hw _ _).1 g1) (fun q hq => hfits _ _ (g2 q hq))
          · rintro i ⟨q, -, g | g | ⟨g, g'⟩⟩ <;> simp at g
            subst g
            exact hd g'
          · exact ⟨h.length, .linked p, .inl ⟨block, fd, get_snoc _ _⟩⟩
      · exact I.ends.add ⟨fd, here, p.sender⟩ (.inl ⟨block, p, get_snoc _ _, rfl⟩) (by
          rintro fd' own peer (⟨b', q, g, -⟩ | ⟨b', r, g⟩)
          · rw [get_snoc] at g; simp at g; exact g.1.2.2.symm
          · rw [get_snoc] at g; simp at g)
  | connect here block fd dest =>
    simp only [next, step]
    cases ht : take wild here s.incoming with
    | none =>
      have hr : absent block = .waiting ∨ absent block = .nothing := by unfold absent; split <;> simp
      refine rest _ _ (by simp) (by simp) (by simp) (by simp) (by rcases hr with e | e <;> simp [e]) rfl rfl rfl ?_ ?_
      · exact I.incoming.keep (by simp) (by simp) (no_use (by rcases hr with e | e <;> simp [e]) (by rcases hr with e | e <;> simp [e])
          (by rcases hr with e | e <;> simp [e]))
      · exact I.ends.add ⟨fd, here, dest⟩ (.inr ⟨block, _, get_snoc _ _⟩) (by
          rintro fd' own peer (⟨b', q, g, -⟩ | ⟨b', r, g⟩)
          · rw [get_snoc] at g; simp at g
          · rw [get_snoc] at g; simp at g; exact g.1.2.2.1.symm)
    | some r =>
      obtain ⟨p, l⟩ := r
      obtain ⟨a, b, e1, e2, g1, g2⟩ := take_some ht
      subst e2
      refine rest _ _ (by simp) (by simp) (by simp) (by simp) (by simp) rfl rfl rfl ?_ ?_
      · have II := I.incoming
        rw [e1] at II
        simp only [putBack]
        by_cases hd : p.data = []
        · rw [if_pos (by simp [hd])]
          exact II.use (by simp) (by simp) (use_one (by simp [hd]))
        · rw [if_neg (by simp [hd])]
          refine II.front (by simp) (by simp) ?_ here ?_ ((fits_iff hw _ _).1 g1) (fun q hq => hfits _ _ (g2 q hq))
          · rintro i ⟨q, -, g | g | ⟨g, g'⟩⟩ <;> simp at g
            subst g
            exact hd g'
          · exact ⟨h.length, .linked p, .inr ⟨block, fd, dest, get_snoc _ _⟩⟩
      · exact I.ends.add ⟨fd, here, dest⟩ (.inr ⟨block, _, get_snoc _ _⟩) (by
          rintro fd' own peer (⟨b', q, g, -⟩ | ⟨b', r, g⟩)
          · rw [get_snoc] at g; simp at g
          · rw [get_snoc] at g; simp at g; exact g.1.2.2.1.symm)
  | send fd data =>
    have key : ∀ own peer, Ends h h.length fd own peer →
        Inv { putOutgoing s own peer data with now := s.now + 1 } (h ++ [(.send fd data, .done)]) := by
      intro own peer he
      have hs : Sent (h ++ [(Op.send fd data, Result.done)]) h.length own peer data :=
        .inr ⟨fd, .done, get_snoc _ _, he.congr (agree_append h _).symm (Nat.le_refl _)⟩
      refine ⟨hlen _, I.incoming.keep (by simp) (by simp) (no_use (by simp) (by simp) (by simp)), ?_,
        I.ends.keep (not_tied (by simp) (by simp)), ?_⟩
      · exact I.outgoing.put ⟨s.now, own, peer, data⟩ I.now hs (by simp) (by simp)
      · rw [hl]
        exact latest_sent hs
    have := I.ends.ends fd
    simp only [next, step]
    cases hf : s.sockets.find? (·.fd == fd) with
    | none => rw [hf] at this; exact key _ _ this
    | some t => rw [hf] at this; exact key _ _ this
  | sendto own peer data =>
    simp only [next, step]
    have hs : Sent (h ++ [(Op.sendto own peer data, Result.done)]) h.length own peer data := .inl ⟨.done, get_snoc _ _⟩
    refine ⟨hlen _, I.incoming.keep (by simp) (by simp) (no_use (by simp) (by simp) (by simp)), ?_,
      I.ends.keep (not_tied (by simp) (by simp)), ?_⟩
    · exact I.outgoing.put ⟨s.now, own, peer, data⟩ I.now hs (by simp) (by simp)
    · rw [hl]
      exact latest_sent hs
  | fetch =>
    simp only [next, step]
    cases ho : s.outgoing with
    | nil =>
      refine rest _ _ (by simp) (by simp) (by simp) (by simp) (by simp) rfl rfl rfl ?_ ?_
      · exact I.incoming.keep (by simp) (by simp) (no_use (by simp) (by simp) (by simp))
      · exact I.ends.keep (not_tied (by simp) (by simp))
    | cons p l =>
      refine ⟨hlen _, I.incoming.keep (by simp) (by simp) (no_use (by simp) (by simp) (by simp)), ?_,
        I.ends.keep (not_tied (by simp) (by simp)), ?_⟩
      · have II := I.outgoing
        rw [ho] at II
        apply II.leave (List.sublist_cons_self _ _) (by simp) (by simp)
        · intro q hq
          simp at hq
          subst hq
          refine ⟨by simp, fun q' hq' e => ?_⟩
          have := (List.pairwise_cons.1 II.order).1 q' hq'
          omega
        · intro q h1 h2
          right
          rcases List.mem_cons.1 h1 with rfl | h1
          · rfl
          · exact (h2 h1).elim
      · rw [hl]
        exact latest_keep I.latest (not_sentAt (by simp) (by simp)) (by simp)

theorem inv_start : Inv {} [] := by
  refine ⟨rfl, ⟨by simp, by simp, by simp, ?_, ?_, by simp⟩, ⟨by simp, by simp, by simp, ?_, ?_⟩, ?_, ?_⟩
  · rintro i dest h; exact absurd h.lt (by simp)
  · rintro k i h; exact absurd h.lt (by simp)
  · rintro i h; exact absurd h.lt (by simp)
  · rintro k i h; exact absurd h.lt (by simp)
  · intro fd
    exact ⟨.inr ⟨fun k o p hk => by simp at hk, rfl, rfl⟩, fun k o p t => absurd t.lt (by simp)⟩
  · exact .inr (.inr ⟨fun k hk => by simp at hk, fun k r hk => by simp at hk, rfl⟩)

/-! ### Histories -/

theorem run_snoc (wild : Text → Text → Bool) (ops : List Op) (o : Op) : run wild (ops ++ [o]) = next wild (run wild ops) o := by
  unfold run; rw [List.foldl_append]; rfl

theorem run_inv {wild : Text → Text → Bool} (hw : IsWildcard wild) (ops : List Op) : Inv (run wild ops).1 (run wild ops).2 := by
  have : ∀ n, ∀ ops : List Op, ops.length = n → Inv (run wild ops).1 (run wild ops).2 := by
    intro n
    induction n with
    | zero => intro ops h; rw [List.length_eq_zero_iff.1 h]; exact inv_start
    | succ n ih =>
      intro ops h
      have hne : ops ≠ [] := by intro e; simp [e] at h
      rw [← List.dropLast_concat_getLast hne, run_snoc]
      exact inv_next hw (ih _ (by simp [h])) _
  exact this _ ops rfl

theorem foldl_next (wild : Text → Text → Bool) (ops : List Op) (x : St × List Event) :
    ∃ t, (ops.foldl (next wild) x).2 = x.2 ++ t ∧ t.length = ops.length := by
  induction ops generalizing x with
  | nil => exact ⟨[], by simp, rfl⟩
  | cons o ops ih =>
    obtain ⟨t, h1, h2⟩ := ih (next wild x o)
    refine ⟨(o, (step wild x.1 o).2) :: t, ?_, by simp [h2]⟩
    rw [List.foldl_cons, h1]
    simp [next]

/-- The history when call `k` is made, and what it gives. -/
theorem run_at (wild : Text → Text → Bool) (ops : List Op) (k : Nat) (e : Event) (h : (run wild ops).2[k]? = some e) :
    ∃ o t, e = (o, (step wild (run wild (ops.take k)).1 o).2) ∧ (run wild ops).2 = (run wild (ops.take k)).2 ++ e :: t ∧
      (run wild (ops.take k)).2.length = k := by
  have hlen : (run wild ops).2.length = ops.length := by
    obtain ⟨t, h1, h2⟩ := foldl_next wild ops ({}, [])
    unfold run; rw [h1]; simp [h2]
  have hk : k < ops.length := by rw [← hlen]; exact get_lt h
  have hlen' : (run wild (ops.take k)).2.length = k := by
    obtain ⟨t, h1, h2⟩ := foldl_next wild (ops.take k) ({}, [])
    unfold run; rw [h1]; simp [h2]; omega
  have hsplit : ops = ops.take k ++ ops[k] :: ops.drop (k + 1) := by
    rw [List.getElem_cons_drop]; exact (List.take_append_drop k ops).symm
  have hrun : (run wild ops).1 = (run wild ops).1 ∧ ∃ t, (run wild ops).2 =
      (run wild (ops.take k)).2 ++ (ops[k], (step wild (run wild (ops.take k)).1 ops[k]).2) :: t := by
    refine ⟨rfl, ?_⟩
    obtain ⟨t, h1, -⟩ := foldl_next wild (ops.drop (k + 1)) (next wild (run wild (ops.take k)) ops[k])
    refine ⟨t, ?_⟩
    have : run wild ops = (ops.drop (k + 1)).foldl (next wild) (next wild (run wild (ops.take k)) ops[k]) := by
      conv => lhs; rw [hsplit]
      unfold run
      rw [List.foldl_append, List.foldl_cons]
    rw [this, h1]
    simp [next]
  obtain ⟨t, ht⟩ := hrun.2
  have he : e = (ops[k], (step wild (run wild (ops.take k)).1 ops[k]).2) := by
    rw [ht, List.getElem?_append_right (by omega), hlen'] at h
    simpa using h.symm
  exact ⟨ops[k], t, he, by rw [he]; exact ht, hlen'⟩

end H2.Sock
