import Verif.Link.Spec
namespace H2.Link

/-- `xs` lies between `a` and `b`, linked both ways. -/
def Seg (h : Heap) (a : Addr) : List Addr → Addr → Prop
  | [], b => h.next a = b ∧ h.prev b = a
  | x :: xs, b => h.next a = x ∧ h.prev x = a ∧ Seg h x xs b

theorem Seg.frame {h h' : Heap} {a b : Addr} {xs : List Addr} (s : Seg h a xs b)
    (hn : ∀ x ∈ a :: xs, h'.next x = h.next x) (hp : ∀ x ∈ xs ++ [b], h'.prev x = h.prev x) : Seg h' a xs b := by
  induction xs generalizing a with
  | nil =>
    obtain ⟨h1, h2⟩ := s
    exact ⟨by rw [hn a (by simp), h1], by rw [hp b (by simp), h2]⟩
  | cons x xs ih =>
    obtain ⟨h1, h2, h3⟩ := s
    exact ⟨by rw [hn a (by simp), h1], by rw [hp x (by simp), h2],
      ih h3 (fun y hy => hn y (by simp at hy ⊢; exact Or.inr hy)) (fun y hy => hp y (by simp at hy ⊢; exact Or.inr hy))⟩

theorem seg_append {h : Heap} {a b x : Addr} {l r : List Addr} :
    Seg h a (l ++ x :: r) b ↔ Seg h a l x ∧ Seg h x r b := by
  induction l generalizing a with
  | nil => simp [Seg, and_assoc]
  | cons y l ih => simp [Seg, ih, and_assoc]

theorem Seg.next_eq {h : Heap} {a b : Addr} {xs : List Addr} (s : Seg h a xs b) :
    h.next a = (xs ++ [b]).head (by simp) := by
  cases xs with
  | nil => exact s.1
  | cons x xs => exact s.1

theorem Seg.prev_eq {h : Heap} {a b : Addr} {xs : List Addr} (s : Seg h a xs b) :
    h.prev b = (a :: xs).getLast (by simp) := by
  induction xs generalizing a with
  | nil => exact s.2
  | cons x xs ih => rw [ih s.2.2]; simp

theorem last_mem (a : Addr) (l r : List Addr) : (a :: l).getLast (by simp) ∈ a :: (l ++ r) :=
  List.mem_append_left r (List.getLast_mem (by simp : a :: l ≠ []))

theorem head_mem (b : Addr) (r : List Addr) : (r ++ [b]).head (by simp) ∈ r ++ [b] := List.head_mem _

theorem addBetween_next (h : Heap) (e p n x : Addr) :
    (h.addBetween e p n).next x = if x = p then e else if x = e then n else h.next x := by
  simp [Heap.addBetween, Heap.setNext, Heap.setPrev]

theorem addBetween_prev (h : Heap) (e p n x : Addr) :
    (h.addBetween e p n).prev x = if x = e then p else if x = n then e else h.prev x := by
  simp [Heap.addBetween, Heap.setNext, Heap.setPrev]

/-- Inserting in the middle of a segment. -/
theorem Seg.insert {h : Heap} {a b e : Addr} {l r : List Addr} (s : Seg h a (l ++ r) b)
    (hn : (a :: (l ++ r)).Nodup) (hp : (l ++ r ++ [b]).Nodup) (he : e ∉ a :: (l ++ r ++ [b])) :
    Seg (h.addBetween e ((a :: l).getLast (by simp)) ((r ++ [b]).head (by simp))) a (l ++ e :: r) b := by
  induction l generalizing a with
  | nil =>
    simp only [List.getLast_singleton, List.nil_append] at s hn hp he ⊢
    cases r with
    | nil =>
      simp only [List.nil_append, List.head_cons]
      simp at he
      refine ⟨?_, ?_, ?_, ?_⟩
      · rw [addBetween_next]; simp
      · rw [addBetween_prev]; simp
      · rw [addBetween_next, if_neg he.1]; simp
      · rw [addBetween_prev, if_neg (fun h => he.2 h.symm)]; simp
    | cons n r =>
      simp only [List.cons_append, List.head_cons]
      simp at he hn hp
      refine ⟨?_, ?_, ?_, ?_, ?_⟩
      · rw [addBetween_next]; simp
      · rw [addBetween_prev]; simp
      · rw [addBetween_next, if_neg he.1]; simp
      · rw [addBetween_prev, if_neg (fun h => he.2.1 h.symm)]; simp
      · refine Seg.frame s.2.2 ?_ ?_
        · intro x hx
          rw [addBetween_next, if_neg, if_neg]
          · rintro rfl; simp at hx
            rcases hx with hx | hx
            · exact he.2.1 hx
            · exact he.2.2.1 hx
          · rintro rfl; simp at hx
            rcases hx with hx | hx
            · exact hn.1.1 hx
            · exact hn.1.2 hx
        · intro x hx
          rw [addBetween_prev, if_neg, if_neg]
          · rintro rfl; simp at hx
            rcases hx with hx | hx
            · exact hp.1.1 hx
            · exact hp.1.2 hx
          · rintro rfl; simp at hx
            rcases hx with hx | hx
            · exact he.2.2.1 hx
            · exact he.2.2.2 hx
  | cons x l ih =>
    have hlast : (a :: x :: l).getLast (by simp) = (x :: l).getLast (by simp) := by simp
    rw [hlast]
    have hmem : (x :: l).getLast (by simp) ∈ x :: l := List.getLast_mem _
    have hmem2 : (r ++ [b]).head (by simp) ∈ r ++ [b] := List.head_mem _
    simp only [List.cons_append] at s hn hp he ⊢
    obtain ⟨s1, s2, s3⟩ := s
    refine ⟨?_, ?_, ?_⟩
    · rw [addBetween_next, if_neg, if_neg, s1]
      · rintro rfl; simp at he
      · intro h
        rw [List.nodup_cons] at hn
        apply hn.1
        rw [h]
        exact last_mem x l r
    · rw [addBetween_prev, if_neg, if_neg, s2]
      · intro h
        rw [List.nodup_cons] at hp
        apply hp.1
        rw [List.append_assoc, List.mem_append]
        exact Or.inr (h ▸ hmem2)
      · rintro rfl; simp at he
    · refine ih s3 (List.nodup_cons.1 hn).2 (List.nodup_cons.1 hp).2 ?_
      simp at he ⊢; exact he.2

theorem out_next (h : Heap) (e x : Addr) (hne : h.prev e ≠ e) :
    (h.out e).next x = if x = e then e else if x = h.prev e then h.next e else h.next x := by
  simp [Heap.out, Heap.setNext, Heap.setPrev]

theorem out_prev (h : Heap) (e x : Addr) (hne : h.prev e ≠ e) :
    (h.out e).prev x = if x = e then e else if x = h.next e then h.prev e else h.prev x := by
  have : ¬ e = h.prev e := fun h => hne h.symm
  simp [Heap.out, Heap.setNext, Heap.setPrev, this]

/-- Taking out of the middle of a segment. -/
theorem Seg.remove {h : Heap} {a b e : Addr} {l r : List Addr} (s : Seg h a (l ++ e :: r) b)
    (hn : (a :: (l ++ e :: r)).Nodup) (hp : (l ++ e :: r ++ [b]).Nodup) :
    Seg (h.out e) a (l ++ r) b ∧ h.prev e = (a :: l).getLast (by simp) ∧ h.next e = (r ++ [b]).head (by simp) ∧ h.prev e ≠ e := by
  have hs := seg_append.1 s
  have e1 := hs.1.prev_eq
  have e2 := hs.2.next_eq
  have hpe : h.prev e ≠ e := by
    rw [e1]
    intro hh
    have hm : (a :: l).getLast (by simp) ∈ a :: l := List.getLast_mem _
    rw [hh] at hm
    have : (a :: l ++ e :: r).Nodup := hn
    rw [List.nodup_append] at this
    exact this.2.2 e hm e (by simp) rfl
  refine ⟨?_, e1, e2, hpe⟩
  clear hs
  -- generalise the two neighbours, then walk down the left part
  have gen : ∀ (p n : Addr) (hp' : h.prev e = p) (hn' : h.next e = n),
      (∀ x, (h.out e).next x = if x = e then e else if x = p then n else h.next x) →
      (∀ x, (h.out e).prev x = if x = e then e else if x = n then p else h.prev x) →
      p = (a :: l).getLast (by simp) → n = (r ++ [b]).head (by simp) → Seg (h.out e) a (l ++ r) b := by
    intro p n hp' hn' on op hpl hnl
    clear e1 e2 hpe hp' hn'
    subst hnl
    induction l generalizing a with
    | nil =>
      have hpa : p = a := hpl
      subst hpa
      cases r with
      | nil =>
        simp at hn hp
        have op' : ∀ x, (h.out e).prev x = if x = e then e else if x = b then p else h.prev x := op
        have on' : ∀ x, (h.out e).next x = if x = e then e else if x = p then b else h.next x := on
        refine ⟨?_, ?_⟩
        · rw [on', if_neg hn]; simp
        · rw [op', if_neg (fun h => hp h.symm)]; simp
      | cons x r =>
        have op' : ∀ y, (h.out e).prev y = if y = e then e else if y = x then p else h.prev y := op
        have on' : ∀ y, (h.out e).next y = if y = e then e else if y = p then x else h.next y := on
        simp at hn hp
        refine ⟨?_, ?_, ?_⟩
        · rw [on', if_neg hn.1.1]; simp
        · rw [op', if_neg (fun h => hp.1.1 h.symm)]; simp
        · refine Seg.frame s.2.2.2.2 ?_ ?_
          · intro y hy
            rw [on', if_neg, if_neg]
            · rintro rfl; simp at hy
              rcases hy with hy | hy
              · exact hn.1.2.1 hy
              · exact hn.1.2.2 hy
            · rintro rfl; simp at hy
              rcases hy with hy | hy
              · exact hn.2.1.1 hy
              · exact hn.2.1.2 hy
          · intro y hy
            rw [op', if_neg, if_neg]
            · rintro rfl; simp at hy
              rcases hy with hy | hy
              · exact hp.2.1.1 hy
              · exact hp.2.1.2 hy
            · rintro rfl; simp at hy
              rcases hy with hy | hy
              · exact hp.1.2.1 hy
              · exact hp.1.2.2 hy
    | cons x l ih =>
      have hmem : (x :: l).getLast (by simp) ∈ x :: l := List.getLast_mem _
      have hmem2 : (r ++ [b]).head (by simp) ∈ r ++ [b] := List.head_mem _
      have hlast : (a :: x :: l).getLast (by simp) = (x :: l).getLast (by simp) := by simp
      rw [hlast] at hpl
      simp only [List.cons_append] at s hn hp ⊢
      obtain ⟨s1, s2, s3⟩ := s
      have hn2 := List.nodup_cons.1 hn
      have hp2 := List.nodup_cons.1 hp
      refine ⟨?_, ?_, ih s3 hn2.2 hp2.2 hpl⟩
      · rw [on, if_neg, if_neg, s1]
        · intro h
          apply hn2.1
          rw [h, hpl]
          exact last_mem x l (e :: r)
        · rintro rfl; apply hn2.1; simp
      · rw [op, if_neg, if_neg, s2]
        · intro h
          apply hp2.1
          rw [List.append_assoc, List.mem_append, List.cons_append, List.mem_cons]
          exact Or.inr (Or.inr (h ▸ hmem2))
        · rintro rfl; apply hp2.1; simp
  exact gen _ _ rfl rfl (fun x => out_next h e x hpe) (fun x => out_prev h e x hpe) e1 e2

/-- Taking out a free node changes nothing. -/
theorem out_self {h : Heap} {e : Addr} (s : Seg h e [] e) : (∀ x, (h.out e).next x = h.next x) ∧ (∀ x, (h.out e).prev x = h.prev x) := by
  obtain ⟨h1, h2⟩ := s
  constructor
  · intro x
    by_cases hx : x = e <;> simp [Heap.out, Heap.setNext, Heap.setPrev, h1, h2, hx]
  · intro x
    by_cases hx : x = e <;> simp [Heap.out, Heap.setNext, Heap.setPrev, h1, h2, hx]

/-! ### The invariant -/

structure Inv (h : Heap) (σ : State) : Prop where
  ring : ∀ a, ¬ Listed σ a → Seg h a (σ a) a
  own : ∀ a, Listed σ a → σ a = []
  nodup : ∀ a, (σ a).Nodup
  uniq : ∀ a b c, a ∈ σ b → a ∈ σ c → b = c

theorem Inv.init : Inv Heap.init (fun _ => []) :=
  ⟨fun _ _ => ⟨rfl, rfl⟩, fun _ _ => rfl, fun _ => List.nodup_nil, fun _ _ _ h => by simp at h⟩

theorem Inv.head_not {h : Heap} {σ : State} (i : Inv h σ) {hd x : Addr} (hx : x ∈ σ hd) : ¬ Listed σ hd := by
  intro hl
  rw [i.own hd hl] at hx
  simp at hx

theorem Inv.ring_nodup {h : Heap} {σ : State} (i : Inv h σ) {hd : Addr} (hl : ¬ Listed σ hd) : (hd :: σ hd).Nodup := by
  rw [List.nodup_cons]
  exact ⟨fun hm => hl ⟨hd, hm⟩, i.nodup hd⟩

theorem nodup_rotate {hd : Addr} {xs : List Addr} (h : (hd :: xs).Nodup) : (xs ++ [hd]).Nodup := by
  rw [List.nodup_cons] at h
  rw [List.nodup_append]
  refine ⟨h.2, by simp, ?_⟩
  intro a ha b hb
  simp at hb
  rintro rfl
  exact h.1 (hb ▸ ha)

/-- Inserting a free entry. -/
theorem Inv.insert {h : Heap} {σ : State} (i : Inv h σ) {hd e : Addr} {l r : List Addr} (hl : ¬ Listed σ hd)
    (he : Free σ e) (hne : e ≠ hd) (hx : σ hd = l ++ r) (p n : Addr) (hp : p = (hd :: l).getLast (by simp))
    (hn : n = (r ++ [hd]).head (by simp)) :
    Inv (h.addBetween e p n) (σ.set hd (l ++ e :: r)) := by
  have hnd := i.ring_nodup hl
  have hpm : p ∈ hd :: σ hd := by
    rw [hp, hx]
    exact last_mem hd l r
  have hnm : n ∈ hd :: σ hd := by
    rw [hn, hx]
    have := head_mem hd r
    rw [List.mem_append, List.mem_singleton] at this
    rw [List.mem_cons, List.mem_append]
    rcases this with h1 | h1
    · exact Or.inr (Or.inr h1)
    · exact Or.inl h1
  have hlisted : ∀ a, Listed (σ.set hd (l ++ e :: r)) a ↔ Listed σ a ∨ a = e := by
    intro a
    constructor
    · rintro ⟨b, hb⟩
      unfold State.set at hb
      split at hb
      · simp at hb
        rcases hb with hb | hb | hb
        · exact Or.inl ⟨hd, by rw [hx]; simp [hb]⟩
        · exact Or.inr hb
        · exact Or.inl ⟨hd, by rw [hx]; simp [hb]⟩
      · exact Or.inl ⟨b, hb⟩
    · rintro (⟨b, hb⟩ | hb)
      · by_cases hbd : b = hd
        · subst hbd
          refine ⟨b, ?_⟩
          rw [hx] at hb
          simp [State.set] at hb ⊢
          rcases hb with hb | hb
          · exact Or.inl hb
          · exact Or.inr (Or.inr hb)
        · exact ⟨b, by simpa [State.set, hbd] using hb⟩
      · exact ⟨hd, by simp [State.set, hb]⟩
  refine ⟨?_, ?_, ?_, ?_⟩
  · intro a ha
    rw [hlisted] at ha
    simp only [not_or] at ha
    by_cases had : a = hd
    · subst had
      simp only [State.set, if_true]
      subst hp hn
      rw [hx] at hnd
      refine Seg.insert (by rw [← hx]; exact i.ring a hl) hnd ?_ ?_
      · exact nodup_rotate hnd
      · intro hm
        simp at hm
        rcases hm with hm | hm | hm | hm
        · exact hne hm
        · exact he.1 ⟨a, by rw [hx]; simp [hm]⟩
        · exact he.1 ⟨a, by rw [hx]; simp [hm]⟩
        · exact hne hm
    · simp only [State.set, had, if_false]
      have hdis : ∀ x, x ∈ a :: σ a → x ∉ hd :: σ hd ∧ x ≠ e := by
        intro x hm
        simp at hm
        constructor
        · intro hm2
          simp at hm2
          rcases hm with hm | hm <;> rcases hm2 with hm2 | hm2
          · exact had (hm.symm.trans hm2)
          · exact ha.1 ⟨hd, hm ▸ hm2⟩
          · exact hl ⟨a, hm2 ▸ hm⟩
          · exact had (i.uniq x a hd hm hm2)
        · rintro rfl
          rcases hm with hm | hm
          · exact ha.2 hm.symm
          · exact he.1 ⟨a, hm⟩
      refine (i.ring a ha.1).frame ?_ ?_
      · intro x hm
        obtain ⟨d1, d2⟩ := hdis x hm
        rw [addBetween_next, if_neg, if_neg d2]
        rintro rfl; exact d1 hpm
      · intro x hm
        obtain ⟨d1, d2⟩ := hdis x (by simp at hm ⊢; exact hm.symm)
        rw [addBetween_prev, if_neg d2, if_neg]
        rintro rfl; exact d1 hnm
  · intro a ha
    rw [hlisted] at ha
    have had : a ≠ hd := by
      rintro rfl
      rcases ha with ha | ha
      · exact hl ha
      · exact hne ha.symm
    simp only [State.set, had, if_false]
    rcases ha with ha | ha
    · exact i.own a ha
    · rw [ha]; exact he.2
  · intro a
    simp only [State.set]
    split
    · have h1 := i.nodup hd
      rw [hx] at h1
      have h2 : e ∉ l ++ r := fun hm => he.1 ⟨hd, by rw [hx]; exact hm⟩
      have : (e :: (l ++ r)).Nodup := List.nodup_cons.2 ⟨h2, h1⟩
      exact (List.perm_middle.nodup_iff).2 this
    · exact i.nodup a
  · intro a b c hb hc
    have key : ∀ b, a ∈ (σ.set hd (l ++ e :: r)) b → (a = e ∧ b = hd) ∨ a ∈ σ b := by
      intro b hb
      unfold State.set at hb
      split at hb
      · rename_i hbd
        simp at hb
        rcases hb with hb | hb | hb
        · exact Or.inr (by rw [hbd, hx]; simp [hb])
        · exact Or.inl ⟨hb, hbd⟩
        · exact Or.inr (by rw [hbd, hx]; simp [hb])
      · exact Or.inr hb
    rcases key b hb with ⟨h1, h2⟩ | h1 <;> rcases key c hc with ⟨h3, h4⟩ | h3
    · rw [h2, h4]
    · exact absurd ⟨c, h1 ▸ h3⟩ he.1
    · exact absurd ⟨b, h3 ▸ h1⟩ he.1
    · exact i.uniq a b c h1 h3

/-- Taking an entry out. -/
theorem Inv.remove {h : Heap} {σ : State} (i : Inv h σ) {hd e : Addr} {l r : List Addr} (hx : σ hd = l ++ e :: r) :
    Inv (h.out e) (σ.set hd (l ++ r)) := by
  have hem : e ∈ σ hd := by rw [hx]; simp
  have hl := i.head_not hem
  have hnd := i.ring_nodup hl
  have hne : e ≠ hd := by rintro rfl; exact hl ⟨e, hem⟩
  have hnd' := hnd
  rw [hx] at hnd'
  obtain ⟨s1, s2, s3, s4⟩ := Seg.remove (by rw [← hx]; exact i.ring hd hl) hnd' (nodup_rotate hnd')
  have hpm : h.prev e ∈ hd :: σ hd := by
    rw [s2, hx]
    exact last_mem hd l (e :: r)
  have hnm : h.next e ∈ hd :: σ hd := by
    rw [s3, hx]
    have := head_mem hd r
    rw [List.mem_append, List.mem_singleton] at this
    rw [List.mem_cons, List.mem_append, List.mem_cons]
    rcases this with h1 | h1
    · exact Or.inr (Or.inr (Or.inr h1))
    · exact Or.inl h1
  have hnde := i.nodup hd
  rw [hx] at hnde
  have hnotin : e ∉ l ++ r := by
    have := (List.perm_middle.nodup_iff).1 hnde
    exact (List.nodup_cons.1 this).1
  have hlisted : ∀ a, Listed (σ.set hd (l ++ r)) a ↔ Listed σ a ∧ a ≠ e := by
    intro a
    constructor
    · rintro ⟨b, hb⟩
      unfold State.set at hb
      split at hb
      · refine ⟨⟨hd, by rw [hx]; simp at hb ⊢; rcases hb with hb | hb <;> simp [hb]⟩, ?_⟩
        rintro rfl; exact hnotin hb
      · rename_i hbd
        refine ⟨⟨b, hb⟩, ?_⟩
        rintro rfl
        exact hbd (i.uniq a b hd hb hem)
    · rintro ⟨⟨b, hb⟩, hae⟩
      by_cases hbd : b = hd
      · subst hbd
        refine ⟨b, ?_⟩
        rw [hx] at hb
        simp [State.set, hae] at hb ⊢
        exact hb
      · exact ⟨b, by simpa [State.set, hbd] using hb⟩
  refine ⟨?_, ?_, ?_, ?_⟩
  · intro a ha
    rw [hlisted] at ha
    by_cases hae : a = e
    · subst hae
      simp only [State.set, hne, if_false, i.own a ⟨hd, hem⟩]
      refine ⟨?_, ?_⟩
      · rw [out_next h a a s4]; simp
      · rw [out_prev h a a s4]; simp
    · have ha : ¬ Listed σ a := fun hh => ha ⟨hh, hae⟩
      by_cases had : a = hd
      · subst had
        simp only [State.set, if_true]
        exact s1
      · simp only [State.set, had, if_false]
        have hdis : ∀ x, x ∈ a :: σ a → x ∉ hd :: σ hd := by
          intro x hm hm2
          simp at hm hm2
          rcases hm with hm | hm <;> rcases hm2 with hm2 | hm2
          · exact had (hm.symm.trans hm2)
          · exact ha ⟨hd, hm ▸ hm2⟩
          · exact hl ⟨a, hm2 ▸ hm⟩
          · exact had (i.uniq x a hd hm hm2)
        refine (i.ring a ha).frame ?_ ?_
        · intro x hm
          have d1 := hdis x hm
          rw [out_next h e x s4, if_neg, if_neg]
          · rintro rfl; exact d1 hpm
          · rintro rfl; exact d1 (by simp [hem])
        · intro x hm
          have d1 := hdis x (by simp at hm ⊢; exact hm.symm)
          rw [out_prev h e x s4, if_neg, if_neg]
          · rintro rfl; exact d1 hnm
          · rintro rfl; exact d1 (by simp [hem])
  · intro a ha
    rw [hlisted] at ha
    have had : a ≠ hd := by rintro rfl; exact hl ha.1
    simp only [State.set, had, if_false]
    exact i.own a ha.1
  · intro a
    simp only [State.set]
    split
    · exact (List.nodup_cons.1 ((List.perm_middle.nodup_iff).1 hnde)).2
    · exact i.nodup a
  · intro a b c hb hc
    have key : ∀ b, a ∈ (σ.set hd (l ++ r)) b → a ∈ σ b := by
      intro b hb
      unfold State.set at hb
      split at hb
      · rename_i hbd
        rw [hbd, hx]; simp at hb ⊢
        rcases hb with hb | hb <;> simp [hb]
      · exact hb
    exact i.uniq a b c (key b hb) (key c hc)

theorem Inv.same {h h' : Heap} {σ : State} (i : Inv h σ) (hn : ∀ x, h'.next x = h.next x) (hp : ∀ x, h'.prev x = h.prev x) :
    Inv h' σ :=
  ⟨fun a ha => (i.ring a ha).frame (fun x _ => hn x) (fun x _ => hp x), i.own, i.nodup, i.uniq⟩

end H2.Link
