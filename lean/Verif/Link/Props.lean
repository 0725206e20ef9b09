import Verif.Link.Refine
/-
C40: the intrusive circular lists behave like sequences.
-/
namespace H2.Link

/-- The states a history reaches, on sequences and on nodes, correspond. -/
theorem reach_inv {ops : List Op} {σ : State} {h : Heap} (r : Reach ops σ) (e : Runs ops h) : Inv h σ := by
  induction r generalizing h with
  | nil =>
    generalize hn : ([] : List Op) = ops at e
    cases e with
    | nil => exact Inv.init
    | snoc => simp at hn
  | @snoc ops σ op σ' _ s ih =>
    generalize hn : ops ++ [op] = ops' at e
    cases e with
    | nil => simp at hn
    | snoc e1 e2 =>
      have := List.append_inj' hn rfl
      simp at this
      obtain ⟨rfl, rfl⟩ := this
      exact step_inv (ih e1) s e2

/-- **C40**.  After any history of operations, every list shows, forward and backward, exactly the
entries the same history leaves in the plain sequence. -/
theorem C40_refines {ops : List Op} {σ : State} {h : Heap} (r : Reach ops σ) (e : Runs ops h) (hd : Addr) (hl : ¬ Listed σ hd) :
    Shows h hd (σ hd) :=
  let s := (reach_inv r e).ring hd hl
  ⟨s.forward, s.backward⟩

/-- **C40**.  No history gets stuck: every operation that makes sense on sequences returns. -/
theorem C40_progress {ops : List Op} {σ : State} (r : Reach ops σ) : ∃ h, Runs ops h := by
  induction r with
  | nil => exact ⟨_, .nil⟩
  | snoc r s ih =>
    obtain ⟨h, e⟩ := ih
    obtain ⟨h', e'⟩ := step_exists (reach_inv r e) s
    exact ⟨h', .snoc e e'⟩

/-- **C40**.  `pop` returns the first entry, `pop_back` the last. -/
theorem C40_pop {ops : List Op} {σ : State} {h : Heap} (r : Reach ops σ) (e : Runs ops h) {hd x : Addr} {xs : List Addr} :
    (σ hd = x :: xs → (h.pop hd).2 = x) ∧ (σ hd = xs ++ [x] → (h.popBack hd).2 = x) :=
  ⟨(reach_inv r e).next_head, (reach_inv r e).prev_head⟩

/-- **C40**.  `empty` and `count` tell the length of the sequence; `count` ends for every list. -/
theorem C40_count {ops : List Op} {σ : State} {h : Heap} (r : Reach ops σ) (e : Runs ops h) (hd : Addr) (hl : ¬ Listed σ hd) :
    (h.empty hd = true ↔ σ hd = []) ∧ ∀ fuel, (σ hd).length < fuel → h.count hd fuel = some (σ hd).length := by
  have s := (reach_inv r e).ring hd hl
  have hn : hd ∉ σ hd := fun hm => hl ⟨hd, hm⟩
  refine ⟨?_, fun fuel hf => ?_⟩
  · cases hx : σ hd with
    | nil => rw [hx] at s; simp [Heap.empty, s.1]
    | cons x xs =>
      rw [hx] at s hn
      simp at hn
      simp [Heap.empty, s.1]
      exact fun h => hn.1 h.symm
  · simpa [Heap.count] using s.count hn fuel 0 hf

/-- **C40**.  `is_first` and `is_last` single out the first and the last entry. -/
theorem C40_ends {ops : List Op} {σ : State} {h : Heap} (r : Reach ops σ) (e : Runs ops h) {hd x : Addr} (hx : x ∈ σ hd) :
    (h.isFirst hd x = true ↔ (σ hd).head? = some x) ∧ (h.isLast hd x = true ↔ (σ hd).getLast? = some x) := by
  have i := reach_inv r e
  have hne : σ hd ≠ [] := List.ne_nil_of_mem hx
  constructor
  · cases hs : σ hd with
    | nil => exact absurd hs hne
    | cons y ys => simp [Heap.isFirst, i.next_head hs]
  · have hs := (List.dropLast_concat_getLast hne).symm
    rw [Heap.isLast, i.prev_head hs, List.getLast?_eq_some_getLast hne]
    simp

/-- **C40**.  The iteration macro visits exactly the entries, in order, even when its body takes the
visited entries out; afterwards the list shows the entries not taken out. -/
theorem C40_each {ops : List Op} {σ : State} {h : Heap} (r : Reach ops σ) (e : Runs ops h) (hd : Addr) (hl : ¬ Listed σ hd)
    (remove : Addr → Bool) (fuel : Nat) (hf : (σ hd).length < fuel) :
    ∃ h', h.each hd remove fuel = some (σ hd, h') ∧ Shows h' hd ((σ hd).filter fun p => !remove p) := by
  have i := reach_inv r e
  obtain ⟨h', g1, g2⟩ := eachLoop_spec hd remove (σ hd) [] h σ i hl rfl fuel hf
  refine ⟨h', ?_, ?_⟩
  · rw [Heap.each, (i.ring hd hl).next_eq]; exact g1
  · have hl' : ¬ Listed (σ.set hd ([] ++ (σ hd).filter fun p => !remove p)) hd := by
      rintro ⟨b, hb⟩
      unfold State.set at hb
      split at hb
      · simp at hb; exact hl ⟨hd, hb.1⟩
      · exact hl ⟨b, hb⟩
    have s := g2.ring hd hl'
    simp only [State.set, if_true, List.nil_append] at s
    exact ⟨s.forward, s.backward⟩

/-- **C40**.  `sort` ends, and leaves a permutation of the entries; for a comparison that is a total
preorder the entries are in order, and an entry that came before another one and is not greater still
comes before it. -/
theorem C40_sort {ops : List Op} {σ : State} {h : Heap} (r : Reach ops σ) (e : Runs ops h) {hd tmp : Addr}
    {cmp : Addr → Addr → Int} (hl : ¬ Listed σ hd) (ht : Free σ tmp) (hne : tmp ≠ hd) :
    (∃ fuel h', h.sort hd tmp cmp fuel = some h') ∧
    ∀ fuel h', h.sort hd tmp cmp fuel = some h' →
      ∃ ys, Shows h' hd ys ∧ ys.Perm (σ hd) ∧
        ((∀ a b, 0 < cmp a b → ¬ 0 < cmp b a) → (∀ a b c, ¬ 0 < cmp a b → ¬ 0 < cmp b c → ¬ 0 < cmp a c) →
          ys.Pairwise (fun a b => ¬ 0 < cmp a b) ∧
          ∀ a b, [a, b].Sublist (σ hd) → ¬ 0 < cmp a b → [a, b].Sublist ys) := by
  have i := reach_inv r e
  constructor
  · obtain ⟨h', h1, _⟩ := i.sort (cmp := cmp) hl ht hne _ (Nat.lt_succ_self _)
    exact ⟨_, h', h1⟩
  · intro fuel h' hs
    have st : Step σ (.sort hd tmp cmp) _ := .sort hl ht hne
    have i' := step_inv i st (.sort hs)
    have hp := foldl_insert_perm cmp (σ hd) []
    rw [List.append_nil] at hp
    have hl' : ¬ Listed (σ.set hd (insertionSort cmp (σ hd))) hd := by
      rintro ⟨b, hb⟩
      unfold State.set at hb
      split at hb
      · exact hl ⟨hd, hp.mem_iff.1 hb⟩
      · exact hl ⟨b, hb⟩
    have s := i'.ring hd hl'
    simp only [State.set, if_true] at s
    refine ⟨_, ⟨s.forward, s.backward⟩, hp, fun anti trans => ⟨?_, ?_⟩⟩
    · exact foldl_sorted anti trans _ _ List.Pairwise.nil
    · intro a b hab hle
      exact foldl_stable anti trans a b _ _ List.Pairwise.nil hab hle

/-! ### A concrete history -/

/-- Three entries on list 0, one of them taken out and pushed to list 9, then a sort by value. -/
def demo : List Op :=
  [.pushBack 0 3, .pushBack 0 1, .push 0 2, .out 1, .push 9 1, .after 3 4, .sort 0 50 (fun a b => (a : Int) - b)]

/-- The sequence state after `demo` without the sort. -/
theorem demo_reach : ∃ σ, Reach demo σ ∧ σ 0 = [2, 3, 4] ∧ σ 9 = [1] ∧ ¬ Listed σ 0 ∧ Free σ 50 := by
  have nl : ∀ (σ : State) (a : Addr), (∀ hd, hd ≠ 0 → hd ≠ 9 → σ hd = []) → a ∉ σ 0 → a ∉ σ 9 → ¬ Listed σ a := by
    rintro σ a h h0 h9 ⟨b, hb⟩
    by_cases b0 : b = 0
    · subst b0; exact h0 hb
    · by_cases b9 : b = 9
      · subst b9; exact h9 hb
      · rw [h b b0 b9] at hb; simp at hb
  have r0 : Reach [] (fun _ => []) := .nil
  have r1 := Reach.snoc r0 (Step.pushBack (hd := 0) (e := 3) (by rintro ⟨_, h⟩; simp at h) ⟨by rintro ⟨_, h⟩; simp at h, rfl⟩ (by decide))
  have r2 := Reach.snoc r1 (Step.pushBack (hd := 0) (e := 1)
    (nl _ _ (by intro hd a b; simp [State.set, a]) (by simp [State.set]) (by simp [State.set]))
    ⟨nl _ _ (by intro hd a b; simp [State.set, a]) (by simp [State.set]) (by simp [State.set]), by simp [State.set]⟩ (by decide))
  have r3 := Reach.snoc r2 (Step.push (hd := 0) (e := 2)
    (nl _ _ (by intro hd a b; simp [State.set, a]) (by simp [State.set]) (by simp [State.set]))
    ⟨nl _ _ (by intro hd a b; simp [State.set, a]) (by simp [State.set]) (by simp [State.set]), by simp [State.set]⟩ (by decide))
  have r4 := Reach.snoc r3 (Step.out (hd := 0) (l := [2, 3]) (e := 1) (r := []) (by simp [State.set]))
  have r5 := Reach.snoc r4 (Step.push (hd := 9) (e := 1)
    (nl _ _ (by intro hd a b; simp [State.set, a]) (by simp [State.set]) (by simp [State.set]))
    ⟨nl _ _ (by intro hd a b; simp [State.set, a]) (by simp [State.set]) (by simp [State.set]), by simp [State.set]⟩ (by decide))
  have r6 := Reach.snoc r5 (Step.after (hd := 0) (l := [2]) (x := 3) (r := []) (e := 4) (by simp [State.set])
    ⟨nl _ _ (by intro hd a b; simp [State.set, a, b]) (by simp [State.set]) (by simp [State.set]), by simp [State.set]⟩ (by decide))
  have r7 := Reach.snoc r6 (Step.sort (hd := 0) (tmp := 50) (cmp := fun a b => (a : Int) - b)
    (nl _ _ (by intro hd a b; simp [State.set, a, b]) (by simp [State.set]) (by simp [State.set]))
    ⟨nl _ _ (by intro hd a b; simp [State.set, a, b]) (by simp [State.set]) (by simp [State.set]), by simp [State.set]⟩ (by decide))
  refine ⟨_, r7, ?_, ?_, ?_, ?_⟩
  · simp [State.set, insertionSort, insertStable]
  · simp [State.set]
  · exact nl _ _ (by intro hd a b; simp [State.set, a, b]) (by simp [State.set, insertionSort, insertStable]) (by simp [State.set])
  · exact ⟨nl _ _ (by intro hd a b; simp [State.set, a, b]) (by simp [State.set, insertionSort, insertStable]) (by simp [State.set]),
      by simp [State.set]⟩

/-- `demo` meets the hypotheses of the theorems above. -/
example : ∃ σ h, Reach demo σ ∧ Runs demo h ∧ Shows h 0 [2, 3, 4] := by
  obtain ⟨σ, r, h1, _, h3, _⟩ := demo_reach
  obtain ⟨h, e⟩ := C40_progress r
  refine ⟨σ, h, r, e, ?_⟩
  have := C40_refines r e 0 h3
  rwa [h1] at this

/-- Subtraction is a comparison meeting the hypotheses of `C40_sort`. -/
example : (∀ a b : Addr, 0 < (a : Int) - b → ¬ 0 < (b : Int) - a) ∧
    (∀ a b c : Addr, ¬ 0 < (a : Int) - b → ¬ 0 < (b : Int) - c → ¬ 0 < (a : Int) - c) :=
  ⟨fun _ _ => by omega, fun _ _ _ => by omega⟩

/-- And the heap computed by the code for these pushes is the one expected. -/
example : ((((Heap.init.addTail 0 3).addTail 0 1).addHead 0 2).sort 0 50 (fun a b => (a : Int) - b) 10).map (fun h => forward h 4 0) = some [1, 2, 3, 0] := by
  decide +kernel

end H2.Link
