import Verif.Link.Lemmas
namespace H2.Link

/-! ### The simple operations -/

theorem Inv.push {h : Heap} {σ : State} (i : Inv h σ) {hd e : Addr} (hl : ¬ Listed σ hd) (he : Free σ e) (hne : e ≠ hd) :
    Inv (h.addHead hd e) (σ.set hd (e :: σ hd)) :=
  i.insert (l := []) (r := σ hd) hl he hne rfl hd (h.next hd) rfl (i.ring hd hl).next_eq

theorem Inv.pushBack {h : Heap} {σ : State} (i : Inv h σ) {hd e : Addr} (hl : ¬ Listed σ hd) (he : Free σ e) (hne : e ≠ hd) :
    Inv (h.addTail hd e) (σ.set hd (σ hd ++ [e])) :=
  i.insert (l := σ hd) (r := []) hl he hne (by simp) (h.prev hd) hd (i.ring hd hl).prev_eq rfl

theorem Inv.before {h : Heap} {σ : State} (i : Inv h σ) {hd x e : Addr} {l r : List Addr} (hx : σ hd = l ++ x :: r)
    (he : Free σ e) (hne : e ≠ hd) : Inv (h.addBefore x e) (σ.set hd (l ++ e :: x :: r)) := by
  have hl := i.head_not (hd := hd) (x := x) (by rw [hx]; simp)
  have hs := i.ring hd hl
  rw [hx] at hs
  exact i.insert (l := l) (r := x :: r) hl he hne hx (h.prev x) x (seg_append.1 hs).1.prev_eq rfl

theorem Inv.after {h : Heap} {σ : State} (i : Inv h σ) {hd x e : Addr} {l r : List Addr} (hx : σ hd = l ++ x :: r)
    (he : Free σ e) (hne : e ≠ hd) : Inv (h.addAfter x e) (σ.set hd (l ++ x :: e :: r)) := by
  have hl := i.head_not (hd := hd) (x := x) (by rw [hx]; simp)
  have hs := i.ring hd hl
  rw [hx] at hs
  have := i.insert (l := l ++ [x]) (r := r) hl he hne (by simp [hx]) x (h.next x) (List.getLast_concat (l := hd :: l)).symm (seg_append.1 hs).2.next_eq
  simpa [Heap.addAfter] using this

theorem Inv.next_head {h : Heap} {σ : State} (i : Inv h σ) {hd x : Addr} {xs : List Addr} (hx : σ hd = x :: xs) : h.next hd = x := by
  have hl := i.head_not (hd := hd) (x := x) (by rw [hx]; simp)
  have hs := i.ring hd hl
  rw [hx] at hs
  exact hs.1

theorem Inv.prev_head {h : Heap} {σ : State} (i : Inv h σ) {hd x : Addr} {xs : List Addr} (hx : σ hd = xs ++ [x]) : h.prev hd = x := by
  have hl := i.head_not (hd := hd) (x := x) (by rw [hx]; simp)
  have hs := i.ring hd hl
  rw [hx] at hs
  rw [hs.prev_eq]
  exact List.getLast_concat (l := hd :: xs)

theorem Inv.free_self {h : Heap} {σ : State} (i : Inv h σ) {e : Addr} (he : Free σ e) : Seg h e [] e := by
  have := i.ring e he.1
  rw [he.2] at this; exact this

theorem Inv.outFree {h : Heap} {σ : State} (i : Inv h σ) {e : Addr} (he : Free σ e) : Inv (h.out e) σ := by
  obtain ⟨h1, h2⟩ := out_self (i.free_self he)
  exact i.same h1 h2

theorem Inv.free_after {h : Heap} {σ : State} (i : Inv h σ) {hd e : Addr} {l r : List Addr} (hx : σ hd = l ++ e :: r) :
    Free (σ.set hd (l ++ r)) e ∧ e ≠ hd := by
  have hem : e ∈ σ hd := by rw [hx]; simp
  have hl := i.head_not hem
  have hne : e ≠ hd := by rintro rfl; exact hl ⟨e, hem⟩
  refine ⟨⟨?_, ?_⟩, hne⟩
  · rintro ⟨b, hb⟩
    unfold State.set at hb
    split at hb
    · have hnde := i.nodup hd
      rw [hx] at hnde
      exact (List.nodup_cons.1 ((List.perm_middle.nodup_iff).1 hnde)).1 hb
    · rename_i hbd
      exact hbd (i.uniq e b hd hb hem)
  · simp only [State.set, hne, if_false]
    exact i.own e ⟨hd, hem⟩

/-! ### Sorting -/

theorem insertStable_split (cmp : Addr → Addr → Int) (p : Addr) (ys : List Addr) :
    ∃ l r, ys = l ++ r ∧ insertStable cmp p ys = l ++ p :: r ∧ (∀ q ∈ l, ¬ 0 < cmp q p) ∧
      (∀ q ∈ r.head?, 0 < cmp q p) := by
  induction ys with
  | nil => exact ⟨[], [], rfl, rfl, by simp, by simp⟩
  | cons q qs ih =>
    by_cases hq : 0 < cmp q p
    · exact ⟨[], q :: qs, rfl, by simp [insertStable, hq], by simp, by simp [hq]⟩
    · obtain ⟨l, r, h1, h2, h3, h4⟩ := ih
      refine ⟨q :: l, r, by simp [h1], by simp [insertStable, hq, h2], ?_, h4⟩
      intro x hx
      simp at hx
      rcases hx with hx | hx
      · rw [hx]; exact hq
      · exact h3 x hx

theorem findLoop_spec (h : Heap) (sorted p : Addr) (cmp : Addr → Addr → Int) (a : Addr) (ys : List Addr)
    (s : Seg h a ys sorted) (hns : sorted ∉ ys) (fuel : Nat) (hf : ys.length < fuel) :
    ∃ l r, ys = l ++ r ∧ insertStable cmp p ys = l ++ p :: r ∧
      findLoop h sorted p cmp fuel (h.next a) = some ((r ++ [sorted]).head (by simp)) := by
  induction ys generalizing a fuel with
  | nil =>
    cases fuel with
    | zero => omega
    | succ fuel => exact ⟨[], [], rfl, rfl, by rw [s.1, findLoop]; simp⟩
  | cons y ys ih =>
    cases fuel with
    | zero => omega
    | succ fuel =>
      obtain ⟨s1, s2, s3⟩ := s
      simp at hns
      rw [s1, findLoop, if_neg (fun h => hns.1 h.symm)]
      by_cases hq : 0 < cmp y p
      · exact ⟨[], y :: ys, rfl, by simp [insertStable, hq], by simp [hq]⟩
      · obtain ⟨l, r, h1, h2, h3⟩ := ih y s3 hns.2 fuel (by simp at hf; omega)
        exact ⟨y :: l, r, by simp [h1], by simp [insertStable, hq, h2], by rw [if_neg hq]; exact h3⟩

theorem set_set (σ : State) (a : Addr) (x y : List Addr) : (σ.set a x).set a y = σ.set a y := by
  funext b; unfold State.set; split <;> rfl

theorem set_comm (σ : State) (a b : Addr) (x y : List Addr) (hne : a ≠ b) :
    (σ.set a x).set b y = (σ.set b y).set a x := by
  funext c
  unfold State.set
  by_cases h1 : c = a
  · subst h1; simp [hne]
  · by_cases h2 : c = b
    · subst h2; simp [h1]
    · simp [h1, h2]

theorem set_id (σ : State) (a : Addr) : σ.set a (σ a) = σ := by
  funext b; unfold State.set; split
  · rename_i h; rw [h]
  · rfl

theorem insertLoop_spec (this sorted : Addr) (cmp : Addr → Addr → Int) (hne : this ≠ sorted) (xs : List Addr) (h : Heap) (σ : State)
    (i : Inv h σ) (hx : σ this = xs) (ht : ¬ Listed σ this) (hs : ¬ Listed σ sorted) (fuel : Nat)
    (hf : 2 * xs.length + (σ sorted).length < fuel) :
    ∃ h', insertLoop this sorted cmp fuel h = some h' ∧
      Inv h' ((σ.set this []).set sorted (xs.foldl (fun ys p => insertStable cmp p ys) (σ sorted))) := by
  induction xs generalizing h σ fuel with
  | nil =>
    cases fuel with
    | zero => omega
    | succ fuel =>
      have hr := i.ring this ht
      rw [hx] at hr
      refine ⟨h, by rw [insertLoop, if_pos]; simp [Heap.empty, hr.1], ?_⟩
      rw [List.foldl_nil, ← hx, set_id, set_id]; exact i
  | cons x xs ih =>
    cases fuel with
    | zero => omega
    | succ fuel =>
      have hnx := i.next_head hx
      have hxl : σ this = [] ++ x :: xs := hx
      have i1 := i.remove hxl
      obtain ⟨hfree, hxt⟩ := i.free_after hxl
      simp only [List.nil_append] at i1 hfree
      have hxthis : x ∈ σ this := by rw [hx]; simp
      have hxs : x ≠ sorted := by rintro rfl; exact hs ⟨this, hxthis⟩
      have hlst : ∀ a, ¬ Listed σ a → ¬ Listed (σ.set this xs) a := by
        rintro a ha ⟨b, hb⟩
        unfold State.set at hb
        split at hb
        · exact ha ⟨this, by rw [hx]; simp [hb]⟩
        · exact ha ⟨b, hb⟩
      have hs1 := hlst sorted hs
      have ht1 := hlst this ht
      have hss : (σ.set this xs) sorted = σ sorted := by simp [State.set, hne.symm]
      have hempty : h.empty this = false := by simp [Heap.empty, hnx, hxt]
      rw [insertLoop, if_neg (by simp [hempty])]
      simp only [Heap.pop, hnx]
      have hseg := i1.ring sorted hs1
      rw [hss] at hseg
      obtain ⟨l, r, e1, e2, e3⟩ := findLoop_spec (h.out x) sorted x cmp sorted (σ sorted) hseg
        (fun hm => hs ⟨sorted, hm⟩) fuel (by simp at hf; omega)
      rw [e3]
      simp only
      have i2 : Inv ((h.out x).addBefore ((r ++ [sorted]).head (by simp)) x) ((σ.set this xs).set sorted (l ++ x :: r)) := by
        refine i1.insert (l := l) (r := r) hs1 hfree hxs (by rw [hss, e1]) _ _ ?_ rfl
        rw [e1] at hseg
        cases r with
        | nil =>
          simp only [List.append_nil] at hseg
          exact hseg.prev_eq
        | cons y r => exact (seg_append.1 hseg).1.prev_eq
      obtain ⟨h', g1, g2⟩ := ih _ _ i2 (by simp [State.set, hne]) (by
          rintro ⟨b, hb⟩
          unfold State.set at hb
          split at hb
          · simp at hb
            rcases hb with hb | hb | hb
            · exact ht ⟨sorted, by rw [e1]; simp [hb]⟩
            · exact hxt hb.symm
            · exact ht ⟨sorted, by rw [e1]; simp [hb]⟩
          · split at hb
            · exact ht ⟨this, by rw [hx]; simp [hb]⟩
            · exact ht ⟨b, hb⟩) (by
          rintro ⟨b, hb⟩
          unfold State.set at hb
          split at hb
          · simp at hb
            rcases hb with hb | hb | hb
            · exact hs ⟨sorted, by rw [e1]; simp [hb]⟩
            · exact hxs hb.symm
            · exact hs ⟨sorted, by rw [e1]; simp [hb]⟩
          · split at hb
            · exact hs ⟨this, by rw [hx]; simp [hb]⟩
            · exact hs ⟨b, hb⟩) fuel (by
          simp [State.set] at hf ⊢
          rw [e1] at hf; simp at hf; omega)
      refine ⟨h', g1, ?_⟩
      have hst : ((σ.set this xs).set sorted (l ++ x :: r)) sorted = insertStable cmp x (σ sorted) := by
        simp [State.set, e2]
      rw [hst] at g2
      have : (((σ.set this xs).set sorted (l ++ x :: r)).set this []).set sorted
          (xs.foldl (fun ys p => insertStable cmp p ys) (insertStable cmp x (σ sorted))) =
          (σ.set this []).set sorted ((x :: xs).foldl (fun ys p => insertStable cmp p ys) (σ sorted)) := by
        rw [set_comm _ sorted this _ _ (fun h => hne h.symm), set_set, set_set]
        rfl
      rw [← this]; exact g2

theorem backLoop_spec (this sorted : Addr) (hne : this ≠ sorted) (ys : List Addr) (h : Heap) (σ : State)
    (i : Inv h σ) (hy : σ sorted = ys) (ht : ¬ Listed σ this) (hs : ¬ Listed σ sorted) (fuel : Nat) (hf : ys.length < fuel) :
    ∃ h', backLoop this sorted fuel h = some h' ∧ Inv h' ((σ.set sorted []).set this (σ this ++ ys)) := by
  induction ys generalizing h σ fuel with
  | nil =>
    cases fuel with
    | zero => omega
    | succ fuel =>
      have hr := i.ring sorted hs
      rw [hy] at hr
      refine ⟨h, by rw [backLoop, if_pos]; simp [Heap.empty, hr.1], ?_⟩
      rw [← hy, set_id, hy, List.append_nil, set_id]; exact i
  | cons y ys ih =>
    cases fuel with
    | zero => omega
    | succ fuel =>
      have hny := i.next_head hy
      have hyl : σ sorted = [] ++ y :: ys := hy
      have i1 := i.remove hyl
      obtain ⟨hfree, hys⟩ := i.free_after hyl
      simp only [List.nil_append] at i1 hfree
      have hysorted : y ∈ σ sorted := by rw [hy]; simp
      have hyt : y ≠ this := by rintro rfl; exact ht ⟨sorted, hysorted⟩
      have hlst : ∀ a, ¬ Listed σ a → ¬ Listed (σ.set sorted ys) a := by
        rintro a ha ⟨b, hb⟩
        unfold State.set at hb
        split at hb
        · exact ha ⟨sorted, by rw [hy]; simp [hb]⟩
        · exact ha ⟨b, hb⟩
      have ht1 := hlst this ht
      have hst : (σ.set sorted ys) this = σ this := by simp [State.set, hne]
      have hempty : h.empty sorted = false := by simp [Heap.empty, hny, hys]
      rw [backLoop, if_neg (by simp [hempty])]
      simp only [Heap.pop, hny]
      have i2 := i1.pushBack ht1 hfree hyt
      rw [hst] at i2
      obtain ⟨h', g1, g2⟩ := ih _ _ i2 (by simp [State.set, hne.symm]) (by
          rintro ⟨b, hb⟩
          unfold State.set at hb
          split at hb
          · simp at hb
            rcases hb with hb | hb
            · exact ht ⟨this, hb⟩
            · exact hyt hb.symm
          · split at hb
            · exact ht ⟨sorted, by rw [hy]; simp [hb]⟩
            · exact ht ⟨b, hb⟩) (by
          rintro ⟨b, hb⟩
          unfold State.set at hb
          split at hb
          · simp at hb
            rcases hb with hb | hb
            · exact hs ⟨this, hb⟩
            · exact hys hb.symm
          · split at hb
            · exact hs ⟨sorted, by rw [hy]; simp [hb]⟩
            · exact hs ⟨b, hb⟩) fuel (by simp at hf; omega)
      refine ⟨h', g1, ?_⟩
      have : (((σ.set sorted ys).set this (σ this ++ [y])).set sorted []).set this
          (((σ.set sorted ys).set this (σ this ++ [y])) this ++ ys) = (σ.set sorted []).set this (σ this ++ y :: ys) := by
        rw [set_comm _ this sorted _ _ hne, set_set, set_set]
        simp [State.set]
      rw [← this]; exact g2

theorem insertStable_perm (cmp : Addr → Addr → Int) (p : Addr) (ys : List Addr) : (insertStable cmp p ys).Perm (p :: ys) := by
  obtain ⟨l, r, h1, h2, _⟩ := insertStable_split cmp p ys
  rw [h2, h1]; exact List.perm_middle

theorem foldl_insert_perm (cmp : Addr → Addr → Int) (xs ys : List Addr) :
    (xs.foldl (fun ys p => insertStable cmp p ys) ys).Perm (xs ++ ys) := by
  induction xs generalizing ys with
  | nil => exact List.Perm.refl _
  | cons x xs ih =>
    refine (ih _).trans ?_
    refine ((insertStable_perm cmp x ys).append_left xs).trans ?_
    exact List.perm_middle

theorem Inv.sort {h : Heap} {σ : State} (i : Inv h σ) {hd tmp : Addr} {cmp : Addr → Addr → Int} (hl : ¬ Listed σ hd)
    (ht : Free σ tmp) (hne : tmp ≠ hd) (fuel : Nat) (hf : 2 * (σ hd).length < fuel) :
    ∃ h', h.sort hd tmp cmp fuel = some h' ∧ Inv h' (σ.set hd (insertionSort cmp (σ hd))) := by
  obtain ⟨h1, a1, a2⟩ := insertLoop_spec hd tmp cmp (fun h => hne h.symm) (σ hd) h σ i rfl hl ht.1 fuel (by rw [ht.2]; simpa using hf)
  rw [ht.2] at a2
  have hperm := foldl_insert_perm cmp (σ hd) []
  rw [List.append_nil] at hperm
  have hnl : ∀ a, ¬ Listed σ a → ¬ Listed ((σ.set hd []).set tmp (insertionSort cmp (σ hd))) a := by
    rintro a ha ⟨b, hb⟩
    unfold State.set at hb
    split at hb
    · exact ha ⟨hd, hperm.mem_iff.1 hb⟩
    · split at hb
      · simp at hb
      · exact ha ⟨b, hb⟩
  obtain ⟨h2, b1, b2⟩ := backLoop_spec hd tmp (fun h => hne h.symm) (insertionSort cmp (σ hd)) h1 _ a2 (by simp [State.set, insertionSort])
    (hnl hd hl) (hnl tmp ht.1) fuel (by have := hperm.length_eq; simp only [insertionSort]; omega)
  refine ⟨h2, by simp [Heap.sort, a1, b1], ?_⟩
  have : (((σ.set hd []).set tmp (insertionSort cmp (σ hd))).set tmp []).set hd
      (((σ.set hd []).set tmp (insertionSort cmp (σ hd))) hd ++ insertionSort cmp (σ hd)) =
      σ.set hd (insertionSort cmp (σ hd)) := by
    funext a
    have hdt : ¬ hd = tmp := fun h => hne h.symm
    by_cases ha : a = hd
    · simp [State.set, ha, hdt]
    · by_cases hb : a = tmp
      · simp [State.set, hb, ha, hne, ht.2]
      · simp [State.set, hb, ha]
  rw [← this]; exact b2

/-! ### More fuel does not change a result -/

theorem findLoop_mono (h : Heap) (sorted p : Addr) (cmp : Addr → Addr → Int) (fuel : Nat) (q r : Addr)
    (hr : findLoop h sorted p cmp fuel q = some r) : findLoop h sorted p cmp (fuel + 1) q = some r := by
  induction fuel generalizing q with
  | zero => simp [findLoop] at hr
  | succ fuel ih =>
    rw [findLoop] at hr ⊢
    split
    · rename_i h1; rw [if_pos h1] at hr; exact hr
    · rename_i h1
      rw [if_neg h1] at hr
      split
      · rename_i h2; rw [if_pos h2] at hr; exact hr
      · rename_i h2; rw [if_neg h2] at hr; exact ih _ hr

theorem insertLoop_mono (this sorted : Addr) (cmp : Addr → Addr → Int) (fuel : Nat) (h r : Heap)
    (hr : insertLoop this sorted cmp fuel h = some r) : insertLoop this sorted cmp (fuel + 1) h = some r := by
  induction fuel generalizing h with
  | zero => simp [insertLoop] at hr
  | succ fuel ih =>
    rw [insertLoop] at hr ⊢
    split
    · rename_i h1; rw [if_pos h1] at hr; exact hr
    · rename_i h1
      rw [if_neg h1] at hr
      simp only at hr ⊢
      cases hq : findLoop (h.pop this).1 sorted (h.pop this).2 cmp fuel ((h.pop this).1.next sorted) with
      | none => rw [hq] at hr; simp at hr
      | some q =>
        rw [hq] at hr
        rw [findLoop_mono _ _ _ _ _ _ _ hq]
        exact ih _ hr

theorem backLoop_mono (this sorted : Addr) (fuel : Nat) (h r : Heap)
    (hr : backLoop this sorted fuel h = some r) : backLoop this sorted (fuel + 1) h = some r := by
  induction fuel generalizing h with
  | zero => simp [backLoop] at hr
  | succ fuel ih =>
    rw [backLoop] at hr ⊢
    split
    · rename_i h1; rw [if_pos h1] at hr; exact hr
    · rename_i h1
      rw [if_neg h1] at hr
      exact ih _ hr

theorem sort_mono (h r : Heap) (hd tmp : Addr) (cmp : Addr → Addr → Int) (fuel k : Nat)
    (hr : h.sort hd tmp cmp fuel = some r) : h.sort hd tmp cmp (fuel + k) = some r := by
  induction k with
  | zero => exact hr
  | succ k ih =>
    rw [← Nat.add_assoc]
    unfold Heap.sort at ih ⊢
    cases h1 : insertLoop hd tmp cmp (fuel + k) h with
    | none => rw [h1] at ih; simp at ih
    | some h' =>
      rw [h1] at ih
      rw [insertLoop_mono _ _ _ _ _ _ h1]
      exact backLoop_mono _ _ _ _ _ ih

/-! ### The refinement -/

theorem step_exists {h : Heap} {σ σ' : State} {op : Op} (i : Inv h σ) (s : Step σ op σ') : ∃ h', Exec h op h' := by
  cases s with
  | sort hl ht hne =>
    obtain ⟨h', h1, _⟩ := i.sort hl ht hne _ (Nat.lt_succ_self _)
    exact ⟨h', .sort h1⟩
  | push => exact ⟨_, .push⟩
  | pushBack => exact ⟨_, .pushBack⟩
  | before => exact ⟨_, .before⟩
  | after => exact ⟨_, .after⟩
  | pop => exact ⟨_, .pop⟩
  | popEmpty => exact ⟨_, .pop⟩
  | popBack => exact ⟨_, .popBack⟩
  | popBackEmpty => exact ⟨_, .popBack⟩
  | out => exact ⟨_, .out⟩
  | outFree => exact ⟨_, .out⟩

theorem step_inv {h h' : Heap} {σ σ' : State} {op : Op} (i : Inv h σ) (s : Step σ op σ') (e : Exec h op h') : Inv h' σ' := by
  cases s with
  | push hl he hne => cases e; exact i.push hl he hne
  | pushBack hl he hne => cases e; exact i.pushBack hl he hne
  | before hx he hne => cases e; exact i.before hx he hne
  | after hx he hne => cases e; exact i.after hx he hne
  | pop hx =>
    cases e
    simp only [Heap.pop, i.next_head hx]
    exact i.remove (l := []) hx
  | popEmpty hf =>
    cases e
    simp only [Heap.pop, (i.free_self hf).1]
    exact i.outFree hf
  | popBack hx =>
    cases e
    simp only [Heap.popBack, i.prev_head hx]
    have := i.remove hx
    simpa using this
  | popBackEmpty hf =>
    cases e
    simp only [Heap.popBack, (i.free_self hf).2]
    exact i.outFree hf
  | out hx => cases e; exact i.remove hx
  | outFree hf => cases e; exact i.outFree hf
  | @sort hd tmp cmp hl ht hne =>
    cases e with
    | @sort _ _ _ fuel _ he =>
      obtain ⟨h1, a1, a2⟩ := i.sort (cmp := cmp) hl ht hne (fuel + (2 * (σ hd).length + 1)) (by omega)
      have := sort_mono _ _ _ _ _ _ (2 * (σ hd).length + 1) he
      rw [this] at a1
      simp at a1
      rw [a1]; exact a2

/-! ### Walking -/

theorem Seg.forward {h : Heap} {a b : Addr} {xs : List Addr} (s : Seg h a xs b) : forward h (xs.length + 1) a = xs ++ [b] := by
  induction xs generalizing a with
  | nil => simp [Link.forward, s.1]
  | cons x xs ih => rw [List.length_cons, Link.forward, s.1, ih s.2.2]; simp

theorem Seg.backward {h : Heap} {a b : Addr} {xs : List Addr} (s : Seg h a xs b) : backward h (xs.length + 1) b = xs.reverse ++ [a] := by
  obtain ⟨n, hn⟩ : ∃ n, xs.length = n := ⟨_, rfl⟩
  induction n generalizing b xs with
  | zero =>
    obtain rfl := List.length_eq_zero_iff.1 hn
    simp [Link.backward, s.2]
  | succ n ih =>
    have hne : xs ≠ [] := by rintro rfl; simp at hn
    obtain ⟨ys, y, rfl⟩ : ∃ ys y, xs = ys ++ [y] := ⟨xs.dropLast, xs.getLast hne, (List.dropLast_concat_getLast hne).symm⟩
    have := seg_append.1 s
    rw [List.length_append, List.length_singleton, Link.backward, this.2.2, ih this.1 (by simp at hn; exact hn)]
    simp

theorem Seg.count {h : Heap} {this a : Addr} {xs : List Addr} (s : Seg h a xs this) (hn : this ∉ xs) (fuel c : Nat)
    (hf : xs.length < fuel) : countLoop h this fuel (h.next a) c = some (c + xs.length) := by
  induction xs generalizing a fuel c with
  | nil =>
    cases fuel with
    | zero => omega
    | succ fuel => rw [s.1, countLoop]; simp
  | cons x xs ih =>
    cases fuel with
    | zero => omega
    | succ fuel =>
      simp at hn
      rw [s.1, countLoop, if_neg (fun h => hn.1 h.symm), ih s.2.2 hn.2 fuel _ (by simp at hf; omega)]
      simp; omega

theorem eachLoop_spec (head : Addr) (remove : Addr → Bool) (rest : List Addr) : ∀ (keep : List Addr) (h : Heap) (σ : State)
    (_ : Inv h σ) (_ : ¬ Listed σ head) (_ : σ head = keep ++ rest) (fuel : Nat) (_ : rest.length < fuel),
    ∃ h', eachLoop head remove fuel h ((rest ++ [head]).head (by simp)) (h.next ((rest ++ [head]).head (by simp))) = some (rest, h') ∧
      Inv h' (σ.set head (keep ++ rest.filter (fun p => !remove p))) := by
  induction rest with
  | nil =>
    intro keep h σ i hl hx fuel hf
    cases fuel with
    | zero => omega
    | succ fuel =>
      refine ⟨h, by rw [eachLoop]; simp, ?_⟩
      simp only [List.filter_nil]
      rw [← hx, set_id]; exact i
  | cons x rest ih =>
    intro keep h σ i hl hx fuel hf
    cases fuel with
    | zero => omega
    | succ fuel =>
      have hs := i.ring head hl
      rw [hx] at hs
      have hnx := (seg_append.1 hs).2.next_eq
      obtain ⟨hfree, hxh⟩ := i.free_after hx
      show ∃ h', eachLoop head remove (fuel + 1) h x (h.next x) = some (x :: rest, h') ∧ _
      rw [eachLoop, if_neg hxh, hnx]
      by_cases hr : remove x = true
      · have i1 := i.remove hx
        have hl1 : ¬ Listed (σ.set head (keep ++ rest)) head := by
          rintro ⟨b, hb⟩
          unfold State.set at hb
          split at hb
          · apply hl
            refine ⟨head, ?_⟩
            rw [hx]
            simp at hb ⊢
            rcases hb with hb | hb
            · exact .inl hb
            · exact .inr (.inr hb)
          · exact hl ⟨b, hb⟩
        obtain ⟨h', g1, g2⟩ := ih keep (h.out x) _ i1 hl1 (by simp [State.set]) fuel (by simp at hf; omega)
        refine ⟨h', ?_, ?_⟩
        · simp only [hr, if_true]
          rw [g1]; simp
        · rw [set_set] at g2
          rw [List.filter_cons, if_neg (by simp [hr])]
          exact g2
      · obtain ⟨h', g1, g2⟩ := ih (keep ++ [x]) h σ i hl (by simp [hx]) fuel (by simp at hf; omega)
        refine ⟨h', ?_, ?_⟩
        · simp only [hr]
          simp only [Bool.false_eq_true, if_false]
          rw [g1]; simp
        · rw [List.filter_cons, if_pos (by simpa using hr)]
          simpa using g2

/-! ### Insertion sort on sequences -/

theorem sublist_insert (cmp : Addr → Addr → Int) (p : Addr) (ys : List Addr) : ys.Sublist (insertStable cmp p ys) := by
  obtain ⟨l, r, h1, h2, _⟩ := insertStable_split cmp p ys
  rw [h2, h1]
  exact (List.Sublist.refl l).append (List.sublist_cons_self p r)

theorem sublist_foldl (cmp : Addr → Addr → Int) (xs ys : List Addr) :
    ys.Sublist (xs.foldl (fun ys p => insertStable cmp p ys) ys) := by
  induction xs generalizing ys with
  | nil => exact List.Sublist.refl _
  | cons x xs ih => exact (sublist_insert cmp x ys).trans (ih _)

section
variable {cmp : Addr → Addr → Int} (anti : ∀ a b, 0 < cmp a b → ¬ 0 < cmp b a)
  (trans : ∀ a b c, ¬ 0 < cmp a b → ¬ 0 < cmp b c → ¬ 0 < cmp a c)
include anti trans

theorem insert_sorted (p : Addr) (ys : List Addr) (hs : ys.Pairwise (fun a b => ¬ 0 < cmp a b)) :
    (insertStable cmp p ys).Pairwise (fun a b => ¬ 0 < cmp a b) := by
  obtain ⟨l, r, h1, h2, h3, h4⟩ := insertStable_split cmp p ys
  rw [h2]
  rw [h1, List.pairwise_append] at hs
  obtain ⟨a1, a2, a3⟩ := hs
  have hpr : ∀ x ∈ r, ¬ 0 < cmp p x := by
    cases r with
    | nil => simp
    | cons q r =>
      have hq := anti _ _ (h4 q (by simp))
      intro x hx
      simp at hx
      rcases hx with hx | hx
      · rw [hx]; exact hq
      · exact trans _ _ _ hq ((List.pairwise_cons.1 a2).1 x hx)
  rw [List.pairwise_append, List.pairwise_cons]
  refine ⟨a1, ⟨hpr, a2⟩, ?_⟩
  intro x hx y hy
  simp at hy
  rcases hy with hy | hy
  · rw [hy]; exact h3 x hx
  · exact a3 x hx y hy

theorem foldl_sorted (xs ys : List Addr) (hs : ys.Pairwise (fun a b => ¬ 0 < cmp a b)) :
    (xs.foldl (fun ys p => insertStable cmp p ys) ys).Pairwise (fun a b => ¬ 0 < cmp a b) := by
  induction xs generalizing ys with
  | nil => exact hs
  | cons x xs ih => exact ih _ (insert_sorted anti trans x ys hs)

theorem insert_after (a p : Addr) (ys : List Addr) (hs : ys.Pairwise (fun a b => ¬ 0 < cmp a b)) (ha : a ∈ ys)
    (hle : ¬ 0 < cmp a p) : [a, p].Sublist (insertStable cmp p ys) := by
  obtain ⟨l, r, h1, h2, h3, h4⟩ := insertStable_split cmp p ys
  have hal : a ∈ l := by
    rw [h1] at ha
    simp at ha
    rcases ha with ha | ha
    · exact ha
    · exfalso
      cases r with
      | nil => simp at ha
      | cons q r =>
        have hq := h4 q (by simp)
        simp at ha
        rcases ha with ha | ha
        · rw [ha] at hle; exact hle hq
        · rw [h1, List.pairwise_append] at hs
          exact trans _ _ _ ((List.pairwise_cons.1 hs.2.1).1 a ha) hle hq
  rw [h2]
  exact (List.singleton_sublist.2 hal).append (List.singleton_sublist.2 (by simp))

theorem foldl_after (a b : Addr) (xs ys : List Addr) (hs : ys.Pairwise (fun a b => ¬ 0 < cmp a b)) (ha : a ∈ ys) (hb : b ∈ xs)
    (hle : ¬ 0 < cmp a b) : [a, b].Sublist (xs.foldl (fun ys p => insertStable cmp p ys) ys) := by
  induction xs generalizing ys with
  | nil => simp at hb
  | cons x xs ih =>
    simp at hb
    rcases hb with hb | hb
    · subst hb
      exact (insert_after anti trans a b ys hs ha hle).trans (sublist_foldl _ _ _)
    · exact ih _ (insert_sorted anti trans x ys hs) ((sublist_insert cmp x ys).subset ha) hb

theorem foldl_stable (a b : Addr) (xs ys : List Addr) (hs : ys.Pairwise (fun a b => ¬ 0 < cmp a b)) (hab : [a, b].Sublist xs)
    (hle : ¬ 0 < cmp a b) : [a, b].Sublist (xs.foldl (fun ys p => insertStable cmp p ys) ys) := by
  induction xs generalizing ys with
  | nil => simp at hab
  | cons x xs ih =>
    cases hab with
    | cons _ h => exact ih _ (insert_sorted anti trans x ys hs) h
    | cons_cons _ h =>
      refine foldl_after anti trans a b xs _ (insert_sorted anti trans _ ys hs) ?_ (List.singleton_sublist.1 h) hle
      exact (insertStable_perm cmp a ys).mem_iff.2 (by simp)
end

end H2.Link
