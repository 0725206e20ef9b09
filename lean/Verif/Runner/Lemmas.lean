import Verif.Runner.Spec
namespace H2.Runner

/-! ### Sorting -/

theorem insertStable_perm {α : Type} (cmp : α → α → Int) (p : α) (xs : List α) : (insertStable cmp p xs).Perm (p :: xs) := by
  induction xs with
  | nil => exact .refl _
  | cons q qs ih =>
    unfold insertStable
    split
    · exact .refl _
    · exact (ih.cons q).trans (.swap ..)

theorem sort_foldl_perm {α : Type} (cmp : α → α → Int) (xs ys : List α) :
    (xs.foldl (fun ys p => insertStable cmp p ys) ys).Perm (xs ++ ys) := by
  induction xs generalizing ys with
  | nil => exact .refl _
  | cons x xs ih =>
    refine (ih _).trans ?_
    refine ((insertStable_perm cmp x ys).append_left xs).trans ?_
    exact List.perm_middle

theorem sort_perm {α : Type} (cmp : α → α → Int) (xs : List α) : (sort cmp xs).Perm xs := by
  have := sort_foldl_perm cmp xs []
  rwa [List.append_nil] at this

/-- Comparisons that order: no two elements each greater than the other, and "not greater" is
transitive. -/
structure Ordering {α : Type} (cmp : α → α → Int) : Prop where
  anti : ∀ a b, 0 < cmp a b → ¬ 0 < cmp b a
  trans : ∀ a b c, ¬ 0 < cmp a b → ¬ 0 < cmp b c → ¬ 0 < cmp a c

theorem insertStable_sorted {α : Type} {cmp : α → α → Int} (o : Ordering cmp) (p : α) {xs : List α}
    (h : xs.Pairwise fun a b => ¬ 0 < cmp a b) : (insertStable cmp p xs).Pairwise fun a b => ¬ 0 < cmp a b := by
  induction xs with
  | nil => simp [insertStable]
  | cons q qs ih =>
    rw [List.pairwise_cons] at h
    unfold insertStable
    split
    · rename_i hq
      rw [List.pairwise_cons]
      refine ⟨?_, List.pairwise_cons.2 h⟩
      intro b hb
      rcases List.mem_cons.1 hb with e | e
      · subst e; exact o.anti _ _ hq
      · exact o.trans _ _ _ (o.anti _ _ hq) (h.1 b e)
    · rename_i hq
      rw [List.pairwise_cons]
      refine ⟨?_, ih h.2⟩
      intro b hb
      rcases List.mem_cons.1 ((insertStable_perm cmp p qs).mem_iff.1 hb) with e | e
      · subst e; exact hq
      · exact h.1 b e

theorem sort_foldl_sorted {α : Type} {cmp : α → α → Int} (o : Ordering cmp) (xs : List α) {ys : List α}
    (h : ys.Pairwise fun a b => ¬ 0 < cmp a b) :
    (xs.foldl (fun ys p => insertStable cmp p ys) ys).Pairwise fun a b => ¬ 0 < cmp a b := by
  induction xs generalizing ys with
  | nil => exact h
  | cons x xs ih => exact ih (insertStable_sorted o x h)

theorem sort_sorted {α : Type} {cmp : α → α → Int} (o : Ordering cmp) (xs : List α) :
    (sort cmp xs).Pairwise fun a b => ¬ 0 < cmp a b := sort_foldl_sorted o xs List.Pairwise.nil

theorem insertStable_sublist {α : Type} (cmp : α → α → Int) (p : α) (xs : List α) : xs.Sublist (insertStable cmp p xs) := by
  induction xs with
  | nil => exact List.nil_sublist _
  | cons q qs ih =>
    unfold insertStable
    split
    · exact .cons _ (.refl _)
    · exact ih.cons_cons q

theorem insertStable_after {α : Type} {cmp : α → α → Int} (o : Ordering cmp) {a p : α} (ha : ¬ 0 < cmp a p) {xs : List α} (hm : a ∈ xs)
    (hs : xs.Pairwise fun a b => ¬ 0 < cmp a b) : [a, p].Sublist (insertStable cmp p xs) := by
  induction xs with
  | nil => cases hm
  | cons q qs ih =>
    rw [List.pairwise_cons] at hs
    have hq : ¬ 0 < cmp q p := by
      rcases List.mem_cons.1 hm with e | e
      · subst e; exact ha
      · exact o.trans _ _ _ (hs.1 a e) ha
    unfold insertStable
    rw [if_neg hq]
    rcases List.mem_cons.1 hm with e | e
    · subst e
      refine List.Sublist.cons_cons _ ?_
      rw [List.singleton_sublist]
      exact (insertStable_perm cmp p qs).mem_iff.2 (List.mem_cons_self ..)
    · exact .cons _ (ih e hs.2)

theorem foldl_sublist {α : Type} (cmp : α → α → Int) (xs ys : List α) :
    ys.Sublist (xs.foldl (fun ys p => insertStable cmp p ys) ys) := by
  induction xs generalizing ys with
  | nil => exact .refl _
  | cons x xs ih => exact (insertStable_sublist cmp x ys).trans (ih _)

theorem sort_stable {α : Type} {cmp : α → α → Int} (o : Ordering cmp) {xs : List α} {a b : α} (h : [a, b].Sublist xs) (hab : ¬ 0 < cmp a b) :
    [a, b].Sublist (sort cmp xs) := by
  have key : ∀ (xs ys : List α), (ys.Pairwise fun a b => ¬ 0 < cmp a b) →
      ([a, b].Sublist xs ∨ (a ∈ ys ∧ b ∈ xs)) → [a, b].Sublist (xs.foldl (fun ys p => insertStable cmp p ys) ys) := by
    intro xs
    induction xs with
    | nil =>
      intro ys _ h
      rcases h with h | h
      · exact absurd h (by simp)
      · cases h.2
    | cons x xs ih =>
      intro ys hs h
      rw [List.foldl_cons]
      rcases h with h | ⟨ha, hb⟩
      · cases h with
        | cons _ h => exact ih _ (insertStable_sorted o x hs) (.inl h)
        | cons_cons _ h =>
          refine ih _ (insertStable_sorted o a hs) (.inr ⟨(insertStable_perm cmp a ys).mem_iff.2 (List.mem_cons_self ..), ?_⟩)
          exact List.singleton_sublist.1 h
      · rcases List.mem_cons.1 hb with e | e
        · subst e
          exact (insertStable_after o hab ha hs).trans (foldl_sublist cmp xs _)
        · exact ih _ (insertStable_sorted o x hs) (.inr ⟨(insertStable_perm cmp x ys).mem_iff.2 (List.mem_cons_of_mem _ ha), e⟩)
  exact key xs [] .nil (.inl h)

/-! ### One case -/

structure CaseSpec (o : Opts) (round : Nat) (l : Loop) (c : Case) (r : Case × Loop) (e : Event) : Prop where
  log : r.2.log = l.log ++ [e]
  case : e.case = r.1
  round : e.round = round
  stats : ∀ b, r.2.stats.get b = l.stats.get b + if e.is b = true then 1 else 0
  suite : ∀ b, r.2.suite.get b = l.suite.get b + if e.is b = true then 1 else 0
  ran : e.ran = (!o.lists && !e.case.todo && !e.case.filtered && !e.case.ignored)
  ignored : e.case.ignored = true ↔ (0 < o.breakAfter ∧ o.breakAfter ≤ l.stats.failed) ∨ (o.onlyLast = true ∧ c.lastFailed = false) ∨ c.ignored = true
  id : r.1.id = c.id
  same : r.1 = { c with ignored := r.1.ignored, failed := r.1.failed, warning := r.1.warning }

theorem runCase_spec (o : Opts) (env : Env) (round : Nat) (l : Loop) (c : Case) : ∃ e, CaseSpec o round l c (runCase o env round l c) e := by
  obtain ⟨c1, hc1⟩ : ∃ c1, (if (0 < o.breakAfter ∧ o.breakAfter ≤ l.stats.failed) ∨ (o.onlyLast = true ∧ c.lastFailed = false) then { c with ignored := true } else c) = c1 := ⟨_, rfl⟩
  have hign : c1.ignored = true ↔ (0 < o.breakAfter ∧ o.breakAfter ≤ l.stats.failed) ∨ (o.onlyLast = true ∧ c.lastFailed = false) ∨ c.ignored = true := by
    rw [← hc1]
    split
    · rename_i h
      simp only [true_iff]
      rcases h with h | h
      · exact .inl h
      · exact .inr (.inl h)
    · rename_i h
      constructor
      · intro x; exact .inr (.inr x)
      · rintro (x | x | x)
        · exact absurd (.inl x) h
        · exact absurd (.inr x) h
        · exact x
  have hsame : c1 = { c with ignored := c1.ignored } := by
    rw [← hc1]; split <;> rfl
  have hid : c1.id = c.id := by rw [hsame]
  unfold runCase
  simp only [hc1]
  by_cases hr : (!o.lists && !c1.todo && !c1.filtered && !c1.ignored) = true
  · rw [if_pos hr]
    have hi : c1.ignored = false := by revert hr; cases c1.ignored <;> simp
    have hf : c1.filtered = false := by revert hr; cases c1.filtered <;> simp
    have ht : c1.todo = false := by revert hr; cases c1.todo <;> simp
    have hl : o.lists = false := by revert hr; cases o.lists <;> simp
    refine ⟨⟨round, _, true⟩, rfl, rfl, rfl, ?_, ?_, ?_, hign, hid, ?_⟩
    · intro b
      simp only [Stats.skip, hi, hf, ht, Stats.ran]
      rcases env l.log c1 with ⟨r1, r2⟩
      cases b <;> cases r1 <;> cases r2 <;> simp [Stats.get, Event.is]
    · intro b
      simp only [Stats.skip, hi, hf, ht, Stats.ran]
      rcases env l.log c1 with ⟨r1, r2⟩
      cases b <;> cases r1 <;> cases r2 <;> simp [Stats.get, Event.is]
    · simp only [hl, ht, hf, hi]; rfl
    · show ({ c1 with failed := _, warning := _ } : Case) = _
      rw [hsame]
  · rw [if_neg hr]
    have hr' : (!o.lists && !c1.todo && !c1.filtered && !c1.ignored) = false := by simpa using hr
    refine ⟨⟨round, c1, false⟩, rfl, rfl, rfl, ?_, ?_, hr'.symm, hign, hid, ?_⟩
    · intro b
      simp only [Stats.skip]
      cases h1 : c1.ignored <;> cases h2 : c1.filtered <;> cases h3 : c1.todo <;> cases b <;> simp [Stats.get, Event.is, h1, h2, h3]
    · intro b
      simp only [Stats.skip]
      cases h1 : c1.ignored <;> cases h2 : c1.filtered <;> cases h3 : c1.todo <;> cases b <;> simp [Stats.get, Event.is, h1, h2, h3]
    · show c1 = _
      rw [hsame]

/-! ### An induction principle for the whole run -/

/-- `J` about the counts and the reports, `K` about each case, are kept by the run. -/
structure Kept (o : Opts) (J : Stats → List Event → Prop) (K : List Event → Case → Prop) : Prop where
  case : ∀ round l c r e, J l.stats l.log → K l.log c → CaseSpec o round l c r e → J r.2.stats r.2.log ∧ K r.2.log r.1
  mono : ∀ log e c, K log c → K (log ++ [e]) c
  seq : ∀ log c seq last, K log c → K log { c with seq := seq, lastFailed := last }

variable {o : Opts} {J : Stats → List Event → Prop} {K : List Event → Case → Prop}

theorem runCases_kept (k : Kept o J K) (env : Env) (round : Nat) (cs : List Case) : ∀ (l : Loop) (others : List Case), J l.stats l.log →
    (∀ c ∈ cs, K l.log c) → (∀ c ∈ others, K l.log c) →
    J (runCases o env round l cs).2.stats (runCases o env round l cs).2.log ∧
      (∀ c ∈ (runCases o env round l cs).1, K (runCases o env round l cs).2.log c) ∧
      (∀ c ∈ others, K (runCases o env round l cs).2.log c) := by
  induction cs with
  | nil => intro l others hj _ ho; exact ⟨hj, by simp [runCases], ho⟩
  | cons c cs ih =>
    intro l others hj hk ho
    obtain ⟨e, sp⟩ := runCase_spec o env round l c
    obtain ⟨j1, k1⟩ := k.case round l c _ e hj (hk c (List.mem_cons_self ..)) sp
    have hcs : ∀ c' ∈ cs, K (runCase o env round l c).2.log c' := by
      intro c' hc'; rw [sp.log]; exact k.mono _ _ _ (hk c' (List.mem_cons_of_mem _ hc'))
    have hos : ∀ c' ∈ (runCase o env round l c).1 :: others, K (runCase o env round l c).2.log c' := by
      intro c' hc'
      rcases List.mem_cons.1 hc' with x | x
      · subst x; exact k1
      · rw [sp.log]; exact k.mono _ _ _ (ho c' x)
    obtain ⟨a, b, d⟩ := ih _ ((runCase o env round l c).1 :: others) j1 hcs hos
    refine ⟨a, ?_, fun c' hc' => d c' (List.mem_cons_of_mem _ hc')⟩
    intro c' hc'
    simp only [runCases] at hc'
    rcases List.mem_cons.1 hc' with x | x
    · subst x; exact d _ (List.mem_cons_self ..)
    · exact b c' x

theorem runSuites_kept (k : Kept o J K) (env : Env) (round : Nat) (ss : List Suite) : ∀ (st : Stats) (log : List Event) (sl : List (Nat × Stats)) (others : List Case),
    J st log → (∀ c ∈ allCases ss, K log c) → (∀ c ∈ others, K log c) →
    J (runSuites o env round st log sl ss).2.1 (runSuites o env round st log sl ss).2.2.1 ∧
      (∀ c ∈ allCases (runSuites o env round st log sl ss).1, K (runSuites o env round st log sl ss).2.2.1 c) ∧
      (∀ c ∈ others, K (runSuites o env round st log sl ss).2.2.1 c) := by
  induction ss with
  | nil => intro st log sl others hj _ ho; exact ⟨hj, by simp [runSuites, allCases], ho⟩
  | cons s ss ih =>
    intro st log sl others hj hk ho
    have hs : ∀ c ∈ s.cases, K log c := fun c hc => hk c (by simp only [allCases, List.flatMap_cons]; exact List.mem_append_left _ hc)
    have hss : ∀ c ∈ allCases ss, K log c := fun c hc => hk c (by simp only [allCases, List.flatMap_cons]; exact List.mem_append_right _ hc)
    obtain ⟨a, b, d⟩ := runCases_kept k env round s.cases ⟨st, {}, log⟩ (others ++ allCases ss) hj hs
      (fun c hc => (List.mem_append.1 hc).elim (ho c) (hss c))
    obtain ⟨r, hr⟩ : ∃ r, runCases o env round ⟨st, {}, log⟩ s.cases = r := ⟨_, rfl⟩
    rw [hr] at a b d
    obtain ⟨a2, b2, d2⟩ := ih r.2.stats r.2.log (sl ++ [(s.id, r.2.suite)]) (others ++ r.1) a
      (fun c hc => d c (List.mem_append_right _ hc))
      (fun c hc => (List.mem_append.1 hc).elim (fun x => d c (List.mem_append_left _ x)) (b c))
    simp only [runSuites, hr]
    refine ⟨a2, ?_, fun c hc => d2 c (List.mem_append_left _ hc)⟩
    intro c hc
    simp only [allCases, List.flatMap_cons] at hc
    rcases List.mem_append.1 hc with x | x
    · exact d2 c (List.mem_append_right _ x)
    · exact b2 c x

/-- Related element by element. -/
inductive All₂ {α β : Type} (R : α → β → Prop) : List α → List β → Prop where
  | nil : All₂ R [] []
  | cons {a b as bs} : R a b → All₂ R as bs → All₂ R (a :: as) (b :: bs)

/-! Restoring and shuffling only change sequence numbers, marks and the order. -/

/-- `c'` is `c` up to sequence number and mark. -/
def Like (c c' : Case) : Prop := ∃ seq last, c' = { c with seq := seq, lastFailed := last }

theorem Like.refl (c : Case) : Like c c := ⟨c.seq, c.lastFailed, rfl⟩
theorem Like.trans {a b c : Case} (h1 : Like a b) (h2 : Like b c) : Like a c := by
  obtain ⟨s1, l1, rfl⟩ := h1
  obtain ⟨s2, l2, rfl⟩ := h2
  exact ⟨s2, l2, rfl⟩

theorem Like.id {a b : Case} (h : Like a b) : b.id = a.id := by obtain ⟨_, _, rfl⟩ := h; rfl

theorem findIn_like (file cname : List Char) (failed : Bool) (cs : List Case) : ∀ seq : Int,
    All₂ Like cs (findIn file cname failed cs seq).1 := by
  induction cs with
  | nil => intro seq; exact .nil
  | cons c cs ih =>
    intro seq
    unfold findIn
    split
    · exact .cons ⟨_, _, rfl⟩ (ih _)
    · exact .cons (Like.refl c) (ih _)

/-- Suites alike: the same objects, cases alike. -/
structure SuiteLike (s s' : Suite) : Prop where
  id : s'.id = s.id
  name : s'.name = s.name
  file : s'.file = s.file
  line : s'.line = s.line
  cases : All₂ Like s.cases s'.cases

theorem forall₂_refl {α : Type} {R : α → α → Prop} (h : ∀ a, R a a) (l : List α) : All₂ R l l := by
  induction l with
  | nil => exact .nil
  | cons x xs ih => exact .cons (h x) ih

theorem forall₂_trans {α : Type} {R : α → α → Prop} (h : ∀ a b c, R a b → R b c → R a c) {l1 l2 l3 : List α} (h1 : All₂ R l1 l2)
    (h2 : All₂ R l2 l3) : All₂ R l1 l3 := by
  induction h1 generalizing l3 with
  | nil => exact h2
  | cons a _ ih => cases h2 with | cons b c => exact .cons (h _ _ _ a b) (ih c)

theorem SuiteLike.refl (s : Suite) : SuiteLike s s := ⟨rfl, rfl, rfl, rfl, forall₂_refl Like.refl _⟩
theorem SuiteLike.trans {a b c : Suite} (h1 : SuiteLike a b) (h2 : SuiteLike b c) : SuiteLike a c :=
  ⟨h2.id.trans h1.id, h2.name.trans h1.name, h2.file.trans h1.file, h2.line.trans h1.line, forall₂_trans (R := Like) (fun _ _ _ => Like.trans) h1.cases h2.cases⟩

theorem findCase_like (file sname cname : List Char) (failed : Bool) (ss : List Suite) : ∀ seq : Int,
    All₂ SuiteLike ss (findCase file sname cname failed ss seq).1 := by
  induction ss with
  | nil => intro seq; exact .nil
  | cons s ss ih =>
    intro seq
    unfold findCase
    split
    · exact .cons ⟨rfl, rfl, rfl, rfl, findIn_like ..⟩ (ih _)
    · exact .cons (SuiteLike.refl s) (ih _)

theorem sequence_like (n : Nat) : ∀ (cs : List Char) (ss : List Suite) (seq : Int), All₂ SuiteLike ss (sequence n cs ss seq).1 := by
  induction n with
  | zero => intro cs ss seq; exact forall₂_refl SuiteLike.refl _
  | succ n ih =>
    intro cs ss seq
    unfold sequence
    split
    · exact forall₂_refl SuiteLike.refl _
    · exact forall₂_trans (R := SuiteLike) (fun _ _ _ => SuiteLike.trans) (findCase_like ..) (ih ..)

/-- The same cases up to sequence numbers and marks, in any order. -/
def Alike (xs ys : List Case) : Prop := ∃ zs, All₂ Like xs zs ∧ ys.Perm zs

theorem forall₂_perm {α : Type} {R : α → α → Prop} {l1 l1' l2 : List α} (p : l1.Perm l1') (h : All₂ R l1 l2) :
    ∃ l2', All₂ R l1' l2' ∧ l2.Perm l2' := by
  induction p generalizing l2 with
  | nil => exact ⟨l2, h, .refl _⟩
  | cons a _ ih =>
    cases h with
    | cons x y =>
      obtain ⟨l, h1, h2⟩ := ih y
      exact ⟨_, .cons x h1, h2.cons _⟩
  | swap a b l =>
    cases h with
    | cons x y => cases y with | cons z w => exact ⟨_, .cons z (.cons x w), .swap ..⟩
  | trans _ _ ih1 ih2 =>
    obtain ⟨l, h1, h2⟩ := ih1 h
    obtain ⟨l', h3, h4⟩ := ih2 h1
    exact ⟨l', h3, h2.trans h4⟩

theorem Alike.refl (xs : List Case) : Alike xs xs := ⟨xs, forall₂_refl Like.refl _, .refl _⟩
theorem Alike.trans {a b c : List Case} (h1 : Alike a b) (h2 : Alike b c) : Alike a c := by
  obtain ⟨z, f1, p1⟩ := h1
  obtain ⟨w, f2, p2⟩ := h2
  obtain ⟨v, f3, p3⟩ := forall₂_perm p1 f2
  exact ⟨v, forall₂_trans (R := Like) (fun _ _ _ => Like.trans) f1 f3, p2.trans p3⟩
theorem Alike.append {a b c d : List Case} (h1 : Alike a b) (h2 : Alike c d) : Alike (a ++ c) (b ++ d) := by
  obtain ⟨z, f1, p1⟩ := h1
  obtain ⟨w, f2, p2⟩ := h2
  refine ⟨z ++ w, ?_, p1.append p2⟩
  clear p1
  induction f1 with
  | nil => exact f2
  | cons x _ ih => exact .cons x ih
theorem Alike.of_perm {a b : List Case} (h : b.Perm a) : Alike a b := ⟨a, forall₂_refl Like.refl _, h⟩

theorem Alike.mem {a b : List Case} (h : Alike a b) {c : Case} (hc : c ∈ b) : ∃ c0 ∈ a, Like c0 c := by
  obtain ⟨z, f, p⟩ := h
  have hz := p.mem_iff.1 hc
  clear p hc
  induction f with
  | nil => cases hz
  | cons x _ ih =>
    rcases List.mem_cons.1 hz with e | e
    · subst e; exact ⟨_, List.mem_cons_self .., x⟩
    · obtain ⟨c0, h0, h1⟩ := ih e
      exact ⟨c0, List.mem_cons_of_mem _ h0, h1⟩

theorem Alike.ids {a b : List Case} (h : Alike a b) : (b.map (·.id)).Perm (a.map (·.id)) := by
  obtain ⟨z, f, p⟩ := h
  have : z.map (·.id) = a.map (·.id) := by
    clear p
    induction f with
    | nil => rfl
    | cons x _ ih => simp only [List.map_cons, ih, x.id]
  rw [← this]
  exact p.map _

theorem alike_of_suites {ss ss' : List Suite} (h : All₂ SuiteLike ss ss') : Alike (allCases ss) (allCases ss') := by
  induction h with
  | nil => exact Alike.refl _
  | cons x _ ih =>
    simp only [allCases, List.flatMap_cons] at *
    exact Alike.append ⟨_, x.cases, .refl _⟩ ih

theorem restore_like (st : State) : All₂ SuiteLike st.suites st.restore.suites := by
  unfold State.restore
  split
  · exact forall₂_refl SuiteLike.refl _
  · exact sequence_like ..

theorem perm_flatMap {ss ss' : List Suite} (p : ss.Perm ss') : (allCases ss).Perm (allCases ss') := by
  unfold allCases
  exact List.Perm.flatMap_right (·.cases) p

theorem sortAll_alike (cmp : Key → Key → Int) (ss : List Suite) : Alike (allCases ss) (allCases (sortAll cmp ss)) := by
  apply Alike.of_perm
  unfold sortAll
  refine List.Perm.trans ?_ (perm_flatMap (sort_perm (fun (a b : Suite) => cmp a.key b.key) ss))
  generalize sort (fun (a b : Suite) => cmp a.key b.key) ss = ts
  unfold allCases
  induction ts with
  | nil => exact .refl _
  | cons t ts ih =>
    simp only [List.map_cons, List.flatMap_cons]
    exact (sort_perm _ _).append ih

theorem randomize_like (rnd : Nat → Int) (s : Suite) : SuiteLike s (randomize rnd s) := by
  refine ⟨rfl, rfl, rfl, rfl, ?_⟩
  simp only [randomize]
  generalize s.cases = cs
  induction cs with
  | nil => exact .nil
  | cons c cs ih => exact .cons ⟨_, c.lastFailed, rfl⟩ ih

theorem shuffle_alike (o : Opts) (rnd : Nat → Int) (st : State) : Alike (allCases st.suites) (allCases (st.shuffle o rnd).suites) := by
  have h0 := alike_of_suites (restore_like st)
  unfold State.shuffle
  simp only
  split
  · exact h0.trans (sortAll_alike ..)
  · split
    · refine h0.trans (Alike.trans ?_ (sortAll_alike ..))
      split
      · apply alike_of_suites
        generalize st.restore.suites = ss
        induction ss with
        | nil => exact .nil
        | cons s ss ih => exact .cons (randomize_like rnd s) ih
      · exact Alike.refl _
    · exact h0

theorem shuffle_rest (o : Opts) (rnd : Nat → Int) (st : State) : (st.shuffle o rnd).stats = st.stats ∧ (st.shuffle o rnd).log = st.log ∧
    (st.shuffle o rnd).suiteLog = st.suiteLog := by
  have h : st.restore.stats = st.stats ∧ st.restore.log = st.log ∧ st.restore.suiteLog = st.suiteLog := by
    unfold State.restore; split <;> exact ⟨rfl, rfl, rfl⟩
  unfold State.shuffle
  simp only
  split
  · exact h
  · split <;> exact h

/-- The part of a round after shuffling. -/
def State.afterShuffle (o : Opts) (env : Env) (round : Nat) (st : State) : State :=
  let r := runSuites o env round st.stats st.log st.suiteLog st.suites
  { st with suites := r.1, stats := r.2.1, log := r.2.2.1, suiteLog := r.2.2.2 }

theorem round_eq (o : Opts) (env : Env) (rnd : Nat → Int) (round : Nat) (st : State) :
    ∃ f, st.round o env rnd round = { (st.shuffle o rnd).afterShuffle o env round with lastOrder := f } := by
  unfold State.round State.afterShuffle
  simp only
  split
  · exact ⟨none, rfl⟩
  · split
    · exact ⟨_, rfl⟩
    · exact ⟨_, rfl⟩

theorem round_kept (k : Kept o J K) (env : Env) (rnd : Nat → Int) (round : Nat) (st : State) (hj : J st.stats st.log) (hk : ∀ c ∈ allCases st.suites, K st.log c) :
    J (st.round o env rnd round).stats (st.round o env rnd round).log ∧ ∀ c ∈ allCases (st.round o env rnd round).suites, K (st.round o env rnd round).log c := by
  obtain ⟨f, e⟩ := round_eq o env rnd round st
  rw [e]
  obtain ⟨r1, r2, r3⟩ := shuffle_rest o rnd st
  have hk' : ∀ c ∈ allCases (st.shuffle o rnd).suites, K st.log c := by
    intro c hc
    obtain ⟨c0, h0, s, l, rfl⟩ := (shuffle_alike o rnd st).mem hc
    exact k.seq _ _ _ _ (hk c0 h0)
  have := runSuites_kept k env round (st.shuffle o rnd).suites (st.shuffle o rnd).stats (st.shuffle o rnd).log (st.shuffle o rnd).suiteLog []
    (by rw [r1, r2]; exact hj) (by rw [r2]; exact hk') (by simp)
  exact ⟨this.1, this.2.1⟩

theorem rounds_kept (k : Kept o J K) (env : Env) (rnd : Nat → Nat → Int) (n : Nat) (st : State) (hj : J st.stats st.log) (hk : ∀ c ∈ allCases st.suites, K st.log c) :
    J (st.rounds o env rnd n).stats (st.rounds o env rnd n).log ∧ ∀ c ∈ allCases (st.rounds o env rnd n).suites, K (st.rounds o env rnd n).log c := by
  induction n with
  | zero => exact ⟨hj, hk⟩
  | succ n ih => exact round_kept k env (rnd n) n _ ih.1 ih.2

end H2.Runner
