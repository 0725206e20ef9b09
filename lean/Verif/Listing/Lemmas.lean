import Verif.Listing.Spec
namespace H2.Listing

/-! Tables of tags -/

/-- Which counter. -/
def incOf (k : Bool) : Tag → Tag := if k then incSuites else incCases
def addPair (T : List Tag) (a : Bool × Str) : List Tag := addTag (incOf a.1) T a.2

theorem name_incOf (k : Bool) (t : Tag) : (incOf k t).name = t.name := by cases k <;> rfl

theorem foldl_addTag (k : Bool) (names : List Str) : ∀ T, names.foldl (addTag (incOf k)) T = (names.map fun x => (k, x)).foldl addPair T := by
  induction names with
  | nil => intro T; rfl
  | cons n ns ih => intro T; exact ih _

/-- The table after some additions. -/
structure Table (adds : List (Bool × Str)) (T : List Tag) : Prop where
  nodup : (T.map Tag.name).Nodup
  mem : ∀ x, x ∈ T.map Tag.name ↔ x ∈ adds.map Prod.snd
  suites : ∀ t ∈ T, t.suites = adds.count (true, t.name)
  cases : ∀ t ∈ T, t.cases = adds.count (false, t.name)

theorem nodup_le {α : Type} [DecidableEq α] : ∀ (l m : List α), l.Nodup → (∀ x ∈ l, x ∈ m) → l.length ≤ m.length := by
  intro l
  induction l with
  | nil => intro m _ _; simp
  | cons a l ih =>
    intro m hn hs
    rw [List.nodup_cons] at hn
    have ha : a ∈ m := hs a (by simp)
    have := ih (m.erase a) hn.2 (by
      intro x hx
      have hne : x ≠ a := by rintro rfl; exact hn.1 hx
      exact (List.mem_erase_of_ne hne).mpr (hs x (by simp [hx])))
    rw [List.length_erase_of_mem ha] at this
    have hp : 0 < m.length := List.length_pos_of_mem ha
    simp only [List.length_cons]; omega

theorem getTag_some {T : List Tag} {x : Str} {i : Nat} (h : getTag T x = some i) : ∃ (hi : i < T.length), T[i].name = x := by
  unfold getTag at h
  rw [List.findIdx?_eq_some_iff_getElem] at h
  obtain ⟨hi, e, -⟩ := h
  exact ⟨hi, (beq_iff_eq.mp e).symm⟩

theorem getTag_none {T : List Tag} {x : Str} (h : getTag T x = none) : x ∉ T.map Tag.name := by
  unfold getTag at h
  rw [List.findIdx?_eq_none_iff] at h
  intro hm
  obtain ⟨t, ht, e⟩ := List.mem_map.mp hm
  have := h t ht
  simp [e] at this

theorem map_name_modify (T : List Tag) (i : Nat) (k : Bool) : (T.modify i (incOf k)).map Tag.name = T.map Tag.name := by
  apply List.ext_getElem?
  intro j
  simp only [List.getElem?_map, List.getElem?_modify]
  cases T[j]? with
  | none => simp
  | some t =>
    by_cases h : i = j
    · simp [h, name_incOf]
    · simp [h]

theorem mem_modify {T : List Tag} {i : Nat} {k : Bool} {t : Tag} (hn : (T.map Tag.name).Nodup) (hi : i < T.length)
    (ht : t ∈ T.modify i (incOf k)) : (t = incOf k T[i]) ∨ (t ∈ T ∧ t.name ≠ T[i].name) := by
  obtain ⟨j, hj, e⟩ := List.mem_iff_getElem.mp ht
  rw [List.getElem_modify] at e
  split at e
  · rename_i h; subst h; exact .inl e.symm
  · rename_i h
    right
    subst e
    have hj' : j < T.length := by simpa using hj
    refine ⟨List.getElem_mem _, ?_⟩
    intro e
    exact h ((List.getElem_inj (i := i) (j := j) (h₀ := by simpa using hi) (h₁ := by simpa using hj') hn).mp (by simpa using e.symm))

theorem count_snoc (adds : List (Bool × Str)) (a b : Bool × Str) : (adds ++ [a]).count b = adds.count b + if a = b then 1 else 0 := by
  rw [List.count_append, List.count_singleton]
  by_cases h : a = b <;> simp [h]

theorem table_add {adds : List (Bool × Str)} {T : List Tag} (h : Table adds T) (a : Bool × Str) (names : List Str) (hl : names.length ≤ limit)
    (hs : ∀ b ∈ adds ++ [a], b.2 ∈ names) : Table (adds ++ [a]) (addPair T a) := by
  obtain ⟨k, x⟩ := a
  unfold addPair addTag
  simp only
  cases hg : getTag T x with
  | some i =>
    obtain ⟨hi, e⟩ := getTag_some hg
    have hx : x ∈ adds.map Prod.snd := (h.mem x).mp (List.mem_map.mpr ⟨T[i], List.getElem_mem _, e⟩)
    simp only
    refine ⟨?_, ?_, ?_, ?_⟩
    · rw [map_name_modify]; exact h.nodup
    · intro y
      rw [map_name_modify, h.mem]
      simp only [List.map_append, List.mem_append, List.map_cons, List.map_nil, List.mem_singleton]
      constructor
      · exact .inl
      · rintro (h | rfl)
        · exact h
        · exact hx
    · intro t ht
      rw [count_snoc]
      rcases mem_modify h.nodup hi ht with rfl | ⟨h1, h2⟩
      · have hc := h.suites _ (List.getElem_mem hi)
        rw [name_incOf, e] at *
        cases k with
        | true => simp [incOf, incSuites, hc]
        | false => simp [incOf, incCases, hc]
      · rw [e] at h2
        rw [h.suites t h1, if_neg (by intro e; exact h2 (congrArg Prod.snd e).symm)]; rfl
    · intro t ht
      rw [count_snoc]
      rcases mem_modify h.nodup hi ht with rfl | ⟨h1, h2⟩
      · have hc := h.cases _ (List.getElem_mem hi)
        rw [name_incOf, e] at *
        cases k with
        | true => simp [incOf, incSuites, hc]
        | false => simp [incOf, incCases, hc]
      · rw [e] at h2
        rw [h.cases t h1, if_neg (by intro e; exact h2 (congrArg Prod.snd e).symm)]; rfl
  | none =>
    have hx := getTag_none hg
    have hlt : ¬ limit ≤ T.length := by
      have hn : (T.map Tag.name ++ [x]).Nodup := by
        rw [List.nodup_append]
        refine ⟨h.nodup, by simp, ?_⟩
        intro y hy z hz e
        rw [List.mem_singleton] at hz
        subst hz; subst e; exact hx hy
      have := nodup_le _ names hn (by
        intro y hy
        rcases List.mem_append.mp hy with hy | hy
        · obtain ⟨b, hb, rfl⟩ := List.mem_map.mp ((h.mem y).mp hy)
          exact hs b (by simp [hb])
        · rw [List.mem_singleton] at hy
          subst hy
          exact hs (k, y) (by simp))
      simp at this
      omega
    simp only
    rw [if_neg hlt]
    have hx' : x ∉ adds.map Prod.snd := fun hm => hx ((h.mem x).mpr hm)
    have hz : ∀ b, adds.count (b, x) = 0 := by
      intro b
      rw [List.count_eq_zero]
      intro hm
      exact hx' (List.mem_map.mpr ⟨_, hm, rfl⟩)
    have hname : (incOf k { name := x }).name = x := name_incOf k _
    refine ⟨?_, ?_, ?_, ?_⟩
    · rw [List.map_append, List.nodup_append]
      refine ⟨h.nodup, by simp, ?_⟩
      intro y hy z hz e
      simp only [List.map_cons, List.map_nil, List.mem_singleton, hname] at hz
      subst hz; subst e; exact hx hy
    · intro y
      rw [List.map_append, List.mem_append, h.mem]
      simp [hname]
    · intro t ht
      rw [count_snoc]
      rcases List.mem_append.mp ht with ht | ht
      · have : t.name ≠ x := fun e => hx (List.mem_map.mpr ⟨t, ht, e⟩)
        rw [h.suites t ht, if_neg (by intro e; exact this (congrArg Prod.snd e).symm)]; rfl
      · rw [List.mem_singleton] at ht
        subst ht
        rw [hname, hz]
        cases k <;> simp [incOf, incSuites, incCases]
    · intro t ht
      rw [count_snoc]
      rcases List.mem_append.mp ht with ht | ht
      · have : t.name ≠ x := fun e => hx (List.mem_map.mpr ⟨t, ht, e⟩)
        rw [h.cases t ht, if_neg (by intro e; exact this (congrArg Prod.snd e).symm)]; rfl
      · rw [List.mem_singleton] at ht
        subst ht
        rw [hname, hz]
        cases k <;> simp [incOf, incSuites, incCases]

theorem table_fold (names : List Str) (hl : names.length ≤ limit) (more : List (Bool × Str)) : ∀ adds T, Table adds T →
    (∀ b ∈ adds ++ more, b.2 ∈ names) → Table (adds ++ more) (more.foldl addPair T) := by
  induction more with
  | nil => intro adds T h _; simpa using h
  | cons a more ih =>
    intro adds T h hs
    have h1 := table_add h a names hl (fun b hb => hs b (by
      rcases List.mem_append.mp hb with hb | hb
      · simp [hb]
      · simp at hb; simp [hb]))
    have := ih (adds ++ [a]) _ h1 (fun b hb => hs b (by simpa using hb))
    simpa using this

theorem table_nil : Table [] [] := ⟨by simp, by simp, by simp, by simp⟩

/-! The additions of a run -/

def caseAdds (c : Case) : List (Bool × Str) := if c.filtered then [] else c.tags.map fun x => (false, x)
def suiteAdds (s : Suite) : List (Bool × Str) :=
  (if s.absent || s.filtered then [] else s.tags.map fun x => (true, x)) ++ s.cases.flatMap caseAdds
def caseAll (c : Case) : List (Bool × Str) := c.tags.map fun x => (false, x)
def suiteAll (s : Suite) : List (Bool × Str) :=
  (if s.absent then [] else s.tags.map fun x => (true, x)) ++ s.cases.flatMap caseAll

theorem caseStart_tags (f : Flags) (s : Suite) (r : St) (c : Case) :
    (onCaseStart f s r c).unfilteredTags = (caseAdds c).foldl addPair r.unfilteredTags ∧
    (onCaseStart f s r c).tags = (caseAll c).foldl addPair r.tags := by
  have e1 := foldl_addTag false c.tags r.unfilteredTags
  have e2 := foldl_addTag false c.tags r.tags
  simp only [incOf] at e1 e2
  unfold onCaseStart caseAdds caseAll caseLine
  cases c.filtered <;> cases c.todo <;> cases f.todo <;> cases f.case <;> simp_all

theorem cases_tags (f : Flags) (s : Suite) (cs : List Case) : ∀ r : St,
    (cs.foldl (onCaseStart f s) r).unfilteredTags = (cs.flatMap caseAdds).foldl addPair r.unfilteredTags ∧
    (cs.foldl (onCaseStart f s) r).tags = (cs.flatMap caseAll).foldl addPair r.tags := by
  induction cs with
  | nil => intro r; exact ⟨rfl, rfl⟩
  | cons c cs ih =>
    intro r
    have h := caseStart_tags f s r c
    have i := ih (onCaseStart f s r c)
    constructor
    · rw [List.foldl_cons, i.1, h.1, List.flatMap_cons, List.foldl_append]
    · rw [List.foldl_cons, i.2, h.2, List.flatMap_cons, List.foldl_append]

theorem suiteStart_tags (f : Flags) (s : Suite) (r : St) :
    (onSuiteStart f s r).unfilteredTags = (if s.absent || s.filtered then [] else s.tags.map fun x => (true, x)).foldl addPair r.unfilteredTags ∧
    (onSuiteStart f s r).tags = (if s.absent then [] else s.tags.map fun x => (true, x)).foldl addPair r.tags := by
  have e1 := foldl_addTag true s.tags r.unfilteredTags
  have e2 := foldl_addTag true s.tags r.tags
  simp only [incOf] at e1 e2
  unfold onSuiteStart
  cases s.absent <;> cases s.filtered <;> cases f.suite <;> simp_all

theorem visits_tags (f : Flags) (visits : List Suite) : ∀ r : St,
    (visits.foldl (visit f) r).unfilteredTags = (visits.flatMap suiteAdds).foldl addPair r.unfilteredTags ∧
    (visits.foldl (visit f) r).tags = (visits.flatMap suiteAll).foldl addPair r.tags := by
  induction visits with
  | nil => intro r; exact ⟨rfl, rfl⟩
  | cons s vs ih =>
    intro r
    have h := suiteStart_tags f s r
    have c := cases_tags f s s.cases (onSuiteStart f s r)
    have i := ih (visit f r s)
    constructor
    · rw [List.foldl_cons, i.1, List.flatMap_cons, List.foldl_append]
      unfold visit suiteAdds
      rw [c.1, h.1, List.foldl_append]
    · rw [List.foldl_cons, i.2, List.flatMap_cons, List.foldl_append]
      unfold visit suiteAll
      rw [c.2, h.2, List.foldl_append]

/-! Counting additions -/

theorem count_pair_map (k b : Bool) (x : Str) (l : List Str) : (l.map fun y => (k, y)).count (b, x) = if k = b then l.count x else 0 := by
  induction l with
  | nil => simp
  | cons y l ih =>
    rw [List.map_cons, List.count_cons, ih, List.count_cons]
    by_cases hk : k = b <;> by_cases hy : y = x <;> simp [hk, hy]

theorem count_cases (x : Str) (cs : List Case) :
    (cs.flatMap caseAdds).count (true, x) = 0 ∧
    (cs.flatMap caseAdds).count (false, x) = ((cs.filter fun c => !c.filtered).flatMap Case.tags).count x := by
  induction cs with
  | nil => simp
  | cons c cs ih =>
    rw [List.flatMap_cons, List.count_append, List.count_append, ih.1, ih.2, List.filter_cons]
    unfold caseAdds
    cases hc : c.filtered
    · simp [count_pair_map, List.count_append]
    · simp

theorem count_suites (x : Str) (visits : List Suite) :
    (visits.flatMap suiteAdds).count (true, x) = (suiteTags visits).count x ∧
    (visits.flatMap suiteAdds).count (false, x) = (caseTags visits).count x := by
  induction visits with
  | nil => simp [suiteTags, caseTags, listedSuites, allCases]
  | cons s vs ih =>
    have hc := count_cases x s.cases
    have e1 : suiteTags (s :: vs) = (if s.absent || s.filtered then [] else s.tags) ++ suiteTags vs := by
      unfold suiteTags listedSuites
      rw [List.filter_cons]
      cases s.absent <;> cases s.filtered <;> simp
    have e2 : caseTags (s :: vs) = ((s.cases.filter fun c => !c.filtered).flatMap Case.tags) ++ caseTags vs := by
      simp [caseTags, allCases]
    rw [List.flatMap_cons, List.count_append, List.count_append, ih.1, ih.2, e1, e2, List.count_append, List.count_append]
    unfold suiteAdds
    rw [List.count_append, List.count_append, hc.1, hc.2]
    cases hx : (s.absent || s.filtered) <;> simp [count_pair_map]

theorem mem_cases (x : Str) (cs : List Case) :
    x ∈ (cs.flatMap caseAdds).map Prod.snd ↔ x ∈ (cs.filter fun c => !c.filtered).flatMap Case.tags := by
  induction cs with
  | nil => simp
  | cons c cs ih =>
    rw [List.flatMap_cons, List.map_append, List.mem_append, ih, List.filter_cons]
    unfold caseAdds
    cases c.filtered <;> simp

theorem mem_suites (x : Str) (visits : List Suite) :
    x ∈ (visits.flatMap suiteAdds).map Prod.snd ↔ x ∈ suiteTags visits ++ caseTags visits := by
  induction visits with
  | nil => simp [suiteTags, caseTags, listedSuites, allCases]
  | cons s vs ih =>
    have e1 : suiteTags (s :: vs) = (if s.absent || s.filtered then [] else s.tags) ++ suiteTags vs := by
      unfold suiteTags listedSuites
      rw [List.filter_cons]
      cases s.absent <;> cases s.filtered <;> simp
    have e2 : caseTags (s :: vs) = ((s.cases.filter fun c => !c.filtered).flatMap Case.tags) ++ caseTags vs := by
      simp [caseTags, allCases]
    have hc := mem_cases x s.cases
    rw [List.flatMap_cons, List.map_append, List.mem_append, ih, e1, e2]
    unfold suiteAdds
    rw [List.map_append, List.mem_append, hc]
    cases (s.absent || s.filtered)
    · simp; grind
    · simp; grind

theorem map_caseAll (cs : List Case) : (cs.flatMap caseAll).map Prod.snd = cs.flatMap Case.tags := by
  induction cs with
  | nil => rfl
  | cons c cs ih => rw [List.flatMap_cons, List.map_append, ih]; simp [caseAll, Function.comp_def]

theorem allTags_cons (s : Suite) (vs : List Suite) (x : Str) :
    x ∈ allTags (s :: vs) ↔ (s.absent = false ∧ x ∈ s.tags) ∨ x ∈ s.cases.flatMap Case.tags ∨ x ∈ allTags vs := by
  unfold allTags allCases
  rw [List.filter_cons]
  cases s.absent <;> simp <;> grind

theorem mem_all (x : Str) (visits : List Suite) :
    x ∈ (visits.flatMap suiteAll).map Prod.snd ↔ x ∈ allTags visits := by
  induction visits with
  | nil => simp [allTags, allCases]
  | cons s vs ih =>
    rw [List.flatMap_cons, List.map_append, List.mem_append, ih, allTags_cons]
    unfold suiteAll
    rw [List.map_append, map_caseAll]
    cases s.absent
    · simp; grind
    · simp

/-! Lines -/

def shown (f : Flags) (c : Case) : Bool := !c.filtered && (if c.todo then f.todo else f.case)

/-- The lines of cases: `k` cases of the suite and `n` cases at all were listed before. -/
def caseOut (f : Flags) (absent : Bool) : Nat → Nat → List Case → List Line
  | _, _, [] => []
  | k, n, c :: cs =>
    if shown f c then .case c.todo absent (if f.suite then some (k + 1) else none) (n + 1) c.name :: caseOut f absent (k + 1) (n + 1) cs
    else caseOut f absent k n cs

structure Facts (r r' : St) (f : Flags) (cs : List Case) (absent : Bool) : Prop where
  out : r'.out = r.out ++ caseOut f absent (r.suiteCases + r.suiteTodos) (r.unfilteredCases + r.unfilteredTodos) cs
  uc : r'.unfilteredCases = r.unfilteredCases + (cs.filter fun c => shown f c && !c.todo).length
  ut : r'.unfilteredTodos = r.unfilteredTodos + (cs.filter fun c => shown f c && c.todo).length
  sn : r'.suiteCases + r'.suiteTodos = r.suiteCases + r.suiteTodos + (cs.filter (shown f)).length
  c : r'.cases = r.cases + (cs.filter fun c => !c.todo).length
  t : r'.todos = r.todos + (cs.filter fun c => c.todo).length
  s : r'.suites = r.suites
  us : r'.unfilteredSuites = r.unfilteredSuites

theorem caseStart_facts (f : Flags) (s : Suite) (r : St) (c : Case) : Facts r (onCaseStart f s r c) f [c] s.absent := by
  obtain ⟨name, todo, filtered, tags⟩ := c
  obtain ⟨fs, fc, ft, fg⟩ := f
  cases todo <;> cases filtered <;> cases fc <;> cases ft <;>
    (refine ⟨?_, ?_, ?_, ?_, ?_, ?_, ?_, ?_⟩ <;> simp [onCaseStart, caseLine, caseOut, shown] <;> (try omega) <;>
      (try (cases fs <;> simp <;> omega)))

theorem caseOut_append (f : Flags) (a : Bool) (cs ds : List Case) : ∀ k n, caseOut f a k n (cs ++ ds) =
    caseOut f a k n cs ++ caseOut f a (k + (cs.filter (shown f)).length) (n + (cs.filter (shown f)).length) ds := by
  induction cs with
  | nil => intro k n; rfl
  | cons c cs ih =>
    intro k n
    rw [List.cons_append, caseOut, caseOut, List.filter_cons]
    cases shown f c with
    | true =>
      simp only [if_true, List.cons_append, List.length_cons]
      rw [ih]
      simp only [Nat.add_assoc, Nat.add_comm 1]
    | false => simpa using ih k n

theorem shown_split (f : Flags) (cs : List Case) : (cs.filter (shown f)).length =
    (cs.filter fun c => shown f c && !c.todo).length + (cs.filter fun c => shown f c && c.todo).length := by
  induction cs with
  | nil => rfl
  | cons c cs ih =>
    simp only [List.filter_cons]
    cases shown f c <;> cases c.todo <;> simp [ih] <;> omega

theorem cases_facts (f : Flags) (s : Suite) (cs : List Case) : ∀ r : St, Facts r (cs.foldl (onCaseStart f s) r) f cs s.absent := by
  induction cs with
  | nil => intro r; exact ⟨by simp [caseOut], by simp, by simp, by simp, by simp, by simp, rfl, rfl⟩
  | cons c cs ih =>
    intro r
    have h := caseStart_facts f s r c
    have i := ih (onCaseStart f s r c)
    have hn : (onCaseStart f s r c).unfilteredCases + (onCaseStart f s r c).unfilteredTodos =
        r.unfilteredCases + r.unfilteredTodos + (([c] : List Case).filter (shown f)).length := by
      have := shown_split f [c]
      have h1 := h.uc
      have h2 := h.ut
      omega
    have hl : ∀ p : Case → Bool, ((c :: cs).filter p).length = (([c] : List Case).filter p).length + (cs.filter p).length := by
      intro p
      rw [show c :: cs = [c] ++ cs from rfl, List.filter_append, List.length_append]
    refine ⟨?_, ?_, ?_, ?_, ?_, ?_, ?_, ?_⟩
    · rw [List.foldl_cons, i.out, h.out, h.sn, hn, List.append_assoc, ← caseOut_append]; rfl
    · rw [List.foldl_cons, i.uc, h.uc, hl, Nat.add_assoc]
    · rw [List.foldl_cons, i.ut, h.ut, hl, Nat.add_assoc]
    · rw [List.foldl_cons, i.sn, h.sn, hl, Nat.add_assoc]
    · rw [List.foldl_cons, i.c, h.c, hl, Nat.add_assoc]
    · rw [List.foldl_cons, i.t, h.t, hl, Nat.add_assoc]
    · rw [List.foldl_cons, i.s, h.s]
    · rw [List.foldl_cons, i.us, h.us]

def listed (f : Flags) (s : Suite) : Bool := f.suite && (!s.absent && !s.filtered)

/-- The lines of suites and their cases: `m` suites and `n` cases were listed before. -/
def suiteOut (f : Flags) : Nat → Nat → List Suite → List Line
  | _, _, [] => []
  | m, n, s :: vs =>
    (if listed f s then [.suite (m + 1) s.name] else []) ++ caseOut f s.absent 0 n s.cases ++
      suiteOut f (if listed f s then m + 1 else m) (n + (s.cases.filter (shown f)).length) vs

structure Visited (r r' : St) (f : Flags) (vs : List Suite) : Prop where
  out : r'.out = r.out ++ suiteOut f r.unfilteredSuites (r.unfilteredCases + r.unfilteredTodos) vs
  uc : r'.unfilteredCases = r.unfilteredCases + ((allCases vs).filter fun c => shown f c && !c.todo).length
  ut : r'.unfilteredTodos = r.unfilteredTodos + ((allCases vs).filter fun c => shown f c && c.todo).length
  us : r'.unfilteredSuites = r.unfilteredSuites + (vs.filter (listed f)).length
  c : r'.cases = r.cases + ((allCases vs).filter fun c => !c.todo).length
  t : r'.todos = r.todos + ((allCases vs).filter fun c => c.todo).length
  s : r'.suites = r.suites + (vs.filter fun s => !s.absent).length

theorem suiteStart_facts (f : Flags) (s : Suite) (r : St) :
    (onSuiteStart f s r).out = r.out ++ (if listed f s then [.suite (r.unfilteredSuites + 1) s.name] else []) ∧
    (onSuiteStart f s r).unfilteredSuites = (if listed f s then r.unfilteredSuites + 1 else r.unfilteredSuites) ∧
    (onSuiteStart f s r).suites = r.suites + (if s.absent then 0 else 1) ∧
    (onSuiteStart f s r).suiteCases = 0 ∧ (onSuiteStart f s r).suiteTodos = 0 ∧
    (onSuiteStart f s r).unfilteredCases = r.unfilteredCases ∧ (onSuiteStart f s r).unfilteredTodos = r.unfilteredTodos ∧
    (onSuiteStart f s r).cases = r.cases ∧ (onSuiteStart f s r).todos = r.todos := by
  unfold onSuiteStart listed
  cases s.absent <;> cases s.filtered <;> cases f.suite <;> simp

theorem visits_facts (f : Flags) (visits : List Suite) : ∀ r : St, Visited r (visits.foldl (visit f) r) f visits := by
  induction visits with
  | nil => intro r; exact ⟨by simp [suiteOut], by simp [allCases], by simp [allCases], by simp, by simp [allCases], by simp [allCases], by simp⟩
  | cons s vs ih =>
    intro r
    obtain ⟨a1, a2, a3, a4, a5, a6, a7, a8, a9⟩ := suiteStart_facts f s r
    have c := cases_facts f s s.cases (onSuiteStart f s r)
    have i := ih (visit f r s)
    have hv : visit f r s = s.cases.foldl (onCaseStart f s) (onSuiteStart f s r) := rfl
    rw [← hv] at c
    have hl : ∀ p : Case → Bool, ((allCases (s :: vs)).filter p).length = (s.cases.filter p).length + ((allCases vs).filter p).length := by
      intro p
      simp [allCases]
    have hn : (visit f r s).unfilteredCases + (visit f r s).unfilteredTodos =
        r.unfilteredCases + r.unfilteredTodos + (s.cases.filter (shown f)).length := by
      have := shown_split f s.cases
      have h1 := c.uc
      have h2 := c.ut
      omega
    refine ⟨?_, ?_, ?_, ?_, ?_, ?_, ?_⟩
    · rw [List.foldl_cons, i.out, c.out, a1, a4, a5, a6, a7, hn, c.us, a2, suiteOut]
      simp
    · rw [List.foldl_cons, i.uc, c.uc, a6, hl, Nat.add_assoc]
    · rw [List.foldl_cons, i.ut, c.ut, a7, hl, Nat.add_assoc]
    · rw [List.foldl_cons, i.us, c.us, a2, List.filter_cons]
      cases listed f s <;> simp <;> omega
    · rw [List.foldl_cons, i.c, c.c, a8, hl, Nat.add_assoc]
    · rw [List.foldl_cons, i.t, c.t, a9, hl, Nat.add_assoc]
    · rw [List.foldl_cons, i.s, c.s, a3, List.filter_cons]
      cases s.absent <;> simp <;> omega

end H2.Listing
