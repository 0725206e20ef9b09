import Verif.SuiteFn.Lemmas
namespace H2.SuiteFn

variable {V : Type}

/-- The state of a suite after its enumeration and any calls for cases that came to their end. -/
inductive Reached (conv : V → V → V) (all : List (Item V)) : State V → Prop where
  | first (f : Nat) (st : State V) : call conv all f none {} = .ended st → Reached conv all st
  | next (f : Nat) (c : Option Id) (st st' : State V) :
      Reached conv all st → call conv all f c st = .ended st' → Reached conv all st'

theorem enumerated (conv : V → V → V) (all : List (Item V)) (f : Nat) :
    call conv all (all.length + 1 + f) none {} =
      .ended ⟨(declared all).map Prod.fst, (holeAfter 0 all .unset).returned, codes all⟩ := by
  have h := pass conv none [] all [] {} (1 + f) (by intro p _ h; simp at h)
  simp only [List.nil_append, List.append_nil, List.length_nil, Nat.zero_add] at h
  rw [call, show all.length + 1 + f = 1 + f + all.length from by omega, h, show 1 + f = f + 1 from by omega, exec_end]
  simp only [passed, Option.isSome_none, Bool.false_eq_true, if_false]
  rw [regAll_fresh _ _ (declaredFrom_nodup all 0) (by simp)]
  rfl

/-- C76.  Enumerating a suite finds its cases in the order of the text, each once: one for a `Case`, one
for every value of a `Cases`, one for every pair of values of a `Casess`.  Nothing is executed except the
statements outside all blocks. -/
theorem C76_enumerate (conv : V → V → V) (all : List (Item V)) :
    ∃ f0, ∀ f, ∃ st, call conv all (f0 + f) none {} = .ended st ∧
      st.cases = (declared all).map Prod.fst ∧ st.cases.Nodup ∧ st.trace = codes all :=
  ⟨all.length + 1, fun f => ⟨_, enumerated conv all f, rfl, declaredFrom_nodup all 0, rfl⟩⟩

theorem reached_inv (conv : V → V → V) (all : List (Item V)) (st : State V) (h : Reached conv all st) : Inv all st := by
  induction h with
  | first f st h =>
    have h' : (exec conv all f 0 none {}).final := by
      unfold call at h
      cases he : exec conv all f 0 none {} with
      | running s => simp [he] at h
      | undefined => trivial
      | ended s => trivial
    have e := enumerated conv all f
    rw [call, show all.length + 1 + f = f + (all.length + 1) from by omega, exec_mono_le conv all f _ _ _ _ h', ← call, h] at e
    injection e with e
    subst e
    refine ⟨rfl, ?_⟩
    simp only
    by_cases hc : ∀ it ∈ all, it.isCleanup = false
    · rw [holeAfter_none all 0 _ hc]; simpa [Hole.returned] using hc
    · refine ⟨fun h => ?_, fun h => absurd h hc⟩
      have : ∃ it ∈ all, it.isCleanup = true := by
        refine Classical.byContradiction fun hn => hc fun it hi => ?_
        cases hb : it.isCleanup with
        | false => rfl
        | true => exact absurd ⟨it, hi, hb⟩ hn
      have := holeAfter_some all 0 .unset this
      cases hh : holeAfter 0 all .unset <;> simp_all [Hole.returned]
  | next f c st st' _ h ih => exact call_inv conv all f c st st' ih h

/-- C76.  Calls for cases add no case and lose none. -/
theorem C76_kept (conv : V → V → V) (all : List (Item V)) (st : State V) (h : Reached conv all st) :
    st.cases = (declared all).map Prod.fst :=
  (reached_inv conv all st h).1

/-- A declared case splits the suite at its item. -/
theorem declared_split : ∀ (all : List (Item V)) (k : Nat) (p : Id × List V), p ∈ declaredFrom k all →
    ∃ pre it post, all = pre ++ it :: post ∧ p ∈ declares (k + pre.length) it ∧ p.1.item = k + pre.length
  | [], _, _, h => by simp [declaredFrom] at h
  | it :: r, k, p, h => by
    rcases List.mem_append.mp h with h | h
    · exact ⟨[], it, r, rfl, h, declares_item k it p h⟩
    · obtain ⟨pre, i, post, e, h1, h2⟩ := declared_split r (k + 1) p h
      refine ⟨it :: pre, i, post, by rw [e]; rfl, ?_, ?_⟩
      · rwa [show k + (it :: pre).length = k + 1 + pre.length from by simp; omega]
      · rw [h2]; simp; omega

theorem before_ne (k : Nat) (pre : List (Item V)) (c : Id) (hc : c.item = k + pre.length) :
    ∀ p ∈ declaredFrom k pre, (some c : Option Id) ≠ some p.1 := by
  intro p hp h
  injection h with h
  have := declaredFrom_item pre k p hp
  rw [← h] at this
  omega

/-- C76 (partial: suites without `Cleanup`; lists whose values have one type).  The call for a case
executes the `Setup` blocks before it, then the case, once and with its own values, and no other case;
the statements outside the blocks are executed as well, once. -/
theorem C76_run_partial (conv : V → V → V) (all : List (Item V)) (st : State V) (hr : Reached conv all st)
    (hn : ∀ it ∈ all, it.isCleanup = false) (c : Id) (vs : List V) (hc : (c, vs) ∈ declared all)
    (hs : ∀ it ∈ all, SameType conv it) :
    ∃ f0, ∀ f, ∃ st', call conv all (f0 + f) (some c) st = .ended st' ∧
      st'.trace = st.trace ++ setups (all.take c.item) ++ [.body c vs] ++ codes (all.drop (c.item + 1)) := by
  obtain ⟨pre, it, post, e, h1, h2⟩ := declared_split all 0 _ hc
  simp only [Nat.zero_add] at h1 h2
  have hi := reached_inv conv all st hr
  have hu := hi.2.mpr hn
  refine ⟨all.length + 1, fun f => ?_⟩
  have hp := pass conv (some c) (it :: post) pre [] st (1 + f + post.length + 1) (before_ne 0 pre c (by simpa using h2))
  simp only [List.nil_append, List.length_nil, Nat.zero_add] at hp
  rw [← e] at hp
  rw [call, show all.length + 1 + f = 1 + f + post.length + 1 + pre.length from by rw [e]; simp; omega, hp,
    opens conv all it pre.length c vs _ _ (by rw [e]; simp) h1 (hs it (by rw [e]; simp)), finish]
  have hh : holeAfter 0 pre st.hole = .unset := by
    rw [holeAfter_none pre 0 _ (fun i hi => hn i (by rw [e]; simp [hi])), hu]
  simp only [hh, leave]
  have hq := pass conv none [] post (pre ++ [it])
    ⟨regAll (regAll st.cases ((declaredFrom 0 pre).map Prod.fst)) ((declares pre.length it).map Prod.fst), .unset,
      st.trace ++ passed (some c) pre ++ [.body c vs]⟩ (1 + f) (by intro p _ h; simp at h)
  have ea : pre ++ [it] ++ post ++ [] = all := by rw [e]; simp
  rw [ea, show (pre ++ [it]).length = pre.length + 1 from by simp] at hq
  rw [hq, show pre.length + 1 + post.length = all.length from by rw [e]; simp; omega, show 1 + f = f + 1 from by omega, exec_end]
  refine ⟨_, rfl, ?_⟩
  simp only [passed, Option.isSome_none, Option.isSome_some, Bool.false_eq_true, if_false, if_true]
  have e1 : all.take c.item = pre := by rw [h2, e]; simp
  have e2 : all.drop (c.item + 1) = post := by rw [h2, e]; simp
  rw [e1, e2]

/-- C76 (partial: a `Case`, and the nearest `Cleanup` before it).  In a suite with `Cleanup` the call for
a `Case` executes the `Setup` blocks before it, the case once, and then the `Cleanup` block once; but
everything outside the blocks that stands behind the `Cleanup` block is executed after it (again, if it
stands before the case). -/
theorem C76_cleanup_partial (conv : V → V → V) (pre mid post : List (Item V)) (n : Nat) (st : State V)
    (hn : ∀ it ∈ mid, it.isCleanup = false) (c : Id) (hc : c = ⟨pre.length + 1 + mid.length, 0, 0⟩) :
    ∃ f0, ∀ f, ∃ st', call conv (pre ++ .cleanup n :: (mid ++ .one :: post)) (f0 + f) (some c) st = .ended st' ∧
      st'.trace = st.trace ++ setups (pre ++ mid) ++ [.body c []] ++ [.cleanup n] ++ codes (mid ++ post) := by
  obtain ⟨all, e⟩ : ∃ all, all = pre ++ .cleanup n :: (mid ++ Item.one :: post) := ⟨_, rfl⟩
  rw [← e]
  refine ⟨pre.length + 1 + mid.length + 1 + mid.length + 1 + post.length + 1, fun f => ?_⟩
  have hp := pass conv (some c) (.one :: post) (pre ++ .cleanup n :: mid) [] st
    (1 + f + (mid ++ Item.one :: post).length + 1) (before_ne 0 _ c (by simp [hc]; omega))
  have ea : [] ++ (pre ++ Item.cleanup n :: mid) ++ Item.one :: post = all := by rw [e]; simp
  rw [ea] at hp
  simp only [List.length_nil, Nat.zero_add] at hp
  have el : (pre ++ Item.cleanup n :: mid).length = pre.length + 1 + mid.length := by simp; omega
  rw [el] at hp
  rw [call, show pre.length + 1 + mid.length + 1 + mid.length + 1 + post.length + 1 + f
    = 1 + f + (mid ++ Item.one :: post).length + 1 + (pre.length + 1 + mid.length) from by simp; omega, hp,
    opens conv all .one (pre.length + 1 + mid.length) c [] _ _ (by rw [← ea, List.nil_append, List.getElem?_append_right (by rw [el]; exact Nat.le_refl _), el, Nat.sub_self]; rfl)
      (by simp [declares, hc]) trivial, finish]
  have hh : holeAfter 0 (pre ++ .cleanup n :: mid) st.hole = .live pre.length := by
    have : ∀ (l : List (Item V)) (k : Nat) (h : Hole), holeAfter k (l ++ .cleanup n :: mid) h = .live (k + l.length) := by
      intro l
      induction l with
      | nil => intro k h; simp only [List.nil_append, holeAfter, holeAfter_none mid _ _ hn]; simp
      | cons i r ih => intro k h; cases i <;> simp only [List.cons_append, holeAfter, ih] <;> simp <;> omega
    simpa using this pre 0 st.hole
  simp only [hh, leave]
  have hq := fun s => pass conv none [] (mid ++ .one :: post) (pre ++ [.cleanup n]) s (1 + f) (by intro p _ h; simp at h)
  have ea : pre ++ [Item.cleanup n] ++ (mid ++ Item.one :: post) ++ [] = all := by rw [e]; simp
  have el1 : (pre ++ [(Item.cleanup n : Item V)]).length = pre.length + 1 := by simp
  simp only [ea, el1] at hq
  simp only [kept]
  rw [hq, show pre.length + 1 + (mid ++ Item.one :: post).length = all.length from by rw [e]; simp; omega,
    show 1 + f = f + 1 from by omega, exec_end]
  refine ⟨_, rfl, ?_⟩
  have ec : cleanupAt all (pre.length + 1 - 1) = [.cleanup n] := by simp [cleanupAt, e]
  simp only [ec, passed, Option.isSome_none, Option.isSome_some, Bool.false_eq_true, if_false, if_true]
  simp [setups, codes]

/-! ### What goes wrong -/

theorem live_after (pre mid : List (Item V)) (n : Nat) (hn : ∀ it ∈ mid, it.isCleanup = false) (h : Hole) :
    holeAfter 0 (pre ++ .cleanup n :: mid) h = .live pre.length := by
  have : ∀ (l : List (Item V)) (k : Nat) (h : Hole), holeAfter k (l ++ .cleanup n :: mid) h = .live (k + l.length) := by
    intro l
    induction l with
    | nil => intro k h; simp only [List.nil_append, holeAfter, holeAfter_none mid _ _ hn]; simp
    | cons i r ih => intro k h; cases i <;> simp only [List.cons_append, holeAfter, ih] <;> simp <;> omega
  simpa using this pre 0 h

/-- One turn: from behind the `Cleanup` block to the case, and back. -/
theorem turn (conv : V → V → V) (pre mid post : List (Item V)) (n : Nat) (it : Item V) (c : Id) (vs : List V)
    (hn : ∀ it ∈ mid, it.isCleanup = false) (h1 : it ≠ .one) (hs : SameType conv it)
    (hc : (c, vs) ∈ declares (pre.length + 1 + mid.length) it) (st : State V) (hl : st.hole = .live pre.length) (f : Nat) :
    ∃ st' : State V, st'.hole = .live pre.length ∧ st'.trace = st.trace ++ setups mid ++ [.body c vs, .cleanup n] ∧
      exec conv (pre ++ .cleanup n :: (mid ++ it :: post)) (f + (mid.length + 1)) (pre.length + 1) (some c) st =
        exec conv (pre ++ .cleanup n :: (mid ++ it :: post)) f (pre.length + 1) (some c) st' := by
  have hi := declares_item _ it _ hc
  simp only at hi
  have hp := pass conv (some c) (it :: post) mid (pre ++ [.cleanup n]) st (f + 1) (before_ne _ mid c (by simp [hi]))
  have ea : pre ++ [Item.cleanup n] ++ mid ++ it :: post = pre ++ .cleanup n :: (mid ++ it :: post) := by simp
  have el1 : (pre ++ [(Item.cleanup n : Item V)]).length = pre.length + 1 := by simp
  rw [ea, el1] at hp
  have hg : (pre ++ .cleanup n :: (mid ++ it :: post))[pre.length + 1 + mid.length]? = some it := by
    have el : (pre ++ [Item.cleanup n] ++ mid).length = pre.length + 1 + mid.length := by simp; omega
    rw [← ea, List.getElem?_append_right (by rw [el]; exact Nat.le_refl _), el, Nat.sub_self]
    rfl
  have hk : kept c it = some c := by cases it <;> first | rfl | exact absurd rfl h1
  refine ⟨⟨regAll (regAll st.cases ((declaredFrom (pre.length + 1) mid).map Prod.fst))
    ((declares (pre.length + 1 + mid.length) it).map Prod.fst), .live pre.length,
      st.trace ++ setups mid ++ [.body c vs, .cleanup n]⟩, rfl, rfl, ?_⟩
  rw [show f + (mid.length + 1) = f + 1 + mid.length from by omega, hp,
    opens conv _ it _ c vs _ _ hg hc hs, finish]
  simp only [holeAfter_none mid _ _ hn, hl, leave, hk]
  have ec : cleanupAt (pre ++ Item.cleanup n :: (mid ++ it :: post)) (pre.length + 1 - 1) = [.cleanup n] := by
    simp [cleanupAt]
  simp only [ec, passed, Option.isSome_some, if_true, List.append_assoc, List.cons_append, List.nil_append]

/-- Many turns. -/
theorem turns (conv : V → V → V) (pre mid post : List (Item V)) (n : Nat) (it : Item V) (c : Id) (vs : List V)
    (hn : ∀ it ∈ mid, it.isCleanup = false) (h1 : it ≠ .one) (hs : SameType conv it)
    (hc : (c, vs) ∈ declares (pre.length + 1 + mid.length) it) [DecidableEq V] (f : Nat) :
    ∀ (m : Nat) (st : State V), st.hole = .live pre.length →
    ∃ st' : State V, st'.hole = .live pre.length ∧ st.trace.count (.body c vs) + m ≤ st'.trace.count (.body c vs) ∧
      exec conv (pre ++ .cleanup n :: (mid ++ it :: post)) (f + m * (mid.length + 1)) (pre.length + 1) (some c) st =
        exec conv (pre ++ .cleanup n :: (mid ++ it :: post)) f (pre.length + 1) (some c) st'
  | 0, st, hl => ⟨st, hl, by omega, by simp⟩
  | m + 1, st, hl => by
    obtain ⟨st1, g1, g2, g3⟩ := turn conv pre mid post n it c vs hn h1 hs hc st hl (f + m * (mid.length + 1))
    obtain ⟨st2, k1, k2, k3⟩ := turns conv pre mid post n it c vs hn h1 hs hc f m st1 g1
    refine ⟨st2, k1, ?_, ?_⟩
    · rw [g2] at k2
      simp only [List.count_append, List.count_cons_self] at k2
      omega
    · rw [← k3, ← g3, Nat.succ_mul]
      congr 1
      omega

/-- Finding: C76 is false for `Cases` and `Casess` in a suite with `Cleanup`.  The call for such a case
behind a `Cleanup` block never ends: after the `Cleanup` block the case is executed again, and so on. -/
theorem C76_cleanup_false [DecidableEq V] (conv : V → V → V) (pre mid post : List (Item V)) (n : Nat) (it : Item V)
    (c : Id) (vs : List V) (hn : ∀ it ∈ mid, it.isCleanup = false) (h1 : it ≠ .one) (hs : SameType conv it)
    (hc : (c, vs) ∈ declares (pre.length + 1 + mid.length) it) (st : State V) :
    (∀ f, ∃ st', call conv (pre ++ .cleanup n :: (mid ++ it :: post)) f (some c) st = .running st') ∧
    (∀ m, ∃ f st', call conv (pre ++ .cleanup n :: (mid ++ it :: post)) f (some c) st = .running st' ∧
      m ≤ st'.trace.count (.body c vs)) := by
  have hi := declares_item _ it _ hc
  simp only at hi
  have key : ∀ m, ∃ st' : State V,
      exec conv (pre ++ .cleanup n :: (mid ++ it :: post)) (m * (mid.length + 1) + (pre.length + 1)) 0 (some c) st
        = .running st' ∧ m ≤ st'.trace.count (.body c vs) := by
    intro m
    have hp := pass conv (some c) (mid ++ it :: post) (pre ++ [.cleanup n]) [] st (m * (mid.length + 1))
      (by
        intro p hp h
        injection h with h
        have := declaredFrom_item _ _ p hp
        rw [← h, hi] at this
        simp at this
        omega)
    have ea : [] ++ (pre ++ [Item.cleanup n]) ++ (mid ++ it :: post) = pre ++ .cleanup n :: (mid ++ it :: post) := by simp
    have el1 : (pre ++ [(Item.cleanup n : Item V)]).length = pre.length + 1 := by simp
    rw [ea, el1] at hp
    simp only [List.length_nil, Nat.zero_add] at hp
    have hl := live_after pre [] n (by simp) st.hole
    obtain ⟨st', _, h2, h3⟩ := turns conv pre mid post n it c vs hn h1 hs hc 0 m
      ⟨regAll st.cases ((declaredFrom 0 (pre ++ [.cleanup n])).map Prod.fst), holeAfter 0 (pre ++ [.cleanup n]) st.hole,
        st.trace ++ passed (some c) (pre ++ [.cleanup n])⟩ hl
    rw [Nat.zero_add] at h3
    refine ⟨st', ?_, by omega⟩
    rw [hp, h3]
    rfl
  refine ⟨fun f => ?_, fun m => ?_⟩
  · obtain ⟨st', hk, _⟩ := key f
    cases he : exec conv (pre ++ .cleanup n :: (mid ++ it :: post)) f 0 (some c) st with
    | running s => exact ⟨s, by rw [call, he]⟩
    | undefined =>
      have hle : f ≤ f * (mid.length + 1) := Nat.le_mul_of_pos_right f (by omega)
      have := exec_mono_le conv _ f (f * (mid.length + 1) + (pre.length + 1) - f) 0 (some c) st (by rw [he]; trivial)
      rw [show f + (f * (mid.length + 1) + (pre.length + 1) - f) = f * (mid.length + 1) + (pre.length + 1) from by omega, hk, he] at this
      simp at this
    | ended s =>
      have hle : f ≤ f * (mid.length + 1) := Nat.le_mul_of_pos_right f (by omega)
      have := exec_mono_le conv _ f (f * (mid.length + 1) + (pre.length + 1) - f) 0 (some c) st (by rw [he]; trivial)
      rw [show f + (f * (mid.length + 1) + (pre.length + 1) - f) = f * (mid.length + 1) + (pre.length + 1) from by omega, hk, he] at this
      simp at this
  · obtain ⟨st', hk, h2⟩ := key m
    exact ⟨_, st', by rw [call, hk], h2⟩

theorem call_hole (conv : V → V → V) (all : List (Item V)) (f : Nat) (cp : Option Id) (st st' : State V)
    (h : call conv all f cp st = .ended st') (k : Nat) : st'.hole ≠ .live k := by
  unfold call at h
  cases he : exec conv all f 0 cp st with
  | running s => simp [he] at h
  | undefined => simp [he] at h
  | ended s =>
    rw [he] at h
    injection h with h
    subst h
    simp only
    cases s.hole <;> simp [Hole.returned]

theorem reached_hole (conv : V → V → V) (all : List (Item V)) (st : State V) (h : Reached conv all st) (k : Nat) :
    st.hole ≠ .live k := by
  cases h with
  | first f _ h => exact call_hole _ _ _ _ _ _ h k
  | next f c _ _ _ h => exact call_hole _ _ _ _ _ _ h k

/-- Finding: a `Cleanup` block that stands behind a case is not executed for it: the enumeration has set
the jump, its frame is gone, and the end of the case jumps there. -/
theorem C76_late_false (conv : V → V → V) (pre post : List (Item V)) (it : Item V) (c : Id) (vs : List V) (st : State V)
    (hr : Reached conv (pre ++ it :: post) st)
    (hpre : ∀ i ∈ pre, i.isCleanup = false) (hpost : ∃ i ∈ post, i.isCleanup = true)
    (hs : SameType conv it) (hc : (c, vs) ∈ declares pre.length it) :
    ∃ f0, ∀ f, call conv (pre ++ it :: post) (f0 + f) (some c) st = .undefined := by
  have hi := declares_item _ it _ hc
  simp only at hi
  have hv := (reached_inv conv _ st hr).2
  have hstale : st.hole = .stale := by
    cases hh : st.hole with
    | unset =>
      obtain ⟨i, hi, hb⟩ := hpost
      have := hv.mp hh i (by simp [hi])
      simp [hb] at this
    | stale => rfl
    | live k => exact absurd hh (reached_hole conv _ st hr k)
  refine ⟨pre.length + 1, fun f => ?_⟩
  have hp := pass conv (some c) (it :: post) pre [] st (f + 1) (before_ne 0 pre c (by simpa using hi))
  simp only [List.nil_append, List.length_nil, Nat.zero_add] at hp
  rw [call, show pre.length + 1 + f = f + 1 + pre.length from by omega, hp,
    opens conv _ it pre.length c vs _ _ (by simp) hc hs, finish]
  simp only [holeAfter_none pre 0 _ hpre, hstale, leave]

/-- C76.  A `Casess` with one list makes the pairs of the list with itself, with no list none. -/
theorem C76_one_list (xs : List V) :
    fullmesh [xs] = (xs.zipIdx.flatMap fun p => xs.zipIdx.map fun q => (p.2, q.2, p.1, q.1)) ∧
    fullmesh ([] : List (List V)) = [] :=
  ⟨by rw [fullmesh, foreachx_eq], rfl⟩

example : fullmesh [[7, 8]] = [(0, 0, 7, 7), (0, 1, 7, 8), (1, 0, 8, 7), (1, 1, 8, 8)] := by decide

/-! ### Names -/

/-- What occurs in an index: digits, letters and underscores. -/
theorem index_mem {n : Nat} {c : Char} (h : c ∈ index n) : c.isDigit = true ∨ c ∈ "H2PP_INC_".toList ∨ c ∈ "32".toList := by
  unfold index at h
  split at h
  · exact .inl (Nat.isDigit_of_mem_toDigits (by omega) (by omega) h)
  · simp only [List.mem_append, List.mem_flatten, List.mem_replicate] at h
    rcases h with ⟨l, ⟨_, rfl⟩, h⟩ | h
    · exact .inr (.inl h)
    · exact .inr (.inr h)

theorem index_not {n : Nat} {d : Char} (h1 : d.isDigit = false) (h2 : d ∉ "H2PP_INC_".toList) : d ∉ index n := by
  intro h
  rcases index_mem h with h | h | h
  · rw [h1] at h; cases h
  · exact h2 h
  · have : d = '3' ∨ d = '2' := by simpa using h
    rcases this with rfl | rfl <;> simp at h1

theorem index_length {n : Nat} (h : ¬ n ≤ 32) : (index n).length = 9 * (n - 32) + 2 := by
  unfold index
  rw [if_neg h, List.length_append, List.length_flatten, List.map_replicate, List.sum_replicate_nat]
  simp
  omega

theorem index_inj {n m : Nat} (h : index n = index m) : n = m := by
  have mixed : ∀ a b : Nat, a ≤ 32 → ¬ b ≤ 32 → index a = index b → False := by
    intro a b ha hb e
    have h1 : 'H' ∈ index b := by
      unfold index
      rw [if_neg hb, show b - 32 = (b - 33) + 1 by omega, List.replicate_succ]
      simp
    rw [← e] at h1
    unfold index at h1
    rw [if_pos ha] at h1
    have := Nat.isDigit_of_mem_toDigits (by omega) (by omega) h1
    simp at this
  by_cases hn : n ≤ 32
  · by_cases hm : m ≤ 32
    · unfold index at h
      rw [if_pos hn, if_pos hm] at h
      have h3 := congrArg (fun l => Nat.ofDigitChars 10 l 0) h
      simpa only [Nat.ofDigitChars_ten_toDigits] using h3
    · exact (mixed n m hn hm h).elim
  · by_cases hm : m ≤ 32
    · exact (mixed m n hm hn h.symm).elim
    · have := congrArg List.length h
      rw [index_length hn, index_length hm] at this
      omega

theorem split_at {d : Char} : ∀ {u v a b : List Char}, d ∉ u → d ∉ v → u ++ d :: a = v ++ d :: b → u = v ∧ a = b
  | [], [], a, b, _, _, h => by simpa using h
  | [], c :: v, a, b, _, hv, h => by injection h with h1 _; exact absurd (h1 ▸ List.mem_cons_self) hv
  | c :: u, [], a, b, hu, _, h => by injection h with h1 _; exact absurd (h1 ▸ List.mem_cons_self) hu
  | c :: u, c' :: v, a, b, hu, hv, h => by
    injection h with h1 h2
    obtain ⟨h3, h4⟩ := split_at (fun h => hu (List.mem_cons_of_mem _ h)) (fun h => hv (List.mem_cons_of_mem _ h)) h2
    exact ⟨by rw [h1, h3], h4⟩

theorem digits_dot (i i' : Nat) (a b : List Char) (h : index i ++ '.' :: a = index i' ++ '.' :: b) : i = i' ∧ a = b := by
  obtain ⟨h1, h2⟩ := split_at (index_not (by decide) (by decide)) (index_not (by decide) (by decide)) h
  exact ⟨index_inj h1, h2⟩

/-- C76.  The cases of one `Cases` have different names, whatever the text of the values. -/
theorem C76_names (p : List Char) (i i' : Nat) (x x' : List Char) (h : name1 p i x = name1 p i' x') : i = i' ∧ x = x' := by
  simp only [name1, List.append_assoc, List.cons_append, List.nil_append] at h
  have h := List.append_cancel_left h
  injection h with _ h
  obtain ⟨h1, h2⟩ := digits_dot i i' _ _ h
  injection h2 with _ h2
  exact ⟨h1, h2⟩

/-- C76.  The cases of one `Casess` have different names. -/
theorem C76_names2 (p : List Char) (i i' j j' : Nat) (x x' y y' : List Char)
    (h : name2 p i j x y = name2 p i' j' x' y') : i = i' ∧ j = j' := by
  simp only [name2, List.append_assoc, List.cons_append, List.nil_append] at h
  have h := List.append_cancel_left h
  injection h with _ h
  obtain ⟨h1, h2⟩ := digits_dot i i' _ _ h
  obtain ⟨h3, _⟩ := digits_dot j j' _ _ h2
  exact ⟨h1, h3⟩

example : name1 "add".toList 1 "7".toList = "add 1. 7".toList ∧ name2 "add".toList 0 12 "7".toList "b".toList = "add 0.12. 7, b".toList := by
  decide +kernel

/-! ### Concrete suites -/

/-- Values of two types, `int` and `double`; a `double` assigned to an `int` loses its fraction. -/
inductive Num where
  | int (n : Int)
  | dbl (q : Rat)
deriving DecidableEq

/-- The value `x` when it is assigned to a variable of the type of `first`. -/
def Num.assign : Num → Num → Num
  | .int _, .dbl q => .int (if 0 ≤ q then q.floor else q.ceil)
  | .dbl _, .int n => .dbl n
  | _, x => x

/-- Statements, a `Setup`, a `Cases` with three values, a `Case`, and a `Casess` with two by two. -/
def sample : List (Item Num) :=
  [.code 1, .setup 2, .cases [.int 5, .int 6, .int 7], .code 3, .one, .casess [.int 1, .int 2] [.dbl 3, .dbl 4]]

example : (declared sample).map Prod.fst =
    [⟨2, 0, 0⟩, ⟨2, 1, 0⟩, ⟨2, 2, 0⟩, ⟨4, 0, 0⟩, ⟨5, 0, 0⟩, ⟨5, 0, 1⟩, ⟨5, 1, 0⟩, ⟨5, 1, 1⟩] := by decide +kernel

theorem sample_reached : Reached Num.assign sample ⟨(declared sample).map Prod.fst, .unset, codes sample⟩ :=
  .first 7 _ (enumerated Num.assign sample 0)

theorem sample_types : ∀ it ∈ sample, SameType Num.assign it := by
  intro it hi
  simp only [sample, List.mem_cons, List.not_mem_nil, or_false] at hi
  rcases hi with rfl | rfl | rfl | rfl | rfl | rfl <;> simp [SameType] <;> decide +kernel

theorem sample_types_cases : SameType Num.assign (.cases [.int 5, .int 6]) := by
  simp [SameType]; decide +kernel

/-- The last pair of the sample: the statements, the `Setup`, and the case with 2 and 4. -/
example : ∃ f0, ∀ f, ∃ st', call Num.assign sample (f0 + f) (some ⟨5, 1, 1⟩) ⟨(declared sample).map Prod.fst, .unset, codes sample⟩ = .ended st' ∧
    st'.trace = [.code 1, .code 3, .code 1, .setup 2, .code 3, .body ⟨5, 1, 1⟩ [.int 2, .dbl 4]] :=
  C76_run_partial Num.assign sample _ sample_reached (by decide +kernel) ⟨5, 1, 1⟩ [.int 2, .dbl 4] (by decide +kernel) sample_types

/-- A suite with `Cleanup`: the statement between `Cleanup` and `Case` is executed twice. -/
example : ∃ f0, ∀ f, ∃ st', call Num.assign [.setup 1, .cleanup 2, .code 3, .one, .code 4] (f0 + f) (some ⟨3, 0, 0⟩) {} = .ended st' ∧
    st'.trace = [.setup 1, .code 3, .body ⟨3, 0, 0⟩ [], .cleanup 2, .code 3, .code 4] :=
  C76_cleanup_partial Num.assign [.setup 1] [.code 3] [.code 4] 2 {} (by decide +kernel) ⟨3, 0, 0⟩ rfl

/-- `Cleanup`, then `Cases` with two values: the second case never ends. -/
example : ∀ f, ∃ st', call Num.assign [.cleanup 1, .cases [.int 5, .int 6]] f (some ⟨1, 1, 0⟩) {} = .running st' :=
  (C76_cleanup_false Num.assign [] [] [] 1 (.cases [.int 5, .int 6]) ⟨1, 1, 0⟩ [.int 6] (by simp) (by simp)
    (sample_types_cases) (by decide +kernel) {}).1

/-- `Case`, then `Cleanup`. -/
example : ∃ f0, ∀ f, call Num.assign [.one, .cleanup 1] (f0 + f) (some ⟨0, 0, 0⟩) ⟨[⟨0, 0, 0⟩], .stale, []⟩ = .undefined :=
  C76_late_false Num.assign [] [.cleanup 1] .one ⟨0, 0, 0⟩ [] _ (.first 3 _ (enumerated Num.assign [.one, .cleanup 1] 0))
    (by simp) ⟨.cleanup 1, by simp, rfl⟩ trivial (by simp [declares])

/-- Finding: C76 is false for lists of several types.  All values are converted to the type of the first:
of `Cases(name, (1, 2.5))` the second case sees 2. -/
theorem C76_convert_false :
    (⟨0, 1, 0⟩, [.dbl (5 / 2)]) ∈ declared [Item.cases [.int 1, Num.dbl (5 / 2)]] ∧
    call Num.assign [.cases [.int 1, .dbl (5 / 2)]] 2 (some ⟨0, 1, 0⟩) {} =
      .ended ⟨[⟨0, 0, 0⟩, ⟨0, 1, 0⟩], .unset, [.body ⟨0, 1, 0⟩ [.int 2]]⟩ :=
  ⟨by decide +kernel, by decide +kernel⟩

end H2.SuiteFn
