import Verif.Scope.Spec
/-
C75: memory belongs to the block or case in which it is allocated.
-/
namespace H2.Scope

theorem take_none {x : Nat} {as : List Area} (h : as.findIdx? (fun a => a.label = x) = none) : take x as = none := by
  induction as with
  | nil => rfl
  | cons a as ih =>
    rw [List.findIdx?_cons] at h
    by_cases hx : a.label = x
    · simp [hx] at h
    · simp only [hx, decide_false, Bool.false_eq_true, if_false, Option.map_eq_none_iff] at h
      rw [take, if_neg hx, ih h]
      rfl

theorem take_some {x : Nat} {as : List Area} {i : Nat} (h : as.findIdx? (fun a => a.label = x) = some i) :
    ∃ a, as[i]? = some a ∧ take x as = some (a.owner, as.eraseIdx i) := by
  induction as generalizing i with
  | nil => simp at h
  | cons a as ih =>
    rw [List.findIdx?_cons] at h
    by_cases hx : a.label = x
    · simp [hx] at h
      subst h
      exact ⟨a, rfl, by rw [take, if_pos hx]; rfl⟩
    · simp only [hx, decide_false, Bool.false_eq_true, if_false, Option.map_eq_some_iff] at h
      obtain ⟨j, hj, rfl⟩ := h
      obtain ⟨b, h1, h2⟩ := ih hj
      exact ⟨b, by simpa using h1, by rw [take, if_neg hx, h2]; rfl⟩

theorem hook_set {o : Opts} (ho : o.memoryCheck = true) (b : Bool) (s : St) : hook o b s = { s with on := b } := by
  rw [hook, if_pos ho]

theorem lookup_on {o : Opts} (ho : o.memoryCheck = true) {s : St} (h : s.on = true) : lookup o s = s := by
  rw [lookup, hook_set ho, hook_set ho]
  cases s
  simp at h
  simp [h]

/-- What the proof by structure shows of a piece of code. -/
def Follows (o : Opts) (p : Prog) (s : St) (as : List Area) (ms : List Msg) : Prop :=
  (o.continueAssert = true ∨ ms = [] → run o p s = ({ s with areas := as, msgs := s.msgs ++ ms }, .done)) ∧
  (o.continueAssert = false → ∀ m r, ms = m :: r → ∃ s', run o p s = (s', .jump) ∧ s'.msgs = s.msgs ++ [m])

theorem quiet_tame {p} (h : Quiet p) : Tame p := by
  induction p with
  | seq p q ih1 ih2 => exact ⟨ih1 h.1, ih2 h.2⟩
  | block u n p ih =>
    obtain ⟨rfl, h2⟩ := h
    exact ih h2
  | _ => trivial

theorem endBlock_nil {o : Opts} {u : Bool} {s s' : St} (hp : pop s = (s', [])) :
    endBlock o u s = (if u then hook o true s' else s', .done) := by
  unfold endBlock
  rw [hp]

theorem endBlock_cons {o : Opts} {u : Bool} {s s' : St} {x : Nat} {xs : List Nat} (hp : pop s = (s', x :: xs)) :
    endBlock o u s = if o.continueAssert then
        (if u then hook o true { s' with msgs := s'.msgs ++ [.leak (x :: xs)] } else { s' with msgs := s'.msgs ++ [.leak (x :: xs)] }, .done)
      else ({ s' with msgs := s'.msgs ++ [.leak (x :: xs)] }, .jump) := by
  unfold endBlock
  rw [hp]
  simp only [failing]
  cases o.continueAssert <;> rfl

theorem follows {o : Opts} (ho : o.memoryCheck = true) (p : Prog) : ∀ (d : Nat) (un : Bool) (s : St) (as : List Area) (ms : List Msg),
    (if un then Quiet p else Tame p) → s.on = !un → s.stack.length = d → meaning d un p s.areas = some (as, ms) → Follows o p s as ms := by
  induction p with
  | skip =>
    intro d un s as ms _ _ _ h
    simp only [meaning, Option.some.injEq, Prod.mk.injEq] at h
    obtain ⟨rfl, rfl⟩ := h
    exact ⟨fun _ => by simp [run], fun _ m r h => by cases h⟩
  | seq p q ihp ihq =>
    intro d un s as ms ht hon hd h
    have hp : if un then Quiet p else Tame p := by cases un <;> exact ht.1
    have hq : if un then Quiet q else Tame q := by cases un <;> exact ht.2
    simp only [meaning] at h
    cases h1 : meaning d un p s.areas with
    | none => rw [h1] at h; cases h
    | some r1 =>
      obtain ⟨as1, ms1⟩ := r1
      rw [h1] at h
      simp only at h
      cases h2 : meaning d un q as1 with
      | none => rw [h2] at h; cases h
      | some r2 =>
        obtain ⟨as2, ms2⟩ := r2
        rw [h2] at h
        simp only [Option.some.injEq, Prod.mk.injEq] at h
        obtain ⟨rfl, rfl⟩ := h
        obtain ⟨p1, p2⟩ := ihp d un s as1 ms1 hp hon hd h1
        obtain ⟨q1, q2⟩ := ihq d un { s with areas := as1, msgs := s.msgs ++ ms1 } as2 ms2 hq hon hd h2
        constructor
        · intro hc
          rw [run, p1 (hc.imp id (fun h => (List.append_eq_nil_iff.mp h).1))]
          simp only
          rw [q1 (hc.imp id (fun h => (List.append_eq_nil_iff.mp h).2))]
          simp [List.append_assoc]
        · intro hc m r hm
          cases ms1 with
          | nil =>
            rw [run, p1 (Or.inr rfl)]
            obtain ⟨s', e1, e2⟩ := q2 hc m r (by simpa using hm)
            exact ⟨s', e1, by simpa using e2⟩
          | cons m' r' =>
            obtain ⟨s', e1, e2⟩ := p2 hc m' r' rfl
            refine ⟨s', by rw [run, e1], ?_⟩
            rw [List.cons_append] at hm
            rw [e2, (List.cons.inj hm).1]
  | alloc x =>
    intro d un s as ms _ hon hd h
    simp only [meaning, Option.some.injEq, Prod.mk.injEq] at h
    obtain ⟨rfl, rfl⟩ := h
    refine ⟨fun _ => ?_, fun _ m r h => by cases h⟩
    cases un with
    | true => simp [run, alloc, hon]
    | false =>
      simp only [run, alloc, hon, Bool.not_false, if_true]
      have h1 : s.on = true := by simpa using hon
      rw [lookup_on ho h1, lookup_on ho h1, hd]
      simp [h1]
  | free x =>
    intro d un s as ms _ hon hd h
    simp only [meaning] at h
    cases hf : s.areas.findIdx? (fun a => a.label = x) with
    | none =>
      rw [hf] at h
      simp only [Option.some.injEq, Prod.mk.injEq] at h
      obtain ⟨rfl, rfl⟩ := h
      refine ⟨fun _ => ?_, fun _ m r h => by cases h⟩
      rw [run, free, take_none hf]
      simp
    | some i =>
      rw [hf] at h
      obtain ⟨a, ha, ht⟩ := take_some hf
      simp only [ha, Option.map_some, Option.some.injEq] at h
      split at h
      · cases h
      · rename_i hn
        simp only [Option.some.injEq, Prod.mk.injEq] at h
        obtain ⟨rfl, rfl⟩ := h
        refine ⟨fun _ => ?_, fun _ m r h => by cases h⟩
        rw [run, free, ht]
        cases un with
        | true =>
          have : a.owner = .libc := Classical.byContradiction fun hh => hn ⟨rfl, by simpa using hh⟩
          rw [this]
          simp [hon]
        | false =>
          have h1 : s.on = true := by simpa using hon
          cases hw : a.owner with
          | block k => simp [h1]
          | libc => simp only [h1, if_true]; rw [lookup_on ho rfl]; simp
          | gone => simp only [h1, if_true]; rw [lookup_on ho rfl]; simp
  | lookup =>
    intro d un s as ms ht hon hd h
    simp only [meaning, Option.some.injEq, Prod.mk.injEq] at h
    obtain ⟨rfl, rfl⟩ := h
    refine ⟨fun _ => ?_, fun _ m r h => by cases h⟩
    cases un with
    | true => exact absurd ht (by simp [Quiet])
    | false =>
      rw [run, lookup_on ho (by simpa using hon)]
      simp
  | fail m =>
    intro d un s as ms _ hon hd h
    simp only [meaning, Option.some.injEq, Prod.mk.injEq] at h
    obtain ⟨rfl, rfl⟩ := h
    constructor
    · intro hc
      rcases hc with hc | hc
      · simp [run, failing, hc]
      · cases hc
    · intro hc m' r hm
      obtain ⟨rfl, rfl⟩ := List.cons.inj hm
      exact ⟨_, by simp only [run, failing, hc]; rfl, rfl⟩
  | block u n p ih =>
    intro d un s as ms ht hon hd h
    simp only [meaning] at h
    cases h1 : meaning (d + 1) (un || u) p s.areas with
    | none => rw [h1] at h; cases h
    | some r1 =>
      obtain ⟨as1, ms1⟩ := r1
      rw [h1] at h
      simp only [Option.some.injEq, Prod.mk.injEq] at h
      obtain ⟨rfl, hms⟩ := h
      -- the state at the beginning of the body
      obtain ⟨s1, es1⟩ : ∃ s1, s1 = (if u then hook o false s else s) := ⟨_, rfl⟩
      have hu : un = true → u = false := by
        intro h; subst h; exact ht.1
      have e1 : s1 = { s with on := !(un || u) } := by
        rw [es1]
        cases u with
        | true =>
          simp only [if_true, hook_set ho, Bool.or_true, Bool.not_true]
        | false =>
          simp only [Bool.false_eq_true, if_false, Bool.or_false]
          rw [← hon]
      have ht' : if (un || u) then Quiet p else Tame p := by
        cases un with
        | true => exact ht.2
        | false =>
          cases u with
          | true => exact ht
          | false => exact ht
      obtain ⟨b1, b2⟩ := ih (d + 1) (un || u) { s1 with stack := n :: s1.stack } as1 ms1 ht' (by rw [e1]) (by rw [e1]; simp [hd]) (by rw [e1]; exact h1)
      have hrun : run o (.block u n p) s = match run o p { s1 with stack := n :: s1.stack } with
          | (s, .done) => endBlock o u s
          | e => e := by rw [es1]; rfl
      -- the end
      have hpop : pop { s1 with stack := n :: s1.stack, areas := as1, msgs := s1.msgs ++ ms1 } =
          ({ s1 with areas := as1.map (disown (d + 1)), msgs := s1.msgs ++ ms1 }, if n then [] else held (d + 1) as1) := by
        have hl : s1.stack.length = d := by rw [e1]; exact hd
        simp only [pop, List.length_cons, hl]
      have hmap : as1.map (disown (d + 1)) = as1.map (fun a => if a.owner = .block (d + 1) then { a with owner := .gone } else a) := rfl
      have hback : ∀ ns : List Msg, (if u then hook o true { s1 with areas := as1.map (disown (d + 1)), msgs := ns } else { s1 with areas := as1.map (disown (d + 1)), msgs := ns }) =
          { s with areas := as1.map (disown (d + 1)), msgs := ns } := by
        intro ns
        rw [e1]
        cases u with
        | true =>
          have : un = false := by
            cases un with
            | true => exact absurd (hu rfl) (by simp)
            | false => rfl
          rw [if_pos rfl, hook_set ho]
          simp only [this] at hon
          simp [hon]
        | false =>
          simp only [Bool.false_eq_true, if_false, Bool.or_false]
          rw [← hon]
      have hleft : (if n then [] else held (d + 1) as1) = [] → ms = ms1 := by
        intro hh
        rw [← hms]
        cases n with
        | true => simp
        | false =>
          simp only [Bool.false_eq_true, if_false, held, List.map_eq_nil_iff] at hh
          simp [hh]
      have hleak : ∀ x xs, (if n then [] else held (d + 1) as1) = x :: xs → ms = ms1 ++ [.leak (x :: xs)] := by
        intro x xs hh
        rw [← hms]
        cases n with
        | true => simp at hh
        | false =>
          simp only [Bool.false_eq_true, if_false, held] at hh
          rw [if_neg, hh]
          simp only [Bool.false_or]
          intro he
          rw [List.isEmpty_iff] at he
          rw [he] at hh
          cases hh
      have hm1 : s1.msgs = s.msgs := by rw [e1]
      constructor
      · intro hc
        have hc1 : o.continueAssert = true ∨ ms1 = [] := by
          rcases hc with hc | hc
          · exact Or.inl hc
          · right
            cases hl : (if n then [] else held (d + 1) as1) with
            | nil => rw [← hleft hl]; exact hc
            | cons x xs =>
              have := hleak x xs hl
              rw [hc] at this
              exact (List.append_eq_nil_iff.mp this.symm).1
        rw [hrun, b1 hc1]
        simp only
        cases hl : (if n then [] else held (d + 1) as1) with
        | nil =>
          rw [hl] at hpop
          rw [endBlock_nil hpop, hback, hleft hl, hm1, hmap]
        | cons x xs =>
          rw [hl] at hpop
          rw [endBlock_cons hpop]
          have hms' := hleak x xs hl
          rcases hc with hc | hc
          · simp only [hc, if_true]
            rw [hback, hms', hm1, hmap, List.append_assoc]
          · rw [hms'] at hc
            exact absurd (List.append_eq_nil_iff.mp hc).2 (by simp)
      · intro hc m r hm
        cases ms1 with
        | cons m' r' =>
          obtain ⟨s', f1, f2⟩ := b2 hc m' r' rfl
          refine ⟨s', by rw [hrun, f1], ?_⟩
          have : m' = m := by
            cases hl : (if n then [] else held (d + 1) as1) with
            | nil => have := hleft hl; rw [hm] at this; exact (List.cons.inj this).1.symm
            | cons x xs => have := hleak x xs hl; rw [hm, List.cons_append] at this; exact (List.cons.inj this).1.symm
          rw [f2, this, hm1]
        | nil =>
          cases hl : (if n then [] else held (d + 1) as1) with
          | nil => have := hleft hl; rw [hm] at this; cases this
          | cons x xs =>
            have hms' := hleak x xs hl
            rw [hm, List.nil_append] at hms'
            rw [hl] at hpop
            refine ⟨{ s1 with areas := as1.map (disown (d + 1)), msgs := s1.msgs ++ [] ++ [.leak (x :: xs)] }, ?_, ?_⟩
            · rw [hrun, b1 (Or.inr rfl)]
              simp only
              rw [endBlock_cons hpop]
              simp only [hc, Bool.false_eq_true, if_false]
            · simp only
              rw [hm1, List.append_nil, (List.cons.inj hms').1]

/-- **C75, with -c.** In every program (without lookups and further unmem blocks inside of unmem blocks), what is reported and what is left is
what the structure of the program says: every area belongs to the innermost block around its allocation, each block reports at its end
exactly its areas that are not freed, in unmem blocks nothing is tracked and afterwards memory is tracked as before. -/
theorem C75_continue_partial {o : Opts} (ho : o.memoryCheck = true) (hc : o.continueAssert = true) {p : Prog} (ht : Tame p) {s : St}
    (hs : s.on = true) {as : List Area} {ms : List Msg} (h : meaning s.stack.length false p s.areas = some (as, ms)) :
    run o p s = ({ s with areas := as, msgs := s.msgs ++ ms }, .done) :=
  (follows ho p s.stack.length false s as ms ht (by simpa using hs) rfl h).1 (Or.inl hc)

/-- **C75, without -c.** The same until the first message, with which the program is left. -/
theorem C75_first_partial {o : Opts} (ho : o.memoryCheck = true) (hc : o.continueAssert = false) {p : Prog} (ht : Tame p) {s : St}
    (hs : s.on = true) {as : List Area} {ms : List Msg} (h : meaning s.stack.length false p s.areas = some (as, ms)) :
    (ms = [] → run o p s = ({ s with areas := as }, .done)) ∧
    (∀ m r, ms = m :: r → ∃ s', run o p s = (s', .jump) ∧ s'.msgs = s.msgs ++ [m]) := by
  have hf := follows ho p s.stack.length false s as ms ht (by simpa using hs) rfl h
  refine ⟨fun hm => ?_, hf.2 hc⟩
  rw [hf.1 (Or.inr hm), hm, List.append_nil]

/-- A leak of area 3 in an inner block, of area 1 in the outer; area 2 is freed and area 4 not tracked. -/
def nested : Prog :=
  .block false false (.seq (.alloc 1) (.seq (.alloc 2) (.seq (.block false false (.seq (.alloc 3) (.free 2))) (.block true false (.alloc 4)))))

example : Tame nested ∧ (run { continueAssert := true } nested (start {})).1.msgs = [.leak [3], .leak [1]] := by
  refine ⟨by simp [nested, Tame, Quiet], ?_⟩
  rw [C75_continue_partial (o := { continueAssert := true }) (s := start {}) (p := nested) rfl rfl (by simp [nested, Tame, Quiet]) rfl
    (show meaning 1 false nested [] = some ([⟨4, .libc⟩, ⟨3, .gone⟩, ⟨1, .gone⟩], [.leak [3], .leak [1]]) from by decide +kernel)]
  rfl

theorem hook_msgs (o : Opts) (b : Bool) (s : St) : (hook o b s).msgs = s.msgs := by
  unfold hook; split <;> rfl

/-- **C75.** A case is a block: if nothing fails before its end (or with -c), what its memory check reports is what its structure says, and the
next case finds everything as this one did. -/
theorem C75_case_partial {o : Opts} (ho : o.memoryCheck = true) {setup body cleanup : Prog} (h1 : Tame setup) (h2 : Tame body) (h3 : Tame cleanup)
    {s : St} (hs : s.on = true) {as as' : List Area} {ms ms' : List Msg}
    (h : meaning (s.stack.length + 1) false (.seq setup (.seq body cleanup)) s.areas = some (as, ms)) (hc : o.continueAssert = true ∨ ms = [])
    (h' : meaning s.stack.length false (.block false false (.seq setup (.seq body cleanup))) s.areas = some (as', ms')) :
    runCase o setup body cleanup s = some { s with areas := as', msgs := ms' } := by
  have hf := (follows ho (.seq setup (.seq body cleanup)) (s.stack.length + 1) false { s with stack := false :: s.stack, msgs := [] } as ms
    ⟨h1, h2, h3⟩ (by simpa using hs) rfl h).1 hc
  simp only [List.nil_append] at hf
  simp only [run] at hf
  unfold runCase
  cases e1 : run o setup { s with stack := false :: s.stack, msgs := [] } with
  | mk s1 x1 =>
    rw [e1] at hf
    cases x1 with
    | jump => simp at hf
    | undefined => simp at hf
    | done =>
      simp only at hf ⊢
      cases e2 : run o body s1 with
      | mk s2 x2 =>
        rw [e2] at hf
        cases x2 with
        | jump => simp at hf
        | undefined => simp at hf
        | done =>
          simp only at hf ⊢
          rw [hf]
          simp only
          congr 1
          simp only [meaning, Bool.or_false] at h h'
          rw [h] at h'
          simp only [Option.some.injEq, Prod.mk.injEq, Bool.false_or] at h'
          obtain ⟨rfl, rfl⟩ := h'
          unfold endCase pop
          simp only [List.length_cons]
          have hmap : as.map (disown (s.stack.length + 1)) = as.map (fun a => if a.owner = .block (s.stack.length + 1) then { a with owner := .gone } else a) := rfl
          cases hl : held (s.stack.length + 1) as with
          | nil =>
            have : (as.filter (fun a => a.owner = .block (s.stack.length + 1))) = [] := by
              rw [held, List.map_eq_nil_iff] at hl; exact hl
            simp only [Bool.false_eq_true, if_false]
            rw [hook_set ho, this, hmap, hs]
            rfl
          | cons x xs =>
            have hh : (as.filter (fun a => a.owner = .block (s.stack.length + 1))).map (·.label) = x :: xs := hl
            simp only [Bool.false_eq_true, if_false]
            have he : ((as.filter (fun a => a.owner = .block (s.stack.length + 1))).isEmpty) = false := by
              cases hq : as.filter (fun a => a.owner = .block (s.stack.length + 1)) with
              | nil => rw [hq] at hh; cases hh
              | cons _ _ => rfl
            rw [hook_set ho, he, hh]
            have hcond : (!ms.isEmpty && !o.continueAssert) = false := by
              rcases hc with hc | hc
              · rw [hc]; simp
              · rw [hc]; rfl
            simp only [hcond, Bool.false_eq_true, if_false]
            rw [hmap, hs]

/-- A case that leaks what its `Setup` allocates. -/
example : runCase {} (.alloc 1) (.block true false (.alloc 2)) (.free 2) (start {}) = some ⟨true, [false], [⟨1, .gone⟩], [.leak [1]]⟩ :=
  C75_case_partial (s := start {}) rfl (setup := .alloc 1) (body := .block true false (.alloc 2)) (cleanup := .free 2) trivial (by simp [Tame, Quiet]) trivial rfl (as := [⟨1, .block 2⟩]) (ms := [])
    (by decide +kernel) (Or.inr rfl) (by decide +kernel)

/-- **C75.** An assertion that fails outside of blocks is the only message of its case, and the next case finds everything as this one did. -/
theorem C75_fail_outside {o : Opts} (ho : o.memoryCheck = true) (hc : o.continueAssert = false) {setup p q cleanup : Prog} {m : Nat} (h1 : Tame setup)
    (h2 : Tame p) (h3 : Tame cleanup) {s : St} (hs : s.on = true) {as : List Area}
    (h : meaning (s.stack.length + 1) false (.seq setup (.seq p cleanup)) s.areas = some (as, [])) :
    ∃ as', runCase o setup (.seq p (.seq (.fail m) q)) cleanup s = some { s with areas := as', msgs := [.assert m] } := by
  simp only [meaning] at h
  cases e1 : meaning (s.stack.length + 1) false setup s.areas with
  | none => rw [e1] at h; cases h
  | some r1 =>
    obtain ⟨as1, ms1⟩ := r1
    rw [e1] at h
    simp only at h
    cases e2 : meaning (s.stack.length + 1) false p as1 with
    | none => rw [e2] at h; cases h
    | some r2 =>
      obtain ⟨as2, ms2⟩ := r2
      rw [e2] at h
      simp only at h
      cases e3 : meaning (s.stack.length + 1) false cleanup as2 with
      | none => rw [e3] at h; cases h
      | some r3 =>
        obtain ⟨as3, ms3⟩ := r3
        rw [e3] at h
        simp only [Option.some.injEq, Prod.mk.injEq, List.append_eq_nil_iff] at h
        obtain ⟨rfl, rfl, rfl, rfl⟩ := h
        have f1 := (follows ho setup _ false { s with stack := false :: s.stack, msgs := [] } as1 [] h1 (by simpa using hs) rfl e1).1 (Or.inr rfl)
        have f2 := (follows ho p _ false { s with stack := false :: s.stack, msgs := [], areas := as1 } as2 [] h2 (by simpa using hs) rfl e2).1 (Or.inr rfl)
        have f3 := (follows ho cleanup _ false { s with stack := false :: s.stack, msgs := [.assert m], areas := as2 } as3 [] h3 (by simpa using hs) rfl e3).1 (Or.inr rfl)
        simp only [List.append_nil] at f1 f2 f3
        refine ⟨as3.map (disown (s.stack.length + 1)), ?_⟩
        unfold runCase
        rw [f1]
        simp only [run]
        rw [f2]
        simp only [failing, hc, Bool.false_eq_true, if_false, List.nil_append]
        rw [f3]
        simp only [endCase, pop, List.length_cons, Bool.false_eq_true, if_false]
        cases held (s.stack.length + 1) as3 with
        | nil => simp only; rw [hook_set ho, hs]
        | cons x xs => simp only; rw [hook_set ho, hs]; simp [hc]

example : ∃ as', runCase {} (.alloc 1) (.seq (.alloc 2) (.seq (.fail 5) .skip)) (.free 1) (start {}) =
    some { start {} with areas := as', msgs := [.assert 5] } :=
  C75_fail_outside (s := start {}) (setup := .alloc 1) (p := .alloc 2) (cleanup := .free 1) rfl rfl trivial trivial trivial rfl (as := [⟨2, .block 2⟩]) (by decide +kernel)

/-! ### Without the memory check -/

/-- **C75.** Without the memory check no leak is ever reported, nothing is undefined and assertions fail as they do. -/
theorem C75_off {o : Opts} (ho : o.memoryCheck = false) (p : Prog) (s : St) (hs : s.on = false) (ha : ∀ a ∈ s.areas, a.owner = .libc) :
    (run o p s).2 ≠ .undefined ∧ (run o p s).1.on = false ∧ (∀ a ∈ (run o p s).1.areas, a.owner = .libc) ∧
      ∃ ms, (run o p s).1.msgs = s.msgs ++ ms ∧ ∀ m ∈ ms, ∃ k, m = .assert k := by
  have hk : ∀ b s, hook o b s = s := by intro b s; rw [hook, if_neg (by rw [ho]; simp)]
  have hl : ∀ s, lookup o s = s := by intro s; rw [lookup, hk, hk]
  have htake : ∀ x (as : List Area) w bs, (∀ a ∈ as, a.owner = .libc) → take x as = some (w, bs) → w = .libc ∧ ∀ a ∈ bs, a.owner = .libc := by
    intro x as
    induction as with
    | nil => intro w bs _ h; cases h
    | cons a as ih =>
      intro w bs h1 h2
      rw [take] at h2
      split at h2
      · simp only [Option.some.injEq, Prod.mk.injEq] at h2
        obtain ⟨rfl, rfl⟩ := h2
        exact ⟨h1 a (by simp), fun b hb => h1 b (by simp [hb])⟩
      · rw [Option.map_eq_some_iff] at h2
        obtain ⟨⟨w', bs'⟩, h3, h4⟩ := h2
        simp only [Prod.mk.injEq] at h4
        obtain ⟨rfl, rfl⟩ := h4
        obtain ⟨h5, h6⟩ := ih _ _ (fun b hb => h1 b (by simp [hb])) h3
        refine ⟨h5, ?_⟩
        intro b hb
        rcases List.mem_cons.mp hb with rfl | hb
        · exact h1 _ (by simp)
        · exact h6 b hb
  induction p generalizing s with
  | skip => exact ⟨by simp [run], hs, ha, [], by simp [run], by simp⟩
  | seq p q ihp ihq =>
    obtain ⟨a1, a2, a3, ms, a4, a5⟩ := ihp s hs ha
    cases e : run o p s with
    | mk s1 x1 =>
      rw [e] at a1 a2 a3 a4
      cases x1 with
      | done =>
        obtain ⟨b1, b2, b3, ns, b4, b5⟩ := ihq s1 a2 a3
        have : run o (.seq p q) s = run o q s1 := by rw [run, e]
        rw [this]
        refine ⟨b1, b2, b3, ms ++ ns, ?_, ?_⟩
        · rw [b4]; simp only at a4; rw [a4, List.append_assoc]
        · intro m hm
          rcases List.mem_append.mp hm with hm | hm
          · exact a5 m hm
          · exact b5 m hm
      | jump =>
        have : run o (.seq p q) s = (s1, .jump) := by rw [run, e]
        rw [this]
        exact ⟨by simp, a2, a3, ms, a4, a5⟩
      | undefined => exact absurd rfl a1
  | alloc x =>
    refine ⟨by simp [run], ?_, ?_, [], ?_, by simp⟩
    · simp [run, alloc, hs]
    · intro a h
      simp only [run, alloc, hs, Bool.false_eq_true, if_false, List.mem_cons] at h
      rcases h with rfl | h
      · rfl
      · exact ha a h
    · simp [run, alloc, hs]
  | free x =>
    simp only [run, free]
    cases e : take x s.areas with
    | none => exact ⟨by simp, hs, ha, [], by simp, by simp⟩
    | some r =>
      obtain ⟨w, bs⟩ := r
      obtain ⟨rfl, h2⟩ := htake x _ _ _ ha e
      simp only [hs, Bool.false_eq_true, if_false]
      exact ⟨by simp, trivial, h2, [], by simp, by simp⟩
  | lookup => simp only [run, hl]; exact ⟨by simp, hs, ha, [], by simp, by simp⟩
  | fail m =>
    simp only [run, failing]
    refine ⟨by split <;> simp, hs, ha, [.assert m], rfl, ?_⟩
    intro k hk
    rw [List.mem_singleton.mp hk]
    exact ⟨m, rfl⟩
  | block u n p ih =>
    have e0 : (if u then hook o false s else s) = s := by rw [hk]; simp
    obtain ⟨a1, a2, a3, ms, a4, a5⟩ := ih { s with stack := n :: s.stack } hs ha
    simp only [run, e0]
    cases e : run o p { s with stack := n :: s.stack } with
    | mk s1 x1 =>
      rw [e] at a1 a2 a3 a4
      cases x1 with
      | undefined => exact absurd rfl a1
      | jump => exact ⟨by simp, a2, a3, ms, a4, a5⟩
      | done =>
        simp only
        have hheld : ∀ h, held h s1.areas = [] := by
          intro h
          rw [held, List.map_eq_nil_iff, List.filter_eq_nil_iff]
          intro a haa
          rw [a3 a haa]
          simp
        have hpop : ∃ s2, pop s1 = (s2, []) ∧ s2.on = false ∧ (∀ a ∈ s2.areas, a.owner = .libc) ∧ s2.msgs = s1.msgs := by
          cases hst : s1.stack with
          | nil => exact ⟨s1, by simp only [pop, hst], a2, a3, rfl⟩
          | cons b rest =>
            refine ⟨{ s1 with stack := rest, areas := s1.areas.map (disown s1.stack.length) }, by simp only [pop, hst, hheld, ite_self], a2, ?_, rfl⟩
            intro a haa
            simp only [List.mem_map] at haa
            obtain ⟨b, hb, rfl⟩ := haa
            have := a3 b hb
            simp only [disown, this, reduceCtorEq, if_false]
        obtain ⟨s2, p1, p2, p3, p4⟩ := hpop
        rw [endBlock_nil p1, hk]
        simp only [ite_self]
        exact ⟨by simp, p2, p3, ms, by rw [p4]; exact a4, a5⟩

example : (run { memoryCheck := false } nested (start { memoryCheck := false })).1.msgs = [] := by decide +kernel

/-! ### What is false of the code -/

/-- **C75, refuted (lookups).** In an unmem block, memory is tracked from the first look at a call stack or symbol, and the first regular
expression, on: what is allocated then is reported as a leak. -/
theorem C75_lookup_false (x : Nat) : (run {} (.block true false (.seq .lookup (.alloc x))) (start {})).1.msgs = [.leak [x]] := by
  simp [run, start, hook, lookup, alloc, endBlock, pop, held, failing]

/-- **C75, refuted (nested unmem blocks).** The end of an inner unmem block ends the outer one as well. -/
theorem C75_nested_false (x : Nat) : (run {} (.block true false (.seq (.block true false .skip) (.alloc x))) (start {})).1.msgs = [.leak [x]] := by
  simp [run, start, hook, lookup, alloc, endBlock, pop, held, failing]

/-- **C75, refuted (freeing in an unmem block).** Memory allocated outside cannot be freed inside: it is given to the C library. -/
theorem C75_free_false (x : Nat) : (run {} (.seq (.alloc x) (.block true false (.free x))) (start {})).2 = .undefined := by
  simp [run, start, hook, lookup, alloc, free, take]

/-- **C75, refuted (failing assertions in blocks).** The block is not ended: after the case, there is one block more than before. -/
theorem C75_left_false (m : Nat) : ∃ s, runCase {} .skip (.block false false (.fail m)) .skip (start {}) = some s ∧
    s.stack.length = (start {}).stack.length + 1 := by
  refine ⟨_, by simp [runCase, run, start, hook, failing, endCase, pop, held]; rfl, ?_⟩
  simp [start, hook]

/-- **C75, refuted (failing assertions in unmem blocks).** `Cleanup` runs without tracking: to free there what `Setup` has allocated is
undefined. -/
theorem C75_cleanup_false (x m : Nat) : runCase {} (.alloc x) (.block true false (.fail m)) (.free x) (start {}) = none := by
  simp [runCase, run, start, hook, lookup, alloc, failing, free, take]

end H2.Scope
