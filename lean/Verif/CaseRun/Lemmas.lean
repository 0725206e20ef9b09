import Verif.CaseRun.Spec
namespace H2.CaseRun

instance (e : Event) : Decidable e.fails := by
  unfold Event.fails; split <;> infer_instance
instance (o : Opts) (e : Event) : Decidable (e.warns o) := by
  unfold Event.warns; split <;> infer_instance

/-- The state after the events `evs` of user code. -/
structure Grows (o : Opts) (st st' : State) (evs : List Event) : Prop where
  trace : st'.trace = st.trace ++ evs
  failed : st'.failed = true ↔ st.failed = true ∨ ∃ e ∈ evs, e.fails
  warning : st'.warning = true ↔ st.warning = true ∨ ∃ e ∈ evs, e.warns o
  fails : st'.fails = st.fails ++ evs.filterMap (Event.message o)

theorem Grows.trans {o st st1 st2 a b} (h : Grows o st st1 a) (k : Grows o st1 st2 b) : Grows o st st2 (a ++ b) where
  trace := by rw [k.trace, h.trace, List.append_assoc]
  failed := by
    rw [k.failed, h.failed]
    constructor
    · rintro ((h | ⟨e, he, hf⟩) | ⟨e, he, hf⟩)
      · exact .inl h
      · exact .inr ⟨e, by simp [he], hf⟩
      · exact .inr ⟨e, by simp [he], hf⟩
    · rintro (h | ⟨e, he, hf⟩)
      · exact .inl (.inl h)
      · rcases List.mem_append.mp he with he | he
        · exact .inl (.inr ⟨e, he, hf⟩)
        · exact .inr ⟨e, he, hf⟩
  warning := by
    rw [k.warning, h.warning]
    constructor
    · rintro ((h | ⟨e, he, hf⟩) | ⟨e, he, hf⟩)
      · exact .inl h
      · exact .inr ⟨e, by simp [he], hf⟩
      · exact .inr ⟨e, by simp [he], hf⟩
    · rintro (h | ⟨e, he, hf⟩)
      · exact .inl (.inl h)
      · rcases List.mem_append.mp he with he | he
        · exact .inl (.inr ⟨e, he, hf⟩)
        · exact .inr ⟨e, he, hf⟩
  fails := by rw [k.fails, h.fails]; simp

theorem Grows.refl (o st) : Grows o st st [] := ⟨by simp, by simp, by simp, by simp⟩

/-- One step. -/
theorem step_grows (o b s st) : Grows o st (step o b s st).1 [.step b s] := by
  cases s <;> simp only [step]
  · exact ⟨rfl, by simp [Event.fails], by simp [Event.warns], by simp [Event.message]⟩
  · exact ⟨by simp [failing], by simp [Event.fails, failing], by simp [Event.warns, failing], by simp [Event.message, failing]⟩
  · exact ⟨by simp [failing], by simp [Event.fails, failing], by simp [Event.warns, failing], by simp [Event.message, failing]⟩
  · cases h : o.warnException
    · exact ⟨rfl, by simp [Event.fails], by simp [Event.warns, h], by simp [Event.message, h]⟩
    · exact ⟨by simp [failing], by simp [Event.fails, failing], by simp [Event.warns, failing, h], by simp [Event.message, failing, h]⟩
  · cases h : o.warnException
    · exact ⟨rfl, by simp [Event.fails], by simp [Event.warns, h], by simp [Event.message, h]⟩
    · exact ⟨by simp [failing], by simp [Event.fails, failing], by simp [Event.warns, failing, h], by simp [Event.message, failing, h]⟩

theorem step_exit (o b s st) : (step o b s st).2 = match s with
    | .fail _ => if o.continueAssert then .done else .jump
    | .throw m => .thrown m
    | _ => .done := by
  cases s <;> rfl

/-- How a sequence of steps is left. -/
def exitOf (o : Opts) : List Step → Exit
  | [] => .done
  | .fail _ :: r => if o.continueAssert then exitOf o r else .jump
  | .throw m :: _ => .thrown m
  | _ :: r => exitOf o r

theorem steps_grows (o b) : ∀ (l : List Step) (st : State),
    Grows o st (steps o b l st).1 ((cut (stops o) l).map (.step b)) ∧ (steps o b l st).2 = exitOf o l
  | [], st => ⟨.refl o st, rfl⟩
  | s :: r, st => by
    have g := step_grows o b s st
    have e := step_exit o b s st
    have ih := steps_grows o b r (step o b s st).1
    obtain ⟨st1, x, hx⟩ : ∃ st1 x, step o b s st = (st1, x) := ⟨_, _, rfl⟩
    rw [hx] at g e ih
    simp only [steps, hx]
    cases s with
    | act n =>
      simp only at e; subst e
      simp only [cut, stops, Bool.false_eq_true, if_false, exitOf]
      exact ⟨by simpa using g.trans ih.1, ih.2⟩
    | warn n =>
      simp only at e; subst e
      simp only [cut, stops, Bool.false_eq_true, if_false, exitOf]
      exact ⟨by simpa using g.trans ih.1, ih.2⟩
    | caught n =>
      simp only at e; subst e
      simp only [cut, stops, Bool.false_eq_true, if_false, exitOf]
      exact ⟨by simpa using g.trans ih.1, ih.2⟩
    | throw n =>
      simp only at e; subst e
      simp only [cut, stops, if_true, exitOf]
      exact ⟨by simpa using g, trivial⟩
    | fail n =>
      cases hc : o.continueAssert
      · simp only [hc] at e
        simp only [Bool.false_eq_true, if_false] at e; subst e
        simp only [cut, stops, hc, Bool.not_false, if_true, exitOf, Bool.false_eq_true, if_false]
        exact ⟨by simpa using g, trivial⟩
      · simp only [hc, if_true] at e; subst e
        simp only [cut, stops, hc, Bool.not_true, Bool.false_eq_true, if_false, exitOf, if_true]
        refine ⟨?_, ih.2⟩
        have := g.trans ih.1
        simpa [cut] using this

theorem block_grows (o b l st) :
    Grows o st (block o b l st).1 (ran b (cut (stops o) l)) ∧ (block o b l st).2 = exitOf o l := by
  have h := steps_grows o b l { st with trace := st.trace ++ [.enter b] }
  refine ⟨?_, h.2⟩
  have g : Grows o st { st with trace := st.trace ++ [.enter b] } [.enter b] :=
    ⟨rfl, by simp [Event.fails], by simp [Event.warns], by simp [Event.message]⟩
  exact g.trans h.1

theorem exitOf_none (o : Opts) : ∀ (l : List Step), (∀ s ∈ l, stops o s = false) → exitOf o l = .done ∧ cut (stops o) l = l
  | [], _ => ⟨rfl, rfl⟩
  | s :: r, h => by
    have ih := exitOf_none o r (fun s hs => h s (by simp [hs]))
    have hs := h s (by simp)
    cases s <;> simp_all [exitOf, cut, stops]

/-- A block left by an exception has thrown it; a block left otherwise has not thrown. -/
theorem exitOf_thrown (o : Opts) : ∀ (l : List Step) (m : Nat), exitOf o l = .thrown m ↔ .throw m ∈ cut (stops o) l
  | [], m => by simp [exitOf, cut]
  | s :: r, m => by
    have ih := exitOf_thrown o r m
    cases s with
    | fail n => cases hc : o.continueAssert <;> simp [exitOf, cut, stops, hc, ih]
    | throw n => simp [exitOf, cut, stops, eq_comm]
    | act n => simp [exitOf, cut, stops, ih]
    | warn n => simp [exitOf, cut, stops, ih]
    | caught n => simp [exitOf, cut, stops, ih]

theorem exitOf_jump (o : Opts) : ∀ (l : List Step), exitOf o l = .jump ↔ o.continueAssert = false ∧ ∃ m, .fail m ∈ cut (stops o) l
  | [] => by simp [exitOf, cut]
  | s :: r => by
    have ih := exitOf_jump o r
    cases s with
    | fail n => cases hc : o.continueAssert <;> simp [exitOf, cut, stops, hc, ih]
    | throw n => simp [exitOf, cut, stops]
    | act n => simp [exitOf, cut, stops, ih]
    | warn n => simp [exitOf, cut, stops, ih]
    | caught n => simp [exitOf, cut, stops, ih]

/-- What one or several executions of `Cleanup` leave behind. -/
structure CleanupRan (o : Opts) (exc : Option Nat) (evs : List Event) : Prop where
  mem : ∀ e ∈ evs, e.block? = some .cleanup
  enter : ∃ r, evs = .enter .cleanup :: r
  exc : ∀ m, exc = some m ↔ .step .cleanup (.throw m) ∈ evs

theorem mem_ran {e : Event} {b l} : e ∈ ran b l ↔ e = .enter b ∨ ∃ s ∈ l, e = .step b s := by
  simp only [ran, List.mem_cons, List.mem_map]
  constructor
  · rintro (h | ⟨s, hs, rfl⟩)
    · exact .inl h
    · exact .inr ⟨s, hs, rfl⟩
  · rintro (h | ⟨s, hs, rfl⟩)
    · exact .inl h
    · exact .inr ⟨s, hs, rfl⟩

theorem ran_block {e : Event} {b l} (h : e ∈ ran b l) : e.block? = some b := by
  rcases mem_ran.mp h with rfl | ⟨s, _, rfl⟩ <;> rfl

theorem cleanup_grows (o k) : ∀ (f n : Nat) (z : Bool) (st st' : State) (exc z'),
    cleanup o k f n z st = .ended (st', exc, z') →
    ∃ evs, Grows o st st' evs ∧ CleanupRan o exc evs ∧ (z = true → z' = true)
  | 0, _, _, _, _, _, _, h => by simp [cleanup] at h
  | f + 1, n, z, st, st', exc, z', h => by
    have hb := block_grows o .cleanup (k n) st
    obtain ⟨st1, x, hx⟩ : ∃ st1 x, block o .cleanup (k n) st = (st1, x) := ⟨_, _, rfl⟩
    rw [hx] at hb
    simp only [cleanup, hx] at h
    have ht := exitOf_thrown o (k n)
    rw [← hb.2] at ht
    cases x with
    | done =>
      simp only [Result.ended.injEq, Prod.mk.injEq] at h
      obtain ⟨rfl, rfl, rfl⟩ := h
      refine ⟨_, hb.1, ⟨fun e he => ran_block he, ⟨_, rfl⟩, fun m => ?_⟩, id⟩
      have := ht m
      simp only [reduceCtorEq, false_iff] at this ⊢
      simp only [mem_ran, reduceCtorEq, Event.step.injEq, true_and, false_or, not_exists, not_and]
      rintro s hs rfl; exact this hs
    | thrown m =>
      simp only [Result.ended.injEq, Prod.mk.injEq] at h
      obtain ⟨rfl, rfl, rfl⟩ := h
      refine ⟨_, hb.1, ⟨fun e he => ran_block he, ⟨_, rfl⟩, fun m' => ?_⟩, id⟩
      have := ht m'
      simp only [Exit.thrown.injEq] at this
      simp only [Option.some.injEq, this, mem_ran, reduceCtorEq, Event.step.injEq, true_and, false_or]
      exact ⟨fun h => ⟨_, h, rfl⟩, fun ⟨s, hs, e⟩ => e ▸ hs⟩
    | jump =>
      obtain ⟨evs, g, c, z⟩ := cleanup_grows o k f (n + 1) true st1 st' exc z' h
      refine ⟨_, hb.1.trans g, ⟨fun e he => ?_, ⟨_, rfl⟩, fun m => ?_⟩, fun _ => z rfl⟩
      · rcases List.mem_append.mp he with he | he
        · exact ran_block he
        · exact c.mem e he
      · rw [c.exc m]
        have := ht m
        simp only [reduceCtorEq, false_iff] at this
        simp only [List.mem_append, mem_ran, reduceCtorEq, Event.step.injEq, true_and, false_or]
        refine ⟨.inr, fun h => h.resolve_left ?_⟩
        rintro ⟨s, hs, rfl⟩; exact this hs

theorem cleanup_not_undefined (o k) : ∀ (f n : Nat) (z : Bool) (st : State), cleanup o k f n z st ≠ .undefined
  | 0, _, _, _ => by simp [cleanup]
  | f + 1, n, z, st => by
    obtain ⟨st1, x, hx⟩ : ∃ st1 x, block o .cleanup (k n) st = (st1, x) := ⟨_, _, rfl⟩
    simp only [cleanup, hx]
    cases x with
    | done => simp
    | thrown m => simp
    | jump => exact cleanup_not_undefined o k f _ _ _

/-- What the case and its `Cleanup` leave behind. -/
structure CaseRan (o : Opts) (t : Test) (exc : Option Nat) (evs : List Event) : Prop where
  mem : ∀ e ∈ evs, e.block? = some .body ∨ e.block? = some .cleanup
  exc : ∀ m, exc = some m ↔ ∃ e ∈ evs, Escapes t m e
  enter : ∃ r, evs = .enter .body :: r
  last : t.cleanup.isSome → ∃ a b, evs = a ++ .enter .cleanup :: b ∧ ∀ e ∈ b, e.block? ≠ some .body

theorem case_grows (o t) : ∀ (f n kn : Nat) (st st' : State) (exc),
    case_ o t f n kn st = .ended (st', exc) → ∃ evs, Grows o st st' evs ∧ CaseRan o t exc evs
  | 0, _, _, _, _, _, h => by simp [case_] at h
  | f + 1, n, kn, st, st', exc, h => by
    have hb := block_grows o .body (t.body n) st
    obtain ⟨st1, x, hx⟩ : ∃ st1 x, block o .body (t.body n) st = (st1, x) := ⟨_, _, rfl⟩
    have ht := exitOf_thrown o (t.body n)
    rw [← hb.2] at ht
    rw [hx] at hb ht
    simp only [case_, hx] at h
    have hesc : ∀ m, (∃ e ∈ ran .body (cut (stops o) (t.body n)), Escapes t m e) ↔
        (x = .thrown m ∧ t.cleanup.isNone) := by
      intro m
      rw [ht m]
      simp only [mem_ran, Escapes]
      constructor
      · rintro ⟨e, rfl | ⟨s, hs, rfl⟩, h⟩
        · simp at h
        · simp only [Event.step.injEq, reduceCtorEq, false_and, true_and, false_or] at h
          exact ⟨h.1 ▸ hs, h.2⟩
      · rintro ⟨h, hn⟩
        exact ⟨_, .inr ⟨_, h, rfl⟩, .inr (.inr ⟨rfl, hn⟩)⟩
    cases hk : t.cleanup with
    | none =>
      rw [hk] at h hesc
      refine ⟨_, by cases x <;> (simp [afterBody] at h; obtain ⟨rfl, rfl⟩ := h; exact hb.1), ⟨fun e he => .inl (ran_block he), fun m => ?_, ⟨_, rfl⟩, by simp [hk]⟩⟩
      rw [hesc]
      cases x <;> (simp [afterBody] at h; obtain ⟨rfl, rfl⟩ := h; simp)
    | some k =>
      have hno : ∀ m, ¬ ∃ e ∈ ran .body (cut (stops o) (t.body n)), Escapes t m e := by
        intro m; rw [hesc, hk]; simp
      rw [hk] at h
      simp only at h
      obtain ⟨z, hz⟩ : ∃ z, z = (afterBody x).1 := ⟨_, rfl⟩
      rw [← hz] at h
      obtain ⟨res, hres⟩ : ∃ res, cleanup o k (f + 1) kn z st1 = res := ⟨_, rfl⟩
      rw [hres] at h
      match res, hres, h with
      | .running, _, h => simp at h
      | .undefined, _, h => simp at h
      | .ended (st2, some m, z'), hres, h =>
        simp only [Result.ended.injEq, Prod.mk.injEq] at h
        obtain ⟨rfl, rfl⟩ := h
        obtain ⟨evs, g, c, _⟩ := cleanup_grows o k _ _ _ _ _ _ _ hres
        refine ⟨_, hb.1.trans g, ⟨fun e he => ?_, fun m' => ?_, ⟨_, rfl⟩, fun _ => ?_⟩⟩
        · rcases List.mem_append.mp he with he | he
          · exact .inl (ran_block he)
          · exact .inr (c.mem e he)
        · rw [c.exc]
          refine ⟨fun h => ⟨_, List.mem_append_right _ h, .inr (.inl rfl)⟩, ?_⟩
          rintro ⟨e, he, hE⟩
          rcases List.mem_append.mp he with he | he
          · exact absurd ⟨e, he, hE⟩ (hno m')
          · rcases hE with rfl | rfl | ⟨rfl, _⟩
            · have := c.mem _ he; simp [Event.block?] at this
            · exact he
            · have := c.mem _ he; simp [Event.block?] at this
        · obtain ⟨r, hr⟩ := c.enter
          refine ⟨ran .body (cut (stops o) (t.body n)), r, by rw [hr], fun e he => ?_⟩
          rw [c.mem e (by rw [hr]; simp [he])]; simp
      | .ended (st2, none, true), hres, h =>
        simp only [Result.ended.injEq, Prod.mk.injEq] at h
        obtain ⟨rfl, rfl⟩ := h
        obtain ⟨evs, g, c, _⟩ := cleanup_grows o k _ _ _ _ _ _ _ hres
        refine ⟨_, hb.1.trans g, ⟨fun e he => ?_, fun m' => ?_, ⟨_, rfl⟩, fun _ => ?_⟩⟩
        · rcases List.mem_append.mp he with he | he
          · exact .inl (ran_block he)
          · exact .inr (c.mem e he)
        · rw [c.exc]
          refine ⟨fun h => ⟨_, List.mem_append_right _ h, .inr (.inl rfl)⟩, ?_⟩
          rintro ⟨e, he, hE⟩
          rcases List.mem_append.mp he with he | he
          · exact absurd ⟨e, he, hE⟩ (hno m')
          · rcases hE with rfl | rfl | ⟨rfl, _⟩
            · have := c.mem _ he; simp [Event.block?] at this
            · exact he
            · have := c.mem _ he; simp [Event.block?] at this
        · obtain ⟨r, hr⟩ := c.enter
          refine ⟨ran .body (cut (stops o) (t.body n)), r, by rw [hr], fun e he => ?_⟩
          rw [c.mem e (by rw [hr]; simp [he])]; simp
      | .ended (st2, none, false), hres, h =>
        simp only at h
        obtain ⟨evs, g, c, _⟩ := cleanup_grows o k _ _ _ _ _ _ _ hres
        obtain ⟨evs2, g2, c2⟩ := case_grows o t f _ _ _ _ _ h
        refine ⟨_, (hb.1.trans g).trans g2, ⟨fun e he => ?_, fun m' => ?_, ⟨_, rfl⟩, fun hs => ?_⟩⟩
        · rcases List.mem_append.mp he with he | he
          · rcases List.mem_append.mp he with he | he
            · exact .inl (ran_block he)
            · exact .inr (c.mem e he)
          · exact c2.mem e he
        · rw [c2.exc]
          refine ⟨fun ⟨e, he, hE⟩ => ⟨e, List.mem_append_right _ he, hE⟩, ?_⟩
          rintro ⟨e, he, hE⟩
          rcases List.mem_append.mp he with he | he
          · rcases List.mem_append.mp he with he | he
            · exact absurd ⟨e, he, hE⟩ (hno m')
            · rcases hE with rfl | rfl | ⟨rfl, _⟩
              · have := c.mem _ he; simp [Event.block?] at this
              · have := (c.exc m').mpr he; simp at this
              · have := c.mem _ he; simp [Event.block?] at this
          · exact ⟨e, he, hE⟩
        · obtain ⟨a, b, hab, hb'⟩ := c2.last hs
          exact ⟨ran .body (cut (stops o) (t.body n)) ++ evs ++ a, b, by rw [hab]; simp, hb'⟩

end H2.CaseRun
