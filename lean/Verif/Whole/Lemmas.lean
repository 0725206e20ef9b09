import Verif.Whole.Command
import Verif.Runner.LastOrder
import Verif.CaseRun.Props
/-
From the loop over cases to what happened in each of them.
-/
namespace H2.Whole
open H2.Runner (Event Case Suite State Env Opts All₂ Fresh allCases)

/-! ### What is reported is what the code did -/

def Obeys (env : Env) : List Event → List Event → Prop
  | _, [] => True
  | pre, e :: es => (e.ran = true → ∃ c : Case, c.id = e.case.id ∧ (e.case.failed, e.case.warning) = env pre c) ∧ Obeys env (pre ++ [e]) es

theorem obeys_append (env : Env) (a b : List Event) : ∀ pre, Obeys env pre (a ++ b) ↔ Obeys env pre a ∧ Obeys env (pre ++ a) b := by
  induction a with
  | nil => intro pre; simp [Obeys]
  | cons e a ih =>
    intro pre
    simp only [List.cons_append, Obeys, ih, and_assoc]
    rw [List.append_assoc]; rfl

theorem runCase_obeys (o : Opts) (env : Env) (round : Nat) (l : Runner.Loop) (c : Case) :
    ∃ es, (Runner.runCase o env round l c).2.log = l.log ++ es ∧ Obeys env l.log es := by
  unfold Runner.runCase
  obtain ⟨c1, hc1⟩ : ∃ c1, (if (0 < o.breakAfter ∧ o.breakAfter ≤ l.stats.failed) ∨ (o.onlyLast = true ∧ c.lastFailed = false) then { c with ignored := true } else c) = c1 := ⟨_, rfl⟩
  simp only [hc1]
  by_cases hr : (!o.lists && !c1.todo && !c1.filtered && !c1.ignored) = true
  · rw [if_pos hr]
    refine ⟨[_], rfl, ?_⟩
    exact ⟨fun _ => ⟨c1, rfl, rfl⟩, trivial⟩
  · rw [if_neg hr]
    refine ⟨[_], rfl, ?_⟩
    exact ⟨fun h => by simp at h, trivial⟩

theorem runCases_obeys (o : Opts) (env : Env) (round : Nat) (cs : List Case) : ∀ l : Runner.Loop,
    ∃ es, (Runner.runCases o env round l cs).2.log = l.log ++ es ∧ Obeys env l.log es := by
  induction cs with
  | nil => intro l; exact ⟨[], by simp [Runner.runCases], trivial⟩
  | cons c cs ih =>
    intro l
    obtain ⟨es, h1, h2⟩ := runCase_obeys o env round l c
    obtain ⟨fs, g1, g2⟩ := ih (Runner.runCase o env round l c).2
    refine ⟨es ++ fs, ?_, (obeys_append ..).2 ⟨h2, h1 ▸ g2⟩⟩
    show (Runner.runCases o env round (Runner.runCase o env round l c).2 cs).2.log = _
    rw [g1, h1, List.append_assoc]

theorem runSuites_obeys (o : Opts) (env : Env) (round : Nat) (ss : List Suite) : ∀ (st : Runner.Stats) (log : List Event) (sl : List (Nat × Runner.Stats)),
    ∃ es, (Runner.runSuites o env round st log sl ss).2.2.1 = log ++ es ∧ Obeys env log es := by
  induction ss with
  | nil => intro st log sl; exact ⟨[], by simp [Runner.runSuites], trivial⟩
  | cons s ss ih =>
    intro st log sl
    obtain ⟨es, h1, h2⟩ := runCases_obeys o env round s.cases ⟨st, {}, log⟩
    obtain ⟨r, hr⟩ : ∃ r, Runner.runCases o env round ⟨st, {}, log⟩ s.cases = r := ⟨_, rfl⟩
    rw [hr] at h1
    obtain ⟨fs, g1, g2⟩ := ih r.2.stats r.2.log (sl ++ [(s.id, r.2.suite)])
    simp only [Runner.runSuites, hr]
    have h1 : r.2.log = log ++ es := h1
    refine ⟨es ++ fs, by rw [g1, h1, List.append_assoc], (obeys_append ..).2 ⟨h2, h1 ▸ g2⟩⟩

theorem rounds_obeys (o : Opts) (env : Env) (rnd : Nat → Nat → Int) (st : State) (h : st.log = []) (n : Nat) : Obeys env [] (st.rounds o env rnd n).log := by
  induction n with
  | zero => rw [State.rounds, h]; trivial
  | succ n ih =>
    obtain ⟨f, e⟩ := Runner.round_eq o env (rnd n) n (st.rounds o env rnd n)
    obtain ⟨r1, r2, r3⟩ := Runner.shuffle_rest o (rnd n) (st.rounds o env rnd n)
    obtain ⟨es, h1, h2⟩ := runSuites_obeys o env n ((st.rounds o env rnd n).shuffle o (rnd n)).suites ((st.rounds o env rnd n).shuffle o (rnd n)).stats
      ((st.rounds o env rnd n).shuffle o (rnd n)).log ((st.rounds o env rnd n).shuffle o (rnd n)).suiteLog
    have : (st.rounds o env rnd (n + 1)).log = (st.rounds o env rnd n).log ++ es := by
      show ((st.rounds o env rnd n).round o env (rnd n) n).log = _
      rw [e]; show (Runner.runSuites _ _ _ _ _ _ _).2.2.1 = _; rw [h1, r2]
    rw [this, obeys_append]
    exact ⟨ih, by rw [r2] at h2; simpa using h2⟩

/-- An entry says what an event says. -/
structure Same (ev : Event) (en : Entry) : Prop where
  round : en.round = ev.round
  case : en.case = ev.case.id
  ran : en.ran = ev.ran
  failed : en.failed = ev.is .failed
  warned : en.warned = ev.is .warning

theorem entries_same (p : Program) (w : World) (o : Cli.Options) (log : List Event) : ∀ pre, Obeys (env p w o) pre log →
    (entries p w o pre log).any Entry.stuck = false → All₂ Same log (entries p w o pre log) := by
  induction log with
  | nil => intro pre _ _; exact .nil
  | cons e es ih =>
    intro pre ho hs
    simp only [entries, List.any_cons, Bool.or_eq_false_iff] at hs ⊢
    refine .cons ?_ (ih _ ho.2 hs.2)
    have h1 := hs.1
    obtain ⟨h2, -⟩ := ho
    cases hr : e.ran with
    | false => exact ⟨rfl, rfl, by simp [hr, Entry.ran], by simp [hr, Entry.failed, Event.is], by simp [hr, Entry.warned, Event.is]⟩
    | true =>
      obtain ⟨c, hc, hv⟩ := h2 hr
      simp only [hr, if_true, Entry.stuck] at h1
      simp only [env, hc] at hv
      cases hx : outcome p w o pre e.case.id with
      | running => rw [hx] at h1; cases h1
      | undefined => rw [hx] at h1; cases h1
      | ended st =>
        rw [hx] at hv
        simp only [flags, Prod.mk.injEq] at hv
        exact ⟨rfl, rfl, by simp [hr, Entry.ran], by simp [hr, Entry.failed, Event.is, hx, hv], by simp [hr, Entry.warned, Event.is, hx, hv]⟩

/-! ### The cases registered -/

/-- A case as the runner sees it. -/
def mkCase (w : World) (o : Cli.Options) (s : SuiteText) (c : CaseText) : Case :=
  { id := c.id, file := c.file, line := c.line, name := c.test.name, todo := c.todo, filtered := Filter.filter w.wild (lists o) s.test (some c.test) }

theorem zip_flags (w : World) (o : Cli.Options) (s : SuiteText) (g : CaseText → Bool → Case) (cs : List CaseText) : ∀ f : Bool,
    cs.zipWith g (Filter.filterCases w.wild (lists o) s.test (cs.map (·.test)) f).1 =
      cs.map fun c => g c (Filter.filter w.wild (lists o) s.test (some c.test)) := by
  induction cs with
  | nil => intro f; rfl
  | cons c cs ih =>
    intro f
    simp only [List.map_cons, Filter.filterCases, List.zipWith_cons_cons, ih]

theorem register_cases (w : World) (o : Cli.Options) (s : SuiteText) : (register w o s).cases = s.cases.map (mkCase w o s) :=
  zip_flags w o s _ s.cases _

theorem start_cases (p : Program) (w : World) (o : Cli.Options) : allCases (start p w o).suites = p.suites.flatMap fun s => s.cases.map (mkCase w o s) := by
  simp only [allCases, start, List.flatMap_map, register_cases]

theorem start_ids (p : Program) (w : World) (o : Cli.Options) : Runner.ids (start p w o).suites = p.ids := by
  unfold Runner.ids
  rw [start_cases, List.map_flatMap]
  simp only [List.map_map]
  rfl

theorem start_fresh (p : Program) (w : World) (o : Cli.Options) : Fresh (start p w o) := by
  refine ⟨rfl, rfl, rfl, fun c hc => ?_⟩
  rw [start_cases] at hc
  obtain ⟨s, -, hc⟩ := List.mem_flatMap.1 hc
  obtain ⟨t, -, rfl⟩ := List.mem_map.1 hc
  rfl

/-- Every case reported is one of those registered, with the same name and marks. -/
theorem static_kept (o : Opts) (base : List Case) : Runner.Kept o (fun _ log => ∀ e ∈ log, e.case.static ∈ base) (fun _ c => c.static ∈ base) where
  case := fun round l c r e hj hk sp => by
    have hs : r.1.static = c.static := by rw [sp.same]; rfl
    refine ⟨?_, by rw [hs]; exact hk⟩
    intro e' he'
    rw [sp.log] at he'
    rcases List.mem_append.1 he' with x | x
    · exact hj e' x
    · rw [List.mem_singleton.1 x, sp.case, hs]; exact hk
  mono := fun _ _ _ h => h
  seq := fun _ _ _ _ h => h

theorem ids_unique {p : Program} (hd : p.ids.Nodup) {s s' : SuiteText} {c c' : CaseText} (hs : s ∈ p.suites) (hc : c ∈ s.cases) (hs' : s' ∈ p.suites) (hc' : c' ∈ s'.cases)
    (h : c.id = c'.id) : s = s' ∧ c = c' := by
  have hn : ((p.suites.flatMap fun s => s.cases.map fun c => (s, c)).map fun x => x.2.id).Nodup := by
    rw [List.map_flatMap]
    simp only [List.map_map]
    exact hd
  have := Runner.nodup_map_inj hn (List.mem_flatMap.2 ⟨s, hs, List.mem_map.2 ⟨c, hc, rfl⟩⟩) (List.mem_flatMap.2 ⟨s', hs', List.mem_map.2 ⟨c', hc', rfl⟩⟩) h
  simpa using this

theorem event_case {p : Program} {w : World} {o : Cli.Options} {e : Event}
    (he : e ∈ ((start p w o).main (opts o) (env p w o) w.random).1.log) :
    ∃ s ∈ p.suites, ∃ c ∈ s.cases, e.case.id = c.id ∧ e.case.name = c.test.name ∧ e.case.todo = c.todo ∧
      e.case.filtered = Filter.filter w.wild (lists o) s.test (some c.test) := by
  have hk := (Runner.rounds_kept (static_kept (opts o) ((allCases (start p w o).suites).map Case.static)) (env p w o) w.random (opts o).rounds (start p w o)
    (by intro e he; cases he) (fun c hc => List.mem_map.2 ⟨c, hc, rfl⟩)).1 e he
  rw [start_cases] at hk
  obtain ⟨c0, hc0, h0⟩ := List.mem_map.1 hk
  obtain ⟨s, hs, hc0⟩ := List.mem_flatMap.1 hc0
  obtain ⟨c, hc, rfl⟩ := List.mem_map.1 hc0
  refine ⟨s, hs, c, hc, ?_, ?_, ?_, ?_⟩
  · exact (congrArg Case.id h0).symm
  · exact (congrArg Case.name h0).symm
  · exact (congrArg Case.todo h0).symm
  · exact (congrArg Case.filtered h0).symm

end H2.Whole
