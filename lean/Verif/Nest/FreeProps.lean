import Verif.Nest.FreeSpec
import Verif.Nest.Props
/-! C90 for programs that mock and stub from anywhere. -/
namespace H2.Nest
open H2.Mock (Mocker Outcome)
open Spec

variable {V : Type}

/-! ### Lemmas -/

/-- The state the library keeps. -/
structure Keeps (plan : Nat → Code) (inside : Nat → Bool) (s : St V) : Prop where
  code : ∀ f, s.code f = if inside f then .own else plan f
  known : ∀ f, plan f ≠ .own → s.known f = true
  fn : ∀ f p, plan f = .mock p → ∃ m, s.mockers p = some (f, m)
  inn : ∀ f, inside f = true → ∃ p, plan f = .mock p

/-- Every mock is in the list of the case. -/
def Listed (s : St V) : Prop := ∀ p t, s.mockers p = some t → p ∈ s.listed

/-- What has become of a state. -/
structure Leads (inside : Nat → Bool) (plan : Nat → Code) (s : St V) (w : World V) (e : Exit) (s' : St V) : Prop where
  mo : s'.mockers = w.mocks
  lg : s'.log = w.log
  pl : ∀ g, inside g = true → w.plan g = plan g
  un : ∀ g p, inside g = true → plan g = .mock p → s'.mockers p = s.mockers p
  dn : e = .done → Keeps w.plan inside s'
  jp : ∀ g, s'.code g = w.plan g ∨ s'.code g = .own
  ls : Listed s'

/-- What the reference sees. -/
def world (plan : Nat → Code) (s : St V) : World V := ⟨s.mockers, s.log, plan⟩

theorem Keeps.either {plan : Nat → Code} {inside : Nat → Bool} {s : St V} (h : Keeps plan inside s) (g : Nat) :
    s.code g = plan g ∨ s.code g = .own := by
  rw [h.code g]
  by_cases hg : inside g = true
  · simp [hg]
  · simp [hg]

theorem Leads.same {inside : Nat → Bool} {plan : Nat → Code} {s : St V} (h : Keeps plan inside s) (hl : Listed s) (e : Exit) :
    Leads inside plan s (world plan s) e s :=
  ⟨rfl, rfl, fun _ _ => rfl, fun _ _ _ _ => rfl, fun _ => h, h.either, hl⟩

theorem Keeps.note {plan : Nat → Code} {inside : Nat → Bool} {s : St V} (h : Keeps plan inside s) (e : Event V) :
    Keeps plan inside (s.note e) := ⟨h.code, h.known, h.fn, h.inn⟩

theorem Leads.trans {inside : Nat → Bool} {plan : Nat → Code} {s s1 s2 : St V} {w w2 : World V} {e : Exit}
    (h1 : Leads inside plan s w .done s1) (h2 : Leads inside w.plan s1 w2 e s2) : Leads inside plan s w2 e s2 := by
  refine ⟨h2.mo, h2.lg, fun g hg => (h2.pl g hg).trans (h1.pl g hg), ?_, h2.dn, h2.jp, h2.ls⟩
  intro g p hg hp
  rw [h2.un g p hg ((h1.pl g hg).trans hp), h1.un g p hg hp]

/-- An event before. -/
theorem Leads.noted {inside : Nat → Bool} {plan : Nat → Code} {s s' : St V} {ev : Event V} {w : World V} {e : Exit}
    (h : Leads inside plan (s.note ev) w e s') : Leads inside plan s w e s' :=
  ⟨h.mo, h.lg, h.pl, h.un, h.dn, h.jp, h.ls⟩

theorem Leads.world {inside : Nat → Bool} {plan : Nat → Code} {s s' : St V} {w : World V} {e : Exit}
    (h : Leads inside plan s w e s') : Nest.world w.plan s' = w := by
  cases w
  simp only [Nest.world, h.mo, h.lg]

/-- Doing a mock. -/
theorem mock_leads {inside : Nat → Bool} {plan : Nat → Code} {s : St V} (h : Keeps plan inside s) (hl : Listed s)
    (p f : Nat) (m : Mocker V Nat) (hin : inside f = false) (hp : (s.mockers p).any (fun t => t.1 != f) = false) :
    Leads inside plan s ⟨fun q => if q = p then some (f, m) else s.mockers q, s.log, plans plan f (.mock p)⟩ .done (s.mock p f m) := by
  have hg : ∀ g, inside g = true → g ≠ f := by rintro g hg rfl; rw [hin] at hg; cases hg
  have hpf : ∀ g, plan g = .mock p → g = f := by
    intro g hg
    obtain ⟨m', hm⟩ := h.fn g p hg
    rw [hm] at hp
    simpa using hp
  have hk : Keeps (plans plan f (.mock p)) inside (s.mock p f m) := by
    refine ⟨?_, ?_, ?_, ?_⟩
    · intro g
      simp only [St.mock, St.stub, St.write, St.keep, plans]
      by_cases e : g = f
      · subst e; simp [hin]
      · simp only [e, if_false]; exact h.code g
    · intro g hg'
      simp only [St.mock, St.stub, St.write, St.keep, plans] at hg' ⊢
      by_cases e : g = f
      · simp [e]
      · simp only [e, if_false] at hg' ⊢; exact h.known g hg'
    · intro g q hg'
      simp only [St.mock, St.stub, St.write, St.keep, plans] at hg' ⊢
      by_cases e : g = f
      · subst e
        simp only [if_true, Code.mock.injEq] at hg'
        subst hg'
        exact ⟨m, by simp⟩
      · simp only [e, if_false] at hg'
        by_cases e' : q = p
        · subst e'; exact absurd (hpf g hg') e
        · simp only [e', if_false]; exact h.fn g q hg'
    · intro g hg'
      simp only [plans, hg g hg', if_false]
      exact h.inn g hg'
  refine ⟨rfl, rfl, ?_, ?_, fun _ => hk, hk.either, ?_⟩
  · intro g hg'; simp [plans, hg g hg']
  · intro g q hg' hq
    have : q ≠ p := by rintro rfl; exact hg g hg' (hpf g hq)
    simp [St.mock, St.stub, St.write, St.keep, this]
  · intro q t hq
    simp only [St.mock, St.stub, St.write, St.keep] at hq ⊢
    by_cases e : q = p
    · simp [e]
    · simp only [e, if_false] at hq
      simp [e, hl q t hq]

theorem stub_leads {inside : Nat → Bool} {plan : Nat → Code} {s : St V} (h : Keeps plan inside s) (hl : Listed s)
    (f k : Nat) (hin : inside f = false) :
    Leads inside plan s { world plan s with plan := plans plan f (.fake k) } .done (s.stub f (.fake k)) := by
  have hg : ∀ g, inside g = true → g ≠ f := by rintro g hg rfl; rw [hin] at hg; cases hg
  have hk : Keeps (plans plan f (.fake k)) inside (s.stub f (.fake k)) := by
    refine ⟨?_, ?_, ?_, ?_⟩
    · intro g
      simp only [St.stub, St.write, plans]
      by_cases e : g = f
      · subst e; simp [hin]
      · simp only [e, if_false]; exact h.code g
    · intro g hg'
      simp only [St.stub, St.write, plans] at hg' ⊢
      by_cases e : g = f
      · simp [e]
      · simp only [e, if_false] at hg' ⊢; exact h.known g hg'
    · intro g q hg'
      simp only [plans] at hg'
      by_cases e : g = f
      · simp [e] at hg'
      · simp only [e, if_false] at hg'; exact h.fn g q hg'
    · intro g hg'
      simp only [plans, hg g hg', if_false]
      exact h.inn g hg'
  refine ⟨rfl, rfl, ?_, fun _ _ _ _ => rfl, fun _ => hk, hk.either, hl⟩
  intro g hg'; simp [plans, hg g hg']

theorem unstub_leads {inside : Nat → Bool} {plan : Nat → Code} {s : St V} (h : Keeps plan inside s) (hl : Listed s)
    (f : Nat) (hin : inside f = false) :
    Leads inside plan s { world plan s with plan := plans plan f .own } .done (s.unstub f) := by
  have hg : ∀ g, inside g = true → g ≠ f := by rintro g hg rfl; rw [hin] at hg; cases hg
  have hk : Keeps (plans plan f .own) inside (s.unstub f) := by
    by_cases hkn : s.known f = true
    · have e : s.unstub f = { s.write f .own with known := fun g => if g = f then false else s.known g } := by simp [St.unstub, hkn]
      rw [e]
      refine ⟨?_, ?_, ?_, ?_⟩
      · intro g
        simp only [St.write, plans]
        by_cases e : g = f
        · subst e; simp
        · simp only [e, if_false]; exact h.code g
      · intro g hg'
        simp only [plans] at hg' ⊢
        by_cases e : g = f
        · simp [e] at hg'
        · simp only [e, if_false] at hg' ⊢; exact h.known g hg'
      · intro g q hg'
        simp only [plans] at hg'
        by_cases e : g = f
        · simp [e] at hg'
        · simp only [e, if_false] at hg'; exact h.fn g q hg'
      · intro g hg'
        simp only [plans, hg g hg', if_false]
        exact h.inn g hg'
    · have e : s.unstub f = s := by simp [St.unstub, hkn]
      have hp : plan f = .own := by
        cases hp : plan f with
        | own => rfl
        | _ => exact absurd (h.known f (by rw [hp]; simp)) hkn
      have : plans plan f .own = plan := by
        funext g
        simp only [plans]
        split
        · rename_i e; rw [e, hp]
        · rfl
      rw [e, this]; exact h
  have hm : (s.unstub f).mockers = s.mockers ∧ (s.unstub f).log = s.log ∧ (s.unstub f).listed = s.listed := by
    by_cases hkn : s.known f = true
    · simp [St.unstub, hkn, St.write]
    · simp [St.unstub, hkn]
  refine ⟨hm.1, hm.2.1, ?_, fun _ _ _ _ => by rw [hm.1], fun _ => hk, hk.either, ?_⟩
  · intro g hg'; simp [plans, hg g hg']
  · intro p t hp
    rw [hm.1] at hp; rw [hm.2.2]; exact hl p t hp

/-- Behind the reaction. -/
theorem lower_leads {inside : Nat → Bool} {plan : Nat → Code} {s x : St V} {f p : Nat} {w : World V} {e : Exit}
    (h : Keeps plan inside s) (hin : inside f = false) (hp : plan f = .mock p)
    (hx : Leads (also inside f) plan (s.lift f) w e x) :
    ∃ x', St.lower f s (x, e) = some (x', e) ∧ Leads inside plan s w e x' := by
  have hkn : s.known f = true := h.known f (by rw [hp]; simp)
  have hlift : s.lift f = s.write f .own := by simp only [St.lift, hkn, if_true]
  have hwf : w.plan f = plan f := hx.pl f (by simp [also])
  have hpl : ∀ g, inside g = true → w.plan g = plan g := fun g hg => hx.pl g (by simp [also, hg])
  have hun : ∀ g q, inside g = true → plan g = .mock q → x.mockers q = s.mockers q := by
    intro g q hg hq
    rw [hx.un g q (by simp [also, hg]) hq, hlift]; rfl
  cases e with
  | jump =>
    refine ⟨x, by simp [St.lower], hx.mo, hx.lg, hpl, hun, fun h => (by cases h), hx.jp, hx.ls⟩
  | done =>
    have hk := hx.dn rfl
    have hkx : x.known f = true := hk.known f (by rw [hwf, hp]; simp)
    refine ⟨x.write f (s.code f), by simp [St.lower, hkx, hkn], ?_⟩
    have hsc : s.code f = plan f := by rw [h.code f, hin]; simp
    have hk' : Keeps w.plan inside (x.write f (s.code f)) := by
      refine ⟨?_, hk.known, hk.fn, ?_⟩
      · intro g
        simp only [St.write]
        by_cases e : g = f
        · subst e; simp [hin, hsc, hwf]
        · simp only [e, if_false]
          rw [hk.code g]
          simp [also, e]
      · intro g hg; exact hk.inn g (by simp [also, hg])
    exact ⟨hx.mo, hx.lg, hpl, hun, fun _ => hk', hk'.either, hx.ls⟩

theorem Keeps.lift {inside : Nat → Bool} {plan : Nat → Code} {s : St V} {f p : Nat} (h : Keeps plan inside s) (hp : plan f = .mock p) :
    Keeps plan (also inside f) (s.lift f) := by
  have hkn : s.known f = true := h.known f (by rw [hp]; simp)
  have hlift : s.lift f = s.write f .own := by simp only [St.lift, hkn, if_true]
  rw [hlift]
  refine ⟨?_, h.known, h.fn, ?_⟩
  · intro g
    simp only [St.write, also]
    by_cases e : g = f
    · simp [e]
    · simp [e, h.code g]
  · intro g hg
    simp only [also, Bool.or_eq_true, beq_iff_eq] at hg
    rcases hg with rfl | hg
    · exact ⟨p, hp⟩
    · exact h.inn g hg

theorem keep_note {plan : Nat → Code} {s : St V} (p f : Nat) (m : Mocker V Nat) :
    world plan (s.keep p f m) = { world plan s with mocks := fun x => if x = p then some (f, m) else s.mockers x } := rfl

/-- The library does what the reference says. -/
theorem free (env : Env V) : ∀ n,
    (∀ inside as plan (s : St V) w e, Keeps plan inside s → Listed s → doAll env n inside as (world plan s) = some (w, e) →
      ∃ s', run env n as s = some (s', e) ∧ Leads inside plan s w e s') ∧
    (∀ inside a plan (s : St V) w e, Keeps plan inside s → Listed s → doOne env n inside a (world plan s) = some (w, e) →
      ∃ s', act env n a s = some (s', e) ∧ Leads inside plan s w e s') ∧
    (∀ inside f args plan (s : St V) w e, Keeps plan inside s → Listed s → doCall env n inside f args (world plan s) = some (w, e) →
      ∃ s', call env n f args s = some (s', e) ∧ Leads inside plan s w e s') ∧
    (∀ inside f p args plan (s : St V) w e, Keeps plan inside s → Listed s → inside f = false → plan f = .mock p →
      doMock env n inside f p args (world plan s) = some (w, e) →
      ∃ s', answer env n p args s = some (s', e) ∧ Leads inside plan s w e s' ∧
        (e = .done → ∃ m q, s.mockers p = some (f, m) ∧ m.call args = some q ∧ s'.mockers p = some (f, q.1))) := by
  intro n
  induction n with
  | zero =>
    refine ⟨?_, ?_, ?_, ?_⟩
    · intro inside as plan s w e _ _ h; rw [doAll] at h; cases h
    · intro inside a plan s w e _ _ h; rw [doOne] at h; cases h
    · intro inside f args plan s w e _ _ h; rw [doCall] at h; cases h
    · intro inside f p args plan s w e _ _ _ _ h; rw [doMock] at h; cases h
  | succ n ih =>
    obtain ⟨iAll, iOne, iCall, iMock⟩ := ih
    refine ⟨?_, ?_, ?_, ?_⟩
    · intro inside as plan s w e hk hl h
      cases as with
      | nil =>
        rw [doAll] at h
        injection h with h; injection h with h1 h2; subst h1; subst h2
        exact ⟨s, by rw [run], Leads.same hk hl _⟩
      | cons a as =>
        rw [doAll] at h
        cases h1 : doOne env n inside a (world plan s) with
        | none => rw [h1] at h; cases h
        | some x =>
          obtain ⟨w1, e1⟩ := x
          rw [h1, Option.bind_some] at h
          obtain ⟨s1, r1, l1⟩ := iOne inside a plan s w1 e1 hk hl h1
          rw [run, r1, Option.bind_some]
          cases e1 with
          | jump =>
            simp only [if_true] at h ⊢
            injection h with h; injection h with h1 h2; subst h1; subst h2
            exact ⟨s1, rfl, l1⟩
          | done =>
            simp only [reduceCtorEq, if_false] at h ⊢
            rw [← l1.world] at h
            obtain ⟨s2, r2, l2⟩ := iAll inside as w1.plan s1 w e (l1.dn rfl) l1.ls h
            exact ⟨s2, r2, l1.trans l2⟩
    · intro inside a plan s w e hk hl h
      cases a with
      | call f args =>
        rw [doOne] at h
        rw [act]
        exact iCall inside f args plan s w e hk hl h
      | check b =>
        cases b with
        | true =>
          rw [doOne] at h
          injection h with h; injection h with h1 h2; subst h1; subst h2
          exact ⟨s, by rw [act]; simp, Leads.same hk hl _⟩
        | false =>
          rw [doOne] at h
          injection h with h; injection h with h1 h2; subst h1; subst h2
          exact ⟨s.note .failed, by rw [act]; simp [St.fail], (Leads.same (hk.note .failed) hl _).noted⟩
      | mock p f m =>
        rw [doOne] at h
        split at h
        · cases h
        · rename_i hc
          injection h with h; injection h with h1 h2; subst h1; subst h2
          refine ⟨s.mock p f m, by rw [act], ?_⟩
          apply mock_leads hk hl
          · cases hi : inside f with
            | false => rfl
            | true => exact absurd (Or.inl hi) hc
          · cases hi : (s.mockers p).any (fun t => t.1 != f) with
            | false => rfl
            | true => exact absurd (Or.inr hi) hc
      | stub f k =>
        rw [doOne] at h
        split at h
        · cases h
        · rename_i hc
          injection h with h; injection h with h1 h2; subst h1; subst h2
          exact ⟨_, by rw [act], stub_leads hk hl f k (by simpa using hc)⟩
      | unstub f =>
        rw [doOne] at h
        split at h
        · cases h
        · rename_i hc
          injection h with h; injection h with h1 h2; subst h1; subst h2
          exact ⟨_, by rw [act], unstub_leads hk hl f (by simpa using hc)⟩
    · intro inside f args plan s w e hk hl h
      rw [doCall] at h
      rw [call]
      have hc := hk.code f
      by_cases hi : inside f = true
      · rw [if_pos hi] at h hc
        rw [hc]
        obtain ⟨s', r, l⟩ := iAll inside _ plan (s.note (.own f args)) w e (hk.note _) hl h
        exact ⟨s', r, l.noted⟩
      · rw [if_neg hi] at h hc
        rw [hc]
        have hw : (world plan s).plan f = plan f := rfl
        rw [hw] at h
        cases hp : plan f with
        | own =>
          rw [hp] at h
          obtain ⟨s', r, l⟩ := iAll inside _ plan (s.note (.own f args)) w e (hk.note _) hl h
          exact ⟨s', r, l.noted⟩
        | fake k =>
          rw [hp] at h
          obtain ⟨s', r, l⟩ := iAll inside _ plan (s.note (.fake k args)) w e (hk.note _) hl h
          exact ⟨s', r, l.noted⟩
        | mock p =>
          rw [hp] at h
          obtain ⟨s', r, l, _⟩ := iMock inside f p args plan s w e hk hl (by simpa using hi) hp h
          exact ⟨s', r, l⟩
    · intro inside f p args plan s w e hk hl hi hp h
      obtain ⟨m, hm⟩ := hk.fn f p hp
      rw [doMock] at h
      have hw : (world plan s).mocks p = some (f, m) := hm
      rw [hw, Option.bind_some] at h
      rw [answer, hm, Option.bind_some]
      cases hq : m.call args with
      | none => dsimp only at h; rw [hq] at h; cases h
      | some q =>
        dsimp only at h ⊢
        rw [hq, Option.bind_some] at h
        rw [Option.bind_some]
        have hu : reported q.2 = decide (Unexpected q.2) := by
          cases hr : reported q.2 with
          | true => exact (decide_eq_true ((unexpected_iff q.2).1 hr)).symm
          | false => exact (decide_eq_false (fun hu => by rw [(unexpected_iff q.2).2 hu] at hr; cases hr)).symm
        -- the state after the call was noted and counted
        generalize hs0 : (if reported q.2 = true then s.note (.wrong p args) else s) = s0
        have hs0k : Keeps plan inside s0 ∧ Listed s0 ∧ s0.mockers = s.mockers ∧
            world plan s0 = (if Unexpected q.2 then (world plan s).saw (.wrong p args) else world plan s) := by
          subst hs0
          by_cases hx : Unexpected q.2
          · rw [if_pos (by rw [hu]; exact decide_eq_true hx), if_pos hx]; exact ⟨hk.note _, hl, rfl, rfl⟩
          · rw [if_neg (by rw [hu]; simpa using hx), if_neg hx]; exact ⟨hk, hl, rfl, rfl⟩
        obtain ⟨k0, l0, m0, w0⟩ := hs0k
        by_cases hx : Unexpected q.2 ∧ env.cont = false
        · rw [if_pos hx] at h
          injection h with h; injection h with h1 h2; subst h1; subst h2
          rw [if_pos (by rw [hu]; simp [hx.1, hx.2])]
          refine ⟨s.note (.wrong p args), by simp [St.fail], ?_, by intro h; cases h⟩
          rw [if_pos hx.1]
          exact (Leads.same (hk.note _) hl _).noted
        · rw [if_neg hx] at h
          rw [if_neg (by rw [hu]; intro hy; simp at hy; exact hx hy)]
          rw [← w0] at h
          have hk1 : Keeps plan inside (s0.keep p f q.1) := by
            refine ⟨k0.code, k0.known, ?_, k0.inn⟩
            intro g q' hg
            obtain ⟨m', hm'⟩ := k0.fn g q' hg
            simp only [St.keep]
            by_cases hqp : q' = p
            · subst hqp
              rw [m0, hm] at hm'
              injection hm' with hm'; injection hm' with hm' _
              subst hm'
              exact ⟨q.1, by simp⟩
            · simp only [hqp, if_false]; exact ⟨m', hm'⟩
          have hl1 : Listed (s0.keep p f q.1) := by
            intro x t hxt
            simp only [St.keep] at hxt ⊢
            by_cases hxp : x = p
            · subst hxp; exact l0 x (f, m) (by rw [m0, hm])
            · simp only [hxp, if_false] at hxt; exact l0 x t hxt
          have hkn : (s0.keep p f q.1).known f = true := hk1.known f (by rw [hp]; simp)
          have hlift : (s0.keep p f q.1).lift f = (s0.keep p f q.1).write f .own := by simp only [St.lift, hkn, if_true]
          have hkl := hk1.lift hp
          have hll : Listed ((s0.keep p f q.1).lift f) := by rw [hlift]; exact hl1
          have hwl : world plan ((s0.keep p f q.1).lift f)
              = { world plan s0 with mocks := fun x => if x = p then some (f, q.1) else (world plan s).mocks x } := by
            rw [hlift]; simp only [world, St.write, St.keep, m0]
          have hback : ∀ {x w e}, Leads (also inside f) plan ((s0.keep p f q.1).lift f) w e x →
              ∃ x', St.lower f (s0.keep p f q.1) (x, e) = some (x', e) ∧ Leads inside plan s w e x' ∧
                (e = .done → ∃ m' q, some (f, m) = some (f, m') ∧ m'.call args = some q ∧ x'.mockers p = some (f, q.1)) := by
            intro x w e hxl
            obtain ⟨x', r, l⟩ := lower_leads hk1 hi hp hxl
            have hx' : x'.mockers p = some (f, q.1) := by
              rw [l.mo, ← hxl.mo, hxl.un f p (by simp [also]) hp, hlift]
              simp [St.write, St.keep]
            refine ⟨x', r, ⟨l.mo, l.lg, l.pl, ?_, l.dn, l.jp, l.ls⟩, fun _ => ⟨m, q, rfl, hq, hx'⟩⟩
            intro g q' hg hq'
            rw [l.un g q' hg hq']
            have : q' ≠ p := by
              rintro rfl
              obtain ⟨m', hm'⟩ := hk.fn g q' hq'
              rw [hm] at hm'
              injection hm' with hm'; injection hm' with hm' _
              rw [hm', hg] at hi; cases hi
            simp only [St.keep, this, if_false, m0]
          cases hr : q.1.reply q.2 with
          | original =>
            rw [hr] at h
            dsimp only at h ⊢
            rw [← hwl] at h
            obtain ⟨x, r, l⟩ := iCall _ _ _ _ _ _ _ hkl hll h
            rw [r, Option.bind_some]
            exact hback l
          | routine k =>
            rw [hr] at h
            dsimp only at h ⊢
            rw [← hwl] at h
            obtain ⟨x, r, l⟩ := iAll _ _ plan (((s0.keep p f q.1).lift f).note (.fake k args)) w e (hkl.note _) hll h
            rw [r, Option.bind_some]
            exact hback l.noted

theorem start_keeps : Keeps (V := V) (fun _ => .own) (fun _ => false) start :=
  ⟨fun _ => by simp [start], fun _ h => absurd rfl h, fun _ _ h => (by cases h), fun _ h => (by cases h)⟩

theorem start_listed : Listed (V := V) start := fun _ _ h => by cases h

theorem whole_leads {env : Env V} {n : Nat} {as : List (Act V)} {w : World V} {e : Exit} (h : whole env n as = some (w, e)) :
    ∃ s, run env n as start = some (s, e) ∧ Leads (fun _ => false) (fun _ => .own) start w e s :=
  (free env n).1 _ _ _ _ _ _ start_keeps start_listed h

/-- The functions the mocks are for. -/
def fns (r : Nat → Option (Nat × Mocker V Nat)) (p : Nat) : Option Nat := (r p).map (·.1)

/-- What a function was planned to be mocked by is for it. -/
def Planned (plan : Nat → Code) (r : Nat → Option (Nat × Mocker V Nat)) : Prop := ∀ g p, plan g = .mock p → fns r p = some g

/-- The result of the narrow reference in the terms of the wide one. -/
def widen (plan : Nat → Code) (o : Option (Rec V × Exit)) : Option (World V × Exit) :=
  o.map fun x => (⟨x.1.mocks, x.1.log, plan⟩, x.2)

theorem plain_same (env : Env V) (he : PlainEnv env) (plan : Nat → Code) : ∀ n,
    (∀ inside as (r : Rec V), Plain as → Planned plan r.mocks →
      doAll env n inside as ⟨r.mocks, r.log, plan⟩ = widen plan (steps env plan n inside as r)
      ∧ ∀ x, steps env plan n inside as r = some x → fns x.1.mocks = fns r.mocks) ∧
    (∀ inside a (r : Rec V), ((∃ f args, a = .call f args) ∨ ∃ b, a = .check b) → Planned plan r.mocks →
      doOne env n inside a ⟨r.mocks, r.log, plan⟩ = widen plan (step env plan n inside a r)
      ∧ ∀ x, step env plan n inside a r = some x → fns x.1.mocks = fns r.mocks) ∧
    (∀ inside f args (r : Rec V), Planned plan r.mocks →
      doCall env n inside f args ⟨r.mocks, r.log, plan⟩ = widen plan (called env plan n inside f args r)
      ∧ ∀ x, called env plan n inside f args r = some x → fns x.1.mocks = fns r.mocks) ∧
    (∀ inside f p args (r : Rec V), plan f = .mock p → Planned plan r.mocks →
      doMock env n inside f p args ⟨r.mocks, r.log, plan⟩ = widen plan (mocked env plan n inside f p args r)
      ∧ ∀ x, mocked env plan n inside f p args r = some x → fns x.1.mocks = fns r.mocks) := by
  intro n
  induction n with
  | zero =>
    refine ⟨?_, ?_, ?_, ?_⟩
    · intro inside as r _ _; rw [doAll, steps]; exact ⟨rfl, fun _ h => by cases h⟩
    · intro inside as r _ _; rw [doOne, step]; exact ⟨rfl, fun _ h => by cases h⟩
    · intro inside f args r _; rw [doCall, called]; exact ⟨rfl, fun _ h => by cases h⟩
    · intro inside f p args r _ _; rw [doMock, mocked]; exact ⟨rfl, fun _ h => by cases h⟩
  | succ n ih =>
    obtain ⟨iAll, iOne, iCall, iMock⟩ := ih
    refine ⟨?_, ?_, ?_, ?_⟩
    · intro inside as r hp hr
      cases as with
      | nil => rw [doAll, steps]; exact ⟨rfl, fun x h => by injection h with h; subst h; rfl⟩
      | cons a as =>
        rw [doAll, steps]
        obtain ⟨h1, h2⟩ := iOne inside a r (hp a (List.mem_cons_self ..)) hr
        rw [h1]
        cases hx : step env plan n inside a r with
        | none => exact ⟨rfl, fun _ h => by cases h⟩
        | some x =>
          have hf := h2 x hx
          simp only [widen, Option.map_some, Option.bind_some]
          by_cases hj : x.2 = .jump
          · simp only [hj, if_true]
            refine ⟨by simp [← hj], fun y h => ?_⟩
            injection h with h; subst h; exact hf
          · simp only [hj, if_false]
            obtain ⟨h3, h4⟩ := iAll inside as x.1 (fun a ha => hp a (List.mem_cons_of_mem _ ha)) (by intro g p hg; rw [hf]; exact hr g p hg)
            exact ⟨h3, fun y h => (h4 y h).trans hf⟩
    · intro inside a r hp hr
      rcases hp with ⟨f, args, rfl⟩ | ⟨b, rfl⟩
      · rw [doOne, step]; exact iCall inside f args r hr
      · cases b with
        | true => rw [doOne, step]; exact ⟨rfl, fun x h => by injection h with h; subst h; rfl⟩
        | false => rw [doOne, step]; exact ⟨rfl, fun x h => by injection h with h; subst h; rfl⟩
    · intro inside f args r hr
      rw [doCall, called]
      by_cases hi : inside f = true
      · rw [if_pos hi, if_pos hi]
        exact iAll inside _ ⟨r.mocks, r.log ++ [.own f args]⟩ (he f args).1 hr
      · rw [if_neg hi, if_neg hi]
        dsimp only
        cases hp : plan f with
        | own => exact iAll inside _ ⟨r.mocks, r.log ++ [.own f args]⟩ (he f args).1 hr
        | fake k => exact iAll inside _ ⟨r.mocks, r.log ++ [.fake k args]⟩ (he k args).2 hr
        | mock p => exact iMock inside f p args r hp hr
    · intro inside f p args r hp hr
      rw [doMock, mocked]
      have hfp := hr f p hp
      dsimp only
      cases ht : r.mocks p with
      | none => exact ⟨rfl, fun _ h => by cases h⟩
      | some t =>
        have htf : t.1 = f := by simpa [fns, ht] using hfp
        dsimp only [Option.bind_some]
        cases hq : t.2.call args with
        | none => exact ⟨rfl, fun _ h => by cases h⟩
        | some q =>
          dsimp only [Option.bind_some]
          have hkept : fns (fun x => if x = p then some (f, q.1) else r.mocks x) = fns r.mocks := by
            funext x
            simp only [fns]
            by_cases hx : x = p
            · subst hx; simp [ht, htf]
            · simp [hx]
          have hpk : Planned plan (fun x => if x = p then some (f, q.1) else r.mocks x) := by
            intro g p' hg; rw [hkept]; exact hr g p' hg
          by_cases hx : Unexpected q.2 ∧ env.cont = false
          · rw [if_pos hx, if_pos hx, if_pos hx.1, if_pos hx.1]
            exact ⟨rfl, fun x h => by injection h with h; subst h; rfl⟩
          · rw [if_neg hx, if_neg hx]
            have hw : (if Unexpected q.2 then (⟨r.mocks, r.log, plan⟩ : World V).saw (.wrong p args) else ⟨r.mocks, r.log, plan⟩)
                = ⟨r.mocks, if Unexpected q.2 then r.log ++ [.wrong p args] else r.log, plan⟩ := by
              by_cases hu : Unexpected q.2
              · rw [if_pos hu, if_pos hu]; rfl
              · rw [if_neg hu, if_neg hu]
            rw [hw]
            cases hrep : q.1.reply q.2 with
            | original =>
              dsimp only
              obtain ⟨a, b⟩ := iCall (also inside f) f args
                ⟨fun x => if x = p then some (f, q.1) else r.mocks x, if Unexpected q.2 then r.log ++ [.wrong p args] else r.log⟩ hpk
              exact ⟨a, fun x h => (b x h).trans hkept⟩
            | routine k =>
              dsimp only [World.saw]
              obtain ⟨a, b⟩ := iAll (also inside f) (env.fake k args)
                ⟨fun x => if x = p then some (f, q.1) else r.mocks x,
                 (if Unexpected q.2 then r.log ++ [.wrong p args] else r.log) ++ [.fake k args]⟩ (he k args).2 hpk
              exact ⟨a, fun x h => (b x h).trans hkept⟩

/-- What is written at a place later is for the same function. -/
def Fits (r : Nat → Option (Nat × Mocker V Nat)) (as : List (Act V)) : Prop :=
  ∀ p f m g, Act.mock p f m ∈ as → fns r p = some g → g = f

/-- The result of the narrow reference for tests in the terms of the wide one. -/
def widens (o : Option ((Rec V × (Nat → Code)) × Exit)) : Option (World V × Exit) :=
  o.map fun x => (⟨x.1.1.mocks, x.1.1.log, x.1.2⟩, x.2)

theorem test_same (env : Env V) (he : PlainEnv env) : ∀ n as plan (r : Rec V), OneEach as → Planned plan r.mocks → Fits r.mocks as →
    doAll env n (fun _ => false) as ⟨r.mocks, r.log, plan⟩ = widens (test env n as plan r) := by
  intro n
  induction n with
  | zero => intro as plan r _ _ _; rw [doAll, test]; rfl
  | succ n ih =>
    intro as plan r ho hp hf
    cases as with
    | nil => rw [doAll, test]; rfl
    | cons a as =>
      rw [doAll, test]
      have ho' := oneEach_tail ho
      have hf' : Fits r.mocks as := fun p f m g h => hf p f m g (List.mem_cons_of_mem _ h)
      have code : ((∃ f args, a = .call f args) ∨ ∃ b, a = .check b) →
          ((doOne env n (fun _ => false) a ⟨r.mocks, r.log, plan⟩).bind fun x =>
              if x.2 = .jump then some x else doAll env n (fun _ => false) as x.1)
            = widens (((step env plan n (fun _ => false) a r).map fun x => ((x.1, plan), x.2)).bind fun x =>
              if x.2 = .jump then some x else test env n as x.1.2 x.1.1) := by
        intro ha
        obtain ⟨h1, h2⟩ := (plain_same env he plan n).2.1 (fun _ => false) a r ha hp
        rw [h1]
        cases hx : step env plan n (fun _ => false) a r with
        | none => rfl
        | some x =>
          have hfx := h2 x hx
          simp only [widen, widens, Option.map_some, Option.bind_some]
          by_cases hj : x.2 = .jump
          · simp [hj]
          · simp only [hj, if_false]
            exact ih as plan x.1 ho' (by intro g p hg; rw [hfx]; exact hp g p hg) (by intro p f m g h h'; rw [hfx] at h'; exact hf' p f m g h h')
      have deed_code : ((∃ f args, a = .call f args) ∨ ∃ b, a = .check b) →
          deed env n a plan r = (step env plan n (fun _ => false) a r).map fun x => ((x.1, plan), x.2) := by
        intro ha
        cases n with
        | zero => rw [deed, step]; rfl
        | succ n => rcases ha with ⟨f, args, rfl⟩ | ⟨b, rfl⟩ <;> rw [deed] <;> intros <;> simp_all
      cases a with
      | call f args => rw [deed_code (Or.inl ⟨_, _, rfl⟩)]; exact code (Or.inl ⟨_, _, rfl⟩)
      | check b => rw [deed_code (Or.inr ⟨_, rfl⟩)]; exact code (Or.inr ⟨_, rfl⟩)
      | mock p f m =>
        cases n with
        | zero => rw [deed, doOne]; rfl
        | succ n =>
          rw [deed, doOne]
          have hany : (r.mocks p).any (fun t => t.1 != f) = false := by
            cases hm : r.mocks p with
            | none => rfl
            | some t =>
              have := hf p f m t.1 (List.mem_cons_self ..) (by simp [fns, hm])
              simp [this]
          rw [if_neg (by simp [hany])]
          simp only [Option.bind_some, reduceCtorEq, if_false]
          apply ih as _ ⟨fun q => if q = p then some (f, m) else r.mocks q, r.log⟩ ho'
          · intro g q hg
            simp only [plans] at hg
            simp only [fns]
            by_cases e : g = f
            · subst e
              simp only [if_true, Code.mock.injEq] at hg
              subst hg; simp
            · simp only [e, if_false] at hg
              have hgq := hp g q hg
              by_cases e' : q = p
              · subst e'; exact absurd (hf q f m g (List.mem_cons_self ..) hgq) e
              · rw [if_neg e']; exact hgq
          · intro q f' m' g h h'
            simp only [fns] at h'
            by_cases e : q = p
            · subst e
              simp at h'
              subst h'
              exact ho q f m f' m' (List.mem_cons_self ..) (List.mem_cons_of_mem _ h)
            · simp only [e, if_false] at h'
              exact hf' q f' m' g h h'
      | stub f k =>
        cases n with
        | zero => rw [deed, doOne]; rfl
        | succ n =>
          rw [deed, doOne, if_neg (by simp)]
          simp only [Option.bind_some, reduceCtorEq, if_false]
          apply ih as _ r ho' _ hf'
          intro g q hg
          simp only [plans] at hg
          by_cases e : g = f
          · simp [e] at hg
          · simp only [e, if_false] at hg; exact hp g q hg
      | unstub f =>
        cases n with
        | zero => rw [deed, doOne]; rfl
        | succ n =>
          rw [deed, doOne, if_neg (by simp)]
          simp only [Option.bind_some, reduceCtorEq, if_false]
          apply ih as _ r ho' _ hf'
          intro g q hg
          simp only [plans] at hg
          by_cases e : g = f
          · simp [e] at hg
          · simp only [e, if_false] at hg; exact hp g q hg

theorem mem_finish (s : St V) (hl : Listed s) (p : Nat) (l : List Nat) :
    (p, l) ∈ finish s ↔ l ≠ [] ∧ ∃ f m, s.mockers p = some (f, m) ∧ m.check = l := by
  rw [finish, List.mem_filterMap]
  constructor
  · rintro ⟨p', _, hp'⟩
    cases hmp : s.mockers p' with
    | none => rw [hmp] at hp'; cases hp'
    | some t =>
      rw [hmp] at hp'
      simp only [Option.bind_some] at hp'
      split at hp'
      · cases hp'
      · rename_i hne
        injection hp' with hp'
        injection hp' with e1 e2
        subst e1; subst e2
        exact ⟨hne, t.1, t.2, hmp, rfl⟩
  · rintro ⟨hne, f, m, hm, rfl⟩
    refine ⟨p, hl p _ hm, ?_⟩
    rw [hm]
    simp only [Option.bind_some]
    rw [if_neg hne]

theorem unmet_iff (m : Mocker V Nat) (hb : ∀ e ∈ m.exps, e.checkin.least ≤ e.checkin.most) (i : Nat) : Unmet m i ↔ i ∈ m.check := by
  rw [Mocker.check, mem_checkFrom]
  constructor
  · rintro ⟨e, h1, h2⟩
    refine ⟨i, e, by omega, h1, ?_⟩
    have := hb e (List.mem_of_getElem? h1)
    simp only [H2.Mock.Checkin.checkFails, H2.Mock.Checkin.isSatisfied, H2.Mock.Checkin.isSaturated]
    simp
    omega
  · rintro ⟨j, e, h1, h2, h3⟩
    refine ⟨e, by rw [h1]; simpa using h2, ?_⟩
    simp only [H2.Mock.Checkin.checkFails, H2.Mock.Checkin.isSatisfied, H2.Mock.Checkin.isSaturated] at h3
    simp at h3
    omega

/-! ### The property -/

namespace Demo

/-- Function 0 calls function 1 and then itself; function 1 mocks function 2 at place 8 and calls it; fake 7 calls function 1, then
stubs function 3 by fake 9 and calls it; fake 9 unstubs function 3. -/
def wild : Env Nat where
  body f args := match f, args with
    | 0, [n + 1] => [.call 1 [n], .call 0 [n]]
    | 1, args => [.mock 8 2 (any 6), .call 2 args]
    | _, _ => []
  fake k args := match k with
    | 7 => [.call 1 args, .stub 3 9, .call 3 args, .call 0 args]
    | 9 => [.unstub 3]
    | _ => []
  cont := false

end Demo

/-- **C90 (inside and outside, mocks and stubs from anywhere).**  Functions, fakes and reactions may mock and stub as well, to any depth:
what runs, what is counted and what is reported is what the reference says, which patches nothing.  Partial: the reference says nothing of
code that mocks or stubs a function while its mock is at work, or mocks two functions at one place; there it is false
(`C90_stub_inside_false`, `C90_two_false`). -/
theorem C90_free_partial (env : Env V) (as : List (Act V)) (n : Nat) (w : World V) (e : Exit) (h : whole env n as = some (w, e)) :
    ∃ s, run env n as start = some (s, e) ∧ s.mockers = w.mocks ∧ s.log = w.log := by
  obtain ⟨s, r, l⟩ := whole_leads h
  exact ⟨s, r, l.mo, l.lg⟩

/-- The reaction of function 0 mocks function 2 behind function 1, and stubs function 3, which unstubs itself. -/
example : (whole Demo.wild 40 [.mock 5 0 (Demo.any 7), .call 0 [1], .call 3 [1], .call 2 [0]]).map (fun x => (x.1.log, x.2))
    = some ([.fake 7 [1], .own 1 [1], .fake 6 [1], .fake 9 [1], .own 0 [1], .own 1 [0], .fake 6 [0], .own 0 [0],
             .own 3 [1], .fake 6 [0]], .done) := by decide +kernel
/-- Nothing is said of a stub of a function whose mock is at work. -/
example : whole (Demo.env false) 40 [.mock 5 0 (Demo.any 8), .call 0 [0]] = none := by decide +kernel

/-- **C90 (the reference says what the narrow one says).**  Of code whose functions and reactions neither mock nor stub, in which each
place is for one function, the reference says something whenever the code comes to an end. -/
theorem C90_free_covers (env : Env V) (he : PlainEnv env) (as : List (Act V)) (ho : OneEach as) (n : Nat) :
    (run env n as start).map (fun x => (x.1.mockers, x.1.log, x.2)) = (whole env n as).map (fun y => (y.1.mocks, y.1.log, y.2)) := by
  have h1 := (test_agree env he n as _ _ start_inv (start_compat as) ho).1
  have h2 := test_same env he n as (fun _ => .own) (Rec.empty) ho (fun _ _ h => by cases h) (fun _ _ _ _ _ h => by cases h)
  rw [whole, show (World.empty : World V) = ⟨Rec.empty.mocks, Rec.empty.log, fun _ => .own⟩ from rfl, h2]
  have h3 : (run env n as start).map (fun x => (view x.1, x.2)) = (test env n as (fun _ => .own) Rec.empty).map fun y => (y.1.1, y.2) := h1
  cases hr : run env n as start with
  | none =>
    rw [hr] at h3
    cases ht : test env n as (fun _ => .own) (Rec.empty : Rec V) with
    | none => rfl
    | some y => rw [ht] at h3; cases h3
  | some x =>
    rw [hr] at h3
    cases ht : test env n as (fun _ => .own) (Rec.empty : Rec V) with
    | none => rw [ht] at h3; cases h3
    | some y =>
      rw [ht] at h3
      injection h3 with h3
      injection h3 with a b
      simp only [Option.map_some, widens, ← a, b, view]

/-- **C90 (put back, from anywhere).**  After a test that was not left by a failure each function is what the latest `MOCK`, `STUB` or
`UNSTUB` of it said, wherever that was. -/
theorem C90_free_latest_partial (env : Env V) (as : List (Act V)) (n : Nat) (w : World V) (h : whole env n as = some (w, .done)) :
    ∃ s, run env n as start = some (s, .done) ∧ s.code = w.plan := by
  obtain ⟨s, r, l⟩ := whole_leads h
  refine ⟨s, r, ?_⟩
  funext f
  rw [(l.dn rfl).code f]; simp

example : (whole Demo.wild 40 [.mock 5 0 (Demo.any 7), .call 0 [1]]).map (fun x => ((List.range 4).map x.1.plan, x.2))
    = some ([.mock 5, .own, .mock 8, .own], .done) := by decide +kernel

/-- **C90 (counted once, from anywhere).**  A call from the test is counted once by the mock it reaches, whatever the reaction does. -/
theorem C90_free_once_partial (env : Env V) (as : List (Act V)) (n k : Nat) (w w' : World V) (f p : Nat) (args : List V)
    (h : whole env n as = some (w, .done)) (hf : w.plan f = .mock p)
    (hc : doCall env k (fun _ => false) f args w = some (w', .done)) :
    ∃ s s' m q, run env n as start = some (s, .done) ∧ call env k f args s = some (s', .done) ∧
      s.mockers p = some (f, m) ∧ m.call args = some q ∧ s'.mockers p = some (f, q.1) := by
  obtain ⟨s, r, l⟩ := whole_leads h
  have hk := l.dn rfl
  cases k with
  | zero => rw [doCall] at hc; cases hc
  | succ k =>
    rw [doCall, if_neg (by simp), hf] at hc
    dsimp only at hc
    rw [← l.world] at hc
    obtain ⟨s', r', _, h3⟩ := (free env k).2.2.2 (fun _ => false) f p args w.plan s w' .done hk l.ls rfl hf hc
    obtain ⟨m, q, a, b, c⟩ := h3 rfl
    refine ⟨s, s', m, q, r, ?_, a, b, c⟩
    rw [call, hk.code f]
    simp only [Bool.false_eq_true, if_false, hf]
    exact r'

example : ((whole Demo.wild 40 [.mock 5 0 (Demo.any 7)]).bind fun x => (doCall Demo.wild 40 (fun _ => false) 0 [1] x.1).bind fun y =>
      (y.1.mocks 5).map fun t => (x.2, y.2, x.1.plan 0, t.2.exps.map (·.checkin.call), y.1.log.length))
    = some (.done, .done, .mock 5, [1], 8) := by decide +kernel

/-- **C90 (left by a failure, from anywhere).**  Each function is what was last said, or itself. -/
theorem C90_free_left_partial (env : Env V) (as : List (Act V)) (n : Nat) (w : World V) (e : Exit) (h : whole env n as = some (w, e)) :
    ∃ s, run env n as start = some (s, e) ∧ ∀ f, s.code f = w.plan f ∨ s.code f = .own := by
  obtain ⟨s, r, l⟩ := whole_leads h
  exact ⟨s, r, l.jp⟩

example : (whole (Demo.env false) 40 [.mock 5 0 (Demo.any 7), .mock 6 1 (Demo.any 7), .call 0 [9]]).map
    (fun x => (x.1.plan 0, x.1.plan 1, x.2)) = some (.mock 5, .mock 6, .jump) := by decide +kernel

/-- **C90 (what is reported at the end, from anywhere).**  However the test ends, and wherever the mocks were made: a mock is reported at
the end of the case exactly when it has expectations that were called too little or too often, and exactly these are named. -/
theorem C90_free_checked_partial (env : Env V) (as : List (Act V)) (n : Nat) (w : World V) (e : Exit) (h : whole env n as = some (w, e)) :
    ∃ s, run env n as start = some (s, e) ∧
      (∀ p, (∃ l, (p, l) ∈ finish s) → ∃ f m, w.mocks p = some (f, m)) ∧
      ∀ p f m, w.mocks p = some (f, m) → (∀ x ∈ m.exps, x.checkin.least ≤ x.checkin.most) →
        ∀ i, Unmet m i ↔ ∃ l, (p, l) ∈ finish s ∧ i ∈ l := by
  obtain ⟨s, r, l⟩ := whole_leads h
  refine ⟨s, r, ?_, ?_⟩
  · rintro p ⟨k, hk⟩
    obtain ⟨_, f, m, hm, _⟩ := (mem_finish s l.ls p k).1 hk
    exact ⟨f, m, by rw [← l.mo]; exact hm⟩
  · intro p f m hm hb i
    rw [← l.mo] at hm
    rw [unmet_iff m hb]
    constructor
    · intro hi
      exact ⟨m.check, (mem_finish s l.ls p _).2 ⟨List.ne_nil_of_mem hi, f, m, hm, rfl⟩, hi⟩
    · rintro ⟨k, hk, hi⟩
      obtain ⟨_, f', m', hm', rfl⟩ := (mem_finish s l.ls p k).1 hk
      rw [hm] at hm'
      injection hm' with hm'; injection hm' with _ hm'
      rw [hm']; exact hi

/-- The reaction of function 0 stubs function 3, so its mock is not called. -/
example : (run Demo.wild 40 [.mock 5 0 (Demo.any 7), .mock 6 3 Demo.once, .call 0 [1]] start).map (fun x => (finish x.1, x.2))
      = some ([(6, [0])], .done)
    ∧ (whole Demo.wild 40 [.mock 5 0 (Demo.any 7), .mock 6 3 Demo.once, .call 0 [1]]).isSome = true := by
  decide +kernel

end H2.Nest
