import Verif.Nest.Spec
/-! Working lemmas of area Nest. -/
namespace H2.Nest
open H2.Mock (Mocker Outcome)
open Spec

variable {V : Type}

/-- What the reference sees of a state. -/
def view (s : St V) : Rec V := ⟨s.mockers, s.log⟩

/-- The state the library keeps for a plan while the mocks of `inside` are at work. -/
structure Inv (plan : Nat → Code) (inside : Nat → Bool) (s : St V) : Prop where
  code : ∀ f, s.code f = if inside f then .own else plan f
  known : ∀ f, plan f ≠ .own → s.known f = true
  fn : ∀ f p t, plan f = .mock p → s.mockers p = some t → t.1 = f

/-- What calls leave alone. -/
structure Post (s : St V) (x : St V × Exit) : Prop where
  known : x.1.known = s.known
  listed : x.1.listed = s.listed
  fn : ∀ p t, x.1.mockers p = some t → ∃ t0, s.mockers p = some t0 ∧ t.1 = t0.1 ∧ asks t.2 = asks t0.2
  kept : ∀ p, (s.mockers p).isSome → (x.1.mockers p).isSome
  done : x.2 = .done → x.1.code = s.code
  jump : ∀ f, x.1.code f = s.code f ∨ x.1.code f = .own

def Agree (s : St V) (o : Option (St V × Exit)) (r : Option (Rec V × Exit)) : Prop :=
  o.map (fun x => (view x.1, x.2)) = r ∧ ∀ x, o = some x → Post s x

theorem Post.rfl' (s : St V) (e : Exit) : Post s (s, e) :=
  ⟨rfl, rfl, fun _ t h => ⟨t, h, rfl, rfl⟩, fun _ h => h, fun _ => rfl, fun _ => Or.inl rfl⟩

theorem Post.note (s : St V) (ev : Event V) (e : Exit) : Post s (s.note ev, e) :=
  ⟨rfl, rfl, fun _ t h => ⟨t, h, rfl, rfl⟩, fun _ h => h, fun _ => rfl, fun _ => Or.inl rfl⟩

theorem Post.trans {s : St V} {s1 : St V} {e1 : Exit} {x : St V × Exit} (h1 : Post s (s1, e1)) (he : e1 = .done)
    (h2 : Post s1 x) : Post s x := by
  refine ⟨h2.known.trans h1.known, h2.listed.trans h1.listed, ?_, ?_, ?_, ?_⟩
  · intro p t h
    obtain ⟨t0, a, b, c⟩ := h2.fn p t h
    obtain ⟨t1, a', b', c'⟩ := h1.fn p t0 a
    exact ⟨t1, a', b.trans b', c.trans c'⟩
  · intro p h; exact h2.kept p (h1.kept p h)
  · intro h; rw [h2.done h]; exact h1.done he
  · intro f
    have hc : s1.code = s.code := h1.done he
    rcases h2.jump f with h | h
    · left; rw [h, hc]
    · exact Or.inr h

theorem Inv.post {plan : Nat → Code} {inside : Nat → Bool} {s : St V} {x : St V × Exit} (hi : Inv plan inside s)
    (hp : Post s x) (hd : x.2 = .done) : Inv plan inside x.1 := by
  refine ⟨?_, ?_, ?_⟩
  · intro f; rw [hp.done hd]; exact hi.code f
  · intro f h; rw [hp.known]; exact hi.known f h
  · intro f p t h ht
    obtain ⟨t0, a, b, _⟩ := hp.fn p t ht
    rw [b]; exact hi.fn f p t0 h a

theorem Inv.note {plan : Nat → Code} {inside : Nat → Bool} {s : St V} (hi : Inv plan inside s) (e : Event V) :
    Inv plan inside (s.note e) := ⟨hi.code, hi.known, hi.fn⟩

theorem charge_asks (es es' : List (H2.Mock.Exp V Nat)) (j : Nat) (h : H2.Mock.charge es j = some es') :
    es'.map (fun e => (e.checkin.least, e.checkin.most, e.matchers, e.routine))
      = es.map (fun e => (e.checkin.least, e.checkin.most, e.matchers, e.routine)) := by
  induction es generalizing j es' with
  | nil => simp [H2.Mock.charge] at h
  | cons e es ih =>
    cases j with
    | zero =>
      rw [H2.Mock.charge] at h
      split at h
      · injection h with h; subst h; rfl
      · cases h
    | succ j =>
      rw [H2.Mock.charge] at h
      cases hc : H2.Mock.charge es j with
      | none => rw [hc] at h; cases h
      | some y =>
        rw [hc] at h; simp only [Option.map_some] at h; injection h with h; subst h
        simp only [List.map_cons, ih y j hc]

theorem call_asks (m : Mocker V Nat) (args : List V) (q : Mocker V Nat × Outcome) (h : m.call args = some q) :
    asks q.1 = asks m := by
  rw [Mocker.call] at h
  split at h
  · injection h with h; subst h; rfl
  · split at h
    · cases h
    · injection h with h; subst h
      rename_i hc
      exact charge_asks _ _ _ hc

theorem Post.keep (s : St V) (p : Nat) (t : Nat × Mocker V Nat) (m : Mocker V Nat) (ht : s.mockers p = some t)
    (hm : asks m = asks t.2) (e : Exit) : Post s (s.keep p t.1 m, e) := by
  refine ⟨rfl, rfl, ?_, ?_, fun _ => rfl, fun _ => Or.inl rfl⟩
  · intro q u hu
    simp only [St.keep] at hu
    split at hu
    · rename_i hq; subst hq; injection hu with hu; subst hu; exact ⟨t, ht, rfl, hm⟩
    · exact ⟨u, hu, rfl, rfl⟩
  · intro q h
    simp only [St.keep]
    split
    · rfl
    · exact h

theorem unexpected_iff (o : Outcome) : reported o = true ↔ Unexpected o := by
  cases o with
  | mk c w => cases c <;> cases w <;> simp [reported, Unexpected]

theorem Inv.lift {plan : Nat → Code} {inside : Nat → Bool} {s : St V} (hi : Inv plan inside s) (f : Nat)
    (hk : s.known f = true) : Inv plan (also inside f) (s.lift f) := by
  refine ⟨?_, ?_, ?_⟩
  · intro g
    simp only [St.lift, hk, if_true, St.write, also]
    by_cases h : g = f
    · simp [h]
    · simp [h, hi.code g]
  · intro g hg; simp only [St.lift, hk, if_true, St.write]; exact hi.known g hg
  · intro g p t h1 h2; simp only [St.lift, hk, if_true, St.write] at h2; exact hi.fn g p t h1 h2

theorem view_note (s : St V) (e : Event V) : view (s.note e) = ⟨s.mockers, s.log ++ [e]⟩ := rfl

/-- Behind the reaction. -/
theorem lower_agree {s : St V} {f : Nat} (hk : s.known f = true) {o : Option (St V × Exit)} {r : Option (Rec V × Exit)}
    (h : Agree (s.lift f) o r) : Agree s (o.bind (St.lower f s)) r := by
  have hl : s.lift f = s.write f .own := by simp only [St.lift, hk, if_true]
  rw [hl] at h
  cases o with
  | none => exact ⟨h.1, fun x hx => by cases hx⟩
  | some x =>
    have hp := h.2 x rfl
    have hkx : x.1.known f = true := by rw [hp.known]; exact hk
    rw [Option.bind_some]
    by_cases hj : x.2 = .jump
    · have e : St.lower f s x = some x := by rw [St.lower, if_pos hj]
      rw [e]
      refine ⟨h.1, ?_⟩
      intro y hy; injection hy with hy; subst hy
      refine ⟨hp.known, hp.listed, hp.fn, hp.kept, ?_, ?_⟩
      · intro hd; rw [hj] at hd; cases hd
      · intro g
        rcases hp.jump g with a | a
        · simp only [St.write] at a
          split at a
          · exact Or.inr a
          · exact Or.inl a
        · exact Or.inr a
    · have hd : x.2 = .done := by cases hx : x.2 <;> simp_all
      have e : St.lower f s x = some (x.1.write f (s.code f), .done) := by
        rw [St.lower, if_neg hj, if_pos hkx, if_pos hk]
      rw [e]
      refine ⟨?_, ?_⟩
      · rw [← h.1]; simp only [Option.map_some, hd]; rfl
      intro y hy; injection hy with hy; subst hy
      have hc : (x.1.write f (s.code f)).code = s.code := by
        funext g
        simp only [St.write]
        split
        · rename_i hg; rw [hg]
        · rename_i hg; rw [hp.done hd]; simp [St.write, hg]
      exact ⟨hp.known, hp.listed, hp.fn, hp.kept, fun _ => hc, fun g => Or.inl (congrFun hc g)⟩

theorem Agree.after {s s1 : St V} (h1 : Post s (s1, .done)) {o : Option (St V × Exit)} {r : Option (Rec V × Exit)}
    (h : Agree s1 o r) : Agree s o r := ⟨h.1, fun x hx => h1.trans rfl (h.2 x hx)⟩

/-- Patching code and putting it back is the same as handing down which mocks are at work. -/
theorem simulate (env : Env V) (plan : Nat → Code) (he : PlainEnv env) (n : Nat) :
    (∀ inside as s, Plain as → Inv plan inside s →
        Agree s (run env n as s) (steps env plan n inside as (view s)))
    ∧ (∀ inside a s, Plain [a] → Inv plan inside s →
        Agree s (act env n a s) (step env plan n inside a (view s)))
    ∧ (∀ inside f args s, Inv plan inside s →
        Agree s (call env n f args s) (called env plan n inside f args (view s)))
    ∧ (∀ inside f p args s, plan f = .mock p → Inv plan inside s →
        Agree s (answer env n p args s) (mocked env plan n inside f p args (view s))) := by
  induction n with
  | zero =>
    refine ⟨?_, ?_, ?_, ?_⟩ <;> intros <;>
      exact ⟨by simp [run, act, call, answer, steps, step, called, mocked], by simp [run, act, call, answer]⟩
  | succ n ih =>
    obtain ⟨ihr, iha, ihc, ihm⟩ := ih
    refine ⟨?_, ?_, ?_, ?_⟩
    · intro inside as s hp hi
      cases as with
      | nil =>
        refine ⟨rfl, ?_⟩
        intro x hx
        rw [run] at hx; injection hx with hx; subst hx; exact Post.rfl' s _
      | cons a as =>
        have ha := iha inside a s (fun b hb => hp b (by simp at hb; simp [hb])) hi
        have has : Plain as := fun b hb => hp b (by simp [hb])
        rw [run, steps]
        rw [← ha.1]
        cases hx : act env n a s with
        | none => exact ⟨rfl, fun x h => by cases h⟩
        | some x =>
          have hpx := ha.2 x hx
          simp only [Option.bind_some, Option.map_some]
          by_cases hj : x.2 = .jump
          · rw [if_pos hj, if_pos hj]
            exact ⟨rfl, fun y h => by injection h with h; subst h; exact hpx⟩
          · rw [if_neg hj, if_neg hj]
            have hd : x.2 = .done := by cases hx : x.2 <;> simp_all
            have h := ihr inside as x.1 has (hi.post hpx hd)
            refine Agree.after (s1 := x.1) ?_ h
            have : x = (x.1, .done) := by rw [← hd]
            rw [← this]; exact hpx
    · intro inside a s hp hi
      rcases hp a (by simp) with ⟨f, args, rfl⟩ | ⟨b, rfl⟩
      · rw [act, step]; exact ihc inside f args s hi
      · cases b with
        | true =>
          refine ⟨rfl, ?_⟩
          intro x hx
          rw [act, if_pos rfl] at hx; injection hx with hx; subst hx; exact Post.rfl' s _
        | false =>
          rw [act, if_neg (by decide), step]
          exact ⟨rfl, fun x hx => by injection hx with hx; subst hx; exact Post.note s _ _⟩
    · intro inside f args s hi
      rw [call, called]
      rw [hi.code f]
      by_cases hin : inside f = true
      · simp only [hin, if_true]
        exact Agree.after (Post.note s _ .done) (ihr inside _ _ (he f args).1 (hi.note _))
      · simp only [Bool.not_eq_true] at hin
        simp only [hin, Bool.false_eq_true, if_false]
        cases hpl : plan f with
        | own => exact Agree.after (Post.note s _ .done) (ihr inside _ _ (he f args).1 (hi.note _))
        | fake k => exact Agree.after (Post.note s _ .done) (ihr inside _ _ (he k args).2 (hi.note _))
        | mock p => exact ihm inside f p args s hpl hi
    · intro inside f p args s hpl hi
      rw [answer, mocked]
      show Agree s (Option.bind (s.mockers p) _) (Option.bind (s.mockers p) _)
      cases ht : s.mockers p with
      | none => exact ⟨rfl, fun x h => by cases h⟩
      | some t =>
        simp only [Option.bind_some]
        cases hq : t.2.call args with
        | none => exact ⟨rfl, fun x h => by cases h⟩
        | some q =>
          simp only [Option.bind_some]
          have hf : t.1 = f := hi.fn f p t hpl ht
          have hk : s.known f = true := hi.known f (by rw [hpl]; simp)
          have ha := call_asks t.2 args q hq
          by_cases hr : reported q.2 = true
          · have hu : Unexpected q.2 := (unexpected_iff _).1 hr
            cases hc : env.cont with
            | false =>
              simp only [hr, hu, Bool.not_false, Bool.and_self, if_true, and_self]
              exact ⟨rfl, fun x hx => by injection hx with hx; subst hx; exact Post.note s _ _⟩
            | true =>
              simp only [hr, hu, Bool.not_true, Bool.and_false, Bool.false_eq_true, if_false, if_true, and_false, reduceCtorEq]
              have hp1 : Post s ((s.note (.wrong p args)).keep p t.1 q.1, .done) :=
                (Post.note s _ .done).trans rfl (Post.keep (s.note (.wrong p args)) p t q.1 ht ha .done)
              have hi1 := hi.post hp1 rfl
              have hk1 : ((s.note (.wrong p args)).keep p t.1 q.1).known f = true := hk
              subst hf
              have hv : view (((s.note (.wrong p args)).keep p t.1 q.1).lift t.1)
                = ⟨fun x => if x = p then some (t.1, q.1) else s.mockers x, s.log ++ [.wrong p args]⟩ := by
                simp only [St.lift, hk1, if_true]; rfl
              cases hrep : q.1.reply q.2 with
              | original =>
                refine Agree.after hp1 (lower_agree hk1 ?_)
                have := ihc (also inside t.1) t.1 args _ (hi1.lift t.1 hk1)
                rw [hv] at this; exact this
              | routine k =>
                refine Agree.after hp1 (lower_agree hk1 ?_)
                refine Agree.after (Post.note _ (.fake k args) .done) ?_
                have := ihr (also inside t.1) _ _ (he k args).2 ((hi1.lift t.1 hk1).note (.fake k args))
                have hv' : view ((((s.note (.wrong p args)).keep p t.1 q.1).lift t.1).note (.fake k args))
                  = ⟨fun x => if x = p then some (t.1, q.1) else s.mockers x, s.log ++ [.wrong p args] ++ [.fake k args]⟩ := by
                  simp only [St.lift, hk1, if_true]; rfl
                rw [hv'] at this; exact this
          · have hu : ¬ Unexpected q.2 := fun h => hr ((unexpected_iff _).2 h)
            simp only [Bool.not_eq_true] at hr
            simp only [hr, hu, Bool.false_and, Bool.false_eq_true, if_false, false_and]
            have hp1 : Post s (s.keep p t.1 q.1, .done) := Post.keep s p t q.1 ht ha .done
            have hi1 := hi.post hp1 rfl
            have hk1 : (s.keep p t.1 q.1).known f = true := hk
            subst hf
            have hv : view ((s.keep p t.1 q.1).lift t.1)
              = ⟨fun x => if x = p then some (t.1, q.1) else s.mockers x, s.log⟩ := by
              simp only [St.lift, hk1, if_true]; rfl
            cases hrep : q.1.reply q.2 with
            | original =>
              refine Agree.after hp1 (lower_agree hk1 ?_)
              have := ihc (also inside t.1) t.1 args _ (hi1.lift t.1 hk1)
              rw [hv] at this; exact this
            | routine k =>
              refine Agree.after hp1 (lower_agree hk1 ?_)
              refine Agree.after (Post.note _ (.fake k args) .done) ?_
              have := ihr (also inside t.1) _ _ (he k args).2 ((hi1.lift t.1 hk1).note (.fake k args))
              have hv' : view (((s.keep p t.1 q.1).lift t.1).note (.fake k args))
                = ⟨fun x => if x = p then some (t.1, q.1) else s.mockers x, s.log ++ [.fake k args]⟩ := by
                simp only [St.lift, hk1, if_true]; rfl
              rw [hv'] at this; exact this

/-! ### Tests -/

/-- The places of the plan are for the functions they stand for, also in what is to come. -/
def Compat (plan : Nat → Code) (as : List (Act V)) : Prop :=
  ∀ g p, plan g = .mock p → ∀ f m, Act.mock p f m ∈ as → f = g

/-- What a test leaves of the mocks at the places it does not come by. -/
structure Leaves (as : List (Act V)) (s : St V) (x : St V) : Prop where
  old : ∀ p t, p ∉ as.filterMap place → s.mockers p = some t →
    ∃ t', x.mockers p = some t' ∧ t'.1 = t.1 ∧ asks t'.2 = asks t.2
  listed : ∀ p, p ∈ s.listed → p ∈ x.listed

theorem mem_place {p f : Nat} {m : Mocker V Nat} {as : List (Act V)} (h : Act.mock p f m ∈ as) : p ∈ as.filterMap place :=
  List.mem_filterMap.2 ⟨_, h, rfl⟩

theorem Post.old {s : St V} {x : St V × Exit} (h : Post s x) {p : Nat} {t : Nat × Mocker V Nat} (ht : s.mockers p = some t) :
    ∃ t', x.1.mockers p = some t' ∧ t'.1 = t.1 ∧ asks t'.2 = asks t.2 := by
  have := h.kept p (by rw [ht]; rfl)
  cases hx : x.1.mockers p with
  | none => rw [hx] at this; cases this
  | some t' =>
    obtain ⟨t0, a, b, c⟩ := h.fn p t' hx
    rw [ht] at a; injection a with a; subst a
    exact ⟨t', rfl, b, c⟩

/-- One action of a test. -/
theorem deed_agree (env : Env V) (he : PlainEnv env) (n : Nat) (a : Act V) (as : List (Act V)) (plan : Nat → Code) (s : St V)
    (hi : Inv plan (fun _ => false) s) (hc : Compat plan (a :: as)) (ho : OneEach (a :: as)) :
    (act env n a s).map (fun x => (view x.1, x.2)) = (deed env n a plan (view s)).map (fun y => (y.1.1, y.2))
    ∧ ∀ x y, act env n a s = some x → deed env n a plan (view s) = some y →
        y.1.2 = latest plan [a] ∧ Leaves [a] s x.1
        ∧ (x.2 = .done → Inv y.1.2 (fun _ => false) x.1 ∧ Compat y.1.2 as)
        ∧ (x.2 = .jump → ∀ f, x.1.code f = y.1.2 f ∨ x.1.code f = .own)
        ∧ ∀ p f m, a = .mock p f m → x.1.mockers p = some (f, m) ∧ p ∈ x.1.listed := by
  cases n with
  | zero => exact ⟨by simp [act, deed], by simp [act]⟩
  | succ n =>
    have hcas : Compat plan as := fun g p h f m hm => hc g p h f m (by simp [hm])
    have quiet : Plain [a] → latest plan [a] = plan → (∀ p f m, a ≠ .mock p f m) →
        deed env (n + 1) a plan (view s) = (step env plan (n + 1) (fun _ => false) a (view s)).map (fun x => ((x.1, plan), x.2)) →
        (act env (n + 1) a s).map (fun x => (view x.1, x.2)) = (deed env (n + 1) a plan (view s)).map (fun y => (y.1.1, y.2))
        ∧ ∀ x y, act env (n + 1) a s = some x → deed env (n + 1) a plan (view s) = some y →
          y.1.2 = latest plan [a] ∧ Leaves [a] s x.1
          ∧ (x.2 = .done → Inv y.1.2 (fun _ => false) x.1 ∧ Compat y.1.2 as)
          ∧ (x.2 = .jump → ∀ f, x.1.code f = y.1.2 f ∨ x.1.code f = .own)
          ∧ ∀ p f m, a = .mock p f m → x.1.mockers p = some (f, m) ∧ p ∈ x.1.listed := by
      intro hp hl hn hd
      have h := (simulate env plan he (n + 1)).2.1 (fun _ => false) a s hp hi
      rw [hd]
      refine ⟨?_, ?_⟩
      · rw [h.1, Option.map_map]; simp [Function.comp_def]
      · intro x y hx hy
        have hpx := h.2 x hx
        have hy2 : y.1.2 = plan := by
          cases hst : step env plan (n + 1) (fun _ => false) a (view s) with
          | none => rw [hst] at hy; cases hy
          | some z => rw [hst] at hy; injection hy with hy; rw [← hy]
        refine ⟨by rw [hl, hy2], ⟨fun p t _ ht => hpx.old ht, fun p hm => by rw [hpx.listed]; exact hm⟩, ?_, ?_, ?_⟩
        · intro hdone; rw [hy2]; exact ⟨hi.post hpx hdone, hcas⟩
        · intro _ f
          rw [hy2]
          have := hi.code f
          simp only [Bool.false_eq_true, if_false] at this
          rw [← this]; exact hpx.jump f
        · intro p f m hm; exact absurd hm (hn p f m)
    cases a with
    | call f args =>
      exact quiet (fun b hb => by simp at hb; exact Or.inl ⟨f, args, hb⟩) rfl (fun _ _ _ => by simp) (by rw [deed]; all_goals simp)
    | check b =>
      exact quiet (fun b' hb => by simp at hb; exact Or.inr ⟨b, hb⟩) rfl (fun _ _ _ => by simp) (by rw [deed]; all_goals simp)
    | mock p f m =>
      refine ⟨rfl, ?_⟩
      intro x y hx hy
      rw [act] at hx; injection hx with hx; subst hx
      rw [deed] at hy; injection hy with hy; subst hy
      refine ⟨rfl, ⟨?_, ?_⟩, ?_, ?_, ?_⟩
      · intro q t hq ht
        refine ⟨t, ?_, rfl, rfl⟩
        have : q ≠ p := by intro h; subst h; exact hq (mem_place (List.mem_singleton.2 rfl))
        show (if q = p then some (f, m) else s.mockers q) = some t
        rw [if_neg this]; exact ht
      · intro q hq
        show q ∈ p :: s.listed.filter (· ≠ p)
        by_cases h : q = p
        · simp [h]
        · simp [h, hq]
      · intro _
        refine ⟨⟨?_, ?_, ?_⟩, ?_⟩
        · intro g
          show (if g = f then Code.mock p else s.code g) = _
          simp only [Bool.false_eq_true, if_false, plans]
          have := hi.code g
          simp only [Bool.false_eq_true, if_false] at this
          rw [this]
        · intro g hg
          show (if g = f then true else s.known g) = true
          by_cases h : g = f
          · rw [if_pos h]
          · rw [if_neg h]; simp only [plans, if_neg h] at hg; exact hi.known g hg
        · intro g q t hg ht
          have ht' : (if q = p then some (f, m) else s.mockers q) = some t := ht
          simp only [plans] at hg
          by_cases h : g = f
          · rw [if_pos h] at hg; injection hg with hg; subst hg
            rw [if_pos rfl] at ht'; injection ht' with ht'; rw [← ht', h]
          · rw [if_neg h] at hg
            by_cases hqp : q = p
            · subst hqp
              exact absurd (hc g q hg f m (by simp)).symm h
            · rw [if_neg hqp] at ht'
              exact hi.fn g q t hg ht'
        · intro g q hg f' m' hm
          simp only [plans] at hg
          by_cases h : g = f
          · rw [if_pos h] at hg; injection hg with hg; subst hg
            rw [h]; exact ho p f' m' f m (by simp [hm]) (by simp)
          · rw [if_neg h] at hg
            exact hcas g q hg f' m' hm
      · intro h; cases h
      · intro p' f' m' h
        injection h with h1 h2 h3; subst h1 h2 h3
        refine ⟨?_, ?_⟩
        · show (if p = p then some (f, m) else s.mockers p) = some (f, m)
          rw [if_pos rfl]
        · show p ∈ p :: s.listed.filter (· ≠ p)
          simp
    | stub f k =>
      refine ⟨rfl, ?_⟩
      intro x y hx hy
      rw [act] at hx; injection hx with hx; subst hx
      rw [deed] at hy; injection hy with hy; subst hy
      refine ⟨rfl, ⟨fun _ t _ ht => ⟨t, ht, rfl, rfl⟩, fun _ h => h⟩, ?_, ?_, ?_⟩
      · intro _
        refine ⟨⟨?_, ?_, ?_⟩, ?_⟩
        · intro g
          show (if g = f then Code.fake k else s.code g) = _
          simp only [Bool.false_eq_true, if_false, plans]
          have := hi.code g
          simp only [Bool.false_eq_true, if_false] at this
          rw [this]
        · intro g hg
          show (if g = f then true else s.known g) = true
          by_cases h : g = f
          · rw [if_pos h]
          · rw [if_neg h]; simp only [plans, if_neg h] at hg; exact hi.known g hg
        · intro g q t hg ht
          simp only [plans] at hg
          split at hg
          · cases hg
          · exact hi.fn g q t hg ht
        · intro g q hg f' m' hm
          simp only [plans] at hg
          split at hg
          · cases hg
          · exact hcas g q hg f' m' hm
      · intro h; cases h
      · intro p' f' m' h; cases h
    | unstub f =>
      refine ⟨?_, ?_⟩
      · rw [act, deed]
        simp only [Option.map_some, St.unstub]
        split <;> rfl
      intro x y hx hy
      rw [act] at hx; injection hx with hx
      rw [deed] at hy; injection hy with hy; subst hy
      have hm : x.1.mockers = s.mockers := by rw [← hx]; simp only [St.unstub]; split <;> rfl
      have hl : x.1.listed = s.listed := by rw [← hx]; simp only [St.unstub]; split <;> rfl
      refine ⟨rfl, ⟨fun _ t _ ht => ⟨t, by rw [hm]; exact ht, rfl, rfl⟩, fun _ h => by rw [hl]; exact h⟩, ?_, ?_, ?_⟩
      · intro _
        refine ⟨⟨?_, ?_, ?_⟩, ?_⟩
        · intro g
          have hg := hi.code g
          simp only [Bool.false_eq_true, if_false] at hg
          simp only [Bool.false_eq_true, if_false, plans]
          rw [← hx]
          simp only [St.unstub]
          by_cases hk : s.known f = true
          · rw [if_pos hk]
            show (if g = f then Code.own else s.code g) = _
            rw [hg]
          · rw [if_neg hk]
            by_cases h : g = f
            · rw [if_pos h, hg]
              refine Classical.byContradiction fun hne => hk (hi.known f (by rw [← h]; exact hne))
            · rw [if_neg h]; exact hg
        · intro g hg
          simp only [plans] at hg
          have h : g ≠ f := by intro h; rw [if_pos h] at hg; exact hg rfl
          rw [if_neg h] at hg
          rw [← hx]
          simp only [St.unstub]
          split
          · show (if g = f then false else s.known g) = true
            rw [if_neg h]; exact hi.known g hg
          · exact hi.known g hg
        · intro g q t hg ht
          rw [hm] at ht
          simp only [plans] at hg
          split at hg
          · cases hg
          · exact hi.fn g q t hg ht
        · intro g q hg f' m' hm
          simp only [plans] at hg
          split at hg
          · cases hg
          · exact hcas g q hg f' m' hm
      · intro h; rw [← hx] at h; cases h
      · intro p' f' m' h; cases h

theorem once_tail {a : Act V} {as : List (Act V)} (h : Once (a :: as)) : Once as := by
  rw [Once, List.filterMap_cons] at h
  split at h
  · exact h
  · exact (List.nodup_cons.1 h).2

theorem oneEach_tail {a : Act V} {as : List (Act V)} (h : OneEach (a :: as)) : OneEach as :=
  fun p f m g m' h1 h2 => h p f m g m' (by simp [h1]) (by simp [h2])

theorem once_mock {p f : Nat} {m : Mocker V Nat} {as : List (Act V)} (h : Once (.mock p f m :: as)) :
    p ∉ as.filterMap place := by
  rw [Once, List.filterMap_cons] at h
  exact (List.nodup_cons.1 h).1

theorem once_oneEach {as : List (Act V)} (h : Once as) : OneEach as := by
  induction as with
  | nil => intro p f m g m' h1; simp at h1
  | cons a as ih =>
    intro p f m g m' h1 h2
    have ht := ih (once_tail h)
    rcases List.mem_cons.1 h1 with k1 | k1 <;> rcases List.mem_cons.1 h2 with k2 | k2
    · rw [← k1] at k2; injection k2 with _ k2 _; exact k2.symm
    · subst k1
      exact absurd (mem_place k2) (once_mock h)
    · subst k2
      exact absurd (mem_place k1) (once_mock h)
    · exact ht p f m g m' k1 k2

theorem test_agree (env : Env V) (he : PlainEnv env) (n : Nat) (as : List (Act V)) (plan : Nat → Code) (s : St V)
    (hi : Inv plan (fun _ => false) s) (hc : Compat plan as) (ho : OneEach as) :
    (run env n as s).map (fun x => (view x.1, x.2)) = (test env n as plan (view s)).map (fun y => (y.1.1, y.2))
    ∧ ∀ x y, run env n as s = some x → test env n as plan (view s) = some y →
        Leaves as s x.1
        ∧ (x.2 = .done → y.1.2 = latest plan as ∧ (x.1.code = y.1.2 ∧ Inv y.1.2 (fun _ => false) x.1)
            ∧ (Once as → ∀ p f m, Act.mock p f m ∈ as →
                ∃ m', x.1.mockers p = some (f, m') ∧ asks m' = asks m ∧ p ∈ x.1.listed))
        ∧ (x.2 = .jump → (∃ pre, pre <+: as ∧ y.1.2 = latest plan pre) ∧ ∀ f, x.1.code f = y.1.2 f ∨ x.1.code f = .own) := by
  induction n generalizing as plan s with
  | zero => exact ⟨by simp [run, test], by simp [run]⟩
  | succ n ih =>
    cases as with
    | nil =>
      refine ⟨rfl, ?_⟩
      intro x y hx hy
      rw [run] at hx; injection hx with hx; subst hx
      rw [test] at hy; injection hy with hy; subst hy
      refine ⟨⟨fun _ t _ h => ⟨t, h, rfl, rfl⟩, fun _ h => h⟩, ?_, ?_⟩
      · intro _
        refine ⟨rfl, ⟨?_, hi⟩, ?_⟩
        · funext f
          have := hi.code f
          simpa only [Bool.false_eq_true, if_false] using this
        · intro _ p f m h; simp at h
      · intro h; cases h
    | cons a as =>
      obtain ⟨h1, h2⟩ := deed_agree env he n a as plan s hi hc ho
      rw [run, test]
      cases hx : act env n a s with
      | none =>
        rw [hx] at h1
        cases hy : deed env n a plan (view s) with
        | none => exact ⟨rfl, fun x y h => by cases h⟩
        | some y => rw [hy] at h1; simp at h1
      | some x =>
        cases hy : deed env n a plan (view s) with
        | none => rw [hx, hy] at h1; simp at h1
        | some y =>
          obtain ⟨hlat, hleave, hd, hj, hmk⟩ := h2 x y hx hy
          rw [hx, hy] at h1
          simp only [Option.map_some, Option.some.injEq, Prod.mk.injEq] at h1
          simp only [Option.bind_some]
          rw [← h1.2]
          have lat : ∀ b : List (Act V), latest (latest plan [a]) b = latest plan (a :: b) := by
            intro b; cases a <;> rfl
          by_cases hjump : x.2 = .jump
          · rw [if_pos hjump, if_pos hjump]
            refine ⟨by simp [h1], ?_⟩
            intro x' y' hx' hy'
            injection hx' with hx'; injection hy' with hy'; subst hx' hy'
            refine ⟨⟨?_, hleave.listed⟩, (fun h => absurd (hjump.symm.trans h) (by decide)), fun h => ⟨⟨[a], ⟨as, rfl⟩, hlat⟩, hj h⟩⟩
            intro p t hp ht
            refine hleave.old p t ?_ ht
            intro hmem; apply hp
            rw [List.filterMap_cons] at hmem ⊢
            cases hpl : place a with
            | none => rw [hpl] at hmem; simp at hmem
            | some q => rw [hpl] at hmem; simp at hmem; simp [hmem]
          · rw [if_neg hjump, if_neg hjump]
            have hdone : x.2 = .done := by cases h : x.2 <;> simp_all
            obtain ⟨hi', hc'⟩ := hd hdone
            obtain ⟨g1, g2⟩ := ih as y.1.2 x.1 hi' hc' (oneEach_tail ho)
            rw [h1.1] at g1 g2
            refine ⟨g1, ?_⟩
            intro x' y' hx' hy'
            obtain ⟨k1, k2, k3⟩ := g2 x' y' hx' hy'
            refine ⟨⟨?_, fun p hp => k1.listed p (hleave.listed p hp)⟩, ?_, ?_⟩
            · intro p t hp ht
              have hpa : p ∉ [a].filterMap place ∧ p ∉ as.filterMap place := by
                rw [List.filterMap_cons] at hp ⊢
                cases hpl : place a with
                | none => rw [hpl] at hp; simp only at hp; exact ⟨by simp, hp⟩
                | some q => rw [hpl] at hp; simp only [List.mem_cons, not_or] at hp; exact ⟨by simp [hp.1], hp.2⟩
              obtain ⟨t1, a1, b1, c1⟩ := hleave.old p t hpa.1 ht
              obtain ⟨t2, a2, b2, c2⟩ := k1.old p t1 hpa.2 a1
              exact ⟨t2, a2, b2.trans b1, c2.trans c1⟩
            · intro hdn
              obtain ⟨l1, l2, l3⟩ := k2 hdn
              refine ⟨by rw [l1, hlat, lat], l2, ?_⟩
              intro honce p f m hm
              rcases List.mem_cons.1 hm with hm | hm
              · obtain ⟨m1, m2⟩ := hmk p f m hm.symm
                have hnot : p ∉ as.filterMap place := by
                  rw [← hm] at honce
                  exact once_mock honce
                obtain ⟨t2, a2, b2, c2⟩ := k1.old p (f, m) hnot m1
                refine ⟨t2.2, ?_, c2, k1.listed p m2⟩
                rw [a2, ← show t2.1 = f from b2]
              · exact l3 (once_tail honce) p f m hm
            · intro hjn
              obtain ⟨⟨pre, hpre, hl⟩, hcode⟩ := k3 hjn
              refine ⟨⟨a :: pre, ?_, by rw [hl, hlat, lat]⟩, hcode⟩
              obtain ⟨post, hpost⟩ := hpre
              exact ⟨post, by rw [← hpost]; rfl⟩

/-- While the mock of `f` is at work, no call is counted for the place that stands for `f` only. -/
theorem untouched (env : Env V) (plan : Nat → Code) (f p : Nat) (hp : ∀ g, plan g = .mock p → g = f) (n : Nat) :
    (∀ inside as r x, inside f = true → steps env plan n inside as r = some x → x.1.mocks p = r.mocks p)
    ∧ (∀ inside a r x, inside f = true → step env plan n inside a r = some x → x.1.mocks p = r.mocks p)
    ∧ (∀ inside g args r x, inside f = true → called env plan n inside g args r = some x → x.1.mocks p = r.mocks p)
    ∧ (∀ inside g q args r x, inside f = true → q ≠ p → mocked env plan n inside g q args r = some x →
        x.1.mocks p = r.mocks p) := by
  induction n with
  | zero => refine ⟨?_, ?_, ?_, ?_⟩ <;> intros <;> simp_all [steps, step, called, mocked]
  | succ n ih =>
    obtain ⟨ihr, iha, ihc, ihm⟩ := ih
    refine ⟨?_, ?_, ?_, ?_⟩
    · intro inside as r x hin h
      cases as with
      | nil => rw [steps] at h; injection h with h; subst h; rfl
      | cons a as =>
        rw [steps] at h
        cases hs : step env plan n inside a r with
        | none => rw [hs] at h; cases h
        | some y =>
          have hy := iha inside a r y hin hs
          rw [hs, Option.bind_some] at h
          split at h
          · injection h with h; subst h; exact hy
          · rw [ihr inside as y.1 x hin h, hy]
    · intro inside a r x hin h
      cases a with
      | call g args => rw [step] at h; exact ihc inside g args r x hin h
      | check b =>
        cases b <;> rw [step] at h <;> injection h with h <;> subst h <;> rfl
      | mock _ _ _ => simp [step] at h
      | stub _ _ => simp [step] at h
      | unstub _ => simp [step] at h
    · intro inside g args r x hin h
      rw [called] at h
      by_cases hg : inside g = true
      · rw [if_pos hg] at h; exact (ihr inside _ _ x hin h).trans rfl
      · rw [if_neg hg] at h
        cases hpl : plan g with
        | own => rw [hpl] at h; exact (ihr inside _ _ x hin h).trans rfl
        | fake k => rw [hpl] at h; exact (ihr inside _ _ x hin h).trans rfl
        | mock q =>
          rw [hpl] at h
          refine ihm inside g q args r x hin ?_ h
          intro hq; subst hq; rw [hp g hpl] at hg; exact hg hin
    · intro inside g q args r x hin hq h
      rw [mocked] at h
      cases ht : r.mocks q with
      | none => rw [ht] at h; cases h
      | some t =>
        rw [ht, Option.bind_some] at h
        cases hc : t.2.call args with
        | none => rw [hc] at h; cases h
        | some o =>
          rw [hc, Option.bind_some] at h
          dsimp only at h
          split at h
          · injection h with h; subst h; rfl
          · have hin' : also inside g f = true := by simp [also, hin]
            have keep : ∀ y : Nat × Mocker V Nat, (if p = q then some y else r.mocks p) = r.mocks p := by
              intro y; rw [if_neg (fun e => hq e.symm)]
            cases hr : o.1.reply o.2 with
            | original =>
              rw [hr] at h
              rw [ihc _ _ _ _ x hin' h]; exact keep _
            | routine k =>
              rw [hr] at h
              rw [ihr _ _ _ x hin' h]; exact keep _

theorem start_inv : Inv (V := V) (fun _ => .own) (fun _ => false) start :=
  ⟨fun _ => rfl, fun _ h => absurd rfl h, fun _ _ _ h => by cases h⟩

theorem start_compat (as : List (Act V)) : Compat (fun _ => .own) as := fun _ _ h => by cases h

theorem mem_checkFrom (es : List (H2.Mock.Exp V Nat)) (k i : Nat) :
    i ∈ H2.Mock.checkFrom es k ↔ ∃ j e, i = k + j ∧ es[j]? = some e ∧ e.checkin.checkFails = true := by
  induction es generalizing k with
  | nil => simp [H2.Mock.checkFrom]
  | cons e es ih =>
    have step : i ∈ H2.Mock.checkFrom (e :: es) k ↔ (i = k ∧ e.checkin.checkFails = true) ∨ i ∈ H2.Mock.checkFrom es (k + 1) := by
      rw [H2.Mock.checkFrom]
      split
      · rename_i h; simp [h]
      · rename_i h; simp [h]
    rw [step, ih]
    constructor
    · rintro (⟨h1, h2⟩ | ⟨j, e', h1, h2, h3⟩)
      · exact ⟨0, e, by omega, rfl, h2⟩
      · exact ⟨j + 1, e', by omega, by simpa using h2, h3⟩
    · rintro ⟨j, e', h1, h2, h3⟩
      cases j with
      | zero => simp at h2; subst h2; exact Or.inl ⟨by omega, h3⟩
      | succ j => exact Or.inr ⟨j, e', by omega, by simpa using h2, h3⟩

end H2.Nest
