import Verif.FailTree.Lemmas
/-
C58  The failures of a case are shown completely, in order, and nested as they belong together.
-/
namespace H2.FailTree
variable {α : Type}

/-- Putting failures behind others keeps all of them, in order. -/
theorem C58_append {a b : Chain α} {ts us : List (Report α)} (h : Holds a ts) (g : Holds b us) :
    Holds (appendSubling a b) (ts ++ us) := h.append g

example : Holds (appendSubling (.fail 1 (.fail 2 .null .null) .null) (.fail 3 .null .null)) [.mk 1 [.mk 2 []], .mk 3 []] :=
  C58_append (.more (.more .nothing .nothing) .nothing) (.more .nothing .nothing)

/-- Putting failures below a new one makes them its explanation, in order. -/
theorem C58_below (a : α) {f : Chain α} {us : List (Report α)} (g : Holds f us) :
    Holds (appendChild (.fail a .null .null) f) [.mk a us] := .more g .nothing

example : Holds (appendChild (.fail 1 .null .null) (.fail 2 .null (.fail 3 .null .null))) [.mk 1 [.mk 2 [], .mk 3 []]] :=
  C58_below 1 (.more .nothing (.more .nothing .nothing))

/-- An assertion: what the matcher said is what is reported, as one failure, unless it is satisfied; several
failures are put below one; with `KO` it is the other way round. -/
theorem C58_assert (oppose : Bool) {verdict : Chain α} {ts : List (Report α)} (opposite wrapper : α) (h : Holds verdict ts) :
    Holds (stash oppose verdict opposite wrapper)
      (match oppose, ts with
       | true, [] => [.mk opposite []]
       | true, _ => []
       | false, [] => []
       | false, [t] => [t]
       | false, ts => [.mk wrapper ts]) := by
  cases oppose with
  | true =>
    cases h with
    | nothing => exact .more .nothing .nothing
    | more h1 h2 => exact .nothing
  | false =>
    cases h with
    | nothing => exact .nothing
    | more h1 h2 =>
      cases h2 with
      | nothing => exact .more h1 .nothing
      | more h3 h4 => exact .more (.more h1 (.more h3 h4)) .nothing

example : Holds (stash false (.fail 1 .null (.fail 2 .null .null)) 8 9) [.mk 9 [.mk 1 [], .mk 2 []]] :=
  C58_assert false 8 9 (.more .nothing (.more .nothing .nothing))
example : Holds (stash true .null 8 9) [.mk 8 []] := C58_assert true 8 9 .nothing

/-- A mock: the complaints of all its expectations, in order, below the name of the mocked function; nothing
if there is no complaint. -/
theorem C58_mock (signature : α) {l : List (Chain α × List (Report α))} (hl : ∀ x ∈ l, Holds x.1 x.2) :
    Holds (mockerCheck signature (l.map (·.1)))
      (match (l.map (·.2)).flatten with
       | [] => []
       | ts => [.mk signature ts]) := by
  have h := holds_foldl hl Holds.nothing
  simp only [List.nil_append] at h
  unfold mockerCheck
  generalize (l.map (·.1)).foldl appendSubling .null = c at h ⊢
  generalize (l.map (·.2)).flatten = ts at h ⊢
  cases h with
  | nothing => exact .nothing
  | more h1 h2 => exact .more (.more h1 h2) .nothing

example : Holds (mockerCheck 0 [.fail 1 .null .null, .null, .fail 2 .null .null]) [.mk 0 [.mk 1 [], .mk 2 []]] :=
  C58_mock 0 (l := [(.fail 1 .null .null, [.mk 1 []]), (.null, []), (.fail 2 .null .null, [.mk 2 []])])
    (by
      intro x hx
      simp only [List.mem_cons, List.not_mem_nil, or_false] at hx
      rcases hx with rfl | rfl | rfl
      · exact .more .nothing .nothing
      · exact .nothing
      · exact .more .nothing .nothing)

/-- The reports of all mocks of a case, in order. -/
theorem C58_mocks {l : List (Chain α × List (Report α))} (hl : ∀ x ∈ l, Holds x.1 x.2) :
    Holds (mocksCheck (l.map (·.1))) (l.map (·.2)).flatten := by
  simpa [mocksCheck] using holds_foldl hl Holds.nothing

example : Holds (mocksCheck [.fail 1 .null .null, .null]) [.mk 1 []] :=
  C58_mocks (l := [(.fail 1 .null .null, [.mk 1 []]), (.null, [])])
    (by
      intro x hx
      simp only [List.mem_cons, List.not_mem_nil, or_false] at hx
      rcases hx with rfl | rfl
      · exact .more .nothing .nothing
      · exact .nothing)

/-- The walk visits every failure once, each directly below the one it explains, with its depth. -/
theorem C58_walk {c : Chain α} {ts : List (Report α)} (h : Holds c ts) :
    Outline 0 ts ((foreach c 0 0).map fun x => (x.1, x.2.2)) := foreach_outline h 0 0

example : ((foreach (.fail 1 (.fail 2 (.fail 3 .null .null) (.fail 4 .null .null)) (.fail 5 .null .null)) 0 0).map
    fun x => (x.1, x.2.2)) = [(1, 0), (2, 1), (3, 2), (4, 1), (5, 0)] := rfl

/-- Deleting a report deletes each of its failures once. -/
theorem C58_deleted {c : Chain α} {ts : List (Report α)} (h : Holds c ts) : Members ts (destroy c) := destroy_members h

example : destroy (.fail 1 (.fail 2 .null .null) (.fail 3 .null .null)) = [2, 3, 1] := rfl

/-- Any failures a case is told of one after another, when every one is to be added (as it is with `-c`, and for
failures of the case itself always): all of them are kept, in the order in which they occurred, none is deleted;
the case counts as failed when one of them is no warning, and has a warning when one is. -/
theorem C58_case (isWarning : α → Bool) {l : List (Chain α × List (Report α))} (hl : ∀ x ∈ l, Holds x.1 x.2)
    (w : Case α) (hw : w = told isWarning {} (l.map fun x => (x.1, true))) :
    Holds w.fails (l.map (·.2)).flatten ∧ w.dropped = [] ∧
      (w.failed = true ↔ ∃ x ∈ l, ∃ t, x.2.head? = some t ∧ isWarning t.says = false) ∧
      (w.warning = true ↔ ∃ x ∈ l, ∃ t, x.2.head? = some t ∧ isWarning t.says = true) := by
  subst hw
  suffices H : ∀ (c : Case α) (us : List (Report α)), Holds c.fails us →
      let w := told isWarning c (l.map fun x => (x.1, true))
      Holds w.fails (us ++ (l.map (·.2)).flatten) ∧ w.dropped = c.dropped ∧
      (w.failed = true ↔ c.failed = true ∨ ∃ x ∈ l, ∃ t, x.2.head? = some t ∧ isWarning t.says = false) ∧
      (w.warning = true ↔ c.warning = true ∨ ∃ x ∈ l, ∃ t, x.2.head? = some t ∧ isWarning t.says = true) by
    simpa using H {} [] .nothing
  induction l with
  | nil => intro c us h; simpa [told] using h
  | cons x r ih =>
    intro c us h
    obtain ⟨f, ts⟩ := x
    have hx : Holds f ts := hl (f, ts) (by simp)
    have ih := ih fun y hy => hl y (List.mem_cons_of_mem _ hy)
    cases hx with
    | nothing =>
      have := ih c us h
      simpa [told, failing] using this
    | @more a c1 s1 because rest h1 h2 =>
      have hf : (failing isWarning c (.fail a c1 s1) true).fails = appendSubling c.fails (.fail a c1 s1) := by
        obtain ⟨fs, fd, wn, dr⟩ := c
        cases hw : isWarning a <;> cases fs <;> simp [failing, hw]
      have hd : (failing isWarning c (.fail a c1 s1) true).dropped = c.dropped := by
        obtain ⟨fs, fd, wn, dr⟩ := c
        cases hw : isWarning a <;> cases fs <;> simp [failing, hw]
      have h3 : (failing isWarning c (.fail a c1 s1) true).failed = (c.failed || !isWarning a) := by
        obtain ⟨fs, fd, wn, dr⟩ := c
        cases hw : isWarning a <;> cases fs <;> simp [failing, hw]
      have h4 : (failing isWarning c (.fail a c1 s1) true).warning = (c.warning || isWarning a) := by
        obtain ⟨fs, fd, wn, dr⟩ := c
        cases hw : isWarning a <;> cases fs <;> simp [failing, hw]
      have := ih (failing isWarning c (.fail a c1 s1) true) (us ++ .mk a because :: rest) (by rw [hf]; exact h.append (.more h1 h2))
      rw [hd, h3, h4] at this
      obtain ⟨p1, p2, p3, p4⟩ := this
      refine ⟨by simpa [told] using p1, by simpa [told] using p2, ?_, ?_⟩
      · simp only [List.map_cons]
        refine Iff.trans p3 ?_
        simp [Report.says, or_assoc]
      · simp only [List.map_cons]
        refine Iff.trans p4 ?_
        simp [Report.says, or_assoc]

example : (told (fun n => decide (5 < n)) {} [(.fail 1 (.fail 2 .null .null) .null, true), (.fail 9 .null .null, true)]).fails =
    .fail 1 (.fail 2 .null .null) (.fail 9 .null .null) := by decide

/-- When failures are not to be added (the checks at the end of a case, without `-c`), the first report is kept as it
is, and what comes later is deleted completely. -/
theorem C58_first (isWarning : α → Bool) {c : Case α} {f : Chain α} {ts us : List (Report α)} (hc : Holds c.fails ts)
    (hf : Holds f us) (w : Case α) (hw : w = failing isWarning c f false) :
    Holds w.fails (if ts.isEmpty then us else ts) ∧
      (∃ gone, w.dropped = c.dropped ++ gone ∧ Members (if ts.isEmpty then [] else us) gone) ∧
      w.failed = (c.failed || us.head?.any fun t => !isWarning t.says) ∧
      w.warning = (c.warning || us.head?.any fun t => isWarning t.says) := by
  subst hw
  cases hf with
  | nothing =>
    refine ⟨?_, ⟨[], by simp [failing], ?_⟩, by simp [failing], by simp [failing]⟩
    · cases ts with
      | nil => exact hc
      | cons t r => exact hc
    · cases ts <;> exact .nothing
  | @more a c1 s1 because rest h1 h2 =>
    have hd := destroy_members (Holds.more (a := a) h1 h2)
    obtain ⟨fs, fd, wn, dr⟩ := c
    simp only at hc
    cases hc with
    | nothing =>
      refine ⟨?_, ⟨[], ?_, .nothing⟩, ?_, ?_⟩
      · cases hw : isWarning a <;> simpa [failing, hw, appendSubling] using Holds.more h1 h2
      all_goals cases hw : isWarning a <;> simp [failing, hw, Report.says]
    | more g1 g2 =>
      refine ⟨?_, ⟨_, ?_, hd⟩, ?_, ?_⟩
      · cases hw : isWarning a <;> simpa [failing, hw] using Holds.more g1 g2
      all_goals cases hw : isWarning a <;> simp [failing, hw, Report.says]

example : (failing (fun _ => false) { fails := .fail 1 .null .null, failed := true } (.fail 2 (.fail 3 .null .null) .null) false).fails =
    .fail 1 .null .null := by decide
example : (failing (fun _ => false) { fails := .fail 1 .null .null, failed := true } (.fail 2 (.fail 3 .null .null) .null) false).dropped =
    [3, 2] := by decide

/-- What is printed for a case: one line for every failure, each directly below the one it explains and two
columns further right. -/
theorem C58_printed (text : α → List Char) {c : Case α} {ts : List (Report α)} (h : Holds c.fails ts) {rows : List (α × Nat)}
    (hr : Outline 0 ts rows) :
    printed text c = rows.map fun r => List.replicate (1 + 2 * r.2) ' ' ++ text r.1 := by
  have := outline_unique (foreach_outline h 0 0) hr
  subst this
  unfold printed margin
  rw [List.map_map]
  apply List.map_congr_left
  intro x _
  simp only [Function.comp_apply]
  congr 2
  omega

example : printed (fun n => if n = 1 then "a".toList else "b".toList) { fails := .fail 1 (.fail 2 .null .null) .null } =
    [" a".toList, "   b".toList] := by decide

/-- Failures below a failure that already has some do not become its further explanations: they end up below the
first of those.  The code only ever puts failures below a new one (`C58_below`). -/
theorem C58_below_again : ∃ (c f : Chain Nat) (ts : List (Report Nat)) (us : List (Report Nat)),
    Holds c [.mk 0 ts] ∧ Holds f us ∧ ¬ Holds (appendChild c f) [.mk 0 (ts ++ us)] := by
  refine ⟨.fail 0 (.fail 1 .null .null) .null, .fail 2 .null .null, [.mk 1 []], [.mk 2 []],
    .more (.more .nothing .nothing) .nothing, .more .nothing .nothing, ?_⟩
  intro h
  have g : Holds (appendChild (.fail 0 (.fail 1 .null .null) .null) (.fail 2 .null .null)) [Report.mk 0 [.mk 1 [.mk 2 []]]] :=
    .more (.more (.more .nothing .nothing) .nothing) .nothing
  have := holds_unique h g
  injection this with h1 h2
  injection h1 with h1 h2
  simp at h2

end H2.FailTree
