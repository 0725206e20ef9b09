import Verif.Debug.Spec
/-
C94: the debugger trap.
-/
namespace H2.Debug
open Spec

/-! ### Lemmas -/

theorem pieces_line (n : Nat) : ∀ (l acc : Text) (room : Nat) (s : Text), '\n' ∉ l → l.length < room →
    pieces n room acc (l ++ '\n' :: s) = (acc ++ l ++ ['\n']) :: pieces n n [] s
  | [], acc, room, s, _, h => by simp [pieces]
  | c :: l, acc, room, s, hn, h => by
    simp only [List.mem_cons, not_or, List.length_cons] at hn h
    rw [List.cons_append, pieces, if_neg (by rw [not_or]; exact ⟨Ne.symm hn.1, by omega⟩),
      pieces_line n l _ _ s hn.2 (by omega)]
    simp

theorem pieces_fields : ∀ (ls : List Text) (s : Text), (∀ l ∈ ls, '\n' ∉ l ∧ l.length ≤ 1021) →
    pieces 1022 1022 [] (ls.flatMap (· ++ ['\n']) ++ s) = ls.map (· ++ ['\n']) ++ pieces 1022 1022 [] s
  | [], s, _ => rfl
  | l :: ls, s, h => by
    have h1 := h l (by simp)
    have e : (l :: ls).flatMap (· ++ ['\n']) ++ s = l ++ '\n' :: (ls.flatMap (· ++ ['\n']) ++ s) := by simp
    rw [e, pieces_line _ _ _ _ _ h1.1 (by omega), pieces_fields ls s fun l hl => h l (by simp [hl])]
    simp

/-- The first piece begins with what has been read. -/
theorem pieces_acc (n : Nat) : ∀ (s acc : Text) (room : Nat), acc ≠ [] → ∃ t ps, pieces n room acc s = (acc ++ t) :: ps
  | [], acc, room, h => ⟨[], [], by simp [pieces, h]⟩
  | c :: s, acc, room, h => by
    rw [pieces]
    split
    · exact ⟨[c], _, rfl⟩
    · obtain ⟨t, ps, e⟩ := pieces_acc n s (acc ++ [c]) (room - 1) (by simp)
      exact ⟨c :: t, ps, by rw [e]; simp⟩

theorem pieces_start (n : Nat) : ∀ (p acc : Text) (room : Nat) (s : Text), '\n' ∉ p → p.length < room → acc ++ p ≠ [] →
    ∃ t ps, pieces n room acc (p ++ s) = (acc ++ p ++ t) :: ps
  | [], acc, room, s, _, _, h => by
    obtain ⟨t, ps, e⟩ := pieces_acc n s acc room (by simpa using h)
    exact ⟨t, ps, by simpa using e⟩
  | c :: p, acc, room, s, hn, hl, _ => by
    simp only [List.mem_cons, not_or, List.length_cons] at hn hl
    obtain ⟨t, ps, e⟩ := pieces_start n p (acc ++ [c]) (room - 1) s hn.2 (by omega) (by simp)
    refine ⟨t, ps, ?_⟩
    rw [List.cons_append, pieces, if_neg (by rw [not_or]; exact ⟨Ne.symm hn.1, by omega⟩), e]
    simp

theorem head_digit (n : Nat) : ∃ c r, Nat.toDigits 10 n = c :: r ∧ c.isDigit = true ∧ (c = '0' ↔ n = 0) := by
  induction n using Nat.strongRecOn with
  | ind n ih =>
    by_cases h : n < 10
    · rw [Nat.toDigits_of_lt_base h]
      have : ∀ d < 10, (Nat.digitChar d).isDigit = true ∧ (Nat.digitChar d = '0' ↔ d = 0) := by decide
      exact ⟨_, [], rfl, this n h⟩
    · obtain ⟨c, r, e, h1, h2⟩ := ih (n / 10) (by omega)
      rw [Nat.toDigits_of_base_le (by omega) (by omega), e]
      exact ⟨c, _, rfl, h1, h2.trans (by omega)⟩

theorem label_line : '\n' ∉ label := by decide

theorem label_length : label.length = 11 := by decide

theorem label_eq : "TracerPid:\t".toList = label := rfl

theorem field_find {l : Text} (h : Field l) : label.isPrefixOf (l ++ ['\n']) = false := by
  rw [Bool.eq_false_iff]
  intro hp
  rw [List.isPrefixOf_iff_prefix] at hp
  obtain ⟨v, hv⟩ := hp
  -- the label has no new line, so that it ends within the line
  rcases List.eq_nil_or_concat v with rfl | ⟨v', x, rfl⟩
  · have : '\n' ∈ label := by rw [← List.append_nil label, hv]; simp
    exact absurd this label_line
  · rw [List.concat_eq_append, ← List.append_assoc] at hv
    exact h.2.2 v' (List.append_inj_left' hv rfl).symm

/-! ### C94 -/

/-- Whatever the name of the process and its other fields are, the library believes that it is in a debugger exactly when
a process traces it. -/
theorem C94_traced (pid : Nat) (file : Text) (h : Status pid file) : inDebugging (some file) = true ↔ pid ≠ 0 := by
  obtain ⟨before, after, hb, rfl⟩ := h
  obtain ⟨c, r, e, h1, h2⟩ := head_digit pid
  have hd : (Nat.repr pid).toList = c :: r := Nat.toList_repr.trans e
  have hc : c ≠ '\n' ∧ c ≠ '\x00' := by
    constructor <;> (rintro rfl; exact absurd h1 (by decide))
  obtain ⟨t, ps, ep⟩ := pieces_start 1022 (label ++ [c]) [] 1022 (r ++ '\n' :: after)
    (by rw [List.mem_append, not_or]; exact ⟨label_line, by simpa using Ne.symm hc.1⟩)
    (by rw [List.length_append, label_length]; simp) (by simp)
  have ef : before.flatMap (· ++ ['\n']) ++ "TracerPid:\t".toList ++ (Nat.repr pid).toList ++ '\n' :: after =
      before.flatMap (· ++ ['\n']) ++ ((label ++ [c]) ++ (r ++ '\n' :: after)) := by
    rw [hd, label_eq]; simp
  have hf : (before.map (· ++ ['\n'])).find? (fun t => label.isPrefixOf t) = none := by
    rw [List.find?_eq_none]
    intro x hx
    obtain ⟨l, hl, rfl⟩ := List.mem_map.1 hx
    rw [field_find (hb l hl)]; simp
  have hp : label.isPrefixOf ([] ++ (label ++ [c]) ++ t) = true := by
    rw [List.isPrefixOf_iff_prefix]
    exact ⟨[c] ++ t, by simp⟩
  rw [inDebugging, ef, pieces_fields _ _ fun l hl => ⟨(hb l hl).1, (hb l hl).2.1⟩, List.find?_append, hf, Option.none_or, ep,
    List.find?_cons_of_pos hp]
  have : nonzero ([] ++ (label ++ [c]) ++ t) = (c != '\x00' && c != '0') := rfl
  simp only [this]
  rw [ne_eq, ← h2]
  simp [hc.2]

/-- The fields before it, of a process with a malicious name. -/
def fields : List Text :=
  ["Name:\tTracerPid:\t7", "Umask:\t0022", "State:\tR (running)", "Tgid:\t42", "Ngid:\t0", "Pid:\t42", "PPid:\t1"].map String.toList

/-- `/proc/self/status` as Linux writes it. -/
def status (pid : Nat) : Text :=
  fields.flatMap (· ++ ['\n']) ++ "TracerPid:\t".toList ++ (Nat.repr pid).toList ++ '\n' :: "Uid:\t0\t0\t0\t0\n".toList

theorem status_ok (pid : Nat) : Status pid (status pid) := by
  refine ⟨fields, "Uid:\t0\t0\t0\t0\n".toList, ?_, rfl⟩
  have h1 : ∀ l ∈ fields, '\n' ∉ l ∧ l.length ≤ 1021 := by decide
  have h2 : ∀ l ∈ fields, "TracerPid:\t".toList.isPrefixOf l = false := by decide
  intro l hl
  refine ⟨(h1 l hl).1, (h1 l hl).2, ?_⟩
  intro v e
  have : "TracerPid:\t".toList.isPrefixOf l = true := List.isPrefixOf_iff_prefix.2 ⟨v, e.symm⟩
  rw [h2 l hl] at this; cases this

example : Status 4711 (status 4711) ∧ inDebugging (some (status 4711)) = true ∧ inDebugging (some (status 0)) = false :=
  ⟨status_ok _, (C94_traced _ _ (status_ok 4711)).2 (by decide), by
    rw [Bool.eq_false_iff]; exact fun h => (C94_traced _ _ (status_ok 0)).1 h rfl⟩

/-- Without `-d` a failure is told to the case and nothing else happens. -/
theorem C94_off (n : Nat) (w : List (Option Text)) (asked : Bool) : run false n w asked = List.replicate n .told := by
  induction n with
  | zero => rfl
  | succ n ih => rw [run, List.replicate_succ, ← ih]; rfl

/-! What one failure does. -/

theorem attach_ask (w : List (Option Text)) (asked : Bool) :
    (attach w asked).1.count .ask + asked.toNat = (attach w asked).2.2.toNat := by
  induction w generalizing asked with
  | nil => simp [attach]
  | cons f w ih =>
    rw [attach]
    split
    · simp
    · have := ih true
      cases asked <;> simp_all

/-- A debugger is asked for if and only if it is remembered. -/
theorem attach_asked (w : List (Option Text)) (b : Bool) : (attach w b).2.2 = true ↔ b = true ∨ .ask ∈ (attach w b).1 := by
  have h2 := attach_ask w b
  rw [← List.count_pos_iff]
  generalize (attach w b).2.2 = c at h2
  cases b <;> cases c <;> simp only [Bool.toNat_true, Bool.toNat_false] at h2 <;>
    simp only [Bool.false_eq_true, false_or, true_or, false_iff, true_iff] <;> omega

theorem attach_false (w : List (Option Text)) (asked : Bool) :
    (attach w asked).2.2 = true ↔ asked = true ∨ .look false ∈ (attach w asked).1 := by
  induction w generalizing asked with
  | nil => simp [attach]
  | cons f w ih =>
    rw [attach]
    split
    · simp
    · have := ih true
      cases asked <;> simp_all

theorem attach_none (w : List (Option Text)) (asked : Bool) (h : (attach w asked).2.1 = none) :
    (attach w asked).1.count .trap = 0 ∧ (attach w asked).1.count .told = 0 ∧ (w.map inDebugging).count true = 0 ∧
      (attach w asked).1.filterMap (fun | .look b => some b | _ => none) = w.map inDebugging := by
  induction w generalizing asked with
  | nil => simp [attach]
  | cons f w ih =>
    rw [attach] at h ⊢
    split
    · rename_i hf; simp [hf] at h
    · rename_i hf
      have := ih true (by simpa [hf] using h)
      cases asked <;> simp_all

theorem attach_some (w : List (Option Text)) (asked : Bool) (v : List (Option Text)) (h : (attach w asked).2.1 = some v) :
    ∃ ev, (attach w asked).1 = ev ++ [.look true] ∧ ev.count .trap = 0 ∧ ev.count .told = 0 ∧
      ev.filterMap (fun | .look b => some b | _ => none) ++ true :: v.map inDebugging = w.map inDebugging ∧
      (w.map inDebugging).count true = (v.map inDebugging).count true + 1 := by
  induction w generalizing asked with
  | nil => simp [attach] at h
  | cons f w ih =>
    rw [attach] at h ⊢
    split
    · rename_i hf
      simp only [hf, if_true, Option.some.injEq] at h
      exact ⟨[], by simp, rfl, rfl, by simp [hf, h], by simp [hf, h]⟩
    · rename_i hf
      obtain ⟨ev, e1, e2, e3, e4, e5⟩ := ih true (by simpa [hf] using h)
      refine ⟨.look false :: (if asked then [] else [.ask]) ++ .wait :: ev, by simp [e1], ?_, ?_, ?_, ?_⟩
      · cases asked <;> simp [e2]
      · cases asked <;> simp [e3]
      · cases asked <;> simp_all
      · simp_all

/-- Each `b` comes directly after an `a`. -/
def After (a b : Ev) (l : List Ev) : Prop := ∀ p q, l = p ++ b :: q → ∃ p', p = p' ++ [a]

theorem After.append {a b : Ev} {x y : List Ev} (hx : After a b x) (hy : After a b y) : After a b (x ++ y) := by
  intro p q h
  rcases List.append_eq_append_iff.1 h with ⟨a', e1, e2⟩ | ⟨c', e1, e2⟩
  · obtain ⟨p', e⟩ := hy _ _ e2
    exact ⟨x ++ p', by rw [e1, e]; simp⟩
  · cases c' with
    | nil =>
      obtain ⟨p', e⟩ := hy [] q (by simpa using e2.symm)
      exact absurd e (by simp)
    | cons c c'' =>
      simp only [List.cons_append, List.cons.injEq] at e2
      obtain ⟨rfl, -⟩ := e2
      exact hx _ _ e1

theorem After.none {a b : Ev} {x : List Ev} (h : b ∉ x) : After a b x := by
  intro p q e
  exact absurd (by rw [e]; simp) h

theorem After.two {a b : Ev} (h : a ≠ b) : After a b [a, b] := by
  intro p q e
  match p, e with
  | [], e => simp only [List.nil_append, List.cons.injEq] at e; exact absurd e.1 h
  | [c], e => simp only [List.cons_append, List.nil_append, List.cons.injEq] at e; exact ⟨[], by rw [e.1]; rfl⟩
  | c :: d :: p, e => simp at e

theorem attach_after (w : List (Option Text)) (asked : Bool) : After (.look false) .ask (attach w asked).1 := by
  induction w generalizing asked with
  | nil => exact After.none (by simp [attach])
  | cons f w ih =>
    rw [attach]
    split
    · exact After.none (by simp)
    · cases asked
      · exact (After.two (a := .look false) (b := .ask) (by simp)).append ((After.none (x := [.wait]) (by simp)).append (ih true))
      · exact (After.none (x := [.look false, .wait]) (by simp)).append (ih true)

/-! Several failures. -/

theorem run_none {n : Nat} {w : List (Option Text)} {asked : Bool} (h : (attach w asked).2.1 = none) :
    run true (n + 1) w asked = (attach w asked).1 := by
  rw [run]
  generalize attach w asked = r at h
  obtain ⟨ev, o, b⟩ := r
  cases h
  rfl

theorem run_some {n : Nat} {w : List (Option Text)} {asked : Bool} {v} (h : (attach w asked).2.1 = some v) :
    run true (n + 1) w asked = (attach w asked).1 ++ .trap :: .told :: run true n v (attach w asked).2.2 := by
  rw [run]
  generalize attach w asked = r at h
  obtain ⟨ev, o, b⟩ := r
  cases h
  rfl

theorem run_induct (P : Nat → List (Option Text) → Bool → Prop) (h0 : ∀ w b, P 0 w b)
    (h1 : ∀ n w b, (attach w b).2.1 = none → P (n + 1) w b)
    (h2 : ∀ n w b v, (attach w b).2.1 = some v → P n v (attach w b).2.2 → P (n + 1) w b) (n w b) : P n w b := by
  induction n generalizing w b with
  | zero => exact h0 w b
  | succ n ih =>
    cases h : (attach w b).2.1 with
    | none => exact h1 n w b h
    | some v => exact h2 n w b v h (ih _ _)

/-- The user is asked at most once in a run, however many failures there are and whenever debuggers come and go. -/
theorem C94_once (n : Nat) (w : List (Option Text)) : (run true n w false).count .ask ≤ 1 := by
  have : ∀ b, (run true n w b).count .ask + b.toNat ≤ 1 := by
    intro b
    refine run_induct (fun n w b => (run true n w b).count .ask + b.toNat ≤ 1) ?_ ?_ ?_ n w b
    · intro w b; cases b <;> simp [run]
    · intro n w b h
      rw [run_none h, attach_ask]
      cases (attach w b).2.2 <;> simp
    · intro n w b v h ih
      rw [run_some h]
      have := attach_ask w b
      simp only [List.count_append, List.count_cons] at *
      simp at *
      omega
  exact this false

/-- Who is asked: the user is asked in a run exactly if some look found no debugger, and then directly after it. -/
theorem C94_asks (n : Nat) (w : List (Option Text)) :
    (.ask ∈ run true n w false ↔ .look false ∈ run true n w false) ∧ After (.look false) .ask (run true n w false) := by
  constructor
  · have : ∀ b, (b = true ∨ .ask ∈ run true n w b) ↔ (b = true ∨ .look false ∈ run true n w b) := by
      intro b
      refine run_induct (fun n w b => (b = true ∨ .ask ∈ run true n w b) ↔ (b = true ∨ .look false ∈ run true n w b)) ?_ ?_ ?_ n w b
      · intro w b; simp [run]
      · intro n w b h
        rw [run_none h, ← attach_false, ← attach_asked]
      · intro n w b v h ih
        rw [run_some h]
        have h1 := attach_false w b
        have h3 := attach_asked w b
        simp only [List.mem_append, List.mem_cons, reduceCtorEq, false_or]
        rw [← or_assoc, ← or_assoc, ← h1, ← h3]
        exact ih
    simpa using this false
  · refine run_induct (fun n w b => After (.look false) .ask (run true n w b)) ?_ ?_ ?_ n w false
    · intro w b; exact After.none (by simp [run])
    · intro n w b h; rw [run_none h]; exact attach_after w b
    · intro n w b v h ih
      rw [run_some h]
      exact (attach_after w b).append ((After.none (x := [.trap, .told]) (by simp)).append ih)

/-- The program stops for a debugger only directly after it has seen one, so that the breakpoint never kills it; and a
failure is told to the case only directly after such a stop. -/
theorem C94_trap (n : Nat) (w : List (Option Text)) :
    After (.look true) .trap (run true n w false) ∧ After .trap .told (run true n w false) := by
  constructor
  · refine run_induct (fun n w b => After (.look true) .trap (run true n w b)) ?_ ?_ ?_ n w false
    · intro w b; exact After.none (by simp [run])
    · intro n w b h
      rw [run_none h]
      exact After.none (List.count_eq_zero.1 (attach_none w b h).1)
    · intro n w b v h ih
      obtain ⟨ev, e1, e2, e3, -⟩ := attach_some w b v h
      rw [run_some h, e1, List.append_assoc]
      exact (After.none (List.count_eq_zero.1 e2)).append ((After.two (a := .look true) (b := .trap) (by simp)).append
        ((After.none (x := [.told]) (by simp)).append ih))
  · refine run_induct (fun n w b => After .trap .told (run true n w b)) ?_ ?_ ?_ n w false
    · intro w b; exact After.none (by simp [run])
    · intro n w b h
      rw [run_none h]
      exact After.none (List.count_eq_zero.1 (attach_none w b h).2.1)
    · intro n w b v h ih
      obtain ⟨ev, e1, e2, e3, -⟩ := attach_some w b v h
      rw [run_some h, e1, List.append_assoc]
      exact (After.none (List.count_eq_zero.1 e3)).append ((After.none (x := [.look true]) (by simp)).append
        ((After.two (a := .trap) (b := .told) (by simp)).append ih))

theorem looks_map : ∀ (ps : List Nat) (w : List (Option Text)), Looks ps w → w.map inDebugging = ps.map (· != 0)
  | [], [], _ => rfl
  | p :: ps, some f :: w, h => by
    have := C94_traced p f h.1
    rw [List.map_cons, List.map_cons, looks_map ps w h.2]
    congr 1
    rw [Bool.eq_iff_iff, this]; simp
  | [], _ :: _, h => h.elim
  | _ :: _, [], h => h.elim
  | _ :: _, none :: _, h => h.elim

/-- How many failures get through: one for each moment at which a debugger is there. -/
theorem C94_told (n : Nat) (ps : List Nat) (w : List (Option Text)) (h : Looks ps w) :
    (run true n w false).count .told = min n (traced ps) ∧ (run true n w false).count .trap = min n (traced ps) := by
  have ht : traced ps = (w.map inDebugging).count true := by
    rw [looks_map ps w h, traced]
    clear h
    induction ps with
    | nil => rfl
    | cons p ps ih =>
      by_cases hp : p = 0
      · simpa [hp] using ih
      · have : (p != 0) = true := by simpa using hp
        rw [List.map_cons, this, List.count_cons_self, ← ih]
        simp [hp]
  rw [ht]
  clear ht h
  refine run_induct (fun n w b => (run true n w b).count .told = min n ((w.map inDebugging).count true) ∧
    (run true n w b).count .trap = min n ((w.map inDebugging).count true)) ?_ ?_ ?_ n w false
  · intro w b; simp [run]
  · intro n w b h
    obtain ⟨h1, h2, h3, -⟩ := attach_none w b h
    rw [run_none h, h1, h2, h3]; simp
  · intro n w b v h ih
    obtain ⟨ev, e1, e2, e3, -, e5⟩ := attach_some w b v h
    rw [run_some h, e1, e5]
    simp only [List.count_append, List.count_cons, e2, e3, ih]
    simp

/-- The looks of a run are at the moments given, in order. -/
theorem C94_looks (n : Nat) (ps : List Nat) (w : List (Option Text)) (h : Looks ps w) :
    (run true n w false).filterMap (fun | .look b => some b | _ => none) <+: ps.map (· != 0) := by
  rw [← looks_map ps w h]
  clear h
  refine run_induct (fun n w b => (run true n w b).filterMap (fun | .look b => some b | _ => none) <+: w.map inDebugging) ?_ ?_ ?_ n w false
  · intro w b; simp [run]
  · intro n w b h
    rw [run_none h, (attach_none w b h).2.2.2]
    exact List.prefix_rfl
  · intro n w b v h ih
    obtain ⟨ev, e1, e2, e3, e4, -⟩ := attach_some w b v h
    rw [run_some h, e1, ← e4]
    simpa [List.filterMap_append] using ih

/-- "A failure without a debugger asks for one" is false: if the debugger has gone after the first failure, the next one
waits without end and without a word. -/
theorem C94_again_false (n k : Nat) :
    run true (n + 2) (some (status 0) :: some (status 4711) :: List.replicate k (some (status 0))) false =
      [.look false, .ask, .wait, .look true, .trap, .told] ++ (List.replicate k [.look false, .wait]).flatten := by
  have h0 : inDebugging (some (status 0)) = false := by
    rw [Bool.eq_false_iff]; exact fun h => (C94_traced _ _ (status_ok 0)).1 h rfl
  have h1 : inDebugging (some (status 4711)) = true := (C94_traced _ _ (status_ok 4711)).2 (by decide)
  have h2 : ∀ k, attach (List.replicate k (some (status 0))) true = ((List.replicate k [.look false, .wait]).flatten, none, true) := by
    intro k
    induction k with
    | zero => rfl
    | succ k ih => rw [List.replicate_succ, attach, h0, ih]; simp [List.replicate_succ]
  rw [run, attach, h0, attach, h1]
  simp [run, h2]

/-- "The prompt names the debugger that is started" is false on every system. -/
theorem C94_name_false : ∀ os, prompted os ≠ started os := by
  intro os; cases os <;> decide

/-- Two failures: nobody is there, a debugger comes, it is still there at the second failure. -/
example : Looks [0, 0, 4711, 4711] [some (status 0), some (status 0), some (status 4711), some (status 4711)] ∧
    run true 2 [some (status 0), some (status 0), some (status 4711), some (status 4711)] false =
      [.look false, .ask, .wait, .look false, .wait, .look true, .trap, .told, .look true, .trap, .told] :=
  ⟨⟨status_ok _, status_ok _, status_ok _, status_ok _, trivial⟩, by decide +kernel⟩

end H2.Debug
