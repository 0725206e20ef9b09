import Verif.Dns.Spec
/-
C43: what name resolution answers.
-/
namespace H2.Dns

variable {inet : Inet}

theorem hostName_loop (args : List (Option Text)) (host : Text) (hh : 2 ≤ host.length) (h2 : ∀ n ∈ names inet args, 2 ≤ n.length) :
    (hostName inet args host = host ∧ ∀ n ∈ names inet args, host.length ≤ n.length) ∨
    ∃ before after, names inet args = before ++ hostName inet args host :: after ∧ (hostName inet args host).length < host.length ∧
      (∀ n ∈ before, (hostName inet args host).length < n.length) ∧ ∀ n ∈ after, (hostName inet args host).length ≤ n.length := by
  induction args generalizing host with
  | nil => exact .inl ⟨rfl, by simp [names]⟩
  | cons a args ih =>
    cases a with
    | none => exact ih host hh h2
    | some p =>
      have hn : names inet (some p :: args) = if inet p = none then p :: names inet args else names inet args := by
        simp only [names, List.filterMap_cons, id, List.filter_cons]
        by_cases hp : inet p = none <;> simp [hp]
      by_cases hp : inet p = none
      · rw [if_pos hp] at hn
        rw [hn] at h2 ⊢
        have h2' : ∀ n ∈ names inet args, 2 ≤ n.length := fun n hn => h2 n (by simp [hn])
        by_cases hlt : p.length < host.length
        · have e : hostName inet (some p :: args) host = hostName inet args p := by
            rw [hostName, if_pos (by simp [hp, hlt])]
          rw [e]
          right
          rcases ih p (h2 p (by simp)) h2' with ⟨g1, g2⟩ | ⟨b, a, g1, g2, g3, g4⟩
          · rw [g1]
            exact ⟨[], names inet args, rfl, hlt, by simp, g2⟩
          · refine ⟨p :: b, a, by rw [g1]; rfl, by omega, ?_, g4⟩
            intro n hn'
            rcases List.mem_cons.1 hn' with rfl | hn'
            · exact g2
            · exact g3 n hn'
        · have e : hostName inet (some p :: args) host = hostName inet args host := by
            rw [hostName, if_neg (by simp [hp]; omega)]
          rw [e]
          rcases ih host hh h2' with ⟨g1, g2⟩ | ⟨b, a, g1, g2, g3, g4⟩
          · left
            refine ⟨g1, ?_⟩
            intro n hn'
            rcases List.mem_cons.1 hn' with rfl | hn'
            · omega
            · exact g2 n hn'
          · right
            refine ⟨p :: b, a, by rw [g1]; rfl, g2, ?_, g4⟩
            intro n hn'
            rcases List.mem_cons.1 hn' with rfl | hn'
            · omega
            · exact g3 n hn'
      · rw [if_neg hp] at hn
        rw [hn] at h2 ⊢
        have e : hostName inet (some p :: args) host = hostName inet args host := by
          rw [hostName, if_neg]
          cases h : inet p with
          | none => exact absurd h hp
          | some x => simp
        rw [e]
        exact ih host hh h2

/-- **C43**: a setting is for the first of the shortest names given (names of one letter aside), or for all names. -/
theorem C43_host (inet : Inet) (args : List (Option Text)) (h2 : ∀ n ∈ names inet args, 2 ≤ n.length) : IsHost inet args (hostName inet args ['*']) := by
  induction args with
  | nil => exact .inl ⟨rfl, rfl⟩
  | cons a args ih =>
    cases a with
    | none => exact ih h2
    | some p =>
      have hn : names inet (some p :: args) = if inet p = none then p :: names inet args else names inet args := by
        simp only [names, List.filterMap_cons, id, List.filter_cons]
        by_cases hp : inet p = none <;> simp [hp]
      by_cases hp : inet p = none
      · rw [if_pos hp] at hn
        have e : hostName inet (some p :: args) ['*'] = hostName inet args p := by
          rw [hostName, if_pos (by simp [hp])]
        unfold IsHost
        rw [e, hn]
        rw [hn] at h2
        right
        rcases hostName_loop (inet := inet) args p (h2 p (by simp)) (fun n hn => h2 n (List.mem_cons_of_mem _ hn)) with ⟨g1, g2⟩ | ⟨b, a, g1, g2, g3, g4⟩
        · rw [g1]
          exact ⟨[], names inet args, rfl, by simp, g2⟩
        · refine ⟨p :: b, a, by rw [g1]; rfl, ?_, g4⟩
          intro n hn'
          rcases List.mem_cons.1 hn' with rfl | hn'
          · exact g2
          · exact g3 n hn'
      · rw [if_neg hp] at hn
        have e : hostName inet (some p :: args) ['*'] = hostName inet args ['*'] := by
          rw [hostName, if_neg]
          cases h : inet p with
          | none => exact absurd h hp
          | some x => simp
        unfold IsHost
        rw [e, hn]
        rw [hn] at h2
        exact ih h2

/-- **C43**: it resolves to everything else given, in order. -/
theorem C43_resolves (args : List (Option Text)) (host : Text) :
    resolvesOf args host = (args.filterMap id).filter fun p => p ≠ host := by
  induction args with
  | nil => rfl
  | cons a args ih =>
    cases a with
    | none => exact ih
    | some p =>
      have e : resolvesOf (some p :: args) host = if p ≠ host then p :: resolvesOf args host else resolvesOf args host := by
        by_cases h : p = host
        · rw [if_neg (by simp [h])]; simp [resolvesOf, h]
        · rw [if_pos h]; simp [resolvesOf, h]
      rw [e, ih]
      simp only [List.filterMap_cons, id, List.filter_cons]
      by_cases h : p = host <;> simp [h]

/-- Digits and dots are addresses. -/
def digits : Inet := fun p => if p.all fun c => c.isDigit || c == '.' then some p.length else none

example : hostName digits [some "www.h2unit.com".toList, none, some "1.2.3.4".toList, some "h2.com".toList, some "g2.com".toList] ['*'] = "h2.com".toList ∧
    resolvesOf [some "www.h2unit.com".toList, none, some "1.2.3.4".toList, some "h2.com".toList] "h2.com".toList =
      ["www.h2unit.com".toList, "1.2.3.4".toList] := by decide +kernel
/-- A name of one letter gives way to any later one. -/
example : hostName digits [some "a".toList, some "long.name".toList] ['*'] = "long.name".toList := by decide +kernel

/-! ### Which setting answers -/

/-- The domain of a setting. -/
def domainOf (inet : Inet) (i : Nat) (owner : Option Nat) (args : List (Option Text)) : Domain :=
  ⟨i, owner, hostName inet args ['*'], resolvesOf args (hostName inet args ['*'])⟩

structure Inv (inet : Inet) (s : St) (ops : List Op) : Prop where
  now : s.now = ops.length
  current : ∀ c, s.current = some c ↔ Current ops ops.length c
  order : s.dnses.Pairwise fun a b => b.id < a.id
  sound : ∀ d ∈ s.dnses, ∃ args, Live ops d.id args ∧ d = domainOf inet d.id d.owner args ∧ ∀ c, d.owner = some c ↔ Current ops d.id c
  complete : ∀ i args, Live ops i args → ∃ d ∈ s.dnses, d.id = i

theorem get_snoc (ops : List Op) (o : Op) : (ops ++ [o])[ops.length]? = some o := by simp
theorem get_old {ops : List Op} {k : Nat} (h : k < ops.length) (o : Op) : (ops ++ [o])[k]? = ops[k]? := List.getElem?_append_left h
theorem lt_of_get {ops : List Op} {k : Nat} {o : Op} (h : ops[k]? = some o) : k < ops.length := (List.getElem?_eq_some_iff.1 h).1

theorem current_old {ops : List Op} {i c : Nat} (hi : i ≤ ops.length) (o : Op) : Current (ops ++ [o]) i c ↔ Current ops i c := by
  constructor
  · rintro ⟨j, h1, h2, h3⟩
    exact ⟨j, h1, by rw [← get_old (by omega) o]; exact h2, fun k c' g1 g2 => by rw [← get_old (by omega) o]; exact h3 k c' g1 g2⟩
  · rintro ⟨j, h1, h2, h3⟩
    exact ⟨j, h1, by rw [get_old (by omega) o]; exact h2, fun k c' g1 g2 => by rw [get_old (by omega) o]; exact h3 k c' g1 g2⟩

theorem current_unique {ops : List Op} {i c c' : Nat} (h : Current ops i c) (h' : Current ops i c') : c = c' := by
  obtain ⟨j, h1, h2, h3⟩ := h
  obtain ⟨j', h1', h2', h3'⟩ := h'
  rcases Nat.lt_trichotomy j j' with g | g | g
  · exact absurd h2' (h3 j' c' g h1')
  · subst g; rw [h2] at h2'; simpa using h2'
  · exact absurd h2 (h3' j c g h1)

theorem current_snoc {ops : List Op} {c : Nat} (o : Op) : Current (ops ++ [o]) (ops.length + 1) c ↔
    o = .begins c ∨ (∀ c', o ≠ .begins c') ∧ Current ops ops.length c := by
  constructor
  · rintro ⟨j, h1, h2, h3⟩
    by_cases e : j = ops.length
    · subst e
      rw [get_snoc] at h2
      left; simpa using h2
    · right
      refine ⟨?_, j, by omega, by rw [← get_old (by omega) o]; exact h2, fun k c' g1 g2 => by rw [← get_old (by omega) o]; exact h3 k c' g1 (by omega)⟩
      rintro c' rfl
      exact h3 ops.length c' (by omega) (by omega) (get_snoc _ _)
  · rintro (rfl | ⟨h, j, h1, h2, h3⟩)
    · exact ⟨ops.length, by omega, get_snoc _ _, fun k c' g1 g2 => by omega⟩
    · refine ⟨j, by omega, by rw [get_old (by omega) o]; exact h2, fun k c' g1 g2 => ?_⟩
      by_cases e : k = ops.length
      · subst e; rw [get_snoc]; simpa using h c'
      · rw [get_old (by omega) o]; exact h3 k c' g1 (by omega)

theorem live_snoc {ops : List Op} {i : Nat} {args : List (Option Text)} (o : Op) : Live (ops ++ [o]) i args ↔
    (Live ops i args ∧ ∀ c, Current ops i c → o ≠ .ends c) ∨ i = ops.length ∧ o = .set args ∧ args ≠ [] := by
  constructor
  · rintro ⟨h1, h2, h3⟩
    by_cases e : i = ops.length
    · subst e
      rw [get_snoc] at h1
      right; exact ⟨rfl, by simpa using h1, h2⟩
    · left
      have hi : i < ops.length := by
        have := lt_of_get h1
        simp at this; omega
      rw [get_old hi] at h1
      refine ⟨⟨h1, h2, fun c k hc hk => ?_⟩, fun c hc => ?_⟩
      · intro g
        have hk' := lt_of_get g
        exact h3 c k ((current_old (by omega) o).2 hc) hk (by rw [get_old hk']; exact g)
      · rintro rfl
        exact h3 c ops.length ((current_old (by omega) _).2 hc) hi (get_snoc _ _)
  · rintro (⟨⟨h1, h2, h3⟩, h4⟩ | ⟨rfl, rfl, h2⟩)
    · have hi := lt_of_get h1
      refine ⟨by rw [get_old hi]; exact h1, h2, fun c k hc hk => ?_⟩
      have hc' := (current_old (by omega) o).1 hc
      by_cases e : k = ops.length
      · subst e; rw [get_snoc]; simpa using h4 c hc'
      · by_cases hlt : k < ops.length
        · rw [get_old hlt]; exact h3 c k hc' hk
        · rw [List.getElem?_eq_none (by simp; omega)]; simp
    · refine ⟨get_snoc _ _, h2, fun c k hc hk => ?_⟩
      rw [List.getElem?_eq_none (by simp; omega)]; simp

theorem inv_next {s : St} {ops : List Op} (I : Inv inet s ops) (o : Op) : Inv inet (next inet s o) (ops ++ [o]) := by
  have hl : (ops ++ [o]).length = ops.length + 1 := by simp
  -- what is kept
  have old : ∀ d ∈ s.dnses, (∀ c, d.owner = some c → o ≠ .ends c) → ∃ args, Live (ops ++ [o]) d.id args ∧ d = domainOf inet d.id d.owner args ∧
      ∀ c, d.owner = some c ↔ Current (ops ++ [o]) d.id c := by
    intro d hd ho
    obtain ⟨args, h1, h2, h3⟩ := I.sound d hd
    refine ⟨args, (live_snoc o).2 (.inl ⟨h1, fun c hc => ho c ((h3 c).2 hc)⟩), h2, fun c => ?_⟩
    rw [h3, current_old (by have := lt_of_get h1.1; omega) o]
  cases o with
  | set args =>
    have hc : ∀ c, s.current = some c ↔ Current (ops ++ [.set args]) (ops.length + 1) c := by
      intro c; rw [current_snoc, I.current]; simp
    by_cases ha : args = []
    · subst ha
      have e : next inet s (.set []) = { s with now := s.now + 1 } := by simp [next, step]
      rw [e]
      refine ⟨by rw [hl, ← I.now], by rw [hl]; exact hc, I.order, fun d hd => old d hd (by simp), fun i args h => ?_⟩
      rcases (live_snoc _).1 h with ⟨h, -⟩ | ⟨-, h1, h2⟩
      · exact I.complete i args h
      · simp at h1; exact absurd h1 h2
    · have e : next inet s (.set args) = { s with now := s.now + 1, dnses := domainOf inet s.now s.current args :: s.dnses } := by
        simp [next, step, ha, domainOf]
      rw [e]
      refine ⟨by rw [hl, ← I.now], by rw [hl]; exact hc, ?_, fun d hd => ?_, fun i args' h => ?_⟩
      · rw [List.pairwise_cons]
        refine ⟨fun d hd => ?_, I.order⟩
        obtain ⟨args', h1, -⟩ := I.sound d hd
        show d.id < s.now
        rw [I.now]; exact lt_of_get h1.1
      · rcases List.mem_cons.1 hd with rfl | hd
        · refine ⟨args, (live_snoc _).2 (.inr ⟨I.now, rfl, ha⟩), rfl, fun c => ?_⟩
          show s.current = some c ↔ Current (ops ++ [.set args]) s.now c
          rw [I.now, current_old (Nat.le_refl _), I.current]
        · exact old d hd (by simp)
      · rcases (live_snoc _).1 h with ⟨h, -⟩ | ⟨h1, -, -⟩
        · obtain ⟨d, hd, e⟩ := I.complete i args' h
          exact ⟨d, by simp [hd], e⟩
        · exact ⟨_, List.mem_cons_self, by rw [h1, ← I.now]; rfl⟩
  | begins c0 =>
    refine ⟨by rw [hl, ← I.now]; rfl, fun c => ?_, I.order, fun d hd => old d hd (by simp), fun i args h => ?_⟩
    · rw [hl, current_snoc]
      simp only [next, step, Option.some.injEq, Op.begins.injEq]
      constructor
      · intro h; exact .inl h
      · rintro (h | ⟨h, -⟩)
        · exact h
        · exact absurd rfl (h c0)
    · rcases (live_snoc _).1 h with ⟨h, -⟩ | ⟨-, h1, -⟩
      · exact I.complete i args h
      · simp at h1
  | ends c0 =>
    refine ⟨by rw [hl, ← I.now]; rfl, fun c => ?_, I.order.sublist List.filter_sublist, fun d hd => ?_, fun i args h => ?_⟩
    · rw [hl, current_snoc]
      simp only [next, step]
      rw [I.current]; simp
    · simp only [next, step, List.mem_filter, decide_eq_true_eq] at hd
      apply old d hd.1
      rintro c hc e
      simp at e
      subst e
      exact hd.2 hc
    · rcases (live_snoc _).1 h with ⟨h, h'⟩ | ⟨-, h1, -⟩
      · obtain ⟨d, hd, rfl⟩ := I.complete i args h
        refine ⟨d, ?_, rfl⟩
        simp only [next, step, List.mem_filter, decide_eq_true_eq]
        refine ⟨hd, fun e => ?_⟩
        obtain ⟨args', -, -, h3⟩ := I.sound d hd
        exact h' c0 ((h3 c0).1 e) rfl
      · simp at h1

theorem inv_run (inet : Inet) (ops : List Op) : Inv inet (run inet ops) ops := by
  have : ∀ n, ∀ ops : List Op, ops.length = n → Inv inet (run inet ops) ops := by
    intro n
    induction n with
    | zero =>
      intro ops h
      rw [List.length_eq_zero_iff.1 h]
      refine ⟨rfl, fun c => ?_, by simp [run], by simp [run], ?_⟩
      · simp only [run, List.foldl_nil]
        constructor
        · intro h; simp at h
        · rintro ⟨j, h, -⟩; simp at h
      · rintro i args ⟨h, -⟩; simp at h
    | succ n ih =>
      intro ops h
      have hne : ops ≠ [] := by intro e; simp [e] at h
      have e : run inet ops = next inet (run inet ops.dropLast) (ops.getLast hne) := by
        conv => lhs; rw [← List.dropLast_concat_getLast hne]
        simp [run, List.foldl_append]
      have := inv_next (ih ops.dropLast (by simp [h])) (ops.getLast hne)
      rw [List.dropLast_concat_getLast hne] at this
      rw [e]; exact this
  exact this _ ops rfl

/-- **C43**: the newest setting that holds and is for the name, or for all names, answers. -/
theorem C43_newest (inet : Inet) (ops : List Op) (hostname : Text) (d : Domain) (h : find (run inet ops) hostname = some d) :
    ∃ i args, Live ops i args ∧ d.name = hostName inet args ['*'] ∧ d.resolves = resolvesOf args d.name ∧
      (d.name = hostname ∨ d.name = ['*']) ∧
      ∀ j args', i < j → Live ops j args' → hostName inet args' ['*'] ≠ hostname ∧ hostName inet args' ['*'] ≠ ['*'] := by
  have I := inv_run inet ops
  obtain ⟨h1, before, after, h2, h3⟩ := List.find?_eq_some_iff_append.1 h
  obtain ⟨args, g1, g2, -⟩ := I.sound d (by rw [h2]; simp)
  refine ⟨d.id, args, g1, by rw [g2]; rfl, by rw [g2]; rfl, ?_, ?_⟩
  · simp only [Bool.or_eq_true, beq_iff_eq] at h1
    exact h1.symm
  · intro j args' hj hl
    obtain ⟨d', hd', rfl⟩ := I.complete j args' hl
    have ho := I.order
    rw [h2] at hd' ho
    obtain ⟨args'', g1', g2', -⟩ := I.sound d' (by rw [h2]; exact hd')
    have ea : args'' = args' := by
      have := g1'.1.symm.trans hl.1
      simpa using this
    subst ea
    rw [List.pairwise_append, List.pairwise_cons] at ho
    rcases List.mem_append.1 hd' with hm | hm
    · have hno := h3 d' hm
      have en : d'.name = hostName inet args'' ['*'] := by rw [g2']; rfl
      rw [← en]
      simp only [Bool.not_eq_true', Bool.or_eq_false_iff, beq_eq_false_iff_ne] at hno
      exact ⟨hno.2, hno.1⟩
    · rcases List.mem_cons.1 hm with rfl | hm
      · omega
      · have := ho.2.1.1 d' hm
        omega

/-- **C43**: there is no answer only when no setting that holds is for the name: those of cases that have ended are gone. -/
theorem C43_none (inet : Inet) (ops : List Op) (hostname : Text) (h : find (run inet ops) hostname = none) (i : Nat) (args : List (Option Text))
    (hl : Live ops i args) : hostName inet args ['*'] ≠ hostname ∧ hostName inet args ['*'] ≠ ['*'] := by
  have I := inv_run inet ops
  obtain ⟨d, hd, rfl⟩ := I.complete i args hl
  obtain ⟨args', g1, g2, -⟩ := I.sound d hd
  have ea : args' = args := by
    have := g1.1.symm.trans hl.1
    simpa using this
  subst ea
  have := List.find?_eq_none.1 h d hd
  have en : d.name = hostName inet args' ['*'] := by rw [g2]; rfl
  rw [← en]
  simp only [Bool.or_eq_true, beq_iff_eq, not_or] at this
  exact ⟨this.2, this.1⟩

/-- What is set in a case is gone once it has ended. -/
theorem C43_forgotten (ops : List Op) (i c k : Nat) (args : List (Option Text)) (hc : Current ops i c) (hk : i < k) (he : ops[k]? = some (.ends c)) :
    ¬ Live ops i args := fun h => h.2.2 c k hc hk he

/-- Two cases: the setting made before them is back after the second has ended; the name of the first case is gone. -/
def sample : List Op :=
  [.set [some "127.0.0.1".toList], .begins 7, .set [some "h2.com".toList, some "1.1.1.1".toList], .ends 7, .begins 8,
    .set [some "www.com".toList, some "3.3.3.3".toList], .set [some "2.2.2.2".toList]]
example : (find (run digits sample) "h2.com".toList).map (·.id) = some 6 ∧ (find (run digits (sample ++ [.ends 8])) "h2.com".toList).map (·.id) = some 0 ∧
    (find (run digits (sample.take 3)) "h2.com".toList).map (·.id) = some 2 ∧ (find (run digits (sample.take 6)) "www.com".toList).map (·.id) = some 5 ∧
    find (run digits (sample.drop 1 |>.take 5)) "h2.com".toList = none := by decide +kernel

/-! ### What is answered -/

theorem infos_some (hints : Option Hints) (l : List Text) : ∀ i, i + l.length ≤ 32 → infos inet hints i l =
    some (l.map fun r => match inet r with
      | some a => ⟨some a, none, hints.getD .default⟩
      | none => ⟨none, some r, hints.getD .default⟩) := by
  induction l with
  | nil => intro i _; rfl
  | cons r l ih =>
    intro i hi
    simp at hi
    rw [infos, if_pos (by omega), ih (i + 1) (by omega)]
    rfl

theorem infos_none (hints : Option Hints) (l : List Text) : ∀ i, 32 < i + l.length → i ≤ 32 → infos inet hints i l = none := by
  induction l with
  | nil => intro i h1 h2; simp at h1; omega
  | cons r l ih =>
    intro i h1 h2
    simp at h1
    rw [infos]
    split
    · rw [ih (i + 1) (by omega) (by omega)]; rfl
    · rfl

/-- **C43**: `getaddrinfo` answers with everything the setting resolves to, in order: addresses as addresses, other names as names;
with the family, type and protocol asked for, or those of TCP. More than 32 overrun the answer. -/
theorem C43_getaddrinfo (s : St) (hostname : Text) (hints : Option Hints) (d : Domain) (h : find s hostname = some d) :
    (d.resolves.length ≤ 32 → getaddrinfo inet s hostname hints = some (some (d.resolves.map fun r => match inet r with
      | some a => ⟨some a, none, hints.getD ⟨2, 1, 6⟩⟩
      | none => ⟨none, some r, hints.getD ⟨2, 1, 6⟩⟩))) ∧
    (32 < d.resolves.length → getaddrinfo inet s hostname hints = some none) := by
  unfold getaddrinfo
  rw [h]
  simp only [Option.map_some, Option.some.injEq]
  exact ⟨fun hl => infos_some hints d.resolves 0 (by omega), fun hl => infos_none hints d.resolves 0 (by omega) (by omega)⟩

/-- Without a setting there is no answer. -/
theorem C43_unknown (s : St) (hostname : Text) (hints : Option Hints) (h : find s hostname = none) :
    getaddrinfo inet s hostname hints = none ∧ gethostbyname inet s hostname = none := by
  unfold getaddrinfo gethostbyname; rw [h]; exact ⟨rfl, rfl⟩

theorem readArray_eq {α : Type} (l : List α) (r : List (Option α)) : readArray (l.map some ++ none :: r) = some l := by
  induction l with
  | nil => rfl
  | cons x l ih => simp only [List.map_cons, List.cons_append, readArray, ih]; rfl

theorem set_fill {α : Type} (l : List α) (x : α) (n : Nat) :
    (l.map some ++ List.replicate (n + 1) none).set l.length (some x) = (l ++ [x]).map some ++ List.replicate n none := by
  rw [List.set_append_right _ _ (by simp)]
  simp [List.replicate_succ]

theorem hostLoop_eq (l : List Text) : ∀ (xs : List Addr) (ns : List Text),
    xs.length + (l.filterMap inet).length ≤ 31 → ns.length + (l.filter fun r => inet r = none).length ≤ 31 →
    xs.length + ns.length + l.length ≤ 32 →
    hostLoop inet l (xs.length + ns.length) xs.length ns.length
      ⟨xs.map some ++ List.replicate (32 - xs.length) none, ns.map some ++ List.replicate (32 - ns.length) none⟩ =
    some ⟨(xs ++ l.filterMap inet).map some ++ List.replicate (32 - (xs ++ l.filterMap inet).length) none,
      (ns ++ l.filter fun r => inet r = none).map some ++ List.replicate (32 - (ns ++ l.filter fun r => inet r = none).length) none⟩ := by
  induction l with
  | nil => intro xs ns _ _ _; simp [hostLoop]
  | cons r l ih =>
    intro xs ns h1 h2 h3
    simp at h3
    rw [hostLoop, if_neg (by omega)]
    cases hr : inet r with
    | some a =>
      have e1 : (r :: l).filterMap inet = a :: l.filterMap inet := by simp [hr]
      have e2 : (r :: l).filter (fun r => inet r = none) = l.filter fun r => inet r = none := by simp [hr]
      rw [e1] at h1 ⊢
      rw [e2] at h2 ⊢
      simp at h1
      simp only
      rw [if_pos (by omega)]
      have e3 : 32 - xs.length = (31 - xs.length) + 1 := by omega
      have := ih (xs ++ [a]) ns (by simp; omega) h2 (by simp; omega)
      have e4 : (xs ++ [a]).length + ns.length = xs.length + ns.length + 1 := by simp; omega
      have e5 : (xs ++ [a]).length = xs.length + 1 := by simp
      have e6 : 32 - (xs.length + 1) = 31 - xs.length := by omega
      rw [e4, e5, e6] at this
      rw [e3, set_fill, this]
      simp
    | none =>
      have e1 : (r :: l).filterMap inet = l.filterMap inet := by simp [hr]
      have e2 : (r :: l).filter (fun r => inet r = none) = r :: l.filter fun r => inet r = none := by simp [hr]
      rw [e1] at h1 ⊢
      rw [e2] at h2 ⊢
      simp only [List.length_cons] at h2
      simp only
      rw [if_pos (by omega)]
      have e3 : 32 - ns.length = (31 - ns.length) + 1 := by omega
      have := ih xs (ns ++ [r]) h1 (by simp only [List.length_append, List.length_cons, List.length_nil]; omega) (by simp; omega)
      have e4 : xs.length + (ns ++ [r]).length = xs.length + ns.length + 1 := by simp; omega
      have e5 : (ns ++ [r]).length = ns.length + 1 := by simp
      have e6 : 32 - (ns.length + 1) = 31 - ns.length := by omega
      rw [e4, e5, e6] at this
      rw [e3, set_fill, this]
      simp

/-- **C43**: `gethostbyname` answers with all addresses and all other names the setting resolves to, in order (fewer than 32 of
each, at most 32 together). -/
theorem C43_gethostbyname (inet : Inet) (s : St) (hostname : Text) (d : Domain) (h : find s hostname = some d)
    (ha : (d.resolves.filterMap inet).length < 32) (hn : (d.resolves.filter fun r => inet r = none).length < 32) (hl : d.resolves.length ≤ 32) :
    ∃ host, gethostbyname inet s hostname = some (some host) ∧ readArray host.addrs = some (d.resolves.filterMap inet) ∧
      readArray host.aliases = some (d.resolves.filter fun r => inet r = none) := by
  have := hostLoop_eq (inet := inet) d.resolves [] [] (by simp; omega) (by simp only [List.length_nil]; omega) (by simpa using hl)
  simp only [List.nil_append] at this
  refine ⟨⟨(d.resolves.filterMap inet).map some ++ List.replicate (32 - (d.resolves.filterMap inet).length) none,
    (d.resolves.filter fun r => inet r = none).map some ++ List.replicate (32 - (d.resolves.filter fun r => inet r = none).length) none⟩, ?_, ?_, ?_⟩
  · unfold gethostbyname
    rw [h]
    simp only [Option.map_some, Option.some.injEq]
    exact this
  · obtain ⟨n, hn'⟩ : ∃ n, 32 - (d.resolves.filterMap inet).length = n + 1 := ⟨31 - (d.resolves.filterMap inet).length, by omega⟩
    rw [hn', List.replicate_succ]
    exact readArray_eq _ _
  · obtain ⟨n, hn'⟩ : ∃ n, 32 - (d.resolves.filter fun r => inet r = none).length = n + 1 :=
      ⟨31 - (d.resolves.filter fun r => inet r = none).length, by omega⟩
    rw [hn', List.replicate_succ]
    exact readArray_eq _ _

example : gethostbyname digits (run digits sample) "x".toList = some (hostLoop digits ["2.2.2.2".toList] 0 0 0 ⟨List.replicate 32 none, List.replicate 32 none⟩) := by
  rfl
example : find (run digits [.set [some "h2.com".toList, some "1.1.1.1".toList, some "alias.h2.com".toList]]) "h2.com".toList =
    some ⟨0, none, "h2.com".toList, ["1.1.1.1".toList, "alias.h2.com".toList]⟩ := by decide +kernel

/-- Exactly 32 addresses fit the array, but no null pointer ends it: callers read beyond. -/
example : ((gethostbyname digits (run digits [.set (List.replicate 32 (some "1.1.1.1".toList))]) "h2.com".toList).map fun r => r.map fun h => readArray h.addrs) =
    some (some none) := by decide +kernel
/-- More than 32 overrun it. -/
example : (gethostbyname digits (run digits [.set (List.replicate 33 (some "1.1.1.1".toList))]) "h2.com".toList).map (·.isNone) = some true := by decide +kernel

end H2.Dns
