import Verif.Stdio.Spec
/-
C44: what `COUT` captures.
-/
namespace H2.Stdio

theorem afterKey_some (key : Text) (s : Text) : (H2.Sock.afterKey key s).isSome ↔ ∃ a b, s.map Char.toLower = a ++ key ++ b := by
  induction s with
  | nil =>
    unfold H2.Sock.afterKey
    by_cases h : key.isEmpty
    · simp only [h, if_true, Option.isSome_some, true_iff]
      exact ⟨[], [], by simp [List.isEmpty_iff.1 h]⟩
    · simp only [h, Bool.false_eq_true, if_false, Option.isSome_none, false_iff]
      rintro ⟨a, b, e⟩
      simp at e
      exact h (by simp [e])
  | cons c s ih =>
    unfold H2.Sock.afterKey
    by_cases h : key.isPrefixOf ((c :: s).map Char.toLower)
    · rw [if_pos h]
      simp only [Option.isSome_some, true_iff]
      obtain ⟨b, e⟩ := List.isPrefixOf_iff_prefix.1 h
      exact ⟨[], b, by rw [← e]; rfl⟩
    · rw [if_neg h, ih]
      constructor
      · rintro ⟨a, b, e⟩
        exact ⟨c.toLower :: a, b, by simp [e]⟩
      · rintro ⟨a, b, e⟩
        cases a with
        | nil =>
          exact absurd (List.isPrefixOf_iff_prefix.2 ⟨b, by simpa using e.symm⟩) h
        | cons x a =>
          simp at e
          exact ⟨a, b, by simpa using e.2⟩

theorem hasKey_iff (type key : Text) : hasKey type key = true ↔ ∃ a b, type.map Char.toLower = a ++ key ++ b := by
  rw [← afterKey_some]
  unfold hasKey H2.Sock.getKeyvalue
  cases H2.Sock.afterKey key type with
  | none => simp
  | some r =>
    simp only [Option.isSome_some, iff_true]
    split <;> rfl

theorem wants_iff (type key : Text) : (type.isEmpty || hasKey type key) = true ↔ Wants type key := by
  unfold Wants
  rw [Bool.or_eq_true, hasKey_iff, List.isEmpty_iff]

/-! ### What a write does to what is captured -/

theorem write_on (normal : Bool) (s : St) (fd : Int) (d : Bytes) :
    (write normal s fd d).stdoutOn = s.stdoutOn ∧ (write normal s fd d).stderrOn = s.stderrOn ∧ (write normal s fd d).syslogOn = s.syslogOn ∧
    (write normal s fd d).buffer = s.buffer ++ (if (fd = 1 ∧ s.stdoutOn) ∨ (fd = 2 ∧ s.stderrOn) then d else []) := by
  by_cases hc : ((s.stdoutOn && fd == out) || (s.stderrOn && fd == err)) = true
  · have hc' : (fd = 1 ∧ s.stdoutOn = true) ∨ (fd = 2 ∧ s.stderrOn = true) := by
      simp [out, err] at hc
      rcases hc with h | h
      · exact .inl ⟨h.2, h.1⟩
      · exact .inr ⟨h.2, h.1⟩
    rw [if_pos hc']
    unfold write
    cases normal <;> cases hs : isStd fd <;> cases hb : s.backable <;> simp [hc]
  · have hc' : ¬ ((fd = 1 ∧ s.stdoutOn = true) ∨ (fd = 2 ∧ s.stderrOn = true)) := by
      intro h
      apply hc
      simp [out, err]
      rcases h with h | h
      · exact .inl ⟨h.2, h.1⟩
      · exact .inr ⟨h.2, h.1⟩
    rw [if_neg hc']
    unfold write
    cases normal <;> cases hs : isStd fd <;> cases hb : s.backable <;> simp [hc]

theorem stream_on (normal : Bool) (fd : Int) (d : Bytes) : ∀ s : St,
    (d.foldl (fun s c => write normal s fd [c]) s).stdoutOn = s.stdoutOn ∧ (d.foldl (fun s c => write normal s fd [c]) s).stderrOn = s.stderrOn ∧
    (d.foldl (fun s c => write normal s fd [c]) s).syslogOn = s.syslogOn ∧
    (d.foldl (fun s c => write normal s fd [c]) s).buffer = s.buffer ++ (if (fd = 1 ∧ s.stdoutOn) ∨ (fd = 2 ∧ s.stderrOn) then d else []) := by
  induction d with
  | nil => intro s; simp
  | cons c d ih =>
    intro s
    obtain ⟨h1, h2, h3, h4⟩ := ih (write normal s fd [c])
    obtain ⟨g1, g2, g3, g4⟩ := write_on normal s fd [c]
    rw [List.foldl_cons, h1, h2, h3, h4, g1, g2, g3, g4]
    refine ⟨rfl, rfl, rfl, ?_⟩
    by_cases h : (fd = 1 ∧ s.stdoutOn = true) ∨ (fd = 2 ∧ s.stderrOn = true)
    · simp [h]
    · simp [h]

theorem step_on (normal : Bool) (s : St) (o : Op) (hi : Inner o) :
    (step normal s o).1.stdoutOn = s.stdoutOn ∧ (step normal s o).1.stderrOn = s.stderrOn ∧ (step normal s o).1.syslogOn = s.syslogOn ∧
    (step normal s o).1.buffer = s.buffer ++ selected s.stdoutOn s.stderrOn s.syslogOn o := by
  cases o with
  | start t => exact absurd hi (by simp [Inner])
  | stop => exact absurd hi (by simp [Inner])
  | title b => simp [step, selected, written, logged]
  | write fd d => simpa [step, selected, written, logged] using write_on normal s fd d
  | fprintf fd t => simpa [step, selected, written, logged, cstr] using write_on normal s fd (cstr t)
  | fputc fd c => simpa [step, selected, written, logged] using write_on normal s fd [c]
  | fputs fd t => simpa [step, selected, written, logged, cstr] using write_on normal s fd (cstr t)
  | fwrite fd d n m => simpa [step, selected, written, logged] using write_on normal s fd (d.take (n * m))
  | putchar c => simpa [step, selected, written, logged, out] using write_on normal s out [c]
  | puts t =>
    obtain ⟨h1, h2, h3, h4⟩ := write_on normal s out (cstr t)
    obtain ⟨g1, g2, g3, g4⟩ := write_on normal (write normal s out (cstr t)) out [10]
    simp only [step]
    rw [g1, g2, g3, g4, h1, h2, h3, h4]
    refine ⟨rfl, rfl, rfl, ?_⟩
    cases s.stdoutOn <;> simp [selected, written, logged, out, cstr]
  | stream fd d => simpa [step, selected, written, logged] using stream_on normal fd d s
  | syslog t =>
    simp only [step]
    cases h : s.syslogOn <;> simp [selected, written, logged, cstr, h]

theorem run_on (normal : Bool) (ops : List Op) : ∀ (s : St), (∀ o ∈ ops, Inner o) →
    (run normal s ops).buffer = s.buffer ++ ops.flatMap (selected s.stdoutOn s.stderrOn s.syslogOn) := by
  induction ops with
  | nil => intro s _; simp [run]
  | cons o ops ih =>
    intro s hi
    obtain ⟨h1, h2, h3, h4⟩ := step_on normal s o (hi o (by simp))
    have := ih (step normal s o).1 (fun o ho => hi o (by simp [ho]))
    rw [h1, h2, h3, h4] at this
    show (run normal (step normal s o).1 ops).buffer = _
    rw [this]
    simp

theorem run_append (normal : Bool) (s : St) (a b : List Op) : run normal s (a ++ b) = run normal (run normal s a) b := by
  simp [run, List.foldl_append]

/-- **C44**: at the end of a `COUT` block the matcher is given exactly the bytes written to the selected streams inside the block, in
the order of the calls — up to the first NUL, as it is a C string —, whatever was written before, elsewhere, or by the report. -/
theorem C44_captured (normal : Bool) (before inside : List Op) (type : Text) (o e l : Bool) (hi : ∀ op ∈ inside, Inner op)
    (ho : o = true ↔ Wants type "out".toList) (he : e = true ↔ Wants type "err".toList) (hl : l = true ↔ Wants type "syslog".toList) :
    (step normal (run normal {} (before ++ .start type :: inside)) .stop).2 = .text ((inside.flatMap (selected o e l)).takeWhile (· ≠ 0)) := by
  rw [run_append]
  have e1 : run normal (run normal {} before) (.start type :: inside) = run normal (step normal (run normal {} before) (.start type)).1 inside := rfl
  rw [e1]
  have := run_on normal inside (step normal (run normal {} before) (.start type)).1 hi
  simp only [step] at this
  have to : (type.isEmpty || hasKey type "out".toList) = o := by
    apply Bool.eq_iff_iff.2; rw [wants_iff, ho]
  have te : (type.isEmpty || hasKey type "err".toList) = e := by
    apply Bool.eq_iff_iff.2; rw [wants_iff, he]
  have tl : (type.isEmpty || hasKey type "syslog".toList) = l := by
    apply Bool.eq_iff_iff.2; rw [wants_iff, hl]
  rw [to, te, tl] at this
  simp only [step, Result.text.injEq, cstr]
  rw [to, te, tl, this, List.nil_append]
  rw [List.takeWhile_append]
  split
  · rename_i h
    have : List.takeWhile (· ≠ 0) (inside.flatMap (selected o e l)) = inside.flatMap (selected o e l) :=
      (List.takeWhile_prefix _).eq_of_length h
    rw [this]; simp
  · rfl

/-- Words written to both streams and the log. -/
def sample : List Op :=
  [.puts "ab".toUTF8.toList, .fprintf err "cd".toUTF8.toList, .syslog "ef".toUTF8.toList, .write 7 "gh".toUTF8.toList, .stream out "ij".toUTF8.toList,
    .write report "[ 50%]".toUTF8.toList]
example : (step true (run true {} (.putchar 65 :: .start [] :: sample)) .stop).2 = .text "ab\ncdefij".toUTF8.toList ∧
    (step false (run false {} (.putchar 65 :: .start "stdErr".toList :: sample)) .stop).2 = .text "cd".toUTF8.toList := by decide +kernel
example : Wants "stdErr".toList "err".toList ∧ (∀ op ∈ sample, Inner op) := by
  refine ⟨.inr ⟨"std".toList, [], by decide +kernel⟩, ?_⟩
  simp [sample, Inner]
/-- A block inside another ends the capture of the outer one, whose matcher is given what the inner block captured. -/
example : (step true (run true {} [.start [], .putchar 65, .start [], .putchar 66, .stop, .putchar 67]) .stop).2 = .text [66] := by decide +kernel
/-- `fwrite` gives the number of bytes, not of items. -/
example : (step true {} (.fwrite out [1, 2, 3, 4, 5, 6, 7, 8] 4 2)).2 = .value 8 := by decide +kernel

/-- **C44**: after the block nothing is captured any more: what is written then is not kept, until another block begins. -/
theorem C44_ended (normal : Bool) (before after : List Op) (hi : ∀ op ∈ after, Inner op) :
    (run normal {} (before ++ .stop :: after)).buffer = (run normal {} (before ++ [.stop])).buffer := by
  rw [run_append, run_append]
  have e1 : run normal (run normal {} before) (.stop :: after) = run normal (step normal (run normal {} before) .stop).1 after := rfl
  have e2 : run normal (run normal {} before) [.stop] = (step normal (run normal {} before) .stop).1 := rfl
  rw [e1, e2, run_on normal after _ hi]
  have : after.flatMap (selected false false false) = [] := by
    rw [List.flatMap_eq_nil_iff]
    intro o _
    unfold selected
    cases written o <;> simp
  simp only [step]
  rw [this, List.append_nil]

example : (run true {} [.start [], .putchar 65, .stop, .putchar 66, .syslog [67]]).buffer = [65, 0] := by decide +kernel

/-! ### What the system sees -/

/-- What the program's own writes have brought to a descriptor; the report's appear on standard output. -/
def seenOn (s : St) (fd : Int) : Bytes := (s.seen.filter fun w => !w.extra && w.fd == fd).flatMap (·.data)
def extras (s : St) : Nat := (s.seen.filter (·.extra)).length

theorem write_seen (normal : Bool) (s : St) (fd : Int) (d : Bytes) (x : Int) :
    seenOn (write normal s fd d) x = seenOn s x ++
      (if (normal = true ∨ (fd ≠ 1 ∧ fd ≠ 2)) ∧ (if fd = report then 1 else fd) = x then d else []) := by
  have h1 : isStd fd = false ↔ fd ≠ 1 ∧ fd ≠ 2 := by simp [isStd, out, err]
  have hseen : ∀ (s : St) (b : Bytes), (if (s.stdoutOn && fd == out) || (s.stderrOn && fd == err) then { s with buffer := b } else s).seen = s.seen := by
    intro s b; split <;> rfl
  have e : (write normal s fd d).seen = if normal || !isStd fd then
      (s.seen ++ if isStd fd && s.backable then [⟨fd, [10], true⟩] else []) ++ [⟨if fd = report then out else fd, d, false⟩] else s.seen := by
    unfold write
    simp only
    rw [hseen]
    cases normal <;> cases hs : isStd fd <;> cases hb : s.backable <;> simp
  unfold seenOn
  rw [e]
  have hr : (if fd = report then out else fd) = (if fd = report then 1 else fd) := rfl
  rw [hr]
  generalize (if fd = report then (1 : Int) else fd) = y
  by_cases hn : (normal || !isStd fd) = true
  · rw [if_pos hn]
    have hc : normal = true ∨ (fd ≠ 1 ∧ fd ≠ 2) := by
      rcases Bool.or_eq_true_iff.1 hn with h | h
      · exact .inl h
      · exact .inr (h1.1 (by simpa using h))
    simp only [hc, true_and]
    by_cases hy : y = x
    · cases (isStd fd && s.backable) <;> simp [List.filter_append, hy]
    · cases (isStd fd && s.backable) <;> simp [List.filter_append, hy]
  · rw [if_neg hn]
    have hc : ¬ (normal = true ∨ (fd ≠ 1 ∧ fd ≠ 2)) := by
      intro h
      apply hn
      rcases h with h | h
      · simp [h]
      · simp [h1.2 h]
    simp [hc]

/-- Whether what is written to a descriptor reaches the system. -/
def Passes (normal : Bool) (fd : Int) : Prop := normal = true ∨ (fd ≠ 1 ∧ fd ≠ 2)

theorem stream_seen (normal : Bool) (fd : Int) (d : Bytes) (x : Int) : ∀ s : St,
    seenOn (d.foldl (fun s c => write normal s fd [c]) s) x = seenOn s x ++
      (if (normal = true ∨ (fd ≠ 1 ∧ fd ≠ 2)) ∧ (if fd = report then 1 else fd) = x then d else []) := by
  induction d with
  | nil => intro s; simp
  | cons c d ih =>
    intro s
    rw [List.foldl_cons, ih, write_seen]
    by_cases h : (normal = true ∨ (fd ≠ 1 ∧ fd ≠ 2)) ∧ (if fd = report then 1 else fd) = x
    · simp only [if_pos h]; simp
    · simp only [if_neg h]; simp

theorem step_seen (normal : Bool) (s : St) (o : Op) (x : Int) :
    seenOn (step normal s o).1 x = seenOn s x ++ (match written o with
      | some (fd, d) => if (normal = true ∨ (fd ≠ 1 ∧ fd ≠ 2)) ∧ (if fd = report then 1 else fd) = x then d else []
      | none => []) := by
  cases o with
  | start t => simp [step, written, seenOn]
  | stop => simp [step, written, seenOn]
  | title b => simp [step, written, seenOn]
  | write fd d => exact write_seen normal s fd d x
  | fprintf fd t => exact write_seen normal s fd (cstr t) x
  | fputc fd c => exact write_seen normal s fd [c] x
  | fputs fd t => exact write_seen normal s fd (cstr t) x
  | fwrite fd d n m => exact write_seen normal s fd (d.take (n * m)) x
  | putchar c => exact write_seen normal s out [c] x
  | puts t =>
    show seenOn (write normal (write normal s out (cstr t)) out [10]) x = _
    have e : ∀ (s : St) (d : Bytes), seenOn (write normal s out d) x = seenOn s x ++ if normal = true ∧ 1 = x then d else [] := by
      intro s d
      rw [write_seen]
      have h : (if out = report then 1 else out) = 1 := by decide
      rw [h]
      simp [out]
    rw [e, e]
    have h : (if (1 : Int) = report then (1 : Int) else 1) = 1 := by decide
    simp only [written]
    rw [h]
    cases normal
    · simp
    · by_cases hx : (1 : Int) = x
      · simp [hx, cstr]
      · simp [hx]
  | stream fd d => exact stream_seen normal fd d x s
  | syslog t =>
    simp only [step, written]
    split <;> simp [seenOn]

/-- **C44**: capturing does not keep anything from the system: what is written to a descriptor arrives there, in order and unchanged
(the standard streams unless the report is compact; the report's own writes arrive on standard output). -/
theorem C44_through (normal : Bool) (ops : List Op) (fd : Int) (h1 : fd ≠ 1) (h2 : normal = true ∨ fd ≠ 2) (h3 : fd ≠ report) :
    seenOn (run normal {} ops) fd = ops.flatMap (writtenTo fd) := by
  have : ∀ (ops : List Op) (s : St), seenOn (run normal s ops) fd = seenOn s fd ++ ops.flatMap (writtenTo fd) := by
    intro ops
    induction ops with
    | nil => intro s; simp [run]
    | cons o ops ih =>
      intro s
      show seenOn (run normal (step normal s o).1 ops) fd = _
      rw [ih, step_seen, List.flatMap_cons, List.append_assoc]
      congr 2
      unfold writtenTo
      cases written o with
      | none => rfl
      | some p =>
        obtain ⟨fd', d⟩ := p
        simp only
        by_cases e : fd' = fd
        · subst e
          rw [if_pos rfl, if_pos]
          rw [if_neg h3]
          refine ⟨?_, rfl⟩
          rcases h2 with h2 | h2
          · exact .inl h2
          · exact .inr ⟨h1, h2⟩
        · rw [if_neg e, if_neg]
          rintro ⟨-, h⟩
          split at h
          · exact h1 h.symm
          · exact e h
  rw [this]; simp [seenOn]

/-- Standard output sees what is written to it and the report, interleaved as written. -/
theorem C44_stdout (ops : List Op) :
    seenOn (run true {} ops) 1 = ops.flatMap (fun o => writtenTo 1 o ++ writtenTo report o) := by
  have : ∀ (ops : List Op) (s : St), seenOn (run true s ops) 1 = seenOn s 1 ++ ops.flatMap (fun o => writtenTo 1 o ++ writtenTo report o) := by
    intro ops
    induction ops with
    | nil => intro s; simp [run]
    | cons o ops ih =>
      intro s
      show seenOn (run true (step true s o).1 ops) 1 = _
      rw [ih, step_seen, List.flatMap_cons, List.append_assoc]
      congr 2
      unfold writtenTo
      cases written o with
      | none => rfl
      | some p =>
        obtain ⟨fd', d⟩ := p
        simp only [true_or, true_and]
        by_cases e : fd' = 1
        · subst e; simp [report]
        · by_cases e2 : fd' = report
          · subst e2; simp [report]
          · simp [e, e2]
  rw [this]; simp [seenOn]

/-- In a compact report the program's output is not seen: only the report's. -/
theorem C44_compact (ops : List Op) :
    seenOn (run false {} ops) 1 = ops.flatMap (writtenTo report) ∧ seenOn (run false {} ops) 2 = [] := by
  have : ∀ (ops : List Op) (s : St), seenOn (run false s ops) 1 = seenOn s 1 ++ ops.flatMap (writtenTo report) ∧ seenOn (run false s ops) 2 = seenOn s 2 := by
    intro ops
    induction ops with
    | nil => intro s; simp [run]
    | cons o ops ih =>
      intro s
      have e : run false s (o :: ops) = run false (step false s o).1 ops := rfl
      rw [e, (ih _).1, (ih _).2, step_seen, step_seen, List.flatMap_cons, List.append_assoc]
      cases hw : written o with
      | none => simp [writtenTo, hw]
      | some p =>
        obtain ⟨fd', d⟩ := p
        by_cases e1 : fd' = report
        · subst e1; simp [writtenTo, hw, report]
        · by_cases e2 : fd' = 1
          · subst e2; simp [writtenTo, hw, report]
          · by_cases e3 : fd' = 2
            · subst e3; simp [writtenTo, hw, report]
            · simp [writtenTo, hw, e1, e2, e3]
  have h := this ops {}
  rw [h.1, h.2]; simp [seenOn]

/-! ### The line break after a title -/

theorem write_extras (normal : Bool) (s : St) (fd : Int) (d : Bytes) :
    extras (write normal s fd d) + (if (write normal s fd d).backable then 1 else 0) = extras s + (if s.backable then 1 else 0) := by
  have hseen : ∀ (s : St) (b : Bytes), (if (s.stdoutOn && fd == out) || (s.stderrOn && fd == err) then { s with buffer := b } else s).seen = s.seen ∧
      (if (s.stdoutOn && fd == out) || (s.stderrOn && fd == err) then { s with buffer := b } else s).backable = s.backable := by
    intro s b; split <;> exact ⟨rfl, rfl⟩
  unfold extras write
  simp only
  rw [(hseen _ _).1, (hseen _ _).2]
  cases normal <;> cases hs : isStd fd <;> cases hb : s.backable <;> simp [hb, List.filter_append]

theorem stream_extras (normal : Bool) (fd : Int) (d : Bytes) : ∀ s : St,
    extras (d.foldl (fun s c => write normal s fd [c]) s) + (if (d.foldl (fun s c => write normal s fd [c]) s).backable then 1 else 0) =
      extras s + (if s.backable then 1 else 0) := by
  induction d with
  | nil => intro s; rfl
  | cons c d ih => intro s; rw [List.foldl_cons, ih, write_extras]

/-- **C44**: nothing is added to the output but one line break after a title that is shown. -/
theorem C44_extras (normal : Bool) (ops : List Op) : extras (run normal {} ops) ≤ ops.countP (fun o => o = .title true) ∧
    ∀ w ∈ (run normal {} ops).seen, w.extra = true → w.data = [10] ∧ (w.fd = 1 ∨ w.fd = 2) := by
  have hw : ∀ (s : St) (fd : Int) (d : Bytes), (∀ w ∈ s.seen, w.extra = true → w.data = [10] ∧ (w.fd = 1 ∨ w.fd = 2)) →
      ∀ w ∈ (write normal s fd d).seen, w.extra = true → w.data = [10] ∧ (w.fd = 1 ∨ w.fd = 2) := by
    intro s fd d h w hm he
    have hseen : ∀ (s : St) (b : Bytes), (if (s.stdoutOn && fd == out) || (s.stderrOn && fd == err) then { s with buffer := b } else s).seen = s.seen := by
      intro s b; split <;> rfl
    unfold write at hm
    simp only at hm
    rw [hseen] at hm
    have h1 : isStd fd = true → fd = 1 ∨ fd = 2 := by simp [isStd, out, err]
    cases normal <;> cases hs : isStd fd <;> cases hb : s.backable <;> simp [hs, hb] at hm <;>
      (first | exact h w hm he | skip) <;>
      rcases hm with hm | hm <;> (first | exact h w hm he | (subst hm; simp at he) | skip) <;>
      rcases hm with hm | hm <;> subst hm <;> simp at he ⊢ <;> exact h1 hs
  have hstream : ∀ (fd : Int) (d : Bytes) (s : St), (∀ w ∈ s.seen, w.extra = true → w.data = [10] ∧ (w.fd = 1 ∨ w.fd = 2)) →
      ∀ w ∈ (d.foldl (fun s c => write normal s fd [c]) s).seen, w.extra = true → w.data = [10] ∧ (w.fd = 1 ∨ w.fd = 2) := by
    intro fd d
    induction d with
    | nil => intro s h; exact h
    | cons c d ih => intro s h; rw [List.foldl_cons]; exact ih _ (hw s fd [c] h)
  have main : ∀ (ops : List Op) (s : St), (∀ w ∈ s.seen, w.extra = true → w.data = [10] ∧ (w.fd = 1 ∨ w.fd = 2)) →
      extras (run normal s ops) ≤ extras s + (if s.backable then 1 else 0) + ops.countP (fun o => o = .title true) ∧
      ∀ w ∈ (run normal s ops).seen, w.extra = true → w.data = [10] ∧ (w.fd = 1 ∨ w.fd = 2) := by
    intro ops
    induction ops with
    | nil => intro s h; exact ⟨by simp [run], h⟩
    | cons o ops ih =>
      intro s h
      show extras (run normal (step normal s o).1 ops) ≤ _ ∧ ∀ w ∈ (run normal (step normal s o).1 ops).seen, _
      have key : extras (step normal s o).1 + (if (step normal s o).1.backable then 1 else 0) ≤
          extras s + (if s.backable then 1 else 0) + (if o = .title true then 1 else 0) := by
        cases o with
        | start t => exact Nat.le_of_eq rfl
        | stop => exact Nat.le_of_eq rfl
        | title b => cases b <;> simp [step, extras]
        | write fd d => exact Nat.le_of_eq (write_extras normal s fd d)
        | fprintf fd t => exact Nat.le_of_eq (write_extras normal s fd (cstr t))
        | fputc fd c => exact Nat.le_of_eq (write_extras normal s fd [c])
        | fputs fd t => exact Nat.le_of_eq (write_extras normal s fd (cstr t))
        | fwrite fd d n m => exact Nat.le_of_eq (write_extras normal s fd (d.take (n * m)))
        | putchar c => exact Nat.le_of_eq (write_extras normal s out [c])
        | puts t => exact Nat.le_of_eq ((write_extras normal _ out [10]).trans (write_extras normal s out (cstr t)))
        | stream fd d => exact Nat.le_of_eq (stream_extras normal fd d s)
        | syslog t =>
          simp only [step]
          split <;> simp [extras]
      have keep : ∀ w ∈ (step normal s o).1.seen, w.extra = true → w.data = [10] ∧ (w.fd = 1 ∨ w.fd = 2) := by
        cases o with
        | start t => exact h
        | stop => exact h
        | title b => exact h
        | write fd d => exact hw s fd d h
        | fprintf fd t => exact hw s fd (cstr t) h
        | fputc fd c => exact hw s fd [c] h
        | fputs fd t => exact hw s fd (cstr t) h
        | fwrite fd d n m => exact hw s fd (d.take (n * m)) h
        | putchar c => exact hw s out [c] h
        | puts t => exact hw _ out [10] (hw s out (cstr t) h)
        | stream fd d => exact hstream fd d s h
        | syslog t =>
          simp only [step]
          split <;> exact h
      have := ih (step normal s o).1 keep
      refine ⟨?_, this.2⟩
      have h1 := this.1
      rw [List.countP_cons]
      by_cases ht : o = .title true <;> simp only [ht, decide_true, decide_false, if_true, if_false, Bool.false_eq_true] at key h1 ⊢ <;> omega
  have := main ops {} (by simp)
  simpa [extras] using this

example : (run true {} [.title true, .putchar 65, .putchar 66]).seen = [⟨1, [10], true⟩, ⟨1, [65], false⟩, ⟨1, [66], false⟩] := by decide +kernel

end H2.Stdio
