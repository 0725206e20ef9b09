import Verif.Around.Lemmas
/-
C93: what the library replaces for itself is replaced exactly where it should be, and the stubs of tests are not
disturbed by it.
-/
namespace H2.Around

/-- **C93.**  In every program, whatever it does, every call of a function other than those of memory and sockets runs
what is expected: the stub, else the function of the library if it has one, else the function itself. -/
theorem C93_most (check : Bool) (cases : List Prog) (f : Fn) (hm : kind f ≠ .memory) (hs : kind f ≠ .sockets) :
    (main check cases).1.map (only f) = cases.map fun p => only f (meaning check p .empty).1 :=
  rel_cases hm cases _ (Ok.start check f) rfl (fun hk => absurd hk hs)

/-- **C93.**  The same for a function of sockets that is not stubbed or unstubbed inside of `SOCK`, where no `SOCK` is
inside of another. -/
theorem C93_sockets_partial (check : Bool) (cases : List Prog) (f : Fn) (hs : kind f = .sockets) (ht : ∀ p ∈ cases, TidySock f p false) :
    (main check cases).1.map (only f) = cases.map fun p => only f (meaning check p .empty).1 :=
  rel_cases (by simp [hs]) cases _ (Ok.start check f) rfl (fun _ => ht)

/-- **C93.**  All calls of tidy programs run what is expected, those of the memory functions as well. -/
theorem C93_calls_partial (check : Bool) (cases : List Prog) (h : ∀ p ∈ cases, Tidy p false false) :
    (main check cases).1 = cases.map fun p => (meaning check p .empty).1 := by
  unfold main
  rw [start_of, runCases_of check cases h]

/-- **C93.**  After each case, however it ended, every function is again what it was at the beginning of the run; a
memory function if no case stubs it. -/
theorem C93_restored (check : Bool) (cases : List Prog) (f : Fn) (h : kind f = .memory → ∀ p ∈ cases, ¬ Stubs f p) :
    (main check cases).2.cell f = (start check).cell f :=
  Ok.runCases cases (Ok.start check f) h rfl

/-- **C93.**  At the beginning of a run the library has replaced exactly these: output, names of hosts and `throw`;
time and memory unless the check of memory is off (`-m`). -/
theorem C93_start (check : Bool) (f : Fn) :
    ((start check).cell f).code = .lib ↔
      (kind f = .output ∨ kind f = .hosts ∨ kind f = .throwing) ∨ (check = true ∧ (kind f = .clock ∨ kind f = .memory)) := by
  rw [start_of]
  rw [code_of check .empty f (fun _ => rfl)]
  unfold expected replaced
  cases check <;> cases hk : kind f <;> simp [Env.empty]

/-- A function that no program stubs. -/
theorem meaning_unstubbed (check : Bool) (f : Fn) (p : Prog) : ∀ e : Env, e.stubs f = none → ¬ Stubs f p →
    (meaning check p e).2.1 f = none := by
  induction p with
  | skip => intro e h _; exact h
  | fail => intro e h _; exact h
  | lookup => intro e h _; exact h
  | call g => intro e h _; exact h
  | stub g k => intro e h hs; simp only [meaning]; rw [if_neg (fun hh => hs hh.symm)]; exact h
  | unstub g => intro e h _; simp only [meaning]; split <;> simp [h]
  | seq p q ihp ihq =>
    intro e h hs
    have h1 := ihp e h (fun hh => hs (.inl hh))
    simp only [meaning]
    revert h1
    generalize meaning check p e = m
    obtain ⟨t, bs, x⟩ := m
    cases x with
    | jump => exact id
    | done => intro h1; exact ihq { e with stubs := bs } h1 (fun hh => hs (.inr hh))
  | sock p ih => intro e h hs; exact ih { e with sock := true } h hs
  | unmem p ih => intro e h hs; exact ih { e with unmem := true } h hs

theorem meaning_own (check : Bool) (f : Fn) (hr : ∀ e : Env, replaced check e f = false) (hk : kind f ≠ .sockets) (p : Prog) :
    ∀ e : Env, e.stubs f = none → ¬ Stubs f p → ∀ c, (f, c) ∈ (meaning check p e).1 → c = .own := by
  induction p with
  | skip => intro e h _ c hc; cases hc
  | fail => intro e h _ c hc; cases hc
  | lookup => intro e h _ c hc; cases hc
  | stub g k => intro e h _ c hc; cases hc
  | unstub g => intro e h _ c hc; cases hc
  | call g =>
    intro e h _ c hc
    simp only [meaning, List.mem_singleton, Prod.mk.injEq] at hc
    obtain ⟨rfl, rfl⟩ := hc
    simp [expected, hk, h, hr]
  | seq p q ihp ihq =>
    intro e h hs c
    have h1 := meaning_unstubbed check f p e h (fun hh => hs (.inl hh))
    have h2 := ihp e h (fun hh => hs (.inl hh)) c
    simp only [meaning]
    revert h1 h2
    generalize meaning check p e = m
    obtain ⟨t, bs, x⟩ := m
    cases x with
    | jump => intro _ h2; exact h2
    | done =>
      intro h1 h2 hc
      rcases List.mem_append.1 hc with hc | hc
      · exact h2 hc
      · exact ihq { e with stubs := bs } h1 (fun hh => hs (.inr hh)) c hc
  | sock p ih => intro e h hs; exact ih { e with sock := true } h hs
  | unmem p ih => intro e h hs; exact ih { e with unmem := true } h hs

/-- **C93.**  A function that the library has nothing for, and that no case stubs, always runs itself. -/
theorem C93_own (check : Bool) (cases : List Prog) (n : Nat) (h : ∀ p ∈ cases, ¬ Stubs (.plain n) p) (t : Trace)
    (ht : t ∈ (main check cases).1) (c : Code) (hc : (Fn.plain n, c) ∈ t) : c = .own := by
  have hm := C93_most check cases (.plain n) (by simp [kind]) (by simp [kind])
  have h1 : only (.plain n) t ∈ (main check cases).1.map (only (.plain n)) := List.mem_map_of_mem ht
  rw [hm] at h1
  obtain ⟨p, hp, he⟩ := List.mem_map.1 h1
  have h2 : (Fn.plain n, c) ∈ only (.plain n) t := by simp [only, hc]
  rw [← he] at h2
  exact meaning_own check (.plain n) (fun e => rfl) (by simp [kind]) p .empty rfl (h p hp) c (List.mem_filter.1 h2).1

/-- **C93.**  With the check of memory off the functions of time are those of the system, in every program. -/
theorem C93_clock_off (cases : List Prog) (f : Fn) (hf : kind f = .clock) (h : ∀ p ∈ cases, ¬ Stubs f p) (t : Trace)
    (ht : t ∈ (main false cases).1) (c : Code) (hc : (f, c) ∈ t) : c = .own := by
  have hm := C93_most false cases f (by simp [hf]) (by simp [hf])
  have h1 : only f t ∈ (main false cases).1.map (only f) := List.mem_map_of_mem ht
  rw [hm] at h1
  obtain ⟨p, hp, he⟩ := List.mem_map.1 h1
  have h2 : (f, c) ∈ only f t := by simp [only, hc]
  rw [← he] at h2
  exact meaning_own false f (fun e => by simp [replaced, hf]) (by simp [hf]) p .empty rfl (h p hp) c (List.mem_filter.1 h2).1

/-! ### Programs -/

def seqs : List Prog → Prog
  | [] => .skip
  | p :: ps => .seq p (seqs ps)

/-- A case with a stub before and after `SOCK`, memory inside and outside of an unmem block, and a failure inside. -/
def tidy1 : Prog := seqs [.stub .send 7, .call .send, .call .malloc, .sock (seqs [.call .send, .call .recv, .stub (.plain 3) 4]),
  .call .send, .call .recv, .call (.plain 3), .unmem (seqs [.call .malloc, .call (.plain 3)]), .call .malloc, .stub .printf 1, .call .printf,
  .sock (.unmem (seqs [.call .connect, .call .new, .fail, .call .new]))]
def tidy2 : Prog := seqs [.call .send, .call .new, .call .printf, .call .gmtime, .unstub .printf]

example : Tidy tidy1 false false ∧ Tidy tidy2 false false := by simp [tidy1, tidy2, seqs, Tidy, kind]
example : (main true [tidy1, tidy2]).1 =
    [[(.send, .fake 7), (.malloc, .lib), (.send, .lib), (.recv, .lib), (.send, .fake 7), (.recv, .own), (.plain 3, .fake 4), (.malloc, .own),
      (.plain 3, .fake 4), (.malloc, .lib), (.printf, .fake 1), (.connect, .lib), (.new, .own)],
     [(.send, .own), (.new, .lib), (.printf, .lib), (.gmtime, .lib)]] := by decide +kernel
example : (main false [tidy2]).1 = [[(.send, .own), (.new, .own), (.printf, .lib), (.gmtime, .own)]] := by decide +kernel
example : TidySock .send tidy1 false := by simp [tidy1, seqs, TidySock]
example : ¬ Stubs .malloc tidy1 ∧ ¬ Stubs (.plain 5) tidy1 ∧ Stubs .send tidy1 := by simp [tidy1, seqs, Stubs]
/-- Untidy programs are covered by `C93_restored` and `C93_most`. -/
example : ¬ Tidy (.sock (seqs [.stub .send 1, .sock (.call .send), .fail])) false false ∧
    (main true [.sock (seqs [.stub .send 1, .sock (.call .send), .fail]), tidy2]).2.cell .send = (start true).cell .send := by
  refine ⟨by simp [seqs, Tidy, kind], ?_⟩
  decide +kernel

/-! ### Where it is false -/

/-- **C93.**  A stub of a function of sockets that is made inside of `SOCK` is gone at the end of the block. -/
theorem C93_stub_in_sock_false : ¬ ∀ (check : Bool) (p : Prog), (main check [p]).1 = [(meaning check p .empty).1] := by
  intro h
  exact absurd (h true (seqs [.sock (.stub .send 1), .call .send])) (by decide +kernel)

/-- **C93.**  The end of an inner `SOCK` ends the outer one. -/
theorem C93_nested_sock_false : (main true [.sock (seqs [.sock .skip, .call .send])]).1 = [[(.send, .own)]] ∧
    [(meaning true (.sock (seqs [.sock .skip, .call .send])) .empty).1] = [[(.send, Code.lib)]] := by decide +kernel

/-- **C93.**  A stub of a memory function is gone as soon as anything is allocated in another way, or a call stack, a
symbol or a regular expression is looked up. -/
theorem C93_stub_malloc_false : (main true [seqs [.stub .malloc 1, .call .malloc, .call .new, .call .malloc]]).1 =
      [[(.malloc, .fake 1), (.new, .lib), (.malloc, .lib)]] ∧
    [(meaning true (seqs [.stub .malloc 1, .call .malloc, .call .new, .call .malloc]) .empty).1] =
      [[(.malloc, .fake 1), (.new, .lib), (.malloc, .fake 1)]] := by decide +kernel

/-- **C93.**  A stub of any memory function is gone after any call that allocates, or throws. -/
theorem C93_stub_memory_false (f g : Fn) (k : Nat) (hf : f ∈ [Fn.malloc, .realloc, .calloc, .posixMemalign, .alignedAlloc, .new, .newNothrow,
      .newArray, .newArrayNothrow, .cxaThrow]) (hg : g ∈ [Fn.free, .malloc, .realloc, .calloc, .posixMemalign, .alignedAlloc, .new, .newNothrow,
      .newArray, .newArrayNothrow, .delete, .deleteNothrow, .deleteArray, .deleteArrayNothrow]) (h : f ≠ g) :
    (main true [seqs [.stub g k, .call g, .call f, .call g]]).1 = [[(g, .fake k), (f, .lib), (g, .lib)]] := by
  simp only [List.mem_cons, List.not_mem_nil, or_false] at hf hg
  rcases hf with rfl | rfl | rfl | rfl | rfl | rfl | rfl | rfl | rfl | rfl <;>
  rcases hg with rfl | rfl | rfl | rfl | rfl | rfl | rfl | rfl | rfl | rfl | rfl | rfl | rfl | rfl <;>
  first | exact absurd rfl h | rfl

/-- **C93.**  A memory function that is stubbed inside of an unmem block is not replaced in the cases that follow: what
they allocate with it is not checked. -/
theorem C93_after_unmem_false : (main true [.unmem (.stub .malloc 1), .call .malloc]).1 = [[], [(.malloc, .own)]] ∧
    (meaning true (.call .malloc) .empty).1 = [(.malloc, .lib)] := by decide +kernel

/-- **C93.**  That a function runs itself unless the test asks for something else is false of the functions of time. -/
theorem C93_clock_false (f : Fn) (hf : kind f = .clock) : (main true [.call f]).1 = [[(f, .lib)]] := by
  rw [C93_calls_partial true [.call f] (by simp [Tidy, hf])]
  simp [meaning, expected, replaced, hf, Env.empty]

/-- **C93.**  What they give does not depend on the time: only one time comes back from `mktime(gmtime(t))`, and that is not
the time of the date that `gmtime` gives but eight hours earlier; the text has 24 characters instead of 25. -/
theorem C93_time (t : Int) (d : Tm) :
    seconds (libGmtime t) = 1325376000 ∧ libMktime d = seconds (libGmtime t) - 8 * 3600 ∧
    (libMktime (libGmtime t) = t ↔ t = 1325347200) ∧ libCtime t = libAsctime d ∧ (libCtime t).length = 24 := by
  refine ⟨rfl, rfl, ?_, rfl, by simp only [libCtime]; decide⟩
  simp only [libMktime]
  omega

example : kind .localtime_r = .clock := rfl
example : seconds { sec := 40, min := 46, hour := 1, mday := 9, mon := 8, year := 101, wday := 0, yday := 251, isdst := 0 } = 1000000000 := by decide

end H2.Around
