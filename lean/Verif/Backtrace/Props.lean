import Verif.Backtrace.Lemmas
import Verif.Lookup.Props
/-
C70: allocations made by exempted functions are charged to nobody, all others to the innermost block.
C71: a printed call stack leads from the call to `main`.
-/
namespace H2.Backtrace
open H2.Stub (Addr Mem followJmp)
open H2.Lookup (Good LoadedAt Stands Program)

/-! ### The list of functions -/

theorem addEach_spec {P : Program} {base : Addr} (L : LoadedAt P base) (m : Mem) (ps : List H2.Nm.Symbol) : ∀ (e : Exempts) (pre : List Addr),
    Good P base e.st → e.fps = filled pre → 0 ∉ pre → pre.length + ps.length ≤ 4095 →
    (∀ p ∈ ps, NoJump m (base + BitVec.ofNat 64 p.addr) ∧ base + BitVec.ofNat 64 p.addr ≠ 0) →
    Good P base (addEach P m ps e).st ∧ (addEach P m ps e).fps = filled (pre ++ ps.map fun p => base + BitVec.ofNat 64 p.addr) := by
  induction ps with
  | nil => intro e pre hg hf _ _ _; exact ⟨hg, by simp [addEach, hf]⟩
  | cons p ps ih =>
    intro e pre hg hf h0 hl hp
    obtain ⟨g1, g2⟩ := hg.setText L
    have ep : (H2.Lookup.addrToPtr P e.st p.addr).1 = base + BitVec.ofNat 64 p.addr := by
      show BitVec.ofNat 64 p.addr + (H2.Lookup.setText P e.st).textOffset = _
      rw [g2, BitVec.add_comm]
    have hp1 := hp p (by simp)
    rw [addEach, ep]
    have := ih (Exempts.addByFp { e with st := (H2.Lookup.addrToPtr P e.st p.addr).2 } m (base + BitVec.ofNat 64 p.addr))
      (pre ++ [base + BitVec.ofNat 64 p.addr]) g1
      (by
        show append e.fps _ = _
        rw [follows_nojump hp1.1, hf, filled_append h0 (by simp at hl; omega)])
      (by
        intro hm
        rcases List.mem_append.1 hm with h | h
        · exact h0 h
        · exact hp1.2 (List.mem_singleton.1 h).symm)
      (by simp at hl ⊢; omega) (fun q hq => hp q (by simp [hq]))
    simpa using this

theorem names_nonzero {P : Program} {base : Addr} {o : Op} {as : List Addr} (h : Names P base o as) : 0 ∉ as := by
  cases h with
  | fp _ h => intro hm; exact h (List.mem_singleton.1 hm).symm
  | name _ _ _ h =>
    intro hm
    obtain ⟨p, hp, e⟩ := List.mem_map.1 hm
    exact (h p hp).2 e
  | lookup => exact List.not_mem_nil

theorem named_nonzero {P : Program} {base : Addr} {ops : List Op} {as : List Addr} (h : Named P base ops as) : 0 ∉ as := by
  induction h with
  | nil => exact List.not_mem_nil
  | cons h _ ih =>
    intro hm
    rcases List.mem_append.1 hm with h' | h'
    · exact names_nonzero h h'
    · exact ih h'

theorem run_from {P : Program} {base : Addr} (L : LoadedAt P base) {ops : List Op} {as : List Addr} (h : Named P base ops as) :
    ∀ (e : Exempts) (pre : List Addr), Good P base e.st → e.fps = filled pre → 0 ∉ pre → pre.length + as.length ≤ 4095 →
    (ops.foldl (Exempts.step P) e).fps = filled (pre ++ as) := by
  induction h with
  | nil => intro e pre _ hf _ _; simpa using hf
  | @cons o ops as bs h _ ih =>
    intro e pre hg hf h0 hl
    rw [List.length_append] at hl
    have key : Good P base (e.step P o).st ∧ (e.step P o).fps = filled (pre ++ as) := by
      cases h with
      | @fp m a hj h0' =>
        refine ⟨hg, ?_⟩
        show append e.fps _ = _
        rw [follows_nojump hj, hf, filled_append h0 (by simp at hl; omega)]
      | @name m nm all hn hs h16 hp =>
        have e1 := hg.nm.stands L.one L.before hn hs
        rw [List.take_of_length_le h16] at e1
        show Good P base (e.addByName P m nm).st ∧ (e.addByName P m nm).fps = _
        unfold Exempts.addByName
        rw [e1]
        exact addEach_spec L m all _ pre (hg.withNm (hg.nm.byName (some nm) 16)) hf h0 (by simp at hl; omega) hp
      | lookup => exact ⟨hg.step L _, by rw [List.append_nil]; exact hf⟩
    rw [List.foldl_cons, ih _ (pre ++ as) key.1 key.2 (fun hm => (List.mem_append.1 hm).elim h0 (names_nonzero h)) (by rw [List.length_append]; omega),
      List.append_assoc]

theorem filled_nil : filled [] = List.replicate 4096 0 := rfl

/-- The functions on the list are those named, in any history of up to 4095. -/
theorem C70_listed {P : Program} {base : Addr} (L : LoadedAt P base) {ops : List Op} {fs : List Addr} (h : Named P base ops fs)
    (hl : fs.length ≤ 4095) (a : Addr) : listed a (run P ops).fps = true ↔ a ∈ fs := by
  have e : (run P ops).fps = filled fs := by
    have := run_from L h noExempts [] (H2.Lookup.good_init P base) filled_nil.symm (by simp) (by simpa using hl)
    rwa [List.nil_append] at this
  rw [listed_iff, e, entries_filled (named_nonzero h) hl]

theorem run_fps {P : Program} {base : Addr} (L : LoadedAt P base) {ops : List Op} {fs : List Addr} (h : Named P base ops fs)
    (hl : fs.length ≤ 4095) : entries (run P ops).fps = fs := by
  have := run_from L h noExempts [] (H2.Lookup.good_init P base) filled_nil.symm (by simp) (by simpa using hl)
  have e : (run P ops).fps = filled fs := by rwa [List.nil_append] at this
  rw [e, entries_filled (named_nonzero h) hl]

/-! ### Call stacks -/

/-- The call stack as the program sees it: addresses and descriptions. -/
def seen (calls : List Frame) : List (Addr × Text) := calls.map fun f => (f.addr, f.line)

theorem exempt_iff {fps : List Addr} (st : H2.Lookup.St) (id : Nat) (calls : List Frame) (hp : ∀ f ∈ calls, f.Proper)
    (ha : ∀ f ∈ calls, f.Apart (entries fps)) :
    (site ⟨fps, st⟩ id (seen calls)).exempt = true ↔ ∃ f ∈ (calls.take 100).drop 2, ∃ a ∈ entries fps, f.Runs a := by
  show anyIn fps ((((seen calls).map (·.1)).take 100).zip (((seen calls).take 100).map (·.2)) |>.drop 2) = true ↔ _
  have e : (((seen calls).map (·.1)).take 100).zip (((seen calls).take 100).map (·.2)) = (calls.take 100).map fun f => (f.addr, f.line) := by
    unfold seen
    rw [← List.map_take, ← List.map_take, List.map_map, List.map_map, List.zip_map', ]
    rfl
  rw [e, ← List.map_drop]
  have hm : ∀ f ∈ (calls.take 100).drop 2, f ∈ calls := fun f hf => List.mem_of_mem_take (List.mem_of_mem_drop hf)
  exact anyIn_iff fps _ (fun f hf => hp f (hm f hf)) (fun f hf => ha f (hm f hf))

theorem mem_window {α : Type} (l : List α) (x : α) : x ∈ (l.take 100).drop 2 ↔ ∃ k : Nat, 2 ≤ k ∧ k < 100 ∧ l[k]? = some x := by
  rw [List.mem_iff_getElem?]
  constructor
  · rintro ⟨i, hi⟩
    rw [List.getElem?_drop, List.getElem?_take] at hi
    split at hi
    · exact ⟨2 + i, by omega, by assumption, hi⟩
    · simp at hi
  · rintro ⟨k, h1, h2, h3⟩
    refine ⟨k - 2, ?_⟩
    rw [List.getElem?_drop, List.getElem?_take, show 2 + (k - 2) = k from by omega, if_pos h2, h3]

/-- **Which allocations are exempt**: after any history naming up to 4095 functions, an allocation is exempt exactly if one of them is
among its callers: a frame from the third (the first two are the framework's) to the hundredth of the call stack. -/
theorem C70_exempt_partial {P : Program} {base : Addr} (L : LoadedAt P base) {ops : List Op} {fs : List Addr} (h : Named P base ops fs)
    (hl : fs.length ≤ 4095) (id : Nat) (calls : List Frame) (hp : ∀ f ∈ calls, f.Proper) (ha : ∀ f ∈ calls, f.Apart fs) :
    (site (run P ops) id (seen calls)).exempt = true ↔
      ∃ k : Nat, 2 ≤ k ∧ k < 100 ∧ ∃ f, calls[k]? = some f ∧ ∃ a ∈ fs, f.Runs a := by
  have e := run_fps L h hl
  rw [show run P ops = ⟨(run P ops).fps, (run P ops).st⟩ from rfl, exempt_iff _ id calls hp (by rw [e]; exact ha), e]
  constructor
  · rintro ⟨f, hf, r⟩
    obtain ⟨k, h1, h2, h3⟩ := (mem_window calls f).1 hf
    exact ⟨k, h1, h2, f, h3, r⟩
  · rintro ⟨k, h1, h2, f, h3, r⟩
    exact ⟨f, (mem_window calls f).2 ⟨k, h1, h2, h3⟩, r⟩

/-- **What this means for blocks**: an allocation by an exempted function leaves all blocks but the outermost as they are: it is not
counted, and not looked for when they end.  Any other leaves all blocks but the innermost as they are. -/
theorem C70_charged {P : Program} {base : Addr} (L : LoadedAt P base) {ops : List Op} {fs : List Addr} (h : Named P base ops fs)
    (hl : fs.length ≤ 4095) (id : Nat) (calls : List Frame) (hp : ∀ f ∈ calls, f.Proper) (ha : ∀ f ∈ calls, f.Apart fs)
    (heap : H2.Memory.Heap) (page ptr : Nat) (who : H2.Memory.Alloc) (size align : Nat) (fill : Option UInt8) :
    let after := (heap.newPiece page ptr who size align fill (site (run P ops) id (seen calls))).1.blocks
    ((∃ k : Nat, 2 ≤ k ∧ k < 100 ∧ ∃ f, calls[k]? = some f ∧ ∃ a ∈ fs, f.Runs a) → after.dropLast = heap.blocks.dropLast) ∧
    (¬ (∃ k : Nat, 2 ≤ k ∧ k < 100 ∧ ∃ f, calls[k]? = some f ∧ ∃ a ∈ fs, f.Runs a) → after.tail = heap.blocks.tail) := by
  intro after
  have hx := C70_exempt_partial L h hl id calls hp ha
  have key : ∀ (f : H2.Memory.Block → H2.Memory.Block) (l : List H2.Memory.Block), (H2.Memory.updLast f l).dropLast = l.dropLast := by
    intro f l
    induction l with
    | nil => rfl
    | cons x xs ih =>
      cases xs with
      | nil => rfl
      | cons y ys =>
        have e : H2.Memory.updLast f (x :: y :: ys) = x :: H2.Memory.updLast f (y :: ys) := rfl
        have hne : H2.Memory.updLast f (y :: ys) ≠ [] := by cases ys <;> simp [H2.Memory.updLast]
        rw [e, List.dropLast_cons_of_ne_nil hne, ih, List.dropLast_cons_cons]
  constructor
  · intro hc
    have he := hx.2 hc
    show (H2.Memory.Heap.newPiece ..).1.blocks.dropLast = _
    unfold H2.Memory.Heap.newPiece
    split
    · rfl
    · split
      · rfl
      · exact key _ _
  · intro hc
    have he : (site (run P ops) id (seen calls)).exempt = false := by
      cases hb : (site (run P ops) id (seen calls)).exempt
      · rfl
      · exact absurd (hx.1 hb) hc
    show (H2.Memory.Heap.newPiece ..).1.blocks.tail = _
    unfold H2.Memory.Heap.newPiece
    split
    · rfl
    · split
      · rfl
      · simp only [he, Bool.false_eq_true, if_false]
        cases heap.blocks <;> rfl

/-! ### Examples -/

/-- A call stack: the framework twice, a local function, `g` (a function of the program of `H2.Lookup.sample`, loaded at 0x5000), `main`. -/
def stackSample : List Frame :=
  [⟨0x7000, .file "./a.out".toList 0x5000⟩, ⟨0x7100, .file "./a.out".toList 0x5000⟩, ⟨0x7200, .nothing⟩,
   ⟨0x5048, .function "./a.out".toList "_Z1gv".toList 0x5040⟩, ⟨0x5018, .function "./a.out".toList "main".toList 0x5010⟩]

theorem stackSample_proper : ∀ f ∈ stackSample, f.Proper := by
  intro f hf
  simp only [stackSample, List.mem_cons, List.not_mem_nil, or_false] at hf
  rcases hf with rfl | rfl | rfl | rfl | rfl
  · exact ⟨by decide, by decide⟩
  · exact ⟨by decide, by decide⟩
  · trivial
  · exact ⟨by decide, by decide, ⟨'_', "Z1gv".toList, rfl, .inl rfl⟩, by decide, by decide⟩
  · exact ⟨by decide, by decide, ⟨'m', "ain".toList, rfl, .inr (by decide)⟩, by decide, by decide⟩

theorem stackSample_apart (fs : List Addr) (h : 0x5000 ∉ fs) : ∀ f ∈ stackSample, f.Apart fs := by
  intro f hf p b e
  simp only [stackSample, List.mem_cons, List.not_mem_nil, or_false] at hf
  rcases hf with rfl | rfl | rfl | rfl | rfl <;> first | (cases e; exact h) | cases e

theorem nops (a : Addr) : NoJump (fun _ => 0x90) a :=
  ⟨(by decide : (0x90 : UInt8) ≠ 0xE9), (by decide : (0x90 : UInt8) ≠ 0xEB), fun h => absurd h.1 (by decide : (0x90 : UInt8) ≠ 0xFF),
    fun h => absurd h.1 (by decide : (0x90 : UInt8) ≠ 0x48)⟩

/-- `UNMEM("g")` and `UNMEM(main)`, say. -/
theorem namedSample : Named H2.Lookup.sample 0x5000 [.lookup (.text "f".toList), .name (fun _ => 0x90) "g".toList, .fp (fun _ => 0x90) 0x6000]
    [0x5040, 0x6000] :=
  .cons (as := []) .lookup (.cons (.name (by decide) H2.Lookup.sample_g (by decide) (fun p hp => ⟨nops _, by
    rw [List.mem_singleton.1 hp]; decide⟩)) (.cons (.fp (nops _) (by decide)) .nil))

example : (site (run H2.Lookup.sample [.lookup (.text "f".toList), .name (fun _ => 0x90) "g".toList, .fp (fun _ => 0x90) 0x6000]) 7
    (seen stackSample)).exempt = true :=
  (C70_exempt_partial H2.Lookup.sample_loaded namedSample (by decide) 7 stackSample stackSample_proper (stackSample_apart _ (by decide))).2
    ⟨3, by decide, by decide, _, rfl, 0x5040, by decide, _, _, rfl⟩

example : String.ofList (stackSample.getD 3 ⟨0, .nothing⟩).line = "./a.out(_Z1gv+0x8) [0x5048]" := by decide +kernel

/-! ### What is missing -/

/-- **Finding**: the 4096th function and those after it are ignored without a word. -/
theorem C70_full_false {P : Program} {base : Addr} (L : LoadedAt P base) {ops : List Op} {fs : List Addr} (h : Named P base ops fs)
    (hl : fs.length = 4095) (m : Mem) (a : Addr) (ha : a ∉ fs) : listed a (run P (ops ++ [.fp m a])).fps = false := by
  have e : (run P ops).fps = filled fs := by
    have := run_from L h noExempts [] (H2.Lookup.good_init P base) filled_nil.symm (by simp) (by simp [hl])
    rwa [List.nil_append] at this
  have e2 : (run P (ops ++ [.fp m a])).fps = filled fs := by
    unfold run at e ⊢
    rw [List.foldl_append]
    show append (ops.foldl (Exempts.step P) noExempts).fps _ = _
    rw [e]
    unfold filled
    rw [hl, show 4096 - 4095 = 1 from rfl]
    exact (append_spec fs 0 _ (named_nonzero h)).2
  cases hb : listed a (run P (ops ++ [.fp m a])).fps with
  | false => rfl
  | true => rw [listed_iff, e2, entries_filled (named_nonzero h) (by omega)] at hb; exact absurd hb ha

/-- Non-vacuity: 4095 functions named. -/
example : ∃ ops fs, Named H2.Lookup.sample 0x5000 ops fs ∧ fs.length = 4095 ∧ (9 : Addr) ∉ fs := by
  have key : ∀ n, Named H2.Lookup.sample 0x5000 (List.replicate n (.fp (fun _ => 0x90) 8)) (List.replicate n 8) := by
    intro n
    induction n with
    | zero => exact .nil
    | succ n ih => exact .cons (.fp (nops _) (by decide)) ih
  refine ⟨_, _, key 4095, by rw [List.length_replicate], ?_⟩
  intro h
  exact absurd (List.eq_of_mem_replicate h) (by decide)

/-- **Finding**: beyond the hundredth frame callers are not seen: an allocation deep in a recursion of an exempted function is charged. -/
theorem C70_deep_false {P : Program} {base : Addr} (L : LoadedAt P base) {ops : List Op} {fs : List Addr} (h : Named P base ops fs)
    (hl : fs.length ≤ 4095) (id : Nat) (near far : List Frame) (hn : near.length = 100) (hp : ∀ f ∈ near ++ far, f.Proper)
    (ha : ∀ f ∈ near ++ far, f.Apart fs) (hr : ∀ f ∈ near, ∀ a ∈ fs, ¬ f.Runs a) : (site (run P ops) id (seen (near ++ far))).exempt = false := by
  cases hb : (site (run P ops) id (seen (near ++ far))).exempt with
  | false => rfl
  | true =>
    obtain ⟨k, _, h2, f, hf, a, hm, hra⟩ := (C70_exempt_partial L h hl id _ hp ha).1 hb
    rw [List.getElem?_append_left (by omega)] at hf
    exact absurd hra (hr f (List.mem_of_getElem? hf) a hm)

example : ∃ near far : List Frame, near.length = 100 ∧ (∀ f ∈ near ++ far, f.Proper) ∧ (∀ f ∈ near ++ far, f.Apart [0x5040, 0x6000]) ∧
    (∀ f ∈ near, ∀ a ∈ [(0x5040 : Addr), 0x6000], ¬ f.Runs a) ∧ ∃ f ∈ far, ∃ a ∈ [(0x5040 : Addr), 0x6000], f.Runs a := by
  refine ⟨List.replicate 100 ⟨0x7200, .nothing⟩, stackSample, List.length_replicate, ?_, ?_, ?_, _, List.mem_of_getElem? (i := 3) rfl, 0x5040, by decide, _, _, rfl⟩
  · intro f hf
    rcases List.mem_append.1 hf with hf | hf
    · rw [List.eq_of_mem_replicate hf]; trivial
    · exact stackSample_proper f hf
  · intro f hf
    rcases List.mem_append.1 hf with hf | hf
    · rw [List.eq_of_mem_replicate hf]; intro p b e; cases e
    · exact stackSample_apart _ (by decide) f hf
  · intro f hf a _ ⟨p, n, e⟩
    rw [List.eq_of_mem_replicate hf] at e
    cases e

/-- **Finding**: a function that is not exported (a `static` one, or any without `-rdynamic`) is never seen as a caller, though it was named. -/
theorem C70_hidden_false {P : Program} {base : Addr} (L : LoadedAt P base) {ops : List Op} {fs : List Addr} (h : Named P base ops fs)
    (hl : fs.length ≤ 4095) (id : Nat) (calls : List Frame) (hp : ∀ f ∈ calls, f.Proper) (ha : ∀ f ∈ calls, f.Apart fs)
    (hh : ∀ f ∈ calls, ∀ p n a, f.known ≠ .function p n a) : (site (run P ops) id (seen calls)).exempt = false := by
  cases hb : (site (run P ops) id (seen calls)).exempt with
  | false => rfl
  | true =>
    obtain ⟨k, _, _, f, hf, a, _, p, n, e⟩ := (C70_exempt_partial L h hl id _ hp ha).1 hb
    exact absurd e (hh f (List.mem_of_getElem? hf) p n a)

example : ∀ f ∈ stackSample.take 3, f.Proper ∧ f.Apart [0x5040] ∧ ∀ p n a, f.known ≠ .function p n a := by
  intro f hf
  refine ⟨stackSample_proper f (List.mem_of_mem_take hf), stackSample_apart _ (by decide) f (List.mem_of_mem_take hf), ?_⟩
  simp only [stackSample, List.take, List.mem_cons, List.not_mem_nil, or_false] at hf
  rcases hf with rfl | rfl | rfl <;> intro p n a e <;> cases e

/-- **Finding**: if a function is stubbed when it is named, its substitute is put on the list instead of it. -/
theorem C70_stubbed_false (P : Program) (m : Mem) (f g : Addr) (hf : f ≠ g) (hg : NoJump m g) (h0 : g ≠ 0) (hm : m f = 0xE9)
    (hj : f + 5 + H2.Stub.signed 32 (H2.Stub.le (H2.Stub.read m (f + 1) 4)) = g) :
    listed f (run P [.fp m f]).fps = false ∧ listed g (run P [.fp m f]).fps = true := by
  have e1 : followJmps m 32 f = g := by
    rw [followJmps, followJmp, if_pos hm, hj]
    exact follows_nojump hg 31
  have e2 : (run P [.fp m f]).fps = filled [g] := by
    show append (filled []) _ = _
    rw [e1, filled_append (by simp) (by decide), List.nil_append]
  have e3 : entries (filled [g]) = [g] := entries_filled (fun h => h0 (List.mem_singleton.1 h).symm) (by simp)
  constructor
  · cases hb : listed f (run P [.fp m f]).fps with
    | false => rfl
    | true => rw [listed_iff, e2, e3] at hb; exact absurd (List.mem_singleton.1 hb) hf
  · rw [listed_iff, e2, e3]; exact List.mem_singleton_self g

/-- Non-vacuity: at 0x100 a jump to 0x200. -/
example : let m : Mem := fun a => if a = 0x100 then 0xE9 else if a = 0x101 then 0xFB else 0
    m 0x100 = 0xE9 ∧ NoJump m 0x200 ∧ (0x100 : Addr) + 5 + H2.Stub.signed 32 (H2.Stub.le (H2.Stub.read m (0x100 + 1) 4)) = 0x200 := by
  unfold NoJump; decide +kernel

/-! ### C71 -/

theorem mangled_line {dem : Text → Text} {f : Frame × Option Text} (h : Usual dem f) :
    mangled f.1.line = match f.1.known with | .function _ n _ => n | _ => [] := by
  unfold mangled
  rw [extract_line f.1 h.proper]
  have hn := h.name
  cases hk : f.1.known with
  | function p n s => simp [(hn p n s hk).2]
  | file p b => rfl
  | nothing => rfl

theorem shown_told {dem : Text → Text} {f : Frame × Option Text} (h : Usual dem f) : shownAs f.1.line f.2 dem = told dem f := by
  have hm := mangled_line h
  have hn := h.name
  have he := h.empty
  obtain ⟨⟨a, k⟩, o⟩ := f
  cases o with
  | some p =>
    show (if p = [] then _ else p) = p
    rw [if_neg fun e => h.found (by rw [e])]
  | none =>
    show (if dem (mangled _) = [] then _ else dem (mangled _)) = _
    rw [hm]
    cases k with
    | function p n s => exact if_neg (hn p n s rfl).1
    | file p b => exact if_pos he
    | nothing => exact if_pos he

theorem printLoop_spec (dem : Text → Text) (fs : List (Frame × Option Text)) (h : ∀ f ∈ fs, Usual dem f) : ∃ pre rest, fs = pre ++ rest ∧
    printLoop dem (fs.map fun f => (f.1.line, f.2)) = pre.map (told dem) ∧ (∀ f ∈ pre.dropLast, ¬ f.1.IsMain) ∧
    ((rest = [] ∧ ∀ f ∈ pre.getLast?, ¬ f.1.IsMain) ∨ ∃ f, pre.getLast? = some f ∧ f.1.IsMain) := by
  induction fs with
  | nil => exact ⟨[], [], rfl, rfl, by simp, .inl ⟨rfl, by simp⟩⟩
  | cons f fs ih =>
    have hf := h f (by simp)
    have hm : (mangled f.1.line = "main".toList ∨ mangled f.1.line = "__libc_start_main".toList) ↔ f.1.IsMain := by
      rw [mangled_line hf]
      constructor
      · intro hh
        cases hk : f.1.known with
        | function p n s => rw [hk] at hh; exact ⟨p, n, s, hk, hh⟩
        | file p b => rw [hk] at hh; rcases hh with hh | hh <;> simp at hh
        | nothing => rw [hk] at hh; rcases hh with hh | hh <;> simp at hh
      · rintro ⟨p, n, s, hk, hh⟩
        rw [hk]; exact hh
    rw [List.map_cons, printLoop]
    by_cases hc : f.1.IsMain
    · rw [if_pos (by rw [Bool.or_eq_true, decide_eq_true_eq, decide_eq_true_eq]; exact hm.2 hc)]
      exact ⟨[f], fs, rfl, by rw [shown_told hf]; rfl, by simp, .inr ⟨f, rfl, hc⟩⟩
    · rw [if_neg (by rw [Bool.or_eq_true, decide_eq_true_eq, decide_eq_true_eq]; exact fun e => hc (hm.1 e))]
      obtain ⟨pre, rest, e1, e2, e3, e4⟩ := ih fun g hg => h g (by simp [hg])
      refine ⟨f :: pre, rest, by rw [e1]; rfl, by rw [shown_told hf, e2]; rfl, ?_, ?_⟩
      · cases pre with
        | nil => simp
        | cons x xs =>
          intro g hg
          rw [List.dropLast_cons_cons] at hg
          rcases List.mem_cons.1 hg with rfl | hg
          · exact hc
          · exact e3 g hg
      · cases pre with
        | nil =>
          rcases e4 with ⟨e5, _⟩ | ⟨g, hg, _⟩
          · exact .inl ⟨e5, by intro g hg; simp at hg; rw [← hg]; exact hc⟩
          · simp at hg
        | cons x xs => rw [List.getLast?_cons_cons]; exact e4

/-- **A call stack is printed from the call to `main`**: in order, one entry for every frame of the innermost hundred, without the first
`shift` ones; the last is that of `main` (or what calls it), if it is among them, and nothing behind it is printed. -/
theorem C71_print (dem : Text → Text) (shift : Nat) (calls : List (Frame × Option Text)) (h : ∀ f ∈ calls, Usual dem f) :
    ∃ pre rest, (calls.take 100).drop shift = pre ++ rest ∧
      (dump shift (calls.map (·.1.addr))).print dem ((calls.take 100).map fun f => (f.1.line, f.2)) = pre.map (told dem) ∧
      (∀ f ∈ pre.dropLast, ¬ f.1.IsMain) ∧
      ((rest = [] ∧ ∀ f ∈ pre.getLast?, ¬ f.1.IsMain) ∨ ∃ f, pre.getLast? = some f ∧ f.1.IsMain) := by
  obtain ⟨pre, rest, e1, e2, e3⟩ := printLoop_spec dem ((calls.take 100).drop shift)
    fun f hf => h f (List.mem_of_mem_take (List.mem_of_mem_drop hf))
  refine ⟨pre, rest, e1, ?_, e3⟩
  rw [← e2]
  unfold Trace.print dump
  simp only [List.length_take, List.length_map]
  rw [List.take_of_length_le (by simp), ← List.map_drop]

/-- A demangler for the example. -/
def demSample (n : Text) : Text := if n = "_Z1gv".toList then "g()".toList else n

example : (dump 2 (stackSample.map (·.addr))).print demSample (stackSample.map fun f => (f.line, none)) =
    ["[0x7200]".toList, "g()".toList, "main".toList] := by decide +kernel

example : ∀ f ∈ stackSample.map (fun f => (f, (none : Option Text))), Usual demSample f := by
  intro f hf
  obtain ⟨g, hg, rfl⟩ := List.mem_map.1 hf
  refine ⟨stackSample_proper g hg, by simp, ?_, by decide⟩
  simp only [stackSample, List.mem_cons, List.not_mem_nil, or_false] at hg
  rcases hg with rfl | rfl | rfl | rfl | rfl <;> intro p n s e <;> cases e <;> decide

theorem sameFrames_iff : ∀ as bs : List Addr, as.length = bs.length → (sameFrames as bs = true ↔ as = bs)
  | [], [], _ => by simp [sameFrames]
  | a :: as, b :: bs, h => by
    rw [sameFrames]
    by_cases hab : a = b
    · rw [if_neg (by simpa using hab), sameFrames_iff as bs (by simpa using h)]; simp [hab]
    · rw [if_pos hab]; simp [hab]

/-- **Call sites are told apart by their call stacks**: two are the same exactly if the innermost hundred frames are. -/
theorem C71_same (shift shift' : Nat) (s t : List Addr) : (dump shift s).eq (dump shift' t) = true ↔ s.take 100 = t.take 100 := by
  unfold Trace.eq dump
  simp only
  by_cases h : (s.take 100).length = (t.take 100).length
  · rw [if_neg (by simpa using h), sameFrames_iff _ _ h]
  · rw [if_pos h]
    simp only [Bool.false_eq_true, false_iff]
    exact fun e => h (by rw [e])

/-- **Finding**: allocations from different callers look like one call site if the callers are more than a hundred frames away. -/
theorem C71_deep_false (near s t : List Addr) (h : near.length = 100) : (dump 2 (near ++ s)).eq (dump 2 (near ++ t)) = true := by
  rw [C71_same, List.take_append_of_le_length (by omega), List.take_append_of_le_length (by omega)]

example : (List.replicate 100 (7 : Addr)).length = 100 ∧ List.replicate 100 (7 : Addr) ++ [1] ≠ List.replicate 100 7 ++ [2] := by
  simp

end H2.Backtrace
