import Verif.Stub.Props
import Verif.Lookup.Lemmas
namespace H2.Lookup
open H2.Nm (Symbol Called Underscored Data Functions OneProgram IsFunction)
open H2.Stub (Addr Jumps Reach)
open H2.Layout (text brush)

/-! ## C67: functions given by name -/

/-- **C67**: whatever was looked up before, a name that stands for one function gives its address in the running program. -/
theorem C67_unique {P : Program} {base : Addr} (L : LoadedAt P base) (ops : List Op) (nm : Text) (hn : nm ≠ []) (p : Symbol)
    (h : Stands P nm [p]) : (getByText P (run P ops) nm).1 = (base + BitVec.ofNat 64 p.addr, none) := by
  have g := good_run L ops
  have e := g.nm.stands L.one L.before hn h
  have g' := g.withNm (g.nm.byName (some nm) 16)
  unfold getByText
  simp only [e]
  rw [if_pos (by rfl)]
  simp only [addrToPtr, (g'.setText L).2]
  show (BitVec.ofNat 64 p.addr + base, none) = _
  rw [BitVec.add_comm]

/-- **C67**: a name that stands for no function, or for more than one, gives none; the failure names those it stands for, up to 16. -/
theorem C67_not_unique {P : Program} {base : Addr} (L : LoadedAt P base) (ops : List Op) (nm : Text) (hn : nm ≠ []) (all : List Symbol)
    (h : Stands P nm all) (h1 : ¬ ∃ p, all = [p]) :
    ∃ names, AreCalled P (all.take 16) names ∧ (getByText P (run P ops) nm).1 = (0, some { symbol := nm, candidates := names }) := by
  have g := good_run L ops
  have e := g.nm.stands L.one L.before hn h
  refine ⟨(all.take 16).map (H2.Nm.name (H2.Nm.getByName P.before P.dl (some nm) 16 (run P ops).nm).2.leading), ⟨by simp, ?_⟩, ?_⟩
  · intro i p n hp hq
    have hl : (H2.Nm.getByName P.before P.dl (some nm) 16 (run P ops).nm).1 ≠ [] := by
      rw [e]; intro hx; rw [hx] at hp; simp at hp
    have hu := g.nm.leading L.one hn 16 hl
    rw [List.getElem?_map, hp] at hq
    have : H2.Nm.name (H2.Nm.getByName P.before P.dl (some nm) 16 (run P ops).nm).2.leading p = n := by simpa using hq
    rw [H2.Nm.C49_called, propext hu] at this
    exact this
  · unfold getByText
    simp only [e]
    rw [if_neg (stands_take all h1)]

/-- **C67**: the empty name stands for nothing. -/
theorem C67_empty (P : Program) (s : St) : (getByText P s []).1 = (0, some { symbol := [], candidates := [] }) := rfl

/-- **C67**: what is told in the failure. -/
theorem C67_told (f : Failure) (hs : '\x1b' ∉ f.symbol) (hc : ∀ c ∈ f.candidates, '\x1b' ∉ c) :
    f.print.map text = told f.symbol f.candidates ++ (if text f.explain = [] then [] else [text f.explain]) := by
  unfold Failure.print told
  rw [List.map_append, List.map_append, text_candidates f.candidates hc 0]
  congr 1
  · rw [List.map_cons, List.map_nil, H2.Message.text_append, H2.Message.text_brush, H2.Message.text_brush, H2.Message.text_word f.symbol hs]
    rw [List.singleton_append]
    congr 1
    · congr 1
      cases f.candidates with
      | nil => rfl
      | cons c cs => rw [if_neg (by simp), if_neg (by simp), H2.Message.text_word _ (by decide)]
    · apply List.map_congr_left
      intro j _
      rw [Nat.zero_add]
  · by_cases hx : H2.Layout.lineWidth f.explain = 0
    · rw [if_neg (by simpa using hx), if_pos ((H2.Message.width_zero _).1 hx)]; rfl
    · rw [if_pos hx, if_neg (fun h => hx ((H2.Message.width_zero _).2 h))]; rfl

/-- **C67**: what is told when a name stands for no function or for several: how often it was found, and each that was found. -/
theorem C67_report {P : Program} {base : Addr} (L : LoadedAt P base) (hesc : ∀ l ∈ P.dl, '\x1b' ∉ l.symbol) (ops : List Op) (nm : Text)
    (hn : nm ≠ []) (hne : '\x1b' ∉ nm) (all : List Symbol) (h : Stands P nm all) (h1 : ¬ ∃ p, all = [p]) :
    ∃ names f, AreCalled P (all.take 16) names ∧ (getByText P (run P ops) nm).1 = (0, some f) ∧ f.print.map text = told nm names := by
  obtain ⟨names, ha, e⟩ := C67_not_unique L ops nm hn all h h1
  refine ⟨names, _, ha, e, ?_⟩
  have hall : ∀ p ∈ all, '\x1b' ∉ p.symbol := by
    rcases h with ⟨l, ⟨front, back, el, _⟩, rfl⟩ | ⟨_, hf⟩
    · exact absurd ⟨_, rfl⟩ h1
    · exact functions_plain hf hesc
  rw [C67_told _ hne]
  · simp [text, H2.Layout.cells, H2.Layout.cellsFrom]
  · intro c hc hm
    obtain ⟨i, hi, rfl⟩ := List.mem_iff_getElem.1 hc
    have hp : (all.take 16)[i]? = some ((all.take 16)[i]'(by rw [← ha.1]; exact hi)) := List.getElem?_eq_getElem _
    have := ha.2 i _ _ hp (List.getElem?_eq_getElem hi)
    have hmem : (all.take 16)[i]'(by rw [← ha.1]; exact hi) ∈ all := List.mem_of_mem_take (List.getElem_mem _)
    rcases this with ⟨_, hcall⟩ | ⟨_, hcall⟩
    · exact hall _ hmem (by rw [hcall]; exact List.mem_cons_of_mem _ hm)
    · exact hall _ hmem (by rw [hcall]; exact hm)

/-- **C67**: an address of the file, taken to the running program and back (as backtraces do), is itself. -/
theorem C67_round {P : Program} {base : Addr} (L : LoadedAt P base) (ops ops' : List Op) (a : Nat) (ha : a < 2 ^ 64) :
    (addrToPtr P (run P ops) a).1 = base + BitVec.ofNat 64 a ∧ (ptrToAddr P (run P ops') (base + BitVec.ofNat 64 a)).1 = a := by
  have g := (good_run L ops).setText L
  have g' := (good_run L ops').setText L
  constructor
  · simp only [addrToPtr, g.2, BitVec.add_comm]
  · simp only [ptrToAddr, g'.2]
    have : base + BitVec.ofNat 64 a - base = BitVec.ofNat 64 a := by bv_omega
    rw [this, BitVec.toNat_ofNat, Nat.mod_eq_of_lt ha]

/-- **C67**: `STUB("name", …)` of a name that stands for one function makes that function jump to the other; no failure is told. -/
theorem C67_stub {P : Program} {base : Addr} (L : LoadedAt P base) (ops : List Op) (nm : Text) (hn : nm ≠ []) (p : Symbol)
    (h : Stands P nm [p]) (h0 : base + BitVec.ofNat 64 p.addr ≠ 0) (inCase continue_ : Bool) (scope : Nat) (dst : Addr) (hd : dst ≠ 0)
    (t : Test) (hr : Reach t.stubs) (ho : t.on = true) :
    ∃ t', stubWith inCase continue_ scope (getByText P (run P ops) nm).1 dst t = some t' ∧ t'.fails = t.fails ∧ t'.on = true ∧
      ∃ u ∈ t'.stubs.stubs, u.scope = scope ∧ u.name = base + BitVec.ofNat 64 p.addr ∧ Jumps t'.stubs.mem u.source dst ∧
        ((∀ v ∈ t.stubs.stubs, ¬ (v.scope = scope ∧ v.name = base + BitVec.ofNat 64 p.addr)) →
          u.source = t.stubs.resolve (base + BitVec.ofNat 64 p.addr)) := by
  rw [C67_unique L ops nm hn p h]
  obtain ⟨s', e⟩ := Option.isSome_iff_exists.1 (H2.Stub.C30_defined hr scope (base + BitVec.ofNat 64 p.addr) dst).1
  refine ⟨{ t with stubs := s' }, ?_, rfl, ho, H2.Stub.C31_stub hr e⟩
  unfold stubWith failing H2.Stub.State.runnerStub
  simp only [ho, if_true]
  rw [if_neg (fun h => h.elim h0 hd), e]
  rfl

/-- **C67**: `STUB("name", …)` and `UNSTUB("name")` of a name that stands for no function or for several leave the code as it is.  In a
case the failure is told, and the case ends there unless `-c` was given. -/
theorem C67_left_alone {P : Program} {base : Addr} (L : LoadedAt P base) (ops : List Op) (nm : Text) (hn : nm ≠ []) (all : List Symbol)
    (h : Stands P nm all) (h1 : ¬ ∃ p, all = [p]) (continue_ : Bool) (scope : Nat) (dst : Addr) (t : Test) (ho : t.on = true) :
    ∃ f, (getByText P (run P ops) nm).1.2 = some f ∧
      stubWith true continue_ scope (getByText P (run P ops) nm).1 dst t = some { stubs := t.stubs, fails := t.fails ++ [f], on := continue_ } ∧
      unstubWith true continue_ scope (getByText P (run P ops) nm).1 t = some { stubs := t.stubs, fails := t.fails ++ [f], on := continue_ } := by
  obtain ⟨names, _, e⟩ := C67_not_unique L ops nm hn all h h1
  refine ⟨_, by rw [e], ?_, ?_⟩
  · rw [e]
    unfold stubWith failing H2.Stub.State.runnerStub
    cases continue_ <;> simp
  · rw [e]
    unfold unstubWith failing H2.Stub.State.runnerUnstub
    cases continue_ <;> simp

/-- **C67**, what is missing: outside a case (as in a global setup) nothing is told: the test goes on as if nothing had been asked for. -/
theorem C67_silent {P : Program} {base : Addr} (L : LoadedAt P base) (ops : List Op) (nm : Text) (hn : nm ≠ []) (all : List Symbol)
    (h : Stands P nm all) (h1 : ¬ ∃ p, all = [p]) (continue_ : Bool) (scope : Nat) (dst : Addr) (t : Test) :
    stubWith false continue_ scope (getByText P (run P ops) nm).1 dst t = some t ∧
      unstubWith false continue_ scope (getByText P (run P ops) nm).1 t = some t := by
  obtain ⟨names, _, e⟩ := C67_not_unique L ops nm hn all h h1
  rw [e]
  unfold stubWith unstubWith failing H2.Stub.State.runnerStub H2.Stub.State.runnerUnstub
  cases t.on <;> simp

/-! ## C68: methods -/

/-- **C68**: a method that is not virtual is where its pointer says, whatever the class and the object. -/
theorem C68_plain (P : Program) (s : St) (low : Bool) (c : Class) (o : Addr) (f : MemberPtr) (hf : 8 * methodLimit low ≤ f.ptr.toNat) :
    (getMethod P s low c f).1 = (f.ptr, none) ∧ getMethodOf P low o f = f.ptr := by
  have hv : isVirtual low f.ptr = false := by
    unfold methodLimit at hf
    unfold isVirtual
    cases low with
    | true => simp at hf ⊢; omega
    | false => simp at hf ⊢; omega
  simp [getMethod, getMethodOf, hv]

/-- **C68**: a virtual method of an object is the one in the table of the object, be it of the class that is named or of one derived. -/
theorem C68_object {P : Program} {o : Addr} {methods : List Addr} (h : Object P o methods) (low : Bool) (k : Nat) (hk : k < methodLimit low)
    (m : Addr) (hm : methods[k]? = some m) (adj : Addr) : getMethodOf P low o (virtualPtr low k adj) = m := by
  unfold getMethodOf
  rw [if_pos (virtual_is low k hk adj), slot_eq P _ low k hk adj]
  exact h k m hm

/-- **C68**: a virtual method of a class with a constructor that can be called is the one in the table of the object made. -/
theorem C68_made {P : Program} (s : St) {o : Addr} {methods : List Addr} (h : Object P o methods) (low : Bool) (mangled readable : Text)
    (k : Nat) (hk : k < methodLimit low) (m : Addr) (hm : methods[k]? = some m) (adj : Addr) :
    getMethod P s low ⟨mangled, readable, .object o⟩ (virtualPtr low k adj) = ((m, none), s) := by
  unfold getMethod
  rw [if_pos (virtual_is low k hk adj)]
  simp only
  rw [slot_eq P _ low k hk adj, h k m hm]

/-- **C68**: a virtual method of another class is the one in the table of the class, if the file has a symbol for it. -/
theorem C68_table {P : Program} {base : Addr} (L : LoadedAt P base) (ops : List Op) (low : Bool) (c : Class) (hc : ∀ o, c.maker ≠ .object o)
    (l : H2.Nm.Line) (hl : First P.ml ("_ZTV".toList ++ c.mangled) l) (h0 : l.addr ≠ 0) {methods : List Addr} (ht : Table P base l.addr methods)
    (k : Nat) (hk : k < methodLimit low) (m : Addr) (hm : methods[k]? = some m) (adj : Addr) :
    (getMethod P (run P ops) low c (virtualPtr low k adj)).1 = (m, none) := by
  have g := good_run L ops
  have e := g.nm.mangled L.one (by simp) hl
  have g' := g.withNm (g.nm.mangle (some ("_ZTV".toList ++ c.mangled)))
  rw [getMethod_table P _ low c hc _ (virtual_is low k hk adj)]
  unfold getByTable
  simp only [e, if_neg h0]
  simp only [vtableToPtr, (g'.setVtable L).2]
  rw [slot_eq P _ low k hk adj]
  have := ht k m hm
  rw [show BitVec.ofNat 64 l.addr + (base + 16) = base + BitVec.ofNat 64 l.addr + 16 by bv_omega, this]

/-- **C68**: without a symbol for the table, and for the type, the failure tells so and how to go on; no function is found. -/
theorem C68_unknown {P : Program} {base : Addr} (L : LoadedAt P base) (ops : List Op) (low : Bool) (c : Class) (hc : ∀ o, c.maker ≠ .object o)
    (he : '\x1b' ∉ c.readable) (h1 : Nobody P.ml ("_ZTV".toList ++ c.mangled)) (h2 : Nobody P.ml ("_ZTI".toList ++ c.mangled))
    (k : Nat) (hk : k < methodLimit low) (adj : Addr) :
    ∃ f, (getMethod P (run P ops) low c (virtualPtr low k adj)).1 = (0, some f) ∧
      f.print.map text = [" Not found vtable of ".toList ++
        (if c.maker = .abstract then "abstract ".toList else "non default constructor ".toList) ++ c.readable,
        "  try: STUB/MOCK(Object, Class, Method, ...)".toList] := by
  have g := good_run L ops
  have e1 := g.nm.unmangled L.one (by simp) h1
  have g1 := g.nm.mangle (some ("_ZTV".toList ++ c.mangled))
  have e2 := g1.unmangled L.one (by simp) h2
  rw [getMethod_table P _ low c hc _ (virtual_is low k hk adj)]
  unfold getByTable
  simp only [e1, if_true, e2]
  refine ⟨_, rfl, ?_⟩
  rw [C67_told]
  · have ht : text hint = "  try: STUB/MOCK(Object, Class, Method, ...)".toList := by decide +kernel
    have hm : c.maker.error = if c.maker = .abstract then "abstract ".toList else "non default constructor ".toList := by
      cases hx : c.maker with
      | object o => exact absurd hx (hc o)
      | abstract => rfl
      | noConstructor => rfl
    have hn : " Not found ".toList ++ "vtable of ".toList = " Not found vtable of ".toList := by decide
    show told _ [] ++ (if text hint = [] then [] else [text hint]) = _
    rw [ht, if_neg (by decide), told_nil, hm, ← List.append_assoc, ← List.append_assoc, hn]
    rfl
  · intro h
    rcases List.mem_append.1 h with h | h
    · rcases List.mem_append.1 h with h | h
      · exact absurd h (by decide)
      · revert h
        cases c.maker with
        | object o => intro h; cases h
        | abstract => decide
        | noConstructor => decide
    · exact he h
  · intro x hx; cases hx

/-- **C68**, what is missing: with a symbol for the type but none for the table (an abstract class whose table was not needed), what is
found is whatever word lies behind the description of the type, and no failure is told. -/
theorem C68_typeinfo {P : Program} {base : Addr} (L : LoadedAt P base) (ops : List Op) (low : Bool) (c : Class) (hc : ∀ o, c.maker ≠ .object o)
    (h1 : Nobody P.ml ("_ZTV".toList ++ c.mangled)) (l : H2.Nm.Line) (hl : First P.ml ("_ZTI".toList ++ c.mangled) l) (h0 : l.addr ≠ 0)
    (k : Nat) (hk : k < methodLimit low) (adj : Addr) :
    (getMethod P (run P ops) low c (virtualPtr low k adj)).1 =
      (P.word (base + BitVec.ofNat 64 l.addr + 16 + BitVec.ofNat 64 (8 * k)), none) := by
  have g := good_run L ops
  have e1 := g.nm.unmangled L.one (by simp) h1
  have g1 := g.nm.mangle (some ("_ZTV".toList ++ c.mangled))
  have e2 := g1.mangled L.one (by simp) hl
  have g' := g.withNm (g1.mangle (some ("_ZTI".toList ++ c.mangled)))
  rw [getMethod_table P _ low c hc _ (virtual_is low k hk adj)]
  unfold getByTable
  simp only [e1, if_true, e2, if_neg h0]
  simp only [vtableToPtr, (g'.setVtable L).2]
  rw [slot_eq P _ low k hk adj]
  rw [show BitVec.ofNat 64 l.addr + (base + 16) = base + BitVec.ofNat 64 l.addr + 16 by bv_omega]

/-- **C68**, refuted for a class with more virtual methods than the limit: the pointer is taken for the address of a function. -/
theorem C68_many_false (P : Program) (s : St) (low : Bool) (c : Class) (o : Addr) (k : Nat) (hk : methodLimit low ≤ k) (hs : 8 * k + 1 < 2 ^ 64)
    (adj : Addr) :
    (getMethod P s low c (virtualPtr low k adj)).1 = (BitVec.ofNat 64 (if low then 8 * k + 1 else 8 * k), none) ∧
      getMethodOf P low o (virtualPtr low k adj) = BitVec.ofNat 64 (if low then 8 * k + 1 else 8 * k) := by
  refine C68_plain P s low c o (virtualPtr low k adj) ?_
  show _ ≤ (BitVec.ofNat 64 (if low then 8 * k + 1 else 8 * k)).toNat
  rw [BitVec.toNat_ofNat, Nat.mod_eq_of_lt]
  · cases low <;> simp <;> omega
  · cases low <;> simp <;> omega

/-- **C68**, refuted for a method inherited from another base than the first: the table of the first base is used. -/
theorem C68_second_base_false : ∃ (P : Program) (o adj : Addr) (k : Nat),
    getMethodOf P true o (virtualPtr true k adj) ≠ P.word (P.word (o + adj) + BitVec.ofNat 64 (8 * k)) ∧
    getMethodOf P true o (virtualPtr true k adj) = P.word (P.word o + BitVec.ofNat 64 (8 * k)) := by
  refine ⟨⟨'x', [], [], 0, 0, [], fun a => if a = 0x9000 then 0x5210 else if a = 0x9008 then 0x5240 else if a = 0x5210 then 0xa0 else
    if a = 0x5240 then 0xb0 else 0⟩, 0x9000, 8, 0, ?_⟩
  decide +kernel

/-! ### A concrete program -/

def sampleDl : List H2.Nm.Line :=
  [⟨0x10, 'T', "main".toList⟩, ⟨0x20, 'T', "f(int)".toList⟩, ⟨0x30, 't', "ns::f(char)".toList⟩, ⟨0x40, 'T', "g(long)".toList⟩,
   ⟨0x100, 'V', "vtable for Test".toList⟩, ⟨0x200, 'V', "vtable for Shape".toList⟩, ⟨0x280, 'D', "vtable for Wall".toList⟩]
def sampleMl : List H2.Nm.Line :=
  [⟨0x10, 'T', "main".toList⟩, ⟨0x20, 'T', "_Z1fi".toList⟩, ⟨0x30, 't', "_ZN2ns1fEc".toList⟩, ⟨0x40, 'T', "_Z1gl".toList⟩,
   ⟨0x100, 'V', "_ZTV4Test".toList⟩, ⟨0x200, 'V', "_ZTV5Shape".toList⟩, ⟨0x280, 'D', "_ZTV4Wall".toList⟩]
def sample : Program where
  before := 'x'
  dl := sampleDl
  ml := sampleMl
  mainPtr := 0x5010
  testTable := 0x5110
  testName := "4Test".toList
  word := fun a => if a = 0x5210 then 0x5a0 else if a = 0x5218 then 0x5b0 else if a = 0x9000 then 0x5210 else 0

theorem sample_not_underscored (lines : List H2.Nm.Line) (h : ∃ l ∈ lines, ¬ Data l.type ∧ l.symbol = "main".toList) : ¬ Underscored lines :=
  fun u => u.2 h

theorem called_plain {u : Prop} (hu : ¬ u) (sym nm : Text) : Called u sym nm ↔ sym = nm := by
  unfold Called
  simp [hu]

theorem first_plain {lines : List H2.Nm.Line} (hu : ¬ Underscored lines) (nm : Text) (i : Nat) (l : H2.Nm.Line) (hl : lines[i]? = some l)
    (hd : ¬ Data l.type) (hs : l.symbol.take 127 = nm) (hf : ∀ l' ∈ lines.take i, l'.symbol.take 127 ≠ nm) : First lines nm l := by
  obtain ⟨hi, e⟩ := List.getElem?_eq_some_iff.1 hl
  refine ⟨lines.take i, lines.drop (i + 1), ?_, hd, (called_plain hu _ _).2 hs, fun l' h' _ hc => hf l' h' ((called_plain hu _ _).1 hc)⟩
  rw [← e, List.getElem_cons_drop, List.take_append_drop]

theorem nobody_plain {lines : List H2.Nm.Line} (hu : ¬ Underscored lines) (nm : Text)
    (hf : ∀ l' ∈ lines, ¬ Data l'.type → l'.symbol.take 127 ≠ nm) : Nobody lines nm :=
  fun l' h' hd hc => hf l' h' hd ((called_plain hu _ _).1 hc)

theorem sample_dl : ¬ Underscored sampleDl := sample_not_underscored _ ⟨⟨0x10, 'T', "main".toList⟩, by decide, by unfold Data; decide, rfl⟩
theorem sample_ml : ¬ Underscored sampleMl := sample_not_underscored _ ⟨⟨0x10, 'T', "main".toList⟩, by decide, by unfold Data; decide, rfl⟩

theorem sample_loaded : LoadedAt sample 0x5000 where
  one := ⟨fun h => absurd h sample_dl, fun h => absurd h sample_ml⟩
  before := by decide
  main := ⟨⟨0x10, 'T', "main".toList⟩, first_plain sample_dl _ 0 _ rfl (by unfold Data; decide) (by decide) (by decide), by decide⟩
  test := ⟨⟨0x100, 'V', "_ZTV4Test".toList⟩, first_plain sample_ml _ 4 _ rfl (by unfold Data; decide) (by decide) (by decide), by decide⟩

theorem sample_functions (nm : Text) :
    Functions (Underscored sampleDl) nm sampleDl ((H2.Nm.nmLines sampleDl).filter (H2.Nm.qualifies 'x' false nm)) := by
  rw [show Underscored sampleDl = (false = true) from propext ⟨fun h => absurd h sample_dl, fun h => by cases h⟩]
  exact H2.Nm.functions_filter 'x' (by decide) false nm sampleDl

/-- `g` stands for one function. -/
theorem sample_g : Stands sample "g".toList [⟨"g(long)".toList, 0x40⟩] :=
  .inr ⟨nobody_plain sample_dl _ (by unfold Data; decide), sample_functions "g".toList⟩

/-- `f` stands for two. -/
theorem sample_f : Stands sample "f".toList [⟨"f(int)".toList, 0x20⟩, ⟨"ns::f(char)".toList, 0x30⟩] :=
  .inr ⟨nobody_plain sample_dl _ (by unfold Data; decide), sample_functions "f".toList⟩

/-- `h` stands for none. -/
theorem sample_h : Stands sample "h".toList [] :=
  .inr ⟨nobody_plain sample_dl _ (by unfold Data; decide), sample_functions "h".toList⟩

example : (getByText sample (run sample [.text "f".toList, .toPtr 3]) "g".toList).1 = (0x5040, none) :=
  C67_unique sample_loaded _ _ (by decide) _ sample_g
example : ∃ names f, AreCalled sample [⟨"f(int)".toList, 0x20⟩, ⟨"ns::f(char)".toList, 0x30⟩] names ∧
    (getByText sample (run sample []) "f".toList).1 = (0, some f) ∧ f.print.map text = told "f".toList names :=
  C67_report sample_loaded (by decide) [] _ (by decide) (by decide) _ sample_f (by simp)
example : ((getByText sample {} "f".toList).1.2.map fun f => f.print.map text) =
    some [" Find multiple f".toList, "  0. f(int)".toList, "  1. ns::f(char)".toList] := by decide +kernel
example : ((getByText sample {} "h".toList).1.2.map fun f => f.print.map text) = some [" Not found h".toList] := by decide +kernel
example : ∃ f, (getByText sample (run sample []) "h".toList).1.2 = some f ∧
    stubWith true false 1 (getByText sample (run sample []) "h".toList).1 0x7000 { stubs := ⟨fun _ => 0x90, [], []⟩ } =
      some { stubs := ⟨fun _ => 0x90, [], []⟩, fails := [f], on := false } := by
  obtain ⟨f, e1, e2, _⟩ := C67_left_alone sample_loaded [] _ (by decide) _ sample_h (by simp) false 1 0x7000 { stubs := ⟨fun _ => 0x90, [], []⟩ } rfl
  exact ⟨f, e1, e2⟩
example : ∃ t', stubWith true false 1 (getByText sample (run sample []) "g".toList).1 0x7000 { stubs := ⟨fun _ => 0x90, [], []⟩ } = some t' ∧
    t'.fails = [] ∧ ∃ u ∈ t'.stubs.stubs, u.name = 0x5040 ∧ Jumps t'.stubs.mem u.source 0x7000 := by
  obtain ⟨t', e, hf, _, u, hu, _, hn, hj, _⟩ := C67_stub sample_loaded [] _ (by decide) _ sample_g (by decide) true false 1 0x7000 (by decide)
    { stubs := ⟨fun _ => 0x90, [], []⟩ } (.start _) rfl
  exact ⟨t', e, hf, u, hu, hn, hj⟩

theorem sample_table : Table sample 0x5000 0x200 [0x5a0, 0x5b0] := by
  intro k m h
  match k with
  | 0 => cases h; decide
  | 1 => cases h; decide
  | k + 2 => simp at h
theorem sample_object : Object sample 0x9000 [0x5a0, 0x5b0] := by
  intro k m h
  match k with
  | 0 => cases h; decide
  | 1 => cases h; decide
  | k + 2 => simp at h

example : (getMethod sample (run sample [.text "f".toList]) true ⟨"5Shape".toList, "Shape".toList, .abstract⟩ (virtualPtr true 1 0)).1 = (0x5b0, none) :=
  C68_table sample_loaded _ true _ (by simp) _
    (first_plain sample_ml _ 5 ⟨0x200, 'V', "_ZTV5Shape".toList⟩ rfl (by unfold Data; decide) (by decide) (by decide)) (by decide) sample_table
    1 (by decide) _ rfl 0
example : getMethodOf sample true 0x9000 (virtualPtr true 1 0) = 0x5b0 := C68_object sample_object true 1 (by decide) _ rfl 0
example : getMethodOf sample false 0x9000 (virtualPtr false 1 1) = 0x5b0 := C68_object sample_object false 1 (by decide) _ rfl 1

/-- **C68**, what is missing: a table that `nm` lists among the data (type `D`) is not found, though the class has it. -/
theorem C68_data_false : ∃ f, (getMethod sample (run sample []) true ⟨"4Wall".toList, "Wall".toList, .abstract⟩ (virtualPtr true 0 0)).1 = (0, some f) ∧
    f.print.map text = [" Not found vtable of abstract Wall".toList, "  try: STUB/MOCK(Object, Class, Method, ...)".toList] :=
  C68_unknown sample_loaded [] true ⟨"4Wall".toList, "Wall".toList, .abstract⟩ (by simp) (by decide)
    (nobody_plain sample_ml _ (by unfold Data; decide)) (nobody_plain sample_ml _ (by unfold Data; decide)) 0 (by decide) 0

end H2.Lookup
