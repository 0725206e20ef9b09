import Verif.Message.Lemmas
import Verif.MemText.Lemmas
import Verif.Lookup.Spec
namespace H2.Lookup
open H2.Nm (Symbol Called Underscored Data Functions OneProgram)
open H2.Stub (Addr)
open H2.Layout (text brush)

theorem nm_run_append (before : Char) (dl ml : List H2.Nm.Line) (a b : List H2.Nm.Op) : ∀ s,
    H2.Nm.run before dl ml (a ++ b) s = H2.Nm.run before dl ml b (H2.Nm.run before dl ml a s) := by
  induction a with
  | nil => intro s; rfl
  | cons o a ih =>
    intro s
    cases o with
    | byName nm n => exact ih _
    | mangle nm => exact ih _

/-- States of the table of symbols. -/
def NmReach (P : Program) (s : H2.Nm.St) : Prop := ∃ ops, s = H2.Nm.run P.before P.dl P.ml ops {}

theorem NmReach.byName {P : Program} {s : H2.Nm.St} (h : NmReach P s) (nm : Option Text) (n : Nat) :
    NmReach P (H2.Nm.getByName P.before P.dl nm n s).2 := by
  obtain ⟨ops, rfl⟩ := h
  exact ⟨ops ++ [.byName nm n], by rw [nm_run_append]; rfl⟩

theorem NmReach.mangle {P : Program} {s : H2.Nm.St} (h : NmReach P s) (nm : Option Text) : NmReach P (H2.Nm.getMangle P.ml nm s).2 := by
  obtain ⟨ops, rfl⟩ := h
  exact ⟨ops ++ [.mangle nm], by rw [nm_run_append]; rfl⟩

theorem NmReach.first {P : Program} {s : H2.Nm.St} (h : NmReach P s) (h1 : OneProgram P.dl P.ml) {nm : Text} (hn : nm ≠ []) {l : H2.Nm.Line}
    (hl : First P.dl nm l) (n : Nat) : (H2.Nm.getByName P.before P.dl (some nm) n s).1 = [⟨l.symbol.take 127, l.addr⟩] := by
  obtain ⟨ops, rfl⟩ := h
  obtain ⟨front, back, e, hd, hc, hf⟩ := hl
  exact H2.Nm.C49_exact P.before P.dl P.ml h1 ops nm hn n front back l e hd hc hf

theorem NmReach.functions {P : Program} {s : H2.Nm.St} (h : NmReach P s) (h1 : OneProgram P.dl P.ml) (hb : P.before ≠ ':') {nm : Text}
    (hn : nm ≠ []) (hx : Nobody P.dl nm) {all : List Symbol} (hf : Functions (Underscored P.dl) nm P.dl all) (n : Nat) :
    (H2.Nm.getByName P.before P.dl (some nm) n s).1 = all.take n := by
  obtain ⟨ops, rfl⟩ := h
  obtain ⟨all', hf', e⟩ := H2.Nm.C49_functions P.before hb P.dl P.ml h1 ops nm hn n hx
  rw [e, H2.Nm.C49_functions_unique _ _ _ _ _ hf hf']

theorem NmReach.stands {P : Program} {s : H2.Nm.St} (h : NmReach P s) (h1 : OneProgram P.dl P.ml) (hb : P.before ≠ ':') {nm : Text}
    (hn : nm ≠ []) {all : List Symbol} (hs : Stands P nm all) : (H2.Nm.getByName P.before P.dl (some nm) 16 s).1 = all.take 16 := by
  rcases hs with ⟨l, hl, rfl⟩ | ⟨hx, hf⟩
  · exact h.first h1 hn hl 16
  · exact h.functions h1 hb hn hx hf 16

theorem NmReach.mangled {P : Program} {s : H2.Nm.St} (h : NmReach P s) (h1 : OneProgram P.dl P.ml) {nm : Text} (hn : nm ≠ []) {l : H2.Nm.Line}
    (hl : First P.ml nm l) : (H2.Nm.getMangle P.ml (some nm) s).1 = l.addr := by
  obtain ⟨ops, rfl⟩ := h
  obtain ⟨front, back, e, hd, hc, hf⟩ := hl
  exact (H2.Nm.C49_mangled P.before P.dl P.ml h1 ops nm hn).1 front back l e hd hc hf

theorem NmReach.unmangled {P : Program} {s : H2.Nm.St} (h : NmReach P s) (h1 : OneProgram P.dl P.ml) {nm : Text} (hn : nm ≠ [])
    (hl : Nobody P.ml nm) : (H2.Nm.getMangle P.ml (some nm) s).1 = 0 := by
  obtain ⟨ops, rfl⟩ := h
  exact (H2.Nm.C49_mangled P.before P.dl P.ml h1 ops nm hn).2 hl

/-- After a lookup that found something, it is known whether symbols have an underscore. -/
theorem NmReach.leading {P : Program} {s : H2.Nm.St} (h : NmReach P s) (h1 : OneProgram P.dl P.ml) {nm : Text} (hn : nm ≠ []) (n : Nat)
    (hne : (H2.Nm.getByName P.before P.dl (some nm) n s).1 ≠ []) :
    (H2.Nm.getByName P.before P.dl (some nm) n s).2.leading = true ↔ Underscored P.dl := by
  obtain ⟨ops, rfl⟩ := h
  have i0 := H2.Nm.run_inv (before := P.before) rfl (H2.Nm.oneProgram_eq h1) ops {} (H2.Nm.inv_init ..)
  obtain ⟨i, e⟩ := H2.Nm.getByName_inv (before := P.before) rfl _ i0 nm hn n
  rw [← H2.Nm.underscored_iff, ← Bool.eq_iff_iff]
  have ho : (H2.Nm.getByName P.before P.dl (some nm) n (H2.Nm.run P.before P.dl P.ml ops {})).2.once = false := by
    rcases i.d with hd | hd
    · exfalso
      apply hne
      have hl : nm.length ≠ 0 := by simpa using hn
      revert hd
      unfold H2.Nm.getByName
      simp only [hl, if_false]
      intro hd
      rw [hd]
      rfl
    · exact hd.2
  exact i.u ho

/-- The offsets that are remembered. -/
structure Good (P : Program) (base : Addr) (s : St) : Prop where
  nm : NmReach P s.nm
  text : s.textOffset = -1 ∨ s.textOffset = base
  table : s.vtableOffset = -1 ∨ s.vtableOffset = base + 16

theorem good_init (P : Program) (base : Addr) : Good P base {} := ⟨⟨[], rfl⟩, .inl rfl, .inl rfl⟩

theorem loadText {P : Program} {base : Addr} (L : LoadedAt P base) {s : H2.Nm.St} (h : NmReach P s) :
    (loadTextOffset P s).1 = base ∧ NmReach P (loadTextOffset P s).2 := by
  obtain ⟨l, hl, e⟩ := L.main
  have hf := h.first L.one (by decide) hl 16
  have hr := h.byName (some "main".toList) 16
  obtain ⟨r, er⟩ : ∃ r, r = H2.Nm.getByName P.before P.dl (some "main".toList) 16 s := ⟨_, rfl⟩
  rw [← er] at hf hr
  unfold loadTextOffset
  rw [← er]
  obtain ⟨a, b⟩ := r
  simp only at hf hr
  subst hf
  simp only
  refine ⟨?_, hr⟩
  rw [e]; bv_omega

theorem loadTable {P : Program} {base : Addr} (L : LoadedAt P base) {s : H2.Nm.St} (h : NmReach P s) :
    (loadVtableOffset P s).1 = base + 16 ∧ NmReach P (loadVtableOffset P s).2 := by
  obtain ⟨l, hl, e⟩ := L.test
  have hf := h.mangled L.one (by simp) hl
  have hr := h.mangle (some ("_ZTV".toList ++ P.testName))
  unfold loadVtableOffset
  refine ⟨?_, hr⟩
  simp only [hf, e]
  bv_omega

theorem Good.setText {P : Program} {base : Addr} (L : LoadedAt P base) {s : St} (h : Good P base s) :
    Good P base (setText P s) ∧ (setText P s).textOffset = base := by
  unfold Lookup.setText
  split
  · obtain ⟨e, r⟩ := loadText L h.nm
    exact ⟨⟨r, .inr e, h.table⟩, e⟩
  · next hn => exact ⟨h, h.text.resolve_left hn⟩

theorem Good.setVtable {P : Program} {base : Addr} (L : LoadedAt P base) {s : St} (h : Good P base s) :
    Good P base (setVtable P s) ∧ (setVtable P s).vtableOffset = base + 16 := by
  unfold Lookup.setVtable
  split
  · obtain ⟨e, r⟩ := loadTable L h.nm
    exact ⟨⟨r, h.text, .inr e⟩, e⟩
  · next hn => exact ⟨h, h.table.resolve_left hn⟩

theorem Good.withNm {P : Program} {base : Addr} {s : St} (h : Good P base s) {n : H2.Nm.St} (hn : NmReach P n) : Good P base { s with nm := n } :=
  ⟨hn, h.text, h.table⟩

theorem Good.byText {P : Program} {base : Addr} (L : LoadedAt P base) {s : St} (h : Good P base s) (fn : Text) :
    Good P base (getByText P s fn).2 := by
  have h' := h.withNm (h.nm.byName (some fn) 16)
  unfold getByText
  simp only
  split
  · exact (h'.setText L).1
  · exact h'

theorem Good.byTable {P : Program} {base : Addr} (L : LoadedAt P base) {s : St} (h : Good P base s) (c : Class) (f : Addr) :
    Good P base (getByTable P s c f).2 := by
  unfold getByTable
  have h1 := h.nm.mangle (some ("_ZTV".toList ++ c.mangled))
  have h2 := h1.mangle (some ("_ZTI".toList ++ c.mangled))
  simp only
  have hv : NmReach P (if (H2.Nm.getMangle P.ml (some ("_ZTV".toList ++ c.mangled)) s.nm).1 = 0 then
      H2.Nm.getMangle P.ml (some ("_ZTI".toList ++ c.mangled)) (H2.Nm.getMangle P.ml (some ("_ZTV".toList ++ c.mangled)) s.nm).2
      else H2.Nm.getMangle P.ml (some ("_ZTV".toList ++ c.mangled)) s.nm).2 := by
    split
    · exact h2
    · exact h1
  by_cases hz : (if (H2.Nm.getMangle P.ml (some ("_ZTV".toList ++ c.mangled)) s.nm).1 = 0 then
      H2.Nm.getMangle P.ml (some ("_ZTI".toList ++ c.mangled)) (H2.Nm.getMangle P.ml (some ("_ZTV".toList ++ c.mangled)) s.nm).2
      else H2.Nm.getMangle P.ml (some ("_ZTV".toList ++ c.mangled)) s.nm).1 = 0
  · rw [if_pos hz]; exact h.withNm hv
  · rw [if_neg hz]; exact ((h.withNm hv).setVtable L).1

theorem Good.method {P : Program} {base : Addr} (L : LoadedAt P base) {s : St} (h : Good P base s) (low : Bool) (c : Class) (f : MemberPtr) :
    Good P base (getMethod P s low c f).2 := by
  unfold getMethod
  split
  · split
    · exact h
    · exact h.byTable L c f.ptr
  · exact h

theorem Good.step {P : Program} {base : Addr} (L : LoadedAt P base) {s : St} (h : Good P base s) (o : Op) : Good P base (step P s o) := by
  cases o with
  | text fn => exact h.byText L fn
  | method low c f => exact h.method L low c f
  | toPtr a => exact (h.setText L).1
  | toAddr p => exact (h.setText L).1
  | find fn => exact h.withNm (h.nm.byName (some fn) 16)

theorem good_run {P : Program} {base : Addr} (L : LoadedAt P base) (ops : List Op) : Good P base (run P ops) := by
  unfold run
  have : ∀ s, Good P base s → Good P base (ops.foldl (Lookup.step P) s) := by
    induction ops with
    | nil => intro s h; exact h
    | cons o ops ih => intro s h; exact ih _ (h.step L o)
  exact this _ (good_init P base)

theorem stands_take {α : Type} (l : List α) (h : ¬ ∃ p, l = [p]) : (l.take 16).length ≠ 1 := by
  intro e
  apply h
  rw [List.length_take] at e
  exact List.length_eq_one_iff.1 (by omega)

/-! ### Texts -/

theorem dec_eq (n : Nat) : H2.MemText.number n = dec n := H2.MemText.number_eq n

theorem text_candidates (cs : List Text) (hc : ∀ c ∈ cs, '\x1b' ∉ c) (i : Nat) :
    (candidateLines i cs).map text = (List.range cs.length).map fun j => "  ".toList ++ dec (i + j) ++ ". ".toList ++ cs.getD j [] := by
  induction cs generalizing i with
  | nil => rfl
  | cons c cs ih =>
    rw [candidateLines, List.map_cons, ih (fun c h => hc c (List.mem_cons_of_mem _ h)) (i + 1)]
    rw [List.length_cons, List.range_succ_eq_map, List.map_cons, List.map_map]
    congr 1
    · rw [H2.Message.text_append, H2.Message.text_append, H2.Message.text_word _ (by decide), H2.Message.text_brush, H2.Message.text_brush,
        H2.Message.text_word c (hc c (by simp)), H2.Message.text_word, dec_eq]
      · simp
      · rw [dec_eq]
        intro h
        rcases List.mem_append.1 h with h | h
        · exact H2.MemText.esc_dec i h
        · exact absurd h (by decide)
    · apply List.map_congr_left
      intro j _
      simp [Nat.add_assoc, Nat.add_comm 1 j]

theorem functions_plain {u : Prop} {nm : Text} {ls : List H2.Nm.Line} {all : List Symbol} (hf : Functions u nm ls all)
    (hl : ∀ l ∈ ls, '\x1b' ∉ l.symbol) : ∀ p ∈ all, '\x1b' ∉ p.symbol := by
  induction hf with
  | nil => simp
  | take l ls ps _ _ _ _ _ ih =>
    intro p hp
    rcases List.mem_cons.1 hp with rfl | hp
    · exact fun hm => hl l (by simp) (List.mem_of_mem_take hm)
    · exact ih (fun l h => hl l (List.mem_cons_of_mem _ h)) p hp
  | skip l ls ps _ _ ih => exact ih (fun l h => hl l (List.mem_cons_of_mem _ h))

theorem told_nil (nm : Text) : told nm [] = [" Not found ".toList ++ nm] := rfl

/-! ### Methods -/

theorem mask_div (f : Addr) : (f &&& ~~~1).toNat / 8 = f.toNat / 8 := by
  rw [BitVec.toNat_and]
  have e : (~~~(1 : Addr)).toNat = 2 ^ 64 - 2 := by decide
  rw [e]
  have h8 : ∀ n : Nat, n / 8 = n >>> 3 := fun n => (Nat.shiftRight_eq_div_pow n 3).symm
  rw [h8, h8, Nat.shiftRight_and_distrib]
  have : (2 ^ 64 - 2) >>> 3 = 2 ^ 61 - 1 := by decide
  rw [this, Nat.and_two_pow_sub_one_eq_mod, Nat.mod_eq_of_lt]
  have := f.isLt
  rw [Nat.shiftRight_eq_div_pow]
  omega

theorem virtual_toNat (low : Bool) (k : Nat) (hk : k < methodLimit low) (adj : Addr) :
    (virtualPtr low k adj).ptr.toNat = if low then 8 * k + 1 else 8 * k := by
  unfold virtualPtr
  simp only [BitVec.toNat_ofNat]
  apply Nat.mod_eq_of_lt
  cases low <;> simp [methodLimit] at hk ⊢ <;> omega

theorem virtual_is (low : Bool) (k : Nat) (hk : k < methodLimit low) (adj : Addr) : isVirtual low (virtualPtr low k adj).ptr = true := by
  unfold isVirtual
  rw [virtual_toNat low k hk]
  cases low <;> simp [methodLimit] at hk ⊢ <;> omega

theorem slot_eq (P : Program) (table : Addr) (low : Bool) (k : Nat) (hk : k < methodLimit low) (adj : Addr) :
    slot P table (virtualPtr low k adj).ptr = P.word (table + BitVec.ofNat 64 (8 * k)) := by
  unfold slot
  rw [mask_div, virtual_toNat low k hk]
  congr 3
  cases low <;> simp <;> omega

theorem getMethod_table (P : Program) (s : St) (low : Bool) (c : Class) (hc : ∀ o, c.maker ≠ .object o) (f : MemberPtr)
    (hf : isVirtual low f.ptr = true) : getMethod P s low c f = getByTable P s c f.ptr := by
  unfold getMethod
  rw [if_pos hf]
  cases h : c.maker with
  | object o => exact absurd h (hc o)
  | abstract => rfl
  | noConstructor => rfl

end H2.Lookup
