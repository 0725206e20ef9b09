import Verif.Lookup.Making
import Verif.Lookup.Props
/-
C68: the object that is made to read a virtual table.
-/
namespace H2.Lookup
open H2.Stub (Addr)

/-! ### Specification -/

/-- An object can be made with `n` empty arguments. -/
def Traits.canTake (t : Traits) (n : Nat) : Prop := t.isAbstract = false ∧ if n = 0 then t.default = true else t.takes n = true

/-- `n` is the least number of arguments an object can be made with. -/
def Traits.fewest (t : Traits) (n : Nat) : Prop := t.canTake n ∧ ∀ i < n, ¬ t.canTake i

/-! ### Proofs -/

theorem constructible_abstract {t : Traits} (h : t.isAbstract = true) : constructible t = .error 1 := by simp [constructible, h]

theorem constructible_call {t : Traits} {n : Nat} (h9 : n ≤ 9) (h : t.fewest n) : constructible t = .call n := by
  obtain ⟨⟨ha, h⟩, hn⟩ := h
  have no : ∀ i < n, i ≠ 0 → t.takes i = false := by
    intro i hi h0
    have := hn i hi
    simp only [Traits.canTake, ha, if_neg h0, true_and, Bool.not_eq_true] at this
    exact this
  have no0 : n ≠ 0 → t.default = false := by
    intro h0
    have := hn 0 (by omega)
    simp only [Traits.canTake, ha, if_true, true_and, Bool.not_eq_true] at this
    exact this
  unfold constructible
  have : n = 0 ∨ n = 1 ∨ n = 2 ∨ n = 3 ∨ n = 4 ∨ n = 5 ∨ n = 6 ∨ n = 7 ∨ n = 8 ∨ n = 9 := by omega
  rcases this with rfl | rfl | rfl | rfl | rfl | rfl | rfl | rfl | rfl | rfl <;> simp_all

theorem constructible_none {t : Traits} (ha : t.isAbstract = false) (h : ∀ n ≤ 9, ¬ t.canTake n) : constructible t = .error 2 := by
  have no : ∀ i ≤ 9, i ≠ 0 → t.takes i = false := by
    intro i hi h0
    have := h i hi
    simp only [Traits.canTake, ha, if_neg h0, true_and, Bool.not_eq_true] at this
    exact this
  have no0 : t.default = false := by
    have := h 0 (by omega)
    simp only [Traits.canTake, ha, if_true, true_and, Bool.not_eq_true] at this
    exact this
  unfold constructible
  simp [ha, no0, no 1, no 2, no 3, no 4, no 5, no 6, no 7, no 8, no 9]

/-- **C68, making.** If objects of the class can be made with up to nine empty arguments, the method is the one in the table of an object that
is made with as few arguments as can be; the object is destroyed again if the class lets it be. -/
theorem C68_making {P : Program} (s : St) (t : Traits) (n : Nat) (h9 : n ≤ 9) (h : t.fewest n) {o : Addr} (ho : 2 < o.toNat)
    {methods : List Addr} (hm : Object P o methods) (low : Bool) (mangled readable : Text)
    (k : Nat) (hk : k < methodLimit low) (m : Addr) (hg : methods[k]? = some m) (adj : Addr) :
    getMethod P s low (classOf mangled readable t o) (virtualPtr low k adj) = ((m, none), s) ∧
      events low t o (virtualPtr low k adj) = [.construct n, .read] ++ (if t.destructible then [.destruct] else []) := by
  have e := constructible_call h9 h
  constructor
  · have : classOf mangled readable t o = ⟨mangled, readable, .object o⟩ := by
      unfold classOf
      rw [e, show makerOf ((Choice.call n).value o) = .object o from by unfold makerOf; exact if_pos ho]
    rw [this]
    exact C68_made s hm low mangled readable k hk m hg adj
  · unfold events
    rw [if_pos (virtual_is low k hk adj), e]
    simp only [Choice.value, if_pos ho, destructs, h.1.1]
    cases t.destructible <;> rfl

example : Traits.fewest ⟨false, false, fun n => n = 2 || n = 4, true⟩ 2 := by
  refine ⟨⟨rfl, rfl⟩, ?_⟩
  intro i hi
  have : i = 0 ∨ i = 1 := by omega
  rcases this with rfl | rfl <;> simp [Traits.canTake]

/-- **C68, making.** Of an abstract class, and of one that objects cannot be made of with up to nine empty arguments, no object is made; the
table of the class is looked for, and if there is none, the failure says which of the two it was. -/
theorem C68_not_made (P : Program) (s : St) (t : Traits) (h : ∀ n ≤ 9, ¬ t.canTake n) (o : Addr) (low : Bool) (mangled readable : Text)
    (f : MemberPtr) :
    events low t o f = [] ∧ (∀ o', (classOf mangled readable t o).maker ≠ .object o') ∧
      (classOf mangled readable t o).maker.error = if t.isAbstract then "abstract ".toList else "non default constructor ".toList := by
  have key : ∀ i, constructible t = .error i → events low t o f = [] ∧
      (classOf mangled readable t o).maker = makerOf (BitVec.ofNat 64 i) := by
    intro i e
    constructor
    · unfold events; rw [e]; cases isVirtual low f.ptr <;> rfl
    · unfold classOf; rw [e]; rfl
  cases ha : t.isAbstract with
  | true =>
    obtain ⟨h1, h2⟩ := key 1 (constructible_abstract ha)
    rw [h2, show makerOf (BitVec.ofNat 64 1) = .abstract from by decide]
    exact ⟨h1, fun o' h => (nomatch h), rfl⟩
  | false =>
    obtain ⟨h1, h2⟩ := key 2 (constructible_none ha h)
    rw [h2, show makerOf (BitVec.ofNat 64 2) = .noConstructor from by decide]
    exact ⟨h1, fun o' h => (nomatch h), rfl⟩

example : ∀ n ≤ 9, ¬ Traits.canTake ⟨true, true, fun _ => true, true⟩ n := by simp [Traits.canTake]

/-- **C68, making.** For a method that is not virtual no object is made. -/
theorem C68_plain_untouched (t : Traits) (o : Addr) (low : Bool) (f : MemberPtr) (hf : 8 * methodLimit low ≤ f.ptr.toNat) :
    events low t o f = [] := by
  have hv : isVirtual low f.ptr = false := by
    unfold methodLimit at hf
    unfold isVirtual
    cases low with
    | true => simp at hf ⊢; omega
    | false => simp at hf ⊢; omega
  unfold events
  rw [hv]
  rfl

example : 8 * methodLimit true ≤ (0x401000 : Addr).toNat := by decide

/-- A class whose objects can only be made with ten arguments counts as one without a constructor. -/
theorem C68_ten_false : ∃ t : Traits, t.canTake 10 ∧ ∀ (o : Addr) (mangled readable : Text),
    (classOf mangled readable t o).maker = .noConstructor := by
  refine ⟨⟨false, false, fun n => n = 10, true⟩, ⟨rfl, rfl⟩, fun o mangled readable => ?_⟩
  unfold classOf
  rw [show constructible ⟨false, false, fun n => n = 10, true⟩ = .error 2 from rfl]
  rfl

end H2.Lookup
