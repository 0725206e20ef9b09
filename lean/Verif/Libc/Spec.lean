import Verif.Libc.Model
/-
What a program sees of the internal allocator.
-/
namespace H2.Libc

/-- `x` is one of the `n` bytes from `a` on. -/
def In (a n x : Nat) : Prop := a ≤ x ∧ x < a + n

/-- The areas handed out and not yet released: pointer and size asked for. -/
abbrev Held := List (Nat × Nat)

/-- Histories: requests below 2^62 bytes, `mmap` returning 8-byte aligned memory in the address space that does
not overlap what is mapped already, and releases of what was handed out (or null). -/
inductive Run : State → Held → Prop where
  | start : Run ⟨[], []⟩ []
  | malloc {s h s' p size map} : Run s h → size < 2 ^ 62 → map % 8 = 0 → 0 < map → map + batchBytes (roundUp (size + 10)) ≤ 2 ^ 64 →
      (∀ k ∈ s.blocks, ∀ x, In map (batchBytes (roundUp (size + 10))) x → ¬ In k.addr k.bytes x) →
      s.malloc size map = (s', some p) → Run s' ((p, size) :: h)
  | fail {s h s' size map} : Run s h → size < 2 ^ 62 → map % 8 = 0 → 0 < map → map + batchBytes (roundUp (size + 10)) ≤ 2 ^ 64 →
      (∀ k ∈ s.blocks, ∀ x, In map (batchBytes (roundUp (size + 10))) x → ¬ In k.addr k.bytes x) →
      s.malloc size map = (s', none) → Run s' h
  | free {s h s' p n} : Run s h → (p, n) ∈ h → s.free p = some s' → Run s' (h.erase (p, n))
  | freeNull {s h s'} : Run s h → s.free 0 = some s' → Run s' h

end H2.Libc
