import Verif.Message.Lemmas
import Verif.Timer.Model
/-
C87: `PF(n) { … }` fails exactly when the block takes more than `n` milliseconds of processor time.
-/
namespace H2.Timer
open H2.Layout (Word Line text)

/-- **C87.** The block is run exactly once, however it is left. -/
theorem C87_once (ms start stop : Int) (leave : Leave) (n : Nat) :
    ∃ d, pf ms start stop leave (n + 2) = some d ∧ d.runs = 1 := by
  cases leave <;> exact ⟨_, rfl, rfl⟩

theorem delta_iff (ms start stop : Int) : (ms : Rat) < delta start stop ↔ 1000 * ms < stop - start := by
  unfold delta
  have : ((stop - start : Int) : Rat) * 1000 / 1000000 = ((stop - start : Int) : Rat) / 1000 := by grind
  rw [this]
  constructor
  · intro h
    have h2 : ((1000 * ms : Int) : Rat) < ((stop - start : Int) : Rat) := by push_cast at *; grind
    exact Rat.intCast_lt_intCast.1 h2
  · intro h
    have h2 : ((1000 * ms : Int) : Rat) < ((stop - start : Int) : Rat) := Rat.intCast_lt_intCast.2 h
    push_cast at *; grind

/-- **C87.** However the block is left, except by a failed assertion: `PF(ms)` fails exactly when more than `ms`
milliseconds, of a thousand ticks each, have passed; and it counts as one assertion. -/
theorem C87_fails_partial (ms start stop : Int) (leave : Leave) (hl : leave ≠ .jumps) (n : Nat) :
    ∃ d, pf ms start stop leave (n + 2) = some d ∧ d.asserts = 1 ∧ (d.failure.isSome ↔ ms * 1000 < stop - start) := by
  have key : (destructor ms start stop).isSome ↔ ms * 1000 < stop - start := by
    rw [Int.mul_comm, ← delta_iff]
    unfold destructor
    split <;> simp_all
  cases leave with
  | atEnd => exact ⟨_, rfl, rfl, key⟩
  | away => exact ⟨_, rfl, rfl, key⟩
  | throws => exact ⟨_, rfl, rfl, key⟩
  | jumps => exact absurd rfl hl

example : (pf 11 1000 12001 .atEnd 2).map (fun d => d.failure.isSome) = some true ∧
    (pf 11 1000 12000 .atEnd 2).map (fun d => d.failure.isSome) = some false := by
  constructor <;> decide +kernel

/-- **C87 is false** of a block in which an assertion fails, and so ends the case: the time is not looked at. -/
theorem C87_jumps_false (ms start stop : Int) (n : Nat) :
    ∃ d, pf ms start stop .jumps (n + 2) = some d ∧ d.failure = none ∧ d.asserts = 0 := ⟨_, rfl, rfl, rfl⟩

theorem whole_delta {start stop : Int} (h : 0 ≤ stop - start) : whole (delta start stop) = (stop - start) / 1000 := by
  have e : delta start stop = ((stop - start : Int) : Rat) / 1000 := by unfold delta; grind
  have hd : 0 ≤ delta start stop := by
    rw [e]
    have : (0 : Rat) ≤ ((stop - start : Int) : Rat) := by exact_mod_cast h
    grind
  unfold whole
  rw [if_neg (by grind), e]
  have h1 : (stop - start) / 1000 ≤ (((stop - start : Int) : Rat) / 1000).floor := by
    rw [Rat.le_floor_iff]
    have : (((stop - start) / 1000 * 1000 : Int) : Rat) ≤ ((stop - start : Int) : Rat) := by
      exact Rat.intCast_le_intCast.2 (by omega)
    push_cast at *
    grind
  have h2 : (((stop - start : Int) : Rat) / 1000).floor < (stop - start) / 1000 + 1 := by
    rw [Rat.floor_lt_iff]
    have : ((stop - start : Int) : Rat) < (((stop - start) / 1000 * 1000 + 1000 : Int) : Rat) := by
      exact Rat.intCast_lt_intCast.2 (by omega)
    push_cast at *
    grind
  omega

theorem toString_plain (n : Int) : '\x1b' ∉ (toString n).toList := by
  intro h
  cases n with
  | ofNat k =>
    have e : (toString (Int.ofNat k)).toList = Nat.toDigits 10 k := Nat.toList_repr
    rw [e] at h
    exact absurd (Nat.isDigit_of_mem_toDigits (by omega) (by omega) h) (by decide)
  | negSucc k =>
    have e : (toString (Int.negSucc k)).toList = '-' :: Nat.toDigits 10 (k + 1) := by
      show ("-" ++ Nat.repr (k + 1)).toList = _
      rw [String.toList_append, Nat.toList_repr]; rfl
    rw [e] at h
    rcases List.mem_cons.1 h with h | h
    · exact absurd h (by decide)
    · exact absurd (Nat.isDigit_of_mem_toDigits (by omega) (by omega) h) (by decide)

theorem text_styled (style w : Word) (h : '\x1b' ∉ w) : text (styled style w) = w := by
  unfold styled
  rw [Message.text_brush, Message.text_word w h]

/-- **C87.** The failure tells the time allowed and the time taken, in whole milliseconds. -/
theorem C87_text (ms start stop : Int) (h : ms * 1000 < stop - start) (hp : 0 ≤ stop - start) (n : Nat) :
    ∃ d l, pf ms start stop .atEnd (n + 2) = some d ∧ d.failure = some l ∧
      text l = "performance expect < ".toList ++ (toString ms).toList ++ " ms, but actually cost ".toList ++
        (toString ((stop - start) / 1000)).toList ++ " ms".toList := by
  have e : destructor ms start stop = _ := if_pos ((delta_iff ms start stop).2 (by omega))
  refine ⟨_, _, rfl, e, ?_⟩
  rw [whole_delta hp]
  simp only [Message.text_append]
  rw [Message.text_word _ (by decide), text_styled _ _ (toString_plain ms), text_styled _ _ (by decide),
    text_styled _ _ (toString_plain _), text_styled _ _ (by decide)]

example : (pf 11 1000 17001 .atEnd 2).bind (fun d => d.failure.map fun l => String.ofList (text l)) =
    some "performance expect < 11 ms, but actually cost 16 ms" := by decide +kernel

/-- **C87 is false** of what the failure says within the same millisecond: "expect < 5 ms, but actually cost 5 ms",
while 5 milliseconds pass. -/
theorem C87_text_false :
    (pf 5 0 5001 .atEnd 2).bind (fun d => d.failure.map fun l => String.ofList (text l)) =
      some "performance expect < 5 ms, but actually cost 5 ms" ∧
    (pf 5 0 5000 .atEnd 2).map (fun d => d.failure) = some none := by
  constructor <;> decide +kernel

end H2.Timer
