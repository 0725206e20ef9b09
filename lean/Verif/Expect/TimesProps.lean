import Verif.Expect.TimesLemmas
/-
Property C108: the text of a container matcher says how many elements and which are meant.
-/
namespace H2.Times
open H2.Matcher (Val)
open Spec

/-- **C108.** Where no range is written, the text of `Has` and `Every` (of one or two, but for `!` before `Every` of two), `HasKey`, `HasValue` and `CountOf` with amounts, nested in each
other around integers, `Ge`, `Gt`, `Le` and `Lt`, is written like something that can be said, and however it is read, what it says is true of a value (whose
containers have at most 5413722 elements) exactly when `OK` passes.  Missing: ranges, longer containers. -/
theorem C108_says_partial (m : Mx) (hm : NoRange m) :
    (∃ f, write f = text m) ∧ ∀ f, write f = text m → ∀ a, Short a → (Holds f a ↔ ok m a = true) := by
  refine ⟨⟨formOf m 1, (write_form m 1).symm⟩, ?_⟩
  intro f hf a ha
  have h : write f ++ [] = write (formOf m 1) ++ [] := by
    rw [hf, text, write_form]
  have e := (write_inj f (formOf m 1) [] [] (.inl rfl) (.inl rfl) h).1
  rw [e]
  exact (ok_form m a hm ha).symm

/-- `Has(Has(5) * 3) * 2` -/
def nested : Mx := .node .has false 2 none (.node .has false 3 none (.num 5))

example : NoRange nested := ⟨rfl, rfl, trivial⟩
example : text nested = "Has(Has(5) * 6) * 2".toList := by decide +kernel
example : ok nested (.seq [.seq (List.replicate 6 (.num 5)), .seq (List.replicate 7 (.num 5))]) = true := by decide +kernel
example : ok nested (.seq [.seq (List.replicate 6 (.num 5)), .seq (List.replicate 5 (.num 5))]) = false := by decide +kernel
example : text (.node .every true 1 none (.node .hasKey false 4 none (.num (-7)))) = "!Every(HasKey(-7) * 4)".toList := by decide +kernel
example : text (.both true 2 none (.num 1) (.node .has false 3 none (.num 5))) = "!Has(1, Has(5) * 6) * 2".toList := by decide +kernel
example : ok (.both false 2 none (.num 1) (.node .every false 1 none (.num 5)))
    (.seq [.pair (.num 1) (.seq [.num 5]), .pair (.num 1) (.seq [.num 4]), .pair (.num 1) (.seq [])]) = true := by decide +kernel
example : text (.node .has false 2 none (.all 3 none (.num 1) (.node .has false 1 none (.ord .ge false 5)))) = "Has(Every(1, Has(≥5) * 6)) * 2".toList := by decide +kernel
example : ok (.all 1 none (.num 1) (.ord .ge false 5)) (.seq [.pair (.num 1) (.num 5), .pair (.num 1) (.num 6)]) = true := by decide +kernel
example : ok (.all 1 none (.num 1) (.ord .ge false 5)) (.seq [.pair (.num 1) (.num 5), .pair (.num 2) (.num 6)]) = false := by decide +kernel
example : text (.node .has false 2 none (.ord .gt true 3)) = "Has(!>3) * 2".toList := by decide +kernel
example : ok (.node .has false 2 none (.ord .gt true 3)) (.seq [.num 3, .num 4, .num (5/2)]) = true := by decide +kernel
example : ok (.node .has false 2 none (.ord .lt false 3)) (.seq [.num 3, .num 4, .num (5/2)]) = false := by decide +kernel
example : Short (.seq [.pair (.num 1) (.num 2)]) :=
  .seq (by decide) (by intro x h; rw [List.mem_singleton] at h; subst h; exact .pair (.num _) (.num _))

/-- **C108.** A text can be read in one way only. -/
theorem C108_unique (f g : Form) (h : write f = write g) : f = g :=
  (write_inj f g [] [] (.inl rfl) (.inl rfl) (by rw [h])).1

example : write (.node .has true (.node .countOf false (.num 3) 1) (-2)) = "!Has(CountOf(3)) * -2".toList := by decide +kernel

/-- **C108.** Two matchers without ranges that have the same text accept the same values (whose containers have at most 5413722
elements).  Missing: ranges, longer containers. -/
theorem C108_same_partial (m m' : Mx) (hm : NoRange m) (hm' : NoRange m') (h : text m = text m') (a : Val) (ha : Short a) : ok m a = ok m' a := by
  obtain ⟨⟨f, hf⟩, h1⟩ := C108_says_partial m hm
  obtain ⟨_, h2⟩ := C108_says_partial m' hm'
  rw [Bool.eq_iff_iff, ← h1 f hf a ha, ← h2 f (hf.trans h) a ha]

example : text (.node .has false 6 none (.node .has false 1 none (.num 5))) = text (.node .has false 2 none (.node .has false 1 none (.num 5))) → False := by
  decide +kernel
example : text (.node .has false 2 none (.node .has false 3 none (.num 5))) = text (.node .has false 2 none (.node .has false 3 none (.num 5))) := rfl

/-- **C108 is false of ranges**: whatever ranges are written, the text is that of the matcher without them. -/
theorem C108_range_hidden (k : Kind) (b : Bool) (n : Int) (r : Int × Int) (m : Mx) :
    text (.node k b n (some r) m) = text (.node k b n none m) := rfl

/-- **C108 is false of ranges**: `Has(1) / 1` and `Has(1)` have the same text, but only the second accepts 0, 1; and `Every(1)(1, 2)` and
`Every(1)` have the same text, but only the first does. -/
theorem C108_range_false :
    (text (.node .has false 1 (some (0, 1)) (.num 1)) = text (.node .has false 1 none (.num 1)) ∧
      ok (.node .has false 1 (some (0, 1)) (.num 1)) (.seq [.num 0, .num 1]) = false ∧
      ok (.node .has false 1 none (.num 1)) (.seq [.num 0, .num 1]) = true) ∧
    (text (.node .every false 1 (some (1, 2)) (.num 1)) = text (.node .every false 1 none (.num 1)) ∧
      ok (.node .every false 1 (some (1, 2)) (.num 1)) (.seq [.num 0, .num 1]) = true ∧
      ok (.node .every false 1 none (.num 1)) (.seq [.num 0, .num 1]) = false) := by
  decide +kernel

/-- **C108 is false of long containers**: `Every(1)` accepts 5413722 times 1 and then 0, of which its text is not true. -/
theorem C108_long_false :
    ∃ a, ok (.node .every false 1 none (.num 1)) a = true ∧
      ∀ f, write f = text (.node .every false 1 none (.num 1)) → ¬ Holds f a := by
  refine ⟨.seq (List.replicate 5413722 (.num 1) ++ [.num 0]), ?_, ?_⟩
  · have h : (marks false 1 none).negative = false := rfl
    unfold ok
    refine (Matcher.C03_every_partial (marks false 1 none) {} (build (.num 1)) _ h).2 ?_
    intro x hx
    rw [← Matcher.selected_slice] at hx
    have e : Matcher.slice (max (Matcher.topEnv.under (marks false 1 none)).lo ({} : Matcher.Rng).start)
        (min (Matcher.topEnv.under (marks false 1 none)).hi ({} : Matcher.Rng).stop) (List.replicate 5413722 (Val.num 1) ++ [.num 0]) =
        List.replicate 5413722 (Val.num 1) := by
      show List.drop (Int.toNat 0) (List.take (Int.toNat 5413722) _) = _
      rw [show Int.toNat 0 = 0 from rfl, List.drop_zero, show Int.toNat 5413722 = 5413722 from rfl,
        List.take_append_of_le_length (by rw [List.length_replicate]; exact Nat.le_refl _), List.take_of_length_le (by rw [List.length_replicate]; exact Nat.le_refl _)]
    rw [e] at hx
    have := List.eq_of_mem_replicate hx
    subst this
    decide
  · intro f hf h
    have e : f = .node .every false (.num 1) 1 := by
      have : write (.node .every false (.num 1) 1) = text (.node .every false 1 none (.num 1)) := by decide +kernel
      exact C108_unique _ _ (hf.trans this.symm)
    subst e
    have := h (.num 0) (List.mem_append_right _ (List.mem_singleton.2 rfl))
    simp [Holds] at this

end H2.Times
