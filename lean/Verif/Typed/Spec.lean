import Verif.Typed.Model
/-
What the matchers of numbers should say, in terms of the numbers only.
-/
namespace H2.Typed

/-- The numbers that a variable of an integer type can have. -/
def InRange : ITy → Int → Prop
  | .bool, z => z = 0 ∨ z = 1
  | .num true w, z => -2 ^ (w.bits - 1) ≤ z ∧ z < 2 ^ (w.bits - 1)
  | .num false w, z => 0 ≤ z ∧ z < 2 ^ w.bits

/-- The relation that a comparison asks for. -/
def Cmp.Holds : Cmp → Int → Int → Prop
  | .eq, l, r => l = r
  | .ne, l, r => l ≠ r
  | .gt, l, r => l > r
  | .lt, l, r => l < r
  | .ge, l, r => l ≥ r
  | .le, l, r => l ≤ r

instance (c : Cmp) (l r : Int) : Decidable (c.Holds l r) := by
  cases c <;> unfold Cmp.Holds <;> infer_instance

/-- A negative number of a signed type stands beside a number of an unsigned type, of `w` bits,
that is neither smaller than `int` nor smaller than the signed type. -/
def Meets (s : ITy) (z : Int) (t : ITy) (w : Width) : Prop :=
  t = .num false w ∧ z < 0 ∧ 32 ≤ w.bits ∧ ∃ v, s = .num true v ∧ v.bits ≤ w.bits

/-- No negative number meets such an unsigned type. -/
def Fair (s : ITy) (x : Int) (t : ITy) (y : Int) : Prop :=
  (∀ w, ¬ Meets s x t w) ∧ (∀ w, ¬ Meets t y s w)

/-- `t` is `q` without its fraction. -/
def Whole (q : Rat) (t : Int) : Prop :=
  (0 ≤ q → (t : Rat) ≤ q ∧ q < (t : Rat) + 1) ∧ (q < 0 → q ≤ (t : Rat) ∧ (t : Rat) < q + 1)

/-- The value is not zero. -/
def Nonzero : Val → Prop
  | .int _ z => z ≠ 0
  | .flt _ (.fin q) => q ≠ 0
  | .flt _ _ => True

/-- The distance of two rational numbers is at most a hundred-thousandth. -/
def Near (x y : Rat) : Prop := x - y ≤ 1 / 100000 ∧ y - x ≤ 1 / 100000

/-- The floating types hold this number as it is. -/
def Exact (rnd : FTy → Rat → Fl) (q : Rat) : Prop := ∀ k, rnd k q = .fin q

/-- The binary digits of a floating type. -/
def FTy.digits : FTy → Nat
  | .f32 => 24
  | .f64 => 53
  | .f80 => 64

/-- A number of the type `k`: the types with as many digits or more hold it as it is. -/
def Held (rnd : FTy → Rat → Fl) (k : FTy) (q : Rat) : Prop := ∀ l : FTy, k.digits ≤ l.digits → rnd l q = .fin q

/-- `x` is below `y`; minus infinity is below all else, infinity above all else, and NaN is nowhere. -/
def Fl.Below : Fl → Fl → Prop
  | .inf true, .inf false | .inf true, .fin _ | .fin _, .inf false => True
  | .fin p, .fin q => p < q
  | _, _ => False

instance (x y : Fl) : Decidable (x.Below y) := by
  unfold Fl.Below; split <;> infer_instance

/-- The relation that `Ge`, `Gt`, `Le` or `Lt` asks for. -/
def Ord.Holds : Ord → Fl → Fl → Prop
  | .ge, x, y => ¬ x.Below y
  | .gt, x, y => y.Below x
  | .le, x, y => ¬ y.Below x
  | .lt, x, y => x.Below y

instance (o : Ord) (x y : Fl) : Decidable (o.Holds x y) := by
  cases o <;> unfold Ord.Holds <;> infer_instance

/-- Dividing `a` by −1 overflows: the least value of the type in which the division is made. -/
def Least (s : ITy) (a : Int) (t : ITy) : Prop :=
  a = -2 ^ 63 ∨ (a = -2 ^ 31 ∧ ∀ b, s ≠ .num b .w64 ∧ t ≠ .num b .w64)

end H2.Typed
