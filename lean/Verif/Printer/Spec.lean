import Verif.Printer.Model
/-
What a user expects: a value is shown by what its type provides, at every depth.
-/
namespace H2.Printer.Spec

/-- The class has a method that gives a text. -/
def Methodic (c : Cls) : Prop := ∃ m, c.ret m = .text

/-- The first of the methods that gives a text, in the order of the documentation. -/
inductive First (c : Cls) : Method → Prop where
  | tostring : c.ret .tostring = .text → First c .tostring
  | toString : c.ret .tostring ≠ .text → c.ret .toString = .text → First c .toString
  | Tostring : c.ret .tostring ≠ .text → c.ret .toString ≠ .text → c.ret .Tostring = .text → First c .Tostring
  | ToString : c.ret .tostring ≠ .text → c.ret .toString ≠ .text → c.ret .Tostring ≠ .text → c.ret .ToString = .text → First c .ToString
  | to_string : c.ret .tostring ≠ .text → c.ret .toString ≠ .text → c.ret .Tostring ≠ .text → c.ret .ToString ≠ .text →
      c.ret .to_string = .text → First c .to_string

/-- No two of these hold. -/
def AtMostOne (ps : List Prop) : Prop := ps.Pairwise fun p q => ¬ (p ∧ q)

/-- The only method that gives a text is not `Tostring`, or it comes too late to be called. -/
def Callable (c : Cls) : Prop := c.ret .Tostring ≠ .text ∨ c.ret .tostring = .text ∨ c.ret .toString = .text

/-- Types with one way to print at most, at every depth that is printed. -/
inductive Clear : Ty → Prop where
  | null : Clear .null
  | bool : Clear .bool
  | num : Clear .num
  | char : Clear .char
  | uchar : Clear .uchar
  | wchar : Clear .wchar
  | chars : Clear .chars
  | wchars : Clear .wchars
  | raw (s : Bool) : Clear (.raw s)
  | pair {a b} : Clear a → Clear b → Clear (.pair false a b)
  | tuple {ts} : (∀ t ∈ ts, Clear t) → Clear (.tuple false ts)
  | cls {c} : AtMostOne [Methodic c, c.stream = true, c.exc = true] → Callable c → Clear (.cls c)
  /-- a container: it has no other way to print -/
  | box {c e} : c.substr = false → ¬ Methodic c → c.stream = false → c.exc = false → Clear e → Clear (.box c e)
  /-- a string -/
  | string {c e} : c.substr = true → AtMostOne [Methodic c, c.stream = true, c.exc = true, e = .wchar] → Callable c → Clear (.box c e)
  | adaptor {c u} : ¬ Methodic c → c.stream = false → c.exc = false → Clear u → Clear (.adaptor c u)
  /-- an iterable adaptor that pretends to be a string, but not of wide characters -/
  | both {c e u} : c.substr = true → e ≠ .wchar → ¬ Methodic c → c.stream = false → c.exc = false → Clear u → Clear (.both c e u)

/-- A text, in quotes if asked for. -/
def InQuotes (r : Bool) (t : Text) : Text := if r then '"' :: t ++ ['"'] else t

/-- Wide characters outside of Latin-1 are shown as question marks. -/
def Latin (t : Text) : Text := t.map fun c => if 256 ≤ c.toNat then '?' else c

mutual
/-- How a value of a type is shown. -/
inductive Shows (r : Bool) : Ty → Val → Text → Prop where
  | null : Shows r .null .null "nullptr".toList
  | true_ : Shows r .bool (.bool true) "true".toList
  | false_ : Shows r .bool (.bool false) "false".toList
  | num {t} : Shows r .num (.num t) t
  | uchar {t} : Shows r .uchar (.num t) t
  | char {c} : Shows r .char (.char c) (if r then ['\'', c, '\''] else [c])
  | wchar {c} : Shows r .wchar (.char c) (if r then '\'' :: Latin [c] ++ ['\''] else Latin [c])
  | none : Shows r .chars (.ptr none) "(null)".toList
  | wnone : Shows r .wchars (.ptr none) "(null)".toList
  | chars {t} : '\x00' ∉ t → Shows r .chars (.ptr (some t)) (InQuotes r t)
  | wchars {t} : '\x00' ∉ t → Shows r .wchars (.ptr (some t)) (InQuotes r (Latin t))
  | raw {t} : '\x00' ∉ t → Shows r (.raw true) (.raw t) t
  | opaque {t} : Shows r (.raw false) (.raw t) "?".toList
  | pair {k v a b s t} : Shows r k a s → Shows r v b t →
      Shows r (.pair false k v) (.pair a b) ('(' :: s ++ ", ".toList ++ t ++ [')'])
  | tuple {ts vs ss} : ShowsEach r ts vs ss → Shows r (.tuple false ts) (.tuple vs) ('(' :: List.intercalate ", ".toList ss ++ [')'])
  /-- by the first of its methods, in quotes -/
  | own {c o vs m} : First c m → Shows r (.cls c) (.obj o vs) (InQuotes r (o.says m))
  | ownBox {c e o vs m} : First c m → Shows r (.box c e) (.obj o vs) (InQuotes r (o.says m))
  /-- by `operator<<`, in quotes if it is a kind of text -/
  | stream {c o vs} : ¬ Methodic c → c.stream = true → '\x00' ∉ o.streamed →
      Shows r (.cls c) (.obj o vs) (InQuotes (r && c.texty) o.streamed)
  | streamBox {c e o vs} : ¬ Methodic c → c.stream = true → '\x00' ∉ o.streamed →
      Shows r (.box c e) (.obj o vs) (InQuotes (r && c.texty) o.streamed)
  /-- by `what()` -/
  | what {c o vs t} : ¬ Methodic c → c.stream = false → c.exc = true → o.what = some t → '\x00' ∉ t →
      Shows r (.cls c) (.obj o vs) (InQuotes r t)
  /-- nothing known -/
  | unknown {c o vs} : ¬ Methodic c → c.stream = false → c.exc = false → Shows r (.cls c) (.obj o vs) "?".toList
  /-- by its elements -/
  | elems {c e o vs ss} : c.substr = false → ¬ Methodic c → c.stream = false → vs.length ≤ 100 → ShowsAll r e vs ss →
      Shows r (.box c e) (.obj o vs) ('[' :: List.intercalate ", ".toList ss ++ [']'])
  | many {c e o vs} : c.substr = false → ¬ Methodic c → c.stream = false → 100 < vs.length →
      Shows r (.box c e) (.obj o vs) "[...]".toList
  /-- a wide text -/
  | wide {c o t} : c.substr = true → ¬ Methodic c → c.stream = false → '\x00' ∉ t →
      Shows r (.box c .wchar) (.obj o (t.map .char)) (InQuotes r (Latin t))
  /-- as its container -/
  | under {c u o v s} : Shows r u v s → Shows r (.adaptor c u) (.obj o [v]) s
  | underBoth {c e u o v s} : Shows r u v s → Shows r (.both c e u) (.obj o [v]) s
inductive ShowsAll (r : Bool) : Ty → List Val → List Text → Prop where
  | nil {t} : ShowsAll r t [] []
  | cons {t v vs s ss} : Shows r t v s → ShowsAll r t vs ss → ShowsAll r t (v :: vs) (s :: ss)
inductive ShowsEach (r : Bool) : List Ty → List Val → List Text → Prop where
  | nil : ShowsEach r [] [] []
  | cons {t ts v vs s ss} : Shows r t v s → ShowsEach r ts vs ss → ShowsEach r (t :: ts) (v :: vs) (s :: ss)
end

end H2.Printer.Spec
