import Verif.Macro.Lib
/-
Names as numbers, so that the names of the table are quickly told apart.
-/
namespace H2.Macro

/-- A number for a text. -/
def code : List Char → Nat
  | [] => 1
  | c :: cs => code cs * 2097152 + c.toNat

theorem code_pos (cs : List Char) : 0 < code cs := by
  cases cs with
  | nil => decide
  | cons c cs => have := code_pos cs; rw [code]; omega

theorem char_lt (c : Char) : c.toNat < 2097152 := by
  have := c.valid
  simp only [UInt32.isValidChar, Nat.isValidChar] at this
  show c.val.toNat < _
  omega

theorem code_inj : ∀ {a b : List Char}, code a = code b → a = b := by
  intro a
  induction a with
  | nil =>
    intro b h
    cases b with
    | nil => rfl
    | cons c cs => have := code_pos cs; simp only [code] at h; omega
  | cons c cs ih =>
    intro b h
    cases b with
    | nil => have := code_pos cs; simp only [code] at h; omega
    | cons d ds =>
      simp only [code] at h
      have h1 := char_lt c
      have h2 := char_lt d
      have e1 : c.toNat = d.toNat := by omega
      have e2 : code cs = code ds := by omega
      rw [ih e2, Char.toNat_inj.1 e1]

/-- Is a number in a list? -/
def within (n : Nat) : List Nat → Bool
  | [] => false
  | m :: ms => Nat.beq n m || within n ms

/-- One bit for each number of a list. -/
def mask : List Nat → Nat
  | [] => 0
  | c :: cs => Nat.lor (mask cs) (Nat.shiftLeft 1 (Nat.mod c 65521))

/-- Have all numbers different bits? -/
def unlike : List Nat → Bool
  | [] => true
  | c :: cs => Nat.beq (Nat.land (Nat.shiftRight (mask cs) (Nat.mod c 65521)) 1) 0 && unlike cs

theorem mask_mem {c : Nat} {cs : List Nat} (h : c ∈ cs) : (mask cs).testBit (c % 65521) = true := by
  induction cs with
  | nil => simp at h
  | cons d cs ih =>
    show (mask cs ||| (1 <<< (d % 65521))).testBit (c % 65521) = true
    rw [Nat.testBit_or, Nat.testBit_shiftLeft]
    rcases List.mem_cons.1 h with rfl | h
    · simp
    · rw [ih h]; rfl

theorem unlike_cons {c : Nat} {cs : List Nat} (h : unlike (c :: cs) = true) : c ∉ cs ∧ unlike cs = true := by
  simp only [unlike, Bool.and_eq_true] at h
  refine ⟨fun hc => ?_, h.2⟩
  have hm := mask_mem hc
  have h1 : ((mask cs) >>> (c % 65521)) &&& 1 = 0 := Nat.eq_of_beq_eq_true h.1
  rw [Nat.testBit, Nat.and_comm, h1] at hm
  simp at hm

theorem within_iff {n : Nat} {ms : List Nat} : within n ms = true ↔ n ∈ ms := by
  induction ms with
  | nil => simp [within]
  | cons m ms ih => simp [within, ih]

/-- Entries of lists whose names are all different. -/
theorem lookup_at {α : Type} {l : List (String × α)} {ns : List Nat} (hn : l.map (fun p => code p.1.toList) = ns) (hd : unlike ns = true) {i : Nat} {s : String} {a : α}
    (h : l[i]? = some (s, a)) : l.lookup s = some a := by
  subst hn
  induction l generalizing i with
  | nil => simp at h
  | cons p l ih =>
    rw [List.map_cons] at hd
    replace hd := unlike_cons hd
    cases i with
    | zero =>
      simp at h
      subst h
      simp [List.lookup]
    | succ i =>
      simp at h
      have : s ≠ p.1 := by
        rintro rfl
        exact hd.1 (List.mem_map.2 ⟨_, List.mem_of_getElem? h, rfl⟩)
      obtain ⟨p1, p2⟩ := p
      have hb : (s == p1) = false := by simpa using this
      simp only [List.lookup, hb]
      exact ih h hd.2

/-- Names that are in no entry. -/
theorem lookup_absent {α : Type} {l : List (String × α)} {ns : List Nat} (hn : l.map (fun p => code p.1.toList) = ns) {cs : List Char} (h : within (code cs) ns = false) :
    l.lookup (String.ofList cs) = none := by
  subst hn
  induction l with
  | nil => rfl
  | cons p l ih =>
    rw [List.map_cons] at h
    simp only [within, Bool.or_eq_false_iff] at h
    obtain ⟨p1, p2⟩ := p
    have hb : (String.ofList cs == p1) = false := by
      rw [beq_eq_false_iff_ne]
      rintro rfl
      have := h.1; rw [String.toList_ofList] at this; simp at this
    simp only [List.lookup, hb]
    exact ih h.2

/-- The letters of the names in the table. -/
def keys : List (List Char) := [
  ['H', '2', 'P', 'P', '_', 'C', 'A', 'T'],
  ['H', '2', 'P', 'P', '_', 'C', 'A', 'T', '2'],
  ['_', 'H', '2', 'P', 'P', '_', 'C', 'A', 'T', '2'],
  ['H', '2', 'P', 'P', '_', 'C', 'A', 'T', '5'],
  ['_', 'H', '2', 'P', 'P', '_', 'C', 'A', 'T', '5'],
  ['H', '2', 'P', 'P', '_', 'C', 'O', 'M', 'M', 'A'],
  ['H', '2', 'P', 'P', '_', 'E', 'M', 'P', 'T', 'Y'],
  ['H', '2', 'P', 'P', '_', 'D', 'E', 'F', 'E', 'R'],
  ['H', '2', 'P', 'P', '_', 'R', 'E', 'S', 'C', 'A', 'N'],
  ['H', '2', 'P', 'P', '_', 'P', 'R', 'O', 'X', 'Y'],
  ['H', '2', 'P', 'P', '_', 'P', 'R', 'O', 'X', 'Y', '2'],
  ['_', 'H', '2', 'P', 'P', '_', 'P', 'R', 'O', 'X', 'Y'],
  ['H', '2', 'P', 'P', '_', 'I', 'S', '_', 'P', 'R', 'O', 'B', 'E'],
  ['H', '2', 'P', 'P', '_', 'P', 'R', 'O', 'B', 'E'],
  ['H', '2', 'P', 'P', '_', 'E', 'V', 'A', 'L'],
  ['H', '2', 'P', 'P', '_', 'E', 'Q'],
  ['H', '2', 'P', 'P', '_', 'N', 'O', 'T'],
  ['_', 'H', '2', 'P', 'P', '_', 'N', 'O', 'T', '_', '0'],
  ['H', '2', 'P', 'P', '_', 'C', 'O', 'M', 'P', 'L'],
  ['_', 'H', '2', 'P', 'P', '_', 'C', 'O', 'M', 'P', 'L', '_', '0'],
  ['_', 'H', '2', 'P', 'P', '_', 'C', 'O', 'M', 'P', 'L', '_', '1'],
  ['H', '2', 'P', 'P', '_', 'B', 'O', 'O', 'L'],
  ['H', '2', 'P', 'P', '_', 'A', 'N', 'D'],
  ['_', 'H', '2', 'P', 'P', '_', 'A', 'N', 'D', '_', '0'],
  ['_', 'H', '2', 'P', 'P', '_', 'A', 'N', 'D', '_', '1'],
  ['H', '2', 'P', 'P', '_', 'O', 'R'],
  ['_', 'H', '2', 'P', 'P', '_', 'O', 'R', '_', '0'],
  ['_', 'H', '2', 'P', 'P', '_', 'O', 'R', '_', '1'],
  ['H', '2', 'P', 'P', '_', 'I', 'F', '_', 'E', 'L', 'S', 'E'],
  ['_', 'H', '2', 'P', 'P', '_', 'I', 'F', '_', 'E', 'L', 'S', 'E', '_', '1'],
  ['_', 'H', '2', 'P', 'P', '_', 'I', 'F', '_', 'E', 'L', 'S', 'E', '_', '0'],
  ['H', '2', 'P', 'P', '_', 'I', 'F'],
  ['_', 'H', '2', 'P', 'P', '_', 'I', 'F', '_', '1'],
  ['_', 'H', '2', 'P', 'P', '_', 'I', 'F', '_', '0'],
  ['H', '2', 'P', 'P', '_', 'I', 'S', '_', 'B', 'E', 'G', 'I', 'N', '_', 'P', 'A', 'R', 'E', 'N', 'T', 'H', 'E', 'S', 'I', 'S'],
  ['_', 'H', '2', 'P', 'P', '_', 'I', 'S', '_', 'B', 'E', 'G', 'I', 'N', '_', 'P', 'A', 'R', 'E', 'N', 'T', 'H', 'E', 'S', 'I', 'S', '_', 'P', 'R', 'O', 'B', 'E'],
  ['H', '2', 'P', 'P', '_', 'I', 'S', '_', 'P', 'A', 'R', 'E', 'N', 'T', 'H', 'E', 'S', 'I', 'S'],
  ['H', '2', 'P', 'P', '_', 'R', 'E', 'M', 'O', 'V', 'E', '_', 'P', 'A', 'R', 'E', 'N', 'T', 'H', 'E', 'S', 'E', 'S'],
  ['_', 'H', '2', 'P', 'P', '_', 'R', 'E', 'M', 'O', 'V', 'E', '_', 'P', 'A', 'R', 'E', 'N', 'T', 'H', 'E', 'S', 'E', 'S'],
  ['H', '2', 'P', 'P', '_', 'R', 'E', 'M', 'O', 'V', 'E', '_', 'P', 'A', 'R', 'E', 'N', 'T', 'H', 'E', 'S', 'E', 'S', '_', 'I', 'F'],
  ['_', 'H', '2', 'P', 'P', '_', 'R', 'E', 'M', 'O', 'V', 'E', '_', 'P', 'A', 'R', 'E', 'N', 'T', 'H', 'E', 'S', 'E', 'S', '_', 'I', 'F', '_', '1'],
  ['_', 'H', '2', 'P', 'P', '_', 'R', 'E', 'M', 'O', 'V', 'E', '_', 'P', 'A', 'R', 'E', 'N', 'T', 'H', 'E', 'S', 'E', 'S', '_', 'I', 'F', '_', '0'],
  ['H', '2', 'P', 'P', '_', 'I', 'S', '_', 'E', 'M', 'P', 'T', 'Y'],
  ['_', 'H', '2', 'P', 'P', '_', 'I', 'S', '_', 'E', 'M', 'P', 'T', 'Y'],
  ['_', 'H', '2', 'P', 'P', '_', 'I', 'S', '_', 'E', 'M', 'P', 'T', 'Y', '_', 'C', 'A', 'S', 'E', '_', '0', '0', '0', '1'],
  ['H', '2', 'P', 'P', '_', 'N', 'A', 'R', 'G'],
  ['_', 'H', '2', 'P', 'P', '_', 'N', 'A', 'R', 'G', '_', '0'],
  ['_', 'H', '2', 'P', 'P', '_', 'N', 'A', 'R', 'G', '_', '1'],
  ['H', '2', 'P', 'P', '_', 'N', 'C', 'A', 'L', 'L'],
  ['H', '2', 'P', 'P', '_', 'V', 'C', 'A', 'L', 'L'],
  ['H', '2', 'P', 'P', '_', 'H', 'E', 'A', 'D'],
  ['_', 'H', '2', 'P', 'P', '_', 'H', 'E', 'A', 'D', '_', '0'],
  ['_', 'H', '2', 'P', 'P', '_', 'H', 'E', 'A', 'D', '_', '0', '_', 'R'],
  ['_', 'H', '2', 'P', 'P', '_', 'H', 'E', 'A', 'D', '_', '1'],
  ['H', '2', 'P', 'P', '_', 'T', 'A', 'I', 'L'],
  ['_', 'H', '2', 'P', 'P', '_', 'T', 'A', 'I', 'L', '_', '0'],
  ['_', 'H', '2', 'P', 'P', '_', 'T', 'A', 'I', 'L', '_', '0', '_', 'R'],
  ['_', 'H', '2', 'P', 'P', '_', 'T', 'A', 'I', 'L', '_', '1'],
  ['H', '2', 'P', 'P', '_', 'L', 'A', 'S', 'T'],
  ['_', 'H', '2', 'P', 'P', '_', 'L', 'A', 'S', 'T'],
  ['_', 'H', '2', 'P', 'P', '_', 'L', 'A', 'S', 'T', '_', '1'],
  ['_', 'H', '2', 'P', 'P', '_', 'L', 'A', 'S', 'T', '_', '0'],
  ['_', 'H', '2', 'P', 'P', '_', 'L', 'A', 'S', 'T', '_', '0', '_', '1'],
  ['_', 'H', '2', 'P', 'P', '_', 'L', 'A', 'S', 'T', '_', '0', '_', '0'],
  ['_', '_', 'H', '2', 'P', 'P', '_', 'L', 'A', 'S', 'T'],
  ['H', '2', 'P', 'P', '_', 'R', 'E', 'P', 'E', 'A', 'T'],
  ['_', 'H', '2', 'P', 'P', '_', 'R', 'E', 'P', 'E', 'A', 'T'],
  ['_', 'H', '2', 'P', 'P', '_', 'R', 'E', 'P', 'E', 'A', 'T', '_', '0'],
  ['_', 'H', '2', 'P', 'P', '_', 'R', 'E', 'P', 'E', 'A', 'T', '_', '1'],
  ['_', '_', 'H', '2', 'P', 'P', '_', 'R', 'E', 'P', 'E', 'A', 'T'],
  ['_', 'H', '2', 'P', 'P', '_', 'R', 'E', 'P', 'E', 'A', 'T', '_', 'C', 'A', 'L', 'L', '_', 'M', 'A', 'C', 'R', 'O'],
  ['_', 'H', '2', 'P', 'P', '_', 'R', 'E', 'P', 'E', 'A', 'T', '_', 'C', 'A', 'L', 'L', '_', 'M', 'A', 'C', 'R', 'O', '_', '1'],
  ['_', 'H', '2', 'P', 'P', '_', 'R', 'E', 'P', 'E', 'A', 'T', '_', 'C', 'A', 'L', 'L', '_', 'M', 'A', 'C', 'R', 'O', '_', '0'],
  ['H', '2', 'P', 'P', '_', 'F', 'O', 'R', 'E', 'A', 'C', 'H'],
  ['_', 'H', '2', 'P', 'P', '_', 'F', 'O', 'R', 'E', 'A', 'C', 'H'],
  ['_', 'H', '2', 'P', 'P', '_', 'F', 'O', 'R', 'E', 'A', 'C', 'H', '_', '1'],
  ['_', 'H', '2', 'P', 'P', '_', 'F', 'O', 'R', 'E', 'A', 'C', 'H', '_', '0'],
  ['_', '_', 'H', '2', 'P', 'P', '_', 'F', 'O', 'R', 'E', 'A', 'C', 'H'],
  ['_', 'H', '2', 'P', 'P', '_', 'F', 'O', 'R', 'E', 'A', 'C', 'H', '_', 'C', 'A', 'L', 'L', '_', 'M', 'A', 'C', 'R', 'O'],
  ['_', 'H', '2', 'P', 'P', '_', 'F', 'O', 'R', 'E', 'A', 'C', 'H', '_', 'C', 'A', 'L', 'L', '_', 'M', 'A', 'C', 'R', 'O', '_', '1'],
  ['_', 'H', '2', 'P', 'P', '_', 'F', 'O', 'R', 'E', 'A', 'C', 'H', '_', 'C', 'A', 'L', 'L', '_', 'M', 'A', 'C', 'R', 'O', '_', '0'],
  ['H', '2', 'P', 'P', '_', 'F', 'U', 'L', 'L', 'M', 'E', 'S', 'H'],
  ['_', 'H', '2', 'P', 'P', '_', 'F', 'U', 'L', 'L', 'M', 'E', 'S', 'H', '1', '_', '1'],
  ['_', 'H', '2', 'P', 'P', '_', 'F', 'U', 'L', 'L', 'M', 'E', 'S', 'H', '1', '_', '0'],
  ['H', '2', 'P', 'P', '_', 'F', 'U', 'L', 'L', 'M', 'E', 'S', 'H', '1'],
  ['_', 'H', '2', 'P', 'P', '_', 'F', 'U', 'L', 'L', 'M', 'E', 'S', 'H', '2', '_', '1'],
  ['_', 'H', '2', 'P', 'P', '_', 'F', 'U', 'L', 'L', 'M', 'E', 'S', 'H', '2', '_', '0'],
  ['_', 'H', '2', 'P', 'P', '_', 'F', 'U', 'L', 'L', 'M', 'E', 'S', 'H', '2', '_', '0', '_', 'R'],
  ['H', '2', 'P', 'P', '_', 'F', 'U', 'L', 'L', 'M', 'E', 'S', 'H', '2'],
  ['_', 'H', '2', 'P', 'P', '_', 'F', 'O', 'R', 'E', 'A', 'C', 'H', 'x'],
  ['_', 'H', '2', 'P', 'P', '_', 'F', 'O', 'R', 'E', 'A', 'C', 'H', 'x', '_', '1'],
  ['_', 'H', '2', 'P', 'P', '_', 'F', 'O', 'R', 'E', 'A', 'C', 'H', 'x', '_', '0'],
  ['_', '_', 'H', '2', 'P', 'P', '_', 'F', 'O', 'R', 'E', 'A', 'C', 'H', 'x'],
  ['_', 'H', '2', 'P', 'P', '_', 'F', 'O', 'R', 'E', 'A', 'C', 'H', 'y'],
  ['_', 'H', '2', 'P', 'P', '_', 'F', 'O', 'R', 'E', 'A', 'C', 'H', 'y', '_', '1'],
  ['_', 'H', '2', 'P', 'P', '_', 'F', 'O', 'R', 'E', 'A', 'C', 'H', 'y', '_', '0'],
  ['_', '_', 'H', '2', 'P', 'P', '_', 'F', 'O', 'R', 'E', 'A', 'C', 'H', 'y'],
  ['_', 'H', '2', 'P', 'P', '_', 'F', 'U', 'L', 'L', 'M', 'E', 'S', 'H', '_', 'C', 'A', 'L', 'L', '_', 'M', 'A', 'C', 'R', 'O'],
  ['_', 'H', '2', 'P', 'P', '_', 'F', 'U', 'L', 'L', 'M', 'E', 'S', 'H', '_', 'C', 'A', 'L', 'L', '_', 'M', 'A', 'C', 'R', 'O', '_', '1'],
  ['_', 'H', '2', 'P', 'P', '_', 'F', 'U', 'L', 'L', 'M', 'E', 'S', 'H', '_', 'C', 'A', 'L', 'L', '_', 'M', 'A', 'C', 'R', 'O', '_', '0'],
  ['H', '2', 'F', 'o', 'r', 'e', 'a', 'c', 'h'],
  ['_', 'H', '2', 'F', 'o', 'r', 'e', 'a', 'c', 'h', 'M', 'a', 'c', 'r', 'o'],
  ['H', '2', 'F', 'u', 'l', 'l', 'm', 'e', 's', 'h'],
  ['_', 'H', '2', 'F', 'u', 'l', 'l', 'm', 'e', 's', 'h', 'M', 'a', 'c', 'r', 'o'],
  ['_', 'H', '2', 'P', 'P', '_', 'E', 'Q', '_', '_', '0', '_', '_', '0'],
  ['_', 'H', '2', 'P', 'P', '_', 'E', 'Q', '_', '_', '1', '_', '_', '1'],
  ['_', 'H', '2', 'P', 'P', '_', 'E', 'Q', '_', '_', '2', '_', '_', '2'],
  ['_', 'H', '2', 'P', 'P', '_', 'E', 'Q', '_', '_', '3', '_', '_', '3'],
  ['_', 'H', '2', 'P', 'P', '_', 'E', 'Q', '_', '_', '4', '_', '_', '4'],
  ['_', 'H', '2', 'P', 'P', '_', 'E', 'Q', '_', '_', '5', '_', '_', '5'],
  ['_', 'H', '2', 'P', 'P', '_', 'E', 'Q', '_', '_', '6', '_', '_', '6'],
  ['_', 'H', '2', 'P', 'P', '_', 'E', 'Q', '_', '_', '7', '_', '_', '7'],
  ['_', 'H', '2', 'P', 'P', '_', 'E', 'Q', '_', '_', '8', '_', '_', '8'],
  ['_', 'H', '2', 'P', 'P', '_', 'E', 'Q', '_', '_', '9', '_', '_', '9'],
  ['_', 'H', '2', 'P', 'P', '_', 'E', 'Q', '_', '_', '1', '0', '_', '_', '1', '0'],
  ['_', 'H', '2', 'P', 'P', '_', 'E', 'Q', '_', '_', '1', '1', '_', '_', '1', '1'],
  ['_', 'H', '2', 'P', 'P', '_', 'E', 'Q', '_', '_', '1', '2', '_', '_', '1', '2'],
  ['_', 'H', '2', 'P', 'P', '_', 'E', 'Q', '_', '_', '1', '3', '_', '_', '1', '3'],
  ['_', 'H', '2', 'P', 'P', '_', 'E', 'Q', '_', '_', '1', '4', '_', '_', '1', '4'],
  ['_', 'H', '2', 'P', 'P', '_', 'E', 'Q', '_', '_', '1', '5', '_', '_', '1', '5'],
  ['_', 'H', '2', 'P', 'P', '_', 'E', 'Q', '_', '_', '1', '6', '_', '_', '1', '6'],
  ['_', 'H', '2', 'P', 'P', '_', 'E', 'Q', '_', '_', '1', '7', '_', '_', '1', '7'],
  ['_', 'H', '2', 'P', 'P', '_', 'E', 'Q', '_', '_', '1', '8', '_', '_', '1', '8'],
  ['_', 'H', '2', 'P', 'P', '_', 'E', 'Q', '_', '_', '1', '9', '_', '_', '1', '9'],
  ['_', 'H', '2', 'P', 'P', '_', 'E', 'Q', '_', '_', '2', '0', '_', '_', '2', '0'],
  ['_', 'H', '2', 'P', 'P', '_', 'E', 'Q', '_', '_', '2', '1', '_', '_', '2', '1'],
  ['_', 'H', '2', 'P', 'P', '_', 'E', 'Q', '_', '_', '2', '2', '_', '_', '2', '2'],
  ['_', 'H', '2', 'P', 'P', '_', 'E', 'Q', '_', '_', '2', '3', '_', '_', '2', '3'],
  ['_', 'H', '2', 'P', 'P', '_', 'E', 'Q', '_', '_', '2', '4', '_', '_', '2', '4'],
  ['_', 'H', '2', 'P', 'P', '_', 'E', 'Q', '_', '_', '2', '5', '_', '_', '2', '5'],
  ['_', 'H', '2', 'P', 'P', '_', 'E', 'Q', '_', '_', '2', '6', '_', '_', '2', '6'],
  ['_', 'H', '2', 'P', 'P', '_', 'E', 'Q', '_', '_', '2', '7', '_', '_', '2', '7'],
  ['_', 'H', '2', 'P', 'P', '_', 'E', 'Q', '_', '_', '2', '8', '_', '_', '2', '8'],
  ['_', 'H', '2', 'P', 'P', '_', 'E', 'Q', '_', '_', '2', '9', '_', '_', '2', '9'],
  ['_', 'H', '2', 'P', 'P', '_', 'E', 'Q', '_', '_', '3', '0', '_', '_', '3', '0'],
  ['_', 'H', '2', 'P', 'P', '_', 'E', 'Q', '_', '_', '3', '1', '_', '_', '3', '1'],
  ['_', 'H', '2', 'P', 'P', '_', 'T', 'H', '0'],
  ['_', 'H', '2', 'P', 'P', '_', 'T', 'H', '1'],
  ['_', 'H', '2', 'P', 'P', '_', 'T', 'H', '2'],
  ['_', 'H', '2', 'P', 'P', '_', 'T', 'H', '3'],
  ['_', 'H', '2', 'P', 'P', '_', 'T', 'H', '4'],
  ['_', 'H', '2', 'P', 'P', '_', 'T', 'H', '5'],
  ['_', 'H', '2', 'P', 'P', '_', 'T', 'H', '6'],
  ['_', 'H', '2', 'P', 'P', '_', 'T', 'H', '7'],
  ['_', 'H', '2', 'P', 'P', '_', 'T', 'H', '8'],
  ['_', 'H', '2', 'P', 'P', '_', 'T', 'H', '9'],
  ['_', 'H', '2', 'P', 'P', '_', 'T', 'H', '1', '0'],
  ['_', 'H', '2', 'P', 'P', '_', 'T', 'H', '1', '1'],
  ['_', 'H', '2', 'P', 'P', '_', 'T', 'H', '1', '2'],
  ['_', 'H', '2', 'P', 'P', '_', 'T', 'H', '1', '3'],
  ['_', 'H', '2', 'P', 'P', '_', 'T', 'H', '1', '4'],
  ['_', 'H', '2', 'P', 'P', '_', 'T', 'H', '1', '5'],
  ['_', 'H', '2', 'P', 'P', '_', 'T', 'H', '1', '6'],
  ['_', 'H', '2', 'P', 'P', '_', 'T', 'H', '1', '7'],
  ['_', 'H', '2', 'P', 'P', '_', 'T', 'H', '1', '8'],
  ['_', 'H', '2', 'P', 'P', '_', 'T', 'H', '1', '9'],
  ['_', 'H', '2', 'P', 'P', '_', 'T', 'H', '2', '0'],
  ['_', 'H', '2', 'P', 'P', '_', 'T', 'H', '2', '1'],
  ['_', 'H', '2', 'P', 'P', '_', 'T', 'H', '2', '2'],
  ['_', 'H', '2', 'P', 'P', '_', 'T', 'H', '2', '3'],
  ['_', 'H', '2', 'P', 'P', '_', 'T', 'H', '2', '4'],
  ['_', 'H', '2', 'P', 'P', '_', 'T', 'H', '2', '5'],
  ['_', 'H', '2', 'P', 'P', '_', 'T', 'H', '2', '6'],
  ['_', 'H', '2', 'P', 'P', '_', 'T', 'H', '2', '7'],
  ['_', 'H', '2', 'P', 'P', '_', 'T', 'H', '2', '8'],
  ['_', 'H', '2', 'P', 'P', '_', 'T', 'H', '2', '9'],
  ['_', 'H', '2', 'P', 'P', '_', 'T', 'H', '3', '0'],
  ['_', 'H', '2', 'P', 'P', '_', 'T', 'H', '3', '1'],
  ['H', '2', 'P', 'P', '_', 'T', 'H', '0'],
  ['H', '2', 'P', 'P', '_', 'T', 'H', '1'],
  ['H', '2', 'P', 'P', '_', 'T', 'H', '2'],
  ['H', '2', 'P', 'P', '_', 'T', 'H', '3'],
  ['H', '2', 'P', 'P', '_', 'T', 'H', '4'],
  ['H', '2', 'P', 'P', '_', 'T', 'H', '5'],
  ['H', '2', 'P', 'P', '_', 'T', 'H', '6'],
  ['H', '2', 'P', 'P', '_', 'T', 'H', '7'],
  ['H', '2', 'P', 'P', '_', 'T', 'H', '8'],
  ['H', '2', 'P', 'P', '_', 'T', 'H', '9'],
  ['H', '2', 'P', 'P', '_', 'T', 'H', '1', '0'],
  ['H', '2', 'P', 'P', '_', 'T', 'H', '1', '1'],
  ['H', '2', 'P', 'P', '_', 'T', 'H', '1', '2'],
  ['H', '2', 'P', 'P', '_', 'T', 'H', '1', '3'],
  ['H', '2', 'P', 'P', '_', 'T', 'H', '1', '4'],
  ['H', '2', 'P', 'P', '_', 'T', 'H', '1', '5'],
  ['H', '2', 'P', 'P', '_', 'T', 'H', '1', '6'],
  ['H', '2', 'P', 'P', '_', 'T', 'H', '1', '7'],
  ['H', '2', 'P', 'P', '_', 'T', 'H', '1', '8'],
  ['H', '2', 'P', 'P', '_', 'T', 'H', '1', '9'],
  ['H', '2', 'P', 'P', '_', 'T', 'H', '2', '0'],
  ['H', '2', 'P', 'P', '_', 'T', 'H', '2', '1'],
  ['H', '2', 'P', 'P', '_', 'T', 'H', '2', '2'],
  ['H', '2', 'P', 'P', '_', 'T', 'H', '2', '3'],
  ['H', '2', 'P', 'P', '_', 'T', 'H', '2', '4'],
  ['H', '2', 'P', 'P', '_', 'T', 'H', '2', '5'],
  ['H', '2', 'P', 'P', '_', 'T', 'H', '2', '6'],
  ['H', '2', 'P', 'P', '_', 'T', 'H', '2', '7'],
  ['H', '2', 'P', 'P', '_', 'T', 'H', '2', '8'],
  ['H', '2', 'P', 'P', '_', 'T', 'H', '2', '9'],
  ['H', '2', 'P', 'P', '_', 'T', 'H', '3', '0'],
  ['H', '2', 'P', 'P', '_', 'T', 'H', '3', '1'],
  ['H', '2', 'P', 'P', '_', 'I', 'N', 'C', '_', '0'],
  ['H', '2', 'P', 'P', '_', 'I', 'N', 'C', '_', '1'],
  ['H', '2', 'P', 'P', '_', 'I', 'N', 'C', '_', '2'],
  ['H', '2', 'P', 'P', '_', 'I', 'N', 'C', '_', '3'],
  ['H', '2', 'P', 'P', '_', 'I', 'N', 'C', '_', '4'],
  ['H', '2', 'P', 'P', '_', 'I', 'N', 'C', '_', '5'],
  ['H', '2', 'P', 'P', '_', 'I', 'N', 'C', '_', '6'],
  ['H', '2', 'P', 'P', '_', 'I', 'N', 'C', '_', '7'],
  ['H', '2', 'P', 'P', '_', 'I', 'N', 'C', '_', '8'],
  ['H', '2', 'P', 'P', '_', 'I', 'N', 'C', '_', '9'],
  ['H', '2', 'P', 'P', '_', 'I', 'N', 'C', '_', '1', '0'],
  ['H', '2', 'P', 'P', '_', 'I', 'N', 'C', '_', '1', '1'],
  ['H', '2', 'P', 'P', '_', 'I', 'N', 'C', '_', '1', '2'],
  ['H', '2', 'P', 'P', '_', 'I', 'N', 'C', '_', '1', '3'],
  ['H', '2', 'P', 'P', '_', 'I', 'N', 'C', '_', '1', '4'],
  ['H', '2', 'P', 'P', '_', 'I', 'N', 'C', '_', '1', '5'],
  ['H', '2', 'P', 'P', '_', 'I', 'N', 'C', '_', '1', '6'],
  ['H', '2', 'P', 'P', '_', 'I', 'N', 'C', '_', '1', '7'],
  ['H', '2', 'P', 'P', '_', 'I', 'N', 'C', '_', '1', '8'],
  ['H', '2', 'P', 'P', '_', 'I', 'N', 'C', '_', '1', '9'],
  ['H', '2', 'P', 'P', '_', 'I', 'N', 'C', '_', '2', '0'],
  ['H', '2', 'P', 'P', '_', 'I', 'N', 'C', '_', '2', '1'],
  ['H', '2', 'P', 'P', '_', 'I', 'N', 'C', '_', '2', '2'],
  ['H', '2', 'P', 'P', '_', 'I', 'N', 'C', '_', '2', '3'],
  ['H', '2', 'P', 'P', '_', 'I', 'N', 'C', '_', '2', '4'],
  ['H', '2', 'P', 'P', '_', 'I', 'N', 'C', '_', '2', '5'],
  ['H', '2', 'P', 'P', '_', 'I', 'N', 'C', '_', '2', '6'],
  ['H', '2', 'P', 'P', '_', 'I', 'N', 'C', '_', '2', '7'],
  ['H', '2', 'P', 'P', '_', 'I', 'N', 'C', '_', '2', '8'],
  ['H', '2', 'P', 'P', '_', 'I', 'N', 'C', '_', '2', '9'],
  ['H', '2', 'P', 'P', '_', 'I', 'N', 'C', '_', '3', '0'],
  ['H', '2', 'P', 'P', '_', 'I', 'N', 'C', '_', '3', '1'],
  ['H', '2', 'P', 'P', '_', 'D', 'E', 'C', '_', '1'],
  ['H', '2', 'P', 'P', '_', 'D', 'E', 'C', '_', '2'],
  ['H', '2', 'P', 'P', '_', 'D', 'E', 'C', '_', '3'],
  ['H', '2', 'P', 'P', '_', 'D', 'E', 'C', '_', '4'],
  ['H', '2', 'P', 'P', '_', 'D', 'E', 'C', '_', '5'],
  ['H', '2', 'P', 'P', '_', 'D', 'E', 'C', '_', '6'],
  ['H', '2', 'P', 'P', '_', 'D', 'E', 'C', '_', '7'],
  ['H', '2', 'P', 'P', '_', 'D', 'E', 'C', '_', '8'],
  ['H', '2', 'P', 'P', '_', 'D', 'E', 'C', '_', '9'],
  ['H', '2', 'P', 'P', '_', 'D', 'E', 'C', '_', '1', '0'],
  ['H', '2', 'P', 'P', '_', 'D', 'E', 'C', '_', '1', '1'],
  ['H', '2', 'P', 'P', '_', 'D', 'E', 'C', '_', '1', '2'],
  ['H', '2', 'P', 'P', '_', 'D', 'E', 'C', '_', '1', '3'],
  ['H', '2', 'P', 'P', '_', 'D', 'E', 'C', '_', '1', '4'],
  ['H', '2', 'P', 'P', '_', 'D', 'E', 'C', '_', '1', '5'],
  ['H', '2', 'P', 'P', '_', 'D', 'E', 'C', '_', '1', '6'],
  ['H', '2', 'P', 'P', '_', 'D', 'E', 'C', '_', '1', '7'],
  ['H', '2', 'P', 'P', '_', 'D', 'E', 'C', '_', '1', '8'],
  ['H', '2', 'P', 'P', '_', 'D', 'E', 'C', '_', '1', '9'],
  ['H', '2', 'P', 'P', '_', 'D', 'E', 'C', '_', '2', '0'],
  ['H', '2', 'P', 'P', '_', 'D', 'E', 'C', '_', '2', '1'],
  ['H', '2', 'P', 'P', '_', 'D', 'E', 'C', '_', '2', '2'],
  ['H', '2', 'P', 'P', '_', 'D', 'E', 'C', '_', '2', '3'],
  ['H', '2', 'P', 'P', '_', 'D', 'E', 'C', '_', '2', '4'],
  ['H', '2', 'P', 'P', '_', 'D', 'E', 'C', '_', '2', '5'],
  ['H', '2', 'P', 'P', '_', 'D', 'E', 'C', '_', '2', '6'],
  ['H', '2', 'P', 'P', '_', 'D', 'E', 'C', '_', '2', '7'],
  ['H', '2', 'P', 'P', '_', 'D', 'E', 'C', '_', '2', '8'],
  ['H', '2', 'P', 'P', '_', 'D', 'E', 'C', '_', '2', '9'],
  ['H', '2', 'P', 'P', '_', 'D', 'E', 'C', '_', '3', '0'],
  ['H', '2', 'P', 'P', '_', 'D', 'E', 'C', '_', '3', '1'],
  ['H', '2', 'P', 'P', '_', 'D', 'E', 'C', '_', '3', '2'],
  ['_', 'H', '2', 'P', 'P', '_', 'E', 'V', 'A', 'L', '_', '1', '2', '8'],
  ['_', 'H', '2', 'P', 'P', '_', 'E', 'V', 'A', 'L', '_', '6', '4'],
  ['_', 'H', '2', 'P', 'P', '_', 'E', 'V', 'A', 'L', '_', '3', '2'],
  ['_', 'H', '2', 'P', 'P', '_', 'E', 'V', 'A', 'L', '_', '1', '6'],
  ['_', 'H', '2', 'P', 'P', '_', 'E', 'V', 'A', 'L', '_', '8'],
  ['_', 'H', '2', 'P', 'P', '_', 'E', 'V', 'A', 'L', '_', '4'],
  ['_', 'H', '2', 'P', 'P', '_', 'E', 'V', 'A', 'L', '_', '2'],
  ['_', 'H', '2', 'P', 'P', '_', 'E', 'V', 'A', 'L', '_', '1'],
  ['_', 'H', '2', 'P', 'P', '_', '6', '4', 'T', 'H'],
  ['H', '2', 'P', 'P', '_', 'H', 'A', 'S', '_', 'C', 'O', 'M', 'M', 'A'],
  ['H', '2', 'P', 'P', '_', 'A', 'R', 'G', '_', 'C', 'O', 'U', 'N', 'T']]

/-- And of those that have ranks. -/
def rankKeys : List (List Char) := [
  ['H', '2', 'P', 'P', '_', 'C', 'O', 'M', 'M', 'A'],
  ['H', '2', 'P', 'P', '_', 'E', 'M', 'P', 'T', 'Y'],
  ['_', 'H', '2', 'P', 'P', '_', '6', '4', 'T', 'H'],
  ['_', '_', 'H', '2', 'P', 'P', '_', 'F', 'O', 'R', 'E', 'A', 'C', 'H'],
  ['_', '_', 'H', '2', 'P', 'P', '_', 'R', 'E', 'P', 'E', 'A', 'T'],
  ['_', '_', 'H', '2', 'P', 'P', '_', 'L', 'A', 'S', 'T'],
  ['_', '_', 'H', '2', 'P', 'P', '_', 'F', 'O', 'R', 'E', 'A', 'C', 'H', 'x'],
  ['_', '_', 'H', '2', 'P', 'P', '_', 'F', 'O', 'R', 'E', 'A', 'C', 'H', 'y'],
  ['_', 'H', '2', 'P', 'P', '_', 'R', 'E', 'M', 'O', 'V', 'E', '_', 'P', 'A', 'R', 'E', 'N', 'T', 'H', 'E', 'S', 'E', 'S'],
  ['_', 'H', '2', 'P', 'P', '_', 'H', 'E', 'A', 'D', '_', '0', '_', 'R'],
  ['_', 'H', '2', 'P', 'P', '_', 'T', 'A', 'I', 'L', '_', '0', '_', 'R'],
  ['_', 'H', '2', 'P', 'P', '_', 'I', 'S', '_', 'B', 'E', 'G', 'I', 'N', '_', 'P', 'A', 'R', 'E', 'N', 'T', 'H', 'E', 'S', 'I', 'S', '_', 'P', 'R', 'O', 'B', 'E'],
  ['H', '2', 'P', 'P', '_', 'P', 'R', 'O', 'B', 'E'],
  ['_', 'H', '2', 'P', 'P', '_', 'I', 'S', '_', 'E', 'M', 'P', 'T', 'Y', '_', 'C', 'A', 'S', 'E', '_', '0', '0', '0', '1'],
  ['_', 'H', '2', 'P', 'P', '_', 'N', 'O', 'T', '_', '0'],
  ['_', 'H', '2', 'P', 'P', '_', 'T', 'H', '1'],
  ['H', '2', 'P', 'P', '_', 'R', 'E', 'S', 'C', 'A', 'N'],
  ['_', 'H', '2', 'P', 'P', '_', 'C', 'A', 'T', '2'],
  ['_', 'H', '2', 'P', 'P', '_', 'C', 'A', 'T', '5'],
  ['H', '2', 'P', 'P', '_', 'C', 'A', 'T'],
  ['H', '2', 'P', 'P', '_', 'C', 'A', 'T', '2'],
  ['H', '2', 'P', 'P', '_', 'C', 'A', 'T', '5'],
  ['_', 'H', '2', 'P', 'P', '_', 'P', 'R', 'O', 'X', 'Y'],
  ['H', '2', 'P', 'P', '_', 'P', 'R', 'O', 'X', 'Y'],
  ['H', '2', 'P', 'P', '_', 'I', 'S', '_', 'P', 'R', 'O', 'B', 'E'],
  ['H', '2', 'P', 'P', '_', 'H', 'A', 'S', '_', 'C', 'O', 'M', 'M', 'A'],
  ['H', '2', 'P', 'P', '_', 'A', 'R', 'G', '_', 'C', 'O', 'U', 'N', 'T'],
  ['H', '2', 'P', 'P', '_', 'E', 'Q'],
  ['H', '2', 'P', 'P', '_', 'N', 'O', 'T'],
  ['_', 'H', '2', 'P', 'P', '_', 'I', 'S', '_', 'E', 'M', 'P', 'T', 'Y'],
  ['H', '2', 'P', 'P', '_', 'I', 'S', '_', 'E', 'M', 'P', 'T', 'Y'],
  ['H', '2', 'P', 'P', '_', 'R', 'E', 'M', 'O', 'V', 'E', '_', 'P', 'A', 'R', 'E', 'N', 'T', 'H', 'E', 'S', 'E', 'S'],
  ['H', '2', 'P', 'P', '_', 'D', 'E', 'F', 'E', 'R'],
  ['_', 'H', '2', 'P', 'P', '_', 'C', 'O', 'M', 'P', 'L', '_', '0'],
  ['_', 'H', '2', 'P', 'P', '_', 'C', 'O', 'M', 'P', 'L', '_', '1'],
  ['H', '2', 'P', 'P', '_', 'C', 'O', 'M', 'P', 'L'],
  ['H', '2', 'P', 'P', '_', 'B', 'O', 'O', 'L'],
  ['_', 'H', '2', 'P', 'P', '_', 'A', 'N', 'D', '_', '0'],
  ['_', 'H', '2', 'P', 'P', '_', 'A', 'N', 'D', '_', '1'],
  ['H', '2', 'P', 'P', '_', 'A', 'N', 'D'],
  ['_', 'H', '2', 'P', 'P', '_', 'N', 'A', 'R', 'G', '_', '0'],
  ['_', 'H', '2', 'P', 'P', '_', 'N', 'A', 'R', 'G', '_', '1'],
  ['_', 'H', '2', 'P', 'P', '_', 'H', 'E', 'A', 'D', '_', '0'],
  ['_', 'H', '2', 'P', 'P', '_', 'H', 'E', 'A', 'D', '_', '1'],
  ['_', 'H', '2', 'P', 'P', '_', 'T', 'A', 'I', 'L', '_', '0'],
  ['_', 'H', '2', 'P', 'P', '_', 'T', 'A', 'I', 'L', '_', '1'],
  ['_', 'H', '2', 'P', 'P', '_', 'I', 'F', '_', 'E', 'L', 'S', 'E', '_', '0'],
  ['_', 'H', '2', 'P', 'P', '_', 'I', 'F', '_', 'E', 'L', 'S', 'E', '_', '1'],
  ['H', '2', 'P', 'P', '_', 'I', 'S', '_', 'B', 'E', 'G', 'I', 'N', '_', 'P', 'A', 'R', 'E', 'N', 'T', 'H', 'E', 'S', 'I', 'S'],
  ['H', '2', 'P', 'P', '_', 'I', 'F', '_', 'E', 'L', 'S', 'E'],
  ['H', '2', 'P', 'P', '_', 'H', 'E', 'A', 'D'],
  ['H', '2', 'P', 'P', '_', 'T', 'A', 'I', 'L'],
  ['H', '2', 'P', 'P', '_', 'N', 'A', 'R', 'G'],
  ['H', '2', 'P', 'P', '_', 'V', 'C', 'A', 'L', 'L'],
  ['H', '2', 'P', 'P', '_', 'N', 'C', 'A', 'L', 'L'],
  ['H', '2', 'P', 'P', '_', 'I', 'S', '_', 'P', 'A', 'R', 'E', 'N', 'T', 'H', 'E', 'S', 'I', 'S'],
  ['_', 'H', '2', 'P', 'P', '_', 'R', 'E', 'M', 'O', 'V', 'E', '_', 'P', 'A', 'R', 'E', 'N', 'T', 'H', 'E', 'S', 'E', 'S', '_', 'I', 'F', '_', '0'],
  ['_', 'H', '2', 'P', 'P', '_', 'R', 'E', 'M', 'O', 'V', 'E', '_', 'P', 'A', 'R', 'E', 'N', 'T', 'H', 'E', 'S', 'E', 'S', '_', 'I', 'F', '_', '1'],
  ['H', '2', 'P', 'P', '_', 'R', 'E', 'M', 'O', 'V', 'E', '_', 'P', 'A', 'R', 'E', 'N', 'T', 'H', 'E', 'S', 'E', 'S', '_', 'I', 'F'],
  ['_', 'H', '2', 'P', 'P', '_', 'F', 'O', 'R', 'E', 'A', 'C', 'H', '_', 'C', 'A', 'L', 'L', '_', 'M', 'A', 'C', 'R', 'O', '_', '0'],
  ['_', 'H', '2', 'P', 'P', '_', 'F', 'O', 'R', 'E', 'A', 'C', 'H', '_', 'C', 'A', 'L', 'L', '_', 'M', 'A', 'C', 'R', 'O', '_', '1'],
  ['_', 'H', '2', 'P', 'P', '_', 'F', 'O', 'R', 'E', 'A', 'C', 'H', '_', 'C', 'A', 'L', 'L', '_', 'M', 'A', 'C', 'R', 'O'],
  ['_', 'H', '2', 'P', 'P', '_', 'F', 'O', 'R', 'E', 'A', 'C', 'H', '_', '0'],
  ['_', 'H', '2', 'P', 'P', '_', 'F', 'O', 'R', 'E', 'A', 'C', 'H', '_', '1'],
  ['_', 'H', '2', 'P', 'P', '_', 'F', 'O', 'R', 'E', 'A', 'C', 'H'],
  ['_', 'H', '2', 'P', 'P', '_', 'R', 'E', 'P', 'E', 'A', 'T', '_', 'C', 'A', 'L', 'L', '_', 'M', 'A', 'C', 'R', 'O', '_', '0'],
  ['_', 'H', '2', 'P', 'P', '_', 'R', 'E', 'P', 'E', 'A', 'T', '_', 'C', 'A', 'L', 'L', '_', 'M', 'A', 'C', 'R', 'O', '_', '1'],
  ['_', 'H', '2', 'P', 'P', '_', 'R', 'E', 'P', 'E', 'A', 'T', '_', 'C', 'A', 'L', 'L', '_', 'M', 'A', 'C', 'R', 'O'],
  ['_', 'H', '2', 'P', 'P', '_', 'R', 'E', 'P', 'E', 'A', 'T', '_', '0'],
  ['_', 'H', '2', 'P', 'P', '_', 'R', 'E', 'P', 'E', 'A', 'T', '_', '1'],
  ['_', 'H', '2', 'P', 'P', '_', 'R', 'E', 'P', 'E', 'A', 'T'],
  ['_', 'H', '2', 'P', 'P', '_', 'F', 'U', 'L', 'L', 'M', 'E', 'S', 'H', '_', 'C', 'A', 'L', 'L', '_', 'M', 'A', 'C', 'R', 'O', '_', '0'],
  ['_', 'H', '2', 'P', 'P', '_', 'F', 'U', 'L', 'L', 'M', 'E', 'S', 'H', '_', 'C', 'A', 'L', 'L', '_', 'M', 'A', 'C', 'R', 'O', '_', '1'],
  ['_', 'H', '2', 'P', 'P', '_', 'F', 'U', 'L', 'L', 'M', 'E', 'S', 'H', '_', 'C', 'A', 'L', 'L', '_', 'M', 'A', 'C', 'R', 'O'],
  ['_', 'H', '2', 'P', 'P', '_', 'F', 'O', 'R', 'E', 'A', 'C', 'H', 'y', '_', '0'],
  ['_', 'H', '2', 'P', 'P', '_', 'F', 'O', 'R', 'E', 'A', 'C', 'H', 'y', '_', '1'],
  ['_', 'H', '2', 'P', 'P', '_', 'F', 'O', 'R', 'E', 'A', 'C', 'H', 'y'],
  ['_', 'H', '2', 'P', 'P', '_', 'F', 'O', 'R', 'E', 'A', 'C', 'H', 'x', '_', '0'],
  ['_', 'H', '2', 'P', 'P', '_', 'F', 'O', 'R', 'E', 'A', 'C', 'H', 'x', '_', '1'],
  ['_', 'H', '2', 'P', 'P', '_', 'F', 'O', 'R', 'E', 'A', 'C', 'H', 'x'],
  ['_', 'H', '2', 'P', 'P', '_', 'L', 'A', 'S', 'T', '_', '0', '_', '0'],
  ['_', 'H', '2', 'P', 'P', '_', 'L', 'A', 'S', 'T', '_', '0', '_', '1'],
  ['_', 'H', '2', 'P', 'P', '_', 'L', 'A', 'S', 'T', '_', '0'],
  ['_', 'H', '2', 'P', 'P', '_', 'L', 'A', 'S', 'T', '_', '1'],
  ['_', 'H', '2', 'P', 'P', '_', 'L', 'A', 'S', 'T'],
  ['_', 'H', '2', 'P', 'P', '_', 'E', 'V', 'A', 'L', '_', '1'],
  ['_', 'H', '2', 'P', 'P', '_', 'E', 'V', 'A', 'L', '_', '2'],
  ['_', 'H', '2', 'P', 'P', '_', 'E', 'V', 'A', 'L', '_', '4'],
  ['_', 'H', '2', 'P', 'P', '_', 'E', 'V', 'A', 'L', '_', '8'],
  ['_', 'H', '2', 'P', 'P', '_', 'E', 'V', 'A', 'L', '_', '1', '6'],
  ['_', 'H', '2', 'P', 'P', '_', 'E', 'V', 'A', 'L', '_', '3', '2'],
  ['_', 'H', '2', 'P', 'P', '_', 'E', 'V', 'A', 'L', '_', '6', '4'],
  ['_', 'H', '2', 'P', 'P', '_', 'E', 'V', 'A', 'L', '_', '1', '2', '8'],
  ['H', '2', 'P', 'P', '_', 'E', 'V', 'A', 'L'],
  ['H', '2', 'P', 'P', '_', 'F', 'O', 'R', 'E', 'A', 'C', 'H'],
  ['H', '2', 'P', 'P', '_', 'R', 'E', 'P', 'E', 'A', 'T'],
  ['H', '2', 'P', 'P', '_', 'L', 'A', 'S', 'T'],
  ['H', '2', 'P', 'P', '_', 'F', 'U', 'L', 'L', 'M', 'E', 'S', 'H', '2'],
  ['_', 'H', '2', 'P', 'P', '_', 'F', 'U', 'L', 'L', 'M', 'E', 'S', 'H', '2', '_', '0', '_', 'R'],
  ['_', 'H', '2', 'P', 'P', '_', 'F', 'U', 'L', 'L', 'M', 'E', 'S', 'H', '2', '_', '0'],
  ['_', 'H', '2', 'P', 'P', '_', 'F', 'U', 'L', 'L', 'M', 'E', 'S', 'H', '2', '_', '1'],
  ['H', '2', 'P', 'P', '_', 'F', 'U', 'L', 'L', 'M', 'E', 'S', 'H', '1'],
  ['_', 'H', '2', 'P', 'P', '_', 'F', 'U', 'L', 'L', 'M', 'E', 'S', 'H', '1', '_', '0'],
  ['_', 'H', '2', 'P', 'P', '_', 'F', 'U', 'L', 'L', 'M', 'E', 'S', 'H', '1', '_', '1'],
  ['H', '2', 'P', 'P', '_', 'F', 'U', 'L', 'L', 'M', 'E', 'S', 'H'],
  ['_', 'H', '2', 'F', 'o', 'r', 'e', 'a', 'c', 'h', 'M', 'a', 'c', 'r', 'o'],
  ['_', 'H', '2', 'F', 'u', 'l', 'l', 'm', 'e', 's', 'h', 'M', 'a', 'c', 'r', 'o'],
  ['H', '2', 'F', 'o', 'r', 'e', 'a', 'c', 'h'],
  ['H', '2', 'F', 'u', 'l', 'l', 'm', 'e', 's', 'h']]

/-- The numbers of the names in the table. -/
def codes : List Nat := [
  0x10002a000104000860005f000280001400006400048, 0x2000320002a000104000860005f000280001400006400048,
  0x400064000540002080010c000be00050000280000c8000900005f, 0x2000350002a000104000860005f000280001400006400048,
  0x40006a000540002080010c000be00050000280000c8000900005f, 0x4000820004d0002680013c000860005f000280001400006400048,
  0x4000b200054000280001340008a0005f000280001400006400048, 0x4000a40004500023000114000880005f000280001400006400048,
  0x800138000820004300029800114000a40005f000280001400006400048, 0x4000b20005800027800148000a00005f000280001400006400048,
  0x8000c8000b20005800027800148000a00005f000280001400006400048, 0x800164000b00004f00029000140000be00050000280000c8000900005f,
  0x2000450002100013c000a4000500002f80014c000920005f000280001400006400048, 0x40008a0004200027800148000a00005f000280001400006400048,
  0x20004c000208001580008a0005f000280001400006400048, 0x8001440008a0005f000280001400006400048, 0x10002a00013c0009c0005f000280001400006400048,
  0x8000c0000be0005400027800138000be00050000280000c8000900005f, 0x400098000500002680013c000860005f000280001400006400048,
  0x2000300002f800130000a00004d0002780010c000be00050000280000c8000900005f, 0x2000310002f800130000a00004d0002780010c000be00050000280000c8000900005f,
  0x20004c0002780013c000840005f000280001400006400048, 0x100022000138000820005f000280001400006400048,
  0x8000c0000be0004400027000104000be00050000280000c8000900005f, 0x8000c4000be0004400027000104000be00050000280000c8000900005f,
  0x8001480009e0005f000280001400006400048, 0x4000600005f0002900013c000be00050000280000c8000900005f,
  0x4000620005f0002900013c000be00050000280000c8000900005f, 0x10002280014c00098000450002f800118000920005f000280001400006400048,
  0x8000c4000be00045000298001300008a0005f00023000124000be00050000280000c8000900005f,
  0x8000c0000be00045000298001300008a0005f00023000124000be00050000280000c8000900005f, 0x800118000920005f000280001400006400048,
  0x4000620005f00023000124000be00050000280000c8000900005f, 0x4000600005f00023000124000be00050000280000c8000900005f,
  0x2000530002480014c0008a000480002a0001380008a0005200020800140000be0004e0002480011c0008a000420002f80014c000920005f000280001400006400048,
  0x1000228001080009e000520002800017c000a60004900029800114000900005400027000114000a4000410002800017c0009c0004900023800114000840005f00029800124000be00050000280000c8000900005f,
  0x80014c000920005300022800120000a80004e0002280014800082000500002f80014c000920005f000280001400006400048,
  0x80014c0008a0005300022800120000a80004e0002280014800082000500002f800114000ac0004f00026800114000a40005f000280001400006400048,
  0x100029800114000a600045000240001500009c0004500029000104000a00005f000228001580009e0004d00022800148000be00050000280000c8000900005f,
  0x40008c000490002f80014c0008a0005300022800120000a80004e0002280014800082000500002f800114000ac0004f00026800114000a40005f000280001400006400048,
  0x2000310002f800118000920005f00029800114000a600045000240001500009c0004500029000104000a00005f000228001580009e0004d00022800148000be00050000280000c8000900005f,
  0x2000300002f800118000920005f00029800114000a600045000240001500009c0004500029000104000a00005f000228001580009e0004d00022800148000be00050000280000c8000900005f,
  0x2000590002a0001400009a000450002f80014c000920005f000280001400006400048,
  0x4000b200054000280001340008a0005f00029800124000be00050000280000c8000900005f,
  0x1000188000c000060000300002f800114000a6000410002180017c000b200054000280001340008a0005f00029800124000be00050000280000c8000900005f,
  0x200047000290001040009c0005f000280001400006400048, 0x10001800017c0008e0005200020800138000be00050000280000c8000900005f,
  0x10001880017c0008e0005200020800138000be00050000280000c8000900005f, 0x4000980004c0002080010c0009c0005f000280001400006400048,
  0x4000980004c0002080010c000ac0005f000280001400006400048, 0x20004400020800114000900005f000280001400006400048,
  0x10001800017c000880004100022800120000be00050000280000c8000900005f, 0x4000a40005f0001800017c000880004100022800120000be00050000280000c8000900005f,
  0x10001880017c000880004100022800120000be00050000280000c8000900005f, 0x20004c00024800104000a80005f000280001400006400048,
  0x10001800017c000980004900020800150000be00050000280000c8000900005f, 0x4000a40005f0001800017c000980004900020800150000be00050000280000c8000900005f,
  0x10001880017c000980004900020800150000be00050000280000c8000900005f, 0x20005400029800104000980005f000280001400006400048,
  0x4000a80005300020800130000be00050000280000c8000900005f, 0x10001880017c000a80005300020800130000be00050000280000c8000900005f,
  0x10001800017c000a80005300020800130000be00050000280000c8000900005f, 0x4000620005f0001800017c000a80005300020800130000be00050000280000c8000900005f,
  0x4000600005f0001800017c000a80005300020800130000be00050000280000c8000900005f, 0x800150000a6000410002600017c000a00005000019000120000be0005f,
  0x800150000820004500028000114000a40005f000280001400006400048, 0x10002a0001040008a0005000022800148000be00050000280000c8000900005f,
  0x4000600005f0002a0001040008a0005000022800148000be00050000280000c8000900005f,
  0x4000620005f0002a0001040008a0005000022800148000be00050000280000c8000900005f,
  0x20005400020800114000a0000450002900017c000a00005000019000120000be0005f,
  0x80013c000a40004300020800134000be0004c00026000104000860005f0002a0001040008a0005000022800148000be00050000280000c8000900005f,
  0x2000310002f80013c000a40004300020800134000be0004c00026000104000860005f0002a0001040008a0005000022800148000be00050000280000c8000900005f,
  0x2000300002f80013c000a40004300020800134000be0004c00026000104000860005f0002a0001040008a0005000022800148000be00050000280000c8000900005f,
  0x10002400010c00082000450002900013c0008c0005f000280001400006400048, 0x200048000218001040008a0005200027800118000be00050000280000c8000900005f,
  0x8000c4000be00048000218001040008a0005200027800118000be00050000280000c8000900005f,
  0x8000c0000be00048000218001040008a0005200027800118000be00050000280000c8000900005f,
  0x4000900004300020800114000a40004f0002300017c000a00005000019000120000be0005f,
  0x10002780014800086000410002680017c000980004c0002080010c000be00048000218001040008a0005200027800118000be00050000280000c8000900005f,
  0x4000620005f0002780014800086000410002680017c000980004c0002080010c000be00048000218001040008a0005200027800118000be00050000280000c8000900005f,
  0x4000600005f0002780014800086000410002680017c000980004c0002080010c000be00048000218001040008a0005200027800118000be00050000280000c8000900005f,
  0x200048000298001140009a0004c000260001540008c0005f000280001400006400048,
  0x2000310002f8000c4000900005300022800134000980004c0002a800118000be00050000280000c8000900005f,
  0x2000300002f8000c4000900005300022800134000980004c0002a800118000be00050000280000c8000900005f,
  0x40006200048000298001140009a0004c000260001540008c0005f000280001400006400048,
  0x2000310002f8000c8000900005300022800134000980004c0002a800118000be00050000280000c8000900005f,
  0x2000300002f8000c8000900005300022800134000980004c0002a800118000be00050000280000c8000900005f,
  0x800148000be000300002f8000c8000900005300022800134000980004c0002a800118000be00050000280000c8000900005f,
  0x40006400048000298001140009a0004c000260001540008c0005f000280001400006400048,
  0x4000f000048000218001040008a0005200027800118000be00050000280000c8000900005f,
  0x10001880017c000f000048000218001040008a0005200027800118000be00050000280000c8000900005f,
  0x10001800017c000f000048000218001040008a0005200027800118000be00050000280000c8000900005f,
  0x8001e0000900004300020800114000a40004f0002300017c000a00005000019000120000be0005f,
  0x4000f200048000218001040008a0005200027800118000be00050000280000c8000900005f,
  0x10001880017c000f200048000218001040008a0005200027800118000be00050000280000c8000900005f,
  0x10001800017c000f200048000218001040008a0005200027800118000be00050000280000c8000900005f,
  0x8001e4000900004300020800114000a40004f0002300017c000a00005000019000120000be0005f,
  0x20004f0002900010c000820004d0002f80013000098000410002180017c000900005300022800134000980004c0002a800118000be00050000280000c8000900005f,
  0x8000c4000be0004f0002900010c000820004d0002f80013000098000410002180017c000900005300022800134000980004c0002a800118000be00050000280000c8000900005f,
  0x8000c0000be0004f0002900010c000820004d0002f80013000098000410002180017c000900005300022800134000980004c0002a800118000be00050000280000c8000900005f,
  0x20006800031800184000ca00072000378001180006400048, 0x8001bc000e40006300030800134000d00006300030800194000e40006f000230000c8000900005f,
  0x4000d000073000328001b4000d80006c0003a8001180006400048, 0x1000378001c8000c600061000268001a0000e600065000368001b0000d800075000230000c8000900005f,
  0x4000600005f0002f8000c0000be0005f00028800114000be00050000280000c8000900005f,
  0x4000620005f0002f8000c4000be0005f00028800114000be00050000280000c8000900005f,
  0x4000640005f0002f8000c8000be0005f00028800114000be00050000280000c8000900005f,
  0x4000660005f0002f8000cc000be0005f00028800114000be00050000280000c8000900005f,
  0x4000680005f0002f8000d0000be0005f00028800114000be00050000280000c8000900005f,
  0x40006a0005f0002f8000d4000be0005f00028800114000be00050000280000c8000900005f,
  0x40006c0005f0002f8000d8000be0005f00028800114000be00050000280000c8000900005f,
  0x40006e0005f0002f8000dc000be0005f00028800114000be00050000280000c8000900005f,
  0x4000700005f0002f8000e0000be0005f00028800114000be00050000280000c8000900005f,
  0x4000720005f0002f8000e4000be0005f00028800114000be00050000280000c8000900005f,
  0x1000180000c4000be0005f000180000c4000be0005f00028800114000be00050000280000c8000900005f,
  0x1000188000c4000be0005f000188000c4000be0005f00028800114000be00050000280000c8000900005f,
  0x1000190000c4000be0005f000190000c4000be0005f00028800114000be00050000280000c8000900005f,
  0x1000198000c4000be0005f000198000c4000be0005f00028800114000be00050000280000c8000900005f,
  0x10001a0000c4000be0005f0001a0000c4000be0005f00028800114000be00050000280000c8000900005f,
  0x10001a8000c4000be0005f0001a8000c4000be0005f00028800114000be00050000280000c8000900005f,
  0x10001b0000c4000be0005f0001b0000c4000be0005f00028800114000be00050000280000c8000900005f,
  0x10001b8000c4000be0005f0001b8000c4000be0005f00028800114000be00050000280000c8000900005f,
  0x10001c0000c4000be0005f0001c0000c4000be0005f00028800114000be00050000280000c8000900005f,
  0x10001c8000c4000be0005f0001c8000c4000be0005f00028800114000be00050000280000c8000900005f,
  0x1000180000c8000be0005f000180000c8000be0005f00028800114000be00050000280000c8000900005f,
  0x1000188000c8000be0005f000188000c8000be0005f00028800114000be00050000280000c8000900005f,
  0x1000190000c8000be0005f000190000c8000be0005f00028800114000be00050000280000c8000900005f,
  0x1000198000c8000be0005f000198000c8000be0005f00028800114000be00050000280000c8000900005f,
  0x10001a0000c8000be0005f0001a0000c8000be0005f00028800114000be00050000280000c8000900005f,
  0x10001a8000c8000be0005f0001a8000c8000be0005f00028800114000be00050000280000c8000900005f,
  0x10001b0000c8000be0005f0001b0000c8000be0005f00028800114000be00050000280000c8000900005f,
  0x10001b8000c8000be0005f0001b8000c8000be0005f00028800114000be00050000280000c8000900005f,
  0x10001c0000c8000be0005f0001c0000c8000be0005f00028800114000be00050000280000c8000900005f,
  0x10001c8000c8000be0005f0001c8000c8000be0005f00028800114000be00050000280000c8000900005f,
  0x1000180000cc000be0005f000180000cc000be0005f00028800114000be00050000280000c8000900005f,
  0x1000188000cc000be0005f000188000cc000be0005f00028800114000be00050000280000c8000900005f, 0x20003000024000150000be00050000280000c8000900005f,
  0x20003100024000150000be00050000280000c8000900005f, 0x20003200024000150000be00050000280000c8000900005f,
  0x20003300024000150000be00050000280000c8000900005f, 0x20003400024000150000be00050000280000c8000900005f,
  0x20003500024000150000be00050000280000c8000900005f, 0x20003600024000150000be00050000280000c8000900005f,
  0x20003700024000150000be00050000280000c8000900005f, 0x20003800024000150000be00050000280000c8000900005f,
  0x20003900024000150000be00050000280000c8000900005f, 0x4000600003100024000150000be00050000280000c8000900005f,
  0x4000620003100024000150000be00050000280000c8000900005f, 0x4000640003100024000150000be00050000280000c8000900005f,
  0x4000660003100024000150000be00050000280000c8000900005f, 0x4000680003100024000150000be00050000280000c8000900005f,
  0x40006a0003100024000150000be00050000280000c8000900005f, 0x40006c0003100024000150000be00050000280000c8000900005f,
  0x40006e0003100024000150000be00050000280000c8000900005f, 0x4000700003100024000150000be00050000280000c8000900005f,
  0x4000720003100024000150000be00050000280000c8000900005f, 0x4000600003200024000150000be00050000280000c8000900005f,
  0x4000620003200024000150000be00050000280000c8000900005f, 0x4000640003200024000150000be00050000280000c8000900005f,
  0x4000660003200024000150000be00050000280000c8000900005f, 0x4000680003200024000150000be00050000280000c8000900005f,
  0x40006a0003200024000150000be00050000280000c8000900005f, 0x40006c0003200024000150000be00050000280000c8000900005f,
  0x40006e0003200024000150000be00050000280000c8000900005f, 0x4000700003200024000150000be00050000280000c8000900005f,
  0x4000720003200024000150000be00050000280000c8000900005f, 0x4000600003300024000150000be00050000280000c8000900005f,
  0x4000620003300024000150000be00050000280000c8000900005f, 0x100018000120000a80005f000280001400006400048,
  0x100018800120000a80005f000280001400006400048, 0x100019000120000a80005f000280001400006400048, 0x100019800120000a80005f000280001400006400048,
  0x10001a000120000a80005f000280001400006400048, 0x10001a800120000a80005f000280001400006400048, 0x10001b000120000a80005f000280001400006400048,
  0x10001b800120000a80005f000280001400006400048, 0x10001c000120000a80005f000280001400006400048, 0x10001c800120000a80005f000280001400006400048,
  0x20003000018800120000a80005f000280001400006400048, 0x20003100018800120000a80005f000280001400006400048,
  0x20003200018800120000a80005f000280001400006400048, 0x20003300018800120000a80005f000280001400006400048,
  0x20003400018800120000a80005f000280001400006400048, 0x20003500018800120000a80005f000280001400006400048,
  0x20003600018800120000a80005f000280001400006400048, 0x20003700018800120000a80005f000280001400006400048,
  0x20003800018800120000a80005f000280001400006400048, 0x20003900018800120000a80005f000280001400006400048,
  0x20003000019000120000a80005f000280001400006400048, 0x20003100019000120000a80005f000280001400006400048,
  0x20003200019000120000a80005f000280001400006400048, 0x20003300019000120000a80005f000280001400006400048,
  0x20003400019000120000a80005f000280001400006400048, 0x20003500019000120000a80005f000280001400006400048,
  0x20003600019000120000a80005f000280001400006400048, 0x20003700019000120000a80005f000280001400006400048,
  0x20003800019000120000a80005f000280001400006400048, 0x20003900019000120000a80005f000280001400006400048,
  0x20003000019800120000a80005f000280001400006400048, 0x20003100019800120000a80005f000280001400006400048,
  0x4000600005f00021800138000920005f000280001400006400048, 0x4000620005f00021800138000920005f000280001400006400048,
  0x4000640005f00021800138000920005f000280001400006400048, 0x4000660005f00021800138000920005f000280001400006400048,
  0x4000680005f00021800138000920005f000280001400006400048, 0x40006a0005f00021800138000920005f000280001400006400048,
  0x40006c0005f00021800138000920005f000280001400006400048, 0x40006e0005f00021800138000920005f000280001400006400048,
  0x4000700005f00021800138000920005f000280001400006400048, 0x4000720005f00021800138000920005f000280001400006400048,
  0x8000c0000620005f00021800138000920005f000280001400006400048, 0x8000c4000620005f00021800138000920005f000280001400006400048,
  0x8000c8000620005f00021800138000920005f000280001400006400048, 0x8000cc000620005f00021800138000920005f000280001400006400048,
  0x8000d0000620005f00021800138000920005f000280001400006400048, 0x8000d4000620005f00021800138000920005f000280001400006400048,
  0x8000d8000620005f00021800138000920005f000280001400006400048, 0x8000dc000620005f00021800138000920005f000280001400006400048,
  0x8000e0000620005f00021800138000920005f000280001400006400048, 0x8000e4000620005f00021800138000920005f000280001400006400048,
  0x8000c0000640005f00021800138000920005f000280001400006400048, 0x8000c4000640005f00021800138000920005f000280001400006400048,
  0x8000c8000640005f00021800138000920005f000280001400006400048, 0x8000cc000640005f00021800138000920005f000280001400006400048,
  0x8000d0000640005f00021800138000920005f000280001400006400048, 0x8000d4000640005f00021800138000920005f000280001400006400048,
  0x8000d8000640005f00021800138000920005f000280001400006400048, 0x8000dc000640005f00021800138000920005f000280001400006400048,
  0x8000e0000640005f00021800138000920005f000280001400006400048, 0x8000e4000640005f00021800138000920005f000280001400006400048,
  0x8000c0000660005f00021800138000920005f000280001400006400048, 0x8000c4000660005f00021800138000920005f000280001400006400048,
  0x4000620005f00021800114000880005f000280001400006400048, 0x4000640005f00021800114000880005f000280001400006400048,
  0x4000660005f00021800114000880005f000280001400006400048, 0x4000680005f00021800114000880005f000280001400006400048,
  0x40006a0005f00021800114000880005f000280001400006400048, 0x40006c0005f00021800114000880005f000280001400006400048,
  0x40006e0005f00021800114000880005f000280001400006400048, 0x4000700005f00021800114000880005f000280001400006400048,
  0x4000720005f00021800114000880005f000280001400006400048, 0x8000c0000620005f00021800114000880005f000280001400006400048,
  0x8000c4000620005f00021800114000880005f000280001400006400048, 0x8000c8000620005f00021800114000880005f000280001400006400048,
  0x8000cc000620005f00021800114000880005f000280001400006400048, 0x8000d0000620005f00021800114000880005f000280001400006400048,
  0x8000d4000620005f00021800114000880005f000280001400006400048, 0x8000d8000620005f00021800114000880005f000280001400006400048,
  0x8000dc000620005f00021800114000880005f000280001400006400048, 0x8000e0000620005f00021800114000880005f000280001400006400048,
  0x8000e4000620005f00021800114000880005f000280001400006400048, 0x8000c0000640005f00021800114000880005f000280001400006400048,
  0x8000c4000640005f00021800114000880005f000280001400006400048, 0x8000c8000640005f00021800114000880005f000280001400006400048,
  0x8000cc000640005f00021800114000880005f000280001400006400048, 0x8000d0000640005f00021800114000880005f000280001400006400048,
  0x8000d4000640005f00021800114000880005f000280001400006400048, 0x8000d8000640005f00021800114000880005f000280001400006400048,
  0x8000dc000640005f00021800114000880005f000280001400006400048, 0x8000e0000640005f00021800114000880005f000280001400006400048,
  0x8000e4000640005f00021800114000880005f000280001400006400048, 0x8000c0000660005f00021800114000880005f000280001400006400048,
  0x8000c4000660005f00021800114000880005f000280001400006400048, 0x8000c8000660005f00021800114000880005f000280001400006400048,
  0x400070000320001880017c00098000410002b000114000be00050000280000c8000900005f,
  0x2000340001b00017c00098000410002b000114000be00050000280000c8000900005f, 0x2000320001980017c00098000410002b000114000be00050000280000c8000900005f,
  0x2000360001880017c00098000410002b000114000be00050000280000c8000900005f, 0x10001c00017c00098000410002b000114000be00050000280000c8000900005f,
  0x10001a00017c00098000410002b000114000be00050000280000c8000900005f, 0x10001900017c00098000410002b000114000be00050000280000c8000900005f,
  0x10001880017c00098000410002b000114000be00050000280000c8000900005f, 0x400090000540001a0000d8000be00050000280000c8000900005f,
  0x4000820004d0002680013c000860005f00029800104000900005f000280001400006400048,
  0x4000a80004e0002a80013c000860005f00023800148000820005f000280001400006400048]

/-- And of those that have ranks. -/
def rankCodes : List Nat := [
  0x4000820004d0002680013c000860005f000280001400006400048, 0x4000b200054000280001340008a0005f000280001400006400048,
  0x400090000540001a0000d8000be00050000280000c8000900005f, 0x4000900004300020800114000a40004f0002300017c000a00005000019000120000be0005f,
  0x20005400020800114000a0000450002900017c000a00005000019000120000be0005f, 0x800150000a6000410002600017c000a00005000019000120000be0005f,
  0x8001e0000900004300020800114000a40004f0002300017c000a00005000019000120000be0005f,
  0x8001e4000900004300020800114000a40004f0002300017c000a00005000019000120000be0005f,
  0x100029800114000a600045000240001500009c0004500029000104000a00005f000228001580009e0004d00022800148000be00050000280000c8000900005f,
  0x4000a40005f0001800017c000880004100022800120000be00050000280000c8000900005f,
  0x4000a40005f0001800017c000980004900020800150000be00050000280000c8000900005f,
  0x1000228001080009e000520002800017c000a60004900029800114000900005400027000114000a4000410002800017c0009c0004900023800114000840005f00029800124000be00050000280000c8000900005f,
  0x40008a0004200027800148000a00005f000280001400006400048,
  0x1000188000c000060000300002f800114000a6000410002180017c000b200054000280001340008a0005f00029800124000be00050000280000c8000900005f,
  0x8000c0000be0005400027800138000be00050000280000c8000900005f, 0x20003100024000150000be00050000280000c8000900005f,
  0x800138000820004300029800114000a40005f000280001400006400048, 0x400064000540002080010c000be00050000280000c8000900005f,
  0x40006a000540002080010c000be00050000280000c8000900005f, 0x10002a000104000860005f000280001400006400048,
  0x2000320002a000104000860005f000280001400006400048, 0x2000350002a000104000860005f000280001400006400048,
  0x800164000b00004f00029000140000be00050000280000c8000900005f, 0x4000b20005800027800148000a00005f000280001400006400048,
  0x2000450002100013c000a4000500002f80014c000920005f000280001400006400048,
  0x4000820004d0002680013c000860005f00029800104000900005f000280001400006400048,
  0x4000a80004e0002a80013c000860005f00023800148000820005f000280001400006400048, 0x8001440008a0005f000280001400006400048,
  0x10002a00013c0009c0005f000280001400006400048, 0x4000b200054000280001340008a0005f00029800124000be00050000280000c8000900005f,
  0x2000590002a0001400009a000450002f80014c000920005f000280001400006400048,
  0x80014c0008a0005300022800120000a80004e0002280014800082000500002f800114000ac0004f00026800114000a40005f000280001400006400048,
  0x4000a40004500023000114000880005f000280001400006400048, 0x2000300002f800130000a00004d0002780010c000be00050000280000c8000900005f,
  0x2000310002f800130000a00004d0002780010c000be00050000280000c8000900005f, 0x400098000500002680013c000860005f000280001400006400048,
  0x20004c0002780013c000840005f000280001400006400048, 0x8000c0000be0004400027000104000be00050000280000c8000900005f,
  0x8000c4000be0004400027000104000be00050000280000c8000900005f, 0x100022000138000820005f000280001400006400048,
  0x10001800017c0008e0005200020800138000be00050000280000c8000900005f, 0x10001880017c0008e0005200020800138000be00050000280000c8000900005f,
  0x10001800017c000880004100022800120000be00050000280000c8000900005f, 0x10001880017c000880004100022800120000be00050000280000c8000900005f,
  0x10001800017c000980004900020800150000be00050000280000c8000900005f, 0x10001880017c000980004900020800150000be00050000280000c8000900005f,
  0x8000c0000be00045000298001300008a0005f00023000124000be00050000280000c8000900005f,
  0x8000c4000be00045000298001300008a0005f00023000124000be00050000280000c8000900005f,
  0x2000530002480014c0008a000480002a0001380008a0005200020800140000be0004e0002480011c0008a000420002f80014c000920005f000280001400006400048,
  0x10002280014c00098000450002f800118000920005f000280001400006400048, 0x20004400020800114000900005f000280001400006400048,
  0x20004c00024800104000a80005f000280001400006400048, 0x200047000290001040009c0005f000280001400006400048,
  0x4000980004c0002080010c000ac0005f000280001400006400048, 0x4000980004c0002080010c0009c0005f000280001400006400048,
  0x80014c000920005300022800120000a80004e0002280014800082000500002f80014c000920005f000280001400006400048,
  0x2000300002f800118000920005f00029800114000a600045000240001500009c0004500029000104000a00005f000228001580009e0004d00022800148000be00050000280000c8000900005f,
  0x2000310002f800118000920005f00029800114000a600045000240001500009c0004500029000104000a00005f000228001580009e0004d00022800148000be00050000280000c8000900005f,
  0x40008c000490002f80014c0008a0005300022800120000a80004e0002280014800082000500002f800114000ac0004f00026800114000a40005f000280001400006400048,
  0x4000600005f0002780014800086000410002680017c000980004c0002080010c000be00048000218001040008a0005200027800118000be00050000280000c8000900005f,
  0x4000620005f0002780014800086000410002680017c000980004c0002080010c000be00048000218001040008a0005200027800118000be00050000280000c8000900005f,
  0x10002780014800086000410002680017c000980004c0002080010c000be00048000218001040008a0005200027800118000be00050000280000c8000900005f,
  0x8000c0000be00048000218001040008a0005200027800118000be00050000280000c8000900005f,
  0x8000c4000be00048000218001040008a0005200027800118000be00050000280000c8000900005f,
  0x200048000218001040008a0005200027800118000be00050000280000c8000900005f,
  0x2000300002f80013c000a40004300020800134000be0004c00026000104000860005f0002a0001040008a0005000022800148000be00050000280000c8000900005f,
  0x2000310002f80013c000a40004300020800134000be0004c00026000104000860005f0002a0001040008a0005000022800148000be00050000280000c8000900005f,
  0x80013c000a40004300020800134000be0004c00026000104000860005f0002a0001040008a0005000022800148000be00050000280000c8000900005f,
  0x4000600005f0002a0001040008a0005000022800148000be00050000280000c8000900005f,
  0x4000620005f0002a0001040008a0005000022800148000be00050000280000c8000900005f, 0x10002a0001040008a0005000022800148000be00050000280000c8000900005f,
  0x8000c0000be0004f0002900010c000820004d0002f80013000098000410002180017c000900005300022800134000980004c0002a800118000be00050000280000c8000900005f,
  0x8000c4000be0004f0002900010c000820004d0002f80013000098000410002180017c000900005300022800134000980004c0002a800118000be00050000280000c8000900005f,
  0x20004f0002900010c000820004d0002f80013000098000410002180017c000900005300022800134000980004c0002a800118000be00050000280000c8000900005f,
  0x10001800017c000f200048000218001040008a0005200027800118000be00050000280000c8000900005f,
  0x10001880017c000f200048000218001040008a0005200027800118000be00050000280000c8000900005f,
  0x4000f200048000218001040008a0005200027800118000be00050000280000c8000900005f,
  0x10001800017c000f000048000218001040008a0005200027800118000be00050000280000c8000900005f,
  0x10001880017c000f000048000218001040008a0005200027800118000be00050000280000c8000900005f,
  0x4000f000048000218001040008a0005200027800118000be00050000280000c8000900005f,
  0x4000600005f0001800017c000a80005300020800130000be00050000280000c8000900005f,
  0x4000620005f0001800017c000a80005300020800130000be00050000280000c8000900005f, 0x10001800017c000a80005300020800130000be00050000280000c8000900005f,
  0x10001880017c000a80005300020800130000be00050000280000c8000900005f, 0x4000a80005300020800130000be00050000280000c8000900005f,
  0x10001880017c00098000410002b000114000be00050000280000c8000900005f, 0x10001900017c00098000410002b000114000be00050000280000c8000900005f,
  0x10001a00017c00098000410002b000114000be00050000280000c8000900005f, 0x10001c00017c00098000410002b000114000be00050000280000c8000900005f,
  0x2000360001880017c00098000410002b000114000be00050000280000c8000900005f, 0x2000320001980017c00098000410002b000114000be00050000280000c8000900005f,
  0x2000340001b00017c00098000410002b000114000be00050000280000c8000900005f,
  0x400070000320001880017c00098000410002b000114000be00050000280000c8000900005f, 0x20004c000208001580008a0005f000280001400006400048,
  0x10002400010c00082000450002900013c0008c0005f000280001400006400048, 0x800150000820004500028000114000a40005f000280001400006400048,
  0x20005400029800104000980005f000280001400006400048, 0x40006400048000298001140009a0004c000260001540008c0005f000280001400006400048,
  0x800148000be000300002f8000c8000900005300022800134000980004c0002a800118000be00050000280000c8000900005f,
  0x2000300002f8000c8000900005300022800134000980004c0002a800118000be00050000280000c8000900005f,
  0x2000310002f8000c8000900005300022800134000980004c0002a800118000be00050000280000c8000900005f,
  0x40006200048000298001140009a0004c000260001540008c0005f000280001400006400048,
  0x2000300002f8000c4000900005300022800134000980004c0002a800118000be00050000280000c8000900005f,
  0x2000310002f8000c4000900005300022800134000980004c0002a800118000be00050000280000c8000900005f,
  0x200048000298001140009a0004c000260001540008c0005f000280001400006400048,
  0x8001bc000e40006300030800134000d00006300030800194000e40006f000230000c8000900005f,
  0x1000378001c8000c600061000268001a0000e600065000368001b0000d800075000230000c8000900005f, 0x20006800031800184000ca00072000378001180006400048,
  0x4000d000073000328001b4000d80006c0003a8001180006400048]

theorem map_codes {α : Type} {l : List (String × α)} {ks : List (List Char)} {ns : List Nat} (hk : l.map (·.1) = ks.map String.ofList) (hn : ks.map code = ns) :
    l.map (fun p => code p.1.toList) = ns := by
  have : l.map (fun p => code p.1.toList) = (l.map (·.1)).map (fun s => code s.toList) := by simp
  rw [this, hk, ← hn]
  simp [String.toList_ofList]

set_option maxRecDepth 10000

theorem table_codes : table.map (fun p => code p.1.toList) = codes := map_codes (ks := keys) rfl (by decide +kernel)
theorem ranks_codes : ranks.map (fun p => code p.1.toList) = rankCodes := map_codes (ks := rankKeys) rfl (by decide +kernel)
theorem codes_nodup : unlike codes = true := by decide +kernel
theorem rankCodes_nodup : unlike rankCodes = true := by decide +kernel

theorem defs_at {user : String → Option Macro} (i : Nat) {s : String} {m : Macro} (h : table[i]? = some (s, m)) : defs user s = some m :=
  defs_some (lookup_at table_codes codes_nodup h)

/-- The names whose rank is 1. -/
def small (cs : List Char) : Bool :=
  ['_', 'H', '2', 'P', 'P', '_', 'E', 'Q', '_', '_'].isPrefixOf cs || ['H', '2', 'P', 'P', '_', 'I', 'N', 'C', '_'].isPrefixOf cs || ['H', '2', 'P', 'P', '_', 'D', 'E', 'C', '_'].isPrefixOf cs

/-- Beginnings of names of the library. -/
def begins (cs : List Char) : Bool :=
  ['H', '2', 'P', 'P', '_'].isPrefixOf cs || ['_', 'H', '2', 'P', 'P', '_'].isPrefixOf cs || ['_', '_', 'H', '2', 'P', 'P', '_'].isPrefixOf cs

theorem reserved_begins {cs : List Char} (h : begins cs = true) : reserved (String.ofList cs) = true := by
  have e1 : "H2PP_".toList = ['H', '2', 'P', 'P', '_'] := String.toList_ofList
  have e2 : "_H2PP_".toList = ['_', 'H', '2', 'P', 'P', '_'] := String.toList_ofList
  have e3 : "__H2PP_".toList = ['_', '_', 'H', '2', 'P', 'P', '_'] := String.toList_ofList
  unfold reserved
  rw [e1, e2, e3, String.toList_ofList]
  unfold begins at h
  rw [h]; simp

theorem small_eq (cs : List Char) : ("_H2PP_EQ__".toList.isPrefixOf (String.ofList cs).toList || "H2PP_INC_".toList.isPrefixOf (String.ofList cs).toList ||
    "H2PP_DEC_".toList.isPrefixOf (String.ofList cs).toList) = small cs := by
  have e1 : "_H2PP_EQ__".toList = ['_', 'H', '2', 'P', 'P', '_', 'E', 'Q', '_', '_'] := String.toList_ofList
  have e2 : "H2PP_INC_".toList = ['H', '2', 'P', 'P', '_', 'I', 'N', 'C', '_'] := String.toList_ofList
  have e3 : "H2PP_DEC_".toList = ['H', '2', 'P', 'P', '_', 'D', 'E', 'C', '_'] := String.toList_ofList
  rw [e1, e2, e3, String.toList_ofList]; rfl

theorem rank_at (i : Nat) (cs : List Char) {N : List String} [Free N] {c : Nat} (h : ranks[i]? = some (String.ofList cs, c)) (hr : reserved (String.ofList cs) = true)
    (hp : small cs = false) : rank N (String.ofList cs) = c := by
  refine rank_reserved hr ?_
  unfold rank
  rw [if_neg (List.not_mem_nil), small_eq, if_neg (by rw [hp]; simp), lookup_at ranks_codes rankCodes_nodup h]
  rfl

theorem rank_small {N : List String} [Free N] {cs : List Char} (hr : begins cs = true) (hp : small cs = true) : rank N (String.ofList cs) = 1 := by
  refine rank_reserved (reserved_begins hr) ?_
  unfold rank
  rw [if_neg (List.not_mem_nil), small_eq, if_pos hp]

end H2.Macro
