import Verif.Junit.Model
import Verif.Junit.Spec
import Verif.Runner.Props
namespace H2.Junit
open H2.Runner

/-! ### Reading tags -/

/-- A name of an element or attribute. -/
def Name (n : Str) : Prop := n ≠ [] ∧ ∀ c ∈ n, c ≠ '<' ∧ c ≠ '>' ∧ c ≠ '"' ∧ c ≠ '=' ∧ c ≠ ' ' ∧ c ≠ '?' ∧ c ≠ '/'

instance (n : Str) : Decidable (Name n) := by unfold Name; infer_instance
instance (n : Str) : Decidable (Plain n) := by unfold Plain; infer_instance

def attrText (as : List (Str × Str)) : Str := as.flatMap fun a => ' ' :: a.1 ++ ['=', '"'] ++ a.2 ++ ['"']

theorem attrText_nil : attrText [] = [] := rfl
theorem attrText_cons (a : Str × Str) (as : List (Str × Str)) : attrText (a :: as) = ' ' :: a.1 ++ ['=', '"'] ++ a.2 ++ ['"'] ++ attrText as := by
  simp [attrText]

theorem tokens_tag (t : Str) : ∀ (raw r : Str), (∀ c ∈ t, c ≠ '<' ∧ c ≠ '>' ∧ c ≠ '"') → tokens (.tag raw) (t ++ r) = tokens (.tag (raw ++ t)) r := by
  induction t with
  | nil => intro raw r _; simp
  | cons c t ih =>
    intro raw r h
    obtain ⟨h1, h2, h3⟩ := h c (by simp)
    rw [List.cons_append]
    conv => lhs; unfold tokens
    rw [if_neg h2, if_neg h1, if_neg h3, ih _ _ (fun x hx => h x (by simp [hx]))]
    simp

theorem tokens_value (t : Str) : ∀ (raw r : Str), Plain t → tokens (.value raw) (t ++ r) = tokens (.value (raw ++ t)) r := by
  induction t with
  | nil => intro raw r _; simp
  | cons c t ih =>
    intro raw r h
    obtain ⟨h1, h2, h3⟩ := h
    simp only [List.mem_cons, not_or] at h1 h2 h3
    rw [List.cons_append]
    conv => lhs; unfold tokens
    rw [if_neg (fun e => h3.1 e.symm), if_neg (by rintro (e | e); exact h1.1 e.symm; exact h2.1 e.symm), ih _ _ ⟨h1.2, h2.2, h3.2⟩]
    simp

theorem tokens_attrs (as : List (Str × Str)) : ∀ (raw r : Str), (∀ a ∈ as, Name a.1 ∧ Plain a.2) →
    tokens (.tag raw) (attrText as ++ r) = tokens (.tag (raw ++ attrText as)) r := by
  induction as with
  | nil => intro raw r _; simp [attrText_nil]
  | cons a as ih =>
    intro raw r h
    obtain ⟨hn, hv⟩ := h a (by simp)
    have e : attrText (a :: as) ++ r = (' ' :: a.1 ++ ['=']) ++ ('"' :: (a.2 ++ ('"' :: (attrText as ++ r)))) := by
      rw [attrText_cons]; simp
    rw [e, tokens_tag]
    · conv => lhs; unfold tokens
      rw [if_neg (by decide), if_neg (by decide), if_pos rfl, tokens_value _ _ _ hv]
      conv => lhs; unfold tokens
      rw [if_pos rfl, ih _ _ (fun x hx => h x (by simp [hx]))]
      congr 2
      rw [attrText_cons]
      simp
    · intro c hc
      simp only [List.cons_append, List.mem_cons, List.mem_append, List.not_mem_nil, or_false] at hc
      rcases hc with rfl | hc | rfl
      · decide
      · obtain ⟨x1, x2, x3, _⟩ := hn.2 c hc; exact ⟨x1, x2, x3⟩
      · decide

theorem attributes_name (n v : Str) : ∀ (m r : Str), (∀ c ∈ n, c ≠ '"' ∧ c ≠ '=' ∧ c ≠ ' ') → attributes (.name m) (n ++ r) = attributes (.name (m ++ n)) r := by
  induction n with
  | nil => intro m r _; simp
  | cons c n ih =>
    intro m r h
    obtain ⟨h1, h2, h3⟩ := h c (by simp)
    rw [List.cons_append]
    conv => lhs; unfold attributes
    rw [if_neg h2, if_neg (by rintro (e | e); exact h1 e; exact h3 e), ih _ _ (fun x hx => h x (by simp [hx]))]
    simp

theorem attributes_value (n v : Str) : ∀ (w r : Str), '"' ∉ v → attributes (.value n w) (v ++ '"' :: r) = (attributes .behind r).map ((n, w ++ v) :: ·) := by
  induction v with
  | nil =>
    intro w r _
    rw [List.nil_append]
    conv => lhs; unfold attributes
    rw [if_pos rfl]; simp
  | cons c v ih =>
    intro w r h
    simp only [List.mem_cons, not_or] at h
    rw [List.cons_append]
    conv => lhs; unfold attributes
    rw [if_neg (fun e => h.1 e.symm), ih _ _ h.2]
    simp

theorem attributes_attrText (as : List (Str × Str)) (h : ∀ a ∈ as, Name a.1 ∧ Plain a.2) : attributes .behind (attrText as) = some as := by
  induction as with
  | nil => rfl
  | cons a as ih =>
    obtain ⟨⟨hne, hn⟩, hv⟩ := h a (by simp)
    obtain ⟨n, v⟩ := a
    dsimp only at *
    cases n with
    | nil => exact absurd rfl hne
    | cons c n =>
      have e : attrText ((c :: n, v) :: as) = ' ' :: c :: (n ++ '=' :: '"' :: (v ++ '"' :: attrText as)) := by rw [attrText_cons]; simp
      obtain ⟨_, _, h3, h4, h5, _⟩ := hn c (by simp)
      rw [e]
      conv => lhs; unfold attributes
      rw [if_pos rfl]
      conv => lhs; unfold attributes
      rw [if_neg h5, if_neg (by rintro (e | e); exact h4 e; exact h3 e),
        attributes_name n v _ _ (fun x hx => by obtain ⟨_, _, y3, y4, y5, _⟩ := hn x (by simp [hx]); exact ⟨y3, y4, y5⟩)]
      conv => lhs; unfold attributes
      rw [if_pos rfl]
      conv => lhs; unfold attributes
      rw [if_pos rfl, attributes_value _ _ _ _ hv.2.2, ih (fun x hx => h x (by simp [hx]))]
      simp

theorem markup_start (name : Str) (as : List (Str × Str)) (hn : Name name) (h : ∀ a ∈ as, Name a.1 ∧ Plain a.2) (hd : (as.map (·.1)).Nodup) :
    markup (name ++ attrText as) = some [.start name as] := by
  obtain ⟨hne, hc⟩ := hn
  have hh : ∀ x, (name ++ attrText as).head? = some x → x ≠ '?' ∧ x ≠ '/' := by
    intro x hx
    cases name with
    | nil => exact absurd rfl hne
    | cons c n =>
      simp at hx; subst hx
      obtain ⟨_, _, _, _, _, y1, y2⟩ := hc c (by simp)
      exact ⟨y1, y2⟩
  have ha : ∀ x ∈ name, decide (x ≠ ' ') = true := fun x hx => by
    obtain ⟨_, _, _, _, y, _⟩ := hc x hx; simpa using y
  have h0 : (attrText as).dropWhile (· ≠ ' ') = attrText as ∧ (attrText as).takeWhile (· ≠ ' ') = [] := by
    cases as with
    | nil => exact ⟨rfl, rfl⟩
    | cons a as => rw [attrText_cons]; simp
  unfold markup
  rw [if_neg (fun e => (hh _ e).1 rfl), if_neg (fun e => (hh _ e).2 rfl), List.dropWhile_append_of_pos ha, List.takeWhile_append_of_pos ha, h0.1, h0.2,
    attributes_attrText as h]
  simp [hd]

theorem tokens_start (name : Str) (as : List (Str × Str)) (r : Str) (hn : Name name) (h : ∀ a ∈ as, Name a.1 ∧ Plain a.2) (hd : (as.map (·.1)).Nodup) :
    tokens .text ('<' :: (name ++ (attrText as ++ '>' :: r))) = (tokens .text r).map ([.start name as] ++ ·) := by
  conv => lhs; unfold tokens
  rw [if_pos rfl, tokens_tag _ _ _ (fun c hc => by obtain ⟨x1, x2, x3, _⟩ := hn.2 c hc; exact ⟨x1, x2, x3⟩), List.nil_append, tokens_attrs _ _ _ h]
  conv => lhs; unfold tokens
  rw [if_pos rfl, markup_start name as hn h hd]

theorem tokens_finish (name : Str) (r : Str) (hn : Name name) :
    tokens .text ('<' :: '/' :: (name ++ '>' :: r)) = (tokens .text r).map ([.finish name] ++ ·) := by
  conv => lhs; unfold tokens
  rw [if_pos rfl]
  have e : '/' :: (name ++ '>' :: r) = ('/' :: name) ++ '>' :: r := rfl
  rw [e, tokens_tag, List.nil_append]
  · conv => lhs; unfold tokens
    rw [if_pos rfl]
    rfl
  · intro c hc
    rcases List.mem_cons.1 hc with rfl | hc
    · decide
    · obtain ⟨x1, x2, x3, _⟩ := hn.2 c hc; exact ⟨x1, x2, x3⟩

theorem tokens_newline (r : Str) : tokens .text ('\n' :: r) = tokens .text r := by
  conv => lhs; unfold tokens
  rw [if_neg (by decide)]

/-! ### Elements -/

/-- `text` reads as the tags `ts`, whatever follows. -/
def Tags (text : Str) (ts : List Token) : Prop := ∀ r, tokens .text (text ++ r) = (tokens .text r).map (ts ++ ·)

theorem Tags.append {a b : Str} {s t : List Token} (h1 : Tags a s) (h2 : Tags b t) : Tags (a ++ b) (s ++ t) := by
  intro r
  rw [List.append_assoc, h1, h2]
  cases tokens .text r <;> simp

theorem Tags.nil : Tags [] [] := by intro r; simp

theorem Tags.flatMap {α : Type} (l : List α) (f : α → Str) (g : α → List Token) (h : ∀ x ∈ l, Tags (f x) (g x)) : Tags (l.flatMap f) (l.flatMap g) := by
  induction l with
  | nil => exact .nil
  | cons x l ih =>
    rw [List.flatMap_cons, List.flatMap_cons]
    exact (h x (by simp)).append (ih fun y hy => h y (by simp [hy]))

theorem Tags.start (name : Str) (as : List (Str × Str)) (hn : Name name) (h : ∀ a ∈ as, Name a.1 ∧ Plain a.2) (hd : (as.map (·.1)).Nodup) :
    Tags ('<' :: (name ++ (attrText as ++ ['>']))) [.start name as] := by
  intro r
  have := tokens_start name as r hn h hd
  simpa using this

theorem Tags.finish (name : Str) (hn : Name name) : Tags ('<' :: '/' :: (name ++ ['>'])) [.finish name] := by
  intro r
  have := tokens_finish name r hn
  simpa using this

theorem Tags.newline : Tags ['\n'] [] := by
  intro r
  have := tokens_newline r
  simpa using this

/-- The tags `ts` are the elements `ns`, whatever is around them. -/
def Elements (ts : List Token) (ns : List Node) : Prop := ∀ r done up, nested (ts ++ r) done up = nested r (done ++ ns) up

theorem Elements.nil : Elements [] [] := by intro r done up; simp

theorem Elements.append {a b : List Token} {m n : List Node} (h1 : Elements a m) (h2 : Elements b n) : Elements (a ++ b) (m ++ n) := by
  intro r done up
  rw [List.append_assoc, h1, h2, List.append_assoc]

theorem Elements.flatMap {α : Type} (l : List α) (f : α → List Token) (g : α → List Node) (h : ∀ x ∈ l, Elements (f x) (g x)) :
    Elements (l.flatMap f) (l.flatMap g) := by
  induction l with
  | nil => exact .nil
  | cons x l ih =>
    rw [List.flatMap_cons, List.flatMap_cons]
    exact (h x (by simp)).append (ih fun y hy => h y (by simp [hy]))

theorem Elements.one {ts : List Token} {ns : List Node} (name : Str) (as : List (Str × Str)) (h : Elements ts ns) :
    Elements (.start name as :: (ts ++ [.finish name])) [.mk name as ns] := by
  intro r done up
  show nested (.start name as :: ((ts ++ [.finish name]) ++ r)) done up = _
  conv => lhs; unfold nested
  rw [List.append_assoc, h]
  show nested (.finish name :: r) _ _ = _
  conv => lhs; unfold nested
  simp

/-! ### The report -/

def suiteAttrs (s : Suite) : List (Str × Str) :=
  [("errors".toList, "0".toList), ("failures".toList, decimal 0), ("hostname".toList, "localhost".toList), ("name".toList, s.name),
   ("skipped".toList, decimal 0), ("tests".toList, decimal s.cases.length), ("time".toList, decimal 0), ("timestamp".toList, [])]

def caseAttrs (s : Suite) (c : Case) (i : Info) : List (Str × Str) :=
  [("classname".toList, s.name), ("name".toList, c.name), ("status".toList, status c), ("time".toList, seconds i.timecost)]

def message (i : Info) : Str := i.filine ++ ":".toList ++ i.fails.flatMap fun _ => "{newline}".toList

def failureNodes (c : Case) (i : Info) : List Node :=
  if c.failed then [.mk "failure".toList [("message".toList, message i), ("type".toList, "AssertionFailedError".toList)] []] else []

def caseNode (s : Suite) (c : Case) (i : Info) : Node :=
  .mk "testcase".toList (caseAttrs s c i) (failureNodes c i ++ ([.mk "system-out".toList [] []] ++ [.mk "system-err".toList [] []]))

def suiteNode (info : Case → Info) (s : Suite) : Node :=
  .mk "testsuite".toList (suiteAttrs s) (s.cases.flatMap fun c => [caseNode s c (info c)])

def docNode (info : Nat → Case → Info) (rounds : List (Nat × List Suite)) : Node :=
  .mk "testsuites".toList [] (rounds.flatMap fun r => r.2.flatMap fun s => [suiteNode (info r.1) s])

theorem plain_decimal (n : Nat) : Plain (decimal n) := by
  have h : ∀ c ∈ decimal n, c.isDigit = true := fun c hc => Nat.isDigit_of_mem_toDigits (by omega) (by omega) hc
  refine ⟨fun e => ?_, fun e => ?_, fun e => ?_⟩ <;> exact absurd (h _ e) (by decide)

theorem Plain.append {a b : Str} (h1 : Plain a) (h2 : Plain b) : Plain (a ++ b) :=
  ⟨by simp [h1.1, h2.1], by simp [h1.2.1, h2.2.1], by simp [h1.2.2, h2.2.2]⟩

theorem plain_seconds (t : Nat) : Plain (seconds t) :=
  ((((plain_decimal _).append (by decide)).append (plain_decimal _)).append (plain_decimal _)).append (plain_decimal _)

theorem plain_status (c : Case) : Plain (status c) := by
  unfold status
  repeat' split
  all_goals decide

theorem plain_message (i : Info) (h : Plain i.filine) : Plain (message i) := by
  refine (h.append (by decide)).append ?_
  induction i.fails with
  | nil => decide
  | cons f fs ih => rw [List.flatMap_cons]; exact Plain.append (by decide) ih

theorem lit1 : "<testsuite errors=\"0\" failures=\"".toList = '<' :: ("testsuite".toList ++ (' ' :: ("errors".toList ++ ('=' :: '"' :: ("0".toList ++ ('"' :: ' ' :: ("failures".toList ++ ['=', '"']))))))) := by decide
theorem lit2 : "\" hostname=\"localhost\" name=\"".toList = '"' :: ' ' :: ("hostname".toList ++ ('=' :: '"' :: ("localhost".toList ++ ('"' :: ' ' :: ("name".toList ++ ['=', '"']))))) := by decide
theorem lit3 : "\" skipped=\"".toList = '"' :: ' ' :: ("skipped".toList ++ ['=', '"']) := by decide
theorem lit4 : "\" tests=\"".toList = '"' :: ' ' :: ("tests".toList ++ ['=', '"']) := by decide
theorem lit5 : "\" time=\"".toList = '"' :: ' ' :: ("time".toList ++ ['=', '"']) := by decide
theorem lit6 : "\" timestamp=\"".toList = '"' :: ' ' :: ("timestamp".toList ++ ['=', '"']) := by decide
theorem lit7 : "\" name=\"".toList = '"' :: ' ' :: ("name".toList ++ ['=', '"']) := by decide
theorem lit8 : "\" status=\"".toList = '"' :: ' ' :: ("status".toList ++ ['=', '"']) := by decide
theorem lit9 : "\">\n".toList = ['"', '>', '\n'] := by decide
theorem lit10 : "<testcase classname=\"".toList = '<' :: ("testcase".toList ++ (' ' :: ("classname".toList ++ ['=', '"']))) := by decide
theorem lit11 : "<failure message=\"".toList = '<' :: ("failure".toList ++ (' ' :: ("message".toList ++ ['=', '"']))) := by decide
theorem lit12 : "\" type=\"AssertionFailedError\"></failure>\n".toList = '"' :: ' ' :: ("type".toList ++ ('=' :: '"' :: ("AssertionFailedError".toList ++ ('"' :: '>' :: '<' :: '/' :: ("failure".toList ++ ['>', '\n']))))) := by decide
theorem lit13 : "<system-out></system-out><system-err></system-err>\n".toList = '<' :: ("system-out".toList ++ ('>' :: '<' :: '/' :: ("system-out".toList ++ ('>' :: '<' :: ("system-err".toList ++ ('>' :: '<' :: '/' :: ("system-err".toList ++ ['>', '\n']))))))) := by decide
theorem lit14 : "</testcase>\n".toList = '<' :: '/' :: ("testcase".toList ++ ['>', '\n']) := by decide

theorem onSuiteStart_eq (s : Suite) : onSuiteStart s {} = '<' :: ("testsuite".toList ++ (attrText (suiteAttrs s) ++ ['>'])) ++ ['\n'] := by
  have e1 : ({} : Stats).failed.toNat = 0 := rfl
  have e2 : (({} : Stats).todo + ({} : Stats).filtered).toNat = 0 := rfl
  unfold onSuiteStart suiteAttrs
  rw [e1, e2]
  simp only [ attrText_cons, attrText_nil, lit1, lit2, lit3, lit4, lit5, lit6, lit9, List.append_assoc, List.cons_append, List.nil_append, List.append_nil]

theorem failure_eq (i : Info) : "<failure message=\"".toList ++ i.filine ++ ":".toList ++ (i.fails.flatMap fun f => "{newline}".toList ++ printFile f) ++
      "\" type=\"AssertionFailedError\"></failure>\n".toList =
    '<' :: ("failure".toList ++ (attrText [("message".toList, message i), ("type".toList, "AssertionFailedError".toList)] ++ ['>'])) ++
      ('<' :: '/' :: ("failure".toList ++ ['>']) ++ ['\n']) := by
  simp only [attrText_cons, attrText_nil, message, printFile, lit11, lit12, List.append_assoc, List.cons_append, List.nil_append, List.append_nil]

theorem onCaseEndup_eq (s : Suite) (c : Case) (i : Info) : onCaseEndup s c i =
    ('<' :: ("testcase".toList ++ (attrText (caseAttrs s c i) ++ ['>'])) ++ ['\n']) ++
    ((if c.failed then '<' :: ("failure".toList ++ (attrText [("message".toList, message i), ("type".toList, "AssertionFailedError".toList)] ++ ['>'])) ++
      ('<' :: '/' :: ("failure".toList ++ ['>']) ++ ['\n']) else []) ++
    ((('<' :: ("system-out".toList ++ (attrText [] ++ ['>']))) ++ ('<' :: '/' :: ("system-out".toList ++ ['>']))) ++
    ((('<' :: ("system-err".toList ++ (attrText [] ++ ['>']))) ++ ('<' :: '/' :: ("system-err".toList ++ ['>']))) ++
    ('\n' :: ('<' :: '/' :: ("testcase".toList ++ ['>'])) ++ ['\n'])))) := by
  rw [← failure_eq]
  unfold onCaseEndup
  generalize (if c.failed = true then _ else _ : List Char) = f
  simp only [caseAttrs, attrText_cons, attrText_nil, lit5, lit7, lit8, lit9, lit10, lit13, lit14, List.append_assoc, List.cons_append, List.nil_append, List.append_nil]

theorem case_tags (s : Suite) (c : Case) (i : Info) (hs : Plain s.name) (hc : Plain c.name) (hi : Plain i.filine) :
    ∃ ts, Tags (onCaseEndup s c i) ts ∧ Elements ts [caseNode s c i] := by
  have ha : ∀ a ∈ caseAttrs s c i, Name a.1 ∧ Plain a.2 := by
    intro a h
    simp only [caseAttrs, List.mem_cons, List.not_mem_nil, or_false] at h
    rcases h with rfl | rfl | rfl | rfl
    · exact ⟨(by decide : Name "classname".toList), hs⟩
    · exact ⟨(by decide : Name "name".toList), hc⟩
    · exact ⟨(by decide : Name "status".toList), plain_status c⟩
    · exact ⟨(by decide : Name "time".toList), plain_seconds _⟩
  have hd : ((caseAttrs s c i).map (·.1)).Nodup := by
    show ["classname".toList, "name".toList, "status".toList, "time".toList].Nodup
    decide
  have hf : ∃ ts, Tags (if c.failed then '<' :: ("failure".toList ++ (attrText [("message".toList, message i), ("type".toList, "AssertionFailedError".toList)] ++ ['>'])) ++
      ('<' :: '/' :: ("failure".toList ++ ['>']) ++ ['\n']) else []) ts ∧ Elements ts (failureNodes c i) := by
    unfold failureNodes
    cases c.failed with
    | false => exact ⟨[], .nil, .nil⟩
    | true =>
      refine ⟨_, (Tags.start "failure".toList [("message".toList, message i), ("type".toList, "AssertionFailedError".toList)] (by decide) ?_ ?_).append
        ((Tags.finish "failure".toList (by decide)).append .newline), ?_⟩
      · intro a h
        simp only [List.mem_cons, List.not_mem_nil, or_false] at h
        rcases h with rfl | rfl
        · exact ⟨(by decide : Name "message".toList), plain_message i hi⟩
        · exact ⟨by decide, by decide⟩
      · show ["message".toList, "type".toList].Nodup
        decide
      · exact Elements.one _ _ .nil
  obtain ⟨ts, ht, he⟩ := hf
  rw [onCaseEndup_eq]
  refine ⟨_, ((Tags.start _ _ (by decide) ha hd).append .newline).append (ht.append (((Tags.start "system-out".toList [] (by decide) (by simp) (by simp)).append
    (Tags.finish _ (by decide))).append (((Tags.start "system-err".toList [] (by decide) (by simp) (by simp)).append (Tags.finish _ (by decide))).append
    ((Tags.newline.append (Tags.finish _ (by decide))).append .newline)))), ?_⟩
  have := Elements.one "testcase".toList (caseAttrs s c i) (he.append ((Elements.one "system-out".toList [] .nil).append (Elements.one "system-err".toList [] .nil)))
  intro r done up
  have := this r done up
  simpa [caseNode] using this

theorem suite_tags (info : Case → Info) (s : Suite) (hs : Plain s.name) (hc : ∀ c ∈ s.cases, Plain c.name ∧ Plain (info c).filine) :
    ∃ ts, Tags (suiteText info s) ts ∧ Elements ts [suiteNode info s] := by
  have ha : ∀ a ∈ suiteAttrs s, Name a.1 ∧ Plain a.2 := by
    intro a h
    simp only [suiteAttrs, List.mem_cons, List.not_mem_nil, or_false] at h
    rcases h with rfl | rfl | rfl | rfl | rfl | rfl | rfl | rfl
    · exact ⟨by decide, by decide⟩
    · exact ⟨(by decide : Name "failures".toList), by show Plain (decimal 0); exact plain_decimal 0⟩
    · exact ⟨by decide, by decide⟩
    · exact ⟨(by decide : Name "name".toList), hs⟩
    · exact ⟨(by decide : Name "skipped".toList), by show Plain (decimal 0); exact plain_decimal 0⟩
    · exact ⟨(by decide : Name "tests".toList), by show Plain (decimal s.cases.length); exact plain_decimal _⟩
    · exact ⟨(by decide : Name "time".toList), by show Plain (decimal 0); exact plain_decimal 0⟩
    · exact ⟨by decide, by decide⟩
  have hd : ((suiteAttrs s).map (·.1)).Nodup := by
    show ["errors".toList, "failures".toList, "hostname".toList, "name".toList, "skipped".toList, "tests".toList, "time".toList, "timestamp".toList].Nodup
    decide
  have hk : ∃ g : Case → List Token, ∀ c ∈ s.cases, Tags (onCaseEndup s c (info c)) (g c) ∧ Elements (g c) [caseNode s c (info c)] := by
    have : ∀ c, ∃ ts, c ∈ s.cases → Tags (onCaseEndup s c (info c)) ts ∧ Elements ts [caseNode s c (info c)] := by
      intro c
      by_cases h : c ∈ s.cases
      · obtain ⟨ts, h1, h2⟩ := case_tags s c (info c) hs (hc c h).1 (hc c h).2
        exact ⟨ts, fun _ => ⟨h1, h2⟩⟩
      · exact ⟨[], fun h' => absurd h' h⟩
    exact ⟨fun c => Classical.choose (this c), fun c h => Classical.choose_spec (this c) h⟩
  obtain ⟨g, hg⟩ := hk
  unfold suiteText
  rw [onSuiteStart_eq]
  refine ⟨_, (((Tags.start _ _ (by decide) ha hd).append .newline).append (Tags.flatMap s.cases _ g fun c h => (hg c h).1)).append
    ((Tags.finish "testsuite".toList (by decide)).append .newline), ?_⟩
  have := Elements.one "testsuite".toList (suiteAttrs s) (Elements.flatMap s.cases g _ fun c h => (hg c h).2)
  intro r done up
  have := this r done up
  simpa [suiteNode] using this

theorem choose_tags {α : Type} (l : List α) (f : α → Str) (n : α → List Node) (h : ∀ x ∈ l, ∃ ts, Tags (f x) ts ∧ Elements ts (n x)) :
    ∃ ts, Tags (l.flatMap f) ts ∧ Elements ts (l.flatMap n) := by
  induction l with
  | nil => exact ⟨[], .nil, .nil⟩
  | cons x l ih =>
    obtain ⟨t1, a1, b1⟩ := h x (by simp)
    obtain ⟨t2, a2, b2⟩ := ih fun y hy => h y (by simp [hy])
    exact ⟨t1 ++ t2, by rw [List.flatMap_cons]; exact a1.append a2, by rw [List.flatMap_cons]; exact b1.append b2⟩

theorem declaration_tags : Tags "<?xml version=\"1.0\" encoding=\"UTF-8\" ?>\n".toList [] := by
  intro r
  show _ = (tokens .text r).map fun x => [] ++ x
  simp [tokens, markup]

theorem report_read (info : Nat → Case → Info) (rounds : List (Nat × List Suite))
    (h : ∀ r ∈ rounds, ∀ s ∈ r.2, Plain s.name ∧ ∀ c ∈ s.cases, Plain c.name ∧ Plain (info r.1 c).filine) :
    read (report info rounds) = some (docNode info rounds) := by
  obtain ⟨ts, h1, h2⟩ := choose_tags rounds (fun r => r.2.flatMap (suiteText (info r.1))) (fun r => r.2.flatMap fun s => [suiteNode (info r.1) s])
    fun r hr => choose_tags r.2 _ _ fun s hs => suite_tags (info r.1) s (h r hr s hs).1 (h r hr s hs).2
  have e1 : onRunnerStart = "<?xml version=\"1.0\" encoding=\"UTF-8\" ?>\n".toList ++ (('<' :: ("testsuites".toList ++ (attrText [] ++ ['>']))) ++ ['\n']) := by decide
  have e2 : onRunnerEndup = ('<' :: '/' :: ("testsuites".toList ++ ['>'])) ++ ['\n'] := by decide
  have ht := (((declaration_tags.append ((Tags.start "testsuites".toList [] (by decide) (by simp) (by simp)).append .newline)).append h1).append
    ((Tags.finish "testsuites".toList (by decide)).append .newline))
  have hn := Elements.one "testsuites".toList [] h2
  have hx : tokens .text (report info rounds) = some (.start "testsuites".toList [] :: (ts ++ [.finish "testsuites".toList])) := by
    have := ht []
    rw [List.append_nil] at this
    unfold report
    rw [e1, e2, this]
    simp [tokens]
  have hy := hn [] [] []
  rw [List.append_nil] at hy
  unfold read
  rw [hx]
  simp only
  rw [hy]
  rfl

/-! ### The runner -/

/-- All names are of a kind. -/
def Named (Q : Str → Prop) (ss : List Suite) : Prop := ∀ s ∈ ss, Q s.name ∧ ∀ c ∈ s.cases, Q c.name

theorem all₂_mem {α : Type} {R : α → α → Prop} {l l' : List α} (h : All₂ R l l') {x : α} (hx : x ∈ l') : ∃ y ∈ l, R y x := by
  induction h with
  | nil => cases hx
  | cons r _ ih =>
    rcases List.mem_cons.1 hx with rfl | hx
    · exact ⟨_, by simp, r⟩
    · obtain ⟨y, hy, hr⟩ := ih hx
      exact ⟨y, by simp [hy], hr⟩

theorem named_like {Q : Str → Prop} {ss ss' : List Suite} (h : All₂ SuiteLike ss ss') (hq : Named Q ss) : Named Q ss' := by
  intro s hs
  obtain ⟨t, ht, hl⟩ := all₂_mem h hs
  obtain ⟨h1, h2⟩ := hq t ht
  refine ⟨hl.name ▸ h1, fun c hc => ?_⟩
  obtain ⟨d, hd, x⟩ := all₂_mem hl.cases hc
  obtain ⟨_, _, rfl⟩ := x
  exact h2 d hd

theorem named_sort {Q : Str → Prop} {ss : List Suite} (cmp : Key → Key → Int) (hq : Named Q ss) : Named Q (sortAll cmp ss) := by
  intro s hs
  unfold sortAll at hs
  obtain ⟨t, ht, rfl⟩ := List.mem_map.1 hs
  obtain ⟨h1, h2⟩ := hq t ((sort_perm _ _).mem_iff.1 ht)
  exact ⟨h1, fun c hc => h2 c ((sort_perm _ _).mem_iff.1 hc)⟩

theorem named_random {Q : Str → Prop} {ss : List Suite} (rnd : Nat → Int) (hq : Named Q ss) : Named Q (ss.map (randomize rnd)) := by
  intro s hs
  obtain ⟨t, ht, rfl⟩ := List.mem_map.1 hs
  obtain ⟨h1, h2⟩ := hq t ht
  refine ⟨h1, fun c hc => ?_⟩
  simp only [randomize, List.mem_map] at hc
  obtain ⟨d, hd, rfl⟩ := hc
  exact h2 d hd

theorem named_shuffle {Q : Str → Prop} (o : Opts) (rnd : Nat → Int) (st : State) (hq : Named Q st.suites) : Named Q (st.shuffle o rnd).suites := by
  have h := named_like (restore_like st) hq
  unfold State.shuffle
  simp only
  split
  · exact named_sort _ h
  · split
    · split
      · exact named_sort _ (named_random _ h)
      · exact named_sort _ h
    · exact h

theorem runCase_name (o : Opts) (env : Env) (round : Nat) (l : Loop) (c : Case) : (runCase o env round l c).1.name = c.name := by
  unfold runCase
  simp only
  split <;> split <;> rfl

theorem runCases_named {Q : Str → Prop} (o : Opts) (env : Env) (round : Nat) (cs : List Case) : ∀ l : Loop, (∀ c ∈ cs, Q c.name) →
    ∀ c ∈ (runCases o env round l cs).1, Q c.name := by
  induction cs with
  | nil => intro l _ c hc; cases hc
  | cons d cs ih =>
    intro l h c hc
    have hc : c ∈ (runCase o env round l d).1 :: (runCases o env round (runCase o env round l d).2 cs).1 := hc
    rcases List.mem_cons.1 hc with rfl | hc
    · rw [runCase_name]; exact h d (by simp)
    · exact ih _ (fun x hx => h x (by simp [hx])) c hc

theorem runSuites_named {Q : Str → Prop} (o : Opts) (env : Env) (round : Nat) (ss : List Suite) : ∀ (st : Stats) (log : List Event) (sl : List (Nat × Stats)),
    Named Q ss → Named Q (runSuites o env round st log sl ss).1 := by
  induction ss with
  | nil => intro st log sl _ s hs; cases hs
  | cons t ss ih =>
    intro st log sl h s hs
    simp only [runSuites] at hs
    rcases List.mem_cons.1 hs with rfl | hs
    · exact ⟨(h t (by simp)).1, runCases_named o env round t.cases _ (h t (by simp)).2⟩
    · exact ih _ _ _ (fun x hx => h x (by simp [hx])) s hs

theorem named_round {Q : Str → Prop} (o : Opts) (env : Env) (rnd : Nat → Int) (round : Nat) (st : State) (hq : Named Q st.suites) :
    Named Q (st.round o env rnd round).suites := by
  obtain ⟨f, e⟩ := round_eq o env rnd round st
  rw [e]
  exact runSuites_named o env round _ _ _ _ (named_shuffle o rnd st hq)

theorem named_rounds {Q : Str → Prop} (o : Opts) (env : Env) (rnd : Nat → Nat → Int) (st : State) (hq : Named Q st.suites) (n : Nat) :
    Named Q (st.rounds o env rnd n).suites := by
  induction n with
  | zero => exact hq
  | succ n ih => exact named_round o env _ _ _ ih

theorem visits_named {Q : Str → Prop} (o : Opts) (env : Env) (rnd : Nat → Nat → Int) (st : State) (hq : Named Q st.suites) (n : Nat) :
    ∀ r ∈ visits o env rnd st n, Named Q r.2 := by
  induction n with
  | zero => intro r hr; cases hr
  | succ n ih =>
    intro r hr
    unfold visits at hr
    rcases List.mem_append.1 hr with hr | hr
    · exact ih r hr
    · rw [List.mem_singleton.1 hr]
      exact named_rounds o env rnd st hq (n + 1)

theorem round_cases (o : Opts) (env : Env) (rnd : Nat → Int) (round : Nat) (st : State) : ∃ es, (st.round o env rnd round).log = st.log ++ es ∧
    es.map (fun e => (e.round, e.case)) = (allCases (st.round o env rnd round).suites).map fun c => (round, c) := by
  obtain ⟨f, e⟩ := round_eq o env rnd round st
  obtain ⟨r1, r2, r3⟩ := shuffle_rest o rnd st
  obtain ⟨es, h1, h2, h3, h4, h5, _⟩ := runSuites_log o env round (st.shuffle o rnd).suites (st.shuffle o rnd).stats (st.shuffle o rnd).log (st.shuffle o rnd).suiteLog
  refine ⟨es, ?_, ?_⟩
  · rw [e]; show (runSuites _ _ _ _ _ _ _).2.2.1 = _; rw [h1, r2]
  · rw [e]; show _ = (allCases (runSuites _ _ _ _ _ _ _).1).map _
    rw [← h5, List.map_map]
    exact List.map_congr_left fun x hx => by simp [h3 x hx]

theorem visits_log (o : Opts) (env : Env) (rnd : Nat → Nat → Int) (st : State) (h : st.log = []) (n : Nat) :
    (st.rounds o env rnd n).log.map (fun e => (e.round, e.case)) = (visits o env rnd st n).flatMap fun r => (allCases r.2).map fun c => (r.1, c) := by
  induction n with
  | zero => rw [State.rounds, h]; rfl
  | succ n ih =>
    obtain ⟨es, h1, h2⟩ := round_cases o env (rnd n) n (st.rounds o env rnd n)
    show ((st.rounds o env rnd n).round o env (rnd n) n).log.map _ = (visits o env rnd st n ++ [(n, ((st.rounds o env rnd n).round o env (rnd n) n).suites)]).flatMap _
    rw [h1, List.map_append, ih, h2, List.flatMap_append]
    simp

theorem doc_suites (info : Nat → Case → Info) (l : List (Nat × List Suite)) :
    (docNode info l).inside "testsuite" = l.flatMap fun r => r.2.map fun s => suiteNode (info r.1) s := by
  show ((l.flatMap fun r => r.2.flatMap fun s => [suiteNode (info r.1) s]).filter _) = _
  rw [List.filter_eq_self.2]
  · simp only [List.map_eq_flatMap]
  · intro n hn
    simp only [List.mem_flatMap, List.mem_singleton] at hn
    obtain ⟨r, _, s, _, rfl⟩ := hn
    rfl

theorem suite_cases (i : Case → Info) (s : Suite) : (suiteNode i s).inside "testcase" = s.cases.map fun c => caseNode s c (i c) := by
  show ((s.cases.flatMap fun c => [caseNode s c (i c)]).filter _) = _
  rw [List.filter_eq_self.2]
  · simp only [List.map_eq_flatMap]
  · intro n hn
    simp only [List.mem_flatMap, List.mem_singleton] at hn
    obtain ⟨c, _, rfl⟩ := hn
    rfl

/-- The elements for cases, and what they stand for. -/
theorem testcases_doc (info : Nat → Case → Info) (rounds : List (Nat × List Suite)) :
    testcases (docNode info rounds) = rounds.flatMap fun r => r.2.flatMap fun s => s.cases.map fun c => caseNode s c (info r.1 c) := by
  unfold testcases
  rw [doc_suites]
  simp only [List.flatMap_assoc, List.flatMap_map, suite_cases]

theorem lookup_skip {k a : Str} {v : Str} {l : List (Str × Str)} (h : (k == a) = false) : List.lookup k ((a, v) :: l) = List.lookup k l := by
  rw [List.lookup_cons, h]

theorem case_class (s : Suite) (c : Case) (i : Info) : (caseNode s c i).get "classname" = some s.name := by
  show List.lookup "classname".toList (caseAttrs s c i) = _
  unfold caseAttrs
  rw [List.lookup_cons_self]

theorem case_name (s : Suite) (c : Case) (i : Info) : (caseNode s c i).get "name" = some c.name := by
  show List.lookup "name".toList (caseAttrs s c i) = _
  unfold caseAttrs
  rw [lookup_skip (by decide), List.lookup_cons_self]

theorem case_status (s : Suite) (c : Case) (i : Info) : (caseNode s c i).get "status" = some (status c) := by
  show List.lookup "status".toList (caseAttrs s c i) = _
  unfold caseAttrs
  rw [lookup_skip (by decide), lookup_skip (by decide), List.lookup_cons_self]

theorem suite_failures (i : Case → Info) (s : Suite) : (suiteNode i s).get "failures" = some "0".toList := by
  show List.lookup "failures".toList (suiteAttrs s) = _
  unfold suiteAttrs
  rw [lookup_skip (by decide), List.lookup_cons_self]
  rfl

theorem suite_name (i : Case → Info) (s : Suite) : (suiteNode i s).get "name" = some s.name := by
  show List.lookup "name".toList (suiteAttrs s) = _
  unfold suiteAttrs
  rw [lookup_skip (by decide), lookup_skip (by decide), lookup_skip (by decide), List.lookup_cons_self]

theorem suite_skipped (i : Case → Info) (s : Suite) : (suiteNode i s).get "skipped" = some "0".toList := by
  show List.lookup "skipped".toList (suiteAttrs s) = _
  unfold suiteAttrs
  rw [lookup_skip (by decide), lookup_skip (by decide), lookup_skip (by decide), lookup_skip (by decide), List.lookup_cons_self]
  rfl

theorem suite_tests (i : Case → Info) (s : Suite) : (suiteNode i s).get "tests" = some (Nat.toDigits 10 s.cases.length) := by
  show List.lookup "tests".toList (suiteAttrs s) = _
  unfold suiteAttrs
  rw [lookup_skip (by decide), lookup_skip (by decide), lookup_skip (by decide), lookup_skip (by decide), lookup_skip (by decide), List.lookup_cons_self]
  rfl

theorem case_time (s : Suite) (c : Case) (i : Info) : (caseNode s c i).get "time" = some (seconds i.timecost) := by
  show List.lookup "time".toList (caseAttrs s c i) = _
  unfold caseAttrs
  rw [lookup_skip (by decide), lookup_skip (by decide), lookup_skip (by decide), List.lookup_cons_self]

theorem seconds_spec (t : Nat) : Seconds (seconds t) t := by
  have hd : ∀ n, ∀ c ∈ decimal n, c.isDigit = true := fun n c hc => Nat.isDigit_of_mem_toDigits (by omega) (by omega) hc
  refine ⟨decimal (t / 1000), decimal (t / 100 % 10) ++ decimal (t / 10 % 10) ++ decimal (t % 10), ?_, Nat.toDigits_ne_nil, ?_, ?_, ?_⟩
  · simp [seconds]
  · unfold decimal
    rw [Nat.toDigits_of_lt_base (by omega), Nat.toDigits_of_lt_base (by omega), Nat.toDigits_of_lt_base (by omega)]; rfl
  · intro c hc
    simp only [List.mem_append] at hc
    rcases hc with h | (h | h) | h <;> exact hd _ c h
  · have h1 : ∀ n, n < 10 → ∀ init, Nat.ofDigitChars 10 (decimal n) init = 10 * init + n := by
      intro n hn init
      unfold decimal
      rw [Nat.toDigits_of_lt_base hn, Nat.ofDigitChars_cons_digitChar_of_lt_ten hn]
      rfl
    have h2 : Nat.ofDigitChars 10 (decimal (t / 1000)) 0 = t / 1000 := Nat.ofDigitChars_ten_toDigits
    rw [Nat.ofDigitChars_append, Nat.ofDigitChars_append, Nat.ofDigitChars_append, h2, h1 _ (by omega), h1 _ (by omega), h1 _ (by omega)]
    omega

end H2.Junit
