import Verif.Around.Spec
namespace H2.Around

/-- What is known about a function at a place of a tidy program. -/
def cellK (check : Bool) : Kind → Option Nat → (sock unmem : Bool) → Cell
  | .memory, _, _, u => if check && !u then ⟨.lib, some (.own, 1), [(.memory, .own)]⟩ else .fresh
  | .sockets, none, false, _ => .fresh
  | .sockets, none, true, _ => ⟨.lib, some (.own, 1), [(.sock, .own)]⟩
  | .sockets, some k, false, _ => ⟨.fake k, some (.own, 1), [(.case_, .own)]⟩
  | .sockets, some k, true, _ => ⟨.lib, some (.own, 2), [(.sock, .fake k), (.case_, .own)]⟩
  | .other, none, _, _ => .fresh
  | .other, some k, _, _ => ⟨.fake k, some (.own, 1), [(.case_, .own)]⟩
  | .clock, none, _, _ => if check then ⟨.lib, some (.own, 1), [(.always, .own)]⟩ else .fresh
  | .clock, some k, _, _ =>
    if check then ⟨.fake k, some (.own, 2), [(.case_, .lib), (.always, .own)]⟩ else ⟨.fake k, some (.own, 1), [(.case_, .own)]⟩
  | _, none, _, _ => ⟨.lib, some (.own, 1), [(.always, .own)]⟩
  | _, some k, _, _ => ⟨.fake k, some (.own, 2), [(.case_, .lib), (.always, .own)]⟩

def cellOf (check : Bool) (e : Env) (f : Fn) : Cell := cellK check (kind f) (e.stubs f) e.sock e.unmem

theorem del_memory (k : Kind) (b : Option Nat) (s : Bool) : (cellK true k b s false).del .memory = cellK true k b s true := by
  cases k <;> cases b <;> cases s <;> rfl
theorem add_memory (k : Kind) (b : Option Nat) (s : Bool) :
    (if k = .memory then (cellK true k b s true).add .memory .lib else cellK true k b s true) = cellK true k b s false := by
  cases k <;> cases b <;> cases s <;> rfl
theorem off_memory (k : Kind) (b : Option Nat) (s u u' : Bool) : cellK false k b s u = cellK false k b s u' := by
  cases k <;> cases b <;> cases s <;> rfl
theorem add_case (c : Bool) (k : Kind) (b : Option Nat) (s u : Bool) (n : Nat) (hm : k ≠ .memory) (hs : k = .sockets → s = false) :
    (cellK c k b s u).add .case_ (.fake n) = cellK c k (some n) s u := by
  cases c <;> cases k <;> cases b <;> cases s <;> first | rfl | simp_all
theorem del_case (c : Bool) (k : Kind) (b : Option Nat) (s u : Bool) (hm : k ≠ .memory) (hs : k = .sockets → s = false) :
    (cellK c k b s u).del .case_ = cellK c k none s u := by
  cases c <;> cases k <;> cases b <;> cases s <;> first | rfl | simp_all
theorem add_sock (c : Bool) (k : Kind) (b : Option Nat) (u : Bool) :
    (if k = .sockets then (cellK c k b false u).add .sock .lib else cellK c k b false u) = cellK c k b true u := by
  cases c <;> cases k <;> cases b <;> first | rfl | (cases u <;> rfl)
theorem del_sock (c : Bool) (k : Kind) (b : Option Nat) (s u : Bool) : (cellK c k b s u).del .sock = cellK c k b false u := by
  cases c <;> cases k <;> cases b <;> cases s <;> first | rfl | (cases u <;> rfl)
theorem del_both (c : Bool) (k : Kind) (b : Option Nat) (s u : Bool) (hm : k = .memory → b = none) :
    ((cellK c k b s u).del .case_).del .sock = cellK c k none false u := by
  cases c <;> cases k <;> cases b <;> cases s <;> first | rfl | (cases u <;> first | rfl | simp_all)

/-- The state at a place of a tidy program. -/
def stOf (check : Bool) (e : Env) : St := { cell := cellOf check e, on := check && !e.unmem }

theorem st_eq {s t : St} (h : ∀ f, s.cell f = t.cell f) (ho : s.on = t.on) : s = t := by
  cases s; cases t; simp only [St.mk.injEq]; exact ⟨funext h, ho⟩

theorem mem_memory (f : Fn) : f ∈ memoryFns ↔ kind f = .memory := by cases f <;> simp [memoryFns, kind]
theorem mem_sock (f : Fn) : f ∈ sockFns ↔ kind f = .sockets := by cases f <;> simp [sockFns, kind]
theorem mem_clock (f : Fn) : f ∈ clockFns ↔ kind f = .clock := by cases f <;> simp [clockFns, kind]
theorem mem_output (f : Fn) : f ∈ outputFns ↔ kind f = .output := by cases f <;> simp [outputFns, kind]
theorem mem_host (f : Fn) : f ∈ hostFns ↔ kind f = .hosts := by cases f <;> simp [hostFns, kind]
theorem mem_throw (f : Fn) : f ∈ throwFns ↔ kind f = .throwing := by cases f <;> simp [throwFns, kind]

theorem code_of (check : Bool) (e : Env) (f : Fn) (hm : kind f = .memory → e.stubs f = none) :
    ((stOf check e).cell f).code = expected check e f := by
  show (cellK check (kind f) (e.stubs f) e.sock e.unmem).code = _
  unfold expected replaced
  cases hk : kind f <;> cases check <;> cases hs : e.sock <;> cases hu : e.unmem <;> cases hb : e.stubs f <;>
    simp_all [Cell.fresh, cellK]

theorem start_of (check : Bool) : start check = stOf check .empty := by
  refine st_eq (fun f => ?_) ?_
  · unfold start stOf
    cases check <;> cases f <;> rfl
  · cases check <;> rfl

theorem hook_off (check : Bool) (e : Env) (he : e.unmem = false) :
    (stOf check e).hook check false = stOf check { e with unmem := true } := by
  cases check
  · exact st_eq (fun f => off_memory _ _ _ _ _) rfl
  · refine st_eq (fun f => ?_) rfl
    simp only [St.hook, stOf, he, St.clear, cellOf]
    exact del_memory _ _ _

theorem hook_on (check : Bool) (e : Env) : (stOf check e).hook check true = stOf check { e with unmem := false } := by
  cases check
  · exact st_eq (fun f => off_memory _ _ _ _ _) rfl
  · cases he : e.unmem
    · refine st_eq (fun f => ?_) rfl
      simp [St.hook, stOf, he, cellOf]
    · refine st_eq (fun f => ?_) rfl
      simp only [St.hook, stOf, he, St.add, mem_memory, cellOf]
      exact add_memory _ _ _

theorem lookup_of (check : Bool) (e : Env) (he : e.unmem = false) : (stOf check e).lookup check = stOf check e := by
  unfold St.lookup
  rw [hook_off check e he, hook_on]
  cases e; simp_all

theorem looks_kind (f : Fn) (h : looks f = true) : kind f = .memory ∨ kind f = .throwing := by
  cases f <;> simp_all [looks, kind]

theorem call_of (check : Bool) (e : Env) (f : Fn) (ht : kind f = .throwing → e.unmem = false) :
    (stOf check e).call check f = stOf check e := by
  unfold St.call
  cases hl : looks f
  · rfl
  · cases hu : e.unmem
    · rw [lookup_of check e hu]; simp
    · have hk : kind f = .memory := by
        rcases looks_kind f hl with h | h
        · exact h
        · simp [ht h] at hu
      simp [stOf, cellOf, cellK, hk, hu, Cell.fresh]

theorem stub_of (check : Bool) (e : Env) (f : Fn) (k : Nat) (hm : kind f ≠ .memory) (hs : kind f = .sockets → e.sock = false) :
    (stOf check e).at f (Cell.add .case_ (.fake k)) = stOf check { e with stubs := fun g => if g = f then some k else e.stubs g } := by
  refine st_eq (fun g => ?_) rfl
  simp only [St.at, stOf]
  by_cases hg : g = f
  · subst hg
    simp only [if_pos, cellOf]
    exact add_case check (kind g) (e.stubs g) e.sock e.unmem k hm hs
  · simp only [if_neg hg, cellOf]

theorem unstub_of (check : Bool) (e : Env) (f : Fn) (hm : kind f ≠ .memory) (hs : kind f = .sockets → e.sock = false) :
    (stOf check e).at f (Cell.del .case_) = stOf check { e with stubs := fun g => if g = f then none else e.stubs g } := by
  refine st_eq (fun g => ?_) rfl
  simp only [St.at, stOf]
  by_cases hg : g = f
  · subst hg
    simp only [if_pos, cellOf]
    exact del_case check (kind g) (e.stubs g) e.sock e.unmem hm hs
  · simp only [if_neg hg, cellOf]

theorem sock_on (check : Bool) (e : Env) (he : e.sock = false) :
    (stOf check e).add .sock sockFns = stOf check { e with sock := true } := by
  refine st_eq (fun f => ?_) rfl
  simp only [St.add, stOf, cellOf, mem_sock, he]
  exact add_sock _ _ _ _

theorem sock_off (check : Bool) (e : Env) : (stOf check e).clear .sock = stOf check { e with sock := false } :=
  st_eq (fun _ => del_sock _ _ _ _ _) rfl

/-- A tidy program does what it is expected to do; a jump may leave the blocks it is in. -/
theorem run_of (check : Bool) (p : Prog) : ∀ e : Env, (∀ f, kind f = .memory → e.stubs f = none) → Tidy p e.sock e.unmem →
    (run check p (stOf check e)).1 = (meaning check p e).1 ∧
    (run check p (stOf check e)).2.2 = (meaning check p e).2.2 ∧
    (∀ f, kind f = .memory → (meaning check p e).2.1 f = none) ∧
    ((meaning check p e).2.2 = .done → (run check p (stOf check e)).2.1 = stOf check { e with stubs := (meaning check p e).2.1 }) ∧
    ∃ a b, (run check p (stOf check e)).2.1 = stOf check ⟨(meaning check p e).2.1, a, b⟩ := by
  induction p with
  | skip => intro e hm _; exact ⟨rfl, rfl, hm, fun _ => rfl, e.sock, e.unmem, rfl⟩
  | fail => intro e hm _; exact ⟨rfl, rfl, hm, fun _ => rfl, e.sock, e.unmem, rfl⟩
  | lookup =>
    intro e hm ht
    have h := lookup_of check e ht
    exact ⟨rfl, rfl, hm, fun _ => h, e.sock, e.unmem, h⟩
  | call f =>
    intro e hm ht
    have h := call_of check e f ht
    refine ⟨?_, rfl, hm, fun _ => h, e.sock, e.unmem, h⟩
    simp only [run, meaning, code_of check e f (hm f)]
  | stub f k =>
    intro e hm ht
    have h := stub_of check e f k ht.1 ht.2
    refine ⟨rfl, rfl, fun g hg => ?_, fun _ => h, e.sock, e.unmem, h⟩
    simp only [meaning]
    rw [if_neg (fun (hh : g = f) => ht.1 (hh ▸ hg))]
    exact hm g hg
  | unstub f =>
    intro e hm ht
    have h := unstub_of check e f ht.1 ht.2
    refine ⟨rfl, rfl, fun g hg => ?_, fun _ => h, e.sock, e.unmem, h⟩
    simp only [meaning]
    split
    · rfl
    · exact hm g hg
  | seq p q ihp ihq =>
    intro e hm ht
    obtain ⟨h1, h2, h3, h4, a, b, h5⟩ := ihp e hm ht.1
    simp only [run, meaning]
    revert h1 h2 h3 h4 h5
    generalize run check p (stOf check e) = r
    generalize meaning check p e = m
    obtain ⟨t, s, x⟩ := r
    obtain ⟨t', bs, x'⟩ := m
    intro h1 h2 h3 h4 h5
    simp only at h1 h2 h3 h4 h5
    subst h1 h2
    cases x with
    | jump => exact ⟨rfl, rfl, h3, by simp, a, b, h5⟩
    | done =>
      have hs := h4 rfl
      subst hs
      obtain ⟨k1, k2, k3, k4, a', b', k5⟩ := ihq { e with stubs := bs } h3 ht.2
      refine ⟨?_, k2, k3, k4, a', b', k5⟩
      show t ++ _ = t ++ _
      rw [k1]
  | sock p ih =>
    intro e hm ht
    obtain ⟨h1, h2, h3, h4, a, b, h5⟩ := ih { e with sock := true } hm ht.2
    simp only [run, meaning, sock_on check e ht.1]
    revert h1 h2 h3 h4 h5
    generalize run check p (stOf check { e with sock := true }) = r
    generalize meaning check p { e with sock := true } = m
    obtain ⟨t, s, x⟩ := r
    obtain ⟨t', bs, x'⟩ := m
    intro h1 h2 h3 h4 h5
    simp only at h1 h2 h3 h4 h5
    subst h1 h2
    cases x with
    | jump => exact ⟨rfl, rfl, h3, by simp, a, b, h5⟩
    | done =>
      have hs := h4 rfl
      subst hs
      have hh : ({ sock := false, stubs := bs, unmem := e.unmem } : Env) = { e with stubs := bs } := by
        cases e; simp_all [Tidy]
      refine ⟨rfl, rfl, h3, fun _ => ?_, e.sock, e.unmem, ?_⟩
      · show St.clear _ _ = _
        rw [sock_off]; exact congrArg _ hh
      · show St.clear _ _ = _
        rw [sock_off]; exact congrArg _ hh
  | unmem p ih =>
    intro e hm ht
    obtain ⟨h1, h2, h3, h4, a, b, h5⟩ := ih { e with unmem := true } hm ht.2
    simp only [run, meaning, hook_off check e ht.1]
    revert h1 h2 h3 h4 h5
    generalize run check p (stOf check { e with unmem := true }) = r
    generalize meaning check p { e with unmem := true } = m
    obtain ⟨t, s, x⟩ := r
    obtain ⟨t', bs, x'⟩ := m
    intro h1 h2 h3 h4 h5
    simp only at h1 h2 h3 h4 h5
    subst h1 h2
    cases x with
    | jump => exact ⟨rfl, rfl, h3, by simp, a, b, h5⟩
    | done =>
      have hs := h4 rfl
      subst hs
      have hh : ({ sock := e.sock, stubs := bs, unmem := false } : Env) = { e with stubs := bs } := by
        cases e; simp_all [Tidy]
      refine ⟨rfl, rfl, h3, fun _ => ?_, e.sock, e.unmem, ?_⟩
      · show St.hook _ _ _ = _
        rw [hook_on]; exact congrArg _ hh
      · show St.hook _ _ _ = _
        rw [hook_on]; exact congrArg _ hh

/-- The end of a case takes all stubs back, wherever it was left. -/
theorem endCase_of (check : Bool) (bs : Fn → Option Nat) (a b : Bool) (hm : ∀ f, kind f = .memory → bs f = none) :
    endCase check (stOf check ⟨bs, a, b⟩) = stOf check .empty := by
  unfold endCase
  have h : ((stOf check ⟨bs, a, b⟩).clear .case_).clear .sock = stOf check ⟨fun _ => none, false, b⟩ := by
    refine st_eq (fun f => ?_) rfl
    exact del_both _ _ _ _ _ (hm f)
  rw [h, hook_on]
  rfl

theorem runCases_of (check : Bool) (ps : List Prog) (h : ∀ p ∈ ps, Tidy p false false) :
    runCases check ps (stOf check .empty) = (ps.map fun p => (meaning check p .empty).1, stOf check .empty) := by
  induction ps with
  | nil => rfl
  | cons p ps ih =>
    obtain ⟨h1, _, h3, _, a, b, h5⟩ := run_of check p .empty (fun _ _ => rfl) (h p (by simp))
    have ih := ih (fun q hq => h q (by simp [hq]))
    simp only [runCases, List.map_cons, h1, h5, endCase_of check _ a b h3, ih]

/-! ### Any program -/

/-- What is known about a function of sockets, in any program. -/
structure Any (c : Cell) : Prop where
  owners : ∀ e ∈ c.stubs, e.1 = .sock ∨ e.1 = .case_
  once : c.stubs.Pairwise (fun a b => a.1 ≠ b.1)
  none_ : c.stubs = [] → c = .fresh
  some_ : c.stubs ≠ [] → c.source = some (.own, c.stubs.length)

theorem Any.fresh : Any .fresh := ⟨by simp [Cell.fresh], by simp [Cell.fresh], fun _ => rfl, fun h => absurd rfl h⟩

theorem find_none {c : Cell} {o : Owner} (h : c.find o = none) : ∀ e ∈ c.stubs, e.1 ≠ o := by
  simpa [Cell.find] using h

theorem Any.add {c : Cell} (h : Any c) (o : Owner) (ho : o = .sock ∨ o = .case_) (x : Code) : Any (c.add o x) := by
  unfold Cell.add
  cases hf : c.find o with
  | some e =>
    have hne : c.stubs ≠ [] := by
      intro h0; simp [Cell.find, h0] at hf
    exact ⟨h.owners, h.once, fun h0 => absurd h0 hne, h.some_⟩
  | none =>
    refine ⟨?_, ?_, by simp, fun _ => ?_⟩
    · intro e he
      rcases List.mem_cons.1 he with rfl | he
      · exact ho
      · exact h.owners e he
    · exact List.pairwise_cons.2 ⟨fun e he => (find_none hf e he).symm, h.once⟩
    · show c.addSource = _
      unfold Cell.addSource
      cases hs : c.stubs with
      | nil => simp [h.none_ hs, Cell.fresh]
      | cons a l =>
        have := h.some_ (by simp [hs])
        simp [this, hs]

theorem Cell.del_none {c : Cell} {o : Owner} (h : c.find o = none) : c.del o = c := by simp [Cell.del, h]

theorem filter_length {l : List (Owner × Code)} (hp : l.Pairwise (fun a b => a.1 ≠ b.1)) {e : Owner × Code} (he : e ∈ l) :
    (l.filter (fun x => x.1 ≠ e.1)).length = l.length - 1 := by
  induction l with
  | nil => cases he
  | cons a l ih =>
    obtain ⟨h1, h2⟩ := List.pairwise_cons.1 hp
    by_cases ha : a.1 = e.1
    · have hl : l.filter (fun x => x.1 ≠ e.1) = l := by
        rw [List.filter_eq_self]
        intro x hx
        simpa [← ha] using (h1 x hx).symm
      rw [List.filter_cons_of_neg (by simp [ha]), hl]; simp
    · have hm : e ∈ l := by
        rcases List.mem_cons.1 he with rfl | h
        · exact absurd rfl ha
        · exact h
      have := ih h2 hm
      have hpos : 0 < l.length := List.length_pos_of_mem hm
      rw [List.filter_cons_of_pos (by simpa using ha)]
      simp only [List.length_cons, this]
      omega

theorem Any.del {c : Cell} (h : Any c) (o : Owner) : Any (c.del o) ∧ ∀ e ∈ (c.del o).stubs, e ∈ c.stubs ∧ e.1 ≠ o := by
  cases hf : c.find o with
  | none => rw [Cell.del_none hf]; exact ⟨h, fun e he => ⟨he, find_none hf e he⟩⟩
  | some e =>
    have hm : e ∈ c.stubs := List.mem_of_find?_eq_some hf
    have ho : e.1 = o := by simpa using List.find?_some hf
    have hne : c.stubs ≠ [] := List.ne_nil_of_mem hm
    have hsrc := h.some_ hne
    have hlen := filter_length h.once hm
    rw [ho] at hlen
    have hstubs : (c.del o).stubs = c.stubs.filter (fun x => x.1 ≠ o) := by
      simp only [Cell.del, hf, Cell.delSource, hsrc]; split <;> rfl
    refine ⟨⟨?_, ?_, ?_, ?_⟩, ?_⟩
    · rw [hstubs]; intro x hx; exact h.owners x (List.mem_filter.1 hx).1
    · rw [hstubs]; exact h.once.filter _
    · intro h0
      rw [hstubs] at h0
      have hl : c.stubs.length - 1 = 0 := by rw [← hlen, h0]; rfl
      have h0' := h0
      simp only [Cell.del, hf, Cell.delSource, hsrc, hl, if_pos, Cell.fresh]
      rw [h0']
    · intro h0
      rw [hstubs] at h0 ⊢
      have hl : c.stubs.length - 1 ≠ 0 := by rw [← hlen]; exact fun hh => h0 (List.eq_nil_of_length_eq_zero hh)
      simp only [Cell.del, hf, Cell.delSource, hsrc, if_neg hl]
      rw [hlen]
    · rw [hstubs]; intro x hx; have := List.mem_filter.1 hx; exact ⟨this.1, by simpa using this.2⟩

/-- What is known about a function in any program; memory functions only without stubs. -/
def Ok (check : Bool) (f : Fn) (s : St) : Prop :=
  (check = false → s.on = false) ∧
  match kind f with
  | .memory => s.cell f = cellK check .memory none false (!s.on)
  | .sockets => Any (s.cell f)
  | k => ∃ b, s.cell f = cellK check k b false false

theorem Ok.hook {check : Bool} {f : Fn} {s : St} (h : Ok check f s) (o : Bool) : Ok check f (s.hook check o) := by
  obtain ⟨h1, h2⟩ := h
  cases check with
  | false => exact ⟨h1, h2⟩
  | true =>
    refine ⟨by simp, ?_⟩
    revert h2
    cases hk : kind f with
    | memory =>
      intro h2
      cases o <;> cases ho : s.on <;> simp_all [St.hook, St.add, St.clear, mem_memory, del_memory, add_memory]
      exact add_memory .memory none false
    | sockets =>
      intro h2
      cases o <;> cases ho : s.on <;> simp_all [St.hook, St.add, St.clear, mem_memory]
      have : (s.cell f).find .memory = none := by
        simp only [Cell.find, List.find?_eq_none]
        intro e he
        rcases h2.owners e he with h | h <;> simp [h]
      rw [Cell.del_none this]; exact h2
    | _ =>
      intro ⟨b, h2⟩
      refine ⟨b, ?_⟩
      cases o <;> cases ho : s.on <;> simp_all [St.hook, St.add, St.clear, mem_memory]
      cases b <;> rfl

theorem Ok.lookup {check : Bool} {f : Fn} {s : St} (h : Ok check f s) : Ok check f (s.lookup check) := (h.hook false).hook true

theorem Ok.clearSock {check : Bool} {f : Fn} {s : St} (h : Ok check f s) : Ok check f (s.clear .sock) := by
  obtain ⟨h1, h2⟩ := h
  refine ⟨h1, ?_⟩
  revert h2
  simp only [St.clear]
  cases hk : kind f with
  | memory => intro h2; simp only [h2]; exact del_sock _ _ _ _ _
  | sockets => intro h2; exact (Any.del h2 _).1
  | _ => intro ⟨b, h2⟩; exact ⟨b, by simp only [h2]; exact del_sock _ _ _ _ _⟩

theorem Ok.addSock {check : Bool} {f : Fn} {s : St} (h : Ok check f s) : Ok check f (s.add .sock sockFns) := by
  obtain ⟨h1, h2⟩ := h
  refine ⟨h1, ?_⟩
  revert h2
  simp only [St.add, mem_sock]
  cases hk : kind f with
  | memory => intro h2; simpa using h2
  | sockets => intro h2; simp only [if_pos]; exact Any.add h2 _ (.inl rfl) _
  | _ => intro ⟨b, h2⟩; exact ⟨b, by simpa using h2⟩

theorem Ok.stub {check : Bool} {f g : Fn} {s : St} (h : Ok check f s) (k : Nat) (hm : kind f = .memory → g ≠ f) :
    Ok check f (s.at g (Cell.add .case_ (.fake k))) := by
  obtain ⟨h1, h2⟩ := h
  refine ⟨h1, ?_⟩
  simp only [St.at]
  by_cases hg : f = g
  · subst hg
    revert h2
    simp only [if_pos]
    cases hk : kind f with
    | memory => exact absurd rfl (hm hk)
    | sockets => intro h2; exact Any.add h2 _ (.inr rfl) _
    | _ => intro ⟨b, h2⟩; exact ⟨some k, by simp only [h2]; exact add_case _ _ _ _ _ _ (by simp) (by simp)⟩
  · simp only [if_neg hg]; exact h2

theorem Ok.unstub {check : Bool} {f g : Fn} {s : St} (h : Ok check f s) : Ok check f (s.at g (Cell.del .case_)) := by
  obtain ⟨h1, h2⟩ := h
  refine ⟨h1, ?_⟩
  simp only [St.at]
  by_cases hg : f = g
  · subst hg
    revert h2
    simp only [if_pos]
    cases hk : kind f with
    | memory => intro h2; simp only [h2]; cases check <;> cases s.on <;> rfl
    | sockets => intro h2; exact (Any.del h2 _).1
    | _ => intro ⟨b, h2⟩; exact ⟨none, by simp only [h2]; exact del_case _ _ _ _ _ (by simp) (by simp)⟩
  · simp only [if_neg hg]; exact h2

theorem Ok.run {check : Bool} {f : Fn} (p : Prog) : ∀ {s : St}, Ok check f s → (kind f = .memory → ¬ Stubs f p) →
    Ok check f (run check p s).2.1 := by
  induction p with
  | skip => intro s h _; exact h
  | fail => intro s h _; exact h
  | lookup => intro s h _; exact h.lookup
  | call g =>
    intro s h _
    show Ok check f (s.call check g)
    unfold St.call
    split
    · exact h.lookup
    · exact h
  | stub g k => intro s h hm; exact h.stub k hm
  | unstub g => intro s h _; exact h.unstub
  | seq p q ihp ihq =>
    intro s h hm
    have h1 := ihp h (fun hk hs => hm hk (.inl hs))
    simp only [Around.run]
    revert h1
    generalize Around.run check p s = r
    obtain ⟨t, s1, x⟩ := r
    cases x with
    | jump => exact id
    | done => intro h1; exact ihq h1 (fun hk hs => hm hk (.inr hs))
  | sock p ih =>
    intro s h hm
    have h1 := ih h.addSock hm
    simp only [Around.run]
    revert h1
    generalize Around.run check p _ = r
    obtain ⟨t, s1, x⟩ := r
    cases x with
    | jump => exact id
    | done => intro h1; exact h1.clearSock
  | unmem p ih =>
    intro s h hm
    have h1 := ih (h.hook false) hm
    simp only [Around.run]
    revert h1
    generalize Around.run check p _ = r
    obtain ⟨t, s1, x⟩ := r
    cases x with
    | jump => exact id
    | done => intro h1; exact h1.hook true

/-- At the end of a case a function is again what it was at the beginning of the run. -/
theorem Ok.end {check : Bool} {f : Fn} {s : St} (h : Ok check f s) : (endCase check s).cell f = (start check).cell f := by
  rw [start_of]
  show _ = cellK check (kind f) none false false
  unfold endCase
  have hc : Ok check f (s.clear .case_) ∧ (kind f = .sockets → ∀ e ∈ ((s.clear .case_).cell f).stubs, e.1 ≠ .case_) ∧
      (kind f ≠ .memory → kind f ≠ .sockets → (s.clear .case_).cell f = cellK check (kind f) none false false) := by
    obtain ⟨h1, h2⟩ := h
    refine ⟨⟨h1, ?_⟩, fun hk => ?_, fun hk hk2 => ?_⟩
    · revert h2
      simp only [St.clear]
      cases hk : kind f with
      | memory => intro h2; simp only [h2]; cases check <;> cases s.on <;> rfl
      | sockets => intro h2; exact (Any.del h2 _).1
      | _ => intro ⟨b, h2⟩; exact ⟨none, by simp only [h2]; exact del_case _ _ _ _ _ (by simp) (by simp)⟩
    · revert h2
      simp only [hk]
      intro h2 e he
      exact ((Any.del h2 .case_).2 e he).2
    · revert h2 hk hk2
      simp only [St.clear]
      cases kind f with
      | memory => intro _ hk; exact absurd rfl hk
      | sockets => intro _ _ hk; exact absurd rfl hk
      | _ => intro ⟨b, h2⟩ _ _; simp only [h2]; exact del_case _ _ _ _ _ (by simp) (by simp)
  obtain ⟨h1, h2, h3⟩ := hc
  have hs := h1.clearSock
  cases hk : kind f with
  | memory =>
    have hh := hs.hook true
    obtain ⟨ho, hh⟩ := hh
    simp only [hk] at hh
    rw [hh]
    cases check with
    | false => rfl
    | true => rfl
  | sockets =>
    have e0 : ((s.clear .case_).clear .sock).cell f = .fresh := by
      obtain ⟨_, h1⟩ := h1
      simp only [hk] at h1
      obtain ⟨a, b⟩ := Any.del h1 .sock
      refine a.none_ ?_
      refine List.eq_nil_iff_forall_not_mem.2 fun e he => ?_
      obtain ⟨he, hne⟩ := b e he
      rcases h1.owners e he with h | h
      · exact hne h
      · exact h2 hk e he h
    have : (((s.clear .case_).clear .sock).hook check true).cell f = .fresh := by
      cases check with
      | false => exact e0
      | true =>
        simp only [St.hook, if_pos]
        split <;> simp [St.add, mem_memory, hk, e0]
    rw [this]; rfl
  | _ =>
    have e0 := h3 (by simp [hk]) (by simp [hk])
    have e1 : ((s.clear .case_).clear .sock).cell f = cellK check (kind f) none false false := by
      show ((s.clear .case_).cell f).del .sock = _
      rw [e0]; exact del_sock _ _ _ _ _
    rw [← hk]
    refine Eq.trans ?_ e1
    cases check with
    | false => rfl
    | true =>
      simp only [St.hook, if_pos]
      split <;> simp [St.add, mem_memory, hk]

theorem Ok.endOk {check : Bool} {f : Fn} {s : St} (h : Ok check f s) : Ok check f (endCase check s) := by
  refine ⟨fun hc => ?_, ?_⟩
  · subst hc; exact h.1 rfl
  · rw [h.end, start_of]
    have hcell : (stOf check Env.empty).cell f = cellK check (kind f) none false false := rfl
    rw [hcell]
    cases hk : kind f with
    | memory => cases check <;> simp [endCase, St.hook, cellK]
    | sockets => exact Any.fresh
    | _ => exact ⟨none, rfl⟩

theorem Ok.start (check : Bool) (f : Fn) : Ok check f (start check) := by
  rw [start_of]
  refine ⟨fun hc => by subst hc; rfl, ?_⟩
  have hcell : (stOf check Env.empty).cell f = cellK check (kind f) none false false := rfl
  rw [hcell]
  cases hk : kind f with
  | memory => cases check <;> rfl
  | sockets => exact Any.fresh
  | _ => exact ⟨none, rfl⟩

/-! ### One function in any program -/

theorem cellK_unmem (c : Bool) (k : Kind) (b : Option Nat) (s u : Bool) (h : k ≠ .memory) : cellK c k b s u = cellK c k b s false := by
  cases k <;> cases b <;> cases s <;> first | rfl | exact absurd rfl h

theorem cellK_sock (c : Bool) (k : Kind) (b : Option Nat) (s s' u : Bool) (h : k ≠ .sockets) : cellK c k b s u = cellK c k b s' u := by
  cases k <;> cases b <;> cases s <;> cases s' <;> first | rfl | exact absurd rfl h

/-- The function is as expected where its stub is `b` and `SOCK` is on or off. -/
def Rel (check : Bool) (f : Fn) (b : Option Nat) (a : Bool) (s : St) : Prop := s.cell f = cellK check (kind f) b a false

theorem Rel.hook {check : Bool} {f : Fn} {b : Option Nat} {a : Bool} {s : St} (hf : kind f ≠ .memory) (h : Rel check f b a s) (o : Bool) :
    Rel check f b a (s.hook check o) := by
  unfold Rel at *
  cases check with
  | false => exact h
  | true =>
    cases o with
    | false =>
      cases ho : s.on with
      | false => simpa [St.hook, ho] using h
      | true =>
        simp only [St.hook, ho, St.clear, if_pos]
        show (s.cell f).del .memory = _
        rw [h, del_memory, cellK_unmem _ _ _ _ _ hf]
    | true =>
      cases ho : s.on with
      | true => simpa [St.hook, ho] using h
      | false => simpa [St.hook, ho, St.add, mem_memory, hf] using h

theorem only_append (f : Fn) (a b : Trace) : only f (a ++ b) = only f a ++ only f b := by simp [only]

theorem Rel.code {check : Bool} {f : Fn} {s : St} {e : Env} (hf : kind f ≠ .memory) (h : Rel check f (e.stubs f) e.sock s) :
    (s.cell f).code = expected check e f := by
  rw [← code_of check e f (fun h => absurd h hf), h]
  show _ = (cellK check (kind f) (e.stubs f) e.sock e.unmem).code
  rw [cellK_unmem _ _ _ _ e.unmem hf]

theorem rel_run {check : Bool} {f : Fn} (hf : kind f ≠ .memory) (p : Prog) : ∀ (e : Env) (s : St), Rel check f (e.stubs f) e.sock s →
    (kind f = .sockets → TidySock f p e.sock) →
    only f (run check p s).1 = only f (meaning check p e).1 ∧ (run check p s).2.2 = (meaning check p e).2.2 ∧
    ((meaning check p e).2.2 = .done → Rel check f ((meaning check p e).2.1 f) e.sock (run check p s).2.1) := by
  induction p with
  | skip => intro e s h _; exact ⟨rfl, rfl, fun _ => h⟩
  | fail => intro e s h _; exact ⟨rfl, rfl, fun _ => h⟩
  | lookup => intro e s h _; exact ⟨rfl, rfl, fun _ => (h.hook hf false).hook hf true⟩
  | call g =>
    intro e s h _
    refine ⟨?_, rfl, fun _ => ?_⟩
    · simp only [run, meaning, only]
      by_cases hg : g = f
      · subst hg; rw [h.code hf]
      · simp [hg]
    · show Rel check f _ _ (s.call check g)
      unfold St.call
      split
      · exact (h.hook hf false).hook hf true
      · exact h
  | stub g k =>
    intro e s h ht
    refine ⟨rfl, rfl, fun _ => ?_⟩
    show (s.at g _).cell f = cellK check (kind f) (if f = g then _ else _) _ _
    simp only [St.at]
    by_cases hg : f = g
    · subst hg
      simp only [if_pos]
      rw [h]
      exact add_case _ _ _ _ _ _ hf (fun hk => ht hk rfl)
    · simp only [if_neg hg]; exact h
  | unstub g =>
    intro e s h ht
    refine ⟨rfl, rfl, fun _ => ?_⟩
    show (s.at g _).cell f = cellK check (kind f) (if f = g then _ else _) _ _
    simp only [St.at]
    by_cases hg : f = g
    · subst hg
      simp only [if_pos]
      rw [h]
      exact del_case _ _ _ _ _ hf (fun hk => ht hk rfl)
    · simp only [if_neg hg]; exact h
  | seq p q ihp ihq =>
    intro e s h ht
    obtain ⟨h1, h2, h3⟩ := ihp e s h (fun hk => (ht hk).1)
    simp only [run, meaning]
    revert h1 h2 h3
    generalize run check p s = r
    generalize meaning check p e = m
    obtain ⟨t, s1, x⟩ := r
    obtain ⟨t', bs, x'⟩ := m
    intro h1 h2 h3
    simp only at h1 h2 h3
    subst h2
    cases x with
    | jump => exact ⟨h1, rfl, by simp⟩
    | done =>
      obtain ⟨k1, k2, k3⟩ := ihq { e with stubs := bs } s1 (h3 rfl) (fun hk => (ht hk).2)
      refine ⟨?_, k2, k3⟩
      show only f (t ++ _) = only f (t' ++ _)
      rw [only_append, only_append, h1, k1]
  | unmem p ih =>
    intro e s h ht
    obtain ⟨h1, h2, h3⟩ := ih { e with unmem := true } _ (h.hook hf false) ht
    simp only [run, meaning]
    revert h1 h2 h3
    generalize run check p (s.hook check false) = r
    generalize meaning check p { e with unmem := true } = m
    obtain ⟨t, s1, x⟩ := r
    obtain ⟨t', bs, x'⟩ := m
    intro h1 h2 h3
    simp only at h1 h2 h3
    subst h2
    cases x with
    | jump => exact ⟨h1, rfl, by simp⟩
    | done => exact ⟨h1, rfl, fun _ => (h3 rfl).hook hf true⟩
  | sock p ih =>
    intro e s h ht
    have hs : Rel check f (e.stubs f) true (s.add .sock sockFns) := by
      unfold Rel at *
      simp only [St.add, mem_sock, h]
      by_cases hk : kind f = .sockets
      · have := (ht hk).1
        rw [this, add_sock]
      · rw [if_neg hk, cellK_sock _ _ _ _ true _ hk]
    have ht' : kind f = .sockets → TidySock f p true := fun hk => (ht hk).2
    obtain ⟨h1, h2, h3⟩ := ih { e with sock := true } _ hs ht'
    simp only [run, meaning]
    revert h1 h2 h3
    generalize run check p (s.add .sock sockFns) = r
    generalize meaning check p { e with sock := true } = m
    obtain ⟨t, s1, x⟩ := r
    obtain ⟨t', bs, x'⟩ := m
    intro h1 h2 h3
    simp only at h1 h2 h3
    subst h2
    cases x with
    | jump => exact ⟨h1, rfl, by simp⟩
    | done =>
      refine ⟨h1, rfl, fun _ => ?_⟩
      have h3 := h3 rfl
      unfold Rel at *
      show (s1.cell f).del .sock = _
      rw [h3, del_sock]
      by_cases hk : kind f = .sockets
      · rw [(ht hk).1]
      · exact cellK_sock _ _ _ _ _ _ hk

theorem rel_start (check : Bool) (f : Fn) : Rel check f none false (start check) := by
  rw [start_of]; rfl

theorem rel_cases {check : Bool} {f : Fn} (hf : kind f ≠ .memory) (ps : List Prog) : ∀ s : St, Ok check f s →
    s.cell f = (start check).cell f → (kind f = .sockets → ∀ p ∈ ps, TidySock f p false) →
    (runCases check ps s).1.map (only f) = ps.map fun p => only f (meaning check p .empty).1 := by
  induction ps with
  | nil => intro s _ _ _; rfl
  | cons p ps ih =>
    intro s ho hs ht
    have hr : Rel check f none false s := by unfold Rel; rw [hs]; exact rel_start check f
    obtain ⟨h1, _, _⟩ := rel_run hf p .empty s hr (fun hk => ht hk p (by simp))
    have hk := ho.run p (fun hk => absurd hk hf)
    have := ih _ hk.endOk hk.end (fun hk q hq => ht hk q (by simp [hq]))
    simp only [runCases, List.map_cons, h1, this]

theorem Ok.runCases {check : Bool} {f : Fn} (ps : List Prog) : ∀ {s : St}, Ok check f s → (kind f = .memory → ∀ p ∈ ps, ¬ Stubs f p) →
    s.cell f = (Around.start check).cell f → (Around.runCases check ps s).2.cell f = (Around.start check).cell f := by
  induction ps with
  | nil => intro s _ _ h; exact h
  | cons p ps ih =>
    intro s h hm _
    have hr := h.run p (fun hk => hm hk p (by simp))
    exact ih hr.endOk (fun hk q hq => hm hk q (by simp [hq])) hr.end

end H2.Around
