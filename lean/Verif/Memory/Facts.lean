import Verif.Memory.Refine
/- Helper lemmas for the heap properties: snowfield scan, leak grouping, byte accounting, copying. -/
namespace H2.Memory

/-! ### The padding scan -/

theorem spotLen_spec (m : Mem) (fl : UInt8) (addr : Nat) (n : Nat) (h : m addr ≠ fl) (hn : 0 < n) :
    1 ≤ spotLen m fl addr n ∧ spotLen m fl addr n ≤ n ∧ m (addr + (spotLen m fl addr n - 1)) ≠ fl ∧
      ∀ i, spotLen m fl addr n ≤ i → i < n → m (addr + i) = fl := by
  induction n with
  | zero => omega
  | succ k ih =>
    by_cases hk : m (addr + k) ≠ fl
    · rw [spotLen, if_pos hk]
      exact ⟨by omega, by omega, by simpa using hk, by omega⟩
    · have hk' : m (addr + k) = fl := by simpa using hk
      have h0 : 0 < k := by
        rcases Nat.eq_zero_or_pos k with e | e
        · subst e; exact absurd h hk
        · exact e
      rw [spotLen, if_neg hk]
      have ⟨a, b, c, d⟩ := ih h0
      refine ⟨a, by omega, c, ?_⟩
      intro i hi hlt
      by_cases e : i = k
      · subst e; exact hk'
      · exact d i hi (by omega)

theorem snowLoop_none (p : Piece) (m : Mem) (addr n : Nat) :
    snowLoop p m addr n = none ↔ ∀ a, addr ≤ a → a < addr + n → m a = p.flower := by
  induction n generalizing addr with
  | zero => simp only [snowLoop, true_iff]; intro a; omega
  | succ k ih =>
    rw [snowLoop]
    by_cases h : m addr = p.flower
    · rw [if_pos h, ih]
      constructor
      · intro hh a h1 h2
        by_cases e : a = addr
        · rw [e, h]
        · exact hh a (by omega) (by omega)
      · intro hh a h1 h2
        exact hh a (by omega) (by omega)
    · rw [if_neg h]
      simp only [reduceCtorEq, false_iff]
      intro hh
      exact h (hh addr (by omega) (by omega))

theorem snowLoop_some (p : Piece) (m : Mem) (addr n : Nat) (f : Fail) (hf : snowLoop p m addr n = some f) :
    ∃ a spot, f = .overflow p.userPtr p.userSize a .write spot ∧ addr ≤ a ∧ a < addr + n ∧ m a ≠ p.flower ∧
      (∀ b, addr ≤ b → b < a → m b = p.flower) ∧
      1 ≤ spot.length ∧ spot.length ≤ 8 ∧ a + spot.length ≤ addr + n ∧
      (∀ i (hi : i < spot.length), spot[i] = m (a + i)) ∧ m (a + (spot.length - 1)) ≠ p.flower ∧
      (∀ b, a + spot.length ≤ b → b < a + 8 → b < addr + n → m b = p.flower) := by
  induction n generalizing addr with
  | zero => simp [snowLoop] at hf
  | succ k ih =>
    rw [snowLoop] at hf
    by_cases h : m addr = p.flower
    · rw [if_pos h] at hf
      obtain ⟨a, spot, h1, h2, h3, h4, h5, h6, h7, h8, h9, h10, h11⟩ := ih _ hf
      refine ⟨a, spot, h1, by omega, by omega, h4, ?_, h6, h7, by omega, h9, h10, ?_⟩
      · intro b hb1 hb2
        by_cases e : b = addr
        · rw [e, h]
        · exact h5 b (by omega) hb2
      · intro b x y z; exact h11 b x y (by omega)
    · rw [if_neg h] at hf
      have hs := spotLen_spec m p.flower addr (min (k + 1) 8) h (by omega)
      have hf := Option.some.inj hf
      refine ⟨addr, _, hf.symm, by omega, by omega, h, by omega, ?_, ?_, ?_, ?_, ?_, ?_⟩
      · simp; omega
      · simp; omega
      · simp; omega
      · intro i hi; simp
      · simpa using hs.2.2.1
      · intro b x y z
        simp only [List.length_map, List.length_range] at x
        have := hs.2.2.2 (b - addr) (by omega) (by omega)
        rwa [Nat.add_sub_cancel' (by omega)] at this

/-! ### Leak grouping -/

theorem amount_addSize (n m : Nat) (l : List (Nat × Nat)) :
    amount m (addSize n l) = amount m l + if n = m then 1 else 0 := by
  induction l with
  | nil =>
    unfold amount addSize
    by_cases h : n = m
    · simp [h]
    · simp [h]
  | cons p l ih =>
    obtain ⟨s, c⟩ := p
    rw [addSize]
    by_cases h : s = n
    · subst h
      rw [if_pos rfl]
      unfold amount
      by_cases h2 : s = m
      · simp only [List.filter_cons, h2, beq_self_eq_true, if_true, List.map_cons, List.sum_cons]; omega
      · have : (s == m) = false := by simpa using h2
        simp [List.filter_cons, this, h2]
    · rw [if_neg h]
      unfold amount at ih ⊢
      by_cases h2 : s = m
      · simp only [List.filter_cons, h2, beq_self_eq_true, if_true, List.map_cons, List.sum_cons, ih]; omega
      · have : (s == m) = false := by simpa using h2
        simp only [List.filter_cons, this, Bool.false_eq_true, if_false, ih]

def totalOf (l : List (Nat × Nat)) : Nat := (l.map (fun p => p.1 * p.2)).sum

theorem total_addSize (n : Nat) (l : List (Nat × Nat)) : totalOf (addSize n l) = totalOf l + n := by
  induction l with
  | nil => simp [addSize, totalOf]
  | cons p l ih =>
    obtain ⟨s, c⟩ := p
    rw [addSize]
    unfold totalOf at ih ⊢
    by_cases h : s = n
    · subst h
      rw [if_pos rfl]
      simp only [List.map_cons, List.sum_cons, Nat.mul_add, Nat.mul_one]; omega
    · rw [if_neg h]
      simp only [List.map_cons, List.sum_cons, ih]; omega

abbrev LeakEntry := Nat × Site × List (Nat × Nat)

theorem find_addLeak (q n : Nat) (site s : Site) (ls : List LeakEntry) :
    (addLeak q n site ls).find? (fun e => e.2.1 == s) =
      if site = s then
        some (match ls.find? (fun e => e.2.1 == s) with
          | none => (q, site, [(n, 1)])
          | some e => (e.1, e.2.1, addSize n e.2.2))
      else ls.find? (fun e => e.2.1 == s) := by
  induction ls with
  | nil =>
    by_cases h : site = s
    · simp [addLeak, h]
    · simp [addLeak, h]
  | cons e ls ih =>
    obtain ⟨a, t, l⟩ := e
    rw [addLeak]
    by_cases h : t = site
    · subst h
      rw [if_pos rfl]
      by_cases h2 : t = s
      · simp [h2]
      · have : (t == s) = false := by simpa using h2
        simp [h2, this]
    · rw [if_neg h]
      by_cases h2 : t = s
      · subst h2
        have : ¬ site = t := fun e => h e.symm
        simp [this]
      · have : (t == s) = false := by simpa using h2
        simp only [List.find?_cons, this, ih]

theorem sites_addLeak (q n : Nat) (site : Site) (ls : List LeakEntry) :
    (addLeak q n site ls).map (fun e => e.2.1) =
      if site ∈ ls.map (fun e => e.2.1) then ls.map (fun e => e.2.1) else ls.map (fun e => e.2.1) ++ [site] := by
  induction ls with
  | nil => simp [addLeak]
  | cons e ls ih =>
    obtain ⟨a, t, l⟩ := e
    rw [addLeak]
    by_cases h : t = site
    · subst h; simp
    · rw [if_neg h]
      have h' : ¬ site = t := fun e => h e.symm
      simp only [List.map_cons, ih, List.mem_cons, h', false_or]
      split <;> simp

/-- Leak entries after the pieces `xs`. -/
structure LeakInv (xs : List Piece) (ls : List LeakEntry) : Prop where
  nodup : (ls.map (fun e => e.2.1)).Nodup
  none : ∀ s, xs.filter (fun p => p.site == s) = [] → ls.find? (fun e => e.2.1 == s) = none
  some : ∀ s x ys, xs.filter (fun p => p.site == s) = x :: ys →
    ∃ l, ls.find? (fun e => e.2.1 == s) = some (x.userPtr, s, l) ∧ totalOf l = ((x :: ys).map (fun p => p.userSize)).sum ∧
      ∀ n, amount n l = ((x :: ys).filter (fun p => p.userSize == n)).length

theorem LeakInv.add {xs ls} (h : LeakInv xs ls) (p : Piece) : LeakInv (xs ++ [p]) (addLeak p.userPtr p.userSize p.site ls) := by
  constructor
  · rw [sites_addLeak]
    split
    · exact h.nodup
    · next hn =>
      rw [List.nodup_append]
      refine ⟨h.nodup, by simp, ?_⟩
      intro a ha b hb
      simp at hb
      subst hb
      intro e
      subst e
      exact hn ha
  · intro s hs
    rw [List.filter_append] at hs
    have h1 := (List.append_eq_nil_iff.1 hs).1
    have h2 := (List.append_eq_nil_iff.1 hs).2
    rw [find_addLeak]
    have : ¬ p.site = s := by
      intro e
      simp [e] at h2
    rw [if_neg this]
    exact h.none s h1
  · intro s x ys hs
    rw [List.filter_append] at hs
    rw [find_addLeak]
    by_cases hps : p.site = s
    · rw [if_pos hps]
      have hps' : (p.site == s) = true := by simpa using hps
      simp only [List.filter_cons, hps', if_true, List.filter_nil] at hs
      obtain ⟨zs, hz⟩ : ∃ zs, xs.filter (fun p => p.site == s) = zs := ⟨_, rfl⟩
      cases zs with
      | nil =>
        rw [hz] at hs
        simp only [List.nil_append, List.cons.injEq] at hs
        obtain ⟨rfl, rfl⟩ := hs
        rw [h.none s hz]
        refine ⟨_, by rw [hps], by simp [totalOf], ?_⟩
        intro n
        unfold amount
        by_cases e : p.userSize = n
        · simp [e]
        · simp [e]
      | cons z zs =>
        rw [hz] at hs
        simp only [List.cons_append, List.cons.injEq] at hs
        obtain ⟨rfl, rfl⟩ := hs
        obtain ⟨l, h1, h2, h3⟩ := h.some s z zs hz
        rw [h1]
        refine ⟨_, rfl, ?_, ?_⟩
        · rw [total_addSize, h2]; simp; omega
        · intro n
          rw [amount_addSize, h3, ← List.cons_append, List.filter_append, List.length_append]
          by_cases e : p.userSize = n
          · simp [e]
          · simp [e]
    · rw [if_neg hps]
      have hps' : (p.site == s) = false := by simpa using hps
      simp only [List.filter_cons, hps', Bool.false_eq_true, if_false, List.filter_nil, List.append_nil] at hs
      exact h.some s x ys hs

theorem leakInv_foldl (noleak : Bool) (h0 : noleak = false) (ps xs : List Piece) (ls : List LeakEntry) (h : LeakInv xs ls) :
    LeakInv (xs ++ ps.filter (fun p => p.freeTimes == 0))
      (ps.foldl (fun ls p => if !noleak && p.freeTimes == 0 then addLeak p.userPtr p.userSize p.site ls else ls) ls) := by
  subst h0
  induction ps generalizing xs ls with
  | nil => simpa using h
  | cons p ps ih =>
    rw [List.foldl_cons]
    by_cases hp : (p.freeTimes == 0) = true
    · simp only [hp, Bool.not_false, Bool.and_self, if_true, List.filter_cons]
      have := ih (xs ++ [p]) _ (h.add p)
      simpa using this
    · have hp' : (p.freeTimes == 0) = false := by simpa using hp
      simp only [hp', Bool.and_false, Bool.false_eq_true, if_false, List.filter_cons]
      exact ih xs ls h

/-! ### Byte accounting -/

def liveP (ps : List Piece) : Nat := ((ps.filter (fun p => p.freeTimes == 0)).map (fun p => p.userSize)).sum

theorem Rep.live_iff {page e p} (h : Rep page e p) : (!e.freed) = (p.freeTimes == 0) := by
  rw [h.freed]
  by_cases h0 : p.freeTimes = 0
  · simp [h0]
  · have : 0 < p.freeTimes := by omega
    simp [h0, this]

theorem liveP_eq {page l ps} (h : All2 (Rep page) l ps) : liveBytes l = liveP ps := by
  unfold liveBytes live liveP
  induction h with
  | nil => rfl
  | @cons e p l ps h _ ih =>
    simp only [List.filter_cons, h.live_iff]
    split
    · simp only [List.map_cons, List.sum_cons, ih, h.size]
    · exact ih

theorem mem_updFirst {α : Type} {q : α → Bool} {f : α → α} {l : List α} {x : α} (h : x ∈ updFirst q f l) :
    x ∈ l ∨ ∃ y ∈ l, q y = true ∧ x = f y := by
  induction l with
  | nil => simp [updFirst] at h
  | cons a l ih =>
    rw [updFirst] at h
    split at h
    · next hq =>
      rcases List.mem_cons.1 h with e | e
      · exact Or.inr ⟨a, List.mem_cons_self, hq, e⟩
      · exact Or.inl (List.mem_cons_of_mem _ e)
    · rcases List.mem_cons.1 h with e | e
      · exact Or.inl (by rw [e]; exact List.mem_cons_self)
      · rcases ih e with h1 | ⟨y, hy, h2⟩
        · exact Or.inl (List.mem_cons_of_mem _ h1)
        · exact Or.inr ⟨y, List.mem_cons_of_mem _ hy, h2⟩

theorem mem_updLast {α : Type} {f : α → α} {l : List α} {x : α} (h : x ∈ updLast f l) :
    x ∈ l ∨ ∃ y, l.getLast? = some y ∧ x = f y := by
  induction l with
  | nil => simp [updLast] at h
  | cons a l ih =>
    cases l with
    | nil =>
      simp only [updLast, List.mem_singleton] at h
      exact Or.inr ⟨a, rfl, h⟩
    | cons b l =>
      rw [updLast] at h
      rcases List.mem_cons.1 h with e | e
      · exact Or.inl (by rw [e]; exact List.mem_cons_self)
      · rcases ih e with h1 | ⟨y, hy, h2⟩
        · exact Or.inl (List.mem_cons_of_mem _ h1)
        · exact Or.inr ⟨y, by rw [List.getLast?_cons_cons]; exact hy, h2⟩

theorem liveP_freed (q : Piece → Bool) (f : Piece → Piece) (sz : Nat) (l : List Piece)
    (hx : ∀ x ∈ l, q x = true → x.userSize = sz ∧ x.freeTimes = 0) (hf : ∀ x, (f x).freeTimes ≠ 0)
    (he : (l.find? q).isSome = true) : liveP (updFirst q f l) + sz = liveP l := by
  induction l with
  | nil => simp at he
  | cons a l ih =>
    rw [updFirst]
    by_cases hq : q a = true
    · rw [if_pos hq]
      have ⟨h1, h2⟩ := hx a List.mem_cons_self hq
      have : ((f a).freeTimes == 0) = false := by simpa using hf a
      simp only [liveP, List.filter_cons, this, h2, beq_self_eq_true, if_true, Bool.false_eq_true, if_false, List.map_cons,
        List.sum_cons, h1]
      omega
    · rw [if_neg hq]
      have hq' : q a = false := by simpa using hq
      rw [List.find?_cons, hq'] at he
      have := ih (fun x hx' => hx x (List.mem_cons_of_mem _ hx')) he
      unfold liveP at this ⊢
      simp only [List.filter_cons]
      split
      · simp only [List.map_cons, List.sum_cons]; omega
      · exact this

theorem liveP_map (l l' : List Piece) (h : l.map (fun p => (p.freeTimes, p.userSize)) = l'.map (fun p => (p.freeTimes, p.userSize))) :
    liveP l = liveP l' := by
  induction l generalizing l' with
  | nil => cases l' with | nil => rfl | cons _ _ => simp at h
  | cons a l ih =>
    cases l' with
    | nil => simp at h
    | cons b l' =>
      simp only [List.map_cons, List.cons.injEq, Prod.mk.injEq] at h
      have := ih l' h.2
      unfold liveP at this ⊢
      simp only [List.filter_cons, h.1.1]
      split
      · simp only [List.map_cons, List.sum_cons, this, h.1.2]
      · exact this

theorem liveP_append (l : List Piece) (p : Piece) (h : p.freeTimes = 0) : liveP (l ++ [p]) = liveP l + p.userSize := by
  simp [liveP, List.filter_append, h]

/-- The block's byte counter is right. -/
def Accounted (b : Block) : Prop := b.allocated = liveP b.pieces ∧ liveP b.pieces ≤ b.attrs.limit ∧ b.attrs.limit ≤ 2 ^ 63

theorem acc_fault {h : Heap} (addr site : Nat) (ha : ∀ b ∈ h.blocks, Accounted b) : ∀ b ∈ (h.fault addr site).blocks, Accounted b := by
  intro b hb
  rcases mem_updFirst hb with h1 | ⟨y, hy, _, e⟩
  · exact ha b h1
  · have hl : liveP b.pieces = liveP y.pieces := by
      rw [e]
      refine liveP_map _ _ (pairwise_updFirst_map (fun p : Piece => (p.freeTimes, p.userSize)) _ _ ?_ _)
      intro p; unfold Piece.violate; split <;> rfl
    have := ha y hy
    unfold Accounted at this ⊢
    rw [hl, e]
    exact this

theorem acc_store1 {h : Heap} (addr site : Nat) (ha : ∀ b ∈ h.blocks, Accounted b) : ∀ b ∈ (h.store1 addr site).blocks, Accounted b := by
  unfold Heap.store1
  split
  · exact ha
  · split
    · exact ha
    · exact acc_fault addr site ha

theorem acc_target {h : Heap} {site : Site} {b : Block} (hb : h.target site = some b) : b ∈ h.blocks := by
  unfold Heap.target at hb
  split at hb
  · exact List.mem_of_getLast? hb
  · exact List.mem_of_head? hb

theorem accounted {page es h} (hp : 0 < page) (hr : Reach page es h) (hd : NoDouble es) (hl : Limits es) :
    ∀ b ∈ h.blocks, Accounted b := by
  induction hr with
  | start m f =>
    intro b hb
    simp only [List.mem_singleton] at hb
    subst hb
    refine ⟨rfl, Nat.zero_le _, ?_⟩
    show 0xffffffffffff ≤ 2 ^ 63
    decide
  | @push es h a hr ih =>
    have hd' : NoDouble es := fun r p q hm => hd r p q (List.mem_cons_of_mem _ hm)
    have hl' : Limits es := fun a hm => hl a (List.mem_cons_of_mem _ hm)
    intro b hb
    rcases List.mem_cons.1 hb with e | e
    · subst e; exact ⟨rfl, Nat.zero_le _, hl a List.mem_cons_self⟩
    · exact ih hd' hl' b e
  | @pop es h hr ih =>
    have hd' : NoDouble es := fun r p q hm => hd r p q (List.mem_cons_of_mem _ hm)
    have hl' : Limits es := fun a hm => hl a (List.mem_cons_of_mem _ hm)
    intro b hb
    refine ih hd' hl' b ?_
    unfold Heap.pop at hb
    split at hb
    · exact hb
    · next x y => rw [y]; exact List.mem_cons_of_mem _ hb
  | @alloc es h pagePtr who size alignment fill site hr hf ih =>
    have hd' : NoDouble es := fun r p q hm => hd r p q (List.mem_cons_of_mem _ hm)
    have hl' : Limits es := fun a hm => hl a (List.mem_cons_of_mem _ hm)
    have ih := ih hd' hl'
    obtain ⟨o, ho⟩ : ∃ o, (h.newPiece page pagePtr who size alignment fill site).2 = o := ⟨_, rfl⟩
    cases o with
    | none => rw [newPiece_none ho]; exact ih
    | some p =>
      obtain ⟨b, hb, hlim, hpe, _, hbl⟩ := newPiece_some ho
      have hab := ih b (acc_target hb)
      have hsz : p.userSize = size := by rw [hpe]; rfl
      have hfr : p.freeTimes = 0 := by rw [hpe]; rfl
      have hsmall := hf.1
      have hmod : (b.allocated + size) % 2 ^ 64 = b.allocated + size := by
        apply Nat.mod_eq_of_lt
        unfold Accounted at hab
        omega
      rw [hmod] at hlim hbl
      have hnew : Accounted { b with allocated := b.allocated + size, footprint := if b.footprint < b.allocated + size then b.allocated + size else b.footprint, pieces := b.pieces ++ [p] } := by
        unfold Accounted at hab ⊢
        simp only [liveP_append _ _ hfr, hsz]
        omega
      intro c hc
      rw [hbl] at hc
      simp only at hc
      unfold Heap.target at hb
      split at hc
      · next hex =>
        rw [if_pos hex] at hb
        rcases mem_updLast hc with h1 | ⟨y, hy, e⟩
        · exact ih c h1
        · rw [hb] at hy
          obtain rfl := Option.some.inj hy
          rw [e]; exact hnew
      · next hex =>
        rw [if_neg hex] at hb
        obtain ⟨bs, hbs⟩ : ∃ bs, h.blocks = bs := ⟨_, rfl⟩
        rw [hbs] at hb hc ih
        cases bs with
        | nil => simp at hb
        | cons d ds =>
          simp only [List.head?_cons, Option.some.injEq] at hb
          subst hb
          simp only [updHead] at hc
          rcases List.mem_cons.1 hc with e | e
          · rw [e]; exact hnew
          · exact ih c (List.mem_cons_of_mem _ e)
  | @free es h r ptr hr ih =>
    have hd' : NoDouble es := fun r p q hm => hd r p q (List.mem_cons_of_mem _ hm)
    have hl' : Limits es := fun a hm => hl a (List.mem_cons_of_mem _ hm)
    have ih := ih hd' hl'
    have hi := reach_inv hp hr
    by_cases hs : ∃ p ∈ pieces h.blocks, (p.userPtr == ptr) = true
    · obtain ⟨p, hpm, hq, e⟩ := relPiece_some (r := r) hs
      have hft : p.freeTimes = 0 := by
        by_cases h0 : p.freeTimes = 0
        · exact h0
        · exfalso
          have : p.freeFail h.mem (some r) = some (.doubleFree p.userPtr) := by
            unfold Piece.freeFail; rw [if_pos h0]
          rw [e] at hd
          exact hd r ptr p.userPtr (by rw [this]; exact List.mem_cons_self)
      intro c hc
      rw [e] at hc
      rcases mem_updFirst hc with h1 | ⟨y, hy, hqy, e⟩
      · exact ih c h1
      · have hay := ih y hy
        have hsum : liveP (updFirst (fun p => p.userPtr == ptr) (fun p => p.freed h.mem (some r)) y.pieces) + p.userSize = liveP y.pieces := by
          refine liveP_freed _ _ _ _ ?_ ?_ hqy
          · intro x hx hqx
            have : x = p := unique_of_pairwise (fun p : Piece => p.userPtr == ptr) _
              (List.Pairwise.imp_of_mem (fun h1 h2 h3 => hi.ptr_unique hp _ _ h3 h1 h2 ptr) hi.apart) x p
              (List.mem_flatMap.2 ⟨y, hy, hx⟩) hpm hqx hq
            subst this; exact ⟨rfl, hft⟩
          · intro x; unfold Piece.freed; split <;> exact Nat.succ_ne_zero _
        rw [e]
        unfold Accounted at hay ⊢
        simp only
        refine ⟨?_, by omega, hay.2.2⟩
        have : (y.allocated + 2 ^ 64 - p.userSize) % 2 ^ 64 = y.allocated - p.userSize := by
          rw [show y.allocated + 2 ^ 64 - p.userSize = (y.allocated - p.userSize) + 2 ^ 64 from by omega, Nat.add_mod_right]
          apply Nat.mod_eq_of_lt
          omega
        rw [this]; omega
    · have hn : ∀ p ∈ pieces h.blocks, (p.userPtr == ptr) = false := by
        intro p hp'
        cases hq : (p.userPtr == ptr) with
        | false => rfl
        | true => exact absurd ⟨p, hp', hq⟩ hs
      rw [relPiece_none hn]
      exact ih
  | @read es h a s hr ih =>
    have hd' : NoDouble es := fun r p q hm => hd r p q (List.mem_cons_of_mem _ hm)
    have hl' : Limits es := fun a hm => hl a (List.mem_cons_of_mem _ hm)
    have ih := ih hd' hl'
    unfold Heap.load
    split
    · exact ih
    · split
      · exact acc_fault a s ih
      · exact ih
  | @write es h a s v hr ih =>
    have hd' : NoDouble es := fun r p q hm => hd r p q (List.mem_cons_of_mem _ hm)
    have hl' : Limits es := fun a hm => hl a (List.mem_cons_of_mem _ hm)
    rw [store_eq]
    exact acc_store1 a s (acc_store1 a s (ih hd' hl'))

/-! ### Accesses inside a user area, and copying -/

theorem Inv.host_eq {page s} {h : Heap} (hi : Inv page s h) {p : Piece} {addr : Nat} (hp : p ∈ pieces h.blocks)
    (hq : p.inRange addr = true) : h.hostPiece addr = some p := by
  obtain ⟨o, ho⟩ : ∃ o, h.hostPiece addr = o := ⟨_, rfl⟩
  cases o with
  | none => have := host_none ho p hp; rw [hq] at this; simp at this
  | some p' =>
    have ⟨h1, h2⟩ := host_some ho
    rw [ho, hi.host_unique h1 hp h2 hq]

theorem Rep.permAt_user {page e p addr} (h : Rep page e p) (hc : e.clean = false) (ha : addr < e.area.hi) :
    p.permAt addr = .rw := by
  have h1 := h.fbPage
  unfold Piece.permAt
  rw [hc] at h1
  simp only [Bool.false_eq_true, if_false] at h1
  rw [if_neg (by omega)]

/-- A byte of a live area. -/
structure Mine (page : Nat) (h : Heap) (e : Entry) (p : Piece) : Prop where
  mem : p ∈ pieces h.blocks
  rep : Rep page e p
  live : e.clean = false

theorem Mine.access {page s h e p addr} (hi : Inv page s h) (hp : 0 < page) (hm : Mine page h e p) (h1 : e.area.lo ≤ addr) (h2 : addr < e.area.hi) :
    h.hostPiece addr = some p ∧ p.permAt addr = .rw := by
  refine ⟨hi.host_eq hm.mem ?_, hm.rep.permAt_user hm.live h2⟩
  rw [hm.rep.inRange]
  simp only [Entry.covers, Bool.and_eq_true, decide_eq_true_eq]
  omega

theorem Mine.load {page s h e p addr} (hi : Inv page s h) (hp : 0 < page) (hm : Mine page h e p) (h1 : e.area.lo ≤ addr) (h2 : addr < e.area.hi)
    (site : Nat) : h.load addr site = (h, some (h.mem addr)) := by
  have ⟨a, b⟩ := hm.access hi hp h1 h2
  simp only [Heap.load, a, b]
  simp

theorem Mine.store {page s h e p addr} (hi : Inv page s h) (hp : 0 < page) (hm : Mine page h e p) (h1 : e.area.lo ≤ addr) (h2 : addr < e.area.hi)
    (site : Nat) (v : UInt8) : h.store addr site v = { h with mem := fun a => if a = addr then v else h.mem a } := by
  have ⟨a, b⟩ := hm.access hi hp h1 h2
  simp only [Heap.store, a, b]
  simp [a, b]

theorem copy_spec {page es h eo po en pn} (hp : 0 < page) (hr : Reach page es h) (ho : Mine page h eo po) (hn : Mine page h en pn)
    (ha : Apart po pn) (site n : Nat) (h1 : n ≤ eo.size) (h2 : n ≤ en.size) :
    (∃ ev, (∀ x ∈ ev, (∃ a, x = Event.read a) ∨ ∃ a, x = Event.write a) ∧ Reach page (ev ++ es) (h.copy en.area.ptr eo.area.ptr site n)) ∧
    (h.copy en.area.ptr eo.area.ptr site n).blocks = h.blocks ∧
    ∀ a, (h.copy en.area.ptr eo.area.ptr site n).mem a =
      if en.area.ptr ≤ a ∧ a < en.area.ptr + n then h.mem (eo.area.ptr + (a - en.area.ptr)) else h.mem a := by
  induction n with
  | zero =>
    refine ⟨⟨[], by simp, hr⟩, rfl, ?_⟩
    intro a
    rw [if_neg (by omega)]; rfl
  | succ k ih =>
    obtain ⟨⟨ev, hev, hreach⟩, hbl, hmem⟩ := ih (by omega) (by omega)
    have go1 := ho.rep.geo1; have go2 := ho.rep.geo2
    have gn1 := hn.rep.geo1; have gn2 := hn.rep.geo2
    simp only [Heap.copy]
    generalize h.copy en.area.ptr eo.area.ptr site k = hk at hreach hbl hmem
    have hi := reach_inv hp hreach
    have ho' : Mine page hk eo po := ⟨by rw [hbl]; exact ho.mem, ho.rep, ho.live⟩
    have hn' : Mine page hk en pn := ⟨by rw [hbl]; exact hn.mem, hn.rep, hn.live⟩
    have r1 := hreach.read (eo.area.ptr + k) site
    rw [ho'.load hi hp (by omega) (by omega)] at r1 ⊢
    simp only at r1 ⊢
    have r2 := r1.write (en.area.ptr + k) site (hk.mem (eo.area.ptr + k))
    rw [hn'.store hi hp (by omega) (by omega)] at r2 ⊢
    refine ⟨⟨.write (en.area.ptr + k) :: .read (eo.area.ptr + k) :: ev, ?_, r2⟩, hbl, ?_⟩
    · intro x hx
      rcases List.mem_cons.1 hx with e | hx
      · exact Or.inr ⟨_, e⟩
      rcases List.mem_cons.1 hx with e | hx
      · exact Or.inl ⟨_, e⟩
      · exact hev x hx
    · intro a
      simp only
      have hdis : ¬ (en.area.ptr ≤ eo.area.ptr + k ∧ eo.area.ptr + k < en.area.ptr + k) := by
        have m1 := mapping_size ho.rep
        have m2 := mapping_size hn.rep
        have l1 := ho.rep.lo
        have l2 := hn.rep.lo
        unfold Apart at ha
        rw [m1, m2, l1, l2] at ha
        omega
      by_cases e : a = en.area.ptr + k
      · rw [if_pos e, if_pos (by omega), hmem, if_neg hdis, e]
        congr 1; omega
      · rw [if_neg e, hmem]
        by_cases e2 : en.area.ptr ≤ a ∧ a < en.area.ptr + k
        · rw [if_pos e2, if_pos (by omega)]
        · rw [if_neg e2, if_neg (by omega)]

end H2.Memory
