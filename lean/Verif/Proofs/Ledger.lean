import Verif.Proofs.P2P

/-!
# Facts about ledgers alone: every pending pair, every match, in every history
-/

set_option linter.unusedSimpArgs false
set_option autoImplicit false

namespace MpiSerial

/-- Operation `x` (record `o`) was matched before operation number `t` was posted. -/
def SettledBefore (x : Nat) (o : Op) (t : Nat) : Prop := ∃ p, o.st = .matched p ∧ x < t ∧ p < t

theorem Op.fits_symm {a b : Op} (h : b.kind = a.kind.other) : b.fits a.kind a.tag = a.fits b.kind b.tag := by
  cases ha : a.kind <;> rw [ha] at h <;> simp only [Kind.other] at h <;> rw [h] <;> rfl

/-- Invariant of the operations posted so far. -/
structure OpsInv (ops : List Op) : Prop where
  /-- matches are mutual, between opposite kinds, on one communicator, with accepted tag -/
  sym : ∀ (i j : Nat) (a : Op), ops[i]? = some a → a.st = .matched j →
    ∃ b : Op, ops[j]? = some b ∧ b.st = .matched i ∧ b.kind = a.kind.other ∧ b.cid = a.cid ∧
      b.fits a.kind a.tag = true
  /-- the later of two matched operations took the earliest candidate -/
  first : ∀ (x y y' : Nat) (a b' : Op), ops[x]? = some a → a.st = .matched y → y < x → ops[y']? = some b' → y' < y →
    b'.kind = a.kind.other → b'.cid = a.cid → b'.st ≠ .null → b'.fits a.kind a.tag = true →
    SettledBefore y' b' x
  /-- two operations that fit are never both unmatched once both are posted -/
  nowait : ∀ (x y : Nat) (a b : Op), ops[x]? = some a → ops[y]? = some b → y < x →
    b.kind = a.kind.other → b.cid = a.cid → a.st ≠ .null → b.st ≠ .null → b.fits a.kind a.tag = true →
    SettledBefore x a (x + 1) ∨ SettledBefore y b (x + 1)

theorem OpsInv.nil : OpsInv [] := by
  refine ⟨?_, ?_, ?_⟩ <;> simp

theorem getElem?_lt {α : Type} {l : List α} {i : Nat} {x : α} (h : l[i]? = some x) : i < l.length := by
  rcases Nat.lt_or_ge i l.length with h1 | h1
  · exact h1
  · rw [List.getElem?_eq_none h1] at h; cases h

/-- Adding an operation that stays unmatched, or one addressed to nobody. -/
theorem OpsInv.snoc {ops : List Op} (hi : OpsInv ops) (new : Op)
    (hst : new.st = .null ∨ (new.st = .pending ∧
      ∀ o ∈ ops, o.waits new.cid new.kind new.tag = false)) : OpsInv (ops ++ [new]) := by
  have hnm : ∀ j, new.st ≠ .matched j := by
    intro j hj
    rcases hst with h | ⟨h, _⟩ <;> rw [h] at hj <;> cases hj
  refine ⟨?_, ?_, ?_⟩
  · intro i j a ha hm
    rcases getElem?_append_one ha with h | ⟨_, rfl⟩
    · obtain ⟨b, h1, h2⟩ := hi.sym i j a h hm
      exact ⟨b, getElem?_append_some h1, h2⟩
    · exact absurd hm (hnm _)
  · intro x y y' a b' ha hm hlt hb' hlt'
    rcases getElem?_append_one ha with h | ⟨_, rfl⟩
    · have hx := getElem?_lt h
      rcases getElem?_append_one hb' with h' | ⟨h', _⟩
      · exact hi.first x y y' a b' h hm hlt h' hlt'
      · omega
    · exact absurd hm (hnm _)
  · intro x y a b ha hb hlt hk hc hna hnb hf
    rcases getElem?_append_one hb with h' | ⟨h', _⟩
    rotate_left
    · have := getElem?_lt ha
      simp at this; omega
    rcases getElem?_append_one ha with h | ⟨hx, rfl⟩
    · exact hi.nowait x y a b h h' hlt hk hc hna hnb hf
    · right
      rcases hst with h | ⟨_, h⟩
      · exact absurd h hna
      · have hw := h b (List.mem_of_getElem? h')
        cases hbs : b.st with
        | null => exact absurd hbs hnb
        | pending =>
          exfalso
          rw [Op.waits_eq, hf, Bool.and_true, ← Bool.not_eq_true, Op.pendOn_iff] at hw
          exact hw ⟨hk, hc, hbs⟩
        | matched p =>
          obtain ⟨_, hp, _⟩ := hi.sym y p b h' hbs
          have := getElem?_lt hp
          exact ⟨p, hbs, by omega, by omega⟩

/-- Matching the new operation with the first one waiting for it. -/
theorem OpsInv.settle {A B : List Op} {o : Op} (hi : OpsInv (A ++ o :: B)) (new : Op)
    (hst : new.st = .matched A.length) (ho : o.waits new.cid new.kind new.tag = true)
    (hA : ∀ x ∈ A, x.waits new.cid new.kind new.tag = false) :
    OpsInv (A ++ { o with st := .matched (A ++ o :: B).length } :: B ++ [new]) := by
  rw [Op.waits_eq, Bool.and_eq_true, Op.pendOn_iff] at ho
  obtain ⟨⟨ho1, ho2, ho3⟩, ho4⟩ := ho
  generalize hn : (A ++ o :: B).length = n at *
  have hjn : A.length < n := by rw [← hn]; simp
  have hlen : (A ++ ({ o with st := OpSt.matched n } : Op) :: B).length = n := by rw [← hn]; simp
  -- old operation at index `i` after the step
  have hback : ∀ i a, (A ++ ({ o with st := OpSt.matched n } : Op) :: B ++ [new])[i]? = some a →
      (i = n ∧ a = new) ∨ (i = A.length ∧ a = { o with st := .matched n }) ∨
      (i ≠ A.length ∧ i < n ∧ (A ++ o :: B)[i]? = some a) := by
    intro i a h
    rcases getElem?_append_one h with h | ⟨h1, rfl⟩
    · rcases settled_inv h with h | ⟨h1, h2⟩
      · exact Or.inr (Or.inl h)
      · exact Or.inr (Or.inr ⟨h1, hn ▸ getElem?_lt h2, h2⟩)
    · exact Or.inl ⟨by rw [h1, hlen], rfl⟩
  have hoA : (A ++ o :: B)[A.length]? = some o := by simp
  have hset : (A ++ ({ o with st := OpSt.matched n } : Op) :: B ++ [new])[A.length]? =
      some { o with st := .matched n } := by
    refine getElem?_append_some ?_
    have := settled_getElem (st := .matched n) hoA
    rwa [if_pos rfl] at this
  have hfwd : ∀ i a, i ≠ A.length → (A ++ o :: B)[i]? = some a →
      (A ++ ({ o with st := OpSt.matched n } : Op) :: B ++ [new])[i]? = some a := by
    intro i a hne h
    have := settled_getElem (st := .matched n) h
    rw [if_neg hne] at this
    exact getElem?_append_some this
  have hnewat : (A ++ ({ o with st := OpSt.matched n } : Op) :: B ++ [new])[n]? = some new := by
    rw [List.getElem?_append_right (by omega), hlen]; simp
  refine ⟨?_, ?_, ?_⟩
  · intro i j a ha hm
    rcases hback i a ha with ⟨rfl, rfl⟩ | ⟨rfl, rfl⟩ | ⟨hne, hlt, h⟩
    · rw [hst] at hm
      simp only [OpSt.matched.injEq] at hm
      subst hm
      exact ⟨_, hset, rfl, ho1, ho2, ho4⟩
    · simp only [OpSt.matched.injEq] at hm
      subst hm
      refine ⟨new, hnewat, hst, ?_, ho2.symm, ?_⟩
      · show new.kind = o.kind.other
        rw [ho1, Kind.other_other]
      · show new.fits o.kind o.tag = true
        rw [← Op.fits_symm ho1]; exact ho4
    · obtain ⟨b, h1, h2, h3⟩ := hi.sym i j a h hm
      refine ⟨b, hfwd j b ?_ h1, h2, h3⟩
      intro he
      subst he
      rw [hoA] at h1
      cases h1
      rw [ho3] at h2; cases h2
  · intro x y y' a b' ha hm hlt hb' hlt' hk hc hnb hf
    rcases hback x a ha with ⟨rfl, rfl⟩ | ⟨rfl, rfl⟩ | ⟨hne, hlt2, h⟩
    · rw [hst] at hm
      simp only [OpSt.matched.injEq] at hm
      subst hm
      rcases hback y' b' hb' with ⟨h1, _⟩ | ⟨h1, _⟩ | ⟨_, _, h'⟩
      · omega
      · omega
      · have hw : b'.waits a.cid a.kind a.tag = false := by
          rw [List.getElem?_append_left hlt'] at h'
          exact hA b' (List.mem_of_getElem? h')
        cases hbs : b'.st with
        | null => exact absurd hbs hnb
        | pending =>
          exfalso
          rw [Op.waits_eq, hf, Bool.and_true, ← Bool.not_eq_true, Op.pendOn_iff] at hw
          exact hw ⟨hk, hc, hbs⟩
        | matched p =>
          obtain ⟨_, hp, _⟩ := hi.sym y' p b' h' hbs
          have := getElem?_lt hp
          exact ⟨p, hbs, by omega, by omega⟩
    · simp only [OpSt.matched.injEq] at hm
      omega
    · rcases hback y' b' hb' with ⟨h1, _⟩ | ⟨h1, h1'⟩ | ⟨_, _, h'⟩
      · omega
      · subst h1'
        obtain ⟨p, h2, _⟩ := hi.first x y y' a o h hm hlt (h1 ▸ hoA) hlt' hk hc (by rw [ho3]; simp) hf
        rw [ho3] at h2; cases h2
      · exact hi.first x y y' a b' h hm hlt h' hlt' hk hc hnb hf
  · intro x y a b ha hb hlt hk hc hna hnb hf
    rcases hback x a ha with ⟨rfl, rfl⟩ | ⟨rfl, rfl⟩ | ⟨hne, hlt2, h⟩
    · left
      exact ⟨A.length, hst, by omega, by omega⟩
    · rcases hback y b hb with ⟨h1, _⟩ | ⟨h1, _⟩ | ⟨_, _, h'⟩
      · omega
      · omega
      · rcases hi.nowait A.length y o b hoA h' hlt hk hc (by rw [ho3]; simp) hnb hf with ⟨p, h1, _⟩ | h1
        · rw [ho3] at h1; cases h1
        · exact Or.inr h1
    · rcases hback y b hb with ⟨h1, _⟩ | ⟨rfl, rfl⟩ | ⟨_, _, h'⟩
      · omega
      · rcases hi.nowait x A.length a o h hoA hlt hk hc hna (by rw [ho3]; simp) hf with h1 | ⟨p, h1, _⟩
        · exact Or.inl h1
        · rw [ho3] at h1; cases h1
      · exact hi.nowait x y a b h h' hlt hk hc hna hnb hf

theorem OpsInv.post {L : Ledger} (hi : OpsInv L.ops) (k : Kind) (c : Nat) (tag buf count dtype h : Int) :
    OpsInv (L.post k c tag buf count dtype h).ops := by
  cases hp : L.partner c k tag with
  | none =>
    rw [Ledger.post_none hp]
    exact hi.snoc _ (Or.inr ⟨rfl, Ledger.partner_none hp⟩)
  | some j =>
    rw [Ledger.post_some hp]
    obtain ⟨A, o, B, hops, rfl, ho, hA⟩ := Ledger.partner_some hp
    rw [hops, settle_split]
    rw [hops] at hi
    exact hi.settle ⟨k, c, tag, buf, count, dtype, h, .matched A.length⟩ rfl ho hA

/-! ## Consequences -/

/-- Earlier operations come first: an operation posted before another one of the same kind, that would
also have fitted the other one's partner, is matched, and with an earlier partner. -/
theorem OpsInv.order {ops : List Op} (hi : OpsInv ops) {x x' y' : Nat} {a a' b' : Op}
    (ha : ops[x]? = some a) (ha' : ops[x']? = some a') (hlt : x < x') (hk : a'.kind = a.kind)
    (hc : a'.cid = a.cid) (hn : a.st ≠ .null) (hm' : a'.st = .matched y') (hb' : ops[y']? = some b')
    (hf : b'.fits a.kind a.tag = true) : ∃ y, a.st = .matched y ∧ y < y' := by
  obtain ⟨b1, h1, hbm, hbk, hbc, _⟩ := hi.sym x' y' a' ha' hm'
  rw [hb'] at h1
  cases h1
  have hbk : b'.kind = a.kind.other := by rw [hbk, hk]
  have hbc : b'.cid = a.cid := by rw [hbc, hc]
  have hbn : b'.st ≠ .null := by rw [hbm]; simp
  have hak : a.kind = b'.kind.other := by rw [hbk, Kind.other_other]
  have hf' : a.fits b'.kind b'.tag = true := by rw [← Op.fits_symm hbk]; exact hf
  have hne : x ≠ y' := by
    intro he
    subst he
    rw [ha] at hb'
    cases hb'
    exact Kind.other_ne _ hbk.symm
  have hne' : x' ≠ y' := by
    intro he
    subst he
    rw [ha'] at hb'
    cases hb'
    rw [hk] at hbk
    exact Kind.other_ne _ hbk.symm
  -- first: who is the later of x and y'
  have hcase : SettledBefore x a (max x y' + 1) ∨ SettledBefore y' b' (max x y' + 1) := by
    rcases Nat.lt_or_ge y' x with h | h
    · rw [Nat.max_eq_left (by omega)]
      exact hi.nowait x y' a b' ha hb' h hbk hbc hn hbn hf
    · rw [Nat.max_eq_right h]
      exact (hi.nowait y' x b' a hb' ha (by omega) hak hbc.symm hbn hn hf').symm
  rcases hcase with ⟨y, hy, h1, h2⟩ | ⟨p, hp, h1, h2⟩
  · refine ⟨y, hy, ?_⟩
    rcases Nat.lt_or_ge y y' with h | h
    · exact h
    · exfalso
      obtain ⟨b, hb, hbm2, hbk2, _⟩ := hi.sym x y a ha hy
      have hyx : y ≠ x := by
        intro he
        subst he
        rw [ha] at hb
        cases hb
        exact Kind.other_ne _ hbk2.symm
      have hyy : y ≠ y' := by
        intro he
        subst he
        rw [hb'] at hb
        cases hb
        rw [hbm] at hbm2
        simp only [OpSt.matched.injEq] at hbm2
        omega
      have hy1 : y < x := by omega
      obtain ⟨p, hp1, hp2, hp3⟩ := hi.first x y y' a b' ha hy hy1 hb' (by omega) hbk hbc hbn hf
      rw [hbm] at hp1
      simp only [OpSt.matched.injEq] at hp1
      omega
  · rw [hbm] at hp
    simp only [OpSt.matched.injEq] at hp
    subst hp
    have hxy : x' < y' := by omega
    obtain ⟨y, hy, h3, h4⟩ := hi.first y' x' x b' a hb' hbm hxy ha hlt hak hbc.symm hn hf'
    exact ⟨y, hy, h4⟩

/-- No two pending operations fit each other. -/
theorem OpsInv.no_pair {ops : List Op} (hi : OpsInv ops) {x y : Nat} {a b : Op} (ha : ops[x]? = some a)
    (hb : ops[y]? = some b) (hk : b.kind = a.kind.other) (hc : b.cid = a.cid) (hpa : a.st = .pending)
    (hpb : b.st = .pending) : b.fits a.kind a.tag = false := by
  cases hf : b.fits a.kind a.tag with
  | false => rfl
  | true =>
    exfalso
    have hne : x ≠ y := by
      intro he
      subst he
      rw [ha] at hb
      cases hb
      exact Kind.other_ne _ hk.symm
    rcases Nat.lt_or_ge y x with h | h
    · rcases hi.nowait x y a b ha hb h hk hc (by simp [hpa]) (by simp [hpb]) hf with ⟨p, h1, _⟩ | ⟨p, h1, _⟩
      · rw [hpa] at h1; cases h1
      · rw [hpb] at h1; cases h1
    · rcases hi.nowait y x b a hb ha (by omega) (by rw [hk, Kind.other_other]) hc.symm (by simp [hpb]) (by simp [hpa])
        (by rw [← Op.fits_symm hk]; exact hf) with ⟨p, h1, _⟩ | ⟨p, h1, _⟩
      · rw [hpb] at h1; cases h1
      · rw [hpa] at h1; cases h1

/-! ## All histories -/

theorem Step.opsInv {env : Env} {s s' : Sys} {L L' : Ledger} (h : Step env s L s' L') (hi : OpsInv L.ops) :
    OpsInv L'.ops := by
  cases h with
  | memory => exact hi
  | init => exact hi
  | finalize => exact hi
  | comm => unfold Ledger.noteComm; split <;> exact hi
  | commFree => exact hi
  | isend => exact hi.post ..
  | irecv => exact hi.post ..
  | isendNull => exact hi.snoc _ (Or.inl rfl)
  | irecvNull => exact hi.snoc _ (Or.inl rfl)
  | test => split <;> exact hi
  | requestFree => exact hi
  | newType => exact hi
  | commit => exact hi
  | typeFree => exact hi

theorem Reach.opsInv {env : Env} {s : Sys} {L : Ledger} (h : Reach env s L) : OpsInv L.ops := by
  induction h with
  | start => exact OpsInv.nil
  | step _ h ih => exact h.opsInv ih

end MpiSerial
