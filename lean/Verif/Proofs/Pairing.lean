import Verif.Spec.Pairing
import Verif.Proofs.Observe

/-!
# Who meets whom: proofs
-/

set_option linter.unusedSimpArgs false
set_option autoImplicit false

namespace MpiSerial

/-! ## Pairings are unique -/

theorem pairing_unique {w : List Letter} {P Q : Nat → Nat → Prop} (hP : IsPairing w P) (hQ : IsPairing w Q) (k l : Nat) :
    P k l ↔ Q k l := by
  have key : ∀ n, ∀ l, l < n → ∀ k, P k l ↔ Q k l := by
    intro n
    induction n with
    | zero => intro l hl; omega
    | succ n ih =>
      intro l hl k
      have hfree : ∀ k, k < l → (FreeAt P k l ↔ FreeAt Q k l) := by
        intro k hk
        unfold FreeAt
        constructor
        · rintro ⟨h1, h2⟩
          exact ⟨fun l' hl' h => h1 l' hl' ((ih l' (by omega) k).2 h), fun j h => h2 j ((ih k (by omega) j).2 h)⟩
        · rintro ⟨h1, h2⟩
          exact ⟨fun l' hl' h => h1 l' hl' ((ih l' (by omega) k).1 h), fun j h => h2 j ((ih k (by omega) j).1 h)⟩
      rw [hP k l, hQ k l]
      constructor
      · rintro ⟨h1, h2, h3, h4⟩
        exact ⟨h1, h2, (hfree k h1).1 h3, fun k' hk' hf hq => h4 k' hk' hf ((hfree k' (by omega)).2 hq)⟩
      · rintro ⟨h1, h2, h3, h4⟩
        exact ⟨h1, h2, (hfree k h1).2 h3, fun k' hk' hf hq => h4 k' hk' hf ((hfree k' (by omega)).1 hq)⟩
  exact key (l + 1) l (by omega) k

/-! ## The numbers of the operations of a communicator -/

section
variable {L : Ledger} {c : Nat}

theorem mem_posted {i : Nat} : i ∈ L.posted c ↔ ∃ o, L.ops[i]? = some o ∧ o.cid = c ∧ o.st ≠ .null := by
  unfold Ledger.posted
  rw [List.mem_filter, List.mem_range]
  constructor
  · rintro ⟨h1, h2⟩
    refine ⟨L.ops[i], List.getElem?_eq_getElem h1, ?_⟩
    rw [List.getElem?_eq_getElem h1] at h2
    simpa [Op.isOn] using h2
  · rintro ⟨o, h1, h2⟩
    refine ⟨getElem?_lt h1, ?_⟩
    rw [h1]
    simpa [Op.isOn] using h2

theorem posted_sorted : (L.posted c).Pairwise (· < ·) :=
  List.Pairwise.filter _ List.pairwise_lt_range

theorem isNth_lt {k l i j : Nat} (h1 : L.isNth c k i) (h2 : L.isNth c l j) : k < l ↔ i < j := by
  have hk := getElem?_lt h1
  have hl := getElem?_lt h2
  have e1 : (L.posted c)[k] = i := Option.some.inj ((List.getElem?_eq_getElem hk).symm.trans h1)
  have e2 : (L.posted c)[l] = j := Option.some.inj ((List.getElem?_eq_getElem hl).symm.trans h2)
  have hs := List.pairwise_iff_getElem.1 (posted_sorted (L := L) (c := c))
  constructor
  · intro h
    have := hs k l hk hl h
    omega
  · intro h
    rcases Nat.lt_trichotomy k l with h3 | h3 | h3
    · exact h3
    · subst h3; omega
    · have := hs l k hl hk h3
      omega

theorem isNth_unique {k l i : Nat} (h1 : L.isNth c k i) (h2 : L.isNth c l i) : k = l := by
  have a := isNth_lt h1 h2
  have b := isNth_lt h2 h1
  omega

theorem isNth_of {i : Nat} {o : Op} (ho : L.ops[i]? = some o) (hc : o.cid = c) (hn : o.st ≠ .null) : ∃ k, L.isNth c k i :=
  List.mem_iff_getElem?.1 (mem_posted.2 ⟨o, ho, hc, hn⟩)

theorem isNth_op {k i : Nat} (h : L.isNth c k i) : ∃ o, L.ops[i]? = some o ∧ o.cid = c ∧ o.st ≠ .null :=
  mem_posted.1 (List.mem_of_getElem? h)

theorem filter_range {α : Type} (p : α → Bool) (l : List α) :
    (l.filter p).map some = ((List.range l.length).filter fun i => (l[i]?.map p).getD false).map fun i => l[i]? := by
  induction l with
  | nil => rfl
  | cons x l ih =>
    rw [List.length_cons, List.range_succ_eq_map, List.filter_cons, List.filter_cons]
    have hf : ((List.range l.length).map Nat.succ).filter (fun i => (((x :: l)[i]?).map p).getD false) =
        ((List.range l.length).filter fun i => (l[i]?.map p).getD false).map Nat.succ := by
      rw [List.filter_map]
      rfl
    rw [hf]
    have hm : (((List.range l.length).filter fun i => (l[i]?.map p).getD false).map Nat.succ).map (fun i => (x :: l)[i]?) =
        (l.filter p).map some := by
      rw [ih, List.map_map]
      rfl
    by_cases hx : p x = true
    · rw [if_pos hx, if_pos (by simpa using hx)]
      simp only [List.map_cons, hm]
      rfl
    · rw [if_neg hx, if_neg (by simpa using hx), hm]

theorem word_get {k : Nat} {a : Letter} :
    (L.word c)[k]? = some a ↔ ∃ i o, L.isNth c k i ∧ L.ops[i]? = some o ∧ a = (o.kind, o.tag) := by
  have h := congrArg (fun l => l[k]?) (filter_range (Op.isOn c) L.ops)
  rw [List.getElem?_map, List.getElem?_map] at h
  unfold Ledger.word Ledger.isNth
  rw [List.getElem?_map]
  constructor
  · intro hw
    obtain ⟨o, ho, rfl⟩ := Option.map_eq_some_iff.1 hw
    rw [ho] at h
    obtain ⟨i, h1, h2⟩ := Option.map_eq_some_iff.1 h.symm
    exact ⟨i, o, h1, h2, rfl⟩
  · rintro ⟨i, o, h1, h2, rfl⟩
    rw [show (List.filter (fun i => (L.ops[i]?.map (Op.isOn c)).getD false) (List.range L.ops.length))[k]? = some i from h1] at h
    simp only [Option.map_some, h2] at h
    obtain ⟨o', h3, h4⟩ := Option.map_eq_some_iff.1 h
    cases h4
    rw [h3]
    rfl

theorem fit_iff {a b : Op} : Letter.fit (b.kind, b.tag) (a.kind, a.tag) ↔ b.kind = a.kind.other ∧ b.fits a.kind a.tag = true := by
  unfold Letter.fit Op.fits
  cases a.kind <;> cases b.kind <;> simp [Kind.other]

theorem fitIn_iff {k l : Nat} : FitIn (L.word c) k l ↔ ∃ i j a b, L.isNth c k i ∧ L.isNth c l j ∧ L.ops[i]? = some b ∧
    L.ops[j]? = some a ∧ b.kind = a.kind.other ∧ b.fits a.kind a.tag = true := by
  unfold FitIn
  constructor
  · rintro ⟨x, y, h1, h2, h3⟩
    obtain ⟨i, b, i1, i2, rfl⟩ := word_get.1 h1
    obtain ⟨j, a, j1, j2, rfl⟩ := word_get.1 h2
    obtain ⟨h4, h5⟩ := fit_iff.1 h3
    exact ⟨i, j, a, b, i1, j1, i2, j2, h4, h5⟩
  · rintro ⟨i, j, a, b, i1, j1, i2, j2, h4, h5⟩
    exact ⟨_, _, word_get.2 ⟨i, b, i1, i2, rfl⟩, word_get.2 ⟨j, a, j1, j2, rfl⟩, fit_iff.2 ⟨h4, h5⟩⟩

theorem isNth_fun {k i j : Nat} (h1 : L.isNth c k i) (h2 : L.isNth c k j) : i = j := Option.some.inj (h1.symm.trans h2)

/-! ## The matches form a pairing -/

theorem not_free_of_settled (hv : OpsInv L.ops) {k l i j p : Nat} {b : Op} (hk : L.isNth c k i) (hl : L.isNth c l j)
    (hb : L.ops[i]? = some b) (hst : b.st = .matched p) (hp : p < j) : ¬ FreeAt (L.joined c) k l := by
  rintro ⟨h1, h2⟩
  obtain ⟨b', hb', hc, hn⟩ := isNth_op hk
  rw [hb] at hb'
  cases hb'
  obtain ⟨d, d1, d2, d3, d4, _⟩ := hv.sym i p b hb hst
  obtain ⟨m, hm⟩ := isNth_of (c := c) d1 (by rw [d4, hc]) (by rw [d2]; simp)
  rcases Nat.lt_trichotomy i p with h | h | h
  · exact h1 m ((isNth_lt hm hl).2 hp) ⟨(isNth_lt hk hm).2 h, i, p, b, hk, hm, hb, hst⟩
  · subst h
    rw [hb] at d1
    cases d1
    cases hh : b.kind <;> rw [hh] at d3 <;> cases d3
  · exact h2 m ⟨(isNth_lt hm hk).2 h, p, i, d, hm, hk, d1, d2⟩

theorem joined_free (hv : OpsInv L.ops) {k l : Nat} (h : L.joined c k l) : FreeAt (L.joined c) k l := by
  obtain ⟨hkl, i, j, b, hi, hj, hb, hst⟩ := h
  constructor
  · rintro l' hl' ⟨_, i', j', b', hi', hj', hb', hst'⟩
    obtain rfl := isNth_fun hi hi'
    rw [hb] at hb'
    cases hb'
    rw [hst] at hst'
    cases hst'
    have := isNth_unique hj hj'
    omega
  · rintro m ⟨hmk, i', j', b', hi', hj', hb', hst'⟩
    obtain rfl := isNth_fun hi hj'
    obtain ⟨d, d1, d2, _⟩ := hv.sym i' i b' hb' hst'
    rw [hb] at d1
    cases d1
    rw [hst] at d2
    cases d2
    have := isNth_unique hi' hj
    omega

theorem joined_pairing (hv : OpsInv L.ops) : IsPairing (L.word c) (L.joined c) := by
  intro k l
  constructor
  · intro h
    have hfr := joined_free hv h
    obtain ⟨hkl, i, j, b, hi, hj, hb, hst⟩ := h
    obtain ⟨a, a1, a2, a3, a4, a5⟩ := hv.sym i j b hb hst
    have hij := (isNth_lt hi hj).1 hkl
    have hba : b.kind = a.kind.other := by rw [a3]; cases b.kind <;> rfl
    refine ⟨hkl, fitIn_iff.2 ⟨i, j, a, b, hi, hj, hb, a1, hba, ?_⟩, hfr, ?_⟩
    · rw [Op.fits_symm hba]; exact a5
    · intro k' hk' hf
      obtain ⟨i', j', a', b', hi', hj', hb', ha', f1, f2⟩ := fitIn_iff.1 hf
      obtain rfl := isNth_fun hj hj'
      rw [a1] at ha'
      cases ha'
      obtain ⟨_, o1, o2, o3⟩ := isNth_op hi'
      rw [hb'] at o1
      cases o1
      obtain ⟨_, p1, p2, p3⟩ := isNth_op hj
      rw [a1] at p1
      cases p1
      obtain ⟨p, q1, _, q2⟩ := hv.first j i i' a b' a1 a2 hij hb' ((isNth_lt hi' hi).1 hk') f1 (by rw [o2, p2]) o3 f2
      exact not_free_of_settled hv hi' hj hb' q1 q2
  · rintro ⟨hkl, hf, hfr, hmin⟩
    obtain ⟨i, j, a, b, hi, hj, hb, ha, f1, f2⟩ := fitIn_iff.1 hf
    obtain ⟨_, o1, o2, o3⟩ := isNth_op hi
    rw [hb] at o1
    cases o1
    obtain ⟨_, p1, p2, p3⟩ := isNth_op hj
    rw [ha] at p1
    cases p1
    have hij := (isNth_lt hi hj).1 hkl
    have hset : ∀ {p : Nat}, b.st = .matched p → ¬ p < j := fun h1 h2 => not_free_of_settled hv hi hj hb h1 h2 hfr
    -- the later operation found a partner when it was posted
    have hpart : ∃ p, a.st = .matched p ∧ p < j := by
      rcases hv.nowait j i a b ha hb hij f1 (by rw [o2, p2]) p3 o3 f2 with ⟨p, q1, _, q2⟩ | ⟨p, q1, _, q2⟩
      · refine ⟨p, q1, ?_⟩
        obtain ⟨d, d1, d2, d3, _⟩ := hv.sym j p a ha q1
        rcases Nat.lt_or_ge p j with h | h
        · exact h
        · obtain rfl : p = j := by omega
          rw [ha] at d1
          cases d1
          cases hh : a.kind <;> rw [hh] at d3 <;> cases d3
      · have := hset q1
        obtain rfl : p = j := by omega
        obtain ⟨d, d1, d2, _⟩ := hv.sym i p b hb q1
        rw [ha] at d1
        cases d1
        exact ⟨i, d2, hij⟩
    obtain ⟨p, hst, hp⟩ := hpart
    obtain ⟨d, d1, d2, d3, d4, d5⟩ := hv.sym j p a ha hst
    obtain ⟨k0, hk0⟩ := isNth_of (c := c) d1 (by rw [d4, p2]) (by rw [d2]; simp)
    have hj0 : L.joined c k0 l := ⟨(isNth_lt hk0 hj).2 hp, p, j, d, hk0, hj, d1, d2⟩
    rcases Nat.lt_trichotomy k0 k with h | h | h
    · exact absurd (joined_free hv hj0) (hmin k0 h (fitIn_iff.2 ⟨p, j, a, d, hk0, hj, d1, ha, d3, d5⟩))
    · subst h
      exact hj0
    · obtain ⟨q, q1, _, q2⟩ := hv.first j p i a b ha hst hp hb ((isNth_lt hi hk0).1 h) f1 (by rw [o2, p2]) o3 f2
      exact absurd q2 (hset q1)

/-! ## Words and calls -/

theorem filter_map_modify {α β : Type} (p : α → Bool) (g : α → β) (f : α → α) :
    ∀ (l : List α) (j : Nat), (∀ x, l[j]? = some x → p (f x) = p x ∧ g (f x) = g x) →
      ((l.modify j f).filter p).map g = (l.filter p).map g
  | [], j, _ => by cases j <;> rfl
  | x :: l, 0, h => by
    obtain ⟨h1, h2⟩ := h x rfl
    rw [List.modify_zero_cons, List.filter_cons, List.filter_cons, h1]
    split
    · rw [List.map_cons, List.map_cons, h2]
    · rfl
  | x :: l, j + 1, h => by
    have ih := filter_map_modify p g f l j fun y hy => h y hy
    rw [List.modify_succ_cons, List.filter_cons, List.filter_cons]
    split
    · rw [List.map_cons, List.map_cons, ih]
    · exact ih

theorem post_word (L : Ledger) (k : Kind) (c c' : Nat) (tag buf count dtype h : Int) :
    (L.post k c tag buf count dtype h).word c' = L.word c' ++ (if c' = c then [(k, tag)] else []) := by
  have hnew : ∀ st, st ≠ .null → (([⟨k, c, tag, buf, count, dtype, h, st⟩] : List Op).filter (Op.isOn c')).map
      (fun o => (o.kind, o.tag)) = if c' = c then [(k, tag)] else [] := by
    intro st hst
    by_cases hc : c' = c
    · subst hc
      simp [Op.isOn, hst]
    · have : ¬ c = c' := fun h => hc h.symm
      simp [Op.isOn, hc, this]
  unfold Ledger.word
  cases hp : L.partner c k tag with
  | none =>
    rw [Ledger.post_none hp, List.filter_append, List.map_append, hnew _ (by simp)]
  | some j =>
    rw [Ledger.post_some hp, List.filter_append, List.map_append, hnew _ (by simp)]
    congr 1
    unfold Ledger.settle
    refine filter_map_modify _ _ _ _ _ fun x hx => ⟨?_, rfl⟩
    obtain ⟨o, he⟩ := partner_earliest hp
    have := he.1
    rw [hx] at this
    cases this
    simp [Op.isOn, he.2.1.2.2]

theorem postNull_word (L : Ledger) (k : Kind) (c : Nat) (tag buf count dtype h : Int) :
    (L.postNull k tag buf count dtype h).word c = L.word c := by
  unfold Ledger.word Ledger.postNull
  simp [Op.isOn]

end

/-- Every word has a pairing. -/
theorem pairing_exists (w : List Letter) : ∃ P, IsPairing w P := by
  suffices ∃ L : Ledger, OpsInv L.ops ∧ L.word 0 = w by
    obtain ⟨L, h1, rfl⟩ := this
    exact ⟨_, joined_pairing h1⟩
  have key : ∀ (v : List Letter) (L : Ledger), OpsInv L.ops → ∃ L' : Ledger, OpsInv L'.ops ∧ L'.word 0 = L.word 0 ++ v := by
    intro v
    induction v with
    | nil => intro L h; exact ⟨L, h, by simp⟩
    | cons x v ih =>
      intro L h
      obtain ⟨L', h1, h2⟩ := ih (L.post x.1 0 x.2 0 0 0 0) (h.post _ _ _ _ _ _ _)
      refine ⟨L', h1, ?_⟩
      rw [h2, post_word, if_pos rfl]
      simp
  obtain ⟨L', h1, h2⟩ := key w .start .nil
  exact ⟨L', h1, by rw [h2]; rfl⟩

end MpiSerial
