import Verif.Model.Lists

/-! # Refinement of the linked lists (list.c) to sequences -/

set_option linter.unusedSimpArgs false

namespace MpiSerial
variable {A : Type}

/-- Doubly linked segment: the items `s` (address, data) in order, the first one's `prev` is `p`,
the last one's `next` is `q`. -/
def DSeg (nodes : Nat → Option (Node A)) : Option Nat → List (Nat × A) → Option Nat → Prop
  | _, [], _ => True
  | p, (x, a) :: xs, q =>
    nodes x = some ⟨a, p, (xs.head?.map Prod.fst).or q⟩ ∧ DSeg nodes (some x) xs q

/-- Addresses of the items of a sequence. -/
def ids (s : List (Nat × A)) : List Nat := s.map Prod.fst

/-- Addresses of all items of all lists. -/
def allIds (M : List (Nat × List (Nat × A))) : List Nat := M.flatMap (fun e => ids e.2)

@[simp] theorem ids_nil : ids ([] : List (Nat × A)) = [] := rfl
@[simp] theorem ids_cons (e : Nat × A) (s) : ids (e :: s) = e.1 :: ids s := rfl
@[simp] theorem ids_append (s t : List (Nat × A)) : ids (s ++ t) = ids s ++ ids t := by
  simp [ids]
@[simp] theorem ids_length (s : List (Nat × A)) : (ids s).length = s.length := by simp [ids]
@[simp] theorem allIds_cons (e : Nat × List (Nat × A)) (M) :
    allIds (e :: M) = ids e.2 ++ allIds M := by simp [allIds]

theorem DSeg.congr {nodes nodes' : Nat → Option (Node A)} {s : List (Nat × A)} :
    ∀ {p q}, (∀ x ∈ ids s, nodes' x = nodes x) → DSeg nodes p s q → DSeg nodes' p s q := by
  induction s with
  | nil => intros; trivial
  | cons e xs ih =>
    intro p q h1 h2
    obtain ⟨x, a⟩ := e
    obtain ⟨h3, h4⟩ := h2
    exact ⟨by rw [h1 x (by simp)]; exact h3, ih (fun y hy => h1 y (by simp [hy])) h4⟩

theorem DSeg.append {nodes : Nat → Option (Node A)} {s t : List (Nat × A)} :
    ∀ {p q}, DSeg nodes p (s ++ t) q ↔
      DSeg nodes p s ((t.head?.map Prod.fst).or q) ∧
      DSeg nodes ((s.getLast?.map Prod.fst).or p) t q := by
  induction s with
  | nil => intro p q; simp [DSeg]
  | cons e xs ih =>
    intro p q
    obtain ⟨x, a⟩ := e
    simp only [List.cons_append, DSeg]
    rw [ih]
    cases xs with
    | nil => simp [DSeg]
    | cons f ys =>
      simp only [List.cons_append, List.head?_cons, Option.map_some, Option.some_or,
        List.getLast?_cons_cons]
      have : ∃ z, (f :: ys).getLast? = some z := ⟨_, List.getLast?_eq_some_getLast (by simp)⟩
      obtain ⟨z, hz⟩ := this
      simp only [hz, Option.map_some, Option.some_or]
      exact and_assoc.symm

/-- Overwriting the `next` field of the last item. -/
theorem DSeg.setNext {nodes : Nat → Option (Node A)} {s : List (Nat × A)} {y : Nat} {b : A}
    {p q : Option Nat} (q' : Option Nat) (hd : (ids s).Nodup) (hl : s.getLast? = some (y, b))
    (h : DSeg nodes p s q) :
    ∃ pr, nodes y = some ⟨b, pr, q⟩ ∧
      DSeg (fun k => if k = y then some ⟨b, pr, q'⟩ else nodes k) p s q' := by
  obtain ⟨s0, rfl⟩ : ∃ s0, s = s0 ++ [(y, b)] := List.getLast?_eq_some_iff.1 hl
  rw [DSeg.append] at h
  obtain ⟨h1, h2⟩ := h
  simp only [DSeg, List.head?_nil, Option.map_none, Option.none_or, and_true] at h2
  refine ⟨_, h2, ?_⟩
  rw [DSeg.append]
  simp only [ids_append, ids_cons, ids_nil, List.nodup_append] at hd
  refine ⟨DSeg.congr ?_ h1, ?_⟩
  · intro x hx
    have : x ≠ y := hd.2.2 x hx y (by simp)
    simp [this]
  · simp [DSeg]

/-- Overwriting the `prev` field of the first item. -/
theorem DSeg.setPrev {nodes : Nat → Option (Node A)} {s : List (Nat × A)} {y : Nat} {b : A}
    {p q : Option Nat} (p' : Option Nat) (hd : (ids s).Nodup) (hl : s.head? = some (y, b))
    (h : DSeg nodes p s q) :
    ∃ nx, nodes y = some ⟨b, p, nx⟩ ∧
      DSeg (fun k => if k = y then some ⟨b, p', nx⟩ else nodes k) p' s q := by
  cases s with
  | nil => simp at hl
  | cons e xs =>
    simp only [List.head?_cons, Option.some.injEq] at hl
    subst hl
    obtain ⟨h1, h2⟩ := h
    refine ⟨_, h1, ?_⟩
    refine ⟨by simp, DSeg.congr ?_ h2⟩
    intro x hx
    simp only [ids_cons, List.nodup_cons] at hd
    have : x ≠ y := fun h => hd.1 (h ▸ hx)
    simp [this]

/-- List head record for the sequence `s`. -/
def headOf (s : List (Nat × A)) : LHead :=
  ⟨s.head?.map Prod.fst, s.getLast?.map Prod.fst, s.length⟩

/-- The heap `h` holds exactly the lists `M` (list address, sequence of (item address, data)). -/
structure LInv (h : LHeap A) (M : List (Nat × List (Nat × A))) : Prop where
  keys : (M.map Prod.fst).Nodup
  nodup : (allIds M).Nodup
  lists : ∀ l s, (l, s) ∈ M → h.lists l = some (headOf s)
  segs : ∀ l s, (l, s) ∈ M → DSeg h.nodes none s none
  nolist : ∀ l, l ∉ M.map Prod.fst → h.lists l = none
  nonode : ∀ n, n ∉ allIds M → h.nodes n = none
  bnode : ∀ n ∈ allIds M, n < h.nextNode
  blist : ∀ l ∈ M.map Prod.fst, l < h.nextList
  icount : h.itemcount = (allIds M).length
  hcount : h.headcount = M.length

theorem LInv.empty : LInv (LHeap.empty : LHeap A) [] := by
  constructor <;> simp [LHeap.empty, allIds]

theorem LInv.perm {h : LHeap A} {M M'} (hp : M.Perm M') (hi : LInv h M) : LInv h M' := by
  have hk : (M.map Prod.fst).Perm (M'.map Prod.fst) := hp.map _
  have hids : (allIds M).Perm (allIds M') := hp.flatMap_right _
  refine ⟨hk.nodup_iff.1 hi.keys, hids.nodup_iff.1 hi.nodup, ?_, ?_, ?_, ?_, ?_, ?_, ?_, ?_⟩
  · intro l s hm; exact hi.lists l s (hp.mem_iff.2 hm)
  · intro l s hm; exact hi.segs l s (hp.mem_iff.2 hm)
  · intro l hm; exact hi.nolist l (fun h => hm (hk.mem_iff.1 h))
  · intro n hn; exact hi.nonode n (fun h => hn (hids.mem_iff.1 h))
  · intro n hn; exact hi.bnode n (hids.mem_iff.2 hn)
  · intro n hn; exact hi.blist n (hk.mem_iff.2 hn)
  · rw [hi.icount, hids.length_eq]
  · rw [hi.hcount, hp.length_eq]

theorem length_le_of_nodup_lt : ∀ (n : Nat) (l : List Nat), l.Nodup → (∀ x ∈ l, x < n) → l.length ≤ n := by
  intro n
  induction n with
  | zero =>
    intro l _ h
    cases l with
    | nil => simp
    | cons x xs => have := h x (by simp); omega
  | succ n ih =>
    intro l hd h
    have h1 := ih (l.erase n) (hd.erase n) (by
      intro x hx
      rw [hd.mem_erase_iff] at hx
      have := h x hx.2
      omega)
    have h2 : l.length ≤ (l.erase n).length + 1 := by
      by_cases hm : n ∈ l
      · rw [List.length_erase_of_mem hm]; omega
      · rw [List.erase_of_not_mem hm]; omega
    omega

theorem LInv.len_le {h : LHeap A} {M} (hi : LInv h M) {l s} (hm : (l, s) ∈ M) :
    s.length ≤ h.nextNode := by
  obtain ⟨M1, M2, rfl⟩ := List.append_of_mem hm
  have hp : (M1 ++ (l, s) :: M2).Perm ((l, s) :: (M1 ++ M2)) := List.perm_middle
  have hi' := hi.perm hp
  have h1 := hi'.nodup
  simp only [allIds_cons, List.nodup_append] at h1
  rw [← ids_length s]
  exact length_le_of_nodup_lt _ _ h1.1 (fun x hx => hi'.bnode x (by simp [hx]))

theorem LInv.getL {h : LHeap A} {M} (hi : LInv h M) {l s} (hm : (l, s) ∈ M) :
    h.getL l = .ok (headOf s) := by
  simp [LHeap.getL, hi.lists l s hm]

theorem LInv.icount_cons {h : LHeap A} {l s M} (hi : LInv h ((l, s) :: M)) :
    h.itemcount = s.length + (allIds M).length := by
  have := hi.icount
  simp only [allIds_cons, List.length_append, ids_length] at this
  omega

/-- Replacing the contents of one list. -/
theorem LInv.update {h h' : LHeap A} {l s s' M} (hi : LInv h ((l, s) :: M))
    (hn : ∀ n, n ∉ ids s → n ∉ ids s' → h'.nodes n = h.nodes n)
    (hx : ∀ n, n ∈ ids s → n ∉ ids s' → h'.nodes n = none)
    (hl : ∀ k, k ≠ l → h'.lists k = h.lists k)
    (hl' : h'.lists l = some (headOf s'))
    (hs : DSeg h'.nodes none s' none)
    (hd : (ids s').Nodup)
    (hnew : ∀ n ∈ ids s', n ∈ ids s ∨ h.nextNode ≤ n)
    (hb : ∀ n ∈ ids s', n < h'.nextNode)
    (hnn : h.nextNode ≤ h'.nextNode)
    (hnl : h'.nextList = h.nextList)
    (hic : h'.itemcount = h.itemcount - s.length + s'.length)
    (hhc : h'.headcount = h.headcount) : LInv h' ((l, s') :: M) := by
  have hk := hi.keys
  have hnd := hi.nodup
  simp only [List.map_cons, List.nodup_cons] at hk
  simp only [allIds_cons, List.nodup_append] at hnd
  have hdisj : ∀ n ∈ ids s', n ∉ allIds M := by
    intro n h1 h2
    rcases hnew n h1 with h3 | h3
    · exact hnd.2.2 n h3 n h2 rfl
    · have := hi.bnode n (by simp [h2]); omega
  have hother : ∀ n ∈ allIds M, h'.nodes n = h.nodes n := by
    intro n h2
    exact hn n (fun h3 => hnd.2.2 n h3 n h2 rfl) (fun h3 => hdisj n h3 h2)
  refine ⟨by simpa using hk, ?_, ?_, ?_, ?_, ?_, ?_, ?_, ?_, ?_⟩
  · simp only [allIds_cons, List.nodup_append]
    exact ⟨hd, hnd.2.1, fun a ha b hb he => hdisj a ha (he ▸ hb)⟩
  · intro k t hm
    simp only [List.mem_cons, Prod.mk.injEq] at hm
    rcases hm with ⟨rfl, rfl⟩ | hm
    · exact hl'
    · have : k ≠ l := by
        rintro rfl; exact hk.1 (List.mem_map.2 ⟨_, hm, rfl⟩)
      rw [hl k this]; exact hi.lists k t (by simp [hm])
  · intro k t hm
    simp only [List.mem_cons, Prod.mk.injEq] at hm
    rcases hm with ⟨rfl, rfl⟩ | hm
    · exact hs
    · refine DSeg.congr ?_ (hi.segs k t (by simp [hm]))
      intro x hx'
      exact hother x (List.mem_flatMap.2 ⟨(k, t), hm, hx'⟩)
  · intro k hm
    simp only [List.map_cons, List.mem_cons, not_or] at hm
    rw [hl k hm.1]; exact hi.nolist k (by simp [hm])
  · intro n hm
    simp only [allIds_cons, List.mem_append, not_or] at hm
    by_cases h1 : n ∈ ids s
    · exact hx n h1 hm.1
    · rw [hn n h1 hm.1]; exact hi.nonode n (by simp [h1, hm.2])
  · intro n hm
    simp only [allIds_cons, List.mem_append] at hm
    rcases hm with hm | hm
    · exact hb n hm
    · have := hi.bnode n (by simp [hm]); omega
  · intro k hm
    rw [hnl]
    simp only [List.map_cons, List.mem_cons] at hm
    exact hi.blist k (by rw [List.map_cons, List.mem_cons]; exact hm)
  · have := hi.icount_cons
    simp only [allIds_cons, List.length_append, ids_length]
    omega
  · rw [hhc, hi.hcount]; simp

/-! ## `AP_list_new` -/

theorem LInv.new {h : LHeap A} {M} (hi : LInv h M) (hc : h.headcount < 2147483647) :
    ∃ h', AP_list_new h = .ok (h', h.nextList) ∧ LInv h' ((h.nextList, []) :: M) := by
  have hh := hi.hcount
  refine ⟨{ (({ h with nextList := h.nextList + 1 }).setL h.nextList ⟨none, none, 0⟩) with
    headcount := h.headcount + 1 }, ?_, ?_⟩
  · unfold AP_list_new
    simp only [LHeap.setL]
    rw [ck32_ok (by omega) (by omega)]
    rfl
  · have hnk : h.nextList ∉ M.map Prod.fst := fun hm => by have := hi.blist _ hm; omega
    refine ⟨by simpa using ⟨fun x hx => hnk (List.mem_map.2 ⟨_, hx, rfl⟩), hi.keys⟩, by simpa using hi.nodup, ?_, ?_, ?_, ?_, ?_, ?_, ?_, ?_⟩
    · intro k t hm
      simp only [List.mem_cons, Prod.mk.injEq] at hm
      rcases hm with ⟨rfl, rfl⟩ | hm
      · simp [LHeap.setL, headOf]
      · have : k ≠ h.nextList := by
          rintro rfl; exact hnk (List.mem_map.2 ⟨_, hm, rfl⟩)
        simp only [LHeap.setL, this, if_false]; exact hi.lists k t hm
    · intro k t hm
      simp only [List.mem_cons, Prod.mk.injEq] at hm
      rcases hm with ⟨rfl, rfl⟩ | hm
      · trivial
      · exact hi.segs k t hm
    · intro k hm
      simp only [List.map_cons, List.mem_cons, not_or] at hm
      simp only [LHeap.setL, hm.1, if_false]; exact hi.nolist k hm.2
    · intro n hm
      simp only [allIds_cons, ids_nil, List.nil_append] at hm
      exact hi.nonode n hm
    · intro n hm
      simp only [allIds_cons, ids_nil, List.nil_append] at hm
      exact hi.bnode n hm
    · intro k hm
      simp only [List.map_cons, List.mem_cons] at hm
      simp only [LHeap.setL]
      rcases hm with rfl | hm
      · omega
      · have := hi.blist k hm; omega
    · simp only [allIds_cons, ids_nil, List.nil_append, LHeap.setL]; exact hi.icount
    · simp [hh]

/-! ## `AP_list_append`, `AP_list_prepend` -/

theorem LInv.fresh {h : LHeap A} {M} (hi : LInv h M) : h.nextNode ∉ allIds M := fun hm => by
  have := hi.bnode _ hm; omega

theorem headOf_snoc (s : List (Nat × A)) (e : Nat × A) :
    headOf (s ++ [e]) = ⟨(s.head?.map Prod.fst).or (some e.1), some e.1, s.length + 1⟩ := by
  simp only [headOf, List.getLast?_concat, List.length_append, Option.map_some]
  cases s <;> simp

theorem LInv.append {h : LHeap A} {l s M} (hi : LInv h ((l, s) :: M)) (a : A)
    (hc : h.itemcount < 2147483647) :
    ∃ h', AP_list_append h l a = .ok (h', h.nextNode) ∧ h'.nextNode = h.nextNode + 1 ∧
      LInv h' ((l, s ++ [(h.nextNode, a)]) :: M) := by
  have hg := hi.getL (l := l) (s := s) (by simp)
  have hic := hi.icount_cons
  have hf := hi.fresh
  simp only [allIds_cons, List.mem_append, not_or] at hf
  have hnd := hi.nodup
  simp only [allIds_cons, List.nodup_append] at hnd
  have hseg := hi.segs l s (by simp)
  have hids : (ids (s ++ [(h.nextNode, a)])).Nodup := by
    simp only [ids_append, ids_cons, ids_nil, List.nodup_append]
    refine ⟨hnd.1, by simp, ?_⟩
    intro x hx y hy he
    simp only [List.mem_singleton] at hy
    subst hy; subst he; exact hf.1 hx
  cases hlast : s.getLast? with
  | none =>
    have : s = [] := List.getLast?_eq_none_iff.1 hlast
    subst this
    refine ⟨({ h with itemcount := h.itemcount + 1, nextNode := h.nextNode + 1 }.setN h.nextNode
        ⟨a, none, none⟩).setL l ⟨some h.nextNode, some h.nextNode, 1⟩, ?_, rfl, ?_⟩
    · unfold AP_list_append
      simp only [hg, Res.ok_bind, headOf, AP_listitem_malloc, List.head?_nil, List.getLast?_nil,
        Option.map_none, List.length_nil]
      rw [ck32_ok (by omega) (by omega)]
      simp only [Res.pure_eq, Res.ok_bind]
      rw [ck32_ok (by omega) (by omega)]
      simp [Res.pure_eq, Res.ok_bind, LHeap.setN, LHeap.setL]
    · apply hi.update
      · intro n h1 h2; simp at h2; simp [LHeap.setN, LHeap.setL, h2]
      · intro n h1; simp at h1
      · intro k hk; simp [LHeap.setN, LHeap.setL, hk]
      · simp [LHeap.setN, LHeap.setL, headOf]
      · simp [LHeap.setN, LHeap.setL, DSeg]
      · exact hids
      · intro n hn; simp at hn; omega
      · intro n hn; simp at hn; simp [LHeap.setN, LHeap.setL]; omega
      · simp [LHeap.setN, LHeap.setL]
      · rfl
      · simp [LHeap.setN, LHeap.setL]
      · rfl
  | some e =>
    obtain ⟨y, b⟩ := e
    have hmem : (y, b) ∈ s := List.mem_of_getLast? hlast
    have hy : y ∈ ids s := List.mem_map.2 ⟨_, hmem, rfl⟩
    have hyne : y ≠ h.nextNode := fun h1 => hf.1 (h1 ▸ hy)
    have hsne : s ≠ [] := by rintro rfl; simp at hmem
    obtain ⟨pr, hn1, hseg2⟩ := hseg.setNext (some h.nextNode) hnd.1 hlast
    refine ⟨(({ h with itemcount := h.itemcount + 1, nextNode := h.nextNode + 1 }.setN h.nextNode
        ⟨a, some y, none⟩).setN y ⟨b, pr, some h.nextNode⟩).setL l
          ⟨s.head?.map Prod.fst, some h.nextNode, s.length + 1⟩, ?_, rfl, ?_⟩
    · unfold AP_list_append
      simp only [hg, Res.ok_bind, headOf, AP_listitem_malloc, hlast, Option.map_some]
      rw [ck32_ok (by omega) (by omega)]
      simp only [Res.pure_eq, Res.ok_bind, LHeap.getN, LHeap.setN, hyne, if_false, hn1]
      rw [ck32_ok (by omega) (by omega)]
      simp only [Res.ok_bind, LHeap.setL]
    · apply hi.update
      · intro n h1 h2
        simp only [ids_append, ids_cons, ids_nil, List.mem_append, not_or, List.mem_singleton] at h2
        have h3 : n ≠ y := fun h => h1 (h ▸ hy)
        simp [LHeap.setN, LHeap.setL, h2.2, h3]
      · intro n h1 h2; exfalso; apply h2; simp [h1]
      · intro k hk; simp [LHeap.setN, LHeap.setL, hk]
      · simp only [LHeap.setN, LHeap.setL, headOf_snoc, if_true]
        cases s with
        | nil => simp at hsne
        | cons f fs => simp
      · rw [DSeg.append]
        constructor
        · refine DSeg.congr ?_ hseg2
          intro x hx
          have : x ≠ h.nextNode := fun h1 => hf.1 (h1 ▸ hx)
          simp [LHeap.setN, LHeap.setL, this]
        · simp [DSeg, LHeap.setN, LHeap.setL, hlast, Ne.symm hyne]
      · exact hids
      · intro n hn; simp at hn; rcases hn with hn | hn
        · exact Or.inl hn
        · right; omega
      · intro n hn; simp at hn; simp only [LHeap.setN, LHeap.setL]
        rcases hn with hn | hn
        · have := hi.bnode n (by simp [hn]); omega
        · omega
      · simp [LHeap.setN, LHeap.setL]
      · rfl
      · simp [LHeap.setN, LHeap.setL]; omega
      · rfl

theorem LInv.prepend {h : LHeap A} {l s M} (hi : LInv h ((l, s) :: M)) (a : A)
    (hc : h.itemcount < 2147483647) :
    ∃ h', AP_list_prepend h l a = .ok (h', h.nextNode) ∧ h'.nextNode = h.nextNode + 1 ∧
      LInv h' ((l, (h.nextNode, a) :: s) :: M) := by
  have hg := hi.getL (l := l) (s := s) (by simp)
  have hic := hi.icount_cons
  have hf := hi.fresh
  simp only [allIds_cons, List.mem_append, not_or] at hf
  have hnd := hi.nodup
  simp only [allIds_cons, List.nodup_append] at hnd
  have hseg := hi.segs l s (by simp)
  have hids : (ids ((h.nextNode, a) :: s)).Nodup := by
    simp only [ids_cons, List.nodup_cons]
    exact ⟨hf.1, hnd.1⟩
  cases s with
  | nil =>
    refine ⟨({ h with itemcount := h.itemcount + 1, nextNode := h.nextNode + 1 }.setN h.nextNode
        ⟨a, none, none⟩).setL l ⟨some h.nextNode, some h.nextNode, 1⟩, ?_, rfl, ?_⟩
    · unfold AP_list_prepend
      simp only [hg, Res.ok_bind, headOf, AP_listitem_malloc, List.head?_nil, List.getLast?_nil,
        Option.map_none, List.length_nil]
      rw [ck32_ok (by omega) (by omega)]
      simp only [Res.pure_eq, Res.ok_bind]
      rw [ck32_ok (by omega) (by omega)]
      simp [Res.pure_eq, Res.ok_bind, LHeap.setN, LHeap.setL]
    · apply hi.update
      · intro n h1 h2; simp at h2; simp [LHeap.setN, LHeap.setL, h2]
      · intro n h1; simp at h1
      · intro k hk; simp [LHeap.setN, LHeap.setL, hk]
      · simp [LHeap.setN, LHeap.setL, headOf]
      · simp [LHeap.setN, LHeap.setL, DSeg]
      · exact hids
      · intro n hn; simp at hn; omega
      · intro n hn; simp at hn; simp [LHeap.setN, LHeap.setL]; omega
      · simp [LHeap.setN, LHeap.setL]
      · rfl
      · simp [LHeap.setN, LHeap.setL]
      · rfl
  | cons e s =>
    obtain ⟨y, b⟩ := e
    have hy : y ∈ ids ((y, b) :: s) := by simp
    have hyne : y ≠ h.nextNode := fun h1 => hf.1 (h1 ▸ hy)
    obtain ⟨nx, hn1, hseg2⟩ := hseg.setPrev (some h.nextNode) hnd.1 rfl
    have hl : ∃ z, ((y, b) :: s).getLast? = some z := ⟨_, List.getLast?_eq_some_getLast (by simp)⟩
    obtain ⟨z, hz⟩ := hl
    have hlen : (((y, b) :: s).length : Int) = (s.length : Int) + 1 := by simp
    refine ⟨(({ h with itemcount := h.itemcount + 1, nextNode := h.nextNode + 1 }.setN h.nextNode
        ⟨a, none, some y⟩).setN y ⟨b, some h.nextNode, nx⟩).setL l
          ⟨some h.nextNode, some z.1, (s.length : Int) + 1 + 1⟩, ?_, rfl, ?_⟩
    · unfold AP_list_prepend
      simp only [hg, Res.ok_bind, headOf, AP_listitem_malloc, hz, Option.map_some, List.head?_cons]
      rw [ck32_ok (by omega) (by omega)]
      simp only [Res.pure_eq, Res.ok_bind, LHeap.getN, LHeap.setN, hyne, if_false, hn1]
      rw [ck32_ok (by omega) (by omega)]
      simp only [Res.ok_bind, hlen, LHeap.setL]
    · apply hi.update
      · intro n h1 h2
        simp only [ids_cons, List.mem_cons, not_or] at h2
        simp [LHeap.setN, LHeap.setL, h2.1, h2.2.1]
      · intro n h1 h2; exfalso; apply h2; simp at h1; simp [h1]
      · intro k hk; simp [LHeap.setN, LHeap.setL, hk]
      · simp only [LHeap.setN, LHeap.setL, if_true]
        simp [headOf, hz, List.getLast?_cons_cons]
      · refine ⟨?_, DSeg.congr ?_ hseg2⟩
        · simp [LHeap.setN, LHeap.setL, Ne.symm hyne]
        · intro x hx
          have : x ≠ h.nextNode := fun h1 => hf.1 (h1 ▸ hx)
          simp [LHeap.setN, LHeap.setL, this]
      · exact hids
      · intro n hn; simp only [ids_cons, List.mem_cons] at hn; rcases hn with hn | hn
        · right; omega
        · exact Or.inl (by simpa using hn)
      · intro n hn
        simp only [LHeap.setN, LHeap.setL]
        simp only [ids_cons, List.mem_cons] at hn; rcases hn with hn | hn
        · omega
        · have := hi.bnode n (by rw [allIds_cons, List.mem_append]; exact Or.inl (by simpa using hn)); omega
      · simp [LHeap.setN, LHeap.setL]
      · rfl
      · simp [LHeap.setN, LHeap.setL]; omega
      · rfl

/-! ## `AP_list_delete_item` -/

theorem LInv.delete_item {h : LHeap A} {l s1 s2 x a M}
    (hi : LInv h ((l, s1 ++ (x, a) :: s2) :: M)) (hsz : h.itemcount ≤ 2147483647) :
    ∃ h', AP_list_delete_item h l x = .ok h' ∧ h'.nextNode = h.nextNode ∧
      LInv h' ((l, s1 ++ s2) :: M) := by
  have hg := hi.getL (l := l) (s := s1 ++ (x, a) :: s2) (by simp)
  have hic := hi.icount_cons
  have hnd := hi.nodup
  simp only [allIds_cons, List.nodup_append] at hnd
  have hids := hnd.1
  simp only [ids_append, ids_cons, List.nodup_append, List.nodup_cons, List.mem_cons] at hids
  obtain ⟨hd1, ⟨hx2, hd2⟩, hdis⟩ := hids
  have hx1 : x ∉ ids s1 := fun h1 => hdis x h1 x (Or.inl rfl) rfl
  have hd12 : ∀ y ∈ ids s1, y ∉ ids s2 := fun y h1 h2 => hdis y h1 y (Or.inr h2) rfl
  have hseg := hi.segs l _ (List.mem_cons_self ..)
  rw [DSeg.append] at hseg
  obtain ⟨hsg1, hnx, hsg2⟩ := hseg
  simp only [List.head?_cons, Option.map_some, Option.some_or, Option.or_none] at hsg1 hnx
  have hlen : ((s1 ++ (x, a) :: s2).length : Int) = s1.length + s2.length + 1 := by
    simp only [List.length_append, List.length_cons]; omega
  -- state after fixing the predecessor
  obtain ⟨n1, hn1x, hn1, hP⟩ : ∃ n1 : Nat → Option (Node A),
      n1 x = some ⟨a, s1.getLast?.map Prod.fst, s2.head?.map Prod.fst⟩ ∧
      (DSeg n1 none s1 (s2.head?.map Prod.fst) ∧ DSeg n1 (some x) s2 none ∧
        ∀ k, k ∉ ids s1 → n1 k = h.nodes k) ∧
      ((if (headOf (s1 ++ (x, a) :: s2)).head = some x
        then pure (h, { headOf (s1 ++ (x, a) :: s2) with head := s2.head?.map Prod.fst })
        else do
          let (p, xp) ← h.getNp (s1.getLast?.map Prod.fst)
          pure (h.setN p { xp with next := s2.head?.map Prod.fst }, headOf (s1 ++ (x, a) :: s2)) :
          Res (LHeap A × LHead)) =
        .ok ({ h with nodes := n1 }, ⟨(s1 ++ s2).head?.map Prod.fst,
          (headOf (s1 ++ (x, a) :: s2)).tail, (headOf (s1 ++ (x, a) :: s2)).count⟩)) := by
    cases hlast : s1.getLast? with
    | none =>
      have : s1 = [] := List.getLast?_eq_none_iff.1 hlast
      subst this
      refine ⟨h.nodes, by simpa using hnx, ⟨trivial, hsg2, fun _ _ => rfl⟩, ?_⟩
      simp [headOf]
    | some e =>
      obtain ⟨y, b⟩ := e
      have hmem : (y, b) ∈ s1 := List.mem_of_getLast? hlast
      have hy : y ∈ ids s1 := List.mem_map.2 ⟨_, hmem, rfl⟩
      obtain ⟨pr, hny, hsg1'⟩ := hsg1.setNext (s2.head?.map Prod.fst) hd1 hlast
      have hxy : x ≠ y := fun h1 => hx1 (h1 ▸ hy)
      refine ⟨fun k => if k = y then some ⟨b, pr, s2.head?.map Prod.fst⟩ else h.nodes k, ?_,
        ⟨hsg1', ?_, ?_⟩, ?_⟩
      · simp [hxy, hnx, hlast]
      · refine DSeg.congr ?_ hsg2
        intro z hz
        have : z ≠ y := fun h1 => hd12 y hy (h1 ▸ hz)
        simp [this]
      · intro k hk
        have : k ≠ y := fun h1 => hk (h1 ▸ hy)
        simp [this]
      · have hh : (headOf (s1 ++ (x, a) :: s2)).head ≠ some x := by
          cases s1 with
          | nil => simp at hmem
          | cons f fs =>
            simp only [headOf, List.cons_append, List.head?_cons, Option.map_some, ne_eq,
              Option.some.injEq]
            intro h1; apply hx1; simp [h1]
        have hh2 : (s1 ++ s2).head?.map Prod.fst = (headOf (s1 ++ (x, a) :: s2)).head := by
          cases s1 with
          | nil => simp at hmem
          | cons f fs => simp [headOf]
        rw [if_neg hh]
        simp only [Option.map_some, LHeap.getNp, LHeap.getN, hny, Res.pure_eq, Res.ok_bind,
          LHeap.setN, hh2]
  -- state after fixing the successor
  obtain ⟨n2, hn2x, hn2, hQ⟩ : ∃ n2 : Nat → Option (Node A),
      (n2 x).isSome ∧
      (DSeg n2 none (s1 ++ s2) none ∧ ∀ k, k ∉ ids s1 → k ∉ ids s2 → n2 k = h.nodes k) ∧
      ((if (headOf (s1 ++ (x, a) :: s2)).tail = some x
        then pure ({ h with nodes := n1 }, (⟨(s1 ++ s2).head?.map Prod.fst,
          s1.getLast?.map Prod.fst, (headOf (s1 ++ (x, a) :: s2)).count⟩ : LHead))
        else do
          let (q, xq) ← ({ h with nodes := n1 } : LHeap A).getNp (s2.head?.map Prod.fst)
          pure (({ h with nodes := n1 } : LHeap A).setN q { xq with prev := s1.getLast?.map Prod.fst },
            (⟨(s1 ++ s2).head?.map Prod.fst, (headOf (s1 ++ (x, a) :: s2)).tail,
              (headOf (s1 ++ (x, a) :: s2)).count⟩ : LHead)) :
          Res (LHeap A × LHead)) =
        .ok ({ h with nodes := n2 }, ⟨(s1 ++ s2).head?.map Prod.fst,
          (s1 ++ s2).getLast?.map Prod.fst, (headOf (s1 ++ (x, a) :: s2)).count⟩)) := by
    cases hhead : s2.head? with
    | none =>
      have : s2 = [] := List.head?_eq_none_iff.1 hhead
      subst this
      refine ⟨n1, by simp [hn1x], ⟨by simpa using hn1.1, fun k h1 _ => hn1.2.2 k h1⟩, ?_⟩
      simp [headOf]
    | some e =>
      obtain ⟨y, b⟩ := e
      have hmem : (y, b) ∈ s2 := List.mem_of_head? hhead
      have hy : y ∈ ids s2 := List.mem_map.2 ⟨_, hmem, rfl⟩
      obtain ⟨nx, hny, hsg2'⟩ := hn1.2.1.setPrev (s1.getLast?.map Prod.fst) hd2 hhead
      have hxy : x ≠ y := fun h1 => hx2 (h1 ▸ hy)
      have hlast2 : ∃ z, s2.getLast? = some z ∧ z ∈ s2 := by
        have hne : s2 ≠ [] := by rintro rfl; simp at hmem
        exact ⟨_, List.getLast?_eq_some_getLast hne, List.getLast_mem hne⟩
      obtain ⟨z, hz, hzm⟩ := hlast2
      refine ⟨fun k => if k = y then some ⟨b, s1.getLast?.map Prod.fst, nx⟩ else n1 k, ?_,
        ⟨?_, ?_⟩, ?_⟩
      · simp [hxy, hn1x]
      · rw [DSeg.append]
        refine ⟨DSeg.congr ?_ (by simpa [hhead] using hn1.1), by simpa using hsg2'⟩
        intro w hw
        have : w ≠ y := fun h1 => hd12 w hw (h1 ▸ hy)
        simp [this]
      · intro k h1 h2
        have : k ≠ y := fun h3 => h2 (h3 ▸ hy)
        simp [this, hn1.2.2 k h1]
      · have ht : (headOf (s1 ++ (x, a) :: s2)).tail = some z.1 := by
          simp [headOf, List.getLast?_append, List.getLast?_cons, hz]
        have ht' : (s1 ++ s2).getLast?.map Prod.fst = some z.1 := by
          simp [List.getLast?_append, hz]
        have hne : ¬ (some z.1 = some x) := by
          simp only [Option.some.injEq]
          intro h1; apply hx2; rw [← h1]; exact List.mem_map.2 ⟨_, hzm, rfl⟩
        rw [ht, ht', if_neg hne]
        simp only [Option.map_some, LHeap.getNp, LHeap.getN, hny, Res.pure_eq, Res.ok_bind,
          LHeap.setN]
  refine ⟨(({ h with nodes := n2, itemcount := h.itemcount - 1 } : LHeap A).dropN x).setL l
      (headOf (s1 ++ s2)), ?_, rfl, ?_⟩
  · unfold AP_list_delete_item
    have hgx : h.getN x = .ok ⟨a, s1.getLast?.map Prod.fst, s2.head?.map Prod.fst⟩ := by
      simp [LHeap.getN, hnx]
    have hgx1 : ({ h with nodes := n1 } : LHeap A).getN x =
        .ok ⟨a, s1.getLast?.map Prod.fst, s2.head?.map Prod.fst⟩ := by
      simp [LHeap.getN, hn1x]
    rw [hg, Res.ok_bind, hgx, Res.ok_bind]
    simp only []
    rw [hP, Res.ok_bind]
    simp only []
    rw [hgx1, Res.ok_bind]
    simp only []
    rw [hQ, Res.ok_bind]
    simp only [AP_listitem_free]
    obtain ⟨nd, hnd2⟩ := Option.isSome_iff_exists.1 hn2x
    have hgx2 : ({ h with nodes := n2 } : LHeap A).getN x = .ok nd := by simp [LHeap.getN, hnd2]
    rw [hgx2, Res.ok_bind]
    simp only [LHeap.dropN]
    rw [ck32_ok (by omega) (by omega)]
    simp only [Res.pure_eq, Res.ok_bind, headOf]
    rw [ck32_ok (by omega) (by omega)]
    simp only [Res.ok_bind, LHeap.setL]
    have hl2 : ((s1 ++ (x, a) :: s2).length : Int) - 1 = ((s1 ++ s2).length : Nat) := by
      simp only [List.length_append, List.length_cons]; omega
    rw [hl2]
  · apply hi.update
    · intro n h1 h2
      simp only [ids_append, ids_cons, List.mem_append, List.mem_cons, not_or] at h1
      simp [LHeap.setL, LHeap.dropN, h1.2.1, hn2.2 n h1.1 h1.2.2]
    · intro n h1 h2
      simp only [ids_append, ids_cons, List.mem_append, List.mem_cons, not_or] at h1 h2
      have : n = x := by
        rcases h1 with h1 | h1 | h1
        · exact absurd h1 h2.1
        · exact h1
        · exact absurd h1 h2.2
      simp [LHeap.setL, LHeap.dropN, this]
    · intro k hk; simp [LHeap.setL, LHeap.dropN, hk]
    · simp [LHeap.setL]
    · refine DSeg.congr ?_ hn2.1
      intro z hz
      have : z ≠ x := by
        rintro rfl
        simp only [ids_append, List.mem_append] at hz
        rcases hz with hz | hz
        · exact hx1 hz
        · exact hx2 hz
      simp [LHeap.setL, LHeap.dropN, this]
    · simp only [ids_append, List.nodup_append]
      exact ⟨hd1, hd2, fun p hp q hq he => hd12 p hp (he ▸ hq)⟩
    · intro n hn; left
      simp only [ids_append, ids_cons, List.mem_append, List.mem_cons] at hn ⊢
      rcases hn with hn | hn
      · exact Or.inl hn
      · exact Or.inr (Or.inr hn)
    · intro n hn
      have : n ∈ ids (s1 ++ (x, a) :: s2) := by
        simp only [ids_append, ids_cons, List.mem_append, List.mem_cons] at hn ⊢
        rcases hn with hn | hn
        · exact Or.inl hn
        · exact Or.inr (Or.inr hn)
      exact hi.bnode n (by rw [allIds_cons, List.mem_append]; exact Or.inl this)
    · exact Nat.le_refl _
    · rfl
    · simp only [LHeap.setL, LHeap.dropN, List.length_append, List.length_cons]; omega
    · rfl

/-! ## Searches and traversals -/

theorem searchLoop_spec {h : LHeap A} {f : A → Res Bool} {g : A → Bool} :
    ∀ (s : List (Nat × A)) (fuel : Nat) (p : Option Nat), s.length ≤ fuel →
      DSeg h.nodes p s none → (∀ e ∈ s, f e.2 = .ok (g e.2)) →
      searchLoop f fuel h (s.head?.map Prod.fst) = .ok ((s.find? (fun e => g e.2)).map Prod.fst) := by
  intro s
  induction s with
  | nil => intro fuel p _ _ _; cases fuel <;> simp [searchLoop]
  | cons e s ih =>
    intro fuel p hf hs hg
    obtain ⟨x, a⟩ := e
    obtain ⟨h1, h2⟩ := hs
    cases fuel with
    | zero => simp at hf
    | succ fuel =>
      simp only [List.head?_cons, Option.map_some, searchLoop, LHeap.getN, h1, Res.ok_bind]
      rw [hg (x, a) (by simp)]
      simp only [Res.ok_bind, Option.or_none]
      cases hga : g a with
      | true => simp [hga]
      | false =>
        simp only [Bool.false_eq_true, if_false]
        rw [ih fuel _ (by simp at hf; omega) h2 (fun e he => hg e (by simp [he]))]
        simp [hga]

theorem LInv.search_func {h : LHeap A} {M l s} (hi : LInv h M) (hm : (l, s) ∈ M)
    {f : A → Res Bool} {g : A → Bool} (hf : ∀ e ∈ s, f e.2 = .ok (g e.2)) :
    AP_list_search_func h l f = .ok ((s.find? (fun e => g e.2)).map Prod.fst) := by
  unfold AP_list_search_func
  rw [hi.getL hm, Res.ok_bind]
  have := hi.len_le hm
  exact searchLoop_spec s _ none (by omega) (hi.segs l s hm) hf

theorem LInv.search [DecidableEq A] {h : LHeap A} {M l s} (hi : LInv h M) (hm : (l, s) ∈ M) (d : A) :
    AP_list_search h l d = .ok ((s.find? (fun e => decide (e.2 = d))).map Prod.fst) := by
  unfold AP_list_search
  rw [hi.getL hm, Res.ok_bind]
  have := hi.len_le hm
  exact searchLoop_spec (g := fun x => decide (x = d)) s _ none (by omega) (hi.segs l s hm)
    (fun e _ => rfl)

theorem printLoop_spec {h : LHeap A} :
    ∀ (s : List (Nat × A)) (fuel : Nat) (p : Option Nat), s.length ≤ fuel →
      DSeg h.nodes p s none →
      printLoop fuel h (s.head?.map Prod.fst) = .ok (s.map Prod.snd) := by
  intro s
  induction s with
  | nil => intro fuel p _ _; cases fuel <;> simp [printLoop]
  | cons e s ih =>
    intro fuel p hf hs
    obtain ⟨x, a⟩ := e
    obtain ⟨h1, h2⟩ := hs
    cases fuel with
    | zero => simp at hf
    | succ fuel =>
      simp only [List.head?_cons, Option.map_some, printLoop, LHeap.getN, h1, Res.ok_bind,
        Option.or_none]
      rw [ih fuel _ (by simp at hf; omega) h2]
      simp

theorem revprintLoop_spec {h : LHeap A} :
    ∀ (n : Nat) (s : List (Nat × A)) (fuel : Nat) (q : Option Nat), s.length = n →
      s.length ≤ fuel → DSeg h.nodes none s q →
      revprintLoop fuel h (s.getLast?.map Prod.fst) = .ok (s.map Prod.snd).reverse := by
  intro n
  induction n with
  | zero =>
    intro s fuel q hn _ _
    have : s = [] := List.length_eq_zero_iff.1 hn
    subst this
    cases fuel <;> simp [revprintLoop]
  | succ n ih =>
    intro s fuel q hn hf hs
    have hne : s ≠ [] := by rintro rfl; simp at hn
    obtain ⟨s0, e, rfl⟩ : ∃ s0 e, s = s0 ++ [e] := ⟨s.dropLast, s.getLast hne, (List.dropLast_concat_getLast hne).symm⟩
    obtain ⟨x, a⟩ := e
    rw [DSeg.append] at hs
    obtain ⟨h1, h2, _⟩ := hs
    cases fuel with
    | zero => simp at hf
    | succ fuel =>
      simp only [List.getLast?_concat, Option.map_some, revprintLoop, LHeap.getN, h2,
        Res.ok_bind, Option.or_none]
      rw [ih s0 fuel _ (by simp at hn; omega) (by simp at hf; omega) h1]
      simp

theorem LInv.print {h : LHeap A} {M l s} (hi : LInv h M) (hm : (l, s) ∈ M) :
    AP_list_print h l = .ok (s.length, s.map Prod.snd) := by
  unfold AP_list_print
  rw [hi.getL hm, Res.ok_bind]
  have := hi.len_le hm
  have h2 := printLoop_spec s (h.nextNode + 1) none (by omega) (hi.segs l s hm)
  simp only [headOf, h2, Res.ok_bind, Res.pure_eq]

theorem LInv.revprint {h : LHeap A} {M l s} (hi : LInv h M) (hm : (l, s) ∈ M) :
    AP_list_revprint h l = .ok (s.length, (s.map Prod.snd).reverse) := by
  unfold AP_list_revprint
  rw [hi.getL hm, Res.ok_bind]
  have := hi.len_le hm
  have h2 := revprintLoop_spec _ s (h.nextNode + 1) none rfl (by omega) (hi.segs l s hm)
  simp only [headOf, h2, Res.ok_bind, Res.pure_eq]

theorem LInv.size {h : LHeap A} {M l s} (hi : LInv h M) (hm : (l, s) ∈ M) :
    AP_list_size h l = .ok s.length := by
  unfold AP_list_size
  rw [hi.getL hm, Res.ok_bind]; rfl

theorem LInv.getN {h : LHeap A} {M l s1 x a s2} (hi : LInv h M) (hm : (l, s1 ++ (x, a) :: s2) ∈ M) :
    h.getN x = .ok ⟨a, s1.getLast?.map Prod.fst, s2.head?.map Prod.fst⟩ := by
  have hs := hi.segs l _ hm
  rw [DSeg.append] at hs
  obtain ⟨_, h1, _⟩ := hs
  simp only [Option.or_none] at h1
  simp [LHeap.getN, h1]

theorem LInv.data {h : LHeap A} {M l s x a} (hi : LInv h M) (hm : (l, s) ∈ M) (hx : (x, a) ∈ s) :
    AP_listitem_data h x = .ok a := by
  obtain ⟨s1, s2, rfl⟩ := List.append_of_mem hx
  unfold AP_listitem_data
  rw [hi.getN hm]; rfl

/-- First `AP_list_next` of a traversal. -/
theorem LInv.next_first {h : LHeap A} {M l s} (hi : LInv h M) (hm : (l, s) ∈ M) :
    AP_list_next h l none = .ok s.head? := by
  unfold AP_list_next
  simp only [hi.getL hm, Res.ok_bind, headOf, Res.pure_eq]
  cases s with
  | nil => rfl
  | cons e s =>
    obtain ⟨x, a⟩ := e
    have := hi.getN (s1 := []) hm
    simp only [List.head?_cons, Option.map_some, this, Res.ok_bind]

/-- Later `AP_list_next` of a traversal. -/
theorem LInv.next_step {h : LHeap A} {M l s1 x a s2} (hi : LInv h M)
    (hm : (l, s1 ++ (x, a) :: s2) ∈ M) :
    AP_list_next h l (some x) = .ok s2.head? := by
  unfold AP_list_next
  simp only [hi.getN hm, Res.ok_bind, Res.pure_eq]
  cases s2 with
  | nil => rfl
  | cons e s =>
    obtain ⟨y, b⟩ := e
    have hm2 : (l, (s1 ++ [(x, a)]) ++ (y, b) :: s) ∈ M := by simpa using hm
    have := hi.getN hm2
    simp only [List.head?_cons, Option.map_some, this, Res.ok_bind]

/-! ## `AP_list_free` -/

theorem freeLoop_spec : ∀ (s : List (Nat × A)) (fuel : Nat) (h : LHeap A) (p : Option Nat) (c : Int),
    s.length ≤ fuel → (ids s).Nodup → DSeg h.nodes p s none →
    (s.length : Int) ≤ h.itemcount → h.itemcount ≤ 2147483647 → 0 ≤ c → c + s.length ≤ 2147483647 →
    freeLoop fuel h (s.head?.map Prod.fst) c =
      .ok ({ h with nodes := fun k => if k ∈ ids s then none else h.nodes k,
                    itemcount := h.itemcount - s.length }, c + s.length) := by
  intro s
  induction s with
  | nil =>
    intro fuel h p c _ _ _ _ _ _ _
    cases fuel <;> simp [freeLoop]
  | cons e s ih =>
    intro fuel h p c hf hd hs h1 h2 h3 h4
    obtain ⟨x, a⟩ := e
    obtain ⟨h5, h6⟩ := hs
    cases fuel with
    | zero => simp at hf
    | succ fuel =>
      simp only [ids_cons, List.nodup_cons] at hd
      simp only [List.length_cons, Int.natCast_add, Int.natCast_one] at h1 h4 ⊢
      simp only [List.head?_cons, Option.map_some, freeLoop, AP_listitem_free, LHeap.getN, h5, Res.ok_bind,
        Option.or_none, LHeap.dropN]
      rw [ck32_ok (by omega) (by omega)]
      simp only [Res.pure_eq, Res.ok_bind]
      rw [ck32_ok (by omega) (by omega)]
      simp only [Res.ok_bind]
      rw [ih fuel _ (some x) (c + 1) (by simp at hf; omega) hd.2]
      · simp only [Res.ok.injEq, Prod.mk.injEq, LHeap.mk.injEq, ids_cons, List.mem_cons, and_true,
          true_and]
        refine ⟨⟨?_, by omega⟩, by omega⟩
        funext k
        by_cases hk : k = x
        · simp [hk]
        · simp [hk]
      · refine DSeg.congr ?_ h6
        intro y hy
        have : y ≠ x := fun h => hd.1 (h ▸ hy)
        simp [this]
      · simp only; omega
      · simp only; omega
      · omega
      · omega

theorem LInv.free {h : LHeap A} {l s M} (hi : LInv h ((l, s) :: M))
    (hsz : h.itemcount ≤ 2147483647) (hhz : h.headcount ≤ 2147483647) :
    ∃ h', AP_list_free h l = .ok h' ∧ LInv h' M := by
  have hg := hi.getL (l := l) (s := s) (by simp)
  have hic := hi.icount_cons
  have hhc := hi.hcount
  simp only [List.length_cons] at hhc
  have hnd := hi.nodup
  simp only [allIds_cons, List.nodup_append] at hnd
  have hk := hi.keys
  simp only [List.map_cons, List.nodup_cons] at hk
  have hlen := hi.len_le (l := l) (s := s) (by simp)
  refine ⟨({ h with nodes := fun k => if k ∈ ids s then none else h.nodes k,
                    itemcount := h.itemcount - s.length,
                    headcount := h.headcount - 1 } : LHeap A).dropL l, ?_, ?_⟩
  · unfold AP_list_free
    rw [hg, Res.ok_bind]
    have := freeLoop_spec s (h.nextNode + 1) h none 0 (by omega) hnd.1
      (hi.segs l s (by simp)) (by omega) hsz (by omega) (by omega)
    simp only [headOf, this, Res.ok_bind]
    simp only [Int.zero_add, ne_eq, not_true, if_false]
    rw [ck32_ok (by omega) (by omega)]
    simp only [Res.ok_bind, Res.pure_eq]
  · have hother : ∀ n ∈ allIds M, n ∉ ids s := fun n h1 h2 => hnd.2.2 n h2 n h1 rfl
    have hlne : ∀ k t, (k, t) ∈ M → k ≠ l := by
      rintro k t hm rfl; exact hk.1 (List.mem_map.2 ⟨_, hm, rfl⟩)
    refine ⟨hk.2, hnd.2.1, ?_, ?_, ?_, ?_, ?_, ?_, ?_, ?_⟩
    · intro k t hm
      have h1 := hlne k t hm
      simp only [LHeap.dropL, h1, if_false]; exact hi.lists k t (by simp [hm])
    · intro k t hm
      refine DSeg.congr ?_ (hi.segs k t (by simp [hm]))
      intro x hx
      have : x ∉ ids s := hother x (List.mem_flatMap.2 ⟨(k, t), hm, hx⟩)
      simp [LHeap.dropL, this]
    · intro k hm
      simp only [LHeap.dropL]
      split
      · rfl
      · next h1 => exact hi.nolist k (by rw [List.map_cons, List.mem_cons]; rintro (h2 | h2); exact h1 h2; exact hm h2)
    · intro n hn
      simp only [LHeap.dropL]
      split
      · rfl
      · next h1 => exact hi.nonode n (by simp [h1, hn])
    · intro n hn; exact hi.bnode n (by simp [hn])
    · intro k hm; exact hi.blist k (by rw [List.map_cons, List.mem_cons]; exact Or.inr hm)
    · simp only [LHeap.dropL]; omega
    · simp only [LHeap.dropL]; omega

/-! ## `AP_list_duplicate` -/

theorem dupLoop_spec (g : Option Nat) (newl : Nat) :
    ∀ (s : List (Nat × A)) (fuel : Nat) (h : LHeap A) (p : Option Nat) (t : List (Nat × A)) (NL : LHead),
    s.length ≤ fuel → DSeg h.nodes p s none →
    (∀ n ∈ ids s, n < h.nextNode) → (∀ n ∈ ids t, n < h.nextNode) →
    (∀ n ∈ ids s, n ∉ ids t) → (ids t).Nodup →
    DSeg h.nodes none t g → h.lists newl = some NL → NL.head = t.head?.map Prod.fst →
    0 ≤ h.itemcount → h.itemcount + s.length ≤ 2147483647 →
    ∃ h' NL' t', dupLoop g newl fuel h (s.head?.map Prod.fst) (t.getLast?.map Prod.fst) =
        .ok (h', (t ++ t').getLast?.map Prod.fst) ∧
      t'.map Prod.snd = s.map Prod.snd ∧
      (∀ n ∈ ids t', h.nextNode ≤ n ∧ n < h'.nextNode) ∧ h.nextNode ≤ h'.nextNode ∧
      (ids (t ++ t')).Nodup ∧
      DSeg h'.nodes none (t ++ t') g ∧
      (∀ n, n ∉ ids (t ++ t') → h'.nodes n = h.nodes n) ∧
      (∀ k, k ≠ newl → h'.lists k = h.lists k) ∧
      h'.lists newl = some NL' ∧ NL'.head = (t ++ t').head?.map Prod.fst ∧
      h'.itemcount = h.itemcount + s.length ∧ h'.headcount = h.headcount ∧
      h'.nextList = h.nextList := by
  intro s
  induction s with
  | nil =>
    intro fuel h p t NL _ _ _ _ _ ht1 ht2 hl1 hl2 _ _
    refine ⟨h, NL, [], ?_, ?_⟩
    · cases fuel <;> simp [dupLoop]
    · simp [ht1, ht2, hl1, hl2]
  | cons e s ih =>
    intro fuel h p t NL hf hs hb1 hb2 hdis ht1 ht2 hl1 hl2 hc1 hc2
    obtain ⟨x, a⟩ := e
    obtain ⟨h5, h6⟩ := hs
    cases fuel with
    | zero => simp at hf
    | succ fuel =>
      simp only [List.length_cons, Int.natCast_add, Int.natCast_one] at hc2
      have hxb := hb1 x (by simp)
      have hxn : x ≠ h.nextNode := by omega
      have hnt : h.nextNode ∉ ids t := fun h1 => by have := hb2 _ h1; omega
      have hxt : x ∉ ids t := hdis x (by simp)
      -- one iteration
      have step : ∃ h1 NL1, (do
            let (h, new) ← AP_listitem_malloc h ⟨a, t.getLast?.map Prod.fst, g⟩
            let h ← dupLink h newl (t.getLast?.map Prod.fst) new
            return (h, new) : Res (LHeap A × Nat)) = .ok (h1, h.nextNode) ∧
          (∀ n, n ∉ ids t → n ≠ h.nextNode → h1.nodes n = h.nodes n) ∧
          DSeg h1.nodes none (t ++ [(h.nextNode, a)]) g ∧
          (∀ k, k ≠ newl → h1.lists k = h.lists k) ∧
          h1.lists newl = some NL1 ∧ NL1.head = (t ++ [(h.nextNode, a)]).head?.map Prod.fst ∧
          h1.itemcount = h.itemcount + 1 ∧ h1.headcount = h.headcount ∧
          h1.nextList = h.nextList ∧ h1.nextNode = h.nextNode + 1 := by
        cases hlast : t.getLast? with
        | none =>
          have : t = [] := List.getLast?_eq_none_iff.1 hlast
          subst this
          refine ⟨({ h with itemcount := h.itemcount + 1, nextNode := h.nextNode + 1 }.setN h.nextNode
            ⟨a, none, g⟩).setL newl { NL with head := some h.nextNode }, { NL with head := some h.nextNode }, ?_, ?_⟩
          · simp only [AP_listitem_malloc, Option.map_none, dupLink]
            rw [ck32_ok (by omega) (by omega)]
            simp only [Res.pure_eq, Res.ok_bind, LHeap.getL, LHeap.setN, hl1]
          · refine ⟨?_, ?_, ?_, ?_, ?_, rfl, rfl, rfl, rfl⟩
            · intro n _ hn; simp [LHeap.setL, LHeap.setN, hn]
            · simp [LHeap.setL, LHeap.setN, DSeg]
            · intro k hk; simp [LHeap.setL, LHeap.setN, hk]
            · simp [LHeap.setL]
            · simp
        | some e =>
          obtain ⟨y, b⟩ := e
          have hy : y ∈ ids t := List.mem_map.2 ⟨_, List.mem_of_getLast? hlast, rfl⟩
          have hyn : y ≠ h.nextNode := fun h1 => hnt (h1 ▸ hy)
          obtain ⟨pr, hny, hsg⟩ := ht2.setNext (some h.nextNode) ht1 hlast
          have htne : t ≠ [] := by rintro rfl; simp at hlast
          refine ⟨({ h with itemcount := h.itemcount + 1, nextNode := h.nextNode + 1 }.setN h.nextNode
            ⟨a, some y, g⟩).setN y ⟨b, pr, some h.nextNode⟩, NL, ?_, ?_⟩
          · simp only [AP_listitem_malloc, Option.map_some, dupLink]
            rw [ck32_ok (by omega) (by omega)]
            simp only [Res.pure_eq, Res.ok_bind, LHeap.getN, LHeap.setN, hyn, if_false, hny]
          · refine ⟨?_, ?_, ?_, ?_, ?_, rfl, rfl, rfl, rfl⟩
            · intro n hn1 hn2
              have : n ≠ y := fun h1 => hn1 (h1 ▸ hy)
              simp [LHeap.setN, hn2, this]
            · rw [DSeg.append]
              constructor
              · refine DSeg.congr ?_ hsg
                intro z hz
                have : z ≠ h.nextNode := fun h1 => hnt (h1 ▸ hz)
                simp [LHeap.setN, this]
              · simp [DSeg, LHeap.setN, hlast, Ne.symm hyn]
            · intro k hk; rfl
            · simpa [LHeap.setN] using hl1
            · rw [hl2]
              cases t with
              | nil => simp at htne
              | cons f fs => simp
      obtain ⟨h1, NL1, hst, e1, e2, e3, e4, e5, e6, e7, e8, e9⟩ := step
      have hs1 : DSeg h1.nodes (some x) s none := by
        refine DSeg.congr ?_ h6
        intro y hy
        have hyb := hb1 y (by simp [hy])
        exact e1 y (hdis y (by simp [hy])) (by omega)
      have hx1 : h1.nodes x = some ⟨a, p, s.head?.map Prod.fst⟩ := by
        rw [e1 x hxt hxn, h5]; simp
      have hids : (ids (t ++ [(h.nextNode, a)])).Nodup := by
        simp only [ids_append, ids_cons, ids_nil, List.nodup_append]
        refine ⟨ht1, by simp, ?_⟩
        intro z hz y hy he
        simp only [List.mem_singleton] at hy
        subst hy; subst he; exact hnt hz
      obtain ⟨h2, NL2, t', r1, r2, r3, r4, r5, r6, r7, r8, r9, r10, r11, r12, r13⟩ :=
        ih fuel h1 (some x) (t ++ [(h.nextNode, a)]) NL1 (by simp at hf; omega) hs1
          (by intro n hn; have := hb1 n (by simp [hn]); omega)
          (by intro n hn; simp at hn; rcases hn with hn | hn
              · have := hb2 n hn; omega
              · omega)
          (by intro n hn hn2; simp at hn2; rcases hn2 with hn2 | hn2
              · exact hdis n (by simp [hn]) hn2
              · have := hb1 n (by simp [hn]); omega)
          hids e2 e4 e5 (by omega) (by omega)
      refine ⟨h2, NL2, (h.nextNode, a) :: t', ?_, by simp [r2], ?_, by omega, by simpa using r5,
        by simpa using r6, ?_, ?_, r9, by simpa using r10, ?_, by omega, by omega⟩
      · have hgx : h.getN x = .ok ⟨a, p, s.head?.map Prod.fst⟩ := by
          simp [LHeap.getN, h5]
        have hgx1 : h1.getN x = .ok ⟨a, p, s.head?.map Prod.fst⟩ := by
          simp [LHeap.getN, hx1]
        have hgl : ((t ++ [(h.nextNode, a)]).getLast?.map Prod.fst) = some h.nextNode := by simp
        rw [hgl] at r1
        have r1' : dupLoop g newl fuel h1 (Option.map Prod.fst s.head?) (some h.nextNode) =
            .ok (h2, Option.map Prod.fst (t ++ (h.nextNode, a) :: t').getLast?) := by
          rw [r1]; simp
        simp only [List.head?_cons, Option.map_some, dupLoop, hgx, Res.ok_bind]
        simp only [Res.pure_eq] at hst
        simp only [Res.bind_eq_ok, Prod.exists] at hst
        obtain ⟨u, v, hu, w, hw, hv⟩ := hst
        rw [hu, Res.ok_bind]
        simp only [Res.pure_eq] at hw ⊢
        simp only [hw, Res.ok_bind]
        simp only [Res.ok.injEq, Prod.mk.injEq] at hv
        rw [hv.1, hv.2, hgx1, Res.ok_bind]
        exact r1'
      · intro n hn
        simp at hn; rcases hn with rfl | hn
        · omega
        · have := r3 n hn; omega
      · intro n hn
        have hn' : n ∉ ids ((t ++ [(h.nextNode, a)]) ++ t') := by simpa using hn
        rw [r7 n hn']
        simp only [ids_append, ids_cons, List.mem_append, List.mem_cons, not_or] at hn
        exact e1 n hn.1 hn.2.1
      · intro k hk; rw [r8 k hk, e3 k hk]
      · simp only [List.length_cons]; omega

theorem LInv.duplicate {h : LHeap A} {l s M} (hi : LInv h ((l, s) :: M)) (g : Option Nat)
    (hsz : h.itemcount + s.length ≤ 2147483647) (hhz : h.headcount < 2147483647) :
    ∃ h' t, AP_list_duplicate g h l = .ok (h', h.nextList) ∧
      t.map Prod.snd = s.map Prod.snd ∧ LInv h' ((h.nextList, t) :: (l, s) :: M) := by
  obtain ⟨h1, hnew, hi1⟩ := hi.new hhz
  have hnew' := hnew
  have hic := hi1.icount
  have hic0 := hi.icount
  simp only [allIds_cons, ids_nil, List.nil_append] at hic hic0
  have hlm : (l, s) ∈ ((h.nextList, []) :: (l, s) :: M : List (Nat × List (Nat × A))) := by simp
  have hlne : l ≠ h.nextList := by
    have := hi.blist l (by simp); omega
  have hlen := hi1.len_le hlm
  obtain ⟨h2, NL2, t, r1, r2, r3, r4, r5, r6, r7, r8, r9, r10, r11, r12, r13⟩ :=
    dupLoop_spec g h.nextList s (h1.nextNode + 1) h1 none [] ⟨none, none, 0⟩ (by omega)
      (hi1.segs l s hlm) (fun n hn => hi1.bnode n (by simp [hn])) (by simp) (by simp) (by simp)
      trivial (hi1.lists h.nextList [] (by simp)) rfl (by omega) (by omega)
  simp only [List.nil_append] at r1 r5 r6 r7 r10
  have hl2 : h2.lists l = some (headOf s) := by rw [r8 l hlne]; exact hi1.lists l s hlm
  -- final stores
  obtain ⟨n3, hn3, hn3', hfin⟩ : ∃ n3 : Nat → Option (Node A),
      DSeg n3 none t none ∧ (∀ k, k ∉ ids t → n3 k = h2.nodes k) ∧
      dupTerm h2 (t.getLast?.map Prod.fst) = .ok { h2 with nodes := n3 } := by
    cases hlast : t.getLast? with
    | none =>
      have : t = [] := List.getLast?_eq_none_iff.1 hlast
      subst this
      exact ⟨h2.nodes, trivial, fun _ _ => rfl, by simp [dupTerm]⟩
    | some e =>
      obtain ⟨y, b⟩ := e
      have hy : y ∈ ids t := List.mem_map.2 ⟨_, List.mem_of_getLast? hlast, rfl⟩
      obtain ⟨pr, hny, hsg⟩ := r6.setNext none r5 hlast
      refine ⟨_, hsg, ?_, ?_⟩
      · intro k hk
        have : k ≠ y := fun h1 => hk (h1 ▸ hy)
        simp [this]
      · simp only [dupTerm, Option.map_some, LHeap.getN, hny, Res.ok_bind, Res.pure_eq, LHeap.setN]
  have htlen : t.length = s.length := by
    have := congrArg List.length r2; simpa using this
  refine ⟨({ h2 with nodes := n3 } : LHeap A).setL h.nextList (headOf t), t, ?_, r2, ?_⟩
  · unfold AP_list_duplicate
    rw [hnew, Res.ok_bind]
    simp only [hi1.getL hlm, Res.ok_bind]
    have hr1 : dupLoop g h.nextList (h1.nextNode + 1) h1 (headOf s).head none =
        .ok (h2, Option.map Prod.fst t.getLast?) := r1
    rw [hr1, Res.ok_bind]
    simp only []
    rw [hfin, Res.ok_bind]
    simp only [LHeap.getL, r9, hl2, Res.ok_bind, Res.pure_eq]
    simp only [headOf, htlen]
    have : NL2.head = t.head?.map Prod.fst := by simpa using r10
    rw [this]
  · apply hi1.update
    · intro n _ hn
      simp only [LHeap.setL, hn3' n hn, r7 n hn]
    · intro n hn; simp at hn
    · intro k hk; simp only [LHeap.setL, hk, if_false, r8 k hk]
    · simp [LHeap.setL]
    · simpa [LHeap.setL] using hn3
    · exact r5
    · intro n hn; right; exact (r3 n hn).1
    · intro n hn; exact (r3 n hn).2
    · exact r4
    · exact r13
    · simp only [LHeap.setL, List.length_nil]; omega
    · simp only [LHeap.setL]; exact r12

/-! ## `AP_list_delete`, `AP_list_head`, `AP_list_tail`, `AP_list_apply` -/

theorem LInv.head {h : LHeap A} {M l s} (hi : LInv h M) (hm : (l, s) ∈ M) :
    AP_list_head h l = .ok ((s.map Prod.snd).head?) := by
  unfold AP_list_head
  simp only [hi.getL hm, Res.ok_bind, headOf]
  cases s with
  | nil => rfl
  | cons e s =>
    obtain ⟨x, a⟩ := e
    have := hi.getN (s1 := []) hm
    simp [this]

theorem LInv.tail {h : LHeap A} {M l s} (hi : LInv h M) (hm : (l, s) ∈ M) :
    AP_list_tail h l = .ok ((s.map Prod.snd).getLast?) := by
  unfold AP_list_tail
  simp only [hi.getL hm, Res.ok_bind, headOf]
  cases hl : s.getLast? with
  | none =>
    have : s = [] := List.getLast?_eq_none_iff.1 hl
    subst this; rfl
  | some e =>
    obtain ⟨x, a⟩ := e
    obtain ⟨s0, rfl⟩ : ∃ s0, s = s0 ++ [(x, a)] := List.getLast?_eq_some_iff.1 hl
    have := hi.getN hm
    simp [this]

end MpiSerial
