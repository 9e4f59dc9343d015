import Verif.Spec.Lists
import Verif.Proofs.Lists

/-! # C06, C07, C08: the list module -/

set_option linter.unusedSimpArgs false

namespace MpiSerial
variable {A : Type}

theorem allIds_length (M : AbsLists A) : (allIds M).length = totalItems M := by
  induction M with
  | nil => rfl
  | cons e M ih => simp [ih, totalItems]

theorem walkFrom_spec {h : LHeap A} {M : AbsLists A} {l : Nat} (hi : LInv h M) :
    ∀ (s2 s1 : List (Nat × A)) (x : Nat) (a : A) (fuel : Nat), s2.length < fuel →
      (l, s1 ++ (x, a) :: s2) ∈ M → walkFrom h l fuel (some x) = .ok s2 := by
  intro s2
  induction s2 with
  | nil =>
    intro s1 x a fuel hf hm
    cases fuel with
    | zero => simp at hf
    | succ fuel => simp [walkFrom, hi.next_step hm]
  | cons e s2 ih =>
    intro s1 x a fuel hf hm
    obtain ⟨y, b⟩ := e
    cases fuel with
    | zero => simp at hf
    | succ fuel =>
      have := ih (s1 ++ [(x, a)]) y b fuel (by simp at hf; omega) (by simpa using hm)
      simp [walkFrom, hi.next_step hm, this]

theorem LInv.walk {h : LHeap A} {M : AbsLists A} {l s} (hi : LInv h M) (hm : (l, s) ∈ M) :
    walk h l = .ok s := by
  have hlen := hi.len_le hm
  unfold MpiSerial.walk
  cases s with
  | nil => simp [walkFrom, hi.next_first hm]
  | cons e s =>
    obtain ⟨x, a⟩ := e
    have := walkFrom_spec hi s [] x a (h.nextNode + 1) (by simp at hlen; omega) (by simpa using hm)
    rw [walkFrom, hi.next_first hm]
    simp [this]

theorem split_key {M : AbsLists A} {l s} (hk : (M.map Prod.fst).Nodup) (hm : (l, s) ∈ M) :
    ∃ M', M.Perm ((l, s) :: M') ∧ (M.filter (fun e => decide (e.1 ≠ l))) = M' ∧
      ∀ f, (updL M l f).Perm ((l, f s) :: M') := by
  obtain ⟨M1, M2, rfl⟩ := List.append_of_mem hm
  simp only [List.map_append, List.map_cons, List.nodup_append, List.nodup_cons, List.mem_cons] at hk
  have h1 : ∀ e ∈ M1, e.1 ≠ l := by
    intro e he h; exact hk.2.2 e.1 (List.mem_map.2 ⟨e, he, rfl⟩) l (Or.inl rfl) h
  have h2 : ∀ e ∈ M2, e.1 ≠ l := by
    intro e he h; exact hk.2.1.1 (List.mem_map.2 ⟨e, he, h⟩)
  refine ⟨M1 ++ M2, List.perm_middle, ?_, ?_⟩
  · rw [List.filter_append, List.filter_cons]
    simp only [ne_eq, not_true_eq_false, decide_false, Bool.false_eq_true, if_false]
    rw [List.filter_eq_self.2 (by intro e he; simpa using h1 e he),
      List.filter_eq_self.2 (by intro e he; simpa using h2 e he)]
  · intro f
    have e1 : M1.map (fun e => if e.1 = l then (e.1, f e.2) else e) = M1 := by
      exact (List.map_congr_left (g := id) (fun e he => by simp [h1 e he])).trans (List.map_id _)
    have e2 : M2.map (fun e => if e.1 = l then (e.1, f e.2) else e) = M2 := by
      exact (List.map_congr_left (g := id) (fun e he => by simp [h2 e he])).trans (List.map_id _)
    unfold updL
    rw [List.map_append, List.map_cons, e1, e2]
    simp only [if_true]
    exact List.perm_middle

/-- Invariant of client histories. -/
def LOk (h : LHeap A) (M : AbsLists A) : Prop :=
  LInv h M ∧ totalItems M ≤ 2147483647 ∧ M.length ≤ 2147483647

theorem LOk.bounds {h : LHeap A} {M : AbsLists A} (hi : LOk h M) :
    h.itemcount = totalItems M ∧ h.headcount = M.length := by
  have h1 := hi.1.icount
  rw [allIds_length] at h1
  exact ⟨h1, hi.1.hcount⟩

theorem LOk.of_perm {h : LHeap A} {M M' : AbsLists A} (hp : M.Perm M') (hi : LInv h M')
    (h1 : totalItems M' ≤ 2147483647) (h2 : M'.length ≤ 2147483647) : LOk h M := by
  refine ⟨hi.perm hp.symm, ?_, by rw [hp.length_eq]; exact h2⟩
  unfold totalItems
  rw [(hp.map (fun e => e.2.length)).sum_nat]
  exact h1

theorem totalItems_perm {M M' : AbsLists A} (hp : M.Perm M') : totalItems M = totalItems M' := by
  unfold totalItems; exact (hp.map (fun e => e.2.length)).sum_nat

theorem totalItems_cons (e : Nat × List (Nat × A)) (M : AbsLists A) :
    totalItems (e :: M) = e.2.length + totalItems M := by simp [totalItems]

theorem filter_id_split {s1 s2 : List (Nat × A)} {x : Nat} {a : A}
    (hd : (ids (s1 ++ (x, a) :: s2)).Nodup) :
    (s1 ++ (x, a) :: s2).filter (fun e => decide (e.1 ≠ x)) = s1 ++ s2 := by
  simp only [ids_append, ids_cons, List.nodup_append, List.nodup_cons, List.mem_cons] at hd
  have h1 : ∀ e ∈ s1, e.1 ≠ x := by
    intro e he h; exact hd.2.2 e.1 (List.mem_map.2 ⟨e, he, rfl⟩) x (Or.inl rfl) h
  have h2 : ∀ e ∈ s2, e.1 ≠ x := by
    intro e he h; exact hd.2.1.1 (List.mem_map.2 ⟨e, he, h⟩)
  rw [List.filter_append, List.filter_cons]
  simp only [ne_eq, not_true_eq_false, decide_false, Bool.false_eq_true, if_false]
  rw [List.filter_eq_self.2 (by intro e he; simpa using h1 e he),
    List.filter_eq_self.2 (by intro e he; simpa using h2 e he)]

section steps
variable [DecidableEq A]

theorem LInv.delete {h : LHeap A} {l s M} (hi : LInv h ((l, s) :: M)) (a : A)
    (hsz : h.itemcount ≤ 2147483647) :
    ∃ h', AP_list_delete h l a = .ok (h', if (s.map Prod.snd).contains a then 1 else 0) ∧
      LInv h' ((l, s.eraseP (fun e => decide (e.2 = a))) :: M) := by
  have hs := hi.search (l := l) (s := s) (by simp) a
  unfold AP_list_delete
  rw [hs, Res.ok_bind]
  cases hf : s.find? (fun e => decide (e.2 = a)) with
  | none =>
    have hno : ∀ e ∈ s, ¬ e.2 = a := by
      intro e he h; have := List.find?_eq_none.1 hf e he; simp [h] at this
    have h1 : s.eraseP (fun e => decide (e.2 = a)) = s :=
      List.eraseP_of_forall_not (fun e he => by simpa using hno e he)
    have h2 : (s.map Prod.snd).contains a = false := by
      simp only [List.contains_eq_mem, decide_eq_false_iff_not, List.mem_map, not_exists, not_and]
      exact fun e he => hno e he
    exact ⟨h, by rw [h2]; rfl, by rw [h1]; exact hi⟩
  | some e =>
    obtain ⟨x, b⟩ := e
    obtain ⟨hb, s1, s2, rfl, hs1⟩ := List.find?_eq_some_iff_append.1 hf
    simp only [decide_eq_true_eq] at hb
    subst hb
    obtain ⟨h', h1, _, h2⟩ := hi.delete_item hsz
    refine ⟨h', ?_, ?_⟩
    · simp [h1]
    · have : (s1 ++ (x, b) :: s2).eraseP (fun e => decide (e.2 = b)) = s1 ++ s2 := by
        rw [List.eraseP_append_right _ (by intro e he; have := hs1 e he; simpa using this)]
        simp
      rw [this]; exact h2

theorem LStep.ok {h h' : LHeap A} {M M' : AbsLists A} {e} (hs : LStep h M e h' M') (hi : LOk h M) :
    LOk h' M' := by
  obtain ⟨b1, b2⟩ := hi.bounds
  obtain ⟨hI, hT, hL⟩ := hi
  cases hs with
  | @new _ _ l hc he =>
    obtain ⟨h2, h3, h4⟩ := hI.new (by omega)
    rw [he] at h3; cases h3
    refine ⟨h4, by rw [totalItems_cons]; simpa using hT, by simp; omega⟩
  | @free _ _ l hm he =>
    obtain ⟨⟨l', s⟩, hm', rfl⟩ := List.mem_map.1 hm
    obtain ⟨M', hp, hf, _⟩ := split_key hI.keys hm'
    obtain ⟨h2, h3, h4⟩ := (hI.perm hp).free (by omega) (by omega)
    rw [he] at h3; cases h3
    rw [hf]
    have h5 := totalItems_perm hp
    rw [totalItems_cons] at h5
    have h6 := hp.length_eq
    simp only [List.length_cons] at h6
    exact ⟨h4, by omega, by omega⟩
  | @append _ _ l a n hm hc he =>
    obtain ⟨⟨l', s⟩, hm', rfl⟩ := List.mem_map.1 hm
    obtain ⟨M', hp, _, hu⟩ := split_key hI.keys hm'
    obtain ⟨h2, h3, _, h4⟩ := (hI.perm hp).append a (by omega)
    rw [he] at h3; cases h3
    have h5 := totalItems_perm hp
    rw [totalItems_cons] at h5
    have h6 := hp.length_eq
    refine LOk.of_perm (hu _) h4 ?_ (by simp only [List.length_cons] at h6 ⊢; omega)
    rw [totalItems_cons]; simp only [List.length_append, List.length_singleton] at h5 ⊢; omega
  | @prepend _ _ l a n hm hc he =>
    obtain ⟨⟨l', s⟩, hm', rfl⟩ := List.mem_map.1 hm
    obtain ⟨M', hp, _, hu⟩ := split_key hI.keys hm'
    obtain ⟨h2, h3, _, h4⟩ := (hI.perm hp).prepend a (by omega)
    rw [he] at h3; cases h3
    have h5 := totalItems_perm hp
    rw [totalItems_cons] at h5
    have h6 := hp.length_eq
    refine LOk.of_perm (hu _) h4 ?_ (by simp only [List.length_cons] at h6 ⊢; omega)
    rw [totalItems_cons]; simp only [List.length_cons] at h5 ⊢; omega
  | @deleteItem _ _ l s x a hm hx he =>
    obtain ⟨M', hp, _, hu⟩ := split_key hI.keys hm
    obtain ⟨s1, s2, rfl⟩ := List.append_of_mem hx
    have hi' := hI.perm hp
    obtain ⟨h2, h3, _, h4⟩ := hi'.delete_item (by omega)
    rw [he] at h3; cases h3
    have hnd := hi'.nodup
    simp only [allIds_cons, List.nodup_append] at hnd
    have h5 := totalItems_perm hp
    rw [totalItems_cons] at h5
    have h6 := hp.length_eq
    have hu' := hu (fun s => s.filter (fun e => decide (e.1 ≠ x)))
    simp only [filter_id_split hnd.1] at hu'
    refine LOk.of_perm hu' h4 ?_ (by simp only [List.length_cons] at h6 ⊢; omega)
    rw [totalItems_cons]; simp only [List.length_append, List.length_cons] at h5 ⊢; omega
  | @delete _ _ l a r hm he =>
    obtain ⟨⟨l', s⟩, hm', rfl⟩ := List.mem_map.1 hm
    obtain ⟨M', hp, _, hu⟩ := split_key hI.keys hm'
    obtain ⟨h2, h3, h4⟩ := (hI.perm hp).delete a (by omega)
    rw [he] at h3
    simp only [Res.ok.injEq, Prod.mk.injEq] at h3
    rw [← h3.1] at h4
    have h5 := totalItems_perm hp
    rw [totalItems_cons] at h5
    have h6 := hp.length_eq
    refine LOk.of_perm (hu _) h4 ?_ (by simp only [List.length_cons] at h6 ⊢; omega)
    rw [totalItems_cons]
    have : (s.eraseP (fun e => decide (e.2 = a))).length ≤ s.length :=
      List.eraseP_sublist.length_le
    simp only at h5 ⊢; omega
  | @duplicate _ _ l l' g s t hm hc1 hc2 he hw =>
    obtain ⟨M', hp, _, hu⟩ := split_key hI.keys hm
    obtain ⟨h2, t', h3, h4, h5⟩ := (hI.perm hp).duplicate g (by omega) (by omega)
    rw [he] at h3; cases h3
    have hw' := h5.walk (List.mem_cons_self ..)
    rw [hw] at hw'; cases hw'
    have hlen : t.length = s.length := by simpa using congrArg List.length h4
    refine ⟨h5.perm (List.Perm.cons _ hp.symm), by rw [totalItems_cons]; simp only; omega,
      by simp; omega⟩

theorem LRun.ok {h h' : LHeap A} {M M' : AbsLists A} {evs} (hr : LRun h M evs h' M') (hi : LOk h M) :
    LOk h' M' := by
  induction hr with
  | nil => exact hi
  | snoc _ h2 ih => exact h2.ok (ih hi)

theorem LRun.start_ok {h' : LHeap A} {M' : AbsLists A} {evs}
    (hr : LRun LHeap.empty [] evs h' M') : LOk h' M' :=
  hr.ok ⟨LInv.empty, by simp [totalItems], by simp⟩

/-- **C06 (observations).** After any history of list operations, every list shows exactly the
client's sequence: `AP_list_next` traversal yields the items in order, forward and backward
printing are the sequence and its reverse, the size is its length, searches return the first
matching item, head/tail and item data/prev/next are those of the sequence; item pointers are
unique across all lists. -/
theorem C06_lists_are_sequences {h : LHeap A} {M : AbsLists A} {evs}
    (hr : LRun LHeap.empty [] evs h M) :
    (M.map Prod.fst).Nodup ∧ (M.flatMap (fun e => e.2.map Prod.fst)).Nodup ∧
    ∀ l s, (l, s) ∈ M →
      walk h l = .ok s ∧
      AP_list_print h l = .ok (s.length, s.map Prod.snd) ∧
      AP_list_revprint h l = .ok (s.length, (s.map Prod.snd).reverse) ∧
      AP_list_size h l = .ok s.length ∧
      AP_list_head h l = .ok (s.map Prod.snd).head? ∧
      AP_list_tail h l = .ok (s.map Prod.snd).getLast? ∧
      (∀ d, AP_list_search h l d = .ok ((s.find? (fun e => decide (e.2 = d))).map Prod.fst)) ∧
      (∀ (f : A → Bool), AP_list_search_func h l (fun d => .ok (f d)) =
        .ok ((s.find? (fun e => f e.2)).map Prod.fst)) ∧
      (∀ s1 x a s2, s = s1 ++ (x, a) :: s2 →
        AP_listitem_data h x = .ok a ∧
        AP_listitem_prev h x = .ok (s1.getLast?.map Prod.fst) ∧
        AP_listitem_next h x = .ok (s2.head?.map Prod.fst)) := by
  obtain ⟨hi, _, _⟩ := hr.start_ok
  refine ⟨hi.keys, hi.nodup, ?_⟩
  intro l s hm
  refine ⟨hi.walk hm, hi.print hm, hi.revprint hm, hi.size hm, hi.head hm, hi.tail hm,
    fun d => hi.search hm d, fun f => hi.search_func hm (fun e _ => rfl), ?_⟩
  rintro s1 x a s2 rfl
  have := hi.getN hm
  refine ⟨?_, ?_, ?_⟩
  · simp [AP_listitem_data, this]
  · simp [AP_listitem_prev, this]
  · simp [AP_listitem_next, this]

/-- **C06 (operations).** In every reachable state every operation the client may perform
succeeds (no abort, no undefined behaviour, no endless loop) as long as at most 2^31-1 items and
lists are outstanding, `AP_list_delete` reports whether the value was present, and new items are
new. -/
theorem C06_operations_succeed {h : LHeap A} {M : AbsLists A} {evs}
    (hr : LRun LHeap.empty [] evs h M) :
    (M.length < 2147483647 → ∃ h' l, AP_list_new h = .ok (h', l) ∧ l ∉ M.map Prod.fst) ∧
    ∀ l s, (l, s) ∈ M →
      (∃ h', AP_list_free h l = .ok h') ∧
      (totalItems M < 2147483647 → ∀ a,
        (∃ h' n, AP_list_append h l a = .ok (h', n) ∧ n ∉ M.flatMap (fun e => e.2.map Prod.fst)) ∧
        (∃ h' n, AP_list_prepend h l a = .ok (h', n) ∧ n ∉ M.flatMap (fun e => e.2.map Prod.fst))) ∧
      (∀ x a, (x, a) ∈ s → ∃ h', AP_list_delete_item h l x = .ok h') ∧
      (∀ a, ∃ h', AP_list_delete h l a =
        .ok (h', if (s.map Prod.snd).contains a then 1 else 0)) ∧
      (M.length < 2147483647 → totalItems M + s.length ≤ 2147483647 →
        ∀ g, ∃ h' l' t, AP_list_duplicate g h l = .ok (h', l') ∧ l' ∉ M.map Prod.fst ∧
          walk h' l' = .ok t) := by
  have hok := hr.start_ok
  obtain ⟨b1, b2⟩ := hok.bounds
  obtain ⟨hI, hT, hL⟩ := hok
  have hfr : h.nextList ∉ M.map Prod.fst := fun hm => by have := hI.blist _ hm; omega
  constructor
  · intro hc
    obtain ⟨h2, h3, h4⟩ := hI.new (by omega)
    exact ⟨h2, _, h3, hfr⟩
  · intro l s hm
    obtain ⟨M', hp, _, hu⟩ := split_key hI.keys hm
    have hI' := hI.perm hp
    refine ⟨?_, ?_, ?_, ?_, ?_⟩
    · obtain ⟨h2, h3, h4⟩ := hI'.free (by omega) (by omega)
      exact ⟨h2, h3⟩
    · intro hc a
      obtain ⟨h2, h3, _, h4⟩ := hI'.append a (by omega)
      obtain ⟨h5, h6, _, h7⟩ := hI'.prepend a (by omega)
      exact ⟨⟨h2, _, h3, hI.fresh⟩, ⟨h5, _, h6, hI.fresh⟩⟩
    · intro x a hx
      obtain ⟨s1, s2, rfl⟩ := List.append_of_mem hx
      obtain ⟨h2, h3, _, h4⟩ := hI'.delete_item (by omega)
      exact ⟨h2, h3⟩
    · intro a
      obtain ⟨h2, h3, h4⟩ := hI'.delete a (by omega)
      exact ⟨h2, h3⟩
    · intro hc1 hc2 g
      obtain ⟨h2, t', h3, h4, h5⟩ := hI'.duplicate g (by omega) (by omega)
      exact ⟨h2, _, t', h3, hfr, h5.walk (List.mem_cons_self ..)⟩

/-- **C07.** After any history, `AP_listitem_verify` reports outstanding storage iff the client still
owns a list (items only live inside lists), the counters are exactly the numbers of outstanding
items and lists, and storage is held for exactly the items and lists the client still owns (so
freeing a list released exactly its own). -/
theorem C07_leak_accounting {h : LHeap A} {M : AbsLists A} {evs}
    (hr : LRun LHeap.empty [] evs h M) :
    (AP_listitem_verify h = true ↔ M ≠ []) ∧
    h.itemcount = totalItems M ∧ h.headcount = M.length ∧
    (∀ n, h.nodes n = none ↔ n ∉ M.flatMap (fun e => e.2.map Prod.fst)) ∧
    (∀ l, h.lists l = none ↔ l ∉ M.map Prod.fst) := by
  have hok := hr.start_ok
  obtain ⟨b1, b2⟩ := hok.bounds
  obtain ⟨hI, hT, hL⟩ := hok
  refine ⟨?_, b1, b2, ?_, ?_⟩
  · unfold AP_listitem_verify
    rw [b1, b2]
    cases M with
    | nil => simp [totalItems]
    | cons e M => simp; omega
  · intro n
    constructor
    · intro h1 h2
      obtain ⟨⟨l, s⟩, hm, hn⟩ := List.mem_flatMap.1 h2
      obtain ⟨⟨x, a⟩, hx, rfl⟩ := List.mem_map.1 hn
      obtain ⟨s1, s2, rfl⟩ := List.append_of_mem hx
      have := hI.getN hm
      simp [LHeap.getN, h1] at this
    · exact hI.nonode n
  · intro l
    constructor
    · intro h1 h2
      obtain ⟨⟨l', s⟩, hm, rfl⟩ := List.mem_map.1 h2
      have := hI.lists _ _ hm
      simp [h1] at this
    · exact hI.nolist l

theorem LStep.untouched {h h' : LHeap A} {M M' : AbsLists A} {e l s} (hs : LStep h M e h' M')
    (hm : (l, s) ∈ M) (ht : l ∉ e.touches) : (l, s) ∈ M' := by
  have hupd : ∀ k f, l ≠ k → (l, s) ∈ updL M k f := by
    intro k f hne
    exact List.mem_map.2 ⟨(l, s), hm, by simp [hne]⟩
  cases hs with
  | new _ _ => simp [hm]
  | @free _ _ k _ _ =>
    simp only [LEvent.touches, List.mem_singleton] at ht
    exact List.mem_filter.2 ⟨hm, by simpa using ht⟩
  | append _ _ _ => exact hupd _ _ (by simpa [LEvent.touches] using ht)
  | prepend _ _ _ => exact hupd _ _ (by simpa [LEvent.touches] using ht)
  | deleteItem _ _ _ => exact hupd _ _ (by simpa [LEvent.touches] using ht)
  | delete _ _ => exact hupd _ _ (by simpa [LEvent.touches] using ht)
  | duplicate _ _ _ _ _ => simp [hm]

theorem LRun.untouched {h h' : LHeap A} {M M' : AbsLists A} {evs l s} (hr : LRun h M evs h' M')
    (hm : (l, s) ∈ M) (ht : ∀ e ∈ evs, l ∉ e.touches) : (l, s) ∈ M' := by
  induction hr with
  | nil => exact hm
  | snoc _ h2 ih =>
    exact h2.untouched (ih hm (fun e he => ht e (by simp [he]))) (ht _ (by simp))

/-- **C08.** A duplicate holds the original's data in the original's order in a new list; whatever is
later done to other lists (including the original) the duplicate keeps its contents, and whatever is
later done to other lists (including the duplicate) the original keeps its contents. -/
theorem C08_duplicate_independent {h h1 : LHeap A} {M : AbsLists A} {evs l l' s g}
    (hr : LRun LHeap.empty [] evs h M) (hm : (l, s) ∈ M)
    (hc1 : M.length < 2147483647) (hc2 : totalItems M + s.length ≤ 2147483647)
    (hd : AP_list_duplicate g h l = .ok (h1, l')) :
    ∃ t, walk h1 l' = .ok t ∧ walk h1 l = .ok s ∧ t.map Prod.snd = s.map Prod.snd ∧ l' ≠ l ∧
      ∀ evs2 h2 M2, LRun h1 ((l', t) :: M) evs2 h2 M2 →
        ((∀ e ∈ evs2, l' ∉ e.touches) → walk h2 l' = .ok t) ∧
        ((∀ e ∈ evs2, l ∉ e.touches) → walk h2 l = .ok s) := by
  have hok := hr.start_ok
  obtain ⟨b1, b2⟩ := hok.bounds
  obtain ⟨hI, hT, hL⟩ := hok
  obtain ⟨M', hp, _, hu⟩ := split_key hI.keys hm
  obtain ⟨h3, t, h4, h5, h6⟩ := (hI.perm hp).duplicate g (by omega) (by omega)
  rw [hd] at h4; cases h4
  have hw := h6.walk (List.mem_cons_self ..)
  have hw2 := h6.walk (l := l) (s := s) (by simp)
  have hlne : h.nextList ≠ l := by
    have := hI.blist l (List.mem_map.2 ⟨_, hm, rfl⟩); omega
  refine ⟨t, hw, hw2, h5, hlne, ?_⟩
  intro evs2 h2 M2 hr2
  have hstep : LStep h M (.duplicate l h.nextList) h1 ((h.nextList, t) :: M) :=
    .duplicate hm hc1 hc2 hd hw
  have hok2 := hr2.ok (hstep.ok ⟨hI, hT, hL⟩)
  constructor
  · intro ht
    exact hok2.1.walk (hr2.untouched (List.mem_cons_self ..) ht)
  · intro ht
    exact hok2.1.walk (hr2.untouched (by simp [hm]) ht)

omit [DecidableEq A] in
/-- `AP_list_apply` on a chain of items. -/
theorem applyLoop_spec {h : LHeap A} {f : A → Int} :
    ∀ (s : List (Nat × A)) (fuel : Nat) (p : Option Nat) (t : Int), s.length ≤ fuel →
      DSeg h.nodes p s none →
      (∀ s1 s2, s = s1 ++ s2 → INT_MIN ≤ t + (s1.map fun e => f e.2).sum ∧ t + (s1.map fun e => f e.2).sum ≤ INT_MAX) →
      applyLoop (fun d => .ok (f d)) fuel h (s.head?.map Prod.fst) t = .ok (t + (s.map fun e => f e.2).sum) := by
  intro s
  induction s with
  | nil => intro fuel p t _ _ _; cases fuel <;> simp [applyLoop]
  | cons e s ih =>
    intro fuel p t hf hs hb
    obtain ⟨x, a⟩ := e
    obtain ⟨h1, h2⟩ := hs
    cases fuel with
    | zero => simp at hf
    | succ fuel =>
      have h0 := hb [(x, a)] s rfl
      simp only [List.map_cons, List.map_nil, List.sum_cons, List.sum_nil, Int.add_zero] at h0
      simp only [List.head?_cons, Option.map_some, applyLoop, LHeap.getN, h1, Res.ok_bind, Option.or_none]
      rw [ck32_ok h0.1 h0.2, Res.ok_bind]
      rw [ih fuel _ _ (by simp at hf; omega) h2 (fun s1 s2 hs => by
        have := hb ((x, a) :: s1) s2 (by simp [hs])
        simp only [List.map_cons, List.sum_cons] at this
        omega)]
      simp only [List.map_cons, List.sum_cons, Res.ok.injEq]
      omega

/-- **C06 (apply).** `AP_list_apply` adds up the callback's values over the whole sequence, if the sums on
the way are `int`s. -/
theorem C06_apply {h : LHeap A} {M : AbsLists A} {evs}
    (hr : LRun LHeap.empty [] evs h M) {l : Nat} {s : List (Nat × A)} (hm : (l, s) ∈ M) (f : A → Int)
    (hf : ∀ s1 s2, s = s1 ++ s2 → INT_MIN ≤ (s1.map fun e => f e.2).sum ∧ (s1.map fun e => f e.2).sum ≤ INT_MAX) :
    AP_list_apply h l (fun d => .ok (f d)) = .ok (s.map fun e => f e.2).sum := by
  obtain ⟨hi, _, _⟩ := hr.start_ok
  unfold AP_list_apply
  rw [hi.getL hm, Res.ok_bind]
  have := hi.len_le hm
  have := applyLoop_spec (f := f) s (h.nextNode + 1) none 0 (by omega) (hi.segs l s hm)
    (fun s1 s2 hs => by simpa using hf s1 s2 hs)
  simpa [headOf] using this

/-- **C06 (cursor).** `AP_list_head_item` and the cursor functions `AP_list_next`, `AP_list_braindead_next`
at every position: from no cursor they go to the first item, from an item to the one behind it, and at the
end they report the end and leave the cursor where it is. -/
theorem C06_cursor {h : LHeap A} {M : AbsLists A} {evs}
    (hr : LRun LHeap.empty [] evs h M) {l : Nat} {s : List (Nat × A)} (hm : (l, s) ∈ M) :
    AP_list_head_item h l = .ok (s.head?.map Prod.fst) ∧
    (∀ s1 s2, s = s1 ++ s2 →
      let cursor := s1.getLast?.map Prod.fst
      AP_list_next h l cursor = .ok s2.head? ∧
      AP_list_braindead_next h l cursor = .ok (match s2 with
        | [] => (cursor, none)
        | (x, a) :: _ => (some x, some a))) := by
  obtain ⟨hi, _, _⟩ := hr.start_ok
  refine ⟨?_, ?_⟩
  · unfold AP_list_head_item
    rw [hi.getL hm, Res.ok_bind]
    rfl
  · intro s1 s2 hs cursor
    have hn : AP_list_next h l cursor = .ok s2.head? := by
      rcases List.eq_nil_or_concat s1 with rfl | ⟨s0, ⟨x, a⟩, rfl⟩
      · subst hs
        simpa [cursor] using hi.next_first hm
      · have hm' : (l, s0 ++ (x, a) :: s2) ∈ M := by simpa [hs] using hm
        simpa [cursor] using hi.next_step hm'
    refine ⟨hn, ?_⟩
    unfold AP_list_braindead_next
    rw [hn, Res.ok_bind]
    cases s2 with
    | nil => rfl
    | cons e s2 => rfl

end steps

/-! ### Concrete instance -/

/-- A history with two lists, one holding two items, one item deleted in the middle: the client's
sequence for list 0 is `[(0,7),(2,9)]` after appending 7, 8, 9 and deleting item 1. -/
example : ∃ (h : LHeap Nat) (evs : List LEvent),
    LRun LHeap.empty [] evs h [(1, []), (0, [(0, 7), (2, 9)])] := by
  refine ⟨_, _, LRun.snoc (LRun.snoc (LRun.snoc (LRun.snoc (LRun.snoc (LRun.snoc LRun.nil
    (.new (by decide) rfl)) (.new (by decide) rfl))
    (.append (l := 0) (a := 7) (by decide) (by decide) rfl))
    (.append (l := 0) (a := 8) (by decide) (by decide) rfl))
    (.append (l := 0) (a := 9) (by decide) (by decide) rfl))
    (.deleteItem (l := 0) (x := 1) (a := 8) (s := [(0, 7), (1, 8), (2, 9)]) (by decide) (by decide) rfl)⟩

/-- `AP_list_apply` and the cursor on that history. -/
example : ∃ (h : LHeap Nat) (evs : List LEvent), LRun LHeap.empty [] evs h [(0, [(0, 7), (1, 9)])] ∧
    AP_list_apply h 0 (fun d => .ok (d : Int)) = .ok 16 ∧
    AP_list_braindead_next h 0 (some 0) = .ok (some 1, some 9) ∧
    AP_list_braindead_next h 0 (some 1) = .ok (some 1, none) :=
  ⟨_, _, LRun.snoc (LRun.snoc (LRun.snoc LRun.nil (.new (by decide) rfl))
    (.append (l := 0) (a := 7) (by decide) (by decide) rfl))
    (.append (l := 0) (a := 9) (by decide) (by decide) rfl), rfl, rfl, rfl⟩

end MpiSerial
