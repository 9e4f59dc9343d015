import Verif.Proofs.Storage
import Verif.Props.Exchange

/-!
# What the library has allocated (C49)

List headers and items (list.c) and datatype descriptors (type.c); the blocks of the handle table are the subject
of C01 to C05.
-/

set_option autoImplicit false

namespace MpiSerial

variable {env : Env} {s s' : Sys} {L L' : Ledger}

/-- `xs` are the addresses at which something is allocated, each once. -/
def Allocated {α : Type} (heap : Nat → Option α) (xs : List Nat) : Prop :=
  xs.Nodup ∧ ∀ x, x ∈ xs ↔ heap x ≠ none

/-- Number of things allocated. -/
def Holds {α : Type} (heap : Nat → Option α) (n : Nat) : Prop := ∃ xs, Allocated heap xs ∧ xs.length = n

theorem LInv.holds {h : LHeap Loc} {M : AbsLists Loc} (hi : LInv h M) :
    Holds h.lists M.length ∧ Holds h.nodes (allIds M).length := by
  refine ⟨⟨M.map Prod.fst, ⟨hi.keys, fun l => ⟨fun hm => ?_, fun hl => ?_⟩⟩, by simp⟩,
    ⟨allIds M, ⟨hi.nodup, fun n => ⟨fun hm => ?_, fun hn => ?_⟩⟩, rfl⟩⟩
  · obtain ⟨⟨l', q⟩, hm2, rfl⟩ := List.mem_map.1 hm
    rw [hi.lists _ _ hm2]; simp
  · exact Classical.byContradiction fun hm => hl (hi.nolist l hm)
  · obtain ⟨⟨l, q⟩, hm, hn⟩ := List.mem_flatMap.1 hm
    obtain ⟨⟨x, a⟩, hx, rfl⟩ := List.mem_map.1 hn
    obtain ⟨s1, s2, rfl⟩ := List.append_of_mem hx
    have := hi.getN hm
    intro h1
    simp only [LHeap.getN] at this
    rw [h1] at this
    cases this
  · exact Classical.byContradiction fun hm => hn (hi.nonode n hm)

theorem Holds.unique {α : Type} {heap : Nat → Option α} {n m : Nat} (h1 : Holds heap n) (h2 : Holds heap m) : n = m := by
  obtain ⟨xs, ⟨a, b⟩, rfl⟩ := h1
  obtain ⟨ys, ⟨c, d⟩, rfl⟩ := h2
  exact ((List.perm_ext_iff_of_nodup a c).2 fun x => (b x).trans (d x).symm).length_eq

/-- **C49.** After any history, exactly these are allocated: two list headers for each communicator created and not
freed by MPI_Comm_free, one list item for each unmatched operation whose communicator was not freed, and one
descriptor for each derived datatype created and not freed by MPI_Type_free.  The two counters of list.c are the
numbers of headers and items. -/
theorem C49_accounting (hr : Reach env s L) :
    L.nfreed ≤ L.ncomms ∧ L.dropped ≤ L.unmatched ∧
    Holds s.lists.lists (2 * (L.ncomms - L.nfreed)) ∧ s.lists.headcount = (2 * (L.ncomms - L.nfreed) : Nat) ∧
    Holds s.lists.nodes (L.unmatched - L.dropped) ∧ s.lists.itemcount = (L.unmatched - L.dropped : Nat) ∧
    Holds s.theap (L.liveTypes + L.tlost) := by
  obtain ⟨M, lst, hi⟩ := hr.inv
  obtain ⟨h1, h2⟩ := hi.linv.holds
  have a := hi.icap.1
  have b := hi.hcap.1
  have c := hi.linv.icount
  have d := hi.linv.hcount
  have e1 : M.length = 2 * (L.ncomms - L.nfreed) := by omega
  have e2 : (allIds M).length = L.unmatched - L.dropped := by omega
  obtain ⟨ps, f1, f2, f3⟩ := hr.store
  exact ⟨by omega, by omega, e1 ▸ h1, by omega, e2 ▸ h2, by omega, ⟨ps, ⟨f1, f2⟩, f3⟩⟩

/-- **C49.** A program that has freed all its communicators (MPI_COMM_WORLD included) and datatypes leaves nothing
allocated. -/
theorem C49_balanced (hr : Reach env s L) (h1 : L.nfreed = L.ncomms) (h2 : L.liveTypes = 0) (h3 : L.tlost = 0) :
    (∀ l, s.lists.lists l = none) ∧ (∀ n, s.lists.nodes n = none) ∧ (∀ p, s.theap p = none) ∧
    AP_listitem_verify s.lists = false := by
  have hnil : ∀ {α : Type} {heap : Nat → Option α}, Holds heap 0 → ∀ x, heap x = none := by
    intro α heap hh x
    obtain ⟨xs, ⟨_, h⟩, hl⟩ := hh
    rw [List.length_eq_zero_iff] at hl
    subst hl
    exact Classical.byContradiction fun hx => by simpa using (h x).2 hx
  obtain ⟨M, lst, hi⟩ := hr.inv
  have b := hi.hcap.1
  have d := hi.linv.hcount
  have hM : M = [] := List.length_eq_zero_iff.1 (by omega)
  subst hM
  obtain ⟨g1, g2⟩ := hi.linv.holds
  obtain ⟨ps, f1, f2, f3⟩ := hr.store
  refine ⟨hnil g1, hnil g2, hnil ⟨ps, ⟨f1, f2⟩, by omega⟩, ?_⟩
  have c := hi.linv.icount
  unfold AP_listitem_verify
  rw [c, d]
  simp [allIds]

/-- **C49.** MPI_Finalize gives nothing back: it releases the handle table only, so unless the program has freed
every communicator itself, list storage stays allocated after it. -/
theorem C49_finalize (hr : Reach env s L) :
    (MPI_Finalize s).lists = s.lists ∧ (MPI_Finalize s).theap = s.theap ∧
    (AP_listitem_verify (MPI_Finalize s).lists = true ↔ L.nfreed ≠ L.ncomms) := by
  refine ⟨rfl, rfl, ?_⟩
  obtain ⟨M, lst, hi⟩ := hr.inv
  have b := hi.hcap.1
  have c := hi.linv.icount
  have d := hi.linv.hcount
  show AP_listitem_verify s.lists = true ↔ _
  unfold AP_listitem_verify
  simp only [Bool.or_eq_true, decide_eq_true_eq]
  constructor
  · intro h he
    have hM : M = [] := List.length_eq_zero_iff.1 (by omega)
    subst hM
    simp [allIds] at c
    omega
  · intro h
    right
    omega

/-- C49 fails for MPI_Finalize: the simplest program, MPI_Init followed by MPI_Finalize, leaves the two lists of
MPI_COMM_WORLD allocated, and doing it again leaves two more. -/
theorem C49_fails_finalize :
    AP_listitem_verify H1.finalize.s.lists = true ∧ H1.finalize.s.lists.headcount = 2 ∧
    H1.finalize.init.finalize.s.lists.headcount = 4 := by decide +kernel

/-- In `H8`: two communicators, three unmatched operations. -/
example : H8.s.lists.headcount = 4 ∧ H8.s.lists.itemcount = 3 ∧ H8.L.dropped = 0 ∧ H8.L.ncomms = 2 := by decide +kernel

/-- `H8` with the duplicate (one pending message) freed: one operation is dropped. -/
example : (H8.commFree 6).Ok ∧ (H8.commFree 6).s.lists.headcount = 2 ∧ (H8.commFree 6).s.lists.itemcount = 2 ∧
    (H8.commFree 6).L.dropped = 1 ∧ (H8.commFree 6).L.unmatched = 3 :=
  ⟨Demo.commFree_ok 1 H8_ok (by decide +kernel) (by decide +kernel), by decide +kernel, by decide +kernel,
    by decide +kernel, by decide +kernel⟩

/-- A history meeting the hypotheses of `C49_balanced`: both communicators of `H8` freed. -/
example : ((H8.commFree 6).commFree 1).Ok ∧ ((H8.commFree 6).commFree 1).L.nfreed = ((H8.commFree 6).commFree 1).L.ncomms ∧
    ((H8.commFree 6).commFree 1).L.liveTypes = 0 ∧ ((H8.commFree 6).commFree 1).L.dropped = 3 :=
  ⟨Demo.commFree_ok 0 (Demo.commFree_ok 1 H8_ok (by decide +kernel) (by decide +kernel)) (by decide +kernel)
    (by decide +kernel), by decide +kernel, by decide +kernel, by decide +kernel⟩

/-- A derived type: one descriptor, which MPI_Finalize leaves behind. -/
example : V2.Ok ∧ V2.L.liveTypes = 1 ∧ (V2.s.theap 0).isSome = true ∧ V2.finalize.L.liveTypes = 0 ∧
    V2.finalize.L.tlost = 1 ∧ (V2.finalize.s.theap 0).isSome = true :=
  ⟨V2_ok, by decide +kernel, by decide +kernel, by decide +kernel, by decide +kernel, by decide +kernel⟩

end MpiSerial
