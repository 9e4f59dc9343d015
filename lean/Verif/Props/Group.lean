import Verif.Spec.Group

/-!
# Groups and rank translation (C38, C39)
-/

set_option autoImplicit false
set_option linter.unusedSimpArgs false

namespace MpiSerial

/-! ## C38: group operations are set algebra on {0} -/

/-- **C38.** Every group value a program can obtain is the null group or stands for a set. -/
theorem C38_obtainable {g : Int} (h : Obtainable g) : g = 0 ∨ ∃ S : Set Int, Denotes g S := by
  have key : ∀ x : Int, x = 0 ∨ x = -1 ∨ x = 1 → (x = 0 ∨ ∃ S : Set Int, Denotes x S) := by
    rintro x (rfl | rfl | rfl)
    · exact .inl rfl
    · exact .inr ⟨_, .empty⟩
    · exact .inr ⟨_, .one⟩
  apply key
  cases h with
  | null => simp
  | empty => simp
  | ofComm c => unfold MPI_Comm_group; split <;> simp
  | incl n ranks _ h =>
    unfold MPI_Group_incl at h
    split at h <;> try simp at h
    split at h <;> try (simp at h; omega)
    split at h <;> try simp at h
    cases hr : rd ranks 0 with
    | ok a => rw [hr, Res.ok_bind] at h; split at h <;> simp at h; omega
    | _ => rw [hr] at h; simp at h
  | rangeIncl n ranges _ h =>
    unfold MPI_Group_range_incl at h
    split at h <;> try simp at h
    split at h <;> try (simp at h; omega)
    split at h <;> try simp at h
    cases hr : rd ranges 0 with
    | ok a => rw [hr, Res.ok_bind] at h; split at h <;> simp at h; omega
    | _ => rw [hr] at h; simp at h
  | union _ _ h =>
    unfold MPI_Group_union at h
    split at h <;> try simp at h
    split at h <;> simp at h <;> omega
  | inter _ _ h =>
    unfold MPI_Group_intersection at h
    split at h <;> try simp at h
    split at h <;> simp at h <;> omega
  | diff _ _ h =>
    unfold MPI_Group_difference at h
    split at h <;> try simp at h
    split at h <;> simp at h <;> omega
  | free _ => simp [MPI_Group_free]

/-- Both sets occur: the group of `MPI_COMM_WORLD` and its difference with itself. -/
example : ∃ g e : Int, Obtainable g ∧ Obtainable e ∧ Denotes g {0} ∧ Denotes e ∅ :=
  ⟨_, _, .ofComm 1, .diff (.ofComm 1) (.ofComm 1) (r := -1) rfl, .one, .empty⟩

/-- **C38.** A group value stands for one set only, and a set for one value. -/
theorem C38_unique {g g' : Int} {S S' : Set Int} (h : Denotes g S) (h' : Denotes g' S') :
    g = g' ↔ S = S' := by
  cases h <;> cases h' <;> simp [eq_comm]

/-- **C38.** The group of a communicator is {0}, of `MPI_COMM_NULL` the null group. -/
theorem C38_comm_group (c : Int) :
    (c ≠ 0 → Denotes (MPI_Comm_group c) {0}) ∧ MPI_Comm_group 0 = 0 := by
  refine ⟨fun h => ?_, rfl⟩
  simp only [MPI_Comm_group, h, if_false]
  exact .one

/-- **C38.** `MPI_Group_union` computes the union of all valid groups. -/
theorem C38_union {g g' : Int} {S S' : Set Int} (h : Denotes g S) (h' : Denotes g' S') :
    Gives (MPI_Group_union g g') (S ∪ S') := by
  cases h <;> cases h' <;> simp only [Set.empty_union, Set.union_empty, Set.union_self]
  · exact ⟨-1, rfl, .empty⟩
  · exact ⟨1, rfl, .one⟩
  · exact ⟨1, rfl, .one⟩
  · exact ⟨1, rfl, .one⟩

/-- **C38.** `MPI_Group_intersection` computes the intersection of all valid groups. -/
theorem C38_intersection {g g' : Int} {S S' : Set Int} (h : Denotes g S) (h' : Denotes g' S') :
    Gives (MPI_Group_intersection g g') (S ∩ S') := by
  cases h <;> cases h' <;> simp only [Set.empty_inter, Set.inter_empty, Set.inter_self]
  · exact ⟨-1, rfl, .empty⟩
  · exact ⟨-1, rfl, .empty⟩
  · exact ⟨-1, rfl, .empty⟩
  · exact ⟨1, rfl, .one⟩

/-- **C38.** `MPI_Group_difference` computes the difference of all valid groups. -/
theorem C38_difference {g g' : Int} {S S' : Set Int} (h : Denotes g S) (h' : Denotes g' S') :
    Gives (MPI_Group_difference g g') (S \ S') := by
  cases h <;> cases h' <;> simp only [Set.empty_sdiff, Set.sdiff_empty, Set.sdiff_self]
  · exact ⟨-1, rfl, .empty⟩
  · exact ⟨-1, rfl, .empty⟩
  · exact ⟨1, rfl, .one⟩
  · exact ⟨-1, rfl, .empty⟩

/-- The hypotheses are met by {0} and ∅, where the three results differ. -/
example : Gives (MPI_Group_union 1 (-1)) {0} ∧ Gives (MPI_Group_intersection 1 (-1)) ∅ ∧
    Gives (MPI_Group_difference 1 (-1)) {0} ∧ Gives (MPI_Group_difference (-1) 1) ∅ := by
  have a := C38_union .one .empty
  have b := C38_intersection .one .empty
  have c := C38_difference .one .empty
  have d := C38_difference .empty .one
  simp only [Set.union_empty, Set.inter_empty, Set.sdiff_empty, Set.empty_sdiff] at a b c d
  exact ⟨a, b, c, d⟩

/-- **C38.** The null group makes every group operation abort, whatever the other arguments. -/
theorem C38_null (g n : Int) (ranks : List Int) (ranges : List (Int × Int × Int)) :
    (MPI_Group_incl 0 n ranks).aborted = true ∧ (MPI_Group_range_incl 0 n ranges).aborted = true ∧
    (MPI_Group_union 0 g).aborted = true ∧ (MPI_Group_union g 0).aborted = true ∧
    (MPI_Group_intersection 0 g).aborted = true ∧ (MPI_Group_intersection g 0).aborted = true ∧
    (MPI_Group_difference 0 g).aborted = true ∧ (MPI_Group_difference g 0).aborted = true := by
  simp [MPI_Group_incl, MPI_Group_range_incl, MPI_Group_union, MPI_Group_intersection,
    MPI_Group_difference, Res.aborted]

/-- **C38.** So does a group that was freed. -/
theorem C38_freed (f g n : Int) (ranks : List Int) (ranges : List (Int × Int × Int)) :
    (MPI_Group_incl (MPI_Group_free f) n ranks).aborted = true ∧
    (MPI_Group_range_incl (MPI_Group_free f) n ranges).aborted = true ∧
    (MPI_Group_union (MPI_Group_free f) g).aborted = true ∧ (MPI_Group_union g (MPI_Group_free f)).aborted = true ∧
    (MPI_Group_intersection (MPI_Group_free f) g).aborted = true ∧
    (MPI_Group_intersection g (MPI_Group_free f)).aborted = true ∧
    (MPI_Group_difference (MPI_Group_free f) g).aborted = true ∧
    (MPI_Group_difference g (MPI_Group_free f)).aborted = true :=
  C38_null g n ranks ranges

/-- **C38.** The lattice laws, as equations between calls: commutativity, associativity, absorption,
distributivity, and the two laws of the difference. -/
theorem C38_lattice {a b c : Int} {A B C : Set Int} (ha : Denotes a A) (hb : Denotes b B)
    (hc : Denotes c C) :
    MPI_Group_union a b = MPI_Group_union b a ∧
    MPI_Group_intersection a b = MPI_Group_intersection b a ∧
    (do let x ← MPI_Group_union a b; MPI_Group_union x c) =
      (do let x ← MPI_Group_union b c; MPI_Group_union a x) ∧
    (do let x ← MPI_Group_intersection a b; MPI_Group_intersection x c) =
      (do let x ← MPI_Group_intersection b c; MPI_Group_intersection a x) ∧
    (do let x ← MPI_Group_intersection a b; MPI_Group_union a x) = .ok a ∧
    (do let x ← MPI_Group_union a b; MPI_Group_intersection a x) = .ok a ∧
    (do let x ← MPI_Group_union b c; MPI_Group_intersection a x) =
      (do let x ← MPI_Group_intersection a b; let y ← MPI_Group_intersection a c; MPI_Group_union x y) ∧
    (do let x ← MPI_Group_difference a b; MPI_Group_intersection x b) = .ok (-1) ∧
    (do let x ← MPI_Group_difference a b; let y ← MPI_Group_intersection a b; MPI_Group_union x y) =
      .ok a := by
  cases ha <;> cases hb <;> cases hc <;> decide

/-- **C38.** `MPI_Group_incl`: for a valid group and any rank array (at least `n` long), a returned
group is the set of the listed members, and the call returns for every valid rank list; otherwise it
aborts. -/
theorem C38_incl {g n : Int} {S : Set Int} {ranks : List Int} (h : Denotes g S)
    (hn : n ≤ ranks.length) :
    (∀ r : Int, MPI_Group_incl g n ranks = .ok r → Denotes r {p | p ∈ S ∧ p ∈ ranks.take n.toNat}) ∧
    (ValidRanks S n ranks → Gives (MPI_Group_incl g n ranks) {p | p ∈ ranks.take n.toNat}) ∧
    ((MPI_Group_incl g n ranks).returned = true ∨ (MPI_Group_incl g n ranks).aborted = true) := by
  cases h with
  | empty =>
    have e : MPI_Group_incl (-1) n ranks = .ok (-1) := by simp [MPI_Group_incl]
    rw [e]
    refine ⟨?_, ?_, .inl rfl⟩
    · intro r hr; cases hr; simp only [Set.mem_empty_iff_false, false_and, Set.ofPred_false]
      exact .empty
    · rintro ⟨_, _, h, _⟩
      refine ⟨-1, rfl, ?_⟩
      have : {p | p ∈ ranks.take n.toNat} = (∅ : Set Int) := by
        ext p; simp only [Set.mem_ofPred_eq, Set.mem_empty_iff_false, iff_false]
        exact fun hp => h p hp
      rw [this]; exact .empty
  | one =>
    by_cases h0 : n = 0
    · have e : MPI_Group_incl 1 n ranks = .ok (-1) := by simp [MPI_Group_incl, h0]
      rw [e]
      subst h0
      refine ⟨?_, ?_, .inl rfl⟩
      · intro r hr; cases hr; simp only [Int.toNat_zero, List.take_zero, List.not_mem_nil, and_false, Set.ofPred_false]
        exact .empty
      · intro _
        exact ⟨-1, rfl, by simpa using Denotes.empty⟩
    · by_cases h1 : n = 1
      · subst h1
        match ranks, hn with
        | r0 :: rest, hn =>
          by_cases hr : r0 = 0
          · subst hr
            have e : MPI_Group_incl 1 1 (0 :: rest) = .ok 1 := by simp [MPI_Group_incl, rd]
            rw [e]
            have hS : {p : Int | p = 0} = {0} := by ext; simp
            refine ⟨?_, ?_, .inl rfl⟩
            · intro r hr; cases hr
              simp only [Set.mem_singleton_iff, Int.toNat_one, List.take_succ_cons, List.take_zero,
                List.mem_singleton, and_self, hS]
              exact .one
            · intro _
              refine ⟨1, rfl, ?_⟩
              simp only [Int.toNat_one, List.take_succ_cons, List.take_zero, List.mem_singleton, hS]
              exact .one
          · have e : MPI_Group_incl 1 1 (r0 :: rest) =
                .abort "MPI_Group_incl: more than 1 proc in group" := by
              simp [MPI_Group_incl, rd, hr]
            rw [e]
            refine ⟨fun _ h => by (cases h), ?_, .inr rfl⟩
            rintro ⟨_, _, h, _⟩
            have := h r0 (by simp)
            simp at this; exact absurd this hr
      · have e : MPI_Group_incl 1 n ranks = .abort "MPI_Group_incl: more than 1 proc in group" := by
          simp [MPI_Group_incl, h0, h1]
        rw [e]
        refine ⟨fun _ h => by (cases h), ?_, .inr rfl⟩
        rintro ⟨hn0, hl, h, nd⟩
        exfalso
        match ranks, hl, h, nd with
        | [], hl, _, _ => simp at hl; omega
        | [r0], hl, _, _ => simp at hl; omega
        | r0 :: r1 :: rest, hl, h, nd =>
          obtain ⟨k, hk⟩ : ∃ k, n.toNat = k + 2 := ⟨n.toNat - 2, by omega⟩
          rw [hk] at h nd
          have a := h r0 (by simp)
          have b := h r1 (by simp)
          simp at a b
          subst a b
          simp at nd

/-- {0} from {0} and rank list [0]; a list with a duplicate is not valid and aborts. -/
example : ValidRanks {0} 1 [0, 7] ∧ Gives (MPI_Group_incl 1 1 [0, 7]) {0} ∧
    (MPI_Group_incl 1 2 [0, 0]).aborted = true := by
  refine ⟨⟨by decide, by decide, by simp, by simp⟩, ⟨1, rfl, .one⟩, rfl⟩

/-- **C38** (partial). `MPI_Group_range_incl`: for a valid group and any range array whose first `n`
strides are non-zero, a returned group is the set of the described members, it returns for the single
range (0, 0, stride), and otherwise it aborts or the group is empty or no range is given.  Missing:
the full claim "returns for every valid range array" is false, see `C38_fails_range`. -/
theorem C38_range_incl_partial {g n : Int} {S : Set Int} {ranges : List (Int × Int × Int)}
    (h : Denotes g S) (hn : n ≤ ranges.length)
    (hs : ∀ t : Int × Int × Int, t ∈ ranges.take n.toNat → t.2.2 ≠ 0) :
    (∀ r : Int, MPI_Group_range_incl g n ranges = .ok r →
      Denotes r {p | p ∈ S ∧ ∃ t ∈ ranges.take n.toNat, InRange t p}) ∧
    ((S = ∅ ∨ n = 0 ∨ ∃ stride : Int, ranges.take n.toNat = [(0, 0, stride)]) ↔
      (MPI_Group_range_incl g n ranges).returned = true) ∧
    ((MPI_Group_range_incl g n ranges).returned = true ∨
      (MPI_Group_range_incl g n ranges).aborted = true) := by
  cases h with
  | empty =>
    have e : MPI_Group_range_incl (-1) n ranges = .ok (-1) := by simp [MPI_Group_range_incl]
    rw [e]
    refine ⟨?_, by simp [Res.returned], .inl rfl⟩
    intro r hr; cases hr; simp only [Set.mem_empty_iff_false, false_and, Set.ofPred_false]
    exact .empty
  | one =>
    have hne : ({0} : Set Int) ≠ ∅ := Set.singleton_ne_empty 0
    by_cases h0 : n = 0
    · have e : MPI_Group_range_incl 1 n ranges = .ok (-1) := by simp [MPI_Group_range_incl, h0]
      rw [e]
      subst h0
      refine ⟨?_, by simp [Res.returned], .inl rfl⟩
      intro r hr; cases hr
      simpa using Denotes.empty
    · by_cases h1 : n = 1
      · subst h1
        match ranges, hn, hs with
        | (f, l, st) :: rest, hn, hs =>
          have hst : st ≠ 0 := hs (f, l, st) (by simp)
          by_cases hr : f = 0 ∧ l = 0
          · obtain ⟨rfl, rfl⟩ := hr
            have e : MPI_Group_range_incl 1 1 ((0, 0, st) :: rest) = .ok 1 := by
              simp [MPI_Group_range_incl, rd]
            rw [e]
            refine ⟨?_, by simp [Res.returned], .inl rfl⟩
            intro r hr; cases hr
            have hS : {p : Int | p ∈ ({0} : Set Int) ∧ ∃ t ∈ List.take (1 : Int).toNat ((0, 0, st) :: rest),
                InRange t p} = {0} := by
              ext p
              simp only [Set.mem_singleton_iff, Set.mem_ofPred_eq, and_iff_left_iff_imp]
              rintro rfl
              refine ⟨(0, 0, st), by simp, ?_⟩
              simp only [InRange, Int.sub_self, Int.dvd_zero, le_refl, and_true, true_and]
              omega
            rw [hS]; exact .one
          · have e : MPI_Group_range_incl 1 1 ((f, l, st) :: rest) =
                .abort "MPI_Group_range_incl: more than 1 proc in group" := by
              simp only [MPI_Group_range_incl, rd, List.getElem?_cons_zero, Res.ok_bind, if_neg hr]
              simp
            rw [e]
            refine ⟨fun _ h => by (cases h), ?_, .inr rfl⟩
            simp only [hne, Int.toNat_one, List.take_succ_cons, List.take_zero, List.cons.injEq,
              Prod.mk.injEq, and_true, false_or, Res.returned, Bool.false_eq_true, iff_false]
            rintro (h | ⟨_, rfl, rfl, _⟩)
            · exact absurd h (by decide)
            · exact hr ⟨rfl, rfl⟩
      · have e : MPI_Group_range_incl 1 n ranges =
            .abort "MPI_Group_range_incl: more than 1 proc in group" := by
          simp [MPI_Group_range_incl, h0, h1]
        rw [e]
        refine ⟨fun _ h => by (cases h), ?_, .inr rfl⟩
        simp only [hne, h0, false_or, Res.returned, Bool.false_eq_true, iff_false]
        rintro ⟨st, hst⟩
        have := congrArg List.length hst
        simp only [List.length_take, List.length_cons, List.length_nil] at this
        omega

/-- C38 fails for all valid ranges of a nonempty group that are not written as the single triple `(0, 0, stride)`:
MPI_Group_range_incl aborts, also if they describe rank 0 and no other. -/
theorem C38_fails_range_always {g n : Int} {S : Set Int} {ranges : List (Int × Int × Int)} (h : Denotes g S)
    (hS : S ≠ ∅) (hv : ValidRanges S n ranges) (hn : n ≠ 0) (hr : ∀ stride : Int, ranges.take n.toNat ≠ [(0, 0, stride)]) :
    (MPI_Group_range_incl g n ranges).aborted = true := by
  obtain ⟨_, h1, h2⟩ := C38_range_incl_partial h hv.2.1 hv.2.2.1
  rcases h2 with h2 | h2
  · rcases h1.2 h2 with h3 | h3 | ⟨st, h3⟩
    · exact absurd h3 hS
    · exact absurd h3 hn
    · exact absurd h3 (hr st)
  · exact h2

/-- **C38 fails** for strided ranges: (0, 3, 5) describes exactly rank 0, so it is a valid range for
the one-process group and the result should be {0}, but the call aborts (group.c:71 compares `last`
with 0). -/
theorem C38_fails_range :
    ValidRanges {0} 1 [(0, 3, 5)] ∧ {p | ∃ t ∈ [((0 : Int), (3 : Int), (5 : Int))], InRange t p} = {0} ∧
    (MPI_Group_range_incl 1 1 [(0, 3, 5)]).aborted = true := by
  have hr : ∀ r : Int, InRange (0, 3, 5) r ↔ r = 0 := by
    intro r; simp only [InRange]; omega
  refine ⟨⟨by decide, by decide, by simp, ?_, by simp⟩, ?_, rfl⟩
  · intro t r ht h
    simp at ht; subst ht; simpa using (hr r).1 h
  · ext p; simp [hr]

/-! ## C39: rank translation -/

/-- Value `MPI_Group_translate_ranks` must report for rank 0: 0 when the process is in the target
group, `MPI_UNDEFINED` otherwise. -/
inductive Translated (S : Set Int) : Int → Prop
  | present : (0 : Int) ∈ S → Translated S 0
  | absent : (0 : Int) ∉ S → Translated S (-1)

theorem wr_ok {α : Type} {a : List α} {i : Nat} (x : α) (h : i < a.length) :
    wr a i x = .ok (a.set i x) := by simp [wr, h]

theorem translateLoop_ok (ranks1 : List Int) (g2 : Int) :
    ∀ (n i : Nat) (ranks2 : List Int), i + n ≤ ranks2.length →
      (∀ k : Nat, i ≤ k → k < i + n → ranks1[k]? = some 0) →
      translateLoop ranks1 g2 n i ranks2 = .ok (ranks2.take i ++
          List.replicate n (if g2 ≠ -1 then 0 else -1) ++ ranks2.drop (i + n)) := by
  intro n
  induction n with
  | zero => intro i ranks2 _ _; simp [translateLoop]
  | succ n ih =>
    intro i ranks2 h2 hz
    have e : rd ranks1 i = .ok 0 := by simp [rd, hz i (Nat.le_refl i) (by omega)]
    unfold translateLoop
    rw [e, Res.ok_bind, if_neg (by simp), wr_ok _ (by omega), Res.ok_bind,
      ih (i + 1) _ (by rw [List.length_set]; omega) (fun k a b => hz k (by omega) (by omega))]
    congr 1
    rw [List.take_add_one, List.take_set_of_le (Nat.le_refl i), List.drop_set_of_lt (by omega),
      List.getElem?_set_self (by omega), List.replicate_succ]
    simp only [Option.toList_some, List.append_assoc, List.cons_append, List.nil_append]
    rw [show i + 1 + n = i + (n + 1) by omega]

theorem translateLoop_abort (ranks1 : List Int) (g2 : Int) :
    ∀ (n i : Nat) (ranks2 : List Int), i + n ≤ ranks1.length → i + n ≤ ranks2.length →
      (∃ k : Nat, i ≤ k ∧ k < i + n ∧ ranks1[k]? ≠ some 0) →
      (translateLoop ranks1 g2 n i ranks2).aborted = true := by
  intro n
  induction n with
  | zero => rintro i ranks2 _ _ ⟨k, _, _, _⟩; omega
  | succ n ih =>
    rintro i ranks2 h1 h2 ⟨k, a, b, c⟩
    obtain ⟨r, hr⟩ : ∃ r, ranks1[i]? = some r := ⟨ranks1[i], List.getElem?_eq_getElem (by omega)⟩
    have e : rd ranks1 i = .ok r := by simp [rd, hr]
    unfold translateLoop
    rw [e, Res.ok_bind]
    split
    · rfl
    · rename_i h0
      rw [wr_ok _ (by omega), Res.ok_bind]
      refine ih (i + 1) _ (by omega) (by rw [List.length_set]; omega) ⟨k, ?_, by omega, c⟩
      rcases Nat.eq_or_lt_of_le a with rfl | h
      · exfalso; rw [hr] at c; simp at c h0; exact c h0
      · exact h

/-- **C39.** For valid groups and arrays of any length (at least `n`), when the source group contains
the process or `n = 0`, and the first `n` input ranks are all 0, the call returns and the output array
is `n` copies of the translated rank followed by its old remainder. -/
theorem C39_translate {g1 g2 : Int} {S1 S2 : Set Int} {n : Nat} {ranks1 ranks2 : List Int}
    (h1 : Denotes g1 S1) (h2 : Denotes g2 S2) (hl1 : n ≤ ranks1.length) (hl2 : n ≤ ranks2.length)
    (hsrc : (0 : Int) ∈ S1 ∨ n = 0) (hz : ∀ r : Int, r ∈ ranks1.take n → r = 0) :
    ∃ v : Int, Translated S2 v ∧
      MPI_Group_translate_ranks g1 n ranks1 g2 ranks2 =
        .ok (List.replicate n v ++ ranks2.drop n) := by
  have hv : ∃ v : Int, Translated S2 v ∧ (if g2 ≠ -1 then 0 else -1) = v := by
    cases h2
    · exact ⟨-1, .absent (by simp), rfl⟩
    · exact ⟨0, .present (by simp), rfl⟩
  obtain ⟨v, tv, ev⟩ := hv
  refine ⟨v, tv, ?_⟩
  have hnull : ¬ (g1 = 0 ∨ g2 = 0) := by cases h1 <;> cases h2 <;> decide
  unfold MPI_Group_translate_ranks
  rw [if_neg hnull]
  by_cases hn : n = 0
  · subst hn; simp
  · have hne : ¬ (n : Int) = 0 := by omega
    have hs1 : ¬ g1 = -1 := by
      cases h1
      · simp [hn] at hsrc
      · decide
    rw [if_neg hne, if_neg hs1]
    have := translateLoop_ok ranks1 g2 n 0 ranks2 (by omega) ?_
    · rw [ev] at this; simpa using this
    · intro k _ hk
      have hk' : k < n := by omega
      rw [List.getElem?_eq_getElem (by omega)]
      congr 1
      exact hz _ (List.mem_take_iff_getElem.2 ⟨k, by omega, rfl⟩)

/-- Both target groups, on an array of two with one more output entry. -/
example : MPI_Group_translate_ranks 1 2 [0, 0] 1 [7, 7, 7] = .ok [0, 0, 7] ∧
    MPI_Group_translate_ranks 1 2 [0, 0] (-1) [7, 7, 7] = .ok [-1, -1, 7] := by decide

/-- **C39.** It aborts on any non-zero rank among the first `n`, on a null group, and on an empty
source group with `n > 0`. -/
theorem C39_aborts {g1 g2 : Int} {n : Nat} {ranks1 ranks2 : List Int}
    (hl1 : n ≤ ranks1.length) (hl2 : n ≤ ranks2.length)
    (h : g1 = 0 ∨ g2 = 0 ∨ (g1 = -1 ∧ 0 < n) ∨ ∃ r : Int, r ∈ ranks1.take n ∧ r ≠ 0) :
    (MPI_Group_translate_ranks g1 n ranks1 g2 ranks2).aborted = true := by
  unfold MPI_Group_translate_ranks
  split
  · rfl
  · rename_i hnull
    split
    · rename_i hn
      have : n = 0 := by omega
      subst this
      simp at h hnull
      omega
    · split
      · rfl
      · rename_i hn hg1
        refine translateLoop_abort ranks1 g2 _ 0 ranks2 (by omega) (by omega) ?_
        rcases h with h | h | h | ⟨r, hr, hr0⟩
        · exact absurd (.inl h) hnull
        · exact absurd (.inr h) hnull
        · exact absurd h.1 hg1
        · obtain ⟨k, hk, rfl⟩ := List.mem_take_iff_getElem.1 hr
          refine ⟨k, by omega, by simp; omega, ?_⟩
          rw [List.getElem?_eq_getElem (by omega)]
          simpa using hr0

/-- A bad rank behind a good one. -/
example : (MPI_Group_translate_ranks 1 2 [0, 3] 1 [7, 7]).aborted = true := by decide

end MpiSerial
