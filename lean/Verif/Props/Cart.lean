import Verif.Props.Group
import Verif.Model.Cart
import Verif.Spec.Cart
import Verif.Proofs.Demo

/-!
# Cartesian helpers (C40, C60)
-/

set_option autoImplicit false

namespace MpiSerial

theorem cartCheck_ok (dims : List Int) : ∀ (n i : Nat), (∀ k : Nat, i ≤ k → k < i + n → ∃ d : Int, dims[k]? = some d ∧ d ≤ 1) →
    cartCheck dims n i = .ok () := by
  intro n
  induction n with
  | zero => intro i _; rfl
  | succ n ih =>
    intro i h
    obtain ⟨d, h1, h2⟩ := h i (Nat.le_refl i) (by omega)
    unfold cartCheck
    rw [rd, h1, Res.ok_bind, if_neg (by omega)]
    exact ih (i + 1) (fun k a b => h k (by omega) (by omega))

theorem cartCheck_abort (dims : List Int) : ∀ (n i : Nat), i + n ≤ dims.length →
    (∃ k : Nat, i ≤ k ∧ k < i + n ∧ ∃ d : Int, dims[k]? = some d ∧ 1 < d) →
    (cartCheck dims n i).aborted = true := by
  intro n
  induction n with
  | zero => rintro i _ ⟨k, _, _, _⟩; omega
  | succ n ih =>
    rintro i hl ⟨k, a, b, d, h1, h2⟩
    unfold cartCheck
    rw [rd, List.getElem?_eq_getElem (by omega), Res.ok_bind]
    split
    · rfl
    · next hle =>
      refine ih (i + 1) (by omega) ⟨k, ?_, by omega, d, h1, h2⟩
      rcases Nat.eq_or_lt_of_le a with rfl | h
      · rw [List.getElem?_eq_getElem (by omega)] at h1
        simp only [Option.some.injEq] at h1
        omega
      · exact h

/-- **C40.** `MPI_Cart_create` with any number of dimensions: when every requested dimension is at
most 1 it does what `MPI_Comm_dup` does (C37 says when that succeeds); otherwise it aborts. -/
theorem C40_create (s : Sys) (comm : Int) (n : Nat) (dims : List Int) (hl : n ≤ dims.length) :
    ((∀ d : Int, d ∈ dims.take n → d ≤ 1) → MPI_Cart_create s comm n dims = MPI_Comm_dup s comm) ∧
    ((∃ d : Int, d ∈ dims.take n ∧ 1 < d) → (MPI_Cart_create s comm n dims).aborted = true) := by
  constructor
  · intro h
    unfold MPI_Cart_create
    rw [show (n : Int).toNat = n from by simp, cartCheck_ok dims n 0 (fun k _ hk => ?_), Res.ok_bind]
    exact ⟨dims[k], List.getElem?_eq_getElem (by omega), h _ (List.mem_take_iff_getElem.2 ⟨k, by omega, rfl⟩)⟩
  · rintro ⟨d, hd, h1⟩
    obtain ⟨k, hk, rfl⟩ := List.mem_take_iff_getElem.1 hd
    have := cartCheck_abort dims n 0 (by omega) ⟨k, by omega, by omega, _, List.getElem?_eq_getElem (by omega), h1⟩
    unfold MPI_Cart_create
    rw [show (n : Int).toNat = n from by simp]
    cases hc : cartCheck dims n 0 with
    | abort m => rfl
    | _ => rw [hc] at this; simp [Res.aborted] at this

/-- **C40.** `MPI_Cart_create` succeeds iff every requested dimension is at most 1 (when a handle is
free, i.e. when `MPI_Comm_dup` succeeds). -/
theorem C40_create_iff (s : Sys) (comm : Int) (n : Nat) (dims : List Int) (hl : n ≤ dims.length)
    (hd : (MPI_Comm_dup s comm).returned = true) :
    (MPI_Cart_create s comm n dims).returned = true ↔ ∀ d : Int, d ∈ dims.take n → d ≤ 1 := by
  obtain ⟨h1, h2⟩ := C40_create s comm n dims hl
  constructor
  · intro hr d hm
    rcases Int.lt_or_le 1 d with h | h
    · have := h2 ⟨d, hm, h⟩
      cases hc : MPI_Cart_create s comm n dims <;> rw [hc] at hr this <;> simp [Res.returned, Res.aborted] at hr this
    · exact h
  · intro h; rw [h1 h]; exact hd

/-- A 0 x 1 x -3 grid is accepted, a 1 x 2 grid is not; a third entry of the array is not looked at. -/
example : (MPI_Comm_dup H8.s 1).returned = true ∧ (MPI_Cart_create H8.s 1 3 [0, 1, -3]).returned = true ∧
    (MPI_Cart_create H8.s 1 2 [1, 2]).aborted = true ∧
    (MPI_Cart_create H8.s 1 2 [1, 1, 5]).returned = true := by decide +kernel

theorem setLoop_ok (x : Int) : ∀ (n i : Nat) (a : List Int), i + n ≤ a.length →
    setLoop x n i a = .ok (a.take i ++ List.replicate n x ++ a.drop (i + n)) := by
  intro n
  induction n with
  | zero => intro i a _; simp [setLoop]
  | succ n ih =>
    intro i a h
    unfold setLoop
    rw [wr_ok _ (by omega), Res.ok_bind, ih (i + 1) _ (by rw [List.length_set]; omega)]
    congr 1
    rw [List.take_add_one, List.take_set_of_le (Nat.le_refl i), List.drop_set_of_lt (by omega),
      List.getElem?_set_self (by omega), List.replicate_succ]
    simp only [Option.toList_some, List.append_assoc, List.cons_append, List.nil_append]
    rw [show i + 1 + n = i + (n + 1) by omega]

theorem cartGetLoop_eq : ∀ (n i : Nat) (dims coords : List Int), i + n ≤ dims.length → i + n ≤ coords.length →
    cartGetLoop n i dims coords = .ok (dims.take i ++ List.replicate n 1 ++ dims.drop (i + n),
      coords.take i ++ List.replicate n 0 ++ coords.drop (i + n)) := by
  intro n
  induction n with
  | zero => intro i a b _ _; simp [cartGetLoop]
  | succ n ih =>
    intro i a b ha hb
    unfold cartGetLoop
    rw [wr_ok _ (by omega), Res.ok_bind, wr_ok _ (by omega), Res.ok_bind,
      ih (i + 1) _ _ (by rw [List.length_set]; omega) (by rw [List.length_set]; omega)]
    congr 2 <;>
    · rw [List.take_add_one, List.take_set_of_le (Nat.le_refl i), List.drop_set_of_lt (by omega),
        List.getElem?_set_self (by omega), List.replicate_succ]
      simp only [Option.toList_some, List.append_assoc, List.cons_append, List.nil_append]
      rw [show i + 1 + n = i + (n + 1) by omega]

/-- **C40.** `MPI_Cart_get` reports all dimensions 1 and all coordinates 0, in exactly the first
`maxdims` entries, and leaves `periods` alone. -/
theorem C40_get (comm : Int) (n : Nat) (dims periods coords : List Int) (hd : n ≤ dims.length)
    (hc : n ≤ coords.length) :
    MPI_Cart_get comm n dims periods coords =
      .ok (List.replicate n 1 ++ dims.drop n, periods, List.replicate n 0 ++ coords.drop n) := by
  unfold MPI_Cart_get
  rw [show (n : Int).toNat = n from by simp, cartGetLoop_eq n 0 dims coords (by omega) (by omega), Res.ok_bind]
  simp

example : MPI_Cart_get 1 2 [5, 6, 7] [3] [8, 9] = .ok ([1, 1, 7], [3], [0, 0]) := by decide

/-- **C40.** `MPI_Cart_coords` reports all coordinates 0 in exactly the first `maxdims` entries for
rank 0, and aborts for any other rank. -/
theorem C40_coords (comm rank : Int) (n : Nat) (coords : List Int) (hl : n ≤ coords.length) :
    (rank = 0 → MPI_Cart_coords comm rank n coords = .ok (List.replicate n 0 ++ coords.drop n)) ∧
    (rank ≠ 0 → (MPI_Cart_coords comm rank n coords).aborted = true) := by
  unfold MPI_Cart_coords
  constructor <;> intro h
  · rw [if_neg (by simp [h]), show (n : Int).toNat = n from by simp, setLoop_ok 0 n 0 coords (by omega)]; simp
  · rw [if_pos h]; rfl

example : MPI_Cart_coords 1 0 2 [5, 6, 7] = .ok [0, 0, 7] := by decide

/-- **C40.** `MPI_Dims_create` writes 1 to exactly the first `ndims` entries when at most one node is
asked for, and aborts otherwise. -/
theorem C40_dims (nnodes : Int) (n : Nat) (dims : List Int) (hl : n ≤ dims.length) :
    (nnodes ≤ 1 → MPI_Dims_create nnodes n dims = .ok (List.replicate n 1 ++ dims.drop n)) ∧
    (1 < nnodes → (MPI_Dims_create nnodes n dims).aborted = true) := by
  unfold MPI_Dims_create
  constructor <;> intro h
  · rw [if_neg (by omega), show (n : Int).toNat = n from by simp, setLoop_ok 1 n 0 dims (by omega)]; simp
  · rw [if_pos h]; rfl

example : MPI_Dims_create 1 2 [0, 0, 7] = .ok [1, 1, 7] := by decide

/-- **C40.** A non-positive number of dimensions touches nothing. -/
theorem C40_none (s : Sys) (comm : Int) (n : Int) (hn : n ≤ 0) (a b c : List Int) :
    MPI_Cart_create s comm n a = MPI_Comm_dup s comm ∧ MPI_Cart_get comm n a b c = .ok (a, b, c) ∧
    MPI_Cart_coords comm 0 n a = .ok a ∧ MPI_Dims_create 1 n a = .ok a := by
  have : n.toNat = 0 := by omega
  simp [MPI_Cart_create, MPI_Cart_get, MPI_Cart_coords, MPI_Dims_create, this, cartCheck, cartGetLoop, setLoop]

/-! ## The topology as the standard describes it (C60) -/

theorem cells_pos : ∀ l : List Int, (∀ d : Int, d ∈ l → 0 < d) → 0 < Spec.cells l
  | [], _ => by simp [Spec.cells]
  | d :: ds, h => Int.mul_pos (h d (List.mem_cons_self ..)) (cells_pos ds fun x hx => h x (List.mem_cons_of_mem _ hx))

theorem le_cells : ∀ l : List Int, (∀ d : Int, d ∈ l → 0 < d) → ∀ d : Int, d ∈ l → d ≤ Spec.cells l
  | [], _, _, h => by cases h
  | e :: es, h, d, hd => by
    have h1 := h e (List.mem_cons_self ..)
    have h2 : ∀ d : Int, d ∈ es → 0 < d := fun x hx => h x (List.mem_cons_of_mem _ hx)
    have h3 := cells_pos es h2
    rcases List.mem_cons.1 hd with rfl | hd
    · have := Int.mul_le_mul_of_nonneg_left (show 1 ≤ Spec.cells es by omega) (show 0 ≤ d by omega)
      rw [Spec.cells]; omega
    · have := Int.mul_le_mul_of_nonneg_right (show 1 ≤ e by omega) (show 0 ≤ Spec.cells es by omega)
      have := le_cells es h2 d hd
      rw [Spec.cells]; omega

theorem cells_one (n : Nat) : Spec.cells (List.replicate n 1) = 1 := by
  induction n with
  | zero => rfl
  | succ n ih => rw [List.replicate_succ, Spec.cells, ih]; rfl

theorem rankOf_zero (n : Nat) : Spec.rankOf (List.replicate n 1) (List.replicate n 0) = some 0 := by
  induction n with
  | zero => rfl
  | succ n ih => rw [List.replicate_succ, List.replicate_succ, Spec.rankOf, ih]; simp

/-- **C60.** For positive dimensions `MPI_Cart_create` succeeds iff the grid has at most as many positions as there are
processes, namely one (when a handle is free); otherwise it aborts. -/
theorem C60_create_partial (s : Sys) (comm : Int) (dims : List Int) (hp : ∀ d : Int, d ∈ dims → 0 < d)
    (hd : (MPI_Comm_dup s comm).returned = true) :
    ((MPI_Cart_create s comm dims.length dims).returned = true ↔ Spec.cells dims ≤ 1) ∧
    (1 < Spec.cells dims → (MPI_Cart_create s comm dims.length dims).aborted = true) := by
  have key : (∀ d : Int, d ∈ dims → d ≤ 1) ↔ Spec.cells dims ≤ 1 := by
    constructor
    · intro h
      have : dims = List.replicate dims.length 1 :=
        List.eq_replicate_iff.2 ⟨rfl, fun d hd => by have := h d hd; have := hp d hd; omega⟩
      exact Int.le_of_eq (this ▸ cells_one dims.length)
    · intro h d hd
      exact Int.le_trans (le_cells dims hp d hd) h
  refine ⟨?_, fun h => ?_⟩
  · rw [C40_create_iff s comm dims.length dims (Nat.le_refl _) hd, List.take_length, key]
  · refine (C40_create s comm dims.length dims (Nat.le_refl _)).2 ?_
    rw [List.take_length]
    refine Classical.byContradiction fun hn => ?_
    have := key.1 fun d hd => Int.not_lt.1 fun hl => hn ⟨d, hd, hl⟩
    omega

example : Spec.cells [1, 1] ≤ 1 ∧ (∀ d : Int, d ∈ [1, 2] → 0 < d) ∧ 1 < Spec.cells [1, 2] ∧
    (MPI_Cart_create H8.s 1 2 [1, 2]).aborted = true := by decide +kernel

/-- **C60.** What `MPI_Cart_get` reads back from a communicator made with positive dimensions: the dimensions that were
asked for, and coordinates whose rank is that of the only process, whatever the arrays held.  Missing: the periods
(`C60_fails_periods`). -/
theorem C60_get_partial (s s' : Sys) (comm cart : Int) (dims : List Int) (hp : ∀ d : Int, d ∈ dims → 0 < d)
    (hc : MPI_Cart_create s comm dims.length dims = .ok (s', cart)) (a p c : List Int)
    (ha : a.length = dims.length) (hcl : c.length = dims.length) :
    ∃ (p' coords : List Int), MPI_Cart_get cart dims.length a p c = .ok (dims, p', coords) ∧
      Spec.rankOf dims coords = some 0 ∧ MPI_Cart_coords cart 0 dims.length c = .ok coords := by
  have h1 : ∀ d : Int, d ∈ dims → d ≤ 1 := by
    intro d hd
    refine Int.not_lt.1 fun hl => ?_
    have := (C40_create s comm dims.length dims (Nat.le_refl _)).2 ⟨d, by rwa [List.take_length], hl⟩
    rw [hc] at this; simp [Res.aborted] at this
  have h2 : dims = List.replicate dims.length 1 :=
    List.eq_replicate_iff.2 ⟨rfl, fun d hd => by have := h1 d hd; have := hp d hd; omega⟩
  refine ⟨p, List.replicate dims.length 0, ?_, ?_, ?_⟩
  · rw [C40_get cart dims.length a p c (by omega) (by omega), List.drop_eq_nil_of_le (by omega),
      List.drop_eq_nil_of_le (by omega), List.append_nil, List.append_nil, ← h2]
  · have := rankOf_zero dims.length
    rwa [← h2] at this
  · rw [(C40_coords cart 0 dims.length c (by omega)).1 rfl, List.drop_eq_nil_of_le (by omega), List.append_nil]

/-- A 1 x 1 x 1 grid, read back into arrays with other contents. -/
example : ∃ s' cart, MPI_Cart_create H8.s 1 3 [1, 1, 1] = .ok (s', cart) ∧ (∀ d : Int, d ∈ [1, 1, 1] → 0 < d) ∧
    MPI_Cart_get cart 3 [7, 8, 9] [5, 5, 5] [4, 4, 4] = .ok ([1, 1, 1], [5, 5, 5], [0, 0, 0]) := by
  have : (MPI_Cart_create H8.s 1 3 [1, 1, 1]).returned = true := by decide +kernel
  cases h : MPI_Cart_create H8.s 1 3 [1, 1, 1] with
  | ok x => exact ⟨x.1, x.2, rfl, by decide, rfl⟩
  | _ => rw [h] at this; simp [Res.returned] at this

/-- **C60 fails: the periods are lost.** Whatever the communicator and the periods it was made with (at least one
dimension), there are arrays for which `MPI_Cart_get` leaves something else in `periods`. -/
theorem C60_fails_periods (cart : Int) (n : Nat) (hn : 0 < n) (asked : List Int) (ha : asked.length = n)
    (a c : List Int) (hal : n ≤ a.length) (hcl : n ≤ c.length) :
    ∃ p a' p' c' : List Int, p.length = n ∧ MPI_Cart_get cart n a p c = .ok (a', p', c') ∧ p' ≠ asked := by
  refine ⟨asked.map (fun x => 1 - x), _, _, _, by simpa using ha, C40_get cart n a _ c hal hcl, fun h => ?_⟩
  have h0 : asked[0]? = some asked[0] := List.getElem?_eq_getElem (by omega)
  have h1 := congrArg (·[0]?) h
  simp only [List.getElem?_map, h0, Option.map_some, Option.some.injEq] at h1
  omega

example : MPI_Cart_get 1 2 [0, 0] [0, 1] [0, 0] = .ok ([1, 1], [0, 1], [0, 0]) ∧ ([0, 1] : List Int) ≠ [1, 0] := by decide

/-- **C60 fails: impossible grids.** A dimension below 1 is accepted, and the dimensions read back are not those of the
call. -/
theorem C60_fails_zero (s : Sys) (comm : Int) (dims : List Int) (hl : ∀ d : Int, d ∈ dims → d ≤ 1)
    (hz : ∃ d : Int, d ∈ dims ∧ d ≤ 0) (hd : (MPI_Comm_dup s comm).returned = true) :
    (MPI_Cart_create s comm dims.length dims).returned = true ∧
    ∀ (cart : Int) (a p c : List Int), a.length = dims.length → c.length = dims.length →
      ∃ a' p' c' : List Int, MPI_Cart_get cart dims.length a p c = .ok (a', p', c') ∧ a' ≠ dims := by
  refine ⟨(C40_create_iff s comm dims.length dims (Nat.le_refl _) hd).2 (by rwa [List.take_length]), ?_⟩
  intro cart a p c ha hc
  refine ⟨_, _, _, C40_get cart dims.length a p c (by omega) (by omega), fun h => ?_⟩
  obtain ⟨d, h1, h2⟩ := hz
  rw [← h, List.drop_eq_nil_of_le (by omega), List.append_nil] at h1
  have := List.eq_of_mem_replicate h1
  omega

example : (MPI_Comm_dup H8.s 1).returned = true ∧ (MPI_Cart_create H8.s 1 2 [1, -3]).returned = true := by decide +kernel

/-- **C60.** `MPI_Dims_create` for one node, with no constraint other than 1: a grid the standard allows. -/
theorem C60_dims_partial (dims : List Int) (h : ∀ d : Int, d ∈ dims → d = 0 ∨ d = 1) :
    ∃ dims', MPI_Dims_create 1 dims.length dims = .ok dims' ∧ Spec.Chosen 1 dims dims' := by
  refine ⟨List.replicate dims.length 1, ?_, by simp, cells_one _, ?_, ?_⟩
  · rw [(C40_dims 1 dims.length dims (Nat.le_refl _)).1 (Int.le_refl 1), List.drop_length, List.append_nil]
  · intro d hd; have := List.eq_of_mem_replicate hd; omega
  · intro i d hi hd
    have hlt : i < dims.length := (List.getElem?_eq_some_iff.1 hi).1
    rw [List.getElem?_replicate, if_pos hlt]
    rcases h d (List.mem_of_getElem? hi) with rfl | rfl
    · exact absurd rfl hd
    · rfl

example : MPI_Dims_create 1 3 [0, 1, 0] = .ok [1, 1, 1] ∧ ∀ d : Int, d ∈ [0, 1, 0] → d = 0 ∨ d = 1 := by decide

/-- **C60 fails: constraints are overwritten.** An entry other than 0 and 1 - for which no grid of one node exists, or
which is negative, so that the call is erroneous - is not refused but replaced. -/
theorem C60_fails_dims (nnodes : Int) (dims : List Int) (hn : nnodes ≤ 1)
    (h : ∃ d : Int, d ∈ dims ∧ d ≠ 0 ∧ d ≠ 1) :
    ∃ dims', MPI_Dims_create nnodes dims.length dims = .ok dims' ∧ ¬ Spec.Chosen nnodes dims dims' := by
  refine ⟨_, (C40_dims nnodes dims.length dims (Nat.le_refl _)).1 hn, ?_⟩
  rintro ⟨_, _, _, h4⟩
  obtain ⟨d, h1, h2, h3⟩ := h
  obtain ⟨i, hi⟩ := List.mem_iff_getElem?.1 h1
  have hlt : i < dims.length := (List.getElem?_eq_some_iff.1 hi).1
  have := h4 i d hi h2
  rw [List.drop_length, List.append_nil, List.getElem?_replicate, if_pos hlt] at this
  simp only [Option.some.injEq] at this
  exact h3 this.symm

example : MPI_Dims_create 1 2 [0, 2] = .ok [1, 1] ∧ MPI_Dims_create 0 1 [0] = .ok [1] := by decide

end MpiSerial
