import Verif.Spec.Capacity
import Verif.Proofs.MachineStep

/-!
# Running out of handle numbers
-/

set_option linter.unusedSimpArgs false
set_option autoImplicit false

namespace MpiSerial

/-! ## Functions that never abort -/

/-- The function does not call abort(). -/
def Res.Calm {α : Type} (x : Res α) : Prop := x.aborted = false

/-- If it returns, `Q` holds; it dies for want of handle numbers only if `E` holds. -/
def Res.Fits {α : Type} (E : Prop) (Q : α → Prop) : Res α → Prop
  | .ok a => Q a
  | .abort m => m = exhausted → E
  | _ => True

namespace Res
variable {α β : Type} {E : Prop} {Q : α → Prop} {R : β → Prop}

theorem Calm.bind {x : Res α} {f : α → Res β} (h : x.Calm) (h2 : ∀ a, (f a).Calm) : (x >>= f).Calm := by
  cases x with
  | ok a => exact h2 a
  | abort m => cases h
  | _ => rfl

theorem Calm.ite {p : Prop} [Decidable p] {x y : Res α} (h : x.Calm) (h2 : y.Calm) : (if p then x else y).Calm := by
  split <;> assumption

theorem Fits.of (x : Res α) (h : x.Calm) (hQ : ∀ a, x = .ok a → Q a) : x.Fits E Q := by
  cases x with
  | ok a => exact hQ a rfl
  | abort m => cases h
  | _ => trivial

theorem Fits.bind {x : Res α} {f : α → Res β} (h : x.Fits E Q) (h2 : ∀ a, x = .ok a → Q a → (f a).Fits E R) : (x >>= f).Fits E R := by
  cases x with
  | ok a => exact h2 a rfl h
  | abort m => exact h
  | _ => trivial

/-- Something that neither aborts nor touches the machine comes first. -/
theorem Fits.after {x : Res α} {f : α → Res β} (h : x.Calm) (h2 : ∀ a, x = .ok a → (f a).Fits E R) : (x >>= f).Fits E R :=
  Fits.bind (Q := fun _ => True) (.of x h fun _ _ => trivial) fun a e _ => h2 a e

theorem Fits.mono {E' : Prop} {Q' : α → Prop} {x : Res α} (h : x.Fits E Q) (hE : E → E') (hQ : ∀ a, x = .ok a → Q a → Q' a) : x.Fits E' Q' := by
  cases x with
  | ok a => exact hQ a rfl h
  | abort m => exact fun e => hE (h e)
  | _ => trivial

theorem Fits.ite {p : Prop} [Decidable p] {x y : Res α} (h : x.Fits E Q) (h2 : y.Fits E Q) : (if p then x else y).Fits E Q := by
  split <;> assumption

theorem Fits.abort {m : String} (h : m ≠ exhausted) : (Res.abort m : Res α).Fits E Q := fun e => absurd e h

end Res

open Res (Calm Fits)

/-- Proves that a function made of calm pieces is calm. -/
macro "calm" : tactic => `(tactic| repeat' (first
  | rfl
  | assumption
  | exact Calm.bind ‹_› fun _ => ‹_›
  | refine Calm.bind ?_ fun _ => ?_
  | refine Calm.ite ?_ ?_
  | split))

section
variable {cfg : Cfg} {g : Garbage}

theorem ck32_calm (x : Int) : (ck32 x).Calm := by unfold ck32; calm
theorem ck64_calm (x : Int) : (ck64 x).Calm := by unfold ck64; calm
theorem rd_calm {α : Type} (a : List α) (i : Nat) : (rd a i).Calm := by unfold rd; calm
theorem vla_calm (n : Int) : (vla n).Calm := by unfold vla; calm
theorem pair_calm (t : Typestruct) (k : Int) : (t.pair k).Calm := by unfold Typestruct.pair; calm
theorem simpleLength_calm (t : Int) : (Simpletype_length cfg t).Calm := by unfold Simpletype_length; calm
theorem setPair_calm (l : List Pair) (k : Nat) (p : Pair) : (setPair l k p).Calm := by unfold setPair; calm
theorem memcpy_calm (m : Mem) (d s : Int) (n : Nat) : (memcpy m d s n).Calm := by unfold memcpy; calm
theorem put_calm (st : StPtr) (a b : Int) : (st.put a b).Calm := by unfold StPtr.put; calm
theorem stAt_calm (a : StArr) (i : Nat) : (a.at i).Calm := by
  unfold StArr.at
  split
  · calm
  · exact (rd_calm _ _).bind fun _ => rfl

theorem calcPadding_calm (t : Typestruct) : (calc_padding cfg t).Calm := by
  have key : ∀ n i m, (calcPaddingLoop cfg t n i m).Calm := by
    intro n
    induction n with
    | zero => intros; rfl
    | succ n ih => exact fun i m => (pair_calm _ _).bind fun _ => (simpleLength_calm _).bind fun _ => ih _ _
  exact (key _ _ _).bind fun _ => rfl

theorem calcLb_calm (t : Typestruct) : (calc_lb t).Calm := by
  have key : ∀ n i m, (calcLbLoop t n i m).Calm := by
    intro n
    induction n with
    | zero => intros; rfl
    | succ n ih => exact fun i m => (pair_calm _ _).bind fun _ => ih _ _
  exact key _ _ _

theorem calcUb_calm (t : Typestruct) : (calc_ub cfg t).Calm := by
  have key : ∀ n i m, (calcUbLoop cfg t n i m).Calm := by
    intro n
    induction n with
    | zero => intros; rfl
    | succ n ih => exact fun i m => (pair_calm _ _).bind fun _ => (simpleLength_calm _).bind fun _ => (ck64_calm _).bind fun _ => ih _ _
  exact key _ _ _

theorem extent_calm (t : Typestruct) : (Type_extent cfg t).Calm := by
  unfold Type_extent
  refine Calm.ite ?_ ?_
  · refine (calcPadding_calm t).bind fun e => (ck64_calm _).bind fun d => Calm.ite rfl ?_
    dsimp only
    split
    · exact (ck64_calm _).bind fun _ => rfl
    · exact (ck32_calm _).bind fun _ => (ck64_calm _).bind fun _ => rfl
  · exact (ck64_calm _).bind fun _ => rfl

theorem size_calm (t : Typestruct) : (Type_size cfg t).Calm := by
  have key : ∀ n i s, (typeSizeLoop cfg t n i s).Calm := by
    intro n
    induction n with
    | zero => intros; rfl
    | succ n ih => exact fun i m => (pair_calm _ _).bind fun _ => (simpleLength_calm _).bind fun _ => (ck32_calm _).bind fun _ => ih _ _
  exact key _ _ _

theorem struct_calm (bs : List Block) : (Type_struct cfg g bs).Calm := by
  have p1 : ∀ bs s, (structPass1 bs s).Calm := by
    intro bs
    induction bs with
    | nil => intros; rfl
    | cons b bs ih =>
      exact fun s => (pair_calm _ _).bind fun _ => Calm.ite (ih _) (Calm.ite (ih _) ((ck32_calm _).bind fun _ => (ck32_calm _).bind fun _ => ih _))
  have pc : ∀ ty off n k s, (structCopyPairs ty off n k s).Calm := by
    intro ty off n
    induction n with
    | zero => intros; rfl
    | succ n ih => exact fun k s => (pair_calm _ _).bind fun _ => (setPair_calm _ _ _).bind fun _ => ih _ _
  have pr : ∀ b n j s, (structReps cfg b n j s).Calm := by
    intro b n
    induction n with
    | zero => intros; rfl
    | succ n ih => exact fun k s => (extent_calm _).bind fun _ => (pc _ _ _ _ _).bind fun _ => ih _ _
  have p2 : ∀ bs s, (structPass2 cfg bs s).Calm := by
    intro bs
    induction bs with
    | nil => intros; rfl
    | cons b bs ih => exact fun s => (pair_calm _ _).bind fun _ => Calm.ite (ih _) ((pr _ _ _ _).bind fun _ => ih _)
  refine (p1 _ _).bind fun x => Calm.ite (by rfl) ((p2 _ _).bind fun y => ?_)
  dsimp only
  split
  · split
    · rfl
    · exact (calcUb_calm _).bind fun _ => rfl
  · refine (calcLb_calm _).bind fun _ => ?_
    split
    · rfl
    · exact (calcUb_calm _).bind fun _ => rfl

theorem fill_calm {α : Type} {f : Nat → Res α} (h : ∀ i, (f i).Calm) : ∀ n i, (fill f n i).Calm
  | 0, _ => rfl
  | n + 1, i => (h i).bind fun _ => (fill_calm h n (i + 1)).bind fun _ => rfl

theorem contiguous_calm (n : Int) (t : Typestruct) : (Type_contiguous cfg g n t).Calm :=
  (vla_calm _).bind fun _ => (extent_calm _).bind fun _ => (fill_calm (fun _ => by rfl) _ _).bind fun _ => struct_calm _

theorem hvector_calm (n b k : Int) (t : Typestruct) : (Type_hvector cfg g n b k t).Calm :=
  (vla_calm _).bind fun _ => (extent_calm _).bind fun _ => (fill_calm (fun _ => by rfl) _ _).bind fun _ => struct_calm _

theorem vector_calm (n b k : Int) (t : Typestruct) : (Type_vector cfg g n b k t).Calm :=
  (extent_calm _).bind fun _ => hvector_calm _ _ _ _

theorem hindexed_calm (n : Int) (bs ks : List Int) (t : Typestruct) : (Type_hindexed cfg g n bs ks t).Calm :=
  (vla_calm _).bind fun _ =>
    (fill_calm (fun _ => (rd_calm _ _).bind fun _ => (rd_calm _ _).bind fun _ => by rfl) _ _).bind fun _ => struct_calm _

theorem indexed_calm (n : Int) (bs ks : List Int) (t : Typestruct) : (Type_indexed cfg g n bs ks t).Calm :=
  (vla_calm _).bind fun _ =>
    (fill_calm (fun _ => (extent_calm _).bind fun _ => (rd_calm _ _).bind fun _ => by rfl) _ _).bind fun _ => hindexed_calm _ _ _ _

theorem indexedBlock_calm (n b : Int) (ks : List Int) (t : Typestruct) : (Type_create_indexed_block cfg g n b ks t).Calm :=
  (vla_calm _).bind fun _ => (fill_calm (fun _ => by rfl) _ _).bind fun _ => indexed_calm _ _ _ _

theorem entryOffset_calm (t : Typestruct) (e : Int) (i : Nat) : (entryOffset t e i).Calm := by
  unfold entryOffset
  exact Calm.ite rfl ((pair_calm _ _).bind fun _ => rfl)

theorem pcopy_calm (m : Mem) (a n : Int) (st : Typestruct) (b k : Int) (dt : Typestruct) : (Pcopy_data2 cfg m a n st b k dt).Calm := by
  have key : ∀ se de n i m, (copyLoop cfg a st se b dt de n i m).Calm := by
    intro se de n
    induction n with
    | zero => intros; rfl
    | succ n ih =>
      exact fun i m => (entryOffset_calm _ _ _).bind fun _ => (entryOffset_calm _ _ _).bind fun _ => (pair_calm _ _).bind fun _ =>
        (pair_calm _ _).bind fun _ => Calm.ite rfl ((simpleLength_calm _).bind fun _ => (memcpy_calm _ _ _ _).bind fun _ => ih _ _)
  unfold Pcopy_data2
  exact Calm.ite rfl ((ck32_calm _).bind fun _ => (ck32_calm _).bind fun _ => Calm.ite rfl ((extent_calm _).bind fun _ =>
    (extent_calm _).bind fun _ => key _ _ _ _ _))

theorem pack_calm (m : Mem) (a n : Int) (t : Typestruct) (b size pos : Int) : (Pack cfg m a n t b size pos).Calm := by
  have inner : ∀ e i n j x, (packEntries cfg a t e b size i n j x).Calm := by
    intro e i n
    induction n with
    | zero => intros; rfl
    | succ n ih =>
      exact fun j x => (pair_calm _ _).bind fun _ => (simpleLength_calm _).bind fun _ => (ck32_calm _).bind fun _ =>
        Calm.ite rfl ((memcpy_calm _ _ _ _).bind fun _ => ih _ _)
  have outer : ∀ e n i x, (packLoop cfg a t e b size n i x).Calm := by
    intro e n
    induction n with
    | zero => intros; rfl
    | succ n ih => exact fun i x => (inner _ _ _ _ _).bind fun _ => ih _ _
  exact (extent_calm _).bind fun _ => outer _ _ _ _

theorem unpack_calm (m : Mem) (a size pos b n : Int) (t : Typestruct) : (Unpack cfg m a size pos b n t).Calm := by
  have inner : ∀ e i n j x, (unpackEntries cfg a size b t e i n j x).Calm := by
    intro e i n
    induction n with
    | zero => intros; rfl
    | succ n ih =>
      exact fun j x => (pair_calm _ _).bind fun _ => (simpleLength_calm _).bind fun _ => (ck32_calm _).bind fun _ =>
        Calm.ite rfl ((memcpy_calm _ _ _ _).bind fun _ => ih _ _)
  have outer : ∀ e n i x, (unpackLoop cfg a size b t e n i x).Calm := by
    intro e n
    induction n with
    | zero => intros; rfl
    | succ n ih => exact fun i x => (inner _ _ _ _ _).bind fun _ => ih _ _
  exact (extent_calm _).bind fun _ => outer _ _ _ _

theorem packSize_calm (n : Int) (t : Typestruct) : (Pack_size cfg n t).Calm := by
  have key : ∀ n i s, (packSizeLoop cfg t n i s).Calm := by
    intro n
    induction n with
    | zero => intros; rfl
    | succ n ih => exact fun i m => (pair_calm _ _).bind fun _ => (simpleLength_calm _).bind fun _ => ih _ _
  exact (key _ _ _).bind fun _ => rfl

end

section
variable {env : Env} {M : Mach}

theorem Mach.cid_calm (h : Int) : (M.cid h).Calm := by unfold Mach.cid; calm
theorem Mach.op_calm (h : Int) : (M.op h).Calm := by unfold Mach.op; calm
theorem Mach.type_calm (h : Int) : (M.type env h).Calm := by unfold Mach.type; calm
theorem Mach.types_calm : ∀ hs, (M.types env hs).Calm
  | [] => rfl
  | _ :: hs => M.type_calm _ |>.bind fun _ => (Mach.types_calm hs).bind fun _ => rfl
theorem Mach.offset_calm (ds : List Int) (t : Typestruct) : (Mach.offset env ds t).Calm :=
  (extent_calm _).bind fun _ => (rd_calm _ _).bind fun _ => rfl
theorem verifyField_calm (a : FortArgs) (n : String) (o e : Int) : (verify_field a n o e).Calm := (ck32_calm _).bind fun _ => rfl
theorem Mach.verifySize_calm (a : FortArgs) (n : String) (x y e : Int) : (M.verifySize env a n x y e).Calm :=
  M.type_calm _ |>.bind fun _ => (pair_calm _ _).bind fun _ => (simpleLength_calm _).bind fun _ => rfl

theorem Mach.copy_calm (a n t b k u : Int) : (M.copy env a n t b k u).Calm :=
  M.type_calm _ |>.bind fun _ => M.type_calm _ |>.bind fun _ => (pcopy_calm _ _ _ _ _ _ _).bind fun _ => rfl

end

/-! ## The stock of handle numbers -/

/-- No free number is MPI_REQUEST_NULL. -/
def Pool.Positive (P : Pool) : Prop := 1 ≤ P.blocks ∧ ∀ h ∈ P.free, 0 < h

theorem Pool.Positive.take {P P' : Pool} {h : Int} (hp : P.Positive) (ht : P.take = some (h, P')) : 0 < h ∧ P'.Positive ∧ P.left ≤ P'.left + 1 := by
  obtain ⟨fl, b⟩ := P
  cases fl with
  | cons a fl =>
    simp only [Pool.take, Option.some.injEq, Prod.mk.injEq] at ht
    obtain ⟨rfl, rfl⟩ := ht
    refine ⟨hp.2 a (List.mem_cons_self ..), ⟨hp.1, fun x hx => hp.2 x (List.mem_cons_of_mem _ hx)⟩, ?_⟩
    simp only [Pool.left, List.length_cons]
    omega
  | nil =>
    simp only [Pool.take] at ht
    split at ht
    · cases ht
    · simp only [Option.some.injEq, Prod.mk.injEq] at ht
      obtain ⟨rfl, rfl⟩ := ht
      have := hp.1
      dsimp only at this
      refine ⟨by omega, ⟨Nat.le_add_left _ _, fun x hx => ?_⟩, ?_⟩
      · obtain ⟨i, hi, rfl⟩ := List.mem_map.1 (show x ∈ Pool.block b from hx)
        have := List.mem_range'.1 hi
        omega
      · simp only [Pool.left, Pool.block, List.length_map, List.length_range', List.length_nil]
        omega

theorem Pool.take_none {P : Pool} (ht : P.take = none) : P.left = 0 := by
  obtain ⟨fl, b⟩ := P
  cases fl with
  | cons a fl => cases ht
  | nil =>
    simp only [Pool.take] at ht
    split at ht
    · next hb => simp only [Pool.left, hb, List.length_nil]
    · cases ht

section
variable {env : Env} {M : Mach}

/-- At most `k` numbers have been used up, and those left are positive. -/
def Mach.Down (M : Mach) (k : Nat) (N : Mach) : Prop := N.pool.Positive ∧ M.pool.left ≤ N.pool.left + k

theorem Mach.fresh_fits (hp : M.pool.Positive) : M.fresh.Fits (M.pool.left < 1) fun x => M.Down 1 x.1 ∧ 0 < x.2 := by
  unfold Mach.fresh
  cases ht : M.pool.take with
  | none => exact fun _ => by have := Pool.take_none ht; omega
  | some x =>
    obtain ⟨h, P⟩ := x
    obtain ⟨h1, h2, h3⟩ := hp.take ht
    exact ⟨⟨h2, h3⟩, h1⟩

theorem Mach.newComm_fits (hp : M.pool.Positive) : M.newComm.Fits (M.pool.left < 1) fun x => M.Down 1 x.1 :=
  (M.fresh_fits hp).bind fun _ _ h => h.1

theorem Mach.newCommUnless_fits (p : Prop) [Decidable p] (hp : M.pool.Positive) :
    (newCommUnless p M).Fits (M.pool.left < 1) fun x => M.Down 1 x.1 :=
  Fits.ite ⟨hp, Nat.le_add_right _ _⟩ (M.newComm_fits hp)

theorem Mach.init_fits (hp : M.pool.Positive) : M.init.Fits (M.pool.left < 1) fun x => M.Down 1 x :=
  (M.newComm_fits hp).bind fun _ _ h => Fits.ite (.abort (by decide)) h

theorem Mach.newType_fits (hp : M.pool.Positive) {build : Garbage → Res Typestruct} (hb : ∀ g, (build g).Calm) :
    (M.newType env build).Fits (M.pool.left < 1) fun x => M.Down 1 x.1 :=
  (M.fresh_fits hp).bind fun _ _ h => Fits.after (hb _) fun _ _ => h.1

theorem Mach.copy_down {k : Nat} {N N' : Mach} {a n t b c u : Int} (hd : M.Down k N) (h : N.copy env a n t b c u = .ok N') : M.Down k N' := by
  unfold Mach.copy at h
  obtain ⟨_, _, h⟩ := Res.bind_eq_ok.1 h
  obtain ⟨_, _, h⟩ := Res.bind_eq_ok.1 h
  obtain ⟨_, _, h⟩ := Res.bind_eq_ok.1 h
  cases h
  exact hd

theorem Mach.isend_fits (hp : M.pool.Positive) (b n t d g c : Int) :
    (M.isend env b n t d g c).Fits (M.pool.left < 1) fun x => M.Down 1 x.1 ∧ 0 < x.2 := by
  unfold Mach.isend
  refine Fits.ite (.abort (by decide)) ((M.fresh_fits hp).bind fun x _ h => ?_)
  refine Fits.ite h (Fits.after (Mach.cid_calm _) fun _ _ => ?_)
  split
  · exact h
  · split
    · trivial
    · exact Fits.after (Mach.copy_calm _ _ _ _ _ _) fun _ e => ⟨⟨(Mach.copy_down h.1 e).1, (Mach.copy_down h.1 e).2⟩, h.2⟩

theorem Mach.irecv_fits (hp : M.pool.Positive) (b n t d g c : Int) :
    (M.irecv env b n t d g c).Fits (M.pool.left < 1) fun x => M.Down 1 x.1 ∧ 0 < x.2 := by
  unfold Mach.irecv
  refine Fits.ite (.abort (by decide)) ((M.fresh_fits hp).bind fun x _ h => ?_)
  refine Fits.ite h (Fits.after (Mach.cid_calm _) fun _ _ => ?_)
  split
  · exact h
  · split
    · trivial
    · exact Fits.after (Mach.copy_calm _ _ _ _ _ _) fun _ e => ⟨⟨(Mach.copy_down h.1 e).1, (Mach.copy_down h.1 e).2⟩, h.2⟩

theorem Pool.Positive.left_give (P : Pool) (h : Int) : (P.give h).left = P.left + 1 := by
  unfold Pool.left Pool.give
  rw [List.length_cons]
  dsimp only
  omega

/-- A test never fails for want of numbers; a request that is finished gives its number back. -/
theorem Mach.test_fits {h : Int} {st : StPtr} {E : Prop} : (M.test h st).Fits E fun r =>
    M.pool.left ≤ r.mach.pool.left ∧ (0 < h → r.flag ≠ 0 → M.pool.left + 1 = r.mach.pool.left) ∧
    (M.pool.Positive → (0 ≤ h → r.mach.pool.Positive)) := by
  unfold Mach.test
  split
  · next h0 =>
    subst h0
    exact Fits.after (put_calm _ _ _) fun _ _ => ⟨Nat.le_refl _, fun h => absurd h (by decide), fun hp _ => hp⟩
  · next h0 =>
    refine Fits.after (Mach.op_calm _) fun o _ => Fits.ite ⟨Nat.le_refl _, fun _ h => absurd rfl h, fun hp _ => hp⟩ ?_
    refine Fits.after (put_calm _ _ _) fun _ _ => ⟨?_, fun _ _ => ?_, fun hp hh => ⟨hp.1, fun x hx => ?_⟩⟩
    · show M.pool.left ≤ (M.pool.give h).left
      rw [Pool.Positive.left_give]; omega
    · exact (Pool.Positive.left_give ..).symm
    · rcases List.mem_cons.1 hx with rfl | hx
      · have : x ≠ 0 := h0
        omega
      · exact hp.2 x hx

theorem Mach.wait_fits {h : Int} {st : StPtr} {E : Prop} : (M.wait h st).Fits E fun r =>
    M.pool.left ≤ r.1.pool.left ∧ (0 < h → M.pool.left + 1 = r.1.pool.left) ∧
    (M.pool.Positive → (0 ≤ h → r.1.pool.Positive)) := by
  unfold Mach.wait
  refine M.test_fits.bind fun r _ h => ?_
  split
  · exact .abort (by decide)
  · next hf => exact ⟨h.1, fun h0 => h.2.1 h0 hf, h.2.2⟩

theorem Mach.send_fits (hp : M.pool.Positive) (b n t d g c : Int) : (M.send env b n t d g c).Fits (M.pool.left < 1) fun x => M.Down 0 x :=
  (M.isend_fits hp b n t d g c).bind fun _ _ h => Mach.wait_fits.bind fun y _ h2 => by
    have h3 := h2.2.1 h.2
    have h4 := h.1.2
    exact ⟨h2.2.2 h.1.1 (Int.le_of_lt h.2), by omega⟩

theorem Mach.irsend_fits (hp : M.pool.Positive) (b n t d g c : Int) :
    (M.irsend env b n t d g c).Fits (M.pool.left < 1) fun x => M.Down 1 x.1 :=
  (M.isend_fits hp b n t d g c).bind fun _ _ h => Fits.after (Mach.op_calm _) fun _ _ => Fits.ite (.abort (by decide)) h.1

theorem Mach.recv_fits (hp : M.pool.Positive) (b n t d g c : Int) (st : StPtr) :
    (M.recv env b n t d g c st).Fits (M.pool.left < 1) fun x => M.Down 0 x.1 :=
  (M.irecv_fits hp b n t d g c).bind fun _ _ h => Mach.wait_fits.bind fun y _ h2 => by
    have h3 := h2.2.1 h.2
    have h4 := h.1.2
    have h5 : M.Down 0 y.1 := ⟨h2.2.2 h.1.1 (Int.le_of_lt h.2), by omega⟩
    obtain ⟨y1, y2, y3⟩ := y
    cases y3 with
    | bad => trivial
    | _ => exact h5

theorem Mach.sendrecv_fits (hp : M.pool.Positive) (b n t d g b' n' t' d' g' c : Int) (st : StPtr) :
    (M.sendrecv env b n t d g b' n' t' d' g' c st).Fits (M.pool.left < 2) fun x => M.Down 0 x.1 := by
  refine ((M.irecv_fits hp b' n' t' d' g' c).mono (by omega) fun _ _ h => h).bind fun x _ h => ?_
  refine ((Mach.send_fits h.1.1 b n t d g c).mono (fun hl => ?_) fun _ _ h => h).bind fun y _ h2 => Mach.wait_fits.bind fun z _ h3 => ?_
  · have := h.1.2; omega
  · have h4 := h3.2.1 h.2
    have h5 := h.1.2
    have h6 := h2.2
    exact ⟨h3.2.2 h2.1 (Int.le_of_lt h.2), by dsimp only; omega⟩

theorem Mach.iprobe_fits (d g c : Int) (st : StPtr) {E : Prop} : (M.iprobe d g c st).Fits E fun _ => True := by
  unfold Mach.iprobe
  refine Fits.ite (.abort (by decide)) (Fits.after (Mach.cid_calm _) fun _ _ => ?_)
  split
  · trivial
  · split
    · trivial
    · exact Fits.after (put_calm _ _ _) fun _ _ => trivial

theorem Mach.testany_fits {E : Prop} : ∀ (hs : List Int) (M : Mach) (st : StPtr), (M.testany hs st).Fits E fun r => M.pool.left ≤ r.1.pool.left
  | [], _, _ => Nat.le_refl _
  | _ :: hs, M, _ => M.test_fits.bind fun r _ h => Fits.ite h.1
      ((Mach.testany_fits hs r.mach r.status).bind fun _ _ h2 => Nat.le_trans h.1 h2)

theorem Mach.testeach_fits {E : Prop} : ∀ (hs : List Int) (M : Mach) (i : Nat) (sts : StArr),
    (M.testeach i hs sts).Fits E fun r => M.pool.left ≤ r.1.pool.left
  | [], _, _, _ => Nat.le_refl _
  | _ :: hs, M, i, _ => Fits.after (stAt_calm _ _) fun _ _ => M.test_fits.bind fun r _ h =>
      (Mach.testeach_fits hs r.mach (i + 1) _).bind fun _ _ h2 => Nat.le_trans h.1 h2

theorem Mach.waitall_fits {E : Prop} : ∀ (hs : List Int) (M : Mach) (i : Nat) (sts : StArr),
    (M.waitall i hs sts).Fits E fun r => M.pool.left ≤ r.1.pool.left
  | [], _, _, _ => Nat.le_refl _
  | _ :: hs, M, i, _ => Fits.after (stAt_calm _ _) fun _ _ => M.test_fits.bind fun r _ h => Fits.ite (.abort (by decide))
      ((Mach.waitall_fits hs r.mach (i + 1) _).bind fun _ _ h2 => Nat.le_trans h.1 h2)

theorem cartCheck_fits (dims : List Int) {E : Prop} : ∀ n i, (cartCheck dims n i).Fits E fun _ => True
  | 0, _ => trivial
  | n + 1, i => Fits.after (rd_calm _ _) fun _ _ => Fits.ite (.abort (by decide)) (cartCheck_fits dims n (i + 1))

theorem Mach.fortChecks_fits (a : FortArgs) {E : Prop} : (M.fortChecks env a).Fits E fun _ => True := by
  unfold Mach.fortChecks
  refine Fits.after (verifyField_calm _ _ _ _) fun _ _ => Fits.after (verifyField_calm _ _ _ _) fun _ _ =>
    Fits.after (verifyField_calm _ _ _ _) fun _ _ => Fits.after (Mach.verifySize_calm _ _ _ _ _) fun _ _ =>
    Fits.after (Mach.verifySize_calm _ _ _ _ _) fun _ _ => Fits.after (Mach.verifySize_calm _ _ _ _ _) fun _ _ =>
    Fits.after (Mach.verifySize_calm _ _ _ _ _) fun _ _ => Fits.after (Mach.verifySize_calm _ _ _ _ _) fun _ _ => ?_
  exact Fits.ite (.abort (by decide)) trivial

theorem Mach.quiet_fits {E : Prop} {n : Nat} {x : Res Mach} (h : x.Fits E fun N => M.pool.left ≤ N.pool.left + n) :
    (Mach.quiet x).Fits E fun r => M.pool.left ≤ r.1.pool.left + n := h.bind fun _ _ h => h

theorem Mach.one_fits {E : Prop} {n : Nat} {x : Res (Mach × Int)} (h : x.Fits E fun r => M.pool.left ≤ r.1.pool.left + n) :
    (Mach.one x).Fits E fun r => M.pool.left ≤ r.1.pool.left + n := h.bind fun _ _ h => h

theorem Mach.tell_fits {E : Prop} {n : Nat} {x : Res Int} (h : x.Calm) :
    (M.tell x).Fits E fun r => M.pool.left ≤ r.1.pool.left + n := Fits.after h fun _ _ => Nat.le_add_right _ _

theorem Mach.copy_fits {E : Prop} {n : Nat} {a k t b c u : Int} :
    (M.copy env a k t b c u).Fits E fun r => M.pool.left ≤ r.pool.left + n := by
  refine Fits.of _ (Mach.copy_calm _ _ _ _ _ _) fun N h => ?_
  unfold Mach.copy at h
  obtain ⟨_, _, h⟩ := Res.bind_eq_ok.1 h
  obtain ⟨_, _, h⟩ := Res.bind_eq_ok.1 h
  obtain ⟨_, _, h⟩ := Res.bind_eq_ok.1 h
  cases h
  exact Nat.le_add_right _ _

theorem Mach.rooted_fits {E : Prop} {n : Nat} {root : Int} {msg : String} {x : Res Mach} (hm : msg ≠ exhausted)
    (h : x.Fits E fun N => M.pool.left ≤ N.pool.left + n) :
    (M.rooted root msg x).Fits E fun r => M.pool.left ≤ r.1.pool.left + n :=
  Mach.quiet_fits (Fits.ite (Nat.le_add_right _ _) (Fits.ite (.abort hm) h))

/-- A call fails for want of handle numbers only if there are fewer than it needs, and it leaves behind no more handles than
`Call.leaves` says. -/
theorem Mach.answer_fits (hp : M.pool.Positive) (hl : M.pool.left ≤ 262143) (c : Call) :
    (M.answer env c).Fits (M.pool.left < c.needs) fun r => M.pool.left ≤ r.1.pool.left + c.leaves := by
  have same : ∀ {E : Prop} {n : Nat}, (Res.ok M).Fits E fun N => M.pool.left ≤ N.pool.left + n := Nat.le_add_right _ _
  have build : ∀ {E : Prop} {f : Garbage → Res Typestruct}, (∀ g, (f g).Calm) → (M.pool.left < 1 → E) →
      (M.newType env f).Fits E fun r => M.pool.left ≤ r.1.pool.left + 1 := fun hf hE => (M.newType_fits hp hf).mono hE fun _ _ h => h.2
  cases c with
  | store => exact Nat.le_refl _
  | typeCommit t =>
    show M.pool.left ≤ (M.commit t).pool.left + 0
    unfold Mach.commit
    split <;> exact Nat.le_refl _
  | init => exact Mach.quiet_fits ((M.init_fits hp).mono id fun _ _ h => h.2)
  | initThread r => exact Mach.one_fits ((M.init_fits hp).bind fun _ _ h => h.2)
  | fortInit a => exact Mach.quiet_fits ((M.init_fits hp).bind fun _ _ h => (Mach.fortChecks_fits a).bind fun _ _ _ => h.2)
  | initialized => exact Mach.tell_fits rfl
  | finalize =>
    show M.pool.left ≤ Pool.start.left + 0
    have : Pool.start.left = 262143 := by simp only [Pool.left, Pool.start, Pool.block, List.length_map, List.length_range']
    omega
  | abort => trivial
  | commDup => exact Mach.one_fits ((M.newComm_fits hp).mono id fun _ _ h => h.2)
  | commCreate => exact Mach.one_fits ((M.newCommUnless_fits _ hp).mono id fun _ _ h => h.2)
  | commSplit => exact Mach.one_fits ((M.newCommUnless_fits _ hp).mono id fun _ _ h => h.2)
  | intercommCreate => exact Mach.one_fits ((M.newCommUnless_fits _ hp).mono id fun _ _ h => h.2)
  | cartCreate _ n dims => exact Mach.one_fits ((cartCheck_fits dims _ _).bind fun _ _ _ => (M.newComm_fits hp).mono id fun _ _ h => h.2)
  | commFree h =>
    show M.pool.left ≤ (M.pool.give h).left + 0
    rw [Pool.Positive.left_give]; omega
  | isend b n t d g c => exact Mach.one_fits ((M.isend_fits hp b n t d g c).mono id fun _ _ h => h.1.2)
  | irsend b n t d g c => exact Mach.one_fits ((M.irsend_fits hp b n t d g c).mono id fun _ _ h => h.2)
  | send b n t d g c => exact Mach.quiet_fits ((M.send_fits hp b n t d g c).mono id fun _ _ h => h.2)
  | irecv b n t d g c => exact Mach.one_fits ((M.irecv_fits hp b n t d g c).mono id fun _ _ h => h.1.2)
  | recv b n t d g c st => exact (M.recv_fits hp b n t d g c st).bind fun _ _ h => h.2
  | sendrecv b n t d g b' n' t' d' g' c st => exact (M.sendrecv_fits hp b n t d g b' n' t' d' g' c st).bind fun _ _ h => h.2
  | iprobe d g c st => exact (M.iprobe_fits d g c st).bind fun _ _ _ => Nat.le_refl _
  | probe d g c st =>
    refine Fits.bind (Q := fun x => M.pool.left ≤ x.1.pool.left + 0) ?_ fun _ _ h => h
    refine Fits.bind (Q := fun _ => True) ?_ fun _ _ _ => Nat.le_refl _
    exact (M.iprobe_fits d g c st).bind fun _ _ _ => Fits.ite (.abort (by decide)) trivial
  | test r st => exact M.test_fits.bind fun _ _ h => h.1
  | wait r st => exact M.wait_fits.bind fun _ _ h => h.1
  | requestFree h =>
    show M.pool.left ≤ (M.pool.give h).left + 0
    rw [Pool.Positive.left_give]; omega
  | testany _ rs i st => exact (M.testany_fits rs st).bind fun _ _ h => h
  | waitany _ rs i st => exact (M.testany_fits rs st).bind fun _ _ h => Fits.ite (.abort (by decide)) h
  | testall _ rs sts => exact (M.testeach_fits rs 0 sts).bind fun _ _ h => h
  | waitall _ rs sts => exact (M.waitall_fits rs 0 sts).bind fun _ _ h => h
  | testsome _ rs ix sts => exact (M.testeach_fits rs 0 sts).bind fun _ _ h => h
  | waitsome _ rs ix sts => exact (M.testeach_fits rs 0 sts).bind fun _ _ h => h
  | typeContiguous => exact Mach.one_fits (Fits.after (Mach.type_calm _) fun _ _ => build (fun _ => contiguous_calm _ _) id)
  | typeHvector => exact Mach.one_fits (Fits.after (Mach.type_calm _) fun _ _ => build (fun _ => hvector_calm _ _ _ _) id)
  | typeVector => exact Mach.one_fits (Fits.after (Mach.type_calm _) fun _ _ => build (fun _ => vector_calm _ _ _ _) id)
  | typeHindexed => exact Mach.one_fits (Fits.after (Mach.type_calm _) fun _ _ => build (fun _ => hindexed_calm _ _ _ _) id)
  | typeIndexed => exact Mach.one_fits (Fits.after (Mach.type_calm _) fun _ _ => build (fun _ => indexed_calm _ _ _ _) id)
  | typeIndexedBlock => exact Mach.one_fits (Fits.after (Mach.type_calm _) fun _ _ => build (fun _ => indexedBlock_calm _ _ _ _) id)
  | typeStruct => exact Mach.one_fits (Fits.after (Mach.types_calm _) fun _ _ => build (fun _ => struct_calm _) id)
  | typeFree h =>
    show M.pool.left ≤ (M.pool.give h).left + 0
    rw [Pool.Positive.left_give]; omega
  | typeExtent => exact Mach.tell_fits ((Mach.type_calm _).bind fun _ => extent_calm _)
  | typeSize => exact Mach.tell_fits ((Mach.type_calm _).bind fun _ => size_calm _)
  | typeLb => exact Mach.tell_fits ((Mach.type_calm _).bind fun _ => rfl)
  | typeUb => exact Mach.tell_fits ((Mach.type_calm _).bind fun _ => rfl)
  | getElements => exact Mach.tell_fits ((Mach.type_calm _).bind fun _ => ck32_calm _)
  | pack => exact Mach.one_fits (Fits.after (Mach.type_calm _) fun _ _ => Fits.after (pack_calm _ _ _ _ _ _ _) fun _ _ => Nat.le_refl _)
  | packSize => exact Mach.tell_fits ((Mach.type_calm _).bind fun _ => packSize_calm _ _)
  | unpack => exact Mach.one_fits (Fits.after (Mach.type_calm _) fun _ _ => Fits.after (unpack_calm _ _ _ _ _ _ _) fun _ _ => Nat.le_refl _)
  | barrier => exact Mach.quiet_fits same
  | bcast => exact Mach.rooted_fits (by decide) same
  | gather | scatter => exact Fits.ite (Mach.quiet_fits same) (Mach.rooted_fits (by decide) Mach.copy_fits)
  | gatherv | scatterv =>
    exact Fits.ite (Mach.quiet_fits same) (Mach.rooted_fits (by decide) (Fits.after (Mach.type_calm _) fun _ _ =>
      Fits.after (Mach.offset_calm _ _) fun _ _ => Fits.after (rd_calm _ _) fun _ _ => Mach.copy_fits))
  | allgather | allreduce => exact Fits.ite (Mach.quiet_fits same) (Mach.quiet_fits Mach.copy_fits)
  | allgatherv =>
    exact Fits.ite (Mach.quiet_fits same) (Mach.quiet_fits (Fits.after (Mach.type_calm _) fun _ _ =>
      Fits.after (Mach.offset_calm _ _) fun _ _ => Fits.after (rd_calm _ _) fun _ _ => Mach.copy_fits))
  | reduce => exact Mach.quiet_fits (Fits.ite (.abort (by decide)) Mach.copy_fits)
  | reduceScatter => exact Mach.quiet_fits (Fits.after (rd_calm _ _) fun _ _ => Mach.copy_fits)
  | scan | alltoall => exact Mach.quiet_fits Mach.copy_fits
  | alltoallv =>
    exact Mach.quiet_fits (Fits.after (Mach.type_calm _) fun _ _ => Fits.after (extent_calm _) fun _ _ => Fits.after (Mach.type_calm _) fun _ _ =>
      Fits.after (extent_calm _) fun _ _ => Fits.after (rd_calm _ _) fun _ _ => Fits.after (rd_calm _ _) fun _ _ =>
      Fits.after (rd_calm _ _) fun _ _ => Fits.after (rd_calm _ _) fun _ _ => Mach.copy_fits)
  | alltoallw =>
    exact Mach.quiet_fits (Fits.after (rd_calm _ _) fun _ _ => Fits.after (rd_calm _ _) fun _ _ => Fits.after (rd_calm _ _) fun _ _ =>
      Fits.after (rd_calm _ _) fun _ _ => Fits.after (rd_calm _ _) fun _ _ => Fits.after (rd_calm _ _) fun _ _ => Mach.copy_fits)

end

end MpiSerial
