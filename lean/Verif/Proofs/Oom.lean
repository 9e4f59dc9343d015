import Verif.Spec.Oom

/-!
# Running out of memory: proofs for C61
-/

set_option linter.unusedSimpArgs false
set_option autoImplicit false

namespace MpiSerial

namespace Oom

/-! ## Composition -/

/-- Outcomes that a computation with a failed allocation may have, for results of every type. -/
structure Stops (B : (α : Type) → Res α → Prop) : Prop where
  oom : ∀ {α : Type} {r : Res α}, OutOfMemory r → B α r
  bind : ∀ {α β : Type} {r : Res α} {f : α → Res β}, B α r → B β (r >>= f) ∧ ∀ a : α, r ≠ .ok a

theorem stops_oom : Stops (fun _ r => OutOfMemory r) where
  oom h := h
  bind := by rintro α β r f ⟨m, hm, rfl⟩; exact ⟨⟨m, hm, rfl⟩, by simp⟩

theorem stops_null : Stops (fun _ r => OutOfMemoryOrNull r) where
  oom h := Or.inl h
  bind := by
    rintro α β r f (⟨m, hm, rfl⟩ | rfl)
    · exact ⟨Or.inl ⟨m, hm, rfl⟩, by simp⟩
    · exact ⟨Or.inr rfl, by simp⟩

variable {α β : Type} {B : (α : Type) → Res α → Prop}

theorem bind_apply (x : M α) (f : α → M β) (ok : Mallocs) (k : Nat) :
    (x >>= f) ok k = match x ok k with
      | (.ok a, k) => f a ok k
      | (.abort m, k) => (.abort m, k)
      | (.exit c, k) => (.exit c, k)
      | (.ub u, k) => (.ub u, k)
      | (.hang, k) => (.hang, k) := rfl

theorem bind_fst (x : M α) (f : α → M β) (ok : Mallocs) (k : Nat) (h : ∀ a : α, (x ok k).1 ≠ .ok a) (g : α → Res β) :
    ((x >>= f) ok k).1 = ((x ok k).1 >>= g) := by
  rw [bind_apply]
  generalize x ok k = r at h ⊢
  obtain ⟨r, k'⟩ := r
  cases r with
  | ok a => exact absurd rfl (h a)
  | _ => rfl

theorem Reports.lift (y : Res α) : Reports (B α) (lift y) y := by
  intro k
  refine ⟨0, fun ok => ⟨fun _ => rfl, fun ⟨i, h1, h2, _⟩ => ?_⟩⟩
  omega

theorem Reports.pure (a : α) : Reports (B α) (Pure.pure a : M α) (.ok a) := Reports.lift (.ok a)

theorem Reports.bind (hB : Stops B) {x : M α} {y : Res α} {f : α → M β} {g : α → Res β}
    (hx : Reports (B α) x y) (hf : ∀ a : α, y = .ok a → Reports (B β) (f a) (g a)) :
    Reports (B β) (x >>= f) (y >>= g) := by
  intro k
  obtain ⟨n, hn⟩ := hx k
  have stop : ∀ ok : Mallocs, (∃ i : Nat, k ≤ i ∧ i < k + n ∧ ok i = false) → B β ((x >>= f) ok k).1 := by
    intro ok hi
    have h1 := (hn ok).2 hi
    have h2 := (hB.bind (f := g) h1)
    rw [bind_fst x f ok k h2.2 g]
    exact h2.1
  cases hy : y with
  | ok a =>
    obtain ⟨n', hn'⟩ := hf a hy (k + n)
    refine ⟨n + n', fun ok => ⟨fun h => ?_, ?_⟩⟩
    · have h1 := (hn ok).1 (fun i a b => h i a (by omega))
      have h2 := (hn' ok).1 (fun i a b => h i (by omega) (by omega))
      rw [bind_apply, h1, hy]
      simpa [Nat.add_assoc] using h2
    · rintro ⟨i, h1, h2, h3⟩
      by_cases hall : ∃ i : Nat, k ≤ i ∧ i < k + n ∧ ok i = false
      · exact stop ok hall
      · have h4 := (hn ok).1 (fun j a b => by
          cases hj : ok j with
          | true => rfl
          | false => exact absurd ⟨j, a, b, hj⟩ hall)
        rw [bind_apply, h4, hy]
        refine (hn' ok).2 ⟨i, ?_, by omega, h3⟩
        refine Nat.not_lt.1 fun hlt => hall ⟨i, h1, hlt, h3⟩
  | _ =>
    refine ⟨n, fun ok => ⟨fun h => ?_, stop ok⟩⟩
    rw [bind_apply, (hn ok).1 h, hy]
    rfl

theorem Reports.mallocOr (hB : Stops B) {msg : String}
    (hm : msg ∈ ["mpi_malloc: failed to allocate bytes", "AP_listitem_malloc: malloc failure", "AP_list_new: malloc failure"]) :
    Reports (B Unit) (mallocOr msg) (.ok ()) := by
  intro k
  refine ⟨1, fun ok => ⟨fun h => ?_, ?_⟩⟩
  · have := h k (Nat.le_refl k) (by omega)
    simp only [Oom.mallocOr, bind_apply, malloc, this, if_true]
    rfl
  · rintro ⟨i, h1, h2, h3⟩
    obtain rfl : i = k := by omega
    refine hB.oom ⟨msg, hm, ?_⟩
    simp [Oom.mallocOr, bind_apply, malloc, h3, Oom.lift]

/-- Inserting a computation without effect on the result. -/
theorem Reports.seq (hB : Stops B) {x : M Unit} {f : Unit → M β} {y : Res β} (hx : Reports (B Unit) x (.ok ()))
    (hf : Reports (B β) (f ()) y) : Reports (B β) (x >>= f) y :=
  Reports.bind (y := .ok ()) (g := fun _ => y) hB hx (fun _ _ => hf)

/-- A step that does not allocate. -/
theorem Reports.step (hB : Stops B) {y : Res α} {f : α → M β} {g : α → Res β}
    (hf : ∀ a : α, y = .ok a → Reports (B β) (f a) (g a)) : Reports (B β) (Oom.lift y >>= f) (y >>= g) :=
  Reports.bind hB (Reports.lift y) hf

/-! ## handles.c, list.c -/

theorem alloc_reports (hB : Stops B) {D : Type} (t : HTab D) (d : D) :
    Reports (B _) (mpi_alloc_handle t d) (MpiSerial.mpi_alloc_handle t d) := by
  unfold mpi_alloc_handle MpiSerial.mpi_alloc_handle
  dsimp only
  generalize (if t.needInit = true then init_handles t else t) = t
  cases t.nextfree with
  | some new => exact Reports.step hB fun a _ => Reports.pure _
  | none =>
    dsimp only
    split
    · exact Reports.lift _
    · exact Reports.seq hB (Reports.mallocOr hB (by simp)) (Reports.pure _)

section
variable {A : Type}

theorem listitem_reports (hB : Stops B) (h : LHeap A) (x : Node A) :
    Reports (B _) (AP_listitem_malloc h x) (MpiSerial.AP_listitem_malloc h x) :=
  Reports.step hB fun _ _ => Reports.seq hB (Reports.mallocOr hB (by simp)) (Reports.pure _)

theorem new_reports (hB : Stops B) (h : LHeap A) : Reports (B _) (AP_list_new h) (MpiSerial.AP_list_new h) :=
  Reports.seq hB (Reports.mallocOr hB (by simp)) (Reports.step hB fun _ _ => Reports.pure _)

theorem prepend_reports (hB : Stops B) (h : LHeap A) (l : Nat) (d : A) :
    Reports (B _) (AP_list_prepend h l d) (MpiSerial.AP_list_prepend h l d) := by
  refine Reports.step hB fun L _ => Reports.bind hB (listitem_reports hB _ _) fun x _ => ?_
  obtain ⟨h, new⟩ := x
  dsimp only
  cases L.head with
  | some hd => exact Reports.step hB fun _ _ => Reports.bind hB (Reports.pure _) fun _ _ =>
      Reports.step hB fun _ _ => Reports.pure _
  | none => exact Reports.bind hB (Reports.pure _) fun _ _ => Reports.step hB fun _ _ => Reports.pure _

theorem append_reports (hB : Stops B) (h : LHeap A) (l : Nat) (d : A) :
    Reports (B _) (AP_list_append h l d) (MpiSerial.AP_list_append h l d) := by
  refine Reports.step hB fun L _ => Reports.bind hB (listitem_reports hB _ _) fun x _ => ?_
  obtain ⟨h, new⟩ := x
  dsimp only
  cases L.tail with
  | some hd => exact Reports.step hB fun _ _ => Reports.bind hB (Reports.pure _) fun _ _ =>
      Reports.step hB fun _ _ => Reports.pure _
  | none => exact Reports.bind hB (Reports.pure _) fun _ _ => Reports.step hB fun _ _ => Reports.pure _

theorem dupLoop_reports (hB : Stops B) (g : Option Nat) (newl : Nat) : ∀ (fuel : Nat) (h : LHeap A)
    (cur prev : Option Nat), Reports (B _) (dupLoop g newl fuel h cur prev) (MpiSerial.dupLoop g newl fuel h cur prev) := by
  intro fuel
  induction fuel with
  | zero => intro h cur prev; cases cur <;> exact Reports.lift _
  | succ fuel ih =>
    intro h cur prev
    cases cur with
    | none => exact Reports.lift _
    | some c =>
      exact Reports.step hB fun _ _ => Reports.bind hB (listitem_reports hB _ _) fun _ _ =>
        Reports.step hB fun _ _ => Reports.step hB fun _ _ => ih _ _ _

theorem duplicate_reports (hB : Stops B) (g : Option Nat) (h : LHeap A) (l : Nat) :
    Reports (B _) (AP_list_duplicate g h l) (MpiSerial.AP_list_duplicate g h l) :=
  Reports.bind hB (new_reports hB _) fun _ _ => Reports.step hB fun _ _ =>
    Reports.bind hB (dupLoop_reports hB _ _ _ _ _ _) fun _ _ => Reports.step hB fun _ _ =>
      Reports.step hB fun _ _ => Reports.step hB fun _ _ => Reports.pure _

end

/-! ## comm.c, mpi.c, send.c, recv.c -/

section
variable (hB : Stops B) (env : Env) (s : Sys)
include hB

theorem allocReq_reports : Reports (B _) (allocReq env s) (s.allocReq env) :=
  Reports.bind hB (alloc_reports hB _ _) fun _ _ => Reports.pure _

theorem comm_new_reports : Reports (B _) (mpi_comm_new s) (MpiSerial.mpi_comm_new s) :=
  Reports.bind hB (alloc_reports hB _ _) fun _ _ => Reports.bind hB (new_reports hB _) fun _ _ =>
    Reports.bind hB (new_reports hB _) fun _ _ => Reports.step hB fun _ _ => Reports.pure _

theorem init_reports : Reports (B _) (MPI_Init s) (MpiSerial.MPI_Init s) := by
  refine Reports.bind hB (comm_new_reports hB s) fun x _ => ?_
  obtain ⟨s, c⟩ := x
  dsimp only
  split
  · exact Reports.lift _
  · exact Reports.pure _

theorem sendQueued_reports (buf tag : Int) (l : Nat) (r : Loc) :
    Reports (B _) (sendQueued s buf tag l r) (MpiSerial.sendQueued s buf tag l r) :=
  Reports.step hB fun _ _ => Reports.bind hB (append_reports hB _ _ _) fun _ _ => Reports.lift _

theorem recvQueued_reports (buf tag : Int) (l : Nat) (r : Loc) :
    Reports (B _) (recvQueued s buf tag l r) (MpiSerial.recvQueued s buf tag l r) :=
  Reports.step hB fun _ _ => Reports.bind hB (append_reports hB _ _ _) fun _ _ => Reports.lift _

theorem isend_reports (buf count t dest tag comm : Int) :
    Reports (B _) (MPI_Isend env s buf count t dest tag comm) (MpiSerial.MPI_Isend env s buf count t dest tag comm) := by
  refine Reports.step hB fun x _ => ?_
  obtain ⟨s, c⟩ := x
  dsimp only
  split
  · exact Reports.lift _
  · refine Reports.bind hB (allocReq_reports hB env s) fun x _ => ?_
    obtain ⟨s, h, l⟩ := x
    dsimp only
    split
    · exact Reports.step hB fun _ _ => Reports.pure _
    · refine Reports.step hB fun _ _ => Reports.step hB fun found _ => ?_
      cases found with
      | some item => exact Reports.step hB fun _ _ => Reports.pure _
      | none => exact Reports.bind hB (sendQueued_reports hB _ _ _ _ _) fun _ _ => Reports.pure _

theorem irecv_reports (buf count t src tag comm : Int) :
    Reports (B _) (MPI_Irecv env s buf count t src tag comm) (MpiSerial.MPI_Irecv env s buf count t src tag comm) := by
  refine Reports.step hB fun x _ => ?_
  obtain ⟨s, c⟩ := x
  dsimp only
  split
  · exact Reports.lift _
  · refine Reports.bind hB (allocReq_reports hB env s) fun x _ => ?_
    obtain ⟨s, h, l⟩ := x
    dsimp only
    refine Reports.step hB fun _ _ => ?_
    split
    · exact Reports.step hB fun _ _ => Reports.pure _
    · refine Reports.step hB fun _ _ => Reports.step hB fun found _ => ?_
      cases found with
      | some item => exact Reports.step hB fun _ _ => Reports.pure _
      | none => exact Reports.bind hB (recvQueued_reports hB _ _ _ _ _) fun _ _ => Reports.pure _

theorem send_reports (buf count t dest tag comm : Int) :
    Reports (B _) (MPI_Send env s buf count t dest tag comm) (MpiSerial.MPI_Send env s buf count t dest tag comm) :=
  Reports.bind hB (isend_reports hB _ _ _ _ _ _ _ _) fun _ _ => Reports.step hB fun _ _ => Reports.pure _

theorem irsend_reports (buf count t dest tag comm : Int) :
    Reports (B _) (MPI_Irsend env s buf count t dest tag comm) (MpiSerial.MPI_Irsend env s buf count t dest tag comm) := by
  refine Reports.bind hB (isend_reports hB _ _ _ _ _ _ _ _) fun _ _ => Reports.step hB fun _ _ => Reports.step hB fun _ _ => ?_
  split
  · exact Reports.lift _
  · exact Reports.pure _

theorem recv_reports (buf count t src tag comm : Int) (st : StPtr) :
    Reports (B _) (MPI_Recv env s buf count t src tag comm st) (MpiSerial.MPI_Recv env s buf count t src tag comm st) := by
  refine Reports.bind hB (irecv_reports hB _ _ _ _ _ _ _ _) fun _ _ => Reports.step hB fun x _ => ?_
  obtain ⟨s, r, st⟩ := x
  cases st
  · exact Reports.pure _
  · exact Reports.pure _
  · exact Reports.lift _

theorem sendrecv_reports (a b c d e a' b' c' d' e' comm : Int) (st : StPtr) :
    Reports (B _) (MPI_Sendrecv env s a b c d e a' b' c' d' e' comm st)
      (MpiSerial.MPI_Sendrecv env s a b c d e a' b' c' d' e' comm st) :=
  Reports.bind hB (irecv_reports hB _ _ _ _ _ _ _ _) fun _ _ => Reports.bind hB (send_reports hB _ _ _ _ _ _ _ _) fun _ _ =>
    Reports.step hB fun _ _ => Reports.pure _

/-- Every call but the constructors of datatypes. -/
theorem call_reports (c : Call) (hc : c.makesType = false) : Reports (B _) (c.execOom env s) (c.exec env s) := by
  cases c with
  | init => exact init_reports hB s
  | initThread r =>
    exact Reports.bind hB (Reports.bind hB (init_reports hB s) fun _ _ => Reports.pure _) fun _ _ => Reports.pure _
  | fortInit a => exact Reports.bind hB (init_reports hB s) fun _ _ => Reports.lift _
  | commDup c => exact Reports.bind hB (comm_new_reports hB s) fun _ _ => Reports.pure _
  | commCreate c g =>
    refine Reports.bind hB ?_ fun _ _ => Reports.pure _
    unfold MPI_Comm_create MpiSerial.MPI_Comm_create
    split
    · exact Reports.lift _
    · exact comm_new_reports hB s
  | commSplit c color key =>
    refine Reports.bind hB ?_ fun _ _ => Reports.pure _
    unfold MPI_Comm_split MpiSerial.MPI_Comm_split
    split
    · exact Reports.lift _
    · exact comm_new_reports hB s
  | intercommCreate a b c d e =>
    refine Reports.bind hB ?_ fun _ _ => Reports.pure _
    unfold MPI_Intercomm_create MpiSerial.MPI_Intercomm_create
    split
    · exact Reports.lift _
    · exact comm_new_reports hB s
  | cartCreate c n dims =>
    exact Reports.bind hB (Reports.step hB fun _ _ => comm_new_reports hB s) fun _ _ => Reports.pure _
  | isend a b c d e f => exact Reports.bind hB (isend_reports hB _ _ _ _ _ _ _ _) fun _ _ => Reports.pure _
  | irsend a b c d e f => exact Reports.bind hB (irsend_reports hB _ _ _ _ _ _ _ _) fun _ _ => Reports.pure _
  | send a b c d e f => exact send_reports hB _ _ _ _ _ _ _ _
  | irecv a b c d e f => exact Reports.bind hB (irecv_reports hB _ _ _ _ _ _ _ _) fun _ _ => Reports.pure _
  | recv a b c d e f st => exact Reports.bind hB (recv_reports hB _ _ _ _ _ _ _ _ _) fun _ _ => Reports.pure _
  | sendrecv a b c d e a' b' c' d' e' f st =>
    exact Reports.bind hB (sendrecv_reports hB _ _ _ _ _ _ _ _ _ _ _ _ _ _) fun _ _ => Reports.pure _
  | typeContiguous _ _ | typeHvector _ _ _ _ | typeVector _ _ _ _ | typeHindexed _ _ _ _ | typeIndexed _ _ _ _
  | typeIndexedBlock _ _ _ _ | typeStruct _ _ _ _ => cases hc
  | _ => exact Reports.lift _

end

/-! ## type.c -/

/-- A `malloc` whose result is used unseen. -/
theorem malloc_reports {f : Bool → M α} {y : Res α} (ht : Reports OutOfMemoryOrNull (f true) y)
    (hf : f false = lift (.ub .nullPtr)) : Reports OutOfMemoryOrNull (malloc >>= f) y := by
  intro k
  obtain ⟨n, hn⟩ := ht (k + 1)
  have e : ∀ ok : Mallocs, (malloc >>= f) ok k = f (ok k) ok (k + 1) := fun ok => rfl
  refine ⟨n + 1, fun ok => ⟨fun h => ?_, ?_⟩⟩
  · rw [e, h k (Nat.le_refl k) (by omega), (hn ok).1 fun i a b => h i (by omega) (by omega)]
    simp only [Nat.add_comm, Nat.add_left_comm]
  · rintro ⟨i, h1, h2, h3⟩
    rw [e]
    cases hk : ok k with
    | false => rw [hf]; exact Or.inr rfl
    | true =>
      refine (hn ok).2 ⟨i, ?_, by omega, h3⟩
      refine Nat.not_lt.1 fun hlt => ?_
      obtain rfl : i = k := by omega
      simp [hk] at h3

theorem struct_reports (cfg : Cfg) (g : Garbage) (blocks : List Block) :
    Reports OutOfMemoryOrNull (Type_struct cfg g blocks) (MpiSerial.Type_struct cfg g blocks) := by
  refine Reports.step stops_null fun p1 _ => malloc_reports ?_ rfl
  simp only [Bool.not_true, Bool.false_eq_true, if_false]
  split
  · exact Reports.lift _
  · refine Reports.step stops_null fun _ _ => ?_
    cases p1.override_lower <;> cases p1.override_upper <;> simp only [Bool.false_eq_true, if_false, if_true] <;>
      exact Reports.step stops_null fun _ _ => Reports.step stops_null fun _ _ => Reports.pure _

theorem newType_reports (env : Env) (s : Sys) {b : Garbage → M Typestruct} {b' : Garbage → Res Typestruct}
    (h : ∀ g : Garbage, Reports OutOfMemoryOrNull (b g) (b' g)) :
    Reports OutOfMemoryOrNull (newType env s b) (MpiSerial.newType env s b') :=
  Reports.bind stops_null (alloc_reports stops_null _ _) fun _ _ => Reports.bind stops_null (h _) fun _ _ => Reports.pure _

section
variable (cfg : Cfg) (g : Garbage) (count : Int) (old : Typestruct)

theorem contiguous_reports :
    Reports OutOfMemoryOrNull (Type_contiguous cfg g count old) (MpiSerial.Type_contiguous cfg g count old) :=
  Reports.step stops_null fun _ _ => Reports.step stops_null fun _ _ => Reports.step stops_null fun _ _ =>
    struct_reports _ _ _

theorem hvector_reports (blocklen stride : Int) :
    Reports OutOfMemoryOrNull (Type_hvector cfg g count blocklen stride old)
      (MpiSerial.Type_hvector cfg g count blocklen stride old) :=
  Reports.step stops_null fun _ _ => Reports.step stops_null fun _ _ => Reports.step stops_null fun _ _ =>
    struct_reports _ _ _

theorem vector_reports (blocklen stride : Int) :
    Reports OutOfMemoryOrNull (Type_vector cfg g count blocklen stride old)
      (MpiSerial.Type_vector cfg g count blocklen stride old) :=
  Reports.step stops_null fun _ _ => hvector_reports _ _ _ _ _ _

theorem hindexed_reports (blocklens disps : List Int) :
    Reports OutOfMemoryOrNull (Type_hindexed cfg g count blocklens disps old)
      (MpiSerial.Type_hindexed cfg g count blocklens disps old) :=
  Reports.step stops_null fun _ _ => Reports.step stops_null fun _ _ => struct_reports _ _ _

theorem indexed_reports (blocklens disps : List Int) :
    Reports OutOfMemoryOrNull (Type_indexed cfg g count blocklens disps old)
      (MpiSerial.Type_indexed cfg g count blocklens disps old) :=
  Reports.step stops_null fun _ _ => Reports.step stops_null fun _ _ => hindexed_reports _ _ _ _ _ _

theorem indexed_block_reports (blocklen : Int) (disps : List Int) :
    Reports OutOfMemoryOrNull (Type_create_indexed_block cfg g count blocklen disps old)
      (MpiSerial.Type_create_indexed_block cfg g count blocklen disps old) :=
  Reports.step stops_null fun _ _ => Reports.step stops_null fun _ _ => indexed_reports _ _ _ _ _ _

end

/-- Every call. -/
theorem call_reports_null (env : Env) (s : Sys) (c : Call) :
    Reports OutOfMemoryOrNull (c.execOom env s) (c.exec env s) := by
  cases c with
  | typeContiguous n t =>
    exact Reports.bind stops_null (Reports.step stops_null fun _ _ => newType_reports env _ fun _ => contiguous_reports _ _ _ _)
      fun _ _ => Reports.pure _
  | typeHvector n b d t =>
    exact Reports.bind stops_null (Reports.step stops_null fun _ _ => newType_reports env _ fun _ => hvector_reports _ _ _ _ _ _)
      fun _ _ => Reports.pure _
  | typeVector n b d t =>
    exact Reports.bind stops_null (Reports.step stops_null fun _ _ => newType_reports env _ fun _ => vector_reports _ _ _ _ _ _)
      fun _ _ => Reports.pure _
  | typeHindexed n b d t =>
    exact Reports.bind stops_null (Reports.step stops_null fun _ _ => newType_reports env _ fun _ => hindexed_reports _ _ _ _ _ _)
      fun _ _ => Reports.pure _
  | typeIndexed n b d t =>
    exact Reports.bind stops_null (Reports.step stops_null fun _ _ => newType_reports env _ fun _ => indexed_reports _ _ _ _ _ _)
      fun _ _ => Reports.pure _
  | typeIndexedBlock n b d t =>
    exact Reports.bind stops_null
      (Reports.step stops_null fun _ _ => newType_reports env _ fun _ => indexed_block_reports _ _ _ _ _ _)
      fun _ _ => Reports.pure _
  | typeStruct n b d t =>
    exact Reports.bind stops_null
      (Reports.step stops_null fun _ _ => Reports.step stops_null fun _ _ => newType_reports env _ fun _ =>
        Reports.step stops_null fun _ _ => struct_reports _ _ _)
      fun _ _ => Reports.pure _
  | _ => exact call_reports stops_null env s _ rfl

theorem program_reports (hB : Stops B) (env : Env) {P : Call → Prop}
    (h : ∀ (s : Sys) (c : Call), P c → Reports (B _) (c.execOom env s) (c.exec env s)) :
    ∀ (cs : List Call) (s : Sys), (∀ c ∈ cs, P c) → Reports (B _) (execAllOom env cs s) (execAll env cs s) := by
  intro cs
  induction cs with
  | nil => intro s _; exact Reports.lift _
  | cons c cs ih =>
    intro s hc
    exact Reports.bind hB (h s c (hc c (by simp))) fun s' _ => ih s' fun c' h' => hc c' (by simp [h'])

/-! ### The unseen result -/

/-- If nothing else goes wrong, `x` uses the result of its last `malloc` unseen. -/
def Faults (x : M α) (y : Res α) : Prop :=
  ∀ a : α, y = .ok a → ∀ k : Nat, ∃ n : Nat, ∀ ok : Mallocs,
    (∀ i : Nat, k ≤ i → i < k + n → ok i = true) → ok (k + n) = false → (x ok k).1 = .ub .nullPtr

theorem Faults.after {x : M α} {y : Res α} {f : α → M β} {g : α → Res β} (hx : Reports (B α) x y)
    (hf : ∀ a : α, y = .ok a → Faults (f a) (g a)) : Faults (x >>= f) (y >>= g) := by
  intro b hb k
  cases hy : y with
  | ok a =>
    obtain ⟨n, hn⟩ := hx k
    obtain ⟨n', hn'⟩ := hf a hy b (by rw [hy] at hb; exact hb) (k + n)
    refine ⟨n + n', fun ok h1 h2 => ?_⟩
    rw [bind_apply, (hn ok).1 fun i a b => h1 i a (by omega), hy]
    exact hn' ok (fun i a b => h1 i (by omega) (by omega)) (by rw [Nat.add_assoc]; exact h2)
  | _ => rw [hy] at hb; cases hb

theorem Faults.before {x : M α} {y : Res α} {f : α → M β} {g : α → Res β} (hx : Faults x y) :
    Faults (x >>= f) (y >>= g) := by
  intro b hb k
  cases hy : y with
  | ok a =>
    obtain ⟨n, hn⟩ := hx a hy k
    refine ⟨n, fun ok h1 h2 => ?_⟩
    have := hn ok h1 h2
    rw [bind_apply]
    generalize x ok k = r at this
    obtain ⟨r, k'⟩ := r
    dsimp only at this
    subst this
    rfl
  | _ => rw [hy] at hb; cases hb

theorem Faults.step {y : Res α} {f : α → M β} {g : α → Res β} (hf : ∀ a : α, y = .ok a → Faults (f a) (g a)) :
    Faults (Oom.lift y >>= f) (y >>= g) :=
  Faults.after (B := fun _ r => OutOfMemory r) (Reports.lift y) hf

theorem struct_faults (cfg : Cfg) (g : Garbage) (blocks : List Block) :
    Faults (Type_struct cfg g blocks) (MpiSerial.Type_struct cfg g blocks) := by
  refine Faults.step fun p1 _ => ?_
  intro a _ k
  refine ⟨0, fun ok _ h => ?_⟩
  simp only [bind_apply, malloc, show ok k = false from h]
  rfl

theorem newType_faults (env : Env) (s : Sys) {b : Garbage → M Typestruct} {b' : Garbage → Res Typestruct}
    (h : ∀ g : Garbage, Faults (b g) (b' g)) : Faults (newType env s b) (MpiSerial.newType env s b') :=
  Faults.after (B := fun _ r => OutOfMemory r) (alloc_reports stops_oom _ _) fun _ _ => Faults.before (h _)

section
variable (cfg : Cfg) (g : Garbage) (count : Int) (old : Typestruct)

theorem hvector_faults (blocklen stride : Int) :
    Faults (Type_hvector cfg g count blocklen stride old) (MpiSerial.Type_hvector cfg g count blocklen stride old) :=
  Faults.step fun _ _ => Faults.step fun _ _ => Faults.step fun _ _ => struct_faults _ _ _

theorem hindexed_faults (blocklens disps : List Int) :
    Faults (Type_hindexed cfg g count blocklens disps old) (MpiSerial.Type_hindexed cfg g count blocklens disps old) :=
  Faults.step fun _ _ => Faults.step fun _ _ => struct_faults _ _ _

theorem indexed_faults (blocklens disps : List Int) :
    Faults (Type_indexed cfg g count blocklens disps old) (MpiSerial.Type_indexed cfg g count blocklens disps old) :=
  Faults.step fun _ _ => Faults.step fun _ _ => hindexed_faults _ _ _ _ _ _

end

theorem call_faults (env : Env) (s : Sys) (c : Call) (hc : c.makesType = true) :
    Faults (c.execOom env s) (c.exec env s) := by
  cases c with
  | typeContiguous n t =>
    exact Faults.before (Faults.step fun _ _ => newType_faults env _ fun _ => Faults.step fun _ _ => Faults.step fun _ _ =>
      Faults.step fun _ _ => struct_faults _ _ _)
  | typeHvector n b d t =>
    exact Faults.before (Faults.step fun _ _ => newType_faults env _ fun _ => hvector_faults _ _ _ _ _ _)
  | typeVector n b d t =>
    exact Faults.before (Faults.step fun _ _ => newType_faults env _ fun _ => Faults.step fun _ _ =>
      hvector_faults _ _ _ _ _ _)
  | typeHindexed n b d t =>
    exact Faults.before (Faults.step fun _ _ => newType_faults env _ fun _ => hindexed_faults _ _ _ _ _ _)
  | typeIndexed n b d t =>
    exact Faults.before (Faults.step fun _ _ => newType_faults env _ fun _ => indexed_faults _ _ _ _ _ _)
  | typeIndexedBlock n b d t =>
    exact Faults.before (Faults.step fun _ _ => newType_faults env _ fun _ => Faults.step fun _ _ => Faults.step fun _ _ =>
      indexed_faults _ _ _ _ _ _)
  | typeStruct n b d t =>
    exact Faults.before (Faults.step fun _ _ => Faults.step fun _ _ => newType_faults env _ fun _ => Faults.step fun _ _ =>
      struct_faults _ _ _)
  | _ => cases hc

end Oom

end MpiSerial
