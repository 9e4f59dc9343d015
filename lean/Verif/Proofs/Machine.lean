import Verif.Spec.Machine
import Verif.Proofs.TwinAll

/-!
# The reference machine: handle numbers
-/

set_option linter.unusedSimpArgs false
set_option autoImplicit false

namespace MpiSerial

open Res (Rel)

/-! ## The free list is the stack of the machine -/

/-- The free list of the table is the stack of free numbers. -/
def PoolRel {D : Type} (t : HTab D) (P : Pool) : Prop :=
  (t.needInit = true ∧ P = .start) ∨
  (t.needInit = false ∧ ∃ fl, FreeChain t.items t.nextfree fl ∧ P = ⟨fl.map encLoc, t.nblocks⟩)

theorem blockFrom_enc (b : Nat) : (blockFrom b 1).map encLoc = Pool.block b := by
  unfold blockFrom Pool.block
  rw [List.map_map]
  refine List.map_congr_left fun i _ => ?_
  simp only [Function.comp, encLoc]
  omega

section
variable {D : Type} {t t' : HTab D} {P : Pool} {L : List Int}

theorem PoolRel.inv {fl : List Loc} (hi : HInv t L fl) : PoolRel t P ↔ P = ⟨fl.map encLoc, t.nblocks⟩ := by
  unfold PoolRel
  constructor
  · rintro (⟨h, _⟩ | ⟨_, fl', h1, h2⟩)
    · rw [hi.init] at h; cases h
    · rw [h2, h1.unique hi.chain]
  · exact fun h => Or.inr ⟨hi.init, fl, hi.chain, h⟩

theorem PoolRel.init (t : HTab D) : PoolRel (init_handles t) .start := by
  rw [PoolRel.inv (init_handles_inv t), blockFrom_enc]
  have h := (init_handles_inv t).size
  have : (init_handles t).nblocks = 1 := by
    simp only [List.length_nil, blockFrom, List.length_map, List.length_range'] at h
    omega
  rw [this]
  rfl

theorem PoolRel.alloc_inv {fl : List Loc} (hi : HInv t L fl) (hp : PoolRel t P) (fresh : D) :
    (L.length < 262143 ∧ ∃ t' h P', mpi_alloc_handle t fresh = .ok (t', h, locOf h) ∧ P.take = some (h, P') ∧
      PoolRel t' P' ∧ t'.needInit = false ∧ HSt t' (h :: L)) ∨
    (L.length = 262143 ∧ P.take = none ∧ mpi_alloc_handle t fresh = .abort "mpi_allocate_handle: max active handles exceeded") := by
  have hP := (PoolRel.inv hi).1 hp
  subst hP
  rcases hi.alloc_exact fresh with ⟨h1, t', h, fl', h2, h3, h4, h5, h6, h7⟩ | ⟨h1, h2, h3, h4⟩
  · refine Or.inl ⟨h1, t', h, ?_⟩
    cases fl with
    | nil =>
      obtain ⟨g1, g2, g3, g4⟩ := h6 rfl
      refine ⟨⟨Pool.block t.nblocks, t.nblocks + 1⟩, h2, ?_, ?_, h3.init, Or.inr ⟨_, h3⟩⟩
      · simp only [Pool.take, List.map_nil, if_neg g4, g2, encLoc]
        congr 2
        omega
      · rw [PoolRel.inv h3, g3, blockFrom_enc, g1]
    | cons x xs =>
      obtain ⟨g1, g2, g3⟩ := h7 x xs rfl
      refine ⟨⟨xs.map encLoc, t.nblocks⟩, h2, ?_, ?_, h3.init, Or.inr ⟨_, h3⟩⟩
      · simp only [Pool.take, List.map_cons, g2]
      · rw [PoolRel.inv h3, g3, g1]
  · refine Or.inr ⟨h1, ?_, h4⟩
    rw [h2, h3]
    rfl

/-- A handle number is taken. -/
theorem PoolRel.alloc (hs : HSt t L) (hp : PoolRel t P) (fresh : D) :
    (L.length < 262143 ∧ ∃ t' h P', mpi_alloc_handle t fresh = .ok (t', h, locOf h) ∧ P.take = some (h, P') ∧
      PoolRel t' P' ∧ t'.needInit = false ∧ HSt t' (h :: L)) ∨
    (L.length = 262143 ∧ P.take = none ∧ mpi_alloc_handle t fresh = .abort "mpi_allocate_handle: max active handles exceeded") := by
  rcases hs with ⟨h1, rfl⟩ | ⟨fl, hi⟩
  · have : P = .start := by
      rcases hp with ⟨_, h⟩ | ⟨h, _⟩
      · exact h
      · rw [h1] at h; cases h
    subst this
    rw [mpi_alloc_handle_needInit h1]
    exact PoolRel.alloc_inv (init_handles_inv t) (.init t) fresh
  · exact PoolRel.alloc_inv hi hp fresh

/-- A handle number is returned. -/
theorem PoolRel.free (hs : HSt t L) (hp : PoolRel t P) {h : Int} (hh : h ∈ L) {t' : HTab D} (he : mpi_free_handle t h = .ok t') :
    PoolRel t' (P.give h) := by
  rcases hs with ⟨h1, rfl⟩ | ⟨fl, hi⟩
  · cases hh
  · have hP := (PoolRel.inv hi).1 hp
    subst hP
    obtain ⟨u, h1, h2, h3, _⟩ := hi.free hh
    rw [he] at h1
    cases h1
    rw [PoolRel.inv h2, h3]
    have := hi.live_pos hh
    simp only [Pool.give, List.map_cons]
    rw [encLoc_locOf (by omega)]

theorem PoolRel.destroy (t : HTab D) : PoolRel (mpi_destroy_handles t) .start := by
  unfold mpi_destroy_handles
  split
  · next h => exact Or.inl ⟨h, rfl⟩
  · exact Or.inl ⟨rfl, rfl⟩

end

/-! ## Calls that leave the free list alone -/

/-- Same free list, same number of datatypes built. -/
structure Mild (s s' : Sys) : Prop where
  init : s'.handles.needInit = s.handles.needInit
  nblocks : s'.handles.nblocks = s.handles.nblocks
  nextfree : s'.handles.nextfree = s.handles.nextfree
  next : ∀ l, (s'.handles.items l).next = (s.handles.items l).next
  built : s'.nextType = s.nextType

section
variable {s s' s'' a : Sys} {env : Env} {P : Pool}

theorem Mild.refl (s : Sys) : Mild s s := ⟨rfl, rfl, rfl, fun _ => rfl, rfl⟩

theorem Mild.trans (h1 : Mild s s') (h2 : Mild s' s'') : Mild s s'' :=
  ⟨h2.init.trans h1.init, h2.nblocks.trans h1.nblocks, h2.nextfree.trans h1.nextfree, fun l => (h2.next l).trans (h1.next l),
    h2.built.trans h1.built⟩

theorem FreeChain.mono {D : Type} {f g : Loc → Item D} (h : ∀ l, (g l).next = (f l).next) :
    ∀ {p : Option Loc} {fl : List Loc}, FreeChain f p fl → FreeChain g p fl := by
  intro p fl
  induction fl generalizing p with
  | nil => exact fun h => h
  | cons x xs ih => exact fun ⟨h1, h2⟩ => ⟨h1, by rw [h]; exact ih h2⟩

theorem Mild.pool (h : Mild s s') (hp : PoolRel s.handles P) : PoolRel s'.handles P := by
  unfold PoolRel at hp ⊢
  rw [h.init, h.nblocks, h.nextfree]
  exact hp.imp id fun ⟨h1, fl, h2, h3⟩ => ⟨h1, fl, h2.mono h.next, h3⟩

theorem Mild.setData (s : Sys) (l : Loc) (d : Slot) : Mild s { s with handles := s.handles.setData l d } := by
  refine ⟨rfl, rfl, rfl, fun x => ?_, rfl⟩
  show ((s.handles.setData l d).items x).next = _
  rw [HTab.setData_items]
  split
  · next h => rw [h]
  · rfl

theorem Mild.modReq {l : Loc} {f : ReqRec → ReqRec} (h : s.modReq l f = .ok s') : Mild s s' := by
  unfold Sys.modReq at h
  obtain ⟨r, _, h⟩ := Res.bind_eq_ok.1 h
  cases h
  exact .setData _ _ _

theorem Mild.withLists (s : Sys) (l : LHeap Loc) : Mild s { s with lists := l } := ⟨rfl, rfl, rfl, fun _ => rfl, rfl⟩

/-- The table with the statics set up. -/
def Sys.readied (s : Sys) : Sys := { s with handles := if s.handles.needInit then init_handles s.handles else s.handles }

theorem ptr_readied {h : Int} {p : Option Loc} (he : s.ptr h = .ok (a, p)) : a = s.readied := by
  unfold Sys.ptr mpi_handle_to_ptr at he
  obtain ⟨x, h1, h2⟩ := Res.bind_eq_ok.1 he
  obtain ⟨t, q⟩ := x
  cases h2
  dsimp only at h1
  split at h1
  · cases h1; rfl
  · obtain ⟨l, _, h3⟩ := Res.bind_eq_ok.1 h1
    cases h3
    rfl

theorem readied_eq (h : s.handles.needInit = false) : s.readied = s := by
  unfold Sys.readied
  rw [if_neg (by simp [h])]

theorem alloc_readied (s : Sys) : mpi_alloc_handle s.readied.handles Slot.raw = mpi_alloc_handle s.handles .raw := by
  unfold Sys.readied
  dsimp only
  cases h : s.handles.needInit with
  | false => simp
  | true => rw [if_pos rfl, ← mpi_alloc_handle_needInit h]

theorem toType_stays (h : s.handles.needInit = false) {x : Int} {p : TPtr} (he : handleToDatatype s x = .ok (a, p)) : a = s := by
  unfold handleToDatatype at he
  split at he
  · obtain ⟨_, _, he⟩ := Res.bind_eq_ok.1 he
    cases he
    rfl
  · obtain ⟨⟨b, q⟩, h1, h2⟩ := Res.bind_eq_ok.1 he
    have := ptr_readied h1
    rw [readied_eq h] at this
    subst this
    dsimp only at h2
    cases q with
    | none => cases h2
    | some l =>
      dsimp only at h2
      obtain ⟨it, _, h3⟩ := Res.bind_eq_ok.1 h2
      split at h3 <;> cases h3
      rfl

theorem Mild.copy (h : s.handles.needInit = false) {p n t q k u : Int} (he : copy_data2 env s p n t q k u = .ok s') : Mild s s' := by
  unfold copy_data2 at he
  obtain ⟨⟨a, x⟩, h1, h2⟩ := Res.bind_eq_ok.1 he
  have := toType_stays h h1
  subst this
  obtain ⟨⟨b, y⟩, h3, h4⟩ := Res.bind_eq_ok.1 h2
  have := toType_stays h h3
  subst this
  obtain ⟨_, _, h5⟩ := Res.bind_eq_ok.1 h4
  obtain ⟨_, _, h6⟩ := Res.bind_eq_ok.1 h5
  obtain ⟨_, _, h7⟩ := Res.bind_eq_ok.1 h6
  cases h7
  exact ⟨rfl, rfl, rfl, fun _ => rfl, rfl⟩

theorem allocReq_mild {h : Int} {l : Loc} (he : s.allocReq env = .ok (a, h, l)) :
    ∃ t, mpi_alloc_handle s.handles .raw = .ok (t, h, l) ∧ Mild { s with handles := t } a := by
  unfold Sys.allocReq at he
  obtain ⟨⟨t, h', l'⟩, h1, h2⟩ := Res.bind_eq_ok.1 he
  cases h2
  exact ⟨t, h1, ⟨rfl, rfl, rfl, (Mild.setData { s with handles := t } _ _).next, rfl⟩⟩

theorem allocReq_abort {m : String} (he : mpi_alloc_handle s.handles Slot.raw = .abort m) : s.allocReq env = .abort m := by
  unfold Sys.allocReq
  rw [he]
  rfl

theorem sendMatched_mild (h : s.handles.needInit = false) {buf count dtype tag : Int} {l x : Nat} {q : Loc}
    (he : sendMatched env s buf count dtype tag l x q = .ok s') : Mild s s' := by
  unfold sendMatched at he
  obtain ⟨_, _, he⟩ := Res.bind_eq_ok.1 he
  obtain ⟨_, _, he⟩ := Res.bind_eq_ok.1 he
  obtain ⟨_, _, he⟩ := Res.bind_eq_ok.1 he
  obtain ⟨_, h1, he⟩ := Res.bind_eq_ok.1 he
  obtain ⟨_, h2, he⟩ := Res.bind_eq_ok.1 he
  have h0 := Mild.copy (by exact h) h1
  exact ((Mild.trans (Mild.withLists s _) h0).trans (.modReq h2)).trans (.modReq he)

theorem recvMatched_mild (h : s.handles.needInit = false) {buf count dtype : Int} {l x : Nat} {q : Loc}
    (he : recvMatched env s buf count dtype l x q = .ok s') : Mild s s' := by
  unfold recvMatched at he
  obtain ⟨_, _, he⟩ := Res.bind_eq_ok.1 he
  obtain ⟨_, _, he⟩ := Res.bind_eq_ok.1 he
  obtain ⟨_, _, he⟩ := Res.bind_eq_ok.1 he
  obtain ⟨_, h1, he⟩ := Res.bind_eq_ok.1 he
  obtain ⟨_, _, he⟩ := Res.bind_eq_ok.1 he
  obtain ⟨_, h2, he⟩ := Res.bind_eq_ok.1 he
  have h0 := Mild.copy (by exact h) h1
  exact ((Mild.trans (Mild.withLists s _) h0).trans (.modReq h2)).trans (.modReq he)

theorem sendQueued_mild {buf tag : Int} {l : Nat} {q : Loc} (he : sendQueued s buf tag l q = .ok s') : Mild s s' := by
  unfold sendQueued at he
  obtain ⟨_, h1, he⟩ := Res.bind_eq_ok.1 he
  obtain ⟨_, _, he⟩ := Res.bind_eq_ok.1 he
  exact ((Mild.modReq h1).trans (.withLists _ _)).trans (.modReq he)

theorem recvQueued_mild {buf tag : Int} {l : Nat} {q : Loc} (he : recvQueued s buf tag l q = .ok s') : Mild s s' := by
  unfold recvQueued at he
  obtain ⟨_, h1, he⟩ := Res.bind_eq_ok.1 he
  obtain ⟨_, _, he⟩ := Res.bind_eq_ok.1 he
  exact ((Mild.modReq h1).trans (.withLists _ _)).trans (.modReq he)

/-- What a posted operation does to the handle numbers. -/
def Took (s s' : Sys) (h : Int) : Prop :=
  ∃ t l, mpi_alloc_handle s.handles Slot.raw = .ok (t, h, l) ∧ (t.needInit = false → Mild { s with handles := t } s')

theorem isend_took {buf count dtype dest tag comm h : Int} (he : MPI_Isend env s buf count dtype dest tag comm = .ok (s', h)) :
    Took s s' h := by
  unfold MPI_Isend at he
  obtain ⟨⟨a, p⟩, h1, he⟩ := Res.bind_eq_ok.1 he
  have := ptr_readied h1
  subst this
  dsimp only at he
  split at he
  · cases he
  · obtain ⟨⟨b, h', l⟩, h2, he⟩ := Res.bind_eq_ok.1 he
    obtain ⟨t, h3, h4⟩ := allocReq_mild h2
    rw [alloc_readied] at h3
    have key : ∀ c, Mild b c → t.needInit = false → Mild { s with handles := t } c := fun c hc _ => by
      have : Mild { s.readied with handles := t } c := h4.trans hc
      exact ⟨this.init, this.nblocks, this.nextfree, this.next, this.built⟩
    dsimp only at he
    split at he
    · obtain ⟨c, h5, he⟩ := Res.bind_eq_ok.1 he
      cases he
      exact ⟨t, l, h3, key _ (.modReq h5)⟩
    · obtain ⟨_, _, he⟩ := Res.bind_eq_ok.1 he
      obtain ⟨f, _, he⟩ := Res.bind_eq_ok.1 he
      cases f with
      | none =>
        obtain ⟨c, h5, he⟩ := Res.bind_eq_ok.1 he
        cases he
        exact ⟨t, l, h3, key _ (sendQueued_mild h5)⟩
      | some x =>
        obtain ⟨c, h5, he⟩ := Res.bind_eq_ok.1 he
        cases he
        refine ⟨t, l, h3, fun hn => key _ (sendMatched_mild ?_ h5) hn⟩
        rw [h4.init]
        exact hn

theorem irecv_took {buf count dtype src tag comm h : Int} (he : MPI_Irecv env s buf count dtype src tag comm = .ok (s', h)) :
    Took s s' h := by
  unfold MPI_Irecv at he
  obtain ⟨⟨a, p⟩, h1, he⟩ := Res.bind_eq_ok.1 he
  have := ptr_readied h1
  subst this
  dsimp only at he
  split at he
  · cases he
  · obtain ⟨⟨b, h', l⟩, h2, he⟩ := Res.bind_eq_ok.1 he
    obtain ⟨t, h3, h4⟩ := allocReq_mild h2
    rw [alloc_readied] at h3
    have key : ∀ c, Mild b c → t.needInit = false → Mild { s with handles := t } c := fun c hc _ => by
      have : Mild { s.readied with handles := t } c := h4.trans hc
      exact ⟨this.init, this.nblocks, this.nextfree, this.next, this.built⟩
    dsimp only at he
    obtain ⟨b', hb, he⟩ := Res.bind_eq_ok.1 he
    have hb := Mild.modReq hb
    split at he
    · obtain ⟨c, h5, he⟩ := Res.bind_eq_ok.1 he
      cases he
      exact ⟨t, l, h3, key _ (hb.trans (.modReq h5))⟩
    · obtain ⟨_, _, he⟩ := Res.bind_eq_ok.1 he
      obtain ⟨f, _, he⟩ := Res.bind_eq_ok.1 he
      cases f with
      | none =>
        obtain ⟨c, h5, he⟩ := Res.bind_eq_ok.1 he
        cases he
        exact ⟨t, l, h3, key _ (hb.trans (recvQueued_mild h5))⟩
      | some x =>
        obtain ⟨c, h5, he⟩ := Res.bind_eq_ok.1 he
        cases he
        refine ⟨t, l, h3, fun hn => key _ (hb.trans (recvMatched_mild ?_ h5)) hn⟩
        rw [hb.init, h4.init]
        exact hn

theorem isend_full {buf count dtype dest tag comm : Int} {p : Option Loc} {m : String} (hp : s.ptr comm = .ok (a, p))
    (hd : dest = 0 ∨ dest = MPI_PROC_NULL) (he : mpi_alloc_handle s.handles Slot.raw = .abort m) :
    MPI_Isend env s buf count dtype dest tag comm = .abort m := by
  unfold MPI_Isend
  rw [hp, Res.ok_bind]
  dsimp only
  rw [if_neg (by omega), ptr_readied hp, allocReq_abort (by rw [alloc_readied]; exact he)]
  rfl

theorem irecv_full {buf count dtype src tag comm : Int} {p : Option Loc} {m : String} (hp : s.ptr comm = .ok (a, p))
    (hd : src = 0 ∨ src = MPI_ANY_SOURCE ∨ src = MPI_PROC_NULL) (he : mpi_alloc_handle s.handles Slot.raw = .abort m) :
    MPI_Irecv env s buf count dtype src tag comm = .abort m := by
  unfold MPI_Irecv
  rw [hp, Res.ok_bind]
  dsimp only
  rw [if_neg (by omega), ptr_readied hp, allocReq_abort (by rw [alloc_readied]; exact he)]
  rfl

end

end MpiSerial
