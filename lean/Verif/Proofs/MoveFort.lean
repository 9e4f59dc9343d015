import Verif.Spec.MoveFort
import Verif.Proofs.MoveCalls

/-!
# Helper lemmas for C84: Fortran bindings
-/

set_option autoImplicit false
set_option linter.unusedSimpArgs false

namespace MpiSerial

open Moving (move fits)

variable {δ : Int}

/-! ## Loads and stores -/

theorem Mem.moved_add (m : Mem) (p : Int) : m.moved δ (p + δ) = m p := by
  unfold Mem.moved; rw [show p + δ - δ = p by omega]

theorem ldBytes_moved (m : Mem) (n : Nat) : ∀ p, ldBytes (m.moved δ) (p + δ) n = ldBytes m p n := by
  induction n with
  | zero => intro p; rfl
  | succ n ih =>
    intro p
    simp only [ldBytes, Mem.moved_add]
    rw [show p + δ + 1 = p + 1 + δ by omega, ih]

theorem ldInt_moved (bo : ByteOrder) (m : Mem) (p : Int) : ldInt bo (m.moved δ) (p + δ) = ldInt bo m p := by
  unfold ldInt; rw [ldBytes_moved]

theorem ldLong_moved (bo : ByteOrder) (m : Mem) (p : Int) : ldLong bo (m.moved δ) (p + δ) = ldLong bo m p := by
  unfold ldLong; rw [ldBytes_moved]

theorem ldAint_moved (bo : ByteOrder) (m : Mem) (p : Int) : ldAint bo (m.moved δ) (p + δ) = ldAint bo m p := by
  unfold ldAint; rw [ldBytes_moved]

theorem ldInts_moved (bo : ByteOrder) (m : Mem) (n : Nat) : ∀ p, ldInts bo (m.moved δ) (p + δ) n = ldInts bo m p n := by
  induction n with
  | zero => intro p; rfl
  | succ n ih =>
    intro p
    simp only [ldInts, ldInt_moved]
    rw [show p + δ + 4 = p + 4 + δ by omega, ih]

theorem ldAints_moved (bo : ByteOrder) (m : Mem) (n : Nat) : ∀ p, ldAints bo (m.moved δ) (p + δ) n = ldAints bo m p n := by
  induction n with
  | zero => intro p; rfl
  | succ n ih =>
    intro p
    simp only [ldAints, ldAint_moved]
    rw [show p + δ + 8 = p + 8 + δ by omega, ih]

theorem ldStatus_moved (bo : ByteOrder) (m : Mem) (p : Int) : ldStatus bo (m.moved δ) (p + δ) = ldStatus bo m p := by
  unfold ldStatus
  rw [show p + δ + 4 = p + 4 + δ by omega, show p + δ + 8 = p + 8 + δ by omega, show p + δ + 12 = p + 12 + δ by omega]
  simp only [ldInt_moved]

theorem ldStatuses_moved (bo : ByteOrder) (m : Mem) (n : Nat) : ∀ p, ldStatuses bo (m.moved δ) (p + δ) n = ldStatuses bo m p n := by
  induction n with
  | zero => intro p; rfl
  | succ n ih =>
    intro p
    simp only [ldStatuses, ldStatus_moved]
    rw [show p + δ + 16 = p + 16 + δ by omega, ih]

theorem stBytes_movesTo {m : Mem} (bs : List UInt8) : ∀ p, m.Fits δ → MovesTo δ (stBytes m p bs) (stBytes (m.moved δ) (p + δ) bs) := by
  induction bs with
  | nil => intro p hm; exact .ret (a := m) hm
  | cons b bs ih =>
    intro p hm
    simp only [stBytes, Mem.moved_add]
    cases hp : m p with
    | none => exact .ub
    | some x =>
      dsimp only
      rw [show p + δ + 1 = p + 1 + δ by omega]
      refine .bind (ih (p + 1) hm) fun m' hm' => .ret (a := (fun a => if a = p then some b else m' a : Mem)) ?_ ?_
      · intro a ha
        dsimp only at ha
        by_cases h : a = p
        · subst h; exact hm a (by rw [hp]; rfl)
        · rw [if_neg h] at ha; exact hm' a ha
      · show Res.ok _ = Res.ok _
        congr 1
        funext a
        show (if a = p + δ then some b else m' (a - δ)) = if a - δ = p then some b else m' (a - δ)
        by_cases h : a = p + δ
        · rw [if_pos h, if_pos (by omega)]
        · rw [if_neg h, if_neg (by omega)]

theorem stInt_movesTo {s : Sys} (hs : s.mem.Fits δ) (bo : ByteOrder) (p v : Int) :
    MovesTo δ (stInt bo s p v) (stInt bo (s.moved δ) (p + δ) v) :=
  .bind (stBytes_movesTo (bo.bytes 4 v) p hs) fun m hm => .ret (a := { s with mem := m }) hm

theorem stLong_movesTo {s : Sys} (hs : s.mem.Fits δ) (bo : ByteOrder) (p v : Int) :
    MovesTo δ (stLong bo s p v) (stLong bo (s.moved δ) (p + δ) v) :=
  .bind (stBytes_movesTo (bo.bytes 8 v) p hs) fun m hm => .ret (a := { s with mem := m }) hm

theorem stInts_movesTo (bo : ByteOrder) (vs : List Int) : ∀ {s : Sys}, s.mem.Fits δ → ∀ p,
    MovesTo δ (stInts bo s p vs) (stInts bo (s.moved δ) (p + δ) vs) := by
  induction vs with
  | nil => intro s hs p; exact .ret (a := s) hs
  | cons v vs ih =>
    intro s hs p
    refine .bind (stInt_movesTo hs bo p v) fun s' hs' => ?_
    rw [show p + δ + 4 = p + 4 + δ by omega]
    exact ih (s := s') hs' (p + 4)

theorem stStatus_movesTo {s : Sys} (hs : s.mem.Fits δ) (bo : ByteOrder) (p : Int) (o : StPtr) :
    MovesTo δ (stStatus bo s p o) (stStatus bo (s.moved δ) (p + δ) o) := by
  cases o with
  | obj st => exact stInts_movesTo bo _ hs p
  | null => exact .ret (a := s) hs
  | bad => exact .ret (a := s) hs

theorem stStatuses_movesTo {s : Sys} (hs : s.mem.Fits δ) (bo : ByteOrder) (p : Int) (o : StArr) :
    MovesTo δ (stStatuses bo s p o) (stStatuses bo (s.moved δ) (p + δ) o) := by
  cases o with
  | some sts => exact stInts_movesTo bo _ hs p
  | none => exact .ret (a := s) hs

/-! ## The sentinels -/

theorem c_status_moved {f : FPtrs} {p : Int} (h : StatusMoves δ f.status p) :
    mpi_c_status (f.moved δ) (p + δ) = 0 ↔ mpi_c_status f p = 0 := by
  show (if p + δ = f.status + δ then 0 else p + δ) = 0 ↔ (if p = f.status then 0 else p) = 0
  by_cases hp : p = f.status
  · rw [if_pos hp, if_pos (by omega)]
  · have := h hp
    rw [if_neg hp, if_neg (by omega)]; omega

theorem c_statuses_moved {f : FPtrs} {p : Int} (h : StatusMoves δ f.statuses p) :
    mpi_c_statuses (f.moved δ) (p + δ) = 0 ↔ mpi_c_statuses f p = 0 := by
  show (if p + δ = f.statuses + δ then 0 else p + δ) = 0 ↔ (if p = f.statuses then 0 else p) = 0
  by_cases hp : p = f.statuses
  · rw [if_pos hp, if_pos (by omega)]
  · have := h hp
    rw [if_neg hp, if_neg (by omega)]; omega

theorem statusArg_moved {f : FPtrs} {p : Int} (h : StatusMoves δ f.status p) (st : Status) :
    Fort.statusArg (mpi_c_status (f.moved δ) (p + δ)) st = Fort.statusArg (mpi_c_status f p) st := by
  unfold Fort.statusArg; simp only [c_status_moved h]

theorem statusesArg_moved {f : FPtrs} {p : Int} (h : StatusMoves δ f.statuses p) (st : List Status) :
    Fort.statusesArg (mpi_c_statuses (f.moved δ) (p + δ)) st = Fort.statusesArg (mpi_c_statuses f p) st := by
  unfold Fort.statusesArg; simp only [c_statuses_moved h]

theorem c_in_place_moved {f : FPtrs} {b : Int} (h : b ≠ f.in_place → BufferMoves δ b) :
    mpi_c_in_place (f.moved δ) (b + δ) = movedOr δ (mpi_c_in_place f b) ∧
      (mpi_c_in_place f b ≠ MPI_IN_PLACE → mpi_c_in_place f b + δ ≠ MPI_IN_PLACE) := by
  show (if b + δ = f.in_place + δ then MPI_IN_PLACE else b + δ) = movedOr δ (if b = f.in_place then MPI_IN_PLACE else b) ∧
    ((if b = f.in_place then MPI_IN_PLACE else b) ≠ MPI_IN_PLACE → (if b = f.in_place then MPI_IN_PLACE else b) + δ ≠ MPI_IN_PLACE)
  unfold movedOr
  by_cases hb : b = f.in_place
  · rw [if_pos hb, if_pos (by omega), if_pos rfl]
    exact ⟨rfl, fun h => absurd rfl h⟩
  · rw [if_neg hb, if_neg (by omega), if_neg (h hb).1]
    exact ⟨rfl, fun _ => (h hb).2⟩

/-! ## From calls back to functions -/

theorem MovesTo.ofNone {f g : Res Sys}
    (h : MovesTo δ (f >>= fun s => .ok (s, (⟨[], []⟩ : Out))) (g >>= fun s => .ok (s, (⟨[], []⟩ : Out)))) : MovesTo δ f g := by
  obtain ⟨h1, h2⟩ := h
  refine ⟨?_, fun a ha => h2 (a, ⟨[], []⟩) (by rw [ha]; rfl)⟩
  cases f <;> cases g <;> first | rfl | (cases h1; done) | skip
  all_goals first | (cases h1; rfl) | (injection h1; simp_all; done) | skip

theorem MovesTo.ofOne {f g : Res (Sys × Int)}
    (h : MovesTo δ (f >>= fun x => .ok (x.1, (⟨[x.2], []⟩ : Out))) (g >>= fun x => .ok (x.1, (⟨[x.2], []⟩ : Out)))) : MovesTo δ f g := by
  obtain ⟨h1, h2⟩ := h
  refine ⟨?_, fun a ha => h2 (a.1, ⟨[a.2], []⟩) (by rw [ha]; rfl)⟩
  cases f <;> cases g <;> first | rfl | (cases h1; done) | skip
  all_goals first
    | (injection h1; simp_all; done)
    | (rename_i x y; obtain ⟨x1, x2⟩ := x; obtain ⟨y1, y2⟩ := y; cases h1; rfl)

/-- A load: the same value. -/
theorem MovesTo.load {A β : Type} [Moving A] {X X' : Res β} {g g' : β → Res A} (h : X' = X) (k : ∀ b, MovesTo δ (g b) (g' b)) :
    MovesTo δ (X >>= g) (X' >>= g') := by subst h; exact .skip k

/-- Goes through a binding: loads, the call, stores, the error code. -/
local macro "loads" : tactic =>
  `(tactic| repeat refine MovesTo.load (by first
    | exact ldInt_moved .. | exact ldInts_moved .. | exact ldAints_moved .. | exact ldLong_moved .. | exact ldStatus_moved ..) fun _ => ?_)

local macro "stored" : tactic => `(tactic| first
  | exact stInt_movesTo (by assumption) _ _ _
  | exact stInts_movesTo _ _ (by assumption) _
  | exact stLong_movesTo (by assumption) _ _ _
  | exact stStatus_movesTo (by assumption) _ _ _
  | exact stStatuses_movesTo (by assumption) _ _ _)

local macro "stores" : tactic => `(tactic| (
  repeat refine MovesTo.bind (by stored) fun s hs => ?_
  stored))

theorem status_moved (c : FEnv) (s : Sys) {p : Int} (h : StatusMoves δ c.ptrs.status p) :
    Bind.status (c.moved δ) (s.moved δ) (p + δ) = Bind.status c s p := by
  show (if mpi_c_status (c.ptrs.moved δ) (p + δ) = 0 then _ else ldStatus c.bo (s.mem.moved δ) (p + δ)) = _
  simp only [c_status_moved h, ldStatus_moved]
  rfl

theorem statuses_moved (c : FEnv) (s : Sys) {p : Int} (h : StatusMoves δ c.ptrs.statuses p) (n : Int) :
    Bind.statuses (c.moved δ) (s.moved δ) (p + δ) n = Bind.statuses c s p n := by
  show (if mpi_c_statuses (c.ptrs.moved δ) (p + δ) = 0 then _ else ldStatuses c.bo (s.mem.moved δ) (p + δ) n.toNat) = _
  simp only [c_statuses_moved h, ldStatuses_moved]
  rfl

theorem allreduce_movesTo (c : FEnv) {s : Sys} (hs : s.mem.Fits δ) {b : Int} (hb : BufferMoves δ b) (b' n t o k : Int) :
    MovesTo δ (MPI_Allreduce c.env s b b' n t o k) (MPI_Allreduce (c.env.moved δ) (s.moved δ) (b + δ) (b' + δ) n t o k) := by
  have h := (answer_movesTo c.env hs (.allreduce b b' n t o k) (fun _ => hb.2)).ofNone (f := MPI_Allreduce c.env s b b' n t o k)
    (g := MPI_Allreduce (c.env.moved δ) (s.moved δ) (movedOr δ b) (b' + δ) n t o k)
  unfold movedOr at h
  rw [if_neg hb.1] at h
  exact h

theorem fcall_movesTo (c : FEnv) {s : Sys} (hs : s.mem.Fits δ) (fc : FCall) (hc : fc.Moves δ c.ptrs) :
    MovesTo δ (fc.exec c s) ((fc.moved δ).exec (c.moved δ) (s.moved δ)) := by
  have one := fun (k : Call) (hk : k.Moves δ) => answer_movesTo c.env hs k hk
  cases fc with
  | isend => loads; exact .bind (Isend_movesTo c.env hs ..) fun x hx => by stores
  | send => loads; exact .bind (Send_movesTo c.env hs ..) fun x hx => by stores
  | ssend => loads; exact .bind (Send_movesTo c.env hs ..) fun x hx => by stores
  | rsend => loads; exact .bind (Send_movesTo c.env hs ..) fun x hx => by stores
  | irsend => loads; exact .bind (Irsend_movesTo c.env hs ..) fun x hx => by stores
  | irecv => loads; exact .bind (Irecv_movesTo c.env hs ..) fun x hx => by stores
  | recv buf n t d g k st e =>
    loads
    refine .load (status_moved c s hc) fun o => ?_
    refine .bind (f' := Fort.mpi_recv (c.ptrs.moved δ) (c.env.moved δ) (s.moved δ) (buf + δ) _ _ _ _ _ (st + δ) o) ?_ fun x hx => by stores
    unfold Fort.mpi_recv
    rw [statusArg_moved hc]
    exact Recv_movesTo c.env hs ..
  | sendrecv b n t d g b' n' t' d' g' k st e =>
    loads
    refine .load (status_moved c s hc) fun o => ?_
    refine .bind (f' := Fort.mpi_sendrecv (c.ptrs.moved δ) (c.env.moved δ) (s.moved δ) (b + δ) _ _ _ _ (b' + δ) _ _ _ _ _ (st + δ) o) ?_ fun x hx => by stores
    unfold Fort.mpi_sendrecv
    rw [statusArg_moved hc]
    exact Sendrecv_movesTo c.env hs ..
  | iprobe d g k b st e =>
    loads
    refine .load (status_moved c s hc) fun o => ?_
    refine .bind (f' := Fort.mpi_iprobe (c.ptrs.moved δ) (s.moved δ) _ _ _ (st + δ) o) ?_ fun x hx => by stores
    unfold Fort.mpi_iprobe
    rw [statusArg_moved hc]
    exact Iprobe_movesTo hs ..
  | probe d g k st e =>
    loads
    refine .load (status_moved c s hc) fun o => ?_
    refine .bind (f' := Fort.mpi_probe (c.ptrs.moved δ) (s.moved δ) _ _ _ (st + δ) o) ?_ fun x hx => by stores
    unfold Fort.mpi_probe
    rw [statusArg_moved hc]
    exact Probe_movesTo hs ..
  | test r b st e =>
    loads
    refine .load (status_moved c s hc) fun o => ?_
    refine .bind (f' := Fort.mpi_test (c.ptrs.moved δ) (s.moved δ) _ (st + δ) o) ?_ fun x hx => by stores
    unfold Fort.mpi_test
    rw [statusArg_moved hc]
    exact Test_movesTo hs ..
  | wait r st e =>
    loads
    refine .load (status_moved c s hc) fun o => ?_
    refine .bind (f' := Fort.mpi_wait (c.ptrs.moved δ) (s.moved δ) _ (st + δ) o) ?_ fun x hx => by stores
    unfold Fort.mpi_wait
    rw [statusArg_moved hc]
    exact Wait_movesTo hs ..
  | waitany n rs i st e =>
    loads
    refine .load (status_moved c s hc) fun o => ?_
    refine .bind (f' := Fort.mpi_waitany (c.ptrs.moved δ) (s.moved δ) _ _ _ (st + δ) o) ?_ fun x hx => by stores
    unfold Fort.mpi_waitany
    rw [statusArg_moved hc]
    exact Waitany_movesTo hs ..
  | testany n rs i b st e =>
    loads
    refine .load (status_moved c s hc) fun o => ?_
    refine .bind (f' := Fort.mpi_testany (c.ptrs.moved δ) (s.moved δ) _ _ _ (st + δ) o) ?_ fun x hx => by stores
    unfold Fort.mpi_testany
    rw [statusArg_moved hc]
    exact Testany_movesTo hs ..
  | testall n rs b st e =>
    loads
    refine .load (statuses_moved c s hc _) fun o => ?_
    refine .bind (f' := Fort.mpi_testall (c.ptrs.moved δ) (s.moved δ) _ _ (st + δ) o) ?_ fun x hx => by stores
    unfold Fort.mpi_testall
    rw [statusesArg_moved hc]
    exact testallLoop_movesTo _ _ _ _ _ _ hs
  | waitall n rs st e =>
    loads
    refine .load (statuses_moved c s hc _) fun o => ?_
    refine .bind (f' := Fort.mpi_waitall (c.ptrs.moved δ) (s.moved δ) _ _ (st + δ) o) ?_ fun x hx => by stores
    unfold Fort.mpi_waitall
    rw [statusesArg_moved hc]
    exact waitallLoop_movesTo _ _ _ _ _ hs
  | testsome n rs k ix st e =>
    loads
    refine .load (statuses_moved c s hc _) fun o => ?_
    refine .bind (f' := Fort.mpi_testsome (c.ptrs.moved δ) (s.moved δ) _ _ _ (st + δ) o) ?_ fun x hx => by stores
    unfold Fort.mpi_testsome
    rw [statusesArg_moved hc]
    exact Testsome_movesTo hs ..
  | waitsome n rs k ix st e =>
    loads
    refine .load (statuses_moved c s hc _) fun o => ?_
    refine .bind (f' := Fort.mpi_waitsome (c.ptrs.moved δ) (s.moved δ) _ _ _ (st + δ) o) ?_ fun x hx => by stores
    unfold Fort.mpi_waitsome
    rw [statusesArg_moved hc]
    exact Testsome_movesTo hs ..
  | getCount | commSize | commRank | commGroup | groupFree | initialized | getVersion => loads; stores
  | groupIncl | groupRangeIncl | groupUnion | groupIntersection | groupDifference | groupTranslateRanks | cartCoords
  | dimsCreate => loads; refine .skip fun x => ?_; stores
  | cartGet => loads; refine .skip fun x => ?_; obtain ⟨x1, x2, x3⟩ := x; stores
  | getElements => loads; exact .bind (one (.getElements ..) trivial).ofOne fun x hx => by stores
  | requestFree => loads; exact .bind (one (.requestFree ..) trivial).ofOne fun x hx => by stores
  | commFree => loads; exact .bind (one (.commFree ..) trivial).ofOne fun x hx => by stores
  | commDup => loads; exact .bind (one (.commDup ..) trivial).ofOne fun x hx => by stores
  | commCreate => loads; exact .bind (one (.commCreate ..) trivial).ofOne fun x hx => by stores
  | commSplit => loads; exact .bind (one (.commSplit ..) trivial).ofOne fun x hx => by stores
  | intercommCreate => loads; exact .bind (one (.intercommCreate ..) trivial).ofOne fun x hx => by stores
  | cartCreate => loads; exact .bind (one (.cartCreate ..) trivial).ofOne fun x hx => by stores
  | typeExtent => loads; exact .bind (one (.typeExtent ..) trivial).ofOne fun x hx => by stores
  | typeStruct => loads; exact .bind (one (.typeStruct ..) trivial).ofOne fun x hx => by stores
  | typeContiguous => loads; exact .bind (one (.typeContiguous ..) trivial).ofOne fun x hx => by stores
  | typeHvector => loads; exact .bind (one (.typeHvector ..) trivial).ofOne fun x hx => by stores
  | typeCreateHvector => loads; exact .bind (one (.typeHvector ..) trivial).ofOne fun x hx => by stores
  | typeVector => loads; exact .bind (one (.typeVector ..) trivial).ofOne fun x hx => by stores
  | typeHindexed => loads; exact .bind (one (.typeHindexed ..) trivial).ofOne fun x hx => by stores
  | typeIndexed => loads; exact .bind (one (.typeIndexed ..) trivial).ofOne fun x hx => by stores
  | typeCreateIndexedBlock => loads; exact .bind (one (.typeIndexedBlock ..) trivial).ofOne fun x hx => by stores
  | typeSize => loads; exact .bind (one (.typeSize ..) trivial).ofOne fun x hx => by stores
  | typeLb => loads; exact .bind (one (.typeLb ..) trivial).ofOne fun x hx => by stores
  | typeUb => loads; exact .bind (one (.typeUb ..) trivial).ofOne fun x hx => by stores
  | pack => loads; exact .bind (one (.pack ..) trivial).ofOne fun x hx => by stores
  | packSize => loads; exact .bind (one (.packSize ..) trivial).ofOne fun x hx => by stores
  | unpack => loads; exact .bind (one (.unpack ..) trivial).ofOne fun x hx => by stores
  | barrier => loads; exact .bind (.ret (a := s) hs) fun x hx => by stores
  | bcast => loads; exact .bind (one (.bcast 0 0 0 _ 0) trivial).ofNone fun x hx => by stores
  | reduce => loads; exact .bind (one (.reduce ..) trivial).ofNone fun x hx => by stores
  | reduceScatter => loads; exact .bind (one (.reduceScatter ..) trivial).ofNone fun x hx => by stores
  | scan => loads; exact .bind (one (.scan ..) trivial).ofNone fun x hx => by stores
  | alltoall => loads; exact .bind (one (.alltoall ..) trivial).ofNone fun x hx => by stores
  | alltoallv => loads; exact .bind (one (.alltoallv ..) trivial).ofNone fun x hx => by stores
  | alltoallw => loads; exact .bind (one (.alltoallw ..) trivial).ofNone fun x hx => by stores
  | typeCommit => loads; exact .bind (one (.typeCommit ..) trivial).ofNone fun x hx => by stores
  | typeFree => loads; exact .bind (one (.typeFree ..) trivial).ofNone fun x hx => by stores
  | allreduce b => loads; exact .bind (allreduce_movesTo c hs hc ..) fun x hx => by stores
  | gather b n t b' n' t' r k e =>
    loads
    refine .bind (f' := Fort.mpi_gather (c.ptrs.moved δ) (c.env.moved δ) (s.moved δ) (b + δ) _ _ (b' + δ) _ _ _ _) ?_ fun x hx => by stores
    unfold Fort.mpi_gather
    rw [(c_in_place_moved hc).1]
    exact (one (.gather _ _ _ _ _ _ _ 0) (c_in_place_moved hc).2).ofNone
  | gatherv b n t b' n' d t' r k e =>
    loads
    refine .bind (f' := Fort.mpi_gatherv (c.ptrs.moved δ) (c.env.moved δ) (s.moved δ) (b + δ) _ _ (b' + δ) _ _ _ _ _) ?_ fun x hx => by stores
    unfold Fort.mpi_gatherv
    rw [(c_in_place_moved hc).1]
    exact (one (.gatherv _ _ _ _ _ _ _ _ 0) (c_in_place_moved hc).2).ofNone
  | allgather b n t b' n' t' k e =>
    loads
    refine .bind (f' := Fort.mpi_allgather (c.ptrs.moved δ) (c.env.moved δ) (s.moved δ) (b + δ) _ _ (b' + δ) _ _ _) ?_ fun x hx => by stores
    unfold Fort.mpi_allgather
    rw [(c_in_place_moved hc).1]
    exact (one (.allgather _ _ _ _ _ _ 0) (c_in_place_moved hc).2).ofNone
  | allgatherv b n t b' n' d t' k e =>
    loads
    refine .bind (f' := Fort.mpi_allgatherv (c.ptrs.moved δ) (c.env.moved δ) (s.moved δ) (b + δ) _ _ (b' + δ) _ _ _ _) ?_ fun x hx => by stores
    unfold Fort.mpi_allgatherv
    rw [(c_in_place_moved hc).1]
    exact (one (.allgatherv _ _ _ _ _ _ _ 0) (c_in_place_moved hc).2).ofNone
  | scatter b n t b' n' t' r k e =>
    loads
    refine .bind (f' := Fort.mpi_scatter (c.ptrs.moved δ) (c.env.moved δ) (s.moved δ) (b + δ) _ _ (b' + δ) _ _ _ _) ?_ fun x hx => by stores
    unfold Fort.mpi_scatter
    rw [(c_in_place_moved hc).1]
    exact (one (.scatter _ _ _ _ _ _ _ 0) (c_in_place_moved hc).2).ofNone
  | scatterv b n d t b' n' t' r k e =>
    loads
    refine .bind (f' := Fort.mpi_scatterv (c.ptrs.moved δ) (c.env.moved δ) (s.moved δ) (b + δ) _ _ _ (b' + δ) _ _ _ _) ?_ fun x hx => by stores
    unfold Fort.mpi_scatterv
    rw [(c_in_place_moved hc).1]
    exact (one (.scatterv _ _ _ _ _ _ _ _ 0) (c_in_place_moved hc).2).ofNone
  | getAddress => exact hc.elim
  | address => exact hc.elim
  | finalize e =>
    obtain ⟨h1, h2⟩ := (one .finalize trivial).ofNone (f := .ok (MPI_Finalize s)) (g := .ok (MPI_Finalize (s.moved δ)))
    have h1 : MPI_Finalize (s.moved δ) = (MPI_Finalize s).moved δ := by injection h1
    show MovesTo δ (stInt c.bo (MPI_Finalize s) e 0) (stInt c.bo (MPI_Finalize (s.moved δ)) (e + δ) 0)
    rw [h1]
    exact stInt_movesTo (h2 _ rfl) ..
  | abort => loads; exact .exit
  | opCreate => loads; stores
  | opFree => stores
  | infoCreate => stores
  | infoSet => loads; stores
  | infoFree => stores

end MpiSerial
