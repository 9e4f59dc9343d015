import Verif.Proofs.MachineStep
import Verif.Spec.Compose

/-!
# A machine with a past

`B.onto N` is the machine `N` as it would be if the history of `B` had come before.
-/

set_option linter.unusedSimpArgs false
set_option autoImplicit false

namespace MpiSerial

def Obj.later (k d : Nat) : Obj → Obj
  | .comm c => .comm (c + d)
  | .req i => .req (i + k)
  | .dtype t => .dtype t

def OpSt.later (k : Nat) : OpSt → OpSt
  | .matched j => .matched (j + k)
  | s => s

/-- Operations with MPI_PROC_NULL have no communicator. -/
def Op.later (k d : Nat) (o : Op) : Op := { o with cid := if o.st = .null then o.cid else o.cid + d, st := o.st.later k }

def Ledger.onto (B L : Ledger) : Ledger where
  ops := B.ops ++ L.ops.map (Op.later B.ops.length B.ncomms)
  objs := L.objs.map fun e => (e.1, e.2.later B.ops.length B.ncomms)
  ncomms := L.ncomms + B.ncomms
  nfreed := L.nfreed + B.nfreed
  dropped := L.dropped + B.dropped
  tlost := L.tlost + B.tlost
  inited := L.inited

def Mach.onto (B M : Mach) : Mach := ⟨B.L.onto M.L, M.pool, M.mem, M.built + B.built⟩

/-- Nothing in the past waits on a communicator still to come. -/
def Ledger.Past (B : Ledger) : Prop := ∀ o ∈ B.ops, o.st = .pending → o.cid < B.ncomms

/-- The result of a call, with the past added. -/
def Res.onto {α : Type} (B : Mach) (r : Res (Mach × α)) : Res (Mach × α) := r >>= fun x => .ok (B.onto x.1, x.2)

def Res.ontoM (B : Mach) (r : Res Mach) : Res Mach := r >>= fun x => .ok (B.onto x)

theorem OpSt.later_pending {k : Nat} {s : OpSt} : s.later k = .pending ↔ s = .pending := by
  cases s <;> simp [OpSt.later]

theorem Op.later_pending {k d : Nat} {o : Op} : (o.later k d).st = .pending ↔ o.st = .pending := OpSt.later_pending

section
variable {B N : Mach} {env : Env}

/-! ## Looking things up -/

theorem Mach.onto_obj (h : Int) : (B.onto N).obj h = (N.obj h).map (Obj.later B.L.ops.length B.L.ncomms) := by
  unfold Mach.obj Mach.onto Ledger.onto
  dsimp only
  rw [List.find?_map, Option.map_map, Option.map_map]
  rfl

theorem Mach.onto_cid (h : Int) : (B.onto N).cid h = N.cid h >>= fun c => .ok (c + B.L.ncomms) := by
  unfold Mach.cid
  rw [Mach.onto_obj]
  cases N.obj h with
  | none => rfl
  | some o => cases o <;> rfl

theorem Mach.onto_ops (i : Nat) : (B.onto N).L.ops[i + B.L.ops.length]? = (N.L.ops[i]?).map (Op.later B.L.ops.length B.L.ncomms) := by
  unfold Mach.onto Ledger.onto
  dsimp only
  rw [List.getElem?_append_right (by omega), List.getElem?_map]
  congr 2
  omega

theorem Mach.onto_op (h : Int) : (B.onto N).op h = N.op h >>= fun o => .ok (o.later B.L.ops.length B.L.ncomms) := by
  unfold Mach.op
  rw [Mach.onto_obj]
  cases N.obj h with
  | none => rfl
  | some o =>
    cases o with
    | req i =>
      dsimp only [Option.map_some, Obj.later]
      rw [Mach.onto_ops]
      cases N.L.ops[i]? <;> rfl
    | _ => rfl

theorem Ledger.onto_desc (B L : Ledger) (cfg : Cfg) (h : Int) : (B.onto L).desc cfg h = L.desc cfg h := by
  unfold Ledger.desc Ledger.onto
  dsimp only
  split
  · rfl
  · rw [List.find?_map]
    have : ((fun e : Int × Obj => decide (e.1 = h)) ∘ fun e : Int × Obj => (e.1, e.2.later B.ops.length B.ncomms)) = fun e => decide (e.1 = h) := rfl
    rw [this]
    cases L.objs.find? (fun e => decide (e.1 = h)) with
    | none => rfl
    | some e =>
      obtain ⟨x, o⟩ := e
      cases o <;> rfl

theorem Mach.onto_type (h : Int) : (B.onto N).type env h = N.type env h := by
  unfold Mach.type
  rw [show (B.onto N).L = B.L.onto N.L from rfl, Ledger.onto_desc]

theorem Mach.onto_types (hs : List Int) : (B.onto N).types env hs = N.types env hs := by
  induction hs with
  | nil => rfl
  | cons h hs ih => unfold Mach.types; rw [Mach.onto_type, ih]

/-! ## Small steps -/

theorem Mach.onto_fresh : (B.onto N).fresh = N.fresh.onto B := by
  unfold Mach.fresh
  rw [show (B.onto N).pool = N.pool from rfl]
  cases N.pool.take <;> rfl

theorem Mach.onto_copy (a n t b k u : Int) : (B.onto N).copy env a n t b k u = (N.copy env a n t b k u).ontoM B := by
  unfold Mach.copy Res.ontoM
  simp only [Mach.onto_type, Res.bind_bind']
  rfl

theorem Ledger.onto_addComm (B L : Ledger) (h : Int) : (B.onto L).addComm h = B.onto (L.addComm h) := by
  unfold Ledger.addComm Ledger.onto
  simp only [List.map_cons, Obj.later, Nat.add_right_comm]

theorem Ledger.onto_addType (B L : Ledger) (h : Int) (t : Typestruct) : (B.onto L).addType h t = B.onto (L.addType h t) := rfl

theorem Ledger.onto_release (B L : Ledger) (h : Int) : (B.onto L).release h = B.onto (L.release h) := by
  unfold Ledger.release Ledger.onto
  simp only [List.filter_map]
  rfl

theorem Ledger.onto_commit (B L : Ledger) (h : Int) : (B.onto L).commit h = B.onto (L.commit h) := by
  unfold Ledger.commit Ledger.onto
  simp only [List.map_map]
  congr 1
  apply List.map_congr_left
  intro e _
  obtain ⟨x, o⟩ := e
  cases o with
  | dtype t => simp only [Function.comp, Obj.later]; split <;> rfl
  | _ => rfl

theorem Ledger.onto_mem {B L : Ledger} {h : Int} {o : Obj} : (h, o.later B.ops.length B.ncomms) ∈ (B.onto L).objs ↔ (h, o) ∈ L.objs := by
  unfold Ledger.onto
  constructor
  · intro hm
    obtain ⟨⟨x, o'⟩, h1, h2⟩ := List.mem_map.1 hm
    simp only [Prod.mk.injEq] at h2
    obtain ⟨rfl, h2⟩ := h2
    have : o' = o := by
      cases o <;> cases o' <;> simp only [Obj.later, Obj.comm.injEq, Obj.req.injEq, Obj.dtype.injEq, reduceCtorEq] at h2 ⊢ <;> first | omega | exact h2
    exact this ▸ h1
  · intro hm
    exact List.mem_map.2 ⟨_, hm, rfl⟩

/-- No new communicator is one of the past. -/
theorem Ledger.onto_comm {B L : Ledger} {h : Int} {c : Nat} (hm : (h, Obj.comm c) ∈ (B.onto L).objs) :
    ∃ c', c = c' + B.ncomms ∧ (h, Obj.comm c') ∈ L.objs := by
  obtain ⟨⟨x, o'⟩, h1, h2⟩ := List.mem_map.1 hm
  simp only [Prod.mk.injEq] at h2
  obtain ⟨rfl, h2⟩ := h2
  cases o' with
  | comm c' => cases h2; exact ⟨c', rfl, h1⟩
  | req => cases h2
  | dtype => cases h2

theorem Ledger.onto_pendingOn {B : Ledger} (hB : B.Past) (L : Ledger) (h : Int) : (B.onto L).pendingOn h = L.pendingOn h := by
  unfold Ledger.pendingOn
  rw [show (B.onto L).ops = B.ops ++ L.ops.map (Op.later B.ops.length B.ncomms) from rfl, List.countP_append, List.countP_map]
  have h1 : B.ops.countP (fun o => decide (o.st = .pending ∧ (h, Obj.comm o.cid) ∈ (B.onto L).objs)) = 0 := by
    rw [List.countP_eq_zero]
    intro o ho hd
    obtain ⟨hst, hm⟩ := of_decide_eq_true hd
    obtain ⟨c', e, _⟩ := Ledger.onto_comm hm
    have := hB o ho hst
    omega
  rw [h1, Nat.zero_add]
  apply List.countP_congr
  intro o _
  simp only [Function.comp, decide_eq_true_eq, Op.later_pending]
  constructor
  · rintro ⟨hst, hm⟩
    refine ⟨hst, ?_⟩
    have : (h, Obj.later B.ops.length B.ncomms (.comm o.cid)) ∈ (B.onto L).objs := by
      simpa only [Op.later, hst, reduceCtorEq, if_false, Obj.later] using hm
    exact Ledger.onto_mem.1 this
  · rintro ⟨hst, hm⟩
    refine ⟨hst, ?_⟩
    have := (Ledger.onto_mem (B := B)).2 hm
    simpa only [Op.later, hst, reduceCtorEq, if_false, Obj.later] using this

theorem Ledger.onto_freeComm {B : Ledger} (hB : B.Past) (L : Ledger) (h : Int) : (B.onto L).freeComm h = B.onto (L.freeComm h) := by
  unfold Ledger.freeComm
  rw [Ledger.onto_release, Ledger.onto_pendingOn hB]
  unfold Ledger.onto Ledger.release
  simp only [Nat.add_right_comm]

theorem Ledger.onto_finalize (B L : Ledger) : (B.onto L).finalize = B.onto L.finalize := by
  have h : (B.onto L).liveTypes = L.liveTypes := by
    unfold Ledger.liveTypes Ledger.onto
    dsimp only
    rw [List.countP_map]
    apply List.countP_congr
    intro e _
    obtain ⟨x, o⟩ := e
    cases o <;> rfl
  unfold Ledger.finalize
  rw [h]
  unfold Ledger.onto
  simp only [List.map_nil, Nat.add_right_comm]

theorem Ledger.onto_postNull (B L : Ledger) (k : Kind) (tag buf n t h : Int) :
    (B.onto L).postNull k tag buf n t h = B.onto (L.postNull k tag buf n t h) := by
  unfold Ledger.postNull Ledger.onto
  simp only [List.map_append, List.map_cons, List.map_nil, List.append_assoc, List.length_append, List.length_map, Obj.later, Op.later, OpSt.later,
    if_true, Nat.add_comm]

theorem Op.later_waits {k d : Nat} (o : Op) (c : Nat) (kd : Kind) (tag : Int) : (o.later k d).waits (c + d) kd tag = o.waits c kd tag := by
  unfold Op.waits
  have hf : (o.later k d).fits kd tag = o.fits kd tag := rfl
  rw [hf]
  congr 1
  apply decide_eq_decide.2
  rw [Op.later_pending]
  constructor
  · rintro ⟨h1, h2, h3⟩
    refine ⟨h1, ?_, h3⟩
    simp only [Op.later, h3, reduceCtorEq, if_false] at h2
    omega
  · rintro ⟨h1, h2, h3⟩
    refine ⟨h1, ?_, h3⟩
    simp only [Op.later, h3, reduceCtorEq, if_false]
    omega

theorem Ledger.onto_partner {B : Ledger} (hB : B.Past) (L : Ledger) (c : Nat) (k : Kind) (tag : Int) :
    (B.onto L).partner (c + B.ncomms) k tag = (L.partner c k tag).map (· + B.ops.length) := by
  unfold Ledger.partner
  rw [show (B.onto L).ops = B.ops ++ L.ops.map (Op.later B.ops.length B.ncomms) from rfl, List.findIdx?_append]
  have h1 : B.ops.findIdx? (fun o => o.waits (c + B.ncomms) k tag) = none := by
    rw [List.findIdx?_eq_none_iff]
    intro o ho
    unfold Op.waits
    cases hd : decide (o.kind = k.other ∧ o.cid = c + B.ncomms ∧ o.st = .pending) with
    | false => rfl
    | true =>
      obtain ⟨_, h2, h3⟩ := of_decide_eq_true hd
      have := hB o ho h3
      omega
  rw [h1, List.findIdx?_map]
  have : ((fun o => Op.waits o (c + B.ncomms) k tag) ∘ Op.later B.ops.length B.ncomms) = fun o => Op.waits o c k tag :=
    funext fun o => Op.later_waits ..
  rw [this]
  rfl

theorem settle_later {ops : List Op} {j : Nat} {o : Op} (hj : ops[j]? = some o) (hst : o.st = .pending) (k d i : Nat) :
    (Ledger.settle ops j i).map (Op.later k d) = Ledger.settle (ops.map (Op.later k d)) j (i + k) := by
  unfold Ledger.settle
  apply List.ext_getElem?
  intro n
  rw [List.getElem?_map, List.getElem?_modify, List.getElem?_modify, List.getElem?_map]
  by_cases hn : j = n
  · subst hn
    rw [hj]
    simp only [if_true, Option.map_eq_map, Option.map_some, Op.later, OpSt.later, hst, reduceCtorEq, if_false]
  · cases ops[n]? <;> simp only [hn, if_false, Option.map_eq_map, Option.map_some, Option.map_none]

theorem settle_append (xs ys : List Op) (j i : Nat) : Ledger.settle (xs ++ ys) (j + xs.length) i = xs ++ Ledger.settle ys j i := by
  unfold Ledger.settle
  induction xs with
  | nil => rfl
  | cons x xs ih =>
    rw [List.cons_append, List.length_cons, show j + (xs.length + 1) = j + xs.length + 1 by omega, List.modify_succ_cons, ih]
    rfl

theorem Ledger.partner_pending {L : Ledger} {c j : Nat} {k : Kind} {tag : Int} (h : L.partner c k tag = some j) :
    ∃ o, L.ops[j]? = some o ∧ o.st = .pending := by
  unfold Ledger.partner at h
  obtain ⟨hlt, hw, _⟩ := List.findIdx?_eq_some_iff_getElem.1 h
  refine ⟨L.ops[j], List.getElem?_eq_getElem hlt, ?_⟩
  unfold Op.waits at hw
  simp only [Bool.and_eq_true, decide_eq_true_eq] at hw
  exact hw.1.2.2

theorem Ledger.onto_post {B : Ledger} (hB : B.Past) (L : Ledger) (k : Kind) (c : Nat) (tag buf n t h : Int) :
    (B.onto L).post k (c + B.ncomms) tag buf n t h = B.onto (L.post k c tag buf n t h) := by
  unfold Ledger.post
  rw [Ledger.onto_partner hB]
  cases hp : L.partner c k tag with
  | none =>
    unfold Ledger.onto
    simp only [Option.map_none, List.map_append, List.map_cons, List.map_nil, List.append_assoc, List.length_append, List.length_map, Obj.later,
      Op.later, OpSt.later, reduceCtorEq, if_false, Nat.add_comm]
  | some j =>
    obtain ⟨o, hj, hst⟩ := Ledger.partner_pending hp
    unfold Ledger.onto
    simp only [Option.map_some, List.map_append, List.map_cons, List.map_nil, List.length_append, List.length_map, settle_append,
      settle_later hj hst, List.append_assoc, Nat.add_comm B.ops.length L.ops.length, Obj.later, Op.later, OpSt.later, reduceCtorEq, if_false]

/-! ## Messages -/

theorem Mach.onto_newComm : (B.onto N).newComm = N.newComm.onto B := by
  unfold Mach.newComm
  rw [Mach.onto_fresh]
  unfold Res.onto
  rw [Res.bind_bind', Res.bind_bind']
  refine Res.bind_congr fun x _ => ?_
  obtain ⟨M, h⟩ := x
  show Res.ok _ = Res.ok _
  unfold Mach.onto
  dsimp only
  rw [Ledger.onto_addComm]

theorem Mach.onto_init : (B.onto N).init = N.init.ontoM B := by
  unfold Mach.init
  rw [Mach.onto_newComm]
  unfold Res.onto Res.ontoM
  rw [Res.bind_bind', Res.bind_bind']
  refine Res.bind_congr fun x _ => ?_
  obtain ⟨M, h⟩ := x
  show (if h ≠ MPI_COMM_WORLD then _ else _) = ((if h ≠ MPI_COMM_WORLD then _ else _) >>= _)
  split <;> rfl

theorem Mach.onto_finalize : (B.onto N).finalize = B.onto N.finalize := by
  unfold Mach.finalize Mach.onto
  dsimp only
  rw [Ledger.onto_finalize]

theorem Mach.onto_release (h : Int) : (B.onto N).release h = B.onto (N.release h) := by
  unfold Mach.release Mach.onto
  dsimp only
  rw [Ledger.onto_release]

theorem Mach.onto_freeComm (hB : B.L.Past) (h : Int) : (B.onto N).freeComm h = B.onto (N.freeComm h) := by
  unfold Mach.freeComm Mach.onto
  dsimp only
  rw [Ledger.onto_freeComm hB]

theorem Mach.onto_commit (h : Int) : (B.onto N).commit h = B.onto (N.commit h) := by
  unfold Mach.commit
  split
  · rfl
  · unfold Mach.onto
    dsimp only
    rw [Ledger.onto_commit]

theorem Mach.onto_isend (hB : B.L.Past) (b n t d g c : Int) : (B.onto N).isend env b n t d g c = (N.isend env b n t d g c).onto B := by
  unfold Mach.isend
  split
  · rfl
  · rw [Mach.onto_fresh]
    unfold Res.onto
    rw [Res.bind_bind', Res.bind_bind']
    refine Res.bind_congr fun x _ => ?_
    obtain ⟨M, h⟩ := x
    dsimp only [Res.ok_bind]
    rw [Res.ok_bind]
    dsimp only
    split
    · show Res.ok _ = Res.ok _
      unfold Mach.onto
      dsimp only
      rw [Ledger.onto_postNull]
    · rw [Mach.onto_cid, Res.bind_bind', Res.bind_bind']
      refine Res.bind_congr fun q _ => ?_
      rw [Res.ok_bind, show (B.onto M).L.partner = (B.L.onto M.L).partner from rfl, Ledger.onto_partner hB]
      cases M.L.partner q .send g with
      | none =>
        show Res.ok _ = Res.ok _
        unfold Mach.onto
        dsimp only
        rw [Ledger.onto_post hB]
      | some j =>
        dsimp only [Option.map_some]
        rw [Mach.onto_ops]
        cases M.L.ops[j]? with
        | none => rfl
        | some o =>
          dsimp only [Option.map_some, Op.later]
          rw [Mach.onto_copy]
          unfold Res.ontoM
          rw [Res.bind_bind', Res.bind_bind']
          refine Res.bind_congr fun K _ => ?_
          show Res.ok _ = Res.ok _
          unfold Mach.onto
          dsimp only
          rw [Ledger.onto_post hB]

theorem Mach.onto_irecv (hB : B.L.Past) (b n t d g c : Int) : (B.onto N).irecv env b n t d g c = (N.irecv env b n t d g c).onto B := by
  unfold Mach.irecv
  split
  · rfl
  · rw [Mach.onto_fresh]
    unfold Res.onto
    rw [Res.bind_bind', Res.bind_bind']
    refine Res.bind_congr fun x _ => ?_
    obtain ⟨M, h⟩ := x
    rw [Res.ok_bind]
    dsimp only
    split
    · show Res.ok _ = Res.ok _
      unfold Mach.onto
      dsimp only
      rw [Ledger.onto_postNull]
    · rw [Mach.onto_cid, Res.bind_bind', Res.bind_bind']
      refine Res.bind_congr fun q _ => ?_
      rw [Res.ok_bind, show (B.onto M).L.partner = (B.L.onto M.L).partner from rfl, Ledger.onto_partner hB]
      cases M.L.partner q .recv g with
      | none =>
        show Res.ok _ = Res.ok _
        unfold Mach.onto
        dsimp only
        rw [Ledger.onto_post hB]
      | some j =>
        dsimp only [Option.map_some]
        rw [Mach.onto_ops]
        cases M.L.ops[j]? with
        | none => rfl
        | some o =>
          dsimp only [Option.map_some, Op.later]
          rw [Mach.onto_copy]
          unfold Res.ontoM
          rw [Res.bind_bind', Res.bind_bind']
          refine Res.bind_congr fun K _ => ?_
          show Res.ok _ = Res.ok _
          unfold Mach.onto
          dsimp only
          rw [Ledger.onto_post hB]

theorem Mach.onto_result (o : Op) : (B.onto N).result (o.later B.L.ops.length B.L.ncomms) = N.result o := by
  unfold Mach.result
  rw [show (o.later B.L.ops.length B.L.ncomms).kind = o.kind from rfl, show (o.later B.L.ops.length B.L.ncomms).st = o.st.later B.L.ops.length from rfl]
  cases o.kind with
  | send => rfl
  | recv =>
    cases o.st with
    | matched j =>
      dsimp only [OpSt.later]
      rw [Mach.onto_ops]
      cases N.L.ops[j]? <;> rfl
    | _ => rfl

/-- A test, with the past added. -/
def Tested.onto (B : Mach) (r : Tested) : Tested := ⟨B.onto r.mach, r.request, r.flag, r.status⟩

theorem Mach.onto_test (h : Int) (st : StPtr) : (B.onto N).test h st = N.test h st >>= fun r => .ok (r.onto B) := by
  unfold Mach.test
  split
  · rw [Res.bind_bind']
    rfl
  · rw [Mach.onto_op, Res.bind_bind', Res.bind_bind']
    refine Res.bind_congr fun o _ => ?_
    rw [Res.ok_bind, Mach.onto_result]
    simp only [Op.later_pending]
    split
    · rfl
    · rw [Res.bind_bind', Mach.onto_release]
      rfl

theorem Mach.onto_wait (h : Int) (st : StPtr) : (B.onto N).wait h st = (N.wait h st).onto B := by
  unfold Mach.wait
  rw [Mach.onto_test]
  unfold Res.onto
  rw [Res.bind_bind', Res.bind_bind']
  refine Res.bind_congr fun r _ => ?_
  rw [Res.ok_bind]
  show (if r.flag = 0 then _ else _) = _
  split <;> rfl

theorem Mach.onto_send (hB : B.L.Past) (b n t d g c : Int) : (B.onto N).send env b n t d g c = (N.send env b n t d g c).ontoM B := by
  unfold Mach.send
  rw [Mach.onto_isend hB]
  unfold Res.onto Res.ontoM
  rw [Res.bind_bind', Res.bind_bind']
  refine Res.bind_congr fun x _ => ?_
  obtain ⟨M, h⟩ := x
  rw [Res.ok_bind]
  dsimp only
  rw [Mach.onto_wait]
  unfold Res.onto
  rw [Res.bind_bind', Res.bind_bind']
  rfl

theorem Mach.onto_irsend (hB : B.L.Past) (b n t d g c : Int) : (B.onto N).irsend env b n t d g c = (N.irsend env b n t d g c).onto B := by
  unfold Mach.irsend
  rw [Mach.onto_isend hB]
  unfold Res.onto
  rw [Res.bind_bind', Res.bind_bind']
  refine Res.bind_congr fun x _ => ?_
  obtain ⟨M, h⟩ := x
  rw [Res.ok_bind]
  dsimp only
  rw [Mach.onto_op, Res.bind_bind', Res.bind_bind']
  refine Res.bind_congr fun o _ => ?_
  rw [Res.ok_bind]
  simp only [Op.later_pending]
  split <;> rfl

theorem Mach.onto_recv (hB : B.L.Past) (b n t d g c : Int) (st : StPtr) : (B.onto N).recv env b n t d g c st = (N.recv env b n t d g c st).onto B := by
  unfold Mach.recv
  rw [Mach.onto_irecv hB]
  unfold Res.onto
  rw [Res.bind_bind', Res.bind_bind']
  refine Res.bind_congr fun x _ => ?_
  obtain ⟨M, h⟩ := x
  rw [Res.ok_bind]
  dsimp only
  rw [Mach.onto_wait]
  unfold Res.onto
  rw [Res.bind_bind', Res.bind_bind']
  refine Res.bind_congr fun y _ => ?_
  obtain ⟨K, r, s⟩ := y
  rw [Res.ok_bind]
  cases s <;> rfl

theorem Mach.onto_sendrecv (hB : B.L.Past) (b n t d g b' n' t' d' g' c : Int) (st : StPtr) :
    (B.onto N).sendrecv env b n t d g b' n' t' d' g' c st = (N.sendrecv env b n t d g b' n' t' d' g' c st).onto B := by
  unfold Mach.sendrecv
  rw [Mach.onto_irecv hB]
  unfold Res.onto
  rw [Res.bind_bind', Res.bind_bind']
  refine Res.bind_congr fun x _ => ?_
  obtain ⟨M, h⟩ := x
  rw [Res.ok_bind]
  dsimp only
  rw [Mach.onto_send hB]
  unfold Res.ontoM
  rw [Res.bind_bind', Res.bind_bind']
  refine Res.bind_congr fun K _ => ?_
  rw [Res.ok_bind, Mach.onto_wait]
  unfold Res.onto
  rw [Res.bind_bind', Res.bind_bind']
  rfl

theorem Mach.onto_iprobe (hB : B.L.Past) (d g c : Int) (st : StPtr) : (B.onto N).iprobe d g c st = N.iprobe d g c st := by
  unfold Mach.iprobe
  split
  · rfl
  · rw [Mach.onto_cid, Res.bind_bind']
    refine Res.bind_congr fun q _ => ?_
    rw [Res.ok_bind, show (B.onto N).L.partner = (B.L.onto N.L).partner from rfl, Ledger.onto_partner hB]
    cases N.L.partner q .recv g with
    | none => rfl
    | some j =>
      dsimp only [Option.map_some]
      rw [Mach.onto_ops]
      cases N.L.ops[j]? <;> rfl

theorem Mach.onto_probe (hB : B.L.Past) (d g c : Int) (st : StPtr) : (B.onto N).probe d g c st = N.probe d g c st := by
  unfold Mach.probe
  rw [Mach.onto_iprobe hB]

end

section
variable {B : Mach} {env : Env}

theorem Mach.onto_testany : ∀ (hs : List Int) (N : Mach) (st : StPtr), (B.onto N).testany hs st = (N.testany hs st).onto B
  | [], _, _ => rfl
  | h :: hs, N, st => by
    unfold Mach.testany
    rw [Mach.onto_test]
    unfold Res.onto
    rw [Res.bind_bind', Res.bind_bind']
    refine Res.bind_congr fun r _ => ?_
    rw [Res.ok_bind]
    show (if r.flag ≠ 0 then _ else _) = _
    split
    · rfl
    · show ((B.onto r.mach).testany hs r.status >>= _) = _
      rw [Mach.onto_testany hs]
      unfold Res.onto
      rw [Res.bind_bind', Res.bind_bind']
      rfl

theorem Mach.onto_testeach : ∀ (hs : List Int) (N : Mach) (i : Nat) (sts : StArr), (B.onto N).testeach i hs sts = (N.testeach i hs sts).onto B
  | [], _, _, _ => rfl
  | h :: hs, N, i, sts => by
    unfold Mach.testeach
    unfold Res.onto
    rw [Res.bind_bind']
    refine Res.bind_congr fun p _ => ?_
    rw [Mach.onto_test, Res.bind_bind', Res.bind_bind']
    refine Res.bind_congr fun r _ => ?_
    rw [Res.ok_bind]
    show ((B.onto r.mach).testeach (i + 1) hs (sts.upd i r.status) >>= _) = _
    rw [Mach.onto_testeach hs]
    unfold Res.onto
    rw [Res.bind_bind', Res.bind_bind']
    rfl

theorem Mach.onto_waitall : ∀ (hs : List Int) (N : Mach) (i : Nat) (sts : StArr), (B.onto N).waitall i hs sts = (N.waitall i hs sts).onto B
  | [], _, _, _ => rfl
  | h :: hs, N, i, sts => by
    unfold Mach.waitall
    unfold Res.onto
    rw [Res.bind_bind']
    refine Res.bind_congr fun p _ => ?_
    rw [Mach.onto_test, Res.bind_bind', Res.bind_bind']
    refine Res.bind_congr fun r _ => ?_
    rw [Res.ok_bind]
    show (if r.flag = 0 then _ else _) = _
    split
    · rfl
    · show ((B.onto r.mach).waitall (i + 1) hs (sts.upd i r.status) >>= _) = _
      rw [Mach.onto_waitall hs]
      unfold Res.onto
      rw [Res.bind_bind', Res.bind_bind']
      rfl

theorem Mach.onto_newType {N : Mach} (hg : ∀ k, env.garbage (k + B.built) = env.garbage k) (f : Garbage → Res Typestruct) :
    (B.onto N).newType env f = (N.newType env f).onto B := by
  unfold Mach.newType
  rw [Mach.onto_fresh]
  unfold Res.onto
  rw [Res.bind_bind', Res.bind_bind']
  refine Res.bind_congr fun x _ => ?_
  obtain ⟨M, h⟩ := x
  rw [Res.ok_bind]
  dsimp only
  rw [show (B.onto M).built = M.built + B.built from rfl, hg, Res.bind_bind']
  refine Res.bind_congr fun t _ => ?_
  show Res.ok _ = Res.ok _
  unfold Mach.onto
  simp only [Nat.add_right_comm, Ledger.onto_addType]

end

/-! ## Every call -/

section
variable {B N : Mach} {env : Env}

theorem onto_quiet (r : Res Mach) : Mach.quiet (r.ontoM B) = (Mach.quiet r).onto B := by
  cases r <;> rfl

theorem onto_one (r : Res (Mach × Int)) : Mach.one (r.onto B) = (Mach.one r).onto B := by
  cases r <;> rfl

theorem onto_oneStatus (r : Res (Mach × StPtr)) : Mach.oneStatus (r.onto B) = (Mach.oneStatus r).onto B := by
  cases r <;> rfl

theorem onto_tell (r : Res Int) : (B.onto N).tell r = (N.tell r).onto B := by
  cases r <;> rfl

theorem onto_rooted (root : Int) (msg : String) (r : Res Mach) : (B.onto N).rooted root msg (r.ontoM B) = (N.rooted root msg r).onto B := by
  unfold Mach.rooted
  rw [← onto_quiet]
  congr 1
  split
  · rfl
  · split <;> rfl

theorem onto_unless (p : Prop) [Decidable p] : (B.onto N).newCommUnless p = (N.newCommUnless p).onto B := by
  unfold Mach.newCommUnless
  split
  · rfl
  · exact Mach.onto_newComm

theorem onto_then {α : Type} (x : Res α) (f : α → Res Mach) : (x >>= fun a => (f a).ontoM B) = (x >>= f).ontoM B := by
  cases x <;> rfl

theorem onto_then' {α β : Type} (x : Res α) (f : α → Res (Mach × β)) : (x >>= fun a => (f a).onto B) = (x >>= f).onto B := by
  cases x <;> rfl

theorem Mach.onto_fortChecks (a : FortArgs) : (B.onto N).fortChecks env a = N.fortChecks env a := by
  have : ∀ name p1 p2 err, (B.onto N).verifySize env a name p1 p2 err = N.verifySize env a name p1 p2 err := fun name p1 p2 err => by
    unfold Mach.verifySize
    rw [Mach.onto_type]
  unfold Mach.fortChecks
  simp only [this]

theorem Mach.onto_answer (hB : B.L.Past) (hg : ∀ k, env.garbage (k + B.built) = env.garbage k) (c : Call) :
    (B.onto N).answer env c = (N.answer env c).onto B := by
  cases c with
  | store m => rfl
  | init => show Mach.quiet _ = _; rw [Mach.onto_init, onto_quiet]; rfl
  | initThread r =>
    show Mach.one _ = (Mach.one _).onto B
    rw [Mach.onto_init, ← onto_one]
    cases N.init <;> rfl
  | fortInit a =>
    show Mach.quiet _ = (Mach.quiet _).onto B
    rw [Mach.onto_init, ← onto_quiet]
    cases N.init with
    | ok M =>
      show Mach.quiet ((B.onto M).fortChecks env a >>= fun _ => .ok (B.onto M)) = Mach.quiet ((M.fortChecks env a >>= fun _ => .ok M).ontoM B)
      rw [Mach.onto_fortChecks]
      cases M.fortChecks env a <;> rfl
    | _ => rfl
  | initialized => exact onto_tell _
  | finalize => show Mach.quiet (.ok _) = _; rw [Mach.onto_finalize]; rfl
  | abort => rfl
  | commDup => show Mach.one _ = _; rw [Mach.onto_newComm, onto_one]; rfl
  | commCreate => show Mach.one _ = _; rw [onto_unless, onto_one]; rfl
  | commSplit => show Mach.one _ = _; rw [onto_unless, onto_one]; rfl
  | intercommCreate => show Mach.one _ = _; rw [onto_unless, onto_one]; rfl
  | cartCreate _ n dims =>
    show Mach.one (_ >>= fun _ => _) = _
    rw [Mach.onto_newComm, onto_then', onto_one]
    rfl
  | commFree h => show Mach.one (.ok (_, _)) = _; rw [Mach.onto_freeComm hB]; rfl
  | isend => show Mach.one _ = _; rw [Mach.onto_isend hB, onto_one]; rfl
  | irsend => show Mach.one _ = _; rw [Mach.onto_irsend hB, onto_one]; rfl
  | send => show Mach.quiet _ = _; rw [Mach.onto_send hB, onto_quiet]; rfl
  | irecv => show Mach.one _ = _; rw [Mach.onto_irecv hB, onto_one]; rfl
  | recv => show Mach.oneStatus _ = _; rw [Mach.onto_recv hB, onto_oneStatus]; rfl
  | sendrecv => show Mach.oneStatus _ = _; rw [Mach.onto_sendrecv hB, onto_oneStatus]; rfl
  | iprobe d g c st =>
    show ((B.onto N).iprobe d g c st >>= _) = (N.iprobe d g c st >>= _).onto B
    rw [Mach.onto_iprobe hB]
    cases N.iprobe d g c st <;> rfl
  | probe d g c st =>
    show Mach.oneStatus ((B.onto N).probe d g c st >>= _) = (Mach.oneStatus (N.probe d g c st >>= _)).onto B
    rw [Mach.onto_probe hB]
    cases N.probe d g c st <;> rfl
  | test r st =>
    show ((B.onto N).test r st >>= _) = (N.test r st >>= _).onto B
    rw [Mach.onto_test]
    cases N.test r st <;> rfl
  | wait r st =>
    show ((B.onto N).wait r st >>= _) = (N.wait r st >>= _).onto B
    rw [Mach.onto_wait]
    cases N.wait r st <;> rfl
  | requestFree r => show Mach.one (.ok (_, _)) = _; rw [Mach.onto_release]; rfl
  | testany n rs i st =>
    show ((B.onto N).testany rs st >>= _) = (N.testany rs st >>= _).onto B
    rw [Mach.onto_testany]
    cases N.testany rs st <;> rfl
  | waitany n rs i st =>
    show ((B.onto N).testany rs st >>= _) = (N.testany rs st >>= _).onto B
    rw [Mach.onto_testany]
    cases N.testany rs st with
    | ok x =>
      show (if x.2.2.1 = 0 then _ else _) = Res.onto B (if x.2.2.1 = 0 then _ else _)
      split <;> rfl
    | _ => rfl
  | testall n rs sts =>
    show ((B.onto N).testeach 0 rs sts >>= _) = (N.testeach 0 rs sts >>= _).onto B
    rw [Mach.onto_testeach]
    cases N.testeach 0 rs sts <;> rfl
  | waitall n rs sts =>
    show ((B.onto N).waitall 0 rs sts >>= _) = (N.waitall 0 rs sts >>= _).onto B
    rw [Mach.onto_waitall]
    cases N.waitall 0 rs sts <;> rfl
  | testsome n rs ix sts =>
    show ((B.onto N).testeach 0 rs sts >>= _) = (N.testeach 0 rs sts >>= _).onto B
    rw [Mach.onto_testeach]
    cases N.testeach 0 rs sts <;> rfl
  | waitsome n rs ix sts =>
    show ((B.onto N).testeach 0 rs sts >>= _) = (N.testeach 0 rs sts >>= _).onto B
    rw [Mach.onto_testeach]
    cases N.testeach 0 rs sts <;> rfl
  | typeCommit t => show Mach.quiet (.ok _) = _; rw [Mach.onto_commit]; rfl
  | typeFree t => show Mach.quiet (.ok _) = _; rw [Mach.onto_release]; rfl
  | typeExtent | typeSize | typeLb | typeUb | getElements | packSize =>
    show Mach.tell _ (_ >>= _) = _
    rw [Mach.onto_type]
    exact onto_tell _
  | pack a n t b size pos _ =>
    show Mach.one _ = (Mach.one _).onto B
    rw [Mach.onto_type, ← onto_one, ← onto_then']
    congr 1
    refine Res.bind_congr fun d _ => ?_
    rw [← onto_then']
    rfl
  | unpack a size pos b n t _ =>
    show Mach.one _ = (Mach.one _).onto B
    rw [Mach.onto_type, ← onto_one, ← onto_then']
    congr 1
    refine Res.bind_congr fun d _ => ?_
    rw [← onto_then']
    rfl
  | barrier => rfl
  | bcast _ _ _ root _ => exact onto_rooted root _ (.ok N)
  | typeContiguous | typeHvector | typeVector | typeHindexed | typeIndexed | typeIndexedBlock =>
    show Mach.one (_ >>= fun _ => _) = _
    simp only [Mach.onto_type, Mach.onto_newType hg]
    rw [onto_then', onto_one]
    rfl
  | typeStruct n bs ks ts =>
    show Mach.one (_ >>= fun _ => _) = _
    simp only [Mach.onto_types, Mach.onto_newType hg]
    rw [onto_then', onto_one]
    rfl
  | reduce a b n t op root cm =>
    show Mach.quiet _ = (Mach.quiet _).onto B
    rw [← onto_quiet, Mach.onto_copy]
    congr 1
    split <;> rfl
  | _ =>
    simp only [Mach.answer, Mach.onto_type, Mach.onto_copy, onto_then, onto_quiet, onto_rooted]
    try (first | rfl | (split <;> first | rfl | (simp only [onto_quiet]; rfl)))

/-! ## Well-formed calls and programs -/

theorem onto_isType {B L : Ledger} {h : Int} : IsType env (B.onto L) h ↔ IsType env L h := by
  unfold IsType
  rw [Ledger.onto_desc]

theorem onto_isComm {B L : Ledger} {h : Int} : IsComm (B.onto L) h ↔ IsComm L h := by
  constructor
  · rintro ⟨c, hc⟩
    obtain ⟨c', _, h'⟩ := Ledger.onto_comm hc
    exact ⟨c', h'⟩
  · rintro ⟨c, hc⟩
    exact ⟨c + B.ncomms, Ledger.onto_mem.2 hc⟩

theorem onto_isReq {B L : Ledger} {h : Int} {i : Nat} (hm : (h, Obj.req i) ∈ L.objs) : (h, Obj.req (i + B.ops.length)) ∈ (B.onto L).objs :=
  Ledger.onto_mem (o := .req i) |>.2 hm

theorem onto_wfReqs {B L : Ledger} : ∀ {hs : List Int}, WfReqs L hs → WfReqs (B.onto L) hs
  | [], _ => trivial
  | h :: hs, ⟨h1, h2⟩ => ⟨h1.imp id (fun ⟨⟨i, hi⟩, hn⟩ => ⟨⟨_, onto_isReq hi⟩, hn⟩), onto_wfReqs h2⟩

theorem onto_p2p {B L : Ledger} {t d c : Int} (h : P2PArgs env L t d c) : P2PArgs env (B.onto L) t d c :=
  ⟨onto_isType.2 h.1, h.2.imp onto_isComm.2 id⟩

theorem Call.onto_wf {B L : Ledger} (hB : B.Past) {c : Call} (h : c.Wf env L) : c.Wf env (B.onto L) := by
  cases c with
  | fortInit | store | init | initThread | initialized | finalize | abort | commDup | commCreate | commSplit | intercommCreate | cartCreate | barrier | bcast =>
    exact h
  | commFree x =>
    obtain ⟨c, h1, h2⟩ := h
    refine ⟨c + B.ncomms, (Ledger.onto_mem (o := .comm c)).2 h1, fun o ho hst => ?_⟩
    rcases List.mem_append.1 ho with ho | ho
    · have := hB o ho hst
      omega
    · obtain ⟨q, hq, rfl⟩ := List.mem_map.1 ho
      have hst := Op.later_pending.1 hst
      have := h2 q hq hst
      simp only [Op.later, hst, reduceCtorEq, if_false]
      omega
  | isend | irsend | send | irecv | recv => exact onto_p2p h
  | sendrecv => exact ⟨onto_p2p h.1, onto_p2p h.2⟩
  | iprobe | probe => exact onto_isComm.2 h
  | test | wait => exact h.imp id fun ⟨i, hi⟩ => ⟨_, onto_isReq hi⟩
  | requestFree r =>
    obtain ⟨i, o, h1, h2, h3⟩ := h
    refine ⟨_, o.later B.ops.length B.ncomms, onto_isReq h1, ?_, fun e => h3 (Op.later_pending.1 e)⟩
    unfold Ledger.onto
    dsimp only
    rw [List.getElem?_append_right (by omega), List.getElem?_map, show i + B.ops.length - B.ops.length = i by omega, h2]
    rfl
  | testany | waitany | testall | waitall | testsome | waitsome => exact ⟨h.1, onto_wfReqs h.2⟩
  | typeContiguous => exact ⟨h.1, onto_isType.2 h.2⟩
  | typeHvector | typeVector => exact ⟨h.1, h.2.1, onto_isType.2 h.2.2⟩
  | typeHindexed | typeIndexed => exact ⟨h.1, h.2.1, h.2.2.1, onto_isType.2 h.2.2.2⟩
  | typeIndexedBlock => exact ⟨h.1, h.2.1, onto_isType.2 h.2.2⟩
  | typeStruct => exact ⟨h.1, h.2.1, h.2.2.1, h.2.2.2.1, fun t ht => onto_isType.2 (h.2.2.2.2 t ht)⟩
  | typeFree x =>
    obtain ⟨⟨t, ht⟩, h2⟩ := h
    refine ⟨⟨t, (Ledger.onto_mem (o := .dtype t)).2 ht⟩, fun o ⟨ho, hst, y, hy⟩ => ?_⟩
    obtain ⟨c', e, hc'⟩ := Ledger.onto_comm hy
    rcases List.mem_append.1 ho with ho | ho
    · have := hB o ho hst
      omega
    · obtain ⟨q, hq, rfl⟩ := List.mem_map.1 ho
      have hst := Op.later_pending.1 hst
      simp only [Op.later, hst, reduceCtorEq, if_false] at e
      have : q.cid = c' := by omega
      exact h2 q ⟨hq, hst, y, this ▸ hc'⟩
  | typeCommit | typeExtent | typeSize | typeLb | typeUb | getElements => exact onto_isType.2 h
  | pack | packSize | unpack => exact ⟨onto_isType.2 h.1, onto_isComm.2 h.2⟩
  | gather | gatherv | allgather | allgatherv | scatter | scatterv | alltoall | alltoallv => exact ⟨onto_isType.2 h.1, onto_isType.2 h.2⟩
  | reduce | allreduce | reduceScatter | scan => exact onto_isType.2 h
  | alltoallw => exact ⟨fun t ht => onto_isType.2 (h.1 t ht), fun t ht => onto_isType.2 (h.2 t ht)⟩

end

theorem onto_run {B : Mach} {env : Env} (hB : B.L.Past) (hg : ∀ k, env.garbage (k + B.built) = env.garbage k) {p : Prog} :
    ∀ (n : Nat) (seen : List Obs) (N : Mach), p.runMach env n seen (B.onto N) = p.runMach env n seen N := by
  intro n
  induction n with
  | zero => intros; rfl
  | succ n ih =>
    intro seen N
    unfold Prog.runMach
    cases p seen with
    | none => rfl
    | some c =>
      dsimp only
      rw [Mach.onto_answer hB hg]
      cases N.answer env c with
      | ok x => exact ih _ _
      | _ => rfl

theorem onto_machWf {B : Mach} {env : Env} (hB : B.L.Past) (hg : ∀ k, env.garbage (k + B.built) = env.garbage k) {p : Prog} :
    ∀ (n : Nat) (seen : List Obs) (N : Mach), p.MachWf env n seen N → p.MachWf env n seen (B.onto N) := by
  intro n
  induction n with
  | zero => intros; trivial
  | succ n ih =>
    intro seen N h c hc
    obtain ⟨h1, h2⟩ := h c hc
    refine ⟨Call.onto_wf hB h1, fun M' o hm => ?_⟩
    rw [Mach.onto_answer hB hg] at hm
    cases ha : N.answer env c with
    | ok x =>
      rw [ha] at hm
      have hm : Res.ok (B.onto x.1, x.2) = .ok (M', o) := hm
      cases hm
      exact ih _ _ (h2 _ _ ha)
    | _ => rw [ha] at hm; cases hm

/-- After MPI_Finalize the machine is a new one, with a past. -/
theorem Mach.finalize_onto (M : Mach) : M.finalize = M.finalize.onto (.start M.mem) := by
  unfold Mach.finalize Mach.onto Ledger.onto Ledger.finalize Mach.start Ledger.start
  simp only [List.map_nil, List.append_nil, Nat.zero_add]

theorem Sim.past {env : Env} {s : Sys} {M : Mach} (h : Sim env s M) : M.L.Past := by
  obtain ⟨A, lst, hi⟩ := h.reach.inv
  exact hi.ocid

end MpiSerial
