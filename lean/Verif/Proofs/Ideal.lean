import Verif.Spec.Ideal
import Verif.Proofs.Twin

/-!
# The machine without datatypes

`Core M K`: machine `K` is `M` without its datatypes.  Calls that do not concern datatypes do the same on both.
-/

set_option linter.unusedSimpArgs false
set_option autoImplicit false

namespace MpiSerial

open Res (Rel)

/-! ## Handle numbers -/

/-- The handle numbers `ks` are in use, all others below `256 * blocks` are free. -/
structure Fit (ks : List Int) (P : Pool) : Prop where
  nodup : (ks ++ P.free).Nodup
  range : ∀ x ∈ ks ++ P.free, 0 < x ∧ x < 256 * P.blocks
  blocks : 1 ≤ P.blocks

theorem mem_block {b : Nat} {x : Int} : x ∈ Pool.block b ↔ 256 * b + 1 ≤ x ∧ x < 256 * b + 256 := by
  unfold Pool.block
  rw [List.mem_map]
  constructor
  · rintro ⟨i, hi, rfl⟩
    rw [List.mem_range'_1] at hi
    omega
  · rintro ⟨h1, h2⟩
    refine ⟨(x - 256 * b).toNat, ?_, by omega⟩
    rw [List.mem_range'_1]
    omega

theorem block_nodup (b : Nat) : (Pool.block b).Nodup := by
  unfold Pool.block
  refine List.Pairwise.map _ ?_ (List.nodup_range' (s := 1) (n := 255))
  intro x y hxy h
  apply hxy
  omega

theorem Fit.start : Fit [] Pool.start := by
  refine ⟨block_nodup 0, ?_, Nat.le_refl _⟩
  intro x hx
  have := mem_block.1 (show x ∈ Pool.block 0 from hx)
  unfold Pool.start
  dsimp only
  omega

theorem Fit.take {ks : List Int} {P P' : Pool} {h : Int} (hf : Fit ks P) (ht : P.take = some (h, P')) : Fit (h :: ks) P' := by
  obtain ⟨free, b⟩ := P
  cases free with
  | cons a fl =>
    simp only [Pool.take, Option.some.injEq, Prod.mk.injEq] at ht
    obtain ⟨rfl, rfl⟩ := ht
    have hp : (a :: ks ++ fl).Perm (ks ++ a :: fl) := List.perm_middle.symm
    exact ⟨hp.nodup_iff.2 hf.nodup, fun x hx => hf.range x (hp.mem_iff.1 hx), hf.blocks⟩
  | nil =>
    simp only [Pool.take] at ht
    split at ht
    · cases ht
    · simp only [Option.some.injEq, Prod.mk.injEq] at ht
      obtain ⟨rfl, rfl⟩ := ht
      have h1 := hf.nodup
      have h2 := hf.range
      have h3 := hf.blocks
      simp only [List.append_nil] at h1 h2 h3
      refine ⟨?_, ?_, by simp⟩
      · rw [List.cons_append, List.nodup_cons, List.nodup_append]
        refine ⟨?_, h1, block_nodup b, ?_⟩
        · intro hm
          rcases List.mem_append.1 hm with hm | hm
          · have := h2 _ hm; omega
          · have := mem_block.1 hm; omega
        · intro x hx y hy he
          have := h2 x hx
          have := mem_block.1 hy
          omega
      · intro x hx
        dsimp only
        rcases List.mem_cons.1 hx with rfl | hx
        · omega
        · rcases List.mem_append.1 hx with hx | hx
          · have := h2 x hx; omega
          · have := mem_block.1 hx; omega

theorem Fit.give {ks : List Int} {P : Pool} {h : Int} (hf : Fit ks P) (hm : h ∈ ks) :
    Fit (ks.filter fun x => decide (x ≠ h)) (P.give h) := by
  have hn := List.nodup_append.1 hf.nodup
  have hnot : h ∉ P.free := fun hx => hn.2.2 h hm h hx rfl
  refine ⟨?_, ?_, hf.blocks⟩
  · unfold Pool.give
    dsimp only
    rw [List.nodup_append]
    refine ⟨hn.1.filter _, List.nodup_cons.2 ⟨hnot, hn.2.1⟩, ?_⟩
    intro x hx y hy he
    obtain ⟨h1, h2⟩ := List.mem_filter.1 hx
    rcases List.mem_cons.1 hy with rfl | hy
    · exact (of_decide_eq_true h2) he
    · exact hn.2.2 x h1 y hy he
  · intro x hx
    unfold Pool.give at hx ⊢
    dsimp only at hx ⊢
    rcases List.mem_append.1 hx with hx | hx
    · exact hf.range x (List.mem_append_left _ (List.mem_filter.1 hx).1)
    · rcases List.mem_cons.1 hx with rfl | hx
      · exact hf.range _ (List.mem_append_left _ hm)
      · exact hf.range x (List.mem_append_right _ hx)

theorem Fit.drop {ks ks' : List Int} {P : Pool} (hf : Fit ks P) (h : ks' = ks) : Fit ks' P := h ▸ hf

/-- Handles in use. -/
def Ledger.keys (L : Ledger) : List Int := L.objs.map Prod.fst

theorem keys_release (L : Ledger) (h : Int) : (L.release h).keys = L.keys.filter fun x => decide (x ≠ h) := by
  unfold Ledger.keys Ledger.release
  rw [List.filter_map]
  rfl

theorem keys_post (L : Ledger) (k : Kind) (c : Nat) (tag buf count dtype h : Int) :
    (L.post k c tag buf count dtype h).keys = h :: L.keys := by
  unfold Ledger.post Ledger.keys
  dsimp only
  split <;> rfl

theorem keys_commit (L : Ledger) (h : Int) : (L.commit h).keys = L.keys := by
  unfold Ledger.commit Ledger.keys
  dsimp only
  rw [List.map_map]
  apply List.map_congr_left
  intro e _
  dsimp only [Function.comp]
  split
  · split <;> rfl
  · rfl

/-! ## Without datatypes -/

/-- Not a datatype. -/
def plainObj (e : Int × Obj) : Bool :=
  match e.2 with
  | .dtype _ => false
  | _ => true

/-- `K` is `M` without its datatypes. -/
structure Core (M K : Mach) : Prop where
  ops : K.L.ops = M.L.ops
  objs : K.L.objs = M.L.objs.filter plainObj
  ncomms : K.L.ncomms = M.L.ncomms
  nfreed : K.L.nfreed = M.L.nfreed
  inited : K.L.inited = M.L.inited
  pool : K.pool = M.pool
  mem : K.mem = M.mem

/-- The datatypes of `M` are those of `M'`. -/
def KeepsTypes (M M' : Mach) : Prop := ∀ h t, (h, Obj.dtype t) ∈ M.L.objs → (h, Obj.dtype t) ∈ M'.L.objs

theorem KeepsTypes.refl (M : Mach) : KeepsTypes M M := fun _ _ h => h
theorem KeepsTypes.trans {M M' M'' : Mach} (h : KeepsTypes M M') (h' : KeepsTypes M' M'') : KeepsTypes M M'' := fun a t hm => h' a t (h a t hm)

/-- `K` is `M` without its datatypes and the numbers are as they should be. -/
structure Pure (M K : Mach) : Prop where
  core : Core M K
  fit : Fit M.L.keys M.pool

/-- After a call that does not concern datatypes. -/
structure Still (M₀ M K : Mach) : Prop extends Pure M K where
  kept : KeepsTypes M₀ M

theorem Still.trans {M M' M'' K : Mach} (h : KeepsTypes M M') (h' : Still M' M'' K) : Still M M'' K := ⟨h'.toPure, h.trans h'.kept⟩

variable {M M₀ K : Mach}

theorem obj_mem (hf : Fit M.L.keys M.pool) {h : Int} {o : Obj} : M.obj h = some o ↔ (h, o) ∈ M.L.objs := by
  have hn : (M.L.objs.map Prod.fst).Nodup := (List.nodup_append.1 hf.nodup).1
  unfold Mach.obj
  generalize M.L.objs = l at hn ⊢
  induction l with
  | nil => simp
  | cons e l ih =>
    obtain ⟨a, b⟩ := e
    rw [List.map_cons, List.nodup_cons] at hn
    rw [List.find?_cons]
    by_cases ha : a = h
    · subst ha
      simp only [decide_true, Option.map_some, Option.some.injEq, List.mem_cons, Prod.mk.injEq, true_and]
      constructor
      · intro h; exact Or.inl h.symm
      · rintro (h | h)
        · exact h.symm
        · exact absurd (List.mem_map.2 ⟨_, h, rfl⟩) hn.1
    · rw [decide_eq_false ha]
      refine (ih hn.2).trans ?_
      simp only [List.mem_cons, Prod.mk.injEq]
      constructor
      · exact Or.inr
      · rintro (⟨h, _⟩ | h)
        · exact absurd h.symm ha
        · exact h

theorem Pure.fitK (hp : Pure M K) : Fit K.L.keys K.pool := by
  have hs : (K.L.keys).Sublist M.L.keys := by
    unfold Ledger.keys
    rw [hp.core.objs]
    exact List.filter_sublist.map _
  rw [hp.core.pool]
  refine ⟨hp.fit.nodup.sublist (hs.append (List.Sublist.refl _)), fun x hx => hp.fit.range x ?_, hp.fit.blocks⟩
  exact (hs.append (List.Sublist.refl _)).subset hx

theorem Pure.obj (hp : Pure M K) {h : Int} {o : Obj} (ho : plainObj (h, o) = true) : K.obj h = some o ↔ M.obj h = some o := by
  rw [obj_mem hp.fitK, obj_mem hp.fit, hp.core.objs, List.mem_filter]
  exact ⟨fun h => h.1, fun h => ⟨h, ho⟩⟩

theorem Pure.cid (hp : Pure M K) (h : Int) : K.cid h = M.cid h := by
  unfold Mach.cid
  cases hk : K.obj h with
  | some o =>
    cases o with
    | dtype t =>
      rw [obj_mem hp.fitK, hp.core.objs, List.mem_filter] at hk
      cases hk.2
    | comm c => rw [(hp.obj (o := .comm c) rfl).1 hk]
    | req i => rw [(hp.obj (o := .req i) rfl).1 hk]
  | none =>
    cases hm : M.obj h with
    | none => rfl
    | some o =>
      cases o with
      | dtype t => rfl
      | comm c => rw [(hp.obj (o := .comm c) rfl).2 hm] at hk; cases hk
      | req i => rfl

theorem Pure.op (hp : Pure M K) (h : Int) : K.op h = M.op h := by
  unfold Mach.op
  rw [hp.core.ops]
  cases hk : K.obj h with
  | some o =>
    cases o with
    | dtype t =>
      rw [obj_mem hp.fitK, hp.core.objs, List.mem_filter] at hk
      cases hk.2
    | comm c => rw [(hp.obj (o := .comm c) rfl).1 hk]
    | req i => rw [(hp.obj (o := .req i) rfl).1 hk]
  | none =>
    cases hm : M.obj h with
    | none => rfl
    | some o =>
      cases o with
      | dtype t => rfl
      | comm c => rfl
      | req i => rw [(hp.obj (o := .req i) rfl).2 hm] at hk; cases hk

theorem Pure.partner (hp : Pure M K) (c : Nat) (k : Kind) (tag : Int) : K.L.partner c k tag = M.L.partner c k tag := by
  unfold Ledger.partner
  rw [hp.core.ops]

theorem Pure.mem_comm (hp : Pure M K) {h : Int} {c : Nat} : (h, Obj.comm c) ∈ K.L.objs ↔ (h, Obj.comm c) ∈ M.L.objs := by
  rw [hp.core.objs, List.mem_filter]
  exact ⟨fun h => h.1, fun h => ⟨h, rfl⟩⟩

theorem Pure.mem_req (hp : Pure M K) {h : Int} {i : Nat} : (h, Obj.req i) ∈ K.L.objs ↔ (h, Obj.req i) ∈ M.L.objs := by
  rw [hp.core.objs, List.mem_filter]
  exact ⟨fun h => h.1, fun h => ⟨h, rfl⟩⟩

/-- Releasing a handle that is not a datatype's. -/
theorem Pure.release (hp : Pure M K) {h : Int} {o : Obj} (hm : (h, o) ∈ M.L.objs) (ho : plainObj (h, o) = true) :
    Still M (M.release h) (K.release h) := by
  have hn := (obj_mem hp.fit).2 hm
  refine ⟨⟨⟨hp.core.ops, ?_, hp.core.ncomms, hp.core.nfreed, hp.core.inited, ?_, hp.core.mem⟩, ?_⟩, ?_⟩
  · unfold Mach.release Ledger.release
    dsimp only
    rw [hp.core.objs, List.filter_filter, List.filter_filter]
    congr 1
    funext e
    rw [Bool.and_comm]
  · unfold Mach.release
    dsimp only
    rw [hp.core.pool]
  · unfold Mach.release
    dsimp only
    rw [keys_release]
    exact hp.fit.give (List.mem_map.2 ⟨_, hm, rfl⟩)
  · intro a t ha
    unfold Mach.release Ledger.release
    dsimp only
    rw [List.mem_filter]
    refine ⟨ha, decide_eq_true fun he => ?_⟩
    dsimp only at he
    subst he
    rw [(obj_mem hp.fit).2 ha] at hn
    cases hn
    cases ho

theorem Pure.freeComm (hp : Pure M K) {h : Int} {c : Nat} (hm : (h, Obj.comm c) ∈ M.L.objs) :
    Still M (M.freeComm h) (K.freeComm h) := by
  obtain ⟨⟨h1, h2⟩, h3⟩ := hp.release hm rfl
  refine ⟨⟨⟨h1.ops, h1.objs, h1.ncomms, ?_, h1.inited, h1.pool, h1.mem⟩, h2⟩, h3⟩
  show K.L.nfreed + 1 = M.L.nfreed + 1
  rw [hp.core.nfreed]

/-- A new handle. -/
theorem Pure.fresh (hp : Pure M K) : M.fresh.Rel (fun x y => x.2 = y.2 ∧ ∃ P, x.1 = { M with pool := P } ∧ y.1 = { K with pool := P } ∧
    Fit (x.2 :: M.L.keys) P) K.fresh := by
  unfold Mach.fresh
  rw [hp.core.pool]
  cases ht : M.pool.take with
  | none => rfl
  | some x => exact ⟨rfl, x.2, rfl, rfl, hp.fit.take ht⟩

/-- Something new with a new handle, which is not a datatype. -/
theorem Pure.add (hp : Pure M K) {h : Int} {P : Pool} (hf : Fit (h :: M.L.keys) P) {L L' : Ledger} {o : Obj} (ho : plainObj (h, o) = true)
    (h1 : L.objs = (h, o) :: M.L.objs) (h2 : L'.objs = (h, o) :: K.L.objs) (h3 : L'.ops = L.ops) (h4 : L'.ncomms = L.ncomms)
    (h5 : L'.nfreed = L.nfreed) (h6 : L'.inited = L.inited) {m : Mem} {b b' : Nat} : Still M ⟨L, P, m, b⟩ ⟨L', P, m, b'⟩ := by
  refine ⟨⟨⟨h3, ?_, h4, h5, h6, rfl, rfl⟩, ?_⟩, fun a t ha => ?_⟩
  · dsimp only
    rw [h1, h2, List.filter_cons, ho, if_pos rfl, hp.core.objs]
  · dsimp only [Ledger.keys]
    rw [h1, List.map_cons]
    exact hf
  · dsimp only
    rw [h1]
    exact List.mem_cons_of_mem _ ha

theorem Pure.newComm (hp : Pure M K) : M.newComm.Rel (fun x y => Still M x.1 y.1 ∧ x.2 = y.2) K.newComm := by
  unfold Mach.newComm
  refine Rel.bind hp.fresh fun a b _ _ ⟨h1, P, h2, h3, h4⟩ => ?_
  obtain ⟨x, h⟩ := a
  obtain ⟨y, h'⟩ := b
  dsimp only at h1 h2 h3 h4 ⊢
  subst h1 h2 h3
  refine ⟨?_, rfl⟩
  have hm : K.mem = M.mem := hp.core.mem
  have := hp.add (m := M.mem) (b := M.built) (b' := K.built) h4 (L := M.L.addComm h) (L' := K.L.addComm h) (o := .comm M.L.ncomms) rfl rfl
    (by unfold Ledger.addComm; rw [hp.core.ncomms]) hp.core.ops (by unfold Ledger.addComm; rw [hp.core.ncomms]) hp.core.nfreed hp.core.inited
  dsimp only
  rw [hm]
  exact this

theorem Pure.newCommUnless (hp : Pure M K) (p : Prop) [Decidable p] :
    (Mach.newCommUnless p M).Rel (fun x y => Still M x.1 y.1 ∧ x.2 = y.2) (Mach.newCommUnless p K) := by
  unfold Mach.newCommUnless
  exact Rel.ite (fun _ => ⟨⟨hp, KeepsTypes.refl _⟩, rfl⟩) fun _ => hp.newComm

theorem Pure.init (hp : Pure M K) : M.init.Rel (Still M) K.init := by
  unfold Mach.init
  refine Rel.bind hp.newComm fun a b _ _ ⟨h1, h2⟩ => ?_
  obtain ⟨x, h⟩ := a
  obtain ⟨y, h'⟩ := b
  dsimp only at h1 h2 ⊢
  subst h2
  refine Rel.ite (fun _ => rfl) fun _ => ?_
  exact ⟨⟨⟨h1.core.ops, h1.core.objs, h1.core.ncomms, h1.core.nfreed, rfl, h1.core.pool, h1.core.mem⟩, h1.fit⟩, h1.kept⟩

theorem Pure.finalize (hp : Pure M K) : Pure M.finalize K.finalize :=
  ⟨⟨hp.core.ops, rfl, hp.core.ncomms, hp.core.nfreed, rfl, rfl, hp.core.mem⟩, Fit.start⟩

theorem Pure.result (hp : Pure M K) (o : Op) : K.result o = M.result o := by
  unfold Mach.result
  rw [hp.core.ops]

/-- What a completion call reports is the same. -/
def SameTested (M : Mach) (x y : Tested) : Prop :=
  Still M x.mach y.mach ∧ x.request = y.request ∧ x.flag = y.flag ∧ x.status = y.status

theorem Pure.test (hp : Pure M K) (h : Int) (st : StPtr) : (M.test h st).Rel (SameTested M) (K.test h st) := by
  unfold Mach.test
  refine Rel.ite (fun _ => ?_) fun _ => ?_
  · exact Rel.bind_same fun _ _ => ⟨⟨hp, KeepsTypes.refl _⟩, rfl, rfl, rfl⟩
  · rw [hp.op]
    refine Rel.bind_same fun o ho => ?_
    refine Rel.ite (fun _ => ⟨⟨hp, KeepsTypes.refl _⟩, rfl, rfl, rfl⟩) fun _ => ?_
    rw [hp.result]
    refine Rel.bind_same fun _ _ => ⟨?_, rfl, rfl, rfl⟩
    unfold Mach.op at ho
    split at ho
    · rename_i i hi
      exact hp.release ((obj_mem hp.fit).1 hi) rfl
    · cases ho

theorem Pure.wait (hp : Pure M K) (h : Int) (st : StPtr) :
    (M.wait h st).Rel (fun x y => Still M x.1 y.1 ∧ x.2 = y.2) (K.wait h st) := by
  unfold Mach.wait
  refine Rel.bind (hp.test h st) fun a b _ _ ⟨h1, h2, h3, h4⟩ => ?_
  rw [h3]
  refine Rel.ite (fun _ => rfl) fun _ => ?_
  exact ⟨h1, by rw [h2, h4]⟩

theorem Pure.iprobe (hp : Pure M K) (d g c : Int) (st : StPtr) : K.iprobe d g c st = M.iprobe d g c st := by
  unfold Mach.iprobe
  rw [hp.cid, hp.core.ops]
  congr 2
  funext x
  rw [hp.partner]

theorem Pure.probe (hp : Pure M K) (d g c : Int) (st : StPtr) : K.probe d g c st = M.probe d g c st := by
  unfold Mach.probe
  rw [hp.iprobe]

theorem testany_pure : ∀ (hs : List Int) {M K : Mach} (_ : Pure M K) (st : StPtr),
    (M.testany hs st).Rel (fun x y => Still M x.1 y.1 ∧ x.2 = y.2) (K.testany hs st)
  | [], M, K, hp, st => ⟨⟨hp, KeepsTypes.refl _⟩, rfl⟩
  | h :: hs, M, K, hp, st => by
    unfold Mach.testany
    refine Rel.bind (hp.test h st) fun a b _ _ ⟨h1, h2, h3, h4⟩ => ?_
    rw [h3, h2, h4]
    refine Rel.ite (fun _ => ⟨h1, rfl⟩) fun _ => ?_
    refine Rel.bind (testany_pure hs h1.toPure _) fun x y _ _ ⟨h5, h6⟩ => ?_
    obtain ⟨x1, x2⟩ := x
    obtain ⟨y1, y2⟩ := y
    dsimp only at h5 h6
    subst h6
    exact ⟨.trans h1.kept h5, rfl⟩

theorem testeach_pure : ∀ (hs : List Int) (i : Nat) {M K : Mach} (_ : Pure M K) (sts : StArr),
    (M.testeach i hs sts).Rel (fun x y => Still M x.1 y.1 ∧ x.2 = y.2) (K.testeach i hs sts)
  | [], i, M, K, hp, st => ⟨⟨hp, KeepsTypes.refl _⟩, rfl⟩
  | h :: hs, i, M, K, hp, st => by
    unfold Mach.testeach
    refine Rel.bind_same fun p _ => ?_
    refine Rel.bind (hp.test h p) fun a b _ _ ⟨h1, h2, h3, h4⟩ => ?_
    rw [h3, h2, h4]
    refine Rel.bind (testeach_pure hs (i + 1) h1.toPure _) fun x y _ _ ⟨h5, h6⟩ => ?_
    obtain ⟨x1, x2⟩ := x
    obtain ⟨y1, y2⟩ := y
    dsimp only at h5 h6
    subst h6
    exact ⟨.trans h1.kept h5, rfl⟩

theorem waitall_pure : ∀ (hs : List Int) (i : Nat) {M K : Mach} (_ : Pure M K) (sts : StArr),
    (M.waitall i hs sts).Rel (fun x y => Still M x.1 y.1 ∧ x.2 = y.2) (K.waitall i hs sts)
  | [], i, M, K, hp, st => ⟨⟨hp, KeepsTypes.refl _⟩, rfl⟩
  | h :: hs, i, M, K, hp, st => by
    unfold Mach.waitall
    refine Rel.bind_same fun p _ => ?_
    refine Rel.bind (hp.test h p) fun a b _ _ ⟨h1, h2, h3, h4⟩ => ?_
    rw [h3, h2, h4]
    refine Rel.ite (fun _ => rfl) fun _ => ?_
    refine Rel.bind (waitall_pure hs (i + 1) h1.toPure _) fun x y _ _ ⟨h5, h6⟩ => ?_
    obtain ⟨x1, x2⟩ := x
    obtain ⟨y1, y2⟩ := y
    dsimp only at h5 h6
    subst h6
    exact ⟨.trans h1.kept h5, rfl⟩

end MpiSerial
