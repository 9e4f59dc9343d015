import Verif.Proofs.IdealTypes

/-!
# Every call on the two machines
-/

set_option linter.unusedSimpArgs false
set_option autoImplicit false

namespace MpiSerial

open Res (Rel)
open Spec

section
variable {env : Env} {M : Mach} {I : Ideal}

/-- The same answer, and states that correspond. -/
abbrev Alike (cfg : Cfg) {α : Type} (x : Mach × α) (y : Ideal × α) : Prop := Mirror cfg x.1 y.1 ∧ x.2 = y.2

theorem Fit.tail {h : Int} {ks : List Int} {P : Pool} (hf : Fit (h :: ks) P) : Fit ks P :=
  ⟨(List.nodup_cons.1 hf.nodup).2, fun x hx => hf.range x (List.mem_cons_of_mem _ hx), hf.blocks⟩

theorem post_objs_eq (L : Ledger) (k : Kind) (c : Nat) (g b n t h : Int) :
    (L.post k c g b n t h).objs = (h, .req L.ops.length) :: L.objs := by
  unfold Ledger.post
  dsimp only
  split <;> rfl

theorem post_ops_congr {L L' : Ledger} (h0 : L'.ops = L.ops) (k : Kind) (c : Nat) (g b n t h : Int) :
    (L'.post k c g b n t h).ops = (L.post k c g b n t h).ops := by
  have : L'.partner c k g = L.partner c k g := by unfold Ledger.partner; rw [h0]
  unfold Ledger.post
  dsimp only
  rw [this, h0]
  cases L.partner c k g <;> rfl

theorem post_rest (L : Ledger) (k : Kind) (c : Nat) (g b n t h : Int) :
    (L.post k c g b n t h).ncomms = L.ncomms ∧ (L.post k c g b n t h).nfreed = L.nfreed ∧ (L.post k c g b n t h).inited = L.inited := by
  unfold Ledger.post
  dsimp only
  split <;> exact ⟨rfl, rfl, rfl⟩

/-- A fresh handle in both machines. -/
theorem Mirror.fresh (hm : Mirror env.cfg M I) : M.fresh.Rel (fun x y => x.2 = y.2 ∧ ∃ P, x.1 = { M with pool := P } ∧
    y.1 = { I.core with pool := P } ∧ Fit (x.2 :: M.L.keys) P ∧
    Mirror env.cfg { M with pool := P } { I with core := { I.core with pool := P } }) I.core.fresh :=
  Rel.mono hm.toPure.fresh fun _ _ _ _ ⟨h1, P, h2, h3, h4⟩ =>
    ⟨h1, P, h2, h3, h4, ⟨⟨hm.core.ops, hm.core.objs, hm.core.ncomms, hm.core.nfreed, hm.core.inited, rfl, hm.core.mem⟩, h4.tail⟩, hm.types⟩

theorem Mirror.post (hm : Mirror env.cfg M I) {h : Int} (hf : Fit (h :: M.L.keys) M.pool) (k : Kind) (c : Nat) (g b n t : Int) :
    Mirror env.cfg { M with L := M.L.post k c g b n t h } (I.setL (I.core.L.post k c g b n t h)) := by
  have h1 := post_rest M.L k c g b n t h
  have h2 := post_rest I.core.L k c g b n t h
  have := hm.toPure.add (m := M.mem) (b := M.built) (b' := I.core.built) hf (o := .req M.L.ops.length) (L := M.L.post k c g b n t h)
    (L' := I.core.L.post k c g b n t h) rfl (post_objs_eq ..) (by rw [post_objs_eq, hm.core.ops])
    (post_ops_congr hm.core.ops ..) (by rw [h1.1, h2.1, hm.core.ncomms]) (by rw [h1.2.1, h2.2.1, hm.core.nfreed])
    (by rw [h1.2.2, h2.2.2, hm.core.inited])
  have h3 := hm.still this
  unfold Ideal.setL
  have e : ({ I.core with L := I.core.L.post k c g b n t h } : Mach) = ⟨I.core.L.post k c g b n t h, M.pool, M.mem, I.core.built⟩ := by
    rw [← hm.core.pool, ← hm.core.mem]
  rw [e]
  exact h3

theorem Mirror.postNull (hm : Mirror env.cfg M I) {h : Int} (hf : Fit (h :: M.L.keys) M.pool) (k : Kind) (g b n t : Int) :
    Mirror env.cfg { M with L := M.L.postNull k g b n t h } (I.setL (I.core.L.postNull k g b n t h)) := by
  have := hm.toPure.add (m := M.mem) (b := M.built) (b' := I.core.built) hf (o := .req M.L.ops.length) (L := M.L.postNull k g b n t h)
    (L' := I.core.L.postNull k g b n t h) rfl rfl (by unfold Ledger.postNull; rw [hm.core.ops])
    (by unfold Ledger.postNull; rw [hm.core.ops]) hm.core.ncomms hm.core.nfreed hm.core.inited
  have h3 := hm.still this
  unfold Ideal.setL
  have e : ({ I.core with L := I.core.L.postNull k g b n t h } : Mach) = ⟨I.core.L.postNull k g b n t h, M.pool, M.mem, I.core.built⟩ := by
    rw [← hm.core.pool, ← hm.core.mem]
  rw [e]
  exact h3

theorem cid_mem (hf : Fit M.L.keys M.pool) {h : Int} {c : Nat} (hc : M.cid h = .ok c) : (h, Obj.comm c) ∈ M.L.objs := by
  unfold Mach.cid at hc
  split at hc
  · rename_i c' ho
    cases hc
    exact (obj_mem hf).1 ho
  · cases hc

theorem copy_keeps {M' : Mach} {a n t b k u : Int} (hc : M.copy env a n t b k u = .ok M') : M'.L = M.L ∧ M'.pool = M.pool := by
  unfold Mach.copy at hc
  obtain ⟨_, _, hc⟩ := Res.bind_eq_ok.1 hc
  obtain ⟨_, _, hc⟩ := Res.bind_eq_ok.1 hc
  obtain ⟨_, _, hc⟩ := Res.bind_eq_ok.1 hc
  cases hc
  exact ⟨rfl, rfl⟩

theorem move_keeps {I' : Ideal} {cfg : Cfg} {a n t b k u : Int} (hc : I.move cfg a n t b k u = .ok I') : I'.core.L = I.core.L := by
  unfold Ideal.move at hc
  obtain ⟨_, _, hc⟩ := Res.bind_eq_ok.1 hc
  obtain ⟨_, _, hc⟩ := Res.bind_eq_ok.1 hc
  cases hc
  rfl

theorem isend_ideal (hc : env.cfg.Ok) (hm : Mirror env.cfg M I) {b n t d g c : Int} (hl : I.LegalSend env.cfg b n t d g c) :
    (M.isend env b n t d g c).Rel (Alike env.cfg) (I.isend env.cfg b n t d g c) := by
  unfold Mach.isend Ideal.isend
  refine Rel.ite (fun _ => rfl) fun hd => ?_
  refine Rel.bind hm.fresh fun x y _ _ ⟨h1, P, h2, h3, h4, h5⟩ => ?_
  obtain ⟨x, h⟩ := x
  obtain ⟨y, h'⟩ := y
  dsimp only at h1 h2 h3 h4 ⊢
  subst h1 h2 h3
  refine Rel.ite (fun _ => ⟨h5.postNull h4 .., rfl⟩) fun hd' => ?_
  have hd0 : d = 0 := by
    by_cases h0 : d = 0
    · exact h0
    · exact absurd ⟨h0, hd'⟩ hd
  rw [h5.toPure.cid]
  refine Rel.bind_same fun c' hc' => ?_
  have hcm : (c, Obj.comm c') ∈ I.core.L.objs := hm.toPure.mem_comm.2 (cid_mem h5.fit hc')
  have hpt : I.core.L.partner c' .send g = M.L.partner c' .send g := hm.toPure.partner ..
  dsimp only
  rw [hpt]
  cases hj : M.L.partner c' .send g with
  | none => exact ⟨h5.post h4 .., rfl⟩
  | some j =>
    dsimp only
    rw [hm.core.ops]
    cases ho : M.L.ops[j]? with
    | none => rfl
    | some o =>
      dsimp only
      refine Rel.bind (h5.copy hc (hl.2 c' j o hcm (hpt.trans hj) (by rw [hm.core.ops]; exact ho) hd0)) fun x y hx hy h6 => ?_
      obtain ⟨k1, k2⟩ := copy_keeps hx
      have k3 := move_keeps hy
      have := h6.post (h := h) (by rw [k1, k2]; exact h4) .send c' g b n t
      rw [k1, k3] at this
      rw [k1]
      exact ⟨this, rfl⟩

theorem irecv_ideal (hc : env.cfg.Ok) (hm : Mirror env.cfg M I) {b n t d g c : Int} (hl : I.LegalRecv env.cfg b n t d g c) :
    (M.irecv env b n t d g c).Rel (Alike env.cfg) (I.irecv env.cfg b n t d g c) := by
  unfold Mach.irecv Ideal.irecv
  refine Rel.ite (fun _ => rfl) fun hd => ?_
  refine Rel.bind hm.fresh fun x y _ _ ⟨h1, P, h2, h3, h4, h5⟩ => ?_
  obtain ⟨x, h⟩ := x
  obtain ⟨y, h'⟩ := y
  dsimp only at h1 h2 h3 h4 ⊢
  subst h1 h2 h3
  refine Rel.ite (fun _ => ⟨h5.postNull h4 .., rfl⟩) fun hd' => ?_
  rw [h5.toPure.cid]
  refine Rel.bind_same fun c' hc' => ?_
  have hcm : (c, Obj.comm c') ∈ I.core.L.objs := hm.toPure.mem_comm.2 (cid_mem h5.fit hc')
  have hpt : I.core.L.partner c' .recv g = M.L.partner c' .recv g := hm.toPure.partner ..
  dsimp only
  rw [hpt]
  cases hj : M.L.partner c' .recv g with
  | none => exact ⟨h5.post h4 .., rfl⟩
  | some j =>
    dsimp only
    rw [hm.core.ops]
    cases ho : M.L.ops[j]? with
    | none => rfl
    | some o =>
      dsimp only
      obtain ⟨τs, τr, l1, l2, l3, l4⟩ := hl.2 c' j o hcm (hpt.trans hj) (by rw [hm.core.ops]; exact ho) hd'
      refine Rel.bind (h5.collect hc (st := o.dtype) l1 l2 l3 l4) fun x y hx hy h6 => ?_
      obtain ⟨k1, k2⟩ := copy_keeps hx
      have k3 := move_keeps hy
      have := h6.post (h := h) (by rw [k1, k2]; exact h4) .recv c' g b n t
      rw [k1, k3] at this
      rw [k1]
      exact ⟨this, rfl⟩

theorem wait_ideal (hm : Mirror env.cfg M I) (h : Int) (st : StPtr) : (M.wait h st).Rel (Alike env.cfg) (I.wait h st) := by
  unfold Ideal.wait
  have := hm.toPure.wait h st
  cases hx : M.wait h st <;> cases hy : I.core.wait h st <;> rw [hx, hy] at this <;>
    first | exact this.elim | skip
  · exact ⟨hm.still this.1, this.2⟩
  all_goals first | exact this | trivial

theorem send_ideal (hc : env.cfg.Ok) (hm : Mirror env.cfg M I) {b n t d g c : Int} (hl : I.LegalSend env.cfg b n t d g c) :
    (M.send env b n t d g c).Rel (Mirror env.cfg) (I.send env.cfg b n t d g c) := by
  unfold Mach.send Ideal.send
  refine Rel.bind (isend_ideal hc hm hl) fun x y _ _ ⟨h1, h2⟩ => ?_
  obtain ⟨x, h⟩ := x
  obtain ⟨y, h'⟩ := y
  dsimp only at h1 h2 ⊢
  subst h2
  refine Rel.bind (wait_ideal h1 _ _) fun x y _ _ ⟨h1, h2⟩ => ?_
  exact h1

theorem irsend_ideal (hc : env.cfg.Ok) (hm : Mirror env.cfg M I) {b n t d g c : Int} (hl : I.LegalSend env.cfg b n t d g c) :
    (M.irsend env b n t d g c).Rel (Alike env.cfg) (I.irsend env.cfg b n t d g c) := by
  unfold Mach.irsend Ideal.irsend
  refine Rel.bind (isend_ideal hc hm hl) fun x y _ _ ⟨h1, h2⟩ => ?_
  obtain ⟨x, h⟩ := x
  obtain ⟨y, h'⟩ := y
  dsimp only at h1 h2 ⊢
  subst h2
  rw [h1.toPure.op]
  refine Rel.bind_same fun o _ => ?_
  exact Rel.ite (fun _ => rfl) fun _ => ⟨h1, rfl⟩

theorem recv_ideal (hc : env.cfg.Ok) (hm : Mirror env.cfg M I) {b n t d g c : Int} {st : StPtr} (hl : I.LegalRecv env.cfg b n t d g c) :
    (M.recv env b n t d g c st).Rel (Alike env.cfg) (I.recv env.cfg b n t d g c st) := by
  unfold Mach.recv Ideal.recv
  refine Rel.bind (irecv_ideal hc hm hl) fun x y _ _ ⟨h1, h2⟩ => ?_
  obtain ⟨x, h⟩ := x
  obtain ⟨y, h'⟩ := y
  dsimp only at h1 h2 ⊢
  subst h2
  refine Rel.bind (wait_ideal h1 _ _) fun x y _ _ ⟨h1, h2⟩ => ?_
  obtain ⟨x, r, st⟩ := x
  obtain ⟨y, r', st'⟩ := y
  dsimp only at h1 h2 ⊢
  cases h2
  cases st with
  | null => exact ⟨h1, rfl⟩
  | obj s => exact ⟨h1, rfl⟩
  | bad => rfl

theorem sendrecv_ideal (hc : env.cfg.Ok) (hm : Mirror env.cfg M I) {b n t d g b' n' t' d' g' c : Int} {st : StPtr}
    (hl : I.LegalRecv env.cfg b' n' t' d' g' c)
    (hl' : ∀ I' h, I.irecv env.cfg b' n' t' d' g' c = .ok (I', h) → I'.LegalSend env.cfg b n t d g c) :
    (M.sendrecv env b n t d g b' n' t' d' g' c st).Rel (Alike env.cfg) (I.sendrecv env.cfg b n t d g b' n' t' d' g' c st) := by
  unfold Mach.sendrecv Ideal.sendrecv
  refine Rel.bind (irecv_ideal hc hm hl) fun x y _ hy ⟨h1, h2⟩ => ?_
  obtain ⟨x, h⟩ := x
  obtain ⟨y, h'⟩ := y
  dsimp only at h1 h2 ⊢
  subst h2
  refine Rel.bind (send_ideal hc h1 (hl' _ _ hy)) fun x y _ _ h1 => ?_
  refine Rel.bind (wait_ideal h1 _ _) fun x y _ _ ⟨h1, h2⟩ => ?_
  obtain ⟨x, r, st⟩ := x
  obtain ⟨y, r', st'⟩ := y
  dsimp only at h1 h2 ⊢
  cases h2
  exact ⟨h1, rfl⟩

end

end MpiSerial
