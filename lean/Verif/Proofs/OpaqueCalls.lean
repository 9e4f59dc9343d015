import Verif.Proofs.Opaque
import Verif.Proofs.MachineStep

/-!
# Two machines that differ in handle numbers: calls
-/

set_option linter.unusedSimpArgs false
set_option autoImplicit false

namespace MpiSerial

open Res (Rel)

/-- `h` and `h'` have just been taken from the free numbers, which are `P` and `Q` now. -/
structure Taken (l : Pairs) (M N : Mach) (h h' : Int) (P Q : Pool) : Prop where
  fst : P.Serves (fun a => a = h ∨ M.uses a) Q.left
  snd : Q.Serves (fun a => a = h' ∨ N.uses a) Q.left
  pos : 0 < h ∧ 0 < h'
  new : (∀ e ∈ l, e.1 ≠ h) ∧ ∀ e ∈ l, e.2.1 ≠ h'
  first : ¬ M.uses 1 → h = 1
  first' : ¬ N.uses 1 → h' = 1

namespace Full
variable {l : Pairs} {M N : Mach} {env : Env} (hF : Full l M N) {h h' : Int}
include hF

theorem fresh : M.fresh.Rel (fun x y => ∃ P Q, x.1 = { M with pool := P } ∧ y.1 = { N with pool := Q } ∧ Taken l M N x.2 y.2 P Q) N.fresh := by
  unfold Mach.fresh
  cases h1 : M.pool.take with
  | none =>
    have h2 := hF.fst.take_none h1
    cases h3 : N.pool.take with
    | none => rfl
    | some y =>
      obtain ⟨_, h4, _⟩ := hF.snd.take_some h3
      omega
  | some x =>
    obtain ⟨n, h2, h3, h4, h5, h6⟩ := hF.fst.take_some h1
    cases g1 : N.pool.take with
    | none =>
      have := hF.snd.take_none g1
      omega
    | some y =>
      obtain ⟨n', g2, g3, g4, g5, g6⟩ := hF.snd.take_some g1
      have e : n = y.2.left := by have := g3.amount; omega
      have e' : n' = y.2.left := g3.amount.symm
      rw [e] at h3
      rw [e'] at g3
      refine ⟨x.2, y.2, rfl, rfl, h3, g3, ⟨h4, g4⟩, ⟨fun e he hx => ?_, fun e he hx => ?_⟩, h6, g6⟩
      · exact h5 ((hF.uses _).2 ⟨e, he, hx⟩)
      · exact g5 ((hF.uses' _).2 ⟨e, he, hx⟩)

/-- What the pools have to serve after something was added. -/
theorem stock {o : Obj} {P Q : Pool} {L L' : Ledger} {m m' : Mem} {b b' : Nat} (ht : Taken l M N h h' P Q)
    (hr : Ren ((h, h', o) :: l) ⟨L, P, m, b⟩ ⟨L', Q, m', b'⟩) : Stock ⟨L, P, m, b⟩ ⟨L', Q, m', b'⟩ := by
  constructor
  · refine ht.fst.congr fun a => ?_
    rw [hr.uses, hF.uses]
    simp only [List.mem_cons, exists_eq_or_imp]
    exact or_congr eq_comm Iff.rfl
  · refine ht.snd.congr fun a => ?_
    rw [hr.uses', hF.uses']
    simp only [List.mem_cons, exists_eq_or_imp]
    exact or_congr eq_comm Iff.rfl

theorem uses_one (hi : M.L.inited = true) : M.uses 1 ∧ N.uses 1 := by
  obtain ⟨c, hc⟩ := hF.world.1 hi
  exact ⟨(hF.uses 1).2 ⟨_, hc, rfl⟩, (hF.uses' 1).2 ⟨_, hc, rfl⟩⟩

/-- New handles are not 1. -/
theorem gt_one {P Q : Pool} (hi : M.L.inited = true) (ht : Taken l M N h h' P Q) : 1 < h ∧ 1 < h' := by
  obtain ⟨c, hc⟩ := hF.world.1 hi
  have h1 := ht.new.1 _ hc
  have h2 := ht.new.2 _ hc
  have h3 := ht.pos
  dsimp only at h1 h2
  omega

/-- A new object of the session. -/
theorem join {o : Obj} {P Q : Pool} {L L' : Ledger} {m m' : Mem} {b b' : Nat} (hi : M.L.inited = true) (ht : Taken l M N h h' P Q)
    (hr : Ren ((h, h', o) :: l) ⟨L, P, m, b⟩ ⟨L', Q, m', b'⟩) (hL : L.inited = M.L.inited) :
    Full ((h, h', o) :: l) ⟨L, P, m, b⟩ ⟨L', Q, m', b'⟩ := by
  refine { toRen := hr, toStock := hF.stock ht hr, world := ⟨fun _ => ?_, fun hn => ?_⟩ }
  · obtain ⟨c, hc⟩ := hF.world.1 hi
    exact ⟨c, List.mem_cons_of_mem _ hc⟩
  · dsimp only at hn
    rw [hL, hi] at hn
    cases hn

theorem newCommAny : M.newComm.Rel (fun x y => ∃ P Q, Taken l M N x.2 y.2 P Q ∧ x.1 = ⟨M.L.addComm x.2, P, M.mem, M.built⟩ ∧
    y.1 = ⟨N.L.addComm y.2, Q, N.mem, N.built⟩ ∧ Ren ((x.2, y.2, .comm M.L.ncomms) :: l) x.1 y.1) N.newComm := by
  unfold Mach.newComm
  refine Rel.bind hF.fresh fun x y _ _ ⟨P, Q, h1, h2, h3⟩ => ?_
  obtain ⟨x, a⟩ := x
  obtain ⟨y, b⟩ := y
  dsimp only at h1 h2 h3 ⊢
  subst h1 h2
  refine ⟨P, Q, h3, rfl, rfl, ?_⟩
  have := hF.add (o := .comm M.L.ncomms) (L := M.L.addComm a) (L' := N.L.addComm b) (P := P) (Q := Q) (m := M.mem) (b := M.built)
    h3.pos.1 h3.pos.2 h3.new.1 h3.new.2 rfl (by unfold Ledger.addComm; rw [hF.ncomms]) rfl rfl
    (by unfold Ledger.addComm; dsimp only; rw [hF.ncomms]) (Nat.le_succ _) (fun c hc => by cases hc; exact ⟨Nat.le_refl _, Nat.lt_succ_self _⟩)
    hF.inited
  dsimp only
  rw [hF.mem, hF.built] at this
  rw [hF.mem, hF.built]
  exact this

/-- What is known of the handle of a new object. -/
def New (l : Pairs) (x y : Mach × Int) : Prop :=
  1 < x.2 ∧ 1 < y.2 ∧ ((∀ e ∈ l, e.1 ≠ x.2) ∧ ∀ e ∈ l, e.2.1 ≠ y.2) ∧ ∃ o, Full ((x.2, y.2, o) :: l) x.1 y.1

theorem newComm (hi : M.L.inited = true) : M.newComm.Rel (New l) N.newComm := by
  refine Rel.mono hF.newCommAny fun x y _ _ ⟨P, Q, h1, h2, h3, h4⟩ => ?_
  obtain ⟨x, a⟩ := x
  obtain ⟨y, b⟩ := y
  dsimp only at h1 h2 h3 h4 ⊢
  subst h2 h3
  have := hF.gt_one hi h1
  exact ⟨this.1, this.2, h1.new, _, hF.join hi h1 h4 rfl⟩

theorem init (hi : M.L.inited = false) : M.init.Rel (fun x y => x.L.inited = true ∧ ∃ l', Full l' x y) N.init := by
  have hl := hF.world.2 hi
  subst hl
  unfold Mach.init
  refine Rel.bind hF.newCommAny fun x y _ _ ⟨P, Q, h1, h2, h3, h4⟩ => ?_
  obtain ⟨x, a⟩ := x
  obtain ⟨y, b⟩ := y
  dsimp only at h1 h2 h3 h4 ⊢
  subst h2 h3
  have e1 : a = 1 := h1.first fun hu => by
    obtain ⟨e, he, _⟩ := (hF.uses 1).1 hu
    cases he
  have e2 : b = 1 := h1.first' fun hu => by
    obtain ⟨e, he, _⟩ := (hF.uses' 1).1 hu
    cases he
  subst e1 e2
  rw [if_neg (by decide), if_neg (by decide)]
  refine ⟨rfl, [(1, 1, .comm M.L.ncomms)], ?_⟩
  have hs := hF.stock h1 h4
  exact { toRen := ⟨h4.ok, h4.objs, h4.objs', h4.ops, h4.types, h4.cids, h4.comms, h4.ncomms, rfl, h4.mem, h4.built⟩,
          toStock := ⟨hs.fst, hs.snd⟩, world := ⟨fun _ => ⟨_, List.mem_singleton.2 rfl⟩, fun hn => nomatch hn⟩ }

theorem finalize : Full [] M.finalize N.finalize := by
  have he : ∀ K : Mach, ∀ a, ¬ K.finalize.uses a := fun K a ⟨o, ho⟩ => nomatch ho
  have e : (262143 : Nat) = Pool.start.left := by
    simp only [Pool.left, Pool.start, Pool.block, List.length_map, List.length_range']
  refine { ok := ⟨.nil, .nil, fun _ h => nomatch h⟩, objs := rfl, objs' := rfl, ops := hF.ops, types := ?_, cids := hF.cids,
           comms := fun _ _ _ h => (List.not_mem_nil h).elim, ncomms := hF.ncomms, inited := rfl, mem := hF.mem, built := hF.built,
           fst := ?_, snd := ?_, world := ⟨(fun h => nomatch h), fun _ => rfl⟩ }
  · rintro _ _ _ _ _ _ ⟨_, _, h⟩
    cases h
  · have := Pool.Serves.start (he M)
    rw [e] at this
    exact this
  · have := Pool.Serves.start (he N)
    rw [e] at this
    exact this

/-- A handle is released. -/
theorem drop {o : Obj} (hi : M.L.inited = true) (hm : (h, h', o) ∈ l) (h1 : h ≠ 1)
    (ht : ∀ t, o = .dtype t → ∀ q ∈ M.L.ops, q.st = .pending → (∃ a a', (a, a', Obj.comm q.cid) ∈ l) → q.dtype ≠ h)
    {L L' : Ledger} (e1 : L.objs = (M.L.release h).objs) (e2 : L'.objs = (N.L.release h').objs) (e3 : L.ops = M.L.ops)
    (e4 : L'.ops = N.L.ops) (e5 : L.ncomms = M.L.ncomms) (e6 : L'.ncomms = N.L.ncomms) (e7 : L.inited = M.L.inited)
    (e8 : L'.inited = N.L.inited) :
    Full (l.without h) ⟨L, M.pool.give h, M.mem, M.built⟩ ⟨L', N.pool.give h', N.mem, N.built⟩ := by
  obtain ⟨c, hc⟩ := hF.world.1 hi
  have h1' : h' ≠ 1 := fun e => h1 ((hF.ok.iff (.inr ⟨_, hm⟩) (.inr ⟨_, hc⟩)).2 e)
  have hpos := hF.ok.pos _ hm
  dsimp only at hpos
  have hr := hF.toRen.release hm ht e1 e2 e3 e4 e5 e6 e7 e8 (P := M.pool.give h) (Q := N.pool.give h') (m := M.mem) (b := M.built)
  rw [hF.mem, hF.built] at hr ⊢
  have hu := hF.uses_one hi
  have e : (N.pool.give h').left = N.pool.left + 1 := by
    unfold Pool.left Pool.give
    dsimp only [List.length_cons]
    omega
  refine { toRen := hr, fst := ?_, snd := ?_, world := ⟨fun _ => ⟨c, Pairs.mem_without.2 ⟨hc, fun e => h1 e.symm⟩⟩, fun hn => ?_⟩ }
  · rw [e]
    refine (hF.fst.give ((hF.uses h).2 ⟨_, hm, rfl⟩) hpos.1 hu.1 h1).congr fun a => ?_
    rw [hr.uses, hF.uses]
    constructor
    · rintro ⟨x, hx, rfl⟩
      have := Pairs.mem_without.1 hx
      exact ⟨⟨x, this.1, rfl⟩, this.2⟩
    · rintro ⟨⟨x, hx, rfl⟩, hne⟩
      exact ⟨x, Pairs.mem_without.2 ⟨hx, hne⟩, rfl⟩
  · rw [e]
    refine (hF.snd.give ((hF.uses' h').2 ⟨_, hm, rfl⟩) hpos.2 hu.2 h1').congr fun a => ?_
    rw [hr.uses', hF.uses']
    constructor
    · rintro ⟨x, hx, rfl⟩
      have := Pairs.mem_without.1 hx
      exact ⟨⟨x, this.1, rfl⟩, fun he => this.2 ((hF.ok.iff (.inr ⟨_, this.1⟩) (.inr ⟨_, hm⟩)).2 he)⟩
    · rintro ⟨⟨x, hx, rfl⟩, hne⟩
      exact ⟨x, Pairs.mem_without.2 ⟨hx, fun he => hne ((hF.ok.iff (.inr ⟨_, hx⟩) (.inr ⟨_, hm⟩)).1 he)⟩, rfl⟩
  · dsimp only at hn
    rw [e7, hi] at hn
    cases hn

/-- Only memory changed. -/
theorem withMem (m : Mem) : Full l { M with mem := m } { N with mem := m } := by
  have h := hF.toRen.other (P := M.pool) (Q := N.pool) (m := m) (b := M.built)
  exact { toRen := ⟨h.ok, h.objs, h.objs', h.ops, h.types, h.cids, h.comms, h.ncomms, h.inited, rfl, hF.built⟩,
          fst := hF.fst, snd := hF.snd, world := hF.world }

theorem copy {a n b k t t' u u' : Int} (ht : Same l t t') (hu : Same l u u') :
    (M.copy env a n t b k u).Rel (Full l) (N.copy env a n t' b k u') :=
  Rel.mono (hF.toRen.copy ht hu) fun x y _ _ ⟨m, h1, h2⟩ => by subst h1 h2; exact hF.withMem m

/-! ## Messages -/

theorem isend {b n t t' d g c c' : Int} (hi : M.L.inited = true) (ht : Same l t t') (hty : IsType env M.L t) (hc : Same l c c') :
    (M.isend env b n t d g c).Rel (New l) (N.isend env b n t' d g c') := by
  have hT := hF.sameT ht hty
  unfold Mach.isend
  refine Rel.ite (fun _ => rfl) fun _ => ?_
  refine Rel.bind hF.fresh fun x y _ _ ⟨P, Q, h1, h2, h3⟩ => ?_
  obtain ⟨x, a⟩ := x
  obtain ⟨y, a'⟩ := y
  dsimp only at h1 h2 h3 ⊢
  subst h1 h2
  have hg := hF.gt_one hi h3
  refine Rel.ite (fun _ => ?_) fun _ => ?_
  · obtain ⟨i, hr⟩ := hF.postNull h3.pos.1 h3.pos.2 h3.new.1 h3.new.2 .send g b n t t' (P := P) (Q := Q) (m := M.mem) (d := M.built)
    refine ⟨hg.1, hg.2, h3.new, .req i, ?_⟩
    have := hF.join hi h3 hr rfl
    rw [hF.mem, hF.built] at this
    dsimp only
    rw [hF.mem, hF.built]
    exact this
  · have e1 : ({ M with pool := P } : Mach).cid c = ({ N with pool := Q } : Mach).cid c' := hF.cid hc
    rw [e1]
    refine Rel.bind_same fun q hq => ?_
    have hq' : M.cid c = .ok q := e1.trans hq
    have hcm : (c, c', Obj.comm q) ∈ l := by
      unfold Mach.cid at hq'
      split at hq'
      · next o ho => cases hq'; exact hF.toRen.obj_mem hc ho
      · cases hq'
    have hpt : M.L.partner q .send g = N.L.partner q .send g := hF.partner ..
    dsimp only
    rw [← hpt]
    cases hj : M.L.partner q .send g with
    | none =>
      obtain ⟨i, hr⟩ := hF.post h3.pos.1 h3.pos.2 h3.new.1 h3.new.2 .send (c := q) g b n hT hcm (P := P) (Q := Q) (m := M.mem) (d := M.built)
      refine ⟨hg.1, hg.2, h3.new, .req i, ?_⟩
      have := hF.join hi h3 hr (post_rest ..).2.2
      rw [hF.mem, hF.built] at this
      dsimp only
      rw [hF.mem, hF.built]
      exact this
    | some j =>
      dsimp only
      rcases getElem_bare hF.ops (i := j) with ⟨q1, q2⟩ | ⟨o, o', q1, q2, q3⟩
      · rw [q1, q2]; rfl
      · rw [q1, q2]
        dsimp only
        obtain ⟨_, k1, _, k2, k3, k4⟩ := bare_kind q3
        rw [← k2, ← k3]
        have hw := List.findIdx?_eq_some_iff_getElem.1 hj
        obtain ⟨hlt, hw, _⟩ := hw
        have ho : M.L.ops[j] = o := by rw [List.getElem?_eq_getElem hlt] at q1; exact Option.some.inj q1
        rw [ho] at hw
        unfold Op.waits at hw
        rw [Bool.and_eq_true, decide_eq_true_eq] at hw
        have hdt := hF.types j o o' q1 q2 hw.1.2.2 ⟨c, c', by rw [hw.1.2.1]; exact hcm⟩
        have hcp := hF.toRen.other (P := P) (Q := Q) (m := M.mem) (b := M.built)
        have hcp2 := hcp.copy (env := env) (a := b) (n := n) (b := o.buf) (k := o.count) ht hdt.same
        rw [show ({ M with pool := P } : Mach) = ⟨M.L, P, M.mem, M.built⟩ from rfl,
          show ({ N with pool := Q } : Mach) = ⟨N.L, Q, M.mem, M.built⟩ by rw [hF.mem, hF.built]]
        refine Rel.bind hcp2 fun x y _ _ ⟨m, h1, h2⟩ => ?_
        subst h1 h2
        obtain ⟨i, hr⟩ := hF.post h3.pos.1 h3.pos.2 h3.new.1 h3.new.2 .send (c := q) g b n hT hcm (P := P) (Q := Q) (m := m) (d := M.built)
        exact ⟨hg.1, hg.2, h3.new, _, hF.join hi h3 hr (post_rest ..).2.2⟩

theorem irecv {b n t t' d g c c' : Int} (hi : M.L.inited = true) (ht : Same l t t') (hty : IsType env M.L t) (hc : Same l c c') :
    (M.irecv env b n t d g c).Rel (New l) (N.irecv env b n t' d g c') := by
  have hT := hF.sameT ht hty
  unfold Mach.irecv
  refine Rel.ite (fun _ => rfl) fun _ => ?_
  refine Rel.bind hF.fresh fun x y _ _ ⟨P, Q, h1, h2, h3⟩ => ?_
  obtain ⟨x, a⟩ := x
  obtain ⟨y, a'⟩ := y
  dsimp only at h1 h2 h3 ⊢
  subst h1 h2
  have hg := hF.gt_one hi h3
  refine Rel.ite (fun _ => ?_) fun _ => ?_
  · obtain ⟨i, hr⟩ := hF.postNull h3.pos.1 h3.pos.2 h3.new.1 h3.new.2 .recv g b n t t' (P := P) (Q := Q) (m := M.mem) (d := M.built)
    refine ⟨hg.1, hg.2, h3.new, .req i, ?_⟩
    have := hF.join hi h3 hr rfl
    rw [hF.mem, hF.built] at this
    dsimp only
    rw [hF.mem, hF.built]
    exact this
  · have e1 : ({ M with pool := P } : Mach).cid c = ({ N with pool := Q } : Mach).cid c' := hF.cid hc
    rw [e1]
    refine Rel.bind_same fun q hq => ?_
    have hq' : M.cid c = .ok q := e1.trans hq
    have hcm : (c, c', Obj.comm q) ∈ l := by
      unfold Mach.cid at hq'
      split at hq'
      · next o ho => cases hq'; exact hF.toRen.obj_mem hc ho
      · cases hq'
    have hpt : M.L.partner q .recv g = N.L.partner q .recv g := hF.partner ..
    dsimp only
    rw [← hpt]
    cases hj : M.L.partner q .recv g with
    | none =>
      obtain ⟨i, hr⟩ := hF.post h3.pos.1 h3.pos.2 h3.new.1 h3.new.2 .recv (c := q) g b n hT hcm (P := P) (Q := Q) (m := M.mem) (d := M.built)
      refine ⟨hg.1, hg.2, h3.new, .req i, ?_⟩
      have := hF.join hi h3 hr (post_rest ..).2.2
      rw [hF.mem, hF.built] at this
      dsimp only
      rw [hF.mem, hF.built]
      exact this
    | some j =>
      dsimp only
      rcases getElem_bare hF.ops (i := j) with ⟨q1, q2⟩ | ⟨o, o', q1, q2, q3⟩
      · rw [q1, q2]; rfl
      · rw [q1, q2]
        dsimp only
        rw [← (bare_kind q3).2.2.2.1]
        have hcp := hF.toRen.other (P := P) (Q := Q) (m := M.mem) (b := M.built)
        have hcp2 := hcp.copy (env := env) (a := o.buf) (n := n) (b := b) (k := n) ht ht
        rw [show ({ M with pool := P } : Mach) = ⟨M.L, P, M.mem, M.built⟩ from rfl,
          show ({ N with pool := Q } : Mach) = ⟨N.L, Q, M.mem, M.built⟩ by rw [hF.mem, hF.built]]
        refine Rel.bind hcp2 fun x y _ _ ⟨m, h1, h2⟩ => ?_
        subst h1 h2
        obtain ⟨i, hr⟩ := hF.post h3.pos.1 h3.pos.2 h3.new.1 h3.new.2 .recv (c := q) g b n hT hcm (P := P) (Q := Q) (m := m) (d := M.built)
        exact ⟨hg.1, hg.2, h3.new, _, hF.join hi h3 hr (post_rest ..).2.2⟩

end Full

/-- The outcome of a completion call for corresponding requests. -/
def TestedAs (l : Pairs) (M : Mach) (h h' : Int) (x y : Tested) : Prop :=
  x.flag = y.flag ∧ x.status = y.status ∧ x.mach.L.inited = M.L.inited ∧
  ((x.request = 0 ∧ y.request = 0 ∧ x.flag = 1 ∧ Full (l.without h) x.mach y.mach) ∨
   (x.request = h ∧ y.request = h' ∧ x.flag = 0 ∧ h ≠ 0 ∧ Full l x.mach y.mach))

namespace Full
variable {l : Pairs} {M N : Mach} {env : Env} (hF : Full l M N) {h h' : Int}
include hF

theorem zero_not : ∀ e ∈ l, e.1 ≠ 0 := fun e he h0 => by
  have := hF.ok.pos e he
  omega

theorem test (hi : M.L.inited = true) (hs : Same l h h') (st : StPtr) : (M.test h st).Rel (TestedAs l M h h') (N.test h' st) := by
  unfold Mach.test
  by_cases h0 : h = 0
  · have h0' := (hF.ok.zero hs).1 h0
    subst h0 h0'
    rw [if_pos rfl, if_pos rfl]
    exact Rel.bind_same fun st' _ => ⟨rfl, rfl, rfl, .inl ⟨rfl, rfl, rfl, by rw [Pairs.without_self hF.zero_not]; exact hF⟩⟩
  · have h0' : h' ≠ 0 := fun e => h0 ((hF.ok.zero hs).2 e)
    rw [if_neg h0, if_neg h0']
    refine Rel.bind (hF.op hs) fun o o' ho _ hb => ?_
    have hst := (bare_kind hb).2.2.2.2.2
    rw [hst]
    refine Rel.ite (fun _ => ⟨rfl, rfl, rfl, .inr ⟨rfl, rfl, rfl, h0, hF⟩⟩) fun _ => ?_
    rw [hF.toRen.result hb]
    refine Rel.bind_same fun st' _ => ⟨rfl, rfl, rfl, .inl ⟨rfl, rfl, rfl, ?_⟩⟩
    obtain ⟨i, hob, _⟩ := Ren.op_obj ho
    have hm := hF.toRen.obj_mem hs hob
    have h1 : h ≠ 1 := fun e => by
      obtain ⟨c, hc⟩ := hF.world.1 hi
      rw [e] at hm
      have := (hF.ok.left hm hc).2
      cases this
    exact hF.drop hi hm h1 (fun t ht => nomatch ht) rfl rfl rfl rfl rfl rfl rfl rfl

theorem wait (hi : M.L.inited = true) (hs : Same l h h') (st : StPtr) :
    (M.wait h st).Rel (fun x y => x.2 = y.2 ∧ x.2.1 = 0 ∧ x.1.L.inited = M.L.inited ∧ Full (l.without h) x.1 y.1) (N.wait h' st) := by
  unfold Mach.wait
  refine Rel.bind (hF.test hi hs st) fun x y _ _ ⟨h1, h2, h4, h3⟩ => ?_
  rw [h1]
  refine Rel.ite (fun _ => rfl) fun hf => ?_
  rcases h3 with ⟨q1, q2, q3, q4⟩ | ⟨q1, q2, q3, _⟩
  · refine ⟨?_, q1, h4, q4⟩
    dsimp only
    rw [q1, q2, h2]
  · rw [h1] at q3
    exact absurd q3 hf

theorem send {b n t t' d g c c' : Int} (hi : M.L.inited = true) (ht : Same l t t') (hty : IsType env M.L t) (hc : Same l c c') :
    (M.send env b n t d g c).Rel (fun x y => x.L.inited = true ∧ Full l x y) (N.send env b n t' d g c') := by
  unfold Mach.send
  refine Rel.bind (hF.isend hi ht hty hc) fun x y hx _ ⟨_, _, h1, o, h2⟩ => ?_
  obtain ⟨x, a⟩ := x
  obtain ⟨y, a'⟩ := y
  dsimp only at h1 h2 ⊢
  have hi' : x.L.inited = true := by
    cases hb : x.L.inited with
    | true => rfl
    | false => have := h2.world.2 hb; cases this
  refine Rel.bind (h2.wait hi' (.inr ⟨_, List.mem_cons_self ..⟩) _) fun x y _ _ ⟨_, _, q1, q2⟩ => ?_
  rw [Pairs.without_cons h1.1] at q2
  exact ⟨q1.trans hi', q2⟩

theorem irsend {b n t t' d g c c' : Int} (hi : M.L.inited = true) (ht : Same l t t') (hty : IsType env M.L t) (hc : Same l c c') :
    (M.irsend env b n t d g c).Rel (New l) (N.irsend env b n t' d g c') := by
  unfold Mach.irsend
  refine Rel.bind (hF.isend hi ht hty hc) fun x y hx _ h => ?_
  obtain ⟨x, a⟩ := x
  obtain ⟨y, a'⟩ := y
  obtain ⟨_, _, h1, o, h2⟩ := id h
  dsimp only at h1 h2 ⊢
  refine Rel.bind (h2.op (.inr ⟨_, List.mem_cons_self ..⟩)) fun o o' _ _ hb => ?_
  rw [(bare_kind hb).2.2.2.2.2]
  exact Rel.ite (fun _ => rfl) fun _ => h

theorem recv {b n t t' d g c c' : Int} (hi : M.L.inited = true) (ht : Same l t t') (hty : IsType env M.L t) (hc : Same l c c') (st : StPtr) :
    (M.recv env b n t d g c st).Rel (fun x y => x.2 = y.2 ∧ Full l x.1 y.1) (N.recv env b n t' d g c' st) := by
  unfold Mach.recv
  refine Rel.bind (hF.irecv hi ht hty hc) fun x y hx _ ⟨_, _, h1, o, h2⟩ => ?_
  obtain ⟨x, a⟩ := x
  obtain ⟨y, a'⟩ := y
  dsimp only at h1 h2 ⊢
  have hi' : x.L.inited = true := by
    cases hb : x.L.inited with
    | true => rfl
    | false => have := h2.world.2 hb; cases this
  refine Rel.bind (h2.wait hi' (.inr ⟨_, List.mem_cons_self ..⟩) _) fun x y _ _ ⟨q0, _, q1, q2⟩ => ?_
  rw [Pairs.without_cons h1.1] at q2
  obtain ⟨x, r, s⟩ := x
  obtain ⟨y, r', s'⟩ := y
  cases q0
  dsimp only at q2 ⊢
  cases s
  · exact ⟨rfl, q2⟩
  · exact ⟨rfl, q2⟩
  · rfl

theorem sendrecv {b n t t' d g b' n' u u' d' g' c c' : Int} (hi : M.L.inited = true) (ht : Same l t t') (hty : IsType env M.L t)
    (hu : Same l u u') (huy : IsType env M.L u) (hc : Same l c c') (st : StPtr) :
    (M.sendrecv env b n t d g b' n' u d' g' c st).Rel (fun x y => x.2 = y.2 ∧ Full l x.1 y.1) (N.sendrecv env b n t' d g b' n' u' d' g' c' st) := by
  unfold Mach.sendrecv
  refine Rel.bind (hF.irecv hi hu huy hc) fun x y hx _ ⟨_, _, h1, o, h2⟩ => ?_
  obtain ⟨x, a⟩ := x
  obtain ⟨y, a'⟩ := y
  dsimp only at h1 h2 ⊢
  have hi' : x.L.inited = true := by
    cases hb : x.L.inited with
    | true => rfl
    | false => have := h2.world.2 hb; cases this
  have hty' : IsType env x.L t := by
    obtain ⟨τ, hd⟩ := hty
    refine ⟨τ, ?_⟩
    rw [← hd, desc_obj, desc_obj]
    have e : M.obj t = x.obj t := by
      rcases ht with ⟨_, hp⟩ | ⟨o', hm⟩
      · rw [(hF.toRen.obj_none hp).1, (h2.toRen.obj_none hp).1]
      · rw [hF.toRen.obj_left hm, h2.toRen.obj_left (List.mem_cons_of_mem _ hm)]
    rw [e]
  refine Rel.bind (h2.send hi' ht.cons hty' hc.cons) fun x y _ _ ⟨k1, k2⟩ => ?_
  refine Rel.bind (k2.wait k1 (.inr ⟨_, List.mem_cons_self ..⟩) _) fun x y _ _ ⟨q0, _, q1, q2⟩ => ?_
  rw [Pairs.without_cons h1.1] at q2
  obtain ⟨x, r, s⟩ := x
  obtain ⟨y, r', s'⟩ := y
  cases q0
  exact ⟨rfl, q2⟩

theorem iprobe {c c' : Int} (hc : Same l c c') (d g : Int) (st : StPtr) : M.iprobe d g c st = N.iprobe d g c' st := by
  unfold Mach.iprobe
  split
  · rfl
  · rw [hF.cid hc]
    refine Res.bind_congr fun q _ => ?_
    rw [hF.partner]
    split
    · rfl
    · next j _ =>
      rcases getElem_bare hF.ops (i := j) with ⟨q1, q2⟩ | ⟨o, o', q1, q2, q3⟩
      · rw [q1, q2]
      · rw [q1, q2]
        dsimp only
        rw [(bare_kind q3).2.2.1]

theorem probe {c c' : Int} (hc : Same l c c') (d g : Int) (st : StPtr) : M.probe d g c st = N.probe d g c' st := by
  unfold Mach.probe
  rw [hF.iprobe hc]

end Full
end MpiSerial
