import Verif.Proofs.ComposeLib
import Verif.Proofs.Blocking
import Verif.Spec.Messages
import Verif.Props.Coll

/-!
# A message to oneself on a private communicator
-/

set_option linter.unusedSimpArgs false
set_option autoImplicit false

namespace MpiSerial

/-- Only `x` denotes its communicator, and nothing waits on it. -/
def Private (M : Mach) (x : Int) : Prop := ∃ p, (x, Obj.comm p) ∈ M.L.objs ∧ (∀ h, (h, Obj.comm p) ∈ M.L.objs → h = x) ∧
  ∀ o ∈ M.L.ops, o.st = .pending → o.cid ≠ p

theorem Private.move {U W : Int → Prop} {M M' : Mach} {x : Int} (hx : Private M x) (hs : Sane M) (hU : ¬ U x) (hW : ¬ W x)
    (h : Move U W M M') : Private M' x := by
  obtain ⟨p, h1, h2, h3⟩ := hx
  -- a new handle
  have grow : ∀ {L : Ledger} {y : Int} {o : Obj} {P : Pool} {m : Mem} {b : Nat}, L.objs = (y, o) :: M.L.objs → o ≠ .comm p →
      (∀ q ∈ L.ops, q.st = .pending → q ∈ M.L.ops ∨ q.cid ≠ p) → Private ⟨L, P, m, b⟩ x := by
    intro L y o P m b e1 e2 e3
    refine ⟨p, by dsimp only; rw [e1]; exact List.mem_cons_of_mem _ h1, fun h hm => ?_, fun q hq hst => ?_⟩
    · dsimp only at hm
      rw [e1] at hm
      rcases List.mem_cons.1 hm with he | hm
      · exact absurd (Prod.mk.inj he).2.symm e2
      · exact h2 h hm
    · rcases e3 q hq hst with h4 | h4
      · exact h3 q h4 hst
      · exact h4
  -- a handle goes
  have gone : ∀ {L : Ledger} {y : Int} {P : Pool} {m : Mem} {b : Nat}, L.objs = (M.L.release y).objs → L.ops = M.L.ops → y ≠ x →
      Private ⟨L, P, m, b⟩ x := by
    intro L y P m b e1 e2 e3
    have hsub : ∀ e, e ∈ L.objs ↔ e ∈ M.L.objs ∧ e.1 ≠ y := fun e => by
      rw [e1]
      unfold Ledger.release
      dsimp only
      rw [List.mem_filter, decide_eq_true_eq]
    exact ⟨p, (hsub _).2 ⟨h1, fun e => e3 e.symm⟩, fun h hm => h2 h ((hsub _).1 hm).1, fun q hq => h3 q (e2 ▸ hq)⟩
  cases h with
  | memory m => exact ⟨p, h1, h2, h3⟩
  | comm ht =>
    refine grow rfl (fun e => ?_) fun q hq _ => .inl hq
    have h4 := hs.comms _ _ h1
    have h5 := Obj.comm.inj e
    omega
  | type t ht => exact grow rfl (fun e => nomatch e) fun q hq _ => .inl hq
  | postNull k g b n t ht =>
    refine grow rfl (fun e => nomatch e) fun q hq hst => ?_
    rcases List.mem_append.1 (show q ∈ M.L.ops ++ [_] from hq) with hq | hq
    · exact .inl hq
    · rcases List.mem_singleton.1 hq with rfl
      cases hst
  | @post y P k c g b n t z m ht hz hw hty htu =>
    refine grow (post_objs_eq ..) (fun e => nomatch e) fun q hq hst => ?_
    rcases (post_ops_cases hq).1 hst with h4 | h4
    · exact .inl h4
    · refine .inr fun e => hW ?_
      have := h2 z (by rw [← e, h4.1]; exact hz)
      rw [← this]
      exact hw
  | @release y o hm h4 h5 _ => exact gone rfl rfl fun e => hU (e ▸ h5)
  | @freeComm y c hm h4 h5 => exact gone rfl rfl fun e => hU (e ▸ h5)
  | @commit y t hm h5 =>
    refine ⟨p, commit_mem.2 (.inr ⟨h1, fun _ _ e => nomatch e⟩), fun h hm => ?_, h3⟩
    rcases commit_mem.1 hm with ⟨_, _, _, e⟩ | hm
    · cases e
    · exact h2 h hm.1

theorem Private.moves {U W : Int → Prop} {M M' : Mach} {x : Int} (hx : Private M x) (hs : Sane M) (hU : ¬ U x) (hW : ¬ W x)
    (h : Moves U W M M') : Private M' x := by
  have : Sane M' ∧ Private M' x := by
    induction h with
    | nil => exact ⟨hs, hx⟩
    | snoc _ h ih => exact ⟨h.sane ih.1, ih.2.move ih.1 hU hW h⟩
  exact this.2

/-! ## The message -/

/-- `M'` is `M` after something that is over: other free numbers, and operations more that wait for nothing. -/
structure Over (M M' : Mach) : Prop where
  objs : M'.L.objs = M.L.objs
  ops : ∃ os : List Op, M'.L.ops = M.L.ops ++ os ∧ ∀ o ∈ os, o.st ≠ .pending
  ncomms : M'.L.ncomms = M.L.ncomms
  mem : M'.mem = M.mem
  built : M'.built = M.built

theorem Mach.obj_of_ne {M M' : Mach} {h : Int} {o : Obj} (he : M'.L.objs = (h, o) :: M.L.objs) {y : Int} (hy : y ≠ h) : M'.obj y = M.obj y := by
  unfold Mach.obj
  rw [he, List.find?_cons_of_neg (by simpa using fun e : h = y => hy e.symm)]

theorem Mach.obj_new {M : Mach} {h : Int} {o : Obj} {l : List (Int × Obj)} (he : M.L.objs = (h, o) :: l) : M.obj h = some o := by
  unfold Mach.obj
  rw [he, List.find?_cons_of_pos (by simp)]
  rfl

theorem Mach.type_of_ne {env : Env} {M M' : Mach} {h : Int} {o : Obj} (he : M'.L.objs = (h, o) :: M.L.objs) {y : Int} (hy : y ≠ h) :
    M'.type env y = M.type env y := by
  unfold Mach.type
  rw [desc_obj, desc_obj, Mach.obj_of_ne he hy]

theorem partner_none {L : Ledger} {p : Nat} (h : ∀ o ∈ L.ops, o.st = .pending → o.cid ≠ p) (k : Kind) (g : Int) : L.partner p k g = none := by
  unfold Ledger.partner
  rw [List.findIdx?_eq_none_iff]
  intro q hq
  cases hw : q.waits p k g with
  | false => rfl
  | true =>
    unfold Op.waits at hw
    rw [Bool.and_eq_true, decide_eq_true_eq] at hw
    exact absurd hw.1.2.1 (h q hq hw.1.2.2)

theorem filter_new {l : List (Int × Obj)} {h : Int} (hn : ∀ e ∈ l, e.1 ≠ h) : l.filter (fun e => decide (e.1 ≠ h)) = l :=
  List.filter_eq_self.2 fun e he => decide_eq_true (hn e he)

theorem modify_last {α : Type} (f : α → α) (a : α) : ∀ l : List α, (l ++ [a]).modify l.length f = l ++ [f a]
  | [] => rfl
  | b :: l => by
    show (b :: (l ++ [a])).modify (l.length + 1) f = _
    rw [List.modify_succ_cons, modify_last f a l]
    rfl

/-- The outcome of a message on a private communicator, given the outcome of the move of data it makes: there are no handle
numbers for it, or the outcome is the same but for what is over. -/
theorem Mach.message {env : Env} {M : Mach} {x : Int} (hs : Sane M) (hx : Private M x) {t u : Int} (ht : IsType env M.L t) (hu : IsType env M.L u)
    (tag a n b k : Int) :
    M.answer env (.sendrecv a n t 0 tag b k u 0 tag x .null) = .abort exhausted ∨
    (∃ M1 M2, M.copy env a n t b k u = .ok M1 ∧ M.answer env (.sendrecv a n t 0 tag b k u 0 tag x .null) = .ok (M2, ⟨[], []⟩) ∧ Over M1 M2 ∧ Sane M2) ∨
    ((∀ M1, M.copy env a n t b k u ≠ .ok M1) ∧ (∀ z, M.answer env (.sendrecv a n t 0 tag b k u 0 tag x .null) ≠ .ok z) ∧
      (M.answer env (.sendrecv a n t 0 tag b k u 0 tag x .null)).fate = (M.copy env a n t b k u).fate) := by
  obtain ⟨p, hp1, hp2, hp3⟩ := hx
  have hty : HasType M.L t := ht.has
  have huy : HasType M.L u := hu.has
  have ex : M.answer env (.sendrecv a n t 0 tag b k u 0 tag x .null) = Mach.oneStatus (M.sendrecv env a n t 0 tag b k u 0 tag x .null) := rfl
  rw [ex]
  have hcid : ∀ Q : Mach, (Q.L.objs.map Prod.fst).Nodup → (x, Obj.comm p) ∈ Q.L.objs → Q.cid x = .ok p := fun Q hk hm => by
    unfold Mach.cid
    rw [Mach.obj_eq hk hm]
  unfold Mach.sendrecv Mach.irecv
  rw [if_neg (by decide)]
  cases h1 : M.pool.take with
  | none =>
    left
    unfold Mach.fresh
    rw [h1]
    rfl
  | some z =>
  obtain ⟨h, P⟩ := z
  have hfr : M.fresh = .ok ({ M with pool := P }, h) := by unfold Mach.fresh; rw [h1]
  obtain ⟨s1, s2, s3, s4⟩ := hs.taken h1
  have hnew : ∀ e ∈ M.L.objs, e.1 ≠ h := fun e he hh => s4 ⟨e.2, by rw [← hh]; exact he⟩
  have hth : ∀ {y : Int}, HasType M.L y → y ≠ h := fun hy e => by
    subst e
    rcases hy with hy | ⟨d, hy⟩
    · omega
    · exact hnew _ hy rfl
  rw [hfr]
  simp only [Res.ok_bind, if_neg (show ¬ (0 : Int) = MPI_PROC_NULL by decide)]
  rw [hcid { M with pool := P } hs.keys hp1]
  simp only [Res.ok_bind]
  rw [show ({ M with pool := P } : Mach).L = M.L from rfl, partner_none hp3]
  dsimp only
  simp only [Res.pure_eq, Res.ok_bind]
  -- the receive is posted
  have hM1 : ∃ M1, M1 = (⟨M.L.post .recv p tag b k u h, P, M.mem, M.built⟩ : Mach) := ⟨_, rfl⟩
  obtain ⟨M1, hM1⟩ := hM1
  have hs1 : Sane M1 := by
    rw [hM1]
    exact (Move.post (U := fun _ => True) (W := fun _ => True) .recv tag b k M.mem h1 hp1 trivial huy (.inr trivial)).sane hs
  have ho1 : M1.L.objs = (h, .req M.L.ops.length) :: M.L.objs := by rw [hM1]; dsimp only; rw [Ledger.post_none (partner_none hp3 _ _)]
  have hops1 : M1.L.ops = M.L.ops ++ [⟨.recv, p, tag, b, k, u, h, .pending⟩] := by rw [hM1]; dsimp only; rw [Ledger.post_none (partner_none hp3 _ _)]
  have hp1' : (x, Obj.comm p) ∈ M1.L.objs := by rw [ho1]; exact List.mem_cons_of_mem _ hp1
  have hpart : M1.L.partner p .send tag = some M.L.ops.length := by
    rw [hM1]
    exact partner_after_recv (partner_none hp3 _ _) (partner_none hp3 _ _) (by simp [accepts])
  have hnc1 : M1.L.ncomms = M.L.ncomms := by rw [hM1]; exact (post_rest ..).1
  rw [show ({ L := M.L.post .recv p tag b k u h, pool := P, mem := M.mem, built := M.built } : Mach) = M1 from hM1.symm]
  have hmem1 : M1.mem = M.mem := by rw [hM1]
  have hbt1 : M1.built = M.built := by rw [hM1]
  have hpool1 : M1.pool = P := by rw [hM1]
  clear hM1
  unfold Mach.send Mach.isend
  rw [if_neg (by decide)]
  cases h2 : M1.pool.take with
  | none =>
    left
    unfold Mach.fresh
    rw [h2]
    rfl
  | some z =>
  obtain ⟨h', P'⟩ := z
  have hfr' : M1.fresh = .ok ({ M1 with pool := P' }, h') := by unfold Mach.fresh; rw [h2]
  obtain ⟨r1, r2, r3, r4⟩ := hs1.taken h2
  have hnew' : ∀ e ∈ M1.L.objs, e.1 ≠ h' := fun e he hh => r4 ⟨e.2, by rw [← hh]; exact he⟩
  rw [hfr']
  simp only [Res.ok_bind, if_neg (show ¬ (0 : Int) = MPI_PROC_NULL by decide)]
  rw [hcid { M1 with pool := P' } hs1.keys hp1']
  simp only [Res.ok_bind]
  rw [show ({ M1 with pool := P' } : Mach).L = M1.L from rfl, hpart]
  dsimp only
  have hget : M1.L.ops[M.L.ops.length]? = some ⟨.recv, p, tag, b, k, u, h, .pending⟩ := by rw [hops1]; exact List.getElem?_concat_length
  rw [hget]
  dsimp only
  -- the data moves
  obtain ⟨dt, ht'⟩ := ht
  obtain ⟨du, hu'⟩ := hu
  have et : M.type env t = .ok dt := by unfold Mach.type; rw [ht']
  have eu : M.type env u = .ok du := by unfold Mach.type; rw [hu']
  have et' : ({ M1 with pool := P' } : Mach).type env t = .ok dt := (Mach.type_of_ne (M := M) ho1 (hth hty)).trans et
  have eu' : ({ M1 with pool := P' } : Mach).type env u = .ok du := (Mach.type_of_ne (M := M) ho1 (hth huy)).trans eu
  right
  unfold Mach.copy
  rw [et, eu, et', eu']
  simp only [Res.ok_bind]
  rw [show ({ M1 with pool := P' } : Mach).mem = M.mem from hmem1]
  cases hcp : Pcopy_data2 env.cfg M.mem a n dt b k du with
  | ok m =>
    left
    simp only [Res.ok_bind, Res.pure_eq]
    refine ⟨{ M with mem := m }, ?_⟩
    -- the message is sent
    have hM2 : ∃ M2, M2 = (⟨M1.L.post .send p tag a n t h', P', m, M1.built⟩ : Mach) := ⟨_, rfl⟩
    obtain ⟨M2, hM2⟩ := hM2
    have hs2 : Sane M2 := by
      rw [hM2]
      exact (Move.post (U := fun _ => True) (W := fun _ => True) .send tag a n m h2 hp1' trivial
        (hty.mono fun d hd => ⟨d, by rw [ho1]; exact List.mem_cons_of_mem _ hd⟩) (.inr trivial)).sane hs1
    have ho2 : M2.L.objs = (h', .req (M.L.ops.length + 1)) :: (h, .req M.L.ops.length) :: M.L.objs := by
      rw [hM2]
      dsimp only
      rw [Ledger.post_some hpart]
      dsimp only
      rw [ho1, hops1, List.length_append, List.length_singleton]
    have hops2 : M2.L.ops = M.L.ops ++ [⟨.recv, p, tag, b, k, u, h, .matched (M.L.ops.length + 1)⟩, ⟨.send, p, tag, a, n, t, h', .matched M.L.ops.length⟩] := by
      rw [hM2]
      dsimp only
      rw [Ledger.post_some hpart]
      dsimp only
      rw [hops1, List.length_append, List.length_singleton]
      unfold Ledger.settle
      rw [modify_last, List.append_assoc]
      rfl
    have hnc2 : M2.L.ncomms = M.L.ncomms := by rw [hM2]; exact (post_rest ..).1.trans hnc1
    rw [show ({ L := M1.L.post .send p tag a n t h', pool := P', mem := m, built := M1.built } : Mach) = M2 from hM2.symm]
    have hmem2 : M2.mem = m := by rw [hM2]
    have hbt2 : M2.built = M.built := by rw [hM2]; exact hbt1
    clear hM2
    have hne : h ≠ h' := fun e => hnew' (h, _) (by rw [ho1]; exact List.mem_cons_self ..) e
    -- both are over
    have wait1 : M2.wait h' (.obj ⟨0, 0, 0, 0⟩) = .ok (M2.release h', 0, .obj ⟨0, 0, 0, 0⟩) := by
      unfold Mach.wait Mach.test Mach.op
      rw [if_neg (show ¬ h' = MPI_REQUEST_NULL by omega), Mach.obj_new ho2]
      dsimp only
      rw [hops2, List.getElem?_append_right (by omega), show M.L.ops.length + 1 - M.L.ops.length = 1 by omega]
      rfl
    rw [wait1]
    simp only [Res.ok_bind, Res.pure_eq]
    have hm1 : (h', Obj.req (M.L.ops.length + 1)) ∈ M2.L.objs := by rw [ho2]; exact List.mem_cons_self ..
    have hs3 : Sane (M2.release h') :=
      (Move.release (U := fun _ => True) (W := fun _ => True) hm1 (by omega) trivial fun _ e => nomatch e).sane hs2
    have ho3 : (M2.release h').L.objs = (h, .req M.L.ops.length) :: M.L.objs := by
      show M2.L.objs.filter _ = _
      rw [ho2, List.filter_cons_of_neg (by simp), ← ho1]
      exact filter_new hnew'
    have wait2 : (M2.release h').wait h .null = .ok ((M2.release h').release h, 0, .null) := by
      unfold Mach.wait Mach.test Mach.op
      rw [if_neg (show ¬ h = MPI_REQUEST_NULL by omega), Mach.obj_new ho3]
      dsimp only
      rw [show (M2.release h').L.ops = M2.L.ops from rfl, hops2, List.getElem?_append_right (Nat.le_refl _), Nat.sub_self]
      rfl
    rw [wait2]
    have hm2 : (h, Obj.req M.L.ops.length) ∈ (M2.release h').L.objs := by rw [ho3]; exact List.mem_cons_self ..
    refine ⟨(M2.release h').release h, trivial, rfl, ⟨?_, ⟨_, hops2, ?_⟩, hnc2, hmem2, hbt2⟩,
      (Move.release (U := fun _ => True) (W := fun _ => True) hm2 (by omega) trivial fun _ e => nomatch e).sane hs3⟩
    · show (M2.release h').L.objs.filter _ = _
      rw [ho3, List.filter_cons_of_neg (by simp)]
      exact filter_new hnew
    · intro o ho
      rcases List.mem_cons.1 ho with rfl | ho
      · exact nofun
      · rcases List.mem_singleton.1 ho with rfl
        exact nofun
  | _ => exact .inr ⟨nofun, nofun, rfl⟩

end MpiSerial
