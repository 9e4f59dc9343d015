import Verif.Spec.FrameExact
import Verif.Proofs.Frame

/-!
# Bytes that calls leave alone, with no limit on addresses
-/

set_option linter.unusedSimpArgs false
set_option autoImplicit false

namespace MpiSerial

open Spec
open Res (Post)

theorem displ_lands (b d e : Int) : DisplLands b d e (padd b (displOffset d (u64 e))) := by
  unfold displOffset
  rw [u64_mul_left, u64_mul_right, s32_u64]
  refine ⟨s32 (d * e), ?_, ?_, ?_, rfl⟩
  all_goals unfold s32; omega

/-- Frame of a typed copy. -/
theorem pcopy_frame_lands {cfg : Cfg} {m m' : Mem} {source sc dest dc : Int} {st dt : Typestruct} (hd : dt.WF)
    (h : Pcopy_data2 cfg m source sc st dest dc dt = .ok m') {a : Int}
    (ha : ∀ e x, ExtentIs cfg dt e → x ∈ repeated (typeMap dt) e dc.toNat dest → ¬ InBytes a (landing dest x.1) (sz cfg x.2)) :
    m' a = m a := by
  have h0 := h
  unfold Pcopy_data2 at h0
  split at h0
  · cases h0
  · obtain ⟨x, _, h0⟩ := Res.bind_eq_ok.1 h0
    obtain ⟨y, _, h0⟩ := Res.bind_eq_ok.1 h0
    split at h0
    · cases h0
    · obtain ⟨_, _, h0⟩ := Res.bind_eq_ok.1 h0
      obtain ⟨v, hv, _⟩ := Res.bind_eq_ok.1 h0
      obtain ⟨e, he, rfl⟩ := extentIs_of_ok hv
      refine C31_frame_exact hd hv h a fun x hx => ?_
      obtain ⟨y, hy, rfl⟩ := List.mem_map.1 hx
      exact ha e y he hy

theorem packEntries_lands {cfg : Cfg} (hc : cfg.Ok) {t : Typestruct} {inbuf ext outbuf outsize p0 : Int} {i : Nat} {a : Int}
    (ha : ¬ ∃ p n, p0 ≤ p ∧ p + n ≤ outsize ∧ InBytes a ((outbuf + p) % 18446744073709551616) n) :
    ∀ (n j : Nat) (m m' : Mem) (p p' : Int), p0 ≤ p →
      packEntries cfg inbuf t ext outbuf outsize i n j (m, p) = .ok (m', p') → p0 ≤ p' ∧ m' a = m a := by
  intro n
  induction n with
  | zero => intro j m m' p p' hp h; cases h; exact ⟨hp, rfl⟩
  | succ n ih =>
    intro j m m' p p' hp h
    unfold packEntries at h
    obtain ⟨q, _, h⟩ := Res.bind_eq_ok.1 h
    obtain ⟨len, hl, h⟩ := Res.bind_eq_ok.1 h
    have hlen := lenOf_range hc (hasLen_of_ok hl).1
    rw [(hasLen_of_ok hl).2] at hlen
    obtain ⟨e, he, h⟩ := Res.bind_eq_ok.1 h
    obtain ⟨_, rfl⟩ := ck32_eq_ok.1 he
    split at h
    · cases h
    · rename_i hle
      obtain ⟨m1, hm1, h⟩ := Res.bind_eq_ok.1 h
      obtain ⟨h3, h4⟩ := ih (j + 1) m1 m' _ p' (by omega) h
      refine ⟨h3, h4.trans ((memcpy_inv hm1).2.1 a ?_)⟩
      intro hin
      refine ha ⟨p, len, hp, by omega, ?_⟩
      unfold InBytes at hin ⊢
      unfold padd at hin
      omega

theorem pack_lands {cfg : Cfg} (hc : cfg.Ok) {t : Typestruct} {inbuf n outbuf outsize p0 p' : Int} {m m' : Mem} {a : Int}
    (ha : ¬ ∃ p n, p0 ≤ p ∧ p + n ≤ outsize ∧ InBytes a ((outbuf + p) % 18446744073709551616) n)
    (h : Pack cfg m inbuf n t outbuf outsize p0 = .ok (m', p')) : m' a = m a := by
  have key : ∀ (ext : Int) (k i : Nat) (m m' : Mem) (p p' : Int), p0 ≤ p →
      packLoop cfg inbuf t ext outbuf outsize k i (m, p) = .ok (m', p') → m' a = m a := by
    intro ext k
    induction k with
    | zero => intro i m m' p p' _ h; cases h; rfl
    | succ k ih =>
      intro i m m' p p' hp h
      unfold packLoop at h
      obtain ⟨⟨m1, p1⟩, hm1, h⟩ := Res.bind_eq_ok.1 h
      obtain ⟨h3, h4⟩ := packEntries_lands hc ha _ _ _ _ _ _ hp hm1
      exact (ih (i + 1) m1 m' p1 p' h3 h).trans h4
  unfold Pack at h
  obtain ⟨ext, _, h⟩ := Res.bind_eq_ok.1 h
  exact key ext _ _ _ _ _ _ (Int.le_refl _) h

theorem unpackEntries_lands {cfg : Cfg} {t : Typestruct} {inbuf insize outbuf e : Int} {i : Nat} {a : Int}
    (ha : ∀ x ∈ shift (outbuf + i * e) (typeMap t), ¬ InBytes a (x.1 % 18446744073709551616) (sz cfg x.2)) :
    ∀ (n j : Nat), n + j = (typeMap t).length → ∀ (m m' : Mem) (p p' : Int),
      unpackEntries cfg inbuf insize outbuf t (u64 e) i n j (m, p) = .ok (m', p') → m' a = m a := by
  intro n
  induction n with
  | zero => intro j _ m m' p p' h; cases h; rfl
  | succ n ih =>
    intro j hj m m' p p' h
    obtain ⟨q, hq, hdrop⟩ := typeMap_drop (t := t) (n := n) hj
    have hmem : (q.disp, q.type) ∈ typeMap t := by
      apply List.mem_of_mem_drop (i := j); rw [hdrop]; exact List.mem_cons_self ..
    have hin : (q.disp + (outbuf + i * e), q.type) ∈ shift (outbuf + i * e) (typeMap t) := List.mem_map.2 ⟨_, hmem, rfl⟩
    have hna := ha _ hin
    dsimp only at hna
    unfold unpackEntries at h
    rw [hq, Res.ok_bind] at h
    obtain ⟨len, hl, h⟩ := Res.bind_eq_ok.1 h
    obtain ⟨e', _, h⟩ := Res.bind_eq_ok.1 h
    split at h
    · cases h
    · obtain ⟨m1, hm1, h⟩ := Res.bind_eq_ok.1 h
      refine (ih (j + 1) (by omega) m1 m' _ p' h).trans ((memcpy_inv hm1).2.1 a ?_)
      have hpad : padd (padd outbuf q.disp) (u64 (u64 e * i)) = (q.disp + (outbuf + i * e)) % 18446744073709551616 := by
        rw [u64_mul_left, Int.mul_comm e]
        unfold padd u64; omega
      rw [hpad]
      have hl2 := (hasLen_of_ok hl).2
      intro hin2
      apply hna
      unfold InBytes at hin2 ⊢
      rw [show sz cfg q.type = len from hl2]
      omega

theorem unpack_lands {cfg : Cfg} {t : Typestruct} (ht : t.WF) {inbuf insize p0 outbuf n p' : Int} {m m' : Mem} {a : Int}
    (ha : ∀ e x, ExtentIs cfg t e → x ∈ repeated (typeMap t) e n.toNat outbuf →
      ¬ InBytes a (x.1 % 18446744073709551616) (sz cfg x.2))
    (h : Unpack cfg m inbuf insize p0 outbuf n t = .ok (m', p')) : m' a = m a := by
  unfold Unpack at h
  obtain ⟨v, hv, h⟩ := Res.bind_eq_ok.1 h
  obtain ⟨e, he, rfl⟩ := extentIs_of_ok hv
  have ha := fun x => ha e x he
  have hcount : t.count.toNat = (typeMap t).length := by
    have := ht.map_length
    unfold typeMap; rw [List.length_map]; exact (by omega : t.count.toNat = t.map.length)
  have key : ∀ (k i : Nat), k + i = n.toNat → ∀ (m m' : Mem) (p p' : Int),
      unpackLoop cfg inbuf insize outbuf t (u64 e) k i (m, p) = .ok (m', p') → m' a = m a := by
    intro k
    induction k with
    | zero => intro i _ m m' p p' h; cases h; rfl
    | succ k ih =>
      intro i hi m m' p p' h
      have hsub : ∀ x ∈ shift (outbuf + i * e) (typeMap t), x ∈ repeated (typeMap t) e n.toNat outbuf := by
        intro x hx
        unfold repeated
        exact List.mem_flatMap.2 ⟨i, List.mem_range.2 (by omega), hx⟩
      unfold unpackLoop at h
      obtain ⟨⟨m1, p1⟩, hm1, h⟩ := Res.bind_eq_ok.1 h
      exact (ih (i + 1) (by omega) m1 m' p1 p' h).trans
        (unpackEntries_lands (fun x hx => ha x (hsub x hx)) _ 0 (by omega) _ _ _ _ hm1)
  exact key _ 0 (by omega) _ _ _ _ h

section
variable {env : Env} {s s' : Sys} {L L' : Ledger} {a : Int}

theorem pcopy_lands (ht : Tidy env L) {b n h : Int} {st dt : Typestruct} {m m' : Mem} {source sc : Int}
    (hd : L.desc env.cfg h = some dt) (hn : ¬ Lands env L b n h a)
    (hc : Pcopy_data2 env.cfg m source sc st b n dt = .ok m') : m' a = m a :=
  pcopy_frame_lands (ht.types _ _ hd) hc fun e x he hx hin => hn ⟨dt, e, x, hd, he, hx, hin⟩

theorem copy_lands (hr : Reach env s L) (ht : Tidy env L) {st rt : Int} (h1 : IsType env L st) (h2 : IsType env L rt)
    {sb sn rb rn : Int} (hok : copy_data2 env s sb sn st rb rn rt = .ok s')
    (hn : ¬ Lands env L rb rn rt a) : s'.mem a = s.mem a := by
  obtain ⟨M, lst, hi⟩ := hr.inv
  obtain ⟨ts, h1⟩ := h1
  obtain ⟨tr, h2⟩ := h2
  obtain ⟨pa, a1, a2⟩ := typeOf_desc hi.hst hi.typesOk h1
  obtain ⟨pb, b1, b2⟩ := typeOf_desc hi.hst hi.typesOk h2
  unfold copy_data2 at hok
  rw [a1, Res.ok_bind] at hok
  dsimp only at hok
  rw [b1, Res.ok_bind] at hok
  dsimp only at hok
  rw [a2, Res.ok_bind, b2, Res.ok_bind] at hok
  obtain ⟨m, hm, hok⟩ := Res.bind_eq_ok.1 hok
  cases hok
  exact pcopy_lands ht h2 hn hm

/-- What may change when an operation is posted. -/
theorem post_lands (hr : Reach env s L) (ht : Tidy env L) {k : Kind} {c : Nat} {comm tag buf count dtype h : Int}
    {r : Res (Sys × Int)} {M : AbsLists Loc} {lst : Nat → Kind → Nat} (hi : Inv s L M lst)
    (hcm : (comm, Obj.comm c) ∈ L.objs) (hps : PostSpec env s L lst k c tag buf count dtype r) (hty : IsType env L dtype)
    (hok : r = .ok (s', h))
    (hns : k = .send → ∀ o, GoesTo L comm tag o → ¬ Lands env L o.buf o.count o.dtype a)
    (hnr : k = .recv → Finds L comm tag → ¬ Lands env L buf count dtype a) : s'.mem a = s.mem a := by
  obtain ⟨_, _, _, h4⟩ := posted hi hcm hps hok
  rcases h4 with ⟨_, h4, _⟩ | ⟨j, o, hp, hj, _, _, _, _, _, hX⟩
  · rw [h4]
  · obtain ⟨o1, hE⟩ := partner_earliest hp
    have := hE.1
    rw [hj] at this
    cases this
    obtain ⟨t, hd⟩ := hty
    have hfl : InFlight L o := ⟨List.mem_of_getElem? hj, hE.2.1.2.2, comm, hE.2.1.2.1 ▸ hcm⟩
    cases k with
    | send =>
      obtain ⟨t', hd'⟩ := ht.inflight o hfl hE.2.1.1
      have hX := hX t t' hd (by rw [if_pos rfl]; exact hd')
      rw [if_pos rfl] at hX
      have hg : GoesTo L comm tag o := ⟨c, j, hcm, hE⟩
      exact pcopy_lands ht hd' (hns rfl o hg) hX
    | recv =>
      have hX := hX t t hd (by rw [if_neg (by simp)]; exact hd)
      rw [if_neg (by simp)] at hX
      have hg : Finds L comm tag := ⟨c, j, o, hcm, hE⟩
      exact pcopy_lands ht hd (hnr rfl hg) hX

theorem isend_lands (hr : Reach env s L) (ht : Tidy env L) {buf count dtype dest tag comm h : Int}
    (ha : P2PArgs env L dtype dest comm) (hu : L.unmatched < 2147483647)
    (hok : MPI_Isend env s buf count dtype dest tag comm = .ok (s', h))
    (hn : dest = 0 → ∀ o, GoesTo L comm tag o → ¬ Lands env L o.buf o.count o.dtype a) : s'.mem a = s.mem a := by
  obtain ⟨M, lst, hi⟩ := hr.inv
  by_cases h2 : dest = MPI_PROC_NULL
  · subst h2
    have hc' : comm = MPI_COMM_NULL ∨ comm ∈ L.objs.map Prod.fst := by
      rcases ha.2 with ⟨c, hcm⟩ | h
      · exact Or.inr (mem_keys hcm)
      · exact Or.inl h.1
    rcases isendNull_spec (env := env) hi hc' buf count dtype tag with ⟨_, hab⟩ | ⟨_, s1, h1, he, hm, _⟩
    · rw [hok] at hab; cases hab
    · rw [hok] at he
      simp only [Res.ok.injEq, Prod.mk.injEq] at he
      rw [he.1, hm]
  · obtain ⟨c, hcm⟩ := ha.2.resolve_right fun h => h2 h.2
    by_cases h0 : dest = 0
    · subst h0
      exact post_lands hr ht hi hcm (isend_spec hi hcm hu buf count dtype tag) ha.1 hok (fun _ => hn rfl)
        (fun h => by cases h)
    · unfold MPI_Isend at hok
      rw [Sys.ptr_live hi.hst (mem_keys hcm), Res.ok_bind] at hok
      dsimp only at hok
      rw [if_pos ⟨h0, h2⟩] at hok
      cases hok

/-- MPI_Irecv: what may change, and the account of the state afterwards. -/
theorem irecv_lands (hr : Reach env s L) (ht : Tidy env L) {buf count dtype src tag comm h : Int}
    (ha : P2PArgs env L dtype src comm) (hu : L.unmatched < 2147483647)
    (hok : MPI_Irecv env s buf count dtype src tag comm = .ok (s', h))
    (hn : src ≠ MPI_PROC_NULL → Finds L comm tag → ¬ Lands env L buf count dtype a) :
    s'.mem a = s.mem a ∧
      ((src = MPI_PROC_NULL ∧ Reach env s' (L.postNull .recv tag buf count dtype h)) ∨
       (src ≠ MPI_PROC_NULL ∧ ∃ c, (comm, Obj.comm c) ∈ L.objs ∧ Reach env s' (L.post .recv c tag buf count dtype h))) := by
  obtain ⟨M, lst, hi⟩ := hr.inv
  by_cases h2 : src = MPI_PROC_NULL
  · subst h2
    have hc : comm = MPI_COMM_NULL ∨ ∃ c, (comm, Obj.comm c) ∈ L.objs := by
      rcases ha.2 with h | h
      · exact Or.inr h
      · exact Or.inl h.1
    have hc' : comm = MPI_COMM_NULL ∨ comm ∈ L.objs.map Prod.fst := hc.imp id fun ⟨c, h⟩ => mem_keys h
    rcases irecvNull_spec (env := env) hi hc' buf count dtype tag with ⟨_, hab⟩ | ⟨_, s1, h1, he, hm, _⟩
    · rw [hok] at hab; cases hab
    · refine ⟨?_, Or.inl ⟨rfl, hr.step (.irecvNull hc hok)⟩⟩
      rw [hok] at he
      simp only [Res.ok.injEq, Prod.mk.injEq] at he
      rw [he.1, hm]
  · obtain ⟨c, hcm⟩ := ha.2.resolve_right fun h => h2 h.2
    refine ⟨?_, Or.inr ⟨h2, c, hcm, hr.step (.irecv hcm hu h2 hok)⟩⟩
    exact post_lands hr ht hi hcm (irecv_spec hi hcm hu (irecv_src h2 hok) buf count dtype tag) ha.1 hok
      (fun h => by cases h) (fun _ => hn h2)

theorem send_lands (hr : Reach env s L) (ht : Tidy env L) {buf count dtype dest tag comm : Int}
    (ha : P2PArgs env L dtype dest comm) (hu : L.unmatched < 2147483647)
    (hok : MPI_Send env s buf count dtype dest tag comm = .ok s')
    (hn : dest = 0 → ∀ o, GoesTo L comm tag o → ¬ Lands env L o.buf o.count o.dtype a) : s'.mem a = s.mem a := by
  unfold MPI_Send at hok
  obtain ⟨⟨s1, h⟩, h1, hok⟩ := Res.bind_eq_ok.1 hok
  obtain ⟨⟨s2, h', st⟩, h2, hok⟩ := Res.bind_eq_ok.1 hok
  cases hok
  have := wait_mem (m := s1.mem) rfl h _ _ h2
  exact (congrFun this a).trans (isend_lands hr ht ha hu h1 hn)

theorem sendrecv_lands (hr : Reach env s L) (ht : Tidy env L) {sb sn st dst stag rb rn rt src rtag comm : Int} {p p' : StPtr}
    (ha : P2PArgs env L st dst comm) (hb : P2PArgs env L rt src comm) (hu : L.unmatched + 1 < 2147483647)
    (hok : MPI_Sendrecv env s sb sn st dst stag rb rn rt src rtag comm p = .ok (s', p'))
    (hns : dst = 0 → ∀ o, GoesTo L comm stag o → ¬ Lands env L o.buf o.count o.dtype a)
    (hnr : src ≠ MPI_PROC_NULL → ¬ Lands env L rb rn rt a) : s'.mem a = s.mem a := by
  unfold MPI_Sendrecv at hok
  obtain ⟨⟨s1, h⟩, h1, hok⟩ := Res.bind_eq_ok.1 hok
  obtain ⟨s2, h2, hok⟩ := Res.bind_eq_ok.1 hok
  obtain ⟨⟨s3, h', st'⟩, h3, hok⟩ := Res.bind_eq_ok.1 hok
  cases hok
  have e3 := congrFun (wait_mem (m := s2.mem) rfl h _ _ h3) a
  obtain ⟨e1, hacc⟩ := irecv_lands (a := a) hr ht hb (by omega) h1 (fun h _ => hnr h)
  refine e3.trans (Eq.trans ?_ e1)
  -- the account after the receive was posted
  have hL1 : ∃ L1, Reach env s1 L1 ∧ (∀ y ∈ L.objs, y ∈ L1.objs) ∧ L1.unmatched ≤ L.unmatched + 1 ∧
      ∀ o, GoesTo L1 comm stag o → GoesTo L comm stag o ∨ (src ≠ MPI_PROC_NULL ∧ o.buf = rb ∧ o.count = rn ∧ o.dtype = rt) := by
    rcases hacc with ⟨_, hr1⟩ | ⟨hsrc, c, hcm, hr1⟩
    · refine ⟨_, hr1, fun y hy => List.mem_cons_of_mem _ hy, ?_, fun o hg => Or.inl (goesTo_postNull hg)⟩
      simp [Ledger.unmatched, Ledger.postNull, List.countP_append]
    · refine ⟨_, hr1, fun y hy => by rw [post_objs]; exact List.mem_cons_of_mem _ hy, unmatched_post_le, fun o hg => ?_⟩
      rcases goesTo_post hg with h | h
      · exact Or.inl h
      · exact Or.inr ⟨hsrc, h⟩
  obtain ⟨L1, hr1, hk, hu1, hgo⟩ := hL1
  have hn := hr.nodup
  have hn1 := hr1.nodup
  have ht1 : Tidy env L1 := by
    obtain ⟨L', hp⟩ := Res.sat_iff.1 (irecv_sat hr ht rb rn rtag hb (by omega)) |>.2 _ h1
    exact hp.tidy.agree (hr.steps hp.steps) hr1
  have same : ∀ {dtype : Int} {t1 : Typestruct}, IsType env L dtype → L1.desc env.cfg dtype = some t1 → L.desc env.cfg dtype = some t1 := by
    rintro dtype t1 ⟨t, hd⟩ hd1
    have := desc_keep hn hn1 hk hd
    rw [this] at hd1
    cases hd1
    exact hd
  have hty : ∀ o, GoesTo L1 comm stag o → IsType env L o.dtype := by
    intro o hg
    rcases hgo o hg with ⟨c, j, hcm, hE⟩ | ⟨_, _, _, h⟩
    · exact ht.inflight o ⟨List.mem_of_getElem? hE.1, hE.2.1.2.2, comm, hE.2.1.2.1 ▸ hcm⟩ hE.2.1.1
    · rw [h]; exact hb.1
  refine send_lands hr1 ht1 (ha.keep hn hn1 hk) (by omega) h2 (fun h0 o hg => ?_)
  · rintro ⟨t, e, x, hd, he, hx, hin⟩
    have hd' := same (hty o hg) hd
    rcases hgo o hg with hg' | ⟨hs, h4, h5, h6⟩
    · exact hns h0 o hg' ⟨t, e, x, hd', he, hx, hin⟩
    · rw [h4, h5] at hx
      rw [h4] at hin
      rw [h6] at hd'
      exact hnr hs ⟨t, e, x, hd', he, hx, hin⟩

/-- A well-formed call changes only bytes it may write. -/
theorem Call.lands (hc : env.cfg.Ok) (hr : Reach env s L) (ht : Tidy env L) (hrm : Room L) {c : Call} (hw : c.Wf env L)
    (hok : c.exec env s = .ok s') (hn : ¬ CodeWrites env L c a) : s'.mem a = s.mem a := by
  have hu : L.unmatched < 2147483647 := by have := hrm.2.2; omega
  have hnd : ∀ b n t, Target env L c b n t → ¬ Lands env L b n t a := fun b n t h1 h2 => hn (Or.inl ⟨b, n, t, h1, h2⟩)
  have hcopy : ∀ {st rt sb sn rb rn : Int}, IsType env L st → IsType env L rt → copy_data2 env s sb sn st rb rn rt = .ok s' →
      Target env L c rb rn rt → s'.mem a = s.mem a := fun h1 h2 h3 h4 =>
    copy_lands hr ht h1 h2 h3 (hnd _ _ _ h4)
  by_cases hs : c.silent
  · exact congrFun (Call.keeps_mem rfl c hs _ hok) a
  cases c with
  | store m => exact absurd (Or.inr (Or.inr trivial)) hn
  | isend b n t d g k =>
    obtain ⟨x, hx, hok⟩ := Res.bind_eq_ok.1 hok
    cases hok
    exact isend_lands hr ht hw hu hx (fun h0 o hg => by subst h0; exact hnd _ _ _ (.isend hg))
  | irsend b n t d g k =>
    obtain ⟨x, hx, hok⟩ := Res.bind_eq_ok.1 hok
    cases hok
    unfold MPI_Irsend at hx
    obtain ⟨⟨s1, h⟩, h1, hx⟩ := Res.bind_eq_ok.1 hx
    obtain ⟨⟨s2, q⟩, h2, hx⟩ := Res.bind_eq_ok.1 hx
    have e2 := congrFun (ptr_mem (m := s1.mem) rfl _ _ h2) a
    obtain ⟨r, _, hx⟩ := Res.bind_eq_ok.1 hx
    split at hx
    · cases hx
    · cases hx
      exact e2.trans (isend_lands hr ht hw hu h1 (fun h0 o hg => by subst h0; exact hnd _ _ _ (.irsend hg)))
  | send b n t d g k =>
    exact send_lands hr ht hw hu hok (fun h0 o hg => by subst h0; exact hnd _ _ _ (.send hg))
  | irecv b n t d g k =>
    obtain ⟨x, hx, hok⟩ := Res.bind_eq_ok.1 hok
    cases hok
    exact (irecv_lands hr ht hw hu hx (fun h0 hg => hnd _ _ _ (.irecv hg h0))).1
  | recv b n t d g k st =>
    obtain ⟨x, hx, hok⟩ := Res.bind_eq_ok.1 hok
    cases hok
    unfold MPI_Recv at hx
    obtain ⟨⟨s1, h⟩, h1, hx⟩ := Res.bind_eq_ok.1 hx
    obtain ⟨⟨s2, q, st2⟩, h2, hx⟩ := Res.bind_eq_ok.1 hx
    have e2 := congrFun (wait_mem (m := s1.mem) rfl _ _ _ h2) a
    have e1 := (irecv_lands (a := a) hr ht hw hu h1 (fun h0 hg => hnd _ _ _ (.recv hg h0))).1
    dsimp only at hx
    cases st2 with
    | null => cases hx; exact e2.trans e1
    | obj st2 => cases hx; exact e2.trans e1
    | bad => cases hx
  | sendrecv b n t d g b' n' t' d' g' k st =>
    obtain ⟨⟨x, p⟩, hx, hok⟩ := Res.bind_eq_ok.1 hok
    cases hok
    exact sendrecv_lands hr ht hw.1 hw.2 hrm.2.2 hx (fun h0 o hg => by subst h0; exact hnd _ _ _ (.sendrecvOut hg)) (fun h0 => hnd _ _ _ (.sendrecvIn h0))
  | pack b n t o z p k =>
    obtain ⟨⟨x, p'⟩, hx, hok⟩ := Res.bind_eq_ok.1 hok
    cases hok
    unfold MPI_Pack at hx
    obtain ⟨⟨s1, ty⟩, h1, hx⟩ := Res.bind_eq_ok.1 hx
    obtain ⟨⟨s2, q⟩, h2, hx⟩ := Res.bind_eq_ok.1 hx
    obtain ⟨⟨m, pos⟩, h3, hx⟩ := Res.bind_eq_ok.1 hx
    cases hx
    have e1 := typeOf_mem (m := s.mem) rfl _ _ h1
    have e2 := ptr_mem (m := s1.mem) rfl _ _ h2
    dsimp only at e1 e2 h3
    unfold MemIs at e1 e2
    rw [e2, e1] at h3
    exact pack_lands hc (fun h => hn (Or.inr (Or.inl h))) h3
  | unpack i z p o n t k =>
    obtain ⟨⟨x, p'⟩, hx, hok⟩ := Res.bind_eq_ok.1 hok
    cases hok
    obtain ⟨M, lst, hi⟩ := hr.inv
    obtain ⟨ty, hd⟩ := hw.1
    unfold MPI_Unpack at hx
    rw [hi.typeOf hd, Res.ok_bind] at hx
    obtain ⟨⟨s2, q⟩, h2, hx⟩ := Res.bind_eq_ok.1 hx
    obtain ⟨⟨m, pos⟩, h3, hx⟩ := Res.bind_eq_ok.1 hx
    cases hx
    have e2 := ptr_mem (m := s.mem) rfl _ _ h2
    dsimp only at e2 h3
    unfold MemIs at e2
    rw [e2] at h3
    exact unpack_lands (ht.types _ _ hd) (fun e y he hy hin => hn (Or.inr (Or.inl ⟨ty, e, y, hd, he, hy, hin⟩))) h3
  | gather sb sn st rb rn rt r k =>
    dsimp only [Call.exec] at hok
    unfold MPI_Gather at hok
    split at hok
    · cases hok; rfl
    next hip =>
    split at hok
    · cases hok; rfl
    split at hok
    · cases hok
    next h0 =>
    obtain rfl : r = 0 := by omega
    exact hcopy hw.1 hw.2 hok (.gather hip)
  | gatherv sb sn st rb ns ds rt r k =>
    dsimp only [Call.exec] at hok
    unfold MPI_Gatherv at hok
    split at hok
    · cases hok; rfl
    next hip =>
    split at hok
    · cases hok; rfl
    split at hok
    · cases hok
    next h0 =>
    obtain rfl : r = 0 := by omega
    obtain ⟨⟨s1, v⟩, h1, hok⟩ := Res.bind_eq_ok.1 hok
    obtain ⟨rfl, e, he, rfl⟩ := extent_inv hr hw.2 h1
    obtain ⟨d, h2, hok⟩ := Res.bind_eq_ok.1 hok
    obtain ⟨n, h3, hok⟩ := Res.bind_eq_ok.1 hok
    exact hcopy hw.1 hw.2 hok (.gatherv hip (rd_inv h3) (rd_inv h2) he (displ_lands _ _ _))
  | allgather sb sn st rb rn rt k =>
    dsimp only [Call.exec] at hok
    unfold MPI_Allgather at hok
    split at hok
    · cases hok; rfl
    next hip => exact hcopy hw.1 hw.2 hok (.allgather hip)
  | allgatherv sb sn st rb ns ds rt k =>
    dsimp only [Call.exec] at hok
    unfold MPI_Allgatherv at hok
    split at hok
    · cases hok; rfl
    next hip =>
    obtain ⟨⟨s1, v⟩, h1, hok⟩ := Res.bind_eq_ok.1 hok
    obtain ⟨rfl, e, he, rfl⟩ := extent_inv hr hw.2 h1
    obtain ⟨d, h2, hok⟩ := Res.bind_eq_ok.1 hok
    obtain ⟨n, h3, hok⟩ := Res.bind_eq_ok.1 hok
    exact hcopy hw.1 hw.2 hok (.allgatherv hip (rd_inv h3) (rd_inv h2) he (displ_lands _ _ _))
  | scatter sb sn st rb rn rt r k =>
    dsimp only [Call.exec] at hok
    unfold MPI_Scatter at hok
    split at hok
    · cases hok; rfl
    next hip =>
    split at hok
    · cases hok; rfl
    split at hok
    · cases hok
    next h0 =>
    obtain rfl : r = 0 := by omega
    exact hcopy hw.1 hw.2 hok (.scatter hip)
  | scatterv sb ns ds st rb rn rt r k =>
    dsimp only [Call.exec] at hok
    unfold MPI_Scatterv at hok
    split at hok
    · cases hok; rfl
    next hip =>
    split at hok
    · cases hok; rfl
    split at hok
    · cases hok
    next h0 =>
    obtain rfl : r = 0 := by omega
    obtain ⟨⟨s1, v⟩, h1, hok⟩ := Res.bind_eq_ok.1 hok
    obtain ⟨rfl, e, he, rfl⟩ := extent_inv hr hw.1 h1
    obtain ⟨d, h2, hok⟩ := Res.bind_eq_ok.1 hok
    obtain ⟨n, h3, hok⟩ := Res.bind_eq_ok.1 hok
    exact hcopy hw.1 hw.2 hok (.scatterv hip)
  | reduce sb rb n t op r k =>
    dsimp only [Call.exec] at hok
    unfold MPI_Reduce at hok
    split at hok
    · cases hok
    next h0 =>
    obtain rfl : r = 0 := by omega
    exact hcopy hw hw hok .reduce
  | allreduce sb rb n t op k =>
    dsimp only [Call.exec] at hok
    unfold MPI_Allreduce at hok
    split at hok
    · cases hok; rfl
    next hip => exact hcopy hw hw hok (.allreduce hip)
  | reduceScatter sb rb ns t op k =>
    obtain ⟨n, h1, hok⟩ := Res.bind_eq_ok.1 hok
    exact hcopy hw hw hok (.reduceScatter (rd_inv h1))
  | scan sb rb n t op k => exact hcopy hw hw hok .scan
  | alltoall sb sn st rb rn rt k => exact hcopy hw.1 hw.2 hok .alltoall
  | alltoallv sb sns sds st rb ns ds rt k =>
    obtain ⟨⟨s1, v⟩, h1, hok⟩ := Res.bind_eq_ok.1 hok
    obtain ⟨rfl, e1, he1, rfl⟩ := extent_inv hr hw.1 h1
    obtain ⟨⟨s2, v⟩, h2, hok⟩ := Res.bind_eq_ok.1 hok
    obtain ⟨rfl, e, he, rfl⟩ := extent_inv hr hw.2 h2
    obtain ⟨sd, _, hok⟩ := Res.bind_eq_ok.1 hok
    obtain ⟨d, h3, hok⟩ := Res.bind_eq_ok.1 hok
    obtain ⟨sn, _, hok⟩ := Res.bind_eq_ok.1 hok
    obtain ⟨n, h4, hok⟩ := Res.bind_eq_ok.1 hok
    exact hcopy hw.1 hw.2 hok (.alltoallv (rd_inv h4) (rd_inv h3) he (displ_lands _ _ _))
  | alltoallw sb sns sds sts rb ns ds ts k =>
    obtain ⟨sd, _, hok⟩ := Res.bind_eq_ok.1 hok
    obtain ⟨sn, _, hok⟩ := Res.bind_eq_ok.1 hok
    obtain ⟨st, h1, hok⟩ := Res.bind_eq_ok.1 hok
    obtain ⟨d, h2, hok⟩ := Res.bind_eq_ok.1 hok
    obtain ⟨n, h3, hok⟩ := Res.bind_eq_ok.1 hok
    obtain ⟨rt, h4, hok⟩ := Res.bind_eq_ok.1 hok
    exact hcopy (hw.1 _ (List.mem_of_getElem? (rd_inv h1))) (hw.2 _ (List.mem_of_getElem? (rd_inv h4))) hok
      (.alltoallw (rd_inv h3) (rd_inv h2) (rd_inv h4))
  | _ => exact absurd trivial hs

end

end MpiSerial
