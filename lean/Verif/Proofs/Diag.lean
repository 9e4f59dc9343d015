import Verif.Model.Diag
import Verif.Proofs.Dom
import Verif.Proofs.Safe
import Verif.Props.Lists

/-!
# Builds with INFO or DEBUG
-/

set_option linter.unusedSimpArgs false
set_option autoImplicit false

namespace MpiSerial

section
variable {env : Env} {s : Sys} {L : Ledger} {M : AbsLists Loc} {lst : Nat → Kind → Nat} {b : Build}

theorem applyLoop_zero {h : LHeap Loc} {g : Loc → Res Int} : ∀ (q : List (Nat × Loc)) (fuel : Nat) (p : Option Nat)
    (t : Int), q.length ≤ fuel → DSeg h.nodes p q none → INT_MIN ≤ t → t ≤ INT_MAX → (∀ e ∈ q, g e.2 = .ok 0) →
    applyLoop g fuel h (q.head?.map Prod.fst) t = .ok t := by
  intro q
  induction q with
  | nil => intro fuel p t _ _ _ _ _; cases fuel <;> simp [applyLoop]
  | cons e q ih =>
    intro fuel p t hf hs h1 h2 hg
    obtain ⟨x, a⟩ := e
    obtain ⟨h3, h4⟩ := hs
    cases fuel with
    | zero => simp at hf
    | succ fuel =>
      have hga := hg (x, a) (by simp)
      simp only [List.head?_cons, Option.map_some, applyLoop, LHeap.getN, h3, Res.ok_bind, Option.or_none] at hga ⊢
      rw [hga, Res.ok_bind, ck32_ok (by omega) (by omega), Res.ok_bind, Int.add_zero]
      exact ih fuel _ t (by simpa using hf) h4 h1 h2 (fun e he => hg e (by simp [he]))

/-- The requests queued on a live communicator can be printed. -/
theorem Inv.print_list (hi : Inv s L M lst) {comm : Int} {c : Nat} (hcm : (comm, Obj.comm c) ∈ L.objs) (k : Kind) :
    Diag.print_list s (lst c k) = .ok () := by
  obtain ⟨q, hq, hqs⟩ := hi.queue _ _ hcm k
  unfold Diag.print_list AP_list_apply
  rw [hi.linv.getL hq, Res.ok_bind]
  have h1 := hi.linv.len_le hq
  have := applyLoop_zero (g := Diag.print_item s) q (s.lists.nextNode + 1) none 0 (by omega) (hi.linv.segs _ _ hq)
    (by decide) (by decide) (by
      intro e he
      have : e.2 ∈ q.map Prod.snd := List.mem_map.2 ⟨e, he, rfl⟩
      rw [hqs, List.mem_map] at this
      obtain ⟨o, ho, he⟩ := this
      obtain ⟨h1, r, h2, _⟩ := hi.queue_recs hcm ho
      unfold Diag.print_item
      rw [← he, Sys.req_live hi.hst h1 h2]; rfl)
  simp only [headOf] at this ⊢
  rw [this, Res.ok_bind]; rfl

theorem Inv.readNum (hi : Inv s L M lst) {comm : Int} {c : Nat} (hcm : (comm, Obj.comm c) ∈ L.objs) :
    Diag.readNum s (some (locOf comm)) = .ok () := by
  obtain ⟨_, n, hcd⟩ := hi.comm _ _ hcm
  unfold Diag.readNum
  rw [Sys.comm_live hi.hst (mem_keys hcm) hcd]; rfl

theorem Inv.readTag (hi : Inv s L M lst) {h : Int} {i : Nat} (hh : (h, Obj.req i) ∈ L.objs) :
    Diag.readTag s (locOf h) = .ok () := by
  obtain ⟨o, r, _, _, hd, _⟩ := hi.req _ _ hh
  unfold Diag.readTag
  rw [Sys.req_live hi.hst (mem_keys hh) hd]; rfl

theorem only_ok (b : Bool) {x : Res Unit} (h : x = .ok ()) : Diag.only b x = .ok () := by
  subst h; cases b <;> rfl

theorem SameDom.readable {m m' : Mem} (h : SameDom m m') (p : Int) (n : Nat) : m'.readable p n ↔ m.readable p n := by
  unfold Mem.readable; simp only [h]

theorem Res.bind_eq_of_ok {α β : Type} {x : Res α} {f g : α → Res β} (h : ∀ a, x = .ok a → f a = g a) :
    (x >>= f) = (x >>= g) := by
  cases hx : x with
  | ok a => exact h a hx
  | _ => rfl

/-- What is printed about a matched pair: only reading the buffer can go wrong. -/
theorem debug_tail {s' : Sys} {M' : AbsLists Loc} {L' : Ledger} (hi' : Inv s' L' M' lst) (hd : SameDom s.mem s'.mem)
    {h : Int} {i : Nat} (hh : (h, Obj.req i) ∈ L'.objs) (buf : Int) {β : Type} (k : Res β) :
    (Diag.only b.debug (Diag.readInt s' buf) >>= fun _ => Diag.only b.debug (Diag.readTag s' (locOf h)) >>= fun _ => k) =
      if b.debug = true ∧ ¬ s.mem.readable buf 4 then .ub .memAccess else k := by
  rw [hi'.readTag hh]
  unfold Diag.only Diag.readInt
  simp only [hd.readable]
  by_cases h1 : b.debug = true <;> by_cases h2 : s.mem.readable buf 4 <;> simp [h1, h2]

theorem isend_diag (hi : Inv s L M lst) {comm : Int} {c : Nat} (hcm : (comm, Obj.comm c) ∈ L.objs)
    (hu : L.unmatched < 2147483647) (buf count dtype dest tag : Int) :
    Diag.MPI_Isend b env s buf count dtype dest tag comm =
      if b.debug = true ∧ dest = 0 ∧ (L.partner c .send tag).isSome = true ∧ ¬ s.mem.readable buf 4 then
        MPI_Isend env s buf count dtype dest tag comm >>= fun _ => .ub .memAccess
      else MPI_Isend env s buf count dtype dest tag comm := by
  by_cases hd0 : dest = 0
  rotate_left
  · rw [if_neg (show ¬ (b.debug = true ∧ dest = 0 ∧ (L.partner c .send tag).isSome = true ∧
      ¬ s.mem.readable buf 4) from fun h => hd0 h.2.1)]
    unfold Diag.MPI_Isend MPI_Isend
    rw [Sys.ptr_live hi.hst (mem_keys hcm), Res.ok_bind]
    dsimp only
    rw [only_ok b.info (hi.readNum hcm)]
    simp only [Res.ok_bind]
    by_cases hd : dest ≠ 0 ∧ dest ≠ MPI_PROC_NULL
    · rw [if_pos hd, if_pos hd]
    · have hn : dest = MPI_PROC_NULL := Classical.byContradiction fun h => hd ⟨hd0, h⟩
      rw [if_neg hd, if_neg hd]
      refine Res.bind_eq_of_ok fun x _ => ?_
      rw [if_pos hn, if_pos hn]
  subst hd0
  have hpost := isend_spec (env := env) hi hcm hu buf count dtype tag
  have hdom := isend_dom (env := env) (m := s.mem) (s := s) (fun _ => rfl) buf count dtype 0 tag comm
  generalize hR : MPI_Isend env s buf count dtype 0 tag comm = R at hpost hdom ⊢
  unfold Diag.MPI_Isend
  unfold MPI_Isend at hR
  rw [Sys.ptr_live hi.hst (mem_keys hcm), Res.ok_bind] at hR ⊢
  dsimp only at hR ⊢
  rw [only_ok b.info (hi.readNum hcm), Res.ok_bind, if_neg (by simp)]
  rw [if_neg (by simp)] at hR
  rcases allocReq_spec (env := env) hi.hst with ⟨hlen, t, h, r0, ha, hst, hnew, hd0, hold⟩ | ⟨hlen, ha⟩
  rotate_left
  · subst hR
    cases hr : s.allocReq env <;> rw [hr] at ha <;> simp [Res.aborted] at ha ⊢
  rw [ha, Res.ok_bind] at hR ⊢
  dsimp only at hR ⊢
  rw [if_neg (by simp)] at hR ⊢
  generalize hs1 : ({ s with handles := t, clock := s.clock + 1 } : Sys) = s1 at hR ⊢
  have e1 : s1.lists = s.lists := by rw [← hs1]
  have hst1 : HSt s1.handles (h :: L.objs.map Prod.fst) := by rw [← hs1]; exact hst
  have hold1 : ∀ h' ∈ L.objs.map Prod.fst, dataAt s1 h' = dataAt s h' := by rw [← hs1]; exact hold
  clear ha hst hd0 hold hs1
  obtain ⟨_, n, hcd⟩ := hi.comm _ _ hcm
  rw [Sys.comm_live hst1 (List.mem_cons_of_mem _ (mem_keys hcm)) (by rw [hold1 _ (mem_keys hcm)]; exact hcd),
    Res.ok_bind] at hR ⊢
  dsimp only at hR ⊢
  obtain ⟨q, hq, hqs⟩ := hi.queue _ _ hcm .recv
  have hreq : ∀ o ∈ queueOf L.ops Kind.send.other c, ∃ r, s1.req (some (locOf o.h)) = .ok r ∧ r.tag = o.tag := by
    intro o ho
    obtain ⟨h1, r, h2, _, h4, _⟩ := hi.queue_recs hcm ho
    exact ⟨r, Sys.req_live hst1 (List.mem_cons_of_mem _ h1) (by rw [hold1 _ h1]; exact h2), h4⟩
  have hl1 : LInv s1.lists M := by rw [e1]; exact hi.linv
  cases hp : L.partner c .send tag with
  | none =>
    have hsr : AP_list_search_func s1.lists (lst c .recv) (mpi_match_recv s1 tag) = .ok none :=
      search_none (k := .send) hl1 hq hqs hreq hp
    rw [e1] at hsr
    rw [hsr, Res.ok_bind] at hR ⊢
    dsimp only at hR ⊢
    rw [if_neg (by simp)]
    subst hR
    refine Res.bind_eq_of_ok fun s2 h2 => ?_
    rw [h2, Res.ok_bind] at hpost
    rcases hpost with ⟨_, hab⟩ | ⟨_, _, s', h', M', hok, _, _, hi'⟩ | ⟨_, j, _, _, _, _, _, hj, _⟩
    · cases hab
    · cases hok
      have hcm' : (comm, Obj.comm c) ∈ (L.post .send c tag buf count dtype h).objs := by
        rw [post_objs]; exact List.mem_cons_of_mem _ hcm
      rw [only_ok _ (hi'.print_list hcm' .send), only_ok _ (hi'.readNum hcm')]; rfl
    · rw [hp] at hj; cases hj
  | some j =>
    obtain ⟨A, o, B, hops, rfl, ho, hA⟩ := Ledger.partner_some hp
    obtain ⟨q1, x, q2, rfl, hq1, hq2, hsr⟩ := search_some (k := .send) hl1 hq hops ho hA hqs hreq
    have hsr : AP_list_search_func s1.lists (lst c .recv) (mpi_match_recv s1 tag) = .ok (some x) := hsr
    rw [e1] at hsr
    rw [hsr, Res.ok_bind] at hR ⊢
    dsimp only at hR ⊢
    unfold Diag.sendMatched
    rw [hl1.data hq (x := x) (a := locOf o.h) (by simp), Res.ok_bind]
    have hheld : ∃ i, (o.h, Obj.req i) ∈ L.objs := by
      have howait := ho
      rw [Op.waits_eq, Bool.and_eq_true] at howait
      obtain ⟨_, h2, h3⟩ := Op.pendOn_iff.1 howait.1
      have hio : L.ops[A.length]? = some o := by rw [hops]; simp
      exact ⟨_, hi.held _ o hio h3 comm (h2 ▸ hcm)⟩
    obtain ⟨i, hheld⟩ := hheld
    simp only [bind_assoc, Option.isSome_some, true_and]
    generalize hS : sendMatched env s1 buf count dtype tag (lst c .recv) x (locOf h) = S at hR ⊢
    subst hR
    cases S with
    | ok s2 =>
      rw [Res.ok_bind] at hpost hdom ⊢
      rcases hpost with ⟨_, hab⟩ | ⟨_, hn, _⟩ | ⟨_, j, o', s', h', M', X, _, _, hok, _, _, hi'⟩
      · cases hab
      · rw [hp] at hn; cases hn
      · cases X with
        | ok m =>
          rw [Res.ok_bind] at hok
          cases hok
          have hi2 : Inv { s' with mem := m } (L.post .send c tag buf count dtype h) M' lst := hi'.setMem m
          have hm' : (o.h, Obj.req i) ∈ (L.post .send c tag buf count dtype h).objs := by
            rw [post_objs]; exact List.mem_cons_of_mem _ hheld
          exact debug_tail (b := b) hi2 (hdom _ rfl) hm' buf _
        | _ => cases hok
    | _ => by_cases hb : b.debug = true ∧ ¬ s.mem.readable buf 4 <;> simp [hb]

theorem irecv_diag (hi : Inv s L M lst) {comm : Int} {c : Nat} (hcm : (comm, Obj.comm c) ∈ L.objs)
    (hu : L.unmatched < 2147483647) (buf count dtype src tag : Int) :
    Diag.MPI_Irecv b env s buf count dtype src tag comm =
      if b.debug = true ∧ src ≠ MPI_PROC_NULL ∧ (L.partner c .recv tag).isSome = true ∧ ¬ s.mem.readable buf 4 then
        MPI_Irecv env s buf count dtype src tag comm >>= fun _ => .ub .memAccess
      else MPI_Irecv env s buf count dtype src tag comm := by
  by_cases hd0 : src = 0 ∨ src = MPI_ANY_SOURCE
  rotate_left
  · unfold Diag.MPI_Irecv MPI_Irecv
    rw [Sys.ptr_live hi.hst (mem_keys hcm), Res.ok_bind]
    dsimp only
    rw [only_ok b.info (hi.readNum hcm)]
    simp only [Res.ok_bind]
    by_cases hn : src = MPI_PROC_NULL
    · rw [if_neg (show ¬ (b.debug = true ∧ src ≠ MPI_PROC_NULL ∧ (L.partner c .recv tag).isSome = true ∧
        ¬ s.mem.readable buf 4) from fun h => h.2.1 hn)]
      have hd : ¬ (src ≠ 0 ∧ src ≠ MPI_ANY_SOURCE ∧ src ≠ MPI_PROC_NULL) := fun h => h.2.2 hn
      rw [if_neg hd, if_neg hd]
      refine Res.bind_eq_of_ok fun x _ => Res.bind_eq_of_ok fun y _ => ?_
      rw [if_pos hn, if_pos hn]
    · have hd : src ≠ 0 ∧ src ≠ MPI_ANY_SOURCE ∧ src ≠ MPI_PROC_NULL :=
        ⟨fun h => hd0 (Or.inl h), fun h => hd0 (Or.inr h), hn⟩
      rw [if_pos hd, if_pos hd]
      split <;> rfl
  have hnn : src ≠ MPI_PROC_NULL := by rcases hd0 with h | h <;> rw [h] <;> decide
  have hbad : ¬ (src ≠ 0 ∧ src ≠ MPI_ANY_SOURCE ∧ src ≠ MPI_PROC_NULL) := fun h =>
    hd0.elim h.1 h.2.1
  have hpost := irecv_spec (env := env) hi hcm hu hd0 buf count dtype tag
  have hdom := irecv_dom (env := env) (m := s.mem) (s := s) (fun _ => rfl) buf count dtype src tag comm
  generalize hR : MPI_Irecv env s buf count dtype src tag comm = R at hpost hdom ⊢
  unfold Diag.MPI_Irecv
  unfold MPI_Irecv at hR
  rw [Sys.ptr_live hi.hst (mem_keys hcm), Res.ok_bind] at hR ⊢
  dsimp only at hR ⊢
  rw [only_ok b.info (hi.readNum hcm), Res.ok_bind, if_neg hbad]
  rw [if_neg hbad] at hR
  rcases allocReq_spec (env := env) hi.hst with ⟨hlen, t, h, r0, ha, hst, hnew, hd, hold⟩ | ⟨hlen, ha⟩
  rotate_left
  · subst hR
    cases hr : s.allocReq env <;> rw [hr] at ha <;> simp [Res.aborted] at ha ⊢
  rw [ha, Res.ok_bind] at hR ⊢
  dsimp only at hR ⊢
  generalize hs0 : ({ s with handles := t, clock := s.clock + 1 } : Sys) = s0 at hR ⊢
  have hst0 : HSt s0.handles (h :: L.objs.map Prod.fst) := by rw [← hs0]; exact hst
  have hpos : ∀ h' ∈ h :: L.objs.map Prod.fst, (0 : Int) ≤ h' := fun h' hh' => by
    have := hst0.pos hh'; omega
  rw [Sys.modReq_live hst0 (by simp) (by rw [← hs0]; exact hd), Res.ok_bind, if_neg hnn] at hR ⊢
  generalize hr00 : ({ r0 with type := dtype, count := count } : ReqRec) = r00 at hR ⊢
  generalize hs1 : s0.put h (.req r00) = s1 at hR ⊢
  have e1 : s1.lists = s.lists := by rw [← hs1, ← hs0]; rfl
  have hst1 : HSt s1.handles (h :: L.objs.map Prod.fst) := by rw [← hs1]; exact hst0.put _ _
  have hold1 : ∀ h' ∈ L.objs.map Prod.fst, dataAt s1 h' = dataAt s h' := by
    intro h' hh'
    rw [← hs1, dataAt_put_ne _ (hpos h (by simp)) (hpos h' (List.mem_cons_of_mem _ hh'))
      (fun he => hnew (he ▸ hh')), ← hs0]
    exact hold h' hh'
  clear ha hst hd hold hs1 hs0 hst0 hr00
  obtain ⟨_, n, hcd⟩ := hi.comm _ _ hcm
  rw [Sys.comm_live hst1 (List.mem_cons_of_mem _ (mem_keys hcm)) (by rw [hold1 _ (mem_keys hcm)]; exact hcd),
    Res.ok_bind] at hR ⊢
  dsimp only at hR ⊢
  obtain ⟨q, hq, hqs⟩ := hi.queue _ _ hcm .send
  have hreq : ∀ o ∈ queueOf L.ops Kind.recv.other c, ∃ r, s1.req (some (locOf o.h)) = .ok r ∧ r.tag = o.tag := by
    intro o ho
    obtain ⟨h1, r, h2, _, h4, _⟩ := hi.queue_recs hcm ho
    exact ⟨r, Sys.req_live hst1 (List.mem_cons_of_mem _ h1) (by rw [hold1 _ h1]; exact h2), h4⟩
  have hl1 : LInv s1.lists M := by rw [e1]; exact hi.linv
  cases hp : L.partner c .recv tag with
  | none =>
    have hsr : AP_list_search_func s1.lists (lst c .send) (mpi_match_send s1 tag) = .ok none :=
      search_none (k := .recv) hl1 hq hqs hreq hp
    rw [hsr, Res.ok_bind] at hR ⊢
    dsimp only at hR ⊢
    rw [if_neg (by simp)]
    subst hR
    refine Res.bind_eq_of_ok fun s2 h2 => ?_
    rw [h2, Res.ok_bind] at hpost
    rcases hpost with ⟨_, hab⟩ | ⟨_, _, s', h', M', hok, _, _, hi'⟩ | ⟨_, j, _, _, _, _, _, hj, _⟩
    · cases hab
    · cases hok
      have hcm' : (comm, Obj.comm c) ∈ (L.post .recv c tag buf count dtype h).objs := by
        rw [post_objs]; exact List.mem_cons_of_mem _ hcm
      rw [only_ok _ (hi'.print_list hcm' .recv), only_ok _ (hi'.readNum hcm')]; rfl
    · rw [hp] at hj; cases hj
  | some j =>
    obtain ⟨A, o, B, hops, rfl, ho, hA⟩ := Ledger.partner_some hp
    obtain ⟨q1, x, q2, rfl, hq1, hq2, hsr⟩ := search_some (k := .recv) hl1 hq hops ho hA hqs hreq
    have hsr : AP_list_search_func s1.lists (lst c .send) (mpi_match_send s1 tag) = .ok (some x) := hsr
    rw [hsr, Res.ok_bind] at hR ⊢
    dsimp only at hR ⊢
    unfold Diag.recvMatched
    simp only [bind_assoc, Option.isSome_some, true_and]
    generalize hS : recvMatched env s1 buf count dtype (lst c .send) x (locOf h) = S at hR ⊢
    subst hR
    cases S with
    | ok s2 =>
      rw [Res.ok_bind] at hpost hdom ⊢
      rcases hpost with ⟨_, hab⟩ | ⟨_, hn, _⟩ | ⟨_, j, o', s', h', M', X, _, _, hok, _, _, hi'⟩
      · cases hab
      · rw [hp] at hn; cases hn
      · cases X with
        | ok m =>
          rw [Res.ok_bind] at hok
          cases hok
          have hi2 : Inv { s' with mem := m } (L.post .recv c tag buf count dtype h) M' lst := hi'.setMem m
          have hm' : (h, Obj.req L.ops.length) ∈ (L.post .recv c tag buf count dtype h).objs := by
            rw [post_objs]; simp
          simp only [hnn, not_false_eq_true, ne_eq, true_and]
          exact debug_tail (b := b) hi2 (hdom _ rfl) hm' buf _
        | _ => cases hok
    | _ => by_cases hb : b.debug = true ∧ src ≠ MPI_PROC_NULL ∧ ¬ s.mem.readable buf 4 <;> simp [hb]

end

end MpiSerial
