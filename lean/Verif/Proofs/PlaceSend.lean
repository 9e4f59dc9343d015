import Verif.Proofs.PlaceProg
import Verif.Proofs.Data

/-!
# Nonblocking calls that store the request before they transfer a message
-/

set_option linter.unusedSimpArgs false
set_option autoImplicit false

namespace MpiSerial

open Spec.Fort

namespace Place

section
variable {bo : ByteOrder} {env : Env} {s : Sys}

theorem ptr_on (s : Sys) (w : Mem) (h : Int) : (s.on w).ptr h = s.ptr h >>= fun x => .ok (x.1.on w, x.2) := by
  unfold Sys.ptr
  simp only [Sys.on_handles]
  cases mpi_handle_to_ptr s.handles h <;> rfl

theorem allocReq_on (env : Env) (s : Sys) (w : Mem) : (s.on w).allocReq env = s.allocReq env >>= fun x => .ok (x.1.on w, x.2) := by
  unfold Sys.allocReq
  simp only [Sys.on_handles]
  cases mpi_alloc_handle s.handles Slot.raw <;> rfl

theorem ptr_mem {s : Sys} {h : Int} {x : Sys × Option Loc} (hx : s.ptr h = .ok x) : x.1.mem = s.mem := by
  obtain ⟨t, _, ht⟩ := Res.bind_eq_ok.1 hx
  cases ht; rfl

theorem allocReq_mem {s : Sys} {x : Sys × Int × Loc} (hx : s.allocReq env = .ok x) : x.1.mem = s.mem := by
  obtain ⟨t, _, ht⟩ := Res.bind_eq_ok.1 hx
  cases ht; rfl

/-- A store of an integer into accessible memory. -/
theorem stInt_on {p : Int} {m : Mem} (hp : ∀ a, p ≤ a → a < p + 4 → (m a).isSome = true) (h : Int) :
    ∃ w : Mem, (∀ a, ¬ (p ≤ a ∧ a < p + 4) → w a = m a) ∧ (∀ a, (w a).isSome = (m a).isSome) ∧ intAt bo w p = some (s32 h) ∧
      ∀ (s : Sys), (∀ a, (s.mem a).isSome = (m a).isSome) →
        stInt bo s p h = .ok { s with mem := fun a => if p ≤ a ∧ a < p + 4 then w a else s.mem a } := by
  have hc : ∀ a, (Spec.Fort.Out.int p h).covers a ↔ p ≤ a ∧ a < p + 4 := fun a => by unfold Spec.Fort.Out.covers Spec.Fort.Out.int; simp
  obtain ⟨w, h1, h2, h3, h4⟩ := putOut_ok bo (s := Sys.start m) (o := Spec.Fort.Out.int p h) fun a ha => hp a ((hc a).1 ha).1 ((hc a).1 ha).2
  have hw : Wrote bo m w [Spec.Fort.Out.int p h] := ⟨fun o ho => by cases List.mem_singleton.1 ho; exact h2, fun a ha => h3 a (ha _ (by simp))⟩
  refine ⟨w, fun a ha => h3 a fun h => ha ((hc a).1 h), fun a => h4 a, ?_, fun s hs => ?_⟩
  · have := C50_reads_back (i := 0) (v := h) hw (List.mem_singleton.2 rfl) rfl rfl
    simpa [Spec.Fort.Out.int] using this
  · obtain ⟨w', g1, g2, g3, g4⟩ := putOut_ok bo (s := s) (o := Spec.Fort.Out.int p h) fun a ha => by
      rw [hs a]; exact hp a ((hc a).1 ha).1 ((hc a).1 ha).2
    have e : w' = fun a => if p ≤ a ∧ a < p + 4 then w a else s.mem a := by
      refine Wrote.unique (bo := bo) (m := s.mem) (outs := [Spec.Fort.Out.int p h])
        ⟨fun o ho => by cases List.mem_singleton.1 ho; exact g2, fun a ha => g3 a (ha _ (by simp))⟩
        ⟨fun o ho => ?_, fun a ha => if_neg fun h => ha _ (by simp) ((hc a).2 h)⟩
      cases List.mem_singleton.1 ho
      exact held_mono h2 fun a ha => if_pos ((hc a).1 ha)
    rw [stInt_eq, g1, e]

/-- send.c:58-94 -/
def sendRest (env : Env) (buf count datatype dest tag : Int) (mycomm : Option Loc) (sreq : Loc) (s : Sys) : Res Sys :=
  if dest = MPI_PROC_NULL then s.modReq sreq (fun r => { r with complete := 1 })
  else do
    let c ← s.comm mycomm
    let found ← AP_list_search_func s.lists c.recvlist (mpi_match_recv s tag)
    match found with
    | some item => sendMatched env s buf count datatype tag c.recvlist item sreq
    | none => sendQueued s buf tag c.sendlist sreq

/-- recv.c:63-105 -/
def recvRest (env : Env) (buf count datatype source tag : Int) (mycomm : Option Loc) (rreq : Loc) (s : Sys) : Res Sys := do
  let s ← s.modReq rreq (fun r => { r with type := datatype, count := count })
  if source = MPI_PROC_NULL then
    s.modReq rreq (fun r => { r with complete := 1, source := MPI_PROC_NULL, tag := MPI_ANY_TAG })
  else do
    let c ← s.comm mycomm
    let found ← AP_list_search_func s.lists c.sendlist (mpi_match_send s tag)
    match found with
    | some item => recvMatched env s buf count datatype c.sendlist item rreq
    | none => recvQueued s buf tag c.recvlist rreq

/-- The common form of the two calls on values ... -/
def late (env : Env) (bad : Prop) [Decidable bad] (msg : String) (comm : Int) (rest : Option Loc → Loc → Sys → Res Sys) (s : Sys) : Res (Sys × Int) :=
  s.ptr comm >>= fun x => if bad then .abort msg else x.1.allocReq env >>= fun y => rest x.2 y.2.2 y.1 >>= fun s => .ok (s, y.2.1)

/-- ... and in place. -/
def early (bo : ByteOrder) (env : Env) (bad : Prop) [Decidable bad] (msg : String) (comm request : Int) (rest : Option Loc → Loc → Sys → Res Sys) (s : Sys) :
    Res Sys :=
  s.ptr comm >>= fun x => if bad then .abort msg else x.1.allocReq env >>= fun y => stInt bo y.1 request y.2.1 >>= fun s => rest x.2 y.2.2 s

theorem isend_late (s : Sys) (buf count datatype dest tag comm : Int) : MPI_Isend env s buf count datatype dest tag comm =
    late env (dest ≠ 0 ∧ dest ≠ MPI_PROC_NULL) "MPI_Isend: send to" comm (sendRest env buf count datatype dest tag) s := by
  unfold MPI_Isend late
  congr 1; funext x; obtain ⟨s, k⟩ := x
  dsimp only
  split
  · rfl
  · congr 1; funext y; obtain ⟨s, h, l⟩ := y
    unfold sendRest
    dsimp only
    split
    · rfl
    · simp only [bind_assoc]
      congr 1; funext c; congr 1; funext f
      cases f <;> rfl

theorem irecv_late (s : Sys) (buf count datatype src tag comm : Int) : MPI_Irecv env s buf count datatype src tag comm =
    late env (src ≠ 0 ∧ src ≠ MPI_ANY_SOURCE ∧ src ≠ MPI_PROC_NULL) "MPI_Irecv: bad source" comm (recvRest env buf count datatype src tag) s := by
  unfold MPI_Irecv late
  congr 1; funext x; obtain ⟨s, k⟩ := x
  dsimp only
  split
  · rfl
  · congr 1; funext y; obtain ⟨s, h, l⟩ := y
    unfold recvRest
    dsimp only
    rw [bind_assoc]
    congr 1; funext s
    split
    · rfl
    · simp only [bind_assoc]
      congr 1; funext c; congr 1; funext f
      cases f <;> rfl

theorem early_eq {bad : Prop} [Decidable bad] {msg : String} {comm p : Int} {rest : Option Loc → Loc → Sys → Res Sys}
    (hp : ∀ a, p ≤ a → a < p + 4 → (s.mem a).isSome = true) (hb : Bystander (late env bad msg comm rest) s p)
    (hd : ∀ x, late env bad msg comm rest s = .ok x → ∀ a, (x.1.mem a).isSome = (s.mem a).isSome) :
    early bo env bad msg comm p rest s = late env bad msg comm rest s >>= fun x => stInt bo x.1 p x.2 := by
  have hl : ∀ w, late env bad msg comm rest (s.on w) =
      s.ptr comm >>= fun x => if bad then .abort msg else x.1.allocReq env >>= fun y => rest x.2 y.2.2 (y.1.on w) >>= fun s => .ok (s, y.2.1) := by
    intro w
    unfold late
    rw [ptr_on, bind_assoc]
    congr 1; funext x
    rw [Res.ok_bind]
    split
    · rfl
    · rw [allocReq_on, bind_assoc]; rfl
  unfold early
  unfold Bystander at hb
  simp only [show ∀ w, ({ s with mem := w } : Sys) = s.on w from fun _ => rfl, hl] at hb
  revert hb hd
  unfold late
  cases h1 : s.ptr comm with
  | ok x =>
    simp only [Res.ok_bind]
    split
    · intros; rfl
    · cases h2 : x.1.allocReq env with
      | ok y =>
        simp only [Res.ok_bind]
        intro hd hb
        have hm : y.1.mem = s.mem := (allocReq_mem h2).trans (ptr_mem h1)
        obtain ⟨w, w1, w2, _, w4⟩ := stInt_on (bo := bo) hp y.2.1
        rw [w4 y.1 fun a => by rw [hm]]
        have e : ({ y.1 with mem := fun a => if p ≤ a ∧ a < p + 4 then w a else y.1.mem a } : Sys) = y.1.on w := by
          have : (fun a => if p ≤ a ∧ a < p + 4 then w a else y.1.mem a) = w := by
            funext a
            split
            · rfl
            · next h => rw [hm, w1 a h]
          rw [this]; rfl
        rw [e, Res.ok_bind]
        have hb := hb w w1 w2
        cases h3 : rest x.2 y.2.2 y.1 with
        | ok s3 =>
          rw [h3] at hb hd
          simp only [Res.ok_bind] at hb hd ⊢
          rw [w4 s3 (hd _ rfl)]
          cases h4 : rest x.2 y.2.2 (y.1.on w) with
          | ok s4 => rw [h4] at hb; cases hb; rfl
          | _ => rw [h4] at hb; cases hb
        | _ =>
          rw [h3] at hb
          cases h4 : rest x.2 y.2.2 (y.1.on w) <;> rw [h4] at hb <;> cases hb <;> rfl
      | _ => intros; rfl
  | _ => intros; rfl

theorem isend_early (buf count datatype dest tag comm p : Int) (hp : ∀ a, p ≤ a → a < p + 4 → (s.mem a).isSome = true)
    (hb : Bystander (fun s => MPI_Isend env s buf count datatype dest tag comm) s p) :
    Isend bo env s buf count datatype dest tag comm p = MPI_Isend env s buf count datatype dest tag comm >>= fun x => stInt bo x.1 p x.2 := by
  have h := early_eq (bo := bo) (env := env) (s := s) (bad := dest ≠ 0 ∧ dest ≠ MPI_PROC_NULL) (msg := "MPI_Isend: send to") (comm := comm)
    (rest := sendRest env buf count datatype dest tag) hp
    (by simpa only [isend_late] using hb) (fun x hx => by rw [← isend_late] at hx; exact (isend_dom (m := s.mem) (fun _ => rfl) _ _ _ _ _ _ x hx))
  rw [← isend_late] at h
  rw [← h]
  rfl

theorem irecv_early (buf count datatype src tag comm p : Int) (hp : ∀ a, p ≤ a → a < p + 4 → (s.mem a).isSome = true)
    (hb : Bystander (fun s => MPI_Irecv env s buf count datatype src tag comm) s p) :
    Irecv bo env s buf count datatype src tag comm p = MPI_Irecv env s buf count datatype src tag comm >>= fun x => stInt bo x.1 p x.2 := by
  have h := early_eq (bo := bo) (env := env) (s := s) (bad := src ≠ 0 ∧ src ≠ MPI_ANY_SOURCE ∧ src ≠ MPI_PROC_NULL) (msg := "MPI_Irecv: bad source")
    (comm := comm) (rest := recvRest env buf count datatype src tag) hp
    (by simpa only [irecv_late] using hb) (fun x hx => by rw [← irecv_late] at hx; exact (irecv_dom (m := s.mem) (fun _ => rfl) _ _ _ _ _ _ x hx))
  rw [← irecv_late] at h
  rw [← h]
  rfl

theorem irsend_early (buf count datatype dest tag comm p : Int) (hp : ∀ a, p ≤ a → a < p + 4 → (s.mem a).isSome = true)
    (hb : Bystander (fun s => MPI_Isend env s buf count datatype dest tag comm) s p)
    (hi : ∀ x, MPI_Isend env s buf count datatype dest tag comm = .ok x → s32 x.2 = x.2) :
    Irsend bo env s buf count datatype dest tag comm p = MPI_Irsend env s buf count datatype dest tag comm >>= fun x => stInt bo x.1 p x.2 := by
  unfold Irsend MPI_Irsend
  rw [isend_early _ _ _ _ _ _ _ hp hb, bind_assoc, bind_assoc]
  refine Res.bind_congr fun x hx => ?_
  obtain ⟨s1, h⟩ := x
  have hdom : ∀ a, (s1.mem a).isSome = (s.mem a).isSome := isend_dom (m := s.mem) (fun _ => rfl) _ _ _ _ _ _ _ hx
  obtain ⟨w, w1, w2, w3, w4⟩ := stInt_on (bo := bo) hp h
  have hs := hi _ hx
  dsimp only at hs ⊢
  have hv : intAt bo (fun a => if p ≤ a ∧ a < p + 4 then w a else s1.mem a) p = some h := by
    rw [← hs, ← w3]
    unfold intAt word
    dsimp only
    rw [if_pos (by omega), if_pos (by omega), if_pos (by omega), if_pos (by omega)]
  rw [w4 s1 hdom, Res.ok_bind]
  show (ldInt bo (fun a => if p ≤ a ∧ a < p + 4 then w a else s1.mem a) p >>= _) = _
  rw [ldInt_eq, hv]
  show ((s1.on _).ptr h >>= _) = _
  rw [ptr_on, bind_assoc, bind_assoc]
  refine Res.bind_congr fun y hy => ?_
  obtain ⟨s2, q⟩ := y
  have hm : s2.mem = s1.mem := ptr_mem hy
  simp only [Res.ok_bind, Sys.on_req, bind_assoc]
  refine Res.bind_congr fun r _ => ?_
  split
  · rfl
  · rw [Res.pure_eq, Res.pure_eq, Res.ok_bind]
    dsimp only
    rw [w4 s2 fun a => by rw [hm]; exact hdom a, hm]
    rfl

end

section
variable {c : FEnv} {s : Sys} {r : Res (Sys × List Spec.Fort.Out)} {outs : List Spec.Fort.Out}

theorem vars_any {m : Mem} {p e v x v' x' : Int} (h : Variables m [Spec.Fort.Out.int p v, Spec.Fort.Out.int e x]) :
    Variables m [Spec.Fort.Out.int p v', Spec.Fort.Out.int e x'] := by
  refine ⟨fun o ho a ha => ?_, ?_⟩
  · rcases List.mem_cons.1 ho with rfl | ho
    · exact h.accessible (Spec.Fort.Out.int p v) (by simp) a ha
    · cases List.mem_singleton.1 ho
      exact h.accessible (Spec.Fort.Out.int e x) (by simp) a ha
  · have := (List.pairwise_cons.1 h.apart).1 _ (List.mem_singleton.2 rfl)
    refine List.pairwise_cons.2 ⟨fun o ho a ha => ?_, List.pairwise_singleton ..⟩
    cases List.mem_singleton.1 ho
    exact this a ha

theorem vars_access {m : Mem} {p v : Int} {l : List Spec.Fort.Out} (h : Variables m (Spec.Fort.Out.int p v :: l)) : ∀ a, p ≤ a → a < p + 4 → (m a).isSome = true :=
  fun a h1 h2 => h.accessible _ (List.mem_cons_self ..) a ⟨h1, by simp [Spec.Fort.Out.int]; omega⟩

theorem isend_in {buf n t d g k q e : Int} (hm : (FCall.isend buf n t d g k q e).meaning c s = some r) (ho : (FCall.isend buf n t d g k q e).own c s.mem = some outs)
    (hv : Variables s.mem outs) (hc : (FCall.isend buf n t d g k q e).Clear c s) : Performs c.bo ((FCall.isend buf n t d g k q e).inPlace c s) r := by
  simp only [FCall.own, Option.bind_eq_bind, Option.bind_eq_some_iff, Option.map_eq_some_iff, Option.pure_def, Option.some.injEq] at ho
  obtain ⟨_, ⟨rv, h1, rfl⟩, _, ⟨ev, h2, rfl⟩, rfl⟩ := ho
  have hm' := hm
  simp only [FCall.meaning, Option.bind_eq_bind, Option.bind_eq_some_iff, Option.pure_def, Option.some.injEq] at hm'
  obtain ⟨n', g1, t', g2, d', g3, g', g4, k', g5, rfl⟩ := hm'
  have e1 : (FCall.isend buf n t d g k q e).inPlace c s = (FCall.isend buf n t d g k q e).exec c s := by
    show mpi_isend c s buf n t d g k q e = Bind.mpi_isend c s buf n t d g k q e
    unfold mpi_isend Bind.mpi_isend Bind.int Bind.done
    rw [ldInt_eq, ldInt_eq, ldInt_eq, ldInt_eq, ldInt_eq, g1, g2, g3, g4, g5]
    simp only [ofOpt, Res.ok_bind]
    rw [isend_early _ _ _ _ _ _ _ (vars_access hv) (hc _ _ _ _ _ g1 g2 g3 g4 g5), bind_assoc]
  rw [e1]
  refine C50_performs_partial trivial hm fun s' outs' h => ?_
  obtain ⟨x, _, hx⟩ := Res.bind_eq_ok.1 h
  cases hx
  exact vars_any hv

theorem irsend_in {buf n t d g k q e : Int} (hm : (FCall.irsend buf n t d g k q e).meaning c s = some r) (ho : (FCall.irsend buf n t d g k q e).own c s.mem = some outs)
    (hv : Variables s.mem outs) (hc : (FCall.irsend buf n t d g k q e).Clear c s) : Performs c.bo ((FCall.irsend buf n t d g k q e).inPlace c s) r := by
  simp only [FCall.own, Option.bind_eq_bind, Option.bind_eq_some_iff, Option.map_eq_some_iff, Option.pure_def, Option.some.injEq] at ho
  obtain ⟨_, ⟨rv, h1, rfl⟩, _, ⟨ev, h2, rfl⟩, rfl⟩ := ho
  have hm' := hm
  simp only [FCall.meaning, Option.bind_eq_bind, Option.bind_eq_some_iff, Option.pure_def, Option.some.injEq] at hm'
  obtain ⟨n', g1, t', g2, d', g3, g', g4, k', g5, rfl⟩ := hm'
  have e1 : (FCall.irsend buf n t d g k q e).inPlace c s = (FCall.irsend buf n t d g k q e).exec c s := by
    show mpi_irsend c s buf n t d g k q e = Bind.mpi_irsend c s buf n t d g k q e
    unfold mpi_irsend Bind.mpi_irsend Bind.int Bind.done
    rw [ldInt_eq, ldInt_eq, ldInt_eq, ldInt_eq, ldInt_eq, g1, g2, g3, g4, g5]
    simp only [ofOpt, Res.ok_bind]
    rw [irsend_early _ _ _ _ _ _ _ (vars_access hv) (hc _ _ _ _ _ g1 g2 g3 g4 g5).1 (hc _ _ _ _ _ g1 g2 g3 g4 g5).2, bind_assoc]
  rw [e1]
  refine C50_performs_partial trivial hm fun s' outs' h => ?_
  obtain ⟨x, _, hx⟩ := Res.bind_eq_ok.1 h
  cases hx
  exact vars_any hv

theorem irecv_in {buf n t d g k q e : Int} (hm : (FCall.irecv buf n t d g k q e).meaning c s = some r) (ho : (FCall.irecv buf n t d g k q e).own c s.mem = some outs)
    (hv : Variables s.mem outs) (hc : (FCall.irecv buf n t d g k q e).Clear c s) : Performs c.bo ((FCall.irecv buf n t d g k q e).inPlace c s) r := by
  simp only [FCall.own, Option.bind_eq_bind, Option.bind_eq_some_iff, Option.map_eq_some_iff, Option.pure_def, Option.some.injEq] at ho
  obtain ⟨_, ⟨rv, h1, rfl⟩, _, ⟨ev, h2, rfl⟩, rfl⟩ := ho
  have hm' := hm
  simp only [FCall.meaning, Option.bind_eq_bind, Option.bind_eq_some_iff, Option.pure_def, Option.some.injEq] at hm'
  obtain ⟨n', g1, t', g2, d', g3, g', g4, k', g5, rfl⟩ := hm'
  have e1 : (FCall.irecv buf n t d g k q e).inPlace c s = (FCall.irecv buf n t d g k q e).exec c s := by
    show mpi_irecv c s buf n t d g k q e = Bind.mpi_irecv c s buf n t d g k q e
    unfold mpi_irecv Bind.mpi_irecv Bind.int Bind.done
    rw [ldInt_eq, ldInt_eq, ldInt_eq, ldInt_eq, ldInt_eq, g1, g2, g3, g4, g5]
    simp only [ofOpt, Res.ok_bind]
    rw [irecv_early _ _ _ _ _ _ _ (vars_access hv) (hc _ _ _ _ _ g1 g2 g3 g4 g5), bind_assoc]
  rw [e1]
  refine C50_performs_partial trivial hm fun s' outs' h => ?_
  obtain ⟨x, _, hx⟩ := Res.bind_eq_ok.1 h
  cases hx
  exact vars_any hv

end

end Place

end MpiSerial
