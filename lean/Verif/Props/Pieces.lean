import Verif.Proofs.Pieces
import Verif.Proofs.PlacePack
import Verif.Props.Asking
import Verif.Props.Coll

/-!
# C90: data may be moved in pieces
-/

set_option linter.unusedSimpArgs false
set_option autoImplicit false

namespace MpiSerial

open Res (Post)

section
variable {env : Env} {s : Sys} {L : Ledger}

theorem extent_typeOf (h : Up s) {t e : Int} (he : HasExtent env s t e) : ∃ ty, typeOf env s t = .ok (s, ty) ∧ Type_extent env.cfg ty = .ok (u64 e) := by
  unfold HasExtent MPI_Type_extent at he
  rw [Res.bind_eq_ok] at he
  obtain ⟨⟨s1, ty⟩, h1, he⟩ := he
  obtain rfl : s1 = s := typeOf_eq h env t _ h1
  dsimp only at he
  rw [Res.bind_eq_ok] at he
  obtain ⟨e', h2, he⟩ := he
  cases he
  exact ⟨ty, h1, h2⟩

theorem typeOf_over {t : Int} {ty : Typestruct} (h : typeOf env s t = .ok (s, ty)) (m : Mem) : typeOf env { s with mem := m } t = .ok ({ s with mem := m }, ty) := by
  have := Place.typeOf_on env s m t
  rw [h] at this
  exact this

theorem ptr_over {c : Int} {p : Option Loc} (h : s.ptr c = .ok (s, p)) (m : Mem) : Sys.ptr { s with mem := m } c = .ok ({ s with mem := m }, p) := by
  have := Place.ptr_on s m c
  rw [h] at this
  exact this

/-- C90: packing `a + b` items is packing `a` items and then, from where the next item lies and with the position where
the first call left it, `b` items: the same bytes, the same position, and the program ends in the same way if the
buffer is too small. -/
theorem C90_pack (h : Up s) {t e : Int} (he : HasExtent env s t e) {a b : Int} (ha : 0 ≤ a) (hb : 0 ≤ b) (inbuf outbuf outsize position comm : Int) :
    MPI_Pack env s inbuf (a + b) t outbuf outsize position comm =
      MPI_Pack env s inbuf a t outbuf outsize position comm >>= fun r => MPI_Pack env r.1 (padd inbuf (a * e)) b t outbuf outsize r.2 comm := by
  obtain ⟨ty, h1, h2⟩ := extent_typeOf h he
  unfold MPI_Pack
  rw [h1]
  simp only [Res.ok_bind, bind_assoc]
  refine Res.bind_congr fun r hr => ?_
  obtain ⟨s1, p⟩ := r
  obtain rfl : s1 = s := ptr_eq h comm _ hr
  dsimp only
  rw [Pack_add h2 s1.mem inbuf ha hb]
  simp only [bind_assoc]
  refine Res.bind_congr fun x _ => ?_
  obtain ⟨m, pos⟩ := x
  simp only [Res.ok_bind, Res.pure_eq]
  rw [typeOf_over h1 m]
  simp only [Res.ok_bind]
  rw [ptr_over hr m]
  rfl

/-- C90: and so is unpacking. -/
theorem C90_unpack (h : Up s) {t e : Int} (he : HasExtent env s t e) {a b : Int} (ha : 0 ≤ a) (hb : 0 ≤ b) (inbuf insize position outbuf comm : Int) :
    MPI_Unpack env s inbuf insize position outbuf (a + b) t comm =
      MPI_Unpack env s inbuf insize position outbuf a t comm >>= fun r => MPI_Unpack env r.1 inbuf insize r.2 (padd outbuf (a * e)) b t comm := by
  obtain ⟨ty, h1, h2⟩ := extent_typeOf h he
  unfold MPI_Unpack
  rw [h1]
  simp only [Res.ok_bind, bind_assoc]
  refine Res.bind_congr fun r hr => ?_
  obtain ⟨s1, p⟩ := r
  obtain rfl : s1 = s := ptr_eq h comm _ hr
  dsimp only
  rw [Unpack_add h2 s1.mem outbuf ha hb]
  simp only [bind_assoc]
  refine Res.bind_congr fun x _ => ?_
  obtain ⟨m, pos⟩ := x
  simp only [Res.ok_bind, Res.pure_eq]
  rw [typeOf_over h1 m]
  simp only [Res.ok_bind]
  rw [ptr_over hr m]
  rfl

/-! ## Collectives -/

theorem map_len {t : Typestruct} (h : t.WF) : ((typeMap t).length : Int) = t.count := by
  unfold typeMap
  rw [List.length_map]
  exact h.map_length

theorem extent_desc (h : Up s) (hr : Reach env s L) {t e : Int} {ty : Typestruct} (hd : L.desc env.cfg t = some ty) (he : HasExtent env s t e) :
    Type_extent env.cfg ty = .ok (u64 e) := by
  obtain ⟨ty', h1, h2⟩ := extent_typeOf h he
  obtain ⟨M, lst, hi⟩ := hr.inv
  rw [hi.typeOf hd] at h1
  cases h1
  exact h2

theorem copy_pieces (h : Up s) (hr : WfReach env s L) {st rt : Int} {ts tr : Typestruct} {e e' a b a' b' : Int} (hs : Divides env s L st ts e a b)
    (hd : Divides env s L rt tr e' a' b') (hn : SameElements ts tr a b a' b') (sb rb : Int) :
    copy_data2 env s sb (a + b) st rb (a' + b') rt =
      copy_data2 env s sb a st rb a' rt >>= fun s' => copy_data2 env s' (padd sb (a * e)) b st (padd rb (a' * e')) b' rt := by
  obtain ⟨hr, ht⟩ := hr.reach
  have w1 := ht.types _ _ hs.desc
  have w2 := ht.types _ _ hd.desc
  obtain ⟨M, lst, hi⟩ := hr.inv
  rw [copy_data2_desc hi h hs.desc hd.desc, copy_data2_desc hi h hs.desc hd.desc]
  have h1 := hs.number
  obtain ⟨h2, h3⟩ := hn
  rw [map_len w1] at h1 h2 h3
  rw [map_len w2] at h2 h3
  rw [Pcopy_add w1 w2 (extent_desc h hr hs.desc hs.extent) (extent_desc h hr hd.desc hd.extent) hs.first hs.second hd.first hd.second hs.offsets
    hd.offsets h1 h2 h3]
  simp only [bind_assoc, Res.ok_bind]
  refine Res.bind_congr fun m _ => ?_
  obtain ⟨M', lst', hi'⟩ := (Reach.step hr (.memory (m := m))).inv
  rw [copy_data2_desc hi' h hs.desc hd.desc]

/-- C90: a collective that moves `a + b` items moves them as two calls would, one for `a` items and one for `b` items
at the places where these lie. -/
theorem C90_collectives_partial (h : Up s) (hr : WfReach env s L) {st rt : Int} {ts tr : Typestruct} {e e' a b a' b' : Int} (hs : Divides env s L st ts e a b)
    (hd : Divides env s L rt tr e' a' b') (hn : SameElements ts tr a b a' b') (sb rb comm : Int) :
    (MPI_Alltoall env s sb (a + b) st rb (a' + b') rt comm =
      MPI_Alltoall env s sb a st rb a' rt comm >>= fun s' => MPI_Alltoall env s' (padd sb (a * e)) b st (padd rb (a' * e')) b' rt comm) ∧
    (sb ≠ MPI_IN_PLACE → padd sb (a * e) ≠ MPI_IN_PLACE →
      (MPI_Gather env s sb (a + b) st rb (a' + b') rt 0 comm =
        MPI_Gather env s sb a st rb a' rt 0 comm >>= fun s' => MPI_Gather env s' (padd sb (a * e)) b st (padd rb (a' * e')) b' rt 0 comm) ∧
      (MPI_Allgather env s sb (a + b) st rb (a' + b') rt comm =
        MPI_Allgather env s sb a st rb a' rt comm >>= fun s' => MPI_Allgather env s' (padd sb (a * e)) b st (padd rb (a' * e')) b' rt comm)) ∧
    (rb ≠ MPI_IN_PLACE → padd rb (a' * e') ≠ MPI_IN_PLACE →
      MPI_Scatter env s sb (a + b) st rb (a' + b') rt 0 comm =
        MPI_Scatter env s sb a st rb a' rt 0 comm >>= fun s' => MPI_Scatter env s' (padd sb (a * e)) b st (padd rb (a' * e')) b' rt 0 comm) := by
  have key := copy_pieces h hr hs hd hn sb rb
  refine ⟨key, fun h1 h2 => ?_, fun h1 h2 => ?_⟩
  · unfold MPI_Gather MPI_Allgather
    simp only [if_neg h1, if_neg h2, if_neg (show ¬ (0 : Int) = MPI_ROOT by decide), ne_eq, not_true_eq_false, if_false]
    exact ⟨key, key⟩
  · unfold MPI_Scatter
    simp only [if_neg h1, if_neg h2, if_neg (show ¬ (0 : Int) = MPI_ROOT by decide), ne_eq, not_true_eq_false, if_false]
    exact key

/-- C90: the same for reductions, where both sides have the same datatype. -/
theorem C90_reductions_partial (h : Up s) (hr : WfReach env s L) {t : Int} {ty : Typestruct} {e a b : Int} (hs : Divides env s L t ty e a b) (sb rb op comm : Int) :
    (MPI_Reduce env s sb rb (a + b) t op 0 comm =
      MPI_Reduce env s sb rb a t op 0 comm >>= fun s' => MPI_Reduce env s' (padd sb (a * e)) (padd rb (a * e)) b t op 0 comm) ∧
    (MPI_Scan env s sb rb (a + b) t op comm =
      MPI_Scan env s sb rb a t op comm >>= fun s' => MPI_Scan env s' (padd sb (a * e)) (padd rb (a * e)) b t op comm) ∧
    (sb ≠ MPI_IN_PLACE → padd sb (a * e) ≠ MPI_IN_PLACE →
      MPI_Allreduce env s sb rb (a + b) t op comm =
        MPI_Allreduce env s sb rb a t op comm >>= fun s' => MPI_Allreduce env s' (padd sb (a * e)) (padd rb (a * e)) b t op comm) := by
  have key := copy_pieces h hr hs hs ⟨rfl, Int.le_refl _⟩ sb rb
  refine ⟨?_, key, fun h1 h2 => ?_⟩
  · unfold MPI_Reduce
    simp only [ne_eq, not_true_eq_false, if_false]
    exact key
  · unfold MPI_Allreduce
    simp only [if_neg h1, if_neg h2]
    exact key

/-- C90: a message to oneself of `a + b` items leaves the memory that two messages leave, whatever the program does in
between without changing the memory. -/
theorem C90_message_partial (h : Up s) (hr : WfReach env s L) {st rt : Int} {ts tr : Typestruct} {e e' a b a' b' : Int} (hs : Divides env s L st ts e a b)
    (hd : Divides env s L rt tr e' a' b') (hn : SameElements ts tr a b a' b') {comm tag comm' tag' : Int} (hx : CanExchange L comm tag)
    {next : Mem → Sys} (hnext : ∀ m, (next m).mem = m ∧ ∃ L', Reach env (next m) L' ∧ L'.desc env.cfg st = some ts ∧ L'.desc env.cfg rt = some tr ∧
      CanExchange L' comm' tag') (sb rb : Int) :
    (MPI_Sendrecv env s sb (a + b) st 0 tag rb (a' + b') rt 0 tag comm .null >>= fun x => .ok x.1.mem) =
      MPI_Sendrecv env s sb a st 0 tag rb a' rt 0 tag comm .null >>= fun x =>
      MPI_Sendrecv env (next x.1.mem) (padd sb (a * e)) b st 0 tag' (padd rb (a' * e')) b' rt 0 tag' comm' .null >>= fun y => .ok y.1.mem := by
  have hq := hr.reach.1
  have mem : ∀ {s : Sys} {L : Ledger} {comm tag : Int}, Reach env s L → L.desc env.cfg st = some ts → L.desc env.cfg rt = some tr → CanExchange L comm tag →
      ∀ sb sc rb rc : Int, (MPI_Sendrecv env s sb sc st 0 tag rb rc rt 0 tag comm .null >>= fun x => .ok x.1.mem) =
        Pcopy_data2 env.cfg s.mem sb sc ts rb rc tr := by
    intro s L comm tag hr h1 h2 hx sb sc rb rc
    obtain ⟨c, hcm, ha, hb⟩ := hx.live
    obtain ⟨S, hS, he⟩ := C15_sendrecv hr hcm hx.queue (src := 0) (Or.inl rfl) sb sc st tag rb rc rt tag (st := .null)
      (by simp) ha hb (by simp [accepts]) hx.room h1 h2
    rw [he]
    cases Pcopy_data2 env.cfg s.mem sb sc ts rb rc tr <;> simp [hS]
  have w1 := hr.reach.2.types _ _ hs.desc
  have w2 := hr.reach.2.types _ _ hd.desc
  have h1 := hs.number
  obtain ⟨h2, h3⟩ := hn
  rw [map_len w1] at h1 h2 h3
  rw [map_len w2] at h2 h3
  rw [mem hq hs.desc hd.desc hx, Pcopy_add w1 w2 (extent_desc h hq hs.desc hs.extent) (extent_desc h hq hd.desc hd.extent) hs.first hs.second hd.first
    hd.second hs.offsets hd.offsets h1 h2 h3, ← mem hq hs.desc hd.desc hx, bind_assoc]
  refine Res.bind_congr fun x _ => ?_
  rw [Res.ok_bind]
  obtain ⟨hm, L', hr', d1, d2, hx'⟩ := hnext x.1.mem
  rw [mem hr' d1 d2 hx', hm]

end

/-! ## Instances -/

/-- The state after MPI_Init, and a datatype of two characters 2147483647 bytes apart, committed. -/
def farType : Sys × Int :=
  (MPI_Type_hvector env0 CL.s 2 1 2147483647 (-1) >>= fun x => MPI_Type_commit env0 x.1 x.2 >>= fun s => .ok (s, x.2)).getD (CL.s, 0)

/-- C90 fails when offsets are no `int` (copy.c:82-83): of two items of extent 2^31 the second lies 2^31 bytes after the
first; one MPI_Alltoall of both does not write there, two calls do. -/
theorem C90_fails_far :
    ((MPI_Type_extent env0 farType.1 farType.2).getD (farType.1, 0)).2 = 2147483648 ∧
    ((MPI_Alltoall env0 farType.1 5000000000 (1 + 1) farType.2 10000000001 (1 + 1) farType.2 1).getD farType.1).mem (10000000001 + 2147483648) =
      memAll (10000000001 + 2147483648) ∧
    ((MPI_Alltoall env0 farType.1 5000000000 1 farType.2 10000000001 1 farType.2 1 >>= fun s =>
      MPI_Alltoall env0 s (padd 5000000000 (1 * 2147483648)) 1 farType.2 (padd 10000000001 (1 * 2147483648)) 1 farType.2 1).getD farType.1).mem
        (10000000001 + 2147483648) = memAll (5000000000 + 2147483648) ∧
    memAll (5000000000 + 2147483648) ≠ memAll (10000000001 + 2147483648) := by
  decide +kernel

theorem CL_wf : WfReach env0 CL.s CL.L := Demo.init_wf .start (by decide +kernel) (by decide +kernel)

/-- Two MPI_INT and three more. -/
theorem CL_divides : Divides env0 CL.s CL.L (-3) (simpletypes env0.cfg)[2] 4 2 3 :=
  ⟨by decide +kernel, C35_fails_displacement.1, by decide, by decide, by unfold IntOffsets; decide +kernel, by decide +kernel⟩

example (out size pos : Int) :
    MPI_Pack env0 CL.s 1000 5 (-3) out size pos 1 = MPI_Pack env0 CL.s 1000 2 (-3) out size pos 1 >>= fun r => MPI_Pack env0 r.1 1008 3 (-3) out size r.2 1 :=
  C90_pack (a := 2) (b := 3) (by decide +kernel) C35_fails_displacement.1 (by decide) (by decide) 1000 out size pos 1

/-- In a buffer that has room for three: the first call returns, the second ends the program, as does the one call. -/
example : (MPI_Pack env0 CL.s 1000 2 (-3) 3000 12 0 1).returned = true ∧
    (MPI_Pack env0 CL.s 1000 5 (-3) 3000 12 0 1).returned = false ∧ (MPI_Pack env0 CL.s 1000 5 (-3) 3000 20 0 1).returned = true := by
  decide +kernel

example : MPI_Scan env0 CL.s 1000 2000 5 (-3) 0 1 = MPI_Scan env0 CL.s 1000 2000 2 (-3) 0 1 >>= fun s => MPI_Scan env0 s 1008 2008 3 (-3) 0 1 :=
  (C90_reductions_partial (by decide +kernel) CL_wf CL_divides 1000 2000 0 1).2.1

example : (MPI_Scan env0 CL.s 1000 2000 5 (-3) 0 1).returned = true := by decide +kernel

/-- The two messages may go out on MPI_COMM_WORLD with different tags. -/
example : (MPI_Sendrecv env0 CL.s 1000 5 (-3) 0 7 2000 5 (-3) 0 7 1 .null >>= fun x => .ok x.1.mem) =
    MPI_Sendrecv env0 CL.s 1000 2 (-3) 0 7 2000 2 (-3) 0 7 1 .null >>= fun x =>
    MPI_Sendrecv env0 { CL.s with mem := x.1.mem } 1008 3 (-3) 0 8 2008 3 (-3) 0 8 1 .null >>= fun y => .ok y.1.mem :=
  have hno : ∀ k p, NoOpen CL.L k 0 p := by
    intro k p o ho
    rw [show CL.L.ops = [] by decide +kernel] at ho
    cases ho
  have hx : ∀ tag, CanExchange CL.L 1 tag := fun tag =>
    ⟨⟨0, by decide +kernel, hno .send _, hno .recv _⟩, by decide +kernel, by decide +kernel⟩
  C90_message_partial (by decide +kernel) CL_wf CL_divides CL_divides ⟨rfl, Int.le_refl _⟩ (hx 7) (next := fun m => { CL.s with mem := m })
    (fun _ => ⟨rfl, CL.L, Reach.step CL_ok .memory, CL_divides.desc, CL_divides.desc, hx 8⟩) 1000 2000

end MpiSerial
