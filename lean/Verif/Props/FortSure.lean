import Verif.Proofs.FortSure
import Verif.Props.MoveFort

/-!
# C85: a Fortran program has one run

C64 lets the machines write anything into the statuses of completed sends.  A program that ignores them has one run, whatever
the storage of requests held before.
-/

set_option autoImplicit false

namespace MpiSerial

/-- C85: a conforming Fortran program that asks for no status of a completed send has exactly one run on the reference
machine, and that is its run on the library. -/
theorem C85_one_run {c : FEnv} {p : FProg} {m : Mem} {n : Nat} (hn : n ≤ 1073741823)
    (h : p.Conforms (Mach.machine c.env) c n [] (.start m)) (hs : p.Settled (Mach.machine c.env) c n [] (.start m))
    (t : List Mem × Option Fate) : p.May (Mach.machine c.env) c n [] (.start m) t ↔ t = p.run c n [] (Sys.start m) :=
  ⟨fun ht => FProg.May.unique n _ _ _ _ hs ht (C64_reference_partial hn h), fun ht => ht ▸ C64_reference_partial hn h⟩

/-- C85: the same on the machine of the standard. -/
theorem C85_one_run_standard {c : FEnv} (hc : c.env.cfg.Ok) (hz : ZeroGarbage c.env) {p : FProg} {m : Mem} {n : Nat} (hn : n ≤ 1073741823)
    (h : p.Conforms (Ideal.machine c.env) c n [] (.start m)) (hs : p.Settled (Ideal.machine c.env) c n [] (.start m))
    (t : List Mem × Option Fate) : p.May (Ideal.machine c.env) c n [] (.start m) t ↔ t = p.run c n [] (Sys.start m) :=
  ⟨fun ht => FProg.May.unique n _ _ _ _ hs ht (C64_standard_partial hc hz hn h), fun ht => ht ▸ C64_standard_partial hc hz hn h⟩

/-- C85: what the storage of requests held before they were made does not show to such a program. -/
theorem C85_junk {c : FEnv} {p : FProg} {m : Mem} {n : Nat} (hn : n ≤ 1073741823)
    (h : p.Conforms (Mach.machine c.env) c n [] (.start m)) (hs : p.Settled (Mach.machine c.env) c n [] (.start m))
    (j : Nat → ReqRec) : p.run (c.withJunk j) n [] (Sys.start m) = p.run c n [] (Sys.start m) := by
  refine (C85_one_run hn h hs _).mp ((may_withJunk (j := j) n [] _).mp ?_)
  have h' : p.Conforms (Mach.machine (c.withJunk j).env) (c.withJunk j) n [] (.start m) := by
    rw [show Mach.machine (c.withJunk j).env = Mach.machine c.env from Mach.machine_withJunk ..]
    exact conforms_withJunk n [] _ h
  have := C64_reference_partial hn h'
  rwa [show Mach.machine (c.withJunk j).env = Mach.machine c.env from Mach.machine_withJunk ..] at this

/-- C84 without moving the leftovers: such a program, with its variables `δ` further on, sees the same in them and ends in the
same way on the same machine. -/
theorem C84_fortran_conforming {δ : Int} {c : FEnv} {p q : FProg} {m : Mem} {n : Nat} (hn : n ≤ 1073741823)
    (h : p.Conforms (Mach.machine c.env) c n [] (.start m)) (hs : p.Settled (Mach.machine c.env) c n [] (.start m))
    (hpq : p.MovedTo δ q) (hp : ∀ l st, p l = some st → st.Moves δ c.ptrs) (hm : m.Fits δ) :
    q.run { c with ptrs := c.ptrs.moved δ } n [] (Sys.start (m.moved δ)) =
      ((p.run c n [] (Sys.start m)).1.map (Mem.moved δ), (p.run c n [] (Sys.start m)).2) := by
  have hj := C85_junk hn h hs fun k => (c.env.junk k).moved (-δ)
  have hc : (c.withJunk fun k => (c.env.junk k).moved (-δ)).moved δ = { c with ptrs := c.ptrs.moved δ } := by
    obtain ⟨⟨cfg, junk, garbage⟩, bo, ptrs⟩ := c
    simp only [FEnv.moved, FEnv.withJunk, Env.withJunk, Env.moved, FEnv.mk.injEq, Env.mk.injEq, and_true, true_and]
    funext k
    simp only [ReqRec.moved, Int.neg_add_cancel_right]
  have := C84_fortran_program (c.withJunk fun k => (c.env.junk k).moved (-δ)) hpq hp n [] (Sys.start m) hm
  rw [hc, hj] at this
  exact this

section
variable {σ : Type} {K : FMachine σ} {c : FEnv} {p : FProg} {n : Nat} {seen : List Mem} {x : σ}

theorem FProg.settled_init (a : FortArgs) (hp : p seen = some (.init a))
    (hn : p.Settled K c n (K.mem (K.nextInit x a) :: seen) (K.nextInit x a)) : p.Settled K c (n + 1) seen x := by
  intro st hst
  rw [hp] at hst
  cases hst
  refine ⟨trivial, fun x' hx => ?_⟩
  cases hx with
  | init ha =>
    unfold FMachine.nextInit at hn
    rw [ha] at hn
    exact hn

theorem FProg.settled_call (fc : FCall) (call : Call) (f : MpiSerial.Out → List Spec.Fort.Out)
    (hp : p seen = some (.call fc)) (hs : fc.Supported c (K.mem x)) (hd : fc.deed c (K.mem x) = some (.call call f))
    (hl : K.legal x call) (hret : (K.answer x call).returned = true) (hset : K.Settled x call)
    (hk : ((K.answer x call).getD (x, ⟨[], []⟩)).2.done.map StPtr.kept = call.statuses.map StPtr.kept)
    (hv : variablesOk (K.mem x) (f ((K.answer x call).getD (x, ⟨[], []⟩)).2) = true)
    (hv' : variablesOk (K.mem ((K.answer x call).getD (x, ⟨[], []⟩)).1) (f ((K.answer x call).getD (x, ⟨[], []⟩)).2) = true)
    (hn : p.Settled K c n (K.mem (K.next c.bo x call f) :: seen) (K.next c.bo x call f)) :
    p.Settled K c (n + 1) seen x := by
  intro st hst
  rw [hp] at hst
  cases hst
  refine ⟨fun call' f' h => ?_, fun x' hx => ?_⟩
  · rw [hd] at h
    cases h
    exact hset
  · rw [(FMachine.one_way (c := c) fc call f hs hd hl hret hset hk hv hv').2 x' hx]
    exact hn

end

namespace FDemo

theorem settled5 (a b c d : Mem) : exchange.Settled (Mach.machine env0) cl 1 [a, b, c, d] X4 := by
  refine FProg.settled_call (x := X4) waitSend' (.wait 3 .null) (two 3108 5000) rfl trivial
    (waitSend'_deed _ (by decide +kernel)) (Or.inr ⟨1, of_decide_eq_true (by decide +kernel)⟩) (by decide +kernel)
    (.inr fun st h => ?_) (by decide +kernel) (by decide +kernel) (by decide +kernel) trivial
  have : st = .null := by simpa [Call.statuses] using h
  rw [this]
  rfl

theorem settled4 (a b c : Mem) : exchange.Settled (Mach.machine env0) cl 2 [a, b, c] X3 :=
  FProg.settled_call (x := X3) wait' (.wait 2 (.obj ⟨0, 0, 0, 0⟩)) (two 3100 3200) rfl trivial
    (wait'_deed _ (by decide +kernel)) (Or.inr ⟨0, of_decide_eq_true (by decide +kernel)⟩) (by decide +kernel) (.inl X3_receives) (by decide +kernel)
    (by decide +kernel) (by decide +kernel) (settled5 _ _ _ _)

theorem settled3 (a b : Mem) : exchange.Settled (Mach.machine env0) cl 3 [a, b] X2 := by
  have hc : P2PArgs env0 X2.L (-1) 0 1 := ⟨.simple (by decide) (by decide), .inl ⟨0, of_decide_eq_true (by decide +kernel)⟩⟩
  exact FProg.settled_call (x := X2) isend' (.isend 2000 3 (-1) 0 5 1) (one 3108) rfl trivial
    (isend'_deed _ (by decide +kernel)) hc (by decide +kernel) (.inr fun _ h => nomatch h) (by decide +kernel) (by decide +kernel)
    (by decide +kernel) (settled4 _ _ _)

theorem settled2 (a : Mem) : exchange.Settled (Mach.machine env0) cl 4 [a] X1 := by
  have hc : P2PArgs env0 X1.L (-1) (-1) 1 := ⟨.simple (by decide) (by decide), .inl ⟨0, of_decide_eq_true (by decide +kernel)⟩⟩
  exact FProg.settled_call (x := X1) irecv' (.irecv 2200 3 (-1) (-1) 5 1) (one 3100) rfl trivial
    (irecv'_deed _ (by decide +kernel)) hc (by decide +kernel) (.inr fun _ h => nomatch h) (by decide +kernel) (by decide +kernel)
    (by decide +kernel) (settled3 _ _)

/-- `exchange` looks at the status of its receive and ignores that of its send. -/
theorem exchange_settled : exchange.Settled (Mach.machine env0) cl 5 [] (.start vars) :=
  FProg.settled_init args rfl (by rw [X1_eq]; exact settled2 _)

example (j : Nat → ReqRec) : exchange.run (cl.withJunk j) 5 [] (Sys.start vars) = exchange.run cl 5 [] (Sys.start vars) :=
  C85_junk (c := cl) (by decide) exchange_conforms exchange_settled j

example (t : List Mem × Option Fate) : exchange.May (Mach.machine env0) cl 5 [] (.start vars) t ↔
    t = exchange.run cl 5 [] (Sys.start vars) :=
  C85_one_run (c := cl) (by decide) exchange_conforms exchange_settled t

theorem ideal_settled5 (a b c d : Mem) : exchange.Settled (Ideal.machine env0) cl 1 [a, b, c, d] Y4 := by
  refine FProg.settled_call (x := Y4) waitSend' (.wait 3 .null) (two 3108 5000) rfl trivial
    (waitSend'_deed _ (by decide +kernel)) (Or.inr ⟨1, of_decide_eq_true (by decide +kernel)⟩) (by decide +kernel)
    (.inr fun st h => ?_) (by decide +kernel) (by decide +kernel) (by decide +kernel) trivial
  have : st = .null := by simpa [Call.statuses] using h
  rw [this]
  rfl

theorem ideal_settled4 (a b c : Mem) : exchange.Settled (Ideal.machine env0) cl 2 [a, b, c] Y3 :=
  FProg.settled_call (x := Y3) wait' (.wait 2 (.obj ⟨0, 0, 0, 0⟩)) (two 3100 3200) rfl trivial
    (wait'_deed _ (by decide +kernel)) (Or.inr ⟨0, of_decide_eq_true (by decide +kernel)⟩) (by decide +kernel) (.inl Y3_receives) (by decide +kernel)
    (by decide +kernel) (by decide +kernel) (ideal_settled5 _ _ _ _)

theorem ideal_settled3 (a b : Mem) : exchange.Settled (Ideal.machine env0) cl 3 [a, b] Y2 :=
  FProg.settled_call (x := Y2) isend' (.isend 2000 3 (-1) 0 5 1) (one 3108) rfl trivial
    (isend'_deed _ (by decide +kernel)) Y2_legal (by decide +kernel) (.inr fun _ h => nomatch h) (by decide +kernel) (by decide +kernel)
    (by decide +kernel) (ideal_settled4 _ _ _)

theorem ideal_settled2 (a : Mem) : exchange.Settled (Ideal.machine env0) cl 4 [a] Y1 :=
  FProg.settled_call (x := Y1) irecv' (.irecv 2200 3 (-1) (-1) 5 1) (one 3100) rfl trivial
    (irecv'_deed _ (by decide +kernel)) Y1_legal (by decide +kernel) (.inr fun _ h => nomatch h) (by decide +kernel) (by decide +kernel)
    (by decide +kernel) (ideal_settled3 _ _)

theorem exchange_ideal_settled : exchange.Settled (Ideal.machine env0) cl 5 [] (.start vars) :=
  FProg.settled_init args rfl (by rw [Y1_eq]; exact ideal_settled2 _)

/-- On the machine of the standard `exchange` has one run, too: that on the library. -/
example (t : List Mem × Option Fate) : exchange.May (Ideal.machine env0) cl 5 [] (.start vars) t ↔
    t = exchange.run cl 5 [] (Sys.start vars) :=
  C85_one_run_standard (c := cl) cfg_default_ok (fun _ => ⟨rfl, rfl⟩) (by decide) exchange_ideal exchange_ideal_settled t

/-- call MPI_WAIT(sreq, status, ierror) -/
def waitSendStatus : FCall := .wait 3108 3200 3104

/-- Looks at the status of its send. -/
def curious : FProg
  | [] => some (.init args)
  | [_] => some (.call irecv')
  | [_, _] => some (.call isend')
  | [_, _, _] => some (.call waitSendStatus)
  | _ => none

/-- C85 needs the statuses of sends to be ignored: the leftovers show there. -/
theorem C85_needs_settled (b : Bool) :
    (curious.run (cl.withJunk fun _ => if b then ⟨none, 0, 77, 88, 0, 0, 0⟩ else ⟨none, 0, 0, 0, 0, 0, 0⟩) 4 [] (Sys.start vars)).1.head?.map
      (fun m => [3200, 3204].map (Spec.Fort.intAt .little m)) = some (if b then [some 77, some 88] else [some 0, some 0]) := by
  cases b <;> decide +kernel

/-! `exchange` with its variables only, and moved -/

def W1 : Mach := (Mach.start varsLow).init.getD (.start varsLow)
def W2 : Mach := (Mach.machine env0).next .little W1 (.irecv 2200 3 (-1) (-1) 5 1) (one 3100)
def W3 : Mach := (Mach.machine env0).next .little W2 (.isend 2000 3 (-1) 0 5 1) (one 3108)
def W4 : Mach := (Mach.machine env0).next .little W3 (.wait 2 (.obj ⟨0, 0, 0, 0⟩)) (two 3100 3200)

theorem W1_eq : (Mach.machine env0).nextInit (.start varsLow) args = W1 := by
  have h1 : (Mach.start varsLow).init = .ok W1 := Res.eq_getD _ (by decide +kernel)
  have h2 : (W1.fortChecks env0 args).returned = true := by decide +kernel
  unfold FMachine.nextInit
  show ((Mach.quiet ((Mach.start varsLow).init >>= fun M => M.fortChecks env0 args >>= fun _ => .ok M)).getD _).1 = W1
  rw [h1, Res.ok_bind]
  cases h3 : W1.fortChecks env0 args with
  | ok _ => rfl
  | _ => rw [h3] at h2; cases h2

theorem low_conforms5 (a b c d : Mem) : exchange.Conforms (Mach.machine env0) cl 1 [a, b, c, d] W4 := by
  refine FProg.conforms_call (x := W4) waitSend' (.wait 3 .null) (two 3108 5000) rfl trivial
    (waitSend'_deed _ (by decide +kernel)) (Or.inr ⟨1, of_decide_eq_true (by decide +kernel)⟩) (by decide +kernel)
    (.inr fun st h => ?_) (by decide +kernel) (by decide +kernel) (by decide +kernel) trivial
  have : st = .null := by simpa [Call.statuses] using h
  rw [this]
  rfl

theorem W3_receives : (Call.wait 2 (.obj ⟨0, 0, 0, 0⟩)).onlyReceives W3.L := by
  have h : (W3.L.objs.all fun e => e.1 != 2 || e.2 == .req 0) = true := by decide +kernel
  have h' : (W3.L.ops[0]?).map Op.kind = some .recv := by decide +kernel
  intro r hr i o hi ho
  have hr : r = 2 := by simpa [Call.requests] using hr
  subst hr
  rw [List.all_eq_true] at h
  have := h _ hi
  simp at this
  subst this
  rw [ho] at h'
  exact Option.some.inj h'

theorem low_conforms4 (a b c : Mem) : exchange.Conforms (Mach.machine env0) cl 2 [a, b, c] W3 :=
  FProg.conforms_call (x := W3) wait' (.wait 2 (.obj ⟨0, 0, 0, 0⟩)) (two 3100 3200) rfl trivial
    (wait'_deed _ (by decide +kernel)) (Or.inr ⟨0, of_decide_eq_true (by decide +kernel)⟩) (by decide +kernel) (.inl W3_receives) (by decide +kernel)
    (by decide +kernel) (by decide +kernel) (low_conforms5 _ _ _ _)

theorem low_conforms3 (a b : Mem) : exchange.Conforms (Mach.machine env0) cl 3 [a, b] W2 := by
  have hc : P2PArgs env0 W2.L (-1) 0 1 := ⟨.simple (by decide) (by decide), .inl ⟨0, of_decide_eq_true (by decide +kernel)⟩⟩
  exact FProg.conforms_call (x := W2) isend' (.isend 2000 3 (-1) 0 5 1) (one 3108) rfl trivial
    (isend'_deed _ (by decide +kernel)) hc (by decide +kernel) (.inr fun _ h => nomatch h) (by decide +kernel) (by decide +kernel)
    (by decide +kernel) (low_conforms4 _ _ _)

theorem low_conforms2 (a : Mem) : exchange.Conforms (Mach.machine env0) cl 4 [a] W1 := by
  have hc : P2PArgs env0 W1.L (-1) (-1) 1 := ⟨.simple (by decide) (by decide), .inl ⟨0, of_decide_eq_true (by decide +kernel)⟩⟩
  exact FProg.conforms_call (x := W1) irecv' (.irecv 2200 3 (-1) (-1) 5 1) (one 3100) rfl trivial
    (irecv'_deed _ (by decide +kernel)) hc (by decide +kernel) (.inr fun _ h => nomatch h) (by decide +kernel) (by decide +kernel)
    (by decide +kernel) (low_conforms3 _ _)

theorem low_conforms : exchange.Conforms (Mach.machine env0) cl 5 [] (.start varsLow) := by
  refine FProg.conforms_init args rfl ?_ (by rw [W1_eq]; exact low_conforms2 _)
  show ∀ n ∈ _, _
  decide +kernel

theorem low_settled5 (a b c d : Mem) : exchange.Settled (Mach.machine env0) cl 1 [a, b, c, d] W4 := by
  refine FProg.settled_call (x := W4) waitSend' (.wait 3 .null) (two 3108 5000) rfl trivial
    (waitSend'_deed _ (by decide +kernel)) (Or.inr ⟨1, of_decide_eq_true (by decide +kernel)⟩) (by decide +kernel)
    (.inr fun st h => ?_) (by decide +kernel) (by decide +kernel) (by decide +kernel) trivial
  have : st = .null := by simpa [Call.statuses] using h
  rw [this]
  rfl

theorem low_settled4 (a b c : Mem) : exchange.Settled (Mach.machine env0) cl 2 [a, b, c] W3 :=
  FProg.settled_call (x := W3) wait' (.wait 2 (.obj ⟨0, 0, 0, 0⟩)) (two 3100 3200) rfl trivial
    (wait'_deed _ (by decide +kernel)) (Or.inr ⟨0, of_decide_eq_true (by decide +kernel)⟩) (by decide +kernel) (.inl W3_receives) (by decide +kernel)
    (by decide +kernel) (by decide +kernel) (low_settled5 _ _ _ _)

theorem low_settled3 (a b : Mem) : exchange.Settled (Mach.machine env0) cl 3 [a, b] W2 := by
  have hc : P2PArgs env0 W2.L (-1) 0 1 := ⟨.simple (by decide) (by decide), .inl ⟨0, of_decide_eq_true (by decide +kernel)⟩⟩
  exact FProg.settled_call (x := W2) isend' (.isend 2000 3 (-1) 0 5 1) (one 3108) rfl trivial
    (isend'_deed _ (by decide +kernel)) hc (by decide +kernel) (.inr fun _ h => nomatch h) (by decide +kernel) (by decide +kernel)
    (by decide +kernel) (low_settled4 _ _ _)

theorem low_settled2 (a : Mem) : exchange.Settled (Mach.machine env0) cl 4 [a] W1 := by
  have hc : P2PArgs env0 W1.L (-1) (-1) 1 := ⟨.simple (by decide) (by decide), .inl ⟨0, of_decide_eq_true (by decide +kernel)⟩⟩
  exact FProg.settled_call (x := W1) irecv' (.irecv 2200 3 (-1) (-1) 5 1) (one 3100) rfl trivial
    (irecv'_deed _ (by decide +kernel)) hc (by decide +kernel) (.inr fun _ h => nomatch h) (by decide +kernel) (by decide +kernel)
    (by decide +kernel) (low_settled3 _ _)

theorem low_settled : exchange.Settled (Mach.machine env0) cl 5 [] (.start varsLow) :=
  FProg.settled_init args rfl (by rw [W1_eq]; exact low_settled2 _)

/-- The run on the same machine, 65536 bytes further on. -/
example : exchangeHigh.run { cl with ptrs := cl.ptrs.moved 65536 } 5 [] (Sys.start (varsLow.moved 65536)) =
    ((exchange.run cl 5 [] (Sys.start varsLow)).1.map (Mem.moved 65536), (exchange.run cl 5 [] (Sys.start varsLow)).2) :=
  C84_fortran_conforming (c := cl) (by decide) low_conforms low_settled exchangeHigh_moved exchange_moves varsLow_fits

end FDemo

end MpiSerial
