import Verif.Proofs.FortMach
import Verif.Props.Fortran
import Verif.Props.Fort
import Verif.Props.Ideal

/-!
# C64: Fortran programs behave as on the reference machine and as on the machine of the standard

C50 says what one call through the bindings does in terms of the C function, C62 and C63 say what C programs see.
Here is what Fortran programs see, the bindings included: every run on the library is a possible run on the machine.

Partial: `FCall.Supported` (see C50), and for the machine of the standard the restrictions of C63.
-/

set_option linter.unusedSimpArgs false
set_option autoImplicit false

namespace MpiSerial

open Spec.Fort
open Res (Rel)

/-- C64: what a Fortran program of fewer than 2^30 steps sees on the library (all of its memory after every step, and how it
ends), it may see on the reference machine. -/
theorem C64_reference_partial {c : FEnv} {p : FProg} {m : Mem} {n : Nat} (hn : n ≤ 1073741823)
    (h : p.Conforms (Mach.machine c.env) c n [] (.start m)) :
    p.May (Mach.machine c.env) c n [] (.start m) (p.run c n [] (Sys.start m)) :=
  run_may (mach_implements c.env) n 0 [] _ _ ⟨⟨.start, .start, Or.inl ⟨rfl, rfl⟩, rfl, rfl⟩, Nat.le_refl _, Nat.le_refl _⟩ (by omega) h

/-- C64: the same for the machine of the standard. -/
theorem C64_standard_partial {c : FEnv} (hc : c.env.cfg.Ok) (hz : ZeroGarbage c.env) {p : FProg} {m : Mem} {n : Nat} (hn : n ≤ 1073741823)
    (h : p.Conforms (Ideal.machine c.env) c n [] (.start m)) :
    p.May (Ideal.machine c.env) c n [] (.start m) (p.run c n [] (Sys.start m)) :=
  run_may (ideal_implements hc hz) n 0 [] _ _
    ⟨.start m, ⟨⟨.start, .start, Or.inl ⟨rfl, rfl⟩, rfl, rfl⟩, Nat.le_refl _, Nat.le_refl _⟩, .start _ _⟩ (by omega) h

/-! ## The machine has a choice only in the statuses of sends -/

theorem covers_byte {bo : ByteOrder} {o : Spec.Fort.Out} {a : Int} (h : o.covers a) :
    ∃ i v k, o.vals[i]? = some v ∧ k < o.width ∧ o.byteAddr bo i k = a := by
  obtain ⟨h1, h2⟩ := h
  have hw : 0 < o.width := by
    rcases Nat.eq_zero_or_pos o.width with h | h
    · rw [h] at h2; simp at h2; omega
    · exact h
  generalize hd : (a - o.addr).toNat = d
  have hd' : a = o.addr + d := by omega
  have hdl : d < o.width * o.vals.length := by
    have : (d : Int) < ((o.width * o.vals.length : Nat) : Int) := by rw [Int.natCast_mul]; omega
    exact Int.ofNat_lt.mp this
  have hi : d / o.width < o.vals.length := Nat.div_lt_of_lt_mul hdl
  have hm := Nat.mod_lt d hw
  have hs := Nat.div_add_mod d o.width
  have hs' : (o.width : Int) * ((d / o.width : Nat) : Int) + ((d % o.width : Nat) : Int) = d := by
    rw [← Int.natCast_mul, ← Int.natCast_add, hs]
  cases bo with
  | little => exact ⟨d / o.width, _, d % o.width, List.getElem?_eq_getElem hi, hm, by simp only [Out.byteAddr]; omega⟩
  | big => exact ⟨d / o.width, _, o.width - 1 - d % o.width, List.getElem?_eq_getElem hi, by omega, by simp only [Out.byteAddr]; omega⟩

/-- Setting variables has one result. -/
theorem Wrote.unique {bo : ByteOrder} {m m₁ m₂ : Mem} {outs : List Spec.Fort.Out} (h1 : Wrote bo m m₁ outs) (h2 : Wrote bo m m₂ outs) : m₁ = m₂ := by
  funext a
  by_cases h : ∃ o ∈ outs, o.covers a
  · obtain ⟨o, ho, hc⟩ := h
    obtain ⟨i, v, k, hi, hk, rfl⟩ := covers_byte (bo := bo) hc
    obtain ⟨b1, e1, f1⟩ := h1.held o ho i v hi k hk
    obtain ⟨b2, e2, f2⟩ := h2.held o ho i v hi k hk
    rw [e1, e2]
    have : b1.toNat = b2.toNat := by omega
    rw [UInt8.toNat_inj.mp this]
  · have h' : ∀ o ∈ outs, ¬ o.covers a := fun o ho hc => h ⟨o, ho, hc⟩
    rw [h1.frame a h', h2.frame a h']

/-- The answer of a call is used for its integers and for the fields of its statuses. -/
theorem FCall.deed_done {c : FEnv} {m : Mem} {fc : FCall} {call : Call} {f : MpiSerial.Out → List Spec.Fort.Out}
    (h : fc.deed c m = some (.call call f)) (v : List Int) {d d' : List StPtr} (hd : d.flatMap StPtr.vals = d'.flatMap StPtr.vals) :
    f ⟨v, d⟩ = f ⟨v, d'⟩ := by
  cases fc <;> simp only [FCall.deed, Option.bind_eq_bind, Option.bind_eq_some_iff, Option.pure_def, Option.some.injEq, FDeed.call.injEq,
    reduceCtorEq, and_false, false_and, exists_false] at h
  all_goals (repeat obtain ⟨_, _, h⟩ := h)
  all_goals (try subst h)
  all_goals first | rfl | skip
  all_goals simp only [Out.doneAt, hd]

/-- The call leaves the machine no choice: only receives are completed, or no statuses are wanted. -/
def FMachine.Settled {σ : Type} (K : FMachine σ) (x : σ) (call : Call) : Prop :=
  K.receives x call ∨ ∀ st ∈ call.statuses, st.kept = []

theorem flatMap_vals_nil {d : List StPtr} {l : List StPtr} (h : d.map StPtr.kept = l.map StPtr.kept) (hl : ∀ st ∈ l, st.kept = []) :
    d.flatMap StPtr.vals = [] := by
  rw [List.flatMap_eq_nil_iff]
  intro st hst
  have h1 : st.kept ∈ l.map StPtr.kept := h ▸ List.mem_map_of_mem hst
  obtain ⟨q, hq, he⟩ := List.mem_map.mp h1
  have h2 : st.kept = [] := he ▸ hl q hq
  cases st <;> first | rfl | cases h2

/-- C64: if the call leaves no choice, state and memory of the machine after the Fortran call are determined. -/
theorem C64_determined {σ : Type} {K : FMachine σ} {c : FEnv} {x x₁ x₂ : σ} {fc : FCall} (h1 : K.FStep c x (.call fc) x₁)
    (h2 : K.FStep c x (.call fc) x₂) (hs : ∀ call f, fc.deed c (K.mem x) = some (.call call f) → K.Settled x call) : x₁ = x₂ := by
  cases h1 with
  | call h1 w1 =>
    cases h2 with
    | call h2 w2 =>
      cases h1 with
      | @call _ _ _ _ done₁ d1 a1 e1 =>
        cases h2 with
        | @call _ _ _ _ done₂ d2 a2 e2 =>
          rw [d1] at d2
          cases d2
          rw [a1] at a2
          cases a2
          have hf : done₁.flatMap StPtr.vals = done₂.flatMap StPtr.vals := by
            rcases hs _ _ d1 with hr | hn
            · rw [e1.2 hr, e2.2 hr]
            · rw [flatMap_vals_nil e1.1 hn, flatMap_vals_nil e2.1 hn]
          rw [FCall.deed_done d1 _ hf] at w1
          rw [Wrote.unique w1 w2]
        | quiet d2 => rw [d1] at d2; cases d2
      | quiet d1 =>
        cases h2 with
        | call d2 a2 e2 => rw [d1] at d2; cases d2
        | quiet d2 =>
          rw [d1] at d2
          cases d2
          rw [Wrote.unique w1 w2]

/-! ## A Fortran program -/

/-- The variables exist and are apart, checked byte by byte. -/
def variablesOk (m : Mem) (outs : List Spec.Fort.Out) : Bool :=
  (outs.all fun o => (List.range (o.width * o.vals.length)).all fun (i : Nat) => (m (o.addr + i)).isSome) &&
  decide (outs.Pairwise fun o o' => o.addr + ((o.width * o.vals.length : Nat) : Int) ≤ o'.addr ∨
    o'.addr + ((o'.width * o'.vals.length : Nat) : Int) ≤ o.addr)

theorem Spec.Fort.Variables.of_check {m : Mem} {outs : List Spec.Fort.Out} (h : variablesOk m outs = true) : Variables m outs := by
  unfold variablesOk at h
  rw [Bool.and_eq_true, List.all_eq_true, decide_eq_true_iff] at h
  obtain ⟨h1, h2⟩ := h
  refine ⟨fun o ho a ⟨h3, h4⟩ => ?_, h2.imp fun {o o'} h a h3 h4 => ?_⟩
  · have h5 := h1 o ho
    rw [List.all_eq_true] at h5
    have h6 := h5 (a - o.addr).toNat (List.mem_range.mpr (by
      have : (((a - o.addr).toNat : Nat) : Int) < ((o.width * o.vals.length : Nat) : Int) := by rw [Int.natCast_mul]; omega
      exact Int.ofNat_lt.mp this))
    have h7 : o.addr + (((a - o.addr).toNat : Nat) : Int) = a := by omega
    rwa [h7] at h6
  · obtain ⟨h5, h6⟩ := h3
    obtain ⟨h7, h8⟩ := h4
    rw [Int.natCast_mul, Int.natCast_mul] at h
    omega

/-- Memory with the variables set. -/
def written (bo : ByteOrder) (m : Mem) (outs : List Spec.Fort.Out) : Mem := ((putOuts bo (Sys.start m) outs).getD (Sys.start m)).mem

theorem written_wrote {bo : ByteOrder} {m : Mem} {outs : List Spec.Fort.Out} (h : Variables m outs) : Wrote bo m (written bo m outs) outs := by
  obtain ⟨m', h1, h2⟩ := putOuts_ok bo (s := Sys.start m) h
  unfold written
  rw [h1]
  exact h2

section
variable {σ : Type} {K : FMachine σ} {c : FEnv} {p : FProg} {n : Nat} {seen : List Mem} {x : σ}

/-- The machine after a call whose results go to variables. -/
def FMachine.next (K : FMachine σ) (bo : ByteOrder) (x : σ) (call : Call) (f : MpiSerial.Out → List Spec.Fort.Out) : σ :=
  let r := (K.answer x call).getD (x, ⟨[], []⟩)
  K.setMem r.1 (written bo (K.mem r.1) (f r.2))

/-- The machine after MPI_INIT. -/
def FMachine.nextInit (K : FMachine σ) (x : σ) (a : FortArgs) : σ := ((K.answer x (.fortInit a)).getD (x, ⟨[], []⟩)).1

theorem FProg.conforms_init (a : FortArgs) (hp : p seen = some (.init a)) (hl : K.legal x (.fortInit a))
    (hn : p.Conforms K c n (K.mem (K.nextInit x a) :: seen) (K.nextInit x a)) :
    p.Conforms K c (n + 1) seen x := by
  intro st hst
  rw [hp] at hst
  cases hst
  refine ⟨hl, fun x' hx => ?_⟩
  cases hx with
  | init ha =>
    unfold FMachine.nextInit at hn
    rw [ha] at hn
    exact hn

/-- A call with one possible outcome. -/
theorem FMachine.one_way (fc : FCall) (call : Call) (f : MpiSerial.Out → List Spec.Fort.Out)
    (hs : fc.Supported c (K.mem x)) (hd : fc.deed c (K.mem x) = some (.call call f))
    (hl : K.legal x call) (hret : (K.answer x call).returned = true) (hset : K.Settled x call)
    (hk : ((K.answer x call).getD (x, ⟨[], []⟩)).2.done.map StPtr.kept = call.statuses.map StPtr.kept)
    (hv : variablesOk (K.mem x) (f ((K.answer x call).getD (x, ⟨[], []⟩)).2) = true)
    (hv' : variablesOk (K.mem ((K.answer x call).getD (x, ⟨[], []⟩)).1) (f ((K.answer x call).getD (x, ⟨[], []⟩)).2) = true) :
    K.FLegal c x (.call fc) ∧ ∀ x', K.FStep c x (.call fc) x' → x' = K.next c.bo x call f := by
  cases ha : K.answer x call with
  | ok y =>
    obtain ⟨x', o⟩ := y
    unfold FMachine.next
    rw [ha] at hk hv hv' ⊢
    dsimp only [Res.getD] at hk hv hv' ⊢
    have hmv : K.FMoves c x fc x' (f o) := .call hd ha ⟨hk, fun _ => rfl⟩
    have hst : K.FStep c x (.call fc) (K.setMem x' (written c.bo (K.mem x') (f o))) := .call hmv (written_wrote (.of_check hv'))
    have hsett : ∀ call' f', fc.deed c (K.mem x) = some (.call call' f') → K.Settled x call' := fun call' f' h => by
      rw [hd] at h
      cases h
      exact hset
    refine ⟨⟨hs, ⟨_, hd⟩, fun call' f' h => ?_, fun x'' outs h => ?_⟩, fun x'' h => C64_determined h hst hsett⟩
    · rw [hd] at h
      cases h
      exact hl
    · cases h with
      | call d2 a2 e2 =>
        rw [hd] at d2
        cases d2
        rw [ha] at a2
        cases a2
        rename_i done
        have hf : done.flatMap StPtr.vals = o.done.flatMap StPtr.vals := by
          rcases hset with hr | hn
          · rw [e2.2 hr]
          · rw [flatMap_vals_nil e2.1 hn, flatMap_vals_nil hk hn]
        rw [FCall.deed_done hd _ hf]
        exact .of_check hv
      | quiet d2 =>
        rw [hd] at d2
        cases d2
  | _ => rw [ha] at hret; cases hret

theorem FProg.conforms_call (fc : FCall) (call : Call) (f : MpiSerial.Out → List Spec.Fort.Out)
    (hp : p seen = some (.call fc)) (hs : fc.Supported c (K.mem x)) (hd : fc.deed c (K.mem x) = some (.call call f))
    (hl : K.legal x call) (hret : (K.answer x call).returned = true) (hset : K.Settled x call)
    (hk : ((K.answer x call).getD (x, ⟨[], []⟩)).2.done.map StPtr.kept = call.statuses.map StPtr.kept)
    (hv : variablesOk (K.mem x) (f ((K.answer x call).getD (x, ⟨[], []⟩)).2) = true)
    (hv' : variablesOk (K.mem ((K.answer x call).getD (x, ⟨[], []⟩)).1) (f ((K.answer x call).getD (x, ⟨[], []⟩)).2) = true)
    (hn : p.Conforms K c n (K.mem (K.next c.bo x call f) :: seen) (K.next c.bo x call f)) :
    p.Conforms K c (n + 1) seen x := by
  intro st hst
  rw [hp] at hst
  cases hst
  have h := FMachine.one_way (c := c) fc call f hs hd hl hret hset hk hv hv'
  exact ⟨h.1, fun x' hx => by rw [h.2 x' hx]; exact hn⟩

end

namespace FDemo

/-- Memory of the program: INTEGERs at 1000, 1004, ..., bytes 1, 2, 3, ... from 2000, zero everywhere else. -/
def vars : Mem := fun a => (layout .little ints a).getD 0 |> some

/-- call MPI_IRECV(inbuf, 3, MPI_CHARACTER, MPI_ANY_SOURCE, 5, MPI_COMM_WORLD, rreq, ierror) -/
def irecv' : FCall := .irecv 2200 1000 1004 1020 1012 1016 3100 3104
/-- call MPI_ISEND(outbuf, 3, MPI_CHARACTER, 0, 5, MPI_COMM_WORLD, sreq, ierror) -/
def isend' : FCall := .isend 2000 1000 1004 1008 1012 1016 3108 3104
/-- call MPI_WAIT(rreq, status, ierror) -/
def wait' : FCall := .wait 3100 3200 3104
/-- call MPI_WAIT(sreq, MPI_STATUS_IGNORE, ierror) -/
def waitSend' : FCall := .wait 3108 5000 3104

def args : FortArgs := fortArgs ⟨4, 4, 4, 8, 8⟩ ⟨4000, 4100, 4200, 4300, 4400⟩

def exchange : FProg
  | [] => some (.init args)
  | [_] => some (.call irecv')
  | [_, _] => some (.call isend')
  | [_, _, _] => some (.call wait')
  | [_, _, _, _] => some (.call waitSend')
  | _ => none

/-- What the program sees. -/
example : (exchange.run cl 5 [] (Sys.start vars)).2 = none ∧
    ((exchange.run cl 5 [] (Sys.start vars)).1.map fun m =>
      ([m 2200, m 2202], [3100, 3108, 3200, 3204].map (intAt .little m))) =
      [([some 1, some 3], [some 0, some 0, some 0, some 5]), ([some 1, some 3], [some 0, some 3, some 0, some 5]),
       ([some 1, some 3], [some 2, some 3, some 0, some 0]), ([some 201, some 203], [some 2, some 0, some 0, some 0]),
       ([some 201, some 203], [some 0, some 0, some 0, some 0])] := by
  decide +kernel

def one (p : Int) (o : MpiSerial.Out) : List Spec.Fort.Out := [.int p (o.vals.headD 0), .int 3104 0]
def two (p q : Int) (o : MpiSerial.Out) : List Spec.Fort.Out := [.int p (o.vals.headD 0), o.doneAt q, .int 3104 0]

def X1 : Mach := (Mach.start vars).init.getD (.start vars)
def X2 : Mach := (Mach.machine env0).next .little X1 (.irecv 2200 3 (-1) (-1) 5 1) (one 3100)
def X3 : Mach := (Mach.machine env0).next .little X2 (.isend 2000 3 (-1) 0 5 1) (one 3108)
def X4 : Mach := (Mach.machine env0).next .little X3 (.wait 2 (.obj ⟨0, 0, 0, 0⟩)) (two 3100 3200)

theorem X1_eq : (Mach.machine env0).nextInit (.start vars) args = X1 := by
  have h1 : (Mach.start vars).init = .ok X1 := Res.eq_getD _ (by decide +kernel)
  have h2 : (X1.fortChecks env0 args).returned = true := by decide +kernel
  unfold FMachine.nextInit
  show ((Mach.quiet ((Mach.start vars).init >>= fun M => M.fortChecks env0 args >>= fun _ => .ok M)).getD _).1 = X1
  rw [h1, Res.ok_bind]
  cases h3 : X1.fortChecks env0 args with
  | ok _ => rfl
  | _ => rw [h3] at h2; cases h2

theorem irecv'_deed (m : Mem) (h : [1000, 1004, 1020, 1012, 1016].map (intAt .little m) = [some 3, some (-1), some (-1), some 5, some 1]) :
    irecv'.deed cl m = some (.call (.irecv 2200 3 (-1) (-1) 5 1) (one 3100)) := by
  simp only [List.map_cons, List.map_nil, List.cons.injEq, and_true] at h
  obtain ⟨h1, h2, h3, h4, h5⟩ := h
  simp only [FCall.deed, irecv', cl, h1, h2, h3, h4, h5, Option.bind_eq_bind, Option.bind_some]
  rfl

theorem isend'_deed (m : Mem) (h : [1000, 1004, 1008, 1012, 1016].map (intAt .little m) = [some 3, some (-1), some 0, some 5, some 1]) :
    isend'.deed cl m = some (.call (.isend 2000 3 (-1) 0 5 1) (one 3108)) := by
  simp only [List.map_cons, List.map_nil, List.cons.injEq, and_true] at h
  obtain ⟨h1, h2, h3, h4, h5⟩ := h
  simp only [FCall.deed, isend', cl, h1, h2, h3, h4, h5, Option.bind_eq_bind, Option.bind_some]
  rfl

theorem wait'_deed (m : Mem) (h : [3100, 3200, 3204, 3208, 3212].map (intAt .little m) = [some 2, some 0, some 0, some 0, some 0]) :
    wait'.deed cl m = some (.call (.wait 2 (.obj ⟨0, 0, 0, 0⟩)) (two 3100 3200)) := by
  simp only [List.map_cons, List.map_nil, List.cons.injEq, and_true] at h
  obtain ⟨h1, h2, h3, h4, h5⟩ := h
  simp only [FCall.deed, wait', cl, h1, statusArg, statusAt, h2, h3, h4, h5, Option.bind_eq_bind, Option.bind_some, commonBlock, Int.reduceAdd,
    Int.reduceEq, if_neg, or_self, Option.map_some, reduceIte]
  rfl

theorem waitSend'_deed (m : Mem) (h : intAt .little m 3108 = some 3) :
    waitSend'.deed cl m = some (.call (.wait 3 .null) (two 3108 5000)) := by
  simp only [FCall.deed, waitSend', cl, h, statusArg, Option.bind_eq_bind, Option.bind_some, commonBlock, true_or, reduceIte]
  rfl

theorem conforms5 (a b c d : Mem) : exchange.Conforms (Mach.machine env0) cl 1 [a, b, c, d] X4 := by
  refine FProg.conforms_call (x := X4) waitSend' (.wait 3 .null) (two 3108 5000) rfl trivial
    (waitSend'_deed _ (by decide +kernel)) (Or.inr ⟨1, of_decide_eq_true (by decide +kernel)⟩) (by decide +kernel)
    (.inr fun st h => ?_) (by decide +kernel) (by decide +kernel) (by decide +kernel) trivial
  have : st = .null := by simpa [Call.statuses] using h
  rw [this]
  rfl

theorem X3_receives : (Call.wait 2 (.obj ⟨0, 0, 0, 0⟩)).onlyReceives X3.L := by
  have h : (X3.L.objs.all fun e => e.1 != 2 || e.2 == .req 0) = true := by decide +kernel
  have h' : (X3.L.ops[0]?).map Op.kind = some .recv := by decide +kernel
  intro r hr i o hi ho
  have hr : r = 2 := by simpa [Call.requests] using hr
  subst hr
  rw [List.all_eq_true] at h
  have := h _ hi
  simp at this
  subst this
  rw [ho] at h'
  exact Option.some.inj h'

theorem conforms4 (a b c : Mem) : exchange.Conforms (Mach.machine env0) cl 2 [a, b, c] X3 :=
  FProg.conforms_call (x := X3) wait' (.wait 2 (.obj ⟨0, 0, 0, 0⟩)) (two 3100 3200) rfl trivial
    (wait'_deed _ (by decide +kernel)) (Or.inr ⟨0, of_decide_eq_true (by decide +kernel)⟩) (by decide +kernel) (.inl X3_receives) (by decide +kernel)
    (by decide +kernel) (by decide +kernel) (conforms5 _ _ _ _)

theorem conforms3 (a b : Mem) : exchange.Conforms (Mach.machine env0) cl 3 [a, b] X2 := by
  have hc : P2PArgs env0 X2.L (-1) 0 1 := ⟨.simple (by decide) (by decide), .inl ⟨0, of_decide_eq_true (by decide +kernel)⟩⟩
  exact FProg.conforms_call (x := X2) isend' (.isend 2000 3 (-1) 0 5 1) (one 3108) rfl trivial
    (isend'_deed _ (by decide +kernel)) hc (by decide +kernel) (.inr fun _ h => nomatch h) (by decide +kernel) (by decide +kernel)
    (by decide +kernel) (conforms4 _ _ _)

theorem conforms2 (a : Mem) : exchange.Conforms (Mach.machine env0) cl 4 [a] X1 := by
  have hc : P2PArgs env0 X1.L (-1) (-1) 1 := ⟨.simple (by decide) (by decide), .inl ⟨0, of_decide_eq_true (by decide +kernel)⟩⟩
  exact FProg.conforms_call (x := X1) irecv' (.irecv 2200 3 (-1) (-1) 5 1) (one 3100) rfl trivial
    (irecv'_deed _ (by decide +kernel)) hc (by decide +kernel) (.inr fun _ h => nomatch h) (by decide +kernel) (by decide +kernel)
    (by decide +kernel) (conforms3 _ _)

/-- The five steps of `exchange` conform. -/
theorem exchange_conforms : exchange.Conforms (Mach.machine env0) cl 5 [] (.start vars) := by
  refine FProg.conforms_init args rfl ?_ (by rw [X1_eq]; exact conforms2 _)
  show ∀ n ∈ _, _
  decide +kernel

example : exchange.May (Mach.machine env0) cl 5 [] (.start vars) (exchange.run cl 5 [] (Sys.start vars)) :=
  C64_reference_partial (c := cl) (by decide) exchange_conforms

/-! The same program on the machine of the standard. -/

def Y1 : Ideal := { core := X1, types := [] }
def Y2 : Ideal := (Ideal.machine env0).next .little Y1 (.irecv 2200 3 (-1) (-1) 5 1) (one 3100)
def Y3 : Ideal := (Ideal.machine env0).next .little Y2 (.isend 2000 3 (-1) 0 5 1) (one 3108)
def Y4 : Ideal := (Ideal.machine env0).next .little Y3 (.wait 2 (.obj ⟨0, 0, 0, 0⟩)) (two 3100 3200)

theorem Y1_eq : (Ideal.machine env0).nextInit (.start vars) args = Y1 := by
  have h1 : (Mach.start vars).init = .ok X1 := Res.eq_getD _ (by decide +kernel)
  have h2 : (X1.fortChecks env0 args).returned = true := by decide +kernel
  unfold FMachine.nextInit
  show ((Mach.quiet ((Mach.start vars).init >>= fun M => M.fortChecks env0 args >>= fun _ => .ok M) >>=
    fun x => .ok (({ (Ideal.start vars) with core := x.1 } : Ideal), x.2)).getD _).1 = Y1
  rw [h1, Res.ok_bind]
  cases h3 : X1.fortChecks env0 args with
  | ok _ => rfl
  | _ => rw [h3] at h2; cases h2

theorem ideal5 (a b c d : Mem) : exchange.Conforms (Ideal.machine env0) cl 1 [a, b, c, d] Y4 := by
  refine FProg.conforms_call (x := Y4) waitSend' (.wait 3 .null) (two 3108 5000) rfl trivial
    (waitSend'_deed _ (by decide +kernel)) (Or.inr ⟨1, of_decide_eq_true (by decide +kernel)⟩) (by decide +kernel)
    (.inr fun st h => ?_) (by decide +kernel) (by decide +kernel) (by decide +kernel) trivial
  have : st = .null := by simpa [Call.statuses] using h
  rw [this]
  rfl

theorem Y3_receives : (Call.wait 2 (.obj ⟨0, 0, 0, 0⟩)).onlyReceives Y3.core.L := by
  have h : (Y3.core.L.objs.all fun e => e.1 != 2 || e.2 == .req 0) = true := by decide +kernel
  have h' : (Y3.core.L.ops[0]?).map Op.kind = some .recv := by decide +kernel
  intro r hr i o hi ho
  have hr : r = 2 := by simpa [Call.requests] using hr
  subst hr
  rw [List.all_eq_true] at h
  have := h _ hi
  simp at this
  subst this
  rw [ho] at h'
  exact Option.some.inj h'

theorem ideal4 (a b c : Mem) : exchange.Conforms (Ideal.machine env0) cl 2 [a, b, c] Y3 :=
  FProg.conforms_call (x := Y3) wait' (.wait 2 (.obj ⟨0, 0, 0, 0⟩)) (two 3100 3200) rfl trivial
    (wait'_deed _ (by decide +kernel)) (Or.inr ⟨0, of_decide_eq_true (by decide +kernel)⟩) (by decide +kernel) (.inl Y3_receives) (by decide +kernel)
    (by decide +kernel) (by decide +kernel) (ideal5 _ _ _ _)

theorem char3_legal : LegalExchange (sz {}) (({} : Cfg).typeChecking = true) 2000 3 (Spec.plain [(0, 0)]) 2200 3 (Spec.plain [(0, 0)]) := by
  constructor <;> decide +kernel

theorem Y2_mem (es : List Spec.Entry) (h : (es.all fun x => decide (2000 ≤ x.1 ∧ x.1 + sz {} x.2 ≤ 2300)) = true) :
    Spec.Accessible (sz {}) (fun a => (Y2.core.mem a).isSome) es := by
  have hm : ((List.range 300).all fun k => (Y2.core.mem (2000 + (k : Int))).isSome) = true := by decide +kernel
  rw [List.all_eq_true] at h hm
  intro x hx a ha
  have h1 := of_decide_eq_true (h x hx)
  unfold Spec.InBytes at ha
  have := hm (a - 2000).toNat (List.mem_range.mpr (by omega))
  have e : 2000 + ((a - 2000).toNat : Int) = a := by omega
  rw [e] at this
  exact this

theorem Y2_legal : Y2.Legal env0 (.isend 2000 3 (-1) 0 5 1) := by
  refine ⟨⟨⟨_, comp_char _⟩, .inl ⟨0, of_decide_eq_true (by decide +kernel)⟩⟩, fun c j o hcm hpt ho _ => ?_⟩
  have hobjs : Y2.core.L.objs = [(2, .req 0), (1, .comm 0)] := by decide +kernel
  have hops : Y2.core.L.ops = [⟨.recv, 0, 5, 2200, 3, -1, 2, .pending⟩] := by decide +kernel
  rw [hobjs] at hcm
  have : c = 0 := by simpa using hcm
  subst this
  have : Y2.core.L.partner 0 .send 5 = some 0 := by decide +kernel
  rw [this] at hpt
  cases hpt
  rw [hops] at ho
  cases ho
  refine ⟨Spec.plain [(0, 0)], Spec.plain [(0, 0)], comp_char _, comp_char _, by rw [kindSize_eq]; exact char3_legal, ?_, ?_⟩
  · rw [kindSize_eq]
    exact Y2_mem _ (by decide +kernel)
  · rw [kindSize_eq]
    exact Y2_mem _ (by decide +kernel)

theorem ideal3 (a b : Mem) : exchange.Conforms (Ideal.machine env0) cl 3 [a, b] Y2 :=
  FProg.conforms_call (x := Y2) isend' (.isend 2000 3 (-1) 0 5 1) (one 3108) rfl trivial
    (isend'_deed _ (by decide +kernel)) Y2_legal (by decide +kernel) (.inr fun _ h => nomatch h) (by decide +kernel) (by decide +kernel)
    (by decide +kernel) (ideal4 _ _ _)

theorem Y1_legal : Y1.Legal env0 (.irecv 2200 3 (-1) (-1) 5 1) := by
  refine ⟨⟨⟨_, comp_char _⟩, .inl ⟨0, of_decide_eq_true (by decide +kernel)⟩⟩, fun c j o _ h => ?_⟩
  have : ∀ c, Y1.core.L.partner c .recv 5 = none := by
    have h : Y1.core.L.ops = [] := by decide +kernel
    intro c
    unfold Ledger.partner
    rw [h]
    rfl
  rw [this] at h
  cases h

theorem ideal2 (a : Mem) : exchange.Conforms (Ideal.machine env0) cl 4 [a] Y1 :=
  FProg.conforms_call (x := Y1) irecv' (.irecv 2200 3 (-1) (-1) 5 1) (one 3100) rfl trivial
    (irecv'_deed _ (by decide +kernel)) Y1_legal (by decide +kernel) (.inr fun _ h => nomatch h) (by decide +kernel) (by decide +kernel)
    (by decide +kernel) (ideal3 _ _)

/-- The five steps of `exchange` conform. -/
theorem exchange_ideal : exchange.Conforms (Ideal.machine env0) cl 5 [] (.start vars) := by
  refine FProg.conforms_init args rfl ?_ (by rw [Y1_eq]; exact ideal2 _)
  show ∀ n ∈ _, _
  decide +kernel

example : exchange.May (Ideal.machine env0) cl 5 [] (.start vars) (exchange.run cl 5 [] (Sys.start vars)) :=
  C64_standard_partial (c := cl) cfg_default_ok (fun _ => ⟨rfl, rfl⟩) (by decide) exchange_ideal

/-- C64_determined: the wait of `exchange` leaves the machine no choice, although its status argument is a
status the library writes and the caller has no record of. -/
example (x₁ x₂ : Mach) (h1 : (Mach.machine env0).FStep cl X3 (.call wait') x₁) (h2 : (Mach.machine env0).FStep cl X3 (.call wait') x₂) :
    x₁ = x₂ := by
  refine C64_determined h1 h2 fun call f h => ?_
  rw [wait'_deed _ (by decide +kernel)] at h
  cases h
  exact .inl X3_receives

end FDemo

end MpiSerial
