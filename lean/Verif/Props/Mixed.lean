import Verif.Spec.Mixed
import Verif.Props.FortMach

/-!
# C73: programs written partly in C and partly in Fortran

Partial: `FCall.Supported` (see C50), and for the machine of the standard the restrictions of C63.
-/

set_option linter.unusedSimpArgs false
set_option autoImplicit false

namespace MpiSerial

open Spec.Fort
open Res (Rel)

theorem mixed_may {σ : Type} {K : FMachine σ} {c : FEnv} {R : Nat → Sys → σ → Prop} (hi : Implements c.env K R) {p : MProg} :
    ∀ (n k : Nat) (seen : List MObs) (s : Sys) (x : σ), R k s x → k + n ≤ 1073741823 → p.Conforms K c n seen x →
      p.May K c n seen x (p.run c n seen s) := by
  intro n
  induction n with
  | zero => intros; rfl
  | succ n ih =>
    intro k seen s x hr hk hc
    unfold MProg.run MProg.May
    cases hp : p seen with
    | none => rfl
    | some st =>
      obtain ⟨h1, h2⟩ := hc st hp
      dsimp only
      cases st with
      | fort st =>
        have h3 := step_follows hi hr (by omega) h1
        cases he : st.exec c s with
        | ok s' =>
          rw [he] at h3
          obtain ⟨x', h4, h5⟩ := h3
          have h6 := ih (k + 1) _ s' x' h5 (by omega) (h2 x' _ (.fort h4))
          simp only [MStep.exec, he, Res.ok_bind, hi.mem h5]
          exact .inl ⟨x', _, .fort h4, h6⟩
        | _ =>
          rw [he] at h3
          simp only [MStep.exec, he]
          exact .inr ⟨_, h3, rfl⟩
      | c call =>
        have h3 := hi.answer hr (by omega) h1
        cases he : call.answer c.env s with
        | ok y =>
          obtain ⟨s', o⟩ := y
          obtain ⟨⟨x', o'⟩, h4, _, h5, h6, h7⟩ := h3.ok_left he
          dsimp only at h5 h6 h7
          have h8 : K.MMoves c x (.c call) x' (.c ⟨call, o'.vals, o.done, K.mem x'⟩) := .c h4 ⟨Call.answer_kept he, h7⟩
          have h9 := ih (k + 1) _ s' x' h5 (by omega) (h2 x' _ h8)
          simp only [MStep.exec, he, Res.ok_bind, hi.mem h5, h6]
          exact .inl ⟨x', _, h8, h9⟩
        | _ =>
          rw [he] at h3
          simp only [MStep.exec, he]
          exact .inr ⟨_, h3.fate.symm, rfl⟩

/-- C73: what a program written partly in C and partly in Fortran sees on the library, it may see on the reference machine.  The
machine knows of one kind of communicator, request and datatype: it does not matter in which language an object was made, used or freed. -/
theorem C73_reference_partial {c : FEnv} {p : MProg} {m : Mem} {n : Nat} (hn : n ≤ 1073741823)
    (h : p.Conforms (Mach.machine c.env) c n [] (.start m)) :
    p.May (Mach.machine c.env) c n [] (.start m) (p.run c n [] (Sys.start m)) :=
  mixed_may (mach_implements c.env) n 0 [] _ _ ⟨⟨.start, .start, Or.inl ⟨rfl, rfl⟩, rfl, rfl⟩, Nat.le_refl _, Nat.le_refl _⟩ (by omega) h

/-- C73: the same for the machine of the standard. -/
theorem C73_standard_partial {c : FEnv} (hc : c.env.cfg.Ok) (hz : ZeroGarbage c.env) {p : MProg} {m : Mem} {n : Nat} (hn : n ≤ 1073741823)
    (h : p.Conforms (Ideal.machine c.env) c n [] (.start m)) :
    p.May (Ideal.machine c.env) c n [] (.start m) (p.run c n [] (Sys.start m)) :=
  mixed_may (ideal_implements hc hz) n 0 [] _ _
    ⟨.start m, ⟨⟨.start, .start, Or.inl ⟨rfl, rfl⟩, rfl, rfl⟩, Nat.le_refl _, Nat.le_refl _⟩, .start _ _⟩ (by omega) h

/-- C73: a communicator or request handed from one language to the other is the same object: the C handle, converted by MPI_Comm_c2f or
MPI_Request_c2f and stored in an INTEGER, is what MPI_Comm_f2c or MPI_Request_f2c makes of that INTEGER again, and a handle that a
Fortran call stores in a variable is found there unchanged. -/
theorem C73_handles {env : Env} {s : Sys} {M : Mach} (hs : Sim env s M) {h : Int} {o : Obj} (ho : (h, o) ∈ M.L.objs) {bo : ByteOrder} {m m' : Mem}
    {outs : List Spec.Fort.Out} (hw : Wrote bo m m' outs) {a : Int} :
    (Spec.Fort.Out.int a (MPI_Comm_c2f h) ∈ outs → (intAt bo m' a).map MPI_Comm_f2c = some h) ∧
    (Spec.Fort.Out.int a (MPI_Request_c2f h) ∈ outs → (intAt bo m' a).map MPI_Request_f2c = some h) ∧
    (Spec.Fort.Out.int a h ∈ outs → intAt bo m' a = some h) := by
  obtain ⟨_, _, hi⟩ := hs.reach.inv
  have hpos := hi.hst.pos (mem_keys ho)
  have h32 : s32 h = h := by unfold s32; omega
  have key : Spec.Fort.Out.int a h ∈ outs → intAt bo m' a = some h := fun hm => by
    have := C50_reads_back hw hm rfl (i := 0) (v := h) rfl
    rw [h32] at this
    simpa [Spec.Fort.Out.int] using this
  exact ⟨fun hm => by rw [key hm]; rfl, fun hm => by rw [key hm]; rfl, key⟩

/-! ## A receive posted in Fortran, matched and completed in C -/

namespace FDemo

/-- The Fortran part calls MPI_INIT and posts a receive; the C part sends, and waits for the request that it finds in the INTEGER at 3100. -/
def relay : MProg
  | [] => some (.fort (.init args))
  | [_] => some (.fort (.call irecv'))
  | [.fort _, _] => some (.c (.isend 2000 3 (-1) 0 5 1))
  | [.c _, .fort m, _] => some (.c (.wait (MPI_Request_f2c ((intAt .little m 3100).getD 0)) st0))
  | _ => none

/-- The first byte of the receive buffer, and the INTEGER at 3100 or the results of the C call. -/
def look : MObs → Option UInt8 × List (Option Int)
  | .fort m => (m 2200, [intAt .little m 3100])
  | .c o => (o.mem 2200, o.vals.map some)

/-- What the program sees: request 2 is handed out by the Fortran call, found in the variable, and completed by the C part. -/
example : (relay.run cl 4 [] (Sys.start vars)).2 = none ∧ (relay.run cl 4 [] (Sys.start vars)).1.map look =
    [(some 1, [some 0, some 0, some 0]), (some 1, [some 3]), (some 201, [some 2]), (some 201, [some 0])] := by
  decide +kernel

/-- The machine after the C part has sent. -/
def Z3 : Mach := (((Mach.machine env0).answer X2 (.isend 2000 3 (-1) 0 5 1)).getD (X2, ⟨[], []⟩)).1

theorem X2_request : intAt .little X2.mem 3100 = some 2 := by decide +kernel

theorem relay4 (o : Obs) (a : MObs) : relay.Conforms (Mach.machine env0) cl 1 [.c o, .fort X2.mem, a] Z3 := by
  intro st hst
  simp only [relay, X2_request, Option.getD_some, Option.some.injEq] at hst
  subst hst
  exact ⟨Or.inr ⟨0, of_decide_eq_true (by decide +kernel)⟩, fun _ _ _ => trivial⟩

theorem relay3 (a : MObs) : relay.Conforms (Mach.machine env0) cl 2 [.fort X2.mem, a] X2 := by
  intro st hst
  cases hst
  refine ⟨⟨.simple (by decide) (by decide), .inl ⟨0, of_decide_eq_true (by decide +kernel)⟩⟩, fun x' o h => ?_⟩
  cases h with
  | c ha hw =>
    have : x' = Z3 := by unfold Z3; rw [ha]; rfl
    subst this
    exact relay4 _ _

/-- The four steps of `relay` conform. -/
theorem relay_conforms : relay.Conforms (Mach.machine env0) cl 4 [] (.start vars) := by
  intro st hst
  cases hst
  refine ⟨show ∀ n ∈ _, _ by decide +kernel, fun x' o h => ?_⟩
  cases h with
  | fort h =>
    cases h with
    | init ha =>
      have : x' = X1 := by rw [← X1_eq]; unfold FMachine.nextInit; rw [ha]; rfl
      subst this
      intro st hst
      cases hst
      have hc : P2PArgs env0 X1.L (-1) (-1) 1 := ⟨.simple (by decide) (by decide), .inl ⟨0, of_decide_eq_true (by decide +kernel)⟩⟩
      have h := FMachine.one_way (K := Mach.machine env0) (c := cl) (x := X1) irecv' (.irecv 2200 3 (-1) (-1) 5 1) (one 3100) trivial
        (irecv'_deed _ (by decide +kernel)) hc (by decide +kernel) (.inr fun _ h => nomatch h) (by decide +kernel) (by decide +kernel)
        (by decide +kernel)
      refine ⟨h.1, fun x' o h' => ?_⟩
      cases h' with
      | fort h' =>
        have : x' = X2 := h.2 x' h'
        subst this
        exact relay3 _

example : relay.May (Mach.machine env0) cl 4 [] (.start vars) (relay.run cl 4 [] (Sys.start vars)) :=
  C73_reference_partial (c := cl) (by decide) relay_conforms

end FDemo

end MpiSerial
