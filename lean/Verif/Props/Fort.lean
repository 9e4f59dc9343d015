import Verif.Proofs.FortCalls
import Verif.Proofs.Demo

/-!
# C50 Fortran bindings
-/

set_option linter.unusedSimpArgs false
set_option autoImplicit false

namespace MpiSerial

open Spec.Fort

/-- C50: a call of an MPI subroutine from Fortran performs the C function on the values its argument variables
hold, sets exactly the variables it is to set (and `ierror` to MPI_SUCCESS) to the results, and changes no other
byte; if the C function does not return, the Fortran call ends in the same way.

Partial: `FCall.Supported` excludes MPI_PACK_SIZE, MPI_TYPE_HVECTOR on big-endian machines or with a
variable at the end of accessible memory, and MPI_IN_PLACE in seven collectives (see the `fails` theorems and
C46_fails_in_place). -/
theorem C50_performs_partial {c : FEnv} {s : Sys} {fc : FCall} {r : Res (Sys × List Out)} (hs : fc.Supported c s.mem)
    (hm : fc.meaning c s = some r) (hv : ∀ s' outs, r = .ok (s', outs) → Variables s.mem outs) :
    Performs c.bo (fc.exec c s) r :=
  FCall.performs hs hm hv

/-- C50: every INTEGER that a call sets can be read back: it has the value reduced to 32 bits. -/
theorem C50_reads_back {bo : ByteOrder} {m m' : Mem} {outs : List Out} {o : Out} {i : Nat} {v : Int} (h : Wrote bo m m' outs)
    (ho : o ∈ outs) (hw : o.width = 4) (hi : o.vals[i]? = some v) :
    intAt bo m' (o.addr + 4 * i) = some (s32 v) := by
  have hh := h.held o ho i v hi
  rw [hw] at hh
  obtain ⟨b0, h0, e0⟩ := hh 0 (by omega)
  obtain ⟨b1, h1, e1⟩ := hh 1 (by omega)
  obtain ⟨b2, h2, e2⟩ := hh 2 (by omega)
  obtain ⟨b3, h3, e3⟩ := hh 3 (by omega)
  have hs : ∀ n : Nat, (n : Int) = v % 4294967296 →
      (if n < 2147483648 then (n : Int) else (n : Int) - 4294967296) = s32 v := by
    intro n hn
    rw [s32]
    split <;> omega
  rw [intAt, word]
  cases bo with
  | little =>
    have g0 : m' (o.addr + 4 * i) = some b0 := by simpa [Out.byteAddr, hw] using h0
    have g1 : m' (o.addr + 4 * i + 1) = some b1 := by simpa [Out.byteAddr, hw] using h1
    have g2 : m' (o.addr + 4 * i + 2) = some b2 := by simpa [Out.byteAddr, hw] using h2
    have g3 : m' (o.addr + 4 * i + 3) = some b3 := by simpa [Out.byteAddr, hw] using h3
    rw [g0, g1, g2, g3]
    simp only [Option.map_some]
    rw [hs _ (by omega)]
  | big =>
    have g0 : m' (o.addr + 4 * i) = some b3 := by simpa [Out.byteAddr, hw] using h3
    have g1 : m' (o.addr + 4 * i + 1) = some b2 := by simpa [Out.byteAddr, hw] using h2
    have g2 : m' (o.addr + 4 * i + 2) = some b1 := by simpa [Out.byteAddr, hw] using h1
    have g3 : m' (o.addr + 4 * i + 3) = some b0 := by simpa [Out.byteAddr, hw] using h0
    rw [g0, g1, g2, g3]
    simp only [Option.map_some]
    rw [hs _ (by omega)]

/-- C50: the state of the library evolves under a Fortran program as under a C program: whatever states a Fortran
program reaches, the C calls (and stores to memory of the program) of some C program reach. -/
theorem C50_history_partial {c : FEnv} {s s' : Sys} (h : FRun c s s') : ∃ cs : List Call, execAll c.env cs s = .ok s' := by
  induction h with
  | refl s => exact ⟨[], rfl⟩
  | @step s s₁ s' st hs h hr ih =>
    obtain ⟨cs, ih⟩ := ih
    cases st with
    | store m =>
      exact ⟨.store m :: cs, by cases h; exact ih⟩
    | init a =>
      exact ⟨.fortInit a :: cs, by rw [execAll]; show (mpi_init_fort c.env a s >>= _) = _; rw [show mpi_init_fort c.env a s = _ from h, Res.ok_bind, ih]⟩
    | call fc =>
      obtain ⟨call, m, s₂, h1, rfl⟩ := fc.exec_call (hs fc rfl) h
      exact ⟨call :: .store m :: cs, by rw [execAll, h1, Res.ok_bind, execAll]; exact ih⟩

/-! ## A Fortran program -/

namespace FDemo

/-- Memory of a Fortran program: INTEGERs at 1000, 1004, ..., and a thousand bytes from 2000. -/
def layout (bo : ByteOrder) (ints : List Int) : Mem := fun a =>
  if 1000 ≤ a ∧ a < 1000 + 4 * ints.length then
    (bo.bytes 4 ((ints[((a - 1000) / 4).toNat]?).getD 0))[((a - 1000) % 4).toNat]?
  else if 2000 ≤ a ∧ a < 3000 then some (UInt8.ofNat (a - 1999).toNat) else none

/-- Little-endian machine, Fortran sentinels at 5000. -/
def cl : FEnv := ⟨env0, .little, commonBlock 5000⟩
def cb : FEnv := ⟨env0, .big, commonBlock 5000⟩

/-- After MPI_INIT, with these INTEGERs in memory. -/
def st (bo : ByteOrder) (ints : List Int) : Sys := { ((Demo.start fun _ => none).init).s with mem := layout bo ints }

/-- call MPI_ISEND(buf, 3, MPI_CHARACTER, 0, 5, MPI_COMM_WORLD, request, ierror) -/
def isend : FCall := .isend 2000 1000 1004 1008 1012 1016 2100 2104
/-- call MPI_RECV(buf, 3, MPI_CHARACTER, MPI_ANY_SOURCE, 5, MPI_COMM_WORLD, status, ierror) -/
def recv : FCall := .recv 2200 1000 1004 1020 1012 1016 2300 2400

def ints : List Int := [3, -1, 0, 5, 1, -1]

/-- The hypotheses of C50_performs_partial are met by this call, and it returns. -/
example : ∃ r, isend.Supported cl (st .little ints).mem ∧ isend.meaning cl (st .little ints) = some r ∧ r.returned = true ∧
    ∀ s' outs, r = .ok (s', outs) → Variables (st .little ints).mem outs := by
  refine ⟨_, trivial, rfl, by decide +kernel, ?_⟩
  intro s' outs h
  rw [Res.bind_eq_ok] at h
  obtain ⟨x, _, h⟩ := h
  cases h
  refine ⟨?_, ?_⟩
  · intro o ho a ha
    have h2 : 2000 ≤ a ∧ a < 3000 := by
      simp at ho
      rcases ho with rfl | rfl <;> simp [Out.covers, Out.int] at ha <;> omega
    show (layout .little ints a).isSome = true
    rw [layout, if_neg (by simp [ints]; omega), if_pos h2]
    rfl
  · simp only [List.pairwise_cons, List.mem_singleton, forall_eq, List.not_mem_nil, false_implies, implies_true,
      List.Pairwise.nil, and_true]
    intro a h1 h2
    simp [Out.covers, Out.int] at h1 h2
    omega

/-- The message arrives, the status has source and tag, the error variables are 0, the rest is as before. -/
example : let r := isend.exec cl (st .little ints) >>= recv.exec cl
    let m := (r.getD (st .little ints)).mem
    r.returned = true ∧ m 2200 = some 1 ∧ m 2201 = some 2 ∧ m 2202 = some 3 ∧ m 2203 = some 204 ∧
    intAt .little m 2300 = some 0 ∧ intAt .little m 2304 = some 5 ∧ intAt .little m 2104 = some 0 ∧
    intAt .little m 2400 = some 0 ∧ m 2404 = (st .little ints).mem 2404 := by
  decide +kernel

/-- The library reaches the state after the two calls through C calls too. -/
example : ∃ cs : List Call, execAll env0 cs (st .little ints) =
    .ok ((isend.exec cl (st .little ints) >>= recv.exec cl).getD (st .little ints)) := by
  obtain ⟨s₁, h1⟩ : ∃ s₁, isend.exec cl (st .little ints) = .ok s₁ :=
    ⟨_, Res.eq_getD (st .little ints) (by decide +kernel)⟩
  have h2 : (isend.exec cl (st .little ints) >>= recv.exec cl).returned = true := by decide +kernel
  rw [h1, Res.ok_bind] at h2 ⊢
  exact C50_history_partial (c := cl) (.step (.call isend) (fun _ h => by cases h; trivial) h1
    (.step (.call recv) (fun _ h => by cases h; trivial) (Res.eq_getD _ h2) (.refl _)))

/-- call MPI_TYPE_HVECTOR(count, blocklen, stride, MPI_CHARACTER, newtype, ierror): count at 1000, stride (address kind)
at 1004, old type at 1012, blocklen at 1016. -/
def hvector : FCall := .typeHvector 1000 1016 1004 1012 2100 2104

/-- The call of the interface with its results: size of the type created, and value of the variable `newtype`. -/
def sizeOf (c : FEnv) (r : Res (Sys × List Out)) : Res Int := do
  let (s, outs) ← r
  let t := ((outs.head?).bind fun o => o.vals.head?).getD 0
  let (_, n) ← MPI_Type_size c.env s t
  return n

/-- The same for the binding. -/
def sizeOfB (c : FEnv) (r : Res Sys) : Res Int := do
  let s ← r
  let t ← ldInt c.bo s.mem 2100
  let (_, n) ← MPI_Type_size c.env s t
  return n

end FDemo

open FDemo

/-- C50 fails (type.c:486-492, 504-510): MPI_TYPE_HVECTOR reads eight bytes where its INTEGER argument `blocklen` has four.  A program
whose variable is the last accessible one (count 2, blocklen 3, stride 8, MPI_CHARACTER) crashes. -/
theorem C50_fails_hvector_read :
    let s := st .little [2, 8, 0, -1, 3]
    ((hvector.meaning cl s).map (sizeOf cl)) = some (.ok 6) ∧ (hvector.exec cl s).fate = some (.ub .memAccess) := by
  decide +kernel

/-- C50 fails on a big-endian machine: the block length used is the INTEGER that follows `blocklen` in memory. -/
theorem C50_fails_hvector_big :
    let s := st .big [2, 0, 8, -1, 3, 5]
    ((hvector.meaning cb s).map (sizeOf cb)) = some (.ok 6) ∧ sizeOfB cb (hvector.exec cb s) = .ok 10 := by
  decide +kernel

/-- On a little-endian machine with more memory after the variable the same call creates the right type. -/
example : let s := st .little [2, 8, 0, -1, 3, 5]
    hvector.Supported cl s.mem ∧ sizeOfB cl (hvector.exec cl s) = .ok 6 := by
  refine ⟨⟨rfl, ?_⟩, by decide +kernel⟩
  decide +kernel

/-- C50 fails (pack.c:77-82): MPI_PACK_SIZE stores eight bytes into its INTEGER argument `size`: the variable after it
is overwritten (on a big-endian machine it, and not `size`, gets the value).  Here three characters need 3 bytes;
`size` is at 2100 and another variable of the program at 2104. -/
theorem C50_fails_pack_size :
    let call : FCall := .packSize 1000 1004 1008 2100 2200
    let s := st .little [3, -1, 1]
    let s' := st .big [3, -1, 1]
    ((call.meaning cl s).bind fun r => (r.getD (s, [])).2.head?.map fun o => (o.addr, o.width, o.vals)) = some (2100, 4, [3]) ∧
    intAt .little ((call.exec cl s).getD s).mem 2104 = some 0 ∧ intAt .little s.mem 2104 ≠ some 0 ∧
    intAt .big ((call.exec cb s').getD s').mem 2100 = some 0 ∧ intAt .big ((call.exec cb s').getD s').mem 2104 = some 3 := by
  decide +kernel

/-- C50, exactly what MPI_PACK_SIZE does instead, for every call: `size` is treated as an eight-byte integer.  The call
performs the C function and sets the eight bytes from `size` on, in the byte order of the machine, and `ierror`. -/
theorem C50_pack_size_exact {c : FEnv} {s : Sys} {incount datatype comm size e n t k : Int} (hn : intAt c.bo s.mem incount = some n)
    (ht : intAt c.bo s.mem datatype = some t) (hk : intAt c.bo s.mem comm = some k)
    (hv : Variables s.mem [Out.long size 0, Out.int e 0]) :
    Performs c.bo ((FCall.packSize incount datatype comm size e).exec c s)
      (MPI_Pack_size c.env s n t k >>= fun x => .ok (x.1, [Out.long size x.2, Out.int e 0])) := by
  have h : (FCall.packSize incount datatype comm size e).exec c s =
      (MPI_Pack_size c.env s n t k >>= fun x => Res.ok (x.1, [Out.long size x.2, Out.int e 0])) >>= fun x => putOuts c.bo x.1 x.2 := by
    show Bind.mpi_pack_size c s incount datatype comm size e = _
    simp only [Bind.mpi_pack_size, bindInt_eq, hn, ht, hk, ofOpt_some, Res.ok_bind, bind_assoc, putOuts_cons, putOuts_nil, bind_ok',
      ← stInt_eq, ← stLong_eq, Bind.done]
  rw [h]
  cases hr : MPI_Pack_size c.env s n t k with
  | ok x =>
    have h3 := Call.keeps_dom (env := c.env) (m := s.mem) (s := s) (fun _ => rfl) (.packSize n t k) (fun _ h => by cases h) x.1
      (show (MPI_Pack_size c.env s n t k >>= fun x => Res.ok x.1) = _ by rw [hr]; rfl)
    have hv' : Variables x.1.mem [Out.long size x.2, Out.int e 0] := by
      refine ⟨fun o ho a ha => ?_, ?_⟩
      · rw [h3 a]
        rcases List.mem_cons.1 ho with rfl | ho
        · exact hv.accessible (Out.long size 0) (by simp) a ha
        · exact hv.accessible o (by simp [List.mem_singleton.1 ho]) a ha
      · have := hv.apart
        rw [List.pairwise_pair] at this ⊢
        exact this
    obtain ⟨m', h1, h2⟩ := putOuts_ok c.bo hv'
    exact ⟨m', by rw [Res.ok_bind, Res.ok_bind, h1], h2⟩
  | abort _ => rfl
  | exit _ => rfl
  | ub _ => rfl
  | hang => rfl

/-- C50, exactly when MPI_TYPE_HVECTOR and MPI_TYPE_CREATE_HVECTOR crash on a readable `blocklen`: if one of the four bytes
after that variable is not accessible. -/
theorem C50_hvector_crash_exact {c : FEnv} {s : Sys} {count blocklen stride oldtype newtype e n : Int} {i : Nat}
    (hn : intAt c.bo s.mem count = some n) (hi : i < 4) (hm : s.mem (blocklen + 4 + i) = none) :
    (FCall.typeHvector count blocklen stride oldtype newtype e).exec c s = .ub .memAccess ∧
      (FCall.typeCreateHvector count blocklen stride oldtype newtype e).exec c s = .ub .memAccess := by
  have hw : word c.bo s.mem (blocklen + 4) = none := by
    rw [word]
    have : i = 0 ∨ i = 1 ∨ i = 2 ∨ i = 3 := by omega
    rcases this with rfl | rfl | rfl | rfl
    · rw [show s.mem (blocklen + 4) = none by simpa using hm]
    · rw [show s.mem (blocklen + 4 + 1) = none from hm]; split <;> simp_all
    · rw [show s.mem (blocklen + 4 + 2) = none from hm]; split <;> simp_all
    · rw [show s.mem (blocklen + 4 + 3) = none from hm]; split <;> simp_all
  have ha : addrAt c.bo s.mem blocklen = none := by
    rw [addrAt, hw]
    cases c.bo <;> cases word _ s.mem blocklen <;> rfl
  have hl : ldLong c.bo s.mem blocklen = .ub .memAccess := by
    rw [ldLong_eq, ha]; rfl
  constructor
  · show Bind.mpi_type_hvector c s count blocklen stride oldtype newtype e = _
    rw [Bind.mpi_type_hvector, bindInt_eq, hn, ofOpt_some, Res.ok_bind, hl]; rfl
  · show Bind.mpi_type_create_hvector c s count blocklen stride oldtype newtype e = _
    rw [Bind.mpi_type_create_hvector, bindInt_eq, hn, ofOpt_some, Res.ok_bind, hl]; rfl

/-- Reading eight bytes and keeping the half at the higher addresses. -/
theorem ldLong_high {m : Mem} {p : Int} (h : (word .big m p).isSome) :
    (ldLong .big m p >>= fun b => .ok (s32 b)) = ofOpt (intAt .big m (p + 4)) := by
  obtain ⟨n, hn⟩ := Option.isSome_iff_exists.1 h
  rw [ldLong_eq, addrAt, hn, intAt]
  cases hw : word .big m (p + 4) with
  | none => rfl
  | some k =>
    have hk := word_lt hw
    have hs : s32 (s64 (4294967296 * (n : Int) + k)) = if k < 2147483648 then (k : Int) else (k : Int) - 4294967296 := by
      rw [s32, s64]
      split <;> omega
    simp only [ofOpt_some, Res.ok_bind, Option.map_some, hs]

/-- C50, exactly what MPI_TYPE_HVECTOR does on a big-endian machine: for every call, what the interface prescribes for the
INTEGER that follows `blocklen` in memory, whatever `blocklen` holds. -/
theorem C50_hvector_big_exact {c : FEnv} {s : Sys} {count blocklen stride oldtype newtype e b : Int} {r : Res (Sys × List Out)}
    (hbo : c.bo = .big) (hb : intAt c.bo s.mem blocklen = some b)
    (hm : (FCall.typeHvector count (blocklen + 4) stride oldtype newtype e).meaning c s = some r)
    (hv : ∀ s' outs, r = .ok (s', outs) → Variables s.mem outs) :
    Performs c.bo ((FCall.typeHvector count blocklen stride oldtype newtype e).exec c s) r := by
  have hword : (word .big s.mem blocklen).isSome := by
    rw [intAt, hbo] at hb
    cases hw : word .big s.mem blocklen with
    | none => rw [hw] at hb; cases hb
    | some _ => rfl
  have h : (FCall.typeHvector count blocklen stride oldtype newtype e).exec c s =
      (FCall.typeHvector count (blocklen + 4) stride oldtype newtype e).run c s := by
    have h : (FCall.typeHvector count blocklen stride oldtype newtype e).exec c s = Bind.int c s count >>= fun n =>
        (ldLong c.bo s.mem blocklen >>= fun b => .ok (s32 b)) >>= fun b =>
        (ldLong c.bo s.mem stride >>= fun d => .ok (u64 d)) >>= fun d => Bind.int c s oldtype >>= fun t =>
        MPI_Type_hvector c.env s n b d t >>= fun x => stInt c.bo x.1 newtype x.2 >>= fun s => Bind.done c s e := by
      simp only [bind_assoc, Res.ok_bind]
      rfl
    rw [h, hbo, ldLong_high hword, ldLong_addr, ← hbo]
    simp only [FCall.run, FCall.meaning, ofOpt_bind, ofOpt_pure, bind_assoc, Res.ok_bind, bindInt_eq, putOuts_cons, putOuts_nil, bind_ok',
      ← stInt_eq, Bind.done]
  rw [h, FCall.run, hm, ofOpt_some, Res.ok_bind]
  cases r with
  | ok x =>
    obtain ⟨s', outs⟩ := x
    obtain ⟨m', h1, h2⟩ := putOuts_ok c.bo (Variables.after hm (hv s' outs rfl))
    exact ⟨m', by rw [Res.ok_bind, h1], h2⟩
  | abort _ => rfl
  | exit _ => rfl
  | ub _ => rfl
  | hang => rfl

/-- The hypotheses of C50_pack_size_exact are met: the eight bytes from 2100 and the error variable at 2200. -/
example : intAt .big (st .big [3, -1, 1]).mem 1000 = some 3 ∧ intAt .big (st .big [3, -1, 1]).mem 1004 = some (-1) ∧
    intAt .big (st .big [3, -1, 1]).mem 1008 = some 1 ∧ Variables (st .big [3, -1, 1]).mem [Out.long 2100 0, Out.int 2200 0] := by
  refine ⟨by decide +kernel, by decide +kernel, by decide +kernel, ?_⟩
  refine ⟨?_, ?_⟩
  · intro o ho a ha
    have : (layout .big [3, -1, 1]) a = some (UInt8.ofNat (a - 1999).toNat) := by
      have h1 : 2000 ≤ a ∧ a < 3000 := by
        simp only [List.mem_cons, List.not_mem_nil, or_false] at ho
        rcases ho with rfl | rfl <;> simp [Out.covers, Out.long, Out.int] at ha <;> omega
      rw [layout, if_neg (by simp; omega), if_pos h1]
    show ((layout .big [3, -1, 1]) a).isSome
    rw [this]; rfl
  · simp only [List.pairwise_cons, List.mem_cons, List.not_mem_nil, or_false, forall_eq, List.Pairwise.nil, and_true, false_imp_iff, implies_true]
    intro a h1 h2
    simp [Out.covers, Out.long, Out.int] at h1 h2
    omega

/-- The two hvector laws are met by the calls of the witnesses above. -/
example : (hvector.exec cl (st .little [2, 8, 0, -1, 3])) = .ub .memAccess :=
  (C50_hvector_crash_exact (c := cl) (n := 2) (i := 0) (by decide +kernel) (by decide) (by decide +kernel)).1

example : ∃ r, (FCall.typeHvector 1000 1020 1004 1012 2100 2104).meaning cb (st .big [2, 0, 8, -1, 3, 5]) = some r ∧ sizeOf cb r = .ok 10 ∧
    intAt .big (st .big [2, 0, 8, -1, 3, 5]).mem 1016 = some 3 :=
  ⟨_, rfl, by decide +kernel, by decide +kernel⟩

end MpiSerial
