import Verif.Proofs.Fort

/-!
# Every Fortran binding performs the call it stands for
-/

set_option linter.unusedSimpArgs false
set_option autoImplicit false

namespace MpiSerial

open Spec.Fort
open Res (Post)

/-- What the interface prescribes, with missing arguments as undefined behaviour. -/
def FCall.run (c : FEnv) (s : Sys) (fc : FCall) : Res Sys :=
  ofOpt (fc.meaning c s) >>= fun r => r >>= fun x => putOuts c.bo x.1 x.2

theorem bind_ok' {α : Type} (x : Res α) : (x >>= fun a => Res.ok a) = x := by cases x <;> rfl

theorem bindInt_eq (c : FEnv) (s : Sys) (p : Int) : Bind.int c s p = ofOpt (intAt c.bo s.mem p) := ldInt_eq _ _ _
theorem bindInts_eq (c : FEnv) (s : Sys) (p n : Int) : Bind.ints c s p n = ofOpt (intsAt c.bo s.mem p n.toNat) := ldInts_eq _ _ _ _
theorem bindAints_eq (c : FEnv) (s : Sys) (p n : Int) : Bind.aints c s p n = ofOpt (addrsAt c.bo s.mem p n.toNat) := ldAints_eq _ _ _ _

theorem putOuts_nil (bo : ByteOrder) (s : Sys) : putOuts bo s [] = .ok s := rfl
theorem putOuts_cons (bo : ByteOrder) (s : Sys) (o : Out) (os : List Out) :
    putOuts bo s (o :: os) = putOut bo s o >>= fun s => putOuts bo s os := rfl

theorem buffer_eq {c : FEnv} {p : Int} (h : p ≠ c.ptrs.in_place) : buffer c p = p := if_neg h

syntax "fcall" : tactic
macro_rules
  | `(tactic| fcall) => `(tactic| (
      simp only [FCall.run, FCall.meaning, ofOpt_bind, ofOpt_pure, bind_assoc, Res.ok_bind, status_eq, statuses_eq,
        ← bindInt_eq, ← bindInts_eq, ← bindAints_eq, ← ldStatus_eq, putOuts_cons, putOuts_nil, bind_ok', ← stInt_eq, ← stLong_eq,
        ← stInts_eq, ← stStatus_eq, ← stStatuses_eq]
      rfl))

theorem stBytes_acc {m m' : Mem} : ∀ {bs : List UInt8} {p : Int}, stBytes m p bs = .ok m' →
    ∀ a, p ≤ a → a < p + bs.length → (m a).isSome
  | [], p, _, a, h1, h2 => by simp at h2; omega
  | b :: bs, p, h, a, h1, h2 => by
    rw [stBytes] at h
    cases hp : m p with
    | none => rw [hp] at h; cases h
    | some x =>
      rw [hp] at h
      simp only [Res.bind_eq_ok] at h
      obtain ⟨m2, h3, _⟩ := h
      by_cases ha : a = p
      · rw [ha, hp]; rfl
      · exact stBytes_acc h3 a (by omega) (by simp at h2; omega)

/-- Storing twice is storing once. -/
theorem stLong_twice (bo : ByteOrder) (s : Sys) (p v : Int) : (stLong bo s p v >>= fun s => stLong bo s p v) = stLong bo s p v := by
  unfold stLong
  cases h : stBytes s.mem p (bo.bytes 8 v) with
  | ok m =>
    have hacc := stBytes_acc h
    have h1 := stBytes_ok hacc
    rw [h] at h1
    have hm := Res.ok.inj h1
    have hset : ∀ a, (p ≤ a ∧ a < p + (bo.bytes 8 v).length) → m a = (bo.bytes 8 v)[(a - p).toNat]? := by
      intro a ha
      rw [hm, setBytes, if_pos ha]
    have h2 : stBytes m p (bo.bytes 8 v) = .ok (setBytes m p (bo.bytes 8 v)) := stBytes_ok fun a ha hb => by
      rw [hset a ⟨ha, hb⟩, List.getElem?_eq_getElem (by omega)]
      rfl
    have h3 : setBytes m p (bo.bytes 8 v) = m := by
      funext a
      rw [setBytes]
      split
      · rename_i ha
        exact (hset a ha).symm
      · rfl
    simp only [Res.ok_bind, Res.pure_eq, h2, h3]
  | abort _ => rfl
  | exit _ => rfl
  | ub _ => rfl
  | hang => rfl

/-- Reading eight bytes and keeping the lower half. -/
theorem ldLong_low {m : Mem} {p : Int} (h : ∀ i : Nat, i < 4 → (m (p + 4 + i)).isSome) :
    (ldLong .little m p >>= fun b => .ok (s32 b)) = ofOpt (intAt .little m p) := by
  obtain ⟨n, hn⟩ : ∃ n, word .little m (p + 4) = some n := by
    have h0 := h 0 (by omega)
    have h1 := h 1 (by omega)
    have h2 := h 2 (by omega)
    have h3 := h 3 (by omega)
    obtain ⟨a, ha⟩ := Option.isSome_iff_exists.1 h0
    obtain ⟨b, hb⟩ := Option.isSome_iff_exists.1 h1
    obtain ⟨c, hc⟩ := Option.isSome_iff_exists.1 h2
    obtain ⟨d, hd⟩ := Option.isSome_iff_exists.1 h3
    refine ⟨a.toNat + 256 * b.toNat + 65536 * c.toNat + 16777216 * d.toNat, ?_⟩
    simp only [word]
    rw [show m (p + 4) = some a by simpa using ha, show m (p + 4 + 1) = some b from hb, show m (p + 4 + 2) = some c from hc,
      show m (p + 4 + 3) = some d from hd]
  rw [ldLong_eq, addrAt, hn, intAt]
  cases hw : word .little m p with
  | none => rfl
  | some k =>
    have hk := word_lt hw
    have hs : s32 (s64 ((k : Int) + 4294967296 * n)) = if k < 2147483648 then (k : Int) else (k : Int) - 4294967296 := by
      rw [s32, s64]
      split <;> omega
    simp only [ofOpt_some, Res.ok_bind, Option.map_some, hs]

theorem ldLong_addr (bo : ByteOrder) (m : Mem) (p : Int) :
    (ldLong bo m p >>= fun d => .ok (u64 d)) = ofOpt (addrAt bo m p) := by
  rw [ldLong_eq]
  cases h : addrAt bo m p with
  | none => rfl
  | some v =>
    have := addrAt_range h
    have hs : u64 (s64 v) = v := by
      rw [u64, s64]
      omega
    simp only [ofOpt_some, Res.ok_bind, hs]

/-- A binding does what the interface prescribes. -/
theorem FCall.exec_eq {c : FEnv} {s : Sys} (fc : FCall) (hs : fc.Supported c s.mem) : fc.exec c s = fc.run c s := by
  cases fc
  case reduce => simp only [FCall.run, FCall.meaning, buffer_eq hs]; fcall
  case allreduce => simp only [FCall.run, FCall.meaning, buffer_eq hs]; fcall
  case reduceScatter => simp only [FCall.run, FCall.meaning, buffer_eq hs]; fcall
  case scan => simp only [FCall.run, FCall.meaning, buffer_eq hs]; fcall
  case alltoall => simp only [FCall.run, FCall.meaning, buffer_eq hs]; fcall
  case alltoallv => simp only [FCall.run, FCall.meaning, buffer_eq hs]; fcall
  case alltoallw => simp only [FCall.run, FCall.meaning, buffer_eq hs]; fcall
  case packSize => exact hs.elim
  case typeHvector n b d t w e =>
    have h : (FCall.typeHvector n b d t w e).exec c s = Bind.int c s n >>= fun n => (ldLong c.bo s.mem b >>= fun b => .ok (s32 b)) >>= fun b =>
        (ldLong c.bo s.mem d >>= fun d => .ok (u64 d)) >>= fun d => Bind.int c s t >>= fun t =>
        MPI_Type_hvector c.env s n b d t >>= fun x => stInt c.bo x.1 w x.2 >>= fun s => Bind.done c s e := by
      simp only [bind_assoc, Res.ok_bind]
      rfl
    rw [h, hs.1, ldLong_low hs.2, ldLong_addr, ← hs.1]
    simp only [FCall.run, FCall.meaning, ofOpt_bind, ofOpt_pure, bind_assoc, Res.ok_bind, bindInt_eq, putOuts_cons, putOuts_nil, bind_ok',
      ← stInt_eq, Bind.done]
  case typeCreateHvector n b d t w e =>
    have h : (FCall.typeCreateHvector n b d t w e).exec c s = Bind.int c s n >>= fun n => (ldLong c.bo s.mem b >>= fun b => .ok (s32 b)) >>= fun b =>
        (ldLong c.bo s.mem d >>= fun d => .ok (u64 d)) >>= fun d => Bind.int c s t >>= fun t =>
        MPI_Type_hvector c.env s n b d t >>= fun x => stInt c.bo x.1 w x.2 >>= fun s => Bind.done c s e := by
      simp only [bind_assoc, Res.ok_bind]
      rfl
    rw [h, hs.1, ldLong_low hs.2, ldLong_addr, ← hs.1]
    simp only [FCall.run, FCall.meaning, ofOpt_bind, ofOpt_pure, bind_assoc, Res.ok_bind, bindInt_eq, putOuts_cons, putOuts_nil, bind_ok',
      ← stInt_eq, Bind.done]
  case address l a e =>
    have h : (FCall.address l a e).exec c s = (stLong c.bo s a l >>= fun s => stLong c.bo s a l) >>= fun s => Bind.done c s e := by
      rw [bind_assoc]
      rfl
    rw [h, stLong_twice]
    fcall
  case groupRangeIncl g n rs w e =>
    have h : (FCall.groupRangeIncl g n rs w e).exec c s = Bind.int c s g >>= fun g => Bind.int c s n >>= fun k =>
        (ldInts c.bo s.mem rs (3 * k.toNat) >>= fun l => .ok (Bind.triples l)) >>= fun l =>
        MPI_Group_range_incl g k l >>= fun x => stInt c.bo s w x >>= fun s => Bind.done c s e := by
      have h3 : ∀ k : Int, ldInts c.bo s.mem rs (3 * k.toNat) = Bind.ints c s rs (3 * k) := fun k => by
        rw [Bind.ints, show (3 * k).toNat = 3 * k.toNat by omega]
      simp only [bind_assoc, Res.ok_bind, h3]
      rfl
    rw [h]
    simp only [FCall.run, FCall.meaning, ofOpt_bind, ofOpt_pure, ← triples_eq, bind_assoc, Res.ok_bind, bindInt_eq, putOuts_cons, putOuts_nil, bind_ok',
      ← stInt_eq, Bind.done]
  all_goals fcall

section
variable {env : Env} {s s' : Sys} {outs : List Out}

theorem call_of_bind {α : Type} {X : Res α} {f : α → Sys} {g : α → List Out} (call : Call)
    (hx : call.exec env s = X >>= fun x => .ok (f x)) (h : (X >>= fun x => .ok (f x, g x)) = .ok (s', outs))
    (hc : ∀ m, call ≠ .store m := by nofun) : ∃ call : Call, (∀ m, call ≠ .store m) ∧ call.exec env s = .ok s' := by
  rw [Res.bind_eq_ok] at h
  obtain ⟨a, h1, h2⟩ := h
  cases h2
  exact ⟨call, hc, by rw [hx, h1, Res.ok_bind]⟩

theorem call_of_self {X : Res Sys} {g : Sys → List Out} (call : Call)
    (hx : call.exec env s = X) (h : (X >>= fun x => .ok (x, g x)) = .ok (s', outs))
    (hc : ∀ m, call ≠ .store m := by nofun) : ∃ call : Call, (∀ m, call ≠ .store m) ∧ call.exec env s = .ok s' := by
  rw [Res.bind_eq_ok] at h
  obtain ⟨a, h1, h2⟩ := h
  cases h2
  exact ⟨call, hc, by rw [hx, h1]⟩

theorem call_of_nop {α : Type} {X : Res α} {g : α → List Out} (h : (X >>= fun x => .ok (s, g x)) = .ok (s', outs)) :
    ∃ call : Call, (∀ m, call ≠ .store m) ∧ call.exec env s = .ok s' := by
  rw [Res.bind_eq_ok] at h
  obtain ⟨a, h1, h2⟩ := h
  cases h2
  exact ⟨.initialized, nofun, rfl⟩

theorem call_of_none {l : List Out} (h : (Res.ok (s, l) : Res (Sys × List Out)) = .ok (s', outs)) :
    ∃ call : Call, (∀ m, call ≠ .store m) ∧ call.exec env s = .ok s' := by
  cases h
  exact ⟨.initialized, nofun, rfl⟩

end

/-- The state of the library changes as it does in a call from C. -/
theorem FCall.call_of {c : FEnv} {s s' : Sys} {outs : List Out} (fc : FCall)
    (h : fc.meaning c s = some (.ok (s', outs))) : ∃ call : Call, (∀ m, call ≠ .store m) ∧ call.exec c.env s = .ok s' := by
  cases fc <;> simp only [FCall.meaning, Option.bind_eq_bind, Option.bind_eq_some_iff, Option.pure_def, Option.some.injEq] at h
  case isend buf count datatype dest tag comm request e =>
    obtain ⟨n, -, t, -, d, -, g, -, k, -, h⟩ := h
    exact call_of_bind (.isend buf n t d g k) rfl h
  case send buf count datatype dest tag comm e =>
    obtain ⟨n, -, t, -, d, -, g, -, k, -, h⟩ := h
    exact call_of_self (.send buf n t d g k) rfl h
  case ssend buf count datatype dest tag comm e =>
    obtain ⟨n, -, t, -, d, -, g, -, k, -, h⟩ := h
    exact call_of_self (.send buf n t d g k) rfl h
  case rsend buf count datatype dest tag comm e =>
    obtain ⟨n, -, t, -, d, -, g, -, k, -, h⟩ := h
    exact call_of_self (.send buf n t d g k) rfl h
  case irsend buf count datatype dest tag comm request e =>
    obtain ⟨n, -, t, -, d, -, g, -, k, -, h⟩ := h
    exact call_of_bind (.irsend buf n t d g k) rfl h
  case sendrecv sendbuf sendcount sendtype dest sendtag recvbuf recvcount recvtype source recvtag comm st e =>
    obtain ⟨n, -, t, -, d, -, g, -, n', -, t', -, d', -, g', -, k, -, o, -, h⟩ := h
    exact call_of_bind (.sendrecv sendbuf n t d g recvbuf n' t' d' g' k o) rfl h
  case irecv buf count datatype source tag comm request e =>
    obtain ⟨n, -, t, -, d, -, g, -, k, -, h⟩ := h
    exact call_of_bind (.irecv buf n t d g k) rfl h
  case recv buf count datatype source tag comm st e =>
    obtain ⟨n, -, t, -, d, -, g, -, k, -, o, -, h⟩ := h
    exact call_of_bind (.recv buf n t d g k o) rfl h
  case iprobe source tag comm flag st e =>
    obtain ⟨d, -, g, -, k, -, o, -, h⟩ := h
    exact call_of_bind (.iprobe d g k o) rfl h
  case probe source tag comm st e =>
    obtain ⟨d, -, g, -, k, -, o, -, h⟩ := h
    exact call_of_bind (.probe d g k o) rfl h
  case getCount st datatype count e =>
    obtain ⟨o, -, t, -, h⟩ := h
    exact call_of_none h
  case getElements st datatype count e =>
    obtain ⟨o, -, t, -, h⟩ := h
    exact call_of_bind (.getElements o t) rfl h
  case test request flag st e =>
    obtain ⟨r, -, o, -, h⟩ := h
    exact call_of_bind (.test r o) rfl h
  case wait request st e =>
    obtain ⟨r, -, o, -, h⟩ := h
    exact call_of_bind (.wait r o) rfl h
  case waitany count requests index st e =>
    obtain ⟨n, -, rs, -, i, -, o, -, h⟩ := h
    exact call_of_bind (.waitany n rs i o) rfl h
  case testany count requests index flag st e =>
    obtain ⟨n, -, rs, -, i, -, o, -, h⟩ := h
    exact call_of_bind (.testany n rs i o) rfl h
  case testall count requests flag sts e =>
    obtain ⟨n, -, rs, -, o, -, h⟩ := h
    exact call_of_bind (.testall n rs o) rfl h
  case waitall count requests sts e =>
    obtain ⟨n, -, rs, -, o, -, h⟩ := h
    exact call_of_bind (.waitall n rs o) rfl h
  case testsome incount requests outcount indices sts e =>
    obtain ⟨n, -, rs, -, ix, -, o, -, h⟩ := h
    exact call_of_bind (.testsome n rs ix o) rfl h
  case waitsome incount requests outcount indices sts e =>
    obtain ⟨n, -, rs, -, ix, -, o, -, h⟩ := h
    exact call_of_bind (.waitsome n rs ix o) rfl h
  case requestFree request e =>
    obtain ⟨r, -, h⟩ := h
    exact call_of_bind (.requestFree r) rfl h
  case commFree comm e =>
    obtain ⟨k, -, h⟩ := h
    exact call_of_bind (.commFree k) rfl h
  case commSize comm size e =>
    obtain ⟨k, -, h⟩ := h
    exact call_of_none h
  case commRank comm rank e =>
    obtain ⟨k, -, h⟩ := h
    exact call_of_none h
  case commDup comm newcomm e =>
    obtain ⟨k, -, h⟩ := h
    exact call_of_bind (.commDup k) rfl h
  case commCreate comm group newcomm e =>
    obtain ⟨k, -, g, -, h⟩ := h
    exact call_of_bind (.commCreate k g) rfl h
  case commSplit comm color key newcomm e =>
    obtain ⟨k, -, l, -, y, -, h⟩ := h
    exact call_of_bind (.commSplit k l y) rfl h
  case commGroup comm group e =>
    obtain ⟨k, -, h⟩ := h
    exact call_of_none h
  case intercommCreate localComm localLeader peerComm remoteLeader tag newintercomm e =>
    obtain ⟨k, -, l, -, p, -, r, -, g, -, h⟩ := h
    exact call_of_bind (.intercommCreate k l p r g) rfl h
  case groupIncl group n ranks newgroup e =>
    obtain ⟨g, -, k, -, rs, -, h⟩ := h
    exact call_of_nop h
  case groupRangeIncl group n ranges newgroup e =>
    obtain ⟨g, -, k, -, rs, -, h⟩ := h
    exact call_of_nop h
  case groupUnion group1 group2 newgroup e =>
    obtain ⟨g, -, h, -, h⟩ := h
    exact call_of_nop h
  case groupIntersection group1 group2 newgroup e =>
    obtain ⟨g, -, h, -, h⟩ := h
    exact call_of_nop h
  case groupDifference group1 group2 newgroup e =>
    obtain ⟨g, -, h, -, h⟩ := h
    exact call_of_nop h
  case groupFree group e =>
    exact call_of_none h
  case groupTranslateRanks group1 n ranks1 group2 ranks2 e =>
    obtain ⟨g, -, k, -, rs, -, h, -, qs, -, h⟩ := h
    exact call_of_nop h
  case cartCreate commOld ndims dims _ reorder commCart e =>
    obtain ⟨k, -, n, -, ds, -, _x, -, h⟩ := h
    exact call_of_bind (.cartCreate k n ds) rfl h
  case cartGet comm maxdims dims periods coords e =>
    obtain ⟨k, -, n, -, ds, -, ps, -, xs, -, h⟩ := h
    exact call_of_nop h
  case cartCoords comm rank maxdims coords e =>
    obtain ⟨k, -, r, -, n, -, xs, -, h⟩ := h
    exact call_of_nop h
  case dimsCreate nnodes ndims dims e =>
    obtain ⟨k, -, n, -, ds, -, h⟩ := h
    exact call_of_nop h
  case barrier comm e =>
    obtain ⟨k, -, h⟩ := h
    exact call_of_self (.barrier k) rfl h
  case bcast buf count datatype root comm e =>
    obtain ⟨n, -, t, -, r, -, k, -, h⟩ := h
    exact call_of_self (.bcast buf n t r k) rfl h
  case gather sendbuf sendcount sendtype recvbuf recvcount recvtype root comm e =>
    obtain ⟨n, -, t, -, n', -, t', -, r, -, k, -, h⟩ := h
    exact call_of_self (.gather (buffer c sendbuf) n t recvbuf n' t' r k) rfl h
  case gatherv sendbuf sendcount sendtype recvbuf recvcounts displs recvtype root comm e =>
    obtain ⟨n, -, t, -, n', -, d, -, t', -, r, -, k, -, h⟩ := h
    exact call_of_self (.gatherv (buffer c sendbuf) n t recvbuf n' d t' r k) rfl h
  case allgather sendbuf sendcount sendtype recvbuf recvcount recvtype comm e =>
    obtain ⟨n, -, t, -, n', -, t', -, k, -, h⟩ := h
    exact call_of_self (.allgather (buffer c sendbuf) n t recvbuf n' t' k) rfl h
  case allgatherv sendbuf sendcount sendtype recvbuf recvcounts displs recvtype comm e =>
    obtain ⟨n, -, t, -, n', -, d, -, t', -, k, -, h⟩ := h
    exact call_of_self (.allgatherv (buffer c sendbuf) n t recvbuf n' d t' k) rfl h
  case scatter sendbuf sendcount sendtype recvbuf recvcount recvtype root comm e =>
    obtain ⟨n, -, t, -, n', -, t', -, r, -, k, -, h⟩ := h
    exact call_of_self (.scatter sendbuf n t (buffer c recvbuf) n' t' r k) rfl h
  case scatterv sendbuf sendcounts displs sendtype recvbuf recvcount recvtype root comm e =>
    obtain ⟨n, -, d, -, t, -, n', -, t', -, r, -, k, -, h⟩ := h
    exact call_of_self (.scatterv sendbuf n d t (buffer c recvbuf) n' t' r k) rfl h
  case reduce sendbuf recvbuf count datatype op root comm e =>
    obtain ⟨n, -, t, -, o, -, r, -, k, -, h⟩ := h
    exact call_of_self (.reduce (buffer c sendbuf) recvbuf n t o r k) rfl h
  case allreduce sendbuf recvbuf count datatype op comm e =>
    obtain ⟨n, -, t, -, o, -, k, -, h⟩ := h
    exact call_of_self (.allreduce (buffer c sendbuf) recvbuf n t o k) rfl h
  case reduceScatter sendbuf recvbuf recvcounts datatype op comm e =>
    obtain ⟨n, -, t, -, o, -, k, -, h⟩ := h
    exact call_of_self (.reduceScatter (buffer c sendbuf) recvbuf n t o k) rfl h
  case scan sendbuf recvbuf count datatype op comm e =>
    obtain ⟨n, -, t, -, o, -, k, -, h⟩ := h
    exact call_of_self (.scan (buffer c sendbuf) recvbuf n t o k) rfl h
  case alltoall sendbuf sendcount sendtype recvbuf recvcount recvtype comm e =>
    obtain ⟨n, -, t, -, n', -, t', -, k, -, h⟩ := h
    exact call_of_self (.alltoall (buffer c sendbuf) n t recvbuf n' t' k) rfl h
  case alltoallv sendbuf sendcounts sdispls sendtype recvbuf recvcounts rdispls recvtype comm e =>
    obtain ⟨n, -, d, -, t, -, n', -, d', -, t', -, k, -, h⟩ := h
    exact call_of_self (.alltoallv (buffer c sendbuf) n d t recvbuf n' d' t' k) rfl h
  case alltoallw sendbuf sendcounts sdispls sendtypes recvbuf recvcounts rdispls recvtypes comm e =>
    obtain ⟨n, -, d, -, t, -, n', -, d', -, t', -, k, -, h⟩ := h
    exact call_of_self (.alltoallw (buffer c sendbuf) n d t recvbuf n' d' t' k) rfl h
  case typeExtent datatype extent e =>
    obtain ⟨t, -, h⟩ := h
    exact call_of_bind (.typeExtent t) rfl h
  case typeStruct count blocklens displacements oldtypes newtype e =>
    obtain ⟨n, -, b, -, d, -, t, -, h⟩ := h
    exact call_of_bind (.typeStruct n b d t) rfl h
  case typeContiguous count oldtype newtype e =>
    obtain ⟨n, -, t, -, h⟩ := h
    exact call_of_bind (.typeContiguous n t) rfl h
  case typeHvector count blocklen stride oldtype newtype e =>
    obtain ⟨n, -, b, -, d, -, t, -, h⟩ := h
    exact call_of_bind (.typeHvector n b d t) rfl h
  case typeCreateHvector count blocklen stride oldtype newtype e =>
    obtain ⟨n, -, b, -, d, -, t, -, h⟩ := h
    exact call_of_bind (.typeHvector n b d t) rfl h
  case typeVector count blocklen stride oldtype newtype e =>
    obtain ⟨n, -, b, -, d, -, t, -, h⟩ := h
    exact call_of_bind (.typeVector n b d t) rfl h
  case typeHindexed count blocklens displacements oldtype newtype e =>
    obtain ⟨n, -, b, -, d, -, t, -, h⟩ := h
    exact call_of_bind (.typeHindexed n b d t) rfl h
  case typeIndexed count blocklens displacements oldtype newtype e =>
    obtain ⟨n, -, b, -, d, -, t, -, h⟩ := h
    exact call_of_bind (.typeIndexed n b d t) rfl h
  case typeCreateIndexedBlock count blocklen displacements oldtype newtype e =>
    obtain ⟨n, -, b, -, d, -, t, -, h⟩ := h
    exact call_of_bind (.typeIndexedBlock n b d t) rfl h
  case typeSize datatype size e =>
    obtain ⟨t, -, h⟩ := h
    exact call_of_bind (.typeSize t) rfl h
  case typeLb datatype lb e =>
    obtain ⟨t, -, h⟩ := h
    exact call_of_bind (.typeLb t) rfl h
  case typeUb datatype ub e =>
    obtain ⟨t, -, h⟩ := h
    exact call_of_bind (.typeUb t) rfl h
  case getAddress location result e =>
    exact call_of_none h
  case address location result e =>
    exact call_of_none h
  case typeCommit datatype e =>
    obtain ⟨t, -, h⟩ := h
    exact call_of_self (.typeCommit t) rfl h
  case typeFree datatype e =>
    obtain ⟨t, -, h⟩ := h
    exact call_of_self (.typeFree t) rfl h
  case pack inbuf incount datatype outbuf outsize position comm e =>
    obtain ⟨n, -, t, -, z, -, p, -, k, -, h⟩ := h
    exact call_of_bind (.pack inbuf n t outbuf z p k) rfl h
  case packSize incount datatype comm size e =>
    obtain ⟨n, -, t, -, k, -, h⟩ := h
    exact call_of_bind (.packSize n t k) rfl h
  case unpack inbuf insize position outbuf outcount datatype comm e =>
    obtain ⟨z, -, p, -, n, -, t, -, k, -, h⟩ := h
    exact call_of_bind (.unpack inbuf z p outbuf n t k) rfl h
  case finalize e =>
    cases h
    exact ⟨.finalize, nofun, rfl⟩
  case abort comm errorcode e =>
    obtain ⟨k, -, x, -, h⟩ := h
    exact call_of_nop h
  case initialized flag e =>
    exact call_of_none h
  case getVersion version subversion e =>
    exact call_of_none h
  case opCreate f commute op e =>
    obtain ⟨k, -, h⟩ := h
    exact call_of_none h
  case opFree op e =>
    exact call_of_none h
  case infoCreate info e =>
    exact call_of_none h
  case infoSet info key value e =>
    obtain ⟨k, -, h⟩ := h
    exact call_of_none h
  case infoFree info e =>
    exact call_of_none h

/-- The variables of a Fortran call exist after the C function has returned. -/
theorem Variables.after {c : FEnv} {s s' : Sys} {outs : List Out} {fc : FCall}
    (h : fc.meaning c s = some (.ok (s', outs))) (hv : Variables s.mem outs) : Variables s'.mem outs := by
  obtain ⟨call, h1, h2⟩ := fc.call_of h
  have h3 := Call.keeps_dom (env := c.env) (m := s.mem) (s := s) (fun _ => rfl) call h1 s' h2
  exact ⟨fun o ho a ha => by rw [h3 a]; exact hv.accessible o ho a ha, hv.apart⟩

theorem FCall.performs {c : FEnv} {s : Sys} {fc : FCall} {r : Res (Sys × List Out)} (hs : fc.Supported c s.mem)
    (hm : fc.meaning c s = some r) (hv : ∀ s' outs, r = .ok (s', outs) → Variables s.mem outs) :
    Performs c.bo (fc.exec c s) r := by
  rw [fc.exec_eq hs, FCall.run, hm, ofOpt_some, Res.ok_bind]
  cases r with
  | ok x =>
    obtain ⟨s', outs⟩ := x
    obtain ⟨m', h1, h2⟩ := putOuts_ok c.bo (Variables.after hm (hv s' outs rfl))
    exact ⟨m', by rw [Res.ok_bind, h1], h2⟩
  | abort _ => rfl
  | exit _ => rfl
  | ub _ => rfl
  | hang => rfl

theorem putVals_mem (bo : ByteOrder) (w : Nat) : ∀ (vs : List Int) {s s' : Sys} {p : Int}, putVals bo w s p vs = .ok s' →
    ∃ m, s' = { s with mem := m }
  | [], s, _, _, h => by cases h; exact ⟨s.mem, rfl⟩
  | v :: vs, s, s', p, h => by
    rw [putVals, Res.bind_eq_ok] at h
    obtain ⟨m, _, h2⟩ := h
    obtain ⟨m', rfl⟩ := putVals_mem bo w vs h2
    exact ⟨m', rfl⟩

theorem putOuts_mem (bo : ByteOrder) : ∀ (outs : List Out) {s s' : Sys}, putOuts bo s outs = .ok s' → ∃ m, s' = { s with mem := m }
  | [], s, _, h => by cases h; exact ⟨s.mem, rfl⟩
  | o :: os, s, s', h => by
    rw [putOuts, Res.bind_eq_ok] at h
    obtain ⟨s1, h1, h2⟩ := h
    obtain ⟨m1, rfl⟩ := putVals_mem bo _ _ h1
    obtain ⟨m2, rfl⟩ := putOuts_mem bo os h2
    exact ⟨m2, rfl⟩

/-- A Fortran call that returns is a call from C, followed by stores to user memory. -/
theorem FCall.exec_call {c : FEnv} {s s' : Sys} (fc : FCall) (hs : fc.Supported c s.mem) (h : fc.exec c s = .ok s') :
    ∃ (call : Call) (m : Mem) (s₁ : Sys), call.exec c.env s = .ok s₁ ∧ s' = { s₁ with mem := m } := by
  rw [fc.exec_eq hs, FCall.run, Res.bind_eq_ok] at h
  obtain ⟨r, h1, h2⟩ := h
  rw [Res.bind_eq_ok] at h2
  obtain ⟨⟨s₁, outs⟩, h3, h4⟩ := h2
  cases hm : fc.meaning c s with
  | none => rw [hm] at h1; cases h1
  | some r' =>
    rw [hm] at h1
    cases h1
    rw [h3] at hm
    obtain ⟨call, _, h5⟩ := fc.call_of hm
    obtain ⟨m, h6⟩ := putOuts_mem c.bo outs h4
    exact ⟨call, m, s₁, h5, h6⟩

end MpiSerial
