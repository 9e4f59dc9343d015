import Verif.Spec.Fort
import Verif.Proofs.Dom

/-!
# Fortran calls in terms of C calls
-/

set_option linter.unusedSimpArgs false
set_option autoImplicit false

namespace MpiSerial

open Spec.Fort
open Res (Post)

/-! ## Reading variables -/

/-- Reading something that is not there is undefined behaviour. -/
def ofOpt {α : Type} : Option α → Res α
  | some a => .ok a
  | none => .ub .memAccess

theorem ofOpt_bind {α β : Type} (x : Option α) (f : α → Option β) : ofOpt (x >>= f) = ofOpt x >>= fun a => ofOpt (f a) := by
  cases x <;> simp [ofOpt]

theorem ofOpt_some {α : Type} (a : α) : ofOpt (some a) = .ok a := rfl

theorem ofOpt_pure {α : Type} (a : α) : ofOpt (pure a) = .ok a := rfl

theorem ofOpt_map {α β : Type} (x : Option α) (f : α → β) : ofOpt (x.map f) = ofOpt x >>= fun a => .ok (f a) := by
  cases x <;> simp [ofOpt]

/-- The four bytes at `p`. -/
theorem ldBytes_four (m : Mem) (p : Int) : ldBytes m p 4 =
    match m p, m (p + 1), m (p + 2), m (p + 3) with
    | some a, some b, some c, some d => .ok [a, b, c, d]
    | _, _, _, _ => .ub .memAccess := by
  have h1 : p + 1 + 1 = p + 2 := by omega
  have h2 : p + 2 + 1 = p + 3 := by omega
  simp only [ldBytes, h1, h2]
  rcases m p with _ | a <;> rcases m (p + 1) with _ | b <;> rcases m (p + 2) with _ | d <;> rcases m (p + 3) with _ | e <;> simp

theorem ldBytes_add (m : Mem) : ∀ (n k : Nat) (p : Int),
    ldBytes m p (n + k) = ldBytes m p n >>= fun a => ldBytes m (p + n) k >>= fun b => .ok (a ++ b)
  | 0, k, p => by
    simp only [ldBytes, Res.ok_bind, List.nil_append, Nat.zero_add]
    rw [show p + ((0 : Nat) : Int) = p by simp]
    cases ldBytes m p k <;> rfl
  | n + 1, k, p => by
    rw [show n + 1 + k = n + k + 1 by omega, ldBytes, ldBytes]
    cases m p with
    | none => simp
    | some b =>
      simp only [ldBytes_add m n k (p + 1), bind_assoc, Res.pure_eq, Res.ok_bind]
      simp [show p + 1 + (n : Int) = p + ((n : Int) + 1) by omega]

/-- `word` in terms of bytes. -/
theorem ofOpt_word (bo : ByteOrder) (m : Mem) (p : Int) :
    ofOpt (word bo m p) = ldBytes m p 4 >>= fun bs => .ok (bo.value bs) := by
  rw [ldBytes_four, word]
  rcases m p with _ | a <;> rcases m (p + 1) with _ | b <;> rcases m (p + 2) with _ | d <;> rcases m (p + 3) with _ | e <;>
    simp [ofOpt]
  cases bo <;> simp [ByteOrder.value, ofDigits] <;> omega

theorem word_lt {bo : ByteOrder} {m : Mem} {p : Int} {n : Nat} (h : word bo m p = some n) : n < 4294967296 := by
  revert h
  rw [word]
  rcases m p with _ | a <;> rcases m (p + 1) with _ | b <;> rcases m (p + 2) with _ | d <;> rcases m (p + 3) with _ | e <;>
    simp
  have := a.toNat_lt
  have := b.toNat_lt
  have := d.toNat_lt
  have := e.toNat_lt
  cases bo <;> simp <;> omega

theorem ldInt_eq (bo : ByteOrder) (m : Mem) (p : Int) : ldInt bo m p = ofOpt (intAt bo m p) := by
  have h : ldInt bo m p = (ldBytes m p 4 >>= fun bs => .ok (bo.value bs)) >>= fun n => .ok (s32 n) := by
    simp [ldInt]
  rw [h, ← ofOpt_word, intAt]
  cases hw : word bo m p with
  | none => rfl
  | some n =>
    have := word_lt hw
    have hs : s32 (n : Int) = if n < 2147483648 then (n : Int) else (n : Int) - 4294967296 := by
      rw [s32]
      split <;> omega
    rw [ofOpt_some, Res.ok_bind, hs, Option.map_some, ofOpt_some]

theorem ofDigits_append : ∀ xs ys : List UInt8, ofDigits (xs ++ ys) = ofDigits xs + 256 ^ xs.length * ofDigits ys
  | [], ys => by simp [ofDigits]
  | x :: xs, ys => by
    rw [List.cons_append, ofDigits, ofDigits, ofDigits_append xs ys, List.length_cons, Nat.pow_succ, Nat.mul_add,
      Nat.mul_comm (256 ^ xs.length) 256, Nat.mul_assoc, Nat.add_assoc]

/-- The number in eight bytes. -/
theorem value_eight (bo : ByteOrder) (m : Mem) (p : Int) :
    (ldBytes m p 8 >>= fun bs => .ok ((bo.value bs : Nat) : Int)) = ofOpt (addrAt bo m p) := by
  have hv : ∀ xs ys : List UInt8, xs.length = 4 → ys.length = 4 →
      bo.value (xs ++ ys) = match bo with
        | .little => bo.value xs + 4294967296 * bo.value ys
        | .big => 4294967296 * bo.value xs + bo.value ys := by
    intro xs ys hx hy
    cases bo
    · simp only [ByteOrder.value, ofDigits_append, hx]
    · simp only [ByteOrder.value, List.reverse_append, ofDigits_append, List.length_reverse, hy]
      omega
  have hlen : ∀ q bs, ldBytes m q 4 = .ok bs → bs.length = 4 := by
    intro q bs
    rw [ldBytes_four]
    split
    · intro h; cases h; rfl
    · intro h; cases h
  rw [show (8 : Nat) = 4 + 4 from rfl, ldBytes_add, addrAt]
  have h1 := ofOpt_word bo m p
  have h2 := ofOpt_word bo m (p + 4)
  simp only [bind_assoc, Res.ok_bind] at *
  cases hx : ldBytes m p 4 with
  | ok xs =>
    rw [hx, Res.ok_bind] at h1
    cases hw : word bo m p with
    | none => rw [hw] at h1; cases h1
    | some a =>
      rw [hw] at h1
      have h1' := Res.ok.inj h1
      simp only [Res.ok_bind]
      rw [show p + ((4 : Nat) : Int) = p + 4 from rfl]
      cases hy : ldBytes m (p + 4) 4 with
      | ok ys =>
        rw [hy, Res.ok_bind] at h2
        cases hw2 : word bo m (p + 4) with
        | none => rw [hw2] at h2; cases h2
        | some b =>
          rw [hw2] at h2
          have h2' := Res.ok.inj h2
          simp only [Res.ok_bind, ofOpt]
          rw [hv xs ys (hlen _ _ hx) (hlen _ _ hy), h1', h2']
          cases bo <;> simp
      | ub u =>
        rw [hy] at h2
        cases hw2 : word bo m (p + 4) with
        | none => rw [hw2] at h2; simp [ofOpt] at h2; subst h2; rfl
        | some b => rw [hw2] at h2; cases h2
      | abort _ => rw [ldBytes_four] at hy; split at hy <;> cases hy
      | exit _ => rw [ldBytes_four] at hy; split at hy <;> cases hy
      | hang => rw [ldBytes_four] at hy; split at hy <;> cases hy
  | ub u =>
    rw [hx] at h1
    cases hw : word bo m p with
    | none => rw [hw] at h1; simp [ofOpt] at h1; subst h1; rfl
    | some b => rw [hw] at h1; cases h1
  | abort _ => rw [ldBytes_four] at hx; split at hx <;> cases hx
  | exit _ => rw [ldBytes_four] at hx; split at hx <;> cases hx
  | hang => rw [ldBytes_four] at hx; split at hx <;> cases hx

theorem addrAt_range {bo : ByteOrder} {m : Mem} {p v : Int} (h : addrAt bo m p = some v) :
    0 ≤ v ∧ v < 18446744073709551616 := by
  revert h
  rw [addrAt]
  cases h1 : word bo m p <;> cases h2 : word bo m (p + 4) <;> simp
  have := word_lt h1
  have := word_lt h2
  cases bo <;> simp <;> omega

theorem ldAint_eq (bo : ByteOrder) (m : Mem) (p : Int) : ldAint bo m p = ofOpt (addrAt bo m p) := by
  have h : ldAint bo m p = (ldBytes m p 8 >>= fun bs => .ok ((bo.value bs : Nat) : Int)) >>= fun n => .ok (u64 n) := by
    simp [ldAint]
  rw [h, value_eight]
  cases hw : addrAt bo m p with
  | none => rfl
  | some n =>
    have := addrAt_range hw
    simp only [ofOpt, Res.ok_bind, u64]
    congr 1
    omega

theorem ldLong_eq (bo : ByteOrder) (m : Mem) (p : Int) : ldLong bo m p = ofOpt (addrAt bo m p) >>= fun v => .ok (s64 v) := by
  rw [← value_eight]
  simp [ldLong]

theorem mapM_range {α : Type} (f : Nat → Option α) (n : Nat) :
    (List.range (n + 1)).mapM f = f 0 >>= fun x => (List.range n).mapM (fun i => f (i + 1)) >>= fun xs => some (x :: xs) := by
  rw [List.range_succ_eq_map, List.mapM_cons, List.mapM_map]
  rfl

theorem ldInts_eq (bo : ByteOrder) (m : Mem) : ∀ (n : Nat) (p : Int), ldInts bo m p n = ofOpt (intsAt bo m p n)
  | 0, p => rfl
  | n + 1, p => by
    rw [ldInts, intsAt, mapM_range, ofOpt_bind, ldInt_eq, ldInts_eq bo m n (p + 4)]
    simp only [ofOpt_bind, ofOpt_some, Res.pure_eq, intsAt]
    congr 1
    · congr 2; simp
    · funext x
      congr 3
      funext i
      congr 1
      push_cast
      omega

theorem ldAints_eq (bo : ByteOrder) (m : Mem) : ∀ (n : Nat) (p : Int), ldAints bo m p n = ofOpt (addrsAt bo m p n)
  | 0, p => rfl
  | n + 1, p => by
    rw [ldAints, addrsAt, mapM_range, ofOpt_bind, ldAint_eq, ldAints_eq bo m n (p + 8)]
    simp only [ofOpt_bind, ofOpt_some, Res.pure_eq, addrsAt]
    congr 1
    · congr 2; simp
    · funext x
      congr 3
      funext i
      congr 1
      push_cast
      omega

theorem ldStatus_eq (bo : ByteOrder) (m : Mem) (p : Int) : ldStatus bo m p = ofOpt (statusAt bo m p) := by
  simp only [ldStatus, ldInt_eq, statusAt]
  cases intAt bo m p <;> cases intAt bo m (p + 4) <;> cases intAt bo m (p + 8) <;> cases intAt bo m (p + 12) <;> simp [ofOpt]

theorem ldStatuses_eq (bo : ByteOrder) (m : Mem) : ∀ (n : Nat) (p : Int),
    ldStatuses bo m p n = ofOpt ((List.range n).mapM fun (i : Nat) => statusAt bo m (p + 16 * i))
  | 0, p => rfl
  | n + 1, p => by
    rw [ldStatuses, mapM_range, ofOpt_bind, ldStatus_eq, ldStatuses_eq bo m n (p + 16)]
    simp only [ofOpt_bind, ofOpt_some, Res.pure_eq]
    congr 1
    · congr 2; simp
    · funext x
      congr 3
      funext i
      congr 1
      push_cast
      omega

theorem status_eq (c : FEnv) (s : Sys) (p : Int) :
    ofOpt (statusArg c s.mem p) = Bind.status c s p >>= fun o => .ok (Fort.statusArg (mpi_c_status c.ptrs p) o) := by
  simp only [statusArg, Bind.status, mpi_c_status, Fort.statusArg]
  by_cases h1 : p = c.ptrs.status
  · simp [h1, ofOpt]
  · by_cases h2 : p = 0
    · simp [h2, ofOpt]
    · simp [h1, h2, ofOpt_map, ldStatus_eq]

theorem statuses_eq (c : FEnv) (s : Sys) (p n : Int) :
    ofOpt (statusesArg c s.mem p n.toNat) = Bind.statuses c s p n >>= fun o => .ok (Fort.statusesArg (mpi_c_statuses c.ptrs p) o) := by
  simp only [statusesArg, Bind.statuses, mpi_c_statuses, Fort.statusesArg]
  by_cases h1 : p = c.ptrs.statuses
  · simp [h1, ofOpt]
  · by_cases h2 : p = 0
    · simp [h2, ofOpt]
    · simp [h1, h2, ofOpt_map, ldStatuses_eq]

theorem triples_eq (bo : ByteOrder) (m : Mem) : ∀ (n : Nat) (p : Int),
    ofOpt ((List.range n).mapM fun (i : Nat) => do
      let a ← intAt bo m (p + 12 * i); let b ← intAt bo m (p + 12 * i + 4); let d ← intAt bo m (p + 12 * i + 8)
      return (a, b, d)) = ldInts bo m p (3 * n) >>= fun l => .ok (Bind.triples l)
  | 0, p => rfl
  | n + 1, p => by
    have ih := triples_eq bo m n (p + 12)
    rw [mapM_range, show 3 * (n + 1) = 3 * n + 1 + 1 + 1 by omega, ldInts, ldInts, ldInts]
    simp only [ofOpt_bind, ofOpt_some, Res.pure_eq, bind_assoc, Res.ok_bind, ldInt_eq, ofOpt_pure, Bind.triples,
      show p + 4 + 4 = p + 8 by omega, show p + 8 + 4 = p + 12 by omega]
    have h : (fun (i : Nat) => (do
        let a ← intAt bo m (p + 12 * ((i + 1 : Nat) : Int)); let b ← intAt bo m (p + 12 * ((i + 1 : Nat) : Int) + 4)
        let d ← intAt bo m (p + 12 * ((i + 1 : Nat) : Int) + 8)
        return (a, b, d) : Option (Int × Int × Int))) = fun (i : Nat) => do
        let a ← intAt bo m (p + 12 + 12 * i); let b ← intAt bo m (p + 12 + 12 * i + 4); let d ← intAt bo m (p + 12 + 12 * i + 8)
        return (a, b, d) := by
      funext i
      rw [show p + 12 * ((i + 1 : Nat) : Int) = p + 12 + 12 * i by push_cast; omega]
    rw [h, ih]
    simp [bind_assoc]

/-! ## Setting variables -/

/-- Memory after storing `bs` at `p`. -/
def setBytes (m : Mem) (p : Int) (bs : List UInt8) : Mem := fun a =>
  if p ≤ a ∧ a < p + bs.length then bs[(a - p).toNat]? else m a

theorem setBytes_nil (m : Mem) (p : Int) : setBytes m p [] = m := by
  funext a
  simp only [setBytes, List.length_nil]
  rw [if_neg (by omega)]

theorem setBytes_cons (m : Mem) (p : Int) (b : UInt8) (bs : List UInt8) :
    setBytes m p (b :: bs) = fun a => if a = p then some b else setBytes m (p + 1) bs a := by
  funext a
  simp only [setBytes, List.length_cons]
  by_cases h : a = p
  · subst h
    rw [if_pos (by omega), if_pos rfl]
    simp
  · rw [if_neg h]
    by_cases h2 : p + 1 ≤ a ∧ a < p + 1 + bs.length
    · rw [if_pos (by omega), if_pos h2, show (a - p).toNat = (a - (p + 1)).toNat + 1 by omega]
      simp
    · rw [if_neg (by omega), if_neg h2]

theorem stBytes_ok {m : Mem} : ∀ {bs : List UInt8} {p : Int}, (∀ a, p ≤ a → a < p + bs.length → (m a).isSome) →
    stBytes m p bs = .ok (setBytes m p bs)
  | [], p, _ => by rw [stBytes, setBytes_nil]
  | b :: bs, p, h => by
    rw [stBytes, setBytes_cons, stBytes_ok (bs := bs) (p := p + 1) fun a h1 h2 => h a (by omega) (by simp; omega)]
    have := h p (by omega) (by simp; omega)
    cases hp : m p with
    | none => rw [hp] at this; cases this
    | some _ => simp

theorem toDigits_length : ∀ (n : Nat) (v : Int), (toDigits n v).length = n
  | 0, _ => rfl
  | n + 1, v => by simp [toDigits, toDigits_length n]

theorem bytes_length (bo : ByteOrder) (n : Nat) (v : Int) : (bo.bytes n v).length = n := by
  cases bo <;> simp [ByteOrder.bytes, toDigits_length]

theorem toDigits_get : ∀ (n : Nat) (v : Int) (k : Nat), k < n →
    ∃ b, (toDigits n v)[k]? = some b ∧ (b.toNat : Int) = v / 256 ^ k % 256
  | 0, _, _, h => absurd h (by omega)
  | n + 1, v, 0, _ => by
    refine ⟨_, rfl, ?_⟩
    have h1 : (v % 256).toNat < 256 := by omega
    simp only [UInt8.toNat_ofNat', Int.pow_zero, Int.ediv_one]
    rw [Nat.mod_eq_of_lt (by omega)]
    omega
  | n + 1, v, k + 1, h => by
    obtain ⟨b, h1, h2⟩ := toDigits_get n (v / 256) k (by omega)
    refine ⟨b, by simpa [toDigits] using h1, ?_⟩
    rw [h2, Int.ediv_ediv_of_nonneg (by omega), Int.pow_succ, Int.mul_comm]

theorem bytes_get (bo : ByteOrder) (n : Nat) (v : Int) (k : Nat) (h : k < n) :
    ∃ b : UInt8, (bo.bytes n v)[(match bo with | .little => k | .big => n - 1 - k : Nat)]? = some b ∧
      (b.toNat : Int) = v / 256 ^ k % 256 := by
  cases bo with
  | little => exact toDigits_get n v k h
  | big =>
    obtain ⟨b, h1, h2⟩ := toDigits_get n v k h
    refine ⟨b, ?_, h2⟩
    simp only [ByteOrder.bytes]
    rw [List.getElem?_reverse (by rw [toDigits_length]; omega), toDigits_length, show n - 1 - (n - 1 - k) = k by omega, h1]

/-- Store the elements of an array of `w`-byte integers. -/
def putVals (bo : ByteOrder) (w : Nat) (s : Sys) (p : Int) : List Int → Res Sys
  | [] => .ok s
  | v :: vs => do
    let m ← stBytes s.mem p (bo.bytes w v)
    putVals bo w { s with mem := m } (p + w) vs

/-- Set a variable. -/
def putOut (bo : ByteOrder) (s : Sys) (o : Out) : Res Sys := putVals bo o.width s o.addr o.vals

/-- Set variables one after the other. -/
def putOuts (bo : ByteOrder) : Sys → List Out → Res Sys
  | s, [] => .ok s
  | s, o :: os => putOut bo s o >>= fun s => putOuts bo s os

theorem putVals_ok (bo : ByteOrder) (w : Nat) : ∀ (vs : List Int) (s : Sys) (p : Int),
    (∀ a, p ≤ a → a < p + w * vs.length → (s.mem a).isSome) →
    ∃ m', putVals bo w s p vs = .ok { s with mem := m' } ∧ (⟨p, w, vs⟩ : Out).Held bo m' ∧
      (∀ a, ¬ (p ≤ a ∧ a < p + w * vs.length) → m' a = s.mem a) ∧ SameDom s.mem m'
  | [], s, p, _ => ⟨s.mem, rfl, fun i v h => by simp at h, fun _ _ => rfl, fun _ => rfl⟩
  | v :: vs, s, p, h => by
    have hexp : (w : Int) * ((v :: vs).length : Nat) = w + w * vs.length := by
      rw [List.length_cons]; push_cast; rw [Int.mul_add]; omega
    have hnn : (0 : Int) ≤ w * vs.length := Int.mul_nonneg (by omega) (by omega)
    rw [hexp] at h
    have h1 : stBytes s.mem p (bo.bytes w v) = .ok (setBytes s.mem p (bo.bytes w v)) :=
      stBytes_ok fun a h2 h3 => h a h2 (by rw [bytes_length] at h3; omega)
    have hd : SameDom s.mem (setBytes s.mem p (bo.bytes w v)) := by
      intro a
      simp only [setBytes, bytes_length]
      split
      · rename_i ha
        rw [h a ha.1 (by omega), List.getElem?_eq_getElem (by rw [bytes_length]; omega)]
        rfl
      · rfl
    obtain ⟨m', h4, h5, h6, h7⟩ := putVals_ok bo w vs { s with mem := setBytes s.mem p (bo.bytes w v) } (p + w)
      (fun a h2 h3 => by rw [hd a]; exact h a (by omega) (by omega))
    refine ⟨m', ?_, ?_, ?_, fun a => (h7 a).trans (hd a)⟩
    · rw [putVals, h1, Res.ok_bind, h4]
    · intro i x hx k hk
      replace hk : k < w := hk
      cases i with
      | zero =>
        simp at hx
        subst hx
        obtain ⟨b, hb, hv⟩ := bytes_get bo w v k hk
        refine ⟨b, ?_, hv⟩
        have hcov : ∀ j : Nat, j < w → (bo.bytes w v)[j]? = some b → m' (p + j) = some b := by
          intro j hj hjb
          rw [h6 _ (by omega)]
          simp only [setBytes, bytes_length]
          rw [if_pos (by omega), show (p + (j : Int) - p).toNat = j by omega, hjb]
        cases bo with
        | little =>
          have := hcov k hk hb
          simpa [Out.byteAddr] using this
        | big =>
          have := hcov (w - 1 - k) (by omega) hb
          rw [show p + ((w - 1 - k : Nat) : Int) = p + ((w : Int) - 1 - k) by omega] at this
          simpa [Out.byteAddr] using this
      | succ i =>
        obtain ⟨b, hb, hv⟩ := h5 i x (by simpa using hx) k hk
        refine ⟨b, ?_, hv⟩
        have he : (⟨p, w, v :: vs⟩ : Out).byteAddr bo (i + 1) k = (⟨p + w, w, vs⟩ : Out).byteAddr bo i k := by
          have : (w : Int) * ((i + 1 : Nat) : Int) = w + w * i := by push_cast; rw [Int.mul_add]; omega
          cases bo <;> simp only [Out.byteAddr, this] <;> omega
        rw [he]
        exact hb
    · intro a ha
      rw [hexp] at ha
      rw [h6 a (by omega)]
      simp only [setBytes, bytes_length]
      rw [if_neg (by omega)]

theorem putOut_ok (bo : ByteOrder) {s : Sys} {o : Out} (h : ∀ a, o.covers a → (s.mem a).isSome) :
    ∃ m', putOut bo s o = .ok { s with mem := m' } ∧ o.Held bo m' ∧ (∀ a, ¬ o.covers a → m' a = s.mem a) ∧ SameDom s.mem m' :=
  putVals_ok bo o.width o.vals s o.addr fun a h1 h2 => h a ⟨h1, h2⟩

/-- Every byte of a variable is covered by it. -/
theorem covers_byteAddr {bo : ByteOrder} {o : Out} {i k : Nat} {v : Int} (h : o.vals[i]? = some v) (hk : k < o.width) :
    o.covers (o.byteAddr bo i k) := by
  have hi : i < o.vals.length := (List.getElem?_eq_some_iff.1 h).1
  have h1 : (o.width : Int) * i + o.width ≤ o.width * o.vals.length := by
    have : (o.width : Int) * (i + 1) ≤ o.width * o.vals.length := Int.mul_le_mul_of_nonneg_left (by omega) (by omega)
    rw [Int.mul_add] at this
    omega
  have h2 : (0 : Int) ≤ o.width * i := Int.mul_nonneg (by omega) (by omega)
  unfold Out.covers
  cases bo <;> simp only [Out.byteAddr] <;> omega

theorem held_mono {bo : ByteOrder} {o : Out} {m m' : Mem} (h : o.Held bo m) (he : ∀ a, o.covers a → m' a = m a) :
    o.Held bo m' := by
  intro i v hv k hk
  obtain ⟨b, h1, h2⟩ := h i v hv k hk
  exact ⟨b, by rw [he _ (covers_byteAddr hv hk), h1], h2⟩

theorem putOuts_ok (bo : ByteOrder) : ∀ {outs : List Out} {s : Sys}, Variables s.mem outs →
    ∃ m', putOuts bo s outs = .ok { s with mem := m' } ∧ Wrote bo s.mem m' outs
  | [], s, _ => ⟨s.mem, rfl, ⟨fun _ h => absurd h (by simp), fun _ _ => rfl⟩⟩
  | o :: os, s, h => by
    obtain ⟨m1, h1, h2, h3, h4⟩ := putOut_ok bo (h.accessible o (by simp))
    have hp := List.pairwise_cons.1 h.apart
    obtain ⟨m', h5, h6⟩ := putOuts_ok bo (outs := os) (s := { s with mem := m1 })
      ⟨fun o' ho a ha => by rw [h4 a]; exact h.accessible o' (by simp [ho]) a ha, hp.2⟩
    refine ⟨m', by rw [putOuts, h1, Res.ok_bind, h5], ⟨?_, ?_⟩⟩
    · intro o' ho
      rcases List.mem_cons.1 ho with rfl | ho
      · exact held_mono h2 fun a ha => h6.frame a fun o'' ho'' => hp.1 o'' ho'' a ha
      · exact h6.held o' ho
    · intro a ha
      rw [h6.frame a fun o' ho => ha o' (by simp [ho])]
      exact h3 a (ha o (by simp))

theorem stInt_eq (bo : ByteOrder) (s : Sys) (p v : Int) : stInt bo s p v = putOut bo s (Out.int p v) := rfl

theorem stLong_eq (bo : ByteOrder) (s : Sys) (p v : Int) : stLong bo s p v = putOut bo s (Out.long p v) := rfl

theorem stInts_eq' (bo : ByteOrder) : ∀ (vs : List Int) (s : Sys) (p : Int), stInts bo s p vs = putVals bo 4 s p vs
  | [], _, _ => rfl
  | v :: vs, s, p => by
    rw [stInts, putVals, stInt]
    simp only [bind_assoc, Res.pure_eq, Res.ok_bind]
    congr 1
    funext m
    exact stInts_eq' bo vs _ _

theorem stInts_eq (bo : ByteOrder) (s : Sys) (p : Int) (vs : List Int) : stInts bo s p vs = putOut bo s (Out.ints p vs) :=
  stInts_eq' bo vs s p

theorem stStatus_eq (bo : ByteOrder) (s : Sys) (p : Int) (o : StPtr) : stStatus bo s p o = putOut bo s (Out.status p o) := by
  cases o with
  | obj st => exact stInts_eq' bo _ s p
  | null => rfl
  | bad => rfl

theorem stStatuses_eq (bo : ByteOrder) (s : Sys) (p : Int) (o : StArr) : stStatuses bo s p o = putOut bo s (Out.statuses p o) := by
  cases o with
  | some l => exact stInts_eq' bo _ s p
  | none => rfl

end MpiSerial
