import Verif.Model.Desc
import Verif.Spec.Desc
import Verif.Proofs.Twin
import Verif.Proofs.Fort

/-!
# Descriptors as bytes and descriptors as values agree
-/

set_option linter.unusedSimpArgs false
set_option autoImplicit false

namespace MpiSerial.Raw

open Res (Rel)

variable {bo : ByteOrder} {b : Blob} {n : Nat}

/-! ## Loads and stores -/

theorem int_ok {off : Nat} (h : off + 4 ≤ b.length) : b.int bo off = .ok (intAt bo b off) := by
  simp only [Blob.int, Blob.ld]
  rw [if_pos h]
  rfl

theorem long_ok {off : Nat} (h : off + 8 ≤ b.length) : b.long bo off = .ok (longAt bo b off) := by
  simp only [Blob.long, Blob.ld]
  rw [if_pos h]
  rfl

theorem int_bad {off : Nat} (h : ¬ off + 4 ≤ b.length) : b.int bo off = .ub .badPtr := by
  simp only [Blob.int, Blob.ld]
  rw [if_neg h]
  rfl

theorem long_bad {off : Nat} (h : ¬ off + 8 ≤ b.length) : b.long bo off = .ub .badPtr := by
  simp only [Blob.long, Blob.ld]
  rw [if_neg h]
  rfl

/-- The object after a store. -/
def put (b : Blob) (off : Nat) (bs : List UInt8) : Blob := b.take off ++ bs ++ b.drop (off + bs.length)

theorem st_ok {off : Nat} {bs : List UInt8} (h : off + bs.length ≤ b.length) : b.st off bs = .ok (put b off bs) := by
  simp only [Blob.st]
  rw [if_pos h]
  rfl

theorem setInt_ok {off : Nat} {v : Int} (h : off + 4 ≤ b.length) :
    b.setInt bo off v = .ok (put b off (bo.bytes 4 v)) := st_ok (by rw [bytes_length]; exact h)

theorem setLong_ok {off : Nat} {v : Int} (h : off + 8 ≤ b.length) :
    b.setLong bo off v = .ok (put b off (bo.bytes 8 v)) := st_ok (by rw [bytes_length]; exact h)

theorem setInt_bad {off : Nat} {v : Int} (h : ¬ off + 4 ≤ b.length) : b.setInt bo off v = .ub .badPtr := by
  simp only [Blob.setInt, Blob.st, bytes_length]
  rw [if_neg h]

theorem setLong_bad {off : Nat} {v : Int} (h : ¬ off + 8 ≤ b.length) : b.setLong bo off v = .ub .badPtr := by
  simp only [Blob.setLong, Blob.st, bytes_length]
  rw [if_neg h]

theorem put_length {off : Nat} {bs : List UInt8} (h : off + bs.length ≤ b.length) : (put b off bs).length = b.length := by
  simp only [put, List.length_append, List.length_take, List.length_drop]
  omega

theorem put_get {off : Nat} {bs : List UInt8} (h : off + bs.length ≤ b.length) (i : Nat) :
    (put b off bs)[i]? = if off ≤ i ∧ i < off + bs.length then bs[i - off]? else b[i]? := by
  simp only [put]
  have h1 : (b.take off).length = off := by rw [List.length_take]; omega
  by_cases h2 : i < off
  · rw [if_neg (by omega), List.append_assoc, List.getElem?_append_left (by omega), List.getElem?_take, if_pos h2]
  · rw [List.append_assoc, List.getElem?_append_right (by omega), h1]
    by_cases h3 : i < off + bs.length
    · rw [if_pos (by omega), List.getElem?_append_left (by omega)]
    · rw [if_neg (by omega), List.getElem?_append_right (by omega), List.getElem?_drop]
      congr 1
      omega

theorem slice_ext {l l' : List UInt8} {off k : Nat} (h : ∀ i, off ≤ i → i < off + k → l[i]? = l'[i]?) :
    (l.drop off).take k = (l'.drop off).take k := by
  apply List.ext_getElem?
  intro i
  rw [List.getElem?_take, List.getElem?_take]
  split
  · rw [List.getElem?_drop, List.getElem?_drop]
    exact h _ (by omega) (by omega)
  · rfl

/-- A store elsewhere. -/
theorem slice_put {off k : Nat} {bs : List UInt8} (h : off + bs.length ≤ b.length) {q : Nat}
    (hd : q + k ≤ off ∨ off + bs.length ≤ q) : ((put b off bs).drop q).take k = (b.drop q).take k := by
  apply slice_ext
  intro i h1 h2
  rw [put_get h, if_neg (by omega)]

/-- A store there. -/
theorem slice_same {off : Nat} {bs : List UInt8} (h : off + bs.length ≤ b.length) :
    ((put b off bs).drop off).take bs.length = bs := by
  apply List.ext_getElem?
  intro i
  rw [List.getElem?_take]
  split
  · rw [List.getElem?_drop, put_get h, if_pos (by omega), Nat.add_sub_cancel_left]
  · rw [List.getElem?_eq_none (by omega)]

theorem ofDigits_toDigits : ∀ (n : Nat) (v : Int), (ofDigits (toDigits n v) : Int) = v % 256 ^ n
  | 0, v => by simp [toDigits, ofDigits]
  | n + 1, v => by
    rw [toDigits, ofDigits]
    have ih := ofDigits_toDigits n (v / 256)
    have h1 : ((UInt8.ofNat (v % 256).toNat).toNat : Int) = v % 256 := by
      have h1 : (v % 256).toNat < 256 := by omega
      rw [UInt8.toNat_ofNat', Nat.mod_eq_of_lt (by omega)]
      omega
    rw [Int.natCast_add, Int.natCast_mul, ih, h1]
    have h2 : v % 256 ^ (n + 1) = v % 256 + 256 * (v / 256 % 256 ^ n) := by
      rw [Int.pow_succ, Int.mul_comm (256 ^ n) 256]
      rw [Int.emod_def v (256 * 256 ^ n), Int.emod_def (v / 256), Int.emod_def v 256,
        Int.ediv_ediv_of_nonneg (by omega : (0 : Int) ≤ 256)]
      rw [Int.mul_sub, Int.mul_assoc]
      omega
    rw [h2]
    rfl

theorem value_bytes (n : Nat) (v : Int) : (bo.value (bo.bytes n v) : Int) = v % 256 ^ n := by
  cases bo
  · exact ofDigits_toDigits n v
  · simp only [ByteOrder.value, ByteOrder.bytes, List.reverse_reverse]
    exact ofDigits_toDigits n v

theorem intAt_same {off : Nat} {v : Int} (h : off + 4 ≤ b.length) : intAt bo (put b off (bo.bytes 4 v)) off = s32 v := by
  have := slice_same (b := b) (off := off) (bs := bo.bytes 4 v) (by rw [bytes_length]; exact h)
  rw [bytes_length] at this
  rw [intAt, this, value_bytes, s32, s32]
  omega

theorem longAt_same {off : Nat} {v : Int} (h : off + 8 ≤ b.length) : longAt bo (put b off (bo.bytes 8 v)) off = s64 v := by
  have := slice_same (b := b) (off := off) (bs := bo.bytes 8 v) (by rw [bytes_length]; exact h)
  rw [bytes_length] at this
  rw [longAt, this, value_bytes, s64, s64]
  omega

theorem intAt_put {off q : Nat} {bs : List UInt8} (h : off + bs.length ≤ b.length)
    (hd : q + 4 ≤ off ∨ off + bs.length ≤ q) : intAt bo (put b off bs) q = intAt bo b q := by
  rw [intAt, slice_put h hd, intAt]

theorem longAt_put {off q : Nat} {bs : List UInt8} (h : off + bs.length ≤ b.length)
    (hd : q + 8 ≤ off ∨ off + bs.length ≤ q) : longAt bo (put b off bs) q = longAt bo b q := by
  rw [longAt, slice_put h hd, longAt]

theorem s32_range (x : Int) : -2147483648 ≤ s32 x ∧ s32 x ≤ 2147483647 := by unfold s32; omega
theorem s64_range (x : Int) : -9223372036854775808 ≤ s64 x ∧ s64 x ≤ 9223372036854775807 := by unfold s64; omega
theorem s32_s32 (x : Int) : s32 (s32 x) = s32 x := by unfold s32; omega
theorem s64_s64 (x : Int) : s64 (s64 x) = s64 x := by unfold s64; omega

/-! ## Pairs -/

theorem decode_pairs_length (h : Holds b n) : (decode bo b).pairs.length = n := by
  simp only [decode, List.length_map, List.length_range]
  rw [h]
  omega

theorem decode_get (h : Holds b n) (k : Nat) : (decode bo b).pairs[k]? =
    if k < n then some ⟨longAt bo b (40 + 16 * k), intAt bo b (48 + 16 * k)⟩ else none := by
  have hn : (b.length - 40) / 16 = n := by rw [h]; omega
  simp only [decode, hn]
  split
  · next hk => rw [List.getElem?_map, List.getElem?_range hk]; rfl
  · next hk => rw [List.getElem?_eq_none (by simp; omega)]

theorem pair_type (h : Holds b n) (k : Nat) : b.int bo (offType k) =
    ((decode bo b).pair k >>= fun p => .ok p.type) := by
  simp only [Typestruct.pair]
  rw [if_pos (by omega), Int.toNat_natCast, decode_get h]
  by_cases hk : k < n
  · rw [if_pos hk]
    exact int_ok (by rw [h, offType]; omega)
  · rw [if_neg hk]
    exact int_bad (by rw [h, offType]; omega)

theorem pair_disp (h : Holds b n) (k : Nat) : b.long bo (offDisp k) =
    ((decode bo b).pair k >>= fun p => .ok p.disp) := by
  simp only [Typestruct.pair]
  rw [if_pos (by omega), Int.toNat_natCast, decode_get h]
  by_cases hk : k < n
  · rw [if_pos hk]
    exact long_ok (by rw [h, offDisp]; omega)
  · rw [if_neg hk]
    exact long_bad (by rw [h, offDisp]; omega)

theorem count_ok (h : Holds b n) : b.int bo offCount = .ok (decode bo b).count := int_ok (by rw [h, offCount]; omega)
theorem ub_ok (h : Holds b n) : b.long bo offUb = .ok (decode bo b).ub := long_ok (by rw [h, offUb]; omega)
theorem lb_ok (h : Holds b n) : b.long bo offLb = .ok (decode bo b).lb := long_ok (by rw [h, offLb]; omega)
theorem committed_ok (h : Holds b n) : b.int bo offCommitted = .ok (decode bo b).committed :=
  int_ok (by rw [h, offCommitted]; omega)
theorem o_lb_ok (h : Holds b n) : b.int bo offOLb = .ok (decode bo b).o_lb := int_ok (by rw [h, offOLb]; omega)
theorem o_ub_ok (h : Holds b n) : b.int bo offOUb = .ok (decode bo b).o_ub := int_ok (by rw [h, offOUb]; omega)

/-! ## Reading functions -/

theorem calcPaddingLoop_eq (cfg : Cfg) (h : Holds b n) : ∀ (k i : Nat) (m : Int),
    calcPaddingLoop cfg bo b k i m = MpiSerial.calcPaddingLoop cfg (decode bo b) k i m
  | 0, _, _ => rfl
  | k + 1, i, m => by
    rw [calcPaddingLoop, MpiSerial.calcPaddingLoop, pair_type h, bind_assoc]
    congr 1; funext p
    simp only [Res.ok_bind]
    congr 1; funext len
    exact calcPaddingLoop_eq cfg h k (i + 1) _

theorem calc_padding_eq (cfg : Cfg) (h : Holds b n) : calc_padding cfg bo b = MpiSerial.calc_padding cfg (decode bo b) := by
  simp only [calc_padding, MpiSerial.calc_padding, count_ok h, Res.ok_bind, calcPaddingLoop_eq cfg h]

theorem calcLbLoop_eq (h : Holds b n) : ∀ (k i : Nat) (m : Int),
    calcLbLoop bo b k i m = MpiSerial.calcLbLoop (decode bo b) k i m
  | 0, _, _ => rfl
  | k + 1, i, m => by
    rw [calcLbLoop, MpiSerial.calcLbLoop, pair_disp h, bind_assoc]
    congr 1; funext p
    simp only [Res.ok_bind]
    exact calcLbLoop_eq h k (i + 1) _

theorem calc_lb_eq (h : Holds b n) : calc_lb bo b = MpiSerial.calc_lb (decode bo b) := by
  simp only [calc_lb, MpiSerial.calc_lb, count_ok h, Res.ok_bind, calcLbLoop_eq h]

theorem calcUbLoop_eq (cfg : Cfg) (h : Holds b n) : ∀ (k i : Nat) (m : Int),
    calcUbLoop cfg bo b k i m = MpiSerial.calcUbLoop cfg (decode bo b) k i m
  | 0, _, _ => rfl
  | k + 1, i, m => by
    rw [calcUbLoop, MpiSerial.calcUbLoop, pair_type h, pair_disp h]
    cases hp : (decode bo b).pair i with
    | ok p =>
      simp only [Res.ok_bind]
      congr 1; funext len
      congr 1; funext e
      exact calcUbLoop_eq cfg h k (i + 1) _
    | _ => rfl

theorem calc_ub_eq (cfg : Cfg) (h : Holds b n) : calc_ub cfg bo b = MpiSerial.calc_ub cfg (decode bo b) := by
  simp only [calc_ub, MpiSerial.calc_ub, count_ok h, Res.ok_bind, calcUbLoop_eq cfg h]

theorem Type_extent_eq (cfg : Cfg) (h : Holds b n) : Type_extent cfg bo b = MpiSerial.Type_extent cfg (decode bo b) := by
  simp only [Type_extent, MpiSerial.Type_extent, o_lb_ok h, o_ub_ok h, ub_ok h, lb_ok h, Res.ok_bind, calc_padding_eq cfg h]

theorem typeSizeLoop_eq (cfg : Cfg) (h : Holds b n) : ∀ (k i : Nat) (m : Int),
    typeSizeLoop cfg bo b k i m = MpiSerial.typeSizeLoop cfg (decode bo b) k i m
  | 0, _, _ => rfl
  | k + 1, i, m => by
    rw [typeSizeLoop, MpiSerial.typeSizeLoop, pair_type h, bind_assoc]
    congr 1; funext p
    simp only [Res.ok_bind]
    congr 1; funext len
    congr 1; funext s
    exact typeSizeLoop_eq cfg h k (i + 1) _

theorem Type_size_eq (cfg : Cfg) (h : Holds b n) : Type_size cfg bo b = MpiSerial.Type_size cfg (decode bo b) := by
  simp only [Type_size, MpiSerial.Type_size, count_ok h, Res.ok_bind, typeSizeLoop_eq cfg h]

theorem Type_lb_eq (h : Holds b n) : Type_lb bo b = .ok (MpiSerial.Type_lb (decode bo b)) := by
  simp only [Type_lb, MpiSerial.Type_lb, lb_ok h, Res.ok_bind, Res.pure_eq]

theorem Type_ub_eq (h : Holds b n) : Type_ub bo b = .ok (MpiSerial.Type_ub (decode bo b)) := by
  simp only [Type_ub, MpiSerial.Type_ub, ub_ok h, Res.ok_bind, Res.pure_eq]

/-! ## Stores into the header -/

theorem Holds.put (h : Holds b n) {off : Nat} {bs : List UInt8} (hl : off + bs.length ≤ b.length) :
    Holds (put b off bs) n := by
  rw [Holds, put_length hl]
  exact h

theorem pairs_put (h : Holds b n) {off : Nat} {bs : List UInt8} (hl : off + bs.length ≤ 40) :
    (decode bo (put b off bs)).pairs = (decode bo b).pairs := by
  have hl' : off + bs.length ≤ b.length := by rw [h]; omega
  apply List.ext_getElem?
  intro k
  rw [decode_get (h.put hl'), decode_get h, longAt_put hl' (by omega), intAt_put hl' (by omega)]

theorem Holds.setInt (h : Holds b n) {off : Nat} {v : Int} (hl : off + 4 ≤ 40) :
    b.setInt bo off v = .ok (Raw.put b off (bo.bytes 4 v)) ∧ Holds (Raw.put b off (bo.bytes 4 v)) n := by
  have hl' : off + 4 ≤ b.length := by rw [h]; omega
  exact ⟨setInt_ok hl', h.put (by rw [bytes_length]; exact hl')⟩

theorem Holds.setLong (h : Holds b n) {off : Nat} {v : Int} (hl : off + 8 ≤ 40) :
    b.setLong bo off v = .ok (Raw.put b off (bo.bytes 8 v)) ∧ Holds (Raw.put b off (bo.bytes 8 v)) n := by
  have hl' : off + 8 ≤ b.length := by rw [h]; omega
  exact ⟨setLong_ok hl', h.put (by rw [bytes_length]; exact hl')⟩

/-- Fields of a descriptor after a store into the header that does not touch them. -/
theorem decode_put (h : Holds b n) {off : Nat} {bs : List UInt8} (hl : off + bs.length ≤ 40) :
    decode bo (put b off bs) = ⟨intAt bo (put b off bs) 0, longAt bo (put b off bs) 8, longAt bo (put b off bs) 16,
      intAt bo (put b off bs) 24, intAt bo (put b off bs) 28, intAt bo (put b off bs) 32, (decode bo b).pairs⟩ := by
  rw [← pairs_put (bo := bo) h hl]
  rfl

theorem decode_setCount (h : Holds b n) (v : Int) :
    decode bo (put b offCount (bo.bytes 4 v)) = { decode bo b with count := s32 v } := by
  have hb : offCount + 4 ≤ b.length := by rw [h, offCount]; omega
  have hl : offCount + (bo.bytes 4 v).length ≤ b.length := by rw [bytes_length]; exact hb
  rw [decode_put h (by rw [bytes_length]; decide), longAt_put hl (.inr (by rw [bytes_length]; decide)),
    longAt_put hl (.inr (by rw [bytes_length]; decide)), intAt_put hl (q := 24) (.inr (by rw [bytes_length]; decide)),
    intAt_put hl (q := 28) (.inr (by rw [bytes_length]; decide)), intAt_put hl (q := 32) (.inr (by rw [bytes_length]; decide)),
    show intAt bo (put b offCount (bo.bytes 4 v)) 0 = _ from intAt_same hb]
  rfl

theorem decode_setUb (h : Holds b n) (v : Int) :
    decode bo (put b offUb (bo.bytes 8 v)) = { decode bo b with ub := s64 v } := by
  have hb : offUb + 8 ≤ b.length := by rw [h, offUb]; omega
  have hl : offUb + (bo.bytes 8 v).length ≤ b.length := by rw [bytes_length]; exact hb
  rw [decode_put h (by rw [bytes_length]; decide), intAt_put hl (q := 0) (.inl (by decide)),
    longAt_put hl (q := 16) (.inr (by rw [bytes_length]; decide)), intAt_put hl (q := 24) (.inr (by rw [bytes_length]; decide)),
    intAt_put hl (q := 28) (.inr (by rw [bytes_length]; decide)), intAt_put hl (q := 32) (.inr (by rw [bytes_length]; decide)),
    show longAt bo (put b offUb (bo.bytes 8 v)) 8 = _ from longAt_same hb]
  rfl

theorem decode_setLb (h : Holds b n) (v : Int) :
    decode bo (put b offLb (bo.bytes 8 v)) = { decode bo b with lb := s64 v } := by
  have hb : offLb + 8 ≤ b.length := by rw [h, offLb]; omega
  have hl : offLb + (bo.bytes 8 v).length ≤ b.length := by rw [bytes_length]; exact hb
  rw [decode_put h (by rw [bytes_length]; decide), intAt_put hl (q := 0) (.inl (by decide)),
    longAt_put hl (q := 8) (.inl (by decide)), intAt_put hl (q := 24) (.inr (by rw [bytes_length]; decide)),
    intAt_put hl (q := 28) (.inr (by rw [bytes_length]; decide)), intAt_put hl (q := 32) (.inr (by rw [bytes_length]; decide)),
    show longAt bo (put b offLb (bo.bytes 8 v)) 16 = _ from longAt_same hb]
  rfl

theorem decode_setCommitted (h : Holds b n) (v : Int) :
    decode bo (put b offCommitted (bo.bytes 4 v)) = { decode bo b with committed := s32 v } := by
  have hb : offCommitted + 4 ≤ b.length := by rw [h, offCommitted]; omega
  have hl : offCommitted + (bo.bytes 4 v).length ≤ b.length := by rw [bytes_length]; exact hb
  rw [decode_put h (by rw [bytes_length]; decide), intAt_put hl (q := 0) (.inl (by decide)),
    longAt_put hl (q := 8) (.inl (by decide)), longAt_put hl (q := 16) (.inl (by decide)),
    intAt_put hl (q := 28) (.inr (by rw [bytes_length]; decide)), intAt_put hl (q := 32) (.inr (by rw [bytes_length]; decide)),
    show intAt bo (put b offCommitted (bo.bytes 4 v)) 24 = _ from intAt_same hb]
  rfl

theorem decode_setOLb (h : Holds b n) (v : Int) :
    decode bo (put b offOLb (bo.bytes 4 v)) = { decode bo b with o_lb := s32 v } := by
  have hb : offOLb + 4 ≤ b.length := by rw [h, offOLb]; omega
  have hl : offOLb + (bo.bytes 4 v).length ≤ b.length := by rw [bytes_length]; exact hb
  rw [decode_put h (by rw [bytes_length]; decide), intAt_put hl (q := 0) (.inl (by decide)),
    longAt_put hl (q := 8) (.inl (by decide)), longAt_put hl (q := 16) (.inl (by decide)),
    intAt_put hl (q := 24) (.inl (by decide)), intAt_put hl (q := 32) (.inr (by rw [bytes_length]; decide)),
    show intAt bo (put b offOLb (bo.bytes 4 v)) 28 = _ from intAt_same hb]
  rfl

theorem decode_setOUb (h : Holds b n) (v : Int) :
    decode bo (put b offOUb (bo.bytes 4 v)) = { decode bo b with o_ub := s32 v } := by
  have hb : offOUb + 4 ≤ b.length := by rw [h, offOUb]; omega
  have hl : offOUb + (bo.bytes 4 v).length ≤ b.length := by rw [bytes_length]; exact hb
  rw [decode_put h (by rw [bytes_length]; decide), intAt_put hl (q := 0) (.inl (by decide)),
    longAt_put hl (q := 8) (.inl (by decide)), longAt_put hl (q := 16) (.inl (by decide)),
    intAt_put hl (q := 24) (.inl (by decide)), intAt_put hl (q := 28) (.inl (by decide)),
    show intAt bo (put b offOUb (bo.bytes 4 v)) 32 = _ from intAt_same hb]
  rfl

end MpiSerial.Raw
