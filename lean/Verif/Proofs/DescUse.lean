import Verif.Proofs.DescInside
import Verif.Model.DescUse

/-!
# Copying and packing with descriptors as bytes
-/

set_option linter.unusedSimpArgs false
set_option autoImplicit false

namespace MpiSerial.Raw

section
variable {bo : ByteOrder} {b : Blob}

/-- Entry `i` of the repeated list of pairs. -/
theorem entry_ok (h : Sound bo b) (hc : (decode bo b).count ≠ 0) (i : Nat) :
    ∃ p, (decode bo b).pair (Int.tmod i (decode bo b).count) = .ok p ∧
      b.long bo (offDisp (Int.tmod i (decode bo b).count).toNat) = .ok p.disp ∧
      b.int bo (offType (Int.tmod i (decode bo b).count).toNat) = .ok p.type := by
  obtain ⟨n, hn, h1, h2, _⟩ := h
  have hpos : 0 < (decode bo b).count := by omega
  have hm1 : 0 ≤ Int.tmod i (decode bo b).count := Int.tmod_nonneg _ (Int.natCast_nonneg i)
  have hm2 : Int.tmod i (decode bo b).count < (decode bo b).count := Int.tmod_lt_of_pos _ hpos
  obtain ⟨k, hk⟩ := Int.eq_ofNat_of_zero_le hm1
  have hkn : k < n := by omega
  rw [hk, Int.toNat_natCast]
  refine ⟨⟨longAt bo b (40 + 16 * k), intAt bo b (48 + 16 * k)⟩, ?_, long_ok (by rw [hn, offDisp]; omega), int_ok (by rw [hn, offType]; omega)⟩
  unfold Typestruct.pair
  rw [if_pos (by omega), Int.toNat_natCast, decode_get hn, if_pos hkn]

theorem entryOffset_eq (h : Sound bo b) (ext : Int) (i : Nat) :
    entryOffset bo b ext i = MpiSerial.entryOffset (decode bo b) ext i := by
  obtain ⟨n, hn, _⟩ := id h
  rw [entryOffset, MpiSerial.entryOffset, count_ok hn, Res.ok_bind]
  split
  · rfl
  · next hc =>
    obtain ⟨p, h1, h2, _⟩ := entry_ok h hc i
    rw [h1, h2]
    rfl

theorem entryType_eq (h : Sound bo b) (i : Nat) : entryType bo b i =
    if (decode bo b).count = 0 then .ub .divZero else (decode bo b).pair (Int.tmod i (decode bo b).count) >>= fun p => .ok p.type := by
  obtain ⟨n, hn, _⟩ := id h
  rw [entryType, count_ok hn, Res.ok_bind]
  split
  · rfl
  · next hc =>
    obtain ⟨p, h1, _, h2⟩ := entry_ok h hc i
    rw [h1, h2]
    rfl
end

section
variable {bo : ByteOrder} {st dt b : Blob}

theorem copyLoop_eq (cfg : Cfg) (hs : Sound bo st) (hd : Sound bo dt) (source sext dest dext : Int) : ∀ (n i : Nat) (m : Mem),
    copyLoop cfg bo source st sext dest dt dext n i m =
      MpiSerial.copyLoop cfg source (decode bo st) sext dest (decode bo dt) dext n i m
  | 0, _, _ => rfl
  | n + 1, i, m => by
    rw [copyLoop, MpiSerial.copyLoop, checkTypes]
    simp only [entryOffset_eq hs, entryOffset_eq hd, entryType_eq hs, entryType_eq hd, copyLoop_eq cfg hs hd]
    by_cases cs : (decode bo st).count = 0
    · simp only [MpiSerial.entryOffset, if_pos cs]
      split <;> rfl
    · obtain ⟨p, hp, _⟩ := entry_ok hs cs i
      by_cases cd : (decode bo dt).count = 0
      · simp only [MpiSerial.entryOffset, if_pos cd, if_neg cs, hp, Res.ok_bind, Res.pure_eq]
        split <;> rfl
      · obtain ⟨q, hq, _⟩ := entry_ok hd cd i
        simp only [MpiSerial.entryOffset, if_neg cd, if_neg cs, hp, hq, Res.ok_bind, Res.pure_eq]
        by_cases ht : cfg.typeChecking = true
        · simp only [ht, if_true, true_and]
          by_cases he : p.type = q.type
          · simp only [he, ne_eq, not_true_eq_false, if_false, Res.ok_bind]
          · simp only [he, ne_eq, not_false_eq_true, if_true]
            rfl
        · simp only [ht, Bool.false_eq_true, false_and, if_false, Res.ok_bind]

theorem Pcopy_data2_eq (cfg : Cfg) (hs : Sound bo st) (hd : Sound bo dt) (m : Mem) (source sc dest dc : Int) :
    Pcopy_data2 cfg bo m source sc st dest dc dt = MpiSerial.Pcopy_data2 cfg m source sc (decode bo st) dest dc (decode bo dt) := by
  obtain ⟨n, hn, _⟩ := id hs
  obtain ⟨k, hk, _⟩ := id hd
  simp only [Pcopy_data2, MpiSerial.Pcopy_data2, committed_ok hn, committed_ok hk, count_ok hn, count_ok hk, Res.ok_bind,
    Type_extent_eq cfg hn, Type_extent_eq cfg hk, copyLoop_eq cfg hs hd]

theorem packEntries_eq (cfg : Cfg) {n : Nat} (h : Holds b n) (inbuf extent outbuf outsize : Int) (i : Nat) : ∀ (k j : Nat) (s : Mem × Int),
    packEntries cfg bo inbuf b extent outbuf outsize i k j s =
      MpiSerial.packEntries cfg inbuf (decode bo b) extent outbuf outsize i k j s
  | 0, _, _ => rfl
  | k + 1, j, (m, position) => by
    rw [packEntries, MpiSerial.packEntries, pair_type h, pair_disp h]
    cases hp : (decode bo b).pair j with
    | ok p => simp only [Res.ok_bind, packEntries_eq cfg h inbuf extent outbuf outsize i k]
    | _ => rfl

theorem packLoop_eq (cfg : Cfg) {n : Nat} (h : Holds b n) (inbuf extent outbuf outsize : Int) : ∀ (k i : Nat) (s : Mem × Int),
    packLoop cfg bo inbuf b extent outbuf outsize k i s = MpiSerial.packLoop cfg inbuf (decode bo b) extent outbuf outsize k i s
  | 0, _, _ => rfl
  | k + 1, i, s => by
    simp only [packLoop, MpiSerial.packLoop, count_ok h, Res.ok_bind, packEntries_eq cfg h, packLoop_eq cfg h inbuf extent outbuf outsize k]

theorem Pack_eq (cfg : Cfg) (h : Sound bo b) (m : Mem) (inbuf incount outbuf outsize position : Int) :
    Pack cfg bo m inbuf incount b outbuf outsize position = MpiSerial.Pack cfg m inbuf incount (decode bo b) outbuf outsize position := by
  obtain ⟨n, hn, _⟩ := h
  simp only [Pack, MpiSerial.Pack, Type_extent_eq cfg hn, packLoop_eq cfg hn]

theorem unpackEntries_eq (cfg : Cfg) {n : Nat} (h : Holds b n) (inbuf insize outbuf extent : Int) (i : Nat) : ∀ (k j : Nat) (s : Mem × Int),
    unpackEntries cfg bo inbuf insize outbuf b extent i k j s =
      MpiSerial.unpackEntries cfg inbuf insize outbuf (decode bo b) extent i k j s
  | 0, _, _ => rfl
  | k + 1, j, (m, position) => by
    rw [unpackEntries, MpiSerial.unpackEntries, pair_type h, pair_disp h]
    cases hp : (decode bo b).pair j with
    | ok p => simp only [Res.ok_bind, unpackEntries_eq cfg h inbuf insize outbuf extent i k]
    | _ => rfl

theorem unpackLoop_eq (cfg : Cfg) {n : Nat} (h : Holds b n) (inbuf insize outbuf extent : Int) : ∀ (k i : Nat) (s : Mem × Int),
    unpackLoop cfg bo inbuf insize outbuf b extent k i s = MpiSerial.unpackLoop cfg inbuf insize outbuf (decode bo b) extent k i s
  | 0, _, _ => rfl
  | k + 1, i, s => by
    simp only [unpackLoop, MpiSerial.unpackLoop, count_ok h, Res.ok_bind, unpackEntries_eq cfg h, unpackLoop_eq cfg h inbuf insize outbuf extent k]

theorem Unpack_eq (cfg : Cfg) (h : Sound bo b) (m : Mem) (inbuf insize position outbuf outcount : Int) :
    Unpack cfg bo m inbuf insize position outbuf outcount b = MpiSerial.Unpack cfg m inbuf insize position outbuf outcount (decode bo b) := by
  obtain ⟨n, hn, _⟩ := h
  simp only [Unpack, MpiSerial.Unpack, Type_extent_eq cfg hn, unpackLoop_eq cfg hn]

theorem packSizeLoop_eq (cfg : Cfg) {n : Nat} (h : Holds b n) : ∀ (k i : Nat) (s : Int),
    packSizeLoop cfg bo b k i s = MpiSerial.packSizeLoop cfg (decode bo b) k i s
  | 0, _, _ => rfl
  | k + 1, i, s => by
    rw [packSizeLoop, MpiSerial.packSizeLoop, pair_type h, bind_assoc]
    simp only [Res.ok_bind, packSizeLoop_eq cfg h k]

theorem Pack_size_eq (cfg : Cfg) (h : Sound bo b) (incount : Int) :
    Pack_size cfg bo incount b = MpiSerial.Pack_size cfg incount (decode bo b) := by
  obtain ⟨n, hn, _⟩ := h
  simp only [Pack_size, MpiSerial.Pack_size, count_ok hn, Res.ok_bind, packSizeLoop_eq cfg hn]
end

end MpiSerial.Raw

namespace MpiSerial

section
variable {cfg : Cfg} {t : Typestruct}

theorem inside_memcpy (m : Mem) (d s : Int) (n : Nat) : Inside (memcpy m d s n) := by
  unfold memcpy
  repeat' split
  all_goals first | exact inside_ok _ | exact inside_ub (by decide)

theorem inside_entry (h0 : 0 ≤ t.count) (hp : t.count.toNat ≤ t.pairs.length) (hc : t.count ≠ 0) (i : Nat) :
    Inside (t.pair (Int.tmod i t.count)) := by
  have h1 : 0 ≤ Int.tmod i t.count := Int.tmod_nonneg _ (Int.natCast_nonneg i)
  have h2 : Int.tmod i t.count < t.count := Int.tmod_lt_of_pos _ (by omega)
  obtain ⟨k, hk⟩ := Int.eq_ofNat_of_zero_le h1
  rw [hk]
  exact inside_pair (by omega)

theorem inside_entryOffset (hw : t.WF) (e : Int) (i : Nat) : Inside (entryOffset t e i) := by
  unfold entryOffset
  refine Inside.ite (fun _ => inside_ub (by decide)) fun hc => ?_
  exact (inside_entry hw.nonneg hw.fits hc i).bind fun _ _ => inside_pure _

end

theorem inside_copyLoop {cfg : Cfg} {st dt : Typestruct} (hs : st.WF) (hd : dt.WF) (source sext dest dext : Int) :
    ∀ (n i : Nat) (m : Mem), Inside (copyLoop cfg source st sext dest dt dext n i m)
  | 0, _, _ => inside_ok _
  | n + 1, i, m => by
    rw [copyLoop]
    refine (inside_entryOffset hs _ _).bind fun _ h1 => (inside_entryOffset hd _ _).bind fun _ h2 => ?_
    have cs : st.count ≠ 0 := fun h => by rw [entryOffset, if_pos h] at h1; cases h1
    have cd : dt.count ≠ 0 := fun h => by rw [entryOffset, if_pos h] at h2; cases h2
    refine (inside_entry hs.nonneg hs.fits cs i).bind fun _ _ => (inside_entry hd.nonneg hd.fits cd i).bind fun _ _ => ?_
    refine Inside.ite (fun _ => inside_exit _) fun _ => ?_
    exact (inside_len _ _).bind fun _ _ => (inside_memcpy _ _ _ _).bind fun _ _ => inside_copyLoop hs hd _ _ _ _ n _ _

theorem inside_copy {cfg : Cfg} {st dt : Typestruct} (hs : st.WF) (hd : dt.WF) (m : Mem) (source sc dest dc : Int) :
    Inside (Pcopy_data2 cfg m source sc st dest dc dt) := by
  unfold Pcopy_data2
  refine Inside.ite (fun _ => inside_exit _) fun _ => (inside_ck32 _).bind fun _ _ => (inside_ck32 _).bind fun _ _ => ?_
  refine Inside.ite (fun _ => inside_exit _) fun _ => ?_
  exact (inside_extent hs.fits).bind fun _ _ => (inside_extent hd.fits).bind fun _ _ => inside_copyLoop hs hd _ _ _ _ _ _ _

section
variable {cfg : Cfg} {t : Typestruct}

theorem inside_packEntries (inbuf extent outbuf outsize : Int) (i : Nat) : ∀ (n j : Nat) (s : Mem × Int), j + n ≤ t.pairs.length →
    Inside (packEntries cfg inbuf t extent outbuf outsize i n j s)
  | 0, _, _, _ => inside_ok _
  | n + 1, j, (m, position), h => by
    rw [packEntries]
    refine (inside_pair (by omega)).bind fun _ _ => (inside_len _ _).bind fun _ _ => (inside_ck32 _).bind fun _ _ => ?_
    refine Inside.ite (fun _ => inside_exit _) fun _ => (inside_memcpy _ _ _ _).bind fun _ _ => ?_
    exact inside_packEntries _ _ _ _ _ n _ _ (by omega)

theorem inside_packLoop (h : t.count.toNat ≤ t.pairs.length) (inbuf extent outbuf outsize : Int) : ∀ (n i : Nat) (s : Mem × Int),
    Inside (packLoop cfg inbuf t extent outbuf outsize n i s)
  | 0, _, _ => inside_ok _
  | n + 1, i, s => (inside_packEntries _ _ _ _ _ _ _ _ (by omega)).bind fun _ _ => inside_packLoop h _ _ _ _ n _ _

theorem inside_pack (h : t.count.toNat ≤ t.pairs.length) (m : Mem) (inbuf incount outbuf outsize position : Int) :
    Inside (Pack cfg m inbuf incount t outbuf outsize position) :=
  (inside_extent h).bind fun _ _ => inside_packLoop h _ _ _ _ _ _ _

theorem inside_unpackEntries (inbuf insize outbuf extent : Int) (i : Nat) : ∀ (n j : Nat) (s : Mem × Int), j + n ≤ t.pairs.length →
    Inside (unpackEntries cfg inbuf insize outbuf t extent i n j s)
  | 0, _, _, _ => inside_ok _
  | n + 1, j, (m, position), h => by
    rw [unpackEntries]
    refine (inside_pair (by omega)).bind fun _ _ => (inside_len _ _).bind fun _ _ => (inside_ck32 _).bind fun _ _ => ?_
    refine Inside.ite (fun _ => inside_exit _) fun _ => (inside_memcpy _ _ _ _).bind fun _ _ => ?_
    exact inside_unpackEntries _ _ _ _ _ n _ _ (by omega)

theorem inside_unpackLoop (h : t.count.toNat ≤ t.pairs.length) (inbuf insize outbuf extent : Int) : ∀ (n i : Nat) (s : Mem × Int),
    Inside (unpackLoop cfg inbuf insize outbuf t extent n i s)
  | 0, _, _ => inside_ok _
  | n + 1, i, s => (inside_unpackEntries _ _ _ _ _ _ _ _ (by omega)).bind fun _ _ => inside_unpackLoop h _ _ _ _ n _ _

theorem inside_unpack (h : t.count.toNat ≤ t.pairs.length) (m : Mem) (inbuf insize position outbuf outcount : Int) :
    Inside (Unpack cfg m inbuf insize position outbuf outcount t) :=
  (inside_extent h).bind fun _ _ => inside_unpackLoop h _ _ _ _ _ _ _

theorem inside_packSizeLoop : ∀ (n i : Nat) (s : Int), i + n ≤ t.pairs.length → Inside (packSizeLoop cfg t n i s)
  | 0, _, _, _ => inside_ok _
  | n + 1, i, _, h => (inside_pair (by omega)).bind fun _ _ => (inside_len _ _).bind fun _ _ =>
      inside_packSizeLoop n (i + 1) _ (by omega)

theorem inside_packSize (h : t.count.toNat ≤ t.pairs.length) (incount : Int) : Inside (Pack_size cfg incount t) :=
  (inside_packSizeLoop _ _ _ (by omega)).bind fun _ _ => inside_pure _

end

end MpiSerial
