import Verif.Spec.Pieces
import Verif.Proofs.Copy
import Verif.Proofs.Safe

/-!
# Moving data in pieces
-/

set_option linter.unusedSimpArgs false
set_option autoImplicit false

namespace MpiSerial
open Spec

theorem padd_padd (p a b : Int) : padd (padd p a) b = padd p (a + b) := by unfold padd; omega

theorem padd_u64 (p a : Int) : padd p (u64 a) = padd p a := by unfold padd u64; omega

/-! ## pack.c -/

variable {cfg : Cfg}

theorem packEntries_shift (t : Typestruct) (e inbuf outbuf outsize : Int) (a i : Nat) (n : Nat) : ∀ (j : Nat) (x : Mem × Int),
    packEntries cfg inbuf t (u64 e) outbuf outsize (a + i) n j x = packEntries cfg (padd inbuf (a * e)) t (u64 e) outbuf outsize i n j x := by
  induction n with
  | zero => intro j x; rfl
  | succ n ih =>
    intro j x
    obtain ⟨m, p⟩ := x
    unfold packEntries
    refine bind_congr fun p => bind_congr fun len => bind_congr fun q => ?_
    have h : padd (padd inbuf p.disp) (u64 (u64 e * (a + i : Nat))) = padd (padd (padd inbuf (a * e)) p.disp) (u64 (u64 e * i)) := by
      rw [u64_mul_left, u64_mul_left, padd_u64, padd_u64, padd_padd, padd_padd, padd_padd]
      congr 1
      have : e * ((a + i : Nat) : Int) = a * e + e * i := by rw [Int.natCast_add, Int.mul_add, Int.mul_comm e a]
      omega
    rw [h]
    split
    · rfl
    · exact bind_congr fun m => ih _ _

theorem packLoop_shift (t : Typestruct) (e inbuf outbuf outsize : Int) (a : Nat) (n : Nat) : ∀ (i : Nat) (x : Mem × Int),
    packLoop cfg inbuf t (u64 e) outbuf outsize n (a + i) x = packLoop cfg (padd inbuf (a * e)) t (u64 e) outbuf outsize n i x := by
  induction n with
  | zero => intro i x; rfl
  | succ n ih =>
    intro i x
    unfold packLoop
    rw [packEntries_shift]
    exact bind_congr fun x => ih (i + 1) x

theorem packLoop_add (t : Typestruct) (ext inbuf outbuf outsize : Int) (b n : Nat) : ∀ (i : Nat) (x : Mem × Int),
    packLoop cfg inbuf t ext outbuf outsize (n + b) i x =
      packLoop cfg inbuf t ext outbuf outsize n i x >>= packLoop cfg inbuf t ext outbuf outsize b (i + n) := by
  induction n with
  | zero => intro i x; rw [Nat.zero_add]; rfl
  | succ n ih =>
    intro i x
    rw [show n + 1 + b = n + b + 1 by omega]
    unfold packLoop
    rw [bind_assoc]
    refine bind_congr fun x => ?_
    rw [ih, show i + 1 + n = i + (n + 1) by omega]

theorem unpackEntries_shift (t : Typestruct) (e inbuf insize outbuf : Int) (a i : Nat) (n : Nat) : ∀ (j : Nat) (x : Mem × Int),
    unpackEntries cfg inbuf insize outbuf t (u64 e) (a + i) n j x = unpackEntries cfg inbuf insize (padd outbuf (a * e)) t (u64 e) i n j x := by
  induction n with
  | zero => intro j x; rfl
  | succ n ih =>
    intro j x
    obtain ⟨m, p⟩ := x
    unfold unpackEntries
    refine bind_congr fun p => bind_congr fun len => bind_congr fun q => ?_
    have h : padd (padd outbuf p.disp) (u64 (u64 e * (a + i : Nat))) = padd (padd (padd outbuf (a * e)) p.disp) (u64 (u64 e * i)) := by
      rw [u64_mul_left, u64_mul_left, padd_u64, padd_u64, padd_padd, padd_padd, padd_padd]
      congr 1
      have : e * ((a + i : Nat) : Int) = a * e + e * i := by rw [Int.natCast_add, Int.mul_add, Int.mul_comm e a]
      omega
    rw [h]
    split
    · rfl
    · exact bind_congr fun m => ih _ _

theorem unpackLoop_shift (t : Typestruct) (e inbuf insize outbuf : Int) (a : Nat) (n : Nat) : ∀ (i : Nat) (x : Mem × Int),
    unpackLoop cfg inbuf insize outbuf t (u64 e) n (a + i) x = unpackLoop cfg inbuf insize (padd outbuf (a * e)) t (u64 e) n i x := by
  induction n with
  | zero => intro i x; rfl
  | succ n ih =>
    intro i x
    unfold unpackLoop
    rw [unpackEntries_shift]
    exact bind_congr fun x => ih (i + 1) x

theorem unpackLoop_add (t : Typestruct) (ext inbuf insize outbuf : Int) (b n : Nat) : ∀ (i : Nat) (x : Mem × Int),
    unpackLoop cfg inbuf insize outbuf t ext (n + b) i x =
      unpackLoop cfg inbuf insize outbuf t ext n i x >>= unpackLoop cfg inbuf insize outbuf t ext b (i + n) := by
  induction n with
  | zero => intro i x; rw [Nat.zero_add]; rfl
  | succ n ih =>
    intro i x
    rw [show n + 1 + b = n + b + 1 by omega]
    unfold unpackLoop
    rw [bind_assoc]
    refine bind_congr fun x => ?_
    rw [ih, show i + 1 + n = i + (n + 1) by omega]

theorem Pack_add {t : Typestruct} {e : Int} (he : Type_extent cfg t = .ok (u64 e)) (m : Mem) (inbuf : Int) {a b : Int} (ha : 0 ≤ a) (hb : 0 ≤ b)
    (outbuf outsize pos : Int) :
    Pack cfg m inbuf (a + b) t outbuf outsize pos =
      Pack cfg m inbuf a t outbuf outsize pos >>= fun x => Pack cfg x.1 (padd inbuf (a * e)) b t outbuf outsize x.2 := by
  unfold Pack
  rw [he, Res.ok_bind, Res.ok_bind, Int.toNat_add ha hb, packLoop_add]
  refine bind_congr fun x => ?_
  rw [Res.ok_bind, show 0 + a.toNat = a.toNat + 0 by omega, packLoop_shift, Int.toNat_of_nonneg ha]

theorem Unpack_add {t : Typestruct} {e : Int} (he : Type_extent cfg t = .ok (u64 e)) (m : Mem) (outbuf : Int) {a b : Int} (ha : 0 ≤ a) (hb : 0 ≤ b)
    (inbuf insize pos : Int) :
    Unpack cfg m inbuf insize pos outbuf (a + b) t =
      Unpack cfg m inbuf insize pos outbuf a t >>= fun x => Unpack cfg x.1 inbuf insize x.2 (padd outbuf (a * e)) b t := by
  unfold Unpack
  rw [he, Res.ok_bind, Res.ok_bind, Int.toNat_add ha hb, unpackLoop_add]
  refine bind_congr fun x => ?_
  rw [Res.ok_bind, show 0 + a.toNat = a.toNat + 0 by omega, unpackLoop_shift, Int.toNat_of_nonneg ha]

/-! ## copy.c -/

theorem copyLoop_add (src : Int) (st : Typestruct) (se dst : Int) (dt : Typestruct) (de : Int) (b n : Nat) : ∀ (i : Nat) (m : Mem),
    copyLoop cfg src st se dst dt de (n + b) i m = copyLoop cfg src st se dst dt de n i m >>= copyLoop cfg src st se dst dt de b (i + n) := by
  induction n with
  | zero => intro i m; rw [Nat.zero_add]; rfl
  | succ n ih =>
    intro i m
    rw [show n + 1 + b = n + b + 1 by omega]
    conv => lhs; unfold copyLoop
    conv => rhs; arg 1; unfold copyLoop
    simp only [bind_assoc]
    refine bind_congr fun so => bind_congr fun d => bind_congr fun sp => bind_congr fun dp => ?_
    split
    · rfl
    · simp only [bind_assoc]
      refine bind_congr fun len => bind_congr fun m => ?_
      rw [ih, show i + 1 + n = i + (n + 1) by omega]

/-- Element `i` of the items from the `a`-th on. -/
theorem entry_shift {t : Typestruct} (wf : t.WF) {e : Int} {a b i : Nat} (hf : IntOffsets t e (a + b)) (hi : i < t.count.toNat * b) (buf : Int) :
    ∃ p o1 o2, t.pair (Int.tmod ((t.count.toNat * a + i : Nat) : Int) t.count) = .ok p ∧ t.pair (Int.tmod i t.count) = .ok p ∧
      entryOffset t (u64 e) (t.count.toNat * a + i) = .ok o1 ∧ entryOffset t (u64 e) i = .ok o2 ∧ padd buf o1 = padd (padd buf (a * e)) o2 := by
  obtain ⟨c, hc⟩ : ∃ c : Nat, t.count = c := ⟨t.count.toNat, (Int.toNat_of_nonneg wf.nonneg).symm⟩
  have hct : t.count.toNat = c := by omega
  rw [hct] at hi ⊢
  have hpos : 0 < c := by
    rcases Nat.eq_zero_or_pos c with h | h
    · rw [h, Nat.zero_mul] at hi; omega
    · exact h
  have hmod : (c * a + i) % c = i % c := Nat.mul_add_mod c a i
  have hdiv : (c * a + i) / c = a + i / c := Nat.mul_add_div hpos a i
  have hlt : i % c < t.pairs.length := by
    have := wf.fits
    have := Nat.mod_lt i hpos
    omega
  have hq : i / c < b := Nat.div_lt_of_lt_mul hi
  have hm : (t.pairs[i % c].disp, t.pairs[i % c].type) ∈ typeMap t := by
    unfold typeMap
    refine List.mem_map.2 ⟨t.pairs[i % c], ?_, rfl⟩
    rw [List.mem_take_iff_getElem]
    refine ⟨i % c, ?_, rfl⟩
    have := Nat.mod_lt i hpos
    omega
  have h1 := hf (a + i / c) (by omega) _ hm
  have h2 := hf (i / c) (by omega) _ hm
  dsimp only at h1 h2
  have key : ∀ k : Nat, -2147483648 ≤ t.pairs[i % c].disp + (k : Int) * e ∧ t.pairs[i % c].disp + (k : Int) * e ≤ 2147483647 →
      s32 (u64 (t.pairs[i % c].disp + u64 ((k : Int) * u64 e))) = t.pairs[i % c].disp + (k : Int) * e := by
    intro k hk
    rw [u64_mul_right, u64_add_right, s32_u64]
    unfold s32
    omega
  refine ⟨t.pairs[i % c], t.pairs[i % c].disp + ((a + i / c : Nat) : Int) * e, t.pairs[i % c].disp + ((i / c : Nat) : Int) * e, ?_, ?_, ?_, ?_, ?_⟩
  · rw [hc, ← Int.ofNat_tmod, hmod]; exact pair_ok hlt
  · rw [hc, ← Int.ofNat_tmod]; exact pair_ok hlt
  · unfold entryOffset
    rw [if_neg (by omega), hc, ← Int.ofNat_tmod, hmod, pair_ok hlt, Res.ok_bind, ← Int.ofNat_tdiv, hdiv]
    exact congrArg Res.ok (key _ h1)
  · unfold entryOffset
    rw [if_neg (by omega), hc, ← Int.ofNat_tmod, pair_ok hlt, Res.ok_bind, ← Int.ofNat_tdiv]
    exact congrArg Res.ok (key _ h2)
  · rw [padd_padd]
    congr 1
    rw [Int.natCast_add, Int.add_mul]
    omega

theorem copyLoop_shift {st dt : Typestruct} (hs : st.WF) (hd : dt.WF) {se de : Int} {sa sb da db : Nat} (hsf : IntOffsets st se (sa + sb))
    (hdf : IntOffsets dt de (da + db)) (heq : st.count.toNat * sa = dt.count.toNat * da) (src dst : Int) (n : Nat) :
    ∀ (i : Nat) (m : Mem), i + n ≤ dt.count.toNat * db → i + n ≤ st.count.toNat * sb →
    copyLoop cfg src st (u64 se) dst dt (u64 de) n (dt.count.toNat * da + i) m =
      copyLoop cfg (padd src (sa * se)) st (u64 se) (padd dst (da * de)) dt (u64 de) n i m := by
  induction n with
  | zero => intro i m _ _; rfl
  | succ n ih =>
    intro i m h1 h2
    obtain ⟨sp, so1, so2, a1, a2, a3, a4, a5⟩ := entry_shift hs hsf (i := i) (by omega) src
    obtain ⟨dp, do1, do2, b1, b2, b3, b4, b5⟩ := entry_shift hd hdf (i := i) (by omega) dst
    rw [heq] at a1 a3
    unfold copyLoop
    rw [a1, a2, a3, a4, b1, b2, b3, b4]
    simp only [Res.ok_bind]
    rw [a5, b5]
    split
    · rfl
    · refine bind_congr fun len => bind_congr fun m => ?_
      exact ih (i + 1) m (by omega) (by omega)

theorem Pcopy_add {st dt : Typestruct} (hs : st.WF) (hd : dt.WF) {se de : Int} (hse : Type_extent cfg st = .ok (u64 se))
    (hde : Type_extent cfg dt = .ok (u64 de)) {sa sb da db : Int} (hsa : 0 ≤ sa) (hsb : 0 ≤ sb) (hda : 0 ≤ da) (hdb : 0 ≤ db)
    (hsf : IntOffsets st se (sa + sb).toNat) (hdf : IntOffsets dt de (da + db).toNat)
    (hsn : st.count * (sa + sb) ≤ 2147483647) (heq : st.count * sa = dt.count * da) (hle : dt.count * db ≤ st.count * sb) (m : Mem) (src dst : Int) :
    Pcopy_data2 cfg m src (sa + sb) st dst (da + db) dt =
      Pcopy_data2 cfg m src sa st dst da dt >>= fun m => Pcopy_data2 cfg m (padd src (sa * se)) sb st (padd dst (da * de)) db dt := by
  unfold Pcopy_data2
  split
  · rfl
  · next hcm =>
    have e1 : st.count * (sa + sb) = st.count * sa + st.count * sb := Int.mul_add ..
    have e2 : dt.count * (da + db) = dt.count * da + dt.count * db := Int.mul_add ..
    have p1 := Int.mul_nonneg hs.nonneg hsa
    have p2 := Int.mul_nonneg hs.nonneg hsb
    have p3 := Int.mul_nonneg hd.nonneg hda
    have p4 := Int.mul_nonneg hd.nonneg hdb
    have ck : ∀ x : Int, 0 ≤ x → x ≤ 2147483647 → ck32 x = .ok x := by
      intro x h1 h2
      unfold ck32
      rw [if_pos (by omega)]
    rw [ck _ (by omega) (by omega), ck _ (by omega) (by omega), ck (st.count * sa) p1 (by omega), ck (dt.count * da) p3 (by omega),
      ck (st.count * sb) p2 (by omega), ck (dt.count * db) p4 (by omega)]
    simp only [Res.ok_bind]
    rw [if_neg (by omega), if_neg (by omega), hse, hde]
    simp only [Res.ok_bind, if_neg (show ¬ st.count * sb < dt.count * db by omega)]
    have n1 : ∀ {x y : Int}, 0 ≤ x → 0 ≤ y → (x * y).toNat = x.toNat * y.toNat := fun hx hy => Int.toNat_mul hx hy
    rw [e2, Int.toNat_add p3 p4, copyLoop_add, Nat.zero_add]
    refine bind_congr fun m => ?_
    rw [n1 hd.nonneg hda, n1 hd.nonneg hdb]
    have := copyLoop_shift (cfg := cfg) hs hd (sa := sa.toNat) (sb := sb.toNat) (da := da.toNat) (db := db.toNat) (se := se) (de := de)
      (by rw [← Int.toNat_add hsa hsb]; exact hsf) (by rw [← Int.toNat_add hda hdb]; exact hdf)
      (by rw [← n1 hs.nonneg hsa, ← n1 hd.nonneg hda, heq]) src dst (dt.count.toNat * db.toNat) 0 m (by omega)
      (by rw [← n1 hd.nonneg hdb, ← n1 hs.nonneg hsb]; omega)
    rw [Nat.add_zero, Int.toNat_of_nonneg hsa, Int.toNat_of_nonneg hda] at this
    exact this

end MpiSerial
