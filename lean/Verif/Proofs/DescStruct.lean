import Verif.Proofs.Desc

/-!
# Type_struct on bytes and on values
-/

set_option linter.unusedSimpArgs false
set_option autoImplicit false

namespace MpiSerial.Raw

open Res (Rel)

variable {bo : ByteOrder} {b : Blob} {n : Nat}

/-! ## Stores into pairs -/

theorem decode_high {off : Nat} {bs : List UInt8} (ho : 40 ≤ off) (hl : off + bs.length ≤ b.length)
    {ps : List Pair} (hp : (decode bo (put b off bs)).pairs = ps) : decode bo (put b off bs) = { decode bo b with pairs := ps } := by
  have e : decode bo (put b off bs) = ⟨intAt bo (put b off bs) 0, longAt bo (put b off bs) 8, longAt bo (put b off bs) 16,
      intAt bo (put b off bs) 24, intAt bo (put b off bs) 28, intAt bo (put b off bs) 32, (decode bo (put b off bs)).pairs⟩ := rfl
  rw [intAt_put hl (q := 0) (.inl (by omega)), longAt_put hl (q := 8) (.inl (by omega)),
    longAt_put hl (q := 16) (.inl (by omega)), intAt_put hl (q := 24) (.inl (by omega)),
    intAt_put hl (q := 28) (.inl (by omega)), intAt_put hl (q := 32) (.inl (by omega)), hp] at e
  exact e

theorem decode_setType (h : Holds b n) {k : Nat} (hk : k < n) (v : Int) :
    decode bo (put b (offType k) (bo.bytes 4 v)) =
      { decode bo b with pairs := (decode bo b).pairs.set k ⟨longAt bo b (offDisp k), s32 v⟩ } := by
  have hb : offType k + 4 ≤ b.length := by rw [h, offType]; omega
  have hl : offType k + (bo.bytes 4 v).length ≤ b.length := by rw [bytes_length]; exact hb
  refine decode_high (by rw [offType]; omega) hl (List.ext_getElem? ?_)
  intro i
  rw [decode_get (h.put hl), List.getElem?_set, decode_pairs_length h, decode_get h]
  have hw : (bo.bytes 4 v).length = 4 := bytes_length _ _ _
  by_cases hi : i < n
  · rw [if_pos hi]
    by_cases hki : k = i
    · subst hki
      rw [if_pos rfl, if_pos hi, longAt_put hl (.inl (by rw [offType]; omega)),
        show intAt bo (put b (offType k) (bo.bytes 4 v)) (48 + 16 * k) = _ from intAt_same hb]
      rfl
    · rw [if_neg hki, if_pos hi, longAt_put hl (by rw [offType, hw]; omega), intAt_put hl (by rw [offType, hw]; omega)]
  · rw [if_neg hi, if_neg hi, if_neg (by omega)]

theorem decode_setDisp (h : Holds b n) {k : Nat} (hk : k < n) (v : Int) :
    decode bo (put b (offDisp k) (bo.bytes 8 v)) =
      { decode bo b with pairs := (decode bo b).pairs.set k ⟨s64 v, intAt bo b (offType k)⟩ } := by
  have hb : offDisp k + 8 ≤ b.length := by rw [h, offDisp]; omega
  have hl : offDisp k + (bo.bytes 8 v).length ≤ b.length := by rw [bytes_length]; exact hb
  refine decode_high (by rw [offDisp]; omega) hl (List.ext_getElem? ?_)
  intro i
  rw [decode_get (h.put hl), List.getElem?_set, decode_pairs_length h, decode_get h]
  have hw : (bo.bytes 8 v).length = 8 := bytes_length _ _ _
  by_cases hi : i < n
  · rw [if_pos hi]
    by_cases hki : k = i
    · subst hki
      rw [if_pos rfl, if_pos hi, intAt_put hl (.inr (by rw [offDisp, hw]; omega)),
        show longAt bo (put b (offDisp k) (bo.bytes 8 v)) (40 + 16 * k) = _ from longAt_same hb]
      rfl
    · rw [if_neg hki, if_pos hi, longAt_put hl (by rw [offDisp, hw]; omega), intAt_put hl (by rw [offDisp, hw]; omega)]
  · rw [if_neg hi, if_neg hi, if_neg (by omega)]

/-- Type and displacement of a pair that was read are values of their C types. -/
theorem pair_range (h : Holds b n) {k : Int} {p : Pair} (hp : (decode bo b).pair k = .ok p) :
    s32 p.type = p.type ∧ s64 p.disp = p.disp := by
  simp only [Typestruct.pair] at hp
  by_cases hk : 0 ≤ k
  · rw [if_pos hk, decode_get h] at hp
    by_cases hi : k.toNat < n
    · rw [if_pos hi] at hp
      rw [← Res.ok.inj hp]
      exact ⟨s32_s32 _, s64_s64 _⟩
    · rw [if_neg hi] at hp
      cases hp
  · rw [if_neg hk] at hp
    cases hp

/-! ## The second loop -/

/-- The same state of the second loop; `T` is the descriptor apart from the pairs. -/
structure Same (bo : ByteOrder) (n : Nat) (T : Typestruct) (r : Pass2) (s : MpiSerial.Pass2) : Prop where
  holds : Holds r.temp n
  decode : decode bo r.temp = { T with pairs := s.pairs }
  newcount : r.newcount = s.newcount
  new_lb : r.new_lb = s.new_lb
  new_ub : r.new_ub = s.new_ub

theorem Same.length {T : Typestruct} {r : Pass2} {s : MpiSerial.Pass2} (h : Same bo n T r s) : s.pairs.length = n := by
  have := decode_pairs_length (bo := bo) h.holds
  rw [h.decode] at this
  exact this

theorem structCopyPairs_rel {T : Typestruct} {m : Nat} (hb : Holds b m) (off : Int) : ∀ (c k : Nat) (r : Pass2)
    (s : MpiSerial.Pass2), Same bo n T r s →
      (structCopyPairs bo b off c k r).Rel (Same bo n T) (MpiSerial.structCopyPairs (decode bo b) off c k s)
  | 0, _, _, _, h => h
  | c + 1, k, r, s, h => by
    rw [structCopyPairs, MpiSerial.structCopyPairs, Copy_type, pair_type hb, pair_disp hb]
    cases hp : (decode bo b).pair (k : Int) with
    | ok p =>
      obtain ⟨ht, hd⟩ := pair_range hb hp
      simp only [Res.ok_bind, setPair, h.length, ← h.newcount]
      by_cases hk : r.newcount < n
      · have h1 : offType r.newcount + 4 ≤ r.temp.length := by rw [h.holds, offType]; omega
        have l1 : offType r.newcount + (bo.bytes 4 p.type).length ≤ r.temp.length := by rw [bytes_length]; exact h1
        have H1 := h.holds.put l1
        have h2 : offDisp r.newcount + 8 ≤ (put r.temp (offType r.newcount) (bo.bytes 4 p.type)).length := by
          rw [H1, offDisp]; omega
        have l2 : offDisp r.newcount + (bo.bytes 8 p.disp).length ≤
            (put r.temp (offType r.newcount) (bo.bytes 4 p.type)).length := by rw [bytes_length]; exact h2
        have H2 := H1.put l2
        have h3 : offDisp r.newcount + 8 ≤ (put (put r.temp (offType r.newcount) (bo.bytes 4 p.type))
            (offDisp r.newcount) (bo.bytes 8 p.disp)).length := by rw [H2, offDisp]; omega
        rw [if_pos hk, setInt_ok h1]
        simp only [Res.ok_bind]
        rw [setLong_ok h2]
        simp only [Res.ok_bind]
        rw [long_ok h3, longAt_same h2, hd]
        simp only [Res.ok_bind]
        rw [setLong_ok h3]
        simp only [Res.ok_bind]
        refine structCopyPairs_rel hb off c (k + 1) _ _ ⟨H2.put (by rw [bytes_length]; exact h3), ?_, rfl, h.new_lb, h.new_ub⟩
        show decode bo (put (put (put r.temp _ _) _ _) _ _) = { T with pairs := s.pairs.set r.newcount _ }
        rw [decode_setDisp H2 hk, decode_setDisp H1 hk, decode_setType h.holds hk, h.decode,
          intAt_put l2 (.inr (by rw [bytes_length, offType, offDisp]; omega)), intAt_same h1, ht, s64_s64]
        simp only [List.set_set]
      · have h1 : ¬ offType r.newcount + 4 ≤ r.temp.length := by rw [h.holds, offType]; omega
        rw [if_neg hk, setInt_bad h1]
        exact rfl
    | ub u => exact rfl
    | _ => simp only [Typestruct.pair] at hp; split at hp <;> (try split at hp) <;> cases hp

/-- The block as a value. -/
def Block.decode (bo : ByteOrder) (b : Block) : MpiSerial.Block := ⟨b.len, b.disp, Raw.decode bo b.ty⟩

theorem structReps_rel {T : Typestruct} (cfg : Cfg) {x : Block} {m : Nat} (hb : Holds x.ty m) : ∀ (c j : Nat) (r : Pass2)
    (s : MpiSerial.Pass2), Same bo n T r s →
      (structReps cfg bo x c j r).Rel (Same bo n T) (MpiSerial.structReps cfg (x.decode bo) c j s)
  | 0, _, _, _, h => h
  | c + 1, j, r, s, h => by
    rw [structReps, MpiSerial.structReps, Type_extent_eq cfg hb]
    simp only [Block.decode]
    cases MpiSerial.Type_extent cfg (Raw.decode bo x.ty) with
    | ok e =>
      simp only [o_lb_ok hb, o_ub_ok hb, lb_ok hb, ub_ok hb, count_ok hb, Res.ok_bind, h.new_lb, h.new_ub]
      have key : ∀ (off l u : Int) (k : Nat), Rel (Same bo n T)
          (structCopyPairs bo x.ty off k 0 ⟨r.temp, r.newcount, l, u⟩ >>= structReps cfg bo x c (j + 1))
          (MpiSerial.structCopyPairs (Raw.decode bo x.ty) off k 0 ⟨s.pairs, s.newcount, l, u⟩ >>=
            MpiSerial.structReps cfg ⟨x.len, x.disp, Raw.decode bo x.ty⟩ c (j + 1)) := fun off l u k =>
        Rel.bind (structCopyPairs_rel hb _ _ _ _ _ ⟨h.holds, h.decode, h.newcount, rfl, rfl⟩)
          fun r' s' _ _ h' => structReps_rel cfg hb c (j + 1) r' s' h'
      exact key _ _ _ _
    | hang => trivial
    | _ => exact rfl

theorem structPass2_rel {T : Typestruct} (cfg : Cfg) : ∀ (bs : List Block) (_ : ∀ x ∈ bs, ∃ m, Holds x.ty m) (r : Pass2)
    (s : MpiSerial.Pass2), Same bo n T r s →
      (structPass2 cfg bo bs r).Rel (Same bo n T) (MpiSerial.structPass2 cfg (bs.map (Block.decode bo)) s)
  | [], _, _, _, h => h
  | x :: bs, hx, r, s, h => by
    obtain ⟨m, hb⟩ := hx x (List.mem_cons_self ..)
    have ih := structPass2_rel (T := T) cfg bs fun y hy => hx y (List.mem_cons_of_mem _ hy)
    rw [structPass2, List.map_cons, MpiSerial.structPass2, pair_type hb, bind_assoc]
    refine Rel.bind_same fun p _ => ?_
    simp only [Res.ok_bind]
    refine Rel.ite (fun _ => ih r s h) fun _ => ?_
    exact Rel.bind (structReps_rel cfg hb _ _ _ _ h) fun r' s' _ _ h' => ih r' s' h'

theorem structPass1_eq : ∀ (bs : List Block) (_ : ∀ x ∈ bs, ∃ m, Holds x.ty m) (s : Pass1),
    structPass1 bo bs s = MpiSerial.structPass1 (bs.map (Block.decode bo)) s
  | [], _, _ => rfl
  | x :: bs, hx, s => by
    obtain ⟨m, hb⟩ := hx x (List.mem_cons_self ..)
    have ih := structPass1_eq bs fun y hy => hx y (List.mem_cons_of_mem _ hy)
    rw [structPass1, List.map_cons, MpiSerial.structPass1, pair_type hb, bind_assoc]
    congr 1; funext p
    simp only [Res.ok_bind, o_lb_ok hb, o_ub_ok hb, count_ok hb, ih]
    rfl

/-! ## Sizes -/

theorem structSize_ok {c : Int} (h1 : -1 ≤ c) (h2 : c ≤ 2147483647) : structSize c = .ok (56 + 16 * c) := by
  rw [structSize, ck32, if_pos (by omega)]
  simp only [Res.ok_bind, Res.pure_eq, sizeofTypestruct, sizeofTypepair, u64]
  congr 1
  omega

theorem malloc_ok {junk : Nat → UInt8} {c : Int} (h1 : -1 ≤ c) (h2 : c ≤ 2147483647) :
    ∃ b, malloc junk (56 + 16 * c) = some b ∧ Holds b (c + 1).toNat ∧ ∀ i, i < b.length → b[i]? = some (junk i) := by
  refine ⟨_, if_pos (by omega), ?_, fun i hi => ?_⟩
  · simp only [Holds, List.length_map, List.length_range]; omega
  · simp only [List.length_map, List.length_range] at hi
    rw [List.getElem?_map, List.getElem?_range hi]; rfl

theorem slice_junk {junk : Nat → UInt8} (h : ∀ i, i < b.length → b[i]? = some (junk i)) {off k : Nat} (hl : off + k ≤ b.length) :
    (b.drop off).take k = (List.range k).map fun i => junk (off + i) := by
  apply List.ext_getElem?
  intro i
  rw [List.getElem?_take]
  split
  · next hi => rw [List.getElem?_drop, h _ (by omega), List.getElem?_map, List.getElem?_range hi]; rfl
  · rw [List.getElem?_eq_none]; simp; omega

/-- A fresh object. -/
theorem decode_fresh {junk : Nat → UInt8} (hb : Holds b n) (h : ∀ i, i < b.length → b[i]? = some (junk i)) :
    ∃ c u l k, decode bo b = ⟨c, u, l, k, (leftover bo junk).o_lb, (leftover bo junk).o_ub,
      (List.range n).map (leftover bo junk).pair⟩ := by
  refine ⟨intAt bo b 0, longAt bo b 8, longAt bo b 16, intAt bo b 24, ?_⟩
  have e : decode bo b = ⟨intAt bo b 0, longAt bo b 8, longAt bo b 16, intAt bo b 24, intAt bo b 28, intAt bo b 32,
    (decode bo b).pairs⟩ := rfl
  have e1 : intAt bo b 28 = (leftover bo junk).o_lb := by rw [intAt, slice_junk h (by rw [hb]; omega)]; rfl
  have e2 : intAt bo b 32 = (leftover bo junk).o_ub := by rw [intAt, slice_junk h (by rw [hb]; omega)]; rfl
  have e3 : (decode bo b).pairs = (List.range n).map (leftover bo junk).pair := by
    apply List.ext_getElem?
    intro i
    rw [decode_get hb]
    by_cases hi : i < n
    · rw [if_pos hi, List.getElem?_map, List.getElem?_range hi, longAt, intAt, slice_junk h (by rw [hb]; omega),
        slice_junk h (by rw [hb]; omega)]
      rfl
    · rw [if_neg hi, List.getElem?_eq_none (by simp; omega)]
  rw [e, e1, e2, e3]

/-! ## Bounds do not depend on the other fields -/

theorem pair_congr {t t' : Typestruct} (h : t.pairs = t'.pairs) (k : Int) : t.pair k = t'.pair k := by
  simp only [Typestruct.pair, h]

theorem calcLbLoop_congr {t t' : Typestruct} (h : t.pairs = t'.pairs) : ∀ (k i : Nat) (m : Int),
    MpiSerial.calcLbLoop t k i m = MpiSerial.calcLbLoop t' k i m
  | 0, _, _ => rfl
  | k + 1, i, m => by
    rw [MpiSerial.calcLbLoop, MpiSerial.calcLbLoop, pair_congr h]
    congr 1; funext p
    exact calcLbLoop_congr h k (i + 1) _

theorem calcUbLoop_congr {t t' : Typestruct} (h : t.pairs = t'.pairs) (cfg : Cfg) : ∀ (k i : Nat) (m : Int),
    MpiSerial.calcUbLoop cfg t k i m = MpiSerial.calcUbLoop cfg t' k i m
  | 0, _, _ => rfl
  | k + 1, i, m => by
    rw [MpiSerial.calcUbLoop, MpiSerial.calcUbLoop, pair_congr h]
    congr 1; funext p
    congr 1; funext l
    congr 1; funext e
    exact calcUbLoop_congr h cfg k (i + 1) _

theorem calcLbLoop_range {t : Typestruct} : ∀ (k i : Nat) (m x : Int), s64 m = m →
    MpiSerial.calcLbLoop t k i m = .ok x → s64 x = x
  | 0, _, m, x, hm, h => by cases h; exact hm
  | k + 1, i, m, x, hm, h => by
    rw [MpiSerial.calcLbLoop] at h
    obtain ⟨p, _, h⟩ := Res.bind_eq_ok.1 h
    have hr := s32_range (if p.disp < m then p.disp else m)
    exact calcLbLoop_range k (i + 1) _ x (s64_of_range (by omega) (by omega)) h

theorem calcUbLoop_range {t : Typestruct} (cfg : Cfg) : ∀ (k i : Nat) (m x : Int), s64 m = m →
    MpiSerial.calcUbLoop cfg t k i m = .ok x → s64 x = x
  | 0, _, m, x, hm, h => by cases h; exact hm
  | k + 1, i, m, x, hm, h => by
    rw [MpiSerial.calcUbLoop] at h
    obtain ⟨p, _, h⟩ := Res.bind_eq_ok.1 h
    obtain ⟨l, _, h⟩ := Res.bind_eq_ok.1 h
    obtain ⟨e, he, h⟩ := Res.bind_eq_ok.1 h
    refine calcUbLoop_range cfg k (i + 1) _ x ?_ h
    split
    · rw [ck64] at he
      split at he
      · cases he; exact s64_of_range (by omega) (by omega)
      · cases he
    · exact hm

theorem structPass1_range : ∀ (bs : List MpiSerial.Block) (s p : Pass1), s32 s.simpletype_count = s.simpletype_count →
    MpiSerial.structPass1 bs s = .ok p → s32 p.simpletype_count = p.simpletype_count
  | [], s, p, hs, h => by cases h; exact hs
  | x :: bs, s, p, hs, h => by
    rw [MpiSerial.structPass1] at h
    obtain ⟨q, _, h⟩ := Res.bind_eq_ok.1 h
    split at h
    · exact structPass1_range bs _ p (by exact hs) h
    · split at h
      · exact structPass1_range bs _ p (by exact hs) h
      · obtain ⟨a, _, h⟩ := Res.bind_eq_ok.1 h
        obtain ⟨c, hc, h⟩ := Res.bind_eq_ok.1 h
        refine structPass1_range bs _ p ?_ h
        rw [ck32] at hc
        split at hc
        · next hr => cases hc; exact s32_of_range hr.1 hr.2
        · cases hc

/-! ## Type_struct -/

theorem storeLower_rel {c : Int} {n : Nat} {o : Bool} {u l x y k : Int} {ol ou : Int} {ps : List Pair} {T : Typestruct}
    (H1 : Holds b n) (hd1 : decode bo b = ⟨c, u, l, k, ol, ou, ps⟩) (hxy : x = y) (hT : T.pairs = ps) (hc : T.count = c) :
    (storeLower bo o x b).Rel (fun b2 lb => Holds b2 n ∧ decode bo b2 = ⟨c, u, lb, k, if o then 1 else ol, ou, ps⟩)
      (if o then pure (s64 y) else MpiSerial.calc_lb T) := by
  subst hxy
  rw [storeLower]
  refine Rel.ite (fun ho => ?_) fun ho => ?_
  · obtain ⟨e2, H2⟩ := H1.setInt (bo := bo) (off := offOLb) (v := 1) (by decide)
    have hd2 := decode_setOLb (bo := bo) H1 1
    rw [hd1, show s32 1 = 1 from by decide] at hd2
    rw [e2, Res.ok_bind]
    obtain ⟨e3, H3⟩ := H2.setLong (bo := bo) (off := offLb) (v := x) (by decide)
    have hd3 := decode_setLb (bo := bo) H2 x
    rw [hd2] at hd3
    rw [e3, if_pos ho]
    exact ⟨H3, hd3⟩
  · rw [calc_lb_eq H1, MpiSerial.calc_lb, MpiSerial.calc_lb, hd1, hc,
      calcLbLoop_congr (t' := T) (by rw [hT]), if_neg ho]
    cases hr : MpiSerial.calcLbLoop T c.toNat 0 INT_MAX with
    | ok z =>
      obtain ⟨e2, H2⟩ := H1.setLong (bo := bo) (off := offLb) (v := z) (by decide)
      rw [Res.ok_bind, e2]
      have hd2 := decode_setLb (bo := bo) H1 z
      rw [hd1, calcLbLoop_range _ _ _ _ (by decide) hr] at hd2
      exact ⟨H2, hd2⟩
    | hang => trivial
    | _ => exact rfl

theorem storeUpper_rel (cfg : Cfg) {c : Int} {o : Bool} {u l x y k : Int} {ol ou : Int} {ps : List Pair}
    (H1 : Holds b (c + 1).toNat) (hd1 : decode bo b = ⟨c, u, l, k, ol, ou, ps⟩) (hxy : x = y) :
    (storeUpper cfg bo o x b).Rel (Stores bo)
      ((if o then pure (s64 y) else MpiSerial.calc_ub cfg ⟨c, 0, 0, 0, ol, if o then 1 else ou, ps⟩) >>= fun ub =>
        return (⟨c, ub, l, k, ol, if o then 1 else ou, ps⟩ : Typestruct)) := by
  subst hxy
  rw [storeUpper]
  cases o with
  | true =>
    simp only [if_true, Res.pure_bind']
    obtain ⟨e2, H2⟩ := H1.setInt (bo := bo) (off := offOUb) (v := 1) (by decide)
    have hd2 := decode_setOUb (bo := bo) H1 1
    rw [hd1, show s32 1 = 1 from by decide] at hd2
    rw [e2, Res.ok_bind]
    obtain ⟨e3, H3⟩ := H2.setLong (bo := bo) (off := offUb) (v := x) (by decide)
    have hd3 := decode_setUb (bo := bo) H2 x
    rw [hd2] at hd3
    rw [e3]
    exact ⟨hd3, H3⟩
  | false =>
    simp only [Bool.false_eq_true, if_false]
    rw [calc_ub_eq cfg H1, MpiSerial.calc_ub, MpiSerial.calc_ub, hd1]
    dsimp only
    rw [calcUbLoop_congr (t := ⟨c, u, l, k, ol, ou, ps⟩) (t' := ⟨c, 0, 0, 0, ol, ou, ps⟩) rfl]
    refine Rel.bind_same fun z hz => ?_
    obtain ⟨e2, H2⟩ := H1.setLong (bo := bo) (off := offUb) (v := z) (by decide)
    have hd2 := decode_setUb (bo := bo) H1 z
    rw [hd1, calcUbLoop_range cfg _ _ _ _ (by decide) hz] at hd2
    rw [e2]
    exact ⟨hd2, H2⟩

/-- The end of `Type_struct` on values. -/
def finish (cfg : Cfg) (g : Garbage) (p1 : Pass1) (p2 : MpiSerial.Pass2) : Res Typestruct :=
  (if p1.override_lower then pure (s64 p2.new_lb) else MpiSerial.calc_lb
    ⟨p1.simpletype_count, 0, 0, 0, if p1.override_lower then 1 else g.o_lb, if p1.override_upper then 1 else g.o_ub,
      p2.pairs⟩) >>= fun lb =>
  (if p1.override_upper then pure (s64 p2.new_ub) else MpiSerial.calc_ub cfg
    ⟨p1.simpletype_count, 0, 0, 0, if p1.override_lower then 1 else g.o_lb, if p1.override_upper then 1 else g.o_ub,
      p2.pairs⟩) >>= fun ub =>
  return ⟨p1.simpletype_count, ub, lb, 0, if p1.override_lower then 1 else g.o_lb, if p1.override_upper then 1 else g.o_ub,
    p2.pairs⟩

theorem Type_struct_finish (cfg : Cfg) (g : Garbage) (bs : List MpiSerial.Block) :
    MpiSerial.Type_struct cfg g bs = (MpiSerial.structPass1 bs {} >>= fun p1 =>
      if p1.simpletype_count < -1 then .ub .badPtr
      else MpiSerial.structPass2 cfg bs ⟨(List.range (p1.simpletype_count + 1).toNat).map g.pair, 0, p1.new_lb, p1.new_ub⟩ >>=
        finish cfg g p1) := by
  rw [MpiSerial.Type_struct]
  congr 1; funext p1
  obtain ⟨ol, ou, a, b, c⟩ := p1
  cases ol <;> cases ou <;> rfl

theorem structFill_rel (cfg : Cfg) {junk : Nat → UInt8} {bs : List Block} (hx : ∀ x ∈ bs, ∃ m, Holds x.ty m)
    {p1 : Pass1} (h1 : -1 ≤ p1.simpletype_count) (h2 : p1.simpletype_count ≤ 2147483647)
    (hb : Holds b (p1.simpletype_count + 1).toNat) (hj : ∀ i, i < b.length → b[i]? = some (junk i)) :
    (structFill cfg bo bs p1 b).Rel (Stores bo)
      (MpiSerial.structPass2 cfg (bs.map (Block.decode bo))
          ⟨(List.range (p1.simpletype_count + 1).toNat).map (leftover bo junk).pair, 0, p1.new_lb, p1.new_ub⟩ >>=
        finish cfg (leftover bo junk) p1) := by
  have hc : s32 p1.simpletype_count = p1.simpletype_count := s32_of_range (by omega) h2
  obtain ⟨c, u, l, k, hd⟩ := decode_fresh (bo := bo) hb hj
  rw [structFill]
  obtain ⟨e0, H0⟩ := hb.setInt (bo := bo) (off := offCount) (v := p1.simpletype_count) (by decide)
  have hd0 := decode_setCount (bo := bo) hb p1.simpletype_count
  rw [hd, hc] at hd0
  rw [e0, Res.ok_bind]
  refine Rel.bind (structPass2_rel (bo := bo) (T := ⟨p1.simpletype_count, u, l, k, (leftover bo junk).o_lb,
    (leftover bo junk).o_ub, []⟩) cfg bs hx _ _ ⟨H0, hd0, rfl, rfl, rfl⟩) fun r s _ _ hs => ?_
  obtain ⟨e1, H1⟩ := hs.holds.setInt (bo := bo) (off := offCommitted) (v := 0) (by decide)
  have hd1 := decode_setCommitted (bo := bo) hs.holds 0
  rw [hs.decode, show s32 0 = 0 from by decide] at hd1
  rw [e1, Res.ok_bind]
  generalize put r.temp offCommitted (bo.bytes 4 0) = b1 at H1 hd1
  -- the lower bound
  refine Rel.bind (R := fun b2 lb => Holds b2 (p1.simpletype_count + 1).toNat ∧ decode bo b2 =
      ⟨p1.simpletype_count, u, lb, 0, if p1.override_lower then 1 else (leftover bo junk).o_lb, (leftover bo junk).o_ub,
        s.pairs⟩) ?_ fun b2 lb _ _ ⟨H2, hd2⟩ => ?_
  · exact storeLower_rel H1 hd1 hs.new_lb rfl rfl
  -- the upper bound
  · exact storeUpper_rel cfg H2 hd2 hs.new_ub

theorem Type_struct_rel (cfg : Cfg) {junk : Nat → UInt8} {bs : List Block} (hx : ∀ x ∈ bs, ∃ m, Holds x.ty m)
    (hn : ∀ p1, MpiSerial.structPass1 (bs.map (Block.decode bo)) {} = .ok p1 → -1 ≤ p1.simpletype_count) :
    (Type_struct cfg bo junk bs).Rel (Stores bo)
      (MpiSerial.Type_struct cfg (leftover bo junk) (bs.map (Block.decode bo))) := by
  rw [Type_struct, Type_struct_finish, structPass1_eq bs hx]
  refine Rel.bind_same fun p1 hp => ?_
  have h1 := hn p1 hp
  have h2 : p1.simpletype_count ≤ 2147483647 := by
    have := structPass1_range _ _ _ (by decide) hp
    have := s32_range p1.simpletype_count
    omega
  obtain ⟨b, hm, hb, hj⟩ := malloc_ok (junk := junk) h1 h2
  rw [structSize_ok h1 h2, Res.ok_bind, hm, if_neg (by omega)]
  exact structFill_rel cfg hx h1 h2 hb hj

end MpiSerial.Raw
