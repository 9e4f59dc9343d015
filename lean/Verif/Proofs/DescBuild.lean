import Verif.Proofs.DescStruct

/-!
# The other constructors on bytes, and negative counts
-/

set_option linter.unusedSimpArgs false
set_option autoImplicit false

namespace MpiSerial.Raw

open Res (Rel)

variable {bo : ByteOrder} {b : Blob} {n : Nat}

/-! ## Counts that are not negative -/

theorem structPass1_nonneg : ∀ (bs : List MpiSerial.Block) (_ : ∀ x ∈ bs, 0 ≤ x.len ∧ 0 ≤ x.ty.count) (s p : Pass1),
    0 ≤ s.simpletype_count → MpiSerial.structPass1 bs s = .ok p → 0 ≤ p.simpletype_count
  | [], _, s, p, hs, h => by cases h; exact hs
  | x :: bs, hx, s, p, hs, h => by
    have hx' := hx x (List.mem_cons_self ..)
    have ih := structPass1_nonneg bs fun y hy => hx y (List.mem_cons_of_mem _ hy)
    rw [MpiSerial.structPass1] at h
    obtain ⟨q, _, h⟩ := Res.bind_eq_ok.1 h
    split at h
    · exact ih _ p (by exact hs) h
    · split at h
      · exact ih _ p (by exact hs) h
      · obtain ⟨a, ha, h⟩ := Res.bind_eq_ok.1 h
        obtain ⟨c, hc, h⟩ := Res.bind_eq_ok.1 h
        refine ih _ p ?_ h
        have := Int.mul_nonneg hx'.1 hx'.2
        rw [ck32] at ha hc
        split at ha
        · cases ha
          split at hc
          · cases hc
            show 0 ≤ s.simpletype_count + _
            omega
          · cases hc
        · cases ha

theorem Sound.holds (h : Sound bo b) : ∃ m, Holds b m := ⟨h.choose, h.choose_spec.1⟩
theorem Sound.count (h : Sound bo b) : 0 ≤ (decode bo b).count := h.choose_spec.2.1

theorem struct_count {bs : List Block} (h : ∀ x ∈ bs, 0 ≤ x.len ∧ Sound bo x.ty) (p1 : Pass1)
    (hp : MpiSerial.structPass1 (bs.map (Block.decode bo)) {} = .ok p1) : 0 ≤ p1.simpletype_count := by
  refine structPass1_nonneg _ (fun x hx => ?_) _ _ (by decide) hp
  obtain ⟨y, hy, rfl⟩ := List.mem_map.1 hx
  exact ⟨(h y hy).1, (h y hy).2.count⟩

theorem struct_rel_sound (cfg : Cfg) {junk : Nat → UInt8} {bs : List Block} (h : ∀ x ∈ bs, 0 ≤ x.len ∧ Sound bo x.ty) :
    (Type_struct cfg bo junk bs).Rel (Stores bo)
      (MpiSerial.Type_struct cfg (leftover bo junk) (bs.map (Block.decode bo))) :=
  Type_struct_rel cfg (fun x hx => (h x hx).2.holds) fun p1 hp => by
    have := struct_count h p1 hp
    omega

theorem struct_result_count {cfg : Cfg} {g : Garbage} {bs : List MpiSerial.Block} {t : Typestruct}
    (h : MpiSerial.Type_struct cfg g bs = .ok t) : ∃ p1, MpiSerial.structPass1 bs {} = .ok p1 ∧ t.count = p1.simpletype_count := by
  rw [Type_struct_finish] at h
  obtain ⟨p1, hp, h⟩ := Res.bind_eq_ok.1 h
  refine ⟨p1, hp, ?_⟩
  split at h
  · cases h
  · obtain ⟨p2, _, h⟩ := Res.bind_eq_ok.1 h
    unfold finish at h
    obtain ⟨lb, _, h⟩ := Res.bind_eq_ok.1 h
    obtain ⟨ub, _, h⟩ := Res.bind_eq_ok.1 h
    cases h
    rfl

theorem struct_sound {cfg : Cfg} {junk : Nat → UInt8} {bs : List Block} (h : ∀ x ∈ bs, 0 ≤ x.len ∧ Sound bo x.ty)
    (hb : Type_struct cfg bo junk bs = .ok b) : Sound bo b := by
  obtain ⟨t, ht, h1, h2⟩ := (struct_rel_sound cfg h).ok_left hb
  obtain ⟨p1, hp, hc⟩ := struct_result_count ht
  have := struct_count h p1 hp
  refine ⟨_, h2, ?_, ?_, ?_⟩
  · rw [h1]; omega
  · rw [h1]; omega
  · omega

/-! ## The blocks that the other constructors make -/

theorem fill_rel {α β : Type} {R : α → β → Prop} {f : Nat → Res α} {g : Nat → Res β} (h : ∀ i, (f i).Rel R (g i)) :
    ∀ n i, (fill f n i).Rel (fun xs ys => xs.length = ys.length ∧ ∀ (k : Nat) x y, xs[k]? = some x → ys[k]? = some y → R x y)
      (fill g n i)
  | 0, _ => ⟨rfl, fun k x y h => by simp at h⟩
  | n + 1, i => by
    rw [fill, fill]
    refine Rel.bind (h i) fun x y _ _ hxy => ?_
    refine Rel.bind (fill_rel h n (i + 1)) fun xs ys _ _ ⟨h1, h2⟩ => ⟨by simp [h1], fun k a b ha hb => ?_⟩
    cases k with
    | zero => simp at ha hb; subst ha hb; exact hxy
    | succ k => exact h2 k a b (by simpa using ha) (by simpa using hb)

/-- Blocks of one old type. -/
def Uniform (bo : ByteOrder) (old : Blob) (x : Block) (y : MpiSerial.Block) : Prop :=
  x.decode bo = y ∧ x.ty = old

theorem uniform_map {old : Blob} {xs : List Block} {ys : List MpiSerial.Block} (h : xs.length = ys.length)
    (h2 : ∀ (k : Nat) x y, xs[k]? = some x → ys[k]? = some y → Uniform bo old x y) :
    ys = xs.map (Block.decode bo) ∧ ∀ x ∈ xs, x.ty = old := by
  constructor
  · apply List.ext_getElem?
    intro k
    rw [List.getElem?_map]
    cases hx : xs[k]? with
    | none =>
      rw [List.getElem?_eq_none (by have := List.getElem?_eq_none_iff.1 hx; omega)]
      rfl
    | some x =>
      have hk : k < xs.length := by
        by_cases hk : k < xs.length
        · exact hk
        · rw [List.getElem?_eq_none (by omega)] at hx; cases hx
      have hy : ys[k]? = some ys[k] := List.getElem?_eq_getElem (by omega)
      rw [hy, Option.map_some, (h2 k x _ hx hy).1]
  · intro x hx
    obtain ⟨k, hk⟩ := List.getElem?_of_mem hx
    have hkl : k < xs.length := by
      by_cases hk' : k < xs.length
      · exact hk'
      · rw [List.getElem?_eq_none (by omega)] at hk; cases hk
    exact (h2 k x _ hk (List.getElem?_eq_getElem (by omega : k < ys.length))).2

/-- Struct of blocks of one old type, with lengths that are not negative. -/
theorem uniform_rel (cfg : Cfg) {junk : Nat → UInt8} {old : Blob} (ho : Sound bo old) {f : Nat → Res Block}
    {g : Nat → Res MpiSerial.Block} (h : ∀ i, (f i).Rel (fun x y => Uniform bo old x y ∧ 0 ≤ x.len) (g i)) (n : Nat) :
    (fill f n 0 >>= Type_struct cfg bo junk).Rel (fun b t => Stores bo b t ∧ Sound bo b)
      (fill g n 0 >>= MpiSerial.Type_struct cfg (leftover bo junk)) := by
  refine Rel.bind (fill_rel h n 0) fun xs ys _ _ ⟨h1, h2⟩ => ?_
  obtain ⟨rfl, h4⟩ := uniform_map h1 fun k x y hx hy => (h2 k x y hx hy).1
  have hs : ∀ x ∈ xs, 0 ≤ x.len ∧ Sound bo x.ty := by
    intro x hx
    refine ⟨?_, by rw [h4 x hx]; exact ho⟩
    obtain ⟨k, hk⟩ := List.getElem?_of_mem hx
    exact (h2 k x (x.decode bo) hk (by rw [List.getElem?_map, hk]; rfl)).2
  exact (struct_rel_sound cfg hs).mono fun a t ha _ hat => ⟨hat, struct_sound hs ha⟩

theorem mem_fill_const {n i : Nat} {bl : Int} {ls : List Int} (h : fill (fun _ => .ok bl) n i = .ok ls) :
    ∀ l ∈ ls, l = bl := by
  induction n generalizing i ls with
  | zero => cases h; simp
  | succ n ih =>
    rw [fill] at h
    simp only [Res.ok_bind] at h
    obtain ⟨xs, hx, h⟩ := Res.bind_eq_ok.1 h
    cases h
    intro l hl
    rcases List.mem_cons.1 hl with rfl | hl
    · rfl
    · exact ih hx l hl

section Constructors
variable (cfg : Cfg) {junk : Nat → UInt8} {old : Blob} (ho : Sound bo old)
include ho

theorem contiguous_rel (count : Int) : (Type_contiguous cfg bo junk count old).Rel (fun b t => Stores bo b t ∧ Sound bo b)
    (MpiSerial.Type_contiguous cfg (leftover bo junk) count (decode bo old)) := by
  obtain ⟨m, hm⟩ := ho.holds
  rw [Type_contiguous, MpiSerial.Type_contiguous, Type_extent_eq cfg hm]
  refine Rel.bind_same fun n _ => ?_
  cases MpiSerial.Type_extent cfg (decode bo old) with
  | ok e =>
    rw [Res.ok_bind, Res.ok_bind]
    exact uniform_rel cfg ho (f := fun i => .ok ⟨1, u64 (e * i), old⟩) (g := fun i => .ok ⟨1, u64 (e * i), decode bo old⟩)
      (fun i => ⟨⟨rfl, rfl⟩, (by decide : (0 : Int) ≤ 1)⟩) n
  | hang => trivial
  | _ => exact rfl

theorem hvector_rel (count stride : Int) {bl : Int} (hb : 0 ≤ bl) :
    (Type_hvector cfg bo junk count bl stride old).Rel (fun b t => Stores bo b t ∧ Sound bo b)
      (MpiSerial.Type_hvector cfg (leftover bo junk) count bl stride (decode bo old)) := by
  obtain ⟨m, hm⟩ := ho.holds
  rw [Type_hvector, MpiSerial.Type_hvector, Type_extent_eq cfg hm]
  refine Rel.bind_same fun n _ => ?_
  cases MpiSerial.Type_extent cfg (decode bo old) with
  | ok e =>
    rw [Res.ok_bind, Res.ok_bind]
    exact uniform_rel cfg ho (f := fun i => .ok ⟨bl, u64 (stride * i), old⟩)
      (g := fun i => .ok ⟨bl, u64 (stride * i), decode bo old⟩) (fun i => ⟨⟨rfl, rfl⟩, hb⟩) n
  | hang => trivial
  | _ => exact rfl

theorem vector_rel (count stride : Int) {bl : Int} (hb : 0 ≤ bl) :
    (Type_vector cfg bo junk count bl stride old).Rel (fun b t => Stores bo b t ∧ Sound bo b)
      (MpiSerial.Type_vector cfg (leftover bo junk) count bl stride (decode bo old)) := by
  obtain ⟨m, hm⟩ := ho.holds
  rw [Type_vector, MpiSerial.Type_vector, Type_extent_eq cfg hm]
  cases MpiSerial.Type_extent cfg (decode bo old) with
  | ok e =>
    rw [Res.ok_bind, Res.ok_bind]
    exact hvector_rel cfg ho count _ hb
  | hang => trivial
  | _ => exact rfl

theorem hindexed_rel (count : Int) (disps : List Int) {bls : List Int} (hb : ∀ l ∈ bls, 0 ≤ l) :
    (Type_hindexed cfg bo junk count bls disps old).Rel (fun b t => Stores bo b t ∧ Sound bo b)
      (MpiSerial.Type_hindexed cfg (leftover bo junk) count bls disps (decode bo old)) := by
  rw [Type_hindexed, MpiSerial.Type_hindexed]
  refine Rel.bind_same fun n _ => uniform_rel cfg ho (fun i => ?_) n
  refine Rel.bind_same fun l hl => Rel.bind_same fun d _ => ⟨⟨rfl, rfl⟩, hb l ?_⟩
  rw [rd] at hl
  split at hl
  · next x hx => cases hl; exact List.mem_of_getElem? hx
  · cases hl

theorem indexed_rel (count : Int) (disps : List Int) {bls : List Int} (hb : ∀ l ∈ bls, 0 ≤ l) :
    (Type_indexed cfg bo junk count bls disps old).Rel (fun b t => Stores bo b t ∧ Sound bo b)
      (MpiSerial.Type_indexed cfg (leftover bo junk) count bls disps (decode bo old)) := by
  obtain ⟨m, hm⟩ := ho.holds
  rw [Type_indexed, MpiSerial.Type_indexed, Type_extent_eq cfg hm]
  exact Rel.bind_same fun n _ => Rel.bind_same fun ds _ => hindexed_rel cfg ho count ds hb

theorem indexed_block_rel (count : Int) (disps : List Int) {bl : Int} (hb : 0 ≤ bl) :
    (Type_create_indexed_block cfg bo junk count bl disps old).Rel (fun b t => Stores bo b t ∧ Sound bo b)
      (MpiSerial.Type_create_indexed_block cfg (leftover bo junk) count bl disps (decode bo old)) := by
  rw [Type_create_indexed_block, MpiSerial.Type_create_indexed_block]
  refine Rel.bind_same fun n _ => Rel.bind_same fun ls hl => indexed_rel cfg ho count disps fun l hm => ?_
  rw [mem_fill_const hl l hm]
  exact hb

end Constructors

/-! ## Negative counts -/

theorem st_length {off : Nat} {bs : List UInt8} {b' : Blob} (h : b.st off bs = .ok b') : b'.length = b.length := by
  simp only [Blob.st] at h
  split at h
  · next hl =>
    cases h
    exact put_length hl
  · cases h

theorem setInt_length {off : Nat} {v : Int} {b' : Blob} (h : b.setInt bo off v = .ok b') : b'.length = b.length := st_length h
theorem setLong_length {off : Nat} {v : Int} {b' : Blob} (h : b.setLong bo off v = .ok b') : b'.length = b.length := st_length h

theorem Copy_type_length {k m : Nat} {d d' : Blob} (h : Copy_type bo b k d m = .ok d') : d'.length = d.length := by
  rw [Copy_type] at h
  obtain ⟨_, _, h⟩ := Res.bind_eq_ok.1 h
  obtain ⟨_, h1, h⟩ := Res.bind_eq_ok.1 h
  obtain ⟨_, _, h⟩ := Res.bind_eq_ok.1 h
  rw [setLong_length h, setInt_length h1]

theorem structCopyPairs_length {off : Int} : ∀ (c k : Nat) (r r' : Pass2), structCopyPairs bo b off c k r = .ok r' →
    r'.temp.length = r.temp.length
  | 0, _, _, _, h => by cases h; rfl
  | c + 1, k, r, r', h => by
    rw [structCopyPairs] at h
    obtain ⟨_, h1, h⟩ := Res.bind_eq_ok.1 h
    obtain ⟨_, _, h⟩ := Res.bind_eq_ok.1 h
    obtain ⟨_, h2, h⟩ := Res.bind_eq_ok.1 h
    rw [structCopyPairs_length c (k + 1) _ r' h]
    show List.length _ = _
    rw [setLong_length h2, Copy_type_length h1]

theorem structReps_length {cfg : Cfg} {x : Block} : ∀ (c j : Nat) (r r' : Pass2), structReps cfg bo x c j r = .ok r' →
    r'.temp.length = r.temp.length
  | 0, _, _, _, h => by cases h; rfl
  | c + 1, j, r, r', h => by
    rw [structReps] at h
    obtain ⟨_, _, h⟩ := Res.bind_eq_ok.1 h
    obtain ⟨_, _, h⟩ := Res.bind_eq_ok.1 h
    obtain ⟨_, _, h⟩ := Res.bind_eq_ok.1 h
    obtain ⟨_, _, h⟩ := Res.bind_eq_ok.1 h
    obtain ⟨_, _, h⟩ := Res.bind_eq_ok.1 h
    obtain ⟨_, _, h⟩ := Res.bind_eq_ok.1 h
    obtain ⟨_, h1, h⟩ := Res.bind_eq_ok.1 h
    rw [structReps_length c (j + 1) _ r' h, structCopyPairs_length _ _ _ _ h1]

theorem structPass2_length {cfg : Cfg} : ∀ (bs : List Block) (r r' : Pass2), structPass2 cfg bo bs r = .ok r' →
    r'.temp.length = r.temp.length
  | [], _, _, h => by cases h; rfl
  | x :: bs, r, r', h => by
    rw [structPass2] at h
    obtain ⟨_, _, h⟩ := Res.bind_eq_ok.1 h
    split at h
    · exact structPass2_length bs r r' h
    · obtain ⟨_, h1, h⟩ := Res.bind_eq_ok.1 h
      rw [structPass2_length bs _ r' h, structReps_length _ _ _ _ h1]

theorem malloc_negative {junk : Nat → UInt8} {c : Int} (h1 : c < -1) (h2 : -2147483647 ≤ c) {z : Int}
    (hz : structSize c = .ok z) (hm : malloc junk z = some b) : b.length < 28 := by
  rw [structSize, ck32, if_pos (by omega)] at hz
  simp only [Res.ok_bind, Res.pure_eq, sizeofTypestruct, sizeofTypepair, u64] at hz
  have hz := Res.ok.inj hz
  rw [malloc] at hm
  split at hm
  · cases hm
    rw [List.length_map, List.length_range]
    omega
  · cases hm

theorem negative_not_returned (cfg : Cfg) {junk : Nat → UInt8} {bs : List Block} {p1 : Pass1}
    (hp : structPass1 bo bs {} = .ok p1) (hn : p1.simpletype_count < -1) (r : Blob) : Type_struct cfg bo junk bs ≠ .ok r := by
  intro h
  rw [Type_struct, hp, Res.ok_bind] at h
  obtain ⟨z, hz, h⟩ := Res.bind_eq_ok.1 h
  have h2 : -2147483647 ≤ p1.simpletype_count := by
    rw [structSize, ck32] at hz
    split at hz
    · omega
    · cases hz
  cases hm : malloc junk z with
  | none => rw [hm] at h; cases h
  | some b0 =>
    rw [hm] at h
    have hl := malloc_negative hn h2 hz hm
    dsimp only [structFill] at h
    obtain ⟨b1, h3, h⟩ := Res.bind_eq_ok.1 h
    obtain ⟨r2, h4, h⟩ := Res.bind_eq_ok.1 h
    obtain ⟨b2, h5, h⟩ := Res.bind_eq_ok.1 h
    have e := structPass2_length _ _ _ h4
    have e' : r2.temp.length = b0.length := by rw [e]; exact setInt_length h3
    rw [setInt_bad (by rw [e', offCommitted]; omega)] at h5
    cases h5

/-! ## Every descriptor has a representation -/

/-- The fields are values of their C types. -/
structure InRange (t : Typestruct) : Prop where
  count : s32 t.count = t.count
  ub : s64 t.ub = t.ub
  lb : s64 t.lb = t.lb
  committed : s32 t.committed = t.committed
  o_lb : s32 t.o_lb = t.o_lb
  o_ub : s32 t.o_ub = t.o_ub
  pairs : ∀ p ∈ t.pairs, s64 p.disp = p.disp ∧ s32 p.type = p.type

/-- Write the pairs from index `k` on. -/
theorem encode_pairs : ∀ (ps : List Pair) (_ : ∀ p ∈ ps, s64 p.disp = p.disp ∧ s32 p.type = p.type) (k : Nat) (b : Blob),
    Holds b n → k + ps.length = n → ∃ b', Holds b' n ∧
      decode bo b' = { decode bo b with pairs := (decode bo b).pairs.take k ++ ps }
  | [], _, k, b, hb, hk => ⟨b, hb, by
      have := decode_pairs_length (bo := bo) hb
      rw [List.append_nil, List.take_of_length_le (by simp at hk; omega)]⟩
  | p :: ps, hp, k, b, hb, hk => by
    have hk' : k < n := by simp at hk; omega
    have h1 : offType k + 4 ≤ b.length := by rw [hb, offType]; omega
    have H1 := hb.put (off := offType k) (bs := bo.bytes 4 p.type) (by rw [bytes_length]; exact h1)
    have h2 : offDisp k + 8 ≤ (put b (offType k) (bo.bytes 4 p.type)).length := by rw [H1, offDisp]; omega
    have H2 := H1.put (off := offDisp k) (bs := bo.bytes 8 p.disp) (by rw [bytes_length]; exact h2)
    obtain ⟨b', hb', hd⟩ := encode_pairs ps (fun q hq => hp q (List.mem_cons_of_mem _ hq)) (k + 1) _ H2
      (by simp at hk; omega)
    refine ⟨b', hb', ?_⟩
    obtain ⟨hd1, ht1⟩ := hp p (List.mem_cons_self ..)
    rw [decode_setDisp H1 hk', decode_setType hb hk', intAt_same h1, hd1, ht1] at hd
    rw [hd]
    have hl := decode_pairs_length (bo := bo) hb
    have e : List.take (k + 1) (((decode bo b).pairs.set k ⟨longAt bo b (offDisp k), p.type⟩).set k ⟨p.disp, p.type⟩) ++ ps =
        (decode bo b).pairs.take k ++ p :: ps := by
      rw [List.set_set, List.take_add_one, List.getElem?_set_self (by omega), List.take_set_of_le (by omega)]
      simp
    dsimp only
    rw [e]

theorem encode {t : Typestruct} (h : InRange t) : ∃ b, Holds b t.pairs.length ∧ decode bo b = t := by
  have h0 : Holds (List.replicate (40 + 16 * t.pairs.length) 0) t.pairs.length := by simp [Holds]
  have H1 := (h0.setInt (bo := bo) (off := offCount) (v := t.count) (by decide)).2
  have H2 := (H1.setLong (bo := bo) (off := offUb) (v := t.ub) (by decide)).2
  have H3 := (H2.setLong (bo := bo) (off := offLb) (v := t.lb) (by decide)).2
  have H4 := (H3.setInt (bo := bo) (off := offCommitted) (v := t.committed) (by decide)).2
  have H5 := (H4.setInt (bo := bo) (off := offOLb) (v := t.o_lb) (by decide)).2
  have H6 := (H5.setInt (bo := bo) (off := offOUb) (v := t.o_ub) (by decide)).2
  obtain ⟨b, hb, hd⟩ := encode_pairs (bo := bo) t.pairs h.pairs 0 _ H6 (by omega)
  refine ⟨b, hb, ?_⟩
  rw [hd, decode_setOUb H5, decode_setOLb H4, decode_setCommitted H3, decode_setLb H2, decode_setUb H1, decode_setCount h0,
    h.count, h.ub, h.lb, h.committed, h.o_lb, h.o_ub]
  rfl

end MpiSerial.Raw
