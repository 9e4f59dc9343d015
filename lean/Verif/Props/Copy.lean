import Verif.Proofs.Copy

set_option linter.unusedSimpArgs false
set_option autoImplicit false

/-!
# C30-C34 (typed copy, pack and unpack on descriptors)

The elements of a typed buffer are `Spec.repeated map extent count address` (`Spec/Transfer.lean`).
`OffsetsFit` is the code's limit on offsets (an `int`, copy.c:46); beyond it the properties fail
(`C31_fails_large`).  "No byte is modified" of a call that stops the process is expressed by the call
stopping *whatever* the memory is - in particular when no byte may be accessed at all.
-/

namespace MpiSerial
open Spec

/-- Elements of the typed buffer `(buf, count, t)`, `e` being the extent of `t`. -/
def elems (t : Typestruct) (e : Int) (count buf : Int) : List Entry :=
  repeated (typeMap t) e count.toNat buf

theorem elems_length {t : Typestruct} (h : t.WF) (e count buf : Int) :
    (elems t e count buf).length = (t.count * count).toNat := by
  unfold elems
  rw [repeated_length]
  have hl : ((typeMap t).length : Int) = t.count := by
    have := h.map_length
    unfold typeMap; rw [List.length_map]; exact this
  have := h.nonneg
  by_cases hc : 0 ≤ count
  · rw [← hl, Int.mul_comm, Int.toNat_mul hc (by omega)]
    rfl
  · have h1 : count.toNat = 0 := by omega
    have h2 : t.count * count ≤ 0 := Int.mul_nonpos_of_nonneg_of_nonpos h.nonneg (by omega)
    rw [h1, Nat.zero_mul]; omega

theorem elems_sized {cfg : Cfg} (hc : cfg.Ok) {t : Typestruct} (ht : DataDesc cfg t) (e count buf : Int) :
    Sized (sz cfg) (elems t e count buf) := by
  intro x hx
  unfold elems repeated at hx
  obtain ⟨j, _, hx⟩ := List.mem_flatMap.1 hx
  obtain ⟨y, hy, rfl⟩ := List.mem_map.1 hx
  exact lenOf_range hc (ht.hasLenMap (x := y) hy)

/-- C30 (typed copy): with an uncommitted type on either side the process exits, for every memory,
buffers and counts. -/
theorem C30_uncommitted_copy {cfg : Cfg} (m : Mem) (source sc dest dc : Int) (st dt : Typestruct)
    (h : st.committed = 0 ∨ dt.committed = 0) :
    Pcopy_data2 cfg m source sc st dest dc dt = .exit (-1) := by
  unfold Pcopy_data2; rw [if_pos h]

theorem struct_uncommitted {cfg : Cfg} {g : Garbage} {bs : List Block} {t : Typestruct}
    (h : Type_struct cfg g bs = .ok t) : t.committed = 0 := by
  unfold Type_struct at h
  obtain ⟨p1, _, h⟩ := Res.bind_eq_ok.1 h
  split at h
  · cases h
  · obtain ⟨p2, _, h⟩ := Res.bind_eq_ok.1 h
    simp only [Res.bind_eq_ok] at h
    cases hA : p1.override_lower <;> cases hB : p1.override_upper <;>
      simp only [hA, hB, if_true, if_false, Bool.false_eq_true, Res.bind_eq_ok, Res.pure_eq,
        Res.ok.injEq] at h
    all_goals
      obtain ⟨_, _, _, _, h⟩ := h
      rw [← h]

/-- C30 (construction): whatever the components, a derived type starts uncommitted. -/
theorem C30_derived_uncommitted {cfg : Cfg} {g : Garbage} {t : Typestruct} :
    (∀ bs, Type_struct cfg g bs = .ok t → t.committed = 0) ∧
    (∀ n old, Type_contiguous cfg g n old = .ok t → t.committed = 0) ∧
    (∀ n b s old, Type_hvector cfg g n b s old = .ok t → t.committed = 0) ∧
    (∀ n b s old, Type_vector cfg g n b s old = .ok t → t.committed = 0) ∧
    (∀ n b d old, Type_hindexed cfg g n b d old = .ok t → t.committed = 0) ∧
    (∀ n b d old, Type_indexed cfg g n b d old = .ok t → t.committed = 0) ∧
    (∀ n b d old, Type_create_indexed_block cfg g n b d old = .ok t → t.committed = 0) := by
  have hh : ∀ n b s old, Type_hvector cfg g n b s old = .ok t → t.committed = 0 := by
    intro n b s old h
    unfold Type_hvector at h
    obtain ⟨_, _, h⟩ := Res.bind_eq_ok.1 h
    obtain ⟨_, _, h⟩ := Res.bind_eq_ok.1 h
    obtain ⟨_, _, h⟩ := Res.bind_eq_ok.1 h
    exact struct_uncommitted h
  have hi : ∀ n b d old, Type_hindexed cfg g n b d old = .ok t → t.committed = 0 := by
    intro n b d old h
    unfold Type_hindexed at h
    obtain ⟨_, _, h⟩ := Res.bind_eq_ok.1 h
    obtain ⟨_, _, h⟩ := Res.bind_eq_ok.1 h
    exact struct_uncommitted h
  have hx : ∀ n b d old, Type_indexed cfg g n b d old = .ok t → t.committed = 0 := by
    intro n b d old h
    unfold Type_indexed at h
    obtain ⟨_, _, h⟩ := Res.bind_eq_ok.1 h
    obtain ⟨_, _, h⟩ := Res.bind_eq_ok.1 h
    exact hi _ _ _ _ h
  refine ⟨fun bs h => struct_uncommitted h, ?_, hh, ?_, hi, hx, ?_⟩
  · intro n old h
    unfold Type_contiguous at h
    obtain ⟨_, _, h⟩ := Res.bind_eq_ok.1 h
    obtain ⟨_, _, h⟩ := Res.bind_eq_ok.1 h
    obtain ⟨_, _, h⟩ := Res.bind_eq_ok.1 h
    exact struct_uncommitted h
  · intro n b s old h
    unfold Type_vector at h
    obtain ⟨_, _, h⟩ := Res.bind_eq_ok.1 h
    exact hh _ _ _ _ h
  · intro n b d old h
    unfold Type_create_indexed_block at h
    obtain ⟨_, _, h⟩ := Res.bind_eq_ok.1 h
    obtain ⟨_, _, h⟩ := Res.bind_eq_ok.1 h
    exact hx _ _ _ _ h

/-- The element counts of both sides are C ints. -/
structure CountsFit (st dt : Typestruct) (sc dc : Int) : Prop where
  src : -2147483648 ≤ st.count * sc ∧ st.count * sc ≤ 2147483647
  dst : -2147483648 ≤ dt.count * dc ∧ dt.count * dc ≤ 2147483647

/-- C23 (typed copy): a destination with more basic elements than the source makes the process exit,
for every memory. -/
theorem C23_over_receive_copy {cfg : Cfg} (m : Mem) (source sc dest dc : Int) (st dt : Typestruct)
    (hs : st.WF) (hd : dt.WF) (hf : CountsFit st dt sc dc)
    (hcs : st.committed ≠ 0) (hcd : dt.committed ≠ 0) (se de : Int)
    (h : (elems st se sc source).length < (elems dt de dc dest).length) :
    Pcopy_data2 cfg m source sc st dest dc dt = .exit 1 := by
  rw [elems_length hs, elems_length hd] at h
  unfold Pcopy_data2
  rw [if_neg (fun h => h.elim hcs hcd), ck32_ok hf.src.1 hf.src.2, Res.ok_bind,
    ck32_ok hf.dst.1 hf.dst.2, Res.ok_bind, if_pos (by omega)]

/-- C31 (partial): a successful typed copy leaves every byte unchanged that does not belong to an
element of the destination - whatever the source.  Partial: destination offsets within `int` (for others see
`C31_frame_exact`). -/
theorem C31_frame_partial {cfg : Cfg} {m m' : Mem} {source sc dest dc : Int} {st dt : Typestruct}
    {de : Int} (hd : dt.WF) (hde : Type_extent cfg dt = .ok (u64 de))
    (hr : OffsetsFit dest (elems dt de dc dest))
    (h : Pcopy_data2 cfg m source sc st dest dc dt = .ok m') (a : Int)
    (ha : ∀ x ∈ elems dt de dc dest, ¬ InBytes a x.1 (sz cfg x.2)) : m' a = m a := by
  unfold Pcopy_data2 at h
  split at h
  · cases h
  · obtain ⟨b, hb, h⟩ := Res.bind_eq_ok.1 h
    obtain ⟨c, hc, h⟩ := Res.bind_eq_ok.1 h
    obtain ⟨_, rfl⟩ := ck32_eq_ok.1 hc
    split at h
    · cases h
    · obtain ⟨sext, _, h⟩ := Res.bind_eq_ok.1 h
      rw [hde, Res.ok_bind] at h
      exact copyLoop_frame hd (D := elems dt de dc dest) rfl hr _ 0
        (by rw [elems_length hd]; omega) m m' h a ha

/-- The typed copy is the sequence of element copies, in order. -/
theorem Pcopy_moves {cfg : Cfg} (m : Mem) {source sc dest dc : Int} {st dt : Typestruct}
    {se de : Int} (hs : DataDesc cfg st) (hd : DataDesc cfg dt)
    (hse : Type_extent cfg st = .ok (u64 se)) (hde : Type_extent cfg dt = .ok (u64 de))
    (hf : CountsFit st dt sc dc) (hcs : st.committed ≠ 0) (hcd : dt.committed ≠ 0)
    (hsc : 0 ≤ sc)
    (hle : (elems dt de dc dest).length ≤ (elems st se sc source).length)
    (hrs : OffsetsFit source ((elems st se sc source).take (elems dt de dc dest).length))
    (hrd : OffsetsFit dest (elems dt de dc dest))
    (htc : cfg.typeChecking = true →
      ∀ x ∈ (elems dt de dc dest).zip (elems st se sc source), x.2.2 = x.1.2) :
    Pcopy_data2 cfg m source sc st dest dc dt
      = runMoves m (moves (sz cfg) (elems dt de dc dest) (elems st se sc source)) := by
  have h := hle
  rw [elems_length hs.wf, elems_length hd.wf] at h
  have hsn : 0 ≤ st.count * sc := Int.mul_nonneg hs.wf.nonneg hsc
  unfold Pcopy_data2
  rw [if_neg (fun h => h.elim hcs hcd), ck32_ok hf.src.1 hf.src.2, Res.ok_bind,
    ck32_ok hf.dst.1 hf.dst.2, Res.ok_bind, if_neg (by omega), hse, Res.ok_bind, hde, Res.ok_bind,
    copyLoop_moves hs hd (S := elems st se sc source) (D := elems dt de dc dest) rfl rfl hle hrs hrd htc
      _ 0 (by rw [elems_length hd.wf]; omega), List.drop_zero]

theorem moves_get {f : Int → Int} {D S : List Entry} {i : Nat} {d s : Entry} (hd : D[i]? = some d)
    (hs : S[i]? = some s) : (moves f D S)[i]? = some ⟨d.1, s.1, (f d.2).toNat⟩ := by
  unfold moves
  rw [List.getElem?_map, (List.getElem?_zip_eq_some (z := (d, s))).2 ⟨hd, hs⟩]
  rfl

theorem zip_pairwise {α β : Type} {R : α → α → Prop} {D : List α} {S : List β} (h : D.Pairwise R) :
    (D.zip S).Pairwise fun x y => R x.1 y.1 := by
  induction D generalizing S with
  | nil => exact List.Pairwise.nil
  | cons d D ih =>
    cases S with
    | nil => exact List.Pairwise.nil
    | cons s S =>
      obtain ⟨h1, h2⟩ := List.pairwise_cons.1 h
      exact List.pairwise_cons.2 ⟨fun x hx => h1 _ (List.of_mem_zip hx).1, ih h2⟩

/-- Everything a caller has to provide for a typed copy of `(source, sc, st)` into `(dest, dc, dt)`:
committed types, enough elements, matching element sizes (and, in a TYPE_CHECKING build, kinds),
disjoint footprints, and no offset beyond the code's `int` limit. -/
structure Transfer (cfg : Cfg) (source sc : Int) (st : Typestruct) (se : Int)
    (dest dc : Int) (dt : Typestruct) (de : Int) : Prop where
  srcDesc : DataDesc cfg st
  dstDesc : DataDesc cfg dt
  srcExt : Type_extent cfg st = .ok (u64 se)
  dstExt : Type_extent cfg dt = .ok (u64 de)
  fit : CountsFit st dt sc dc
  srcCommitted : st.committed ≠ 0
  dstCommitted : dt.committed ≠ 0
  srcCount : 0 ≤ sc
  enough : (elems dt de dc dest).length ≤ (elems st se sc source).length
  srcReach : OffsetsFit source ((elems st se sc source).take (elems dt de dc dest).length)
  dstReach : OffsetsFit dest (elems dt de dc dest)
  kinds : ∀ x ∈ (elems dt de dc dest).zip (elems st se sc source),
    sz cfg x.2.2 = sz cfg x.1.2 ∧ (cfg.typeChecking = true → x.2.2 = x.1.2)
  disjoint : ElemsDisjoint (sz cfg) (elems dt de dc dest)
  apart : ElemsApart (sz cfg) (elems dt de dc dest)
    ((elems st se sc source).take (elems dt de dc dest).length)

theorem Transfer.moves {cfg : Cfg} {source sc : Int} {st : Typestruct} {se dest dc : Int}
    {dt : Typestruct} {de : Int} (h : Transfer cfg source sc st se dest dc dt de) (m : Mem) :
    Pcopy_data2 cfg m source sc st dest dc dt
      = runMoves m (moves (sz cfg) (elems dt de dc dest) (elems st se sc source)) :=
  Pcopy_moves m h.srcDesc h.dstDesc h.srcExt h.dstExt h.fit h.srcCommitted h.dstCommitted h.srcCount
    h.enough h.srcReach h.dstReach (fun htc x hx => (h.kinds x hx).2 htc)

theorem zip_mem_take {α β : Type} {D : List α} {S : List β} {x : α × β} (h : x ∈ D.zip S) :
    x.1 ∈ D ∧ x.2 ∈ S.take D.length := by
  refine ⟨(List.of_mem_zip h).1, ?_⟩
  obtain ⟨i, hi, rfl⟩ := List.mem_iff_getElem.1 h
  rw [List.length_zip] at hi
  rw [List.getElem_zip]
  exact List.mem_take_iff_getElem.2 ⟨i, by omega, rfl⟩

/-- C32: after a transfer, every byte of the i-th destination element is the corresponding byte of the
i-th source element before it.  Offsets are within `int` (in `Transfer`), as the property has it; for others see
`C32_bytes_exact`. -/
theorem C32_bytes {cfg : Cfg} (hc : cfg.Ok) {source sc : Int} {st : Typestruct} {se dest dc : Int}
    {dt : Typestruct} {de : Int} (h : Transfer cfg source sc st se dest dc dt de) {m m' : Mem}
    (hok : Pcopy_data2 cfg m source sc st dest dc dt = .ok m') :
    ∀ (i : Nat) (d : Entry), (elems dt de dc dest)[i]? = some d →
      ∃ s : Entry, (elems st se sc source)[i]? = some s ∧
        ∀ k, 0 ≤ k → k < sz cfg d.2 → m' (d.1 + k) = m (s.1 + k) := by
  intro i d hd
  have hi : i < (elems dt de dc dest).length := (List.getElem?_eq_some_iff.1 hd).1
  have his : i < (elems st se sc source).length := Nat.lt_of_lt_of_le hi h.enough
  refine ⟨(elems st se sc source)[i], List.getElem?_eq_getElem his, ?_⟩
  intro k hk0 hk
  rw [h.moves] at hok
  have hg := moves_get (f := sz cfg) hd (List.getElem?_eq_getElem his)
  refine runMoves_bytes hok ?_ _ (List.mem_of_getElem? hg) k hk0 (by simp only []; omega)
  have hsized := elems_sized hc h.dstDesc de dc dest
  unfold MpiSerial.moves
  rw [List.pairwise_map]
  refine (zip_pairwise h.disjoint).imp_of_mem ?_
  intro x y hx hy hxy
  have h1 := hsized _ (zip_mem_take hx).1
  have h2 := hsized _ (zip_mem_take hy).1
  have h3 := h.apart _ (zip_mem_take hx).1 _ (zip_mem_take hy).2
  have h4 := (h.kinds y hy).1
  refine ⟨?_, ?_⟩
  · unfold Apart at hxy ⊢; dsimp only; omega
  · unfold Apart at h3 ⊢; dsimp only; omega

/-- The transfer does take place when its footprints may be accessed. -/
theorem C32_succeeds {cfg : Cfg} (hc : cfg.Ok) {source sc : Int} {st : Typestruct} {se dest dc : Int}
    {dt : Typestruct} {de : Int} (h : Transfer cfg source sc st se dest dc dt de) {m : Mem}
    (had : Accessible (sz cfg) (fun a => (m a).isSome) (elems dt de dc dest))
    (has : Accessible (sz cfg) (fun a => (m a).isSome)
      ((elems st se sc source).take (elems dt de dc dest).length)) :
    ∃ m', Pcopy_data2 cfg m source sc st dest dc dt = .ok m' := by
  rw [h.moves]
  have hsized := elems_sized hc h.dstDesc de dc dest
  apply runMoves_success
  all_goals
    intro mv hmv
    unfold MpiSerial.moves at hmv
    obtain ⟨x, hx, rfl⟩ := List.mem_map.1 hmv
    have h1 := hsized _ (zip_mem_take hx).1
    have h3 := h.apart _ (zip_mem_take hx).1 _ (zip_mem_take hx).2
    have h4 := (h.kinds x hx).1
    dsimp only
  · intro a ha
    exact had _ (zip_mem_take hx).1 a (by unfold InBytes at ha ⊢; omega)
  · intro a ha
    exact has _ (zip_mem_take hx).2 a (by unfold InBytes at ha ⊢; omega)
  · unfold Apart at h3 ⊢; omega

/-- C31/C32 fail beyond 2 GiB: the second element of this (committed) type, at displacement 2^31, is
written 2^31 bytes *before* the buffer, outside the described bytes. -/
theorem C31_fails_large :
    ∃ t m m', Type_struct {} ⟨0, 0, fun _ => ⟨0, 0⟩⟩ [⟨1, 0, static1 1 0⟩, ⟨1, 2147483648, static1 1 0⟩] = .ok t ∧
      Pcopy_data2 {} m 1099511627776 2 (static1 1 0) 8589934592 1 { t with committed := 1 } = .ok m' ∧
      (∀ x ∈ elems t 2147483649 1 8589934592, ¬ InBytes 6442450944 x.1 (sz {} x.2)) ∧
      m' 6442450944 ≠ m 6442450944 := by
  refine ⟨⟨2, 2147483649, 0, 0, 0, 0, [⟨0, 0⟩, ⟨2147483648, 0⟩, ⟨0, 0⟩]⟩,
    fun a => if a = 6442450944 then some 7 else some 0, ?_⟩
  have h : (match Pcopy_data2 {} (fun a => if a = 6442450944 then some 7 else some 0) 1099511627776 2
      (static1 1 0) 8589934592 1 ⟨2, 2147483649, 0, 1, 0, 0, [⟨0, 0⟩, ⟨2147483648, 0⟩, ⟨0, 0⟩]⟩ with
      | .ok m' => m' 6442450944
      | _ => none) = some 0 := by decide
  dsimp only
  cases hr : Pcopy_data2 {} (fun a => if a = 6442450944 then some 7 else some 0) 1099511627776 2
      (static1 1 0) 8589934592 1 ⟨2, 2147483649, 0, 1, 0, 0, [⟨0, 0⟩, ⟨2147483648, 0⟩, ⟨0, 0⟩]⟩ with
  | ok m' =>
    rw [hr] at h
    refine ⟨m', by decide, rfl, ?_, ?_⟩
    · intro x hx
      have : x ∈ [((8589934592 : Int), (0 : Int)), (8589934592 + 2147483648, 0)] := by
        simpa [elems, repeated, shift, typeMap] using hx
      simp only [List.mem_cons, List.not_mem_nil, or_false] at this
      rcases this with rfl | rfl
      · unfold InBytes; simp [lenOf, Simpletype_length]
      · unfold InBytes; simp [lenOf, Simpletype_length]
    · dsimp only at h ⊢; rw [h]; decide
  | abort _ => rw [hr] at h; cases h
  | exit _ => rw [hr] at h; cases h
  | ub _ => rw [hr] at h; cases h
  | hang => rw [hr] at h; cases h

/-! ## C33, C34 -/

theorem packSizeLoop_eq (cfg : Cfg) (t : Typestruct) (n i : Nat) (s : Int)
    (hl : i + n ≤ t.pairs.length)
    (hlen : ∀ p ∈ (t.pairs.drop i).take n, MpiSerial.hasLen cfg p.type) :
    packSizeLoop cfg t n i (u64 s)
      = .ok (u64 (s + (((t.pairs.drop i).take n).map fun p => lenOf cfg p.type).sum)) := by
  induction n generalizing i s with
  | zero => simp [packSizeLoop]
  | succ n ih =>
    have hi : i < t.pairs.length := by omega
    rw [drop_take_succ _ _ _ hi] at hlen ⊢
    unfold packSizeLoop
    rw [pair_ok hi, Res.ok_bind, hlen _ (List.mem_cons_self ..), Res.ok_bind, u64_add_left,
      ih (i + 1) _ (by omega) (fun p hp => hlen p (List.mem_cons_of_mem _ hp)), List.map_cons,
      List.sum_cons, Int.add_assoc]

theorem Pack_size_eq {cfg : Cfg} {t : Typestruct} (ht : DataDesc cfg t) {s n : Int}
    (hs : Type_size cfg t = .ok s) : Pack_size cfg n t = .ok (u64 (n * s)) := by
  have hs := Type_size_inv ht hs
  have hf := ht.wf.fits
  unfold Pack_size
  have h := packSizeLoop_eq cfg t t.count.toNat 0 0 (by omega) (by
    rw [List.drop_zero]
    intro p hp
    exact ht.hasLenMap (x := (p.disp, p.type)) (List.mem_map.2 ⟨p, hp, rfl⟩))
  rw [show u64 0 = 0 from rfl] at h
  rw [h, Res.ok_bind, Res.pure_eq, u64_mul_left, List.drop_zero, Int.zero_add, hs, Int.mul_comm]
  congr 3
  unfold mapSize typeMap
  rw [List.map_map]
  rfl

theorem total_elems {cfg : Cfg} {t : Typestruct} (ht : DataDesc cfg t) {s : Int}
    (hs : Type_size cfg t = .ok s) (e : Int) (n : Nat) (buf : Int) :
    total (sz cfg) (elems t e n buf) = n * s := by
  have := Type_size_inv ht hs
  have h2 := mapSize_repeated cfg (typeMap t) e n buf
  unfold elems total
  rw [Int.toNat_natCast]
  unfold mapSize at h2 this
  rw [h2, this]

/-- Premises shared by the pack theorems: a data type with extent `e` and size `s`, elements of the
user buffer and the packed buffer at machine addresses. -/
structure PackArgs (cfg : Cfg) (t : Typestruct) (e s : Int) (n : Nat) (buf packed pos size : Int) :
    Prop where
  desc : DataDesc cfg t
  ext : Type_extent cfg t = .ok (u64 e)
  bytes : Type_size cfg t = .ok s
  machine : Machine (elems t e n buf)
  lo : 0 ≤ packed + pos
  hi : packed + pos + n * s ≤ 18446744073709551616 ∧ packed + size ≤ 18446744073709551616

/-- C34: a successful pack advances `position` by exactly `count * size(type)`, which is what
`MPI_Pack_size` reports, and stays within `outsize`. -/
theorem C34_pack_position {cfg : Cfg} (hc : cfg.Ok) {t : Typestruct} {e s : Int} {n : Nat}
    {inbuf outbuf outsize pos pos' : Int} {m m' : Mem}
    (ha : PackArgs cfg t e s n inbuf outbuf pos outsize)
    (h : Pack cfg m inbuf n t outbuf outsize pos = .ok (m', pos')) :
    pos' = pos + n * s ∧ Pack_size cfg n t = .ok (u64 (n * s)) ∧ (0 < n * s → pos' ≤ outsize) := by
  refine ⟨?_, Pack_size_eq ha.desc ha.bytes, ?_⟩
  all_goals
    unfold Pack at h
    rw [ha.ext, Res.ok_bind, Int.toNat_natCast, packLoop_eq' ha.desc n (by
      have := ha.machine; unfold elems at this; rwa [Int.toNat_natCast] at this)] at h
    have hsized := elems_sized hc ha.desc e n inbuf
    have htot := total_elems ha.desc ha.bytes e n inbuf
    unfold elems at hsized htot
    rw [Int.toNat_natCast] at hsized htot
    obtain ⟨h1, h2, h3⟩ := packList_inv hsized h ha.lo (by rw [htot]; exact ha.hi.1)
    rw [htot] at h1
  · exact h1
  · intro hpos
    apply h2
    intro hnil
    rw [hnil] at htot
    simp only [total, List.map_nil, List.sum_nil] at htot
    omega

/-- C34, unpack. -/
theorem C34_unpack_position {cfg : Cfg} (hc : cfg.Ok) {t : Typestruct} {e s : Int} {n : Nat}
    {inbuf insize outbuf pos pos' : Int} {m m' : Mem}
    (ha : PackArgs cfg t e s n outbuf inbuf pos insize)
    (h : Unpack cfg m inbuf insize pos outbuf n t = .ok (m', pos')) :
    pos' = pos + n * s ∧ Pack_size cfg n t = .ok (u64 (n * s)) ∧ (0 < n * s → pos' ≤ insize) := by
  refine ⟨?_, Pack_size_eq ha.desc ha.bytes, ?_⟩
  all_goals
    unfold Unpack at h
    rw [ha.ext, Res.ok_bind, Int.toNat_natCast, unpackLoop_eq' ha.desc n (by
      have := ha.machine; unfold elems at this; rwa [Int.toNat_natCast] at this)] at h
    have hsized := elems_sized hc ha.desc e n outbuf
    have htot := total_elems ha.desc ha.bytes e n outbuf
    unfold elems at hsized htot
    rw [Int.toNat_natCast] at hsized htot
    obtain ⟨h1, h2, h3⟩ := unpackList_inv hsized h ha.lo (by rw [htot]; exact ha.hi.1)
    rw [htot] at h1
  · exact h1
  · intro hpos
    apply h2
    intro hnil
    rw [hnil] at htot
    simp only [total, List.map_nil, List.sum_nil] at htot
    omega

/-- C34: pack succeeds exactly when `count * size(type)` bytes are left between `position` and
`outsize`, and exits otherwise; of the packed buffer only `[position, outsize)` need be accessible, so
no byte outside it is accessed. -/
theorem C34_pack_succeeds_iff {cfg : Cfg} (hc : cfg.Ok) {t : Typestruct} {e s : Int} {n : Nat}
    {inbuf outbuf outsize pos : Int} {m : Mem}
    (ha : PackArgs cfg t e s n inbuf outbuf pos outsize)
    (hpos : -2147483648 ≤ pos ∧ pos ≤ outsize ∧ outsize ≤ 2147483647 - 128)
    (hin : Accessible (sz cfg) (fun a => (m a).isSome) (elems t e n inbuf))
    (hout : ∀ a, outbuf + pos ≤ a → a < outbuf + outsize → (m a).isSome)
    (hap : ∀ x ∈ elems t e n inbuf, Apart x.1 (sz cfg x.2) (outbuf + pos) (outsize - pos)) :
    if pos + n * s ≤ outsize then ∃ m' pos', Pack cfg m inbuf n t outbuf outsize pos = .ok (m', pos')
    else Pack cfg m inbuf n t outbuf outsize pos = .exit 1 := by
  unfold Pack
  have hmach := ha.machine
  have hsized := elems_sized hc ha.desc e n inbuf
  have htot := total_elems ha.desc ha.bytes e n inbuf
  unfold elems at hmach hsized htot hin hap
  rw [Int.toNat_natCast] at hmach hsized htot hin hap
  rw [ha.ext, Res.ok_bind, Int.toNat_natCast, packLoop_eq' ha.desc n hmach]
  have := packList_run hsized (m := m) (p := pos) ha.lo ha.hi.2 hpos.1 hpos.2.2 hpos.2.1 hin hout hap
  rw [htot] at this
  split at this
  · rename_i hle
    rw [if_pos hle]
    obtain ⟨⟨m', p'⟩, hr⟩ := this
    exact ⟨m', p', hr⟩
  · rename_i hle
    rw [if_neg hle]; exact this

/-- C34: with `position` already beyond the end, packing or unpacking any byte exits. -/
theorem C34_position_beyond {cfg : Cfg} (hc : cfg.Ok) {t : Typestruct} {e s : Int} {n : Nat}
    {buf packed size pos : Int} (m : Mem) (ha : PackArgs cfg t e s n buf packed pos size)
    (hpos : size < pos ∧ pos ≤ 2147483647 - 128 ∧ -2147483648 ≤ pos) (hn : 0 < n * s) :
    Pack cfg m buf n t packed size pos = .exit 1 ∧ Unpack cfg m packed size pos buf n t = .exit 1 := by
  have hmach := ha.machine
  have hsized := elems_sized hc ha.desc e n buf
  have htot := total_elems ha.desc ha.bytes e n buf
  unfold elems at hmach hsized htot
  rw [Int.toNat_natCast] at hmach hsized htot
  unfold Pack Unpack
  rw [ha.ext, Res.ok_bind, Res.ok_bind, Int.toNat_natCast, packLoop_eq' ha.desc n hmach,
    unpackLoop_eq' ha.desc n hmach]
  cases hl : repeated (typeMap t) e n buf with
  | nil => rw [hl] at htot; simp only [total, List.map_nil, List.sum_nil] at htot; omega
  | cons x xs =>
    rw [hl] at hsized
    have := hsized x (List.mem_cons_self ..)
    unfold packList unpackList
    rw [ck32_ok (by omega) (by omega), Res.ok_bind, Res.ok_bind,
      if_pos (show pos + sz cfg x.2 > size by omega), if_pos (show pos + sz cfg x.2 > size by omega)]
    exact ⟨rfl, rfl⟩

/-- C34, unpack. -/
theorem C34_unpack_succeeds_iff {cfg : Cfg} (hc : cfg.Ok) {t : Typestruct} {e s : Int} {n : Nat}
    {inbuf insize outbuf pos : Int} {m : Mem}
    (ha : PackArgs cfg t e s n outbuf inbuf pos insize)
    (hpos : -2147483648 ≤ pos ∧ pos ≤ insize ∧ insize ≤ 2147483647 - 128)
    (hout : Accessible (sz cfg) (fun a => (m a).isSome) (elems t e n outbuf))
    (hin : ∀ a, inbuf + pos ≤ a → a < inbuf + insize → (m a).isSome)
    (hap : ∀ x ∈ elems t e n outbuf, Apart x.1 (sz cfg x.2) (inbuf + pos) (insize - pos)) :
    if pos + n * s ≤ insize then ∃ m' pos', Unpack cfg m inbuf insize pos outbuf n t = .ok (m', pos')
    else Unpack cfg m inbuf insize pos outbuf n t = .exit 1 := by
  unfold Unpack
  have hmach := ha.machine
  have hsized := elems_sized hc ha.desc e n outbuf
  have htot := total_elems ha.desc ha.bytes e n outbuf
  unfold elems at hmach hsized htot hout hap
  rw [Int.toNat_natCast] at hmach hsized htot hout hap
  rw [ha.ext, Res.ok_bind, Int.toNat_natCast, unpackLoop_eq' ha.desc n hmach]
  have := unpackList_run hsized (m := m) (p := pos) ha.lo ha.hi.2 hpos.1 hpos.2.2 hpos.2.1 hout hin hap
  rw [htot] at this
  split at this
  · rename_i hle
    rw [if_pos hle]
    obtain ⟨⟨m', p'⟩, hr⟩ := this
    exact ⟨m', p', hr⟩
  · rename_i hle
    rw [if_neg hle]; exact this

/-- What a successful pack wrote: nothing outside the packed bytes, and in them the elements one after
the other. -/
theorem Pack_contents {cfg : Cfg} (hc : cfg.Ok) {t : Typestruct} {e s : Int} {n : Nat}
    {inbuf outbuf outsize pos pos' : Int} {m m' : Mem}
    (ha : PackArgs cfg t e s n inbuf outbuf pos outsize)
    (hap : ∀ x ∈ elems t e n inbuf, Apart x.1 (sz cfg x.2) (outbuf + pos) (n * s))
    (h : Pack cfg m inbuf n t outbuf outsize pos = .ok (m', pos')) :
    (∀ a, ¬ InBytes a (outbuf + pos) (n * s) → m' a = m a) ∧
    (∀ (i : Nat) (x : Entry), (elems t e n inbuf)[i]? = some x → ∀ k, 0 ≤ k → k < sz cfg x.2 →
      m' (outbuf + pos + packedAt (sz cfg) (elems t e n inbuf) i + k) = m (x.1 + k)) := by
  have hmach := ha.machine
  have hsized := elems_sized hc ha.desc e n inbuf
  have htot := total_elems ha.desc ha.bytes e n inbuf
  unfold Pack at h
  unfold elems at hmach hsized htot hap ⊢
  rw [Int.toNat_natCast] at hmach hsized htot hap ⊢
  rw [ha.ext, Res.ok_bind, Int.toNat_natCast, packLoop_eq' ha.desc n hmach] at h
  obtain ⟨_, _, h3⟩ := packList_inv hsized h ha.lo (by rw [htot]; exact ha.hi.1)
  constructor
  · intro a hna
    apply runMoves_frame h3
    intro mv hmv hin
    obtain ⟨b1, b2, _⟩ := packMoves_dst hsized hmv
    rw [htot] at b2
    apply hna
    unfold InBytes at hin ⊢; omega
  · intro i x hx k hk0 hk
    have hg := packMoves_get (sz cfg) (repeated (typeMap t) e n inbuf) (outbuf + pos) i
    rw [hx] at hg
    exact runMoves_bytes h3 (packMoves_ordered hsized (by rw [htot]; exact hap)) _
      (List.mem_of_getElem? hg) k hk0 (by simp only []; omega)

/-- What a successful unpack wrote. -/
theorem Unpack_contents {cfg : Cfg} (hc : cfg.Ok) {t : Typestruct} {e s : Int} {n : Nat}
    {inbuf insize outbuf pos pos' : Int} {m m' : Mem}
    (ha : PackArgs cfg t e s n outbuf inbuf pos insize)
    (hdis : ElemsDisjoint (sz cfg) (elems t e n outbuf))
    (hap : ∀ x ∈ elems t e n outbuf, Apart x.1 (sz cfg x.2) (inbuf + pos) (n * s))
    (h : Unpack cfg m inbuf insize pos outbuf n t = .ok (m', pos')) :
    (∀ a, (∀ x ∈ elems t e n outbuf, ¬ InBytes a x.1 (sz cfg x.2)) → m' a = m a) ∧
    (∀ (i : Nat) (x : Entry), (elems t e n outbuf)[i]? = some x → ∀ k, 0 ≤ k → k < sz cfg x.2 →
      m' (x.1 + k) = m (inbuf + pos + packedAt (sz cfg) (elems t e n outbuf) i + k)) := by
  have hmach := ha.machine
  have hsized := elems_sized hc ha.desc e n outbuf
  have htot := total_elems ha.desc ha.bytes e n outbuf
  unfold Unpack at h
  unfold elems at hmach hsized htot hap hdis ⊢
  rw [Int.toNat_natCast] at hmach hsized htot hap hdis ⊢
  rw [ha.ext, Res.ok_bind, Int.toNat_natCast, unpackLoop_eq' ha.desc n hmach] at h
  obtain ⟨_, _, h3⟩ := unpackList_inv hsized h ha.lo (by rw [htot]; exact ha.hi.1)
  constructor
  · intro a hna
    apply runMoves_frame h3
    intro mv hmv hin
    obtain ⟨_, _, x, hx, b1, b2⟩ := unpackMoves_src hsized hmv
    apply hna x hx
    unfold InBytes at hin ⊢
    rw [b1, b2] at hin; exact hin
  · intro i x hx k hk0 hk
    have hg := unpackMoves_get (sz cfg) (repeated (typeMap t) e n outbuf) (inbuf + pos) i
    rw [hx] at hg
    exact runMoves_bytes h3 (unpackMoves_ordered hsized hdis (by rw [htot]; exact hap)) _
      (List.mem_of_getElem? hg) k hk0 (by simp only []; omega)

theorem packedAt_elems (cfg : Cfg) (t : Typestruct) (e : Int) (n : Nat) (b1 b2 : Int) (i : Nat) :
    packedAt (sz cfg) (elems t e n b1) i = packedAt (sz cfg) (elems t e n b2) i := by
  unfold packedAt total
  rw [List.map_take, List.map_take]
  congr 2
  unfold elems repeated shift
  rw [List.map_flatMap, List.map_flatMap]
  simp only [List.map_map, Function.comp_def]

theorem elems_shift {t : Typestruct} {e : Int} {n : Nat} {b1 b2 : Int} {i : Nat} {x : Entry}
    (h : (elems t e n b1)[i]? = some x) : (elems t e n b2)[i]? = some (x.1 - b1 + b2, x.2) := by
  unfold elems at h ⊢
  have hi := (List.getElem?_eq_some_iff.1 h).1
  rw [repeated_length] at hi
  obtain ⟨hk, h1⟩ := repeated_get (typeMap t) e (n : Int).toNat b1 i hi
  obtain ⟨_, h2⟩ := repeated_get (typeMap t) e (n : Int).toNat b2 i hi
  rw [h1] at h
  rw [h2, ← Option.some.inj h]
  congr 2
  dsimp only
  omega

/-- C33: pack `n` elements from `inbuf` at `pos`, carry the packed bytes anywhere (memory `m1`, buffer
`inbuf2`, position `pos2`), unpack them with the same count and type into `target`: every described
byte of the target equals the corresponding byte of the original buffer, all other bytes of `m1` are
unchanged, and both positions advanced by the same amount. -/
theorem C33_round_trip {cfg : Cfg} (hc : cfg.Ok) {t : Typestruct} {e s : Int} {n : Nat}
    {inbuf outbuf outsize pos pos' inbuf2 insize2 pos2 pos2' target : Int} {m m' m1 m2 : Mem}
    (ha : PackArgs cfg t e s n inbuf outbuf pos outsize)
    (hap : ∀ x ∈ elems t e n inbuf, Apart x.1 (sz cfg x.2) (outbuf + pos) (n * s))
    (h : Pack cfg m inbuf n t outbuf outsize pos = .ok (m', pos'))
    (hcarry : ∀ k, 0 ≤ k → k < n * s → m1 (inbuf2 + pos2 + k) = m' (outbuf + pos + k))
    (ha2 : PackArgs cfg t e s n target inbuf2 pos2 insize2)
    (hdis : ElemsDisjoint (sz cfg) (elems t e n target))
    (hap2 : ∀ x ∈ elems t e n target, Apart x.1 (sz cfg x.2) (inbuf2 + pos2) (n * s))
    (h2 : Unpack cfg m1 inbuf2 insize2 pos2 target n t = .ok (m2, pos2')) :
    (∀ (i : Nat) (x : Entry), (elems t e n inbuf)[i]? = some x → ∀ k, 0 ≤ k → k < sz cfg x.2 →
      m2 (x.1 - inbuf + target + k) = m (x.1 + k)) ∧
    (∀ a, (∀ x ∈ elems t e n target, ¬ InBytes a x.1 (sz cfg x.2)) → m2 a = m1 a) ∧
    pos2' - pos2 = pos' - pos := by
  obtain ⟨_, hp⟩ := Pack_contents hc ha hap h
  obtain ⟨hu1, hu2⟩ := Unpack_contents hc ha2 hdis hap2 h2
  refine ⟨?_, hu1, ?_⟩
  · intro i x hx k hk0 hk
    have hx2 := elems_shift (b2 := target) hx
    have h3 := hu2 i _ hx2 k hk0 hk
    dsimp only at h3
    rw [h3, Int.add_assoc (inbuf2 + pos2), hcarry, packedAt_elems cfg t e n target inbuf, ← Int.add_assoc,
      hp i x hx k hk0 hk]
    · have hsized := elems_sized hc ha2.desc e n target
      have : 0 ≤ packedAt (sz cfg) (elems t e n target) i :=
        total_nonneg fun y hy => hsized y (List.mem_of_mem_take hy)
      omega
    · have hsized := elems_sized hc ha2.desc e n target
      have htot := total_elems ha2.desc ha2.bytes e n target
      have hi := (List.getElem?_eq_some_iff.1 hx2).1
      have h5 : total (sz cfg) (elems t e n target)
          = packedAt (sz cfg) (elems t e n target) i + total (sz cfg) ((elems t e n target).drop i) := by
        unfold packedAt total
        rw [← List.sum_append, ← List.map_append, List.take_append_drop]
      rw [List.drop_eq_getElem_cons hi, total_cons] at h5
      have h6 : (elems t e n target)[i] = (x.1 - inbuf + target, x.2) := by
        have := List.getElem?_eq_getElem hi
        rw [hx2] at this
        exact (Option.some.inj this).symm
      rw [h6] at h5
      have h7 : 0 ≤ total (sz cfg) ((elems t e n target).drop (i + 1)) :=
        total_nonneg fun y hy => hsized y (List.mem_of_mem_drop hy)
      dsimp only at h5
      omega
  · have := (C34_pack_position hc ha h).1
    have := (C34_unpack_position hc ha2 h2).1
    omega

/-! ## Non-trivial instances -/

/-- vector(2,1,2) of short-int pairs: elements at 0,4 and 16,20. -/
def exVec : Typestruct :=
  ⟨4, 24, 0, 1, 0, 0, [⟨0, 1⟩, ⟨4, 2⟩, ⟨16, 1⟩, ⟨20, 2⟩, ⟨0, 0⟩]⟩

example : ∃ t, Type_vector {} ⟨0, 0, fun _ => ⟨0, 0⟩⟩ 2 1 2 (static2 8 1 4 2) = .ok t ∧
    exVec = { t with committed := 1 } := ⟨{ exVec with committed := 0 }, by decide, by decide⟩

theorem exVec_desc : DataDesc {} exVec := by
  refine ⟨by constructor <;> decide, ?_⟩
  intro x hx
  simp [typeMap, exVec] at hx
  rcases hx with rfl | rfl | rfl | rfl
  · exact ⟨2, rfl⟩
  · exact ⟨4, rfl⟩
  · exact ⟨2, rfl⟩
  · exact ⟨4, rfl⟩

theorem pairDesc : DataDesc {} (static2 8 1 4 2) := by
  refine ⟨by constructor <;> decide, ?_⟩
  intro x hx
  simp [typeMap, static2] at hx
  rcases hx with rfl | rfl
  · exact ⟨2, rfl⟩
  · exact ⟨4, rfl⟩

instance (a n b k : Int) : Decidable (Apart a n b k) := by unfold Apart; exact inferInstance
instance (a b n : Int) : Decidable (InBytes a b n) := by unfold InBytes; exact inferInstance
instance (b : Int) (es : List Entry) : Decidable (OffsetsFit b es) := by unfold OffsetsFit; exact inferInstance
instance (es : List Entry) : Decidable (Machine es) := by unfold Machine; exact inferInstance
instance (f : Int → Int) (es : List Entry) : Decidable (ElemsDisjoint f es) := by
  unfold ElemsDisjoint; exact inferInstance
instance (f : Int → Int) (es fs : List Entry) : Decidable (ElemsApart f es fs) := by
  unfold ElemsApart; exact inferInstance

/-- Two contiguous pairs received into one strided element: a layout-changing transfer. -/
theorem exTransfer : Transfer {} 1000 2 (static2 8 1 4 2) 8 2000 1 exVec 24 where
  srcDesc := pairDesc
  dstDesc := exVec_desc
  srcExt := by decide
  dstExt := by decide
  fit := by constructor <;> decide
  srcCommitted := by decide
  dstCommitted := by decide
  srcCount := by decide
  enough := by decide
  srcReach := by decide
  dstReach := by decide
  kinds := by decide
  disjoint := by decide
  apart := by decide

example : ∃ m', Pcopy_data2 {} (fun _ => some 1) 1000 2 (static2 8 1 4 2) 2000 1 exVec = .ok m' :=
  C32_succeeds cfg_default_ok exTransfer (fun _ _ _ _ => rfl) (fun _ _ _ _ => rfl)

/-- the last element of the destination is at 2020, its source at 1012 -/
example {m m' : Mem} (h : Pcopy_data2 {} m 1000 2 (static2 8 1 4 2) 2000 1 exVec = .ok m') :
    m' 2023 = m 1015 ∧ m' 2010 = m 2010 := by
  constructor
  · obtain ⟨s, h1, h2⟩ := C32_bytes cfg_default_ok exTransfer h 3 (2020, 2) (by decide)
    have h3 : (elems (static2 8 1 4 2) 8 2 1000)[3]? = some (1012, 2) := by decide
    rw [h3] at h1
    rw [← Option.some.inj h1] at h2
    exact h2 3 (by decide) (by decide)
  · exact C31_frame_partial (de := 24) exVec_desc.wf (by decide) (by decide) h 2010 (by decide)

example (m : Mem) : Pcopy_data2 {} m 1000 1 (static2 8 1 4 2) 2000 1 exVec = .exit 1 :=
  C23_over_receive_copy m 1000 1 2000 1 _ _ pairDesc.wf exVec_desc.wf (by constructor <;> decide)
    (by decide) (by decide) 8 24 (by decide)

theorem exPack (buf packed pos size : Int) (hm : Machine (elems exVec 24 2 buf)) (h0 : 0 ≤ packed + pos)
    (h1 : packed + pos + 24 ≤ 18446744073709551616) (h2 : packed + size ≤ 18446744073709551616) :
    PackArgs {} exVec 24 12 2 buf packed pos size :=
  ⟨exVec_desc, by decide, by decide, hm, h0, h1, h2⟩

example : ∃ m' pos', Pack {} (fun _ => some 1) 1000 (2 : Nat) exVec 5000 40 16 = .ok (m', pos') := by
  have := C34_pack_succeeds_iff cfg_default_ok (m := fun _ => some 1)
    (exPack 1000 5000 16 40 (by decide) (by decide) (by decide) (by decide)) (by decide)
    (fun _ _ _ _ => rfl) (fun _ _ _ => rfl) (by decide)
  rw [if_pos (by decide)] at this
  exact this

example : Pack {} (fun _ => some 1) 1000 (2 : Nat) exVec 5000 39 16 = .exit 1 := by
  have := C34_pack_succeeds_iff cfg_default_ok (m := fun _ => some 1)
    (exPack 1000 5000 16 39 (by decide) (by decide) (by decide) (by decide)) (by decide)
    (fun _ _ _ _ => rfl) (fun _ _ _ => rfl) (by decide)
  rw [if_neg (by decide)] at this
  exact this

example {m m' m2 : Mem} {pos' pos2' : Int}
    (h : Pack {} m 1000 (2 : Nat) exVec 5000 40 16 = .ok (m', pos'))
    (h2 : Unpack {} m' 5000 40 16 2000 (2 : Nat) exVec = .ok (m2, pos2')) :
    m2 (2044 + 1) = m (1044 + 1) :=
  (C33_round_trip cfg_default_ok (exPack 1000 5000 16 40 (by decide) (by decide) (by decide) (by decide))
    (by decide) h (fun _ _ _ => rfl)
    (exPack 2000 5000 16 40 (by decide) (by decide) (by decide) (by decide)) (by decide) (by decide) h2).1
    7 (1044, 2) (by decide) 1 (by decide) (by decide)

end MpiSerial
