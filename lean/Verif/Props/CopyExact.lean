import Verif.Props.Copy

set_option linter.unusedSimpArgs false
set_option autoImplicit false

/-!
# C31, C32 without a limit on offsets

copy.c:46 keeps offsets in an `int`.  Here is what a typed copy does with any offsets: the element at
address `a` of a buffer `buf` is taken to be at `landing buf a`.
-/

namespace MpiSerial
open Spec

/-- The address within 2 GiB of `buf` whose distance from `buf` agrees with that of `a` in the low 32 bits
(addresses wrap modulo 2^64). -/
def landing (buf a : Int) : Int := (buf + ((a - buf + 2147483648) % 4294967296 - 2147483648)) % 18446744073709551616

/-- The elements where the code takes them to be. -/
def landed (buf : Int) (es : List Entry) : List Entry := es.map fun x => (landing buf x.1, x.2)

theorem padd_landing (buf a : Int) : padd buf (s32 (a - buf)) = landing buf a := by
  unfold padd s32 landing
  congr 1

/-- C31: an element is found where it is exactly if its offset is an `int`, up to a multiple of 2^64. -/
theorem C31_landing {buf a : Int} (hb : 0 ≤ buf ∧ buf < 18446744073709551616) (ha : 0 ≤ a ∧ a < 18446744073709551616) :
    landing buf a = a ↔ (-2147483648 ≤ a - buf ∧ a - buf ≤ 2147483647) ∨
      18446744073709551616 - 2147483648 ≤ a - buf ∨ a - buf ≤ 2147483647 - 18446744073709551616 := by
  unfold landing
  omega

theorem landed_length (buf : Int) (es : List Entry) : (landed buf es).length = es.length := by
  unfold landed; rw [List.length_map]

theorem copyLoop_frame_exact {cfg : Cfg} {st dt : Typestruct} (hd : dt.WF) {sext de : Int} {dc : Nat} {source dest : Int}
    {D : List Entry} (hD : D = repeated (typeMap dt) de dc dest) (n i : Nat) (hn : n + i = D.length) (m m' : Mem)
    (h : copyLoop cfg source st sext dest dt (u64 de) n i m = .ok m') (a : Int)
    (ha : ∀ x ∈ landed dest D, ¬ InBytes a x.1 (sz cfg x.2)) : m' a = m a := by
  induction n generalizing i m with
  | zero => unfold copyLoop at h; cases h; rfl
  | succ n ih =>
    have hiD : i < D.length := by omega
    have hDl : D.length = dc * (typeMap dt).length := by rw [hD, repeated_length]
    obtain ⟨dp, hdp1, hdp2, hdo⟩ := entryOffset_eq hd (e := de) (i := i) (n := dc) (by omega) dest
      (x := D[i]) (by rw [← hD]; exact List.getElem?_eq_getElem hiD)
    unfold copyLoop at h
    obtain ⟨so, hso, h⟩ := Res.bind_eq_ok.1 h
    rw [hdo, Res.ok_bind] at h
    obtain ⟨sp, hsp, h⟩ := Res.bind_eq_ok.1 h
    rw [hdp1, Res.ok_bind] at h
    split at h
    · cases h
    · obtain ⟨len, hlen, h⟩ := Res.bind_eq_ok.1 h
      obtain ⟨m1, h1, h⟩ := Res.bind_eq_ok.1 h
      rw [ih (i + 1) (by omega) m1 h]
      apply (memcpy_inv h1).2.1
      rw [padd_landing]
      intro hin
      apply ha _ (List.mem_map.2 ⟨D[i], List.getElem_mem hiD, rfl⟩)
      have hl := (hasLen_of_ok hlen).2
      rw [hdp2] at hl
      unfold InBytes at hin ⊢
      dsimp only
      rw [show sz cfg D[i].2 = len from hl]
      omega

/-- C31, for every layout: a typed copy modifies no byte outside the places where the destination elements
land. -/
theorem C31_frame_exact {cfg : Cfg} {m m' : Mem} {source sc dest dc : Int} {st dt : Typestruct}
    {de : Int} (hd : dt.WF) (hde : Type_extent cfg dt = .ok (u64 de))
    (h : Pcopy_data2 cfg m source sc st dest dc dt = .ok m') (a : Int)
    (ha : ∀ x ∈ landed dest (elems dt de dc dest), ¬ InBytes a x.1 (sz cfg x.2)) : m' a = m a := by
  unfold Pcopy_data2 at h
  split at h
  · cases h
  · obtain ⟨b, hb, h⟩ := Res.bind_eq_ok.1 h
    obtain ⟨c, hc, h⟩ := Res.bind_eq_ok.1 h
    obtain ⟨_, rfl⟩ := ck32_eq_ok.1 hc
    split at h
    · cases h
    · obtain ⟨sext, _, h⟩ := Res.bind_eq_ok.1 h
      rw [hde, Res.ok_bind] at h
      exact copyLoop_frame_exact hd (D := elems dt de dc dest) rfl _ 0
        (by rw [elems_length hd]; omega) m m' h a ha

theorem copyLoop_moves_exact {cfg : Cfg} {st dt : Typestruct} (hs : DataDesc cfg st) (hd : DataDesc cfg dt)
    {se de : Int} {sc dc : Nat} {source dest : Int}
    {S D : List Entry} (hS : S = repeated (typeMap st) se sc source)
    (hD : D = repeated (typeMap dt) de dc dest) (hle : D.length ≤ S.length)
    (htc : cfg.typeChecking = true → ∀ x ∈ D.zip S, x.2.2 = x.1.2) (n i : Nat) (hn : n + i = D.length)
    (m : Mem) :
    copyLoop cfg source st (u64 se) dest dt (u64 de) n i m
      = runMoves m ((moves (sz cfg) (landed dest D) (landed source S)).drop i) := by
  induction n generalizing i m with
  | zero =>
    have : (moves (sz cfg) (landed dest D) (landed source S)).length ≤ i := by
      unfold moves; rw [List.length_map, List.length_zip, landed_length]; omega
    rw [List.drop_eq_nil_of_le this, runMoves_nil]; rfl
  | succ n ih =>
    have hiD : i < D.length := by omega
    have hiS : i < S.length := by omega
    have hDl : D.length = dc * (typeMap dt).length := by rw [hD, repeated_length]
    have hSl : S.length = sc * (typeMap st).length := by rw [hS, repeated_length]
    obtain ⟨sp, hsp1, hsp2, hso⟩ := entryOffset_eq hs.wf (e := se) (i := i) (n := sc) (by omega) source
      (x := S[i]) (by rw [← hS]; exact List.getElem?_eq_getElem hiS)
    obtain ⟨dp, hdp1, hdp2, hdo⟩ := entryOffset_eq hd.wf (e := de) (i := i) (n := dc) (by omega) dest
      (x := D[i]) (by rw [← hD]; exact List.getElem?_eq_getElem hiD)
    have hz : i < (D.zip S).length := by rw [List.length_zip]; omega
    have hzi : (D.zip S)[i] = (D[i], S[i]) := List.getElem_zip
    have hm : (D[i], S[i]) ∈ D.zip S := hzi ▸ List.getElem_mem hz
    have hlenD : MpiSerial.hasLen cfg D[i].2 := by
      obtain ⟨hk, hg⟩ := repeated_get (typeMap dt) de dc dest i (by omega)
      have : D[i]? = some D[i] := List.getElem?_eq_getElem hiD
      rw [← hD, this] at hg
      have hg := Option.some.inj hg
      rw [hg]
      exact hd.hasLenMap (x := (typeMap dt)[i % (typeMap dt).length]) (List.getElem_mem hk)
    have hmv : (moves (sz cfg) (landed dest D) (landed source S)).drop i
        = ⟨landing dest D[i].1, landing source S[i].1, (sz cfg D[i].2).toNat⟩
          :: (moves (sz cfg) (landed dest D) (landed source S)).drop (i + 1) := by
      have hl : i < (moves (sz cfg) (landed dest D) (landed source S)).length := by
        unfold moves; rw [List.length_map, List.length_zip, landed_length, landed_length]; omega
      rw [List.drop_eq_getElem_cons hl]
      congr 1
      simp only [moves, landed, List.getElem_map, List.getElem_zip]
    rw [hmv, runMoves_cons]
    unfold copyLoop
    rw [hso, Res.ok_bind, hdo, Res.ok_bind, hsp1, Res.ok_bind, hdp1, Res.ok_bind, if_neg, hdp2, hlenD,
      Res.ok_bind, padd_landing, padd_landing]
    · congr 1
      funext m1
      exact ih (i + 1) (by omega) m1
    · rintro ⟨h1, h2⟩
      apply h2
      rw [hsp2, hdp2]
      exact htc h1 _ hm

/-- `Transfer` without the limit on offsets: nothing overlaps *where the code takes the elements to be*. -/
structure TransferAt (cfg : Cfg) (source sc : Int) (st : Typestruct) (se : Int)
    (dest dc : Int) (dt : Typestruct) (de : Int) : Prop where
  srcDesc : DataDesc cfg st
  dstDesc : DataDesc cfg dt
  srcExt : Type_extent cfg st = .ok (u64 se)
  dstExt : Type_extent cfg dt = .ok (u64 de)
  fit : CountsFit st dt sc dc
  srcCommitted : st.committed ≠ 0
  dstCommitted : dt.committed ≠ 0
  srcCount : 0 ≤ sc
  enough : (elems dt de dc dest).length ≤ (elems st se sc source).length
  kinds : ∀ x ∈ (elems dt de dc dest).zip (elems st se sc source),
    sz cfg x.2.2 = sz cfg x.1.2 ∧ (cfg.typeChecking = true → x.2.2 = x.1.2)
  disjoint : ElemsDisjoint (sz cfg) (landed dest (elems dt de dc dest))
  apart : ElemsApart (sz cfg) (landed dest (elems dt de dc dest))
    ((landed source (elems st se sc source)).take (elems dt de dc dest).length)

theorem TransferAt.moves {cfg : Cfg} {source sc : Int} {st : Typestruct} {se dest dc : Int}
    {dt : Typestruct} {de : Int} (h : TransferAt cfg source sc st se dest dc dt de) (m : Mem) :
    Pcopy_data2 cfg m source sc st dest dc dt
      = runMoves m (moves (sz cfg) (landed dest (elems dt de dc dest)) (landed source (elems st se sc source))) := by
  have hle := h.enough
  rw [elems_length h.srcDesc.wf, elems_length h.dstDesc.wf] at hle
  have hsn : 0 ≤ st.count * sc := Int.mul_nonneg h.srcDesc.wf.nonneg h.srcCount
  unfold Pcopy_data2
  rw [if_neg (fun hh => hh.elim h.srcCommitted h.dstCommitted), ck32_ok h.fit.src.1 h.fit.src.2, Res.ok_bind,
    ck32_ok h.fit.dst.1 h.fit.dst.2, Res.ok_bind, if_neg (by omega), h.srcExt, Res.ok_bind, h.dstExt, Res.ok_bind,
    copyLoop_moves_exact h.srcDesc h.dstDesc (S := elems st se sc source) (D := elems dt de dc dest) rfl rfl h.enough
      (fun htc x hx => (h.kinds x hx).2 htc) _ 0 (by rw [elems_length h.dstDesc.wf]; omega), List.drop_zero]

/-- C32, for every layout: the bytes where the i-th destination element lands are the bytes where the i-th
source element lands, as they were before. -/
theorem C32_bytes_exact {cfg : Cfg} (hc : cfg.Ok) {source sc : Int} {st : Typestruct} {se dest dc : Int}
    {dt : Typestruct} {de : Int} (h : TransferAt cfg source sc st se dest dc dt de) {m m' : Mem}
    (hok : Pcopy_data2 cfg m source sc st dest dc dt = .ok m') :
    ∀ (i : Nat) (d : Entry), (elems dt de dc dest)[i]? = some d →
      ∃ s : Entry, (elems st se sc source)[i]? = some s ∧
        ∀ k, 0 ≤ k → k < sz cfg d.2 → m' (landing dest d.1 + k) = m (landing source s.1 + k) := by
  intro i d hd
  have hi : i < (elems dt de dc dest).length := (List.getElem?_eq_some_iff.1 hd).1
  have his : i < (elems st se sc source).length := Nat.lt_of_lt_of_le hi h.enough
  refine ⟨(elems st se sc source)[i], List.getElem?_eq_getElem his, ?_⟩
  intro k hk0 hk
  rw [h.moves] at hok
  have hg := moves_get (f := sz cfg) (D := landed dest (elems dt de dc dest)) (S := landed source (elems st se sc source))
    (i := i) (d := (landing dest d.1, d.2)) (s := (landing source (elems st se sc source)[i].1, (elems st se sc source)[i].2))
    (by unfold landed; rw [List.getElem?_map, hd]; rfl)
    (by unfold landed; rw [List.getElem?_map, List.getElem?_eq_getElem his]; rfl)
  refine runMoves_bytes hok ?_ _ (List.mem_of_getElem? hg) k hk0 (by simp only []; omega)
  have hsized : Sized (sz cfg) (landed dest (elems dt de dc dest)) := by
    intro x hx
    obtain ⟨y, hy, rfl⟩ := List.mem_map.1 hx
    exact elems_sized hc h.dstDesc de dc dest y hy
  have hkinds : ∀ x ∈ (landed dest (elems dt de dc dest)).zip (landed source (elems st se sc source)),
      sz cfg x.2.2 = sz cfg x.1.2 := by
    intro x hx
    unfold landed at hx
    rw [List.zip_map] at hx
    obtain ⟨y, hy, rfl⟩ := List.mem_map.1 hx
    exact (h.kinds y hy).1
  unfold MpiSerial.moves
  rw [List.pairwise_map]
  refine (zip_pairwise h.disjoint).imp_of_mem ?_
  intro x y hx hy hxy
  have h1 := hsized _ (zip_mem_take hx).1
  have h2 := hsized _ (zip_mem_take hy).1
  have h5 := (zip_mem_take hy).2
  rw [landed_length] at h5
  have h3 := h.apart _ (zip_mem_take hx).1 _ h5
  have h4 := hkinds y hy
  refine ⟨?_, ?_⟩
  · unfold Apart at hxy ⊢; dsimp only; omega
  · unfold Apart at h3 ⊢; dsimp only; omega

/-! ## An instance beyond 2 GiB -/

/-- a byte at 0 and a byte at 2^31 -/
def exFar : Typestruct := ⟨2, 2147483649, 0, 1, 0, 0, [⟨0, 0⟩, ⟨2147483648, 0⟩, ⟨0, 0⟩]⟩

theorem exFar_desc : DataDesc {} exFar := by
  refine ⟨by constructor <;> decide, ?_⟩
  intro x hx
  simp [typeMap, exFar] at hx
  rcases hx with rfl | rfl <;> exact ⟨1, rfl⟩

theorem byteDesc : DataDesc {} (static1 1 0) := by
  refine ⟨by constructor <;> decide, ?_⟩
  intro x hx
  simp [typeMap, static1] at hx
  subst hx
  exact ⟨1, rfl⟩

example : TransferAt {} 1099511627776 2 (static1 1 0) 1 8589934592 1 exFar 2147483649 :=
  ⟨byteDesc, exFar_desc, by decide, by decide, ⟨by decide, by decide⟩, by decide, by decide, by decide, by decide, by decide,
    by decide, by decide⟩

example : landed 8589934592 (elems exFar 2147483649 1 8589934592) = [(8589934592, 0), (6442450944, 0)] := by decide

end MpiSerial
