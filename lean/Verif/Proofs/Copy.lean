import Verif.Model.Copy
import Verif.Spec.Transfer
import Verif.Props.TypesSize

set_option linter.unusedSimpArgs false

/-!
# Sequences of element copies; the loops of copy.c and pack.c as such sequences
-/

namespace MpiSerial
open Spec

/-- Element copies executed in order. -/
def runMoves (m : Mem) (mvs : List Move) : Res Mem :=
  mvs.foldlM (fun m mv => memcpy m mv.dst mv.src mv.len) m

theorem runMoves_nil (m : Mem) : runMoves m [] = .ok m := rfl

theorem runMoves_cons (m : Mem) (mv : Move) (mvs : List Move) :
    runMoves m (mv :: mvs) = (memcpy m mv.dst mv.src mv.len >>= fun m => runMoves m mvs) := by
  unfold runMoves; rw [List.foldlM_cons]

theorem runMoves_append (m : Mem) (a b : List Move) :
    runMoves m (a ++ b) = (runMoves m a >>= fun m => runMoves m b) := by
  unfold runMoves; rw [List.foldlM_append]

/-- What a successful memcpy did. -/
theorem memcpy_inv {m m' : Mem} {d s : Int} {n : Nat} (h : memcpy m d s n = .ok m') :
    (∀ a, InBytes a d n → m' a = m (s + (a - d))) ∧ (∀ a, ¬ InBytes a d n → m' a = m a) ∧
    (∀ a, (m' a).isSome = (m a).isSome) := by
  unfold memcpy at h
  split at h
  · rename_i hn
    cases h; subst hn
    refine ⟨?_, fun _ _ => rfl, fun _ => rfl⟩
    intro a ha; unfold InBytes at ha; omega
  · split at h
    · cases h
    · rename_i hr
      split at h
      · cases h
      · simp only [Res.ok.injEq] at h
        subst h
        have hr := Classical.not_not.1 hr
        refine ⟨fun a ha => if_pos ha, fun a ha => if_neg ha, ?_⟩
        intro a
        dsimp only
        split
        · rename_i ha
          have h1 := hr.1 (a - d).toNat (by omega)
          have h2 := hr.2 (a - d).toNat (by omega)
          rw [show d + ((a - d).toNat : Int) = a by omega] at h1
          rw [show s + ((a - d).toNat : Int) = s + (a - d) by omega] at h2
          rw [h1, h2]
        · rfl

/-- When memcpy succeeds. -/
theorem memcpy_success {m : Mem} {d s : Int} {n : Nat}
    (hd : ∀ a, InBytes a d n → (m a).isSome) (hs : ∀ a, InBytes a s n → (m a).isSome)
    (ha : Apart d n s n) : ∃ m', memcpy m d s n = .ok m' := by
  unfold memcpy
  split
  · exact ⟨_, rfl⟩
  · rw [if_neg, if_neg]
    · exact ⟨_, rfl⟩
    · unfold Apart at ha; omega
    · rw [Classical.not_not]
      exact ⟨fun i hi => hd _ ⟨by omega, by omega⟩, fun i hi => hs _ ⟨by omega, by omega⟩⟩

theorem runMoves_frame {m m' : Mem} {mvs : List Move} (h : runMoves m mvs = .ok m') (a : Int)
    (ha : ∀ mv ∈ mvs, ¬ InBytes a mv.dst mv.len) : m' a = m a := by
  induction mvs generalizing m with
  | nil => rw [runMoves_nil] at h; cases h; rfl
  | cons mv mvs ih =>
    rw [runMoves_cons] at h
    obtain ⟨m1, h1, h2⟩ := Res.bind_eq_ok.1 h
    rw [ih h2 (fun x hx => ha x (List.mem_cons_of_mem _ hx)),
      (memcpy_inv h1).2.1 a (ha mv (List.mem_cons_self ..))]

theorem runMoves_isSome {m m' : Mem} {mvs : List Move} (h : runMoves m mvs = .ok m') (a : Int) :
    (m' a).isSome = (m a).isSome := by
  induction mvs generalizing m with
  | nil => rw [runMoves_nil] at h; cases h; rfl
  | cons mv mvs ih =>
    rw [runMoves_cons] at h
    obtain ⟨m1, h1, h2⟩ := Res.bind_eq_ok.1 h
    rw [ih h2, (memcpy_inv h1).2.2 a]

/-- A write is not disturbed by later moves, a read not by earlier ones. -/
def Ordered (x y : Move) : Prop := Apart x.dst x.len y.dst y.len ∧ Apart x.dst x.len y.src y.len

theorem runMoves_bytes {m m' : Mem} {mvs : List Move} (h : runMoves m mvs = .ok m')
    (hd : mvs.Pairwise Ordered) :
    ∀ mv ∈ mvs, ∀ k : Int, 0 ≤ k → k < mv.len → m' (mv.dst + k) = m (mv.src + k) := by
  induction mvs generalizing m with
  | nil => intro mv hmv; cases hmv
  | cons x mvs ih =>
    rw [runMoves_cons] at h
    obtain ⟨m1, h1, h2⟩ := Res.bind_eq_ok.1 h
    obtain ⟨hx, hd⟩ := List.pairwise_cons.1 hd
    intro mv hmv k hk0 hk
    rcases List.mem_cons.1 hmv with rfl | hmv
    · rw [runMoves_frame h2, (memcpy_inv h1).1 _ ⟨by omega, by omega⟩]
      · congr 1; omega
      · intro y hy ⟨h3, h4⟩
        have := (hx y hy).1
        unfold Apart at this; omega
    · rw [ih h2 hd mv hmv k hk0 hk, (memcpy_inv h1).2.1]
      rintro ⟨h3, h4⟩
      have := (hx mv hmv).2
      unfold Apart at this; omega

theorem runMoves_success {m : Mem} {mvs : List Move}
    (hd : ∀ mv ∈ mvs, ∀ a, InBytes a mv.dst mv.len → (m a).isSome)
    (hs : ∀ mv ∈ mvs, ∀ a, InBytes a mv.src mv.len → (m a).isSome)
    (ha : ∀ mv ∈ mvs, Apart mv.dst mv.len mv.src mv.len) : ∃ m', runMoves m mvs = .ok m' := by
  induction mvs generalizing m with
  | nil => exact ⟨m, rfl⟩
  | cons x mvs ih =>
    obtain ⟨m1, h1⟩ := memcpy_success (hd x (List.mem_cons_self ..)) (hs x (List.mem_cons_self ..))
      (ha x (List.mem_cons_self ..))
    rw [runMoves_cons, h1, Res.ok_bind]
    have hsome := (memcpy_inv h1).2.2
    apply ih
    · intro mv hmv a hm; rw [hsome]; exact hd mv (List.mem_cons_of_mem _ hmv) a hm
    · intro mv hmv a hm; rw [hsome]; exact hs mv (List.mem_cons_of_mem _ hmv) a hm
    · intro mv hmv; exact ha mv (List.mem_cons_of_mem _ hmv)

/-! ## Elements of a typed buffer -/

theorem DataDesc.hasLenMap {cfg : Cfg} {t : Typestruct} (h : DataDesc cfg t) {x : Entry}
    (hx : x ∈ typeMap t) : MpiSerial.hasLen cfg x.2 := by
  obtain ⟨s, hs⟩ := h.lens x hx
  exact (hasLen_of_ok hs).1

theorem shift_length (d : Int) (m : List Entry) : (shift d m).length = m.length := by
  unfold shift; rw [List.length_map]

theorem repeated_length (m : List Entry) (e : Int) (n : Nat) (d : Int) :
    (repeated m e n d).length = n * m.length := by
  induction n with
  | zero => simp [repeated]
  | succ n ih => rw [repeated_succ, List.length_append, ih, shift_length, Nat.succ_mul]

/-- Element `i` is entry `i % k` of copy `i / k`. -/
theorem repeated_get (m : List Entry) (e : Int) (n : Nat) (d : Int) (i : Nat) (hi : i < n * m.length) :
    ∃ h : i % m.length < m.length,
      (repeated m e n d)[i]? = some (m[i % m.length].1 + (d + ((i / m.length : Nat) : Int) * e), m[i % m.length].2) := by
  have hpos : 0 < m.length := by
    rcases Nat.eq_zero_or_pos m.length with h | h
    · rw [h] at hi; omega
    · exact h
  refine ⟨Nat.mod_lt _ hpos, ?_⟩
  induction n with
  | zero => omega
  | succ n ih =>
    rw [repeated_succ]
    by_cases hn : i < n * m.length
    · rw [List.getElem?_append_left (by rw [repeated_length]; exact hn), ih hn]
    · rw [List.getElem?_append_right (by rw [repeated_length]; omega), repeated_length]
      have h1 : i / m.length = n := by
        apply Nat.div_eq_of_lt_le
        · omega
        · rw [Nat.succ_mul] at *; omega
      have h2 : i % m.length = i - n * m.length := by
        have := Nat.div_add_mod i m.length
        rw [h1, Nat.mul_comm] at this; omega
      simp only [h1, h2, shift]
      rw [List.getElem?_map, List.getElem?_eq_getElem (by rw [Nat.succ_mul] at hi; omega)]
      rfl

/-- What the code computes as address of element `i` of a typed buffer is its address, when the
offset is an `int` and the address is a machine address. -/
theorem entryOffset_eq {t : Typestruct} (wf : t.WF) {e : Int} {i n : Nat}
    (hi : i < n * (typeMap t).length) (buf : Int) {x : Entry}
    (hx : (repeated (typeMap t) e n buf)[i]? = some x) :
    ∃ p, t.pair (Int.tmod i t.count) = .ok p ∧ p.type = x.2 ∧
      entryOffset t (u64 e) i = .ok (s32 (x.1 - buf)) := by
  have hlen : ((typeMap t).length : Int) = t.count := by
    have := wf.map_length
    unfold typeMap; rw [List.length_map]; exact this
  have hpos : 0 < (typeMap t).length := by
    rcases Nat.eq_zero_or_pos (typeMap t).length with h | h
    · rw [h] at hi; omega
    · exact h
  obtain ⟨hm, hget⟩ := repeated_get (typeMap t) e n buf i hi
  rw [hget] at hx
  have hx := Option.some.inj hx
  have hk : Int.tmod i t.count = ((i % (typeMap t).length : Nat) : Int) := by
    rw [← hlen]; exact Int.ofNat_tmod _ _
  have hq : Int.tdiv i t.count = ((i / (typeMap t).length : Nat) : Int) := by
    rw [← hlen]; exact Int.ofNat_tdiv _ _
  have hlt : i % (typeMap t).length < t.pairs.length := by
    have := wf.fits
    have : (typeMap t).length ≤ t.pairs.length := by
      unfold typeMap; rw [List.length_map, List.length_take]; omega
    omega
  have hp : t.pair (Int.tmod i t.count) = .ok t.pairs[i % (typeMap t).length] := by
    rw [hk]; exact pair_ok hlt
  have hmp : (typeMap t)[i % (typeMap t).length]
      = (t.pairs[i % (typeMap t).length].disp, t.pairs[i % (typeMap t).length].type) := by
    simp only [typeMap, List.getElem_map, List.getElem_take]
  refine ⟨_, hp, ?_, ?_⟩
  · rw [← hx, hmp]
  · unfold entryOffset
    rw [if_neg (by omega), hp, Res.ok_bind, Res.pure_eq, ← hx, hq, u64_mul_right, u64_add_right, s32_u64]
    congr 2
    rw [hmp]
    dsimp only
    omega

/-- Element addresses reachable by the code's `int` offsets from `buf`, and machine addresses. -/
def OffsetsFit (buf : Int) (es : List Entry) : Prop :=
  ∀ x ∈ es, -2147483648 ≤ x.1 - buf ∧ x.1 - buf ≤ 2147483647 ∧ 0 ≤ x.1 ∧ x.1 < 18446744073709551616

theorem padd_s32 {buf a : Int} (h1 : -2147483648 ≤ a - buf) (h2 : a - buf ≤ 2147483647) (h3 : 0 ≤ a)
    (h4 : a < 18446744073709551616) : padd buf (s32 (a - buf)) = a := by
  unfold padd s32; omega

/-- Element-wise copies prescribed by a transfer of the elements `S` into the elements `D`. -/
def moves (sz : Int → Int) (D S : List Entry) : List Move :=
  (D.zip S).map fun x => ⟨x.1.1, x.2.1, (sz x.1.2).toNat⟩

theorem copyLoop_moves {cfg : Cfg} {st dt : Typestruct} (hs : DataDesc cfg st) (hd : DataDesc cfg dt)
    {se de : Int} {sc dc : Nat} {source dest : Int}
    {S D : List Entry} (hS : S = repeated (typeMap st) se sc source)
    (hD : D = repeated (typeMap dt) de dc dest) (hle : D.length ≤ S.length)
    (hrs : OffsetsFit source (S.take D.length)) (hrd : OffsetsFit dest D)
    (htc : cfg.typeChecking = true → ∀ x ∈ D.zip S, x.2.2 = x.1.2) (n i : Nat) (hn : n + i = D.length)
    (m : Mem) :
    copyLoop cfg source st (u64 se) dest dt (u64 de) n i m
      = runMoves m ((moves (sz cfg) D S).drop i) := by
  induction n generalizing i m with
  | zero =>
    have : (moves (sz cfg) D S).length ≤ i := by
      unfold moves; rw [List.length_map, List.length_zip]; omega
    rw [List.drop_eq_nil_of_le this, runMoves_nil]; rfl
  | succ n ih =>
    have hiD : i < D.length := by omega
    have hiS : i < S.length := by omega
    have hDl : D.length = dc * (typeMap dt).length := by rw [hD, repeated_length]
    have hSl : S.length = sc * (typeMap st).length := by rw [hS, repeated_length]
    obtain ⟨sp, hsp1, hsp2, hso⟩ := entryOffset_eq hs.wf (e := se) (i := i) (n := sc) (by omega) source
      (x := S[i]) (by rw [← hS]; exact List.getElem?_eq_getElem hiS)
    obtain ⟨dp, hdp1, hdp2, hdo⟩ := entryOffset_eq hd.wf (e := de) (i := i) (n := dc) (by omega) dest
      (x := D[i]) (by rw [← hD]; exact List.getElem?_eq_getElem hiD)
    have hz : i < (D.zip S).length := by rw [List.length_zip]; omega
    have hzi : (D.zip S)[i] = (D[i], S[i]) := List.getElem_zip
    have hm : (D[i], S[i]) ∈ D.zip S := hzi ▸ List.getElem_mem hz
    have hlenD : MpiSerial.hasLen cfg D[i].2 := by
      obtain ⟨hk, hg⟩ := repeated_get (typeMap dt) de dc dest i (by omega)
      have : D[i]? = some D[i] := List.getElem?_eq_getElem hiD
      rw [← hD, this] at hg
      have hg := Option.some.inj hg
      rw [hg]
      exact hd.hasLenMap (x := (typeMap dt)[i % (typeMap dt).length]) (List.getElem_mem hk)
    have hrS := hrs S[i] (by
      rw [List.mem_take_iff_getElem]
      exact ⟨i, by omega, rfl⟩)
    have hrD := hrd D[i] (List.getElem_mem hiD)
    have hmv : (moves (sz cfg) D S).drop i
        = ⟨D[i].1, S[i].1, (sz cfg D[i].2).toNat⟩ :: (moves (sz cfg) D S).drop (i + 1) := by
      have hl : i < (moves (sz cfg) D S).length := by unfold moves; rw [List.length_map]; exact hz
      rw [List.drop_eq_getElem_cons hl]
      congr 1
      simp only [moves, List.getElem_map, hzi]
    rw [hmv, runMoves_cons]
    unfold copyLoop
    rw [hso, Res.ok_bind, hdo, Res.ok_bind, hsp1, Res.ok_bind, hdp1, Res.ok_bind, if_neg, hdp2, hlenD,
      Res.ok_bind, padd_s32 hrS.1 hrS.2.1 hrS.2.2.1 hrS.2.2.2,
      padd_s32 hrD.1 hrD.2.1 hrD.2.2.1 hrD.2.2.2]
    · congr 1
      funext m1
      exact ih (i + 1) (by omega) m1
    · rintro ⟨h1, h2⟩
      apply h2
      rw [hsp2, hdp2]
      exact htc h1 _ hm

/-- Frame of the copy loop: no premise on the source. -/
theorem copyLoop_frame {cfg : Cfg} {st dt : Typestruct} (hd : dt.WF)
    {sext de : Int} {dc : Nat} {source dest : Int}
    {D : List Entry} (hD : D = repeated (typeMap dt) de dc dest) (hrd : OffsetsFit dest D)
    (n i : Nat) (hn : n + i = D.length) (m m' : Mem)
    (h : copyLoop cfg source st sext dest dt (u64 de) n i m = .ok m') (a : Int)
    (ha : ∀ x ∈ D, ¬ InBytes a x.1 (sz cfg x.2)) : m' a = m a := by
  induction n generalizing i m with
  | zero => unfold copyLoop at h; cases h; rfl
  | succ n ih =>
    have hiD : i < D.length := by omega
    have hDl : D.length = dc * (typeMap dt).length := by rw [hD, repeated_length]
    obtain ⟨dp, hdp1, hdp2, hdo⟩ := entryOffset_eq hd (e := de) (i := i) (n := dc) (by omega) dest
      (x := D[i]) (by rw [← hD]; exact List.getElem?_eq_getElem hiD)
    have hrD := hrd D[i] (List.getElem_mem hiD)
    unfold copyLoop at h
    obtain ⟨so, hso, h⟩ := Res.bind_eq_ok.1 h
    rw [hdo, Res.ok_bind] at h
    obtain ⟨sp, hsp, h⟩ := Res.bind_eq_ok.1 h
    rw [hdp1, Res.ok_bind] at h
    split at h
    · cases h
    · obtain ⟨len, hlen, h⟩ := Res.bind_eq_ok.1 h
      obtain ⟨m1, h1, h⟩ := Res.bind_eq_ok.1 h
      rw [ih (i + 1) (by omega) m1 h]
      apply (memcpy_inv h1).2.1
      rw [padd_s32 hrD.1 hrD.2.1 hrD.2.2.1 hrD.2.2.2]
      intro hin
      apply ha D[i] (List.getElem_mem hiD)
      have hl := (hasLen_of_ok hlen).2
      rw [hdp2] at hl
      unfold InBytes at hin ⊢
      rw [show sz cfg D[i].2 = len from hl]
      omega

/-! ## pack.c loops over the list of elements -/

/-- `Pack`, on the list of elements of the input buffer. -/
def packList (sz : Int → Int) (outbuf outsize : Int) : List Entry → Mem × Int → Res (Mem × Int)
  | [], s => .ok s
  | x :: xs, (m, position) => do
    let e ← ck32 (position + sz x.2)
    if e > outsize then .exit 1
    else do
      let m ← memcpy m (padd outbuf position) x.1 (sz x.2).toNat
      packList sz outbuf outsize xs (m, e)

theorem packList_append (sz : Int → Int) (outbuf outsize : Int) (xs ys : List Entry) (s : Mem × Int) :
    packList sz outbuf outsize (xs ++ ys) s
      = (packList sz outbuf outsize xs s >>= packList sz outbuf outsize ys) := by
  induction xs generalizing s with
  | nil => rfl
  | cons x xs ih =>
    obtain ⟨m, p⟩ := s
    rw [List.cons_append]
    unfold packList
    rw [bind_assoc]
    congr 1; funext e
    split
    · rfl
    · rw [bind_assoc]
      congr 1; funext m1
      exact ih _

def Machine (es : List Entry) : Prop := ∀ x ∈ es, 0 ≤ x.1 ∧ x.1 < 18446744073709551616

theorem typeMap_drop {t : Typestruct} {j n : Nat} (hj : n + 1 + j = (typeMap t).length) :
    ∃ p, t.pair j = .ok p ∧
      (typeMap t).drop j = (p.disp, p.type) :: (typeMap t).drop (j + 1) := by
  have hlt : j < (typeMap t).length := by omega
  have hlt' : j < t.pairs.length := by
    have := hlt
    unfold typeMap at this
    rw [List.length_map, List.length_take] at this; omega
  refine ⟨_, pair_ok hlt', ?_⟩
  rw [List.drop_eq_getElem_cons hlt]
  congr 1
  simp only [typeMap, List.getElem_map, List.getElem_take]

theorem packEntries_eq {cfg : Cfg} {t : Typestruct} (ht : DataDesc cfg t) {e inbuf outbuf outsize : Int}
    (i n j : Nat) (hj : n + j = (typeMap t).length)
    (hm : Machine (shift (inbuf + i * e) (typeMap t))) (s : Mem × Int) :
    packEntries cfg inbuf t (u64 e) outbuf outsize i n j s
      = packList (sz cfg) outbuf outsize (shift (inbuf + i * e) ((typeMap t).drop j)) s := by
  induction n generalizing j s with
  | zero =>
    rw [List.drop_eq_nil_of_le (by omega)]; rfl
  | succ n ih =>
    obtain ⟨p, hp, hdrop⟩ := typeMap_drop (t := t) (n := n) hj
    have hmem : (p.disp, p.type) ∈ typeMap t := by
      apply List.mem_of_mem_drop (i := j); rw [hdrop]; exact List.mem_cons_self ..
    have hl := ht.hasLenMap hmem
    have hr := hm (p.disp + (inbuf + i * e), p.type) (List.mem_map.2 ⟨_, hmem, rfl⟩)
    dsimp only at hr hl
    obtain ⟨m, pos⟩ := s
    rw [hdrop]
    unfold packEntries
    rw [hp, Res.ok_bind, hl, Res.ok_bind]
    unfold shift
    rw [List.map_cons]
    unfold packList
    congr 1; funext q
    split
    · rfl
    · have : padd (padd inbuf p.disp) (u64 (u64 e * i)) = p.disp + (inbuf + i * e) := by
        rw [u64_mul_left, Int.mul_comm e]
        unfold padd u64; omega
      rw [this]
      congr 1; funext m1
      exact ih (j + 1) (by omega) _

theorem packLoop_eq {cfg : Cfg} {t : Typestruct} (ht : DataDesc cfg t) {e inbuf outbuf outsize : Int}
    (n i : Nat) (hm : Machine (repeated (typeMap t) e (n + i) inbuf)) (s : Mem × Int) :
    packLoop cfg inbuf t (u64 e) outbuf outsize n i s
      = packList (sz cfg) outbuf outsize
          ((List.range' i n).flatMap fun (k : Nat) => shift (inbuf + k * e) (typeMap t)) s := by
  induction n generalizing i s with
  | zero => rfl
  | succ n ih =>
    rw [List.range'_succ, List.flatMap_cons, packList_append]
    unfold packLoop
    have hc : t.count.toNat = (typeMap t).length := by
      have := ht.wf.map_length
      unfold typeMap; rw [List.length_map]; exact (by omega : t.count.toNat = t.map.length)
    rw [packEntries_eq ht i t.count.toNat 0 (by omega), List.drop_zero]
    · congr 1; funext s'
      exact ih (i + 1) (by rw [show n + (i + 1) = n + 1 + i by omega]; exact hm) s'
    · intro x hx
      apply hm x
      unfold repeated
      exact List.mem_flatMap.2 ⟨i, List.mem_range.2 (by omega), hx⟩

theorem packLoop_eq' {cfg : Cfg} {t : Typestruct} (ht : DataDesc cfg t) {e inbuf outbuf outsize : Int}
    (n : Nat) (hm : Machine (repeated (typeMap t) e n inbuf)) (s : Mem × Int) :
    packLoop cfg inbuf t (u64 e) outbuf outsize n 0 s
      = packList (sz cfg) outbuf outsize (repeated (typeMap t) e n inbuf) s := by
  rw [packLoop_eq ht n 0 hm]
  unfold repeated
  rw [List.range_eq_range']

/-- `Unpack`, on the list of elements of the output buffer. -/
def unpackList (sz : Int → Int) (inbuf insize : Int) : List Entry → Mem × Int → Res (Mem × Int)
  | [], s => .ok s
  | x :: xs, (m, position) => do
    let e ← ck32 (position + sz x.2)
    if e > insize then .exit 1
    else do
      let m ← memcpy m x.1 (padd inbuf position) (sz x.2).toNat
      unpackList sz inbuf insize xs (m, e)

theorem unpackList_append (sz : Int → Int) (inbuf insize : Int) (xs ys : List Entry) (s : Mem × Int) :
    unpackList sz inbuf insize (xs ++ ys) s
      = (unpackList sz inbuf insize xs s >>= unpackList sz inbuf insize ys) := by
  induction xs generalizing s with
  | nil => rfl
  | cons x xs ih =>
    obtain ⟨m, p⟩ := s
    rw [List.cons_append]
    unfold unpackList
    rw [bind_assoc]
    congr 1; funext e
    split
    · rfl
    · rw [bind_assoc]
      congr 1; funext m1
      exact ih _

theorem unpackEntries_eq {cfg : Cfg} {t : Typestruct} (ht : DataDesc cfg t) {e inbuf outbuf insize : Int}
    (i n j : Nat) (hj : n + j = (typeMap t).length)
    (hm : Machine (shift (outbuf + i * e) (typeMap t))) (s : Mem × Int) :
    unpackEntries cfg inbuf insize outbuf t (u64 e) i n j s
      = unpackList (sz cfg) inbuf insize (shift (outbuf + i * e) ((typeMap t).drop j)) s := by
  induction n generalizing j s with
  | zero =>
    rw [List.drop_eq_nil_of_le (by omega)]; rfl
  | succ n ih =>
    obtain ⟨p, hp, hdrop⟩ := typeMap_drop (t := t) (n := n) hj
    have hmem : (p.disp, p.type) ∈ typeMap t := by
      apply List.mem_of_mem_drop (i := j); rw [hdrop]; exact List.mem_cons_self ..
    have hl := ht.hasLenMap hmem
    have hr := hm (p.disp + (outbuf + i * e), p.type) (List.mem_map.2 ⟨_, hmem, rfl⟩)
    dsimp only at hr hl
    obtain ⟨m, pos⟩ := s
    rw [hdrop]
    unfold unpackEntries
    rw [hp, Res.ok_bind, hl, Res.ok_bind]
    unfold shift
    rw [List.map_cons]
    unfold unpackList
    congr 1; funext q
    split
    · rfl
    · have : padd (padd outbuf p.disp) (u64 (u64 e * i)) = p.disp + (outbuf + i * e) := by
        rw [u64_mul_left, Int.mul_comm e]
        unfold padd u64; omega
      rw [this]
      congr 1; funext m1
      exact ih (j + 1) (by omega) _

theorem unpackLoop_eq {cfg : Cfg} {t : Typestruct} (ht : DataDesc cfg t) {e inbuf outbuf insize : Int}
    (n i : Nat) (hm : Machine (repeated (typeMap t) e (n + i) outbuf)) (s : Mem × Int) :
    unpackLoop cfg inbuf insize outbuf t (u64 e) n i s
      = unpackList (sz cfg) inbuf insize
          ((List.range' i n).flatMap fun (k : Nat) => shift (outbuf + k * e) (typeMap t)) s := by
  induction n generalizing i s with
  | zero => rfl
  | succ n ih =>
    rw [List.range'_succ, List.flatMap_cons, unpackList_append]
    unfold unpackLoop
    have hc : t.count.toNat = (typeMap t).length := by
      have := ht.wf.map_length
      unfold typeMap; rw [List.length_map]; exact (by omega : t.count.toNat = t.map.length)
    rw [unpackEntries_eq ht i t.count.toNat 0 (by omega), List.drop_zero]
    · congr 1; funext s'
      exact ih (i + 1) (by rw [show n + (i + 1) = n + 1 + i by omega]; exact hm) s'
    · intro x hx
      apply hm x
      unfold repeated
      exact List.mem_flatMap.2 ⟨i, List.mem_range.2 (by omega), hx⟩

theorem unpackLoop_eq' {cfg : Cfg} {t : Typestruct} (ht : DataDesc cfg t) {e inbuf outbuf insize : Int}
    (n : Nat) (hm : Machine (repeated (typeMap t) e n outbuf)) (s : Mem × Int) :
    unpackLoop cfg inbuf insize outbuf t (u64 e) n 0 s
      = unpackList (sz cfg) inbuf insize (repeated (typeMap t) e n outbuf) s := by
  rw [unpackLoop_eq ht n 0 hm]
  unfold repeated
  rw [List.range_eq_range']

/-! ## Pack and unpack as sequences of moves -/

/-- Moves of `Pack`: the elements, to consecutive addresses from `q`. -/
def packMoves (sz : Int → Int) : List Entry → Int → List Move
  | [], _ => []
  | x :: xs, q => ⟨q, x.1, (sz x.2).toNat⟩ :: packMoves sz xs (q + sz x.2)

/-- Moves of `Unpack`: from consecutive addresses from `q`, to the elements. -/
def unpackMoves (sz : Int → Int) : List Entry → Int → List Move
  | [], _ => []
  | x :: xs, q => ⟨x.1, q, (sz x.2).toNat⟩ :: unpackMoves sz xs (q + sz x.2)

/-- Number of bytes of the elements. -/
def total (sz : Int → Int) (es : List Entry) : Int := (es.map fun x => sz x.2).sum

theorem total_cons (sz : Int → Int) (x : Entry) (xs : List Entry) :
    total sz (x :: xs) = sz x.2 + total sz xs := by unfold total; rw [List.map_cons, List.sum_cons]

/-- Every kind occurring has a positive length. -/
def Sized (sz : Int → Int) (es : List Entry) : Prop := ∀ x ∈ es, 1 ≤ sz x.2 ∧ sz x.2 ≤ 128

theorem total_nonneg {sz : Int → Int} {es : List Entry} (h : Sized sz es) : 0 ≤ total sz es :=
  sum_nonneg_of es (fun x => sz x.2) (fun x hx => by have := h x hx; omega)

/-- An invariant-style description of the pack loop: it either completes as the sequence of moves
when everything fits, or exits, or does something else only because of a memcpy. -/
theorem packList_inv {sz : Int → Int} {outbuf outsize : Int} {es : List Entry} (hs : Sized sz es)
    {m m' : Mem} {p p' : Int} (h : packList sz outbuf outsize es (m, p) = .ok (m', p'))
    (h0 : 0 ≤ outbuf + p) (h1 : outbuf + p + total sz es ≤ 18446744073709551616) :
    p' = p + total sz es ∧ (es ≠ [] → p' ≤ outsize) ∧
      runMoves m (packMoves sz es (outbuf + p)) = .ok m' := by
  induction es generalizing m p with
  | nil => cases h; exact ⟨by simp [total], by simp, rfl⟩
  | cons x xs ih =>
    have hx := hs x (List.mem_cons_self ..)
    have hs' : Sized sz xs := fun y hy => hs y (List.mem_cons_of_mem _ hy)
    have ht := total_nonneg hs'
    rw [total_cons] at h1 ⊢
    unfold packList at h
    obtain ⟨e, he, h⟩ := Res.bind_eq_ok.1 h
    obtain ⟨hr, he⟩ := ck32_eq_ok.1 he
    split at h
    · cases h
    · rename_i hle
      obtain ⟨m1, hm1, h⟩ := Res.bind_eq_ok.1 h
      subst he
      obtain ⟨a, b, c⟩ := ih hs' h (by omega) (by omega)
      refine ⟨by omega, ?_, ?_⟩
      · intro _
        cases xs with
        | nil => rw [a]; simp [total]; omega
        | cons y ys => exact b (by simp)
      · unfold packMoves
        rw [runMoves_cons]
        dsimp only
        have hpad : padd outbuf p = outbuf + p := by unfold padd; omega
        rw [hpad] at hm1
        rw [hm1, Res.ok_bind, Int.add_assoc]; exact c

theorem unpackList_inv {sz : Int → Int} {inbuf insize : Int} {es : List Entry} (hs : Sized sz es)
    {m m' : Mem} {p p' : Int} (h : unpackList sz inbuf insize es (m, p) = .ok (m', p'))
    (h0 : 0 ≤ inbuf + p) (h1 : inbuf + p + total sz es ≤ 18446744073709551616) :
    p' = p + total sz es ∧ (es ≠ [] → p' ≤ insize) ∧
      runMoves m (unpackMoves sz es (inbuf + p)) = .ok m' := by
  induction es generalizing m p with
  | nil => cases h; exact ⟨by simp [total], by simp, rfl⟩
  | cons x xs ih =>
    have hx := hs x (List.mem_cons_self ..)
    have hs' : Sized sz xs := fun y hy => hs y (List.mem_cons_of_mem _ hy)
    have ht := total_nonneg hs'
    rw [total_cons] at h1 ⊢
    unfold unpackList at h
    obtain ⟨e, he, h⟩ := Res.bind_eq_ok.1 h
    obtain ⟨hr, he⟩ := ck32_eq_ok.1 he
    split at h
    · cases h
    · rename_i hle
      obtain ⟨m1, hm1, h⟩ := Res.bind_eq_ok.1 h
      subst he
      obtain ⟨a, b, c⟩ := ih hs' h (by omega) (by omega)
      refine ⟨by omega, ?_, ?_⟩
      · intro _
        cases xs with
        | nil => rw [a]; simp [total]; omega
        | cons y ys => exact b (by simp)
      · unfold unpackMoves
        rw [runMoves_cons]
        dsimp only
        have hpad : padd inbuf p = inbuf + p := by unfold padd; omega
        rw [hpad] at hm1
        rw [hm1, Res.ok_bind, Int.add_assoc]; exact c

/-- Pack completes when everything fits and exits otherwise; only packed bytes in
`[position, outsize)` and the elements need be accessible. -/
theorem packList_run {sz : Int → Int} {outbuf outsize : Int} {es : List Entry} (hs : Sized sz es)
    {m : Mem} {p : Int} (h0 : 0 ≤ outbuf + p) (h1 : outbuf + outsize ≤ 18446744073709551616)
    (hp : -2147483648 ≤ p) (hsz : outsize ≤ 2147483647 - 128) (hpo : p ≤ outsize)
    (hacc : ∀ x ∈ es, ∀ a, InBytes a x.1 (sz x.2) → (m a).isSome)
    (hout : ∀ a, outbuf + p ≤ a → a < outbuf + outsize → (m a).isSome)
    (hap : ∀ x ∈ es, Apart x.1 (sz x.2) (outbuf + p) (outsize - p)) :
    if p + total sz es ≤ outsize then ∃ r, packList sz outbuf outsize es (m, p) = .ok r
    else packList sz outbuf outsize es (m, p) = .exit 1 := by
  induction es generalizing m p with
  | nil => rw [if_pos (by simp [total]; exact hpo)]; exact ⟨_, rfl⟩
  | cons x xs ih =>
    have hx := hs x (List.mem_cons_self ..)
    have hs' : Sized sz xs := fun y hy => hs y (List.mem_cons_of_mem _ hy)
    have ht := total_nonneg hs'
    have hax := hap x (List.mem_cons_self ..)
    rw [total_cons]
    unfold packList
    rw [ck32_ok (by omega) (by omega), Res.ok_bind]
    by_cases hfit : p + sz x.2 ≤ outsize
    · rw [if_neg (show ¬ p + sz x.2 > outsize by omega)]
      have hpad : padd outbuf p = outbuf + p := by unfold padd; omega
      rw [hpad]
      obtain ⟨m1, hm1⟩ := memcpy_success (m := m) (d := outbuf + p) (s := x.1) (n := (sz x.2).toNat)
        (by intro a ha; unfold InBytes at ha; exact hout a (by omega) (by omega))
        (by intro a ha; unfold InBytes at ha; exact hacc x (List.mem_cons_self ..) a ⟨by omega, by omega⟩)
        (by unfold Apart at hax ⊢; omega)
      rw [hm1, Res.ok_bind]
      have hsome := (memcpy_inv hm1).2.2
      have := ih hs' (m := m1) (p := p + sz x.2) (by omega) (by omega) hfit
        (by intro y hy a ha; rw [hsome]; exact hacc y (List.mem_cons_of_mem _ hy) a ha)
        (by intro a ha hb; rw [hsome]; exact hout a (by omega) hb)
        (by
          intro y hy
          have := hap y (List.mem_cons_of_mem _ hy)
          unfold Apart at this ⊢; omega)
      rw [Int.add_assoc] at this
      exact this
    · rw [if_pos (show p + sz x.2 > outsize by omega),
        if_neg (show ¬ p + (sz x.2 + total sz xs) ≤ outsize by omega)]

theorem unpackList_run {sz : Int → Int} {inbuf insize : Int} {es : List Entry} (hs : Sized sz es)
    {m : Mem} {p : Int} (h0 : 0 ≤ inbuf + p) (h1 : inbuf + insize ≤ 18446744073709551616)
    (hp : -2147483648 ≤ p) (hsz : insize ≤ 2147483647 - 128) (hpo : p ≤ insize)
    (hacc : ∀ x ∈ es, ∀ a, InBytes a x.1 (sz x.2) → (m a).isSome)
    (hin : ∀ a, inbuf + p ≤ a → a < inbuf + insize → (m a).isSome)
    (hap : ∀ x ∈ es, Apart x.1 (sz x.2) (inbuf + p) (insize - p)) :
    if p + total sz es ≤ insize then ∃ r, unpackList sz inbuf insize es (m, p) = .ok r
    else unpackList sz inbuf insize es (m, p) = .exit 1 := by
  induction es generalizing m p with
  | nil => rw [if_pos (by simp [total]; exact hpo)]; exact ⟨_, rfl⟩
  | cons x xs ih =>
    have hx := hs x (List.mem_cons_self ..)
    have hs' : Sized sz xs := fun y hy => hs y (List.mem_cons_of_mem _ hy)
    have ht := total_nonneg hs'
    have hax := hap x (List.mem_cons_self ..)
    rw [total_cons]
    unfold unpackList
    rw [ck32_ok (by omega) (by omega), Res.ok_bind]
    by_cases hfit : p + sz x.2 ≤ insize
    · rw [if_neg (show ¬ p + sz x.2 > insize by omega)]
      have hpad : padd inbuf p = inbuf + p := by unfold padd; omega
      rw [hpad]
      obtain ⟨m1, hm1⟩ := memcpy_success (m := m) (d := x.1) (s := inbuf + p) (n := (sz x.2).toNat)
        (by intro a ha; unfold InBytes at ha; exact hacc x (List.mem_cons_self ..) a ⟨by omega, by omega⟩)
        (by intro a ha; unfold InBytes at ha; exact hin a (by omega) (by omega))
        (by unfold Apart at hax ⊢; omega)
      rw [hm1, Res.ok_bind]
      have hsome := (memcpy_inv hm1).2.2
      have := ih hs' (m := m1) (p := p + sz x.2) (by omega) (by omega) hfit
        (by intro y hy a ha; rw [hsome]; exact hacc y (List.mem_cons_of_mem _ hy) a ha)
        (by intro a ha hb; rw [hsome]; exact hin a (by omega) hb)
        (by
          intro y hy
          have := hap y (List.mem_cons_of_mem _ hy)
          unfold Apart at this ⊢; omega)
      rw [Int.add_assoc] at this
      exact this
    · rw [if_pos (show p + sz x.2 > insize by omega),
        if_neg (show ¬ p + (sz x.2 + total sz xs) ≤ insize by omega)]

/-- Offset of element `i` in the packed bytes. -/
def packedAt (sz : Int → Int) (es : List Entry) (i : Nat) : Int := total sz (es.take i)

theorem packMoves_get (sz : Int → Int) (es : List Entry) (q : Int) (i : Nat) :
    (packMoves sz es q)[i]? = es[i]?.map fun x => ⟨q + packedAt sz es i, x.1, (sz x.2).toNat⟩ := by
  induction es generalizing q i with
  | nil => simp [packMoves]
  | cons x xs ih =>
    cases i with
    | zero => simp [packMoves, packedAt, total]
    | succ i =>
      simp only [packMoves, List.getElem?_cons_succ, ih]
      congr 1; funext y
      simp only [packedAt, List.take_succ_cons, total_cons, Int.add_assoc]

theorem unpackMoves_get (sz : Int → Int) (es : List Entry) (q : Int) (i : Nat) :
    (unpackMoves sz es q)[i]? = es[i]?.map fun x => ⟨x.1, q + packedAt sz es i, (sz x.2).toNat⟩ := by
  induction es generalizing q i with
  | nil => simp [unpackMoves]
  | cons x xs ih =>
    cases i with
    | zero => simp [unpackMoves, packedAt, total]
    | succ i =>
      simp only [unpackMoves, List.getElem?_cons_succ, ih]
      congr 1; funext y
      simp only [packedAt, List.take_succ_cons, total_cons, Int.add_assoc]

theorem packMoves_dst {sz : Int → Int} {es : List Entry} (hs : Sized sz es) {q : Int} {mv : Move}
    (h : mv ∈ packMoves sz es q) :
    q ≤ mv.dst ∧ mv.dst + mv.len ≤ q + total sz es ∧ ∃ x ∈ es, mv.src = x.1 ∧ (mv.len : Int) = sz x.2 := by
  induction es generalizing q with
  | nil => cases h
  | cons x xs ih =>
    have hx := hs x (List.mem_cons_self ..)
    have hs' : Sized sz xs := fun y hy => hs y (List.mem_cons_of_mem _ hy)
    have ht := total_nonneg hs'
    rw [total_cons]
    rcases List.mem_cons.1 h with rfl | h
    · exact ⟨by simp, by simp only []; omega, x, List.mem_cons_self .., rfl, by simp only []; omega⟩
    · obtain ⟨a, b, y, hy, c⟩ := ih hs' h
      exact ⟨by omega, by omega, y, List.mem_cons_of_mem _ hy, c⟩

theorem unpackMoves_src {sz : Int → Int} {es : List Entry} (hs : Sized sz es) {q : Int} {mv : Move}
    (h : mv ∈ unpackMoves sz es q) :
    q ≤ mv.src ∧ mv.src + mv.len ≤ q + total sz es ∧ ∃ x ∈ es, mv.dst = x.1 ∧ (mv.len : Int) = sz x.2 := by
  induction es generalizing q with
  | nil => cases h
  | cons x xs ih =>
    have hx := hs x (List.mem_cons_self ..)
    have hs' : Sized sz xs := fun y hy => hs y (List.mem_cons_of_mem _ hy)
    have ht := total_nonneg hs'
    rw [total_cons]
    rcases List.mem_cons.1 h with rfl | h
    · exact ⟨by simp, by simp only []; omega, x, List.mem_cons_self .., rfl, by simp only []; omega⟩
    · obtain ⟨a, b, y, hy, c⟩ := ih hs' h
      exact ⟨by omega, by omega, y, List.mem_cons_of_mem _ hy, c⟩

theorem packMoves_ordered {sz : Int → Int} {es : List Entry} (hs : Sized sz es) {q : Int}
    (hap : ∀ x ∈ es, Apart x.1 (sz x.2) q (total sz es)) : (packMoves sz es q).Pairwise Ordered := by
  induction es generalizing q with
  | nil => exact List.Pairwise.nil
  | cons x xs ih =>
    have hx := hs x (List.mem_cons_self ..)
    have hs' : Sized sz xs := fun y hy => hs y (List.mem_cons_of_mem _ hy)
    have ht := total_nonneg hs'
    rw [total_cons] at hap
    refine List.pairwise_cons.2 ⟨?_, ih hs' ?_⟩
    · intro mv hmv
      obtain ⟨a, b, y, hy, c, d⟩ := packMoves_dst hs' hmv
      have := hap y (List.mem_cons_of_mem _ hy)
      refine ⟨?_, ?_⟩
      · unfold Apart; dsimp only; omega
      · unfold Apart at this ⊢; dsimp only; omega
    · intro y hy
      have := hap y (List.mem_cons_of_mem _ hy)
      unfold Apart at this ⊢; omega

theorem unpackMoves_ordered {sz : Int → Int} {es : List Entry} (hs : Sized sz es) {q : Int}
    (hd : ElemsDisjoint sz es)
    (hap : ∀ x ∈ es, Apart x.1 (sz x.2) q (total sz es)) : (unpackMoves sz es q).Pairwise Ordered := by
  induction es generalizing q with
  | nil => exact List.Pairwise.nil
  | cons x xs ih =>
    have hx := hs x (List.mem_cons_self ..)
    have hs' : Sized sz xs := fun y hy => hs y (List.mem_cons_of_mem _ hy)
    have ht := total_nonneg hs'
    obtain ⟨hd1, hd2⟩ := List.pairwise_cons.1 hd
    have hax := hap x (List.mem_cons_self ..)
    rw [total_cons] at hap hax
    refine List.pairwise_cons.2 ⟨?_, ih hs' hd2 ?_⟩
    · intro mv hmv
      obtain ⟨a, b, y, hy, c, d⟩ := unpackMoves_src hs' hmv
      have := hd1 y hy
      refine ⟨?_, ?_⟩
      · unfold Apart at this ⊢; dsimp only; omega
      · unfold Apart at hax ⊢; dsimp only; omega
    · intro y hy
      have := hap y (List.mem_cons_of_mem _ hy)
      unfold Apart at this ⊢; omega

end MpiSerial
