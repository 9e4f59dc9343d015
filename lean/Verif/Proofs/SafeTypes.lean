import Verif.Spec.Calls
import Verif.Proofs.Avoid
import Verif.Proofs.Types

/-!
# Descriptor-level code stays inside its descriptors
-/

set_option linter.unusedSimpArgs false
set_option autoImplicit false

namespace MpiSerial

/-- The computation is not `Corrupt` and its result, if any, satisfies `P`. -/
def Res.Sat {α : Type} (P : α → Prop) : Res α → Prop
  | .ok a => P a
  | .abort _ => True
  | .exit _ => True
  | .ub u => ¬ Corrupt (.ub u)
  | .hang => False

namespace Res

variable {α β : Type} {P : α → Prop} {Q : β → Prop}

theorem sat_iff {r : Res α} : r.Sat P ↔ r.Avoids Corrupt ∧ ∀ a, r = .ok a → P a := by
  cases r with
  | ok a => simp [Sat, Avoids, fate]
  | abort m => simp [Sat, Avoids, fate, Corrupt]
  | exit c => simp [Sat, Avoids, fate, Corrupt]
  | ub u => simp [Sat, Avoids, fate]
  | hang => simp [Sat, Avoids, fate, Corrupt]

theorem Sat.bind {x : Res α} {f : α → Res β} (h : x.Sat P) (h2 : ∀ a, x = .ok a → P a → (f a).Sat Q) : (x >>= f).Sat Q := by
  cases x with
  | ok a => exact h2 a rfl h
  | abort m => trivial
  | exit c => trivial
  | ub u => exact h
  | hang => exact h

theorem Sat.mono {P' : α → Prop} {x : Res α} (h : x.Sat P) (h2 : ∀ a, x = .ok a → P a → P' a) : x.Sat P' := by
  cases x with
  | ok a => exact h2 a rfl h
  | abort m => trivial
  | exit c => trivial
  | ub u => exact h
  | hang => exact h

theorem Sat.ite {p : Prop} [Decidable p] {x y : Res α} (h1 : p → x.Sat P) (h2 : ¬ p → y.Sat P) :
    (if p then x else y).Sat P := by
  split
  · exact h1 ‹_›
  · exact h2 ‹_›

theorem Sat.of_aborted {x : Res α} (h : x.aborted = true) : x.Sat P := by
  cases x <;> simp [aborted] at h
  trivial

theorem Sat.map {x : Res α} {g : α → β} (h : x.Sat (fun a => Q (g a))) : (x >>= fun a => .ok (g a)).Sat Q :=
  Sat.bind h fun _ _ h => h

end Res

open Res (Sat)

theorem ck32_sat (x : Int) : (ck32 x).Sat (fun y => y = x) := by
  unfold ck32
  exact .ite (fun _ => rfl) (fun _ => by simp [Res.Sat, Corrupt])

theorem ck64_sat (x : Int) : (ck64 x).Sat (fun y => y = x) := by
  unfold ck64
  exact .ite (fun _ => rfl) (fun _ => by simp [Res.Sat, Corrupt])

theorem rd_sat {α : Type} (a : List α) (i : Nat) : (rd a i).Sat (fun x => a[i]? = some x) := by
  unfold rd
  split
  · next h => exact h
  · simp [Res.Sat, Corrupt]

theorem vla_sat (n : Int) : (vla n).Sat (fun k => 0 ≤ n ∧ k = n.toNat) := by
  unfold vla
  exact .ite (fun _ => by simp [Res.Sat, Corrupt]) (fun h => ⟨by omega, rfl⟩)

theorem memcpy_sat (m : Mem) (d s : Int) (n : Nat) : (memcpy m d s n).Sat (fun _ => True) := by
  unfold memcpy
  refine .ite (fun _ => trivial) fun _ => .ite (fun _ => by simp [Res.Sat, Corrupt]) fun _ =>
    .ite (fun _ => by simp [Res.Sat, Corrupt]) fun _ => trivial

theorem simple_sat (cfg : Cfg) (t : Int) : (Simpletype_length cfg t).Sat (fun _ => True) := by
  unfold Simpletype_length
  split <;> trivial

theorem pair_sat {t : Typestruct} {k : Int} (h1 : 0 ≤ k) (h2 : k.toNat < t.pairs.length) :
    (t.pair k).Sat (fun p => t.pairs[k.toNat]? = some p) := by
  unfold Typestruct.pair
  rw [if_pos h1, List.getElem?_eq_getElem h2]
  rfl

theorem pair_sat' {t : Typestruct} {i : Nat} (h2 : i < t.pairs.length) : (t.pair i).Sat (fun _ => True) :=
  (pair_sat (t := t) (k := (i : Int)) (by omega) (by simpa using h2)).mono fun _ _ _ => trivial

theorem calcPaddingLoop_sat (cfg : Cfg) {t : Typestruct} : ∀ (n i : Nat) (m : Int), i + n ≤ t.pairs.length →
    (calcPaddingLoop cfg t n i m).Sat (fun _ => True)
  | 0, _, _, _ => trivial
  | n + 1, i, m, h => by
    rw [calcPaddingLoop]
    exact (pair_sat' (by omega)).bind fun p _ _ => (simple_sat _ _).bind fun len _ _ =>
      calcPaddingLoop_sat cfg n (i + 1) _ (by omega)

theorem calcLbLoop_sat {t : Typestruct} : ∀ (n i : Nat) (m : Int), i + n ≤ t.pairs.length →
    (calcLbLoop t n i m).Sat (fun _ => True)
  | 0, _, _, _ => trivial
  | n + 1, i, m, h => by
    rw [calcLbLoop]
    exact (pair_sat' (by omega)).bind fun p _ _ => calcLbLoop_sat n (i + 1) _ (by omega)

theorem calcUbLoop_sat (cfg : Cfg) {t : Typestruct} : ∀ (n i : Nat) (m : Int), i + n ≤ t.pairs.length →
    (calcUbLoop cfg t n i m).Sat (fun _ => True)
  | 0, _, _, _ => trivial
  | n + 1, i, m, h => by
    rw [calcUbLoop]
    exact (pair_sat' (by omega)).bind fun p _ _ => (simple_sat _ _).bind fun len _ _ => (ck64_sat _).bind fun e _ _ =>
      calcUbLoop_sat cfg n (i + 1) _ (by omega)

theorem typeSizeLoop_sat (cfg : Cfg) {t : Typestruct} : ∀ (n i : Nat) (m : Int), i + n ≤ t.pairs.length →
    (typeSizeLoop cfg t n i m).Sat (fun _ => True)
  | 0, _, _, _ => trivial
  | n + 1, i, m, h => by
    rw [typeSizeLoop]
    exact (pair_sat' (by omega)).bind fun p _ _ => (simple_sat _ _).bind fun len _ _ => (ck32_sat _).bind fun e _ _ =>
      typeSizeLoop_sat cfg n (i + 1) _ (by omega)

theorem packSizeLoop_sat (cfg : Cfg) {t : Typestruct} : ∀ (n i : Nat) (m : Int), i + n ≤ t.pairs.length →
    (packSizeLoop cfg t n i m).Sat (fun _ => True)
  | 0, _, _, _ => trivial
  | n + 1, i, m, h => by
    rw [packSizeLoop]
    exact (pair_sat' (by omega)).bind fun p _ _ => (simple_sat _ _).bind fun len _ _ =>
      packSizeLoop_sat cfg n (i + 1) _ (by omega)

theorem Typestruct.WF.fits' {t : Typestruct} (h : t.WF) : 0 + t.count.toNat ≤ t.pairs.length := by
  have := h.fits; omega

theorem calc_lb_sat {t : Typestruct} (h : t.WF) : (calc_lb t).Sat (fun _ => True) := calcLbLoop_sat _ _ _ h.fits'

theorem calc_ub_sat (cfg : Cfg) {t : Typestruct} (h : t.WF) : (calc_ub cfg t).Sat (fun _ => True) :=
  calcUbLoop_sat cfg _ _ _ h.fits'

theorem Type_size_sat (cfg : Cfg) {t : Typestruct} (h : t.WF) : (Type_size cfg t).Sat (fun _ => True) :=
  typeSizeLoop_sat cfg _ _ _ h.fits'

theorem Type_extent_sat (cfg : Cfg) {t : Typestruct} (h : t.WF) : (Type_extent cfg t).Sat (fun _ => True) := by
  unfold Type_extent calc_padding
  refine .ite (fun _ => ?_) (fun _ => (ck64_sat _).bind fun _ _ _ => trivial)
  refine Sat.bind (P := fun _ => True) ((calcPaddingLoop_sat cfg _ _ _ h.fits').bind fun _ _ _ => trivial) fun e _ _ => ?_
  refine (ck64_sat _).bind fun d _ _ => .ite (fun _ => by simp [Res.Sat, Corrupt]) fun _ => ?_
  dsimp only
  split
  · exact (ck64_sat _).bind fun _ _ _ => trivial
  · exact (ck32_sat _).bind fun _ _ _ => (ck64_sat _).bind fun _ _ _ => trivial

/-! ## copy.c, pack.c -/

theorem tmod_lt {t : Typestruct} (h : t.WF) (h0 : t.count ≠ 0) (i : Nat) :
    0 ≤ Int.tmod i t.count ∧ (Int.tmod i t.count).toNat < t.pairs.length := by
  have h1 := h.nonneg
  have h2 := h.fits
  have h3 : 0 ≤ Int.tmod (i : Int) t.count := Int.tmod_nonneg _ (by omega)
  have h4 : Int.tmod (i : Int) t.count < t.count := Int.tmod_lt_of_pos _ (by omega)
  omega

theorem entryOffset_sat {t : Typestruct} (h : t.WF) (e : Int) (i : Nat) : (entryOffset t e i).Sat (fun _ => t.count ≠ 0) := by
  unfold entryOffset
  refine .ite (fun _ => by simp [Res.Sat, Corrupt]) fun h0 => ?_
  exact (pair_sat (tmod_lt h h0 i).1 (tmod_lt h h0 i).2).bind fun _ _ _ => h0

theorem copyLoop_sat (cfg : Cfg) {st dt : Typestruct} (hs : st.WF) (hd : dt.WF) (a b c d : Int) :
    ∀ (n i : Nat) (m : Mem), (copyLoop cfg a st b c dt d n i m).Sat (fun _ => True)
  | 0, _, _ => trivial
  | n + 1, i, m => by
    rw [copyLoop]
    refine (entryOffset_sat hs _ _).bind fun _ _ h1 => (entryOffset_sat hd _ _).bind fun _ _ h2 => ?_
    refine (pair_sat (tmod_lt hs h1 i).1 (tmod_lt hs h1 i).2).bind fun _ _ _ =>
      (pair_sat (tmod_lt hd h2 i).1 (tmod_lt hd h2 i).2).bind fun _ _ _ => .ite (fun _ => trivial) fun _ => ?_
    exact (simple_sat _ _).bind fun _ _ _ => (memcpy_sat _ _ _ _).bind fun m _ _ => copyLoop_sat cfg hs hd a b c d n (i + 1) m

theorem Pcopy_sat (cfg : Cfg) {st dt : Typestruct} (hs : st.WF) (hd : dt.WF) (m : Mem) (a b c d : Int) :
    (Pcopy_data2 cfg m a b st c d dt).Sat (fun _ => True) := by
  unfold Pcopy_data2
  refine .ite (fun _ => trivial) fun _ => (ck32_sat _).bind fun _ _ _ => (ck32_sat _).bind fun _ _ _ =>
    .ite (fun _ => trivial) fun _ => (Type_extent_sat cfg hs).bind fun _ _ _ => (Type_extent_sat cfg hd).bind fun _ _ _ =>
    copyLoop_sat cfg hs hd _ _ _ _ _ _ _

theorem packEntries_sat (cfg : Cfg) {t : Typestruct} (a b c d : Int) (k : Nat) :
    ∀ (n j : Nat) (s : Mem × Int), j + n ≤ t.pairs.length → (packEntries cfg a t b c d k n j s).Sat (fun _ => True)
  | 0, _, _, _ => trivial
  | n + 1, j, (m, position), h => by
    rw [packEntries]
    exact (pair_sat' (by omega)).bind fun p _ _ => (simple_sat _ _).bind fun len _ _ => (ck32_sat _).bind fun e _ _ =>
      .ite (fun _ => trivial) fun _ => (memcpy_sat _ _ _ _).bind fun m _ _ =>
      packEntries_sat cfg a b c d k n (j + 1) _ (by omega)

theorem packLoop_sat (cfg : Cfg) {t : Typestruct} (h : t.WF) (a b c d : Int) :
    ∀ (n i : Nat) (s : Mem × Int), (packLoop cfg a t b c d n i s).Sat (fun _ => True)
  | 0, _, _ => trivial
  | n + 1, i, s => by
    rw [packLoop]
    exact (packEntries_sat cfg a b c d i _ _ s h.fits').bind fun s _ _ => packLoop_sat cfg h a b c d n (i + 1) s

theorem Pack_sat (cfg : Cfg) {t : Typestruct} (h : t.WF) (m : Mem) (a b c d e : Int) :
    (Pack cfg m a b t c d e).Sat (fun _ => True) := by
  unfold Pack
  exact (Type_extent_sat cfg h).bind fun _ _ _ => packLoop_sat cfg h _ _ _ _ _ _ _

theorem Pack_size_sat (cfg : Cfg) {t : Typestruct} (h : t.WF) (n : Int) : (Pack_size cfg n t).Sat (fun _ => True) := by
  unfold Pack_size
  exact (packSizeLoop_sat cfg _ _ _ h.fits').bind fun _ _ _ => trivial

theorem unpackEntries_sat (cfg : Cfg) {t : Typestruct} (a b c d : Int) (k : Nat) :
    ∀ (n j : Nat) (s : Mem × Int), j + n ≤ t.pairs.length → (unpackEntries cfg a b c t d k n j s).Sat (fun _ => True)
  | 0, _, _, _ => trivial
  | n + 1, j, (m, position), h => by
    rw [unpackEntries]
    exact (pair_sat' (by omega)).bind fun p _ _ => (simple_sat _ _).bind fun len _ _ => (ck32_sat _).bind fun e _ _ =>
      .ite (fun _ => trivial) fun _ => (memcpy_sat _ _ _ _).bind fun m _ _ =>
      unpackEntries_sat cfg a b c d k n (j + 1) _ (by omega)

theorem unpackLoop_sat (cfg : Cfg) {t : Typestruct} (h : t.WF) (a b c d : Int) :
    ∀ (n i : Nat) (s : Mem × Int), (unpackLoop cfg a b c t d n i s).Sat (fun _ => True)
  | 0, _, _ => trivial
  | n + 1, i, s => by
    rw [unpackLoop]
    exact (unpackEntries_sat cfg a b c d i _ _ s h.fits').bind fun s _ _ => unpackLoop_sat cfg h a b c d n (i + 1) s

theorem Unpack_sat (cfg : Cfg) {t : Typestruct} (h : t.WF) (m : Mem) (a b c d e : Int) :
    (Unpack cfg m a b c d e t).Sat (fun _ => True) := by
  unfold Unpack
  exact (Type_extent_sat cfg h).bind fun _ _ _ => unpackLoop_sat cfg h _ _ _ _ _ _ _

/-! ## Constructors -/

/-- Number of entries the two passes of `Type_struct` count and write for one block. -/
def Block.size (b : Block) : Nat :=
  match b.ty.pairs with
  | [] => 0
  | p :: _ => if p.type = SIMPLE_LOWER ∨ p.type = SIMPLE_UPPER then 0 else b.len.toNat * b.ty.count.toNat

def blocksSize (bs : List Block) : Nat := (bs.map Block.size).sum

theorem pair0_sat {t : Typestruct} (h : t.WF) : (t.pair 0).Sat (fun p => ∃ ps, t.pairs = p :: ps) := by
  cases hp : t.pairs with
  | nil => exact absurd hp h.nonempty
  | cons p ps =>
    unfold Typestruct.pair
    rw [hp]
    exact ⟨ps, rfl⟩

theorem structPass1_sat : ∀ (bs : List Block) (s : Pass1), (∀ b ∈ bs, b.ty.WF ∧ 0 ≤ b.len) →
    (structPass1 bs s).Sat (fun s' => s'.simpletype_count = s.simpletype_count + blocksSize bs)
  | [], s, _ => by simp [structPass1, Res.Sat, blocksSize]
  | b :: bs, s, h => by
    have hb := h b (List.mem_cons_self ..)
    have ih := fun s => structPass1_sat bs s (fun b hb => h b (List.mem_cons_of_mem _ hb))
    have hsz : blocksSize (b :: bs) = b.size + blocksSize bs := by simp [blocksSize]
    rw [structPass1, hsz]
    refine (pair0_sat hb.1).bind fun p _ ⟨ps, hp⟩ => ?_
    refine .ite (fun h1 => ?_) fun h1 => .ite (fun h2 => ?_) fun h2 => ?_
    · have : b.size = 0 := by unfold Block.size; rw [hp]; simp [h1]
      exact (ih _).mono fun s' _ hs' => by rw [hs', this]; simp
    · have : b.size = 0 := by unfold Block.size; rw [hp]; simp [h2]
      exact (ih _).mono fun s' _ hs' => by rw [hs', this]; simp
    · have hbs : (b.size : Int) = b.len * b.ty.count := by
        unfold Block.size; rw [hp]
        simp only [h1, h2, or_self, if_false, Int.natCast_mul]
        rw [Int.toNat_of_nonneg hb.2, Int.toNat_of_nonneg hb.1.nonneg]
      refine (ck32_sat _).bind fun a _ ha => (ck32_sat _).bind fun c _ hc => ?_
      refine (ih _).mono fun s' _ hs' => ?_
      rw [hs']
      dsimp only
      rw [hc, ha, ← hbs]
      omega

theorem structCopyPairs_sat {ty : Typestruct} (off : Int) : ∀ (n k : Nat) (s : Pass2), k + n ≤ ty.pairs.length →
    s.newcount + n ≤ s.pairs.length →
    (structCopyPairs ty off n k s).Sat (fun s' => s'.newcount = s.newcount + n ∧ s'.pairs.length = s.pairs.length)
  | 0, _, s, _, _ => ⟨rfl, rfl⟩
  | n + 1, k, s, h1, h2 => by
    rw [structCopyPairs]
    refine (pair_sat' (by omega)).bind fun p _ _ => ?_
    refine Sat.bind (P := fun l => l.length = s.pairs.length) ?_ fun l _ hl => ?_
    · unfold setPair
      rw [if_pos (by omega)]
      simp [Res.Sat]
    · refine (structCopyPairs_sat off n (k + 1) _ (by omega) (by dsimp only; omega)).mono fun s' _ hs' => ?_
      dsimp only at hs'
      omega

theorem structReps_sat (cfg : Cfg) {b : Block} (hb : b.ty.WF) : ∀ (n j : Nat) (s : Pass2),
    s.newcount + n * b.ty.count.toNat ≤ s.pairs.length →
    (structReps cfg b n j s).Sat (fun s' => s'.newcount = s.newcount + n * b.ty.count.toNat ∧
      s'.pairs.length = s.pairs.length)
  | 0, _, s, _ => by simp [structReps, Res.Sat]
  | n + 1, j, s, h => by
    rw [Nat.succ_mul] at h ⊢
    rw [structReps]
    refine (Type_extent_sat cfg hb).bind fun e _ _ => ?_
    dsimp only
    refine (structCopyPairs_sat _ _ _ _ hb.fits' (by dsimp only; omega)).bind fun s1 _ h1 => ?_
    dsimp only at h1
    refine (structReps_sat cfg hb n (j + 1) s1 (by omega)).mono fun s' _ hs' => ?_
    omega

theorem structPass2_sat (cfg : Cfg) : ∀ (bs : List Block) (s : Pass2), (∀ b ∈ bs, b.ty.WF ∧ 0 ≤ b.len) →
    s.newcount + blocksSize bs ≤ s.pairs.length →
    (structPass2 cfg bs s).Sat (fun s' => s'.pairs.length = s.pairs.length)
  | [], s, _, _ => rfl
  | b :: bs, s, h, hn => by
    have hb := h b (List.mem_cons_self ..)
    have ih := fun s => structPass2_sat cfg bs s (fun b hb => h b (List.mem_cons_of_mem _ hb))
    have hsz : blocksSize (b :: bs) = b.size + blocksSize bs := by simp [blocksSize]
    rw [hsz] at hn
    rw [structPass2]
    refine (pair0_sat hb.1).bind fun p _ ⟨ps, hp⟩ => ?_
    refine .ite (fun h1 => ih s (by omega)) fun h1 => ?_
    have hbs : b.size = b.len.toNat * b.ty.count.toNat := by
      unfold Block.size; rw [hp]; simp only [h1, if_false]
    refine (structReps_sat cfg hb.1 _ _ s (by omega)).bind fun s1 _ hs1 => ?_
    exact (ih s1 (by omega)).mono fun s' _ hs' => by omega

theorem Type_struct_sat (cfg : Cfg) (g : Garbage) (bs : List Block) (h : ∀ b ∈ bs, b.ty.WF ∧ 0 ≤ b.len) :
    (Type_struct cfg g bs).Sat Typestruct.WF := by
  unfold Type_struct
  refine (structPass1_sat bs {} h).bind fun p1 _ hp1 => ?_
  dsimp only at hp1
  rw [if_neg (by omega)]
  dsimp only
  refine (structPass2_sat cfg bs _ h (by simp; omega)).bind fun p2 _ hp2 => ?_
  dsimp only at hp2
  rw [List.length_map, List.length_range] at hp2
  have hwf : ∀ a b c d e, Typestruct.WF ⟨p1.simpletype_count, a, b, c, d, e, p2.pairs⟩ := by
    intro a b c d e
    refine ⟨?_, ?_, ?_⟩
    · dsimp only; omega
    · dsimp only; omega
    · dsimp only
      intro h0
      rw [h0] at hp2
      simp only [List.length_nil] at hp2
      omega
  split <;> split
  · exact (hwf _ _ _ _ _)
  · exact (calc_ub_sat cfg (hwf _ _ _ _ _)).bind fun _ _ _ => (hwf _ _ _ _ _)
  · exact (calc_lb_sat (hwf _ _ _ _ _)).bind fun lb _ _ => (hwf _ _ _ _ _)
  · exact (calc_lb_sat (hwf _ _ _ _ _)).bind fun lb _ _ => (calc_ub_sat cfg (hwf _ _ _ _ _)).bind fun _ _ _ => (hwf _ _ _ _ _)

theorem fill_sat {α : Type} {f : Nat → Res α} {P : α → Prop} (hf : ∀ i, (f i).Sat P) : ∀ (n i : Nat),
    (fill f n i).Sat (fun l => ∀ x ∈ l, P x)
  | 0, _ => by simp [fill, Res.Sat]
  | n + 1, i => by
    rw [fill]
    refine (hf i).bind fun x _ hx => (fill_sat hf n (i + 1)).bind fun xs _ hxs => ?_
    intro y hy
    rcases List.mem_cons.1 hy with rfl | hy
    · exact hx
    · exact hxs y hy

variable (cfg : Cfg) (g : Garbage) {old : Typestruct}

theorem Type_contiguous_sat (h : old.WF) (n : Int) : (Type_contiguous cfg g n old).Sat Typestruct.WF := by
  unfold Type_contiguous
  refine (vla_sat n).bind fun k _ _ => (Type_extent_sat cfg h).bind fun e _ _ => ?_
  refine (fill_sat (f := fun i => Res.ok (⟨1, u64 (e * i), old⟩ : Block)) (P := fun b : Block => b.ty.WF ∧ 0 ≤ b.len) (fun i => ⟨h, by simp⟩) k 0).bind fun bs _ hbs => ?_
  exact Type_struct_sat cfg g bs hbs

theorem Type_hvector_sat (h : old.WF) (n : Int) {b : Int} (hb : 0 ≤ b) (d : Int) :
    (Type_hvector cfg g n b d old).Sat Typestruct.WF := by
  unfold Type_hvector
  refine (vla_sat n).bind fun k _ _ => (Type_extent_sat cfg h).bind fun e _ _ => ?_
  refine (fill_sat (f := fun i => Res.ok (⟨b, u64 (d * i), old⟩ : Block)) (P := fun b : Block => b.ty.WF ∧ 0 ≤ b.len) (fun i => ⟨h, hb⟩) k 0).bind fun bs _ hbs => ?_
  exact Type_struct_sat cfg g bs hbs

theorem Type_vector_sat (h : old.WF) (n : Int) {b : Int} (hb : 0 ≤ b) (d : Int) :
    (Type_vector cfg g n b d old).Sat Typestruct.WF := by
  unfold Type_vector
  exact (Type_extent_sat cfg h).bind fun e _ _ => Type_hvector_sat cfg g h n hb _

theorem Type_hindexed_sat (h : old.WF) (n : Int) {bl : List Int} (hb : ∀ x ∈ bl, 0 ≤ x) (d : List Int) :
    (Type_hindexed cfg g n bl d old).Sat Typestruct.WF := by
  unfold Type_hindexed
  refine (vla_sat n).bind fun k _ _ => ?_
  refine (fill_sat (P := fun b => b.ty.WF ∧ 0 ≤ b.len) (fun i => ?_) k 0).bind fun bs _ hbs => ?_
  · exact (rd_sat _ _).bind fun b _ hb' => (rd_sat _ _).bind fun d _ _ => ⟨h, hb b (List.mem_of_getElem? hb')⟩
  · exact Type_struct_sat cfg g bs hbs

theorem Type_indexed_sat (h : old.WF) (n : Int) {bl : List Int} (hb : ∀ x ∈ bl, 0 ≤ x) (d : List Int) :
    (Type_indexed cfg g n bl d old).Sat Typestruct.WF := by
  unfold Type_indexed
  refine (vla_sat n).bind fun k _ _ => ?_
  refine (fill_sat (P := fun _ => True) (fun i => ?_) k 0).bind fun bs _ hbs => ?_
  · exact (Type_extent_sat cfg h).bind fun b _ hb' => (rd_sat _ _).bind fun d _ _ => trivial
  · exact Type_hindexed_sat cfg g h n hb _

theorem Type_create_indexed_block_sat (h : old.WF) (n : Int) {b : Int} (hb : 0 ≤ b) (d : List Int) :
    (Type_create_indexed_block cfg g n b d old).Sat Typestruct.WF := by
  unfold Type_create_indexed_block
  refine (vla_sat n).bind fun k _ _ => ?_
  refine (fill_sat (f := fun _ => Res.ok b) (P := fun x => 0 ≤ x) (fun i => hb) k 0).bind fun bs _ hbs => ?_
  exact Type_indexed_sat cfg g h n hbs _

end MpiSerial
