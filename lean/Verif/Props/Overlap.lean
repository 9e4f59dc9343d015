import Verif.Spec.Overlap
import Verif.Props.CLayout

/-!
# C81: exactly which transfers are carried out
-/

set_option autoImplicit false

namespace MpiSerial

open Spec

theorem memcpy_exact {m : Mem} {d s : Int} {n : Nat} (hn : n ≠ 0) :
    ((∀ a, InBytes a d n → (m a).isSome = true) ∧ (∀ a, InBytes a s n → (m a).isSome = true) ∧ Apart d n s n →
      memcpy m d s n = .ok (replaced m d s n)) ∧
    (¬ ((∀ a, InBytes a d n → (m a).isSome = true) ∧ (∀ a, InBytes a s n → (m a).isSome = true) ∧ Apart d n s n) →
      ∃ e, memcpy m d s n = .ub e) := by
  have key : ∀ b : Int, m.readable b n ↔ ∀ a, InBytes a b n → (m a).isSome = true := by
    intro b
    constructor
    · intro h a ha
      have := h (a - b).toNat (by unfold InBytes at ha; omega)
      rwa [show b + ((a - b).toNat : Int) = a by unfold InBytes at ha; omega] at this
    · intro h i hi
      exact h _ ⟨by omega, by omega⟩
  unfold memcpy
  rw [if_neg hn, ← key d, ← key s]
  by_cases h1 : m.readable d n ∧ m.readable s n
  · rw [if_neg (by rw [Classical.not_not]; exact h1)]
    by_cases h2 : Apart d n s n
    · rw [if_neg (by unfold Apart at h2; omega)]
      exact ⟨fun _ => rfl, fun h => absurd ⟨h1.1, h1.2, h2⟩ h⟩
    · rw [if_pos (by unfold Apart at h2; omega)]
      exact ⟨fun h => absurd h.2.2 h2, fun _ => ⟨_, rfl⟩⟩
  · rw [if_pos h1]
    exact ⟨fun h => absurd ⟨h.1, h.2.1⟩ h1, fun _ => ⟨_, rfl⟩⟩

/-- The copies in order, exactly. -/
theorem runMoves_exact {cfg : Cfg} {D S : List Entry} (hsz : ∀ x ∈ D, 1 ≤ sz cfg x.2) (m : Mem) :
    ((∀ x ∈ D.zip S, Copyable (sz cfg) m x.1 x.2) → runMoves m (moves (sz cfg) D S) = .ok (oneByOne (sz cfg) (D.zip S) m)) ∧
    ((∃ x ∈ D.zip S, ¬ Copyable (sz cfg) m x.1 x.2) → ∃ e, runMoves m (moves (sz cfg) D S) = .ub e) := by
  induction D generalizing S m with
  | nil => exact ⟨fun _ => rfl, fun ⟨x, hx, _⟩ => by simp at hx⟩
  | cons d D ih =>
    cases S with
    | nil => exact ⟨fun _ => rfl, fun ⟨x, hx, _⟩ => by simp at hx⟩
    | cons s S =>
      have h1 := hsz d (List.mem_cons_self ..)
      have hn : ((sz cfg d.2).toNat : Int) = sz cfg d.2 := Int.toNat_of_nonneg (by omega)
      have hm := memcpy_exact (m := m) (d := d.1) (s := s.1) (n := (sz cfg d.2).toNat) (by omega)
      rw [hn] at hm
      have he : moves (sz cfg) (d :: D) (s :: S) = ⟨d.1, s.1, (sz cfg d.2).toNat⟩ :: moves (sz cfg) D S := rfl
      rw [he, runMoves_cons, List.zip_cons_cons]
      dsimp only
      have hone : Copyable (sz cfg) m d s ↔ (∀ a, InBytes a d.1 (sz cfg d.2) → (m a).isSome = true) ∧
          (∀ a, InBytes a s.1 (sz cfg d.2) → (m a).isSome = true) ∧ Apart d.1 (sz cfg d.2) s.1 (sz cfg d.2) :=
        ⟨fun h => ⟨h.dst, h.src, h.apart⟩, fun h => ⟨h.1, h.2.1, h.2.2⟩⟩
      rw [← hone] at hm
      by_cases hc : Copyable (sz cfg) m d s
      · have hok := hm.1 hc
        have hsome := (memcpy_inv hok).2.2
        have hiff : ∀ x : Entry × Entry, Copyable (sz cfg) m x.1 x.2 ↔ Copyable (sz cfg) (replaced m d.1 s.1 (sz cfg d.2)) x.1 x.2 := by
          intro x
          constructor
          · intro h
            exact ⟨fun a ha => by rw [hsome]; exact h.dst a ha, fun a ha => by rw [hsome]; exact h.src a ha, h.apart⟩
          · intro h
            exact ⟨fun a ha => by rw [← hsome]; exact h.dst a ha, fun a ha => by rw [← hsome]; exact h.src a ha, h.apart⟩
        rw [hok, Res.ok_bind]
        obtain ⟨i1, i2⟩ := ih (S := S) (fun x hx => hsz x (List.mem_cons_of_mem _ hx)) (replaced m d.1 s.1 (sz cfg d.2))
        refine ⟨fun h => ?_, fun ⟨x, hx, hb⟩ => ?_⟩
        · exact i1 fun x hx => (hiff x).1 (h x (List.mem_cons_of_mem _ hx))
        · rcases List.mem_cons.1 hx with rfl | hx
          · exact absurd hc hb
          · exact i2 ⟨x, hx, fun h => hb ((hiff x).2 h)⟩
      · obtain ⟨e, he⟩ := hm.2 hc
        rw [he]
        exact ⟨fun h => absurd (h (d, s) (List.mem_cons_self ..)) hc, fun _ => ⟨e, rfl⟩⟩

/-- In order, elements that no earlier copy touched arrive as they were. -/
theorem oneByOne_frame {sz : Int → Int} {l : List (Entry × Entry)} {a : Int} (h : ∀ x ∈ l, ¬ InBytes a x.1.1 (sz x.1.2)) (m : Mem) :
    oneByOne sz l m a = m a := by
  induction l generalizing m with
  | nil => rfl
  | cons x l ih =>
    rw [oneByOne, ih fun y hy => h y (List.mem_cons_of_mem _ hy)]
    unfold replaced
    exact if_neg (h x (List.mem_cons_self ..))

theorem oneByOne_values {sz : Int → Int} {l : List (Entry × Entry)}
    (hd : l.Pairwise fun x y => Apart x.1.1 (sz x.1.2) y.1.1 (sz y.1.2) ∧ Apart x.1.1 (sz x.1.2) y.2.1 (sz y.1.2)) (m : Mem) :
    ∀ x ∈ l, ∀ b, 0 ≤ b → b < sz x.1.2 → oneByOne sz l m (x.1.1 + b) = m (x.2.1 + b) := by
  induction l generalizing m with
  | nil => intro x hx; cases hx
  | cons y l ih =>
    obtain ⟨h1, h2⟩ := List.pairwise_cons.1 hd
    intro x hx b hb0 hb
    rw [oneByOne]
    rcases List.mem_cons.1 hx with rfl | hx
    · rw [oneByOne_frame]
      · unfold replaced
        rw [if_pos (by omega)]
        congr 1; omega
      · intro z hz hin
        have := (h1 z hz).1
        unfold Apart InBytes at *; omega
    · rw [ih h2 _ x hx b hb0 hb]
      unfold replaced
      rw [if_neg]
      have := (h1 x hx).2
      unfold Apart at this; omega

section
variable {env : Env} {s : Sys} {L : Ledger}

/-- C81: a transfer with the receive posted first (also MPI_Sendrecv and the collectives).  It copies one element after the other, in the
order of the type maps, if every element can be copied; otherwise its behaviour is undefined. -/
theorem C81_exact (hr : Reach env s L) (hc : env.cfg.Ok) {sb sc st rb rc rt : Int} {R : Res Mem}
    (h : Delivers env s L sb sc st rb rc rt R) {τs τr : DType} (h1 : StandsFor env.cfg L st (.data τs))
    (h2 : StandsFor env.cfg L rt (.data τr)) (c1 : Committed env.cfg L st) (c2 : Committed env.cfg L rt)
    (hl : Exchangeable (sz env.cfg) (env.cfg.typeChecking = true) sb sc τs rb rc τr) :
    ((∀ x ∈ (placed (sz env.cfg) τr rc rb).zip (placed (sz env.cfg) τs sc sb), Copyable (sz env.cfg) s.mem x.1 x.2) →
      R = .ok (oneByOne (sz env.cfg) ((placed (sz env.cfg) τr rc rb).zip (placed (sz env.cfg) τs sc sb)) s.mem)) ∧
    ((∃ x ∈ (placed (sz env.cfg) τr rc rb).zip (placed (sz env.cfg) τs sc sb), ¬ Copyable (sz env.cfg) s.mem x.1 x.2) →
      ∃ e, R = .ub e) := by
  obtain ⟨ts, a1, b1, _⟩ := h1
  obtain ⟨tr, a2, b2, _⟩ := h2
  obtain ⟨_, a1', k1⟩ := c1
  obtain ⟨_, a2', k2⟩ := c2
  rw [a1] at a1'; cases a1'
  rw [a2] at a2'; cases a2'
  obtain ⟨d1, m1, n1⟩ := b1.dataDesc hc
  obtain ⟨d2, m2, n2⟩ := b2.dataDesc hc
  have e1 : elems ts (extent (sz env.cfg) τs) sc sb = placed (sz env.cfg) τs sc sb := by unfold elems placed; rw [m1]
  have e2 : elems tr (extent (sz env.cfg) τr) rc rb = placed (sz env.cfg) τr rc rb := by unfold elems placed; rw [m2]
  have p1 := Int.mul_nonneg (show 0 ≤ (τs.map.length : Int) by omega) hl.srcCount
  have p2 := Int.mul_nonneg (show 0 ≤ (τr.map.length : Int) by omega) hl.dstCount
  rw [h.eq hr a1 a2, Pcopy_moves s.mem d1 d2 (b1.extent hc) (b2.extent hc)
    ⟨by rw [n1]; exact ⟨by omega, hl.srcFits⟩, by rw [n2]; exact ⟨by omega, hl.dstFits⟩⟩ k1 k2 hl.srcCount
    (by rw [e1, e2]; exact hl.enough) (by rw [e1, e2]; exact hl.srcReach) (by rw [e2]; exact hl.dstReach)
    (by rw [e1, e2]; exact hl.kinds), e1, e2]
  refine runMoves_exact (fun x hx => ?_) s.mem
  rw [← e2] at hx
  exact (elems_sized hc d2 _ _ _ x hx).1

/-- C81: the same for a receive that finds its message waiting; the library then takes the description of the receive for both sides
(C22_fails_send_first). -/
theorem C81_exact_waiting (hr : Reach env s L) (hc : env.cfg.Ok) {sb sc st rb rc rt : Int} {R : Res Mem}
    (h : Collects env s L sb sc st rb rc rt R) {τr : DType}
    (h2 : StandsFor env.cfg L rt (.data τr)) (c2 : Committed env.cfg L rt)
    (hl : Exchangeable (sz env.cfg) (env.cfg.typeChecking = true) sb rc τr rb rc τr) :
    ((∀ x ∈ (placed (sz env.cfg) τr rc rb).zip (placed (sz env.cfg) τr rc sb), Copyable (sz env.cfg) s.mem x.1 x.2) →
      R = .ok (oneByOne (sz env.cfg) ((placed (sz env.cfg) τr rc rb).zip (placed (sz env.cfg) τr rc sb)) s.mem)) ∧
    ((∃ x ∈ (placed (sz env.cfg) τr rc rb).zip (placed (sz env.cfg) τr rc sb), ¬ Copyable (sz env.cfg) s.mem x.1 x.2) →
      ∃ e, R = .ub e) := by
  obtain ⟨tr, a2, b2, _⟩ := h2
  obtain ⟨_, a2', k2⟩ := c2
  rw [a2] at a2'; cases a2'
  obtain ⟨d2, m2, n2⟩ := b2.dataDesc hc
  have e2 : ∀ b, elems tr (extent (sz env.cfg) τr) rc b = placed (sz env.cfg) τr rc b := by intro b; unfold elems placed; rw [m2]
  have p2 := Int.mul_nonneg (show 0 ≤ (τr.map.length : Int) by omega) hl.dstCount
  rw [h.eq hr a2, Pcopy_moves s.mem d2 d2 (b2.extent hc) (b2.extent hc)
    ⟨by rw [n2]; exact ⟨by omega, hl.srcFits⟩, by rw [n2]; exact ⟨by omega, hl.dstFits⟩⟩ k2 k2 hl.srcCount
    (by rw [e2, e2]; exact hl.enough) (by rw [e2, e2]; exact hl.srcReach) (by rw [e2]; exact hl.dstReach)
    (by rw [e2, e2]; exact hl.kinds), e2, e2]
  refine runMoves_exact (fun x hx => ?_) s.mem
  rw [← e2] at hx
  exact (elems_sized hc d2 _ _ _ x hx).1

end

/-- C81: so the values arrive, and nothing else changes, as long as no element is overwritten before it is sent, or after it arrived. -/
theorem C81_moved {sz : Int → Int} {send recv : List Entry} (hle : recv.length ≤ send.length)
    (hd : ElemsDisjoint sz recv)
    (ha : (recv.zip send).Pairwise fun x y => Apart x.1.1 (sz x.1.2) y.2.1 (sz y.1.2)) (m : Mem) :
    Moved sz m (oneByOne sz (recv.zip send) m) send recv := by
  refine ⟨fun i d hi => ?_, fun a h => oneByOne_frame (fun x hx => h x.1 (List.of_mem_zip hx).1) m⟩
  have hlt := (List.getElem?_eq_some_iff.1 hi).1
  have hs := List.getElem?_eq_getElem (Nat.lt_of_lt_of_le hlt hle)
  refine ⟨_, hs, fun k h0 hk => ?_⟩
  have hz : (recv.zip send)[i]? = some (d, send[i]) := List.getElem?_zip_eq_some.2 ⟨hi, hs⟩
  exact oneByOne_values ((zip_pairwise hd).and ha) m _ (List.mem_of_getElem? hz) k h0 hk

theorem basic_placed {cfg : Cfg} {k : Int} (hs : ∃ e : Nat, sz cfg k = 2 ^ e) (n : Nat) (b : Int) :
    placed (sz cfg) (plain [(0, k)]) n b = (List.range n).map fun (i : Nat) => (b + i * sz cfg k, k) := by
  have hn : (CType.basic k).Natural (abiOf cfg (sz cfg)) := ⟨rfl, hs⟩
  have h := CType.placed_eq hn n b
  have h' : placed (sz cfg) (plain [(0, k)]) n b = (CType.array n (.basic k)).members (abiOf cfg (sz cfg)) b := h
  rw [h']
  simp only [CType.members, CType.size]
  rw [List.map_eq_flatMap]

section
variable {env : Env} {s : Sys} {L : Ledger}

/-- C81: a message from a buffer into the same buffer is never carried out, if there is an element in it. -/
theorem C81_same (hr : Reach env s L) (hc : env.cfg.Ok) {b n st rt : Int} {R : Res Mem}
    (h : Delivers env s L b n st b n rt R) {τ : DType} (h1 : StandsFor env.cfg L st (.data τ))
    (h2 : StandsFor env.cfg L rt (.data τ)) (c1 : Committed env.cfg L st) (c2 : Committed env.cfg L rt)
    (hl : Exchangeable (sz env.cfg) (env.cfg.typeChecking = true) b n τ b n τ) (hne : placed (sz env.cfg) τ n b ≠ []) :
    ∃ e, R = .ub e := by
  obtain ⟨x, xs, e⟩ := List.exists_cons_of_ne_nil hne
  refine (C81_exact hr hc h h1 h2 c1 c2 hl).2 ⟨(x, x), by rw [e, List.zip_cons_cons]; exact List.mem_cons_self .., fun hx => ?_⟩
  obtain ⟨t, a2, b2, _⟩ := h2
  obtain ⟨d2, m2, _⟩ := b2.dataDesc hc
  have e2 : elems t (extent (sz env.cfg) τ) n b = placed (sz env.cfg) τ n b := by unfold elems placed; rw [m2]
  have := (elems_sized hc d2 _ _ _ x (by rw [e2, e]; exact List.mem_cons_self ..)).1
  have h4 := hx.apart
  unfold Apart at h4
  dsimp only at h4
  omega

/-- C81: `n` values of a basic type may be moved down by at least the size of one value, as with memmove. -/
theorem C81_down (hr : Reach env s L) (hc : env.cfg.Ok) {sb rb st rt k : Int} {n : Nat} {R : Res Mem}
    (h : Delivers env s L sb n st rb n rt R) (h1 : StandsFor env.cfg L st (.data (plain [(0, k)])))
    (h2 : StandsFor env.cfg L rt (.data (plain [(0, k)]))) (c1 : Committed env.cfg L st) (c2 : Committed env.cfg L rt)
    (hk : ∃ e : Nat, sz env.cfg k = 2 ^ e) (hb : 0 ≤ rb) (hd : rb + sz env.cfg k ≤ sb)
    (ht : sb + n * sz env.cfg k ≤ 18446744073709551616) (hS : n * sz env.cfg k ≤ 2147483647)
    (ha : ∀ a, rb ≤ a → a < sb + n * sz env.cfg k → (s.mem a).isSome = true) :
    ∃ m', R = .ok m' ∧ (∀ i, 0 ≤ i → i < n * sz env.cfg k → m' (rb + i) = s.mem (sb + i)) ∧
      ∀ a, ¬ InBytes a rb (n * sz env.cfg k) → m' a = s.mem a := by
  have hpos : 0 < sz env.cfg k := by obtain ⟨e, he⟩ := hk; rw [he]; exact Int.pow_pos (by omega)
  have pl := fun b => basic_placed (cfg := env.cfg) hk n b
  have hi : ∀ i : Nat, i < n → 0 ≤ (i : Int) * sz env.cfg k ∧ (i : Int) * sz env.cfg k + sz env.cfg k ≤ n * sz env.cfg k := by
    intro i hi
    refine ⟨Int.mul_nonneg (by omega) (by omega), ?_⟩
    have : ((i : Int) + 1) * sz env.cfg k ≤ n * sz env.cfg k := Int.mul_le_mul_of_nonneg_right (by omega) (by omega)
    rw [Int.add_mul] at this
    omega
  have hzip : (placed (sz env.cfg) (plain [(0, k)]) n rb).zip (placed (sz env.cfg) (plain [(0, k)]) n sb) =
      (List.range n).map fun (i : Nat) => ((rb + i * sz env.cfg k, k), (sb + i * sz env.cfg k, k)) := by
    rw [pl, pl, List.zip_map']
  have hord : ∀ i j : Nat, i < j → (i : Int) * sz env.cfg k + sz env.cfg k ≤ j * sz env.cfg k := by
    intro i j hij
    have : ((i : Int) + 1) * sz env.cfg k ≤ j * sz env.cfg k := Int.mul_le_mul_of_nonneg_right (by omega) (by omega)
    rw [Int.add_mul] at this
    omega
  have hlen : (n : Int) ≤ n * sz env.cfg k := by
    have := Int.mul_le_mul_of_nonneg_left (show 1 ≤ sz env.cfg k by omega) (show 0 ≤ (n : Int) by omega)
    omega
  have hl : Exchangeable (sz env.cfg) (env.cfg.typeChecking = true) sb n (plain [(0, k)]) rb n (plain [(0, k)]) := by
    refine ⟨by omega, by omega, ?_, ?_, ?_, ?_, ?_, ?_⟩
    · show ((1 : Nat) : Int) * n ≤ _; omega
    · show ((1 : Nat) : Int) * n ≤ _; omega
    · rw [pl, pl, List.length_map, List.length_map]; omega
    · intro x hx
      have hx := List.mem_of_mem_take hx
      rw [pl] at hx
      obtain ⟨i, hin, rfl⟩ := List.mem_map.1 hx
      have := hi i (List.mem_range.1 hin)
      dsimp only; omega
    · intro x hx
      rw [pl] at hx
      obtain ⟨i, hin, rfl⟩ := List.mem_map.1 hx
      have := hi i (List.mem_range.1 hin)
      dsimp only; omega
    · intro _ x hx
      rw [hzip] at hx
      obtain ⟨i, hin, rfl⟩ := List.mem_map.1 hx
      rfl
  have hok := (C81_exact hr hc h h1 h2 c1 c2 hl).1 (by
    intro x hx
    rw [hzip] at hx
    obtain ⟨i, hin, rfl⟩ := List.mem_map.1 hx
    have := hi i (List.mem_range.1 hin)
    refine ⟨fun a h => ha a ?_ ?_, fun a h => ha a ?_ ?_, ?_⟩
    all_goals (try unfold InBytes at h); (try unfold Apart); dsimp only at *; omega)
  have hm := C81_moved (sz := sz env.cfg) (send := placed (sz env.cfg) (plain [(0, k)]) n sb) (recv := placed (sz env.cfg) (plain [(0, k)]) n rb)
    (by rw [pl, pl, List.length_map, List.length_map]; omega)
    (by
      unfold ElemsDisjoint
      rw [pl, List.pairwise_map]
      refine List.pairwise_lt_range.imp ?_
      intro i j hij
      have := hord i j hij
      unfold Apart; dsimp only; omega)
    (by
      rw [hzip, List.pairwise_map]
      refine List.pairwise_lt_range.imp ?_
      intro i j hij
      have := hord i j hij
      unfold Apart; dsimp only; omega) s.mem
  refine ⟨_, hok, fun i h0 hin => ?_, fun a hna => hm.others a fun d hd => ?_⟩
  · have hq := Int.mul_ediv_add_emod i (sz env.cfg k)
    have hr0 := Int.emod_nonneg i (show sz env.cfg k ≠ 0 by omega)
    have hr1 := Int.emod_lt_of_pos i hpos
    have hq0 : 0 ≤ i / sz env.cfg k := Int.ediv_nonneg h0 (by omega)
    have hqn : i / sz env.cfg k < n := Int.ediv_lt_of_lt_mul hpos hin
    have hget : (placed (sz env.cfg) (plain [(0, k)]) n rb)[(i / sz env.cfg k).toNat]? = some (rb + (i / sz env.cfg k) * sz env.cfg k, k) := by
      rw [pl, List.getElem?_map, List.getElem?_range (by omega)]
      simp only [Option.map_some, Int.toNat_of_nonneg hq0]
    obtain ⟨e, he, hv⟩ := hm.values _ _ hget
    have he' : e = (sb + (i / sz env.cfg k) * sz env.cfg k, k) := by
      rw [pl, List.getElem?_map, List.getElem?_range (by omega)] at he
      simp only [Option.map_some, Int.toNat_of_nonneg hq0] at he
      exact (Option.some.inj he).symm
    subst he'
    have := hv (i % sz env.cfg k) hr0 hr1
    rw [Int.mul_comm] at hq
    dsimp only at this
    rwa [show rb + i / sz env.cfg k * sz env.cfg k + i % sz env.cfg k = rb + i by omega,
      show sb + i / sz env.cfg k * sz env.cfg k + i % sz env.cfg k = sb + i by omega] at this
  · rw [pl] at hd
    obtain ⟨i, hin, rfl⟩ := List.mem_map.1 hd
    have := hi i (List.mem_range.1 hin)
    intro hx
    apply hna
    unfold InBytes at *
    dsimp only at hx
    omega

end

/-! ## Instances -/

/-- C81_exact: moved up by one, the first value is copied over all the others. -/
example : oneByOne (sz {}) ((placed (sz {}) (plain [(0, 0)]) 3 101).zip (placed (sz {}) (plain [(0, 0)]) 3 100)) memAll 103 = memAll 100 ∧
    (MPI_Sendrecv env0 { CL.s with mem := memAll } 100 3 (-1) 0 5 101 3 (-1) 0 5 1 .null >>= fun x => Res.ok (x.1.mem 103)) =
      .ok (memAll 100) := by decide +kernel

theorem CL_exchange : CanExchange CL.L 1 5 := by
  have : CL.L.ops = [] := by decide +kernel
  refine ⟨⟨0, by decide +kernel, ?_, ?_⟩, by decide +kernel, by decide +kernel⟩ <;>
  · unfold NoOpen; rw [this]; intro o h; cases h

/-- C81_down: five MPI_INTs are moved down by 4 bytes. -/
example : ∃ m', (MPI_Sendrecv env0 { CL.s with mem := memAll } 1004 5 (-3) 0 5 1000 5 (-3) 0 5 1 .null >>= fun x => Res.ok x.1.mem) = .ok m' ∧
    (∀ i, 0 ≤ i → i < 20 → m' (1000 + i) = memAll (1004 + i)) ∧ ∀ a, ¬ InBytes a 1000 20 → m' a = memAll a := by
  have hr : Reach env0 { CL.s with mem := memAll } CL.L := Reach.step CL_ok .memory
  have hi : StandsFor {} CL.L (-3) (.data (plain [(0, 2)])) := int_represents CL.L
  have hc : Committed {} CL.L (-3) := ⟨static1 4 2, rfl, by decide⟩
  exact C81_down (env := env0) (k := 2) (n := 5) hr cfg_default_ok (.sendrecv (sb := 1004) (rb := 1000) CL_exchange) hi hi hc hc
    ⟨2, by decide⟩ (by decide) (by decide) (by decide) (by decide) (fun _ _ _ => rfl)

/-- C81_same: MPI_Sendrecv and MPI_Allgather with the same buffer on both sides. -/
example : ∃ e, (MPI_Sendrecv env0 { CL.s with mem := memAll } 1000 2 (-3) 0 5 1000 2 (-3) 0 5 1 .null >>= fun x => Res.ok x.1.mem) = .ub e := by
  have hr : Reach env0 { CL.s with mem := memAll } CL.L := Reach.step CL_ok .memory
  have hi : StandsFor {} CL.L (-3) (.data (plain [(0, 2)])) := int_represents CL.L
  have hc : Committed {} CL.L (-3) := ⟨static1 4 2, rfl, by decide⟩
  exact C81_same (env := env0) (n := 2) hr cfg_default_ok (.sendrecv (sb := 1000) (rb := 1000) CL_exchange) hi hi hc hc
    (by constructor <;> decide +kernel) (by decide)

/-- C81_moved: `[7..10) -> [6..9)`, one byte at a time. -/
example (m : Mem) : Moved (fun _ => 1) m (oneByOne (fun _ => 1) ([(6, 0), (7, 0), (8, 0)].zip [(7, 0), (8, 0), (9, 0)]) m)
    [(7, 0), (8, 0), (9, 0)] [(6, 0), (7, 0), (8, 0)] :=
  C81_moved (by decide) (by unfold ElemsDisjoint Apart; decide) (by unfold Apart; decide) m

/-- C81_exact_waiting: three characters wait at 100 (`H2`) and are received at 99. -/
example : (MPI_Irecv env0 { H2.s with mem := memAll } 99 3 (-1) 0 5 1 >>= fun x => Res.ok x.1.mem) =
    .ok (oneByOne (sz {}) [((99, 0), (100, 0)), ((100, 0), (101, 0)), ((101, 0), (102, 0))] memAll) := by
  have hr : Reach env0 { H2.s with mem := memAll } H2.L := Reach.step H2_ok .memory
  refine (C81_exact_waiting hr cfg_default_ok
    (Collects.irecv (L := H2.L) (src := 0) (tag := 5) (comm := 1) (buf := 99) (count := 3) (dtype := -1)
      (c := 0) (j := 0) (o := ⟨.send, 0, 5, 100, 3, -1, 2, .pending⟩)
      ⟨by decide +kernel, by decide +kernel, by decide +kernel⟩ (Or.inl rfl)
      ⟨by decide +kernel, by decide, by decide, fun j' o' h => by omega⟩)
    (char_represents (H2.L)) ⟨static1 1 0, rfl, by decide⟩ (by constructor <;> decide +kernel)).1 ?_
  have hx : ∀ x ∈ [((99, 0), (100, 0)), ((100, 0), (101, 0)), ((101, 0), (102, 0))], Copyable (sz env0.cfg) memAll x.1 x.2 := by
    intro x hx
    refine ⟨fun _ _ => rfl, fun _ _ => rfl, ?_⟩
    simp only [List.mem_cons, List.not_mem_nil, or_false] at hx
    rcases hx with rfl | rfl | rfl <;> (unfold Apart; decide)
  exact hx

end MpiSerial
