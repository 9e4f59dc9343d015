import Verif.Spec.Packing
import Verif.Props.PackCalls
import Verif.Proofs.Dom

/-!
# Messages of many pieces (C70)
-/

set_option linter.unusedSimpArgs false
set_option autoImplicit false

namespace MpiSerial

open Spec

section
variable {z : Int → Int} {m m1 m2 : Mem} {es fs : List Entry} {p : Int}

theorem total_append (z : Int → Int) (es fs : List Entry) : total z (es ++ fs) = total z es + total z fs := by
  unfold total
  rw [List.map_append, List.sum_append]

theorem packedOffset_left {i : Nat} (h : i < es.length) : packedOffset z (es ++ fs) i = packedOffset z es i := by
  unfold packedOffset
  rw [List.take_append_of_le_length (by omega)]

theorem packedOffset_right {i : Nat} (h : es.length ≤ i) :
    packedOffset z (es ++ fs) i = total z es + packedOffset z fs (i - es.length) := by
  unfold packedOffset total
  rw [List.take_append, List.take_of_length_le h, List.map_append, List.sum_append]

theorem packedOffset_bound (hs : Sized z es) {i : Nat} {x : Entry} (hx : es[i]? = some x) :
    0 ≤ packedOffset z es i ∧ packedOffset z es i + z x.2 ≤ total z es := packedAt_bound hs hx

theorem Packed.append (h1 : Packed z m m1 es p) (h2 : Packed z m1 m2 fs (p + total z es)) (s1 : Sized z es) (s2 : Sized z fs)
    (ha : ∀ x ∈ fs, Apart x.1 (z x.2) p (total z es)) : Packed z m m2 (es ++ fs) p := by
  have t1 := total_nonneg s1
  have t2 := total_nonneg s2
  refine ⟨fun i x hx k hk0 hk => ?_, fun a hna => ?_⟩
  · by_cases hi : i < es.length
    · rw [List.getElem?_append_left hi] at hx
      have hb := packedOffset_bound s1 hx
      rw [packedOffset_left hi, h2.others _ (by unfold InBytes; omega)]
      exact h1.values i x hx k hk0 hk
    · rw [List.getElem?_append_right (by omega)] at hx
      have ha := ha x (List.mem_of_getElem? hx)
      rw [packedOffset_right (by omega), ← Int.add_assoc p, h2.values _ x hx k hk0 hk]
      refine h1.others _ ?_
      unfold InBytes
      change ¬ (p ≤ _ ∧ _ < p + total z es)
      unfold Apart at ha
      omega
  · have e : ((es ++ fs).map fun x => z x.2).sum = total z es + total z fs := total_append z es fs
    rw [e] at hna
    rw [h2.others a (by change ¬ InBytes a _ (total z fs); unfold InBytes at hna ⊢; omega),
      h1.others a (by change ¬ InBytes a _ (total z es); unfold InBytes at hna ⊢; omega)]

theorem Unpacked.append (h1 : Unpacked z m m1 es p) (h2 : Unpacked z m1 m2 fs (p + total z es)) (s1 : Sized z es) (s2 : Sized z fs)
    (ha : ∀ x ∈ es, Apart x.1 (z x.2) p (total z es + total z fs)) (hd : ElemsApart z es fs) :
    Unpacked z m m2 (es ++ fs) p := by
  have t1 := total_nonneg s1
  have t2 := total_nonneg s2
  refine ⟨fun i x hx k hk0 hk => ?_, fun a hna => ?_⟩
  · by_cases hi : i < es.length
    · rw [List.getElem?_append_left hi] at hx
      rw [packedOffset_left hi, h2.others _ ?_]
      · exact h1.values i x hx k hk0 hk
      · intro y hy
        have := hd x (List.mem_of_getElem? hx) y hy
        unfold Apart at this
        unfold InBytes
        omega
    · rw [List.getElem?_append_right (by omega)] at hx
      have hb := packedOffset_bound s2 hx
      rw [packedOffset_right (by omega), ← Int.add_assoc p, h2.values _ x hx k hk0 hk]
      refine h1.others _ fun y hy => ?_
      have := ha y hy
      unfold Apart at this
      unfold InBytes
      omega
  · rw [h2.others a fun x hx => hna x (List.mem_append_right _ hx), h1.others a fun x hx => hna x (List.mem_append_left _ hx)]

end

section
variable {env : Env} {s : Sys} {L : Ledger} {comm : Int}

/-- The elements of a piece have a positive size, and add up to its size. -/
theorem piece_sized (hc : env.cfg.Ok) {h : Int} {τ : DType} (hd : StandsFor env.cfg L h (.data τ)) (n : Nat) (b : Int)
    (hs : Spec.size (sz env.cfg) τ ≤ 2147483647) :
    Sized (sz env.cfg) (placed (sz env.cfg) τ n b) ∧ total (sz env.cfg) (placed (sz env.cfg) τ n b) = n * Spec.size (sz env.cfg) τ ∧
      0 ≤ (n : Int) * Spec.size (sz env.cfg) τ := by
  obtain ⟨t, _, h2, _⟩ := hd
  obtain ⟨d1, d2, _⟩ := h2.dataDesc hc
  have e : elems t (extent (sz env.cfg) τ) n b = placed (sz env.cfg) τ n b := by unfold elems placed; rw [d2]
  have e' : mapSize env.cfg (typeMap t) = Spec.size (sz env.cfg) τ := by rw [d2]; rfl
  have hz : Type_size env.cfg t = .ok (Spec.size (sz env.cfg) τ) := by
    rw [Type_size_map hc d1 (by rw [e']; exact hs), e']
  have h3 := elems_sized hc d1 (extent (sz env.cfg) τ) n b
  have h4 := total_elems d1 hz (extent (sz env.cfg) τ) n b
  rw [e] at h3 h4
  exact ⟨h3, h4, by rw [← h4]; exact total_nonneg h3⟩

theorem pieces_sized (hc : env.cfg.Ok) : ∀ {ps : List Piece}, (∀ p ∈ ps, StandsFor env.cfg L p.handle (.data p.type)) →
    (∀ p ∈ ps, Spec.size (sz env.cfg) p.type ≤ 2147483647) →
    Sized (sz env.cfg) (elemsOf (sz env.cfg) ps) ∧ total (sz env.cfg) (elemsOf (sz env.cfg) ps) = bytesOf (sz env.cfg) ps ∧
      0 ≤ bytesOf (sz env.cfg) ps
  | [], _, _ => ⟨(fun x hx => by simp [elemsOf] at hx), rfl, Int.le_refl 0⟩
  | p :: ps, hd, hs => by
    obtain ⟨a1, a2, a3⟩ := piece_sized hc (hd p (List.mem_cons_self ..)) p.count p.buf (hs p (List.mem_cons_self ..))
    obtain ⟨b1, b2, b3⟩ := pieces_sized hc (fun q hq => hd q (List.mem_cons_of_mem _ hq)) (fun q hq => hs q (List.mem_cons_of_mem _ hq))
    have e1 : elemsOf (sz env.cfg) (p :: ps) = placed (sz env.cfg) p.type p.count p.buf ++ elemsOf (sz env.cfg) ps := List.flatMap_cons
    have e2 : bytesOf (sz env.cfg) (p :: ps) = p.count * Spec.size (sz env.cfg) p.type + bytesOf (sz env.cfg) ps := by
      unfold bytesOf; rw [List.map_cons, List.sum_cons]
    rw [e1, e2, total_append, a2, b2]
    exact ⟨fun x hx => (List.mem_append.1 hx).elim (a1 x) (b1 x), rfl, by omega⟩

theorem LegalPieces.tail {z : Int → Int} {p : Piece} {ps : List Piece} {packed room : Int} (h : LegalPieces z (p :: ps) packed room)
    (h0 : 0 ≤ (p.count : Int) * Spec.size z p.type) : LegalPieces z ps packed room := by
  have e1 : elemsOf z (p :: ps) = placed z p.type p.count p.buf ++ elemsOf z ps := List.flatMap_cons
  have e2 : bytesOf z (p :: ps) = p.count * Spec.size z p.type + bytesOf z ps := by
    unfold bytesOf; rw [List.map_cons, List.sum_cons]
  obtain ⟨a, b, c, d, e, f⟩ := h
  rw [e2] at e
  exact ⟨fun q hq => a q (List.mem_cons_of_mem _ hq), b, fun x hx => c x (by rw [e1]; exact List.mem_append_right _ hx), d,
    ⟨e.1, by omega⟩, fun x hx => f x (by rw [e1]; exact List.mem_append_right _ hx)⟩

theorem LegalPieces.head {z : Int → Int} {p : Piece} {ps : List Piece} {packed room pos : Int}
    (h : LegalPieces z (p :: ps) packed room) (hp : 0 ≤ pos ∧ pos ≤ room)
    (hb : packed + pos + p.count * Spec.size z p.type ≤ 18446744073709551616) :
    LegalPack z p.type p.count p.buf packed pos room := by
  have e1 : elemsOf z (p :: ps) = placed z p.type p.count p.buf ++ elemsOf z ps := List.flatMap_cons
  obtain ⟨a, b, c, d, e, f⟩ := h
  refine ⟨by omega, a p (List.mem_cons_self ..), by omega, fun x hx => c x (by rw [e1]; exact List.mem_append_left _ hx), by omega,
    ⟨hb, e.1⟩, fun x hx => ?_⟩
  have := f x (by rw [e1]; exact List.mem_append_left _ hx)
  unfold Apart at this ⊢
  omega

theorem pack_keeps {s s' : Sys} {a n h b z p q comm : Int} (hp : MPI_Pack env s a n h b z p comm = .ok (s', q)) :
    SameDom s.mem s'.mem := by
  have := (Call.pack a n h b z p comm).keeps_dom (env := env) (s := s) (m := s.mem) (fun _ => rfl) (fun _ => nofun)
  refine this s' ?_
  show (MPI_Pack env s a n h b z p comm >>= fun x => Res.ok x.1) = _
  rw [hp]
  rfl

theorem unpack_keeps {s s' : Sys} {a z p b n h q comm : Int} (hp : MPI_Unpack env s a z p b n h comm = .ok (s', q)) :
    SameDom s.mem s'.mem := by
  have := (Call.unpack a z p b n h comm).keeps_dom (env := env) (s := s) (m := s.mem) (fun _ => rfl) (fun _ => nofun)
  refine this s' ?_
  show (MPI_Unpack env s a z p b n h comm >>= fun x => Res.ok x.1) = _
  rw [hp]
  rfl

/-- C70, packing: the pieces are packed one after the other if there is room for all of them, and the program exits
otherwise; nothing but the packed bytes changes. -/
theorem C70_pack (hc : env.cfg.Ok) (hcm : IsComm L comm) {packed room : Int} :
    ∀ {ps : List Piece} {s : Sys} {pos : Int}, Reach env s L →
    (∀ p ∈ ps, StandsFor env.cfg L p.handle (.data p.type)) → LegalPieces (sz env.cfg) ps packed room →
    0 ≤ pos ∧ pos ≤ room → packed + pos + bytesOf (sz env.cfg) ps ≤ 18446744073709551616 →
    Accessible (sz env.cfg) (fun a => (s.mem a).isSome) (elemsOf (sz env.cfg) ps) →
    (∀ a, packed ≤ a → a < packed + room → (s.mem a).isSome) →
    if pos + bytesOf (sz env.cfg) ps ≤ room then
      ∃ m', packAll env packed room comm ps s pos = .ok ({ s with mem := m' }, pos + bytesOf (sz env.cfg) ps) ∧
        Packed (sz env.cfg) s.mem m' (elemsOf (sz env.cfg) ps) (packed + pos) ∧ SameDom s.mem m'
    else packAll env packed room comm ps s pos = .exit 1
  | [], s, pos, _, _, _, hp, _, _, _ => by
    have e : bytesOf (sz env.cfg) [] = 0 := rfl
    rw [e, Int.add_zero, if_pos hp.2]
    exact ⟨s.mem, rfl, ⟨fun i x hx => by simp [elemsOf] at hx, fun _ _ => rfl⟩, fun _ => rfl⟩
  | p :: ps, s, pos, hr, hd, hl, hp, hb, hin, hout => by
    have hd1 := hd p (List.mem_cons_self ..)
    have hd2 := fun q hq => hd q (List.mem_cons_of_mem p hq)
    obtain ⟨a1, a2, a3⟩ := piece_sized hc hd1 p.count p.buf (hl.small p (List.mem_cons_self ..))
    have hl2 := hl.tail a3
    obtain ⟨b1, b2, b3⟩ := pieces_sized hc hd2 hl2.small
    have e1 : elemsOf (sz env.cfg) (p :: ps) = placed (sz env.cfg) p.type p.count p.buf ++ elemsOf (sz env.cfg) ps := List.flatMap_cons
    have e2 : bytesOf (sz env.cfg) (p :: ps) = p.count * Spec.size (sz env.cfg) p.type + bytesOf (sz env.cfg) ps := by
      unfold bytesOf; rw [List.map_cons, List.sum_cons]
    rw [e1, e2]
    rw [e2] at hb
    rw [e1] at hin
    have h1 := (C34_pack_call hr hc hd1 hcm (hl.head hp (by omega)) (fun x hx => hin x (List.mem_append_left _ hx))
      (fun a h1 h2 => hout a (by omega) h2)).2
    unfold packAll
    split at h1
    · rename_i hle
      obtain ⟨m1, h2, h3⟩ := h1
      have hk := pack_keeps h2
      have ih := C70_pack hc hcm (ps := ps) (s := { s with mem := m1 }) (pos := pos + p.count * Spec.size (sz env.cfg) p.type)
        (hr.step .memory) hd2 hl2 ⟨by omega, hle⟩ (by omega) (fun x hx a ha => by
          show (m1 a).isSome = true
          rw [hk a]
          exact hin x (List.mem_append_right _ hx) a ha) (fun a h5 h6 => by
          show (m1 a).isSome = true
          rw [hk a]
          exact hout a h5 h6)
      rw [h2, Res.ok_bind]
      dsimp only
      split at ih
      · rename_i hle2
        obtain ⟨m2, h4, h5, h6⟩ := ih
        rw [if_pos (by omega), h4]
        refine ⟨m2, by rw [Int.add_assoc], h3.append ?_ a1 b1 ?_, fun a => (h6 a).trans (hk a)⟩
        · rw [a2, Int.add_assoc packed]
          exact h5
        · intro x hx
          have := hl2.apart x hx
          rw [a2]
          unfold Apart at this ⊢
          omega
      · rename_i hle2
        rw [if_neg (by omega)]
        exact ih
    · rename_i hle
      rw [if_neg (by omega), h1]
      rfl

/-- C70, unpacking: the pieces are unpacked one after the other, if there are enough bytes, and the program exits
otherwise; nothing but the pieces changes. -/
theorem C70_unpack (hc : env.cfg.Ok) (hcm : IsComm L comm) {packed room : Int} :
    ∀ {ps : List Piece} {s : Sys} {pos : Int}, Reach env s L →
    (∀ p ∈ ps, StandsFor env.cfg L p.handle (.data p.type)) → LegalPieces (sz env.cfg) ps packed room →
    ElemsDisjoint (sz env.cfg) (elemsOf (sz env.cfg) ps) →
    0 ≤ pos ∧ pos ≤ room → packed + pos + bytesOf (sz env.cfg) ps ≤ 18446744073709551616 →
    Accessible (sz env.cfg) (fun a => (s.mem a).isSome) (elemsOf (sz env.cfg) ps) →
    (∀ a, packed ≤ a → a < packed + room → (s.mem a).isSome) →
    if pos + bytesOf (sz env.cfg) ps ≤ room then
      ∃ m', unpackAll env packed room comm ps s pos = .ok ({ s with mem := m' }, pos + bytesOf (sz env.cfg) ps) ∧
        Unpacked (sz env.cfg) s.mem m' (elemsOf (sz env.cfg) ps) (packed + pos) ∧ SameDom s.mem m'
    else unpackAll env packed room comm ps s pos = .exit 1
  | [], s, pos, _, _, _, _, hp, _, _, _ => by
    have e : bytesOf (sz env.cfg) [] = 0 := rfl
    rw [e, Int.add_zero, if_pos hp.2]
    exact ⟨s.mem, rfl, ⟨fun i x hx => by simp [elemsOf] at hx, fun _ _ => rfl⟩, fun _ => rfl⟩
  | p :: ps, s, pos, hr, hd, hl, hdis, hp, hb, hin, hout => by
    have hd1 := hd p (List.mem_cons_self ..)
    have hd2 := fun q hq => hd q (List.mem_cons_of_mem p hq)
    obtain ⟨a1, a2, a3⟩ := piece_sized hc hd1 p.count p.buf (hl.small p (List.mem_cons_self ..))
    have hl2 := hl.tail a3
    obtain ⟨b1, b2, b3⟩ := pieces_sized hc hd2 hl2.small
    have e1 : elemsOf (sz env.cfg) (p :: ps) = placed (sz env.cfg) p.type p.count p.buf ++ elemsOf (sz env.cfg) ps := List.flatMap_cons
    have e2 : bytesOf (sz env.cfg) (p :: ps) = p.count * Spec.size (sz env.cfg) p.type + bytesOf (sz env.cfg) ps := by
      unfold bytesOf; rw [List.map_cons, List.sum_cons]
    have hap := hl.apart
    rw [e1, e2]
    rw [e2] at hb
    rw [e1] at hin hdis hap
    unfold ElemsDisjoint at hdis
    obtain ⟨d1, d2, d3⟩ := List.pairwise_append.1 hdis
    have h1 := C34_unpack_call hr hc hd1 hcm (hl.head hp (by omega)) d1 (fun x hx => hin x (List.mem_append_left _ hx))
      (fun a h1 h2 => hout a (by omega) h2)
    unfold unpackAll
    split at h1
    · rename_i hle
      obtain ⟨m1, h2, h3⟩ := h1
      have hk := unpack_keeps h2
      have ih := C70_unpack hc hcm (ps := ps) (s := { s with mem := m1 }) (pos := pos + p.count * Spec.size (sz env.cfg) p.type)
        (hr.step .memory) hd2 hl2 d2 ⟨by omega, hle⟩ (by omega) (fun x hx a ha => by
          show (m1 a).isSome = true
          rw [hk a]
          exact hin x (List.mem_append_right _ hx) a ha) (fun a h5 h6 => by
          show (m1 a).isSome = true
          rw [hk a]
          exact hout a h5 h6)
      rw [h2, Res.ok_bind]
      dsimp only
      split at ih
      · rename_i hle2
        obtain ⟨m2, h4, h5, h6⟩ := ih
        rw [if_pos (by omega), h4]
        refine ⟨m2, by rw [Int.add_assoc], h3.append ?_ a1 b1 ?_ d3, fun a => (h6 a).trans (hk a)⟩
        · rw [a2, Int.add_assoc packed]
          exact h5
        · intro x hx
          have := hap x (List.mem_append_left _ hx)
          rw [a2, b2]
          unfold Apart at this ⊢
          omega
      · rename_i hle2
        rw [if_neg (by omega)]
        exact ih
    · rename_i hle
      rw [if_neg (by omega), h1]
      rfl

/-! ## The message -/

def byteType : DType := Spec.plain [(0, 11)]

theorem packed_standsFor (hc : env.cfg.Ok) : StandsFor env.cfg L packedType (.data byteType) :=
  ⟨static1 1 11, rfl, .basic (t := static1 1 11) ⟨by simp [simpletypes], by decide, by decide⟩, fun h => absurd h (by decide)⟩

theorem packed_committed : Committed env.cfg L packedType := ⟨static1 1 11, rfl, by decide⟩

theorem sz_byte (cfg : Cfg) : sz cfg 11 = 1 := rfl

theorem byte_placed (cfg : Cfg) (n b : Int) :
    placed (sz cfg) byteType n b = (List.range n.toNat).map fun (i : Nat) => (b + i, 11) := by
  have e : extent (sz cfg) byteType = 1 := by
    simp [extent, byteType, Spec.plain, Spec.ub, Spec.lb, align, sz_byte, roundUp]
  unfold placed repeated
  rw [e]
  generalize n.toNat = k
  induction k with
  | zero => rfl
  | succ k ih =>
    rw [List.range_succ, List.flatMap_append, ih, List.map_append]
    simp [byteType, Spec.plain, shift]

theorem carry_legal {cfg : Cfg} {pb rb n : Int} (h : LegalCarry pb rb n) :
    LegalExchange (sz cfg) (cfg.typeChecking = true) pb n byteType rb n byteType := by
  obtain ⟨h1, h2, h3, h4⟩ := h
  have hlen : byteType.map.length = 1 := rfl
  have hmem : ∀ {b : Int} {x : Entry}, x ∈ placed (sz cfg) byteType n b → x.2 = 11 ∧ b ≤ x.1 ∧ x.1 < b + n := by
    intro b x hx
    rw [byte_placed] at hx
    obtain ⟨i, hi, rfl⟩ := List.mem_map.1 hx
    have := List.mem_range.1 hi
    exact ⟨rfl, by dsimp only; omega, by dsimp only; omega⟩
  refine ⟨h1.1, h1.1, by rw [hlen]; omega, by rw [hlen]; omega, ?_, ?_, ?_, ?_, ?_, ?_⟩
  · rw [byte_placed, byte_placed]; simp
  · intro x hx
    have := hmem (List.mem_of_mem_take hx)
    omega
  · intro x hx
    have := hmem hx
    omega
  · intro x hx
    obtain ⟨a, b⟩ := x
    have e1 := (hmem (List.of_mem_zip hx).1).1
    have e2 := (hmem (List.of_mem_zip hx).2).1
    dsimp only at e1 e2 ⊢
    rw [e1, e2]
    exact ⟨rfl, fun _ => rfl⟩
  · unfold ElemsDisjoint
    rw [byte_placed, List.pairwise_map]
    refine List.Pairwise.imp ?_ List.pairwise_lt_range
    intro i j hij
    left
    show rb + (i : Int) + sz cfg 11 ≤ rb + j
    rw [sz_byte]
    omega
  · intro x hx y hy
    obtain ⟨a1, a2, a3⟩ := hmem hx
    obtain ⟨b1, b2, b3⟩ := hmem (List.mem_of_mem_take hy)
    rw [a1, b1, sz_byte]
    unfold Apart at h4 ⊢
    omega

/-- C70, the message: the packed bytes arrive, in both orders of posting. -/
theorem C70_carried (hr : Reach env s L) (hc : env.cfg.Ok) {pb rb n : Int} {R : Res Mem} (h : Carries env s L pb rb n R)
    (hl : LegalCarry pb rb n) (hsrc : ∀ a, InBytes a pb n → (s.mem a).isSome) (hdst : ∀ a, InBytes a rb n → (s.mem a).isSome) :
    ∃ m', R = .ok m' ∧ Carried s.mem m' pb rb n := by
  have hx := carry_legal (cfg := env.cfg) hl
  obtain ⟨t, a1, b1, _⟩ := packed_standsFor (env := env) (L := L) hc
  obtain ⟨_, a1', k1⟩ := packed_committed (env := env) (L := L)
  rw [a1] at a1'; cases a1'
  have ht := transfer_of_legal hc b1 b1 k1 k1 hx
  have m1 := (b1.dataDesc hc).2.1
  have hacc : ∀ {b : Int}, (∀ a, InBytes a b n → (s.mem a).isSome) →
      Accessible (sz env.cfg) (fun a => (s.mem a).isSome) (placed (sz env.cfg) byteType n b) := by
    intro b hb x hx a ha
    rw [byte_placed] at hx
    obtain ⟨i, hi, rfl⟩ := List.mem_map.1 hx
    have := List.mem_range.1 hi
    refine hb a ?_
    have e : InBytes a (b + i) 1 := ha
    unfold InBytes at e ⊢
    omega
  have hR : R = Pcopy_data2 env.cfg s.mem pb n t rb n t := by
    cases h with
    | send h => exact h.eq hr a1 a1
    | recv h => exact h.eq hr a1
  have e1 : elems t (extent (sz env.cfg) byteType) n pb = placed (sz env.cfg) byteType n pb := by unfold elems placed; rw [m1]
  have e2 : elems t (extent (sz env.cfg) byteType) n rb = placed (sz env.cfg) byteType n rb := by unfold elems placed; rw [m1]
  obtain ⟨m', hok⟩ := C32_succeeds hc ht (m := s.mem) (by rw [e2]; exact hacc hdst)
    (by rw [e1, e2]; exact fun x hx => hacc hsrc x (List.mem_of_mem_take hx))
  have hb := C32_bytes hc ht hok
  have hf := C31_frame_partial (b1.dataDesc hc).1.wf (b1.extent hc) ht.dstReach hok
  rw [e2] at hf
  rw [e1, e2, byte_placed, byte_placed] at hb
  refine ⟨m', hR.trans hok, fun k hk0 hk => ?_, fun a ha => hf a fun x hx hxa => ha ?_⟩
  · obtain ⟨y, hy, hy2⟩ := hb k.toNat (rb + k, 11) (by
      rw [List.getElem?_map, List.getElem?_range (by omega)]
      simp
      omega)
    rw [List.getElem?_map, List.getElem?_range (by omega)] at hy
    simp at hy
    have := hy2 0 (Int.le_refl 0) (by show (0 : Int) < sz env.cfg 11; rw [sz_byte]; decide)
    rw [← hy] at this
    rw [Int.add_zero, Int.add_zero] at this
    rw [this]
    congr 1
    omega
  · rw [byte_placed] at hx
    obtain ⟨i, hi, rfl⟩ := List.mem_map.1 hx
    have := List.mem_range.1 hi
    have e : InBytes a (rb + i) 1 := hxa
    unfold InBytes at e ⊢
    omega

theorem packedOffset_congr {z : Int → Int} {es fs : List Entry} (h : (es.map fun x => z x.2) = fs.map fun x => z x.2) (i : Nat) :
    packedOffset z es i = packedOffset z fs i := by
  unfold packedOffset
  rw [List.map_take, List.map_take, h]

/-- C70: pieces `ps` are packed at `pb`; later `n` bytes from `pb` on are sent as MPI_PACKED and received at `rb`; and later
still the received bytes are unpacked as pieces `qs`, whose elements have the sizes of those of `ps`, one by one.  All of this
succeeds, and every element of `qs` holds the bytes that the corresponding element of `ps` held when it was packed; the
unpacking ends at the position where packing ended, and none of the three steps changes any byte but the ones it has to.
In between the program may do anything that keeps the bytes at `pb`, and then those at `rb`. -/
theorem C70_message (hc : env.cfg.Ok) {ps qs : List Piece} {pb room rb n : Int}
    (hr : Reach env s L) (hcm : IsComm L comm) (hd : ∀ p ∈ ps, StandsFor env.cfg L p.handle (.data p.type))
    (hl : LegalPieces (sz env.cfg) ps pb room) (hfit : bytesOf (sz env.cfg) ps ≤ room)
    (hin : Accessible (sz env.cfg) (fun a => (s.mem a).isSome) (elemsOf (sz env.cfg) ps))
    (hbuf : ∀ a, InBytes a pb room → (s.mem a).isSome)
    (hn : bytesOf (sz env.cfg) ps ≤ n) (hcarry : LegalCarry pb rb n) (hlq : LegalPieces (sz env.cfg) qs rb n)
    (hdis : ElemsDisjoint (sz env.cfg) (elemsOf (sz env.cfg) qs))
    (hsizes : ((elemsOf (sz env.cfg) ps).map fun x => sz env.cfg x.2) = (elemsOf (sz env.cfg) qs).map fun x => sz env.cfg x.2) :
    ∃ m1, packAll env pb room comm ps s 0 = .ok ({ s with mem := m1 }, bytesOf (sz env.cfg) ps) ∧
      (∀ a, ¬ InBytes a pb (bytesOf (sz env.cfg) ps) → m1 a = s.mem a) ∧ SameDom s.mem m1 ∧
      ∀ {s2 : Sys} {L2 : Ledger} {R : Res Mem}, Reach env s2 L2 → Carries env s2 L2 pb rb n R →
        (∀ a, InBytes a pb (bytesOf (sz env.cfg) ps) → s2.mem a = m1 a) →
        (∀ a, InBytes a pb n ∨ InBytes a rb n → (s2.mem a).isSome) →
      ∃ m3, R = .ok m3 ∧ (∀ a, ¬ InBytes a rb n → m3 a = s2.mem a) ∧ SameDom s2.mem m3 ∧
      ∀ {s4 : Sys} {L4 : Ledger} {comm4 : Int}, Reach env s4 L4 → IsComm L4 comm4 →
        (∀ q ∈ qs, StandsFor env.cfg L4 q.handle (.data q.type)) →
        (∀ a, InBytes a rb (bytesOf (sz env.cfg) ps) → s4.mem a = m3 a) →
        Accessible (sz env.cfg) (fun a => (s4.mem a).isSome) (elemsOf (sz env.cfg) qs) →
        (∀ a, InBytes a rb n → (s4.mem a).isSome) →
      ∃ m5, unpackAll env rb n comm4 qs s4 0 = .ok ({ s4 with mem := m5 }, bytesOf (sz env.cfg) ps) ∧
        (∀ (i : Nat) (x y : Entry), (elemsOf (sz env.cfg) ps)[i]? = some x → (elemsOf (sz env.cfg) qs)[i]? = some y →
          ∀ k, 0 ≤ k → k < sz env.cfg y.2 → m5 (y.1 + k) = s.mem (x.1 + k)) ∧
        (∀ a, (∀ y ∈ elemsOf (sz env.cfg) qs, ¬ InBytes a y.1 (sz env.cfg y.2)) → m5 a = s4.mem a) := by
  obtain ⟨p1, p2, p3⟩ := pieces_sized hc hd hl.small
  have h1 := C70_pack hc hcm hr hd hl ⟨Int.le_refl 0, hl.ints.1⟩ (by rw [Int.add_zero]; exact hl.packedHi.2) hin
    (fun a h1 h2 => hbuf a ⟨h1, h2⟩)
  rw [Int.zero_add, if_pos hfit] at h1
  obtain ⟨m1, h1, h2, hdom⟩ := h1
  rw [Int.add_zero] at h2
  refine ⟨m1, h1, fun a ha => h2.others a (by change ¬ InBytes a pb (total _ _); rw [p2]; exact ha), hdom, ?_⟩
  intro s2 L2 R hr2 hx hkeep hacc
  obtain ⟨m3, h3, h4⟩ := C70_carried hr2 hc hx hcarry (fun a h => hacc a (Or.inl h)) (fun a h => hacc a (Or.inr h))
  refine ⟨m3, h3, h4.others, fun a => ?_, ?_⟩
  · by_cases ha : InBytes a rb n
    · have := h4.bytes (a - rb) (by unfold InBytes at ha; omega) (by unfold InBytes at ha; omega)
      rw [show rb + (a - rb) = a by omega] at this
      rw [this, hacc a (Or.inr ha), hacc _ (Or.inl (by unfold InBytes at ha ⊢; omega))]
    · rw [h4.others a ha]
  intro s4 L4 comm4 hr4 hcm4 hd4 hkeep4 hacc4 hbuf4
  obtain ⟨q1, q2, q3⟩ := pieces_sized hc hd4 hlq.small
  have hbytes : bytesOf (sz env.cfg) qs = bytesOf (sz env.cfg) ps := by
    rw [← p2, ← q2]
    unfold total
    rw [hsizes]
  have h5 := C70_unpack hc hcm4 hr4 hd4 hlq hdis ⟨Int.le_refl 0, hlq.ints.1⟩ (by rw [Int.add_zero]; exact hlq.packedHi.2) hacc4
    (fun a h1 h2 => hbuf4 a ⟨h1, h2⟩)
  rw [Int.zero_add, hbytes, if_pos hn] at h5
  obtain ⟨m5, h5, h6, _⟩ := h5
  rw [Int.add_zero] at h6
  refine ⟨m5, h5, fun i x y hx hy k hk0 hk => ?_, h6.others⟩
  have hxy : sz env.cfg x.2 = sz env.cfg y.2 := by
    have e1 := congrArg (fun l => l[i]?) hsizes
    rw [List.getElem?_map, List.getElem?_map, hx, hy] at e1
    exact Option.some.inj e1
  have hb := packedOffset_bound q1 hy
  have hb' := packedOffset_bound p1 hx
  have hoff := packedOffset_congr hsizes i
  rw [h6.values i y hy k hk0 hk, hkeep4 _ (by unfold InBytes; omega), Int.add_assoc rb, h4.bytes _ (by omega) (by omega), ← Int.add_assoc pb, ← hoff,
    hkeep _ (by unfold InBytes; omega)]
  exact h2.values i x hx k hk0 (by omega)

end

/-! ## Instances -/

/-- A vector (the bytes at 100 and 102) and the character at 110. -/
def demoPieces : List Piece := [⟨100, 1, 2, vec2⟩, ⟨110, 1, -1, Spec.plain [(0, 0)]⟩]
/-- Three characters at 500. -/
def demoTargets : List Piece := [⟨500, 3, -1, Spec.plain [(0, 0)]⟩]

/-- A receive of three MPI_PACKED at 400 has been posted. -/
def PK : Demo := V2.irecv 400 3 (-13) 0 5 1 0
theorem PK_ok : PK.Ok := Demo.irecv_ok V2_ok (by decide +kernel) (by decide +kernel)
theorem PK_ready : Ready PK.L 1 0 := ⟨by decide +kernel, by decide +kernel, by decide +kernel⟩
theorem PK_meets : Earliest PK.L .recv 0 (fun t => accepts t 5) 0 ⟨.recv, 0, 5, 400, 3, -13, 3, .pending⟩ :=
  ⟨by decide +kernel, by decide, by decide, fun j' o' h => by omega⟩

theorem V2_type : V2.L.desc {} 2 = some vecDesc := by decide +kernel

theorem demo_stands : ∀ p ∈ demoPieces, StandsFor {} V2.L p.handle (.data p.type) := by
  intro p hp
  rcases List.mem_cons.1 hp with rfl | hp
  · exact ⟨vecDesc, V2_type, vecDesc_describes.1, fun _ τ h => by cases h; exact vecDesc_describes.2⟩
  · rw [List.mem_singleton.1 hp]
    exact char_standsFor _

theorem demo_legal : LegalPieces (sz {}) demoPieces 300 10 ∧ LegalPieces (sz {}) demoTargets 400 3 ∧ LegalCarry 300 400 3 := by
  refine ⟨?_, ?_, ?_⟩ <;> constructor <;> decide +kernel

/-- C70_message (and with it C70_pack, C70_carried, C70_unpack): a vector and a character are packed, sent and unpacked as
three characters. -/
example : ∃ m1 m3 m5 : Mem,
    packAll env0 300 10 1 demoPieces { V2.s with mem := memAll } 0 = .ok ({ V2.s with mem := m1 }, 3) ∧
    (MPI_Isend env0 { PK.s with mem := m1 } 300 3 (-13) 0 5 1 >>= fun x => Res.ok x.1.mem) = .ok m3 ∧
    unpackAll env0 400 3 1 demoTargets { PK.s with mem := m3 } 0 = .ok ({ PK.s with mem := m5 }, 3) ∧
    m5 500 = memAll 100 ∧ m5 501 = memAll 102 ∧ m5 502 = memAll 110 := by
  have hr : Reach env0 { V2.s with mem := memAll } V2.L := Reach.step V2_ok .memory
  have hr2 : ∀ m, Reach env0 { PK.s with mem := m } PK.L := fun m => Reach.step PK_ok .memory
  have e3 : bytesOf (sz {}) demoPieces = 3 := by decide +kernel
  obtain ⟨m1, h1, _, d1, k1⟩ := C70_message (env := env0) (comm := 1) (qs := demoTargets) (room := 10) (pb := 300) (rb := 400) (n := 3)
    cfg_default_ok hr ⟨0, by decide +kernel⟩ demo_stands demo_legal.1 (by rw [show bytesOf (sz env0.cfg) demoPieces = 3 from e3]; decide)
    (fun _ _ _ _ => rfl) (fun _ _ => rfl) (by rw [show bytesOf (sz env0.cfg) demoPieces = 3 from e3]; decide) demo_legal.2.2
    demo_legal.2.1 (by decide +kernel) (by decide +kernel)
  rw [show bytesOf (sz env0.cfg) demoPieces = 3 from e3] at h1 k1
  have acc : ∀ a, (m1 a).isSome = true := fun a => by rw [d1 a]; rfl
  obtain ⟨m3, h3, _, d3, k3⟩ := k1 (hr2 m1) (.send (.isend PK_ready PK_meets)) (fun _ _ => rfl) (fun a _ => acc a)
  obtain ⟨m5, h5, v, _⟩ := k3 (comm4 := 1) (hr2 m3) ⟨0, by decide +kernel⟩
    (fun q hq => by rw [List.mem_singleton.1 hq]; exact char_standsFor _) (fun _ _ => rfl)
    (fun _ _ a _ => by show (m3 a).isSome = true; rw [d3 a]; exact acc a) (fun a _ => by show (m3 a).isSome = true; rw [d3 a]; exact acc a)
  dsimp only at h1 h5
  refine ⟨m1, m3, m5, h1, h3, h5, ?_, ?_, ?_⟩
  · exact v 0 (100, 0) (500, 0) (by decide +kernel) (by decide +kernel) 0 (by decide) (by decide)
  · exact v 1 (102, 0) (501, 0) (by decide +kernel) (by decide +kernel) 0 (by decide) (by decide)
  · exact v 2 (110, 0) (502, 0) (by decide +kernel) (by decide +kernel) 0 (by decide) (by decide)

/-- One byte less room in the packing buffer: the program exits (C70_pack). -/
example : packAll env0 300 2 1 demoPieces { V2.s with mem := memAll } 0 = .exit 1 := by
  have h := C70_pack (env := env0) (comm := 1) (L := V2.L) (packed := 300) (room := 2) (ps := demoPieces) (pos := 0) cfg_default_ok
    ⟨0, by decide +kernel⟩ (Reach.step V2_ok .memory : Reach env0 { V2.s with mem := memAll } V2.L) demo_stands
    (by constructor <;> decide +kernel) (by decide) (by decide +kernel) (fun _ _ _ _ => rfl) (fun _ _ _ => rfl)
  rwa [if_neg (by decide +kernel)] at h

end MpiSerial
