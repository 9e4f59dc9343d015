import Verif.Proofs.Ideal
import Verif.Props.PackCalls
import Verif.Props.Coll

/-!
# Datatypes of the standard and descriptors

`Mirror env M I`: machine `I` (`Spec/Ideal.lean`) is in the state of reference machine `M`.
-/

set_option linter.unusedSimpArgs false
set_option autoImplicit false

namespace MpiSerial

open Res (Rel)
open Spec

/-! ## Predefined datatypes -/

theorem kindSize_eq (cfg : Cfg) : kindSize cfg = sz cfg := by
  funext k
  unfold kindSize
  dsimp only
  split
  · rename_i h
    show 0 = lenOf cfg k
    unfold lenOf Simpletype_length
    split
    · rename_i hk
      split at hk <;> first | omega | cases hk
    · rfl
  · rename_i h
    obtain ⟨n, rfl⟩ := Int.eq_ofNat_of_zero_le (Int.not_lt.1 h)
    by_cases hn : n < 35
    · rw [Int.toNat_natCast]
      match n, hn with
      | 0, _ | 1, _ | 2, _ | 3, _ | 4, _ | 5, _ | 6, _ | 7, _ | 8, _ | 9, _ | 10, _ | 11, _ | 12, _ | 13, _ | 14, _ | 15, _
      | 16, _ | 17, _ | 18, _ | 19, _ | 20, _ | 21, _ | 22, _ | 23, _ | 24, _ | 25, _ | 26, _ | 27, _ | 28, _ | 29, _ | 30, _
      | 31, _ | 32, _ | 33, _ | 34, _ => rfl
      | n + 35, h' => omega
    · rw [List.getElem?_eq_none (by simp; omega)]
      show 0 = lenOf cfg n
      unfold lenOf Simpletype_length
      split
      · rename_i hk
        split at hk <;> first | omega | cases hk
      · rfl

/-- A descriptor stands for `c`, and holds the bounds that are reported for handle `h`. -/
structure Stands (cfg : Cfg) (t : Typestruct) (h : Int) (c : Comp) : Prop where
  desc : Describes cfg t c
  lb : ∀ τ, c = .data τ → Type_lb t = u64 (Spec.lb τ)
  ub : ∀ τ, c = .data τ → Type_ub t = u64 (if h < 0 then extent (sz cfg) τ else Spec.ub (sz cfg) τ)

theorem roundUp_self (y : Int) : roundUp y y = y := by
  unfold Spec.roundUp; rw [if_pos (Int.emod_self ..)]

theorem extent_single (z : Int → Int) (k : Int) : extent z (plain [(0, k)]) = z k := by
  show roundUp (0 + z k - 0) (z k) = z k
  rw [show 0 + z k - 0 = z k by omega, roundUp_self]

theorem extent_couple (z : Int → Int) (a b d : Int) (h0 : 0 ≤ d) : extent z (plain [(0, a), (d, b)]) = roundUp (max (z a) (d + z b)) (max (z a) (z b)) := by
  show roundUp (max (0 + z a) (d + z b) - min 0 d) (max (z a) (z b)) = _
  rw [show max (0 + z a) (d + z b) - min 0 d = max (z a) (d + z b) by omega]

theorem stands_single {cfg : Cfg} {h k ub : Int} (hm : static1 ub k ∈ simpletypes cfg) (hk : k ≠ 12 ∧ k ≠ 13 ∧ k ≠ 25) (hu : sz cfg k = ub) (hh : h < 0) :
    Stands cfg (static1 ub k) h (.data (plain [(0, k)])) := by
  refine ⟨.basic (t := static1 ub k) ⟨hm, ?_, ?_⟩, ?_, ?_⟩
  · intro hi
    rcases hi with hi | hi <;>
    · have := congrArg (fun t => (t.pairs.map Pair.type)) hi
      simp [static1] at this
      omega
  · intro he
    have := congrArg (fun t => (t.pairs.map Pair.type)) he
    simp [static1] at this
    omega
  · intro τ he; cases he; rfl
  · intro τ he; cases he
    rw [if_pos hh, extent_single, hu]
    rfl

theorem stands_couple {cfg : Cfg} {h a b d ub : Int} (m n : Int) (hm : static2 ub a d b ∈ simpletypes cfg) (ha : kindSize cfg a = m)
    (hb : kindSize cfg b = n) (hd : d = roundUp m n) (h0 : 0 ≤ d) (hu : ub = roundUp (max m (d + n)) (max m n)) (hh : h < 0) :
    Stands cfg (static2 ub a d b) h (.data (plain [(0, a), (roundUp (kindSize cfg a) (kindSize cfg b), b)])) := by
  rw [ha, hb, ← hd]
  refine ⟨.basic (t := static2 ub a d b) ⟨hm, ?_, ?_⟩, ?_, ?_⟩
  · intro hi
    rcases hi with hi | hi <;>
    · have := congrArg Typestruct.count hi
      simp [static1, static2] at this
  · intro he
    have := congrArg Typestruct.count he
    simp [static1, static2] at this
  · intro τ he; cases he
    show u64 0 = u64 (min 0 d)
    rw [show min 0 d = 0 by omega]
  · intro τ he; cases he
    rw [if_pos hh, extent_couple _ _ _ _ h0]
    rw [kindSize_eq] at ha hb
    rw [ha, hb, ← hu]
    rfl

theorem predefined_stands {cfg : Cfg} (hc : cfg.Ok) {h : Int} {c : Comp} (hp : predefinedComp cfg h = some c) :
    ∃ t, (simpletypes cfg)[(-1 - h).toNat]? = some t ∧ Stands cfg t h c ∧ t.committed ≠ 0 := by
  unfold predefinedComp at hp
  split at hp
  · rename_i hh
    have hh' := hh
    generalize hn : (-1 - h).toNat = n at hp ⊢
    have hlt : n < 45 := by
      by_cases hl : n < 45
      · exact hl
      · rw [List.getElem?_eq_none (by simp; omega)] at hp
        cases hp
    clear hn
    have dbl : ∀ x : Int, 1 ≤ x → 2 * x = roundUp (max x (x + x)) (max x x) := fun x hx => by
      rw [show max x (x + x) = x + x by omega, roundUp_double]
    have s1 : ∀ {n : Nat} {ub k : Int}, (simpletypes cfg)[n]? = some (static1 ub k) → (k ≠ 12 ∧ k ≠ 13 ∧ k ≠ 25) → sz cfg k = ub →
        single k = some c → ∃ t, (simpletypes cfg)[n]? = some t ∧ Stands cfg t h c ∧ t.committed ≠ 0 := by
      intro n ub k e1 e2 e3 e4
      cases e4
      exact ⟨_, e1, stands_single (List.mem_of_getElem? e1) e2 e3 hh, by simp [static1]⟩
    have s2 : ∀ {n : Nat} {ub a d b : Int} (m k : Int), (simpletypes cfg)[n]? = some (static2 ub a d b) → kindSize cfg a = m → kindSize cfg b = k →
        d = roundUp m k → 0 ≤ d → ub = roundUp (max m (d + k)) (max m k) →
        couple cfg a b = some c → ∃ t, (simpletypes cfg)[n]? = some t ∧ Stands cfg t h c ∧ t.committed ≠ 0 := by
      intro n ub a d b m k e1 e2 e3 e4 e5 e6 e7
      cases e7
      exact ⟨_, e1, stands_couple m k (List.mem_of_getElem? e1) e2 e3 e4 e5 e6 hh, by simp [static2]⟩
    match n, hlt with
    | 0, _ => exact s1 (n := 0) rfl (by decide) rfl hp
    | 1, _ => exact s1 (n := 1) rfl (by decide) rfl hp
    | 2, _ => exact s1 (n := 2) rfl (by decide) rfl hp
    | 3, _ => exact s1 (n := 3) rfl (by decide) rfl hp
    | 4, _ => exact s1 (n := 4) rfl (by decide) rfl hp
    | 5, _ => exact s1 (n := 5) rfl (by decide) rfl hp
    | 6, _ => exact s1 (n := 6) rfl (by decide) rfl hp
    | 7, _ => exact s1 (n := 7) rfl (by decide) rfl hp
    | 8, _ => exact s1 (n := 8) rfl (by decide) rfl hp
    | 9, _ => exact s1 (n := 9) rfl (by decide) rfl hp
    | 10, _ => exact s1 (n := 10) rfl (by decide) rfl hp
    | 11, _ => exact s1 (n := 11) rfl (by decide) rfl hp
    | 12, _ => exact s1 (n := 12) rfl (by decide) rfl hp
    | 13, _ => cases (show some Comp.lb = some c from hp); exact ⟨_, rfl, ⟨.lb, fun _ he => (nomatch he), fun _ he => (nomatch he)⟩, by decide⟩
    | 14, _ => cases (show some Comp.ub = some c from hp); exact ⟨_, rfl, ⟨.ub, fun _ he => (nomatch he), fun _ he => (nomatch he)⟩, by decide⟩
    | 15, _ => exact s1 (n := 15) rfl (by decide) rfl hp
    | 16, _ => exact s1 (n := 16) rfl (by decide) rfl hp
    | 17, _ => exact s1 (n := 17) rfl (by decide) rfl hp
    | 18, _ => exact s1 (n := 18) rfl (by decide) rfl hp
    | 19, _ => exact s1 (n := 19) rfl (by decide) rfl hp
    | 20, _ => exact s1 (n := 20) rfl (by decide) rfl hp
    | 21, _ => exact s1 (n := 21) rfl (by decide) rfl hp
    | 22, _ => exact s2 (n := 22) cfg.fsizeReal cfg.fsizeReal rfl rfl rfl (roundUp_self _).symm (by have := hc.r1; omega) (dbl _ hc.r1) hp
    | 23, _ => exact s2 (n := 23) cfg.fsizeDouble cfg.fsizeDouble rfl rfl rfl (roundUp_self _).symm (by have := hc.d1; omega) (dbl _ hc.d1) hp
    | 24, _ => exact s2 (n := 24) 4 4 rfl rfl rfl (by decide) (by decide) (by decide) hp
    | 25, _ => exact s2 (n := 25) 4 4 rfl rfl rfl (by decide) (by decide) (by decide) hp
    | 26, _ => exact s2 (n := 26) 8 4 rfl rfl rfl (by decide) (by decide) (by decide) hp
    | 27, _ => exact s2 (n := 27) 8 4 rfl rfl rfl (by decide) (by decide) (by decide) hp
    | 28, _ => exact s2 (n := 28) 4 4 rfl rfl rfl (by decide) (by decide) (by decide) hp
    | 29, _ => exact s2 (n := 29) 2 4 rfl rfl rfl (by decide) (by decide) (by decide) hp
    | 30, _ => exact s2 (n := 30) 16 4 rfl rfl rfl (by decide) (by decide) (by decide) hp
    | 31, _ => exact s1 (n := 31) rfl (by decide) rfl hp
    | 32, _ => exact s1 (n := 32) rfl (by decide) rfl hp
    | 33, _ => exact s1 (n := 33) rfl (by decide) rfl hp
    | 34, _ => exact s1 (n := 34) rfl (by decide) rfl hp
    | 35, _ => exact absurd (show (none : Option Comp) = some c from hp) (by simp)
    | 36, _ => exact s1 (n := 36) rfl (by decide) rfl hp
    | 37, _ => exact s1 (n := 37) rfl (by decide) rfl hp
    | 38, _ => exact s1 (n := 38) rfl (by decide) rfl hp
    | 39, _ => exact s1 (n := 39) rfl (by decide) rfl hp
    | 40, _ => exact s1 (n := 40) rfl (by decide) rfl hp
    | 41, _ => exact s1 (n := 41) rfl (by decide) rfl hp
    | 42, _ => exact s1 (n := 42) rfl (by decide) rfl hp
    | 43, _ => exact s1 (n := 43) rfl (by decide) rfl hp
    | 44, _ => exact s1 (n := 44) rfl (by decide) rfl hp
    | n + 45, h' => omega
  · cases hp

/-! ## Moving data -/

theorem delivered_eq {z : Int → Int} {m m' : Mem} {send recv : List Entry} (hlen : recv.length ≤ send.length)
    (hv : ∀ (i : Nat) (d e : Entry), recv[i]? = some d → send[i]? = some e → ∀ k, 0 ≤ k → k < z d.2 → m' (d.1 + k) = m (e.1 + k))
    (ho : ∀ a, (∀ d ∈ recv, ¬ InBytes a d.1 (z d.2)) → m' a = m a) : m' = delivered z m send recv := by
  funext a
  unfold delivered
  split
  · rename_i d e hf
    have hp := List.find?_some hf
    rw [decide_eq_true_iff] at hp
    dsimp only at hp
    obtain ⟨i, hi⟩ := List.mem_iff_getElem?.1 (List.mem_of_find?_eq_some hf)
    obtain ⟨h1, h2⟩ := List.getElem?_zip_eq_some.1 hi
    have := hv i d e h1 h2 (a - d.1) (by omega) (by omega)
    rw [show d.1 + (a - d.1) = a by omega] at this
    exact this
  · rename_i hf
    refine ho a fun d hd hin => ?_
    obtain ⟨i, hi⟩ := List.mem_iff_getElem?.1 hd
    have hil := (List.getElem?_eq_some_iff.1 hi).1
    have hz : (recv.zip send)[i]? = some (d, send[i]) :=
      List.getElem?_zip_eq_some.2 ⟨hi, List.getElem?_eq_getElem (by omega)⟩
    have := List.find?_eq_none.1 hf _ (List.mem_of_getElem? hz)
    exact this (decide_eq_true hin)

theorem Moved.eq {z : Int → Int} {m m' : Mem} {send recv : List Entry} (hlen : recv.length ≤ send.length) (h : Moved z m m' send recv) :
    m' = delivered z m send recv := by
  refine delivered_eq hlen (fun i d e hd he => ?_) h.others
  obtain ⟨e', h1, h2⟩ := h.values i d hd
  rw [he] at h1
  cases h1
  exact h2

theorem lined_length (z : Int → Int) : ∀ (es : List Entry) (start : Int), (lined z es start).length = es.length
  | [], _ => rfl
  | _ :: es, start => by unfold lined; rw [List.length_cons, List.length_cons, lined_length z es]

theorem lined_get (z : Int → Int) : ∀ (es : List Entry) (start : Int) (i : Nat),
    (lined z es start)[i]? = (es[i]?).map fun e => (start + packedOffset z es i, e.2)
  | [], _, _ => by simp [lined]
  | e :: es, start, 0 => by simp [lined, packedOffset]
  | e :: es, start, i + 1 => by
    unfold lined
    rw [List.getElem?_cons_succ, List.getElem?_cons_succ, lined_get z es]
    congr 1
    funext x
    unfold packedOffset
    rw [List.take_succ_cons, List.map_cons, List.sum_cons]
    congr 1
    omega

theorem lined_covers (z : Int → Int) (a : Int) : ∀ (es : List Entry) (start : Int), InBytes a start (es.map fun x => z x.2).sum →
    ∃ d ∈ lined z es start, InBytes a d.1 (z d.2)
  | [], start, h => by
    unfold InBytes at h
    simp at h
    omega
  | e :: es, start, h => by
    by_cases hlt : a < start + z e.2
    · exact ⟨_, List.mem_cons_self .., h.1, hlt⟩
    · rw [List.map_cons, List.sum_cons] at h
      obtain ⟨d, h1, h2⟩ := lined_covers z a es (start + z e.2) ⟨by omega, by have := h.2; omega⟩
      exact ⟨d, List.mem_cons_of_mem _ h1, h2⟩

theorem Packed.eq {z : Int → Int} {m m' : Mem} {es : List Entry} {start : Int} (h : Packed z m m' es start) :
    m' = delivered z m es (lined z es start) := by
  refine delivered_eq (Nat.le_of_eq (lined_length ..)) (fun i d e hd he => ?_) fun a ha => ?_
  · rw [lined_get, he, Option.map_some] at hd
    cases hd
    exact h.values i e he
  · exact h.others a fun hin => by
      obtain ⟨d, h1, h2⟩ := lined_covers z a es start hin
      exact ha d h1 h2

theorem Unpacked.eq {z : Int → Int} {m m' : Mem} {es : List Entry} {start : Int} (h : Unpacked z m m' es start) :
    m' = delivered z m (lined z es start) es := by
  refine delivered_eq (Nat.le_of_eq (lined_length ..).symm) (fun i d e hd he => ?_) h.others
  rw [lined_get, hd, Option.map_some] at he
  cases he
  exact h.values i d hd

/-! ## The two machines -/

/-- Machine `I` is in the state of machine `M`. -/
structure Mirror (cfg : Cfg) (M : Mach) (I : Ideal) : Prop extends Pure M I.core where
  types : ∀ h τ b, (h, τ, b) ∈ I.types → ∃ t, (h, Obj.dtype t) ∈ M.L.objs ∧ Describes cfg t (.data τ) ∧ Reports cfg t τ ∧
    (b = true → t.committed ≠ 0)

theorem Mirror.start (cfg : Cfg) (m : Mem) : Mirror cfg (.start m) (.start m) :=
  ⟨⟨⟨rfl, rfl, rfl, rfl, rfl, rfl, rfl⟩, Fit.start⟩, fun _ _ _ h => nomatch h⟩

section
variable {cfg : Cfg} {M M' K : Mach} {I : Ideal}

/-- After a call that does not concern datatypes. -/
theorem Mirror.still (hm : Mirror cfg M I) (hs : Still M M' K) : Mirror cfg M' { I with core := K } :=
  ⟨hs.toPure, fun h τ b hb => by
    obtain ⟨t, h1, h2⟩ := hm.types h τ b hb
    exact ⟨t, hs.kept h t h1, h2⟩⟩

theorem Mirror.withMem (hm : Mirror cfg M I) (m : Mem) : Mirror cfg { M with mem := m } (I.withMem m) :=
  ⟨⟨⟨hm.core.ops, hm.core.objs, hm.core.ncomms, hm.core.nfreed, hm.core.inited, hm.core.pool, rfl⟩, hm.fit⟩, hm.types⟩

theorem Mirror.comp (hc : cfg.Ok) (hm : Mirror cfg M I) {h : Int} {c : Comp} {b : Bool} (hh : I.comp cfg h = some (c, b)) :
    ∃ t, M.L.desc cfg h = some t ∧ Stands cfg t h c ∧ (b = true → t.committed ≠ 0) := by
  have hn : (M.L.objs.map Prod.fst).Nodup := (List.nodup_append.1 hm.fit.nodup).1
  unfold Ideal.comp at hh
  split at hh
  · rename_i hl
    obtain ⟨c', hp, he⟩ := Option.map_eq_some_iff.1 hh
    cases he
    obtain ⟨t, h1, h2, h3⟩ := predefined_stands hc hp
    exact ⟨t, (desc_iff hn).2 (Or.inl ⟨hl, h1⟩), h2, fun _ => h3⟩
  · rename_i hl
    obtain ⟨e, hp, he⟩ := Option.map_eq_some_iff.1 hh
    cases he
    obtain ⟨h', τ, b⟩ := e
    have hk := List.find?_some hp
    rw [decide_eq_true_iff] at hk
    dsimp only at hk
    subst hk
    obtain ⟨t, h1, h2, h3, h4⟩ := hm.types _ _ _ (List.mem_of_find?_eq_some hp)
    refine ⟨t, (desc_iff hn).2 (Or.inr ⟨by omega, h1⟩), ⟨h2, fun τ he => ?_, fun τ he => ?_⟩, h4⟩
    · cases he; exact h3.lb
    · cases he; rw [if_neg hl]; exact h3.ub

theorem Mirror.data (hc : cfg.Ok) (hm : Mirror cfg M I) {h : Int} {τ : DType} (hh : I.IsData cfg h τ) :
    ∃ t, M.L.desc cfg h = some t ∧ Stands cfg t h (.data τ) ∧ I.type cfg h = .ok τ := by
  obtain ⟨b, hb⟩ := hh
  obtain ⟨t, h1, h2, _⟩ := hm.comp hc hb
  exact ⟨t, h1, h2, by unfold Ideal.type; rw [hb]⟩

theorem Mirror.isType {env : Env} (hc : env.cfg.Ok) (hm : Mirror env.cfg M I) {h : Int} {τ : DType} (hh : I.IsData env.cfg h τ) : IsType env M.L h := by
  obtain ⟨t, h1, _⟩ := hm.data hc hh
  exact ⟨t, h1⟩

theorem Ideal.Usable.isData {h : Int} {τ : DType} (hh : I.Usable cfg h τ) : I.IsData cfg h τ := ⟨_, hh⟩

theorem Mach.type_ok {env : Env} {h : Int} {t : Typestruct} (hd : M.L.desc env.cfg h = some t) : M.type env h = .ok t := by
  unfold Mach.type; rw [hd]

/-- A transfer. -/
theorem copy_exact (hc : cfg.Ok) {ts tr : Typestruct} {τs τr : DType}
    (hs : Describes cfg ts (.data τs)) (hr : Describes cfg tr (.data τr)) (hcs : ts.committed ≠ 0) (hcr : tr.committed ≠ 0)
    {sb sc rb rc : Int} (hl : LegalExchange (sz cfg) (cfg.typeChecking = true) sb sc τs rb rc τr) {m : Mem}
    (had : Accessible (sz cfg) (fun a => (m a).isSome) (placed (sz cfg) τr rc rb))
    (has : Accessible (sz cfg) (fun a => (m a).isSome) ((placed (sz cfg) τs sc sb).take (placed (sz cfg) τr rc rb).length)) :
    Pcopy_data2 cfg m sb sc ts rb rc tr = .ok (delivered (sz cfg) m (placed (sz cfg) τs sc sb) (placed (sz cfg) τr rc rb)) := by
  have ht := transfer_of_legal hc hs hr hcs hcr hl
  have m1 := (hs.dataDesc hc).2.1
  have m2 := (hr.dataDesc hc).2.1
  obtain ⟨m', hok⟩ := C32_succeeds hc ht (m := m) (by unfold elems; rw [m2]; exact had) (by unfold elems; rw [m1, m2]; exact has)
  have hb := C32_bytes hc ht hok
  have hf := C31_frame_partial (hr.dataDesc hc).1.wf (hr.extent hc) ht.dstReach hok
  unfold elems at hb hf
  rw [m1, m2] at hb
  rw [m2] at hf
  rw [hok]
  exact congrArg _ (Moved.eq hl.enough ⟨hb, hf⟩)

theorem zip_take_length {α β : Type} : ∀ (r : List α) (s : List β), r.zip (s.take r.length) = r.zip s
  | [], _ => by simp
  | _ :: _, [] => by simp
  | a :: r, b :: s => by simp [zip_take_length r s]

theorem placed_length (z : Int → Int) (τ : DType) (n a b : Int) : (placed z τ n a).length = (placed z τ n b).length := by
  unfold placed
  rw [repeated_length, repeated_length]

/-- A receive that finds its message waiting: the code describes the message with the type of the receive. -/
theorem legal_collect {z : Int → Int} {strict : Prop} {sb sc rb rc : Int} {τs τr : DType} (hl : LegalExchange z strict sb sc τs rb rc τr)
    (hp : placed z τr rc sb <+: placed z τs sc sb) :
    LegalExchange z strict sb rc τr rb rc τr ∧
      placed z τr rc sb = (placed z τs sc sb).take (placed z τr rc rb).length ∧
      ∀ m, delivered z m (placed z τr rc sb) (placed z τr rc rb) = delivered z m (placed z τs sc sb) (placed z τr rc rb) := by
  have hlen := placed_length z τr rc sb rb
  have he : placed z τr rc sb = (placed z τs sc sb).take (placed z τr rc rb).length := by
    rw [← hlen]; exact List.prefix_iff_eq_take.1 hp
  have hz : (placed z τr rc rb).zip (placed z τr rc sb) = (placed z τr rc rb).zip (placed z τs sc sb) := by
    rw [he, zip_take_length]
  have ht : (placed z τr rc sb).take (placed z τr rc rb).length = (placed z τs sc sb).take (placed z τr rc rb).length := by
    rw [List.take_of_length_le (Nat.le_of_eq hlen)]; exact he
  refine ⟨⟨hl.dstCount, hl.dstCount, hl.dstFits, hl.dstFits, Nat.le_of_eq hlen.symm, ?_, hl.dstReach, ?_, hl.disjoint, ?_⟩, he, fun m => ?_⟩
  · rw [ht]; exact hl.srcReach
  · rw [hz]; exact hl.kinds
  · rw [ht]; exact hl.apart
  · unfold delivered
    rw [hz]

/-- A transfer inside one call. -/
theorem Mirror.copy {env : Env} (hc : env.cfg.Ok) (hm : Mirror env.cfg M I) {sb sc st rb rc rt : Int} (hl : I.LegalCopy env.cfg sb sc st rb rc rt) :
    (M.copy env sb sc st rb rc rt).Rel (Mirror env.cfg) (I.move env.cfg sb sc st rb rc rt) := by
  obtain ⟨τs, τr, h1, h2, h3, h4, h5⟩ := hl
  obtain ⟨ts, a1, a2, a3⟩ := hm.comp hc h1
  obtain ⟨tr, b1, b2, b3⟩ := hm.comp hc h2
  have he := hm.core.mem
  have e1 : I.type env.cfg st = .ok τs := by unfold Ideal.type; rw [h1]
  have e2 : I.type env.cfg rt = .ok τr := by unfold Ideal.type; rw [h2]
  unfold Mach.copy Ideal.move
  rw [Mach.type_ok a1, Mach.type_ok b1, e1, e2]
  rw [kindSize_eq] at h3 h4 h5 ⊢
  rw [he] at h4 h5 ⊢
  simp only [Res.ok_bind]
  rw [copy_exact hc a2.desc b2.desc (a3 rfl) (b3 rfl) h3 h4 h5]
  exact hm.withMem _

/-- ... with the message described by the type of the receive. -/
theorem Mirror.collect {env : Env} (hc : env.cfg.Ok) (hm : Mirror env.cfg M I) {sb sc st rb rc rt : Int} {τs τr : DType}
    (h1 : I.Usable env.cfg st τs) (h2 : I.Usable env.cfg rt τr) (hl : I.LegalMove env.cfg sb sc τs rb rc τr)
    (hp : placed (kindSize env.cfg) τr rc sb <+: placed (kindSize env.cfg) τs sc sb) :
    (M.copy env sb rc rt rb rc rt).Rel (Mirror env.cfg) (I.move env.cfg sb sc st rb rc rt) := by
  obtain ⟨h3, h4, h5⟩ := hl
  obtain ⟨tr, b1, b2, b3⟩ := hm.comp hc h2
  have he := hm.core.mem
  have e1 : I.type env.cfg st = .ok τs := by unfold Ideal.type; rw [h1]
  have e2 : I.type env.cfg rt = .ok τr := by unfold Ideal.type; rw [h2]
  unfold Mach.copy Ideal.move
  rw [Mach.type_ok b1, e1, e2]
  rw [kindSize_eq] at h3 h4 h5 hp ⊢
  rw [he] at h4 h5 ⊢
  obtain ⟨g1, g2, g3⟩ := legal_collect h3 hp
  simp only [Res.ok_bind]
  rw [copy_exact hc b2.desc b2.desc (b3 rfl) (b3 rfl) g1 h4 (by
    rw [List.take_of_length_le (Nat.le_of_eq (placed_length ..)), g2]; exact h5)]
  rw [g3]
  exact hm.withMem _

end

end MpiSerial
