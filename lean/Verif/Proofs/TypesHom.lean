import Verif.Proofs.Types

set_option linter.unusedSimpArgs false

/-! # `Type_struct` refines the specification's struct constructor -/

namespace MpiSerial

theorem foldl_max_assoc (l : List Int) (a : Int) (b : Int) :
    l.foldl max (max a b) = max a (l.foldl max b) := by
  induction l generalizing b with
  | nil => rfl
  | cons c l ih => rw [List.foldl_cons, List.foldl_cons, Int.max_assoc, ih]

theorem foldl_min_spec (l : List Int) (x : Int) :
    (l.foldl min x ∈ x :: l) ∧ ∀ y ∈ x :: l, l.foldl min x ≤ y := by
  induction l generalizing x with
  | nil => simp
  | cons a l ih =>
    rw [List.foldl_cons]
    obtain ⟨h1, h2⟩ := ih (min x a)
    constructor
    · rw [List.mem_cons] at h1
      rcases h1 with h1 | h1
      · rw [h1]
        rcases Int.le_total x a with h | h
        · rw [Int.min_eq_left h]; simp
        · rw [Int.min_eq_right h]; simp
      · simp [h1]
    · intro y hy
      have hm := h2 (min x a) (List.mem_cons_self ..)
      rw [List.mem_cons, List.mem_cons] at hy
      rcases hy with rfl | rfl | hy
      · omega
      · omega
      · exact h2 y (List.mem_cons_of_mem _ hy)

theorem foldl_max_spec (l : List Int) (x : Int) :
    (l.foldl max x ∈ x :: l) ∧ ∀ y ∈ x :: l, y ≤ l.foldl max x := by
  induction l generalizing x with
  | nil => simp
  | cons a l ih =>
    rw [List.foldl_cons]
    obtain ⟨h1, h2⟩ := ih (max x a)
    constructor
    · rw [List.mem_cons] at h1
      rcases h1 with h1 | h1
      · rw [h1]
        rcases Int.le_total x a with h | h
        · rw [Int.max_eq_right h]; simp
        · rw [Int.max_eq_left h]; simp
      · simp [h1]
    · intro y hy
      have hm := h2 (max x a) (List.mem_cons_self ..)
      rw [List.mem_cons, List.mem_cons] at hy
      rcases hy with rfl | rfl | hy
      · omega
      · omega
      · exact h2 y (List.mem_cons_of_mem _ hy)

theorem min?_spec {l : List Int} {m : Int} : l.min? = some m ↔ m ∈ l ∧ ∀ y ∈ l, m ≤ y :=
  List.min?_eq_some_iff
theorem max?_spec {l : List Int} {m : Int} : l.max? = some m ↔ m ∈ l ∧ ∀ y ∈ l, y ≤ m :=
  List.max?_eq_some_iff

theorem min?_some_of_ne {l : List Int} (h : l ≠ []) : ∃ m, l.min? = some m := by
  cases l with
  | nil => exact absurd rfl h
  | cons a l => exact ⟨_, rfl⟩
theorem max?_some_of_ne {l : List Int} (h : l ≠ []) : ∃ m, l.max? = some m := by
  cases l with
  | nil => exact absurd rfl h
  | cons a l => exact ⟨_, rfl⟩

/-! ## Descriptors as specification types -/

/-- What a descriptor stands for. -/
def absT (t : Typestruct) : Spec.DType :=
  { map := t.map.map fun p => (p.disp, p.type)
    lbMark := if t.o_lb ≠ 0 then some t.lb else none
    ubMark := if t.o_ub ≠ 0 then some t.ub else none }

/-- A well-formed, non-empty descriptor with small displacements and correct bounds. -/
structure Exact (cfg : Cfg) (t : Typestruct) : Prop where
  wf : t.WF
  ne : t.map ≠ []
  len : t.count ≤ 2147483647
  lens : ∀ p ∈ t.map, hasLen cfg p.type
  disps : ∀ p ∈ t.map, -2147483648 ≤ p.disp ∧ p.disp ≤ 2147483647
  lb_ok : t.lb = Spec.lb (absT t)
  ub_ok : t.ub = Spec.ub (lenOf cfg) (absT t)
  lb_small : -2305843009213693952 ≤ t.lb ∧ t.lb ≤ 2305843009213693952
  ub_small : -2305843009213693952 ≤ t.ub ∧ t.ub ≤ 2305843009213693952

theorem calc_lb_wf {t : Typestruct} (h : t.WF) :
    calc_lb t = .ok (t.map.foldl (fun m p => s32 (min p.disp m)) 2147483647) := by
  unfold calc_lb
  rw [calcLbLoop_eq _ _ _ _ (by have := h.fits; omega)]
  rfl

theorem foldl_s32 (l : List Pair) (m : Int) (hm : -2147483648 ≤ m ∧ m ≤ 2147483647)
    (h : ∀ p ∈ l, -2147483648 ≤ p.disp ∧ p.disp ≤ 2147483647) :
    l.foldl (fun m p => s32 (min p.disp m)) m = (l.map Pair.disp).foldl min m := by
  induction l generalizing m with
  | nil => rfl
  | cons p l ih =>
    have hp := h p (List.mem_cons_self ..)
    rw [List.foldl_cons, List.map_cons, List.foldl_cons, s32_of_range (by omega) (by omega),
      Int.min_comm]
    exact ih _ (by omega) (fun q hq => h q (List.mem_cons_of_mem _ hq))

theorem calc_lb_min {t : Typestruct} (h : t.WF) (hne : t.map ≠ [])
    (hd : ∀ p ∈ t.map, -2147483648 ≤ p.disp ∧ p.disp ≤ 2147483647) :
    calc_lb t = .ok (((t.map.map fun p => p.disp).min?).getD 0) := by
  rw [calc_lb_wf h, foldl_s32 _ _ (by omega) hd]
  obtain ⟨m, hm⟩ := min?_some_of_ne (l := t.map.map fun p => p.disp) (by simpa using hne)
  rw [hm, Option.getD_some]
  rw [min?_spec] at hm
  obtain ⟨h1, h2⟩ := foldl_min_spec (t.map.map Pair.disp) 2147483647
  congr 1
  have hle := h2 m (List.mem_cons_of_mem _ hm.1)
  rw [List.mem_cons] at h1
  have : m ≤ (t.map.map Pair.disp).foldl min 2147483647 := by
    rcases h1 with h1 | h1
    · rw [h1]
      obtain ⟨p, hp, rfl⟩ := List.mem_map.1 hm.1
      exact (hd p hp).2
    · exact hm.2 _ h1
  omega

theorem calc_ub_max {cfg : Cfg} (hc : cfg.Ok) {t : Typestruct} (h : t.WF) (hne : t.map ≠ [])
    (hl : ∀ p ∈ t.map, hasLen cfg p.type)
    (hd : ∀ p ∈ t.map, -2147483648 ≤ p.disp ∧ p.disp ≤ 2147483647) :
    calc_ub cfg t = .ok (((t.map.map fun p => p.disp + lenOf cfg p.type).max?).getD 0) := by
  unfold calc_ub
  rw [calcUbLoop_eq cfg t _ _ _ (by have := h.fits; omega) (by rw [List.drop_zero]; exact hl) (by
    intro p hp
    have h1 := hd p (by rw [List.drop_zero] at hp; exact hp)
    have h2 := lenOf_range hc (hl p (by rw [List.drop_zero] at hp; exact hp))
    omega)]
  obtain ⟨m, hm⟩ := max?_some_of_ne (l := t.map.map fun p => p.disp + lenOf cfg p.type)
    (by simpa using hne)
  rw [hm, Option.getD_some]
  rw [max?_spec] at hm
  have hfold : ∀ (l : List Pair) (x : Int), l.foldl (fun m p => max m (p.disp + lenOf cfg p.type)) x
      = (l.map fun p => p.disp + lenOf cfg p.type).foldl max x := by
    intro l; induction l with
    | nil => intro x; rfl
    | cons a l ih => intro x; rw [List.foldl_cons, ih]; rfl
  rw [List.drop_zero, hfold]
  show Res.ok ((t.map.map fun p => p.disp + lenOf cfg p.type).foldl max (-2147483648)) = .ok m
  obtain ⟨h1, h2⟩ := foldl_max_spec (t.map.map fun p => p.disp + lenOf cfg p.type) (-2147483648)
  congr 1
  have hle := h2 m (List.mem_cons_of_mem _ hm.1)
  rw [List.mem_cons] at h1
  have : (t.map.map fun p => p.disp + lenOf cfg p.type).foldl max (-2147483648) ≤ m := by
    rcases h1 with h1 | h1
    · rw [h1]
      obtain ⟨p, hp, rfl⟩ := List.mem_map.1 hm.1
      have := (hd p hp).1
      have := lenOf_range hc (hl p hp)
      omega
    · exact hm.2 _ h1
  omega

theorem calc_padding_max {cfg : Cfg} (hc : cfg.Ok) {t : Typestruct} (h : t.WF) (hne : t.map ≠ [])
    (hl : ∀ p ∈ t.map, hasLen cfg p.type) :
    ∃ m, (t.map.map fun p => lenOf cfg p.type).max? = some m ∧ 1 ≤ m ∧ m ≤ 128 ∧
      calc_padding cfg t = .ok m := by
  obtain ⟨m, hm⟩ := max?_some_of_ne (l := t.map.map fun p => lenOf cfg p.type) (by simpa using hne)
  refine ⟨m, hm, ?_⟩
  rw [max?_spec] at hm
  have hr : 1 ≤ m ∧ m ≤ 128 := by
    obtain ⟨p, hp, rfl⟩ := List.mem_map.1 hm.1
    exact lenOf_range hc (hl p hp)
  refine ⟨hr.1, hr.2, ?_⟩
  unfold calc_padding
  rw [calcPaddingLoop_eq cfg t _ _ _ (by have := h.fits; omega) (by rw [List.drop_zero]; exact hl), Res.ok_bind]
  have hfold : ∀ (l : List Pair) (x : Int), l.foldl (fun m p => max m (lenOf cfg p.type)) x
      = (l.map fun p => lenOf cfg p.type).foldl max x := by
    intro l; induction l with
    | nil => intro x; rfl
    | cons a l ih => intro x; rw [List.foldl_cons, ih]; rfl
  rw [List.drop_zero, hfold]
  show Res.ok (s32 ((t.map.map fun p => lenOf cfg p.type).foldl max (-2147483648))) = .ok m
  obtain ⟨h1, h2⟩ := foldl_max_spec (t.map.map fun p => lenOf cfg p.type) (-2147483648)
  have hle := h2 m (List.mem_cons_of_mem _ hm.1)
  rw [List.mem_cons] at h1
  have : (t.map.map fun p => lenOf cfg p.type).foldl max (-2147483648) = m := by
    rcases h1 with h1 | h1
    · omega
    · have := hm.2 _ h1; omega
  rw [this, s32_of_range (by omega) (by omega)]

/-- The extent the specification assigns to a descriptor. -/
def extOf (cfg : Cfg) (t : Typestruct) : Int := Spec.extent (lenOf cfg) (absT t)

theorem absT_map_map {β : Type} (t : Typestruct) (f : Spec.Entry → β) :
    (absT t).map.map f = t.map.map fun p => f (p.disp, p.type) := by
  simp [absT, Function.comp_def]

theorem Exact.ub_gt_lb {cfg : Cfg} (hc : cfg.Ok) {t : Typestruct} (h : Exact cfg t)
    (hl : t.o_lb = 0) (hu : t.o_ub = 0) : 1 ≤ t.ub - t.lb := by
  have h1 := h.lb_ok
  have h2 := h.ub_ok
  unfold Spec.lb at h1
  unfold Spec.ub at h2
  have e1 : (absT t).lbMark = none := by simp [absT, hl]
  have e2 : (absT t).ubMark = none := by simp [absT, hu]
  rw [e1, absT_map_map] at h1
  rw [e2, absT_map_map] at h2
  simp only [Option.getD_none] at h1 h2
  obtain ⟨a, ha⟩ := min?_some_of_ne (l := t.map.map fun p => p.disp) (by simpa using h.ne)
  obtain ⟨b, hb⟩ := max?_some_of_ne (l := t.map.map fun p => p.disp + lenOf cfg p.type)
    (by simpa using h.ne)
  rw [ha] at h1
  rw [hb] at h2
  simp only [Option.getD_some] at h1 h2
  rw [min?_spec] at ha
  rw [max?_spec] at hb
  obtain ⟨p, hp, hpa⟩ := List.mem_map.1 ha.1
  have := hb.2 _ (List.mem_map.2 ⟨p, hp, rfl⟩)
  have := lenOf_range hc (h.lens p hp)
  omega

theorem roundUp_range (x m : Int) (hm : 1 ≤ m) : x ≤ Spec.roundUp x m ∧ Spec.roundUp x m < x + m := by
  unfold Spec.roundUp
  have h1 := Int.emod_nonneg x (show m ≠ 0 by omega)
  have h2 := Int.emod_lt_of_pos x (show 0 < m by omega)
  split <;> omega

/-- Like `Exact`, but without explicit bounds only the extent has to be right.  (The predefined pair
types store an upper bound that includes the trailing padding, type_const.c:69-98.) -/
structure Good (cfg : Cfg) (t : Typestruct) : Prop where
  wf : t.WF
  ne : t.map ≠ []
  len : t.count ≤ 2147483647
  lens : ∀ p ∈ t.map, hasLen cfg p.type
  disps : ∀ p ∈ t.map, -2147483648 ≤ p.disp ∧ p.disp ≤ 2147483647
  bounds_ok : t.o_lb ≠ 0 ∨ t.o_ub ≠ 0 →
    t.lb = Spec.lb (absT t) ∧ t.ub = Spec.ub (lenOf cfg) (absT t)
  ext_ok : t.o_lb = 0 → t.o_ub = 0 → 1 ≤ t.ub - t.lb ∧
    Spec.roundUp (t.ub - t.lb) (Spec.align (lenOf cfg) (absT t)) = extOf cfg t
  lb_small : -2305843009213693952 ≤ t.lb ∧ t.lb ≤ 2305843009213693952
  ub_small : -2305843009213693952 ≤ t.ub ∧ t.ub ≤ 2305843009213693952

theorem Exact.good {cfg : Cfg} (hc : cfg.Ok) {t : Typestruct} (h : Exact cfg t) : Good cfg t := by
  refine ⟨h.wf, h.ne, h.len, h.lens, h.disps, fun _ => ⟨h.lb_ok, h.ub_ok⟩, fun hl hu => ?_,
    h.lb_small, h.ub_small⟩
  refine ⟨h.ub_gt_lb hc hl hu, ?_⟩
  unfold extOf Spec.extent
  rw [if_pos (by simp [absT, hl, hu]), ← h.lb_ok, ← h.ub_ok]

theorem Type_extent_good {cfg : Cfg} (hc : cfg.Ok) {t : Typestruct} (h : Good cfg t) :
    Type_extent cfg t = .ok (u64 (extOf cfg t)) := by
  have hlb := h.lb_small
  have hub := h.ub_small
  unfold Type_extent
  by_cases ho : t.o_lb = 0 ∧ t.o_ub = 0
  · rw [if_pos ho]
    obtain ⟨hpos, hext⟩ := h.ext_ok ho.1 ho.2
    rw [← hext]
    obtain ⟨m, hm, h1, h2, hp⟩ := calc_padding_max hc h.wf h.ne h.lens
    have hal : Spec.align (lenOf cfg) (absT t) = m := by
      unfold Spec.align; rw [absT_map_map, hm]; rfl
    rw [hal, hp, Res.ok_bind, ck64_ok (by omega) (by omega), Res.ok_bind, if_neg (by omega)]
    have hmod : s32 (Int.tmod (t.ub - t.lb) m) = (t.ub - t.lb) % m := by
      rw [Int.tmod_eq_emod_of_nonneg (by omega)]
      have := Int.emod_nonneg (t.ub - t.lb) (show m ≠ 0 by omega)
      have := Int.emod_lt_of_pos (t.ub - t.lb) (show 0 < m by omega)
      rw [s32_of_range (by omega) (by omega)]
    have hr := roundUp_range (t.ub - t.lb) m h1
    have he0 := Int.emod_nonneg (t.ub - t.lb) (show m ≠ 0 by omega)
    have he1 := Int.emod_lt_of_pos (t.ub - t.lb) (show 0 < m by omega)
    simp only [hmod]
    unfold Spec.roundUp at hr ⊢
    by_cases hz : (t.ub - t.lb) % m = 0
    · simp only [hz, if_true] at hr ⊢
      simp only [Res.pure_eq, Res.ok_bind, Int.add_zero]
      rw [ck64_ok (by omega) (by omega), Res.ok_bind]
    · rw [if_neg hz] at hr
      rw [if_neg hz, if_neg hz, ck32_ok (by omega) (by omega), Res.ok_bind,
        ck64_ok (by omega) (by omega), Res.ok_bind]
      rfl
  · rw [if_neg ho]
    obtain ⟨hl, hu⟩ := h.bounds_ok (by omega)
    unfold extOf Spec.extent
    rw [← hl, ← hu]
    rw [if_neg (by
      simp only [absT, ite_eq_right_iff, reduceCtorEq, imp_false, Decidable.not_not]
      exact ho)]
    rw [ck64_ok (by omega) (by omega), Res.ok_bind]
    rfl


/-! ## The struct constructor -/

/-- What a block stands for (`MPI_Aint` displacements are read as signed). -/
def absB (b : Block) : Nat × Int × Spec.Comp :=
  (b.len.toNat, s64 b.disp,
    if b.k0 = 12 then .lb else if b.k0 = 13 then .ub else .data (absT b.ty))

theorem s64_shift (a b c : Int) : s64 (a + (b + c)) = s64 (a + (s64 b + c)) := by
  unfold s64; omega

theorem blockEntries_eq (cfg : Cfg) (b : Block) :
    (blockEntries (extOf cfg) b).map (fun p => (p.disp, p.type))
      = (Spec.blockMap (lenOf cfg) (absB b)).map fun x => (s64 x.1, x.2) := by
  unfold blockEntries absB
  by_cases h : b.isData
  · have h' := h
    unfold Block.isData at h'
    rw [if_pos h, if_neg h'.1, if_neg h'.2]
    simp only [Spec.blockMap, Spec.repeated, repEntries, Spec.shift, List.map_flatMap, List.map_map,
      List.range_eq_range', Function.comp_def]
    congr 1
    funext j
    rw [absT_map_map]
    congr 1
    funext p
    simp only [extOf]
    rw [s64_shift]
  · rw [if_neg h]
    unfold Block.isData at h
    by_cases h12 : b.k0 = 12
    · rw [if_pos h12]; rfl
    · rw [if_neg h12, if_pos (by omega)]; rfl

theorem entries_eq (cfg : Cfg) (bs : List Block) :
    (bs.flatMap (blockEntries (extOf cfg))).map (fun p => (p.disp, p.type))
      = (Spec.struct (lenOf cfg) (bs.map absB)).map.map fun x => (s64 x.1, x.2) := by
  simp only [Spec.struct, List.map_flatMap, List.flatMap_map, blockEntries_eq]

/-- Explicit lower-bound candidates agree (unsigned versus signed). -/
theorem mem_lbCands (cfg : Cfg) (bs : List Block)
    (hd : ∀ b ∈ bs, 0 ≤ b.disp ∧ b.disp < 18446744073709551616) (x : Int) :
    x ∈ lbMarks bs ++ bs.flatMap (blockLbs (extOf cfg)) ↔
      ∃ c ∈ (bs.map absB).flatMap (Spec.blockLb (lenOf cfg)), x = u64 c := by
  induction bs with
  | nil => simp [lbMarks]
  | cons b bs ih =>
    have ih := ih (fun b hb => hd b (List.mem_cons_of_mem _ hb))
    have hdb := hd b (List.mem_cons_self ..)
    rw [List.map_cons, List.flatMap_cons, List.flatMap_cons, List.mem_append]
    simp only [List.mem_append, or_and_right, exists_or] at ih ⊢
    rw [← ih]
    have hb : (x ∈ blockLbs (extOf cfg) b ∨ (b.k0 = 12 ∧ x = b.disp)) ↔
        ∃ c ∈ Spec.blockLb (lenOf cfg) (absB b), x = u64 c := by
      unfold absB blockLbs
      by_cases h12 : b.k0 = 12
      · have hnd : ¬ b.isData := by unfold Block.isData; omega
        rw [if_pos h12, if_neg hnd]
        simp only [Spec.blockLb, List.mem_singleton, exists_eq_left, u64_s64, List.not_mem_nil,
          false_or, h12, true_and]
        rw [u64_of_range hdb.1 hdb.2]
      · rw [if_neg h12]
        by_cases h13 : b.k0 = 13
        · have hnd : ¬ b.isData := by unfold Block.isData; omega
          rw [if_pos h13, if_neg hnd]
          simp [Spec.blockLb, h12]
        · have hdt : b.isData := ⟨h12, h13⟩
          rw [if_neg h13, if_pos hdt]
          simp only [h12, false_and, or_false]
          unfold repLbs
          by_cases ho : b.ty.o_lb = 0
          · rw [if_neg (by simpa using ho)]
            simp [absT, ho, Spec.blockLb]
          · rw [if_pos ho]
            have e1 : absT b.ty = ⟨(absT b.ty).map, some b.ty.lb, (absT b.ty).ubMark⟩ := by
              simp [absT, ho]
            rw [e1]
            simp only [Spec.blockLb, List.mem_map, List.range_eq_range']
            rw [← e1]
            constructor
            · rintro ⟨j, hj, rfl⟩
              refine ⟨_, ⟨j, hj, rfl⟩, ?_⟩
              unfold u64 s64 extOf; omega
            · rintro ⟨c, ⟨j, hj, rfl⟩, rfl⟩
              refine ⟨j, hj, ?_⟩
              unfold u64 s64 extOf; omega
    rw [← hb]
    simp only [lbMarks, List.filter_cons]
    by_cases h12 : b.k0 = 12
    · simp only [h12, decide_true, if_true, List.map_cons, List.mem_cons, true_and]
      constructor
      · rintro ((h | h) | (h | h)) <;> simp [h]
      · rintro ((h | h) | (h | h)) <;> simp [h]
    · simp only [h12, decide_false, Bool.false_eq_true, if_false, false_and, or_false]
      constructor
      · rintro (h | (h | h)) <;> simp [h]
      · rintro (h | (h | h)) <;> simp [h]

/-- Explicit upper-bound candidates agree (unsigned versus signed). -/
theorem mem_ubCands (cfg : Cfg) (bs : List Block)
    (hd : ∀ b ∈ bs, 0 ≤ b.disp ∧ b.disp < 18446744073709551616) (x : Int) :
    x ∈ ubMarks bs ++ bs.flatMap (blockUbs (extOf cfg)) ↔
      ∃ c ∈ (bs.map absB).flatMap (Spec.blockUb (lenOf cfg)), x = u64 c := by
  induction bs with
  | nil => simp [ubMarks]
  | cons b bs ih =>
    have ih := ih (fun b hb => hd b (List.mem_cons_of_mem _ hb))
    have hdb := hd b (List.mem_cons_self ..)
    rw [List.map_cons, List.flatMap_cons, List.flatMap_cons, List.mem_append]
    simp only [List.mem_append, or_and_right, exists_or] at ih ⊢
    rw [← ih]
    have hb : (x ∈ blockUbs (extOf cfg) b ∨ (b.k0 = 13 ∧ x = b.disp)) ↔
        ∃ c ∈ Spec.blockUb (lenOf cfg) (absB b), x = u64 c := by
      unfold absB blockUbs
      by_cases h12 : b.k0 = 12
      · have hnd : ¬ b.isData := by unfold Block.isData; omega
        rw [if_pos h12, if_neg hnd]
        simp [Spec.blockUb, h12]
      · rw [if_neg h12]
        by_cases h13 : b.k0 = 13
        · have hnd : ¬ b.isData := by unfold Block.isData; omega
          rw [if_pos h13, if_neg hnd]
          simp only [Spec.blockUb, List.mem_singleton, exists_eq_left, u64_s64, List.not_mem_nil,
            false_or, h13, true_and]
          rw [u64_of_range hdb.1 hdb.2]
        · have hdt : b.isData := ⟨h12, h13⟩
          rw [if_neg h13, if_pos hdt]
          simp only [h13, false_and, or_false]
          unfold repUbs
          by_cases ho : b.ty.o_ub = 0
          · rw [if_neg (by simpa using ho)]
            simp [absT, ho, Spec.blockUb]
          · rw [if_pos ho]
            have e1 : absT b.ty = ⟨(absT b.ty).map, (absT b.ty).lbMark, some b.ty.ub⟩ := by
              simp [absT, ho]
            rw [e1]
            simp only [Spec.blockUb, List.mem_map, List.range_eq_range']
            rw [← e1]
            constructor
            · rintro ⟨j, hj, rfl⟩
              refine ⟨_, ⟨j, hj, rfl⟩, ?_⟩
              unfold u64 s64 extOf; omega
            · rintro ⟨c, ⟨j, hj, rfl⟩, rfl⟩
              refine ⟨j, hj, ?_⟩
              unfold u64 s64 extOf; omega
    rw [← hb]
    simp only [ubMarks, List.filter_cons]
    by_cases h13 : b.k0 = 13
    · simp only [h13, decide_true, if_true, List.map_cons, List.mem_cons, true_and]
      constructor
      · rintro ((h | h) | (h | h)) <;> simp [h]
      · rintro ((h | h) | (h | h)) <;> simp [h]
    · simp only [h13, decide_false, Bool.false_eq_true, if_false, false_and, or_false]
      constructor
      · rintro (h | (h | h)) <;> simp [h]
      · rintro (h | (h | h)) <;> simp [h]


theorem anyLower_iff (cfg : Cfg) (bs : List Block)
    (hz : ∀ b ∈ bs, b.isData → b.ty.o_lb ≠ 0 → b.len.toNat ≠ 0) :
    anyLower bs = true ↔ (bs.map absB).flatMap (Spec.blockLb (lenOf cfg)) ≠ [] := by
  unfold anyLower
  rw [List.any_eq_true, ne_eq, List.flatMap_eq_nil_iff]
  simp only [List.mem_map, forall_exists_index, and_imp, forall_apply_eq_imp_iff₂, Bool.or_eq_true,
    decide_eq_true_eq, Bool.and_eq_true, bne_iff_ne, ne_eq, Classical.not_forall]
  constructor
  · rintro ⟨b, hb, h⟩
    refine ⟨b, hb, ?_⟩
    unfold absB
    rcases h with h12 | ⟨hd, ho⟩
    · rw [if_pos h12]; simp [Spec.blockLb]
    · have hd' := hd
      unfold Block.isData at hd'
      rw [if_neg hd'.1, if_neg hd'.2]
      have := hz b hb hd ho
      simp [absT, ho, Spec.blockLb, this]
  · rintro ⟨b, hb, h⟩
    refine ⟨b, hb, ?_⟩
    unfold absB at h
    by_cases h12 : b.k0 = 12
    · exact Or.inl h12
    · rw [if_neg h12] at h
      by_cases h13 : b.k0 = 13
      · rw [if_pos h13] at h; simp [Spec.blockLb] at h
      · rw [if_neg h13] at h
        refine Or.inr ⟨⟨h12, h13⟩, ?_⟩
        intro ho
        simp [absT, ho, Spec.blockLb] at h

theorem anyUpper_iff (cfg : Cfg) (bs : List Block)
    (hz : ∀ b ∈ bs, b.isData → b.ty.o_ub ≠ 0 → b.len.toNat ≠ 0) :
    anyUpper bs = true ↔ (bs.map absB).flatMap (Spec.blockUb (lenOf cfg)) ≠ [] := by
  unfold anyUpper
  rw [List.any_eq_true, ne_eq, List.flatMap_eq_nil_iff]
  simp only [List.mem_map, forall_exists_index, and_imp, forall_apply_eq_imp_iff₂, Bool.or_eq_true,
    decide_eq_true_eq, Bool.and_eq_true, bne_iff_ne, ne_eq, Classical.not_forall]
  constructor
  · rintro ⟨b, hb, h⟩
    refine ⟨b, hb, ?_⟩
    unfold absB
    rcases h with h13 | ⟨hd, ho⟩
    · rw [if_neg (by omega), if_pos h13]; simp [Spec.blockUb]
    · have hd' := hd
      unfold Block.isData at hd'
      rw [if_neg hd'.1, if_neg hd'.2]
      have := hz b hb hd ho
      simp [absT, ho, Spec.blockUb, this]
  · rintro ⟨b, hb, h⟩
    refine ⟨b, hb, ?_⟩
    unfold absB at h
    by_cases h13 : b.k0 = 13
    · exact Or.inl h13
    · by_cases h12 : b.k0 = 12
      · rw [if_pos h12] at h; simp [Spec.blockUb] at h
      · rw [if_neg h12, if_neg h13] at h
        refine Or.inr ⟨⟨h12, h13⟩, ?_⟩
        intro ho
        simp [absT, ho, Spec.blockUb] at h

theorem mem_entries_kind {e : Typestruct → Int} {bs : List Block} {p : Pair}
    (h : p ∈ bs.flatMap (blockEntries e)) : ∃ b ∈ bs, b.isData ∧ ∃ q ∈ b.ty.map, q.type = p.type := by
  rw [List.mem_flatMap] at h
  obtain ⟨b, hb, hp⟩ := h
  refine ⟨b, hb, ?_⟩
  unfold blockEntries at hp
  by_cases hd : b.isData
  · rw [if_pos hd] at hp
    refine ⟨hd, ?_⟩
    unfold repEntries at hp
    rw [List.mem_flatMap] at hp
    obtain ⟨j, _, hp⟩ := hp
    rw [List.mem_map] at hp
    obtain ⟨q, hq, rfl⟩ := hp
    exact ⟨q, hq, rfl⟩
  · rw [if_neg hd] at hp; simp at hp

/-- Unsigned minimum of non-negative candidates is the signed minimum. -/
theorem min_cands {L cs : List Int} (hL : ∀ x, x ∈ L ↔ ∃ c ∈ cs, x = u64 c) (hne : cs ≠ [])
    (hr : ∀ c ∈ cs, 0 ≤ c ∧ c ≤ 2305843009213693952) :
    cs.min? = some (s64 (L.foldl min 9223372036854775807)) := by
  obtain ⟨m, hm⟩ := min?_some_of_ne hne
  have hms := min?_spec.1 hm
  obtain ⟨h1, h2⟩ := foldl_min_spec L 9223372036854775807
  have hrm := hr m hms.1
  have hle := h2 (u64 m) (List.mem_cons_of_mem _ ((hL _).2 ⟨m, hms.1, rfl⟩))
  rw [u64_of_range (by omega) (by omega)] at hle
  rw [List.mem_cons] at h1
  have : L.foldl min 9223372036854775807 = m := by
    rcases h1 with h1 | h1
    · omega
    · obtain ⟨c, hc, hcc⟩ := (hL _).1 h1
      have := hms.2 c hc
      have := hr c hc
      rw [u64_of_range (by omega) (by omega)] at hcc
      omega
  rw [this, s64_of_range (by omega) (by omega), hm]

/-- Unsigned maximum of negative candidates is the signed maximum. -/
theorem max_cands {L cs : List Int} (hL : ∀ x, x ∈ L ↔ ∃ c ∈ cs, x = u64 c) (hne : cs ≠ [])
    (hr : ∀ c ∈ cs, -2305843009213693952 ≤ c ∧ c < 0) :
    cs.max? = some (s64 (L.foldl max 9223372036854775808)) := by
  obtain ⟨m, hm⟩ := max?_some_of_ne hne
  have hms := max?_spec.1 hm
  obtain ⟨h1, h2⟩ := foldl_max_spec L 9223372036854775808
  have hrm := hr m hms.1
  have hle := h2 (u64 m) (List.mem_cons_of_mem _ ((hL _).2 ⟨m, hms.1, rfl⟩))
  have hu : ∀ c, -2305843009213693952 ≤ c ∧ c < 0 → u64 c = c + 18446744073709551616 := by
    intro c hc; unfold u64; omega
  rw [hu m hrm] at hle
  rw [List.mem_cons] at h1
  have : L.foldl max 9223372036854775808 = m + 18446744073709551616 := by
    rcases h1 with h1 | h1
    · omega
    · obtain ⟨c, hc, hcc⟩ := (hL _).1 h1
      have := hms.2 c hc
      rw [hu c (hr c hc)] at hcc
      omega
  rw [this, hm]
  congr 1
  unfold s64; omega

/-- A struct component: one of the two predefined markers or a good descriptor. -/
def GoodComp (cfg : Cfg) (t : Typestruct) : Prop :=
  t = static1 0 12 ∨ t = static1 0 13 ∨ Good cfg t

theorem Good.k0 {cfg : Cfg} {t : Typestruct} (h : Good cfg t) (b : Block) (hb : b.ty = t) :
    b.isData := by
  have hne := h.ne
  have hl := h.lens
  unfold Block.isData Block.k0
  rw [hb]
  unfold Typestruct.map at hne hl
  cases hp : t.pairs with
  | nil => simp [hp] at hne
  | cons p ps =>
    rw [hp] at hne hl
    have hc : t.count.toNat ≠ 0 := by
      intro h0; rw [h0] at hne; simp at hne
    obtain ⟨n, hn⟩ := Nat.exists_eq_succ_of_ne_zero hc
    rw [hn, List.take_succ_cons] at hl
    have := hasLen_not_mark (hl p (List.mem_cons_self ..))
    simpa using this

theorem GoodComp.wf {cfg : Cfg} {t : Typestruct} (h : GoodComp cfg t) : t.WF := by
  rcases h with rfl | rfl | h
  · constructor <;> simp [static1]
  · constructor <;> simp [static1]
  · exact h.wf

theorem GoodComp.good {cfg : Cfg} {b : Block} (h : GoodComp cfg b.ty) (hd : b.isData) :
    Good cfg b.ty := by
  rcases h with h | h | h
  · exfalso; unfold Block.isData Block.k0 at hd; rw [h] at hd; simp [static1] at hd
  · exfalso; unfold Block.isData Block.k0 at hd; rw [h] at hd; simp [static1] at hd
  · exact h

/-- `Type_struct` computes the specification's struct, whenever the exact result is small enough
for the C types, every explicit lower bound is non-negative and every explicit upper bound is
negative (see `Props/Types.lean` for what happens otherwise), and malloc'ed memory reads as zero. -/
theorem struct_hom {cfg : Cfg} (hc : cfg.Ok) (g : Garbage) (bs : List Block)
    (hcomp : ∀ b ∈ bs, GoodComp cfg b.ty)
    (hlen : ∀ b ∈ bs, 0 ≤ b.len)
    (hz : ∀ b ∈ bs, b.isData → b.ty.o_lb ≠ 0 ∨ b.ty.o_ub ≠ 0 → b.len ≠ 0)
    (hd : ∀ b ∈ bs, 0 ≤ b.disp ∧ b.disp < 18446744073709551616)
    (hne : (Spec.struct (lenOf cfg) (bs.map absB)).map ≠ [])
    (hcount : ((Spec.struct (lenOf cfg) (bs.map absB)).map.length : Int) ≤ 2147483647)
    (hdisp : ∀ x ∈ (Spec.struct (lenOf cfg) (bs.map absB)).map,
      -2147483648 ≤ x.1 ∧ x.1 ≤ 2147483647)
    (hlb : ∀ c ∈ (bs.map absB).flatMap (Spec.blockLb (lenOf cfg)), 0 ≤ c ∧ c ≤ 2305843009213693952)
    (hub : ∀ c ∈ (bs.map absB).flatMap (Spec.blockUb (lenOf cfg)), -2305843009213693952 ≤ c ∧ c < 0)
    (hg : g.o_lb = 0 ∧ g.o_ub = 0) :
    ∃ t, Type_struct cfg g bs = .ok t ∧ Exact cfg t ∧
      absT t = Spec.struct (lenOf cfg) (bs.map absB) ∧ t.committed = 0 := by
  have hE := entries_eq cfg bs
  generalize hEdef : bs.flatMap (blockEntries (extOf cfg)) = E at hE
  have hid : (Spec.struct (lenOf cfg) (bs.map absB)).map.map (fun x => (s64 x.1, x.2))
      = (Spec.struct (lenOf cfg) (bs.map absB)).map := by
    conv => rhs; rw [← List.map_id (Spec.struct (lenOf cfg) (bs.map absB)).map]
    apply List.map_congr_left
    intro x hx
    have := hdisp x hx
    rw [s64_of_range (by omega) (by omega)]; rfl
  rw [hid] at hE
  have hElen : E.length = (Spec.struct (lenOf cfg) (bs.map absB)).map.length := by
    rw [← hE, List.length_map]
  have hEne : E ≠ [] := by
    intro h; rw [h] at hE; exact hne hE.symm
  have hEl : ∀ p ∈ E, hasLen cfg p.type := by
    intro p hp
    rw [← hEdef] at hp
    obtain ⟨b, hb, hdt, q, hq, hqt⟩ := mem_entries_kind hp
    rw [← hqt]
    exact ((hcomp b hb).good hdt).lens q hq
  have hEd : ∀ p ∈ E, -2147483648 ≤ p.disp ∧ p.disp ≤ 2147483647 := by
    intro p hp
    have : (p.disp, p.type) ∈ (Spec.struct (lenOf cfg) (bs.map absB)).map := by
      rw [← hE]; exact List.mem_map.2 ⟨p, hp, rfl⟩
    exact hdisp _ this
  have heq := Type_struct_eq cfg g (extOf cfg) bs (fun b hb => (hcomp b hb).wf)
    (fun b hb _ => hlen b hb)
    (fun b hb hdt _ => Type_extent_good hc ((hcomp b hb).good hdt))
    (by rw [hEdef, hElen]; exact hcount)
  rw [hEdef] at heq
  have hal := anyLower_iff cfg bs (fun b hb hdt ho => by
    have := hz b hb hdt (Or.inl ho); have := hlen b hb; omega)
  have hau := anyUpper_iff cfg bs (fun b hb hdt ho => by
    have := hz b hb hdt (Or.inr ho); have := hlen b hb; omega)
  have hwf := structTemp_wf g bs E
  have hmap := structTemp_map g bs E
  -- the lower bound
  obtain ⟨l, hl1, hl2, hl3⟩ : ∃ l, (if anyLower bs = true
        then (pure (s64 ((lbMarks bs ++ bs.flatMap (blockLbs (extOf cfg))).foldl min 9223372036854775807)) : Res Int)
        else calc_lb (structTemp g bs E)) = .ok l ∧
      (-2305843009213693952 ≤ l ∧ l ≤ 2305843009213693952) ∧
      (if anyLower bs = true then (Spec.struct (lenOf cfg) (bs.map absB)).lbMark = some l
        else (Spec.struct (lenOf cfg) (bs.map absB)).lbMark = none ∧
          l = ((E.map fun p => p.disp).min?).getD 0) := by
    by_cases ha : anyLower bs = true
    · rw [if_pos ha]
      have := min_cands (mem_lbCands cfg bs hd) (hal.1 ha) hlb
      refine ⟨_, rfl, ?_, ?_⟩
      · have hm := hlb _ (min?_spec.1 this).1
        omega
      · rw [if_pos ha]; exact this
    · rw [if_neg ha, calc_lb_min hwf (by rw [hmap]; exact hEne) (by rw [hmap]; exact hEd), hmap]
      refine ⟨_, rfl, ?_, ?_⟩
      · obtain ⟨m, hm⟩ := min?_some_of_ne (l := E.map fun p => p.disp) (by simpa using hEne)
        rw [hm, Option.getD_some]
        obtain ⟨p, hp, rfl⟩ := List.mem_map.1 (min?_spec.1 hm).1
        have := hEd p hp
        omega
      · rw [if_neg ha]
        refine ⟨?_, rfl⟩
        have : (bs.map absB).flatMap (Spec.blockLb (lenOf cfg)) = [] :=
          Classical.byContradiction fun h => ha (hal.2 h)
        simp [Spec.struct, this]
  obtain ⟨u, hu1, hu2, hu3⟩ : ∃ u, (if anyUpper bs = true
        then (pure (s64 ((ubMarks bs ++ bs.flatMap (blockUbs (extOf cfg))).foldl max 9223372036854775808)) : Res Int)
        else calc_ub cfg (structTemp g bs E)) = .ok u ∧
      (-2305843009213693952 ≤ u ∧ u ≤ 2305843009213693952) ∧
      (if anyUpper bs = true then (Spec.struct (lenOf cfg) (bs.map absB)).ubMark = some u
        else (Spec.struct (lenOf cfg) (bs.map absB)).ubMark = none ∧
          u = ((E.map fun p => p.disp + lenOf cfg p.type).max?).getD 0) := by
    by_cases ha : anyUpper bs = true
    · rw [if_pos ha]
      have := max_cands (mem_ubCands cfg bs hd) (hau.1 ha) hub
      refine ⟨_, rfl, ?_, ?_⟩
      · have hm := hub _ (max?_spec.1 this).1
        omega
      · rw [if_pos ha]; exact this
    · rw [if_neg ha, calc_ub_max hc hwf (by rw [hmap]; exact hEne) (by rw [hmap]; exact hEl)
        (by rw [hmap]; exact hEd), hmap]
      refine ⟨_, rfl, ?_, ?_⟩
      · obtain ⟨m, hm⟩ := max?_some_of_ne (l := E.map fun p => p.disp + lenOf cfg p.type)
          (by simpa using hEne)
        rw [hm, Option.getD_some]
        obtain ⟨p, hp, rfl⟩ := List.mem_map.1 (max?_spec.1 hm).1
        have := hEd p hp
        have := lenOf_range hc (hEl p hp)
        omega
      · rw [if_neg ha]
        refine ⟨?_, rfl⟩
        have : (bs.map absB).flatMap (Spec.blockUb (lenOf cfg)) = [] :=
          Classical.byContradiction fun h => ha (hau.2 h)
        simp [Spec.struct, this]
  have hm' : Typestruct.map { structTemp g bs E with lb := l, ub := u } = E := hmap
  have habs : absT { structTemp g bs E with lb := l, ub := u }
      = Spec.struct (lenOf cfg) (bs.map absB) := by
    apply Spec.DType.ext
    · simp only [absT, hm']; exact hE
    · by_cases ha : anyLower bs = true
      · rw [if_pos ha] at hl3; rw [hl3]; simp [absT, structTemp, ha]
      · rw [if_neg ha] at hl3; rw [hl3.1]; simp [absT, structTemp, ha, hg.1]
    · by_cases ha : anyUpper bs = true
      · rw [if_pos ha] at hu3; rw [hu3]; simp [absT, structTemp, ha]
      · rw [if_neg ha] at hu3; rw [hu3.1]; simp [absT, structTemp, ha, hg.2]
  refine ⟨{ structTemp g bs E with lb := l, ub := u }, ?_, ?_, habs, rfl⟩
  · rw [heq]
    clear hl3 hu3 hal hau
    cases hA : anyLower bs <;> cases hU : anyUpper bs <;>
      simp only [hA, hU, if_true, if_false, Bool.false_eq_true] at hl1 hu1 ⊢ <;>
      rw [hl1, Res.ok_bind, hu1, Res.ok_bind] <;> rfl
  · refine ⟨⟨hwf.nonneg, hwf.fits, hwf.nonempty⟩, by rw [hm']; exact hEne, ?_, by rw [hm']; exact hEl,
      by rw [hm']; exact hEd, ?_, ?_, hl2, hu2⟩
    · simp only [structTemp]; omega
    · rw [habs]
      unfold Spec.lb
      by_cases ha : anyLower bs = true
      · rw [if_pos ha] at hl3; rw [hl3]; rfl
      · rw [if_neg ha] at hl3
        rw [hl3.1, Option.getD_none, ← hE, List.map_map]
        exact hl3.2
    · rw [habs]
      unfold Spec.ub
      by_cases ha : anyUpper bs = true
      · rw [if_pos ha] at hu3; rw [hu3]; rfl
      · rw [if_neg ha] at hu3
        rw [hu3.1, Option.getD_none, ← hE, List.map_map]
        exact hu3.2

end MpiSerial
