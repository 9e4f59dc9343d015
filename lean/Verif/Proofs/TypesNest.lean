import Verif.Props.Types

set_option linter.unusedSimpArgs false

/-! # Datatypes built by nested constructor calls -/

namespace MpiSerial

/-- Size of a basic element according to type.c:68-141. -/
abbrev sz (cfg : Cfg) : Int → Int := lenOf cfg

/-- The exact values of a struct fit the C integer types, there is at least one data entry,
explicit lower bounds are non-negative and explicit upper bounds negative (the other signs are
mishandled by the code, see C26), and no empty block inherits an explicit bound. -/
structure Small (s : Int → Int) (bs : List (Nat × Int × Spec.Comp)) : Prop where
  disp : ∀ b ∈ bs, -9223372036854775808 ≤ b.2.1 ∧ b.2.1 ≤ 9223372036854775807
  ne : (Spec.struct s bs).map ≠ []
  count : ((Spec.struct s bs).map.length : Int) ≤ 2147483647
  disps : ∀ x ∈ (Spec.struct s bs).map, -2147483648 ≤ x.1 ∧ x.1 ≤ 2147483647
  lbs : ∀ c ∈ bs.flatMap (Spec.blockLb s), 0 ≤ c ∧ c ≤ 2305843009213693952
  ubs : ∀ c ∈ bs.flatMap (Spec.blockUb s), -2305843009213693952 ≤ c ∧ c < 0
  zero : ∀ b ∈ bs, ∀ τ, b.2.2 = .data τ → τ.lbMark ≠ none ∨ τ.ubMark ≠ none → b.1 ≠ 0

/-- The exact specification blocks of a struct call. -/
def specBlocks (xs : List (Int × Int × Typestruct × Spec.Comp)) : List (Nat × Int × Spec.Comp) :=
  xs.map fun x => (x.1.toNat, x.2.1, x.2.2.2)

/-- The arguments of the C call. -/
def callBlocks (xs : List (Int × Int × Typestruct × Spec.Comp)) : List Block :=
  xs.map fun x => mkBlock (x.1, x.2.1, x.2.2.1)

/-- The predefined data types: every table entry except the markers and MPI_INTEGER16 (which has
no length). -/
def IsBasic (cfg : Cfg) (t : Typestruct) : Prop :=
  t ∈ simpletypes cfg ∧ ¬ IsMarker t ∧ t ≠ static1 16 25

/-- `Describes cfg t c`: `t` is a descriptor the library builds (nested to any depth, with malloc'ed
memory reading as zero) for the datatype `c` of the standard. -/
inductive Describes (cfg : Cfg) : Typestruct → Spec.Comp → Prop where
  | lb : Describes cfg (static1 0 12) .lb
  | ub : Describes cfg (static1 0 13) .ub
  | basic {t : Typestruct} : IsBasic cfg t → Describes cfg t (.data (Spec.plain (typeMap t)))
  | struct {g : Garbage} {xs : List (Int × Int × Typestruct × Spec.Comp)} {t : Typestruct} :
      (∀ x ∈ xs, Describes cfg x.2.2.1 x.2.2.2) →
      (∀ x ∈ xs, 0 ≤ x.1) →
      g.o_lb = 0 → g.o_ub = 0 →
      Small (sz cfg) (specBlocks xs) →
      Type_struct cfg g (callBlocks xs) = .ok t →
      Describes cfg t (.data (Spec.struct (sz cfg) (specBlocks xs)))
  /-- committing changes nothing else -/
  | committed {t : Typestruct} {τ : Spec.DType} : Describes cfg t (.data τ) →
      Describes cfg { t with committed := 1 } (.data τ)

theorem static1_exact {cfg : Cfg} (hc : cfg.Ok) {ub k : Int} (h : Simpletype_length cfg k = .ok ub) :
    Exact cfg (static1 ub k) := by
  obtain ⟨h1, h2⟩ := hasLen_of_ok h
  have hr := lenOf_range hc h1
  have hm : (static1 ub k).map = [⟨0, k⟩] := rfl
  have hab : absT (static1 ub k) = ⟨[(0, k)], none, none⟩ := rfl
  refine ⟨⟨by simp [static1], by simp [static1], by simp [static1]⟩, by rw [hm]; simp,
    by simp [static1], ?_, ?_, ?_, ?_, by simp [static1], ?_⟩
  · intro p hp
    rw [hm] at hp; simp at hp; subst hp; exact h1
  · intro p hp
    rw [hm] at hp; simp at hp; subst hp; simp
  · rw [hab]; simp [Spec.lb, static1]
  · rw [hab]; simp [Spec.ub, static1, h2]
  · simp only [static1]; omega

theorem static2_good {cfg : Cfg} (hc : cfg.Ok) {ub k0 d k1 a b : Int}
    (ha : Simpletype_length cfg k0 = .ok a) (hb : Simpletype_length cfg k1 = .ok b)
    (hd : a ≤ d ∧ d ≤ 1000) (hu : 1 ≤ ub ∧ ub ≤ 1000)
    (hext : Spec.roundUp ub (max a b) = Spec.roundUp (d + b) (max a b)) :
    Good cfg (static2 ub k0 d k1) := by
  obtain ⟨h1, h2⟩ := hasLen_of_ok ha
  obtain ⟨h3, h4⟩ := hasLen_of_ok hb
  have hr := lenOf_range hc h1
  have hr' := lenOf_range hc h3
  have hm : (static2 ub k0 d k1).map = [⟨0, k0⟩, ⟨d, k1⟩] := rfl
  have hab : absT (static2 ub k0 d k1) = ⟨[(0, k0), (d, k1)], none, none⟩ := rfl
  refine ⟨⟨by simp [static2], by simp [static2], by simp [static2]⟩, by rw [hm]; simp,
    by simp [static2], ?_, ?_, by simp [static2], ?_, by simp [static2], ?_⟩
  · intro p hp
    rw [hm] at hp; simp at hp; rcases hp with rfl | rfl
    · exact h1
    · exact h3
  · intro p hp
    rw [hm] at hp; simp at hp; rcases hp with rfl | rfl
    · simp
    · simp only []; omega
  · intro _ _
    refine ⟨by simp only [static2]; omega, ?_⟩
    have hal : Spec.align (lenOf cfg) (absT (static2 ub k0 d k1)) = max a b := by
      rw [hab]; simp [Spec.align, h2, h4, List.max?]
    have hub : Spec.ub (lenOf cfg) (absT (static2 ub k0 d k1)) = d + b := by
      rw [hab]; simp [Spec.ub, h2, h4, List.max?]
      omega
    have hlb : Spec.lb (absT (static2 ub k0 d k1)) = 0 := by
      rw [hab]; simp [Spec.lb, List.min?]
      omega
    unfold extOf Spec.extent
    rw [if_pos (by simp [absT, static2]), hal, hub, hlb]
    simp only [static2, Int.sub_zero]
    exact hext
  · simp only [static2]; omega

theorem IsBasic.good {cfg : Cfg} (hc : cfg.Ok) {t : Typestruct} (h : IsBasic cfg t) : Good cfg t := by
  obtain ⟨h1, h2, h3⟩ := h
  obtain ⟨c1, c2, c3, c4⟩ := hc
  have hc : cfg.Ok := ⟨c1, c2, c3, c4⟩
  simp only [simpletypes, List.mem_cons, List.not_mem_nil, or_false] at h1
  rcases h1 with rfl | rfl | rfl | rfl | rfl | rfl | rfl | rfl | rfl | rfl | rfl | rfl | rfl | rfl |
    rfl | rfl | rfl | rfl | rfl | rfl | rfl | rfl | rfl | rfl | rfl | rfl | rfl | rfl | rfl | rfl |
    rfl | rfl | rfl | rfl | rfl | rfl | rfl | rfl | rfl | rfl | rfl | rfl | rfl | rfl | rfl
  all_goals first
    | exact (static1_exact hc rfl).good hc
    | exact absurd (Or.inl rfl) h2
    | exact absurd (Or.inr rfl) h2
    | exact absurd rfl h3
    | exact static2_good hc rfl rfl (by decide) (by decide) (by decide)
    | (refine static2_good hc rfl rfl (by omega) (by omega) ?_; congr 1; omega)

/-- Meaning of a described component. -/
def Meaning (cfg : Cfg) (t : Typestruct) : Spec.Comp → Prop
  | .lb => t = static1 0 12
  | .ub => t = static1 0 13
  | .data τ => Good cfg t ∧ absT t = τ

theorem Meaning.goodComp {cfg : Cfg} {t : Typestruct} {c : Spec.Comp} (h : Meaning cfg t c) :
    GoodComp cfg t := by
  cases c with
  | lb => exact Or.inl h
  | ub => exact Or.inr (Or.inl h)
  | data τ => exact Or.inr (Or.inr h.1)

theorem Meaning.absB {cfg : Cfg} {t : Typestruct} {c : Spec.Comp} (h : Meaning cfg t c) (n d : Int)
    (hd : -9223372036854775808 ≤ d ∧ d ≤ 9223372036854775807) :
    absB (mkBlock (n, d, t)) = (n.toNat, d, c) := by
  have hs : s64 (u64 d) = d := by rw [s64_u64, s64_of_range hd.1 hd.2]
  unfold MpiSerial.absB mkBlock
  simp only [hs]
  cases c with
  | lb => rw [show t = static1 0 12 from h]; rfl
  | ub => rw [show t = static1 0 13 from h]; rfl
  | data τ =>
    have := Good.k0 h.1 ⟨n, u64 d, t⟩ rfl
    unfold Block.isData at this
    rw [if_neg this.1, if_neg this.2, h.2]

/-- The struct call succeeds and gives an exact descriptor of the specified type. -/
theorem struct_meaning {cfg : Cfg} (hc : cfg.Ok) {g : Garbage}
    {xs : List (Int × Int × Typestruct × Spec.Comp)}
    (hm : ∀ x ∈ xs, Meaning cfg x.2.2.1 x.2.2.2) (hn : ∀ x ∈ xs, 0 ≤ x.1)
    (hl : g.o_lb = 0) (hu : g.o_ub = 0) (hs : Small (sz cfg) (specBlocks xs)) :
    ∃ t, Type_struct cfg g (callBlocks xs) = .ok t ∧ Exact cfg t ∧
      absT t = Spec.struct (sz cfg) (specBlocks xs) ∧ t.committed = 0 := by
  have hb : (callBlocks xs).map absB = specBlocks xs := by
    unfold callBlocks specBlocks
    rw [List.map_map]
    apply List.map_congr_left
    intro x hx
    exact (hm x hx).absB _ _ (hs.disp _ (List.mem_map.2 ⟨x, hx, rfl⟩))
  have hmem : ∀ b ∈ callBlocks xs, ∃ x ∈ xs, mkBlock (x.1, x.2.1, x.2.2.1) = b := by
    intro b hb; exact List.mem_map.1 hb
  have := struct_hom hc g (callBlocks xs)
    (by intro b hb; obtain ⟨x, hx, rfl⟩ := hmem b hb; exact (hm x hx).goodComp)
    (by intro b hb; obtain ⟨x, hx, rfl⟩ := hmem b hb; exact hn x hx)
    (by
      intro b hb hd ho
      obtain ⟨x, hx, rfl⟩ := hmem b hb
      have hmx := hm x hx
      have hz := hs.zero _ (List.mem_map.2 ⟨x, hx, rfl⟩)
      have hgood := hmx.goodComp.good (b := mkBlock (x.1, x.2.1, x.2.2.1)) hd
      have hnx := hn x hx
      simp only [] at hz
      cases hcx : x.2.2.2 with
      | lb =>
        rw [hcx] at hmx
        exfalso
        unfold Block.isData Block.k0 mkBlock at hd
        rw [show x.2.2.1 = static1 0 12 from hmx] at hd
        simp [static1] at hd
      | ub =>
        rw [hcx] at hmx
        exfalso
        unfold Block.isData Block.k0 mkBlock at hd
        rw [show x.2.2.1 = static1 0 13 from hmx] at hd
        simp [static1] at hd
      | data τ =>
        rw [hcx] at hmx
        have := hz τ hcx (by
          rw [← hmx.2]
          simp only [absT, mkBlock] at ho ⊢
          rcases ho with ho | ho
          · left; simp [ho]
          · right; simp [ho])
        simp only [mkBlock]; omega)
    (by
      intro b hb; obtain ⟨x, hx, rfl⟩ := hmem b hb
      exact ⟨u64_nonneg _, u64_lt _⟩)
    (by rw [hb]; exact hs.ne) (by rw [hb]; exact hs.count) (by rw [hb]; exact hs.disps)
    (by rw [hb]; exact hs.lbs) (by rw [hb]; exact hs.ubs) ⟨hl, hu⟩
  rw [hb] at this
  exact this

theorem Describes.meaning {cfg : Cfg} (hc : cfg.Ok) {t : Typestruct} {c : Spec.Comp}
    (h : Describes cfg t c) : Meaning cfg t c := by
  induction h with
  | lb => rfl
  | ub => rfl
  | @basic t hb =>
    refine ⟨hb.good hc, ?_⟩
    have h0 : t.o_lb = 0 ∧ t.o_ub = 0 := by
      have h1 := hb.1
      simp only [simpletypes, List.mem_cons, List.not_mem_nil, or_false] at h1
      rcases h1 with rfl | rfl | rfl | rfl | rfl | rfl | rfl | rfl | rfl | rfl | rfl | rfl | rfl |
        rfl | rfl | rfl | rfl | rfl | rfl | rfl | rfl | rfl | rfl | rfl | rfl | rfl | rfl | rfl |
        rfl | rfl | rfl | rfl | rfl | rfl | rfl | rfl | rfl | rfl | rfl | rfl | rfl | rfl | rfl |
        rfl | rfl <;> exact ⟨rfl, rfl⟩
    simp [absT, h0, Spec.plain, typeMap, Typestruct.map]
  | struct hx hn hl hu hs hr ih =>
    obtain ⟨t', h1, h2, h3, _⟩ := struct_meaning hc ih hn hl hu hs
    rw [hr] at h1
    obtain rfl : _ = t' := Res.ok.inj h1
    exact ⟨h2.good hc, h3⟩
  | committed _ ih =>
    obtain ⟨⟨h1, h2, h3, h4, h5, h6, h7, h8, h9⟩, e⟩ := ih
    exact ⟨⟨⟨h1.1, h1.2, h1.3⟩, h2, h3, h4, h5, h6, h7, h8, h9⟩, e⟩

end MpiSerial
