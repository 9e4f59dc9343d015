import Verif.Model.Handles

/-! # Lemmas about the handle table (handles.c) -/

set_option linter.unusedSimpArgs false

namespace MpiSerial
variable {D : Type}

/-- The address a (positive) handle number denotes. -/
def locOf (h : Int) : Loc := ⟨(h / 256).toNat, (h % 256).toNat⟩
/-- The number of the handle stored at an address. -/
def encLoc (l : Loc) : Int := (l.block : Int) * 256 + l.index

theorem mkHandle_eq {b i : Nat} (hi : i < 256) : mkHandle b i = (b : Int) * 256 + i := by
  unfold mkHandle
  rw [← Nat.shiftLeft_add_eq_or_of_lt (by simpa using hi) b, Nat.shiftLeft_eq]
  omega

theorem handleToBlock_eq (h : Int) : handleToBlock h = h / 256 := by
  unfold handleToBlock
  rw [Int.shiftRight_eq_div_pow]; rfl

theorem handleToIndex_eq (h : Int) : handleToIndex h = (h % 256).toNat := by
  unfold handleToIndex
  have := Nat.and_two_pow_sub_one_eq_mod ((h % 4294967296).toNat) 8
  simp only [Nat.reducePow, Nat.reduceSub] at this
  rw [this]
  omega

theorem locOf_encLoc {l : Loc} (hi : l.index < 256) : locOf (encLoc l) = l := by
  cases l with | mk b i =>
  simp only [locOf, encLoc, Loc.mk.injEq] at *
  constructor <;> omega

theorem encLoc_locOf {h : Int} (hh : 0 ≤ h) : encLoc (locOf h) = h := by
  simp only [locOf, encLoc]; omega

namespace HTab
@[simp] theorem set_needInit (t : HTab D) (l it) : (t.set l it).needInit = t.needInit := rfl
@[simp] theorem set_nblocks (t : HTab D) (l it) : (t.set l it).nblocks = t.nblocks := rfl
@[simp] theorem set_nextfree (t : HTab D) (l it) : (t.set l it).nextfree = t.nextfree := rfl
@[simp] theorem set_items (t : HTab D) (l it l') :
    (t.set l it).items l' = if l' = l then it else t.items l' := rfl
@[simp] theorem setData_needInit (t : HTab D) (l d) : (t.setData l d).needInit = t.needInit := rfl
@[simp] theorem setData_nblocks (t : HTab D) (l d) : (t.setData l d).nblocks = t.nblocks := rfl
@[simp] theorem setData_nextfree (t : HTab D) (l d) : (t.setData l d).nextfree = t.nextfree := rfl
theorem setData_items (t : HTab D) (l d l') :
    (t.setData l d).items l' = if l' = l then { t.items l with data := d } else t.items l' := rfl
end HTab

/-- Closed form of the loop in `init_block`. -/
theorem init_block_loop (t : HTab D) (b n : Nat) (hn : n ≤ 255) :
    ∀ t', t' = (List.range n).foldl
      (fun t i => t.set ⟨b, i⟩
        { t.items ⟨b, i⟩ with handle := mkHandle b i, next := some ⟨b, i + 1⟩ }) t →
    t'.needInit = t.needInit ∧ t'.nblocks = t.nblocks ∧ t'.nextfree = t.nextfree ∧
    ∀ l, t'.items l = if l.block = b ∧ l.index < n then
        { t.items l with handle := encLoc l, next := some ⟨b, l.index + 1⟩ } else t.items l := by
  induction n with
  | zero => simp
  | succ n ih =>
    rintro t' rfl
    obtain ⟨h1, h2, h3, h4⟩ := ih (by omega) _ rfl
    simp only [List.range_succ, List.foldl_append, List.foldl_cons, List.foldl_nil,
      HTab.set_needInit, HTab.set_nblocks, HTab.set_nextfree, HTab.set_items]
    refine ⟨h1, h2, h3, ?_⟩
    intro l
    by_cases hl : l = ⟨b, n⟩
    · subst hl
      rw [if_pos rfl, h4]
      simp [mkHandle_eq (show n < 256 by omega), encLoc]
    · rw [if_neg hl, h4]
      have : (l.block = b ∧ l.index < n + 1) ↔ (l.block = b ∧ l.index < n) := by
        constructor
        · rintro ⟨h5, h6⟩
          refine ⟨h5, ?_⟩
          rcases Nat.lt_or_ge l.index n with h | h
          · exact h
          · exfalso; apply hl
            cases l; simp only [Loc.mk.injEq] at *; omega
        · rintro ⟨h5, h6⟩; exact ⟨h5, by omega⟩
      simp only [this]

theorem initBlockN_spec (t : HTab D) (b n : Nat) (hn : n ≤ 255) :
    (initBlockN t b n).needInit = t.needInit ∧ (initBlockN t b n).nblocks = t.nblocks ∧
    (initBlockN t b n).nextfree = t.nextfree ∧
    ∀ l, (initBlockN t b n).items l = if l.block = b ∧ l.index < n + 1 then
        { t.items l with handle := encLoc l,
                         next := if l.index < n then some ⟨b, l.index + 1⟩ else none }
      else t.items l := by
  have key := init_block_loop t b n hn
  unfold initBlockN
  generalize (List.range n).foldl
      (fun t i => t.set ⟨b, i⟩
        { t.items ⟨b, i⟩ with handle := mkHandle b i, next := some ⟨b, i + 1⟩ }) t = tb at key ⊢
  obtain ⟨h1, h2, h3, h4⟩ := key tb rfl
  simp only [HTab.set_needInit, HTab.set_nblocks, HTab.set_nextfree, HTab.set_items]
  refine ⟨h1, h2, h3, ?_⟩
  intro l
  by_cases hl : l = ⟨b, n⟩
  · subst hl
    rw [if_pos rfl, h4]
    simp [mkHandle_eq (show n < 256 by omega), encLoc]
  · rw [if_neg hl, h4]
    by_cases h5 : l.block = b ∧ l.index < n
    · have h6 : l.block = b ∧ l.index < n + 1 := ⟨h5.1, by omega⟩
      simp [h5, h6]
    · have h6 : ¬ (l.block = b ∧ l.index < n + 1) := by
        rintro ⟨h7, h8⟩
        apply hl
        cases l; simp only [Loc.mk.injEq] at *; omega
      simp only [h5, h6, if_false]

theorem init_block_spec (t : HTab D) (b : Nat) :
    (init_block t b).needInit = t.needInit ∧ (init_block t b).nblocks = t.nblocks ∧
    (init_block t b).nextfree = t.nextfree ∧
    ∀ l, (init_block t b).items l = if l.block = b ∧ l.index < 256 then
        { t.items l with handle := encLoc l,
                         next := if l.index < 255 then some ⟨b, l.index + 1⟩ else none }
      else t.items l := by
  have key : ∀ n, n = 255 → init_block t b = initBlockN t b n := by
    rintro n hn
    unfold init_block
    exact congrArg _ hn.symm
  obtain ⟨n, hn⟩ : ∃ n, n = 255 := ⟨_, rfl⟩
  have hs := initBlockN_spec t b n (by omega)
  have h1 : ∀ l : Loc, (l.block = b ∧ l.index < 256) ↔ (l.block = b ∧ l.index < n + 1) := by
    intro l; omega
  have h2 : ∀ l : Loc, (l.index < 255) ↔ (l.index < n) := by intro l; omega
  rw [key n hn]
  simp only [h1, h2]
  exact hs

attribute [local irreducible] init_block

/-- The free list starting at `p` is exactly `fl`. -/
def FreeChain (items : Loc → Item D) : Option Loc → List Loc → Prop
  | p, [] => p = none
  | p, l :: ls => p = some l ∧ FreeChain items (items l).next ls

theorem FreeChain.congr {items items' : Loc → Item D} {fl : List Loc} :
    ∀ {p}, (∀ l ∈ fl, (items' l).next = (items l).next) → FreeChain items p fl →
      FreeChain items' p fl := by
  induction fl with
  | nil => intro p _ h; exact h
  | cons l ls ih =>
    intro p h1 h2
    obtain ⟨h3, h4⟩ := h2
    refine ⟨h3, ?_⟩
    rw [h1 l (by simp)]
    exact ih (fun l' hl' => h1 l' (by simp [hl'])) h4

/-- Free list of a freshly initialised block from index `k` on. -/
def blockFrom (b k : Nat) : List Loc := (List.range' k (256 - k)).map (fun i => ⟨b, i⟩)

theorem mem_blockFrom {b k : Nat} {l : Loc} :
    l ∈ blockFrom b k ↔ l.block = b ∧ k ≤ l.index ∧ l.index < 256 := by
  unfold blockFrom
  simp only [List.mem_map, List.mem_range'_1]
  constructor
  · rintro ⟨i, hi, rfl⟩; simp; omega
  · rintro ⟨h1, h2, h3⟩
    exact ⟨l.index, by omega, by cases l; simp_all⟩

theorem nodup_blockFrom (b k : Nat) : (blockFrom b k).Nodup := by
  unfold blockFrom
  refine List.Pairwise.map _ ?_ (List.nodup_range' (s := k) (n := 256 - k))
  intro a b h h2; simp at h2; exact h h2

theorem chain_blockFrom {items : Loc → Item D} {b : Nat}
    (h : ∀ l : Loc, l.block = b → 1 ≤ l.index → l.index < 256 →
      (items l).next = if l.index < 255 then some ⟨b, l.index + 1⟩ else none) :
    ∀ n k, 256 - k = n → 1 ≤ k → k ≤ 256 →
      FreeChain items (if k < 256 then some ⟨b, k⟩ else none) (blockFrom b k) := by
  intro n
  induction n with
  | zero =>
    intro k h1 h2 h3
    have : k = 256 := by omega
    subst this
    simp [blockFrom, FreeChain]
  | succ n ih =>
    intro k h1 h2 h3
    have hk : k < 256 := by omega
    have hb : blockFrom b k = ⟨b, k⟩ :: blockFrom b (k + 1) := by
      unfold blockFrom
      have : 256 - k = (256 - (k + 1)) + 1 := by omega
      rw [this, List.range'_succ]; rfl
    rw [hb, if_pos hk]
    refine ⟨rfl, ?_⟩
    rw [h ⟨b, k⟩ rfl h2 hk]
    have := ih (k + 1) (by omega) (by omega) (by omega)
    simp only at *
    have h5 : (k < 255) ↔ (k + 1 < 256) := by omega
    simp only [h5]
    exact this

/-- Invariant of an initialised handle table with free list `fl` and live handles `L`. -/
structure HInv (t : HTab D) (L : List Int) (fl : List Loc) : Prop where
  init : t.needInit = false
  nb1 : 1 ≤ t.nblocks
  nb2 : t.nblocks ≤ 1024
  chain : FreeChain t.items t.nextfree fl
  nodup : fl.Nodup
  fvalid : ∀ l ∈ fl, t.valid l ∧ l ≠ ⟨0, 0⟩
  hnum : ∀ l, t.valid l → (t.items l).handle = encLoc l
  live : ∀ h, h ∈ L ↔ ∃ l, t.valid l ∧ l ≠ ⟨0, 0⟩ ∧ l ∉ fl ∧ h = encLoc l
  lnodup : L.Nodup
  size : L.length + fl.length + 1 = 256 * t.nblocks

/-- The handle table is in a consistent state in which exactly the handles `L` are live. -/
def HSt (t : HTab D) (L : List Int) : Prop :=
  (t.needInit = true ∧ L = []) ∨ ∃ fl, HInv t L fl

theorem encLoc_inj {l l' : Loc} (h1 : l.index < 256) (h2 : l'.index < 256)
    (h : encLoc l = encLoc l') : l = l' := by
  rw [← locOf_encLoc h1, ← locOf_encLoc h2, h]

theorem encLoc_pos {l : Loc} (h : l ≠ ⟨0, 0⟩) : 0 < encLoc l := by
  cases l with | mk b i =>
  simp only [encLoc, ne_eq, Loc.mk.injEq] at *
  omega

theorem HInv.live_pos {t : HTab D} {L fl} (hi : HInv t L fl) {h : Int} (hh : h ∈ L) :
    0 < h ∧ h < 262144 ∧ t.valid (locOf h) ∧ locOf h ≠ ⟨0, 0⟩ ∧ locOf h ∉ fl := by
  obtain ⟨l, h1, h2, h3, rfl⟩ := (hi.live h).1 hh
  rw [locOf_encLoc h1.2]
  refine ⟨encLoc_pos h2, ?_, h1, h2, h3⟩
  have := hi.nb2
  unfold HTab.valid at h1
  simp only [encLoc]; omega

theorem HSt.start (d : D) : HSt (HTab.start d) [] := Or.inl ⟨rfl, rfl⟩

/-- The part of `init_handles` after `init_block`. -/
def initTail (t : HTab D) : HTab D :=
  let t' := { t with nextfree := (t.items ⟨0, 0⟩).next }
  let t'' := t'.set ⟨0, 0⟩ { t'.items ⟨0, 0⟩ with next := none }
  { t'' with nblocks := 1, needInit := false }

theorem init_handles_eq (t : HTab D) : init_handles t = initTail (init_block t 0) := by
  unfold init_handles
  generalize init_block t 0 = tb
  rfl

theorem init_handles_items (t : HTab D) (l : Loc) :
    ((init_handles t).items l).data = (t.items l).data := by
  obtain ⟨h1, h2, h3, h4⟩ := init_block_spec t 0
  rw [init_handles_eq]
  generalize init_block t 0 = tb at *
  unfold initTail
  simp only [HTab.set_items]
  by_cases hl : l = ⟨0, 0⟩
  · subst hl; simp [h4]
  · simp only [hl, if_false, h4]; split <;> rfl

theorem init_handles_inv (t : HTab D) : HInv (init_handles t) [] (blockFrom 0 1) := by
  obtain ⟨h1, h2, h3, h4⟩ := init_block_spec t 0
  rw [init_handles_eq]
  generalize init_block t 0 = tb at *
  have hn : (initTail tb).nblocks = 1 := rfl
  have hi : ∀ l, (initTail tb).items l = if l = ⟨0,0⟩ then
      { tb.items ⟨0,0⟩ with next := none } else tb.items l := by
    intro l; rfl
  have hf : (initTail tb).nextfree = some ⟨0, 1⟩ := by
    have : (initTail tb).nextfree = (tb.items ⟨0, 0⟩).next := rfl
    rw [this, h4]; simp
  refine ⟨rfl, by rw [hn]; omega, by rw [hn]; omega, ?_, nodup_blockFrom _ _, ?_, ?_, ?_,
    List.nodup_nil, ?_⟩
  · rw [hf]
    have := chain_blockFrom (items := (initTail tb).items) (b := 0) (by
      intro l hb h5 h6
      rw [hi, if_neg (by intro h; subst h; simp at h5), h4, if_pos ⟨hb, h6⟩]) 255 1 rfl
      (by omega) (by omega)
    simpa using this
  · intro l hl
    rw [mem_blockFrom] at hl
    refine ⟨⟨by rw [hn]; omega, hl.2.2⟩, ?_⟩
    intro h; subst h; simp at hl
  · intro l hl
    unfold HTab.valid at hl
    rw [hn] at hl
    rw [hi]
    split
    · next h => subst h; simp [h4]
    · rw [h4, if_pos ⟨by omega, hl.2⟩]
  · intro h
    simp only [List.not_mem_nil, false_iff, not_exists, not_and]
    rintro l ⟨h5, h6⟩ h7 h8
    rw [hn] at h5
    exfalso; apply h8
    rw [mem_blockFrom]
    refine ⟨by omega, ?_, h6⟩
    cases l; simp only [ne_eq, Loc.mk.injEq] at *; omega
  · simp [hn, blockFrom]

/-- Allocation: either it succeeds with a fresh handle or the table is full and it aborts. -/
theorem HInv.alloc_exact {t : HTab D} {L fl} (hi : HInv t L fl) (fresh : D) :
    (L.length < 262143 ∧ ∃ t' h fl', mpi_alloc_handle t fresh = .ok (t', h, locOf h) ∧
      HInv t' (h :: L) fl' ∧ h ∉ L ∧
      (∀ h' ∈ L, (t'.items (locOf h')).data = (t.items (locOf h')).data) ∧
      (fl = [] → t'.nblocks = t.nblocks + 1 ∧ h = encLoc ⟨t.nblocks, 0⟩ ∧ fl' = blockFrom t.nblocks 1 ∧ t.nblocks ≠ 1024) ∧
      (∀ x xs, fl = x :: xs → t'.nblocks = t.nblocks ∧ h = encLoc x ∧ fl' = xs)) ∨
    (L.length = 262143 ∧ fl = [] ∧ t.nblocks = 1024 ∧
      mpi_alloc_handle t fresh = .abort "mpi_allocate_handle: max active handles exceeded") := by
  have hni := hi.init
  cases fl with
  | cons x xs =>
    left
    obtain ⟨hc1, hc2⟩ := hi.chain
    have hx := hi.fvalid x (by simp)
    have hs := hi.size
    have hnb := hi.nb2
    simp only [List.length_cons] at hs
    refine ⟨by omega, ?_⟩
    have hh := hi.hnum x hx.1
    refine ⟨{ (t.set x { t.items x with next := none }) with nextfree := (t.items x).next },
      encLoc x, xs, ?_, ?_, ?_, ?_, ?_, ?_⟩
    · unfold mpi_alloc_handle
      simp only [hni, Bool.false_eq_true, if_false, hc1, HTab.deref, hx.1, if_true,
        Res.ok_bind, Res.pure_eq, hh, locOf_encLoc hx.1.2, HTab.set]
    · have hnd := hi.nodup
      rw [List.nodup_cons] at hnd
      refine ⟨hni, hi.nb1, hi.nb2, ?_, hnd.2, ?_, ?_, ?_, ?_, ?_⟩
      · refine FreeChain.congr ?_ hc2
        intro l hl
        have : l ≠ x := fun h => hnd.1 (h ▸ hl)
        simp [this]
      · intro l hl; exact hi.fvalid l (by simp [hl])
      · intro l hl
        simp only [HTab.set_items]
        split
        · next h => subst h; exact hh
        · exact hi.hnum l hl
      · intro h
        simp only [List.mem_cons]
        constructor
        · rintro (rfl | h5)
          · exact ⟨x, hx.1, hx.2, hnd.1, rfl⟩
          · obtain ⟨l, h6, h7, h8, h9⟩ := (hi.live h).1 h5
            exact ⟨l, h6, h7, fun h10 => h8 (by simp [h10]), h9⟩
        · rintro ⟨l, h6, h7, h8, rfl⟩
          by_cases h9 : l = x
          · left; rw [h9]
          · right; exact (hi.live _).2 ⟨l, h6, h7, by simp [h9, h8], rfl⟩
      · rw [List.nodup_cons]
        refine ⟨?_, hi.lnodup⟩
        intro h5
        obtain ⟨l, h6, h7, h8, h9⟩ := (hi.live _).1 h5
        have := encLoc_inj hx.1.2 h6.2 h9
        subst this; exact h8 (by simp)
      · simp only [List.length_cons, HTab.set_nblocks]
        show L.length + 1 + xs.length + 1 = 256 * t.nblocks
        omega
    · intro h5
      obtain ⟨l, h6, h7, h8, h9⟩ := (hi.live _).1 h5
      have := encLoc_inj hx.1.2 h6.2 h9
      subst this; exact h8 (by simp)
    · intro h' _
      simp only [HTab.set_items]
      split
      · next h => rw [h]
      · rfl
    · intro h; simp at h
    · intro y ys h
      simp only [List.cons.injEq] at h
      exact ⟨rfl, by rw [h.1], h.2⟩
  | nil =>
    have hs := hi.size
    have hnb := hi.nb2
    have hnb1 := hi.nb1
    simp only [List.length_nil] at hs
    have hc : t.nextfree = none := hi.chain
    by_cases hm : t.nblocks = 1024
    · right
      refine ⟨by omega, rfl, hm, ?_⟩
      unfold mpi_alloc_handle
      simp [hni, hc, hm]
    · left
      refine ⟨by omega, ?_⟩
      obtain ⟨b1, b2, b3, b4⟩ := init_block_spec
        ⟨false, t.nblocks, fun l => if l.block = t.nblocks then (⟨0, none, fresh⟩ : Item D) else t.items l, none⟩
        t.nblocks
      generalize hT : init_block ⟨false, t.nblocks, fun l => if l.block = t.nblocks then (⟨0, none, fresh⟩ : Item D) else t.items l, none⟩ t.nblocks = T at b1 b2 b3 b4
      simp only at b1 b2 b3 b4
      have hb0 : T.items ⟨t.nblocks, 0⟩ = { handle := encLoc ⟨t.nblocks, 0⟩, next := some ⟨t.nblocks, 1⟩, data := fresh } := by
        rw [b4]; simp
      have hlo : locOf (encLoc ⟨t.nblocks, 0⟩) = ⟨t.nblocks, 0⟩ := locOf_encLoc (by simp)
      refine ⟨{ (T.set ⟨t.nblocks, 0⟩ { T.items ⟨t.nblocks, 0⟩ with next := none }) with
          nextfree := (T.items ⟨t.nblocks, 0⟩).next, nblocks := t.nblocks + 1 },
        encLoc ⟨t.nblocks, 0⟩, blockFrom t.nblocks 1, ?_, ?_, ?_, ?_, ?_, ?_⟩
      · unfold mpi_alloc_handle
        simp only [hni, Bool.false_eq_true, if_false, hc, hm, hT, Res.pure_eq, Res.ok.injEq,
          Prod.mk.injEq, hlo]
        simp [hb0, HTab.set, b2]
      · refine ⟨by simp [b1, hni], by simp, by simp [b2]; omega, ?_, nodup_blockFrom _ _, ?_, ?_, ?_, ?_, ?_⟩
        · have := chain_blockFrom (items := fun l => if l = ⟨t.nblocks, 0⟩ then { T.items ⟨t.nblocks, 0⟩ with next := none } else T.items l) (b := t.nblocks) (by
            intro l hb h5 h6
            simp only
            rw [if_neg (by intro h; subst h; simp at h5), b4, if_pos ⟨hb, h6⟩]) 255 1 rfl
            (by omega) (by omega)
          simp only [HTab.set_nextfree, hb0]
          simpa [hb0, HTab.set] using this
        · intro l hl
          rw [mem_blockFrom] at hl
          refine ⟨⟨by simp [b2]; omega, hl.2.2⟩, ?_⟩
          intro h; subst h; simp at hl
        · intro l hl
          unfold HTab.valid at hl
          simp only [HTab.set_nblocks, b2] at hl
          simp only [HTab.set_items]
          split
          · next h => subst h; simp [hb0]
          · rw [b4]
            split
            · rfl
            · next h5 =>
              have : l.block ≠ t.nblocks := fun h => h5 ⟨h, hl.2⟩
              simp only [this, if_false]
              exact hi.hnum l ⟨by omega, hl.2⟩
        · intro h
          simp only [List.mem_cons]
          constructor
          · rintro (rfl | h5)
            · refine ⟨⟨t.nblocks, 0⟩, ⟨by simp [b2], by simp⟩, by simp; omega, ?_, rfl⟩
              rw [mem_blockFrom]; simp
            · obtain ⟨l, h6, h7, h8, h9⟩ := (hi.live h).1 h5
              refine ⟨l, ⟨by have := h6.1; simp [b2]; omega, h6.2⟩, h7, ?_, h9⟩
              rw [mem_blockFrom]; have := h6.1; omega
          · rintro ⟨l, h6, h7, h8, rfl⟩
            unfold HTab.valid at h6
            simp only [HTab.set_nblocks, b2] at h6
            rw [mem_blockFrom] at h8
            by_cases h9 : l.block = t.nblocks
            · left
              have : l.index = 0 := by omega
              cases l; simp_all
            · right
              exact (hi.live _).2 ⟨l, ⟨by omega, h6.2⟩, h7, by simp, rfl⟩
        · rw [List.nodup_cons]
          refine ⟨?_, hi.lnodup⟩
          intro h5
          obtain ⟨l, h6, h7, h8, h9⟩ := (hi.live _).1 h5
          have := encLoc_inj (l := ⟨t.nblocks, 0⟩) (by simp) h6.2 h9
          subst this
          have := h6.1; simp at this
        · simp only [List.length_cons, HTab.set_nblocks, b2, blockFrom, List.length_map,
            List.length_range']
          omega
      · intro h5
        obtain ⟨l, h6, h7, h8, h9⟩ := (hi.live _).1 h5
        have := encLoc_inj (l := ⟨t.nblocks, 0⟩) (by simp) h6.2 h9
        subst this
        have := h6.1; simp at this
      · intro h' h5
        have hp := hi.live_pos h5
        have hv := hp.2.2.1
        have hne : (locOf h').block ≠ t.nblocks := by have := hv.1; omega
        have hne2 : locOf h' ≠ ⟨t.nblocks, 0⟩ := fun h => hne (by rw [h])
        simp only [HTab.set_items, hne2, if_false]
        rw [b4, if_neg (fun h => hne h.1)]
        simp [hne]
      · intro _; exact ⟨by simp [b2], rfl, rfl, hm⟩
      · intro x xs h; simp at h

theorem HInv.alloc {t : HTab D} {L fl} (hi : HInv t L fl) (fresh : D) :
    (L.length < 262143 ∧ ∃ t' h fl', mpi_alloc_handle t fresh = .ok (t', h, locOf h) ∧
      HInv t' (h :: L) fl' ∧ h ∉ L ∧
      (∀ h' ∈ L, (t'.items (locOf h')).data = (t.items (locOf h')).data) ∧
      (fl = [] → t'.nblocks = t.nblocks + 1) ∧
      (∀ x xs, fl = x :: xs → t'.nblocks = t.nblocks ∧ h = encLoc x ∧ fl' = xs)) ∨
    (L.length = 262143 ∧ (mpi_alloc_handle t fresh).aborted = true) := by
  rcases hi.alloc_exact fresh with ⟨h1, t', h, fl', h2, h3, h4, h5, h6, h7⟩ | ⟨h1, _, _, h2⟩
  · exact Or.inl ⟨h1, t', h, fl', h2, h3, h4, h5, fun he => (h6 he).1, h7⟩
  · exact Or.inr ⟨h1, by rw [h2]; rfl⟩

theorem itemAddr_live {t : HTab D} {L fl} (hi : HInv t L fl) {h : Int} (hh : h ∈ L) :
    itemAddr t h = .ok (locOf h) := by
  obtain ⟨h1, h2, h3, h4, h5⟩ := hi.live_pos hh
  unfold itemAddr
  simp only [handleToBlock_eq, handleToIndex_eq]
  have hb := h3.1
  simp only [locOf] at hb
  rw [if_neg (by omega), if_neg (by omega)]
  rfl

theorem HInv.lookup {t : HTab D} {L fl} (hi : HInv t L fl) {h : Int} (hh : h ∈ L) :
    mpi_handle_to_ptr t h = .ok (t, some (locOf h)) := by
  have h1 := hi.live_pos hh
  unfold mpi_handle_to_ptr
  simp only [hi.init, Bool.false_eq_true, if_false]
  rw [if_neg (by omega), itemAddr_live hi hh]
  rfl

theorem HInv.free {t : HTab D} {L fl} (hi : HInv t L fl) {h : Int} (hh : h ∈ L) :
    ∃ t', mpi_free_handle t h = .ok t' ∧ HInv t' (L.erase h) (locOf h :: fl) ∧
      t'.nblocks = t.nblocks ∧ ∀ l, (t'.items l).data = (t.items l).data := by
  obtain ⟨h1, h2, h3, h4, h5⟩ := hi.live_pos hh
  have henc : encLoc (locOf h) = h := encLoc_locOf (by omega)
  refine ⟨{ (t.set (locOf h) { t.items (locOf h) with next := t.nextfree }) with nextfree := some (locOf h) }, ?_, ?_, rfl, ?_⟩
  · unfold mpi_free_handle
    simp only [hi.init]
    rw [if_neg (by omega), itemAddr_live hi hh]
    simp
  · refine ⟨hi.init, hi.nb1, hi.nb2, ?_, ?_, ?_, ?_, ?_, hi.lnodup.erase h, ?_⟩
    · refine ⟨rfl, ?_⟩
      simp only [HTab.set_items, if_true]
      refine FreeChain.congr ?_ hi.chain
      intro l hl
      have : l ≠ locOf h := fun h' => h5 (h' ▸ hl)
      simp [this]
    · rw [List.nodup_cons]; exact ⟨h5, hi.nodup⟩
    · intro l hl
      simp only [List.mem_cons] at hl
      rcases hl with rfl | hl
      · exact ⟨h3, h4⟩
      · exact hi.fvalid l hl
    · intro l hl
      simp only [HTab.set_items]
      split
      · next h' => subst h'; exact hi.hnum _ hl
      · exact hi.hnum l hl
    · intro h'
      rw [hi.lnodup.mem_erase_iff]
      constructor
      · rintro ⟨hne, hm⟩
        obtain ⟨l, h6, h7, h8, rfl⟩ := (hi.live h').1 hm
        refine ⟨l, h6, h7, ?_, rfl⟩
        simp only [List.mem_cons, not_or]
        exact ⟨fun h9 => hne (by rw [h9, henc]), h8⟩
      · rintro ⟨l, h6, h7, h8, rfl⟩
        simp only [List.mem_cons, not_or] at h8
        refine ⟨fun h9 => h8.1 (by rw [← h9, locOf_encLoc h6.2]), ?_⟩
        exact (hi.live _).2 ⟨l, h6, h7, h8.2, rfl⟩
    · have := List.length_erase_of_mem hh
      have hpos : 0 < L.length := List.length_pos_of_mem hh
      have hs := hi.size
      simp only [List.length_cons, HTab.set_nblocks]
      omega
  · intro l
    simp only [HTab.set_items]
    split
    · next h' => rw [h']
    · rfl

theorem HInv.setData {t : HTab D} {L fl} (hi : HInv t L fl) (l : Loc) (d : D) :
    HInv (t.setData l d) L fl := by
  refine ⟨hi.init, hi.nb1, hi.nb2, ?_, hi.nodup, hi.fvalid, ?_, hi.live, hi.lnodup, hi.size⟩
  · refine FreeChain.congr ?_ hi.chain
    intro l' _
    rw [HTab.setData_items]; split
    · next h => rw [h]
    · rfl
  · intro l' hl
    rw [HTab.setData_items]; split
    · next h => subst h; exact hi.hnum _ hl
    · exact hi.hnum _ hl

/-! ## The same facts for `HSt` -/

theorem HSt.nodup {t : HTab D} {L} (hs : HSt t L) : L.Nodup := by
  rcases hs with ⟨_, rfl⟩ | ⟨fl, hi⟩
  · exact List.nodup_nil
  · exact hi.lnodup

theorem HSt.pos {t : HTab D} {L} (hs : HSt t L) {h : Int} (hh : h ∈ L) : 0 < h ∧ h < 262144 := by
  rcases hs with ⟨_, rfl⟩ | ⟨fl, hi⟩
  · simp at hh
  · exact ⟨(hi.live_pos hh).1, (hi.live_pos hh).2.1⟩

theorem mpi_alloc_handle_needInit {t : HTab D} (h : t.needInit = true) (fresh : D) :
    mpi_alloc_handle t fresh = mpi_alloc_handle (init_handles t) fresh := by
  unfold mpi_alloc_handle
  simp only [h, if_true, (init_handles_inv t).init, Bool.false_eq_true, if_false]

theorem HSt.alloc {t : HTab D} {L} (hs : HSt t L) (fresh : D) :
    (L.length < 262143 ∧ ∃ t' h, mpi_alloc_handle t fresh = .ok (t', h, locOf h) ∧
      HSt t' (h :: L) ∧ h ∉ L ∧
      (∀ h' ∈ L, (t'.items (locOf h')).data = (t.items (locOf h')).data)) ∨
    (L.length = 262143 ∧ (mpi_alloc_handle t fresh).aborted = true) := by
  rcases hs with ⟨h1, rfl⟩ | ⟨fl, hi⟩
  · have hi := init_handles_inv t
    rw [mpi_alloc_handle_needInit h1]
    rcases hi.alloc fresh with ⟨h2, t', h, fl', h3, h4, h5, h6, _⟩ | ⟨h2, _⟩
    · left; exact ⟨h2, t', h, h3, Or.inr ⟨fl', h4⟩, h5, by simp⟩
    · simp at h2
  · rcases hi.alloc fresh with ⟨h2, t', h, fl', h3, h4, h5, h6, _⟩ | h2
    · left; exact ⟨h2, t', h, h3, Or.inr ⟨fl', h4⟩, h5, h6⟩
    · right; exact h2

theorem HSt.lookup {t : HTab D} {L} (hs : HSt t L) {h : Int} (hh : h ∈ L) :
    mpi_handle_to_ptr t h = .ok (t, some (locOf h)) := by
  rcases hs with ⟨h1, rfl⟩ | ⟨fl, hi⟩
  · simp at hh
  · exact hi.lookup hh

theorem HSt.free {t : HTab D} {L} (hs : HSt t L) {h : Int} (hh : h ∈ L) :
    ∃ t', mpi_free_handle t h = .ok t' ∧ HSt t' (L.erase h) ∧
      ∀ l, (t'.items l).data = (t.items l).data := by
  rcases hs with ⟨h1, rfl⟩ | ⟨fl, hi⟩
  · simp at hh
  · obtain ⟨t', h2, h3, _, h4⟩ := hi.free hh
    exact ⟨t', h2, Or.inr ⟨_, h3⟩, h4⟩

theorem HSt.setData {t : HTab D} {L} (hs : HSt t L) (l : Loc) (d : D) : HSt (t.setData l d) L := by
  rcases hs with ⟨h1, rfl⟩ | ⟨fl, hi⟩
  · exact Or.inl ⟨h1, rfl⟩
  · exact Or.inr ⟨fl, hi.setData l d⟩

theorem HSt.destroy {t : HTab D} {L} (_ : HSt t L) : HSt (mpi_destroy_handles t) [] := by
  unfold mpi_destroy_handles
  split
  · next h => exact Or.inl ⟨h, rfl⟩
  · exact Or.inl ⟨rfl, rfl⟩

theorem locOf_inj {h h' : Int} (h1 : 0 ≤ h) (h2 : 0 ≤ h') (he : locOf h = locOf h') : h = h' := by
  rw [← encLoc_locOf h1, ← encLoc_locOf h2, he]

end MpiSerial
