import Verif.Spec.Opaque
import Verif.Proofs.IdealCalls

/-!
# Two machines that differ in handle numbers
-/

set_option linter.unusedSimpArgs false
set_option autoImplicit false

namespace MpiSerial

open Res (Rel)

/-! ## Free numbers -/

namespace Pool
variable {used used' : Int → Prop} {n : Nat} {P P' : Pool} {h : Int}

theorem Serves.congr (hs : P.Serves used n) (he : ∀ a, used' a ↔ used a) : P.Serves used' n :=
  ⟨hs.distinct, fun h hm => ⟨(hs.unused h hm).1, fun hu => (hs.unused h hm).2 ((he h).1 hu)⟩,
   fun hb h ho => hs.later hb h (ho.imp (he h).1 id), hs.blocks, hs.amount, fun hu => hs.world fun h1 => hu ((he 1).2 h1)⟩

theorem Serves.start (he : ∀ a, ¬ used a) : Pool.start.Serves used 262143 := by
  refine ⟨block_nodup 0, fun h hm => ?_, fun _ h ho => ?_, ⟨Nat.le_refl _, by decide⟩, ?_, fun _ => ⟨_, rfl⟩⟩
  · have := mem_block.1 (show h ∈ Pool.block 0 from hm)
    exact ⟨by omega, he h⟩
  · rcases ho with ho | ho
    · exact absurd ho (he h)
    · have := mem_block.1 (show h ∈ Pool.block 0 from ho)
      show h < 256 * ((1 : Nat) : Int)
      omega
  · simp only [Pool.left, Pool.start, Pool.block, List.length_map, List.length_range']

theorem Serves.take_none (hs : P.Serves used n) (ht : P.take = none) : n = 0 := by
  obtain ⟨free, b⟩ := P
  cases free with
  | cons a fl => cases ht
  | nil =>
    simp only [Pool.take] at ht
    split at ht
    · next hb => rw [← hs.amount, hb]; rfl
    · cases ht

theorem Serves.take_some (hs : P.Serves used n) (ht : P.take = some (h, P')) :
    ∃ m, n = m + 1 ∧ P'.Serves (fun a => a = h ∨ used a) m ∧ 0 < h ∧ ¬ used h ∧ (¬ used 1 → h = 1) := by
  obtain ⟨free, b⟩ := P
  cases free with
  | cons a fl =>
    simp only [Pool.take, Option.some.injEq, Prod.mk.injEq] at ht
    obtain ⟨rfl, rfl⟩ := ht
    have h1 := hs.unused a (List.mem_cons_self ..)
    have h2 := List.nodup_cons.1 hs.distinct
    have h3 : ¬ used 1 → a = 1 := fun hu => by
      obtain ⟨fl', he⟩ := hs.world hu
      exact (List.cons.inj he).1
    refine ⟨fl.length + 256 * (1024 - b), ?_, ⟨h2.2, ?_, ?_, hs.blocks, rfl, ?_⟩, h1.1, h1.2, h3⟩
    · rw [← hs.amount]; simp only [Pool.left, List.length_cons]; omega
    · intro x hx
      have := hs.unused x (List.mem_cons_of_mem _ hx)
      exact ⟨this.1, fun ho => ho.elim (fun e => h2.1 (e ▸ hx)) this.2⟩
    · intro hb x hx
      refine hs.later hb x ?_
      rcases hx with (rfl | hx) | hx
      · exact .inr (List.mem_cons_self ..)
      · exact .inl hx
      · exact .inr (List.mem_cons_of_mem _ hx)
    · intro hn
      exact absurd (.inl (h3 fun hu => hn (.inr hu)).symm) hn
  | nil =>
    simp only [Pool.take] at ht
    split at ht
    · cases ht
    · next hb =>
      simp only [Option.some.injEq, Prod.mk.injEq] at ht
      obtain ⟨rfl, rfl⟩ := ht
      have hb1 := hs.blocks
      have hl := hs.later hb
      dsimp only at hb1 hl
      have hw : used 1 := by
        by_cases h1 : used 1
        · exact h1
        · obtain ⟨_, he⟩ := hs.world h1; cases he
      have hlt : ∀ x, used x → x < 256 * (b : Int) := fun x hx => hl x (.inl hx)
      refine ⟨255 + 256 * (1024 - (b + 1)), ?_, ⟨block_nodup b, ?_, ?_, ⟨by dsimp only; omega, by dsimp only; omega⟩, ?_, ?_⟩, by omega,
        fun hu => by have := hlt _ hu; omega, fun hu => absurd hw hu⟩
      · rw [← hs.amount]; simp only [Pool.left, List.length_nil]; omega
      · intro x hx
        have := mem_block.1 hx
        refine ⟨by omega, fun ho => ?_⟩
        rcases ho with rfl | ho
        · omega
        · have := hlt x ho; omega
      · intro _ x hx
        dsimp only
        rcases hx with (rfl | hx) | hx
        · omega
        · have := hlt x hx; omega
        · have := mem_block.1 hx; omega
      · simp only [Pool.left, Pool.block, List.length_map, List.length_range']
      · exact fun hn => absurd (.inr hw) hn

theorem Serves.give (hs : P.Serves used n) (hu : used h) (hp : 0 < h) (hw : used 1) (h1 : h ≠ 1) :
    (P.give h).Serves (fun a => used a ∧ a ≠ h) (n + 1) := by
  have hnot : h ∉ P.free := fun hm => (hs.unused h hm).2 hu
  refine ⟨List.nodup_cons.2 ⟨hnot, hs.distinct⟩, ?_, ?_, hs.blocks, ?_, fun hn => absurd ⟨hw, fun e => h1 e.symm⟩ hn⟩
  · intro x hx
    rcases List.mem_cons.1 hx with rfl | hx
    · exact ⟨hp, fun ho => ho.2 rfl⟩
    · have := hs.unused x hx
      exact ⟨this.1, fun ho => this.2 ho.1⟩
  · intro hb x hx
    refine hs.later hb x ?_
    rcases hx with hx | hx
    · exact .inl hx.1
    · rcases List.mem_cons.1 hx with rfl | hx
      · exact .inl hu
      · exact .inr hx
  · rw [← hs.amount]
    simp only [Pool.left, Pool.give, List.length_cons]
    omega

end Pool

/-! ## Corresponding states -/

/-- Handles in use: the number in the first machine, the number in the second, and the object. -/
abbrev Pairs := List (Int × Int × Obj)

/-- The handles correspond: they are the same constant, or handles of the same object. -/
def Same (l : Pairs) (h h' : Int) : Prop := (h = h' ∧ h ≤ 0) ∨ ∃ o, (h, h', o) ∈ l

/-- The handles are handles of the same datatype. -/
def SameT (l : Pairs) (h h' : Int) : Prop := (h = h' ∧ h ≤ 0) ∨ ∃ t, (h, h', Obj.dtype t) ∈ l

/-- An operation without handle numbers. -/
def Op.bare (o : Op) : Op := { o with dtype := 0, h := 0 }

/-- Numbers are distinct and positive on both sides. -/
structure Pairs.Ok (l : Pairs) : Prop where
  fst : (l.map fun e => e.1).Nodup
  snd : (l.map fun e => e.2.1).Nodup
  pos : ∀ e ∈ l, 0 < e.1 ∧ 0 < e.2.1

/-- Equal but for handle numbers. -/
structure Ren (l : Pairs) (M N : Mach) : Prop where
  ok : l.Ok
  objs : M.L.objs = l.map fun e => (e.1, e.2.2)
  objs' : N.L.objs = l.map fun e => (e.2.1, e.2.2)
  ops : M.L.ops.map Op.bare = N.L.ops.map Op.bare
  types : ∀ (i : Nat) o o', M.L.ops[i]? = some o → N.L.ops[i]? = some o' → o.st = .pending →
    (∃ h h', (h, h', Obj.comm o.cid) ∈ l) → SameT l o.dtype o'.dtype
  cids : ∀ o ∈ M.L.ops, o.st = .pending → o.cid < M.L.ncomms
  comms : ∀ h h' c, (h, h', Obj.comm c) ∈ l → c < M.L.ncomms
  ncomms : M.L.ncomms = N.L.ncomms
  inited : M.L.inited = N.L.inited
  mem : M.mem = N.mem
  built : M.built = N.built

/-- The free numbers are in order on both sides. -/
structure Stock (M N : Mach) : Prop where
  fst : M.pool.Serves M.uses N.pool.left
  snd : N.pool.Serves N.uses N.pool.left

/-- MPI_COMM_WORLD is number 1 on both sides; before MPI_Init there is nothing. -/
def World (l : Pairs) (inited : Bool) : Prop := (inited = true → ∃ c, (1, 1, Obj.comm c) ∈ l) ∧ (inited = false → l = [])

/-- The machines correspond. -/
structure Full (l : Pairs) (M N : Mach) : Prop extends Ren l M N, Stock M N where
  world : World l M.L.inited

theorem SameT.same {l : Pairs} {h h' : Int} (hs : SameT l h h') : Same l h h' := hs.imp id fun ⟨_, hm⟩ => ⟨_, hm⟩

theorem Same.cons {l : Pairs} {h h' : Int} {e : Int × Int × Obj} (hs : Same l h h') : Same (e :: l) h h' :=
  hs.imp id fun ⟨_, hm⟩ => ⟨_, List.mem_cons_of_mem _ hm⟩

theorem SameT.cons {l : Pairs} {h h' : Int} {e : Int × Int × Obj} (hs : SameT l h h') : SameT (e :: l) h h' :=
  hs.imp id fun ⟨_, hm⟩ => ⟨_, List.mem_cons_of_mem _ hm⟩

theorem find_pair {α : Type} {l : List α} {f : α → Int} (hn : (l.map f).Nodup) {e : α} (hm : e ∈ l) :
    (l.find? fun x => decide (f x = f e)) = some e := by
  induction l with
  | nil => cases hm
  | cons a l ih =>
    rw [List.map_cons, List.nodup_cons] at hn
    rcases List.mem_cons.1 hm with rfl | hm
    · rw [List.find?_cons_of_pos (by simp)]
    · rw [List.find?_cons_of_neg, ih hn.2 hm]
      simp only [decide_eq_true_eq]
      exact fun he => hn.1 (he ▸ List.mem_map_of_mem hm)

theorem eq_of_fst {α : Type} {l : List α} {f : α → Int} (hn : (l.map f).Nodup) {a b : α} (ha : a ∈ l) (hb : b ∈ l) (he : f a = f b) : a = b := by
  have h1 := find_pair hn ha
  have h2 := find_pair hn hb
  rw [he, h2] at h1
  exact (Option.some.inj h1).symm

namespace Pairs.Ok
variable {l : Pairs} (hl : l.Ok) {h h' a a' : Int} {o o' : Obj}
include hl

theorem left (h1 : (h, h', o) ∈ l) (h2 : (h, a', o') ∈ l) : h' = a' ∧ o = o' := by
  have := eq_of_fst hl.fst h1 h2 rfl
  simp only [Prod.mk.injEq] at this
  exact this.2

theorem right (h1 : (h, h', o) ∈ l) (h2 : (a, h', o') ∈ l) : h = a ∧ o = o' := by
  have := eq_of_fst hl.snd h1 h2 rfl
  simp only [Prod.mk.injEq] at this
  exact ⟨this.1, this.2.2⟩

/-- Corresponding handles are equal to corresponding handles together. -/
theorem iff (h1 : Same l h h') (h2 : Same l a a') : h = a ↔ h' = a' := by
  rcases h1 with ⟨rfl, h1⟩ | ⟨o, h1⟩ <;> rcases h2 with ⟨rfl, h2⟩ | ⟨o', h2⟩
  · exact Iff.rfl
  · have := hl.pos _ h2
    dsimp only at this
    constructor <;> intro he <;> omega
  · have := hl.pos _ h1
    dsimp only at this
    constructor <;> intro he <;> omega
  · constructor
    · rintro rfl; exact (hl.left h1 h2).1
    · rintro rfl; exact (hl.right h1 h2).1

theorem zero (h1 : Same l h h') : h = 0 ↔ h' = 0 := hl.iff h1 (.inl ⟨rfl, Int.le_refl _⟩)

theorem filter (p : Int × Int × Obj → Bool) : Pairs.Ok (l.filter p) :=
  ⟨(hl.fst.sublist (List.filter_sublist.map _)), (hl.snd.sublist (List.filter_sublist.map _)), fun e he => hl.pos e (List.mem_filter.1 he).1⟩

theorem cons (hp : 0 < h) (hp' : 0 < h') (hn : ∀ e ∈ l, e.1 ≠ h) (hn' : ∀ e ∈ l, e.2.1 ≠ h') : Pairs.Ok ((h, h', o) :: l) := by
  refine ⟨?_, ?_, ?_⟩
  · rw [List.map_cons, List.nodup_cons]
    refine ⟨fun hm => ?_, hl.fst⟩
    obtain ⟨e, h1, h2⟩ := List.mem_map.1 hm
    exact hn e h1 h2
  · rw [List.map_cons, List.nodup_cons]
    refine ⟨fun hm => ?_, hl.snd⟩
    obtain ⟨e, h1, h2⟩ := List.mem_map.1 hm
    exact hn' e h1 h2
  · intro e he
    rcases List.mem_cons.1 he with rfl | he
    · exact ⟨hp, hp'⟩
    · exact hl.pos e he

end Pairs.Ok

/-- All pairs but those of handle `h` of the first machine. -/
def Pairs.without (l : Pairs) (h : Int) : Pairs := l.filter fun e => decide (e.1 ≠ h)

theorem Pairs.mem_without {l : Pairs} {h : Int} {e : Int × Int × Obj} : e ∈ l.without h ↔ e ∈ l ∧ e.1 ≠ h := by
  unfold Pairs.without
  rw [List.mem_filter, decide_eq_true_eq]

theorem Pairs.without_self {l : Pairs} {h : Int} (hn : ∀ e ∈ l, e.1 ≠ h) : l.without h = l :=
  List.filter_eq_self.2 fun e he => decide_eq_true (hn e he)

theorem Pairs.without_cons {l : Pairs} {h h' : Int} {o : Obj} (hn : ∀ e ∈ l, e.1 ≠ h) : Pairs.without ((h, h', o) :: l) h = l := by
  unfold Pairs.without
  rw [List.filter_cons_of_neg (by simp)]
  exact Pairs.without_self hn

theorem bare_kind {o o' : Op} (h : o.bare = o'.bare) : o.kind = o'.kind ∧ o.cid = o'.cid ∧ o.tag = o'.tag ∧ o.buf = o'.buf ∧
    o.count = o'.count ∧ o.st = o'.st := by
  simp only [Op.bare, Op.mk.injEq] at h
  exact ⟨h.1, h.2.1, h.2.2.1, h.2.2.2.1, h.2.2.2.2.1, h.2.2.2.2.2.2.2⟩

theorem getElem_bare {l l' : List Op} (h : l.map Op.bare = l'.map Op.bare) {i : Nat} :
    (l[i]? = none ∧ l'[i]? = none) ∨ ∃ o o', l[i]? = some o ∧ l'[i]? = some o' ∧ o.bare = o'.bare := by
  have h1 : (l.map Op.bare)[i]? = (l'.map Op.bare)[i]? := by rw [h]
  rw [List.getElem?_map, List.getElem?_map] at h1
  cases h2 : l[i]? <;> cases h3 : l'[i]? <;> rw [h2, h3] at h1
  · exact .inl ⟨rfl, rfl⟩
  · cases h1
  · cases h1
  · exact .inr ⟨_, _, rfl, rfl, Option.some.inj h1⟩

theorem desc_obj (cfg : Cfg) (M : Mach) (a : Int) : M.L.desc cfg a = if a < 0 then (simpletypes cfg)[(-1 - a).toNat]? else
    (M.obj a).bind fun o => match o with
      | .dtype t => some t
      | _ => none := by
  unfold Ledger.desc Mach.obj
  rw [Option.bind_map]
  rfl

namespace Ren
variable {l : Pairs} {M N : Mach} {env : Env} (hr : Ren l M N) {h h' : Int}
include hr

theorem uses (a : Int) : M.uses a ↔ ∃ e ∈ l, e.1 = a := by
  unfold Mach.uses
  rw [hr.objs]
  constructor
  · rintro ⟨o, hm⟩
    obtain ⟨e, h1, h2⟩ := List.mem_map.1 hm
    exact ⟨e, h1, (Prod.mk.inj h2).1⟩
  · rintro ⟨e, h1, rfl⟩
    exact ⟨e.2.2, List.mem_map.2 ⟨e, h1, rfl⟩⟩

theorem uses' (a : Int) : N.uses a ↔ ∃ e ∈ l, e.2.1 = a := by
  unfold Mach.uses
  rw [hr.objs']
  constructor
  · rintro ⟨o, hm⟩
    obtain ⟨e, h1, h2⟩ := List.mem_map.1 hm
    exact ⟨e, h1, (Prod.mk.inj h2).1⟩
  · rintro ⟨e, h1, rfl⟩
    exact ⟨e.2.2, List.mem_map.2 ⟨e, h1, rfl⟩⟩

theorem has {o : Obj} : (h, o) ∈ M.L.objs ↔ ∃ h', (h, h', o) ∈ l := by
  rw [hr.objs, List.mem_map]
  constructor
  · rintro ⟨⟨a, b, c⟩, h1, h2⟩
    simp only [Prod.mk.injEq] at h2
    obtain ⟨rfl, rfl⟩ := h2
    exact ⟨b, h1⟩
  · rintro ⟨b, h1⟩
    exact ⟨_, h1, rfl⟩

theorem has' {o : Obj} : (h', o) ∈ N.L.objs ↔ ∃ h, (h, h', o) ∈ l := by
  rw [hr.objs', List.mem_map]
  constructor
  · rintro ⟨⟨a, b, c⟩, h1, h2⟩
    simp only [Prod.mk.injEq] at h2
    obtain ⟨rfl, rfl⟩ := h2
    exact ⟨a, h1⟩
  · rintro ⟨b, h1⟩
    exact ⟨_, h1, rfl⟩

theorem obj_left {o : Obj} (hm : (h, h', o) ∈ l) : M.obj h = some o := by
  unfold Mach.obj
  rw [hr.objs, List.find?_map]
  have : ((fun e : Int × Obj => decide (e.1 = h)) ∘ fun e : Int × Int × Obj => (e.1, e.2.2)) = fun e => decide (e.1 = h) := rfl
  rw [this, find_pair (f := fun e : Int × Int × Obj => e.1) hr.ok.fst hm]
  rfl

theorem obj_right {o : Obj} (hm : (h, h', o) ∈ l) : N.obj h' = some o := by
  unfold Mach.obj
  rw [hr.objs', List.find?_map]
  have : ((fun e : Int × Obj => decide (e.1 = h')) ∘ fun e : Int × Int × Obj => (e.2.1, e.2.2)) = fun e => decide (e.2.1 = h') := rfl
  rw [this, find_pair (f := fun e : Int × Int × Obj => e.2.1) hr.ok.snd hm]
  rfl

theorem obj_none (hp : h ≤ 0) : M.obj h = none ∧ N.obj h = none := by
  unfold Mach.obj
  rw [hr.objs, hr.objs']
  constructor <;> rw [Option.map_eq_none_iff, List.find?_eq_none] <;> intro e he <;> obtain ⟨x, h1, rfl⟩ := List.mem_map.1 he <;>
    have := hr.ok.pos x h1 <;> simp only [decide_eq_true_eq] <;> omega

theorem obj (hs : Same l h h') : M.obj h = N.obj h' := by
  rcases hs with ⟨rfl, hp⟩ | ⟨o, hm⟩
  · rw [(hr.obj_none hp).1, (hr.obj_none hp).2]
  · rw [hr.obj_left hm, hr.obj_right hm]

/-- The object of a handle. -/
theorem obj_mem {o : Obj} (hs : Same l h h') (ho : M.obj h = some o) : (h, h', o) ∈ l := by
  rcases hs with ⟨rfl, hp⟩ | ⟨o', hm⟩
  · rw [(hr.obj_none hp).1] at ho; cases ho
  · rw [hr.obj_left hm] at ho
    cases ho
    exact hm

theorem cid (hs : Same l h h') : M.cid h = N.cid h' := by
  unfold Mach.cid
  rw [hr.obj hs]

theorem desc (hs : Same l h h') : M.L.desc env.cfg h = N.L.desc env.cfg h' := by
  rw [desc_obj, desc_obj, hr.obj hs]
  rcases hs with ⟨rfl, hp⟩ | ⟨o, hm⟩
  · rfl
  · have := hr.ok.pos _ hm
    dsimp only at this
    rw [if_neg (by omega), if_neg (by omega)]

theorem isType (hs : Same l h h') : IsType env M.L h ↔ IsType env N.L h' := by
  unfold IsType
  rw [hr.desc hs]

theorem type (hs : Same l h h') : M.type env h = N.type env h' := by
  unfold Mach.type
  rw [hr.desc hs]

theorem sameT (hs : Same l h h') (ht : IsType env M.L h) : SameT l h h' := by
  rcases hs with hs | ⟨o, hm⟩
  · exact .inl hs
  · obtain ⟨t, hd⟩ := ht
    have := hr.ok.pos _ hm
    dsimp only at this
    unfold Ledger.desc at hd
    rw [if_neg (by omega)] at hd
    have h2 := hr.obj_left hm
    unfold Mach.obj at h2
    cases hf : M.L.objs.find? (fun e => decide (e.1 = h)) with
    | none => rw [hf] at hd; cases hd
    | some e =>
      rw [hf] at hd h2
      simp only [Option.map_some, Option.some.injEq, Option.bind_some] at h2 hd
      subst h2
      split at hd
      · next t' he => exact .inr ⟨t', he ▸ hm⟩
      · cases hd

theorem op (hs : Same l h h') : (M.op h).Rel (fun o o' => o.bare = o'.bare) (N.op h') := by
  unfold Mach.op
  rw [hr.obj hs]
  split
  · next i _ =>
    rcases getElem_bare hr.ops (i := i) with ⟨h1, h2⟩ | ⟨o, o', h1, h2, h3⟩
    · rw [h1, h2]; rfl
    · rw [h1, h2]; exact h3
  · rfl

omit hr in
theorem op_obj {o : Op} (ho : M.op h = .ok o) : ∃ i, M.obj h = some (.req i) ∧ M.L.ops[i]? = some o := by
  unfold Mach.op at ho
  split at ho
  · next i h1 =>
    split at ho
    · next h2 => cases ho; exact ⟨i, h1, h2⟩
    · cases ho
  · cases ho

theorem partner (c : Nat) (k : Kind) (tag : Int) : M.L.partner c k tag = N.L.partner c k tag := by
  unfold Ledger.partner
  have h1 : ∀ l : List Op, l.findIdx? (fun o => o.waits c k tag) = (l.map Op.bare).findIdx? fun o => o.waits c k tag := fun l => by
    rw [List.findIdx?_map]
    rfl
  rw [h1 M.L.ops, h1 N.L.ops, hr.ops]

theorem result {o o' : Op} (ho : o.bare = o'.bare) : M.result o = N.result o' := by
  obtain ⟨h1, _, _, _, _, h2⟩ := bare_kind ho
  unfold Mach.result
  rw [h1, h2]
  split
  · next j _ _ =>
    rcases getElem_bare hr.ops (i := j) with ⟨h1, h2⟩ | ⟨a, b, h1, h2, h3⟩
    · rw [h1, h2]
    · rw [h1, h2, Option.map_some, Option.map_some, (bare_kind h3).2.2.1]
  · rfl
  · rfl

/-- Changes of memory, free numbers and the count of datatypes. -/
theorem other {P Q : Pool} {m : Mem} {b : Nat} : Ren l ⟨M.L, P, m, b⟩ ⟨N.L, Q, m, b⟩ :=
  ⟨hr.ok, hr.objs, hr.objs', hr.ops, hr.types, hr.cids, hr.comms, hr.ncomms, hr.inited, rfl, rfl⟩

theorem copy {a n b k t t' u u' : Int} (ht : Same l t t') (hu : Same l u u') :
    (M.copy env a n t b k u).Rel (fun x y => ∃ m, x = { M with mem := m } ∧ y = { N with mem := m }) (N.copy env a n t' b k u') := by
  unfold Mach.copy
  rw [hr.type ht, hr.type hu, hr.mem]
  exact Rel.bind_same fun _ _ => Rel.bind_same fun _ _ => Rel.bind_same fun m _ => ⟨m, rfl, rfl⟩

/-- A new communicator or datatype. -/
theorem add {o : Obj} {L L' : Ledger} (hp : 0 < h) (hp' : 0 < h') (hn : ∀ e ∈ l, e.1 ≠ h) (hn' : ∀ e ∈ l, e.2.1 ≠ h')
    (h1 : L.objs = (h, o) :: M.L.objs) (h2 : L'.objs = (h', o) :: N.L.objs) (h3 : L.ops = M.L.ops) (h4 : L'.ops = N.L.ops)
    (h5 : L.ncomms = L'.ncomms) (h6 : M.L.ncomms ≤ L.ncomms) (h7 : ∀ c, o = .comm c → M.L.ncomms ≤ c ∧ c < L.ncomms)
    (h8 : L.inited = L'.inited) {P Q : Pool} {m : Mem} {b : Nat} : Ren ((h, h', o) :: l) ⟨L, P, m, b⟩ ⟨L', Q, m, b⟩ := by
  refine ⟨hr.ok.cons hp hp' hn hn', ?_, ?_, ?_, ?_, ?_, ?_, h5, h8, rfl, rfl⟩
  · dsimp only; rw [h1, hr.objs]; rfl
  · dsimp only; rw [h2, hr.objs']; rfl
  · dsimp only; rw [h3, h4]; exact hr.ops
  · intro i a a' ha ha' hst ⟨x, x', hx⟩
    dsimp only at ha ha'
    rw [h3] at ha
    rw [h4] at ha'
    have hlt := hr.cids a (List.mem_of_getElem? ha) hst
    refine (hr.types i a a' ha ha' hst ?_).cons
    rcases List.mem_cons.1 hx with he | hx
    · simp only [Prod.mk.injEq] at he
      have := h7 _ he.2.2.symm
      omega
    · exact ⟨x, x', hx⟩
  · intro a ha hst
    dsimp only at ha ⊢
    rw [h3] at ha
    have := hr.cids a ha hst
    omega
  · intro x x' c hx
    dsimp only
    rcases List.mem_cons.1 hx with he | hx
    · simp only [Prod.mk.injEq] at he
      exact (h7 _ he.2.2.symm).2
    · have := hr.comms _ _ _ hx
      omega

/-- A new request. -/
theorem addOp {o o' : Op} {ops ops' : List Op} {i : Nat} {L L' : Ledger} (hp : 0 < h) (hp' : 0 < h') (hn : ∀ e ∈ l, e.1 ≠ h)
    (hn' : ∀ e ∈ l, e.2.1 ≠ h') (h1 : L.objs = (h, .req i) :: M.L.objs) (h2 : L'.objs = (h', .req i) :: N.L.objs)
    (h3 : L.ops = ops ++ [o]) (h4 : L'.ops = ops' ++ [o']) (hb : ops.map Op.bare = ops'.map Op.bare) (hb' : o.bare = o'.bare)
    (hk : ∀ (x : Nat) a, ops[x]? = some a → a.st = .pending → M.L.ops[x]? = some a)
    (hk' : ∀ (x : Nat) a, ops'[x]? = some a → a.st = .pending → N.L.ops[x]? = some a)
    (ht : o.st = .pending → SameT l o.dtype o'.dtype ∧ o.cid < M.L.ncomms)
    (h5 : L.ncomms = M.L.ncomms) (h6 : L'.ncomms = N.L.ncomms) (h8 : L.inited = M.L.inited) (h9 : L'.inited = N.L.inited)
    {P Q : Pool} {m : Mem} {b : Nat} : Ren ((h, h', .req i) :: l) ⟨L, P, m, b⟩ ⟨L', Q, m, b⟩ := by
  have hlen : ops.length = ops'.length := by
    have := congrArg List.length hb
    rwa [List.length_map, List.length_map] at this
  refine ⟨hr.ok.cons hp hp' hn hn', ?_, ?_, ?_, ?_, ?_, ?_, ?_, ?_, rfl, rfl⟩
  · dsimp only; rw [h1, hr.objs]; rfl
  · dsimp only; rw [h2, hr.objs']; rfl
  · dsimp only; rw [h3, h4, List.map_append, List.map_append, hb, List.map_cons, List.map_cons, hb']
  · intro x a a' ha ha' hst ⟨y, y', hy⟩
    dsimp only at ha ha'
    rw [h3] at ha
    rw [h4] at ha'
    by_cases hx : x < ops.length
    · rw [List.getElem?_append_left hx] at ha
      rw [List.getElem?_append_left (hlen ▸ hx)] at ha'
      have hst' : a'.st = .pending := by
        rcases getElem_bare hb (i := x) with ⟨q1, _⟩ | ⟨q, q', q1, q2, q3⟩
        · rw [q1] at ha; cases ha
        · rw [q1] at ha; rw [q2] at ha'
          cases ha; cases ha'
          rw [← (bare_kind q3).2.2.2.2.2]; exact hst
      refine (hr.types x a a' (hk x a ha hst) (hk' x a' ha' hst') hst ?_).cons
      rcases List.mem_cons.1 hy with he | hy
      · simp only [Prod.mk.injEq] at he
        cases he.2.2
      · exact ⟨y, y', hy⟩
    · rw [List.getElem?_append_right (by omega)] at ha ha'
      rw [← hlen] at ha'
      cases hz : x - ops.length with
      | succ z => rw [hz] at ha; cases ha
      | zero =>
        rw [hz] at ha ha'
        cases ha
        cases ha'
        exact (ht hst).1.cons
  · intro a ha hst
    dsimp only at ha ⊢
    rw [h3] at ha
    rw [h5]
    rcases List.mem_append.1 ha with ha | ha
    · obtain ⟨x, hx⟩ := List.mem_iff_getElem?.1 ha
      exact hr.cids a (List.mem_of_getElem? (hk x a hx hst)) hst
    · rcases List.mem_singleton.1 ha with rfl
      exact (ht hst).2
  · intro x x' c hx
    dsimp only
    rw [h5]
    rcases List.mem_cons.1 hx with he | hx
    · simp only [Prod.mk.injEq] at he
      cases he.2.2
    · exact hr.comms _ _ _ hx
  · dsimp only; rw [h5, h6]; exact hr.ncomms
  · dsimp only; rw [h8, h9]; exact hr.inited

theorem postNull (hp : 0 < h) (hp' : 0 < h') (hn : ∀ e ∈ l, e.1 ≠ h) (hn' : ∀ e ∈ l, e.2.1 ≠ h') (k : Kind) (g b n t t' : Int)
    {P Q : Pool} {m : Mem} {d : Nat} :
    ∃ i, Ren ((h, h', .req i) :: l) ⟨M.L.postNull k g b n t h, P, m, d⟩ ⟨N.L.postNull k g b n t' h', Q, m, d⟩ := by
  have hlen : M.L.ops.length = N.L.ops.length := by
    have := congrArg List.length hr.ops
    rwa [List.length_map, List.length_map] at this
  refine ⟨M.L.ops.length, hr.addOp (L := M.L.postNull k g b n t h) (L' := N.L.postNull k g b n t' h') (o := ⟨k, 0, g, b, n, t, h, .null⟩) (o' := ⟨k, 0, g, b, n, t', h', .null⟩) hp hp' hn hn' rfl ?_ rfl rfl
    hr.ops rfl (fun _ _ h _ => h) (fun _ _ h _ => h) (fun h => nomatch h) rfl rfl rfl rfl⟩
  unfold Ledger.postNull
  rw [hlen]

omit hr in
theorem settle_bare (ops : List Op) (j i : Nat) : (Ledger.settle ops j i).map Op.bare = Ledger.settle (ops.map Op.bare) j i := by
  unfold Ledger.settle
  apply List.ext_getElem?
  intro x
  rw [List.getElem?_map, List.getElem?_modify, List.getElem?_modify, List.getElem?_map]
  cases ops[x]? with
  | none => rfl
  | some a =>
    simp only [Option.map_some]
    split <;> rfl

omit hr in
theorem settle_pending {ops : List Op} {j i x : Nat} {a : Op} (h : (Ledger.settle ops j i)[x]? = some a) (hst : a.st = .pending) :
    ops[x]? = some a := by
  unfold Ledger.settle at h
  rw [List.getElem?_modify] at h
  cases hx : ops[x]? with
  | none => rw [hx] at h; cases h
  | some q =>
    rw [hx] at h
    dsimp only [Functor.map, Option.map] at h
    split at h <;> cases Option.some.inj h
    · cases hst
    · rfl

theorem post (hp : 0 < h) (hp' : 0 < h') (hn : ∀ e ∈ l, e.1 ≠ h) (hn' : ∀ e ∈ l, e.2.1 ≠ h') (k : Kind) {c : Nat} (g b n : Int)
    {t t' : Int} (ht : SameT l t t') {a a' : Int} (hc : (a, a', Obj.comm c) ∈ l) {P Q : Pool} {m : Mem} {d : Nat} :
    ∃ i, Ren ((h, h', .req i) :: l) ⟨M.L.post k c g b n t h, P, m, d⟩ ⟨N.L.post k c g b n t' h', Q, m, d⟩ := by
  have hlen : M.L.ops.length = N.L.ops.length := by
    have := congrArg List.length hr.ops
    rwa [List.length_map, List.length_map] at this
  have hcl := hr.comms _ _ _ hc
  refine ⟨M.L.ops.length, ?_⟩
  have r1 := post_rest M.L k c g b n t h
  have r2 := post_rest N.L k c g b n t' h'
  have o1 := post_objs_eq M.L k c g b n t h
  have o2 := post_objs_eq N.L k c g b n t' h'
  rw [← hlen] at o2
  have hpt := hr.partner c k g
  cases hj : M.L.partner c k g with
  | none =>
    refine hr.addOp hp hp' hn hn' o1 o2 (o := ⟨k, c, g, b, n, t, h, .pending⟩) (o' := ⟨k, c, g, b, n, t', h', .pending⟩)
      ?_ ?_ hr.ops rfl (fun _ _ h _ => h) (fun _ _ h _ => h) (fun _ => ⟨ht, hcl⟩) r1.1 r2.1 r1.2.2 r2.2.2
    · unfold Ledger.post; rw [hj]
    · unfold Ledger.post; rw [← hpt, hj]
  | some j =>
    refine hr.addOp hp hp' hn hn' o1 o2 (ops := Ledger.settle M.L.ops j M.L.ops.length) (ops' := Ledger.settle N.L.ops j M.L.ops.length)
      (o := ⟨k, c, g, b, n, t, h, .matched j⟩) (o' := ⟨k, c, g, b, n, t', h', .matched j⟩)
      ?_ ?_ ?_ rfl (fun _ _ h h' => settle_pending h h') (fun _ _ h h' => settle_pending h h') (fun h => nomatch h) r1.1 r2.1 r1.2.2 r2.2.2
    · unfold Ledger.post; rw [hj]
    · unfold Ledger.post; rw [← hpt, hj, hlen]
    · rw [settle_bare, settle_bare, hr.ops]

/-- A handle is released.  It is not the datatype of an operation in progress. -/
theorem release {o : Obj} (hm : (h, h', o) ∈ l)
    (ht : ∀ t, o = .dtype t → ∀ q ∈ M.L.ops, q.st = .pending → (∃ a a', (a, a', Obj.comm q.cid) ∈ l) → q.dtype ≠ h)
    {L L' : Ledger} (h1 : L.objs = (M.L.release h).objs) (h2 : L'.objs = (N.L.release h').objs) (h3 : L.ops = M.L.ops)
    (h4 : L'.ops = N.L.ops) (h5 : L.ncomms = M.L.ncomms) (h6 : L'.ncomms = N.L.ncomms) (h7 : L.inited = M.L.inited)
    (h8 : L'.inited = N.L.inited) {P Q : Pool} {m : Mem} {b : Nat} : Ren (l.without h) ⟨L, P, m, b⟩ ⟨L', Q, m, b⟩ := by
  refine ⟨hr.ok.filter _, ?_, ?_, ?_, ?_, ?_, ?_, ?_, ?_, rfl, rfl⟩
  · dsimp only
    rw [h1]
    unfold Ledger.release Pairs.without
    dsimp only
    rw [hr.objs, List.filter_map]
    rfl
  · dsimp only
    rw [h2]
    unfold Ledger.release Pairs.without
    dsimp only
    rw [hr.objs', List.filter_map]
    congr 1
    apply List.filter_congr
    intro e he
    dsimp only [Function.comp]
    rw [decide_eq_decide]
    refine not_congr ?_
    obtain ⟨a, a', q⟩ := e
    exact (hr.ok.iff (.inr ⟨_, he⟩) (.inr ⟨_, hm⟩)).symm
  · dsimp only; rw [h3, h4]; exact hr.ops
  · intro i a a' ha ha' hst ⟨x, x', hx⟩
    dsimp only at ha ha'
    rw [h3] at ha
    rw [h4] at ha'
    have hx := (Pairs.mem_without.1 hx).1
    rcases hr.types i a a' ha ha' hst ⟨x, x', hx⟩ with hs | ⟨t, hs⟩
    · exact .inl hs
    · refine .inr ⟨t, Pairs.mem_without.2 ⟨hs, fun he => ?_⟩⟩
      dsimp only at he
      rw [he] at hs
      have := hr.ok.left hs hm
      exact ht t this.2.symm a (List.mem_of_getElem? ha) hst ⟨x, x', hx⟩ he
  · intro a ha hst
    dsimp only at ha ⊢
    rw [h3] at ha
    rw [h5]
    exact hr.cids a ha hst
  · intro x x' c hx
    dsimp only
    rw [h5]
    exact hr.comms _ _ _ (Pairs.mem_without.1 hx).1
  · dsimp only; rw [h5, h6]; exact hr.ncomms
  · dsimp only; rw [h7, h8]; exact hr.inited

end Ren
end MpiSerial
