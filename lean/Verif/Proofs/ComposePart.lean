import Verif.Proofs.ComposeMoves

/-!
# The machine of one part inside the machine of all
-/

set_option linter.unusedSimpArgs false
set_option autoImplicit false

namespace MpiSerial

open Res (Sub)

def OpSt.at (φ : Nat → Nat) : OpSt → OpSt
  | .matched j => .matched (φ j)
  | s => s

def Obj.at (φ ψ : Nat → Nat) : Obj → Obj
  | .comm c => .comm (ψ c)
  | .req i => .req (φ i)
  | .dtype t => .dtype t

/-- What the machine `N` of one part knows is found in the machine `M` of all parts: operation `i` as operation `φ i`,
communicator `c` as communicator `ψ c`, handles under the same numbers.  Operations that wait on communicators of the part, and
handles of these communicators, are all there is of the kind in `M`. -/
structure Part (φ ψ : Nat → Nat) (w : Bool) (M N : Mach) : Prop where
  objs : ∀ h o, (h, o) ∈ N.L.objs → (h, o.at φ ψ) ∈ M.L.objs
  ops : ∀ (i : Nat) o, N.L.ops[i]? = some o → ∃ c, M.L.ops[φ i]? = some { o with cid := c, st := o.st.at φ } ∧ (o.st = .pending → c = ψ o.cid)
  mono : ∀ i j, i < j → j < N.L.ops.length → φ i < φ j
  inj : ∀ c d, c < N.L.ncomms → d < N.L.ncomms → ψ c = ψ d → c = d
  bound : ∀ c, c < N.L.ncomms → ψ c < M.L.ncomms
  own : ∀ (j : Nat) o c, M.L.ops[j]? = some o → o.st = .pending → c < N.L.ncomms → (w = true ∨ c ≠ 0) → o.cid = ψ c →
    ∃ i, i < N.L.ops.length ∧ φ i = j
  mine : ∀ o ∈ N.L.ops, o.st = .pending → w = true ∨ o.cid ≠ 0
  only : ∀ x c, (x, Obj.comm (ψ c)) ∈ M.L.objs → c < N.L.ncomms → (w = true ∨ c ≠ 0) → (x, Obj.comm c) ∈ N.L.objs
  typed : ∀ (j : Nat) o x, M.L.ops[j]? = some o → o.st = .pending → (x, Obj.comm o.cid) ∈ M.L.objs → N.uses o.dtype →
    ∃ i, i < N.L.ops.length ∧ φ i = j

theorem OpSt.at_pending {φ : Nat → Nat} {s : OpSt} : s.at φ = .pending ↔ s = .pending := by
  cases s <;> simp [OpSt.at]

/-! ## Moves of the others -/

/-- Handles `x` of the part are not touched. -/
theorem Part.foreign {φ ψ : Nat → Nat} {w : Bool} {M M' N : Mach} {U W : Int → Prop} (hp : Part φ ψ w M N) (hs : Sane M) (hn : Sane N)
    (hU : ∀ h, U h → N.uses h → h = 1) (hW : ∀ x, W x → N.uses x → x = 1 ∧ w = false) (h : Move U W M M') : Part φ ψ w M' N := by
  -- a new handle of the others
  have key : ∀ {L : Ledger} {x : Int} {o : Obj} {P : Pool} {m : Mem} {b : Nat}, L.objs = (x, o) :: M.L.objs → M.L.ncomms ≤ L.ncomms →
      (∀ c, o = .comm c → M.L.ncomms ≤ c) →
      (∀ (i : Nat) q, M.L.ops[i]? = some q → (q.st ≠ .pending ∨ ∃ c, c < N.L.ncomms ∧ (w = true ∨ c ≠ 0) ∧ q.cid = ψ c) → L.ops[i]? = some q) →
      (∀ (j : Nat) q, L.ops[j]? = some q → q.st = .pending → M.L.ops[j]? = some q ∨
        (∀ c, c < N.L.ncomms → (w = true ∨ c ≠ 0) → q.cid ≠ ψ c) ∧ ¬ N.uses q.dtype) →
      Part φ ψ w ⟨L, P, m, b⟩ N := by
    intro L x o P m b h1 h2 h3 h4 h5
    refine ⟨fun y q hq => by dsimp only; rw [h1]; exact List.mem_cons_of_mem _ (hp.objs y q hq), ?_, hp.mono, hp.inj,
      fun c hc => Nat.lt_of_lt_of_le (hp.bound c hc) h2, ?_, hp.mine, ?_, ?_⟩
    · intro i q hq
      obtain ⟨c, g1, g2⟩ := hp.ops i q hq
      refine ⟨c, h4 _ _ g1 ?_, g2⟩
      by_cases hst : q.st = .pending
      · right
        have hm := List.mem_of_getElem? hq
        exact ⟨q.cid, hn.cids q hm hst, hp.mine q hm hst, g2 hst⟩
      · left
        dsimp only
        exact fun e => hst (OpSt.at_pending.1 e)
    · intro j q c hq hst hc hw he
      rcases h5 j q hq hst with h6 | h6
      · exact hp.own j q c h6 hst hc hw he
      · exact absurd he (h6.1 c hc hw)
    · intro y c hy hc hw
      dsimp only at hy
      rw [h1] at hy
      rcases List.mem_cons.1 hy with he | hy
      · have := h3 _ (Prod.mk.inj he).2.symm
        have := hp.bound c hc
        omega
      · exact hp.only y c hy hc hw
    · intro j q y hq hst hy hu
      rcases h5 j q hq hst with h6 | h6
      · refine hp.typed j q y h6 hst ?_ hu
        dsimp only at hy
        rw [h1] at hy
        rcases List.mem_cons.1 hy with he | hy
        · have := h3 _ (Prod.mk.inj he).2.symm
          have := hs.cids q (List.mem_of_getElem? h6) hst
          omega
        · exact hy
      · exact absurd hu h6.2
  -- a handle of the others goes
  have gone : ∀ {L : Ledger} {x : Int} {P : Pool} {m : Mem} {b : Nat}, L.objs = (M.L.release x).objs → L.ops = M.L.ops → L.ncomms = M.L.ncomms →
      x ≠ 1 → U x → Part φ ψ w ⟨L, P, m, b⟩ N := by
    intro L x P m b h1 h2 h3 h4 h5
    have hsub : ∀ e, e ∈ L.objs ↔ e ∈ M.L.objs ∧ e.1 ≠ x := fun e => by
      rw [h1]
      unfold Ledger.release
      dsimp only
      rw [List.mem_filter, decide_eq_true_eq]
    refine ⟨fun y q hq => (hsub _).2 ⟨hp.objs y q hq, fun e => h4 ?_⟩, by dsimp only; rw [h2]; exact hp.ops, hp.mono, hp.inj,
      by dsimp only; rw [h3]; exact hp.bound, by dsimp only; rw [h2]; exact hp.own, hp.mine, fun y c hy => hp.only y c ((hsub _).1 hy).1,
      fun j q y hq hst hy => hp.typed j q y (h2 ▸ hq) hst ((hsub _).1 hy).1⟩
    dsimp only at e
    exact hU x h5 ⟨q, e ▸ hq⟩
  cases h with
  | memory m => exact ⟨hp.objs, hp.ops, hp.mono, hp.inj, hp.bound, hp.own, hp.mine, hp.only, hp.typed⟩
  | comm ht => exact key rfl (Nat.le_succ _) (fun c e => by cases e; exact Nat.le_refl _) (fun _ _ h _ => h) fun _ _ h _ => .inl h
  | type t ht => exact key rfl (Nat.le_refl _) (fun c e => nomatch e) (fun _ _ h _ => h) fun _ _ h _ => .inl h
  | postNull k g b n t ht =>
    refine key rfl (Nat.le_refl _) (fun c e => nomatch e) (fun i q h _ => ?_) fun j q h hst => ?_
    · have hi : i < M.L.ops.length := (List.getElem?_eq_some_iff.1 h).1
      exact (List.getElem?_append_left hi).trans h
    · by_cases hj : j < M.L.ops.length
      · exact .inl ((List.getElem?_append_left hj).symm.trans h)
      · have h := (List.getElem?_append_right (Nat.le_of_not_lt hj)).symm.trans h
        cases hz : j - M.L.ops.length with
        | succ z => rw [hz] at h; cases h
        | zero => rw [hz] at h; cases h; cases hst
  | @post x P k c g b n t y m ht hy hw hty htu =>
    have htn : ¬ N.uses t := fun hu => by
      rcases hty with h1 | ⟨d, hd⟩
      · obtain ⟨o, ho⟩ := hu
        have := hn.pos _ ho
        dsimp only at this
        omega
      · have hpos := hs.pos _ hd
        dsimp only at hpos
        rcases htu with h1 | h1
        · omega
        · have := hU t h1 hu
          subst this
          cases hs.unique hd hs.world
    -- the communicator is not one of the part
    have hc : ∀ d, d < N.L.ncomms → (w = true ∨ d ≠ 0) → c ≠ ψ d := fun d hd hwd e => by
      subst e
      have h1 := hp.only y d hy hd hwd
      obtain ⟨rfl, h2⟩ := hW y hw ⟨_, h1⟩
      have := hn.unique h1 hn.world
      cases this
      rcases hwd with h3 | h3
      · rw [h2] at h3; cases h3
      · exact h3 rfl
    refine key (post_objs_eq ..) (Nat.le_of_eq (post_rest ..).1.symm) (fun c e => nomatch e) (fun i q h hq => ?_) fun j q h hst => ?_
    · have hi : i < M.L.ops.length := (List.getElem?_eq_some_iff.1 h).1
      unfold Ledger.post
      dsimp only
      cases hpt : M.L.partner c k g with
      | none => exact (List.getElem?_append_left hi).trans h
      | some j =>
        dsimp only
        rw [List.getElem?_append_left (by simpa [Ledger.settle] using hi)]
        unfold Ledger.settle
        rw [List.getElem?_modify]
        have hne : j ≠ i := fun e => by
          obtain ⟨hlt, hw, _⟩ := List.findIdx?_eq_some_iff_getElem.1 hpt
          subst e
          rw [List.getElem?_eq_getElem hlt] at h
          rw [Option.some.inj h] at hw
          unfold Op.waits at hw
          rw [Bool.and_eq_true, decide_eq_true_eq] at hw
          rcases hq with hq | ⟨d, h1, h2, h3⟩
          · exact hq hw.1.2.2
          · exact hc d h1 h2 (hw.1.2.1.symm.trans h3)
        rw [h]
        exact congrArg some (if_neg hne)
    · unfold Ledger.post at h
      dsimp only at h
      cases hpt : M.L.partner c k g with
      | none =>
        rw [hpt] at h
        dsimp only at h
        by_cases hj : j < M.L.ops.length
        · exact .inl ((List.getElem?_append_left hj).symm.trans h)
        · have h := (List.getElem?_append_right (Nat.le_of_not_lt hj)).symm.trans h
          cases hz : j - M.L.ops.length with
          | succ z => rw [hz] at h; cases h
          | zero => rw [hz] at h; cases h; exact .inr ⟨hc, htn⟩
      | some i =>
        rw [hpt] at h
        dsimp only at h
        by_cases hj : j < M.L.ops.length
        · rw [List.getElem?_append_left (by simpa [Ledger.settle] using hj)] at h
          exact .inl (Ren.settle_pending h hst)
        · rw [List.getElem?_append_right (by simp only [Ledger.settle, List.length_modify]; omega)] at h
          cases hz : j - (Ledger.settle M.L.ops i M.L.ops.length).length with
          | succ z => rw [hz] at h; cases h
          | zero => rw [hz] at h; cases h; cases hst
  | release hm h1 h2 _ => exact gone rfl rfl rfl h1 h2
  | freeComm hm h1 h2 => exact gone rfl rfl rfl h1 h2
  | @commit x t hm h2 =>
    refine ⟨fun y q hq => commit_mem.2 (.inr ⟨hp.objs y q hq, fun e t' ht => ?_⟩), hp.ops, hp.mono, hp.inj, hp.bound, hp.own, hp.mine, fun y c hy hc hw => ?_, fun j q y hq hst hy hu => ?_⟩
    · subst e
      have h1 := hU y h2 ⟨q, hq⟩
      subst h1
      cases hs.unique hm hs.world
    · rcases commit_mem.1 hy with ⟨_, _, _, e⟩ | hy
      · cases e
      · exact hp.only y c hy.1 hc hw
    · rcases commit_mem.1 hy with ⟨_, _, _, e⟩ | hy
      · cases e
      · exact hp.typed j q y hq hst hy.1 hu

theorem Part.foreigns {φ ψ : Nat → Nat} {w : Bool} {M M' N : Mach} {U W : Int → Prop} (hp : Part φ ψ w M N) (hs : Sane M) (hn : Sane N)
    (hU : ∀ h, U h → N.uses h → h = 1) (hW : ∀ x, W x → N.uses x → x = 1 ∧ w = false) (h : Moves U W M M') : Part φ ψ w M' N := by
  have : Sane M' ∧ Part φ ψ w M' N := by
    induction h with
    | nil => exact ⟨hs, hp⟩
    | snoc _ h ih => exact ⟨h.sane ih.1, ih.2.foreign ih.1 hn hU hW h⟩
  exact this.2

/-! ## Looking things up -/

namespace Part
variable {φ ψ : Nat → Nat} {w : Bool} {M N : Mach} (hp : Part φ ψ w M N) (hs : Sane M) (hn : Sane N) {env : Env}

section
include hp

theorem uses {h : Int} (h1 : N.uses h) : M.uses h := by
  obtain ⟨o, h1⟩ := h1
  exact ⟨_, hp.objs _ _ h1⟩

end

theorem obj_mem {h : Int} {o : Obj} {K : Mach} (ho : K.obj h = some o) : (h, o) ∈ K.L.objs := by
  unfold Mach.obj at ho
  cases hf : K.L.objs.find? fun e => decide (e.1 = h) with
  | none => rw [hf] at ho; cases ho
  | some e =>
    rw [hf] at ho
    have h1 := List.mem_of_find?_eq_some hf
    have h2 := List.find?_some hf
    simp only [decide_eq_true_eq] at h2
    obtain ⟨a, b⟩ := e
    cases ho
    dsimp only at h2
    subst h2
    exact h1

section
include hp hs

theorem obj {h : Int} {o : Obj} (ho : N.obj h = some o) : M.obj h = some (o.at φ ψ) :=
  Mach.obj_eq hs.keys (hp.objs _ _ (obj_mem ho))

theorem cid (h : Int) : (M.cid h).Sub (fun x y => x = ψ y ∧ (h, Obj.comm y) ∈ N.L.objs) (N.cid h) := by
  unfold Mach.cid
  cases ho : N.obj h with
  | none => exact .ub
  | some o =>
    rw [hp.obj hs ho]
    cases o with
    | comm c => exact .ok ⟨rfl, obj_mem ho⟩
    | _ => exact .ub

theorem op (h : Int) : (M.op h).Sub (fun x y => (∃ i, (h, Obj.req i) ∈ N.L.objs) ∧ y ∈ N.L.ops ∧ ∃ c, x = { y with cid := c, st := y.st.at φ }) (N.op h) := by
  unfold Mach.op
  cases ho : N.obj h with
  | none => exact .ub
  | some o =>
    rw [hp.obj hs ho]
    cases o with
    | req i =>
      dsimp only [Obj.at]
      cases hi : N.L.ops[i]? with
      | none => exact .ub
      | some q =>
        obtain ⟨c, h1, _⟩ := hp.ops i q hi
        rw [h1]
        exact .ok ⟨⟨i, obj_mem ho⟩, List.mem_of_getElem? hi, c, rfl⟩
    | _ => exact .ub

theorem type (h : Int) : (M.type env h).Sub (fun x y => x = y) (N.type env h) := by
  unfold Mach.type
  rw [desc_obj, desc_obj]
  by_cases h0 : h < 0
  · rw [if_pos h0, if_pos h0]
    split
    · exact .ok rfl
    · exact .ub
  · rw [if_neg h0, if_neg h0]
    cases ho : N.obj h with
    | none => exact .ub
    | some o =>
      rw [hp.obj hs ho]
      cases o with
      | dtype t => exact .ok rfl
      | _ => exact .ub

theorem types : ∀ ts : List Int, (M.types env ts).Sub (fun x y => x = y) (N.types env ts)
  | [] => .ok rfl
  | t :: ts => by
    unfold Mach.types
    refine Sub.bind (hp.type hs t) fun a b _ _ e => ?_
    subst e
    refine Sub.bind (types ts) fun a b _ _ e => ?_
    subst e
    exact .ok rfl

end

include hp in
theorem mono_le {i j : Nat} (h : i ≤ j) (hj : j < N.L.ops.length) : φ i ≤ φ j := by
  rcases Nat.lt_or_eq_of_le h with h | h
  · exact Nat.le_of_lt (hp.mono i j h hj)
  · rw [h]; exact Nat.le_refl _

include hp hn in
/-- The same partner is found. -/
theorem partner {c : Nat} (hc : c < N.L.ncomms) (hw : w = true ∨ c ≠ 0) (k : Kind) (g : Int) :
    M.L.partner (ψ c) k g = (N.L.partner c k g).map φ := by
  have hwaits : ∀ (i : Nat) q, N.L.ops[i]? = some q → ∃ q', M.L.ops[φ i]? = some q' ∧ (q'.waits (ψ c) k g = true ↔ q.waits c k g = true) := by
    intro i q hq
    obtain ⟨d, h1, h2⟩ := hp.ops i q hq
    refine ⟨_, h1, ?_⟩
    unfold Op.waits
    rw [Bool.and_eq_true, Bool.and_eq_true, decide_eq_true_eq, decide_eq_true_eq]
    dsimp only
    have hf : ({ q with cid := d, st := q.st.at φ } : Op).fits k g = q.fits k g := rfl
    rw [hf]
    constructor
    · rintro ⟨⟨a1, a2, a3⟩, a4⟩
      have a3 := OpSt.at_pending.1 a3
      refine ⟨⟨a1, ?_, a3⟩, a4⟩
      have hlt := hn.cids q (List.mem_of_getElem? hq) a3
      exact hp.inj _ _ hlt hc ((h2 a3).symm.trans a2)
    · rintro ⟨⟨a1, a2, a3⟩, a4⟩
      exact ⟨⟨a1, by rw [h2 a3, a2], OpSt.at_pending.2 a3⟩, a4⟩
  have hback : ∀ (j : Nat) q', M.L.ops[j]? = some q' → q'.waits (ψ c) k g = true → ∃ i, i < N.L.ops.length ∧ φ i = j := by
    intro j q' hj hwt
    unfold Op.waits at hwt
    rw [Bool.and_eq_true, decide_eq_true_eq] at hwt
    exact hp.own j q' c hj hwt.1.2.2 hc hw hwt.1.2.1
  unfold Ledger.partner
  cases hN : N.L.ops.findIdx? (fun o => o.waits c k g) with
  | none =>
    rw [Option.map_none, List.findIdx?_eq_none_iff]
    intro q' hq'
    obtain ⟨j, hj⟩ := List.mem_iff_getElem?.1 hq'
    cases hwt : q'.waits (ψ c) k g with
    | false => rfl
    | true =>
      obtain ⟨i, hi, rfl⟩ := hback j q' hj hwt
      obtain ⟨q2, h1, h2⟩ := hwaits i _ (List.getElem?_eq_getElem hi)
      rw [hj] at h1
      cases h1
      have := List.findIdx?_eq_none_iff.1 hN _ (List.getElem_mem hi)
      rw [h2.1 hwt] at this
      cases this
  | some i =>
    obtain ⟨hi, h1, h2⟩ := List.findIdx?_eq_some_iff_getElem.1 hN
    rw [Option.map_some, List.findIdx?_eq_some_iff_getElem]
    obtain ⟨q', h3, h4⟩ := hwaits i _ (List.getElem?_eq_getElem hi)
    have hlt := (List.getElem?_eq_some_iff.1 h3).1
    have he := (List.getElem?_eq_some_iff.1 h3).2
    refine ⟨hlt, by rw [he]; exact h4.2 h1, ?_⟩
    intro j hj
    have hjl : j < M.L.ops.length := Nat.lt_trans hj hlt
    cases hwt : M.L.ops[j].waits (ψ c) k g with
    | false => simp
    | true =>
      obtain ⟨x, hx, rfl⟩ := hback j _ (List.getElem?_eq_getElem hjl) hwt
      have hxi : x < i := by
        rcases Nat.lt_or_ge x i with h | h
        · exact h
        · have := hp.mono_le h hx; omega
      obtain ⟨q2, g1, g2⟩ := hwaits x _ (List.getElem?_eq_getElem hx)
      rw [List.getElem?_eq_getElem hjl] at g1
      cases g1
      exact absurd (g2.1 hwt) (h2 x hxi)

include hp in
theorem result {x y : Op} {c : Nat} (hy : y ∈ N.L.ops) (hl : ∀ o ∈ N.L.ops, ∀ j, o.st = .matched j → j < N.L.ops.length)
    (hx : x = { y with cid := c, st := y.st.at φ }) : M.result x = N.result y := by
  subst hx
  unfold Mach.result
  dsimp only
  cases hk : y.kind <;> cases hst : y.st <;> simp only [OpSt.at]
  next j =>
    have hj := hl y hy j hst
    obtain ⟨d, h1, _⟩ := hp.ops j _ (List.getElem?_eq_getElem hj)
    rw [h1, List.getElem?_eq_getElem hj]
    rfl

end Part
end MpiSerial
