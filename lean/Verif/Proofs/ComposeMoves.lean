import Verif.Proofs.ComposeMem
import Verif.Proofs.OpaqueNames

/-!
# What a call does to the machine, in small moves
-/

set_option linter.unusedSimpArgs false
set_option autoImplicit false

namespace MpiSerial

open Res (Sub)

/-- `t` is a predefined datatype or a live derived one. -/
def HasType (L : Ledger) (t : Int) : Prop := t < 0 ∨ ∃ d, (t, Obj.dtype d) ∈ L.objs

theorem IsType.has {env : Env} {L : Ledger} {t : Int} (h : IsType env L t) : HasType L t := by
  obtain ⟨d, h⟩ := h
  unfold Ledger.desc at h
  split at h
  · next hn => exact .inl hn
  · cases hf : L.objs.find? fun e => decide (e.1 = t) with
    | none => rw [hf] at h; cases h
    | some e =>
      rw [hf] at h
      have h1 := List.mem_of_find?_eq_some hf
      have h2 := List.find?_some hf
      simp only [decide_eq_true_eq] at h2
      obtain ⟨a, b⟩ := e
      dsimp only at h2
      subst h2
      simp only [Option.bind_some] at h
      split at h
      · next he => exact .inr ⟨_, h1⟩
      · cases h

theorem HasType.mono {L L' : Ledger} {t : Int} (h : HasType L t) (hk : ∀ d, (t, Obj.dtype d) ∈ L.objs → ∃ d', (t, Obj.dtype d') ∈ L'.objs) :
    HasType L' t := h.imp id fun ⟨d, hd⟩ => hk d hd

/-- Between MPI_Init and MPI_Finalize, in a program whose calls are well formed. -/
structure Sane (M : Mach) : Prop where
  keys : (M.L.objs.map Prod.fst).Nodup
  pos : ∀ e ∈ M.L.objs, 0 < e.1
  world : (1, Obj.comm 0) ∈ M.L.objs
  stock : M.pool.Serves M.uses M.pool.left
  amount : M.pool.left + M.L.objs.length = 262143
  cids : ∀ o ∈ M.L.ops, o.st = .pending → o.cid < M.L.ncomms
  comms : ∀ h c, (h, Obj.comm c) ∈ M.L.objs → c < M.L.ncomms
  reqs : ∀ h i, (h, Obj.req i) ∈ M.L.objs → i < M.L.ops.length
  links : ∀ o ∈ M.L.ops, ∀ j, o.st = .matched j → j < M.L.ops.length
  types : ∀ o ∈ M.L.ops, o.st = .pending → ∀ h, (h, Obj.comm o.cid) ∈ M.L.objs → HasType M.L o.dtype
  inited : M.L.inited = true
  first : ∀ h, (h, Obj.comm 0) ∈ M.L.objs → h = 1

/-- A small move.  Handles released or committed are in `U`; the communicators used for messages are in `W`. -/
inductive Move (U W : Int → Prop) : Mach → Mach → Prop
  | memory {M : Mach} (m : Mem) : Move U W M { M with mem := m }
  | comm {M : Mach} {h : Int} {P : Pool} : M.pool.take = some (h, P) → Move U W M ⟨M.L.addComm h, P, M.mem, M.built⟩
  | type {M : Mach} {h : Int} {P : Pool} (t : Typestruct) : M.pool.take = some (h, P) → Move U W M ⟨M.L.addType h t, P, M.mem, M.built + 1⟩
  | postNull {M : Mach} {h : Int} {P : Pool} (k : Kind) (g b n t : Int) : M.pool.take = some (h, P) →
      Move U W M ⟨M.L.postNull k g b n t h, P, M.mem, M.built⟩
  | post {M : Mach} {h : Int} {P : Pool} (k : Kind) {c : Nat} (g b n : Int) {t x : Int} (m : Mem) : M.pool.take = some (h, P) →
      (x, Obj.comm c) ∈ M.L.objs → W x → HasType M.L t →
      (t < 0 ∨ U t) → Move U W M ⟨M.L.post k c g b n t h, P, m, M.built⟩
  | release {M : Mach} {h : Int} {o : Obj} : (h, o) ∈ M.L.objs → h ≠ 1 → U h →
      (∀ t, o = .dtype t → ∀ q ∈ M.L.ops, q.st = .pending → ∀ x, (x, Obj.comm q.cid) ∈ M.L.objs → q.dtype ≠ h) → Move U W M (M.release h)
  | freeComm {M : Mach} {h : Int} {c : Nat} : (h, Obj.comm c) ∈ M.L.objs → h ≠ 1 → U h → Move U W M (M.freeComm h)
  | commit {M : Mach} {h : Int} {t : Typestruct} : (h, Obj.dtype t) ∈ M.L.objs → U h → Move U W M { M with L := M.L.commit h }

/-- Any number of moves. -/
inductive Moves (U W : Int → Prop) : Mach → Mach → Prop
  | nil {M : Mach} : Moves U W M M
  | snoc {M M' M'' : Mach} : Moves U W M M' → Move U W M' M'' → Moves U W M M''

theorem Move.mono {U W U' W' : Int → Prop} {M M' : Mach} (hU : ∀ h, U h → U' h) (hW : ∀ h, W h → W' h) (h : Move U W M M') : Move U' W' M M' := by
  cases h with
  | memory m => exact .memory m
  | comm h => exact .comm h
  | type t h => exact .type t h
  | postNull k g b n t h => exact .postNull k g b n t h
  | post k g b n m h1 h2 h3 h4 h5 => exact .post k g b n m h1 h2 (hW _ h3) h4 (h5.imp id (hU _))
  | release h1 h2 h3 h4 => exact .release h1 h2 (hU _ h3) h4
  | freeComm h1 h2 h3 => exact .freeComm h1 h2 (hU _ h3)
  | commit h1 h2 => exact .commit h1 (hU _ h2)

theorem Moves.mono {U W U' W' : Int → Prop} {M M' : Mach} (hU : ∀ h, U h → U' h) (hW : ∀ h, W h → W' h) (h : Moves U W M M') : Moves U' W' M M' := by
  induction h with
  | nil => exact .nil
  | snoc _ h ih => exact .snoc ih (h.mono hU hW)

theorem Moves.trans {U W : Int → Prop} {M M' M'' : Mach} (h : Moves U W M M') (h2 : Moves U W M' M'') : Moves U W M M'' := by
  induction h2 with
  | nil => exact h
  | snoc _ h3 ih => exact .snoc ih h3

theorem Moves.one {U W : Int → Prop} {M M' : Mach} (h : Move U W M M') : Moves U W M M' := .snoc .nil h

/-! ## Sanity is kept -/

namespace Sane
variable {M : Mach} (hs : Sane M)
include hs

theorem uses_one : M.uses 1 := ⟨_, hs.world⟩

theorem taken {h : Int} {P : Pool} (ht : M.pool.take = some (h, P)) :
    P.Serves (fun a => a = h ∨ M.uses a) P.left ∧ P.left + 1 = M.pool.left ∧ 1 < h ∧ ¬ M.uses h := by
  obtain ⟨n, h1, h2, h3, h4, _⟩ := hs.stock.take_some ht
  have e := h2.amount
  refine ⟨by rw [e]; exact h2, by omega, ?_, h4⟩
  have : h ≠ 1 := fun e => h4 (e ▸ hs.uses_one)
  omega

theorem unique {h : Int} {o o' : Obj} (h1 : (h, o) ∈ M.L.objs) (h2 : (h, o') ∈ M.L.objs) : o = o' := nodup_fst_unique hs.keys h1 h2

/-- Something new. -/
theorem grow {h : Int} {P : Pool} (ht : M.pool.take = some (h, P)) {L : Ledger} {o : Obj} {m : Mem} {b : Nat}
    (h1 : L.objs = (h, o) :: M.L.objs) (h2 : M.L.ncomms ≤ L.ncomms) (h3 : L.inited = true)
    (h4 : ∀ c, o = .comm c → M.L.ncomms ≤ c ∧ c < L.ncomms) (h5 : ∀ i, o = .req i → i < L.ops.length) (h6 : M.L.ops.length ≤ L.ops.length)
    (h7 : ∀ q ∈ L.ops, ∀ j, q.st = .matched j → j < L.ops.length)
    (h8 : ∀ q ∈ L.ops, q.st = .pending → q ∈ M.L.ops ∨ (q.cid < L.ncomms ∧ HasType M.L q.dtype)) : Sane ⟨L, P, m, b⟩ := by
  obtain ⟨t1, t2, t3, t4⟩ := hs.taken ht
  have hn : ∀ e ∈ M.L.objs, e.1 ≠ h := fun e he hh => t4 ⟨e.2, by rw [← hh]; exact he⟩
  refine ⟨?_, ?_, ?_, ?_, ?_, ?_, ?_, ?_, h7, ?_, h3, ?_⟩
  · dsimp only
    rw [h1, List.map_cons, List.nodup_cons]
    refine ⟨fun hm => ?_, hs.keys⟩
    obtain ⟨e, he, hh⟩ := List.mem_map.1 hm
    exact hn e he hh
  · intro e he
    dsimp only at he
    rw [h1] at he
    rcases List.mem_cons.1 he with rfl | he
    · dsimp only; omega
    · exact hs.pos e he
  · dsimp only; rw [h1]; exact List.mem_cons_of_mem _ hs.world
  · refine t1.congr fun a => ?_
    unfold Mach.uses
    dsimp only
    rw [h1]
    constructor
    · rintro ⟨x, hx⟩
      rcases List.mem_cons.1 hx with he | hx
      · exact .inl (Prod.mk.inj he).1
      · exact .inr ⟨x, hx⟩
    · rintro (rfl | ⟨x, hx⟩)
      · exact ⟨o, List.mem_cons_self ..⟩
      · exact ⟨x, List.mem_cons_of_mem _ hx⟩
  · dsimp only
    rw [h1, List.length_cons]
    have := hs.amount
    omega
  · intro q hq hp
    rcases h8 q hq hp with h9 | h9
    · have := hs.cids q h9 hp
      dsimp only
      omega
    · exact h9.1
  · intro x c hx
    dsimp only at hx ⊢
    rw [h1] at hx
    rcases List.mem_cons.1 hx with he | hx
    · exact (h4 c (Prod.mk.inj he).2.symm).2
    · have := hs.comms x c hx
      omega
  · intro x i hx
    dsimp only at hx ⊢
    rw [h1] at hx
    rcases List.mem_cons.1 hx with he | hx
    · exact h5 i (Prod.mk.inj he).2.symm
    · have := hs.reqs x i hx
      omega
  · intro q hq hp x hx
    have hk : HasType M.L q.dtype → HasType L q.dtype := fun h => h.mono fun d hd => ⟨d, by rw [h1]; exact List.mem_cons_of_mem _ hd⟩
    refine hk ?_
    rcases h8 q hq hp with h9 | h9
    · refine hs.types q h9 hp x ?_
      dsimp only at hx
      rw [h1] at hx
      rcases List.mem_cons.1 hx with he | hx
      · have := (h4 _ (Prod.mk.inj he).2.symm).1
        have := hs.cids q h9 hp
        omega
      · exact hx
    · exact h9.2
  · intro x hx
    dsimp only at hx
    rw [h1] at hx
    rcases List.mem_cons.1 hx with he | hx
    · have := (h4 _ (Prod.mk.inj he).2.symm).1
      have := hs.comms _ _ hs.world
      omega
    · exact hs.first x hx

/-- Something goes. -/
theorem shrink {h : Int} {o : Obj} (hm : (h, o) ∈ M.L.objs) (h1 : h ≠ 1)
    (ht : ∀ t, o = .dtype t → ∀ q ∈ M.L.ops, q.st = .pending → ∀ x, (x, Obj.comm q.cid) ∈ M.L.objs → q.dtype ≠ h)
    {L : Ledger} (e1 : L.objs = (M.L.release h).objs) (e2 : L.ops = M.L.ops) (e3 : L.ncomms = M.L.ncomms) (e4 : L.inited = M.L.inited) :
    Sane ⟨L, M.pool.give h, M.mem, M.built⟩ := by
  have hsub : ∀ e, e ∈ L.objs ↔ e ∈ M.L.objs ∧ e.1 ≠ h := fun e => by
    rw [e1]
    unfold Ledger.release
    dsimp only
    rw [List.mem_filter, decide_eq_true_eq]
  refine ⟨?_, fun e he => hs.pos e ((hsub e).1 he).1, (hsub _).2 ⟨hs.world, fun e => h1 e.symm⟩, ?_, ?_, ?_, ?_, ?_, ?_, ?_, by dsimp only; rw [e4]; exact hs.inited,
    fun x hx => hs.first x ((hsub _).1 hx).1⟩
  · dsimp only
    rw [e1]
    exact hs.keys.sublist (List.filter_sublist.map _)
  · have hg := hs.stock.give ⟨_, hm⟩ (hs.pos _ hm) hs.uses_one h1
    have e : (M.pool.give h).left = M.pool.left + 1 := by
      unfold Pool.left Pool.give
      dsimp only [List.length_cons]
      omega
    dsimp only
    rw [e]
    refine hg.congr fun a => ?_
    unfold Mach.uses
    dsimp only
    constructor
    · rintro ⟨x, hx⟩
      have := (hsub _).1 hx
      exact ⟨⟨x, this.1⟩, this.2⟩
    · rintro ⟨⟨x, hx⟩, hne⟩
      exact ⟨x, (hsub _).2 ⟨hx, hne⟩⟩
  · have hlen : L.objs.length + 1 = M.L.objs.length := by
      rw [e1]
      unfold Ledger.release
      dsimp only
      have hk := hs.keys
      generalize M.L.objs = l at hm hk
      clear e1 hsub ht
      induction l with
      | nil => cases hm
      | cons a l ih =>
        rw [List.map_cons, List.nodup_cons] at hk
        rcases List.mem_cons.1 hm with rfl | hm
        · rw [List.filter_cons_of_neg (by simp)]
          rw [List.filter_eq_self.2]
          · rfl
          · intro x hx
            simp only [decide_eq_true_eq]
            exact fun e => hk.1 (List.mem_map.2 ⟨x, hx, e⟩)
        · have ha : a.1 ≠ h := fun e => hk.1 (by rw [e]; exact List.mem_map_of_mem (f := Prod.fst) hm)
          rw [List.filter_cons_of_pos (by simpa using ha), List.length_cons, List.length_cons, ih hm hk.2]
    have := hs.amount
    dsimp only [Pool.left, Pool.give, List.length_cons] at this ⊢
    omega
  · intro q hq hp
    dsimp only at hq ⊢
    rw [e2] at hq
    rw [e3]
    exact hs.cids q hq hp
  · intro x c hx
    dsimp only
    rw [e3]
    exact hs.comms x c ((hsub _).1 hx).1
  · intro x c hx
    dsimp only
    rw [e2]
    exact hs.reqs x c ((hsub _).1 hx).1
  · dsimp only; rw [e2]; exact hs.links
  · intro q hq hp x hx
    dsimp only at hq
    rw [e2] at hq
    have hx := ((hsub _).1 hx).1
    refine (hs.types q hq hp x hx).mono fun d hd => ⟨d, (hsub _).2 ⟨hd, fun e => ?_⟩⟩
    dsimp only at e
    rw [e] at hd
    exact ht d (hs.unique hm hd) q hq hp x hx e

end Sane

theorem commit_mem {L : Ledger} {h x : Int} {o : Obj} : (x, o) ∈ (L.commit h).objs ↔
    (∃ t, x = h ∧ (x, Obj.dtype t) ∈ L.objs ∧ o = .dtype { t with committed := 1 }) ∨ ((x, o) ∈ L.objs ∧ (x = h → ∀ t, o ≠ .dtype t)) := by
  unfold Ledger.commit
  dsimp only
  rw [List.mem_map]
  constructor
  · rintro ⟨⟨y, q⟩, hm, he⟩
    cases q with
    | dtype t =>
      dsimp only at he
      split at he
      · next hy =>
        simp only [Prod.mk.injEq] at he
        obtain ⟨rfl, rfl⟩ := he
        exact .inl ⟨t, hy, hm, rfl⟩
      · next hy =>
        simp only [Prod.mk.injEq] at he
        obtain ⟨rfl, rfl⟩ := he
        exact .inr ⟨hm, fun e => absurd e hy⟩
    | _ =>
      simp only [Prod.mk.injEq] at he
      obtain ⟨rfl, rfl⟩ := he
      exact .inr ⟨hm, fun _ _ e => nomatch e⟩
  · rintro (⟨t, rfl, hm, rfl⟩ | ⟨hm, hn⟩)
    · exact ⟨_, hm, if_pos rfl⟩
    · refine ⟨_, hm, ?_⟩
      cases o with
      | dtype t => exact if_neg fun e => hn e t rfl
      | _ => rfl

/-- What operations are there after one has been posted. -/
theorem post_ops_cases {L : Ledger} {k : Kind} {c : Nat} {g b n t h : Int} {q : Op} (hq : q ∈ (L.post k c g b n t h).ops) :
    (q.st = .pending → q ∈ L.ops ∨ (q.cid = c ∧ q.dtype = t)) ∧
    ∀ j, q.st = .matched j → j < L.ops.length + 1 ∨ q ∈ L.ops := by
  unfold Ledger.post at hq
  dsimp only at hq
  cases hp : L.partner c k g with
  | none =>
    rw [hp] at hq
    rcases List.mem_append.1 hq with hq | hq
    · exact ⟨fun _ => .inl hq, fun _ _ => .inr hq⟩
    · rcases List.mem_singleton.1 hq with rfl
      exact ⟨fun _ => .inr ⟨rfl, rfl⟩, fun j hj => OpSt.noConfusion hj⟩
  | some i =>
    have hi : i < L.ops.length := (List.findIdx?_eq_some_iff_getElem.1 hp).1
    rw [hp] at hq
    rcases List.mem_append.1 hq with hq | hq
    · obtain ⟨x, hx⟩ := List.mem_iff_getElem?.1 hq
      refine ⟨fun hst => .inl (List.mem_of_getElem? (Ren.settle_pending hx hst)), fun j hj => ?_⟩
      unfold Ledger.settle at hx
      rw [List.getElem?_modify] at hx
      cases hy : L.ops[x]? with
      | none => rw [hy] at hx; cases hx
      | some y =>
        rw [hy] at hx
        dsimp only [Functor.map, Option.map] at hx
        split at hx <;> cases Option.some.inj hx
        · cases hj; exact .inl (Nat.lt_succ_self _)
        · exact .inr (List.mem_of_getElem? hy)
    · rcases List.mem_singleton.1 hq with rfl
      refine ⟨(fun h => nomatch h), fun j hj => ?_⟩
      cases hj
      exact .inl (by omega)

theorem post_length (L : Ledger) (k : Kind) (c : Nat) (g b n t h : Int) : (L.post k c g b n t h).ops.length = L.ops.length + 1 := by
  unfold Ledger.post
  dsimp only
  split
  · simp only [List.length_append, Ledger.settle, List.length_modify, List.length_singleton]
  · simp only [List.length_append, List.length_singleton]

theorem Move.sane {U W : Int → Prop} {M M' : Mach} (hs : Sane M) (h : Move U W M M') : Sane M' := by
  cases h with
  | memory m => exact ⟨hs.keys, hs.pos, hs.world, hs.stock, hs.amount, hs.cids, hs.comms, hs.reqs, hs.links, hs.types, hs.inited, hs.first⟩
  | comm ht =>
    exact hs.grow ht rfl (Nat.le_succ _) hs.inited (fun c hc => by cases hc; exact ⟨Nat.le_refl _, Nat.lt_succ_self _⟩)
      (fun i hi => nomatch hi) (Nat.le_refl _) hs.links fun q hq _ => .inl hq
  | type t ht =>
    exact hs.grow ht rfl (Nat.le_refl _) hs.inited (fun c hc => nomatch hc)
      (fun i hi => nomatch hi) (Nat.le_refl _) hs.links fun q hq _ => .inl hq
  | @postNull h P k g b n t ht =>
    have hl : (M.L.postNull k g b n t h).ops.length = M.L.ops.length + 1 := by
      unfold Ledger.postNull
      simp only [List.length_append, List.length_singleton]
    refine hs.grow ht rfl (Nat.le_refl _) hs.inited (fun c hc => nomatch hc) (fun i hi => by cases hi; rw [hl]; omega) (by rw [hl]; omega) ?_ ?_
    · intro q hq j hj
      rw [hl]
      rcases List.mem_append.1 hq with hq | hq
      · have := hs.links q hq j hj; omega
      · rcases List.mem_singleton.1 hq with rfl
        cases hj
    · intro q hq hp
      rcases List.mem_append.1 hq with hq | hq
      · exact .inl hq
      · rcases List.mem_singleton.1 hq with rfl
        cases hp
  | @post h P k c g b n t x m ht hx _ hty _ =>
    have r := post_rest M.L k c g b n t h
    have hl := post_length M.L k c g b n t h
    refine hs.grow ht (post_objs_eq ..) (Nat.le_of_eq r.1.symm) (r.2.2.trans hs.inited) (fun c hc => nomatch hc) (fun i hi => by cases hi; rw [hl]; omega)
      (by rw [hl]; omega) ?_ ?_
    · intro q hq j hj
      rw [hl]
      rcases (post_ops_cases hq).2 j hj with h1 | h1
      · exact h1
      · have := hs.links q h1 j hj; omega
    · intro q hq hp
      rcases (post_ops_cases hq).1 hp with h1 | ⟨h1, h2⟩
      · exact .inl h1
      · refine .inr ⟨?_, by rw [h2]; exact hty⟩
        rw [r.1, h1]
        exact hs.comms _ _ hx
  | release hm h1 _ ht => exact hs.shrink hm h1 ht rfl rfl rfl rfl
  | freeComm hm h1 _ => exact hs.shrink hm h1 (fun _ e => nomatch e) rfl rfl rfl rfl
  | @commit h t hm _ =>
    have hk := commit_keys M.L h
    have hc : ∀ x c, (x, Obj.comm c) ∈ (M.L.commit h).objs → (x, Obj.comm c) ∈ M.L.objs := fun x c hx => by
      rcases commit_mem.1 hx with ⟨_, _, _, e⟩ | hx
      · cases e
      · exact hx.1
    refine ⟨?_, ?_, commit_mem.2 (.inr ⟨hs.world, fun _ _ e => nomatch e⟩), ?_, ?_, hs.cids, ?_, ?_, hs.links, ?_, hs.inited,
      fun x hx => hs.first x (hc x 0 hx)⟩
    · dsimp only; rw [hk]; exact hs.keys
    · intro e he
      have h1 : e.1 ∈ (M.L.commit h).objs.map Prod.fst := List.mem_map_of_mem he
      rw [hk] at h1
      obtain ⟨y, hy, h2⟩ := List.mem_map.1 h1
      rw [← h2]
      exact hs.pos y hy
    · refine hs.stock.congr fun a => ?_
      have : ∀ L : Ledger, (∃ o, (a, o) ∈ L.objs) ↔ a ∈ L.objs.map Prod.fst := fun L => by
        rw [List.mem_map]
        constructor
        · rintro ⟨o, ho⟩; exact ⟨_, ho, rfl⟩
        · rintro ⟨⟨_, o⟩, ho, rfl⟩; exact ⟨o, ho⟩
      unfold Mach.uses
      rw [this, this, hk]
    · have h1 := congrArg List.length hk
      rw [List.length_map, List.length_map] at h1
      dsimp only
      rw [h1]
      exact hs.amount
    · exact fun x c hx => hs.comms x c (hc x c hx)
    · intro x i hx
      rcases commit_mem.1 hx with ⟨_, _, _, e⟩ | hx
      · cases e
      · exact hs.reqs x i hx.1
    · intro q hq hp x hx
      refine (hs.types q hq hp x (hc _ _ hx)).mono fun d hd => ?_
      by_cases e : q.dtype = h
      · exact ⟨_, commit_mem.2 (.inl ⟨d, e, hd, rfl⟩)⟩
      · exact ⟨d, commit_mem.2 (.inr ⟨hd, fun e' => absurd e' e⟩)⟩

theorem Moves.sane {U W : Int → Prop} {M M' : Mach} (hs : Sane M) (h : Moves U W M M') : Sane M' := by
  induction h with
  | nil => exact hs
  | snoc _ h ih => exact h.sane ih

end MpiSerial
