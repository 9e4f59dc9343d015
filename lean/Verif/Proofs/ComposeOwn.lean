import Verif.Proofs.ComposePart

/-!
# Moves of the part itself
-/

set_option linter.unusedSimpArgs false
set_option linter.unusedSectionVars false
set_option autoImplicit false

namespace MpiSerial

open Res (Sub)

theorem OpSt.at_congr {φ φ' : Nat → Nat} {s : OpSt} (h : ∀ j, s = .matched j → φ j = φ' j) : s.at φ = s.at φ' := by
  cases s with
  | matched j => exact congrArg OpSt.matched (h j rfl)
  | _ => rfl

theorem Obj.at_congr {φ φ' ψ ψ' : Nat → Nat} {o : Obj} (h : ∀ j, o = .req j → φ j = φ' j) (h2 : ∀ c, o = .comm c → ψ c = ψ' c) :
    o.at φ ψ = o.at φ' ψ' := by
  cases o with
  | comm c => exact congrArg Obj.comm (h2 c rfl)
  | req i => exact congrArg Obj.req (h i rfl)
  | dtype t => rfl

/-- `f`, but `n` goes to `v`. -/
def upd (f : Nat → Nat) (n v : Nat) : Nat → Nat := fun i => if i = n then v else f i

theorem upd_lt {f : Nat → Nat} {n v i : Nat} (h : i < n) : upd f n v i = f i := if_neg (by omega)
theorem upd_self {f : Nat → Nat} {n v : Nat} : upd f n v n = v := if_pos rfl

namespace Part
variable {φ ψ : Nat → Nat} {w : Bool} {M N : Mach} (hp : Part φ ψ w M N) (hs : Sane M) (hn : Sane N)
include hp hs hn

theorem lt {i : Nat} (hi : i < N.L.ops.length) : φ i < M.L.ops.length := by
  obtain ⟨_, h, _⟩ := hp.ops i _ (List.getElem?_eq_getElem hi)
  exact (List.getElem?_eq_some_iff.1 h).1

theorem eq_iff {i j : Nat} (hi : i < N.L.ops.length) (hj : j < N.L.ops.length) : φ i = φ j ↔ i = j := by
  constructor
  · intro h
    rcases Nat.lt_trichotomy i j with h1 | h1 | h1
    · have := hp.mono i j h1 hj; omega
    · exact h1
    · have := hp.mono j i h1 hi; omega
  · intro h; rw [h]

omit hn hp in
/-- A waiting operation does not use a new handle. -/
theorem uses_old (_ : Part φ ψ w M N) {h : Int} {o : Obj} {L' : Ledger} {Q : Pool} {m' : Mem} {b' : Nat} (e0 : ¬ M.uses h) (e9 : 0 < h)
    (e2 : L'.objs = (h, o) :: N.L.objs) {j : Nat} {q : Op} {x : Int} (hq : M.L.ops[j]? = some q) (hst : q.st = .pending)
    (hx : (x, Obj.comm q.cid) ∈ M.L.objs) (hu : (⟨L', Q, m', b'⟩ : Mach).uses q.dtype) : N.uses q.dtype := by
  obtain ⟨p, hu⟩ := hu
  dsimp only at hu
  rw [e2] at hu
  rcases List.mem_cons.1 hu with he | hu
  · have he := (Prod.mk.inj he).1
    rcases hs.types q (List.mem_of_getElem? hq) hst x hx with h1 | ⟨d, h1⟩
    · omega
    · exact absurd ⟨_, he ▸ h1⟩ e0
  · exact ⟨p, hu⟩

/-- A new operation. -/
theorem addOp {h : Int} {opsM opsN : List Op} {oM oN : Op} {c' : Nat} {L L' : Ledger} {P Q : Pool} {m m' : Mem} {b b' : Nat}
    (e0 : ¬ M.uses h) (e1 : L.objs = (h, .req M.L.ops.length) :: M.L.objs) (e2 : L'.objs = (h, .req N.L.ops.length) :: N.L.objs)
    (e3 : L.ops = opsM ++ [oM]) (e4 : L'.ops = opsN ++ [oN]) (e5 : opsM.length = M.L.ops.length) (e6 : opsN.length = N.L.ops.length)
    (e7 : L.ncomms = M.L.ncomms) (e8 : L'.ncomms = N.L.ncomms)
    (hA : ∀ (i : Nat) o, opsN[i]? = some o → ∃ c, opsM[φ i]? = some { o with cid := c, st := o.st.at (upd φ N.L.ops.length M.L.ops.length) } ∧
      (o.st = .pending → c = ψ o.cid))
    (hB : oM = { oN with cid := c', st := oN.st.at (upd φ N.L.ops.length M.L.ops.length) })
    (hC : oN.st = .pending → c' = ψ oN.cid ∧ (w = true ∨ oN.cid ≠ 0))
    (e9 : 0 < h) (hD : ∀ (j : Nat) q, opsM[j]? = some q → q.st = .pending → M.L.ops[j]? = some q) (hE : ∀ q ∈ opsN, q.st = .pending → q ∈ N.L.ops) :
    Part (upd φ N.L.ops.length M.L.ops.length) ψ w ⟨L, P, m, b⟩ ⟨L', Q, m', b'⟩ := by
  refine ⟨?_, ?_, ?_, by dsimp only; rw [e8]; exact hp.inj, by dsimp only; rw [e7, e8]; exact hp.bound, ?_, ?_, ?_, ?_⟩
  · intro x o hx
    dsimp only at hx ⊢
    rw [e2] at hx
    rw [e1]
    rcases List.mem_cons.1 hx with he | hx
    · simp only [Prod.mk.injEq] at he
      obtain ⟨rfl, rfl⟩ := he
      simp only [Obj.at, upd_self]
      exact List.mem_cons_self ..
    · refine List.mem_cons_of_mem _ ?_
      rw [← Obj.at_congr (φ := φ) (ψ := ψ) (fun j hj => ?_) fun _ _ => rfl]
      · exact hp.objs x o hx
      · subst hj
        exact (upd_lt (hn.reqs x j hx)).symm
  · intro i o hi
    dsimp only at hi ⊢
    rw [e4] at hi
    rw [e3]
    by_cases hl : i < N.L.ops.length
    · rw [List.getElem?_append_left (by omega)] at hi
      obtain ⟨c, h1, h2⟩ := hA i o hi
      refine ⟨c, ?_, h2⟩
      rw [upd_lt hl, List.getElem?_append_left (by have := hp.lt hs hn hl; omega)]
      exact h1
    · rw [List.getElem?_append_right (by omega)] at hi
      cases hz : i - opsN.length with
      | succ z => rw [hz] at hi; cases hi
      | zero =>
        rw [hz] at hi
        cases hi
        have hi : i = N.L.ops.length := by omega
        subst hi
        refine ⟨c', ?_, fun h => (hC h).1⟩
        rw [upd_self, List.getElem?_append_right (by omega), e5, Nat.sub_self, ← hB]
        rfl
  · intro i j hij hj
    dsimp only at hj
    rw [e4, List.length_append, List.length_singleton, e6] at hj
    by_cases hl : j < N.L.ops.length
    · rw [upd_lt hl, upd_lt (Nat.lt_trans hij hl)]
      exact hp.mono i j hij hl
    · have : j = N.L.ops.length := by omega
      subst this
      rw [upd_self, upd_lt hij]
      exact hp.lt hs hn hij
  · intro j q c hq hst hc hw he
    dsimp only at hq hc ⊢
    rw [e3] at hq
    rw [e8] at hc
    rw [e4, List.length_append, List.length_singleton, e6]
    by_cases hl : j < M.L.ops.length
    · rw [List.getElem?_append_left (by omega)] at hq
      obtain ⟨i, h1, h2⟩ := hp.own j q c (hD j q hq hst) hst hc hw he
      exact ⟨i, by omega, by rw [upd_lt h1]; exact h2⟩
    · have hl2 : j < (opsM ++ [oM]).length := (List.getElem?_eq_some_iff.1 hq).1
      rw [List.length_append, List.length_singleton, e5] at hl2
      exact ⟨N.L.ops.length, by omega, by rw [upd_self]; omega⟩
  · intro q hq hst
    dsimp only at hq
    rw [e4] at hq
    rcases List.mem_append.1 hq with hq | hq
    · exact hp.mine q (hE q hq hst) hst
    · rcases List.mem_singleton.1 hq with rfl
      exact (hC hst).2
  · intro x c hx hc hw
    dsimp only at hx hc ⊢
    rw [e1] at hx
    rw [e8] at hc
    rw [e2]
    rcases List.mem_cons.1 hx with he | hx
    · cases (Prod.mk.inj he).2
    · exact List.mem_cons_of_mem _ (hp.only x c hx hc hw)
  · intro j q x hq hst hx hu
    dsimp only at hq hx ⊢
    rw [e1] at hx
    rw [e3] at hq
    rw [e4, List.length_append, List.length_singleton, e6]
    have hx : (x, Obj.comm q.cid) ∈ M.L.objs := by
      rcases List.mem_cons.1 hx with he | hx
      · cases (Prod.mk.inj he).2
      · exact hx
    by_cases hl : j < M.L.ops.length
    · rw [List.getElem?_append_left (by omega)] at hq
      have hq := hD j q hq hst
      obtain ⟨i, h1, h2⟩ := hp.typed j q x hq hst hx (hp.uses_old hs e0 e9 e2 hq hst hx hu)
      exact ⟨i, by omega, by rw [upd_lt h1]; exact h2⟩
    · have hl2 : j < (opsM ++ [oM]).length := (List.getElem?_eq_some_iff.1 hq).1
      rw [List.length_append, List.length_singleton, e5] at hl2
      exact ⟨N.L.ops.length, by omega, by rw [upd_self]; omega⟩

theorem ops_upd (v : Nat) (i : Nat) (o : Op) (hi : N.L.ops[i]? = some o) :
    ∃ c, M.L.ops[φ i]? = some { o with cid := c, st := o.st.at (upd φ N.L.ops.length v) } ∧ (o.st = .pending → c = ψ o.cid) := by
  obtain ⟨c, h1, h2⟩ := hp.ops i o hi
  refine ⟨c, ?_, h2⟩
  rw [← OpSt.at_congr (φ := φ)]
  · exact h1
  · intro j hj
    exact (upd_lt (hn.links o (List.mem_of_getElem? hi) j hj)).symm

theorem postNull (k : Kind) (g bf n t : Int) {h : Int} (e0 : ¬ M.uses h) (e9 : 0 < h) {P Q : Pool} {m m' : Mem} {b b' : Nat} :
    ∃ φ', Part φ' ψ w ⟨M.L.postNull k g bf n t h, P, m, b⟩ ⟨N.L.postNull k g bf n t h, Q, m', b'⟩ :=
  ⟨_, hp.addOp hs hn (L := M.L.postNull k g bf n t h) (L' := N.L.postNull k g bf n t h) (c' := 0) (oN := ⟨k, 0, g, bf, n, t, h, .null⟩)
    (oM := ⟨k, 0, g, bf, n, t, h, .null⟩) e0 rfl rfl rfl rfl rfl rfl rfl rfl (hp.ops_upd hs hn _) rfl
    (fun h => nomatch h) e9 (fun _ _ h _ => h) fun _ h _ => h⟩

theorem post (k : Kind) {c : Nat} (hc : c < N.L.ncomms) (hw : w = true ∨ c ≠ 0) (g bf n t : Int) {h : Int} (e0 : ¬ M.uses h) (e9 : 0 < h) {P Q : Pool} {m m' : Mem} {b b' : Nat} :
    ∃ φ', Part φ' ψ w ⟨M.L.post k (ψ c) g bf n t h, P, m, b⟩ ⟨N.L.post k c g bf n t h, Q, m', b'⟩ := by
  refine ⟨upd φ N.L.ops.length M.L.ops.length, ?_⟩
  have hpt := hp.partner hn hc hw k g
  cases hj : N.L.partner c k g with
  | none =>
    rw [hj, Option.map_none] at hpt
    refine hp.addOp hs hn e0 (post_objs_eq ..) (post_objs_eq ..) (opsM := M.L.ops) (opsN := N.L.ops) (oM := ⟨k, ψ c, g, bf, n, t, h, .pending⟩)
      (oN := ⟨k, c, g, bf, n, t, h, .pending⟩) (c' := ψ c) ?_ ?_ rfl rfl (post_rest ..).1 (post_rest ..).1 (hp.ops_upd hs hn _) rfl
      (fun _ => ⟨rfl, hw⟩) e9 (fun _ _ h _ => h) fun _ h _ => h
    · unfold Ledger.post; rw [hpt]
    · unfold Ledger.post; rw [hj]
  | some j =>
    rw [hj, Option.map_some] at hpt
    have hlt : j < N.L.ops.length := (List.findIdx?_eq_some_iff_getElem.1 hj).1
    refine hp.addOp hs hn e0 (post_objs_eq ..) (post_objs_eq ..) (opsM := Ledger.settle M.L.ops (φ j) M.L.ops.length)
      (opsN := Ledger.settle N.L.ops j N.L.ops.length) (oM := ⟨k, ψ c, g, bf, n, t, h, .matched (φ j)⟩)
      (oN := ⟨k, c, g, bf, n, t, h, .matched j⟩) (c' := ψ c) ?_ ?_ (by simp [Ledger.settle]) (by simp [Ledger.settle]) (post_rest ..).1 (post_rest ..).1 ?_ ?_
      (fun h => nomatch h) e9 (fun _ _ h h' => Ren.settle_pending h h') ?_
    · unfold Ledger.post; rw [hpt]
    · unfold Ledger.post; rw [hj]
    · intro i o hi
      unfold Ledger.settle at hi ⊢
      rw [List.getElem?_modify] at hi ⊢
      cases hq : N.L.ops[i]? with
      | none => rw [hq] at hi; cases hi
      | some q =>
        have hil := (List.getElem?_eq_some_iff.1 hq).1
        rw [hq] at hi
        obtain ⟨d, h1, h2⟩ := hp.ops_upd hs hn M.L.ops.length i q hq
        rw [h1]
        dsimp only [Functor.map, Option.map] at hi ⊢
        by_cases hji : j = i
        · subst hji
          rw [if_pos rfl] at hi
          rw [if_pos rfl]
          cases Option.some.inj hi
          refine ⟨d, ?_, fun e => nomatch e⟩
          simp only [OpSt.at, upd_self]
        · rw [if_neg hji] at hi
          rw [if_neg fun e => hji ((hp.eq_iff hs hn hlt hil).1 e)]
          cases Option.some.inj hi
          exact ⟨d, rfl, h2⟩
    · simp only [OpSt.at, upd_lt hlt]
    · intro q hq hst
      obtain ⟨x, hx⟩ := List.mem_iff_getElem?.1 hq
      exact List.mem_of_getElem? (Ren.settle_pending hx hst)

theorem newComm {h : Int} (e0 : ¬ M.uses h) (e9 : 0 < h) {P Q : Pool} {m m' : Mem} {b b' : Nat} :
    ∃ ψ', Part φ ψ' w ⟨M.L.addComm h, P, m, b⟩ ⟨N.L.addComm h, Q, m', b'⟩ := by
  refine ⟨upd ψ N.L.ncomms M.L.ncomms, ?_⟩
  refine ⟨?_, ?_, hp.mono, ?_, ?_, ?_, hp.mine, ?_, ?_⟩
  · intro x o hx
    rcases List.mem_cons.1 hx with he | hx
    · simp only [Prod.mk.injEq] at he
      obtain ⟨rfl, rfl⟩ := he
      refine List.mem_cons.2 (.inl ?_)
      simp only [Obj.at, upd_self]
    · refine List.mem_cons_of_mem _ ?_
      rw [← Obj.at_congr (φ := φ) (ψ := ψ) (fun _ _ => rfl) fun j hj => ?_]
      · exact hp.objs x o hx
      · subst hj
        exact (upd_lt (hn.comms x j hx)).symm
  · intro i o hi
    obtain ⟨c, h1, h2⟩ := hp.ops i o hi
    exact ⟨c, h1, fun h => by rw [h2 h, upd_lt (hn.cids o (List.mem_of_getElem? hi) h)]⟩
  · intro c d hc hd he
    have hc : c < N.L.ncomms + 1 := hc
    have hd : d < N.L.ncomms + 1 := hd
    by_cases h1 : c < N.L.ncomms <;> by_cases h2 : d < N.L.ncomms
    · rw [upd_lt h1, upd_lt h2] at he
      exact hp.inj c d h1 h2 he
    · have h3 : d = N.L.ncomms := by omega
      subst h3
      rw [upd_lt h1, upd_self] at he
      have := hp.bound c h1
      omega
    · have h3 : c = N.L.ncomms := by omega
      subst h3
      rw [upd_lt h2, upd_self] at he
      have := hp.bound d h2
      omega
    · omega
  · intro c hc
    have hc : c < N.L.ncomms + 1 := hc
    show _ < M.L.ncomms + 1
    by_cases h1 : c < N.L.ncomms
    · rw [upd_lt h1]
      have := hp.bound c h1
      omega
    · have h3 : c = N.L.ncomms := by omega
      subst h3
      rw [upd_self]
      omega
  · intro j q c hq hst hc hw he
    have hc : c < N.L.ncomms + 1 := hc
    have hlt := hs.cids q (List.mem_of_getElem? hq) hst
    by_cases h1 : c < N.L.ncomms
    · rw [upd_lt h1] at he
      exact hp.own j q c hq hst h1 hw he
    · have h3 : c = N.L.ncomms := by omega
      subst h3
      rw [upd_self] at he
      omega
  · intro x c hx hc hw
    have hc : c < N.L.ncomms + 1 := hc
    by_cases h1 : c < N.L.ncomms
    · rw [upd_lt h1] at hx
      have := hp.bound c h1
      rcases List.mem_cons.1 hx with he | hx
      · have := Obj.comm.inj (Prod.mk.inj he).2
        omega
      · exact List.mem_cons_of_mem _ (hp.only x c hx h1 hw)
    · have h3 : c = N.L.ncomms := by omega
      subst h3
      rw [upd_self] at hx
      rcases List.mem_cons.1 hx with he | hx
      · rw [(Prod.mk.inj he).1]
        exact List.mem_cons_self ..
      · have := hs.comms _ _ hx
        omega
  · intro j q x hq hst hx hu
    have hx : (x, Obj.comm q.cid) ∈ M.L.objs := by
      rcases List.mem_cons.1 hx with he | hx
      · have := Obj.comm.inj (Prod.mk.inj he).2
        have := hs.cids q (List.mem_of_getElem? hq) hst
        omega
      · exact hx
    exact hp.typed j q x hq hst hx (hp.uses_old hs e0 e9 (L' := N.L.addComm h) rfl hq hst hx hu)

theorem newType {h : Int} (e0 : ¬ M.uses h) (e9 : 0 < h) (t : Typestruct) {P Q : Pool} {m m' : Mem} {b b' : Nat} :
    Part φ ψ w ⟨M.L.addType h t, P, m, b⟩ ⟨N.L.addType h t, Q, m', b'⟩ := by
  refine ⟨?_, hp.ops, hp.mono, hp.inj, hp.bound, hp.own, hp.mine, ?_, ?_⟩
  · intro x o hx
    rcases List.mem_cons.1 hx with he | hx
    · simp only [Prod.mk.injEq] at he
      obtain ⟨rfl, rfl⟩ := he
      exact List.mem_cons_self ..
    · exact List.mem_cons_of_mem _ (hp.objs x o hx)
  · intro x c hx hc hw
    rcases List.mem_cons.1 hx with he | hx
    · cases (Prod.mk.inj he).2
    · exact List.mem_cons_of_mem _ (hp.only x c hx hc hw)
  · intro j q x hq hst hx hu
    have hx : (x, Obj.comm q.cid) ∈ M.L.objs := by
      rcases List.mem_cons.1 hx with he | hx
      · cases (Prod.mk.inj he).2
      · exact hx
    exact hp.typed j q x hq hst hx (hp.uses_old hs e0 e9 (L' := N.L.addType h t) rfl hq hst hx hu)

theorem gone (h : Int) {L L' : Ledger} (e1 : L.objs = (M.L.release h).objs) (e2 : L'.objs = (N.L.release h).objs) (e3 : L.ops = M.L.ops)
    (e4 : L'.ops = N.L.ops) (e5 : L.ncomms = M.L.ncomms) (e6 : L'.ncomms = N.L.ncomms) {P Q : Pool} {m m' : Mem} {b b' : Nat} :
    Part φ ψ w ⟨L, P, m, b⟩ ⟨L', Q, m', b'⟩ := by
  have hsub : ∀ e, e ∈ L.objs ↔ e ∈ M.L.objs ∧ e.1 ≠ h := fun e => by
    rw [e1]; unfold Ledger.release; dsimp only; rw [List.mem_filter, decide_eq_true_eq]
  have hsub' : ∀ e, e ∈ L'.objs ↔ e ∈ N.L.objs ∧ e.1 ≠ h := fun e => by
    rw [e2]; unfold Ledger.release; dsimp only; rw [List.mem_filter, decide_eq_true_eq]
  refine ⟨fun x o hx => ?_, ?_, ?_, ?_, ?_, ?_, ?_, fun x c hx hc hw => ?_, fun j q x hq hst hx hu => ?_⟩
  · have := (hsub' _).1 hx
    exact (hsub _).2 ⟨hp.objs x o this.1, this.2⟩
  · dsimp only; rw [e3, e4]; exact hp.ops
  · dsimp only; rw [e4]; exact hp.mono
  · dsimp only; rw [e6]; exact hp.inj
  · dsimp only; rw [e5, e6]; exact hp.bound
  · dsimp only; rw [e3, e4, e6]; exact hp.own
  · dsimp only; rw [e4]; exact hp.mine
  · have := (hsub _).1 hx
    dsimp only at hc
    rw [e6] at hc
    exact (hsub' _).2 ⟨hp.only x c this.1 hc hw, this.2⟩
  · obtain ⟨p, hu⟩ := hu
    dsimp only at hq ⊢
    rw [e3] at hq
    rw [e4]
    exact hp.typed j q x hq hst ((hsub _).1 hx).1 ⟨p, ((hsub' _).1 hu).1⟩

theorem commit (h : Int) {P Q : Pool} {m m' : Mem} {b b' : Nat} : Part φ ψ w ⟨M.L.commit h, P, m, b⟩ ⟨N.L.commit h, Q, m', b'⟩ := by
  refine ⟨fun x o hx => ?_, hp.ops, hp.mono, hp.inj, hp.bound, hp.own, hp.mine, fun x c hx hc hw => ?_, fun j q x hq hst hx hu => ?_⟩
  · rcases commit_mem.1 hx with ⟨t, h1, h2, rfl⟩ | ⟨h1, h2⟩
    · exact commit_mem.2 (.inl ⟨t, h1, hp.objs _ _ h2, rfl⟩)
    · refine commit_mem.2 (.inr ⟨hp.objs _ _ h1, fun e t ht => ?_⟩)
      cases o with
      | dtype d => exact h2 e d rfl
      | _ => cases ht
  · rcases commit_mem.1 hx with ⟨t, h1, h2, e⟩ | ⟨h1, h2⟩
    · cases e
    · exact commit_mem.2 (.inr ⟨hp.only x c h1 hc hw, fun _ _ e => nomatch e⟩)
  · obtain ⟨p, hu⟩ := hu
    have hu : N.uses q.dtype := by
      rcases commit_mem.1 hu with ⟨t, _, h2, _⟩ | ⟨h1, _⟩
      · exact ⟨_, h2⟩
      · exact ⟨_, h1⟩
    rcases commit_mem.1 hx with ⟨t, h1, h2, e⟩ | ⟨h1, h2⟩
    · cases e
    · exact hp.typed j q x hq hst h1 hu

end Part
end MpiSerial
