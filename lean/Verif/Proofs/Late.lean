import Verif.Spec.Late
import Verif.Proofs.MessagesLib

/-!
# Releases that come late: the machine
-/

set_option linter.unusedSimpArgs false
set_option autoImplicit false

namespace MpiSerial

/-! ## Calls that are kept in mind -/

/-- The call releases something nobody needs. -/
inductive Idle (M : Mach) : Call → Prop
  | type {h : Int} {t : Typestruct} : (h, Obj.dtype t) ∈ M.L.objs →
      (∀ q ∈ M.L.ops, q.st = .pending → ∀ x, (x, Obj.comm q.cid) ∈ M.L.objs → q.dtype ≠ h) → Idle M (.typeFree h)
  | req {h : Int} {i : Nat} {q : Op} : (h, Obj.req i) ∈ M.L.objs → M.L.ops[i]? = some q → q.st ≠ .pending → Idle M (.requestFree h)

theorem Idle.wf {env : Env} {M : Mach} {c : Call} (h : Idle M c) : c.Wf env M.L := by
  cases h with
  | type h1 h2 => exact ⟨⟨_, h1⟩, fun q ⟨h3, h4, x, h5⟩ => h2 q h3 h4 x h5⟩
  | req h1 h2 h3 => exact ⟨_, _, h1, h2, h3⟩

theorem Idle.of_wf {env : Env} {M : Mach} {c : Call} {o : Out} (hc : c.putOff = some o) (h : c.Wf env M.L) : Idle M c := by
  cases c <;> try (cases hc; done)
  · obtain ⟨i, q, h1, h2, h3⟩ := h
    exact .req h1 h2 h3
  · obtain ⟨⟨t, h1⟩, h2⟩ := h
    exact .type h1 fun q h3 h4 x h5 => h2 q ⟨h3, h4, x, h5⟩

theorem Idle.move {U W : Int → Prop} {M M' : Mach} {c : Call} (hi : Idle M c) (hs : Sane M) (hU : ∀ h ∈ c.handles, ¬ U h)
    (h : Move U W M M') : Idle M' c := by
  -- what is needed
  have key : (∀ h o, h ∈ c.handles → (h, o) ∈ M.L.objs → (h, o) ∈ M'.L.objs) →
      (∀ (i : Nat) q, M.L.ops[i]? = some q → q.st ≠ .pending → M'.L.ops[i]? = some q) →
      (∀ q ∈ M'.L.ops, q.st = .pending → (q ∈ M.L.ops ∧ ∀ x, (x, Obj.comm q.cid) ∈ M'.L.objs → (x, Obj.comm q.cid) ∈ M.L.objs) ∨
        ∀ h ∈ c.handles, 0 < h → q.dtype ≠ h) → Idle M' c := by
    intro e1 e2 e3
    cases hi with
    | type h1 h2 =>
      refine .type (e1 _ _ (List.mem_singleton.2 rfl) h1) fun q hq hst x hx => ?_
      rcases e3 q hq hst with ⟨h4, h5⟩ | h4
      · exact h2 q h4 hst x (h5 x hx)
      · exact h4 _ (List.mem_singleton.2 rfl) (hs.pos _ h1)
    | req h1 h2 h3 => exact .req (e1 _ _ (List.mem_singleton.2 rfl) h1) (e2 _ _ h2 h3) h3
  cases h with
  | memory m => exact key (fun _ _ _ h => h) (fun _ _ h _ => h) fun q hq _ => .inl ⟨hq, fun _ h => h⟩
  | comm ht =>
    refine key (fun _ _ _ h => List.mem_cons_of_mem _ h) (fun _ _ h _ => h) fun q hq hst => .inl ⟨hq, fun x hx => ?_⟩
    rcases List.mem_cons.1 hx with e | hx
    · have h1 := hs.cids q hq hst
      have h2 := Obj.comm.inj (Prod.mk.inj e).2
      omega
    · exact hx
  | type t ht =>
    refine key (fun _ _ _ h => List.mem_cons_of_mem _ h) (fun _ _ h _ => h) fun q hq hst => .inl ⟨hq, fun x hx => ?_⟩
    rcases List.mem_cons.1 hx with e | hx
    · cases (Prod.mk.inj e).2
    · exact hx
  | postNull k g b n t ht =>
    refine key (fun _ _ _ h => List.mem_cons_of_mem _ h) (fun i q h _ => ?_) fun q hq hst => .inl ⟨?_, fun x hx => ?_⟩
    · have hi : i < M.L.ops.length := (List.getElem?_eq_some_iff.1 h).1
      exact (List.getElem?_append_left hi).trans h
    · rcases List.mem_append.1 (show q ∈ M.L.ops ++ [_] from hq) with hq | hq
      · exact hq
      · rcases List.mem_singleton.1 hq with rfl
        cases hst
    · rcases List.mem_cons.1 hx with e | hx
      · cases (Prod.mk.inj e).2
      · exact hx
  | @post y P k d g b n t z m ht hz hw hty htu =>
    have ho := post_objs_eq M.L k d g b n t y
    refine key (fun _ _ _ h => by dsimp only; rw [ho]; exact List.mem_cons_of_mem _ h) (fun i q h hst => ?_) fun q hq hst => ?_
    · have hi : i < M.L.ops.length := (List.getElem?_eq_some_iff.1 h).1
      unfold Ledger.post
      dsimp only
      cases hpt : M.L.partner d k g with
      | none => exact (List.getElem?_append_left hi).trans h
      | some j =>
        dsimp only
        rw [List.getElem?_append_left (by simpa [Ledger.settle] using hi)]
        unfold Ledger.settle
        rw [List.getElem?_modify]
        have hne : j ≠ i := fun e => by
          obtain ⟨hlt, hw, _⟩ := List.findIdx?_eq_some_iff_getElem.1 hpt
          subst e
          rw [List.getElem?_eq_getElem hlt] at h
          rw [Option.some.inj h] at hw
          unfold Op.waits at hw
          rw [Bool.and_eq_true, decide_eq_true_eq] at hw
          exact hst hw.1.2.2
        rw [h]
        exact congrArg some (if_neg hne)
    · rcases (post_ops_cases hq).1 hst with h4 | h4
      · refine .inl ⟨h4, fun x hx => ?_⟩
        dsimp only at hx
        rw [ho] at hx
        rcases List.mem_cons.1 hx with e | hx
        · cases (Prod.mk.inj e).2
        · exact hx
      · refine .inr fun h hh hpos e => ?_
        rw [h4.2] at e
        subst e
        rcases htu with h5 | h5
        · omega
        · exact hU _ hh h5
  | @release y o hm h4 h5 _ =>
    refine key (fun h o hh ho => List.mem_filter.2 ⟨ho, decide_eq_true fun e : h = y => hU h hh (e ▸ h5)⟩) (fun _ _ h _ => h)
      fun q hq _ => .inl ⟨hq, fun x hx => (List.mem_filter.1 hx).1⟩
  | @freeComm y d hm h4 h5 =>
    refine key (fun h o hh ho => List.mem_filter.2 ⟨ho, decide_eq_true fun e : h = y => hU h hh (e ▸ h5)⟩) (fun _ _ h _ => h)
      fun q hq _ => .inl ⟨hq, fun x hx => (List.mem_filter.1 hx).1⟩
  | @commit y t hm h5 =>
    refine key (fun h o hh ho => commit_mem.2 (.inr ⟨ho, fun e => absurd h5 (e ▸ hU h hh)⟩)) (fun _ _ h _ => h) fun q hq _ => .inl ⟨hq, fun x hx => ?_⟩
    rcases commit_mem.1 hx with ⟨_, _, _, e⟩ | hx
    · cases e
    · exact hx.1

theorem Idle.moves {U W : Int → Prop} {M M' : Mach} {c : Call} (hi : Idle M c) (hs : Sane M) (hU : ∀ h ∈ c.handles, ¬ U h)
    (h : Moves U W M M') : Idle M' c := by
  have : Sane M' ∧ Idle M' c := by
    induction h with
    | nil => exact ⟨hs, hi⟩
    | snoc _ h ih => exact ⟨h.sane ih.1, ih.2.move ih.1 hU h⟩
  exact this.2

/-- What a call kept in mind releases. -/
theorem Idle.does {env : Env} {M : Mach} {c : Call} (hi : Idle M c) (hs : Sane M) :
    ∃ h obj o, c.handles = [h] ∧ c.putOff = some o ∧ M.answer env c = .ok (M.release h, o) ∧ (h, obj) ∈ M.L.objs ∧ (∀ d, obj ≠ .comm d) ∧
      Move (fun x => x = h) (fun _ => False) M (M.release h) := by
  have ne : ∀ {h : Int} {obj : Obj}, (h, obj) ∈ M.L.objs → (∀ d, obj ≠ .comm d) → h ≠ 1 := fun hm hd e => by
    subst e
    exact hd _ (hs.unique hm hs.world)
  cases hi with
  | @type h t h1 h2 =>
    exact ⟨h, _, _, rfl, rfl, rfl, h1, (fun _ e => nomatch e), .release h1 (ne h1 fun _ e => nomatch e) rfl fun _ _ => h2⟩
  | @req h i q h1 h2 h3 =>
    exact ⟨h, _, _, rfl, rfl, rfl, h1, (fun _ e => nomatch e), .release h1 (ne h1 fun _ e => nomatch e) rfl fun _ e => nomatch e⟩

/-- Two calls that release the same handle are the same call. -/
theorem Idle.same {M : Mach} {c d : Call} (hc : Idle M c) (hd : Idle M d) (hs : Sane M) (h : c.handles = d.handles) : c = d := by
  cases hc with
  | type h1 _ =>
    cases hd with
    | type h3 _ => cases h; rfl
    | req h3 _ _ => cases h; cases hs.unique h1 h3
  | req h1 _ _ =>
    cases hd with
    | type h3 _ => cases h; cases hs.unique h1 h3
    | req h3 _ _ => cases h; rfl

/-- A handle is not given back in `M` but in `N`. -/
theorem Part.unrelease {φ ψ : Nat → Nat} {w : Bool} {M N : Mach} {h : Int} {obj : Obj} (hs : Sane M) (hm : (h, obj) ∈ M.L.objs) (hd : ∀ d, obj ≠ .comm d)
    (hp : Part φ ψ w (M.release h) N) : Part φ ψ w M N := by
  have back : ∀ {x : Int} {d : Nat}, (x, Obj.comm d) ∈ M.L.objs → (x, Obj.comm d) ∈ (M.release h).L.objs := fun {x d} hx =>
    List.mem_filter.2 ⟨hx, decide_eq_true fun e : x = h => hd d (hs.unique hm (e ▸ hx))⟩
  exact ⟨fun x o hx => (List.mem_filter.1 (hp.objs x o hx)).1, hp.ops, hp.mono, hp.inj, hp.bound, hp.own, hp.mine, fun x d hx => hp.only x d (back hx),
    fun j o x hj hst hx => hp.typed j o x hj hst (back hx)⟩

/-! ## The program under the layer -/

/-- After `k` calls the program has seen `seen`; the calls `kept` were put off. -/
structure Late (env : Env) (m : Mem) (p : Prog) (k : Nat) (seen : List Obs) (ν : Names) (kept : List Call) (M : Mach) : Prop where
  sane : Sane M
  idle : ∀ c ∈ kept, Idle M c
  once : kept.Nodup
  found : ∃ N, Track env m p.whole k seen ν N ∧ Sane N ∧ (∃ φ ψ, Part φ ψ true M N) ∧ N.mem = M.mem ∧ ∀ c ∈ kept, ∀ h ∈ c.handles, ¬ N.uses h

section
variable {env : Env} {m : Mem} {p : Prog} {k : Nat} {seen : List Obs} {ν : Names} {kept : List Call} {M : Mach}

theorem Late.names (hV : Late env m p k seen ν kept M) {y h : Int} (hm : (y, h) ∈ ν.tab) :
    ν.number y = h ∧ 2 ≤ y ∧ y < ν.next ∧ 1 < h ∧ M.uses h := by
  obtain ⟨N, h1, _, ⟨φ, ψ, hp⟩, _⟩ := hV.found
  obtain ⟨K, μ, ps, T, hF, hT, _⟩ := h1.found
  obtain ⟨h', hz⟩ := hT.known_snd hm
  have hr := hT.range _ hz
  obtain ⟨o, ho⟩ := hT.live _ hz
  exact ⟨(hT.number hz).2, hr.1, by rw [← hT.next]; exact hr.2.1, hr.2.2.2, hp.uses ⟨o, hF.has'.2 ⟨_, ho⟩⟩⟩

theorem Late.wf (hV : Late env m p k seen ν kept M) {c : Call} (hcall : p seen = some c) :
    ν.Known c.handles ∧ (c.withHandles ν.number).Wf env M.L := by
  obtain ⟨N, h1, h3, ⟨φ, ψ, hp⟩, _⟩ := hV.found
  obtain ⟨K, μ, ps, T, hF, hT, hop, _⟩ := h1.found
  obtain ⟨hk, hses, hwf, _⟩ := hop 1 c hcall
  have hwf' := hF.wf c (fun hi => hT.same hF hi hk) hses hwf
  rw [hF.inited.trans h3.inited] at hses
  exact ⟨hT.known' hk, hp.wf hV.sane h3 (inSession_numbers hT.number_one' hses) hwf'⟩

theorem Late.now (hV : Late env m p k seen ν kept M) : p.whole.alone env m k = (seen, none) := by
  obtain ⟨N, h1, _⟩ := hV.found
  exact h1.now

theorem Idle.uses {c : Call} (hi : Idle M c) {h : Int} (hh : h ∈ c.handles) : M.uses h := by
  cases hi with
  | type h1 _ => rcases List.mem_singleton.1 hh with rfl; exact ⟨_, h1⟩
  | req h1 _ _ => rcases List.mem_singleton.1 hh with rfl; exact ⟨_, h1⟩

/-- One call kept in mind is made. -/
theorem Late.makeUp_one (hV : Late env m p k seen ν kept M) {i : Nat} {c : Call} (hc : kept[i]? = some c) :
    ∃ M' o, M.answer env c = .ok (M', o) ∧ Late env m p k seen ν (kept.eraseIdx i) M' ∧ M'.mem = M.mem ∧ M'.L.objs.length ≤ M.L.objs.length := by
  have hmem := List.mem_of_getElem? hc
  have hi := hV.idle c hmem
  obtain ⟨h, obj, o, e1, e2, e3, e4, e5, e6⟩ := hi.does (env := env) hV.sane
  obtain ⟨N, h1, h2, ⟨φ, ψ, hp⟩, h4, h5⟩ := hV.found
  have hsub : ∀ d ∈ kept.eraseIdx i, d ∈ kept := fun d hd => List.mem_of_mem_eraseIdx hd
  have hne : ∀ d ∈ kept.eraseIdx i, d ≠ c := fun d hd e => by
    subst e
    obtain ⟨hlt, hget⟩ := List.getElem?_eq_some_iff.1 hc
    obtain ⟨j, hj, hji, hjd⟩ := List.mem_eraseIdx_iff_getElem.1 hd
    exact hji ((List.getElem_inj hV.once).1 (hjd.trans hget.symm))
  refine ⟨_, o, e3, ⟨e6.sane hV.sane, fun d hd => (hV.idle d (hsub d hd)).move hV.sane (fun x hx hxh => ?_) e6, hV.once.sublist (List.eraseIdx_sublist ..), N, h1, h2, ⟨φ, ψ, ?_⟩, h4,
    fun d hd => h5 d (hsub d hd)⟩, rfl, List.length_filter_le ..⟩
  · refine hne d hd ((hV.idle d (hsub d hd)).same hi hV.sane ?_)
    obtain ⟨h', _, _, f1, _⟩ := (hV.idle d (hsub d hd)).does (env := env) hV.sane
    rw [f1] at hx ⊢
    rcases List.mem_singleton.1 hx with rfl
    have hxh : x = h := hxh
    rw [e1, hxh]
  · refine hp.foreign hV.sane h2 (fun x hx hu => ?_) (fun _ h => h.elim) e6
    have hx : x = h := hx
    subst hx
    exact absurd hu (h5 c hmem x (by rw [e1]; exact List.mem_singleton.2 rfl))

theorem Late.makeUp : ∀ (is : List Nat) {kept : List Call} {M : Mach}, Late env m p k seen ν kept M →
    ∃ M' kept', makeUp (fun (M : Mach) c => M.answer env c) is kept M = .ok (M', kept') ∧ Late env m p k seen ν kept' M' ∧ M'.mem = M.mem ∧
      M'.L.objs.length ≤ M.L.objs.length := by
  intro is
  induction is with
  | nil => exact fun h => ⟨_, _, rfl, h, rfl, Nat.le_refl _⟩
  | cons i is ih =>
    intro kept M hV
    unfold MpiSerial.makeUp
    cases hc : kept[i]? with
    | none => exact ih hV
    | some c =>
      obtain ⟨M', o, e1, e2, e3, e4⟩ := hV.makeUp_one hc
      dsimp only
      rw [e1]
      obtain ⟨M'', kept', f1, f2, f3, f4⟩ := ih e2
      exact ⟨M'', kept', f1, f2, f3.trans e3, Nat.le_trans f4 e4⟩

/-- One call, made. -/
theorem Late.plain (hV : Late env m p k seen ν kept M) (hst : env.Steady) (hc : p.whole.Correct env m) {c : Call} (hcall : p seen = some c) :
    M.answer env (c.withHandles ν.number) = .abort exhausted ∨
    (∃ M' o, M.answer env (c.withHandles ν.number) = .ok (M', o) ∧ New M c o ∧
      Late env m p (k + 1) (ν.observe seen c o M'.mem :: seen) (ν.after c o.vals) kept M') ∨
    ((∀ z, M.answer env (c.withHandles ν.number) ≠ .ok z) ∧
      p.whole.alone env m (k + 1) = (seen, (M.answer env (c.withHandles ν.number)).fate)) := by
  obtain ⟨N, h1, h2, h3, h4, h5⟩ := hV.found
  have hl : p.whole.call M.mem (c.withHandles ν.number) = c.withHandles ν.number := by
    cases c <;> rfl
  have key := h1.call hst hc hV.sane h2 h3 h4 (c := c) hcall
  rw [hl] at key
  have hf : ∀ d ∈ kept, ∀ h ∈ d.handles, Foreign M N h := fun d hd h hh => ⟨(hV.idle d hd).uses hh, h5 d hd h hh⟩
  refine key.imp id (Or.imp (fun ⟨M', o, N', e, hW, hN, hT⟩ => ⟨M', o, e, hN, hW.sane, fun d hd => ?_, hV.once, N', hT, hW.sane', hW.part, hW.mem, ?_⟩) id)
  · exact (hV.idle d hd).moves hV.sane (fun h hh hu => hu (hf d hd h hh)) hW.moves
  · exact fun d hd h hh => (hW.kept h (hf d hd h hh)).2

/-- One call, put off. -/
theorem Late.putOff (hV : Late env m p k seen ν kept M) (hst : env.Steady) (hc : p.whole.Correct env m) {c : Call} (hcall : p seen = some c)
    {o : Out} (ho : (c.withHandles ν.number).putOff = some o) :
    Late env m p (k + 1) (ν.observe seen c o M.mem :: seen) (ν.after c o.vals) (c.withHandles ν.number :: kept) M := by
  have hi := Idle.of_wf ho (hV.wf hcall).2
  obtain ⟨h, obj, o', e1, e2, e3, e4, e5, e6⟩ := hi.does (env := env) hV.sane
  rw [e2] at ho
  cases ho
  obtain ⟨N, h1, h2, h3, h4, h5⟩ := hV.found
  have hl : p.whole.call M.mem (c.withHandles ν.number) = c.withHandles ν.number := by
    cases c <;> rfl
  have key := h1.call hst hc hV.sane h2 h3 h4 (c := c) hcall
  rw [hl, e3] at key
  have hf : ∀ d ∈ kept, ∀ h ∈ d.handles, Foreign M N h := fun d hd h hh => ⟨(hV.idle d hd).uses hh, h5 d hd h hh⟩
  rcases key with h' | ⟨M', o', N', e, hW, hN, hT⟩ | ⟨h', _⟩
  · cases h'
  · cases e
    obtain ⟨φ, ψ, hp⟩ := hW.part
    refine ⟨hV.sane, fun d hd => ?_, List.nodup_cons.2 ⟨fun hd => ?_, hV.once⟩, N', hT, hW.sane', ⟨φ, ψ, hp.unrelease hV.sane e4 e5⟩, hW.mem, fun d hd x hx hu => ?_⟩
    · rcases List.mem_cons.1 hd with rfl | hd
      · exact hi
      · exact hV.idle d hd
    · -- it releases what the program still has
      obtain ⟨_, hu⟩ := hW.kept h (hf _ hd h (by rw [e1]; exact List.mem_singleton.2 rfl))
      obtain ⟨⟨ob, hob⟩, _⟩ := hW.kept h (hf _ hd h (by rw [e1]; exact List.mem_singleton.2 rfl))
      exact absurd rfl (of_decide_eq_true (List.mem_filter.1 hob).2)
    · rcases List.mem_cons.1 hd with rfl | hd
      · rw [e1] at hx
        rcases List.mem_singleton.1 hx with rfl
        obtain ⟨ob, hob⟩ := hp.uses hu
        exact absurd rfl (of_decide_eq_true (List.mem_filter.1 hob).2)
      · exact (hW.kept x (hf d hd x hx)).2 hu
  · exact absurd rfl (h' _)

end

theorem Late.run {env : Env} {m : Mem} {p : Prog} (off : List Obs → Bool) (late : List Obs → List Nat) (hst : env.Steady) (hc : p.whole.Correct env m) :
    ∀ (n k : Nat) (seen : List Obs) (ν : Names) (kept : List Call) (M : Mach), Late env m p k seen ν kept M →
    (p.runLateM env off late n seen ν kept M).2 = some (.abort exhausted) ∨ p.runLateM env off late n seen ν kept M = p.whole.alone env m (k + n) := by
  intro n
  induction n with
  | zero => exact fun k seen ν kept M hV => .inr hV.now.symm
  | succ n ih =>
    intro k seen ν kept M hV
    unfold Prog.runLateM Prog.runLate
    cases hcall : p seen with
    | none =>
      right
      obtain ⟨N, h1, _⟩ := hV.found
      exact (h1.idle hcall (n + 1)).symm
    | some c =>
      dsimp only
      obtain ⟨M, kept, e, hV, _⟩ := hV.makeUp (late seen)
      rw [e]
      dsimp only
      cases ho : (if off seen = true then (c.withHandles ν.number).putOff else none) with
      | some o =>
        dsimp only
        have ho : (c.withHandles ν.number).putOff = some o := by
          split at ho
          · exact ho
          · cases ho
        rw [show k + (n + 1) = k + 1 + n by omega]
        exact ih _ _ _ _ _ (hV.putOff hst hc hcall ho)
      | none =>
        dsimp only
        rcases hV.plain hst hc hcall with h | ⟨M', o, h, _, hV'⟩ | ⟨h, h'⟩
        · rw [h]
          exact .inl rfl
        · rw [h]
          dsimp only
          rw [show k + (n + 1) = k + 1 + n by omega]
          exact ih _ _ _ _ _ hV'
        · right
          have hstop : p.whole.alone env m (k + 1 + n) = p.whole.alone env m (k + 1) :=
            runNamed_stopped _ _ _ _ _ _ (by
              show (p.whole.alone env m (k + 1)).2 ≠ none
              rw [h']
              exact Res.fate_ne h)
          rw [show k + (n + 1) = k + 1 + n by omega, hstop, h']
          cases hM : M.answer env (c.withHandles ν.number) with
          | ok z => exact absurd hM (h z)
          | _ => rfl

end MpiSerial
