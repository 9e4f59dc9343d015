import Verif.Proofs.Messages

/-!
# Programs some of whose collectives are messages
-/

set_option linter.unusedSimpArgs false
set_option autoImplicit false

namespace MpiSerial

/-! ## The call and the message -/

section
variable {env : Env} {M : Mach}

theorem displ_s64 {b d x : Int} (h : DisplFits b d (s64 x)) : padd b (displOffset d x) = b + d * s64 x := by
  rw [← displ_eq h, show u64 (s64 x) = u64 x by unfold u64 s64; omega]
  unfold displOffset
  rw [u64_mul_right]

/-- The extent is what the collectives use. -/
theorem displaced_eq {t b d b' : Int} {dt : Typestruct} (ht : M.type env t = .ok dt)
    (h : displaced b d (M.answer env (.typeExtent t)).extent = some b') :
    ∃ e, Type_extent env.cfg dt = .ok e ∧ b' = padd b (displOffset d e) := by
  have ha : M.answer env (.typeExtent t) = M.tell (Type_extent env.cfg dt) := by
    show M.tell (M.type env t >>= _) = _
    rw [ht]
    rfl
  rw [ha] at h
  cases he : Type_extent env.cfg dt with
  | ok e =>
    rw [he] at h
    have h : displaced b d (some (s64 e)) = some b' := h
    unfold displaced at h
    dsimp only at h
    split at h
    · next hf =>
      cases h
      exact ⟨e, rfl, (displ_s64 hf).symm⟩
    · cases h
  | _ => rw [he] at h; cases h

/-- The collective is a move of data; the message is one of the same data. -/
theorem Call.asMessage_copy {c c' : Call} {x g : Int} (hwf : c.Wf env M.L)
    (h : c.asMessage (fun t => (M.answer env (.typeExtent t)).extent) x g = some c') :
    ∃ a n t b k u, c' = .sendrecv a n t 0 g b k u 0 g x .null ∧ IsType env M.L t ∧ IsType env M.L u ∧
      M.answer env c = Mach.quiet (M.copy env a n t b k u) := by
  have tt : ∀ {t}, IsType env M.L t → ∃ d, M.type env t = .ok d := fun ⟨d, hd⟩ => ⟨d, by unfold Mach.type; rw [hd]⟩
  unfold Call.asMessage at h
  split at h <;> try (cases h; done)
  · split at h
    · next hc =>
      cases h
      refine ⟨_, _, _, _, _, _, rfl, hwf.1, hwf.2, ?_⟩
      show (if _ then _ else _) = _
      rw [if_neg hc.1, hc.2]
      rfl
    · cases h
  · split at h
    · next hc =>
      cases h
      refine ⟨_, _, _, _, _, _, rfl, hwf.1, hwf.2, ?_⟩
      show (if _ then _ else _) = _
      rw [if_neg hc.1, hc.2]
      rfl
    · cases h
  · split at h
    · next hc =>
      cases h
      refine ⟨_, _, _, _, _, _, rfl, hwf.1, hwf.2, ?_⟩
      show (if _ then _ else _) = _
      rw [if_neg hc]
    · cases h
  · next d _ u root _ =>
    split at h
    · next hc =>
      obtain ⟨b', hb, rfl⟩ := Option.map_eq_some_iff.1 h
      obtain ⟨du, hu⟩ := tt hwf.2
      obtain ⟨e, he, rfl⟩ := displaced_eq hu hb
      refine ⟨_, _, _, _, _, _, rfl, hwf.1, hwf.2, ?_⟩
      show (if _ then _ else _) = _
      rw [if_neg hc.1, hc.2, hu]
      show Mach.quiet (Mach.offset env _ du >>= _) = _
      unfold Mach.offset
      rw [he]
      rfl
    · cases h
  · next d _ u _ =>
    split at h
    · next hc =>
      obtain ⟨b', hb, rfl⟩ := Option.map_eq_some_iff.1 h
      obtain ⟨du, hu⟩ := tt hwf.2
      obtain ⟨e, he, rfl⟩ := displaced_eq hu hb
      refine ⟨_, _, _, _, _, _, rfl, hwf.1, hwf.2, ?_⟩
      show (if _ then _ else _) = _
      rw [if_neg hc, hu]
      show Mach.quiet (Mach.offset env _ du >>= _) = _
      unfold Mach.offset
      rw [he]
      rfl
    · cases h
  · split at h
    · next hc =>
      obtain ⟨b', hb, rfl⟩ := Option.map_eq_some_iff.1 h
      obtain ⟨du, hu⟩ := tt hwf.1
      obtain ⟨e, he, rfl⟩ := displaced_eq hu hb
      refine ⟨_, _, _, _, _, _, rfl, hwf.1, hwf.2, ?_⟩
      show (if _ then _ else _) = _
      rw [if_neg hc.1, hc.2, hu]
      show Mach.quiet (Mach.offset env _ du >>= _) = _
      unfold Mach.offset
      rw [he]
      rfl
    · cases h
  · split at h
    · next hc =>
      cases h
      refine ⟨_, _, _, _, _, _, rfl, hwf, hwf, ?_⟩
      rw [hc]
      rfl
    · cases h
  · split at h
    · next hc =>
      cases h
      refine ⟨_, _, _, _, _, _, rfl, hwf, hwf, ?_⟩
      show (if _ then _ else _) = _
      rw [if_neg hc]
    · cases h
  · cases h
    exact ⟨_, _, _, _, _, _, rfl, hwf, hwf, rfl⟩
  · cases h
    exact ⟨_, _, _, _, _, _, rfl, hwf, hwf, rfl⟩
  · cases h
    exact ⟨_, _, _, _, _, _, rfl, hwf.1, hwf.2, rfl⟩
  · obtain ⟨a', ha, h⟩ := Option.bind_eq_some_iff.1 h
    obtain ⟨b', hb, rfl⟩ := Option.map_eq_some_iff.1 h
    obtain ⟨dt, ht⟩ := tt hwf.1
    obtain ⟨du, hu⟩ := tt hwf.2
    obtain ⟨e, he, rfl⟩ := displaced_eq ht ha
    obtain ⟨e', he', rfl⟩ := displaced_eq hu hb
    refine ⟨_, _, _, _, _, _, rfl, hwf.1, hwf.2, ?_⟩
    show Mach.quiet (M.type env _ >>= fun d => Type_extent env.cfg d >>= fun e => M.type env _ >>= fun d' => Type_extent env.cfg d' >>= fun e' => _) = _
    rw [ht, hu]
    simp only [Res.ok_bind]
    rw [he, he']
    rfl
  · split at h
    · next hc =>
      cases h
      refine ⟨_, _, _, _, _, _, rfl, hwf.1 _ (List.mem_cons_self ..), hwf.2 _ (List.mem_cons_self ..), ?_⟩
      have hp : ∀ {p d : Int}, IsAddress (p + d) → padd p d = p + d := fun h => by unfold padd; omega
      rw [← hp hc.1, ← hp hc.2]
      rfl
    · cases h

end

theorem Call.asMessage_congr {env : Env} {L : Ledger} {c : Call} {f g : Int → Option Int} (hwf : c.Wf env L) (h : ∀ t, IsType env L t → f t = g t)
    (x tag : Int) : c.asMessage f x tag = c.asMessage g x tag := by
  cases c with
  | gatherv a n t b ks ds u root _ => cases ks <;> cases ds <;> simp only [Call.asMessage, h _ hwf.2]
  | allgatherv a n t b ks ds u _ => cases ks <;> cases ds <;> simp only [Call.asMessage, h _ hwf.2]
  | scatterv a ns ds t b k u root _ => cases ns <;> cases ds <;> simp only [Call.asMessage, h _ hwf.1]
  | alltoallv a ns ds t b ks es u _ => cases ns <;> cases ds <;> cases ks <;> cases es <;> simp only [Call.asMessage, h _ hwf.1, h _ hwf.2]
  | reduceScatter a b ns t op _ => cases ns <;> rfl
  | alltoallw a ns ds ts b ks es us _ =>
    cases ns <;> cases ds <;> cases ts <;> cases ks <;> cases es <;> cases us <;> rfl
  | _ => rfl

theorem Call.asMessage_quiet {f : Int → Option Int} {c c' : Call} {x g : Int} (h : c.asMessage f x g = some c') : c.posts = none ∧ c.makes = false ∧ c.requests = [] := by
  unfold Call.asMessage at h
  split at h <;> first | exact ⟨rfl, rfl, rfl⟩ | cases h

/-! ## What is over does not matter -/

theorem Over.getElem? {M M' : Mach} (h : Over M M') {i : Nat} {o : Op} (hi : M.L.ops[i]? = some o) : M'.L.ops[i]? = some o := by
  obtain ⟨os, e, _⟩ := h.ops
  rw [e, List.getElem?_append_left (List.getElem?_eq_some_iff.1 hi).1]
  exact hi

theorem Over.pending {M M' : Mach} (h : Over M M') {i : Nat} {o : Op} (hi : M'.L.ops[i]? = some o) (hst : o.st = .pending) : M.L.ops[i]? = some o := by
  obtain ⟨os, e, hos⟩ := h.ops
  rw [e] at hi
  by_cases hl : i < M.L.ops.length
  · rw [List.getElem?_append_left hl] at hi
    exact hi
  · rw [List.getElem?_append_right (by omega)] at hi
    exact absurd hst (hos o (List.mem_of_getElem? hi))

theorem Over.part {φ ψ : Nat → Nat} {w : Bool} {M M' N : Mach} (h : Over M M') (hp : Part φ ψ w M N) : Part φ ψ w M' N where
  objs y o hm := by rw [h.objs]; exact hp.objs y o hm
  ops i o hi := by
    obtain ⟨c, h1, h2⟩ := hp.ops i o hi
    exact ⟨c, h.getElem? h1, h2⟩
  mono := hp.mono
  inj := hp.inj
  bound c hc := by rw [h.ncomms]; exact hp.bound c hc
  own j o c hj hst := hp.own j o c (h.pending hj hst) hst
  mine := hp.mine
  only y c hy := hp.only y c (h.objs ▸ hy)
  typed j o y hj hst hy := hp.typed j o y (h.pending hj hst) hst (h.objs ▸ hy)

theorem Over.private {M M' : Mach} (h : Over M M') {x : Int} (hx : Private M x) : Private M' x := by
  obtain ⟨p, h1, h2, h3⟩ := hx
  refine ⟨p, by rw [h.objs]; exact h1, fun y hy => h2 y (h.objs ▸ hy), fun o ho hst => ?_⟩
  obtain ⟨i, hi⟩ := List.getElem?_of_mem ho
  exact h3 o (List.mem_of_getElem? (h.pending hi hst)) hst

/-! ## One call -/

/-- After `k` calls the program has seen `seen`; `x` is the private communicator. -/
structure Via (env : Env) (m : Mem) (p : Prog) (x : Int) (k : Nat) (seen : List Obs) (ν : Names) (M : Mach) : Prop where
  sane : Sane M
  hidden : Private M x
  found : ∃ N, Track env m p.whole k seen ν N ∧ Sane N ∧ (∃ φ ψ, Part φ ψ true M N) ∧ N.mem = M.mem ∧ ¬ N.uses x

section
variable {env : Env} {m : Mem} {p : Prog} {x : Int} {k : Nat} {seen : List Obs} {ν : Names} {M : Mach}

theorem Via.names (hV : Via env m p x k seen ν M) {y h : Int} (hm : (y, h) ∈ ν.tab) :
    ν.number y = h ∧ 2 ≤ y ∧ y < ν.next ∧ 1 < h ∧ M.uses h := by
  obtain ⟨N, h1, _, ⟨φ, ψ, hp⟩, _⟩ := hV.found
  obtain ⟨K, μ, ps, T, hF, hT, _⟩ := h1.found
  obtain ⟨h', hz⟩ := hT.known_snd hm
  have hr := hT.range _ hz
  obtain ⟨o, ho⟩ := hT.live _ hz
  exact ⟨(hT.number hz).2, hr.1, by rw [← hT.next]; exact hr.2.1, hr.2.2.2, hp.uses ⟨o, hF.has'.2 ⟨_, ho⟩⟩⟩

theorem Via.wf (hV : Via env m p x k seen ν M) {c : Call} (hcall : p seen = some c) :
    ν.Known c.handles ∧ (c.withHandles ν.number).Wf env M.L := by
  obtain ⟨N, h1, h3, ⟨φ, ψ, hp⟩, _⟩ := hV.found
  obtain ⟨K, μ, ps, T, hF, hT, hop, _⟩ := h1.found
  obtain ⟨hk, hses, hwf, _⟩ := hop 1 c hcall
  have hwf' := hF.wf c (fun hi => hT.same hF hi hk) hses hwf
  rw [hF.inited.trans h3.inited] at hses
  exact ⟨hT.known' hk, hp.wf hV.sane h3 (inSession_numbers hT.number_one' hses) hwf'⟩

theorem Private.uses (h : Private M x) : M.uses x := by
  obtain ⟨p, h1, _⟩ := h
  exact ⟨_, h1⟩

/-- One call, as it is. -/
theorem Via.plain (hV : Via env m p x k seen ν M) (hst : env.Steady) (hc : p.whole.Correct env m) {c : Call} (hcall : p seen = some c) :
    M.answer env (c.withHandles ν.number) = .abort exhausted ∨
    (∃ M' o, M.answer env (c.withHandles ν.number) = .ok (M', o) ∧ New M c o ∧
      Via env m p x (k + 1) (ν.observe seen c o M'.mem :: seen) (ν.after c o.vals) M') ∨
    ((∀ z, M.answer env (c.withHandles ν.number) ≠ .ok z) ∧
      p.whole.alone env m (k + 1) = (seen, (M.answer env (c.withHandles ν.number)).fate)) := by
  obtain ⟨N, h1, h2, h3, h4, h5⟩ := hV.found
  have hl : p.whole.call M.mem (c.withHandles ν.number) = c.withHandles ν.number := by
    cases c <;> rfl
  have key := h1.call hst hc hV.sane h2 h3 h4 (c := c) hcall
  rw [hl] at key
  refine key.imp id (Or.imp (fun ⟨M', o, N', e, hW, hN, hT⟩ => ⟨M', o, e, hN, hW.sane, ?_, N', hT, hW.sane', hW.part, hW.mem, ?_⟩) id)
  · have hf : Foreign M N x := ⟨hV.hidden.uses, h5⟩
    exact hV.hidden.moves hV.sane (fun h => h hf) (fun h => h.1 hf) hW.moves
  · exact (hW.kept x ⟨hV.hidden.uses, h5⟩).2

/-- One call, as it is or as a message. -/
theorem Via.turn (hV : Via env m p x k seen ν M) (hst : env.Steady) (hc : p.whole.Correct env m) {c : Call} (hcall : p seen = some c)
    (tag : Option Int) {c' : Call} (hc' : (c.withHandles ν.number).via (fun t => (M.answer env (.typeExtent t)).extent) x tag = c') :
    M.answer env c' = .abort exhausted ∨
    (∃ M' o, M.answer env c' = .ok (M', o) ∧ New M c o ∧
      Via env m p x (k + 1) (ν.observe seen c o M'.mem :: seen) (ν.after c o.vals) M') ∨
    ((∀ z, M.answer env c' ≠ .ok z) ∧ p.whole.alone env m (k + 1) = (seen, (M.answer env c').fate)) := by
  have hplain := hV.plain hst hc hcall
  unfold Call.via at hc'
  cases hm : (tag.bind fun g => (c.withHandles ν.number).asMessage (fun t => (M.answer env (.typeExtent t)).extent) x g) with
  | none =>
    rw [hm] at hc'
    subst hc'
    exact hplain
  | some d =>
    rw [hm] at hc'
    have hc' : d = c' := hc'
    subst hc'
    obtain ⟨g, _, hg⟩ := Option.bind_eq_some_iff.1 hm
    obtain ⟨a, n, t, b, k', u, rfl, ht, hu, hans⟩ := Call.asMessage_copy (hV.wf hcall).2 hg
    rw [hans] at hplain
    rcases Mach.message hV.sane hV.hidden ht hu g a n b k' with hmsg | ⟨M1, M2, e1, e2, hO, hS⟩ | ⟨e1, e2, e3⟩
    · exact .inl hmsg
    · rw [e1] at hplain
      have hq : Mach.quiet (.ok M1) = .ok (M1, ⟨[], []⟩) := rfl
      rw [hq] at hplain
      rcases hplain with h | ⟨M', o, h, hN, hV'⟩ | ⟨h, _⟩
      · cases h
      · cases h
        refine .inr (.inl ⟨M2, _, e2, hN, hS, hO.private hV'.hidden, ?_⟩)
        obtain ⟨N, h1, h2, ⟨φ, ψ, h3⟩, h4, h5⟩ := hV'.found
        exact ⟨N, by rw [hO.mem]; exact h1, h2, ⟨φ, ψ, hO.part h3⟩, by rw [hO.mem]; exact h4, h5⟩
      · exact absurd rfl (h _)
    · have hq : (Mach.quiet (M.copy env a n t b k' u)).fate = (M.copy env a n t b k' u).fate := by
        cases hcp : M.copy env a n t b k' u <;> first | rfl | exact absurd hcp (e1 _)
      rcases hplain with h | ⟨M', o, h, _⟩ | ⟨_, h⟩
      · left
        rw [h] at hq
        rw [← hq] at e3
        revert e3
        cases M.answer env (.sendrecv a n t 0 g b k' u 0 g x .null) <;> intro e3 <;> simp only [Res.fate, Option.some.injEq, Fate.abort.injEq, reduceCtorEq] at e3
        rw [e3]
      · cases hcp : M.copy env a n t b k' u with
        | ok M1 => exact absurd hcp (e1 _)
        | _ => rw [hcp] at h; cases h
      · refine .inr (.inr ⟨e2, ?_⟩)
        rw [h, hq, e3]

theorem Via.now (hV : Via env m p x k seen ν M) : p.whole.alone env m k = (seen, none) := by
  obtain ⟨N, h1, _⟩ := hV.found
  exact h1.now

end

/-! ## All calls -/

/-- A program that was stopped does nothing more. -/
theorem runNamed_stopped {env : Env} {A : Strategy} {p : Prog} : ∀ (n j k : Nat) (seen : List Obs) (ν : Names) (M : Mach),
    (p.runNamed env A n k seen ν M).2 ≠ none → p.runNamed env A (n + j) k seen ν M = p.runNamed env A n k seen ν M := by
  intro n
  induction n with
  | zero => exact fun _ _ _ _ _ h => absurd rfl h
  | succ n ih =>
    intro j k seen ν M h
    rw [show n + 1 + j = n + j + 1 by omega]
    unfold Prog.runNamed at h ⊢
    cases hc : p seen with
    | none => rfl
    | some c =>
      rw [hc] at h
      dsimp only at h ⊢
      cases ha : (M.with A k).answer env (c.withHandles ν.number) with
      | ok z =>
        obtain ⟨M', o⟩ := z
        rw [ha] at h
        exact ih _ _ _ _ _ h
      | _ => rfl

theorem Res.fate_ne {α : Type} {r : Res α} (h : ∀ z, r ≠ .ok z) : r.fate ≠ none := by
  cases r with
  | ok z => exact absurd rfl (h z)
  | _ => exact nofun

theorem Via.run {env : Env} {m : Mem} {p : Prog} {x : Int} (pick : List Obs → Option Int) (hst : env.Steady) (hc : p.whole.Correct env m) :
    ∀ (n k : Nat) (seen : List Obs) (ν : Names) (M : Mach), Via env m p x k seen ν M →
    (p.runVia env pick x n seen ν M).2 = some (.abort exhausted) ∨ p.runVia env pick x n seen ν M = p.whole.alone env m (k + n) := by
  intro n
  induction n with
  | zero => exact fun k seen ν M hV => .inr hV.now.symm
  | succ n ih =>
    intro k seen ν M hV
    unfold Prog.runVia
    cases hcall : p seen with
    | none =>
      right
      obtain ⟨N, h1, _⟩ := hV.found
      exact (h1.idle hcall (n + 1)).symm
    | some c =>
      dsimp only
      rcases hV.turn hst hc hcall (pick seen) rfl with h | ⟨M', o, h, _, hV'⟩ | ⟨h, h'⟩
      · rw [h]
        exact .inl rfl
      · rw [h]
        dsimp only
        rw [show k + (n + 1) = k + 1 + n by omega]
        exact ih _ _ _ _ hV'
      · right
        have hstop : p.whole.alone env m (k + 1 + n) = p.whole.alone env m (k + 1) :=
          runNamed_stopped _ _ _ _ _ _ (by
            show (p.whole.alone env m (k + 1)).2 ≠ none
            rw [h']
            exact Res.fate_ne h)
        rw [show k + (n + 1) = k + 1 + n by omega, hstop, h']
        cases hM : M.answer env ((c.withHandles ν.number).via (fun t => (M.answer env (.typeExtent t)).extent) x (pick seen)) with
        | ok z => exact absurd hM (h z)
        | _ => rfl

end MpiSerial
