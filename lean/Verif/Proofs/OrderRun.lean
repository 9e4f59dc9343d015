import Verif.Proofs.Order

/-!
# Completion step by step: the library
-/

set_option linter.unusedSimpArgs false
set_option autoImplicit false

namespace MpiSerial

open Res (Rel)

namespace Order

theorem wf_set {L : Ledger} : ∀ {rs : List Int} (i : Nat), WfReqs L rs → WfReqs L (rs.set i 0)
  | [], _, h => h
  | _ :: _, 0, h => ⟨.inl rfl, h.2⟩
  | r :: rs, i + 1, h => by
    refine ⟨?_, wf_set i h.2⟩
    rcases h.1 with h0 | ⟨h1, h2⟩
    · exact .inl h0
    · by_cases h0 : r = 0
      · exact .inl h0
      · exact .inr ⟨h1, fun hm => (List.mem_or_eq_of_mem_set hm).elim h2 h0⟩

theorem wf_set_not {L : Ledger} {h : Int} (h0 : h ≠ 0) {rs : List Int} {i : Nat} (hw : WfReqs L rs) (hi : rs[i]? = some h) : h ∉ rs.set i 0 := by
  intro hm
  obtain ⟨j, hj⟩ := List.mem_iff_getElem?.1 hm
  by_cases hij : i = j
  · subst hij
    rw [List.getElem?_set_self (List.getElem?_eq_some_iff.1 hi).1] at hj
    exact h0 (Option.some.inj hj).symm
  · rw [List.getElem?_set_ne hij] at hj
    exact h0 (wf_apart hw i j hij h hi hj)

/-- Statuses that agree in what completion calls do not write, and in everything at the indices in `b`. -/
def Pts (b : Nat → Prop) (ps qs : List StPtr) : Prop :=
  ps.length = qs.length ∧ ∀ i p q, ps[i]? = some p → qs[i]? = some q → StSame (b i) p q

theorem Pts.refl (b : Nat → Prop) (ps : List StPtr) : Pts b ps ps :=
  ⟨rfl, fun i p q h1 h2 => by rw [h1] at h2; cases h2; exact .refl _ _⟩

theorem Pts.set {b : Nat → Prop} {ps qs : List StPtr} (h : Pts b ps qs) (i : Nat) {p q : StPtr} (hs : StSame (b i) p q) :
    Pts b (ps.set i p) (qs.set i q) := by
  refine ⟨by rw [List.length_set, List.length_set]; exact h.1, fun j p' q' h1 h2 => ?_⟩
  by_cases hij : i = j
  · subst hij
    have hl := (List.getElem?_eq_some_iff.1 h1).1
    have hl' := (List.getElem?_eq_some_iff.1 h2).1
    rw [List.length_set] at hl hl'
    rw [List.getElem?_set_self hl] at h1
    rw [List.getElem?_set_self hl'] at h2
    cases h1
    cases h2
    exact hs
  · rw [List.getElem?_set_ne hij] at h1 h2
    exact h.2 j _ _ h1 h2

theorem Pts.kept : ∀ {b : Nat → Prop} {ps qs : List StPtr}, Pts b ps qs → ps.flatMap StPtr.kept = qs.flatMap StPtr.kept
  | _, [], [], _ => rfl
  | _, [], _ :: _, h => nomatch h.1
  | _, _ :: _, [], h => nomatch h.1
  | b, p :: ps, q :: qs, h => by
    rw [List.flatMap_cons, List.flatMap_cons, (h.2 0 p q rfl rfl).kept,
      Pts.kept (b := fun i => b (i + 1)) (ps := ps) (qs := qs) ⟨Nat.succ.inj h.1, fun i p q h1 h2 => h.2 (i + 1) p q h1 h2⟩]

theorem Pts.eq {b : Nat → Prop} {ps qs : List StPtr} (h : Pts b ps qs) (hb : ∀ i, b i) : ps = qs := by
  refine List.ext_getElem? fun i => ?_
  cases hp : ps[i]? with
  | none => rw [List.getElem?_eq_none_iff, h.1] at hp; rw [List.getElem?_eq_none_iff.2 hp]
  | some p =>
    obtain ⟨hl, _⟩ := List.getElem?_eq_some_iff.1 hp
    rw [h.1] at hl
    rw [List.getElem?_eq_getElem hl, (h.2 i p _ hp (List.getElem?_eq_getElem hl)).eq (hb i)]

section
variable {env : Env} {s : Sys} {M : Mach}

theorem zero_recv (hs : Sim env s M) : IsRecv M.L 0 := fun i o hm _ => by
  obtain ⟨A, lst, hi⟩ := hs.reach.inv
  have := hi.hst.pos (mem_keys hm)
  omega

/-- The waits on the library and on the machine. -/
theorem waits_sim : ∀ (is : List Nat) (s : Sys) (M : Mach) (rs : List Int) (b : Nat → Prop) (ps qs : List StPtr), Sim env s M →
    WfReqs M.L rs → (∀ i, b i → ∀ x, rs[i]? = some x → IsRecv M.L x) → Pts b ps qs →
    ((Engine.lib env).waits is s rs ps).Rel (fun x y => DoneM env s M x.1 y.1 ∧ x.2.1 = y.2.1 ∧ Pts b x.2.2 y.2.2 ∧
      ∀ i ∈ is, ∀ h, rs[i]? = some h → h ≠ 0 → ∀ j, (h, Obj.req j) ∉ y.1.L.objs) ((Engine.mach env).waits is M rs qs)
  | [], _, _, _, _, _, _, hs, _, _, hp => ⟨.refl hs, rfl, hp, fun _ h => (List.not_mem_nil h).elim⟩
  | i :: is, s, M, rs, b, ps, qs, hs, hw, hb, hp => by
    rw [Engine.waits, Engine.waits]
    cases hr : rs[i]? with
    | none => unfold rd; rw [hr]; rfl
    | some h =>
      have e1 : rd rs i = .ok h := by unfold rd; rw [hr]
      rw [e1, Res.ok_bind, Res.ok_bind]
      cases hq : qs[i]? with
      | none =>
        have : ps[i]? = none := by rw [List.getElem?_eq_none_iff, hp.1, ← List.getElem?_eq_none_iff]; exact hq
        unfold rd
        rw [hq, this]
        rfl
      | some q =>
        obtain ⟨hl, _⟩ := List.getElem?_eq_some_iff.1 hq
        rw [← hp.1] at hl
        have hpp := List.getElem?_eq_getElem hl
        generalize ps[i] = p at hpp
        have e2 : rd qs i = .ok q := by unfold rd; rw [hq]
        have e3 : rd ps i = .ok p := by unfold rd; rw [hpp]
        rw [e2, e3, Res.ok_bind, Res.ok_bind]
        have l1 : (Engine.lib env) s (.wait h p) = MPI_Wait s h p >>= fun x => Res.ok (x.1, Out.ofDone [x.2.1] [x.2.2]) := rfl
        have l2 : (Engine.mach env) M (.wait h q) = M.wait h q >>= fun x => Res.ok (x.1, Out.ofDone [x.2.1] [x.2.2]) := rfl
        rw [l1, l2, Res.bind_bind', Res.bind_bind']
        refine (wait_sim (b := b i) hs (wf_live hw h (List.mem_of_getElem? hr)) (fun hb' => hb i hb' h hr) (hp.2 i p q hpp hq)).bind
          fun x y _ hy hW => ?_
        rw [Res.ok_bind, Res.ok_bind]
        have hdone : DoneM env s M x.1 y.1 := .of hW.steps hW.sim hW.ledger
        have hreq : y.2.1 = 0 := by
          unfold Mach.wait at hy
          obtain ⟨r, h1, hy⟩ := Res.bind_eq_ok.1 hy
          split at hy
          · cases hy
          · next hf =>
            cases hy
            unfold Mach.test at h1
            split at h1
            · obtain ⟨_, _, h1⟩ := Res.bind_eq_ok.1 h1; cases h1; rfl
            · obtain ⟨_, _, h1⟩ := Res.bind_eq_ok.1 h1
              split at h1
              · cases h1; exact absurd rfl hf
              · obtain ⟨_, _, h1⟩ := Res.bind_eq_ok.1 h1; cases h1; rfl
        show Rel _ ((Engine.lib env).waits is x.1 (rs.set i x.2.1) (ps.set i x.2.2)) ((Engine.mach env).waits is y.1 (rs.set i y.2.1) (qs.set i y.2.2))
        rw [hW.request, hreq]
        have hw' : WfReqs y.1.L (rs.set i 0) := by
          rcases hW.ledger with he | ⟨he, h0⟩
          · rw [he]; exact wf_set i hw
          · rw [he]; exact (wf_set i hw).release fun _ => wf_set_not h0 hw hr
        have hb' : ∀ j, b j → ∀ x, (rs.set i 0)[j]? = some x → IsRecv y.1.L x := fun j hbj z hz => by
          by_cases hij : i = j
          · subst hij
            rw [List.getElem?_set_self (List.getElem?_eq_some_iff.1 hr).1] at hz
            cases hz
            exact zero_recv hW.sim
          · rw [List.getElem?_set_ne hij] at hz
            have := hb j hbj z hz
            rcases hW.ledger with he | ⟨he, _⟩
            · rw [he]; exact this
            · rw [he]; exact fun k o h1 h2 => this k o (mem_release.1 h1).1 h2
        refine (waits_sim is x.1 y.1 (rs.set i 0) b _ _ hW.sim hw' hb' (hp.set i hW.status)).mono fun u v _ _ ⟨k1, k2, k3, k4⟩ => ?_
        refine ⟨hdone.trans k1, k2, k3, fun j hj g hg hg0 k hm => ?_⟩
        have hgone : g = h → False := fun e => by
          subst e
          have := k1.olds _ _ hm
          rw [hW.gone hg0] at this
          exact (mem_release.1 this).2 rfl
        by_cases hij : i = j
        · subst hij
          rw [hr] at hg
          exact hgone (Option.some.inj hg).symm
        · have hj' : j ∈ is := (List.mem_cons.1 hj).resolve_left (Ne.symm hij)
          exact k4 j hj' g (by rw [List.getElem?_set_ne hij]; exact hg) hg0 k hm

/-- Every call, step by step. -/
theorem steps_sim (hs : Sim env s M) (hrm : Room M.L) (c : Call) (hc : c.Wf env M.L) {order : Nat → List Nat} (ho : ∀ n, (order n).Perm (List.range n)) :
    ((Engine.lib env).inSteps order s c).Rel (AnsM env s M c.posts (c.onlyReceives M.L)) ((Engine.mach env).inSteps order M c) := by
  cases c with
  | waitall k rs sts =>
    unfold Engine.inSteps
    dsimp only
    refine (waits_sim (order rs.length) s M rs (fun _ => Call.onlyReceives M.L (.waitall k rs sts)) _ _ hs hc.2
      (fun _ hb x hx => hb x (List.mem_of_getElem? hx)) (.refl _ _)).bind fun x y _ _ ⟨h1, h2, h3, _⟩ => ?_
    refine doneM h1.goes h2 ?_ fun hb => ?_
    · cases sts with
      | none => rfl
      | some l => unfold StArr.back; dsimp only; rw [List.flatMap_append, List.flatMap_append, h3.kept, h3.1]
    · rw [h3.eq fun _ => hb]
  | sendrecv b n t d g b' n' t' d' g' c st =>
    unfold Engine.inSteps
    dsimp only
    have l1 : (Engine.lib env) s (.irecv b' n' t' d' g' c) = MPI_Irecv env s b' n' t' d' g' c >>= fun x => Res.ok (x.1, Out.int x.2) := rfl
    have l2 : (Engine.mach env) M (.irecv b' n' t' d' g' c) = M.irecv env b' n' t' d' g' c >>= fun x => Res.ok (x.1, Out.int x.2) := rfl
    rw [l1, l2, Res.bind_bind', Res.bind_bind']
    refine (irecv_sim hs b' n' g' hc.2 (by have := hrm.2.2; omega)).bind fun x y _ _ h => ?_
    rw [Res.ok_bind, Res.ok_bind]
    dsimp only
    have l3 : (Engine.lib env) x.1 (.isend b n t d g c) = MPI_Isend env x.1 b n t d g c >>= fun x => Res.ok (x.1, Out.int x.2) := rfl
    have l4 : (Engine.mach env) y.1 (.isend b n t d g c) = y.1.isend env b n t d g c >>= fun x => Res.ok (x.1, Out.int x.2) := rfl
    rw [l3, l4, Res.bind_bind', Res.bind_bind']
    refine (isend_sim h.sim b n g (hc.1.keep hs.reach.nodup h.sim.reach.nodup h.keeps) (by have := h.room.2; have := hrm.2.2; omega)).bind
      fun u v _ _ h2 => ?_
    rw [Res.ok_bind, Res.ok_bind]
    show Rel _ ((Engine.lib env).waits (order 2) u.1 [x.2, u.2] [st, .null] >>= fun z => Res.ok (z.1, (⟨(z.2.2.headD st).vals, []⟩ : Out)))
      ((Engine.mach env).waits (order 2) v.1 [y.2, v.2] [st, .null] >>= fun z => Res.ok (z.1, (⟨(z.2.2.headD st).vals, []⟩ : Out)))
    rw [← h.val, ← h2.val]
    obtain ⟨i, o, h3, h4, h5⟩ := h.live
    have h6 := h2.keeps _ h3
    obtain ⟨o', h7, h8⟩ := h2.kinds i o h4
    obtain ⟨i2, o2, h9, _⟩ := h2.live
    have hne : x.2 ≠ u.2 := fun e => h2.fresh (e ▸ mem_keys h3)
    have hwf : WfReqs v.1.L [x.2, u.2] := ⟨.inr ⟨⟨i, h6⟩, by simpa using hne⟩, .inr ⟨⟨i2, h9⟩, List.not_mem_nil⟩, trivial⟩
    refine (waits_sim (order 2) u.1 v.1 [x.2, u.2] (fun i => i = 0) _ _ h2.sim hwf ?_ (.refl _ [st, .null])).bind fun z w _ _ ⟨k1, k2, k3, k4⟩ => ?_
    · rintro _ rfl z hz i' o'' g9 g10
      cases hz
      have := nodup_fst_unique h2.sim.reach.nodup h6 g9
      cases this
      rw [h7] at g10
      cases g10
      rw [h8, h5]
    · have hmem : ∀ i, i < 2 → i ∈ order 2 := fun i hi => (ho 2).mem_iff.2 (List.mem_range.2 hi)
      have hgoes : GoesM env s M z.1 w.1 := by
        obtain ⟨g1, g2⟩ := h.room
        obtain ⟨g3, g4⟩ := h2.room
        obtain ⟨g5, g6⟩ := k1.room
        refine ⟨(h.steps.trans h2.steps).trans k1.steps, k1.sim, ⟨by omega, by omega⟩, fun h' i' hm => ?_⟩
        have q1 := k1.olds _ _ hm
        rcases h2.news _ _ q1 with rfl | q2
        · exact absurd hm (k4 1 (hmem 1 (by decide)) _ rfl h2.nonzero _)
        · rcases h.news _ _ q2 with rfl | q3
          · exact absurd hm (k4 0 (hmem 0 (by decide)) _ rfl h.nonzero _)
          · exact q3
      have hst : z.2.2.headD st = w.2.2.headD st := by
        obtain ⟨hl, hk⟩ := k3
        cases hz : z.2.2 with
        | nil => rw [hz] at hl; rw [List.eq_nil_of_length_eq_zero hl.symm]
        | cons p ps =>
          cases hw : w.2.2 with
          | nil => rw [hz, hw] at hl; cases hl
          | cons q qs => exact (hk 0 p q (by rw [hz]; rfl) (by rw [hw]; rfl)).eq rfl
      rw [hst]
      exact hgoes.ans
  | _ => exact Call.sim hs hrm _ hc

end
end Order
end MpiSerial
