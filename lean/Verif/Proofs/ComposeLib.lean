import Verif.Proofs.ComposeRun
import Verif.Props.Opaque

/-!
# Parts that take turns: the library
-/

set_option linter.unusedSimpArgs false
set_option autoImplicit false

namespace MpiSerial

open Res (Rel Sub)

namespace Part
variable {φ ψ : Nat → Nat} {w : Bool} {M N : Mach} (hp : Part φ ψ w M N) (hs : Sane M) (hn : Sane N) {env : Env}

section
include hp

theorem isComm {h : Int} (hc : IsComm N.L h) : IsComm M.L h := by
  obtain ⟨c, hc⟩ := hc
  exact ⟨_, hp.objs _ _ hc⟩

theorem isReq {h : Int} (hc : ∃ i, (h, Obj.req i) ∈ N.L.objs) : ∃ i, (h, Obj.req i) ∈ M.L.objs := by
  obtain ⟨c, hc⟩ := hc
  exact ⟨_, hp.objs _ _ hc⟩

theorem wfReqs : ∀ {rs : List Int}, WfReqs N.L rs → WfReqs M.L rs
  | [], _ => trivial
  | _ :: _, h => ⟨h.1.imp id fun h => ⟨hp.isReq h.1, h.2⟩, wfReqs h.2⟩

include hs

theorem isType {t : Int} (h : IsType env N.L t) : IsType env M.L t := by
  obtain ⟨d, hd⟩ := h
  refine ⟨d, ?_⟩
  rw [desc_obj] at hd ⊢
  by_cases h0 : t < 0
  · rw [if_pos h0] at hd ⊢
    exact hd
  · rw [if_neg h0] at hd ⊢
    cases ho : N.obj t with
    | none => rw [ho] at hd; cases hd
    | some o =>
      rw [ho] at hd
      rw [hp.obj hs ho]
      cases o <;> exact hd

theorem p2p {t d c : Int} (h : P2PArgs env N.L t d c) : P2PArgs env M.L t d c := ⟨hp.isType hs h.1, h.2.imp hp.isComm id⟩

include hn

/-- Well formed by the account of the part, well formed by the account of all. -/
theorem wf {c : Call} (hi : c.inSession true) (h : c.Wf env N.L) : c.Wf env M.L := by
  have ty : ∀ {t}, IsType env N.L t → IsType env M.L t := fun h => hp.isType hs h
  cases c with
  | commFree h' =>
    obtain ⟨c, h1, h2⟩ := h
    refine ⟨ψ c, hp.objs _ _ h1, fun o ho hst hcid => ?_⟩
    obtain ⟨j, hj⟩ := List.getElem?_of_mem ho
    have hc0 : c ≠ 0 := fun e => hi.2 (hn.first _ (e ▸ h1))
    have hlt := hn.comms _ _ h1
    obtain ⟨i, hil, hij⟩ := hp.own j o c hj hst hlt (.inr hc0) hcid
    obtain ⟨o', ho'⟩ : ∃ o', N.L.ops[i]? = some o' := ⟨_, List.getElem?_eq_getElem hil⟩
    obtain ⟨d, hd1, hd2⟩ := hp.ops i o' ho'
    rw [hij, hj] at hd1
    cases hd1
    have hpend := OpSt.at_pending.1 hst
    have hm := List.mem_of_getElem? ho'
    refine h2 o' hm hpend (hp.inj _ _ (hn.cids _ hm hpend) hlt ?_)
    rw [← hd2 hpend]
    exact hcid
  | typeFree h' =>
    obtain ⟨⟨t, h1⟩, h2⟩ := h
    refine ⟨⟨t, hp.objs _ _ h1⟩, fun o hf he => ?_⟩
    obtain ⟨ho, hst, x, hx⟩ := hf
    obtain ⟨j, hj⟩ := List.getElem?_of_mem ho
    obtain ⟨i, hil, hij⟩ := hp.typed j o x hj hst hx (he ▸ ⟨_, h1⟩)
    obtain ⟨o', ho'⟩ : ∃ o', N.L.ops[i]? = some o' := ⟨_, List.getElem?_eq_getElem hil⟩
    obtain ⟨d, hd1, hd2⟩ := hp.ops i o' ho'
    rw [hij, hj] at hd1
    cases hd1
    have hpend := OpSt.at_pending.1 hst
    have hm := List.mem_of_getElem? ho'
    have hx : (x, Obj.comm d) ∈ M.L.objs := hx
    rw [hd2 hpend] at hx
    exact h2 o' ⟨hm, hpend, x, hp.only _ _ hx (hn.cids _ hm hpend) (hp.mine _ hm hpend)⟩ he
  | requestFree r =>
    obtain ⟨i, o, h1, h2, h3⟩ := h
    obtain ⟨d, hd1, _⟩ := hp.ops i o h2
    exact ⟨φ i, _, hp.objs _ _ h1, hd1, fun e => h3 (OpSt.at_pending.1 e)⟩
  | isend | irsend | send | irecv | recv => exact hp.p2p hs h
  | sendrecv => exact ⟨hp.p2p hs h.1, hp.p2p hs h.2⟩
  | iprobe | probe => exact hp.isComm h
  | test | wait => exact h.imp id hp.isReq
  | testany | waitany | testall | waitall | testsome | waitsome => exact ⟨h.1, hp.wfReqs h.2⟩
  | typeContiguous => exact ⟨h.1, ty h.2⟩
  | typeHvector | typeVector => exact ⟨h.1, h.2.1, ty h.2.2⟩
  | typeHindexed | typeIndexed => exact ⟨h.1, h.2.1, h.2.2.1, ty h.2.2.2⟩
  | typeIndexedBlock => exact ⟨h.1, h.2.1, ty h.2.2⟩
  | typeStruct => exact ⟨h.1, h.2.1, h.2.2.1, h.2.2.2.1, fun t ht => ty (h.2.2.2.2 t ht)⟩
  | typeCommit | typeExtent | typeSize | typeLb | typeUb | getElements => exact ty h
  | pack | packSize | unpack => exact ⟨ty h.1, hp.isComm h.2⟩
  | gather | gatherv | allgather | allgatherv | scatter | scatterv | alltoall | alltoallv => exact ⟨ty h.1, ty h.2⟩
  | reduce | allreduce | reduceScatter | scan => exact ty h
  | alltoallw => exact ⟨fun t ht => ty (h.1 t ht), fun t ht => ty (h.2 t ht)⟩
  | fortInit => exact h
  | _ => trivial

end
end Part

section
variable {ι : Type} {env : Env} {m : Mem} {l : ι → Layer} {t : ι → Nat} {seen : ι → List Obs} {ν : ι → Names} {M : Mach}

/-- The names of a part stand for handles in use. -/
theorem Joint.names (hJ : Joint env m l t seen ν M) {i : ι} {x h : Int} (hm : (x, h) ∈ (ν i).tab) :
    (ν i).number x = h ∧ 2 ≤ x ∧ x < (ν i).next ∧ 1 < h ∧ M.uses h := by
  obtain ⟨N, k, h1, _, _, h4, _⟩ := hJ.found
  obtain ⟨K, μ, ps, T, hF, hT, _⟩ := (h1 i).found
  obtain ⟨h', hz⟩ := hT.known_snd hm
  obtain ⟨φ, ψ, hp⟩ := h4 i
  have hr := hT.range _ hz
  obtain ⟨o, ho⟩ := hT.live _ hz
  exact ⟨(hT.number hz).2, hr.1, by rw [← hT.next]; exact hr.2.1, hr.2.2.2, hp.uses ⟨o, hF.has'.2 ⟨_, ho⟩⟩⟩

theorem Joint.wf (hJ : Joint env m l t seen ν M) {i : ι} {c : Call} (hcall : (l i).prog (seen i) = some c) :
    (ν i).Known c.handles ∧ ((l i).call M.mem (c.withHandles (ν i).number)).Wf env M.L := by
  obtain ⟨N, k, h1, _, h3, h4, _⟩ := hJ.found
  obtain ⟨K, μ, ps, T, hF, hT, hop, _⟩ := (h1 i).found
  obtain ⟨hk, hses, hwf, _⟩ := hop 1 c hcall
  obtain ⟨φ, ψ, hp⟩ := h4 i
  have hwf' := hF.wf c (fun hi => hT.same hF hi hk) hses hwf
  rw [hF.inited.trans (h3 i).inited] at hses
  have := hp.wf hJ.sane (h3 i) (inSession_numbers hT.number_one' hses) hwf'
  refine ⟨hT.known' hk, ?_⟩
  cases c <;> exact this

end

theorem call_posts (l : Layer) (m : Mem) (c : Call) : (l.call m c).posts = c.posts := by cases c <;> rfl

theorem call_requests (l : Layer) (m : Mem) (c : Call) : (l.call m c).requests = c.requests := by cases c <;> rfl

/-- The library does what the machine does. -/
theorem together_sim {ι : Type} [DecidableEq ι] {env : Env} {m : Mem} {l : ι → Layer} (hst : env.Steady) (ha : Apart l)
    (hc : ∀ i, (l i).Correct env m) : ∀ (turns : List ι) (k : Nat) (t : ι → Nat) (seen : ι → List Obs) (ν : ι → Names) (s : Sys) (M : Mach),
    Joint env m l t seen ν M → Sim env s M → (∀ i, NamedKnows (ν i) (seen i) M.L) → M.L.ncomms ≤ k → M.L.unmatched ≤ 2 * k →
    k + turns.length ≤ 1073741823 → togetherLib env l turns seen ν s = together env l turns seen ν M := by
  intro turns
  induction turns with
  | nil => intros; rfl
  | cons i turns ih =>
    intro k t seen ν s M hJ hs hkn h1 h2 h3
    rw [List.length_cons] at h3
    unfold togetherLib together
    cases hcall : (l i).prog (seen i) with
    | none =>
      dsimp only
      exact ih k t seen ν s M hJ hs hkn h1 h2 (by omega)
    | some c =>
      obtain ⟨hk, hwf⟩ := hJ.wf hcall
      have hrm : Room M.L := ⟨by omega, by omega, by omega⟩
      have hsim := Call.sim hs hrm _ hwf
      dsimp only
      rw [hs.mem]
      cases hM : M.answer env ((l i).call M.mem (c.withHandles (ν i).number)) with
      | ok z =>
        obtain ⟨M', o'⟩ := z
        obtain ⟨⟨s', o⟩, hx, hA⟩ := Res.Rel.ok_right hsim hM
        rcases hJ.turn hst ha hc i hcall with h | ⟨M'', o'', h, hnew, hJ'⟩ | ⟨h, _⟩
        · rw [hM] at h; cases h
        · rw [hM] at h
          cases h
          have hvals : o.vals = o'.vals := hA.vals
          have hdone : knownReceives (seen i) c = true → o.done = o'.done := fun hkr => by
            refine hA.done fun r hr q op hm hq => ?_
            rw [call_requests, withHandles_requests] at hr
            obtain ⟨x, hxr, rfl⟩ := List.mem_map.1 hr
            unfold knownReceives at hkr
            rw [List.all_eq_true] at hkr
            have h8 := hkr x hxr
            rcases hk x (requests_handles c x hxr) with hle | ⟨h, hmem⟩
            · rw [Told.number_const hle] at hm
              have hpos := hJ.sane.pos _ hm
              dsimp only at hpos
              have hx1 : x = 1 := by omega
              subst hx1
              cases nodup_fst_unique hJ.sane.keys hm hJ.sane.world
            · obtain ⟨e1, e2, _⟩ := hJ.names hmem
              rw [e1] at hm
              have h9 := hkn i x h hmem q op hm hq
              simp only [Bool.or_eq_true, beq_iff_eq] at h8
              rcases h8 with h8 | h8
              · rw [h8] at e2; exact absurd e2 (by decide)
              · rw [h9] at h8; exact Option.some.inj h8
          have hob : (ν i).observe (seen i) c o (s'.mem.part (l i).region) = (ν i).observe (seen i) c o' (M'.mem.part (l i).region) := by
            unfold Names.observe
            rw [hvals, hA.sim.mem]
            congr 1
            split
            · next hkr => exact hdone hkr
            · rfl
          rw [hx]
          dsimp only
          rw [hob, hvals]
          refine ih (k + 1) _ _ _ s' M' hJ' hA.sim ?_ (by have := hA.room.1; dsimp only at this; omega)
            (by have := hA.room.2; dsimp only at this; omega) (by omega)
          have hnews := hA.news
          rw [call_posts, withHandles_posts] at hnews
          have hold : ∀ j x h q op, (x, h) ∈ (ν j).tab → (h, Obj.req q) ∈ M.L.objs → M'.L.ops[q]? = some op →
              lastPost (seen j) x = some op.kind := fun j x h q op hmem hm' hop => by
            obtain ⟨A, lst, hi⟩ := hs.reach.inv
            obtain ⟨o0, _, ho0, _⟩ := hi.req _ _ hm'
            obtain ⟨o1, ho1, he⟩ := Steps.kinds hA.steps q o0 ho0
            dsimp only at ho1
            rw [hop] at ho1
            cases ho1
            rw [hkn j x h hmem q o0 hm' ho0, he]
          -- a request with an old name was there before
          have holds : ∀ j x h q op, (x, h) ∈ (ν j).tab → (h, Obj.req q) ∈ M'.L.objs → M'.L.ops[q]? = some op →
              (h, Obj.req q) ∈ M.L.objs := fun j x h q op hmem hm' hop => by
            have hn := hnews h q op hm' hop
            dsimp only at hn
            cases hps : c.posts with
            | none => rw [hps] at hn; exact hn
            | some kd =>
              rw [hps] at hn
              rcases hn with ⟨hv, _⟩ | ⟨_, hn⟩
              · obtain ⟨a, e1, e2⟩ := hnew (posts_makes hps)
                rw [hvals, e1] at hv
                have hv := (List.cons.inj hv).1
                obtain ⟨_, _, _, e3, e4⟩ := hJ.names hmem
                subst hv
                rcases e2 with e2 | ⟨_, e2⟩
                · omega
                · exact absurd e4 e2
              · exact hn
          intro j x h hmem q op hm hop
          by_cases hj : j = i
          · subst hj
            rw [if_pos rfl] at hmem ⊢
            rw [lastPost_cons]
            cases hmk : c.makes with
            | false =>
              have hps : c.posts = none := by
                cases hp : c.posts with
                | none => rfl
                | some k => rw [posts_makes hp] at hmk; cases hmk
              unfold Names.observe
              dsimp only
              rw [hps, ite_self, Option.none_or]
              unfold Names.after at hmem
              rw [hmk] at hmem
              simp only [Bool.false_eq_true, if_false] at hmem
              have hmem := (List.mem_filter.1 hmem).1
              exact hold j x h q op hmem (holds j x h q op hmem hm hop) hop
            | true =>
              obtain ⟨a, e1, e2⟩ := hnew hmk
              have hv : ((ν j).observe (seen j) c o' (M'.mem.part (l j).region)).vals = [((ν j).after c [a]).name a] := by
                unfold Names.observe Call.seenAs Call.got
                rw [makes_place hmk, e1]
                rfl
              have hcl : ((ν j).observe (seen j) c o' (M'.mem.part (l j).region)).call = c := rfl
              rw [hv, hcl]
              rw [e1] at hmem
              have hafter : (ν j).after c [a] = if a ≤ 1 then ν j else ⟨((ν j).next, a) :: (ν j).tab, (ν j).next + 1⟩ := by
                unfold Names.after
                rw [if_pos hmk]
              rw [hafter] at hmem ⊢
              rcases e2 with rfl | ⟨q1, q2⟩
              · rw [if_pos (show (0 : Int) ≤ 1 by decide)] at hmem ⊢
                obtain ⟨_, r1, _⟩ := hJ.names hmem
                have hne : ¬ [(ν j).name 0] = [x] := fun e => by
                  have h0 : (ν j).name 0 = 0 := if_pos (by decide)
                  have : (ν j).name 0 = x := (List.cons.inj e).1
                  omega
                rw [if_neg hne, Option.none_or]
                exact hold j x h q op hmem (holds j x h q op hmem hm hop) hop
              · rw [if_neg (show ¬ a ≤ 1 by omega)] at hmem ⊢
                have hname : Names.name ⟨((ν j).next, a) :: (ν j).tab, (ν j).next + 1⟩ a = (ν j).next := by
                  unfold Names.name
                  rw [if_neg (by omega), List.find?_cons_of_pos (by simp)]
                  rfl
                rw [hname]
                rcases List.mem_cons.1 hmem with he | hmem
                · simp only [Prod.mk.injEq] at he
                  obtain ⟨rfl, rfl⟩ := he
                  rw [if_pos rfl]
                  have hn := hnews h q op hm hop
                  dsimp only at hn
                  cases hps : c.posts with
                  | none => rw [hps] at hn; exact absurd ⟨_, hn⟩ q2
                  | some kd =>
                    rw [hps] at hn
                    rcases hn with ⟨_, hkk⟩ | ⟨_, hn⟩
                    · rw [hkk]; rfl
                    · exact absurd ⟨_, hn⟩ q2
                · obtain ⟨_, _, r2, _⟩ := hJ.names hmem
                  have hne : ¬ [(ν j).next] = [x] := fun e => by have := (List.cons.inj e).1; omega
                  rw [if_neg hne, Option.none_or]
                  exact hold j x h q op hmem (holds j x h q op hmem hm hop) hop
          · rw [if_neg hj] at hmem ⊢
            exact hold j x h q op hmem (holds j x h q op hmem hm hop) hop
        · exact absurd hM (h _)
      | _ =>
        have hf := hsim.fate
        rw [hM] at hf
        cases hy : ((l i).call M.mem (c.withHandles (ν i).number)).answer env s <;> rw [hy] at hf <;> simp_all [Res.fate]

end MpiSerial
