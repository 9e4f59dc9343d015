import Verif.Spec.Release
import Verif.Props.Exchange
import Verif.Proofs.Safe

set_option linter.unusedSimpArgs false
set_option autoImplicit false

namespace MpiSerial

section
variable {env : Env} {s s' : Sys} {L L' : Ledger} {M M' : AbsLists Loc} {lst lst' : Nat → Kind → Nat}

/-- What MPI_Test reports is a function of the record. -/
theorem test_report (hi : Inv s L M lst) {h : Int} {i : Nat} (hm : (h, Obj.req i) ∈ L.objs) {r : ReqRec}
    (hd : dataAt s h = .req r) (st : StPtr) :
    (MPI_Test s h st >>= fun r => Res.ok r.report) =
      (if r.complete ≠ 0 then StPtr.put st r.source r.tag >>= fun st => .ok (MPI_REQUEST_NULL, r.complete, st)
       else .ok (h, r.complete, st)) := by
  have hpos := hi.hst.pos (mem_keys hm)
  obtain ⟨t, c1, _, _⟩ := hi.hst.free (mem_keys hm)
  unfold MPI_Test
  rw [if_neg (by omega), Sys.ptr_live hi.hst (mem_keys hm), Res.ok_bind]
  dsimp only
  rw [Sys.req_live hi.hst (mem_keys hm) hd, Res.ok_bind]
  split
  · rw [c1]
    cases StPtr.put st r.source r.tag <;> rfl
  · rfl

/-- MPI_Type_free leaves what the handles stand for alone. -/
theorem typeFree_data (hi : Inv s L M lst) {h : Int} {ty : Typestruct} (hm : (h, Obj.dtype ty) ∈ L.objs) :
    ∃ s', MPI_Type_free s h = .ok s' ∧ s'.mem = s.mem ∧ Inv s' (L.release h) M lst ∧
      ∀ h', dataAt s' h' = dataAt s h' := by
  obtain ⟨s', h1, h2, h3⟩ := typeFree_spec hi hm
  refine ⟨s', h1, h2, h3, ?_⟩
  obtain ⟨p, d1, d2⟩ := hi.dtype _ _ hm
  have hpos := hi.hst.pos (mem_keys hm)
  obtain ⟨t, c1, c2, c3⟩ := hi.hst.free (mem_keys hm)
  unfold MPI_Type_free handleToDatatype at h1
  rw [if_neg (by omega), Sys.ptr_live hi.hst (mem_keys hm), Res.ok_bind] at h1
  dsimp only at h1
  rw [hi.hst.deref (mem_keys hm), Res.ok_bind] at h1
  unfold dataAt at d1
  rw [d1] at h1
  dsimp only at h1
  rw [Res.pure_bind'] at h1
  dsimp only [freeType] at h1
  rw [d2] at h1
  dsimp only at h1
  rw [Res.ok_bind] at h1
  dsimp only at h1
  rw [c1] at h1
  injection h1 with h1
  subst h1
  exact fun h' => c3 _

/-- A post meets the same partner and makes the same copy. -/
theorem PostSpec.memory {k : Kind} {c : Nat} {tag buf count dtype : Int} {r r' : Res (Sys × Int)}
    (h : PostSpec env s L lst k c tag buf count dtype r) (h' : PostSpec env s' L' lst' k c tag buf count dtype r')
    (hmem : s'.mem = s.mem) (hops : L'.ops = L.ops) (hroom : L.objs.length < 262143) (hle : L'.objs.length ≤ L.objs.length)
    {t : Typestruct} (h1 : L.desc env.cfg dtype = some t) (h1' : L'.desc env.cfg dtype = some t)
    (hT : k = .send → ∀ j o, L.partner c k tag = some j → L.ops[j]? = some o →
      ∃ u, L.desc env.cfg o.dtype = some u ∧ L'.desc env.cfg o.dtype = some u) :
    r'.memory Prod.fst = r.memory Prod.fst := by
  have hpar : L'.partner c k tag = L.partner c k tag := by unfold Ledger.partner; rw [hops]
  rcases h with ⟨hl, _⟩ | ⟨_, hp, s1, a, M1, e, em, _⟩ | ⟨_, j, o, s1, a, M1, X, hp, hj, e, _, hX, _⟩
  · omega
  · rcases h' with ⟨hl, _⟩ | ⟨_, hp', s2, a', M2, e', em', _⟩ | ⟨_, j', o', s2, a', M2, X', hp', _⟩
    · omega
    · rw [e, e']
      show Res.ok s2.mem = Res.ok s1.mem
      rw [em, em', hmem]
    · rw [hpar, hp] at hp'; cases hp'
  · rcases h' with ⟨hl, _⟩ | ⟨_, hp', _⟩ | ⟨_, j', o', s2, a', M2, X', hp', hj', e', _, hX', _⟩
    · omega
    · rw [hpar, hp] at hp'; cases hp'
    · rw [hpar, hp] at hp'
      cases hp'
      rw [hops, hj] at hj'
      cases hj'
      have key : X' = X := by
        by_cases hk : k = .send
        · obtain ⟨u, u1, u2⟩ := hT hk _ _ hp hj
          rw [hX t u h1 (by rw [if_pos hk]; exact u1), hX' t u h1' (by rw [if_pos hk]; exact u2), if_pos hk, if_pos hk,
            hmem]
        · rw [hX t t h1 (by rw [if_neg hk]; exact h1), hX' t t h1' (by rw [if_neg hk]; exact h1'), if_neg hk, if_neg hk,
            hmem]
      rw [e, e', key]
      cases X <;> rfl

/-- A state with the same operations, memory and records, in which the types of the pending receives are
still there. -/
theorem goesOn (hi : Inv s L M lst) (hi' : Inv s' L' M' lst') (hmem : s'.mem = s.mem)
    (hops : L'.ops = L.ops) (hobjs : ∀ e, e ∈ L'.objs → e ∈ L.objs)
    (hcomm : ∀ h c, (h, Obj.comm c) ∈ L.objs → (h, Obj.comm c) ∈ L'.objs)
    (hle : L'.objs.length ≤ L.objs.length) (hdata : ∀ h, dataAt s' h = dataAt s h)
    (hT : ∀ o ∈ L.ops, o.kind = .recv → o.st = .pending → (∃ h, (h, Obj.comm o.cid) ∈ L.objs) → IsType env L' o.dtype) :
    GoesOn env s L s' L' := by
  have hpar : ∀ c k tag, L'.partner c k tag = L.partner c k tag := fun c k tag => by unfold Ledger.partner; rw [hops]
  have hun : L'.unmatched = L.unmatched := by unfold Ledger.unmatched; rw [hops]
  have hdesc : ∀ {h t}, L'.desc env.cfg h = some t → L.desc env.cfg h = some t := by
    intro h t hd
    rcases (desc_iff hi'.hst.nodup).1 hd with h1 | ⟨h1, h2⟩
    · exact (desc_iff hi.hst.nodup).2 (Or.inl h1)
    · exact (desc_iff hi.hst.nodup).2 (Or.inr ⟨h1, hobjs _ h2⟩)
  refine ⟨hmem, ?_, ?_, ?_, ?_⟩
  · intro h i st hm
    obtain ⟨_, r, _, _, hd, _⟩ := hi.req _ _ (hobjs _ hm)
    rw [test_report hi (hobjs _ hm) hd, test_report hi' hm ((hdata h).trans hd)]
  · intro comm c src tag st hc hs
    rcases iprobe_spec hi hc hs tag st with ⟨hp, he⟩ | ⟨j, o, hp, hj, he⟩
    · rcases iprobe_spec hi' (hcomm _ _ hc) hs tag st with ⟨hp', he'⟩ | ⟨j', o', hp', hj', he'⟩
      · rw [he, he']; rfl
      · rw [hpar, hp] at hp'; cases hp'
    · rcases iprobe_spec hi' (hcomm _ _ hc) hs tag st with ⟨hp', he'⟩ | ⟨j', o', hp', hj', he'⟩
      · rw [hpar, hp] at hp'; cases hp'
      · rw [hpar, hp] at hp'
        cases hp'
        rw [hops, hj] at hj'
        cases hj'
        rw [he, he']
        cases StPtr.put st 0 o.tag <;> rfl
  · intro comm c buf count dtype tag hy ⟨t, ht⟩
    refine (isend_spec (env := env) hi hy.live hy.queue buf count dtype tag).memory
      (isend_spec (env := env) hi' (hcomm _ _ hy.live) (hun ▸ hy.queue) buf count dtype tag) hmem hops hy.room hle
      (hdesc ht) ht ?_
    intro _ j o hp hj
    obtain ⟨hw, hj'⟩ : o.waits c .send tag = true ∧ True := by
      unfold Ledger.partner at hp
      rw [List.findIdx?_eq_some_iff_getElem] at hp
      obtain ⟨h1, h2, _⟩ := hp
      rw [List.getElem?_eq_getElem h1] at hj
      cases hj
      exact ⟨h2, trivial⟩
    unfold Op.waits at hw
    simp only [Bool.and_eq_true, decide_eq_true_eq] at hw
    obtain ⟨⟨h1, h2, h3⟩, _⟩ := hw
    obtain ⟨u, hu⟩ := hT o (List.mem_of_getElem? hj) h1 h3 ⟨_, h2 ▸ hy.live⟩
    exact ⟨u, hdesc hu, hu⟩
  · intro comm c buf count dtype src tag hy hs ⟨t, ht⟩
    exact (irecv_spec (env := env) hi hy.live hy.queue hs buf count dtype tag).memory
      (irecv_spec (env := env) hi' (hcomm _ _ hy.live) (hun ▸ hy.queue) hs buf count dtype tag) hmem hops hy.room hle
      (hdesc ht) ht (fun h => by cases h)

end

end MpiSerial
