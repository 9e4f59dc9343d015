import Verif.Proofs.Pairing
import Verif.Props.Requests

/-!
# C67: which operations meet depends only on the order of posting and the tags
-/

set_option linter.unusedSimpArgs false
set_option autoImplicit false

namespace MpiSerial

/-- C67: a word has exactly one pairing. -/
theorem C67_unique (w : List Letter) : ∃ P, IsPairing w P ∧ ∀ Q, IsPairing w Q → ∀ k l, Q k l ↔ P k l := by
  obtain ⟨P, hP⟩ := pairing_exists w
  exact ⟨P, hP, fun Q hQ k l => pairing_unique hQ hP k l⟩

section
variable {env env' : Env} {s s' : Sys} {L L' : Ledger} {c c' : Nat}

/-- C67: what every call adds to the word of a communicator: a successful MPI_Isend or MPI_Irecv on it (not to or from
MPI_PROC_NULL) adds its letter, nothing else adds anything. -/
theorem C67_word (hs : Step env s L s' L') (c : Nat) :
    L'.word c = L.word c ∨
    (∃ comm buf count dtype tag h, (comm, Obj.comm c) ∈ L.objs ∧ MPI_Isend env s buf count dtype 0 tag comm = .ok (s', h) ∧
      L'.word c = L.word c ++ [(.send, tag)]) ∨
    (∃ comm buf count dtype src tag h, (comm, Obj.comm c) ∈ L.objs ∧ src ≠ MPI_PROC_NULL ∧
      MPI_Irecv env s buf count dtype src tag comm = .ok (s', h) ∧ L'.word c = L.word c ++ [(.recv, tag)]) := by
  cases hs with
  | memory => exact Or.inl rfl
  | init h1 h2 h3 => exact Or.inl rfl
  | finalize => exact Or.inl rfl
  | comm h1 h2 h3 h4 =>
    left
    unfold Ledger.noteComm
    split <;> rfl
  | commFree h1 h2 => exact Or.inl rfl
  | @isend _ _ buf count dtype tag comm c1 h h1 h2 h3 =>
    by_cases hc : c = c1
    · subst hc
      exact Or.inr (Or.inl ⟨comm, buf, count, dtype, tag, h, h1, h3, by rw [post_word, if_pos rfl]⟩)
    · left
      rw [post_word, if_neg hc, List.append_nil]
  | @irecv _ _ buf count dtype src tag comm c1 h h1 h2 h3 h4 =>
    by_cases hc : c = c1
    · subst hc
      exact Or.inr (Or.inr ⟨comm, buf, count, dtype, src, tag, h, h1, h3, h4, by rw [post_word, if_pos rfl]⟩)
    · left
      rw [post_word, if_neg hc, List.append_nil]
  | isendNull h1 h2 => exact Or.inl (postNull_word ..)
  | irecvNull h1 h2 => exact Or.inl (postNull_word ..)
  | test h1 h2 =>
    left
    split <;> rfl
  | requestFree h1 h2 h3 h4 => exact Or.inl rfl
  | newType h1 h2 h3 => exact Or.inl rfl
  | commit h1 h2 => exact Or.inl rfl
  | typeFree h1 h2 => exact Or.inl rfl

/-- C67: after every history, the operations on a communicator that were matched with each other are those that meet by
the rule of the standard. -/
theorem C67_pairing (hr : Reach env s L) (c : Nat) : IsPairing (L.word c) (L.joined c) := joined_pairing hr.opsInv

/-- C67: if two programs, whatever else they do, post the same sequence of sends and receives with the same tags on
some communicator, the same operations meet. -/
theorem C67_same (hr : Reach env s L) (hr' : Reach env' s' L') (hw : L.word c = L'.word c') (k l : Nat) :
    L.joined c k l ↔ L'.joined c' k l := by
  have h := C67_pairing hr c
  rw [hw] at h
  exact pairing_unique h (C67_pairing hr' c') k l

/-- Operation `k` has met no other. -/
def Unmet (P : Nat → Nat → Prop) (k : Nat) : Prop := ∀ l, ¬ P k l ∧ ¬ P l k

theorem unmet_iff (hr : Reach env s L) {k i : Nat} {o : Op} (hk : L.isNth c k i) (ho : L.ops[i]? = some o) :
    Unmet (L.joined c) k ↔ o.st = .pending := by
  obtain ⟨_, o1, o2, o3⟩ := isNth_op hk
  rw [ho] at o1
  cases o1
  constructor
  · intro h
    cases hst : o.st with
    | pending => rfl
    | null => exact absurd hst o3
    | matched j =>
      exfalso
      obtain ⟨p, p1, p2, p3, p4, _⟩ := hr.opsInv.sym i j o ho hst
      obtain ⟨l, hl⟩ := isNth_of (c := c) p1 (by rw [p4, o2]) (by rw [p2]; simp)
      rcases Nat.lt_trichotomy i j with hij | hij | hij
      · exact (h l).1 ⟨(isNth_lt hk hl).2 hij, i, j, o, hk, hl, ho, hst⟩
      · subst hij
        rw [ho] at p1
        cases p1
        cases hh : o.kind <;> rw [hh] at p3 <;> cases p3
      · exact (h l).2 ⟨(isNth_lt hl hk).2 hij, j, i, p, hl, hk, p1, p2⟩
  · intro hst l
    constructor
    · rintro ⟨_, i', j, o', h1, _, h2, h3⟩
      obtain rfl := isNth_fun hk h1
      rw [ho] at h2
      cases h2
      rw [hst] at h3
      cases h3
    · rintro ⟨_, j, i', o', _, h1, h2, h3⟩
      obtain rfl := isNth_fun hk h1
      obtain ⟨p, p1, p2, _⟩ := hr.opsInv.sym j i o' h2 h3
      rw [ho] at p1
      cases p1
      rw [hst] at p2
      cases p2

theorem unmet_same (hr : Reach env s L) (hr' : Reach env' s' L') (hw : L.word c = L'.word c') (k : Nat) :
    Unmet (L.joined c) k ↔ Unmet (L'.joined c') k := by
  unfold Unmet
  simp only [C67_same hr hr' hw]

/-- C67: the requests of corresponding operations, if both still exist, are complete together, and MPI_Wait returns
for one exactly if for the other. -/
theorem C67_complete (hr : Reach env s L) (hr' : Reach env' s' L') (hw : L.word c = L'.word c') {k : Nat} {h h' : Int}
    (hk : L.isRequest c k h) (hk' : L'.isRequest c' k h') :
    (Complete s h ↔ Complete s' h') ∧ (Incomplete s h ↔ Incomplete s' h') ∧
      ∀ st, st ≠ .bad → ((MPI_Wait s h st).returned = (MPI_Wait s' h' st).returned ∧
        (MPI_Wait s h st).aborted = (MPI_Wait s' h' st).aborted) := by
  obtain ⟨i, hi, hm⟩ := hk
  obtain ⟨i', hi', hm'⟩ := hk'
  obtain ⟨o, ho, _, hn⟩ := isNth_op hi
  obtain ⟨o', ho', _, hn'⟩ := isNth_op hi'
  have hp : o.st = .pending ↔ o'.st = .pending := by
    rw [← unmet_iff hr hi ho, ← unmet_iff hr' hi' ho', unmet_same hr hr' hw]
  have hd : ((∃ j, o.st = .matched j) ∨ o.st = .null) ↔ ((∃ j, o'.st = .matched j) ∨ o'.st = .null) := by
    cases h1 : o.st <;> cases h2 : o'.st <;> simp_all
  refine ⟨?_, ?_, fun st hst => ⟨?_, ?_⟩⟩
  · rw [(C14_test hr hm ho).1, (C14_test hr' hm' ho').1, hd]
  · rw [(C14_test hr hm ho).2, (C14_test hr' hm' ho').2, hp]
  · rw [Bool.eq_iff_iff, (C14_wait hr hm ho hst).1, (C14_wait hr' hm' ho' hst).1, hd]
  · rw [Bool.eq_iff_iff, (C14_wait hr hm ho hst).2, (C14_wait hr' hm' ho' hst).2, hp]

theorem completeAs_unique {h a t a' t' : Int} (h1 : CompleteAs s h a t) (h2 : CompleteAs s h a' t') : a = a' ∧ t = t' := by
  obtain ⟨r, e, _, e2⟩ := h1 ⟨0, 0, 0, 0⟩
  obtain ⟨r', e', _, e2'⟩ := h2 ⟨0, 0, 0, 0⟩
  rw [e] at e'
  cases e'
  rw [e2] at e2'
  cases e2'
  exact ⟨rfl, rfl⟩

/-- C67: the requests of corresponding receives report the same source and tag. -/
theorem C67_status (hr : Reach env s L) (hr' : Reach env' s' L') (hw : L.word c = L'.word c') {k : Nat} {h h' tag : Int}
    (hl : (L.word c)[k]? = some (.recv, tag)) (hk : L.isRequest c k h) (hk' : L'.isRequest c' k h') (a t : Int) :
    CompleteAs s h a t ↔ CompleteAs s' h' a t := by
  -- one direction, for any two such histories
  have key : ∀ {env env' : Env} {s s' : Sys} {L L' : Ledger} {c c' : Nat} {h h' : Int}, Reach env s L → Reach env' s' L' →
      L.word c = L'.word c' → (L.word c)[k]? = some (.recv, tag) → L.isRequest c k h → L'.isRequest c' k h' →
      CompleteAs s h a t → CompleteAs s' h' a t := by
    intro env env' s s' L L' c c' h h' hr hr' hw hl hk hk' hca
    have hcomp := (C67_complete hr hr' hw hk hk')
    obtain ⟨i, hi, hm⟩ := hk
    obtain ⟨i', hi', hm'⟩ := hk'
    obtain ⟨o, ho, oc, hn⟩ := isNth_op hi
    obtain ⟨o', ho', oc', hn'⟩ := isNth_op hi'
    have hkind : ∀ {L : Ledger} {c i : Nat} {o : Op}, L.isNth c k i → L.ops[i]? = some o → (L.word c)[k]? = some (.recv, tag) →
        o.kind = .recv := by
      intro L c i o h1 h2 h3
      have := h3.symm.trans (word_get.2 ⟨i, o, h1, h2, rfl⟩)
      exact (congrArg Prod.fst (Option.some.inj this)).symm
    have k1 := hkind hi ho hl
    have k2 := hkind hi' ho' (hw ▸ hl)
    -- the first is matched
    have hni : o.st ≠ .pending := by
      intro hp
      obtain ⟨r, e1, e2⟩ := (C14_test hr hm ho).2.2 hp (.obj ⟨0, 0, 0, 0⟩)
      obtain ⟨r', e1', e2', _⟩ := hca ⟨0, 0, 0, 0⟩
      rw [e1] at e1'
      cases e1'
      omega
    have hunm : ¬ Unmet (L.joined c) k := fun hu => hni ((unmet_iff hr hi ho).1 hu)
    have hni' : o'.st ≠ .pending := fun hp => hunm ((unmet_same hr hr' hw k).2 ((unmet_iff hr' hi' ho').2 hp))
    cases hst : o.st with
    | pending => exact absurd hst hni
    | null => exact absurd hst hn
    | matched j =>
      cases hst' : o'.st with
      | pending => exact absurd hst' hni'
      | null => exact absurd hst' hn'
      | matched j' =>
        obtain ⟨p, p1, p2, p3, _⟩ := C13_status hr hm ho k1 hst
        obtain ⟨p', q1, q2, q3, _⟩ := C13_status hr' hm' ho' k2 hst'
        obtain ⟨rfl, rfl⟩ := completeAs_unique hca p3
        suffices p.tag = p'.tag by rw [this]; exact q3
        -- the partners have the same place in the word
        have hplace : ∀ {env : Env} {s : Sys} {L : Ledger} {c i j : Nat} {o p : Op}, Reach env s L → L.isNth c k i →
            L.ops[i]? = some o → o.st = .matched j → L.ops[j]? = some p →
            ∃ l, (L.word c)[l]? = some (p.kind, p.tag) ∧ (L.joined c k l ∨ L.joined c l k) := by
          intro env s L c i j o p hr hi ho hst hp
          obtain ⟨_, o1, o2, _⟩ := isNth_op hi
          rw [ho] at o1
          cases o1
          obtain ⟨p0, r1, r2, r3, r4, _⟩ := hr.opsInv.sym i j o ho hst
          rw [hp] at r1
          cases r1
          obtain ⟨l, hl⟩ := isNth_of (c := c) hp (by rw [r4, o2]) (by rw [r2]; simp)
          refine ⟨l, word_get.2 ⟨j, p, hl, hp, rfl⟩, ?_⟩
          rcases Nat.lt_trichotomy i j with hij | hij | hij
          · exact Or.inl ⟨(isNth_lt hi hl).2 hij, i, j, o, hi, hl, ho, hst⟩
          · subst hij
            rw [ho] at hp
            cases hp
            cases hh : o.kind <;> rw [hh] at r3 <;> cases r3
          · exact Or.inr ⟨(isNth_lt hl hi).2 hij, j, i, p, hl, hi, hp, r2⟩
        have huniq : ∀ {l l' : Nat}, (L'.joined c' k l ∨ L'.joined c' l k) → (L'.joined c' k l' ∨ L'.joined c' l' k) → l = l' := by
          have hat : ∀ {l : Nat}, (L'.joined c' k l ∨ L'.joined c' l k) → L'.isNth c' l j' := by
            rintro l (⟨_, x, y, z, h1, h2, h3, h4⟩ | ⟨_, y, x, z, h2, h1, h3, h4⟩)
            · obtain rfl := isNth_fun hi' h1
              rw [ho'] at h3
              cases h3
              rw [hst'] at h4
              cases h4
              exact h2
            · obtain rfl := isNth_fun hi' h1
              obtain ⟨z', z1, z2, _⟩ := hr'.opsInv.sym y i' z h3 h4
              rw [ho'] at z1
              cases z1
              rw [hst'] at z2
              cases z2
              exact h2
          intro l l' h1 h2
          exact isNth_unique (hat h1) (hat h2)
        obtain ⟨l, l1, l2⟩ := hplace hr hi ho hst p1
        obtain ⟨l', m1, m2⟩ := hplace hr' hi' ho' hst' q1
        rw [C67_same hr hr' hw, C67_same hr hr' hw] at l2
        obtain rfl := huniq l2 m2
        rw [hw, m1] at l1
        have := Option.some.inj l1
        exact (congrArg Prod.snd this).symm
  exact ⟨key hr hr' hw hl hk hk', key hr' hr hw.symm (hw ▸ hl) hk' hk⟩

/-- C67: probing such communicators gives the same answer: flag, source and tag. -/
theorem C67_probe (hr : Reach env s L) (hr' : Reach env' s' L') (hw : L.word c = L'.word c') {comm comm' : Int}
    (hcm : (comm, Obj.comm c) ∈ L.objs) (hcm' : (comm', Obj.comm c') ∈ L'.objs) {src : Int}
    (hsrc : src = 0 ∨ src = MPI_ANY_SOURCE) (tag : Int) {st : StPtr} (hst : st ≠ .bad) :
    (MPI_Iprobe s src tag comm st >>= fun r => Res.ok r.2) = (MPI_Iprobe s' src tag comm' st >>= fun r => Res.ok r.2) := by
  -- the place of the message
  have hopen : ∀ {env : Env} {s : Sys} {L : Ledger} {c i : Nat} {o : Op}, Reach env s L → L.ops[i]? = some o → o.open .send c →
      ∃ k, L.isNth c k i ∧ (L.word c)[k]? = some (.send, o.tag) ∧ Unmet (L.joined c) k := by
    intro env s L c i o hr ho hop
    obtain ⟨k, hk⟩ := isNth_of (c := c) ho hop.2.1 (by rw [hop.2.2]; simp)
    refine ⟨k, hk, word_get.2 ⟨i, o, hk, ho, by rw [hop.1]⟩, (unmet_iff hr hk ho).2 hop.2.2⟩
  have hback : ∀ {env : Env} {s : Sys} {L : Ledger} {c k : Nat} {t : Int}, Reach env s L → (L.word c)[k]? = some (.send, t) →
      Unmet (L.joined c) k → ∃ i o, L.isNth c k i ∧ L.ops[i]? = some o ∧ o.open .send c ∧ o.tag = t := by
    intro env s L c k t hr h1 h2
    obtain ⟨i, o, h3, h4, h5⟩ := word_get.1 h1
    simp only [Prod.mk.injEq] at h5
    obtain ⟨_, o1, o2, o3⟩ := isNth_op h3
    rw [h4] at o1
    cases o1
    exact ⟨i, o, h3, h4, ⟨h5.1.symm, o2, (unmet_iff hr h3 h4).1 h2⟩, h5.2.symm⟩
  -- transport along equal words
  have htrans : ∀ {env env' : Env} {s s' : Sys} {L L' : Ledger} {c c' i : Nat} {o : Op}, Reach env s L → Reach env' s' L' →
      L.word c = L'.word c' → L.ops[i]? = some o → o.open .send c →
      ∃ k i' o', L.isNth c k i ∧ L'.isNth c' k i' ∧ L'.ops[i']? = some o' ∧ o'.open .send c' ∧ o'.tag = o.tag := by
    intro env env' s s' L L' c c' i o hr hr' hw ho hop
    obtain ⟨k, h1, h2, h3⟩ := hopen hr ho hop
    obtain ⟨i', o', h4, h5, h6, h7⟩ := hback hr' (hw ▸ h2) ((unmet_same hr hr' hw k).1 h3)
    exact ⟨k, i', o', h1, h4, h5, h6, h7⟩
  rcases C21_iprobe hr hcm hsrc tag with ⟨hno, h1, _⟩ | ⟨j, o, he, h1, _⟩
  · rcases C21_iprobe hr' hcm' hsrc tag with ⟨_, h1', _⟩ | ⟨j', o', he', _, _⟩
    · rw [(h1 st).1, (h1' st).1]; rfl
    · exfalso
      obtain ⟨_, i, p, _, _, h4, h5, h6⟩ := htrans hr' hr hw.symm he'.1 he'.2.1
      have := hno p (List.mem_of_getElem? h4) h5
      rw [h6] at this
      exact absurd (he'.2.2.1.symm.trans this) (by simp)
  · rcases C21_iprobe hr' hcm' hsrc tag with ⟨hno, _, _⟩ | ⟨j', o', he', h1', _⟩
    · exfalso
      obtain ⟨_, i, p, _, _, h4, h5, h6⟩ := htrans hr hr' hw he.1 he.2.1
      have := hno p (List.mem_of_getElem? h4) h5
      rw [h6] at this
      exact absurd (he.2.2.1.symm.trans this) (by simp)
    · rw [(h1 st hst).1, (h1' st hst).1]
      suffices o.tag = o'.tag by rw [this]; rfl
      obtain ⟨k, i', p, a1, a2, a3, a4, a5⟩ := htrans hr hr' hw he.1 he.2.1
      obtain ⟨k', i, p', b1, b2, b3, b4, b5⟩ := htrans hr' hr hw.symm he'.1 he'.2.1
      have hk : k = k' := by
        rcases Nat.lt_trichotomy k k' with h | h | h
        · have := he'.2.2.2 i' p ((isNth_lt a2 b1).1 h) a3 a4
          rw [a5, he.2.2.1] at this
          cases this
        · exact h
        · have := he.2.2.2 i p' ((isNth_lt b2 a1).1 h) b3 b4
          rw [b5, he'.2.2.1] at this
          cases this
      subst hk
      obtain rfl := isNth_fun a1 b2
      rw [he.1] at b3
      cases b3
      exact b5

end

/-! ## The hypotheses can be met

`H5`: on MPI_COMM_WORLD two sends with tag 5, a receive for tag 9, a receive for any tag.  `Q8` posts the same on a
duplicate of MPI_COMM_WORLD, with other buffers and counts, and between that an unrelated send on MPI_COMM_WORLD and a
receive from MPI_PROC_NULL. -/

def Q2 : Demo := H1.dup 1
def Q3 : Demo := Q2.isend 102 1 (-1) 5 2 1
def Q4 : Demo := Q3.isend 100 1 (-1) 9 1 0
def Q5 : Demo := Q4.isend 100 0 (-1) 5 2 1
def Q6 : Demo := Q5.irecvNull 400 1 (-1) 5 2
def Q7 : Demo := Q6.irecv 500 2 (-1) (-1) 9 2 1
def Q8 : Demo := Q7.irecv 600 1 (-1) 0 (-1) 2 1

theorem Q8_ok : Q8.Ok := by
  have h2 : Q2.Ok := Demo.dup_ok H1_ok (by decide +kernel) (by decide +kernel)
  have h3 : Q3.Ok := Demo.isend_ok h2 (by decide +kernel) (by decide +kernel)
  have h4 : Q4.Ok := Demo.isend_ok h3 (by decide +kernel) (by decide +kernel)
  have h5 : Q5.Ok := Demo.isend_ok h4 (by decide +kernel) (by decide +kernel)
  have h6 : Q6.Ok := Demo.irecvNull_ok h5 1 (by decide +kernel) (by decide +kernel)
  have h7 : Q7.Ok := Demo.irecv_ok h6 (by decide +kernel) (by decide +kernel)
  exact Demo.irecv_ok h7 (by decide +kernel) (by decide +kernel)

theorem H5_Q8 : H5.L.word 0 = Q8.L.word 1 := by decide +kernel

example : H5.L.word 0 = [(.send, 5), (.send, 5), (.recv, 9), (.recv, -1)] := by decide +kernel

/-- C67_unique, C67_pairing: the pairing of that word: the receive for any tag meets the first send. -/
example : ∃ P, IsPairing [(.send, 5), (.send, 5), (.recv, 9), (.recv, -1)] P ∧ P 0 3 ∧ ¬ P 1 3 := by
  refine ⟨H5.L.joined 0, C67_pairing H5_ok 0, ⟨by decide, 0, 3, ⟨.send, 0, 5, 100, 3, -1, 2, .matched 3⟩, by decide +kernel, by decide +kernel,
    by decide +kernel, by decide +kernel⟩, ?_⟩
  rintro ⟨_, i, j, o, h1, h2, h3, h4⟩
  have e : H5.L.posted 0 = [0, 1, 2, 3] := by decide +kernel
  unfold Ledger.isNth at h1
  rw [e] at h1
  cases h1
  have e : H5.L.ops[1]? = some ⟨.send, 0, 5, 101, 1, -1, 3, .pending⟩ := by decide +kernel
  rw [e] at h3
  cases h3
  cases h4

/-- C67_same. -/
example : Q8.L.joined 1 0 3 := (C67_same H5_ok Q8_ok H5_Q8 0 3).1
  ⟨by decide, 0, 3, ⟨.send, 0, 5, 100, 3, -1, 2, .matched 3⟩, by decide +kernel, by decide +kernel, by decide +kernel, by decide +kernel⟩

/-- C67_complete, C67_status: the last receive, request 5 of the first and 8 of the second program. -/
example : H5.L.isRequest 0 3 5 ∧ Q8.L.isRequest 1 3 8 :=
  ⟨⟨3, by decide +kernel, by decide +kernel⟩, ⟨5, by decide +kernel, by decide +kernel⟩⟩
example : CompleteAs Q8.s 8 0 5 := by
  refine (C67_status H5_ok Q8_ok H5_Q8 (k := 3) (h := 5) (tag := -1) (by decide +kernel)
    ⟨3, by decide +kernel, by decide +kernel⟩ ⟨5, by decide +kernel, by decide +kernel⟩ 0 5).1 ?_
  obtain ⟨p, h1, _, h2, _⟩ := C13_status H5_ok (h := 5) (i := 3) (j := 0)
    (o := ⟨.recv, 0, -1, 300, 3, -1, 5, .matched 0⟩) (by decide +kernel) (by decide +kernel) rfl rfl
  have e : H5.L.ops[0]? = some ⟨.send, 0, 5, 100, 3, -1, 2, .matched 3⟩ := by decide +kernel
  rw [e] at h1
  cases h1
  exact h2

/-- C67_probe: tag 5 is found on both communicators. -/
example : (MPI_Iprobe H5.s 0 5 1 (.obj ⟨7, 7, 7, 7⟩) >>= fun r => Res.ok r.2) =
    (MPI_Iprobe Q8.s 0 5 2 (.obj ⟨7, 7, 7, 7⟩) >>= fun r => Res.ok r.2) :=
  C67_probe H5_ok Q8_ok H5_Q8 (by decide +kernel) (by decide +kernel) (Or.inl rfl) 5 (by simp)

/-- C67_word: the first send of `Q8` leaves the word of MPI_COMM_WORLD unchanged and adds a letter to the other. -/
example : Q3.L.word 0 = Q2.L.word 0 ∧ Q3.L.word 1 = Q2.L.word 1 ++ [(.send, 5)] := by decide +kernel

end MpiSerial
