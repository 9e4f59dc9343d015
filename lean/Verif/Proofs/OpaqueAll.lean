import Verif.Proofs.OpaqueCalls

/-!
# Two machines that differ in handle numbers: every call
-/

set_option linter.unusedSimpArgs false
set_option autoImplicit false

namespace MpiSerial

open Res (Rel)

/-- Lists of the same length with related members. -/
inductive Aligned (R : Int → Int → Prop) : List Int → List Int → Prop
  | nil : Aligned R [] []
  | cons {a b : Int} {as bs : List Int} : R a b → Aligned R as bs → Aligned R (a :: as) (b :: bs)

theorem Aligned.mono {R S : Int → Int → Prop} {as bs : List Int} (h : Aligned R as bs) (hi : ∀ a b, a ∈ as → R a b → S a b) : Aligned S as bs := by
  induction h with
  | nil => exact .nil
  | cons h1 _ ih => exact .cons (hi _ _ (List.mem_cons_self ..) h1) (ih fun a b ha => hi a b (List.mem_cons_of_mem _ ha))

theorem Aligned.length {R : Int → Int → Prop} {as bs : List Int} (h : Aligned R as bs) : as.length = bs.length := by
  induction h with
  | nil => rfl
  | cons _ _ ih => rw [List.length_cons, List.length_cons, ih]

theorem Aligned.map {R : Int → Int → Prop} {f g : Int → Int} {as : List Int} (h : ∀ a ∈ as, R (f a) (g a)) : Aligned R (as.map f) (as.map g) := by
  induction as with
  | nil => exact .nil
  | cons a as ih => exact .cons (h a (List.mem_cons_self ..)) (ih fun b hb => h b (List.mem_cons_of_mem _ hb))

/-- Request `a` was handed in and MPI_REQUEST_NULL came back. -/
def Gone (hs out : List Int) (a : Int) : Prop := ∃ e ∈ hs.zip out, e.1 = a ∧ e.2 = 0

/-- No request is mentioned twice. -/
def Spread : List Int → Prop
  | [] => True
  | h :: hs => (h = 0 ∨ h ∉ hs) ∧ Spread hs

theorem WfReqs.spread {L : Ledger} : ∀ {hs : List Int}, WfReqs L hs → Spread hs
  | [], _ => trivial
  | _ :: _, h => ⟨h.1.imp id And.right, spread h.2⟩

theorem Same.without {l : Pairs} {h a a' : Int} (hs : Same l a a') (hn : a ≠ h) : Same (l.without h) a a' :=
  hs.imp id fun ⟨o, hm⟩ => ⟨o, Pairs.mem_without.2 ⟨hm, hn⟩⟩

/-- After a call on an array of requests. -/
def ArrAs (l : Pairs) (hs : List Int) (M' N' : Mach) (out out' : List Int) : Prop :=
  ∃ l', Full l' M' N' ∧ Aligned (Same l') out out' ∧ out.length = hs.length ∧ ∀ e ∈ l, Gone hs out e.1 ∨ e ∈ l'

section
variable {l : Pairs} {M N : Mach} {env : Env}

theorem Gone.head {h : Int} {hs out : List Int} : Gone (h :: hs) (0 :: out) h := ⟨(h, 0), List.mem_cons_self .., rfl, rfl⟩

theorem Gone.tail {h h' a : Int} {hs out : List Int} (hg : Gone hs out a) : Gone (h :: hs) (h' :: out) a := by
  obtain ⟨e, he, h1⟩ := hg
  exact ⟨e, List.mem_cons_of_mem _ he, h1⟩

theorem Gone.mem {a : Int} {hs out : List Int} (hg : Gone hs out a) : a ∈ hs := by
  obtain ⟨e, he, h1, _⟩ := hg
  exact h1 ▸ (List.of_mem_zip he).1

/-- The rest of an array after its first request was tested. -/
theorem rest_same {h h' : Int} {hs hs' : List Int} (hF : Full l M N) (hb : Aligned (Same l) (h :: hs) (h' :: hs'))
    (hd : h = 0 ∨ h ∉ hs) : Aligned (Same (l.without h)) hs hs' := by
  cases hb with
  | cons h1 h2 =>
    rcases hd with rfl | hd
    · rw [Pairs.without_self hF.zero_not]; exact h2
    · exact h2.mono fun a b ha hs => hs.without fun e => hd (e ▸ ha)

theorem mem_rest {h : Int} {e : Int × Int × Obj} (he : e ∈ l) : e.1 = h ∨ e ∈ l.without h := by
  by_cases h1 : e.1 = h
  · exact .inl h1
  · exact .inr (Pairs.mem_without.2 ⟨he, h1⟩)

theorem testany_as : ∀ {hs hs' : List Int} {M N : Mach} (st : StPtr), Full l M N → M.L.inited = true → Aligned (Same l) hs hs' → Spread hs →
    (M.testany hs st).Rel (fun x y => x.2.2 = y.2.2 ∧ ArrAs l hs x.1 y.1 x.2.1 y.2.1) (N.testany hs' st)
  | [], _, _, _, st, hF, _, .nil, _ => ⟨rfl, l, hF, .nil, rfl, fun e he => .inr he⟩
  | h :: hs, _, M, N, st, hF, hi, hb, hd => by
    cases hb with
    | @cons _ h' _ hs' h1 h2 =>
    unfold Mach.testany
    refine Rel.bind (hF.test hi h1 st) fun x y _ _ ⟨q1, q2, q3, q4⟩ => ?_
    rw [q1]
    refine Rel.ite (fun hf => ?_) fun hf => ?_
    · rcases q4 with ⟨p1, p2, p3, p4⟩ | ⟨p1, p2, p3, p4, p5⟩
      · refine ⟨by dsimp only; rw [q2], l.without h, p4, ?_, by simp only [List.length_cons], ?_⟩
        · dsimp only
          rw [p1, p2]
          exact .cons (.inl ⟨rfl, Int.le_refl _⟩) (rest_same hF (.cons h1 h2) hd.1)
        · intro e he
          dsimp only
          rw [p1]
          rcases mem_rest (h := h) he with rfl | he
          · exact .inl .head
          · exact .inr he
      · rw [← q1, p3] at hf; exact absurd rfl hf
    · rcases q4 with ⟨p1, p2, p3, p4⟩ | ⟨p1, p2, p3, p4, p5⟩
      · rw [← q1, p3] at hf; exact absurd (by decide) hf
      · rw [q2]
        refine Rel.bind (testany_as y.status p5 (q3.trans hi) h2 hd.2) fun x' y' _ _ ⟨k1, l', k2, k3, k4, k5⟩ => ?_
        obtain ⟨X, o, f, s⟩ := x'
        obtain ⟨Y, o', f', s'⟩ := y'
        cases k1
        dsimp only at k2 k3 k4 k5 ⊢
        refine ⟨rfl, l', k2, ?_, by simp only [List.length_cons, k4], fun e he => (k5 e he).imp .tail id⟩
        dsimp only
        rw [p1, p2]
        refine .cons ?_ k3
        rcases h1 with h1 | ⟨o, h1⟩
        · exact .inl h1
        · rcases k5 _ h1 with hg | hg
          · exact absurd hg.mem (hd.1.resolve_left p4)
          · exact .inr ⟨o, hg⟩

/-- One request of an array, and the rest. -/
theorem arr_cons {h h' : Int} {hs : List Int} {x y : Tested} {X Y : Mach} {o o' : List Int}
    (h1 : Same l h h') (hd : h = 0 ∨ h ∉ hs) (l₁ : Pairs)
    (hq : (x.request = 0 ∧ y.request = 0 ∧ l₁ = l.without h) ∨ (x.request = h ∧ y.request = h' ∧ h ≠ 0 ∧ l₁ = l))
    (ha : ArrAs l₁ hs X Y o o') : ArrAs l (h :: hs) X Y (x.request :: o) (y.request :: o') := by
  obtain ⟨l', k2, k3, k4, k5⟩ := ha
  rcases hq with ⟨p1, p2, rfl⟩ | ⟨p1, p2, p4, rfl⟩
  · refine ⟨l', k2, ?_, by simp only [List.length_cons, k4], ?_⟩
    · rw [p1, p2]
      exact .cons (.inl ⟨rfl, Int.le_refl _⟩) k3
    · intro e he
      rw [p1]
      rcases mem_rest (h := h) he with rfl | he
      · exact .inl .head
      · exact (k5 e he).imp .tail id
  · refine ⟨l', k2, ?_, by simp only [List.length_cons, k4], fun e he => (k5 e he).imp .tail id⟩
    rw [p1, p2]
    refine .cons ?_ k3
    rcases h1 with h1 | ⟨o, h1⟩
    · exact .inl h1
    · rcases k5 _ h1 with hg | hg
      · exact absurd hg.mem (hd.resolve_left p4)
      · exact .inr ⟨o, hg⟩

theorem testeach_as : ∀ {hs hs' : List Int} {l : Pairs} {M N : Mach} (i : Nat) (sts : StArr), Full l M N → M.L.inited = true →
    Aligned (Same l) hs hs' → Spread hs →
    (M.testeach i hs sts).Rel (fun x y => x.2.2 = y.2.2 ∧ ArrAs l hs x.1 y.1 x.2.1 y.2.1) (N.testeach i hs' sts)
  | [], _, l, _, _, _, _, hF, _, .nil, _ => ⟨rfl, l, hF, .nil, rfl, fun e he => .inr he⟩
  | h :: hs, _, l, M, N, i, sts, hF, hi, hb, hd => by
    cases hb with
    | @cons _ h' _ hs' h1 h2 =>
    unfold Mach.testeach
    refine Rel.bind_same fun st _ => ?_
    refine Rel.bind (hF.test hi h1 st) fun x y _ _ ⟨q1, q2, q3, q4⟩ => ?_
    rw [q2]
    have hl : ∃ l₁, Full l₁ x.mach y.mach ∧ Aligned (Same l₁) hs hs' ∧
        ((x.request = 0 ∧ y.request = 0 ∧ l₁ = l.without h) ∨ (x.request = h ∧ y.request = h' ∧ h ≠ 0 ∧ l₁ = l)) := by
      rcases q4 with ⟨p1, p2, p3, p4⟩ | ⟨p1, p2, p3, p4, p5⟩
      · exact ⟨_, p4, rest_same hF (.cons h1 h2) hd.1, .inl ⟨p1, p2, rfl⟩⟩
      · exact ⟨_, p5, h2, .inr ⟨p1, p2, p4, rfl⟩⟩
    obtain ⟨l₁, p1, p2, p3⟩ := hl
    refine Rel.bind (testeach_as (i + 1) _ p1 (q3.trans hi) p2 hd.2) fun x' y' _ _ ⟨k1, k2⟩ => ?_
    obtain ⟨X, o, f, s⟩ := x'
    obtain ⟨Y, o', f', s'⟩ := y'
    cases k1
    dsimp only at k2 ⊢
    refine ⟨?_, arr_cons h1 hd.1 l₁ p3 k2⟩
    dsimp only
    rw [q1]

theorem waitall_as : ∀ {hs hs' : List Int} {l : Pairs} {M N : Mach} (i : Nat) (sts : StArr), Full l M N → M.L.inited = true →
    Aligned (Same l) hs hs' → Spread hs →
    (M.waitall i hs sts).Rel (fun x y => x.2.2 = y.2.2 ∧ ArrAs l hs x.1 y.1 x.2.1 y.2.1) (N.waitall i hs' sts)
  | [], _, l, _, _, _, _, hF, _, .nil, _ => ⟨rfl, l, hF, .nil, rfl, fun e he => .inr he⟩
  | h :: hs, _, l, M, N, i, sts, hF, hi, hb, hd => by
    cases hb with
    | @cons _ h' _ hs' h1 h2 =>
    unfold Mach.waitall
    refine Rel.bind_same fun st _ => ?_
    refine Rel.bind (hF.test hi h1 st) fun x y _ _ ⟨q1, q2, q3, q4⟩ => ?_
    rw [q1]
    refine Rel.ite (fun _ => rfl) fun hf => ?_
    rw [q2]
    rcases q4 with ⟨p1, p2, p3, p4⟩ | ⟨p1, p2, p3, p4, p5⟩
    · refine Rel.bind (waitall_as (i + 1) _ p4 (q3.trans hi) (rest_same hF (.cons h1 h2) hd.1) hd.2) fun x' y' _ _ ⟨k1, k2⟩ => ?_
      obtain ⟨X, o, s⟩ := x'
      obtain ⟨Y, o', s'⟩ := y'
      cases k1
      dsimp only at k2 ⊢
      exact ⟨rfl, arr_cons h1 hd.1 _ (.inl ⟨p1, p2, rfl⟩) k2⟩
    · rw [← q1, p3] at hf; exact absurd rfl hf

/-! ## Datatypes -/

theorem Full.newType (hF : Full l M N) (hi : M.L.inited = true) (build : Garbage → Res Typestruct) :
    (M.newType env build).Rel (Full.New l) (N.newType env build) := by
  unfold Mach.newType
  refine Rel.bind hF.fresh fun x y _ _ ⟨P, Q, h1, h2, h3⟩ => ?_
  obtain ⟨x, a⟩ := x
  obtain ⟨y, a'⟩ := y
  dsimp only at h1 h2 h3 ⊢
  subst h1 h2
  dsimp only
  rw [hF.built]
  refine Rel.bind_same fun t _ => ?_
  have hg := hF.gt_one hi h3
  refine ⟨hg.1, hg.2, h3.new, .dtype t, ?_⟩
  have hr := hF.add (o := .dtype t) (L := M.L.addType a t) (L' := N.L.addType a' t) (P := P) (Q := Q) (m := M.mem) (b := N.built + 1)
    h3.pos.1 h3.pos.2 h3.new.1 h3.new.2 rfl rfl rfl rfl hF.ncomms (Nat.le_refl _) (fun c hc => nomatch hc) hF.inited
  have := hF.join hi h3 hr rfl
  dsimp only
  rw [hF.mem] at this ⊢
  exact this

theorem Ren.typesEq {f g : Int → Int} (hr : Ren l M N) : ∀ {ts : List Int}, (∀ t ∈ ts, Same l (f t) (g t)) →
    M.types env (ts.map f) = N.types env (ts.map g)
  | [], _ => rfl
  | t :: ts, h => by
    rw [List.map_cons, List.map_cons]
    unfold Mach.types
    rw [hr.type (h t (List.mem_cons_self ..)), Ren.typesEq hr fun x hx => h x (List.mem_cons_of_mem _ hx)]

/-- What MPI_Type_commit does to an object. -/
def Obj.commit : Obj → Obj
  | .dtype t => .dtype { t with committed := 1 }
  | o => o

theorem commit_objs (L : Ledger) (h : Int) : (L.commit h).objs = L.objs.map fun e => (e.1, if e.1 = h then e.2.commit else e.2) := by
  unfold Ledger.commit
  dsimp only
  apply List.map_congr_left
  intro e _
  obtain ⟨a, o⟩ := e
  cases o <;> dsimp only [Obj.commit] <;> split <;> simp_all

theorem Full.commit (hF : Full l M N) {h h' : Int} (hs : Same l h h') :
    ∃ l', Full l' (M.commit h) (N.commit h') ∧ ∀ e ∈ l, ∃ o, (e.1, e.2.1, o) ∈ l' := by
  rcases hs with ⟨rfl, hp⟩ | ⟨o, hm⟩
  · by_cases h0 : h < 0
    · unfold Mach.commit
      rw [if_pos h0, if_pos h0]
      exact ⟨l, hF, fun e he => ⟨_, he⟩⟩
    · have h00 : h = 0 := by omega
      subst h00
      have key : ∀ K : Mach, (∀ e ∈ K.L.objs, e.1 ≠ 0) → K.commit 0 = K := fun K hK => by
        unfold Mach.commit
        rw [if_neg h0]
        have : (K.L.commit 0).objs = K.L.objs := by
          rw [commit_objs]
          conv => rhs; rw [← List.map_id K.L.objs]
          exact List.map_congr_left fun e he => by rw [if_neg (hK e he)]; rfl
        have h2 : K.L.commit 0 = { K.L with objs := (K.L.commit 0).objs } := rfl
        rw [h2, this]
      have k1 : M.commit 0 = M := key M fun e he => by
        rw [hF.objs] at he
        obtain ⟨x, hx, rfl⟩ := List.mem_map.1 he
        exact hF.zero_not x hx
      have k2 : N.commit 0 = N := key N fun e he => by
        rw [hF.objs'] at he
        obtain ⟨x, hx, rfl⟩ := List.mem_map.1 he
        have := hF.ok.pos x hx
        dsimp only
        omega
      rw [k1, k2]
      exact ⟨l, hF, fun e he => ⟨_, he⟩⟩
  · have hpos := hF.ok.pos _ hm
    dsimp only at hpos
    unfold Mach.commit
    rw [if_neg (by omega), if_neg (by omega)]
    let F : Int × Int × Obj → Int × Int × Obj := fun e => (e.1, e.2.1, if e.1 = h then e.2.2.commit else e.2.2)
    have hmem : ∀ e ∈ l, F e ∈ l.map F := fun e he => List.mem_map_of_mem he
    have hcomm : ∀ a a' c, (a, a', Obj.comm c) ∈ l.map F ↔ (a, a', Obj.comm c) ∈ l := by
      intro a a' c
      constructor
      · intro hx
        obtain ⟨⟨b, b', q⟩, he, heq⟩ := List.mem_map.1 hx
        simp only [F, Prod.mk.injEq] at heq
        obtain ⟨rfl, rfl, heq⟩ := heq
        cases q with
        | comm _ => simp only [Obj.commit, ite_self] at heq; rw [← heq]; exact he
        | req _ => simp only [Obj.commit, ite_self] at heq; cases heq
        | dtype _ => simp only [Obj.commit] at heq; split at heq <;> cases heq
      · intro hx
        have := hmem _ hx
        simp only [F, Obj.commit, ite_self] at this
        exact this
    refine ⟨l.map F, ?_, fun e he => ⟨_, hmem e he⟩⟩
    have hr : Ren (l.map F) ⟨M.L.commit h, M.pool, M.mem, M.built⟩ ⟨N.L.commit h', N.pool, N.mem, N.built⟩ := by
      refine ⟨⟨?_, ?_, ?_⟩, ?_, ?_, hF.ops, ?_, hF.cids, ?_, hF.ncomms, hF.inited, hF.mem, hF.built⟩
      · rw [List.map_map]; exact hF.ok.fst
      · rw [List.map_map]; exact hF.ok.snd
      · intro e he
        obtain ⟨x, hx, rfl⟩ := List.mem_map.1 he
        exact hF.ok.pos x hx
      · dsimp only
        rw [commit_objs, hF.objs, List.map_map, List.map_map]
        rfl
      · dsimp only
        rw [commit_objs, hF.objs', List.map_map, List.map_map]
        apply List.map_congr_left
        intro e he
        obtain ⟨a, a', q⟩ := e
        dsimp only [Function.comp, F]
        have := hF.ok.iff (.inr ⟨_, he⟩) (.inr ⟨_, hm⟩)
        by_cases hc : a = h
        · rw [if_pos hc, if_pos (this.1 hc)]
        · rw [if_neg hc, if_neg fun e => hc (this.2 e)]
      · intro i a a' ha ha' hst ⟨x, x', hx⟩
        rcases hF.types i a a' ha ha' hst ⟨x, x', (hcomm _ _ _).1 hx⟩ with hs | ⟨t, hs⟩
        · exact .inl hs
        · have := hmem _ hs
          simp only [F, Obj.commit] at this
          split at this
          · exact .inr ⟨_, this⟩
          · exact .inr ⟨_, this⟩
      · intro x x' c hx
        exact hF.comms _ _ _ ((hcomm _ _ _).1 hx)
    refine { toRen := hr, fst := ?_, snd := ?_, world := ⟨fun hi => ?_, fun hi => ?_⟩ }
    · refine hF.fst.congr fun a => ?_
      rw [hr.uses, hF.uses]
      constructor
      · rintro ⟨x, hx, rfl⟩
        obtain ⟨y, hy, rfl⟩ := List.mem_map.1 hx
        exact ⟨y, hy, rfl⟩
      · rintro ⟨x, hx, rfl⟩
        exact ⟨_, hmem x hx, rfl⟩
    · refine hF.snd.congr fun a => ?_
      rw [hr.uses', hF.uses']
      constructor
      · rintro ⟨x, hx, rfl⟩
        obtain ⟨y, hy, rfl⟩ := List.mem_map.1 hx
        exact ⟨y, hy, rfl⟩
      · rintro ⟨x, hx, rfl⟩
        exact ⟨_, hmem x hx, rfl⟩
    · obtain ⟨c, hc⟩ := hF.world.1 hi
      exact ⟨c, (hcomm _ _ _).2 hc⟩
    · rw [hF.world.2 hi]; rfl

theorem Ren.fortChecks (hr : Ren l M N) (a : FortArgs)
    (ha : ∀ n ∈ ["MPI_INTEGER", "MPI_LOGICAL", "MPI_REAL", "MPI_DOUBLE_PRECISION", "MPI_COMPLEX"], -45 ≤ a.const n ∧ a.const n < 0) :
    M.fortChecks env a = N.fortChecks env a := by
  have key : ∀ n, n ∈ ["MPI_INTEGER", "MPI_LOGICAL", "MPI_REAL", "MPI_DOUBLE_PRECISION", "MPI_COMPLEX"] → ∀ p q e,
      M.verifySize env a n p q e = N.verifySize env a n p q e := fun n hn p q e => by
    unfold Mach.verifySize
    rw [hr.type (h := a.const n) (h' := a.const n) (.inl ⟨rfl, by have := ha n hn; omega⟩)]
  unfold Mach.fortChecks
  simp only [key "MPI_INTEGER" (by simp), key "MPI_LOGICAL" (by simp), key "MPI_REAL" (by simp),
    key "MPI_DOUBLE_PRECISION" (by simp), key "MPI_COMPLEX" (by simp)]

end
end MpiSerial
