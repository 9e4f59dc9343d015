import Verif.Proofs.TwinCalls

/-!
# Every call, with two contents of the leftover storage
-/

set_option autoImplicit false
set_option linter.unusedSimpArgs false

namespace MpiSerial

open Res (Rel)

section
variable {env : Env} {j : Nat → ReqRec} {L L' : Ledger} {s₁ s₂ s₁' s₂' : Sys}

theorem Grow.more (h : Grow 0 1 L L') : Grow 1 2 L L' := by
  obtain ⟨h1, h2⟩ := h
  constructor <;> omega

/-! ## Memory -/

/-- What only adds something that is not a request. -/
theorem Olds.cons {h : Int} {o : Obj} (ho : ∀ i, o ≠ .req i) (he : L'.objs = (h, o) :: L.objs) : Olds L L' := by
  intro h' i hm
  rw [he] at hm
  rcases List.mem_cons.1 hm with hm | hm
  · cases hm; exact absurd rfl (ho i)
  · exact hm

theorem Olds.commit (L : Ledger) (h : Int) : Olds L (L.commit h) := by
  intro h' i hm
  rcases mem_commit.1 hm with hm | ⟨_, u, _, hm⟩
  · exact hm.1
  · cases hm

theorem mem_twin (h : Agree s₁ s₂) (m : Mem) : Twin env j L s₁ s₂ { s₁ with mem := m } { s₂ with mem := m } :=
  ⟨L, .one .memory, .one .memory, h.withMem m, .refl _ _ _, .refl _⟩

/-- The descriptor behind a datatype handle is the same in both. -/
theorem typeOf_twin (hp : Both env j L s₁ s₂) {h : Int} (hty : IsType env L h) :
    ∃ t, typeOf env s₁ h = .ok (s₁, t) ∧ typeOf (env.withJunk j) s₂ h = .ok (s₂, t) := by
  obtain ⟨M₁, lst₁, hi₁⟩ := hp.r₁.inv
  obtain ⟨M₂, lst₂, hi₂⟩ := hp.r₂.inv
  obtain ⟨t, hd⟩ := hty
  exact ⟨t, hi₁.typeOf hd, hi₂.typeOf (env := env.withJunk j) hd⟩

theorem copy_twin (hp : Both env j L s₁ s₂) {a b : Int} (ha : IsType env L a) (hb : IsType env L b) (p n q k : Int) :
    (copy_data2 env s₁ p n a q k b).Rel (Twin env j L s₁ s₂) (copy_data2 (env.withJunk j) s₂ p n a q k b) := by
  obtain ⟨M₁, lst₁, hi₁⟩ := hp.r₁.inv
  obtain ⟨M₂, lst₂, hi₂⟩ := hp.r₂.inv
  obtain ⟨ta, ha⟩ := ha
  obtain ⟨tb, hb⟩ := hb
  obtain ⟨pa, h1, h2⟩ := typeOf_desc (env := env) hi₁.hst hi₁.typesOk ha
  obtain ⟨pb, h3, h4⟩ := typeOf_desc (env := env) hi₁.hst hi₁.typesOk hb
  obtain ⟨pa', h5, h6⟩ := typeOf_desc (env := env.withJunk j) hi₂.hst hi₂.typesOk ha
  obtain ⟨pb', h7, h8⟩ := typeOf_desc (env := env.withJunk j) hi₂.hst hi₂.typesOk hb
  unfold copy_data2
  rw [h1, h5, Res.ok_bind, Res.ok_bind]
  dsimp only
  rw [h3, h7, Res.ok_bind, Res.ok_bind]
  dsimp only
  rw [h2, Res.ok_bind, h4, Res.ok_bind, h6, Res.ok_bind, h8, Res.ok_bind, hp.ag.mem]
  exact Rel.bind_same fun m _ => mem_twin hp.ag m

theorem extent_twin (hp : Both env j L s₁ s₂) {h : Int} (hty : IsType env L h) :
    (MPI_Type_extent env s₁ h).Rel (fun x y => x.1 = s₁ ∧ y.1 = s₂ ∧ x.2 = y.2) (MPI_Type_extent (env.withJunk j) s₂ h) := by
  obtain ⟨t, h1, h2⟩ := typeOf_twin hp hty
  unfold MPI_Type_extent
  rw [h1, h2, Res.ok_bind, Res.ok_bind]
  exact Rel.bind_same fun _ _ => ⟨rfl, rfl, rfl⟩

/-! ## Datatypes -/

theorem newType_rel (h : Agree s₁ s₂) (build : Garbage → Res Typestruct) :
    (newType env s₁ build).Rel AgreeR (newType (env.withJunk j) s₂ build) := by
  unfold newType
  obtain ⟨t, rfl, ht⟩ := h.out
  refine (ht.alloc .raw).bind fun a b _ _ hab => ?_
  obtain ⟨a1, a2, a3⟩ := a
  obtain ⟨b1, b2, b3⟩ := b
  obtain ⟨h1, h2⟩ := hab
  simp only [Prod.mk.injEq] at h2
  obtain ⟨rfl, rfl⟩ := h2
  exact Rel.bind_same fun ty _ => ⟨.mk' (h1.setData _ (.refl _)), rfl⟩

theorem newType_twin (hp : Both env j L s₁ s₂) {build : Garbage → Res Typestruct} {x y : Res (Sys × Int)}
    (hc : TypeCall env L s₁ build x) (hc' : TypeCall (env.withJunk j) L s₂ build y) :
    x.Rel (fun x y => Twin env j L s₁ s₂ x.1 y.1 ∧ x.2 = y.2) y := by
  obtain ⟨M₁, lst₁, hi₁⟩ := hp.r₁.inv
  obtain ⟨M₂, lst₂, hi₂⟩ := hp.r₂.inv
  have e1 := hc.eq hi₁
  have e2 := hc'.eq hi₂
  have hr : x.Rel AgreeR y := by rw [e1, e2]; exact newType_rel hp.ag build
  refine hr.mono fun ⟨a1, a2⟩ ⟨b1, b2⟩ hx hy ⟨h1, h2⟩ => ⟨?_, h2⟩
  dsimp only at h1 h2
  subst h2
  have hb : ∃ t, build (env.garbage s₁.nextType) = .ok t := by
    rw [hx] at e1
    unfold newType at e1
    obtain ⟨z, _, hz⟩ := Res.bind_eq_ok.1 e1.symm
    obtain ⟨t, ht, _⟩ := Res.bind_eq_ok.1 hz
    exact ⟨t, ht⟩
  obtain ⟨t, ht⟩ := hb
  have hn : s₂.nextType = s₁.nextType := by obtain ⟨u, rfl, _⟩ := hp.ag.out; rfl
  exact ⟨_, .one (Step.newType hc hx ht), .one (Step.newType hc' hy (by rw [hn]; exact ht)), h1, .refl 1 2 L, .cons (o := .dtype _) (fun _ h => nomatch h) rfl⟩

theorem struct_twin (hp : Both env j L s₁ s₂) {n : Int} {b d ts : List Int} (h1 : n = b.length) (h2 : n = d.length)
    (h3 : n = ts.length) (hty : ∀ t ∈ ts, IsType env L t) :
    (MPI_Type_struct env s₁ n b d ts).Rel (fun x y => Twin env j L s₁ s₂ x.1 y.1 ∧ x.2 = y.2)
      (MPI_Type_struct (env.withJunk j) s₂ n b d ts) := by
  obtain ⟨ds, h4, h5⟩ := types_list hty
  have hc := TypeCall.struct (env := env) (L := L) (s := s₁) (blocklens := b) (disps := d) (by omega) (by omega) h4 h5
  have hc' := TypeCall.struct (env := env.withJunk j) (L := L) (s := s₂) (blocklens := b) (disps := d) (by omega) (by omega) h4 h5
  rw [← h3] at hc hc'
  exact newType_twin hp hc hc'

theorem commit_rel (h : Agree s₁ s₂) (x : Int) : (MPI_Type_commit env s₁ x).Rel Agree (MPI_Type_commit (env.withJunk j) s₂ x) := by
  unfold MPI_Type_commit
  refine bindR (toType_rel h x) fun a b p _ _ hab => ?_
  dsimp only
  rw [derefType_rel (env := env) (j := j) hab]
  refine Rel.bind_same fun t _ => ?_
  obtain ⟨u, rfl, hu⟩ := hab.out
  cases p with
  | heap q => exact .mk' hu
  | null => exact .mk' hu
  | static k => exact .mk' hu

theorem commit_twin (hp : Both env j L s₁ s₂) {h : Int} (hty : IsType env L h) :
    (MPI_Type_commit env s₁ h).Rel (Twin env j L s₁ s₂) (MPI_Type_commit (env.withJunk j) s₂ h) := by
  obtain ⟨M₁, lst₁, hi₁⟩ := hp.r₁.inv
  obtain ⟨M₂, lst₂, hi₂⟩ := hp.r₂.inv
  obtain ⟨t, hd⟩ := hty
  rcases desc_live hd with ⟨h1, h2⟩ | ⟨h1, h2⟩
  · unfold MPI_Type_commit handleToDatatype
    obtain ⟨p, h3, h4⟩ := typeOf_desc (env := env) hi₁.hst hi₁.typesOk hd
    have h5 : simpletypePtr h = .ok p := by
      unfold handleToDatatype at h3
      rw [if_pos h1] at h3
      cases hp : simpletypePtr h <;> rw [hp] at h3 <;> simp at h3
      rw [h3]
    rw [if_pos h1, if_pos h1, h5, Res.ok_bind, Res.ok_bind, Res.pure_bind', Res.pure_bind']
    dsimp only
    rw [← derefType_rel (env := env) (j := j) hp.ag, h4, Res.ok_bind, Res.ok_bind]
    cases p with
    | heap q =>
      unfold simpletypePtr at h5
      dsimp only at h5
      split at h5
      · cases h5
      · split at h5 <;> cases h5
    | null => exact .refl hp.ag
    | static k => exact .refl hp.ag
  · exact (commit_rel hp.ag h).mono fun a b ha hb hab => ⟨_, .one (.commit h2 ha), .one (.commit h2 hb), hab, .refl 1 2 L, .commit _ _⟩

theorem typeFree_rel (h : Agree s₁ s₂) (x : Int) : (MPI_Type_free s₁ x).Rel Agree (MPI_Type_free s₂ x) := by
  unfold MPI_Type_free
  refine bindR (toType_rel h x) fun a b p _ _ hab => ?_
  dsimp only
  have : (freeType a p).Rel Agree (freeType b p) := by
    obtain ⟨u, rfl, hu⟩ := hab.out
    cases p with
    | heap q =>
      unfold freeType
      dsimp only
      cases a.theap q with
      | none => rfl
      | some t => exact .mk' hu
    | null => exact .mk' hu
    | static k => rfl
  refine this.bind fun a b _ _ hab => ?_
  refine (hab.tab.free x).bind fun t u _ _ htu => ?_
  obtain ⟨v, rfl, _⟩ := hab.out
  exact .mk' htu

/-! ## Communicators -/

theorem commNew_rel (h : Agree s₁ s₂) : (mpi_comm_new s₁).Rel AgreeR (mpi_comm_new s₂) := by
  unfold mpi_comm_new
  obtain ⟨t, rfl, ht⟩ := h.out
  refine (ht.alloc .raw).bind fun a b _ _ hab => ?_
  obtain ⟨a1, a2, a3⟩ := a
  obtain ⟨b1, b2, b3⟩ := b
  obtain ⟨h1, h2⟩ := hab
  simp only [Prod.mk.injEq] at h2
  obtain ⟨rfl, rfl⟩ := h2
  exact Rel.bind_same fun _ _ => Rel.bind_same fun _ _ => Rel.bind_same fun _ _ => ⟨.mk' (h1.setData _ (.refl _)), rfl⟩

theorem comm_twin (hrm : Room L) {x y : Res (Sys × Int)} (hc : CommCall s₁ x) (hc' : CommCall s₂ y)
    (h : x.Rel AgreeR y) : x.Rel (fun x y => Twin env j L s₁ s₂ x.1 y.1 ∧ x.2 = y.2) y := by
  refine h.mono fun ⟨a1, a2⟩ ⟨b1, b2⟩ hx hy ⟨h1, h2⟩ => ⟨?_, h2⟩
  dsimp only at h1 h2
  subst h2
  exact ⟨_, .one (.comm hrm.1 hrm.2.1 hc hx), .one (.comm hrm.1 hrm.2.1 hc' hy), h1, by
    unfold Ledger.noteComm
    split
    · exact .refl _ _ _
    · exact ⟨Nat.le_refl _, Nat.le_add_right _ _⟩, by
    unfold Ledger.noteComm
    split
    · exact .refl _
    · exact .cons (o := .comm _) (fun _ h => nomatch h) rfl⟩

theorem init_rel (h : Agree s₁ s₂) : (MPI_Init s₁).Rel Agree (MPI_Init s₂) := by
  unfold MPI_Init
  refine bindR (commNew_rel h) fun a b c _ _ hab => ?_
  dsimp only
  refine Rel.ite (fun _ => rfl) fun _ => ?_
  obtain ⟨t, rfl, ht⟩ := hab.out
  exact .mk' ht

theorem init_twin (hp : Both env j L s₁ s₂) (hrm : Room L) : (MPI_Init s₁).Rel (Twin env j L s₁ s₂) (MPI_Init s₂) :=
  (init_rel hp.ag).mono fun _ _ hx hy hab => ⟨_, .one (.init hrm.1 hrm.2.1 hx), .one (.init hrm.1 hrm.2.1 hy), hab, ⟨Nat.le_refl _, Nat.le_add_right _ _⟩,
    .cons (o := .comm _) (fun _ h => nomatch h) rfl⟩

theorem finalize_twin (h : Agree s₁ s₂) : Twin env j L s₁ s₂ (MPI_Finalize s₁) (MPI_Finalize s₂) := by
  refine ⟨_, .one .finalize, .one .finalize, ?_, .refl 1 2 L, fun _ _ h => nomatch h⟩
  obtain ⟨t, rfl, ht⟩ := h.out
  unfold MPI_Finalize
  exact .mk' ht.destroy

theorem commFree_rel (h : Agree s₁ s₂) (x : Int) : (MPI_Comm_free s₁ x).Rel AgreeR (MPI_Comm_free s₂ x) := by
  unfold MPI_Comm_free
  refine bindR (ptr_rel h x) fun a b p _ _ hab => ?_
  dsimp only
  rw [comm_rel hab, hab.lists]
  refine Rel.bind_same fun _ _ => Rel.bind_same fun _ _ => Rel.bind_same fun _ _ => Rel.bind_same fun _ _ => Rel.bind_same fun _ _ => ?_
  refine (hab.tab.free x).bind fun t u _ _ htu => ?_
  obtain ⟨v, rfl, _⟩ := hab.out
  exact ⟨.mk' htu, rfl⟩

theorem requestFree_rel (h : Agree s₁ s₂) (x : Int) : (MPI_Request_free s₁ x).Rel AgreeR (MPI_Request_free s₂ x) := by
  unfold MPI_Request_free
  refine (h.tab.free x).bind fun t u _ _ htu => ?_
  obtain ⟨v, rfl, _⟩ := h.out
  exact ⟨.mk' htu, rfl⟩

/-! ## The Fortran start-up checks -/

theorem verify_size_twin (hp : Both env j L s₁ s₂) (a : FortArgs) {name : String} (hc : -45 ≤ a.const name ∧ a.const name < 0)
    (p q err : Int) : (verify_size env a name p q s₁ err).Rel (fun x y => x.1 = s₁ ∧ y.1 = s₂ ∧ x.2 = y.2)
      (verify_size (env.withJunk j) a name p q s₂ err) := by
  obtain ⟨t, h1, h2⟩ := typeOf_twin hp (IsType.simple hc.1 hc.2)
  unfold verify_size
  rw [h1, h2, Res.ok_bind, Res.ok_bind]
  exact Rel.bind_same fun _ _ => Rel.bind_same fun _ _ => ⟨rfl, rfl, rfl⟩

theorem stayR {α γ δ : Type} {S : γ → δ → Prop} {x y : Res (Sys × α)} {f : Sys × α → Res γ} {g : Sys × α → Res δ}
    (h : x.Rel (fun x y => x.1 = s₁ ∧ y.1 = s₂ ∧ x.2 = y.2) y) (h2 : ∀ a, (f (s₁, a)).Rel S (g (s₂, a))) :
    (x >>= f).Rel S (y >>= g) :=
  h.bind fun ⟨a1, a2⟩ ⟨b1, b2⟩ _ _ hab => by
    obtain ⟨h3, h4, h5⟩ := hab
    cases h3; cases h4; cases h5
    exact h2 _

theorem fortChecks_twin (hp : Both env j L s₁ s₂) (a : FortArgs)
    (hc : ∀ n ∈ ["MPI_INTEGER", "MPI_LOGICAL", "MPI_REAL", "MPI_DOUBLE_PRECISION", "MPI_COMPLEX"], -45 ≤ a.const n ∧ a.const n < 0) :
    (mpi_init_fort_checks env a s₁).Rel (fun x y => x = s₁ ∧ y = s₂) (mpi_init_fort_checks (env.withJunk j) a s₂) := by
  unfold mpi_init_fort_checks
  refine Rel.bind_same fun _ _ => Rel.bind_same fun _ _ => Rel.bind_same fun _ _ => ?_
  refine stayR (verify_size_twin hp a (hc _ (by simp)) _ _ _) fun _ => ?_
  refine stayR (verify_size_twin hp a (hc _ (by simp)) _ _ _) fun _ => ?_
  refine stayR (verify_size_twin hp a (hc _ (by simp)) _ _ _) fun _ => ?_
  refine stayR (verify_size_twin hp a (hc _ (by simp)) _ _ _) fun _ => ?_
  refine stayR (verify_size_twin hp a (hc _ (by simp)) _ _ _) fun _ => ?_
  exact Rel.ite (fun _ => rfl) fun _ => ⟨rfl, rfl⟩

/-! ## Every call -/

/-- The live requests after a call that hands back `vals` and leaves a request for an operation of kind `p`. -/
def News (p : Option Kind) (vals : List Int) (L L' : Ledger) : Prop :=
  ∀ h i o, (h, Obj.req i) ∈ L'.objs → L'.ops[i]? = some o →
    match p with
    | none => (h, Obj.req i) ∈ L.objs
    | some k => (vals = [h] ∧ o.kind = k) ∨ (vals ≠ [h] ∧ (h, Obj.req i) ∈ L.objs)

/-- Same results. -/
def Ans (env : Env) (j : Nat → ReqRec) (L : Ledger) (s₁ s₂ : Sys) (p : Option Kind) (b : Prop) (x y : Sys × Out) : Prop :=
  (∃ L', Steps env s₁ L x.1 L' ∧ Steps (env.withJunk j) s₂ L y.1 L' ∧ Agree x.1 y.1 ∧ Grow 1 2 L L' ∧ News p x.2.vals L L') ∧
    x.2.vals = y.2.vals ∧ (b → x.2.done = y.2.done)

theorem TwinN.news {vals : List Int} (h : Twin env j L s₁ s₂ s₁' s₂') :
    ∃ L', Steps env s₁ L s₁' L' ∧ Steps (env.withJunk j) s₂ L s₂' L' ∧ Agree s₁' s₂' ∧ Grow 1 2 L L' ∧ News none vals L L' := by
  obtain ⟨L', h1, h2, h3, h4, h5⟩ := h
  exact ⟨L', h1, h2, h3, h4, fun h i o hm _ => h5 h i hm⟩

theorem TwinN.ans {b : Prop} {o : Out} (h : Twin env j L s₁ s₂ s₁' s₂') : Ans env j L s₁ s₂ none b (s₁', o) (s₂', o) :=
  ⟨h.news, rfl, fun _ => rfl⟩

theorem ans0 {b : Prop} {x y : Res Sys} {o : Out} (h : x.Rel (Twin env j L s₁ s₂) y) :
    (x >>= fun r => Res.ok (r, o)).Rel (Ans env j L s₁ s₂ none b) (y >>= fun r => Res.ok (r, o)) :=
  h.bind fun _ _ _ _ h => h.ans

theorem ans1 {α : Type} {b : Prop} {x y : Res (Sys × α)} {f : α → Out} (h : x.Rel (fun x y => Twin env j L s₁ s₂ x.1 y.1 ∧ x.2 = y.2) y) :
    (x >>= fun r => Res.ok (r.1, f r.2)).Rel (Ans env j L s₁ s₂ none b) (y >>= fun r => Res.ok (r.1, f r.2)) :=
  h.bind fun a c _ _ ⟨h1, h2⟩ => by rw [h2]; exact h1.ans

theorem ansPost {b : Prop} {k : Kind} {x y : Res (Sys × Int)} (hp : Both env j L s₁ s₂)
    (h : x.Rel (fun x y => ∃ L', PostedT env j s₁ s₂ L k x y L') y) :
    (x >>= fun r => Res.ok (r.1, (⟨[r.2], []⟩ : Out))).Rel (Ans env j L s₁ s₂ (some k) b)
      (y >>= fun r => Res.ok (r.1, (⟨[r.2], []⟩ : Out))) :=
  h.bind fun a c _ _ ⟨L', h⟩ => by
    refine ⟨⟨L', h.e₁, h.e₂, h.ag, h.room.more, fun h' i o hm ho => ?_⟩, by rw [h.val], fun _ => rfl⟩
    dsimp only
    by_cases he : h' = a.2
    · subst he
      obtain ⟨i', o', h1, h2, h3⟩ := h.live
      have := nodup_fst_unique (h.both hp).r₁.nodup h1 hm
      cases this
      rw [ho] at h2
      cases h2
      exact Or.inl ⟨rfl, h3⟩
    · refine Or.inr ⟨fun hv => he ?_, (h.news _ _ hm).resolve_left he⟩
      simpa using hv.symm

theorem ansStay {α : Type} {b : Prop} {x y : Res (Sys × α)} {f : α → Out} (hp : Both env j L s₁ s₂)
    (h : x.Rel (fun x y => x.1 = s₁ ∧ y.1 = s₂ ∧ x.2 = y.2) y) :
    (x >>= fun r => Res.ok (r.1, f r.2)).Rel (Ans env j L s₁ s₂ none b) (y >>= fun r => Res.ok (r.1, f r.2)) :=
  ans1 (h.mono fun _ _ _ _ ⟨h1, h2, h3⟩ => ⟨by rw [h1, h2]; exact .refl hp.ag, h3⟩)

theorem Ans.done {b : Prop} {v w : List Int} {d e : List StPtr} (h : Twin env j L s₁ s₂ s₁' s₂') (h1 : v = w)
    (h2 : d.flatMap StPtr.kept = e.flatMap StPtr.kept) (h3 : b → d = e) :
    Ans env j L s₁ s₂ none b (s₁', .ofDone v d) (s₂', .ofDone w e) := by
  refine ⟨h.news, ?_, h3⟩
  unfold Out.ofDone
  rw [h1, h2]

theorem Ans.done1 {b : Prop} {v w : List Int} {p q : StPtr} (h : Twin env j L s₁ s₂ s₁' s₂') (h1 : v = w) (h2 : StSame b p q) :
    Ans env j L s₁ s₂ none b (s₁', .ofDone v [p]) (s₂', .ofDone w [q]) :=
  .done h h1 (by simp [h2.kept]) fun hb => by rw [h2.eq hb]

theorem ArrSame.ans {b : Prop} {v w : List Int} {p q : StArr} (h : Twin env j L s₁ s₂ s₁' s₂') (h1 : v = w) (h2 : ArrSame b p q) :
    Ans env j L s₁ s₂ none b (s₁', .ofDone v p.ptrs) (s₂', .ofDone w q.ptrs) :=
  .done h h1 h2.kept fun hb => by rw [h2.eq hb]

/-- One integer is handed back. -/
abbrev Out.int (v : Int) : Out := ⟨[v], []⟩

/-- A status is handed back. -/
abbrev Out.status (v : StPtr) : Out := ⟨v.vals, []⟩

theorem Call.twin (hp : Both env j L s₁ s₂) (hrm : Room L) (c : Call) (hc : c.Wf env L) :
    (c.answer env s₁).Rel (Ans env j L s₁ s₂ c.posts (c.onlyReceives L)) (c.answer (env.withJunk j) s₂) := by
  have hid : Twin env j L s₁ s₂ s₁ s₂ := .refl hp.ag
  have hu : L.unmatched < 2147483647 := by have := hrm.2.2; omega
  cases c with
  | store m => exact (mem_twin hp.ag m).ans
  | init => exact ans0 (init_twin hp hrm)
  | initThread r =>
    refine ans1 (f := .int) ?_
    unfold MPI_Init_thread
    exact (init_twin hp hrm).bind fun _ _ _ _ h => ⟨h, rfl⟩
  | fortInit a =>
    refine ans0 ((init_twin hp hrm).bind fun u v _ _ ⟨L', h1, h2, h3, h6⟩ => ?_)
    exact (fortChecks_twin ⟨hp.r₁.steps h1, hp.r₂.steps h2, h3⟩ a hc).mono fun _ _ _ _ ⟨h4, h5⟩ =>
      ⟨L', h4 ▸ h1, h5 ▸ h2, h4 ▸ h5 ▸ h3, h6⟩
  | initialized =>
    have : MPI_Initialized s₂ = MPI_Initialized s₁ := by obtain ⟨t, rfl, _⟩ := hp.ag.out; rfl
    unfold Call.answer
    dsimp only
    rw [this]
    exact hid.ans
  | finalize => exact (finalize_twin hp.ag).ans
  | abort a b => rfl
  | commDup a => exact ans1 (f := .int) (comm_twin hrm (.dup _) (.dup _) (commNew_rel hp.ag))
  | commCreate a b =>
    exact ans1 (f := .int) (comm_twin hrm (.create _ _) (.create _ _) (Rel.ite (fun _ => ⟨hp.ag, rfl⟩) fun _ => commNew_rel hp.ag))
  | commSplit a b c =>
    exact ans1 (f := .int) (comm_twin hrm (.split _ _ _) (.split _ _ _) (Rel.ite (fun _ => ⟨hp.ag, rfl⟩) fun _ => commNew_rel hp.ag))
  | intercommCreate a b c d e =>
    exact ans1 (f := .int) (comm_twin hrm (.intercomm _ _ _ _ _) (.intercomm _ _ _ _ _) (Rel.ite (fun _ => ⟨hp.ag, rfl⟩) fun _ => commNew_rel hp.ag))
  | cartCreate a b c =>
    exact ans1 (f := .int) (comm_twin hrm (.cart _ _ _) (.cart _ _ _) (Rel.bind_same fun _ _ => commNew_rel hp.ag))
  | commFree a =>
    obtain ⟨c, hc, _⟩ := hc
    exact ans1 (f := .int) ((commFree_rel hp.ag a).mono fun _ _ hx hy ⟨h1, h2⟩ => ⟨⟨_, .one (.commFree hc hx), .one (.commFree hc hy), h1, .refl 1 2 L, fun _ _ hm => (mem_release.1 hm).1⟩, h2⟩)
  | isend a b c d e f => exact ansPost hp (isend_twin hp _ _ _ hc hu)
  | irsend a b c d e f => exact ansPost hp (irsend_twin hp _ _ _ hc hu)
  | send a b c d e f => exact ans0 ((send_twin hp _ _ _ hc hu).mono fun _ _ _ _ ⟨L', h⟩ => ⟨L', h.e₁, h.e₂, h.ag, h.room.more, h.olds⟩)
  | irecv a b c d e f => exact ansPost hp (irecv_twin hp _ _ _ hc hu)
  | recv a b c d e f st => exact ans1 (f := .status) ((recv_twin hp _ _ _ hc hu _).mono fun _ _ _ _ ⟨⟨L', h⟩, h2⟩ => ⟨⟨L', h.e₁, h.e₂, h.ag, h.room.more, h.olds⟩, h2⟩)
  | sendrecv a b c d e f g h i k l st => exact ans1 (f := .status) (sendrecv_twin hp _ _ _ _ _ _ hc.1 hc.2 hrm.2.2 _)
  | iprobe a b c st => exact ansStay (f := fun x => ⟨x.1 :: x.2.vals, []⟩) hp (iprobe_twin hp hc _ _ _)
  | probe a b c st =>
    refine ansStay (f := .status) hp ?_
    unfold MPI_Probe
    refine stayR (iprobe_twin hp hc _ _ _) fun x => ?_
    dsimp only
    exact Rel.ite (fun _ => rfl) fun _ => ⟨rfl, rfl, rfl⟩
  | test r st =>
    refine (test_twin (b := Call.onlyReceives L (.test r st)) hp hc (fun h => h r (by simp [Call.requests])) (.refl _ st)).bind fun x y _ _ ⟨L', h⟩ => ?_
    exact .done1 h.twin.twin (by rw [h.request, h.flag]) h.status
  | wait r st =>
    refine (wait_twin (b := Call.onlyReceives L (.wait r st)) hp hc (fun h => h r (by simp [Call.requests])) (.refl _ st)).bind fun x y _ _ ⟨L', h⟩ => ?_
    refine .done1 ⟨L', h.e₁, h.e₂, h.ag, ?_⟩ (by rw [h.request]) h.status
    rcases h.ledger with rfl | ⟨rfl, _⟩
    · exact ⟨.refl _ _ _, .refl _⟩
    · exact ⟨.release _ _ _ _, .release _ _⟩
  | requestFree r =>
    obtain ⟨i, o, h1, h2, h3⟩ := hc
    exact ans1 (f := .int) ((requestFree_rel hp.ag r).mono fun _ _ hx hy ⟨h4, h5⟩ =>
      ⟨⟨_, .one (.requestFree h1 h2 h3 hx), .one (.requestFree h1 h2 h3 hy), h4, .release _ _ _ _, .release _ _⟩, h5⟩)
  | testany n rs i st =>
    obtain ⟨rfl, hw⟩ := hc
    unfold Call.answer MPI_Testany
    dsimp only
    rw [Int.toNat_natCast]
    have := testanyLoop_twin rs [] s₁ s₂ L (Call.onlyReceives L (.testany rs.length rs i st)) st st hp hw (fun h => h) (.refl _ st)
    refine Rel.bind (this.bind (S := fun x y => Twin env j L s₁ s₂ x.1 y.1 ∧ x.2.1 = y.2.1 ∧ x.2.2.1 = y.2.2.1 ∧ x.2.2.2.1 = y.2.2.2.1 ∧
      StSame _ x.2.2.2.2 y.2.2.2.2) fun x y _ _ ⟨h1, h2, h3, h4⟩ => ⟨h1.twin, h2, rfl, h3, h4⟩) fun x y _ _ ⟨h1, h2, h3, h4, h5⟩ => ?_
    exact .done1 h1 (by rw [h2, h3, h4]) h5
  | waitany n rs i st =>
    obtain ⟨rfl, hw⟩ := hc
    unfold Call.answer MPI_Waitany MPI_Testany
    dsimp only
    rw [Int.toNat_natCast]
    have := testanyLoop_twin rs [] s₁ s₂ L (Call.onlyReceives L (.waitany rs.length rs i st)) st st hp hw (fun h => h) (.refl _ st)
    refine Rel.bind (R := fun x y => Twin env j L s₁ s₂ x.1 y.1 ∧ x.2.1 = y.2.1 ∧ x.2.2.1 = y.2.2.1 ∧
        StSame (Call.onlyReceives L (.waitany rs.length rs i st)) x.2.2.2 y.2.2.2)
      (Rel.bind (this.bind (S := fun x y => Twin env j L s₁ s₂ x.1 y.1 ∧ x.2.1 = y.2.1 ∧ x.2.2.1 = y.2.2.1 ∧ x.2.2.2.1 = y.2.2.2.1 ∧
      StSame _ x.2.2.2.2 y.2.2.2.2) fun x y _ _ ⟨h1, h2, h3, h4⟩ => ⟨h1.twin, h2, rfl, h3, h4⟩) fun x y _ _ ⟨h1, h2, h3, h4, h5⟩ => ?_)
      fun x y _ _ ⟨h1, h2, h3, h4⟩ => ?_
    · rw [h4]
      exact Rel.ite (fun _ => rfl) fun _ => ⟨h1, h2, h3, h5⟩
    · exact .done1 h1 (by rw [h2, h3]) h4
  | testall n rs sts =>
    obtain ⟨rfl, hw⟩ := hc
    unfold Call.answer MPI_Testall
    dsimp only
    rw [Int.toNat_natCast]
    refine (testallLoop_twin rs [] s₁ s₂ L (Call.onlyReceives L (.testall rs.length rs sts)) sts sts 1 hp hw (fun h => h) (.refl _ sts)).bind
      fun x y _ _ ⟨⟨h1, h2, h3⟩, h4⟩ => ?_
    exact h3.ans h1.twin (by rw [h2, h4])
  | waitall n rs sts =>
    obtain ⟨rfl, hw⟩ := hc
    unfold Call.answer MPI_Waitall
    dsimp only
    rw [Int.toNat_natCast]
    refine (waitallLoop_twin rs [] s₁ s₂ L (Call.onlyReceives L (.waitall rs.length rs sts)) sts sts hp hw (fun h => h) (.refl _ sts)).bind
      fun x y _ _ ⟨h1, h2, h3⟩ => ?_
    exact h3.ans h1.twin h2
  | testsome n rs ix sts =>
    obtain ⟨rfl, hw⟩ := hc
    unfold Call.answer MPI_Testsome
    dsimp only
    rw [Int.toNat_natCast]
    refine Rel.bind (R := fun x y => ArrT env j s₁ s₂ L (Call.onlyReceives L (.testsome rs.length rs ix sts)) x.arr y.arr ∧
        x.outcount = y.outcount ∧ x.indices = y.indices)
      ((testsomeLoop_twin rs [] s₁ s₂ L (Call.onlyReceives L (.testsome rs.length rs ix sts)) sts sts 0 hp hw (fun h => h) (.refl _ sts)).bind
      fun x y _ _ ⟨h1, h2⟩ => ⟨h1, h2, rfl⟩) fun x y _ _ ⟨⟨h1, h2, h3⟩, h4, h5⟩ => ?_
    exact h3.ans h1.twin (by rw [h2, h4, h5])
  | waitsome n rs ix sts =>
    obtain ⟨rfl, hw⟩ := hc
    unfold Call.answer MPI_Waitsome MPI_Testsome
    dsimp only
    rw [Int.toNat_natCast]
    refine Rel.bind (R := fun x y => ArrT env j s₁ s₂ L (Call.onlyReceives L (.waitsome rs.length rs ix sts)) x.arr y.arr ∧
        x.outcount = y.outcount ∧ x.indices = y.indices)
      ((testsomeLoop_twin rs [] s₁ s₂ L (Call.onlyReceives L (.waitsome rs.length rs ix sts)) sts sts 0 hp hw (fun h => h) (.refl _ sts)).bind
      fun x y _ _ ⟨h1, h2⟩ => ⟨h1, h2, rfl⟩) fun x y _ _ ⟨⟨h1, h2, h3⟩, h4, h5⟩ => ?_
    exact h3.ans h1.twin (by rw [h2, h4, h5])
  | typeContiguous n t =>
    obtain ⟨d, h1⟩ := hc.2
    exact ans1 (f := .int) (newType_twin hp (.contiguous h1) (.contiguous h1))
  | typeHvector n b d t =>
    obtain ⟨d, h1⟩ := hc.2.2
    exact ans1 (f := .int) (newType_twin hp (.hvector h1) (.hvector h1))
  | typeVector n b d t =>
    obtain ⟨d, h1⟩ := hc.2.2
    exact ans1 (f := .int) (newType_twin hp (.vector h1) (.vector h1))
  | typeHindexed n b d t =>
    obtain ⟨_, _, _, d, h1⟩ := hc
    exact ans1 (f := .int) (newType_twin hp (.hindexed h1) (.hindexed h1))
  | typeIndexed n b d t =>
    obtain ⟨_, _, _, d, h1⟩ := hc
    exact ans1 (f := .int) (newType_twin hp (.indexed h1) (.indexed h1))
  | typeIndexedBlock n b d t =>
    obtain ⟨_, _, d, h1⟩ := hc
    exact ans1 (f := .int) (newType_twin hp (.indexedBlock h1) (.indexedBlock h1))
  | typeStruct n b d ts =>
    obtain ⟨h1, h2, h3, h4, h5⟩ := hc
    exact ans1 (f := .int) (struct_twin hp h1 h2 h3 h5)
  | typeCommit t => exact ans0 (commit_twin hp hc)
  | typeFree t =>
    obtain ⟨⟨u, hm⟩, hf⟩ := hc
    exact ans0 ((typeFree_rel hp.ag t).mono fun _ _ hx hy h => ⟨_, .one (.typeFree hm hx), .one (.typeFree hm hy), h, .release _ _ _ _, .release _ _⟩)
  | typeExtent t => exact ansStay (f := .int) hp (extent_twin hp hc)
  | typeSize t =>
    obtain ⟨d, h1, h2⟩ := typeOf_twin hp hc
    refine ansStay (f := .int) hp ?_
    unfold MPI_Type_size
    rw [h1, h2, Res.ok_bind, Res.ok_bind]
    exact Rel.bind_same fun _ _ => ⟨rfl, rfl, rfl⟩
  | typeLb t =>
    obtain ⟨d, h1, h2⟩ := typeOf_twin hp hc
    refine ansStay (f := .int) hp ?_
    unfold MPI_Type_lb
    rw [h1, h2, Res.ok_bind, Res.ok_bind]
    exact ⟨rfl, rfl, rfl⟩
  | typeUb t =>
    obtain ⟨d, h1, h2⟩ := typeOf_twin hp hc
    refine ansStay (f := .int) hp ?_
    unfold MPI_Type_ub
    rw [h1, h2, Res.ok_bind, Res.ok_bind]
    exact ⟨rfl, rfl, rfl⟩
  | getElements st t =>
    obtain ⟨d, h1, h2⟩ := typeOf_twin hp hc
    refine ansStay (f := .int) hp ?_
    unfold MPI_Get_elements
    rw [h1, h2, Res.ok_bind, Res.ok_bind]
    exact Rel.bind_same fun _ _ => ⟨rfl, rfl, rfl⟩
  | pack a b t c d e comm =>
    obtain ⟨u, h1, h2⟩ := typeOf_twin hp hc.1
    obtain ⟨k, hcm⟩ := hc.2
    obtain ⟨M₁, lst₁, hi₁⟩ := hp.r₁.inv
    obtain ⟨M₂, lst₂, hi₂⟩ := hp.r₂.inv
    refine ans1 (f := .int) ?_
    unfold MPI_Pack
    rw [h1, h2, Res.ok_bind, Res.ok_bind]
    dsimp only
    rw [Sys.ptr_live hi₁.hst (mem_keys hcm), Sys.ptr_live hi₂.hst (mem_keys hcm), Res.ok_bind, Res.ok_bind]
    dsimp only
    rw [hp.ag.mem]
    exact Rel.bind_same fun x _ => ⟨mem_twin hp.ag x.1, rfl⟩
  | packSize n t comm =>
    obtain ⟨u, h1, h2⟩ := typeOf_twin hp hc.1
    obtain ⟨k, hcm⟩ := hc.2
    obtain ⟨M₁, lst₁, hi₁⟩ := hp.r₁.inv
    obtain ⟨M₂, lst₂, hi₂⟩ := hp.r₂.inv
    refine ansStay (f := .int) hp ?_
    unfold MPI_Pack_size
    rw [h1, h2, Res.ok_bind, Res.ok_bind]
    dsimp only
    rw [Sys.ptr_live hi₁.hst (mem_keys hcm), Sys.ptr_live hi₂.hst (mem_keys hcm), Res.ok_bind, Res.ok_bind]
    exact Rel.bind_same fun _ _ => ⟨rfl, rfl, rfl⟩
  | unpack a b c d e t comm =>
    obtain ⟨u, h1, h2⟩ := typeOf_twin hp hc.1
    obtain ⟨k, hcm⟩ := hc.2
    obtain ⟨M₁, lst₁, hi₁⟩ := hp.r₁.inv
    obtain ⟨M₂, lst₂, hi₂⟩ := hp.r₂.inv
    refine ans1 (f := .int) ?_
    unfold MPI_Unpack
    rw [h1, h2, Res.ok_bind, Res.ok_bind]
    dsimp only
    rw [Sys.ptr_live hi₁.hst (mem_keys hcm), Sys.ptr_live hi₂.hst (mem_keys hcm), Res.ok_bind, Res.ok_bind]
    dsimp only
    rw [hp.ag.mem]
    exact Rel.bind_same fun x _ => ⟨mem_twin hp.ag x.1, rfl⟩
  | barrier c => exact hid.ans
  | bcast a b c r d => exact ans0 (Rel.ite (fun _ => hid) fun _ => Rel.ite (fun _ => rfl) fun _ => hid)
  | gather a b c d e f r comm =>
    exact ans0 (Rel.ite (fun _ => hid) fun _ => Rel.ite (fun _ => hid) fun _ => Rel.ite (fun _ => rfl) fun _ =>
      copy_twin hp hc.1 hc.2 _ _ _ _)
  | gatherv a b c d e f g r comm =>
    refine ans0 (Rel.ite (fun _ => hid) fun _ => Rel.ite (fun _ => hid) fun _ => Rel.ite (fun _ => rfl) fun _ => ?_)
    exact stayR (extent_twin hp hc.2) fun x => Rel.bind_same fun _ _ => Rel.bind_same fun _ _ => copy_twin hp hc.1 hc.2 _ _ _ _
  | allgather a b c d e f comm => exact ans0 (Rel.ite (fun _ => hid) fun _ => copy_twin hp hc.1 hc.2 _ _ _ _)
  | allgatherv a b c d e f g comm =>
    refine ans0 (Rel.ite (fun _ => hid) fun _ => ?_)
    exact stayR (extent_twin hp hc.2) fun x => Rel.bind_same fun _ _ => Rel.bind_same fun _ _ => copy_twin hp hc.1 hc.2 _ _ _ _
  | scatter a b c d e f r comm =>
    exact ans0 (Rel.ite (fun _ => hid) fun _ => Rel.ite (fun _ => hid) fun _ => Rel.ite (fun _ => rfl) fun _ =>
      copy_twin hp hc.1 hc.2 _ _ _ _)
  | scatterv a b c d e f g r comm =>
    refine ans0 (Rel.ite (fun _ => hid) fun _ => Rel.ite (fun _ => hid) fun _ => Rel.ite (fun _ => rfl) fun _ => ?_)
    exact stayR (extent_twin hp hc.1) fun x => Rel.bind_same fun _ _ => Rel.bind_same fun _ _ => copy_twin hp hc.1 hc.2 _ _ _ _
  | reduce a b n t op r comm => exact ans0 (Rel.ite (fun _ => rfl) fun _ => copy_twin hp hc hc _ _ _ _)
  | allreduce a b n t op comm => exact ans0 (Rel.ite (fun _ => hid) fun _ => copy_twin hp hc hc _ _ _ _)
  | reduceScatter a b n t op comm => exact ans0 (Rel.bind_same fun _ _ => copy_twin hp hc hc _ _ _ _)
  | scan a b n t op comm => exact ans0 (copy_twin hp hc hc _ _ _ _)
  | alltoall a b c d e f comm => exact ans0 (copy_twin hp hc.1 hc.2 _ _ _ _)
  | alltoallv a b c d e f g h comm =>
    refine ans0 (stayR (extent_twin hp hc.1) fun x => stayR (extent_twin hp hc.2) fun y => ?_)
    exact Rel.bind_same fun _ _ => Rel.bind_same fun _ _ => Rel.bind_same fun _ _ => Rel.bind_same fun _ _ => copy_twin hp hc.1 hc.2 _ _ _ _
  | alltoallw a b c d e f g h comm =>
    have hr : ∀ {l : List Int} {x : Int}, rd l 0 = .ok x → x ∈ l := fun {l x} h => by
      unfold rd at h
      split at h
      · next h1 => cases h; exact List.mem_of_getElem? h1
      · cases h
    refine ans0 (Rel.bind_same fun _ _ => Rel.bind_same fun _ _ => Rel.bind_same fun _ h1 => Rel.bind_same fun _ _ =>
      Rel.bind_same fun _ _ => Rel.bind_same fun _ h2 => ?_)
    exact copy_twin hp (hc.1 _ (hr h1)) (hc.2 _ (hr h2)) _ _ _ _

/-- `Call.answer` is `Call.exec` with the results. -/
theorem Call.exec_answer (env : Env) (s : Sys) (c : Call) : c.exec env s = c.answer env s >>= fun x => .ok x.1 := by
  have h : ∀ {α : Type} (x : Res α) (f : α → Sys) (g : α → Out),
      (x >>= fun r => Res.ok (f r)) = (x >>= fun r => Res.ok (f r, g r)) >>= fun x => Res.ok x.1 := by
    intro α x f g
    cases x <;> rfl
  have h0 : ∀ (x : Res Sys) (g : Sys → Out), x = (x >>= fun r => Res.ok (r, g r)) >>= fun x => Res.ok x.1 := by
    intro x g
    cases x <;> rfl
  cases c <;> first | exact h _ _ _ | exact h0 _ _ | rfl

end

end MpiSerial
