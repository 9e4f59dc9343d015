import Verif.Proofs.PlacePack

/-!
# Datatype constructors that store the handle before they read their arrays
-/

set_option linter.unusedSimpArgs false
set_option autoImplicit false

namespace MpiSerial

open Spec.Fort

namespace Place

variable {bo : ByteOrder} {p : Int}

/-! ## Loads that do not touch the variable -/

theorem ldBytes_mono {m m' : Mem} (h : ∀ a v, m a = some v → m' a = some v) :
    ∀ (n : Nat) (q : Int) {l}, ldBytes m q n = .ok l → ldBytes m' q n = .ok l
  | 0, _, _, hl => hl
  | n + 1, q, l, hl => by
    rw [ldBytes] at hl ⊢
    cases hm : m q with
    | none => rw [hm] at hl; cases hl
    | some b =>
      rw [hm] at hl
      rw [h _ _ hm]
      dsimp only at hl ⊢
      obtain ⟨bs, h1, h2⟩ := Res.bind_eq_ok.1 hl
      rw [ldBytes_mono h n _ h1]
      exact h2

theorem ldInt_mono {m m' : Mem} (h : ∀ a v, m a = some v → m' a = some v) {q x : Int} (hx : ldInt bo m q = .ok x) : ldInt bo m' q = .ok x := by
  obtain ⟨bs, h1, h2⟩ := Res.bind_eq_ok.1 hx
  rw [ldInt, ldBytes_mono h _ _ h1]
  exact h2

theorem ldAint_mono {m m' : Mem} (h : ∀ a v, m a = some v → m' a = some v) {q x : Int} (hx : ldAint bo m q = .ok x) : ldAint bo m' q = .ok x := by
  obtain ⟨bs, h1, h2⟩ := Res.bind_eq_ok.1 hx
  rw [ldAint, ldBytes_mono h _ _ h1]
  exact h2

theorem ldInts_mono {m m' : Mem} (h : ∀ a v, m a = some v → m' a = some v) :
    ∀ (n : Nat) (q : Int) {l}, ldInts bo m q n = .ok l → ldInts bo m' q n = .ok l
  | 0, _, _, hl => hl
  | n + 1, q, l, hl => by
    rw [ldInts] at hl ⊢
    obtain ⟨x, h1, h2⟩ := Res.bind_eq_ok.1 hl
    obtain ⟨xs, h3, h4⟩ := Res.bind_eq_ok.1 h2
    rw [ldInt_mono h h1, Res.ok_bind, ldInts_mono h n _ h3]
    exact h4

theorem ldAints_mono {m m' : Mem} (h : ∀ a v, m a = some v → m' a = some v) :
    ∀ (n : Nat) (q : Int) {l}, ldAints bo m q n = .ok l → ldAints bo m' q n = .ok l
  | 0, _, _, hl => hl
  | n + 1, q, l, hl => by
    rw [ldAints] at hl ⊢
    obtain ⟨x, h1, h2⟩ := Res.bind_eq_ok.1 hl
    obtain ⟨xs, h3, h4⟩ := Res.bind_eq_ok.1 h2
    rw [ldAint_mono h h1, Res.ok_bind, ldAints_mono h n _ h3]
    exact h4

theorem hidden_le {m w : Mem} (h : ∀ a, ¬ (p ≤ a ∧ a < p + 4) → w a = m a) : ∀ a v, hidden m p a = some v → w a = some v := by
  intro a v hv
  unfold hidden at hv
  split at hv
  · cases hv
  · rw [h a ‹_›]; exact hv

/-- An array beside the variable is the same whatever the variable holds. -/
theorem ints_beside {m w : Mem} (h : ∀ a, ¬ (p ≤ a ∧ a < p + 4) → w a = m a) {q : Int} {n : Nat} {l : List Int}
    (hs : (intsAt bo (hidden m p) q n).isSome = true) (hl : intsAt bo m q n = some l) : ldInts bo w q n = .ok l := by
  obtain ⟨l', e⟩ := Option.isSome_iff_exists.1 hs
  have e1 : ldInts bo (hidden m p) q n = .ok l' := by rw [ldInts_eq, e]; rfl
  have e2 := ldInts_mono (hidden_le (w := m) fun _ _ => rfl) n q e1
  rw [ldInts_eq, hl] at e2
  cases e2
  exact ldInts_mono (hidden_le h) n q e1

theorem addrs_beside {m w : Mem} (h : ∀ a, ¬ (p ≤ a ∧ a < p + 4) → w a = m a) {q : Int} {n : Nat} {l : List Int}
    (hs : (addrsAt bo (hidden m p) q n).isSome = true) (hl : addrsAt bo m q n = some l) : ldAints bo w q n = .ok l := by
  obtain ⟨l', e⟩ := Option.isSome_iff_exists.1 hs
  have e1 : ldAints bo (hidden m p) q n = .ok l' := by rw [ldAints_eq, e]; rfl
  have e2 := ldAints_mono (hidden_le (w := m) fun _ _ => rfl) n q e1
  rw [ldAints_eq, hl] at e2
  cases e2
  exact ldAints_mono (hidden_le h) n q e1

/-! ## The constructors -/

/-- Storing the handle first is storing it last, if what is built does not depend on it. -/
theorem newType_early {env : Env} {s : Sys} (hp : ∀ a, p ≤ a → a < p + 4 → (s.mem a).isSome = true) {build : Sys → Garbage → Res Typestruct}
    {build' : Garbage → Res Typestruct} (hb : ∀ s' : Sys, (∀ a, ¬ (p ≤ a ∧ a < p + 4) → s'.mem a = s.mem a) → ∀ g, build s' g = build' g) :
    newTypeAt bo env s p build = MpiSerial.newType env s build' >>= fun x => stInt bo x.1 p x.2 := by
  unfold newTypeAt MpiSerial.newType
  rw [bind_assoc]
  refine Res.bind_congr fun x _ => ?_
  obtain ⟨t, h, l⟩ := x
  dsimp only
  obtain ⟨w, w1, w2, _, w4⟩ := stInt_on (bo := bo) hp h
  rw [w4 { s with handles := t } fun _ => rfl, Res.ok_bind, bind_assoc, hb]
  · refine Res.bind_congr fun ty _ => ?_
    rw [Res.pure_eq, Res.pure_eq, Res.ok_bind]
    exact (w4 { s with handles := t.setData l (.dtype (.heap s.nextType)), theap := fun q => if q = s.nextType then some ty else s.theap q,
                       nextType := s.nextType + 1 } fun _ => rfl).symm
  · intro a ha
    exact if_neg ha

theorem structTypes_in {env : Env} {q : Int} : ∀ (n i : Nat) (s : Sys) {l : List Int}, (∀ j, i ≤ j → j < i + n → ∃ h, l[j]? = some h ∧ ldInt bo s.mem (q + 4 * j) = .ok h) →
    structTypesAt bo env q n i s = MpiSerial.structTypes env l n i s
  | 0, _, _, _, _ => rfl
  | n + 1, i, s, l, hl => by
    obtain ⟨h, h1, h2⟩ := hl i (Nat.le_refl _) (by omega)
    rw [structTypesAt, MpiSerial.structTypes, h2]
    unfold rd
    rw [h1]
    dsimp only
    rw [Res.ok_bind, Res.ok_bind]
    refine Res.bind_congr fun x hx => ?_
    obtain ⟨s', t⟩ := x
    have hm := typeOf_keeps hx
    dsimp only at hm ⊢
    rw [structTypes_in n (i + 1) s' (l := l) fun j h1 h2 => by rw [hm]; exact hl j (by omega) (by omega)]

theorem structTypes_keeps {env : Env} {l : List Int} : ∀ (n i : Nat) (s : Sys) {x}, MpiSerial.structTypes env l n i s = .ok x → x.1.mem = s.mem
  | 0, _, _, _, h => by cases h; rfl
  | n + 1, i, s, x, h => by
    rw [MpiSerial.structTypes] at h
    obtain ⟨a, _, h⟩ := Res.bind_eq_ok.1 h
    obtain ⟨b, h1, h⟩ := Res.bind_eq_ok.1 h
    obtain ⟨c, h2, h⟩ := Res.bind_eq_ok.1 h
    cases h
    exact (structTypes_keeps n (i + 1) _ h2).trans (typeOf_keeps h1)

theorem ldInts_get {m : Mem} : ∀ (n : Nat) (q : Int) {l : List Int}, ldInts bo m q n = .ok l → ∀ j, j < n → ∃ h, l[j]? = some h ∧ ldInt bo m (q + 4 * j) = .ok h
  | 0, _, _, _, _, hj => absurd hj (Nat.not_lt_zero _)
  | n + 1, q, l, hl, j, hj => by
    rw [ldInts] at hl
    obtain ⟨x, h1, h2⟩ := Res.bind_eq_ok.1 hl
    obtain ⟨xs, h3, h4⟩ := Res.bind_eq_ok.1 h2
    cases h4
    cases j with
    | zero => exact ⟨x, rfl, by simpa using h1⟩
    | succ j =>
      obtain ⟨h, e1, e2⟩ := ldInts_get n _ h3 j (by omega)
      refine ⟨h, e1, ?_⟩
      rw [← e2]
      congr 1
      push_cast
      omega

section
variable {c : FEnv} {s : Sys} {r : Res (Sys × List Spec.Fort.Out)} {outs : List Spec.Fort.Out}

theorem hindexed_in {n b d t w e : Int} (hm : (FCall.typeHindexed n b d t w e).meaning c s = some r) (ho : (FCall.typeHindexed n b d t w e).own c s.mem = some outs)
    (hv : Variables s.mem outs) (hc : (FCall.typeHindexed n b d t w e).Clear c s) : Performs c.bo ((FCall.typeHindexed n b d t w e).inPlace c s) r := by
  simp only [FCall.own, Option.bind_eq_bind, Option.bind_eq_some_iff, Option.map_eq_some_iff, Option.pure_def, Option.some.injEq] at ho
  obtain ⟨_, ⟨rv, h1, rfl⟩, _, ⟨ev, h2, rfl⟩, rfl⟩ := ho
  have hm' := hm
  simp only [FCall.meaning, Option.bind_eq_bind, Option.bind_eq_some_iff, Option.pure_def, Option.some.injEq] at hm'
  obtain ⟨n', g1, bs, g2, ds, g3, t', g4, rfl⟩ := hm'
  obtain ⟨c1, c2⟩ := hc n' g1
  have e1 : (FCall.typeHindexed n b d t w e).inPlace c s = (FCall.typeHindexed n b d t w e).exec c s := by
    show mpi_type_hindexed c s n b d t w e = Bind.mpi_type_hindexed c s n b d t w e
    unfold mpi_type_hindexed Bind.mpi_type_hindexed Bind.int Bind.ints Bind.aints Bind.done MPI_Type_hindexed MpiSerial.MPI_Type_hindexed
    rw [ldInt_eq, ldInt_eq, g1, g4]
    simp only [ofOpt, Res.ok_bind]
    rw [ldInts_eq, ldAints_eq, g2, g3]
    simp only [ofOpt, Res.ok_bind, bind_assoc]
    refine Res.bind_congr fun x hx => ?_
    obtain ⟨s', ty⟩ := x
    have hk : s'.mem = s.mem := typeOf_keeps hx
    dsimp only
    rw [newType_early (build' := fun g => Type_hindexed c.env.cfg g n' bs ds ty) (by rw [hk]; exact vars_access hv), bind_assoc]
    intro s'' hs g
    rw [hk] at hs
    rw [ints_beside hs c1 g2, Res.ok_bind, addrs_beside hs c2 g3, Res.ok_bind]
  rw [e1]
  refine C50_performs_partial trivial hm fun s' outs' h => ?_
  obtain ⟨x, _, hx⟩ := Res.bind_eq_ok.1 h
  cases hx
  exact vars_any hv

theorem indexed_in {n b d t w e : Int} (hm : (FCall.typeIndexed n b d t w e).meaning c s = some r) (ho : (FCall.typeIndexed n b d t w e).own c s.mem = some outs)
    (hv : Variables s.mem outs) (hc : (FCall.typeIndexed n b d t w e).Clear c s) : Performs c.bo ((FCall.typeIndexed n b d t w e).inPlace c s) r := by
  simp only [FCall.own, Option.bind_eq_bind, Option.bind_eq_some_iff, Option.map_eq_some_iff, Option.pure_def, Option.some.injEq] at ho
  obtain ⟨_, ⟨rv, h1, rfl⟩, _, ⟨ev, h2, rfl⟩, rfl⟩ := ho
  have hm' := hm
  simp only [FCall.meaning, Option.bind_eq_bind, Option.bind_eq_some_iff, Option.pure_def, Option.some.injEq] at hm'
  obtain ⟨n', g1, bs, g2, ds, g3, t', g4, rfl⟩ := hm'
  obtain ⟨c1, c2⟩ := hc n' g1
  have e1 : (FCall.typeIndexed n b d t w e).inPlace c s = (FCall.typeIndexed n b d t w e).exec c s := by
    show mpi_type_indexed c s n b d t w e = Bind.mpi_type_indexed c s n b d t w e
    unfold mpi_type_indexed Bind.mpi_type_indexed Bind.int Bind.ints Bind.done MPI_Type_indexed MpiSerial.MPI_Type_indexed
    rw [ldInt_eq, ldInt_eq, g1, g4]
    simp only [ofOpt, Res.ok_bind]
    rw [ldInts_eq, ldInts_eq, g2, g3]
    simp only [ofOpt, Res.ok_bind, bind_assoc]
    refine Res.bind_congr fun x hx => ?_
    obtain ⟨s', ty⟩ := x
    have hk : s'.mem = s.mem := typeOf_keeps hx
    dsimp only
    rw [newType_early (build' := fun g => Type_indexed c.env.cfg g n' bs ds ty) (by rw [hk]; exact vars_access hv), bind_assoc]
    intro s'' hs g
    rw [hk] at hs
    rw [ints_beside hs c1 g2, Res.ok_bind, ints_beside hs c2 g3, Res.ok_bind]
  rw [e1]
  refine C50_performs_partial trivial hm fun s' outs' h => ?_
  obtain ⟨x, _, hx⟩ := Res.bind_eq_ok.1 h
  cases hx
  exact vars_any hv

theorem indexedBlock_in {n b d t w e : Int} (hm : (FCall.typeCreateIndexedBlock n b d t w e).meaning c s = some r)
    (ho : (FCall.typeCreateIndexedBlock n b d t w e).own c s.mem = some outs) (hv : Variables s.mem outs) (hc : (FCall.typeCreateIndexedBlock n b d t w e).Clear c s) :
    Performs c.bo ((FCall.typeCreateIndexedBlock n b d t w e).inPlace c s) r := by
  simp only [FCall.own, Option.bind_eq_bind, Option.bind_eq_some_iff, Option.map_eq_some_iff, Option.pure_def, Option.some.injEq] at ho
  obtain ⟨_, ⟨rv, h1, rfl⟩, _, ⟨ev, h2, rfl⟩, rfl⟩ := ho
  have hm' := hm
  simp only [FCall.meaning, Option.bind_eq_bind, Option.bind_eq_some_iff, Option.pure_def, Option.some.injEq] at hm'
  obtain ⟨n', g1, b', g2, ds, g3, t', g4, rfl⟩ := hm'
  have c2 := hc n' g1
  have e1 : (FCall.typeCreateIndexedBlock n b d t w e).inPlace c s = (FCall.typeCreateIndexedBlock n b d t w e).exec c s := by
    show mpi_type_create_indexed_block c s n b d t w e = Bind.mpi_type_create_indexed_block c s n b d t w e
    unfold mpi_type_create_indexed_block Bind.mpi_type_create_indexed_block Bind.int Bind.ints Bind.done MPI_Type_create_indexed_block
      MpiSerial.MPI_Type_create_indexed_block
    rw [ldInt_eq, ldInt_eq, ldInt_eq, g1, g2, g4]
    simp only [ofOpt, Res.ok_bind]
    rw [ldInts_eq, g3]
    simp only [ofOpt, Res.ok_bind, bind_assoc]
    refine Res.bind_congr fun x hx => ?_
    obtain ⟨s', ty⟩ := x
    have hk : s'.mem = s.mem := typeOf_keeps hx
    dsimp only
    rw [newType_early (build' := fun g => Type_create_indexed_block c.env.cfg g n' b' ds ty) (by rw [hk]; exact vars_access hv), bind_assoc]
    intro s'' hs g
    rw [hk] at hs
    rw [ints_beside hs c2 g3, Res.ok_bind]
  rw [e1]
  refine C50_performs_partial trivial hm fun s' outs' h => ?_
  obtain ⟨x, _, hx⟩ := Res.bind_eq_ok.1 h
  cases hx
  exact vars_any hv

theorem struct_in {n b d t w e : Int} (hm : (FCall.typeStruct n b d t w e).meaning c s = some r) (ho : (FCall.typeStruct n b d t w e).own c s.mem = some outs)
    (hv : Variables s.mem outs) (hc : (FCall.typeStruct n b d t w e).Clear c s) : Performs c.bo ((FCall.typeStruct n b d t w e).inPlace c s) r := by
  simp only [FCall.own, Option.bind_eq_bind, Option.bind_eq_some_iff, Option.map_eq_some_iff, Option.pure_def, Option.some.injEq] at ho
  obtain ⟨_, ⟨rv, h1, rfl⟩, _, ⟨ev, h2, rfl⟩, rfl⟩ := ho
  have hm' := hm
  simp only [FCall.meaning, Option.bind_eq_bind, Option.bind_eq_some_iff, Option.pure_def, Option.some.injEq] at hm'
  obtain ⟨n', g1, bs, g2, ds, g3, ts, g4, rfl⟩ := hm'
  obtain ⟨c1, c2⟩ := hc n' g1
  have e1 : (FCall.typeStruct n b d t w e).inPlace c s = (FCall.typeStruct n b d t w e).exec c s := by
    show mpi_type_struct c s n b d t w e = Bind.mpi_type_struct c s n b d t w e
    unfold mpi_type_struct Bind.mpi_type_struct Bind.int Bind.ints Bind.aints Bind.done MPI_Type_struct MpiSerial.MPI_Type_struct
    rw [ldInt_eq, g1]
    simp only [ofOpt, Res.ok_bind]
    rw [ldInts_eq, ldAints_eq, ldInts_eq, g2, g3, g4]
    simp only [ofOpt, Res.ok_bind, bind_assoc]
    refine Res.bind_congr fun k hk => ?_
    have hk' : k = n'.toNat := by
      unfold vla at hk
      split at hk <;> cases hk
      rfl
    subst hk'
    rw [structTypes_in (l := ts) _ _ _ fun j _ hj => ldInts_get n'.toNat t (by rw [ldInts_eq, g4]; rfl) j (by omega)]
    refine Res.bind_congr fun x hx => ?_
    obtain ⟨s', tys⟩ := x
    have hk : s'.mem = s.mem := structTypes_keeps _ _ _ hx
    dsimp only
    rw [newType_early (build' := fun g => fill (fun i => do
      let b ← rd bs i
      let d ← rd ds i
      let t ← rd tys i
      return (⟨b, d, t⟩ : Block)) n'.toNat 0 >>= fun blocks => Type_struct c.env.cfg g blocks) (by rw [hk]; exact vars_access hv), bind_assoc]
    · intro s'' hs g
      rw [hk] at hs
      rw [ints_beside hs c1 g2, Res.ok_bind, addrs_beside hs c2 g3, Res.ok_bind]
  rw [e1]
  refine C50_performs_partial trivial hm fun s' outs' h => ?_
  obtain ⟨x, _, hx⟩ := Res.bind_eq_ok.1 h
  cases hx
  exact vars_any hv

end

end Place

end MpiSerial
