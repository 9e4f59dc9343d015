import Verif.Proofs.OpaqueAll

/-!
# Two machines that differ in handle numbers: one step
-/

set_option linter.unusedSimpArgs false
set_option autoImplicit false

namespace MpiSerial

open Res (Rel)

/-- After a call, `c` with the numbers of the first machine. -/
structure After (c : Call) (l : Pairs) (x y : Mach × Out) : Prop where
  done : x.2.done = y.2.done
  before : x.2.vals.take c.place.1 = y.2.vals.take c.place.1
  behind : x.2.vals.drop (c.place.1 + c.place.2) = y.2.vals.drop (c.place.1 + c.place.2)
  made : c.makes = true → ∃ h h', x.2.vals = [h] ∧ y.2.vals = [h'] ∧
    ((h = 0 ∧ h' = 0) ∨ (1 < h ∧ 1 < h' ∧ (∀ e ∈ l, e.1 ≠ h) ∧ ∀ e ∈ l, e.2.1 ≠ h'))
  pairs : ∃ l', Full l' x.1 y.1 ∧ Aligned (Same l') (c.got x.2.vals) (c.got y.2.vals) ∧
    ∀ e ∈ l, c.ends x.2.vals e.1 = true ∨ ∃ o, (e.1, e.2.1, o) ∈ l'

section
variable {env : Env} {l l' : Pairs} {M N : Mach} {c : Call} {x y : Mach × Out}

/-- No handles in the results. -/
theorem After.plain (hp : c.place = (0, 0)) (hm : c.makes = false) (ho : x.2 = y.2) (hF : Full l' x.1 y.1)
    (hs : ∀ e ∈ l, c.ends x.2.vals e.1 = true ∨ ∃ o, (e.1, e.2.1, o) ∈ l') : After c l x y := by
  refine ⟨by rw [ho], by rw [ho], by rw [ho], fun h => (by rw [hm] at h; cases h), l', hF, ?_, hs⟩
  unfold Call.got
  rw [hp, List.take_zero, List.take_zero]
  exact .nil

theorem After.plain' (hp : c.place = (0, 0)) (hm : c.makes = false) (ho : x.2 = y.2) (hF : Full l x.1 y.1) : After c l x y :=
  .plain hp hm ho hF fun _ he => .inr ⟨_, he⟩

/-- A new handle. -/
theorem After.new (hp : c.place = (0, 1)) {X Y : Mach × Int} (hn : Full.New l X Y) :
    After c l (X.1, ⟨[X.2], []⟩) (Y.1, ⟨[Y.2], []⟩) := by
  obtain ⟨h1, h2, h3, o, h4⟩ := hn
  refine ⟨rfl, by rw [hp]; rfl, by rw [hp]; rfl, fun _ => ⟨_, _, rfl, rfl, .inr ⟨h1, h2, h3⟩⟩, _, h4, ?_, fun e he => .inr ⟨_, List.mem_cons_of_mem _ he⟩⟩
  unfold Call.got
  rw [hp]
  exact .cons (.inr ⟨o, List.mem_cons_self ..⟩) .nil

/-- A null handle. -/
theorem After.null (hp : c.place = (0, 1)) {X Y : Mach} (hF : Full l' X Y)
    (hs : ∀ e ∈ l, c.ends [0] e.1 = true ∨ ∃ o, (e.1, e.2.1, o) ∈ l') : After c l (X, ⟨[0], []⟩) (Y, ⟨[0], []⟩) := by
  refine ⟨rfl, rfl, rfl, fun _ => ⟨_, _, rfl, rfl, .inl ⟨rfl, rfl⟩⟩, _, hF, ?_, hs⟩
  unfold Call.got
  rw [hp]
  exact .cons (.inl ⟨rfl, Int.le_refl _⟩) .nil

theorem one_new (hp : c.place = (0, 1)) {u v : Res (Mach × Int)} (h : u.Rel (Full.New l) v) : (Mach.one u).Rel (After c l) (Mach.one v) :=
  Rel.bind h fun _ _ _ _ hn => .new hp hn

theorem quiet_full (hp : c.place = (0, 0)) (hm : c.makes = false) {u v : Res Mach} (h : u.Rel (Full l) v) :
    (Mach.quiet u).Rel (After c l) (Mach.quiet v) :=
  Rel.bind h fun _ _ _ _ hF => .plain' hp hm rfl hF

theorem tell_full (hp : c.place = (0, 0)) (hm : c.makes = false) (hF : Full l M N) {u v : Res Int} (h : u = v) :
    (M.tell u).Rel (After c l) (N.tell v) := by
  subst h
  exact Rel.bind_same fun _ _ => .plain' hp hm rfl hF

theorem rooted_full (hp : c.place = (0, 0)) (hm : c.makes = false) (hF : Full l M N) (root : Int) (msg : String) {u v : Res Mach}
    (h : u.Rel (Full l) v) : (M.rooted root msg u).Rel (After c l) (N.rooted root msg v) :=
  quiet_full hp hm (Rel.ite (fun _ => hF) fun _ => Rel.ite (fun _ => rfl) fun _ => h)

theorem newCommUnless_new (hp : c.place = (0, 1)) (hF : Full l M N) (hi : M.L.inited = true) {p q : Prop} [Decidable p] [Decidable q] (hpq : p ↔ q) :
    (Mach.one (M.newCommUnless p)).Rel (After c l) (Mach.one (N.newCommUnless q)) := by
  unfold Mach.newCommUnless
  by_cases h : p
  · rw [if_pos h, if_pos (hpq.1 h)]
    exact .null hp hF fun e he => .inr ⟨_, he⟩
  · rw [if_neg h, if_neg fun h' => h (hpq.2 h')]
    exact one_new hp (hF.newComm hi)

/-- Results of a completion call: first `k` integers, then handles, then other integers. -/
theorem After.array {k : Nat} {hs out out' : List Int} {X Y : Mach} {pre post : List Int} {ds : List StPtr} (hk : pre.length = k)
    (hp : c.place = (k, hs.length)) (hm : c.makes = false)
    (he : ∀ vals a, c.ends vals a = (hs.zip (c.got vals)).any fun e => decide (e.1 = a ∧ e.2 = MPI_REQUEST_NULL))
    (ha : ArrAs l hs X Y out out') : After c l (X, .ofDone (pre ++ (out ++ post)) ds) (Y, .ofDone (pre ++ (out' ++ post)) ds) := by
  obtain ⟨l', h1, h2, h3, h4⟩ := ha
  have h3' : out'.length = hs.length := by rw [← h2.length, h3]
  have e1 : ∀ z : List Int, z.length = hs.length → c.got (pre ++ (z ++ post) ++ ds.flatMap StPtr.kept) = z := fun z hz => by
    unfold Call.got
    rw [hp]
    dsimp only
    rw [← hk, List.append_assoc, List.drop_left, ← hz, List.append_assoc, List.take_left]
  have e2 : ∀ z : List Int, z.length = hs.length → (pre ++ (z ++ post) ++ ds.flatMap StPtr.kept).drop (k + hs.length) = post ++ ds.flatMap StPtr.kept := fun z hz => by
    have : k + hs.length = (pre ++ z).length := by rw [List.length_append, hk, hz]
    rw [this, ← List.append_assoc, List.append_assoc, List.drop_left]
  unfold Out.ofDone
  refine ⟨rfl, ?_, ?_, fun h => (by rw [hm] at h; cases h), l', h1, ?_, fun e hel => ?_⟩
  · dsimp only
    rw [hp]
    dsimp only
    rw [← hk, List.append_assoc pre, List.append_assoc pre, List.take_left, List.take_left]
  · dsimp only
    rw [hp]
    dsimp only
    rw [e2 out h3, e2 out' h3']
  · dsimp only
    rw [e1 out h3, e1 out' h3']
    exact h2
  · rcases h4 e hel with ⟨q, hq, hq1, hq2⟩ | h
    · refine .inl ?_
      dsimp only
      rw [he, e1 out h3, List.any_eq_true]
      exact ⟨q, hq, decide_eq_true ⟨hq1, hq2⟩⟩
    · exact .inr ⟨_, h⟩

theorem test_array {h h' : Int} {x y : Tested} (hs : Same l h h') (ht : TestedAs l M h h' x y) :
    ArrAs l [h] x.mach y.mach [x.request] [y.request] := by
  obtain ⟨_, _, _, h4⟩ := ht
  rcases h4 with ⟨q1, q2, _, q4⟩ | ⟨q1, q2, _, _, q4⟩
  · refine ⟨_, q4, ?_, rfl, fun e he => ?_⟩
    · rw [q1, q2]; exact .cons (.inl ⟨rfl, Int.le_refl _⟩) .nil
    · rw [q1]
      rcases mem_rest (h := h) he with rfl | he
      · exact .inl .head
      · exact .inr he
  · refine ⟨l, q4, ?_, rfl, fun e he => .inr he⟩
    rw [q1, q2]
    exact .cons hs .nil

theorem rd_same {f g : Int → Int} {ts : List Int} (h : ∀ t ∈ ts, Same l (f t) (g t)) : (rd (ts.map f) 0).Rel (Same l) (rd (ts.map g) 0) := by
  cases ts with
  | nil => rfl
  | cons t ts => exact h t (List.mem_cons_self ..)

/-- One call, with corresponding handles. -/
theorem Full.answer {f g : Int → Int} (hF : Full l M N) (c : Call) (hs : M.L.inited = true → ∀ x ∈ c.handles, Same l (f x) (g x))
    (hc : c.inSession M.L.inited) (hwf : (c.withHandles f).Wf env M.L) (h1 : ∀ x, x ≠ 1 → f x ≠ 1) :
    (M.answer env (c.withHandles f)).Rel (After (c.withHandles f) l) (N.answer env (c.withHandles g)) := by
  have world : M.L.inited = true → ∀ h h' o, (h, h', o) ∈ l → (∀ c, o ≠ .comm c) → h ≠ 1 := fun hi h h' o hm ho he => by
    obtain ⟨k, hk⟩ := hF.world.1 hi
    subst he
    exact ho k (hF.ok.left hm hk).2
  have empty : M.L.inited = false → ∀ e ∈ l, False := fun hi e he => by
    rw [hF.world.2 hi] at he
    cases he
  cases c with
  | store m => exact quiet_full rfl rfl (hF.withMem m)
  | init => exact Rel.bind (hF.init hc) fun x y _ _ ⟨_, l', h⟩ => .plain rfl rfl rfl h fun e he => (empty hc e he).elim
  | initThread r =>
    refine Rel.bind (R := fun x y => x.2 = y.2 ∧ ∃ l', Full l' x.1 y.1) ?_ fun x y _ _ ⟨h1, l', h⟩ =>
      .plain rfl rfl (by dsimp only; rw [h1]) h fun e he => (empty hc e he).elim
    exact Rel.bind (hF.init hc) fun x y _ _ h => ⟨rfl, h.2⟩
  | fortInit a =>
    refine Rel.bind (R := fun x y => ∃ l', Full l' x y) ?_ fun x y _ _ ⟨l', h⟩ => .plain rfl rfl rfl h fun e he => (empty hc e he).elim
    refine Rel.bind (hF.init hc) fun x y _ _ ⟨_, l', h⟩ => ?_
    rw [h.toRen.fortChecks a hwf]
    exact Rel.bind_same fun _ _ => ⟨l', h⟩
  | initialized => exact tell_full rfl rfl hF (by rw [hF.inited])
  | finalize => exact After.plain rfl rfl rfl hF.finalize fun e he => .inl rfl
  | abort c code => rfl
  | commDup c => exact one_new rfl (hF.newComm hc)
  | commCreate c g => exact newCommUnless_new rfl hF hc Iff.rfl
  | commSplit c color key => exact newCommUnless_new rfl hF hc Iff.rfl
  | intercommCreate a b c d e =>
    exact newCommUnless_new rfl hF hc (and_congr (hF.ok.zero (hs hc _ (by simp [Call.handles]))) (hF.ok.zero (hs hc _ (by simp [Call.handles]))))
  | cartCreate c n dims => exact one_new rfl (Rel.bind_same fun _ _ => hF.newComm hc)
  | commFree c =>
    obtain ⟨k, hk, ho⟩ := hwf
    have hsm := hs hc.1 c (by simp [Call.handles])
    obtain ⟨h', hm⟩ := hF.has.1 hk
    have hm := hF.obj_mem hsm (hF.obj_left hm)
    exact After.null rfl (hF.drop hc.1 hm (h1 c hc.2) (fun t ht => nomatch ht) (L := M.L.freeComm (f c)) (L' := N.L.freeComm (g c)) rfl rfl rfl rfl rfl rfl rfl rfl)
      fun e he => (mem_rest (h := f c) he).imp (fun h => decide_eq_true h) fun h => ⟨_, h⟩
  | isend b n t d g c => exact one_new rfl (hF.isend hc (hs hc _ (by simp [Call.handles])) hwf.1 (hs hc _ (by simp [Call.handles])))
  | irsend b n t d g c => exact one_new rfl (hF.irsend hc (hs hc _ (by simp [Call.handles])) hwf.1 (hs hc _ (by simp [Call.handles])))
  | send b n t d g c =>
    exact quiet_full rfl rfl (Rel.mono (hF.send hc (hs hc _ (by simp [Call.handles])) hwf.1 (hs hc _ (by simp [Call.handles]))) fun _ _ _ _ h => h.2)
  | irecv b n t d g c => exact one_new rfl (hF.irecv hc (hs hc _ (by simp [Call.handles])) hwf.1 (hs hc _ (by simp [Call.handles])))
  | recv b n t d g c st =>
    exact Rel.bind (hF.recv hc (hs hc _ (by simp [Call.handles])) hwf.1 (hs hc _ (by simp [Call.handles])) st) fun x y _ _ ⟨h1, h2⟩ =>
      .plain' rfl rfl (by dsimp only; rw [h1]) h2
  | sendrecv b n t d g b' n' t' d' g' c st =>
    exact Rel.bind (hF.sendrecv hc (hs hc _ (by simp [Call.handles])) hwf.1.1 (hs hc _ (by simp [Call.handles])) hwf.2.1
      (hs hc _ (by simp [Call.handles])) st) fun x y _ _ ⟨h1, h2⟩ => .plain' rfl rfl (by dsimp only; rw [h1]) h2
  | iprobe d g c st =>
    dsimp only [Call.withHandles, Mach.answer]
    rw [hF.iprobe (hs hc _ (by simp [Call.handles]))]
    exact Rel.bind_same fun x _ => .plain' rfl rfl rfl hF
  | probe d g c st =>
    dsimp only [Call.withHandles, Mach.answer]
    rw [hF.probe (hs hc _ (by simp [Call.handles]))]
    exact Rel.bind (R := fun x y => x.2 = y.2 ∧ Full l x.1 y.1) (Rel.bind_same fun x _ => ⟨rfl, hF⟩) fun x y _ _ ⟨h1, h2⟩ =>
      .plain' rfl rfl (by dsimp only; rw [h1]) h2
  | test r st =>
    have hsr := hs hc r (by simp [Call.handles])
    refine Rel.bind (hF.test hc hsr st) fun x y _ _ h => ?_
    have := After.array (c := (Call.test r st).withHandles f) (k := 0) (pre := []) (post := [x.flag]) (ds := [x.status]) rfl rfl rfl (fun _ _ => rfl) (test_array hsr h)
    obtain ⟨q1, q2, _⟩ := h
    rw [← q1, ← q2]
    exact this
  | wait r st =>
    have hsr := hs hc r (by simp [Call.handles])
    refine Rel.bind (hF.wait hc hsr st) fun x y _ _ ⟨q1, q2, q3, q4⟩ => ?_
    have ha : ArrAs l [f r] x.1 y.1 [0] [0] := ⟨_, q4, .cons (.inl ⟨rfl, Int.le_refl _⟩) .nil, rfl, fun e he => by
      rcases mem_rest (h := f r) he with he | he
      · rw [he]; exact .inl .head
      · exact .inr he⟩
    have := After.array (c := (Call.wait r st).withHandles f) (k := 0) (pre := []) (post := []) (ds := [x.2.2]) rfl rfl rfl (fun _ _ => rfl) ha
    rw [← q1, q2]
    exact this
  | requestFree r =>
    obtain ⟨i, o, hk, ho⟩ := hwf
    have hsm := hs hc r (by simp [Call.handles])
    obtain ⟨h', hm⟩ := hF.has.1 hk
    have hm := hF.obj_mem hsm (hF.obj_left hm)
    exact After.null rfl (hF.drop hc hm (world hc _ _ _ hm fun _ h => nomatch h) (fun t ht => nomatch ht) (L := M.L.release (f r)) (L' := N.L.release (g r)) rfl rfl rfl rfl rfl rfl rfl rfl)
      fun e he => (mem_rest (h := f r) he).imp (fun h => decide_eq_true h) fun h => ⟨_, h⟩
  | testany n rs i st =>
    refine Rel.bind (testany_as st hF hc (.map (hs hc)) hwf.2.spread) fun x y _ _ ⟨q1, q2⟩ => ?_
    have := After.array (c := (Call.testany n rs i st).withHandles f) (k := 2) (pre := [i, x.2.2.1]) (post := []) (ds := [x.2.2.2]) rfl rfl rfl (fun _ _ => rfl) q2
    rw [← q1]
    simp only [List.append_nil] at this
    exact this
  | waitany n rs i st =>
    refine Rel.bind (testany_as st hF hc (.map (hs hc)) hwf.2.spread) fun x y _ _ ⟨q1, q2⟩ => ?_
    rw [← q1]
    refine Rel.ite (fun _ => rfl) fun _ => ?_
    have := After.array (c := (Call.waitany n rs i st).withHandles f) (k := 1) (pre := [i]) (post := []) (ds := [x.2.2.2]) rfl rfl rfl (fun _ _ => rfl) q2
    simp only [List.append_nil] at this
    exact this
  | testall n rs sts =>
    refine Rel.bind (testeach_as 0 sts hF hc (.map (hs hc)) hwf.2.spread) fun x y _ _ ⟨q1, q2⟩ => ?_
    have := After.array (c := (Call.testall n rs sts).withHandles f) (k := 1) (pre := [if x.2.2.1.all (· ≠ 0) then 1 else 0]) (post := []) (ds := x.2.2.2.ptrs) rfl rfl rfl (fun _ _ => rfl) q2
    rw [← q1]
    simp only [List.append_nil] at this
    exact this
  | waitall n rs sts =>
    refine Rel.bind (waitall_as 0 sts hF hc (.map (hs hc)) hwf.2.spread) fun x y _ _ ⟨q1, q2⟩ => ?_
    have := After.array (c := (Call.waitall n rs sts).withHandles f) (k := 0) (pre := []) (post := []) (ds := x.2.2.ptrs) rfl rfl rfl (fun _ _ => rfl) q2
    rw [← q1]
    simp only [List.append_nil] at this
    exact this
  | testsome n rs ix sts =>
    refine Rel.bind (testeach_as 0 sts hF hc (.map (hs hc)) hwf.2.spread) fun x y _ _ ⟨q1, q2⟩ => ?_
    have := After.array (c := (Call.testsome n rs ix sts).withHandles f) (k := ix.length + 1) (pre := ((x.2.2.1.countP (· ≠ 0) : Nat) : Int) :: ix) (post := []) (ds := x.2.2.2.ptrs) rfl rfl rfl (fun _ _ => rfl) q2
    rw [← q1]
    simp only [List.append_nil] at this
    exact this
  | waitsome n rs ix sts =>
    refine Rel.bind (testeach_as 0 sts hF hc (.map (hs hc)) hwf.2.spread) fun x y _ _ ⟨q1, q2⟩ => ?_
    have := After.array (c := (Call.waitsome n rs ix sts).withHandles f) (k := ix.length + 1) (pre := ((x.2.2.1.countP (· ≠ 0) : Nat) : Int) :: ix) (post := []) (ds := x.2.2.2.ptrs) rfl rfl rfl (fun _ _ => rfl) q2
    rw [← q1]
    simp only [List.append_nil] at this
    exact this
  | typeContiguous n t | typeHvector n b k t | typeVector n b k t | typeHindexed n bs ks t | typeIndexed n bs ks t | typeIndexedBlock n b ks t =>
    dsimp only [Call.withHandles, Mach.answer]
    rw [hF.type (hs hc t (by simp [Call.handles]))]
    exact one_new rfl (Rel.bind_same fun d _ => hF.newType hc _)
  | typeStruct n bs ks ts =>
    dsimp only [Call.withHandles, Mach.answer]
    rw [hF.toRen.typesEq (ts := ts) (hs hc)]
    exact one_new rfl (Rel.bind_same fun d _ => hF.newType hc _)
  | typeCommit t =>
    obtain ⟨l', h1, h2⟩ := hF.commit (hs hc t (by simp [Call.handles]))
    exact After.plain rfl rfl rfl h1 fun e he => .inr (h2 e he)
  | typeFree t =>
    obtain ⟨⟨d, hk⟩, ho⟩ := hwf
    have hsm := hs hc t (by simp [Call.handles])
    obtain ⟨h', hm⟩ := hF.has.1 hk
    have hm := hF.obj_mem hsm (hF.obj_left hm)
    exact After.plain rfl rfl rfl (hF.drop hc hm (world hc _ _ _ hm fun _ h => nomatch h)
        (fun _ _ q hq hst ⟨a, a', ha⟩ => ho q ⟨hq, hst, a, hF.has.2 ⟨a', ha⟩⟩) (L := M.L.release (f t)) (L' := N.L.release (g t)) rfl rfl rfl rfl rfl rfl rfl rfl)
      fun e he => (mem_rest (h := f t) he).imp (fun h => decide_eq_true h) fun h => ⟨_, h⟩
  | typeExtent t | typeSize t | typeLb t | typeUb t | getElements st t | packSize n t c =>
    exact tell_full rfl rfl hF (by rw [hF.type (hs hc t (by simp [Call.handles]))])
  | pack a n t b size pos c | unpack a size pos b n t c =>
    dsimp only [Call.withHandles, Mach.answer]
    rw [hF.type (hs hc t (by simp [Call.handles])), hF.mem]
    exact Rel.bind (R := fun x y => x.2 = y.2 ∧ Full l x.1 y.1) (Rel.bind_same fun d _ => Rel.bind_same fun x _ => ⟨rfl, hF.withMem _⟩) fun x y _ _ ⟨h1, h2⟩ =>
      .plain' rfl rfl (by dsimp only; rw [h1]) h2
  | barrier c => exact quiet_full rfl rfl hF
  | bcast b n t root c => exact rooted_full rfl rfl hF root _ hF
  | gather a n t b k u root c =>
    exact Rel.ite (fun _ => quiet_full rfl rfl hF) fun _ => rooted_full rfl rfl hF root _ (hF.copy (hs hc _ (by simp [Call.handles])) (hs hc _ (by simp [Call.handles])))
  | gatherv a n t b ks ds u root c =>
    refine Rel.ite (fun _ => quiet_full rfl rfl hF) fun _ => rooted_full rfl rfl hF root _ ?_
    rw [hF.type (hs hc u (by simp [Call.handles]))]
    exact Rel.bind_same fun _ _ => Rel.bind_same fun _ _ => Rel.bind_same fun _ _ => hF.copy (hs hc _ (by simp [Call.handles])) (hs hc _ (by simp [Call.handles]))
  | allgather a n t b k u c =>
    exact Rel.ite (fun _ => quiet_full rfl rfl hF) fun _ => quiet_full rfl rfl (hF.copy (hs hc _ (by simp [Call.handles])) (hs hc _ (by simp [Call.handles])))
  | allgatherv a n t b ks ds u c =>
    refine Rel.ite (fun _ => quiet_full rfl rfl hF) fun _ => quiet_full rfl rfl ?_
    rw [hF.type (hs hc u (by simp [Call.handles]))]
    exact Rel.bind_same fun _ _ => Rel.bind_same fun _ _ => Rel.bind_same fun _ _ => hF.copy (hs hc _ (by simp [Call.handles])) (hs hc _ (by simp [Call.handles]))
  | scatter a n t b k u root c =>
    exact Rel.ite (fun _ => quiet_full rfl rfl hF) fun _ => rooted_full rfl rfl hF root _ (hF.copy (hs hc _ (by simp [Call.handles])) (hs hc _ (by simp [Call.handles])))
  | scatterv a ns ds t b k u root c =>
    refine Rel.ite (fun _ => quiet_full rfl rfl hF) fun _ => rooted_full rfl rfl hF root _ ?_
    rw [hF.type (hs hc t (by simp [Call.handles]))]
    exact Rel.bind_same fun _ _ => Rel.bind_same fun _ _ => Rel.bind_same fun _ _ => hF.copy (hs hc _ (by simp [Call.handles])) (hs hc _ (by simp [Call.handles]))
  | reduce a b n t op root c =>
    exact quiet_full rfl rfl (Rel.ite (fun _ => rfl) fun _ => hF.copy (hs hc _ (by simp [Call.handles])) (hs hc _ (by simp [Call.handles])))
  | allreduce a b n t op c =>
    exact Rel.ite (fun _ => quiet_full rfl rfl hF) fun _ => quiet_full rfl rfl (hF.copy (hs hc _ (by simp [Call.handles])) (hs hc _ (by simp [Call.handles])))
  | reduceScatter a b ns t op c =>
    exact quiet_full rfl rfl (Rel.bind_same fun _ _ => hF.copy (hs hc _ (by simp [Call.handles])) (hs hc _ (by simp [Call.handles])))
  | scan a b n t op c => exact quiet_full rfl rfl (hF.copy (hs hc _ (by simp [Call.handles])) (hs hc _ (by simp [Call.handles])))
  | alltoall a n t b k u c => exact quiet_full rfl rfl (hF.copy (hs hc _ (by simp [Call.handles])) (hs hc _ (by simp [Call.handles])))
  | alltoallv a ns sds t b ks rds u c =>
    refine quiet_full rfl rfl ?_
    rw [hF.type (hs hc t (by simp [Call.handles])), hF.type (hs hc u (by simp [Call.handles]))]
    exact Rel.bind_same fun _ _ => Rel.bind_same fun _ _ => Rel.bind_same fun _ _ => Rel.bind_same fun _ _ => Rel.bind_same fun _ _ =>
      Rel.bind_same fun _ _ => Rel.bind_same fun _ _ => Rel.bind_same fun _ _ => hF.copy (hs hc _ (by simp [Call.handles])) (hs hc _ (by simp [Call.handles]))
  | alltoallw a ns sds ts b ks rds us c =>
    have hts : ∀ t ∈ ts, Same l (f t) (g t) := fun t ht => hs hc t (by simp [Call.handles, ht])
    have hus : ∀ t ∈ us, Same l (f t) (g t) := fun t ht => hs hc t (by simp [Call.handles, ht])
    exact quiet_full rfl rfl (Rel.bind_same fun _ _ => Rel.bind_same fun _ _ => Rel.bind (rd_same hts) fun _ _ _ _ h1 =>
      Rel.bind_same fun _ _ => Rel.bind_same fun _ _ => Rel.bind (rd_same hus) fun _ _ _ _ h2 => hF.copy h1 h2)

/-! ## Well-formed calls -/

theorem Ren.holds (hr : Ren l M N) {h h' : Int} {o : Obj} (hs : Same l h h') (hm : (h, o) ∈ M.L.objs) : (h', o) ∈ N.L.objs := by
  obtain ⟨a, ha⟩ := hr.has.1 hm
  exact hr.has'.2 ⟨h, hr.obj_mem hs (hr.obj_left ha)⟩

theorem Ren.isComm (hr : Ren l M N) {h h' : Int} (hs : Same l h h') (hm : IsComm M.L h) : IsComm N.L h' :=
  hm.imp fun _ => hr.holds hs

theorem Ren.p2p (hr : Ren l M N) {t t' d c c' : Int} (ht : Same l t t') (hc : Same l c c') (h : P2PArgs env M.L t d c) : P2PArgs env N.L t' d c' :=
  ⟨(hr.isType ht).1 h.1, h.2.imp (hr.isComm hc) fun h => ⟨(hr.ok.zero hc).1 h.1, h.2⟩⟩

theorem Ren.reqs {f g : Int → Int} (hr : Ren l M N) : ∀ {rs : List Int}, (∀ x ∈ rs, Same l (f x) (g x)) → WfReqs M.L (rs.map f) → WfReqs N.L (rs.map g)
  | [], _, _ => trivial
  | r :: rs, hs, h => by
    have hsr := hs r (List.mem_cons_self ..)
    refine ⟨h.1.imp (hr.ok.zero hsr).1 fun ⟨h1, h2⟩ => ⟨h1.imp fun _ => hr.holds hsr, fun hm => ?_⟩,
      hr.reqs (fun x hx => hs x (List.mem_cons_of_mem _ hx)) h.2⟩
    obtain ⟨x, hx, he⟩ := List.mem_map.1 hm
    exact h2 (List.mem_map.2 ⟨x, hx, (hr.ok.iff (hs x (List.mem_cons_of_mem _ hx)) hsr).2 he⟩)

/-- The operation of the first machine. -/
theorem Ren.op_back (hr : Ren l M N) {o' : Op} (ho : o' ∈ N.L.ops) : ∃ (i : Nat) (o : Op), M.L.ops[i]? = some o ∧ N.L.ops[i]? = some o' ∧ o.bare = o'.bare := by
  obtain ⟨i, hi⟩ := List.mem_iff_getElem?.1 ho
  rcases getElem_bare hr.ops (i := i) with ⟨_, h2⟩ | ⟨o, q, h1, h2, h3⟩
  · rw [h2] at hi; cases hi
  · rw [h2] at hi
    cases hi
    exact ⟨i, o, h1, h2, h3⟩

theorem Full.wf {f g : Int → Int} (hF : Full l M N) (c : Call) (hs : M.L.inited = true → ∀ x ∈ c.handles, Same l (f x) (g x))
    (hc : c.inSession M.L.inited) (hwf : (c.withHandles f).Wf env M.L) : (c.withHandles g).Wf env N.L := by
  have hr := hF.toRen
  cases c with
  | store | init | initThread | initialized | finalize | abort | commDup | commCreate | commSplit | intercommCreate | cartCreate | barrier | bcast =>
    trivial
  | fortInit a => exact hwf
  | commFree c =>
    obtain ⟨k, hk, ho⟩ := hwf
    refine ⟨k, hr.holds (hs hc.1 c (by simp [Call.handles])) hk, fun o' ho' hst => ?_⟩
    obtain ⟨i, o, h1, _, h3⟩ := hr.op_back ho'
    have hb := bare_kind h3
    rw [← hb.2.1]
    exact ho o (List.mem_of_getElem? h1) (hb.2.2.2.2.2.trans hst)
  | isend | irsend | send | irecv | recv =>
    exact hr.p2p (hs hc _ (by simp [Call.handles])) (hs hc _ (by simp [Call.handles])) hwf
  | sendrecv =>
    exact ⟨hr.p2p (hs hc _ (by simp [Call.handles])) (hs hc _ (by simp [Call.handles])) hwf.1,
      hr.p2p (hs hc _ (by simp [Call.handles])) (hs hc _ (by simp [Call.handles])) hwf.2⟩
  | iprobe | probe => exact hr.isComm (hs hc _ (by simp [Call.handles])) hwf
  | test r st | wait r st =>
    have hsr := hs hc r (by simp [Call.handles])
    exact hwf.imp (hr.ok.zero hsr).1 fun ⟨i, hi⟩ => ⟨i, hr.holds hsr hi⟩
  | requestFree r =>
    obtain ⟨i, o, h1, h2, h3⟩ := hwf
    rcases getElem_bare hr.ops (i := i) with ⟨q1, _⟩ | ⟨q, q', q1, q2, q3⟩
    · rw [q1] at h2; cases h2
    · rw [q1] at h2
      cases h2
      exact ⟨i, q', hr.holds (hs hc r (by simp [Call.handles])) h1, q2, by rw [← (bare_kind q3).2.2.2.2.2]; exact h3⟩
  | testany | waitany | testall | waitall | testsome | waitsome =>
    exact ⟨by rw [List.length_map]; simpa only [List.length_map] using hwf.1, hr.reqs (hs hc) hwf.2⟩
  | typeContiguous => exact ⟨hwf.1, (hr.isType (hs hc _ (by simp [Call.handles]))).1 hwf.2⟩
  | typeHvector | typeVector | typeIndexedBlock => exact ⟨hwf.1, hwf.2.1, (hr.isType (hs hc _ (by simp [Call.handles]))).1 hwf.2.2⟩
  | typeHindexed | typeIndexed => exact ⟨hwf.1, hwf.2.1, hwf.2.2.1, (hr.isType (hs hc _ (by simp [Call.handles]))).1 hwf.2.2.2⟩
  | typeStruct n bs ks ts =>
    obtain ⟨h1, h2, h3, h4, h5⟩ := hwf
    refine ⟨h1, h2, by rw [List.length_map] at h3 ⊢; exact h3, h4, fun t ht => ?_⟩
    obtain ⟨x, hx, rfl⟩ := List.mem_map.1 ht
    exact (hr.isType (hs hc x hx)).1 (h5 _ (List.mem_map_of_mem hx))
  | typeCommit | typeExtent | typeSize | typeLb | typeUb | getElements | reduce | allreduce | reduceScatter | scan =>
    exact (hr.isType (hs hc _ (by simp [Call.handles]))).1 hwf
  | typeFree t =>
    obtain ⟨⟨d, hk⟩, ho⟩ := hwf
    have hst := hs hc t (by simp [Call.handles])
    refine ⟨⟨d, hr.holds hst hk⟩, fun o' ⟨ho', hp, a', ha'⟩ he => ?_⟩
    obtain ⟨i, o, h1, h2, h3⟩ := hr.op_back ho'
    have hb := bare_kind h3
    have hp' : o.st = .pending := hb.2.2.2.2.2.trans hp
    rw [← hb.2.1] at ha'
    obtain ⟨a, ha⟩ := hr.has'.1 ha'
    refine ho o ⟨List.mem_of_getElem? h1, hp', a, hr.has.2 ⟨a', ha⟩⟩ ?_
    exact (hr.ok.iff (hr.types i o o' h1 h2 hp' ⟨a, a', ha⟩).same hst).2 he
  | pack | packSize | unpack =>
    exact ⟨(hr.isType (hs hc _ (by simp [Call.handles]))).1 hwf.1, hr.isComm (hs hc _ (by simp [Call.handles])) hwf.2⟩
  | gather | gatherv | allgather | allgatherv | scatter | scatterv | alltoall | alltoallv =>
    exact ⟨(hr.isType (hs hc _ (by simp [Call.handles]))).1 hwf.1, (hr.isType (hs hc _ (by simp [Call.handles]))).1 hwf.2⟩
  | alltoallw a ns sds ts b ks rds us c =>
    refine ⟨fun t ht => ?_, fun t ht => ?_⟩ <;> obtain ⟨x, hx, rfl⟩ := List.mem_map.1 ht
    · exact (hr.isType (hs hc x (by simp [Call.handles, hx]))).1 (hwf.1 _ (List.mem_map_of_mem hx))
    · exact (hr.isType (hs hc x (by simp [Call.handles, hx]))).1 (hwf.2 _ (List.mem_map_of_mem hx))

end
end MpiSerial
