import Verif.Proofs.OpaqueStep

/-!
# Two machines that differ in handle numbers: names
-/

set_option linter.unusedSimpArgs false
set_option autoImplicit false

namespace MpiSerial

open Res (Rel)

/-- The names in use with the numbers they stand for on either side. -/
structure Told (l : Pairs) (T : List (Int × Int × Int)) (ν ν' : Names) : Prop where
  tab : ν.tab = T.map fun e => (e.1, e.2.1)
  tab' : ν'.tab = T.map fun e => (e.1, e.2.2)
  next : ν.next = ν'.next
  names : (T.map fun e => e.1).Nodup
  fst : (T.map fun e => e.2.1).Nodup
  snd : (T.map fun e => e.2.2).Nodup
  range : ∀ e ∈ T, 2 ≤ e.1 ∧ e.1 < ν.next ∧ 1 < e.2.1 ∧ 1 < e.2.2
  two : 2 ≤ ν.next
  live : ∀ e ∈ T, ∃ o, (e.2.1, e.2.2, o) ∈ l

/-- The handles are constants or names in use. -/
def Names.Known (ν : Names) (xs : List Int) : Prop := ∀ x ∈ xs, x ≤ 1 ∨ ∃ h, (x, h) ∈ ν.tab

theorem Told.start : Told [] [] .start .start :=
  ⟨rfl, rfl, rfl, .nil, .nil, .nil, (fun _ h => (List.not_mem_nil h).elim), Int.le_refl _, fun _ h => (List.not_mem_nil h).elim⟩

section
variable {l l' : Pairs} {T : List (Int × Int × Int)} {ν ν' : Names} {M N : Mach} {env : Env}

theorem Told.known (ht : Told l T ν ν') {x h : Int} (hm : (x, h) ∈ ν.tab) : ∃ h', (x, h, h') ∈ T := by
  rw [ht.tab] at hm
  obtain ⟨⟨a, b, c⟩, he, h1⟩ := List.mem_map.1 hm
  simp only [Prod.mk.injEq] at h1
  obtain ⟨rfl, rfl⟩ := h1
  exact ⟨c, he⟩

theorem Told.number (ht : Told l T ν ν') {x h h' : Int} (hm : (x, h, h') ∈ T) : ν.number x = h ∧ ν'.number x = h' := by
  have hx := (ht.range _ hm).1
  dsimp only at hx
  unfold Names.number
  rw [if_neg (by omega), if_neg (by omega), ht.tab, ht.tab', List.find?_map, List.find?_map]
  have h1 := find_pair (f := fun e : Int × Int × Int => e.1) ht.names hm
  exact ⟨by rw [show ((fun e : Int × Int => decide (e.1 = x)) ∘ fun e : Int × Int × Int => (e.1, e.2.1)) = fun e => decide (e.1 = x) from rfl, h1]; rfl,
    by rw [show ((fun e : Int × Int => decide (e.1 = x)) ∘ fun e : Int × Int × Int => (e.1, e.2.2)) = fun e => decide (e.1 = x) from rfl, h1]; rfl⟩

theorem Told.number_const {x : Int} (hx : x ≤ 1) : ν.number x = x := by
  unfold Names.number
  rw [if_pos hx]

/-- Only 1 stands for 1. -/
theorem Told.number_one (ht : Told l T ν ν') (x : Int) (hx : x ≠ 1) : ν.number x ≠ 1 := by
  unfold Names.number
  split
  · exact hx
  · cases hf : ν.tab.find? fun e => decide (e.1 = x) with
    | none => decide
    | some e =>
      obtain ⟨h', hm⟩ := ht.known (List.mem_of_find?_eq_some hf)
      have := (ht.range _ hm).2.2.1
      dsimp only [Option.map_some, Option.getD_some] at this ⊢
      omega

/-- Corresponding numbers for known handles. -/
theorem Told.same (ht : Told l T ν ν') (hF : Full l M N) (hi : M.L.inited = true) {xs : List Int} (hk : ν.Known xs) :
    ∀ x ∈ xs, Same l (ν.number x) (ν'.number x) := fun x hx => by
  rcases hk x hx with h1 | ⟨h, hm⟩
  · rw [Told.number_const h1, Told.number_const h1]
    by_cases h2 : x = 1
    · obtain ⟨c, hc⟩ := hF.world.1 hi
      subst h2
      exact .inr ⟨_, hc⟩
    · exact .inl ⟨rfl, by omega⟩
  · obtain ⟨h', hm⟩ := ht.known hm
    obtain ⟨e1, e2⟩ := ht.number hm
    rw [e1, e2]
    exact .inr (ht.live _ hm)

theorem Told.known' (ht : Told l T ν ν') {xs : List Int} (hk : ν.Known xs) : ν'.Known xs := fun x hx => by
  rcases hk x hx with h1 | ⟨h, hm⟩
  · exact .inl h1
  · obtain ⟨h', hm⟩ := ht.known hm
    exact .inr ⟨h', by rw [ht.tab']; exact List.mem_map.2 ⟨_, hm, rfl⟩⟩

/-- The number of a known handle is that of a name only if it is that name. -/
theorem Told.number_iff (ht : Told l T ν ν') {x a h h' : Int} (hx : x ≤ 1 ∨ ∃ h, (x, h) ∈ ν.tab) (hm : (a, h, h') ∈ T) : ν.number x = h ↔ x = a := by
  have hr := ht.range _ hm
  dsimp only at hr
  rcases hx with h1 | ⟨k, hk⟩
  · rw [Told.number_const h1]
    omega
  · obtain ⟨k', hk⟩ := ht.known hk
    rw [(ht.number hk).1]
    constructor
    · rintro rfl
      have := eq_of_fst (f := fun e : Int × Int × Int => e.2.1) ht.fst hk hm rfl
      exact (Prod.mk.inj this).1
    · rintro rfl
      have := eq_of_fst (f := fun e : Int × Int × Int => e.1) ht.names hk hm rfl
      simp only [Prod.mk.injEq] at this
      exact this.2.1

/-- Names of corresponding numbers. -/
theorem Told.name (ht : Told l T ν ν') (hF : Full l M N) {a b : Int} (hs : Same l a b) : ν.name a = ν'.name b := by
  have h1 : a ≤ 1 ↔ b ≤ 1 := by
    rcases hs with ⟨rfl, _⟩ | ⟨o, hm⟩
    · exact Iff.rfl
    · have hp := hF.ok.pos _ hm
      dsimp only at hp
      cases hi : M.L.inited with
      | false => rw [hF.world.2 hi] at hm; cases hm
      | true =>
        obtain ⟨c, hc⟩ := hF.world.1 hi
        have := hF.ok.iff (.inr ⟨o, hm⟩) (.inr ⟨_, hc⟩)
        constructor <;> intro h <;> omega
  unfold Names.name
  by_cases h2 : a ≤ 1
  · rw [if_pos h2, if_pos (h1.1 h2)]
    rcases hs with ⟨rfl, _⟩ | ⟨o, hm⟩
    · rfl
    · have hp := hF.ok.pos _ hm
      have := h1.1 h2
      dsimp only at hp
      omega
  · rw [if_neg h2, if_neg fun h => h2 (h1.2 h), ht.tab, ht.tab', List.find?_map, List.find?_map]
    have : T.find? ((fun e : Int × Int => decide (e.2 = a)) ∘ fun e : Int × Int × Int => (e.1, e.2.1)) =
        T.find? ((fun e : Int × Int => decide (e.2 = b)) ∘ fun e : Int × Int × Int => (e.1, e.2.2)) := by
      have key : ∀ e ∈ T, ((fun e : Int × Int => decide (e.2 = a)) ∘ fun e : Int × Int × Int => (e.1, e.2.1)) e =
          ((fun e : Int × Int => decide (e.2 = b)) ∘ fun e : Int × Int × Int => (e.1, e.2.2)) e := fun e he => by
        have := hF.ok.iff (.inr (ht.live e he)) hs
        simp only [Function.comp]
        exact decide_eq_decide.2 this
      clear ht
      induction T with
      | nil => rfl
      | cons e T ih =>
        rw [List.find?_cons, List.find?_cons, key e (List.mem_cons_self ..), ih fun e he => key e (List.mem_cons_of_mem _ he)]
    rw [this]
    cases T.find? ((fun e : Int × Int => decide (e.2 = b)) ∘ fun e : Int × Int × Int => (e.1, e.2.2)) <;> rfl

/-! ## What a call does to names -/

theorem withHandles_place (f : Int → Int) (c : Call) : (c.withHandles f).place = c.place := by
  cases c <;> simp only [Call.withHandles, Call.place, List.length_map]

theorem withHandles_makes (f : Int → Int) (c : Call) : (c.withHandles f).makes = c.makes := by
  cases c <;> rfl

theorem withHandles_got (f : Int → Int) (c : Call) (vals : List Int) : (c.withHandles f).got vals = c.got vals := by
  unfold Call.got
  rw [withHandles_place]

theorem withHandles_requests (f : Int → Int) (c : Call) : (c.withHandles f).requests = c.requests.map f := by
  cases c <;> rfl

theorem requests_handles (c : Call) : ∀ x ∈ c.requests, x ∈ c.handles := by
  cases c <;> simp [Call.requests, Call.handles]

theorem any_zip {f : Int → Int} {a h : Int} : ∀ {rs out : List Int}, (∀ x ∈ rs, f x = h ↔ x = a) →
    ((rs.map f).zip out).any (fun e => decide (e.1 = h ∧ e.2 = MPI_REQUEST_NULL)) = (rs.zip out).any fun e => decide (e.1 = a ∧ e.2 = MPI_REQUEST_NULL)
  | [], _, _ => rfl
  | _ :: _, [], _ => rfl
  | r :: rs, o :: out, hk => by
    rw [List.map_cons, List.zip_cons_cons, List.zip_cons_cons, List.any_cons, List.any_cons,
      any_zip fun x hx => hk x (List.mem_cons_of_mem _ hx)]
    congr 1
    exact decide_eq_decide.2 (and_congr_left fun _ => hk r (List.mem_cons_self ..))

/-- A name ends with the number it stands for. -/
theorem Told.ends (ht : Told l T ν ν') {c : Call} (hk : ν.Known c.handles) {a h h' : Int} (hm : (a, h, h') ∈ T) (vals : List Int) :
    (c.withHandles ν.number).ends vals h = c.ends vals a := by
  have hi : ∀ x ∈ c.handles, ν.number x = h ↔ x = a := fun x hx => ht.number_iff (hk x hx) hm
  have hz := any_zip (out := c.got vals) fun x hx => hi x (requests_handles c x hx)
  have hg := withHandles_got ν.number c vals
  have hq := withHandles_requests ν.number c
  rw [← hg, ← hq] at hz
  cases c <;> first
    | exact hz.trans (by rw [hg]; rfl)
    | rfl
    | exact decide_eq_decide.2 (eq_comm.trans ((hi _ (by simp [Call.handles])).trans eq_comm))

theorem any_aligned {a : Int} {R : Int → Int → Prop} : ∀ {rs out out' : List Int}, Aligned R out out' → (∀ x y, R x y → (x = 0 ↔ y = 0)) →
    (rs.zip out).any (fun e => decide (e.1 = a ∧ e.2 = MPI_REQUEST_NULL)) = (rs.zip out').any fun e => decide (e.1 = a ∧ e.2 = MPI_REQUEST_NULL)
  | [], _, _, _, _ => by rw [List.zip_nil_left, List.zip_nil_left]
  | _ :: _, _, _, .nil, _ => rfl
  | r :: rs, _, _, .cons h1 h2, hz => by
    rw [List.zip_cons_cons, List.zip_cons_cons, List.any_cons, List.any_cons, any_aligned h2 hz]
    congr 1
    exact decide_eq_decide.2 (and_congr_right fun _ => hz _ _ h1)

theorem makes_ends {c : Call} (h : c.makes = true) (vals : List Int) (a : Int) : c.ends vals a = false := by
  cases c <;> first | rfl | cases h

/-- Names after a call. -/
theorem Told.after (ht : Told l T ν ν') {c : Call} (hk : ν.Known c.handles) {x y : Mach × Out} (ha : After (c.withHandles ν.number) l x y) :
    ∃ l' T', Full l' x.1 y.1 ∧ Told l' T' (ν.after c x.2.vals) (ν'.after c y.2.vals) ∧ Aligned (Same l') (c.got x.2.vals) (c.got y.2.vals) := by
  obtain ⟨_, _, _, hmade, l', hF, hgot, hpairs⟩ := ha
  rw [withHandles_got, withHandles_got] at hgot
  rw [withHandles_makes] at hmade
  have hlive : ∀ e ∈ T, c.ends x.2.vals e.1 = false → ∃ o, (e.2.1, e.2.2, o) ∈ l' := fun e he hf => by
    obtain ⟨o, hm⟩ := ht.live e he
    rcases hpairs _ hm with h1 | h1
    · rw [ht.ends (a := e.1) (h' := e.2.2) hk he, hf] at h1
      cases h1
    · exact h1
  cases hmk : c.makes with
  | true =>
    obtain ⟨h, h', e1, e2, hc⟩ := hmade hmk
    have hkeep : ∀ e ∈ T, ∃ o, (e.2.1, e.2.2, o) ∈ l' := fun e he => hlive e he (makes_ends hmk _ _)
    rcases hc with ⟨rfl, rfl⟩ | ⟨g1, g2, g3, g4⟩
    · refine ⟨l', T, hF, ?_, hgot⟩
      unfold Names.after
      rw [if_pos hmk, if_pos hmk, e1, e2]
      exact { ht with live := hkeep }
    · refine ⟨l', (ν.next, h, h') :: T, hF, ?_, hgot⟩
      have hn : Same l' h h' := by
        rw [e1, e2] at hgot
        have hp : c.place = (0, 1) := by cases c <;> first | rfl | cases hmk
        unfold Call.got at hgot
        rw [hp] at hgot
        cases hgot with
        | cons h1 _ => exact h1
      unfold Names.after
      rw [if_pos hmk, if_pos hmk, e1, e2]
      dsimp only
      rw [if_neg (by omega), if_neg (by omega)]
      refine ⟨by rw [ht.tab]; rfl, by rw [ht.tab', ← ht.next]; rfl, by dsimp only; rw [ht.next], ?_, ?_, ?_, ?_, ?_, ?_⟩
      · refine List.nodup_cons.2 ⟨fun hm => ?_, ht.names⟩
        obtain ⟨e, he, h1⟩ := List.mem_map.1 hm
        have := (ht.range e he).2.1
        dsimp only at h1
        omega
      · refine List.nodup_cons.2 ⟨fun hm => ?_, ht.fst⟩
        obtain ⟨e, he, h1⟩ := List.mem_map.1 hm
        obtain ⟨o, ho⟩ := ht.live e he
        exact g3 _ ho h1
      · refine List.nodup_cons.2 ⟨fun hm => ?_, ht.snd⟩
        obtain ⟨e, he, h1⟩ := List.mem_map.1 hm
        obtain ⟨o, ho⟩ := ht.live e he
        exact g4 _ ho h1
      · intro e he
        have h2 := ht.two
        dsimp only
        rcases List.mem_cons.1 he with rfl | he
        · dsimp only; omega
        · have := ht.range e he; omega
      · have := ht.two
        dsimp only
        omega
      · intro e he
        rcases List.mem_cons.1 he with rfl | he
        · rcases hn with ⟨_, hn⟩ | hn
          · omega
          · exact hn
        · exact hkeep e he
  | false =>
    have hsame : ∀ a, c.ends x.2.vals a = c.ends y.2.vals a := fun a => by
      have := any_aligned (a := a) (rs := c.requests) hgot fun _ _ h => hF.ok.zero h
      cases c <;> first | exact this | rfl
    refine ⟨l', T.filter fun e => !c.ends x.2.vals e.1, hF, ?_, hgot⟩
    unfold Names.after
    rw [hmk]
    have hsub : ∀ (f : Int × Int × Int → Int), (T.map f).Nodup → ((T.filter fun e => !c.ends x.2.vals e.1).map f).Nodup :=
      fun f hn => hn.sublist (List.filter_sublist.map _)
    refine ⟨?_, ?_, ht.next, hsub _ ht.names, hsub _ ht.fst, hsub _ ht.snd, fun e he => ht.range e (List.mem_filter.1 he).1, ht.two, fun e he => ?_⟩
    · simp only [Bool.false_eq_true, if_false]
      rw [ht.tab, List.filter_map]
      rfl
    · simp only [Bool.false_eq_true, if_false]
      rw [ht.tab', List.filter_map]
      simp only [Function.comp_def, ← hsame]
    · have := List.mem_filter.1 he
      exact hlive e this.1 (by simpa using this.2)

theorem map_aligned {R : Int → Int → Prop} {f g : Int → Int} {as bs : List Int} (h : Aligned R as bs) (hfg : ∀ a b, R a b → f a = g b) :
    as.map f = bs.map g := by
  induction h with
  | nil => rfl
  | cons h1 _ ih => rw [List.map_cons, List.map_cons, hfg _ _ h1, ih]

/-- The program sees the same. -/
theorem Told.observe {T' : List (Int × Int × Int)} {c : Call} {f : Int → Int} {x y : Mach × Out} (ha : After (c.withHandles f) l x y)
    (hF : Full l' x.1 y.1) (ht : Told l' T' (ν.after c x.2.vals) (ν'.after c y.2.vals)) (hg : Aligned (Same l') (c.got x.2.vals) (c.got y.2.vals))
    (seen : List Obs) : ν.observe seen c x.2 x.1.mem = ν'.observe seen c y.2 y.1.mem := by
  have h1 := ha.before
  have h2 := ha.behind
  rw [withHandles_place] at h1 h2
  unfold Names.observe Call.seenAs
  rw [map_aligned hg fun a b hs => ht.name hF hs, h1, h2, ha.done, hF.mem]

/-! ## Strategies -/

theorem Full.with {A B : Strategy} (hA : A.Sound) (hB : B.Sound) (hF : Full l M N) (k : Nat) : Full l (M.with A k) (N.with B k) := by
  have e1 : M.pool.left = N.pool.left := hF.fst.amount
  have h1 := hA k M.uses M.pool (e1 ▸ hF.fst)
  have h2 := hB k N.uses N.pool hF.snd
  have e2 : (N.with B k).pool.left = N.pool.left := h2.amount
  exact { ok := hF.ok, objs := hF.objs, objs' := hF.objs', ops := hF.ops, types := hF.types, cids := hF.cids, comms := hF.comms,
          ncomms := hF.ncomms, inited := hF.inited, mem := hF.mem, built := hF.built,
          fst := by rw [e2, ← e1]; exact h1, snd := by rw [e2]; exact h2, world := hF.world }

theorem Full.start (m : Mem) : Full [] (.start m) (.start m) := by
  have he : ∀ a, ¬ (Mach.start m).uses a := fun a ⟨o, ho⟩ => nomatch ho
  have e : (262143 : Nat) = Pool.start.left := by
    simp only [Pool.left, Pool.start, Pool.block, List.length_map, List.length_range']
  have hs : Pool.start.Serves (Mach.start m).uses Pool.start.left := e ▸ Pool.Serves.start he
  exact { ok := ⟨.nil, .nil, fun _ h => (List.not_mem_nil h).elim⟩, objs := rfl, objs' := rfl, ops := rfl,
          types := (fun _ _ _ h => nomatch h), cids := fun _ h => (List.not_mem_nil h).elim, comms := fun _ _ _ h => (List.not_mem_nil h).elim,
          ncomms := rfl, inited := rfl, mem := rfl, built := rfl, fst := hs, snd := hs, world := ⟨(fun h => nomatch h), fun _ => rfl⟩ }

/-- Runs with different strategies. -/
theorem named_same {A B : Strategy} (hA : A.Sound) (hB : B.Sound) (p : Prog) : ∀ (n k : Nat) (seen : List Obs) (ν ν' : Names) (M N : Mach) (l : Pairs)
    (T : List (Int × Int × Int)), Full l M N → Told l T ν ν' → p.Opaque env A n k seen ν M →
    p.runNamed env A n k seen ν M = p.runNamed env B n k seen ν' N ∧ p.Opaque env B n k seen ν' N := by
  intro n
  induction n with
  | zero => intros; exact ⟨rfl, trivial⟩
  | succ n ih =>
    intro k seen ν ν' M N l T hF ht ho
    cases hc : p seen with
    | none =>
      refine ⟨?_, fun c hc' => by rw [hc] at hc'; cases hc'⟩
      unfold Prog.runNamed
      rw [hc]
    | some c =>
      obtain ⟨hk, hses, hwf, hnext⟩ := ho c hc
      have hsame : M.L.inited = true → ∀ x ∈ c.handles, Same l (ν.number x) (ν'.number x) := fun hi => ht.same hF hi hk
      have hF' := hF.with hA hB k
      have hrel := hF'.answer (env := env) (f := ν.number) (g := ν'.number) c hsame hses hwf ht.number_one
      have step : ∀ x y, (M.with A k).answer env (c.withHandles ν.number) = .ok x → (N.with B k).answer env (c.withHandles ν'.number) = .ok y →
          After (c.withHandles ν.number) l x y → ν.observe seen c x.2 x.1.mem = ν'.observe seen c y.2 y.1.mem ∧
          p.runNamed env A n (k + 1) (ν.observe seen c x.2 x.1.mem :: seen) (ν.after c x.2.vals) x.1 =
            p.runNamed env B n (k + 1) (ν.observe seen c x.2 x.1.mem :: seen) (ν'.after c y.2.vals) y.1 ∧
          p.Opaque env B n (k + 1) (ν.observe seen c x.2 x.1.mem :: seen) (ν'.after c y.2.vals) y.1 := by
        intro x y hx hy ha
        obtain ⟨l', T', g1, g2, g3⟩ := ht.after hk ha
        exact ⟨Told.observe ha g1 g2 g3 seen, ih (k + 1) _ _ _ _ _ _ _ g1 g2 (hnext _ _ hx)⟩
      constructor
      · unfold Prog.runNamed
        rw [hc]
        dsimp only
        cases hx : (M.with A k).answer env (c.withHandles ν.number) with
        | ok x =>
          obtain ⟨y, hy, ha⟩ := hrel.ok_left hx
          obtain ⟨s1, s2, _⟩ := step x y hx hy ha
          rw [hy]
          dsimp only
          rw [← s1]
          exact s2
        | _ =>
          rw [hx] at hrel
          cases hy : (N.with B k).answer env (c.withHandles ν'.number) <;> rw [hy] at hrel <;> first | cases hrel | skip
          all_goals simp_all [Res.fate, Rel]
      · intro c' hc'
        rw [hc] at hc'
        cases hc'
        refine ⟨ht.known' hk, by rw [← hF.inited]; exact hses, hF.wf c hsame hses hwf, fun N' o hy => ?_⟩
        cases hx : (M.with A k).answer env (c.withHandles ν.number) with
        | ok x =>
          obtain ⟨y, hy', ha⟩ := hrel.ok_left hx
          rw [hy] at hy'
          cases hy'
          obtain ⟨s1, _, s3⟩ := step x _ hx hy ha
          rw [← s1]
          exact s3
        | _ => rw [hx, hy] at hrel; cases hrel

end
end MpiSerial
