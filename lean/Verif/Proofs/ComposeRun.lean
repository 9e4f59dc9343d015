import Verif.Proofs.ComposeCalls

/-!
# Parts that take turns
-/

set_option linter.unusedSimpArgs false
set_option autoImplicit false

namespace MpiSerial

open Res (Rel Sub)

theorem length_le_of_subset : ∀ {l l' : List Int}, l.Nodup → (∀ x ∈ l, x ∈ l') → l.length ≤ l'.length
  | [], _, _, _ => Nat.zero_le _
  | a :: l, l', hn, hs => by
    have hn := List.nodup_cons.1 hn
    have ha := hs a (List.mem_cons_self ..)
    have := length_le_of_subset (l' := l'.erase a) hn.2 fun x hx => by
      refine (List.mem_erase_of_ne fun e => ?_).2 (hs x (List.mem_cons_of_mem _ hx))
      subst e
      exact hn.1 hx
    rw [List.length_erase_of_mem ha] at this
    have := List.length_pos_of_mem ha
    rw [List.length_cons]
    omega

theorem uses_keys {M : Mach} {h : Int} : M.uses h ↔ h ∈ M.L.objs.map Prod.fst := by
  rw [List.mem_map]
  constructor
  · rintro ⟨o, ho⟩; exact ⟨_, ho, rfl⟩
  · rintro ⟨⟨_, o⟩, ho, rfl⟩; exact ⟨o, ho⟩

theorem Sane.withPool {N : Mach} (hn : Sane N) {Q : Pool} (hq : Q.Serves N.uses N.pool.left) : Sane { N with pool := Q } :=
  ⟨hn.keys, hn.pos, hn.world, by have := hq.amount; dsimp only; rw [this]; exact hq, by have := hq.amount; dsimp only; rw [this]; exact hn.amount,
    hn.cids, hn.comms, hn.reqs, hn.links, hn.types, hn.inited, hn.first⟩

theorem Full.withPool {ps : Pairs} {K N : Mach} (hF : Full ps K N) {Q : Pool} (hq : Q.Serves N.uses N.pool.left) : Full ps K { N with pool := Q } :=
  { ok := hF.ok, objs := hF.objs, objs' := hF.objs', ops := hF.ops, types := hF.types, cids := hF.cids, comms := hF.comms,
    ncomms := hF.ncomms, inited := hF.inited, mem := hF.mem, built := hF.built,
    fst := by have := hq.amount; dsimp only; rw [this]; exact hF.fst, snd := by have := hq.amount; dsimp only; rw [this]; exact hq, world := hF.world }

/-- The part with its own machine, given the numbers of the machine of all. -/
theorem beside {R : Int → Bool} {w : Bool} {M N : Mach} (hs : Sane M) (hn : Sane N) (hp : ∃ φ ψ, Part φ ψ w M N) (hm : N.mem = M.mem.part R) :
    ∃ Q, Q.Serves N.uses N.pool.left ∧ Beside R w M { N with pool := Q } := by
  obtain ⟨φ, ψ, hp⟩ := hp
  have hsub : ∀ h ∈ N.L.objs.map Prod.fst, M.uses h := fun h hh => hp.uses (uses_keys.2 hh)
  have hlen := length_le_of_subset hn.keys fun x hx => uses_keys.1 (hsub x hx)
  rw [List.length_map, List.length_map] at hlen
  have h1 := hs.amount
  have h2 := hn.amount
  obtain ⟨Q, q1, q2⟩ := hs.stock.leader (N.L.objs.map Prod.fst) hsub (uses_keys.1 hn.uses_one) (k := N.pool.left) (by omega)
  have q3 : Q.Serves N.uses N.pool.left := q2.congr fun a => uses_keys
  exact ⟨Q, q3, hs, hn.withPool q3, ⟨φ, ψ, hp.objs, hp.ops, hp.mono, hp.inj, hp.bound, hp.own, hp.mine, hp.only, hp.typed⟩, q1, hm⟩

/-! ## Names -/

theorem Told.number_one' {ps : Pairs} {T : List (Int × Int × Int)} {ν ν' : Names} (ht : Told ps T ν ν') (x : Int) (hx : x ≠ 1) : ν'.number x ≠ 1 := by
  unfold Names.number
  split
  · exact hx
  · cases hf : ν'.tab.find? fun e => decide (e.1 = x) with
    | none => decide
    | some e =>
      have hm := List.mem_of_find?_eq_some hf
      rw [ht.tab'] at hm
      obtain ⟨z, hz, rfl⟩ := List.mem_map.1 hm
      have := (ht.range _ hz).2.2.2
      dsimp only [Option.map_some, Option.getD_some]
      omega

theorem Told.known_snd {ps : Pairs} {T : List (Int × Int × Int)} {ν ν' : Names} (ht : Told ps T ν ν') {x h : Int} (hm : (x, h) ∈ ν'.tab) :
    ∃ h', (x, h', h) ∈ T := by
  rw [ht.tab'] at hm
  obtain ⟨⟨a, b, c⟩, hz, e⟩ := List.mem_map.1 hm
  simp only [Prod.mk.injEq] at e
  obtain ⟨rfl, rfl⟩ := e
  exact ⟨b, hz⟩

theorem withHandles_channel (f : Int → Int) (c : Call) : (c.withHandles f).channel = c.channel.map f := by
  cases c <;> rfl

theorem May.numbers {l : Layer} {c : Call} {f : Int → Int} (hf : ∀ x, x ≠ 1 → f x ≠ 1) (h : l.May c) : l.May (c.withHandles f) := by
  have key : (c.channel = some MPI_COMM_WORLD → l.world = true) → (c.withHandles f).channel = some MPI_COMM_WORLD → l.world = true := fun h e => by
    rw [withHandles_channel] at e
    cases hc : c.channel with
    | none => rw [hc] at e; cases e
    | some x =>
      rw [hc] at e
      have e : f x = 1 := Option.some.inj e
      refine h ?_
      rw [hc]
      by_cases hx : x = 1
      · rw [hx]
      · exact absurd e (hf x hx)
  cases c <;> first | exact h | exact key h

theorem inSession_numbers {c : Call} {f : Int → Int} (hf : ∀ x, x ≠ 1 → f x ≠ 1) (h : c.inSession true) : (c.withHandles f).inSession true := by
  cases c <;> first | exact h | exact ⟨h.1, hf _ h.2⟩

/-! ## One part -/

/-- After `k` calls the part has seen `seen`; `N` is its machine, up to handle numbers. -/
structure Track (env : Env) (m : Mem) (l : Layer) (k : Nat) (seen : List Obs) (ν : Names) (N : Mach) : Prop where
  found : ∃ (K : Mach) (μ : Names) (ps : Pairs) (T : List (Int × Int × Int)), Full ps K N ∧ Told ps T μ ν ∧
    (∀ n, l.prog.Opaque env .lifo n k seen μ K) ∧ ∀ n, l.alone env m (k + n) = l.prog.runNamed env .lifo n k seen μ K

theorem Track.now {env : Env} {m : Mem} {l : Layer} {k : Nat} {seen : List Obs} {ν : Names} {N : Mach} (h : Track env m l k seen ν N) :
    l.alone env m k = (seen, none) := by
  obtain ⟨K, μ, ps, T, _, _, _, h4⟩ := h.found
  exact h4 0

theorem Track.idle {env : Env} {m : Mem} {l : Layer} {k : Nat} {seen : List Obs} {ν : Names} {N : Mach} (h : Track env m l k seen ν N)
    (hn : l.prog seen = none) (n : Nat) : l.alone env m (k + n) = (seen, none) := by
  obtain ⟨K, μ, ps, T, _, _, _, h4⟩ := h.found
  rw [h4 n]
  cases n with
  | zero => rfl
  | succ n => unfold Prog.runNamed; rw [hn]

theorem Res.Rel.ok_right {α β : Type} {S : α → β → Prop} {u : Res α} {v : Res β} {b : β} (h : u.Rel S v) (hv : v = .ok b) : ∃ a, u = .ok a ∧ S a b := by
  subst hv
  cases u with
  | ok a => exact ⟨a, rfl, h⟩
  | _ => exact h.elim

/-- A handle that is handed back is new. -/
def New (M : Mach) (c : Call) (o : Out) : Prop := c.makes = true → ∃ a, o.vals = [a] ∧ (a = 0 ∨ (1 < a ∧ ¬ M.uses a))

/-- One call of the part. -/
theorem Track.call {env : Env} {m : Mem} {l : Layer} {k : Nat} {seen : List Obs} {ν : Names} {N M : Mach} (ht : Track env m l k seen ν N)
    (hst : env.Steady) (hc : l.Correct env m) (hs : Sane M) (hn : Sane N) (hp : ∃ φ ψ, Part φ ψ l.world M N) (hm : N.mem = M.mem.part l.region)
    {c : Call} (hcall : l.prog seen = some c) :
    M.answer env (l.call M.mem (c.withHandles ν.number)) = .abort exhausted ∨
    (∃ M' o N', M.answer env (l.call M.mem (c.withHandles ν.number)) = .ok (M', o) ∧ Went l.region l.world M N M' N' ∧ New M c o ∧
      Track env m l (k + 1) (ν.observe seen c o (M'.mem.part l.region) :: seen) (ν.after c o.vals) N') ∨
    ((∀ x, M.answer env (l.call M.mem (c.withHandles ν.number)) ≠ .ok x) ∧
      l.alone env m (k + 1) = (seen, (M.answer env (l.call M.mem (c.withHandles ν.number))).fate)) := by
  have hnow := ht.now
  obtain ⟨K, μ, ps, T, hF, hT, hop, hal⟩ := ht.found
  obtain ⟨hk, hses, hwf, hnext⟩ := hop 1 c hcall
  obtain ⟨Q, hQ, hB⟩ := beside hs hn hp hm
  have hF' := hF.withPool hQ
  have hi : K.L.inited = true := hF.inited.trans hn.inited
  have hrel := hF'.answer (env := env) (f := μ.number) (g := ν.number) c (fun hi => hT.same hF hi hk) hses hwf hT.number_one
  have hwf' := hF'.wf c (fun hi => hT.same hF hi hk) hses hwf
  rw [hi] at hses
  have hmay : l.May (c.withHandles ν.number) := May.numbers hT.number_one' ((hc k).2.1 c (by rw [hnow]; exact hcall))
  have hsub := hB.answer rfl rfl hst _ hwf' (inSession_numbers hT.number_one' hses) hmay
  have halone : l.alone env m (k + 1) = match K.answer env (c.withHandles μ.number) with
      | .ok (K', o) => (μ.observe seen c o K'.mem :: seen, none)
      | r => (seen, r.fate) := by
    rw [hal 1]
    unfold Prog.runNamed
    rw [hcall]
    dsimp only
    have : K.with .lifo k = K := rfl
    rw [this]
    cases K.answer env (c.withHandles μ.number) <;> rfl
  rcases hsub with ⟨b, hb⟩ | hex | hsub
  · -- nothing undefined happens
    rw [hb] at hrel
    cases hK : K.answer env (c.withHandles μ.number) <;> rw [hK] at hrel halone <;> first | exact hrel.elim | skip
    have hrel : _ = _ := hrel
    exact absurd (by rw [halone]; rfl) ((hc (k + 1)).2.2 _)
  · exact .inl hex
  · right
    cases hM : M.answer env (l.call M.mem (c.withHandles ν.number)) with
    | ok x =>
      left
      obtain ⟨y, hy, he, hw⟩ := hsub.ok_left hM
      obtain ⟨z, hz, hA⟩ := Res.Rel.ok_right hrel hy
      obtain ⟨ps', T', g1, g2, g3⟩ := hT.after hk hA
      have hob := Told.observe hA g1 g2 g3 seen
      have hmem : y.1.mem = x.1.mem.part l.region := hw.mem
      obtain ⟨M', o⟩ := x
      obtain ⟨N', o'⟩ := y
      obtain ⟨K', o''⟩ := z
      dsimp only at he hmem hob g1 g2 g3 hw
      subst he
      refine ⟨M', o, N', rfl, ⟨hw.toBeside, hw.moves, hw.kept, hw.outside⟩, fun hmk => ?_, K', _, ps', T', g1, g2, fun n => ?_, fun n => ?_⟩
      · obtain ⟨b, a, e1, e2, hcase⟩ := hA.made (by rw [withHandles_makes]; exact hmk)
        dsimp only at e1 e2
        refine ⟨a, e2, hcase.imp (·.2) fun hcase => ⟨hcase.2.1, fun hu => ?_⟩⟩
        by_cases hu' : N.uses a
        · obtain ⟨oa, hoa⟩ := hu'
          obtain ⟨_, hl⟩ := hF.has'.1 hoa
          exact hcase.2.2.2 _ hl rfl
        · refine (hw.kept a ⟨hu, hu'⟩).2 ?_
          have hin : (ν.next, a) ∈ (ν.after c o.vals).tab := by
            unfold Names.after
            rw [if_pos hmk, e2]
            dsimp only
            rw [if_neg (by omega)]
            exact List.mem_cons_self ..
          obtain ⟨h', hT'⟩ := g2.known_snd hin
          obtain ⟨oa, hoa⟩ := g2.live _ hT'
          exact ⟨oa, g1.has'.2 ⟨_, hoa⟩⟩
      · have := (hop (n + 1) c hcall).2.2.2 K' o'' hz
        rw [hob, hmem] at this
        exact this
      · rw [show k + 1 + n = k + (n + 1) by omega, hal (n + 1)]
        rw [Prog.runNamed, hcall]
        dsimp only
        rw [show K.with .lifo k = K from rfl, hz]
        dsimp only
        rw [hob, hmem]
    | _ =>
      right
      refine ⟨fun x => nofun, ?_⟩
      rw [halone]
      rw [hM] at hsub
      have hf := hsub.fate
      have hf' := hrel.fate
      cases hy : Mach.answer env { N with pool := Q } (c.withHandles ν.number) <;> rw [hy] at hsub <;> first | exact hsub.elim | skip
      all_goals
        rw [hy] at hf hrel hf'
        cases hz : K.answer env (c.withHandles μ.number) <;> rw [hz] at hrel hf' <;> first | exact hrel.elim | exact congrArg _ (hf'.trans hf.symm)

/-! ## All parts -/

structure Joint {ι : Type} (env : Env) (m : Mem) (l : ι → Layer) (t : ι → Nat) (seen : ι → List Obs) (ν : ι → Names) (M : Mach) : Prop where
  sane : Sane M
  found : ∃ (N : ι → Mach) (k : ι → Nat), (∀ i, Track env m (l i) (k i) (seen i) (ν i) (N i)) ∧
    (∀ i, k i = t i ∨ (k i ≤ t i ∧ (l i).prog (seen i) = none)) ∧ (∀ i, Sane (N i)) ∧ (∀ i, ∃ φ ψ, Part φ ψ (l i).world M (N i)) ∧
    (∀ i, (N i).mem = M.mem.part (l i).region) ∧ ∀ i j h, i ≠ j → (N i).uses h → (N j).uses h → h = 1

theorem Joint.now {ι : Type} {env : Env} {m : Mem} {l : ι → Layer} {t : ι → Nat} {seen : ι → List Obs} {ν : ι → Names} {M : Mach}
    (hJ : Joint env m l t seen ν M) (i : ι) : (l i).alone env m (t i) = (seen i, none) := by
  obtain ⟨N, k, h1, h2, _⟩ := hJ.found
  rcases h2 i with h | ⟨h, hn⟩
  · rw [← h]; exact (h1 i).now
  · have := (h1 i).idle hn (t i - k i)
    rw [show k i + (t i - k i) = t i by omega] at this
    exact this

/-- A turn of part `i`. -/
theorem Joint.turn {ι : Type} [DecidableEq ι] {env : Env} {m : Mem} {l : ι → Layer} {t : ι → Nat} {seen : ι → List Obs} {ν : ι → Names} {M : Mach}
    (hst : env.Steady) (ha : Apart l) (hc : ∀ i, (l i).Correct env m) (hJ : Joint env m l t seen ν M) (i : ι) {c : Call}
    (hcall : (l i).prog (seen i) = some c) :
    M.answer env ((l i).call M.mem (c.withHandles (ν i).number)) = .abort exhausted ∨
    (∃ M' o, M.answer env ((l i).call M.mem (c.withHandles (ν i).number)) = .ok (M', o) ∧ New M c o ∧
      Joint env m l (fun j => if j = i then t i + 1 else t j)
        (fun j => if j = i then (ν i).observe (seen i) c o (M'.mem.part (l i).region) :: seen i else seen j)
        (fun j => if j = i then (ν i).after c o.vals else ν j) M') ∨
    ((∀ x, M.answer env ((l i).call M.mem (c.withHandles (ν i).number)) ≠ .ok x) ∧
      (l i).alone env m (t i + 1) = (seen i, (M.answer env ((l i).call M.mem (c.withHandles (ν i).number))).fate)) := by
  obtain ⟨N, k, h1, h2, h3, h4, h5, h6⟩ := hJ.found
  have hk : k i = t i := by
    rcases h2 i with h | ⟨_, h⟩
    · exact h
    · rw [hcall] at h; cases h
  rcases (h1 i).call hst (hc i) hJ.sane (h3 i) (h4 i) (h5 i) hcall with h | ⟨M', o, N', e, hW, hN, hT⟩ | ⟨h, h'⟩
  · exact .inl h
  · refine .inr (.inl ⟨M', o, e, hN, hW.sane, fun j => if j = i then N' else N j, fun j => if j = i then k i + 1 else k j, ?_, ?_, ?_, ?_, ?_, ?_⟩)
    · intro j
      dsimp only
      by_cases hj : j = i
      · subst hj
        rw [if_pos rfl, if_pos rfl, if_pos rfl, if_pos rfl]
        exact hT
      · rw [if_neg hj, if_neg hj, if_neg hj, if_neg hj]
        exact h1 j
    · intro j
      dsimp only
      by_cases hj : j = i
      · subst hj
        rw [if_pos rfl, if_pos rfl]
        exact .inl (by omega)
      · rw [if_neg hj, if_neg hj, if_neg hj]
        exact h2 j
    · intro j
      dsimp only
      by_cases hj : j = i
      · rw [if_pos hj]; exact hW.sane'
      · rw [if_neg hj]; exact h3 j
    · intro j
      dsimp only
      by_cases hj : j = i
      · subst hj
        rw [if_pos rfl]; exact hW.part
      · rw [if_neg hj]
        obtain ⟨φ, ψ, hp⟩ := h4 j
        refine ⟨φ, ψ, hp.foreigns hJ.sane (h3 j) (fun h hU hu => ?_) (fun x hx hu => ?_) hW.moves⟩
        · have hM := hp.uses hu
          by_cases hi : (N i).uses h
          · exact h6 j i h hj hu hi
          · exact absurd ⟨hM, hi⟩ hU
        · have hM := hp.uses hu
          have h1 : x = 1 := by
            by_cases hi : (N i).uses x
            · exact h6 j i x hj hu hi
            · exact absurd ⟨hM, hi⟩ hx.1
          refine ⟨h1, ?_⟩
          cases hw : (l j).world with
          | false => rfl
          | true => exact absurd (ha.world j i hw (hx.2 h1)) hj
    · intro j
      dsimp only
      by_cases hj : j = i
      · subst hj
        rw [if_pos rfl]; exact hW.mem
      · rw [if_neg hj, h5 j]
        funext a
        unfold Mem.part
        cases hr : (l j).region a with
        | false => rfl
        | true => simp only [if_true]; exact (hW.outside a (ha.region j i a hj hr)).symm
    · have key : ∀ j h, j ≠ i → (N j).uses h → N'.uses h → h = 1 := fun j h hj hu hu' => by
        obtain ⟨φ, ψ, hp⟩ := h4 j
        by_cases hi : (N i).uses h
        · exact h6 j i h hj hu hi
        · exact absurd hu' (hW.kept h ⟨hp.uses hu, hi⟩).2
      intro a b h hab hu hu'
      dsimp only at hu hu'
      by_cases hai : a = i
      · have hbi : b ≠ i := fun e => hab (hai.trans e.symm)
        rw [if_pos hai] at hu
        rw [if_neg hbi] at hu'
        exact key b h hbi hu' hu
      · rw [if_neg hai] at hu
        by_cases hbi : b = i
        · rw [if_pos hbi] at hu'
          exact key a h hai hu hu'
        · rw [if_neg hbi] at hu'
          exact h6 a b h hab hu hu'
  · rw [hk] at h'
    exact .inr (.inr ⟨h, h'⟩)

/-- All turns. -/
theorem Joint.run {ι : Type} [DecidableEq ι] {env : Env} {m : Mem} {l : ι → Layer} (hst : env.Steady) (ha : Apart l) (hc : ∀ i, (l i).Correct env m) :
    ∀ (turns : List ι) (t : ι → Nat) (seen : ι → List Obs) (ν : ι → Names) (M : Mach), Joint env m l t seen ν M →
    (together env l turns seen ν M).fate ≠ some (.abort exhausted) →
    ∃ done, turns = done ++ (together env l turns seen ν M).left ∧
      (∀ i, (l i).alone env m (t i + done.count i) = ((together env l turns seen ν M).seen i, none)) ∧
      ((together env l turns seen ν M).left = [] → (together env l turns seen ν M).fate = none) ∧
      ∀ i rest, (together env l turns seen ν M).left = i :: rest → (together env l turns seen ν M).fate ≠ none ∧
        (l i).alone env m (t i + done.count i + 1) = ((together env l turns seen ν M).seen i, (together env l turns seen ν M).fate) := by
  intro turns
  induction turns with
  | nil => exact fun t seen ν M hJ _ => ⟨[], rfl, fun i => hJ.now i, fun _ => rfl, fun i rest h => nomatch h⟩
  | cons i turns ih =>
    intro t seen ν M hJ hf
    unfold together at hf ⊢
    have count : ∀ (done : List ι) (j : ι), (if j = i then t i + 1 else t j) + done.count j = t j + (i :: done).count j := fun done j => by
      rw [List.count_cons]
      by_cases hj : j = i
      · subst hj
        rw [if_pos rfl, if_pos (beq_self_eq_true _)]
        omega
      · rw [if_neg hj, if_neg (fun e => hj (eq_of_beq e).symm)]
        omega
    have next : ∀ (seen' : ι → List Obs) (ν' : ι → Names) (M' : Mach), Joint env m l (fun j => if j = i then t i + 1 else t j) seen' ν' M' →
        (together env l turns seen' ν' M').fate ≠ some (.abort exhausted) →
        ∃ done, i :: turns = done ++ (together env l turns seen' ν' M').left ∧
          (∀ j, (l j).alone env m (t j + done.count j) = ((together env l turns seen' ν' M').seen j, none)) ∧
          ((together env l turns seen' ν' M').left = [] → (together env l turns seen' ν' M').fate = none) ∧
          ∀ j rest, (together env l turns seen' ν' M').left = j :: rest → (together env l turns seen' ν' M').fate ≠ none ∧
            (l j).alone env m (t j + done.count j + 1) = ((together env l turns seen' ν' M').seen j, (together env l turns seen' ν' M').fate) := by
      intro seen' ν' M' hJ' hf'
      obtain ⟨done, d1, d2, d3, d4⟩ := ih _ _ _ _ hJ' hf'
      refine ⟨i :: done, by rw [List.cons_append, ← d1], fun j => ?_, d3, fun j rest h => ?_⟩
      · rw [← count]; exact d2 j
      · rw [← count]; exact d4 j rest h
    cases hcall : (l i).prog (seen i) with
    | none =>
      rw [hcall] at hf
      dsimp only at hf ⊢
      refine next _ _ _ ⟨hJ.sane, ?_⟩ hf
      obtain ⟨N, k, h1, h2, h3⟩ := hJ.found
      refine ⟨N, k, h1, fun j => ?_, h3⟩
      by_cases hj : j = i
      · subst hj
        rw [if_pos rfl]
        have := h2 j
        exact .inr ⟨by omega, hcall⟩
      · rw [if_neg hj]; exact h2 j
    | some c =>
      rw [hcall] at hf
      dsimp only at hf ⊢
      rcases hJ.turn hst ha hc i hcall with h | ⟨M', o, h, _, hJ'⟩ | ⟨h, h'⟩
      · rw [h] at hf
        exact absurd rfl hf
      · rw [h] at hf ⊢
        dsimp only at hf ⊢
        exact next _ _ _ hJ' hf
      · have hnow := hJ.now
        cases hM : M.answer env ((l i).call M.mem (c.withHandles (ν i).number)) with
        | ok x => exact absurd hM (h x)
        | _ =>
          rw [hM] at h'
          dsimp only
          refine ⟨[], rfl, fun j => hnow j, (fun e => nomatch e), fun j rest e => ?_⟩
          obtain ⟨rfl, _⟩ := List.cons.inj e
          exact ⟨nofun, h'⟩

/-! ## The start -/

theorem session_init (m : Mem) : (Mach.start m).init = .ok (.session m) := rfl

theorem session_full (m : Mem) : ∃ ps, Full ps (.session m) (.session m) := by
  have := (Full.start m).init rfl
  rw [session_init] at this
  exact this.2

theorem session_sane (m : Mem) : Sane (.session m) := by
  obtain ⟨ps, hF⟩ := session_full m
  have hobjs : (Mach.session m).L.objs = [(1, .comm 0)] := rfl
  refine ⟨?_, ?_, ?_, hF.snd, ?_, (fun _ h => nomatch h), ?_, ?_, (fun _ h => nomatch h), (fun _ h => nomatch h), rfl, ?_⟩
  · rw [hobjs]; exact List.nodup_cons.2 ⟨List.not_mem_nil, .nil⟩
  · rw [hobjs]; intro e he; rcases List.mem_singleton.1 he with rfl; decide
  · rw [hobjs]; exact List.mem_singleton.2 rfl
  · rw [hobjs]
    simp only [Mach.session, Pool.left, Pool.block, List.length_tail, List.length_map, List.length_range', List.length_singleton]
  · rw [hobjs]
    intro h c hm
    have := Obj.comm.inj (Prod.mk.inj (List.mem_singleton.1 hm)).2
    subst this
    exact Nat.zero_lt_one
  · rw [hobjs]
    intro h i hm
    cases (Prod.mk.inj (List.mem_singleton.1 hm)).2
  · rw [hobjs]
    intro h hm
    exact (Prod.mk.inj (List.mem_singleton.1 hm)).1

theorem Joint.start {ι : Type} {env : Env} {m : Mem} {l : ι → Layer} (hc : ∀ i, (l i).Correct env m) :
    Joint env m l (fun _ => 0) (fun _ => []) (fun _ => .start) (.session m) := by
  refine ⟨session_sane m, fun i => .session (m.part (l i).region), fun _ => 0, fun i => ?_, fun _ => .inl rfl, fun i => session_sane _, fun i => ?_, fun i => rfl, ?_⟩
  · obtain ⟨ps, hF⟩ := session_full (m.part (l i).region)
    exact ⟨_, .start, ps, [], hF, ⟨rfl, rfl, rfl, .nil, .nil, .nil, (fun _ h => (List.not_mem_nil h).elim), Int.le_refl _,
      fun _ h => (List.not_mem_nil h).elim⟩, fun n => (hc i n).1, fun n => by rw [Nat.zero_add]; rfl⟩
  · refine ⟨id, id, fun h o hm => ?_, (fun i o h => nomatch h), (fun i j _ h => nomatch h), (fun _ _ _ _ h => h), (fun _ h => h), (fun j o c h => nomatch h),
      (fun o h => nomatch h), (fun _ _ h _ _ => h), (fun j o x h => nomatch h)⟩
    have hm : (h, o) ∈ [((1 : Int), Obj.comm 0)] := hm
    rcases List.mem_singleton.1 hm with e
    simp only [Prod.mk.injEq] at e
    obtain ⟨rfl, rfl⟩ := e
    exact List.mem_singleton.2 rfl
  · rintro i j h _ ⟨o, ho⟩ _
    have ho : (h, o) ∈ [((1 : Int), Obj.comm 0)] := ho
    exact (Prod.mk.inj (List.mem_singleton.1 ho)).1

end MpiSerial
