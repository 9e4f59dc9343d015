import Verif.Proofs.MessagesRun
import Verif.Props.Capacity

/-!
# Programs some of whose collectives are messages: the library
-/

set_option linter.unusedSimpArgs false
set_option autoImplicit false

namespace MpiSerial

/-- The program goes on knowing what its requests are for. -/
theorem NamedKnows.next {env : Env} {s s' : Sys} {M M' : Mach} {ν : Names} {seen : List Obs} {c : Call} {o o' : Out} {b : Prop} {mem : Mem}
    (hkn : NamedKnows ν seen M.L) (hs : Sim env s M) (hnames : ∀ {y h : Int}, (y, h) ∈ ν.tab → 2 ≤ y ∧ y < ν.next ∧ 1 < h ∧ M.uses h)
    (hA : AnsM env s M c.posts b (s', o) (M', o')) (hnew : New M c o') :
    NamedKnows (ν.after c o'.vals) (ν.observe seen c o' mem :: seen) M'.L := by
  have hvals : o.vals = o'.vals := hA.vals
  have hnews := hA.news
  have hold : ∀ x h q op, (x, h) ∈ ν.tab → (h, Obj.req q) ∈ M.L.objs → M'.L.ops[q]? = some op →
      lastPost seen x = some op.kind := fun x h q op hmem hm' hop => by
    obtain ⟨A, lst, hi⟩ := hs.reach.inv
    obtain ⟨o0, _, ho0, _⟩ := hi.req _ _ hm'
    obtain ⟨o1, ho1, he⟩ := Steps.kinds hA.steps q o0 ho0
    dsimp only at ho1
    rw [hop] at ho1
    cases ho1
    rw [hkn x h hmem q o0 hm' ho0, he]
  -- a request with an old name was there before
  have holds : ∀ x h q op, (x, h) ∈ ν.tab → (h, Obj.req q) ∈ M'.L.objs → M'.L.ops[q]? = some op →
      (h, Obj.req q) ∈ M.L.objs := fun x h q op hmem hm' hop => by
    have hn := hnews h q op hm' hop
    dsimp only at hn
    cases hps : c.posts with
    | none => rw [hps] at hn; exact hn
    | some kd =>
      rw [hps] at hn
      rcases hn with ⟨hv, _⟩ | ⟨_, hn⟩
      · obtain ⟨a, e1, e2⟩ := hnew (posts_makes hps)
        rw [hvals, e1] at hv
        have hv := (List.cons.inj hv).1
        obtain ⟨_, _, e3, e4⟩ := hnames hmem
        subst hv
        rcases e2 with e2 | ⟨_, e2⟩
        · omega
        · exact absurd e4 e2
      · exact hn
  intro x h hmem q op hm hop
  rw [lastPost_cons]
  cases hmk : c.makes with
  | false =>
    have hps : c.posts = none := by
      cases hp : c.posts with
      | none => rfl
      | some k => rw [posts_makes hp] at hmk; cases hmk
    unfold Names.observe
    dsimp only
    rw [hps, ite_self, Option.none_or]
    unfold Names.after at hmem
    rw [hmk] at hmem
    simp only [Bool.false_eq_true, if_false] at hmem
    have hmem := (List.mem_filter.1 hmem).1
    exact hold x h q op hmem (holds x h q op hmem hm hop) hop
  | true =>
    obtain ⟨a, e1, e2⟩ := hnew hmk
    have hv : (ν.observe seen c o' mem).vals = [(ν.after c [a]).name a] := by
      unfold Names.observe Call.seenAs Call.got
      rw [makes_place hmk, e1]
      rfl
    have hcl : (ν.observe seen c o' mem).call = c := rfl
    rw [hv, hcl]
    rw [e1] at hmem
    have hafter : ν.after c [a] = if a ≤ 1 then ν else ⟨(ν.next, a) :: ν.tab, ν.next + 1⟩ := by
      unfold Names.after
      rw [if_pos hmk]
    rw [hafter] at hmem ⊢
    rcases e2 with rfl | ⟨q1, q2⟩
    · rw [if_pos (show (0 : Int) ≤ 1 by decide)] at hmem ⊢
      obtain ⟨r1, _⟩ := hnames hmem
      have hne : ¬ [ν.name 0] = [x] := fun e => by
        have h0 : ν.name 0 = 0 := if_pos (by decide)
        have : ν.name 0 = x := (List.cons.inj e).1
        omega
      rw [if_neg hne, Option.none_or]
      exact hold x h q op hmem (holds x h q op hmem hm hop) hop
    · rw [if_neg (show ¬ a ≤ 1 by omega)] at hmem ⊢
      have hname : Names.name ⟨(ν.next, a) :: ν.tab, ν.next + 1⟩ a = ν.next := by
        unfold Names.name
        rw [if_neg (by omega), List.find?_cons_of_pos (by simp)]
        rfl
      rw [hname]
      rcases List.mem_cons.1 hmem with he | hmem
      · simp only [Prod.mk.injEq] at he
        obtain ⟨rfl, rfl⟩ := he
        rw [if_pos rfl]
        have hn := hnews h q op hm hop
        dsimp only at hn
        cases hps : c.posts with
        | none => rw [hps] at hn; exact absurd ⟨_, hn⟩ q2
        | some kd =>
          rw [hps] at hn
          rcases hn with ⟨_, hkk⟩ | ⟨_, hn⟩
          · rw [hkk]; rfl
          · exact absurd ⟨_, hn⟩ q2
      · obtain ⟨_, r2, _⟩ := hnames hmem
        have hne : ¬ [ν.next] = [x] := fun e => by have := (List.cons.inj e).1; omega
        rw [if_neg hne, Option.none_or]
        exact hold x h q op hmem (holds x h q op hmem hm hop) hop

section
variable {env : Env} {m : Mem} {p : Prog} {x : Int} {k : Nat} {seen : List Obs} {ν : Names} {M : Mach}

/-- The library and the machine tell the same extents. -/
theorem Sim.extent {s : Sys} (hs : Sim env s M) (hr : Room M.L) {t : Int} (ht : IsType env M.L t) :
    ((Call.typeExtent t).answer env s).extent = (M.answer env (.typeExtent t)).extent := by
  have h := Call.sim hs hr (.typeExtent t) ht
  cases hM : M.answer env (.typeExtent t) with
  | ok y =>
    rw [hM] at h
    obtain ⟨z, hz, hA⟩ := Res.Rel.ok_right h rfl
    rw [hz]
    obtain ⟨s', v, d⟩ := z
    obtain ⟨M', v', d'⟩ := y
    have := hA.vals
    dsimp only at this
    subst this
    cases v with
    | nil => rfl
    | cons e v => cases v <;> rfl
  | _ =>
    rw [hM] at h
    cases hx : (Call.typeExtent t).answer env s <;> rw [hx] at h <;> first | rfl | exact h.elim

/-- The message is well formed, and posts nothing that stays. -/
theorem Via.message_wf (hV : Via env m p x k seen ν M) {c : Call} (hcall : p seen = some c) (tag : Option Int) :
    ((c.withHandles ν.number).via (fun t => (M.answer env (.typeExtent t)).extent) x tag).Wf env M.L ∧
    ((c.withHandles ν.number).via (fun t => (M.answer env (.typeExtent t)).extent) x tag).posts = c.posts ∧
    ((c.withHandles ν.number).via (fun t => (M.answer env (.typeExtent t)).extent) x tag).requests = (c.withHandles ν.number).requests := by
  have hwf := (hV.wf hcall).2
  unfold Call.via
  cases hm : (tag.bind fun g => (c.withHandles ν.number).asMessage (fun t => (M.answer env (.typeExtent t)).extent) x g) with
  | none => exact ⟨hwf, withHandles_posts .., rfl⟩
  | some d =>
    obtain ⟨g, _, hg⟩ := Option.bind_eq_some_iff.1 hm
    obtain ⟨a, n, t, b, k', u, rfl, ht, hu, _⟩ := Call.asMessage_copy hwf hg
    obtain ⟨q1, _, q2⟩ := Call.asMessage_quiet hg
    obtain ⟨q, hq, _⟩ := hV.hidden
    rw [withHandles_posts] at q1
    rw [q2, q1]
    exact ⟨⟨⟨ht, .inl ⟨q, hq⟩⟩, ⟨hu, .inl ⟨q, hq⟩⟩⟩, rfl, rfl⟩

end

/-- The library does what the machine does. -/
theorem via_sim {env : Env} {m : Mem} {p : Prog} {x : Int} (pick : List Obs → Option Int) (hst : env.Steady) (hc : p.whole.Correct env m) :
    ∀ (n k j : Nat) (seen : List Obs) (ν : Names) (s : Sys) (M : Mach), Via env m p x j seen ν M → Sim env s M → NamedKnows ν seen M.L →
    M.L.ncomms ≤ k → M.L.unmatched ≤ 2 * k → k + n ≤ 1073741823 →
    p.runViaLib env pick x n seen ν s = p.runVia env pick x n seen ν M := by
  intro n
  induction n with
  | zero => intros; rfl
  | succ n ih =>
    intro k j seen ν s M hV hs hkn h1 h2 h3
    unfold Prog.runViaLib Prog.runVia
    cases hcall : p seen with
    | none => rfl
    | some c =>
      obtain ⟨hk, hwf⟩ := hV.wf hcall
      have hrm : Room M.L := ⟨by omega, by omega, by omega⟩
      dsimp only
      have hvia : (c.withHandles ν.number).via (fun t => ((Call.typeExtent t).answer env s).extent) x (pick seen) =
          (c.withHandles ν.number).via (fun t => (M.answer env (.typeExtent t)).extent) x (pick seen) := by
        unfold Call.via
        congr 2
        funext g
        exact Call.asMessage_congr hwf (fun t ht => hs.extent hrm ht) x g
      rw [hvia]
      obtain ⟨w1, w2, w3⟩ := hV.message_wf hcall (pick seen)
      have hturn := hV.turn hst hc hcall (pick seen) rfl
      generalize (c.withHandles ν.number).via (fun t => (M.answer env (.typeExtent t)).extent) x (pick seen) = c' at w1 w2 w3 hturn
      have hsim := Call.sim hs hrm _ w1
      cases hM : M.answer env c' with
      | ok z =>
        obtain ⟨M', o'⟩ := z
        obtain ⟨⟨s', o⟩, hx, hA⟩ := Res.Rel.ok_right hsim hM
        rcases hturn with h | ⟨M'', o'', h, hnew, hV'⟩ | ⟨h, _⟩
        · rw [hM] at h; cases h
        · rw [hM] at h
          cases h
          have hvals : o.vals = o'.vals := hA.vals
          have hdone : knownReceives seen c = true → o.done = o'.done := fun hkr => by
            refine hA.done fun r hr q op hm hq => ?_
            rw [w3, withHandles_requests] at hr
            obtain ⟨y, hyr, rfl⟩ := List.mem_map.1 hr
            unfold knownReceives at hkr
            rw [List.all_eq_true] at hkr
            have h8 := hkr y hyr
            rcases hk y (requests_handles c y hyr) with hle | ⟨h, hmem⟩
            · rw [Told.number_const hle] at hm
              have hpos := hV.sane.pos _ hm
              dsimp only at hpos
              have hx1 : y = 1 := by omega
              subst hx1
              cases nodup_fst_unique hV.sane.keys hm hV.sane.world
            · obtain ⟨e1, e2, _⟩ := hV.names hmem
              rw [e1] at hm
              have h9 := hkn y h hmem q op hm hq
              simp only [Bool.or_eq_true, beq_iff_eq] at h8
              rcases h8 with h8 | h8
              · rw [h8] at e2; exact absurd e2 (by decide)
              · rw [h9] at h8; exact Option.some.inj h8
          have hob : ν.observe seen c o s'.mem = ν.observe seen c o' M'.mem := by
            unfold Names.observe
            rw [hvals, hA.sim.mem]
            congr 1
            split
            · next hkr => exact hdone hkr
            · rfl
          rw [hx]
          dsimp only
          rw [hob, hvals]
          rw [w2] at hA
          exact ih (k + 1) _ _ _ s' M' hV' hA.sim (hkn.next hs (fun hm => (hV.names hm).2) hA hnew)
            (by have := hA.room.1; dsimp only at this; omega) (by have := hA.room.2; dsimp only at this; omega) (by omega)
        · exact absurd hM (h _)
      | _ =>
        have hf := hsim.fate
        rw [hM] at hf
        cases hy : c'.answer env s <;> rw [hy] at hf <;> simp_all [Res.fate]

/-! ## The start -/

/-- The machine after MPI_Init and MPI_Comm_dup. -/
def Mach.withComm (m : Mem) : Mach := ⟨(Mach.session m).L.addComm 2, ⟨(Pool.block 0).tail.tail, 1⟩, m, 0⟩

theorem session_take (m : Mem) : (Mach.session m).pool.take = some (2, ⟨(Pool.block 0).tail.tail, 1⟩) := rfl

theorem session_dup (env : Env) (m : Mem) : (Mach.session m).answer env (.commDup 1) = .ok (.withComm m, ⟨[2], []⟩) := rfl

theorem Via.start {env : Env} {m : Mem} {p : Prog} (hc : p.whole.Correct env m) : Via env m p 2 0 [] .start (.withComm m) := by
  have hmv : Move (fun _ => False) (fun _ => False) (.session m) (.withComm m) := .comm (session_take m)
  have hpart : Part id id true (.session m) (.session m) := by
    refine ⟨fun h o hm => ?_, (fun i o h => nomatch h), (fun i j _ h => nomatch h), (fun _ _ _ _ h => h), (fun _ h => h), (fun j o c h => nomatch h),
      (fun o h => nomatch h), (fun _ _ h _ _ => h), (fun j o x h => nomatch h)⟩
    have hm : (h, o) ∈ [((1 : Int), Obj.comm 0)] := hm
    rcases List.mem_singleton.1 hm with e
    simp only [Prod.mk.injEq] at e
    obtain ⟨rfl, rfl⟩ := e
    exact List.mem_singleton.2 rfl
  refine ⟨hmv.sane (session_sane m), ⟨1, List.mem_cons_self .., fun h hm => ?_, (fun o h => nomatch h)⟩, .session m, ?_, session_sane m,
    ⟨id, id, hpart.foreign (session_sane m) (session_sane m) (fun _ h => h.elim) (fun _ h => h.elim) hmv⟩, rfl, ?_⟩
  · have hm : (h, Obj.comm 1) ∈ [((2 : Int), Obj.comm 1), (1, .comm 0)] := hm
    rcases List.mem_cons.1 hm with e | hm
    · exact (Prod.mk.inj e).1
    · cases (Prod.mk.inj (List.mem_singleton.1 hm)).2
  · obtain ⟨ps, hF⟩ := session_full m
    exact ⟨_, .start, ps, [], hF, ⟨rfl, rfl, rfl, .nil, .nil, .nil, (fun _ h => (List.not_mem_nil h).elim), Int.le_refl _,
      fun _ h => (List.not_mem_nil h).elim⟩, fun n => (hc n).1, fun n => by rw [Nat.zero_add]; rfl⟩
  · rintro ⟨o, ho⟩
    have ho : ((2 : Int), o) ∈ [((1 : Int), Obj.comm 0)] := ho
    cases (Prod.mk.inj (List.mem_singleton.1 ho)).1

/-! ## Handle numbers -/

theorem Via.capacity {env : Env} {m : Mem} {p : Prog} {x : Int} (pick : List Obs → Option Int) (hst : env.Steady) (hc : p.whole.Correct env m) :
    ∀ (n j : Nat) (seen : List Obs) (ν : Names) (M : Mach), Via env m p x j seen ν M → M.L.objs.length + n ≤ 262142 →
    (p.runVia env pick x n seen ν M).2 ≠ some (.abort exhausted) := by
  intro n
  induction n with
  | zero => exact fun _ _ _ _ _ _ h => nomatch h
  | succ n ih =>
    intro j seen ν M hV hlen
    unfold Prog.runVia
    cases hcall : p seen with
    | none => exact nofun
    | some c =>
      dsimp only
      have hturn := hV.turn hst hc hcall (pick seen) rfl
      generalize (c.withHandles ν.number).via (fun t => (M.answer env (.typeExtent t)).extent) x (pick seen) = c' at hturn
      have hs := hV.sane
      have hp : M.pool.Positive := ⟨hs.stock.blocks.1, fun h hm => (hs.stock.unused h hm).1⟩
      have hf := M.answer_fits (env := env) hp (by have := hs.amount; omega) c'
      have hn := Call.needs_le c'
      have hl := Call.leaves_le c'
      have hamt := hs.amount
      have hex : M.answer env c' ≠ .abort exhausted := fun e => by
        rw [e] at hf
        have := hf rfl
        omega
      rcases hturn with h | ⟨M', o, h, _, hV'⟩ | ⟨h, h'⟩
      · exact absurd h hex
      · rw [h] at hf ⊢
        have h1 : M.pool.left ≤ M'.pool.left + _ := hf
        have h2 := hV'.sane.amount
        exact ih _ _ _ _ hV' (by omega)
      · cases hM : M.answer env c' with
        | ok z => exact absurd hM (h z)
        | abort msg =>
          intro he
          have h7 : msg = exhausted := by simpa only [Res.fate, Option.some.injEq, Fate.abort.injEq] using he
          exact hex (by rw [hM, h7])
        | _ => exact nofun

end MpiSerial
