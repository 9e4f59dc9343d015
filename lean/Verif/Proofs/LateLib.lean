import Verif.Proofs.Late

/-!
# Releases that come late: the library
-/

set_option linter.unusedSimpArgs false
set_option autoImplicit false

namespace MpiSerial

section
variable {env : Env} {m : Mem} {p : Prog} {k : Nat} {seen : List Obs} {ν : Names}

/-- Calls kept in mind, made on the library and on the machine. -/
theorem Late.makeUp_sim : ∀ (is : List Nat) {kept : List Call} {M : Mach} {s : Sys}, Late env m p k seen ν kept M → Sim env s M → NamedKnows ν seen M.L → Room M.L →
    ∃ s' M' kept', MpiSerial.makeUp (fun (s : Sys) c => c.answer env s) is kept s = .ok (s', kept') ∧
      MpiSerial.makeUp (fun (M : Mach) c => M.answer env c) is kept M = .ok (M', kept') ∧
      Late env m p k seen ν kept' M' ∧ Sim env s' M' ∧ NamedKnows ν seen M'.L ∧ M'.L.ncomms = M.L.ncomms ∧ M'.L.unmatched = M.L.unmatched := by
  intro is
  induction is with
  | nil => exact fun h hs hk _ => ⟨_, _, _, rfl, rfl, h, hs, hk, rfl, rfl⟩
  | cons i is ih =>
    intro kept M s hV hs hk hr
    unfold MpiSerial.makeUp
    cases hc : kept[i]? with
    | none => exact ih hV hs hk hr
    | some c =>
      obtain ⟨M', o, e1, e2, _⟩ := hV.makeUp_one hc
      have hi := hV.idle c (List.mem_of_getElem? hc)
      obtain ⟨h, obj, o', _, _, g3, _⟩ := hi.does (env := env) hV.sane
      rw [e1] at g3
      cases g3
      dsimp only
      obtain ⟨⟨s', o''⟩, f1, f2⟩ := Res.Rel.ok_right (Call.sim hs hr c hi.wf) e1
      rw [e1, f1]
      obtain ⟨s2, M2, kept2, a1, a2, a3, a4, a5, a6, a7⟩ := ih e2 f2.sim (fun x y hm q op hq hop => hk x y hm q op (List.mem_filter.1 hq).1 hop) hr
      exact ⟨s2, M2, kept2, a1, a2, a3, a4, a5, a6, a7⟩

/-- Nothing is posted by a release. -/
theorem NamedKnows.putOff {L : Ledger} (hk : NamedKnows ν seen L) {c : Call} {o : Out} (ho : (c.withHandles ν.number).putOff = some o) (mem : Mem) :
    NamedKnows (ν.after c o.vals) (ν.observe seen c o mem :: seen) L := by
  have hq : c.posts = none ∧ c.makes = false := by
    cases c <;> first | exact ⟨rfl, rfl⟩ | cases ho
  intro x h hm q op hq' hop
  rw [lastPost_cons]
  unfold Names.observe
  dsimp only
  rw [hq.1, ite_self, Option.none_or]
  unfold Names.after at hm
  rw [hq.2] at hm
  simp only [Bool.false_eq_true, if_false] at hm
  exact hk x h (List.mem_filter.1 hm).1 q op hq' hop

end

/-- The library does what the machine does. -/
theorem late_sim {env : Env} {m : Mem} {p : Prog} (off : List Obs → Bool) (late : List Obs → List Nat) (hst : env.Steady) (hc : p.whole.Correct env m) :
    ∀ (n k j : Nat) (seen : List Obs) (ν : Names) (kept : List Call) (s : Sys) (M : Mach), Late env m p j seen ν kept M → Sim env s M → NamedKnows ν seen M.L →
    M.L.ncomms ≤ k → M.L.unmatched ≤ 2 * k → k + n ≤ 1073741823 →
    p.runLateLib env off late n seen ν kept s = p.runLateM env off late n seen ν kept M := by
  intro n
  induction n with
  | zero => intros; rfl
  | succ n ih =>
    intro k j seen ν kept s M hV hs hkn h1 h2 h3
    unfold Prog.runLateLib Prog.runLateM Prog.runLate
    cases hcall : p seen with
    | none => rfl
    | some c =>
      dsimp only
      obtain ⟨s, M, kept, q1, q2, hV, hs, hkn, q6, q7⟩ := hV.makeUp_sim (late seen) hs hkn ⟨by omega, by omega, by omega⟩
      rw [← q6] at h1
      rw [← q7] at h2
      clear q6 q7
      rw [q1, q2]
      dsimp only
      have hrm : Room M.L := ⟨by omega, by omega, by omega⟩
      obtain ⟨hk, w1⟩ := hV.wf hcall
      cases ho : (if off seen = true then (c.withHandles ν.number).putOff else none) with
      | some o =>
        dsimp only
        have ho : (c.withHandles ν.number).putOff = some o := by
          split at ho
          · exact ho
          · cases ho
        rw [show Sys.mem s = M.mem from hs.mem]
        exact ih (k + 1) _ _ _ _ s M (hV.putOff hst hc hcall ho) hs (hkn.putOff ho _) (by omega) (by omega) (by omega)
      | none =>
        dsimp only
        have hturn := hV.plain hst hc hcall
        have hsim := Call.sim hs hrm _ w1
        cases hM : M.answer env (c.withHandles ν.number) with
        | ok z =>
          obtain ⟨M', o'⟩ := z
          obtain ⟨⟨s', o⟩, hx, hA⟩ := Res.Rel.ok_right hsim hM
          rcases hturn with h | ⟨M'', o'', h, hnew, hV'⟩ | ⟨h, _⟩
          · rw [hM] at h; cases h
          · rw [hM] at h
            cases h
            have hvals : o.vals = o'.vals := hA.vals
            have hdone : knownReceives seen c = true → o.done = o'.done := fun hkr => by
              refine hA.done fun r hr q op hm hq => ?_
              rw [withHandles_requests] at hr
              obtain ⟨y, hyr, rfl⟩ := List.mem_map.1 hr
              unfold knownReceives at hkr
              rw [List.all_eq_true] at hkr
              have h8 := hkr y hyr
              rcases hk y (requests_handles c y hyr) with hle | ⟨h, hmem⟩
              · rw [Told.number_const hle] at hm
                have hpos := hV.sane.pos _ hm
                dsimp only at hpos
                have hx1 : y = 1 := by omega
                subst hx1
                cases nodup_fst_unique hV.sane.keys hm hV.sane.world
              · obtain ⟨e1, e2, _⟩ := hV.names hmem
                rw [e1] at hm
                have h9 := hkn y h hmem q op hm hq
                simp only [Bool.or_eq_true, beq_iff_eq] at h8
                rcases h8 with h8 | h8
                · rw [h8] at e2; exact absurd e2 (by decide)
                · rw [h9] at h8; exact Option.some.inj h8
            have hob : ν.observe seen c o s'.mem = ν.observe seen c o' M'.mem := by
              unfold Names.observe
              rw [hvals, hA.sim.mem]
              congr 1
              split
              · next hkr => exact hdone hkr
              · rfl
            rw [hx]
            dsimp only
            rw [hob, hvals]
            rw [withHandles_posts] at hA
            exact ih (k + 1) _ _ _ _ s' M' hV' hA.sim (hkn.next hs (fun hm => (hV.names hm).2) hA hnew)
              (by have := hA.room.1; dsimp only at this; omega) (by have := hA.room.2; dsimp only at this; omega) (by omega)
          · exact absurd hM (h _)
        | _ =>
          have hf := hsim.fate
          rw [hM] at hf
          cases hy : (c.withHandles ν.number).answer env s <;> rw [hy] at hf <;> simp_all [Res.fate]

theorem Late.start {env : Env} {m : Mem} {p : Prog} (hc : p.whole.Correct env m) : Late env m p 0 [] .start [] (.session m) := by
  have hpart : Part id id true (.session m) (.session m) := by
    refine ⟨fun h o hm => ?_, (fun i o h => nomatch h), (fun i j _ h => nomatch h), (fun _ _ _ _ h => h), (fun _ h => h), (fun j o c h => nomatch h),
      (fun o h => nomatch h), (fun _ _ h _ _ => h), (fun j o x h => nomatch h)⟩
    have hm : (h, o) ∈ [((1 : Int), Obj.comm 0)] := hm
    rcases List.mem_singleton.1 hm with e
    simp only [Prod.mk.injEq] at e
    obtain ⟨rfl, rfl⟩ := e
    exact List.mem_singleton.2 rfl
  obtain ⟨ps, hF⟩ := session_full m
  exact ⟨session_sane m, (fun _ h => (List.not_mem_nil h).elim), .nil, .session m,
    ⟨_, .start, ps, [], hF, ⟨rfl, rfl, rfl, .nil, .nil, .nil, (fun _ h => (List.not_mem_nil h).elim), Int.le_refl _,
      fun _ h => (List.not_mem_nil h).elim⟩, fun n => (hc n).1, fun n => by rw [Nat.zero_add]; rfl⟩, session_sane m, ⟨id, id, hpart⟩, rfl,
    fun _ h => (List.not_mem_nil h).elim⟩

/-! ## Handle numbers -/

theorem Late.capacity {env : Env} {m : Mem} {p : Prog} (off : List Obs → Bool) (late : List Obs → List Nat) (hst : env.Steady) (hc : p.whole.Correct env m) :
    ∀ (n j : Nat) (seen : List Obs) (ν : Names) (kept : List Call) (M : Mach), Late env m p j seen ν kept M → M.L.objs.length + n ≤ 262142 →
    (p.runLateM env off late n seen ν kept M).2 ≠ some (.abort exhausted) := by
  intro n
  induction n with
  | zero => exact fun _ _ _ _ _ _ _ h => nomatch h
  | succ n ih =>
    intro j seen ν kept M hV hlen
    unfold Prog.runLateM Prog.runLate
    cases hcall : p seen with
    | none => exact nofun
    | some c =>
      dsimp only
      obtain ⟨M1, kept, e, hV, _, hle⟩ := hV.makeUp (late seen)
      rw [e]
      dsimp only
      cases ho : (if off seen = true then (c.withHandles ν.number).putOff else none) with
      | some o =>
        dsimp only
        have ho : (c.withHandles ν.number).putOff = some o := by
          split at ho
          · exact ho
          · cases ho
        exact ih _ _ _ _ _ (hV.putOff hst hc hcall ho) (by omega)
      | none =>
        dsimp only
        have hturn := hV.plain hst hc hcall
        generalize c.withHandles ν.number = c' at hturn
        have hs := hV.sane
        have hp : M1.pool.Positive := ⟨hs.stock.blocks.1, fun h hm => (hs.stock.unused h hm).1⟩
        have hf := M1.answer_fits (env := env) hp (by have := hs.amount; omega) c'
        have hn := Call.needs_le c'
        have hl := Call.leaves_le c'
        have hamt := hs.amount
        have hex : M1.answer env c' ≠ .abort exhausted := fun e => by
          rw [e] at hf
          have := hf rfl
          omega
        rcases hturn with h | ⟨M', o, h, _, hV'⟩ | ⟨h, h'⟩
        · exact absurd h hex
        · rw [h] at hf ⊢
          have h1 : M1.pool.left ≤ M'.pool.left + _ := hf
          have h2 := hV'.sane.amount
          exact ih _ _ _ _ _ hV' (by omega)
        · cases hM : M1.answer env c' with
          | ok z => exact absurd hM (h z)
          | abort msg =>
            intro he
            have h7 : msg = exhausted := by simpa only [Res.fate, Option.some.injEq, Fate.abort.injEq] using he
            exact hex (by rw [hM, h7])
          | _ => exact nofun

end MpiSerial
