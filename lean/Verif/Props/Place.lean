import Verif.Proofs.PlaceArr
import Verif.Props.Overlap
import Verif.Props.FortMach

/-!
# C83: calls work on the caller's variables

The completion functions of the library store into the request, flag, index and status variables of the program while they run, and read some
of them again (`*flag` and `*request` in MPI_Test); MPI_Isend, MPI_Irsend and MPI_Irecv store the request before they transfer a message, MPI_Pack and
MPI_Unpack read and advance `*position` at each element, and the datatype constructors store the new handle before they read their array
arguments; MPI_Group_translate_ranks fills one array while it reads another.  Other theorems have them as functions of the values.  For variables that do not overlap there is no difference.
-/

set_option linter.unusedSimpArgs false
set_option autoImplicit false

namespace MpiSerial

open Spec.Fort

section
open Spec
variable {env : Env} {s : Sys} {L : Ledger}

theorem oneByOne_beside {sz : Int → Int} {l : List (Entry × Entry)} {p : Int}
    (h : ∀ x ∈ l, Apart x.1.1 (sz x.1.2) p 4 ∧ Apart x.2.1 (sz x.1.2) p 4) {m w : Mem} (hw : ∀ a, ¬ (p ≤ a ∧ a < p + 4) → w a = m a) :
    oneByOne sz l w = fun a => if p ≤ a ∧ a < p + 4 then w a else oneByOne sz l m a := by
  induction l generalizing m w with
  | nil => funext a; dsimp only [oneByOne]; split
           · rfl
           · exact hw a ‹_›
  | cons x l ih =>
    obtain ⟨d, e⟩ := x
    obtain ⟨h1, h2⟩ := h (d, e) (List.mem_cons_self ..)
    dsimp only at h1 h2
    rw [oneByOne, oneByOne, ih (fun y hy => h y (List.mem_cons_of_mem _ hy)) (m := replaced m d.1 e.1 (sz d.2))]
    · funext a
      split
      · next ha =>
        unfold replaced
        rw [if_neg]
        unfold Apart at h1; omega
      · rfl
    · intro a ha
      unfold replaced
      split
      · next hb =>
        apply hw
        unfold Apart at h2; omega
      · exact hw a ha

theorem bystander_of {f : Sys → Res (Sys × Int)} {p : Int} (hb : Blind sysAnd s.mem (fun m => f (s.on m)))
    (h : ∀ w x y, (∀ a, ¬ (p ≤ a ∧ a < p + 4) → w a = s.mem a) → f s = .ok x → f { s with mem := w } = .ok y →
      y.1.mem = fun a => if p ≤ a ∧ a < p + 4 then w a else x.1.mem a) : Bystander f s p := by
  obtain ⟨r, hr, _⟩ := hb
  intro w hw hsh
  have h1 : f s = _ := hr s.mem fun _ => rfl
  have h2 : f { s with mem := w } = _ := hr w hsh
  cases r with
  | ok x =>
    have := h w _ _ hw h1 h2
    rw [h1, h2]
    simp only [Res.ok_bind]
    have hq : w ∘ x.2 = _ := this
    rw [hq]
    rfl
  | _ => rw [h1, h2]; rfl

/-- C83: the request variable of a send takes no part in it if it lies neither in the elements that are sent nor in those of the receive that takes
the message. -/
theorem C83_bystander_send (hr : Reach env s L) (hc : env.cfg.Ok) {comm : Int} {c : Nat} (hy : Ready L comm c) {buf count dtype tag p : Int}
    (h : ∀ j o, Earliest L .recv c (fun t => accepts t tag) j o → ∃ τs τr, StandsFor env.cfg L dtype (.data τs) ∧ StandsFor env.cfg L o.dtype (.data τr) ∧
      Committed env.cfg L dtype ∧ Committed env.cfg L o.dtype ∧
      Exchangeable (sz env.cfg) (env.cfg.typeChecking = true) buf count τs o.buf o.count τr ∧
      ∀ x ∈ (placed (sz env.cfg) τr o.count o.buf).zip (placed (sz env.cfg) τs count buf),
        Apart x.1.1 (sz env.cfg x.1.2) p 4 ∧ Apart x.2.1 (sz env.cfg x.1.2) p 4) :
    Bystander (fun s => MPI_Isend env s buf count dtype 0 tag comm) s p := by
  refine bystander_of (Isend_blind env s ..) ?_
  intro w x y hw hx hy'
  have hr' : Reach env { s with mem := w } L := Reach.step hr .memory
  cases hp : L.partner c .send tag with
  | none =>
    have key : ∀ {s₁ : Sys} {z : Sys × Int}, Reach env s₁ L → MPI_Isend env s₁ buf count dtype 0 tag comm = .ok z → z.1.mem = s₁.mem := by
      intro s₁ z h1 hz
      obtain ⟨M, lst, hi⟩ := h1.inv
      rcases isend_spec (env := env) hi hy.live hy.queue buf count dtype tag with
        ⟨hl, _⟩ | ⟨_, _, s', h', M', hok, hm, _⟩ | ⟨_, _, _, _, _, _, _, hp', _⟩
      · exact absurd hl (Nat.ne_of_lt hy.room)
      · rw [hz] at hok; cases hok; exact hm
      · rw [hp] at hp'; cases hp'
    rw [key hr hx, key hr' hy']
    funext a
    split
    · rfl
    · exact hw a ‹_›
  | some j =>
    obtain ⟨o, he⟩ := partner_earliest hp
    obtain ⟨τs, τr, s1, s2, c1, c2, hl, ha⟩ := h j o he
    have key : ∀ {s₁ : Sys} {z : Sys × Int}, Reach env s₁ L → MPI_Isend env s₁ buf count dtype 0 tag comm = .ok z →
        z.1.mem = oneByOne (sz env.cfg) ((placed (sz env.cfg) τr o.count o.buf).zip (placed (sz env.cfg) τs count buf)) s₁.mem := by
      intro s₁ z h1 hz
      obtain ⟨e1, e2⟩ := C81_exact h1 hc (.isend (buf := buf) (count := count) (dtype := dtype) hy he) s1 s2 c1 c2 hl
      rw [hz, Res.ok_bind] at e1 e2
      by_cases hq : ∀ x ∈ (placed (sz env.cfg) τr o.count o.buf).zip (placed (sz env.cfg) τs count buf), Copyable (sz env.cfg) s₁.mem x.1 x.2
      · exact Res.ok.inj (e1 hq)
      · obtain ⟨e, he⟩ := e2 (by simpa only [Classical.not_forall, exists_prop] using hq)
        cases he
    rw [key hr hx, key hr' hy']
    exact oneByOne_beside ha hw

/-- C83: the same for a receive; it takes the elements of its own type from the send buffer. -/
theorem C83_bystander_recv (hr : Reach env s L) (hc : env.cfg.Ok) {comm : Int} {c : Nat} (hy : Ready L comm c) {buf count dtype src tag p : Int}
    (hs : src = 0 ∨ src = MPI_ANY_SOURCE)
    (h : ∀ j o, Earliest L .send c (fun t => accepts tag t) j o → ∃ τr, StandsFor env.cfg L dtype (.data τr) ∧ Committed env.cfg L dtype ∧
      Exchangeable (sz env.cfg) (env.cfg.typeChecking = true) o.buf count τr buf count τr ∧
      ∀ x ∈ (placed (sz env.cfg) τr count buf).zip (placed (sz env.cfg) τr count o.buf),
        Apart x.1.1 (sz env.cfg x.1.2) p 4 ∧ Apart x.2.1 (sz env.cfg x.1.2) p 4) :
    Bystander (fun s => MPI_Irecv env s buf count dtype src tag comm) s p := by
  refine bystander_of (Irecv_blind env s ..) ?_
  intro w x y hw hx hy'
  have hr' : Reach env { s with mem := w } L := Reach.step hr .memory
  cases hp : L.partner c .recv tag with
  | none =>
    have key : ∀ {s₁ : Sys} {z : Sys × Int}, Reach env s₁ L → MPI_Irecv env s₁ buf count dtype src tag comm = .ok z → z.1.mem = s₁.mem := by
      intro s₁ z h1 hz
      obtain ⟨M, lst, hi⟩ := h1.inv
      rcases irecv_spec (env := env) hi hy.live hy.queue hs buf count dtype tag with
        ⟨hl, _⟩ | ⟨_, _, s', h', M', hok, hm, _⟩ | ⟨_, _, _, _, _, _, _, hp', _⟩
      · exact absurd hl (Nat.ne_of_lt hy.room)
      · rw [hz] at hok; cases hok; exact hm
      · rw [hp] at hp'; cases hp'
    rw [key hr hx, key hr' hy']
    funext a
    split
    · rfl
    · exact hw a ‹_›
  | some j =>
    obtain ⟨o, he⟩ := partner_earliest hp
    obtain ⟨τr, s2, c2, hl, ha⟩ := h j o he
    have key : ∀ {s₁ : Sys} {z : Sys × Int}, Reach env s₁ L → MPI_Irecv env s₁ buf count dtype src tag comm = .ok z →
        z.1.mem = oneByOne (sz env.cfg) ((placed (sz env.cfg) τr count buf).zip (placed (sz env.cfg) τr count o.buf)) s₁.mem := by
      intro s₁ z h1 hz
      obtain ⟨e1, e2⟩ := C81_exact_waiting h1 hc (.irecv (buf := buf) (count := count) (dtype := dtype) hy hs he) s2 c2 hl
      rw [hz, Res.ok_bind] at e1 e2
      by_cases hq : ∀ x ∈ (placed (sz env.cfg) τr count buf).zip (placed (sz env.cfg) τr count o.buf), Copyable (sz env.cfg) s₁.mem x.1 x.2
      · exact Res.ok.inj (e1 hq)
      · obtain ⟨e, he⟩ := e2 (by simpa only [Classical.not_forall, exists_prop] using hq)
        cases he
    rw [key hr hx, key hr' hy']
    exact oneByOne_beside ha hw

/-- C83: MPI_Irsend reads its handle back: handles are `int`s. -/
theorem C83_handle (hr : Reach env s L) {comm : Int} {c : Nat} (hy : Ready L comm c) {buf count dtype tag : Int} {x : Sys × Int}
    (h : MPI_Isend env s buf count dtype 0 tag comm = .ok x) : s32 x.2 = x.2 := by
  obtain ⟨s', n⟩ := x
  have hr' : Reach env s' _ := Reach.step hr (.isend hy.live hy.queue h)
  obtain ⟨M, lst, hi⟩ := hr'.inv
  have hm : n ∈ (L.post .send c tag buf count dtype n).objs.map Prod.fst := by
    rw [post_objs]; exact List.mem_cons_self ..
  rcases hi.hst with ⟨_, h0⟩ | ⟨fl, hf⟩
  · rw [h0] at hm; cases hm
  · obtain ⟨l, hv, _, _, rfl⟩ := (hf.live _).1 hm
    have h1 := hv.1
    have h2 := hv.2
    have h3 := hf.nb2
    unfold encLoc s32
    omega

end

/-- C83: a Fortran call that loads and stores in turn, working in place, does what the functions on values say: it ends in the same way, the state is the same,
and the variables get those values. -/
theorem C83_in_place {c : FEnv} (hj : IntJunk c.env) {m₀ : Mem} {s : Sys} (hr : FRun c (Sys.start m₀) s) {fc : FCall} (hd : fc.worksInPlace = true)
    {r : Res (Sys × List Spec.Fort.Out)} (hm : fc.meaning c s = some r) {outs : List Spec.Fort.Out} (ho : fc.own c s.mem = some outs) (hv : Variables s.mem outs)
    (hc : fc.Clear c s) : Performs c.bo (fc.inPlace c s) r := by
  have hf := Place.frun_flags hj hr
  cases fc with
  | test => exact Place.test_in hm ho hv hf
  | wait => exact Place.wait_in hm ho hv hf
  | waitany => exact Place.waitany_in hm ho hv hf
  | testany => exact Place.testany_in hm ho hv hf
  | testall => exact Place.testall_in hm ho hv hf
  | waitall => exact Place.waitall_in hm ho hv hf
  | testsome => exact Place.testsome_in hm ho hv hf
  | waitsome => exact Place.waitsome_in hm ho hv hf
  | requestFree => exact Place.requestFree_in hm ho hv
  | iprobe => exact Place.iprobe_in hm ho hv
  | probe => exact Place.probe_in hm ho hv
  | recv => exact Place.recv_in hm ho hv hf hj hc
  | sendrecv => exact Place.sendrecv_in hm ho hv hf hj hc
  | isend => exact Place.isend_in hm ho hv hc
  | irsend => exact Place.irsend_in hm ho hv hc
  | irecv => exact Place.irecv_in hm ho hv hc
  | pack => exact Place.pack_in hm ho hv hc
  | unpack => exact Place.unpack_in hm ho hv hc
  | typeStruct => exact Place.struct_in hm ho hv hc
  | typeHindexed => exact Place.hindexed_in hm ho hv hc
  | typeIndexed => exact Place.indexed_in hm ho hv hc
  | typeCreateIndexedBlock => exact Place.indexedBlock_in hm ho hv hc
  | groupTranslateRanks => exact Place.translate_in hm ho hv hc
  | cartGet => exact Place.cartGet_in hm ho hv
  | _ => cases hd

/-- C83: reading the variables at the start and storing the results at the end is the same thing. -/
theorem C83_same {c : FEnv} (hj : IntJunk c.env) {m₀ : Mem} {s : Sys} (hr : FRun c (Sys.start m₀) s) {fc : FCall} (h : fc.Tidy c s) :
    fc.inPlace c s = fc.exec c s := by
  by_cases hd : fc.worksInPlace = true
  · obtain ⟨r, outs, hm, ho, hv, hc, hv'⟩ := h.args hd
    exact Place.performs_unique (C83_in_place hj hr hd hm ho hv hc) (C50_performs_partial h.supported hm hv')
  · cases fc <;> first | exact absurd rfl hd | rfl

/-- C83: whole programs. -/
theorem C83_program {c : FEnv} (hj : IntJunk c.env) {p : FProg} {m : Mem} {n : Nat} (h : p.Tidy c n [] (Sys.start m)) :
    p.runInPlace c n [] (Sys.start m) = p.run c n [] (Sys.start m) := by
  have key : ∀ n seen s, FRun c (Sys.start m) s → p.Tidy c n seen s → p.runInPlace c n seen s = p.run c n seen s := by
    intro n
    induction n with
    | zero => intros; rfl
    | succ n ih =>
      intro seen s hr ht
      rw [FProg.runInPlace, FProg.run]
      cases hp : p seen with
      | none => rfl
      | some st =>
        obtain ⟨h1, h2⟩ := ht st hp
        have e : st.inPlace c s = st.exec c s := by
          cases st with
          | call fc => exact C83_same hj hr (h1 fc rfl)
          | _ => rfl
        rw [e] at h2
        dsimp only
        rw [e]
        cases hx : st.exec c s with
        | ok s' => exact ih _ _ (Place.frun_snoc hr (fun fc hfc => (h1 fc hfc).supported) hx) (h2 s' hx)
        | _ => rfl
  exact key n [] _ (.refl _) h

/-- C83: in particular C64 holds for the program as the library executes it. -/
theorem C83_reference {c : FEnv} (hj : IntJunk c.env) {p : FProg} {m : Mem} {n : Nat} (hn : n ≤ 1073741823)
    (h : p.Conforms (Mach.machine c.env) c n [] (.start m)) (ht : p.Tidy c n [] (Sys.start m)) :
    p.May (Mach.machine c.env) c n [] (.start m) (p.runInPlace c n [] (Sys.start m)) := by
  rw [C83_program hj ht]
  exact C64_reference_partial hn h

/-- C83: and for the machine of the standard. -/
theorem C83_standard {c : FEnv} (hcfg : c.env.cfg.Ok) (hz : ZeroGarbage c.env) {p : FProg} {m : Mem} {n : Nat} (hn : n ≤ 1073741823)
    (h : p.Conforms (Ideal.machine c.env) c n [] (.start m)) (hj : IntJunk c.env) (ht : p.Tidy c n [] (Sys.start m)) :
    p.May (Ideal.machine c.env) c n [] (.start m) (p.runInPlace c n [] (Sys.start m)) := by
  rw [C83_program hj ht]
  exact C64_standard_partial hcfg hz hn h

/-! ## A program -/

namespace FDemo

/-- The arguments of a completion call other than a blocking receive, checked. -/
def tidyOk (c : FEnv) (s : Sys) (fc : FCall) : Bool :=
  match fc.meaning c s, fc.own c s.mem with
  | some r, some outs => variablesOk s.mem outs && (match r with
    | .ok (_, outs') => variablesOk s.mem outs'
    | _ => true)
  | _, _ => false

theorem tidy_of {c : FEnv} {s : Sys} {fc : FCall} (hs : fc.Supported c s.mem) (hc : fc.Clear c s) (h : tidyOk c s fc = true) : fc.Tidy c s := by
  refine ⟨hs, fun _ => ?_⟩
  unfold tidyOk at h
  split at h
  · next r outs h1 h2 =>
    rw [Bool.and_eq_true] at h
    refine ⟨r, outs, h1, h2, .of_check h.1, hc, fun s' outs' e => ?_⟩
    rw [e] at h
    exact .of_check h.2
  · cases h

theorem tidy_step {c : FEnv} {p : FProg} {n : Nat} {seen : List Mem} {s : Sys} (st : FStep) (hp : p seen = some st)
    (ht : ∀ fc, st = .call fc → fc.Tidy c s) (hn : p.Tidy c n (((st.inPlace c s).getD s).mem :: seen) ((st.inPlace c s).getD s)) :
    p.Tidy c (n + 1) seen s := by
  intro st' h
  rw [hp] at h
  cases h
  refine ⟨ht, fun s' hs => ?_⟩
  rw [hs] at hn
  exact hn

def P1 : Sys := ((FStep.init args).inPlace cl (Sys.start vars)).getD (Sys.start vars)
def P2 : Sys := (irecv'.inPlace cl P1).getD P1
def P3 : Sys := (isend'.inPlace cl P2).getD P2
def P4 : Sys := (wait'.inPlace cl P3).getD P3

def L1 : Ledger := { Ledger.start.addComm MPI_COMM_WORLD with inited := true }

theorem getD_ok {r : Res Sys} {d : Sys} (h : r.returned = true) : r = .ok (r.getD d) := by
  cases r with
  | ok => rfl
  | _ => cases h

theorem init_state {env : Env} {s s₁ s₂ : Sys} {L L' : Ledger} (hr : Reach env s L) (ht : Tidy env L) (hm : Room L) {a : FortArgs}
    (ha : ∀ n ∈ ["MPI_INTEGER", "MPI_LOGICAL", "MPI_REAL", "MPI_DOUBLE_PRECISION", "MPI_COMPLEX"], -45 ≤ a.const n ∧ a.const n < 0)
    (h1 : MPI_Init s = .ok s₁) (h2 : mpi_init_fort_checks env a s₁ = .ok s₂) (r1 : Reach env s₁ L') : s₂ = s₁ := by
  have h := init_sat hr ht hm
  rw [h1] at h
  obtain ⟨_, a1, a2⟩ := h
  have h := fortChecks_sat r1 (Tidy.agree (hr.steps a1) r1 a2) a ha
  rw [h2] at h
  exact h

theorem init_ok : (FStep.init args).exec cl (Sys.start vars) = .ok P1 := getD_ok (by decide +kernel)

theorem P1_reach : Reach env0 P1 L1 := by
  obtain ⟨s1, h1, h2⟩ := Res.bind_eq_ok.1 (show (MPI_Init (Sys.start vars) >>= fun s => mpi_init_fort_checks env0 args s) = .ok P1 from init_ok)
  have hs : Reach env0 (Sys.start vars) .start := .start
  have r1 : Reach env0 s1 L1 := Reach.step hs (.init (by decide) (by decide) h1)
  cases init_state hs Tidy.start (by decide) (by decide) h1 h2 r1
  exact r1

theorem ready1 : Ready L1 1 0 := ⟨by decide, by decide, by decide⟩

theorem irecv'_clear : irecv'.Clear cl P1 := by
  intro n t d g k hn ht hd hg hk
  cases (show intAt .little P1.mem 1000 = some 3 by decide +kernel).symm.trans hn
  cases (show intAt .little P1.mem 1004 = some (-1) by decide +kernel).symm.trans ht
  cases (show intAt .little P1.mem 1020 = some (-1) by decide +kernel).symm.trans hd
  cases (show intAt .little P1.mem 1012 = some 5 by decide +kernel).symm.trans hg
  cases (show intAt .little P1.mem 1016 = some 1 by decide +kernel).symm.trans hk
  refine C83_bystander_recv (env := env0) P1_reach cfg_default_ok ready1 (Or.inr rfl) ?_
  intro j o he
  have := he.1
  cases j <;> cases this

theorem irecv'_tidy : irecv'.Tidy cl P1 := tidy_of trivial irecv'_clear (by decide +kernel)

theorem run1 : FRun cl (Sys.start vars) P1 := .step (.init args) (fun _ h => nomatch h) init_ok (.refl _)

theorem P2_reach : ∃ h, Reach env0 P2 (L1.post .recv 0 5 2200 3 (-1) h) := by
  obtain ⟨r, outs, hm, ho, hv, hc, _⟩ := irecv'_tidy.args rfl
  have hp := C83_in_place (c := cl) (fun _ => rfl) run1 rfl hm ho hv hc
  have hr : (irecv'.inPlace cl P1).returned = true := by decide +kernel
  have hm' := hm
  simp only [irecv', FCall.meaning, Option.bind_eq_bind, Option.bind_eq_some_iff, Option.pure_def, Option.some.injEq] at hm'
  obtain ⟨n, g1, t, g2, d, g3, g, g4, k, g5, hr'⟩ := hm'
  cases (show intAt .little P1.mem 1000 = some 3 by decide +kernel).symm.trans g1
  cases (show intAt .little P1.mem 1004 = some (-1) by decide +kernel).symm.trans g2
  cases (show intAt .little P1.mem 1020 = some (-1) by decide +kernel).symm.trans g3
  cases (show intAt .little P1.mem 1012 = some 5 by decide +kernel).symm.trans g4
  cases (show intAt .little P1.mem 1016 = some 1 by decide +kernel).symm.trans g5
  subst hr'
  cases hx : MPI_Irecv cl.env P1 2200 3 (-1) (-1) 5 1 with
  | ok x =>
    rw [hx] at hp
    obtain ⟨m', e, _⟩ := hp
    refine ⟨x.2, ?_⟩
    have : P2 = { x.1 with mem := m' } := by unfold P2; rw [e]; rfl
    rw [this]
    exact Reach.step (Reach.step P1_reach (.irecv ready1.live ready1.queue (by decide) hx)) .memory
  | _ =>
    exfalso
    rw [hx] at hp
    change Res.fate _ = _ at hp
    revert hp hr
    cases irecv'.inPlace cl P1 <;> intro a b <;> first | (cases a; done) | (cases b; done)

theorem isend'_clear : isend'.Clear cl P2 := by
  obtain ⟨h, hr⟩ := P2_reach
  intro n t d g k hn ht hd hg hk
  cases (show intAt .little P2.mem 1000 = some 3 by decide +kernel).symm.trans hn
  cases (show intAt .little P2.mem 1004 = some (-1) by decide +kernel).symm.trans ht
  cases (show intAt .little P2.mem 1008 = some 0 by decide +kernel).symm.trans hd
  cases (show intAt .little P2.mem 1012 = some 5 by decide +kernel).symm.trans hg
  cases (show intAt .little P2.mem 1016 = some 1 by decide +kernel).symm.trans hk
  refine C83_bystander_send (env := env0) (c := 0) hr cfg_default_ok ⟨List.mem_cons_of_mem _ ready1.live, (by decide : (2 : Nat) < 262143), (by decide : (1 : Nat) < 2147483647)⟩ ?_
  intro j o he
  have h1 := he.1
  match j, h1 with
  | 0, h1 =>
    cases h1
    have hi : ∀ L, StandsFor {} L (-1) (.data (Spec.plain [(0, 0)])) := fun L => char_represents L
    have hc : ∀ L, Committed {} L (-1) := fun L => ⟨static1 1 0, rfl, by decide⟩
    refine ⟨_, _, hi _, hi _, hc _, hc _, ?_, ?_⟩
    · show Exchangeable _ _ 2000 3 _ 2200 3 _
      constructor <;> decide +kernel
    · show ∀ x ∈ (Spec.placed (sz {}) (Spec.plain [(0, 0)]) 3 2200).zip (Spec.placed (sz {}) (Spec.plain [(0, 0)]) 3 2000),
        Spec.Apart x.1.1 (sz {} x.1.2) 3108 4 ∧ Spec.Apart x.2.1 (sz {} x.1.2) 3108 4
      decide +kernel
  | j + 1, h1 => cases h1

theorem exchange_tidy : exchange.Tidy cl 5 [] (Sys.start vars) := by
  refine tidy_step (.init args) rfl (fun _ h => nomatch h) (tidy_step (s := P1) (.call irecv') rfl (fun fc h => ?_)
    (tidy_step (s := P2) (.call isend') rfl (fun fc h => ?_) (tidy_step (s := P3) (.call wait') rfl (fun fc h => ?_)
      (tidy_step (s := P4) (.call waitSend') rfl (fun fc h => ?_) trivial))))
  · cases h; exact irecv'_tidy
  · cases h; exact tidy_of trivial isend'_clear (by decide +kernel)
  · cases h; exact tidy_of trivial trivial (by decide +kernel)
  · cases h; exact tidy_of trivial trivial (by decide +kernel)

/-- The exchange of two messages, executed in place, is a run of the reference machine. -/
example : exchange.May (Mach.machine env0) cl 5 [] (.start vars) (exchange.runInPlace cl 5 [] (Sys.start vars)) :=
  C83_reference (c := cl) (fun _ => rfl) (by omega) exchange_conforms exchange_tidy

example : exchange.May (Ideal.machine env0) cl 5 [] (.start vars) (exchange.runInPlace cl 5 [] (Sys.start vars)) :=
  C83_standard (c := cl) cfg_default_ok (fun _ => ⟨rfl, rfl⟩) (by omega) exchange_ideal (fun _ => rfl) exchange_tidy

example : exchange.runInPlace cl 5 [] (Sys.start vars) = exchange.run cl 5 [] (Sys.start vars) := C83_program (c := cl) (fun _ => rfl) exchange_tidy

/-- MPI_RECV of a message sent before. -/
def P5 : Sys := (isend'.exec cl P1).getD P1
def recv' : FCall := .recv 2200 1000 1004 1020 1012 1016 3200 3104

theorem recv'_clear : recv'.Clear cl P5 := by
  intro n t d g k x hn ht hd hg hk hx
  cases (show intAt .little P5.mem 1000 = some 3 by decide +kernel).symm.trans hn
  cases (show intAt .little P5.mem 1004 = some (-1) by decide +kernel).symm.trans ht
  cases (show intAt .little P5.mem 1020 = some (-1) by decide +kernel).symm.trans hd
  cases (show intAt .little P5.mem 1012 = some 5 by decide +kernel).symm.trans hg
  cases (show intAt .little P5.mem 1016 = some 1 by decide +kernel).symm.trans hk
  have h : statusArg cl ((MPI_Irecv cl.env P5 2200 3 (-1) (-1) 5 1).getD (P5, 0)).1.mem 3200 = statusArg cl P5.mem 3200 := by decide +kernel
  rw [hx] at h
  exact h

example : recv'.Tidy cl P5 ∧ recv'.worksInPlace = true ∧ (recv'.inPlace cl P5).returned = true ∧
    intAt .little ((recv'.inPlace cl P5).getD P5).mem 3204 = some 5 ∧ intAt .little ((recv'.inPlace cl P5).getD P5).mem 3212 = some 3 :=
  ⟨tidy_of trivial recv'_clear (by decide +kernel), rfl, by decide +kernel, by decide +kernel, by decide +kernel⟩

/-- MPI_PACK of three characters, and MPI_UNPACK of them. -/
def pack' : FCall := .pack 2000 1000 1004 2200 1012 3100 1016 3104
def unpack' : FCall := .unpack 2000 1012 3100 2200 1000 1004 1016 3104

theorem ne_ub_of {α : Type} {r : Res α} (h : r.returned = true) (e : UB) : r ≠ .ub e := by
  rintro rfl; cases h

theorem pack'_clear : pack'.Clear cl P1 := by
  intro n t z p k hn ht hz hp hk
  cases (show intAt .little P1.mem 1000 = some 3 by decide +kernel).symm.trans hn
  cases (show intAt .little P1.mem 1004 = some (-1) by decide +kernel).symm.trans ht
  cases (show intAt .little P1.mem 1012 = some 5 by decide +kernel).symm.trans hz
  cases (show intAt .little P1.mem 3100 = some 0 by decide +kernel).symm.trans hp
  cases (show intAt .little P1.mem 1016 = some 1 by decide +kernel).symm.trans hk
  refine ne_ub_of ?_
  decide +kernel

theorem unpack'_clear : unpack'.Clear cl P1 := by
  intro z p n t k hz hp hn ht hk
  cases (show intAt .little P1.mem 1000 = some 3 by decide +kernel).symm.trans hn
  cases (show intAt .little P1.mem 1004 = some (-1) by decide +kernel).symm.trans ht
  cases (show intAt .little P1.mem 1012 = some 5 by decide +kernel).symm.trans hz
  cases (show intAt .little P1.mem 3100 = some 0 by decide +kernel).symm.trans hp
  cases (show intAt .little P1.mem 1016 = some 1 by decide +kernel).symm.trans hk
  refine ne_ub_of ?_
  decide +kernel

example : pack'.Tidy cl P1 ∧ pack'.worksInPlace = true ∧ (pack'.inPlace cl P1).returned = true ∧
    intAt .little ((pack'.inPlace cl P1).getD P1).mem 3100 = some 3 ∧ ((pack'.inPlace cl P1).getD P1).mem 2202 = some 3 :=
  ⟨tidy_of trivial pack'_clear (by decide +kernel), rfl, by decide +kernel, by decide +kernel, by decide +kernel⟩

example : unpack'.Tidy cl P1 ∧ unpack'.worksInPlace = true ∧ (unpack'.inPlace cl P1).returned = true ∧
    intAt .little ((unpack'.inPlace cl P1).getD P1).mem 3100 = some 3 ∧ ((unpack'.inPlace cl P1).getD P1).mem 2202 = some 3 :=
  ⟨tidy_of trivial unpack'_clear (by decide +kernel), rfl, by decide +kernel, by decide +kernel, by decide +kernel⟩

/-- A position variable inside the buffer (pack.c:45-57): the bytes packed go over the position, which soon exceeds the size of the buffer. -/
theorem C83_needs_clear : let pack : FCall := .pack 2000 1000 1004 3100 1012 3100 1016 3104
    (pack.exec cl P1).returned = true ∧ (pack.inPlace cl P1).fate = some (.exit 1) := by
  decide +kernel

/-- MPI_TYPE_CREATE_INDEXED_BLOCK of characters at 5, 1 and -1. -/
def block' : FCall := .typeCreateIndexedBlock 1000 1016 1012 1004 3100 3104
/-- The same with the new datatype in place of the second displacement. -/
def blockOver : FCall := .typeCreateIndexedBlock 1000 1016 1012 1004 1016 3104

/-- Where the elements of the datatype at `q` are -/
def disps (s : Sys) (q : Nat) : Option (List Int) := (s.theap q).map fun t => (t.pairs.take t.count.toNat).map (·.disp)

example : block'.Tidy cl P1 ∧ block'.worksInPlace = true ∧ (block'.inPlace cl P1).returned = true ∧
    intAt .little ((block'.inPlace cl P1).getD P1).mem 3100 = some 2 ∧ disps ((block'.inPlace cl P1).getD P1) 0 = some [5, 1, -1] := by
  refine ⟨tidy_of trivial (fun n hn => ?_) (by decide +kernel), rfl, by decide +kernel, by decide +kernel, by decide +kernel⟩
  cases (show intAt .little P1.mem 1000 = some 3 by decide +kernel).symm.trans hn
  decide +kernel

/-- The constructors store the handle, 2, first, and take it for the displacement. -/
theorem C83_needs_arrays : disps ((blockOver.exec cl P1).getD P1) 0 = some [5, 1, -1] ∧ disps ((blockOver.inPlace cl P1).getD P1) 0 = some [5, 2, -1] := by
  decide +kernel

/-- MPI_TYPE_STRUCT, with the new datatype in place of the component type, which has been read by then. -/
def struct' : FCall := .typeStruct 1016 1000 3120 1004 1004 3104

example : struct'.Tidy cl P1 ∧ struct'.worksInPlace = true ∧ (struct'.inPlace cl P1).returned = true ∧
    intAt .little ((struct'.inPlace cl P1).getD P1).mem 1004 = some 2 ∧ disps ((struct'.inPlace cl P1).getD P1) 0 = some [0, 1, 2] := by
  refine ⟨tidy_of trivial (fun n hn => ?_) (by decide +kernel), rfl, by decide +kernel, by decide +kernel, by decide +kernel⟩
  cases (show intAt .little P1.mem 1016 = some 1 by decide +kernel).symm.trans hn
  exact ⟨by decide +kernel, by decide +kernel⟩

/-- MPI_GROUP_TRANSLATE_RANKS of three ranks, to another array and in the same one (MPI_GROUP_ONE is 1). -/
def translate' : FCall := .groupTranslateRanks 1016 1000 3200 1016 3300 3104
def translateSame : FCall := .groupTranslateRanks 1016 1000 3200 1016 3200 3104

theorem translate_clear {rs qs : Int} (h : rs = qs ∨ rs + 12 ≤ qs) : (FCall.groupTranslateRanks 1016 1000 rs 1016 qs 3104).Clear cl P1 := by
  intro n hn i j hij hj
  cases (show intAt .little P1.mem 1000 = some 3 by decide +kernel).symm.trans hn
  omega

example : translate'.Tidy cl P1 ∧ translate'.worksInPlace = true ∧ (translate'.inPlace cl P1).returned = true :=
  ⟨tidy_of trivial (translate_clear (.inr (by decide))) (by decide +kernel), rfl, by decide +kernel⟩

example : translateSame.Tidy cl P1 ∧ translateSame.worksInPlace = true ∧ (translateSame.inPlace cl P1).returned = true :=
  ⟨tidy_of trivial (translate_clear (.inl rfl)) (by decide +kernel), rfl, by decide +kernel⟩

/-- MPI_CART_GET -/
def cartGet' : FCall := .cartGet 1016 1000 3200 3300 3400 3104

example : cartGet'.Tidy cl P1 ∧ cartGet'.worksInPlace = true ∧ intsAt .little ((cartGet'.inPlace cl P1).getD P1).mem 3200 3 = some [1, 1, 1] :=
  ⟨tidy_of trivial trivial (by decide +kernel), rfl, by decide +kernel⟩

/-- Overlapping variables are another matter (req.c:19-52): MPI_TEST with one variable for request and flag stores the flag, 1, over the request,
reads it back as the request and frees the handle 1, that is MPI_COMM_WORLD; the next request gets its place, and the next send with
MPI_COMM_WORLD takes a request for a communicator. -/
theorem C83_needs_apart : let test : FCall := .test 3108 3108 5000 3104
    (test.exec cl P4 >>= isend'.exec cl).returned = true ∧ (test.inPlace cl P4).returned = true ∧
      (test.inPlace cl P4 >>= isend'.exec cl).fate = some (.ub .kind) := by
  decide +kernel

end FDemo

end MpiSerial
