import Verif.Proofs.OrderRun

/-!
# C74: completion in any order

MPI_Waitall (req.c:193-211) may be done as one MPI_Wait (req.c:64-77) for each request, in any order, and MPI_Sendrecv
(send.c:233-250) as MPI_Irecv, MPI_Isend and an MPI_Wait for each, in either order.  A program that treats handles as opaque
does not notice.
-/

set_option linter.unusedSimpArgs false
set_option autoImplicit false

namespace MpiSerial

open Res (Rel)

namespace Order

theorem After.alike {c : Call} {l : Pairs} {x y y' : Mach × Out} (ha : After c l x y) (hl : Alike y.1 y'.1) (ho : y.2 = y'.2) : After c l x y' := by
  obtain ⟨h1, h2, h3, h4, l', h5, h6, h7⟩ := ha
  obtain ⟨Y, o⟩ := y
  obtain ⟨Y', o'⟩ := y'
  dsimp only at hl ho h1 h2 h3 h4 h5 h6 h7
  subst ho
  refine ⟨h1, h2, h3, h4, l', ?_, h6, h7⟩
  have e : Y' = { Y with pool := Y'.pool } := by
    obtain ⟨L, P, m, b⟩ := Y
    obtain ⟨L', P', m', b'⟩ := Y'
    obtain ⟨e1, e2, e3, _⟩ := hl
    dsimp only at e1 e2 e3
    subst e1 e2 e3
    rfl
  dsimp only
  rw [e]
  refine h5.withPool ?_
  have hserve := h5.snd
  cases hi : Y.L.inited with
  | false => rw [← hl.before hi]; exact hserve
  | true =>
    have hu : Y.uses 1 := by
      obtain ⟨k, hk⟩ := h5.world.1 (by rw [h5.inited]; exact hi)
      refine ⟨.comm k, ?_⟩
      rw [h5.objs']
      exact List.mem_map.2 ⟨_, hk, rfl⟩
    have := hserve.perm hl.free fun h => absurd hu h
    have e : Y'.pool = { Y.pool with free := Y'.pool.free } := by
      have := hl.blocks
      cases hP : Y'.pool
      rw [hP] at this
      dsimp only at this ⊢
      rw [this]
    rw [e]
    exact this

theorem roomy_withHandles {c : Call} (f : Int → Int) (h : c.Roomy) : (c.withHandles f).Roomy := by
  cases c with
  | waitall n rs sts =>
    cases sts with
    | none => show (rs.map f).length ≤ 1; rw [List.length_map]; exact h
    | some l => show (rs.map f).length ≤ l.length; rw [List.length_map]; exact h
  | sendrecv => exact h
  | _ => exact trivial

theorem inSession_withHandles {c : Call} {f : Int → Int} (hf : ∀ x, x ≠ 1 → f x ≠ 1) {b : Bool} (h : c.inSession b) : (c.withHandles f).inSession b := by
  cases c with
  | commFree x => exact ⟨h.1, hf x h.2⟩
  | _ => exact h

theorem firm {env : Env} {s : Sys} {N : Mach} {l : Pairs} {M : Mach} (hs : Sim env s N) (hF : Full l M N) : Firm N :=
  ⟨hs.reach.nodup, fun h i hm => by
    obtain ⟨A, lst, hi⟩ := hs.reach.inv
    obtain ⟨o, _, ho, _⟩ := hi.req _ _ hm
    exact (List.getElem?_eq_some_iff.1 ho).1, _, _, hF.snd⟩

/-- The machine without, the library with the layer. -/
theorem steps_run {env : Env} {A : Strategy} (hA : A.Sound) {p : Prog} {order : List Obs → Nat → List Nat}
    (ho : ∀ seen n, (order seen n).Perm (List.range n)) (hr : ∀ seen c, p seen = some c → c.Roomy) :
    ∀ (n k j : Nat) (seen : List Obs) (ν ν' : Names) (s : Sys) (M N : Mach) (l : Pairs) (T : List (Int × Int × Int)), Sim env s N → Full l M N →
    Told l T ν ν' → NamedKnows ν' seen N.L → N.L.ncomms ≤ k → N.L.unmatched ≤ 2 * k → k + n ≤ 1073741823 →
    p.Opaque env A n j seen ν M →
    ending (p.runSteps (.lib env) Sys.mem order n seen ν' s) = ending (p.runNamed env A n j seen ν M) := by
  intro n
  induction n with
  | zero => intros; rfl
  | succ n ih =>
    intro k j seen ν ν' s M N l T hs hF ht hkn h1 h2 h3 hop
    unfold Prog.runSteps Prog.runNamed
    cases hcall : p seen with
    | none => rfl
    | some c =>
      obtain ⟨hk, hses, hwf, hnext⟩ := hop c hcall
      have hsame : M.L.inited = true → ∀ x ∈ c.handles, MpiSerial.Same l (ν.number x) (ν'.number x) := fun hi => ht.same hF hi hk
      have hF' := hF.with hA lifo_sound j
      have hrel := hF'.answer (env := env) (f := ν.number) (g := ν'.number) c hsame hses hwf ht.number_one
      have hlifo : N.with .lifo j = N := rfl
      rw [hlifo] at hF' hrel
      have hwf' := hF.wf c hsame hses hwf
      have hses' : (c.withHandles ν'.number).inSession N.L.inited := by
        rw [← hF.inited]
        exact inSession_withHandles (fun x hx => ht.number_one' x hx) hses
      have hsame' := steps_same (firm hs hF) hses' hwf' (roomy_withHandles ν'.number (hr seen c hcall)) (ho seen)
      have hsim := steps_sim hs ⟨by omega, by omega, by omega⟩ _ hwf' (ho seen)
      dsimp only
      cases hx : (M.with A j).answer env (c.withHandles ν.number) with
      | ok x =>
        obtain ⟨y, hy, ha⟩ := hrel.ok_left hx
        rw [hy] at hsame'
        cases hz : (Engine.mach env).inSteps (order seen) N (c.withHandles ν'.number) with
        | ok y' =>
          rw [hz] at hsame' hsim
          obtain ⟨s1, s2⟩ : Alike y.1 y'.1 ∧ y.2 = y'.2 := hsame'
          have ha' := After.alike ha s1 s2
          obtain ⟨l', T', g1, g2, g3⟩ := ht.after hk ha'
          obtain ⟨z, hl, hA'⟩ := Res.Rel.ok_right hsim rfl
          rw [hl]
          obtain ⟨s', o⟩ := z
          obtain ⟨N', o'⟩ := y'
          dsimp only
          have hvals : o.vals = o'.vals := hA'.vals
          have hnames : ∀ {y h : Int}, (y, h) ∈ ν'.tab → 2 ≤ y ∧ y < ν'.next ∧ 1 < h ∧ N.uses h := fun {y h} hm => by
            rw [ht.tab'] at hm
            obtain ⟨⟨a, b, b'⟩, he, e⟩ := List.mem_map.1 hm
            simp only [Prod.mk.injEq] at e
            obtain ⟨rfl, rfl⟩ := e
            have hr := ht.range _ he
            obtain ⟨ob, hlv⟩ := ht.live _ he
            exact ⟨hr.1, ht.next ▸ hr.2.1, hr.2.2.2, ob, by rw [hF.objs']; exact List.mem_map.2 ⟨_, hlv, rfl⟩⟩
          have hnumber : ∀ {y h : Int}, (y, h) ∈ ν'.tab → ν'.number y = h := fun {y h} hm => by
            rw [ht.tab'] at hm
            obtain ⟨⟨a, b, b'⟩, he, e⟩ := List.mem_map.1 hm
            simp only [Prod.mk.injEq] at e
            obtain ⟨rfl, rfl⟩ := e
            exact (ht.number he).2
          have hdone : knownReceives seen c = true → o.done = o'.done := fun hkr => by
            refine hA'.done fun r hr q op hm hq => ?_
            rw [withHandles_requests] at hr
            obtain ⟨y, hyr, rfl⟩ := List.mem_map.1 hr
            unfold knownReceives at hkr
            rw [List.all_eq_true] at hkr
            have h8 := hkr y hyr
            rcases ht.known' hk y (requests_handles c y hyr) with hle | ⟨h, hmem⟩
            · rw [Told.number_const hle] at hm
              obtain ⟨B, lst, hi⟩ := hs.reach.inv
              have hpos := hi.hst.pos (mem_keys hm)
              have hx1 : y = 1 := by omega
              subst hx1
              cases hin : M.L.inited with
              | false =>
                have := hF.world.2 hin
                have h0 := hF.objs'
                rw [this] at h0
                rw [h0] at hm
                cases hm
              | true =>
                obtain ⟨cc, hcc⟩ := hF.world.1 hin
                have : ((1 : Int), Obj.comm cc) ∈ N.L.objs := by rw [hF.objs']; exact List.mem_map.2 ⟨_, hcc, rfl⟩
                cases nodup_fst_unique hs.reach.nodup hm this
            · rw [hnumber hmem] at hm
              have h9 := hkn y h hmem q op hm hq
              have e2 := (hnames hmem).1
              simp only [Bool.or_eq_true, beq_iff_eq] at h8
              rcases h8 with h8 | h8
              · rw [h8] at e2; exact absurd e2 (by decide)
              · rw [h9] at h8; exact Option.some.inj h8
          have hob : ν'.observe seen c o s'.mem = ν'.observe seen c o' N'.mem := by
            unfold Names.observe
            rw [hvals, hA'.sim.mem]
            congr 1
            split
            · next hkr => exact hdone hkr
            · rfl
          have hobs := Told.observe ha' g1 g2 g3 seen
          dsimp only at hobs
          rw [hob, hvals, ← hobs]
          have hnew : New N c o' := fun hmk => by
            obtain ⟨a, a', e1, e2, hcase⟩ := ha'.made (by rw [withHandles_makes]; exact hmk)
            refine ⟨a', e2, hcase.imp And.right fun ⟨_, q2, _, q4⟩ => ⟨q2, ?_⟩⟩
            rintro ⟨ob, hob⟩
            rw [hF.objs'] at hob
            obtain ⟨e, he, h'⟩ := List.mem_map.1 hob
            exact q4 e he (Prod.mk.inj h').1
          rw [withHandles_posts] at hA'
          refine ih (k + 1) (j + 1) _ _ _ s' x.1 N' l' T' hA'.sim g1 g2 ?_ (by have := hA'.room.1; dsimp only at this; omega)
            (by have := hA'.room.2; dsimp only at this; omega) (by omega) (hnext _ _ hx)
          have := hkn.next (mem := N'.mem) hs hnames hA' hnew
          rw [hobs]
          exact this
        | _ => rw [hz] at hsame'; exact absurd hsame' (by simp [hush, Rel])
      | _ =>
        rw [hx] at hrel
        have f1 := hrel.fate
        have f2 := hsim.fate
        have f3 : (hush (N.answer env (c.withHandles ν'.number))).fate = (hush ((Engine.mach env).inSteps (order seen) N (c.withHandles ν'.number))).fate :=
          hsame'.fate
        rw [hush_fate, hush_fate, ← f1, ← f2] at f3
        cases hy : (Engine.lib env).inSteps (order seen) s (c.withHandles ν'.number) <;> rw [hy] at f3 <;>
          first | exact Prod.ext rfl f3.symm | cases f3

end Order

/-- C74: the layer may complete requests in any order it likes, by an MPI_Wait for each.  The program sees what it would see
without the layer, and ends in the same way, up to the text of the message it is stopped with. -/
theorem C74_library {env : Env} {A : Strategy} (hA : A.Sound) {p : Prog} {m : Mem} {n : Nat} (hn : n ≤ 1073741823)
    (h : p.Opaque env A n 0 [] .start (.start m)) {order : List Obs → Nat → List Nat} (ho : ∀ seen n, (order seen n).Perm (List.range n))
    (hr : ∀ seen c, p seen = some c → c.Roomy) :
    ending (p.runSteps (.lib env) Sys.mem order n [] .start (Sys.start m)) = ending (p.runNamedLib env n [] .start (Sys.start m)) := by
  rw [C65_library hA hn h]
  exact Order.steps_run hA ho hr n 0 0 [] .start .start _ _ _ [] [] (.start env m) (.start m) .start (fun _ _ hm => (List.not_mem_nil hm).elim)
    (Nat.le_refl _) (Nat.le_refl _) (by omega) h

/-! ## A program the theorem applies to -/

/-- A receive, a send, MPI_Waitall on both, MPI_Sendrecv, another receive. -/
def twoAtOnce : Prog
  | [] => some .init
  | [_] => some (.irecv 200 3 (-1) 0 5 1)
  | [_, _] => some (.isend 100 3 (-1) 0 5 1)
  | [q, r, _] => some (.waitall 2 [r.vals.headD 0, q.vals.headD 0] (some [⟨0, 0, 0, 0⟩, ⟨0, 0, 0, 0⟩]))
  | [_, _, _, _] => some (.sendrecv 100 2 (-1) 0 6 300 2 (-1) 0 6 1 .null)
  | [_, _, _, _, _] => some (.irecv 400 1 (-1) MPI_PROC_NULL 7 1)
  | _ => none

namespace Stage
def e1 : Stage := s0.next .lifo 0 .init
def e2 : Stage := e1.next .lifo 1 (.irecv 200 3 (-1) 0 5 1)
def e3 : Stage := e2.next .lifo 2 (.isend 100 3 (-1) 0 5 1)
def e4 : Stage := e3.next .lifo 3 (.waitall 2 [2, 3] (some [⟨0, 0, 0, 0⟩, ⟨0, 0, 0, 0⟩]))
def e5 : Stage := e4.next .lifo 4 (.sendrecv 100 2 (-1) 0 6 300 2 (-1) 0 6 1 .null)
end Stage

theorem twoAtOnce_opaque : twoAtOnce.Opaque env0 .lifo 6 0 [] .start (.start mem0) := by
  have n2 : Stage.e3.ν.number 2 = 2 := by decide +kernel
  have n3 : Stage.e3.ν.number 3 = 3 := by decide +kernel
  refine Prog.opaque_step .init (.start mem0, ⟨[], []⟩) rfl known_nil rfl trivial ?_
  refine Prog.opaque_step (M := Stage.e1.M) (ν := Stage.e1.ν) _ (Stage.e1.M, ⟨[], []⟩) rfl (known_const (by decide) (known_const (by decide) known_nil))
    (by show Stage.e1.M.L.inited = true; decide +kernel) ⟨.simple (by decide) (by decide), .inl (.of_decide 0 (by decide +kernel))⟩ ?_
  refine Prog.opaque_step (M := Stage.e2.M) (ν := Stage.e2.ν) _ (Stage.e2.M, ⟨[], []⟩) rfl (known_const (by decide) (known_const (by decide) known_nil))
    (by show Stage.e2.M.L.inited = true; decide +kernel) ⟨.simple (by decide) (by decide), .inl (.of_decide 0 (by decide +kernel))⟩ ?_
  refine Prog.opaque_step (M := Stage.e3.M) (ν := Stage.e3.ν) (.waitall 2 [2, 3] (some [⟨0, 0, 0, 0⟩, ⟨0, 0, 0, 0⟩])) (Stage.e3.M, ⟨[], []⟩) ?_
    (known_name 2 (of_decide_eq_true (by decide +kernel)) (known_name 3 (of_decide_eq_true (by decide +kernel)) known_nil))
    (by show Stage.e3.M.L.inited = true; decide +kernel) ?_ ?_
  · show some (Call.waitall _ _ _) = _
    exact congrArg (fun h : List Int => some (Call.waitall 2 h (some [⟨0, 0, 0, 0⟩, ⟨0, 0, 0, 0⟩]))) (by decide +kernel)
  · show (2 : Int) = 2 ∧ WfReqs Stage.e3.M.L [Stage.e3.ν.number 2, Stage.e3.ν.number 3]
    rw [n2, n3]
    exact ⟨rfl, .inr ⟨⟨0, of_decide_eq_true (by decide +kernel)⟩, by decide⟩, .inr ⟨⟨1, of_decide_eq_true (by decide +kernel)⟩, by decide⟩, trivial⟩
  refine Prog.opaque_step (M := Stage.e4.M) (ν := Stage.e4.ν) _ (Stage.e4.M, ⟨[], []⟩) rfl
    (known_const (by decide) (known_const (by decide) (known_const (by decide) known_nil)))
    (by show Stage.e4.M.L.inited = true; decide +kernel) ⟨⟨.simple (by decide) (by decide), .inl (.of_decide 0 (by decide +kernel))⟩,
      ⟨.simple (by decide) (by decide), .inl (.of_decide 0 (by decide +kernel))⟩⟩ ?_
  refine Prog.opaque_step (M := Stage.e5.M) (ν := Stage.e5.ν) _ (Stage.e5.M, ⟨[], []⟩) rfl (known_const (by decide) (known_const (by decide) known_nil))
    (by show Stage.e5.M.L.inited = true; decide +kernel) ⟨.simple (by decide) (by decide), .inl (.of_decide 0 (by decide +kernel))⟩ ?_
  trivial

theorem twoAtOnce_roomy (seen : List Obs) (c : Call) (h : twoAtOnce seen = some c) : c.Roomy := by
  unfold twoAtOnce at h
  split at h <;> cases h <;> first | exact trivial | exact Nat.le_refl 2 | exact nofun

/-- The last request first. -/
def backwards : List Obs → Nat → List Nat := fun _ n => (List.range n).reverse

example : ending (twoAtOnce.runSteps (.lib env0) Sys.mem backwards 6 [] .start (Sys.start mem0)) =
    ending (twoAtOnce.runNamedLib env0 6 [] .start (Sys.start mem0)) :=
  C74_library lifo_sound (by decide) twoAtOnce_opaque (fun _ n => List.reverse_perm _) twoAtOnce_roomy

/-- What it sees: the new request has name 4, the receive took a message with tag 5. -/
example : (twoAtOnce.runSteps (.mach env0) Mach.mem backwards 6 [] .start (.start mem0)).2 = none ∧
    (twoAtOnce.runSteps (.mach env0) Mach.mem backwards 6 [] .start (.start mem0)).1.map (fun o => o.vals) =
      [[4], [], [0, 0, 0, 0, 0, 0], [3], [2], []] := by decide +kernel

/-- The numbers behind the names differ: with the layer the last request has number 2, without it number 3. -/
example : Stage.e4.M.pool.free.head? = some 3 ∧
    (((Engine.mach env0).inSteps (fun n => (List.range n).reverse) Stage.e3.M (.waitall 2 [2, 3] (some [⟨0, 0, 0, 0⟩, ⟨0, 0, 0, 0⟩]))).getD
      (Stage.e3.M, ⟨[], []⟩)).1.pool.free.head? = some 2 := by decide +kernel

end MpiSerial
