import Verif.Proofs.OpaqueNames
import Verif.Props.Machine

/-!
# C65: handles are opaque

Which numbers handles.c hands out (mpi_alloc_handle, mpi_free_handle, handles.c:178-225, 270-309) makes no difference to a program that treats handles
as opaque.  Numbers may be handed out in any order and reused at any time, as long as no number in use is handed out.
-/

set_option linter.unusedSimpArgs false
set_option autoImplicit false

namespace MpiSerial

open Res (Rel)

/-- C65: a program that treats handles as opaque sees the same whatever numbers are handed out, and ends in the same way.
That its calls are well formed does not depend on the numbers either. -/
theorem C65_strategy {env : Env} {A B : Strategy} (hA : A.Sound) (hB : B.Sound) {p : Prog} {m : Mem} {n : Nat}
    (h : p.Opaque env A n 0 [] .start (.start m)) :
    p.runNamed env A n 0 [] .start (.start m) = p.runNamed env B n 0 [] .start (.start m) ∧ p.Opaque env B n 0 [] .start (.start m) :=
  named_same hA hB p n 0 [] .start .start _ _ [] [] (.start m) .start h

/-- The numbers of the library: the one returned last comes first. -/
theorem lifo_sound : Strategy.lifo.Sound := fun _ _ _ h => h

/-- The program knows what the requests with a name are for. -/
def NamedKnows (ν : Names) (seen : List Obs) (L : Ledger) : Prop :=
  ∀ x h, (x, h) ∈ ν.tab → ∀ (i : Nat) o, (h, Obj.req i) ∈ L.objs → L.ops[i]? = some o → lastPost seen x = some o.kind

theorem withHandles_posts (f : Int → Int) (c : Call) : (c.withHandles f).posts = c.posts := by
  cases c <;> rfl

theorem posts_makes {c : Call} {k : Kind} (h : c.posts = some k) : c.makes = true := by
  cases c <;> first | rfl | cases h

theorem makes_place {c : Call} (h : c.makes = true) : c.place = (0, 1) := by
  cases c <;> first | rfl | cases h

/-- A run with names on the library and on the machine. -/
theorem named_sim {env : Env} {p : Prog} : ∀ (n k j : Nat) (seen : List Obs) (ν : Names) (s : Sys) (M : Mach) (l : Pairs) (T : List (Int × Int × Int)),
    Sim env s M → Full l M M → Told l T ν ν → NamedKnows ν seen M.L → M.L.ncomms ≤ k → M.L.unmatched ≤ 2 * k → k + n ≤ 1073741823 →
    p.Opaque env .lifo n j seen ν M → p.runNamedLib env n seen ν s = p.runNamed env .lifo n j seen ν M := by
  intro n
  induction n with
  | zero => intros; rfl
  | succ n ih =>
    intro k j seen ν s M l T hs hF ht hk h1 h2 h3 ho
    unfold Prog.runNamedLib Prog.runNamed
    cases hc : p seen with
    | none => rfl
    | some c =>
      obtain ⟨hkn, hses, hwf, hnext⟩ := ho c hc
      have hwith : M.with .lifo j = M := rfl
      rw [hwith] at hnext ⊢
      have hrm : Room M.L := ⟨by omega, by omega, by omega⟩
      have hsim := Call.sim hs hrm _ hwf
      have hrel := hF.answer (env := env) (f := ν.number) (g := ν.number) c (fun hi => ht.same hF hi hkn) hses hwf ht.number_one
      dsimp only
      cases hx : (c.withHandles ν.number).answer env s with
      | ok z =>
        obtain ⟨s', o⟩ := z
        obtain ⟨⟨M', o'⟩, h6, ha⟩ := hsim.ok_left hx
        obtain ⟨y, h6', hA⟩ := hrel.ok_left h6
        rw [h6] at h6'
        cases h6'
        obtain ⟨l', T', g1, g2, g3⟩ := ht.after hkn hA
        have hvals : o.vals = o'.vals := ha.vals
        have hob : ν.observe seen c o s'.mem = ν.observe seen c o' M'.mem := by
          unfold Names.observe
          rw [hvals, ha.sim.mem]
          congr 1
          split
          · next hkr =>
            refine ha.done fun r hr i q hm hq => ?_
            rw [withHandles_requests] at hr
            obtain ⟨x, hxr, rfl⟩ := List.mem_map.1 hr
            unfold knownReceives at hkr
            rw [List.all_eq_true] at hkr
            have h8 := hkr x hxr
            obtain ⟨r', hl⟩ := hF.has.1 hm
            have hpos := hF.ok.pos _ hl
            dsimp only at hpos
            rcases hkn x (requests_handles c x hxr) with hle | ⟨h, hmem⟩
            · rw [Told.number_const hle] at hl hpos
              have hx1 : x = 1 := by omega
              cases hi : M.L.inited with
              | false => rw [hF.world.2 hi] at hl; cases hl
              | true =>
                obtain ⟨cc, hcc⟩ := hF.world.1 hi
                subst hx1
                cases (hF.ok.left hl hcc).2
            · obtain ⟨h', hT⟩ := ht.known hmem
              rw [(ht.number hT).1] at hm
              have h9 := hk x h hmem i q hm hq
              have := (ht.range _ hT).1
              dsimp only at this
              simp only [Bool.or_eq_true, beq_iff_eq] at h8
              rcases h8 with h8 | h8
              · rw [h8] at this; exact absurd this (by decide)
              · rw [h9] at h8; exact Option.some.inj h8
          · rfl
        rw [h6]
        dsimp only
        rw [hob, hvals]
        refine ih (k + 1) (j + 1) _ _ s' M' l' T' ha.sim g1 g2 ?_ (by have := ha.room.1; dsimp only at this; omega)
          (by have := ha.room.2; dsimp only at this; omega) (by omega) (hnext _ _ h6)
        intro x h hmem i op hm hop
        rw [lastPost_cons]
        have hn := ha.news h i op hm hop
        dsimp only at hn
        rw [hvals, withHandles_posts] at hn
        have hold : ∀ x h, (x, h) ∈ ν.tab → (h, Obj.req i) ∈ M.L.objs → lastPost seen x = some op.kind := fun x h hmem hm' => by
          obtain ⟨A, lst, hi⟩ := hs.reach.inv
          obtain ⟨o0, _, ho0, _⟩ := hi.req _ _ hm'
          obtain ⟨o1, ho1, he⟩ := Steps.kinds ha.steps i o0 ho0
          dsimp only at ho1
          rw [hop] at ho1
          cases ho1
          rw [hk x h hmem i o0 hm' ho0, he]
        cases hmk : c.makes with
        | false =>
          have hps : c.posts = none := by
            cases hp : c.posts with
            | none => rfl
            | some k => rw [posts_makes hp] at hmk; cases hmk
          unfold Names.observe
          dsimp only
          rw [hps, ite_self, Option.none_or]
          rw [hps] at hn
          refine hold x h ?_ hn
          unfold Names.after at hmem
          rw [hmk] at hmem
          simp only [Bool.false_eq_true, if_false] at hmem
          exact (List.mem_filter.1 hmem).1
        | true =>
          have hmade := hA.made (by rw [withHandles_makes]; exact hmk)
          obtain ⟨a, a', e1, e2, hcase⟩ := hmade
          dsimp only at e1 e2
          have hv : (ν.observe seen c o' M'.mem).vals = [(ν.after c [a]).name a] := by
            unfold Names.observe Call.seenAs Call.got
            rw [makes_place hmk, e1]
            rfl
          have hcall : (ν.observe seen c o' M'.mem).call = c := rfl
          rw [hv, hcall]
          rw [e1] at hn
          rw [e1] at hmem
          have hafter : ν.after c [a] = if a ≤ 1 then ν else ⟨(ν.next, a) :: ν.tab, ν.next + 1⟩ := by
            unfold Names.after
            rw [if_pos hmk]
          rw [hafter] at hmem ⊢
          rcases hcase with ⟨rfl, _⟩ | ⟨q1, _, q3, _⟩
          · rw [if_pos (show (0 : Int) ≤ 1 by decide)] at hmem ⊢
            obtain ⟨h', hT⟩ := ht.known hmem
            have hr := ht.range _ hT
            dsimp only at hr
            have hne : ¬ [ν.name 0] = [x] := fun e => by
              have h0 : ν.name 0 = 0 := if_pos (by decide)
              have : ν.name 0 = x := (List.cons.inj e).1
              omega
            rw [if_neg hne, Option.none_or]
            refine hold x h hmem ?_
            cases hps : c.posts with
            | none => rw [hps] at hn; exact hn
            | some k =>
              rw [hps] at hn
              rcases hn with ⟨hv, _⟩ | ⟨_, hn⟩
              · have := (List.cons.inj hv).1; omega
              · exact hn
          · rw [if_neg (show ¬ a ≤ 1 by omega)] at hmem ⊢
            have hname : Names.name ⟨(ν.next, a) :: ν.tab, ν.next + 1⟩ a = ν.next := by
              unfold Names.name
              rw [if_neg (by omega), List.find?_cons_of_pos (by simp)]
              rfl
            rw [hname]
            rcases List.mem_cons.1 hmem with he | hmem
            · simp only [Prod.mk.injEq] at he
              obtain ⟨rfl, rfl⟩ := he
              have hfresh : (h, Obj.req i) ∉ M.L.objs := fun hm' => by
                obtain ⟨r', hl⟩ := hF.has.1 hm'
                exact q3 _ hl rfl
              rw [if_pos rfl]
              cases hps : c.posts with
              | none => rw [hps] at hn; exact absurd hn hfresh
              | some k =>
                rw [hps] at hn
                rcases hn with ⟨_, hkk⟩ | ⟨_, hn⟩
                · rw [hkk]; rfl
                · exact absurd hn hfresh
            · obtain ⟨h', hT⟩ := ht.known hmem
              have hr := ht.range _ hT
              obtain ⟨ob, hl⟩ := ht.live _ hT
              dsimp only at hr hl
              have hne : ¬ [ν.next] = [x] := fun e => by have := (List.cons.inj e).1; omega
              rw [if_neg hne, Option.none_or]
              refine hold x h hmem ?_
              cases hps : c.posts with
              | none => rw [hps] at hn; exact hn
              | some k =>
                rw [hps] at hn
                rcases hn with ⟨hv, _⟩ | ⟨_, hn⟩
                · exact absurd (List.cons.inj hv).1.symm (q3 _ hl)
                · exact hn
      | _ => rw [hx] at hsim; have := hsim.fate; cases hy : M.answer env (c.withHandles ν.number) <;> rw [hy] at this <;> simp_all [Res.fate]

/-- C65: a program that treats handles as opaque sees on the library what it sees on a machine that hands out numbers in any
sound way, and ends in the same way. -/
theorem C65_library {env : Env} {A : Strategy} (hA : A.Sound) {p : Prog} {m : Mem} {n : Nat} (hn : n ≤ 1073741823)
    (h : p.Opaque env A n 0 [] .start (.start m)) :
    p.runNamedLib env n [] .start (Sys.start m) = p.runNamed env A n 0 [] .start (.start m) := by
  obtain ⟨h1, h2⟩ := C65_strategy hA lifo_sound h
  rw [h1]
  exact named_sim n 0 0 [] .start _ _ [] [] (.start env m) (.start m) .start (fun _ _ hm => (List.not_mem_nil hm).elim) (Nat.le_refl _)
    (Nat.le_refl _) (by omega) h2

/-! ## Other ways of handing out numbers -/

/-- The number that would come next is put last (but 1 comes first). -/
def Strategy.rotated : Strategy := fun _ _ P =>
  match P.free with
  | [] => P
  | h :: fl => if h = 1 then P else { P with free := fl ++ [h] }

theorem Pool.Serves.perm {used : Int → Prop} {n : Nat} {P : Pool} (hs : P.Serves used n) {free : List Int} (hp : P.free.Perm free)
    (hw : ¬ used 1 → ∃ fl, free = 1 :: fl) : Pool.Serves used n { P with free := free } :=
  ⟨hp.nodup_iff.1 hs.distinct, fun h hm => hs.unused h (hp.mem_iff.2 hm), fun hb h ho => hs.later hb h (ho.imp id hp.mem_iff.2), hs.blocks,
   by rw [← hs.amount]; unfold Pool.left; rw [hp.length_eq], hw⟩

theorem rotated_sound : Strategy.rotated.Sound := by
  intro k used P hs
  unfold Strategy.rotated
  split
  · exact hs
  · next h fl he =>
    split
    · exact hs
    · next h1 =>
      refine hs.perm ?_ fun hu => ?_
      · rw [he]
        exact (List.perm_append_singleton h fl).symm
      · obtain ⟨fl', hw⟩ := hs.world hu
        rw [he] at hw
        exact absurd (List.cons.inj hw).1 h1

/-! ## A program the theorems apply to -/

theorem Prog.opaque_step {env : Env} {A : Strategy} {p : Prog} {n k : Nat} {seen : List Obs} {ν : Names} {M : Mach} (c : Call) (d : Mach × Out)
    (hp : p seen = some c) (hk : ∀ x ∈ c.handles, x ≤ 1 ∨ ∃ h, (x, h) ∈ ν.tab) (hc : c.inSession M.L.inited)
    (hw : (c.withHandles ν.number).Wf env M.L)
    (hn : p.Opaque env A n (k + 1) (ν.observe seen c (((M.with A k).answer env (c.withHandles ν.number)).getD d).2
        (((M.with A k).answer env (c.withHandles ν.number)).getD d).1.mem :: seen)
      (ν.after c (((M.with A k).answer env (c.withHandles ν.number)).getD d).2.vals)
      (((M.with A k).answer env (c.withHandles ν.number)).getD d).1) : p.Opaque env A (n + 1) k seen ν M := by
  intro c' hp'
  rw [hp] at hp'
  cases hp'
  refine ⟨hk, hc, hw, fun M' o ha => ?_⟩
  rw [ha] at hn
  exact hn

/-- The machine after a call, with names and with numbers chosen by `A`. -/
structure Stage where
  ν : Names
  M : Mach
  vals : List Int

def Stage.next (A : Strategy) (k : Nat) (t : Stage) (c : Call) : Stage :=
  let r := ((t.M.with A k).answer env0 (c.withHandles t.ν.number)).getD (t.M, ⟨[], []⟩)
  ⟨t.ν.after c r.2.vals, r.1, r.2.vals⟩

def Stage.s0 : Stage := ⟨.start, .start mem0, []⟩
def Stage.s1 : Stage := Stage.s0.next .rotated 0 .init
def Stage.s2 : Stage := Stage.s1.next .rotated 1 (.irecv 200 3 (-1) 0 5 1)
def Stage.s3 : Stage := Stage.s2.next .rotated 2 (.isend 100 3 (-1) 0 5 1)
def Stage.s4 : Stage := Stage.s3.next .rotated 3 (.wait 2 st0)
def Stage.s5 : Stage := Stage.s4.next .rotated 4 (.irecv 300 1 (-1) MPI_PROC_NULL 7 1)

/-- The numbers are others than those of the library (2, 3 and 2 again, see C62), the names are 2, 3 and 4. -/
example : Stage.s2.vals = [3] ∧ Stage.s3.vals = [5] ∧ Stage.s5.vals = [7] ∧ Stage.s3.ν.tab = [(3, 5), (2, 3)] ∧ Stage.s4.ν.tab = [(3, 5)] ∧
    Stage.s5.ν.tab = [(4, 7), (3, 5)] := by decide +kernel

/-- `twoWaits` (a receive, a send, MPI_Wait on the first, another receive, MPI_Wait on that) treats handles as opaque. -/
theorem twoWaits_opaque : twoWaits.Opaque env0 .rotated 6 0 [] .start (.start mem0) := by
  have hc : P2PArgs env0 Stage.s1.M.L (-1) 0 1 := ⟨.simple (by decide) (by decide), .inl (.of_decide 0 (by decide +kernel))⟩
  have hc' : P2PArgs env0 Stage.s2.M.L (-1) 0 1 := ⟨.simple (by decide) (by decide), .inl (.of_decide 0 (by decide +kernel))⟩
  have hc'' : P2PArgs env0 Stage.s4.M.L (-1) MPI_PROC_NULL 1 := ⟨.simple (by decide) (by decide), .inl (.of_decide 0 (by decide +kernel))⟩
  have hk : ∀ ν : Names, ∀ x ∈ [(-1 : Int), 1], x ≤ 1 ∨ ∃ h, (x, h) ∈ ν.tab := fun _ x hx => by
    rcases List.mem_cons.1 hx with rfl | hx
    · exact .inl (by decide)
    · rw [List.mem_singleton.1 hx]; exact .inl (by decide)
  have hn : ∀ ν : Names, ν.number (-1) = -1 ∧ ν.number 1 = 1 := fun _ => ⟨rfl, rfl⟩
  have i1 : Stage.s1.M.L.inited = true := by decide +kernel
  have i2 : Stage.s2.M.L.inited = true := by decide +kernel
  have i3 : Stage.s3.M.L.inited = true := by decide +kernel
  have i4 : Stage.s4.M.L.inited = true := by decide +kernel
  have i5 : Stage.s5.M.L.inited = true := by decide +kernel
  have n2 : Stage.s3.ν.number 2 = 3 := by decide +kernel
  have n5 : Stage.s5.ν.number 4 = 7 := by decide +kernel
  refine Prog.opaque_step .init (.start mem0, ⟨[], []⟩) rfl (fun _ h => (List.not_mem_nil h).elim) rfl trivial ?_
  refine Prog.opaque_step (M := Stage.s1.M) (ν := Stage.s1.ν) _ (Stage.s1.M, ⟨[], []⟩) rfl (hk _) i1 hc ?_
  refine Prog.opaque_step (M := Stage.s2.M) (ν := Stage.s2.ν) _ (Stage.s2.M, ⟨[], []⟩) rfl (hk _) i2 hc' ?_
  refine Prog.opaque_step (M := Stage.s3.M) (ν := Stage.s3.ν) (.wait 2 st0) (Stage.s3.M, ⟨[], []⟩) ?_ ?_ i3 ?_ ?_
  · show some (Call.wait _ st0) = _
    exact congrArg (fun h => some (Call.wait h st0)) (by decide +kernel)
  · intro x hx
    rw [List.mem_singleton.1 hx]
    exact .inr ⟨3, of_decide_eq_true (by decide +kernel)⟩
  · show Stage.s3.ν.number 2 = 0 ∨ _
    rw [n2]
    exact Or.inr ⟨0, of_decide_eq_true (by decide +kernel)⟩
  refine Prog.opaque_step (M := Stage.s4.M) (ν := Stage.s4.ν) _ (Stage.s4.M, ⟨[], []⟩) rfl (hk _) i4 hc'' ?_
  refine Prog.opaque_step (M := Stage.s5.M) (ν := Stage.s5.ν) (.wait 4 st0) (Stage.s5.M, ⟨[], []⟩) ?_ ?_ i5 ?_ ?_
  · show some (Call.wait _ st0) = _
    exact congrArg (fun h => some (Call.wait h st0)) (by decide +kernel)
  · intro x hx
    rw [List.mem_singleton.1 hx]
    exact .inr ⟨7, of_decide_eq_true (by decide +kernel)⟩
  · show Stage.s5.ν.number 4 = 0 ∨ _
    rw [n5]
    exact Or.inr ⟨2, of_decide_eq_true (by decide +kernel)⟩
  trivial

/-- The library shows it what it sees with the numbers rotated. -/
example : twoWaits.runNamedLib env0 6 [] .start (Sys.start mem0) = twoWaits.runNamed env0 .rotated 6 0 [] .start (.start mem0) :=
  C65_library rotated_sound (by decide) twoWaits_opaque

example : twoWaits.Opaque env0 .lifo 6 0 [] .start (.start mem0) := (C65_strategy rotated_sound lifo_sound twoWaits_opaque).2

/-- What it sees. -/
example : (twoWaits.runNamed env0 .rotated 6 0 [] .start (.start mem0)).2 = none ∧
    (twoWaits.runNamed env0 .rotated 6 0 [] .start (.start mem0)).1.map (fun o => (o.vals, o.stats)) =
      [([0, 0, 0], [.obj ⟨-2, -1, 0, 0⟩]), ([4], []), ([0, 0, 0], [.obj ⟨0, 5, 0, 0⟩]), ([3], []), ([2], []), ([], [])] := by
  decide +kernel

/-- A program that sees the numbers can tell the difference: what comes back from its first receive is 2 on the library and
3 with the numbers rotated. -/
example : (U1.next (.irecv 200 3 (-1) 0 5 1)).2.vals = [2] ∧ ((U1.with .rotated 1).next (.irecv 200 3 (-1) 0 5 1)).2.vals = [3] := by
  decide +kernel

/-- A way of handing out numbers that is not sound: the same number again and again.  Then the send has the number of the
receive, and the program of the theorem would notice. -/
example : ¬ Strategy.Sound fun _ _ P => { P with free := [2, 2] } := fun h => by
  have := (h 0 (fun _ => False) .start (by
    have := Pool.Serves.start (used := fun _ => False) fun _ h => h
    rwa [this.amount])).distinct
  exact absurd this (by decide)

end MpiSerial
