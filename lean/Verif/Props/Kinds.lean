import Verif.Proofs.Kinds
import Verif.Props.Twin

/-!
# C93: without type checking only the sizes of the elements count

The library reads the kind of an element in Simpletype_length (type.c:68-141), where it looks up its size, in Type_struct (type.c:280,
287, 327-328), where it recognises the markers of MPI_LB and MPI_UB, and, with TYPE_CHECKING, in copy.c:73-78.
-/

set_option autoImplicit false

namespace MpiSerial

variable {η : Int → Int}

/-- **C93 (one call).**  Without type checking, calling with other names for the datatypes - each naming a predefined datatype with elements
of the same sizes at the same places - is the same: the call dies in the same way, or hands back the same results and leaves the library
in the same state up to those names (and so in the same memory).  It holds for any state, also one that cannot arise, and any call; the
other names may also be those with which derived datatypes were built. -/
theorem C93_call {env : Env} (hη : TypeRen env.cfg η) (hc : env.cfg.typeChecking = false) {s s' : Sys} (hs : s.KinTo η env.cfg s') (c : Call) :
    (c.answer env s).Rel (fun x y => x.1.KinTo η env.cfg y.1 ∧ y.1.mem = x.1.mem ∧ y.2 = x.2) ((c.retype η).answer (env.retype η) s') := by
  obtain ⟨H, hs, rfl⟩ := hs
  have : TypeSwap env η := ⟨hη, hc⟩
  refine Res.Rel.mono (answer_typed (η := η) hs c) ?_
  rintro x _ - - ⟨H, hx, rfl⟩
  exact ⟨⟨H, hx, rfl⟩, rfl, rfl⟩

theorem Call.retype_posts (c : Call) : (c.retype η).posts = c.posts := by cases c <;> rfl
theorem Call.retype_requests (c : Call) : (c.retype η).requests = c.requests := by cases c <;> rfl

theorem lastPost_retype (l : List Obs) (r : Int) : lastPost (l.map (Obs.retype η)) r = lastPost l r := by
  induction l with
  | nil => rfl
  | cons o l ih =>
    unfold lastPost at ih ⊢
    rw [List.map_cons, List.findSome?_cons, List.findSome?_cons, ih]
    rw [show (Obs.retype η o).call.posts = o.call.posts from Call.retype_posts o.call]
    rfl

theorem observe_retype (l : List Obs) (c : Call) {s s' : Sys} (o : Out) (hm : s'.mem = s.mem) :
    observe (l.map (Obs.retype η)) (c.retype η) s' o = (observe l c s o).retype η := by
  have h : knownReceives (l.map (Obs.retype η)) (c.retype η) = knownReceives l c := by
    unfold knownReceives
    rw [Call.retype_requests]
    simp only [lastPost_retype]
  unfold observe
  rw [h, hm]
  rfl

theorem run_retype {env : Env} (hη : TypeRen env.cfg η) (hc : env.cfg.typeChecking = false) {p q : Prog} (hpq : p.RetypedTo η q) (n : Nat) :
    ∀ (l : List Obs) (s s' : Sys), s.KinTo η env.cfg s' → q.run (env.retype η) n (l.map (Obs.retype η)) s'
      = ((p.run env n l s).1.map (Obs.retype η), (p.run env n l s).2) := by
  induction n with
  | zero => intro l s s' _; rfl
  | succ n ih =>
    intro l s s' hs
    simp only [Prog.run]
    rw [hpq l]
    cases hp : p l with
    | none => rfl
    | some c =>
      dsimp only [Option.map_some]
      have h := C93_call hη hc hs c
      revert h
      cases c.answer env s with
      | ok x =>
        cases (c.retype η).answer (env.retype η) s' with
        | ok y =>
          obtain ⟨x, o⟩ := x
          obtain ⟨y, o'⟩ := y
          rintro ⟨h1, h2, h3⟩
          obtain rfl : o' = o := h3
          have := ih (observe l c x o' :: l) x y h1
          rw [List.map_cons, ← observe_retype l c o' h2] at this
          exact this
        | _ => exact fun h => h.elim
      | _ => cases (c.retype η).answer (env.retype η) s' <;> intro h <;> first | exact h.elim | (cases h; rfl) | rfl

/-- **C93 (programs).**  A program that uses other names for the predefined datatypes - names of datatypes with elements of the same sizes at
the same places - makes the same calls, up to those names, gets the same results (the same handles, statuses, extents, sizes and
positions), finds the same memory after every call, and dies in the same way.  For programs of fewer than 2^30 calls, all well formed,
in a library without type checking. -/
theorem C93_program {env : Env} (hη : TypeRen env.cfg η) (hsur : ∀ t, ∃ t', η t' = t) (hc : env.cfg.typeChecking = false) {p q : Prog}
    (hpq : p.RetypedTo η q) {m : Mem} {n : Nat} (hn : n ≤ 1073741823) (hw : p.Wf env n [] (Sys.start m)) :
    q.run env n [] (Sys.start m) = ((p.run env n [] (Sys.start m)).1.map (Obs.retype η), (p.run env n [] (Sys.start m)).2) := by
  let j : Nat → ReqRec := fun k => { env.junk k with type := (hsur (env.junk k).type).choose }
  have he : (env.withJunk j).retype η = env := by
    have : (fun k => (j k).retype η) = env.junk := by
      funext k
      show ({ env.junk k with type := η (hsur (env.junk k).type).choose } : ReqRec) = env.junk k
      rw [(hsur (env.junk k).type).choose_spec]
    exact congrArg (fun f => ({ env with junk := f } : Env)) this
  have h := run_retype (env := env.withJunk j) hη hc hpq n [] (Sys.start m) (Sys.start m) ⟨fun _ => none, fun _ => .inl ⟨rfl, rfl⟩, rfl⟩
  rw [he, ← C56_program hn hw] at h
  exact h

/-! ## The two sides of a transfer -/

/-- Either the same handle, or both are looked up in the table of predefined datatypes. -/
theorem KinTypes.lookup {env : Env} {t t' : Int} (h : KinTypes env.cfg t t') (s : Sys) :
    (handleToDatatype s t).Rel (fun x y => y.1 = x.1 ∧ PtrKin env.cfg x.2 y.2) (handleToDatatype s t') := by
  rcases h with rfl | ⟨h1, h2, d, d', e1, e2, hd⟩
  · exact .same fun x _ => ⟨rfl, .inl rfl⟩
  · have l1 : (-1 - t).toNat < 45 := by
      have := (List.getElem?_eq_some_iff.mp e1).1
      rwa [simpletypes_length] at this
    have l2 : (-1 - t').toNat < 45 := by
      have := (List.getElem?_eq_some_iff.mp e2).1
      rwa [simpletypes_length] at this
    unfold handleToDatatype
    rw [if_pos h1, if_pos h2, show simpletypePtr t = .ok (.static (-1 - t).toNat) from if_pos l1,
      show simpletypePtr t' = .ok (.static (-1 - t').toNat) from if_pos l2]
    exact ⟨rfl, .inr ⟨_, _, d, d', rfl, rfl, e1, e2, hd⟩⟩

theorem PtrKin.deref {env : Env} {p p' : TPtr} (h : PtrKin env.cfg p p') (s : Sys) :
    (derefType env s p).Rel (Typestruct.Kin env.cfg) (derefType env s p') := by
  rcases h with rfl | ⟨k, k', t, t', rfl, rfl, e1, e2, ht⟩
  · exact .same fun t _ => .refl t
  · show Res.Rel _ (match (simpletypes env.cfg)[k]? with | some t => .ok t | none => .ub .badPtr)
      (match (simpletypes env.cfg)[k']? with | some t => .ok t | none => .ub .badPtr)
    rw [e1, e2]
    exact ht

theorem Res.Rel.eq {α : Type} {x y : Res α} (h : x.Rel (fun a b => b = a) y) : y = x := by
  cases x <;> cases y <;> first | exact h.elim | (cases h; rfl) | rfl

/-- **C93 (transfers).**  Without type checking the two sides of a transfer may name their datatypes independently of each other: what is
copied depends on the sizes and places of the elements only. -/
theorem C93_transfer {env : Env} (hc : env.cfg.typeChecking = false) (s : Sys) {t t' u u' : Int} (ht : KinTypes env.cfg t t')
    (hu : KinTypes env.cfg u u') (a n b m comm : Int) :
    MPI_Alltoall env s a n t' b m u' comm = MPI_Alltoall env s a n t b m u comm := by
  refine Res.Rel.eq ?_
  show Res.Rel _ (copy_data2 env s a n t b m u) (copy_data2 env s a n t' b m u')
  unfold copy_data2
  refine (ht.lookup s).bind ?_
  rintro ⟨s, p⟩ ⟨s', p'⟩ - - ⟨e, hp⟩
  obtain rfl : s' = s := e
  refine .bind (hu.lookup s') ?_
  rintro ⟨s, q⟩ ⟨s', q'⟩ - - ⟨e, hq⟩
  obtain rfl : s' = s := e
  refine (hp.deref s').bind fun d d' _ _ hd => (hq.deref s').bind fun e e' _ _ he => ?_
  rw [Pcopy_data2_kin hc hd he]
  exact .same fun _ _ => rfl

/-! ## The names of the predefined datatypes -/

theorem static1_kin {cfg : Cfg} (a b : Int) (h : Simpletype_length cfg b = Simpletype_length cfg a) (hm : SameMark a b) (z : Int) :
    (static1 z a).Kin cfg (static1 z b) := by
  refine ⟨rfl, rfl, rfl, rfl, rfl, rfl, rfl, fun k p p' e e' => ?_⟩
  match k with
  | 0 => cases e; cases e'; exact ⟨rfl, h, hm⟩
  | 1 => cases e; cases e'; exact ⟨rfl, rfl, .refl _⟩
  | k + 2 => cases e

/-- **C93 (C and Fortran).**  The C and the Fortran names of a datatype are such names, if the Fortran types have the sizes of the C types:
MPI_INT and MPI_INTEGER, MPI_FLOAT and MPI_REAL, MPI_DOUBLE and MPI_DOUBLE_PRECISION, MPI_CHAR and MPI_CHARACTER; so are MPI_BYTE and MPI_PACKED.
(mpi.h:98-100 asks why they are not the same numbers.) -/
theorem C93_fortran {cfg : Cfg} (hr : cfg.fsizeReal = 4) (hd : cfg.fsizeDouble = 8) :
    KinTypes cfg (-3) (-16) ∧ KinTypes cfg (-9) (-17) ∧ KinTypes cfg (-10) (-18) ∧ KinTypes cfg (-1) (-22) ∧ KinTypes cfg (-12) (-13) := by
  refine ⟨.inr ⟨by decide, by decide, static1 4 2, static1 4 14, rfl, rfl, static1_kin 2 14 rfl (by unfold SameMark; decide) 4⟩,
    .inr ⟨by decide, by decide, static1 4 8, static1 cfg.fsizeReal 15, rfl, rfl, ?_⟩,
    .inr ⟨by decide, by decide, static1 8 9, static1 cfg.fsizeDouble 16, rfl, rfl, ?_⟩,
    .inr ⟨by decide, by decide, static1 1 0, static1 1 20, rfl, rfl, static1_kin 0 20 rfl (by unfold SameMark; decide) 1⟩,
    .inr ⟨by decide, by decide, static1 1 11, static1 1 11, rfl, rfl, .refl _⟩⟩
  · rw [hr]; exact static1_kin 8 15 (by show Res.ok cfg.fsizeReal = .ok 4; rw [hr]) (by unfold SameMark; decide) 4
  · rw [hd]; exact static1_kin 9 16 (by show Res.ok cfg.fsizeDouble = .ok 8; rw [hd]) (by unfold SameMark; decide) 8

/-! ## Examples -/

/-- MPI_CHAR and MPI_BYTE change places. -/
def swapByte (t : Int) : Int := if t = -1 then -12 else if t = -12 then -1 else t

theorem swapByte_swapByte (t : Int) : swapByte (swapByte t) = t := by
  unfold swapByte
  split
  · simp_all
  · split <;> simp_all

theorem swapByte_ren (cfg : Cfg) : TypeRen cfg swapByte := by
  intro h
  unfold swapByte
  by_cases h1 : h = -1
  · rw [if_pos h1, h1]
    exact .inr ⟨by decide, by decide, static1 1 0, static1 1 11, rfl, rfl, static1_kin 0 11 rfl (by unfold SameMark; decide) 1⟩
  · rw [if_neg h1]
    by_cases h2 : h = -12
    · rw [if_pos h2, h2]
      exact .inr ⟨by decide, by decide, static1 1 11, static1 1 0, rfl, rfl, static1_kin 11 0 rfl (by unfold SameMark; decide) 1⟩
    · rw [if_neg h2]; exact .inl rfl

/-- `twoWaits` with datatype `t` in the place of MPI_CHAR. -/
def twoWaitsType (t : Int) : Prog
  | [] => some .init
  | [_] => some (.irecv 200 3 t 0 5 1)
  | [_, _] => some (.isend 100 3 t 0 5 1)
  | [_, r, _] => some (.wait (r.vals.headD 0) (.obj ⟨0, 0, 0, 0⟩))
  | [_, _, _, _] => some (.irecv 300 1 t MPI_PROC_NULL 7 1)
  | [r, _, _, _, _] => some (.wait (r.vals.headD 0) (.obj ⟨0, 0, 0, 0⟩))
  | _ => none

theorem twoWaits_retyped : twoWaits.RetypedTo swapByte (twoWaitsType (-12)) := by
  intro l
  rcases l with _ | ⟨a, _ | ⟨b, _ | ⟨c, _ | ⟨d, _ | ⟨e, _ | ⟨f, l⟩⟩⟩⟩⟩⟩ <;> rfl

example : (twoWaitsType (-12)).run env0 6 [] (Sys.start mem0)
    = ((twoWaits.run env0 6 [] (Sys.start mem0)).1.map (Obs.retype swapByte), (twoWaits.run env0 6 [] (Sys.start mem0)).2) :=
  C93_program (swapByte_ren _) (fun t => ⟨swapByte t, swapByte_swapByte t⟩) rfl twoWaits_retyped (by decide) twoWaits_wf

/-- A vector of MPI_BYTE instead of one of MPI_CHAR: the same handle, and descriptors of the same sizes. -/
example (s : Sys) : ((Call.typeVector 2 1 3 (-1)).answer env0 s).Rel (fun x y => x.1.KinTo swapByte env0.cfg y.1 ∧ y.1.mem = x.1.mem ∧ y.2 = x.2)
    ((Call.typeVector 2 1 3 (-12)).answer (env0.retype swapByte) (s.typed swapByte s.theap)) :=
  C93_call (swapByte_ren _) rfl ⟨s.theap, fun q => by
    cases h : s.theap q with
    | none => exact .inl ⟨rfl, rfl⟩
    | some t => exact .inr ⟨t, t, rfl, rfl, .refl t⟩, rfl⟩ (.typeVector 2 1 3 (-1))

/-- A message of two MPI_INT arrives as two MPI_INTEGER. -/
example (s : Sys) : MPI_Alltoall env0 s 100 2 (-3) 200 2 (-16) 1 = MPI_Alltoall env0 s 100 2 (-3) 200 2 (-3) 1 :=
  C93_transfer rfl s (.inl rfl) (C93_fortran rfl rfl).1 100 2 200 2 1

/-- What is left of a run. -/
def Res.tag {A : Type} : Res A → Nat
  | .ok _ => 0
  | .abort _ => 1
  | .exit _ => 2
  | .ub _ => 3
  | .hang => 4

/-- With type checking the kinds count: the transfer from MPI_INT to MPI_INTEGER is refused.  And the sizes always count: MPI_INT in the place of
MPI_CHAR moves four times as many bytes. -/
theorem C93_needs :
    (MPI_Alltoall { env0 with cfg := { env0.cfg with typeChecking := true } } (Sys.start mem0) 100 2 (-3) 200 2 (-16) 1).tag = 2 ∧
    (MPI_Alltoall { env0 with cfg := { env0.cfg with typeChecking := true } } (Sys.start mem0) 100 2 (-3) 200 2 (-3) 1).tag = 0 ∧
    ¬ KinTypes env0.cfg (-1) (-3) := by
  refine ⟨by decide +kernel, by decide +kernel, ?_⟩
  rintro (h | ⟨-, -, t, t', e1, e2, h⟩)
  · exact absurd h (by decide)
  · cases e1; cases e2
    exact absurd h.ub (by decide)

end MpiSerial
