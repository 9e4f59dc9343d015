import Verif.Proofs.PlaceType

/-!
# Arrays filled element by element
-/

set_option linter.unusedSimpArgs false
set_option autoImplicit false

namespace MpiSerial

open Spec.Fort
open Res (Rel)

namespace Place

variable {bo : ByteOrder} {m : Mem}

theorem cartGet_rel {ds xs : Int} {ps : Spec.Fort.Out} {post : List Spec.Fort.Out} : ∀ (n i : Nat) (s : Sys) (m' : Mem) {dv xv : List Int}, i + n ≤ dv.length → i + n ≤ xv.length →
    Img bo m (⟨ds, 4, dv⟩ :: ps :: ⟨xs, 4, xv⟩ :: post) m' →
    Rel (fun (a : Sys) (b : List Int × List Int) => ∃ m'', a = { s with mem := m'' } ∧ Img bo m (⟨ds, 4, b.1⟩ :: ps :: ⟨xs, 4, b.2⟩ :: post) m'')
      (cartGetLoopAt bo ds xs n i { s with mem := m' }) (cartGetLoop n i dv xv)
  | 0, _, _, m', _, _, _, _, h => ⟨m', rfl, h⟩
  | n + 1, i, s, m', dv, xv, h1, h2, h => by
    rw [cartGetLoopAt, cartGetLoop]
    unfold wr
    rw [if_pos (by omega), if_pos (by omega), Res.ok_bind, Res.ok_bind]
    obtain ⟨m1, e1, g1⟩ := h.store (pre := []) (o := ⟨ds, 4, dv⟩) rfl (i := i) (by dsimp only; omega) 1 s
    dsimp only at e1
    rw [e1, Res.ok_bind]
    obtain ⟨m2, e2, g2⟩ := Img.store (pre := [_, _]) (o := ⟨xs, 4, xv⟩) g1 rfl (i := i) (by dsimp only; omega) 0 s
    dsimp only at e2
    rw [e2, Res.ok_bind]
    exact cartGet_rel n (i + 1) s m2 (by rw [List.length_set]; omega) (by rw [List.length_set]; omega) g2

theorem translate_rel {rs h qs : Int} {rv : List Int} {post : List Spec.Fort.Out} {k : Nat} (hr : rv.length = k)
    (hc : ∀ i j : Nat, i < j → j < k → rs + 4 * j + 4 ≤ qs + 4 * i ∨ qs + 4 * i + 4 ≤ rs + 4 * j) : ∀ (n i : Nat) (s : Sys) (m' : Mem) {qv : List Int}, i + n = k → qv.length = k →
    Img bo m (⟨qs, 4, qv⟩ :: post) m' → (∀ j, i ≤ j → ∀ v, rv[j]? = some v → intAt bo m' (rs + 4 * j) = some v) →
    Rel (fun (a : Sys) (b : List Int) => ∃ m'', a = { s with mem := m'' } ∧ Img bo m (⟨qs, 4, b⟩ :: post) m'')
      (translateLoopAt bo rs h qs n i { s with mem := m' }) (translateLoop rv h n i qv)
  | 0, _, _, m', _, _, _, him, _ => ⟨m', rfl, him⟩
  | n + 1, i, s, m', qv, h1, h2, him, hl => by
    rw [translateLoopAt, translateLoop]
    have hi : rv[i]? = some rv[i] := List.getElem?_eq_getElem (by omega)
    unfold rd wr
    have e0 : ldInt bo m' (rs + 4 * i) = .ok rv[i] := by rw [ldInt_eq, hl i (Nat.le_refl _) _ hi]; rfl
    dsimp only
    rw [e0, hi]
    dsimp only
    rw [Res.ok_bind, Res.ok_bind]
    refine Rel.ite (fun _ => rfl) fun _ => ?_
    have ev : (if h ≠ MPI_GROUP_EMPTY then Res.ok rv[i] else Res.ok MPI_UNDEFINED) = .ok (if h ≠ MPI_GROUP_EMPTY then rv[i] else MPI_UNDEFINED) := by split <;> rfl
    rw [ev, Res.ok_bind, if_pos (show i < qv.length by omega), Res.ok_bind]
    generalize (if h ≠ MPI_GROUP_EMPTY then rv[i] else MPI_UNDEFINED) = v
    obtain ⟨m1, e1, g1⟩ := him.store (pre := []) (o := ⟨qs, 4, qv⟩) rfl (i := i) (by dsimp only; omega) v s
    dsimp only at e1
    have hp : ∀ a, qs + 4 * i ≤ a → a < qs + 4 * i + 4 → (m' a).isSome = true := by
      intro a a1 a2
      refine him.vars.accessible ⟨qs, 4, qv⟩ (List.mem_cons_self ..) a ⟨?_, ?_⟩
      · dsimp only; omega
      · dsimp only; omega
    obtain ⟨w, w1, _, _, w4⟩ := stInt_on (bo := bo) hp v
    have em : m1 = fun a => if qs + 4 * i ≤ a ∧ a < qs + 4 * i + 4 then w a else m' a := by
      have := e1.symm.trans (w4 { s with mem := m' } fun _ => rfl)
      exact congrArg Sys.mem (Res.ok.inj this)
    rw [e1, Res.ok_bind]
    refine translate_rel hr hc n (i + 1) s m1 (by omega) (by rw [List.length_set]; exact h2) g1 fun j hj u hu => ?_
    have hjk : j < k := by rw [← hr]; exact (List.getElem?_eq_some_iff.1 hu).1
    rw [← hl j (by omega) u hu]
    refine intAt_congr fun a a1 a2 => ?_
    rw [em]
    have := hc i j (by omega) hjk
    exact if_neg (by omega)

section
variable {c : FEnv} {s : Sys} {r : Res (Sys × List Spec.Fort.Out)} {outs : List Spec.Fort.Out}

theorem cartGet_in {k n ds ps xs e : Int} (hm : (FCall.cartGet k n ds ps xs e).meaning c s = some r) (ho : (FCall.cartGet k n ds ps xs e).own c s.mem = some outs)
    (hv : Variables s.mem outs) : Performs c.bo ((FCall.cartGet k n ds ps xs e).inPlace c s) r := by
  simp only [FCall.own, Option.bind_eq_bind, Option.bind_eq_some_iff, Option.map_eq_some_iff, Option.pure_def, Option.some.injEq] at ho
  obtain ⟨_, ⟨nv, h0, dv, h1, rfl⟩, _, ⟨nv', h0', pv, h2, rfl⟩, _, ⟨nv'', h0'', xv, h3, rfl⟩, _, ⟨ev, h4, rfl⟩, rfl⟩ := ho
  cases h0.symm.trans h0'
  cases h0.symm.trans h0''
  simp only [FCall.meaning, Option.bind_eq_bind, Option.bind_eq_some_iff, Option.pure_def, h0, h1, h2, h3, Option.bind_some, Option.some.injEq] at hm
  obtain ⟨kv, h5, rfl⟩ := hm
  obtain ⟨l1, l2, _⟩ := ints_of h1
  obtain ⟨k1, k2, _⟩ := ints_of h3
  have him : Img c.bo s.mem (⟨ds, 4, dv⟩ :: ⟨ps, 4, pv⟩ :: ⟨xs, 4, xv⟩ :: [⟨e, 4, [ev]⟩]) s.mem :=
    .start hv (held_cons l2 (held_cons (ints_of h2).2.1 (held_cons k2 (held_cons (held_int h4) nofun))))
  show Performs c.bo (mpi_cart_get c s k n ds ps xs e) _
  unfold mpi_cart_get MPI_Cart_get
  rw [ldInt_eq, ldInt_eq, h0, h5]
  simp only [ofOpt, Res.ok_bind, bind_assoc, Res.pure_eq]
  refine finish (sysOf := fun _ => s) (outs := fun b : List Int × List Int => [Spec.Fort.Out.ints ds b.1, Spec.Fort.Out.ints ps pv, Spec.Fort.Out.ints xs b.2, Spec.Fort.Out.int e 0])
    ((cartGet_rel nv.toNat 0 s s.mem (by omega) (by omega) him).mono fun a b _ _ hab => ?_)
  obtain ⟨m', e1, g1⟩ := hab
  exact ⟨m', [Spec.Fort.Out.ints ds b.1, Spec.Fort.Out.ints ps pv, Spec.Fort.Out.ints xs b.2], ev, [], e1, g1, by simp, by simp⟩

theorem translate_in {g n rs h qs e : Int} (hm : (FCall.groupTranslateRanks g n rs h qs e).meaning c s = some r)
    (ho : (FCall.groupTranslateRanks g n rs h qs e).own c s.mem = some outs) (hv : Variables s.mem outs) (hc : (FCall.groupTranslateRanks g n rs h qs e).Clear c s) :
    Performs c.bo ((FCall.groupTranslateRanks g n rs h qs e).inPlace c s) r := by
  simp only [FCall.own, Option.bind_eq_bind, Option.bind_eq_some_iff, Option.map_eq_some_iff, Option.pure_def, Option.some.injEq] at ho
  obtain ⟨_, ⟨nv, h0, qv, h1, rfl⟩, _, ⟨ev, h2, rfl⟩, rfl⟩ := ho
  simp only [FCall.meaning, Option.bind_eq_bind, Option.bind_eq_some_iff, Option.pure_def, h0, h1, Option.bind_some, Option.some.injEq] at hm
  obtain ⟨gv, h3, rv, h4, hv', h5, rfl⟩ := hm
  obtain ⟨l1, l2, _⟩ := ints_of h1
  obtain ⟨k1, _, _⟩ := ints_of h4
  have him : Img c.bo s.mem (⟨qs, 4, qv⟩ :: [⟨e, 4, [ev]⟩]) s.mem := .start hv (held_cons l2 (held_cons (held_int h2) nofun))
  show Performs c.bo (mpi_group_translate_ranks c s g n rs h qs e) _
  unfold mpi_group_translate_ranks
  rw [ldInt_eq, ldInt_eq, ldInt_eq, h0, h3, h5]
  simp only [ofOpt, Res.ok_bind]
  refine finish (sysOf := fun _ => s) (outs := fun b : List Int => [Spec.Fort.Out.ints qs b, Spec.Fort.Out.int e 0])
    (Rel.mono (R := fun (a : Sys) (b : List Int) => ∃ m'', a = { s with mem := m'' } ∧ Img c.bo s.mem (⟨qs, 4, b⟩ :: [⟨e, 4, [ev]⟩]) m'') ?_ fun a b _ _ hab => ?_)
  · unfold MPI_Group_translate_ranks MpiSerial.MPI_Group_translate_ranks
    refine Rel.ite (fun _ => rfl) fun _ => Rel.ite (fun _ => ⟨s.mem, rfl, him⟩) fun _ => Rel.ite (fun _ => rfl) fun _ => ?_
    refine translate_rel k1 (fun i j hij hj => hc nv h0 i j hij (by omega)) nv.toNat 0 s s.mem (by omega) l1 him fun j _ v hj => ?_
    exact (mapM_get _ _ _ h4).2 j v hj
  · obtain ⟨m', e1, g1⟩ := hab
    exact ⟨m', [Spec.Fort.Out.ints qs b], ev, [], e1, g1, by simp, by simp⟩

end

end Place

end MpiSerial
