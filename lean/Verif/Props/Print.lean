import Verif.Model.Print
import Verif.Props.TypeUse
import Verif.Proofs.Safe

/-!
# C78: print_typemap shows the datatype (type.c:836-865)
-/

set_option autoImplicit false

namespace MpiSerial

theorem printLoopT_eq {cfg : Cfg} {t : Typestruct} : ∀ (n i : Nat), i + n ≤ t.pairs.length →
    (∀ p ∈ (t.pairs.drop i).take n, hasLen cfg p.type) →
    printLoopT cfg t n i = .ok (((t.pairs.drop i).take n).map fun p => (p.type, lenOf cfg p.type, s32 p.disp))
  | 0, _, _, _ => by simp [printLoopT]
  | n + 1, i, hb, hl => by
    have hi : i < t.pairs.length := by omega
    have hd : t.pairs.drop i = t.pairs[i] :: t.pairs.drop (i + 1) := List.drop_eq_getElem_cons hi
    rw [hd, List.take_succ_cons] at hl ⊢
    have h0 : Simpletype_length cfg t.pairs[i].type = .ok (lenOf cfg t.pairs[i].type) := hl _ List.mem_cons_self
    rw [printLoopT, pair_ok hi, Res.ok_bind, h0, Res.ok_bind,
      printLoopT_eq n (i + 1) (by omega) fun p hp => hl p (List.mem_cons_of_mem _ hp)]
    rfl

/-- What is to be seen: the type map of `τ`, entry by entry, with sizes; the lower 32 bits of its bounds and extent,
and the size of the largest entry. -/
structure Shows.Type (s : Int → Int) (τ : Spec.DType) (p : Printout) : Prop where
  count : p.count = τ.map.length
  entries : p.entries = τ.map.map fun x => (x.2, s x.2, x.1)
  extent : p.extent = s32 (Spec.extent s τ)
  epsilon : p.epsilon = Spec.align s τ

/-- C78 (partial): for a datatype with entries within 2^31 bytes of the origin, print_typemap returns, changes nothing
and prints the type map: for every entry its basic type, size and displacement, in order.  The extent is cut to 32
bits; `C78_fails_wide` shows what this does to displacements. -/
theorem C78_prints_partial {env : Env} {s : Sys} {L : Ledger} (hr : Reach env s L) (hc : env.cfg.Ok) {h : Int}
    {t : Typestruct} (hd : L.desc env.cfg h = some t) {τ : Spec.DType} (ht : Describes env.cfg t (.data τ)) :
    ∃ p, print_typemap env s h = .ok (s, p) ∧ Shows.Type (sz env.cfg) τ p := by
  obtain ⟨M, lst, hi⟩ := hr.inv
  obtain ⟨hg, ha⟩ := ht.meaning hc
  obtain ⟨-, hm, hn⟩ := ht.dataDesc hc
  obtain ⟨m, hmax, -, -, hpad⟩ := calc_padding_max hc hg.wf hg.ne hg.lens
  unfold print_typemap Pprint_typemap
  rw [hi.typeOf hd, Res.ok_bind]
  dsimp only
  rw [ht.extent hc, Res.ok_bind, hpad, Res.ok_bind, printLoopT_eq (t := t) _ 0 (by have := hg.wf.fits; omega) (by rw [List.drop_zero]; exact hg.lens), Res.ok_bind]
  refine ⟨_, rfl, hn, ?_, by rw [s32_u64], ?_⟩
  · rw [← hm]
    unfold typeMap
    rw [List.map_map]
    refine List.map_congr_left fun p hp => ?_
    have := hg.disps p hp
    show (p.type, lenOf env.cfg p.type, s32 p.disp) = (p.type, lenOf env.cfg p.type, p.disp)
    rw [s32_of_range this.1 this.2]
  · show m = Spec.align (lenOf env.cfg) τ
    unfold Spec.align
    rw [← ha, absT_map_map, show (t.map.map fun p => lenOf env.cfg p.type).max? = some m from hmax]
    rfl

/-- C78: the bounds, where the library stores those of the standard (C25, C26). -/
theorem C78_bounds_partial {env : Env} {s : Sys} {L : Ledger} (hr : Reach env s L) {h : Int} {t : Typestruct}
    (hd : L.desc env.cfg h = some t) {p : Printout} (hp : print_typemap env s h = .ok (s, p)) {τ : Spec.DType}
    (ht : Reports env.cfg t τ) : p.lb = s32 (Spec.lb τ) ∧ p.ub = s32 (Spec.ub (sz env.cfg) τ) := by
  obtain ⟨M, lst, hi⟩ := hr.inv
  unfold print_typemap Pprint_typemap at hp
  rw [hi.typeOf hd, Res.ok_bind] at hp
  obtain ⟨q, hq, hp⟩ := Res.bind_eq_ok.1 hp
  cases hp
  obtain ⟨e, -, hq⟩ := Res.bind_eq_ok.1 hq
  obtain ⟨e', -, hq⟩ := Res.bind_eq_ok.1 hq
  obtain ⟨l, -, hq⟩ := Res.bind_eq_ok.1 hq
  cases hq
  have h1 : u64 t.lb = u64 (Spec.lb τ) := ht.lb
  have h2 : u64 t.ub = u64 (Spec.ub (sz env.cfg) τ) := ht.ub
  exact ⟨by show s32 t.lb = _; rw [← s32_u64, h1, s32_u64], by show s32 t.ub = _; rw [← s32_u64, h2, s32_u64]⟩

/-- C78: printouts tell datatypes apart: if two such datatypes look the same, they have the same type map. -/
theorem C78_tells_partial {s : Int → Int} {τ τ' : Spec.DType} {p : Printout} (h : Shows.Type s τ p)
    (h' : Shows.Type s τ' p) : τ.map = τ'.map := by
  have he := h.entries.symm.trans h'.entries
  have hx : ∀ l l' : List Spec.Entry, l.map (fun x => (x.2, s x.2, x.1)) = l'.map (fun x => (x.2, s x.2, x.1)) → l = l' := by
    intro l
    induction l with
    | nil => intro l' h; cases l' with | nil => rfl | cons _ _ => cases h
    | cons a l ih =>
      intro l' h
      cases l' with
      | nil => cases h
      | cons b l' =>
        simp only [List.map_cons, List.cons.injEq, Prod.mk.injEq] at h
        obtain ⟨⟨h1, -, h3⟩, h4⟩ := h
        rw [ih l' h4, Prod.ext h3 h1]
  exact hx _ _ he

/-- C78 fails for large displacements: a char at 2^32 is printed as one at 0.  (Both datatypes have the bounds and the
type map the standard prescribes, and different ones.) -/
theorem C78_fails_wide :
    ∃ t u p, Type_hindexed {} ⟨0, 0, fun _ => ⟨0, 0⟩⟩ 2 [1, 1] [0, 4294967296] (static1 1 0) = .ok t ∧
      Type_hindexed {} ⟨0, 0, fun _ => ⟨0, 0⟩⟩ 2 [1, 1] [0, 0] (static1 1 0) = .ok u ∧
      typeMap t = [(0, 0), (4294967296, 0)] ∧ typeMap u = [(0, 0), (0, 0)] ∧
      Pprint_typemap {} t = .ok p ∧ Pprint_typemap {} u = .ok p := by
  refine ⟨⟨2, 4294967297, 0, 0, 0, 0, [⟨0, 0⟩, ⟨4294967296, 0⟩, ⟨0, 0⟩]⟩, ⟨2, 1, 0, 0, 0, 0, [⟨0, 0⟩, ⟨0, 0⟩, ⟨0, 0⟩]⟩,
    ⟨2, 0, 1, 1, 1, [(0, 1, 0), (0, 1, 0)]⟩, ?_, ?_, ?_, ?_, ?_, ?_⟩ <;> decide

/-- C78_prints_partial, C78_bounds_partial: two chars, two bytes apart (`V4`, handle 2). -/
example : ∃ p, print_typemap env0 V4.s 2 = .ok (V4.s, p) ∧ p = ⟨2, 0, 3, 3, 1, [(0, 1, 0), (0, 1, 2)]⟩ := by
  obtain ⟨p, h, hs⟩ := C78_prints_partial (show Reach env0 V4.s V4.L from V4_ok) cfg_default_ok V4_type vecDesc_describes.1
  obtain ⟨h1, h2⟩ := C78_bounds_partial (show Reach env0 V4.s V4.L from V4_ok) V4_type h vecDesc_describes.2
  refine ⟨p, h, ?_⟩
  have h3 := hs.count
  have h4 := hs.entries
  have h5 := hs.extent
  have h6 := hs.epsilon
  obtain ⟨c, l, u, e, ep, es⟩ := p
  dsimp only at h1 h2 h3 h4 h5 h6
  subst h1 h2 h3 h4 h5 h6
  decide

end MpiSerial
