import Verif.Proofs.DescBuild
import Verif.Props.Types

/-!
# Constructors and queries do not leave the descriptors
-/

set_option linter.unusedSimpArgs false
set_option autoImplicit false

namespace MpiSerial

/-- No access outside an object and none through a null pointer. -/
def Inside {α : Type} (r : Res α) : Prop := ∀ u, r = .ub u → u ≠ .badPtr ∧ u ≠ .nullPtr

section
variable {α β : Type} {x : Res α} {f : α → Res β}

theorem Inside.bind (h : Inside x) (hf : ∀ a, x = .ok a → Inside (f a)) : Inside (x >>= f) := by
  cases x with
  | ok a => rw [Res.ok_bind]; exact hf a rfl
  | ub u =>
    intro u' h'
    have : Res.ub u = (Res.ub u' : Res β) := h'
    cases this
    exact h u rfl
  | _ => intro u h'; exact nomatch h'

theorem Inside.ite {p : Prop} [Decidable p] {y z : Res α} (h1 : p → Inside y) (h2 : ¬ p → Inside z) :
    Inside (if p then y else z) := by
  split
  · next h => exact h1 h
  · next h => exact h2 h

theorem inside_ub {u : UB} (h : u ≠ .badPtr ∧ u ≠ .nullPtr) : Inside (.ub u : Res α) := fun _ h' => by cases h'; exact h
theorem inside_ok (a : α) : Inside (.ok a : Res α) := nofun
theorem inside_pure (a : α) : Inside (pure a : Res α) := nofun
theorem inside_exit (c : Int) : Inside (.exit c : Res α) := nofun

theorem inside_ck32 (v : Int) : Inside (ck32 v) := by
  unfold ck32
  split
  all_goals first | exact inside_ok _ | exact inside_ub (by decide)
theorem inside_ck64 (v : Int) : Inside (ck64 v) := by
  unfold ck64
  split
  all_goals first | exact inside_ok _ | exact inside_ub (by decide)
theorem inside_vla (v : Int) : Inside (vla v) := by
  unfold vla
  split
  all_goals first | exact inside_ok _ | exact inside_ub (by decide)
theorem inside_rd (l : List α) (i : Nat) : Inside (rd l i) := by
  unfold rd
  split
  all_goals first | exact inside_ok _ | exact inside_ub (by decide)
theorem inside_len (cfg : Cfg) (k : Int) : Inside (Simpletype_length cfg k) := by
  unfold Simpletype_length
  split
  all_goals first | exact inside_ok _ | exact inside_exit _

theorem inside_fill {f : Nat → Res α} (h : ∀ i, Inside (f i)) : ∀ n i, Inside (fill f n i)
  | 0, _ => inside_ok _
  | n + 1, i => (h i).bind fun _ _ => (inside_fill h n (i + 1)).bind fun _ _ => inside_pure _
end

section
variable {cfg : Cfg} {t : Typestruct}

theorem inside_pair {k : Nat} (h : k < t.pairs.length) : Inside (t.pair k) := by
  unfold Typestruct.pair
  rw [if_pos (by omega)]
  rw [show ((k : Int).toNat) = k by omega, List.getElem?_eq_getElem h]
  exact inside_ok _

theorem inside_paddingLoop : ∀ (n i : Nat) (m : Int), i + n ≤ t.pairs.length → Inside (calcPaddingLoop cfg t n i m)
  | 0, _, _, _ => inside_ok _
  | n + 1, i, _, h => (inside_pair (by omega)).bind fun _ _ => (inside_len _ _).bind fun _ _ =>
      inside_paddingLoop n (i + 1) _ (by omega)

theorem inside_lbLoop : ∀ (n i : Nat) (m : Int), i + n ≤ t.pairs.length → Inside (calcLbLoop t n i m)
  | 0, _, _, _ => inside_ok _
  | n + 1, i, _, h => (inside_pair (by omega)).bind fun _ _ => inside_lbLoop n (i + 1) _ (by omega)

theorem inside_ubLoop : ∀ (n i : Nat) (m : Int), i + n ≤ t.pairs.length → Inside (calcUbLoop cfg t n i m)
  | 0, _, _, _ => inside_ok _
  | n + 1, i, _, h => (inside_pair (by omega)).bind fun _ _ => (inside_len _ _).bind fun _ _ =>
      (inside_ck64 _).bind fun _ _ => inside_ubLoop n (i + 1) _ (by omega)

theorem inside_sizeLoop : ∀ (n i : Nat) (m : Int), i + n ≤ t.pairs.length → Inside (typeSizeLoop cfg t n i m)
  | 0, _, _, _ => inside_ok _
  | n + 1, i, _, h => (inside_pair (by omega)).bind fun _ _ => (inside_len _ _).bind fun _ _ =>
      (inside_ck32 _).bind fun _ _ => inside_sizeLoop n (i + 1) _ (by omega)

theorem inside_extent (h : t.count.toNat ≤ t.pairs.length) : Inside (Type_extent cfg t) := by
  unfold Type_extent
  refine Inside.ite (fun _ => ?_) fun _ => (inside_ck64 _).bind fun _ _ => inside_pure _
  refine Inside.bind ?_ fun _ _ => (inside_ck64 _).bind fun _ _ => Inside.ite (fun _ => inside_ub (by decide)) fun _ => ?_
  · exact (inside_paddingLoop _ _ _ (by omega)).bind fun _ _ => inside_pure _
  · have tail : ∀ d e : Int, Inside (ck64 (d + e) >>= fun e => pure (u64 e)) := fun _ _ =>
      (inside_ck64 _).bind fun _ _ => inside_pure _
    exact Inside.ite (fun _ => (inside_pure _).bind fun _ _ => tail _ _) fun _ => (inside_ck32 _).bind fun _ _ => tail _ _

theorem inside_size (h : t.count.toNat ≤ t.pairs.length) : Inside (Type_size cfg t) := inside_sizeLoop _ _ _ (by omega)
theorem inside_calc_lb (h : t.count.toNat ≤ t.pairs.length) : Inside (calc_lb t) := inside_lbLoop _ _ _ (by omega)
theorem inside_calc_ub (h : t.count.toNat ≤ t.pairs.length) : Inside (calc_ub cfg t) := inside_ubLoop _ _ _ (by omega)

/-! ## Type_struct -/

/-- The pairs that a block adds. -/
def blockPairs (b : Block) : Nat :=
  match b.ty.pairs with
  | p :: _ => if p.type = SIMPLE_LOWER ∨ p.type = SIMPLE_UPPER then 0 else b.len.toNat * b.ty.count.toNat
  | [] => 0

theorem pair_zero {p : Pair} {ps : List Pair} (h : t.pairs = p :: ps) : t.pair 0 = .ok p := by
  unfold Typestruct.pair
  rw [if_pos (by omega), h]
  rfl

theorem inside_pass1 : ∀ (bs : List Block) (s : Pass1), (∀ b ∈ bs, b.ty.WF) → Inside (structPass1 bs s)
  | [], _, _ => inside_ok _
  | b :: bs, s, h => by
    have hb := h b (List.mem_cons_self ..)
    have ht := fun s => inside_pass1 bs s fun x hx => h x (List.mem_cons_of_mem _ hx)
    have : 0 < b.ty.pairs.length := List.length_pos_iff.2 hb.nonempty
    exact (inside_pair (k := 0) this).bind fun p _ => Inside.ite (fun _ => ht _) fun _ => Inside.ite (fun _ => ht _) fun _ =>
      (inside_ck32 _).bind fun _ _ => (inside_ck32 _).bind fun _ _ => ht _

theorem pass1_total : ∀ (bs : List Block) (s s' : Pass1), (∀ b ∈ bs, b.ty.WF ∧ 0 ≤ b.len) → structPass1 bs s = .ok s' →
    s'.simpletype_count = s.simpletype_count + ((bs.map blockPairs).sum : Nat)
  | [], s, s', _, h => by cases h; simp
  | b :: bs, s, s', hw, h => by
    have hb := hw b (List.mem_cons_self ..)
    have ih := fun s => pass1_total bs s s' fun x hx => hw x (List.mem_cons_of_mem _ hx)
    rw [structPass1] at h
    cases hp : b.ty.pairs with
    | nil => exact absurd hp hb.1.nonempty
    | cons p ps =>
      rw [pair_zero hp, Res.ok_bind] at h
      rw [List.map_cons, List.sum_cons]
      simp only [blockPairs, hp]
      by_cases h1 : p.type = SIMPLE_LOWER
      · rw [if_pos h1] at h
        rw [if_pos (Or.inl h1), ih _ h]; simp
      · rw [if_neg h1] at h
        by_cases h2 : p.type = SIMPLE_UPPER
        · rw [if_pos h2] at h
          rw [if_pos (Or.inr h2), ih _ h]; simp
        · rw [if_neg h2] at h
          rw [if_neg (by simp [h1, h2])]
          obtain ⟨a, ha, h⟩ := Res.bind_eq_ok.1 h
          obtain ⟨c, hc, h⟩ := Res.bind_eq_ok.1 h
          have e1 := (ck32_eq_ok.1 ha).2
          have e2 := (ck32_eq_ok.1 hc).2
          have e3 := ih _ h
          have e4 : b.len * b.ty.count = ((b.len.toNat * b.ty.count.toNat : Nat) : Int) := by
            rw [Int.natCast_mul, Int.toNat_of_nonneg hb.2, Int.toNat_of_nonneg hb.1.nonneg]
          simp only at e3
          omega

theorem copyPairs_spec {ty : Typestruct} {off : Int} : ∀ (n k : Nat) (s : Pass2), k + n ≤ ty.pairs.length →
    s.newcount + n ≤ s.pairs.length → Inside (structCopyPairs ty off n k s) ∧
      ∀ s', structCopyPairs ty off n k s = .ok s' → s'.newcount = s.newcount + n ∧ s'.pairs.length = s.pairs.length
  | 0, _, s, _, _ => ⟨inside_ok _, fun s' h => by cases h; exact ⟨rfl, rfl⟩⟩
  | n + 1, k, s, h1, h2 => by
    rw [structCopyPairs]
    have hs : ∀ p, setPair s.pairs s.newcount p = .ok (s.pairs.set s.newcount p) := fun p => by
      rw [setPair, if_pos (by omega)]
    have ih := fun p : Pair => copyPairs_spec (ty := ty) (off := off) n (k + 1)
      { s with pairs := s.pairs.set s.newcount p, newcount := s.newcount + 1 } (by omega) (by simp; omega)
    refine ⟨(inside_pair (by omega)).bind fun p _ => ?_, fun s' h => ?_⟩
    · rw [hs, Res.ok_bind]; exact (ih _).1
    · obtain ⟨p, _, h⟩ := Res.bind_eq_ok.1 h
      rw [hs, Res.ok_bind] at h
      have := (ih _).2 _ h
      simp at this
      omega

theorem reps_spec {b : Block} (hb : b.ty.WF) : ∀ (n j : Nat) (s : Pass2), s.newcount + n * b.ty.count.toNat ≤ s.pairs.length →
    Inside (structReps cfg b n j s) ∧
      ∀ s', structReps cfg b n j s = .ok s' → s'.newcount = s.newcount + n * b.ty.count.toNat ∧ s'.pairs.length = s.pairs.length
  | 0, _, s, _ => ⟨inside_ok _, fun s' h => by cases h; simp⟩
  | n + 1, j, s, h => by
    rw [structReps]
    have hn : (n + 1) * b.ty.count.toNat = n * b.ty.count.toNat + b.ty.count.toNat := Nat.succ_mul ..
    have hc := fun (off l u : Int) => copyPairs_spec (ty := b.ty) (off := off) b.ty.count.toNat 0
      { s with new_lb := l, new_ub := u } (by have := hb.fits; omega) (by simp only; omega)
    refine ⟨(inside_extent hb.fits).bind fun e _ => (hc _ _ _).1.bind fun s1 h1 => ?_, fun s' h' => ?_⟩
    · have := (hc _ _ _).2 _ h1
      simp only at this
      exact (reps_spec hb n (j + 1) s1 (by omega)).1
    · obtain ⟨e, _, h'⟩ := Res.bind_eq_ok.1 h'
      obtain ⟨s1, h1, h'⟩ := Res.bind_eq_ok.1 h'
      have e1 := (hc _ _ _).2 _ h1
      simp only at e1
      have := (reps_spec hb n (j + 1) s1 (by omega)).2 _ h'
      omega

theorem pass2_spec : ∀ (bs : List Block) (s : Pass2), (∀ b ∈ bs, b.ty.WF) →
    s.newcount + (bs.map blockPairs).sum ≤ s.pairs.length → Inside (structPass2 cfg bs s) ∧
      ∀ s', structPass2 cfg bs s = .ok s' → s'.newcount = s.newcount + (bs.map blockPairs).sum ∧
        s'.pairs.length = s.pairs.length
  | [], s, _, _ => ⟨inside_ok _, fun s' h => by cases h; simp⟩
  | b :: bs, s, hw, h => by
    have hb := hw b (List.mem_cons_self ..)
    have ih := fun s => pass2_spec bs s fun x hx => hw x (List.mem_cons_of_mem _ hx)
    rw [structPass2]
    rw [List.map_cons, List.sum_cons] at h ⊢
    cases hp : b.ty.pairs with
    | nil => exact absurd hp hb.nonempty
    | cons p ps =>
      rw [pair_zero hp, Res.ok_bind]
      simp only [blockPairs, hp] at h ⊢
      by_cases h1 : p.type = SIMPLE_LOWER ∨ p.type = SIMPLE_UPPER
      · rw [if_pos h1] at h ⊢
        rw [if_pos h1, Nat.zero_add]
        exact ih s (by omega)
      · rw [if_neg h1] at h ⊢
        rw [if_neg h1]
        have hr := reps_spec (cfg := cfg) hb b.len.toNat 0 s (by omega)
        refine ⟨hr.1.bind fun s1 h2 => ?_, fun s' h' => ?_⟩
        · have := hr.2 _ h2
          exact (ih s1 (by omega)).1
        · obtain ⟨s1, h2, h'⟩ := Res.bind_eq_ok.1 h'
          have := hr.2 _ h2
          have := (ih s1 (by omega)).2 _ h'
          omega

/-- `Type_struct` stays inside the old descriptors and the new one. -/
theorem inside_struct (g : Garbage) {bs : List Block} (hw : ∀ b ∈ bs, b.ty.WF ∧ 0 ≤ b.len) : Inside (Type_struct cfg g bs) := by
  rw [Type_struct]
  refine (inside_pass1 bs {} fun b hb => (hw b hb).1).bind fun p1 h1 => ?_
  have ht : p1.simpletype_count = ((bs.map blockPairs).sum : Nat) := by
    rw [pass1_total bs {} p1 hw h1]; simp
  rw [if_neg (by omega)]
  have hl : ((List.range (p1.simpletype_count + 1).toNat).map g.pair).length = (bs.map blockPairs).sum + 1 := by
    rw [List.length_map, List.length_range]; omega
  have hp := pass2_spec (cfg := cfg) bs ⟨(List.range (p1.simpletype_count + 1).toNat).map g.pair, 0, p1.new_lb, p1.new_ub⟩
    (fun b hb => (hw b hb).1) (by simp only [hl]; omega)
  refine hp.1.bind fun p2 h2 => ?_
  have h3 := (hp.2 _ h2).2
  simp only [hl] at h3
  have tail : ∀ t : Typestruct, t.count.toNat ≤ t.pairs.length → ∀ lb, Inside (if p1.override_upper = true then
      (pure (s64 p2.new_ub) : Res Int) >>= fun ub => pure { t with lb := lb, ub := ub }
      else calc_ub cfg t >>= fun ub => pure { t with lb := lb, ub := ub }) := fun t ht lb =>
    Inside.ite (fun _ => (inside_pure _).bind fun _ _ => inside_pure _) fun _ =>
      (inside_calc_ub ht).bind fun _ _ => inside_pure _
  exact Inside.ite (fun _ => (inside_pure _).bind fun _ _ => tail _ (by simp only; omega) _) fun _ =>
    (inside_calc_lb (by simp only; omega)).bind fun _ _ => tail _ (by simp only; omega) _

/-- The constructors that make blocks of one old type. -/
theorem inside_uniform {g : Garbage} (hw : t.WF) {f : Nat → Res Block} (hi : ∀ i, Inside (f i))
    (hf : ∀ i b, f i = .ok b → b.ty = t ∧ 0 ≤ b.len) (n : Nat) : Inside (fill f n 0 >>= Type_struct cfg g) := by
  refine (inside_fill hi n 0).bind fun bs hb => inside_struct g fun b hm => ?_
  have key : ∀ n i bs, fill f n i = .ok bs → ∀ b ∈ bs, ∃ i, f i = .ok b := by
    intro n
    induction n with
    | zero => intro i bs h b hb; cases h; cases hb
    | succ n ih =>
      intro i bs h b hb
      obtain ⟨x, hx, h⟩ := Res.bind_eq_ok.1 h
      obtain ⟨xs, hxs, h⟩ := Res.bind_eq_ok.1 h
      cases h
      rcases List.mem_cons.1 hb with rfl | hb
      · exact ⟨i, hx⟩
      · exact ih _ _ hxs b hb
  obtain ⟨i, hi⟩ := key _ _ _ hb b hm
  obtain ⟨h1, h2⟩ := hf i b hi
  exact ⟨h1 ▸ hw, h2⟩

variable (g : Garbage) (hw : t.WF)
include hw

theorem inside_contiguous (n : Int) : Inside (Type_contiguous cfg g n t) :=
  (inside_vla n).bind fun _ _ => (inside_extent hw.fits).bind fun _ _ =>
    inside_uniform hw (fun _ => inside_ok _) (fun _ b h => by cases h; exact ⟨rfl, (by decide : (0 : Int) ≤ 1)⟩) _

theorem inside_hvector (n : Int) {l : Int} (hl : 0 ≤ l) (s : Int) : Inside (Type_hvector cfg g n l s t) :=
  (inside_vla n).bind fun _ _ => (inside_extent hw.fits).bind fun _ _ =>
    inside_uniform hw (fun _ => inside_ok _) (fun _ b h => by cases h; exact ⟨rfl, hl⟩) _

theorem inside_vector (n : Int) {l : Int} (hl : 0 ≤ l) (s : Int) : Inside (Type_vector cfg g n l s t) :=
  (inside_extent hw.fits).bind fun _ _ => inside_hvector g hw n hl _

omit hw in
theorem rd_mem {α : Type} {l : List α} {i : Nat} {x : α} (h : rd l i = .ok x) : x ∈ l := by
  unfold rd at h
  split at h
  · next y hy => cases h; exact List.mem_of_getElem? hy
  · cases h

theorem inside_hindexed (n : Int) {ls : List Int} (hl : ∀ l ∈ ls, 0 ≤ l) (ds : List Int) :
    Inside (Type_hindexed cfg g n ls ds t) :=
  (inside_vla n).bind fun _ _ => inside_uniform hw
    (fun _ => (inside_rd _ _).bind fun _ _ => (inside_rd _ _).bind fun _ _ => inside_pure _)
    (fun _ b h => by
      obtain ⟨l, h1, h⟩ := Res.bind_eq_ok.1 h
      obtain ⟨d, _, h⟩ := Res.bind_eq_ok.1 h
      cases h
      exact ⟨rfl, hl _ (rd_mem h1)⟩) _

theorem inside_indexed (n : Int) {ls : List Int} (hl : ∀ l ∈ ls, 0 ≤ l) (ds : List Int) :
    Inside (Type_indexed cfg g n ls ds t) :=
  (inside_vla n).bind fun _ _ => (inside_fill (fun _ => (inside_extent hw.fits).bind fun _ _ =>
    (inside_rd _ _).bind fun _ _ => inside_pure _) _ _).bind fun _ _ => inside_hindexed g hw n hl _

theorem inside_indexed_block (n : Int) {l : Int} (hl : 0 ≤ l) (ds : List Int) :
    Inside (Type_create_indexed_block cfg g n l ds t) :=
  (inside_vla n).bind fun m _ => (inside_fill (fun _ => inside_ok l) m 0).bind fun ls hls =>
    inside_indexed g hw n (fun x hx => by
      rw [fill_ok] at hls
      rw [← Res.ok.inj hls] at hx
      obtain ⟨_, _, rfl⟩ := List.mem_map.1 hx
      exact hl) ds

end
end MpiSerial
