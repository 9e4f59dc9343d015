import Verif.Model.Types
import Verif.Proofs.DescBuild
import Verif.Proofs.MachineCalls

/-!
# Blocks that follow each other may be joined (C95)
-/

set_option autoImplicit false

namespace MpiSerial

theorem structReps_add (cfg : Cfg) (b : Block) (n1 n2 : Nat) : ∀ (j : Nat) (s : Pass2),
    structReps cfg b (n1 + n2) j s = (structReps cfg b n1 j s >>= structReps cfg b n2 (j + n1)) := by
  induction n1 with
  | zero => intro j s; rw [Nat.zero_add]; rfl
  | succ n ih =>
    intro j s
    rw [show n + 1 + n2 = n + n2 + 1 by omega]
    simp only [structReps, bind_assoc]
    refine Res.bind_congr fun e _ => Res.bind_congr fun s' _ => ?_
    rw [ih, show j + 1 + n = j + (n + 1) by omega]

/-- The repetitions of a block from the `a`-th on are those of the block that begins there. -/
theorem structReps_from {cfg : Cfg} {t : Typestruct} {e : Int} (he : Type_extent cfg t = .ok e) (l l' d : Int) (a n : Nat) :
    ∀ (j : Nat) (s : Pass2), structReps cfg ⟨l, d, t⟩ n (j + a) s = structReps cfg ⟨l', u64 (d + a * e), t⟩ n j s := by
  induction n with
  | zero => intro j s; rfl
  | succ n ih =>
    intro j s
    have hm : ((j + a : Nat) : Int) * e = j * e + a * e := by rw [Int.natCast_add, Int.add_mul]
    have h1 : ∀ x, u64 (u64 (x + d) + u64 (((j + a : Nat) : Int) * e)) = u64 (u64 (x + u64 (d + a * e)) + u64 (j * e)) := by
      intro x; rw [hm]; unfold u64; omega
    have h2 : u64 (d + u64 (((j + a : Nat) : Int) * e)) = u64 (u64 (d + a * e) + u64 (j * e)) := by
      rw [hm]; unfold u64; omega
    simp only [structReps, he, Res.ok_bind, h1, h2]
    refine Res.bind_congr fun s' _ => ?_
    rw [show j + a + 1 = j + 1 + a by omega]
    exact ih (j + 1) s'

theorem structPass2_append (cfg : Cfg) (xs ys : List Block) (s : Pass2) :
    structPass2 cfg (xs ++ ys) s = (structPass2 cfg xs s >>= structPass2 cfg ys) := by
  induction xs generalizing s with
  | nil => rfl
  | cons x xs ih =>
    rw [List.cons_append]
    simp only [structPass2, bind_assoc]
    refine Res.bind_congr fun p _ => ?_
    split
    · exact ih s
    · rw [bind_assoc]; exact Res.bind_congr fun s' _ => ih s'

theorem structPass1_append (xs ys : List Block) (s : Pass1) :
    structPass1 (xs ++ ys) s = (structPass1 xs s >>= structPass1 ys) := by
  induction xs generalizing s with
  | nil => rfl
  | cons x xs ih =>
    rw [List.cons_append]
    simp only [structPass1, bind_assoc]
    refine Res.bind_congr fun p _ => ?_
    split
    · exact ih _
    · split
      · exact ih _
      · simp only [bind_assoc]
        exact Res.bind_congr fun _ _ => Res.bind_congr fun _ _ => ih _

theorem structPass2_join {cfg : Cfg} {t : Typestruct} {e : Int} (he : Type_extent cfg t = .ok e) {a b d : Int} (ha : 0 ≤ a) (hb : 0 ≤ b)
    {p : Pair} (hp : t.pair 0 = .ok p) (hk : p.type ≠ SIMPLE_LOWER ∧ p.type ≠ SIMPLE_UPPER) (ys : List Block) (s : Pass2) :
    structPass2 cfg (⟨a + b, d, t⟩ :: ys) s = structPass2 cfg (⟨a, d, t⟩ :: ⟨b, u64 (d + a * e), t⟩ :: ys) s := by
  have hk' : ¬ (p.type = SIMPLE_LOWER ∨ p.type = SIMPLE_UPPER) := fun h => h.elim hk.1 hk.2
  simp only [structPass2, hp, Res.ok_bind, if_neg hk']
  rw [show (a + b).toNat = a.toNat + b.toNat by omega, structReps_add, bind_assoc]
  have h1 : ∀ j s', structReps cfg ⟨a + b, d, t⟩ a.toNat j s' = structReps cfg ⟨a, d, t⟩ a.toNat j s' := by
    intro j s'
    have h := structReps_from he (a + b) 0 d 0 a.toNat j s'
    have h' := structReps_from he a 0 d 0 a.toNat j s'
    rw [Nat.add_zero] at h h'
    rw [h, h']
  rw [h1]
  refine Res.bind_congr fun s' _ => ?_
  have := structReps_from he (a + b) b d a.toNat b.toNat 0 s'
  rw [Int.toNat_of_nonneg ha] at this
  rw [this]

theorem structPass1_join {t : Typestruct} (hc : 0 ≤ t.count) {a b d d' : Int} (ha : 0 ≤ a) (hb : 0 ≤ b)
    {p : Pair} (hp : t.pair 0 = .ok p) (hk : p.type ≠ SIMPLE_LOWER ∧ p.type ≠ SIMPLE_UPPER) (ys : List Block) (s : Pass1)
    (hs : 0 ≤ s.simpletype_count) :
    structPass1 (⟨a + b, d, t⟩ :: ys) s = structPass1 (⟨a, d, t⟩ :: ⟨b, d', t⟩ :: ys) s := by
  have ha' := Int.mul_nonneg ha hc
  have hb' := Int.mul_nonneg hb hc
  simp only [structPass1, hp, Res.ok_bind, if_neg hk.1, if_neg hk.2, Int.add_mul]
  generalize a * t.count = x at *
  generalize b * t.count = y at *
  unfold ck32
  by_cases h1 : s.simpletype_count + x + y ≤ 2147483647
  · rw [if_pos (by omega), if_pos (by omega)]
    simp only [Res.ok_bind]
    rw [if_pos (by omega), if_pos (by omega)]
    simp only [Res.ok_bind]
    rw [if_pos (by omega)]
    simp only [Res.ok_bind]
    rw [if_pos (by omega)]
    simp only [Res.ok_bind, Bool.or_assoc, Bool.or_self, Int.add_assoc]
  · have hL : ∀ f : Int → Res Pass1, ((if -2147483648 ≤ x + y ∧ x + y ≤ 2147483647 then Res.ok (x + y) else .ub .overflow) >>= fun q =>
        (if -2147483648 ≤ s.simpletype_count + q ∧ s.simpletype_count + q ≤ 2147483647 then Res.ok (s.simpletype_count + q)
          else .ub .overflow) >>= f) = .ub .overflow := by
      intro f
      by_cases h2 : x + y ≤ 2147483647
      · rw [if_pos (by omega), Res.ok_bind, if_neg (by omega)]; rfl
      · rw [if_neg (by omega)]; rfl
    rw [hL]
    by_cases h2 : x ≤ 2147483647
    · rw [if_pos (by omega), Res.ok_bind]
      by_cases h3 : s.simpletype_count + x ≤ 2147483647
      · rw [if_pos (by omega), Res.ok_bind]
        by_cases h4 : y ≤ 2147483647
        · rw [if_pos (by omega), Res.ok_bind, if_neg (by omega)]; rfl
        · rw [if_neg (by omega)]; rfl
      · rw [if_neg (by omega)]; rfl
    · rw [if_neg (by omega)]; rfl

/-- Building with joined blocks. -/
theorem Type_struct_join {cfg : Cfg} {t : Typestruct} {e : Int} (g : Garbage) (he : Type_extent cfg t = .ok e) (hc : 0 ≤ t.count) {a b d : Int}
    (ha : 0 ≤ a) (hb : 0 ≤ b) {p : Pair} (hp : t.pair 0 = .ok p) (hk : p.type ≠ SIMPLE_LOWER ∧ p.type ≠ SIMPLE_UPPER) (xs ys : List Block)
    (hx : ∀ x ∈ xs, 0 ≤ x.len ∧ 0 ≤ x.ty.count) :
    Type_struct cfg g (xs ++ ⟨a + b, d, t⟩ :: ys) = Type_struct cfg g (xs ++ ⟨a, d, t⟩ :: ⟨b, u64 (d + a * e), t⟩ :: ys) := by
  have h1 : structPass1 (xs ++ ⟨a + b, d, t⟩ :: ys) {} = structPass1 (xs ++ ⟨a, d, t⟩ :: ⟨b, u64 (d + a * e), t⟩ :: ys) {} := by
    rw [structPass1_append, structPass1_append]
    refine Res.bind_congr fun q hq => ?_
    exact structPass1_join hc ha hb hp hk ys q (Raw.structPass1_nonneg xs hx {} q (by simp) hq)
  have h2 : ∀ s, structPass2 cfg (xs ++ ⟨a + b, d, t⟩ :: ys) s = structPass2 cfg (xs ++ ⟨a, d, t⟩ :: ⟨b, u64 (d + a * e), t⟩ :: ys) s := by
    intro s
    rw [structPass2_append, structPass2_append]
    exact Res.bind_congr fun q _ => structPass2_join he ha hb hp hk ys q
  unfold Type_struct
  rw [h1]
  simp only [h2]

end MpiSerial
