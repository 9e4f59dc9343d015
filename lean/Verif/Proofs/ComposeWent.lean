import Verif.Proofs.ComposeOwn

/-!
# A call of one part, on the machine of all and on its own
-/

set_option linter.unusedSimpArgs false
set_option linter.unusedSectionVars false
set_option autoImplicit false

namespace MpiSerial

open Res (Sub)

/-! ## Handle numbers -/

namespace Pool

/-- The numbers of the next `n` blocks. -/
def blocksFrom : Nat → Nat → List Int
  | _, 0 => []
  | b, n + 1 => (256 * b : Int) :: block b ++ blocksFrom (b + 1) n

/-- All numbers left, in the order in which they are handed out. -/
def nums (P : Pool) : List Int := P.free ++ blocksFrom P.blocks (1024 - P.blocks)

/-- `Q` hands out the numbers `P` hands out, and goes on. -/
def Leads (P Q : Pool) : Prop := P.blocks ≤ 1024 ∧ Q.blocks = 1024 ∧ ∃ rest, Q.free = P.nums ++ rest

theorem nums_take {P P' : Pool} {h : Int} (hb : P.blocks ≤ 1024) (ht : P.take = some (h, P')) : P.nums = h :: P'.nums ∧ P'.blocks ≤ 1024 := by
  obtain ⟨fl, b⟩ := P
  cases fl with
  | cons x fl => cases ht; exact ⟨rfl, hb⟩
  | nil =>
    unfold take at ht
    dsimp only at ht hb
    split at ht
    · cases ht
    · next hne =>
      cases ht
      refine ⟨?_, by dsimp only; omega⟩
      unfold nums
      dsimp only
      rw [show 1024 - b = (1024 - (b + 1)) + 1 by omega]
      rfl

theorem nums_none {P : Pool} (ht : P.take = none) : P.nums = [] := by
  obtain ⟨fl, b⟩ := P
  cases fl with
  | cons x fl => cases ht
  | nil =>
    unfold take at ht
    dsimp only at ht
    split at ht
    · next h => subst h; rfl
    · cases ht

theorem Leads.take {P P' Q : Pool} {h : Int} (hl : P.Leads Q) (ht : P.take = some (h, P')) : ∃ Q', Q.take = some (h, Q') ∧ P'.Leads Q' := by
  obtain ⟨h1, h2, rest, h3⟩ := hl
  obtain ⟨h4, h5⟩ := nums_take h1 ht
  obtain ⟨fl, b⟩ := Q
  dsimp only at h2 h3
  rw [h4] at h3
  subst h3
  exact ⟨_, rfl, h5, h2, rest, rfl⟩

theorem Leads.give {P Q : Pool} (hl : P.Leads Q) (h : Int) : (P.give h).Leads (Q.give h) := by
  obtain ⟨h1, h2, rest, h3⟩ := hl
  refine ⟨h1, h2, rest, ?_⟩
  show h :: Q.free = h :: P.free ++ _ ++ rest
  rw [h3]
  rfl

theorem blocksFrom_length : ∀ n b, (blocksFrom b n).length = 256 * n
  | 0, _ => rfl
  | n + 1, b => by
    unfold blocksFrom
    rw [List.cons_append, List.length_cons, List.length_append, blocksFrom_length n (b + 1)]
    simp only [block, List.length_map, List.length_range']
    omega

theorem nums_length (P : Pool) : P.nums.length = P.left := by
  unfold nums left
  rw [List.length_append, blocksFrom_length]

theorem mem_block {b : Nat} {x : Int} (h : x ∈ block b) : 256 * (b : Int) < x ∧ x < 256 * (b : Int) + 256 := by
  obtain ⟨i, hi, rfl⟩ := List.mem_map.1 h
  have := List.mem_range'_1.1 hi
  omega

theorem block_nodup (b : Nat) : (block b).Nodup := by
  unfold block
  refine List.Pairwise.map _ (R := fun a b => a ≠ b) (fun a b h e => h (by omega)) (List.nodup_range' (step := 1))

theorem blocksFrom_mem : ∀ n b x, x ∈ blocksFrom b n → 256 * (b : Int) ≤ x
  | 0, _, _, h => nomatch h
  | n + 1, b, x, h => by
    unfold blocksFrom at h
    rcases List.mem_append.1 h with h | h
    · rcases List.mem_cons.1 h with rfl | h
      · exact Int.le_refl _
      · have := mem_block h; omega
    · have := blocksFrom_mem n (b + 1) x h
      omega

theorem blocksFrom_nodup : ∀ n b, (blocksFrom b n).Nodup
  | 0, _ => .nil
  | n + 1, b => by
    unfold blocksFrom
    refine List.nodup_append.2 ⟨List.nodup_cons.2 ⟨fun h => ?_, block_nodup b⟩, blocksFrom_nodup n (b + 1), fun x hx y hy e => ?_⟩
    · have := mem_block h; omega
    · have h1 := blocksFrom_mem n (b + 1) y hy
      rcases List.mem_cons.1 hx with rfl | h
      · omega
      · have := mem_block h; omega

theorem Serves.nums {used : Int → Prop} {n : Nat} {P : Pool} (hs : P.Serves used n) :
    P.nums.Nodup ∧ ∀ h ∈ P.nums, 0 < h ∧ ¬ used h := by
  have hb := hs.blocks
  by_cases h1024 : P.blocks = 1024
  · have e : P.nums = P.free := by
      unfold Pool.nums
      rw [h1024]
      exact List.append_nil _
    rw [e]
    exact ⟨hs.distinct, hs.unused⟩
  · have hl := hs.later h1024
    constructor
    · refine List.nodup_append.2 ⟨hs.distinct, blocksFrom_nodup _ _, fun x hx y hy e => ?_⟩
      have h1 := hl x (.inr hx)
      have h2 := blocksFrom_mem _ _ y hy
      omega
    · intro h hh
      rcases List.mem_append.1 hh with hh | hh
      · exact hs.unused h hh
      · have h2 := blocksFrom_mem _ _ h hh
        refine ⟨by omega, fun hu => ?_⟩
        have := hl h (.inl hu)
        omega

/-- `k` numbers above `B`. -/
def above (B : Int) : Nat → List Int
  | 0 => []
  | k + 1 => (B + k + 1) :: above B k

theorem above_spec (B : Int) : ∀ k, (above B k).Nodup ∧ (above B k).length = k ∧ ∀ x ∈ above B k, B < x ∧ x ≤ B + k
  | 0 => ⟨.nil, rfl, fun _ h => nomatch h⟩
  | k + 1 => by
    obtain ⟨h1, h2, h3⟩ := above_spec B k
    refine ⟨List.nodup_cons.2 ⟨fun h => ?_, h1⟩, by rw [above, List.length_cons, h2], fun x hx => ?_⟩
    · have := h3 _ h; omega
    · rcases List.mem_cons.1 hx with rfl | hx
      · omega
      · have := h3 x hx; omega

theorem exists_above (l : List Int) : ∃ B : Int, 0 < B ∧ ∀ x ∈ l, x ≤ B := by
  induction l with
  | nil => exact ⟨1, by decide, fun _ h => nomatch h⟩
  | cons a l ih =>
    obtain ⟨B, h1, h2⟩ := ih
    refine ⟨if a ≤ B then B else a, by split <;> omega, fun x hx => ?_⟩
    rcases List.mem_cons.1 hx with rfl | hx
    · split <;> omega
    · have := h2 x hx
      split <;> omega

/-- A stock for the part that hands out the numbers of the stock of all. -/
theorem Serves.leader {used : Int → Prop} {n : Nat} {P : Pool} (hs : P.Serves used n) (l : List Int) (hl : ∀ h ∈ l, used h) (h1 : (1 : Int) ∈ l)
    {k : Nat} (hk : P.left ≤ k) : ∃ Q : Pool, P.Leads Q ∧ Q.Serves (fun h => h ∈ l) k := by
  obtain ⟨B, hB, hx⟩ := exists_above (P.nums ++ l)
  obtain ⟨a1, a2, a3⟩ := above_spec B (k - P.left)
  obtain ⟨n1, n2⟩ := hs.nums
  refine ⟨⟨P.nums ++ above B (k - P.left), 1024⟩, ⟨hs.blocks.2, rfl, _, rfl⟩, ?_, ?_, fun h => absurd rfl h, ⟨by dsimp only; omega, Nat.le_refl _⟩, ?_, fun h => absurd h1 h⟩
  · refine List.nodup_append.2 ⟨n1, a1, fun x hx1 y hy e => ?_⟩
    have := hx x (List.mem_append_left _ hx1)
    have := a3 y hy
    omega
  · intro h hh
    rcases List.mem_append.1 hh with hh | hh
    · exact ⟨(n2 h hh).1, fun hm => (n2 h hh).2 (hl h hm)⟩
    · have := a3 h hh
      refine ⟨by omega, fun hm => ?_⟩
      have := hx h (List.mem_append_right _ hm)
      omega
  · show (P.nums ++ above B (k - P.left)).length + 256 * (1024 - 1024) = k
    rw [List.length_append, nums_length, a2]
    omega

end Pool

/-! ## Before and after -/

/-- In use, but not by the part. -/
def Foreign (M N : Mach) (h : Int) : Prop := M.uses h ∧ ¬ N.uses h

structure Beside (R : Int → Bool) (w : Bool) (M N : Mach) : Prop where
  sane : Sane M
  sane' : Sane N
  part : ∃ φ ψ, Part φ ψ w M N
  lead : M.pool.Leads N.pool
  mem : N.mem = M.mem.part R

/-- The handles the part may release, and the communicators it may use for messages. -/
abbrev Mine (M N : Mach) : Int → Prop := fun h => ¬ Foreign M N h
abbrev Talks (w : Bool) (M N : Mach) : Int → Prop := fun x => ¬ Foreign M N x ∧ (x = 1 → w = true)

structure Went (R : Int → Bool) (w : Bool) (M N M' N' : Mach) : Prop extends Beside R w M' N' where
  moves : Moves (Mine M N) (Talks w M N) M M'
  kept : ∀ h, Foreign M N h → Foreign M' N' h
  outside : ∀ a, R a = false → M'.mem a = M.mem a

section
variable {R : Int → Bool} {w : Bool} {M N M' N' M'' N'' : Mach}

theorem Went.refl (hP : Beside R w M N) : Went R w M N M N := { hP with moves := .nil, kept := fun _ h => h, outside := fun _ _ => rfl }

theorem Went.trans (h1 : Went R w M N M' N') (h2 : Went R w M' N' M'' N'') : Went R w M N M'' N'' :=
  { h2.toBeside with
    moves := h1.moves.trans (h2.moves.mono (fun h hm hf => hm (h1.kept h hf)) fun h hm => ⟨fun hf => hm.1 (h1.kept h hf), hm.2⟩)
    kept := fun h hf => h2.kept h (h1.kept h hf)
    outside := fun a ha => (h2.outside a ha).trans (h1.outside a ha) }

theorem Beside.step (hP : Beside R w M N) (m1 : Move (Mine M N) (Talks w M N) M M') (m2 : Move (fun _ => True) (fun _ => True) N N')
    (hp : ∃ φ ψ, Part φ ψ w M' N') (hl : M'.pool.Leads N'.pool) (hm : Confined R M.mem M'.mem N'.mem) (hk : ∀ h, Foreign M N h → Foreign M' N' h) :
    Went R w M N M' N' :=
  { sane := m1.sane hP.sane, sane' := m2.sane hP.sane', part := hp, lead := hl, mem := hm.1, moves := .one m1, kept := hk, outside := hm.2 }

namespace Beside
variable (hP : Beside R w M N) {env : Env}
include hP

theorem mine {h : Int} (hu : N.uses h) : Mine M N h := fun hf => hf.2 hu

theorem inside : Confined R M.mem M.mem N.mem := ⟨hP.mem, fun _ _ => rfl⟩

/-- Handles of the others are kept when something is added. -/
theorem keep_add {h : Int} {o o' : Obj} {L L' : Ledger} {P Q : Pool} {m m' : Mem} {b b' : Nat} (hn : ¬ M.uses h)
    (e1 : L.objs = (h, o) :: M.L.objs) (e2 : L'.objs = (h, o') :: N.L.objs) :
    ∀ x, Foreign M N x → Foreign ⟨L, P, m, b⟩ ⟨L', Q, m', b'⟩ x := by
  rintro x ⟨⟨p, hp⟩, hx⟩
  refine ⟨⟨p, by dsimp only; rw [e1]; exact List.mem_cons_of_mem _ hp⟩, ?_⟩
  rintro ⟨q, hq⟩
  dsimp only at hq
  rw [e2] at hq
  rcases List.mem_cons.1 hq with he | hq
  · exact hn ⟨p, by rw [← (Prod.mk.inj he).1]; exact hp⟩
  · exact hx ⟨q, hq⟩

theorem keep_drop {h : Int} {L L' : Ledger} {P Q : Pool} {m m' : Mem} {b b' : Nat} (hu : N.uses h)
    (e1 : L.objs = (M.L.release h).objs) (e2 : L'.objs = (N.L.release h).objs) :
    ∀ x, Foreign M N x → Foreign ⟨L, P, m, b⟩ ⟨L', Q, m', b'⟩ x := by
  rintro x ⟨⟨p, hp⟩, hx⟩
  refine ⟨⟨p, ?_⟩, ?_⟩
  · dsimp only
    rw [e1]
    exact List.mem_filter.2 ⟨hp, decide_eq_true fun e : x = h => hx (e ▸ hu)⟩
  · rintro ⟨q, hq⟩
    dsimp only at hq
    rw [e2] at hq
    exact hx ⟨q, (List.mem_filter.1 hq).1⟩

/-- A new handle number. -/
structure TakenTwo (M N : Mach) (x y : Mach × Int) : Prop where
  same : x.2 = y.2
  take : ∃ P, M.pool.take = some (x.2, P) ∧ x.1 = { M with pool := P }
  take' : ∃ Q, N.pool.take = some (x.2, Q) ∧ y.1 = { N with pool := Q }
  lead : x.1.pool.Leads y.1.pool
  new : ¬ M.uses x.2
  pos : 1 < x.2

theorem fresh : M.fresh.Sub (TakenTwo M N) N.fresh := by
  unfold Mach.fresh
  cases ht : M.pool.take with
  | none => exact .inr (.inl rfl)
  | some x =>
    obtain ⟨h, P⟩ := x
    obtain ⟨Q, h1, h2⟩ := hP.lead.take ht
    rw [h1]
    obtain ⟨_, _, h3, h4⟩ := hP.sane.taken ht
    exact .ok ⟨rfl, ⟨P, ht, rfl⟩, ⟨Q, h1, rfl⟩, h2, h4, h3⟩

theorem memory {m m' : Mem} (h : Confined R M.mem m m') : Went R w M N { M with mem := m } { N with mem := m' } := by
  obtain ⟨φ, ψ, hp⟩ := hP.part
  exact hP.step (.memory m) (.memory m') ⟨φ, ψ, hp.objs, hp.ops, hp.mono, hp.inj, hp.bound, hp.own, hp.mine, hp.only, hp.typed⟩ hP.lead h fun _ h => h

theorem comm {x y : Mach × Int} (ht : TakenTwo M N x y) :
    Went R w M N { x.1 with L := x.1.L.addComm x.2 } { y.1 with L := y.1.L.addComm y.2 } := by
  obtain ⟨φ, ψ, hp⟩ := hP.part
  obtain ⟨P, t1, e1⟩ := ht.take
  obtain ⟨Q, t2, e2⟩ := ht.take'
  have hl := ht.lead
  have hg := ht.pos
  rw [← ht.same, e1, e2]
  rw [e1, e2] at hl
  obtain ⟨ψ', h1⟩ := hp.newComm hP.sane hP.sane' (P := P) (Q := Q) (m := M.mem) (m' := N.mem) (b := M.built) (b' := N.built) ht.new (by omega)
  exact hP.step (.comm t1) (.comm t2) ⟨φ, ψ', h1⟩ hl hP.inside
    (hP.keep_add (L := M.L.addComm x.2) (L' := N.L.addComm x.2) ht.new rfl rfl)

theorem newComm : M.newComm.Sub (fun x y => x.2 = y.2 ∧ Went R w M N x.1 y.1) N.newComm := by
  unfold Mach.newComm
  exact Sub.bind hP.fresh fun x y _ _ ht => .ok ⟨ht.same, hP.comm ht⟩

theorem newType (hst : env.Steady) (build : Garbage → Res Typestruct) :
    (M.newType env build).Sub (fun x y => x.2 = y.2 ∧ Went R w M N x.1 y.1) (N.newType env build) := by
  unfold Mach.newType
  refine Sub.bind hP.fresh fun x y _ _ ht => ?_
  dsimp only
  rw [hst x.1.built, hst y.1.built]
  refine Sub.same fun t _ => .ok ⟨ht.same, ?_⟩
  obtain ⟨φ, ψ, hp⟩ := hP.part
  obtain ⟨P, t1, e1⟩ := ht.take
  obtain ⟨Q, t2, e2⟩ := ht.take'
  have hl := ht.lead
  have hg := ht.pos
  dsimp only
  rw [← ht.same, e1, e2]
  rw [e1, e2] at hl
  have h1 := hp.newType hP.sane hP.sane' (P := P) (Q := Q) (m := M.mem) (m' := N.mem) (b := M.built + 1) (b' := N.built + 1) ht.new (by omega) t
  exact hP.step (.type t t1) (.type t t2) ⟨φ, ψ, h1⟩ hl hP.inside
    (hP.keep_add (L := M.L.addType x.2 t) (L' := N.L.addType x.2 t) ht.new rfl rfl)

theorem type (h : Int) : (M.type env h).Sub (fun x y => x = y) (N.type env h) := by
  obtain ⟨φ, ψ, hp⟩ := hP.part
  exact hp.type hP.sane h

theorem types (ts : List Int) : (M.types env ts).Sub (fun x y => x = y) (N.types env ts) := by
  obtain ⟨φ, ψ, hp⟩ := hP.part
  exact hp.types hP.sane ts

theorem hasType {t : Int} (h : HasType N.L t) : HasType M.L t := by
  obtain ⟨φ, ψ, hp⟩ := hP.part
  exact h.imp id fun ⟨d, hd⟩ => ⟨d, hp.objs _ _ hd⟩

theorem copy (a n t b k u : Int) : (M.copy env a n t b k u).Sub
    (fun x y => ∃ m m', x = { M with mem := m } ∧ y = { N with mem := m' } ∧ Confined R M.mem m m') (N.copy env a n t b k u) := by
  unfold Mach.copy
  refine Sub.bind (hP.type t) fun d d' _ _ e => ?_
  subst e
  refine Sub.bind (hP.type u) fun d' d'' _ _ e => ?_
  subst e
  rw [hP.mem]
  exact Sub.bind (Pcopy_data2_confined M.mem a n d b k d') fun x y _ _ h => .ok ⟨x, y, rfl, rfl, h⟩

theorem copyWent (a n t b k u : Int) : (M.copy env a n t b k u).Sub (Went R w M N) (N.copy env a n t b k u) :=
  (hP.copy a n t b k u).mono fun x y _ _ ⟨m, m', h1, h2, h3⟩ => by subst h1 h2; exact hP.memory h3

/-! ## Messages -/

/-- A new request. -/
def Posted (R : Int → Bool) (w : Bool) (M N : Mach) (x y : Mach × Int) : Prop :=
  x.2 = y.2 ∧ Went R w M N x.1 y.1 ∧ (∀ e ∈ N.L.objs, e ∈ y.1.L.objs) ∧ ∃ i, (y.2, Obj.req i) ∈ y.1.L.objs

theorem postNull {x y : Mach × Int} (ht : TakenTwo M N x y) (k : Kind) (g b n t : Int) :
    Posted R w M N ({ x.1 with L := x.1.L.postNull k g b n t x.2 }, x.2) ({ y.1 with L := y.1.L.postNull k g b n t y.2 }, y.2) := by
  obtain ⟨φ, ψ, hp⟩ := hP.part
  obtain ⟨P, t1, e1⟩ := ht.take
  obtain ⟨Q, t2, e2⟩ := ht.take'
  have hl := ht.lead
  have hg := ht.pos
  refine ⟨ht.same, ?_⟩
  dsimp only
  rw [← ht.same, e1, e2]
  rw [e1, e2] at hl
  obtain ⟨φ', h1⟩ := hp.postNull hP.sane hP.sane' (P := P) (Q := Q) (m := M.mem) (m' := N.mem) (b := M.built) (b' := N.built) k g b n t ht.new (by omega)
  exact ⟨hP.step (.postNull k g b n t t1) (.postNull k g b n t t2) ⟨φ', ψ, h1⟩ hl hP.inside
    (hP.keep_add (L := M.L.postNull k g b n t x.2) (L' := N.L.postNull k g b n t x.2) ht.new rfl rfl),
    fun e he => List.mem_cons_of_mem _ he, _, List.mem_cons_self ..⟩

theorem post {x y : Mach × Int} (ht : TakenTwo M N x y) (k : Kind) {φ ψ : Nat → Nat} (hp : Part φ ψ w M N) {c : Nat} {comm : Int}
    (hc : (comm, Obj.comm c) ∈ N.L.objs) (hw : comm = 1 → w = true) (g b n : Int) {t : Int} (hty : HasType N.L t) {m m' : Mem} (hm : Confined R M.mem m m') :
    Posted R w M N ({ x.1 with L := x.1.L.post k (ψ c) g b n t x.2, mem := m }, x.2) ({ y.1 with L := y.1.L.post k c g b n t y.2, mem := m' }, y.2) := by
  obtain ⟨P, t1, e1⟩ := ht.take
  obtain ⟨Q, t2, e2⟩ := ht.take'
  have hl := ht.lead
  have hg := ht.pos
  refine ⟨ht.same, ?_⟩
  dsimp only
  rw [← ht.same, e1, e2]
  rw [e1, e2] at hl
  have hw' : w = true ∨ c ≠ 0 := by
    by_cases h0 : c = 0
    · subst h0
      exact .inl (hw (hP.sane'.first _ hc))
    · exact .inr h0
  obtain ⟨φ', h1⟩ := hp.post hP.sane hP.sane' k (hP.sane'.comms _ _ hc) hw' (P := P) (Q := Q) (m := m) (m' := m') (b := M.built) (b' := N.built) g b n t ht.new
    (by omega)
  refine ⟨hP.step (.post k g b n m t1 (hp.objs _ _ hc) ⟨hP.mine ⟨_, hc⟩, hw⟩ (hP.hasType hty) ?_) (.post k g b n m' t2 hc trivial hty (.inr trivial)) ⟨φ', ψ, h1⟩ hl hm
    (hP.keep_add (L := M.L.post k (ψ c) g b n t x.2) (L' := N.L.post k c g b n t x.2) ht.new (post_objs_eq ..) (post_objs_eq ..)), fun e he => ?_, N.L.ops.length, ?_⟩
  · exact hty.imp id fun ⟨d, hd⟩ => hP.mine ⟨_, hd⟩
  · dsimp only
    rw [post_objs_eq]
    exact List.mem_cons_of_mem _ he
  · dsimp only
    rw [post_objs_eq]
    exact List.mem_cons_self ..

omit hP in
theorem copy_pool (K : Mach) (P : Pool) (a n t b k u : Int) : ({ K with pool := P } : Mach).copy env a n t b k u =
    K.copy env a n t b k u >>= fun K => .ok { K with pool := P } := by
  unfold Mach.copy Mach.type
  dsimp only
  cases K.L.desc env.cfg t with
  | none => rfl
  | some d =>
    cases K.L.desc env.cfg u with
    | none => rfl
    | some d' =>
      simp only [Res.ok_bind]
      cases Pcopy_data2 env.cfg K.mem a n d b k d' <;> rfl

/-- With a number taken, the machines are still a pair as far as copying goes. -/
theorem copyTaken {x y : Mach × Int} (ht : TakenTwo M N x y) (a n t b k u : Int) : (x.1.copy env a n t b k u).Sub
    (fun p q => ∃ m m', p = { x.1 with mem := m } ∧ q = { y.1 with mem := m' } ∧ Confined R M.mem m m') (y.1.copy env a n t b k u) := by
  obtain ⟨P, t1, e1⟩ := ht.take
  obtain ⟨Q, t2, e2⟩ := ht.take'
  have h := hP.copy (env := env) a n t b k u
  have g1 : x.1.copy env a n t b k u = M.copy env a n t b k u >>= fun K => .ok { K with pool := P } := by
    rw [e1]; exact copy_pool ..
  have g2 : y.1.copy env a n t b k u = N.copy env a n t b k u >>= fun K => .ok { K with pool := Q } := by
    rw [e2]; exact copy_pool ..
  rw [g1, g2]
  refine Sub.bind h fun p q _ _ ⟨m, m', h1, h2, h3⟩ => ?_
  subst h1 h2
  exact .ok ⟨m, m', by rw [e1], by rw [e2], h3⟩

theorem isend {b n t d g c : Int} (hty : HasType N.L t) (hw : c = 1 → w = true) :
    (M.isend env b n t d g c).Sub (Posted R w M N) (N.isend env b n t d g c) := by
  obtain ⟨φ, ψ, hp⟩ := hP.part
  unfold Mach.isend
  refine Sub.ite (fun _ => .abort) fun _ => ?_
  refine Sub.bind hP.fresh fun x y _ _ ht => ?_
  obtain ⟨P, t1, e1⟩ := ht.take
  obtain ⟨Q, t2, e2⟩ := ht.take'
  dsimp only
  refine Sub.ite (fun _ => .ok (hP.postNull ht ..)) fun _ => ?_
  have g1 : x.1.cid c = M.cid c := by rw [e1]; rfl
  have g2 : y.1.cid c = N.cid c := by rw [e2]; rfl
  have g3 : x.1.L = M.L := by rw [e1]
  have g4 : y.1.L = N.L := by rw [e2]
  have g5 : x.1.mem = M.mem := by rw [e1]
  have g6 : y.1.mem = N.mem := by rw [e2]
  rw [g1, g2]
  refine Sub.bind (hp.cid hP.sane c) fun i j _ _ ⟨h1, h2⟩ => ?_
  subst h1
  have hw' : w = true ∨ j ≠ 0 := by
    by_cases h0 : j = 0
    · subst h0
      exact .inl (hw (hP.sane'.first _ h2))
    · exact .inr h0
  have hpt := hp.partner hP.sane' (hP.sane'.comms _ _ h2) hw' .send g
  rw [g3, g4, hpt]
  have fin : ∀ m m', Confined R M.mem m m' →
      Posted R w M N ({ x.1 with L := M.L.post .send (ψ j) g b n t x.2, mem := m }, x.2) ({ y.1 with L := N.L.post .send j g b n t y.2, mem := m' }, y.2) :=
    fun m m' hm => by
      have := hP.post ht .send hp h2 hw g b n hty hm
      rw [g3, g4] at this
      exact this
  cases hj : N.L.partner j .send g with
  | none =>
    have := fin M.mem N.mem hP.inside
    rw [← g5, ← g6] at this
    exact .ok this
  | some i =>
    dsimp only [Option.map]
    cases hi : N.L.ops[i]? with
    | none => exact .ub
    | some o =>
      obtain ⟨d, g7, _⟩ := hp.ops i o hi
      rw [g7]
      refine Sub.bind (hP.copyTaken ht ..) fun p q _ _ ⟨m, m', e3, e4, hm⟩ => ?_
      subst e3 e4
      dsimp only
      rw [g3, g4]
      exact .ok (fin m m' hm)

theorem irecv {b n t d g c : Int} (hty : HasType N.L t) (hw : c = 1 → w = true) :
    (M.irecv env b n t d g c).Sub (Posted R w M N) (N.irecv env b n t d g c) := by
  obtain ⟨φ, ψ, hp⟩ := hP.part
  unfold Mach.irecv
  refine Sub.ite (fun _ => .abort) fun _ => ?_
  refine Sub.bind hP.fresh fun x y _ _ ht => ?_
  obtain ⟨P, t1, e1⟩ := ht.take
  obtain ⟨Q, t2, e2⟩ := ht.take'
  dsimp only
  refine Sub.ite (fun _ => .ok (hP.postNull ht ..)) fun _ => ?_
  have g1 : x.1.cid c = M.cid c := by rw [e1]; rfl
  have g2 : y.1.cid c = N.cid c := by rw [e2]; rfl
  have g3 : x.1.L = M.L := by rw [e1]
  have g4 : y.1.L = N.L := by rw [e2]
  have g5 : x.1.mem = M.mem := by rw [e1]
  have g6 : y.1.mem = N.mem := by rw [e2]
  rw [g1, g2]
  refine Sub.bind (hp.cid hP.sane c) fun i j _ _ ⟨h1, h2⟩ => ?_
  subst h1
  have hw' : w = true ∨ j ≠ 0 := by
    by_cases h0 : j = 0
    · subst h0
      exact .inl (hw (hP.sane'.first _ h2))
    · exact .inr h0
  have hpt := hp.partner hP.sane' (hP.sane'.comms _ _ h2) hw' .recv g
  rw [g3, g4, hpt]
  have fin : ∀ m m', Confined R M.mem m m' →
      Posted R w M N ({ x.1 with L := M.L.post .recv (ψ j) g b n t x.2, mem := m }, x.2) ({ y.1 with L := N.L.post .recv j g b n t y.2, mem := m' }, y.2) :=
    fun m m' hm => by
      have := hP.post ht .recv hp h2 hw g b n hty hm
      rw [g3, g4] at this
      exact this
  cases hj : N.L.partner j .recv g with
  | none =>
    have := fin M.mem N.mem hP.inside
    rw [← g5, ← g6] at this
    exact .ok this
  | some i =>
    dsimp only [Option.map]
    cases hi : N.L.ops[i]? with
    | none => exact .ub
    | some o =>
      obtain ⟨d, g7, _⟩ := hp.ops i o hi
      rw [g7]
      refine Sub.bind (hP.copyTaken ht ..) fun p q _ _ ⟨m, m', e3, e4, hm⟩ => ?_
      subst e3 e4
      dsimp only
      rw [g3, g4]
      exact .ok (fin m m' hm)

/-! ## Completion -/

theorem release {h : Int} {o : Obj} (hm : (h, o) ∈ N.L.objs) (h1 : h ≠ 1) (ht : ∀ t, o = .dtype t → ∀ q, InFlight N.L q → q.dtype ≠ h) :
    Went R w M N (M.release h) (N.release h) := by
  obtain ⟨φ, ψ, hp⟩ := hP.part
  refine hP.step (.release (hp.objs _ _ hm) h1 (hP.mine ⟨_, hm⟩) ?_) (.release hm h1 trivial fun t e q hq hst x hx => ht t e q ⟨hq, hst, x, hx⟩)
    ⟨φ, ψ, hp.gone hP.sane hP.sane' h rfl rfl rfl rfl rfl rfl⟩ (hP.lead.give h) hP.inside (hP.keep_drop ⟨_, hm⟩ rfl rfl)
  intro t e q hq hst x hx he
  have e : o = .dtype t := by
    cases o with
    | dtype d => exact e
    | _ => cases e
  obtain ⟨j, hj⟩ := List.mem_iff_getElem?.1 hq
  obtain ⟨i, hi, hij⟩ := hp.typed j q x hj hst hx (he ▸ ⟨_, hm⟩)
  subst hij
  obtain ⟨c, k1, k2⟩ := hp.ops i _ (List.getElem?_eq_getElem hi)
  rw [hj] at k1
  have k1 := Option.some.inj k1
  have hst' : (N.L.ops[i]).st = .pending := by
    rw [k1] at hst
    exact OpSt.at_pending.1 hst
  have hmem := List.getElem_mem hi
  have hc : c = ψ (N.L.ops[i]).cid := k2 hst'
  have hx' : (x, Obj.comm (N.L.ops[i]).cid) ∈ N.L.objs := by
    refine hp.only x _ ?_ (hP.sane'.cids _ hmem hst') (hp.mine _ hmem hst')
    rw [k1] at hx
    rw [← hc]
    exact hx
  refine ht t e _ ⟨hmem, hst', x, hx'⟩ ?_
  rw [k1] at he
  exact he

/-- The results of a completion call. -/
def Done (R : Int → Bool) (w : Bool) (M N : Mach) (x y : Tested) : Prop :=
  x.request = y.request ∧ x.flag = y.flag ∧ x.status = y.status ∧ Went R w M N x.mach y.mach ∧
    ∀ h o, (h, o) ∈ N.L.objs → (∀ i, o ≠ .req i) → (h, o) ∈ y.mach.L.objs

theorem test (h : Int) (st : StPtr) : (M.test h st).Sub (Done R w M N) (N.test h st) := by
  obtain ⟨φ, ψ, hp⟩ := hP.part
  unfold Mach.test
  refine Sub.ite (fun _ => Sub.same fun _ _ => .ok ⟨rfl, rfl, rfl, .refl hP, fun _ _ h _ => h⟩) fun h0 => ?_
  refine Sub.bind (hp.op hP.sane h) fun x y _ _ ⟨⟨i, h1⟩, h2, c, h3⟩ => ?_
  have hr := hp.result h2 hP.sane'.links h3
  have hst : x.st = .pending ↔ y.st = .pending := by rw [h3]; exact OpSt.at_pending
  by_cases hpd : y.st = .pending
  · rw [if_pos hpd, if_pos (hst.2 hpd)]
    exact .ok ⟨rfl, rfl, rfl, .refl hP, fun _ _ h _ => h⟩
  · rw [if_neg hpd, if_neg (fun e => hpd (hst.1 e)), hr]
    refine Sub.same fun _ _ => .ok ⟨rfl, rfl, rfl, hP.release h1 (fun e => ?_) fun _ e => (nomatch e), fun a o ha ho => ?_⟩
    · subst e
      cases hP.sane'.unique h1 hP.sane'.world
    · refine List.mem_filter.2 ⟨ha, decide_eq_true fun e : a = h => ?_⟩
      subst e
      exact ho i (hP.sane'.unique ha h1)

/-- The results of MPI_Wait. -/
def Waited (R : Int → Bool) (w : Bool) (M N : Mach) (x y : Mach × Int × StPtr) : Prop :=
  x.2 = y.2 ∧ Went R w M N x.1 y.1 ∧ ∀ h o, (h, o) ∈ N.L.objs → (∀ i, o ≠ .req i) → (h, o) ∈ y.1.L.objs

theorem wait (h : Int) (st : StPtr) : (M.wait h st).Sub (Waited R w M N) (N.wait h st) := by
  unfold Mach.wait
  refine Sub.bind (hP.test h st) fun x y _ _ ⟨h1, h2, h3, h4, h5⟩ => ?_
  rw [h2]
  exact Sub.ite (fun _ => .abort) fun _ => .ok ⟨by rw [h1, h3], h4, h5⟩

theorem send {b n t d g c : Int} (hty : HasType N.L t) (hw : c = 1 → w = true) :
    (M.send env b n t d g c).Sub (Went R w M N) (N.send env b n t d g c) := by
  unfold Mach.send
  refine Sub.bind (hP.isend hty hw) fun x y _ _ ⟨h1, h2, _, _⟩ => ?_
  dsimp only
  rw [h1]
  exact Sub.bind (h2.toBeside.wait y.2 _) fun p q _ _ ⟨_, h4, _⟩ => .ok (h2.trans h4)

theorem irsend {b n t d g c : Int} (hty : HasType N.L t) (hw : c = 1 → w = true) :
    (M.irsend env b n t d g c).Sub (fun x y => x.2 = y.2 ∧ Went R w M N x.1 y.1) (N.irsend env b n t d g c) := by
  unfold Mach.irsend
  refine Sub.bind (hP.isend hty hw) fun x y _ _ ⟨h1, h2, _, _⟩ => ?_
  dsimp only
  rw [h1]
  obtain ⟨φ, ψ, hp⟩ := h2.part
  refine Sub.bind (hp.op h2.sane y.2) fun p q _ _ ⟨_, _, c, h3⟩ => ?_
  have hst : p.st = .pending ↔ q.st = .pending := by rw [h3]; exact OpSt.at_pending
  by_cases hpd : q.st = .pending
  · rw [if_pos hpd, if_pos (hst.2 hpd)]; exact .abort
  · rw [if_neg hpd, if_neg (fun e => hpd (hst.1 e))]; exact .ok ⟨rfl, h2⟩

theorem recv {b n t d g c : Int} {st : StPtr} (hty : HasType N.L t) (hw : c = 1 → w = true) :
    (M.recv env b n t d g c st).Sub (fun x y => x.2 = y.2 ∧ Went R w M N x.1 y.1) (N.recv env b n t d g c st) := by
  unfold Mach.recv
  refine Sub.bind (hP.irecv hty hw) fun x y _ _ ⟨h1, h2, _, _⟩ => ?_
  dsimp only
  rw [h1]
  refine Sub.bind (h2.toBeside.wait y.2 _) fun p q _ _ ⟨h3, h4, _⟩ => ?_
  obtain ⟨p, r, s⟩ := p
  obtain ⟨q, r', s'⟩ := q
  cases h3
  cases s with
  | null => exact .ok ⟨rfl, h2.trans h4⟩
  | obj z => exact .ok ⟨rfl, h2.trans h4⟩
  | bad => exact .ub

theorem sendrecv {b n t d g b' n' t' d' g' c : Int} {st : StPtr} (hty : HasType N.L t) (hty' : HasType N.L t') (hw : c = 1 → w = true) :
    (M.sendrecv env b n t d g b' n' t' d' g' c st).Sub (fun x y => x.2 = y.2 ∧ Went R w M N x.1 y.1) (N.sendrecv env b n t d g b' n' t' d' g' c st) := by
  unfold Mach.sendrecv
  refine Sub.bind (hP.irecv hty' hw) fun x y _ _ ⟨h1, h2, h3, _⟩ => ?_
  dsimp only
  refine Sub.bind (h2.toBeside.send (hty.mono fun d hd => ⟨d, h3 _ hd⟩) hw) fun p q _ _ h4 => ?_
  rw [h1]
  exact Sub.bind (h4.toBeside.wait y.2 _) fun u v _ _ ⟨h5, h6, _⟩ => .ok ⟨(show u.2.2 = v.2.2 by rw [h5]), h2.trans (h4.trans h6)⟩

theorem iprobe {s g c : Int} {st : StPtr} (hw : c = 1 → w = true) : (M.iprobe s g c st).Sub (fun x y => x = y) (N.iprobe s g c st) := by
  obtain ⟨φ, ψ, hp⟩ := hP.part
  unfold Mach.iprobe
  refine Sub.ite (fun _ => .abort) fun _ => ?_
  refine Sub.bind (hp.cid hP.sane c) fun i j _ _ ⟨h1, h2⟩ => ?_
  subst h1
  have hw' : w = true ∨ j ≠ 0 := by
    by_cases h0 : j = 0
    · subst h0
      exact .inl (hw (hP.sane'.first _ h2))
    · exact .inr h0
  rw [hp.partner hP.sane' (hP.sane'.comms _ _ h2) hw' .recv g]
  cases hj : N.L.partner j .recv g with
  | none => exact .ok rfl
  | some i =>
    dsimp only [Option.map]
    cases hi : N.L.ops[i]? with
    | none => exact .ub
    | some o =>
      obtain ⟨d, g7, _⟩ := hp.ops i o hi
      rw [g7]
      exact Sub.same fun _ _ => .ok rfl

theorem probe {s g c : Int} {st : StPtr} (hw : c = 1 → w = true) : (M.probe s g c st).Sub (fun x y => x = y) (N.probe s g c st) := by
  unfold Mach.probe
  refine Sub.bind (hP.iprobe hw) fun x y _ _ e => ?_
  subst e
  exact Sub.ite (fun _ => .abort) fun _ => .ok rfl

end Beside

/-! ## Arrays -/

theorem Beside.testany : ∀ (hs : List Int) {M N : Mach} (_ : Beside R w M N) (st : StPtr),
    (M.testany hs st).Sub (fun x y => x.2 = y.2 ∧ Went R w M N x.1 y.1) (N.testany hs st)
  | [], M, N, hP, st => .ok ⟨rfl, .refl hP⟩
  | h :: hs, M, N, hP, st => by
    unfold Mach.testany
    refine Sub.bind (hP.test h st) fun x y _ _ ⟨h1, h2, h3, h4, _⟩ => ?_
    rw [h1, h2, h3]
    refine Sub.ite (fun _ => .ok ⟨rfl, h4⟩) fun _ => ?_
    refine Sub.bind (Beside.testany hs h4.toBeside _) fun p q _ _ ⟨h5, h6⟩ => ?_
    obtain ⟨p, a, b, c⟩ := p
    obtain ⟨q, a', b', c'⟩ := q
    cases h5
    exact .ok ⟨rfl, h4.trans h6⟩

theorem Beside.testeach : ∀ (hs : List Int) {M N : Mach} (_ : Beside R w M N) (i : Nat) (st : StArr),
    (M.testeach i hs st).Sub (fun x y => x.2 = y.2 ∧ Went R w M N x.1 y.1) (N.testeach i hs st)
  | [], M, N, hP, i, st => .ok ⟨rfl, .refl hP⟩
  | h :: hs, M, N, hP, i, st => by
    unfold Mach.testeach
    refine Sub.same fun z _ => ?_
    refine Sub.bind (hP.test h z) fun x y _ _ ⟨h1, h2, h3, h4, _⟩ => ?_
    rw [h1, h2, h3]
    refine Sub.bind (Beside.testeach hs h4.toBeside _ _) fun p q _ _ ⟨h5, h6⟩ => ?_
    obtain ⟨p, a, b, c⟩ := p
    obtain ⟨q, a', b', c'⟩ := q
    cases h5
    exact .ok ⟨rfl, h4.trans h6⟩

theorem Beside.waitall : ∀ (hs : List Int) {M N : Mach} (_ : Beside R w M N) (i : Nat) (st : StArr),
    (M.waitall i hs st).Sub (fun x y => x.2 = y.2 ∧ Went R w M N x.1 y.1) (N.waitall i hs st)
  | [], M, N, hP, i, st => .ok ⟨rfl, .refl hP⟩
  | h :: hs, M, N, hP, i, st => by
    unfold Mach.waitall
    refine Sub.same fun z _ => ?_
    refine Sub.bind (hP.test h z) fun x y _ _ ⟨h1, h2, h3, h4, _⟩ => ?_
    rw [h1, h2, h3]
    refine Sub.ite (fun _ => .abort) fun _ => ?_
    refine Sub.bind (Beside.waitall hs h4.toBeside _ _) fun p q _ _ ⟨h5, h6⟩ => ?_
    obtain ⟨p, a, b⟩ := p
    obtain ⟨q, a', b'⟩ := q
    cases h5
    exact .ok ⟨rfl, h4.trans h6⟩

end
end MpiSerial
