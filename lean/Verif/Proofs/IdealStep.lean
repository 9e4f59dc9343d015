import Verif.Proofs.IdealCalls

/-!
# Every call on the two machines: datatypes, collectives, and all together
-/

set_option linter.unusedSimpArgs false
set_option autoImplicit false

namespace MpiSerial

open Res (Rel)
open Spec

section
variable {env : Env} {M : Mach} {I : Ideal}

/-! ## Datatypes -/

/-- The memory the constructors get reads as zero. -/
def ZeroGarbage (env : Env) : Prop := ∀ n, (env.garbage n).o_lb = 0 ∧ (env.garbage n).o_ub = 0

theorem newType_ideal (hz : ZeroGarbage env) (hm : Mirror env.cfg M I) {build : Garbage → Res Typestruct} {τ : DType}
    (hb : ∀ g : Garbage, g.o_lb = 0 → g.o_ub = 0 → ∃ t, build g = .ok t ∧ Describes env.cfg t (.data τ) ∧ Reports env.cfg t τ) :
    (M.newType env build).Rel (Alike env.cfg) (I.newType τ) := by
  unfold Mach.newType Ideal.newType
  refine Rel.bind hm.fresh fun x y _ _ ⟨h1, P, h2, h3, h4, h5⟩ => ?_
  obtain ⟨x, h⟩ := x
  obtain ⟨y, h'⟩ := y
  dsimp only at h1 h2 h3 h4 ⊢
  subst h1 h2 h3
  obtain ⟨t, e1, e2, e3⟩ := hb (env.garbage M.built) (hz _).1 (hz _).2
  rw [e1]
  refine ⟨⟨⟨⟨hm.core.ops, ?_, hm.core.ncomms, hm.core.nfreed, hm.core.inited, rfl, hm.core.mem⟩, h4⟩, ?_⟩, rfl⟩
  · show I.core.L.objs = ((h, Obj.dtype t) :: M.L.objs).filter plainObj
    rw [hm.core.objs]
    rfl
  · intro a τ' b hb
    show ∃ t', (a, Obj.dtype t') ∈ (h, Obj.dtype t) :: M.L.objs ∧ _
    rcases List.mem_cons.1 hb with he | hb
    · cases he
      exact ⟨t, List.mem_cons_self .., e2, e3, fun h => nomatch h⟩
    · obtain ⟨t', k1, k2⟩ := hm.types a τ' b hb
      exact ⟨t', List.mem_cons_of_mem _ k1, k2⟩

/-- A constructor applied to one datatype. -/
theorem constructor_ideal (hc : env.cfg.Ok) (hz : ZeroGarbage env) (hm : Mirror env.cfg M I) {old : Int} {τ : DType} (hd : I.IsData env.cfg old τ)
    {build : Typestruct → Garbage → Res Typestruct} {f : DType → DType}
    (hb : ∀ t, Describes env.cfg t (.data τ) → ∀ g : Garbage, g.o_lb = 0 → g.o_ub = 0 →
      ∃ t', build t g = .ok t' ∧ Describes env.cfg t' (.data (f τ)) ∧ Reports env.cfg t' (f τ)) :
    (Mach.one (M.type env old >>= fun d => M.newType env (build d))).Rel (Alike env.cfg)
      (Ideal.one (I.type env.cfg old >>= fun τ => I.newType (f τ))) := by
  obtain ⟨t, h1, h2, h3⟩ := hm.data hc hd
  rw [Mach.type_ok h1, h3]
  simp only [Res.ok_bind]
  unfold Mach.one Ideal.one
  refine Rel.bind (newType_ideal hz hm (hb t h2.desc)) fun x y _ _ ⟨h1, h2⟩ => ?_
  exact ⟨h1, by rw [h2]⟩

theorem blocks_ideal (hc : env.cfg.Ok) (hm : Mirror env.cfg M I) : ∀ {bs ks ts : List Int} {l : List (Nat × Int × Comp)},
    bs.length = ts.length → ks.length = ts.length → (∀ x ∈ bs, 0 ≤ x) → (∀ k ∈ ks, 0 ≤ k ∧ k < 18446744073709551616) →
    I.blocks env.cfg bs ks ts = .ok l →
    ∃ ds, ∃ xs : List (Int × Int × Typestruct × Comp), M.types env ts = .ok ds ∧
      (bs.zip (ks.zip ds)).map (fun x => (⟨x.1, x.2.1, x.2.2⟩ : Block)) = callBlocks xs ∧ specBlocks xs = l ∧
      (∀ x ∈ xs, Describes env.cfg x.2.2.1 x.2.2.2) ∧ (∀ x ∈ xs, 0 ≤ x.1) ∧ ∀ t ∈ ts, IsType env M.L t := by
  intro bs ks ts
  induction ts generalizing bs ks with
  | nil =>
    intro l h1 h2 _ _ hl
    have : bs = [] := List.length_eq_zero_iff.1 h1
    subst this
    unfold Ideal.blocks at hl
    cases hl
    exact ⟨[], [], rfl, rfl, rfl, by simp, by simp, by simp⟩
  | cons h ts ih =>
    intro l h1 h2 hb hk hl
    obtain ⟨b, bs, rfl⟩ := List.exists_cons_of_length_pos (l := bs) (by simp at h1; omega)
    obtain ⟨k, ks, rfl⟩ := List.exists_cons_of_length_pos (l := ks) (by simp at h2; omega)
    unfold Ideal.blocks at hl
    split at hl
    · rename_i c b' hcomp
      obtain ⟨r, hr, hl⟩ := Res.bind_eq_ok.1 hl
      cases hl
      obtain ⟨ds, xs, e1, e2, e3, e4, e5, e6⟩ := ih (by simpa using h1) (by simpa using h2) (fun x hx => hb x (List.mem_cons_of_mem _ hx))
        (fun x hx => hk x (List.mem_cons_of_mem _ hx)) hr
      obtain ⟨t, k1, k2, _⟩ := hm.comp hc hcomp
      have hku := hk k (List.mem_cons_self ..)
      refine ⟨t :: ds, (b, s64 k, t, c) :: xs, ?_, ?_, ?_, ?_, ?_, ?_⟩
      · unfold Mach.types
        rw [Mach.type_ok k1, e1]
        rfl
      · rw [List.zip_cons_cons, List.zip_cons_cons, List.map_cons, e2]
        show _ = mkBlock (b, s64 k, t) :: callBlocks xs
        unfold mkBlock
        dsimp only
        rw [u64_s64, u64_of_range hku.1 hku.2]
      · show (b.toNat, s64 k, c) :: specBlocks xs = _
        rw [e3]
      · intro x hx
        rcases List.mem_cons.1 hx with rfl | hx
        · exact k2.desc
        · exact e4 x hx
      · intro x hx
        rcases List.mem_cons.1 hx with rfl | hx
        · exact hb b (List.mem_cons_self ..)
        · exact e5 x hx
      · intro x hx
        rcases List.mem_cons.1 hx with rfl | hx
        · exact ⟨t, k1⟩
        · exact e6 x hx
    · cases hl

theorem commit_ideal (hc : env.cfg.Ok) (hm : Mirror env.cfg M I) (h : Int) : Mirror env.cfg (M.commit h) (I.commit h) := by
  by_cases hh : h < 0
  · unfold Mach.commit
    rw [if_pos hh]
    refine ⟨hm.toPure, fun a τ b hb => ?_⟩
    unfold Ideal.commit at hb
    obtain ⟨⟨a', τ', b'⟩, h1, h2⟩ := List.mem_map.1 hb
    dsimp only at h2
    split at h2
    · rename_i he
      obtain ⟨t, k1, _⟩ := hm.types _ _ _ h1
      have := (hm.fit.range a' (List.mem_append_left _ (List.mem_map.2 ⟨_, k1, rfl⟩))).1
      omega
    · cases h2
      exact hm.types _ _ _ h1
  · unfold Mach.commit
    rw [if_neg hh]
    refine ⟨⟨⟨hm.core.ops, ?_, hm.core.ncomms, hm.core.nfreed, hm.core.inited, hm.core.pool, hm.core.mem⟩, ?_⟩, ?_⟩
    · show I.core.L.objs = (M.L.commit h).objs.filter plainObj
      rw [hm.core.objs]
      unfold Ledger.commit
      dsimp only
      rw [List.filter_map]
      have : ∀ l : List (Int × Obj), l.filter plainObj = ((l.filter (plainObj ∘ fun e => match e with
          | (h', Obj.dtype t) => if h' = h then (h', Obj.dtype { t with committed := 1 }) else (h', Obj.dtype t)
          | e => e)).map fun e => match e with
          | (h', Obj.dtype t) => if h' = h then (h', Obj.dtype { t with committed := 1 }) else (h', Obj.dtype t)
          | e => e) := by
        intro l
        induction l with
        | nil => rfl
        | cons e l ih =>
          obtain ⟨a, o⟩ := e
          cases o with
          | comm c => simp only [List.filter_cons, plainObj, Function.comp, if_pos, List.map_cons, ih]
          | req i => simp only [List.filter_cons, plainObj, Function.comp, if_pos, List.map_cons, ih]
          | dtype t =>
            have : plainObj (if a = h then (a, Obj.dtype { t with committed := 1 }) else (a, Obj.dtype t)) = false := by
              split <;> rfl
            rw [List.filter_cons_of_neg (by simp [plainObj]), List.filter_cons_of_neg (by simpa using this)]
            exact ih
      exact this _
    · show Fit (M.L.commit h).keys M.pool
      rw [keys_commit]
      exact hm.fit
    · intro a τ b hb
      unfold Ideal.commit at hb
      obtain ⟨⟨a', τ', b'⟩, h1, h2⟩ := List.mem_map.1 hb
      obtain ⟨t, k1, k2, k3, k4⟩ := hm.types _ _ _ h1
      dsimp only at h2
      split at h2
      · rename_i he
        cases h2
        subst he
        refine ⟨_, mem_commit.2 (Or.inr ⟨rfl, t, k1, rfl⟩), k2.committed, ⟨k3.map, k3.lb, k3.ub, k2.committed.extent hc⟩, fun _ => by simp⟩
      · rename_i he
        cases h2
        exact ⟨t, mem_commit.2 (Or.inl ⟨k1, Or.inl he⟩), k2, k3, k4⟩

theorem typeFree_ideal (hm : Mirror env.cfg M I) {h : Int} (hk : h ∈ M.L.keys) : Mirror env.cfg (M.release h) (I.typeFree h) := by
  refine ⟨⟨⟨hm.core.ops, ?_, hm.core.ncomms, hm.core.nfreed, hm.core.inited, ?_, hm.core.mem⟩, ?_⟩, ?_⟩
  · show (I.core.L.release h).objs = (M.L.release h).objs.filter plainObj
    unfold Ledger.release
    dsimp only
    rw [hm.core.objs, List.filter_filter, List.filter_filter]
    congr 1
    funext e
    rw [Bool.and_comm]
  · show I.core.pool.give h = M.pool.give h
    rw [hm.core.pool]
  · show Fit (M.L.release h).keys (M.pool.give h)
    rw [keys_release]
    exact hm.fit.give hk
  · intro a τ b hb
    obtain ⟨h1, h2⟩ := List.mem_filter.1 (show (a, τ, b) ∈ I.types.filter fun e => decide (e.1 ≠ h) from hb)
    obtain ⟨t, k1, k2⟩ := hm.types _ _ _ h1
    exact ⟨t, mem_release.2 ⟨k1, of_decide_eq_true h2⟩, k2⟩

theorem finalize_ideal (hm : Mirror env.cfg M I) : Mirror env.cfg M.finalize ⟨I.core.finalize, []⟩ :=
  ⟨hm.toPure.finalize, fun _ _ _ h => nomatch h⟩

/-- The inquiry functions. -/
theorem tell_ideal (hc : env.cfg.Ok) (hm : Mirror env.cfg M I) {h : Int} {τ : DType} (hd : I.IsData env.cfg h τ)
    {f : Typestruct → Res Int} {g : DType → Res Int} (hfg : ∀ t, Stands env.cfg t h (.data τ) → f t = g τ) :
    (M.tell (M.type env h >>= f)).Rel (Alike env.cfg) (I.tell (I.type env.cfg h >>= g)) := by
  obtain ⟨t, h1, h2, h3⟩ := hm.data hc hd
  rw [Mach.type_ok h1, h3]
  simp only [Res.ok_bind]
  rw [hfg t h2]
  unfold Mach.tell Ideal.tell
  exact Rel.bind_same fun _ _ => ⟨hm, rfl⟩

theorem size_exact {cfg : Cfg} (hc : cfg.Ok) {t : Typestruct} {τ : DType} (h : Describes cfg t (.data τ)) (hs : Spec.size (sz cfg) τ ≤ 2147483647) :
    Type_size cfg t = .ok (Spec.size (sz cfg) τ) := by
  obtain ⟨d1, d2, _⟩ := h.dataDesc hc
  have e : mapSize cfg (typeMap t) = Spec.size (sz cfg) τ := by rw [d2]; rfl
  rw [Type_size_map hc d1 (by rw [e]; exact hs), e]

/-! ## Collectives -/

theorem quiet_ideal {x : Res Mach} {y : Res Ideal} (h : x.Rel (Mirror env.cfg) y) : (Mach.quiet x).Rel (Alike env.cfg) (Ideal.quiet y) := by
  unfold Mach.quiet Ideal.quiet
  exact Rel.bind h fun _ _ _ _ h => ⟨h, rfl⟩

theorem one_ideal {x : Res (Mach × Int)} {y : Res (Ideal × Int)} (h : x.Rel (Alike env.cfg) y) : (Mach.one x).Rel (Alike env.cfg) (Ideal.one y) := by
  unfold Mach.one Ideal.one
  exact Rel.bind h fun _ _ _ _ h => ⟨h.1, by rw [h.2]⟩

theorem oneStatus_ideal {x : Res (Mach × StPtr)} {y : Res (Ideal × StPtr)} (h : x.Rel (Alike env.cfg) y) :
    (Mach.oneStatus x).Rel (Alike env.cfg) (Ideal.oneStatus y) := by
  unfold Mach.oneStatus Ideal.oneStatus
  exact Rel.bind h fun _ _ _ _ h => ⟨h.1, by rw [h.2]⟩

theorem rooted_ideal (hm : Mirror env.cfg M I) {root : Int} {msg : String} {x : Res Mach} {y : Res Ideal}
    (h : root = 0 → x.Rel (Mirror env.cfg) y) : (M.rooted root msg x).Rel (Alike env.cfg) (I.rooted root msg y) := by
  unfold Mach.rooted Ideal.rooted
  refine quiet_ideal (Rel.ite (fun _ => hm) fun _ => ?_)
  exact Rel.ite (fun _ => rfl) fun h0 => h (by omega)

theorem displ_ideal (hc : env.cfg.Ok) (hm : Mirror env.cfg M I) {b h : Int} {ds : List Int} (hl : I.LegalDispl env.cfg b ds h) :
    ∃ t o b', M.L.desc env.cfg h = some t ∧ Mach.offset env ds t = .ok o ∧ I.displaced env.cfg b ds h = .ok b' ∧ padd b o = b' ∧
      ∃ e d, Type_extent env.cfg t = .ok e ∧ rd ds 0 = .ok d ∧ displOffset d e = o := by
  obtain ⟨τ, d, h1, h2, h3, h4, h5, h6⟩ := hl
  obtain ⟨t, k1, k2, k3⟩ := hm.data hc h1
  rw [kindSize_eq] at h3 h4 h5 h6
  have he := k2.desc.extent hc
  refine ⟨t, _, _, k1, by unfold Mach.offset; rw [he, Res.ok_bind, h2]; rfl, by unfold Ideal.displaced; rw [k3, Res.ok_bind, h2]; rfl, ?_,
    _, d, he, h2, rfl⟩
  rw [kindSize_eq]
  exact displ_eq ⟨h3, h4, h5, h6⟩


theorem map_fst_zip {α β : Type} : ∀ (l : List α) (r : List β), l.length = r.length → (l.zip r).map Prod.fst = l ∧ (l.zip r).map Prod.snd = r
  | [], [], _ => ⟨rfl, rfl⟩
  | [], _ :: _, h => by simp at h
  | _ :: _, [], h => by simp at h
  | a :: l, b :: r, h => by
    obtain ⟨h1, h2⟩ := map_fst_zip l r (by simpa using h)
    exact ⟨by simp [h1], by simp [h2]⟩

theorem struct_ideal (hc : env.cfg.Ok) (hz : ZeroGarbage env) (hm : Mirror env.cfg M I) {n : Int} {bs ks ts : List Int}
    (hl : I.Legal env (.typeStruct n bs ks ts)) :
    (M.answer env (.typeStruct n bs ks ts)).Rel (Alike env.cfg) (I.answer env (.typeStruct n bs ks ts)) := by
  obtain ⟨h1, h2, h3, h4, h5, l, h6, h7⟩ := hl
  obtain ⟨ds, xs, e1, e2, e3, e4, e5, _⟩ := blocks_ideal hc hm (by omega) (by omega) h4 h5 h6
  unfold Mach.answer Ideal.answer
  dsimp only
  rw [e1, h6]
  simp only [Res.ok_bind]
  refine one_ideal (newType_ideal hz hm fun g g1 g2 => ?_)
  rw [e2, kindSize_eq, ← e3]
  rw [kindSize_eq, ← e3] at h7
  obtain ⟨t, k1, k2, k3, _⟩ := C25_bounds_partial hc e4 e5 g1 g2 h7
  exact ⟨t, k1, k2, k3⟩

theorem pack_ideal (hc : env.cfg.Ok) (hm : Mirror env.cfg M I) {a n t b room pos c : Int} (hl : I.Legal env (.pack a n t b room pos c)) :
    (M.answer env (.pack a n t b room pos c)).Rel (Alike env.cfg) (I.answer env (.pack a n t b room pos c)) := by
  obtain ⟨_, τ, h1, h2, h3, h4⟩ := hl
  obtain ⟨d, k1, k2, k3⟩ := hm.data hc h1
  rw [kindSize_eq] at h2 h3
  rw [hm.core.mem] at h3 h4
  obtain ⟨d1, d2, _⟩ := k2.desc.dataDesc hc
  obtain ⟨n', rfl⟩ := Int.eq_ofNat_of_zero_le h2.count
  have hp := pack_exact hc d1 d2 (k2.desc.extent hc) (size_exact hc k2.desc h2.small) h2 h3 h4
  unfold Mach.answer Ideal.answer
  dsimp only
  rw [Mach.type_ok k1, k3]
  simp only [Res.ok_bind]
  rw [kindSize_eq, hm.core.mem]
  refine one_ideal ?_
  split at hp
  · rename_i hle
    obtain ⟨m', e1, e2⟩ := hp
    rw [e1, if_pos hle, e2.eq]
    exact ⟨hm.withMem _, rfl⟩
  · rename_i hle
    rw [hp, if_neg hle]
    rfl

theorem unpack_ideal (hc : env.cfg.Ok) (hm : Mirror env.cfg M I) {a n t b room pos c : Int} (hl : I.Legal env (.unpack a room pos b n t c)) :
    (M.answer env (.unpack a room pos b n t c)).Rel (Alike env.cfg) (I.answer env (.unpack a room pos b n t c)) := by
  obtain ⟨_, τ, h1, h2, h5, h3, h4⟩ := hl
  obtain ⟨d, k1, k2, k3⟩ := hm.data hc h1
  rw [kindSize_eq] at h2 h3 h5
  rw [hm.core.mem] at h3 h4
  obtain ⟨d1, d2, _⟩ := k2.desc.dataDesc hc
  obtain ⟨n', rfl⟩ := Int.eq_ofNat_of_zero_le h2.count
  have hp := unpack_exact hc d1 d2 (k2.desc.extent hc) (size_exact hc k2.desc h2.small) h2 h5 h3 h4
  unfold Mach.answer Ideal.answer
  dsimp only
  rw [Mach.type_ok k1, k3]
  simp only [Res.ok_bind]
  rw [kindSize_eq, hm.core.mem]
  refine one_ideal ?_
  split at hp
  · rename_i hle
    obtain ⟨m', e1, e2⟩ := hp
    rw [e1, if_pos hle, e2.eq]
    exact ⟨hm.withMem _, rfl⟩
  · rename_i hle
    rw [hp, if_neg hle]
    rfl

/-- The first argument of a vector collective. -/
theorem displ_rel (hc : env.cfg.Ok) (hm : Mirror env.cfg M I) {b h : Int} {ds : List Int} (hl : I.LegalDispl env.cfg b ds h)
    {f : Int → Res Mach} {g : Int → Res Ideal}
    (hfg : ∀ b', I.displaced env.cfg b ds h = .ok b' → (f b').Rel (Mirror env.cfg) (g b')) :
    (M.type env h >>= fun d => Mach.offset env ds d >>= fun o => f (padd b o)).Rel (Mirror env.cfg) (I.displaced env.cfg b ds h >>= g) := by
  obtain ⟨t, o, b', h1, h2, h3, h4, _⟩ := displ_ideal hc hm hl
  rw [Mach.type_ok h1, h3]
  simp only [Res.ok_bind]
  rw [h2]
  simp only [Res.ok_bind]
  rw [h4]
  exact hfg b' h3

theorem lift_ideal (hm : Mirror env.cfg M I) {α : Type} {x y : Res (Mach × α)} (h : x.Rel (fun x y => Still M x.1 y.1 ∧ x.2 = y.2) y) :
    x.Rel (Alike env.cfg) (y >>= fun z => .ok ({ I with core := z.1 }, z.2)) := by
  cases x <;> cases y <;> first | exact ⟨hm.still h.1, h.2⟩ | exact h | exact h.elim

theorem verifySize_pure (M K : Mach) {a : FortArgs} {n : String} (h : a.const n < 0) (p q e : Int) :
    K.verifySize env a n p q e = M.verifySize env a n p q e := by
  unfold Mach.verifySize Mach.type Ledger.desc
  simp only [h, if_true]

theorem fortChecks_pure {K : Mach} {a : FortArgs}
    (h : ∀ n ∈ ["MPI_INTEGER", "MPI_LOGICAL", "MPI_REAL", "MPI_DOUBLE_PRECISION", "MPI_COMPLEX"], -45 ≤ a.const n ∧ a.const n < 0) :
    K.fortChecks env a = M.fortChecks env a := by
  unfold Mach.fortChecks
  simp only [verifySize_pure M K (h "MPI_INTEGER" (by simp)).2, verifySize_pure M K (h "MPI_LOGICAL" (by simp)).2,
    verifySize_pure M K (h "MPI_REAL" (by simp)).2, verifySize_pure M K (h "MPI_DOUBLE_PRECISION" (by simp)).2,
    verifySize_pure M K (h "MPI_COMPLEX" (by simp)).2]


/-! ## Conforming calls are well formed -/

theorem isComm_of (hm : Mirror env.cfg M I) {c : Int} (h : IsComm I.core.L c) : IsComm M.L c := by
  obtain ⟨c, h⟩ := h
  exact ⟨c, hm.toPure.mem_comm.1 h⟩

theorem p2p_of (hc : env.cfg.Ok) (hm : Mirror env.cfg M I) {t d c : Int} (h : I.LegalArgs env.cfg t d c) : P2PArgs env M.L t d c := by
  obtain ⟨⟨τ, h1⟩, h2⟩ := h
  exact ⟨hm.isType hc h1.isData, h2.imp (isComm_of hm) id⟩

theorem reqs_of (hm : Mirror env.cfg M I) : ∀ {rs : List Int}, WfReqs I.core.L rs → WfReqs M.L rs
  | [], _ => trivial
  | _ :: _, h => ⟨h.1.imp id fun ⟨⟨i, hi⟩, h2⟩ => ⟨⟨i, hm.toPure.mem_req.1 hi⟩, h2⟩, reqs_of hm h.2⟩

theorem inFlight_of (hm : Mirror env.cfg M I) {o : Op} (h : InFlight M.L o) : InFlight I.core.L o := by
  unfold InFlight at h ⊢
  rw [hm.core.ops]
  obtain ⟨h1, h2, a, h3⟩ := h
  exact ⟨h1, h2, a, hm.toPure.mem_comm.2 h3⟩

theorem wf_of_legal (hc : env.cfg.Ok) (hm : Mirror env.cfg M I) {c : Call} (hl : I.Legal env c) : c.Wf env M.L := by
  have hty : ∀ {t : Int}, (∃ τ, I.IsData env.cfg t τ) → IsType env M.L t := fun ⟨_, h⟩ => hm.isType hc h
  have hcp : ∀ {a n t b k u : Int}, I.LegalCopy env.cfg a n t b k u → IsType env M.L t ∧ IsType env M.L u :=
    fun ⟨_, _, h1, h2, _⟩ => ⟨hm.isType hc h1.isData, hm.isType hc h2.isData⟩
  cases c
  case fortInit => exact hl
  case commFree =>
    obtain ⟨c, h1, h2⟩ := hl
    exact ⟨c, hm.toPure.mem_comm.1 h1, by rw [← hm.core.ops]; exact h2⟩
  case isend => exact p2p_of hc hm hl.1
  case irsend => exact p2p_of hc hm hl.1
  case send => exact p2p_of hc hm hl.1
  case irecv => exact p2p_of hc hm hl.1
  case recv => exact p2p_of hc hm hl.1
  case sendrecv => exact ⟨p2p_of hc hm hl.1, p2p_of hc hm hl.2.1.1⟩
  case iprobe => exact isComm_of hm hl
  case probe => exact isComm_of hm hl
  case test => exact hl.imp id fun ⟨i, hi⟩ => ⟨i, hm.toPure.mem_req.1 hi⟩
  case wait => exact hl.imp id fun ⟨i, hi⟩ => ⟨i, hm.toPure.mem_req.1 hi⟩
  case requestFree =>
    obtain ⟨i, o, h1, h2, h3⟩ := hl
    exact ⟨i, o, hm.toPure.mem_req.1 h1, by rw [← hm.core.ops]; exact h2, h3⟩
  case testany => exact ⟨hl.1, reqs_of hm hl.2⟩
  case waitany => exact ⟨hl.1, reqs_of hm hl.2⟩
  case testall => exact ⟨hl.1, reqs_of hm hl.2⟩
  case waitall => exact ⟨hl.1, reqs_of hm hl.2⟩
  case testsome => exact ⟨hl.1, reqs_of hm hl.2⟩
  case waitsome => exact ⟨hl.1, reqs_of hm hl.2⟩
  case typeContiguous => obtain ⟨h1, τ, h2, _⟩ := hl; exact ⟨h1, hty ⟨τ, h2⟩⟩
  case typeHvector => obtain ⟨h1, h2, _, _, τ, h3, _⟩ := hl; exact ⟨h1, h2, hty ⟨τ, h3⟩⟩
  case typeVector => obtain ⟨h1, h2, τ, h3, _⟩ := hl; exact ⟨h1, h2, hty ⟨τ, h3⟩⟩
  case typeHindexed => obtain ⟨h1, h2, h3, _, τ, h4, _⟩ := hl; exact ⟨h1, h2, h3, hty ⟨τ, h4⟩⟩
  case typeIndexed => obtain ⟨h1, h2, h3, τ, h4, _⟩ := hl; exact ⟨h1, h2, h3, hty ⟨τ, h4⟩⟩
  case typeIndexedBlock => obtain ⟨h1, h2, τ, h4, _⟩ := hl; exact ⟨h1, h2, hty ⟨τ, h4⟩⟩
  case typeStruct =>
    obtain ⟨h1, h2, h3, h4, h5, l, h6, _⟩ := hl
    obtain ⟨_, _, _, _, _, _, _, h7⟩ := blocks_ideal hc hm (by omega) (by omega) h4 h5 h6
    exact ⟨h1, h2, h3, h4, h7⟩
  case typeCommit => exact hty hl
  case typeFree h =>
    obtain ⟨h1, ⟨τ, b, h2⟩, h3⟩ := hl
    unfold Ideal.comp at h2
    rw [if_neg (by omega)] at h2
    obtain ⟨⟨h', τ', b'⟩, h4, h5⟩ := Option.map_eq_some_iff.1 h2
    have h6 := List.find?_some h4
    rw [decide_eq_true_iff] at h6
    dsimp only at h6
    subst h6
    obtain ⟨t, h7, _⟩ := hm.types _ _ _ (List.mem_of_find?_eq_some h4)
    exact ⟨⟨t, h7⟩, fun o ho => h3 o (inFlight_of hm ho)⟩
  case typeExtent => exact hty hl
  case typeLb => exact hty hl
  case typeUb => exact hty hl
  case typeSize => obtain ⟨τ, h, _⟩ := hl; exact hty ⟨τ, h⟩
  case getElements => obtain ⟨τ, h, _⟩ := hl; exact hty ⟨τ, h⟩
  case pack => obtain ⟨h1, τ, h, _⟩ := hl; exact ⟨hty ⟨τ, h⟩, isComm_of hm h1⟩
  case unpack => obtain ⟨h1, τ, h, _⟩ := hl; exact ⟨hty ⟨τ, h⟩, isComm_of hm h1⟩
  case packSize => obtain ⟨h1, τ, h, _⟩ := hl; exact ⟨hty ⟨τ, h⟩, isComm_of hm h1⟩
  case gather => exact ⟨hty hl.1, hty hl.2.1⟩
  case gatherv => exact ⟨hty hl.1, hty hl.2.1⟩
  case allgather => exact ⟨hty hl.1, hty hl.2.1⟩
  case allgatherv => exact ⟨hty hl.1, hty hl.2.1⟩
  case scatter => exact ⟨hty hl.1, hty hl.2.1⟩
  case scatterv => exact ⟨hty hl.1, hty hl.2.1⟩
  case alltoall => exact hcp hl
  case alltoallv => exact ⟨hty hl.1, hty hl.2.1⟩
  case reduce => exact hty hl.1
  case allreduce => exact hty hl.1
  case reduceScatter => exact hty hl.1
  case scan => exact (hcp hl).1
  case alltoallw => exact ⟨fun t ht => hty (hl.1 t ht), fun t ht => hty (hl.2.1 t ht)⟩
  all_goals trivial

/-! ## Every call -/

/-- Every call of a conforming program does the same on both machines. -/
theorem Call.ideal (hc : env.cfg.Ok) (hz : ZeroGarbage env) (hm : Mirror env.cfg M I) {c : Call} (hl : I.Legal env c) :
    (M.answer env c).Rel (Alike env.cfg) (I.answer env c) := by
  have hp := hm.toPure
  have hwf := wf_of_legal hc hm hl
  cases c
  case store m => exact ⟨hm.withMem m, rfl⟩
  case init =>
    refine lift_ideal hm ?_
    exact Rel.bind hp.init fun _ _ _ _ h => ⟨h, rfl⟩
  case initThread r =>
    refine lift_ideal hm ?_
    have h : (M.init >>= fun M => Res.ok (M, r)).Rel (fun x y => Still M x.1 y.1 ∧ x.2 = y.2) (I.core.init >>= fun M => .ok (M, r)) :=
      Rel.bind hp.init fun _ _ _ _ h => ⟨h, rfl⟩
    exact Rel.bind h fun _ _ _ _ h => ⟨h.1, by rw [h.2]⟩
  case fortInit a =>
    refine lift_ideal hm ?_
    refine Rel.bind (R := Still M) ?_ fun _ _ _ _ h => ⟨h, rfl⟩
    refine Rel.bind hp.init fun x y _ _ h => ?_
    rw [fortChecks_pure hwf]
    exact Rel.bind_same fun _ _ => h
  case initialized =>
    refine lift_ideal hm ?_
    show Res.Rel _ (Res.ok _) (Res.ok _)
    exact ⟨⟨hp, KeepsTypes.refl _⟩, by rw [hm.core.inited]⟩
  case finalize => exact ⟨finalize_ideal hm, rfl⟩
  case abort => exact rfl
  case commDup =>
    refine lift_ideal hm ?_
    exact Rel.bind hp.newComm fun _ _ _ _ h => ⟨h.1, by rw [h.2]⟩
  case commCreate =>
    refine lift_ideal hm ?_
    exact Rel.bind (hp.newCommUnless _) fun _ _ _ _ h => ⟨h.1, by rw [h.2]⟩
  case commSplit =>
    refine lift_ideal hm ?_
    exact Rel.bind (hp.newCommUnless _) fun _ _ _ _ h => ⟨h.1, by rw [h.2]⟩
  case intercommCreate =>
    refine lift_ideal hm ?_
    exact Rel.bind (hp.newCommUnless _) fun _ _ _ _ h => ⟨h.1, by rw [h.2]⟩
  case cartCreate =>
    refine lift_ideal hm ?_
    refine Rel.bind (Rel.bind_same fun _ _ => hp.newComm) fun _ _ _ _ h => ⟨h.1, by rw [h.2]⟩
  case commFree h =>
    obtain ⟨c, h1, _⟩ := hwf
    exact lift_ideal hm ⟨hp.freeComm h1, rfl⟩
  case isend => exact one_ideal (isend_ideal hc hm hl)
  case irsend => exact one_ideal (irsend_ideal hc hm hl)
  case send => exact quiet_ideal (send_ideal hc hm hl)
  case irecv => exact one_ideal (irecv_ideal hc hm hl)
  case recv => exact oneStatus_ideal (recv_ideal hc hm hl)
  case sendrecv => exact oneStatus_ideal (sendrecv_ideal hc hm hl.2.1 hl.2.2)
  case iprobe d g c st =>
    refine lift_ideal hm ?_
    show Res.Rel _ (M.iprobe d g c st >>= _) (I.core.iprobe d g c st >>= _)
    rw [hp.iprobe]
    exact Rel.bind_same fun _ _ => ⟨⟨hp, KeepsTypes.refl _⟩, rfl⟩
  case probe d g c st =>
    refine lift_ideal hm ?_
    show Res.Rel _ (Mach.oneStatus (M.probe d g c st >>= _)) (Mach.oneStatus (I.core.probe d g c st >>= _))
    rw [hp.probe]
    refine Rel.bind (R := fun x y => Still M x.1 y.1 ∧ x.2 = y.2) (Rel.bind_same fun _ _ => ⟨⟨hp, KeepsTypes.refl _⟩, rfl⟩)
      fun _ _ _ _ h => ⟨h.1, by rw [h.2]⟩
  case test r st =>
    refine lift_ideal hm ?_
    exact Rel.bind (hp.test r st) fun _ _ _ _ ⟨h1, h2, h3, h4⟩ => ⟨h1, by rw [h2, h3, h4]⟩
  case wait r st =>
    refine lift_ideal hm ?_
    exact Rel.bind (hp.wait r st) fun _ _ _ _ ⟨h1, h2⟩ => ⟨h1, by rw [h2]⟩
  case requestFree r =>
    obtain ⟨i, o, h1, _⟩ := hwf
    exact lift_ideal hm ⟨hp.release h1 rfl, rfl⟩
  case testany n rs i st =>
    refine lift_ideal hm ?_
    exact Rel.bind (testany_pure rs hp st) fun _ _ _ _ ⟨h1, h2⟩ => ⟨h1, by rw [h2]⟩
  case waitany n rs i st =>
    refine lift_ideal hm ?_
    refine Rel.bind (testany_pure rs hp st) fun x y _ _ ⟨h1, h2⟩ => ?_
    rw [h2]
    exact Rel.ite (fun _ => rfl) fun _ => ⟨h1, rfl⟩
  case testall n rs sts =>
    refine lift_ideal hm ?_
    exact Rel.bind (testeach_pure rs 0 hp sts) fun _ _ _ _ ⟨h1, h2⟩ => ⟨h1, by rw [h2]⟩
  case waitall n rs sts =>
    refine lift_ideal hm ?_
    exact Rel.bind (waitall_pure rs 0 hp sts) fun _ _ _ _ ⟨h1, h2⟩ => ⟨h1, by rw [h2]⟩
  case testsome n rs ix sts =>
    refine lift_ideal hm ?_
    exact Rel.bind (testeach_pure rs 0 hp sts) fun _ _ _ _ ⟨h1, h2⟩ => ⟨h1, by rw [h2]⟩
  case waitsome n rs ix sts =>
    refine lift_ideal hm ?_
    exact Rel.bind (testeach_pure rs 0 hp sts) fun _ _ _ _ ⟨h1, h2⟩ => ⟨h1, by rw [h2]⟩
  case typeContiguous n t =>
    obtain ⟨h1, τ, h2, h3⟩ := hl
    refine constructor_ideal hc hz hm h2 fun d hd g g1 g2 => ?_
    rw [kindSize_eq] at h3 ⊢
    exact C25_contiguous_partial hc hd h1 g1 g2 h3
  case typeHvector n b k t =>
    obtain ⟨h1, h2, h3, h4, τ, h5, h6⟩ := hl
    refine constructor_ideal hc hz hm h5 fun d hd g g1 g2 => ?_
    rw [kindSize_eq] at h6 ⊢
    have := C25_hvector_partial hc hd h1 h2 g1 g2 h6
    rwa [u64_s64, u64_of_range h3 h4] at this
  case typeVector n b k t =>
    obtain ⟨h1, h2, τ, h3, h4⟩ := hl
    refine constructor_ideal hc hz hm h3 fun d hd g g1 g2 => ?_
    rw [kindSize_eq] at h4 ⊢
    exact C25_vector_partial hc hd h1 h2 g1 g2 h4
  case typeHindexed n bs ks t =>
    obtain ⟨h1, h2, h3, h4, τ, h5, h6⟩ := hl
    refine constructor_ideal hc hz hm h5 fun d hd g g1 g2 => ?_
    rw [kindSize_eq] at h6 ⊢
    obtain ⟨e1, e2⟩ := map_fst_zip bs ks (by omega)
    have := C25_hindexed_partial hc hd ((bs.zip ks).map fun x => (x.1, s64 x.2)) (by
      intro x hx
      obtain ⟨y, hy, rfl⟩ := List.mem_map.1 hx
      exact h3 _ (List.of_mem_zip hy).1) g1 g2 (by rw [List.map_map]; exact h6)
    rw [List.map_map, List.map_map, List.map_map, List.length_map, List.length_zip,
      show min bs.length ks.length = bs.length by omega, ← h1,
      show (bs.zip ks).map (Prod.fst ∘ fun x => (x.1, s64 x.2)) = (bs.zip ks).map Prod.fst from rfl, e1] at this
    have e3 : (bs.zip ks).map ((fun x : Int × Int => u64 x.2) ∘ fun x => (x.1, s64 x.2)) = ks := by
      refine Eq.trans ?_ e2
      apply List.map_congr_left
      intro x hx
      have := h4 _ (List.of_mem_zip hx).2
      show u64 (s64 x.2) = x.2
      rw [u64_s64, u64_of_range this.1 this.2]
    rw [e3] at this
    exact this
  case typeIndexed n bs ks t =>
    obtain ⟨h1, h2, h3, τ, h5, h6⟩ := hl
    refine constructor_ideal hc hz hm h5 fun d hd g g1 g2 => ?_
    rw [kindSize_eq] at h6 ⊢
    obtain ⟨e1, e2⟩ := map_fst_zip bs ks (by omega)
    have := C25_indexed_partial hc hd (bs.zip ks) (fun x hx => h3 _ (List.of_mem_zip hx).1) g1 g2 h6
    rw [e1, e2, List.length_zip, show min bs.length ks.length = bs.length by omega, ← h1] at this
    exact this
  case typeIndexedBlock n b ks t =>
    obtain ⟨h1, h2, τ, h3, h4⟩ := hl
    refine constructor_ideal hc hz hm h3 fun d hd g g1 g2 => ?_
    rw [kindSize_eq] at h4 ⊢
    rw [h1]
    exact C25_indexed_block_partial hc hd ks h2 g1 g2 h4
  case typeStruct => exact struct_ideal hc hz hm hl
  case typeCommit t => exact ⟨commit_ideal hc hm t, rfl⟩
  case typeFree t =>
    obtain ⟨⟨d, h1⟩, _⟩ := hwf
    exact ⟨typeFree_ideal hm (List.mem_map.2 ⟨_, h1, rfl⟩), rfl⟩
  case typeExtent t =>
    obtain ⟨τ, h⟩ := hl
    exact tell_ideal hc hm h fun d hd => by rw [kindSize_eq]; exact hd.desc.extent hc
  case typeSize t =>
    obtain ⟨τ, h, h'⟩ := hl
    rw [kindSize_eq] at h'
    exact tell_ideal hc hm h fun d hd => by rw [kindSize_eq]; exact size_exact hc hd.desc h'
  case typeLb t =>
    obtain ⟨τ, h⟩ := hl
    exact tell_ideal hc hm h fun d hd => by rw [hd.lb τ rfl]
  case typeUb t =>
    obtain ⟨τ, h⟩ := hl
    exact tell_ideal hc hm h fun d hd => by rw [kindSize_eq, hd.ub τ rfl]
  case getElements st t =>
    obtain ⟨τ, h, h1, h2⟩ := hl
    exact tell_ideal hc hm h fun d hd => by
      rw [(hd.desc.dataDesc hc).2.2]
      unfold ck32
      rw [if_pos (by omega)]
  case pack => exact pack_ideal hc hm hl
  case unpack => exact unpack_ideal hc hm hl
  case packSize n t c =>
    obtain ⟨_, τ, h, h'⟩ := hl
    rw [kindSize_eq] at h'
    exact tell_ideal hc hm h fun d hd => by
      rw [kindSize_eq]
      exact Pack_size_eq (hd.desc.dataDesc hc).1 (size_exact hc hd.desc h')
  case barrier => exact lift_ideal hm ⟨⟨hp, KeepsTypes.refl _⟩, rfl⟩
  case bcast a n t root c =>
    refine lift_ideal hm ?_
    refine Rel.bind (R := Still M) (Rel.ite (fun _ => ⟨hp, KeepsTypes.refl _⟩) fun _ => Rel.ite (fun _ => rfl) fun _ => ⟨hp, KeepsTypes.refl _⟩)
      fun _ _ _ _ h => ⟨h, rfl⟩
  case gather =>
    obtain ⟨_, _, h⟩ := hl
    exact Rel.ite (fun _ => ⟨hm, rfl⟩) fun ha => rooted_ideal hm fun hr => hm.copy hc (h ha hr)
  case gatherv =>
    obtain ⟨_, _, h⟩ := hl
    refine Rel.ite (fun _ => ⟨hm, rfl⟩) fun ha => rooted_ideal hm fun hr => ?_
    refine displ_rel hc hm (h ha hr).1 (f := fun b => rd _ 0 >>= fun k => M.copy env _ _ _ b k _) fun b' hb => ?_
    exact Rel.bind_same fun k hk => hm.copy hc ((h ha hr).2 b' k hb hk)
  case allgather =>
    obtain ⟨_, _, h⟩ := hl
    exact Rel.ite (fun _ => ⟨hm, rfl⟩) fun ha => quiet_ideal (hm.copy hc (h ha))
  case allgatherv =>
    obtain ⟨_, _, h⟩ := hl
    refine Rel.ite (fun _ => ⟨hm, rfl⟩) fun ha => quiet_ideal ?_
    refine displ_rel hc hm (h ha).1 (f := fun b => rd _ 0 >>= fun k => M.copy env _ _ _ b k _) fun b' hb => ?_
    exact Rel.bind_same fun k hk => hm.copy hc ((h ha).2 b' k hb hk)
  case scatter =>
    obtain ⟨_, _, h⟩ := hl
    exact Rel.ite (fun _ => ⟨hm, rfl⟩) fun ha => rooted_ideal hm fun hr => hm.copy hc (h ha hr)
  case scatterv =>
    obtain ⟨_, _, h⟩ := hl
    refine Rel.ite (fun _ => ⟨hm, rfl⟩) fun ha => rooted_ideal hm fun hr => ?_
    refine displ_rel hc hm (h ha hr).1 (f := fun a => rd _ 0 >>= fun n => M.copy env a n _ _ _ _) fun b' hb => ?_
    exact Rel.bind_same fun k hk => hm.copy hc ((h ha hr).2 b' k hb hk)
  case reduce => exact quiet_ideal (Rel.ite (fun _ => rfl) fun h0 => hm.copy hc (hl.2 (by omega)))
  case allreduce => exact Rel.ite (fun _ => ⟨hm, rfl⟩) fun ha => quiet_ideal (hm.copy hc (hl.2 ha))
  case reduceScatter => exact quiet_ideal (Rel.bind_same fun n hn => hm.copy hc (hl.2 n hn))
  case scan => exact quiet_ideal (hm.copy hc hl)
  case alltoall => exact quiet_ideal (hm.copy hc hl)
  case alltoallv a ns sds t b ks rds u c =>
    obtain ⟨_, _, h1, h2, h3⟩ := hl
    refine quiet_ideal ?_
    obtain ⟨t1, o1, a', p1, p2, p3, p4, e1, x1, p5, p6, p7⟩ := displ_ideal hc hm h1
    obtain ⟨t2, o2, b', q1, q2, q3, q4, e2, x2, q5, q6, q7⟩ := displ_ideal hc hm h2
    rw [Mach.type_ok p1, Mach.type_ok q1, p3, q3, p6, q6]
    simp only [Res.ok_bind, p5, q5]
    rw [p7, q7, p4, q4]
    exact Rel.bind_same fun n hn => Rel.bind_same fun k hk => hm.copy hc (h3 a' b' n k p3 q3 hn hk)
  case alltoallw a ns sds ts b ks rds us c =>
    obtain ⟨_, _, h1, h2, h3⟩ := hl
    refine quiet_ideal ?_
    refine Rel.bind_same fun x hx => Rel.bind_same fun n hn => Rel.bind_same fun t ht => Rel.bind_same fun y hy =>
      Rel.bind_same fun k hk => Rel.bind_same fun u hu => ?_
    have e1 : padd a x = a + x := u64_of_range (h1 x hx).1 (h1 x hx).2
    have e2 : padd b y = b + y := u64_of_range (h2 y hy).1 (h2 y hy).2
    rw [e1, e2]
    exact hm.copy hc (h3 x n t y k u hx hn ht hy hk hu)

end

end MpiSerial
