import Verif.Spec.Order
import Verif.Proofs.MessagesLib

/-!
# Completion step by step: the machine
-/

set_option linter.unusedSimpArgs false
set_option autoImplicit false

namespace MpiSerial

open Res (Rel)

namespace Order

/-- The machines differ in the order of the free handle numbers only. -/
structure Alike (M N : Mach) : Prop where
  L : M.L = N.L
  mem : M.mem = N.mem
  built : M.built = N.built
  blocks : M.pool.blocks = N.pool.blocks
  free : M.pool.free.Perm N.pool.free
  before : M.L.inited = false → M.pool = N.pool

theorem Alike.refl (M : Mach) : Alike M M := ⟨rfl, rfl, rfl, rfl, .refl _, fun _ => rfl⟩

theorem Alike.trans {M N K : Mach} (h : Alike M N) (h2 : Alike N K) : Alike M K :=
  ⟨h.L.trans h2.L, h.mem.trans h2.mem, h.built.trans h2.built, h.blocks.trans h2.blocks, h.free.trans h2.free,
    fun hi => (h.before hi).trans (h2.before (by rw [← h.L]; exact hi))⟩

/-- Is the request finished, and what does MPI_Wait tell? -/
def fin (M : Mach) (h : Int) : Res (Int × Int) :=
  if h = MPI_REQUEST_NULL then .ok (MPI_ANY_SOURCE, MPI_ANY_TAG)
  else do
    let o ← M.op h
    if o.st = .pending then .abort "MPI_Wait: request not complete, deadlock" else return M.result o

/-- The request is gone. -/
def drop (M : Mach) (h : Int) : Mach := if h = MPI_REQUEST_NULL then M else M.release h

/-- The status filled in. -/
def fill (p : StPtr) (r : Int × Int) : StPtr :=
  match p with
  | .obj s => .obj { s with MPI_SOURCE := r.1, MPI_TAG := r.2 }
  | p => p

theorem put_fill {p : StPtr} (hp : p ≠ .bad) (r : Int × Int) : p.put r.1 r.2 = .ok (fill p r) := by
  cases p with
  | bad => exact absurd rfl hp
  | _ => rfl

theorem fill_good {p : StPtr} (hp : p ≠ .bad) (r : Int × Int) : fill p r ≠ .bad := by
  cases p with
  | bad => exact absurd rfl hp
  | _ => exact nofun

theorem wait_eq (M : Mach) (h : Int) {p : StPtr} (hp : p ≠ .bad) :
    M.wait h p = fin M h >>= fun r => .ok (drop M h, 0, fill p r) := by
  unfold Mach.wait Mach.test fin drop
  by_cases h0 : h = 0
  · subst h0
    rw [if_pos rfl, if_pos rfl, if_pos rfl, put_fill hp (_, _)]
    rfl
  · rw [if_neg h0, if_neg h0, if_neg h0, Res.bind_bind', Res.bind_bind']
    refine Res.bind_congr fun o _ => ?_
    by_cases hs : o.st = .pending
    · rw [if_pos hs, if_pos hs]; rfl
    · rw [if_neg hs, if_neg hs, put_fill hp]; rfl

theorem Alike.fin {M N : Mach} (h : Alike M N) (x : Int) : fin M x = fin N x := by
  unfold Order.fin Mach.op Mach.obj Mach.result
  rw [h.L]

theorem Alike.drop {M N : Mach} (h : Alike M N) (x : Int) : Alike (drop M x) (drop N x) := by
  unfold Order.drop
  split
  · exact h
  · exact ⟨by dsimp only [Mach.release]; rw [h.L], h.mem, h.built, h.blocks, h.free.cons x, fun hi => by
      dsimp only [Mach.release]; rw [h.before hi]⟩

theorem drop_drop (M : Mach) (hi : M.L.inited = true) (x y : Int) : Alike (drop (drop M x) y) (drop (drop M y) x) := by
  unfold drop
  by_cases hx : x = 0 <;> by_cases hy : y = 0 <;> simp only [hx, hy, if_true, if_false]
  · exact .refl _
  · exact .refl _
  · exact .refl _
  · refine ⟨?_, rfl, rfl, rfl, .swap .., fun hf => ?_⟩
    · unfold Mach.release Ledger.release
      dsimp only
      congr 1
      rw [List.filter_filter, List.filter_filter]
      congr 1
      funext e
      exact Bool.and_comm ..
    · have : M.L.inited = false := hf
      rw [hi] at this
      cases this

theorem op_release (M : Mach) {x y : Int} (hn : y ≠ x) : (M.release x).op y = M.op y := by
  have hobj : (M.release x).obj y = M.obj y := by
    unfold Mach.obj Mach.release Ledger.release
    dsimp only
    rw [List.find?_filter]
    congr 2
    funext e
    by_cases he : e.1 = y
    · rw [he]; simp [hn]
    · simp [he]
  unfold Mach.op
  rw [hobj]
  rfl

theorem fin_drop (M : Mach) {x y : Int} (hn : y = x → y = 0) : fin (drop M x) y = fin M y := by
  unfold drop fin
  by_cases hx : x = 0
  · rw [if_pos hx]
  · rw [if_neg hx]
    by_cases hy : y = 0
    · rw [if_pos hy, if_pos hy]
    · rw [if_neg hy, if_neg hy, op_release M fun e => hy (hn e)]
      rfl

/-- The request with handle `h` can be waited for. -/
def Live (M : Mach) (h : Int) : Prop := h = 0 ∨ ∃ o, M.op h = .ok o

theorem Live.fin {M : Mach} {h : Int} (hl : Live M h) :
    (∃ r, fin M h = .ok r) ∨ fin M h = .abort "MPI_Wait: request not complete, deadlock" := by
  unfold Order.fin
  rcases hl with rfl | ⟨o, ho⟩
  · exact .inl ⟨_, if_pos rfl⟩
  · split
    · exact .inl ⟨_, rfl⟩
    · rw [ho, Res.ok_bind]
      split
      · exact .inr rfl
      · exact .inl ⟨_, rfl⟩

/-- The requests `rs[i]`, `i ∈ is`, can be waited for, in any order. -/
structure Set (M : Mach) (rs : List Int) (ps : List StPtr) (is : List Nat) : Prop where
  inited : M.L.inited = true
  nodup : is.Nodup
  has : ∀ i ∈ is, ∃ h p, rs[i]? = some h ∧ ps[i]? = some p ∧ p ≠ .bad ∧ Live M h
  apart : ∀ i ∈ is, ∀ j ∈ is, i ≠ j → ∀ h, rs[i]? = some h → rs[j]? = some h → h = 0

section
variable {env : Env} {M N : Mach} {rs : List Int} {ps : List StPtr} {is js : List Nat} {i : Nat} {h : Int} {p : StPtr}

theorem waits_cons (h1 : rs[i]? = some h) (h2 : ps[i]? = some p) (hp : p ≠ .bad) :
    (Engine.mach env).waits (i :: is) M rs ps =
      fin M h >>= fun r => (Engine.mach env).waits is (drop M h) (rs.set i 0) (ps.set i (fill p r)) := by
  have hr : ∀ {α : Type} {l : List α} {a : α}, l[i]? = some a → rd l i = .ok a := fun h => by unfold rd; rw [h]
  rw [Engine.waits, hr h1, hr h2, Res.ok_bind, Res.ok_bind]
  have : (Engine.mach env) M (.wait h p) = fin M h >>= fun r => .ok (drop M h, .ofDone [0] [fill p r]) := by
    show M.wait h p >>= _ = _
    rw [wait_eq M h hp, Res.bind_bind']
    rfl
  rw [this, Res.bind_bind']
  rfl

theorem Set.cons (hs : Set M rs ps (i :: is)) : ∃ h p, rs[i]? = some h ∧ ps[i]? = some p ∧ p ≠ .bad ∧ Live M h ∧
    ∀ r, Set (drop M h) (rs.set i 0) (ps.set i (fill p r)) is := by
  obtain ⟨h, p, h1, h2, h3, h4⟩ := hs.has i List.mem_cons_self
  refine ⟨h, p, h1, h2, h3, h4, fun r => ⟨by unfold drop; split <;> exact hs.inited, (List.nodup_cons.1 hs.nodup).2, fun j hj => ?_, fun j hj k hk hn x hx hy => ?_⟩⟩
  · have hij : i ≠ j := fun e => (List.nodup_cons.1 hs.nodup).1 (e ▸ hj)
    obtain ⟨g, q, g1, g2, g3, g4⟩ := hs.has j (List.mem_cons_of_mem _ hj)
    refine ⟨g, q, by rw [List.getElem?_set_ne hij]; exact g1, by rw [List.getElem?_set_ne hij]; exact g2, g3, ?_⟩
    rcases g4 with rfl | ⟨o, ho⟩
    · exact .inl rfl
    · by_cases hg : g = 0
      · exact .inl hg
      · refine .inr ⟨o, ?_⟩
        unfold drop
        split
        · exact ho
        · rw [op_release M (x := h) (y := g) fun e => hg (hs.apart i List.mem_cons_self j (List.mem_cons_of_mem _ hj) hij g (e ▸ h1) g1)]
          exact ho
  · have hij : i ≠ j := fun e => (List.nodup_cons.1 hs.nodup).1 (e ▸ hj)
    have hik : i ≠ k := fun e => (List.nodup_cons.1 hs.nodup).1 (e ▸ hk)
    rw [List.getElem?_set_ne hij] at hx
    rw [List.getElem?_set_ne hik] at hy
    exact hs.apart j (List.mem_cons_of_mem _ hj) k (List.mem_cons_of_mem _ hk) hn x hx hy

/-- The outcomes differ in the order of the free handle numbers only. -/
abbrev Same {α : Type} : Res (Mach × α) → Res (Mach × α) → Prop := Rel fun x y => Alike x.1 y.1 ∧ x.2 = y.2

theorem Same.trans {α : Type} {x y z : Res (Mach × α)} (h : Same x y) (h2 : Same y z) : Same x z := by
  cases x <;> cases y <;> cases z <;> first | exact ⟨h.1.trans h2.1, h.2.trans h2.2⟩ | exact Eq.trans h h2 | exact h.elim | exact h2.elim | exact trivial

theorem waits_congr : ∀ (is : List Nat) {M N : Mach} {rs : List Int} {ps : List StPtr}, Alike M N → Set M rs ps is →
    Same ((Engine.mach env).waits is M rs ps) ((Engine.mach env).waits is N rs ps)
  | [], _, _, _, _, ha, _ => ⟨ha, rfl⟩
  | i :: is, M, N, rs, ps, ha, hs => by
    obtain ⟨h, p, h1, h2, h3, _, h5⟩ := hs.cons
    rw [waits_cons h1 h2 h3, waits_cons h1 h2 h3, ha.fin h]
    exact Rel.bind_same fun r _ => waits_congr is (ha.drop h) (h5 r)

theorem Set.perm (hs : Set M rs ps is) (hp : is.Perm js) : Set M rs ps js :=
  ⟨hs.inited, hp.nodup_iff.1 hs.nodup, fun i hi => hs.has i (hp.mem_iff.2 hi), fun i hi j hj => hs.apart i (hp.mem_iff.2 hi) j (hp.mem_iff.2 hj)⟩

/-- The order does not matter. -/
theorem waits_perm (hp : is.Perm js) : ∀ {M : Mach} {rs : List Int} {ps : List StPtr}, Set M rs ps is →
    Same ((Engine.mach env).waits is M rs ps) ((Engine.mach env).waits js M rs ps) := by
  induction hp with
  | nil => exact fun _ => ⟨.refl _, rfl⟩
  | cons i _ ih =>
    intro M rs ps hs
    obtain ⟨h, p, h1, h2, h3, _, h5⟩ := hs.cons
    rw [waits_cons h1 h2 h3, waits_cons h1 h2 h3]
    exact Rel.bind_same fun r _ => ih (h5 r)
  | swap i j l =>
    intro M rs ps hs
    have hij : j ≠ i := fun e => (List.nodup_cons.1 hs.nodup).1 (e ▸ List.mem_cons_self)
    obtain ⟨h, p, h1, h2, h3, h4, h5⟩ := hs.cons
    obtain ⟨g, q, g1, g2, g3, g4, g5⟩ := (hs.perm (.swap ..)).cons
    have hgh : g = h → g = 0 := fun e => hs.apart j (by simp) i (by simp) hij g (e ▸ h1) g1
    have hhg : h = g → h = 0 := fun e => hs.apart j (by simp) i (by simp) hij h h1 (e ▸ g1)
    rw [waits_cons h1 h2 h3, waits_cons g1 g2 g3]
    have e1 : ∀ r, (Engine.mach env).waits (i :: l) (drop M h) (rs.set j 0) (ps.set j (fill p r)) =
        fin M g >>= fun r' => (Engine.mach env).waits l (drop (drop M h) g) ((rs.set j 0).set i 0) ((ps.set j (fill p r)).set i (fill q r')) := fun r => by
      rw [waits_cons (h := g) (p := q) (by rw [List.getElem?_set_ne hij]; exact g1) (by rw [List.getElem?_set_ne hij]; exact g2) g3, fin_drop M hgh]
    have e2 : ∀ r, (Engine.mach env).waits (j :: l) (drop M g) (rs.set i 0) (ps.set i (fill q r)) =
        fin M h >>= fun r' => (Engine.mach env).waits l (drop (drop M g) h) ((rs.set i 0).set j 0) ((ps.set i (fill q r)).set j (fill p r')) := fun r => by
      rw [waits_cons (h := h) (p := p) (by rw [List.getElem?_set_ne hij.symm]; exact h1) (by rw [List.getElem?_set_ne hij.symm]; exact h2) h3, fin_drop M hhg]
    simp only [e1, e2]
    rcases h4.fin with ⟨r, hr⟩ | hr <;> rcases g4.fin with ⟨r', hr'⟩ | hr' <;> rw [hr, hr']
    · simp only [Res.ok_bind]
      rw [List.set_comm _ _ hij, List.set_comm (fill p r) (fill q r') hij]
      refine waits_congr l (drop_drop M hs.inited h g) ?_
      obtain ⟨_, _, k1, k2, _, _, k5⟩ := (h5 r).cons
      rw [List.getElem?_set_ne hij, g1] at k1
      rw [List.getElem?_set_ne hij, g2] at k2
      cases k1
      cases k2
      rw [← List.set_comm _ _ hij, ← List.set_comm (fill p r) (fill q r') hij]
      exact k5 r'
    all_goals rfl
  | trans h1 _ ih1 ih2 => exact fun hs => (ih1 hs).trans (ih2 (hs.perm h1))

/-! ## MPI_Waitall -/

/-- Without the text of the message. -/
def hush {α : Type} : Res α → Res α
  | .abort _ => .abort ""
  | r => r

theorem hush_bind {α β : Type} (x : Res α) {f g : α → Res β} (h : ∀ a, x = .ok a → hush (f a) = hush (g a)) : hush (x >>= f) = hush (x >>= g) := by
  cases x with
  | ok a => exact h a rfl
  | _ => rfl

theorem hush_same {α : Type} {x y : Res (Mach × α)} (h : Same x y) : Same (hush x) (hush y) := by
  cases x <;> cases y <;> first | exact h | exact h.elim | rfl | exact trivial

theorem hush_fate {α : Type} (x : Res α) : (hush x).fate = x.fate.map Fate.kind := by cases x <;> rfl

/-- One request of MPI_Waitall. -/
theorem test_wait {α : Type} (M : Mach) (h : Int) (p : StPtr) (K : Mach → Int → StPtr → Res α) (msg : String) :
    hush (M.test h p >>= fun r => if r.flag = 0 then .abort msg else K r.mach r.request r.status) =
      hush (M.wait h p >>= fun x => K x.1 x.2.1 x.2.2) := by
  unfold Mach.wait
  rw [Res.bind_bind']
  refine hush_bind _ fun r _ => ?_
  by_cases hf : r.flag = 0
  · rw [if_pos hf, if_pos hf]; rfl
  · rw [if_neg hf, if_neg hf]; rfl

theorem waitall_waits : ∀ (hs : List Int) (M : Mach) (pre : List Int) (l : List Status) (n : Nat), n = pre.length + hs.length → n ≤ l.length →
    hush ((Engine.mach env).waits (List.range' pre.length hs.length) M (pre ++ hs) (StArr.each (some l) n)) =
      hush (M.waitall pre.length hs (some l) >>= fun x => .ok (x.1, pre ++ x.2.1, x.2.2.each n))
  | [], _, _, _, _, _, _ => rfl
  | h :: hs, M, pre, l, n, hn, hl => by
    rw [List.length_cons] at hn
    have hk : pre.length < l.length := by omega
    have h1 : (pre ++ h :: hs)[pre.length]? = some h := by rw [List.getElem?_append_right (Nat.le_refl _), Nat.sub_self]; rfl
    have h2 : (StArr.each (some l) n)[pre.length]? = some (.obj l[pre.length]) := by
      unfold StArr.each
      dsimp only
      rw [List.getElem?_map, List.getElem?_take_of_lt (by omega), List.getElem?_eq_getElem hk]
      rfl
    have hat : StArr.at (some l) pre.length = .ok (.obj l[pre.length]) := by
      unfold StArr.at rd
      dsimp only
      rw [List.getElem?_eq_getElem hk]
      rfl
    rw [List.length_cons, List.range'_succ, waits_cons h1 h2 nofun, Mach.waitall, hat, Res.ok_bind, Res.bind_bind']
    have hM : hush (M.test h (.obj l[pre.length]) >>= fun r => (if r.flag = 0 then (.abort "MPI_Waitall: request not complete, deadlock")
        else r.mach.waitall (pre.length + 1) hs (StArr.upd (some l) pre.length r.status) >>= fun y => Res.ok (y.1, r.request :: y.2.1, y.2.2)) >>=
          fun x => Res.ok (x.1, pre ++ x.2.1, x.2.2.each n)) =
        hush (M.wait h (.obj l[pre.length]) >>= fun x => x.1.waitall (pre.length + 1) hs (StArr.upd (some l) pre.length x.2.2) >>= fun y =>
          .ok (y.1, pre ++ x.2.1 :: y.2.1, y.2.2.each n)) := by
      rw [← test_wait _ _ _ (fun a b c => a.waitall (pre.length + 1) hs (StArr.upd (some l) pre.length c) >>= fun y =>
          .ok (y.1, pre ++ b :: y.2.1, y.2.2.each n)) "MPI_Waitall: request not complete, deadlock"]
      congr 1
      refine Res.bind_congr fun r _ => ?_
      by_cases hf : r.flag = 0
      · rw [if_pos hf, if_pos hf]; rfl
      · rw [if_neg hf, if_neg hf, Res.bind_bind']; rfl
    refine Eq.trans ?_ hM.symm
    rw [wait_eq M h (p := .obj l[pre.length]) nofun, Res.bind_bind']
    refine hush_bind _ fun r _ => ?_
    rw [Res.ok_bind]
    dsimp only
    have hset : (pre ++ h :: hs).set pre.length 0 = (pre ++ [0]) ++ hs := by rw [set_mid]
    have ih := waitall_waits hs (drop M h) (pre ++ [0]) (l.set pre.length { l[pre.length] with MPI_SOURCE := r.1, MPI_TAG := r.2 }) n
      (by rw [List.length_append, List.length_singleton]; omega) (by rw [List.length_set]; exact hl)
    rw [List.length_append, List.length_singleton] at ih
    rw [hset]
    have hps : (StArr.each (some l) n).set pre.length (fill (.obj l[pre.length]) r) =
        StArr.each (some (l.set pre.length { l[pre.length] with MPI_SOURCE := r.1, MPI_TAG := r.2 })) n := by
      unfold StArr.each
      dsimp only
      rw [List.take_set, List.map_set]
      rfl
    rw [hps, ih]
    congr 1
    refine Res.bind_congr fun y _ => ?_
    simp

theorem waitall_tail : ∀ (hs : List Int) (M : Mach) (k : Nat) (l : List Status) {x : Mach × List Int × StArr}, M.waitall k hs (some l) = .ok x →
    ∃ l', x.2.2 = some l' ∧ l'.length = l.length ∧ l'.drop (k + hs.length) = l.drop (k + hs.length)
  | [], _, _, l, _, h => by cases h; exact ⟨l, rfl, rfl, rfl⟩
  | h :: hs, M, k, l, x, hx => by
    unfold Mach.waitall at hx
    obtain ⟨p, _, hx⟩ := Res.bind_eq_ok.1 hx
    obtain ⟨r, _, hx⟩ := Res.bind_eq_ok.1 hx
    split at hx
    · cases hx
    · obtain ⟨y, hy, hx⟩ := Res.bind_eq_ok.1 hx
      cases hx
      have hu : ∃ l₁, StArr.upd (some l) k r.status = some l₁ ∧ l₁.length = l.length ∧ l₁.drop (k + 1 + hs.length) = l.drop (k + 1 + hs.length) := by
        unfold StArr.upd
        split
        · next l' st e _ =>
          cases e
          refine ⟨_, rfl, List.length_set .., ?_⟩
          rw [List.drop_set_of_lt (by omega)]
        · exact ⟨l, rfl, rfl, rfl⟩
      obtain ⟨l₁, e1, e2, e3⟩ := hu
      rw [e1] at hy
      obtain ⟨l', f1, f2, f3⟩ := waitall_tail hs _ _ _ hy
      refine ⟨l', f1, f2.trans e2, ?_⟩
      rw [List.length_cons, show k + (hs.length + 1) = k + 1 + hs.length by omega, f3, e3]

theorem wf_apart {L : Ledger} : ∀ {rs : List Int}, WfReqs L rs → ∀ (i j : Nat), i ≠ j → ∀ h, rs[i]? = some h → rs[j]? = some h → h = 0
  | [], _, _, _, _, _, h, _ => nomatch h
  | r :: rs, hw, 0, 0, hn, _, _, _ => absurd rfl hn
  | r :: rs, hw, 0, j + 1, _, h, h1, h2 => by
    cases h1
    exact hw.1.elim id fun h => absurd (List.mem_of_getElem? (l := rs) (i := j) h2) h.2
  | r :: rs, hw, i + 1, 0, _, h, h1, h2 => by
    cases h2
    exact hw.1.elim id fun h => absurd (List.mem_of_getElem? (l := rs) (i := i) h1) h.2
  | r :: rs, hw, i + 1, j + 1, hn, h, h1, h2 => wf_apart hw.2 i j (fun e => hn (by rw [e])) h h1 h2

theorem wf_live {L : Ledger} : ∀ {rs : List Int}, WfReqs L rs → ∀ h ∈ rs, h = 0 ∨ ∃ i, (h, Obj.req i) ∈ L.objs
  | [], _, _, hm => nomatch hm
  | r :: rs, hw, h, hm => by
    rcases List.mem_cons.1 hm with rfl | hm
    · exact hw.1.imp id And.left
    · exact wf_live hw.2 h hm

/-- What is needed of a state: the objects have different handles, requests have operations. -/
structure Firm (M : Mach) : Prop where
  keys : (M.L.objs.map Prod.fst).Nodup
  reqs : ∀ h i, (h, Obj.req i) ∈ M.L.objs → i < M.L.ops.length
  pool : ∃ used n, M.pool.Serves used n

theorem Firm.live (hf : Firm M) {i : Nat} (hm : (h, Obj.req i) ∈ M.L.objs) : Live M h :=
  .inr ⟨_, Mach.op_eq hf.keys hm (List.getElem?_eq_getElem (hf.reqs _ _ hm))⟩

theorem each_length (sts : StArr) (n : Nat) (h : ∀ l, sts = some l → n ≤ l.length) : (sts.each n).length = n := by
  unfold StArr.each
  split
  · exact List.length_replicate
  · next l => rw [List.length_map, List.length_take, Nat.min_eq_left (h l rfl)]

theorem each_good (sts : StArr) (n : Nat) {p : StPtr} (hp : p ∈ sts.each n) : p ≠ .bad := by
  unfold StArr.each at hp
  split at hp
  · rw [List.eq_of_mem_replicate hp]; exact nofun
  · obtain ⟨_, _, rfl⟩ := List.mem_map.1 hp; exact nofun

theorem range'_perm {n : Nat} {order : List Nat} (h : order.Perm (List.range n)) : (List.range' 0 n).Perm order := by
  rw [← List.range_eq_range']
  exact h.symm

/-- MPI_Waitall, step by step. -/
theorem waitall_steps (hf : Firm M) (hin : M.L.inited = true) (hw : WfReqs M.L rs) {sts : StArr} {k : Int} (hr : (Call.waitall k rs sts).Roomy) {order : Nat → List Nat}
    (ho : ∀ n, (order n).Perm (List.range n)) :
    Same (hush (M.answer env (.waitall k rs sts))) (hush ((Engine.mach env).inSteps order M (.waitall k rs sts))) := by
  have hlen : ∀ l, sts = some l → rs.length ≤ l.length := fun l e => by subst e; exact hr
  have hset : Set M rs (sts.each rs.length) (List.range' 0 rs.length) := by
    refine ⟨hin, List.nodup_range', fun i hi => ?_, fun i _ j _ hn h => wf_apart hw i j hn h⟩
    have hi' : i < rs.length := by rw [List.mem_range'_1] at hi; omega
    have hi'' : i < (sts.each rs.length).length := by rw [each_length sts _ hlen]; exact hi'
    refine ⟨rs[i], (sts.each rs.length)[i], List.getElem?_eq_getElem hi', List.getElem?_eq_getElem hi'', each_good sts rs.length (List.getElem_mem hi''), ?_⟩
    rcases wf_live hw _ (List.getElem_mem hi') with h0 | ⟨q, hq⟩
    · exact .inl h0
    · exact hf.live hq
  have h1 := waits_perm (env := env) (range'_perm (ho rs.length)) hset
  have key : hush (M.answer env (.waitall k rs sts)) =
      hush ((Engine.mach env).waits (List.range' 0 rs.length) M rs (sts.each rs.length) >>= fun x => Res.ok (x.1, Out.ofDone x.2.1 (sts.back x.2.2))) := by
    show hush (M.waitall 0 rs sts >>= fun x => Res.ok (x.1, Out.ofDone x.2.1 x.2.2.ptrs)) = _
    cases sts with
    | none =>
      cases rs with
      | nil => rfl
      | cons h rs =>
        have : rs = [] := List.eq_nil_of_length_eq_zero (by have : (h :: rs).length ≤ 1 := hr; rw [List.length_cons] at this; omega)
        subst this
        have hat : StArr.at none 0 = .ok .null := rfl
        rw [Mach.waitall, hat, Res.ok_bind, Res.bind_bind']
        rw [show List.range' 0 [h].length = [0] from rfl, waits_cons (h := h) (p := .null) rfl rfl nofun]
        have hM : hush (M.test h .null >>= fun r => (if r.flag = 0 then (.abort "MPI_Waitall: request not complete, deadlock")
            else r.mach.waitall (0 + 1) [] (StArr.upd none 0 r.status) >>= fun y => Res.ok (y.1, r.request :: y.2.1, y.2.2)) >>=
              fun x => Res.ok (x.1, Out.ofDone x.2.1 x.2.2.ptrs)) =
            hush (M.wait h .null >>= fun x => Res.ok (x.1, Out.ofDone [x.2.1] [])) := by
          rw [← test_wait _ _ _ (fun a b _ => Res.ok (a, Out.ofDone [b] [])) "MPI_Waitall: request not complete, deadlock"]
          congr 1
          refine Res.bind_congr fun r _ => ?_
          by_cases hf : r.flag = 0
          · rw [if_pos hf, if_pos hf]; rfl
          · rw [if_neg hf, if_neg hf]; rfl
        refine hM.trans ?_
        rw [wait_eq M h (p := .null) nofun, Res.bind_bind', Res.bind_bind']
        rfl
    | some l =>
      have h2 := waitall_waits (env := env) rs M [] l rs.length (by simp) hr
      have h3 : hush (M.waitall 0 rs (some l) >>= fun x => Res.ok (x.1, Out.ofDone x.2.1 x.2.2.ptrs)) =
          hush ((M.waitall 0 rs (some l) >>= fun x => .ok (x.1, x.2.1, x.2.2.each rs.length)) >>= fun x => Res.ok (x.1, Out.ofDone x.2.1 (StArr.back (some l) x.2.2))) := by
        rw [Res.bind_bind']
        refine hush_bind _ fun x hx => ?_
        rw [Res.ok_bind]
        obtain ⟨l', e1, e2, e3⟩ := waitall_tail rs M 0 l hx
        rw [Nat.zero_add] at e3
        dsimp only
        rw [e1]
        have hl : rs.length ≤ l.length := hr
        have : StArr.back (some l) (StArr.each (some l') rs.length) = StArr.ptrs (some l') := by
          unfold StArr.back StArr.each StArr.ptrs
          dsimp only [Option.getD]
          rw [List.length_map, List.length_take, Nat.min_eq_left (by omega), ← e3, ← List.map_append, List.take_append_drop]
        rw [this]
      rw [h3]
      have hb : ∀ {α β : Type} {x y : Res α} (f : α → Res β), hush x = hush y → hush (x >>= f) = hush (y >>= f) := fun {α β x y} f h => by
        cases x <;> cases y <;> first | rfl | (cases h; done) | (cases h; rfl)
      exact hb _ h2.symm
  rw [key]
  show Same (hush _) (hush _)
  unfold Engine.inSteps
  dsimp only
  have h4 : Same ((Engine.mach env).waits (List.range' 0 rs.length) M rs (sts.each rs.length) >>= fun x => Res.ok (x.1, Out.ofDone x.2.1 (sts.back x.2.2)))
      ((Engine.mach env).waits (order rs.length) M rs (sts.each rs.length) >>= fun x => Res.ok (x.1, Out.ofDone x.2.1 (sts.back x.2.2))) :=
    Rel.bind h1 fun x y _ _ h => ⟨h.1, by dsimp only; rw [h.2]⟩
  exact hush_same h4

/-! ## MPI_Sendrecv -/

/-- A request is made. -/
def Posts (M : Mach) (x : Mach × Int) : Prop :=
  ∃ P, M.pool.take = some (x.2, P) ∧ x.1.pool = P ∧ x.1.L.objs = (x.2, Obj.req M.L.ops.length) :: M.L.objs ∧
    x.1.L.ops.length = M.L.ops.length + 1 ∧ x.1.L.inited = M.L.inited

theorem post_facts (L : Ledger) (k : Kind) (c : Nat) (tag buf count dtype h : Int) :
    (L.post k c tag buf count dtype h).objs = (h, Obj.req L.ops.length) :: L.objs ∧ (L.post k c tag buf count dtype h).ops.length = L.ops.length + 1 ∧
    (L.post k c tag buf count dtype h).inited = L.inited := by
  unfold Ledger.post
  split
  · refine ⟨rfl, ?_, rfl⟩
    dsimp only
    rw [List.length_append, List.length_singleton]
    unfold Ledger.settle
    rw [List.length_modify]
  · exact ⟨rfl, by dsimp only; rw [List.length_append, List.length_singleton], rfl⟩

theorem fresh_ok {x : Mach × Int} (hx : M.fresh = .ok x) : ∃ P, M.pool.take = some (x.2, P) ∧ x.1 = { M with pool := P } := by
  unfold Mach.fresh at hx
  split at hx
  · cases hx
  · next ht => cases hx; exact ⟨_, ht, rfl⟩

theorem copy_ok {a b c d e g : Int} {N : Mach} (hx : M.copy env a b c d e g = .ok N) : N.L = M.L ∧ N.pool = M.pool := by
  unfold Mach.copy at hx
  obtain ⟨_, _, hx⟩ := Res.bind_eq_ok.1 hx
  obtain ⟨_, _, hx⟩ := Res.bind_eq_ok.1 hx
  obtain ⟨_, _, hx⟩ := Res.bind_eq_ok.1 hx
  cases hx
  exact ⟨rfl, rfl⟩

theorem isend_posts {b n t d g c : Int} {x : Mach × Int} (hx : M.isend env b n t d g c = .ok x) : Posts M x := by
  unfold Mach.isend at hx
  split at hx
  · cases hx
  obtain ⟨⟨M1, r⟩, h1, hx⟩ := Res.bind_eq_ok.1 hx
  obtain ⟨P, h2, h3⟩ := fresh_ok h1
  dsimp only at h2 h3 hx
  subst h3
  split at hx
  · cases hx
    exact ⟨P, h2, rfl, rfl, by dsimp only [Ledger.postNull]; rw [List.length_append, List.length_singleton], rfl⟩
  · obtain ⟨q, _, hx⟩ := Res.bind_eq_ok.1 hx
    split at hx
    · cases hx
      exact ⟨P, h2, rfl, post_facts ..⟩
    · split at hx
      · cases hx
      · obtain ⟨N, h4, hx⟩ := Res.bind_eq_ok.1 hx
        obtain ⟨h5, h6⟩ := copy_ok h4
        cases hx
        refine ⟨P, h2, h6, ?_⟩
        dsimp only
        rw [h5]
        exact post_facts ..

theorem irecv_posts {b n t d g c : Int} {x : Mach × Int} (hx : M.irecv env b n t d g c = .ok x) : Posts M x := by
  unfold Mach.irecv at hx
  split at hx
  · cases hx
  obtain ⟨⟨M1, r⟩, h1, hx⟩ := Res.bind_eq_ok.1 hx
  obtain ⟨P, h2, h3⟩ := fresh_ok h1
  dsimp only at h2 h3 hx
  subst h3
  split at hx
  · cases hx
    exact ⟨P, h2, rfl, rfl, by dsimp only [Ledger.postNull]; rw [List.length_append, List.length_singleton], rfl⟩
  · obtain ⟨q, _, hx⟩ := Res.bind_eq_ok.1 hx
    split at hx
    · cases hx
      exact ⟨P, h2, rfl, post_facts ..⟩
    · split at hx
      · cases hx
      · obtain ⟨N, h4, hx⟩ := Res.bind_eq_ok.1 hx
        obtain ⟨h5, h6⟩ := copy_ok h4
        cases hx
        refine ⟨P, h2, h6, ?_⟩
        dsimp only
        rw [h5]
        exact post_facts ..

/-- Two requests are made: both can be waited for, and they are different. -/
theorem two_live (hf : Firm M) {x y : Mach × Int} (hx : Posts M x) (hy : Posts x.1 y) : Live y.1 x.2 ∧ Live y.1 y.2 ∧ x.2 ≠ y.2 := by
  obtain ⟨P, h1, h2, h3, h4, _⟩ := hx
  obtain ⟨Q, g1, g2, g3, g4, _⟩ := hy
  obtain ⟨used, n, hp⟩ := hf.pool
  obtain ⟨m, _, hP, _⟩ := hp.take_some h1
  rw [← h2] at hP
  obtain ⟨m', _, _, _, hn, _⟩ := hP.take_some g1
  have hne : x.2 ≠ y.2 := fun e => hn (.inl e.symm)
  have hop : ∀ h i, y.1.obj h = some (.req i) → i < y.1.L.ops.length → Live y.1 h := fun h i ho hi => by
    refine .inr ⟨y.1.L.ops[i], ?_⟩
    unfold Mach.op
    rw [ho]
    dsimp only
    rw [List.getElem?_eq_getElem hi]
  refine ⟨hop _ M.L.ops.length ?_ (by omega), hop _ x.1.L.ops.length ?_ (by omega), hne⟩
  · unfold Mach.obj
    rw [g3, h3, List.find?_cons_of_neg (by simpa using Ne.symm hne), List.find?_cons_of_pos (by simp)]
    rfl
  · unfold Mach.obj
    rw [g3, List.find?_cons_of_pos (by simp)]
    rfl

/-- MPI_Sendrecv, step by step. -/
theorem sendrecv_steps (hf : Firm M) (hin : M.L.inited = true) {b n t d g b' n' t' d' g' c : Int} {st : StPtr} (hr : st ≠ .bad) {order : Nat → List Nat}
    (ho : ∀ n, (order n).Perm (List.range n)) :
    Same (M.answer env (.sendrecv b n t d g b' n' t' d' g' c st)) ((Engine.mach env).inSteps order M (.sendrecv b n t d g b' n' t' d' g' c st)) := by
  show Same (M.sendrecv env b n t d g b' n' t' d' g' c st >>= fun x => Res.ok (x.1, (⟨x.2.vals, []⟩ : Out))) _
  unfold Engine.inSteps Mach.sendrecv
  dsimp only
  have e1 : ∀ M : Mach, (Engine.mach env) M (.irecv b' n' t' d' g' c) = M.irecv env b' n' t' d' g' c >>= fun x => Res.ok (x.1, Out.int x.2) := fun _ => rfl
  have e2 : ∀ M : Mach, (Engine.mach env) M (.isend b n t d g c) = M.isend env b n t d g c >>= fun x => Res.ok (x.1, Out.int x.2) := fun _ => rfl
  rw [e1, Res.bind_bind', Res.bind_bind']
  refine Rel.bind_same fun x hx => ?_
  rw [Res.ok_bind]
  dsimp only
  rw [e2, Res.bind_bind', Res.bind_bind']
  unfold Mach.send
  rw [Res.bind_bind']
  refine Rel.bind_same fun y hy => ?_
  rw [Res.ok_bind]
  dsimp only
  obtain ⟨hl, hl', hne⟩ := two_live hf (irecv_posts hx) (isend_posts hy)
  show Same _ ((Engine.mach env).waits (order 2) y.1 [x.2, y.2] [st, .null] >>= fun z => Res.ok (z.1, (⟨(z.2.2.headD st).vals, []⟩ : Out)))
  have hset : Set y.1 [x.2, y.2] [st, .null] [1, 0] := by
    obtain ⟨_, _, _, _, _, i1⟩ := irecv_posts hx
    obtain ⟨_, _, _, _, _, i2⟩ := isend_posts hy
    refine ⟨by rw [i2, i1]; exact hin, by decide, fun i hi => ?_, fun i hi j hj hn h h1 h2 => ?_⟩
    · simp only [List.mem_cons, List.not_mem_nil, or_false] at hi
      rcases hi with rfl | rfl
      · exact ⟨_, _, rfl, rfl, nofun, hl'⟩
      · exact ⟨_, _, rfl, rfl, hr, hl⟩
    · simp only [List.mem_cons, List.not_mem_nil, or_false] at hi hj
      rcases hi with rfl | rfl <;> rcases hj with rfl | rfl
      · exact absurd rfl hn
      · cases h1; exact absurd (Option.some.inj h2) hne
      · cases h1; exact absurd (Option.some.inj h2) (Ne.symm hne)
      · exact absurd rfl hn
  have h1 := waits_perm (env := env) ((List.Perm.swap 0 1 []).trans (ho 2).symm) hset
  have h2 := Rel.bind (f := fun z => Res.ok (z.1, (⟨(z.2.2.headD st).vals, []⟩ : Out))) (g := fun z => Res.ok (z.1, (⟨(z.2.2.headD st).vals, []⟩ : Out)))
    (S := fun x y => Alike x.1 y.1 ∧ x.2 = y.2) h1 fun x y _ _ h => ⟨h.1, by dsimp only; rw [h.2]⟩
  refine Same.trans (y := (Engine.mach env).waits [1, 0] y.1 [x.2, y.2] [st, .null] >>= fun z => Res.ok (z.1, (⟨(z.2.2.headD st).vals, []⟩ : Out))) ?_ h2
  rw [waits_cons (h := y.2) (p := .null) rfl rfl nofun, wait_eq y.1 y.2 (p := .obj ⟨0, 0, 0, 0⟩) nofun]
  simp only [Res.bind_bind', Res.ok_bind]
  refine Rel.bind_same fun r _ => ?_
  rw [waits_cons (h := x.2) (p := st) rfl rfl hr]
  show Same ((drop y.1 y.2).wait x.2 st >>= fun a => Res.ok (a.1, (⟨a.2.2.vals, []⟩ : Out))) _
  rw [wait_eq _ x.2 hr]
  simp only [Res.bind_bind', Res.ok_bind]
  exact Rel.bind_same fun r _ => ⟨.refl _, rfl⟩

/-- Every call. -/
theorem steps_same (hf : Firm M) {c : Call} (hin : c.inSession M.L.inited) (hw : c.Wf env M.L) (hr : c.Roomy) {order : Nat → List Nat} (ho : ∀ n, (order n).Perm (List.range n)) :
    Same (hush (M.answer env c)) (hush ((Engine.mach env).inSteps order M c)) := by
  have plain : ∀ c : Call, (Engine.mach env).inSteps order M c = M.answer env c →
      Same (hush (M.answer env c)) (hush ((Engine.mach env).inSteps order M c)) := fun c h => by
    rw [h]
    refine hush_same ?_
    cases M.answer env c <;> first | exact ⟨.refl _, rfl⟩ | rfl | exact trivial
  cases c with
  | waitall k rs sts => exact waitall_steps hf hin hw.2 hr ho
  | sendrecv => exact hush_same (sendrecv_steps hf hin hr ho)
  | _ => exact plain _ rfl

end
end Order

end MpiSerial
