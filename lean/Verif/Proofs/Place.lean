import Verif.Model.Place
import Verif.Proofs.Twin
import Verif.Props.Fort

/-!
# Completion calls on variables in memory do what they do on values
-/

set_option linter.unusedSimpArgs false
set_option autoImplicit false

namespace MpiSerial

open Spec.Fort
open Res (Rel)

namespace Place

/-- `m'` is `m` with the variables set; they may be accessed and do not overlap. -/
structure Img (bo : ByteOrder) (m : Mem) (outs : List Spec.Fort.Out) (m' : Mem) : Prop where
  wrote : Wrote bo m m' outs
  vars : Variables m' outs

section
variable {bo : ByteOrder} {m m' : Mem}

theorem Img.store {pre post : List Spec.Fort.Out} {o : Spec.Fort.Out} (h : Img bo m (pre ++ o :: post) m') (hw : o.width = 4) {i : Nat} (hi : i < o.vals.length) (v : Int)
    (s : Sys) : ∃ m'', stInt bo { s with mem := m' } (o.addr + 4 * i) v = .ok { s with mem := m'' } ∧
      Img bo m (pre ++ { o with vals := o.vals.set i v } :: post) m'' := by
  have hsub : ∀ a, (Out.int (o.addr + 4 * i) v).covers a → o.covers a := by
    intro a ha
    unfold Out.covers Out.int at ha
    unfold Out.covers
    rw [hw]
    simp only [List.length_singleton] at ha
    omega
  obtain ⟨m'', h1, h2, h3, h4⟩ := putOut_ok bo (s := { s with mem := m' }) (o := Out.int (o.addr + 4 * i) v)
    fun a ha => h.vars.accessible o (by simp) a (hsub a ha)
  refine ⟨m'', by rw [stInt_eq, h1], ?_⟩
  have hap := h.vars.apart
  rw [List.pairwise_append] at hap
  obtain ⟨hp1, hp2, hp3⟩ := hap
  obtain ⟨hp4, hp5⟩ := List.pairwise_cons.1 hp2
  have hcov : ∀ a, ({ o with vals := o.vals.set i v } : Spec.Fort.Out).covers a ↔ o.covers a := fun a => by
    unfold Out.covers
    rw [List.length_set]
  refine ⟨⟨fun o' ho' => ?_, fun a ha => ?_⟩, ⟨fun o' ho' a ha => ?_, ?_⟩⟩
  · have other : o' ∈ pre ++ o :: post → (∀ a, o'.covers a → ¬ o.covers a) → o'.Held bo m'' := fun hm hd =>
      held_mono (h.wrote.held o' hm) fun a ha => h3 a fun hc => hd a ha (hsub a hc)
    rcases List.mem_append.1 ho' with hm | hm
    · exact other (List.mem_append.2 (.inl hm)) fun a ha => hp3 o' hm o (by simp) a ha
    · rcases List.mem_cons.1 hm with rfl | hm
      · intro j x hx k hk
        dsimp only at hx hk
        rw [hw] at hk
        by_cases hj : j = i
        · subst hj
          rw [List.getElem?_set_self hi] at hx
          cases hx
          obtain ⟨b, hb, hv⟩ := h2 0 v rfl k hk
          refine ⟨b, ?_, hv⟩
          rw [← hb]
          cases bo <;> simp [Out.byteAddr, Out.int, hw]
        · rw [List.getElem?_set_ne (by omega)] at hx
          obtain ⟨b, hb, hv⟩ := h.wrote.held o (by simp) j x hx k (by rw [hw]; exact hk)
          refine ⟨b, ?_, hv⟩
          rw [← hb]
          show m'' (o.byteAddr bo j k) = _
          refine h3 _ fun hc => ?_
          unfold Out.covers Out.int at hc
          simp only [List.length_singleton] at hc
          cases bo <;> simp only [Out.byteAddr, hw] at hc <;> omega
      · exact other (by simp [hm]) fun a ha hc => hp4 o' hm a hc ha
  · have h5 : ¬ o.covers a := fun hc => ha _ (List.mem_append.2 (.inr (List.mem_cons_self ..))) ((hcov a).2 hc)
    rw [h3 a fun hc => h5 (hsub a hc)]
    refine h.wrote.frame a fun o' ho' => ?_
    rcases List.mem_append.1 ho' with hm | hm
    · exact ha o' (by simp [hm])
    · rcases List.mem_cons.1 hm with rfl | hm
      · exact h5
      · exact ha o' (by simp [hm])
  · have : (m' a).isSome := by
      rcases List.mem_append.1 ho' with hm | hm
      · exact h.vars.accessible o' (by simp [hm]) a ha
      · rcases List.mem_cons.1 hm with rfl | hm
        · exact h.vars.accessible o (by simp) a ((hcov a).1 ha)
        · exact h.vars.accessible o' (by simp [hm]) a ha
    rw [← h4 a] at *
    exact this
  · rw [List.pairwise_append]
    refine ⟨hp1, List.pairwise_cons.2 ⟨fun o' ho' a ha => hp4 o' ho' a ((hcov a).1 ha), hp5⟩, fun o' ho' o'' ho'' a ha => ?_⟩
    rcases List.mem_cons.1 ho'' with rfl | hm
    · exact fun hc => hp3 o' ho' o (by simp) a ha ((hcov a).1 hc)
    · exact hp3 o' ho' o'' (by simp [hm]) a ha

theorem Img.load {outs : List Spec.Fort.Out} (h : Img bo m outs m') {p : Int} {vs : List Int} (ho : (⟨p, 4, vs⟩ : Spec.Fort.Out) ∈ outs) {i : Nat} {v : Int}
    (hi : vs[i]? = some v) (hv : s32 v = v) : ldInt bo m' (p + 4 * i) = .ok v := by
  rw [ldInt_eq, C50_reads_back (o := ⟨p, 4, vs⟩) h.wrote ho rfl hi, hv]
  rfl

end

/-! ## Variables -/

/-- The variable holds `v`: it is the library's own, or element `i` of the array `vs` at `p`. -/
def Var.Is (x : Var) (p : Int) (vs : List Int) (i : Nat) (v : Int) : Prop := x = .mine v ∨ (x = .mem (p + 4 * i) ∧ vs[i]? = some v ∧ s32 v = v)

/-- The array after an assignment to the variable. -/
def Var.upd (x : Var) (vs : List Int) (i : Nat) (v : Int) : List Int :=
  match x with
  | .mine _ => vs
  | .mem _ => vs.set i v

section
variable {bo : ByteOrder} {m m' : Mem} {x : Var} {p : Int} {vs : List Int} {i : Nat} {v : Int}

theorem Var.Is.get (h : x.Is p vs i v) {outs : List Spec.Fort.Out} (him : Img bo m outs m') (ho : (⟨p, 4, vs⟩ : Spec.Fort.Out) ∈ outs) (s : Sys) :
    x.get bo { s with mem := m' } = .ok v := by
  rcases h with rfl | ⟨rfl, h1, h2⟩
  · rfl
  · exact him.load ho h1 h2

theorem Var.Is.set (h : x.Is p vs i v) {pre post : List Spec.Fort.Out} (him : Img bo m (pre ++ ⟨p, 4, vs⟩ :: post) m') (w : Int) (hw : s32 w = w) (s : Sys) :
    ∃ m'' x', x.set bo { s with mem := m' } w = .ok ({ s with mem := m'' }, x') ∧ Img bo m (pre ++ ⟨p, 4, x.upd vs i w⟩ :: post) m'' ∧
      x'.Is p (x.upd vs i w) i w ∧ (∀ us, x'.upd us = x.upd us) := by
  rcases h with rfl | ⟨rfl, h1, h2⟩
  · exact ⟨m', .mine w, rfl, him, .inl rfl, fun _ => rfl⟩
  · have hi := (List.getElem?_eq_some_iff.1 h1).1
    obtain ⟨m'', h3, h4⟩ := him.store rfl hi w s
    refine ⟨m'', .mem (p + 4 * i), ?_, h4, .inr ⟨rfl, ?_, hw⟩, fun _ => rfl⟩
    · show (stInt bo _ (p + 4 * i) w >>= _) = _
      rw [h3]; rfl
    · exact List.getElem?_set_self hi

theorem Var.Is.upd_same (h : x.Is p vs i v) : x.upd vs i v = vs := by
  rcases h with rfl | ⟨rfl, h1, _⟩
  · rfl
  · obtain ⟨hi, e⟩ := List.getElem?_eq_some_iff.1 h1
    show vs.set i v = vs
    rw [← e, List.set_getElem_self]

end

/-! ## Statuses -/

/-- The fields of statuses one after the other. -/
def flat (l : List Status) : List Int := l.flatMap Status.fields

theorem flat_length : ∀ l : List Status, (flat l).length = 4 * l.length
  | [] => rfl
  | st :: l => by
    show (st.fields ++ flat l).length = _
    rw [List.length_append, flat_length l, List.length_cons]
    show 4 + _ = _
    omega

theorem flat_set (k : Nat) (hk : k < 4) : ∀ (l : List Status) (i : Nat) (st : Status), l[i]? = some st → ∀ v,
    (flat l).set (4 * i + k) v = flat (l.set i (match k with
      | 0 => { st with MPI_SOURCE := v }
      | 1 => { st with MPI_TAG := v }
      | 2 => { st with MPI_ERROR := v }
      | _ => { st with get_count := v }))
  | [], _, _, h, _ => nomatch h
  | a :: l, 0, st, h, v => by
    cases h
    match k, hk with
    | 0, _ | 1, _ | 2, _ | 3, _ => rfl
  | a :: l, i + 1, st, h, v => by
    have ih := flat_set k hk l i st h v
    rw [List.set_cons_succ]
    show (a.fields ++ flat l).set _ v = a.fields ++ flat _
    rw [← ih, show 4 * (i + 1) + k = 4 * i + k + 1 + 1 + 1 + 1 by omega]
    rfl

/-- The variable behind the pointer holds `st`: none, or element `i` of `sts` at `p`. -/
def StVar.Is (x : StVar) (p : Int) (sts : StArr) (i : Nat) (st : StPtr) : Prop :=
  match x, st with
  | .null, .null => True
  | .bad, .bad => True
  | .mem q, .obj t => q = p + 16 * i ∧ ∃ l, sts = some l ∧ l[i]? = some t
  | _, _ => False

section
variable {bo : ByteOrder} {m m' : Mem} {x : StVar} {p : Int} {sts : StArr} {i : Nat} {st : StPtr}

/-- One field. -/
theorem StVar.store_field {l : List Status} {t : Status} {pre post : List Spec.Fort.Out} (him : Img bo m (pre ++ Out.statuses p (some l) :: post) m')
    (hi : l[i]? = some t) (k : Nat) (hk : k < 4) (v : Int) (s : Sys) :
    ∃ m'', stInt bo { s with mem := m' } (p + 16 * i + (4 * k : Nat)) v = .ok { s with mem := m'' } ∧
      Img bo m (pre ++ Out.statuses p (some (l.set i (match k with
        | 0 => { t with MPI_SOURCE := v }
        | 1 => { t with MPI_TAG := v }
        | 2 => { t with MPI_ERROR := v }
        | _ => { t with get_count := v }))) :: post) m'' := by
  have hl := (List.getElem?_eq_some_iff.1 hi).1
  obtain ⟨m'', h1, h2⟩ := Img.store (o := ⟨p, 4, flat l⟩) him rfl (i := 4 * i + k) (by show _ < (flat l).length; rw [flat_length]; omega) v s
  refine ⟨m'', ?_, ?_⟩
  · rw [← h1]
    congr 1
    show _ = p + 4 * ((4 * i + k : Nat) : Int)
    push_cast; omega
  · rw [show (⟨p, 4, (flat l).set (4 * i + k) v⟩ : Spec.Fort.Out) = _ from congrArg (fun z => (⟨p, 4, z⟩ : Spec.Fort.Out)) (flat_set k hk l i t hi v)] at h2
    exact h2

/-- What an assignment of source and tag is to the statuses. -/
theorem StVar.Is.put (h : x.Is p sts i st) {pre post : List Spec.Fort.Out} (him : Img bo m (pre ++ Out.statuses p sts :: post) m') (src tag : Int) (s : Sys)
    {g : Sys → Res Sys} (hg : ∀ m'', g { s with mem := m'' } = x.store bo { s with mem := m'' } 4 tag) :
    Rel (fun a st' => ∃ m'', a = { s with mem := m'' } ∧ Img bo m (pre ++ Out.statuses p (sts.upd i st') :: post) m'' ∧ x.Is p (sts.upd i st') i st')
      (if x ≠ .null then (x.store bo { s with mem := m' } 0 src >>= g) else .ok { s with mem := m' }) (st.put src tag) := by
  cases x with
  | null =>
    cases st with
    | null => exact ⟨m', rfl, (by cases sts <;> exact him), trivial⟩
    | _ => exact h.elim
  | bad =>
    cases st with
    | bad => exact rfl
    | _ => exact h.elim
  | mem q =>
    cases st with
    | obj t =>
      obtain ⟨rfl, l, rfl, hl⟩ := h
      rw [if_pos (by nofun)]
      have hlen := (List.getElem?_eq_some_iff.1 hl).1
      obtain ⟨m1, h1, h2⟩ := StVar.store_field him hl 0 (by omega) src s
      obtain ⟨m2, h3, h4⟩ := StVar.store_field (t := { t with MPI_SOURCE := src }) (i := i) h2 (List.getElem?_set_self hlen) 1 (by omega) tag s
      have e : (StVar.mem (p + 16 * i)).store bo { s with mem := m' } 0 src = .ok { s with mem := m1 } := h1
      rw [e, Res.ok_bind, hg]
      have e2 : (StVar.mem (p + 16 * i)).store bo { s with mem := m1 } 4 tag = .ok { s with mem := m2 } := h3
      rw [e2]
      dsimp only at h4
      rw [List.set_set] at h4
      exact ⟨m2, rfl, h4, rfl, _, rfl, List.getElem?_set_self hlen⟩
    | _ => exact h.elim

/-- The same, tag first. -/
theorem StVar.Is.put' (h : x.Is p sts i st) {pre post : List Spec.Fort.Out} (him : Img bo m (pre ++ Out.statuses p sts :: post) m') (src tag : Int) (s : Sys) :
    Rel (fun a st' => ∃ m'', a = { s with mem := m'' } ∧ Img bo m (pre ++ Out.statuses p (sts.upd i st') :: post) m'' ∧ x.Is p (sts.upd i st') i st')
      (if x ≠ .null then (x.store bo { s with mem := m' } 4 tag >>= fun s => x.store bo s 0 src) else .ok { s with mem := m' }) (st.put src tag) := by
  cases x with
  | null =>
    cases st with
    | null => exact ⟨m', rfl, (by cases sts <;> exact him), trivial⟩
    | _ => exact h.elim
  | bad =>
    cases st with
    | bad => exact rfl
    | _ => exact h.elim
  | mem q =>
    cases st with
    | obj t =>
      obtain ⟨rfl, l, rfl, hl⟩ := h
      rw [if_pos (by nofun)]
      have hlen := (List.getElem?_eq_some_iff.1 hl).1
      obtain ⟨m1, h1, h2⟩ := StVar.store_field him hl 1 (by omega) tag s
      obtain ⟨m2, h3, h4⟩ := StVar.store_field (t := { t with MPI_TAG := tag }) (i := i) h2 (List.getElem?_set_self hlen) 0 (by omega) src s
      have e : (StVar.mem (p + 16 * i)).store bo { s with mem := m' } 4 tag = .ok { s with mem := m1 } := h1
      rw [e, Res.ok_bind]
      have e2 : (StVar.mem (p + 16 * i)).store bo { s with mem := m1 } 0 src = .ok { s with mem := m2 } := h3
      rw [e2]
      dsimp only at h4
      rw [List.set_set] at h4
      exact ⟨m2, rfl, h4, rfl, _, rfl, List.getElem?_set_self hlen⟩
    | _ => exact h.elim

end

/-! ## MPI_Test -/

/-- The `complete` members are `int`s. -/
def FlagsInt (s : Sys) : Prop := ∀ l r, (s.handles.items l).data = .req r → s32 r.complete = r.complete

theorem req_int {s : Sys} (h : FlagsInt s) {o : Option Loc} {r : ReqRec} (hr : s.req o = .ok r) : s32 r.complete = r.complete := by
  cases o with
  | none => cases hr
  | some l =>
    obtain ⟨it, h1, h2⟩ := Res.bind_eq_ok.1 hr
    unfold HTab.deref at h1
    split at h1
    · cases h1
      split at h2
      · cases h2
        rename_i e
        exact h l _ e
      · cases h2
    · cases h1

theorem set_data {D : Type} (t : HTab D) (l : Loc) (h : Int) (n : Option Loc) (x : Loc) :
    ((t.set l { t.items l with handle := h, next := n }).items x).data = (t.items x).data := by
  show (if x = l then _ else _ : Item D).data = _
  split
  · next e => rw [e]
  · rfl

theorem initBlock_data {D : Type} (b : Nat) (x : Loc) (k : Nat) : ∀ t : HTab D, ((initBlockN t b k).items x).data = (t.items x).data := by
  intro t
  unfold initBlockN
  dsimp only
  rw [set_data]
  generalize List.range k = l
  induction l generalizing t with
  | nil => rfl
  | cons i l ih =>
    rw [List.foldl_cons, ih, set_data]

theorem init_data {D : Type} (t : HTab D) (x : Loc) : ((init_handles t).items x).data = (t.items x).data := by
  have h : ∀ t₁ : HTab D, (t₁.items x).data = (t.items x).data → ∀ n l nb b,
      (({ ({ t₁ with nextfree := n } : HTab D).set l { t₁.items l with next := none } with nblocks := nb, needInit := b } : HTab D).items x).data =
        (t.items x).data := by
    intro t₁ h1 n l nb b
    rw [← h1]
    exact set_data ({ t₁ with nextfree := n } : HTab D) l (t₁.items l).handle none x
  exact h (init_block t 0) (initBlock_data 0 x _ t) _ ⟨0, 0⟩ 1 false

theorem ptr_data {s s' : Sys} {h : Int} {o : Option Loc} (hp : s.ptr h = .ok (s', o)) : ∃ t, s' = { s with handles := t } ∧
    ∀ x, (t.items x).data = (s.handles.items x).data := by
  obtain ⟨⟨t, q⟩, h1, h2⟩ := Res.bind_eq_ok.1 hp
  cases h2
  refine ⟨t, rfl, ?_⟩
  unfold mpi_handle_to_ptr at h1
  dsimp only at h1
  have key : ∀ x, ((if s.handles.needInit then init_handles s.handles else s.handles).items x).data = (s.handles.items x).data := by
    intro x
    split
    · exact init_data _ x
    · rfl
  split at h1
  · cases h1; exact key
  · obtain ⟨_, _, h2⟩ := Res.bind_eq_ok.1 h1
    cases h2
    exact key

theorem free_data {D : Type} {t t' : HTab D} {h : Int} (hf : mpi_free_handle t h = .ok t') (x : Loc) : (t'.items x).data = (t.items x).data := by
  unfold mpi_free_handle at hf
  split at hf
  · cases hf; rfl
  · split at hf
    · cases hf
    · obtain ⟨_, _, h2⟩ := Res.bind_eq_ok.1 hf
      cases h2
      exact set_data ..

theorem FlagsInt.test {s : Sys} (hf : FlagsInt s) {h : Int} {st : StPtr} {x : TestRes} (hx : MpiSerial.MPI_Test s h st = .ok x) : FlagsInt x.sys := by
  unfold MpiSerial.MPI_Test at hx
  split at hx
  · obtain ⟨_, _, h2⟩ := Res.bind_eq_ok.1 hx
    cases h2
    exact hf
  · obtain ⟨⟨s1, o⟩, h1, h2⟩ := Res.bind_eq_ok.1 hx
    obtain ⟨t, rfl, ht⟩ := ptr_data h1
    obtain ⟨r, h3, h4⟩ := Res.bind_eq_ok.1 h2
    have hf1 : FlagsInt { s with handles := t } := fun l r hr => hf l r (by rw [← ht l]; exact hr)
    dsimp only at h3 h4
    split at h4
    · obtain ⟨_, _, h5⟩ := Res.bind_eq_ok.1 h4
      obtain ⟨t', h6, h7⟩ := Res.bind_eq_ok.1 h5
      cases h7
      exact fun l r hr => hf1 l r (by rw [← free_data h6 l]; exact hr)
    · cases h4
      exact hf1

/-- Requests, flag and statuses of a completion call, and other variables. -/
abbrev vars (R : Int) (rs : List Int) (F : Int) (fs : List Int) (S : Int) (sts : StArr) (more : List Spec.Fort.Out) : List Spec.Fort.Out :=
  ⟨R, 4, rs⟩ :: ⟨F, 4, fs⟩ :: Out.statuses S sts :: more

section
variable {bo : ByteOrder} {m m' : Mem} {R F S : Int} {rs fs : List Int} {sts : StArr} {more : List Spec.Fort.Out}

theorem test_rel (him : Img bo m (vars R rs F fs S sts more) m') {s : Sys} (hf : FlagsInt s) {request flag : Var} {status : StVar} {i j k : Nat} {h f : Int}
    {st : StPtr} (hr : request.Is R rs i h) (hfl : flag.Is F fs j f) (hst : status.Is S sts k st) :
    Rel (fun a b => ∃ m'', a.1 = { b.sys with mem := m'' } ∧
        Img bo m (vars R (request.upd rs i b.request) F (flag.upd fs j b.flag) S (sts.upd k b.status) more) m'' ∧
        a.2.1.Is R (request.upd rs i b.request) i b.request ∧ a.2.2.Is F (flag.upd fs j b.flag) j b.flag ∧
        status.Is S (sts.upd k b.status) k b.status ∧ (∀ us, a.2.2.upd us = flag.upd us))
      (MPI_Test bo { s with mem := m' } request flag status) (MpiSerial.MPI_Test s h st) := by
  unfold MPI_Test MpiSerial.MPI_Test
  rw [hr.get him (by simp), Res.ok_bind]
  by_cases hn : h = MPI_REQUEST_NULL
  · rw [if_pos hn, if_pos hn]
    refine (StVar.Is.put' (pre := [⟨R, 4, rs⟩, ⟨F, 4, fs⟩]) (post := more) hst him MPI_ANY_SOURCE MPI_ANY_TAG s).bind fun a st' _ _ hab => ?_
    obtain ⟨m1, rfl, him1, hst1⟩ := hab
    obtain ⟨m2, x', h1, h2, h3, h4⟩ := Var.Is.set (pre := [⟨R, 4, rs⟩]) (post := (Out.statuses S (sts.upd k st') :: more)) hfl him1 1 rfl s
    rw [h1, Res.ok_bind]
    refine ⟨m2, rfl, ?_, ?_, h3, hst1, h4⟩
    · rw [show request.upd rs i h = rs from hr.upd_same]
      exact h2
    · rw [show request.upd rs i h = rs from hr.upd_same]
      exact hr
  · rw [if_neg hn, if_neg hn, Res.ok_bind]
    have hp : ({ s with mem := m' } : Sys).ptr h = (s.ptr h >>= fun x => .ok ({ x.1 with mem := m' }, x.2)) := by
      unfold Sys.ptr
      simp only [bind_assoc, Res.pure_eq, Res.ok_bind]
    rw [hp]
    simp only [bind_assoc, Res.ok_bind]
    refine Rel.bind_same fun ⟨s1, o⟩ hs1 => ?_
    obtain ⟨t, rfl, ht⟩ := ptr_data hs1
    dsimp only
    have hreq : ∀ m₂, ({ s with handles := t, mem := m₂ } : Sys).req o = ({ s with handles := t } : Sys).req o := fun m₂ => by cases o <;> rfl
    have hf1 : FlagsInt { s with handles := t } := fun l r hr => hf l r (by rw [← ht l]; exact hr)
    rw [hreq m']
    refine Rel.bind_same fun r hr0 => ?_
    have hint := req_int hf1 hr0
    obtain ⟨m1, x', h1, h2, h3, h4⟩ := Var.Is.set (pre := [⟨R, 4, rs⟩]) (post := (Out.statuses S sts :: more)) hfl him r.complete hint { s with handles := t }
    rw [h1, Res.ok_bind]
    dsimp only
    rw [show x'.get bo ({ s with handles := t, mem := m1 } : Sys) = .ok r.complete from h3.get h2 (by simp) { s with handles := t }, Res.ok_bind]
    by_cases hc : r.complete = 0
    · rw [if_neg (by omega), if_neg (by omega)]
      refine ⟨m1, rfl, ?_, ?_, h3, ?_, h4⟩
      · rw [show request.upd rs i h = rs from hr.upd_same]
        cases sts with
        | none => exact h2
        | some l =>
          cases st with
          | obj st0 =>
            cases status with
            | mem q =>
              obtain ⟨_, l', e, hl⟩ := hst
              cases e
              obtain ⟨hk, e⟩ := List.getElem?_eq_some_iff.1 hl
              show Img bo m (vars R rs F _ S (some (l.set k st0)) more) m1
              rw [← e, List.set_getElem_self]
              exact h2
            | _ => exact hst.elim
          | _ => exact h2
      · rw [show request.upd rs i h = rs from hr.upd_same]
        exact hr
      · cases sts with
        | none =>
          cases st with
          | obj st0 =>
            cases status with
            | mem q =>
              obtain ⟨_, l', e, hl⟩ := hst
              cases e
            | _ => exact hst.elim
          | _ => exact hst
        | some l =>
          cases st with
          | obj st0 =>
            cases status with
            | mem q =>
              obtain ⟨hq, l', e, hl⟩ := hst
              cases e
              obtain ⟨hk, e⟩ := List.getElem?_eq_some_iff.1 hl
              exact ⟨hq, _, rfl, List.getElem?_set_self hk⟩
            | _ => exact hst.elim
          | _ => exact hst
    · have hc' : r.complete ≠ 0 := hc
      rw [if_pos hc', if_pos hc']
      simp only [hreq, hr0, Res.ok_bind]
      refine Rel.bind (StVar.Is.put (pre := [⟨R, 4, rs⟩, ⟨F, 4, flag.upd fs j r.complete⟩]) (post := more) hst h2 r.source r.tag { s with handles := t }
        (g := fun s₂ => s₂.req o >>= fun r => status.store bo s₂ 4 r.tag) fun m₂ => ?_) fun a st' _ _ hab => ?_
      · rw [hreq, hr0, Res.ok_bind]
      · obtain ⟨m2, rfl, him2, hst2⟩ := hab
        rw [show request.get bo ({ s with handles := t, mem := m2 } : Sys) = .ok h from hr.get him2 (by simp) { s with handles := t }, Res.ok_bind]
        refine Rel.bind_same fun t' ht' => ?_
        obtain ⟨m3, x2, g1, g2, g3, g4⟩ := Var.Is.set (pre := []) (post := (⟨F, 4, flag.upd fs j r.complete⟩ :: Out.statuses S (sts.upd k st') :: more)) hr him2
          MPI_REQUEST_NULL rfl { s with handles := t' }
        rw [g1, Res.ok_bind]
        exact ⟨m3, rfl, g2, g3, h3, hst2, h4⟩

end

/-! ## Loops -/

/-- Which kind of status argument it is does not change. -/
theorem StVar.Is.upd_same {x : StVar} {p : Int} {a : StArr} {k : Nat} {st : StPtr} (h : x.Is p a k st) : a.upd k st = a := by
  cases x <;> cases st <;> try exact h.elim
  · cases a <;> rfl
  · obtain ⟨_, l, rfl, hl⟩ := h
    obtain ⟨hk, e⟩ := List.getElem?_eq_some_iff.1 hl
    show some (l.set k _) = _
    rw [← e, List.set_getElem_self]
  · cases a <;> rfl

theorem StVar.Is.upd_upd {x : StVar} {p : Int} {a : StArr} {k : Nat} {st st1 st2 : StPtr} (h : x.Is p a k st) (h1 : x.Is p (a.upd k st1) k st1)
    {b : StArr} (h2 : x.Is p b k st2) : (a.upd k st1).upd k st2 = a.upd k st2 := by
  cases x <;> cases st <;> try exact h.elim
  · cases st1 <;> try exact h1.elim
    cases st2 <;> try exact h2.elim
    cases a <;> rfl
  · cases st1 <;> try exact h1.elim
    cases st2 <;> try exact h2.elim
    obtain ⟨_, l, rfl, hl⟩ := h
    show some ((l.set k _).set k _) = some (l.set k _)
    rw [List.set_set]
  · cases st1 <;> try exact h1.elim
    cases st2 <;> try exact h2.elim
    cases a <;> rfl

theorem Var.upd_upd (x : Var) (vs : List Int) (i : Nat) (v w : Int) : x.upd (x.upd vs i v) i w = x.upd vs i w := by
  cases x
  · rfl
  · exact List.set_set ..

/-- MPI_Test leaves the request alone or sets it to MPI_REQUEST_NULL. -/
theorem test_request {s : Sys} {h : Int} {st : StPtr} {x : TestRes} (hx : MpiSerial.MPI_Test s h st = .ok x) : x.request = h ∨ x.request = 0 := by
  unfold MpiSerial.MPI_Test at hx
  split at hx
  · obtain ⟨_, _, h2⟩ := Res.bind_eq_ok.1 hx
    cases h2
    exact .inl rfl
  · obtain ⟨_, h1, h2⟩ := Res.bind_eq_ok.1 hx
    obtain ⟨r, h3, h4⟩ := Res.bind_eq_ok.1 h2
    split at h4
    · obtain ⟨_, _, h5⟩ := Res.bind_eq_ok.1 h4
      obtain ⟨t', h6, h7⟩ := Res.bind_eq_ok.1 h5
      cases h7
      exact .inr rfl
    · cases h4
      exact .inl rfl

/-- The elements are `int`s. -/
abbrev Ints (vs : List Int) : Prop := ∀ v ∈ vs, s32 v = v

theorem Ints.set {vs : List Int} (h : Ints vs) {i : Nat} {v : Int} (hv : s32 v = v) : Ints (vs.set i v) := by
  intro w hw
  rcases List.mem_or_eq_of_mem_set hw with h1 | rfl
  · exact h w h1
  · exact hv

theorem Ints.test {vs : List Int} (h : Ints vs) {s : Sys} {i : Nat} {v : Int} (hi : vs[i]? = some v) {st : StPtr} {x : TestRes}
    (hx : MpiSerial.MPI_Test s v st = .ok x) : Ints (vs.set i x.request) := by
  rcases test_request hx with e | e
  · rw [e]; exact h.set (h v (List.mem_of_getElem? hi))
  · rw [e]; exact h.set rfl

/-- `a` is the array at `p` (0: no array), of at least `n` elements. -/
def Arr (p : Int) (a : StArr) (n : Nat) : Prop :=
  match a with
  | none => p = 0
  | some l => p ≠ 0 ∧ n ≤ l.length

theorem Arr.upd {p : Int} {a : StArr} {n : Nat} (h : Arr p a n) (i : Nat) (st : StPtr) : Arr p (a.upd i st) n := by
  cases a with
  | none => cases st <;> exact h
  | some l =>
    cases st
    · exact h
    · exact ⟨h.1, by rw [List.length_set]; exact h.2⟩
    · exact h

theorem Arr.elem {p : Int} {a : StArr} {n i : Nat} (h : Arr p a n) (hi : i < n) :
    ∃ st, StArr.at a i = .ok st ∧ (StVar.elem p i).Is p a i st := by
  cases a with
  | none =>
    cases (show p = 0 from h)
    by_cases h0 : i = 0
    · subst h0
      exact ⟨.null, rfl, trivial⟩
    · refine ⟨.bad, if_neg h0, ?_⟩
      show (if (0 : Int) = 0 then (if i = 0 then StVar.null else .bad) else .mem _).Is _ _ _ _
      rw [if_pos rfl, if_neg h0]
      trivial
  | some l =>
    obtain ⟨h1, h2⟩ := h
    have hl : l[i]? = some l[i] := List.getElem?_eq_getElem (by omega)
    refine ⟨.obj l[i], ?_, ?_⟩
    · show (rd l i >>= fun st => Res.ok (StPtr.obj st)) = _
      unfold rd
      rw [hl]
      rfl
    · show (if p = 0 then _ else StVar.mem (p + 16 * i)).Is _ _ _ _
      rw [if_neg h1]
      exact ⟨rfl, l, rfl, hl⟩

theorem rd_ok {vs : List Int} {i : Nat} (hi : i < vs.length) : rd vs i = .ok vs[i] ∧ vs[i]? = some vs[i] := by
  have h := List.getElem?_eq_getElem hi
  exact ⟨by unfold rd; rw [h], h⟩

section
variable {bo : ByteOrder} {m : Mem} {R F S : Int} {more : List Spec.Fort.Out}

theorem waitall_rel (fs : List Int) : ∀ (n i : Nat) (s : Sys) (rs : List Int) (sts : StArr) (m' : Mem), Img bo m (vars R rs F fs S sts more) m' → FlagsInt s →
    Ints rs → i + n ≤ rs.length → Arr S sts (i + n) →
    Rel (fun (a : Sys) b => ∃ m'', a = { b.sys with mem := m'' } ∧ Img bo m (vars R b.reqs F fs S b.stats more) m'')
      (waitallLoop bo R S n i { s with mem := m' }) (MpiSerial.waitallLoop n i s rs sts)
  | 0, i, s, rs, sts, m', him, _, _, _, _ => ⟨m', rfl, him⟩
  | n + 1, i, s, rs, sts, m', him, hf, hrs, hn, ha => by
    rw [waitallLoop, MpiSerial.waitallLoop]
    obtain ⟨h1, h2⟩ := rd_ok (vs := rs) (i := i) (by omega)
    obtain ⟨st, h3, h4⟩ := ha.elem (i := i) (by omega)
    rw [h1, Res.ok_bind, h3, Res.ok_bind]
    refine (test_rel him hf (request := .mem (R + 4 * i)) (flag := .mine 0) (j := 0) (f := 0) (.inr ⟨rfl, h2, hrs _ (List.mem_of_getElem? h2)⟩)
      (.inl rfl) h4).bind fun a b _ hb hab => ?_
    obtain ⟨a1, a2, a3⟩ := a
    obtain ⟨m1, rfl, g1, _, g3, _, _⟩ := hab
    dsimp only
    rw [show a3.get bo ({ b.sys with mem := m1 } : Sys) = .ok b.flag from g3.get g1 (by simp) b.sys, Res.ok_bind]
    refine Rel.ite (fun _ => rfl) fun _ => ?_
    exact waitall_rel fs n (i + 1) b.sys _ _ m1 g1 (hf.test hb) (hrs.test h2 hb) (by show _ ≤ (rs.set i b.request).length; rw [List.length_set]; omega)
      (by rw [show i + 1 + n = i + (n + 1) by omega]; exact ha.upd i b.status)

theorem testall_rel : ∀ (n i : Nat) (s : Sys) (rs : List Int) (sts : StArr) (f : Int) (m' : Mem), Img bo m (vars R rs F [f] S sts more) m' → FlagsInt s →
    Ints rs → i + n ≤ rs.length → Arr S sts (i + n) → s32 f = f →
    Rel (fun (a : Sys) b => ∃ m'', a = { b.1.sys with mem := m'' } ∧ Img bo m (vars R b.1.reqs F [b.2] S b.1.stats more) m'')
      (testallLoop bo R F S n i { s with mem := m' }) (MpiSerial.testallLoop n i s rs sts f)
  | 0, i, s, rs, sts, f, m', him, _, _, _, _, _ => ⟨m', rfl, him⟩
  | n + 1, i, s, rs, sts, f, m', him, hf, hrs, hn, ha, hff => by
    rw [testallLoop, MpiSerial.testallLoop]
    obtain ⟨h1, h2⟩ := rd_ok (vs := rs) (i := i) (by omega)
    obtain ⟨st, h3, h4⟩ := ha.elem (i := i) (by omega)
    rw [h1, Res.ok_bind, h3, Res.ok_bind]
    refine (test_rel him hf (request := .mem (R + 4 * i)) (flag := .mine 0) (j := 0) (f := 0) (.inr ⟨rfl, h2, hrs _ (List.mem_of_getElem? h2)⟩)
      (.inl rfl) h4).bind fun a b _ hb hab => ?_
    obtain ⟨a1, a2, a3⟩ := a
    obtain ⟨m1, rfl, g1, _, g3, _, _⟩ := hab
    dsimp only
    rw [show a3.get bo ({ b.sys with mem := m1 } : Sys) = .ok b.flag from g3.get g1 (by simp) b.sys, Res.ok_bind]
    have next : ∀ m2 f', Img bo m (vars R (rs.set i b.request) F [f'] S (sts.upd i b.status) more) m2 → s32 f' = f' → _ := fun m2 f' hm hf' =>
      testall_rel n (i + 1) b.sys _ _ f' m2 hm (hf.test hb) (hrs.test h2 hb) (by show _ ≤ (rs.set i b.request).length; rw [List.length_set]; omega)
        (by rw [show i + 1 + n = i + (n + 1) by omega]; exact ha.upd i b.status) hf'
    by_cases hz : b.flag = 0
    · rw [if_pos hz, if_pos hz]
      obtain ⟨m2, k1, k2⟩ := Img.store (pre := [⟨R, 4, rs.set i b.request⟩]) (o := ⟨F, 4, [f]⟩) g1 rfl (i := 0) (by simp) 0 b.sys
      rw [show stInt bo ({ b.sys with mem := m1 } : Sys) F 0 = _ from (congrArg (stInt bo _ · 0) (by simp)).trans k1, Res.ok_bind]
      exact next m2 0 k2 rfl
    · rw [if_neg hz, if_neg hz, Res.ok_bind]
      exact next m1 f g1 hff

theorem testsome_rel : ∀ (n i : Nat) (s : Sys) (rs : List Int) (sts : StArr) (f : Int) (m' : Mem), Img bo m (vars R rs F [f] S sts more) m' → FlagsInt s →
    Ints rs → i + n ≤ rs.length → Arr S sts (i + n) → 0 ≤ f → f ≤ i → i + n < 2147483648 →
    Rel (fun (a : Sys) b => ∃ m'', a = { b.1.sys with mem := m'' } ∧ Img bo m (vars R b.1.reqs F [b.2] S b.1.stats more) m'')
      (testsomeLoop bo R F S n i { s with mem := m' }) (MpiSerial.testsomeLoop n i s rs sts f)
  | 0, i, s, rs, sts, f, m', him, _, _, _, _, _, _, _ => ⟨m', rfl, him⟩
  | n + 1, i, s, rs, sts, f, m', him, hf, hrs, hn, ha, hf0, hfi, hmax => by
    rw [testsomeLoop, MpiSerial.testsomeLoop]
    obtain ⟨h1, h2⟩ := rd_ok (vs := rs) (i := i) (by omega)
    obtain ⟨st, h3, h4⟩ := ha.elem (i := i) (by omega)
    rw [h1, Res.ok_bind, h3, Res.ok_bind]
    refine (test_rel him hf (request := .mem (R + 4 * i)) (flag := .mine 0) (j := 0) (f := 0) (.inr ⟨rfl, h2, hrs _ (List.mem_of_getElem? h2)⟩)
      (.inl rfl) h4).bind fun a b _ hb hab => ?_
    obtain ⟨a1, a2, a3⟩ := a
    obtain ⟨m1, rfl, g1, _, g3, _, _⟩ := hab
    dsimp only
    rw [show a3.get bo ({ b.sys with mem := m1 } : Sys) = .ok b.flag from g3.get g1 (by simp) b.sys, Res.ok_bind]
    have next : ∀ m2 f', Img bo m (vars R (rs.set i b.request) F [f'] S (sts.upd i b.status) more) m2 → 0 ≤ f' → f' ≤ (i + 1 : Nat) → _ := fun m2 f' hm hf0 hf' =>
      testsome_rel n (i + 1) b.sys _ _ f' m2 hm (hf.test hb) (hrs.test h2 hb) (by show _ ≤ (rs.set i b.request).length; rw [List.length_set]; omega)
        (by rw [show i + 1 + n = i + (n + 1) by omega]; exact ha.upd i b.status) hf0 hf' (by omega)
    by_cases hz : b.flag = 0
    · have hz' : ¬ b.flag ≠ 0 := fun h => h hz
      rw [if_pos hz, if_neg hz', Res.ok_bind]
      exact next m1 f g1 hf0 (by omega)
    · have hz' : b.flag ≠ 0 := hz
      rw [if_neg hz, if_pos hz']
      have hl : ldInt bo m1 F = .ok f := by
        have := Img.load (p := F) (vs := [f]) g1 (List.mem_cons_of_mem _ (List.mem_cons_self ..)) (i := 0) rfl (by unfold s32; omega)
        simpa using this
      have hck : ck32 (f + 1) = .ok (f + 1) := by
        unfold ck32
        rw [if_pos (by omega)]
      rw [hl, Res.ok_bind, hck, Res.ok_bind]
      obtain ⟨m2, k1, k2⟩ := Img.store (pre := [⟨R, 4, rs.set i b.request⟩]) (o := ⟨F, 4, [f]⟩) g1 rfl (i := 0) (by simp) (f + 1) b.sys
      rw [show stInt bo ({ b.sys with mem := m1 } : Sys) F (f + 1) = _ from (congrArg (stInt bo _ · (f + 1)) (by simp)).trans k1, Res.ok_bind]
      exact next m2 (f + 1) k2 (by omega) (by omega)

theorem testany_rel {flag : Var} {status : StVar} {j k : Nat} : ∀ (n i : Nat) (s : Sys) (rs : List Int) (fs : List Int) (sts : StArr) (x : Var) (f : Int) (st : StPtr)
    (m' : Mem), Img bo m (vars R rs F fs S sts more) m' → FlagsInt s → Ints rs → i + n ≤ rs.length → x.Is F fs j f → (∀ us, x.upd us = flag.upd us) →
    status.Is S sts k st →
    Rel (fun a b => ∃ m'' f', a.1 = { b.1 with mem := m'' } ∧ Img bo m (vars R b.2.1 F (flag.upd fs j f') S (sts.upd k b.2.2.2) more) m'' ∧
        a.2.1.Is F (flag.upd fs j f') j f' ∧ (∀ us, a.2.1.upd us = flag.upd us) ∧ status.Is S (sts.upd k b.2.2.2) k b.2.2.2 ∧
        b.2.2.1 = (if a.2.2 then f' else 0))
      (testanyLoop bo R status n i { s with mem := m' } x) (MpiSerial.testanyLoop n i s rs st)
  | 0, i, s, rs, fs, sts, x, f, st, m', him, _, _, _, hx, hu, hst => by
    refine ⟨m', f, rfl, ?_, ?_, hu, ?_, rfl⟩
    · rw [← hu, hx.upd_same, hst.upd_same]; exact him
    · rw [← hu, hx.upd_same]; exact hx
    · rw [hst.upd_same]; exact hst
  | n + 1, i, s, rs, fs, sts, x, f, st, m', him, hf, hrs, hn, hx, hu, hst => by
    rw [testanyLoop, MpiSerial.testanyLoop]
    obtain ⟨h1, h2⟩ := rd_ok (vs := rs) (i := i) (by omega)
    rw [h1, Res.ok_bind]
    refine (test_rel him hf (request := .mem (R + 4 * i)) (.inr ⟨rfl, h2, hrs _ (List.mem_of_getElem? h2)⟩) hx hst).bind fun a b _ hb hab => ?_
    obtain ⟨a1, a2, a3⟩ := a
    obtain ⟨m1, rfl, g1, _, g3, g4, g5⟩ := hab
    dsimp only at g3 g5 ⊢
    rw [show a3.get bo ({ b.sys with mem := m1 } : Sys) = .ok b.flag from g3.get g1 (by simp) b.sys, Res.ok_bind]
    rw [hu] at g1 g3
    refine Rel.ite (fun _ => ?_) fun _ => ?_
    · exact ⟨m1, b.flag, rfl, g1, g3, fun us => (g5 us).trans (hu us), g4, rfl⟩
    · refine (testany_rel (flag := flag) (status := status) n (i + 1) b.sys (rs.set i b.request) (flag.upd fs j b.flag) (sts.upd k b.status) a3 b.flag b.status m1 g1 (hf.test hb) (hrs.test h2 hb)
        (by rw [List.length_set]; omega) g3 (fun us => (g5 us).trans (hu us)) g4).mono fun a b' _ _ hab => ?_
      obtain ⟨m2, f', e, k1, k2, k3, k4, k5⟩ := hab
      rw [Var.upd_upd, hst.upd_upd g4 k4] at k1
      rw [Var.upd_upd] at k2
      rw [hst.upd_upd g4 k4] at k4
      exact ⟨m2, f', e, k1, k2, k3, k4, k5⟩

end

end Place

end MpiSerial
