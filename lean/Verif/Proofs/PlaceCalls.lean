import Verif.Spec.Place
import Verif.Proofs.Ints
import Verif.Proofs.Frame
import Verif.Proofs.Dom

/-!
# Fortran completion calls working in place
-/

set_option linter.unusedSimpArgs false
set_option autoImplicit false

namespace MpiSerial

open Spec.Fort
open Res (Rel)

namespace Place

section
variable {bo : ByteOrder} {m m' : Mem}

/-! ## Variables hold what they hold -/

theorem word_bytes {p : Int} {n : Nat} (h : word bo m p = some n) : ∀ k : Nat, k < 4 →
    ∃ b, m (match bo with | .little => p + k | .big => p + (3 - k)) = some b ∧ b.toNat = n / 256 ^ k % 256 := by
  unfold word at h
  split at h
  · next a b c d ha hb hc hd =>
    have e1 := a.toNat_lt
    have e2 := b.toNat_lt
    have e3 := c.toNat_lt
    have e4 := d.toNat_lt
    intro k hk
    cases bo <;> cases h
    · match k, hk with
      | 0, _ => exact ⟨a, by simpa using ha, by omega⟩
      | 1, _ => exact ⟨b, hb, by omega⟩
      | 2, _ => exact ⟨c, hc, by omega⟩
      | 3, _ => exact ⟨d, hd, by omega⟩
    · match k, hk with
      | 0, _ => exact ⟨d, by simpa using hd, by omega⟩
      | 1, _ => exact ⟨c, by simpa using hc, by omega⟩
      | 2, _ => exact ⟨b, by simpa using hb, by omega⟩
      | 3, _ => exact ⟨a, by simpa using ha, by omega⟩
  · cases h

/-- An INTEGER that can be read holds its value. -/
theorem held_elem {o : Spec.Fort.Out} (hw : o.width = 4) (h : ∀ (i : Nat) (v : Int), o.vals[i]? = some v → intAt bo m (o.addr + 4 * i) = some v) : o.Held bo m := by
  intro i v hv k hk
  rw [hw] at hk
  have h1 := h i v hv
  unfold intAt at h1
  obtain ⟨n, h2, h3⟩ := Option.map_eq_some_iff.1 h1
  obtain ⟨b, h4, h5⟩ := word_bytes h2 k hk
  have hn := word_lt h2
  refine ⟨b, ?_, ?_⟩
  · rw [← h4]
    cases bo <;> simp only [Out.byteAddr, hw] <;> congr 1 <;> omega
  · rw [h5, ← h3]
    match k, hk with
    | 0, _ | 1, _ | 2, _ | 3, _ => split <;> omega

theorem held_int {p v : Int} (h : intAt bo m p = some v) : (Out.int p v).Held bo m := by
  refine held_elem rfl fun i w hw => ?_
  match i, hw with
  | 0, hw =>
    cases hw
    simpa [Out.int] using h

theorem mapM_get {α : Type} : ∀ (n : Nat) (f : Nat → Option α) (l : List α), (List.range n).mapM f = some l →
    l.length = n ∧ ∀ (i : Nat) (v : α), l[i]? = some v → f i = some v
  | 0, f, l, h => by
    cases h
    exact ⟨rfl, fun i v hv => by simp at hv⟩
  | n + 1, f, l, h => by
    rw [mapM_range] at h
    simp only [Option.bind_eq_bind, Option.bind_eq_some_iff] at h
    obtain ⟨x, h1, xs, h2, h3⟩ := h
    cases h3
    obtain ⟨h4, h5⟩ := mapM_get n (fun i => f (i + 1)) xs h2
    refine ⟨by rw [List.length_cons, h4], fun i v hv => ?_⟩
    cases i with
    | zero => cases hv; exact h1
    | succ i => exact h5 i v hv

theorem ints_of {p : Int} {n : Nat} {vs : List Int} (h : intsAt bo m p n = some vs) :
    vs.length = n ∧ (Out.ints p vs).Held bo m ∧ Ints vs := by
  obtain ⟨h1, h2⟩ := mapM_get n _ vs h
  refine ⟨h1, held_elem rfl h2, fun v hv => ?_⟩
  obtain ⟨i, hi⟩ := List.mem_iff_getElem?.1 hv
  have h3 := h2 i v hi
  unfold intAt at h3
  obtain ⟨k, h4, h5⟩ := Option.map_eq_some_iff.1 h3
  have := word_lt h4
  rw [← h5]
  unfold s32
  split <;> omega

theorem int_s32 {p v : Int} (h : intAt bo m p = some v) : s32 v = v := by
  unfold intAt at h
  obtain ⟨k, h4, h5⟩ := Option.map_eq_some_iff.1 h
  have := word_lt h4
  rw [← h5]
  unfold s32
  split <;> omega

theorem status_fields {p : Int} {st : Status} (h : statusAt bo m p = some st) : ∀ (k : Nat) (v : Int), st.fields[k]? = some v → intAt bo m (p + 4 * k) = some v := by
  unfold statusAt at h
  split at h
  · next a b c d ha hb hc hd =>
    cases h
    intro k v hv
    match k, hv with
    | 0, hv => cases hv; simpa using ha
    | 1, hv => cases hv; exact hb
    | 2, hv => cases hv; exact hc
    | 3, hv => cases hv; exact hd
  · cases h

theorem flat_get : ∀ (l : List Status) (j : Nat) (v : Int), (flat l)[j]? = some v →
    ∃ st, l[j / 4]? = some st ∧ st.fields[j % 4]? = some v
  | [], j, v, h => by simp [flat] at h
  | st :: l, j, v, h => by
    have e : flat (st :: l) = st.fields ++ flat l := rfl
    have hlen : st.fields.length = 4 := rfl
    rw [e, List.getElem?_append, hlen] at h
    split at h
    · next hj =>
      refine ⟨st, ?_, ?_⟩
      · rw [show j / 4 = 0 by omega]; rfl
      · rw [show j % 4 = j by omega]; exact h
    · next hj =>
      obtain ⟨st', h1, h2⟩ := flat_get l (j - 4) v h
      refine ⟨st', ?_, ?_⟩
      · rw [show j / 4 = (j - 4) / 4 + 1 by omega]; exact h1
      · rw [show j % 4 = (j - 4) % 4 by omega]; exact h2

theorem statuses_of {p : Int} {n : Nat} {l : List Status} (h : ((List.range n).mapM fun (i : Nat) => statusAt bo m (p + 16 * i)) = some l) :
    l.length = n ∧ (Out.statuses p (some l)).Held bo m := by
  obtain ⟨h1, h2⟩ := mapM_get n _ l h
  refine ⟨h1, held_elem rfl fun j v hv => ?_⟩
  obtain ⟨st, h3, h4⟩ := flat_get l j v hv
  have := status_fields (h2 _ _ h3) _ _ h4
  rw [← this]
  congr 1
  show p + 4 * (j : Int) = _
  push_cast
  omega

end

section
variable {c : FEnv} {m : Mem}

/-- A status argument as an array of one. -/
theorem status_arg {p : Int} {o : StPtr} (h : statusArg c m p = some o) : ∃ sts : StArr, (stat c p).Is p sts 0 o ∧ Out.statuses p sts = Out.status p o ∧
    (Out.statuses p sts).Held c.bo m ∧ ∀ o', (stat c p).Is p (sts.upd 0 o') 0 o' → Out.statuses p (sts.upd 0 o') = Out.status p o' := by
  unfold statusArg at h
  by_cases hp : p = c.ptrs.status ∨ p = 0
  · rw [if_pos hp] at h
    cases h
    have e : stat c p = .null := by
      unfold stat mpi_c_status StVar.ofAddr
      split
      · rfl
      · next hn => rw [if_pos (hp.resolve_left hn)]
    refine ⟨none, by rw [e]; trivial, rfl, fun _ _ h => by simp [Out.statuses] at h, fun o' ho' => ?_⟩
    rw [e] at ho'
    cases o'
    · rfl
    · exact ho'.elim
    · exact ho'.elim
  · rw [if_neg hp] at h
    obtain ⟨st, h1, rfl⟩ := Option.map_eq_some_iff.1 h
    have e : stat c p = .mem p := by
      unfold stat mpi_c_status StVar.ofAddr
      rw [if_neg fun h => hp (.inl h), if_neg fun h => hp (.inr h)]
    have hs := (statuses_of (bo := c.bo) (m := m) (p := p) (n := 1) (l := [st]) (by
      rw [mapM_range]
      simp [h1])).2
    refine ⟨some [st], by rw [e]; exact ⟨by simp, [st], rfl, rfl⟩, rfl, hs, fun o' ho' => ?_⟩
    rw [e] at ho'
    cases o' with
    | obj t => rfl
    | _ => exact ho'.elim

/-- An array of statuses. -/
theorem statuses_arg {p : Int} {n : Nat} {a : StArr} (h : statusesArg c m p n = some a) :
    Arr (mpi_c_statuses c.ptrs p) a n ∧ (a = none ∨ mpi_c_statuses c.ptrs p = p) ∧ (Out.statuses p a).Held c.bo m := by
  unfold statusesArg at h
  by_cases hp : p = c.ptrs.statuses ∨ p = 0
  · rw [if_pos hp] at h
    cases h
    have e : mpi_c_statuses c.ptrs p = 0 := by
      unfold mpi_c_statuses
      split
      · rfl
      · next hn => exact hp.resolve_left hn
    exact ⟨e, .inl rfl, fun _ _ h => by simp [Out.statuses] at h⟩
  · rw [if_neg hp] at h
    obtain ⟨l, h1, rfl⟩ := Option.map_eq_some_iff.1 h
    have e : mpi_c_statuses c.ptrs p = p := if_neg fun h => hp (.inl h)
    obtain ⟨h2, h3⟩ := statuses_of h1
    rw [e]
    exact ⟨⟨fun h => hp (.inr h), by omega⟩, .inr rfl, h3⟩

end

section
variable {bo : ByteOrder} {m m' : Mem}

theorem held_nil {o : Spec.Fort.Out} (h : o.vals = []) : o.Held bo m := fun _ _ hv => by rw [h] at hv; simp at hv

theorem covers_nil {o : Spec.Fort.Out} (h : o.vals = []) (a : Int) : ¬ o.covers a := fun hc => by
  unfold Out.covers at hc
  rw [h] at hc
  simp at hc
  omega

/-- Variables without elements may be anywhere. -/
theorem move {pre post : List Spec.Fort.Out} {o o' : Spec.Fort.Out} (ho' : o'.vals = []) (h : Variables m (pre ++ o :: post)) :
    Variables m (pre ++ o' :: post) := by
  obtain ⟨h1, h2, h3⟩ := List.pairwise_append.1 h.apart
  refine ⟨fun x hx => ?_, List.pairwise_append.2 ⟨h1, List.pairwise_cons.2 ⟨fun x _ a ha => (covers_nil ho' a ha).elim, (List.pairwise_cons.1 h2).2⟩, fun x hx y hy => ?_⟩⟩
  · rcases List.mem_append.1 hx with hx | hx
    · exact h.accessible x (List.mem_append_left _ hx)
    · rcases List.mem_cons.1 hx with rfl | hx
      · exact fun a ha => (covers_nil ho' a ha).elim
      · exact h.accessible x (List.mem_append_right _ (List.mem_cons_of_mem _ hx))
  · rcases List.mem_cons.1 hy with rfl | hy
    · exact fun a _ => covers_nil ho' a
    · exact h3 x hx y (List.mem_cons_of_mem _ hy)

theorem Img.start {outs : List Spec.Fort.Out} (h : Variables m outs) (hh : ∀ o ∈ outs, o.Held bo m) : Img bo m outs m :=
  ⟨⟨hh, fun _ _ => rfl⟩, h⟩

theorem Img.cons_nil {outs : List Spec.Fort.Out} (h : Img bo m outs m') : Img bo m (⟨0, 4, []⟩ :: outs) m' := by
  have hc : ∀ a, ¬ (⟨0, 4, []⟩ : Spec.Fort.Out).covers a := fun a ha => by
    unfold Out.covers at ha
    simp at ha
    omega
  refine ⟨⟨fun o ho => ?_, fun a ha => h.wrote.frame a fun o ho => ha o (List.mem_cons_of_mem _ ho)⟩,
    ⟨fun o ho a ha => ?_, List.pairwise_cons.2 ⟨fun o _ a ha => (hc a ha).elim, h.vars.apart⟩⟩⟩
  · rcases List.mem_cons.1 ho with rfl | ho
    · exact fun _ _ h => by simp at h
    · exact h.wrote.held o ho
  · rcases List.mem_cons.1 ho with rfl | ho
    · exact (hc a ha).elim
    · exact h.vars.accessible o ho a ha

/-- The last store, to `ierror`. -/
theorem finish {α : Type} {X : Res Sys} {Y : Res α} {sysOf : α → Sys} {outs : α → List Spec.Fort.Out} {e : Int}
    (h : Rel (fun a b => ∃ m'' pre x post, a = { sysOf b with mem := m'' } ∧ Img bo (sysOf b).mem (pre ++ ⟨e, 4, [x]⟩ :: post) m'' ∧
      (∀ o ∈ outs b, o ∈ pre ++ Out.int e 0 :: post ∨ o.vals = []) ∧ (∀ o ∈ pre ++ Out.int e 0 :: post, o ∈ outs b ∨ o.vals = [])) X Y) :
    Performs bo (X >>= fun s => stInt bo s e 0) (Y >>= fun b => .ok (sysOf b, outs b)) := by
  cases X <;> cases Y <;> try exact h.elim
  · next a b =>
    obtain ⟨m'', pre, x, post, rfl, h1, h2, h3⟩ := h
    obtain ⟨m2, h4, h5⟩ := h1.store (o := ⟨e, 4, [x]⟩) rfl (i := 0) (by simp) 0 (sysOf b)
    refine ⟨m2, ?_, ⟨fun o ho => (h2 o ho).elim (h5.wrote.held o) fun e => held_nil e, fun a ha => h5.wrote.frame a fun o ho => ?_⟩⟩
    · show stInt bo _ e 0 = _
      rw [← h4]
      congr 1
      simp
    · rcases h3 o ho with h6 | h6
      · exact ha o h6
      · intro hc
        unfold Out.covers at hc
        rw [h6] at hc
        simp at hc
        omega
  · cases (show _ = _ from h); rfl
  · cases (show _ = _ from h); rfl
  · cases (show _ = _ from h); rfl
  · rfl

end

/-! ## Calls -/

theorem search_found {A : Type} {f : A → Res Bool} : ∀ (n : Nat) (h : LHeap A) (o : Option Nat) (x : Nat), searchLoop f n h o = .ok (some x) →
    ∃ d, AP_listitem_data h x = .ok d ∧ ∃ b, f d = .ok b
  | _, _, none, _, hx => by rw [searchLoop] at hx; cases hx
  | 0, _, some _, _, hx => by rw [searchLoop] at hx; cases hx
  | n + 1, h, some c, x, hx => by
    rw [searchLoop] at hx
    obtain ⟨y, h1, h2⟩ := Res.bind_eq_ok.1 hx
    obtain ⟨b, h3, h4⟩ := Res.bind_eq_ok.1 h2
    split at h4
    · cases h4
      exact ⟨y.data, by unfold AP_listitem_data; rw [h1]; rfl, b, h3⟩
    · exact search_found n h y.next x h4

theorem bind_ok {α : Type} (x : Res α) : (x >>= fun y => .ok y) = x := by cases x <;> rfl

section
variable {bo : ByteOrder} {m m' : Mem} {R F S : Int} {rs fs : List Int} {sts : StArr} {more : List Spec.Fort.Out}

theorem wait_rel (him : Img bo m (vars R rs F fs S sts more) m') {s : Sys} (hf : FlagsInt s) {request : Var} {status : StVar} {i k : Nat} {h : Int}
    {st : StPtr} (hr : request.Is R rs i h) (hst : status.Is S sts k st) :
    Rel (fun a b => ∃ m'', a.1 = { b.1 with mem := m'' } ∧ Img bo m (vars R (request.upd rs i b.2.1) F fs S (sts.upd k b.2.2) more) m'' ∧
        status.Is S (sts.upd k b.2.2) k b.2.2)
      (MPI_Wait bo { s with mem := m' } request status) (MpiSerial.MPI_Wait s h st) := by
  unfold MPI_Wait MpiSerial.MPI_Wait
  refine (test_rel him hf (flag := .mine 0) (j := 0) (f := 0) hr (.inl rfl) hst).bind fun a b _ hb hab => ?_
  obtain ⟨a1, a2, a3⟩ := a
  obtain ⟨m1, rfl, g1, _, g3, g4, _⟩ := hab
  dsimp only
  rw [show a3.get bo ({ b.sys with mem := m1 } : Sys) = .ok b.flag from g3.get g1 (by simp) b.sys, Res.ok_bind]
  exact Rel.ite (fun _ => rfl) fun _ => ⟨m1, rfl, g1, g4⟩

theorem iprobe_rel (him : Img bo m (⟨F, 4, fs⟩ :: Out.statuses S sts :: more) m') {s : Sys} (source tag comm : Int) {flag : Var} {status : StVar} {j k : Nat} {f : Int}
    {st : StPtr} (hfl : flag.Is F fs j f) (hst : status.Is S sts k st) :
    Rel (fun a b => ∃ m'', a.1 = { b.1 with mem := m'' } ∧ Img bo m (⟨F, 4, flag.upd fs j b.2.1⟩ :: Out.statuses S (sts.upd k b.2.2) :: more) m'' ∧
        a.2.Is F (flag.upd fs j b.2.1) j b.2.1 ∧ status.Is S (sts.upd k b.2.2) k b.2.2)
      (MPI_Iprobe bo { s with mem := m' } source tag comm flag status) (MpiSerial.MPI_Iprobe s source tag comm st) := by
  unfold MPI_Iprobe MpiSerial.MPI_Iprobe
  have hp : ({ s with mem := m' } : Sys).ptr comm = (s.ptr comm >>= fun x => .ok ({ x.1 with mem := m' }, x.2)) := by
    unfold Sys.ptr
    simp only [bind_assoc, Res.pure_eq, Res.ok_bind]
  rw [hp]
  simp only [bind_assoc, Res.ok_bind]
  refine Rel.bind_same fun ⟨s1, o⟩ hs1 => ?_
  dsimp only
  refine Rel.ite (fun _ => rfl) fun _ => ?_
  have hcomm : ({ s1 with mem := m' } : Sys).comm o = s1.comm o := by cases o <;> rfl
  have hreq : ∀ m₂ o, ({ s1 with mem := m₂ } : Sys).req o = s1.req o := fun m₂ o => by cases o <;> rfl
  rw [hcomm]
  refine Rel.bind_same fun c hc => ?_
  have hmatch : mpi_match_send ({ s1 with mem := m' } : Sys) tag = mpi_match_send s1 tag := by
    funext r
    unfold mpi_match_send
    rw [hreq]
  rw [hmatch]
  refine Rel.bind_same fun found hfd => ?_
  cases found with
  | none =>
    obtain ⟨m1, x', h1, h2, h3, h4⟩ := Var.Is.set (pre := []) (post := (Out.statuses S sts :: more)) hfl him 0 rfl s1
    simp only [Option.isNone_none, if_true]
    rw [h1, Res.ok_bind]
    dsimp only
    rw [show x'.get bo ({ s1 with mem := m1 } : Sys) = .ok 0 from h3.get h2 (by simp) s1, Res.ok_bind]
    refine ⟨m1, rfl, ?_, h3, ?_⟩
    · rw [hst.upd_same]; exact h2
    · rw [hst.upd_same]; exact hst
  | some item =>
    obtain ⟨m1, x', h1, h2, h3, h4⟩ := Var.Is.set (pre := []) (post := (Out.statuses S sts :: more)) hfl him 1 rfl s1
    obtain ⟨L, _, hsl⟩ := Res.bind_eq_ok.1 hfd
    obtain ⟨d, hd, b, hb⟩ := search_found _ _ _ _ hsl
    obtain ⟨q, hq, _⟩ := Res.bind_eq_ok.1 hb
    simp only [Option.isNone_some, Bool.false_eq_true, if_false]
    rw [h1, Res.ok_bind]
    dsimp only
    rw [show x'.get bo ({ s1 with mem := m1 } : Sys) = .ok 1 from h3.get h2 (by simp) s1, Res.ok_bind, if_pos (by decide), hd, Res.ok_bind, Res.ok_bind,
      hq, Res.ok_bind]
    refine Rel.bind (StVar.Is.put (pre := [⟨F, 4, flag.upd fs j 1⟩]) (post := more) hst h2 0 q.tag s1
        (g := fun s₂ => s₂.req (some d) >>= fun r => status.store bo s₂ 4 r.tag) fun m₂ => ?_) fun a st' _ _ hab => ?_
    · rw [hreq, hq, Res.ok_bind]
    · obtain ⟨m2, rfl, him2, hst2⟩ := hab
      exact ⟨m2, rfl, him2, h3, hst2⟩

theorem probe_rel (him : Img bo m (⟨F, 4, fs⟩ :: Out.statuses S sts :: more) m') {s : Sys} (source tag comm : Int) {status : StVar} {k : Nat}
    {st : StPtr} (hst : status.Is S sts k st) :
    Rel (fun a b => ∃ m'', a = { b.1 with mem := m'' } ∧ Img bo m (⟨F, 4, fs⟩ :: Out.statuses S (sts.upd k b.2) :: more) m'' ∧
        status.Is S (sts.upd k b.2) k b.2)
      (MPI_Probe bo { s with mem := m' } source tag comm status) (MpiSerial.MPI_Probe s source tag comm st) := by
  unfold MPI_Probe MpiSerial.MPI_Probe
  refine (iprobe_rel him source tag comm (flag := .mine 0) (j := 0) (f := 0) (.inl rfl) hst).bind fun a b _ hb hab => ?_
  obtain ⟨a1, a2⟩ := a
  obtain ⟨b1, b2, b3⟩ := b
  obtain ⟨m1, rfl, g1, g3, g4⟩ := hab
  dsimp only at g1 g3 g4 ⊢
  rw [show a2.get bo ({ b1 with mem := m1 } : Sys) = .ok b2 from g3.get g1 (by simp) b1, Res.ok_bind]
  exact Rel.ite (fun _ => rfl) fun _ => ⟨m1, rfl, g1, g4⟩

theorem anyCall_rel (him : Img bo m (vars R rs F fs S sts more) m') {s : Sys} (hf : FlagsInt s) (hrs : Ints rs) {n : Int} (hn : n.toNat ≤ rs.length) (index : Int)
    {flag : Var} {status : StVar} {j k : Nat} {f : Int} {st : StPtr} (hfl : flag.Is F fs j f) (hst : status.Is S sts k st) :
    Rel (fun a b => ∃ m'', a.1 = { b.1 with mem := m'' } ∧ Img bo m (vars R b.2.1 F (flag.upd fs j b.2.2.2.1) S (sts.upd k b.2.2.2.2) more) m'' ∧
        a.2.Is F (flag.upd fs j b.2.2.2.1) j b.2.2.2.1 ∧ status.Is S (sts.upd k b.2.2.2.2) k b.2.2.2.2 ∧ b.2.2.1 = index)
      (MPI_Testany bo { s with mem := m' } n R flag status) (MpiSerial.MPI_Testany s n rs index st) := by
  unfold MPI_Testany MpiSerial.MPI_Testany
  refine (testany_rel (flag := flag) (status := status) (j := j) (k := k) n.toNat 0 s rs fs sts flag f st m' him hf hrs (by omega) hfl (fun _ => rfl) hst).bind
    fun a b _ hb hab => ?_
  obtain ⟨a1, a2, a3⟩ := a
  obtain ⟨b1, b2, b3, b4⟩ := b
  obtain ⟨m1, f', rfl, g1, g2, g3, g4, g5⟩ := hab
  dsimp only at g1 g2 g3 g4 g5 ⊢
  cases a3 with
  | true =>
    cases (show b3 = f' from g5)
    exact ⟨m1, rfl, g1, g2, g4, rfl⟩
  | false =>
    cases (show b3 = 0 from g5)
    obtain ⟨m2, x', h1, h2, h3, h4⟩ := Var.Is.set (pre := [⟨R, 4, b2⟩]) (post := (Out.statuses S (sts.upd k b4) :: more)) g2 g1 0 rfl b1
    rw [g3, Var.upd_upd] at h2 h3
    simp only [Bool.false_eq_true, if_false]
    rw [h1]
    exact ⟨m2, rfl, h2, h3, g4, rfl⟩

theorem waitany_rel (him : Img bo m (vars R rs F fs S sts more) m') {s : Sys} (hf : FlagsInt s) (hrs : Ints rs) {n : Int} (hn : n.toNat ≤ rs.length) (index : Int)
    {status : StVar} {k : Nat} {st : StPtr} (hst : status.Is S sts k st) :
    Rel (fun a b => ∃ m'', a = { b.1 with mem := m'' } ∧ Img bo m (vars R b.2.1 F fs S (sts.upd k b.2.2.2) more) m'' ∧
        status.Is S (sts.upd k b.2.2.2) k b.2.2.2 ∧ b.2.2.1 = index)
      (MPI_Waitany bo { s with mem := m' } n R status) (MpiSerial.MPI_Waitany s n rs index st) := by
  unfold MPI_Waitany MpiSerial.MPI_Waitany
  refine (anyCall_rel him hf hrs hn index (flag := .mine 0) (j := 0) (f := 0) (.inl rfl) hst).bind fun a b _ hb hab => ?_
  obtain ⟨a1, a2⟩ := a
  obtain ⟨b1, b2, b3, b4, b5⟩ := b
  obtain ⟨m1, rfl, g1, g2, g3, g4⟩ := hab
  dsimp only at g1 g2 g3 g4 ⊢
  rw [show a2.get bo ({ b1 with mem := m1 } : Sys) = .ok b4 from g2.get g1 (by simp) b1, Res.ok_bind]
  exact Rel.ite (fun _ => rfl) fun _ => ⟨m1, rfl, g1, g3, g4⟩

theorem testallCall_rel {f : Int} (him : Img bo m (vars R rs F [f] S sts more) m') {s : Sys} (hf : FlagsInt s) (hrs : Ints rs) {n : Int} (hn : n.toNat ≤ rs.length)
    (ha : Arr S sts n.toNat) :
    Rel (fun (a : Sys) b => ∃ m'', a = { b.1.sys with mem := m'' } ∧ Img bo m (vars R b.1.reqs F [b.2] S b.1.stats more) m'')
      (MPI_Testall bo { s with mem := m' } n R F S) (MpiSerial.MPI_Testall s n rs sts) := by
  unfold MPI_Testall MpiSerial.MPI_Testall
  obtain ⟨m2, k1, k2⟩ := Img.store (pre := [⟨R, 4, rs⟩]) (o := ⟨F, 4, [f]⟩) him rfl (i := 0) (by simp) 1 s
  rw [show stInt bo ({ s with mem := m' } : Sys) F 1 = _ from (congrArg (stInt bo _ · 1) (by simp)).trans k1, Res.ok_bind]
  exact testall_rel n.toNat 0 s rs sts 1 m2 k2 hf hrs (by omega) (by rw [Nat.zero_add]; exact ha) rfl

theorem testsomeCall_rel {f : Int} (him : Img bo m (vars R rs F [f] S sts more) m') {s : Sys} (hf : FlagsInt s) (hrs : Ints rs) {n : Int} (hn : n.toNat ≤ rs.length)
    (ha : Arr S sts n.toNat) (hmax : n < 2147483648) (ix : List Int) :
    Rel (fun (a : Sys) b => ∃ m'', a = { b.arr.sys with mem := m'' } ∧ Img bo m (vars R b.arr.reqs F [b.outcount] S b.arr.stats more) m'' ∧ b.indices = ix)
      (MPI_Testsome bo { s with mem := m' } n R F S) (MpiSerial.MPI_Testsome s n rs ix sts) := by
  unfold MPI_Testsome MpiSerial.MPI_Testsome
  obtain ⟨m2, k1, k2⟩ := Img.store (pre := [⟨R, 4, rs⟩]) (o := ⟨F, 4, [f]⟩) him rfl (i := 0) (by simp) 0 s
  rw [show stInt bo ({ s with mem := m' } : Sys) F 0 = _ from (congrArg (stInt bo _ · 0) (by simp)).trans k1, Res.ok_bind]
  rw [← bind_ok (testsomeLoop ..)]
  refine (testsome_rel n.toNat 0 s rs sts 0 m2 k2 hf hrs (by omega) (by rw [Nat.zero_add]; exact ha) (by omega) (by omega) (by omega)).bind fun a b _ _ hab => ?_
  obtain ⟨m3, rfl, h3⟩ := hab
  exact ⟨m3, rfl, h3, rfl⟩

theorem requestFree_rel {r : Int} (him : Img bo m (⟨R, 4, [r]⟩ :: more) m') {s : Sys} (hr : s32 r = r) :
    Rel (fun (a : Sys) b => ∃ m'', a = { b.1 with mem := m'' } ∧ Img bo m (⟨R, 4, [b.2]⟩ :: more) m'')
      (MPI_Request_free bo { s with mem := m' } R) (MpiSerial.MPI_Request_free s r) := by
  unfold MPI_Request_free MpiSerial.MPI_Request_free
  rw [show ldInt bo m' R = .ok r by
    have h := him.load (p := R) (vs := [r]) (by simp) (i := 0) rfl hr
    simpa using h, Res.ok_bind]
  refine Rel.bind_same fun t ht => ?_
  obtain ⟨m2, k1, k2⟩ := Img.store (pre := []) (o := ⟨R, 4, [r]⟩) him rfl (i := 0) (by simp) MPI_REQUEST_NULL { s with handles := t }
  rw [show stInt bo ({ s with handles := t, mem := m' } : Sys) R MPI_REQUEST_NULL = _ from (congrArg (stInt bo _ · MPI_REQUEST_NULL) (by simp)).trans k1]
  exact ⟨m2, rfl, k2⟩

end

/-! ## Bindings -/

theorem _root_.MpiSerial.Res.Rel.know {α β : Type} {R : α → β → Prop} {P : β → Prop} {x : Res α} {y : Res β} (h : x.Rel R y) (hp : y.Post P) : x.Rel (fun a b => R a b ∧ P b) y :=
  h.mono fun _ b _ hy hr => ⟨hr, hp b hy⟩

theorem held_cons {bo : ByteOrder} {m : Mem} {o : Spec.Fort.Out} {os : List Spec.Fort.Out} (h : o.Held bo m) (hs : ∀ x ∈ os, x.Held bo m) : ∀ x ∈ o :: os, x.Held bo m := by
  intro x hx
  rcases List.mem_cons.1 hx with rfl | hx
  · exact h
  · exact hs x hx

theorem of_fst {α : Type} {bo : ByteOrder} {x : Res (Sys × α)} {g : Sys → Res Sys} {r : Res (Sys × List Spec.Fort.Out)}
    (h : Performs bo ((x >>= fun a => .ok a.1) >>= g) r) : Performs bo (x >>= fun a => g a.1) r := by
  cases x <;> exact h

theorem int_lt {bo : ByteOrder} {m : Mem} {p v : Int} (h : intAt bo m p = some v) : v < 2147483648 := by
  unfold intAt at h
  obtain ⟨k, h4, h5⟩ := Option.map_eq_some_iff.1 h
  have := word_lt h4
  rw [← h5]
  split <;> omega

/-- An array of statuses among the variables. -/
theorem statuses_in {c : FEnv} {m : Mem} {p : Int} {n : Nat} {a : StArr} (h : statusesArg c m p n = some a) {pre post : List Spec.Fort.Out}
    (hv : Variables m (pre ++ Out.statuses p a :: post)) :
    Variables m (pre ++ Out.statuses (mpi_c_statuses c.ptrs p) a :: post) ∧ Arr (mpi_c_statuses c.ptrs p) a n ∧
      (Out.statuses (mpi_c_statuses c.ptrs p) a).Held c.bo m ∧ (mpi_c_statuses c.ptrs p = p ∨ a = none) := by
  obtain ⟨h1, h2, h3⟩ := statuses_arg h
  rcases h2 with rfl | e
  · exact ⟨move rfl hv, h1, held_nil rfl, .inr rfl⟩
  · rw [e] at h1 ⊢
    exact ⟨hv, h1, h3, .inl rfl⟩

/-! Memory -/

theorem Call.mem_testany (s : Sys) (n : Int) (rs : List Int) (i : Int) (st : StPtr) : (MpiSerial.MPI_Testany s n rs i st).Post (fun r => r.1.mem = s.mem) :=
  (testanyLoop_mem _ _ _ _ _ rfl).bind fun _ h => .ok h

theorem Call.mem_waitany (s : Sys) (n : Int) (rs : List Int) (i : Int) (st : StPtr) : (MpiSerial.MPI_Waitany s n rs i st).Post (fun r => r.1.mem = s.mem) :=
  (Call.mem_testany s n rs i st).bind fun _ h => .ite .abort (.ok h)

theorem Call.mem_probe (s : Sys) (src tag k : Int) (st : StPtr) : (MpiSerial.MPI_Probe s src tag k st).Post (fun r => r.1.mem = s.mem) :=
  (iprobe_mem rfl _ _ _ _).bind fun _ h => .ite .abort (.ok h)

theorem Call.mem_testsome (s : Sys) (n : Int) (rs ix : List Int) (st : StArr) : (MpiSerial.MPI_Testsome s n rs ix st).Post (fun r => r.arr.sys.mem = s.mem) :=
  (testsomeLoop_mem _ _ _ _ _ _ rfl).bind fun _ h => .ok h

theorem testall_none : ∀ (n i : Nat) (s : Sys) (rs : List Int) (f : Int) (b : ArrRes × Int), MpiSerial.testallLoop n i s rs none f = .ok b → b.1.stats = none
  | 0, _, _, _, _, _, h => by cases h; rfl
  | n + 1, i, s, rs, f, b, h => by
    rw [MpiSerial.testallLoop] at h
    obtain ⟨_, _, h⟩ := Res.bind_eq_ok.1 h
    obtain ⟨_, _, h⟩ := Res.bind_eq_ok.1 h
    obtain ⟨x, _, h⟩ := Res.bind_eq_ok.1 h
    exact testall_none n (i + 1) _ _ _ b h

theorem waitall_none : ∀ (n i : Nat) (s : Sys) (rs : List Int) (b : ArrRes), MpiSerial.waitallLoop n i s rs none = .ok b → b.stats = none
  | 0, _, _, _, _, h => by cases h; rfl
  | n + 1, i, s, rs, b, h => by
    rw [MpiSerial.waitallLoop] at h
    obtain ⟨_, _, h⟩ := Res.bind_eq_ok.1 h
    obtain ⟨_, _, h⟩ := Res.bind_eq_ok.1 h
    obtain ⟨x, _, h⟩ := Res.bind_eq_ok.1 h
    split at h
    · cases h
    · exact waitall_none n (i + 1) _ _ b h

theorem testsomeLoop_none : ∀ (n i : Nat) (s : Sys) (rs : List Int) (f : Int) (b : ArrRes × Int), MpiSerial.testsomeLoop n i s rs none f = .ok b → b.1.stats = none
  | 0, _, _, _, _, _, h => by cases h; rfl
  | n + 1, i, s, rs, f, b, h => by
    rw [MpiSerial.testsomeLoop] at h
    obtain ⟨_, _, h⟩ := Res.bind_eq_ok.1 h
    obtain ⟨_, _, h⟩ := Res.bind_eq_ok.1 h
    obtain ⟨x, _, h⟩ := Res.bind_eq_ok.1 h
    exact testsomeLoop_none n (i + 1) _ _ _ b h

theorem testsome_none {s : Sys} {n : Int} {rs ix : List Int} {b : SomeRes} (h : MpiSerial.MPI_Testsome s n rs ix none = .ok b) : b.arr.stats = none := by
  obtain ⟨x, h1, h2⟩ := Res.bind_eq_ok.1 h
  cases h2
  exact testsomeLoop_none _ _ _ _ _ _ h1

section
variable {c : FEnv} {s : Sys} {r : Res (Sys × List Spec.Fort.Out)} {outs : List Spec.Fort.Out}

theorem test_in {request flag st e : Int} (hm : (FCall.test request flag st e).meaning c s = some r) (ho : (FCall.test request flag st e).own c s.mem = some outs)
    (hv : Variables s.mem outs) (hf : FlagsInt s) : Performs c.bo ((FCall.test request flag st e).inPlace c s) r := by
  simp only [FCall.own, Option.bind_eq_bind, Option.bind_eq_some_iff, Option.map_eq_some_iff, Option.pure_def, Option.some.injEq] at ho
  obtain ⟨_, ⟨rv, h1, rfl⟩, _, ⟨fv, h2, rfl⟩, _, ⟨sv, h3, rfl⟩, _, ⟨ev, h4, rfl⟩, rfl⟩ := ho
  simp only [FCall.meaning, Option.bind_eq_bind, Option.pure_def, h1, h2, h3, h4, Option.bind_some, Option.some.injEq] at hm
  subst hm
  obtain ⟨sts, i1, i2, i3, i4⟩ := status_arg h3
  rw [← i2] at hv
  have him : Img c.bo s.mem (vars request [rv] flag [fv] st sts [⟨e, 4, [ev]⟩]) s.mem :=
    .start hv (held_cons (held_int h1) (held_cons (held_int h2) (held_cons i3 (held_cons (held_int h4) nofun))))
  show Performs c.bo (mpi_test c s request flag st e) _
  unfold mpi_test
  refine of_fst (x := MPI_Test ..) (finish ?_)
  rw [← bind_ok (MpiSerial.MPI_Test ..)]
  refine ((test_rel him hf (request := .mem request) (flag := .mem flag) (i := 0) (j := 0) (.inr ⟨by simp, rfl, int_s32 h1⟩) (.inr ⟨by simp, rfl, int_s32 h2⟩)
    i1).know (test_mem rfl _ _)).bind fun a b _ _ hab => ?_
  obtain ⟨⟨m', e1, g1, _, _, g4, _⟩, hmem⟩ := hab
  refine ⟨m', [Out.int request b.request, Out.int flag b.flag, Out.statuses st (sts.upd 0 b.status)], ev, [], e1, ?_, ?_, ?_⟩
  · rw [show b.sys.mem = s.mem from hmem]
    exact g1
  · rw [i4 _ g4]; simp
  · rw [i4 _ g4]; simp

theorem wait_in {request st e : Int} (hm : (FCall.wait request st e).meaning c s = some r) (ho : (FCall.wait request st e).own c s.mem = some outs)
    (hv : Variables s.mem outs) (hf : FlagsInt s) : Performs c.bo ((FCall.wait request st e).inPlace c s) r := by
  simp only [FCall.own, Option.bind_eq_bind, Option.bind_eq_some_iff, Option.map_eq_some_iff, Option.pure_def, Option.some.injEq] at ho
  obtain ⟨_, ⟨rv, h1, rfl⟩, _, ⟨ev, h2, rfl⟩, _, ⟨sv, h3, rfl⟩, rfl⟩ := ho
  simp only [FCall.meaning, Option.bind_eq_bind, Option.pure_def, h1, h2, h3, Option.bind_some, Option.some.injEq] at hm
  subst hm
  obtain ⟨sts, i1, i2, i3, i4⟩ := status_arg h3
  rw [← i2] at hv
  have him : Img c.bo s.mem (vars request [rv] e [ev] st sts []) s.mem :=
    .start hv (held_cons (held_int h1) (held_cons (held_int h2) (held_cons i3 nofun)))
  show Performs c.bo (mpi_wait c s request st e) _
  unfold mpi_wait
  refine of_fst (x := MPI_Wait ..) (finish ?_)
  rw [← bind_ok (MpiSerial.MPI_Wait ..)]
  refine ((wait_rel him hf (request := .mem request) (i := 0) (.inr ⟨by simp, rfl, int_s32 h1⟩) i1).know (wait_mem rfl _ _)).bind fun a b _ _ hab => ?_
  obtain ⟨⟨m', e1, g1, g4⟩, hmem⟩ := hab
  refine ⟨m', [Out.int request b.2.1], ev, [Out.statuses st (sts.upd 0 b.2.2)], e1, ?_, ?_, ?_⟩
  · rw [show b.1.mem = s.mem from hmem]
    exact g1
  · rw [i4 _ g4]; simp
  · rw [i4 _ g4]; simp

theorem waitany_in {n requests index st e : Int} (hm : (FCall.waitany n requests index st e).meaning c s = some r) (ho : (FCall.waitany n requests index st e).own c s.mem = some outs)
    (hv : Variables s.mem outs) (hf : FlagsInt s) : Performs c.bo ((FCall.waitany n requests index st e).inPlace c s) r := by
  simp only [FCall.own, Option.bind_eq_bind, Option.bind_eq_some_iff, Option.map_eq_some_iff, Option.pure_def, Option.some.injEq] at ho
  obtain ⟨_, ⟨nv, h0, rs, h1, rfl⟩, _, ⟨ev, h2, rfl⟩, _, ⟨sv, h3, rfl⟩, _, ⟨iv, h4, rfl⟩, rfl⟩ := ho
  simp only [FCall.meaning, Option.bind_eq_bind, Option.pure_def, h0, h1, h2, h3, h4, Option.bind_some, Option.some.injEq] at hm
  subst hm
  obtain ⟨sts, i1, i2, i3, i4⟩ := status_arg h3
  obtain ⟨l1, l2, l3⟩ := ints_of h1
  rw [← i2] at hv
  have him : Img c.bo s.mem (vars requests rs e [ev] st sts [⟨index, 4, [iv]⟩]) s.mem :=
    .start hv (held_cons l2 (held_cons (held_int h2) (held_cons i3 (held_cons (held_int h4) nofun))))
  show Performs c.bo (mpi_waitany c s n requests st e) _
  unfold mpi_waitany
  rw [ldInt_eq, h0]
  refine finish ?_
  refine ((waitany_rel him hf l3 (by omega) iv i1).know
    (Call.mem_waitany s nv rs iv sv)).mono fun a b _ _ hab => ?_
  obtain ⟨⟨m', e1, g1, g4, g5⟩, hmem⟩ := hab
  refine ⟨m', [Out.ints requests b.2.1], ev, [Out.statuses st (sts.upd 0 b.2.2.2), Out.int index b.2.2.1], e1, ?_, ?_, ?_⟩
  · rw [show b.1.mem = s.mem from hmem, g5]
    exact g1
  · rw [i4 _ g4]; simp
  · rw [i4 _ g4]; simp

theorem testany_in {n requests index flag st e : Int} (hm : (FCall.testany n requests index flag st e).meaning c s = some r) (ho : (FCall.testany n requests index flag st e).own c s.mem = some outs)
    (hv : Variables s.mem outs) (hf : FlagsInt s) : Performs c.bo ((FCall.testany n requests index flag st e).inPlace c s) r := by
  simp only [FCall.own, Option.bind_eq_bind, Option.bind_eq_some_iff, Option.map_eq_some_iff, Option.pure_def, Option.some.injEq] at ho
  obtain ⟨_, ⟨nv, h0, rs, h1, rfl⟩, _, ⟨fv, h2, rfl⟩, _, ⟨sv, h3, rfl⟩, _, ⟨iv, h4, rfl⟩, _, ⟨ev, h5, rfl⟩, rfl⟩ := ho
  simp only [FCall.meaning, Option.bind_eq_bind, Option.pure_def, h0, h1, h2, h3, h4, h5, Option.bind_some, Option.some.injEq] at hm
  subst hm
  obtain ⟨sts, i1, i2, i3, i4⟩ := status_arg h3
  obtain ⟨l1, l2, l3⟩ := ints_of h1
  rw [← i2] at hv
  have him : Img c.bo s.mem (vars requests rs flag [fv] st sts [⟨index, 4, [iv]⟩, ⟨e, 4, [ev]⟩]) s.mem :=
    .start hv (held_cons l2 (held_cons (held_int h2) (held_cons i3 (held_cons (held_int h4) (held_cons (held_int h5) nofun)))))
  show Performs c.bo (mpi_testany c s n requests flag st e) _
  unfold mpi_testany
  rw [ldInt_eq, h0]
  refine of_fst (x := MPI_Testany ..) (finish ?_)
  rw [← bind_ok (MpiSerial.MPI_Testany ..)]
  refine ((anyCall_rel him hf l3 (by omega) iv (flag := .mem flag) (j := 0) (.inr ⟨by simp, rfl, int_s32 h2⟩) i1).know
    (Call.mem_testany s nv rs iv sv)).bind fun a b _ _ hab => ?_
  obtain ⟨⟨m', e1, g1, _, g4, g5⟩, hmem⟩ := hab
  refine ⟨m', [Out.ints requests b.2.1, Out.int flag b.2.2.2.1, Out.statuses st (sts.upd 0 b.2.2.2.2), Out.int index b.2.2.1], ev, [], e1, ?_, ?_, ?_⟩
  · rw [show b.1.mem = s.mem from hmem, g5]
    exact g1
  · rw [i4 _ g4]; simp
  · rw [i4 _ g4]; simp

theorem testall_in {n requests flag st e : Int} (hm : (FCall.testall n requests flag st e).meaning c s = some r) (ho : (FCall.testall n requests flag st e).own c s.mem = some outs)
    (hv : Variables s.mem outs) (hf : FlagsInt s) : Performs c.bo ((FCall.testall n requests flag st e).inPlace c s) r := by
  simp only [FCall.own, Option.bind_eq_bind, Option.bind_eq_some_iff, Option.map_eq_some_iff, Option.pure_def, Option.some.injEq] at ho
  obtain ⟨_, ⟨nv, h0, rs, h1, rfl⟩, _, ⟨fv, h2, rfl⟩, _, ⟨nv', h0', sts, h3, rfl⟩, _, ⟨ev, h4, rfl⟩, rfl⟩ := ho
  cases h0.symm.trans h0'
  simp only [FCall.meaning, Option.bind_eq_bind, Option.pure_def, h0, h1, h2, h3, h4, Option.bind_some, Option.some.injEq] at hm
  subst hm
  obtain ⟨l1, l2, l3⟩ := ints_of h1
  obtain ⟨hv', i1, i2, i3⟩ := statuses_in (pre := [_, _]) h3 hv
  have him : Img c.bo s.mem (vars requests rs flag [fv] (mpi_c_statuses c.ptrs st) sts [⟨e, 4, [ev]⟩]) s.mem :=
    .start hv' (held_cons l2 (held_cons (held_int h2) (held_cons i2 (held_cons (held_int h4) nofun))))
  show Performs c.bo (mpi_testall c s n requests flag st e) _
  unfold mpi_testall
  rw [ldInt_eq, h0]
  refine finish ?_
  refine ((testallCall_rel him hf l3 (by omega) i1).know (testallLoop_mem _ _ _ _ _ _ rfl)).mono fun a b _ hb hab => ?_
  obtain ⟨⟨m', e1, g1⟩, hmem⟩ := hab
  refine ⟨m', [Out.ints requests b.1.reqs, Out.int flag b.2, Out.statuses (mpi_c_statuses c.ptrs st) b.1.stats], ev, [], e1, ?_, ?_⟩
  · rw [show b.1.sys.mem = s.mem from hmem]
    exact g1
  · rcases i3 with i3 | rfl
    · rw [i3]; simp
    · rw [testall_none _ _ _ _ _ _ hb]; simp [Out.statuses]

theorem waitall_in {n requests st e : Int} (hm : (FCall.waitall n requests st e).meaning c s = some r) (ho : (FCall.waitall n requests st e).own c s.mem = some outs)
    (hv : Variables s.mem outs) (hf : FlagsInt s) : Performs c.bo ((FCall.waitall n requests st e).inPlace c s) r := by
  simp only [FCall.own, Option.bind_eq_bind, Option.bind_eq_some_iff, Option.map_eq_some_iff, Option.pure_def, Option.some.injEq] at ho
  obtain ⟨_, ⟨nv, h0, rs, h1, rfl⟩, _, ⟨ev, h2, rfl⟩, _, ⟨nv', h0', sts, h3, rfl⟩, rfl⟩ := ho
  cases h0.symm.trans h0'
  simp only [FCall.meaning, Option.bind_eq_bind, Option.pure_def, h0, h1, h2, h3, Option.bind_some, Option.some.injEq] at hm
  subst hm
  obtain ⟨l1, l2, l3⟩ := ints_of h1
  obtain ⟨hv', i1, i2, i3⟩ := statuses_in (pre := [_, _]) h3 hv
  have him : Img c.bo s.mem (vars requests rs e [ev] (mpi_c_statuses c.ptrs st) sts []) s.mem :=
    .start hv' (held_cons l2 (held_cons (held_int h2) (held_cons i2 nofun)))
  show Performs c.bo (mpi_waitall c s n requests st e) _
  unfold mpi_waitall
  rw [ldInt_eq, h0]
  refine finish ?_
  refine ((waitall_rel [ev] nv.toNat 0 s rs sts s.mem him hf l3 (by omega) (by rw [Nat.zero_add]; exact i1)).know (waitallLoop_mem _ _ _ _ _ rfl)).mono fun a b _ hb hab => ?_
  obtain ⟨⟨m', e1, g1⟩, hmem⟩ := hab
  refine ⟨m', [Out.ints requests b.reqs], ev, [Out.statuses (mpi_c_statuses c.ptrs st) b.stats], e1, ?_, ?_⟩
  · rw [show b.sys.mem = s.mem from hmem]
    exact g1
  · rcases i3 with i3 | rfl
    · rw [i3]; simp
    · rw [waitall_none _ _ _ _ _ hb]; simp [Out.statuses]

theorem testsome_in {n requests outcount indices st e : Int} (hm : (FCall.testsome n requests outcount indices st e).meaning c s = some r) (ho : (FCall.testsome n requests outcount indices st e).own c s.mem = some outs)
    (hv : Variables s.mem outs) (hf : FlagsInt s) : Performs c.bo ((FCall.testsome n requests outcount indices st e).inPlace c s) r := by
  simp only [FCall.own, Option.bind_eq_bind, Option.bind_eq_some_iff, Option.map_eq_some_iff, Option.pure_def, Option.some.injEq] at ho
  obtain ⟨_, ⟨nv, h0, rs, h1, rfl⟩, _, ⟨fv, h2, rfl⟩, _, ⟨nv', h0', sts, h3, rfl⟩, _, ⟨nv'', h0'', ix, h4, rfl⟩, _, ⟨ev, h5, rfl⟩, rfl⟩ := ho
  cases h0.symm.trans h0'
  cases h0.symm.trans h0''
  simp only [FCall.meaning, Option.bind_eq_bind, Option.pure_def, h0, h1, h2, h3, h4, h5, Option.bind_some, Option.some.injEq] at hm
  subst hm
  obtain ⟨l1, l2, l3⟩ := ints_of h1
  obtain ⟨hv', i1, i2, i3⟩ := statuses_in (pre := [_, _]) h3 hv
  have him : Img c.bo s.mem (vars requests rs outcount [fv] (mpi_c_statuses c.ptrs st) sts [⟨indices, 4, ix⟩, ⟨e, 4, [ev]⟩]) s.mem :=
    .start hv' (held_cons l2 (held_cons (held_int h2) (held_cons i2 (held_cons (ints_of h4).2.1 (held_cons (held_int h5) nofun)))))
  show Performs c.bo (mpi_testsome c s n requests outcount st e) _
  unfold mpi_testsome
  rw [ldInt_eq, h0]
  refine finish ?_
  refine ((testsomeCall_rel him hf l3 (by omega) i1 (int_lt h0) ix).know (Call.mem_testsome s nv rs ix sts)).mono fun a b _ hb hab => ?_
  obtain ⟨⟨m', e1, g1, g2⟩, hmem⟩ := hab
  refine ⟨m', [Out.ints requests b.arr.reqs, Out.int outcount b.outcount, Out.statuses (mpi_c_statuses c.ptrs st) b.arr.stats, Out.ints indices b.indices], ev, [], e1, ?_, ?_⟩
  · rw [show b.arr.sys.mem = s.mem from hmem, g2]
    exact g1
  · rcases i3 with i3 | rfl
    · rw [i3]; simp
    · rw [testsome_none hb]; simp [Out.statuses]

theorem waitsome_in {n requests outcount indices st e : Int} (hm : (FCall.waitsome n requests outcount indices st e).meaning c s = some r) (ho : (FCall.waitsome n requests outcount indices st e).own c s.mem = some outs)
    (hv : Variables s.mem outs) (hf : FlagsInt s) : Performs c.bo ((FCall.waitsome n requests outcount indices st e).inPlace c s) r := by
  simp only [FCall.own, Option.bind_eq_bind, Option.bind_eq_some_iff, Option.map_eq_some_iff, Option.pure_def, Option.some.injEq] at ho
  obtain ⟨_, ⟨nv, h0, rs, h1, rfl⟩, _, ⟨fv, h2, rfl⟩, _, ⟨nv', h0', sts, h3, rfl⟩, _, ⟨nv'', h0'', ix, h4, rfl⟩, _, ⟨ev, h5, rfl⟩, rfl⟩ := ho
  cases h0.symm.trans h0'
  cases h0.symm.trans h0''
  simp only [FCall.meaning, Option.bind_eq_bind, Option.pure_def, h0, h1, h2, h3, h4, h5, Option.bind_some, Option.some.injEq] at hm
  subst hm
  obtain ⟨l1, l2, l3⟩ := ints_of h1
  obtain ⟨hv', i1, i2, i3⟩ := statuses_in (pre := [_, _]) h3 hv
  have him : Img c.bo s.mem (vars requests rs outcount [fv] (mpi_c_statuses c.ptrs st) sts [⟨indices, 4, ix⟩, ⟨e, 4, [ev]⟩]) s.mem :=
    .start hv' (held_cons l2 (held_cons (held_int h2) (held_cons i2 (held_cons (ints_of h4).2.1 (held_cons (held_int h5) nofun)))))
  show Performs c.bo (mpi_testsome c s n requests outcount st e) _
  unfold mpi_testsome
  rw [ldInt_eq, h0]
  refine finish ?_
  refine ((testsomeCall_rel him hf l3 (by omega) i1 (int_lt h0) ix).know (Call.mem_testsome s nv rs ix sts)).mono fun a b _ hb hab => ?_
  obtain ⟨⟨m', e1, g1, g2⟩, hmem⟩ := hab
  refine ⟨m', [Out.ints requests b.arr.reqs, Out.int outcount b.outcount, Out.statuses (mpi_c_statuses c.ptrs st) b.arr.stats, Out.ints indices b.indices], ev, [], e1, ?_, ?_⟩
  · rw [show b.arr.sys.mem = s.mem from hmem, g2]
    exact g1
  · rcases i3 with i3 | rfl
    · rw [i3]; simp
    · rw [testsome_none hb]; simp [Out.statuses]

theorem requestFree_in {request e : Int} (hm : (FCall.requestFree request e).meaning c s = some r) (ho : (FCall.requestFree request e).own c s.mem = some outs)
    (hv : Variables s.mem outs) : Performs c.bo ((FCall.requestFree request e).inPlace c s) r := by
  simp only [FCall.own, Option.bind_eq_bind, Option.bind_eq_some_iff, Option.map_eq_some_iff, Option.pure_def, Option.some.injEq] at ho
  obtain ⟨_, ⟨rv, h1, rfl⟩, _, ⟨ev, h2, rfl⟩, rfl⟩ := ho
  simp only [FCall.meaning, Option.bind_eq_bind, Option.pure_def, h1, h2, Option.bind_some, Option.some.injEq] at hm
  subst hm
  have him : Img c.bo s.mem [⟨request, 4, [rv]⟩, ⟨e, 4, [ev]⟩] s.mem := .start hv (held_cons (held_int h1) (held_cons (held_int h2) nofun))
  refine finish ((requestFree_rel him (int_s32 h1)).mono fun a b _ hb hab => ?_)
  obtain ⟨m', e1, g1⟩ := hab
  obtain ⟨t, _, ht⟩ := Res.bind_eq_ok.1 hb
  cases ht
  exact ⟨m', [Out.int request MPI_REQUEST_NULL], ev, [], e1, g1, by simp, by simp⟩

theorem iprobe_in {src tag k flag st e : Int} (hm : (FCall.iprobe src tag k flag st e).meaning c s = some r) (ho : (FCall.iprobe src tag k flag st e).own c s.mem = some outs)
    (hv : Variables s.mem outs) : Performs c.bo ((FCall.iprobe src tag k flag st e).inPlace c s) r := by
  obtain ⟨sv, gv, kv, h5, h6, h7⟩ : ∃ sv gv kv, intAt c.bo s.mem src = some sv ∧ intAt c.bo s.mem tag = some gv ∧ intAt c.bo s.mem k = some kv := by
    simp only [FCall.meaning, Option.bind_eq_bind, Option.bind_eq_some_iff] at hm
    obtain ⟨sv, h1, gv, h2, kv, h3, _⟩ := hm
    exact ⟨sv, gv, kv, h1, h2, h3⟩
  simp only [FCall.own, Option.bind_eq_bind, Option.bind_eq_some_iff, Option.map_eq_some_iff, Option.pure_def, Option.some.injEq] at ho
  obtain ⟨_, ⟨fv, h1, rfl⟩, _, ⟨ov, h3, rfl⟩, _, ⟨ev, h4, rfl⟩, rfl⟩ := ho
  simp only [FCall.meaning, Option.bind_eq_bind, Option.pure_def, h1, h3, h4, h5, h6, h7, Option.bind_some, Option.some.injEq] at hm
  subst hm
  obtain ⟨sts, i1, i2, i3, i4⟩ := status_arg h3
  rw [← i2] at hv
  have him : Img c.bo s.mem (⟨flag, 4, [fv]⟩ :: Out.statuses st sts :: [⟨e, 4, [ev]⟩]) s.mem :=
    .start hv (held_cons (held_int h1) (held_cons i3 (held_cons (held_int h4) nofun)))
  show Performs c.bo (mpi_iprobe c s src tag k flag st e) _
  unfold mpi_iprobe
  rw [ldInt_eq, ldInt_eq, ldInt_eq, h5, h6, h7]
  refine of_fst (x := MPI_Iprobe ..) (finish ?_)
  rw [← bind_ok (MpiSerial.MPI_Iprobe ..)]
  refine ((iprobe_rel him sv gv kv (flag := .mem flag) (j := 0) (.inr ⟨by simp, rfl, int_s32 h1⟩) i1).know (iprobe_mem rfl _ _ _ _)).bind fun a b _ _ hab => ?_
  obtain ⟨⟨m', e1, g1, _, g4⟩, hmem⟩ := hab
  refine ⟨m', [Out.int flag b.2.1, Out.statuses st (sts.upd 0 b.2.2)], ev, [], e1, ?_, ?_, ?_⟩
  · rw [show b.1.mem = s.mem from hmem]
    exact g1
  · rw [i4 _ g4]; simp
  · rw [i4 _ g4]; simp

theorem probe_in {src tag k st e : Int} (hm : (FCall.probe src tag k st e).meaning c s = some r) (ho : (FCall.probe src tag k st e).own c s.mem = some outs)
    (hv : Variables s.mem outs) : Performs c.bo ((FCall.probe src tag k st e).inPlace c s) r := by
  obtain ⟨sv, gv, kv, h5, h6, h7⟩ : ∃ sv gv kv, intAt c.bo s.mem src = some sv ∧ intAt c.bo s.mem tag = some gv ∧ intAt c.bo s.mem k = some kv := by
    simp only [FCall.meaning, Option.bind_eq_bind, Option.bind_eq_some_iff] at hm
    obtain ⟨sv, h1, gv, h2, kv, h3, _⟩ := hm
    exact ⟨sv, gv, kv, h1, h2, h3⟩
  simp only [FCall.own, Option.bind_eq_bind, Option.bind_eq_some_iff, Option.map_eq_some_iff, Option.pure_def, Option.some.injEq] at ho
  obtain ⟨_, ⟨ev, h4, rfl⟩, _, ⟨ov, h3, rfl⟩, rfl⟩ := ho
  simp only [FCall.meaning, Option.bind_eq_bind, Option.pure_def, h3, h4, h5, h6, h7, Option.bind_some, Option.some.injEq] at hm
  subst hm
  obtain ⟨sts, i1, i2, i3, i4⟩ := status_arg h3
  rw [← i2] at hv
  have him : Img c.bo s.mem (⟨e, 4, [ev]⟩ :: Out.statuses st sts :: []) s.mem := .start hv (held_cons (held_int h4) (held_cons i3 nofun))
  show Performs c.bo (mpi_probe c s src tag k st e) _
  unfold mpi_probe
  rw [ldInt_eq, ldInt_eq, ldInt_eq, h5, h6, h7]
  refine finish ?_
  refine ((probe_rel him sv gv kv i1).know (Call.mem_probe s sv gv kv ov)).mono fun a b _ _ hab => ?_
  obtain ⟨⟨m', e1, g1, g4⟩, hmem⟩ := hab
  refine ⟨m', [], ev, [Out.statuses st (sts.upd 0 b.2)], e1, ?_, ?_, ?_⟩
  · rw [show b.1.mem = s.mem from hmem]
    exact g1
  · rw [i4 _ g4]; simp
  · rw [i4 _ g4]; simp

end

/-! ## Blocking receives -/

theorem int_ok {bo : ByteOrder} {m : Mem} {p v : Int} (h : ∀ a, (Out.int p v).covers a → (m a).isSome) : ∃ w, intAt bo m p = some w := by
  have at_ : ∀ k : Nat, k < 4 → ∃ b, m (p + k) = some b := fun k hk => Option.isSome_iff_exists.1 (h _ (by
    unfold Out.covers Out.int
    simp only [List.length_singleton]
    omega))
  obtain ⟨a, ha⟩ := at_ 0 (by omega)
  obtain ⟨b, hb⟩ := at_ 1 (by omega)
  obtain ⟨d, hd⟩ := at_ 2 (by omega)
  obtain ⟨e, he⟩ := at_ 3 (by omega)
  have : ∃ n, word bo m p = some n := by
    unfold word
    rw [show m p = some a by simpa using ha, show m (p + 1) = some b from hb, show m (p + 2) = some d from hd, show m (p + 3) = some e from he]
    cases bo <;> exact ⟨_, rfl⟩
  obtain ⟨n, hn⟩ := this
  exact ⟨_, by unfold intAt; rw [hn]; rfl⟩

theorem dom_vars {m m' : Mem} (h : SameDom m m') {outs : List Spec.Fort.Out} (hv : Variables m outs) : Variables m' outs :=
  ⟨fun o ho a ha => by rw [h a]; exact hv.accessible o ho a ha, hv.apart⟩

section
variable {c : FEnv}

/-- MPI_Wait at the end of a blocking receive. -/
theorem tail_rel {s : Sys} (hf : FlagsInt s) {st e ev0 : Int} {ov : StPtr} (h3 : statusArg c s.mem st = some ov)
    (hv : Variables s.mem [Out.int e ev0, Out.status st ov]) (request : Int) : ∃ (sts : StArr) (ev : Int),
      (∀ o', (stat c st).Is st (sts.upd 0 o') 0 o' → Out.statuses st (sts.upd 0 o') = Out.status st o') ∧
      Rel (fun a b => ∃ m'', a.1 = { b.1 with mem := m'' } ∧
          Img c.bo b.1.mem [⟨0, 4, []⟩, ⟨e, 4, [ev]⟩, Out.statuses st (sts.upd 0 b.2.2)] m'' ∧
          (stat c st).Is st (sts.upd 0 b.2.2) 0 b.2.2)
        (MPI_Wait c.bo s (.mine request) (stat c st)) (MpiSerial.MPI_Wait s request ov) := by
  obtain ⟨sts, i1, i2, i3, i4⟩ := status_arg h3
  obtain ⟨ev, he⟩ := int_ok (bo := c.bo) (hv.accessible (Out.int e ev0) (by simp))
  rw [← i2] at hv
  have hv' : Variables s.mem [Out.int e ev, Out.statuses st sts] := by
    refine ⟨fun o ho => ?_, ?_⟩
    · rcases List.mem_cons.1 ho with rfl | ho
      · exact hv.accessible (Out.int e ev0) (by simp)
      · exact hv.accessible o (List.mem_cons_of_mem _ ho)
    · exact List.pairwise_cons.2 ⟨(List.pairwise_cons.1 hv.apart).1, (List.pairwise_cons.1 hv.apart).2⟩
  have him : Img c.bo s.mem (vars 0 [] e [ev] st sts []) s.mem := (Img.start hv' (held_cons (held_int he) (held_cons i3 nofun))).cons_nil
  refine ⟨sts, ev, i4, ((wait_rel him hf (request := .mine request) (i := 0) (h := request) (.inl rfl) i1).know (wait_mem rfl _ _)).mono fun a b _ _ hab => ?_⟩
  obtain ⟨⟨m', e1, g1, g4⟩, hmem⟩ := hab
  rw [show b.1.mem = s.mem from hmem]
  exact ⟨m', e1, g1, g4⟩

end

section
variable {c : FEnv} {s : Sys} {r : Res (Sys × List Spec.Fort.Out)} {outs : List Spec.Fort.Out}

theorem sendrecv_in {sb sn ty d sg rb rn rt sr rg k st e : Int} (hm : (FCall.sendrecv sb sn ty d sg rb rn rt sr rg k st e).meaning c s = some r)
    (ho : (FCall.sendrecv sb sn ty d sg rb rn rt sr rg k st e).own c s.mem = some outs) (hv : Variables s.mem outs) (hf : FlagsInt s) (hj : IntJunk c.env)
    (hc : (FCall.sendrecv sb sn ty d sg rb rn rt sr rg k st e).Clear c s) : Performs c.bo ((FCall.sendrecv sb sn ty d sg rb rn rt sr rg k st e).inPlace c s) r := by
  simp only [FCall.own, Option.bind_eq_bind, Option.bind_eq_some_iff, Option.map_eq_some_iff, Option.pure_def, Option.some.injEq] at ho
  obtain ⟨_, ⟨ev, h2, rfl⟩, _, ⟨sv, h3, rfl⟩, rfl⟩ := ho
  simp only [FCall.meaning, Option.bind_eq_bind, Option.bind_eq_some_iff, Option.pure_def, Option.some.injEq] at hm
  obtain ⟨n1, a1, t1, a2, d1, a3, g1, a4, n2, a5, t2, a6, d2, a7, g2, a8, kv, a9, sv', h3', rfl⟩ := hm
  cases h3.symm.trans h3'
  show Performs c.bo (mpi_sendrecv c s sb sn ty d sg rb rn rt sr rg k st e) _
  unfold mpi_sendrecv
  simp only [ldInt_eq, a1, a2, a3, a4, a5, a6, a7, a8, a9]
  refine finish ?_
  unfold MPI_Sendrecv MpiSerial.MPI_Sendrecv
  refine Rel.bind_same fun x hx => ?_
  refine Rel.bind_same fun y hy => ?_
  have d1 := irecv_dom (env := c.env) (m := s.mem) (s := s) (fun _ => rfl) rb n2 t2 d2 g2 kv x hx
  have d2 := send_dom (env := c.env) d1 _ _ _ _ _ _ y hy
  have f1 := irecv_fi hj hf _ _ _ _ _ _ x hx
  have f2 := send_fi hj f1 _ _ _ _ _ _ y hy
  have hs := (hc _ _ _ _ _ _ _ _ _ x y a1 a2 a3 a4 a5 a6 a7 a8 a9 hx hy).trans h3
  obtain ⟨sts, ev', i4, hrel⟩ := tail_rel f2 hs (dom_vars d2 hv) x.2
  refine hrel.bind fun a b _ _ hab => ?_
  obtain ⟨m', e1, k1, k4⟩ := hab
  refine ⟨m', [⟨0, 4, []⟩], ev', [Out.statuses st (sts.upd 0 b.2.2)], e1, k1, ?_, ?_⟩
  · rw [i4 _ k4]; simp
  · rw [i4 _ k4]; simp

theorem recv_in {buf n ty d g k st e : Int} (hm : (FCall.recv buf n ty d g k st e).meaning c s = some r)
    (ho : (FCall.recv buf n ty d g k st e).own c s.mem = some outs) (hv : Variables s.mem outs) (hf : FlagsInt s) (hj : IntJunk c.env)
    (hc : (FCall.recv buf n ty d g k st e).Clear c s) : Performs c.bo ((FCall.recv buf n ty d g k st e).inPlace c s) r := by
  simp only [FCall.own, Option.bind_eq_bind, Option.bind_eq_some_iff, Option.map_eq_some_iff, Option.pure_def, Option.some.injEq] at ho
  obtain ⟨_, ⟨ev, h2, rfl⟩, _, ⟨sv, h3, rfl⟩, rfl⟩ := ho
  simp only [FCall.meaning, Option.bind_eq_bind, Option.bind_eq_some_iff, Option.pure_def, Option.some.injEq] at hm
  obtain ⟨n2, a5, t2, a6, d2, a7, g2, a8, kv, a9, sv', h3', rfl⟩ := hm
  cases h3.symm.trans h3'
  show Performs c.bo (mpi_recv c s buf n ty d g k st e) _
  unfold mpi_recv
  simp only [ldInt_eq, a5, a6, a7, a8, a9]
  refine finish ?_
  unfold MPI_Recv MpiSerial.MPI_Recv
  refine Rel.bind_same fun x hx => ?_
  have d1 := irecv_dom (env := c.env) (m := s.mem) (s := s) (fun _ => rfl) buf n2 t2 d2 g2 kv x hx
  have f1 := irecv_fi hj hf _ _ _ _ _ _ x hx
  have hs := (hc _ _ _ _ _ x a5 a6 a7 a8 a9 hx).trans h3
  obtain ⟨sts, ev', i4, hrel⟩ := tail_rel f1 hs (dom_vars d1 hv) x.2
  refine hrel.bind fun a b _ _ hab => ?_
  obtain ⟨b1, b2, b3⟩ := b
  obtain ⟨a1, a2⟩ := a
  obtain ⟨m', rfl, k1, k4⟩ := hab
  dsimp only at k1 k4 i4 ⊢
  have k5 := i4 _ k4
  cases hst : stat c st with
  | null =>
    rw [hst] at k4
    cases b3 with
    | null =>
      refine ⟨m', [⟨0, 4, []⟩], ev', [Out.statuses st (sts.upd 0 .null)], rfl, k1, ?_, ?_⟩
      · rw [k5]; simp
      · rw [k5]; simp
    | _ => exact k4.elim
  | bad =>
    rw [hst] at k4
    cases b3 with
    | bad => rfl
    | _ => exact k4.elim
  | mem q =>
    rw [hst] at k4 i4
    cases b3 with
    | obj t =>
      obtain ⟨rfl, l, e1, e2⟩ := k4
      rw [e1] at k1
      obtain ⟨m2, h4, h5⟩ := StVar.store_field (pre := [⟨0, 4, []⟩, ⟨e, 4, [ev']⟩]) (post := []) k1 e2 3 (by omega) n2 b1
      have hlen : l.length = 1 := by
        rw [e1] at k5
        have := congrArg (fun o => o.vals.length) k5
        have h6 : (flat l).length = 4 := this
        rw [flat_length] at h6
        omega
      obtain ⟨t', rfl⟩ := List.length_eq_one_iff.1 hlen
      cases e2
      refine (show (StVar.mem (st + 16 * ((0 : Nat) : Int))).store c.bo ({ b1 with mem := m' } : Sys) 12 n2 = .ok { b1 with mem := m2 } from h4) ▸ ?_
      refine ⟨m2, [⟨0, 4, []⟩], ev', [Out.statuses st (some [{ t with get_count := n2 }])], rfl, h5, ?_, ?_⟩
      · rw [show Out.statuses st (some [{ t with get_count := n2 }]) = Out.status st (.obj { t with get_count := n2 }) from rfl]; simp
      · rw [show Out.statuses st (some [{ t with get_count := n2 }]) = Out.status st (.obj { t with get_count := n2 }) from rfl]; simp
    | _ => exact k4.elim

end

end Place

end MpiSerial
