import Verif.Spec.Exchange
import Verif.Props.Copy
import Verif.Props.Coll
import Verif.Proofs.Avoid

/-!
# Data of a matched message (C22, C23, C30)

`Delivers`: the receive was posted first; `Collects`: the send was posted first.  recv.c:81 copies
with the *receiver's* count and datatype on both sides, so the second case does not know what the sender
described; the `fails` theorems show the consequences.
-/

set_option linter.unusedSimpArgs false
set_option autoImplicit false

namespace MpiSerial

open Spec

section
variable {env : Env} {s s' : Sys} {L L' : Ledger}

/-- Receive posted first: the typed copy between the two descriptions. -/
theorem Delivers.eq (hr : Reach env s L) {sb sc st rb rc rt : Int} {R : Res Mem}
    (h : Delivers env s L sb sc st rb rc rt R) {ts tr : Typestruct} (h1 : L.desc env.cfg st = some ts)
    (h2 : L.desc env.cfg rt = some tr) : R = Pcopy_data2 env.cfg s.mem sb sc ts rb rc tr := by
  have hself : ∀ comm tag, CanExchange L comm tag →
      (MPI_Sendrecv env s sb sc st 0 tag rb rc rt 0 tag comm .null >>= fun x => Res.ok x.1.mem) =
        Pcopy_data2 env.cfg s.mem sb sc ts rb rc tr := by
    intro comm tag hx
    obtain ⟨c, hcm, ha, hb⟩ := hx.live
    obtain ⟨S, hS, he⟩ := C15_sendrecv hr hcm hx.queue (src := 0) (Or.inl rfl) sb sc st tag rb rc rt tag (st := .null)
      (by simp) ha hb (by simp [accepts]) hx.room h1 h2
    rw [he]
    cases Pcopy_data2 env.cfg s.mem sb sc ts rb rc tr <;> simp [hS]
  cases h with
  | @isend comm c buf count dtype tag j o hy he =>
    obtain ⟨M, lst, hi⟩ := hr.inv
    have hp := earliest_partner (k := .send) he
    rcases isend_spec (env := env) hi hy.live hy.queue sb sc st tag with
      ⟨hl, _⟩ | ⟨_, hp', _⟩ | ⟨hl, j', o', s1, h1', M', X, hp', hj, hok, hn, hX, hi'⟩
    · exact absurd hl (Nat.ne_of_lt hy.room)
    · rw [hp] at hp'; cases hp'
    · rw [hp] at hp'
      cases hp'
      rw [he.1] at hj
      cases hj
      have := hX _ _ h1 (by rw [if_pos rfl]; exact h2)
      rw [if_pos rfl] at this
      rw [hok, this]
      cases Pcopy_data2 env.cfg s.mem sb sc ts o.buf o.count tr <;> rfl
  | @send comm c buf count dtype tag j o hy he =>
    obtain ⟨S, hS, hok⟩ := (C15_send hr hy.live hy.queue (Or.inl rfl) sb sc st tag).2 j o he hy.room _ _ h1 h2
    rw [hok]
    cases Pcopy_data2 env.cfg s.mem sb sc ts o.buf o.count tr <;> simp [hS]
  | @irsend comm c buf count dtype tag j o hy he =>
    obtain ⟨S, h, hS, hok⟩ := (C15_irsend hr hy.live hy.queue sb sc st tag).2 j o he hy.room _ _ h1 h2
    rw [hok]
    cases Pcopy_data2 env.cfg s.mem sb sc ts o.buf o.count tr <;> simp [hS]
  | sendrecv hx => exact hself _ _ hx
  | collective hl hx =>
    rw [hl _ _ hx, ← hself _ _ hx, bind_assoc]
    rfl

/-- Send posted first: the receiver's description on both sides. -/
theorem Collects.eq (hr : Reach env s L) {sb sc st rb rc rt : Int} {R : Res Mem}
    (h : Collects env s L sb sc st rb rc rt R) {tr : Typestruct} (h2 : L.desc env.cfg rt = some tr) :
    R = Pcopy_data2 env.cfg s.mem sb rc tr rb rc tr := by
  cases h with
  | @irecv comm c buf count dtype src tag j o hy hs he =>
    obtain ⟨M, lst, hi⟩ := hr.inv
    have hp := earliest_partner (k := .recv) he
    rcases irecv_spec (env := env) hi hy.live hy.queue hs rb rc rt tag with
      ⟨hl, _⟩ | ⟨_, hp', _⟩ | ⟨hl, j', o', s1, h1', M', X, hp', hj, hok, hn, hX, hi'⟩
    · exact absurd hl (Nat.ne_of_lt hy.room)
    · rw [hp] at hp'; cases hp'
    · rw [hp] at hp'
      cases hp'
      rw [he.1] at hj
      cases hj
      have := hX _ _ h2 (by rw [if_neg (by simp)]; exact h2)
      rw [if_neg (by simp)] at this
      rw [hok, this]
      cases Pcopy_data2 env.cfg s.mem o.buf rc tr rb rc tr <;> rfl
  | @recv comm c buf count dtype src tag j o stp hy hs hst he =>
    obtain ⟨S, hS, hok⟩ := (C15_recv hr hy.live hy.queue hs rb rc rt tag hst).2 j o he hy.room _ h2
    rw [hok]
    cases Pcopy_data2 env.cfg s.mem o.buf rc tr rb rc tr <;> simp [hS]

/-! ## C22 -/

/-- Memory `m'` holds, in each of the elements `recv`, the value that `m` holds in the corresponding
one of the elements `send`. -/
def Arrived (cfg : Cfg) (m m' : Mem) (send recv : List Entry) : Prop :=
  ∀ (i : Nat) (d : Entry), recv[i]? = some d → ∃ e : Entry, send[i]? = some e ∧
    ∀ k, 0 ≤ k → k < sz cfg d.2 → m' (d.1 + k) = m (e.1 + k)

/-- C22, receive posted first (also MPI_Sendrecv and the collectives): each element along the receive
type map obtains the value of the corresponding element along the send type map.  Partial: offsets
within the two buffers must be `int`s (in `Transfer`). -/
theorem C22_recv_first_partial (hc : env.cfg.Ok) (hr : Reach env s L) {sb sc st rb rc rt : Int} {R : Res Mem}
    (h : Delivers env s L sb sc st rb rc rt R) {m' : Mem} (hok : R = .ok m') {ts tr : Typestruct} (h1 : L.desc env.cfg st = some ts)
    (h2 : L.desc env.cfg rt = some tr) {se re : Int} (ht : Transfer env.cfg sb sc ts se rb rc tr re) :
    Arrived env.cfg s.mem m' (elems ts se sc sb) (elems tr re rc rb) :=
  C32_bytes hc ht ((h.eq hr h1 h2).symm.trans hok)

/-- ... and the call returns whenever both buffers are accessible. -/
theorem C22_recv_first_returns_partial (hc : env.cfg.Ok) (hr : Reach env s L) {sb sc st rb rc rt : Int} {R : Res Mem}
    (h : Delivers env s L sb sc st rb rc rt R) {ts tr : Typestruct} (h1 : L.desc env.cfg st = some ts)
    (h2 : L.desc env.cfg rt = some tr) {se re : Int} (ht : Transfer env.cfg sb sc ts se rb rc tr re)
    (had : Accessible (sz env.cfg) (fun a => (s.mem a).isSome) (elems tr re rc rb))
    (has : Accessible (sz env.cfg) (fun a => (s.mem a).isSome) ((elems ts se sc sb).take (elems tr re rc rb).length)) :
    ∃ m', R = .ok m' := by
  rw [h.eq hr h1 h2]
  exact C32_succeeds hc ht had has

/-- C22, send posted first.  Partial: only if the receive type lays out the send buffer as the send type
does (`hpre`), e.g. with the same datatype and no larger count; see `C22_fails_send_first`. -/
theorem C22_send_first_partial (hc : env.cfg.Ok) (hr : Reach env s L) {sb sc st rb rc rt : Int} {R : Res Mem}
    (h : Collects env s L sb sc st rb rc rt R) {m' : Mem} (hok : R = .ok m') {ts tr : Typestruct} (_h1 : L.desc env.cfg st = some ts)
    (h2 : L.desc env.cfg rt = some tr) {se re : Int} (ht : Transfer env.cfg sb rc tr re rb rc tr re)
    (hpre : elems tr re rc sb <+: elems ts se sc sb) :
    Arrived env.cfg s.mem m' (elems ts se sc sb) (elems tr re rc rb) := by
  intro i d hd
  obtain ⟨e, h3, h4⟩ := C32_bytes hc ht ((h.eq hr h2).symm.trans hok) i d hd
  exact ⟨e, by
    obtain ⟨t, hpre⟩ := hpre
    rw [← hpre, List.getElem?_append_left (List.getElem?_eq_some_iff.1 h3).1]
    exact h3, h4⟩

/-- A smaller count describes a prefix of the same elements. -/
theorem elems_prefix (t : Typestruct) (e buf : Int) {n n' : Int} (h : n ≤ n') :
    elems t e n buf <+: elems t e n' buf := by
  unfold elems repeated
  have : n.toNat ≤ n'.toNat := by omega
  rw [show List.range n'.toNat = List.range n.toNat ++ (List.range' n.toNat (n'.toNat - n.toNat)) by
    rw [List.range_eq_range', List.range_eq_range']
    have := List.range'_append (s := 0) (m := n.toNat) (n := n'.toNat - n.toNat) (step := 1)
    simp only [Nat.one_mul, Nat.zero_add] at this
    rw [this]
    congr 1
    omega]
  rw [List.flatMap_append]
  exact List.prefix_append _ _

/-- C22, send posted first, same datatype on both sides and no more received than sent. -/
theorem C22_send_first_same_partial (hc : env.cfg.Ok) (hr : Reach env s L) {sb sc t rb rc : Int} {R : Res Mem}
    (h : Collects env s L sb sc t rb rc t R) {m' : Mem} (hok : R = .ok m') {tt : Typestruct} (h2 : L.desc env.cfg t = some tt) {e : Int}
    (ht : Transfer env.cfg sb rc tt e rb rc tt e) (hle : rc ≤ sc) :
    Arrived env.cfg s.mem m' (elems tt e sc sb) (elems tt e rc rb) :=
  C22_send_first_partial hc hr h hok h2 h2 ht (elems_prefix tt e sb hle)

/-- The typed copy depends on the source count only through the over-receive check. -/
theorem Pcopy_count {cfg : Cfg} {m m' m'' : Mem} {source sc dest dc : Int} {st dt : Typestruct}
    (h : Pcopy_data2 cfg m source sc st dest dc dt = .ok m')
    (h' : Pcopy_data2 cfg m source dc st dest dc dt = .ok m'') : m' = m'' := by
  unfold Pcopy_data2 at h h'
  split at h
  · cases h
  · rename_i hcom
    rw [if_neg hcom] at h'
    obtain ⟨a, _, h⟩ := Res.bind_eq_ok.1 h
    obtain ⟨b, hb, h⟩ := Res.bind_eq_ok.1 h
    obtain ⟨a', _, h'⟩ := Res.bind_eq_ok.1 h'
    rw [hb, Res.ok_bind] at h'
    split at h
    · cases h
    · split at h'
      · cases h'
      · rw [h] at h'
        exact Res.ok.inj h'

/-- C22, posting order.  With the same datatype on both sides, a message and a receive for it on a
communicator without other open traffic for them leave the same memory whichever is posted first, if
both orders return.  Partial: same datatype. -/
theorem C22_order_partial (hr : Reach env s L) {comm buf count rbuf rcount t src stag rtag : Int} {cid : Nat}
    (hcm : (comm, Obj.comm cid) ∈ L.objs) (hu : L.unmatched + 1 < 2147483647)
    (h1 : NoOpen L .send cid (fun t => accepts rtag t)) (h2 : NoOpen L .recv cid (fun t => accepts t stag))
    (ha : accepts rtag stag = true) (hsrc : src = 0 ∨ src = MPI_ANY_SOURCE) {tt : Typestruct}
    (ht : L.desc env.cfg t = some tt) {a b a' b' : Sys} {x y x' y' : Int}
    (e1 : MPI_Isend env s buf count t 0 stag comm = .ok (a, x))
    (e2 : MPI_Irecv env a rbuf rcount t src rtag comm = .ok (b, y))
    (e1' : MPI_Irecv env s rbuf rcount t src rtag comm = .ok (a', x'))
    (e2' : MPI_Isend env a' buf count t 0 stag comm = .ok (b', y')) : b.mem = b'.mem := by
  have hsn : src ≠ MPI_PROC_NULL := by rcases hsrc with rfl | rfl <;> decide
  have p1 : L.partner cid .recv rtag = none := noOpen_partner (k := .recv) h1
  have p2 : L.partner cid .send stag = none := noOpen_partner (k := .send) h2
  obtain ⟨M, lst, hi⟩ := hr.inv
  -- send first
  have hb : Pcopy_data2 env.cfg s.mem buf rcount tt rbuf rcount tt = .ok b.mem := by
    obtain ⟨⟨M1, hi1⟩, hn, _, h3⟩ := posted hi hcm (isend_spec (env := env) hi hcm (by omega) buf count t stag) e1
    rcases h3 with ⟨_, hm, _⟩ | ⟨j, o, hp, _⟩
    rotate_left
    · rw [p2] at hp; cases hp
    have hu1 := unmatched_post_none (buf := buf) (count := count) (dtype := t) (h := x) p2
    obtain ⟨_, _, _, h4⟩ := posted hi1 (mem_post hcm)
      (irecv_spec (env := env) hi1 (mem_post hcm) (by omega) hsrc rbuf rcount t rtag) e2
    have hnew := post_new (L := L) .send cid stag buf count t x
    have hpa : (L.post .send cid stag buf count t x).partner cid .recv rtag = some L.ops.length := by
      rw [Ledger.post_none p2]
      unfold Ledger.partner
      dsimp only
      rw [List.findIdx?_append]
      unfold Ledger.partner at p1
      rw [p1]
      have hw : (⟨.send, cid, stag, buf, count, t, x, .pending⟩ : Op).waits cid .recv rtag = true := by
        rw [waits_iff]; exact ⟨⟨rfl, rfl, rfl⟩, ha⟩
      simp [List.findIdx?_cons, hw]
    rw [hpa] at h4
    rcases h4 with ⟨h5, _⟩ | ⟨j, o, h5, h6, _, _, _, _, _, h7⟩
    · cases h5
    · cases h5
      rw [hnew] at h6
      cases h6
      have := h7 tt tt (desc_post hn ht) (by rw [if_neg (by simp)]; exact desc_post hn ht)
      rw [if_neg (by simp), hm] at this
      exact this
  have hb' : Pcopy_data2 env.cfg s.mem buf count tt rbuf rcount tt = .ok b'.mem := by
    obtain ⟨⟨M1, hi1⟩, hn, _, h3⟩ := posted hi hcm (irecv_spec (env := env) hi hcm (by omega) hsrc rbuf rcount t rtag) e1'
    rcases h3 with ⟨_, hm, _⟩ | ⟨j, o, hp, _⟩
    rotate_left
    · rw [p1] at hp; cases hp
    have hu1 := unmatched_post_none (buf := rbuf) (count := rcount) (dtype := t) (h := x') p1
    obtain ⟨_, _, _, h4⟩ := posted hi1 (mem_post hcm)
      (isend_spec (env := env) hi1 (mem_post hcm) (by omega) buf count t stag) e2'
    have hnew := post_new (L := L) .recv cid rtag rbuf rcount t x'
    rw [p1] at hnew
    rw [partner_after_recv p1 p2 ha] at h4
    rcases h4 with ⟨h5, _⟩ | ⟨j, o, h5, h6, _, _, _, _, _, h7⟩
    · cases h5
    · cases h5
      rw [hnew] at h6
      cases h6
      have := h7 tt tt (desc_post hn ht) (by rw [if_pos rfl]; exact desc_post hn ht)
      rw [if_pos rfl, hm] at this
      exact this
  exact (Pcopy_count hb' hb).symm

/-! ## C23 -/

/-- C23, receive posted first (also MPI_Sendrecv and the collectives): a receive that describes more
elements than the message has ends the program.  This holds whatever memory is, in particular when no
byte may be accessed: nothing has been read or written before.  Partial: not when the send was posted
first (`C23_fails_send_first`). -/
theorem C23_refused_partial (hr : Reach env s L) {sb sc st rb rc rt : Int} {R : Res Mem}
    (h : Delivers env s L sb sc st rb rc rt R) {ts tr : Typestruct} (h1 : L.desc env.cfg st = some ts)
    (h2 : L.desc env.cfg rt = some tr) (hs : ts.WF) (hd : tr.WF) (hf : CountsFit ts tr sc rc)
    (hcs : ts.committed ≠ 0) (hcd : tr.committed ≠ 0) (se re : Int)
    (hlt : (elems ts se sc sb).length < (elems tr re rc rb).length) : R = .exit 1 := by
  rw [h.eq hr h1 h2]
  exact C23_over_receive_copy _ sb sc rb rc ts tr hs hd hf hcs hcd se re hlt

/-! ## C30 -/

/-- C30: whichever is posted first, an uncommitted *receive* type ends the program, whatever memory is. -/
theorem C30_recv_type (hr : Reach env s L) {sb sc st rb rc rt : Int} {R : Res Mem}
    (h : (Delivers env s L sb sc st rb rc rt R ∧ IsType env L st) ∨ Collects env s L sb sc st rb rc rt R)
    {tr : Typestruct} (h2 : L.desc env.cfg rt = some tr) (hc : tr.committed = 0) : R = .exit (-1) := by
  rcases h with ⟨h, ts, h1⟩ | h
  · rw [h.eq hr h1 h2]
    exact C30_uncommitted_copy _ _ _ _ _ _ _ (Or.inr hc)
  · rw [h.eq hr h2]
    exact C30_uncommitted_copy _ _ _ _ _ _ _ (Or.inr hc)

/-- C30: an uncommitted *send* type ends the program if the receive is posted first (also MPI_Sendrecv
and the collectives).  Partial: not if the send is posted first (`C30_fails_send_first`). -/
theorem C30_send_type_partial (hr : Reach env s L) {sb sc st rb rc rt : Int} {R : Res Mem}
    (h : Delivers env s L sb sc st rb rc rt R) (hrt : IsType env L rt)
    {ts : Typestruct} (h1 : L.desc env.cfg st = some ts) (hc : ts.committed = 0) : R = .exit (-1) := by
  obtain ⟨tr, h2⟩ := hrt
  rw [h.eq hr h1 h2]
  exact C30_uncommitted_copy _ _ _ _ _ _ _ (Or.inl hc)

theorem desc_addType {cfg : Cfg} {h : Int} (hp : 0 ≤ h) (t : Typestruct) : (L.addType h t).desc cfg h = some t := by
  unfold Ledger.desc Ledger.addType
  rw [if_neg (by omega)]
  simp

/-- C30: every datatype constructor returns a type that is not committed, whatever its components are. -/
theorem C30_new (hr : Reach env s L) {build : Garbage → Res Typestruct} {r : Res (Sys × Int)}
    (hc : TypeCall env L s build r) {h : Int} (hok : r = .ok (s', h)) :
    ∃ t, Reach env s' (L.addType h t) ∧ (L.addType h t).desc env.cfg h = some t ∧ t.committed = 0 := by
  obtain ⟨M, lst, hi⟩ := hr.inv
  have he := hc.eq hi
  have hb : ∃ t, build (env.garbage s.nextType) = .ok t := by
    rw [hok] at he
    rcases newType_spec (env := env) hi build with ⟨_, ha⟩ | ⟨_, S, h', _, h1, _⟩
    · rw [← he] at ha; cases ha
    · rw [← he] at h1
      obtain ⟨t, h2, _⟩ := Res.bind_eq_ok.1 h1.symm
      exact ⟨t, h2⟩
  obtain ⟨t, hb⟩ := hb
  have hr' := hr.step (.newType hc hok hb)
  refine ⟨t, hr', ?_, ?_⟩
  · obtain ⟨M', lst', hi'⟩ := hr'.inv
    have := hi'.hst.pos (mem_keys (o := .dtype t) (show (h, Obj.dtype t) ∈ (L.addType h t).objs by
      unfold Ledger.addType; simp))
    exact desc_addType (by omega) t
  · have hd := C30_derived_uncommitted (cfg := env.cfg) (g := env.garbage s.nextType) (t := t)
    cases hc with
    | contiguous _ => exact hd.2.1 _ _ hb
    | hvector _ => exact hd.2.2.1 _ _ _ _ hb
    | vector _ => exact hd.2.2.2.1 _ _ _ _ hb
    | hindexed _ => exact hd.2.2.2.2.1 _ _ _ _ hb
    | indexed _ => exact hd.2.2.2.2.2.1 _ _ _ _ hb
    | indexedBlock _ => exact hd.2.2.2.2.2.2 _ _ _ _ hb
    | struct _ _ _ _ => exact hd.1 _ hb

theorem find_key {α : Type} {l : List (Int × α)} (hn : (l.map Prod.fst).Nodup) {h : Int} {o : α} (hm : (h, o) ∈ l) :
    l.find? (fun e => decide (e.1 = h)) = some (h, o) := by
  induction l with
  | nil => cases hm
  | cons x l ih =>
    rw [List.map_cons, List.nodup_cons] at hn
    rw [List.find?_cons]
    rcases List.mem_cons.1 hm with rfl | hm
    · simp
    · have : x.1 ≠ h := fun he => hn.1 (he ▸ List.mem_map.2 ⟨_, hm, rfl⟩)
      rw [decide_eq_false this]
      exact ih hn.2 hm

theorem desc_mem {cfg : Cfg} (hr : Reach env s L) {h : Int} {t : Typestruct} (hm : (h, Obj.dtype t) ∈ L.objs) :
    L.desc cfg h = some t := by
  obtain ⟨M, lst, hi⟩ := hr.inv
  have := hi.hst.pos (mem_keys hm)
  unfold Ledger.desc
  rw [if_neg (by omega), find_key hi.hst.nodup hm]
  rfl

/-- Exit status -1 is only used for uncommitted types. -/
def Uncommitted (f : Fate) : Prop := f = .exit (-1)

theorem pair_avoids (t : Typestruct) (k : Int) : (t.pair k).Avoids Uncommitted := by
  unfold Typestruct.pair
  split
  · split
    · exact Res.avoids_ok _
    · exact Res.avoids_ub (by simp [Uncommitted])
  · exact Res.avoids_ub (by simp [Uncommitted])

theorem ck32_avoids (x : Int) : (ck32 x).Avoids Uncommitted := by
  unfold ck32; split
  · exact Res.avoids_ok _
  · exact Res.avoids_ub (by simp [Uncommitted])

theorem ck64_avoids (x : Int) : (ck64 x).Avoids Uncommitted := by
  unfold ck64; split
  · exact Res.avoids_ok _
  · exact Res.avoids_ub (by simp [Uncommitted])

theorem length_avoids (cfg : Cfg) (t : Int) : (Simpletype_length cfg t).Avoids Uncommitted := by
  unfold Simpletype_length
  split <;> first | exact Res.avoids_ok _ | exact Res.avoids_exit (by simp [Uncommitted])

theorem padding_avoids {cfg : Cfg} {t : Typestruct} : ∀ (n i : Nat) (m : Int),
    (calcPaddingLoop cfg t n i m).Avoids Uncommitted := by
  intro n
  induction n with
  | zero => intro i m; exact Res.avoids_ok _
  | succ n ih =>
    intro i m
    unfold calcPaddingLoop
    exact Res.avoids_bind (pair_avoids _ _) (fun _ _ => Res.avoids_bind (length_avoids _ _) (fun _ _ => ih _ _))

theorem extent_avoids (cfg : Cfg) (t : Typestruct) : (Type_extent cfg t).Avoids Uncommitted := by
  unfold Type_extent calc_padding
  refine Res.avoids_ite (fun _ => ?_) (fun _ => ?_)
  · refine Res.avoids_bind (Res.avoids_bind (padding_avoids _ _ _) fun _ _ => Res.avoids_ok _) fun _ _ => ?_
    refine Res.avoids_bind (ck64_avoids _) fun _ _ => ?_
    refine Res.avoids_ite (fun _ => Res.avoids_ub (by simp [Uncommitted])) (fun _ => ?_)
    dsimp only
    split
    · exact Res.avoids_bind (Res.avoids_pure _) fun _ _ => Res.avoids_bind (ck64_avoids _) fun _ _ => Res.avoids_pure _
    · exact Res.avoids_bind (ck32_avoids _) fun _ _ => Res.avoids_bind (ck64_avoids _) fun _ _ => Res.avoids_pure _
  · exact Res.avoids_bind (ck64_avoids _) fun _ _ => Res.avoids_pure _

theorem entryOffset_avoids (t : Typestruct) (e : Int) (i : Nat) : (entryOffset t e i).Avoids Uncommitted := by
  unfold entryOffset
  exact Res.avoids_ite (fun _ => Res.avoids_ub (by simp [Uncommitted]))
    (fun _ => Res.avoids_bind (pair_avoids _ _) fun _ _ => Res.avoids_pure _)

theorem memcpy_avoids (m : Mem) (d s : Int) (n : Nat) : (memcpy m d s n).Avoids Uncommitted := by
  unfold memcpy
  refine Res.avoids_ite (fun _ => Res.avoids_ok _) (fun _ => Res.avoids_ite (fun _ => Res.avoids_ub (by simp [Uncommitted]))
    (fun _ => Res.avoids_ite (fun _ => Res.avoids_ub (by simp [Uncommitted])) (fun _ => Res.avoids_ok _)))

theorem copyLoop_avoids {cfg : Cfg} {source sext dest dext : Int} {st dt : Typestruct} :
    ∀ (n i : Nat) (m : Mem), (copyLoop cfg source st sext dest dt dext n i m).Avoids Uncommitted := by
  intro n
  induction n with
  | zero => intro i m; exact Res.avoids_ok _
  | succ n ih =>
    intro i m
    unfold copyLoop
    refine Res.avoids_bind (entryOffset_avoids _ _ _) fun _ _ => Res.avoids_bind (entryOffset_avoids _ _ _) fun _ _ =>
      Res.avoids_bind (pair_avoids _ _) fun _ _ => Res.avoids_bind (pair_avoids _ _) fun _ _ => ?_
    exact Res.avoids_ite (fun _ => Res.avoids_exit (by simp [Uncommitted])) fun _ =>
      Res.avoids_bind (length_avoids _ _) fun _ _ => Res.avoids_bind (memcpy_avoids _ _ _ _) fun _ _ => ih _ _

theorem Pcopy_committed {cfg : Cfg} {m : Mem} {source sc dest dc : Int} {st dt : Typestruct}
    (h1 : st.committed ≠ 0) (h2 : dt.committed ≠ 0) :
    Pcopy_data2 cfg m source sc st dest dc dt ≠ .exit (-1) := by
  have : (Pcopy_data2 cfg m source sc st dest dc dt).Avoids Uncommitted := by
    unfold Pcopy_data2
    rw [if_neg (fun h => h.elim h1 h2)]
    refine Res.avoids_bind (ck32_avoids _) fun _ _ => Res.avoids_bind (ck32_avoids _) fun _ _ => ?_
    exact Res.avoids_ite (fun _ => Res.avoids_exit (by simp [Uncommitted])) fun _ =>
      Res.avoids_bind (extent_avoids _ _) fun _ _ => Res.avoids_bind (extent_avoids _ _) fun _ _ =>
        copyLoop_avoids _ _ _
  exact fun h => this (.exit (-1)) (by rw [h]; rfl) rfl

/-- C30: MPI_Type_commit of a live derived type always succeeds, leaves memory alone, and the type is then
committed ... -/
theorem C30_commit (hr : Reach env s L) {h : Int} {t : Typestruct} (hm : (h, Obj.dtype t) ∈ L.objs) :
    ∃ s', MPI_Type_commit env s h = .ok s' ∧ s'.mem = s.mem ∧ Reach env s' (L.commit h) ∧
      (L.commit h).desc env.cfg h = some { t with committed := 1 } := by
  obtain ⟨M, lst, hi⟩ := hr.inv
  obtain ⟨s', h1, h2, _⟩ := typeCommit_spec (env := env) hi hm
  have hr' := hr.step (.commit hm h1)
  exact ⟨s', h1, h2, hr', desc_mem hr' (mem_commit.2 (Or.inr ⟨rfl, t, hm, rfl⟩))⟩

/-- ... so that communication with committed types is not refused for that reason. -/
theorem C30_usable (hr : Reach env s L) {sb sc st rb rc rt : Int} {R : Res Mem}
    (h : Delivers env s L sb sc st rb rc rt R ∨ Collects env s L sb sc st rb rc rt R)
    {ts tr : Typestruct} (h1 : L.desc env.cfg st = some ts) (h2 : L.desc env.cfg rt = some tr)
    (hc1 : ts.committed ≠ 0) (hc2 : tr.committed ≠ 0) : R ≠ .exit (-1) := by
  rcases h with h | h
  · rw [h.eq hr h1 h2]; exact Pcopy_committed hc1 hc2
  · rw [h.eq hr h2]; exact Pcopy_committed hc2 hc2

/-! ## The send was posted first: what happens for arbitrary datatypes -/

/-- C22, send posted first, exactly: the message arrives as it should if and only if the places where the *receive*
type would have put the elements in the send buffer hold the same bytes as the places the sender described. -/
theorem C22_send_first_exact (hc : env.cfg.Ok) (hr : Reach env s L) {sb sc st rb rc rt : Int} {R : Res Mem}
    (h : Collects env s L sb sc st rb rc rt R) {m' : Mem} (hok : R = .ok m') {tr : Typestruct}
    (h2 : L.desc env.cfg rt = some tr) {re : Int} (ht : Transfer env.cfg sb rc tr re rb rc tr re) (sent : List Entry) :
    Arrived env.cfg s.mem m' sent (elems tr re rc rb) ↔
      ∀ (i : Nat) (d : Entry), (elems tr re rc rb)[i]? = some d → ∃ e r : Entry, sent[i]? = some e ∧ (elems tr re rc sb)[i]? = some r ∧
        ∀ k, 0 ≤ k → k < sz env.cfg d.2 → s.mem (r.1 + k) = s.mem (e.1 + k) := by
  have hb := C32_bytes hc ht ((h.eq hr h2).symm.trans hok)
  constructor
  · intro ha i d hd
    obtain ⟨e, h3, h4⟩ := ha i d hd
    obtain ⟨r, h5, h6⟩ := hb i d hd
    exact ⟨e, r, h3, h5, fun k hk hk' => by rw [← h6 k hk hk', h4 k hk hk']⟩
  · intro ha i d hd
    obtain ⟨e, r, h3, h5, h6⟩ := ha i d hd
    obtain ⟨r', h5', h4⟩ := hb i d hd
    rw [h5] at h5'
    cases h5'
    exact ⟨e, h3, fun k hk hk' => by rw [h4 k hk hk', h6 k hk hk']⟩

/-- C23 fails whenever the send was posted first: a receive of more elements than the message has is carried out
(if memory is accessible), and the surplus elements are taken from behind the message. -/
theorem C23_fails_send_first_always (hc : env.cfg.Ok) (hr : Reach env s L) {sb sc st rb rc rt : Int} {R : Res Mem}
    (h : Collects env s L sb sc st rb rc rt R) {tr : Typestruct} (h2 : L.desc env.cfg rt = some tr) {re : Int}
    (ht : Transfer env.cfg sb rc tr re rb rc tr re) (had : Accessible (sz env.cfg) (fun a => (s.mem a).isSome) (elems tr re rc rb))
    (has : Accessible (sz env.cfg) (fun a => (s.mem a).isSome) (elems tr re rc sb)) {sent : List Entry}
    (hlt : sent.length < (elems tr re rc rb).length) :
    ∃ m', R = .ok m' ∧ ¬ Arrived env.cfg s.mem m' sent (elems tr re rc rb) ∧
      ∀ (i : Nat) (d : Entry), (elems tr re rc rb)[i]? = some d → ∃ r : Entry, (elems tr re rc sb)[i]? = some r ∧
        ∀ k, 0 ≤ k → k < sz env.cfg d.2 → m' (d.1 + k) = s.mem (r.1 + k) := by
  rw [h.eq hr h2]
  obtain ⟨m', hm⟩ := C32_succeeds hc ht had (fun x hx => has x (List.mem_of_mem_take hx))
  refine ⟨m', hm, fun ha => ?_, C32_bytes hc ht hm⟩
  obtain ⟨e, h3, _⟩ := ha sent.length _ (List.getElem?_eq_getElem hlt)
  rw [List.getElem?_eq_none (Nat.le_refl _)] at h3
  cases h3

/-- C30 fails whenever the send was posted first: the type of the message plays no part (`st` need not even be a
type), so an uncommitted one is not noticed. -/
theorem C30_fails_send_first_always (hc : env.cfg.Ok) (hr : Reach env s L) {sb sc st rb rc rt : Int} {R : Res Mem}
    (h : Collects env s L sb sc st rb rc rt R) {tr : Typestruct} (h2 : L.desc env.cfg rt = some tr) {re : Int}
    (ht : Transfer env.cfg sb rc tr re rb rc tr re) (had : Accessible (sz env.cfg) (fun a => (s.mem a).isSome) (elems tr re rc rb))
    (has : Accessible (sz env.cfg) (fun a => (s.mem a).isSome) (elems tr re rc sb)) : ∃ m', R = .ok m' := by
  rw [h.eq hr h2]
  exact C32_succeeds hc ht had (fun x hx => has x (List.mem_of_mem_take hx))

end

/-! ## Disagreements -/

namespace Demo

/-- A vector type; `t` is the component's descriptor. -/
def vector (d : Demo) (count b stride old : Int) : Demo :=
  let r := (MPI_Type_vector env0 d.s count b stride old).getD (d.s, 0)
  ⟨r.1, d.L.addType r.2 (((d.L.desc {} old).map fun t => Type_vector {} (env0.garbage 0) count b stride t).elim
    (static1 0 0) (·.getD (static1 0 0))), r.2⟩

theorem vector_ok {d : Demo} {count b stride old : Int} (hr : d.Ok)
    (h : ((d.L.desc {} old).map fun t => (Type_vector {} (env0.garbage 0) count b stride t).returned) = some true)
    (hx : (MPI_Type_vector env0 d.s count b stride old).returned = true) : (d.vector count b stride old).Ok := by
  obtain ⟨t, h1, h2⟩ := Option.map_eq_some_iff.1 h
  refine hr.step (.newType (.vector h1) (Res.eq_getD (d.s, 0) hx) ?_)
  rw [h1]
  exact Res.eq_getD (static1 0 0) h2

def commit (d : Demo) (h : Int) : Demo := ⟨(MPI_Type_commit env0 d.s h).getD d.s, d.L.commit h, h⟩

theorem commit_ok {d : Demo} {h : Int} (hr : d.Ok) (hm : (d.L.objs.any fun e => decide (e.1 = h) &&
    match e.2 with | .dtype _ => true | _ => false) = true)
    (hx : (MPI_Type_commit env0 d.s h).returned = true) : (d.commit h).Ok := by
  rw [List.any_eq_true] at hm
  obtain ⟨⟨h', o⟩, hm, h1⟩ := hm
  rw [Bool.and_eq_true, decide_eq_true_iff] at h1
  obtain ⟨h1, h2⟩ := h1
  dsimp only at h1 h2
  subst h1
  split at h2
  · exact hr.step (.commit hm (Res.eq_getD d.s hx))
  · cases h2

end Demo

/-- After MPI_Init: a vector type of two MPI_CHARs two bytes apart (handle 2), not committed. -/
def V1 : Demo := H1.vector 2 1 2 (-1)
theorem V1_ok : V1.Ok := Demo.vector_ok H1_ok (by decide +kernel) (by decide +kernel)
/-- ... committed. -/
def V2 : Demo := V1.commit 2
theorem V2_ok : V2.Ok := Demo.commit_ok V1_ok (by decide +kernel) (by decide +kernel)

/-- A message of one vector (bytes at 100 and 102, i.e. 1 and 3), send posted first. -/
def V3 : Demo := V2.isend 100 1 2 5 1 0
theorem V3_ok : V3.Ok := Demo.isend_ok V2_ok (by decide +kernel) (by decide +kernel)
/-- A receive of two MPI_CHARs at 300, posted first. -/
def V4 : Demo := V2.irecv 300 2 (-1) 0 5 1 0
theorem V4_ok : V4.Ok := Demo.irecv_ok V2_ok (by decide +kernel) (by decide +kernel)
/-- A message of one uncommitted vector. -/
def V5 : Demo := V1.isend 100 1 2 5 1 0
theorem V5_ok : V5.Ok := Demo.isend_ok V1_ok (by decide +kernel) (by decide +kernel)

/-- C22 fails when the send is posted first (recv.c:81): the values 1, 3 are sent, but the receive
obtains 1, 2.  In the other order it obtains 1, 3. -/
theorem C22_fails_send_first :
    (∃ o ∈ V3.L.ops, o.open .send 0 ∧ o.buf = 100 ∧ o.count = 1 ∧ o.dtype = 2 ∧ o.tag = 5) ∧
    (let m := ((MPI_Irecv env0 V3.s 300 2 (-1) 0 5 1).getD (V3.s, 0)).1.mem
     (m 300, m 301) = (some 1, some 2)) ∧
    (let m := ((MPI_Isend env0 V4.s 100 1 2 0 5 1).getD (V4.s, 0)).1.mem
     (m 300, m 301) = (some 1, some 3)) := by
  refine ⟨⟨⟨.send, 0, 5, 100, 1, 2, 3, .pending⟩, by decide +kernel, by decide, rfl, rfl, rfl, rfl⟩,
    by decide +kernel, by decide +kernel⟩

/-- C23 fails when the send is posted first: in `H2` the message with tag 5 has three elements at 100; a
receive of six is carried out and takes three bytes that were not sent. -/
theorem C23_fails_send_first :
    Earliest H2.L .send 0 (fun t => accepts 5 t) 0 ⟨.send, 0, 5, 100, 3, -1, 2, .pending⟩ ∧
    (MPI_Irecv env0 { H2.s with mem := memAll } 300 6 (-1) 0 5 1).returned = true ∧
    ((MPI_Irecv env0 { H2.s with mem := memAll } 300 6 (-1) 0 5 1).getD (H2.s, 0)).1.mem 305 = memAll 105 ∧
    memAll 105 ≠ memAll 305 := by
  refine ⟨⟨by decide +kernel, by decide, by decide, fun j' o' h => by omega⟩, by decide +kernel, by decide +kernel,
    by decide +kernel⟩

/-- C30 fails when the send is posted first: a message described by an uncommitted type is received. -/
theorem C30_fails_send_first :
    (V5.L.desc {} 2).map Typestruct.committed = some 0 ∧
    (∃ o ∈ V5.L.ops, o.open .send 0 ∧ o.dtype = 2 ∧ o.tag = 5) ∧
    (MPI_Irecv env0 V5.s 300 2 (-1) 0 5 1).returned = true := by
  refine ⟨by decide +kernel, ⟨⟨.send, 0, 5, 100, 1, 2, 3, .pending⟩, by decide +kernel, by decide, rfl, rfl⟩,
    by decide +kernel⟩

/-! ## Instances -/

/-- Descriptor of the vector type of `V2`. -/
def vecDesc : Typestruct := { (Type_vector {} (env0.garbage 0) 2 1 2 (static1 1 0)).getD (static1 0 0) with committed := 1 }

theorem vecDesc_map : typeMap vecDesc = [(0, 0), (2, 0)] := by decide +kernel

theorem V4_type : V4.L.desc {} 2 = some vecDesc := by decide +kernel

theorem vecTransfer : Transfer {} 100 1 vecDesc 3 300 2 (static1 1 0) 1 where
  srcDesc := ⟨⟨by decide +kernel, by decide +kernel, by decide +kernel⟩, by
    rw [vecDesc_map]; intro x hx; simp at hx; rcases hx with rfl | rfl <;> exact ⟨1, rfl⟩⟩
  dstDesc := ⟨⟨by decide, by decide, by decide⟩, by
    intro x hx; simp [typeMap, static1] at hx; subst hx; exact ⟨1, rfl⟩⟩
  srcExt := by decide +kernel
  dstExt := by decide
  fit := by constructor <;> decide +kernel
  srcCommitted := by decide
  dstCommitted := by decide
  srcCount := by decide
  enough := by decide +kernel
  srcReach := by decide +kernel
  dstReach := by decide +kernel
  kinds := by decide +kernel
  disjoint := by decide +kernel
  apart := by decide +kernel

theorem V4_ready : Ready V4.L 1 0 := ⟨by decide +kernel, by decide +kernel, by decide +kernel⟩

theorem V4_meets : Earliest V4.L .recv 0 (fun t => accepts t 5) 0 ⟨.recv, 0, 5, 300, 2, -1, 3, .pending⟩ :=
  ⟨by decide +kernel, by decide, by decide, fun j' o' h => by omega⟩

/-- C22_recv_first_partial: the layout-changing message of `C22_fails_send_first` in the other order. -/
example {m' : Mem} (h : (MPI_Isend env0 V4.s 100 1 2 0 5 1 >>= fun x => Res.ok x.1.mem) = .ok m') :
    Arrived {} V4.s.mem m' (elems vecDesc 3 1 100) (elems (static1 1 0) 1 2 300) :=
  C22_recv_first_partial cfg_default_ok (show Reach env0 V4.s V4.L from V4_ok) (.isend V4_ready V4_meets) h V4_type
    (by decide +kernel) vecTransfer
example : ∃ m', (MPI_Isend env0 { V4.s with mem := memAll } 100 1 2 0 5 1 >>= fun x => Res.ok x.1.mem) = .ok m' :=
  C22_recv_first_returns_partial cfg_default_ok
    (show Reach env0 { V4.s with mem := memAll } V4.L from Reach.step V4_ok .memory) (.isend V4_ready V4_meets)
    V4_type (by decide +kernel) vecTransfer (fun _ _ _ _ => rfl) (fun _ _ _ _ => rfl)

/-- C22_send_first_same_partial: one vector sent, received as one vector. -/
theorem vecTransfer2 : Transfer {} 100 1 vecDesc 3 300 1 vecDesc 3 where
  srcDesc := vecTransfer.srcDesc
  dstDesc := vecTransfer.srcDesc
  srcExt := by decide +kernel
  dstExt := by decide +kernel
  fit := by constructor <;> decide +kernel
  srcCommitted := by decide
  dstCommitted := by decide
  srcCount := by decide
  enough := by decide +kernel
  srcReach := by decide +kernel
  dstReach := by decide +kernel
  kinds := by decide +kernel
  disjoint := by decide +kernel
  apart := by decide +kernel

theorem V3_meets : Earliest V3.L .send 0 (fun t => accepts (-1) t) 0 ⟨.send, 0, 5, 100, 1, 2, 3, .pending⟩ :=
  ⟨by decide +kernel, by decide, by decide, fun j' o' h => by omega⟩

theorem V3_ready : Ready V3.L 1 0 := ⟨by decide +kernel, by decide +kernel, by decide +kernel⟩

example {m' : Mem} (h : (MPI_Irecv env0 V3.s 300 1 2 0 (-1) 1 >>= fun x => Res.ok x.1.mem) = .ok m') :
    Arrived {} V3.s.mem m' (elems vecDesc 3 1 100) (elems vecDesc 3 1 300) :=
  C22_send_first_same_partial cfg_default_ok (show Reach env0 V3.s V3.L from V3_ok)
    (.irecv V3_ready (Or.inl rfl) V3_meets) h (by decide +kernel) vecTransfer2 (by decide)
example : ((MPI_Irecv env0 V3.s 300 1 2 0 (-1) 1).getD (V3.s, 0)).1.mem 302 = some 3 := by decide +kernel

/-- C22_send_first_exact: one vector sent and received as two MPI_CHARs (`C22_fails_send_first`). -/
theorem charTransfer2 : Transfer {} 100 2 (static1 1 0) 1 300 2 (static1 1 0) 1 where
  srcDesc := vecTransfer.dstDesc
  dstDesc := vecTransfer.dstDesc
  srcExt := by decide
  dstExt := by decide
  fit := by constructor <;> decide +kernel
  srcCommitted := by decide
  dstCommitted := by decide
  srcCount := by decide
  enough := by decide +kernel
  srcReach := by decide +kernel
  dstReach := by decide +kernel
  kinds := by decide +kernel
  disjoint := by decide +kernel
  apart := by decide +kernel

example {m' : Mem} (h : (MPI_Irecv env0 V3.s 300 2 (-1) 0 (-1) 1 >>= fun x => Res.ok x.1.mem) = .ok m') :
    ¬ Arrived {} V3.s.mem m' (elems vecDesc 3 1 100) (elems (static1 1 0) 1 2 300) := by
  intro ha
  obtain ⟨e, r, h1, h2, h3⟩ := (C22_send_first_exact (env := env0) cfg_default_ok (show Reach env0 V3.s V3.L from V3_ok)
    (.irecv V3_ready (Or.inl rfl) V3_meets) h (by decide +kernel) charTransfer2 _).1 ha 1 (301, 0) (by decide +kernel)
  have h1' : (elems vecDesc 3 1 100)[1]? = some (102, 0) := by decide +kernel
  have h2' : (elems (static1 1 0) 1 2 100)[1]? = some (101, 0) := by decide +kernel
  rw [h1'] at h1
  rw [h2'] at h2
  cases h1
  cases h2
  exact absurd (h3 0 (by decide) (by decide)) (by decide +kernel)

/-- C23_fails_send_first_always, C30_fails_send_first_always: the same, with one element too many. -/
theorem V3_all : Reach env0 { V3.s with mem := memAll } V3.L := Reach.step V3_ok .memory

example : ∃ m', (MPI_Irecv env0 { V3.s with mem := memAll } 300 2 (-1) 0 (-1) 1 >>= fun x => Res.ok x.1.mem) = .ok m' ∧
    ¬ Arrived {} memAll m' [(100, 0)] (elems (static1 1 0) 1 2 300) :=
  have ⟨m', h, h', _⟩ := C23_fails_send_first_always cfg_default_ok V3_all (.irecv V3_ready (Or.inl rfl) V3_meets) (tr := static1 1 0)
    (by decide +kernel) charTransfer2 (fun _ _ _ _ => rfl) (fun _ _ _ _ => rfl) (sent := [(100, 0)]) (by decide +kernel)
  ⟨m', h, h'⟩
example : ∃ m', (MPI_Irecv env0 { V3.s with mem := memAll } 300 2 (-1) 0 (-1) 1 >>= fun x => Res.ok x.1.mem) = .ok m' :=
  C30_fails_send_first_always cfg_default_ok V3_all (.irecv V3_ready (Or.inl rfl) V3_meets) (tr := static1 1 0)
    (by decide +kernel) charTransfer2 (fun _ _ _ _ => rfl) (fun _ _ _ _ => rfl)

/-- C22_order_partial applies to `V2` (no traffic at all). -/
example : NoOpen V2.L .send 0 (fun t => accepts 5 t) ∧ NoOpen V2.L .recv 0 (fun t => accepts t 5) := by
  have : V2.L.ops = [] := by decide +kernel
  unfold NoOpen
  rw [this]
  exact ⟨fun o h => by (cases h), fun o h => by (cases h)⟩

/-- C23_refused_partial: a message of one MPI_CHAR for the receive of two. -/
example : (MPI_Isend env0 V4.s 100 1 (-1) 0 5 1 >>= fun x => Res.ok x.1.mem) = .exit 1 :=
  C23_refused_partial (show Reach env0 V4.s V4.L from V4_ok) (.isend V4_ready V4_meets) (ts := static1 1 0) (tr := static1 1 0)
    (by decide +kernel) (by decide +kernel) vecTransfer.dstDesc.wf vecTransfer.dstDesc.wf (by constructor <;> decide)
    (by decide) (by decide) 1 1 (by decide)

/-- C30_recv_type, C30_send_type_partial, C30_new, C30_commit. -/
theorem V1_exchange : CanExchange V1.L 1 7 := by
  have : V1.L.ops = [] := by decide +kernel
  refine ⟨⟨0, by decide +kernel, ?_, ?_⟩, by decide +kernel, by decide +kernel⟩ <;>
  · unfold NoOpen; rw [this]; intro o h; cases h

example : (MPI_Sendrecv env0 V1.s 100 1 2 0 7 300 2 (-1) 0 7 1 .null >>= fun x => Res.ok x.1.mem) = .exit (-1) :=
  C30_send_type_partial (show Reach env0 V1.s V1.L from V1_ok) (.sendrecv V1_exchange) (.simple (by decide) (by decide))
    (ts := { vecDesc with committed := 0 }) (by decide +kernel) rfl
example : (MPI_Allgather env0 V1.s 100 2 (-1) 300 1 2 1 >>= fun x => Res.ok x.mem) = .exit (-1) :=
  C30_recv_type (show Reach env0 V1.s V1.L from V1_ok)
    (Or.inl ⟨.collective (C35_gather (show Reach env0 V1.s V1.L from V1_ok) (.simple (by decide) (by decide))
      ⟨{ vecDesc with committed := 0 }, by decide +kernel⟩ (by decide)).2 V1_exchange, .simple (by decide) (by decide)⟩)
    (tr := { vecDesc with committed := 0 }) (by decide +kernel) rfl
example : ∃ s', MPI_Type_commit env0 V1.s 2 = .ok s' ∧ s'.mem = V1.s.mem ∧ Reach env0 s' (V1.L.commit 2) ∧
    (V1.L.commit 2).desc {} 2 = some vecDesc :=
  C30_commit (show Reach env0 V1.s V1.L from V1_ok) (t := { vecDesc with committed := 0 }) (by decide +kernel)

end MpiSerial
