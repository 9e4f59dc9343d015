import Verif.Proofs.PlaceSend

/-!
# Packing with the position in a variable of the program
-/

set_option linter.unusedSimpArgs false
set_option autoImplicit false

namespace MpiSerial

open Spec.Fort

namespace Place

section
variable {bo : ByteOrder} {p : Int}

/-- The memory in place, `mp`, is the memory on values, `mv`, with the value `v` in the variable. -/
structure At (bo : ByteOrder) (p : Int) (mv mp : Mem) (v : Int) : Prop where
  agree : ∀ a, ¬ (p ≤ a ∧ a < p + 4) → mp a = mv a
  shape : ∀ a, (mp a).isSome = (mv a).isSome
  access : ∀ a, p ≤ a → a < p + 4 → (mv a).isSome = true
  val : intAt bo mp p = some v

theorem intAt_congr {m m' : Mem} (h : ∀ a, p ≤ a → a < p + 4 → m a = m' a) : intAt bo m p = intAt bo m' p := by
  unfold intAt word
  rw [h p (by omega) (by omega), h (p + 1) (by omega) (by omega), h (p + 2) (by omega) (by omega), h (p + 3) (by omega) (by omega)]

theorem readable_hidden {m : Mem} {d : Int} {n : Nat} (h : Mem.readable (hidden m p) d n) :
    m.readable d n ∧ ∀ a, d ≤ a → a < d + n → ¬ (p ≤ a ∧ a < p + 4) := by
  refine ⟨fun i hi => ?_, fun a h1 h2 => ?_⟩
  · have := h i hi
    unfold hidden at this
    split at this
    · cases this
    · exact this
  · have := h (a - d).toNat (by omega)
    rw [show d + ((a - d).toNat : Int) = a by omega] at this
    unfold hidden at this
    intro hp
    rw [if_pos hp] at this
    cases this

theorem memcpy_beside {mv mp : Mem} {v d s : Int} {n : Nat} (h : At bo p mv mp v) (hu : ∀ e, memcpy (hidden mv p) d s n ≠ .ub e) :
    ∃ mv' mp', memcpy mv d s n = .ok mv' ∧ memcpy (hidden mv p) d s n = .ok (hidden mv' p) ∧ memcpy mp d s n = .ok mp' ∧ At bo p mv' mp' v := by
  by_cases hn : n = 0
  · refine ⟨mv, mp, ?_, ?_, ?_, h⟩ <;> (unfold memcpy; rw [if_pos hn])
  by_cases hr : ¬ (Mem.readable (hidden mv p) d n ∧ Mem.readable (hidden mv p) s n)
  · refine absurd ?_ (hu .memAccess); unfold memcpy; rw [if_neg hn, if_pos hr]
  replace hr := Classical.not_not.1 hr
  by_cases ho : d < s + n ∧ s < d + n
  · refine absurd ?_ (hu .overlap); unfold memcpy; rw [if_neg hn, if_neg (not_not_intro hr), if_pos ho]
  obtain ⟨r1, a1⟩ := readable_hidden hr.1
  obtain ⟨r2, a2⟩ := readable_hidden hr.2
  have q : ∀ {d}, mv.readable d n → mp.readable d n := fun hq i hi => by rw [h.shape]; exact hq i hi
  refine ⟨fun a => if d ≤ a ∧ a < d + n then mv (s + (a - d)) else mv a, fun a => if d ≤ a ∧ a < d + n then mp (s + (a - d)) else mp a, ?_, ?_, ?_, ?_⟩
  · unfold memcpy; rw [if_neg hn, if_neg (not_not_intro ⟨r1, r2⟩), if_neg ho]
  · unfold memcpy; rw [if_neg hn, if_neg (not_not_intro hr), if_neg ho]
    congr 1
    funext a
    unfold hidden
    dsimp only
    by_cases hd : d ≤ a ∧ a < d + n
    · rw [if_pos hd, if_neg (a2 _ (by omega) (by omega)), if_neg (a1 a hd.1 hd.2), if_pos hd]
    · rw [if_neg hd, if_neg hd]
  · unfold memcpy; rw [if_neg hn, if_neg (not_not_intro ⟨q r1, q r2⟩), if_neg ho]
  · refine ⟨fun a ha => ?_, fun a => ?_, fun a h1 h2 => ?_, ?_⟩
    · split
      · exact h.agree _ (a2 _ (by omega) (by omega))
      · exact h.agree a ha
    · split
      · exact h.shape _
      · exact h.shape a
    · rw [if_neg fun hd => a1 a hd.1 hd.2 ⟨h1, h2⟩]
      exact h.access a h1 h2
    · rw [← h.val]
      refine intAt_congr fun a h1 h2 => ?_
      rw [if_neg fun hd => a1 a hd.1 hd.2 ⟨h1, h2⟩]

/-- What comes out in place, given what comes out on values and with the variable hidden. -/
def Goes (bo : ByteOrder) (p : Int) (r h : Res (Mem × Int)) (g : Res Sys) (s : Sys) : Prop :=
  match r with
  | .ok x => h = .ok (hidden x.1 p, x.2) ∧ ∃ mp, g = .ok (s.on mp) ∧ At bo p x.1 mp x.2
  | r => g.fate = r.fate

/-- `g`, in place, does what `f` does on values. -/
def Follows (bo : ByteOrder) (p : Int) (f : Mem × Int → Res (Mem × Int)) (g : Sys → Res Sys) : Prop :=
  ∀ s mv v, At bo p mv s.mem v → (∀ e, f (hidden mv p, v) ≠ .ub e) → Goes bo p (f (mv, v)) (f (hidden mv p, v)) (g s) s

theorem Follows.ret : Follows bo p (fun x => .ok x) (fun s => .ok s) := fun _ _ _ h _ => ⟨rfl, _, rfl, h⟩

theorem Follows.bind {f f' : Mem × Int → Res (Mem × Int)} {g g' : Sys → Res Sys} (h : Follows bo p f g) (h' : Follows bo p f' g') :
    Follows bo p (fun x => f x >>= f') (fun s => g s >>= g') := by
  intro s mv v ha hu
  have h1 := h s mv v ha fun e he => hu e (by dsimp only; rw [he]; rfl)
  dsimp only at hu ⊢
  revert h1 hu
  cases f (mv, v) with
  | ok x =>
    rintro hu ⟨h1, mp, h2, h3⟩
    rw [h1] at hu ⊢
    rw [h2]
    exact h' (s.on mp) x.1 x.2 h3 hu
  | _ =>
    intro _ h1
    change Res.fate _ = _ at h1
    change Res.fate _ = _
    cases hg : g s <;> rw [hg] at h1 <;> first | cases h1; rfl | cases h1

theorem Follows.skip {α : Type} {r : Res α} {f : α → Mem × Int → Res (Mem × Int)} {g : α → Sys → Res Sys} (h : ∀ a, Follows bo p (f a) (g a)) :
    Follows bo p (fun x => r >>= fun a => f a x) (fun s => r >>= fun a => g a s) := by
  intro s mv v ha hu
  cases r with
  | ok a => exact h a s mv v ha hu
  | _ => rfl

theorem Follows.congr {f f' : Mem × Int → Res (Mem × Int)} {g g' : Sys → Res Sys} (h : Follows bo p f g) (hf : ∀ x, f' x = f x) (hg : ∀ s, g' s = g s) :
    Follows bo p f' g' := by
  rw [funext hf, funext hg]; exact h

/-- One element. -/
theorem follows_step {size len : Int} {n : Nat} {dst src : Int → Int} :
    Follows bo p (fun x => ck32 (x.2 + len) >>= fun e => if e > size then .exit 1 else memcpy x.1 (dst x.2) (src x.2) n >>= fun m => .ok (m, e))
      (fun s => ldInt bo s.mem p >>= fun v => ck32 (v + len) >>= fun e => if e > size then .exit 1 else ldInt bo s.mem p >>= fun v =>
        memcpy s.mem (dst v) (src v) n >>= fun m => ldInt bo m p >>= fun v => ck32 (v + len) >>= fun e => stInt bo { s with mem := m } p e) := by
  intro s mv v ha hu
  dsimp only at hu ⊢
  rw [ldInt_eq, ha.val]
  simp only [ofOpt, Res.ok_bind]
  cases hck : ck32 (v + len) with
  | ok e =>
    obtain ⟨hrange, he⟩ := ck32_eq_ok.1 hck
    rw [hck] at hu
    simp only [Res.ok_bind] at hu ⊢
    by_cases hz : e > size
    · rw [if_pos hz, if_pos hz, if_pos hz]; exact rfl
    · rw [if_neg hz] at hu
      rw [if_neg hz, if_neg hz, if_neg hz]
      obtain ⟨mv', mp', e1, e2, e3, h'⟩ := memcpy_beside (d := dst v) (s := src v) (n := n) ha fun e he => hu e (by rw [he]; rfl)
      rw [e1, e2, e3]
      simp only [Res.ok_bind]
      rw [ldInt_eq, h'.val]
      simp only [ofOpt, Res.ok_bind]
      rw [hck, Res.ok_bind]
      obtain ⟨w, w1, w2, w3, w4⟩ := stInt_on (bo := bo) (p := p) (m := mp') (fun a h1 h2 => by rw [h'.shape]; exact h'.access a h1 h2) e
      refine ⟨rfl, _, w4 { s with mem := mp' } fun _ => rfl, fun a hna => ?_, fun a => ?_, h'.access, ?_⟩
      · dsimp only; rw [if_neg hna]; exact h'.agree a hna
      · dsimp only
        split
        · rw [w2, h'.shape]
        · exact h'.shape a
      · rw [intAt_congr (m' := w) fun a h1 h2 => if_pos ⟨h1, h2⟩, w3]
        congr 1
        unfold s32; omega
  | _ => exact rfl

variable {cfg : Cfg}

theorem packEntries_follows (inbuf : Int) (t : Typestruct) (extent outbuf outsize : Int) (i n : Nat) : ∀ j,
    Follows bo p (MpiSerial.packEntries cfg inbuf t extent outbuf outsize i n j) (packEntries bo cfg inbuf t extent outbuf outsize p i n j) := by
  induction n with
  | zero => intro j; exact .ret
  | succ n ih =>
    intro j
    have h := Follows.skip (r := t.pair j) fun q => Follows.skip (r := Simpletype_length cfg q.type) fun len =>
      Follows.bind (follows_step (bo := bo) (p := p) (size := outsize) (len := len) (n := len.toNat) (dst := fun v => padd outbuf v)
        (src := fun _ => padd (padd inbuf q.disp) (u64 (extent * i)))) (ih (j + 1))
    refine h.congr (fun x => ?_) fun s => ?_
    · obtain ⟨m, v⟩ := x
      unfold MpiSerial.packEntries
      refine Res.bind_congr fun q _ => Res.bind_congr fun len _ => ?_
      rw [bind_assoc]
      refine Res.bind_congr fun e _ => ?_
      split
      · rfl
      · rw [bind_assoc]; rfl
    · unfold packEntries
      refine Res.bind_congr fun q _ => Res.bind_congr fun len _ => ?_
      rw [bind_assoc]
      refine Res.bind_congr fun v _ => ?_
      rw [bind_assoc]
      refine Res.bind_congr fun e _ => ?_
      split
      · rfl
      · simp only [bind_assoc]

theorem packLoop_follows (inbuf : Int) (t : Typestruct) (extent outbuf outsize : Int) (n : Nat) : ∀ i,
    Follows bo p (MpiSerial.packLoop cfg inbuf t extent outbuf outsize n i) (packLoop bo cfg inbuf t extent outbuf outsize p n i) := by
  induction n with
  | zero => intro i; exact .ret
  | succ n ih => intro i; exact .bind (packEntries_follows inbuf t extent outbuf outsize i _ 0) (ih (i + 1))

theorem unpackEntries_follows (inbuf insize outbuf : Int) (t : Typestruct) (extent : Int) (i n : Nat) : ∀ j,
    Follows bo p (MpiSerial.unpackEntries cfg inbuf insize outbuf t extent i n j) (unpackEntries bo cfg inbuf insize outbuf t extent p i n j) := by
  induction n with
  | zero => intro j; exact .ret
  | succ n ih =>
    intro j
    have h := Follows.skip (r := t.pair j) fun q => Follows.skip (r := Simpletype_length cfg q.type) fun len =>
      Follows.bind (follows_step (bo := bo) (p := p) (size := insize) (len := len) (n := len.toNat)
        (dst := fun _ => padd (padd outbuf q.disp) (u64 (extent * i))) (src := fun v => padd inbuf v)) (ih (j + 1))
    refine h.congr (fun x => ?_) fun s => ?_
    · obtain ⟨m, v⟩ := x
      unfold MpiSerial.unpackEntries
      refine Res.bind_congr fun q _ => Res.bind_congr fun len _ => ?_
      rw [bind_assoc]
      refine Res.bind_congr fun e _ => ?_
      split
      · rfl
      · rw [bind_assoc]; rfl
    · unfold unpackEntries
      refine Res.bind_congr fun q _ => Res.bind_congr fun len _ => ?_
      rw [bind_assoc]
      refine Res.bind_congr fun v _ => ?_
      rw [bind_assoc]
      refine Res.bind_congr fun e _ => ?_
      split
      · rfl
      · simp only [bind_assoc]

theorem unpackLoop_follows (inbuf insize outbuf : Int) (t : Typestruct) (extent : Int) (n : Nat) : ∀ i,
    Follows bo p (MpiSerial.unpackLoop cfg inbuf insize outbuf t extent n i) (unpackLoop bo cfg inbuf insize outbuf t extent p n i) := by
  induction n with
  | zero => intro i; exact .ret
  | succ n ih => intro i; exact .bind (unpackEntries_follows inbuf insize outbuf t extent i _ 0) (ih (i + 1))

theorem typeOf_on (env : Env) (s : Sys) (w : Mem) (h : Int) : typeOf env (s.on w) h = typeOf env s h >>= fun x => .ok (x.1.on w, x.2) := by
  unfold typeOf handleToDatatype
  simp only [bind_assoc, ptr_on]
  split
  · simp only [bind_assoc, Res.ok_bind, Res.pure_eq, derefType_on]
  · simp only [bind_assoc, Res.ok_bind, Res.pure_eq, derefType_on]
    refine Res.bind_congr fun x _ => ?_
    obtain ⟨s, q⟩ := x
    cases q with
    | none => rfl
    | some l =>
      dsimp only
      simp only [Sys.on_handles, bind_assoc]
      refine Res.bind_congr fun it _ => ?_
      cases it.data <;> simp only [Res.ok_bind, Res.pure_eq, derefType_on, bind_assoc] <;> rfl

theorem typeOf_keeps {env : Env} {s : Sys} {h : Int} {x : Sys × Typestruct} (hx : typeOf env s h = .ok x) : x.1.mem = s.mem := by
  have := typeOf_on env s s.mem h
  change typeOf env s h = _ at this
  rw [hx] at this
  have := congrArg (fun y : Sys × Typestruct => y.1.mem) (Res.ok.inj this)
  exact this

/-- The common form of the two calls. -/
theorem whole {env : Env} {s : Sys} {datatype comm v : Int} {f : Typestruct → Int → Mem × Int → Res (Mem × Int)} {g : Typestruct → Int → Sys → Res Sys}
    (hf : ∀ t e, Follows bo p (f t e) (g t e)) (hp : ∀ a, p ≤ a → a < p + 4 → (s.mem a).isSome = true) (hv : intAt bo s.mem p = some v)
    (F : Sys → Res (Sys × Int)) (hF : ∀ s, F s = typeOf env s datatype >>= fun x => x.1.ptr comm >>= fun y => Type_extent env.cfg x.2 >>= fun e =>
      f x.2 e (y.1.mem, v) >>= fun z => .ok ({ y.1 with mem := z.1 }, z.2))
    (hu : ∀ e, F { s with mem := hidden s.mem p } ≠ .ub e) :
    match F s with
    | .ok (s', v') => ∃ mp, (typeOf env s datatype >>= fun x => x.1.ptr comm >>= fun y => Type_extent env.cfg x.2 >>= fun e => g x.2 e y.1) =
        .ok (s'.on mp) ∧ At bo p s'.mem mp v'
    | r => (typeOf env s datatype >>= fun x => x.1.ptr comm >>= fun y => Type_extent env.cfg x.2 >>= fun e => g x.2 e y.1).fate = r.fate := by
  rw [hF] at hu ⊢
  have e0 : ({ s with mem := hidden s.mem p } : Sys) = s.on (hidden s.mem p) := rfl
  rw [e0, typeOf_on, bind_assoc] at hu
  cases hx : typeOf env s datatype with
  | ok x =>
    obtain ⟨s1, t⟩ := x
    have hm1 := typeOf_keeps hx
    rw [hx] at hu
    simp only [Res.ok_bind] at hu ⊢
    rw [ptr_on, bind_assoc] at hu
    cases hy : s1.ptr comm with
    | ok y =>
      obtain ⟨s2, k⟩ := y
      have hm2 := ptr_mem hy
      rw [hy] at hu
      simp only [Res.ok_bind] at hu ⊢
      cases he : Type_extent env.cfg t with
      | ok e =>
        rw [he] at hu
        simp only [Res.ok_bind, Sys.on_mem] at hu ⊢
        have hm : s2.mem = s.mem := hm2.trans hm1
        have h := hf t e s2 s.mem v ⟨fun a _ => by rw [hm], fun a => by rw [hm], hp, by rw [hm]; exact hv⟩ fun e he => hu e (by rw [he]; rfl)
        rw [hm]
        revert h
        cases f t e (s.mem, v) with
        | ok z =>
          rintro ⟨_, mp, h1, h2⟩
          exact ⟨mp, h1, h2⟩
        | _ => intro h; exact h
      | _ => exact rfl
    | _ => exact rfl
  | _ => exact rfl

end

section
variable {c : FEnv} {s : Sys} {r : Res (Sys × List Spec.Fort.Out)} {outs : List Spec.Fort.Out}

/-- Storing `ierror` last. -/
theorem last_store {p e v v' ev : Int} {s' : Sys} {mp : Mem} (hv : Variables s.mem [Spec.Fort.Out.int p v, Spec.Fort.Out.int e ev])
    (hs : ∀ a, (s'.mem a).isSome = (s.mem a).isSome) (h : At c.bo p s'.mem mp v') :
    ∃ m', stInt c.bo (s'.on mp) e 0 = .ok { s' with mem := m' } ∧ Wrote c.bo s'.mem m' [Spec.Fort.Out.int p v', Spec.Fort.Out.int e 0] := by
  have hc : ∀ q x a, (Spec.Fort.Out.int q x).covers a ↔ q ≤ a ∧ a < q + 4 := fun q x a => by unfold Spec.Fort.Out.covers Spec.Fort.Out.int; simp
  obtain ⟨w, w1, w2, w3, w4⟩ := stInt_on (bo := c.bo) (p := e) (m := mp) (fun a h1 h2 => by
    rw [h.shape, hs]; exact hv.accessible (Spec.Fort.Out.int e ev) (by simp) a ((hc _ _ _).2 ⟨h1, h2⟩)) 0
  have hap : ∀ a, ¬ ((p ≤ a ∧ a < p + 4) ∧ (e ≤ a ∧ a < e + 4)) := fun a ha =>
    (List.pairwise_cons.1 hv.apart).1 _ (List.mem_singleton.2 rfl) a ((hc _ _ _).2 ha.1) ((hc _ _ _).2 ha.2)
  refine ⟨_, w4 (s'.on mp) fun _ => rfl, held_cons (held_int ?_) (held_cons (held_int ?_) nofun), fun a ha => ?_⟩
  · rw [← h.val]
    refine intAt_congr fun a h1 h2 => if_neg fun h3 => hap a ⟨⟨h1, h2⟩, h3⟩
  · rw [intAt_congr (m' := w) fun a h1 h2 => if_pos ⟨h1, h2⟩, w3]
    rfl
  · have h1 := ha (Spec.Fort.Out.int p v') (by simp)
    have h2 := ha (Spec.Fort.Out.int e 0) (by simp)
    rw [hc] at h1 h2
    rw [if_neg h2]
    exact h.agree a h1

theorem pack_in {a n t b z p k e : Int} (hm : (FCall.pack a n t b z p k e).meaning c s = some r) (ho : (FCall.pack a n t b z p k e).own c s.mem = some outs)
    (hv : Variables s.mem outs) (hc : (FCall.pack a n t b z p k e).Clear c s) : Performs c.bo ((FCall.pack a n t b z p k e).inPlace c s) r := by
  simp only [FCall.own, Option.bind_eq_bind, Option.bind_eq_some_iff, Option.map_eq_some_iff, Option.pure_def, Option.some.injEq] at ho
  obtain ⟨_, ⟨rv, h1, rfl⟩, _, ⟨ev, h2, rfl⟩, rfl⟩ := ho
  simp only [FCall.meaning, Option.bind_eq_bind, Option.bind_eq_some_iff, Option.pure_def, Option.some.injEq] at hm
  obtain ⟨n', g1, t', g2, z', g3, p', g4, k', g5, rfl⟩ := hm
  have hw := whole (bo := c.bo) (env := c.env) (s := s) (datatype := t') (comm := k')
    (fun t e => packLoop_follows (cfg := c.env.cfg) a t e b z' n'.toNat 0) (vars_access hv) g4
    (fun s => MpiSerial.MPI_Pack c.env s a n' t' b z' p' k') (fun s => by
      unfold MpiSerial.MPI_Pack MpiSerial.Pack
      refine Res.bind_congr fun x _ => Res.bind_congr fun y _ => ?_
      obtain ⟨y, k⟩ := y
      dsimp only
      rw [bind_assoc]
      rfl) (hc _ _ _ _ _ g1 g2 g3 g4 g5)
  show Performs c.bo (mpi_pack c s a n t b z p k e) _
  unfold mpi_pack
  rw [ldInt_eq, ldInt_eq, ldInt_eq, ldInt_eq, g1, g2, g3, g5]
  simp only [ofOpt, Res.ok_bind]
  have e0 : MPI_Pack c.bo c.env s a n' t' b z' p k' = typeOf c.env s t' >>= fun x => x.1.ptr k' >>= fun y => Type_extent c.env.cfg x.2 >>= fun e =>
      packLoop c.bo c.env.cfg a x.2 e b z' p n'.toNat 0 y.1 := rfl
  rw [e0]
  cases hx : MpiSerial.MPI_Pack c.env s a n' t' b z' p' k' with
  | ok x =>
    obtain ⟨s', v'⟩ := x
    rw [hx] at hw
    obtain ⟨mp, q1, q2⟩ := hw
    rw [q1]
    have hd : ∀ a, (s'.mem a).isSome = (s.mem a).isSome := Call.keeps_dom (env := c.env) (m := s.mem) (s := s) (fun _ => rfl) (.pack a n' t' b z' p' k') (fun _ h => nomatch h) s' (by
      show (MpiSerial.MPI_Pack c.env s a n' t' b z' p' k' >>= fun x => Res.ok x.1) = _
      rw [hx]; rfl)
    exact last_store hv hd q2
  | _ =>
    rw [hx] at hw
    dsimp only at hw
    change Res.fate (_ >>= _) = _
    generalize (typeOf c.env s t' >>= fun x => x.1.ptr k' >>= fun y => Type_extent c.env.cfg x.2 >>= fun e =>
      packLoop c.bo c.env.cfg a x.2 e b z' p n'.toNat 0 y.1) = G at hw ⊢
    cases G <;> cases hw <;> rfl

theorem unpack_in {a z p b n t k e : Int} (hm : (FCall.unpack a z p b n t k e).meaning c s = some r) (ho : (FCall.unpack a z p b n t k e).own c s.mem = some outs)
    (hv : Variables s.mem outs) (hc : (FCall.unpack a z p b n t k e).Clear c s) : Performs c.bo ((FCall.unpack a z p b n t k e).inPlace c s) r := by
  simp only [FCall.own, Option.bind_eq_bind, Option.bind_eq_some_iff, Option.map_eq_some_iff, Option.pure_def, Option.some.injEq] at ho
  obtain ⟨_, ⟨rv, h1, rfl⟩, _, ⟨ev, h2, rfl⟩, rfl⟩ := ho
  simp only [FCall.meaning, Option.bind_eq_bind, Option.bind_eq_some_iff, Option.pure_def, Option.some.injEq] at hm
  obtain ⟨z', g1, p', g2, n', g3, t', g4, k', g5, rfl⟩ := hm
  have hw := whole (bo := c.bo) (env := c.env) (s := s) (datatype := t') (comm := k')
    (fun t e => unpackLoop_follows (cfg := c.env.cfg) a z' b t e n'.toNat 0) (vars_access hv) g2
    (fun s => MpiSerial.MPI_Unpack c.env s a z' p' b n' t' k') (fun s => by
      unfold MpiSerial.MPI_Unpack MpiSerial.Unpack
      refine Res.bind_congr fun x _ => Res.bind_congr fun y _ => ?_
      obtain ⟨y, k⟩ := y
      dsimp only
      rw [bind_assoc]
      rfl) (hc _ _ _ _ _ g1 g2 g3 g4 g5)
  show Performs c.bo (mpi_unpack c s a z p b n t k e) _
  unfold mpi_unpack
  rw [ldInt_eq, ldInt_eq, ldInt_eq, ldInt_eq, g1, g3, g4, g5]
  simp only [ofOpt, Res.ok_bind]
  have e0 : MPI_Unpack c.bo c.env s a z' p b n' t' k' = typeOf c.env s t' >>= fun x => x.1.ptr k' >>= fun y => Type_extent c.env.cfg x.2 >>= fun e =>
      unpackLoop c.bo c.env.cfg a z' b x.2 e p n'.toNat 0 y.1 := rfl
  rw [e0]
  cases hx : MpiSerial.MPI_Unpack c.env s a z' p' b n' t' k' with
  | ok x =>
    obtain ⟨s', v'⟩ := x
    rw [hx] at hw
    obtain ⟨mp, q1, q2⟩ := hw
    rw [q1]
    have hd : ∀ a, (s'.mem a).isSome = (s.mem a).isSome := Call.keeps_dom (env := c.env) (m := s.mem) (s := s) (fun _ => rfl) (.unpack a z' p' b n' t' k') (fun _ h => nomatch h) s' (by
      show (MpiSerial.MPI_Unpack c.env s a z' p' b n' t' k' >>= fun x => Res.ok x.1) = _
      rw [hx]; rfl)
    exact last_store hv hd q2
  | _ =>
    rw [hx] at hw
    dsimp only at hw
    change Res.fate (_ >>= _) = _
    generalize (typeOf c.env s t' >>= fun x => x.1.ptr k' >>= fun y => Type_extent c.env.cfg x.2 >>= fun e =>
      unpackLoop c.bo c.env.cfg a z' b x.2 e p n'.toNat 0 y.1) = G at hw ⊢
    cases G <;> cases hw <;> rfl

end

end Place

end MpiSerial
