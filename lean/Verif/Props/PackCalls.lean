import Verif.Props.TypeUse

/-!
# MPI_Pack, MPI_Unpack and MPI_Pack_size (C33, C34)

`Props/Copy` has the functions on descriptors.  Here are the calls of a program: handles, and datatypes of the standard.
-/

set_option linter.unusedSimpArgs false
set_option autoImplicit false

namespace MpiSerial

open Spec

section
variable {env : Env} {s : Sys} {L : Ledger} {h comm : Int} {τ : DType}

/-- What the calls do with their handles. -/
theorem pack_calls (hr : Reach env s L) (hc : env.cfg.Ok) (hd : StandsFor env.cfg L h (.data τ)) (hcm : IsComm L comm)
    (hsz : Spec.size (sz env.cfg) τ ≤ 2147483647) :
    ∃ t, DataDesc env.cfg t ∧ typeMap t = τ.map ∧ Type_extent env.cfg t = .ok (u64 (extent (sz env.cfg) τ)) ∧
      Type_size env.cfg t = .ok (Spec.size (sz env.cfg) τ) ∧
      (∀ a n b z p, MPI_Pack env s a n h b z p comm =
        (Pack env.cfg s.mem a n t b z p >>= fun x => .ok ({ s with mem := x.1 }, x.2))) ∧
      (∀ a z p b n, MPI_Unpack env s a z p b n h comm =
        (Unpack env.cfg s.mem a z p b n t >>= fun x => .ok ({ s with mem := x.1 }, x.2))) ∧
      (∀ n, MPI_Pack_size env s n h comm = .ok (s, u64 (n * Spec.size (sz env.cfg) τ))) := by
  obtain ⟨t, h1, h2, _⟩ := hd
  obtain ⟨c, hcm⟩ := hcm
  obtain ⟨M, lst, hi⟩ := hr.inv
  obtain ⟨d1, d2, _⟩ := h2.dataDesc hc
  have e : mapSize env.cfg (typeMap t) = Spec.size (sz env.cfg) τ := by rw [d2]; rfl
  have hz : Type_size env.cfg t = .ok (Spec.size (sz env.cfg) τ) := by
    rw [Type_size_map hc d1 (by rw [e]; exact hsz), e]
  refine ⟨t, d1, d2, h2.extent hc, hz, fun a n b z p => ?_, fun a z p b n => ?_, fun n => ?_⟩
  · unfold MPI_Pack
    rw [hi.typeOf h1, Res.ok_bind]
    dsimp only
    rw [Sys.ptr_live hi.hst (mem_keys hcm), Res.ok_bind]
    rfl
  · unfold MPI_Unpack
    rw [hi.typeOf h1, Res.ok_bind]
    dsimp only
    rw [Sys.ptr_live hi.hst (mem_keys hcm), Res.ok_bind]
    rfl
  · unfold MPI_Pack_size
    rw [hi.typeOf h1, Res.ok_bind]
    dsimp only
    rw [Sys.ptr_live hi.hst (mem_keys hcm), Res.ok_bind]
    dsimp only
    rw [Pack_size_eq d1 hz]
    rfl

theorem LegalPack.args {cfg : Cfg} {t : Typestruct} {n : Nat} {buf packed pos room : Int}
    (hl : LegalPack (sz cfg) τ n buf packed pos room) (h1 : DataDesc cfg t) (h2 : typeMap t = τ.map)
    (h3 : Type_extent cfg t = .ok (u64 (extent (sz cfg) τ))) (h4 : Type_size cfg t = .ok (Spec.size (sz cfg) τ)) :
    PackArgs cfg t (extent (sz cfg) τ) (Spec.size (sz cfg) τ) n buf packed pos room ∧
      elems t (extent (sz cfg) τ) n buf = placed (sz cfg) τ n buf := by
  have e : elems t (extent (sz cfg) τ) n buf = placed (sz cfg) τ n buf := by unfold elems placed; rw [h2]
  exact ⟨⟨h1, h3, h4, by rw [e]; exact hl.addrs, hl.packedLo, hl.packedHi⟩, e⟩

/-- `Pack` on a descriptor. -/
theorem pack_exact {cfg : Cfg} (hc : cfg.Ok) {t : Typestruct} (h1 : DataDesc cfg t) (h2 : typeMap t = τ.map)
    (h3 : Type_extent cfg t = .ok (u64 (extent (sz cfg) τ))) (h4 : Type_size cfg t = .ok (Spec.size (sz cfg) τ)) {m : Mem}
    {n : Nat} {inbuf outbuf pos outsize : Int} (hl : LegalPack (sz cfg) τ n inbuf outbuf pos outsize)
    (hin : Accessible (sz cfg) (fun a => (m a).isSome) (placed (sz cfg) τ n inbuf))
    (hout : ∀ a, outbuf + pos ≤ a → a < outbuf + outsize → (m a).isSome) :
    if pos + n * Spec.size (sz cfg) τ ≤ outsize then
      ∃ m', Pack cfg m inbuf n t outbuf outsize pos = .ok (m', pos + n * Spec.size (sz cfg) τ) ∧
        Packed (sz cfg) m m' (placed (sz cfg) τ n inbuf) (outbuf + pos)
    else Pack cfg m inbuf n t outbuf outsize pos = .exit 1 := by
  obtain ⟨ha, e⟩ := hl.args h1 h2 h3 h4
  have hs := C34_pack_succeeds_iff hc ha hl.ints (by rw [e]; exact hin) hout (by rw [e]; exact hl.apart)
  split
  · rename_i hle
    rw [if_pos hle] at hs
    obtain ⟨m', pos', hp⟩ := hs
    have hpos := (C34_pack_position hc ha hp).1
    subst hpos
    obtain ⟨c1, c2⟩ := Pack_contents hc ha (by
      rw [e]
      intro x hx
      have := hl.apart x hx
      unfold Apart at this ⊢
      omega) hp
    have ht := total_elems h1 h4 (extent (sz cfg) τ) n inbuf
    rw [e] at c2 ht
    refine ⟨m', hp, c2, fun a hna => c1 a ?_⟩
    unfold total at ht
    rw [ht] at hna
    exact hna
  · rename_i hle
    rw [if_neg hle] at hs
    exact hs

/-- `Unpack` on a descriptor. -/
theorem unpack_exact {cfg : Cfg} (hc : cfg.Ok) {t : Typestruct} (h1 : DataDesc cfg t) (h2 : typeMap t = τ.map)
    (h3 : Type_extent cfg t = .ok (u64 (extent (sz cfg) τ))) (h4 : Type_size cfg t = .ok (Spec.size (sz cfg) τ)) {m : Mem}
    {n : Nat} {inbuf outbuf pos insize : Int} (hl : LegalPack (sz cfg) τ n outbuf inbuf pos insize)
    (hdis : ElemsDisjoint (sz cfg) (placed (sz cfg) τ n outbuf))
    (hout : Accessible (sz cfg) (fun a => (m a).isSome) (placed (sz cfg) τ n outbuf))
    (hin : ∀ a, inbuf + pos ≤ a → a < inbuf + insize → (m a).isSome) :
    if pos + n * Spec.size (sz cfg) τ ≤ insize then
      ∃ m', Unpack cfg m inbuf insize pos outbuf n t = .ok (m', pos + n * Spec.size (sz cfg) τ) ∧
        Unpacked (sz cfg) m m' (placed (sz cfg) τ n outbuf) (inbuf + pos)
    else Unpack cfg m inbuf insize pos outbuf n t = .exit 1 := by
  obtain ⟨ha, e⟩ := hl.args h1 h2 h3 h4
  have hs := C34_unpack_succeeds_iff hc ha hl.ints (by rw [e]; exact hout) hin (by rw [e]; exact hl.apart)
  split
  · rename_i hle
    rw [if_pos hle] at hs
    obtain ⟨m', pos', hp⟩ := hs
    have hpos := (C34_unpack_position hc ha hp).1
    subst hpos
    obtain ⟨c1, c2⟩ := Unpack_contents hc ha (by rw [e]; exact hdis) (by
      rw [e]
      intro x hx
      have := hl.apart x hx
      unfold Apart at this ⊢
      omega) hp
    rw [e] at c1 c2
    exact ⟨m', hp, c2, c1⟩
  · rename_i hle
    rw [if_neg hle] at hs
    exact hs

/-- C34, the calls: MPI_Pack_size reports `n` times the size of the datatype; MPI_Pack succeeds iff that many bytes
are left, and exits otherwise; it advances the position by that much, puts the elements one after the other at the old
position and changes nothing else. -/
theorem C34_pack_call (hr : Reach env s L) (hc : env.cfg.Ok) (hd : StandsFor env.cfg L h (.data τ)) (hcm : IsComm L comm)
    {n : Nat} {inbuf outbuf pos outsize : Int} (hl : LegalPack (sz env.cfg) τ n inbuf outbuf pos outsize)
    (hin : Accessible (sz env.cfg) (fun a => (s.mem a).isSome) (placed (sz env.cfg) τ n inbuf))
    (hout : ∀ a, outbuf + pos ≤ a → a < outbuf + outsize → (s.mem a).isSome) :
    MPI_Pack_size env s n h comm = .ok (s, u64 (n * Spec.size (sz env.cfg) τ)) ∧
    if pos + n * Spec.size (sz env.cfg) τ ≤ outsize then
      ∃ m', MPI_Pack env s inbuf n h outbuf outsize pos comm =
          .ok ({ s with mem := m' }, pos + n * Spec.size (sz env.cfg) τ) ∧
        Packed (sz env.cfg) s.mem m' (placed (sz env.cfg) τ n inbuf) (outbuf + pos)
    else MPI_Pack env s inbuf n h outbuf outsize pos comm = .exit 1 := by
  obtain ⟨t, h1, h2, h3, h4, h5, _, h7⟩ := pack_calls hr hc hd hcm hl.small
  refine ⟨h7 n, ?_⟩
  have hs := pack_exact hc h1 h2 h3 h4 hl hin hout
  rw [h5]
  split
  · rename_i hle
    rw [if_pos hle] at hs
    obtain ⟨m', hp, hm⟩ := hs
    exact ⟨m', by rw [hp]; rfl, hm⟩
  · rename_i hle
    rw [if_neg hle] at hs
    rw [hs]
    rfl

/-- C34, the calls: the same for MPI_Unpack, if the elements do not overlap. -/
theorem C34_unpack_call (hr : Reach env s L) (hc : env.cfg.Ok) (hd : StandsFor env.cfg L h (.data τ)) (hcm : IsComm L comm)
    {n : Nat} {inbuf outbuf pos insize : Int} (hl : LegalPack (sz env.cfg) τ n outbuf inbuf pos insize)
    (hdis : ElemsDisjoint (sz env.cfg) (placed (sz env.cfg) τ n outbuf))
    (hout : Accessible (sz env.cfg) (fun a => (s.mem a).isSome) (placed (sz env.cfg) τ n outbuf))
    (hin : ∀ a, inbuf + pos ≤ a → a < inbuf + insize → (s.mem a).isSome) :
    if pos + n * Spec.size (sz env.cfg) τ ≤ insize then
      ∃ m', MPI_Unpack env s inbuf insize pos outbuf n h comm =
          .ok ({ s with mem := m' }, pos + n * Spec.size (sz env.cfg) τ) ∧
        Unpacked (sz env.cfg) s.mem m' (placed (sz env.cfg) τ n outbuf) (inbuf + pos)
    else MPI_Unpack env s inbuf insize pos outbuf n h comm = .exit 1 := by
  obtain ⟨t, h1, h2, h3, h4, _, h6, _⟩ := pack_calls hr hc hd hcm hl.small
  have hs := unpack_exact hc h1 h2 h3 h4 hl hdis hout hin
  rw [h6]
  split
  · rename_i hle
    rw [if_pos hle] at hs
    obtain ⟨m', hp, hm⟩ := hs
    exact ⟨m', by rw [hp]; rfl, hm⟩
  · rename_i hle
    rw [if_neg hle] at hs
    rw [hs]
    rfl

theorem packedAt_bound {z : Int → Int} {es : List Entry} (hs : Sized z es) {i : Nat} {x : Entry} (hx : es[i]? = some x) :
    0 ≤ packedAt z es i ∧ packedAt z es i + z x.2 ≤ total z es := by
  have hi := (List.getElem?_eq_some_iff.1 hx).1
  have h5 : total z es = packedAt z es i + total z (es.drop i) := by
    unfold packedAt total
    rw [← List.sum_append, ← List.map_append, List.take_append_drop]
  rw [List.drop_eq_getElem_cons hi, total_cons, (List.getElem?_eq_some_iff.1 hx).2] at h5
  have h7 : 0 ≤ total z (es.drop (i + 1)) := total_nonneg fun y hy => hs y (List.mem_of_mem_drop hy)
  exact ⟨total_nonneg fun y hy => hs y (List.mem_of_mem_take hy), by omega⟩

/-- C33, the calls: `n` items of a datatype are packed by one call and unpacked, into any buffer, by another: maybe at another
time or in another program (`s'`, `L'`), under another handle, the packed bytes having been carried to another place.  Every
element of the target gets the bytes the element had when packed, nothing else changes, and both positions advance by
the same amount. -/
theorem C33_calls {env' : Env} {s1 s' s2 : Sys} {L' : Ledger} {h' comm' : Int} (hcfg : env'.cfg = env.cfg)
    (hr : Reach env s L) (hr' : Reach env' s' L') (hc : env.cfg.Ok) (hd : StandsFor env.cfg L h (.data τ))
    (hd' : StandsFor env.cfg L' h' (.data τ)) (hcm : IsComm L comm) (hcm' : IsComm L' comm')
    {n : Nat} {inbuf outbuf outsize pos pos' inbuf' insize pos2 pos2' target : Int}
    (hl : LegalPack (sz env.cfg) τ n inbuf outbuf pos outsize) (hl' : LegalPack (sz env.cfg) τ n target inbuf' pos2 insize)
    (hdis : ElemsDisjoint (sz env.cfg) (placed (sz env.cfg) τ n target))
    (hp : MPI_Pack env s inbuf n h outbuf outsize pos comm = .ok (s1, pos'))
    (hcarry : ∀ k, 0 ≤ k → k < pos' - pos → s'.mem (inbuf' + pos2 + k) = s1.mem (outbuf + pos + k))
    (hu : MPI_Unpack env' s' inbuf' insize pos2 target n h' comm' = .ok (s2, pos2')) :
    (∀ (i : Nat) (x y : Entry), (placed (sz env.cfg) τ n inbuf)[i]? = some x → (placed (sz env.cfg) τ n target)[i]? = some y →
      y.2 = x.2 ∧ ∀ k, 0 ≤ k → k < sz env.cfg x.2 → s2.mem (y.1 + k) = s.mem (x.1 + k)) ∧
    (∀ a, (∀ x ∈ placed (sz env.cfg) τ n target, ¬ InBytes a x.1 (sz env.cfg x.2)) → s2.mem a = s'.mem a) ∧
    pos2' - pos2 = pos' - pos := by
  obtain ⟨t, h1, h2, h3, h4, h5, _, _⟩ := pack_calls hr hc hd hcm hl.small
  obtain ⟨t', g1, g2, g3, g4, _, g6, _⟩ := pack_calls hr' (by rw [hcfg]; exact hc) (by rw [hcfg]; exact hd') hcm'
    (by rw [hcfg]; exact hl'.small)
  rw [hcfg] at g1 g3 g4 g6
  obtain ⟨ha, e⟩ := hl.args h1 h2 h3 h4
  obtain ⟨ha', e'⟩ := hl'.args g1 g2 g3 g4
  rw [h5] at hp
  rw [g6] at hu
  obtain ⟨⟨m1, q1⟩, p1, p2⟩ := Res.bind_eq_ok.1 hp
  cases p2
  obtain ⟨⟨m2, q2⟩, u1, u2⟩ := Res.bind_eq_ok.1 hu
  cases u2
  have k1 := (C34_pack_position hc ha p1).1
  have k2 := (C34_unpack_position hc ha' u1).1
  have narrow : ∀ {q room pos : Int} {x : Entry}, pos ≤ room → (0 < n * Spec.size (sz env.cfg) τ →
      pos + n * Spec.size (sz env.cfg) τ ≤ room) → Apart x.1 (sz env.cfg x.2) q (room - pos) →
      Apart x.1 (sz env.cfg x.2) q (n * Spec.size (sz env.cfg) τ) := by
    intro q room pos x a b h
    unfold Apart at h ⊢
    omega
  obtain ⟨_, c2⟩ := Pack_contents hc ha (by
    rw [e]
    exact fun x hx => narrow hl.ints.2.1 (by rw [← k1]; exact (C34_pack_position hc ha p1).2.2) (hl.apart x hx)) p1
  obtain ⟨d1, d2⟩ := Unpack_contents hc ha' (by rw [e']; exact hdis) (by
    rw [e']
    exact fun x hx => narrow hl'.ints.2.1 (by rw [← k2]; exact (C34_unpack_position hc ha' u1).2.2) (hl'.apart x hx)) u1
  have hsized := elems_sized hc g1 (extent (sz env.cfg) τ) n target
  have htot := total_elems g1 g4 (extent (sz env.cfg) τ) n target
  have hsame := packedAt_elems env.cfg t (extent (sz env.cfg) τ) n target inbuf
  have e2 : elems t (extent (sz env.cfg) τ) n target = placed (sz env.cfg) τ n target := by unfold elems placed; rw [h2]
  rw [e'] at d1 d2 hsized htot
  refine ⟨fun i x y hx hy => ?_, d1, by omega⟩
  have hx2 := elems_shift (b2 := target) (e.symm ▸ hx)
  rw [e2, hy] at hx2
  cases hx2
  refine ⟨rfl, fun k hk0 hk => ?_⟩
  have hb := packedAt_bound hsized hy
  have h8 := d2 i _ hy k hk0 hk
  have h9 := c2 i x (e.symm ▸ hx) k hk0 hk
  dsimp only at h8 hb k1 k2 hcarry ⊢
  rw [h8, Int.add_assoc (inbuf' + pos2), hcarry _ (by omega) (by omega), ← h9, ← e2, hsame i, e, Int.add_assoc _ _ k]

end

/-! ## Instances -/

theorem vec2_pack : LegalPack (sz {}) vec2 (2 : Nat) 100 300 1 5 ∧ LegalPack (sz {}) vec2 (2 : Nat) 600 900 1 5 := by
  constructor <;> constructor <;> decide +kernel

/-- Two vectors at 100 are packed at 301 to 304, carried to 901, and unpacked at 600. -/
theorem vec2_there_and_back {s : Sys} {L : Ledger} (hr : ∀ m, Reach env0 { s with mem := m } L)
    (hd : StandsFor {} L 2 (.data vec2)) (hcm : IsComm L 1) : ∃ m' m'' : Mem,
    MPI_Pack env0 { s with mem := memAll } 100 2 2 300 5 1 1 = .ok ({ s with mem := m' }, 5) ∧
    MPI_Unpack env0 { s with mem := fun a => m' (a - 600) } 900 5 1 600 2 2 1 = .ok ({ s with mem := m'' }, 5) ∧
    m'' 605 = memAll 105 ∧ m'' 601 = m' 1 := by
  have zz : Spec.size (sz {}) vec2 = 2 := by decide
  have h1 := (C34_pack_call (hr memAll) cfg_default_ok hd hcm vec2_pack.1 (fun _ _ _ _ => rfl) (fun _ _ _ => rfl)).2
  rw [if_pos (by decide)] at h1
  obtain ⟨m', e1, k1⟩ := h1
  have acc : ∀ a, (m' a).isSome := by
    intro a
    by_cases ha : InBytes a 301 4
    · have v : ∀ (i : Nat) (x : Entry), (placed (sz {}) vec2 2 100)[i]? = some x → packedOffset (sz {}) (placed (sz {}) vec2 2 100) i = i →
          0 < sz {} x.2 → (m' (301 + (i : Nat))).isSome := by
        intro i x hx ho hz
        have := k1.values i x hx 0 (by decide) hz
        have e : (300 + 1 + packedOffset (sz {}) (placed (sz {}) vec2 2 100) i + 0 : Int) = 301 + i := by rw [ho]; omega
        rw [show (300 + 1 + packedOffset (sz env0.cfg) (placed (sz env0.cfg) vec2 (2 : Nat) 100) i + 0 : Int) = 301 + i from e] at this
        rw [this]
        rfl
      unfold InBytes at ha
      obtain rfl | rfl | rfl | rfl : a = 301 + (0 : Nat) ∨ a = 301 + (1 : Nat) ∨ a = 301 + (2 : Nat) ∨ a = 301 + (3 : Nat) := by omega
      · exact v 0 (100, 0) (by decide) (by decide) (by decide)
      · exact v 1 (102, 0) (by decide) (by decide) (by decide)
      · exact v 2 (103, 0) (by decide) (by decide) (by decide)
      · exact v 3 (105, 0) (by decide) (by decide) (by decide)
    · rw [k1.others a ha]
      rfl
  have h2 := C34_unpack_call (hr fun a => m' (a - 600)) cfg_default_ok hd hcm vec2_pack.2 (by decide +kernel)
    (fun _ _ _ _ => acc _) (fun _ _ _ => acc _)
  rw [if_pos (by decide)] at h2
  obtain ⟨m'', e2, k2⟩ := h2
  refine ⟨m', m'', e1, e2, ?_, k2.others 601 (by decide +kernel)⟩
  obtain ⟨h3, h4, h5⟩ := C33_calls (env := env0) rfl (hr memAll) (hr fun a => m' (a - 600)) cfg_default_ok hd hd
    hcm hcm vec2_pack.1 vec2_pack.2 (by decide +kernel) e1 (fun k _ _ => by
      show m' (900 + 1 + k - 600) = m' (300 + 1 + k)
      congr 1
      omega) e2
  exact (h3 3 (105, 0) (605, 0) (by decide +kernel) (by decide +kernel)).2 0 (by decide) (by decide)

/-- C34_pack_call, C34_unpack_call, C33_calls: with the vector type made and committed in `V4`. -/
example : ∃ m' m'' : Mem,
    MPI_Pack env0 { V4.s with mem := memAll } 100 2 2 300 5 1 1 = .ok ({ V4.s with mem := m' }, 5) ∧
    MPI_Unpack env0 { V4.s with mem := fun a => m' (a - 600) } 900 5 1 600 2 2 1 = .ok ({ V4.s with mem := m'' }, 5) ∧
    m'' 605 = memAll 105 ∧ m'' 601 = m' 1 :=
  vec2_there_and_back (fun _ => Reach.step V4_ok .memory) V4_standsFor ⟨0, by decide +kernel⟩

/-- One byte less room: the program exits. -/
example : (match MPI_Pack env0 { V4.s with mem := memAll } 100 2 2 300 4 1 1 with | .exit c => c | _ => 0) = 1 := by decide +kernel

end MpiSerial
