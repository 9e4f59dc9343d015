import Verif.Proofs.Frame
import Verif.Props.Calls

/-!
# C47: bytes of user memory a call leaves alone
-/

set_option autoImplicit false

namespace MpiSerial

/-- C47: calls that have nothing to do with user memory - everything except communication, pack/unpack and
collectives - do not change a byte of it, in any state and for any arguments. -/
theorem C47_silent {env : Env} {s s' : Sys} {c : Call} (hc : c.silent) (h : c.exec env s = .ok s') : s'.mem = s.mem :=
  Call.keeps_mem rfl c hc _ h

/-- The theorem applies to calls that change the state: this MPI_Waitall completes and releases two requests. -/
example : (Call.waitall 2 [2, 5] (some [⟨0, 0, 0, 0⟩, ⟨0, 0, 0, 0⟩])).silent ∧ ((Call.waitall 2 [2, 5] (some [⟨0, 0, 0, 0⟩, ⟨0, 0, 0, 0⟩])).exec env0 H5.s).returned = true :=
  ⟨trivial, by decide +kernel⟩

/-- C47: after any history of well-formed calls, a well-formed call that returns changes only bytes of elements of
the typed buffers into which it delivers data (`Dest`): the buffer of the receive the message is matched with, the
output buffer of MPI_Unpack, the receive buffer of a collective (not "in place", at the root) - or bytes of the part
of the output buffer of MPI_Pack after the position.
Partial: only as long as the offsets of elements fit an `int` (`AddressesFit`; `C47_fails_displacement`,
`C31_fails_large`). -/
theorem C47_footprint_partial {env : Env} {s s' : Sys} {L : Ledger} {c : Call} {a : Int} (hcfg : env.cfg.Ok)
    (h : WfReach env s L) (hr : Room L) (hc : c.Wf env L) (hf : c.AddressesFit env L)
    (he : c.exec env s = .ok s') (ha : ¬ MayWrite env L c a) : s'.mem a = s.mem a :=
  Call.frame hcfg h.reach.1 h.reach.2 hr hc hf he ha

/-- C47: a history of well-formed calls none of which may write a byte leaves that byte as it was. -/
theorem C47_history_partial {env : Env} {s s' : Sys} {L L' : Ledger} {a : Int} (hcfg : env.cfg.Ok)
    (h : WfReach env s L) (hs : Spares env a s L s' L') : s'.mem a = s.mem a := by
  suffices WfReach env s' L' ∧ s'.mem a = s.mem a from this.2
  induction hs with
  | refl => exact ⟨h, rfl⟩
  | call _ h1 h2 h3 h4 h5 h6 ih =>
    have ih := ih h
    exact ⟨.call ih.1 h1 h2 h5 h6, (C47_footprint_partial hcfg ih.1 h1 h2 h3 h5 h4).trans ih.2⟩

theorem charExtent {L : Ledger} {t : Typestruct} {e : Int} (hd : L.desc env0.cfg (-1) = some t)
    (he : ExtentIs env0.cfg t e) : t = static1 1 0 ∧ e = 1 := by
  obtain rfl : t = static1 1 0 := by
    have : L.desc env0.cfg (-1) = some (static1 1 0) := rfl
    rw [this] at hd
    exact (Option.some.inj hd).symm
  obtain ⟨h1, h2, h3⟩ := he
  have : Type_extent env0.cfg (static1 1 0) = .ok 1 := by decide
  rw [this] at h1
  have h1 := Res.ok.inj h1
  exact ⟨rfl, by unfold u64 at h1; omega⟩

/-- Receiving three characters at 300, with two messages pending, leaves the bytes around the buffer alone. -/
example {s' : Sys} (h : (Call.recv 300 3 (-1) 0 5 1 .null).exec env0 H3.s = .ok s') (a : Int) (ha : a < 300 ∨ 303 ≤ a) :
    s'.mem a = H3.s.mem a := by
  have hd : ∀ b n t, Dest env0 H3.L (.recv 300 3 (-1) 0 5 1 .null) b n t → b = 300 ∧ n = 3 ∧ t = -1 := by
    intro b n t h
    cases h
    exact ⟨rfl, rfl, rfl⟩
  refine C47_footprint_partial (c := .recv 300 3 (-1) 0 5 1 .null) cfg_default_ok H3_wf (by decide +kernel)
    ⟨IsType.simple (by decide) (by decide), Or.inl ⟨0, by decide +kernel⟩⟩ ⟨?_, trivial⟩ h ?_
  · intro b n t h t' e h1 h2
    obtain ⟨rfl, rfl, rfl⟩ := hd _ _ _ h
    obtain ⟨rfl, rfl⟩ := charExtent h1 h2
    unfold OffsetsFit
    decide
  · rintro (⟨b, n, t, h, t', e, x, h1, h2, h3, h4⟩ | h | h)
    · obtain ⟨rfl, rfl, rfl⟩ := hd _ _ _ h
      obtain ⟨rfl, rfl⟩ := charExtent h1 h2
      have : ∀ x ∈ Spec.repeated (typeMap (static1 1 0)) 1 (3 : Int).toNat 300, 300 ≤ x.1 ∧ x.1 + sz env0.cfg x.2 ≤ 303 := by
        decide
      have := this x h3
      unfold Spec.InBytes at h4
      omega
    · exact h
    · exact h

/-- The call returns, and does deliver the data: byte 301 changes from 0 to 2. -/
example : ((Call.recv 300 3 (-1) 0 5 1 .null).exec env0 H3.s).returned = true ∧
    H3.s.mem 301 = some 0 ∧ (((Call.recv 300 3 (-1) 0 5 1 .null).exec env0 H3.s).getD H3.s).mem 301 = some 2 := by
  decide +kernel

/-- C47 fails when displacement times extent is no `int` (collective.c:127): MPI_Gatherv of one MPI_INT at displacement
2^30 changes byte 2000, four gibibytes before the buffer. -/
theorem C47_fails_displacement : ∃ (s' : Sys), WfReach env0 CL.s CL.L ∧ Room CL.L ∧
    (Call.gatherv 1000 1 (-3) 2000 [1] [1073741824] (-3) 0 1).Wf env0 CL.L ∧
    (Call.gatherv 1000 1 (-3) 2000 [1] [1073741824] (-3) 0 1).exec env0 CL.s = .ok s' ∧
    ¬ MayWrite env0 CL.L (Call.gatherv 1000 1 (-3) 2000 [1] [1073741824] (-3) 0 1) 2000 ∧ s'.mem 2000 ≠ CL.s.mem 2000 := by
  refine ⟨(MPI_Gatherv env0 CL.s 1000 1 (-3) 2000 [1] [1073741824] (-3) 0 1).getD CL.s,
    Demo.init_wf .start (by decide +kernel) (by decide +kernel), by decide +kernel,
    ⟨IsType.simple (by decide) (by decide), IsType.simple (by decide) (by decide)⟩,
    Res.eq_getD _ (by decide +kernel), ?_, by decide +kernel⟩
  have hint : ∀ t e, CL.L.desc env0.cfg (-3) = some t → ExtentIs env0.cfg t e → t = static1 4 2 ∧ e = 4 := by
    intro t e hd he
    obtain rfl : t = static1 4 2 := by
      have : CL.L.desc env0.cfg (-3) = some (static1 4 2) := rfl
      rw [this] at hd
      exact (Option.some.inj hd).symm
    have h1 := he.1
    have h2 := he.2
    have : Type_extent env0.cfg (static1 4 2) = .ok 4 := by decide
    rw [this] at h1
    have h1 := Res.ok.inj h1
    exact ⟨rfl, by unfold u64 at h1; omega⟩
  rintro (⟨b, n, t, h, t', e, x, h1, h2, h3, h4⟩ | h | h)
  · cases h with
    | @gatherv _ _ _ _ _ _ d e' _ _ _ _ hn hd hx =>
      obtain ⟨t'', hx1, hx2⟩ := hx
      obtain ⟨rfl, rfl⟩ := hint _ _ h1 h2
      obtain ⟨_, rfl⟩ := hint _ _ hx1 hx2
      obtain rfl : 1073741824 = d := Option.some.inj hd
      obtain rfl : 1 = n := Option.some.inj hn
      have : ∀ x ∈ Spec.repeated (typeMap (static1 4 2)) 4 (1 : Int).toNat (2000 + 1073741824 * 4), 3000 ≤ x.1 := by decide
      have := this x h3
      unfold Spec.InBytes at h4
      omega
  · exact h
  · exact h

end MpiSerial
