import Verif.Proofs.FrameExact
import Verif.Props.Frame

/-!
# C47 with no limit on addresses
-/

set_option autoImplicit false

namespace MpiSerial
open Spec

/-- C47, for all arguments: after any history of well-formed calls, a well-formed call that returns changes only
bytes at the places where the elements of its destination land - addresses being computed as the code does, with
offsets reduced to the range of `int`. -/
theorem C47_footprint_exact {env : Env} {s s' : Sys} {L : Ledger} {c : Call} {a : Int} (hcfg : env.cfg.Ok)
    (h : WfReach env s L) (hr : Room L) (hc : c.Wf env L) (he : c.exec env s = .ok s')
    (ha : ¬ CodeWrites env L c a) : s'.mem a = s.mem a :=
  Call.lands hcfg h.reach.1 h.reach.2 hr hc he ha

/-- C47, for all arguments: a history of well-formed calls in none of which the code may write a byte leaves that byte
as it was. -/
theorem C47_history_exact {env : Env} {s s' : Sys} {L L' : Ledger} {a : Int} (hcfg : env.cfg.Ok)
    (h : WfReach env s L) (hs : SparedBy env a s L s' L') : s'.mem a = s.mem a := by
  suffices WfReach env s' L' ∧ s'.mem a = s.mem a from this.2
  induction hs with
  | refl => exact ⟨h, rfl⟩
  | call _ h1 h2 h4 h5 h6 ih =>
    have ih := ih h
    exact ⟨.call ih.1 h1 h2 h5 h6, (C47_footprint_exact hcfg ih.1 h1 h2 h5 h4).trans ih.2⟩

theorem landing_fits {buf a : Int} (h : -2147483648 ≤ a - buf ∧ a - buf ≤ 2147483647 ∧ 0 ≤ a ∧ a < 18446744073709551616) :
    landing buf a = a := by
  unfold landing; omega

theorem displ_lands_fits {b d e a : Int} (h : DisplFits b d e) (hl : DisplLands b d e a) : a = b + d * e := by
  obtain ⟨h1, h2, h3, h4⟩ := h
  obtain ⟨off, h5, h6, h7, rfl⟩ := hl
  generalize d * e = x at *
  omega

/-- C47: within the limits of the code on addresses, the bytes the code may change are among those the call may
change. -/
theorem C47_within_limits {env : Env} {L : Ledger} {c : Call} (hf : c.AddressesFit env L) {a : Int}
    (h : CodeWrites env L c a) : MayWrite env L c a := by
  have hin : ∀ {b n t : Int}, Dest env L c b n t → Lands env L b n t a → MayWrite env L c a := by
    rintro b n t hd ⟨ty, e, x, h1, h2, h3, h4⟩
    refine Or.inl ⟨b, n, t, hd, ty, e, x, h1, h2, h3, ?_⟩
    rw [landing_fits (hf.dests b n t hd ty e h1 h2 x h3)] at h4
    exact h4
  rcases h with ⟨b, n, t, ht, hl⟩ | h | h
  · cases ht with
    | isend h1 => exact hin (.isend h1) hl
    | irsend h1 => exact hin (.irsend h1) hl
    | send h1 => exact hin (.send h1) hl
    | irecv h1 h2 => exact hin (.irecv h1 h2) hl
    | recv h1 h2 => exact hin (.recv h1 h2) hl
    | sendrecvOut h1 => exact hin (.sendrecvOut h1) hl
    | sendrecvIn h1 => exact hin (.sendrecvIn h1) hl
    | gather h1 => exact hin (.gather h1) hl
    | gatherv h1 h2 h3 h4 h5 =>
      obtain rfl := displ_lands_fits (hf.displ _ _ h3 h4) h5
      exact hin (.gatherv h1 h2 h3 h4) hl
    | allgather h1 => exact hin (.allgather h1) hl
    | allgatherv h1 h2 h3 h4 h5 =>
      obtain rfl := displ_lands_fits (hf.displ _ _ h3 h4) h5
      exact hin (.allgatherv h1 h2 h3 h4) hl
    | scatter h1 => exact hin (.scatter h1) hl
    | scatterv h1 => exact hin (.scatterv h1) hl
    | reduce => exact hin .reduce hl
    | allreduce h1 => exact hin (.allreduce h1) hl
    | reduceScatter h1 => exact hin (.reduceScatter h1) hl
    | scan => exact hin .scan hl
    | alltoall => exact hin .alltoall hl
    | alltoallv h1 h2 h3 h4 =>
      obtain rfl := displ_lands_fits (hf.displ _ _ h2 h3) h4
      exact hin (.alltoallv h1 h2 h3) hl
    | alltoallw h1 h2 h3 =>
      have h4 := hf.displ _ h2
      rw [Int.emod_eq_of_lt h4.1 h4.2] at hl
      exact hin (.alltoallw h1 h2 h3) hl
  · cases c with
    | pack b n t o z p k =>
      obtain ⟨q, l, h1, h2, h3⟩ := h
      have h4 := hf.displ
      refine Or.inr (Or.inl ?_)
      show o + p ≤ a ∧ a < o + z
      unfold InBytes at h3
      omega
    | unpack i z p o n t k =>
      obtain ⟨ty, e, x, h1, h2, h3, h4⟩ := h
      refine Or.inl ⟨o, n, t, .unpack, ty, e, x, h1, h2, h3, ?_⟩
      have h5 := hf.dests _ _ _ .unpack ty e h1 h2 x h3
      rw [Int.emod_eq_of_lt h5.2.2.1 h5.2.2.2] at h4
      exact h4
    | _ => exact absurd h id
  · exact Or.inr (Or.inr h)

/-- The call of `C47_fails_displacement`, which `AddressesFit` excludes: here the theorem applies, and byte 2000 is one
the code may write. -/
example : CodeWrites env0 CL.L (Call.gatherv 1000 1 (-3) 2000 [1] [1073741824] (-3) 0 1) 2000 := by
  have hint : CL.L.desc env0.cfg (-3) = some (static1 4 2) := rfl
  have hext : ExtentIs env0.cfg (static1 4 2) 4 := ⟨by decide, by decide, by decide⟩
  refine Or.inl ⟨2000, 1, -3, .gatherv (by decide) rfl rfl ⟨_, hint, hext⟩ ⟨0, by decide, by decide, by decide, by decide⟩,
    _, 4, (2000, 2), hint, hext, by decide, by unfold InBytes; decide⟩

/-- And the bytes around it stay as they were. -/
example {s' : Sys} (h : (Call.gatherv 1000 1 (-3) 2000 [1] [1073741824] (-3) 0 1).exec env0 CL.s = .ok s') (a : Int)
    (ha : a < 2000 ∨ 2004 ≤ a) : s'.mem a = CL.s.mem a := by
  have hint : ∀ t e, CL.L.desc env0.cfg (-3) = some t → ExtentIs env0.cfg t e → t = static1 4 2 ∧ e = 4 := by
    intro t e hd he
    obtain rfl : t = static1 4 2 := by
      have : CL.L.desc env0.cfg (-3) = some (static1 4 2) := rfl
      rw [this] at hd
      exact (Option.some.inj hd).symm
    have h1 := he.1
    have h2 := he.2
    have : Type_extent env0.cfg (static1 4 2) = .ok 4 := by decide
    rw [this] at h1
    have h1 := Res.ok.inj h1
    exact ⟨rfl, by unfold u64 at h1; omega⟩
  refine C47_footprint_exact (c := .gatherv 1000 1 (-3) 2000 [1] [1073741824] (-3) 0 1) (L := CL.L) cfg_default_ok
    (Demo.init_wf .start (by decide +kernel) (by decide +kernel)) (by decide +kernel)
    ⟨IsType.simple (by decide) (by decide), IsType.simple (by decide) (by decide)⟩ h ?_
  rintro (⟨b, n, t, h, t', e, x, h1, h2, h3, h4⟩ | h | h)
  · cases h with
    | @gatherv _ _ _ _ _ _ d e' _ _ _ _ _ hn hd hx hl =>
      obtain ⟨t'', hx1, hx2⟩ := hx
      obtain ⟨rfl, rfl⟩ := hint _ _ h1 h2
      obtain ⟨_, rfl⟩ := hint _ _ hx1 hx2
      cases hn
      cases hd
      obtain ⟨off, l1, l2, l3, rfl⟩ := hl
      have : off = 0 := by omega
      subst this
      have : x = (2000, 2) := by
        have : Spec.repeated (typeMap (static1 4 2)) 4 (1 : Int).toNat ((2000 + 0) % 18446744073709551616) = [(2000, 2)] := by decide
        rw [this] at h3
        simpa using h3
      subst this
      have : landing ((2000 + 0) % 18446744073709551616) 2000 = 2000 := by decide
      dsimp only at h4
      rw [this] at h4
      have : sz env0.cfg 2 = 4 := by decide
      unfold InBytes at h4
      omega
  · exact h
  · exact h

end MpiSerial
