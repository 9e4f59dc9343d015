import Verif.Spec.Again
import Verif.Props.Overlap

/-!
# C92: transfers may be repeated, returned and forwarded
-/

set_option linter.unusedSimpArgs false
set_option autoImplicit false

namespace MpiSerial

open Spec

section
variable {sz : Int → Int}

/-- Memories that agree on what is sent, and on what is not received. -/
theorem oneByOne_agree {l : List (Entry × Entry)} (h : ∀ x ∈ l, ∀ y ∈ l, Apart x.1.1 (sz x.1.2) y.2.1 (sz y.1.2)) :
    ∀ m m' : Mem, (∀ x ∈ l, ∀ b, 0 ≤ b → b < sz x.1.2 → m (x.2.1 + b) = m' (x.2.1 + b)) →
      (∀ a, (∀ x ∈ l, ¬ InBytes a x.1.1 (sz x.1.2)) → m a = m' a) → oneByOne sz l m = oneByOne sz l m' := by
  induction l with
  | nil => intro m m' _ h2; exact funext fun a => h2 a (fun _ hx => by cases hx)
  | cons y l ih =>
    intro m m' h1 h2
    rw [oneByOne, oneByOne]
    refine ih (fun x hx z hz => h x (List.mem_cons_of_mem _ hx) z (List.mem_cons_of_mem _ hz)) _ _ ?_ ?_
    · intro x hx b hb0 hb
      have := h y (List.mem_cons_self ..) x (List.mem_cons_of_mem _ hx)
      unfold replaced
      unfold Apart at this
      rw [if_neg (by omega), if_neg (by omega)]
      exact h1 x (List.mem_cons_of_mem _ hx) b hb0 hb
    · intro a ha
      unfold replaced
      by_cases hin : y.1.1 ≤ a ∧ a < y.1.1 + sz y.1.2
      · rw [if_pos hin, if_pos hin]
        exact h1 y (List.mem_cons_self ..) _ (by omega) (by omega)
      · rw [if_neg hin, if_neg hin]
        refine h2 a fun x hx => ?_
        rcases List.mem_cons.1 hx with rfl | hx
        · exact hin
        · exact ha x hx

theorem oneByOne_twice {l : List (Entry × Entry)} (h : ∀ x ∈ l, ∀ y ∈ l, Apart x.1.1 (sz x.1.2) y.2.1 (sz y.1.2)) (m : Mem) :
    oneByOne sz l (oneByOne sz l m) = oneByOne sz l m := by
  refine oneByOne_agree h _ _ (fun x hx b hb0 hb => oneByOne_frame (fun y hy hin => ?_) m) (fun a ha => oneByOne_frame ha m)
  have := h y hy x hx
  unfold Apart at this
  unfold InBytes at hin
  omega

theorem oneByOne_idle {l : List (Entry × Entry)} {m : Mem} (h : ∀ x ∈ l, ∀ b, 0 ≤ b → b < sz x.1.2 → m (x.1.1 + b) = m (x.2.1 + b)) :
    oneByOne sz l m = m := by
  induction l with
  | nil => rfl
  | cons y l ih =>
    rw [oneByOne]
    have : replaced m y.1.1 y.2.1 (sz y.1.2) = m := by
      funext a
      unfold replaced
      split
      · next hin =>
        have := h y (List.mem_cons_self ..) (a - y.1.1) (by omega) (by omega)
        rw [← this]
        congr 1; omega
      · rfl
    rw [this]
    exact ih fun x hx => h x (List.mem_cons_of_mem _ hx)

theorem Copyable.over {m m' : Mem} (h : ∀ a, (m' a).isSome = (m a).isSome) {d s : Entry} (hc : Copyable sz m d s) : Copyable sz m' d s :=
  ⟨fun a ha => by rw [h]; exact hc.dst a ha, fun a ha => by rw [h]; exact hc.src a ha, hc.apart⟩

theorem oneByOne_some {l : List (Entry × Entry)} : ∀ m : Mem, (∀ x ∈ l, Copyable sz m x.1 x.2) → ∀ a, (oneByOne sz l m a).isSome = (m a).isSome := by
  induction l with
  | nil => intro m _ a; rfl
  | cons y l ih =>
    intro m h a
    have hy := h y (List.mem_cons_self ..)
    have hr : ∀ a, (replaced m y.1.1 y.2.1 (sz y.1.2) a).isSome = (m a).isSome := by
      intro a
      unfold replaced
      split
      · next hin =>
        rw [hy.dst a hin, hy.src _ ⟨by omega, by omega⟩]
      · rfl
    rw [oneByOne, ih _ (fun x hx => (h x (List.mem_cons_of_mem _ hx)).over hr), hr]

end

section
variable {env : Env} {s s' : Sys} {L L' : Ledger} {sb sc rb rc : Int} {τs τr : DType} {R R' : Res Mem} {m : Mem}

theorem Exchangeable.weak {sz : Int → Int} {strict : Prop} (h : Exchangeable sz True sb sc τs rb rc τr) : Exchangeable sz strict sb sc τs rb rc τr :=
  { h with
    kinds := fun _ => h.kinds trivial }

/-- A transfer that was carried out: all elements could be copied, and were. -/
theorem Transmits.done (hr : Reach env s L) (hc : env.cfg.Ok) (h : Transmits env s L (sz env.cfg) sb sc τs rb rc τr (.ok m)) :
    (∀ x ∈ (placed (sz env.cfg) τr rc rb).zip (placed (sz env.cfg) τs sc sb), Copyable (sz env.cfg) s.mem x.1 x.2) ∧
    m = oneByOne (sz env.cfg) ((placed (sz env.cfg) τr rc rb).zip (placed (sz env.cfg) τs sc sb)) s.mem := by
  obtain ⟨st, rt, hd, h1, h2, c1, c2⟩ := h.call
  obtain ⟨e1, e2⟩ := C81_exact hr hc hd h1 h2 c1 c2 h.fits.weak
  have hall : ∀ x ∈ (placed (sz env.cfg) τr rc rb).zip (placed (sz env.cfg) τs sc sb), Copyable (sz env.cfg) s.mem x.1 x.2 := by
    intro x hx
    apply Classical.byContradiction
    intro hn
    obtain ⟨e, he⟩ := e2 ⟨x, hx, hn⟩
    cases he
  exact ⟨hall, Res.ok.inj (e1 hall)⟩

theorem Transmits.does (hr : Reach env s L) (hc : env.cfg.Ok) (h : Transmits env s L (sz env.cfg) sb sc τs rb rc τr R)
    (hall : ∀ x ∈ (placed (sz env.cfg) τr rc rb).zip (placed (sz env.cfg) τs sc sb), Copyable (sz env.cfg) s.mem x.1 x.2) :
    R = .ok (oneByOne (sz env.cfg) ((placed (sz env.cfg) τr rc rb).zip (placed (sz env.cfg) τs sc sb)) s.mem) := by
  obtain ⟨st, rt, hd, h1, h2, c1, c2⟩ := h.call
  exact (C81_exact hr hc hd h1 h2 c1 c2 h.fits.weak).1 hall

theorem Transmits.sep {sz : Int → Int} (h : Transmits env s L sz sb sc τs rb rc τr R) :
    ∀ x ∈ (placed sz τr rc rb).zip (placed sz τs sc sb), ∀ y ∈ (placed sz τr rc rb).zip (placed sz τs sc sb), Apart x.1.1 (sz x.1.2) y.2.1 (sz y.1.2) := by
  intro x hx y hy
  rw [← h.fits.kinds trivial y hy]
  exact h.apart _ (List.of_mem_zip hx).1 _ (List.of_mem_zip hy).2

/-- **C92 (again).**  A transfer that was carried out may be repeated, later and in whatever way it is made: it is carried out
again and changes nothing.  Elements of the receive buffer may overlap each other. -/
theorem C92_again (hc : env.cfg.Ok) (hr : Reach env s L) (h : Transmits env s L (sz env.cfg) sb sc τs rb rc τr (.ok m))
    (hr' : Reach env s' L') (hm : s'.mem = m) (h' : Transmits env s' L' (sz env.cfg) sb sc τs rb rc τr R') : R' = .ok m := by
  obtain ⟨h1, h2⟩ := h.done hr hc
  rw [h'.does hr' hc fun x hx => by rw [hm, h2]; exact (h1 x hx).over (oneByOne_some _ h1), hm, h2, oneByOne_twice h.sep]

theorem zip_swap_mem {α β : Type} {l : List α} {k : List β} {x : α} {y : β} (h : (x, y) ∈ l.zip k) : (y, x) ∈ k.zip l := by
  obtain ⟨i, hi⟩ := List.mem_iff_getElem?.1 h
  obtain ⟨h1, h2⟩ := List.getElem?_zip_eq_some.1 hi
  exact List.mem_iff_getElem?.2 ⟨i, List.getElem?_zip_eq_some.2 ⟨h2, h1⟩⟩

/-- **C92 (back).**  What was received may be sent back to where it came from: that is carried out and changes nothing. -/
theorem C92_back (hc : env.cfg.Ok) (hr : Reach env s L) (h : Transmits env s L (sz env.cfg) sb sc τs rb rc τr (.ok m))
    (hd : ElemsDisjoint (sz env.cfg) (placed (sz env.cfg) τr rc rb)) (hr' : Reach env s' L') (hm : s'.mem = m)
    (h' : Transmits env s' L' (sz env.cfg) rb rc τr sb sc τs R') : R' = .ok m := by
  obtain ⟨h1, h2⟩ := h.done hr hc
  have hs := oneByOne_some _ h1
  have hk := h.fits.kinds trivial
  rw [h'.does hr' hc fun x hx => ?_, hm]
  · rw [oneByOne_idle]
    intro x hx b hb0 hb
    have hx' := zip_swap_mem hx
    have hkx := hk _ hx'
    dsimp only at hkx
    rw [h2, oneByOne_values ((zip_pairwise hd).and (List.pairwise_of_forall_mem_list fun x hx y hy => h.sep x hx y hy)) _ _ hx' b hb0 (by rw [← hkx]; exact hb)]
    refine oneByOne_frame (fun y hy hin => ?_) _
    have := h.sep y hy _ hx'
    unfold Apart at this
    unfold InBytes at hin
    dsimp only at this
    rw [← hkx] at this
    omega
  · have hx' := zip_swap_mem hx
    have hkx := hk _ hx'
    dsimp only at hkx
    have hcp := (h1 _ hx').over hs
    dsimp only at hcp
    rw [hm, h2]
    refine ⟨fun a ha => hcp.src a (by rw [← hkx]; exact ha), fun a ha => hcp.dst a (by rw [← hkx]; exact ha), ?_⟩
    have := hcp.apart
    rw [← hkx] at this
    unfold Apart at this ⊢
    omega

/-- **C92 (forward).**  What was received may be passed on to a third buffer: there then is what the first buffer held, element
by element, and nothing else has changed except in the buffer in between. -/
theorem C92_forward (hc : env.cfg.Ok) (hr : Reach env s L) (h : Transmits env s L (sz env.cfg) sb sc τs rb rc τr (.ok m))
    (hd : ElemsDisjoint (sz env.cfg) (placed (sz env.cfg) τr rc rb)) (hr' : Reach env s' L') (hm : s'.mem = m) {tb tc : Int} {τt : DType} {m' : Mem}
    (h' : Transmits env s' L' (sz env.cfg) rb rc τr tb tc τt (.ok m')) (hd' : ElemsDisjoint (sz env.cfg) (placed (sz env.cfg) τt tc tb)) :
    (∀ (i : Nat) (d : Entry), (placed (sz env.cfg) τt tc tb)[i]? = some d → ∃ e : Entry, (placed (sz env.cfg) τs sc sb)[i]? = some e ∧
      ∀ k, 0 ≤ k → k < sz env.cfg d.2 → m' (d.1 + k) = s.mem (e.1 + k)) ∧
    ∀ a, (∀ d ∈ placed (sz env.cfg) τr rc rb, ¬ InBytes a d.1 (sz env.cfg d.2)) →
      (∀ d ∈ placed (sz env.cfg) τt tc tb, ¬ InBytes a d.1 (sz env.cfg d.2)) → m' a = s.mem a := by
  have one := C81_moved (sz := sz env.cfg) h.fits.enough hd (List.pairwise_of_forall_mem_list fun x hx y hy => h.sep x hx y hy) s.mem
  have two := C81_moved (sz := sz env.cfg) h'.fits.enough hd' (List.pairwise_of_forall_mem_list fun x hx y hy => h'.sep x hx y hy) s'.mem
  rw [← (h.done hr hc).2, ← hm] at one
  rw [← (h'.done hr' hc).2] at two
  refine ⟨fun i d hi => ?_, fun a h1 h2 => (two.others a h2).trans (one.others a h1)⟩
  obtain ⟨e, he, hv⟩ := two.values i d hi
  obtain ⟨f, hf, hw⟩ := one.values i e he
  have hk := h'.fits.kinds trivial (d, e) (List.mem_iff_getElem?.2 ⟨i, List.getElem?_zip_eq_some.2 ⟨hi, he⟩⟩)
  dsimp only at hk
  exact ⟨f, hf, fun k h0 hlt => (hv k h0 hlt).trans (hw k h0 (by rw [hk]; exact hlt))⟩

end

/-! ## Instances -/

/-- Two MPI_INT at 1000, received at 2000 by MPI_Sendrecv. -/
theorem CL_transmits {b b' : Int} {m : Mem} (h1 : b = 1000 ∧ b' = 2000 ∨ b = 2000 ∧ b' = 1000 ∨ b = 2000 ∧ b' = 3000) :
    Transmits env0 { CL.s with mem := m } CL.L (sz {}) b 2 (plain [(0, 2)]) b' 2 (plain [(0, 2)])
      (MPI_Sendrecv env0 { CL.s with mem := m } b 2 (-3) 0 5 b' 2 (-3) 0 5 1 .null >>= fun x => .ok x.1.mem) := by
  have hi : StandsFor {} CL.L (-3) (.data (plain [(0, 2)])) := int_represents CL.L
  have hc : Committed {} CL.L (-3) := ⟨static1 4 2, rfl, by decide⟩
  refine ⟨⟨-3, -3, .sendrecv CL_exchange, hi, hi, hc, hc⟩, ?_, ?_⟩
  · rcases h1 with ⟨rfl, rfl⟩ | ⟨rfl, rfl⟩ | ⟨rfl, rfl⟩ <;> constructor <;> decide +kernel
  · rcases h1 with ⟨rfl, rfl⟩ | ⟨rfl, rfl⟩ | ⟨rfl, rfl⟩ <;> (unfold ElemsApart Apart; decide +kernel)

/-- The message, in any memory. -/
def ints (m : Mem) (b b' : Int) : Res Mem := MPI_Sendrecv env0 { CL.s with mem := m } b 2 (-3) 0 5 b' 2 (-3) 0 5 1 .null >>= fun x => .ok x.1.mem

/-- It can be sent. -/
example : (ints memAll 1000 2000).returned = true := by decide +kernel

/-- Sent again: nothing changes. -/
example (m m' : Mem) (h : ints m 1000 2000 = .ok m') : ints m' 1000 2000 = .ok m' := by
  have h1 := CL_transmits (b := 1000) (b' := 2000) (m := m) (by decide)
  unfold ints at h
  rw [h] at h1
  exact C92_again cfg_default_ok (Reach.step CL_ok .memory) h1 (Reach.step CL_ok .memory) rfl (CL_transmits (by decide))

/-- Sent back: nothing changes. -/
example (m m' : Mem) (h : ints m 1000 2000 = .ok m') : ints m' 2000 1000 = .ok m' := by
  have h1 := CL_transmits (b := 1000) (b' := 2000) (m := m) (by decide)
  unfold ints at h
  rw [h] at h1
  exact C92_back cfg_default_ok (Reach.step CL_ok .memory) h1 (by unfold ElemsDisjoint Apart; decide +kernel) (Reach.step CL_ok .memory) rfl
    (CL_transmits (by decide))

/-- Passed on. -/
example (m m' m'' : Mem) (h : ints m 1000 2000 = .ok m') (h' : ints m' 2000 3000 = .ok m'') : m'' 3005 = m 1005 := by
  have h1 := CL_transmits (b := 1000) (b' := 2000) (m := m) (by decide)
  have h2 := CL_transmits (b := 2000) (b' := 3000) (m := m') (by decide)
  unfold ints at h h'
  rw [h] at h1
  rw [h'] at h2
  obtain ⟨e, he, hv⟩ := (C92_forward cfg_default_ok (Reach.step CL_ok .memory) h1 (by unfold ElemsDisjoint Apart; decide +kernel)
    (Reach.step CL_ok .memory) rfl h2 (by unfold ElemsDisjoint Apart; decide +kernel)).1 1 (3004, 2) (by decide +kernel)
  rw [show (placed (sz env0.cfg) (plain [(0, 2)]) 2 1000)[1]? = some (1004, 2) by decide +kernel] at he
  cases he
  exact hv 1 (by decide) (by decide +kernel)

/-- C92 needs buffers without a common byte: three characters moved down by one, twice. -/
theorem C92_needs_apart :
    (MPI_Sendrecv env0 CL.s 101 3 (-1) 0 5 100 3 (-1) 0 5 1 .null >>= fun x => Res.ok (x.1.mem 100)) = .ok (memAll 101) ∧
    (MPI_Sendrecv env0 CL.s 101 3 (-1) 0 5 100 3 (-1) 0 5 1 .null >>= fun x =>
      MPI_Sendrecv env0 x.1 101 3 (-1) 0 5 100 3 (-1) 0 5 1 .null >>= fun x => Res.ok (x.1.mem 100)) = .ok (memAll 102) ∧
    memAll 101 ≠ memAll 102 := by decide +kernel

end MpiSerial
