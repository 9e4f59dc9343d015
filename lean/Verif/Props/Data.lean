import Verif.Proofs.Data
import Verif.Proofs.Demo

/-!
# C77: the library does not look at the data it moves

Every copy is a `memcpy` (copy.c:85, pack.c:54, pack.c:143) whose addresses and lengths come from the arguments,
the queued requests and the datatype descriptors.
-/

set_option autoImplicit false

namespace MpiSerial

/-- C77: what a call does does not depend on the contents of memory.  For any state and any call there is one
outcome `r`, and a map `σ` of addresses in it, such that over every memory with the same accessible addresses the
call ends like that: it dies in the same way, or hands back the same numbers and statuses and leaves the library
in the same state, and the byte at `a` is then the one that was at `σ a`. -/
theorem C77_call (env : Env) (s : Sys) (c : Call) (hc : c.isStore = false) :
    ∃ r : Res (Sys × Out × (Int → Int)),
      (∀ m : Mem, m.SameShape s.mem →
        c.answer env (s.on m) = r >>= fun x => .ok (x.1.on (fun a => m (x.2.2 a)), x.2.1)) ∧
      ∀ x, r = .ok x → ∀ a, (s.mem (x.2.2 a)).isSome = (s.mem a).isSome := by
  obtain ⟨r, hr, hd⟩ := answer_blind (d := s.mem) env s c hc
  refine ⟨r >>= fun y => .ok (y.1.1, y.1.2, y.2), fun m hm => ?_, ?_⟩
  · rw [bind_assoc]; exact hr m hm
  · intro x hx
    obtain ⟨y, hy, hx⟩ := Res.bind_eq_ok.mp hx
    cases hx
    exact hd y hy

/-- The bytes of a memory, replaced one by one. -/
def Mem.recode (f : UInt8 → UInt8) (m : Mem) : Mem := fun a => (m a).map f

/-- C77: recoding all data and then calling is calling and then recoding all data. -/
theorem C77_recode (env : Env) (s : Sys) (c : Call) (hc : c.isStore = false) (f : UInt8 → UInt8) :
    c.answer env (s.on (s.mem.recode f)) = c.answer env s >>= fun x => .ok (x.1.on (x.1.mem.recode f), x.2) := by
  obtain ⟨r, hr, -⟩ := C77_call env s c hc
  have h1 := hr (s.mem.recode f) (fun a => by simp [Mem.recode])
  have h2 := hr s.mem (fun _ => rfl)
  rw [h1, show c.answer env s = _ from h2]
  cases r <;> rfl

theorem Mem.Related.shape {R : UInt8 → UInt8 → Prop} {m n : Mem} (h : m.Related R n) : n.SameShape m := by
  intro a
  rcases h a with ⟨h1, h2⟩ | ⟨x, y, h1, h2, -⟩
  · rw [h1, h2]
  · rw [h1, h2]; rfl

theorem Call.Related.posts {R : UInt8 → UInt8 → Prop} {c c' : Call} (h : c.Related R c') : c.posts = c'.posts := by
  cases h <;> rfl

theorem Call.Related.requests {R : UInt8 → UInt8 → Prop} {c c' : Call} (h : c.Related R c') :
    c.requests = c'.requests := by
  cases h <;> rfl

theorem Seen.Related.lastPost {R : UInt8 → UInt8 → Prop} {l l' : List Obs} (h : Seen.Related R l l') (r : Int) :
    MpiSerial.lastPost l r = MpiSerial.lastPost l' r := by
  induction h with
  | nil => rfl
  | cons h _ ih =>
    unfold MpiSerial.lastPost at ih ⊢
    rw [List.findSome?_cons, List.findSome?_cons, h.vals, h.call.posts, ih]

/-- C77: two programs that make the same calls as long as they see the same numbers and statuses, and related
data, do so to the end: they make the same calls, get the same results, die in the same way, and their data stay
related. -/
theorem C77_programs {R : UInt8 → UInt8 → Prop} (env : Env) {p q : Prog} (hpq : p.Related R q) (n : Nat) :
    ∀ {l l' : List Obs} (s : Sys) {m m' : Mem}, Seen.Related R l l' → m.Related R m' →
      Seen.Related R (p.run env n l (s.on m)).1 (q.run env n l' (s.on m')).1 ∧
      (p.run env n l (s.on m)).2 = (q.run env n l' (s.on m')).2 := by
  induction n with
  | zero => intro l l' s m m' hl _; exact ⟨hl, rfl⟩
  | succ n ih =>
    intro l l' s m m' hl hm
    simp only [Prog.run]
    rcases hpq l l' hl with ⟨h1, h2⟩ | ⟨c, c', h1, h2, hcc⟩
    · rw [h1, h2]; exact ⟨hl, rfl⟩
    · rw [h1, h2]
      have hobs : ∀ (s' : Sys) (o : Out) (k k' : Mem), k.Related R k' →
          Seen.Related R (observe l c (s'.on k) o :: l) (observe l' c' (s'.on k') o :: l') := by
        intro s' o k k' hk
        have hkr : knownReceives l c = knownReceives l' c' := by
          unfold knownReceives; rw [hcc.requests]; simp only [hl.lastPost]
        exact .cons ⟨hcc, rfl, by show (if _ then _ else _) = (if _ then _ else _); rw [hkr], hk⟩ hl
      cases hcc with
      | store hk =>
        rename_i k k'
        exact ih s (hobs s ⟨[], []⟩ k k' hk) hk
      | same hc =>
        obtain ⟨r, hr, -⟩ := C77_call env (s.on m) c hc
        have e1 : c.answer env (s.on m) = _ := hr m (fun _ => rfl)
        have e2 : c.answer env (s.on m') = _ := hr m' hm.shape
        dsimp only
        rw [e1, e2]
        cases r with
        | ok x =>
          have hk : Mem.Related R (fun a => m (x.2.2 a)) (fun a => m' (x.2.2 a)) := fun a => hm (x.2.2 a)
          exact ih x.1 (hobs x.1 x.2.1 _ _ hk) hk
        | abort t => exact ⟨hl, rfl⟩
        | exit t => exact ⟨hl, rfl⟩
        | ub t => exact ⟨hl, rfl⟩
        | hang => exact ⟨hl, rfl⟩

/-! ## Examples -/

/-- A matched receive after `H3` (two messages are queued): byte 200 is then the one that was at 100, where the first of them was sent from, whatever it
is. -/
example : ∃ x, (Call.irecv 200 1 (-1) 0 5 1).answer env0 (H3.s.on (mem0.recode (255 - ·))) = .ok x ∧
    x.1.mem 200 = some 254 ∧ x.2.vals = (((Call.irecv 200 1 (-1) 0 5 1).answer env0 H3.s).getD (H3.s, ⟨[], []⟩)).2.vals := by
  refine ⟨_, Res.eq_getD (d := (H3.s, ⟨[], []⟩)) ?_, ?_, ?_⟩ <;> decide +kernel

/-- What a program looks like whose calls do not depend on its data. -/
example : Prog.Related (fun x y => y = x + 7)
    (fun l => if l.length = 0 then some .init else if l.length = 1 then some (.send 100 3 (-1) 0 5 1) else none)
    (fun l => if l.length = 0 then some .init else if l.length = 1 then some (.send 100 3 (-1) 0 5 1) else none) := by
  intro l l' h
  have hl : l.length = l'.length := by induction h with | nil => rfl | cons _ _ ih => simpa using ih
  simp only [hl]
  by_cases h0 : l'.length = 0
  · simp only [h0, if_true]
    exact .inr ⟨_, _, rfl, rfl, .same rfl⟩
  · by_cases h1 : l'.length = 1
    · simp only [h1, if_true]
      exact .inr ⟨_, _, rfl, rfl, .same rfl⟩
    · simp only [h0, h1, if_false]
      exact .inl ⟨trivial, trivial⟩

/-- Memories related to each other but not equal. -/
example : Mem.Related (fun x y => y = x + 7) mem0 (mem0.recode (· + 7)) ∧ mem0.recode (· + 7) 100 = some 8 := by
  refine ⟨fun a => ?_, by decide +kernel⟩
  cases h : mem0 a with
  | none => exact .inl ⟨rfl, by simp [Mem.recode, h]⟩
  | some x => exact .inr ⟨x, x + 7, rfl, by simp [Mem.recode, h], rfl⟩

end MpiSerial
