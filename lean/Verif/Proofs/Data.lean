import Verif.Spec.Data
import Verif.Proofs.Twin

/-!
# Helper lemmas for C77
-/

set_option autoImplicit false
set_option linter.unusedSimpArgs false

namespace MpiSerial

/-- `f`, run over any memory with the accessible addresses `d`, ends in one way: what it hands back is put
together (by `e`) from something that does not depend on the memory, and the memory with its bytes moved. -/
def Blind {S A : Type} (e : S → Mem → A) (d : Mem) (f : Mem → Res A) : Prop :=
  ∃ r : Res (S × (Int → Int)), (∀ m, m.SameShape d → f m = r >>= fun x => .ok (e x.1 (m ∘ x.2))) ∧
    ∀ x, r = .ok x → ∀ a, (d (x.2 a)).isSome = (d a).isSome

theorem Mem.SameShape.comp {m d : Mem} (h : m.SameShape d) {σ : Int → Int} (hσ : ∀ a, (d (σ a)).isSome = (d a).isSome) :
    Mem.SameShape (m ∘ σ) d := fun a => (h (σ a)).trans (hσ a)

namespace Blind

variable {S S' A B β : Type} {e : S → Mem → A} {e' : S' → Mem → B} {d : Mem}

theorem ret {f : Mem → Res A} (x : S) (h : ∀ m, f m = .ok (e x m) := by intro _; rfl) : Blind e d f :=
  ⟨.ok (x, id), fun m _ => h m, by rintro _ ⟨⟩ a; rfl⟩

theorem abort {t : String} : Blind e d (fun _ => Res.abort t) := ⟨.abort t, fun _ _ => rfl, nofun⟩
theorem exit {t : Int} : Blind e d (fun _ => Res.exit t) := ⟨.exit t, fun _ _ => rfl, nofun⟩
theorem ub {t : UB} : Blind e d (fun _ => Res.ub t) := ⟨.ub t, fun _ _ => rfl, nofun⟩
theorem hang : Blind e d (fun _ => Res.hang) := ⟨.hang, fun _ _ => rfl, nofun⟩

/-- One thing after the other. -/
theorem bind {f : Mem → Res A} {g : A → Res B} (h : Blind e d f) (k : ∀ x, Blind e' d (fun m => g (e x m))) :
    Blind e' d (fun m => f m >>= g) := by
  obtain ⟨r, hr, hd⟩ := h
  cases r with
  | ok x =>
    obtain ⟨r', hr', hd'⟩ := k x.1
    refine ⟨r' >>= fun y => .ok (y.1, x.2 ∘ y.2), fun m hm => ?_, ?_⟩
    · dsimp only
      rw [hr m hm]
      simp only [Res.ok_bind, bind_assoc]
      exact hr' (m ∘ x.2) (hm.comp (hd x rfl))
    · intro y hy a
      obtain ⟨z, hz, hy⟩ := Res.bind_eq_ok.mp hy
      cases hy
      exact (hd x rfl _).trans (hd' z hz a)
  | abort t => exact ⟨.abort t, fun m hm => by dsimp only; rw [hr m hm]; rfl, nofun⟩
  | exit t => exact ⟨.exit t, fun m hm => by dsimp only; rw [hr m hm]; rfl, nofun⟩
  | ub t => exact ⟨.ub t, fun m hm => by dsimp only; rw [hr m hm]; rfl, nofun⟩
  | hang => exact ⟨.hang, fun m hm => by dsimp only; rw [hr m hm]; rfl, nofun⟩

/-- Something that does not look at the memory first. -/
theorem skip {X : Res β} {g : Mem → β → Res A} (k : ∀ b, Blind e d (fun m => g m b)) : Blind e d (fun m => X >>= g m) := by
  cases X with
  | ok b => exact k b
  | abort t => exact abort
  | exit t => exact exit
  | ub t => exact ub
  | hang => exact hang

theorem ite {p : Prop} [Decidable p] {f g : Mem → Res A} (hf : Blind e d f) (hg : Blind e d g) :
    Blind e d (fun m => if p then f m else g m) := by
  by_cases h : p
  · simpa only [h, if_true] using hf
  · simpa only [h, if_false] using hg

theorem congr {f g : Mem → Res A} (h : Blind e d f) (hfg : ∀ m, m.SameShape d → g m = f m) : Blind e d g := by
  obtain ⟨r, hr, hd⟩ := h
  exact ⟨r, fun m hm => (hfg m hm).trans (hr m hm), hd⟩

end Blind

/-! ## Copying -/

/-- Only the memory. -/
def onlyMem : Unit → Mem → Mem := fun _ m => m
/-- The memory and something that does not depend on it. -/
def memAnd {β : Type} : β → Mem → Mem × β := fun b m => (m, b)

theorem memcpy_blind (d : Mem) (dst src : Int) (n : Nat) : Blind onlyMem d (fun m => memcpy m dst src n) := by
  unfold memcpy
  refine .ite (.ret ()) ?_
  have hread : ∀ m : Mem, m.SameShape d → ∀ p, (m.readable p n ↔ d.readable p n) := fun m hm p => by
    unfold Mem.readable; simp only [hm _]
  by_cases hr : d.readable dst n ∧ d.readable src n
  · refine .congr (f := fun m => if dst < src + n ∧ src < dst + n then .ub .overlap
        else .ok (fun a => if dst ≤ a ∧ a < dst + n then m (src + (a - dst)) else m a)) ?_ ?_
    · refine .ite .ub ⟨.ok ((), fun a => if dst ≤ a ∧ a < dst + n then src + (a - dst) else a), fun m hm => ?_, ?_⟩
      · simp only [Res.ok_bind, onlyMem, Res.ok.injEq]
        funext a
        simp only [Function.comp_apply]
        split <;> rfl
      · rintro _ ⟨⟩ a
        show (d (if dst ≤ a ∧ a < dst + n then src + (a - dst) else a)).isSome = (d a).isSome
        split
        · rename_i ha
          have h1 := hr.1 (a - dst).toNat (by omega)
          have h2 := hr.2 (a - dst).toNat (by omega)
          rw [show dst + ((a - dst).toNat : Int) = a by omega] at h1
          rw [show src + ((a - dst).toNat : Int) = src + (a - dst) by omega] at h2
          rw [h1, h2]
        · rfl
    · intro m hm
      rw [if_neg (by rw [hread m hm, hread m hm]; exact not_not_intro hr)]
  · refine .congr (f := fun _ => .ub .memAccess) .ub ?_
    intro m hm
    rw [if_pos (by rw [hread m hm, hread m hm]; exact hr)]

theorem copyLoop_blind (d : Mem) (cfg : Cfg) (source : Int) (st : Typestruct) (sext dest : Int) (dt : Typestruct) (dext : Int)
    (n : Nat) : ∀ i, Blind onlyMem d (fun m => copyLoop cfg source st sext dest dt dext n i m) := by
  induction n with
  | zero => intro i; exact .ret ()
  | succ n ih =>
    intro i
    unfold copyLoop
    refine .skip fun _ => .skip fun _ => .skip fun _ => .skip fun _ => .ite .exit (.skip fun _ => ?_)
    exact .bind (memcpy_blind d _ _ _) fun _ => ih (i + 1)

theorem Pcopy_data2_blind (d : Mem) (cfg : Cfg) (source src_count : Int) (st : Typestruct) (dest dest_count : Int)
    (dt : Typestruct) : Blind onlyMem d (fun m => Pcopy_data2 cfg m source src_count st dest dest_count dt) := by
  unfold Pcopy_data2
  refine .ite .exit (.skip fun _ => .skip fun _ => .ite .exit (.skip fun _ => .skip fun _ => ?_))
  exact copyLoop_blind ..

theorem packEntries_blind (d : Mem) (cfg : Cfg) (inbuf : Int) (t : Typestruct) (extent outbuf outsize : Int) (i n : Nat) :
    ∀ j position, Blind memAnd d (fun m => packEntries cfg inbuf t extent outbuf outsize i n j (m, position)) := by
  induction n with
  | zero => intro j p; exact .ret p
  | succ n ih =>
    intro j p
    unfold packEntries
    refine .skip fun _ => .skip fun _ => .skip fun e => .ite .exit ?_
    exact .bind (memcpy_blind d _ _ _) fun _ => ih (j + 1) e

theorem packLoop_blind (d : Mem) (cfg : Cfg) (inbuf : Int) (t : Typestruct) (extent outbuf outsize : Int) (n : Nat) :
    ∀ i position, Blind memAnd d (fun m => packLoop cfg inbuf t extent outbuf outsize n i (m, position)) := by
  induction n with
  | zero => intro i p; exact .ret p
  | succ n ih =>
    intro i p
    unfold packLoop
    exact .bind (packEntries_blind ..) fun p' => ih (i + 1) p'

theorem Pack_blind (d : Mem) (cfg : Cfg) (inbuf incount : Int) (t : Typestruct) (outbuf outsize position : Int) :
    Blind memAnd d (fun m => Pack cfg m inbuf incount t outbuf outsize position) := by
  unfold Pack
  exact .skip fun _ => packLoop_blind ..

theorem unpackEntries_blind (d : Mem) (cfg : Cfg) (inbuf insize outbuf : Int) (t : Typestruct) (extent : Int) (i n : Nat) :
    ∀ j position, Blind memAnd d (fun m => unpackEntries cfg inbuf insize outbuf t extent i n j (m, position)) := by
  induction n with
  | zero => intro j p; exact .ret p
  | succ n ih =>
    intro j p
    unfold unpackEntries
    refine .skip fun _ => .skip fun _ => .skip fun e => .ite .exit ?_
    exact .bind (memcpy_blind d _ _ _) fun _ => ih (j + 1) e

theorem unpackLoop_blind (d : Mem) (cfg : Cfg) (inbuf insize outbuf : Int) (t : Typestruct) (extent : Int) (n : Nat) :
    ∀ i position, Blind memAnd d (fun m => unpackLoop cfg inbuf insize outbuf t extent n i (m, position)) := by
  induction n with
  | zero => intro i p; exact .ret p
  | succ n ih =>
    intro i p
    unfold unpackLoop
    exact .bind (unpackEntries_blind ..) fun p' => ih (i + 1) p'

theorem Unpack_blind (d : Mem) (cfg : Cfg) (inbuf insize position outbuf outcount : Int) (t : Typestruct) :
    Blind memAnd d (fun m => Unpack cfg m inbuf insize position outbuf outcount t) := by
  unfold Unpack
  exact .skip fun _ => unpackLoop_blind ..

/-! ## The state of the library -/

/-- The state over a memory. -/
def sysOn : Sys → Mem → Sys := Sys.on
/-- The state over a memory, and something that does not depend on it. -/
def sysAnd {β : Type} : Sys × β → Mem → Sys × β := fun x m => (x.1.on m, x.2)
def testOn : TestRes → Mem → TestRes := fun x m => { x with sys := x.sys.on m }
def arrOn : ArrRes → Mem → ArrRes := fun x m => { x with sys := x.sys.on m }
def arrAnd : ArrRes × Int → Mem → ArrRes × Int := fun x m => (arrOn x.1 m, x.2)
def someOn : SomeRes → Mem → SomeRes := fun x m => { x with arr := arrOn x.arr m }

variable {d : Mem}

@[simp] theorem Sys.on_comm (s : Sys) (m : Mem) (p : Option Loc) : (s.on m).comm p = s.comm p := by cases p <;> rfl
@[simp] theorem Sys.on_req (s : Sys) (m : Mem) (p : Option Loc) : (s.on m).req p = s.req p := by cases p <;> rfl
@[simp] theorem Sys.on_handles (s : Sys) (m : Mem) : (s.on m).handles = s.handles := rfl
@[simp] theorem Sys.on_lists (s : Sys) (m : Mem) : (s.on m).lists = s.lists := rfl
@[simp] theorem Sys.on_theap (s : Sys) (m : Mem) : (s.on m).theap = s.theap := rfl
@[simp] theorem Sys.on_nextType (s : Sys) (m : Mem) : (s.on m).nextType = s.nextType := rfl
@[simp] theorem Sys.on_num (s : Sys) (m : Mem) : (s.on m).num = s.num := rfl
@[simp] theorem Sys.on_clock (s : Sys) (m : Mem) : (s.on m).clock = s.clock := rfl
@[simp] theorem Sys.on_mem (s : Sys) (m : Mem) : (s.on m).mem = m := rfl
@[simp] theorem derefType_on (env : Env) (s : Sys) (m : Mem) (p : TPtr) : derefType env (s.on m) p = derefType env s p := by
  cases p <;> rfl
@[simp] theorem match_recv_on (s : Sys) (m : Mem) (tag : Int) : mpi_match_recv (s.on m) tag = mpi_match_recv s tag := by
  funext r; unfold mpi_match_recv; rw [Sys.on_req]
@[simp] theorem match_send_on (s : Sys) (m : Mem) (tag : Int) : mpi_match_send (s.on m) tag = mpi_match_send s tag := by
  funext r; unfold mpi_match_send; rw [Sys.on_req]

theorem ptr_blind (s : Sys) (h : Int) : Blind sysAnd d (fun m => (s.on m).ptr h) := by
  unfold Sys.ptr
  simp only [Sys.on_handles]
  exact .skip fun x => .ret ({ s with handles := x.1 }, x.2)

theorem modReq_blind (s : Sys) (l : Loc) (f : ReqRec → ReqRec) : Blind sysOn d (fun m => (s.on m).modReq l f) := by
  unfold Sys.modReq
  simp only [Sys.on_req]
  exact .skip fun r => .ret { s with handles := s.handles.setData l (.req (f r)) }

theorem allocReq_blind (env : Env) (s : Sys) : Blind sysAnd d (fun m => (s.on m).allocReq env) := by
  unfold Sys.allocReq
  simp only [Sys.on_handles]
  refine .skip fun x => ?_
  exact .ret
    ({ s with handles := x.1.setData x.2.2 (.req (match (x.1.items x.2.2).data with | .req r => r | _ => env.junk s.clock)),
              clock := s.clock + 1 }, x.2.1, x.2.2)

theorem handleToDatatype_blind (s : Sys) (h : Int) : Blind sysAnd d (fun m => handleToDatatype (s.on m) h) := by
  unfold handleToDatatype
  refine .ite (.skip fun p => .ret (s, p)) (.bind (ptr_blind s h) ?_)
  rintro ⟨s, p⟩
  cases p with
  | none => exact .ub
  | some l =>
    simp only [sysAnd, Sys.on_handles]
    refine .skip fun it => ?_
    cases it.data with
    | dtype p => exact .ret (s, p)
    | _ => exact .ub

theorem typeOf_blind (env : Env) (s : Sys) (h : Int) : Blind sysAnd d (fun m => typeOf env (s.on m) h) := by
  unfold typeOf
  refine .bind (handleToDatatype_blind s h) ?_
  rintro ⟨s, p⟩
  simp only [sysAnd, derefType_on]
  exact .skip fun t => .ret (s, t)

theorem newType_blind (env : Env) (s : Sys) (build : Garbage → Res Typestruct) :
    Blind sysAnd d (fun m => newType env (s.on m) build) := by
  unfold newType
  simp only [Sys.on_handles, Sys.on_nextType]
  refine .skip fun x => .skip fun ty => ?_
  exact .ret
    ({ s with handles := x.1.setData x.2.2 (.dtype (.heap s.nextType)),
              theap := fun q => if q = s.nextType then some ty else s.theap q, nextType := s.nextType + 1 }, x.2.1)

/-- Reading a datatype and then doing something with it. -/
theorem typeOf_then {S A : Type} {e : S → Mem → A} (env : Env) (s : Sys) (h : Int) {g : Sys × Typestruct → Res A}
    (k : ∀ (s : Sys) t, Blind e d (fun m => g (s.on m, t))) : Blind e d (fun m => typeOf env (s.on m) h >>= g) :=
  .bind (typeOf_blind env s h) fun x => k x.1 x.2

theorem structTypes_blind (env : Env) (olds : List Int) (n : Nat) :
    ∀ i (s : Sys), Blind sysAnd d (fun m => structTypes env olds n i (s.on m)) := by
  induction n with
  | zero => intro i s; exact .ret (s, [])
  | succ n ih =>
    intro i s
    unfold structTypes
    refine .skip fun h => typeOf_then env s h fun s t => .bind (ih (i + 1) s) ?_
    rintro ⟨s, ts⟩
    exact .ret (s, t :: ts)

theorem Type_struct_blind (env : Env) (s : Sys) (count : Int) (b ds o : List Int) :
    Blind sysAnd d (fun m => MPI_Type_struct env (s.on m) count b ds o) := by
  unfold MPI_Type_struct
  refine .skip fun n => .bind (structTypes_blind env o n 0 s) ?_
  rintro ⟨s, ts⟩
  exact newType_blind ..

theorem Type_commit_blind (env : Env) (s : Sys) (h : Int) : Blind sysOn d (fun m => MPI_Type_commit env (s.on m) h) := by
  unfold MPI_Type_commit
  refine .bind (handleToDatatype_blind s h) ?_
  rintro ⟨s, p⟩
  simp only [sysAnd, derefType_on]
  refine .skip fun t => ?_
  cases p with
  | heap q => exact .ret { s with theap := fun q' => if q' = q then some { t with committed := 1 } else s.theap q' }
  | _ => exact .ret s

theorem freeType_blind (s : Sys) (p : TPtr) : Blind sysOn d (fun m => freeType (s.on m) p) := by
  unfold freeType
  cases p with
  | null => exact .ret s
  | static k => exact .ub
  | heap q =>
    simp only [Sys.on_theap]
    cases s.theap q with
    | none => exact .ub
    | some t => exact .ret { s with theap := fun q' => if q' = q then none else s.theap q' }

theorem Type_free_blind (s : Sys) (h : Int) : Blind sysOn d (fun m => MPI_Type_free (s.on m) h) := by
  unfold MPI_Type_free
  refine .bind (handleToDatatype_blind s h) ?_
  rintro ⟨s, p⟩
  refine .bind (freeType_blind s p) fun s => ?_
  simp only [sysOn, Sys.on_handles]
  exact .skip fun t => .ret { s with handles := t }

theorem Type_extent_blind (env : Env) (s : Sys) (h : Int) : Blind sysAnd d (fun m => MPI_Type_extent env (s.on m) h) :=
  typeOf_then env s h fun s _ => .skip fun x => .ret (s, x)

theorem copy_data2_blind (env : Env) (s : Sys) (a b c x y z : Int) :
    Blind sysOn d (fun m => copy_data2 env (s.on m) a b c x y z) := by
  unfold copy_data2
  refine .bind (handleToDatatype_blind s c) ?_
  rintro ⟨s, p⟩
  refine .bind (handleToDatatype_blind s z) ?_
  rintro ⟨s, q⟩
  simp only [sysAnd, derefType_on, Sys.on_mem]
  refine .skip fun t => .skip fun t' => .congr (f := fun m => Pcopy_data2 env.cfg m a b t x y t' >>= fun m' => .ok (s.on m')) ?_
    fun m _ => rfl
  exact .bind (Pcopy_data2_blind d _ _ _ _ _ _ _) fun _ => .ret s

theorem Pack_sys_blind (env : Env) (s : Sys) (a b t x y z comm : Int) :
    Blind sysAnd d (fun m => MPI_Pack env (s.on m) a b t x y z comm) := by
  unfold MPI_Pack
  refine typeOf_then env s t fun s ty => .bind (ptr_blind s comm) ?_
  rintro ⟨s, p⟩
  refine .congr (f := fun m => Pack env.cfg m a b ty x y z >>= fun r => .ok (s.on r.1, r.2)) ?_ fun m _ => rfl
  exact .bind (Pack_blind d _ _ _ _ _ _ _) fun pos => .ret (s, pos)

theorem Unpack_sys_blind (env : Env) (s : Sys) (a b c x y t comm : Int) :
    Blind sysAnd d (fun m => MPI_Unpack env (s.on m) a b c x y t comm) := by
  unfold MPI_Unpack
  refine typeOf_then env s t fun s ty => .bind (ptr_blind s comm) ?_
  rintro ⟨s, p⟩
  refine .congr (f := fun m => Unpack env.cfg m a b c x y ty >>= fun r => .ok (s.on r.1, r.2)) ?_ fun m _ => rfl
  exact .bind (Unpack_blind d _ _ _ _ _ _ _) fun pos => .ret (s, pos)

theorem comm_new_blind (s : Sys) : Blind sysAnd d (fun m => mpi_comm_new (s.on m)) := by
  unfold mpi_comm_new
  simp only [Sys.on_handles, Sys.on_lists, Sys.on_num]
  refine .skip fun x => .skip fun y => .skip fun z => .skip fun n => ?_
  exact .ret ({ s with handles := x.1.setData x.2.2 (.comm ⟨y.2, z.2, s.num⟩), lists := z.1, num := n }, x.2.1)

theorem Comm_free_blind (s : Sys) (c : Int) : Blind sysAnd d (fun m => MPI_Comm_free (s.on m) c) := by
  unfold MPI_Comm_free
  refine .bind (ptr_blind s c) ?_
  rintro ⟨s, p⟩
  simp only [sysAnd, Sys.on_comm, Sys.on_lists, Sys.on_handles]
  refine .skip fun c => .skip fun _ => .skip fun h => .skip fun _ => .skip fun h' => .skip fun t => ?_
  exact .ret ({ s with lists := h', handles := t }, MPI_COMM_NULL)

theorem Init_blind (s : Sys) : Blind sysOn d (fun m => MPI_Init (s.on m)) := by
  unfold MPI_Init
  refine .bind (comm_new_blind s) ?_
  rintro ⟨s, c⟩
  exact .ite .abort (.ret { s with initialized := true })

theorem verify_size_blind (env : Env) (a : FortArgs) (name : String) (p q : Int) (s : Sys) (err : Int) :
    Blind sysAnd d (fun m => verify_size env a name p q (s.on m) err) := by
  unfold verify_size
  exact typeOf_then env s _ fun s t => .skip fun x => .skip fun len =>
    .ret (s, if s32 (s64 (q - p)) ≠ len then 1 else err)

theorem init_fort_blind (env : Env) (a : FortArgs) (s : Sys) : Blind sysOn d (fun m => mpi_init_fort env a (s.on m)) := by
  unfold mpi_init_fort
  refine .bind (Init_blind s) fun s => ?_
  unfold mpi_init_fort_checks
  refine .skip fun _ => .skip fun _ => .skip fun _ => ?_
  refine .bind (verify_size_blind env a _ _ _ s _) ?_
  rintro ⟨s, _⟩
  refine .bind (verify_size_blind env a _ _ _ s _) ?_
  rintro ⟨s, _⟩
  refine .bind (verify_size_blind env a _ _ _ s _) ?_
  rintro ⟨s, _⟩
  refine .bind (verify_size_blind env a _ _ _ s _) ?_
  rintro ⟨s, _⟩
  refine .bind (verify_size_blind env a _ _ _ s _) ?_
  rintro ⟨s, _⟩
  exact .ite .abort (.ret s)

/-! ## Messages -/

theorem sendMatched_blind (env : Env) (s : Sys) (buf count dt tag : Int) (rl item : Nat) (l : Loc) :
    Blind sysOn d (fun m => sendMatched env (s.on m) buf count dt tag rl item l) := by
  unfold sendMatched
  simp only [Sys.on_lists]
  refine .skip fun r => .skip fun lists => ?_
  refine .congr (f := fun m => ({ s with lists := lists } : Sys).req (some r) >>= fun q =>
    copy_data2 env (({ s with lists := lists } : Sys).on m) buf count dt q.buf q.count q.type >>= fun s =>
    s.modReq r (fun r => { r with complete := 1, source := 0, tag := tag }) >>= fun s =>
    s.modReq l (fun r => { r with complete := 1 })) ?_ fun m _ => rfl
  exact .skip fun q => .bind (copy_data2_blind ..) fun s => .bind (modReq_blind s _ _) fun s => modReq_blind s _ _

theorem recvMatched_blind (env : Env) (s : Sys) (buf count dt : Int) (rl item : Nat) (l : Loc) :
    Blind sysOn d (fun m => recvMatched env (s.on m) buf count dt rl item l) := by
  unfold recvMatched
  simp only [Sys.on_lists]
  refine .skip fun r => .skip fun lists => ?_
  refine .congr (f := fun m => ({ s with lists := lists } : Sys).req (some r) >>= fun q =>
    copy_data2 env (({ s with lists := lists } : Sys).on m) q.buf count dt buf count dt >>= fun s =>
    s.req (some r) >>= fun q =>
    s.modReq l (fun r => { r with complete := 1, source := 0, tag := q.tag }) >>= fun s =>
    s.modReq r (fun r => { r with complete := 1 })) ?_ fun m _ => rfl
  refine .skip fun q => .bind (copy_data2_blind ..) fun s => ?_
  simp only [sysOn, Sys.on_req]
  exact .skip fun q => .bind (modReq_blind s _ _) fun s => modReq_blind s _ _

theorem sendQueued_blind (s : Sys) (buf tag : Int) (sl : Nat) (l : Loc) :
    Blind sysOn d (fun m => sendQueued (s.on m) buf tag sl l) := by
  unfold sendQueued
  refine .bind (modReq_blind s _ _) fun s => ?_
  simp only [sysOn, Sys.on_lists]
  refine .skip fun x => ?_
  exact .congr (modReq_blind { s with lists := x.1 } l fun r => { r with listitem := some x.2 }) fun m _ => rfl

theorem recvQueued_blind (s : Sys) (buf tag : Int) (sl : Nat) (l : Loc) :
    Blind sysOn d (fun m => recvQueued (s.on m) buf tag sl l) := by
  unfold recvQueued
  refine .bind (modReq_blind s _ _) fun s => ?_
  simp only [sysOn, Sys.on_lists]
  refine .skip fun x => ?_
  exact .congr (modReq_blind { s with lists := x.1 } l fun r => { r with listitem := some x.2 }) fun m _ => rfl

theorem Isend_blind (env : Env) (s : Sys) (buf count dt dest tag comm : Int) :
    Blind sysAnd d (fun m => MPI_Isend env (s.on m) buf count dt dest tag comm) := by
  unfold MPI_Isend
  refine .bind (ptr_blind s comm) ?_
  rintro ⟨s, p⟩
  refine .ite .abort (.bind (allocReq_blind env s) ?_)
  rintro ⟨s, h, l⟩
  refine .ite (.bind (modReq_blind s _ _) fun s => .ret (s, h)) ?_
  simp only [sysAnd, Sys.on_comm, Sys.on_lists, match_recv_on]
  refine .skip fun c => .skip fun found => ?_
  cases found with
  | none => exact .bind (sendQueued_blind ..) fun s => .ret (s, h)
  | some item => exact .bind (sendMatched_blind ..) fun s => .ret (s, h)

theorem Irecv_blind (env : Env) (s : Sys) (buf count dt src tag comm : Int) :
    Blind sysAnd d (fun m => MPI_Irecv env (s.on m) buf count dt src tag comm) := by
  unfold MPI_Irecv
  refine .bind (ptr_blind s comm) ?_
  rintro ⟨s, p⟩
  refine .ite .abort (.bind (allocReq_blind env s) ?_)
  rintro ⟨s, h, l⟩
  refine .bind (modReq_blind s _ _) fun s => .ite (.bind (modReq_blind s _ _) fun s => .ret (s, h)) ?_
  simp only [sysOn, Sys.on_comm, Sys.on_lists, match_send_on]
  refine .skip fun c => .skip fun found => ?_
  cases found with
  | none => exact .bind (recvQueued_blind ..) fun s => .ret (s, h)
  | some item => exact .bind (recvMatched_blind ..) fun s => .ret (s, h)

theorem Test_blind (s : Sys) (r : Int) (st : StPtr) : Blind testOn d (fun m => MPI_Test (s.on m) r st) := by
  unfold MPI_Test
  refine .ite (.skip fun st => .ret ⟨s, r, 1, st⟩) (.bind (ptr_blind s r) ?_)
  rintro ⟨s, p⟩
  simp only [sysAnd, Sys.on_req, Sys.on_handles]
  refine .skip fun q => .ite (.skip fun st => .skip fun t => ?_) (.ret ⟨s, r, q.complete, st⟩)
  exact .ret ⟨{ s with handles := t }, MPI_REQUEST_NULL, q.complete, st⟩

theorem Wait_blind (s : Sys) (r : Int) (st : StPtr) : Blind sysAnd d (fun m => MPI_Wait (s.on m) r st) :=
  .bind (Test_blind s r st) fun x => .ite (p := x.flag = 0) .abort (.ret (x.sys, x.request, x.status))

theorem Request_free_blind (s : Sys) (r : Int) : Blind sysAnd d (fun m => MPI_Request_free (s.on m) r) := by
  unfold MPI_Request_free
  simp only [Sys.on_handles]
  exact .skip fun t => .ret ({ s with handles := t }, MPI_REQUEST_NULL)

theorem Send_blind (env : Env) (s : Sys) (buf count dt dest tag comm : Int) :
    Blind sysOn d (fun m => MPI_Send env (s.on m) buf count dt dest tag comm) :=
  .bind (Isend_blind env s ..) fun x => .bind (Wait_blind x.1 x.2 _) fun y => .ret y.1

theorem Irsend_blind (env : Env) (s : Sys) (buf count dt dest tag comm : Int) :
    Blind sysAnd d (fun m => MPI_Irsend env (s.on m) buf count dt dest tag comm) := by
  unfold MPI_Irsend
  refine .bind (Isend_blind env s ..) ?_
  rintro ⟨s, h⟩
  refine .bind (ptr_blind s h) ?_
  rintro ⟨s, p⟩
  simp only [sysAnd, Sys.on_req]
  exact .skip fun q => .ite .abort (.ret (s, h))

theorem Recv_blind (env : Env) (s : Sys) (buf count dt src tag comm : Int) (st : StPtr) :
    Blind sysAnd d (fun m => MPI_Recv env (s.on m) buf count dt src tag comm st) := by
  unfold MPI_Recv
  refine .bind (Irecv_blind env s ..) ?_
  rintro ⟨s, h⟩
  refine .bind (Wait_blind s h st) ?_
  rintro ⟨s, h, st⟩
  cases st with
  | null => exact .ret (s, .null)
  | obj st => exact .ret (s, .obj { st with get_count := count })
  | bad => exact .ub

theorem Sendrecv_blind (env : Env) (s : Sys) (a b c x y a' b' c' x' y' comm : Int) (st : StPtr) :
    Blind sysAnd d (fun m => MPI_Sendrecv env (s.on m) a b c x y a' b' c' x' y' comm st) := by
  unfold MPI_Sendrecv
  refine .bind (Irecv_blind env s ..) ?_
  rintro ⟨s, h⟩
  refine .bind (Send_blind env s ..) fun s => .bind (Wait_blind s h st) ?_
  rintro ⟨s, h, st⟩
  exact .ret (s, st)

theorem Iprobe_blind (s : Sys) (src tag comm : Int) (st : StPtr) :
    Blind sysAnd d (fun m => MPI_Iprobe (s.on m) src tag comm st) := by
  unfold MPI_Iprobe
  refine .bind (ptr_blind s comm) ?_
  rintro ⟨s, p⟩
  simp only [sysAnd, Sys.on_comm, Sys.on_lists, Sys.on_req, match_send_on]
  refine .ite .abort (.skip fun c => .skip fun found => ?_)
  cases found with
  | none => exact .ret (s, 0, st)
  | some item => exact .skip fun l => .skip fun q => .skip fun st => .ret (s, 1, st)

theorem Probe_blind (s : Sys) (src tag comm : Int) (st : StPtr) :
    Blind sysAnd d (fun m => MPI_Probe (s.on m) src tag comm st) :=
  .bind (Iprobe_blind s ..) fun x => .ite .abort (.ret (x.1, x.2.2))

/-! ## Arrays of requests -/

theorem testanyLoop_blind (n : Nat) : ∀ i (s : Sys) reqs st, Blind sysAnd d (fun m => testanyLoop n i (s.on m) reqs st) := by
  induction n with
  | zero => intro i s reqs st; exact .ret (s, reqs, 0, st)
  | succ n ih =>
    intro i s reqs st
    unfold testanyLoop
    refine .skip fun h => .bind (Test_blind s h st) fun x => ?_
    exact .ite (p := x.flag ≠ 0) (.ret (x.sys, reqs.set i x.request, x.flag, x.status)) (ih _ x.sys (reqs.set i x.request) x.status)

theorem Testany_blind (s : Sys) (n : Int) (rs : List Int) (i : Int) (st : StPtr) :
    Blind sysAnd d (fun m => MPI_Testany (s.on m) n rs i st) :=
  .bind (testanyLoop_blind _ 0 s rs st) fun x => .ret (x.1, x.2.1, i, x.2.2.1, x.2.2.2)

theorem Waitany_blind (s : Sys) (n : Int) (rs : List Int) (i : Int) (st : StPtr) :
    Blind sysAnd d (fun m => MPI_Waitany (s.on m) n rs i st) :=
  .bind (Testany_blind s n rs i st) fun x => .ite .abort (.ret (x.1, x.2.1, x.2.2.1, x.2.2.2.2))

theorem testallLoop_blind (n : Nat) :
    ∀ i (s : Sys) reqs sts flag, Blind arrAnd d (fun m => testallLoop n i (s.on m) reqs sts flag) := by
  induction n with
  | zero => intro i s reqs sts flag; exact .ret (⟨s, reqs, sts⟩, flag)
  | succ n ih =>
    intro i s reqs sts flag
    unfold testallLoop
    exact .skip fun h => .skip fun p => .bind (Test_blind s h p) fun x =>
      ih _ x.sys (reqs.set i x.request) (StArr.upd sts i x.status) (if x.flag = 0 then 0 else flag)

theorem waitallLoop_blind (n : Nat) : ∀ i (s : Sys) reqs sts, Blind arrOn d (fun m => waitallLoop n i (s.on m) reqs sts) := by
  induction n with
  | zero => intro i s reqs sts; exact .ret ⟨s, reqs, sts⟩
  | succ n ih =>
    intro i s reqs sts
    unfold waitallLoop
    exact .skip fun h => .skip fun p => .bind (Test_blind s h p) fun x => .ite (p := x.flag = 0) .abort
      (ih _ x.sys (reqs.set i x.request) (StArr.upd sts i x.status))

theorem testsomeLoop_blind (n : Nat) :
    ∀ i (s : Sys) reqs sts k, Blind arrAnd d (fun m => testsomeLoop n i (s.on m) reqs sts k) := by
  induction n with
  | zero => intro i s reqs sts k; exact .ret (⟨s, reqs, sts⟩, k)
  | succ n ih =>
    intro i s reqs sts k
    unfold testsomeLoop
    exact .skip fun h => .skip fun p => .bind (Test_blind s h p) fun x =>
      ih _ x.sys (reqs.set i x.request) (StArr.upd sts i x.status) (if x.flag = 0 then k else k + 1)

theorem Testsome_blind (s : Sys) (n : Int) (rs ix : List Int) (sts : StArr) :
    Blind someOn d (fun m => MPI_Testsome (s.on m) n rs ix sts) :=
  .bind (testsomeLoop_blind _ 0 s rs sts 0) fun x => .ret ⟨x.1, x.2, ix⟩

/-! ## All calls -/

/-- A call that hands back the state and one number. -/
theorem Blind.one {f : Mem → Res (Sys × Int)} (h : Blind sysAnd d f) :
    Blind sysAnd d (fun m => f m >>= fun x => .ok (x.1, (⟨[x.2], []⟩ : Out))) :=
  .bind h fun x => .ret (x.1, ⟨[x.2], []⟩)

/-- A call that hands back the state only. -/
theorem Blind.none {f : Mem → Res Sys} (h : Blind sysOn d f) :
    Blind sysAnd d (fun m => f m >>= fun s => .ok (s, (⟨[], []⟩ : Out))) :=
  .bind h fun x => .ret (x, ⟨[], []⟩)

theorem answer_blind (env : Env) (s : Sys) (c : Call) (hc : c.isStore = false) :
    Blind sysAnd d (fun m => c.answer env (s.on m)) := by
  have hdup : ∀ s : Sys, Blind sysAnd d (fun m => MPI_Comm_dup (s.on m) MPI_COMM_WORLD) := fun s => comm_new_blind s
  have hext := fun (s : Sys) t => Type_extent_blind (d := d) env s t
  have hcopy := fun (s : Sys) a b c x y z => copy_data2_blind (d := d) env s a b c x y z
  cases c with
  | store m => cases hc
  | init => exact .none (Init_blind s)
  | initThread r => exact .one (.bind (Init_blind s) fun s => .ret (s, r))
  | fortInit a => exact .none (init_fort_blind env a s)
  | initialized => exact .ret (s, ⟨[MPI_Initialized s], []⟩)
  | finalize => exact .none (.ret (MPI_Finalize s))
  | abort a b => exact .exit
  | commDup c => exact .one (comm_new_blind s)
  | commCreate c g => exact .one (.ite (.ret (s, MPI_COMM_NULL)) (comm_new_blind s))
  | commSplit a b c => exact .one (.ite (.ret (s, MPI_COMM_NULL)) (comm_new_blind s))
  | intercommCreate a b c x y => exact .one (.ite (.ret (s, MPI_COMM_NULL)) (hdup s))
  | cartCreate c n dims => exact .one (.skip fun _ => comm_new_blind s)
  | commFree c => exact .one (Comm_free_blind s c)
  | isend => exact .one (Isend_blind ..)
  | irsend => exact .one (Irsend_blind ..)
  | send => exact .none (Send_blind ..)
  | irecv => exact .one (Irecv_blind ..)
  | recv => exact .bind (Recv_blind ..) fun x => .ret (x.1, ⟨x.2.vals, []⟩)
  | sendrecv => exact .bind (Sendrecv_blind ..) fun x => .ret (x.1, ⟨x.2.vals, []⟩)
  | iprobe => exact .bind (Iprobe_blind ..) fun x => .ret (x.1, ⟨x.2.1 :: x.2.2.vals, []⟩)
  | probe => exact .bind (Probe_blind ..) fun x => .ret (x.1, ⟨x.2.vals, []⟩)
  | test => exact .bind (Test_blind ..) fun x => .ret (x.sys, .ofDone [x.request, x.flag] [x.status])
  | wait => exact .bind (Wait_blind ..) fun x => .ret (x.1, .ofDone [x.2.1] [x.2.2])
  | requestFree => exact .one (Request_free_blind ..)
  | testany => exact .bind (Testany_blind ..) fun x => .ret (x.1, .ofDone (x.2.2.1 :: x.2.2.2.1 :: x.2.1) [x.2.2.2.2])
  | waitany => exact .bind (Waitany_blind ..) fun x => .ret (x.1, .ofDone (x.2.2.1 :: x.2.1) [x.2.2.2])
  | testall n rs sts =>
    exact .bind (testallLoop_blind n.toNat 0 s rs sts 1) fun x => .ret (x.1.sys, .ofDone (x.2 :: x.1.reqs) x.1.stats.ptrs)
  | waitall n rs sts =>
    exact .bind (waitallLoop_blind n.toNat 0 s rs sts) fun x => .ret (x.sys, .ofDone x.reqs x.stats.ptrs)
  | testsome | waitsome =>
    exact .bind (Testsome_blind ..) fun x => .ret (x.arr.sys, .ofDone (x.outcount :: x.indices ++ x.arr.reqs) x.arr.stats.ptrs)
  | typeContiguous | typeHvector | typeVector | typeHindexed | typeIndexed | typeIndexedBlock =>
    exact .one (typeOf_then env s _ fun s _ => newType_blind env s _)
  | typeStruct => exact .one (Type_struct_blind ..)
  | typeCommit => exact .none (Type_commit_blind ..)
  | typeFree => exact .none (Type_free_blind ..)
  | typeExtent => exact .one (Type_extent_blind ..)
  | typeSize t => exact .one (typeOf_then env s t fun s _ => .skip fun x => .ret (s, x))
  | typeLb t => exact .one (typeOf_then env s t fun s x => .ret (s, Type_lb x))
  | typeUb t => exact .one (typeOf_then env s t fun s x => .ret (s, Type_ub x))
  | getElements st t => exact .one (typeOf_then env s t fun s x => .skip fun n => .ret (s, n))
  | pack => exact .one (Pack_sys_blind ..)
  | packSize n t comm =>
    exact .one (typeOf_then env s t fun s x => .bind (ptr_blind s comm) fun y => .skip fun n => .ret (y.1, n))
  | unpack => exact .one (Unpack_sys_blind ..)
  | barrier => exact .none (.ret s)
  | bcast => exact .none (.ite (.ret s) (.ite .abort (.ret s)))
  | gather | scatter => exact .none (.ite (.ret s) (.ite (.ret s) (.ite .abort (hcopy s ..))))
  | gatherv | scatterv =>
    exact .none (.ite (.ret s) (.ite (.ret s) (.ite .abort (.bind (hext s _) fun x => .skip fun _ => .skip fun _ => hcopy x.1 ..))))
  | allgather | allreduce => exact .none (.ite (.ret s) (hcopy s ..))
  | allgatherv => exact .none (.ite (.ret s) (.bind (hext s _) fun x => .skip fun _ => .skip fun _ => hcopy x.1 ..))
  | reduce => exact .none (.ite .abort (hcopy s ..))
  | reduceScatter => exact .none (.skip fun _ => hcopy s ..)
  | scan | alltoall => exact .none (hcopy s ..)
  | alltoallv =>
    exact .none (.bind (hext s _) fun x => .bind (hext x.1 _) fun y => .skip fun _ => .skip fun _ => .skip fun _ =>
      .skip fun _ => hcopy y.1 ..)
  | alltoallw =>
    exact .none (.skip fun _ => .skip fun _ => .skip fun _ => .skip fun _ => .skip fun _ => .skip fun _ => hcopy s ..)

end MpiSerial
