import Verif.Spec.Kernel
import Verif.Proofs.TwinAll

/-!
# Proofs for C82
-/

set_option linter.unusedSimpArgs false
set_option autoImplicit false

namespace MpiSerial.Kernel

variable {env : Env}

/-! ## The library answers -/

theorem lib_test (s : Sys) (h : Int) (p : StPtr) :
    Engine.lib env s (.test h p) = MPI_Test s h p >>= fun x => .ok (x.sys, .ofDone [x.request, x.flag] [x.status]) := rfl

theorem lib_await (s : Sys) (h : Int) (p : StPtr) : (Engine.lib env).await s h p = MPI_Wait s h p := by
  unfold Engine.await MPI_Wait
  rw [lib_test, bind_assoc]
  rfl

theorem lib_tryEach (n i : Nat) (s : Sys) (rs : List Int) (p : StPtr) :
    (Engine.lib env).tryEach n i s rs p = testanyLoop n i s rs p >>= fun x => .ok (x.1, x.2.2.1, x.2.1, x.2.2.2) := by
  induction n generalizing i s rs p with
  | zero => rfl
  | succ n ih =>
    unfold Engine.tryEach testanyLoop
    rw [bind_assoc]
    congr 1; funext h
    rw [lib_test, bind_assoc, bind_assoc]
    congr 1; funext r
    rw [Res.ok_bind]
    show (if r.flag = 0 then _ else _) = _
    by_cases hf : r.flag = 0
    · rw [if_pos hf, if_neg (by simpa using hf)]
      exact ih ..
    · rw [if_neg hf, if_pos hf]
      rfl

theorem testall_each (n i : Nat) (s : Sys) (rs : List Int) (sts : StArr) (f : Int) :
    testallLoop n i s rs sts f = (Engine.lib env).testEach false n i s rs sts >>= fun x => .ok (⟨x.1, x.2.2.1, x.2.2.2⟩, if 0 ∈ x.2.1 then 0 else f) := by
  induction n generalizing i s rs sts f with
  | zero => rfl
  | succ n ih =>
    unfold Engine.testEach testallLoop
    rw [bind_assoc]
    congr 1; funext h
    rw [bind_assoc]
    congr 1; funext p
    rw [lib_test, bind_assoc, bind_assoc]
    congr 1; funext r
    rw [Res.ok_bind]
    dsimp only
    have hn : ¬ (false = true ∧ (Out.ofDone [r.request, r.flag] [r.status]).flag = 0) := fun h => nomatch h.1
    rw [if_neg hn, ih, bind_assoc]
    congr 1; funext x
    show _ = Res.ok _
    have hf : (Out.ofDone [r.request, r.flag] [r.status]).flag = r.flag := rfl
    rw [hf]
    congr 2
    by_cases h0 : r.flag = 0
    · rw [h0]; simp
    · simp only [h0, if_false, List.mem_cons, Ne.symm h0, false_or]

theorem testsome_each (n i : Nat) (s : Sys) (rs : List Int) (sts : StArr) (k : Int) :
    testsomeLoop n i s rs sts k = (Engine.lib env).testEach false n i s rs sts >>= fun x =>
      .ok (⟨x.1, x.2.2.1, x.2.2.2⟩, k + (x.2.1.countP (· ≠ 0) : Int)) := by
  induction n generalizing i s rs sts k with
  | zero => show _ = Res.ok _; rw [testsomeLoop]; congr 2; exact (Int.add_zero k).symm
  | succ n ih =>
    unfold Engine.testEach testsomeLoop
    rw [bind_assoc]
    congr 1; funext h
    rw [bind_assoc]
    congr 1; funext p
    rw [lib_test, bind_assoc, bind_assoc]
    congr 1; funext r
    rw [Res.ok_bind]
    dsimp only
    have hn : ¬ (false = true ∧ (Out.ofDone [r.request, r.flag] [r.status]).flag = 0) := fun h => nomatch h.1
    rw [if_neg hn, ih, bind_assoc]
    congr 1; funext x
    show _ = Res.ok _
    have hf : (Out.ofDone [r.request, r.flag] [r.status]).flag = r.flag := rfl
    rw [hf]
    congr 2
    by_cases h0 : r.flag = 0
    · simp [h0]
    · obtain ⟨_, fl, _, _⟩ := x
      simp [h0, List.countP_cons]; omega

theorem waitall_each (n i : Nat) (s : Sys) (rs : List Int) (sts : StArr) :
    waitallLoop n i s rs sts = (Engine.lib env).testEach true n i s rs sts >>= fun x => .ok ⟨x.1, x.2.2.1, x.2.2.2⟩ := by
  induction n generalizing i s rs sts with
  | zero => rfl
  | succ n ih =>
    unfold Engine.testEach waitallLoop
    rw [bind_assoc]
    congr 1; funext h
    rw [bind_assoc]
    congr 1; funext p
    rw [lib_test, bind_assoc, bind_assoc]
    congr 1; funext r
    rw [Res.ok_bind]
    dsimp only
    have hf : (Out.ofDone [r.request, r.flag] [r.status]).flag = r.flag := rfl
    rw [hf]
    by_cases h0 : r.flag = 0
    · rw [if_pos h0, if_pos ⟨rfl, h0⟩]; rfl
    · rw [if_neg h0, if_neg (fun h => h0 h.2), ih, bind_assoc]
      rfl

/-! ## Arithmetic -/

theorem s32_displ (d e : Int) : s32 (d * e) = displOffset d e := by
  unfold displOffset s32 u64
  have h : (d % 18446744073709551616 * e) % 18446744073709551616 = (d * e) % 18446744073709551616 := by
    rw [Int.mul_emod, Int.emod_emod, ← Int.mul_emod]
  rw [h]
  omega

theorem cart_check (dims : List Int) (n i : Nat) :
    cartCheck dims n i =
      if ((dims.drop i).take n).any (fun d => 1 < d) then .abort "MPI_Cart_create: Greater dimension than no. of procs"
      else if (dims.drop i).length < n then .ub .memAccess else .ok () := by
  induction n generalizing i with
  | zero => simp [cartCheck]
  | succ n ih =>
    unfold cartCheck
    by_cases hi : i < dims.length
    · rw [List.drop_eq_getElem_cons hi]
      have : rd dims i = .ok dims[i] := by unfold rd; rw [List.getElem?_eq_getElem hi]
      rw [this, Res.ok_bind]
      by_cases hd : dims[i] > 1
      · rw [if_pos hd, if_pos (by rw [List.take_succ_cons, List.any_cons, decide_eq_true hd, Bool.true_or])]
      · rw [if_neg hd, ih]
        rw [List.take_succ_cons, List.any_cons, List.length_cons]
        have hb : decide (1 < dims[i]) = false := by simp; omega
        rw [hb, Bool.false_or]
        simp only [Nat.add_lt_add_iff_right]
    · rw [List.drop_eq_nil_of_le (by omega)]
      have : rd dims i = .ub .memAccess := by unfold rd; rw [List.getElem?_eq_none (by omega)]
      rw [this]
      simp

/-! ## Calls other than the datatype constructors -/

theorem lib_move (s : Sys) (a b c d e f comm : Int) :
    (Engine.lib env).move s a b c d e f comm = copy_data2 env s a b c d e f >>= fun s' => .ok (s', ⟨[], []⟩) := rfl

theorem lib_item {β : Type} (s : Sys) (buf : Int) (ds : List Int) (t : Int) (k : Sys × Int → Res β) :
    ((Engine.lib env).item s buf ds t >>= k) = MPI_Type_extent env s t >>= fun x => rd ds 0 >>= fun d => k (x.1, padd buf (displOffset d x.2)) := by
  show ((MPI_Type_extent env s t >>= _) >>= _) >>= _ = _
  rw [bind_assoc, bind_assoc]
  congr 1; funext x
  rw [Res.ok_bind]
  show (rd ds 0 >>= _) >>= k = _
  rw [bind_assoc]
  congr 1; funext d
  show k _ = _
  rw [s32_displ]
  rfl

theorem lib_root (name : String) (root : Int) (s : Sys) (act : Res (Sys × Out)) (x : Res Sys) (h : act = x >>= fun s' => .ok (s', ⟨[], []⟩)) :
    Engine.atRoot name root s act = (if root = MPI_ROOT then .ok s else if root ≠ 0 then .abort (name ++ ": bad root") else x) >>= fun s' => .ok (s', ⟨[], []⟩) := by
  unfold Engine.atRoot
  by_cases h1 : root = MPI_ROOT
  · rw [if_pos h1, if_pos h1]; rfl
  · rw [if_neg h1, if_neg h1]
    by_cases h2 : root = 0
    · rw [if_pos h2, if_neg (by simpa using h2), h]
    · rw [if_neg h2, if_pos h2]; rfl

theorem inPlace_if {P : Prop} [Decidable P] {s : Sys} {x : Res (Sys × Out)} {y : Res Sys} (h : x = y >>= fun s' => .ok (s', ⟨[], []⟩)) :
    (if P then Engine.quiet s else x) = (if P then .ok s else y) >>= fun s' => .ok (s', ⟨[], []⟩) := by
  by_cases hp : P
  · rw [if_pos hp, if_pos hp]; rfl
  · rw [if_neg hp, if_neg hp, h]

theorem same (s : Sys) (c : Call) (hc : c.repeatsType = false) : (Engine.lib env).outOfBasic s c = c.answer env s := by
  cases c with
  | initThread r =>
    show (MPI_Init s >>= _) >>= _ = MPI_Init_thread s r >>= _
    unfold MPI_Init_thread
    rw [bind_assoc, bind_assoc]; rfl
  | commCreate c g =>
    show (if _ then _ else _) = MPI_Comm_create s c g >>= _
    unfold MPI_Comm_create
    split <;> rfl
  | commSplit c g k =>
    show (if _ then _ else _) = MPI_Comm_split s c g k >>= _
    unfold MPI_Comm_split
    split <;> rfl
  | intercommCreate a b c d e =>
    show (if _ then _ else _) = MPI_Intercomm_create s a b c d e >>= _
    unfold MPI_Intercomm_create
    split <;> rfl
  | cartCreate c n dims =>
    show (if _ then _ else _) = MPI_Cart_create s c n dims >>= _
    unfold MPI_Cart_create
    rw [cart_check, List.drop_zero]
    split
    · rfl
    · split <;> rfl
  | wait h p =>
    show (Engine.lib env).await s h p >>= _ = MPI_Wait s h p >>= _
    rw [lib_await]; rfl
  | send b n t d g c =>
    show (MPI_Isend env s b n t d g c >>= _) >>= _ = MPI_Send env s b n t d g c >>= _
    unfold MPI_Send
    rw [bind_assoc, bind_assoc]
    congr 1; funext x
    rw [Res.ok_bind]
    show (Engine.lib env).await _ _ _ >>= _ = (MPI_Wait _ _ _ >>= _) >>= _
    rw [lib_await, bind_assoc]; rfl
  | recv b n t d g c p =>
    show (MPI_Irecv env s b n t d g c >>= _) >>= _ = MPI_Recv env s b n t d g c p >>= _
    unfold MPI_Recv
    rw [bind_assoc, bind_assoc]
    congr 1; funext x
    rw [Res.ok_bind]
    show (Engine.lib env).await _ _ _ >>= _ = (MPI_Wait _ _ _ >>= _) >>= _
    rw [lib_await, bind_assoc]
    congr 1; funext y
    obtain ⟨s', h, q⟩ := y
    cases q <;> rfl
  | sendrecv b n t d g b' n' t' d' g' c p =>
    show (MPI_Irecv env s b' n' t' d' g' c >>= _) >>= _ = MPI_Sendrecv env s b n t d g b' n' t' d' g' c p >>= _
    unfold MPI_Sendrecv MPI_Send
    rw [bind_assoc, bind_assoc]
    congr 1; funext x
    rw [Res.ok_bind]
    show (MPI_Isend env _ b n t d g c >>= _) >>= _ = _
    rw [bind_assoc, bind_assoc, bind_assoc]
    congr 1; funext y
    rw [Res.ok_bind]
    show (Engine.lib env).await _ _ _ >>= _ = (MPI_Wait _ _ _ >>= _) >>= _
    rw [lib_await, bind_assoc]
    congr 1; funext z
    show (Engine.lib env).await _ _ _ >>= _ = (MPI_Wait _ _ _ >>= _) >>= _
    rw [lib_await, bind_assoc]; rfl
  | probe d g c p =>
    show (MPI_Iprobe s d g c p >>= _) >>= _ = MPI_Probe s d g c p >>= _
    unfold MPI_Probe
    rw [bind_assoc, bind_assoc]
    congr 1; funext x
    rw [Res.ok_bind]
    show (if x.2.1 = 0 then _ else _) = (if x.2.1 = 0 then _ else _) >>= _
    split <;> rfl
  | testany n rs i p =>
    show (Engine.lib env).tryEach _ _ _ _ _ >>= _ = MPI_Testany s n rs i p >>= _
    unfold MPI_Testany
    rw [lib_tryEach, bind_assoc, bind_assoc]; rfl
  | waitany n rs i p =>
    show (Engine.lib env).tryEach _ _ _ _ _ >>= _ = MPI_Waitany s n rs i p >>= _
    unfold MPI_Waitany MPI_Testany
    rw [lib_tryEach, bind_assoc, bind_assoc, bind_assoc]
    congr 1; funext x
    show (if x.2.2.1 = 0 then _ else _) = (if x.2.2.1 = 0 then _ else _) >>= _
    split <;> rfl
  | testall n rs sts =>
    show (Engine.lib env).testEach _ _ _ _ _ _ >>= _ = MPI_Testall s n rs sts >>= _
    unfold MPI_Testall
    rw [testall_each (env := env), bind_assoc]; rfl
  | waitall n rs sts =>
    show (Engine.lib env).testEach _ _ _ _ _ _ >>= _ = MPI_Waitall s n rs sts >>= _
    unfold MPI_Waitall
    rw [waitall_each (env := env), bind_assoc]; rfl
  | testsome n rs ix sts =>
    show (Engine.lib env).testEach _ _ _ _ _ _ >>= _ = MPI_Testsome s n rs ix sts >>= _
    unfold MPI_Testsome
    rw [testsome_each (env := env), bind_assoc, bind_assoc]
    congr 1; funext x
    show _ = Res.ok _
    rw [Int.zero_add]; rfl
  | waitsome n rs ix sts =>
    show (Engine.lib env).testEach _ _ _ _ _ _ >>= _ = MPI_Testsome s n rs ix sts >>= _
    unfold MPI_Testsome
    rw [testsome_each (env := env), bind_assoc, bind_assoc]
    congr 1; funext x
    show _ = Res.ok _
    rw [Int.zero_add]; rfl
  | bcast b n t root comm => exact lib_root "MPI_Bcast" root s _ (.ok s) rfl
  | gather a b c d e f root comm => exact inPlace_if (lib_root "MPI_Gather" root s _ _ rfl)
  | gatherv a b c d ns ds f root comm =>
    refine inPlace_if (lib_root "MPI_Gatherv" root s _ _ ?_)
    rw [lib_item, bind_assoc]
    congr 1; funext x
    rw [bind_assoc]
    congr 1; funext d
    show rd ns 0 >>= _ = (rd ns 0 >>= _) >>= _
    rw [bind_assoc]; rfl
  | allgather a b c d e f comm => exact inPlace_if rfl
  | allgatherv a b c d ns ds f comm =>
    refine inPlace_if ?_
    rw [lib_item, bind_assoc]
    congr 1; funext x
    rw [bind_assoc]
    congr 1; funext d
    show rd ns 0 >>= _ = (rd ns 0 >>= _) >>= _
    rw [bind_assoc]; rfl
  | scatter a b c d e f root comm => exact inPlace_if (lib_root "MPI_Scatter" root s _ _ rfl)
  | scatterv a ns ds c d e f root comm =>
    refine inPlace_if (lib_root "MPI_Scatterv" root s _ _ ?_)
    rw [lib_item, bind_assoc]
    congr 1; funext x
    rw [bind_assoc]
    congr 1; funext d
    show rd ns 0 >>= _ = (rd ns 0 >>= _) >>= _
    rw [bind_assoc]; rfl
  | reduce a b n t op root comm =>
    show (if root = 0 then _ else _) = (if root ≠ 0 then _ else _) >>= _
    by_cases h : root = 0
    · rw [if_pos h, if_neg (by simpa using h)]; rfl
    · rw [if_neg h, if_pos h]; rfl
  | allreduce a b n t op comm => exact inPlace_if rfl
  | reduceScatter a b ns t op comm =>
    show rd ns 0 >>= _ = (rd ns 0 >>= _) >>= _
    rw [bind_assoc]; rfl
  | alltoallv a ns ds t b ns' ds' t' comm =>
    show (MPI_Type_extent env s t >>= _) >>= _ = (MPI_Type_extent env s t >>= _) >>= _
    rw [bind_assoc, bind_assoc]
    congr 1; funext x
    rw [Res.ok_bind]
    show (MPI_Type_extent env _ t' >>= _) >>= _ = (MPI_Type_extent env _ t' >>= _) >>= _
    rw [bind_assoc, bind_assoc]
    congr 1; funext y
    rw [Res.ok_bind]
    show rd ds 0 >>= _ = (rd ds 0 >>= _) >>= _
    rw [bind_assoc]
    congr 1; funext d
    show rd ds' 0 >>= _ = (rd ds' 0 >>= _) >>= _
    rw [bind_assoc]
    congr 1; funext d'
    show rd ns 0 >>= _ = (rd ns 0 >>= _) >>= _
    rw [bind_assoc]
    congr 1; funext n
    show rd ns' 0 >>= _ = (rd ns' 0 >>= _) >>= _
    rw [bind_assoc]
    congr 1; funext n'
    rw [s32_displ, s32_displ]
    rfl
  | alltoallw a ns ds ts b ns' ds' ts' comm =>
    show rd ds 0 >>= _ = (rd ds 0 >>= _) >>= _
    rw [bind_assoc]
    congr 1; funext d
    show rd ns 0 >>= _ = (rd ns 0 >>= _) >>= _
    rw [bind_assoc]
    congr 1; funext d
    show rd ts 0 >>= _ = (rd ts 0 >>= _) >>= _
    rw [bind_assoc]
    congr 1; funext d
    show rd ds' 0 >>= _ = (rd ds' 0 >>= _) >>= _
    rw [bind_assoc]
    congr 1; funext d
    show rd ns' 0 >>= _ = (rd ns' 0 >>= _) >>= _
    rw [bind_assoc]
    congr 1; funext d
    show rd ts' 0 >>= _ = (rd ts' 0 >>= _) >>= _
    rw [bind_assoc]
    rfl
  | typeContiguous => cases hc
  | typeHvector => cases hc
  | typeVector => cases hc
  | typeHindexed => cases hc
  | typeIndexed => cases hc
  | typeIndexedBlock => cases hc
  | _ => rfl

/-! ## Datatype constructors -/

/-- One succeeds if the other does, with the same result. -/
def OkSame {α : Type} (a b : Res α) : Prop := ∀ x, a = .ok x ↔ b = .ok x

namespace OkSame

variable {α β : Type} {a b : Res α}

theorem rfl' : OkSame a a := fun _ => Iff.rfl

theorem of_eq (h : a = b) : OkSame a b := h ▸ rfl'

theorem fails (h : ∀ x, a ≠ .ok x) (h' : ∀ x, b ≠ .ok x) : OkSame a b := fun x => ⟨fun e => absurd e (h x), fun e => absurd e (h' x)⟩

theorem bind {f g : α → Res β} (h : OkSame a b) (hf : ∀ x, OkSame (f x) (g x)) : OkSame (a >>= f) (b >>= g) := fun y => by
  rw [Res.bind_eq_ok, Res.bind_eq_ok]
  exact exists_congr fun x => and_congr (h x) (hf x y)

end OkSame

theorem typeOf_again {s s1 : Sys} {t : Int} {ty : Typestruct} (h : typeOf env s t = .ok (s1, ty)) : typeOf env s1 t = .ok (s1, ty) := by
  unfold typeOf at h ⊢
  obtain ⟨⟨s2, p⟩, h1, h⟩ := Res.bind_eq_ok.1 h
  obtain ⟨ty', h2, h⟩ := Res.bind_eq_ok.1 h
  have e := Res.ok.inj h
  simp only [Prod.mk.injEq] at e
  obtain ⟨rfl, rfl⟩ := e
  have key : handleToDatatype s2 t = .ok (s2, p) := by
    unfold handleToDatatype at h1 ⊢
    split at h1
    · next hn =>
      rw [if_pos hn]
      obtain ⟨q, h3, h1⟩ := Res.bind_eq_ok.1 h1
      have e := Res.ok.inj h1
      simp only [Prod.mk.injEq] at e
      obtain ⟨rfl, rfl⟩ := e
      rw [h3]; rfl
    · next hn =>
      rw [if_neg hn]
      obtain ⟨⟨s3, q⟩, h3, h1⟩ := Res.bind_eq_ok.1 h1
      have hs : s3.ptr t = .ok (s3, q) := by
        unfold Sys.ptr at h3 ⊢
        obtain ⟨⟨T, q'⟩, h4, h3⟩ := Res.bind_eq_ok.1 h3
        have e := Res.ok.inj h3
        simp only [Prod.mk.injEq] at e
        obtain ⟨rfl, rfl⟩ := e
        have : mpi_handle_to_ptr T t = .ok (T, q') := by
          unfold mpi_handle_to_ptr at h4 ⊢
          have hT : ∀ T' : HTab Slot, (if T'.needInit then init_handles T' else T').needInit = false := fun T' => by
            split
            · rfl
            · next h => simpa using h
          dsimp only at h4 ⊢
          split at h4
          · next h0 =>
            rw [if_pos h0]
            have e := Res.ok.inj h4
            simp only [Prod.mk.injEq] at e
            obtain ⟨rfl, rfl⟩ := e
            rw [hT]; rfl
          · next h0 =>
            rw [if_neg h0]
            obtain ⟨l, h5, h4⟩ := Res.bind_eq_ok.1 h4
            have e := Res.ok.inj h4
            simp only [Prod.mk.injEq] at e
            obtain ⟨rfl, rfl⟩ := e
            rw [hT, if_neg (by decide), h5]; rfl
        show mpi_handle_to_ptr T t >>= _ = _
        rw [this]; rfl
      cases q with
      | none => cases h1
      | some l =>
        dsimp only at h1
        obtain ⟨it, h6, h1⟩ := Res.bind_eq_ok.1 h1
        cases hd : it.data <;> rw [hd] at h1 <;> try (cases h1; done)
        have e := Res.ok.inj h1
        simp only [Prod.mk.injEq] at e
        obtain ⟨rfl, rfl⟩ := e
        rw [hs, Res.ok_bind]
        dsimp only
        rw [h6, Res.ok_bind, hd]
        rfl
  rw [key, Res.ok_bind]
  show derefType env s2 p >>= _ = _
  rw [h2]; rfl

theorem structTypes_same {s : Sys} {t : Int} {ty : Typestruct} (h : typeOf env s t = .ok (s, ty)) (N : Nat) : ∀ n i, i + n ≤ N →
    structTypes env (List.replicate N t) n i s = .ok (s, List.replicate n ty)
  | 0, _, _ => rfl
  | n + 1, i, hi => by
    unfold structTypes
    have : rd (List.replicate N t) i = .ok t := by
      unfold rd
      rw [List.getElem?_replicate, if_pos (by omega)]
    rw [this, Res.ok_bind, h, Res.ok_bind]
    dsimp only
    rw [structTypes_same h N n (i + 1) (by omega)]
    rfl

theorem fill_congr {α : Type} {f g : Nat → Res α} : ∀ (n k : Nat), (∀ i, k ≤ i → i < k + n → f i = g i) → fill f n k = fill g n k
  | 0, _, _ => rfl
  | n + 1, k, h => by
    unfold fill
    rw [h k (Nat.le_refl _) (by omega), fill_congr n (k + 1) fun i h1 h2 => h i (by omega) (by omega)]

theorem fill_all {α : Type} {f : Nat → Res α} : ∀ (n k : Nat) {l : List α}, fill f n k = .ok l → ∀ i, k ≤ i → i < k + n → ∃ x, f i = .ok x
  | 0, _, _, _, i, h1, h2 => by omega
  | n + 1, k, l, h, i, h1, h2 => by
    unfold fill at h
    obtain ⟨x, hx, h⟩ := Res.bind_eq_ok.1 h
    by_cases hi : i = k
    · exact hi ▸ ⟨x, hx⟩
    · obtain ⟨xs, h, _⟩ := Res.bind_eq_ok.1 h
      exact fill_all n (k + 1) h i (by omega) (by omega)

theorem newType_same {s : Sys} {b b' : Garbage → Res Typestruct} (h : ∀ g, OkSame (b g) (b' g)) : OkSame (newType env s b) (newType env s b') :=
  OkSame.rfl'.bind fun _ => (h _).bind fun _ => OkSame.rfl'

theorem newType_fails {s : Sys} {b : Garbage → Res Typestruct} (h : ∀ g x, b g ≠ .ok x) (x : Sys × Int) : newType env s b ≠ .ok x := fun e => by
  obtain ⟨_, _, e⟩ := Res.bind_eq_ok.1 e
  obtain ⟨_, e, _⟩ := Res.bind_eq_ok.1 e
  exact h _ _ e

theorem struct_same {s : Sys} {t : Int} {ty : Typestruct} (h : typeOf env s t = .ok (s, ty)) (n : Int) (lens disps : List Int) :
    OkSame (MPI_Type_struct env s n lens disps (List.replicate n.toNat t)) (newType env s fun g => Type_hindexed env.cfg g n lens disps ty) := by
  unfold MPI_Type_struct Type_hindexed vla
  by_cases hn : n < 0
  · rw [if_pos hn]
    exact .fails (fun _ => nofun) (newType_fails fun _ _ => nofun)
  · rw [if_neg hn, Res.ok_bind, structTypes_same h _ _ _ (by omega), Res.ok_bind]
    refine newType_same fun g => .of_eq ?_
    rw [Res.ok_bind]
    congr 1
    refine fill_congr _ _ fun i _ hi => ?_
    congr 1; funext b
    congr 1; funext d
    have : rd (List.replicate n.toNat ty) i = .ok ty := by
      unfold rd
      rw [List.getElem?_replicate, if_pos (by omega)]
    rw [this]; rfl

theorem blocks_same {s : Sys} {t : Int} {ty : Typestruct} (h : typeOf env s t = .ok (s, ty)) (n : Int) (lens disps : List Int) {b : Garbage → Res Typestruct}
    (hb : ∀ g, OkSame (Type_hindexed env.cfg g n lens disps ty) (b g)) :
    OkSame ((Engine.lib env).blocks s n lens disps t) (newType env s b >>= fun x => .ok (x.1, ⟨[x.2], []⟩)) :=
  OkSame.bind (fun x => (struct_same h n lens disps x).trans (newType_same hb x)) fun _ => OkSame.rfl'

/-- Constructors that ask for the extent. -/
theorem by_extent {s : Sys} {t n : Int} {lens disps : Int → List Int} {b : Typestruct → Garbage → Res Typestruct}
    (h : ∀ ty e, Type_extent env.cfg ty = .ok e → ∀ g, OkSame (Type_hindexed env.cfg g n (lens e) (disps e) ty) (b ty g))
    (h' : ∀ ty, (∀ e, Type_extent env.cfg ty ≠ .ok e) → ∀ g x, b ty g ≠ .ok x) :
    OkSame (Engine.lib env s (.typeExtent t) >>= fun x => (Engine.lib env).blocks x.1 n (lens x.2.val) (disps x.2.val) t)
      ((typeOf env s t >>= fun x => newType env x.1 (b x.2)) >>= fun x => .ok (x.1, ⟨[x.2], []⟩)) := by
  show OkSame (((typeOf env s t >>= _) >>= _) >>= _) _
  rw [bind_assoc, bind_assoc, bind_assoc]
  cases ht : typeOf env s t with
  | ok x =>
    obtain ⟨s1, ty⟩ := x
    rw [Res.ok_bind, Res.ok_bind]
    dsimp only
    cases he : Type_extent env.cfg ty with
    | ok e => exact blocks_same (typeOf_again ht) _ _ _ (h ty e he)
    | _ =>
      refine .fails (fun _ => nofun) fun x e => ?_
      obtain ⟨_, e, _⟩ := Res.bind_eq_ok.1 e
      exact newType_fails (h' ty fun e => by rw [he]; exact nofun) _ e
  | _ => exact .fails (fun _ => nofun) fun _ => nofun

/-- Constructors that do not. -/
theorem by_lb {s : Sys} {t n : Int} {lens disps : List Int} {b : Typestruct → Garbage → Res Typestruct}
    (h : ∀ ty g, OkSame (Type_hindexed env.cfg g n lens disps ty) (b ty g)) :
    OkSame (Engine.lib env s (.typeLb t) >>= fun x => (Engine.lib env).blocks x.1 n lens disps t)
      ((typeOf env s t >>= fun x => newType env x.1 (b x.2)) >>= fun x => .ok (x.1, ⟨[x.2], []⟩)) := by
  show OkSame (((typeOf env s t >>= _) >>= _) >>= _) _
  rw [bind_assoc, bind_assoc, bind_assoc]
  cases ht : typeOf env s t with
  | ok x => exact blocks_same (typeOf_again ht) _ _ _ (h _)
  | _ => exact .fails (fun _ => nofun) fun _ => nofun

theorem hindexed_same {cfg : Cfg} {g : Garbage} {n : Int} {lens disps : List Int} {ty : Typestruct} {f : Nat → Block}
    (h : ∀ i, i < n.toNat → lens[i]? = some (f i).len ∧ disps[i]? = some (f i).disp ∧ (f i).ty = ty) :
    Type_hindexed cfg g n lens disps ty = (do
      let n ← vla n
      let blocks ← fill (fun i => .ok (f i)) n 0
      Type_struct cfg g blocks) := by
  unfold Type_hindexed vla
  by_cases hn : n < 0
  · rw [if_pos hn]; rfl
  · rw [if_neg hn, Res.ok_bind, Res.ok_bind]
    congr 1
    refine fill_congr _ _ fun i _ hi => ?_
    obtain ⟨h1, h2, h3⟩ := h i (by omega)
    unfold rd
    rw [h1, h2]
    subst h3
    rfl

theorem indexed_same {cfg : Cfg} {g : Garbage} {n e : Int} {lens disps : List Int} {ty : Typestruct} (he : Type_extent cfg ty = .ok e) :
    OkSame (Type_hindexed cfg g n lens (disps.map fun x => u64 (x * e)) ty) (Type_indexed cfg g n lens disps ty) := by
  unfold Type_indexed
  by_cases hn : n < 0
  · unfold Type_hindexed vla
    rw [if_pos hn]
    exact .fails (fun _ => nofun) fun _ => nofun
  · have hv : vla n = .ok n.toNat := by unfold vla; rw [if_neg hn]
    rw [hv, Res.ok_bind]
    by_cases hl : n.toNat ≤ disps.length
    · have : fill (fun i => do
          let extent ← Type_extent cfg ty
          let d ← rd disps i
          return u64 (d * extent)) n.toNat 0 = .ok ((disps.take n.toNat).map fun x => u64 (x * e)) := by
        have := fill_eq (f := fun i => do
          let extent ← Type_extent cfg ty
          let d ← rd disps i
          return u64 (d * extent)) ((disps.take n.toNat).map fun x => u64 (x * e)) 0 ?_
        · rw [List.length_map, List.length_take, Nat.min_eq_left hl] at this
          exact this
        · intro j x hx
          rw [List.getElem?_map, Option.map_eq_some_iff] at hx
          obtain ⟨d, hd, rfl⟩ := hx
          rw [List.getElem?_take] at hd
          split at hd
          · show Type_extent cfg ty >>= _ = _
            rw [he, Res.ok_bind, Nat.zero_add]
            unfold rd
            rw [hd]; rfl
          · cases hd
      rw [this, Res.ok_bind]
      refine .of_eq ?_
      unfold Type_hindexed
      rw [hv, Res.ok_bind, Res.ok_bind]
      congr 1
      refine fill_congr _ _ fun i _ hi => ?_
      congr 1; funext b
      congr 1
      unfold rd
      rw [List.getElem?_map, List.getElem?_map, List.getElem?_take, if_pos (by omega)]
    · refine .fails (fun x h => ?_) fun x h => ?_
      · unfold Type_hindexed at h
        rw [hv, Res.ok_bind] at h
        obtain ⟨l, h, _⟩ := Res.bind_eq_ok.1 h
        obtain ⟨y, h⟩ := fill_all _ _ h disps.length (Nat.zero_le _) (by omega)
        obtain ⟨_, _, h⟩ := Res.bind_eq_ok.1 h
        obtain ⟨_, h, _⟩ := Res.bind_eq_ok.1 h
        unfold rd at h
        rw [List.getElem?_eq_none (by rw [List.length_map]; exact Nat.le_refl _)] at h
        cases h
      · obtain ⟨l, h, _⟩ := Res.bind_eq_ok.1 h
        obtain ⟨y, h⟩ := fill_all _ _ h disps.length (Nat.zero_le _) (by omega)
        obtain ⟨_, _, h⟩ := Res.bind_eq_ok.1 h
        obtain ⟨_, h, _⟩ := Res.bind_eq_ok.1 h
        unfold rd at h
        rw [List.getElem?_eq_none (Nat.le_refl _)] at h
        cases h

theorem indexed_fails {cfg : Cfg} {g : Garbage} {n : Int} {lens disps : List Int} {ty : Typestruct} (hn : n ≠ 0) (he : ∀ e, Type_extent cfg ty ≠ .ok e)
    (x : Typestruct) : Type_indexed cfg g n lens disps ty ≠ .ok x := fun h => by
  unfold Type_indexed at h
  obtain ⟨k, hk, h⟩ := Res.bind_eq_ok.1 h
  unfold vla at hk
  split at hk
  · cases hk
  · cases hk
    obtain ⟨l, h, _⟩ := Res.bind_eq_ok.1 h
    obtain ⟨y, h⟩ := fill_all _ _ h 0 (Nat.le_refl _) (by omega)
    obtain ⟨e, h, _⟩ := Res.bind_eq_ok.1 h
    exact he e h

theorem fill_const {α : Type} (x : α) : ∀ n k, fill (fun _ => .ok x) n k = .ok (List.replicate n x)
  | 0, _ => rfl
  | n + 1, k => by
    unfold fill
    rw [Res.ok_bind, fill_const x n (k + 1)]; rfl

theorem types (s : Sys) (c : Call) (hc : c.repeatsType = true) : OkSame ((Engine.lib env).outOfBasic s c) (c.answer env s) := by
  cases c with
  | typeContiguous n t =>
    refine by_extent (t := t) (n := n) (lens := fun _ => List.replicate n.toNat 1) (disps := fun e => (List.range n.toNat).map fun (i : Nat) => u64 (i * e))
      (b := fun ty g => Type_contiguous env.cfg g n ty) (fun ty e he g => .of_eq ?_) fun ty he g x h => ?_
    · rw [hindexed_same (f := fun i => ⟨1, u64 (e * i), ty⟩) fun i hi => ⟨?_, ?_, rfl⟩]
      · unfold Type_contiguous
        rw [he]; rfl
      · rw [List.getElem?_replicate, if_pos hi]
      · rw [List.getElem?_map, List.getElem?_range hi, Int.mul_comm]; rfl
    · obtain ⟨_, _, h⟩ := Res.bind_eq_ok.1 h
      obtain ⟨e, h, _⟩ := Res.bind_eq_ok.1 h
      exact he e h
  | typeHvector n b d t =>
    refine by_extent (t := t) (n := n) (lens := fun _ => List.replicate n.toNat b) (disps := fun e => (List.range n.toNat).map fun (i : Nat) => u64 (i * d))
      (b := fun ty g => Type_hvector env.cfg g n b d ty) (fun ty e he g => .of_eq ?_) fun ty he g x h => ?_
    · rw [hindexed_same (f := fun i => ⟨b, u64 (d * i), ty⟩) fun i hi => ⟨?_, ?_, rfl⟩]
      · unfold Type_hvector
        rw [he]; rfl
      · rw [List.getElem?_replicate, if_pos hi]
      · rw [List.getElem?_map, List.getElem?_range hi, Int.mul_comm]; rfl
    · obtain ⟨_, _, h⟩ := Res.bind_eq_ok.1 h
      obtain ⟨e, h, _⟩ := Res.bind_eq_ok.1 h
      exact he e h
  | typeVector n b d t =>
    refine by_extent (t := t) (n := n) (lens := fun _ => List.replicate n.toNat b) (disps := fun e => (List.range n.toNat).map fun (i : Nat) => u64 (i * d * e))
      (b := fun ty g => Type_vector env.cfg g n b d ty) (fun ty e he g => .of_eq ?_) fun ty he g x h => ?_
    · rw [hindexed_same (f := fun i => ⟨b, u64 (u64 (d * e) * i), ty⟩) fun i hi => ⟨?_, ?_, rfl⟩]
      · unfold Type_vector Type_hvector
        rw [he]; rfl
      · rw [List.getElem?_replicate, if_pos hi]
      · rw [List.getElem?_map, List.getElem?_range hi]
        show some (u64 (i * d * e)) = some (u64 (u64 (d * e) * i))
        unfold u64
        rw [Int.mul_emod (d * e % _), Int.emod_emod, ← Int.mul_emod, Int.mul_assoc (i : Int), Int.mul_comm (i : Int)]
    · obtain ⟨e, h, _⟩ := Res.bind_eq_ok.1 h
      exact he e h
  | typeHindexed n b d t => exact by_lb (b := fun ty g => Type_hindexed env.cfg g n b d ty) fun ty g => OkSame.rfl'
  | typeIndexed n b d t =>
    show OkSame (if n = 0 then _ else _) _
    by_cases hn : n = 0
    · subst hn
      rw [if_pos rfl]
      exact by_lb (b := fun ty g => Type_indexed env.cfg g 0 b d ty) fun ty g => OkSame.rfl'
    · rw [if_neg hn]
      exact by_extent (n := n) (lens := fun _ => b) (disps := fun e => d.map fun x => u64 (x * e)) (b := fun ty g => Type_indexed env.cfg g n b d ty)
        (fun ty e he g => indexed_same he) fun ty he g x => indexed_fails hn he x
  | typeIndexedBlock n b d t =>
    have key : ∀ ty g, Type_create_indexed_block env.cfg g n b d ty = (vla n >>= fun _ => Type_indexed env.cfg g n (List.replicate n.toNat b) d ty) := fun ty g => by
      unfold Type_create_indexed_block vla
      by_cases h : n < 0
      · rw [if_pos h]; rfl
      · rw [if_neg h, Res.ok_bind, Res.ok_bind, fill_const]; rfl
    show OkSame (if n = 0 then _ else _) _
    by_cases hn : n = 0
    · subst hn
      rw [if_pos rfl]
      exact by_lb (b := fun ty g => Type_create_indexed_block env.cfg g 0 b d ty) fun ty g => OkSame.rfl'
    · rw [if_neg hn]
      refine by_extent (n := n) (lens := fun _ => List.replicate n.toNat b) (disps := fun e => d.map fun x => u64 (x * e))
        (b := fun ty g => Type_create_indexed_block env.cfg g n b d ty)
        (fun ty e he g => ?_) fun ty he g x h => ?_
      · rw [key]
        unfold vla
        by_cases h : n < 0
        · rw [if_pos h]
          refine .fails (fun x h' => ?_) fun _ => nofun
          unfold Type_hindexed vla at h'
          rw [if_pos h] at h'
          cases h'
        · rw [if_neg h, Res.ok_bind]
          exact indexed_same he
      · rw [key] at h
        obtain ⟨_, _, h⟩ := Res.bind_eq_ok.1 h
        exact indexed_fails hn he x h
  | _ => cases hc

/-! ## Only basic calls -/

theorem bind_congr' {α β : Type} {a b : Res α} {f g : α → Res β} (h : a = b) (hf : ∀ x, f x = g x) : (a >>= f) = (b >>= g) := by
  rw [h, show f = g from funext hf]

variable {σ : Type} {E F : Engine σ}

theorem await_congr (h : ∀ s c, c.Basic → E s c = F s c) (s : σ) (r : Int) (p : StPtr) : E.await s r p = F.await s r p :=
  bind_congr' (h _ _ trivial) fun _ => rfl

theorem tryEach_congr (h : ∀ s c, c.Basic → E s c = F s c) (n : Nat) : ∀ (i : Nat) (s : σ) (rs : List Int) (p : StPtr), E.tryEach n i s rs p = F.tryEach n i s rs p := by
  induction n with
  | zero => intros; rfl
  | succ n ih =>
    intro i s rs p
    refine bind_congr' rfl fun r => bind_congr' (h _ _ trivial) fun x => ?_
    dsimp only
    rw [ih]

theorem testEach_congr (h : ∀ s c, c.Basic → E s c = F s c) (must : Bool) (n : Nat) : ∀ (i : Nat) (s : σ) (rs : List Int) (sts : StArr),
    E.testEach must n i s rs sts = F.testEach must n i s rs sts := by
  induction n with
  | zero => intros; rfl
  | succ n ih =>
    intro i s rs sts
    refine bind_congr' rfl fun r => bind_congr' rfl fun p => bind_congr' (h _ _ trivial) fun x => ?_
    dsimp only
    rw [ih]

theorem item_congr (h : ∀ s c, c.Basic → E s c = F s c) (s : σ) (b : Int) (ds : List Int) (t : Int) : E.item s b ds t = F.item s b ds t :=
  bind_congr' (h _ _ trivial) fun _ => rfl

theorem outOfBasic_congr (h : ∀ s c, c.Basic → E s c = F s c) (s : σ) (c : Call) : E.outOfBasic s c = F.outOfBasic s c := by
  have hb : ∀ s n l d t, E.blocks s n l d t = F.blocks s n l d t := fun _ _ _ _ _ => h _ _ trivial
  have hm : ∀ s a b c d e f comm, E.move s a b c d e f comm = F.move s a b c d e f comm := fun _ _ _ _ _ _ _ _ => h _ _ trivial
  cases c <;>
  first
  | rfl
  | exact h _ _ trivial
  | (simp only [Engine.outOfBasic, hb, hm, item_congr h, await_congr h, tryEach_congr h, testEach_congr h, h _ (.commDup _) trivial, h _ .init trivial,
      h _ (.isend ..) trivial, h _ (.irecv ..) trivial, h _ (.iprobe ..) trivial, h _ (.typeExtent _) trivial, h _ (.typeLb _) trivial]; done)

end MpiSerial.Kernel
