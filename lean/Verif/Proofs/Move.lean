import Verif.Spec.Move
import Verif.Proofs.Data

/-!
# Helper lemmas for C84
-/

set_option autoImplicit false
set_option linter.unusedSimpArgs false

namespace MpiSerial

/-! ## What can be moved -/

/-- Something with memory in it. -/
class Moving (A : Type) where
  move : Int → A → A
  fits : Int → A → Prop

open Moving (move fits)

instance : Moving Mem := ⟨Mem.moved, Mem.Fits⟩
instance : Moving Sys := ⟨Sys.moved, fun δ s => s.mem.Fits δ⟩
instance {A B : Type} [Moving A] : Moving (A × B) := ⟨fun δ x => (move δ x.1, x.2), fun δ x => fits δ x.1⟩
instance : Moving TestRes := ⟨fun δ x => { x with sys := x.sys.moved δ }, fun δ x => x.sys.mem.Fits δ⟩
instance : Moving ArrRes := ⟨fun δ x => { x with sys := x.sys.moved δ }, fun δ x => x.sys.mem.Fits δ⟩
instance : Moving SomeRes := ⟨fun δ x => { x with arr := move δ x.arr }, fun δ x => x.arr.sys.mem.Fits δ⟩

/-- `g` is `f` moved. -/
structure MovesTo {A : Type} [Moving A] (δ : Int) (f g : Res A) : Prop where
  eq : g = f >>= fun a => .ok (move δ a)
  post : ∀ a, f = .ok a → fits δ a

namespace MovesTo

variable {A B β γ : Type} [Moving A] [Moving B] {δ : Int}

theorem ret {a : A} {g : Res A} (h : fits δ a) (hg : g = .ok (move δ a) := by rfl) : MovesTo δ (.ok a) g :=
  ⟨hg, by rintro _ ⟨⟩; exact h⟩

theorem abort {t : String} : MovesTo δ (Res.abort t : Res A) (.abort t) := ⟨rfl, nofun⟩
theorem exit {t : Int} : MovesTo δ (Res.exit t : Res A) (.exit t) := ⟨rfl, nofun⟩
theorem ub {t : UB} : MovesTo δ (Res.ub t : Res A) (.ub t) := ⟨rfl, nofun⟩
theorem hang : MovesTo δ (Res.hang : Res A) .hang := ⟨rfl, nofun⟩

theorem bind {f f' : Res A} {g g' : A → Res B} (h : MovesTo δ f f')
    (k : ∀ a, fits δ a → MovesTo δ (g a) (g' (move δ a))) : MovesTo δ (f >>= g) (f' >>= g') := by
  obtain ⟨rfl, h2⟩ := h
  cases f with
  | ok a => exact k a (h2 a rfl)
  | abort t => exact abort
  | exit t => exact exit
  | ub t => exact ub
  | hang => exact hang

/-- Something that does not depend on memory. -/
theorem skip {X : Res β} {g g' : β → Res A} (k : ∀ b, MovesTo δ (g b) (g' b)) : MovesTo δ (X >>= g) (X >>= g') := by
  cases X with
  | ok b => exact k b
  | abort t => exact abort
  | exit t => exact exit
  | ub t => exact ub
  | hang => exact hang

/-- Something the result of which is moved. -/
theorem read {X : Res β} {X' : Res γ} {h : β → γ} (hX : X' = X >>= fun b => .ok (h b)) {g : β → Res A} {g' : γ → Res A}
    (k : ∀ b, MovesTo δ (g b) (g' (h b))) : MovesTo δ (X >>= g) (X' >>= g') := by
  rw [hX, bind_assoc]
  exact skip k

theorem ite {p q : Prop} [Decidable p] [Decidable q] (hpq : p ↔ q) {f g f' g' : Res A} (hf : MovesTo δ f f') (hg : MovesTo δ g g') :
    MovesTo δ (if p then f else g) (if q then f' else g') := by
  by_cases h : p
  · rw [if_pos h, if_pos (hpq.mp h)]; exact hf
  · rw [if_neg h, if_neg (fun h' => h (hpq.mpr h'))]; exact hg

end MovesTo

/-! ## Copying -/

/-- `p'` is the address `p` moved, in an address space that wraps around. -/
def Shifted (δ p p' : Int) : Prop := (p' - p - δ) % 18446744073709551616 = 0

theorem Shifted.add (δ p : Int) : Shifted δ p (p + δ) := by unfold Shifted; omega
theorem Shifted.padd {δ p p' : Int} (h : Shifted δ p p') (k : Int) : Shifted δ (padd p k) (padd p' k) := by
  unfold Shifted MpiSerial.padd at *; omega

theorem padd_range (p k : Int) : 0 ≤ padd p k ∧ padd p k < 18446744073709551616 := by unfold padd; omega

theorem Mem.Fits.shape {δ : Int} {m m' : Mem} (h : m.Fits δ) (hs : m'.SameShape m) : m'.Fits δ :=
  fun a ha => h a (by rw [← hs a]; exact ha)

theorem readable_moved {δ : Int} {m : Mem} (hm : m.Fits δ) {p p' : Int} {n : Nat} (hn : n ≠ 0)
    (h : Shifted δ p p') (hp : 0 ≤ p ∧ p < 18446744073709551616) (hp' : 0 ≤ p' ∧ p' < 18446744073709551616) :
    (m.readable p n ∧ p' = p + δ) ∨ (¬ m.readable p n ∧ ¬ (m.moved δ).readable p' n) := by
  have hsh : p' = p + δ → ((m.moved δ).readable p' n ↔ m.readable p n) := by
    rintro rfl
    unfold Mem.readable Mem.moved
    constructor <;> intro hr i hi
    · have := hr i hi; rwa [show p + δ + (i : Int) - δ = p + i by omega] at this
    · rw [show p + δ + (i : Int) - δ = p + i by omega]; exact hr i hi
  by_cases he : p' = p + δ
  · by_cases hr : m.readable p n
    · exact .inl ⟨hr, he⟩
    · exact .inr ⟨hr, fun h' => hr ((hsh he).mp h')⟩
  · refine .inr ⟨fun hr => ?_, fun hr => ?_⟩
    · have := hm _ (hr 0 (by omega))
      unfold Shifted at h
      omega
    · have := hm _ (hr 0 (by omega))
      unfold Shifted at h
      omega

theorem memcpy_movesTo {δ : Int} {m : Mem} (hm : m.Fits δ) {d d' s s' : Int} {n : Nat} (hd : Shifted δ d d') (hs : Shifted δ s s')
    (h1 : 0 ≤ d ∧ d < 18446744073709551616) (h2 : 0 ≤ d' ∧ d' < 18446744073709551616)
    (h3 : 0 ≤ s ∧ s < 18446744073709551616) (h4 : 0 ≤ s' ∧ s' < 18446744073709551616) :
    MovesTo δ (memcpy m d s n) (memcpy (m.moved δ) d' s' n) := by
  refine ⟨?_, ?_⟩
  · unfold memcpy
    by_cases hn : n = 0
    · rw [if_pos hn, if_pos hn]; rfl
    · rw [if_neg hn, if_neg hn]
      rcases readable_moved hm hn hd h1 h2 with ⟨a1, a2⟩ | ⟨a1, a2⟩
      · rcases readable_moved hm hn hs h3 h4 with ⟨b1, b2⟩ | ⟨b1, b2⟩
        · subst a2 b2
          have c1 : (m.moved δ).readable (d + δ) n := fun i hi => by
            have := a1 i hi; unfold Mem.moved; rwa [show d + δ + (i : Int) - δ = d + i by omega]
          have c2 : (m.moved δ).readable (s + δ) n := fun i hi => by
            have := b1 i hi; unfold Mem.moved; rwa [show s + δ + (i : Int) - δ = s + i by omega]
          rw [if_neg (not_not_intro ⟨c1, c2⟩), if_neg (not_not_intro ⟨a1, b1⟩)]
          by_cases ho : d < s + n ∧ s < d + n
          · rw [if_pos ho, if_pos (by omega)]; rfl
          · rw [if_neg ho, if_neg (by omega)]
            show _ = Res.ok (Mem.moved δ _)
            congr 1
            funext a
            unfold Mem.moved
            dsimp only
            by_cases ha : d + δ ≤ a ∧ a < d + δ + n
            · rw [if_pos ha, if_pos (by omega)]; congr 1; omega
            · rw [if_neg ha, if_neg (by omega)]
        · rw [if_pos (fun h => b2 h.2), if_pos (fun h => b1 h.2)]; rfl
      · rw [if_pos (fun h => a2 h.1), if_pos (fun h => a1 h.1)]; rfl
  · intro m' hm'
    obtain ⟨r, hr, hsh⟩ := memcpy_blind m d s n
    have e := hr m (fun _ => rfl)
    dsimp only at e
    rw [hm'] at e
    obtain ⟨x, hx, hxe⟩ := Res.bind_eq_ok.mp e.symm
    cases hxe
    exact hm.shape (fun a => hsh x hx a)

theorem copyLoop_movesTo {δ : Int} (cfg : Cfg) {src src' : Int} (hs : Shifted δ src src') (st : Typestruct) (sext : Int)
    {dst dst' : Int} (hd : Shifted δ dst dst') (dt : Typestruct) (dext : Int) (n : Nat) : ∀ i (m : Mem), m.Fits δ →
    MovesTo δ (copyLoop cfg src st sext dst dt dext n i m) (copyLoop cfg src' st sext dst' dt dext n i (m.moved δ)) := by
  induction n with
  | zero => intro i m hm; exact .ret (a := m) hm
  | succ n ih =>
    intro i m hm
    unfold copyLoop
    refine .skip fun _ => .skip fun _ => .skip fun _ => .skip fun _ => .ite Iff.rfl .exit (.skip fun _ => ?_)
    exact .bind (memcpy_movesTo hm (hd.padd _) (hs.padd _) (padd_range _ _) (padd_range _ _) (padd_range _ _) (padd_range _ _))
      fun m' hm' => ih (i + 1) m' hm'

theorem Pcopy_data2_movesTo {δ : Int} (cfg : Cfg) {m : Mem} (hm : m.Fits δ) {src src' : Int} (hs : Shifted δ src src') (sc : Int)
    (st : Typestruct) {dst dst' : Int} (hd : Shifted δ dst dst') (dc : Int) (dt : Typestruct) :
    MovesTo δ (Pcopy_data2 cfg m src sc st dst dc dt) (Pcopy_data2 cfg (m.moved δ) src' sc st dst' dc dt) := by
  unfold Pcopy_data2
  refine .ite Iff.rfl .exit (.skip fun _ => .skip fun _ => .ite Iff.rfl .exit (.skip fun _ => .skip fun _ => ?_))
  exact copyLoop_movesTo cfg hs st _ hd dt _ _ _ m hm

theorem packEntries_movesTo {δ : Int} (cfg : Cfg) (inbuf : Int) (t : Typestruct) (extent outbuf outsize : Int) (i n : Nat) :
    ∀ j position (m : Mem), m.Fits δ → MovesTo δ (packEntries cfg inbuf t extent outbuf outsize i n j (m, position))
      (packEntries cfg (inbuf + δ) t extent (outbuf + δ) outsize i n j (m.moved δ, position)) := by
  induction n with
  | zero => intro j p m hm; exact .ret (a := (m, p)) hm
  | succ n ih =>
    intro j p m hm
    unfold packEntries
    refine .skip fun _ => .skip fun _ => .skip fun e => .ite Iff.rfl .exit ?_
    exact .bind (memcpy_movesTo hm ((Shifted.add δ _).padd _) (((Shifted.add δ _).padd _).padd _) (padd_range _ _) (padd_range _ _)
      (padd_range _ _) (padd_range _ _)) fun m' hm' => ih (j + 1) e m' hm'

theorem packLoop_movesTo {δ : Int} (cfg : Cfg) (inbuf : Int) (t : Typestruct) (extent outbuf outsize : Int) (n : Nat) :
    ∀ i position (m : Mem), m.Fits δ → MovesTo δ (packLoop cfg inbuf t extent outbuf outsize n i (m, position))
      (packLoop cfg (inbuf + δ) t extent (outbuf + δ) outsize n i (m.moved δ, position)) := by
  induction n with
  | zero => intro i p m hm; exact .ret (a := (m, p)) hm
  | succ n ih =>
    intro i p m hm
    unfold packLoop
    exact .bind (packEntries_movesTo cfg inbuf t extent outbuf outsize i _ 0 p m hm) fun x hx => ih (i + 1) x.2 x.1 hx

theorem Pack_movesTo {δ : Int} (cfg : Cfg) {m : Mem} (hm : m.Fits δ) (inbuf incount : Int) (t : Typestruct)
    (outbuf outsize position : Int) : MovesTo δ (Pack cfg m inbuf incount t outbuf outsize position)
      (Pack cfg (m.moved δ) (inbuf + δ) incount t (outbuf + δ) outsize position) := by
  unfold Pack
  exact .skip fun _ => packLoop_movesTo cfg inbuf t _ outbuf outsize _ 0 position m hm

theorem unpackEntries_movesTo {δ : Int} (cfg : Cfg) (inbuf insize outbuf : Int) (t : Typestruct) (extent : Int) (i n : Nat) :
    ∀ j position (m : Mem), m.Fits δ → MovesTo δ (unpackEntries cfg inbuf insize outbuf t extent i n j (m, position))
      (unpackEntries cfg (inbuf + δ) insize (outbuf + δ) t extent i n j (m.moved δ, position)) := by
  induction n with
  | zero => intro j p m hm; exact .ret (a := (m, p)) hm
  | succ n ih =>
    intro j p m hm
    unfold unpackEntries
    refine .skip fun _ => .skip fun _ => .skip fun e => .ite Iff.rfl .exit ?_
    exact .bind (memcpy_movesTo hm (((Shifted.add δ _).padd _).padd _) ((Shifted.add δ _).padd _) (padd_range _ _) (padd_range _ _)
      (padd_range _ _) (padd_range _ _)) fun m' hm' => ih (j + 1) e m' hm'

theorem unpackLoop_movesTo {δ : Int} (cfg : Cfg) (inbuf insize outbuf : Int) (t : Typestruct) (extent : Int) (n : Nat) :
    ∀ i position (m : Mem), m.Fits δ → MovesTo δ (unpackLoop cfg inbuf insize outbuf t extent n i (m, position))
      (unpackLoop cfg (inbuf + δ) insize (outbuf + δ) t extent n i (m.moved δ, position)) := by
  induction n with
  | zero => intro i p m hm; exact .ret (a := (m, p)) hm
  | succ n ih =>
    intro i p m hm
    unfold unpackLoop
    exact .bind (unpackEntries_movesTo cfg inbuf insize outbuf t extent i _ 0 p m hm) fun x hx => ih (i + 1) x.2 x.1 hx

theorem Unpack_movesTo {δ : Int} (cfg : Cfg) {m : Mem} (hm : m.Fits δ) (inbuf insize position outbuf outcount : Int)
    (t : Typestruct) : MovesTo δ (Unpack cfg m inbuf insize position outbuf outcount t)
      (Unpack cfg (m.moved δ) (inbuf + δ) insize position (outbuf + δ) outcount t) := by
  unfold Unpack
  exact .skip fun _ => unpackLoop_movesTo cfg inbuf insize outbuf t _ _ 0 position m hm

/-! ## The handle table -/

section Table
variable {D : Type} (f : D → D)

/-- The objects in the table, replaced one by one. -/
def HTab.mapData (t : HTab D) : HTab D := { t with items := fun l => { t.items l with data := f (t.items l).data } }

/-- The object in an item replaced. -/
def Item.mapData (it : Item D) : Item D := { it with data := f it.data }

theorem mapData_set (t : HTab D) (l : Loc) (it : Item D) : (t.set l it).mapData f = (t.mapData f).set l (it.mapData f) := by
  unfold HTab.mapData HTab.set Item.mapData
  dsimp only
  congr 1
  funext l'
  split <;> rfl

theorem mapData_setData (t : HTab D) (l : Loc) (d : D) :
    (t.setData l d).mapData f = (t.mapData f).setData l (f d) := by
  unfold HTab.setData; rw [mapData_set]; rfl

theorem mapData_deref (t : HTab D) (l : Loc) : (t.mapData f).deref l = t.deref l >>= fun it => .ok (it.mapData f) := by
  unfold HTab.deref
  by_cases h : t.valid l
  · rw [if_pos h, if_pos (show (t.mapData f).valid l from h)]; rfl
  · rw [if_neg h, if_neg (show ¬ (t.mapData f).valid l from h)]; rfl

theorem mapData_initBlockN (t : HTab D) (b last : Nat) : initBlockN (t.mapData f) b last = (initBlockN t b last).mapData f := by
  have hfold : ∀ (l : List Nat) (t : HTab D),
      l.foldl (fun t i => t.set ⟨b, i⟩ { t.items ⟨b, i⟩ with handle := mkHandle b i, next := some ⟨b, i + 1⟩ }) (t.mapData f)
      = (l.foldl (fun t i => t.set ⟨b, i⟩ { t.items ⟨b, i⟩ with handle := mkHandle b i, next := some ⟨b, i + 1⟩ }) t).mapData f := by
    intro l
    induction l with
    | nil => intro t; rfl
    | cons i l ih =>
      intro t
      rw [List.foldl_cons, List.foldl_cons, ← ih, mapData_set]
      rfl
  unfold initBlockN
  dsimp only
  rw [hfold, mapData_set]
  rfl

theorem mapData_init_handles (t : HTab D) : init_handles (t.mapData f) = (init_handles t).mapData f := by
  unfold init_handles init_block
  dsimp only
  rw [mapData_initBlockN]
  generalize initBlockN t 0 _ = u
  unfold HTab.mapData HTab.set
  dsimp only
  congr 1
  funext l
  split <;> rfl

theorem mapData_inited (t : HTab D) : (if (t.mapData f).needInit then init_handles (t.mapData f) else t.mapData f)
    = (if t.needInit then init_handles t else t).mapData f := by
  rw [mapData_init_handles]
  show (if t.needInit then _ else _) = _
  split <;> rfl

theorem mapData_ptr (t : HTab D) (h : Int) :
    mpi_handle_to_ptr (t.mapData f) h = mpi_handle_to_ptr t h >>= fun x => .ok (x.1.mapData f, x.2) := by
  unfold mpi_handle_to_ptr
  dsimp only
  rw [mapData_inited]
  generalize (if t.needInit = true then init_handles t else t) = t
  split
  · rfl
  · rw [show itemAddr (t.mapData f) h = itemAddr t h from rfl]
    cases itemAddr t h <;> rfl

theorem mapData_free (t : HTab D) (h : Int) : mpi_free_handle (t.mapData f) h = mpi_free_handle t h >>= fun t => .ok (t.mapData f) := by
  unfold mpi_free_handle
  split
  · rfl
  · rw [show (t.mapData f).needInit = t.needInit from rfl, show itemAddr (t.mapData f) h = itemAddr t h from rfl]
    split
    · rfl
    · cases itemAddr t h with
      | ok l =>
        simp only [Res.ok_bind, Res.pure_eq]
        rw [show ({ t.set l { t.items l with next := t.nextfree } with nextfree := some l } : HTab D).mapData f
          = { (t.set l { t.items l with next := t.nextfree }).mapData f with nextfree := some l } from rfl, mapData_set]
        rfl
      | _ => rfl

/-- handles.c:208-222, the part of mpi_alloc_handle that takes its handle from a new block. -/
def newBlock (ib : HTab D → Nat → HTab D) (t : HTab D) (b : Nat) : HTab D × Int × Loc :=
  let t := ib t b
  let new : Loc := ⟨b, 0⟩
  let t := { t with nextfree := (t.items new).next }
  let t := t.set new { t.items new with next := none }
  let h := (t.items new).handle
  let t := { t with nblocks := t.nblocks + 1 }
  (t, h, new)

theorem mapData_newBlock {ib : HTab D → Nat → HTab D} (hib : ∀ t b, ib (t.mapData f) b = (ib t b).mapData f) (t : HTab D)
    (b : Nat) : newBlock ib (t.mapData f) b = ((newBlock ib t b).1.mapData f, (newBlock ib t b).2) := by
  unfold newBlock
  dsimp only
  rw [hib]
  generalize ib t b = u
  unfold HTab.mapData HTab.set
  dsimp only
  congr 1
  · congr 1
    funext l
    split <;> rfl
  · rw [if_pos rfl, if_pos rfl]

theorem mapData_alloc (t : HTab D) (d : D) : mpi_alloc_handle (t.mapData f) (f d)
    = mpi_alloc_handle t d >>= fun x => .ok (x.1.mapData f, x.2) := by
  unfold mpi_alloc_handle
  dsimp only
  rw [mapData_inited]
  generalize (if t.needInit = true then init_handles t else t) = t
  obtain ⟨ni, nb, items, nf⟩ := t
  cases nf with
  | some new =>
    show (HTab.mapData f ⟨ni, nb, items, some new⟩).deref new >>= _ = _
    rw [mapData_deref]
    dsimp only
    cases HTab.deref (⟨ni, nb, items, some new⟩ : HTab D) new with
    | ok it =>
      simp only [Res.ok_bind, Res.pure_eq]
      rw [mapData_set]
      rfl
    | _ => rfl
  | none =>
    show (if nb = 1024 then _ else _) = (if nb = 1024 then _ else _) >>= _
    by_cases hb : nb = 1024
    · rw [if_pos hb, if_pos hb]; rfl
    · rw [if_neg hb, if_neg hb]
      have h1 : (⟨ni, nb, fun l => if l.block = nb then ⟨0, none, f d⟩ else (items l).mapData f, none⟩ : HTab D)
          = HTab.mapData f ⟨ni, nb, fun l => if l.block = nb then ⟨0, none, d⟩ else items l, none⟩ := by
        unfold HTab.mapData
        dsimp only
        congr 1
        funext l
        split <;> rfl
      have hib : ∀ (t : HTab D) b, init_block (t.mapData f) b = (init_block t b).mapData f := fun t b => mapData_initBlockN f t b _
      generalize (init_block : HTab D → Nat → HTab D) = ib at hib ⊢
      show Res.ok (newBlock ib ⟨ni, nb, fun l => if l.block = nb then ⟨0, none, f d⟩ else (items l).mapData f, none⟩ nb)
        = Res.ok (newBlock ib ⟨ni, nb, fun l => if l.block = nb then ⟨0, none, d⟩ else items l, none⟩ nb) >>= _
      rw [h1, mapData_newBlock f hib]
      exact (Res.ok_bind _ _).symm

end Table

end MpiSerial
