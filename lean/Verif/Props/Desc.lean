import Verif.Proofs.DescUse
import Verif.Props.Types
import Verif.Props.Address

/-!
# C66: Datatype descriptors stay inside their storage

A descriptor is an object of `40 + 16 n` bytes: the header and `n` pairs.  The functions of type.c, copy.c and
pack.c are run on the bytes (`Model/Desc.lean`, `Model/DescUse.lean`), where every load and store is checked against the size of the object, and compared
with the functions on values (`Model/Types.lean`) about which the other properties speak.
-/

set_option autoImplicit false

namespace MpiSerial

open Raw Res

/-- C66: the offsets and sizes in `Model/Desc.lean` are those of the struct declarations in type.h. -/
theorem C66_layout :
    (layout 0 typestructMembers).1 = [offCount, offUb, offLb, offCommitted, offOLb, offOUb, offDisp 0] ∧
      asMember typestructMembers = ⟨sizeofTypestruct, 8⟩ ∧
      (layout 0 typepairMembers).1 = [offDisp 0 - offDisp 0, offType 0 - offDisp 0] ∧
      asMember typepairMembers = ⟨sizeofTypepair, 8⟩ ∧
      (∀ k, offDisp k = offDisp 0 + k * sizeofTypepair ∧ offType k = offType 0 + k * sizeofTypepair) := by
  refine ⟨by decide, rfl, by decide, rfl, fun k => ?_⟩
  simp only [offDisp, offType, sizeofTypepair]
  omega

/-- C66: the storage asked for has room for the pairs that are counted, and for one more. -/
theorem C66_size {c : Int} (h0 : 0 ≤ c) (h1 : c ≤ 2147483647) (junk : Nat → UInt8) :
    ∃ z b, structSize c = .ok z ∧ Raw.malloc junk z = some b ∧ Holds b (c.toNat + 1) := by
  obtain ⟨b, hm, hb, _⟩ := malloc_ok (junk := junk) (by omega : -1 ≤ c) h1
  refine ⟨_, b, structSize_ok (by omega) h1, hm, ?_⟩
  rw [show c.toNat + 1 = (c + 1).toNat by omega]
  exact hb

/-! ## Concrete objects, for the examples -/

/-- The bytes of the predefined MPI_INT (type_const.c:14) on a little-endian machine. -/
def intBytes : Blob :=
  [1, 0, 0, 0, 0, 0, 0, 0, 4, 0, 0, 0, 0, 0, 0, 0, 0, 0, 0, 0, 0, 0, 0, 0, 1, 0, 0, 0, 0, 0, 0, 0, 0, 0, 0, 0, 0, 0, 0, 0,
    0, 0, 0, 0, 0, 0, 0, 0, 2, 0, 0, 0, 0, 0, 0, 0, 0, 0, 0, 0, 0, 0, 0, 0, 0, 0, 0, 0, 0, 0, 0, 0]

example : decode .little intBytes = static1 4 2 := by decide +kernel

theorem intBytes_sound : Sound .little intBytes := ⟨2, rfl, by decide +kernel, by decide +kernel, by decide⟩

/-- What malloc leaves in the new object. -/
def noise (i : Nat) : UInt8 := UInt8.ofNat (i * 37 + 5)

/-! ## Construction -/

/-- A call of one of the functions of type.c that make a descriptor. -/
inductive Construct where
  | struct (blocks : List Raw.Block)
  | contiguous (count : Int) (old : Blob)
  | hvector (count blocklen stride : Int) (old : Blob)
  | vector (count blocklen stride : Int) (old : Blob)
  | hindexed (count : Int) (blocklens disps : List Int) (old : Blob)
  | indexed (count : Int) (blocklens disps : List Int) (old : Blob)
  | indexedBlock (count blocklen : Int) (disps : List Int) (old : Blob)

namespace Construct

/-- The call on the bytes of descriptors. -/
def bytes (cfg : Cfg) (bo : ByteOrder) (junk : Nat → UInt8) : Construct → Res Blob
  | struct bs => Raw.Type_struct cfg bo junk bs
  | contiguous n o => Raw.Type_contiguous cfg bo junk n o
  | hvector n l s o => Raw.Type_hvector cfg bo junk n l s o
  | vector n l s o => Raw.Type_vector cfg bo junk n l s o
  | hindexed n ls ds o => Raw.Type_hindexed cfg bo junk n ls ds o
  | indexed n ls ds o => Raw.Type_indexed cfg bo junk n ls ds o
  | indexedBlock n l ds o => Raw.Type_create_indexed_block cfg bo junk n l ds o

/-- The call on descriptors as values. -/
def values (cfg : Cfg) (bo : ByteOrder) (g : Garbage) : Construct → Res Typestruct
  | struct bs => Type_struct cfg g (bs.map fun b => ⟨b.len, b.disp, decode bo b.ty⟩)
  | contiguous n o => Type_contiguous cfg g n (decode bo o)
  | hvector n l s o => Type_hvector cfg g n l s (decode bo o)
  | vector n l s o => Type_vector cfg g n l s (decode bo o)
  | hindexed n ls ds o => Type_hindexed cfg g n ls ds (decode bo o)
  | indexed n ls ds o => Type_indexed cfg g n ls ds (decode bo o)
  | indexedBlock n l ds o => Type_create_indexed_block cfg g n l ds (decode bo o)

/-- The old descriptors are inside their storage and no block length is negative. -/
def Proper (bo : ByteOrder) : Construct → Prop
  | struct bs => ∀ b ∈ bs, 0 ≤ b.len ∧ Sound bo b.ty
  | contiguous _ o => Sound bo o
  | hvector _ l _ o => 0 ≤ l ∧ Sound bo o
  | vector _ l _ o => 0 ≤ l ∧ Sound bo o
  | hindexed _ ls _ o => (∀ l ∈ ls, 0 ≤ l) ∧ Sound bo o
  | indexed _ ls _ o => (∀ l ∈ ls, 0 ≤ l) ∧ Sound bo o
  | indexedBlock _ l _ o => 0 ≤ l ∧ Sound bo o

end Construct

/-- A run that returns something with a property. -/
theorem runs_iff {α : Type} (r : Res α) (p : α → Prop) [DecidablePred p] :
    (match r with | .ok b => decide (p b) | _ => false) = true ↔ ∃ b, r = .ok b ∧ p b := by
  cases r <;> simp

/-- C66: a constructor on bytes ends as the one on values, so there is no access outside an object that the
functions on values do not show; the new object holds the new descriptor and one pair more than it counts. -/
theorem C66_build (cfg : Cfg) {bo : ByteOrder} (junk : Nat → UInt8) {x : Construct} (hx : x.Proper bo) :
    (x.bytes cfg bo junk).Rel (fun b t => decode bo b = t ∧ Holds b (t.count.toNat + 1) ∧ Sound bo b)
      (x.values cfg bo (leftover bo junk)) := by
  have key : (x.bytes cfg bo junk).Rel (fun b t => Stores bo b t ∧ Sound bo b) (x.values cfg bo (leftover bo junk)) := by
    cases x with
    | struct bs => exact (struct_rel_sound cfg hx).mono fun b t hb _ h => ⟨h, struct_sound hx hb⟩
    | contiguous n o => exact contiguous_rel cfg hx n
    | hvector n l s o => exact hvector_rel cfg hx.2 n s hx.1
    | vector n l s o => exact vector_rel cfg hx.2 n s hx.1
    | hindexed n ls ds o => exact hindexed_rel cfg hx.2 n ds hx.1
    | indexed n ls ds o => exact indexed_rel cfg hx.2 n ds hx.1
    | indexedBlock n l ds o => exact indexed_block_rel cfg hx.2 n ds hx.1
  refine key.mono fun b t _ _ ⟨⟨h1, h2⟩, h3⟩ => ⟨h1, ?_, h3⟩
  have : 0 ≤ t.count := by rw [← h1]; exact h3.count
  rw [show t.count.toNat + 1 = (t.count + 1).toNat by omega]
  exact h2

/-- Two rows of three ints, ten ints apart: six pairs, in an object with room for seven. -/
example : (Construct.vector 2 3 10 intBytes).Proper .little ∧
    ∃ b, (Construct.vector 2 3 10 intBytes).bytes {} .little noise = .ok b ∧ Holds b 7 ∧
      (decode .little b).pairs.take 6 = [⟨0, 2⟩, ⟨4, 2⟩, ⟨8, 2⟩, ⟨40, 2⟩, ⟨44, 2⟩, ⟨48, 2⟩] :=
  ⟨⟨by decide, intBytes_sound⟩, by
    have h : ∃ b, (Construct.vector 2 3 10 intBytes).bytes {} .little noise = .ok b ∧ b.length = 40 + 16 * 7 ∧
      (decode .little b).pairs.take 6 = [⟨0, 2⟩, ⟨4, 2⟩, ⟨8, 2⟩, ⟨40, 2⟩, ⟨44, 2⟩, ⟨48, 2⟩] :=
        (runs_iff _ _).1 (by decide +kernel)
    exact h⟩

/-- C66: under the hypotheses of C24 `Type_struct` on bytes returns, without leaving an object, and the new
object contains the type map of the standard. -/
theorem C66_struct_standard (cfg : Cfg) (hcfg : cfg.Ok) {bo : ByteOrder} (junk : Nat → UInt8) (e : Typestruct → Int)
    (xs : List (Int × Int × Blob)) (hs : ∀ x ∈ xs, Sound bo x.2.2)
    (hcomp : ∀ x ∈ xs, IsMarker (decode bo x.2.2) ∨ DataDesc cfg (decode bo x.2.2))
    (hext : ∀ x ∈ xs, ¬ IsMarker (decode bo x.2.2) →
      Raw.Type_extent cfg bo x.2.2 = .ok (u64 (e (decode bo x.2.2))))
    (hlen : ∀ x ∈ xs, 0 ≤ x.1)
    (hf : Fits (xs.flatMap fun x => blockSpec e (x.1, x.2.1, decode bo x.2.2))) :
    ∃ b, Raw.Type_struct cfg bo junk (xs.map fun x => ⟨x.1, u64 x.2.1, x.2.2⟩) = .ok b ∧ Sound bo b ∧
      typeMap (decode bo b) = xs.flatMap fun x => blockSpec e (x.1, x.2.1, decode bo x.2.2) := by
  have hp : (Construct.struct (xs.map fun x => ⟨x.1, u64 x.2.1, x.2.2⟩)).Proper bo := by
    intro b hb
    obtain ⟨x, hx, rfl⟩ := List.mem_map.1 hb
    exact ⟨hlen x hx, hs x hx⟩
  have hr := C66_build cfg junk hp
  obtain ⟨t, h1, h2, _⟩ := C24_struct_typemap cfg hcfg (leftover bo junk) e
    (xs.map fun x => (x.1, x.2.1, decode bo x.2.2))
    (fun y hy => by obtain ⟨x, hx, rfl⟩ := List.mem_map.1 hy; exact hcomp x hx)
    (fun y hy hm => by
      obtain ⟨x, hx, rfl⟩ := List.mem_map.1 hy
      obtain ⟨n, hn, _⟩ := hs x hx
      rw [← Type_extent_eq cfg hn]
      exact hext x hx hm)
    (fun y hy _ => by obtain ⟨x, hx, rfl⟩ := List.mem_map.1 hy; exact hlen x hx)
    (by rw [List.flatMap_map]; exact hf.1) (by rw [List.flatMap_map]; exact hf.2)
  have hv : (Construct.struct (xs.map fun x => ⟨x.1, u64 x.2.1, x.2.2⟩)).values cfg bo (leftover bo junk) = .ok t := by
    rw [← h1, Construct.values, List.map_map, List.map_map]
    rfl
  rw [hv] at hr
  cases hb : (Construct.struct (xs.map fun x => ⟨x.1, u64 x.2.1, x.2.2⟩)).bytes cfg bo junk with
  | ok b =>
    rw [hb] at hr
    refine ⟨b, hb, hr.2.2, ?_⟩
    rw [hr.1, h2, List.flatMap_map]
  | _ => rw [hb] at hr; exact hr.elim

/-- Two ints at 0 and one at 16. -/
example : Cfg.Ok {} ∧ Sound .little intBytes ∧ DataDesc {} (decode .little intBytes) ∧
    Raw.Type_extent {} .little intBytes = .ok (u64 4) ∧
    ∃ b, Raw.Type_struct {} .little noise [⟨2, 0, intBytes⟩, ⟨1, 16, intBytes⟩] = .ok b ∧
      typeMap (decode .little b) = [(0, 2), (4, 2), (16, 2)] :=
  ⟨by constructor <;> decide, intBytes_sound,
    by rw [show decode .little intBytes = static1 4 2 by decide +kernel]; exact intDesc,
    by decide +kernel, (runs_iff _ _).1 (by decide +kernel)⟩

/-! ## Use -/

/-- C66: the functions that read a descriptor do on the bytes what they do on the value. -/
theorem C66_queries (cfg : Cfg) {bo : ByteOrder} {b : Blob} (h : Sound bo b) :
    Raw.Type_extent cfg bo b = Type_extent cfg (decode bo b) ∧ Raw.Type_size cfg bo b = Type_size cfg (decode bo b) ∧
      Raw.Type_lb bo b = .ok (Type_lb (decode bo b)) ∧ Raw.Type_ub bo b = .ok (Type_ub (decode bo b)) := by
  obtain ⟨n, hn, _⟩ := h
  exact ⟨Type_extent_eq cfg hn, Type_size_eq cfg hn, Type_lb_eq hn, Type_ub_eq hn⟩

/-- C66: committing stores the flag and nothing else. -/
theorem C66_commit {bo : ByteOrder} {b : Blob} (h : Sound bo b) :
    ∃ b', Raw.Type_commit bo b = .ok b' ∧ decode bo b' = { decode bo b with committed := 1 } ∧ Sound bo b' := by
  obtain ⟨n, hn, h1, h2, h3⟩ := h
  obtain ⟨e, H⟩ := hn.setInt (bo := bo) (off := offCommitted) (v := 1) (by decide)
  have hd := decode_setCommitted (bo := bo) hn 1
  rw [show s32 1 = 1 by decide] at hd
  exact ⟨_, e, hd, n, H, by rw [hd]; exact h1, by rw [hd]; exact h2, h3⟩

/-- C66: the header fields and every pair that is counted can be read, and hold what the value says. -/
theorem C66_access {bo : ByteOrder} {b : Blob} (h : Sound bo b) :
    b.int bo offCount = .ok (decode bo b).count ∧ b.int bo offCommitted = .ok (decode bo b).committed ∧
      ∀ k, k < (decode bo b).count.toNat → ∃ p, (decode bo b).pairs[k]? = some p ∧
        b.long bo (offDisp k) = .ok p.disp ∧ b.int bo (offType k) = .ok p.type := by
  obtain ⟨n, hn, h1, h2⟩ := h
  refine ⟨count_ok hn, committed_ok hn, fun k hk => ?_⟩
  have hkn : k < n := by omega
  refine ⟨_, by rw [decode_get hn, if_pos hkn], ?_, ?_⟩
  · exact long_ok (by rw [hn, offDisp]; omega)
  · exact int_ok (by rw [hn, offType]; omega)

example : Raw.Type_extent {} .little intBytes = .ok 4 ∧ Raw.Type_size {} .little intBytes = .ok 4 ∧
    Raw.Type_ub .little intBytes = .ok 4 ∧ intBytes.int .little (offType 0) = .ok 2 ∧
    intBytes.int .little (offType 2) = .ub .badPtr ∧
    ∃ b, Raw.Type_commit .little intBytes = .ok b ∧ (decode .little b).committed = 1 :=
  ⟨by decide +kernel, by decide +kernel, by decide +kernel, by decide +kernel, by decide +kernel,
    (runs_iff _ _).1 (by decide +kernel)⟩

theorem sound_wf {bo : ByteOrder} {b : Blob} (h : Sound bo b) : (decode bo b).WF := by
  obtain ⟨n, hn, h1, h2, h3⟩ := h
  have := decode_pairs_length (bo := bo) hn
  refine ⟨h1, by omega, fun h => ?_⟩
  rw [h] at this
  simp at this
  omega

/-- C66: no function of type.c that makes or reads descriptors accesses anything outside the objects that hold
them, when the old ones are inside their storage and no block length is negative. -/
theorem C66_inside (cfg : Cfg) {bo : ByteOrder} (junk : Nat → UInt8) :
    (∀ x : Construct, x.Proper bo → x.bytes cfg bo junk ≠ .ub .badPtr ∧ x.bytes cfg bo junk ≠ .ub .nullPtr) ∧
      ∀ b, Sound bo b → Raw.Type_extent cfg bo b ≠ .ub .badPtr ∧ Raw.Type_size cfg bo b ≠ .ub .badPtr ∧
        Raw.Type_lb bo b ≠ .ub .badPtr ∧ Raw.Type_ub bo b ≠ .ub .badPtr ∧ Raw.Type_commit bo b ≠ .ub .badPtr := by
  refine ⟨fun x hx => ?_, fun b hb => ?_⟩
  · have key : Inside (x.values cfg bo (leftover bo junk)) := by
      cases x with
      | struct bs =>
        exact inside_struct _ fun b hb => by
          obtain ⟨b', hb', rfl⟩ := List.mem_map.1 hb
          exact ⟨sound_wf (hx b' hb').2, (hx b' hb').1⟩
      | contiguous n o => exact inside_contiguous _ (sound_wf hx) n
      | hvector n l s o => exact inside_hvector _ (sound_wf hx.2) n hx.1 s
      | vector n l s o => exact inside_vector _ (sound_wf hx.2) n hx.1 s
      | hindexed n ls ds o => exact inside_hindexed _ (sound_wf hx.2) n hx.1 ds
      | indexed n ls ds o => exact inside_indexed _ (sound_wf hx.2) n hx.1 ds
      | indexedBlock n l ds o => exact inside_indexed_block _ (sound_wf hx.2) n hx.1 ds
    have hr := C66_build cfg junk hx
    have back : ∀ u, x.bytes cfg bo junk = .ub u → x.values cfg bo (leftover bo junk) = .ub u := fun u h => by
      rw [h] at hr
      cases hv : x.values cfg bo (leftover bo junk) with
      | ub v => rw [hv] at hr; rw [show u = v from hr]
      | _ => rw [hv] at hr; exact hr.elim
    exact ⟨fun h => (key _ (back _ h)).1 rfl, fun h => (key _ (back _ h)).2 rfl⟩
  · obtain ⟨h1, h2, h3, h4⟩ := C66_queries cfg hb
    obtain ⟨b', h5, _⟩ := C66_commit hb
    have hf := (sound_wf hb).fits
    rw [h1, h2, h3, h4, h5]
    exact ⟨fun h => (inside_extent hf _ h).1 rfl, fun h => (inside_size hf _ h).1 rfl, nofun, nofun, nofun⟩

/-! ## Copying and packing -/

/-- C66: copying between two buffers, packing and unpacking with the bytes of descriptors do what they do with their
values, so the theorems about messages (C31, C32) and packing (C33, C34) hold for them. -/
theorem C66_use (cfg : Cfg) {bo : ByteOrder} {st dt : Blob} (hs : Sound bo st) (hd : Sound bo dt) (m : Mem) (x y p q r : Int) :
    Raw.Pcopy_data2 cfg bo m x p st y q dt = Pcopy_data2 cfg m x p (decode bo st) y q (decode bo dt) ∧
      Raw.Pack cfg bo m x p st y q r = Pack cfg m x p (decode bo st) y q r ∧
      Raw.Unpack cfg bo m x p q y r dt = Unpack cfg m x p q y r (decode bo dt) ∧
      Raw.Pack_size cfg bo p st = Pack_size cfg p (decode bo st) :=
  ⟨Pcopy_data2_eq cfg hs hd .., Pack_eq cfg hs .., Unpack_eq cfg hd .., Raw.Pack_size_eq cfg hs _⟩

/-- C66: and they never leave the descriptors, whatever the counts, buffers and offsets are. -/
theorem C66_use_inside (cfg : Cfg) {bo : ByteOrder} {st dt : Blob} (hs : Sound bo st) (hd : Sound bo dt) (m : Mem) (x y p q r : Int) :
    Raw.Pcopy_data2 cfg bo m x p st y q dt ≠ .ub .badPtr ∧ Raw.Pack cfg bo m x p st y q r ≠ .ub .badPtr ∧
      Raw.Unpack cfg bo m x p q y r dt ≠ .ub .badPtr ∧ Raw.Pack_size cfg bo p st ≠ .ub .badPtr := by
  obtain ⟨h1, h2, h3, h4⟩ := C66_use cfg hs hd m x y p q r
  rw [h1, h2, h3, h4]
  exact ⟨fun h => (inside_copy (sound_wf hs) (sound_wf hd) _ _ _ _ _ _ h).1 rfl,
    fun h => (inside_pack (sound_wf hs).fits _ _ _ _ _ _ _ h).1 rfl,
    fun h => (inside_unpack (sound_wf hd).fits _ _ _ _ _ _ _ h).1 rfl,
    fun h => (inside_packSize (sound_wf hs).fits _ _ h).1 rfl⟩

/-- Two ints from 0 to 100, packed to 200, unpacked to 300. -/
example : ∃ m, Raw.Pcopy_data2 {} .little (fun a => some (UInt8.ofNat a.toNat)) 0 2 intBytes 100 2 intBytes = .ok m ∧
      m 104 = some 4 ∧ m 107 = some 7 ∧ m 108 = some 108 :=
  (runs_iff _ fun m : Mem => m 104 = some 4 ∧ m 107 = some 7 ∧ m 108 = some 108).1 (by decide +kernel)

example : ∃ s, Raw.Pack {} .little (fun a => some (UInt8.ofNat a.toNat)) 0 2 intBytes 200 10 1 = .ok s ∧
    s.2 = 9 ∧ s.1 201 = some 0 ∧ s.1 208 = some 7 ∧ s.1 209 = some 209 :=
  (runs_iff _ fun s : Mem × Int => s.2 = 9 ∧ s.1 201 = some 0 ∧ s.1 208 = some 7 ∧ s.1 209 = some 209).1 (by decide +kernel)

example : ∃ s, Raw.Unpack {} .little (fun a => some (UInt8.ofNat a.toNat)) 200 10 1 50 2 intBytes = .ok s ∧
    s.2 = 9 ∧ s.1 50 = some 201 ∧ s.1 57 = some 208 ∧ s.1 58 = some 58 :=
  (runs_iff _ fun s : Mem × Int => s.2 = 9 ∧ s.1 50 = some 201 ∧ s.1 57 = some 208 ∧ s.1 58 = some 58).1 (by decide +kernel)

/-! ## Descriptors that can occur -/

/-- Objects that hold descriptors: the predefined ones (72 bytes of static storage each) and those that calls make
and commit. -/
inductive Occurs (cfg : Cfg) (bo : ByteOrder) : Blob → Prop where
  | predefined {b : Blob} : Holds b 2 → decode bo b ∈ simpletypes cfg → Occurs cfg bo b
  | struct {junk : Nat → UInt8} {bs : List Raw.Block} {b : Blob} : (∀ x ∈ bs, 0 ≤ x.len) → (∀ x ∈ bs, Occurs cfg bo x.ty) →
      Raw.Type_struct cfg bo junk bs = .ok b → Occurs cfg bo b
  | contiguous {junk : Nat → UInt8} {n : Int} {o b : Blob} : Occurs cfg bo o →
      Raw.Type_contiguous cfg bo junk n o = .ok b → Occurs cfg bo b
  | hvector {junk : Nat → UInt8} {n l s : Int} {o b : Blob} : Occurs cfg bo o → 0 ≤ l →
      Raw.Type_hvector cfg bo junk n l s o = .ok b → Occurs cfg bo b
  | vector {junk : Nat → UInt8} {n l s : Int} {o b : Blob} : Occurs cfg bo o → 0 ≤ l →
      Raw.Type_vector cfg bo junk n l s o = .ok b → Occurs cfg bo b
  | hindexed {junk : Nat → UInt8} {n : Int} {ls ds : List Int} {o b : Blob} : Occurs cfg bo o → (∀ l ∈ ls, 0 ≤ l) →
      Raw.Type_hindexed cfg bo junk n ls ds o = .ok b → Occurs cfg bo b
  | indexed {junk : Nat → UInt8} {n : Int} {ls ds : List Int} {o b : Blob} : Occurs cfg bo o → (∀ l ∈ ls, 0 ≤ l) →
      Raw.Type_indexed cfg bo junk n ls ds o = .ok b → Occurs cfg bo b
  | indexedBlock {junk : Nat → UInt8} {n l : Int} {ds : List Int} {o b : Blob} : Occurs cfg bo o → 0 ≤ l →
      Raw.Type_create_indexed_block cfg bo junk n l ds o = .ok b → Occurs cfg bo b
  | commit {o b : Blob} : Occurs cfg bo o → Raw.Type_commit bo o = .ok b → Occurs cfg bo b

theorem simpletypes_counts (cfg : Cfg) : ∀ t ∈ simpletypes cfg, 0 ≤ t.count ∧ t.count ≤ 2 ∧ t.pairs.length = 2 := by
  intro t ht
  simp only [simpletypes, List.mem_cons, List.not_mem_nil, or_false] at ht
  rcases ht with rfl | rfl | rfl | rfl | rfl | rfl | rfl | rfl | rfl | rfl | rfl | rfl | rfl | rfl | rfl | rfl | rfl | rfl | rfl | rfl | rfl | rfl | rfl | rfl | rfl | rfl | rfl | rfl | rfl | rfl | rfl | rfl | rfl | rfl | rfl | rfl | rfl | rfl | rfl | rfl | rfl | rfl | rfl | rfl | rfl <;>
    exact ⟨by simp [static1, static2], by simp [static1, static2], by simp [static1, static2]⟩

theorem simpletypes_range {cfg : Cfg} (hcfg : cfg.Ok) {t : Typestruct} (ht : t ∈ simpletypes cfg) : InRange t := by
  obtain ⟨h1, h2, h3, h4⟩ := hcfg
  have r : ∀ x : Int, 0 ≤ x → x ≤ 1024 → s64 x = x := fun x _ _ => by unfold s64; omega
  have a0 : s64 0 = 0 := by decide
  have b0 : s32 0 = 0 := by decide
  have a1 : s32 1 = 1 := by decide
  have a2 : s32 2 = 2 := by decide
  have one : ∀ u k : Int, 0 ≤ u → u ≤ 1024 → s32 k = k → InRange (static1 u k) := fun u k h h' hk =>
    ⟨a1, r u h h', a0, a1, b0, b0, by
      intro p hp
      simp only [static1, List.mem_cons, List.not_mem_nil, or_false] at hp
      rcases hp with rfl | rfl
      · exact ⟨a0, hk⟩
      · exact ⟨by decide, by decide⟩⟩
  have two : ∀ u k d l : Int, 0 ≤ u → u ≤ 1024 → s32 k = k → s64 d = d → s32 l = l → InRange (static2 u k d l) :=
    fun u k d l h h' hk hd hl => ⟨a2, r u h h', a0, a1, b0, b0, by
      intro p hp
      simp only [static2, List.mem_cons, List.not_mem_nil, or_false] at hp
      rcases hp with rfl | rfl
      · exact ⟨a0, hk⟩
      · exact ⟨hd, hl⟩⟩
  simp only [simpletypes, List.mem_cons, List.not_mem_nil, or_false] at ht
  rcases ht with rfl | rfl | rfl | rfl | rfl | rfl | rfl | rfl | rfl | rfl | rfl | rfl | rfl | rfl | rfl | rfl | rfl | rfl | rfl | rfl | rfl | rfl | rfl | rfl | rfl | rfl | rfl | rfl | rfl | rfl | rfl | rfl | rfl | rfl | rfl | rfl | rfl | rfl | rfl | rfl | rfl | rfl | rfl | rfl | rfl <;>
    first
      | exact one _ _ (by omega) (by omega) (by decide)
      | exact two _ _ _ _ (by omega) (by omega) (by decide) (by unfold s64; omega) (by decide)

/-- C66: the pairs of every descriptor that occurs are inside its storage. -/
theorem C66_invariant {cfg : Cfg} {bo : ByteOrder} {b : Blob} (h : Occurs cfg bo b) : Sound bo b := by
  induction h with
  | predefined h1 h2 =>
    obtain ⟨h3, h4, _⟩ := simpletypes_counts cfg _ h2
    exact ⟨2, h1, h3, h4, by decide⟩
  | @struct junk bs b hl _ hb ih =>
    exact ((C66_build cfg junk (x := .struct bs) fun x hx => ⟨hl x hx, ih x hx⟩).ok_left hb).elim fun _ h => h.2.2.2
  | @contiguous junk n o b _ hb ih => exact ((C66_build cfg junk (x := .contiguous n o) ih).ok_left hb).elim fun _ h => h.2.2.2
  | @hvector junk n l s o b _ hl hb ih =>
    exact ((C66_build cfg junk (x := .hvector n l s o) ⟨hl, ih⟩).ok_left hb).elim fun _ h => h.2.2.2
  | @vector junk n l s o b _ hl hb ih =>
    exact ((C66_build cfg junk (x := .vector n l s o) ⟨hl, ih⟩).ok_left hb).elim fun _ h => h.2.2.2
  | @hindexed junk n ls ds o b _ hl hb ih =>
    exact ((C66_build cfg junk (x := .hindexed n ls ds o) ⟨hl, ih⟩).ok_left hb).elim fun _ h => h.2.2.2
  | @indexed junk n ls ds o b _ hl hb ih =>
    exact ((C66_build cfg junk (x := .indexed n ls ds o) ⟨hl, ih⟩).ok_left hb).elim fun _ h => h.2.2.2
  | @indexedBlock junk n l ds o b _ hl hb ih =>
    exact ((C66_build cfg junk (x := .indexedBlock n l ds o) ⟨hl, ih⟩).ok_left hb).elim fun _ h => h.2.2.2
  | commit _ hb ih =>
    obtain ⟨b', h1, _, h2⟩ := C66_commit ih
    rw [hb] at h1
    cases h1
    exact h2

/-- C66: the 72 bytes of a predefined type hold it, when the Fortran sizes are those of some compiler. -/
theorem C66_predefined {cfg : Cfg} (hcfg : cfg.Ok) (bo : ByteOrder) {t : Typestruct} (ht : t ∈ simpletypes cfg) :
    ∃ b, b.length = sizeofTypestruct ∧ decode bo b = t ∧ Occurs cfg bo b := by
  obtain ⟨b, h1, h2⟩ := encode (bo := bo) (simpletypes_range hcfg ht)
  rw [(simpletypes_counts cfg t ht).2.2] at h1
  exact ⟨b, h1, h2, .predefined h1 (by rw [h2]; exact ht)⟩

/-- MPI_INT, and three of it. -/
example : Occurs {} .little intBytes ∧ ∃ b, Occurs {} .little b ∧ (decode .little b).count = 3 := by
  have h : Occurs {} .little intBytes := .predefined rfl (by decide +kernel)
  obtain ⟨b, h1, h2⟩ := (runs_iff (Raw.Type_contiguous {} .little noise 3 intBytes)
    (fun b => (decode .little b).count = 3)).1 (by decide +kernel)
  exact ⟨h, b, .contiguous h h1, h2⟩

/-! ## What goes wrong -/

/-- C66: with negative block lengths the size can come out too small for the header.  Then the call does not
return: it runs into undefined behaviour or ends before. -/
theorem C66_negative (cfg : Cfg) {bo : ByteOrder} (junk : Nat → UInt8) {bs : List Raw.Block} {p : Pass1}
    (hp : Raw.structPass1 bo bs {} = .ok p) (hn : p.simpletype_count < -1) (b : Blob) :
    Raw.Type_struct cfg bo junk bs ≠ .ok b := negative_not_returned cfg hp hn b

/-- Block lengths -4 and 1: -3 pairs, 8 bytes, and the block with one element is stored past their end.  With -5 and
1 the size wraps around and malloc gives NULL. -/
example : (∃ p, Raw.structPass1 .little [⟨-4, 0, intBytes⟩, ⟨1, 0, intBytes⟩] {} = .ok p ∧ p.simpletype_count = -3) ∧
    Raw.Type_struct {} .little noise [⟨-4, 0, intBytes⟩, ⟨1, 0, intBytes⟩] = .ub .badPtr ∧
    Raw.Type_struct {} .little noise [⟨-5, 0, intBytes⟩, ⟨1, 0, intBytes⟩] = .ub .nullPtr :=
  ⟨(runs_iff _ _).1 (by decide +kernel), by decide +kernel, by decide +kernel⟩

/-- C66: `Type_dup` (type.c:668-685) allocates the size of a pointer.  Whatever the type is, its first store is outside
the new object.  No call uses the function: MPI_Type_dup is declared (mpi.h:431) and not defined. -/
theorem C66_dup_overruns {bo : ByteOrder} {old : Blob} (h : Sound bo old) (junk : Nat → UInt8) :
    Raw.Type_dup bo junk old = .ub .badPtr := by
  obtain ⟨n, hn, _⟩ := h
  have hm : Raw.malloc junk 8 = some ((List.range 8).map junk) := rfl
  rw [Raw.Type_dup, hm]
  simp only [committed_ok hn, Res.ok_bind]
  rw [setInt_bad (by simp [offCommitted])]
  rfl

example : Raw.Type_dup .little noise intBytes = .ub .badPtr := by decide +kernel

end MpiSerial
