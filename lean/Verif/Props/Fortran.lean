import Verif.Spec.Strings
import Verif.Props.Coll

/-!
# Strings (C42), C/Fortran conversions (C41), Fortran sentinels (C46)
-/

set_option autoImplicit false
set_option linter.unusedSimpArgs false

namespace MpiSerial

/-! ## C42 -/

theorem strlen_ok (text rest : List UInt8) (h : 0 ∉ text) : strlen (text ++ 0 :: rest) = .ok text.length := by
  induction text with
  | nil => simp [strlen]
  | cons c cs ih =>
    simp only [List.mem_cons, not_or] at h
    rw [List.cons_append, strlen, if_neg (fun h' => h.1 h'.symm), ih h.2]
    simp

theorem exists_string (b : CBuf) (k : Nat) (hk : b[k]? = some 0) :
    ∃ text rest, b = text ++ 0 :: rest ∧ (0 : UInt8) ∉ text ∧ text.length ≤ k := by
  induction b generalizing k with
  | nil => simp at hk
  | cons c cs ih =>
    by_cases hc : c = 0
    · exact ⟨[], cs, by simp [hc], by simp, by simp⟩
    · cases k with
      | zero => simp [hc] at hk
      | succ k =>
        obtain ⟨t, r, h1, h2, h3⟩ := ih k (by simpa using hk)
        refine ⟨c :: t, r, by rw [h1, List.cons_append], ?_, by simpa using h3⟩
        simp only [List.mem_cons, not_or]
        exact ⟨fun h => hc h.symm, h2⟩

theorem putBytes_ok {buf : CBuf} {i : Nat} {t : List UInt8} (h : i + t.length ≤ buf.length) :
    putBytes buf i t = .ok (buf.take i ++ t ++ buf.drop (i + t.length)) := by
  unfold putBytes; rw [if_pos h]

theorem putBytes_only {buf b : CBuf} {i n : Nat} {t : List UInt8} (h : putBytes buf i t = .ok b)
    (hn : i + t.length ≤ n) : OnlyFirst n buf b := by
  unfold putBytes at h
  split at h
  · rename_i hl
    injection h with h
    subst h
    constructor
    · simp only [List.length_append, List.length_take, List.length_drop]; omega
    · have hlen : (buf.take i ++ t).length = i + t.length := by
        simp only [List.length_append, List.length_take]; omega
      rw [List.drop_append, hlen, List.drop_drop, List.drop_eq_nil_of_le (by omega), List.nil_append]
      congr 1; omega
  · cases h

theorem OnlyFirst.trans {n : Nat} {a b c : CBuf} (h1 : OnlyFirst n a b) (h2 : OnlyFirst n b c) : OnlyFirst n a c :=
  ⟨h2.1.trans h1.1, h2.2.trans h1.2⟩

theorem digits_numeral (n : Nat) : IsNumeral (digits n) n := by
  induction n using Nat.strongRecOn with
  | _ n ih =>
    rw [digits]
    split
    · rename_i h
      have : (UInt8.ofNat (48 + n)).toNat = 48 + n := by
        rw [UInt8.toNat_ofNat']; omega
      refine ⟨by simp, ?_, ?_⟩
      · intro d hd
        simp only [List.mem_singleton] at hd
        subst hd; omega
      · simp only [digitsValue, List.foldl_cons, List.foldl_nil, this]; omega
    · rename_i h
      obtain ⟨h1, h2, h3⟩ := ih (n / 10) (by omega)
      have : (UInt8.ofNat (48 + n % 10)).toNat = 48 + n % 10 := by
        rw [UInt8.toNat_ofNat']; omega
      refine ⟨by simp, ?_, ?_⟩
      · intro d hd
        rw [List.mem_append, List.mem_singleton] at hd
        rcases hd with hd | hd
        · exact h2 d hd
        · subst hd; omega
      · unfold digitsValue at h3 ⊢
        rw [List.foldl_append, h3]
        simp only [List.foldl_cons, List.foldl_nil, this]; omega

theorem digits_length (k : Nat) : ∀ n, n < 10 ^ (k + 1) → (digits n).length ≤ k + 1 := by
  induction k with
  | zero => intro n hn; rw [digits, if_pos (by simpa using hn)]; simp
  | succ k ih =>
    intro n hn
    rw [digits]
    split
    · simp
    · rw [List.length_append, List.length_singleton]
      have := ih (n / 10) (by rw [Nat.pow_succ] at hn; omega)
      omega

theorem printInt_decimal (x : Int) : IsDecimal (printInt x) x := by
  unfold printInt
  split
  · exact .inr ⟨‹_›, _, rfl, digits_numeral _⟩
  · exact .inl ⟨by omega, digits_numeral _⟩

theorem IsNumeral.nul {ds : List UInt8} {n : Nat} (h : IsNumeral ds n) : (0 : UInt8) ∉ ds :=
  fun h0 => by have := (h.2.1 _ h0).1; simp at this

theorem printInt_nul (x : Int) : (0 : UInt8) ∉ printInt x := by
  rcases printInt_decimal x with ⟨_, h⟩ | ⟨_, ds, h, h'⟩
  · exact h.nul
  · rw [h]; simp only [List.mem_cons, not_or]; exact ⟨by decide, h'.nul⟩

theorem printInt_length (x : Int) (h1 : INT_MIN ≤ x) (h2 : x ≤ INT_MAX) : (printInt x).length ≤ 11 := by
  have : (digits x.natAbs).length ≤ 10 := digits_length 9 _ (by
    show x.natAbs < 10000000000
    omega)
  unfold printInt
  split <;> simp <;> omega

/-- C42: MPI_Error_string for any error code, into a buffer of MPI_MAX_ERROR_STRING (128) bytes or more:
a NUL-terminated string of fewer than 128 characters — the code in decimal — whose length is reported;
nothing is stored past the first 128 bytes. -/
theorem C42_error_string (code : Int) (h1 : INT_MIN ≤ code) (h2 : code ≤ INT_MAX) (buf : CBuf) (hb : 128 ≤ buf.length) :
    ∃ b text d, MPI_Error_string code buf = .ok (b, text.length) ∧ HoldsString b text ∧ text.length < 128 ∧
      OnlyFirst 128 buf b ∧ text = lit "MPI Error: code " ++ d ++ lit "\n" ∧ IsDecimal d code := by
  have hp := printInt_length code h1 h2
  have hl : (lit "MPI Error: code " ++ printInt code ++ lit "\n").length ≤ 28 := by
    simp only [List.length_append]
    have : (lit "MPI Error: code ").length = 16 := by decide +kernel
    have : (lit "\n").length = 1 := by decide +kernel
    omega
  have hnul : (0 : UInt8) ∉ lit "MPI Error: code " ++ printInt code ++ lit "\n" := by
    simp only [List.mem_append, not_or]
    exact ⟨⟨by decide +kernel, printInt_nul code⟩, by decide +kernel⟩
  have hput : 0 + (lit "MPI Error: code " ++ printInt code ++ lit "\n" ++ [0]).length ≤ buf.length := by
    rw [List.length_append, List.length_singleton]; omega
  refine ⟨_, _, _, ?_, ⟨hnul, buf.drop (0 + (lit "MPI Error: code " ++ printInt code ++ lit "\n" ++ [0]).length), ?_⟩,
    by omega, putBytes_only (putBytes_ok hput) ?_, rfl, printInt_decimal code⟩
  · unfold MPI_Error_string
    rw [putBytes_ok hput, Res.ok_bind, List.take_zero, List.nil_append, List.append_assoc _ [0], List.singleton_append,
      strlen_ok _ _ hnul, Res.ok_bind]
    simp only [Res.pure_eq]
    rw [s32_of_range (by omega) (by omega)]
  · rw [List.take_zero, List.nil_append, List.append_assoc _ [0], List.singleton_append]
  · rw [List.length_append, List.length_singleton]; omega

theorem strncpy_ok {dst : CBuf} {src : List UInt8} {n : Nat} (hd : n ≤ dst.length) :
    ∃ b, strncpy dst src n = .ok b ∧ OnlyFirst n dst b ∧
      b.take n = src.take n ++ List.replicate (n - src.length) 0 := by
  have hl : (src.take n ++ List.replicate (n - src.length) (0 : UInt8)).length = n := by
    simp only [List.length_append, List.length_take, List.length_replicate]; omega
  refine ⟨_, putBytes_ok (i := 0) (by omega), putBytes_only (putBytes_ok (i := 0) (by omega)) (by omega), ?_⟩
  rw [List.take_zero, List.nil_append, List.take_append_of_le_length (by omega), List.take_of_length_le (by omega)]

/-- Writing NUL at the last of `n + 1` bytes and taking the length: some string of at most `n` characters,
the one that was there if it was terminated in time. -/
theorem terminate {b : CBuf} {n : Nat} (hn : n < 2147483647) (hb : n + 1 ≤ b.length) :
    ∃ b' text, putBytes b n [0] = .ok b' ∧ strlen b' = .ok text.length ∧ s32 text.length = text.length ∧
      HoldsString b' text ∧ text.length ≤ n ∧ OnlyFirst (n + 1) b b' ∧
      (∀ t, HoldsString b t → t.length ≤ n → text = t) := by
  have hput : n + [(0 : UInt8)].length ≤ b.length := by simpa using hb
  have hat : (b.take n ++ [0] ++ b.drop (n + [(0 : UInt8)].length))[n]? = some 0 := by
    rw [List.append_assoc, List.getElem?_append_right (by simp; omega)]
    simp [Nat.min_eq_left (show n ≤ b.length by omega)]
  obtain ⟨text, rest, h1, h2, h3⟩ := exists_string _ _ hat
  refine ⟨_, text, putBytes_ok hput, by rw [h1]; exact strlen_ok _ _ h2, s32_of_range (by omega) (by omega),
    ⟨h2, rest, h1⟩, h3, putBytes_only (putBytes_ok hput) (by simp), ?_⟩
  rintro t ⟨ht0, r, hr⟩ htl
  -- both strings end at the first NUL
  have key : ∀ (x y rx ry : List UInt8), (0 : UInt8) ∉ x → (0 : UInt8) ∉ y → x ++ 0 :: rx = y ++ 0 :: ry → x = y := by
    intro x
    induction x with
    | nil =>
      intro y rx ry _ hy h
      cases y with
      | nil => rfl
      | cons c cs =>
        simp only [List.nil_append, List.cons_append, List.cons.injEq] at h
        exact absurd (by rw [← h.1]; simp) hy
    | cons c cs ih =>
      intro y rx ry hx hy h
      cases y with
      | nil =>
        simp only [List.nil_append, List.cons_append, List.cons.injEq] at h
        exact absurd (by rw [h.1]; simp) hx
      | cons d ds =>
        simp only [List.cons_append, List.cons.injEq] at h
        simp only [List.mem_cons, not_or] at hx hy
        rw [h.1, ih ds rx ry hx.2 hy.2 h.2]
  by_cases hlt : t.length < n
  · refine key text t rest (r.take (n - t.length - 1) ++ [0] ++ b.drop (n + 1)) h2 ht0 ?_
    rw [← h1, hr, List.take_append, List.take_of_length_le (by omega),
      show n - t.length = (n - t.length - 1) + 1 by omega, List.take_succ_cons]
    simp
  · refine key text t rest (b.drop (n + 1)) h2 ht0 ?_
    have : t.length = n := by omega
    rw [← h1, hr, List.take_append_of_le_length (by omega), List.take_of_length_le (by omega)]
    simp

/-- C42: MPI_Get_processor_name, whatever gethostname(name, 128) returns and leaves in those 128 bytes: a
NUL-terminated string of fewer than MPI_MAX_PROCESSOR_NAME (128) characters whose length is reported, nothing
stored past them.  If gethostname fails it is "unknown host name", if it delivers a string in time it is that
string. -/
theorem C42_processor_name (ret : Int) (host : List UInt8) (hh : host.length ≤ 128) (name : CBuf)
    (hn : 128 ≤ name.length) :
    ∃ b text, MPI_Get_processor_name ret host name = .ok (b, text.length) ∧ HoldsString b text ∧ text.length < 128 ∧
      OnlyFirst 128 name b ∧ (ret ≠ 0 → text = lit "unknown host name") ∧
      (ret = 0 → ∀ t, HoldsString host t → t.length < 128 → text = t) := by
  have hput : 0 + host.length ≤ name.length := by omega
  have hn1 := putBytes_only (putBytes_ok hput) (n := 128) (by omega)
  unfold MPI_Get_processor_name
  rw [putBytes_ok hput, Res.ok_bind]
  generalize hm : name.take 0 ++ host ++ name.drop (0 + host.length) = nm at hn1 ⊢
  by_cases hr : ret = 0
  · obtain ⟨b, text, h1, h2, h3, h4, h5, h6, h7⟩ := terminate (b := nm) (n := 127) (by omega) (by rw [hn1.1]; omega)
    refine ⟨b, text, ?_, h4, by omega, hn1.trans h6, fun h => absurd hr h, ?_⟩
    · simp [hr, h1, h2, h3]
    · rintro - t ⟨ht, rest, hrest⟩ htl
      refine h7 t ⟨ht, ?_⟩ (by omega)
      exact ⟨rest ++ name.drop (0 + host.length), by rw [← hm, hrest]; simp⟩
  · obtain ⟨c, hc, hc1, hc2⟩ := strncpy_ok (dst := nm) (src := lit "unknown host name") (n := 128) (by rw [hn1.1]; omega)
    obtain ⟨b, text, h1, h2, h3, h4, h5, h6, h7⟩ := terminate (b := c) (n := 127) (by omega) (by rw [hc1.1, hn1.1]; omega)
    refine ⟨b, text, ?_, h4, by omega, (hn1.trans hc1).trans h6, fun _ => ?_, fun h => absurd h hr⟩
    · simp [hr, hc, h1, h2, h3]
    · refine h7 _ ⟨by decide +kernel, List.replicate 110 0 ++ c.drop 128, ?_⟩ (by decide +kernel)
      have e := (List.take_append_drop 128 c).symm
      have : (lit "unknown host name").take 128 ++ List.replicate (128 - (lit "unknown host name").length) (0 : UInt8)
        = lit "unknown host name" ++ 0 :: List.replicate 110 0 := by decide +kernel
      rw [hc2, this] at e
      exact e.trans (by simp)

/-- C42: MPI_Get_library_version in C: the version string, NUL-terminated, fewer than
MPI_MAX_LIBRARY_VERSION_STRING (80) characters, nothing stored past 80 bytes. -/
theorem C42_library_version (version : CBuf) (hv : 80 ≤ version.length) :
    ∃ b, MPI_Get_library_version version = .ok (b, (lit "mpi-serial 2.5.0").length) ∧
      HoldsString b (lit "mpi-serial 2.5.0") ∧ (lit "mpi-serial 2.5.0").length < 80 ∧ OnlyFirst 80 version b := by
  obtain ⟨c, hc, hc1, hc2⟩ := strncpy_ok (dst := version) (src := mpi_version_string) (n := 80) hv
  obtain ⟨b, text, h1, h2, h3, h4, h5, h6, h7⟩ := terminate (b := c) (n := 79) (by omega) (by rw [hc1.1]; omega)
  have ht : text = lit "mpi-serial 2.5.0" := by
    refine h7 _ ⟨by decide +kernel, List.replicate 63 0 ++ c.drop 80, ?_⟩ (by decide +kernel)
    have e := (List.take_append_drop 80 c).symm
    have : mpi_version_string.take 80 ++ List.replicate (80 - mpi_version_string.length) (0 : UInt8)
      = lit "mpi-serial 2.5.0" ++ 0 :: List.replicate 63 0 := by decide +kernel
    rw [hc2, this] at e
    exact e.trans (by simp)
  subst ht
  refine ⟨b, ?_, h4, by decide +kernel, hc1.trans h6⟩
  unfold MPI_Get_library_version
  rw [hc, Res.ok_bind, h1, Res.ok_bind, h2, Res.ok_bind]
  simp only [Res.pure_eq]
  rw [h3]

/-- C42: mpi_get_library_version in Fortran: the version string, blank padded to 80 characters; nothing stored
past them; it never aborts. -/
theorem C42_library_version_fortran (version : CBuf) (hv : 80 ≤ version.length) :
    ∃ b, Fort.mpi_get_library_version version = .ok (b, (lit "mpi-serial 2.5.0").length) ∧
      b.take 80 = lit "mpi-serial 2.5.0" ++ List.replicate 64 32 ∧ OnlyFirst 80 version b := by
  obtain ⟨b, h1, ⟨h2, rest, h3⟩, h4, h5⟩ := C42_library_version version hv
  have hlen : (lit "mpi-serial 2.5.0").length = 16 := by decide +kernel
  have hb : b.length = version.length := h5.1
  have hput : 16 + (List.replicate (80 - (16 : Int)).toNat (32 : UInt8)).length ≤ b.length := by
    simp; omega
  refine ⟨_, ?_, ?_, h5.trans (putBytes_only (putBytes_ok hput) (by simp))⟩
  · unfold Fort.mpi_get_library_version
    rw [h1, Res.ok_bind]
    simp only [hlen]
    rw [if_neg (by decide), show (((16 : Nat) : Int)).toNat = 16 from rfl, show (((16 : Nat) : Int)) = (16 : Int) from rfl,
      putBytes_ok hput, Res.ok_bind]
    rfl
  · have : b.take 16 = lit "mpi-serial 2.5.0" := by
      rw [h3, List.take_append_of_le_length (by omega), List.take_of_length_le (by omega)]
    rw [this, show (80 - (16 : Int)).toNat = 64 from rfl, List.take_append_of_le_length (by simp [hlen]),
      List.take_of_length_le (by simp [hlen])]

/-! ### Instances -/

example : MPI_Error_string (-2147483648) (List.replicate 128 7) =
    .ok (lit "MPI Error: code -2147483648\n" ++ 0 :: List.replicate 99 7, 28) := by decide +kernel
/-- gethostname truncated the name without a NUL (allowed by POSIX). -/
example : (MPI_Get_processor_name 0 (List.replicate 128 65) (List.replicate 130 7)).getD ([], 0) =
    (List.replicate 127 65 ++ [0, 7, 7], 127) := by decide +kernel
example : ∃ b text, MPI_Get_processor_name (-1) [1, 2, 3] (List.replicate 128 7) = .ok (b, text.length) ∧
    text = lit "unknown host name" := by
  obtain ⟨b, t, h, _, _, _, h', _⟩ := C42_processor_name (-1) [1, 2, 3] (by decide) (List.replicate 128 7) (by simp)
  exact ⟨b, t, h, h' (by decide)⟩
/-- In 28 bytes the longest error string does not fit. -/
example : MPI_Error_string (-2147483648) (List.replicate 28 7) = .ub .memAccess := by decide +kernel

/-! ## C58 -/

/-- A C string is no blank-padded one, unless it fills the variable. -/
theorem HoldsString.not_fortran {b : CBuf} {text : List UInt8} (h : HoldsString b text) {n : Nat} (hn : text.length < n) :
    ¬ HoldsFortran n b text := by
  obtain ⟨_, rest, rfl⟩ := h
  rintro ⟨_, h⟩
  have h1 : ((text ++ 0 :: rest).take n)[text.length]? = some 0 := by
    rw [List.getElem?_take_of_lt hn, List.getElem?_append_right (Nat.le_refl _)]
    simp
  rw [h, List.getElem?_append_right (Nat.le_refl _), List.getElem?_replicate] at h1
  split at h1 <;> simp at h1

/-- C58: MPI_GET_LIBRARY_VERSION leaves the version, blank padded to MPI_MAX_LIBRARY_VERSION_STRING (80)
characters, and its length. -/
theorem C58_library_version (version : CBuf) (hv : 80 ≤ version.length) :
    ∃ b, Fort.mpi_get_library_version version = .ok (b, (lit "mpi-serial 2.5.0").length) ∧
      HoldsFortran 80 b (lit "mpi-serial 2.5.0") ∧ OnlyFirst 80 version b := by
  obtain ⟨b, h1, h2, h3⟩ := C42_library_version_fortran version hv
  refine ⟨b, h1, ⟨by decide +kernel, h2⟩, h3⟩

/-- C58 fails for MPI_ERROR_STRING, always: the text is in the first RESULTLEN characters, but what follows it in the
variable of MPI_MAX_ERROR_STRING (128) characters is a NUL, not blanks. -/
theorem C58_fails_error_string (code : Int) (h1 : INT_MIN ≤ code) (h2 : code ≤ INT_MAX) (buf : CBuf)
    (hb : 128 ≤ buf.length) :
    ∃ b text d, Fort.mpi_error_string code buf = .ok (b, text.length) ∧ b.take text.length = text ∧
      text = lit "MPI Error: code " ++ d ++ lit "\n" ∧ IsDecimal d code ∧ OnlyFirst 128 buf b ∧
      b[text.length]? = some 0 ∧ ¬ HoldsFortran 128 b text := by
  obtain ⟨b, text, d, e1, e2, e3, e4, e5, e6⟩ := C42_error_string code h1 h2 buf hb
  refine ⟨b, text, d, e1, ?_, e5, e6, e4, ?_, e2.not_fortran e3⟩
  · obtain ⟨_, rest, rfl⟩ := e2; simp
  · obtain ⟨_, rest, rfl⟩ := e2; simp

/-- C58 fails for MPI_GET_PROCESSOR_NAME in the same way, whatever gethostname does. -/
theorem C58_fails_processor_name (ret : Int) (host : List UInt8) (hh : host.length ≤ 128) (name : CBuf)
    (hn : 128 ≤ name.length) :
    ∃ b text, Fort.mpi_get_processor_name ret host name = .ok (b, text.length) ∧ b.take text.length = text ∧
      (ret ≠ 0 → text = lit "unknown host name") ∧
      (ret = 0 → ∀ t, HoldsString host t → t.length < 128 → text = t) ∧ OnlyFirst 128 name b ∧
      b[text.length]? = some 0 ∧ ¬ HoldsFortran 128 b text := by
  obtain ⟨b, text, e1, e2, e3, e4, e5, e6⟩ := C42_processor_name ret host hh name hn
  refine ⟨b, text, e1, ?_, e5, e6, e4, ?_, e2.not_fortran e3⟩
  · obtain ⟨_, rest, rfl⟩ := e2; simp
  · obtain ⟨_, rest, rfl⟩ := e2; simp

/-- A program that prints the whole variable prints what was in it before, behind the NUL. -/
example : Fort.mpi_error_string 7 (List.replicate 128 65) =
    .ok (lit "MPI Error: code 7\n" ++ 0 :: List.replicate 109 65, 18) := by decide +kernel
example : ((Fort.mpi_get_library_version (List.replicate 90 65)).getD ([], 0)).1 =
    lit "mpi-serial 2.5.0" ++ List.replicate 64 32 ++ List.replicate 10 65 := by decide +kernel

/-! ## C41 -/

/-- C41: every communicator, request, group and operator handle survives the way from C to Fortran and back,
and from Fortran to C and back. -/
theorem C41_roundtrip (h : Int) :
    MPI_Comm_f2c (MPI_Comm_c2f h) = h ∧ MPI_Comm_c2f (MPI_Comm_f2c h) = h ∧
    MPI_Request_f2c (MPI_Request_c2f h) = h ∧ MPI_Request_c2f (MPI_Request_f2c h) = h ∧
    MPI_Group_f2c (MPI_Group_c2f h) = h ∧ MPI_Group_c2f (MPI_Group_f2c h) = h ∧
    MPI_Op_f2c (MPI_Op_c2f h) = h ∧ MPI_Op_c2f (MPI_Op_f2c h) = h :=
  ⟨rfl, rfl, rfl, rfl, rfl, rfl, rfl, rfl⟩

/-- Names of mpif.h that mpi.h does not have (they are used by Fortran programs only; MPI_SOURCE, MPI_TAG and
MPI_ERROR are indices into a Fortran status; mpi_init checks them against MPI_Status). -/
def fortranOnly : List String :=
  ["MPI_TAG_UB", "MPI_SOURCE", "MPI_TAG", "MPI_ERROR", "MPI_MODE_RDONLY", "MPI_MODE_CREATE", "MPI_MODE_RDWR",
   "MPI_VERSION", "MPI_SUBVERSION"]

/-- C41: every constant of mpif.h other than the nine listed above is in mpi.h with the same value. -/
theorem C41_constants (n : String) (v : Int) (h : (n, v) ∈ mpif_h) (hn : n ∉ fortranOnly) :
    mpi_h.lookup n = some v := by
  have : ∀ x ∈ mpif_h, x.1 ∉ fortranOnly → mpi_h.lookup x.1 = some x.2 := by decide +kernel
  exact this (n, v) h hn

/-- C41: the version that MPI_Get_version reports is the one mpif.h announces. -/
theorem C41_version : mpif_h.lookup "MPI_VERSION" = some MPI_Get_Version.1 ∧
    mpif_h.lookup "MPI_SUBVERSION" = some MPI_Get_Version.2 := by decide

/-- The Fortran sizes are the configured ones: type.h:100-116 has INTEGER and LOGICAL of 4 bytes, REAL and
DOUBLE PRECISION as configured, and COMPLEX of two REALs. -/
structure SizesMatch (cfg : Cfg) (z : FortSizes) : Prop where
  integer : z.integer = 4
  logical : z.logical = 4
  real : z.real = cfg.fsizeReal
  double : z.double = cfg.fsizeDouble
  complex : z.complex = 2 * cfg.fsizeReal

/-- A size the Fortran compiler can lay out: a positive `int`. -/
def FortSizes.Ok (z : FortSizes) : Prop :=
  ∀ n ∈ [z.integer, z.logical, z.real, z.double, z.complex], 0 < n ∧ n ≤ INT_MAX

theorem verify_size_simple {env : Env} {a : FortArgs} {name : String} {s : Sys} {k : Nat} {len : Int} {t : Typestruct}
    (hk : a.const name = -1 - (k : Int)) (hk' : k < 45) (ht : (simpletypes env.cfg)[k]? = some t)
    (hl : (t.pair 0 >>= fun p => Simpletype_length env.cfg p.type) = .ok len) (p1 n err : Int) (h0 : 0 < n) (h1 : n ≤ INT_MAX) :
    verify_size env a name p1 (p1 + n) s err = .ok (s, if n ≠ len then 1 else err) := by
  have h2 : typeOf env s (a.const name) = .ok (s, t) := by
    rw [hk]
    unfold typeOf handleToDatatype simpletypePtr
    rw [if_pos (by omega)]
    have : (-1 - (-1 - (k : Int))).toNat = k := by omega
    simp only [this, if_pos hk', Res.ok_bind, Res.pure_eq, derefType, ht]
  obtain ⟨p, hp, hl⟩ := Res.bind_eq_ok.1 hl
  unfold verify_size
  rw [h2, Res.ok_bind]
  simp only [hp, hl, Res.ok_bind, Res.pure_eq]
  rw [show p1 + n - p1 = n by omega, s64_of_range (by omega) (by omega), s32_of_range (by omega) (by omega)]

/-- C41: what Fortran's mpi_init does, for all configurations, all sizes the Fortran compiler may have and wherever
it puts its arrays: once MPI_Init has succeeded, it returns, having changed nothing further, exactly when the
sizes of INTEGER, LOGICAL, REAL, DOUBLE PRECISION and COMPLEX are the configured ones; otherwise it aborts. -/
theorem C41_init {env : Env} {s s' : Sys} (hs : MPI_Init s = .ok s') (z : FortSizes) (hz : z.Ok) (p : FortLocals) :
    (SizesMatch env.cfg z → Fort.mpi_init env z p s = .ok s') ∧
    (¬ SizesMatch env.cfg z → (Fort.mpi_init env z p s).aborted = true) := by
  obtain ⟨h1, h2, h3, h4, h5⟩ : (0 < z.integer ∧ z.integer ≤ INT_MAX) ∧ (0 < z.logical ∧ z.logical ≤ INT_MAX) ∧
    (0 < z.real ∧ z.real ≤ INT_MAX) ∧ (0 < z.double ∧ z.double ≤ INT_MAX) ∧ (0 < z.complex ∧ z.complex ≤ INT_MAX) := by
    simpa [FortSizes.Ok] using hz
  have e1 := fun err => verify_size_simple (env := env) (a := fortArgs z p) (name := "MPI_INTEGER") (s := s') (k := 15)
    (len := 4) (t := static1 4 14) (show headerConst mpif_h "MPI_INTEGER" = -16 by decide +kernel) (by decide) rfl rfl p.fint z.integer err h1.1 h1.2
  have e2 := fun err => verify_size_simple (env := env) (a := fortArgs z p) (name := "MPI_LOGICAL") (s := s') (k := 20)
    (len := 4) (t := static1 4 19) (show headerConst mpif_h "MPI_LOGICAL" = -21 by decide +kernel) (by decide) rfl rfl p.flog z.logical err h2.1 h2.2
  have e3 := fun err => verify_size_simple (env := env) (a := fortArgs z p) (name := "MPI_REAL") (s := s') (k := 16)
    (len := env.cfg.fsizeReal) (t := static1 env.cfg.fsizeReal 15) (show headerConst mpif_h "MPI_REAL" = -17 by decide +kernel) (by decide) rfl rfl
    p.freal z.real err h3.1 h3.2
  have e4 := fun err => verify_size_simple (env := env) (a := fortArgs z p) (name := "MPI_DOUBLE_PRECISION") (s := s') (k := 17)
    (len := env.cfg.fsizeDouble) (t := static1 env.cfg.fsizeDouble 16) (show headerConst mpif_h "MPI_DOUBLE_PRECISION" = -18 by decide +kernel) (by decide) rfl rfl
    p.fdub z.double err h4.1 h4.2
  have e5 := fun err => verify_size_simple (env := env) (a := fortArgs z p) (name := "MPI_COMPLEX") (s := s') (k := 18)
    (len := 2 * env.cfg.fsizeReal) (t := static1 (2 * env.cfg.fsizeReal) 17) (show headerConst mpif_h "MPI_COMPLEX" = -19 by decide +kernel) (by decide) rfl rfl
    p.fcomp z.complex err h5.1 h5.2
  have q : ∀ name, headerConst mpif_h name = headerConst mpi_h name → ∀ err, verify_eq (fortArgs z p) name err = err :=
    fun name hn err => if_neg (fun h => h hn)
  have hfld : ∀ err, verify_field (fortArgs z p) "MPI_SOURCE" 0 err = .ok err ∧
      verify_field (fortArgs z p) "MPI_TAG" 4 err = .ok err ∧ verify_field (fortArgs z p) "MPI_ERROR" 8 err = .ok err := by
    have c1 : headerConst mpif_h "MPI_SOURCE" = 1 := by decide +kernel
    have c2 : headerConst mpif_h "MPI_TAG" = 2 := by decide +kernel
    have c3 : headerConst mpif_h "MPI_ERROR" = 3 := by decide +kernel
    intro err
    unfold verify_field
    simp only [fortArgs, c1, c2, c3]
    exact ⟨rfl, rfl, rfl⟩
  unfold Fort.mpi_init mpi_init_fort
  rw [hs, Res.ok_bind]
  unfold mpi_init_fort_checks
  simp only [
    q "MPI_COMM_WORLD" (by decide +kernel),
    q "MPI_ANY_SOURCE" (by decide +kernel),
    q "MPI_ANY_TAG" (by decide +kernel),
    q "MPI_PROC_NULL" (by decide +kernel),
    q "MPI_ROOT" (by decide +kernel),
    q "MPI_COMM_NULL" (by decide +kernel),
    q "MPI_REQUEST_NULL" (by decide +kernel),
    q "MPI_GROUP_NULL" (by decide +kernel),
    q "MPI_GROUP_EMPTY" (by decide +kernel),
    q "MPI_UNDEFINED" (by decide +kernel),
    q "MPI_MAX_ERROR_STRING" (by decide +kernel),
    q "MPI_MAX_PROCESSOR_NAME" (by decide +kernel),
    q "MPI_STATUS_SIZE" (by decide +kernel),
    q "MPI_INTEGER" (by decide +kernel),
    q "MPI_DOUBLE_PRECISION" (by decide +kernel),
    (hfld _).1, (hfld _).2.1, (hfld _).2.2, Res.ok_bind, Res.pure_eq]
  have f1 : (fortArgs z p).fint1 = p.fint ∧ (fortArgs z p).fint2 = p.fint + z.integer := ⟨rfl, rfl⟩
  have f2 : (fortArgs z p).flog1 = p.flog ∧ (fortArgs z p).flog2 = p.flog + z.logical := ⟨rfl, rfl⟩
  have f3 : (fortArgs z p).freal1 = p.freal ∧ (fortArgs z p).freal2 = p.freal + z.real := ⟨rfl, rfl⟩
  have f4 : (fortArgs z p).fdub1 = p.fdub ∧ (fortArgs z p).fdub2 = p.fdub + z.double := ⟨rfl, rfl⟩
  have f5 : (fortArgs z p).fcomp1 = p.fcomp ∧ (fortArgs z p).fcomp2 = p.fcomp + z.complex := ⟨rfl, rfl⟩
  simp only [f1, f2, f3, f4, f5, e1, e2, e3, e4, e5, Res.ok_bind]
  constructor
  · intro h
    simp only [h.integer, h.logical, h.real, h.double, h.complex, ne_eq, not_true_eq_false, if_false]
  · intro h
    rw [if_pos]
    · rfl
    · intro h0
      apply h
      constructor <;> (refine Classical.byContradiction fun hc => ?_; simp [hc] at h0)

/-- The constants mpi_init compares with mpi.h. -/
def checkedConstants : List String :=
  ["MPI_COMM_WORLD", "MPI_ANY_SOURCE", "MPI_ANY_TAG", "MPI_PROC_NULL", "MPI_ROOT", "MPI_COMM_NULL",
   "MPI_REQUEST_NULL", "MPI_GROUP_NULL", "MPI_GROUP_EMPTY", "MPI_UNDEFINED", "MPI_MAX_ERROR_STRING",
   "MPI_MAX_PROCESSOR_NAME", "MPI_STATUS_SIZE", "MPI_INTEGER", "MPI_DOUBLE_PRECISION"]

theorem verify_eq_zero {a : FortArgs} {n : String} {err : Int} (h : verify_eq a n err = 0) :
    a.const n = headerConst mpi_h n ∧ err = 0 := by
  unfold verify_eq at h
  by_cases hn : a.const n = headerConst mpi_h n
  · rw [if_neg (fun h => h hn)] at h; exact ⟨hn, h⟩
  · rw [if_pos hn] at h; cases h

theorem verify_field_zero {a : FortArgs} {n : String} {off err : Int} (h : verify_field a n off err = .ok 0)
    (h0 : 0 ≤ off) (h1 : off < 16) (h4 : off % 4 = 0) : a.const n = off / 4 + 1 ∧ err = 0 := by
  obtain ⟨d, hd, h⟩ := Res.bind_eq_ok.1 h
  obtain ⟨hd1, hd2⟩ := ck32_eq_ok.1 hd
  simp only [Res.pure_eq, Res.ok.injEq] at h
  by_cases hc : u64 off = u64 (u64 d * 4)
  · rw [if_neg (fun h => h hc)] at h
    rw [u64_mul_left] at hc
    unfold u64 at hc
    exact ⟨by omega, h⟩
  · rw [if_pos hc] at h; cases h

theorem verify_size_zero {env : Env} {a : FortArgs} {n : String} {p1 p2 err : Int} {s s' : Sys}
    (h : verify_size env a n p1 p2 s err = .ok (s', 0)) : err = 0 := by
  obtain ⟨⟨s1, t⟩, _, h⟩ := Res.bind_eq_ok.1 h
  obtain ⟨p, _, h⟩ := Res.bind_eq_ok.1 h
  obtain ⟨len, _, h⟩ := Res.bind_eq_ok.1 h
  simp only [Res.pure_eq, Res.ok.injEq, Prod.mk.injEq] at h
  have := h.2
  split at this
  · cases this
  · exact this

/-- C41: the check is a check: with any other values in place of those of mpif.h, mpi_init_fort does not return
unless the fifteen constants above are those of mpi.h and MPI_SOURCE, MPI_TAG, MPI_ERROR are the positions of these
members in MPI_Status, counted from 1. -/
theorem C41_checked {env : Env} {a : FortArgs} {s : Sys} (h : (mpi_init_fort env a s).returned = true) :
    (∀ n ∈ checkedConstants, a.const n = headerConst mpi_h n) ∧
    a.const "MPI_SOURCE" = 1 ∧ a.const "MPI_TAG" = 2 ∧ a.const "MPI_ERROR" = 3 := by
  obtain ⟨r, hr⟩ : ∃ r, mpi_init_fort env a s = .ok r := by
    cases hm : mpi_init_fort env a s <;> rw [hm] at h <;> first | exact ⟨_, rfl⟩ | cases h
  obtain ⟨s1, _, hr⟩ := Res.bind_eq_ok.1 hr
  unfold mpi_init_fort_checks at hr
  obtain ⟨x1, g1, hr⟩ := Res.bind_eq_ok.1 hr
  obtain ⟨x2, g2, hr⟩ := Res.bind_eq_ok.1 hr
  obtain ⟨x3, g3, hr⟩ := Res.bind_eq_ok.1 hr
  obtain ⟨⟨s2, y1⟩, k1, hr⟩ := Res.bind_eq_ok.1 hr
  obtain ⟨⟨s3, y2⟩, k2, hr⟩ := Res.bind_eq_ok.1 hr
  obtain ⟨⟨s4, y3⟩, k3, hr⟩ := Res.bind_eq_ok.1 hr
  obtain ⟨⟨s5, y4⟩, k4, hr⟩ := Res.bind_eq_ok.1 hr
  obtain ⟨⟨s6, y5⟩, k5, hr⟩ := Res.bind_eq_ok.1 hr
  dsimp only at k1 k2 k3 k4 k5 hr
  split at hr
  · cases hr
  have z5 : y5 = 0 := by rename_i h; exact Classical.byContradiction h
  rw [z5] at k5
  rw [verify_size_zero k5] at k4
  obtain ⟨e15, z⟩ := verify_eq_zero (verify_size_zero k4)
  rw [z] at k3
  rw [verify_size_zero k3] at k2
  rw [verify_size_zero k2] at k1
  obtain ⟨e14, z⟩ := verify_eq_zero (verify_size_zero k1)
  rw [z] at g3
  obtain ⟨f3, z⟩ := verify_field_zero g3 (by decide) (by decide) (by decide)
  rw [z] at g2
  obtain ⟨f2, z⟩ := verify_field_zero g2 (by decide) (by decide) (by decide)
  rw [z] at g1
  obtain ⟨f1, z⟩ := verify_field_zero g1 (by decide) (by decide) (by decide)
  obtain ⟨e13, z⟩ := verify_eq_zero z
  obtain ⟨e12, z⟩ := verify_eq_zero z
  obtain ⟨e11, z⟩ := verify_eq_zero z
  obtain ⟨e10, z⟩ := verify_eq_zero z
  obtain ⟨e9, z⟩ := verify_eq_zero z
  obtain ⟨e8, z⟩ := verify_eq_zero z
  obtain ⟨e7, z⟩ := verify_eq_zero z
  obtain ⟨e6, z⟩ := verify_eq_zero z
  obtain ⟨e5, z⟩ := verify_eq_zero z
  obtain ⟨e4, z⟩ := verify_eq_zero z
  obtain ⟨e3, z⟩ := verify_eq_zero z
  obtain ⟨e2, z⟩ := verify_eq_zero z
  obtain ⟨e1, z⟩ := verify_eq_zero z
  refine ⟨?_, f1, f2, f3⟩
  intro n hn
  simp only [checkedConstants, List.mem_cons, List.not_mem_nil, or_false] at hn
  rcases hn with rfl | rfl | rfl | rfl | rfl | rfl | rfl | rfl | rfl | rfl | rfl | rfl | rfl | rfl | rfl <;> assumption

/-- The names used in these checks are in the headers. -/
example : (∀ n ∈ checkedConstants, (mpi_h.lookup n).isSome ∧ (mpif_h.lookup n).isSome) ∧
    ∀ n ∈ ["MPI_SOURCE", "MPI_TAG", "MPI_ERROR", "MPI_LOGICAL", "MPI_REAL", "MPI_COMPLEX"], (mpif_h.lookup n).isSome := by
  decide +kernel

theorem init_start : ∃ s', MPI_Init (Sys.start mem0) = .ok s' :=
  ⟨_, Res.eq_getD (Sys.start mem0) (by decide +kernel)⟩

/-- A configuration with REAL of 8 bytes (`-r8`), Fortran compiled accordingly. -/
example : ∃ s', Fort.mpi_init { env0 with cfg := { env0.cfg with fsizeReal := 8 } } ⟨4, 4, 8, 8, 16⟩ ⟨100, 200, 300, 400, 500⟩
    (Sys.start mem0) = .ok s' := by
  obtain ⟨s', hs⟩ := init_start
  exact ⟨s', (C41_init hs ⟨4, 4, 8, 8, 16⟩ (by unfold FortSizes.Ok; decide) _).1 ⟨rfl, rfl, rfl, rfl, rfl⟩⟩
/-- 8-byte REAL in Fortran, library configured for 4. -/
example : (Fort.mpi_init env0 ⟨4, 4, 8, 8, 16⟩ ⟨100, 200, 300, 400, 500⟩ (Sys.start mem0)).aborted = true := by
  obtain ⟨s', hs⟩ := init_start
  exact (C41_init hs ⟨4, 4, 8, 8, 16⟩ (by unfold FortSizes.Ok; decide) _).2 (fun h => absurd h.real (by decide))
example : (Fort.mpi_init env0 ⟨4, 4, 4, 8, 8⟩ ⟨100, 200, 300, 400, 500⟩ (Sys.start memAll)).returned = true := by
  decide +kernel

/-! ## C46

COMMON block /MPISERIAL/ is at address `b`: the Fortran objects MPI_STATUS_IGNORE, MPI_STATUSES_IGNORE and
MPI_IN_PLACE are at `b`, `b + 16` and `b + 32`.  MPI_Init has the library take these addresses. -/

/-- C46: after MPI_Init each of the three objects is recognised, by its address, for what it is, and every other
address goes through unchanged. -/
theorem C46_recognised (b : Int) (f₀ : FPtrs) :
    let f := mpi_get_fort_pointers b f₀
    mpi_c_status f b = 0 ∧ (∀ a, a ≠ b → mpi_c_status f a = a) ∧
    mpi_c_statuses f (b + 16) = 0 ∧ (∀ a, a ≠ b + 16 → mpi_c_statuses f a = a) ∧
    mpi_c_in_place f (b + 32) = MPI_IN_PLACE ∧ (∀ a, a ≠ b + 32 → mpi_c_in_place f a = a) := by
  intro f
  refine ⟨if_pos rfl, fun a h => if_neg h, if_pos rfl, fun a h => if_neg h, if_pos rfl, fun a h => if_neg h⟩

/-- C46: passing the Fortran MPI_IN_PLACE to mpi_gather, mpi_gatherv, mpi_allgather, mpi_allgatherv (send buffer),
mpi_scatter and mpi_scatterv (receive buffer) leaves all data where it is: the call returns with nothing changed.
Partial: the other collectives do not recognise it (`C46_fails_in_place`). -/
theorem C46_in_place_partial (b : Int) (f₀ : FPtrs) (env : Env) (s : Sys) (sc st buf rc rt root comm : Int)
    (ns ds : List Int) :
    let f := mpi_get_fort_pointers b f₀
    Fort.mpi_gather f env s (b + 32) sc st buf rc rt root comm = .ok s ∧
    Fort.mpi_gatherv f env s (b + 32) sc st buf ns ds rt root comm = .ok s ∧
    Fort.mpi_allgather f env s (b + 32) sc st buf rc rt comm = .ok s ∧
    Fort.mpi_allgatherv f env s (b + 32) sc st buf ns ds rt comm = .ok s ∧
    Fort.mpi_scatter f env s buf sc st (b + 32) rc rt root comm = .ok s ∧
    Fort.mpi_scatterv f env s buf ns ds st (b + 32) rc rt root comm = .ok s := by
  intro f
  have h : mpi_c_in_place f (b + 32) = MPI_IN_PLACE := (C46_recognised b f₀).2.2.2.2.1
  obtain ⟨h1, h2, h3, h4, h5, h6, _⟩ := C36_in_place_partial (env := env) s sc st buf rc rt root 0 comm ns ds
  refine ⟨?_, ?_, ?_, ?_, ?_, ?_⟩
  · unfold Fort.mpi_gather; rw [h, h1]
  · unfold Fort.mpi_gatherv; rw [h, h2]
  · unfold Fort.mpi_allgather; rw [h, h3]
  · unfold Fort.mpi_allgatherv; rw [h, h4]
  · unfold Fort.mpi_scatter; rw [h, h5]
  · unfold Fort.mpi_scatterv; rw [h, h6]

/-- C46: with buffers other than the Fortran MPI_IN_PLACE, every Fortran collective is the C one on the same
arguments; in all of them every argument but the one that may be MPI_IN_PLACE goes through in any case. -/
theorem C46_through (b : Int) (f₀ : FPtrs) (env : Env) (s : Sys) (sb sc st rb rc rt root op comm : Int)
    (ns ds ns' ds' ts ts' : List Int) :
    let f := mpi_get_fort_pointers b f₀
    (sb ≠ b + 32 → Fort.mpi_gather f env s sb sc st rb rc rt root comm = MPI_Gather env s sb sc st rb rc rt root comm) ∧
    (sb ≠ b + 32 → Fort.mpi_gatherv f env s sb sc st rb ns ds rt root comm =
      MPI_Gatherv env s sb sc st rb ns ds rt root comm) ∧
    (sb ≠ b + 32 → Fort.mpi_allgather f env s sb sc st rb rc rt comm = MPI_Allgather env s sb sc st rb rc rt comm) ∧
    (sb ≠ b + 32 → Fort.mpi_allgatherv f env s sb sc st rb ns ds rt comm =
      MPI_Allgatherv env s sb sc st rb ns ds rt comm) ∧
    (rb ≠ b + 32 → Fort.mpi_scatter f env s sb sc st rb rc rt root comm = MPI_Scatter env s sb sc st rb rc rt root comm) ∧
    (rb ≠ b + 32 → Fort.mpi_scatterv f env s sb ns ds st rb rc rt root comm =
      MPI_Scatterv env s sb ns ds st rb rc rt root comm) ∧
    Fort.mpi_reduce f env s sb rb sc st op root comm = MPI_Reduce env s sb rb sc st op root comm ∧
    Fort.mpi_allreduce f env s sb rb sc st op comm = MPI_Allreduce env s sb rb sc st op comm ∧
    Fort.mpi_reduce_scatter f env s sb rb ns st op comm = MPI_Reduce_scatter env s sb rb ns st op comm ∧
    Fort.mpi_scan f env s sb rb sc st op comm = MPI_Scan env s sb rb sc st op comm ∧
    Fort.mpi_alltoall f env s sb sc st rb rc rt comm = MPI_Alltoall env s sb sc st rb rc rt comm ∧
    Fort.mpi_alltoallv f env s sb ns ds st rb ns' ds' rt comm = MPI_Alltoallv env s sb ns ds st rb ns' ds' rt comm ∧
    Fort.mpi_alltoallw f env s sb ns ds ts rb ns' ds' ts' comm = MPI_Alltoallw env s sb ns ds ts rb ns' ds' ts' comm := by
  intro f
  have h : ∀ a, a ≠ b + 32 → mpi_c_in_place f a = a := (C46_recognised b f₀).2.2.2.2.2
  refine ⟨fun ha => ?_, fun ha => ?_, fun ha => ?_, fun ha => ?_, fun ha => ?_, fun ha => ?_, rfl, rfl, rfl, rfl, rfl,
    rfl, rfl⟩
  · unfold Fort.mpi_gather; rw [h _ ha]
  · unfold Fort.mpi_gatherv; rw [h _ ha]
  · unfold Fort.mpi_allgather; rw [h _ ha]
  · unfold Fort.mpi_allgatherv; rw [h _ ha]
  · unfold Fort.mpi_scatter; rw [h _ ha]
  · unfold Fort.mpi_scatterv; rw [h _ ha]

/-- C46: the Fortran calls with a status are the C calls: without a status when they are given the Fortran
MPI_STATUS_IGNORE, with the status at the given address for any other (non-null) one. -/
theorem C46_status (b a : Int) (ha : a ≠ 0) (f₀ : FPtrs) (env : Env) (s : Sys) (st : Status)
    (buf n ty sb sn sty dest src tag stag comm req index count : Int) (reqs : List Int) :
    let f := mpi_get_fort_pointers b f₀
    let p := if a = b then StPtr.null else .obj st
    Fort.mpi_recv f env s buf n ty src tag comm a st = MPI_Recv env s buf n ty src tag comm p ∧
    Fort.mpi_sendrecv f env s sb sn sty dest stag buf n ty src tag comm a st =
      MPI_Sendrecv env s sb sn sty dest stag buf n ty src tag comm p ∧
    Fort.mpi_iprobe f s src tag comm a st = MPI_Iprobe s src tag comm p ∧
    Fort.mpi_probe f s src tag comm a st = MPI_Probe s src tag comm p ∧
    Fort.mpi_test f s req a st = MPI_Test s req p ∧
    Fort.mpi_wait f s req a st = MPI_Wait s req p ∧
    Fort.mpi_waitany f s count reqs index a st = MPI_Waitany s count reqs index p ∧
    Fort.mpi_testany f s count reqs index a st = MPI_Testany s count reqs index p := by
  intro f p
  have h : Fort.statusArg (mpi_c_status f a) st = p := by
    have hr := C46_recognised b f₀
    by_cases hab : a = b
    · subst hab
      have e : mpi_c_status f a = 0 := hr.1
      simp only [p, Fort.statusArg, e, if_true]
    · have e : mpi_c_status f a = a := hr.2.1 a hab
      simp only [p, Fort.statusArg, e, if_neg ha, if_neg hab]
  unfold Fort.mpi_recv Fort.mpi_sendrecv Fort.mpi_iprobe Fort.mpi_probe Fort.mpi_test Fort.mpi_wait Fort.mpi_waitany
    Fort.mpi_testany
  rw [h]
  exact ⟨rfl, rfl, rfl, rfl, rfl, rfl, rfl, rfl⟩

/-- C46: likewise the calls with an array of statuses and MPI_STATUSES_IGNORE. -/
theorem C46_statuses (b a : Int) (ha : a ≠ 0) (f₀ : FPtrs) (s : Sys) (sts : List Status)
    (count : Int) (reqs indices : List Int) :
    let f := mpi_get_fort_pointers b f₀
    let p : StArr := if a = b + 16 then none else some sts
    Fort.mpi_testall f s count reqs a sts = MPI_Testall s count reqs p ∧
    Fort.mpi_waitall f s count reqs a sts = MPI_Waitall s count reqs p ∧
    Fort.mpi_testsome f s count reqs indices a sts = MPI_Testsome s count reqs indices p ∧
    Fort.mpi_waitsome f s count reqs indices a sts = MPI_Waitsome s count reqs indices p := by
  intro f p
  have h : Fort.statusesArg (mpi_c_statuses f a) sts = p := by
    have hr := C46_recognised b f₀
    by_cases hab : a = b + 16
    · have e : mpi_c_statuses f a = 0 := by rw [hab]; exact hr.2.2.1
      simp only [p, Fort.statusesArg, e, if_true, if_pos hab]
    · have e : mpi_c_statuses f a = a := hr.2.2.2.1 a hab
      simp only [p, Fort.statusesArg, e, if_neg ha, if_neg hab]
  unfold Fort.mpi_testall Fort.mpi_waitall Fort.mpi_testsome Fort.mpi_waitsome
  rw [h]
  exact ⟨rfl, rfl, rfl, rfl⟩

/-- C46 fails (collective.c:298-338, 363-415): the Fortran bindings of MPI_Allreduce (which accepts MPI_IN_PLACE in C)
and of MPI_Reduce, MPI_Scan, MPI_Reduce_scatter and MPI_Alltoall do not translate the Fortran MPI_IN_PLACE: the data
in the buffer, which should stay as it is, is overwritten with what is stored at that object. -/
theorem C46_fails_in_place :
    let f := mpi_get_fort_pointers 5000 .start
    ((Fort.mpi_gather f env0 CL.s (5000 + 32) 1 (-3) 2000 1 (-3) 0 1).getD CL.s).mem 2000 = memAll 2000 ∧
    ((Fort.mpi_allreduce f env0 CL.s (5000 + 32) 2000 1 (-3) 0 1).getD CL.s).mem 2000 = memAll (5000 + 32) ∧
    ((Fort.mpi_reduce f env0 CL.s (5000 + 32) 2000 1 (-3) 0 0 1).getD CL.s).mem 2000 = memAll (5000 + 32) ∧
    ((Fort.mpi_scan f env0 CL.s (5000 + 32) 2000 1 (-3) 0 1).getD CL.s).mem 2000 = memAll (5000 + 32) ∧
    ((Fort.mpi_reduce_scatter f env0 CL.s (5000 + 32) 2000 [1] (-3) 0 1).getD CL.s).mem 2000 = memAll (5000 + 32) ∧
    ((Fort.mpi_alltoall f env0 CL.s (5000 + 32) 1 (-3) 2000 1 (-3) 1).getD CL.s).mem 2000 = memAll (5000 + 32) ∧
    memAll 2000 ≠ memAll (5000 + 32) := by
  decide +kernel

/-- C46: what the bindings that do not translate MPI_IN_PLACE do with it, in every reachable state: they send what is in
memory at the address of the Fortran variable. -/
theorem C46_in_place_exact {env : Env} {s : Sys} {L : Ledger} (hr : Reach env s L) (b : Int) (f₀ : FPtrs)
    (hb : b + 32 ≠ MPI_IN_PLACE) {rb n n' t t' op comm : Int} (h : IsType env L t) (h' : IsType env L t') (ns : List Int) :
    let f := mpi_get_fort_pointers b f₀
    LikeSelfMessage env s L (b + 32) n t rb n t (Fort.mpi_allreduce f env s (b + 32) rb n t op comm) ∧
    LikeSelfMessage env s L (b + 32) n t rb n t (Fort.mpi_reduce f env s (b + 32) rb n t op 0 comm) ∧
    LikeSelfMessage env s L (b + 32) n t rb n t (Fort.mpi_scan f env s (b + 32) rb n t op comm) ∧
    LikeSelfMessage env s L (b + 32) n t rb n t (Fort.mpi_reduce_scatter f env s (b + 32) rb (n :: ns) t op comm) ∧
    LikeSelfMessage env s L (b + 32) n t rb n' t' (Fort.mpi_alltoall f env s (b + 32) n t rb n' t' comm) := by
  obtain ⟨h1, h2, h3, h4⟩ := C35_reductions (sb := b + 32) (rb := rb) (n := n) (op := op) (comm := comm) hr h
  exact ⟨h2 hb, h1, h4, h3 ns, C35_alltoall hr h h'⟩

/-- Before MPI_Init the library does not know the addresses; a null pointer is then taken for MPI_IN_PLACE. -/
example : mpi_c_in_place .start (5000 + 32) = 5000 + 32 ∧ mpi_c_in_place .start 0 = MPI_IN_PLACE := by decide

/-- A Fortran program waits for a message with MPI_STATUS_IGNORE, and with a status of its own. -/
example : (Fort.mpi_recv (mpi_get_fort_pointers 5000 .start) env0 H8.s 900 3 (-1) 0 5 1 5000 ⟨9, 9, 9, 9⟩) =
    MPI_Recv env0 H8.s 900 3 (-1) 0 5 1 .null :=
  (C46_status 5000 5000 (by decide) .start env0 H8.s ⟨9, 9, 9, 9⟩ 900 3 (-1) 0 0 0 0 0 5 0 1 0 0 0 []).1

end MpiSerial
