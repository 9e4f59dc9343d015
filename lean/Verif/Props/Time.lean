import Verif.Model.Time
import Mathlib.Tactic.Linarith
import Mathlib.Tactic.FieldSimp
import Mathlib.Tactic.NormNum
import Mathlib.Tactic.Positivity

set_option autoImplicit false

/-! # C53: MPI_Wtime follows the clock -/

namespace MpiSerial

theorem nearestEven_err (x : ℚ) : |(nearestEven x : ℚ) - x| ≤ 1 / 2 := by
  have h1 := Int.floor_le x
  have h2 := Int.lt_floor_add_one x
  unfold nearestEven
  split_ifs with h3 h4 h5 <;> rw [abs_le] <;> push_cast <;> constructor <;> linarith

theorem nearestEven_int (n : ℤ) : nearestEven n = n := by
  unfold nearestEven
  simp

theorem nearestEven_mono {x y : ℚ} (h : x ≤ y) : nearestEven x ≤ nearestEven y := by
  have hf : ⌊x⌋ ≤ ⌊y⌋ := Int.floor_le_floor h
  rcases Int.lt_or_eq_of_le hf with hlt | heq
  · have a : nearestEven x ≤ ⌊x⌋ + 1 := by unfold nearestEven; split_ifs <;> omega
    have b : ⌊y⌋ ≤ nearestEven y := by unfold nearestEven; split_ifs <;> omega
    omega
  · unfold nearestEven
    rw [heq]
    have : x - ⌊y⌋ ≤ y - ⌊y⌋ := by linarith
    split_ifs <;> first | omega | (exfalso; linarith)

theorem two_zpow_pos (k : ℤ) : (0 : ℚ) < 2 ^ k := zpow_pos (by norm_num) k

/-- relative error -/
theorem roundDouble_err (x : ℚ) : |roundDouble x - x| ≤ |x| / 2 ^ 53 := by
  unfold roundDouble
  split_ifs with h
  · subst h; simp
  · have hx : 0 < |x| := abs_pos.2 h
    have hl := Int.zpow_log_le_self (b := 2) (by norm_num) hx
    set u : ℚ := 2 ^ (Int.log 2 |x| - 52) with hu
    have hup : 0 < u := two_zpow_pos _
    have e1 : (nearestEven (x / u) : ℚ) * u - x = ((nearestEven (x / u) : ℚ) - x / u) * u := by
      field_simp
    rw [e1, abs_mul, abs_of_pos hup]
    have h2 : u * 2 ^ 52 ≤ |x| := by
      have : u * 2 ^ 52 = ((2 : ℕ) : ℚ) ^ Int.log 2 |x| := by
        rw [hu, zpow_sub₀ (by norm_num)]
        norm_num
      rw [this]; exact hl
    have h3 := nearestEven_err (x / u)
    calc |(nearestEven (x / u) : ℚ) - x / u| * u ≤ 1 / 2 * u := by
          exact mul_le_mul_of_nonneg_right h3 hup.le
      _ ≤ |x| / 2 ^ 53 := by
          rw [le_div_iff₀ (by positivity)]
          linarith

theorem zpow_unit (k : ℤ) : (2 : ℚ) ^ (k - 52) * 2 ^ 52 = 2 ^ k := by
  rw [zpow_sub₀ (by norm_num)]
  norm_num

theorem roundDouble_int {n : ℤ} (h : |n| < 2 ^ 53) : roundDouble n = n := by
  unfold roundDouble
  split_ifs with h0
  · rw [h0]
  · have hx : 0 < |(n : ℚ)| := abs_pos.2 h0
    have hlt : Int.log 2 |(n : ℚ)| < 53 := by
      rw [← Int.lt_zpow_iff_log_lt (by norm_num) hx]
      have h1 : |(n : ℚ)| < 2 ^ 53 := by rw [← Int.cast_abs]; exact_mod_cast h
      have h2 : ((2 : ℕ) : ℚ) ^ (53 : ℤ) = 2 ^ 53 := by norm_num
      rw [h2]; exact h1
    obtain ⟨k, hk⟩ : ∃ k : ℕ, Int.log 2 |(n : ℚ)| - 52 = -(k : ℤ) :=
      ⟨(52 - Int.log 2 |(n : ℚ)|).toNat, by omega⟩
    rw [hk, zpow_neg, zpow_natCast]
    have : (n : ℚ) / ((2 : ℚ) ^ k)⁻¹ = ((n * 2 ^ k : ℤ) : ℚ) := by push_cast; field_simp
    rw [this, nearestEven_int]
    push_cast
    field_simp

theorem roundDouble_le_zpow {x : ℚ} (hx : 0 < x) : roundDouble x ≤ 2 ^ (Int.log 2 x + 1) := by
  unfold roundDouble
  rw [if_neg hx.ne', abs_of_pos hx]
  have hup := two_zpow_pos (Int.log 2 x - 52)
  have h2 : x / 2 ^ (Int.log 2 x - 52) ≤ ((2 ^ 53 : ℤ) : ℚ) := by
    rw [div_le_iff₀ hup]
    have h1 := (Int.lt_zpow_succ_log_self (b := 2) (by norm_num) x).le
    have h3 := zpow_unit (Int.log 2 x)
    push_cast at h1
    rw [zpow_add₀ (by norm_num), zpow_one] at h1
    push_cast
    linarith
  have h3 := nearestEven_mono h2
  rw [nearestEven_int] at h3
  have h4 : (nearestEven (x / 2 ^ (Int.log 2 x - 52)) : ℚ) ≤ ((2 ^ 53 : ℤ) : ℚ) := by exact_mod_cast h3
  have h5 := mul_le_mul_of_nonneg_right h4 hup.le
  have h6 := zpow_unit (Int.log 2 x)
  rw [zpow_add₀ (by norm_num), zpow_one]
  push_cast at h5
  linarith

theorem zpow_le_roundDouble {x : ℚ} (hx : 0 < x) : 2 ^ Int.log 2 x ≤ roundDouble x := by
  unfold roundDouble
  rw [if_neg hx.ne', abs_of_pos hx]
  have hup := two_zpow_pos (Int.log 2 x - 52)
  have h6 := zpow_unit (Int.log 2 x)
  have h2 : ((2 ^ 52 : ℤ) : ℚ) ≤ x / 2 ^ (Int.log 2 x - 52) := by
    rw [le_div_iff₀ hup]
    have h1 := Int.zpow_log_le_self (b := 2) (by norm_num) hx
    push_cast at h1 ⊢
    linarith
  have h3 := nearestEven_mono h2
  rw [nearestEven_int] at h3
  have h4 : ((2 ^ 52 : ℤ) : ℚ) ≤ (nearestEven (x / 2 ^ (Int.log 2 x - 52)) : ℚ) := by exact_mod_cast h3
  have h5 := mul_le_mul_of_nonneg_right h4 hup.le
  push_cast at h5
  linarith

theorem roundDouble_nonneg {x : ℚ} (h : 0 ≤ x) : 0 ≤ roundDouble x := by
  rcases h.eq_or_lt with h | h
  · subst h; simp [roundDouble]
  · exact (two_zpow_pos _).le.trans (zpow_le_roundDouble h)

theorem roundDouble_mono {x y : ℚ} (h0 : 0 ≤ x) (h : x ≤ y) : roundDouble x ≤ roundDouble y := by
  rcases h0.eq_or_lt with h0 | h0
  · subst h0
    have := roundDouble_nonneg h
    simpa [roundDouble] using this
  · have hy := h0.trans_le h
    rcases (Int.log_mono_right (b := 2) h0 h).lt_or_eq with hl | hl
    · refine (roundDouble_le_zpow h0).trans (le_trans ?_ (zpow_le_roundDouble hy))
      exact zpow_le_zpow_right₀ (by norm_num) hl
    · unfold roundDouble
      rw [if_neg h0.ne', if_neg hy.ne', abs_of_pos h0, abs_of_pos hy, hl]
      have hup := two_zpow_pos (Int.log 2 y - 52)
      refine mul_le_mul_of_nonneg_right ?_ hup.le
      exact_mod_cast nearestEven_mono (div_le_div_of_nonneg_right h hup.le)

/-- A reading of the clock: seconds since 1970 and microseconds within the second. -/
structure Reading where
  sec : Int
  usec : Int
  sec_nonneg : 0 ≤ sec
  usec_lo : 0 ≤ usec
  usec_hi : usec < 1000000

/-- The time of a reading in microseconds. -/
def Reading.micros (r : Reading) : Int := 1000000 * r.sec + r.usec

/-- The call with the clock showing `r`. -/
def Reading.wtime (r : Reading) : Res ℚ := MPI_Wtime (some (r.sec, r.usec))

theorem wtime_eq (r : Reading) (h : r.sec < 2 ^ 53) :
    r.wtime = .ok (roundDouble (r.sec + roundDouble (r.usec / 1000000))) := by
  obtain ⟨sec, usec, h1, h2, h3⟩ := r
  simp only at h
  unfold Reading.wtime MPI_Wtime
  simp only
  rw [roundDouble_int (n := sec) (by rw [abs_of_nonneg h1]; exact h),
    roundDouble_int (n := usec) (by rw [abs_of_nonneg h2]; omega)]

/-- C53: MPI_Wtime never goes backwards as long as the clock does not: a later reading gives a value at
least as large, for all readings up to 2^53 seconds. -/
theorem C53_monotone (r r' : Reading) (h : r'.sec < 2 ^ 53) (hle : r.micros ≤ r'.micros) :
    ∃ w w', r.wtime = .ok w ∧ r'.wtime = .ok w' ∧ w ≤ w' := by
  have hs : r.sec ≤ r'.sec := by
    unfold Reading.micros at hle
    have := r.usec_lo; have := r'.usec_hi; omega
  refine ⟨_, _, wtime_eq r (by omega), wtime_eq r' h, ?_⟩
  have h0 : (0 : ℚ) ≤ r.sec := by exact_mod_cast r.sec_nonneg
  have hu : (0 : ℚ) ≤ (r.usec : ℚ) / 1000000 := by
    have : (0 : ℚ) ≤ r.usec := by exact_mod_cast r.usec_lo
    positivity
  have hu' : (0 : ℚ) ≤ (r'.usec : ℚ) / 1000000 := by
    have : (0 : ℚ) ≤ r'.usec := by exact_mod_cast r'.usec_lo
    positivity
  apply roundDouble_mono (add_nonneg h0 (roundDouble_nonneg hu))
  rcases hs.eq_or_lt with heq | hlt
  · rw [heq]
    have hle' : (r.usec : ℚ) ≤ r'.usec := by
      unfold Reading.micros at hle
      have : r.usec ≤ r'.usec := by omega
      exact_mod_cast this
    have := roundDouble_mono hu (div_le_div_of_nonneg_right hle' (by norm_num : (0 : ℚ) ≤ 1000000))
    linarith
  · have h1 : roundDouble ((r.usec : ℚ) / 1000000) ≤ 1 := by
      have h2 : (r.usec : ℚ) / 1000000 ≤ ((1 : ℤ) : ℚ) := by
        rw [div_le_iff₀ (by norm_num)]
        have : (r.usec : ℚ) ≤ (1000000 : ℤ) := by exact_mod_cast r.usec_hi.le
        push_cast at this ⊢
        linarith
      have := roundDouble_mono hu h2
      rw [roundDouble_int (by norm_num)] at this
      exact_mod_cast this
    have h3 : (r.sec : ℚ) + 1 ≤ r'.sec := by exact_mod_cast hlt
    have := roundDouble_nonneg hu'
    linarith

/-- The value is within half a microsecond of the clock's time until the year 2106. -/
theorem C53_accuracy (r : Reading) (h : r.sec < 2 ^ 32) :
    ∃ w, r.wtime = .ok w ∧ |w - (r.micros : ℚ) / 1000000| < 1 / 2000000 := by
  refine ⟨_, wtime_eq r (by omega), ?_⟩
  have h0 : (0 : ℚ) ≤ r.sec := by exact_mod_cast r.sec_nonneg
  have h1 : (r.sec : ℚ) ≤ 2 ^ 32 - 1 := by
    have : r.sec ≤ 2 ^ 32 - 1 := by omega
    exact_mod_cast this
  have hu0 : (0 : ℚ) ≤ (r.usec : ℚ) := by exact_mod_cast r.usec_lo
  have hu1 : (r.usec : ℚ) ≤ 1000000 - 1 := by
    have := r.usec_hi
    have : r.usec ≤ 1000000 - 1 := by omega
    exact_mod_cast this
  unfold Reading.micros
  push_cast
  set u : ℚ := (r.usec : ℚ) / 1000000 with hu
  have hua : 0 ≤ u := by positivity
  have hub : u ≤ 1 - 1 / 1000000 := by rw [hu, div_le_iff₀ (by norm_num)]; linarith
  have e1 := roundDouble_err u
  rw [abs_of_nonneg hua] at e1
  have e1' := abs_le.1 e1
  have p : 0 ≤ (r.sec : ℚ) + roundDouble u := add_nonneg h0 (roundDouble_nonneg hua)
  have e2 := roundDouble_err ((r.sec : ℚ) + roundDouble u)
  rw [abs_of_nonneg p] at e2
  have e2' := abs_le.1 e2
  have split : (1000000 * (r.sec : ℚ) + r.usec) / 1000000 = r.sec + u := by rw [hu]; field_simp
  rw [split, abs_lt]
  norm_num at e1' e2' h1 ⊢
  constructor <;> linarith

/-- C53: until the year 2106 readings of the clock that differ give different values: MPI_Wtime resolves
microseconds. -/
theorem C53_resolution (r r' : Reading) (h : r'.sec < 2 ^ 32) (hlt : r.micros < r'.micros) :
    ∃ w w', r.wtime = .ok w ∧ r'.wtime = .ok w' ∧ w < w' := by
  have hs : r.sec ≤ r'.sec := by
    unfold Reading.micros at hlt
    have := r.usec_lo; have := r'.usec_hi; omega
  obtain ⟨w, h1, h2⟩ := C53_accuracy r (by omega)
  obtain ⟨w', h3, h4⟩ := C53_accuracy r' h
  refine ⟨w, w', h1, h3, ?_⟩
  have h5 : (r.micros : ℚ) + 1 ≤ r'.micros := by exact_mod_cast hlt
  rw [abs_lt] at h2 h4
  linarith

/-- A clock that cannot be read ends the process. -/
theorem C53_no_clock : (MPI_Wtime none).aborted = true := rfl

/-- The next second after 999999 microseconds. -/
example : ∃ w w', MPI_Wtime (some (1700000000, 999999)) = .ok w ∧ MPI_Wtime (some (1700000001, 0)) = .ok w' ∧ w < w' :=
  C53_resolution ⟨1700000000, 999999, by decide, by decide, by decide⟩ ⟨1700000001, 0, by decide, by decide, by decide⟩
    (by decide) (by decide)

end MpiSerial
