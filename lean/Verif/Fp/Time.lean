import Verif.Fp.Round
import Verif.Time.Model
set_option linter.unusedSectionVars false
set_option linter.unusedSimpArgs false
/-!
Property C136: what rounding does to times. Model in double precision of `convert_sec_since_to_std_time` (cis/time_util.py:168-184), with which
the times of CALIOP, CloudSat, MODIS and cis' own files are made days after 1600-01-01; the exact version is in `Time/Model.lean` (C27).
-/
namespace Cis.Fp.Time
open Cis.Fp

/-- `convert_sec_since_to_std_time(seconds, ref)` for one number (time_util.py:168-184): `offset.days + seconds.astype(float) / (3600*24.0)`.
`ref` is the reference in seconds after 1600-01-01; both operations are rounded, the days of the `timedelta` are a whole number. -/
def secSinceToStdTime (rnd : ℚ → ℚ) (seconds ref : ℚ) : ℚ := rnd (((⌊ref / 86400⌋ : ℤ) : ℚ) + rnd (seconds / 86400))

/-- The same for an array (element by element). -/
def secsSinceToStdTime (rnd : ℚ → ℚ) (seconds : List ℚ) (ref : ℚ) : List ℚ := seconds.map fun s : ℚ => secSinceToStdTime rnd s ref

/-! ### Specification -/

/-- The instant, in seconds after 1600-01-01, that a number of seconds after a reference stands for. -/
def Spec.instant (seconds ref : ℚ) : ℚ := ref + seconds

/-- The instant that a standard time stands for. -/
def Spec.ofStdTime (t : ℚ) : ℚ := t * 86400

/-- The reference is at midnight (otherwise see C27), and all is within 700 years of 1600. -/
structure Spec.Usual (seconds ref : ℚ) : Prop where
  midnight : ∃ n : ℤ, ref = n * 86400
  reach : |Spec.instant seconds ref| ≤ 262143 * 86400
  span : |seconds| ≤ 262144 * 86400

/-! ### Lemmas -/

theorem usual_eq {seconds ref : ℚ} (h : Spec.Usual seconds ref) :
    (((⌊ref / 86400⌋ : ℤ) : ℚ) + seconds / 86400) * 86400 = Spec.instant seconds ref := by
  obtain ⟨n, rfl⟩ := h.midnight
  have : (n : ℚ) * 86400 / 86400 = n := by field_simp
  rw [this, Int.floor_intCast]
  unfold Spec.instant
  field_simp

theorem near_days (rnd : ℚ → ℚ) (h : Rounds rnd) {seconds ref : ℚ} (hu : Spec.Usual seconds ref) :
    |secSinceToStdTime rnd seconds ref - (((⌊ref / 86400⌋ : ℤ) : ℚ) + seconds / 86400)| ≤ 2 ^ (-35 : ℤ) := by
  have hs : |seconds / 86400| ≤ (2 : ℚ) ^ (18 : ℤ) := by
    rw [abs_div, abs_of_pos (by norm_num : (0 : ℚ) < 86400), div_le_iff₀ (by norm_num)]
    have := hu.span
    norm_num at this ⊢
    exact this
  have e1 := h.err hs
  have hr : |((⌊ref / 86400⌋ : ℤ) : ℚ) + seconds / 86400| ≤ 262143 := by
    have := hu.reach
    rw [← usual_eq hu, abs_mul, abs_of_pos (by norm_num : (0 : ℚ) < 86400)] at this
    linarith
  unfold secSinceToStdTime
  generalize ((⌊ref / 86400⌋ : ℤ) : ℚ) = o at *
  generalize seconds / 86400 = d at *
  have h2 : |o + rnd d| ≤ (2 : ℚ) ^ (18 : ℤ) := by
    have : o + rnd d = (o + d) + (rnd d - d) := by ring
    rw [this]
    refine le_trans (abs_add_le _ _) ?_
    norm_num at e1 ⊢
    linarith
  have e2 := h.err h2
  have : rnd (o + rnd d) - (o + d) = (rnd (o + rnd d) - (o + rnd d)) + (rnd d - d) := by ring
  rw [this]
  refine le_trans (abs_add_le _ _) ?_
  norm_num at e1 e2 ⊢
  linarith

/-! ### Theorems -/

/-- **C136**: the time stands for the instant to within three microseconds. -/
theorem c136_near (rnd : ℚ → ℚ) (h : Rounds rnd) (seconds ref : ℚ) (hu : Spec.Usual seconds ref) :
    |Spec.ofStdTime (secSinceToStdTime rnd seconds ref) - Spec.instant seconds ref| ≤ 3 / 1000000 := by
  have e := near_days rnd h hu
  rw [← usual_eq hu]
  unfold Spec.ofStdTime
  rw [← sub_mul, abs_mul, abs_of_pos (by norm_num : (0 : ℚ) < 86400)]
  norm_num at e ⊢
  linarith

/-- **C136**: later measurements never get earlier times, whatever the reference. -/
theorem c136_order (rnd : ℚ → ℚ) (h : Rounds rnd) (s s' ref : ℚ) (hs : s ≤ s') :
    secSinceToStdTime rnd s ref ≤ secSinceToStdTime rnd s' ref := by
  unfold secSinceToStdTime
  apply h.mono
  have : rnd (s / 86400) ≤ rnd (s' / 86400) := h.mono (div_le_div_of_nonneg_right hs (by norm_num))
  linarith

/-- **C136**, arrays: the order of the times is that of the seconds, and none is lost. -/
theorem c136_sorted (rnd : ℚ → ℚ) (h : Rounds rnd) (l : List ℚ) (ref : ℚ) (hl : l.Pairwise (· ≤ ·)) :
    (secsSinceToStdTime rnd l ref).Pairwise (· ≤ ·) ∧ (secsSinceToStdTime rnd l ref).length = l.length := by
  constructor
  · unfold secsSinceToStdTime
    rw [List.pairwise_map]
    exact hl.imp (fun {a b} hab => c136_order rnd h a b ref hab)
  · simp [secsSinceToStdTime]

/-- **C136**: measurements more than six microseconds apart keep different times, in their order, also if they are counted from different
references (files of different days). -/
theorem c136_distinct (rnd : ℚ → ℚ) (h : Rounds rnd) (s s' ref ref' : ℚ) (hu : Spec.Usual s ref) (hu' : Spec.Usual s' ref')
    (hs : Spec.instant s ref + 6 / 1000000 < Spec.instant s' ref') : secSinceToStdTime rnd s ref < secSinceToStdTime rnd s' ref' := by
  have e := abs_le.1 (c136_near rnd h s ref hu)
  have e' := abs_le.1 (c136_near rnd h s' ref' hu')
  unfold Spec.ofStdTime at e e'
  linarith

/-- **C136**: a subset by times keeps every measurement more than three microseconds within its limits, and none more than three microseconds
outside. -/
theorem c136_subset (rnd : ℚ → ℚ) (h : Rounds rnd) (s ref limit : ℚ) (hu : Spec.Usual s ref) :
    (Spec.instant s ref + 3 / 1000000 ≤ Spec.ofStdTime limit → secSinceToStdTime rnd s ref ≤ limit) ∧
      (Spec.ofStdTime limit + 3 / 1000000 < Spec.instant s ref → limit < secSinceToStdTime rnd s ref) := by
  have e := abs_le.1 (c136_near rnd h s ref hu)
  unfold Spec.ofStdTime at *
  constructor <;> intro hl <;> linarith

/-- **C136**: whole days after a midnight are exact. -/
theorem c136_days (rnd : ℚ → ℚ) (h : Rounds rnd) (n k : ℤ) (hk : |k| ≤ 2 ^ 53) (hn : |n + k| ≤ 2 ^ 53) :
    secSinceToStdTime rnd (k * 86400) (n * 86400) = n + k := by
  unfold secSinceToStdTime
  have e1 : (n : ℚ) * 86400 / 86400 = n := by field_simp
  have e2 : (k : ℚ) * 86400 / 86400 = k := by field_simp
  rw [e1, e2, Int.floor_intCast, h.id (isFloat_int k hk)]
  exact_mod_cast h.id (isFloat_int (n + k) hn)

/-- Not every two instants keep different times: about 2010, measurements half a microsecond apart get the same (with every way to round). -/
theorem c136_distinct_violated (rnd : ℚ → ℚ) (h : Rounds rnd) : ∃ s s' ref : ℚ, IsFloat s ∧ IsFloat s' ∧ Spec.Usual s ref ∧ Spec.Usual s' ref ∧
    s < s' ∧ secSinceToStdTime rnd s ref = secSinceToStdTime rnd s' ref := by
  refine ⟨0, 2 ^ (-21 : ℤ), 150000 * 86400, isFloat_zero, ⟨1, -21, by norm_num, by norm_num⟩, ⟨⟨150000, by norm_num⟩, ?_, ?_⟩,
    ⟨⟨150000, by norm_num⟩, ?_, ?_⟩, by norm_num, ?_⟩
  · unfold Spec.instant; rw [abs_le]; norm_num
  · norm_num
  · unfold Spec.instant; rw [abs_le]; norm_num
  · rw [abs_le]; norm_num
  · unfold secSinceToStdTime
    have hf : ⌊(150000 * 86400 : ℚ) / 86400⌋ = 150000 := by
      rw [show (150000 * 86400 : ℚ) / 86400 = ((150000 : ℤ) : ℚ) by norm_num, Int.floor_intCast]
    rw [hf]
    have z : rnd (0 / 86400) = 0 := by rw [zero_div]; exact h.zero
    rw [z]
    have small : |rnd (2 ^ (-21 : ℤ) / 86400) - 2 ^ (-21 : ℤ) / 86400| ≤ 2 ^ (-53 : ℤ) * |2 ^ (-21 : ℤ) / 86400| := h.rel _
    have hb : |rnd (2 ^ (-21 : ℤ) / 86400)| ≤ 2 ^ (-36 : ℤ) / 2 := by
      have := abs_le.1 small
      rw [abs_of_pos (by norm_num : (0 : ℚ) < 2 ^ (-21 : ℤ) / 86400)] at this
      rw [abs_le]
      norm_num at this ⊢
      constructor <;> linarith [this.1, this.2]
    have k1 : rnd (((150000 : ℤ) : ℚ) + 0) = ((150000 * 2 ^ 35 : ℤ) : ℚ) * (2 : ℚ) ^ (-35 : ℤ) :=
      h.eq (by norm_num) (by norm_num) (by norm_num)
    have k2 : rnd (((150000 : ℤ) : ℚ) + rnd (2 ^ (-21 : ℤ) / 86400)) = ((150000 * 2 ^ 35 : ℤ) : ℚ) * (2 : ℚ) ^ (-35 : ℤ) := by
      apply h.eq (by norm_num) (by norm_num)
      have := abs_le.1 hb
      rw [abs_lt]
      norm_num at this ⊢
      constructor <;> linarith [this.1, this.2]
    rw [k1, k2]

/-- With IEEE 754's rounding the time need not be the number of double precision nearest to the instant, because it is rounded twice: 500000159 s
after 1993-01-01 (the reference of MODIS and others) the time is later. A subset up to that very second leaves the measurement out, its limit being
the nearest number to the instant. -/
theorem c136_limit_violated : ∃ (s : ℤ) (ref : ℚ), Spec.Usual s ref ∧ double (Spec.instant s ref / 86400) < secSinceToStdTime double s ref := by
  refine ⟨500000159, 143541 * 86400, ⟨⟨143541, by norm_num⟩, ?_, ?_⟩, ?_⟩
  · unfold Spec.instant; rw [abs_le]; norm_num
  · norm_num
  · unfold secSinceToStdTime Spec.instant
    have hf : ⌊(143541 * 86400 : ℚ) / 86400⌋ = 143541 := by
      rw [show (143541 * 86400 : ℚ) / 86400 = ((143541 : ℤ) : ℚ) by norm_num, Int.floor_intCast]
    rw [hf]
    have k1 : double (((500000159 : ℤ) : ℚ) / 86400) = ((397682283499963 * 2 ^ 4 : ℤ) : ℚ) * (2 : ℚ) ^ (-40 : ℤ) :=
      double_rounds.eq (by norm_num) (by norm_num) (by rw [abs_lt]; norm_num)
    have k2 : double ((143541 * 86400 + ((500000159 : ℤ) : ℚ)) / 86400) = ((5130872346831069 : ℤ) : ℚ) * (2 : ℚ) ^ (-35 : ℤ) :=
      double_rounds.eq (by norm_num) (by norm_num) (by rw [abs_lt]; norm_num)
    rw [k1, k2]
    rw [double_eq (e := 17) (by norm_num) (by norm_num)]
    have : halfEven ((((143541 : ℤ) : ℚ) + ((397682283499963 * 2 ^ 4 : ℤ) : ℚ) * (2 : ℚ) ^ (-40 : ℤ)) / 2 ^ ((17 : ℤ) - 52)) = 5130872346831070 := by
      have hfl : ⌊((((143541 : ℤ) : ℚ) + ((397682283499963 * 2 ^ 4 : ℤ) : ℚ) * (2 : ℚ) ^ (-40 : ℤ)) / 2 ^ ((17 : ℤ) - 52))⌋ = 5130872346831069 := by
        rw [Int.floor_eq_iff]; norm_num
      unfold halfEven
      rw [hfl]
      norm_num
    rw [this]
    norm_num

/-- The hypotheses are met, e.g. by a measurement an hour and a half after the start of 2010. -/
example : Spec.Usual 5400 (149750 * 86400) ∧ IsFloat 5400 :=
  ⟨⟨⟨149750, by norm_num⟩, by unfold Spec.instant; rw [abs_le]; norm_num, by rw [abs_le]; norm_num⟩, by exact_mod_cast isFloat_int 5400 (by norm_num)⟩

/-- Without rounding the time is that of the exact model. -/
theorem secSinceToStdTime_exact (seconds ref : ℚ) : secSinceToStdTime (fun x => x) seconds ref = Cis.Time.secSinceToStdTime seconds ref := rfl

end Cis.Fp.Time
