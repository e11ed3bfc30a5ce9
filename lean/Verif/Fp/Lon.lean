import Verif.Fp.Round
import Verif.Lon.Model
import Mathlib.Tactic.IntervalCases
set_option linter.unusedSectionVars false
set_option linter.unusedSimpArgs false
/-!
Property C132: what rounding does to longitudes that are put into a range. Model in double precision of `fix_longitude_range`
(cis/utils.py:222-231), which is used by `set_longitude_range` of ungridded data (cis/data_io/ungridded_data.py:746-754, 988-996) and when
subsetting (cis/subsetting/subset.py). The exact version is in `Lon/Model.lean`.
-/
namespace Cis.Fp

/-- numpy's `x % y` of numbers of double precision, for `y > 0`: `fmod`, which is exact, and if its sign is not that of `y` a rounded
addition of `y`. -/
def npMod (rnd : ℚ → ℚ) (x y : ℚ) : ℚ :=
  if 0 ≤ x then Lon.pmod x y
  else if Lon.pmod (-x) y = 0 then 0 else rnd (-(Lon.pmod (-x) y) + y)

/-- `iris.analysis.cartography.wrap_lons(lons, base, 360)` for one number: `((lons - base + 360 * 2) % 360) + base`. -/
def wrapLon (rnd : ℚ → ℚ) (base lon : ℚ) : ℚ := rnd (npMod rnd (rnd (rnd (lon - base) + 720)) 360 + base)

/-- `fix_longitude_range(lons, range_start)` (utils.py:222-231). -/
def fixLongitudeRange (rnd : ℚ → ℚ) (lons : List ℚ) (rangeStart : ℚ) : List ℚ := lons.map (wrapLon rnd rangeStart)

/-! ### Specification -/

/-- The starts of ranges that cis uses. -/
def Spec.Start (base : ℚ) : Prop := base = 0 ∨ base = -180

/-- Within the range of longitudes. -/
def Spec.InRange (base x : ℚ) : Prop := base ≤ x ∧ x < base + 360

/-! ### Lemmas -/

/-- A multiple of `2^-43`. -/
def Grid43 (x : ℚ) : Prop := ∃ n : ℤ, x = n * (2 : ℚ) ^ (-43 : ℤ)

/-- A multiple of `2^-42`. -/
def Grid42 (x : ℚ) : Prop := ∃ n : ℤ, x = n * (2 : ℚ) ^ (-42 : ℤ)

theorem Grid42.to43 {x : ℚ} (h : Grid42 x) : Grid43 x := by
  obtain ⟨n, rfl⟩ := h
  exact ⟨2 * n, by push_cast; rw [show (-42 : ℤ) = -43 + 1 by norm_num, zpow_add_one₀ (by norm_num)]; ring⟩

theorem Grid43.sub {x y : ℚ} (hx : Grid43 x) (hy : Grid43 y) : Grid43 (x - y) := by
  obtain ⟨n, rfl⟩ := hx; obtain ⟨m, rfl⟩ := hy
  exact ⟨n - m, by push_cast; ring⟩

theorem Grid43.add {x y : ℚ} (hx : Grid43 x) (hy : Grid43 y) : Grid43 (x + y) := by
  obtain ⟨n, rfl⟩ := hx; obtain ⟨m, rfl⟩ := hy
  exact ⟨n + m, by push_cast; ring⟩

theorem Grid42.sub {x y : ℚ} (hx : Grid42 x) (hy : Grid42 y) : Grid42 (x - y) := by
  obtain ⟨n, rfl⟩ := hx; obtain ⟨m, rfl⟩ := hy
  exact ⟨n - m, by push_cast; ring⟩

theorem Grid42.add {x y : ℚ} (hx : Grid42 x) (hy : Grid42 y) : Grid42 (x + y) := by
  obtain ⟨n, rfl⟩ := hx; obtain ⟨m, rfl⟩ := hy
  exact ⟨n + m, by push_cast; ring⟩

theorem grid42_int (k : ℤ) : Grid42 k := ⟨k * 2 ^ 42, by
  have e : ((k * 2 ^ 42 : ℤ) : ℚ) = k * 2 ^ 42 := by norm_cast
  rw [e]; norm_num; ring⟩

theorem Grid43.isFloat {x : ℚ} (h : Grid43 x) (hx : |x| ≤ 1024) : IsFloat x := by
  obtain ⟨n, rfl⟩ := h
  refine ⟨n, -43, ?_, rfl⟩
  rw [abs_mul, abs_of_pos (by positivity : (0 : ℚ) < 2 ^ (-43 : ℤ))] at hx
  have h2 : (|n| : ℚ) ≤ 2 ^ 53 := by
    rw [zpow_neg, ← div_eq_mul_inv, div_le_iff₀ (by positivity)] at hx
    norm_num at hx ⊢; exact hx
  have h3 : ((|n| : ℤ) : ℚ) ≤ ((2 ^ 53 : ℤ) : ℚ) := by rw [Int.cast_abs]; norm_num at h2 ⊢; exact h2
  exact_mod_cast h3

theorem Grid42.isFloat {x : ℚ} (h : Grid42 x) (hx : |x| ≤ 2048) : IsFloat x := by
  obtain ⟨n, rfl⟩ := h
  refine ⟨n, -42, ?_, rfl⟩
  rw [abs_mul, abs_of_pos (by positivity : (0 : ℚ) < 2 ^ (-42 : ℤ))] at hx
  have h2 : (|n| : ℚ) ≤ 2 ^ 53 := by
    rw [zpow_neg, ← div_eq_mul_inv, div_le_iff₀ (by positivity)] at hx
    norm_num at hx ⊢; exact hx
  have h3 : ((|n| : ℤ) : ℚ) ≤ ((2 ^ 53 : ℤ) : ℚ) := by rw [Int.cast_abs]; norm_num at h2 ⊢; exact h2
  exact_mod_cast h3

theorem grid43_of_float {x : ℚ} (h : IsFloat x) (hx : 512 ≤ x) : Grid43 x := by
  obtain ⟨n, hn⟩ := h.multiple (e := 9) (by refine le_trans ?_ (le_abs_self x); norm_num; exact hx)
  exact ⟨n, by rw [hn]; norm_num⟩

theorem grid42_of_float {x : ℚ} (h : IsFloat x) (hx : 1024 ≤ x) : Grid42 x := by
  obtain ⟨n, hn⟩ := h.multiple (e := 10) (by refine le_trans ?_ (le_abs_self x); norm_num; exact hx)
  exact ⟨n, by rw [hn]; norm_num⟩

theorem pmod_bounds (x : ℚ) : 0 ≤ Lon.pmod x 360 ∧ Lon.pmod x 360 < 360 := by
  unfold Lon.pmod
  have h1 := Int.floor_le (x / 360)
  have h2 := Int.lt_floor_add_one (x / 360)
  rw [le_div_iff₀ (by norm_num)] at h1
  rw [div_lt_iff₀ (by norm_num)] at h2
  constructor <;> linarith

theorem pmod_grid42 {x : ℚ} (h : Grid42 x) : Grid42 (Lon.pmod x 360) := by
  unfold Lon.pmod
  have := grid42_int (360 * ⌊x / 360⌋)
  push_cast at this
  exact h.sub this

theorem pmod_grid43 {x : ℚ} (h : Grid43 x) : Grid43 (Lon.pmod x 360) := by
  unfold Lon.pmod
  have := (grid42_int (360 * ⌊x / 360⌋)).to43
  push_cast at this
  exact h.sub this

theorem start_grid {base : ℚ} (hb : Spec.Start base) : Grid42 base ∧ IsFloat base := by
  rcases hb with rfl | rfl
  · exact ⟨by simpa using grid42_int 0, isFloat_zero⟩
  · exact ⟨by simpa using grid42_int (-180), by simpa using isFloat_int (-180) (by norm_num)⟩

/-- The argument of the remainder. -/
def arg (rnd : ℚ → ℚ) (base lon : ℚ) : ℚ := rnd (rnd (lon - base) + 720)

theorem arg_nonneg {rnd : ℚ → ℚ} (h : Rounds rnd) {base lon : ℚ} (hl : base - 720 ≤ lon) : 0 ≤ arg rnd base lon := by
  have h1 : (-720 : ℚ) ≤ rnd (lon - base) := h.float_le (by simpa using isFloat_int (-720) (by norm_num)) (by linarith)
  exact h.nonneg (by linarith)

theorem wrapLon_eq {rnd : ℚ → ℚ} (h : Rounds rnd) {base lon : ℚ} (hl : base - 720 ≤ lon) :
    wrapLon rnd base lon = rnd (Lon.pmod (arg rnd base lon) 360 + base) := by
  unfold wrapLon npMod
  have h0 := arg_nonneg h hl
  unfold arg at h0 ⊢
  rw [if_pos h0]

/-- The remainder of a number of double precision is one. -/
theorem pmod_float {x : ℚ} (hx : 0 ≤ x) (h : IsFloat x) : IsFloat (Lon.pmod x 360) := by
  obtain ⟨h0, h1⟩ := pmod_bounds x
  obtain ⟨m, e, hm, hx'⟩ := id h
  by_cases hlt : x < 360
  · have : ⌊x / 360⌋ = 0 := by
      rw [Int.floor_eq_zero_iff]
      exact ⟨by positivity, by rw [div_lt_one (by norm_num)]; exact hlt⟩
    unfold Lon.pmod; rw [this]; simpa using h
  · have h256 : (2 : ℚ) ^ (8 : ℤ) ≤ |x| := le_trans (by norm_num; linarith) (le_abs_self x)
    obtain ⟨n, hn⟩ := h.multiple h256
    refine ⟨n - 360 * ⌊x / 360⌋ * 2 ^ 44, -44, ?_, ?_⟩
    · have e1 : Lon.pmod x 360 = ((n - 360 * ⌊x / 360⌋ * 2 ^ 44 : ℤ) : ℚ) * 2 ^ (-44 : ℤ) := by
        unfold Lon.pmod
        have : x = n * (1 / 17592186044416) := by rw [hn]; norm_num
        push_cast
        norm_num
        linarith
      rw [e1] at h0 h1
      rw [zpow_neg, ← div_eq_mul_inv] at h0 h1
      rw [div_lt_iff₀ (by positivity)] at h1
      rw [le_div_iff₀ (by positivity), zero_mul] at h0
      have a : (0 : ℤ) ≤ n - 360 * ⌊x / 360⌋ * 2 ^ 44 := by exact_mod_cast h0
      have b : n - 360 * ⌊x / 360⌋ * 2 ^ 44 < 2 ^ 53 := by
        have : ((n - 360 * ⌊x / 360⌋ * 2 ^ 44 : ℤ) : ℚ) < ((2 ^ 53 : ℤ) : ℚ) := by
          refine lt_of_lt_of_le h1 ?_
          norm_num
        exact_mod_cast this
      rw [abs_of_nonneg a]; exact b.le
    · unfold Lon.pmod
      have : x = n * (1 / 17592186044416) := by rw [hn]; norm_num
      push_cast
      norm_num
      linarith

/-! ### Theorems -/

/-- **C132**, range: longitudes not more than two turns below the range are put into it, its end excluded. -/
theorem c132_range (rnd : ℚ → ℚ) (h : Rounds rnd) (base lon : ℚ) (hb : Spec.Start base) (hl : base - 720 ≤ lon) :
    Spec.InRange base (wrapLon rnd base lon) := by
  rw [wrapLon_eq h hl]
  obtain ⟨h0, h1⟩ := pmod_bounds (arg rnd base lon)
  have hf : IsFloat (arg rnd base lon) := (h _).1
  have hr := pmod_float (arg_nonneg h hl) hf
  refine ⟨h.float_le (start_grid hb).2 (by linarith), ?_⟩
  rcases hb with rfl | rfl
  · rw [add_zero, h.id hr]; linarith
  · have hle : Lon.pmod (arg rnd (-180) lon) 360 ≤ 360 - 2 ^ (-44 : ℤ) := by
      by_contra hc
      push Not at hc
      have h256 : (2 : ℚ) ^ (8 : ℤ) ≤ |Lon.pmod (arg rnd (-180) lon) 360| := by
        refine le_trans ?_ (le_abs_self _)
        norm_num at hc ⊢; linarith
      obtain ⟨n, hn⟩ := hr.multiple h256
      rw [hn] at hc h1
      rw [show (8 : ℤ) - 52 = -44 by norm_num] at hc h1
      have e : (360 : ℚ) = (360 * 2 ^ 44 : ℤ) * 2 ^ (-44 : ℤ) := by push_cast; norm_num
      rw [e] at hc h1
      have p : (0 : ℚ) < 2 ^ (-44 : ℤ) := by positivity
      have a : n < 360 * 2 ^ 44 := by
        have := lt_of_mul_lt_mul_right h1 p.le
        exact_mod_cast this
      have b : (360 * 2 ^ 44 - 1 : ℤ) < n := by
        have : ((360 * 2 ^ 44 : ℤ) - 1 : ℚ) * 2 ^ (-44 : ℤ) < n * 2 ^ (-44 : ℤ) := by linarith
        have := lt_of_mul_lt_mul_right this p.le
        exact_mod_cast this
      omega
    have hf2 : IsFloat (180 - 2 ^ (-44 : ℤ)) := ⟨180 * 2 ^ 44 - 1, -44, by norm_num, by push_cast; norm_num⟩
    have := h.le_float hf2 (x := Lon.pmod (arg rnd (-180) lon) 360 + -180) (by linarith)
    have p : (0 : ℚ) < 2 ^ (-44 : ℤ) := by positivity
    linarith

/-- **C132**, place: a longitude is moved by whole turns, up to `2^-42` degrees (25 nanometres), if it is not more than two turns from
the start of the range. -/
theorem c132_near (rnd : ℚ → ℚ) (h : Rounds rnd) (base lon : ℚ) (hb : Spec.Start base) (hl : base - 720 ≤ lon) (hu : lon ≤ base + 720) :
    ∃ k : ℤ, |wrapLon rnd base lon - (lon + 360 * k)| ≤ 2 ^ (-42 : ℤ) := by
  rw [wrapLon_eq h hl]
  obtain ⟨h0, h1⟩ := pmod_bounds (arg rnd base lon)
  have e1 : |rnd (lon - base) - (lon - base)| ≤ 2 ^ (-44 : ℤ) := by
    have := h.err (x := lon - base) (k := 10) (by rw [abs_le]; norm_num; constructor <;> linarith)
    norm_num at this ⊢; exact this
  have b1 : rnd (lon - base) ≤ 720 := h.le_float (by simpa using isFloat_int 720 (by norm_num)) (by linarith)
  have b2 : -720 ≤ rnd (lon - base) := h.float_le (by simpa using isFloat_int (-720) (by norm_num)) (by linarith)
  have e2 : |arg rnd base lon - (rnd (lon - base) + 720)| ≤ 2 ^ (-43 : ℤ) := by
    have := h.err (x := rnd (lon - base) + 720) (k := 11) (by rw [abs_le]; norm_num; constructor <;> linarith)
    norm_num at this ⊢; exact this
  have hb' : -180 ≤ base ∧ base ≤ 0 := by rcases hb with rfl | rfl <;> norm_num
  have e3 : |rnd (Lon.pmod (arg rnd base lon) 360 + base) - (Lon.pmod (arg rnd base lon) 360 + base)| ≤ 2 ^ (-45 : ℤ) := by
    have := h.err (x := Lon.pmod (arg rnd base lon) 360 + base) (k := 9) (by rw [abs_le]; norm_num; constructor <;> linarith)
    norm_num at this ⊢; exact this
  refine ⟨2 - ⌊arg rnd base lon / 360⌋, ?_⟩
  have ep : Lon.pmod (arg rnd base lon) 360 = arg rnd base lon - 360 * ⌊arg rnd base lon / 360⌋ := rfl
  rw [ep] at e3 ⊢
  push_cast
  rw [abs_le] at *
  norm_num at *
  constructor <;> linarith

theorem wrapLon_repr {rnd : ℚ → ℚ} (h : Rounds rnd) {base lon : ℚ} (hb : Spec.Start base) (hl : base ≤ lon) :
    wrapLon rnd base lon = Lon.pmod (arg rnd base lon) 360 + base ∧ Grid43 (Lon.pmod (arg rnd base lon) 360) ∧
      (Lon.pmod (arg rnd base lon) 360 < 304 ∨ Grid42 (Lon.pmod (arg rnd base lon) 360)) := by
  rw [wrapLon_eq h (by linarith)]
  obtain ⟨h0, h1⟩ := pmod_bounds (arg rnd base lon)
  have hf : IsFloat (arg rnd base lon) := (h _).1
  have hge : 720 ≤ arg rnd base lon :=
    h.float_le (by simpa using isFloat_int 720 (by norm_num)) (by have := h.nonneg (x := lon - base) (by linarith); linarith)
  have g43 := pmod_grid43 (grid43_of_float hf (by linarith))
  refine ⟨h.id ((g43.add (start_grid hb).1.to43).isFloat ?_), g43, ?_⟩
  · have hb' : -180 ≤ base ∧ base ≤ 0 := by rcases hb with rfl | rfl <;> norm_num
    rw [abs_le]; constructor <;> linarith
  · rcases lt_or_ge (arg rnd base lon) 1024 with hs | hs
    · left
      have : ⌊arg rnd base lon / 360⌋ = 2 := by
        rw [Int.floor_eq_iff]
        constructor
        · rw [le_div_iff₀ (by norm_num)]; push_cast; linarith
        · rw [div_lt_iff₀ (by norm_num)]; push_cast; linarith
      unfold Lon.pmod; rw [this]; push_cast; linarith
    · right; exact pmod_grid42 (grid42_of_float hf hs)

/-- **C132**, repetition: for a longitude not below the range the second time changes nothing. -/
theorem c132_idempotent (rnd : ℚ → ℚ) (h : Rounds rnd) (base lon : ℚ) (hb : Spec.Start base) (hl : base ≤ lon) :
    wrapLon rnd base (wrapLon rnd base lon) = wrapLon rnd base lon := by
  have hin := c132_range rnd h base lon hb (by linarith)
  obtain ⟨e1, g, hc⟩ := wrapLon_repr h hb hl
  obtain ⟨h0, h1⟩ := pmod_bounds (arg rnd base lon)
  rw [e1] at hin ⊢
  generalize Lon.pmod (arg rnd base lon) 360 = r at *
  have e2 : rnd (r + base - base) = r := by
    rw [add_sub_cancel_right]
    exact h.id (g.isFloat (by rw [abs_le]; constructor <;> linarith))
  have g720 : Grid42 720 := by simpa using grid42_int 720
  have e3 : arg rnd base (r + base) = r + 720 := by
    unfold arg
    rw [e2]
    apply h.id
    rcases hc with hc | hc
    · exact (g.add g720.to43).isFloat (by rw [abs_le]; constructor <;> linarith)
    · exact (hc.add g720).isFloat (by rw [abs_le]; constructor <;> linarith)
  have e4 : Lon.pmod (r + 720) 360 = r := by
    have : ⌊(r + 720) / 360⌋ = 2 := by
      rw [Int.floor_eq_iff]
      constructor
      · rw [le_div_iff₀ (by norm_num)]; push_cast; linarith
      · rw [div_lt_iff₀ (by norm_num)]; push_cast; linarith
    unfold Lon.pmod; rw [this]; push_cast; ring
  obtain ⟨e5, -⟩ := wrapLon_repr h hb hin.1
  rw [e5, e3, e4]

/-- **C132**, repetition: from the second time on nothing changes. -/
theorem c132_stable (rnd : ℚ → ℚ) (h : Rounds rnd) (base lon : ℚ) (hb : Spec.Start base) (hl : base - 720 ≤ lon) :
    wrapLon rnd base (wrapLon rnd base (wrapLon rnd base lon)) = wrapLon rnd base (wrapLon rnd base lon) :=
  c132_idempotent rnd h base _ hb (c132_range rnd h base lon hb hl).1

/-- **C132**, order: of two longitudes in the range the greater stays the greater one or they become equal, unless it is within
`2^-42` of the end and goes to the start. -/
theorem c132_order (rnd : ℚ → ℚ) (h : Rounds rnd) (base x y : ℚ) (hb : Spec.Start base) (hx : Spec.InRange base x)
    (hy : Spec.InRange base y) (hxy : x ≤ y) :
    wrapLon rnd base x ≤ wrapLon rnd base y ∨ (wrapLon rnd base y = base ∧ base + 360 - 2 ^ (-42 : ℤ) ≤ y) := by
  have hm : arg rnd base x ≤ arg rnd base y := h.mono (by have := h.mono (sub_le_sub_right hxy base); linarith)
  have b1 : ∀ z, Spec.InRange base z → 720 ≤ arg rnd base z ∧ arg rnd base z ≤ 1080 := by
    intro z hz
    have h1 := h.nonneg (x := z - base) (by linarith [hz.1])
    have h2 : rnd (z - base) ≤ 360 := h.le_float (by simpa using isFloat_int 360 (by norm_num)) (by linarith [hz.2])
    exact ⟨h.float_le (by simpa using isFloat_int 720 (by norm_num)) (by linarith),
      h.le_float (by simpa using isFloat_int 1080 (by norm_num)) (by linarith)⟩
  have fl : ∀ s : ℚ, 720 ≤ s → s < 1080 → Lon.pmod s 360 = s - 720 := by
    intro s h1 h2
    have : ⌊s / 360⌋ = 2 := by
      rw [Int.floor_eq_iff]
      constructor
      · rw [le_div_iff₀ (by norm_num)]; push_cast; linarith
      · rw [div_lt_iff₀ (by norm_num)]; push_cast; linarith
    unfold Lon.pmod; rw [this]; push_cast; ring
  obtain ⟨x1, x2⟩ := b1 x hx
  obtain ⟨y1, y2⟩ := b1 y hy
  rcases eq_or_lt_of_le y2 with he | hlt
  · right
    obtain ⟨e, -⟩ := wrapLon_repr h hb hy.1
    have hf : ⌊(1080 : ℚ) / 360⌋ = 3 := by norm_num
    refine ⟨by rw [e, he]; unfold Lon.pmod; rw [hf]; norm_num, ?_⟩
    have e1 : |rnd (y - base) - (y - base)| ≤ 2 ^ (-45 : ℤ) := by
      have := h.err (x := y - base) (k := 9) (by rw [abs_le]; norm_num; constructor <;> linarith [hy.1, hy.2])
      norm_num at this ⊢; exact this
    have h2 : rnd (y - base) ≤ 360 := h.le_float (by simpa using isFloat_int 360 (by norm_num)) (by linarith [hy.2])
    have h3 : 0 ≤ rnd (y - base) := h.nonneg (by linarith [hy.1])
    have e2 : |arg rnd base y - (rnd (y - base) + 720)| ≤ 2 ^ (-43 : ℤ) := by
      have := h.err (x := rnd (y - base) + 720) (k := 11) (by rw [abs_le]; norm_num; constructor <;> linarith)
      norm_num at this ⊢; exact this
    rw [he] at e2
    rw [abs_le] at e1 e2
    norm_num at e1 e2 ⊢
    linarith
  · left
    obtain ⟨ex, -⟩ := wrapLon_repr h hb hx.1
    obtain ⟨ey, -⟩ := wrapLon_repr h hb hy.1
    rw [ex, ey, fl _ x1 (by linarith), fl _ y1 hlt]
    linarith

/-- **C132**, lists: the number of longitudes and their order in the array are kept, and each is put into the range. -/
theorem c132_list (rnd : ℚ → ℚ) (h : Rounds rnd) (base : ℚ) (lons : List ℚ) (hb : Spec.Start base) (hl : ∀ x ∈ lons, base - 720 ≤ x) :
    (fixLongitudeRange rnd lons base).length = lons.length ∧ (∀ w ∈ fixLongitudeRange rnd lons base, Spec.InRange base w) ∧
    ∀ (i : Nat) (x : ℚ), lons[i]? = some x → x ≤ base + 720 →
      ∃ w, (fixLongitudeRange rnd lons base)[i]? = some w ∧ ∃ k : ℤ, |w - (x + 360 * k)| ≤ 2 ^ (-42 : ℤ) := by
  refine ⟨by simp [fixLongitudeRange], ?_, ?_⟩
  · intro w hw
    obtain ⟨x, hx, rfl⟩ := List.mem_map.1 hw
    exact c132_range rnd h base x hb (hl x hx)
  · intro i x hi hu
    exact ⟨_, by simp [fixLongitudeRange, hi], c132_near rnd h base x hb (hl x (List.mem_of_getElem? hi)) hu⟩

/-! ### Violations -/

/-- C132 violated, values: a longitude that is in the range already is changed, to that of another point: `2^-50` becomes 0. -/
theorem c132_changed_violated (rnd : ℚ → ℚ) (h : Rounds rnd) :
    IsFloat (2 ^ (-50 : ℤ)) ∧ Spec.InRange 0 (2 ^ (-50 : ℤ)) ∧ wrapLon rnd 0 (2 ^ (-50 : ℤ)) = 0 := by
  have hf : IsFloat (2 ^ (-50 : ℤ)) := ⟨1, -50, by norm_num, by norm_num⟩
  refine ⟨hf, ⟨by positivity, by norm_num⟩, ?_⟩
  have e : arg rnd 0 (2 ^ (-50 : ℤ)) = 720 := by
    unfold arg
    rw [sub_zero, h.id hf]
    have := h.eq (x := 2 ^ (-50 : ℤ) + 720) (n := 720 * 2 ^ 43) (j := -43) (by norm_num) (by norm_num) (by
      push_cast; rw [abs_lt]; norm_num)
    rw [this]; push_cast; norm_num
  rw [wrapLon_eq h (by norm_num), e]
  have : ⌊(720 : ℚ) / 360⌋ = 2 := by norm_num
  unfold Lon.pmod; rw [this]; norm_num; exact h.zero

/-- C132 violated, repetition: a longitude below the range is put into it, and changed again the second time. -/
theorem c132_idempotent_violated (rnd : ℚ → ℚ) (h : Rounds rnd) :
    IsFloat (-10 + 2 ^ (-43 : ℤ)) ∧ wrapLon rnd 0 (-10 + 2 ^ (-43 : ℤ)) = 350 + 2 ^ (-43 : ℤ) ∧
    wrapLon rnd 0 (wrapLon rnd 0 (-10 + 2 ^ (-43 : ℤ))) ≠ wrapLon rnd 0 (-10 + 2 ^ (-43 : ℤ)) := by
  have g43 : Grid43 (2 ^ (-43 : ℤ)) := ⟨1, by norm_num⟩
  have gi : ∀ k : ℤ, Grid43 k := fun k => (grid42_int k).to43
  have hf : ∀ k : ℤ, 0 ≤ k + 1000 → k + 1 ≤ 1000 → IsFloat (k + 2 ^ (-43 : ℤ)) := by
    intro k h1 h2
    apply ((gi k).add g43).isFloat
    have h1' : (0 : ℚ) ≤ k + 1000 := by exact_mod_cast h1
    have h2' : (k : ℚ) + 1 ≤ 1000 := by exact_mod_cast h2
    rw [abs_le]; norm_num; constructor <;> linarith
  have hlon : IsFloat (-10 + 2 ^ (-43 : ℤ)) := by simpa using hf (-10) (by norm_num) (by norm_num)
  have e : arg rnd 0 (-10 + 2 ^ (-43 : ℤ)) = 710 + 2 ^ (-43 : ℤ) := by
    unfold arg
    rw [sub_zero, h.id hlon, show (-10 : ℚ) + 2 ^ (-43 : ℤ) + 720 = 710 + 2 ^ (-43 : ℤ) by ring]
    exact h.id (by simpa using hf 710 (by norm_num) (by norm_num))
  have e2 : wrapLon rnd 0 (-10 + 2 ^ (-43 : ℤ)) = 350 + 2 ^ (-43 : ℤ) := by
    rw [wrapLon_eq h (by norm_num), e]
    have hfl : ⌊((710 : ℚ) + 2 ^ (-43 : ℤ)) / 360⌋ = 1 := by
      rw [Int.floor_eq_iff]; norm_num
    unfold Lon.pmod; rw [hfl]
    rw [show (710 : ℚ) + 2 ^ (-43 : ℤ) - 360 * ((1 : ℤ) : ℚ) + 0 = 350 + 2 ^ (-43 : ℤ) by push_cast; ring]
    exact h.id (by simpa using hf 350 (by norm_num) (by norm_num))
  refine ⟨hlon, e2, ?_⟩
  rw [e2]
  have hlon2 : IsFloat (350 + 2 ^ (-43 : ℤ)) := by simpa using hf 350 (by norm_num) (by norm_num)
  intro hc
  have hge : (0 : ℚ) ≤ 350 + 2 ^ (-43 : ℤ) := by positivity
  obtain ⟨e3, -, e4⟩ := wrapLon_repr h (Or.inl rfl) hge
  rw [hc, add_zero] at e3
  rw [← e3] at e4
  rcases e4 with e4 | ⟨n, hn⟩
  · norm_num at e4
  · have : (n : ℚ) * 2 = 350 * 2 ^ 43 + 1 := by
      have : (n : ℚ) = (350 + 2 ^ (-43 : ℤ)) * 2 ^ 42 := by rw [hn]; norm_num; ring
      rw [this]; norm_num
    have h2 : n * 2 = 350 * 2 ^ 43 + 1 := by exact_mod_cast this
    omega

/-- C132 violated, order: the last longitude before the end of the range, 360 - 2^-44, which is in it, goes to its start. -/
theorem c132_order_violated (rnd : ℚ → ℚ) (h : Rounds rnd) :
    IsFloat (360 - 2 ^ (-44 : ℤ)) ∧ Spec.InRange 0 (360 - 2 ^ (-44 : ℤ)) ∧ wrapLon rnd 0 (360 - 2 ^ (-44 : ℤ)) = 0 ∧
    wrapLon rnd 0 1 = 1 := by
  have hf : IsFloat (360 - 2 ^ (-44 : ℤ)) := ⟨360 * 2 ^ 44 - 1, -44, by norm_num, by push_cast; norm_num⟩
  refine ⟨hf, ⟨by norm_num, by norm_num⟩, ?_, ?_⟩
  · have e : arg rnd 0 (360 - 2 ^ (-44 : ℤ)) = 1080 := by
      unfold arg
      rw [sub_zero, h.id hf]
      have := h.eq (x := 360 - 2 ^ (-44 : ℤ) + 720) (n := 1080 * 2 ^ 42) (j := -42) (by norm_num) (by norm_num) (by
        push_cast; rw [abs_lt]; norm_num)
      rw [this]; push_cast; norm_num
    rw [wrapLon_eq h (by norm_num), e]
    have : ⌊(1080 : ℚ) / 360⌋ = 3 := by norm_num
    unfold Lon.pmod; rw [this]; norm_num; exact h.zero
  · have e : arg rnd 0 1 = 721 := by
      unfold arg
      rw [sub_zero, h.id (x := 1) (by simpa using isFloat_int 1 (by norm_num)), show (1 : ℚ) + 720 = 721 by norm_num]
      exact h.id (by simpa using isFloat_int 721 (by norm_num))
    rw [wrapLon_eq h (by norm_num), e]
    have : ⌊(721 : ℚ) / 360⌋ = 2 := by norm_num
    unfold Lon.pmod; rw [this]; norm_num
    exact h.id (by simpa using isFloat_int 1 (by norm_num))

/-- Without rounding the function is that of `Lon/Model.lean`. -/
theorem wrapLon_exact (base : ℚ) (lons : List ℚ) : fixLongitudeRange (fun x => x) lons base = Lon.fixLongitudeRange lons base := by
  unfold fixLongitudeRange Lon.fixLongitudeRange Lon.wrapLons
  apply List.map_congr_left
  intro x _
  have key : ∀ z : ℚ, npMod (fun x => x) z 360 = Lon.pmod z 360 := by
    intro z
    unfold npMod
    split_ifs with h0 h1
    · rfl
    · unfold Lon.pmod at h1 ⊢
      have : z = -(360 * ⌊-z / 360⌋) := by linarith
      rw [this]
      have e : (-(360 * (⌊-z / 360⌋ : ℚ))) / 360 = ((-⌊-z / 360⌋ : ℤ) : ℚ) := by push_cast; ring
      rw [e, Int.floor_intCast]; push_cast; ring
    · unfold Lon.pmod at h1 ⊢
      have hlt : ((⌊-z / 360⌋ : ℤ) : ℚ) < -z / 360 := by
        refine lt_of_le_of_ne (Int.floor_le _) (fun he => h1 ?_)
        rw [he]; ring
      have h2 := Int.lt_floor_add_one (-z / 360)
      have : ⌊z / 360⌋ = -⌊-z / 360⌋ - 1 := by
        rw [Int.floor_eq_iff]
        push_cast
        have e : z / 360 = -(-z / 360) := by ring
        rw [e]
        constructor <;> linarith
      rw [this]; push_cast; ring
  show npMod (fun x => x) (x - base + 720) 360 + base = Lon.pmod (x - base + 360 * 2) 360 + base
  rw [key, show (360 : ℚ) * 2 = 720 by norm_num]

example : Spec.InRange (-180) (wrapLon double (-180) 270) ∧ ∃ k : ℤ, |wrapLon double (-180) 270 - (270 + 360 * k)| ≤ 2 ^ (-42 : ℤ) :=
  ⟨c132_range double double_rounds _ _ (Or.inr rfl) (by norm_num), c132_near double double_rounds _ _ (Or.inr rfl) (by norm_num) (by norm_num)⟩

end Cis.Fp
