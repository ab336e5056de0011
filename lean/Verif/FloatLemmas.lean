import Verif.FloatModel
/-
Lemmas on rounding to `p` significant bits and on relative errors.
-/
set_option linter.unusedSectionVars false
set_option linter.unusedSimpArgs false
namespace MVault.Fp
open MVault.Str (Out decDigits fromStringDecimal Decimal)

theorem rne_err (x : ℚ) : |(rne x : ℚ) - x| ≤ 1 / 2 := by
  have h1 := Int.floor_le x
  have h2 := Int.lt_floor_add_one x
  unfold rne
  split
  · rw [abs_le]; constructor <;> linarith
  · split
    · rw [abs_le]; push_cast; constructor <;> linarith
    · split <;> rw [abs_le] <;> push_cast <;> constructor <;> linarith

theorem rne_int (n : Int) : rne n = n := by simp [rne]

theorem rne_nonneg {x : ℚ} (h : 0 ≤ x) : 0 ≤ rne x := by
  have : 0 ≤ ⌊x⌋ := Int.floor_nonneg.mpr h
  unfold rne
  split
  · exact this
  · split
    · omega
    · split <;> omega

theorem ulp_pos (p : Nat) (x : ℚ) : 0 < ulp p x := zpow_pos (by norm_num) _

theorem rnd_err (p : Nat) (x : ℚ) : |rnd p x - x| ≤ |x| * (2 : ℚ)⁻¹ ^ p := by
  unfold rnd
  split
  · rename_i h; subst h; simp
  · rename_i h
    have hu := ulp_pos p x
    have e1 : (rne (x / ulp p x) : ℚ) * ulp p x - x = ((rne (x / ulp p x) : ℚ) - x / ulp p x) * ulp p x := by field_simp
    rw [e1, abs_mul, abs_of_pos hu]
    have h1 := rne_err (x / ulp p x)
    have h2 : ulp p x / 2 ≤ |x| * (2 : ℚ)⁻¹ ^ p := by
      have hl := Int.zpow_log_le_self (b := 2) (r := |x|) (by norm_num) (abs_pos.mpr h)
      have e : ulp p x / 2 = (2 : ℚ) ^ (Int.log 2 |x|) * (2 : ℚ)⁻¹ ^ p := by
        unfold ulp
        rw [sub_eq_add_neg, zpow_add₀ (by norm_num), zpow_add₀ (by norm_num), zpow_neg, zpow_natCast, zpow_one, inv_pow]
        ring
      rw [e]
      exact mul_le_mul_of_nonneg_right (by exact_mod_cast hl) (by positivity)
    calc _ ≤ 1 / 2 * ulp p x := mul_le_mul_of_nonneg_right h1 hu.le
      _ = ulp p x / 2 := by ring
      _ ≤ _ := h2

/-- A number of `p` significant bits (specification). -/
def IsFp (p : Nat) (x : ℚ) : Prop := ∃ (m e : Int), |m| < 2 ^ p ∧ x = m * (2 : ℚ) ^ e

theorem rnd_fix {p : Nat} {x : ℚ} (h : IsFp p x) : rnd p x = x := by
  obtain ⟨m, e, hm, hx⟩ := h
  unfold rnd
  split
  · rename_i h; exact h.symm
  · rename_i h0
    have hpos : 0 < |x| := abs_pos.mpr h0
    have hlt : |x| < (2 : ℚ) ^ (p + e : Int) := by
      rw [hx, abs_mul, abs_of_pos (show (0 : ℚ) < 2 ^ e from zpow_pos (by norm_num) _), zpow_add₀ (by norm_num)]
      refine mul_lt_mul_of_pos_right ?_ (zpow_pos (by norm_num) _)
      have : ((|m| : Int) : ℚ) < ((2 ^ p : Int) : ℚ) := by exact_mod_cast hm
      simpa using this
    have hlog : Int.log 2 |x| < p + e := (Int.lt_zpow_iff_log_lt (b := 2) (by norm_num) hpos).mp (by exact_mod_cast hlt)
    have hq : x / ulp p x = ((m * 2 ^ (e - (Int.log 2 |x| + 1 - p)).toNat : Int) : ℚ) := by
      have hn : ((e - (Int.log 2 |x| + 1 - p)).toNat : Int) = e - (Int.log 2 |x| + 1 - p) := Int.toNat_of_nonneg (by omega)
      push_cast
      rw [← zpow_natCast (2 : ℚ), hn]
      unfold ulp
      generalize Int.log 2 |x| + 1 - (p : Int) = k
      rw [hx, zpow_sub₀ (by norm_num)]
      ring
    rw [hq, rne_int, ← hq]
    field_simp [(ulp_pos p x).ne']

theorem rnd_isFp {p : Nat} (hp : 0 < p) (x : ℚ) : IsFp p (rnd p x) := by
  unfold rnd
  split
  · exact ⟨0, 0, by positivity, by simp⟩
  · rename_i h0
    have hu := ulp_pos p x
    have hle : |x / ulp p x| ≤ 2 ^ p := by
      rw [abs_div, abs_of_pos hu, div_le_iff₀ hu]
      have hl := (Int.lt_zpow_succ_log_self (b := 2) (by norm_num) |x|).le
      have : (2 : ℚ) ^ p * ulp p x = 2 ^ (Int.log 2 |x| + 1) := by
        unfold ulp
        rw [← zpow_natCast, ← zpow_add₀ (by norm_num)]
        congr 1; ring
      rw [this]; exact_mod_cast hl
    have h1 := rne_err (x / ulp p x)
    have hb : |rne (x / ulp p x)| ≤ 2 ^ p := by
      have h2 : |(rne (x / ulp p x) : ℚ)| < 2 ^ p + 1 := by
        have := abs_sub_abs_le_abs_sub (rne (x / ulp p x) : ℚ) (x / ulp p x)
        linarith
      have h3 : |rne (x / ulp p x)| < 2 ^ p + 1 := by exact_mod_cast h2
      omega
    rcases lt_or_eq_of_le hb with h | h
    · exact ⟨rne (x / ulp p x), Int.log 2 |x| + 1 - p, h, rfl⟩
    · have h2 : (2 : Int) ≤ 2 ^ p := by
        calc (2 : Int) = 2 ^ 1 := by norm_num
          _ ≤ 2 ^ p := pow_le_pow_right₀ (by norm_num) hp
      rcases abs_choice (rne (x / ulp p x)) with hc | hc
      · refine ⟨1, p + (Int.log 2 |x| + 1 - p), by simp only [abs_one]; omega, ?_⟩
        have e : rne (x / ulp p x) = 2 ^ p := by rw [← hc, h]
        rw [e, zpow_add₀ (by norm_num), zpow_natCast]
        unfold ulp
        push_cast
        ring
      · refine ⟨-1, p + (Int.log 2 |x| + 1 - p), by simp only [abs_neg, abs_one]; omega, ?_⟩
        have e : rne (x / ulp p x) = -2 ^ p := by rw [← h, hc]; simp
        rw [e, zpow_add₀ (by norm_num), zpow_natCast]
        unfold ulp
        push_cast
        ring

theorem IsFp.int {p : Nat} {n : Int} (h : |n| < 2 ^ p) : IsFp p n := ⟨n, 0, h, by simp⟩

theorem IsFp.neg {p : Nat} {x : ℚ} (h : IsFp p x) : IsFp p (-x) := by
  obtain ⟨m, e, h1, h2⟩ := h
  exact ⟨-m, e, by simpa using h1, by rw [h2]; push_cast; ring⟩

theorem rnd_zero (p : Nat) : rnd p 0 = 0 := by simp [rnd]

/-! ### Relative errors -/

/-- `a` differs from `b` by at most the relative error of `n` roundings. -/
def Near (u : ℚ) (n : Nat) (a b : ℚ) : Prop := |a - b| ≤ ((1 + u) ^ n - 1) * |b|

theorem near_refl (u : ℚ) (a : ℚ) : Near u 0 a a := by simp [Near]

theorem Near.mono {u : ℚ} (hu : 0 ≤ u) {n m : Nat} {a b : ℚ} (h : Near u n a b) (hnm : n ≤ m) : Near u m a b := by
  refine le_trans h (mul_le_mul_of_nonneg_right ?_ (abs_nonneg b))
  have : (1 + u) ^ n ≤ (1 + u) ^ m := pow_le_pow_right₀ (by linarith) hnm
  linarith

theorem Near.abs_le {u : ℚ} {n : Nat} {a b : ℚ} (h : Near u n a b) : |a| ≤ (1 + u) ^ n * |b| := by
  have := abs_sub_abs_le_abs_sub a b
  unfold Near at h
  linarith

theorem Near.round {u : ℚ} (hu : 0 ≤ u) {n : Nat} {a b c : ℚ} (h : Near u n a b) (hc : |c - a| ≤ |a| * u) : Near u (n + 1) c b := by
  unfold Near
  have h1 : |c - b| ≤ |c - a| + |a - b| := abs_sub_le c a b
  have h2 := h.abs_le
  have h3 : |a| * u ≤ (1 + u) ^ n * |b| * u := mul_le_mul_of_nonneg_right h2 hu
  unfold Near at h
  calc |c - b| ≤ (1 + u) ^ n * |b| * u + ((1 + u) ^ n - 1) * |b| := by linarith
    _ = _ := by ring

theorem Near.mul {u : ℚ} (hu : 0 ≤ u) {n m : Nat} {a b c d : ℚ} (h : Near u n a b) (h' : Near u m c d) : Near u (n + m) (a * c) (b * d) := by
  unfold Near
  have e : a * c - b * d = a * (c - d) + (a - b) * d := by ring
  have h1 := h.abs_le
  unfold Near at h h'
  calc |a * c - b * d| ≤ |a * (c - d)| + |(a - b) * d| := by rw [e]; exact abs_add_le _ _
    _ = |a| * |c - d| + |a - b| * |d| := by rw [abs_mul, abs_mul]
    _ ≤ (1 + u) ^ n * |b| * (((1 + u) ^ m - 1) * |d|) + ((1 + u) ^ n - 1) * |b| * |d| := by
        refine add_le_add (mul_le_mul h1 h' (abs_nonneg _) (by positivity)) (mul_le_mul_of_nonneg_right h (abs_nonneg _))
    _ = ((1 + u) ^ (n + m) - 1) * |b * d| := by rw [abs_mul, pow_add]; ring

theorem Near.add {u : ℚ} {n : Nat} {a b c d : ℚ} (h : Near u n a b) (h' : Near u n c d) (hb : 0 ≤ b) (hd : 0 ≤ d) : Near u n (a + c) (b + d) := by
  unfold Near at *
  have e : a + c - (b + d) = (a - b) + (c - d) := by ring
  rw [e, abs_of_nonneg (add_nonneg hb hd)]
  rw [abs_of_nonneg hb] at h
  rw [abs_of_nonneg hd] at h'
  have := abs_add_le (a - b) (c - d)
  linarith

/-- The unit of rounding. -/
def unit (p : Nat) : ℚ := (2 : ℚ)⁻¹ ^ p

theorem unit_nonneg (p : Nat) : 0 ≤ unit p := by unfold unit; positivity

theorem Near.rnd {p n : Nat} {a b : ℚ} (h : Near (unit p) n a b) : Near (unit p) (n + 1) (rnd p a) b := h.round (unit_nonneg p) (rnd_err p a)

theorem coeff_near (p : Nat) : ∀ n, Near (unit p) n (coeff p n) ((10 : ℚ)⁻¹ ^ n)
  | 0 => by simp [coeff, Near]
  | n + 1 => by
    have h := (coeff_near p n).mul (unit_nonneg p) (near_refl (unit p) ((10 : ℚ)⁻¹))
    have := (h.mono (unit_nonneg p) (le_refl _)).rnd
    simpa [coeff, div_eq_mul_inv, pow_succ] using this

/-- The number a parsed text stands for (specification). -/
def decimalValue (d : Decimal) : ℚ := (if d.neg = true then -1 else 1) * ((d.integer : ℚ) + (d.fractional : ℚ) / 10 ^ d.places)

theorem evalDecimal_near (p : Nat) (hp : 0 < p) (d : Decimal) (hi : 0 ≤ d.integer) (hf : 0 ≤ d.fractional) :
    Near (unit p) (d.places + 3) (evalDecimal p d) (decimalValue d) := by
  have h1 := (near_refl (unit p) (d.integer : ℚ)).rnd
  have h2 := (near_refl (unit p) (d.fractional : ℚ)).rnd
  have h3 := (h2.mul (unit_nonneg p) (coeff_near p d.places)).rnd
  have h4 := ((h1.mono (unit_nonneg p) (show 0 + 1 ≤ 0 + 1 + d.places + 1 by omega)).add h3 (by exact_mod_cast hi)
    (mul_nonneg (by exact_mod_cast hf) (by positivity))).rnd
  have e : (d.fractional : ℚ) * 10⁻¹ ^ d.places = (d.fractional : ℚ) / 10 ^ d.places := by rw [inv_pow, div_eq_mul_inv]
  rw [e] at h4
  have h5 : Near (unit p) (d.places + 3) (Fp.rnd p (Fp.rnd p d.integer + Fp.rnd p (Fp.rnd p d.fractional * coeff p d.places)))
      ((d.integer : ℚ) + (d.fractional : ℚ) / 10 ^ d.places) := h4.mono (unit_nonneg p) (by omega)
  unfold evalDecimal decimalValue
  cases d.neg with
  | false => simpa using h5
  | true =>
    simp only [if_true]
    have hfp : Fp.rnd p (Fp.rnd p (Fp.rnd p d.integer + Fp.rnd p (Fp.rnd p d.fractional * coeff p d.places)) * -1) =
        -(Fp.rnd p (Fp.rnd p d.integer + Fp.rnd p (Fp.rnd p d.fractional * coeff p d.places))) := by
      rw [mul_neg_one]; exact rnd_fix (rnd_isFp hp _).neg
    rw [hfp]
    unfold Near at *
    rw [neg_one_mul, abs_neg, ← neg_sub', abs_neg]
    exact h5

end MVault.Fp
