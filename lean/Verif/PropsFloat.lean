import Verif.FloatLemmas
import Mathlib.Tactic.Ring.RingNF
/-
C89: floating point values in texts (`ToString` and `FromString` of `float` and `double`, which the library uses for csv files and for printing).
-/
set_option linter.unusedSectionVars false
set_option linter.unusedSimpArgs false
namespace MVault.Fp
open MVault.Str

/-- The text `[-]digits.digits`. -/
def decimalText (neg : Bool) (ds fs : List Char) : List Char := (if neg = true then ['-'] else []) ++ ds ++ '.' :: fs

/-- The number the text `[-]digits.digits` stands for. -/
def textValue (neg : Bool) (ds fs : List Char) : ℚ :=
  (if neg = true then -1 else 1) * ((decValue ds 0 : ℚ) + (decValue fs 0 : ℚ) / 10 ^ fs.length)

/-- The text is a decimal fraction: digits, a point, digits. -/
def DecimalText (neg : Bool) (ds fs : List Char) : Prop := ds ≠ [] ∧ (∀ c ∈ ds, IsDigit c) ∧ ∀ c ∈ fs, IsDigit c

/-! ### Reading -/

/-- **C89.** A text `[-]digits.digits` with at most 37 digits after the point, whose two groups of digits fit a 32-bit `int`, is read as a number that differs from
the number it stands for by at most the relative error of `n + 3` roundings, `n` the number of digits after the point. -/
theorem C89_accuracy (p : Nat) (hp : 0 < p) (neg : Bool) (ds fs : List Char) (ht : DecimalText neg ds fs) (h1 : decValue ds 0 ≤ 2147483647)
    (h2 : decValue fs 0 ≤ 2147483647) (_ : fs.length ≤ 37) :
    ∃ y, fromStringFloat p (decimalText neg ds fs) = .ok y ∧
      |y - textValue neg ds fs| ≤ ((1 + (2 : ℚ)⁻¹ ^ p) ^ (fs.length + 3) - 1) * |textValue neg ds fs| := by
  obtain ⟨hne, hd, hf⟩ := ht
  have h := C51_decimal_operands neg ds fs hne hd hf h1 h2
  refine ⟨evalDecimal p ⟨neg, decValue ds 0, decValue fs 0, fs.length⟩, ?_, ?_⟩
  · simp only [fromStringFloat, decimalText]
    rw [h]
  · exact evalDecimal_near p hp ⟨neg, decValue ds 0, decValue fs 0, fs.length⟩ (decValue_nonneg ds hd) (decValue_nonneg fs hf)

example : DecimalText true "12".toList "345".toList ∧ textValue true "12".toList "345".toList = -12345 / 1000 := by
  refine ⟨by unfold DecimalText; decide, ?_⟩
  have e1 : decValue "12".toList 0 = 12 := by decide
  have e2 : decValue "345".toList 0 = 345 := by decide
  have e3 : ("345".toList).length = 3 := by decide
  simp only [textValue, e1, e2, e3]
  norm_num

/-! ### Writing -/

theorem fixedDigits_length : ∀ n m, (fixedDigits n m).length = n
  | 0, _ => rfl
  | n + 1, m => by simp [fixedDigits, fixedDigits_length n]

theorem fixedDigits_spec : ∀ n m, (∀ c ∈ fixedDigits n m, notDigit c = false) ∧ dvalue (fixedDigits n m) 0 = (m % 10 ^ n : Nat)
  | 0, m => by simp [fixedDigits, dvalue, Nat.mod_one]
  | n + 1, m => by
    obtain ⟨h1, h2⟩ := fixedDigits_spec n (m / 10)
    have hm : m % 10 < 10 := Nat.mod_lt _ (by decide)
    refine ⟨?_, ?_⟩
    · intro c hc
      simp [fixedDigits] at hc
      rcases hc with hc | hc
      · exact h1 c hc
      · subst hc; simp [notDigit, ofNat_digit _ hm]; omega
    · rw [fixedDigits, dvalue_append, h2]
      simp only [dvalue, dval, List.foldl_cons, List.foldl_nil, ofNat_digit _ hm]
      have e : m % 10 ^ (n + 1) = m % 10 + 10 * (m / 10 % 10 ^ n) := by
        rw [Nat.pow_succ, Nat.mul_comm, Nat.mod_mul]
      rw [e]; push_cast; ring

/-- The scaled value of a printed number. -/
def scaled (x : ℚ) : Nat := (rne (|x| * 10 ^ 6)).toNat

theorem scaled_cast (x : ℚ) : ((scaled x : Nat) : ℚ) = (rne (|x| * 10 ^ 6) : ℚ) := by
  have h : 0 ≤ rne (|x| * 10 ^ 6) := rne_nonneg (by positivity)
  have : ((scaled x : Nat) : Int) = rne (|x| * 10 ^ 6) := Int.toNat_of_nonneg h
  exact_mod_cast this

theorem scaled_err (x : ℚ) : |((scaled x : Nat) : ℚ) / 10 ^ 6 - (|x|)| ≤ 1 / 2 / 10 ^ 6 := by
  have h := rne_err (|x| * 10 ^ 6)
  rw [← scaled_cast] at h
  have e : ((scaled x : Nat) : ℚ) / 10 ^ 6 - |x| = (((scaled x : Nat) : ℚ) - |x| * 10 ^ 6) / 10 ^ 6 := by ring
  rw [e, abs_div, abs_of_pos (show (0 : ℚ) < 10 ^ 6 by norm_num)]
  exact div_le_div_of_nonneg_right h (by norm_num)

theorem toString_shape (x : ℚ) :
    toStringFloat x = decimalText (decide (x < 0)) (decDigits (scaled x / 10 ^ 6)) (fixedDigits 6 (scaled x % 10 ^ 6)) ∧
    DecimalText (decide (x < 0)) (decDigits (scaled x / 10 ^ 6)) (fixedDigits 6 (scaled x % 10 ^ 6)) ∧
    decValue (decDigits (scaled x / 10 ^ 6)) 0 = (scaled x / 10 ^ 6 : Nat) ∧
    decValue (fixedDigits 6 (scaled x % 10 ^ 6)) 0 = (scaled x % 10 ^ 6 : Nat) := by
  obtain ⟨a1, a2, a3⟩ := decDigits_spec (scaled x / 10 ^ 6)
  obtain ⟨b1, b2⟩ := fixedDigits_spec 6 (scaled x % 10 ^ 6)
  refine ⟨?_, ⟨a2, fun c hc => (isDigit_iff c).2 (a1 c hc), fun c hc => (isDigit_iff c).2 (b1 c hc)⟩, ?_, ?_⟩
  · simp only [toStringFloat, decimalText, scaled, decide_eq_true_eq]
  · rw [decValue_eq, a3]
  · rw [decValue_eq, b2, Nat.mod_mod]

theorem toString_value (x : ℚ) :
    textValue (decide (x < 0)) (decDigits (scaled x / 10 ^ 6)) (fixedDigits 6 (scaled x % 10 ^ 6)) =
      (if x < 0 then -1 else 1) * (((scaled x : Nat) : ℚ) / 10 ^ 6) := by
  obtain ⟨-, -, h1, h2⟩ := toString_shape x
  have e : ((scaled x : Nat) : ℚ) = ((scaled x / 10 ^ 6 : Nat) : ℚ) * 10 ^ 6 + ((scaled x % 10 ^ 6 : Nat) : ℚ) := by
    have := Nat.div_add_mod (scaled x) (10 ^ 6)
    have h : ((10 ^ 6 * (scaled x / 10 ^ 6) + scaled x % 10 ^ 6 : Nat) : ℚ) = ((scaled x : Nat) : ℚ) := by rw [this]
    rw [← h]; push_cast; ring
  unfold textValue
  rw [h1, h2, fixedDigits_length]
  simp only [decide_eq_true_eq, Int.cast_natCast]
  congr 1
  rw [e]
  ring

theorem sign_abs (x : ℚ) : (if x < 0 then (-1 : ℚ) else 1) * |x| = x := by
  split
  · rename_i h; rw [abs_of_neg h]; ring
  · rename_i h; rw [abs_of_nonneg (not_lt.mp h)]; ring

theorem abs_signed (x a : ℚ) : |(if x < 0 then (-1 : ℚ) else 1) * a| = |a| := by
  split <;> simp [abs_mul]

/-- **C89.** The text of a floating point value is `[-]digits.digits` with six digits after the point, and the number it stands for is at most half a millionth
away from the value. -/
theorem C89_text_error (x : ℚ) : ∃ neg ds fs, toStringFloat x = decimalText neg ds fs ∧ DecimalText neg ds fs ∧ fs.length = 6 ∧
    |textValue neg ds fs - x| ≤ 1 / 2 / 10 ^ 6 := by
  obtain ⟨h1, h2, -, -⟩ := toString_shape x
  refine ⟨_, _, _, h1, h2, fixedDigits_length _ _, ?_⟩
  rw [toString_value]
  have e : (if x < 0 then (-1 : ℚ) else 1) * (((scaled x : Nat) : ℚ) / 10 ^ 6) - x =
      (if x < 0 then (-1 : ℚ) else 1) * (((scaled x : Nat) : ℚ) / 10 ^ 6 - |x|) := by
    rw [mul_sub, sign_abs]
  rw [e, abs_signed]
  exact scaled_err x

/-! ### Round trip -/

theorem scaled_int_bound {x : ℚ} (h : |x| ≤ 2147483648 - 1 / 10 ^ 6) : scaled x / 10 ^ 6 ≤ 2147483647 := by
  have h1 := scaled_err x
  rw [abs_le] at h1
  have h2 : ((scaled x : Nat) : ℚ) < 2147483648 * 10 ^ 6 := by
    have : ((scaled x : Nat) : ℚ) / 10 ^ 6 < 2147483648 := by
      have : (1 : ℚ) / 2 / 10 ^ 6 < 1 / 10 ^ 6 := by norm_num
      linarith [h1.2]
    rwa [div_lt_iff₀ (by norm_num)] at this
  have h3 : scaled x < 2147483648 * 10 ^ 6 := by exact_mod_cast h2
  have : scaled x / 10 ^ 6 < 2147483648 := Nat.div_lt_of_lt_mul (by omega)
  omega

/-- **C89.** A value below 2147483648 (by a millionth at least) written to a text and read back comes back with an error of at most half a millionth plus the
relative error of nine roundings. -/
theorem C89_roundtrip (p : Nat) (hp : 0 < p) (x : ℚ) (hx : |x| ≤ 2147483648 - 1 / 10 ^ 6) :
    ∃ y, fromStringFloat p (toStringFloat x) = .ok y ∧
      |y - x| ≤ 1 / 2 / 10 ^ 6 + ((1 + (2 : ℚ)⁻¹ ^ p) ^ 9 - 1) * (|x| + 1 / 2 / 10 ^ 6) := by
  obtain ⟨h1, h2, h3, h4⟩ := toString_shape x
  have hb := scaled_int_bound hx
  have hm : scaled x % 10 ^ 6 < 10 ^ 6 := Nat.mod_lt _ (by decide)
  obtain ⟨y, hy, he⟩ := C89_accuracy p hp _ _ _ h2 (by rw [h3]; exact_mod_cast hb) (by rw [h4]; omega) (by rw [fixedDigits_length]; decide)
  refine ⟨y, by rw [h1]; exact hy, ?_⟩
  rw [fixedDigits_length, toString_value] at he
  have hv : |(if x < 0 then (-1 : ℚ) else 1) * (((scaled x : Nat) : ℚ) / 10 ^ 6) - x| ≤ 1 / 2 / 10 ^ 6 := by
    have e : (if x < 0 then (-1 : ℚ) else 1) * (((scaled x : Nat) : ℚ) / 10 ^ 6) - x =
        (if x < 0 then (-1 : ℚ) else 1) * (((scaled x : Nat) : ℚ) / 10 ^ 6 - |x|) := by
      rw [mul_sub, sign_abs]
    rw [e, abs_signed]
    exact scaled_err x
  generalize (if x < 0 then (-1 : ℚ) else 1) * (((scaled x : Nat) : ℚ) / 10 ^ 6) = v at he hv
  have ha : |v| ≤ |x| + 1 / 2 / 10 ^ 6 := by
    have := abs_sub_abs_le_abs_sub v x
    linarith
  have hc : (0 : ℚ) ≤ (1 + (2 : ℚ)⁻¹ ^ p) ^ 9 - 1 := by
    have : (1 : ℚ) ≤ (1 + (2 : ℚ)⁻¹ ^ p) ^ 9 := one_le_pow₀ (by linarith [show (0 : ℚ) ≤ (2 : ℚ)⁻¹ ^ p by positivity])
    linarith
  have ht : |y - x| ≤ |y - v| + |v - x| := abs_sub_le y v x
  have := mul_le_mul_of_nonneg_left ha hc
  norm_num at he this ⊢
  linarith

/-- **C89**, `double`: six decimal places survive. A `double` of at most a million in size comes back with an error below 0.0000006. -/
theorem C89_roundtrip_double (x : ℚ) (hx : |x| ≤ 10 ^ 6) : ∃ y, fromStringFloat 53 (toStringFloat x) = .ok y ∧ |y - x| ≤ 6 / 10 ^ 7 := by
  obtain ⟨y, h1, h2⟩ := C89_roundtrip 53 (by decide) x (le_trans hx (by norm_num))
  refine ⟨y, h1, le_trans h2 ?_⟩
  have hc : (1 + (2 : ℚ)⁻¹ ^ 53) ^ 9 - 1 ≤ 1 / 10 ^ 14 := by norm_num
  have h0 : (0 : ℚ) ≤ |x| + 1 / 2 / 10 ^ 6 := by positivity
  have h3 := mul_le_mul_of_nonneg_right hc h0
  have : |x| + 1 / 2 / 10 ^ 6 ≤ 10 ^ 6 + 1 := by norm_num at hx ⊢; linarith
  have h4 : (1 : ℚ) / 10 ^ 14 * (|x| + 1 / 2 / 10 ^ 6) ≤ 1 / 10 ^ 14 * (10 ^ 6 + 1) := mul_le_mul_of_nonneg_left this (by norm_num)
  have h5 : (1 : ℚ) / 2 / 10 ^ 6 + 1 / 10 ^ 14 * (10 ^ 6 + 1) ≤ 6 / 10 ^ 7 := by norm_num
  linarith

/-- **C89**, `float`: the error of a `float` read back is at most 0.0000006 times one more than its size. -/
theorem C89_roundtrip_float (x : ℚ) (hx : |x| ≤ 2147483647) :
    ∃ y, fromStringFloat 24 (toStringFloat x) = .ok y ∧ |y - x| ≤ 6 / 10 ^ 7 * (1 + |x|) := by
  obtain ⟨y, h1, h2⟩ := C89_roundtrip 24 (by decide) x (le_trans hx (by norm_num))
  refine ⟨y, h1, le_trans h2 ?_⟩
  have hc : (1 + (2 : ℚ)⁻¹ ^ 24) ^ 9 - 1 ≤ 54 / 10 ^ 8 := by norm_num
  have h0 : (0 : ℚ) ≤ |x| + 1 / 2 / 10 ^ 6 := by positivity
  have h3 := mul_le_mul_of_nonneg_right hc h0
  have := abs_nonneg x
  norm_num at h3 ⊢
  linarith

example : |(-(5 : ℚ) / 2)| ≤ 10 ^ 6 ∧ |(-(5 : ℚ) / 2)| ≤ 2147483647 := by norm_num [abs_of_pos, abs_div, abs_neg]

/-! ### Whole numbers -/

theorem eval_whole (p : Nat) (hp : 0 < p) (neg : Bool) (n : Nat) (k : Nat) (h : IsFp p (n : ℚ)) :
    evalDecimal p ⟨neg, n, 0, k⟩ = (if neg = true then -1 else 1) * (n : ℚ) := by
  unfold evalDecimal
  simp only [Int.cast_zero, rnd_zero, zero_mul, add_zero, Int.cast_natCast, rnd_fix h]
  cases neg with
  | false => simp
  | true =>
    simp only [if_true, mul_neg_one, neg_one_mul]
    exact rnd_fix h.neg

/-- **C89.** A whole number that the type holds exactly and that fits a 32-bit `int` comes back exactly. -/
theorem C89_whole_numbers (p : Nat) (hp : 0 < p) (m : Int) (hfp : IsFp p (m : ℚ)) (hb : |m| ≤ 2147483647) :
    fromStringFloat p (toStringFloat (m : ℚ)) = .ok (m : ℚ) := by
  obtain ⟨h1, ⟨n1, n2, n3⟩, h3, h4⟩ := toString_shape (m : ℚ)
  have hs : scaled (m : ℚ) = m.natAbs * 10 ^ 6 := by
    have e : |(m : ℚ)| * 10 ^ 6 = ((m.natAbs * 10 ^ 6 : Int) : ℚ) := by
      push_cast
      ring
    unfold scaled
    rw [e, rne_int]
    omega
  have e1 : scaled (m : ℚ) / 10 ^ 6 = m.natAbs := by rw [hs]; omega
  have e2 : scaled (m : ℚ) % 10 ^ 6 = 0 := by rw [hs]; omega
  have ha : (m.natAbs : Int) ≤ 2147483647 := by rw [Int.abs_eq_natAbs] at hb; exact hb
  have h := C51_decimal_operands (decide ((m : ℚ) < 0)) _ _ n1 n2 n3 (by rw [h3, e1]; exact ha) (by rw [h4, e2]; decide)
  rw [h1]
  have h' : fromStringDecimal (decimalText (decide ((m : ℚ) < 0)) (decDigits (scaled (m : ℚ) / 10 ^ 6)) (fixedDigits 6 (scaled (m : ℚ) % 10 ^ 6))) =
      .ok ⟨decide ((m : ℚ) < 0), m.natAbs, 0, 6⟩ := by
    rw [decimalText, h, h3, h4, e1, e2, fixedDigits_length]; rfl
  simp only [fromStringFloat, h']
  have hfp' : IsFp p ((m.natAbs : Nat) : ℚ) := by
    rcases Int.natAbs_eq m with h | h
    · have e : ((m.natAbs : Nat) : ℚ) = (m : ℚ) := by
        have : ((m.natAbs : Int) : ℚ) = (m : ℚ) := by rw [← h]
        rw [← this, Int.cast_natCast]
      rw [e]; exact hfp
    · have e : ((m.natAbs : Nat) : ℚ) = -(m : ℚ) := by
        have : ((-(m.natAbs : Int) : Int) : ℚ) = (m : ℚ) := by rw [← h]
        rw [← this]; push_cast; simp
      rw [e]; exact hfp.neg
  rw [eval_whole p hp _ _ _ hfp']
  congr 1
  have := sign_abs (m : ℚ)
  rw [Nat.cast_natAbs]
  push_cast
  simpa using this

example : IsFp 24 ((-16777215 : Int) : ℚ) ∧ IsFp 53 ((2147483647 : Int) : ℚ) ∧ |(-16777215 : Int)| ≤ 2147483647 :=
  ⟨.int (by decide), .int (by decide), by decide⟩

/-! ### Texts are stable -/

theorem rne_near {x : ℚ} {n : Int} (h : |x - n| < 1 / 2) : rne x = n := by
  rw [abs_lt] at h
  have h2 := rne_err x
  rw [abs_le] at h2
  have h3 : (rne x : ℚ) - n < 1 := by linarith
  have h4 : (-1 : ℚ) < (rne x : ℚ) - n := by linarith
  have h5 : rne x - n < 1 := by exact_mod_cast h3
  have h6 : -1 < rne x - n := by exact_mod_cast h4
  omega

/-- **C89**, `double`: what a `double` of at most four hundred million is read back as has the same text again, unless it is a negative number whose text is
`-0.000000` (the sign of zero is not in the model). Saving, reading and saving again writes the same numbers. -/
theorem C89_stable_double (x : ℚ) (hx : |x| ≤ 4 * 10 ^ 8) (h0 : 0 ≤ x ∨ 1 / 10 ^ 6 ≤ |x|) :
    ∃ y, fromStringFloat 53 (toStringFloat x) = .ok y ∧ toStringFloat y = toStringFloat x := by
  obtain ⟨h1, h2, h3, h4⟩ := toString_shape x
  have hb := scaled_int_bound (le_trans hx (by norm_num))
  have hm : scaled x % 10 ^ 6 < 10 ^ 6 := Nat.mod_lt _ (by decide)
  obtain ⟨y, hy, he⟩ := C89_accuracy 53 (by decide) _ _ _ h2 (by rw [h3]; exact_mod_cast hb) (by rw [h4]; omega) (by rw [fixedDigits_length]; decide)
  refine ⟨y, by rw [h1]; exact hy, ?_⟩
  rw [fixedDigits_length, toString_value] at he
  have hse := scaled_err x
  rw [abs_le] at hse
  have hsn : (0 : ℚ) ≤ ((scaled x : Nat) : ℚ) / 10 ^ 6 := by positivity
  have hsb : ((scaled x : Nat) : ℚ) / 10 ^ 6 ≤ 4 * 10 ^ 8 + 1 := by
    norm_num at hse hx ⊢
    linarith [hse.2]
  have hc : (1 + (2 : ℚ)⁻¹ ^ 53) ^ (6 + 3) - 1 ≤ 1 / 10 ^ 15 := by norm_num
  rw [abs_signed, abs_of_nonneg hsn] at he
  have he' : |y - (if x < 0 then (-1 : ℚ) else 1) * (((scaled x : Nat) : ℚ) / 10 ^ 6)| < 1 / 2 / 10 ^ 6 := by
    have a1 := mul_le_mul hc hsb hsn (by norm_num)
    have a2 : (1 : ℚ) / 10 ^ 15 * (4 * 10 ^ 8 + 1) < 1 / 2 / 10 ^ 6 := by norm_num
    linarith
  have hsign : (y < 0 ↔ x < 0) ∧ |(|y|) - ((scaled x : Nat) : ℚ) / 10 ^ 6| < 1 / 2 / 10 ^ 6 := by
    by_cases hxn : x < 0
    · simp only [hxn, if_true, iff_true] at he' ⊢
      have hx6 : 1 / 10 ^ 6 ≤ |x| := by
        rcases h0 with h | h
        · exact absurd hxn (not_lt.mpr h)
        · exact h
      rw [abs_lt] at he'
      have hy0 : y < 0 := by
        norm_num at hse hx6 he' ⊢
        linarith [hse.1, he'.2]
      refine ⟨hy0, ?_⟩
      rw [abs_of_neg hy0, abs_lt]
      norm_num at he' ⊢
      constructor <;> linarith [he'.1, he'.2]
    · simp only [hxn, if_false, iff_false, one_mul] at he' ⊢
      have hy0 : 0 ≤ y := by
        rw [abs_le] at he
        simp only [hxn, if_false, one_mul] at he
        have a1 := mul_le_mul_of_nonneg_right hc hsn
        norm_num at he a1 hsn ⊢
        linarith [he.1]
      refine ⟨not_lt.mpr hy0, ?_⟩
      rw [abs_of_nonneg hy0]
      exact he'
  obtain ⟨s1, s2⟩ := hsign
  have hs : scaled y = scaled x := by
    have e : rne (|y| * 10 ^ 6) = ((scaled x : Nat) : Int) := by
      apply rne_near
      have e : |y| * 10 ^ 6 - (((scaled x : Nat) : Int) : ℚ) = (|y| - ((scaled x : Nat) : ℚ) / 10 ^ 6) * 10 ^ 6 := by
        push_cast; ring
      rw [e, abs_mul, abs_of_pos (show (0 : ℚ) < 10 ^ 6 by norm_num)]
      calc _ < 1 / 2 / 10 ^ 6 * 10 ^ 6 := mul_lt_mul_of_pos_right s2 (by norm_num)
        _ = 1 / 2 := by norm_num
    have h' : scaled y = (rne (|y| * 10 ^ 6)).toNat := rfl
    rw [h', e]; rfl
  have hy' := (toString_shape y).1
  rw [hy', h1, hs]
  simp only [s1]

example : |(-(5 : ℚ) / 2)| ≤ 4 * 10 ^ 8 ∧ (0 ≤ (-(5 : ℚ) / 2) ∨ 1 / 10 ^ 6 ≤ |(-(5 : ℚ) / 2)|) := by norm_num [abs_of_pos, abs_div, abs_neg]

/-! ### Limits -/

theorem intPart_overflow : ∀ (ds rest : List Char) (acc : Int), (∀ c ∈ ds, notDigit c = false) → 0 ≤ acc → acc ≤ 2147483647 →
    2147483647 < dvalue ds acc → intPartLoop (ds ++ rest) acc = .ub := by
  intro ds
  induction ds with
  | nil => intro rest acc _ _ h1 h2; simp [dvalue] at h2; omega
  | cons c cs ih =>
    intro rest acc h hacc hle hgt
    have hc := h c (by simp)
    have hb := dval_bounds hc
    have hcs : ∀ c ∈ cs, notDigit c = false := fun c hc => h c (by simp [hc])
    rw [dvalue_cons] at hgt
    have hdot : c ≠ '.' := by intro e; subst e; simp [notDigit] at hc
    have e : acc * 10 + ((c.toNat : Int) - 48) = acc * 10 + dval c := rfl
    have hlo : IntTy.i32.lo ≤ 0 := by decide
    have hhi : IntTy.i32.hi = 2147483647 := by decide
    rw [List.cons_append, intPartLoop]
    simp only [hc, hdot, Bool.false_eq_true, if_false]
    cases hf : IntTy.i32.fit (acc * 10) with
    | none => rfl
    | some r1 =>
      have hr1 : r1 = acc * 10 ∧ acc * 10 ≤ 2147483647 := by
        have hw : IntTy.i32.wraps = false := rfl
        simp only [IntTy.fit, hw] at hf
        grind
      obtain ⟨rfl, hr⟩ := hr1
      simp only [e]
      cases hg : IntTy.i32.fit (acc * 10 + dval c) with
      | none => rfl
      | some r2 =>
        have hr2 : r2 = acc * 10 + dval c ∧ acc * 10 + dval c ≤ 2147483647 := by
          have hw : IntTy.i32.wraps = false := rfl
          simp only [IntTy.fit, hw] at hg
          grind
        obtain ⟨rfl, hr'⟩ := hr2
        exact ih rest _ hcs (by omega) hr' hgt

theorem rnd_eval {p : Nat} {x : ℚ} (e m : Int) (h1 : (2 : ℚ) ^ (e + p - 1) ≤ |x|) (h2 : |x| < (2 : ℚ) ^ (e + p)) (h3 : rne (x / (2 : ℚ) ^ e) = m) :
    rnd p x = m * (2 : ℚ) ^ e := by
  have hpos : 0 < |x| := lt_of_lt_of_le (zpow_pos (by norm_num) _) h1
  have l1 : e + p - 1 ≤ Int.log 2 |x| := (Int.zpow_le_iff_le_log (b := 2) (by norm_num) hpos).mp (by exact_mod_cast h1)
  have l2 : Int.log 2 |x| < e + p := (Int.lt_zpow_iff_log_lt (b := 2) (by norm_num) hpos).mp (by exact_mod_cast h2)
  have hu : ulp p x = (2 : ℚ) ^ e := by
    unfold ulp
    congr 1
    omega
  unfold rnd
  rw [if_neg (abs_pos.mp hpos), hu, h3]

theorem coeff6 : coeff 53 6 = 4722366482869646 * (2 : ℚ) ^ (-72 : Int) := by
  have c1 : coeff 53 1 = 7205759403792794 * (2 : ℚ) ^ (-56 : Int) := by
    rw [coeff, coeff]
    exact rnd_eval (-56) 7205759403792794 (by norm_num [abs_of_pos]) (by norm_num [abs_of_pos]) (rne_near (by norm_num [abs_lt]))
  have c2 : coeff 53 2 = 5764607523034235 * (2 : ℚ) ^ (-59 : Int) := by
    rw [coeff, c1]
    exact rnd_eval (-59) 5764607523034235 (by norm_num [abs_of_pos]) (by norm_num [abs_of_pos]) (rne_near (by norm_num [abs_lt]))
  have c3 : coeff 53 3 = 4611686018427388 * (2 : ℚ) ^ (-62 : Int) := by
    rw [coeff, c2]
    exact rnd_eval (-62) 4611686018427388 (by norm_num [abs_of_pos]) (by norm_num [abs_of_pos]) (rne_near (by norm_num [abs_lt]))
  have c4 : coeff 53 4 = 7378697629483821 * (2 : ℚ) ^ (-66 : Int) := by
    rw [coeff, c3]
    exact rnd_eval (-66) 7378697629483821 (by norm_num [abs_of_pos]) (by norm_num [abs_of_pos]) (rne_near (by norm_num [abs_lt]))
  have c5 : coeff 53 5 = 5902958103587057 * (2 : ℚ) ^ (-69 : Int) := by
    rw [coeff, c4]
    exact rnd_eval (-69) 5902958103587057 (by norm_num [abs_of_pos]) (by norm_num [abs_of_pos]) (rne_near (by norm_num [abs_lt]))
  rw [coeff, c5]
  exact rnd_eval (-72) 4722366482869646 (by norm_num [abs_of_pos]) (by norm_num [abs_of_pos]) (rne_near (by norm_num [abs_lt]))

theorem decDigits_zero : decDigits 0 = ['0'] := by
  rw [decDigits]; rfl

theorem text_half : toStringFloat (1 / 2) = "0.500000".toList := by
  have hs : scaled (1 / 2) = 500000 := by
    have e : |(1 / 2 : ℚ)| * 10 ^ 6 = ((500000 : Int) : ℚ) := by norm_num [abs_of_pos]
    unfold scaled
    rw [e, rne_int]; rfl
  rw [(toString_shape (1 / 2)).1, hs]
  have : decide ((1 / 2 : ℚ) < 0) = false := by norm_num
  rw [this, show 500000 / 10 ^ 6 = 0 from rfl, decDigits_zero]
  decide

theorem read_half : fromStringDecimal "0.500000".toList = .ok ⟨false, 0, 500000, 6⟩ := by decide

theorem eval_half : evalDecimal 53 ⟨false, 0, 500000, 6⟩ = 4503599627370497 * (2 : ℚ) ^ (-53 : Int) := by
  have e1 : rnd 53 ((500000 : Int) : ℚ) = ((500000 : Int) : ℚ) := rnd_fix (.int (by decide))
  have e2 : rnd 53 (((500000 : Int) : ℚ) * coeff 53 6) = 4503599627370497 * (2 : ℚ) ^ (-53 : Int) := by
    rw [coeff6]
    exact rnd_eval (-53) 4503599627370497 (by norm_num [abs_of_pos]) (by norm_num [abs_of_pos]) (rne_near (by norm_num [abs_lt]))
  unfold evalDecimal
  simp only [Int.cast_zero, rnd_zero, e1, e2, zero_add, Bool.false_eq_true, if_false]
  exact rnd_fix ⟨4503599627370497, -53, by decide, by norm_num⟩

theorem eval_three_tenths : evalDecimal 53 ⟨false, 0, 3, 1⟩ = 5404319552844596 * (2 : ℚ) ^ (-54 : Int) := by
  have c1 : coeff 53 1 = 7205759403792794 * (2 : ℚ) ^ (-56 : Int) := by
    rw [coeff, coeff]
    exact rnd_eval (-56) 7205759403792794 (by norm_num [abs_of_pos]) (by norm_num [abs_of_pos]) (rne_near (by norm_num [abs_lt]))
  have e1 : rnd 53 ((3 : Int) : ℚ) = ((3 : Int) : ℚ) := rnd_fix (.int (by decide))
  have e2 : rnd 53 (((3 : Int) : ℚ) * coeff 53 1) = 5404319552844596 * (2 : ℚ) ^ (-54 : Int) := by
    rw [c1]
    refine rnd_eval (-54) 5404319552844596 (by norm_num [abs_of_pos]) (by norm_num [abs_of_pos]) ?_
    norm_num [rne]
  unfold evalDecimal
  simp only [Int.cast_zero, rnd_zero, e1, e2, zero_add, Bool.false_eq_true, if_false]
  exact rnd_fix ⟨5404319552844596, -54, by decide, by norm_num⟩

/-- **C89.** The limits, all for the code as it is: a value of 2147483648 or more in size makes reading its own text undefined behaviour; a positive value below half a
millionth comes back as 0; the `double` 0.5 comes back as 0.50000000000000011; and the text `0.3` is not read as the `double` nearest to 0.3. -/
theorem C89_limits :
    (∀ p x, 2147483648 ≤ |x| → fromStringFloat p (toStringFloat x) = .ub) ∧
    (∀ p x, 0 < p → 0 < x → x < 1 / 2 / 10 ^ 6 → fromStringFloat p (toStringFloat x) = .ok 0) ∧
    (∃ y, fromStringFloat 53 (toStringFloat (1 / 2)) = .ok y ∧ y = 1 / 2 + (2 : ℚ) ^ (-53 : Int)) ∧
    (∃ y, fromStringFloat 53 "0.3".toList = .ok y ∧ y ≠ rnd 53 (3 / 10)) := by
  refine ⟨?_, ?_, ?_, ?_⟩
  · intro p x hx
    obtain ⟨h1, ⟨n1, n2, n3⟩, h3, h4⟩ := toString_shape x
    have hs : 2147483648 ≤ scaled x / 10 ^ 6 := by
      have e := scaled_err x
      rw [abs_le] at e
      have e2 : (2147483648 * 10 ^ 6 - 1 : ℚ) < ((scaled x : Nat) : ℚ) := by
        have : (2147483648 - 1 / 10 ^ 6 : ℚ) < ((scaled x : Nat) : ℚ) / 10 ^ 6 := by
          have : (1 : ℚ) / 2 / 10 ^ 6 < 1 / 10 ^ 6 := by norm_num
          linarith [e.1]
        rw [lt_div_iff₀ (by norm_num)] at this
        norm_num at this ⊢
        linarith
      have e3 : ((2147483648 * 10 ^ 6 - 1 : Nat) : ℚ) < ((scaled x : Nat) : ℚ) := by norm_num at e2 ⊢; linarith
      have e4 : 2147483648 * 10 ^ 6 - 1 < scaled x := by exact_mod_cast e3
      omega
    have hov := intPart_overflow (decDigits (scaled x / 10 ^ 6)) ('.' :: fixedDigits 6 (scaled x % 10 ^ 6)) 0
      (decDigits_spec _).1 (by decide) (by decide) (by rw [(decDigits_spec _).2.2]; exact_mod_cast hs)
    have hd : fromStringDecimal (toStringFloat x) = .ub := by
      rw [h1, decimalText]
      by_cases hx0 : x < 0
      · simp only [hx0, decide_true, if_true, List.cons_append, List.nil_append, fromStringDecimal, beq_self_eq_true, Bool.true_and]
        have : (decDigits (scaled x / 10 ^ 6) ++ '.' :: fixedDigits 6 (scaled x % 10 ^ 6)).isEmpty = false := by simp
        simp only [this, Bool.not_false, if_true, hov]
      · simp only [hx0, decide_false, Bool.false_eq_true, if_false, List.nil_append]
        generalize hds : decDigits (scaled x / 10 ^ 6) = ds at *
        cases ds with
        | nil => exact absurd rfl n1
        | cons c cs =>
          have hm : (c == '-') = false := digit_not_minus (n2 c (by simp))
          simp only [List.cons_append] at hov
          simp only [List.cons_append, fromStringDecimal, hm, Bool.false_and, Bool.false_eq_true, if_false, hov]
    simp only [fromStringFloat, hd]
  · intro p x hp h1 h2
    have hs : scaled x = 0 := by
      have : rne (|x| * 10 ^ 6) = 0 := by
        apply rne_near
        rw [abs_of_pos h1, Int.cast_zero, sub_zero, abs_of_pos (by positivity)]
        calc x * 10 ^ 6 < 1 / 2 / 10 ^ 6 * 10 ^ 6 := mul_lt_mul_of_pos_right h2 (by norm_num)
          _ = 1 / 2 := by norm_num
      unfold scaled
      rw [this]; rfl
    have ht : toStringFloat x = "0.000000".toList := by
      rw [(toString_shape x).1, hs]
      have : decide (x < 0) = false := by simpa using h1.le
      rw [this, show 0 / 10 ^ 6 = 0 from rfl, decDigits_zero]; decide
    have hd : fromStringDecimal "0.000000".toList = .ok ⟨false, 0, 0, 6⟩ := by decide
    rw [ht]
    simp only [fromStringFloat, hd]
    simp [evalDecimal, rnd_zero]
  · refine ⟨4503599627370497 * (2 : ℚ) ^ (-53 : Int), ?_, by norm_num⟩
    rw [text_half]
    simp only [fromStringFloat, read_half, eval_half]
  · refine ⟨5404319552844596 * (2 : ℚ) ^ (-54 : Int), ?_, ?_⟩
    · have hd : fromStringDecimal "0.3".toList = .ok ⟨false, 0, 3, 1⟩ := by decide
      simp only [fromStringFloat, hd, eval_three_tenths]
    · rw [rnd_eval (p := 53) (x := 3 / 10) (-54) 5404319552844595 (by norm_num [abs_of_pos]) (by norm_num [abs_of_pos]) (rne_near (by norm_num [abs_lt]))]
      norm_num

example : (2147483648 : ℚ) ≤ |(-(2 : ℚ) ^ 40)| ∧ 0 < (1 : ℚ) / 2 ^ 30 ∧ (1 : ℚ) / 2 ^ 30 < 1 / 2 / 10 ^ 6 := by norm_num [abs_of_pos, abs_neg]

end MVault.Fp
