import Verif.StringsLemmas
/-!
# Properties of text conversion and identifiers (C05–C09, C51)
-/
namespace MVault.Str

/-- Specification: decimal digit characters. -/
def IsDigit (c : Char) : Prop := '0'.toNat ≤ c.toNat ∧ c.toNat ≤ '9'.toNat

instance (c : Char) : Decidable (IsDigit c) := inferInstanceAs (Decidable (_ ∧ _))

/-- Specification: value of a string of decimal digits, read from the left. -/
def decValue : List Char → Int → Int
  | [], acc => acc
  | c :: cs, acc => decValue cs (10 * acc + (c.toNat - '0'.toNat))

/-- Specification: `s` is a decimal numeral (optional minus sign, at least one digit) with value `v`. -/
inductive Numeral : List Char → Int → Prop
  | pos (ds : List Char) (hne : ds ≠ []) (hd : ∀ c ∈ ds, IsDigit c) : Numeral ds (decValue ds 0)
  | neg (ds : List Char) (hne : ds ≠ []) (hd : ∀ c ∈ ds, IsDigit c) : Numeral ('-' :: ds) (-(decValue ds 0))

theorem isDigit_iff (c : Char) : IsDigit c ↔ notDigit c = false := by
  simp [IsDigit, notDigit]

theorem decValue_eq (ds : List Char) : ∀ acc, decValue ds acc = dvalue ds acc := by
  induction ds with
  | nil => intro acc; rfl
  | cons c cs ih =>
    intro acc
    rw [decValue, ih, dvalue_cons]
    congr 1
    have : '0'.toNat = 48 := rfl
    unfold dval
    rw [this]
    omega

theorem decValue_nonneg (ds : List Char) (h : ∀ c ∈ ds, IsDigit c) : 0 ≤ decValue ds 0 := by
  rw [decValue_eq]
  exact dvalue_mono ds (fun c hc => (isDigit_iff c).1 (h c hc)) 0 (by omega)

theorem digit_not_minus {c : Char} (h : IsDigit c) : (c == '-') = false := by
  simp [IsDigit] at h
  rw [beq_eq_false_iff_ne]
  intro e; subst e; simp at h

theorem fromStringInt_pos (t : IntTy) (ds : List Char) (hne : ds ≠ []) (hd : ∀ c ∈ ds, IsDigit c) :
    fromStringInt t ds = digitLoop t ds 0 := by
  cases ds with
  | nil => exact absurd rfl hne
  | cons c cs =>
    have : (c == '-') = false := digit_not_minus (hd c (by simp))
    simp only [fromStringInt, this, Bool.false_and, Bool.false_eq_true, if_false]
    cases digitLoop t (c :: cs) 0 <;> rfl

theorem fromStringInt_neg (t : IntTy) (ds : List Char) (hne : ds ≠ []) :
    fromStringInt t ('-' :: ds) = match digitLoop t ds 0 with
      | .ok r => (match t.fit (r * -1) with | none => .ub | some d => .ok d)
      | o => o := by
  cases ds with
  | nil => exact absurd rfl hne
  | cons c cs =>
    simp only [fromStringInt, beq_self_eq_true, List.isEmpty_cons, Bool.not_false, Bool.and_self, if_true]
    rfl

/-- **C06, acceptance.** A numeral whose value fits the type is accepted with exactly that value. Partial: for the
two types with undefined overflow the smallest value is excluded (see `C06_min_value_is_undefined`). -/
theorem C06_accepts_numerals_partial (t : IntTy) (s : List Char) (v : Int) (h : Numeral s v)
    (hlo : t.lo ≤ v) (hhi : v ≤ t.hi) (hmin : v = t.lo → t ≠ .i32 ∧ t ≠ .i64) :
    fromStringInt t s = .ok v := by
  cases h with
  | pos _ hne hd =>
    rw [decValue_eq] at *
    rw [fromStringInt_pos t s hne hd]
    exact digitLoop_fit t s 0 (fun c hc => (isDigit_iff c).1 (hd c hc)) (by omega) hhi
  | neg ds hne hd =>
    have hnn := decValue_nonneg ds hd
    rw [decValue_eq] at *
    rw [fromStringInt_neg t ds hne]
    have hds : ∀ c ∈ ds, notDigit c = false := fun c hc => (isDigit_iff c).1 (hd c hc)
    by_cases hle : dvalue ds 0 ≤ t.hi
    · rw [digitLoop_fit t ds 0 hds (by omega) hle]
      simp only
      rw [fit_in t _ (by omega) (by omega)]
      simp only; congr 1; omega
    · -- only the smallest 16-bit value remains
      have hw : t.wraps = true := by
        cases t <;> simp_all [IntTy.wraps, IntTy.lo, IntTy.hi] <;> omega
      obtain ⟨r, e, hr⟩ := digitLoop_wrap t hw ds 0 hds
      rw [wrap_id t 0 (lo_le_zero t) (by have := hi_pos t; omega)] at e
      rw [e]
      simp only [fit_wrap t hw]
      congr 1
      rw [hr, ← wrap_id t (-(dvalue ds 0)) hlo (by omega), wrap_congr]
      have h1 := wrap_dvd t (dvalue ds 0)
      have : t.wrap (dvalue ds 0) * -1 - -(dvalue ds 0) = (t.wrap (dvalue ds 0) - dvalue ds 0) * -1 := by omega
      rw [this]
      exact Int.dvd_mul_of_dvd_left h1

example : Numeral "-0042".toList (-42) ∧ IntTy.i32.lo ≤ -42 ∧ (-42 : Int) ≤ IntTy.i32.hi ∧ (-42 : Int) ≠ IntTy.i32.lo :=
  ⟨Numeral.neg "0042".toList (by decide) (by decide), by decide, by decide, by decide⟩

/-- **C06, rejection.** A text that is not a numeral is never accepted. -/
theorem C06_rejects_non_numerals (t : IntTy) (s : List Char) (h : ∀ v, ¬ Numeral s v) (v : Int) :
    fromStringInt t s ≠ .ok v := by
  intro hok
  cases s with
  | nil => simp [fromStringInt] at hok
  | cons c cs =>
    by_cases hn : (c == '-' && !cs.isEmpty) = true
    · have hc : c = '-' := by simp at hn; exact hn.1
      have hne : cs ≠ [] := by simp at hn; exact hn.2
      subst hc
      rw [fromStringInt_neg t cs hne] at hok
      have hd : ∀ c ∈ cs, notDigit c = false := by
        cases hl : digitLoop t cs 0 with
        | ub => rw [hl] at hok; simp at hok
        | reject => rw [hl] at hok; simp at hok
        | ok r => exact digitLoop_ok_digits t cs 0 r hl
      exact h _ (Numeral.neg cs hne (fun c hc => (isDigit_iff c).2 (hd c hc)))
    · have hd : ∀ d ∈ c :: cs, notDigit d = false := by
        cases hl : digitLoop t (c :: cs) 0 with
        | ub => simp only [fromStringInt, hn, Bool.false_eq_true, if_false, hl] at hok; simp at hok
        | reject => simp only [fromStringInt, hn, Bool.false_eq_true, if_false, hl] at hok; simp at hok
        | ok r => exact digitLoop_ok_digits t _ 0 r hl
      exact h _ (Numeral.pos (c :: cs) (by simp) (fun c hc => (isDigit_iff c).2 (hd c hc)))

example : ∀ v, ¬ Numeral "12a".toList v := by
  intro v h
  have key : ∀ s v, Numeral s v → s ≠ ['1', '2', 'a'] := by
    intro s v h e
    cases h with
    | pos ds hne hd =>
      subst e
      have := hd 'a' (by simp)
      exact absurd this (by decide)
    | neg ds hne hd => simp at e
  exact key _ _ h rfl

/-- **C06, what really happens out of range (1).** For the wrapping types every numeral is accepted and its value is
reduced modulo 2^n into the range of the type; in particular a negative numeral is accepted for unsigned types. -/
theorem C06_wraps_out_of_range (t : IntTy) (hw : t ≠ .i32 ∧ t ≠ .i64) (s : List Char) (v : Int) (h : Numeral s v) :
    ∃ r, fromStringInt t s = .ok r ∧ t.lo ≤ r ∧ r ≤ t.hi ∧ (t.hi - t.lo + 1) ∣ (r - v) := by
  have hw' : t.wraps = true := by cases t <;> simp_all [IntTy.wraps]
  have h0 : t.wrap 0 = 0 := wrap_id t 0 (lo_le_zero t) (by have := hi_pos t; omega)
  cases h with
  | pos _ hne hd =>
    rw [fromStringInt_pos t s hne hd, decValue_eq]
    obtain ⟨r, e, hr⟩ := digitLoop_wrap t hw' s 0 (fun c hc => (isDigit_iff c).1 (hd c hc))
    rw [h0] at e
    refine ⟨_, e, (wrap_range t r).1, (wrap_range t r).2, ?_⟩
    rw [hr]; exact wrap_dvd t _
  | neg ds hne hd =>
    rw [fromStringInt_neg t ds hne, decValue_eq]
    obtain ⟨r, e, hr⟩ := digitLoop_wrap t hw' ds 0 (fun c hc => (isDigit_iff c).1 (hd c hc))
    rw [h0] at e
    rw [e]
    simp only [fit_wrap t hw']
    refine ⟨_, rfl, (wrap_range t _).1, (wrap_range t _).2, ?_⟩
    have h1 := wrap_dvd t (t.wrap r * -1)
    have h2 := Int.dvd_mul_of_dvd_left (c := -1) (wrap_dvd t r)
    have h3 := Int.dvd_add h1 h2
    have : t.wrap (t.wrap r * -1) - t.wrap r * -1 + (t.wrap r - r) * -1 = t.wrap (t.wrap r * -1) - -(dvalue ds 0) := by
      rw [hr]; omega
    rwa [this] at h3

/-- **C06, what really happens out of range (2).** For `int32_t` and `int64_t` a numeral of larger magnitude than the
largest value is undefined behaviour. -/
theorem C06_overflow_is_undefined (t : IntTy) (ht : t = .i32 ∨ t = .i64) (s : List Char) (v : Int) (h : Numeral s v)
    (hbig : t.hi < v ∨ v < -t.hi) : fromStringInt t s = .ub := by
  have hw' : t.wraps = false := by rcases ht with rfl | rfl <;> rfl
  have hp := hi_pos t
  cases h with
  | pos _ hne hd =>
    have hnn := decValue_nonneg s hd
    rw [decValue_eq] at *
    rw [fromStringInt_pos t s hne hd]
    exact digitLoop_ub t hw' s 0 (fun c hc => (isDigit_iff c).1 (hd c hc)) (by omega) (by omega) (by omega)
  | neg ds hne hd =>
    have hnn := decValue_nonneg ds hd
    rw [decValue_eq] at *
    rw [fromStringInt_neg t ds hne, digitLoop_ub t hw' ds 0 (fun c hc => (isDigit_iff c).1 (hd c hc)) (by omega) (by omega) (by omega)]

/-- Refutation of the unrestricted C06: the smallest 32-bit value cannot be read. -/
theorem C06_min_value_is_undefined : fromStringInt .i32 "-2147483648".toList = .ub := by decide

/-- Refutation of the unrestricted C06: out-of-range text is accepted for a 16-bit type. -/
theorem C06_refuted_accepts_out_of_range : fromStringInt .u16 "65536".toList = .ok 0 := by decide

/-- Refutation of the unrestricted C06: negative text is accepted for an unsigned type. -/
theorem C06_refuted_accepts_negative : fromStringInt .u32 "-5".toList = .ok 4294967291 := by decide

theorem toStringInt_numeral (i : Int) : Numeral (toStringInt i) i := by
  obtain ⟨h1, h2, h3⟩ := decDigits_spec i.natAbs
  have hd : ∀ c ∈ decDigits i.natAbs, IsDigit c := fun c hc => (isDigit_iff c).2 (h1 c hc)
  unfold toStringInt
  split
  · have := Numeral.neg _ h2 hd
    rw [decValue_eq, h3] at this
    have e : -(i.natAbs : Int) = i := by omega
    rwa [e] at this
  · have := Numeral.pos _ h2 hd
    rw [decValue_eq, h3] at this
    have e : (i.natAbs : Int) = i := by omega
    rwa [e] at this

/-- **C05.** Reading back the text of an integer gives the integer. Partial: all values of all six types except the
smallest `int32_t` and the smallest `int64_t`. -/
theorem C05_int_roundtrip_partial (t : IntTy) (i : Int) (hlo : t.lo ≤ i) (hhi : i ≤ t.hi)
    (hmin : i = t.lo → t ≠ .i32 ∧ t ≠ .i64) : fromStringInt t (toStringInt i) = .ok i :=
  C06_accepts_numerals_partial t _ i (toStringInt_numeral i) hlo hhi hmin

example : IntTy.i16.lo ≤ (-32768 : Int) ∧ (-32768 : Int) ≤ IntTy.i16.hi ∧
    ((-32768 : Int) = IntTy.i16.lo → IntTy.i16 ≠ .i32 ∧ IntTy.i16 ≠ .i64) := by decide

/-- Refutation of the unrestricted C05: saving and reading the smallest 32-bit or 64-bit value is undefined behaviour. -/
theorem C05_refuted_min : fromStringInt .i32 (toStringInt IntTy.i32.lo) = .ub ∧
    fromStringInt .i64 (toStringInt IntTy.i64.lo) = .ub := by
  constructor
  · exact C06_overflow_is_undefined .i32 (Or.inl rfl) _ _ (toStringInt_numeral _) (by decide)
  · exact C06_overflow_is_undefined .i64 (Or.inr rfl) _ _ (toStringInt_numeral _) (by decide)

/-- Different integers have different texts. -/
theorem C05_text_injective (i j : Int) (h : toStringInt i = toStringInt j) : i = j := by
  have key : ∀ s v w, Numeral s v → Numeral s w → v = w := by
    intro s v w hv hw
    cases hv with
    | pos ds hne hd =>
      cases hw with
      | pos => rfl
      | neg es => exact absurd (hd '-' (by simp)) (by decide)
    | neg ds hne hd =>
      generalize hs : '-' :: ds = s at hw
      cases hw with
      | pos es _ hes => subst hs; exact absurd (hes '-' (by simp)) (by decide)
      | neg es => simp at hs; rw [hs]
  exact key _ _ _ (h ▸ toStringInt_numeral i) (toStringInt_numeral j)

/-- **C07.** Bool and string round trip, and nothing but the two words is read as a bool. -/
theorem C07_bool_string_roundtrip :
    (∀ b, fromStringBool (toStringBool b) = .ok b) ∧
    (∀ s, fromStringStr (toStringStr s) = .ok s) ∧
    (∀ s, s ≠ "true".toList → s ≠ "false".toList → fromStringBool s = .reject) := by
  refine ⟨by decide, fun s => rfl, ?_⟩
  intro s h1 h2
  have h1' : s ≠ ['t', 'r', 'u', 'e'] := h1
  have h2' : s ≠ ['f', 'a', 'l', 's', 'e'] := h2
  simp [fromStringBool, h1', h2']

example : "True".toList ≠ "true".toList ∧ "True".toList ≠ "false".toList := by decide

/-! ### Decimal fractions -/

theorem intPart_digits : ∀ (ds rest : List Char) (acc : Int), (∀ c ∈ ds, notDigit c = false) → 0 ≤ acc →
    dvalue ds acc ≤ IntTy.i32.hi → intPartLoop (ds ++ '.' :: rest) acc = .ok (dvalue ds acc, rest) ∧
      intPartLoop ds acc = .ok (dvalue ds acc, []) := by
  intro ds
  induction ds with
  | nil => intro rest acc _ _ _; simp [intPartLoop, dvalue]
  | cons c cs ih =>
    intro rest acc h hacc hle
    have hc := h c (by simp)
    have hb := dval_bounds hc
    have hcs : ∀ c ∈ cs, notDigit c = false := fun c hc => h c (by simp [hc])
    have hm := dvalue_mono cs hcs (acc * 10 + dval c) (by omega)
    rw [dvalue_cons] at hle
    have hlo : IntTy.i32.lo ≤ 0 := by decide
    have hdot : c ≠ '.' := by intro e; subst e; simp [notDigit] at hc
    have e : acc * 10 + ((c.toNat : Int) - 48) = acc * 10 + dval c := rfl
    obtain ⟨i1, i2⟩ := ih rest (acc * 10 + dval c) hcs (by omega) hle
    rw [List.cons_append, intPartLoop, intPartLoop]
    simp only [hc, hdot, Bool.false_eq_true, if_false]
    rw [fit_in _ _ (by omega) (by omega)]
    simp only
    rw [e, fit_in _ _ (by omega) (by omega)]
    simp only
    exact ⟨i1, i2⟩

/-- **C51.** A text `[-]digits.digits` whose two digit groups each fit a 32-bit int is read with exactly those operands:
the parsed number is ±(integer part + fractional digits / 10^(number of fractional digits)). -/
theorem C51_decimal_operands (neg : Bool) (ds fs : List Char) (hne : ds ≠ [])
    (hd : ∀ c ∈ ds, IsDigit c) (hf : ∀ c ∈ fs, IsDigit c)
    (h1 : decValue ds 0 ≤ 2147483647) (h2 : decValue fs 0 ≤ 2147483647) :
    fromStringDecimal ((if neg then ['-'] else []) ++ ds ++ '.' :: fs) =
      .ok ⟨neg, decValue ds 0, decValue fs 0, fs.length⟩ := by
  rw [decValue_eq] at *
  rw [decValue_eq] at *
  have hds : ∀ c ∈ ds, notDigit c = false := fun c hc => (isDigit_iff c).1 (hd c hc)
  have hfs : ∀ c ∈ fs, notDigit c = false := fun c hc => (isDigit_iff c).1 (hf c hc)
  obtain ⟨p, -⟩ := intPart_digits ds fs 0 hds (by omega) h1
  have q := digitLoop_fit .i32 fs 0 hfs (by omega) h2
  cases neg with
  | true =>
    simp only [if_true, List.cons_append, List.nil_append, fromStringDecimal, beq_self_eq_true, Bool.true_and]
    have : (ds ++ '.' :: fs).isEmpty = false := by cases ds <;> simp
    simp only [this, Bool.not_false, if_true, p, q]
  | false =>
    cases ds with
    | nil => exact absurd rfl hne
    | cons c cs =>
      have hm : (c == '-') = false := digit_not_minus (hd c (by simp))
      simp only [List.cons_append] at p
      simp only [Bool.false_eq_true, if_false, List.cons_append, List.nil_append, fromStringDecimal, hm, Bool.false_and, p, q]

example : (∀ c ∈ "12".toList, IsDigit c) ∧ (∀ c ∈ "500000".toList, IsDigit c) ∧ decValue "12".toList 0 ≤ 2147483647 ∧
    decValue "500000".toList 0 ≤ 2147483647 := by decide

/-- Specification: a decimal fraction is an optional minus sign, digits, and possibly a point followed by digits; there
must be something after the sign, but either group of digits may be empty (`5`, `-5.`, `.5` and even `.`). -/
structure DecimalForm (s : List Char) (neg : Bool) (ds : List Char) (frac : Option (List Char)) : Prop where
  text : s = (if neg = true then ['-'] else []) ++ ds ++ (match frac with | none => [] | some fs => '.' :: fs)
  digits : ∀ c ∈ ds, IsDigit c
  fracDigits : ∀ fs, frac = some fs → ∀ c ∈ fs, IsDigit c
  nonempty : ds ≠ [] ∨ frac ≠ none

/-- Specification: reading the text from the left, some group of digits gets larger than 2147483647, whatever follows. -/
def TooLarge (s : List Char) : Prop :=
  ∃ (neg : Bool) (ds : List Char), (∀ c ∈ ds, IsDigit c) ∧
    ((2147483647 < decValue ds 0 ∧ ∃ rest, s = (if neg = true then ['-'] else []) ++ ds ++ rest) ∨
     ∃ fs rest, (∀ c ∈ fs, IsDigit c) ∧ 2147483647 < decValue fs 0 ∧
      s = (if neg = true then ['-'] else []) ++ ds ++ '.' :: (fs ++ rest))

theorem fit32_none {x : Int} (h : IntTy.i32.hi < x) : IntTy.i32.fit x = none := by
  have : ¬ x ≤ IntTy.i32.hi := by omega
  simp [IntTy.fit, this, IntTy.wraps]

theorem intPart_over (ds rest : List Char) : ∀ acc : Int, (∀ c ∈ ds, notDigit c = false) → 0 ≤ acc → acc ≤ IntTy.i32.hi →
    IntTy.i32.hi < dvalue ds acc → intPartLoop (ds ++ rest) acc = .ub := by
  induction ds with
  | nil => intro acc _ _ h1 h2; simp [dvalue] at h2; omega
  | cons c cs ih =>
    intro acc h h0 h1 h2
    have hc := h c (by simp)
    have hb := dval_bounds hc
    have hcs : ∀ c ∈ cs, notDigit c = false := fun c hc => h c (by simp [hc])
    rw [dvalue_cons] at h2
    have hlo : IntTy.i32.lo ≤ 0 := by decide
    have hdot : c ≠ '.' := by intro e; subst e; simp [notDigit] at hc
    have e : acc * 10 + ((c.toNat : Int) - 48) = acc * 10 + dval c := rfl
    rw [List.cons_append, intPartLoop]
    simp only [hc, hdot, Bool.false_eq_true, if_false]
    by_cases h10 : acc * 10 ≤ IntTy.i32.hi
    · rw [fit_in _ _ (by omega) h10]
      simp only
      by_cases h11 : acc * 10 + dval c ≤ IntTy.i32.hi
      · rw [e, fit_in _ _ (by omega) h11]
        exact ih _ hcs (by omega) h11 h2
      · rw [e, fit32_none (by omega)]
    · rw [fit32_none (by omega)]

theorem digitLoop_over (ds rest : List Char) : ∀ acc : Int, (∀ c ∈ ds, notDigit c = false) → 0 ≤ acc → acc ≤ IntTy.i32.hi →
    IntTy.i32.hi < dvalue ds acc → digitLoop .i32 (ds ++ rest) acc = .ub := by
  induction ds with
  | nil => intro acc _ _ h1 h2; simp [dvalue] at h2; omega
  | cons c cs ih =>
    intro acc h h0 h1 h2
    have hc := h c (by simp)
    have hb := dval_bounds hc
    have hcs : ∀ c ∈ cs, notDigit c = false := fun c hc => h c (by simp [hc])
    rw [dvalue_cons] at h2
    have hlo : IntTy.i32.lo ≤ 0 := by decide
    have e : acc * 10 + ((c.toNat : Int) - 48) = acc * 10 + dval c := rfl
    rw [List.cons_append, digitLoop]
    simp only [hc, Bool.false_eq_true, if_false]
    by_cases h10 : acc * 10 ≤ IntTy.i32.hi
    · rw [fit_in _ _ (by omega) h10]
      simp only
      by_cases h11 : acc * 10 + dval c ≤ IntTy.i32.hi
      · rw [e, fit_in _ _ (by omega) h11]
        exact ih _ hcs (by omega) h11 h2
      · rw [e, fit32_none (by omega)]
    · rw [fit32_none (by omega)]

/-- Every text is digits followed by nothing or by something else. -/
theorem digits_then (s : List Char) : ∃ ds rest, s = ds ++ rest ∧ (∀ c ∈ ds, notDigit c = false) ∧
    (rest = [] ∨ ∃ c cs, rest = c :: cs ∧ notDigit c = true) := by
  induction s with
  | nil => exact ⟨[], [], rfl, by simp, Or.inl rfl⟩
  | cons c cs ih =>
    cases hc : notDigit c with
    | true => exact ⟨[], c :: cs, rfl, by simp, Or.inr ⟨c, cs, rfl, hc⟩⟩
    | false =>
      obtain ⟨ds, rest, e, h1, h2⟩ := ih
      refine ⟨c :: ds, rest, by rw [e]; rfl, ?_, h2⟩
      intro d hd
      rcases List.mem_cons.1 hd with rfl | hd
      · exact hc
      · exact h1 d hd

theorem intPart_stop (ds rest : List Char) (c : Char) (hc : notDigit c = true) (hdot : c ≠ '.') : ∀ acc : Int,
    (∀ c ∈ ds, notDigit c = false) → 0 ≤ acc → dvalue ds acc ≤ IntTy.i32.hi →
    intPartLoop (ds ++ c :: rest) acc = .reject := by
  induction ds with
  | nil => intro acc _ _ _; simp [intPartLoop, hc, hdot]
  | cons d ds ih =>
    intro acc h h0 h1
    have hd := h d (by simp)
    have hb := dval_bounds hd
    have hds : ∀ c ∈ ds, notDigit c = false := fun c hc => h c (by simp [hc])
    rw [dvalue_cons] at h1
    have hm := dvalue_mono ds hds (acc * 10 + dval d) (by omega)
    have hlo : IntTy.i32.lo ≤ 0 := by decide
    have hdd : d ≠ '.' := by intro e; subst e; simp [notDigit] at hd
    have e : acc * 10 + ((d.toNat : Int) - 48) = acc * 10 + dval d := rfl
    rw [List.cons_append, intPartLoop]
    simp only [hd, hdd, Bool.false_eq_true, if_false]
    rw [fit_in _ _ (by omega) (by omega)]
    simp only
    rw [e, fit_in _ _ (by omega) (by omega)]
    exact ih _ hds (by omega) h1

theorem digitLoop_stop (ds rest : List Char) (c : Char) (hc : notDigit c = true) : ∀ acc : Int,
    (∀ c ∈ ds, notDigit c = false) → 0 ≤ acc → dvalue ds acc ≤ IntTy.i32.hi →
    digitLoop .i32 (ds ++ c :: rest) acc = .reject := by
  induction ds with
  | nil => intro acc _ _ _; simp [digitLoop, hc]
  | cons d ds ih =>
    intro acc h h0 h1
    have hd := h d (by simp)
    have hb := dval_bounds hd
    have hds : ∀ c ∈ ds, notDigit c = false := fun c hc => h c (by simp [hc])
    rw [dvalue_cons] at h1
    have hm := dvalue_mono ds hds (acc * 10 + dval d) (by omega)
    have hlo : IntTy.i32.lo ≤ 0 := by decide
    have e : acc * 10 + ((d.toNat : Int) - 48) = acc * 10 + dval d := rfl
    rw [List.cons_append, digitLoop]
    simp only [hd, Bool.false_eq_true, if_false]
    rw [fit_in _ _ (by omega) (by omega)]
    simp only
    rw [e, fit_in _ _ (by omega) (by omega)]
    exact ih _ hds (by omega) h1

/-- The part of a text behind the sign, and whether there was one. -/
theorem split_sign (s : List Char) (hs : s ≠ []) : ∃ (neg : Bool) (body : List Char),
    s = (if neg = true then ['-'] else []) ++ body ∧ body ≠ [] ∧
    (neg = false → ∀ b bs, body = b :: bs → b = '-' → bs = []) ∧
    fromStringDecimal s = match intPartLoop body 0 with
      | .ub => .ub
      | .reject => .reject
      | .ok (integer, rest) => match digitLoop .i32 rest 0 with
        | .ub => .ub
        | .reject => .reject
        | .ok fractional => .ok ⟨neg, integer, fractional, rest.length⟩ := by
  cases s with
  | nil => exact absurd rfl hs
  | cons c cs =>
    cases hn : (c == '-' && !cs.isEmpty) with
    | true =>
      have hc : c = '-' := by simp at hn; exact hn.1
      have hne : cs ≠ [] := by simp at hn; exact hn.2
      subst hc
      refine ⟨true, cs, rfl, hne, by simp, ?_⟩
      simp only [fromStringDecimal, hn, if_true]
      rfl
    | false =>
      refine ⟨false, c :: cs, rfl, by simp, ?_, ?_⟩
      · intro _ b bs e hb
        cases e
        subst hb
        simpa using hn
      · simp only [fromStringDecimal, hn, Bool.false_eq_true, if_false]
        rfl

theorem read_body (neg : Bool) (body : List Char) (hne : body ≠ [])
    (hm : neg = false → ∀ b bs, body = b :: bs → b ≠ '-') :
    fromStringDecimal ((if neg = true then ['-'] else []) ++ body) = match intPartLoop body 0 with
      | .ub => .ub
      | .reject => .reject
      | .ok (integer, rest) => match digitLoop .i32 rest 0 with
        | .ub => .ub
        | .reject => .reject
        | .ok fractional => .ok ⟨neg, integer, fractional, rest.length⟩ := by
  cases body with
  | nil => exact absurd rfl hne
  | cons c cs =>
    cases neg with
    | true =>
      simp only [if_true, List.cons_append, List.nil_append, fromStringDecimal, beq_self_eq_true, Bool.true_and,
        List.isEmpty_cons, Bool.not_false]
      rfl
    | false =>
      have : (c == '-') = false := by
        rw [beq_eq_false_iff_ne]; exact hm rfl c cs rfl
      simp only [Bool.false_eq_true, if_false, List.nil_append, fromStringDecimal, this, Bool.false_and]
      rfl

theorem digits_no_minus {ds rest : List Char} (hd : ∀ c ∈ ds, IsDigit c) (hr : ∀ b bs, rest = b :: bs → b ≠ '-')
    (b : Char) (bs : List Char) (e : ds ++ rest = b :: bs) : b ≠ '-' := by
  cases ds with
  | nil => exact hr b bs e
  | cons d ds =>
    simp only [List.cons_append, List.cons.injEq] at e
    obtain ⟨rfl, -⟩ := e
    have := digit_not_minus (hd d (by simp))
    simpa using this

/-- **C51.** A decimal fraction, with or without point, whose groups of digits fit a 32-bit `int`, is read with exactly
those operands. -/
theorem C51_reads {s : List Char} {neg : Bool} {ds : List Char} {frac : Option (List Char)} (h : DecimalForm s neg ds frac)
    (h1 : decValue ds 0 ≤ 2147483647) (h2 : decValue (frac.getD []) 0 ≤ 2147483647) :
    fromStringDecimal s = .ok ⟨neg, decValue ds 0, decValue (frac.getD []) 0, (frac.getD []).length⟩ := by
  obtain ⟨ht, hd, hf, hne⟩ := h
  rw [decValue_eq] at *
  rw [decValue_eq] at *
  have hds : ∀ c ∈ ds, notDigit c = false := fun c hc => (isDigit_iff c).1 (hd c hc)
  subst ht
  rw [List.append_assoc]
  cases frac with
  | none =>
    simp only [List.append_nil, Option.getD_none]
    have hne' : ds ≠ [] := by rcases hne with h | h; exact h; exact absurd rfl h
    rw [read_body neg ds hne' (fun _ b bs e => by
      have := digits_no_minus (rest := []) hd (by simp) b bs (by simpa using e); exact this)]
    rw [(intPart_digits ds [] 0 hds (by omega) h1).2]
    simp [digitLoop, dvalue]
  | some fs =>
    simp only [Option.getD_some] at h2 ⊢
    have hfs : ∀ c ∈ fs, notDigit c = false := fun c hc => (isDigit_iff c).1 (hf fs rfl c hc)
    rw [read_body neg (ds ++ '.' :: fs) (by simp) (fun _ b bs e =>
      digits_no_minus (rest := '.' :: fs) hd (by intro b bs e; cases e; decide) b bs e)]
    rw [(intPart_digits ds fs 0 hds (by omega) h1).1]
    simp only
    rw [digitLoop_fit .i32 fs 0 hfs (by omega) h2]

example : DecimalForm "-12".toList true "12".toList none ∧ DecimalForm ".5".toList false [] (some ['5']) ∧
    decValue ['5'] 0 ≤ 2147483647 := by
  refine ⟨⟨rfl, by decide, by simp, Or.inl (by decide)⟩, ⟨rfl, by simp, ?_, Or.inr (by simp)⟩, by decide⟩
  intro fs e; cases e; decide

/-- **C51.** Once a group of digits gets too large for a 32-bit `int` the call is undefined behaviour, also when the text
goes on with something that would have been rejected. -/
theorem C51_overflows {s : List Char} (h : TooLarge s) : fromStringDecimal s = .ub := by
  obtain ⟨neg, ds, hd, h⟩ := h
  have hds : ∀ c ∈ ds, notDigit c = false := fun c hc => (isDigit_iff c).1 (hd c hc)
  have hhi : IntTy.i32.hi = 2147483647 := rfl
  rcases h with ⟨hbig, rest, rfl⟩ | ⟨fs, rest, hf, hbig, rfl⟩
  · have hne : ds ≠ [] := by rintro rfl; simp [decValue] at hbig
    rw [decValue_eq] at hbig
    rw [List.append_assoc]
    rw [read_body neg (ds ++ rest) (by simp [hne]) (fun _ b bs e => by
      cases ds with
      | nil => exact absurd rfl hne
      | cons d ds =>
        simp only [List.cons_append, List.cons.injEq] at e
        obtain ⟨rfl, -⟩ := e
        have := digit_not_minus (hd d (by simp))
        simpa using this)]
    rw [intPart_over ds rest 0 hds (by omega) (by omega) (by omega)]
  · have hfs : ∀ c ∈ fs, notDigit c = false := fun c hc => (isDigit_iff c).1 (hf c hc)
    rw [decValue_eq] at hbig
    rw [List.append_assoc]
    rw [read_body neg (ds ++ '.' :: (fs ++ rest)) (by simp) (fun _ b bs e =>
      digits_no_minus (rest := '.' :: (fs ++ rest)) hd (by intro b bs e; cases e; decide) b bs e)]
    by_cases hle : dvalue ds 0 ≤ IntTy.i32.hi
    · rw [(intPart_digits ds (fs ++ rest) 0 hds (by omega) hle).1]
      simp only
      rw [digitLoop_over fs rest 0 hfs (by omega) (by omega) (by omega)]
    · rw [intPart_over ds _ 0 hds (by omega) (by omega) (by omega)]

example : TooLarge "3000000000x".toList ∧ TooLarge "1.3000000000".toList :=
  ⟨⟨false, "3000000000".toList, by decide, Or.inl ⟨by decide, ['x'], rfl⟩⟩,
   ⟨false, ['1'], by decide, Or.inr ⟨"3000000000".toList, [], by decide, by decide, rfl⟩⟩⟩

/-- **C51.** Every other text is rejected. -/
theorem C51_rejects {s : List Char} (h : ∀ neg ds frac, ¬ DecimalForm s neg ds frac) (hl : ¬ TooLarge s) :
    fromStringDecimal s = .reject := by
  by_cases hs : s = []
  · subst hs; rfl
  obtain ⟨neg, body, e, hne, hm, hr⟩ := split_sign s hs
  have hhi : IntTy.i32.hi = 2147483647 := rfl
  rw [hr]
  obtain ⟨ds, rest, eb, hds, hrest⟩ := digits_then body
  have hd : ∀ c ∈ ds, IsDigit c := fun c hc => (isDigit_iff c).2 (hds c hc)
  have hle : dvalue ds 0 ≤ IntTy.i32.hi := by
    refine Decidable.byContradiction fun hgt => ?_
    refine hl ⟨neg, ds, hd, Or.inl ⟨?_, rest, ?_⟩⟩
    · rw [decValue_eq]; omega
    · rw [e, eb, List.append_assoc]
  rcases hrest with rfl | ⟨c, cs, rfl, hc⟩
  · exfalso
    rw [List.append_nil] at eb
    subst eb
    exact h neg body none ⟨by rw [e]; simp, hd, by simp, Or.inl hne⟩
  · by_cases hdot : c = '.'
    · subst hdot
      rw [eb, (intPart_digits ds cs 0 hds (by omega) hle).1]
      simp only
      obtain ⟨fs, rest', eb', hfs, hrest'⟩ := digits_then cs
      have hf : ∀ c ∈ fs, IsDigit c := fun c hc => (isDigit_iff c).2 (hfs c hc)
      have hle' : dvalue fs 0 ≤ IntTy.i32.hi := by
        refine Decidable.byContradiction fun hgt => ?_
        refine hl ⟨neg, ds, hd, Or.inr ⟨fs, rest', hf, ?_, ?_⟩⟩
        · rw [decValue_eq]; omega
        · rw [e, eb, eb', List.append_assoc]
      rcases hrest' with rfl | ⟨c', cs', rfl, hc'⟩
      · exfalso
        rw [List.append_nil] at eb'
        subst eb'
        refine h neg ds (some cs) ⟨by rw [e, eb, List.append_assoc], hd, ?_, Or.inr (by simp)⟩
        intro fs e; cases e; exact hf
      · rw [eb', digitLoop_stop fs cs' c' hc' 0 hfs (by omega) hle']
    · rw [eb, intPart_stop ds cs c hc hdot 0 hds (by omega) hle]

/-- **C51**, together: what is read. A text is accepted, with these operands, exactly when it is a decimal fraction whose
groups of digits fit. -/
theorem C51_accepts_iff (s : List Char) (d : Decimal) : fromStringDecimal s = .ok d ↔
    ∃ neg ds frac, DecimalForm s neg ds frac ∧ decValue ds 0 ≤ 2147483647 ∧ decValue (frac.getD []) 0 ≤ 2147483647 ∧
      d = ⟨neg, decValue ds 0, decValue (frac.getD []) 0, (frac.getD []).length⟩ := by
  constructor
  · intro h
    by_cases hl : TooLarge s
    · rw [C51_overflows hl] at h; exact absurd h (by simp)
    · by_cases hf : ∃ neg ds frac, DecimalForm s neg ds frac
      · obtain ⟨neg, ds, frac, hf⟩ := hf
        have h1 : decValue ds 0 ≤ 2147483647 := by
          refine Decidable.byContradiction fun hgt => ?_
          exact hl ⟨neg, ds, hf.digits, Or.inl ⟨by omega, _, hf.text⟩⟩
        have h2 : decValue (frac.getD []) 0 ≤ 2147483647 := by
          refine Decidable.byContradiction fun hgt => ?_
          cases frac with
          | none => simp [decValue] at hgt
          | some fs =>
            refine hl ⟨neg, ds, hf.digits, Or.inr ⟨fs, [], hf.fracDigits fs rfl, by simpa using hgt, ?_⟩⟩
            rw [List.append_nil]; exact hf.text
        rw [C51_reads hf h1 h2] at h
        refine ⟨neg, ds, frac, hf, h1, h2, ?_⟩
        injection h with h
        exact h.symm
      · rw [C51_rejects (fun neg ds frac hh => hf ⟨neg, ds, frac, hh⟩) hl] at h
        exact absurd h (by simp)
  · rintro ⟨neg, ds, frac, hf, h1, h2, rfl⟩
    exact C51_reads hf h1 h2

example : fromStringDecimal "-12.5".toList = .ok ⟨true, 12, 5, 1⟩ ∧ fromStringDecimal ".".toList = .ok ⟨false, 0, 0, 0⟩ ∧
    fromStringDecimal "1e5".toList = .reject ∧ fromStringDecimal "-".toList = .reject := by decide

/-- Finding recorded with C51: more than nine fractional digits can overflow the `int` accumulator. -/
theorem C51_long_fraction_is_undefined : fromStringDecimal "0.9999999999".toList = .ub := by decide

/-! ### Hexadecimal and UUID -/

/-- Specification: lower-case hexadecimal digits. -/
def IsHex (c : Char) : Prop := ('0'.toNat ≤ c.toNat ∧ c.toNat ≤ '9'.toNat) ∨ ('a'.toNat ≤ c.toNat ∧ c.toNat ≤ 'f'.toNat)

/-- Specification: value of a hexadecimal digit string. -/
def hexNumber (l : List Char) : Nat :=
  l.foldl (fun a c => 16 * a + (if c.toNat ≤ '9'.toNat then c.toNat - '0'.toNat else c.toNat - 'a'.toNat + 10)) 0

theorem hexNumber_eq (l : List Char) (h : ∀ c ∈ l, IsHex c) : hexNumber l = hexValue l := by
  have key : ∀ (l : List Char) (a : Nat), (∀ c ∈ l, IsHex c) →
      l.foldl (fun a c => 16 * a + (if c.toNat ≤ '9'.toNat then c.toNat - '0'.toNat else c.toNat - 'a'.toNat + 10)) a =
      l.foldl (fun a c => a * 16 + hexVal c) a := by
    intro l
    induction l with
    | nil => intro a _; rfl
    | cons c cs ih =>
      intro a h
      have hc := h c (by simp)
      have e : (16 * a + (if c.toNat ≤ '9'.toNat then c.toNat - '0'.toNat else c.toNat - 'a'.toNat + 10)) = a * 16 + hexVal c := by
        simp [IsHex] at hc
        simp [hexVal]
        split <;> split <;> omega
      rw [List.foldl_cons, List.foldl_cons, e]
      exact ih _ (fun c hc => h c (by simp [hc]))
  exact key l 0 h

/-- **C08.** `ToHex` gives 16 hexadecimal digits whose value is the word; hence it is injective. -/
theorem C08_hex (d : BitVec 64) : (toHex d).length = 16 ∧ (∀ c ∈ toHex d, IsHex c) ∧ hexNumber (toHex d) = d.toNat := by
  have h2 : ∀ c ∈ toHex d, IsHex c := fun c hc => hex_loop_chars 16 d c hc
  refine ⟨hex_loop_length 16 d, h2, ?_⟩
  rw [hexNumber_eq _ h2]
  show hexValue (toHexLoop 16 d) = _
  rw [hex_loop_value]
  exact Nat.mod_eq_of_lt (Nat.lt_of_lt_of_le d.isLt (by decide))

theorem C08_hex_injective (a b : BitVec 64) (h : toHex a = toHex b) : a = b := by
  apply BitVec.eq_of_toNat_eq
  rw [← (C08_hex a).2.2, ← (C08_hex b).2.2, h]

theorem variant_head (r : BitVec 64) : ∃ d t, toHex ((r >>> 2) ||| (1#64 <<< 63)) = hexChar d :: t ∧ 8 ≤ d ∧ d < 12 := by
  refine ⟨_, _, toHexLoop_succ_head 15 _, ?_⟩
  have h1 : ((r >>> 2) ||| (1#64 <<< 63)).toNat = 2 ^ 63 * 1 + r.toNat / 4 := by
    rw [BitVec.toNat_or, BitVec.toNat_ushiftRight, Nat.shiftRight_eq_div_pow]
    have e : (1#64 <<< 63).toNat = 2 ^ 63 * 1 := by decide
    rw [e, Nat.or_comm, Nat.two_pow_add_eq_or_of_lt]
    have := r.isLt
    omega
  rw [BitVec.toNat_ushiftRight, Nat.shiftRight_eq_div_pow, h1]
  have := r.isLt
  omega

/-- **C09.** Whatever two words the random source delivers, the UUID has the canonical 8-4-4-4-12 shape, version digit
4 and a variant digit among 8, 9, a, b. -/
theorem C09_uuid_shape (r1 r2 : BitVec 64) :
    ∃ p1 p2 p3 p4 p5 : List Char, ∃ y : Char,
      uuid r1 r2 = p1 ++ ['-'] ++ p2 ++ ['-', '4'] ++ p3 ++ ['-'] ++ (y :: p4) ++ ['-'] ++ p5 ∧
      p1.length = 8 ∧ p2.length = 4 ∧ p3.length = 3 ∧ p4.length = 3 ∧ p5.length = 12 ∧
      (y = '8' ∨ y = '9' ∨ y = 'a' ∨ y = 'b') ∧
      (∀ c ∈ p1 ++ p2 ++ p3 ++ p4 ++ p5, IsHex c) := by
  obtain ⟨la, ha, -⟩ := C08_hex r1
  obtain ⟨lb, hb, -⟩ := C08_hex ((r2 >>> 2) ||| (1#64 <<< 63))
  obtain ⟨d, t, ht, h8, h12⟩ := variant_head r2
  rw [ht] at lb hb
  refine ⟨substr (toHex r1) 0 8, substr (toHex r1) 8 4, substr (toHex r1) 13 3, t.take 3, substr (hexChar d :: t) 4 12,
    hexChar d, ?_, ?_, ?_, ?_, ?_, ?_, ?_, ?_⟩
  · unfold uuid; rw [ht]; simp [substr]
  · simp [substr, la]
  · simp [substr, la]
  · simp [substr, la]
  · simp at lb ⊢; omega
  · simp at lb; simp [substr, lb]
  · have : d = 8 ∨ d = 9 ∨ d = 10 ∨ d = 11 := by omega
    rcases this with rfl | rfl | rfl | rfl <;> decide
  · have sub : ∀ (l : List Char) p n c, c ∈ substr l p n → c ∈ l := by
      intro l p n c hc
      exact List.mem_of_mem_drop (List.mem_of_mem_take hc)
    intro c hc
    simp only [List.mem_append] at hc
    rcases hc with (((hc | hc) | hc) | hc) | hc
    · exact ha c (sub _ _ _ _ hc)
    · exact ha c (sub _ _ _ _ hc)
    · exact ha c (sub _ _ _ _ hc)
    · exact hb c (by simp [List.mem_of_mem_take hc])
    · exact hb c (sub _ _ _ _ hc)

/-- **C09.** The UUID has 36 characters. -/
theorem C09_length (r1 r2 : BitVec 64) : (uuid r1 r2).length = 36 := by
  obtain ⟨p1, p2, p3, p4, p5, y, e, h1, h2, h3, h4, h5, -⟩ := C09_uuid_shape r1 r2
  rw [e]; simp; omega

end MVault.Str
