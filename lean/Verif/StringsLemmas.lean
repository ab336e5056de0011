import Verif.StringsModel
namespace MVault.Str

/-- Value of a decimal digit. -/
def dval (c : Char) : Int := (c.toNat : Int) - 48

/-- Value of a digit string, continuing from `acc`. -/
def dvalue (ds : List Char) (acc : Int) : Int := ds.foldl (fun a c => a * 10 + dval c) acc

theorem dval_bounds {c : Char} (h : notDigit c = false) : 0 ≤ dval c ∧ dval c ≤ 9 := by
  simp [notDigit] at h; unfold dval; omega

theorem dvalue_nil (acc : Int) : dvalue [] acc = acc := rfl
theorem dvalue_cons (c : Char) (cs : List Char) (acc : Int) : dvalue (c :: cs) acc = dvalue cs (acc * 10 + dval c) := rfl
theorem dvalue_append (a b : List Char) (acc : Int) : dvalue (a ++ b) acc = dvalue b (dvalue a acc) := by
  simp [dvalue]

theorem dvalue_mono (ds : List Char) (h : ∀ c ∈ ds, notDigit c = false) : ∀ acc, 0 ≤ acc → acc ≤ dvalue ds acc := by
  induction ds with
  | nil => intro acc _; simp [dvalue]
  | cons c cs ih =>
    intro acc hacc
    have hb := dval_bounds (h c (by simp))
    have := ih (fun c hc => h c (by simp [hc])) (acc * 10 + dval c) (by omega)
    rw [dvalue_cons]; omega

theorem lo_le_zero (t : IntTy) : t.lo ≤ 0 := by cases t <;> decide
theorem hi_pos (t : IntTy) : 9 ≤ t.hi := by cases t <;> decide

theorem fit_in (t : IntTy) (x : Int) (h1 : t.lo ≤ x) (h2 : x ≤ t.hi) : t.fit x = some x := by
  simp [IntTy.fit, h1, h2]

/-- In range: the loop computes the value. -/
theorem digitLoop_fit (t : IntTy) : ∀ (ds : List Char) (acc : Int), (∀ c ∈ ds, notDigit c = false) → 0 ≤ acc →
    dvalue ds acc ≤ t.hi → digitLoop t ds acc = .ok (dvalue ds acc) := by
  intro ds
  induction ds with
  | nil => intro acc _ _ _; simp [digitLoop, dvalue]
  | cons c cs ih =>
    intro acc h hacc hle
    have hc := h c (by simp)
    have hb := dval_bounds hc
    have hcs : ∀ c ∈ cs, notDigit c = false := fun c hc => h c (by simp [hc])
    have hm := dvalue_mono cs hcs (acc * 10 + dval c) (by omega)
    rw [dvalue_cons] at hle
    have hlo := lo_le_zero t
    rw [digitLoop]
    simp only [hc, Bool.false_eq_true, if_false]
    rw [fit_in t _ (by omega) (by omega)]
    simp only
    have : acc * 10 + ((c.toNat : Int) - 48) = acc * 10 + dval c := rfl
    rw [this, fit_in t _ (by omega) (by omega)]
    simp only
    rw [ih _ hcs (by omega) hle, dvalue_cons]

/-- Out of range in a non-wrapping type: undefined behaviour. -/
theorem digitLoop_ub (t : IntTy) (hw : t.wraps = false) : ∀ (ds : List Char) (acc : Int),
    (∀ c ∈ ds, notDigit c = false) → 0 ≤ acc → acc ≤ t.hi → t.hi < dvalue ds acc → digitLoop t ds acc = .ub := by
  intro ds
  induction ds with
  | nil => intro acc _ _ h1 h2; simp [dvalue] at h2; omega
  | cons c cs ih =>
    intro acc h hacc hle hgt
    have hc := h c (by simp)
    have hb := dval_bounds hc
    have hcs : ∀ c ∈ cs, notDigit c = false := fun c hc => h c (by simp [hc])
    have hlo := lo_le_zero t
    rw [dvalue_cons] at hgt
    rw [digitLoop]
    simp only [hc, Bool.false_eq_true, if_false]
    by_cases h1 : acc * 10 ≤ t.hi
    · rw [fit_in t _ (by omega) h1]
      simp only
      have e : acc * 10 + ((c.toNat : Int) - 48) = acc * 10 + dval c := rfl
      rw [e]
      by_cases h2 : acc * 10 + dval c ≤ t.hi
      · rw [fit_in t _ (by omega) h2]
        simp only
        exact ih _ hcs (by omega) h2 hgt
      · have : t.fit (acc * 10 + dval c) = none := by
          simp [IntTy.fit, hw, h2]
        rw [this]
    · have : t.fit (acc * 10) = none := by simp [IntTy.fit, hw, h1]
      rw [this]

theorem wrap_range (t : IntTy) (x : Int) : t.lo ≤ t.wrap x ∧ t.wrap x ≤ t.hi := by
  have h : 0 < t.hi - t.lo + 1 := by cases t <;> decide
  have h1 := Int.emod_nonneg (x - t.lo) (Int.ne_of_gt h)
  have h2 := Int.emod_lt_of_pos (x - t.lo) h
  unfold IntTy.wrap; omega

theorem wrap_id (t : IntTy) (x : Int) (h1 : t.lo ≤ x) (h2 : x ≤ t.hi) : t.wrap x = x := by
  unfold IntTy.wrap
  rw [Int.emod_eq_of_lt (by omega) (by omega)]; omega

theorem fit_wrap (t : IntTy) (hw : t.wraps = true) (x : Int) : t.fit x = some (t.wrap x) := by
  unfold IntTy.fit
  split
  · rename_i h; rw [wrap_id t x h.1 h.2]
  · simp

/-- Two integers have the same residue class. -/
theorem wrap_congr (t : IntTy) (x y : Int) : t.wrap x = t.wrap y ↔ (t.hi - t.lo + 1) ∣ (x - y) := by
  unfold IntTy.wrap
  constructor
  · intro h
    have h' : (x - t.lo) % (t.hi - t.lo + 1) = (y - t.lo) % (t.hi - t.lo + 1) := by omega
    have := (Int.emod_emod_of_dvd (x - t.lo) (Int.dvd_refl (t.hi - t.lo + 1)))
    have h2 := Int.dvd_self_sub_of_emod_eq (a := x - t.lo) (b := t.hi - t.lo + 1) rfl
    have h3 := Int.dvd_self_sub_of_emod_eq (a := y - t.lo) (b := t.hi - t.lo + 1) rfl
    rw [h'] at h2
    have := Int.dvd_sub h2 h3
    have e : x - t.lo - (y - t.lo) % (t.hi - t.lo + 1) - (y - t.lo - (y - t.lo) % (t.hi - t.lo + 1)) = x - y := by omega
    rwa [e] at this
  · rintro ⟨k, hk⟩
    have e : x - t.lo = (y - t.lo) + (t.hi - t.lo + 1) * k := by omega
    rw [e, Int.add_mul_emod_self_left]

theorem wrap_dvd (t : IntTy) (x : Int) : (t.hi - t.lo + 1) ∣ (t.wrap x - x) := by
  have := (wrap_congr t (t.wrap x) x).1 (wrap_id t _ (wrap_range t x).1 (wrap_range t x).2)
  exact this

theorem digitLoop_wrap (t : IntTy) (hw : t.wraps = true) : ∀ (ds : List Char) (acc : Int),
    (∀ c ∈ ds, notDigit c = false) → ∃ r, digitLoop t ds (t.wrap acc) = .ok (t.wrap r) ∧ r = dvalue ds acc := by
  intro ds
  induction ds with
  | nil => intro acc _; exact ⟨acc, rfl, rfl⟩
  | cons c cs ih =>
    intro acc h
    have hc := h c (by simp)
    have hcs : ∀ c ∈ cs, notDigit c = false := fun c hc => h c (by simp [hc])
    obtain ⟨r, e, hr⟩ := ih (acc * 10 + dval c) hcs
    refine ⟨r, ?_, by rw [hr, dvalue_cons]⟩
    rw [digitLoop]
    simp only [hc, Bool.false_eq_true, if_false, fit_wrap t hw]
    rw [← e]
    congr 1
    rw [wrap_congr]
    have h1 := wrap_dvd t acc
    have h2 := wrap_dvd t (t.wrap acc * 10)
    have h3 : (t.hi - t.lo + 1) ∣ (t.wrap acc - acc) * 10 := Int.dvd_mul_of_dvd_left h1
    have h4 := Int.dvd_add h2 h3
    have : t.wrap (t.wrap acc * 10) + ((c.toNat : Int) - 48) - (acc * 10 + dval c) =
      t.wrap (t.wrap acc * 10) - t.wrap acc * 10 + (t.wrap acc - acc) * 10 := by unfold dval; omega
    rw [this]; exact h4

theorem digitLoop_ok_digits (t : IntTy) : ∀ (ds : List Char) (acc v : Int), digitLoop t ds acc = .ok v →
    ∀ c ∈ ds, notDigit c = false := by
  intro ds
  induction ds with
  | nil => intro _ _ _ c hc; simp at hc
  | cons c cs ih =>
    intro acc v h
    rw [digitLoop] at h
    cases hc : notDigit c with
    | true => simp [hc] at h
    | false =>
      simp only [hc, Bool.false_eq_true, if_false] at h
      split at h
      · simp at h
      · split at h
        · simp at h
        · intro d hd
          simp at hd
          rcases hd with rfl | hd
          · exact hc
          · exact ih _ _ h d hd

theorem ofNat_digit (n : Nat) (h : n < 10) : (Char.ofNat (48 + n)).toNat = 48 + n := by
  match n, h with
  | 0, _ | 1, _ | 2, _ | 3, _ | 4, _ | 5, _ | 6, _ | 7, _ | 8, _ | 9, _ => rfl

theorem decDigits_spec (n : Nat) : (∀ c ∈ decDigits n, notDigit c = false) ∧ decDigits n ≠ [] ∧
    dvalue (decDigits n) 0 = n := by
  fun_induction decDigits n with
  | case1 n h =>
    refine ⟨?_, by simp, ?_⟩
    · intro c hc; simp at hc; subst hc; simp [notDigit, ofNat_digit n h]; omega
    · simp [dvalue, dval, ofNat_digit n h]; omega
  | case2 n h ih =>
    obtain ⟨h1, h2, h3⟩ := ih
    have hm : n % 10 < 10 := Nat.mod_lt _ (by decide)
    refine ⟨?_, by simp, ?_⟩
    · intro c hc
      simp at hc
      rcases hc with hc | hc
      · exact h1 c hc
      · subst hc; simp [notDigit, ofNat_digit _ hm]; omega
    · rw [dvalue_append, h3]
      simp [dvalue, dval, ofNat_digit _ hm]; omega

/-! ### hex -/

theorem hex_loop_length (n : Nat) : ∀ d, (toHexLoop n d).length = n := by
  induction n with
  | zero => intro d; rfl
  | succ n ih => intro d; simp [toHexLoop, ih]

/-- Value of a hexadecimal digit. -/
def hexVal (c : Char) : Nat := if c.toNat < 58 then c.toNat - 48 else c.toNat - 87

def hexValue (l : List Char) : Nat := l.foldl (fun a c => a * 16 + hexVal c) 0

theorem hexChar_cases (d : Nat) (h : d < 16) : hexVal (hexChar d) = d ∧
    ((48 ≤ (hexChar d).toNat ∧ (hexChar d).toNat ≤ 57) ∨ (97 ≤ (hexChar d).toNat ∧ (hexChar d).toNat ≤ 102)) := by
  have key : ∀ d, d < 16 → hexVal (hexChar d) = d ∧
    ((48 ≤ (hexChar d).toNat ∧ (hexChar d).toNat ≤ 57) ∨ (97 ≤ (hexChar d).toNat ∧ (hexChar d).toNat ≤ 102)) := by
    decide
  exact key d h

theorem nibble (d : BitVec 64) : (d &&& 0xf#64).toNat = d.toNat % 16 := by
  rw [BitVec.toNat_and]
  exact Nat.and_two_pow_sub_one_eq_mod d.toNat 4

theorem hex_loop_value (n : Nat) : ∀ d : BitVec 64, hexValue (toHexLoop n d) = d.toNat % 16 ^ n := by
  induction n with
  | zero => intro d; simp [toHexLoop, hexValue, Nat.mod_one]
  | succ n ih =>
    intro d
    have h := ih (d >>> 4)
    rw [toHexLoop, hexValue, List.foldl_append]
    unfold hexValue at h
    rw [h]
    simp only [List.foldl_cons, List.foldl_nil, nibble]
    rw [(hexChar_cases _ (Nat.mod_lt _ (by decide))).1]
    rw [BitVec.toNat_ushiftRight, Nat.shiftRight_eq_div_pow]
    rw [show 16 ^ (n + 1) = 16 * 16 ^ n by rw [Nat.pow_succ, Nat.mul_comm], Nat.mod_mul]
    have : d.toNat / 2 ^ 4 = d.toNat / 16 := rfl
    rw [this]; omega

theorem hex_loop_chars (n : Nat) : ∀ d : BitVec 64, ∀ c ∈ toHexLoop n d,
    (48 ≤ c.toNat ∧ c.toNat ≤ 57) ∨ (97 ≤ c.toNat ∧ c.toNat ≤ 102) := by
  induction n with
  | zero => intro d c hc; simp [toHexLoop] at hc
  | succ n ih =>
    intro d c hc
    rw [toHexLoop] at hc
    simp only [List.mem_append, List.mem_singleton] at hc
    rcases hc with hc | hc
    · exact ih _ c hc
    · rw [hc, nibble]; exact (hexChar_cases _ (Nat.mod_lt _ (by decide))).2

theorem toHexLoop_succ_head (n : Nat) : ∀ d : BitVec 64,
    toHexLoop (n + 1) d = hexChar ((d >>> (4 * n)).toNat % 16) :: toHexLoop n d := by
  induction n with
  | zero =>
    intro d
    show toHexLoop 0 (d >>> 4) ++ [hexChar (d &&& 0xf#64).toNat] = [hexChar ((d >>> 0).toNat % 16)]
    rw [nibble]; simp [toHexLoop]
  | succ n ih =>
    intro d
    rw [toHexLoop, ih, List.cons_append]
    congr 2
    · congr 1
      rw [← BitVec.shiftRight_add]; congr 2; omega

end MVault.Str
