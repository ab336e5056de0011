import Verif.PropsFile3
import Verif.PropsFloat
/-
The values of a vault file in full: all integer types, `bool`, `std::string`, `float`, `double` and user types without conversions of their own.
-/
set_option linter.unusedSectionVars false
set_option linter.unusedSimpArgs false
namespace MVault.W
open MVault.Fp (IsFp)

/-- Types of values. `byte true` is `int8_t`, `byte false` is `uint8_t`; `real false` is `float`, `real true` is `double`; `user n` is a user type for which neither
`ToString` nor `FromString` is specialised. FromString.h lines 31-339, ToString.h lines 76-260. -/
inductive WTy
  | int (t : Str.IntTy) | byte (signed : Bool) | bool | str | real (dbl : Bool) | user (n : Nat)
  deriving DecidableEq

/-- Range of the 8-bit types. ToString.h lines 181-199. -/
def byteLo (signed : Bool) : Int := if signed = true then -128 else 0
/-- Largest value of the 8-bit types. ToString.h lines 181-199. -/
def byteHi (signed : Bool) : Int := if signed = true then 127 else 255
/-- Significant bits of `float` and `double`. IEEE 754, used by FromString.h lines 81-168. -/
def bits (dbl : Bool) : Nat := if dbl = true then 53 else 24

theorem bits_pos (dbl : Bool) : 0 < bits dbl := by cases dbl <;> decide

/-- Values with their C++ type. A floating point value is a finite number (see FloatModel); a value of a user type is its number. DataSaver.h lines 24-42, 69-73. -/
inductive WVal
  | int (t : Str.IntTy) (i : Int) (h : t.lo ≤ i ∧ i ≤ t.hi)
  | byte (signed : Bool) (i : Int) (h : byteLo signed ≤ i ∧ i ≤ byteHi signed)
  | bool (b : Bool)
  | str (s : List Char)
  | real (dbl : Bool) (x : ℚ) (h : IsFp (bits dbl) x)
  | user (n : Nat) (code : Nat)

/-- Sort key of a value: first the type, then the value. Within one type this is `operator<`; values of different types are never compared by the code. Map.h lines 439-443. -/
def WVal.code : WVal → Nat ×ₗ ℚ ×ₗ List Char
  | .int t i _ => toLex (intCode t, toLex ((i : ℚ), []))
  | .byte s i _ => toLex (if s then 6 else 7, toLex ((i : ℚ), []))
  | .bool b => toLex (8, toLex (if b then 1 else 0, []))
  | .str s => toLex (9, toLex (0, s))
  | .real d x _ => toLex (if d then 10 else 11, toLex (x, []))
  | .user n c => toLex (12 + n, toLex ((c : ℚ), []))

theorem intCode_lt (t : Str.IntTy) : intCode t < 6 := by cases t <;> decide
theorem intCode_inj {t t' : Str.IntTy} (h : intCode t = intCode t') : t = t' := by cases t <;> cases t' <;> simp [intCode] at h <;> rfl

theorem WVal.code_inj : Function.Injective WVal.code := by
  intro a b h
  cases a <;> cases b <;> simp only [WVal.code, toLex_inj, Prod.mk.injEq, and_true] at h
  all_goals first
    | (obtain ⟨h1, h2⟩ := h; have := intCode_inj h1; subst this; have := Int.cast_injective h2; subst this; rfl)
    | (obtain ⟨h1, h2⟩ := h; have := Int.cast_injective h2; subst this
       rename_i s _ _ s' _; cases s <;> cases s' <;> simp at h1 <;> rfl)
    | (obtain ⟨h1, h2⟩ := h; subst h2; rename_i s _ _ s' _; cases s <;> cases s' <;> simp at h1 <;> rfl)
    | (obtain ⟨h1, h2⟩ := h; have h1' : _ = _ := Nat.add_left_cancel h1; subst h1'; have := Nat.cast_injective h2; subst this; rfl)
    | (rename_i x y; cases x <;> cases y <;> simp at h <;> rfl)
    | (simp only [true_and] at h; rw [h])
    | (exfalso; rename_i t _ _ _; have := intCode_lt t; revert h; grind)
    | (exfalso; revert h; grind [intCode_lt])

instance : LinearOrder WVal := LinearOrder.lift' WVal.code WVal.code_inj

/-- `typeid` of a value. DataSaver.h lines 24-42, 69-73. -/
def WVal.ty : WVal → WTy
  | .int t _ _ => .int t
  | .byte s _ _ => .byte s
  | .bool _ => .bool
  | .str _ => .str
  | .real d _ _ => .real d
  | .user n _ => .user n

theorem isFp_zero (p : Nat) : IsFp p 0 := ⟨0, 0, by positivity, by simp⟩

instance : Typed WVal WTy where
  typeOf := WVal.ty
  zero
    | .int t => .int t 0 (Str.IntTy.zero_ok t)
    | .byte s => .byte s 0 (by cases s <;> decide)
    | .bool => .bool false
    | .str => .str []
    | .real d => .real d 0 (isFp_zero _)
    | .user n => .user n 0
  zero_ty t := by cases t <;> rfl

/-- `ToString`, ToString.h: the generic template gives the empty text (lines 76-80), the 8-bit types are printed as numbers (lines 180-199). -/
def WVal.text : WVal → List Char
  | .int _ i _ => Str.toStringInt i
  | .byte _ i _ => Str.toStringInt i
  | .bool b => Str.toStringBool b
  | .str s => Str.toStringStr s
  | .real _ x _ => Fp.toStringFloat x
  | .user _ _ => []

theorem evalDecimal_isFp {p : Nat} (hp : 0 < p) (d : Str.Decimal) : IsFp p (Fp.evalDecimal p d) := by
  unfold Fp.evalDecimal
  dsimp only
  split <;> exact Fp.rnd_isFp hp _

/-- `FromString`, FromString.h: there is no specialisation for the 8-bit types, so the generic template (line 31) refuses every text for them as it does for user
types. -/
def readWide : WTy → List Char → Str.Out WVal
  | .int t, s => match Str.fromStringInt t s with
    | .ub => .ub
    | .reject => .reject
    | .ok i => if h : t.lo ≤ i ∧ i ≤ t.hi then .ok (.int t i h) else .ub
  | .byte _, s => Str.fromStringOther s
  | .bool, s => match Str.fromStringBool s with
    | .ub => .ub
    | .reject => .reject
    | .ok b => .ok (.bool b)
  | .str, s => match Str.fromStringStr s with
    | .ub => .ub
    | .reject => .reject
    | .ok x => .ok (.str x)
  | .real d, s => match Str.fromStringDecimal s with
    | .ub => .ub
    | .reject => .reject
    | .ok x => .ok (.real d (Fp.evalDecimal (bits d) x) (evalDecimal_isFp (bits_pos d) x))
  | .user _, s => Str.fromStringOther s

instance : Texts WVal WTy where
  toText := WVal.text
  fromText := readWide
  from_ty t s v h := by
    cases t with
    | int t =>
      simp only [readWide] at h
      split at h <;> try cases h
      split at h
      · cases h; rfl
      · cases h
    | byte s => simp [readWide, Str.fromStringOther] at h
    | bool => simp only [readWide] at h; split at h <;> cases h; rfl
    | str => simp only [readWide] at h; split at h <;> cases h; rfl
    | real d => simp only [readWide] at h; split at h <;> cases h; rfl
    | user n => simp [readWide, Str.fromStringOther] at h

end MVault.W
