/-
Model of `Source/Strings/FromString.h`, `Source/Strings/ToString.h` and `Source/Uuid/Uuid.cpp`.
Texts are `List Char`. Machine integers are mathematical integers together with their type; every
arithmetic step of the C++ code goes through `IntTy.fit`, which is where overflow is decided.
-/
namespace MVault.Str

/-- The integer types with a `FromString` specialisation, FromString.h lines 222-338. -/
inductive IntTy
  | i16 | i32 | i64 | u16 | u32 | u64
  deriving DecidableEq, Repr

/-- Smallest value of the type. The types of the overloads in FromString.h lines 223-338. -/
def IntTy.lo : IntTy → Int
  | .i16 => -32768
  | .i32 => -2147483648
  | .i64 => -9223372036854775808
  | _ => 0

/-- Largest value of the type. The types of the overloads in FromString.h lines 223-338. -/
def IntTy.hi : IntTy → Int
  | .i16 => 32767
  | .i32 => 2147483647
  | .i64 => 9223372036854775807
  | .u16 => 65535
  | .u32 => 4294967295
  | .u64 => 18446744073709551615

/-- Types whose out-of-range results are reduced modulo 2^n: the unsigned ones by definition, the 16-bit ones
because the arithmetic is done in `int` after promotion and then converted back (implementation-defined before
C++20, modulo on every supported compiler). For `int32_t` and `int64_t` an out-of-range result is signed
overflow, i.e. undefined behaviour. The arithmetic of FromString.h lines 183-210. -/
def IntTy.wraps : IntTy → Bool
  | .i32 => false
  | .i64 => false
  | _ => true

/-- Reduction modulo 2^n into the range of the type. The arithmetic of FromString.h lines 183-210. -/
def IntTy.wrap (t : IntTy) (x : Int) : Int := (x - t.lo) % (t.hi - t.lo + 1) + t.lo

/-- Result of an arithmetic operation with mathematical result `x` stored in type `t`; `none` = undefined behaviour. The arithmetic of FromString.h lines 183-210. -/
def IntTy.fit (t : IntTy) (x : Int) : Option Int :=
  if t.lo ≤ x ∧ x ≤ t.hi then some x else if t.wraps then some (t.wrap x) else none

/-- Outcome of a `FromString` call: undefined behaviour, `return false`, or `return true` with the stored value. FromString.h lines 31-339. -/
inductive Out (α : Type)
  | ub
  | reject
  | ok (v : α)
  deriving DecidableEq, Repr

/-- `str[i] < '0' || str[i] > '9'`, FromString.h line 201. -/
def notDigit (c : Char) : Bool := c.toNat < 48 || 57 < c.toNat

/-- The digit loop of `FromStringSignedInt`, FromString.h lines 199-205. -/
def digitLoop (t : IntTy) : List Char → Int → Out Int
  | [], res => .ok res
  | c :: cs, res =>
    if notDigit c then .reject
    else
      match t.fit (res * 10) with
      | none => .ub
      | some r1 =>
        match t.fit (r1 + ((c.toNat : Int) - 48)) with
        | none => .ub
        | some r2 => digitLoop t cs r2

/-- `FromStringSignedInt<T>`, FromString.h lines 182-211, used for all six types (lines 222-258, 302-338). -/
def fromStringInt (t : IntTy) (s : List Char) : Out Int :=
  match s with
  | [] => .reject
  | c :: cs =>
    let isNegative := c == '-' && !cs.isEmpty
    match digitLoop t (if isNegative then cs else s) 0 with
    | .ok res =>
      if isNegative then
        match t.fit (res * -1) with
        | none => .ub
        | some d => .ok d
      else .ok res
    | o => o

/-- Decimal digits of a natural number, most significant first (`std::to_string`). ToString.h lines 91-199. -/
def decDigits (n : Nat) : List Char :=
  if n < 10 then [Char.ofNat (48 + n)] else decDigits (n / 10) ++ [Char.ofNat (48 + n % 10)]
termination_by n

/-- `ToString` for integers, ToString.h: `std::to_string`. -/
def toStringInt (i : Int) : List Char :=
  if i < 0 then '-' :: decDigits i.natAbs else decDigits i.natAbs

/-- `FromString<bool>`, FromString.h lines 64-78. -/
def fromStringBool (s : List Char) : Out Bool :=
  if s = ['t', 'r', 'u', 'e'] then .ok true
  else if s = ['f', 'a', 'l', 's', 'e'] then .ok false
  else .reject

/-- `ToString<bool>`, ToString.h. -/
def toStringBool (b : Bool) : List Char := if b then ['t', 'r', 'u', 'e'] else ['f', 'a', 'l', 's', 'e']

/-- `FromString<std::string>`, FromString.h lines 43-48. -/
def fromStringStr (s : List Char) : Out (List Char) := .ok s

/-- `ToString<std::string>`, ToString.h. -/
def toStringStr (s : List Char) : List Char := s

/-- The generic `FromString<T>`, FromString.h line 31: types without specialisation are never read. -/
def fromStringOther {α : Type} (_ : List Char) : Out α := .reject

/-- First loop of `FromStringDoubleAndFloat`, FromString.h lines 107-119: returns the integer part and the
text after the point. The accumulator is an `int`, so overflow is undefined behaviour. -/
def intPartLoop : List Char → Int → Out (Int × List Char)
  | [], res => .ok (res, [])
  | c :: cs, res =>
    if c = '.' then .ok (res, cs)
    else if notDigit c then .reject
    else
      match IntTy.i32.fit (res * 10) with
      | none => .ub
      | some r1 =>
        match IntTy.i32.fit (r1 + ((c.toNat : Int) - 48)) with
        | none => .ub
        | some r2 => intPartLoop cs r2

/-- A parsed decimal fraction: the code computes `± (integer + fractional * 10^-places)` in `T` arithmetic
(lines 121-138); the rounding of that floating-point expression is not modelled, its exact operands are. -/
structure Decimal where
  neg : Bool
  integer : Int
  fractional : Int
  places : Nat
  deriving DecidableEq, Repr

/-- `FromStringDoubleAndFloat<T>`, FromString.h lines 92-139. -/
def fromStringDecimal (s : List Char) : Out Decimal :=
  match s with
  | [] => .reject
  | c :: cs =>
    let isNegative := c == '-' && !cs.isEmpty
    match intPartLoop (if isNegative then cs else s) 0 with
    | .ub => .ub
    | .reject => .reject
    | .ok (integer, rest) =>
      match digitLoop .i32 rest 0 with
      | .ub => .ub
      | .reject => .reject
      | .ok fractional => .ok ⟨isNegative, integer, fractional, rest.length⟩

/-! ### Uuid.cpp -/

/-- `hex_chars[d]`, Uuid.cpp line 7. -/
def hexChar (d : Nat) : Char :=
  if d < 10 then Char.ofNat (48 + d) else Char.ofNat (87 + d)

/-- The loop of `ToHex`, Uuid.cpp lines 10-15: `n` digits, the last one first. -/
def toHexLoop : Nat → BitVec 64 → List Char
  | 0, _ => []
  | n + 1, digit => toHexLoop n (digit >>> 4) ++ [hexChar (digit &&& 0xf#64).toNat]

/-- `ToHex`, Uuid.cpp lines 5-18. -/
def toHex (digit : BitVec 64) : List Char := toHexLoop 16 digit

/-- `std::string::substr(pos, n)`. Uuid.cpp lines 33-49. -/
def substr (s : List Char) (pos n : Nat) : List Char := (s.drop pos).take n

/-- `Uuid`, Uuid.cpp lines 20-53, for the two words drawn from the random device. -/
def uuid (r1 r2 : BitVec 64) : List Char :=
  let a := toHex r1
  let b := toHex ((r2 >>> 2) ||| (1#64 <<< 63))
  substr a 0 8 ++ ['-'] ++ substr a 8 4 ++ ['-', '4'] ++ substr a 13 3 ++ ['-'] ++ substr b 0 4 ++ ['-'] ++ substr b 4 12

/-- `GenTmpFileName`, Uuid.cpp lines 54-71, the branch of systems other than Windows (lines 56-61), for the two words drawn by `Uuid`. -/
def genTmpFileName (pre : List Char) (r1 r2 : BitVec 64) : List Char :=
  if pre.isEmpty then "/tmp/".toList ++ uuid r1 r2 else "/tmp/".toList ++ pre ++ uuid r1 r2

end MVault.Str
