/-
Specification, independent of the model: JSON texts (RFC 8259) and what they mean, as a parser.
-/
namespace MVault.JsonSpec

/-- JSON values. A number is `mantissa * 10 ^ exponent`. -/
inductive Json
  | null
  | bool (b : Bool)
  | num (mantissa exponent : Int)
  | str (s : List Char)
  | arr (l : List Json)
  | obj (l : List (List Char × Json))

/-- White space, RFC 8259 section 2. -/
def isWs (c : Char) : Bool := c = ' ' || c = '\t' || c = '\n' || c = '\r'
/-- Skip white space. -/
def skipWs (l : List Char) : List Char := l.dropWhile isWs

/-- Digits. -/
def isDig (c : Char) : Bool := 48 ≤ c.toNat && c.toNat ≤ 57
/-- Value of a text of digits. -/
def digitsValue (l : List Char) : Int := l.foldl (fun a c => a * 10 + ((c.toNat : Int) - 48)) 0
/-- The digits at the front, and the rest. -/
def digits (l : List Char) : List Char × List Char := (l.takeWhile isDig, l.dropWhile isDig)

/-- Value of a hexadecimal digit. -/
def hex (c : Char) : Option Nat :=
  if 48 ≤ c.toNat ∧ c.toNat ≤ 57 then some (c.toNat - 48)
  else if 97 ≤ c.toNat ∧ c.toNat ≤ 102 then some (c.toNat - 87)
  else if 65 ≤ c.toNat ∧ c.toNat ≤ 70 then some (c.toNat - 55)
  else none

/-- The character of a one-letter escape, section 7. -/
def escape (c : Char) : Option Char :=
  if c = '"' ∨ c = '\\' ∨ c = '/' then some c
  else if c = 'b' then some (Char.ofNat 8)
  else if c = 'f' then some (Char.ofNat 12)
  else if c = 'n' then some '\n'
  else if c = 'r' then some '\r'
  else if c = 't' then some '\t'
  else none

/-- A string after its opening quote, section 7: no control characters; escapes. (Surrogate pairs are not combined.) -/
def parseString : List Char → Option (List Char × List Char)
  | [] => none
  | '"' :: l => some ([], l)
  | '\\' :: 'u' :: a :: b :: c :: d :: l => do
    let a ← hex a; let b ← hex b; let c ← hex c; let d ← hex d
    let (s, rest) ← parseString l
    some (Char.ofNat (((a * 16 + b) * 16 + c) * 16 + d) :: s, rest)
  | '\\' :: c :: l => do
    let x ← escape c
    let (s, rest) ← parseString l
    some (x :: s, rest)
  | c :: l => if c.toNat < 32 ∨ c = '\\' then none else (parseString l).map fun p => (c :: p.1, p.2)

/-- An optional fraction: its digits, the rest, and whether it is well-formed. -/
def fraction (l : List Char) : List Char × List Char × Bool :=
  if l.head? = some '.' then ((digits l.tail).1, (digits l.tail).2, !(digits l.tail).1.isEmpty) else ([], l, true)

/-- An optional sign of an exponent. -/
def expSign (l : List Char) : Int × List Char :=
  if l.head? = some '-' then (-1, l.tail) else if l.head? = some '+' then (1, l.tail) else (1, l)

/-- A number without its sign, section 6: no leading zeros, optional fraction, optional exponent. -/
def parseUnsigned (neg : Bool) (l : List Char) : Option (Json × List Char) :=
  let ds := (digits l).1
  let (fs, l2, ok) := fraction (digits l).2
  let m := if neg = true then -digitsValue (ds ++ fs) else digitsValue (ds ++ fs)
  if ds = [] ∨ (ds.head? = some '0' ∧ ds.length ≠ 1) ∨ ok = false then none
  else if l2.head? = some 'e' ∨ l2.head? = some 'E' then
    let (sg, l4) := expSign l2.tail
    if (digits l4).1 = [] then none
    else some (.num m (sg * digitsValue (digits l4).1 - fs.length), (digits l4).2)
  else some (.num m (-(fs.length : Int)), l2)

/-- Skip white space and one given character. -/
def expect (c : Char) (l : List Char) : Option (List Char) :=
  if (skipWs l).head? = some c then some (skipWs l).tail else none

/-- The members of an object up to its closing brace, section 4. `pv` reads a value, `n` bounds the number of members. -/
def parseMembers (pv : List Char → Option (Json × List Char)) : Nat → List Char → Option (List (List Char × Json) × List Char)
  | 0, _ => none
  | n + 1, l => do
    let l1 ← expect '"' l
    let (name, l2) ← parseString l1
    let l3 ← expect ':' l2
    let (v, l4) ← pv l3
    match expect ',' l4 with
    | some l5 => do
      let (ms, l6) ← parseMembers pv n l5
      some ((name, v) :: ms, l6)
    | none => do
      let l5 ← expect '}' l4
      some ([(name, v)], l5)

/-- The elements of an array up to its closing bracket, section 5. -/
def parseElements (pv : List Char → Option (Json × List Char)) : Nat → List Char → Option (List Json × List Char)
  | 0, _ => none
  | n + 1, l => do
    let (v, l4) ← pv l
    match expect ',' l4 with
    | some l5 => do
      let (ms, l6) ← parseElements pv n l5
      some (v :: ms, l6)
    | none => do
      let l5 ← expect ']' l4
      some ([v], l5)

/-- A value, section 3; the first argument bounds the depth. -/
def parseValue : Nat → List Char → Option (Json × List Char)
  | 0, _ => none
  | n + 1, l => match skipWs l with
    | [] => none
    | c :: l1 =>
      if c = '"' then (parseString l1).map fun p => (.str p.1, p.2)
      else if c = '{' then
        match expect '}' l1 with
        | some l2 => some (.obj [], l2)
        | none => (parseMembers (parseValue n) l1.length l1).map fun p => (.obj p.1, p.2)
      else if c = '[' then
        match expect ']' l1 with
        | some l2 => some (.arr [], l2)
        | none => (parseElements (parseValue n) l1.length l1).map fun p => (.arr p.1, p.2)
      else if c = 't' then if l1.take 3 = ['r', 'u', 'e'] then some (.bool true, l1.drop 3) else none
      else if c = 'f' then if l1.take 4 = ['a', 'l', 's', 'e'] then some (.bool false, l1.drop 4) else none
      else if c = 'n' then if l1.take 3 = ['u', 'l', 'l'] then some (.null, l1.drop 3) else none
      else if c = '-' then parseUnsigned true l1
      else parseUnsigned false (c :: l1)

/-- A JSON text, section 2: one value with white space around it. -/
def parseJson (l : List Char) : Option Json :=
  match parseValue (l.length + 1) l with
  | some (j, rest) => if skipWs rest = [] then some j else none
  | none => none

end MVault.JsonSpec
