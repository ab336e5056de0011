import Verif.FileModel
/-
Record handlers of `Vault::ReadFile(fileName, separator, recordHandler)` that remember things between their calls and that may themselves use the vault which is being
read into. The handler is called by the reading thread, which holds the vault's recursive lock, so its calls of the vault's functions are not blocked.
The file is fixed while it is read (a handler that rewrites it is not modelled), and the handler does not throw (the functions are `noexcept`).
-/
set_option linter.unusedSectionVars false
namespace MVault.W
open MVault.Csv (parseFile)
variable {V Ty S : Type} [LinearOrder V] [Typed V Ty] [DecidableEq Ty] [Texts V Ty]

/-- What a record handler can see and change: its own memory, the vaults, and the vault's list of errors (`InvalidFileRecords`, Vault.h line 93, which a nested
`ReadFile` clears and fills). -/
structure HState (S V Ty : Type) where
  own : S
  world : World Key V Ty
  errs : List (Nat × Key)

/-- A record handler: called with the keys of the file and the fields of a row (which it may change). `none` is undefined behaviour of what it does. Vault.h line 765. -/
abbrev Handler (S V Ty : Type) : Type := List Key → List (List Char) → HState S V Ty → Option (HState S V Ty × List (List Char))

/-- The loop of `ReadFile` with a record handler, Vault.cpp lines 66-176 for `isLoadKeys` and `isPreprocessRecord`: the new record is made from the template (line 70) *before* the
handler is called (line 77), and is filled and inserted after it. `n` is `lineCounter`. -/
def heldLoop (h : Handler S V Ty) (keys : List Key) (o : Nat) : List (List (List Char)) → Nat → HState S V Ty → Option (HState S V Ty)
  | [], _, s => some s
  | row :: rows, n, s => do
    let vo ← s.world.getObj o
    let (s1, fields) ← h keys row s
    match setRow ((keys.zip fields).map fun p => (some p.1, p.2)) vo.tmpl false with
    | .ub => none
    | .skip => heldLoop h keys o rows (n + 1) s1
    | .bad k => heldLoop h keys o rows (n + 1) { s1 with errs := s1.errs ++ [(n + 1 + 1, k)] }
    | .ok data => do
      let (w2, out) ← insertRecord s1.world o data
      match out with
      | .error k => heldLoop h keys o rows (n + 1) { s1 with world := w2, errs := s1.errs ++ [(n + 1, k)] }
      | .ok _ => heldLoop h keys o rows (n + 1) { s1 with world := w2 }

/-- `Vault::ReadFile(fileName, separator, recordHandler)`, Vault.cpp lines 40-64 and 1041-1046: the errors of the last file are cleared, the first row of the file is taken as the keys. -/
def readHeld (h : Handler S V Ty) (block big : Nat) (s : HState S V Ty) (o : Nat) (file : Option (List Char)) (sep : Char) : Option (Bool × HState S V Ty) :=
  match file with
  | none => some (false, { s with errs := [] })
  | some text => do
    let rows ← parseFile block big sep text
    let s1 ← heldLoop h ((rows.head?.getD []).map Key.of) o rows.tail 0 { s with errs := [] }
    some (true, s1)

end MVault.W
