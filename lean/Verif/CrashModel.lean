import Verif.CsvModel
/-
The file on the disk while `Vault::SaveToFile` writes it, and after a write that did not succeed as a whole.
-/
namespace MVault.Csv

/-- What the file holds while `SaveToFile` is writing `text` over a file that held `old` (`none`: there was no file). Opening the file for writing empties it (Vault.cpp lines
953-954: `std::ofstream` without `std::ios::app`), then the characters arrive in order (lines 966-1029). `fileDuring old text 0` is the file before the opening,
`fileDuring old text (k + 1)` the file when `k` characters have arrived. Simplification: the stream's buffer and the operating system keep the order of the characters, as on a
journaling file system; which of these states a crash leaves is not determined. -/
def fileDuring (old : Option (List Char)) (text : List Char) : Nat → Option (List Char)
  | 0 => old
  | k + 1 => some (text.take k)

/-- A whole call of `SaveToFile` and the file after it. Vault.cpp lines 953-960: the answer is false when the file cannot be opened; lines 966-1031: the stream is not asked
whether the writing succeeded, the answer is true. `accepted` is the number of characters for which there was room (`none`: enough for all). -/
def saveCall (canOpen : Bool) (accepted : Option Nat) (old : Option (List Char)) (text : List Char) : Bool × Option (List Char) :=
  if canOpen then (true, fileDuring old text (accepted.getD text.length + 1)) else (false, fileDuring old text 0)

end MVault.Csv
