import Verif.CsvModel
/-
Model of `StreamFileReader` as a C++ object that is opened, moved and closed in any order (`CsvModel` has the two reading modes of a reader that is opened once).
-/
namespace MVault.Csv

/-- `StreamFileReader`, StreamFileReader.h lines 27-51. `isOpen`, `file`, `off` are the `std::ifstream`: whether it is open, the contents of the open file and the
get position. `size` is signed (`std::streamsize`). `data` is `Data`: null or the array. -/
structure Rd where
  isOpen : Bool
  file : List Char
  off : Nat
  size : Int
  filePos : Nat
  chunkPos : Nat
  chr : Char
  next : Char
  chunk : Nat → Char
  data : Option (List Char)

/-- The default constructor, StreamFileReader.cpp line 5, with the initial values of StreamFileReader.h lines 31-51. -/
def Rd.new : Rd :=
  { isOpen := false, file := [], off := 0, size := 0, filePos := 0, chunkPos := 1, chr := '\x00', next := '\x00', chunk := fun _ => '\x00', data := none }

/-- `File.read(DataChunk, n)`, StreamFileReader.cpp lines 25, 102, 104: up to `n` characters; nothing from a closed stream. -/
def Rd.read (s : Rd) (n : Int) : Rd :=
  if s.isOpen then
    let got := min n.toNat (s.file.length - s.off)
    { s with chunk := (fun i => if i < got then s.file.getD (s.off + i) '\x00' else s.chunk i), off := s.off + got }
  else s

/-- `Open`, StreamFileReader.cpp lines 12-41, for `FILE_BLOCK_SIZE = block` and `BIG_FILE_SIZE = big`. `f = none`: there is no such file. On a stream that is open already
`File.open` fails, the file in use stays open and `tellg` gives -1 (line 18), so that nothing is loaded. The old array is not freed (line 31). -/
def Rd.open (block big : Nat) (f : Option (List Char)) (s : Rd) : Rd × Bool :=
  if s.isOpen then ({ s with size := -1 }, true)
  else
    match f with
    | none => (s, false)
    | some f =>
      let s : Rd := { s with isOpen := true, file := f, off := 0, size := f.length }
      if 0 < f.length then
        if big < f.length then
          let s := s.read block
          ({ s with chr := s.chunk 0, next := s.chunk 1 }, true)
        else
          ({ s with data := some f, chr := f.getD 0 '\x00', filePos := 1, next := if 1 < f.length then f.getD 1 '\x00' else s.next }, true)
      else (s, true)

/-- `IsEnd`, StreamFileReader.cpp lines 48-64; it answers true while there is a character. -/
def Rd.notEnd (s : Rd) : Bool :=
  match s.data with
  | none => decide (((s.filePos + s.chunkPos : Nat) : Int) ≤ s.size)
  | some _ => decide ((s.filePos : Int) ≤ s.size)

/-- `GetCurrentPos`, StreamFileReader.cpp lines 71-76. -/
def Rd.pos (s : Rd) : Nat :=
  if s.size = 0 then 0
  else match s.data with
    | none => s.filePos + s.chunkPos - 1
    | some _ => s.filePos - 1

/-- `GetFileSize`, StreamFileReader.cpp lines 66-69: a signed number returned as `std::size_t` of 64 bits. -/
def Rd.getSize (s : Rd) : Nat := (s.size % 18446744073709551616).toNat

/-- `Move`, StreamFileReader.cpp lines 88-126: the reader afterwards and the answer. `none`: an array is read outside its bounds (line 110 or 120). -/
def Rd.move (block : Nat) (s : Rd) : Option (Rd × Bool) :=
  match s.data with
  | none =>
    if ((s.filePos + s.chunkPos : Nat) : Int) ≤ s.size then
      let s1 : Rd := { s with chunkPos := s.chunkPos + 1 }
      let s2 : Rd :=
        if s1.chunkPos = block then
          let fp := s1.filePos + block
          let left : Int := s1.size - (fp : Int)
          let s' := Rd.read { s1 with filePos := fp } (if left > block then block else left)
          { s' with chunkPos := 0 }
        else s1
      let s3 : Rd := { s2 with chr := s2.next }
      if ((s3.filePos + s3.chunkPos : Nat) : Int) < s3.size then
        if s3.chunkPos < block then some ({ s3 with next := s3.chunk s3.chunkPos }, true) else none
      else some (s3, true)
    else some (s, false)
  | some d =>
    if (s.filePos : Int) ≤ s.size then
      let s1 : Rd := { s with filePos := s.filePos + 1, chr := s.next }
      if (s1.filePos : Int) < s1.size then
        match d[s1.filePos]? with
        | some c => some ({ s1 with next := c }, true)
        | none => none
      else some (s1, true)
    else some (s, false)

/-- `Close`, StreamFileReader.cpp lines 128-131. -/
def Rd.close (s : Rd) : Rd := { s with isOpen := false }

/-- `n` calls of `Move`, StreamFileReader.cpp lines 88-126. -/
def Rd.moves (block : Nat) : Nat → Rd → Option Rd
  | 0, s => some s
  | n + 1, s => (Rd.moves block n s).bind (fun t => (t.move block).map Prod.fst)

/-- All histories of one reader: calls of `Open`, `Move` and `Close` in any order with any files, StreamFileReader.cpp lines 5-131. -/
inductive RdReach (block big : Nat) : Rd → Prop
  | new : RdReach block big Rd.new
  | open {s : Rd} (f : Option (List Char)) : RdReach block big s → RdReach block big (s.open block big f).1
  | move {s t : Rd} {b : Bool} : RdReach block big s → s.move block = some (t, b) → RdReach block big t
  | close {s : Rd} : RdReach block big s → RdReach block big s.close

/-- The reader inside a `CsvParser` (CsvParser.h lines 39-45) as the interface that `GetNextVector` uses, CsvParser.cpp lines 42-122. An undefined `Move` is left out here:
the theorems about parsers do not use it. -/
def Rd.reader (block : Nat) (s : Rd) : Reader Rd where
  notEnd := Rd.notEnd
  size := s.getSize
  pos := Rd.pos
  chr := Rd.chr
  next := Rd.next
  move t := match t.move block with
    | some (t', _) => t'
    | none => t

end MVault.Csv
