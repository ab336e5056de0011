/-
Model of `Source/CsvParser/CsvParser.cpp` and `Source/CsvParser/StreamFileReader.cpp`.
A C++ `char` is modelled by a Lean `Char` (the code only compares characters for equality and copies
them; no arithmetic), a `std::string` by `List Char`, a file by its list of characters.
-/
namespace MVault.Csv

/-- One iteration of the loop of `FormatStringToCsv`, CsvParser.cpp lines 10-26: state is
`(isEscapingRequired, res)`. -/
def fmtStep (st : Bool × List Char) (symbol : Char) : Bool × List Char :=
  if symbol = '"' then (true, st.2 ++ ['"', '"'])
  else
    let e1 := if symbol = ',' then true else st.1
    let e2 := if symbol = '\n' then true else e1
    (e2, st.2 ++ [symbol])

/-- `FormatStringToCsv`, CsvParser.cpp lines 5-32. -/
def formatCsv (str : List Char) : List Char :=
  let st := str.foldl fmtStep (false, [])
  if st.1 then '"' :: (st.2 ++ ['"']) else st.2

/-- The interface of `StreamFileReader` used by the parser (StreamFileReader.h lines 95-150). `notEnd` is
the C++ method `IsEnd`, which answers true while there still is a character (StreamFileReader.cpp 48-64). -/
structure Reader (σ : Type) where
  notEnd : σ → Bool
  size : Nat
  pos : σ → Nat
  chr : σ → Char
  next : σ → Char
  move : σ → σ

/-- `CsvParser::GetNextVector`, CsvParser.cpp lines 42-122, run on any reader. The `for` loop is a recursion
on a fuel argument (running out of fuel is the outcome `none`; `getNext_total` shows which fuel always
suffices). The result is `(return value, vectorWithNext, reader afterwards)`. The test
`GetFileSize() > 0` (line 54) is the first `if`. -/
def getNextLoop {σ : Type} (R : Reader σ) (separator : Char) :
    Nat → σ → Bool → List Char → List (List Char) → Option (Bool × List (List Char) × σ)
  | 0, _, _, _, _ => none
  | fuel + 1, s, isEscaping, recordPole, vec =>
    if R.notEnd s then
      -- lines 61-73
      if !isEscaping && (R.chr s == '\r' || R.chr s == '\n') then
        let vec' := if recordPole.isEmpty then vec else vec ++ [recordPole]
        let s1 := if R.pos s + 1 < R.size && R.next s == '\n' then R.move s else s
        some (true, vec', R.move s1)
      -- lines 76-97
      else if R.chr s == '"' then
        if !isEscaping then getNextLoop R separator fuel (R.move s) true [] vec
        else if R.pos s + 1 < R.size && R.next s == '"' then
          getNextLoop R separator fuel (R.move (R.move s)) true (recordPole ++ ['"']) vec
        else getNextLoop R separator fuel (R.move s) false recordPole vec
      -- lines 100-106
      else if R.chr s == separator && !isEscaping then
        getNextLoop R separator fuel (R.move s) isEscaping [] (vec ++ [recordPole])
      -- line 109
      else getNextLoop R separator fuel (R.move s) isEscaping (recordPole ++ [R.chr s]) vec
    else
      -- lines 113-120
      let vec' := if recordPole.isEmpty then vec else vec ++ [recordPole]
      some (!vec'.isEmpty, vec', s)

/-- `GetNextVector`, CsvParser.cpp lines 42-122, with enough fuel for the rest of the file. -/
def getNext {σ : Type} (R : Reader σ) (separator : Char) (s : σ) :
    Option (Bool × List (List Char) × σ) :=
  if R.size > 0 then getNextLoop R separator (R.size + 2) s false [] []
  else some (false, [], s)

/-! ### StreamFileReader, whole-file mode -/

/-- State of `StreamFileReader` for small files (`Data != nullptr`), StreamFileReader.h lines 33-53. -/
structure SmallRd where
  filePos : Nat
  chr : Char
  next : Char
  deriving Repr, DecidableEq

/-- `Open` for small files, StreamFileReader.cpp lines 12-41: `Char = Data[0]; FilePos = 1; NextChar = Data[1]`
when they exist; both start as 0. For an empty file nothing is loaded (`FilePos` stays 0, see `smallReader`). -/
def SmallRd.opened (file : List Char) : SmallRd :=
  { filePos := 1, chr := file.getD 0 '\x00', next := file.getD 1 '\x00' }

/-- `Move`, whole-file branch, StreamFileReader.cpp lines 112-121. -/
def SmallRd.move (file : List Char) (s : SmallRd) : SmallRd :=
  if s.filePos ≤ file.length then
    { filePos := s.filePos + 1
      chr := s.next
      next := if s.filePos + 1 < file.length then file.getD (s.filePos + 1) '\x00' else s.next }
  else s

/-- The whole-file reader: `IsEnd` lines 57-61, `GetFileSize` 66-69, `GetCurrentPos` 71-76, `GetChar`,
`GetNextChar` 78-86, `Move` 88-124. -/
def smallReader (file : List Char) : Reader SmallRd where
  notEnd s := s.filePos ≤ file.length
  size := file.length
  pos s := s.filePos - 1
  chr := SmallRd.chr
  next := SmallRd.next
  move := SmallRd.move file

/-! ### StreamFileReader, block mode -/

/-- State of `StreamFileReader` for big files (`Data == nullptr`), StreamFileReader.h lines 33-53.
`off` is the get position of the `std::ifstream`. `chunk` is the array `DataChunk`. -/
structure ChunkRd where
  filePos : Nat
  chunkPos : Nat
  chr : Char
  next : Char
  chunk : Nat → Char
  off : Nat

/-- `File.read(DataChunk, n)`: copies up to `n` characters from the get position (fewer at end of file; for a
negative count nothing is copied). Characters of the array that are not overwritten keep their value. StreamFileReader.cpp lines 24, 101-104. -/
def ChunkRd.read (file : List Char) (s : ChunkRd) (n : Int) : ChunkRd :=
  let got := min n.toNat (file.length - s.off)
  { s with
    chunk := fun i => if i < got then file.getD (s.off + i) '\x00' else s.chunk i
    off := s.off + got }

/-- `Open` for big files, StreamFileReader.cpp lines 22-27 (initial values from StreamFileReader.h 39-51). -/
def ChunkRd.opened (block : Nat) (file : List Char) : ChunkRd :=
  let s := ChunkRd.read file
    { filePos := 0, chunkPos := 1, chr := '\x00', next := '\x00', chunk := fun _ => '\x00', off := 0 } block
  { s with chr := s.chunk 0, next := s.chunk 1 }

/-- `Move`, block branch, StreamFileReader.cpp lines 92-110. `streamsize` is signed, so the count passed to
`read` is an `Int`. -/
def ChunkRd.move (block : Nat) (file : List Char) (s : ChunkRd) : ChunkRd :=
  if s.filePos + s.chunkPos ≤ file.length then
    let s1 : ChunkRd := { s with chunkPos := s.chunkPos + 1 }
    let s2 : ChunkRd :=
      if s1.chunkPos = block then
        let fp := s1.filePos + block
        let left : Int := (file.length : Int) - (fp : Int)
        let s' := ChunkRd.read file { s1 with filePos := fp } (if left > block then block else left)
        { s' with chunkPos := 0 }
      else s1
    { s2 with
      chr := s2.next
      next := if s2.filePos + s2.chunkPos < file.length then s2.chunk s2.chunkPos else s2.next }
  else s

/-- The block-wise reader, same line references as `smallReader`. -/
def chunkReader (block : Nat) (file : List Char) : Reader ChunkRd where
  notEnd s := s.filePos + s.chunkPos ≤ file.length
  size := file.length
  pos s := s.filePos + s.chunkPos - 1
  chr := ChunkRd.chr
  next := ChunkRd.next
  move := ChunkRd.move block file

/-- Repeated calls of `GetNextVector` until it answers false, as in Vault.cpp lines 60-180 (the loop
`while (parser.GetNextVector(...))`): at most `n` calls. `none` = still answering true after `n` calls. -/
def readRows {σ : Type} (R : Reader σ) (separator : Char) : Nat → σ → Option (List (List (List Char)))
  | 0, _ => none
  | n + 1, s =>
    match getNext R separator s with
    | none => none
    | some (false, _, _) => some []
    | some (true, row, s') => (readRows R separator n s').map (row :: ·)

/-- `StreamFileReader::Open` + parsing a whole file, StreamFileReader.cpp lines 12-41 with
`BIG_FILE_SIZE = big`, `FILE_BLOCK_SIZE = block`. Files larger than `big` are read block-wise. -/
def parseFile (block big : Nat) (separator : Char) (file : List Char) : Option (List (List (List Char))) :=
  if file.length > big then
    readRows (chunkReader block file) separator (file.length + 1) (ChunkRd.opened block file)
  else
    readRows (smallReader file) separator (file.length + 1) (SmallRd.opened file)

/-- One record line of `SaveToFile` without its end of line, Vault.cpp lines 992-1004 / 1013-1025: formatted
fields with the separator text after each but the last. -/
def writeRow (separator : List Char) : List (List Char) → List Char
  | [] => []
  | [f] => formatCsv f
  | f :: g :: fs => formatCsv f ++ separator ++ writeRow separator (g :: fs)

/-- The record part of the file `SaveToFile` writes, Vault.cpp lines 987-1029: each row followed by the two
characters CR LF (line 963). -/
def writeRows (separator : List Char) (rows : List (List (List Char))) : List Char :=
  rows.flatMap (fun r => writeRow separator r ++ ['\r', '\n'])

end MVault.Csv
