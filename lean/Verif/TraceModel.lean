import Verif.WorldBase
/-
Diagnostics of debug builds: `BackTrace/BackTrace.cpp`, `BackTrace/BackTrace.h` and `VaultOperationResult::SetOpResult`, `ResultCodeString`
(VaultOperationResult.cpp). One thread: `Trace` is `thread_local`, so threads do not touch each other's traces; `TraceFormat` is one global variable.
Left out: the source line `addr2line` looks up for a frame address, and colours. `array[i]` is modelled as far as its index goes: the array has
`TRACE_MAX` = 1024 places.
-/
set_option linter.unusedSectionVars false
namespace MVault.Tr

/-- `BackTraceFormat`, BackTrace.h lines 41-45. -/
inductive Fmt | Compact | None deriving DecidableEq

/-- What a thread does inside the library and around it. `call` is a function with `DBG_LOG_ENTER()` (BackTrace.h line 26), `print` is
`PrintBackTrace()`, `format` is `SetBackTraceFormat`, `throw` raises an exception, `catching` is `try { … } catch (…) { }`. -/
inductive Act
  | call (name : String) (body : List Act)
  | print
  | format (f : Fmt)
  | throw
  | catching (body : List Act)

/-- The variables: `TraceFormat`, `Trace` (the last one entered last), and the function names printed so far. BackTrace.cpp lines 5-8. -/
structure St where
  fmt : Fmt
  trace : List String
  out : List String
  deriving DecidableEq

/-- `TRACE_MAX`, BackTrace.h line 22. -/
def traceMax : Nat := 1024

/-- `PrintBackTrace`, BackTrace.cpp lines 17-66 with `TraceFormat` `Compact`: `i` is `Trace.size() + 2` and `traceSize` becomes `i + 1`, so the loop runs
once; it reads `array[i]`, prints `Trace.back()` and pops it. `Trace.front()` of an empty vector and `array[i]` past the array are undefined. -/
def printTrace (s : St) : Option St :=
  match s.fmt with
  | .None => some s
  | .Compact =>
    if s.trace.length + 2 < traceMax then
      match s.trace with
      | [] => none
      | f :: l =>
        let pushed := (f :: l) ++ [f]
        match pushed.getLast? with
        | none => none
        | some b => some ⟨s.fmt, pushed.dropLast, s.out ++ [b]⟩
    else none

/-- Constructor of `TraceLogger`, BackTrace.cpp lines 82-85. -/
def enter (s : St) (name : String) : St := { s with trace := s.trace ++ [name] }

/-- Destructor of `TraceLogger`, BackTrace.cpp lines 87-90; `Trace.back()` of an empty vector is undefined. It runs on every way out of the function. -/
def leave (s : St) (name : String) : Option St :=
  match s.trace.getLast? with
  | none => none
  | some b => some (if name = b then { s with trace := s.trace.dropLast } else s)

mutual
/-- One action; the `Bool` says that an exception is on its way. BackTrace.h lines 61-110, BackTrace.cpp lines 82-90. -/
def Act.run : Act → St → Option (St × Bool)
  | .call name body, s => do
    let (s1, e) ← Act.runs body (enter s name)
    let s2 ← leave s1 name
    some (s2, e)
  | .print, s => (printTrace s).map (·, false)
  | .format f, s => some ({ s with fmt := f }, false)
  | .throw, s => some (s, true)
  | .catching body, s => (Act.runs body s).map fun p => (p.1, false)
/-- Actions one after another; an exception skips the rest. BackTrace.cpp lines 82-90. -/
def Act.runs : List Act → St → Option (St × Bool)
  | [], s => some (s, false)
  | a :: l, s => do
    let (s1, e) ← Act.run a s
    if e = true then some (s1, true) else Act.runs l s1
end

/-- `VaultOperationResult::SetOpResult` in a debug build, VaultOperationResult.cpp lines 5-18: a traced function that asks for the text of the code (a traced
function, lines 20-22) and prints the back trace. -/
def setOpResult : Act := .call "SetOpResult" [.call "ResultCodeString" [], .print]

end MVault.Tr

namespace MVault.W

/-- `VaultOperationResult::ResultCodeString`, VaultOperationResult.cpp lines 24-75. -/
def Code.text : Code → String
  | .OtherParentVaultNotValid => "The parent Vault of another VaultRecordSet is not valid."
  | .SameVaultRecordSet => "The operation is performed on the same VaultRecordSet object."
  | .TryToAddUniqueKeyInNonEmptyVaultWithoutLambda => "You can not add unique key without lambda in non-empty vault"
  | .DuplicateKey => "This key is alredy in vault"
  | .UniqueKey => "The key is unique and you can not update it default value."
  | .RecordAlredyInSet => "The record is already in VaultRecordSet."
  | .ParentVaultNotMatch => "The parent Vaults don't match."
  | .ParentVaultNotValid => "Parent Vault is not valid."
  | .DataRecordNotValid => "The record referenced by VaultRecordRef is not valid."
  | .WrongKey => "The requested key was not found."
  | .WrongType => "The mismatch between the types of the requested key and the saved one."
  | .Idle => "Idle state. The operation was not performed."
  | .WrongValue => "A record with this key value was not found."
  | .UniqueKeyValueAlredyInSet => "Unique key value alredy in set."
  | .Success => "The operation was completed successfully."

end MVault.W
