import Verif.TraceModel
import Verif.WorldTypes
/-
`VaultOperationResult` as a value: comparison, texts, printing.
-/
set_option linter.unusedSectionVars false
namespace MVault.W

/-- `VaultOperationResult`, VaultOperationResult.h lines 43-61: all five fields; a type is `none` for `typeid(void)`. -/
structure Result (Ty : Type) where
  isOperationSuccess : Bool
  resultCode : Code
  key : List Char
  requestedType : Option Ty
  savedType : Option Ty
  deriving DecidableEq

/-- `operator==`, VaultOperationResult.cpp lines 86-93. -/
def Result.equal {Ty : Type} [DecidableEq Ty] (a b : Result Ty) : Bool :=
  (a.isOperationSuccess == b.isOperationSuccess) && (a.resultCode == b.resultCode) &&
  (a.key == b.key) && (a.requestedType == b.requestedType) && (a.savedType == b.savedType)

/-- `Print`, VaultOperationResult.cpp lines 79-84: what goes to the standard output. `name` is `std::type_index::name`. -/
def Result.print {Ty : Type} (name : Option Ty → List Char) (r : Result Ty) : List Char :=
  (if r.isOperationSuccess then "Success! ".toList else "Failed! ".toList) ++ r.resultCode.text.toList ++ " Key: ".toList ++ r.key ++
    " Saved type: ".toList ++ name r.savedType ++ " Requested type: ".toList ++ name r.requestedType ++ ['\n']

/-- The object a call returns, put together from the parts modelled in WorldOut.lean (flag, code, key) and WorldTypes.lean (the types);
`txt` is the text of a key, a `Key` never written is the empty text of VaultOperationResult.h line 52. -/
def Result.of {K Ty : Type} (txt : K → List Char) (r : Res K) (t : Types Ty) : Result Ty :=
  ⟨r.ok, r.code, (r.key.map txt).getD [], t.requested, t.saved⟩

end MVault.W
