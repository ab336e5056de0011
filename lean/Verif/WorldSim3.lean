import Verif.WorldSim2
/-
Worlds that differ only in what the records know about the sets that hold them: all calls, with their answers.
-/
set_option linter.unusedSectionVars false
set_option linter.unusedSimpArgs false
set_option linter.unusedVariables false
namespace MVault.W
variable {K V Ty : Type} [LinearOrder K] [LinearOrder V] [Typed V Ty] [DecidableEq Ty]
variable {own home : Nat → Nat}
variable {D : Nat → Bool → List Nat → List Nat → Prop} {w u : World K V Ty}

theorem request_sim (hD : Closed D) (env : Env) (h : DepSim D w u) (o : Nat) (t : ReqType) (k : K) (a b : V) (ia ib : Bool) (n : Option Nat)
    (pred : Nat → Bool) (s : Nat) : Both (DepSimP D) (request env w o t k a b ia ib n pred s) (request env u o t k a b ia ib n pred s) := by
  simp only [request, Option.bind_eq_bind, h.obj]
  refine Both.same fun oo _ => ?_
  cases (if oo.isSet = true then oo.parent else some o) with
  | none => exact ⟨h, rfl⟩
  | some p =>
    dsimp only
    by_cases e : o = s
    · rw [if_pos e, if_pos e]; exact ⟨h, rfl⟩
    · rw [if_neg e, if_neg e]
      refine (prepTarget_sim hD env h o p s).bind fun w1 u1 _ _ h1 => ?_
      simp only [h1.obj]
      refine Both.same fun oo _ => Both.same fun out _ => ?_
      cases out with
      | error e => exact ⟨h1, rfl⟩
      | ok l => exact (fillTarget_sim hD env h1 s l).map fun a b h2 => ⟨h2, rfl⟩

theorem requestTree_sim (hD : Closed D) (env : Env) (h : DepSim D w u) (o : Nat) (q : Req K V) (s : Nat) :
    Both (DepSimP D) (requestTree env w o q s) (requestTree env u o q s) := by
  simp only [requestTree, Option.bind_eq_bind, h.obj]
  refine Both.same fun oo _ => ?_
  cases (if oo.isSet = true then oo.parent else some o) with
  | none => exact ⟨h, rfl⟩
  | some p =>
    dsimp only
    by_cases e : o = s
    · rw [if_pos e, if_pos e]; exact ⟨h, rfl⟩
    · rw [if_neg e, if_neg e]
      refine (prepTarget_sim hD env h o p s).bind fun w1 u1 _ _ h1 => ?_
      simp only [h1.obj]
      refine Both.same fun oo _ => Both.same fun out _ => ?_
      cases out with
      | error e => exact (setClear_sim hD env h1 s).map fun a b h2 => ⟨h2, rfl⟩
      | ok l => exact (fillTarget_sim hD env h1 s l).map fun a b h2 => ⟨h2, rfl⟩

theorem Both.onVault {A B : Type} {R : A → B → Prop} (h : DepSim D w u) {o : Nat} {x : Option A} {y : Option B} (hx : Both R x y) :
    Both R (onVault w o x) (onVault u o y) := by
  have e : isVault w o = isVault u o := by unfold isVault; rw [h.obj]
  unfold W.onVault
  rw [e]
  by_cases e : isVault u o = true
  all_goals simp only [e, if_true, if_false]
  · exact hx
  · trivial

theorem Both.onSet {A B : Type} {R : A → B → Prop} (h : DepSim D w u) {o : Nat} {x : Option A} {y : Option B} (hx : Both R x y) :
    Both R (onSet w o x) (onSet u o y) := by
  have e : isSetObj w o = isSetObj u o := by unfold isSetObj; rw [h.obj]
  unfold W.onSet
  rw [e]
  by_cases e : isSetObj u o = true
  all_goals simp only [e, if_true, if_false]
  · exact hx
  · trivial

theorem Both.unit {x y : Option (World K V Ty)} (h : Both (DepSim D) x y) : Both (DepSimP (A := Answer K) D) (x.map (·, .unit)) (y.map (·, .unit)) :=
  h.map fun a b hab => ⟨hab, rfl⟩

theorem Both.res {x y : Option (World K V Ty × Res K)} (h : Both (DepSimP D) x y) :
    Both (DepSimP (A := Answer K) D) (x.map fun p => (p.1, .res p.2)) (y.map fun p => (p.1, .res p.2)) :=
  h.map fun a b hab => ⟨hab.1, by rw [hab.2]⟩

theorem Both.flag {x y : Option (World K V Ty × Bool)} (h : Both (DepSimP D) x y) :
    Both (DepSimP (A := Answer K) D) (x.map fun p => (p.1, .flag p.2)) (y.map fun p => (p.1, .flag p.2)) :=
  h.map fun a b hab => ⟨hab.1, by rw [hab.2]⟩

/-- The calls that read what a record knows about the sets holding it agree on the records in question. -/
def Reads (D : Nat → Bool → List Nat → List Nat → Prop) (w : World K V Ty) : Op K V Ty → Prop
  | .refSetData f _ _ | .refSetDataMany f _ | .eraseRef _ f => AgreeRef D w f
  | .eraseKV o k v | .eraseManyKV o k v _ => AgreeAll D o k v w
  | _ => True

theorem AgreeAll.to {o : Nat} {k : K} {v : V} (h : DepSim D w u) (hr : AgreeAll D o k v w) : AgreeAll D o k v u :=
  fun vo c r h1 h2 h3 => hr vo c r (by rw [h.obj]; exact h1) h2 h3

theorem outcome_sim (hD : Closed D) (env : Env) (h : DepSim D w u) {op : Op K V Ty} (ha : Allowed w op) (hr : Reads D w op) :
    Both (DepSimP D) (outcome env w op) (outcome env u op) := by
  cases op <;> simp only [Allowed] at ha <;> simp only [outcome]
  case newVault => exact ⟨newObj_sim h _, rfl⟩
  case newSet => exact ⟨newObj_sim h _, rfl⟩
  case newRef => exact ⟨newRef_sim h, rfl⟩
  case destroyVault o => exact ((destroyVault_sim hD env h o).onVault h).unit
  case destroySet s => exact ((destroySet_sim hD env h s).onSet h).unit
  case refCopy f g => exact (refCopy_sim h f g).unit
  case refMove f g => exact (refMove_sim h f g).unit
  case refReset f => exact (refReset_sim h f).unit
  case refSetData f k v => exact (refSetData_sim env h hr k v).res
  case refSetDataMany f ps => exact (refSetDataMany_sim env h hr ps).res
  case addKey o k d => exact ((addKey_sim env h o k d).res).onVault h
  case addUniqueKey o k t noFn f => exact ((addUniqueKey_sim env h o k t noFn f).res).onVault h
  case updateKey o k d => exact ((updateKey_sim h o k d).res).onVault h
  case removeKey o k => exact ((removeKey_sim env h o k).flag).onVault h
  case createRecord o f ps => exact ((createRecord_sim hD h o f ps).res).onVault h
  case createRow o ps => exact ((createRow_sim hD h o ps).res).onVault h
  case eraseRef o f => exact ((eraseRef_sim hD env h (.inr hr)).flag).onVault h
  case eraseKV o k v => exact ((eraseKV_sim hD env h k v (.inr (AgreeAll.to h hr))).res).onVault h
  case eraseManyKV o k v n => exact ((eraseManyKV_sim hD env h k v (.inr (AgreeAll.to h hr)) n).res).onVault h
  case dropData o => exact ((dropData_sim hD env h o).onVault h).unit
  case dropVault o => exact ((dropVault_sim hD env h o).onVault h).unit
  case getRecord o k v f => exact ((getRecord_sim env h o k v f).res).onVault h
  case getRecords o k v n => exact ((getRecords_sim env h o k v n).res).onVault h
  case getSorted o k rev n => exact (getSorted_sim h o k rev n).unit
  case request o t k a b ia ib n pred s => exact ((request_sim hD env h o t k a b ia ib n pred s).res).onSet h
  case requestTree o q s => exact ((requestTree_sim hD env h o q s).res).onSet h
  case setAddRecord s f => exact ((setAddRecord_sim hD h s f).res).onSet h
  case setClear s => exact ((setClear_sim hD env h s).onSet h).unit
  case setReset s => exact ((setReset_sim hD env h s).onSet h).unit
  case setGetRecord s k v f => exact ((setGetRecord_sim env h s k v f).res).onSet h
  case setGetRecords s k v n => exact ((setGetRecords_sim env h s k v n).res).onSet h
  case setCopyNew a => exact ((setCopyNew_sim hD env h a).onSet h).unit
  case setAssign s a => exact (((setAssign_sim hD env h s a).onSet h).onSet h).unit
  case setMoveAssign s a =>
    refine (((?_ : Both (DepSim D) _ _).onSet h).onSet h).unit
    simp only [setMoveAssign, Option.bind_eq_bind, h.obj]
    refine Both.same fun so _ => Both.same fun ao hao => ?_
    by_cases e : s = a
    · rw [if_pos e, if_pos e]; exact h
    · have : ao.parent = none := ha.2.2.resolve_left e ao (by rw [h.obj]; exact hao)
      rw [if_neg e, if_neg e, if_pos this, if_pos this]; exact setReset_sim hD env h s
  case vaultCopyNew a => exact ((vaultCopyNew_sim hD env h a).onVault h).unit
  case vaultAssign o a => exact (((vaultAssign_sim hD env h o a).onVault h).onVault h).unit
  case vaultMoveNew a => exact ((vaultMoveNew_sim h a).onVault h).unit
  case vaultMoveAssign o a => exact (((vaultMoveAssign_sim hD env h o a).onVault h).onVault h).unit

/-- What a careful user checks before a call does not depend on what the records know. -/
theorem Careful.sim (h : DepSim D w u) {op : Op K V Ty} (hg : Careful home w op) : Careful home u op := by
  obtain ⟨ho, ha⟩ := hg
  have e : ∀ o, w.getObj o = u.getObj o := h.obj
  refine ⟨?_, ?_⟩
  · cases op <;> simp only [Ordinary, Untied, e, h.refs, h.nextO] at ho ⊢ <;> first | exact ho | (simp only [Allowed] at ha)
  · cases op <;> simp only [Allowed, isVault, isSetObj, e, h.refs] at ha ⊢ <;> exact ha

theorem Careful.sim' (h : DepSim D w u) {op : Op K V Ty} (hg : Careful home u op) : Careful home w op := by
  obtain ⟨ho, ha⟩ := hg
  have e : ∀ o, w.getObj o = u.getObj o := h.obj
  refine ⟨?_, ?_⟩
  · cases op <;> simp only [Ordinary, Untied, e, h.refs, h.nextO] at ho ⊢ <;> first | exact ho | (simp only [Allowed] at ha)
  · cases op <;> simp only [Allowed, isVault, isSetObj, e, h.refs] at ha ⊢ <;> exact ha

end MVault.W
