import Verif.WorldDeep9
import Verif.WorldFrame
/-
Careful histories: every operation of the library is defined in them, and the sets stay in step with their vaults.
-/
set_option linter.unusedSectionVars false
set_option linter.unusedSimpArgs false
namespace MVault.W
variable {K V Ty : Type} [LinearOrder K] [LinearOrder V] [Typed V Ty] [DecidableEq Ty]
variable {own home : Nat → Nat}

/-- Operations a careful user calls: on live objects and existing reference variables only; data are written only through
null references and references that a live vault gave out; unique keys are added to a non-empty vault only with a function of
the record. The functions of sets that take records out one by one or combine two sets, and moves of sets that have a vault,
are avoided: see the refuted properties for what they break. (Vaults may be moved when nobody else uses them: see `Ordinary`.) -/
def Allowed (w : World K V Ty) : Op K V Ty → Prop
  | .newVault | .newSet | .newRef => True
  | .destroyVault o => isVault w o = true
  | .destroySet s => isSetObj w s = true
  | .refCopy f g | .refMove f g => f < w.refs.length ∧ g < w.refs.length
  | .refReset f => f < w.refs.length
  | .refSetData f _ _ => ∃ ref, w.refs[f]? = some ref ∧ (ref.ptr = none ∨ ∃ o, ref.vlt = some o ∧ isVault w o = true)
  | .refSetDataMany f _ => ∃ ref o, w.refs[f]? = some ref ∧ ref.vlt = some o ∧ isVault w o = true
  | .addKey o _ _ | .updateKey o _ _ | .removeKey o _ | .createRow o _ | .eraseKV o _ _ | .eraseManyKV o _ _ _ | .dropData o | .dropVault o
  | .getRecords o _ _ _ => isVault w o = true
  | .addUniqueKey o _ _ noFn f => isVault w o = true ∧ (RecordOnly f ∨ noFn = true ∨ ∀ vo, w.getObj o = some vo → vo.recs = [])
  | .createRecord o f _ | .eraseRef o f | .getRecord o _ _ f => isVault w o = true ∧ f < w.refs.length
  | .getSorted o _ _ _ => isVault w o = true ∨ isSetObj w o = true
  | .request o _ _ _ _ _ _ _ _ s => (isVault w o = true ∨ isSetObj w o = true) ∧ isSetObj w s = true
  | .requestTree o q s => (isVault w o = true ∨ isSetObj w o = true) ∧ isSetObj w s = true ∧ q.wellTyped
  | .setAddRecord s f | .setGetRecord s _ _ f => isSetObj w s = true ∧ f < w.refs.length
  | .setClear s | .setReset s | .setGetRecords s _ _ _ => isSetObj w s = true
  | .setCopyNew a => isSetObj w a = true
  | .setAssign s a => isSetObj w s = true ∧ isSetObj w a = true
  | .setMoveAssign s a => isSetObj w s = true ∧ isSetObj w a = true ∧ (s = a ∨ ∀ ao, w.getObj a = some ao → ao.parent = none)
  | .vaultCopyNew a | .vaultMoveNew a => isVault w a = true
  | .vaultAssign o a | .vaultMoveAssign o a => isVault w o = true ∧ isVault w a = true
  | .setRemoveRef _ _ | .setRemoveKV _ _ _ | .setRemoveManyKV _ _ _ _ | .setJoin _ _ | .setExclude _ _ | .setIntersect _ _ | .setUnion _ _ _
  | .setIntersection _ _ _ | .setMoveNew _ => False

/-- Careful use. -/
def Careful (home : Nat → Nat) (w : World K V Ty) (op : Op K V Ty) : Prop := Ordinary home w op ∧ Allowed w op

theorem get_ref {w : World K V Ty} {f : Nat} (h : f < w.refs.length) : ∃ ref, w.refs[f]? = some ref := ⟨_, List.getElem?_eq_getElem h⟩

theorem liveObj {w : World K V Ty} {o : Nat} (h : isVault w o = true ∨ isSetObj w o = true) : ∃ oo, w.getObj o = some oo := by
  rcases h with h | h
  · obtain ⟨vo, h, _⟩ := isVault_iff.mp h; exact ⟨vo, h⟩
  · obtain ⟨vo, h, _⟩ := isSetObj_iff.mp h; exact ⟨vo, h⟩

theorem fst_map {A : Type} {x : Option (World K V Ty × A)} (h : ∃ w' a, x = some (w', a) ∧ Deep w') : ∃ w', x.map (·.1) = some w' ∧ Deep w' := by
  obtain ⟨w', a, h, d⟩ := h; exact ⟨w', by rw [h]; rfl, d⟩

theorem fst_map' {A : Type} {w : World K V Ty} {x : Option (World K V Ty × A)} (hd : Deep w) (h : ∃ w' a, x = some (w', a) ∧ RF w w') :
    ∃ w', x.map (·.1) = some w' ∧ Deep w' := by
  obtain ⟨w', a, h, d⟩ := h; exact ⟨w', by rw [h]; rfl, hd.rf d⟩

theorem step_deep {env : Env} {w : World K V Ty} {op : Op K V Ty} (hi : Inv own home w) (hd : Deep w) (hg : Careful home w op) :
    ∃ w', step env w op = some w' ∧ Deep w' := by
  obtain ⟨ho, ha⟩ := hg
  cases op <;> simp only [Allowed] at ha <;> simp only [step]
  case newVault => exact ⟨_, rfl, hd.newObj hi (.inl rfl)⟩
  case newSet => exact ⟨_, rfl, hd.newObj hi (.inr rfl)⟩
  case newRef => exact ⟨_, rfl, hd.rf (newRef_ok hi.r).rf⟩
  case destroyVault o =>
    obtain ⟨vo, h1, h2⟩ := isVault_iff.mp ha
    rw [onVault, if_pos ha]; exact destroyVault_deep hi hd h1 h2
  case destroySet s =>
    obtain ⟨vo, h1, h2⟩ := isSetObj_iff.mp ha
    rw [onSet, if_pos ha]; exact destroySet_deep hi hd h1 h2
  case refCopy f g =>
    obtain ⟨a, ha'⟩ := get_ref ha.1
    obtain ⟨b, hb⟩ := get_ref ha.2
    obtain ⟨w1, e, st, _⟩ := refCopy_ok hi.r ha' hb
    exact ⟨w1, e, hd.rf st.rf⟩
  case refMove f g =>
    obtain ⟨a, ha'⟩ := get_ref ha.1
    obtain ⟨b, hb⟩ := get_ref ha.2
    obtain ⟨w1, e, st, _⟩ := refMove_ok hi.r ha' hb
    exact ⟨w1, e, hd.rf st.rf⟩
  case refReset f =>
    obtain ⟨a, ha'⟩ := get_ref ha
    obtain ⟨w1, e, st, _⟩ := refReset_ok hi.r ha'
    exact ⟨w1, e, hd.rf st.rf⟩
  case refSetData f k v =>
    obtain ⟨ref, h1, h2⟩ := ha
    refine fst_map (refSetData_deep hi hd ⟨ref, h1, ?_⟩)
    rcases h2 with h2 | ⟨o, h2, h3⟩
    · exact .inl h2
    · obtain ⟨vo, h4, h5⟩ := isVault_iff.mp h3
      exact .inr ⟨o, vo, h2, h4, h5⟩
  case refSetDataMany f ps =>
    obtain ⟨ref, o, h1, h2, h3⟩ := ha
    obtain ⟨vo, h4, h5⟩ := isVault_iff.mp h3
    exact fst_map (refSetDataMany_deep hi hd h1 h2 h4 h5)
  case addKey o k d =>
    obtain ⟨vo, h1, h2⟩ := isVault_iff.mp ha
    rw [onVault, if_pos ha]; exact fst_map (addKey_deep hi hd h1 h2)
  case addUniqueKey o k t n f =>
    obtain ⟨vo, h1, h2⟩ := isVault_iff.mp ha.1
    rw [onVault, if_pos ha.1]
    refine fst_map (addUniqueKey_deep hi hd h1 h2 ?_)
    rcases ha.2 with h | h | h
    · exact .inl h
    · exact .inr (.inl h)
    · exact .inr (.inr (h vo h1))
  case updateKey o k d =>
    obtain ⟨vo, h1, h2⟩ := isVault_iff.mp ha
    rw [onVault, if_pos ha]; exact fst_map (updateKey_deep hd h1 h2)
  case removeKey o k =>
    obtain ⟨vo, h1, h2⟩ := isVault_iff.mp ha
    rw [onVault, if_pos ha]; exact fst_map (removeKey_deep hi hd h1 h2)
  case createRecord o f ps =>
    obtain ⟨vo, h1, h2⟩ := isVault_iff.mp ha.1
    obtain ⟨b, hb⟩ := get_ref ha.2
    rw [onVault, if_pos ha.1]; exact fst_map (createRecord_deep hi hd h1 h2 hb)
  case createRow o ps =>
    obtain ⟨vo, h1, h2⟩ := isVault_iff.mp ha
    rw [onVault, if_pos ha]; exact fst_map (createRow_deep hi hd h1 h2)
  case eraseRef o f =>
    obtain ⟨vo, h1, h2⟩ := isVault_iff.mp ha.1
    obtain ⟨b, hb⟩ := get_ref ha.2
    rw [onVault, if_pos ha.1]; exact fst_map (eraseRef_deep hi hd h1 h2 hb)
  case eraseKV o k v =>
    obtain ⟨vo, h1, h2⟩ := isVault_iff.mp ha
    rw [onVault, if_pos ha]; exact fst_map (eraseKV_deep hi hd h1 h2)
  case eraseManyKV o k v n =>
    obtain ⟨vo, h1, h2⟩ := isVault_iff.mp ha
    rw [onVault, if_pos ha]; exact fst_map (eraseManyKV_deep hi hd h1 h2)
  case dropData o =>
    obtain ⟨vo, h1, h2⟩ := isVault_iff.mp ha
    rw [onVault, if_pos ha]; exact dropData_deep hi hd h1 h2
  case dropVault o =>
    obtain ⟨vo, h1, h2⟩ := isVault_iff.mp ha
    rw [onVault, if_pos ha]; exact dropVault_deep hi hd h1 h2
  case getRecord o k v f =>
    obtain ⟨vo, h1, h2⟩ := isVault_iff.mp ha.1
    obtain ⟨b, hb⟩ := get_ref ha.2
    rw [onVault, if_pos ha.1]
    obtain ⟨w', res, e, rf, _⟩ := getRecord_deep (env := env) (k := k) (v := v) hi hd h1 hb
    exact fst_map' hd ⟨w', res, e, rf⟩
  case getRecords o k v n =>
    obtain ⟨vo, h1, h2⟩ := isVault_iff.mp ha
    rw [onVault, if_pos ha]; exact fst_map' hd (getRecords_deep hi hd h1)
  case getSorted o k rev n =>
    obtain ⟨vo, h1⟩ := liveObj ha
    obtain ⟨w', e, rf⟩ := getSorted_deep (k := k) (rev := rev) (n := n) hi hd h1
    exact ⟨w', e, hd.rf rf⟩
  case request o t k a b ia ib n pred s =>
    obtain ⟨oo, h1⟩ := liveObj ha.1
    obtain ⟨so, h2, h3⟩ := isSetObj_iff.mp ha.2
    rw [onSet, if_pos ha.2]
    obtain ⟨w', res, e, d, _⟩ := request_deep (env := env) (t := t) (k := k) (a := a) (b := b) (ia := ia) (ib := ib) (n := n) (pred := pred) hi hd h1 h2 h3
      (fun p hp => ho oo p h1 hp)
    exact fst_map ⟨w', res, e, d⟩
  case requestTree o q s =>
    obtain ⟨oo, h1⟩ := liveObj ha.1
    obtain ⟨so, h2, h3⟩ := isSetObj_iff.mp ha.2.1
    rw [onSet, if_pos ha.2.1]
    obtain ⟨w', res, e, d, _⟩ := requestTree_deep (env := env) hi hd h1 h2 h3 (fun p hp => ho oo p h1 hp) ha.2.2
    exact fst_map ⟨w', res, e, d⟩
  case setAddRecord s f =>
    obtain ⟨so, h1, h2⟩ := isSetObj_iff.mp ha.1
    obtain ⟨b, hb⟩ := get_ref ha.2
    rw [onSet, if_pos ha.1]; exact fst_map (setAddRecord_deep hi hd h1 h2 hb)
  case setClear s =>
    obtain ⟨so, h1, h2⟩ := isSetObj_iff.mp ha
    rw [onSet, if_pos ha]
    obtain ⟨w', e, _, d, _⟩ := setClear_deep (env := env) hd ⟨hi.s, hi.l⟩ h1 h2
    exact ⟨w', e, d⟩
  case setReset s =>
    obtain ⟨so, h1, h2⟩ := isSetObj_iff.mp ha
    rw [onSet, if_pos ha]
    obtain ⟨w', _, e, _, d, _⟩ := setReset_deep (env := env) hd ⟨hi.s, hi.l⟩ h1 h2
    exact ⟨w', e, d⟩
  case setGetRecord s k v f =>
    obtain ⟨so, h1, h2⟩ := isSetObj_iff.mp ha.1
    obtain ⟨b, hb⟩ := get_ref ha.2
    rw [onSet, if_pos ha.1]; exact fst_map' hd (setGetRecord_deep hi hd h1 hb)
  case setGetRecords s k v n =>
    obtain ⟨so, h1, h2⟩ := isSetObj_iff.mp ha
    rw [onSet, if_pos ha]; exact fst_map' hd (setGetRecords_deep hi hd h1 h2)
  case setCopyNew a =>
    obtain ⟨so, h1, h2⟩ := isSetObj_iff.mp ha
    rw [onSet, if_pos ha]; exact setCopyNew_deep hi hd h1 h2 (by rw [ho so h1]; simp)
  case setAssign s a =>
    obtain ⟨so, h1, h2⟩ := isSetObj_iff.mp ha.1
    obtain ⟨ao, h3, h4⟩ := isSetObj_iff.mp ha.2
    rw [onSet, if_pos ha.1, onSet, if_pos ha.2]; exact setAssign_deep hi hd h1 h2 h3 h4
  case setMoveAssign s a =>
    obtain ⟨so, h1, h2⟩ := isSetObj_iff.mp ha.1
    obtain ⟨ao, h3, h4⟩ := isSetObj_iff.mp ha.2.1
    rw [onSet, if_pos ha.1, onSet, if_pos ha.2.1]
    simp only [setMoveAssign, h1, h3, Option.bind_eq_bind, Option.bind_some]
    by_cases hsa : s = a
    · rw [if_pos hsa]; exact ⟨w, rfl, hd⟩
    · rw [if_neg hsa, if_pos (ha.2.2.resolve_left hsa ao h3)]
      obtain ⟨w', _, e, _, d, _⟩ := setReset_deep (env := env) hd ⟨hi.s, hi.l⟩ h1 h2
      exact ⟨w', e, d⟩
  case vaultCopyNew a =>
    obtain ⟨vo, h1, h2⟩ := isVault_iff.mp ha
    rw [onVault, if_pos ha]; exact vaultCopyNew_deep hi hd h1 h2 (ho vo h1)
  case vaultAssign o a =>
    obtain ⟨vo, h1, h2⟩ := isVault_iff.mp ha.1
    obtain ⟨ao, h3, h4⟩ := isVault_iff.mp ha.2
    rw [onVault, if_pos ha.1, onVault, if_pos ha.2]
    rcases ho with rfl | ho
    · exact ⟨w, by simp only [vaultAssign, if_true], hd⟩
    · exact vaultAssign_deep hi hd h1 h2 h3 h4 (ho ao h3)
  case vaultMoveNew a =>
    obtain ⟨vo, h1, h2⟩ := isVault_iff.mp ha
    rw [onVault, if_pos ha]
    obtain ⟨w', e, d, _⟩ := vaultMoveNew_deep hi hd h1 h2 ho
    exact ⟨w', e, d⟩
  case vaultMoveAssign o a =>
    obtain ⟨vo, h1, h2⟩ := isVault_iff.mp ha.1
    obtain ⟨ao, h3, h4⟩ := isVault_iff.mp ha.2
    rw [onVault, if_pos ha.1, onVault, if_pos ha.2]
    by_cases hoa : o = a
    · exact ⟨w, by simp only [vaultMoveAssign, hoa, if_true], hd⟩
    · obtain ⟨w', e, d, _⟩ := vaultMoveAssign_deep (env := env) hi hd h1 h2 h3 h4 hoa (ho.resolve_left hoa)
      exact ⟨w', e, d⟩

theorem Careful.ordinary {w : World K V Ty} (h : HReach Careful home w) : HReach Ordinary home w := by
  induction h with
  | init => exact .init
  | step w w' env op _ hg hs ih => exact .step w w' env op ih hg.1 hs
  | reuse w s p _ hu ih => exact .reuse w s p ih hu

theorem reach_deep {w : World K V Ty} (h : HReach Careful home w) : ∃ own, Inv own home w ∧ Deep w := by
  induction h with
  | init => exact ⟨fun _ => 0, Inv.empty _ _, .empty⟩
  | step w w' env op _ hg hs ih =>
    obtain ⟨own, hi, hd⟩ := ih
    obtain ⟨own', hi'⟩ := step_inv hi hg.1 hs
    obtain ⟨w2, e, d⟩ := step_deep (env := env) hi hd hg
    rw [hs] at e; cases e
    exact ⟨own', hi', d⟩
  | reuse w s p _ hu ih =>
    obtain ⟨own, hi, hd⟩ := ih
    exact ⟨own, hi.rehome hu p, hd⟩

/-! ### Concrete careful histories -/

/-- Executable form of `Allowed` (`addUniqueKey` only for empty vaults or without function). -/
def allowedB (w : World K V Ty) : Op K V Ty → Bool
  | .newVault | .newSet | .newRef => true
  | .destroyVault o => isVault w o
  | .destroySet s => isSetObj w s
  | .refCopy f g | .refMove f g => decide (f < w.refs.length) && decide (g < w.refs.length)
  | .refReset f => decide (f < w.refs.length)
  | .refSetData f _ _ => match w.refs[f]? with
    | some ref => (match ref.ptr, ref.vlt with | none, _ => true | _, some o => isVault w o | _, none => false)
    | none => false
  | .refSetDataMany f _ => match w.refs[f]? with
    | some ref => (match ref.vlt with | some o => isVault w o | none => false)
    | none => false
  | .addKey o _ _ | .updateKey o _ _ | .removeKey o _ | .createRow o _ | .eraseKV o _ _ | .eraseManyKV o _ _ _ | .dropData o | .dropVault o
  | .getRecords o _ _ _ => isVault w o
  | .addUniqueKey o _ _ noFn _ => isVault w o && (noFn || match w.getObj o with | some vo => decide (vo.recs = []) | none => true)
  | .createRecord o f _ | .eraseRef o f | .getRecord o _ _ f => isVault w o && decide (f < w.refs.length)
  | .getSorted o _ _ _ => isVault w o || isSetObj w o
  | .request o _ _ _ _ _ _ _ _ s => (isVault w o || isSetObj w o) && isSetObj w s
  | .setAddRecord s f | .setGetRecord s _ _ f => isSetObj w s && decide (f < w.refs.length)
  | .setClear s | .setReset s | .setGetRecords s _ _ _ => isSetObj w s
  | .setCopyNew a => isSetObj w a
  | .setAssign s a => isSetObj w s && isSetObj w a
  | .vaultCopyNew a | .vaultMoveNew a => isVault w a
  | .vaultAssign o a | .vaultMoveAssign o a => isVault w o && isVault w a
  | _ => false

theorem allowedB_sound {w : World K V Ty} {op : Op K V Ty} (h : allowedB w op = true) : Allowed w op := by
  cases op <;> simp only [Allowed] <;> simp only [allowedB] at h <;> try first | trivial | exact h | (simpa using h) | cases h
  case refSetData =>
    split at h
    · rename_i ref hf
      refine ⟨ref, hf, ?_⟩
      cases hp : ref.ptr with
      | none => exact .inl rfl
      | some r =>
        cases hv : ref.vlt with
        | none => rw [hp, hv] at h; cases h
        | some o => rw [hp, hv] at h; exact .inr ⟨o, rfl, h⟩
    · cases h
  case refSetDataMany =>
    split at h
    · rename_i ref hf
      split at h
      · rename_i o ho; exact ⟨ref, o, hf, ho, h⟩
      · cases h
    · cases h
  case addUniqueKey =>
    obtain ⟨h1, h2⟩ := Bool.and_eq_true _ _ ▸ h
    refine ⟨h1, .inr ?_⟩
    rcases Bool.or_eq_true _ _ ▸ h2 with h2 | h2
    · exact .inl h2
    · refine .inr fun vo hvo => ?_
      rw [hvo] at h2; simpa using h2

/-- A history of careful operations; `none` when an operation is not careful or undefined. -/
def runC (home : Nat → Nat) (w : World K V Ty) : List (Env × Op K V Ty) → Option (World K V Ty)
  | [] => some w
  | (env, op) :: l => if ordinaryB home w op = true ∧ allowedB w op = true then (step env w op).bind (fun w' => runC home w' l) else none

theorem runC_reach {home : Nat → Nat} (l : List (Env × Op K V Ty)) : ∀ {w w' : World K V Ty}, HReach Careful home w →
    runC home w l = some w' → HReach Careful home w' := by
  induction l with
  | nil => intro w w' hw h; simp only [runC, Option.some.injEq] at h; exact h ▸ hw
  | cons p l ih =>
    obtain ⟨env, op⟩ := p
    intro w w' hw h
    simp only [runC] at h
    split at h
    · rename_i hg
      obtain ⟨w1, h1, h2⟩ := Option.bind_eq_some_iff.mp h
      exact ih (.step w w1 env op hw ⟨ordinaryB_sound hg.1, allowedB_sound hg.2⟩ h1) h2
    · cases h

/-- The world after a history of careful operations with one vault (object 0). -/
def carefulRun (l : List DO) : Option DW := runC (fun _ => 0) World.empty (l.map (Env.id, ·))

theorem carefulRun_reach {l : List DO} {w : DW} (h : carefulRun l = some w) : HReach Careful (fun _ => 0) w := runC_reach _ .init h

end MVault.W
