import Verif.WorldFrame
/-
What every operation answers.
-/
set_option linter.unusedSectionVars false
set_option linter.unusedSimpArgs false
namespace MVault.W
variable {K V Ty : Type} [LinearOrder K] [LinearOrder V] [Typed V Ty] [DecidableEq Ty]

/-- Return types of the public functions: `VaultOperationResult`, `bool`, or nothing that tells success from failure
(Vault.h, VaultRecordRef.h, VaultRecordSet.h). -/
inductive Answer (K : Type)
  | res (r : Res K)
  | flag (b : Bool)
  | unit

/-- The operation with what it returns. Same cases as `step` (WorldOps.lean), see there for the modelled lines. -/
def outcome (env : Env) (w : World K V Ty) : Op K V Ty → Option (World K V Ty × Answer K)
  | .newVault => some (newVault w, .unit)
  | .newSet => some (newSet w, .unit)
  | .newRef => some (newRef w, .unit)
  | .destroyVault o => (onVault w o (destroyVault env w o)).map (·, .unit)
  | .destroySet s => (onSet w s (destroySet env w s)).map (·, .unit)
  | .refCopy f g => (refCopy w f g).map (·, .unit)
  | .refMove f g => (refMove w f g).map (·, .unit)
  | .refReset f => (refReset w f).map (·, .unit)
  | .refSetData f k v => (refSetData env w f k v).map fun x => (x.1, .res x.2)
  | .refSetDataMany f ps => (refSetDataMany env w f ps).map fun x => (x.1, .res x.2)
  | .addKey o k d => onVault w o ((addKey env w o k d).map fun x => (x.1, .res x.2))
  | .addUniqueKey o k t noFn f => onVault w o ((addUniqueKey env w o k t noFn f).map fun x => (x.1, .res x.2))
  | .updateKey o k d => onVault w o ((updateKey w o k d).map fun x => (x.1, .res x.2))
  | .removeKey o k => onVault w o ((removeKey env w o k).map fun x => (x.1, .flag x.2))
  | .createRecord o f ps => onVault w o ((createRecord w o f ps).map fun x => (x.1, .res x.2))
  | .createRow o ps => onVault w o ((createRow w o ps).map fun x => (x.1, .res x.2))
  | .eraseRef o f => onVault w o ((eraseRef env w o f).map fun x => (x.1, .flag x.2))
  | .eraseKV o k v => onVault w o ((eraseKV env w o k v).map fun x => (x.1, .res x.2))
  | .eraseManyKV o k v n => onVault w o ((eraseManyKV env w o k v n).map fun x => (x.1, .res x.2))
  | .dropData o => (onVault w o (dropData env w o)).map (·, .unit)
  | .dropVault o => (onVault w o (dropVault env w o)).map (·, .unit)
  | .getRecord o k v f => onVault w o ((getRecord env w o k v f).map fun x => (x.1, .res x.2))
  | .getRecords o k v n => onVault w o ((getRecords env w o k v n).map fun x => (x.1, .res x.2))
  | .getSorted o k rev n => (getSorted w o k rev n).map (·, .unit)
  | .request o t k a b ia ib n pred s => onSet w s ((request env w o t k a b ia ib n pred s).map fun x => (x.1, .res x.2))
  | .requestTree o q s => onSet w s ((requestTree env w o q s).map fun x => (x.1, .res x.2))
  | .setAddRecord s f => onSet w s ((setAddRecord w s f).map fun x => (x.1, .res x.2))
  | .setRemoveRef s f => onSet w s ((setRemoveRef env w s f).map fun x => (x.1, .flag x.2))
  | .setRemoveKV s k v => onSet w s ((setRemoveKV env w s k v).map fun x => (x.1, .res x.2))
  | .setRemoveManyKV s k v n => onSet w s ((setRemoveManyKV env w s k v n).map fun x => (x.1, .res x.2))
  | .setClear s => (onSet w s (setClear env w s)).map (·, .unit)
  | .setReset s => (onSet w s (setReset env w s)).map (·, .unit)
  | .setGetRecord s k v f => onSet w s ((setGetRecord env w s k v f).map fun x => (x.1, .res x.2))
  | .setGetRecords s k v n => onSet w s ((setGetRecords env w s k v n).map fun x => (x.1, .res x.2))
  | .setJoin s a => onSet w s (onSet w a ((setJoin env w s a).map fun x => (x.1, .res x.2)))
  | .setExclude s a => onSet w s (onSet w a ((setExclude env w s a).map fun x => (x.1, .res x.2)))
  | .setIntersect s a => onSet w s (onSet w a ((setIntersect env w s a).map fun x => (x.1, .res x.2)))
  | .setUnion a b s => onSet w s (onSet w a (onSet w b ((setUnion env w a b s).map fun x => (x.1, .res x.2))))
  | .setIntersection a b s => onSet w s (onSet w a (onSet w b ((setIntersection env w a b s).map fun x => (x.1, .res x.2))))
  | .setCopyNew a => (onSet w a (setCopyNew env w a)).map (·, .unit)
  | .setAssign s a => (onSet w s (onSet w a (setAssign env w s a))).map (·, .unit)
  | .setMoveNew a => (onSet w a (setMoveNew env w a)).map (·, .unit)
  | .setMoveAssign s a => (onSet w s (onSet w a (setMoveAssign env w s a))).map (·, .unit)
  | .vaultCopyNew a => (onVault w a (vaultCopyNew env w a)).map (·, .unit)
  | .vaultAssign o a => (onVault w o (onVault w a (vaultAssign env w o a))).map (·, .unit)
  | .vaultMoveNew a => (onVault w a (vaultMoveNew w a)).map (·, .unit)
  | .vaultMoveAssign o a => (onVault w o (onVault w a (vaultMoveAssign env w o a))).map (·, .unit)

theorem onVault_map {A B : Type} (w : World K V Ty) (o : Nat) (x : Option A) (f : A → B) : (onVault w o x).map f = onVault w o (x.map f) := by
  unfold onVault; split <;> rfl

theorem onSet_map {A B : Type} (w : World K V Ty) (o : Nat) (x : Option A) (f : A → B) : (onSet w o x).map f = onSet w o (x.map f) := by
  unfold onSet; split <;> rfl

/-- `outcome` is `step` with the answer. -/
theorem outcome_step (env : Env) (w : World K V Ty) (op : Op K V Ty) : (outcome env w op).map (·.1) = step env w op := by
  cases op <;> simp only [outcome, step, onVault_map, onSet_map, Option.map_map, Function.comp_def, Option.map_some, Option.map_id', id]

/-! ### Success and its code -/

/-- Success flag and code agree. Specification, models no code. VaultOperationResult.h lines 45-52. -/
def Res.agree (r : Res K) : Prop := r.ok = true ↔ r.code = .Success

theorem agree_good (k : Option K) : (Res.good k).agree := by simp [Res.agree, Res.good]
theorem agree_bad {c : Code} (h : c ≠ .Success) (k : Option K) : (Res.bad c k).agree := by simp [Res.agree, Res.bad, h]

theorem checkKey_agree {vo : Obj K V Ty} {k : K} {t : Ty} {e : Res K} (h : checkKey vo k t = .error e) : e.agree ∧ e.ok = false := by
  unfold checkKey at h
  split at h
  · cases h; exact ⟨agree_bad (by decide) _, rfl⟩
  · split at h
    · cases h; exact ⟨agree_bad (by decide) _, rfl⟩
    · cases h

theorem requestSet_agree {env : Env} {vo : Obj K V Ty} {t : ReqType} {k : K} {a b : V} {ia ib : Bool} {n : Option Nat} {pred : Nat → Bool}
    {acc : List Nat} {e : Res K} (h : requestSet env vo t k a b ia ib n pred acc = some (.error e)) : e.agree ∧ e.ok = false := by
  unfold requestSet at h
  split at h
  · rename_i hc; cases h; exact checkKey_agree hc
  · simp only [Option.map_eq_some_iff] at h; obtain ⟨_, _, h⟩ := h; cases h

theorem evalReq_agree {env : Env} {vo : Obj K V Ty} (q : Req K V) : ∀ {e : Res K}, evalReq env vo q = some (.error e) → e.agree ∧ e.ok = false := by
  have hand : ∀ (x y : Option (Except (Res K) (List Nat))), (∀ e, x = some (.error e) → e.agree ∧ e.ok = false) →
      (∀ e, y = some (.error e) → e.agree ∧ e.ok = false) → ∀ (g : List Nat → List Nat → List Nat) (e : Res K),
      (x.bind fun ra => (match ra with
        | .error e => some (.error e)
        | .ok la => y.bind fun rb => match rb with
          | .error e => some (.error e)
          | .ok lb => some (.ok (g la lb)) : Option (Except (Res K) (List Nat)))) = some (.error e) → e.agree ∧ e.ok = false := by
    intro x y hx hy g e h
    simp only [Option.bind_eq_some_iff] at h
    obtain ⟨ra, h1, h⟩ := h
    cases ra with
    | error e' => cases h; exact hx _ h1
    | ok la =>
      simp only [Option.bind_eq_some_iff] at h
      obtain ⟨rb, h2, h⟩ := h
      cases rb with
      | error e' => cases h; exact hy _ h2
      | ok lb => cases h
  induction q with
  | leaf t k v pred => intro e h; exact requestSet_agree h
  | or a b iha ihb =>
    intro e h
    simp only [evalReq] at h
    exact hand (evalReq env vo a) (evalReq env vo b) (fun _ => iha) (fun _ => ihb) (fun la lb => (la ++ lb).foldl setIns []) e h
  | and a b iha ihb =>
    intro e h
    by_cases hl : ∃ t1 k1 v1 p1 t2 k2 v2 p2, a = .leaf t1 k1 v1 p1 ∧ b = .leaf t2 k2 v2 p2
    · obtain ⟨t1, k1, v1, p1, t2, k2, v2, p2, rfl, rfl⟩ := hl
      simp only [evalReq] at h
      split at h
      · split at h
        · cases h
        · exact requestSet_agree h
      · exact hand _ _ (fun _ h => requestSet_agree h) (fun _ h => requestSet_agree h) (fun la lb => la.filter (· ∈ lb)) e h
    · have : evalReq env vo (.and a b) = (evalReq env vo a).bind fun ra => (match ra with
        | .error e => some (.error e)
        | .ok la => (evalReq env vo b).bind fun rb => match rb with
          | .error e => some (.error e)
          | .ok lb => some (.ok (la.filter (· ∈ lb))) : Option (Except (Res K) (List Nat))) := by
        rw [evalReq]
        · rfl
        · intro t1 k1 v1 p1 t2 k2 v2 p2 ha hb; exact hl ⟨_, _, _, _, _, _, _, _, ha, hb⟩
      rw [this] at h
      exact hand (evalReq env vo a) (evalReq env vo b) (fun _ => iha) (fun _ => ihb) (fun la lb => la.filter (· ∈ lb)) e h

/-! ### One operation at a time: the answer agrees, and a failure changes nothing -/

/-- The answer agrees, and a failure changes nothing. Specification, models no code. -/
def Fair (w w' : World K V Ty) (r : Res K) : Prop := r.agree ∧ (r.ok = false → w' = w)

theorem fair_same {w : World K V Ty} {r : Res K} (h : r.agree) : Fair w w r := ⟨h, fun _ => rfl⟩
theorem fair_bad {w : World K V Ty} {c : Code} (h : c ≠ .Success) (k : Option K) : Fair w w (.bad c k) := fair_same (agree_bad h k)
theorem fair_good (w w' : World K V Ty) (k : Option K) : Fair w w' (.good k) := ⟨agree_good k, fun h => (by cases h)⟩

theorem fair_map_good {w w' : World K V Ty} {x : Option (World K V Ty)} {k : Option K} {r : Res K}
    (h : x.map (fun w1 => (w1, Res.good k)) = some (w', r)) : Fair w w' r := by
  simp only [Option.map_eq_some_iff, Prod.mk.injEq] at h
  obtain ⟨_, _, _, rfl⟩ := h
  exact fair_good _ _ _

theorem setDataIndex_fair {w w' : World K V Ty} {o r : Nat} {k : K} {v : V} {res : Res K} (h : setDataIndex w o r k v = some (w', res)) : Fair w w' res := by
  simp only [setDataIndex, Option.bind_eq_bind, Option.bind_eq_some_iff] at h
  obtain ⟨vo, hvo, x, hx, h⟩ := h
  split at h
  · cases h; exact fair_bad (by decide) _
  · split at h
    · cases h; exact fair_bad (by decide) _
    · split at h
      · cases h; exact fair_bad (by decide) _
      · split at h
        · cases h; exact fair_bad (by decide) _
        · cases h; exact fair_good _ _ _

theorem refSetData_fair {env : Env} {w w' : World K V Ty} {f : Nat} {k : K} {v : V} {res : Res K}
    (h : refSetData env w f k v = some (w', res)) : Fair w w' res := by
  simp only [refSetData, Option.bind_eq_bind, Option.bind_eq_some_iff] at h
  obtain ⟨ref, hf, h⟩ := h
  split at h
  · cases h; exact fair_bad (by decide) _
  · simp only [Option.bind_eq_some_iff] at h
    obtain ⟨o, _, oo, hoo, x, hx, h⟩ := h
    split at h
    · cases h; exact fair_bad (by decide) _
    · simp only [setDataToRecord, Option.bind_eq_bind, Option.bind_eq_some_iff, Prod.exists] at h
      obtain ⟨vo, hvo, w1, r1, h1, h⟩ := h
      obtain ⟨a, b⟩ := setDataIndex_fair h1
      split at h
      · rename_i hf; cases h; exact ⟨a, b⟩
      · rename_i hf
        split at h
        · simp only [Option.bind_eq_some_iff, Option.some.injEq, Prod.mk.injEq] at h
          obtain ⟨_, _, _, _, _, rfl⟩ := h
          exact ⟨a, fun e => absurd e hf⟩
        · cases h; exact ⟨a, fun e => absurd e hf⟩

theorem refSetDataMany_agree {env : Env} {w w' : World K V Ty} {f : Nat} {ps : List (K × V)} {res : Res K}
    (h : refSetDataMany env w f ps = some (w', res)) : (ps ≠ [] → res.agree) ∧ (ps = [] → res = ⟨true, .Idle, none⟩ ∧ w' = w) := by
  simp only [refSetDataMany, Option.bind_eq_bind, Option.bind_eq_some_iff] at h
  obtain ⟨ref, _, o, _, oo, _, h⟩ := h
  have : ∀ (l : List (K × V)) (w : World K V Ty) (r0 : Res K), (l = [] → r0.agree) → refSetDataLoop env f l w r0 = some (w', res) → res.agree := by
    intro l
    induction l with
    | nil => intro w r0 h0 h; cases h; exact h0 rfl
    | cons p l ih =>
      obtain ⟨k, v⟩ := p
      intro w r0 h0 h
      simp only [refSetDataLoop, Option.bind_eq_bind, Option.bind_eq_some_iff, Prod.exists] at h
      obtain ⟨w1, r1, h1, h⟩ := h
      split at h
      · cases h; exact (refSetData_fair h1).1
      · exact ih _ _ (fun _ => (refSetData_fair h1).1) h
  constructor
  · intro hne; exact this ps w _ (fun e => absurd e hne) h
  · rintro rfl; cases h; exact ⟨rfl, rfl⟩

theorem addKeyLocal_fair {env : Env} {w w' : World K V Ty} {o : Nat} {k : K} {d : V} {res : Res K} (h : addKeyLocal env w o k d = some (w', res)) : Fair w w' res := by
  simp only [addKeyLocal, Option.bind_eq_bind, Option.bind_eq_some_iff] at h
  obtain ⟨vo, hvo, h⟩ := h
  split at h
  · cases h; exact fair_bad (by decide) _
  · simp only [Option.bind_eq_some_iff] at h; obtain ⟨_, _, h⟩ := h; cases h; exact fair_good _ _ _

theorem addKey_fair {env : Env} {w w' : World K V Ty} {o : Nat} {k : K} {d : V} {res : Res K} (h : addKey env w o k d = some (w', res)) : Fair w w' res := by
  simp only [addKey, Option.bind_eq_bind, Option.bind_eq_some_iff, Prod.exists] at h
  obtain ⟨vo, hvo, w1, r1, h1, h⟩ := h
  obtain ⟨a, b⟩ := addKeyLocal_fair h1
  split at h
  · cases h; exact ⟨a, b⟩
  · rename_i hf
    simp only [Option.bind_eq_some_iff] at h; obtain ⟨_, _, h⟩ := h; cases h; exact ⟨a, fun e => absurd e hf⟩

theorem addUniqueLocal_fair {env : Env} {w w' : World K V Ty} {o : Nat} {k : K} {t : Ty} {noFn : Bool} {f : Nat → Nat → V} {res : Res K}
    (h : addUniqueLocal env w o k t noFn f = some (w', res)) : Fair w w' res := by
  simp only [addUniqueLocal, Option.bind_eq_bind, Option.bind_eq_some_iff] at h
  obtain ⟨vo, hvo, h⟩ := h
  split at h
  · cases h; exact fair_bad (by decide) _
  · split at h
    · cases h; exact fair_bad (by decide) _
    · split at h
      · cases h; exact fair_bad (by decide) _
      · split at h <;> simp only [Option.bind_eq_some_iff, Option.bind_some] at h
        · obtain ⟨_, _, h⟩ := h; cases h; exact fair_good _ _ _
        · cases h; exact fair_good _ _ _

theorem addUniqueKey_fair {env : Env} {w w' : World K V Ty} {o : Nat} {k : K} {t : Ty} {noFn : Bool} {f : Nat → Nat → Nat → V} {res : Res K}
    (h : addUniqueKey env w o k t noFn f = some (w', res)) : Fair w w' res := by
  simp only [addUniqueKey, Option.bind_eq_bind, Option.bind_eq_some_iff, Prod.exists] at h
  obtain ⟨vo, hvo, w1, r1, h1, h⟩ := h
  obtain ⟨a, b⟩ := addUniqueLocal_fair h1
  split at h
  · cases h; exact ⟨a, b⟩
  · rename_i hf
    simp only [Option.bind_eq_some_iff] at h; obtain ⟨_, _, h⟩ := h; cases h; exact ⟨a, fun e => absurd e hf⟩

theorem updateKey_fair {w w' : World K V Ty} {o : Nat} {k : K} {d : V} {res : Res K} (h : updateKey w o k d = some (w', res)) : Fair w w' res := by
  simp only [updateKey, Option.bind_eq_bind, Option.bind_eq_some_iff] at h
  obtain ⟨vo, hvo, h⟩ := h
  split at h
  · rename_i hc; cases h; exact fair_same (checkKey_agree hc).1
  · split at h
    · cases h; exact fair_bad (by decide) _
    · cases h; exact fair_good _ _ _

theorem removeKey_fair {env : Env} {w w' : World K V Ty} {o : Nat} {k : K} {b : Bool} (h : removeKey env w o k = some (w', b)) : b = false → w' = w := by
  simp only [removeKey, Option.bind_eq_bind, Option.bind_eq_some_iff] at h
  obtain ⟨vo, hvo, h⟩ := h
  split at h
  · cases h; exact fun _ => rfl
  · simp only [Option.bind_eq_some_iff] at h
    obtain ⟨_, _, _, _, h⟩ := h; cases h; exact fun e => (by cases e)

theorem createRecord_agree {w w' : World K V Ty} {o f : Nat} {ps : List (K × V)} {res : Res K} (h : createRecord w o f ps = some (w', res)) : res.agree := by
  simp only [createRecord, Option.bind_eq_bind, Option.bind_eq_some_iff] at h
  obtain ⟨vo, hvo, h⟩ := h
  split at h
  · rename_i e he
    cases h
    have : ∀ (l d : List (K × V)) (e : Res K), applyParams vo l d = .error e → e.agree := by
      intro l; induction l with
      | nil => intro d e h; cases h
      | cons p l ih =>
        intro d e h
        simp only [applyParams] at h
        split at h
        · cases h; exact agree_bad (by decide) _
        · split at h
          · exact ih _ _ h
          · cases h; exact agree_bad (by decide) _
    exact this _ _ _ he
  · simp only [Option.bind_eq_some_iff, Prod.exists] at h
    obtain ⟨w1, out, h1, h⟩ := h
    split at h
    · cases h; exact agree_bad (by decide) _
    · exact (fair_map_good (w := w) h).1

theorem createRow_agree {w w' : World K V Ty} {o : Nat} {ps : List (K × V)} {res : Res K} (h : createRow w o ps = some (w', res)) : res.agree := by
  simp only [createRow, Option.bind_eq_bind, Option.bind_eq_some_iff] at h
  obtain ⟨vo, hvo, h⟩ := h
  split at h
  · rename_i e he
    cases h
    have : ∀ (l d : List (K × V)) (e : Res K), applyParams vo l d = .error e → e.agree := by
      intro l; induction l with
      | nil => intro d e h; cases h
      | cons p l ih =>
        intro d e h
        simp only [applyParams] at h
        split at h
        · cases h; exact agree_bad (by decide) _
        · split at h
          · exact ih _ _ h
          · cases h; exact agree_bad (by decide) _
    exact this _ _ _ he
  · simp only [Option.bind_eq_some_iff, Prod.exists] at h
    obtain ⟨w1, out, h1, h⟩ := h
    split at h
    · cases h; exact agree_bad (by decide) _
    · cases h; exact agree_good _

theorem eraseRef_fair {env : Env} {w w' : World K V Ty} {o f : Nat} {b : Bool} (h : eraseRef env w o f = some (w', b)) : b = false → w' = w := by
  simp only [eraseRef, Option.bind_eq_bind, Option.bind_eq_some_iff] at h
  obtain ⟨ref, hf, h⟩ := h
  split at h
  · simp only [Option.map_eq_some_iff, Prod.mk.injEq] at h
    obtain ⟨_, _, rfl, _⟩ := h; exact fun _ => rfl
  · simp only [removeRecord, Option.bind_eq_bind, Option.bind_eq_some_iff] at h
    obtain ⟨vo, hvo, h⟩ := h
    split at h
    · cases h; exact fun _ => rfl
    · simp only [Option.map_eq_some_iff, Prod.mk.injEq] at h
      obtain ⟨_, _, _, rfl⟩ := h; exact fun e => (by cases e)

theorem eraseKV_fair {env : Env} {w w' : World K V Ty} {o : Nat} {k : K} {v : V} {res : Res K} (h : eraseKV env w o k v = some (w', res)) : Fair w w' res := by
  simp only [eraseKV, Option.bind_eq_bind, Option.bind_eq_some_iff] at h
  obtain ⟨vo, hvo, h⟩ := h
  split at h
  · rename_i hc; cases h; exact fair_same (checkKey_agree hc).1
  · split at h
    · cases h; exact fair_bad (by decide) _
    · exact fair_map_good h

theorem eraseManyKV_fair {env : Env} {w w' : World K V Ty} {o n : Nat} {k : K} {v : V} {res : Res K} (h : eraseManyKV env w o k v n = some (w', res)) : Fair w w' res := by
  simp only [eraseManyKV, Option.bind_eq_bind, Option.bind_eq_some_iff] at h
  obtain ⟨vo, hvo, h⟩ := h
  split at h
  · rename_i hc; cases h; exact fair_same (checkKey_agree hc).1
  · split at h
    · cases h; exact fair_bad (by decide) _
    · exact fair_map_good h

theorem getRecord_agree {env : Env} {w w' : World K V Ty} {o f : Nat} {k : K} {v : V} {res : Res K} (h : getRecord env w o k v f = some (w', res)) : res.agree := by
  simp only [getRecord, Option.bind_eq_bind, Option.bind_eq_some_iff] at h
  obtain ⟨vo, hvo, h⟩ := h
  split at h
  · rename_i hc; cases h; exact (checkKey_agree hc).1
  · split at h
    · simp only [Option.map_eq_some_iff, Prod.mk.injEq] at h
      obtain ⟨_, _, _, rfl⟩ := h; exact agree_bad (by decide) _
    · exact (fair_map_good (w := w) h).1

theorem getRecords_fair {env : Env} {w w' : World K V Ty} {o n : Nat} {k : K} {v : V} {res : Res K} (h : getRecords env w o k v n = some (w', res)) : Fair w w' res := by
  simp only [getRecords, Option.bind_eq_bind, Option.bind_eq_some_iff] at h
  obtain ⟨vo, hvo, h⟩ := h
  split at h
  · rename_i hc; cases h; exact fair_same (checkKey_agree hc).1
  · split at h
    · cases h; exact fair_bad (by decide) _
    · exact fair_map_good h

theorem request_agree {env : Env} {w w' : World K V Ty} {o : Nat} {t : ReqType} {k : K} {a b : V} {ia ib : Bool} {n : Option Nat}
    {pred : Nat → Bool} {s : Nat} {res : Res K} (h : request env w o t k a b ia ib n pred s = some (w', res)) : res.agree := by
  simp only [request, Option.bind_eq_bind, Option.bind_eq_some_iff] at h
  obtain ⟨oo, hoo, h⟩ := h
  split at h
  · cases h; exact agree_bad (by decide) _
  · split at h
    · cases h; exact agree_bad (by decide) _
    · simp only [Option.bind_eq_some_iff] at h
      obtain ⟨w1, _, oo', _, out, h1, h⟩ := h
      split at h
      · cases h; exact (requestSet_agree h1).1
      · exact (fair_map_good (w := w) h).1

theorem requestTree_agree {env : Env} {w w' : World K V Ty} {o : Nat} {q : Req K V} {s : Nat} {res : Res K}
    (h : requestTree env w o q s = some (w', res)) : res.agree := by
  simp only [requestTree, Option.bind_eq_bind, Option.bind_eq_some_iff] at h
  obtain ⟨oo, hoo, h⟩ := h
  split at h
  · cases h; exact agree_bad (by decide) _
  · split at h
    · cases h; exact agree_bad (by decide) _
    · simp only [Option.bind_eq_some_iff] at h
      obtain ⟨w1, _, oo', _, out, h1, h⟩ := h
      split at h
      · simp only [Option.map_eq_some_iff, Prod.mk.injEq] at h
        obtain ⟨_, _, _, rfl⟩ := h; exact (evalReq_agree q h1).1
      · exact (fair_map_good (w := w) h).1

theorem setAddRecord_fair {w w' : World K V Ty} {s f : Nat} {res : Res K} (h : setAddRecord w s f = some (w', res)) : Fair w w' res := by
  simp only [setAddRecord, Option.bind_eq_bind, Option.bind_eq_some_iff] at h
  obtain ⟨so, hso, h⟩ := h
  split at h
  · cases h; exact fair_bad (by decide) _
  · simp only [Option.bind_eq_some_iff] at h
    obtain ⟨ref, hf, val, hv, h⟩ := h
    split at h
    · cases h; exact fair_bad (by decide) _
    · split at h
      · cases h; exact fair_bad (by decide) _
      · split at h
        · cases h
        · split at h
          · cases h; exact fair_bad (by decide) _
          · exact fair_map_good h

theorem setRemoveRef_fair {env : Env} {w w' : World K V Ty} {s f : Nat} {b : Bool} (h : setRemoveRef env w s f = some (w', b)) : b = false → w' = w := by
  simp only [setRemoveRef, Option.bind_eq_bind, Option.bind_eq_some_iff] at h
  obtain ⟨so, hso, h⟩ := h
  split at h
  · cases h; exact fun _ => rfl
  · exact eraseRef_fair h

theorem setRemoveKV_fair {env : Env} {w w' : World K V Ty} {s : Nat} {k : K} {v : V} {res : Res K} (h : setRemoveKV env w s k v = some (w', res)) : Fair w w' res := by
  simp only [setRemoveKV, Option.bind_eq_bind, Option.bind_eq_some_iff] at h
  obtain ⟨so, hso, h⟩ := h
  split at h
  · cases h; exact fair_bad (by decide) _
  · exact eraseKV_fair h

theorem setRemoveManyKV_fair {env : Env} {w w' : World K V Ty} {s n : Nat} {k : K} {v : V} {res : Res K} (h : setRemoveManyKV env w s k v n = some (w', res)) : Fair w w' res := by
  simp only [setRemoveManyKV, Option.bind_eq_bind, Option.bind_eq_some_iff] at h
  obtain ⟨so, hso, h⟩ := h
  split at h
  · cases h; exact fair_bad (by decide) _
  · exact eraseManyKV_fair h

theorem setGetRecord_agree {env : Env} {w w' : World K V Ty} {s f : Nat} {k : K} {v : V} {res : Res K} (h : setGetRecord env w s k v f = some (w', res)) : res.agree := by
  simp only [setGetRecord, Option.bind_eq_bind, Option.bind_eq_some_iff] at h
  obtain ⟨so, hso, h⟩ := h
  split at h
  · cases h; exact agree_bad (by decide) _
  · simp only [Option.bind_eq_some_iff, Prod.exists] at h
    obtain ⟨w1, r1, h1, _, _, h⟩ := h
    cases h; exact getRecord_agree h1

theorem setGetRecords_fair {env : Env} {w w' : World K V Ty} {s n : Nat} {k : K} {v : V} {res : Res K} (h : setGetRecords env w s k v n = some (w', res)) : Fair w w' res := by
  simp only [setGetRecords, Option.bind_eq_bind, Option.bind_eq_some_iff] at h
  obtain ⟨so, hso, h⟩ := h
  split at h
  · cases h; exact fair_bad (by decide) _
  · simp only [Option.bind_eq_some_iff] at h
    obtain ⟨_, _, h⟩ := h
    split at h
    · rename_i hc; cases h; exact fair_same (checkKey_agree hc).1
    · split at h
      · cases h; exact fair_bad (by decide) _
      · exact fair_map_good h

theorem setOpCheck_code {so ao : Obj K V Ty} {s a : Nat} {c : Code} (h : setOpCheck so ao s a = some c) : c ≠ .Success := by
  unfold setOpCheck at h
  split at h
  · cases h; decide
  · split at h
    · cases h; decide
    · split at h
      · cases h; decide
      · split at h
        · cases h; decide
        · cases h

theorem setJoin_fair {env : Env} {w w' : World K V Ty} {s a : Nat} {res : Res K} (h : setJoin env w s a = some (w', res)) : Fair w w' res := by
  simp only [setJoin, Option.bind_eq_bind, Option.bind_eq_some_iff] at h
  obtain ⟨so, hso, ao, hao, h⟩ := h
  split at h
  · rename_i hc; cases h; exact fair_bad (setOpCheck_code hc) _
  · exact fair_map_good h

theorem setExclude_fair {env : Env} {w w' : World K V Ty} {s a : Nat} {res : Res K} (h : setExclude env w s a = some (w', res)) : Fair w w' res := by
  simp only [setExclude, Option.bind_eq_bind, Option.bind_eq_some_iff] at h
  obtain ⟨so, hso, ao, hao, h⟩ := h
  split at h
  · rename_i hc; cases h; exact fair_bad (setOpCheck_code hc) _
  · exact fair_map_good h

theorem setIntersect_fair {env : Env} {w w' : World K V Ty} {s a : Nat} {res : Res K} (h : setIntersect env w s a = some (w', res)) : Fair w w' res := by
  simp only [setIntersect, Option.bind_eq_bind, Option.bind_eq_some_iff] at h
  obtain ⟨so, hso, ao, hao, h⟩ := h
  split at h
  · rename_i hc; cases h; exact fair_bad (setOpCheck_code hc) _
  · exact fair_map_good h

theorem setUnion_agree {env : Env} {w w' : World K V Ty} {a b s : Nat} {res : Res K} (h : setUnion env w a b s = some (w', res)) : res.agree := by
  simp only [setUnion, Option.bind_eq_bind, Option.bind_eq_some_iff] at h
  obtain ⟨ao, hao, bo, hbo, so, hso, h⟩ := h
  split at h
  · cases h; exact agree_bad (by decide) _
  · split at h
    · cases h; exact agree_bad (by decide) _
    · split at h
      · cases h; exact agree_bad (by decide) _
      · split at h
        · cases h; exact agree_bad (by decide) _
        · simp only [Option.bind_eq_some_iff] at h
          obtain ⟨w1, _, h⟩ := h
          exact (setJoin_fair h).1

theorem setIntersection_fair {env : Env} {w w' : World K V Ty} {a b s : Nat} {res : Res K} (h : setIntersection env w a b s = some (w', res)) : Fair w w' res := by
  simp only [setIntersection, Option.bind_eq_bind, Option.bind_eq_some_iff] at h
  obtain ⟨ao, hao, bo, hbo, so, hso, h⟩ := h
  split at h
  · cases h; exact fair_bad (by decide) _
  · split at h
    · cases h; exact fair_bad (by decide) _
    · split at h
      · cases h; exact fair_bad (by decide) _
      · split at h
        · cases h; exact fair_bad (by decide) _
        · simp only [Option.bind_eq_some_iff] at h
          obtain ⟨_, _, _, _, _, _, _, _, _, _, h⟩ := h
          exact fair_map_good h

end MVault.W
