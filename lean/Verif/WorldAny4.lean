import Verif.WorldAny3
import Verif.WorldReach
/-
Every operation keeps the facts of WorldAny.lean: the step theorem, and the invariant of all histories.
-/
set_option linter.unusedSectionVars false
set_option linter.unusedSimpArgs false
namespace MVault.W
variable {K V Ty : Type} [LinearOrder K] [LinearOrder V] [Typed V Ty] [DecidableEq Ty]

theorem setRemoveRef_st {env : Env} {w w' : World K V Ty} {s f : Nat} {b : Bool} (hi : AI w) (h : setRemoveRef env w s f = some (w', b)) (t : List Nat) : St t w w' := by
  simp only [setRemoveRef, Option.bind_eq_bind, Option.bind_eq_some_iff] at h
  obtain ⟨so, hso, h⟩ := h
  split at h
  · cases h; exact .refl hi t
  · exact eraseRef_st hi h t

theorem setRemoveKV_st {env : Env} {w w' : World K V Ty} {s : Nat} {k : K} {v : V} {b : Res K} (hi : AI w) (h : setRemoveKV env w s k v = some (w', b)) (t : List Nat) : St t w w' := by
  simp only [setRemoveKV, Option.bind_eq_bind, Option.bind_eq_some_iff] at h
  obtain ⟨so, hso, h⟩ := h
  split at h
  · cases h; exact .refl hi t
  · exact eraseKV_st hi h t

theorem setRemoveManyKV_st {env : Env} {w w' : World K V Ty} {s n : Nat} {k : K} {v : V} {b : Res K} (hi : AI w) (h : setRemoveManyKV env w s k v n = some (w', b)) (t : List Nat) : St t w w' := by
  simp only [setRemoveManyKV, Option.bind_eq_bind, Option.bind_eq_some_iff] at h
  obtain ⟨so, hso, h⟩ := h
  split at h
  · cases h; exact .refl hi t
  · exact eraseManyKV_st hi h t

theorem St.del {t : List Nat} {w w1 : World K V Ty} (st : St t w w1) {o : Nat} (ho : NotVault w o ∨ o ∈ t) : AnyStep t w { w1 with objs := mdel w1.objs o } := by
  refine ⟨st.ai.del o, st.nR, st.nO, fun o' x hx hs hn => ?_, fun o' x hx hs hn => ?_⟩
  case refine_2 =>
    have hx : mget (mdel w1.objs o) o' = some x := hx
    rw [mget_mdel] at hx
    split at hx
    · cases hx
    · exact st.before hx hs hn
  obtain ⟨y, hy, e, k⟩ := st.live o' x hx
  have hne : o ≠ o' := by
    rintro rfl
    rcases ho with h | h
    · rw [h.obj hx] at hs; cases hs
    · exact hn h
  refine ⟨y, ?_, e.trans hs, k hs hn⟩
  show mget (mdel w1.objs o) o' = some y
  rw [mget_mdel, if_neg hne]; exact hy

theorem NotVault.of {w : World K V Ty} (hi : AI w) {o : Nat} (h : ∃ x, w.getObj o = some x ∧ x.isSet = true) : NotVault w o := by
  obtain ⟨x, h, hs⟩ := h; exact notVault_of hi h hs
theorem NotSet.of {w : World K V Ty} (hi : AI w) {o : Nat} (h : ∃ x, w.getObj o = some x ∧ x.isSet = false) : NotSet w o := by
  obtain ⟨x, h, hs⟩ := h; exact notSet_of hi h hs

/-- Every step of every history: the facts of `AI` hold afterwards, and only the operations of `keyOps` change the keys
of a vault. -/
theorem step_any {env : Env} {w w' : World K V Ty} {op : Op K V Ty} (hi : AI w) (h : step env w op = some w') : AnyStep (keyOps w op) w w' := by
  cases op with
  | newVault => cases h; exact (newVault_st hi (by simp [keyOps])).any
  | newSet => cases h; exact (newSetObj_st hi (Obj.newSet : Obj K V Ty).isBase _).1.any
  | newRef => cases h; exact ((newRef_rf w).st hi _).any
  | destroyVault o =>
    obtain ⟨ho, h⟩ := onVault_some h
    simp only [destroyVault, Option.bind_eq_bind, Option.bind_eq_some_iff] at h
    obtain ⟨w1, h1, h⟩ := h
    cases h
    exact (dropVault_st (t := keyOps w (.destroyVault o)) hi (.inr (by simp [keyOps])) h1).del (.inr (by simp [keyOps]))
  | destroySet s =>
    obtain ⟨ho, h⟩ := onSet_some h
    simp only [destroySet, Option.bind_eq_bind, Option.bind_eq_some_iff] at h
    obtain ⟨w1, h1, w2, h2, h⟩ := h
    cases h
    have n := NotVault.of hi ho
    have s1 := setReset_st hi h1 (keyOps w (.destroySet s))
    exact (s1.trans (dropVault_st s1.ai (.inl (n.st s1)) h2)).del (.inl n)
  | refCopy f g => exact ((refCopy_rf h).st hi _).any
  | refMove f g => exact ((refMove_rf h).st hi _).any
  | refReset f => exact ((refReset_rf h).st hi _).any
  | refSetData f k v => obtain ⟨res, h⟩ := map_fst h; exact (refSetData_st hi h _).any
  | refSetDataMany f ps => obtain ⟨res, h⟩ := map_fst h; exact (refSetDataMany_st hi h _).any
  | addKey o k d => obtain ⟨ho, h⟩ := onVault_some h; obtain ⟨res, h⟩ := map_fst h; exact (addKey_st hi (by simp [keyOps]) h).any
  | addUniqueKey o k t noFn f => obtain ⟨ho, h⟩ := onVault_some h; obtain ⟨res, h⟩ := map_fst h; exact (addUniqueKey_st hi (by simp [keyOps]) h).any
  | updateKey o k d => obtain ⟨ho, h⟩ := onVault_some h; obtain ⟨res, h⟩ := map_fst h; exact (updateKey_st hi (by simp [keyOps]) h).any
  | removeKey o k => obtain ⟨ho, h⟩ := onVault_some h; obtain ⟨res, h⟩ := map_fst h; exact (removeKey_st hi (by simp [keyOps]) h).any
  | createRecord o f ps => obtain ⟨ho, h⟩ := onVault_some h; obtain ⟨res, h⟩ := map_fst h; exact (createRecord_st hi h _).any
  | createRow o ps => obtain ⟨ho, h⟩ := onVault_some h; obtain ⟨res, h⟩ := map_fst h; exact (createRow_st hi h _).any
  | eraseRef o f => obtain ⟨ho, h⟩ := onVault_some h; obtain ⟨res, h⟩ := map_fst h; exact (eraseRef_st hi h _).any
  | eraseKV o k v => obtain ⟨ho, h⟩ := onVault_some h; obtain ⟨res, h⟩ := map_fst h; exact (eraseKV_st hi h _).any
  | eraseManyKV o k v n => obtain ⟨ho, h⟩ := onVault_some h; obtain ⟨res, h⟩ := map_fst h; exact (eraseManyKV_st hi h _).any
  | dropData o => obtain ⟨ho, h⟩ := onVault_some h; exact (dropData_st hi h _).any
  | dropVault o => obtain ⟨ho, h⟩ := onVault_some h; exact (dropVault_st hi (.inr (by simp [keyOps])) h).any
  | getRecord o k v f => obtain ⟨ho, h⟩ := onVault_some h; obtain ⟨res, h⟩ := map_fst h; exact ((getRecord_rf h).st hi _).any
  | getRecords o k v n => obtain ⟨ho, h⟩ := onVault_some h; obtain ⟨res, h⟩ := map_fst h; exact ((getRecords_rf h).st hi _).any
  | getSorted o k rev n => exact ((getSorted_rf h).st hi _).any
  | request o t k a b ia ib n pred s => obtain ⟨ho, h⟩ := onSet_some h; obtain ⟨res, h⟩ := map_fst h; exact (request_st hi (.of hi ho) h _).any
  | requestTree o q s => obtain ⟨ho, h⟩ := onSet_some h; obtain ⟨res, h⟩ := map_fst h; exact (requestTree_st hi (.of hi ho) h _).any
  | setAddRecord s f => obtain ⟨ho, h⟩ := onSet_some h; obtain ⟨res, h⟩ := map_fst h; exact (setAddRecord_st hi h _).any
  | setRemoveRef s f => obtain ⟨ho, h⟩ := onSet_some h; obtain ⟨res, h⟩ := map_fst h; exact (setRemoveRef_st hi h _).any
  | setRemoveKV s k v => obtain ⟨ho, h⟩ := onSet_some h; obtain ⟨res, h⟩ := map_fst h; exact (setRemoveKV_st hi h _).any
  | setRemoveManyKV s k v n => obtain ⟨ho, h⟩ := onSet_some h; obtain ⟨res, h⟩ := map_fst h; exact (setRemoveManyKV_st hi h _).any
  | setClear s => obtain ⟨ho, h⟩ := onSet_some h; exact (setClear_st hi h _).any
  | setReset s => obtain ⟨ho, h⟩ := onSet_some h; exact (setReset_st hi h _).any
  | setGetRecord s k v f => obtain ⟨ho, h⟩ := onSet_some h; obtain ⟨res, h⟩ := map_fst h; exact ((setGetRecord_rf h).st hi _).any
  | setGetRecords s k v n => obtain ⟨ho, h⟩ := onSet_some h; obtain ⟨res, h⟩ := map_fst h; exact ((setGetRecords_rf h).st hi _).any
  | setJoin s a => obtain ⟨ho, h⟩ := onSet_some h; obtain ⟨ha, h⟩ := onSet_some h; obtain ⟨res, h⟩ := map_fst h; exact (setJoin_st hi h _).any
  | setExclude s a => obtain ⟨ho, h⟩ := onSet_some h; obtain ⟨ha, h⟩ := onSet_some h; obtain ⟨res, h⟩ := map_fst h; exact (setExclude_st hi h _).any
  | setIntersect s a => obtain ⟨ho, h⟩ := onSet_some h; obtain ⟨ha, h⟩ := onSet_some h; obtain ⟨res, h⟩ := map_fst h; exact (setIntersect_st hi h _).any
  | setUnion a b s =>
    obtain ⟨ho, h⟩ := onSet_some h; obtain ⟨ha, h⟩ := onSet_some h; obtain ⟨hb, h⟩ := onSet_some h; obtain ⟨res, h⟩ := map_fst h
    exact (setUnion_st hi (.of hi ho) h _).any
  | setIntersection a b s =>
    obtain ⟨ho, h⟩ := onSet_some h; obtain ⟨ha, h⟩ := onSet_some h; obtain ⟨hb, h⟩ := onSet_some h; obtain ⟨res, h⟩ := map_fst h
    exact (setIntersection_st hi (.of hi ho) h _).any
  | setCopyNew a => obtain ⟨ho, h⟩ := onSet_some h; exact (setCopyNew_st hi h _).any
  | setAssign s a => obtain ⟨ho, h⟩ := onSet_some h; obtain ⟨ha, h⟩ := onSet_some h; exact (setAssign_st hi (.of hi ho) h _).any
  | setMoveNew a => obtain ⟨ho, h⟩ := onSet_some h; exact (setMoveNew_st hi (.of hi ho) h _).any
  | setMoveAssign s a => obtain ⟨ho, h⟩ := onSet_some h; obtain ⟨ha, h⟩ := onSet_some h; exact (setMoveAssign_st hi (.of hi ho) (.of hi ha) h _).any
  | vaultCopyNew a => obtain ⟨ho, h⟩ := onVault_some h; exact (vaultCopyNew_st hi (.of hi ho) (by simp [keyOps]) h).any
  | vaultAssign o a => obtain ⟨ho, h⟩ := onVault_some h; obtain ⟨ha, h⟩ := onVault_some h; exact (vaultAssign_st hi (.of hi ho) (.of hi ha) (by simp [keyOps]) h).any
  | vaultMoveNew a =>
    obtain ⟨ho, h⟩ := onVault_some h
    have s1 := newVault_st (t := keyOps w (.vaultMoveNew a)) hi (by simp [keyOps])
    have n := NotSet.of hi ho
    exact (s1.trans (moveInto_st s1.ai (fun e => absurd (e ▸ n.1) (lt_irrefl _)) (notSet_of s1.ai (newVault_obj w) rfl) (n.st s1)
      (by simp [keyOps]) (by simp [keyOps]) h)).any
  | vaultMoveAssign o a =>
    obtain ⟨ho, h⟩ := onVault_some h; obtain ⟨ha, h⟩ := onVault_some h
    unfold vaultMoveAssign at h
    split at h
    · cases h; exact (St.refl hi _).any
    · rename_i hne
      simp only [Option.bind_eq_bind, Option.bind_eq_some_iff] at h
      obtain ⟨w1, h1, h⟩ := h
      have s1 := dropVault_st (t := keyOps w (.vaultMoveAssign o a)) hi (.inr (by simp [keyOps])) h1
      exact (s1.trans (moveInto_st s1.ai hne ((NotSet.of hi ho).st s1) ((NotSet.of hi ha).st s1) (by simp [keyOps]) (by simp [keyOps]) h)).any

theorem reach_ai {G : World K V Ty → Op K V Ty → Prop} {w : World K V Ty} (h : Reach G w) : AI w := by
  induction h with
  | init => exact .empty
  | step w w' env op _ _ hs ih => exact (step_any ih hs).ai

end MVault.W
