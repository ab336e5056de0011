import Verif.PropsRecords
import Verif.WorldFrameSet
/-
C33, C39, C47, C49: what operations answer, and that a failure changes nothing.
-/
set_option linter.unusedSectionVars false
set_option linter.unusedSimpArgs false
namespace MVault.W
variable {K V Ty : Type} [LinearOrder K] [LinearOrder V] [Typed V Ty] [DecidableEq Ty]

theorem onVault_iff {A : Type} {w : World K V Ty} {o : Nat} {x : Option A} {y : A} : onVault w o x = some y ↔ isVault w o = true ∧ x = some y := by
  unfold onVault; split <;> simp_all

theorem onSet_iff {A : Type} {w : World K V Ty} {o : Nat} {x : Option A} {y : A} : onSet w o x = some y ↔ isSetObj w o = true ∧ x = some y := by
  unfold onSet; split <;> simp_all

/-! ### C47 -/

/-- Every `VaultOperationResult` an operation returns, in any state (also unreachable ones), has its success flag set exactly
when its code is `Success`. Missing for the full claim: `SetData` with an empty parameter list, where it is false
(`C47_refuted`). -/
theorem C47_results_agree_partial {env : Env} {w w' : World K V Ty} {op : Op K V Ty} {res : Res K} (h : outcome env w op = some (w', .res res))
    (hop : ∀ f, op ≠ .refSetDataMany f []) : res.ok = true ↔ res.code = .Success := by
  show res.agree
  cases op
  all_goals (simp only [outcome, onVault_map, onSet_map, onVault_iff, onSet_iff, Option.map_eq_some_iff, Prod.exists, Prod.mk.injEq, Answer.res.injEq, reduceCtorEq,
    and_false, exists_false, Option.some.injEq] at h)
  case refSetData => obtain ⟨_, _, h, rfl, rfl⟩ := h; exact (refSetData_fair h).1
  case refSetDataMany f ps => obtain ⟨_, _, h, rfl, rfl⟩ := h; exact (refSetDataMany_agree h).1 (fun e => hop f (by rw [e]))
  case addKey => obtain ⟨hs, _, _, h, rfl, rfl⟩ := h; exact (addKey_fair h).1
  case addUniqueKey => obtain ⟨hs, _, _, h, rfl, rfl⟩ := h; exact (addUniqueKey_fair h).1
  case updateKey => obtain ⟨hs, _, _, h, rfl, rfl⟩ := h; exact (updateKey_fair h).1
  case createRecord => obtain ⟨hs, _, _, h, rfl, rfl⟩ := h; exact createRecord_agree h
  case createRow => obtain ⟨hs, _, _, h, rfl, rfl⟩ := h; exact createRow_agree h
  case eraseKV => obtain ⟨hs, _, _, h, rfl, rfl⟩ := h; exact (eraseKV_fair h).1
  case eraseManyKV => obtain ⟨hs, _, _, h, rfl, rfl⟩ := h; exact (eraseManyKV_fair h).1
  case getRecord => obtain ⟨hs, _, _, h, rfl, rfl⟩ := h; exact getRecord_agree h
  case getRecords => obtain ⟨hs, _, _, h, rfl, rfl⟩ := h; exact (getRecords_fair h).1
  case request => obtain ⟨hs, _, _, h, rfl, rfl⟩ := h; exact request_agree h
  case requestTree => obtain ⟨hs, _, _, h, rfl, rfl⟩ := h; exact requestTree_agree h
  case setAddRecord => obtain ⟨hs, _, _, h, rfl, rfl⟩ := h; exact (setAddRecord_fair h).1
  case setRemoveKV => obtain ⟨hs, _, _, h, rfl, rfl⟩ := h; exact (setRemoveKV_fair h).1
  case setRemoveManyKV => obtain ⟨hs, _, _, h, rfl, rfl⟩ := h; exact (setRemoveManyKV_fair h).1
  case setGetRecord => obtain ⟨hs, _, _, h, rfl, rfl⟩ := h; exact setGetRecord_agree h
  case setGetRecords => obtain ⟨hs, _, _, h, rfl, rfl⟩ := h; exact (setGetRecords_fair h).1
  case setJoin => obtain ⟨hs, _, _, _, h, rfl, rfl⟩ := h; exact (setJoin_fair h).1
  case setExclude => obtain ⟨hs, _, _, _, h, rfl, rfl⟩ := h; exact (setExclude_fair h).1
  case setIntersect => obtain ⟨hs, _, _, _, h, rfl, rfl⟩ := h; exact (setIntersect_fair h).1
  case setUnion => obtain ⟨hs, _, _, _, _, h, rfl, rfl⟩ := h; exact setUnion_agree h
  case setIntersection => obtain ⟨hs, _, _, _, _, h, rfl, rfl⟩ := h; exact (setIntersection_fair h).1

/-- A success and a failure. -/
example : (∃ w', outcome Env.id demoW (.createRecord 0 2 [(2, 9)]) = some (w', .res (.good (some 2)))) ∧
    outcome Env.id demoW (.createRecord 0 2 [(2, 8)]) = some (demoW, .res (.bad .UniqueKeyValueAlredyInSet (some 2))) := ⟨⟨_, rfl⟩, rfl⟩

/-- `SetData` with no parameters through any reference that has a vault answers a success flag with the code `Idle`. -/
theorem C47_refuted : ∃ w w' : DW, HReach Ordinary (fun _ => 0) w ∧
    outcome Env.id w (.refSetDataMany 0 []) = some (w', .res ⟨true, .Idle, none⟩) :=
  ⟨_, _, demoW_reach, rfl⟩

/-! ### C39 -/

/-- Everything a user can ask object `q` about itself (specification). -/
structure SameObj (w w' : World K V Ty) (q : Nat) : Prop where
  vault : isVault w' q = isVault w q
  set : isSetObj w' q = isSetObj w q
  members : members w' q = members w q
  parent : parentOf w' q = parentOf w q
  keys : getKeys w' q = getKeys w q
  uniq : getUniqueKeys w' q = getUniqueKeys w q
  keyExists : ∀ k, isKeyExist w' q k = isKeyExist w q k
  types : ∀ k, getKeyType w' q k = getKeyType w q k
  defaults : ∀ k, getDefault w' q k = getDefault w q k

/-- Records, their values, keys and memberships are unchanged, apart from the objects in `l` (specification). -/
structure Unchanged (l : List Nat) (w w' : World K V Ty) : Prop where
  objs : ∀ q, q ∉ l → SameObj w w' q
  alive : ∀ r, alive w' r ↔ alive w r
  values : ∀ r, W.alive w r → ∀ k, value w' r k = value w r k

theorem SameObj.refl (w : World K V Ty) (q : Nat) : SameObj w w q := ⟨rfl, rfl, rfl, rfl, rfl, rfl, fun _ => rfl, fun _ => rfl, fun _ => rfl⟩
theorem Unchanged.refl (l : List Nat) (w : World K V Ty) : Unchanged l w w := ⟨fun _ _ => .refl _ _, fun _ => Iff.rfl, fun _ _ _ => rfl⟩

theorem SameObj.of_eq {w w' : World K V Ty} {q : Nat} (h : w'.getObj q = w.getObj q) : SameObj w w' q := by
  constructor <;> simp [isVault, isSetObj, W.members, parentOf, getKeys, getUniqueKeys, isKeyExist, getKeyType, getDefault, h]

theorem RF.unchanged {w w' : World K V Ty} (h : RF w w') (l : List Nat) : Unchanged l w w' :=
  ⟨fun q _ => .of_eq (by unfold World.getObj; rw [h.objs]), h.alive, fun _ hr k => h.value hr k⟩

theorem FS.sameObj {l : List Nat} {w w' : World K V Ty} (h : FS l w w') {q : Nat} (hq : q ∉ l) : SameObj w w' q := by
  rcases h.getObj hq with ⟨a, b⟩ | ⟨x, y, a, b, e⟩
  · exact .of_eq (b.trans a.symm)
  · rw [e] at b
    constructor <;> simp [isVault, isSetObj, W.members, parentOf, getKeys, getUniqueKeys, isKeyExist, getKeyType, getDefault, a, b]

theorem FS.unchanged {l : List Nat} {w w' : World K V Ty} (h : FS l w w') : Unchanged l w w' where
  objs q hq := h.sameObj hq
  alive r := by
    rcases h.getRec r with ⟨a, b⟩ | ⟨x, y, a, b, e⟩
    · simp [W.alive, a, b]
    · rw [e] at b; simp [W.alive, a, b]
  values r _ k := by
    rcases h.getRec r with ⟨a, b⟩ | ⟨x, y, a, b, e⟩
    · simp [value, a, b]
    · rw [e] at b; simp [value, a, b]

/-- The operation reports a failure (specification). -/
def Answer.failed : Answer K → Prop
  | .res r => r.ok = false
  | .flag b => b = false
  | .unit => False

/-- The result set of a request, which the request always empties first (specification). -/
def requestTarget : Op K V Ty → List Nat
  | .request _ _ _ _ _ _ _ _ _ s => [s]
  | .requestTree _ _ s => [s]
  | _ => []

theorem mget_eraseKeys_sig (data : List (K × V)) (r : Nat) (l : List K) : ∀ (cols : List (K × Col V Ty)) (k : K),
    (mget (eraseKeys data r l cols) k).map Col.sig = (mget cols k).map Col.sig := by
  induction l with
  | nil => intro cols k; rfl
  | cons a l ih =>
    intro cols k
    simp only [eraseKeys]
    split
    · exact ih _ _
    · rename_i c hc
      rw [ih, mget_mput]
      split
      · rename_i e; subst e; rw [hc]; rfl
      · rfl

theorem addUniques_sig {data : List (K × V)} {r : Nat} (l : List K) : ∀ {cols cols' : List (K × Col V Ty)} {done : List K} {o : Option (K × List K)},
    addUniques data r l cols done = some (cols', o) → ∀ k, (mget cols' k).map Col.sig = (mget cols k).map Col.sig := by
  induction l with
  | nil => intro cols cols' done o h k; simp only [addUniques, Option.some.injEq, Prod.mk.injEq] at h; rw [h.1]
  | cons a l ih =>
    intro cols cols' done o h k
    simp only [addUniques] at h
    split at h
    · cases h
    · rename_i c hc
      split at h
      · rename_i c' hadd
        rw [ih h k, mget_mput]
        split
        · rename_i e; subst e; rw [hc]
          have : c' = (c.add (c.addVal data a) r).1 := by rw [hadd]
          rw [this]; unfold Col.add; split <;> rfl
        · rfl
      · cases h; rfl

theorem createRecord_failed {w w' : World K V Ty} {o f : Nat} {ps : List (K × V)} {res : Res K} (h : createRecord w o f ps = some (w', res))
    (hf : res.ok = false) : Unchanged [] w w' := by
  simp only [createRecord, Option.bind_eq_bind, Option.bind_eq_some_iff] at h
  obtain ⟨vo, hvo, h⟩ := h
  split at h
  · cases h; exact .refl _ _
  · rename_i data hd
    simp only [Option.bind_eq_some_iff, Prod.exists] at h
    obtain ⟨w1, out, h1, h⟩ := h
    simp only [insertRecord, hvo, Option.bind_eq_bind, Option.bind_some, Option.bind_eq_some_iff, Prod.exists] at h1
    obtain ⟨cols, clash, h2, h1⟩ := h1
    split at h1
    · cases h1; cases h
      rename_i k done
      have hsig := fun k' => (mget_eraseKeys_sig (V := V) data w.nextR done cols k').trans (addUniques_sig _ h2 k')
      refine ⟨fun q _ => ?_, fun _ => Iff.rfl, fun _ _ _ => rfl⟩
      by_cases e : o = q
      · subst e
        have hty : ∀ k', (mget (eraseKeys data w.nextR done cols) k').map (·.ty) = (mget vo.cols k').map (·.ty) := by
          intro k'
          have := congrArg (Option.map (fun s : Ty × Bool × V => s.1)) (hsig k')
          simpa [Option.map_map, Function.comp_def, Col.sig] using this
        constructor <;> simp [isVault, isSetObj, W.members, parentOf, getKeys, getUniqueKeys, isKeyExist, getKeyType, getDefault, hvo, getObj_putObj_self]
        exact hty
      · exact .of_eq (by rw [getObj_putObj, if_neg e])
    · cases h1
      simp only [Option.map_eq_some_iff, Prod.mk.injEq] at h
      obtain ⟨_, _, _, rfl⟩ := h
      cases hf

theorem createRow_failed {w w' : World K V Ty} {o : Nat} {ps : List (K × V)} {res : Res K} (h : createRow w o ps = some (w', res))
    (hf : res.ok = false) : Unchanged [] w w' := by
  simp only [createRow, Option.bind_eq_bind, Option.bind_eq_some_iff] at h
  obtain ⟨vo, hvo, h⟩ := h
  split at h
  · cases h; exact .refl _ _
  · rename_i data hd
    simp only [Option.bind_eq_some_iff, Prod.exists] at h
    obtain ⟨w1, out, h1, h⟩ := h
    simp only [insertRecord, hvo, Option.bind_eq_bind, Option.bind_some, Option.bind_eq_some_iff, Prod.exists] at h1
    obtain ⟨cols, clash, h2, h1⟩ := h1
    split at h1
    · cases h1; cases h
      rename_i k done
      have hsig := fun k' => (mget_eraseKeys_sig (V := V) data w.nextR done cols k').trans (addUniques_sig _ h2 k')
      refine ⟨fun q _ => ?_, fun _ => Iff.rfl, fun _ _ _ => rfl⟩
      by_cases e : o = q
      · subst e
        have hty : ∀ k', (mget (eraseKeys data w.nextR done cols) k').map (·.ty) = (mget vo.cols k').map (·.ty) := by
          intro k'
          have := congrArg (Option.map (fun s : Ty × Bool × V => s.1)) (hsig k')
          simpa [Option.map_map, Function.comp_def, Col.sig] using this
        constructor <;> simp [isVault, isSetObj, W.members, parentOf, getKeys, getUniqueKeys, isKeyExist, getKeyType, getDefault, hvo, getObj_putObj_self]
        exact hty
      · exact .of_eq (by rw [getObj_putObj, if_neg e])
    · cases h1
      cases h
      cases hf

theorem setAssign_pr {env : Env} {w w' : World K V Ty} {s a : Nat} {p : Nat} (ha : AI w) (hi : NI w) (hs : NotVault w s) (hne : s ≠ a)
    (hp : pr w a = some (some p)) (h : setAssign env w s a = some w') : pr w' s = some (some p) := by
  simp only [setAssign, Option.bind_eq_bind, Option.bind_eq_some_iff] at h
  obtain ⟨so0, hso0, ao, hao, h⟩ := h
  rw [if_neg hne] at h
  simp only [Option.bind_eq_some_iff] at h
  obtain ⟨w1, h1, h⟩ := h
  have hpa : ao.parent = some p := by rw [pr_of hao] at hp; simpa using hp
  rw [if_neg (by rw [hpa]; simp)] at h
  have f1 := setReset_fs (l := [s]) (by simp) h1
  simp only [copySet, Option.bind_eq_bind, Option.bind_eq_some_iff] at h
  obtain ⟨ao1, hao1, p1, hp1, po0, hpo0, so, hso, w2, h2, so2, hso2, po, hpo, h⟩ := h
  have : p1 = p := by
    rcases f1.getObj (q := a) (by simpa using hne.symm) with ⟨e, _⟩ | ⟨x, y, e1, e2, e3⟩
    · rw [hao] at e; cases e
    · rw [hao] at e1; cases e1
      rw [hao1] at e2; cases e2
      rw [e3] at hp1; simp only at hp1; rw [hpa] at hp1; cases hp1; rfl
  subst this
  have e2 : pr w2 s = some (some p1) := by rw [(copyKeys_pr h2 s).1]; unfold pr; rw [getObj_putObj_self]; rfl
  have e3 : pr (w2.putObj s { so2 with keysOrder := ao1.keysOrder, uniq := ao1.uniq }) s = some (some p1) := by rw [pr_putObj hso2 (by rfl)]; exact e2
  have e4 : pr ((w2.putObj s { so2 with keysOrder := ao1.keysOrder, uniq := ao1.uniq }).putObj p1 { po with sets := setIns po.sets s }) s = some (some p1) := by
    rw [pr_putObj hpo (by rfl)]; exact e3
  refine (loop_same (g := fun w => pr w s) (fun w w' r h => ?_) _ h).trans e4
  simp only [Option.bind_eq_some_iff] at h
  obtain ⟨so, hso, h⟩ := h
  show pr w' s = pr w s
  rw [attach_pr h, pr_putObj hso (by rfl)]

theorem setUnion_fair {env : Env} {w w' : World K V Ty} {a b s : Nat} {res : Res K} (ha : AI w) (hi : NI w) (hs : NotVault w s)
    (h : setUnion env w a b s = some (w', res)) : Fair w w' res := by
  refine ⟨setUnion_agree h, fun hf => ?_⟩
  simp only [setUnion, Option.bind_eq_bind, Option.bind_eq_some_iff] at h
  obtain ⟨ao, hao, bo, hbo, _, _, h⟩ := h
  split at h
  · cases h; rfl
  rename_i hne
  split at h
  · cases h; rfl
  rename_i hpa
  split at h
  · cases h; rfl
  rename_i hpb
  split at h
  · cases h; rfl
  rename_i hpe
  simp only [Option.bind_eq_some_iff] at h
  obtain ⟨w1, h1, h⟩ := h
  exfalso
  obtain ⟨p, hp⟩ := Option.ne_none_iff_exists'.mp hpa
  have hne' : s ≠ a := fun e => hne (.inr (.inl e.symm))
  have e1 := setAssign_pr ha hi hs hne' (p := p) (by rw [pr_of hao, hp]) h1
  have f1 := setAssign_fs ha hi hs h1
  simp only [setJoin, Option.bind_eq_bind, Option.bind_eq_some_iff] at h
  obtain ⟨so, hso, bo1, hbo1, h⟩ := h
  have : setOpCheck so bo1 s b = none := by
    have hsp : so.parent = some p := by rw [pr_of hso] at e1; simpa using e1
    have hbp : bo1.parent = some p := by
      rcases f1.getObj (q := b) (by simp; exact fun e => hne (.inr (.inr e))) with ⟨e, _⟩ | ⟨x, y, e1, e2, e3⟩
      · rw [hbo] at e; cases e
      · rw [hbo] at e1; cases e1
        rw [hbo1] at e2; cases e2
        rw [e3]; simp only
        by_contra hc; exact hpe (by rw [hp]; exact fun e => hc e.symm)
    unfold setOpCheck
    rw [hsp, hbp]; simp
    exact fun e => hne (.inr (.inr e.symm))
  rw [this] at h
  simp only [Option.map_eq_some_iff, Prod.mk.injEq] at h
  obtain ⟨_, _, _, rfl⟩ := h
  cases hf

/-- After any history whatsoever, an operation that reports a failure (a result without success, or `false`) leaves all
records, all their values, all keys and all memberships as they were. Only a failing request may change its result set (see
`C39_refuted`). Missing for the full claim: `SetData` with several parameters, which keeps the changes before the first error
by design (C45), and the request's result set. -/
theorem C39_failure_unchanged_partial {G : World K V Ty → Op K V Ty → Prop} {w w' : World K V Ty} (hw : Reach G w) {env : Env} {op : Op K V Ty} {ans : Answer K}
    (h : outcome env w op = some (w', ans)) (hf : ans.failed) (hop : ∀ f ps, op ≠ .refSetDataMany f ps) :
    Unchanged (requestTarget op) w w' := by
  have hi := reach_ai hw
  have hn := reach_ni hw
  cases op
  all_goals (simp only [outcome, onVault_map, onSet_map, onVault_iff, onSet_iff, Option.map_eq_some_iff, Prod.exists, Prod.mk.injEq, Option.some.injEq] at h)
  case refSetData => obtain ⟨_, _, h, rfl, rfl⟩ := h; rw [(refSetData_fair h).2 hf]; exact .refl _ _
  case refSetDataMany f ps => obtain ⟨_, _, h, rfl, rfl⟩ := h; exact absurd rfl (hop f ps)
  case addKey => obtain ⟨hs, _, _, h, rfl, rfl⟩ := h; rw [(addKey_fair h).2 hf]; exact .refl _ _
  case addUniqueKey => obtain ⟨hs, _, _, h, rfl, rfl⟩ := h; rw [(addUniqueKey_fair h).2 hf]; exact .refl _ _
  case updateKey => obtain ⟨hs, _, _, h, rfl, rfl⟩ := h; rw [(updateKey_fair h).2 hf]; exact .refl _ _
  case removeKey => obtain ⟨hs, _, _, h, rfl, rfl⟩ := h; rw [removeKey_fair h hf]; exact .refl _ _
  case createRecord => obtain ⟨hs, _, _, h, rfl, rfl⟩ := h; exact createRecord_failed h hf
  case createRow => obtain ⟨hs, _, _, h, rfl, rfl⟩ := h; exact createRow_failed h hf
  case eraseRef => obtain ⟨hs, _, _, h, rfl, rfl⟩ := h; rw [eraseRef_fair h hf]; exact .refl _ _
  case eraseKV => obtain ⟨hs, _, _, h, rfl, rfl⟩ := h; rw [(eraseKV_fair h).2 hf]; exact .refl _ _
  case eraseManyKV => obtain ⟨hs, _, _, h, rfl, rfl⟩ := h; rw [(eraseManyKV_fair h).2 hf]; exact .refl _ _
  case getRecord => obtain ⟨hs, _, _, h, rfl, rfl⟩ := h; exact (getRecord_rf h).unchanged _
  case getRecords => obtain ⟨hs, _, _, h, rfl, rfl⟩ := h; rw [(getRecords_fair h).2 hf]; exact .refl _ _
  case request => obtain ⟨hs, _, _, h, rfl, rfl⟩ := h; exact (request_fs hi hn (NotVault.of hi (isSetObj_iff.mp hs)) h).unchanged
  case requestTree => obtain ⟨hs, _, _, h, rfl, rfl⟩ := h; exact (requestTree_fs hi hn (NotVault.of hi (isSetObj_iff.mp hs)) h).unchanged
  case setAddRecord => obtain ⟨hs, _, _, h, rfl, rfl⟩ := h; rw [(setAddRecord_fair h).2 hf]; exact .refl _ _
  case setRemoveRef => obtain ⟨hs, _, _, h, rfl, rfl⟩ := h; rw [setRemoveRef_fair h hf]; exact .refl _ _
  case setRemoveKV => obtain ⟨hs, _, _, h, rfl, rfl⟩ := h; rw [(setRemoveKV_fair h).2 hf]; exact .refl _ _
  case setRemoveManyKV => obtain ⟨hs, _, _, h, rfl, rfl⟩ := h; rw [(setRemoveManyKV_fair h).2 hf]; exact .refl _ _
  case setGetRecord => obtain ⟨hs, _, _, h, rfl, rfl⟩ := h; exact (setGetRecord_rf h).unchanged _
  case setGetRecords => obtain ⟨hs, _, _, h, rfl, rfl⟩ := h; rw [(setGetRecords_fair h).2 hf]; exact .refl _ _
  case setJoin => obtain ⟨hs, _, _, _, h, rfl, rfl⟩ := h; rw [(setJoin_fair h).2 hf]; exact .refl _ _
  case setExclude => obtain ⟨hs, _, _, _, h, rfl, rfl⟩ := h; rw [(setExclude_fair h).2 hf]; exact .refl _ _
  case setIntersect => obtain ⟨hs, _, _, _, h, rfl, rfl⟩ := h; rw [(setIntersect_fair h).2 hf]; exact .refl _ _
  case setUnion => obtain ⟨hs, _, _, _, _, h, rfl, rfl⟩ := h; rw [(setUnion_fair hi hn (NotVault.of hi (isSetObj_iff.mp hs)) h).2 hf]; exact .refl _ _
  case setIntersection => obtain ⟨hs, _, _, _, _, h, rfl, rfl⟩ := h; rw [(setIntersection_fair h).2 hf]; exact .refl _ _
  case newVault => obtain ⟨_, rfl⟩ := h; cases hf
  case newSet => obtain ⟨_, rfl⟩ := h; cases hf
  case newRef => obtain ⟨_, rfl⟩ := h; cases hf
  case destroyVault => obtain ⟨_, _, _, _, rfl⟩ := h; cases hf
  case destroySet => obtain ⟨_, _, _, _, rfl⟩ := h; cases hf
  case refCopy => obtain ⟨_, _, _, rfl⟩ := h; cases hf
  case refMove => obtain ⟨_, _, _, rfl⟩ := h; cases hf
  case refReset => obtain ⟨_, _, _, rfl⟩ := h; cases hf
  case dropData => obtain ⟨_, _, _, _, rfl⟩ := h; cases hf
  case dropVault => obtain ⟨_, _, _, _, rfl⟩ := h; cases hf
  case getSorted => obtain ⟨_, _, _, rfl⟩ := h; cases hf
  case setClear => obtain ⟨_, _, _, _, rfl⟩ := h; cases hf
  case setReset => obtain ⟨_, _, _, _, rfl⟩ := h; cases hf
  case setCopyNew => obtain ⟨_, _, _, _, rfl⟩ := h; cases hf
  case setAssign => obtain ⟨_, _, _, _, _, rfl⟩ := h; cases hf
  case setMoveNew => obtain ⟨_, _, _, _, rfl⟩ := h; cases hf
  case setMoveAssign => obtain ⟨_, _, _, _, _, rfl⟩ := h; cases hf
  case vaultCopyNew => obtain ⟨_, _, _, _, rfl⟩ := h; cases hf
  case vaultAssign => obtain ⟨_, _, _, _, _, rfl⟩ := h; cases hf
  case vaultMoveNew => obtain ⟨_, _, _, _, rfl⟩ := h; cases hf
  case vaultMoveAssign => obtain ⟨_, _, _, _, _, rfl⟩ := h; cases hf

/-- Failures of a request on an unknown key (the target, object 2, is empty before), of a look-up, of `CreateRecord` and of `Union`. -/
example : (∃ w', outcome Env.id demoSet (.ask 0 9 (.gt 0) none (fun _ => true) 2) = some (w', .res (.bad .WrongKey (some 9)))) ∧
    (∃ w', outcome Env.id demoSet (.getRecord 0 2 50 0) = some (w', .res (.bad .WrongValue (some 2)))) ∧
    (∃ w', outcome Env.id demoSet (.createRecord 0 2 [(2, 8)]) = some (w', .res (.bad .UniqueKeyValueAlredyInSet (some 2)))) ∧
    (∃ w', outcome Env.id demoSet (.setUnion 1 1 2) = some (w', .res (.bad .SameVaultRecordSet none))) := ⟨⟨_, rfl⟩, ⟨_, rfl⟩, ⟨_, rfl⟩, ⟨_, rfl⟩⟩

/-- The operations whose failure leaves a trace: requests empty their result set, a failed look-up resets the reference it was
given, `SetData` with several parameters keeps the changes before the first error (specification). -/
def leavesTrace : Op K V Ty → Bool
  | .refSetDataMany _ _ => true
  | .request .. => true
  | .requestTree .. => true
  | .getRecord .. => true
  | .setGetRecord .. => true
  | _ => false

/-- After ordinary operations a failure of any other operation changes nothing at all. Missing for the full claim: the
operations of `leavesTrace` (for them see `C39_failure_unchanged_partial`), histories that are not ordinary. -/
theorem C39_failure_exact_partial {home : Nat → Nat} {w w' : World K V Ty} (hw : HReach Ordinary home w) {env : Env} {op : Op K V Ty} {ans : Answer K}
    (h : outcome env w op = some (w', ans)) (hf : ans.failed) (hop : leavesTrace op = false) : w' = w := by
  have hi := reach_ai hw.any
  have hn := reach_ni hw.any
  cases op
  all_goals (simp only [outcome, onVault_map, onSet_map, onVault_iff, onSet_iff, Option.map_eq_some_iff, Prod.exists, Prod.mk.injEq, Option.some.injEq] at h)
  case refSetData => obtain ⟨_, _, h, rfl, rfl⟩ := h; exact (refSetData_fair h).2 hf
  case refSetDataMany => cases hop
  case addKey => obtain ⟨hs, _, _, h, rfl, rfl⟩ := h; exact (addKey_fair h).2 hf
  case addUniqueKey => obtain ⟨hs, _, _, h, rfl, rfl⟩ := h; exact (addUniqueKey_fair h).2 hf
  case updateKey => obtain ⟨hs, _, _, h, rfl, rfl⟩ := h; exact (updateKey_fair h).2 hf
  case removeKey => obtain ⟨hs, _, _, h, rfl, rfl⟩ := h; exact removeKey_fair h hf
  case createRecord => obtain ⟨hs, _, _, h, rfl, rfl⟩ := h; exact (C15_createRecord_partial hw hs h).1 hf
  case createRow => obtain ⟨hs, _, _, h, rfl, rfl⟩ := h; exact (C15_createRow_partial hw hs h).1 hf
  case eraseRef => obtain ⟨hs, _, _, h, rfl, rfl⟩ := h; exact eraseRef_fair h hf
  case eraseKV => obtain ⟨hs, _, _, h, rfl, rfl⟩ := h; exact (eraseKV_fair h).2 hf
  case eraseManyKV => obtain ⟨hs, _, _, h, rfl, rfl⟩ := h; exact (eraseManyKV_fair h).2 hf
  case getRecord => cases hop
  case getRecords => obtain ⟨hs, _, _, h, rfl, rfl⟩ := h; exact (getRecords_fair h).2 hf
  case request => cases hop
  case requestTree => cases hop
  case setAddRecord => obtain ⟨hs, _, _, h, rfl, rfl⟩ := h; exact (setAddRecord_fair h).2 hf
  case setRemoveRef => obtain ⟨hs, _, _, h, rfl, rfl⟩ := h; exact setRemoveRef_fair h hf
  case setRemoveKV => obtain ⟨hs, _, _, h, rfl, rfl⟩ := h; exact (setRemoveKV_fair h).2 hf
  case setRemoveManyKV => obtain ⟨hs, _, _, h, rfl, rfl⟩ := h; exact (setRemoveManyKV_fair h).2 hf
  case setGetRecord => cases hop
  case setGetRecords => obtain ⟨hs, _, _, h, rfl, rfl⟩ := h; exact (setGetRecords_fair h).2 hf
  case setJoin => obtain ⟨hs, _, _, _, h, rfl, rfl⟩ := h; exact (setJoin_fair h).2 hf
  case setExclude => obtain ⟨hs, _, _, _, h, rfl, rfl⟩ := h; exact (setExclude_fair h).2 hf
  case setIntersect => obtain ⟨hs, _, _, _, h, rfl, rfl⟩ := h; exact (setIntersect_fair h).2 hf
  case setUnion => obtain ⟨hs, _, _, _, _, h, rfl, rfl⟩ := h; exact (setUnion_fair hi hn (NotVault.of hi (isSetObj_iff.mp hs)) h).2 hf
  case setIntersection => obtain ⟨hs, _, _, _, _, h, rfl, rfl⟩ := h; exact (setIntersection_fair h).2 hf
  case newVault => obtain ⟨_, rfl⟩ := h; cases hf
  case newSet => obtain ⟨_, rfl⟩ := h; cases hf
  case newRef => obtain ⟨_, rfl⟩ := h; cases hf
  case destroyVault => obtain ⟨_, _, _, _, rfl⟩ := h; cases hf
  case destroySet => obtain ⟨_, _, _, _, rfl⟩ := h; cases hf
  case refCopy => obtain ⟨_, _, _, rfl⟩ := h; cases hf
  case refMove => obtain ⟨_, _, _, rfl⟩ := h; cases hf
  case refReset => obtain ⟨_, _, _, rfl⟩ := h; cases hf
  case dropData => obtain ⟨_, _, _, _, rfl⟩ := h; cases hf
  case dropVault => obtain ⟨_, _, _, _, rfl⟩ := h; cases hf
  case getSorted => obtain ⟨_, _, _, rfl⟩ := h; cases hf
  case setClear => obtain ⟨_, _, _, _, rfl⟩ := h; cases hf
  case setReset => obtain ⟨_, _, _, _, rfl⟩ := h; cases hf
  case setCopyNew => obtain ⟨_, _, _, _, rfl⟩ := h; cases hf
  case setAssign => obtain ⟨_, _, _, _, _, rfl⟩ := h; cases hf
  case setMoveNew => obtain ⟨_, _, _, _, rfl⟩ := h; cases hf
  case setMoveAssign => obtain ⟨_, _, _, _, _, rfl⟩ := h; cases hf
  case vaultCopyNew => obtain ⟨_, _, _, _, rfl⟩ := h; cases hf
  case vaultAssign => obtain ⟨_, _, _, _, _, rfl⟩ := h; cases hf
  case vaultMoveNew => obtain ⟨_, _, _, _, rfl⟩ := h; cases hf
  case vaultMoveAssign => obtain ⟨_, _, _, _, _, rfl⟩ := h; cases hf

example : outcome Env.id demoSet (.addKey 0 1 3) = some (demoSet, .res (.bad .DuplicateKey (some 1))) ∧ leavesTrace (.addKey 0 1 3 : DO) = false := ⟨rfl, rfl⟩

/-- A failing request empties the set given for the result: set 1 holds both records, a request for an unknown key fails with
`WrongKey`, and the set is empty. -/
theorem C39_refuted : ∃ w w' : DW, HReach Ordinary (fun _ => 0) w ∧
    outcome Env.id w (.ask 0 9 (.gt 0) none (fun _ => true) 1) = some (w', .res (.bad .WrongKey (some 9))) ∧
    members w 1 = [0, 1] ∧ members w' 1 = [] := ⟨_, _, demoSet_reach, rfl, by decide, by decide⟩

/-! ### C33 -/

/-- Why `Join`, `Exclude`, `Intersect` of set `s` with set `a` must be refused (specification). -/
def algebraError (w : World K V Ty) (s a : Nat) : Option Code :=
  if parentOf w s = none then some .ParentVaultNotValid
  else if parentOf w a = none then some .OtherParentVaultNotValid
  else if parentOf w a ≠ parentOf w s then some .ParentVaultNotMatch
  else if s = a then some .SameVaultRecordSet
  else none

/-- Why `Union`, `Intersection` of `a` and `b` into `s` must be refused (specification). -/
def algebraError3 (w : World K V Ty) (a b s : Nat) : Option Code :=
  if a = b ∨ a = s ∨ b = s then some .SameVaultRecordSet
  else if parentOf w a = none then some .ParentVaultNotValid
  else if parentOf w b = none then some .OtherParentVaultNotValid
  else if parentOf w a ≠ parentOf w b then some .ParentVaultNotMatch
  else none

theorem setOpCheck_eq {w : World K V Ty} {s a : Nat} {so ao : Obj K V Ty} (hs : w.getObj s = some so) (ha : w.getObj a = some ao) :
    setOpCheck so ao s a = algebraError w s a := by
  unfold setOpCheck algebraError; rw [parentOf_eq hs, parentOf_eq ha]

/-- `Join`, `Exclude`, `Intersect`, in any state: when the sets cannot be combined the answer is the documented code and the
world is exactly as before; otherwise the operation succeeds. -/
theorem C33_in_place {env : Env} {w : World K V Ty} {s a : Nat} (hs : isSetObj w s = true) (ha : isSetObj w a = true) {op : Op K V Ty}
    (hop : op = .setJoin s a ∨ op = .setExclude s a ∨ op = .setIntersect s a) :
    (∀ c, algebraError w s a = some c → outcome env w op = some (w, .res (.bad c none))) ∧
    (algebraError w s a = none → ∀ w' ans, outcome env w op = some (w', ans) → ans = .res (.good none)) := by
  obtain ⟨so, hso, _⟩ := isSetObj_iff.mp hs
  obtain ⟨ao, hao, _⟩ := isSetObj_iff.mp ha
  rw [← setOpCheck_eq hso hao]
  constructor
  · intro c hc
    rcases hop with rfl | rfl | rfl <;> simp [outcome, onSet, hs, ha, setJoin, setExclude, setIntersect, hso, hao, hc]
  · intro hc w' ans h
    rcases hop with rfl | rfl | rfl <;>
      simp [outcome, onSet, hs, ha, setJoin, setExclude, setIntersect, hso, hao, hc] at h <;>
      obtain ⟨_, _, _, rfl⟩ := h <;> rfl

/-- `Union` and `Intersection`, after any history: likewise. -/
theorem C33_into_third {G : World K V Ty → Op K V Ty → Prop} {env : Env} {w : World K V Ty} (hw : Reach G w) {a b s : Nat}
    (ha : isSetObj w a = true) (hb : isSetObj w b = true) (hs : isSetObj w s = true) {op : Op K V Ty}
    (hop : op = .setUnion a b s ∨ op = .setIntersection a b s) :
    (∀ c, algebraError3 w a b s = some c → outcome env w op = some (w, .res (.bad c none))) ∧
    (algebraError3 w a b s = none → ∀ w' ans, outcome env w op = some (w', ans) → ans = .res (.good none)) := by
  have hi := reach_ai hw
  have hn := reach_ni hw
  have hnv := NotVault.of hi (isSetObj_iff.mp hs)
  obtain ⟨so, hso, _⟩ := isSetObj_iff.mp hs
  obtain ⟨ao, hao, _⟩ := isSetObj_iff.mp ha
  obtain ⟨bo, hbo, _⟩ := isSetObj_iff.mp hb
  unfold algebraError3
  rw [parentOf_eq hao, parentOf_eq hbo]
  constructor
  · intro c hc
    rcases hop with rfl | rfl
    · simp only [outcome, onSet, hs, ha, hb, if_true, setUnion, hso, hao, hbo, Option.bind_eq_bind, Option.bind_some]
      repeat' split at hc
      all_goals simp_all
      all_goals (subst hc; rfl)
    · simp only [outcome, onSet, hs, ha, hb, if_true, setIntersection, hso, hao, hbo, Option.bind_eq_bind, Option.bind_some]
      cases hpa : ao.parent with
      | none => rw [hpa] at hc; split at hc <;> simp_all <;> (subst hc; rfl)
      | some p =>
        rw [hpa] at hc
        split at hc
        · simp_all
        · split at hc
          · simp_all
          · split at hc
            · simp_all
            · split at hc
              · rename_i h1 _ h2 h3
                simp only [if_neg h1, if_neg h2, if_pos (Ne.symm h3)]
                cases hc; rfl
              · cases hc
  · intro hc w' ans h
    have hne : ¬ (a = b ∨ a = s ∨ b = s) := by intro e; rw [if_pos e] at hc; cases hc
    rw [if_neg hne] at hc
    have hpa : ao.parent ≠ none := by intro e; rw [if_pos e] at hc; cases hc
    rw [if_neg hpa] at hc
    have hpb : bo.parent ≠ none := by intro e; rw [if_pos e] at hc; cases hc
    rw [if_neg hpb] at hc
    have hpe : ao.parent = bo.parent := by by_contra e; rw [if_pos e] at hc; cases hc
    rcases hop with rfl | rfl
    · simp only [outcome, onSet_iff, Option.map_eq_some_iff, Prod.exists, Prod.mk.injEq] at h
      obtain ⟨_, _, _, w1, res, h, rfl, rfl⟩ := h
      have hfair := setUnion_fair hi hn hnv h
      simp only [setUnion, hso, hao, hbo, Option.bind_eq_bind, Option.bind_some, if_neg hne, if_neg hpa, if_neg hpb] at h
      rw [if_neg (by simpa using hpe)] at h
      simp only [Option.bind_eq_some_iff] at h
      obtain ⟨w2, h1, h⟩ := h
      simp only [setJoin, Option.bind_eq_bind, Option.bind_eq_some_iff] at h
      obtain ⟨so2, hso2, bo2, hbo2, h⟩ := h
      have hchk : setOpCheck so2 bo2 s b = none := by
        have hsp : so2.parent = ao.parent := by
          obtain ⟨p, hp⟩ := Option.ne_none_iff_exists'.mp hpa
          have := setAssign_pr hi hn hnv (fun e => hne (.inr (.inl e.symm))) (p := p) (by rw [pr_of hao, hp]) h1
          rw [pr_of hso2] at this; rw [hp]; simpa using this
        have hbp : bo2.parent = bo.parent := by
          rcases (setAssign_fs hi hn hnv h1).getObj (q := b) (by simp; exact fun e => hne (.inr (.inr e))) with ⟨e, _⟩ | ⟨x, y, e1, e2, e3⟩
          · rw [hbo] at e; cases e
          · rw [hbo] at e1; cases e1
            rw [hbo2] at e2; cases e2
            rw [e3]
        unfold setOpCheck
        rw [hsp, hbp, ← hpe]; simp [hpa]
        exact fun e => hne (.inr (.inr e.symm))
      rw [hchk] at h
      simp only [Option.map_eq_some_iff, Prod.mk.injEq] at h
      obtain ⟨_, _, _, rfl⟩ := h
      rfl
    · simp only [outcome, onSet_iff, Option.map_eq_some_iff, Prod.exists, Prod.mk.injEq] at h
      obtain ⟨_, _, _, w1, res, h, rfl, rfl⟩ := h
      obtain ⟨p, hp⟩ := Option.ne_none_iff_exists'.mp hpa
      simp only [setIntersection, hso, hao, hbo, Option.bind_eq_bind, Option.bind_some, if_neg hne, hp, if_neg hpb] at h
      rw [if_neg (by rw [← hpe, hp]; simp)] at h
      simp only [Option.bind_eq_some_iff, Option.map_eq_some_iff, Prod.mk.injEq] at h
      obtain ⟨_, _, _, _, _, _, _, _, _, _, _, _, _, rfl⟩ := h
      rfl

/-- A set with a parent (1) and one without (2): each kind of refusal that needs no second vault, and a success. -/
example : algebraError demoSet 2 1 = some .ParentVaultNotValid ∧ algebraError demoSet 1 2 = some .OtherParentVaultNotValid ∧
    algebraError demoSet 1 1 = some .SameVaultRecordSet ∧ algebraError3 demoSet 1 2 1 = some .SameVaultRecordSet ∧ isSetObj demoSet 1 = true ∧ isSetObj demoSet 2 = true := by decide

/-! ### C49 -/

/-- After ordinary operations `SetData` through a reference of a vault never changes the value of a unique key: every call with
a value of the right type, also one no record holds, is refused with `UniqueKeyValueAlredyInSet`. -/
theorem C49_refuted {home : Nat → Nat} {env : Env} {w : World K V Ty} (hw : HReach Ordinary home w) {o r f : Nat} (ho : isVault w o = true)
    (hr : r ∈ members w o) (hf : target w f = some r) (ht : through w f = some o) {k : K} (hk : k ∈ getUniqueKeys w o) {v : V}
    (hv : getKeyType w o k = some (typeOf v)) : refSetData env w f k v = some (w, .bad .UniqueKeyValueAlredyInSet (some k)) := by
  obtain ⟨own, hi⟩ := reach_inv hw
  obtain ⟨vo, hvo, hs⟩ := isVault_iff.mp ho
  rw [members_eq hvo] at hr
  rw [getUniqueKeys_eq hvo] at hk
  obtain ⟨ref, h1, h2⟩ := target_some hf
  rw [through_eq h1] at ht
  obtain ⟨_, x, hx, hxv⟩ := hi.v.mem o vo hvo hs r hr
  have ok := hi.v.vok o vo hvo hs
  obtain ⟨c, hc, hm⟩ := (ok.uniqM k).mp hk
  have hco := ok.cols k c hc
  obtain ⟨v0, hv0, ht0⟩ := hco.typed r hr
  have hd : mget x.data k = some v0 := by simpa [cellOf, hx] using hv0
  have hh := hco.hashC (hco.uniq hm).1 r hr v0 hv0
  rw [getKeyType_eq hvo, hc] at hv
  simp only [Option.map_some, Option.some.injEq] at hv
  have hold : c.oldVal x.data k = v0 := by simp [Col.oldVal, readOr, hd, ht0]
  have hset : c.setVal v0 v r = none := by
    unfold Col.setVal
    rw [if_pos ⟨hm, by unfold hasVal; rw [List.any_eq_true]; exact ⟨_, hh, by simp⟩⟩]
  simp only [refSetData, h1, h2, ht, hvo, hx, hxv, Option.bind_eq_bind, Option.bind_some, setDataToRecord, setDataIndex, hc, hold, hset, hv]
  simp [Res.bad]

/-- Value 50 is held by no record. -/
example : isVault demoW 0 = true ∧ members demoW 0 = [0, 1] ∧ target demoW 0 = some 0 ∧ through demoW 0 = some 0 ∧ 2 ∈ getUniqueKeys demoW 0 ∧
    getKeyType demoW 0 2 = some (typeOf 50) ∧ value demoW 0 2 = some 7 ∧ value demoW 1 2 = some 8 := by decide

end MVault.W
