import Verif.WorldAny4
/-
Every history, continued: no object lists a record twice, and a set without parent is empty.
-/
set_option linter.unusedSectionVars false
set_option linter.unusedSimpArgs false
namespace MVault.W
variable {K V Ty : Type} [LinearOrder K] [LinearOrder V] [Typed V Ty] [DecidableEq Ty]

/-- No record twice; a set without parent is empty. -/
def RecsOk (x : Obj K V Ty) : Prop := x.recs.Nodup ∧ (x.isSet = true → x.parent = none → x.recs = [])

/-- For all objects. -/
def NI (w : World K V Ty) : Prop := ∀ o x, w.getObj o = some x → RecsOk x

theorem NI.of_objs {w w' : World K V Ty} (h : NI w) (e : w'.objs = w.objs) : NI w' := fun o x hx => h o x (by unfold World.getObj at hx ⊢; rw [← e]; exact hx)

theorem NI.putObj {w : World K V Ty} (h : NI w) (o : Nat) {y : Obj K V Ty} (hy : RecsOk y) : NI (w.putObj o y) := by
  intro o' x hx
  rw [getObj_putObj] at hx
  split at hx
  · cases hx; exact hy
  · exact h o' x hx

theorem NI.newObj {w : World K V Ty} (h : NI w) (o n : Nat) {y : Obj K V Ty} (hy : RecsOk y) : NI ({ w with objs := mput w.objs o y, nextO := n } : World K V Ty) :=
  h.putObj o hy

theorem NI.del {w : World K V Ty} (h : NI w) (o : Nat) : NI ({ w with objs := mdel w.objs o } : World K V Ty) := by
  intro o' x hx
  have : mget (mdel w.objs o) o' = some x := hx
  rw [mget_mdel] at this
  split at this
  · cases this
  · exact h o' x this

theorem NI.loop {A : Type} {f : World K V Ty → A → Option (World K V Ty)} (hf : ∀ w w' a, NI w → f w a = some w' → NI w') (l : List A)
    {w w' : World K V Ty} (hi : NI w) (h : loop f l w = some w') : NI w' :=
  loop_inv NI f l w w' (fun a _ b b' hb hh => hf b b' a hb hh) hi h

theorem RecsOk.nil {x : Obj K V Ty} (h : x.recs = []) : RecsOk x := ⟨by rw [h]; exact List.nodup_nil, fun _ _ => h⟩

theorem RecsOk.filter {x : Obj K V Ty} (h : RecsOk x) (p : Nat → Bool) {cols : List (K × Col V Ty)} : RecsOk { x with cols := cols, recs := x.recs.filter p } :=
  ⟨h.1.filter _, fun a b => by simp [h.2 a b]⟩

theorem setClear_ni {env : Env} {w w' : World K V Ty} {s : Nat} (hi : NI w) (h : setClear env w s = some w') : NI w' := by
  simp only [setClear, Option.bind_eq_bind, Option.bind_eq_some_iff] at h
  obtain ⟨so, hso, h⟩ := h
  split at h
  · cases h; exact hi
  · simp only [Option.bind_eq_some_iff] at h
    obtain ⟨w1, h1, h2⟩ := h; cases h2
    exact (hi.of_objs (loop_objs (fun _ _ _ h => eraseDep_objs h) _ h1)).putObj _ (.nil rfl)

theorem dropCore_ni {env : Env} {w w' : World K V Ty} {o : Nat} (hi : NI w) (h : dropCore env w o = some w') : NI w' := by
  simp only [dropCore, Option.bind_eq_bind, Option.bind_eq_some_iff] at h
  obtain ⟨vo, hvo, w1, h1, h2⟩ := h; cases h2
  exact (hi.of_objs (loop_objs (fun _ _ _ h => invalidate_objs h) _ h1)).putObj _ (.nil rfl)

/-- After `setReset` the set is detached and empty. -/
theorem setReset_ni {env : Env} {w w' : World K V Ty} {s : Nat} (ha : AI w) (hi : NI w) (h : setReset env w s = some w') : NI w' := by
  simp only [setReset, Option.bind_eq_bind, Option.bind_eq_some_iff] at h
  obtain ⟨so, hso, h⟩ := h
  split at h
  · cases h; exact hi
  · rename_i p hp
    simp only [Option.bind_eq_some_iff] at h
    obtain ⟨_, _, w1, h1, w2, h2, po, hpo, so', hso', h3⟩ := h
    cases h3
    have i2 := dropCore_ni (setClear_ni hi h1) h2
    have h2' := h2
    simp only [dropCore, Option.bind_eq_bind, Option.bind_eq_some_iff] at h2'
    obtain ⟨vo, hvo, w3, h3, h4⟩ := h2'; cases h4
    have hne : p ≠ s := by
      rintro rfl
      have hset : so.isSet = true := by
        cases hs : so.isSet with
        | true => rfl
        | false => have := ((ha.obj p so hso).vault hs).2.1; rw [hp] at this; cases this
      exact ((ha.obj p so hso).par p hp).2 (by rw [kind_eq hso, hset])
    have hs' : so'.recs = [] := by
      rw [getObj_putObj, if_neg hne, getObj_putObj, if_pos rfl] at hso'
      cases hso'; rfl
    refine (i2.putObj p (y := { po with sets := po.sets.filter (· ≠ s) }) (i2 p po hpo)).putObj s (.nil hs')

theorem eraseLocal_ni {w w' : World K V Ty} {o r : Nat} (hi : NI w) (h : eraseLocal w o r = some w') : NI w' := by
  simp only [eraseLocal, Option.bind_eq_bind, Option.bind_eq_some_iff] at h
  obtain ⟨vo, hvo, x, hx, h⟩ := h; cases h
  exact hi.putObj o ((hi o vo hvo).filter _)

theorem removeFromDeps_ni {env : Env} {w w' : World K V Ty} {r : Nat} (hi : NI w) (h : removeFromDeps env w r = some w') : NI w' := by
  simp only [removeFromDeps, Option.bind_eq_bind, Option.bind_eq_some_iff] at h
  obtain ⟨x, hx, h⟩ := h
  refine NI.loop (fun w w' s hi h => ?_) _ hi h
  simp only [Option.bind_eq_some_iff] at h
  obtain ⟨so, hso, h⟩ := h
  split at h
  · cases h; exact hi
  · split at h
    · cases h
    · exact eraseLocal_ni hi h

theorem eraseOne_ni {env : Env} {w w' : World K V Ty} {o r : Nat} (hi : NI w) (h : eraseOne env w o r = some w') : NI w' := by
  simp only [eraseOne, Option.bind_eq_bind, Option.bind_eq_some_iff] at h
  obtain ⟨vo, hvo, w1, h1, h⟩ := h
  have i1 := eraseLocal_ni hi h1
  split at h
  · simp only [Option.bind_eq_some_iff] at h
    obtain ⟨w2, h2, h⟩ := h
    exact (removeFromDeps_ni i1 h2).of_objs (invalidate_objs h)
  · cases h; exact i1

theorem removeRecord_ni {env : Env} {w w' : World K V Ty} {o r : Nat} {b : Bool} (hi : NI w) (h : removeRecord env w o r = some (w', b)) : NI w' := by
  simp only [removeRecord, Option.bind_eq_bind, Option.bind_eq_some_iff] at h
  obtain ⟨vo, hvo, h⟩ := h
  split at h
  · cases h; exact hi
  · simp only [Option.map_eq_some_iff, Prod.mk.injEq] at h
    obtain ⟨w2, h2, rfl, _⟩ := h; exact eraseOne_ni hi h2

theorem eraseRef_ni {env : Env} {w w' : World K V Ty} {o f : Nat} {b : Bool} (hi : NI w) (h : eraseRef env w o f = some (w', b)) : NI w' := by
  simp only [eraseRef, Option.bind_eq_bind, Option.bind_eq_some_iff] at h
  obtain ⟨ref, hf, h⟩ := h
  split at h
  · simp only [Option.map_eq_some_iff, Prod.mk.injEq] at h
    obtain ⟨_, _, rfl, _⟩ := h; exact hi
  · exact removeRecord_ni hi h

theorem eraseKV_ni {env : Env} {w w' : World K V Ty} {o : Nat} {k : K} {v : V} {res : Res K} (hi : NI w) (h : eraseKV env w o k v = some (w', res)) : NI w' := by
  simp only [eraseKV, Option.bind_eq_bind, Option.bind_eq_some_iff] at h
  obtain ⟨vo, hvo, h⟩ := h
  split at h
  · cases h; exact hi
  · split at h
    · cases h; exact hi
    · simp only [Option.map_eq_some_iff, Prod.mk.injEq] at h
      obtain ⟨w2, h2, rfl, _⟩ := h; exact eraseOne_ni hi h2

theorem eraseManyKV_ni {env : Env} {w w' : World K V Ty} {o n : Nat} {k : K} {v : V} {res : Res K} (hi : NI w) (h : eraseManyKV env w o k v n = some (w', res)) : NI w' := by
  simp only [eraseManyKV, Option.bind_eq_bind, Option.bind_eq_some_iff] at h
  obtain ⟨vo, hvo, h⟩ := h
  split at h
  · cases h; exact hi
  · split at h
    · cases h; exact hi
    · simp only [Option.map_eq_some_iff, Prod.mk.injEq] at h
      obtain ⟨w2, h2, rfl, _⟩ := h; exact NI.loop (fun _ _ _ hi h => eraseOne_ni hi h) _ hi h2

theorem dropData_ni {env : Env} {w w' : World K V Ty} {o : Nat} (hi : NI w) (h : dropData env w o = some w') : NI w' := by
  simp only [dropData, Option.bind_eq_bind, Option.bind_eq_some_iff] at h
  obtain ⟨vo, hvo, w1, h1, w2, h2, vo2, hvo2, h3⟩ := h; cases h3
  exact ((NI.loop (fun _ _ _ hi h => setClear_ni hi h) _ hi h1).of_objs (loop_objs (fun _ _ _ h => invalidate_objs h) _ h2)).putObj _ (.nil rfl)

theorem loop_setReset_ni {env : Env} (l : List Nat) {w w' : World K V Ty} (ha : AI w) (hi : NI w) (h : loop (setReset env) l w = some w') : NI w' := by
  exact (loop_inv (fun w => AI w ∧ NI w) _ _ _ _ (fun s _ b b' hb hh => ⟨(setReset_st hb.1 hh []).ai, setReset_ni hb.1 hb.2 hh⟩) ⟨ha, hi⟩ h).2

theorem dropVault_ni {env : Env} {w w' : World K V Ty} {o : Nat} (ha : AI w) (hi : NI w) (h : dropVault env w o = some w') : NI w' := by
  simp only [dropVault, Option.bind_eq_bind, Option.bind_eq_some_iff] at h
  obtain ⟨vo, hvo, w1, h1, h2⟩ := h
  exact dropCore_ni (loop_setReset_ni _ ha hi h1) h2

theorem setDataIndex_ni {w w' : World K V Ty} {o r : Nat} {k : K} {v : V} {res : Res K} (hi : NI w) (h : setDataIndex w o r k v = some (w', res)) : NI w' := by
  simp only [setDataIndex, Option.bind_eq_bind, Option.bind_eq_some_iff] at h
  obtain ⟨vo, hvo, x, hx, h⟩ := h
  split at h
  · cases h; exact hi
  · split at h
    · cases h; exact hi
    · split at h
      · cases h; exact hi
      · split at h
        · cases h; exact hi
        · cases h; exact hi.putObj _ (hi o vo hvo)

theorem updateDeps_ni {env : Env} {w w' : World K V Ty} {r : Nat} {k : K} {v : V} (hi : NI w) (h : updateDeps env w r k v = some w') : NI w' := by
  simp only [updateDeps, Option.bind_eq_bind, Option.bind_eq_some_iff] at h
  obtain ⟨x, _, h⟩ := h
  refine NI.loop (fun w w' s hi h => ?_) _ hi h
  simp only [Option.bind_eq_some_iff] at h
  obtain ⟨so, _, h⟩ := h
  split at h
  · cases h
  · simp only [Option.map_eq_some_iff, Prod.exists] at h
    obtain ⟨_, _, h1, rfl⟩ := h
    exact setDataIndex_ni hi h1

theorem refSetData_ni {env : Env} {w w' : World K V Ty} {f : Nat} {k : K} {v : V} {res : Res K} (hi : NI w)
    (h : refSetData env w f k v = some (w', res)) : NI w' := by
  simp only [refSetData, Option.bind_eq_bind, Option.bind_eq_some_iff] at h
  obtain ⟨ref, hf, h⟩ := h
  split at h
  · cases h; exact hi
  · simp only [Option.bind_eq_some_iff] at h
    obtain ⟨o, _, oo, hoo, x, hx, h⟩ := h
    split at h
    · cases h; exact hi
    · simp only [setDataToRecord, Option.bind_eq_bind, Option.bind_eq_some_iff, Prod.exists] at h
      obtain ⟨vo, hvo, w1, r1, h1, h⟩ := h
      have i1 := setDataIndex_ni hi h1
      split at h
      · cases h; exact i1
      · split at h
        · simp only [Option.bind_eq_some_iff, Option.some.injEq, Prod.mk.injEq] at h
          obtain ⟨w2, h2, _, _, rfl, _⟩ := h
          exact (updateDeps_ni i1 h2).of_objs rfl
        · cases h; exact i1

theorem refSetDataMany_ni {env : Env} {w w' : World K V Ty} {f : Nat} {ps : List (K × V)} {res : Res K} (hi : NI w)
    (h : refSetDataMany env w f ps = some (w', res)) : NI w' := by
  simp only [refSetDataMany, Option.bind_eq_bind, Option.bind_eq_some_iff] at h
  obtain ⟨ref, _, o, _, oo, _, h⟩ := h
  have : ∀ (l : List (K × V)) (w : World K V Ty) (r0 : Res K), NI w → refSetDataLoop env f l w r0 = some (w', res) → NI w' := by
    intro l
    induction l with
    | nil => intro w r0 h0 h; cases h; exact h0
    | cons p l ih =>
      obtain ⟨k, v⟩ := p
      intro w r0 h0 h
      simp only [refSetDataLoop, Option.bind_eq_bind, Option.bind_eq_some_iff, Prod.exists] at h
      obtain ⟨w1, r1, h1, h⟩ := h
      split at h
      · cases h; exact refSetData_ni h0 h1
      · exact ih _ _ (refSetData_ni h0 h1) h
  exact this ps w _ hi h

theorem addKeyLocal_ni {env : Env} {w w' : World K V Ty} {o : Nat} {k : K} {d : V} {res : Res K} (hi : NI w) (h : addKeyLocal env w o k d = some (w', res)) : NI w' := by
  simp only [addKeyLocal, Option.bind_eq_bind, Option.bind_eq_some_iff] at h
  obtain ⟨vo, hvo, h⟩ := h
  split at h
  · cases h; exact hi
  · simp only [Option.bind_eq_some_iff] at h
    obtain ⟨w1, h1, h⟩ := h; cases h
    exact (hi.of_objs (loop_objs (fun _ _ _ h => writeCell_objs h) _ h1)).putObj _ (y := vo.withKey k d false _) (hi o vo hvo)

theorem addUniqueLocal_ni {env : Env} {w w' : World K V Ty} {o : Nat} {k : K} {t : Ty} {noFn : Bool} {f : Nat → Nat → V} {res : Res K} (hi : NI w)
    (h : addUniqueLocal env w o k t noFn f = some (w', res)) : NI w' := by
  simp only [addUniqueLocal, Option.bind_eq_bind, Option.bind_eq_some_iff] at h
  obtain ⟨vo, hvo, h⟩ := h
  split at h
  · cases h; exact hi
  · split at h
    · cases h; exact hi
    · split at h
      · cases h; exact hi
      · split at h <;> simp only [Option.bind_eq_some_iff, Option.bind_some] at h
        · obtain ⟨w1, h1, h⟩ := h; cases h
          exact (hi.of_objs (loop_objs (fun _ _ _ h => writeCell_objs h) _ h1)).putObj _ (y := vo.withKey k _ true _) (hi o vo hvo)
        · cases h; exact hi.putObj _ (y := vo.withKey k _ true _) (hi o vo hvo)

theorem pushKey_ni {w w' : World K V Ty} {s : Nat} {k : K} (hi : NI w) (h : pushKey k w s = some w') : NI w' := by
  simp only [pushKey, Option.map_eq_some_iff] at h
  obtain ⟨so, hso, rfl⟩ := h
  exact hi.putObj _ (hi s so hso)

theorem addKey_ni {env : Env} {w w' : World K V Ty} {o : Nat} {k : K} {d : V} {res : Res K} (hi : NI w) (h : addKey env w o k d = some (w', res)) : NI w' := by
  simp only [addKey, Option.bind_eq_bind, Option.bind_eq_some_iff, Prod.exists] at h
  obtain ⟨vo, hvo, w1, r1, h1, h⟩ := h
  have i1 := addKeyLocal_ni hi h1
  split at h
  · cases h; exact i1
  · simp only [Option.bind_eq_some_iff] at h
    obtain ⟨w2, h2, h⟩ := h; cases h
    refine NI.loop (fun w w' s hi h => ?_) _ i1 h2
    simp only [Option.bind_eq_some_iff, Prod.exists] at h
    obtain ⟨w1, r1, h1, h⟩ := h
    exact pushKey_ni (addKeyLocal_ni hi h1) h

theorem addUniqueKey_ni {env : Env} {w w' : World K V Ty} {o : Nat} {k : K} {t : Ty} {noFn : Bool} {f : Nat → Nat → Nat → V} {res : Res K} (hi : NI w)
    (h : addUniqueKey env w o k t noFn f = some (w', res)) : NI w' := by
  simp only [addUniqueKey, Option.bind_eq_bind, Option.bind_eq_some_iff, Prod.exists] at h
  obtain ⟨vo, hvo, w1, r1, h1, h⟩ := h
  have i1 := addUniqueLocal_ni hi h1
  split at h
  · cases h; exact i1
  · simp only [Option.bind_eq_some_iff] at h
    obtain ⟨w2, h2, h⟩ := h; cases h
    refine NI.loop (fun w w' s hi h => ?_) _ i1 h2
    simp only [Option.bind_eq_some_iff, Prod.exists] at h
    obtain ⟨w1, r1, h1, h⟩ := h
    exact pushKey_ni (addUniqueLocal_ni hi h1) h

theorem updateKey_ni {w w' : World K V Ty} {o : Nat} {k : K} {d : V} {res : Res K} (hi : NI w) (h : updateKey w o k d = some (w', res)) : NI w' := by
  simp only [updateKey, Option.bind_eq_bind, Option.bind_eq_some_iff] at h
  obtain ⟨vo, hvo, h⟩ := h
  split at h
  · cases h; exact hi
  · split at h
    · cases h; exact hi
    · cases h; exact hi.putObj _ (hi o vo hvo)

theorem removeKeyLocal_ni {w w' : World K V Ty} {s : Nat} {k : K} (hi : NI w) (h : removeKeyLocal k w s = some w') : NI w' := by
  simp only [removeKeyLocal, Option.map_eq_some_iff] at h
  obtain ⟨so, hso, h⟩ := h
  split at h <;> subst h
  · exact hi.putObj _ (y := so.withoutKey k) (hi s so hso)
  · exact hi

theorem removeKey_ni {env : Env} {w w' : World K V Ty} {o : Nat} {k : K} {b : Bool} (hi : NI w) (h : removeKey env w o k = some (w', b)) : NI w' := by
  simp only [removeKey, Option.bind_eq_bind, Option.bind_eq_some_iff] at h
  obtain ⟨vo, hvo, h⟩ := h
  split at h
  · cases h; exact hi
  · simp only [Option.bind_eq_some_iff] at h
    obtain ⟨w2, h2, w3, h3, h⟩ := h; cases h
    have i1 := hi.putObj o (y := vo.withoutKey k) (hi o vo hvo)
    have i2 : NI w2 := i1.of_objs (loop_objs (fun w w' r h => by
      simp only [dropCell, Option.map_eq_some_iff] at h; obtain ⟨x, _, rfl⟩ := h; rfl) _ h2)
    exact NI.loop (fun _ _ _ hi h => removeKeyLocal_ni hi h) _ i2 h3

theorem insertRecord_ni {w w' : World K V Ty} {o : Nat} {data : List (K × V)} {out : Except K Nat} (ha : AI w) (hi : NI w) (hs : NotSet w o)
    (h : insertRecord w o data = some (w', out)) : NI w' := by
  simp only [insertRecord, Option.bind_eq_bind, Option.bind_eq_some_iff, Prod.exists] at h
  obtain ⟨vo, hvo, cols, clash, _, h⟩ := h
  split at h
  · cases h; exact hi.putObj o (hi o vo hvo)
  · cases h
    refine NI.putObj (w := { w with recs := _, nextR := _ }) (fun o' x hx => hi o' x hx) o ⟨?_, ?_⟩
    · show (vo.recs ++ [w.nextR]).Nodup
      rw [List.nodup_append]
      refine ⟨(hi o vo hvo).1, by simp, ?_⟩
      intro a ha' b hb e
      have := (ha.obj o vo hvo).recs a ha'
      simp at hb; omega
    · intro hset; simp only at hset; rw [hs.obj hvo] at hset; cases hset

theorem createRecord_ni {w w' : World K V Ty} {o f : Nat} {ps : List (K × V)} {res : Res K} (ha : AI w) (hi : NI w) (hs : NotSet w o)
    (h : createRecord w o f ps = some (w', res)) : NI w' := by
  simp only [createRecord, Option.bind_eq_bind, Option.bind_eq_some_iff] at h
  obtain ⟨vo, hvo, h⟩ := h
  split at h
  · cases h; exact hi
  · simp only [Option.bind_eq_some_iff, Prod.exists] at h
    obtain ⟨w1, out, h1, h⟩ := h
    have i1 := insertRecord_ni ha hi hs h1
    split at h
    · cases h; exact i1
    · simp only [Option.map_eq_some_iff, Prod.mk.injEq] at h
      obtain ⟨w2, h2, rfl, _⟩ := h
      exact i1.of_objs (setRecord_rf h2).1.objs

theorem createRow_ni {w w' : World K V Ty} {o : Nat} {ps : List (K × V)} {res : Res K} (ha : AI w) (hi : NI w) (hs : NotSet w o)
    (h : createRow w o ps = some (w', res)) : NI w' := by
  simp only [createRow, Option.bind_eq_bind, Option.bind_eq_some_iff] at h
  obtain ⟨vo, hvo, h⟩ := h
  split at h
  · cases h; exact hi
  · simp only [Option.bind_eq_some_iff, Prod.exists] at h
    obtain ⟨w1, out, h1, h⟩ := h
    have i1 := insertRecord_ni ha hi hs h1
    split at h
    · cases h; exact i1
    · cases h; exact i1

theorem addCols_ni {w w' : World K V Ty} {s r : Nat} (hi : NI w) (h : attach s w r = some w') : NI w' := by
  simp only [attach, Option.bind_eq_bind, Option.bind_eq_some_iff] at h
  obtain ⟨so, hso, x, hx, h⟩ := h
  exact (hi.putObj s (y := { so with cols := addCols so.cols x.data r }) (hi s so hso)).of_objs (addDep_objs h)

theorem fillTarget_ni {env : Env} {w w' : World K V Ty} {s : Nat} {l : List Nat} (hi : NI w) (hp : ∀ so, w.getObj s = some so → so.parent ≠ none)
    (h : fillTarget env w s l = some w') : NI w' := by
  simp only [fillTarget, Option.bind_eq_bind, Option.bind_eq_some_iff] at h
  obtain ⟨so, hso, h⟩ := h
  refine NI.loop (fun _ _ _ hi h => addCols_ni hi h) _ (hi.putObj s (y := { so with recs := l.foldl setIns so.recs }) ⟨nodup_foldl_setIns _ _ (hi s so hso).1, fun _ e => absurd e (hp so hso)⟩) h

theorem copyKeys_ni {env : Env} {src : Obj K V Ty} {w w' : World K V Ty} {s : Nat} (hi : NI w) (h : copyKeys env src w s = some w') : NI w' := by
  refine NI.loop (fun w w' kc hi h => ?_) _ hi h
  simp only [Option.map_eq_some_iff, Prod.exists] at h
  obtain ⟨w1, res, h1, rfl⟩ := h
  exact addKeyLocal_ni hi h1

/-- Parent of an object. -/
def pr (w : World K V Ty) (q : Nat) : Option (Option Nat) := (w.getObj q).map (·.parent)
/-- Records of an object. -/
def rs (w : World K V Ty) (q : Nat) : Option (List Nat) := (w.getObj q).map (·.recs)

theorem pr_putObj {w : World K V Ty} {o : Nat} {x y : Obj K V Ty} (hx : w.getObj o = some x) (e : y.parent = x.parent) (q : Nat) : pr (w.putObj o y) q = pr w q := by
  unfold pr; rw [getObj_putObj]
  split
  · rename_i h; subst h; simp [hx, e]
  · rfl

theorem rs_putObj {w : World K V Ty} {o : Nat} {x y : Obj K V Ty} (hx : w.getObj o = some x) (e : y.recs = x.recs) (q : Nat) : rs (w.putObj o y) q = rs w q := by
  unfold rs; rw [getObj_putObj]
  split
  · rename_i h; subst h; simp [hx, e]
  · rfl

theorem pr_objs {w w' : World K V Ty} (e : w'.objs = w.objs) (q : Nat) : pr w' q = pr w q := by unfold pr World.getObj; rw [e]
theorem rs_objs {w w' : World K V Ty} (e : w'.objs = w.objs) (q : Nat) : rs w' q = rs w q := by unfold rs World.getObj; rw [e]
theorem getObj_objs {w w' : World K V Ty} (e : w'.objs = w.objs) (q : Nat) : w'.getObj q = w.getObj q := by unfold World.getObj; rw [e]

theorem loop_same {A B : Type} {f : World K V Ty → A → Option (World K V Ty)} {g : World K V Ty → B} (hf : ∀ w w' a, f w a = some w' → g w' = g w) (l : List A)
    {w w' : World K V Ty} (h : loop f l w = some w') : g w' = g w :=
  loop_inv (fun v => g v = g w) f l w w' (fun a _ b b' hb hh => (hf b b' a hh).trans hb) rfl h

theorem addKeyLocal_pr {env : Env} {w w' : World K V Ty} {o : Nat} {k : K} {d : V} {res : Res K} (h : addKeyLocal env w o k d = some (w', res)) (q : Nat) :
    pr w' q = pr w q ∧ rs w' q = rs w q := by
  simp only [addKeyLocal, Option.bind_eq_bind, Option.bind_eq_some_iff] at h
  obtain ⟨vo, hvo, h⟩ := h
  split at h
  · cases h; exact ⟨rfl, rfl⟩
  · simp only [Option.bind_eq_some_iff] at h
    obtain ⟨w1, h1, h⟩ := h; cases h
    have e := loop_objs (fun _ _ _ h => writeCell_objs h) _ h1
    have hv1 := (getObj_objs e o).trans hvo
    exact ⟨(pr_putObj hv1 (by rfl) q).trans (pr_objs e q), (rs_putObj hv1 (by rfl) q).trans (rs_objs e q)⟩

theorem copyKeys_pr {env : Env} {src : Obj K V Ty} {w w' : World K V Ty} {s : Nat} (h : copyKeys env src w s = some w') (q : Nat) :
    pr w' q = pr w q ∧ rs w' q = rs w q := by
  have := loop_same (g := fun w => (pr w q, rs w q)) (fun w w' kc h => by
    simp only [Option.map_eq_some_iff, Prod.exists] at h
    obtain ⟨w1, res, h1, rfl⟩ := h
    have := addKeyLocal_pr h1 q
    rw [this.1, this.2]) _ h
  simpa using this

theorem pr_of {w : World K V Ty} {q : Nat} {x : Obj K V Ty} (h : w.getObj q = some x) : pr w q = some x.parent := by simp [pr, h]
theorem rs_of {w : World K V Ty} {q : Nat} {x : Obj K V Ty} (h : w.getObj q = some x) : rs w q = some x.recs := by simp [rs, h]

theorem setClear_pr {env : Env} {w w' : World K V Ty} {s : Nat} (h : setClear env w s = some w') (q : Nat) : pr w' q = pr w q := by
  simp only [setClear, Option.bind_eq_bind, Option.bind_eq_some_iff] at h
  obtain ⟨so, hso, h⟩ := h
  split at h
  · cases h; rfl
  · simp only [Option.bind_eq_some_iff] at h
    obtain ⟨w1, h1, h2⟩ := h; cases h2
    have e := loop_objs (fun _ _ _ h => eraseDep_objs h) _ h1
    exact (pr_putObj ((getObj_objs e s).trans hso) (by rfl) q).trans (pr_objs e q)

/-- After `prepTarget` the target has the vault as its parent. -/
theorem prepTarget_pr {env : Env} {w w' : World K V Ty} {o p s : Nat} (h : prepTarget env w o p s = some w') : pr w' s = some (some p) := by
  simp only [prepTarget, Option.bind_eq_bind, Option.bind_eq_some_iff] at h
  obtain ⟨po, hpo, so, hso, h⟩ := h
  split at h
  · rename_i hp
    rw [setClear_pr h s, pr_of hso, hp]
  · simp only [Option.bind_eq_some_iff] at h
    obtain ⟨w2, h2, so2, hso2, oo, hoo, w4, h4, so4, hso4, h⟩ := h
    cases h
    rw [pr_putObj hso4 (by rfl), (copyKeys_pr h4 s).1, pr_of (getObj_putObj_self _ _ _)]

theorem setReset_obj {env : Env} {w w' : World K V Ty} {s : Nat} (ha : AI w) (hi : NI w) (hs : NotVault w s) (h : setReset env w s = some w') :
    pr w' s = some none ∧ rs w' s = some [] := by
  have i := setReset_ni ha hi h
  have hn := hs.st (setReset_st ha h [])
  have : pr w' s = some none := by
    simp only [setReset, Option.bind_eq_bind, Option.bind_eq_some_iff] at h
    obtain ⟨so, hso, h⟩ := h
    split at h
    · rename_i e; cases h; rw [pr_of hso, e]
    · simp only [Option.bind_eq_some_iff] at h
      obtain ⟨_, _, w1, h1, w2, h2, po, hpo, so', hso', h3⟩ := h
      cases h3
      rw [pr_of (getObj_putObj_self _ _ _)]
  refine ⟨this, ?_⟩
  unfold pr at this
  obtain ⟨x, hx, e⟩ := Option.map_eq_some_iff.mp this
  rw [rs_of hx, (i s x hx).2 (hn.obj hx) e]

theorem prepTarget_ni {env : Env} {w w' : World K V Ty} {o p s : Nat} (ha : AI w) (hi : NI w) (hp : NotSet w p) (hs : NotVault w s)
    (h : prepTarget env w o p s = some w') : NI w' := by
  simp only [prepTarget, Option.bind_eq_bind, Option.bind_eq_some_iff] at h
  obtain ⟨po, hpo, so, hso, h⟩ := h
  have i1 := hi.putObj p (y := { po with sets := setIns po.sets s }) (hi p po hpo)
  have s1 := ha.link hpo (hp.obj hpo) (setIns po.sets s) (fun a ha' => by
    rcases (mem_setIns _ _ _).mp ha' with h | rfl
    · exact (ha.obj p po hpo).sets a h
    · exact hs) []
  split at h
  · exact setClear_ni i1 h
  · simp only [Option.bind_eq_some_iff] at h
    obtain ⟨w2, h2, so2, hso2, oo, hoo, w4, h4, so4, hso4, h⟩ := h
    cases h
    have i2 := setReset_ni s1.ai i1 h2
    have e2 := (setReset_obj s1.ai i1 (hs.st s1) h2).2
    rw [rs_of hso2] at e2; cases e2' : so2.recs with
    | cons a l => rw [e2'] at e2; cases e2
    | nil =>
    have i3 := i2.putObj s (y := { so2 with parent := some p }) (.nil e2')
    have i4 := copyKeys_ni i3 h4
    exact i4.putObj s (y := { so4 with keysOrder := oo.keysOrder, uniq := oo.uniq }) (i4 s so4 hso4)

theorem request_ni {env : Env} {w w' : World K V Ty} {o : Nat} {ty : ReqType} {k : K} {a b : V} {ia ib : Bool} {n : Option Nat} {pred : Nat → Bool} {s : Nat} {res : Res K}
    (ha : AI w) (hi : NI w) (hs : NotVault w s) (h : request env w o ty k a b ia ib n pred s = some (w', res)) : NI w' := by
  simp only [request, Option.bind_eq_bind, Option.bind_eq_some_iff] at h
  obtain ⟨oo, hoo, h⟩ := h
  split at h
  · cases h; exact hi
  · rename_i p hp
    split at h
    · cases h; exact hi
    · simp only [Option.bind_eq_some_iff] at h
      obtain ⟨w1, h1, oo', _, out, _, h⟩ := h
      have hpn := vaultOf_notSet ha hoo hp
      have i1 := prepTarget_ni ha hi hpn hs h1
      have e1 := prepTarget_pr h1
      split at h
      · cases h; exact i1
      · simp only [Option.map_eq_some_iff, Prod.mk.injEq] at h
        obtain ⟨w2, h2, rfl, rfl⟩ := h
        exact fillTarget_ni i1 (fun so hso => by rw [pr_of hso] at e1; cases e1'' : so.parent <;> rw [e1''] at e1 <;> simp at e1 ⊢) h2

theorem requestTree_ni {env : Env} {w w' : World K V Ty} {o : Nat} {q : Req K V} {s : Nat} {res : Res K}
    (ha : AI w) (hi : NI w) (hs : NotVault w s) (h : requestTree env w o q s = some (w', res)) : NI w' := by
  simp only [requestTree, Option.bind_eq_bind, Option.bind_eq_some_iff] at h
  obtain ⟨oo, hoo, h⟩ := h
  split at h
  · cases h; exact hi
  · rename_i p hp
    split at h
    · cases h; exact hi
    · simp only [Option.bind_eq_some_iff] at h
      obtain ⟨w1, h1, oo', _, out, _, h⟩ := h
      have hpn := vaultOf_notSet ha hoo hp
      have i1 := prepTarget_ni ha hi hpn hs h1
      have e1 := prepTarget_pr h1
      split at h <;> simp only [Option.map_eq_some_iff, Prod.mk.injEq] at h <;> obtain ⟨w2, h2, rfl, rfl⟩ := h
      · exact setClear_ni i1 h2
      · exact fillTarget_ni i1 (fun so hso => by rw [pr_of hso] at e1; cases e1'' : so.parent <;> rw [e1''] at e1 <;> simp at e1 ⊢) h2

theorem setAddRecord_ni {w w' : World K V Ty} {s f : Nat} {res : Res K} (hi : NI w) (h : setAddRecord w s f = some (w', res)) : NI w' := by
  simp only [setAddRecord, Option.bind_eq_bind, Option.bind_eq_some_iff] at h
  obtain ⟨so, hso, h⟩ := h
  split at h
  · cases h; exact hi
  · rename_i p hp
    simp only [Option.bind_eq_some_iff] at h
    obtain ⟨ref, _, val, _, h⟩ := h
    split at h
    · cases h; exact hi
    split at h
    · cases h; exact hi
    split at h
    · cases h
    split at h
    · cases h; exact hi
    rename_i hr
    simp only [Option.map_eq_some_iff, Prod.mk.injEq] at h
    obtain ⟨w2, h2, rfl, _⟩ := h
    refine addCols_ni (hi.putObj s (y := { so with recs := so.recs ++ [_] }) ⟨?_, fun _ e => by simp only at e; rw [hp] at e; cases e⟩) h2
    rw [List.nodup_append]
    exact ⟨(hi s so hso).1, by simp, fun a ha b hb e => by simp at hb; subst hb; subst e; exact hr ha⟩

theorem addOnly_ni {w w' : World K V Ty} {s r : Nat} (hi : NI w) (hp : pr w s ≠ some none) (h : addOnly s w r = some w') : NI w' ∧ pr w' s ≠ some none := by
  simp only [addOnly, Option.bind_eq_bind, Option.bind_eq_some_iff] at h
  obtain ⟨so, hso, h⟩ := h
  split at h
  · cases h; exact ⟨hi, hp⟩
  · rename_i hr
    simp only [Option.bind_eq_some_iff] at h
    obtain ⟨x, hx, h⟩ := h; cases h
    refine ⟨hi.putObj s ⟨?_, fun _ e => ?_⟩, by rw [pr_putObj hso (by rfl)]; exact hp⟩
    · show (so.recs ++ [r]).Nodup
      rw [List.nodup_append]
      exact ⟨(hi s so hso).1, by simp, fun a ha b hb e => by simp at hb; subst hb; subst e; exact hr ha⟩
    · simp only at e; rw [pr_of hso, e] at hp; exact absurd rfl hp

theorem loop_addOnly_ni {s : Nat} (l : List Nat) {w w' : World K V Ty} (hi : NI w) (hp : pr w s ≠ some none) (h : loop (addOnly s) l w = some w') : NI w' :=
  (loop_inv (fun w => NI w ∧ pr w s ≠ some none) _ _ _ _ (fun _ _ _ _ hb hh => addOnly_ni hb.1 hb.2 hh) ⟨hi, hp⟩ h).1

theorem setJoin_ni {env : Env} {w w' : World K V Ty} {s a : Nat} {res : Res K} (hi : NI w) (h : setJoin env w s a = some (w', res)) : NI w' := by
  simp only [setJoin, Option.bind_eq_bind, Option.bind_eq_some_iff] at h
  obtain ⟨so, hso, ao, hao, h⟩ := h
  split at h
  · cases h; exact hi
  · rename_i hc
    simp only [Option.map_eq_some_iff, Prod.mk.injEq] at h
    obtain ⟨w2, h2, rfl, _⟩ := h
    refine loop_addOnly_ni _ hi ?_ h2
    rw [pr_of hso]; intro e; simp only [Option.some.injEq] at e; simp [setOpCheck, e] at hc

theorem loop_removeRecord_ni {env : Env} {s : Nat} (l : List Nat) {w w' : World K V Ty} (hi : NI w)
    (h : loop (fun w r => (removeRecord env w s r).map (·.1)) l w = some w') : NI w' :=
  NI.loop (fun w w' r hi h => by
    simp only [Option.map_eq_some_iff, Prod.exists] at h
    obtain ⟨_, _, h1, rfl⟩ := h; exact removeRecord_ni hi h1) _ hi h

theorem setExclude_ni {env : Env} {w w' : World K V Ty} {s a : Nat} {res : Res K} (hi : NI w) (h : setExclude env w s a = some (w', res)) : NI w' := by
  simp only [setExclude, Option.bind_eq_bind, Option.bind_eq_some_iff] at h
  obtain ⟨so, hso, ao, hao, h⟩ := h
  split at h
  · cases h; exact hi
  · simp only [Option.map_eq_some_iff, Prod.mk.injEq] at h
    obtain ⟨w2, h2, rfl, _⟩ := h
    exact loop_removeRecord_ni _ hi h2

theorem setIntersect_ni {env : Env} {w w' : World K V Ty} {s a : Nat} {res : Res K} (hi : NI w) (h : setIntersect env w s a = some (w', res)) : NI w' := by
  simp only [setIntersect, Option.bind_eq_bind, Option.bind_eq_some_iff] at h
  obtain ⟨so, hso, ao, hao, h⟩ := h
  split at h
  · cases h; exact hi
  · simp only [Option.map_eq_some_iff, Prod.mk.injEq] at h
    obtain ⟨w2, h2, rfl, _⟩ := h
    exact loop_removeRecord_ni _ hi h2

theorem attach_pr {w w' : World K V Ty} {s r : Nat} (h : attach s w r = some w') (q : Nat) : pr w' q = pr w q := by
  simp only [attach, Option.bind_eq_bind, Option.bind_eq_some_iff] at h
  obtain ⟨so, hso, x, hx, h⟩ := h
  exact (pr_objs (addDep_objs h) q).trans (pr_putObj hso (by rfl) q)

theorem copySet_ni {env : Env} {w w' : World K V Ty} {s a : Nat} (hi : NI w) (hs : rs w s = some [])
    (hps : ∀ p, pr w a = some (some p) → p ≠ s) (h : copySet env w s a = some w') : NI w' := by
  simp only [copySet, Option.bind_eq_bind, Option.bind_eq_some_iff] at h
  obtain ⟨ao, hao, p, hp, po0, hpo0, so, hso, w2, h2, so2, hso2, po, hpo, h⟩ := h
  have hne := hps p (by rw [pr_of hao, hp])
  rw [rs_of hso] at hs
  have hs' : so.recs = [] := by simpa using hs
  have i1 := hi.putObj s (y := { so with isBase := false, parent := some p }) (.nil hs')
  have i2 := copyKeys_ni i1 h2
  have i3 := i2.putObj s (y := { so2 with keysOrder := ao.keysOrder, uniq := ao.uniq }) (i2 s so2 hso2)
  have i4 := i3.putObj p (y := { po with sets := setIns po.sets s }) (i3 p po hpo)
  have e2 : so2.parent = some p := by
    have := (copyKeys_pr h2 s).1
    rw [pr_of hso2, pr_of (getObj_putObj_self _ _ _)] at this; simpa using this
  refine (loop_inv (fun w => NI w ∧ pr w s = some (some p)) _ _ _ _ (fun r _ b b' hb hh => ?_) ⟨i4, ?_⟩ h).1
  · simp only [Option.bind_eq_some_iff] at hh
    obtain ⟨so, hso, hh⟩ := hh
    have ep : so.parent = some p := by have := hb.2; rw [pr_of hso] at this; simpa using this
    refine ⟨addCols_ni (hb.1.putObj s (y := { so with recs := setIns so.recs r }) ⟨nodup_setIns _ _ (hb.1 s so hso).1, fun _ e => by simp only at e; rw [ep] at e; cases e⟩) hh, ?_⟩
    rw [attach_pr hh, pr_of (getObj_putObj_self _ _ _)]; simp [ep]
  · rw [pr_putObj hpo (by rfl), pr_of (getObj_putObj_self _ _ _)]; simp [e2]

theorem par_ne {w : World K V Ty} (ha : AI w) {s a p : Nat} (hs : NotVault w s) (hl : ∃ so, w.getObj s = some so) (h : pr w a = some (some p)) : p ≠ s := by
  rintro rfl
  unfold pr at h
  obtain ⟨x, hx, e⟩ := Option.map_eq_some_iff.mp h
  obtain ⟨so, hso⟩ := hl
  exact ((ha.obj a x hx).par p e).2 (by rw [kind_eq hso, hs.obj hso])

theorem setCopyNew_ni {env : Env} {w w' : World K V Ty} {a : Nat} (ha : AI w) (hi : NI w) (h : setCopyNew env w a = some w') : NI w' := by
  simp only [setCopyNew, Option.bind_eq_bind, Option.bind_eq_some_iff] at h
  obtain ⟨ao, hao, h⟩ := h
  obtain ⟨s1, n1⟩ := newSetObj_st ha true []
  have i1 : NI ({ w with objs := mput w.objs w.nextO { Obj.newSet with isBase := true }, nextO := w.nextO + 1 } : World K V Ty) := hi.newObj _ _ (.nil rfl)
  have hg : World.getObj ({ w with objs := mput w.objs w.nextO { Obj.newSet with isBase := true }, nextO := w.nextO + 1 } : World K V Ty) w.nextO = some { Obj.newSet with isBase := true } :=
    getObj_putObj_self w _ _
  split at h
  · cases h; exact i1
  · exact copySet_ni i1 (rs_of hg) (fun p hp => par_ne s1.ai n1 ⟨_, hg⟩ hp) h

theorem setAssign_ni {env : Env} {w w' : World K V Ty} {s a : Nat} (ha : AI w) (hi : NI w) (hs : NotVault w s) (h : setAssign env w s a = some w') : NI w' := by
  simp only [setAssign, Option.bind_eq_bind, Option.bind_eq_some_iff] at h
  obtain ⟨_, _, ao, hao, h⟩ := h
  split at h
  · cases h; exact hi
  · simp only [Option.bind_eq_some_iff] at h
    obtain ⟨w1, h1, h⟩ := h
    have s1 := setReset_st ha h1 []
    have i1 := setReset_ni ha hi h1
    have e := setReset_obj ha hi hs h1
    split at h
    · cases h; exact i1
    · refine copySet_ni i1 e.2 (fun p hp => par_ne s1.ai (hs.st s1) ?_ hp) h
      have := e.1; unfold pr at this
      obtain ⟨x, hx, _⟩ := Option.map_eq_some_iff.mp this
      exact ⟨x, hx⟩

theorem moveSet_ni {env : Env} {w w' : World K V Ty} {s a : Nat} (ha : AI w) (hi : NI w) (hne : s ≠ a) (hs : NotVault w s)
    (h : moveSet env w s a = some w') : NI w' := by
  simp only [moveSet, Option.bind_eq_bind, Option.bind_eq_some_iff] at h
  obtain ⟨ao, hao, p, hp, _, _, w1, h1, so, hso, w4, h4, so4, hso4, po, hpo, h⟩ := h
  cases h
  have e1 := loop_objs (fun _ _ _ h => moveDep_objs0 h) _ h1
  have i1 := hi.of_objs e1
  have i2 := i1.putObj s (y := { so with isBase := false, parent := some p }) ⟨(i1 s so hso).1, fun _ e => by cases e⟩
  have i3 := i2.putObj a (y := { ao with parent := none, recs := [], keysOrder := [], uniq := [] }) (.nil rfl)
  have i4 := copyKeys_ni i3 h4
  have e4 : so4.parent = some p := by
    have := (copyKeys_pr h4 s).1
    rw [pr_of hso4] at this
    unfold pr at this
    rw [getObj_putObj, if_neg hne.symm, getObj_putObj_self] at this
    simpa using this
  have i5 := i4.putObj s (y := { so4 with keysOrder := ao.keysOrder, uniq := ao.uniq, recs := ao.recs }) ⟨(hi a ao hao).1, fun _ e => by simp only at e; rw [e4] at e; cases e⟩
  exact i5.putObj p (y := { po with sets := setIns (po.sets.filter (· ≠ a)) s }) (i5 p po hpo)

theorem setMoveNew_ni {env : Env} {w w' : World K V Ty} {a : Nat} (ha : AI w) (hi : NI w) (hva : NotVault w a) (h : setMoveNew env w a = some w') : NI w' := by
  simp only [setMoveNew, Option.bind_eq_bind, Option.bind_eq_some_iff] at h
  obtain ⟨ao, hao, h⟩ := h
  obtain ⟨s1, n1⟩ := newSetObj_st ha true []
  have i1 : NI ({ w with objs := mput w.objs w.nextO { Obj.newSet with isBase := true }, nextO := w.nextO + 1 } : World K V Ty) := hi.newObj _ _ (.nil rfl)
  split at h
  · cases h; exact i1
  · exact moveSet_ni s1.ai i1 (fun e => absurd (e ▸ hva.1) (lt_irrefl _)) n1 h

theorem setMoveAssign_ni {env : Env} {w w' : World K V Ty} {s a : Nat} (ha : AI w) (hi : NI w) (hs : NotVault w s) (h : setMoveAssign env w s a = some w') : NI w' := by
  simp only [setMoveAssign, Option.bind_eq_bind, Option.bind_eq_some_iff] at h
  obtain ⟨_, _, ao, hao, h⟩ := h
  split at h
  · cases h; exact hi
  · rename_i hne
    split at h
    · exact setReset_ni ha hi h
    · exact moveSet_ni ha hi hne hs h

theorem setUnion_ni {env : Env} {w w' : World K V Ty} {a b s : Nat} {res : Res K} (ha : AI w) (hi : NI w) (hs : NotVault w s) (h : setUnion env w a b s = some (w', res)) : NI w' := by
  simp only [setUnion, Option.bind_eq_bind, Option.bind_eq_some_iff] at h
  obtain ⟨ao, hao, bo, hbo, _, _, h⟩ := h
  split at h
  · cases h; exact hi
  split at h
  · cases h; exact hi
  split at h
  · cases h; exact hi
  split at h
  · cases h; exact hi
  simp only [Option.bind_eq_some_iff] at h
  obtain ⟨w1, h1, h⟩ := h
  exact setJoin_ni (setAssign_ni ha hi hs h1) h

theorem setIntersection_ni {env : Env} {w w' : World K V Ty} {a b s : Nat} {res : Res K} (ha : AI w) (hi : NI w) (hs : NotVault w s)
    (h : setIntersection env w a b s = some (w', res)) : NI w' := by
  simp only [setIntersection, Option.bind_eq_bind, Option.bind_eq_some_iff] at h
  obtain ⟨ao, hao, bo, hbo, _, _, h⟩ := h
  split at h
  · cases h; exact hi
  split at h
  · cases h; exact hi
  rename_i p hp
  split at h
  · cases h; exact hi
  split at h
  · cases h; exact hi
  simp only [Option.bind_eq_some_iff] at h
  obtain ⟨w1, h1, so1, hso1, w3, h3, so3, hso3, po, hpo, h⟩ := h
  simp only [Option.map_eq_some_iff, Prod.mk.injEq] at h
  obtain ⟨w6, h6, rfl, rfl⟩ := h
  have i1 := setReset_ni ha hi h1
  have e1 := (setReset_obj ha hi hs h1).2
  have hr : so1.recs = [] := by rw [rs_of hso1] at e1; simpa using e1
  have i2 := i1.putObj s (y := { so1 with parent := some p }) (.nil hr)
  have i3 := copyKeys_ni i2 h3
  have i4 := i3.putObj s (y := { so3 with keysOrder := ao.keysOrder, uniq := ao.uniq }) (i3 s so3 hso3)
  have i5 := i4.putObj p (y := { po with sets := setIns po.sets s }) (i4 p po hpo)
  refine loop_addOnly_ni _ i5 ?_ h6
  have e3 : so3.parent = some p := by
    have := (copyKeys_pr h3 s).1
    rw [pr_of hso3, pr_of (getObj_putObj_self _ _ _)] at this; simpa using this
  rw [pr_putObj hpo (by rfl), pr_of (getObj_putObj_self _ _ _)]; simp [e3]

theorem copyOne_ni {w w' : World K V Ty} {o r : Nat} (ha : AI w) (hi : NI w) (ho : NotSet w o) (h : copyOne o w r = some w') : NI w' := by
  simp only [copyOne, Option.bind_eq_bind, Option.bind_eq_some_iff] at h
  obtain ⟨x, hx, vo, hvo, h⟩ := h
  cases h
  refine NI.putObj (w := { w with recs := _, nextR := _ }) (fun o' x hx => hi o' x hx) o ⟨?_, ?_⟩
  · show (vo.recs ++ [w.nextR]).Nodup
    rw [List.nodup_append]
    refine ⟨(hi o vo hvo).1, by simp, ?_⟩
    intro a ha' b hb e
    have := (ha.obj o vo hvo).recs a ha'
    simp at hb; omega
  · intro hset; simp only at hset; rw [ho.obj hvo] at hset; cases hset

theorem copyInto_ni {env : Env} {w w' : World K V Ty} {o a : Nat} {vo : Obj K V Ty} (ha : AI w) (hi : NI w) (hvo : w.getObj o = some vo) (ho : NotSet w o)
    (hne : o ≠ a) (hva : NotSet w a) (hr : vo.recs = []) (hc : vo.cols = []) (htm : vo.tmpl = []) (h : copyInto env w o a = some w') : NI w' := by
  simp only [copyInto, Option.bind_eq_bind, Option.bind_eq_some_iff] at h
  obtain ⟨ao, hao, w1, h1, vo1, hvo1, h⟩ := h
  have s1 : St [o] w w1 := copyKeys_st ha (.inr (by simp)) h1
  have i1 := copyKeys_ni hi h1
  have i2 := i1.putObj o (y := { vo1 with keysOrder := ao.keysOrder, uniq := ao.uniq }) (i1 o vo1 hvo1)
  have hs2 := (copyInto_keys_st (t := [o]) ha hvo (ho.obj hvo) hne hva hr hc htm (by simp) hao h1 hvo1).ai
  have ho2 : NotSet (w1.putObj o { vo1 with keysOrder := ao.keysOrder, uniq := ao.uniq }) o := by
    refine notSet_of hs2 (getObj_putObj_self _ _ _) ?_
    show vo1.isSet = false
    exact (ho.st s1).obj hvo1
  refine (loop_inv (fun w => AI w ∧ NI w ∧ NotSet w o) _ _ _ _ (fun r _ b b' hb hh => ?_) ⟨hs2, i2, ho2⟩ h).2.1
  have st := copyOne_st hb.1 hh []
  exact ⟨st.ai, copyOne_ni hb.1 hb.2.1 hb.2.2 hh, hb.2.2.st st⟩

theorem vaultAssign_ni {env : Env} {w w' : World K V Ty} {o a : Nat} (ha : AI w) (hi : NI w) (hvo : NotSet w o) (hva : NotSet w a)
    (h : vaultAssign env w o a = some w') : NI w' := by
  unfold vaultAssign at h
  split at h
  · cases h; exact hi
  · rename_i hne
    simp only [Option.bind_eq_bind, Option.bind_eq_some_iff] at h
    obtain ⟨w1, h1, h⟩ := h
    have s1 := dropVault_st (t := [o]) ha (.inr (by simp)) h1
    obtain ⟨x, hx, e1, e2, e3⟩ := dropVault_obj h1
    exact copyInto_ni s1.ai (dropVault_ni ha hi h1) hx (hvo.st s1) hne (hva.st s1) e1 e2 e3 h

theorem moveInto_ni {w w' : World K V Ty} {o a : Nat} (hi : NI w) (hvo : NotSet w o) (h : moveInto w o a = some w') : NI w' := by
  simp only [moveInto, Option.bind_eq_bind, Option.bind_eq_some_iff] at h
  obtain ⟨ao, hao, vo, ho, h⟩ := h
  cases h
  exact (hi.putObj o (y := { vo with tmpl := ao.tmpl, cols := ao.cols, keysOrder := ao.keysOrder, uniq := ao.uniq, recs := ao.recs, sets := ao.sets })
    ⟨(hi a ao hao).1, fun h => by simp only at h; rw [hvo.obj ho] at h; cases h⟩).putObj a
    (y := { ao with tmpl := [], cols := [], keysOrder := [], uniq := [], recs := [], sets := [] }) (.nil rfl)

theorem newVault_ni {w : World K V Ty} (hi : NI w) : NI (newVault w) := hi.newObj _ _ (.nil rfl)

theorem step_ni {env : Env} {w w' : World K V Ty} {op : Op K V Ty} (ha : AI w) (hi : NI w) (h : step env w op = some w') : NI w' := by
  cases op with
  | newVault => cases h; exact newVault_ni hi
  | newSet => cases h; exact hi.newObj _ _ (.nil rfl)
  | newRef => cases h; exact hi.of_objs rfl
  | destroyVault o =>
    obtain ⟨ho, h⟩ := onVault_some h
    simp only [destroyVault, Option.bind_eq_bind, Option.bind_eq_some_iff] at h
    obtain ⟨w1, h1, h⟩ := h
    cases h
    exact (dropVault_ni ha hi h1).del _
  | destroySet s =>
    obtain ⟨ho, h⟩ := onSet_some h
    simp only [destroySet, Option.bind_eq_bind, Option.bind_eq_some_iff] at h
    obtain ⟨w1, h1, w2, h2, h⟩ := h
    cases h
    exact (dropVault_ni (setReset_st ha h1 []).ai (setReset_ni ha hi h1) h2).del _
  | refCopy f g => exact hi.of_objs (refCopy_rf h).objs
  | refMove f g => exact hi.of_objs (refMove_rf h).objs
  | refReset f => exact hi.of_objs (refReset_rf h).objs
  | refSetData f k v => obtain ⟨res, h⟩ := map_fst h; exact refSetData_ni hi h
  | refSetDataMany f ps => obtain ⟨res, h⟩ := map_fst h; exact refSetDataMany_ni hi h
  | addKey o k d => obtain ⟨ho, h⟩ := onVault_some h; obtain ⟨res, h⟩ := map_fst h; exact addKey_ni hi h
  | addUniqueKey o k t noFn f => obtain ⟨ho, h⟩ := onVault_some h; obtain ⟨res, h⟩ := map_fst h; exact addUniqueKey_ni hi h
  | updateKey o k d => obtain ⟨ho, h⟩ := onVault_some h; obtain ⟨res, h⟩ := map_fst h; exact updateKey_ni hi h
  | removeKey o k => obtain ⟨ho, h⟩ := onVault_some h; obtain ⟨res, h⟩ := map_fst h; exact removeKey_ni hi h
  | createRecord o f ps => obtain ⟨ho, h⟩ := onVault_some h; obtain ⟨res, h⟩ := map_fst h; exact createRecord_ni ha hi (.of ha ho) h
  | createRow o ps => obtain ⟨ho, h⟩ := onVault_some h; obtain ⟨res, h⟩ := map_fst h; exact createRow_ni ha hi (.of ha ho) h
  | eraseRef o f => obtain ⟨ho, h⟩ := onVault_some h; obtain ⟨res, h⟩ := map_fst h; exact eraseRef_ni hi h
  | eraseKV o k v => obtain ⟨ho, h⟩ := onVault_some h; obtain ⟨res, h⟩ := map_fst h; exact eraseKV_ni hi h
  | eraseManyKV o k v n => obtain ⟨ho, h⟩ := onVault_some h; obtain ⟨res, h⟩ := map_fst h; exact eraseManyKV_ni hi h
  | dropData o => obtain ⟨ho, h⟩ := onVault_some h; exact dropData_ni hi h
  | dropVault o => obtain ⟨ho, h⟩ := onVault_some h; exact dropVault_ni ha hi h
  | getRecord o k v f => obtain ⟨ho, h⟩ := onVault_some h; obtain ⟨res, h⟩ := map_fst h; exact hi.of_objs (getRecord_rf h).objs
  | getRecords o k v n => obtain ⟨ho, h⟩ := onVault_some h; obtain ⟨res, h⟩ := map_fst h; exact hi.of_objs (getRecords_rf h).objs
  | getSorted o k rev n => exact hi.of_objs (getSorted_rf h).objs
  | request o t k a b ia ib n pred s => obtain ⟨ho, h⟩ := onSet_some h; obtain ⟨res, h⟩ := map_fst h; exact request_ni ha hi (.of ha ho) h
  | requestTree o q s => obtain ⟨ho, h⟩ := onSet_some h; obtain ⟨res, h⟩ := map_fst h; exact requestTree_ni ha hi (.of ha ho) h
  | setAddRecord s f => obtain ⟨ho, h⟩ := onSet_some h; obtain ⟨res, h⟩ := map_fst h; exact setAddRecord_ni hi h
  | setRemoveRef s f =>
    obtain ⟨ho, h⟩ := onSet_some h; obtain ⟨res, h⟩ := map_fst h
    simp only [setRemoveRef, Option.bind_eq_bind, Option.bind_eq_some_iff] at h
    obtain ⟨so, hso, h⟩ := h
    split at h
    · cases h; exact hi
    · exact eraseRef_ni hi h
  | setRemoveKV s k v =>
    obtain ⟨ho, h⟩ := onSet_some h; obtain ⟨res, h⟩ := map_fst h
    simp only [setRemoveKV, Option.bind_eq_bind, Option.bind_eq_some_iff] at h
    obtain ⟨so, hso, h⟩ := h
    split at h
    · cases h; exact hi
    · exact eraseKV_ni hi h
  | setRemoveManyKV s k v n =>
    obtain ⟨ho, h⟩ := onSet_some h; obtain ⟨res, h⟩ := map_fst h
    simp only [setRemoveManyKV, Option.bind_eq_bind, Option.bind_eq_some_iff] at h
    obtain ⟨so, hso, h⟩ := h
    split at h
    · cases h; exact hi
    · exact eraseManyKV_ni hi h
  | setClear s => obtain ⟨ho, h⟩ := onSet_some h; exact setClear_ni hi h
  | setReset s => obtain ⟨ho, h⟩ := onSet_some h; exact setReset_ni ha hi h
  | setGetRecord s k v f => obtain ⟨ho, h⟩ := onSet_some h; obtain ⟨res, h⟩ := map_fst h; exact hi.of_objs (setGetRecord_rf h).objs
  | setGetRecords s k v n => obtain ⟨ho, h⟩ := onSet_some h; obtain ⟨res, h⟩ := map_fst h; exact hi.of_objs (setGetRecords_rf h).objs
  | setJoin s a => obtain ⟨ho, h⟩ := onSet_some h; obtain ⟨hsa, h⟩ := onSet_some h; obtain ⟨res, h⟩ := map_fst h; exact setJoin_ni hi h
  | setExclude s a => obtain ⟨ho, h⟩ := onSet_some h; obtain ⟨hsa, h⟩ := onSet_some h; obtain ⟨res, h⟩ := map_fst h; exact setExclude_ni hi h
  | setIntersect s a => obtain ⟨ho, h⟩ := onSet_some h; obtain ⟨hsa, h⟩ := onSet_some h; obtain ⟨res, h⟩ := map_fst h; exact setIntersect_ni hi h
  | setUnion a b s =>
    obtain ⟨ho, h⟩ := onSet_some h; obtain ⟨hsa, h⟩ := onSet_some h; obtain ⟨hb, h⟩ := onSet_some h; obtain ⟨res, h⟩ := map_fst h
    exact setUnion_ni ha hi (.of ha ho) h
  | setIntersection a b s =>
    obtain ⟨ho, h⟩ := onSet_some h; obtain ⟨hsa, h⟩ := onSet_some h; obtain ⟨hb, h⟩ := onSet_some h; obtain ⟨res, h⟩ := map_fst h
    exact setIntersection_ni ha hi (.of ha ho) h
  | setCopyNew a => obtain ⟨ho, h⟩ := onSet_some h; exact setCopyNew_ni ha hi h
  | setAssign s a => obtain ⟨ho, h⟩ := onSet_some h; obtain ⟨hsa, h⟩ := onSet_some h; exact setAssign_ni ha hi (.of ha ho) h
  | setMoveNew a => obtain ⟨ho, h⟩ := onSet_some h; exact setMoveNew_ni ha hi (.of ha ho) h
  | setMoveAssign s a => obtain ⟨ho, h⟩ := onSet_some h; obtain ⟨hsa, h⟩ := onSet_some h; exact setMoveAssign_ni ha hi (.of ha ho) h
  | vaultCopyNew a =>
    obtain ⟨ho, h⟩ := onVault_some h
    have s1 := newVault_st (t := [w.nextO]) ha (by simp)
    have n := NotSet.of ha ho
    exact copyInto_ni s1.ai (newVault_ni hi) (newVault_obj w) (notSet_of s1.ai (newVault_obj w) rfl) (fun e => absurd (e ▸ n.1) (lt_irrefl _)) (n.st s1) rfl rfl rfl h
  | vaultAssign o a => obtain ⟨ho, h⟩ := onVault_some h; obtain ⟨hsa, h⟩ := onVault_some h; exact vaultAssign_ni ha hi (.of ha ho) (.of ha hsa) h
  | vaultMoveNew a =>
    obtain ⟨ho, h⟩ := onVault_some h
    exact moveInto_ni (newVault_ni hi) (notSet_of (newVault_st (t := [w.nextO]) ha (by simp)).ai (newVault_obj w) rfl) h
  | vaultMoveAssign o a =>
    obtain ⟨ho, h⟩ := onVault_some h; obtain ⟨hsa, h⟩ := onVault_some h
    unfold vaultMoveAssign at h
    split at h
    · cases h; exact hi
    · simp only [Option.bind_eq_bind, Option.bind_eq_some_iff] at h
      obtain ⟨w1, h1, h⟩ := h
      exact moveInto_ni (dropVault_ni ha hi h1) ((NotSet.of ha ho).st (dropVault_st (t := [o]) ha (.inr (by simp)) h1)) h

/-- In every history: no object lists a record twice, and a set without parent is empty. -/
theorem reach_ni {G : World K V Ty → Op K V Ty → Prop} {w : World K V Ty} (h : Reach G w) : NI w := by
  induction h with
  | init => intro o x hx; cases hx
  | step w w' env op hr _ hs ih => exact step_ni (reach_ai hr) ih hs

end MVault.W
