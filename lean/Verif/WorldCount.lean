import Verif.WorldAny5
/-
Reference counts in every history, whatever operations it has.
-/
set_option linter.unusedSectionVars false
set_option linter.unusedSimpArgs false
namespace MVault.W
variable {K V Ty : Type} [LinearOrder K] [LinearOrder V] [Typed V Ty] [DecidableEq Ty]

/-- The counter of a record is the number of references to it, an erased record has references, a record with references is
allocated, and later numbers are free. -/
structure CI (w : World K V Ty) : Prop where
  ok : CntOk (refCount w) w
  ltR : ∀ r x, w.getRec r = some x → r < w.nextR

/-- The invariant is kept, and a record that was invalid or freed does not become valid. -/
structure CM (w w' : World K V Ty) : Prop where
  ci : CI w'
  nR : w.nextR ≤ w'.nextR
  len : w.refs.length ≤ w'.refs.length
  mono : ∀ r y, w'.getRec r = some y → r < w.nextR → ∃ x, w.getRec r = some x ∧ (y.valid = true → x.valid = true)

/-- The same, without a change of references. -/
structure CS (w w' : World K V Ty) : Prop extends CM w w' where
  refs : w'.refs = w.refs

theorem CM.refl {w : World K V Ty} (h : CI w) : CM w w := ⟨h, le_refl _, le_refl _, fun _ y hy _ => ⟨y, hy, id⟩⟩
theorem CM.trans {a b c : World K V Ty} (h1 : CM a b) (h2 : CM b c) : CM a c where
  ci := h2.ci
  nR := h1.nR.trans h2.nR
  len := h1.len.trans h2.len
  mono r z hz hr := by
    obtain ⟨y, hy, e⟩ := h2.mono r z hz (lt_of_lt_of_le hr h1.nR)
    obtain ⟨x, hx, e'⟩ := h1.mono r y hy hr
    exact ⟨x, hx, fun h => e' (e h)⟩
theorem CS.refl {w : World K V Ty} (h : CI w) : CS w w := ⟨.refl h, rfl⟩
theorem CS.trans {a b c : World K V Ty} (h1 : CS a b) (h2 : CS b c) : CS a c := ⟨h1.toCM.trans h2.toCM, h2.refs.trans h1.refs⟩

theorem loop_cs {A : Type} {f : World K V Ty → A → Option (World K V Ty)} (hf : ∀ w w' a, CI w → f w a = some w' → CS w w') (l : List A)
    {w w' : World K V Ty} (hi : CI w) (h : loop f l w = some w') : CS w w' :=
  loop_inv (fun v => CS w v) f l w w' (fun a _ b b' hb hh => hb.trans (hf b b' a hb.ci hh)) (.refl hi) h

theorem refCount_congr {w w' : World K V Ty} (h : w'.refs = w.refs) : refCount w' = refCount w := by
  funext r; unfold refCount; rw [h]

/-- Objects may change. -/
theorem CI.objs {w w' : World K V Ty} (hi : CI w) (h1 : w'.recs = w.recs) (h2 : w'.refs = w.refs) (h3 : w'.nextR = w.nextR) : CS w w' := by
  have e : ∀ r, w'.getRec r = w.getRec r := fun r => by unfold World.getRec; rw [h1]
  refine ⟨⟨⟨⟨?_, ?_, ?_⟩, ?_⟩, by rw [h3], by rw [h2], ?_⟩, h2⟩
  · intro r x hx; rw [refCount_congr h2]; exact hi.ok.cnt r x (e r ▸ hx)
  · intro r x hx; exact hi.ok.inv r x (e r ▸ hx)
  · intro r hr; rw [refCount_congr h2] at hr; rw [e]; exact hi.ok.live r hr
  · intro r x hx; rw [h3]; exact hi.ltR r x (e r ▸ hx)
  · intro r y hy _; exact ⟨y, e r ▸ hy, id⟩

theorem CI.putObj {w : World K V Ty} (hi : CI w) (o : Nat) (x : Obj K V Ty) : CS w (w.putObj o x) := hi.objs rfl rfl rfl

/-- The data and the dependent sets of a record may change. -/
theorem CI.putRec {w : World K V Ty} (hi : CI w) {r : Nat} {x y : Rec K V} (hx : w.getRec r = some x) (h1 : y.refs = x.refs) (h2 : y.valid = x.valid) :
    CS w (w.putRec r y) := by
  refine ⟨⟨⟨⟨?_, ?_, ?_⟩, ?_⟩, le_refl _, le_refl _, ?_⟩, rfl⟩
  · intro r' z hz
    rw [show refCount (w.putRec r y) = refCount w from rfl]
    rw [getRec_putRec] at hz
    split at hz
    · rename_i e; subst e; cases hz; rw [h1]; exact hi.ok.cnt _ _ hx
    · exact hi.ok.cnt _ _ hz
  · intro r' z hz hv
    rw [getRec_putRec] at hz
    split at hz
    · rename_i e; subst e; cases hz; rw [h1]; exact hi.ok.inv _ _ hx (h2.symm.trans hv)
    · exact hi.ok.inv _ _ hz hv
  · intro r' hr
    rw [getRec_putRec]
    split
    · exact ⟨_, rfl⟩
    · exact hi.ok.live r' hr
  · intro r' z hz
    rw [getRec_putRec] at hz
    split at hz
    · rename_i e; subst e; exact hi.ltR _ _ hx
    · exact hi.ltR _ _ hz
  · intro r' z hz _
    rw [getRec_putRec] at hz
    split at hz
    · rename_i e; subst e; cases hz; exact ⟨x, hx, fun h => h2 ▸ h⟩
    · exact ⟨z, hz, id⟩

/-- A new record. -/
theorem CI.newRec {w : World K V Ty} (hi : CI w) (data : List (K × V)) :
    CS w ({ w with recs := mput w.recs w.nextR ⟨data, true, 0, []⟩, nextR := w.nextR + 1 } : World K V Ty) := by
  have hg : ∀ r, World.getRec ({ w with recs := mput w.recs w.nextR ⟨data, true, 0, []⟩, nextR := w.nextR + 1 } : World K V Ty) r =
      if w.nextR = r then some ⟨data, true, 0, []⟩ else w.getRec r := by
    intro r; unfold World.getRec; simp only [mget_mput]
  have h0 : refCount w w.nextR = 0 := by
    by_contra hn
    obtain ⟨x, hx⟩ := hi.ok.live w.nextR (by omega)
    exact absurd (hi.ltR _ _ hx) (by omega)
  refine ⟨⟨⟨⟨?_, ?_, ?_⟩, ?_⟩, by simp, le_refl _, ?_⟩, rfl⟩
  · intro r' z hz
    rw [hg] at hz
    show z.refs = refCount w r'
    split at hz
    · rename_i e; subst e; cases hz; exact h0.symm
    · exact hi.ok.cnt _ _ hz
  · intro r' z hz hv
    rw [hg] at hz
    split at hz
    · cases hz; cases hv
    · exact hi.ok.inv _ _ hz hv
  · intro r' hr
    rw [hg]
    split
    · exact ⟨_, rfl⟩
    · exact hi.ok.live r' hr
  · intro r' z hz
    rw [hg] at hz
    show r' < w.nextR + 1
    split at hz
    · omega
    · have := hi.ltR _ _ hz; omega
  · intro r' z hz hr
    rw [hg, if_neg (by omega)] at hz
    exact ⟨z, hz, id⟩

theorem invalidate_cs {w w' : World K V Ty} {r : Nat} (hi : CI w) (h : invalidate w r = some w') : CS w w' := by
  simp only [invalidate, Option.map_eq_some_iff] at h
  obtain ⟨x, hx, h⟩ := h
  split at h
  · rename_i h0
    subst h
    refine ⟨⟨⟨⟨?_, ?_, ?_⟩, ?_⟩, le_refl _, le_refl _, ?_⟩, rfl⟩
    · intro r' z hz
      rw [getRec_freeRec] at hz
      split at hz
      · cases hz
      · exact hi.ok.cnt _ _ hz
    · intro r' z hz
      rw [getRec_freeRec] at hz
      split at hz
      · cases hz
      · exact hi.ok.inv _ _ hz
    · intro r' hr
      rw [getRec_freeRec]
      split
      · rename_i e; subst e
        have hr : 0 < refCount w r := hr
        have := hi.ok.cnt _ _ hx; omega
      · exact hi.ok.live r' hr
    · intro r' z hz
      rw [getRec_freeRec] at hz
      split at hz
      · cases hz
      · exact hi.ltR _ _ hz
    · intro r' z hz _
      rw [getRec_freeRec] at hz
      split at hz
      · cases hz
      · exact ⟨z, hz, id⟩
  · rename_i h0
    subst h
    refine ⟨⟨⟨⟨?_, ?_, ?_⟩, ?_⟩, le_refl _, le_refl _, ?_⟩, rfl⟩
    · intro r' z hz
      rw [show refCount (w.putRec r { x with valid := false }) = refCount w from rfl]
      rw [getRec_putRec] at hz
      split at hz
      · rename_i e; subst e; cases hz; exact hi.ok.cnt _ x hx
      · exact hi.ok.cnt _ _ hz
    · intro r' z hz hv
      rw [getRec_putRec] at hz
      split at hz
      · cases hz; exact Nat.pos_of_ne_zero h0
      · exact hi.ok.inv _ _ hz hv
    · intro r' hr
      rw [getRec_putRec]
      split
      · exact ⟨_, rfl⟩
      · exact hi.ok.live r' hr
    · intro r' z hz
      rw [getRec_putRec] at hz
      split at hz
      · rename_i e; subst e; exact hi.ltR _ _ hx
      · exact hi.ltR _ _ hz
    · intro r' z hz _
      rw [getRec_putRec] at hz
      split at hz
      · rename_i e; subst e; cases hz; exact ⟨x, hx, fun h => by cases h⟩
      · exact ⟨z, hz, id⟩

theorem eraseDep_cs {w w' : World K V Ty} {s r : Nat} (hi : CI w) (h : eraseDep s w r = some w') : CS w w' := by
  simp only [eraseDep, Option.map_eq_some_iff] at h
  obtain ⟨x, hx, rfl⟩ := h
  exact hi.putRec hx rfl rfl
theorem addDep_cs {w w' : World K V Ty} {s r : Nat} (hi : CI w) (h : addDep s w r = some w') : CS w w' := by
  simp only [addDep, Option.map_eq_some_iff] at h
  obtain ⟨x, hx, rfl⟩ := h
  exact hi.putRec hx rfl rfl
theorem writeCell_cs {w w' : World K V Ty} {k : K} {p : Nat × V} (hi : CI w) (h : writeCell k w p = some w') : CS w w' := by
  simp only [writeCell, Option.map_eq_some_iff] at h
  obtain ⟨x, hx, rfl⟩ := h
  exact hi.putRec hx rfl rfl
theorem dropCell_cs {w w' : World K V Ty} {k : K} {r : Nat} (hi : CI w) (h : dropCell k w r = some w') : CS w w' := by
  simp only [dropCell, Option.map_eq_some_iff] at h
  obtain ⟨x, hx, rfl⟩ := h
  exact hi.putRec hx rfl rfl

/-! ### SetData -/

theorem setDataIndex_cs {w w' : World K V Ty} {o r : Nat} {k : K} {v : V} {res : Res K} (hi : CI w) (h : setDataIndex w o r k v = some (w', res)) : CS w w' := by
  simp only [setDataIndex, Option.bind_eq_bind, Option.bind_eq_some_iff] at h
  obtain ⟨vo, hvo, x, hx, h⟩ := h
  split at h
  · cases h; exact .refl hi
  · split at h
    · cases h; exact .refl hi
    · split at h
      · cases h; exact .refl hi
      · split at h
        · cases h; exact .refl hi
        · cases h; exact hi.putObj _ _

theorem setDataToRecord_cs {env : Env} {w w' : World K V Ty} {o r : Nat} {k : K} {v : V} {res : Res K} (hi : CI w) (h : setDataToRecord env w o r k v = some (w', res)) : CS w w' := by
  simp only [setDataToRecord, Option.bind_eq_bind, Option.bind_eq_some_iff, Prod.exists] at h
  obtain ⟨vo, hvo, w1, r1, h1, h⟩ := h
  have s1 := setDataIndex_cs hi h1
  split at h
  · cases h; exact s1
  · split at h
    · simp only [updateDeps, Option.bind_eq_bind, Option.bind_eq_some_iff] at h
      obtain ⟨w2, ⟨x, hx, h2⟩, y, hy, h⟩ := h
      cases h
      have s2 : CS w1 w2 := by
        refine loop_cs (fun w w' a hi h => ?_) _ s1.ci h2
        simp only [Option.bind_eq_some_iff] at h
        obtain ⟨so, hso, h⟩ := h
        split at h
        · cases h
        · obtain ⟨pr, hpr, rfl⟩ := Option.map_eq_some_iff.mp h
          exact setDataIndex_cs (res := pr.2) hi hpr
      exact s1.trans (s2.trans (s2.ci.putRec hy rfl rfl))
    · cases h; exact s1

theorem refSetData_cs {env : Env} {w w' : World K V Ty} {f : Nat} {k : K} {v : V} {res : Res K} (hi : CI w) (h : refSetData env w f k v = some (w', res)) : CS w w' := by
  simp only [refSetData, Option.bind_eq_bind, Option.bind_eq_some_iff] at h
  obtain ⟨ref, _, h⟩ := h
  split at h
  · cases h; exact .refl hi
  · simp only [Option.bind_eq_some_iff] at h
    obtain ⟨o, _, _, _, x, _, h⟩ := h
    split at h
    · cases h; exact .refl hi
    · exact setDataToRecord_cs hi h

theorem refSetDataLoop_cs {env : Env} {f : Nat} (l : List (K × V)) {w w' : World K V Ty} {r0 res : Res K} (hi : CI w)
    (h : refSetDataLoop env f l w r0 = some (w', res)) : CS w w' := by
  induction l generalizing w r0 with
  | nil => simp only [refSetDataLoop, Option.some.injEq, Prod.mk.injEq] at h; obtain ⟨rfl, _⟩ := h; exact .refl hi
  | cons p l ih =>
    obtain ⟨k, v⟩ := p
    simp only [refSetDataLoop, Option.bind_eq_bind, Option.bind_eq_some_iff, Prod.exists] at h
    obtain ⟨w1, r1, h1, h⟩ := h
    have s1 := refSetData_cs hi h1
    split at h
    · cases h; exact s1
    · exact s1.trans (ih s1.ci h)

theorem refSetDataMany_cs {env : Env} {w w' : World K V Ty} {f : Nat} {ps : List (K × V)} {res : Res K} (hi : CI w) (h : refSetDataMany env w f ps = some (w', res)) : CS w w' := by
  simp only [refSetDataMany, Option.bind_eq_bind, Option.bind_eq_some_iff] at h
  obtain ⟨ref, _, o, _, _, _, h⟩ := h
  exact refSetDataLoop_cs _ hi h

/-! ### Erasing -/

theorem setClear_cs {env : Env} {w w' : World K V Ty} {s : Nat} (hi : CI w) (h : setClear env w s = some w') : CS w w' := by
  simp only [setClear, Option.bind_eq_bind, Option.bind_eq_some_iff] at h
  obtain ⟨so, hso, h⟩ := h
  split at h
  · cases h; exact .refl hi
  · simp only [Option.bind_eq_some_iff] at h
    obtain ⟨w1, h1, h⟩ := h
    cases h
    have s1 := loop_cs (fun w w' a hi h => eraseDep_cs hi h) _ hi h1
    exact s1.trans (s1.ci.putObj _ _)

theorem dropCore_cs {env : Env} {w w' : World K V Ty} {s : Nat} (hi : CI w) (h : dropCore env w s = some w') : CS w w' := by
  simp only [dropCore, Option.bind_eq_bind, Option.bind_eq_some_iff] at h
  obtain ⟨so, hso, w1, h1, h⟩ := h
  cases h
  have s1 := loop_cs (fun w w' a hi h => invalidate_cs hi h) _ hi h1
  exact s1.trans (s1.ci.putObj _ _)

theorem setReset_cs {env : Env} {w w' : World K V Ty} {s : Nat} (hi : CI w) (h : setReset env w s = some w') : CS w w' := by
  simp only [setReset, Option.bind_eq_bind, Option.bind_eq_some_iff] at h
  obtain ⟨so, hso, h⟩ := h
  cases hp : so.parent with
  | none => rw [hp] at h; cases h; exact .refl hi
  | some p =>
    rw [hp] at h
    simp only [Option.bind_eq_some_iff] at h
    obtain ⟨_, _, w1, h1, w2, h2, po, hpo, so', hso', h⟩ := h
    cases h
    have s1 := setClear_cs hi h1
    have s2 := s1.trans (dropCore_cs s1.ci h2)
    have s3 := s2.trans (s2.ci.putObj p { po with sets := po.sets.filter (· ≠ s) })
    exact s3.trans (s3.ci.putObj _ _)

theorem eraseLocal_cs {w w' : World K V Ty} {o r : Nat} (hi : CI w) (h : eraseLocal w o r = some w') : CS w w' := by
  simp only [eraseLocal, Option.bind_eq_bind, Option.bind_eq_some_iff] at h
  obtain ⟨vo, hvo, x, hx, h⟩ := h
  cases h
  exact hi.putObj _ _

theorem removeFromDeps_cs {env : Env} {w w' : World K V Ty} {r : Nat} (hi : CI w) (h : removeFromDeps env w r = some w') : CS w w' := by
  simp only [removeFromDeps, Option.bind_eq_bind, Option.bind_eq_some_iff] at h
  obtain ⟨x, hx, h⟩ := h
  refine loop_cs (fun w w' a hi h => ?_) _ hi h
  simp only [Option.bind_eq_some_iff] at h
  obtain ⟨so, hso, h⟩ := h
  split at h
  · cases h; exact .refl hi
  · split at h
    · cases h
    · exact eraseLocal_cs hi h

theorem eraseOne_cs {env : Env} {w w' : World K V Ty} {o r : Nat} (hi : CI w) (h : eraseOne env w o r = some w') : CS w w' := by
  simp only [eraseOne, Option.bind_eq_bind, Option.bind_eq_some_iff] at h
  obtain ⟨vo, hvo, w1, h1, h⟩ := h
  have s1 := eraseLocal_cs hi h1
  split at h
  · simp only [Option.bind_eq_some_iff] at h
    obtain ⟨w2, h2, h3⟩ := h
    have s2 := s1.trans (removeFromDeps_cs s1.ci h2)
    exact s2.trans (invalidate_cs s2.ci h3)
  · cases h; exact s1

theorem removeRecord_cs {env : Env} {w w' : World K V Ty} {o r : Nat} {b : Bool} (hi : CI w) (h : removeRecord env w o r = some (w', b)) : CS w w' := by
  simp only [removeRecord, Option.bind_eq_bind, Option.bind_eq_some_iff] at h
  obtain ⟨vo, hvo, h⟩ := h
  split at h
  · cases h; exact .refl hi
  · simp only [Option.map_eq_some_iff, Prod.mk.injEq] at h
    obtain ⟨w1, h1, rfl, rfl⟩ := h
    exact eraseOne_cs hi h1

theorem eraseRef_cs {env : Env} {w w' : World K V Ty} {o f : Nat} {b : Bool} (hi : CI w) (h : eraseRef env w o f = some (w', b)) : CS w w' := by
  simp only [eraseRef, Option.bind_eq_bind, Option.bind_eq_some_iff] at h
  obtain ⟨ref, _, h⟩ := h
  split at h
  · simp only [Option.map_eq_some_iff, Prod.mk.injEq] at h
    obtain ⟨_, _, rfl, rfl⟩ := h
    exact .refl hi
  · exact removeRecord_cs hi h

theorem eraseKV_cs {env : Env} {w w' : World K V Ty} {o : Nat} {k : K} {v : V} {res : Res K} (hi : CI w) (h : eraseKV env w o k v = some (w', res)) : CS w w' := by
  simp only [eraseKV, Option.bind_eq_bind, Option.bind_eq_some_iff] at h
  obtain ⟨vo, hvo, h⟩ := h
  split at h
  · cases h; exact .refl hi
  · split at h
    · cases h; exact .refl hi
    · simp only [Option.map_eq_some_iff, Prod.mk.injEq] at h
      obtain ⟨w1, h1, rfl, rfl⟩ := h
      exact eraseOne_cs hi h1

theorem eraseManyKV_cs {env : Env} {w w' : World K V Ty} {o n : Nat} {k : K} {v : V} {res : Res K} (hi : CI w) (h : eraseManyKV env w o k v n = some (w', res)) : CS w w' := by
  simp only [eraseManyKV, Option.bind_eq_bind, Option.bind_eq_some_iff] at h
  obtain ⟨vo, hvo, h⟩ := h
  split at h
  · cases h; exact .refl hi
  · split at h
    · cases h; exact .refl hi
    · simp only [Option.map_eq_some_iff, Prod.mk.injEq] at h
      obtain ⟨w1, h1, rfl, rfl⟩ := h
      exact loop_cs (fun w w' a hi h => eraseOne_cs hi h) _ hi h1

theorem dropData_cs {env : Env} {w w' : World K V Ty} {o : Nat} (hi : CI w) (h : dropData env w o = some w') : CS w w' := by
  simp only [dropData, Option.bind_eq_bind, Option.bind_eq_some_iff] at h
  obtain ⟨vo, hvo, w1, h1, w2, h2, vo', hvo', h⟩ := h
  cases h
  have s1 : CS w w1 := loop_cs (fun w w' a hi h => setClear_cs hi h) _ hi h1
  have s2 := s1.trans (loop_cs (fun w w' a hi h => invalidate_cs hi h) _ s1.ci h2)
  exact s2.trans (s2.ci.putObj _ _)

theorem dropVault_cs {env : Env} {w w' : World K V Ty} {o : Nat} (hi : CI w) (h : dropVault env w o = some w') : CS w w' := by
  simp only [dropVault, Option.bind_eq_bind, Option.bind_eq_some_iff] at h
  obtain ⟨vo, hvo, w1, h1, h⟩ := h
  have s1 : CS w w1 := loop_cs (fun w w' a hi h => setReset_cs hi h) _ hi h1
  exact s1.trans (dropCore_cs s1.ci h)

/-! ### Keys -/

theorem addKeyLocal_cs {env : Env} {w w' : World K V Ty} {o : Nat} {k : K} {d : V} {res : Res K} (hi : CI w) (h : addKeyLocal env w o k d = some (w', res)) : CS w w' := by
  simp only [addKeyLocal, Option.bind_eq_bind, Option.bind_eq_some_iff] at h
  obtain ⟨vo, hvo, h⟩ := h
  split at h
  · cases h; exact .refl hi
  · simp only [Option.bind_eq_some_iff] at h
    obtain ⟨w1, h1, h⟩ := h
    cases h
    have s1 := loop_cs (fun w w' a hi h => writeCell_cs hi h) _ hi h1
    exact s1.trans (s1.ci.putObj _ _)

theorem addUniqueLocal_cs {env : Env} {w w' : World K V Ty} {o : Nat} {k : K} {t : Ty} {noFn : Bool} {f : Nat → Nat → V} {res : Res K} (hi : CI w)
    (h : addUniqueLocal env w o k t noFn f = some (w', res)) : CS w w' := by
  simp only [addUniqueLocal, Option.bind_eq_bind, Option.bind_eq_some_iff] at h
  obtain ⟨vo, hvo, h⟩ := h
  split at h
  · cases h; exact .refl hi
  · split at h
    · cases h; exact .refl hi
    · split at h
      · cases h; exact .refl hi
      · split at h
        · simp only [Option.bind_eq_some_iff] at h
          obtain ⟨w1, h1, h⟩ := h
          cases h
          have s1 : CS w w1 := loop_cs (fun w w' a hi h => writeCell_cs hi h) _ hi h1
          exact s1.trans (s1.ci.putObj _ _)
        · simp only [Option.bind_some] at h
          cases h
          exact hi.putObj _ _

theorem pushKey_cs {w w' : World K V Ty} {k : K} {s : Nat} (hi : CI w) (h : pushKey k w s = some w') : CS w w' := by
  simp only [pushKey, Option.map_eq_some_iff] at h
  obtain ⟨so, _, rfl⟩ := h
  exact hi.putObj _ _

theorem addKey_cs {env : Env} {w w' : World K V Ty} {o : Nat} {k : K} {d : V} {res : Res K} (hi : CI w) (h : addKey env w o k d = some (w', res)) : CS w w' := by
  simp only [addKey, Option.bind_eq_bind, Option.bind_eq_some_iff, Prod.exists] at h
  obtain ⟨vo, hvo, w1, r1, h1, h⟩ := h
  have s1 := addKeyLocal_cs hi h1
  split at h
  · cases h; exact s1
  · simp only [Option.bind_eq_some_iff] at h
    obtain ⟨w2, h2, h⟩ := h
    cases h
    refine s1.trans (loop_cs (fun w w' a hi h => ?_) _ s1.ci h2)
    simp only [Option.bind_eq_some_iff, Prod.exists] at h
    obtain ⟨w3, r3, h3, h4⟩ := h
    have s3 := addKeyLocal_cs hi h3
    exact s3.trans (pushKey_cs s3.ci h4)

theorem addUniqueKey_cs {env : Env} {w w' : World K V Ty} {o : Nat} {k : K} {t : Ty} {noFn : Bool} {f : Nat → Nat → Nat → V} {res : Res K} (hi : CI w)
    (h : addUniqueKey env w o k t noFn f = some (w', res)) : CS w w' := by
  simp only [addUniqueKey, Option.bind_eq_bind, Option.bind_eq_some_iff, Prod.exists] at h
  obtain ⟨vo, hvo, w1, r1, h1, h⟩ := h
  have s1 := addUniqueLocal_cs hi h1
  split at h
  · cases h; exact s1
  · simp only [Option.bind_eq_some_iff] at h
    obtain ⟨w2, h2, h⟩ := h
    cases h
    refine s1.trans (loop_cs (fun w w' a hi h => ?_) _ s1.ci h2)
    simp only [Option.bind_eq_some_iff, Prod.exists] at h
    obtain ⟨w3, r3, h3, h4⟩ := h
    have s3 := addUniqueLocal_cs hi h3
    exact s3.trans (pushKey_cs s3.ci h4)

theorem updateKey_cs {w w' : World K V Ty} {o : Nat} {k : K} {d : V} {res : Res K} (hi : CI w) (h : updateKey w o k d = some (w', res)) : CS w w' := by
  simp only [updateKey, Option.bind_eq_bind, Option.bind_eq_some_iff] at h
  obtain ⟨vo, hvo, h⟩ := h
  split at h
  · cases h; exact .refl hi
  · split at h
    · cases h; exact .refl hi
    · cases h; exact hi.putObj _ _

theorem removeKey_cs {env : Env} {w w' : World K V Ty} {o : Nat} {k : K} {b : Bool} (hi : CI w) (h : removeKey env w o k = some (w', b)) : CS w w' := by
  simp only [removeKey, Option.bind_eq_bind, Option.bind_eq_some_iff] at h
  obtain ⟨vo, hvo, h⟩ := h
  split at h
  · cases h; exact .refl hi
  · simp only [Option.bind_eq_some_iff] at h
    obtain ⟨w2, h2, w3, h3, h⟩ := h
    cases h
    have s1 := hi.putObj o (vo.withoutKey k)
    have s2 := s1.trans (loop_cs (fun w w' a hi h => dropCell_cs hi h) _ s1.ci h2)
    refine s2.trans (loop_cs (fun w w' a hi h => ?_) _ s2.ci h3)
    simp only [removeKeyLocal, Option.map_eq_some_iff] at h
    obtain ⟨so, _, rfl⟩ := h
    split
    · exact hi.putObj _ _
    · exact .refl hi

/-! ### Records -/

theorem insertRecord_cs {w w' : World K V Ty} {o : Nat} {data : List (K × V)} {out : Except K Nat} (hi : CI w) (h : insertRecord w o data = some (w', out)) :
    CS w w' ∧ ∀ r, out = .ok r → ∃ x, w'.getRec r = some x := by
  simp only [insertRecord, Option.bind_eq_bind, Option.bind_eq_some_iff, Prod.exists] at h
  obtain ⟨vo, hvo, cols, clash, h1, h⟩ := h
  cases clash with
  | some p => cases h; exact ⟨hi.putObj _ _, fun r e => by cases e⟩
  | none =>
    cases h
    have s1 := hi.newRec data
    refine ⟨s1.trans (s1.ci.putObj _ _), fun r e => ?_⟩
    cases e
    exact ⟨_, by unfold World.putObj World.getRec; simp only [mget_mput, if_true]; rfl⟩

/-! ### References -/

/-- Installing a new list of references whose counts are the expected ones. -/
theorem CI.install {w w2 : World K V Ty} {l : List Ref} {e : Nat → Nat} (h : CI w) (hrf : RF w w2) (hc : CntOk e w2)
    (he : ∀ r, e r = l.countP (fun g => decide (g.ptr = some r))) (hl : w.refs.length ≤ l.length) : CM w ({ w2 with refs := l } : World K V Ty) where
  ci := {
    ok := by
      have : refCount ({ w2 with refs := l } : World K V Ty) = e := by funext r; exact (he r).symm
      rw [this]
      exact ⟨hc.cnt, hc.inv, hc.live⟩
    ltR := fun r x hx => by
      obtain ⟨y, hy, _⟩ := hrf.recOf r x hx
      have := h.ltR r y hy
      show r < w2.nextR
      rw [hrf.nextR]; exact this }
  nR := by show w.nextR ≤ w2.nextR; rw [hrf.nextR]
  len := hl
  mono r y hy _ := by
    obtain ⟨x, hx, _, e, _⟩ := hrf.recOf r y hy
    exact ⟨x, hx, fun h => e ▸ h⟩

theorem setRecord_cm {w w' : World K V Ty} {f : Nat} {p : Option Nat} {o : Nat} (hi : CI w) (h : setRecord w f p o = some w') : CM w w' := by
  have hp := (setRecord_rf h).2.2.2
  simp only [setRecord, Option.bind_eq_bind, Option.bind_eq_some_iff] at h
  obtain ⟨_, _, old, hf, v1, h1, v2, h2, h⟩ := h
  cases h
  obtain ⟨w1, e1, r1, f1, c1⟩ := optAdd hi.ok hp
  rw [e1] at h1; cases h1
  obtain ⟨w2, e2, r2, f2, c2⟩ := optRemove (p := old.ptr) c1 (by
    intro r hr
    have := refCount_pos (mem_of_get hf) hr
    omega)
  rw [e2] at h2; cases h2
  have hrefs : v2.refs = w.refs := r2.trans r1
  refine hi.install (f1.trans f2) c2 ?_ (by simp [hrefs])
  intro r
  have := refCount_set ⟨p, some o⟩ hf r
  rw [hrefs]
  simp only [refCount]
  simp only at this
  omega

theorem newRef_cm {w : World K V Ty} (hi : CI w) : CM w (newRef w) := by
  refine hi.install (.refl _) hi.ok ?_ (by simp)
  intro r; simp [refCount, List.countP_append]

theorem newRefTo_cm {w w' : World K V Ty} {r o : Nat} (hi : CI w) (h : newRefTo w r o = some w') : CM w w' := by
  unfold newRefTo at h
  exact (newRef_cm hi).trans (setRecord_cm (newRef_cm hi).ci h)

theorem loop_cm {A : Type} {f : World K V Ty → A → Option (World K V Ty)} (hf : ∀ w w' a, CI w → f w a = some w' → CM w w') (l : List A)
    {w w' : World K V Ty} (hi : CI w) (h : loop f l w = some w') : CM w w' :=
  loop_inv (fun v => CM w v) f l w w' (fun a _ b b' hb hh => hb.trans (hf b b' a hb.ci hh)) (.refl hi) h

theorem refReset_cm {w w' : World K V Ty} {f : Nat} (hi : CI w) (h : refReset w f = some w') : CM w w' := by
  simp only [refReset, Option.bind_eq_bind, Option.bind_eq_some_iff] at h
  obtain ⟨old, hf, v1, h1, h⟩ := h
  cases h
  obtain ⟨w1, e1, r1, f1, c1⟩ := optRemove (p := old.ptr) hi.ok (fun r hr => refCount_pos (mem_of_get hf) hr)
  rw [e1] at h1; cases h1
  refine hi.install f1 c1 ?_ (by simp [r1])
  intro r
  have := refCount_set ⟨none, none⟩ hf r
  rw [r1]
  simp only [reduceCtorEq, if_false] at this
  simp only [refCount]
  omega

theorem refCopy_cm {w w' : World K V Ty} {f g : Nat} (hi : CI w) (h : refCopy w f g = some w') : CM w w' := by
  simp only [refCopy, Option.bind_eq_bind, Option.bind_eq_some_iff] at h
  obtain ⟨old, hf, src, hg, h⟩ := h
  by_cases hfg : f = g
  · rw [if_pos hfg] at h; cases h; exact .refl hi
  · rw [if_neg hfg] at h
    simp only [Option.bind_eq_some_iff] at h
    obtain ⟨v1, h1, v2, h2, h⟩ := h
    obtain ⟨w1, e1, r1, f1, c1⟩ := optRemove (p := old.ptr) hi.ok (fun r hr => refCount_pos (mem_of_get hf) hr)
    rw [e1] at h1; cases h1
    have hc2 : ∀ r, src.ptr = some r → 0 < refCount w r - if old.ptr = some r then 1 else 0 := by
      intro r hr
      have e1 := refCount_set ⟨none, none⟩ hf r
      have : 0 < (w.refs.set f ⟨none, none⟩).countP (fun g => decide (g.ptr = some r)) :=
        List.countP_pos_iff.mpr ⟨src, by
          refine mem_of_get (f := g) ?_
          rw [List.getElem?_set_ne hfg]; exact hg, by simpa using hr⟩
      simp only [refCount]
      simp only [reduceCtorEq, if_false] at e1
      omega
    obtain ⟨w2, e2, r2, f2, c2⟩ := optAdd (p := src.ptr) c1 (fun r hr => c1.live r (hc2 r hr))
    rw [e2] at h2; cases h2
    have hrefs : v2.refs = w.refs := r2.trans r1
    have hsrc : (match src.ptr with | some r => (⟨some r, src.vlt⟩ : Ref) | none => ⟨none, none⟩) = if src.ptr = none then ⟨none, none⟩ else src := by
      cases src with | mk p v => cases p <;> simp
    have hptr : (if src.ptr = none then (⟨none, none⟩ : Ref) else src).ptr = src.ptr := by
      cases src with | mk p v => cases p <;> simp
    have h : w' = { v2 with refs := v2.refs.set f (if src.ptr = none then ⟨none, none⟩ else src) } := by
      rw [← hsrc]; exact (Option.some.inj h).symm
    subst h
    refine hi.install (f1.trans f2) c2 ?_ (by simp [hrefs])
    intro r
    have := refCount_set (if src.ptr = none then ⟨none, none⟩ else src) hf r
    rw [hptr] at this
    have h0 := hc2 r
    have hp : old.ptr = some r → 0 < refCount w r := fun hr => refCount_pos (mem_of_get hf) hr
    rw [hrefs]
    simp only [refCount] at h0 hp ⊢
    by_cases h1 : old.ptr = some r
    · have hpp := hp h1
      simp only [h1, if_true] at this ⊢ h0
      by_cases h2 : src.ptr = some r
      · simp only [h2, if_true] at *; omega
      · simp only [h2, if_false] at *; omega
    · by_cases h2 : src.ptr = some r
      · simp only [h2, h1, if_true, if_false] at *; omega
      · simp only [h2, h1, if_false] at *; omega


theorem refMove_cm {w w' : World K V Ty} {f g : Nat} (hi : CI w) (h : refMove w f g = some w') : CM w w' := by
  simp only [refMove, Option.bind_eq_bind, Option.bind_eq_some_iff] at h
  obtain ⟨old, hf, src, hg, h⟩ := h
  by_cases hfg : f = g
  · rw [if_pos hfg] at h; cases h; exact .refl hi
  · rw [if_neg hfg] at h
    simp only [Option.bind_eq_some_iff] at h
    obtain ⟨v1, h1, h⟩ := h
    obtain ⟨w1, e1, r1, f1, c1⟩ := optRemove (p := old.ptr) hi.ok (fun r hr => refCount_pos (mem_of_get hf) hr)
    rw [e1] at h1; cases h1
    have hp : ∀ r, old.ptr = some r → 0 < refCount w r := fun r hr => refCount_pos (mem_of_get hf) hr
    cases hsp : src.ptr with
    | none =>
      rw [hsp] at h
      cases h
      refine hi.install f1 c1 ?_ (by simp [r1])
      intro r
      have := refCount_set ⟨none, none⟩ hf r
      rw [r1]
      simp only [reduceCtorEq, if_false] at this
      simp only [refCount]
      omega
    | some q =>
      have hs : (⟨some q, src.vlt⟩ : Ref) = src := by cases src; simp_all
      rw [hsp] at h
      simp only [hs] at h
      cases h
      refine hi.install f1 c1 ?_ (by simp [r1])
      intro r
      have e1 := refCount_set src hf r
      have e2 := refCount_set ⟨none, none⟩ (show (w.refs.set f src)[g]? = some src by rw [List.getElem?_set_ne hfg]; exact hg) r
      have h0 := hp r
      rw [r1]
      simp only [reduceCtorEq, if_false] at e2
      simp only [refCount] at *
      omega

theorem createRecord_cm {w w' : World K V Ty} {o f : Nat} {ps : List (K × V)} {res : Res K} (hi : CI w) (h : createRecord w o f ps = some (w', res)) : CM w w' := by
  simp only [createRecord, Option.bind_eq_bind, Option.bind_eq_some_iff] at h
  obtain ⟨vo, hvo, h⟩ := h
  split at h
  · cases h; exact .refl hi
  · simp only [Option.bind_eq_some_iff, Prod.exists] at h
    obtain ⟨w1, out, h1, h⟩ := h
    have s1 := (insertRecord_cs hi h1).1
    split at h
    · cases h; exact s1.toCM
    · simp only [Option.map_eq_some_iff, Prod.mk.injEq] at h
      obtain ⟨w2, h2, rfl, rfl⟩ := h
      exact s1.toCM.trans (setRecord_cm s1.ci h2)

theorem createRow_cs {w w' : World K V Ty} {o : Nat} {ps : List (K × V)} {res : Res K} (hi : CI w) (h : createRow w o ps = some (w', res)) : CS w w' := by
  simp only [createRow, Option.bind_eq_bind, Option.bind_eq_some_iff] at h
  obtain ⟨vo, hvo, h⟩ := h
  split at h
  · cases h; exact .refl hi
  · simp only [Option.bind_eq_some_iff, Prod.exists] at h
    obtain ⟨w1, out, h1, h⟩ := h
    have s1 := (insertRecord_cs hi h1).1
    split at h
    · cases h; exact s1
    · cases h; exact s1

theorem getRecord_cm {env : Env} {w w' : World K V Ty} {o f : Nat} {k : K} {v : V} {res : Res K} (hi : CI w) (h : getRecord env w o k v f = some (w', res)) : CM w w' := by
  simp only [getRecord, Option.bind_eq_bind, Option.bind_eq_some_iff] at h
  obtain ⟨vo, hvo, h⟩ := h
  split at h
  · cases h; exact .refl hi
  · split at h <;> simp only [Option.map_eq_some_iff, Prod.mk.injEq] at h <;> obtain ⟨w2, h2, rfl, rfl⟩ := h <;> exact setRecord_cm hi h2

theorem getRecords_cm {env : Env} {w w' : World K V Ty} {o n : Nat} {k : K} {v : V} {res : Res K} (hi : CI w) (h : getRecords env w o k v n = some (w', res)) : CM w w' := by
  simp only [getRecords, Option.bind_eq_bind, Option.bind_eq_some_iff] at h
  obtain ⟨vo, hvo, h⟩ := h
  split at h
  · cases h; exact .refl hi
  · split at h
    · cases h; exact .refl hi
    · simp only [Option.map_eq_some_iff, Prod.mk.injEq] at h; obtain ⟨w2, h2, rfl, rfl⟩ := h
      exact loop_cm (fun w w' a hi h => newRefTo_cm hi h) _ hi h2

theorem getSorted_cm {w w' : World K V Ty} {o : Nat} {k : K} {rev : Bool} {n : Option Nat} (hi : CI w) (h : getSorted w o k rev n = some w') : CM w w' := by
  simp only [getSorted, Option.bind_eq_bind, Option.bind_eq_some_iff] at h
  obtain ⟨vo, hvo, h⟩ := h
  split at h
  · cases h; exact .refl hi
  · exact loop_cm (fun w w' a hi h => newRefTo_cm hi h) _ hi h

theorem setGetRecord_cm {env : Env} {w w' : World K V Ty} {s f : Nat} {k : K} {v : V} {res : Res K} (hi : CI w) (h : setGetRecord env w s k v f = some (w', res)) : CM w w' := by
  simp only [setGetRecord, Option.bind_eq_bind, Option.bind_eq_some_iff] at h
  obtain ⟨so, hso, h⟩ := h
  split at h
  · cases h; exact .refl hi
  · simp only [Option.bind_eq_some_iff, Prod.exists] at h
    obtain ⟨w1, r1, h1, ref, href, h⟩ := h
    cases h
    have s1 := getRecord_cm hi h1
    refine s1.trans (s1.ci.install (.refl _) s1.ci.ok (fun r => ?_) (by simp))
    rename_i p _
    have := refCount_set ⟨ref.ptr, some p⟩ href r
    simp only [refCount]
    simp only at this
    omega

theorem setGetRecords_cm {env : Env} {w w' : World K V Ty} {s n : Nat} {k : K} {v : V} {res : Res K} (hi : CI w) (h : setGetRecords env w s k v n = some (w', res)) : CM w w' := by
  simp only [setGetRecords, Option.bind_eq_bind, Option.bind_eq_some_iff] at h
  obtain ⟨so, hso, h⟩ := h
  split at h
  · cases h; exact .refl hi
  · simp only [Option.bind_eq_some_iff] at h
    obtain ⟨_, _, h⟩ := h
    split at h
    · cases h; exact .refl hi
    · split at h
      · cases h; exact .refl hi
      · simp only [Option.map_eq_some_iff, Prod.mk.injEq] at h; obtain ⟨w2, h2, rfl, rfl⟩ := h
        exact loop_cm (fun w w' a hi h => newRefTo_cm hi h) _ hi h2

/-! ### Sets -/

theorem copyKeys_cs {env : Env} {src : Obj K V Ty} {w w' : World K V Ty} {s : Nat} (hi : CI w) (h : copyKeys env src w s = some w') : CS w w' := by
  refine loop_cs (fun w w' a hi h => ?_) _ hi h
  obtain ⟨pr, hpr, rfl⟩ := Option.map_eq_some_iff.mp h
  exact addKeyLocal_cs (res := pr.2) hi hpr

theorem prepTarget_cs {env : Env} {w w' : World K V Ty} {o p s : Nat} (hi : CI w) (h : prepTarget env w o p s = some w') : CS w w' := by
  simp only [prepTarget, Option.bind_eq_bind, Option.bind_eq_some_iff] at h
  obtain ⟨po, hpo, so, hso, h⟩ := h
  have s1 := hi.putObj p { po with sets := setIns po.sets s }
  split at h
  · exact s1.trans (setClear_cs s1.ci h)
  · simp only [Option.bind_eq_some_iff] at h
    obtain ⟨w2, h2, so2, hso2, oo, hoo, w4, h4, so4, hso4, h⟩ := h
    cases h
    have s2 := s1.trans (setReset_cs s1.ci h2)
    have s3 := s2.trans (s2.ci.putObj s { so2 with parent := some p })
    have s4 := s3.trans (copyKeys_cs s3.ci h4)
    exact s4.trans (s4.ci.putObj _ _)

theorem attach_cs {w w' : World K V Ty} {s r : Nat} (hi : CI w) (h : attach s w r = some w') : CS w w' := by
  simp only [attach, Option.bind_eq_bind, Option.bind_eq_some_iff] at h
  obtain ⟨so, hso, x, hx, h⟩ := h
  have s1 := hi.putObj s { so with cols := addCols so.cols x.data r }
  exact s1.trans (addDep_cs s1.ci h)

theorem fillTarget_cs {env : Env} {w w' : World K V Ty} {s : Nat} {l : List Nat} (hi : CI w) (h : fillTarget env w s l = some w') : CS w w' := by
  simp only [fillTarget, Option.bind_eq_bind, Option.bind_eq_some_iff] at h
  obtain ⟨so, hso, h⟩ := h
  have s1 := hi.putObj s { so with recs := l.foldl setIns so.recs }
  exact s1.trans (loop_cs (fun w w' a hi h => attach_cs hi h) _ s1.ci h)

theorem request_cs {env : Env} {w w' : World K V Ty} {o : Nat} {ty : ReqType} {k : K} {a b : V} {ia ib : Bool} {n : Option Nat} {pred : Nat → Bool} {s : Nat} {res : Res K}
    (hi : CI w) (h : request env w o ty k a b ia ib n pred s = some (w', res)) : CS w w' := by
  unfold request at h
  simp only [Option.bind_eq_bind, Option.bind_eq_some_iff] at h
  obtain ⟨oo, hoo, h⟩ := h
  split at h
  · cases h; exact .refl hi
  · split at h
    · cases h; exact .refl hi
    · simp only [Option.bind_eq_some_iff] at h
      obtain ⟨w1, h1, oo1, hoo1, out, hout, h⟩ := h
      have s1 := prepTarget_cs hi h1
      split at h
      · cases h; exact s1
      · simp only [Option.map_eq_some_iff, Prod.mk.injEq] at h
        obtain ⟨w2, h2, rfl, rfl⟩ := h
        exact s1.trans (fillTarget_cs s1.ci h2)

theorem requestTree_cs {env : Env} {w w' : World K V Ty} {o : Nat} {q : Req K V} {s : Nat} {res : Res K}
    (hi : CI w) (h : requestTree env w o q s = some (w', res)) : CS w w' := by
  unfold requestTree at h
  simp only [Option.bind_eq_bind, Option.bind_eq_some_iff] at h
  obtain ⟨oo, hoo, h⟩ := h
  split at h
  · cases h; exact .refl hi
  · split at h
    · cases h; exact .refl hi
    · simp only [Option.bind_eq_some_iff] at h
      obtain ⟨w1, h1, oo1, hoo1, out, hout, h⟩ := h
      have s1 := prepTarget_cs hi h1
      split at h <;> simp only [Option.map_eq_some_iff, Prod.mk.injEq] at h <;> obtain ⟨w2, h2, rfl, rfl⟩ := h
      · exact s1.trans (setClear_cs s1.ci h2)
      · exact s1.trans (fillTarget_cs s1.ci h2)

theorem setAddRecord_cs {w w' : World K V Ty} {s f : Nat} {res : Res K} (hi : CI w) (h : setAddRecord w s f = some (w', res)) : CS w w' := by
  unfold setAddRecord at h
  simp only [Option.bind_eq_bind, Option.bind_eq_some_iff] at h
  obtain ⟨so, hso, h⟩ := h
  split at h
  · cases h; exact .refl hi
  · simp only [Option.bind_eq_some_iff] at h
    obtain ⟨ref, _, val, _, h⟩ := h
    split at h
    · cases h; exact .refl hi
    · split at h
      · cases h; exact .refl hi
      · split at h
        · cases h
        · split at h
          · cases h; exact .refl hi
          · simp only [Option.map_eq_some_iff, Prod.mk.injEq] at h
            obtain ⟨w2, h2, rfl, rfl⟩ := h
            rename_i r _ _
            have s1 := hi.putObj s { so with recs := so.recs ++ [r] }
            exact s1.trans (attach_cs s1.ci h2)

theorem setRemoveRef_cs {env : Env} {w w' : World K V Ty} {s f : Nat} {b : Bool} (hi : CI w) (h : setRemoveRef env w s f = some (w', b)) : CS w w' := by
  simp only [setRemoveRef, Option.bind_eq_bind, Option.bind_eq_some_iff] at h
  obtain ⟨so, hso, h⟩ := h
  split at h
  · cases h; exact .refl hi
  · exact eraseRef_cs hi h
theorem setRemoveKV_cs {env : Env} {w w' : World K V Ty} {s : Nat} {k : K} {v : V} {res : Res K} (hi : CI w) (h : setRemoveKV env w s k v = some (w', res)) : CS w w' := by
  simp only [setRemoveKV, Option.bind_eq_bind, Option.bind_eq_some_iff] at h
  obtain ⟨so, hso, h⟩ := h
  split at h
  · cases h; exact .refl hi
  · exact eraseKV_cs hi h
theorem setRemoveManyKV_cs {env : Env} {w w' : World K V Ty} {s n : Nat} {k : K} {v : V} {res : Res K} (hi : CI w) (h : setRemoveManyKV env w s k v n = some (w', res)) : CS w w' := by
  simp only [setRemoveManyKV, Option.bind_eq_bind, Option.bind_eq_some_iff] at h
  obtain ⟨so, hso, h⟩ := h
  split at h
  · cases h; exact .refl hi
  · exact eraseManyKV_cs hi h

theorem addOnly_cs {w w' : World K V Ty} {s r : Nat} (hi : CI w) (h : addOnly s w r = some w') : CS w w' := by
  simp only [addOnly, Option.bind_eq_bind, Option.bind_eq_some_iff] at h
  obtain ⟨so, hso, h⟩ := h
  split at h
  · cases h; exact .refl hi
  · simp only [Option.bind_eq_some_iff] at h
    obtain ⟨x, hx, h⟩ := h
    cases h; exact hi.putObj _ _

theorem setJoin_cs {env : Env} {w w' : World K V Ty} {s a : Nat} {res : Res K} (hi : CI w) (h : setJoin env w s a = some (w', res)) : CS w w' := by
  simp only [setJoin, Option.bind_eq_bind, Option.bind_eq_some_iff] at h
  obtain ⟨so, hso, ao, hao, h⟩ := h
  split at h
  · cases h; exact .refl hi
  · simp only [Option.map_eq_some_iff, Prod.mk.injEq] at h
    obtain ⟨w2, h2, rfl, rfl⟩ := h
    exact loop_cs (fun w w' a hi h => addOnly_cs hi h) _ hi h2

theorem loop_removeRecord_cs {env : Env} {s : Nat} (l : List Nat) {w w' : World K V Ty} (hi : CI w)
    (h : loop (fun w r => (removeRecord env w s r).map (·.1)) l w = some w') : CS w w' := by
  refine loop_cs (fun w w' a hi h => ?_) _ hi h
  obtain ⟨pr, hpr, rfl⟩ := Option.map_eq_some_iff.mp h
  exact removeRecord_cs (b := pr.2) hi hpr

theorem setExclude_cs {env : Env} {w w' : World K V Ty} {s a : Nat} {res : Res K} (hi : CI w) (h : setExclude env w s a = some (w', res)) : CS w w' := by
  simp only [setExclude, Option.bind_eq_bind, Option.bind_eq_some_iff] at h
  obtain ⟨so, hso, ao, hao, h⟩ := h
  split at h
  · cases h; exact .refl hi
  · simp only [Option.map_eq_some_iff, Prod.mk.injEq] at h
    obtain ⟨w2, h2, rfl, rfl⟩ := h
    exact loop_removeRecord_cs _ hi h2
theorem setIntersect_cs {env : Env} {w w' : World K V Ty} {s a : Nat} {res : Res K} (hi : CI w) (h : setIntersect env w s a = some (w', res)) : CS w w' := by
  simp only [setIntersect, Option.bind_eq_bind, Option.bind_eq_some_iff] at h
  obtain ⟨so, hso, ao, hao, h⟩ := h
  split at h
  · cases h; exact .refl hi
  · simp only [Option.map_eq_some_iff, Prod.mk.injEq] at h
    obtain ⟨w2, h2, rfl, rfl⟩ := h
    exact loop_removeRecord_cs _ hi h2

theorem copySet_cs {env : Env} {w w' : World K V Ty} {s a : Nat} (hi : CI w) (h : copySet env w s a = some w') : CS w w' := by
  simp only [copySet, Option.bind_eq_bind, Option.bind_eq_some_iff] at h
  obtain ⟨ao, hao, p, hp, _, _, so, hso, w2, h2, so2, hso2, po, hpo, h⟩ := h
  have s1 := hi.putObj s { so with isBase := false, parent := some p }
  have s2 := s1.trans (copyKeys_cs s1.ci h2)
  have s3 := s2.trans (s2.ci.putObj s { so2 with keysOrder := ao.keysOrder, uniq := ao.uniq })
  have s4 := s3.trans (s3.ci.putObj p { po with sets := setIns po.sets s })
  refine s4.trans (loop_cs (fun w w' r hi h => ?_) _ s4.ci h)
  simp only [Option.bind_eq_some_iff] at h
  obtain ⟨so, hso, h⟩ := h
  have s1 := hi.putObj s { so with recs := setIns so.recs r }
  exact s1.trans (attach_cs s1.ci h)

theorem setCopyNew_cs {env : Env} {w w' : World K V Ty} {a : Nat} (hi : CI w) (h : setCopyNew env w a = some w') : CS w w' := by
  simp only [setCopyNew, Option.bind_eq_bind, Option.bind_eq_some_iff] at h
  obtain ⟨ao, hao, h⟩ := h
  have s1 : CS w ({ w with objs := mput w.objs w.nextO { Obj.newSet with isBase := true }, nextO := w.nextO + 1 } : World K V Ty) := hi.objs rfl rfl rfl
  split at h
  · cases h; exact s1
  · exact s1.trans (copySet_cs s1.ci h)

theorem setAssign_cs {env : Env} {w w' : World K V Ty} {s a : Nat} (hi : CI w) (h : setAssign env w s a = some w') : CS w w' := by
  simp only [setAssign, Option.bind_eq_bind, Option.bind_eq_some_iff] at h
  obtain ⟨so, hso, ao, hao, h⟩ := h
  split at h
  · cases h; exact .refl hi
  · simp only [Option.bind_eq_some_iff] at h
    obtain ⟨w1, h1, h⟩ := h
    have s1 := setReset_cs hi h1
    split at h
    · cases h; exact s1
    · exact s1.trans (copySet_cs s1.ci h)

theorem moveSet_cs {env : Env} {w w' : World K V Ty} {s a : Nat} (hi : CI w) (h : moveSet env w s a = some w') : CS w w' := by
  simp only [moveSet, Option.bind_eq_bind, Option.bind_eq_some_iff] at h
  obtain ⟨ao, hao, p, hp, _, _, w1, h1, so, hso, w4, h4, so4, hso4, po, hpo, h⟩ := h
  cases h
  have s1 : CS w w1 := by
    refine loop_cs (fun w w' r hi h => ?_) _ hi h1
    simp only [moveDep, Option.bind_eq_bind, Option.bind_eq_some_iff] at h
    obtain ⟨v, hv, h⟩ := h
    have := eraseDep_cs hi hv
    exact this.trans (addDep_cs this.ci h)
  have s2 := s1.trans (s1.ci.putObj s { so with isBase := false, parent := some p })
  have s3 := s2.trans (s2.ci.putObj a { ao with parent := none, recs := [], keysOrder := [], uniq := [] })
  have s4 := s3.trans (copyKeys_cs s3.ci h4)
  have s5 := s4.trans (s4.ci.putObj s { so4 with keysOrder := ao.keysOrder, uniq := ao.uniq, recs := ao.recs })
  exact s5.trans (s5.ci.putObj _ _)

theorem setMoveNew_cs {env : Env} {w w' : World K V Ty} {a : Nat} (hi : CI w) (h : setMoveNew env w a = some w') : CS w w' := by
  simp only [setMoveNew, Option.bind_eq_bind, Option.bind_eq_some_iff] at h
  obtain ⟨ao, hao, h⟩ := h
  have s1 : CS w ({ w with objs := mput w.objs w.nextO { Obj.newSet with isBase := true }, nextO := w.nextO + 1 } : World K V Ty) := hi.objs rfl rfl rfl
  split at h
  · cases h; exact s1
  · exact s1.trans (moveSet_cs s1.ci h)

theorem setMoveAssign_cs {env : Env} {w w' : World K V Ty} {s a : Nat} (hi : CI w) (h : setMoveAssign env w s a = some w') : CS w w' := by
  simp only [setMoveAssign, Option.bind_eq_bind, Option.bind_eq_some_iff] at h
  obtain ⟨so, hso, ao, hao, h⟩ := h
  split at h
  · cases h; exact .refl hi
  · split at h
    · exact setReset_cs hi h
    · exact moveSet_cs hi h

theorem setUnion_cs {env : Env} {w w' : World K V Ty} {a b s : Nat} {res : Res K} (hi : CI w) (h : setUnion env w a b s = some (w', res)) : CS w w' := by
  simp only [setUnion, Option.bind_eq_bind, Option.bind_eq_some_iff] at h
  obtain ⟨ao, hao, bo, hbo, so, hso, h⟩ := h
  split at h
  · cases h; exact .refl hi
  · split at h
    · cases h; exact .refl hi
    · split at h
      · cases h; exact .refl hi
      · split at h
        · cases h; exact .refl hi
        · simp only [Option.bind_eq_some_iff] at h
          obtain ⟨w1, h1, h⟩ := h
          have s1 := setAssign_cs hi h1
          exact s1.trans (setJoin_cs s1.ci h)

theorem setIntersection_cs {env : Env} {w w' : World K V Ty} {a b s : Nat} {res : Res K} (hi : CI w) (h : setIntersection env w a b s = some (w', res)) : CS w w' := by
  simp only [setIntersection, Option.bind_eq_bind, Option.bind_eq_some_iff] at h
  obtain ⟨ao, hao, bo, hbo, so, hso, h⟩ := h
  split at h
  · cases h; exact .refl hi
  · split at h
    · cases h; exact .refl hi
    · split at h
      · cases h; exact .refl hi
      · split at h
        · cases h; exact .refl hi
        · rename_i p _ _ _
          simp only [Option.bind_eq_some_iff, Option.map_eq_some_iff, Prod.mk.injEq] at h
          obtain ⟨w1, h1, so1, hso1, w3, h3, so3, hso3, po, hpo, w6, h6, rfl, rfl⟩ := h
          have s1 := setReset_cs hi h1
          have s2 := s1.trans (s1.ci.putObj s { so1 with parent := some p })
          have s3 := s2.trans (copyKeys_cs s2.ci h3)
          have s4 := s3.trans (s3.ci.putObj s { so3 with keysOrder := ao.keysOrder, uniq := ao.uniq })
          have s5 := s4.trans (s4.ci.putObj p { po with sets := setIns po.sets s })
          exact s5.trans (loop_cs (fun w w' a hi h => addOnly_cs hi h) _ s5.ci h6)

/-! ### Life time -/

theorem destroyVault_cs {env : Env} {w w' : World K V Ty} {o : Nat} (hi : CI w) (h : destroyVault env w o = some w') : CS w w' := by
  simp only [destroyVault, Option.bind_eq_bind, Option.bind_eq_some_iff] at h
  obtain ⟨w1, h1, h⟩ := h
  cases h
  have s1 := dropVault_cs hi h1
  exact s1.trans (s1.ci.objs rfl rfl rfl)

theorem destroySet_cs {env : Env} {w w' : World K V Ty} {s : Nat} (hi : CI w) (h : destroySet env w s = some w') : CS w w' := by
  simp only [destroySet, Option.bind_eq_bind, Option.bind_eq_some_iff] at h
  obtain ⟨w1, h1, w2, h2, h⟩ := h
  cases h
  have s1 := setReset_cs hi h1
  have s2 := s1.trans (dropVault_cs s1.ci h2)
  exact s2.trans (s2.ci.objs rfl rfl rfl)

theorem copyInto_cs {env : Env} {w w' : World K V Ty} {o a : Nat} (hi : CI w) (h : copyInto env w o a = some w') : CS w w' := by
  simp only [copyInto, Option.bind_eq_bind, Option.bind_eq_some_iff] at h
  obtain ⟨ao, hao, w1, h1, vo, hvo, h⟩ := h
  have s1 := copyKeys_cs hi h1
  have s2 := s1.trans (s1.ci.putObj o { vo with keysOrder := ao.keysOrder, uniq := ao.uniq })
  refine s2.trans (loop_cs (fun w w' r hi h => ?_) _ s2.ci h)
  simp only [copyOne, Option.bind_eq_bind, Option.bind_eq_some_iff] at h
  obtain ⟨x, hx, vo, hvo, h⟩ := h
  cases h
  have s1 := hi.newRec x.data
  exact s1.trans (s1.ci.putObj _ _)

theorem newVault_cs {w : World K V Ty} (hi : CI w) : CS w (newVault w) := hi.objs rfl rfl rfl

theorem vaultAssign_cs {env : Env} {w w' : World K V Ty} {o a : Nat} (hi : CI w) (h : vaultAssign env w o a = some w') : CS w w' := by
  unfold vaultAssign at h
  split at h
  · cases h; exact .refl hi
  · simp only [Option.bind_eq_bind, Option.bind_eq_some_iff] at h
    obtain ⟨w1, h1, h⟩ := h
    have s1 := dropVault_cs hi h1
    exact s1.trans (copyInto_cs s1.ci h)

theorem moveInto_cs {w w' : World K V Ty} {o a : Nat} (hi : CI w) (h : moveInto w o a = some w') : CS w w' := by
  simp only [moveInto, Option.bind_eq_bind, Option.bind_eq_some_iff] at h
  obtain ⟨ao, hao, vo, hvo, h⟩ := h
  cases h
  exact hi.objs rfl rfl rfl

theorem vaultMoveAssign_cs {env : Env} {w w' : World K V Ty} {o a : Nat} (hi : CI w) (h : vaultMoveAssign env w o a = some w') : CS w w' := by
  unfold vaultMoveAssign at h
  split at h
  · cases h; exact .refl hi
  · simp only [Option.bind_eq_bind, Option.bind_eq_some_iff] at h
    obtain ⟨w1, h1, h⟩ := h
    have s1 := dropVault_cs hi h1
    exact s1.trans (moveInto_cs s1.ci h)

/-! ### All operations -/

theorem map1 {A B : Type} {x : Option (A × B)} {a : A} (h : x.map (·.1) = some a) : ∃ b, x = some (a, b) := by
  cases x with
  | none => simp at h
  | some p => simp at h; exact ⟨p.2, by rw [← h]⟩
theorem onV {A : Type} {w : World K V Ty} {o : Nat} {x : Option A} {y : A} (h : onVault w o x = some y) : x = some y := by
  unfold onVault at h; split at h
  · exact h
  · cases h
theorem onS {A : Type} {w : World K V Ty} {o : Nat} {x : Option A} {y : A} (h : onSet w o x = some y) : x = some y := by
  unfold onSet at h; split at h
  · exact h
  · cases h

theorem step_cm {env : Env} {w w' : World K V Ty} {op : Op K V Ty} (hi : CI w) (h : step env w op = some w') : CM w w' := by
  cases op with
  | newVault => simp only [step, Option.some.injEq] at h; subst h; exact (newVault_cs hi).toCM
  | newSet => simp only [step, Option.some.injEq] at h; subst h; exact (CI.objs (w' := newSet w) hi rfl rfl rfl).toCM
  | newRef => simp only [step, Option.some.injEq] at h; subst h; exact newRef_cm hi
  | destroyVault o => exact (destroyVault_cs hi (onV h)).toCM
  | destroySet s => exact (destroySet_cs hi (onS h)).toCM
  | refCopy f g => exact refCopy_cm hi h
  | refMove f g => exact refMove_cm hi h
  | refReset f => exact refReset_cm hi h
  | refSetData f k v => obtain ⟨b, h⟩ := map1 h; exact (refSetData_cs hi h).toCM
  | refSetDataMany f ps => obtain ⟨b, h⟩ := map1 h; exact (refSetDataMany_cs hi h).toCM
  | addKey o k d => obtain ⟨b, h⟩ := map1 (onV h); exact (addKey_cs hi h).toCM
  | addUniqueKey o k t noFn f => obtain ⟨b, h⟩ := map1 (onV h); exact (addUniqueKey_cs hi h).toCM
  | updateKey o k d => obtain ⟨b, h⟩ := map1 (onV h); exact (updateKey_cs hi h).toCM
  | removeKey o k => obtain ⟨b, h⟩ := map1 (onV h); exact (removeKey_cs hi h).toCM
  | createRecord o f ps => obtain ⟨b, h⟩ := map1 (onV h); exact createRecord_cm hi h
  | createRow o ps => obtain ⟨b, h⟩ := map1 (onV h); exact (createRow_cs hi h).toCM
  | eraseRef o f => obtain ⟨b, h⟩ := map1 (onV h); exact (eraseRef_cs hi h).toCM
  | eraseKV o k v => obtain ⟨b, h⟩ := map1 (onV h); exact (eraseKV_cs hi h).toCM
  | eraseManyKV o k v n => obtain ⟨b, h⟩ := map1 (onV h); exact (eraseManyKV_cs hi h).toCM
  | dropData o => exact (dropData_cs hi (onV h)).toCM
  | dropVault o => exact (dropVault_cs hi (onV h)).toCM
  | getRecord o k v f => obtain ⟨b, h⟩ := map1 (onV h); exact getRecord_cm hi h
  | getRecords o k v n => obtain ⟨b, h⟩ := map1 (onV h); exact getRecords_cm hi h
  | getSorted o k rev n => exact getSorted_cm hi h
  | request o t k a b ia ib n pred s => obtain ⟨b, h⟩ := map1 (onS h); exact (request_cs hi h).toCM
  | requestTree o q s => obtain ⟨b, h⟩ := map1 (onS h); exact (requestTree_cs hi h).toCM
  | setAddRecord s f => obtain ⟨b, h⟩ := map1 (onS h); exact (setAddRecord_cs hi h).toCM
  | setRemoveRef s f => obtain ⟨b, h⟩ := map1 (onS h); exact (setRemoveRef_cs hi h).toCM
  | setRemoveKV s k v => obtain ⟨b, h⟩ := map1 (onS h); exact (setRemoveKV_cs hi h).toCM
  | setRemoveManyKV s k v n => obtain ⟨b, h⟩ := map1 (onS h); exact (setRemoveManyKV_cs hi h).toCM
  | setClear s => exact (setClear_cs hi (onS h)).toCM
  | setReset s => exact (setReset_cs hi (onS h)).toCM
  | setGetRecord s k v f => obtain ⟨b, h⟩ := map1 (onS h); exact setGetRecord_cm hi h
  | setGetRecords s k v n => obtain ⟨b, h⟩ := map1 (onS h); exact setGetRecords_cm hi h
  | setJoin s a => obtain ⟨b, h⟩ := map1 (onS (onS h)); exact (setJoin_cs hi h).toCM
  | setExclude s a => obtain ⟨b, h⟩ := map1 (onS (onS h)); exact (setExclude_cs hi h).toCM
  | setIntersect s a => obtain ⟨b, h⟩ := map1 (onS (onS h)); exact (setIntersect_cs hi h).toCM
  | setUnion a b s => obtain ⟨b, h⟩ := map1 (onS (onS (onS h))); exact (setUnion_cs hi h).toCM
  | setIntersection a b s => obtain ⟨b, h⟩ := map1 (onS (onS (onS h))); exact (setIntersection_cs hi h).toCM
  | setCopyNew a => exact (setCopyNew_cs hi (onS h)).toCM
  | setAssign s a => exact (setAssign_cs hi (onS (onS h))).toCM
  | setMoveNew a => exact (setMoveNew_cs hi (onS h)).toCM
  | setMoveAssign s a => exact (setMoveAssign_cs hi (onS (onS h))).toCM
  | vaultCopyNew a => exact ((newVault_cs hi).trans (copyInto_cs (newVault_cs hi).ci (onV h))).toCM
  | vaultAssign o a => exact (vaultAssign_cs hi (onV (onV h))).toCM
  | vaultMoveNew a => exact ((newVault_cs hi).trans (moveInto_cs (newVault_cs hi).ci (onV h))).toCM
  | vaultMoveAssign o a => exact (vaultMoveAssign_cs hi (onV (onV h))).toCM

theorem CI.empty : CI (World.empty : World K V Ty) := by
  refine ⟨⟨?_, ?_, ?_⟩, ?_⟩ <;> simp [World.empty, World.getRec, mget, refCount]

/-- Every history keeps the reference counts right. -/
theorem reach_ci {G : World K V Ty → Op K V Ty → Prop} {w : World K V Ty} (h : Reach G w) : CI w := by
  induction h with
  | init => exact .empty
  | step w w' env op _ _ hs ih => exact (step_cm ih hs).ci

end MVault.W
