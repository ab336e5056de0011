import Verif.WorldAny
/-
Every operation keeps the facts of WorldAny.lean.
-/
set_option linter.unusedSectionVars false
set_option linter.unusedSimpArgs false
namespace MVault.W
variable {K V Ty : Type} [LinearOrder K] [LinearOrder V] [Typed V Ty] [DecidableEq Ty]

/-! ### Erasing -/

theorem eraseLocal_st {w w' : World K V Ty} {o r : Nat} (hi : AI w) (h : eraseLocal w o r = some w') (t : List Nat) : St t w w' := by
  simp only [eraseLocal, Option.bind_eq_bind, Option.bind_eq_some_iff] at h
  obtain ⟨vo, hvo, x, hx, h⟩ := h
  cases h
  have ok := hi.obj o vo hvo
  exact hi.putSame (y := { vo with cols := eraseCols vo.cols x.data r, recs := vo.recs.filter (· ≠ r) }) hvo rfl (fun _ => ⟨rfl, rfl⟩)
    (fun _ h => h) (fun _ h => h) (ksame_cols (sig_eraseCols _ _ _) _) (fun r hr => ok.recs r (List.mem_filter.mp hr).1) (ok.cols.eraseCols _ _) t

theorem removeFromDeps_st {env : Env} {w w' : World K V Ty} {r : Nat} (hi : AI w) (h : removeFromDeps env w r = some w') (t : List Nat) : St t w w' := by
  simp only [removeFromDeps, Option.bind_eq_bind, Option.bind_eq_some_iff] at h
  obtain ⟨x, hx, h⟩ := h
  refine loop_st' (fun w w' a hi h => ?_) _ hi h
  simp only [Option.bind_eq_some_iff] at h
  obtain ⟨so, hso, h⟩ := h
  split at h
  · cases h; exact .refl hi t
  · split at h
    · cases h
    · exact eraseLocal_st hi h t

theorem eraseOne_st {env : Env} {w w' : World K V Ty} {o r : Nat} (hi : AI w) (h : eraseOne env w o r = some w') (t : List Nat) : St t w w' := by
  simp only [eraseOne, Option.bind_eq_bind, Option.bind_eq_some_iff] at h
  obtain ⟨vo, hvo, w1, h1, h⟩ := h
  have s1 := eraseLocal_st hi h1 t
  split at h
  · simp only [Option.bind_eq_some_iff] at h
    obtain ⟨w2, h2, h3⟩ := h
    have s2 := s1.trans (removeFromDeps_st s1.ai h2 t)
    exact s2.trans (invalidate_st s2.ai h3 t)
  · cases h; exact s1

theorem removeRecord_st {env : Env} {w w' : World K V Ty} {o r : Nat} {b : Bool} (hi : AI w) (h : removeRecord env w o r = some (w', b)) (t : List Nat) : St t w w' := by
  simp only [removeRecord, Option.bind_eq_bind, Option.bind_eq_some_iff] at h
  obtain ⟨vo, hvo, h⟩ := h
  split at h
  · cases h; exact .refl hi t
  · simp only [Option.map_eq_some_iff, Prod.mk.injEq] at h
    obtain ⟨w1, h1, rfl, rfl⟩ := h
    exact eraseOne_st hi h1 t

theorem eraseRef_st {env : Env} {w w' : World K V Ty} {o f : Nat} {b : Bool} (hi : AI w) (h : eraseRef env w o f = some (w', b)) (t : List Nat) : St t w w' := by
  simp only [eraseRef, Option.bind_eq_bind, Option.bind_eq_some_iff] at h
  obtain ⟨ref, _, h⟩ := h
  split at h
  · simp only [Option.map_eq_some_iff, Prod.mk.injEq] at h
    obtain ⟨_, _, rfl, rfl⟩ := h
    exact .refl hi t
  · exact removeRecord_st hi h t

theorem eraseKV_st {env : Env} {w w' : World K V Ty} {o : Nat} {k : K} {v : V} {res : Res K} (hi : AI w) (h : eraseKV env w o k v = some (w', res)) (t : List Nat) : St t w w' := by
  simp only [eraseKV, Option.bind_eq_bind, Option.bind_eq_some_iff] at h
  obtain ⟨vo, hvo, h⟩ := h
  split at h
  · cases h; exact .refl hi t
  · split at h
    · cases h; exact .refl hi t
    · simp only [Option.map_eq_some_iff, Prod.mk.injEq] at h
      obtain ⟨w1, h1, rfl, rfl⟩ := h
      exact eraseOne_st hi h1 t

theorem eraseManyKV_st {env : Env} {w w' : World K V Ty} {o n : Nat} {k : K} {v : V} {res : Res K} (hi : AI w) (h : eraseManyKV env w o k v n = some (w', res)) (t : List Nat) :
    St t w w' := by
  simp only [eraseManyKV, Option.bind_eq_bind, Option.bind_eq_some_iff] at h
  obtain ⟨vo, hvo, h⟩ := h
  split at h
  · cases h; exact .refl hi t
  · split at h
    · cases h; exact .refl hi t
    · simp only [Option.map_eq_some_iff, Prod.mk.injEq] at h
      obtain ⟨w1, h1, rfl, rfl⟩ := h
      exact loop_st' (fun w w' a hi h => eraseOne_st hi h t) _ hi h1

theorem dropData_st {env : Env} {w w' : World K V Ty} {o : Nat} (hi : AI w) (h : dropData env w o = some w') (t : List Nat) : St t w w' := by
  simp only [dropData, Option.bind_eq_bind, Option.bind_eq_some_iff] at h
  obtain ⟨vo, hvo, w1, h1, w2, h2, vo', hvo', h⟩ := h
  cases h
  have s1 : St t w w1 := loop_st' (fun w w' a hi h => setClear_st hi h t) _ hi h1
  have s2 := s1.trans (loop_st' (fun w w' a hi h => invalidate_st hi h t) _ s1.ai h2)
  exact s2.trans (s2.ai.putSame (y := { vo' with cols := clearCols vo'.cols, recs := [] }) hvo' rfl (fun _ => ⟨rfl, rfl⟩)
    (fun _ h => h) (fun _ h => h) (ksame_cols (sig_clearCols _) _) (by simp) (s2.ai.obj _ _ hvo').cols.clearCols t)

theorem dropVault_st {env : Env} {w w' : World K V Ty} {o : Nat} {t : List Nat} (hi : AI w) (ht : NotVault w o ∨ o ∈ t) (h : dropVault env w o = some w') : St t w w' := by
  simp only [dropVault, Option.bind_eq_bind, Option.bind_eq_some_iff] at h
  obtain ⟨vo, hvo, w1, h1, h⟩ := h
  have s1 : St t w w1 := loop_st' (fun w w' a hi h => setReset_st hi h t) _ hi h1
  exact s1.trans (dropCore_st s1.ai (ht.imp (NotVault.st s1) id) h)

/-! ### SetData -/

theorem setDataIndex_st {w w' : World K V Ty} {o r : Nat} {k : K} {v : V} {res : Res K} (hi : AI w) (h : setDataIndex w o r k v = some (w', res)) (t : List Nat) : St t w w' := by
  simp only [setDataIndex, Option.bind_eq_bind, Option.bind_eq_some_iff] at h
  obtain ⟨vo, hvo, x, hx, h⟩ := h
  split at h
  · cases h; exact .refl hi t
  · split at h
    · cases h; exact .refl hi t
    · rename_i c hc
      split at h
      · cases h; exact .refl hi t
      · rename_i hty
        have hty : c.ty = typeOf v := by
          by_contra e; exact hty e
        split at h
        · cases h; exact .refl hi t
        · rename_i c' hc'
          cases h
          have ok := hi.obj o vo hvo
          obtain ⟨e1, e2, e3⟩ := Col.setVal_shape hc'
          refine hi.putSame (y := { vo with cols := mput vo.cols k c' }) hvo rfl (fun _ => ⟨rfl, rfl⟩) (fun _ h => h) (fun _ h => h)
            ⟨rfl, rfl, rfl, ?_⟩ ok.recs (ok.cols.mput ((ok.cols k c hc).setVal hty.symm hc')) t
          intro k'
          simp only [mget_mput]
          split
          · rename_i e; subst e; simp [hc, Col.sig, e1, e2, e3]
          · rfl

theorem updateDeps_st {env : Env} {w w' : World K V Ty} {r : Nat} {k : K} {v : V} (hi : AI w) (h : updateDeps env w r k v = some w') (t : List Nat) : St t w w' := by
  simp only [updateDeps, Option.bind_eq_bind, Option.bind_eq_some_iff] at h
  obtain ⟨x, hx, h⟩ := h
  refine loop_st' (fun w w' a hi h => ?_) _ hi h
  simp only [Option.bind_eq_some_iff] at h
  obtain ⟨so, hso, h⟩ := h
  split at h
  · cases h
  · simp only [Option.map_eq_some_iff, Prod.exists] at h
    obtain ⟨w1, res, h1, rfl⟩ := h
    exact setDataIndex_st hi h1 t

theorem setDataToRecord_st {env : Env} {w w' : World K V Ty} {o r : Nat} {k : K} {v : V} {res : Res K} (hi : AI w)
    (h : setDataToRecord env w o r k v = some (w', res)) (t : List Nat) : St t w w' := by
  simp only [setDataToRecord, Option.bind_eq_bind, Option.bind_eq_some_iff, Prod.exists] at h
  obtain ⟨vo, hvo, w1, res1, h1, h⟩ := h
  have s1 := setDataIndex_st hi h1 t
  split at h
  · cases h; exact s1
  · split at h
    · simp only [Option.bind_eq_some_iff] at h
      obtain ⟨w2, h2, x, hx, h⟩ := h
      cases h
      have s2 := s1.trans (updateDeps_st s1.ai h2 t)
      exact s2.trans (s2.ai.putRec hx _ t)
    · cases h; exact s1

theorem refSetData_st {env : Env} {w w' : World K V Ty} {f : Nat} {k : K} {v : V} {res : Res K} (hi : AI w)
    (h : refSetData env w f k v = some (w', res)) (t : List Nat) : St t w w' := by
  simp only [refSetData, Option.bind_eq_bind, Option.bind_eq_some_iff] at h
  obtain ⟨ref, _, h⟩ := h
  split at h
  · cases h; exact .refl hi t
  · simp only [Option.bind_eq_some_iff] at h
    obtain ⟨o, _, _, _, x, _, h⟩ := h
    split at h
    · cases h; exact .refl hi t
    · exact setDataToRecord_st hi h t

theorem refSetDataLoop_st {env : Env} {f : Nat} (ps : List (K × V)) {w w' : World K V Ty} {res0 res : Res K} (hi : AI w)
    (h : refSetDataLoop env f ps w res0 = some (w', res)) (t : List Nat) : St t w w' := by
  induction ps generalizing w res0 with
  | nil => simp only [refSetDataLoop, Option.some.injEq, Prod.mk.injEq] at h; rw [← h.1]; exact .refl hi t
  | cons p l ih =>
    simp only [refSetDataLoop, Option.bind_eq_bind, Option.bind_eq_some_iff, Prod.exists] at h
    obtain ⟨w1, res1, h1, h⟩ := h
    have s1 := refSetData_st hi h1 t
    split at h
    · cases h; exact s1
    · exact s1.trans (ih s1.ai h)

theorem refSetDataMany_st {env : Env} {f : Nat} {ps : List (K × V)} {w w' : World K V Ty} {res : Res K} (hi : AI w)
    (h : refSetDataMany env w f ps = some (w', res)) (t : List Nat) : St t w w' := by
  simp only [refSetDataMany, Option.bind_eq_bind, Option.bind_eq_some_iff] at h
  obtain ⟨_, _, _, _, _, _, h⟩ := h
  exact refSetDataLoop_st ps hi h t

/-! ### Keys -/

theorem writeCell_st {w w' : World K V Ty} {k : K} {p : Nat × V} (hi : AI w) (h : writeCell k w p = some w') (t : List Nat) : St t w w' := by
  simp only [writeCell, Option.map_eq_some_iff] at h
  obtain ⟨x, hx, rfl⟩ := h
  exact hi.putRec hx _ t

theorem dropCell_st {w w' : World K V Ty} {k : K} {r : Nat} (hi : AI w) (h : dropCell k w r = some w') (t : List Nat) : St t w w' := by
  simp only [dropCell, Option.map_eq_some_iff] at h
  obtain ⟨x, hx, rfl⟩ := h
  exact hi.putRec hx _ t

theorem KeyOk.withKey {x : Obj K V Ty} (h : KeyOk x) (hb : x.isBase = true) {k : K} {d : V} {u : Bool} {c : Col V Ty}
    (hk : mget x.cols k = none) (hd : typeOf d = c.ty) : KeyOk (x.withKey k d u c) := by
  have hcols : ∀ k', mget (x.withKey k d u c).cols k' = if k = k' then some c else mget x.cols k' := fun k' => mget_mput _ _ _ _
  have htm : ∀ k', mget (x.withKey k d u c).tmpl k' = if k = k' then some d else mget x.tmpl k' := fun k' => mget_mput _ _ _ _
  have hko : (x.withKey k d u c).keysOrder = x.keysOrder ++ [k] := by unfold Obj.withKey; simp only; rw [if_pos hb]
  have hn : k ∉ x.keysOrder := by rw [h.mem, hk]; simp
  refine ⟨?_, ?_, ?_, ?_, ?_, ?_⟩
  · rw [hko]
    exact List.nodup_append.mpr ⟨h.nodup, by simp, by
      intro a ha b hb e; simp at hb; subst hb; subst e; exact hn ha⟩
  · intro k'
    rw [hko, hcols, List.mem_append, h.mem]
    by_cases e : k = k'
    · subst e; simp
    · simp [e, Ne.symm e]
  · unfold Obj.withKey; simp only
    split
    · exact sorted_uniqIns _ _ h.uniqS
    · exact h.uniqS
  · intro k' hm
    rw [hcols]
    by_cases e : k = k'
    · simp [e]
    · simp only [e, if_false]
      unfold Obj.withKey at hm; simp only at hm
      split at hm
      · rcases (mem_uniqIns _ _ _).mp hm with e' | e'
        · exact absurd e'.symm e
        · exact h.uniqM k' e'
      · exact h.uniqM k' hm
  · intro k' hn'
    rw [hcols] at hn'
    rw [htm]
    split at hn'
    · cases hn'
    · rename_i e; rw [if_neg e]; exact h.tmplN k' hn'
  · intro k' c' hc'
    rw [hcols] at hc'
    rw [htm]
    split at hc'
    · rename_i e; rw [if_pos e]; cases hc'; exact ⟨d, rfl, hd⟩
    · rename_i e; rw [if_neg e]; exact h.tmplT k' c' hc'

theorem ObjOk.withKey {nR nO : Nat} {kd : Nat → Option Bool} {x : Obj K V Ty} (h : ObjOk nR nO kd x) {k : K} {d : V} {u : Bool} {c : Col V Ty}
    (hk : mget x.cols k = none) (hd : typeOf d = c.ty) (hc : ColAny c) : ObjOk nR nO kd (x.withKey k d u c) where
  recs := h.recs
  vault hs := ⟨(h.vault hs).1, (h.vault hs).2.1, (h.vault hs).2.2.withKey (h.vault hs).1 hk hd⟩
  set := h.set
  par := h.par
  sets := h.sets
  cols := h.cols.mput hc

theorem ColAny.fold {d : V} (l : List Nat) {c : Col V Ty} (hc : ColAny c) (hd : typeOf d = c.ty) :
    ColAny (l.foldl (fun c r => (c.add d r).1) c) ∧ (l.foldl (fun c r => (c.add d r).1) c).ty = c.ty := by
  induction l generalizing c with
  | nil => exact ⟨hc, rfl⟩
  | cons r l ih =>
    have e := (Col.add_shape c d r).1
    obtain ⟨a, b⟩ := ih (hc.add hd r) (hd.trans e.symm)
    exact ⟨a, b.trans e⟩

theorem mhas_none {A B : Type} [DecidableEq A] {m : List (A × B)} {k : A} (h : ¬ mhas m k = true) : mget m k = none := by
  unfold mhas at h
  cases e : mget m k with
  | none => rfl
  | some x => rw [e] at h; simp at h

theorem addKeyLocal_st {env : Env} {w w' : World K V Ty} {o : Nat} {k : K} {d : V} {res : Res K} {t : List Nat} (hi : AI w)
    (ht : NotVault w o ∨ o ∈ t) (h : addKeyLocal env w o k d = some (w', res)) : St t w w' := by
  simp only [addKeyLocal, Option.bind_eq_bind, Option.bind_eq_some_iff] at h
  obtain ⟨vo, hvo, h⟩ := h
  split at h
  · cases h; exact .refl hi t
  · rename_i hk
    have hk := mhas_none hk
    simp only [Option.bind_eq_some_iff] at h
    obtain ⟨w1, h1, h⟩ := h
    cases h
    have s1 : St t w w1 := loop_st' (fun w w' a hi h => writeCell_st hi h t) _ hi h1
    have hobj : w1.getObj o = some vo := by
      unfold World.getObj at hvo ⊢; rw [loop_objs (fun _ _ _ h => writeCell_objs h) _ h1]; exact hvo
    have ok := s1.ai.obj o vo hobj
    obtain ⟨c1, c2⟩ := ColAny.fold (d := d) (env.perm vo.recs) (c := (⟨typeOf d, true, d, [], [], false, false⟩ : Col V Ty))
      ⟨rfl, by simp, by simp, .nil⟩ rfl
    refine s1.trans (s1.ai.putObj hobj rfl (ok.withKey hk c2.symm c1) ?_)
    intro hs hn
    rcases ht with h | h
    · rw [h.obj hvo] at hs; cases hs
    · exact absurd h hn

theorem fnCol_any (l : List (Nat × V)) {c c' : Col V Ty} (hc : ColAny c) (hl : ∀ p ∈ l, typeOf p.2 = c.ty) (h : fnCol l c = some c') : ColAny c' ∧ c'.ty = c.ty := by
  induction l generalizing c with
  | nil => simp only [fnCol, Option.some.injEq] at h; subst h; exact ⟨hc, rfl⟩
  | cons p l ih =>
    obtain ⟨r, v⟩ := p
    simp only [fnCol] at h
    have e := (Col.add_shape c v r).1
    cases hb : c.add v r with
    | mk c1 b =>
      rw [hb] at h
      have e1 : c1 = (c.add v r).1 := by rw [hb]
      cases b with
      | false => cases h
      | true =>
        simp only at h
        obtain ⟨a1, a2⟩ := ih (c := c1) (e1 ▸ hc.add (hl (r, v) (List.mem_cons_self ..)) r)
          (fun p hp => by rw [e1, e]; exact hl p (List.mem_cons_of_mem _ hp)) h
        exact ⟨a1, by rw [a2, e1, e]⟩

theorem castTo_ty (t : Ty) (v : V) : typeOf (castTo t v) = t := by
  unfold castTo; split
  · assumption
  · exact Typed.zero_ty t

theorem addUniqueLocal_st {env : Env} {w w' : World K V Ty} {o : Nat} {k : K} {ty : Ty} {noFn : Bool} {f : Nat → Nat → V} {res : Res K} {t : List Nat} (hi : AI w)
    (ht : NotVault w o ∨ o ∈ t) (h : addUniqueLocal env w o k ty noFn f = some (w', res)) : St t w w' := by
  simp only [addUniqueLocal, Option.bind_eq_bind, Option.bind_eq_some_iff] at h
  obtain ⟨vo, hvo, h⟩ := h
  split at h
  · cases h; exact .refl hi t
  · rename_i hk
    have hk := mhas_none hk
    split at h
    · cases h; exact .refl hi t
    · split at h
      · cases h; exact .refl hi t
      · rename_i c hc
        have s1 : ∃ w1, St t w w1 ∧ w1.objs = w.objs ∧ (w1.putObj o (vo.withKey k (zero ty) true c), (Res.good (some k) : Res K)) = (w', res) := by
          split at h
          · simp only [Option.bind_eq_some_iff, Option.some.injEq] at h
            obtain ⟨w1, h1, h⟩ := h
            exact ⟨w1, loop_st' (fun w w' a hi h => writeCell_st hi h t) _ hi h1, loop_objs (fun _ _ _ h => writeCell_objs h) _ h1, h⟩
          · simp only [Option.bind_some, Option.some.injEq] at h
            exact ⟨w, .refl hi t, rfl, h⟩
        obtain ⟨w1, s1, so1, h⟩ := s1
        cases h
        have hobj : w1.getObj o = some vo := by unfold World.getObj at hvo ⊢; rw [so1]; exact hvo
        have ok := s1.ai.obj o vo hobj
        obtain ⟨c1, c2⟩ := fnCol_any _ (c := (⟨ty, false, zero ty, [], [], false, false⟩ : Col V Ty)) ⟨Typed.zero_ty ty, by simp, by simp, .nil⟩
          (fnValues_ty ty f 0 _) hc
        refine s1.trans (s1.ai.putObj hobj rfl (ok.withKey hk ((Typed.zero_ty ty).trans c2.symm) c1) ?_)
        intro hs hn
        rcases ht with h | h
        · rw [h.obj hvo] at hs; cases hs
        · exact absurd h hn

theorem pushKey_st {w w' : World K V Ty} {s : Nat} {k : K} (hi : AI w) (hs : NotVault w s) (h : pushKey k w s = some w') (t : List Nat) : St t w w' := by
  simp only [pushKey, Option.map_eq_some_iff] at h
  obtain ⟨so, hso, rfl⟩ := h
  have ok := hi.obj s so hso
  have := hs.obj hso
  exact hi.putObj hso rfl ⟨ok.recs, (fun h => by simp only at h; rw [this] at h; cases h), ok.set, ok.par, ok.sets, ok.cols⟩ (fun h => by rw [this] at h; cases h)

theorem sets_notVault {w : World K V Ty} (hi : AI w) {o : Nat} {vo : Obj K V Ty} (ho : w.getObj o = some vo) (env : Env) :
    ∀ s ∈ env.perm vo.sets, NotVault w s := fun s hs => (hi.obj o vo ho).sets s ((env.isPerm _).mem_iff.mp hs)

theorem addKey_st {env : Env} {w w' : World K V Ty} {o : Nat} {k : K} {d : V} {res : Res K} {t : List Nat} (hi : AI w) (ht : o ∈ t)
    (h : addKey env w o k d = some (w', res)) : St t w w' := by
  simp only [addKey, Option.bind_eq_bind, Option.bind_eq_some_iff, Prod.exists] at h
  obtain ⟨vo, hvo, w1, res1, h1, h⟩ := h
  have s1 := addKeyLocal_st hi (.inr ht) h1
  split at h
  · cases h; exact s1
  · simp only [Option.bind_eq_some_iff] at h
    obtain ⟨w2, h2, h⟩ := h
    cases h
    refine s1.trans (loop_st (P := NotVault) (fun _ _ _ s h => h.st s) (fun w w' s hi hs h => ?_) _ s1.ai
      (fun s hs => (sets_notVault hi hvo env s hs).st s1) h2)
    simp only [Option.bind_eq_some_iff, Prod.exists] at h
    obtain ⟨w3, _, h3, h4⟩ := h
    have s3 := addKeyLocal_st (t := t) hi (.inl hs) h3
    exact s3.trans (pushKey_st s3.ai (hs.st s3) h4 t)

theorem addUniqueKey_st {env : Env} {w w' : World K V Ty} {o : Nat} {k : K} {ty : Ty} {noFn : Bool} {f : Nat → Nat → Nat → V} {res : Res K} {t : List Nat} (hi : AI w) (ht : o ∈ t)
    (h : addUniqueKey env w o k ty noFn f = some (w', res)) : St t w w' := by
  simp only [addUniqueKey, Option.bind_eq_bind, Option.bind_eq_some_iff, Prod.exists] at h
  obtain ⟨vo, hvo, w1, res1, h1, h⟩ := h
  have s1 := addUniqueLocal_st hi (.inr ht) h1
  split at h
  · cases h; exact s1
  · simp only [Option.bind_eq_some_iff] at h
    obtain ⟨w2, h2, h⟩ := h
    cases h
    refine s1.trans (loop_st (P := NotVault) (fun _ _ _ s h => h.st s) (fun w w' s hi hs h => ?_) _ s1.ai
      (fun s hs => (sets_notVault hi hvo env s hs).st s1) h2)
    simp only [Option.bind_eq_some_iff, Prod.exists] at h
    obtain ⟨w3, _, h3, h4⟩ := h
    have s3 := addUniqueLocal_st (t := t) hi (.inl hs) h3
    exact s3.trans (pushKey_st s3.ai (hs.st s3) h4 t)

theorem updateKey_st {w w' : World K V Ty} {o : Nat} {k : K} {d : V} {res : Res K} {t : List Nat} (hi : AI w) (ht : o ∈ t)
    (h : updateKey w o k d = some (w', res)) : St t w w' := by
  simp only [updateKey, Option.bind_eq_bind, Option.bind_eq_some_iff] at h
  obtain ⟨vo, hvo, h⟩ := h
  split at h
  · cases h; exact .refl hi t
  · rename_i c hc
    obtain ⟨hk, hty⟩ := checkKey_ok hc
    split at h
    · cases h; exact .refl hi t
    · cases h
      have ok := hi.obj o vo hvo
      refine hi.putObj hvo rfl ⟨ok.recs, fun hs => ?_, ok.set, ok.par, ok.sets, ok.cols⟩ (fun _ hn => absurd ht hn)
      obtain ⟨a, b, c'⟩ := ok.vault hs
      refine ⟨a, b, c'.nodup, c'.mem, c'.uniqS, c'.uniqM, ?_, ?_⟩
      · intro k' hn
        simp only [mget_mput]
        split
        · rename_i e; subst e; simp only at hn; rw [hk] at hn; cases hn
        · exact c'.tmplN k' hn
      · intro k' c'' hc''
        simp only [mget_mput]
        split
        · rename_i e; subst e; simp only at hc''; rw [hk] at hc''; cases hc''; exact ⟨d, rfl, hty.symm⟩
        · exact c'.tmplT k' c'' hc''

theorem ColsAny.mdel {cols : List (K × Col V Ty)} (h : ColsAny cols) (k : K) : ColsAny (mdel cols k) := by
  intro k' c hc
  rw [mget_mdel] at hc
  split at hc
  · cases hc
  · exact h k' c hc

theorem ObjOk.withoutKey {nR nO : Nat} {kd : Nat → Option Bool} {x : Obj K V Ty} (h : ObjOk nR nO kd x) (k : K) : ObjOk nR nO kd (x.withoutKey k) := by
  refine ⟨h.recs, fun hs => ?_, h.set, h.par, h.sets, h.cols.mdel k⟩
  obtain ⟨a, b, c⟩ := h.vault hs
  have hcols : ∀ k', mget (x.withoutKey k).cols k' = if k = k' then none else mget x.cols k' := fun k' => mget_mdel _ _ _
  refine ⟨a, b, c.nodup.erase k, ?_, c.uniqS.filter _, ?_, ?_, ?_⟩
  · intro k'
    rw [hcols]
    show k' ∈ x.keysOrder.erase k ↔ _
    rw [c.nodup.mem_erase_iff, c.mem]
    by_cases e : k = k'
    · subst e; simp
    · simp [e, Ne.symm e]
  · intro k' hm
    have hm : k' ∈ x.uniq.filter (· ≠ k) := hm
    obtain ⟨h1, h2⟩ := List.mem_filter.mp hm
    rw [hcols]
    have : ¬ k = k' := fun e => by subst e; simp at h2
    rw [if_neg this]; exact c.uniqM k' h1
  · intro k' hn
    show mget (mdel x.tmpl k) k' = none
    rw [mget_mdel]
    rw [hcols] at hn
    split
    · rfl
    · rename_i e; rw [if_neg e] at hn; exact c.tmplN k' hn
  · intro k' c' hc'
    show ∃ v, mget (mdel x.tmpl k) k' = some v ∧ _
    rw [mget_mdel]
    rw [hcols] at hc'
    split at hc'
    · cases hc'
    · rename_i e; rw [if_neg e]; exact c.tmplT k' c' hc'

theorem removeKeyLocal_st {w w' : World K V Ty} {s : Nat} {k : K} {t : List Nat} (hi : AI w) (hs : NotVault w s) (h : removeKeyLocal k w s = some w') : St t w w' := by
  simp only [removeKeyLocal, Option.map_eq_some_iff] at h
  obtain ⟨so, hso, rfl⟩ := h
  split
  · exact hi.putObj hso rfl ((hi.obj s so hso).withoutKey k) (fun h => by rw [hs.obj hso] at h; cases h)
  · exact .refl hi t

theorem removeKey_st {env : Env} {w w' : World K V Ty} {o : Nat} {k : K} {b : Bool} {t : List Nat} (hi : AI w) (ht : o ∈ t)
    (h : removeKey env w o k = some (w', b)) : St t w w' := by
  simp only [removeKey, Option.bind_eq_bind, Option.bind_eq_some_iff] at h
  obtain ⟨vo, hvo, h⟩ := h
  split at h
  · cases h; exact .refl hi t
  · simp only [Option.bind_eq_some_iff] at h
    obtain ⟨w2, h2, w3, h3, h⟩ := h
    cases h
    have s1 : St t w (w.putObj o (vo.withoutKey k)) := hi.putObj hvo rfl ((hi.obj o vo hvo).withoutKey k) (fun _ hn => absurd ht hn)
    have s2 := s1.trans (loop_st' (fun w w' a hi h => dropCell_st hi h t) _ s1.ai h2)
    exact s2.trans (loop_st (P := NotVault) (fun _ _ _ s h => h.st s) (fun w w' s hi hs h => removeKeyLocal_st hi hs h) _ s2.ai
      (fun s hs => (sets_notVault hi hvo env s hs).st s2) h3)

end MVault.W
