import Verif.WorldAny2
/-
Every operation keeps the facts of WorldAny.lean, continued: records, look-ups, sets, life time; all histories.
-/
set_option linter.unusedSectionVars false
set_option linter.unusedSimpArgs false
namespace MVault.W
variable {K V Ty : Type} [LinearOrder K] [LinearOrder V] [Typed V Ty] [DecidableEq Ty]

/-! ### Creating records -/

theorem addUniques_any {data : List (K × V)} {r : Nat} (l : List K) {cols cols' : List (K × Col V Ty)} {done : List K} {clash : Option (K × List K)}
    (hc : ColsAny cols) (h : addUniques data r l cols done = some (cols', clash)) :
    ColsAny cols' ∧ ∀ k, (mget cols' k).map Col.sig = (mget cols k).map Col.sig := by
  induction l generalizing cols done with
  | nil => simp only [addUniques, Option.some.injEq, Prod.mk.injEq] at h; rw [← h.1]; exact ⟨hc, fun _ => rfl⟩
  | cons k l ih =>
    simp only [addUniques] at h
    split at h
    · cases h
    · rename_i c hk
      cases hb : c.add (c.addVal data k) r with
      | mk c1 b =>
        rw [hb] at h
        have e1 : c1 = (c.add (c.addVal data k) r).1 := by rw [hb]
        cases b with
        | false => simp only [Option.some.injEq, Prod.mk.injEq] at h; rw [← h.1]; exact ⟨hc, fun _ => rfl⟩
        | true =>
          simp only at h
          obtain ⟨a1, a2⟩ := ih (hc.mput (e1 ▸ (hc k c hk).add (readOr_ty (hc k c hk).dflt data k) r)) h
          refine ⟨a1, fun k' => (a2 k').trans ?_⟩
          rw [mget_mput]
          split
          · rename_i e; subst e; simp [hk, e1, sig_add]
          · rfl

theorem eraseKeys_any {data : List (K × V)} {r : Nat} (l : List K) {cols : List (K × Col V Ty)} (hc : ColsAny cols) :
    ColsAny (eraseKeys data r l cols) ∧ ∀ k, (mget (eraseKeys data r l cols) k).map Col.sig = (mget cols k).map Col.sig := by
  induction l generalizing cols with
  | nil => exact ⟨hc, fun _ => rfl⟩
  | cons k l ih =>
    simp only [eraseKeys]
    cases hk : mget cols k with
    | none => exact ih hc
    | some c =>
      obtain ⟨a1, a2⟩ := ih (hc.mput (k := k) ((hc k c hk).erase (c.oldVal data k) r))
      refine ⟨a1, fun k' => (a2 k').trans ?_⟩
      rw [mget_mput]
      split
      · rename_i e; subst e; rw [hk]; rfl
      · rfl

theorem AI.newRec {w : World K V Ty} (hi : AI w) (x : Rec K V) (t : List Nat) :
    St t w { w with recs := mput w.recs w.nextR x, nextR := w.nextR + 1 } := by
  refine ⟨⟨?_, hi.objB, ?_⟩, Nat.le_succ _, le_refl _, fun _ x h => ⟨x, h, rfl, fun _ _ => .refl _⟩, fun _ _ h => h, hi.noNew⟩
  · intro r y hy
    have hy : mget (mput w.recs w.nextR x) r = some y := hy
    rw [mget_mput] at hy
    split at hy
    · rename_i e; rw [← e]; exact Nat.lt_succ_self _
    · exact Nat.lt_succ_of_lt (hi.recB r y hy)
  · intro o y hy
    exact (hi.obj o y hy).congr (Nat.le_succ _) (le_refl _) (fun _ _ => rfl)

theorem insertRecord_st {w w' : World K V Ty} {o : Nat} {data : List (K × V)} {out : Except K Nat} (hi : AI w)
    (h : insertRecord w o data = some (w', out)) (t : List Nat) : St t w w' := by
  simp only [insertRecord, Option.bind_eq_bind, Option.bind_eq_some_iff, Prod.exists] at h
  obtain ⟨vo, hvo, cols, clash, h1, h⟩ := h
  have ok := hi.obj o vo hvo
  obtain ⟨a1, a2⟩ := addUniques_any vo.uniq ok.cols h1
  split at h
  · rename_i k done
    cases h
    obtain ⟨b1, b2⟩ := eraseKeys_any (data := data) (r := w.nextR) done a1
    exact hi.putSame (y := { vo with cols := eraseKeys data w.nextR done cols }) hvo rfl (fun _ => ⟨rfl, rfl⟩) (fun _ h => h) (fun _ h => h)
      ⟨rfl, rfl, rfl, fun k => (b2 k).trans (a2 k)⟩ ok.recs b1 t
  · cases h
    have s1 := hi.newRec ⟨data, true, 0, []⟩ t
    refine s1.trans (s1.ai.putSame (y := { vo with cols := addCols cols data w.nextR, recs := vo.recs ++ [w.nextR] }) hvo rfl (fun _ => ⟨rfl, rfl⟩)
      (fun _ h => h) (fun _ h => h) (ksame_cols (fun k => (sig_addCols _ _ _ k).trans (a2 k)) _) ?_ (a1.addCols _ _) t)
    intro r hr
    rcases List.mem_append.mp hr with hr | hr
    · exact Nat.lt_succ_of_lt (ok.recs r hr)
    · simp only [List.mem_singleton] at hr; subst hr; exact Nat.lt_succ_self _

theorem createRecord_st {w w' : World K V Ty} {o f : Nat} {ps : List (K × V)} {res : Res K} (hi : AI w)
    (h : createRecord w o f ps = some (w', res)) (t : List Nat) : St t w w' := by
  simp only [createRecord, Option.bind_eq_bind, Option.bind_eq_some_iff] at h
  obtain ⟨vo, hvo, h⟩ := h
  split at h
  · cases h; exact .refl hi t
  · simp only [Option.bind_eq_some_iff, Prod.exists] at h
    obtain ⟨w1, out, h1, h⟩ := h
    have s1 := insertRecord_st hi h1 t
    split at h
    · cases h; exact s1
    · simp only [Option.map_eq_some_iff, Prod.mk.injEq] at h
      obtain ⟨w2, h2, rfl, rfl⟩ := h
      exact s1.trans ((setRecord_rf h2).1.st s1.ai t)

theorem createRow_st {w w' : World K V Ty} {o : Nat} {ps : List (K × V)} {res : Res K} (hi : AI w)
    (h : createRow w o ps = some (w', res)) (t : List Nat) : St t w w' := by
  simp only [createRow, Option.bind_eq_bind, Option.bind_eq_some_iff] at h
  obtain ⟨vo, hvo, h⟩ := h
  split at h
  · cases h; exact .refl hi t
  · simp only [Option.bind_eq_some_iff, Prod.exists] at h
    obtain ⟨w1, out, h1, h⟩ := h
    have s1 := insertRecord_st hi h1 t
    split at h
    · cases h; exact s1
    · cases h; exact s1

/-! ### Look-ups -/

theorem getRecord_rf {env : Env} {w w' : World K V Ty} {o f : Nat} {k : K} {v : V} {res : Res K} (h : getRecord env w o k v f = some (w', res)) : RF w w' := by
  simp only [getRecord, Option.bind_eq_bind, Option.bind_eq_some_iff] at h
  obtain ⟨vo, hvo, h⟩ := h
  split at h
  · cases h; exact .refl _
  · split at h <;> simp only [Option.map_eq_some_iff, Prod.mk.injEq] at h <;> obtain ⟨w2, h2, rfl, rfl⟩ := h <;> exact (setRecord_rf h2).1

theorem getRecords_rf {env : Env} {w w' : World K V Ty} {o n : Nat} {k : K} {v : V} {res : Res K} (h : getRecords env w o k v n = some (w', res)) : RF w w' := by
  simp only [getRecords, Option.bind_eq_bind, Option.bind_eq_some_iff] at h
  obtain ⟨vo, hvo, h⟩ := h
  split at h
  · cases h; exact .refl _
  · split at h
    · cases h; exact .refl _
    · simp only [Option.map_eq_some_iff, Prod.mk.injEq] at h; obtain ⟨w2, h2, rfl, rfl⟩ := h; exact (loop_newRefTo_rf _ h2).1

theorem getSorted_rf {w w' : World K V Ty} {o : Nat} {k : K} {rev : Bool} {n : Option Nat} (h : getSorted w o k rev n = some w') : RF w w' := by
  simp only [getSorted, Option.bind_eq_bind, Option.bind_eq_some_iff] at h
  obtain ⟨vo, hvo, h⟩ := h
  split at h
  · cases h; exact .refl _
  · exact (loop_newRefTo_rf _ h).1

theorem setGetRecord_rf {env : Env} {w w' : World K V Ty} {s f : Nat} {k : K} {v : V} {res : Res K} (h : setGetRecord env w s k v f = some (w', res)) : RF w w' := by
  simp only [setGetRecord, Option.bind_eq_bind, Option.bind_eq_some_iff] at h
  obtain ⟨so, hso, h⟩ := h
  split at h
  · cases h; exact .refl _
  · simp only [Option.bind_eq_some_iff, Prod.exists] at h
    obtain ⟨w1, r1, h1, ref, _, h⟩ := h
    cases h
    exact (getRecord_rf h1).withRefs _

theorem setGetRecords_rf {env : Env} {w w' : World K V Ty} {s n : Nat} {k : K} {v : V} {res : Res K} (h : setGetRecords env w s k v n = some (w', res)) : RF w w' := by
  simp only [setGetRecords, Option.bind_eq_bind, Option.bind_eq_some_iff] at h
  obtain ⟨so, hso, h⟩ := h
  split at h
  · cases h; exact .refl _
  · simp only [Option.bind_eq_some_iff] at h
    obtain ⟨_, _, h⟩ := h
    split at h
    · cases h; exact .refl _
    · split at h
      · cases h; exact .refl _
      · simp only [Option.map_eq_some_iff, Prod.mk.injEq] at h; obtain ⟨w2, h2, rfl, rfl⟩ := h; exact (loop_newRefTo_rf _ h2).1

theorem refCopy_rf {w w' : World K V Ty} {f g : Nat} (h : refCopy w f g = some w') : RF w w' := by
  simp only [refCopy, Option.bind_eq_bind, Option.bind_eq_some_iff] at h
  obtain ⟨old, _, src, _, h⟩ := h
  split at h
  · cases h; exact .refl _
  · simp only [Option.bind_eq_some_iff] at h
    obtain ⟨w1, h1, w2, h2, h⟩ := h
    cases h
    exact ((optStep_rf (fun _ _ _ h => removeRef_rf h) h1).1.trans (optStep_rf (fun _ _ _ h => addRef_rf h) h2).1).withRefs _

theorem refMove_rf {w w' : World K V Ty} {f g : Nat} (h : refMove w f g = some w') : RF w w' := by
  simp only [refMove, Option.bind_eq_bind, Option.bind_eq_some_iff] at h
  obtain ⟨old, _, src, _, h⟩ := h
  split at h
  · cases h; exact .refl _
  · simp only [Option.bind_eq_some_iff] at h
    obtain ⟨w1, h1, h⟩ := h
    split at h <;> cases h <;> exact (optStep_rf (fun _ _ _ h => removeRef_rf h) h1).1.withRefs _

theorem refReset_rf {w w' : World K V Ty} {f : Nat} (h : refReset w f = some w') : RF w w' := by
  simp only [refReset, Option.bind_eq_bind, Option.bind_eq_some_iff] at h
  obtain ⟨old, _, w1, h1, h⟩ := h
  cases h
  exact (optStep_rf (fun _ _ _ h => removeRef_rf h) h1).1.withRefs _

theorem newRef_rf (w : World K V Ty) : RF w (newRef w) := (RF.refl w).withRefs _

/-! ### Filling sets -/

theorem AI.putSet {w : World K V Ty} (hi : AI w) {s : Nat} {so y : Obj K V Ty} (hs : w.getObj s = some so) (hset : so.isSet = true) (he : y.isSet = so.isSet)
    (hp : ∀ p, y.parent = some p → so.parent = some p ∨ (p < w.nextO ∧ kind w p ≠ some true)) (hss : y.sets = so.sets) (hr : ∀ r ∈ y.recs, r < w.nextR)
    (hc : ColsAny y.cols) (t : List Nat) : St t w (w.putObj s y) := by
  have ok := hi.obj s so hs
  have hy := he.trans hset
  refine hi.putObj hs he ⟨hr, fun h => (by rw [hy] at h; cases h), fun _ => hss.trans (ok.set hset), ?_, by rw [hss]; exact ok.sets, hc⟩
    (fun h => by rw [hset] at h; cases h)
  intro p hp'
  rcases hp p hp' with h | h
  · exact ok.par p h
  · exact h

theorem attach_st {w w' : World K V Ty} {s r : Nat} (hi : AI w) (h : attach s w r = some w') (t : List Nat) : St t w w' := by
  simp only [attach, Option.bind_eq_bind, Option.bind_eq_some_iff] at h
  obtain ⟨so, hso, x, hx, h⟩ := h
  have ok := hi.obj s so hso
  have s1 := hi.putSame (y := { so with cols := addCols so.cols x.data r }) hso rfl (fun _ => ⟨rfl, rfl⟩) (fun _ h => h) (fun _ h => h)
    ⟨rfl, rfl, rfl, sig_addCols _ _ _⟩ ok.recs (ok.cols.addCols _ _) t
  exact s1.trans (addDep_st s1.ai h t)

theorem attach_dom {w w' : World K V Ty} {s r : Nat} (h : attach s w r = some w') :
    (∃ x, w.getRec r = some x) ∧ ∀ r', (∃ x, w'.getRec r' = some x) → ∃ x, w.getRec r' = some x := by
  simp only [attach, Option.bind_eq_bind, Option.bind_eq_some_iff] at h
  obtain ⟨so, hso, x, hx, h⟩ := h
  refine ⟨⟨x, hx⟩, ?_⟩
  simp only [addDep, Option.map_eq_some_iff] at h
  obtain ⟨x', hx', rfl⟩ := h
  rintro r' ⟨y, hy⟩
  simp only [getRec_putRec, getRec_putObj] at hy
  split at hy
  · rename_i e; subst e; exact ⟨x, hx⟩
  · exact ⟨y, hy⟩

theorem loop_attach_dom {s : Nat} (l : List Nat) {w w' : World K V Ty} (h : loop (attach s) l w = some w') : ∀ r ∈ l, ∃ x, w.getRec r = some x := by
  induction l generalizing w with
  | nil => simp
  | cons a l ih =>
    simp only [loop, Option.bind_eq_some_iff] at h
    obtain ⟨w1, h1, h2⟩ := h
    intro r hr
    rcases List.mem_cons.mp hr with rfl | hr
    · exact (attach_dom h1).1
    · exact (attach_dom h1).2 r (ih h2 r hr)

theorem fillTarget_st {env : Env} {w w' : World K V Ty} {s : Nat} {l : List Nat} (hi : AI w) (h : fillTarget env w s l = some w') (t : List Nat) : St t w w' := by
  simp only [fillTarget, Option.bind_eq_bind, Option.bind_eq_some_iff] at h
  obtain ⟨so, hso, h⟩ := h
  have ok := hi.obj s so hso
  have hd := loop_attach_dom _ h
  have s1 := hi.putSame (y := { so with recs := l.foldl setIns so.recs }) hso rfl (fun _ => ⟨rfl, rfl⟩) (fun _ h => h) (fun _ h => h)
    ⟨rfl, rfl, rfl, fun _ => rfl⟩ (fun r hr => by
      obtain ⟨x, hx⟩ := hd r ((env.isPerm _).mem_iff.mpr hr)
      exact hi.recB r x hx) ok.cols t
  exact s1.trans (loop_st' (fun w w' a hi h => attach_st hi h t) _ s1.ai h)

theorem copyKeys_st {env : Env} {src : Obj K V Ty} {w w' : World K V Ty} {s : Nat} {t : List Nat} (hi : AI w) (hs : NotVault w s ∨ s ∈ t) (h : copyKeys env src w s = some w') :
    St t w w' := by
  refine loop_st (P := fun w _ => NotVault w s ∨ s ∈ t) (fun _ _ _ st h => h.imp (NotVault.st st) id) (fun w w' kc hi hs h => ?_) _ hi (fun _ _ => hs) h
  simp only [Option.map_eq_some_iff, Prod.exists] at h
  obtain ⟨w1, res, h1, rfl⟩ := h
  exact addKeyLocal_st hi hs h1

/-- Making `s` a set of vault `p` in the list of `p`. -/
theorem AI.link {w : World K V Ty} (hi : AI w) {p : Nat} {po : Obj K V Ty} (hp : w.getObj p = some po) (hv : po.isSet = false) (l : List Nat)
    (hl : ∀ s ∈ l, NotVault w s) (t : List Nat) : St t w (w.putObj p { po with sets := l }) := by
  have ok := hi.obj p po hp
  have v := ok.vault hv
  exact hi.putObj hp rfl ⟨ok.recs, fun _ => ⟨v.1, v.2.1, ⟨v.2.2.nodup, v.2.2.mem, v.2.2.uniqS, v.2.2.uniqM, v.2.2.tmplN, v.2.2.tmplT⟩⟩,
    (fun h => by simp only at h; rw [hv] at h; cases h), ok.par, hl, ok.cols⟩ (fun _ _ => ⟨rfl, rfl, rfl, fun _ => rfl⟩)

theorem St.setObj {t : List Nat} {w w' : World K V Ty} (h : St t w w') {s : Nat} (hn : NotVault w s) {so : Obj K V Ty} (hs : w'.getObj s = some so) : so.isSet = true :=
  (hn.st h).obj hs

/-- `p` is, or was, a vault. -/
def NotSet (w : World K V Ty) (p : Nat) : Prop := p < w.nextO ∧ kind w p ≠ some true

theorem NotSet.st {t : List Nat} {w w' : World K V Ty} {s : Nat} (h : St t w w') (hn : NotSet w s) : NotSet w' s :=
  ⟨lt_of_lt_of_le hn.1 h.nO, by rw [h.kd hn.1]; exact hn.2⟩

theorem NotSet.obj {w : World K V Ty} {s : Nat} {x : Obj K V Ty} (hn : NotSet w s) (h : w.getObj s = some x) : x.isSet = false := by
  have := hn.2
  rw [kind_eq h] at this
  cases hx : x.isSet with
  | false => rfl
  | true => rw [hx] at this; exact absurd rfl this

theorem prepTarget_st {env : Env} {w w' : World K V Ty} {o p s : Nat} (hi : AI w) (hp : NotSet w p) (hs : NotVault w s)
    (h : prepTarget env w o p s = some w') (t : List Nat) : St t w w' := by
  simp only [prepTarget, Option.bind_eq_bind, Option.bind_eq_some_iff] at h
  obtain ⟨po, hpo, so, hso, h⟩ := h
  have s1 := hi.link hpo (hp.obj hpo) (setIns po.sets s) (fun a ha => by
    rcases (mem_setIns _ _ _).mp ha with h | rfl
    · exact (hi.obj p po hpo).sets a h
    · exact hs) t
  split at h
  · exact s1.trans (setClear_st s1.ai h t)
  · simp only [Option.bind_eq_some_iff] at h
    obtain ⟨w2, h2, so2, hso2, oo, hoo, w4, h4, so4, hso4, h⟩ := h
    cases h
    have s2 := s1.trans (setReset_st s1.ai h2 t)
    have s3 := s2.trans (s2.ai.putSet (y := { so2 with parent := some p }) hso2 (s2.setObj hs hso2) rfl
      (fun p' e => by cases e; exact .inr (hp.st s2)) rfl (s2.ai.obj s so2 hso2).recs (s2.ai.obj s so2 hso2).cols t)
    have s4 := s3.trans (copyKeys_st s3.ai (.inl (hs.st s3)) h4)
    exact s4.trans (s4.ai.putSet (y := { so4 with keysOrder := oo.keysOrder, uniq := oo.uniq }) hso4 (s4.setObj hs hso4) rfl
      (fun p' e => .inl e) rfl (s4.ai.obj s so4 hso4).recs (s4.ai.obj s so4 hso4).cols t)

theorem vaultOf_notSet {w : World K V Ty} (hi : AI w) {o p : Nat} {oo : Obj K V Ty} (ho : w.getObj o = some oo)
    (hp : (if oo.isSet = true then oo.parent else some o) = some p) : NotSet w p := by
  split at hp
  · exact (hi.obj o oo ho).par p hp
  · rename_i hs; cases hp
    refine ⟨hi.objB _ _ ho, ?_⟩
    rw [kind_eq ho]; simpa using hs

theorem request_st {env : Env} {w w' : World K V Ty} {o : Nat} {ty : ReqType} {k : K} {a b : V} {ia ib : Bool} {n : Option Nat} {pred : Nat → Bool} {s : Nat} {res : Res K}
    (hi : AI w) (hs : NotVault w s) (h : request env w o ty k a b ia ib n pred s = some (w', res)) (t : List Nat) : St t w w' := by
  simp only [request, Option.bind_eq_bind, Option.bind_eq_some_iff] at h
  obtain ⟨oo, hoo, h⟩ := h
  split at h
  · cases h; exact .refl hi t
  · rename_i p hp
    split at h
    · cases h; exact .refl hi t
    · simp only [Option.bind_eq_some_iff] at h
      obtain ⟨w1, h1, oo', _, out, _, h⟩ := h
      have s1 := prepTarget_st hi (vaultOf_notSet hi hoo hp) hs h1 t
      split at h
      · cases h; exact s1
      · simp only [Option.map_eq_some_iff, Prod.mk.injEq] at h
        obtain ⟨w2, h2, rfl, rfl⟩ := h
        exact s1.trans (fillTarget_st s1.ai h2 t)

theorem requestTree_st {env : Env} {w w' : World K V Ty} {o : Nat} {q : Req K V} {s : Nat} {res : Res K}
    (hi : AI w) (hs : NotVault w s) (h : requestTree env w o q s = some (w', res)) (t : List Nat) : St t w w' := by
  simp only [requestTree, Option.bind_eq_bind, Option.bind_eq_some_iff] at h
  obtain ⟨oo, hoo, h⟩ := h
  split at h
  · cases h; exact .refl hi t
  · rename_i p hp
    split at h
    · cases h; exact .refl hi t
    · simp only [Option.bind_eq_some_iff] at h
      obtain ⟨w1, h1, oo', _, out, _, h⟩ := h
      have s1 := prepTarget_st hi (vaultOf_notSet hi hoo hp) hs h1 t
      split at h <;> simp only [Option.map_eq_some_iff, Prod.mk.injEq] at h <;> obtain ⟨w2, h2, rfl, rfl⟩ := h
      · exact s1.trans (setClear_st s1.ai h2 t)
      · exact s1.trans (fillTarget_st s1.ai h2 t)

/-! ### Set functions -/

theorem setAddRecord_st {w w' : World K V Ty} {s f : Nat} {res : Res K} (hi : AI w) (h : setAddRecord w s f = some (w', res)) (t : List Nat) : St t w w' := by
  simp only [setAddRecord, Option.bind_eq_bind, Option.bind_eq_some_iff] at h
  obtain ⟨so, hso, h⟩ := h
  split at h
  · cases h; exact .refl hi t
  · simp only [Option.bind_eq_some_iff] at h
    obtain ⟨ref, _, val, _, h⟩ := h
    split at h
    · cases h; exact .refl hi t
    · split at h
      · cases h; exact .refl hi t
      · split at h
        · cases h
        · split at h
          · cases h; exact .refl hi t
          · rename_i r _ _
            simp only [Option.map_eq_some_iff, Prod.mk.injEq] at h
            obtain ⟨w2, h2, rfl, rfl⟩ := h
            have ok := hi.obj s so hso
            obtain ⟨x, hx⟩ := (attach_dom h2).1
            have s1 := hi.putSame (y := { so with recs := so.recs ++ [r] }) hso rfl (fun _ => ⟨rfl, rfl⟩) (fun _ h => h) (fun _ h => h)
              ⟨rfl, rfl, rfl, fun _ => rfl⟩ (fun r' hr => by
                rcases List.mem_append.mp hr with hr | hr
                · exact ok.recs r' hr
                · simp only [List.mem_singleton] at hr; subst hr; exact hi.recB _ x hx) ok.cols t
            exact s1.trans (attach_st s1.ai h2 t)

theorem addOnly_st {w w' : World K V Ty} {s r : Nat} (hi : AI w) (h : addOnly s w r = some w') (t : List Nat) : St t w w' := by
  simp only [addOnly, Option.bind_eq_bind, Option.bind_eq_some_iff] at h
  obtain ⟨so, hso, h⟩ := h
  split at h
  · cases h; exact .refl hi t
  · simp only [Option.bind_eq_some_iff] at h
    obtain ⟨x, hx, h⟩ := h
    cases h
    have ok := hi.obj s so hso
    refine hi.putSame (y := { so with recs := so.recs ++ [r], cols := addCols so.cols x.data r }) hso rfl (fun _ => ⟨rfl, rfl⟩) (fun _ h => h) (fun _ h => h)
      ⟨rfl, rfl, rfl, sig_addCols _ _ _⟩ (fun r' hr => ?_) (ok.cols.addCols _ _) t
    rcases List.mem_append.mp hr with hr | hr
    · exact ok.recs r' hr
    · simp only [List.mem_singleton] at hr; subst hr; exact hi.recB _ x hx

theorem setJoin_st {env : Env} {w w' : World K V Ty} {s a : Nat} {res : Res K} (hi : AI w) (h : setJoin env w s a = some (w', res)) (t : List Nat) : St t w w' := by
  simp only [setJoin, Option.bind_eq_bind, Option.bind_eq_some_iff] at h
  obtain ⟨so, hso, ao, hao, h⟩ := h
  split at h
  · cases h; exact .refl hi t
  · simp only [Option.map_eq_some_iff, Prod.mk.injEq] at h
    obtain ⟨w2, h2, rfl, rfl⟩ := h
    exact loop_st' (fun w w' a hi h => addOnly_st hi h t) _ hi h2

theorem loop_removeRecord_st {env : Env} {s : Nat} (l : List Nat) {w w' : World K V Ty} (hi : AI w)
    (h : loop (fun w r => (removeRecord env w s r).map (·.1)) l w = some w') (t : List Nat) : St t w w' := by
  refine loop_st' (fun w w' a hi h => ?_) _ hi h
  simp only [Option.map_eq_some_iff, Prod.exists] at h
  obtain ⟨w1, b, h1, rfl⟩ := h
  exact removeRecord_st hi h1 t

theorem setExclude_st {env : Env} {w w' : World K V Ty} {s a : Nat} {res : Res K} (hi : AI w) (h : setExclude env w s a = some (w', res)) (t : List Nat) : St t w w' := by
  simp only [setExclude, Option.bind_eq_bind, Option.bind_eq_some_iff] at h
  obtain ⟨so, hso, ao, hao, h⟩ := h
  split at h
  · cases h; exact .refl hi t
  · simp only [Option.map_eq_some_iff, Prod.mk.injEq] at h
    obtain ⟨w2, h2, rfl, rfl⟩ := h
    exact loop_removeRecord_st _ hi h2 t

theorem setIntersect_st {env : Env} {w w' : World K V Ty} {s a : Nat} {res : Res K} (hi : AI w) (h : setIntersect env w s a = some (w', res)) (t : List Nat) : St t w w' := by
  simp only [setIntersect, Option.bind_eq_bind, Option.bind_eq_some_iff] at h
  obtain ⟨so, hso, ao, hao, h⟩ := h
  split at h
  · cases h; exact .refl hi t
  · simp only [Option.map_eq_some_iff, Prod.mk.injEq] at h
    obtain ⟨w2, h2, rfl, rfl⟩ := h
    exact loop_removeRecord_st _ hi h2 t

theorem copySet_st {env : Env} {w w' : World K V Ty} {s a : Nat} (hi : AI w) (hs : NotVault w s) (h : copySet env w s a = some w') (t : List Nat) : St t w w' := by
  simp only [copySet, Option.bind_eq_bind, Option.bind_eq_some_iff] at h
  obtain ⟨ao, hao, p, hp, po0, hpo0, so, hso, w2, h2, so2, hso2, po, hpo, h⟩ := h
  have hpn : NotSet w p := (hi.obj a ao hao).par p hp
  have s1 := hi.putSet (y := { so with isBase := false, parent := some p }) hso (hs.obj hso) rfl (fun p' e => by cases e; exact .inr hpn) rfl
    (hi.obj s so hso).recs (hi.obj s so hso).cols t
  have s2 := s1.trans (copyKeys_st s1.ai (.inl (hs.st s1)) h2)
  have s3 := s2.trans (s2.ai.putSet (y := { so2 with keysOrder := ao.keysOrder, uniq := ao.uniq }) hso2 (s2.setObj hs hso2) rfl
    (fun p' e => .inl e) rfl (s2.ai.obj s so2 hso2).recs (s2.ai.obj s so2 hso2).cols t)
  have s4 := s3.trans (s3.ai.link hpo ((hpn.st s3).obj hpo) (setIns po.sets s) (fun a ha => by
    rcases (mem_setIns _ _ _).mp ha with h | rfl
    · exact (s3.ai.obj p po hpo).sets a h
    · exact hs.st s3) t)
  refine s4.trans (loop_st' (fun w w' r hi h => ?_) _ s4.ai h)
  simp only [Option.bind_eq_some_iff] at h
  obtain ⟨so, hso, h⟩ := h
  obtain ⟨x, hx⟩ := (attach_dom h).1
  have s1 := hi.putSame (y := { so with recs := setIns so.recs r }) hso rfl (fun _ => ⟨rfl, rfl⟩) (fun _ h => h) (fun _ h => h)
    ⟨rfl, rfl, rfl, fun _ => rfl⟩ (fun r' hr => by
      rcases (mem_setIns _ _ _).mp hr with hr | rfl
      · exact (hi.obj s so hso).recs r' hr
      · exact hi.recB _ x hx) (hi.obj s so hso).cols t
  exact s1.trans (attach_st s1.ai h t)

theorem AI.newObj {w : World K V Ty} (hi : AI w) {x : Obj K V Ty} (hx : ObjOk w.nextR w.nextO (kind w) x) (t : List Nat) (ht : x.isSet = false → w.nextO ∈ t) :
    St t w { w with objs := mput w.objs w.nextO x, nextO := w.nextO + 1 } := by
  have hg : ∀ o, World.getObj ({ w with objs := mput w.objs w.nextO x, nextO := w.nextO + 1 } : World K V Ty) o = if w.nextO = o then some x else w.getObj o :=
    fun o => mget_mput _ _ _ _
  have hk : ∀ o, o < w.nextO → kind ({ w with objs := mput w.objs w.nextO x, nextO := w.nextO + 1 } : World K V Ty) o = kind w o := by
    intro o ho; unfold kind; rw [hg, if_neg (Nat.ne_of_gt ho)]
  refine ⟨⟨hi.recB, ?_, ?_⟩, le_refl _, Nat.le_succ _, ?_, ?_, ?_⟩
  · intro o y hy
    rw [hg] at hy
    split at hy
    · rename_i e; rw [← e]; exact Nat.lt_succ_self _
    · exact Nat.lt_succ_of_lt (hi.objB o y hy)
  · intro o y hy
    rw [hg] at hy
    split at hy
    · cases hy; exact hx.congr (le_refl _) (Nat.le_succ _) hk
    · exact (hi.obj o y hy).congr (le_refl _) (Nat.le_succ _) hk
  · intro o y hy
    refine ⟨y, ?_, rfl, fun _ _ => .refl _⟩
    rw [hg, if_neg (Nat.ne_of_gt (hi.objB o y hy))]; exact hy
  · intro o ho hy
    rw [hg, if_neg (Nat.ne_of_gt ho)]; exact hy
  · intro o y ho hy hs
    rw [hg] at hy
    split at hy
    · rename_i e; cases hy; rw [← e]; exact ht hs
    · exact hi.noNew o y ho hy hs

theorem ObjOk.newSet (nR nO : Nat) (kd : Nat → Option Bool) (b : Bool) : ObjOk nR nO kd ({ Obj.newSet with isBase := b } : Obj K V Ty) :=
  ⟨by simp [Obj.newSet], (fun h => by cases h), fun _ => rfl, by simp [Obj.newSet], by simp [Obj.newSet], .nil⟩

theorem ObjOk.newVault (nR nO : Nat) (kd : Nat → Option Bool) : ObjOk nR nO kd (Obj.newVault : Obj K V Ty) :=
  ⟨by simp [Obj.newVault], fun _ => ⟨rfl, rfl, .empty rfl rfl rfl rfl⟩, (fun h => by cases h), by simp [Obj.newVault], by simp [Obj.newVault], .nil⟩

theorem newSetObj_st {w : World K V Ty} (hi : AI w) (b : Bool) (t : List Nat) :
    St t w { w with objs := mput w.objs w.nextO { Obj.newSet with isBase := b }, nextO := w.nextO + 1 } ∧
    NotVault ({ w with objs := mput w.objs w.nextO { Obj.newSet with isBase := b }, nextO := w.nextO + 1 } : World K V Ty) w.nextO := by
  refine ⟨hi.newObj (.newSet _ _ _ b) t (fun h => by cases h), Nat.lt_succ_self _, ?_⟩
  unfold kind World.getObj
  simp [mget_mput, Obj.newSet]

theorem setCopyNew_st {env : Env} {w w' : World K V Ty} {a : Nat} (hi : AI w) (h : setCopyNew env w a = some w') (t : List Nat) : St t w w' := by
  simp only [setCopyNew, Option.bind_eq_bind, Option.bind_eq_some_iff] at h
  obtain ⟨ao, hao, h⟩ := h
  obtain ⟨s1, n1⟩ := newSetObj_st hi true t
  split at h
  · cases h; exact s1
  · exact s1.trans (copySet_st s1.ai n1 h t)

theorem setAssign_st {env : Env} {w w' : World K V Ty} {s a : Nat} (hi : AI w) (hs : NotVault w s) (h : setAssign env w s a = some w') (t : List Nat) : St t w w' := by
  simp only [setAssign, Option.bind_eq_bind, Option.bind_eq_some_iff] at h
  obtain ⟨_, _, ao, hao, h⟩ := h
  split at h
  · cases h; exact .refl hi t
  · simp only [Option.bind_eq_some_iff] at h
    obtain ⟨w1, h1, h⟩ := h
    have s1 := setReset_st hi h1 t
    split at h
    · cases h; exact s1
    · exact s1.trans (copySet_st s1.ai (hs.st s1) h t)

theorem moveDep_st {w w' : World K V Ty} {s a r : Nat} (hi : AI w) (h : moveDep s a w r = some w') (t : List Nat) : St t w w' := by
  simp only [moveDep, Option.bind_eq_bind, Option.bind_eq_some_iff] at h
  obtain ⟨w1, h1, h⟩ := h
  have s1 := eraseDep_st hi h1 t
  exact s1.trans (addDep_st s1.ai h t)

theorem moveDep_objs0 {w w' : World K V Ty} {s a r : Nat} (h : moveDep s a w r = some w') : w'.objs = w.objs := by
  simp only [moveDep, Option.bind_eq_bind, Option.bind_eq_some_iff, eraseDep, addDep, Option.map_eq_some_iff] at h
  obtain ⟨w1, ⟨_, _, rfl⟩, _, _, rfl⟩ := h
  rfl

theorem moveSet_st {env : Env} {w w' : World K V Ty} {s a : Nat} (hi : AI w) (hne : s ≠ a) (hs : NotVault w s) (hva : NotVault w a)
    (h : moveSet env w s a = some w') (t : List Nat) : St t w w' := by
  simp only [moveSet, Option.bind_eq_bind, Option.bind_eq_some_iff] at h
  obtain ⟨ao, hao, p, hp, _, _, w1, h1, so, hso, w4, h4, so4, hso4, po, hpo, h⟩ := h
  cases h
  have ha0 := hi.obj a ao hao
  have hpn : NotSet w p := ha0.par p hp
  have s1 : St t w w1 := loop_st' (fun w w' a hi h => moveDep_st hi h t) _ hi h1
  have hao1 : w1.getObj a = some ao := by
    unfold World.getObj at hao ⊢; rw [loop_objs (fun _ _ _ h => moveDep_objs0 h) _ h1]; exact hao
  have s2 := s1.trans (s1.ai.putSet (y := { so with isBase := false, parent := some p }) hso (s1.setObj hs hso) rfl
    (fun p' e => by cases e; exact .inr (hpn.st s1)) rfl (s1.ai.obj s so hso).recs (s1.ai.obj s so hso).cols t)
  have hao2 : (w1.putObj s { so with isBase := false, parent := some p }).getObj a = some ao := by
    rw [getObj_putObj, if_neg hne]; exact hao1
  have s3 := s2.trans (s2.ai.putSet (y := { ao with parent := none, recs := [], keysOrder := [], uniq := [] }) hao2 (s2.setObj hva hao2) rfl
    (fun p' e => by cases e) rfl (by simp) (s2.ai.obj a ao hao2).cols t)
  have s4 := s3.trans (copyKeys_st s3.ai (.inl (hs.st s3)) h4)
  have s5 := s4.trans (s4.ai.putSet (y := { so4 with keysOrder := ao.keysOrder, uniq := ao.uniq, recs := ao.recs }) hso4 (s4.setObj hs hso4) rfl
    (fun p' e => .inl e) rfl (fun r hr => lt_of_lt_of_le (ha0.recs r hr) s4.nR) (s4.ai.obj s so4 hso4).cols t)
  refine s5.trans (s5.ai.link hpo ((hpn.st s5).obj hpo) (setIns (po.sets.filter (· ≠ a)) s) (fun b hb => ?_) t)
  rcases (mem_setIns _ _ _).mp hb with h | rfl
  · exact (s5.ai.obj p po hpo).sets b (List.mem_filter.mp h).1
  · exact hs.st s5

theorem setMoveNew_st {env : Env} {w w' : World K V Ty} {a : Nat} (hi : AI w) (hva : NotVault w a) (h : setMoveNew env w a = some w') (t : List Nat) : St t w w' := by
  simp only [setMoveNew, Option.bind_eq_bind, Option.bind_eq_some_iff] at h
  obtain ⟨ao, hao, h⟩ := h
  obtain ⟨s1, n1⟩ := newSetObj_st hi true t
  split at h
  · cases h; exact s1
  · exact s1.trans (moveSet_st s1.ai (fun e => absurd (e ▸ hva.1) (lt_irrefl _)) n1 (hva.st s1) h t)

theorem setMoveAssign_st {env : Env} {w w' : World K V Ty} {s a : Nat} (hi : AI w) (hs : NotVault w s) (hva : NotVault w a) (h : setMoveAssign env w s a = some w') (t : List Nat) :
    St t w w' := by
  simp only [setMoveAssign, Option.bind_eq_bind, Option.bind_eq_some_iff] at h
  obtain ⟨_, _, ao, hao, h⟩ := h
  split at h
  · cases h; exact .refl hi t
  · rename_i hne
    split at h
    · exact setReset_st hi h t
    · exact moveSet_st hi hne hs hva h t

theorem setUnion_st {env : Env} {w w' : World K V Ty} {a b s : Nat} {res : Res K} (hi : AI w) (hs : NotVault w s) (h : setUnion env w a b s = some (w', res)) (t : List Nat) : St t w w' := by
  simp only [setUnion, Option.bind_eq_bind, Option.bind_eq_some_iff] at h
  obtain ⟨ao, hao, bo, hbo, _, _, h⟩ := h
  split at h
  · cases h; exact .refl hi t
  split at h
  · cases h; exact .refl hi t
  split at h
  · cases h; exact .refl hi t
  split at h
  · cases h; exact .refl hi t
  simp only [Option.bind_eq_some_iff] at h
  obtain ⟨w1, h1, h⟩ := h
  have s1 := setAssign_st hi hs h1 t
  exact s1.trans (setJoin_st s1.ai h t)

theorem setIntersection_st {env : Env} {w w' : World K V Ty} {a b s : Nat} {res : Res K} (hi : AI w) (hs : NotVault w s)
    (h : setIntersection env w a b s = some (w', res)) (t : List Nat) : St t w w' := by
  simp only [setIntersection, Option.bind_eq_bind, Option.bind_eq_some_iff] at h
  obtain ⟨ao, hao, bo, hbo, _, _, h⟩ := h
  split at h
  · cases h; exact .refl hi t
  split at h
  · cases h; exact .refl hi t
  rename_i p hp
  split at h
  · cases h; exact .refl hi t
  split at h
  · cases h; exact .refl hi t
  simp only [Option.bind_eq_some_iff] at h
  obtain ⟨w1, h1, so1, hso1, w3, h3, so3, hso3, po, hpo, h⟩ := h
  simp only [Option.map_eq_some_iff, Prod.mk.injEq] at h
  obtain ⟨w6, h6, rfl, rfl⟩ := h
  have hpn : NotSet w p := (hi.obj a ao hao).par p hp
  have s1 := setReset_st hi h1 t
  have s2 := s1.trans (s1.ai.putSet (y := { so1 with parent := some p }) hso1 (s1.setObj hs hso1) rfl
    (fun p' e => by cases e; exact .inr (hpn.st s1)) rfl (s1.ai.obj s so1 hso1).recs (s1.ai.obj s so1 hso1).cols t)
  have s3 := s2.trans (copyKeys_st s2.ai (.inl (hs.st s2)) h3)
  have s4 := s3.trans (s3.ai.putSet (y := { so3 with keysOrder := ao.keysOrder, uniq := ao.uniq }) hso3 (s3.setObj hs hso3) rfl
    (fun p' e => .inl e) rfl (s3.ai.obj s so3 hso3).recs (s3.ai.obj s so3 hso3).cols t)
  have s5 := s4.trans (s4.ai.link hpo ((hpn.st s4).obj hpo) (setIns po.sets s) (fun a ha => by
    rcases (mem_setIns _ _ _).mp ha with h | rfl
    · exact (s4.ai.obj p po hpo).sets a h
    · exact hs.st s4) t)
  exact s5.trans (loop_st' (fun w w' a hi h => addOnly_st hi h t) _ s5.ai h6)

/-! ### Vault copies and moves -/

theorem copyOne_st {w w' : World K V Ty} {o r : Nat} (hi : AI w) (h : copyOne o w r = some w') (t : List Nat) : St t w w' := by
  simp only [copyOne, Option.bind_eq_bind, Option.bind_eq_some_iff] at h
  obtain ⟨x, hx, vo, hvo, h⟩ := h
  cases h
  have ok := hi.obj o vo hvo
  have s1 := hi.newRec ⟨x.data, true, 0, []⟩ t
  refine s1.trans (s1.ai.putSame (y := { vo with recs := vo.recs ++ [w.nextR], cols := addCols vo.cols x.data w.nextR }) hvo rfl (fun _ => ⟨rfl, rfl⟩)
    (fun _ h => h) (fun _ h => h) ⟨rfl, rfl, rfl, sig_addCols _ _ _⟩ ?_ (ok.cols.addCols _ _) t)
  intro r hr
  rcases List.mem_append.mp hr with hr | hr
  · exact Nat.lt_succ_of_lt (ok.recs r hr)
  · simp only [List.mem_singleton] at hr; subst hr; exact Nat.lt_succ_self _

theorem withKeys_empty {vo : Obj K V Ty} (hc : vo.cols = []) (ht : vo.tmpl = []) (l : List (K × Col V Ty)) :
    (∀ k, mget (withKeys vo l).cols k = (mget l k).map Col.fresh) ∧ ∀ k, mget (withKeys vo l).tmpl k = (mget l k).map (·.dflt) := by
  obtain ⟨a1, a2, a3, a4, a5, a6, a7, a8⟩ := withKeys_spec l vo
  refine ⟨fun k => by rw [a7, hc]; simp [mget], fun k => ?_⟩
  rw [a8 (by intro k; rw [hc, ht]; simp [mget])]
  rw [hc]; simp [mhas, mget]

theorem mput_self {A : Type} [DecidableEq A] {B : Type} {m : List (A × B)} {k : A} {v : B} (h : mget m k = some v) : mput m k v = m := by
  induction m with
  | nil => simp [mget] at h
  | cons e m ih =>
    obtain ⟨k', v'⟩ := e
    simp only [mget] at h
    simp only [mput]
    split at h
    · rename_i e; cases h; rw [if_pos e, e]
    · rename_i e; rw [if_neg e, ih h]

theorem putObj_self {w : World K V Ty} {o : Nat} {x : Obj K V Ty} (h : w.getObj o = some x) : w.putObj o x = w := by
  unfold World.putObj; rw [mput_self h]

theorem copyInto_keys_st {env : Env} {w w1 : World K V Ty} {o a : Nat} {vo vo1 ao : Obj K V Ty} {t : List Nat} (hi : AI w) (ho : w.getObj o = some vo) (hos : vo.isSet = false)
    (hne : o ≠ a) (hva : NotSet w a) (hr : vo.recs = []) (hc : vo.cols = []) (htm : vo.tmpl = []) (ht : o ∈ t)
    (hao : w.getObj a = some ao) (h1 : copyKeys env ao w o = some w1) (hvo1 : w1.getObj o = some vo1) :
    St t w (w1.putObj o { vo1 with keysOrder := ao.keysOrder, uniq := ao.uniq }) := by
  have s1 : St t w w1 := copyKeys_st hi (.inr ht) h1
  have hw : w1 = w.putObj o (withKeys vo ao.cols) := by
    have := copyKeys_eq (env := env) (src := ao) (w := w) (o := o) hr
    rw [putObj_self ho] at this
    rw [this] at h1; cases h1; rfl
  have hvo1' : vo1 = withKeys vo ao.cols := by rw [hw, getObj_putObj_self] at hvo1; cases hvo1; rfl
  have aok := (hi.obj a ao hao).vault (hva.obj hao)
  have ok1 := s1.ai.obj o vo1 hvo1
  obtain ⟨b1, b2⟩ := withKeys_empty hc htm ao.cols
  obtain ⟨a1, a2, a3, a4, a5, a6, _⟩ := withKeys_spec ao.cols vo
  have v1 := ok1.vault (by rw [hvo1', a1]; exact hos)
  have key : KeyOk { vo1 with keysOrder := ao.keysOrder, uniq := ao.uniq } := by
    refine ⟨aok.2.2.nodup, ?_, aok.2.2.uniqS, ?_, v1.2.2.tmplN, v1.2.2.tmplT⟩
    · intro k
      show k ∈ ao.keysOrder ↔ ∃ c, mget vo1.cols k = some c
      rw [aok.2.2.mem, hvo1', b1]
      cases mget ao.cols k <;> simp
    · intro k hk
      obtain ⟨c, hc⟩ := aok.2.2.uniqM k hk
      exact ⟨c.fresh, by show mget vo1.cols k = _; rw [hvo1', b1, hc]; rfl⟩
  exact s1.trans (s1.ai.putObj (t := t) (y := { vo1 with keysOrder := ao.keysOrder, uniq := ao.uniq }) hvo1 rfl
    ⟨ok1.recs, fun _ => ⟨v1.1, v1.2.1, key⟩, ok1.set, ok1.par, ok1.sets, ok1.cols⟩ (fun _ hn => absurd ht hn))

theorem copyInto_st {env : Env} {w w' : World K V Ty} {o a : Nat} {vo : Obj K V Ty} {t : List Nat} (hi : AI w) (ho : w.getObj o = some vo) (hos : vo.isSet = false)
    (hne : o ≠ a) (hva : NotSet w a) (hr : vo.recs = []) (hc : vo.cols = []) (htm : vo.tmpl = []) (ht : o ∈ t)
    (h : copyInto env w o a = some w') : St t w w' := by
  simp only [copyInto, Option.bind_eq_bind, Option.bind_eq_some_iff] at h
  obtain ⟨ao, hao, w1, h1, vo1, hvo1, h⟩ := h
  have s2 := copyInto_keys_st hi ho hos hne hva hr hc htm ht hao h1 hvo1
  exact s2.trans (loop_st' (fun w w' a hi h => copyOne_st hi h t) _ s2.ai h)

theorem newVault_st {w : World K V Ty} (hi : AI w) {t : List Nat} (ht : w.nextO ∈ t) : St t w (newVault w) := hi.newObj (.newVault _ _ _) t (fun _ => ht)

theorem newVault_obj (w : World K V Ty) : (newVault w).getObj w.nextO = some Obj.newVault := by
  unfold newVault World.getObj; simp [mget_mput]

theorem vaultCopyNew_st {env : Env} {w w' : World K V Ty} {a : Nat} {t : List Nat} (hi : AI w) (hva : NotSet w a) (ht : w.nextO ∈ t)
    (h : vaultCopyNew env w a = some w') : St t w w' := by
  have s1 := newVault_st hi ht
  exact s1.trans (copyInto_st s1.ai (newVault_obj w) rfl (fun e => absurd (e ▸ hva.1) (lt_irrefl _)) (hva.st s1) rfl rfl rfl ht h)

theorem dropVault_obj {env : Env} {w w' : World K V Ty} {o : Nat} (h : dropVault env w o = some w') :
    ∃ x, w'.getObj o = some x ∧ x.recs = [] ∧ x.cols = [] ∧ x.tmpl = [] := by
  simp only [dropVault, dropCore, Option.bind_eq_bind, Option.bind_eq_some_iff] at h
  obtain ⟨vo, hvo, w1, h1, vo1, hvo1, w2, h2, h⟩ := h
  cases h
  exact ⟨_, getObj_putObj_self _ _ _, rfl, rfl, rfl⟩

theorem vaultAssign_st {env : Env} {w w' : World K V Ty} {o a : Nat} {t : List Nat} (hi : AI w) (hvo : NotSet w o) (hva : NotSet w a) (ht : o ∈ t)
    (h : vaultAssign env w o a = some w') : St t w w' := by
  unfold vaultAssign at h
  split at h
  · cases h; exact .refl hi t
  · rename_i hne
    simp only [Option.bind_eq_bind, Option.bind_eq_some_iff] at h
    obtain ⟨w1, h1, h⟩ := h
    have s1 := dropVault_st hi (.inr ht) h1
    obtain ⟨x, hx, e1, e2, e3⟩ := dropVault_obj h1
    exact s1.trans (copyInto_st s1.ai hx ((hvo.st s1).obj hx) hne (hva.st s1) e1 e2 e3 ht h)

theorem moveInto_st {w w' : World K V Ty} {o a : Nat} {t : List Nat} (hi : AI w) (hne : o ≠ a) (hvo : NotSet w o) (hva : NotSet w a) (ht : o ∈ t) (hta : a ∈ t)
    (h : moveInto w o a = some w') : St t w w' := by
  simp only [moveInto, Option.bind_eq_bind, Option.bind_eq_some_iff] at h
  obtain ⟨ao, hao, vo, ho, h⟩ := h
  cases h
  have aok := hi.obj a ao hao
  have ook := hi.obj o vo ho
  have av := aok.vault (hva.obj hao)
  have ov := ook.vault (hvo.obj ho)
  have s1 := hi.putObj (t := t) (y := { vo with tmpl := ao.tmpl, cols := ao.cols, keysOrder := ao.keysOrder, uniq := ao.uniq, recs := ao.recs, sets := ao.sets }) ho rfl
    ⟨aok.recs, fun _ => ⟨ov.1, ov.2.1, ⟨av.2.2.nodup, av.2.2.mem, av.2.2.uniqS, av.2.2.uniqM, av.2.2.tmplN, av.2.2.tmplT⟩⟩,
      (fun h => by simp only at h; rw [hvo.obj ho] at h; cases h), ook.par, aok.sets, aok.cols⟩ (fun _ hn => absurd ht hn)
  have hao1 : (w.putObj o { vo with tmpl := ao.tmpl, cols := ao.cols, keysOrder := ao.keysOrder, uniq := ao.uniq, recs := ao.recs, sets := ao.sets }).getObj a = some ao := by
    rw [getObj_putObj, if_neg hne]; exact hao
  exact s1.trans (s1.ai.putObj (t := t) (y := { ao with tmpl := [], cols := [], keysOrder := [], uniq := [], recs := [], sets := [] }) hao1 rfl
    ⟨by simp, fun _ => ⟨av.1, av.2.1, .empty rfl rfl rfl rfl⟩, fun _ => rfl, aok.par |> fun h => (s1.ai.obj a ao hao1).par, by simp, .nil⟩ (fun _ hn => absurd hta hn))

/-! ### All operations -/

/-- The vaults whose keys an operation may change: those of the key functions, and those that are copied into, moved or
destroyed. -/
def keyOps (w : World K V Ty) : Op K V Ty → List Nat
  | .newVault => [w.nextO]
  | .addKey o _ _ => [o]
  | .addUniqueKey o _ _ _ _ => [o]
  | .updateKey o _ _ => [o]
  | .removeKey o _ => [o]
  | .dropVault o => [o]
  | .destroyVault o => [o]
  | .vaultCopyNew _ => [w.nextO]
  | .vaultAssign o _ => [o]
  | .vaultMoveNew a => [w.nextO, a]
  | .vaultMoveAssign o a => [o, a]
  | _ => []

theorem AI.empty : AI (World.empty : World K V Ty) := by
  refine ⟨?_, ?_, ?_⟩ <;> simp [World.empty, World.getRec, World.getObj, mget]

theorem AI.del {w : World K V Ty} (hi : AI w) (o : Nat) : AI { w with objs := mdel w.objs o } := by
  have hg : ∀ o', World.getObj ({ w with objs := mdel w.objs o } : World K V Ty) o' = if o = o' then none else w.getObj o' := fun o' => mget_mdel _ _ _
  refine ⟨hi.recB, ?_, ?_⟩
  · intro o' x hx
    rw [hg] at hx
    split at hx
    · cases hx
    · exact hi.objB o' x hx
  · intro o' x hx
    rw [hg] at hx
    split at hx
    · cases hx
    · have ok := hi.obj o' x hx
      have hk : ∀ a b, kind w a ≠ some b → kind ({ w with objs := mdel w.objs o } : World K V Ty) a ≠ some b := by
        intro a b h
        unfold kind; rw [hg]
        split
        · simp
        · exact h
      exact ⟨ok.recs, ok.vault, ok.set, fun p hp => ⟨(ok.par p hp).1, hk _ _ (ok.par p hp).2⟩, fun s hs => ⟨(ok.sets s hs).1, hk _ _ (ok.sets s hs).2⟩, ok.cols⟩

/-- What every step guarantees. -/
structure AnyStep (t : List Nat) (w w' : World K V Ty) : Prop where
  ai : AI w'
  nR : w.nextR ≤ w'.nextR
  nO : w.nextO ≤ w'.nextO
  same : ∀ o x, w.getObj o = some x → x.isSet = false → o ∉ t → ∃ y, w'.getObj o = some y ∧ y.isSet = false ∧ KSame x y
  before : ∀ o x, w'.getObj o = some x → x.isSet = false → o ∉ t → ∃ y, w.getObj o = some y ∧ y.isSet = false

theorem St.before {t : List Nat} {w w' : World K V Ty} (h : St t w w') {o : Nat} {x : Obj K V Ty} (hx : w'.getObj o = some x) (hs : x.isSet = false) (hn : o ∉ t) :
    ∃ y, w.getObj o = some y ∧ y.isSet = false := by
  by_cases hlt : o < w.nextO
  · cases hb : w.getObj o with
    | none => rw [h.dead o hlt hb] at hx; cases hx
    | some y =>
      obtain ⟨z, hz, e, _⟩ := h.live o y hb
      rw [hx] at hz; cases hz
      exact ⟨y, rfl, e.symm.trans hs⟩
  · exact absurd (h.new o x (by omega) hx hs) hn

theorem St.any {t : List Nat} {w w' : World K V Ty} (h : St t w w') : AnyStep t w w' :=
  ⟨h.ai, h.nR, h.nO, fun o x hx hs hn => by
    obtain ⟨y, hy, e, k⟩ := h.live o x hx
    exact ⟨y, hy, e.trans hs, k hs hn⟩, fun _ _ => h.before⟩

theorem notSet_of {w : World K V Ty} (hi : AI w) {o : Nat} {x : Obj K V Ty} (h : w.getObj o = some x) (hs : x.isSet = false) : NotSet w o :=
  ⟨hi.objB o x h, by rw [kind_eq h, hs]; simp⟩
theorem notVault_of {w : World K V Ty} (hi : AI w) {o : Nat} {x : Obj K V Ty} (h : w.getObj o = some x) (hs : x.isSet = true) : NotVault w o :=
  ⟨hi.objB o x h, by rw [kind_eq h, hs]; simp⟩

end MVault.W
