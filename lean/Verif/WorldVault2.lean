import Verif.WorldVault
/-
SetData on vaults and sets; key operations.
-/
set_option linter.unusedSectionVars false
set_option linter.unusedSimpArgs false
namespace MVault.W
variable {K V Ty : Type} [LinearOrder K] [LinearOrder V] [Typed V Ty] [DecidableEq Ty]
variable {own home : Nat → Nat}

/-- Same records, same validity and reference counts, and the data given by `cell'` functions elsewhere. -/
theorem VOk.updCol {cell cell' : Nat → K → Option V} {vo : Obj K V Ty} {k : K} {c c' : Col V Ty} (h : VOk cell vo)
    (hk : mget vo.cols k = some c) (h1 : c'.ty = c.ty) (h2 : c'.multi = c.multi)
    (hc : ColOk (fun r => cell' r k) vo.recs c') (ho : ∀ r ∈ vo.recs, ∀ k', k' ≠ k → cell' r k' = cell r k') :
    VOk cell' { vo with cols := mput vo.cols k c' } where
  cols k' d hd := by
    simp only [mget_mput] at hd
    split at hd
    · rename_i e; subst e; cases hd; exact hc
    · rename_i e
      exact (h.cols k' d hd).congr (fun _ => Iff.rfl) (fun r hr => ho r hr k' (Ne.symm e))
  nocol r hr k' hd := by
    simp only [mget_mput] at hd
    split at hd
    · cases hd
    · rename_i e
      rw [ho r hr k' (Ne.symm e)]; exact h.nocol r hr k' hd
  recsN := h.recsN
  keysN := h.keysN
  keysM k' := by
    rw [h.keysM]; simp only [mget_mput]
    split
    · rename_i e; subst e; simp [hk]
    · exact Iff.rfl
  uniqS := h.uniqS
  uniqM k' := by
    rw [h.uniqM]; simp only [mget_mput]
    split
    · rename_i e; subst e; simp [hk, h2]
    · exact Iff.rfl
  tmplN k' hd := by
    simp only [mget_mput] at hd
    split at hd
    · cases hd
    · exact h.tmplN k' hd
  tmplT k' d hd := by
    simp only [mget_mput] at hd
    split at hd
    · rename_i e; subst e; cases hd; rw [h1]; exact h.tmplT k c hk
    · exact h.tmplT k' d hd
  base := h.base
  par := h.par

/-- What a successful SetData on a vault does. -/
structure SetDone (w w' : World K V Ty) (o r : Nat) (vo : Obj K V Ty) (x : Rec K V) (k : K) (v : V) : Prop where
  col : ∃ c c', mget vo.cols k = some c ∧ c.ty = typeOf v ∧ c.multi = true ∧ w'.getObj o = some { vo with cols := mput vo.cols k c' }
  objs : ∀ o', o' ≠ o → ObjSame (w.getObj o') (w'.getObj o')
  recs : ∀ r', r' ≠ r → RecSame (w.getRec r') (w'.getRec r')
  here : ∃ y, w'.getRec r = some y ∧ y.valid = true ∧ y.refs = x.refs ∧ y.data = mput x.data k v
  refs : w'.refs = w.refs
  nextR : w'.nextR = w.nextR
  nextO : w'.nextO = w.nextO
  idx : ∃ c c' old, mget vo.cols k = some c ∧ mget x.data k = some old ∧ c.setVal old v r = some c' ∧
    w'.getObj o = some { vo with cols := mput vo.cols k c' }

theorem setData_vault {env : Env} {w w' : World K V Ty} {o r : Nat} {vo : Obj K V Ty} {x : Rec K V} {k : K} {v : V} {res : Res K}
    (hi : Inv own home w) (ho : w.getObj o = some vo) (hs : vo.isSet = false) (hx : w.getRec r = some x) (hv : x.valid = true)
    (hown : own r = o) (h : setDataToRecord env w o r k v = some (w', res)) :
    Inv own home w' ∧
    ((w' = w ∧ ((res = .bad .WrongKey (some k) ∧ mget vo.cols k = none) ∨
      (∃ c, mget vo.cols k = some c ∧ res = .bad .WrongType (some k) ∧ c.ty ≠ typeOf v) ∨
      (∃ c, mget vo.cols k = some c ∧ c.ty = typeOf v ∧ c.multi = false ∧ res = .bad .UniqueKeyValueAlredyInSet (some k)))) ∨
    (res = .good (some k) ∧ SetDone w w' o r vo x k v)) := by
  have hvok := hi.v.vok o vo ho hs
  have hbase := hvok.base
  obtain ⟨vo0, hvo0, _, hrm⟩ := hi.v.val r x hx hv
  rw [hown, ho] at hvo0; cases hvo0
  simp only [setDataToRecord, ho, setDataIndex, hx, hv, Option.bind_eq_bind, Option.bind_some, Bool.true_eq_false, if_false] at h
  cases hk : mget vo.cols k with
  | none =>
    simp only [hk, Option.bind_some, Res.bad, if_true, Option.some.injEq, Prod.mk.injEq] at h
    obtain ⟨rfl, rfl⟩ := h
    exact ⟨hi, .inl ⟨rfl, .inl ⟨rfl, rfl⟩⟩⟩
  | some c =>
    simp only [hk] at h
    by_cases hty : c.ty = typeOf v
    · simp only [ne_eq, hty, not_true_eq_false, if_false] at h
      have hcok := hvok.cols k c hk
      obtain ⟨old, hold, hot⟩ := hcok.typed r hrm
      have hold' : mget x.data k = some old := by simpa [cellOf, hx] using hold
      have hov : c.oldVal x.data k = old := by simp [Col.oldVal, readOr, hold', hot]
      rw [hov] at h
      cases hsv : c.setVal old v r with
      | none =>
        simp only [hsv, Option.bind_some, Res.bad, if_true, Option.some.injEq, Prod.mk.injEq] at h
        obtain ⟨rfl, rfl⟩ := h
        refine ⟨hi, .inl ⟨rfl, .inr (.inr ⟨c, rfl, hty, ?_, rfl⟩)⟩⟩
        by_contra hm
        obtain ⟨c', hc'⟩ := Col.setVal_multi c (by simpa using hm) old v r
        rw [hsv] at hc'; cases hc'
      | some c' =>
        obtain ⟨sh1, sh2, sh3⟩ := Col.setVal_shape hsv
        have hmulti : c.multi = true := by
          by_contra hm
          rw [hcok.setVal_unique (by simpa using hm) hrm hold] at hsv; cases hsv
        simp only [hsv, Option.bind_some, Res.good, Bool.true_eq_false, if_false] at h
        rw [if_pos hbase] at h
        simp only [Option.bind_eq_some_iff, Option.some.injEq, Prod.mk.injEq] at h
        obtain ⟨w2, h2, x2, hx2, rfl, rfl⟩ := h
        have q1 : QI own home (w.putObj o { vo with cols := mput vo.cols k c' }) := hi.q.putVault ho hs hs hbase rfl rfl
        have sq2 := updateDeps_sq q1.s (fun x' hx' => by
          have hx'' : w.getRec r = some x' := hx'
          rw [hx] at hx''; cases hx''; exact hv) h2
        have q2 := sq2.qi q1
        obtain ⟨x1, hx1, e1, e2, e3⟩ := sq2.sf.recOf hx2
        have hx1' : w.getRec r = some x1 := hx1
        rw [hx] at hx1'; cases hx1'
        have q3 : QI own home (w2.putRec r { x2 with data := mput x2.data k v }) := q2.putData hx2 rfl rfl rfl
        have hobj : w2.getObj o = some { vo with cols := mput vo.cols k c' } := by
          obtain ⟨b, hb, f1, f2⟩ := sq2.sf.objTo (getObj_putObj_self w o { vo with cols := mput vo.cols k c' })
          obtain ⟨z, hz, g1, g2, g3⟩ := lk_of (sq2.lk o) hb
          rw [getObj_putObj_self] at hz; cases hz
          rw [hb, f2 hs, g3]
        have hd2 : x2.data = x.data := e3 hv
        have done : SetDone w (w2.putRec r { x2 with data := mput x2.data k v }) o r vo x k v := by
          refine ⟨⟨c, c', hk, hty, hmulti, hobj⟩, ?_, ?_, ⟨_, getRec_putRec_self _ _ _, by rw [← hv, ← e1], e2, by rw [hd2]⟩, sq2.sf.refs, sq2.sf.nextR, sq2.sf.nextO, ⟨c, c', old, hk, hold', hsv, hobj⟩⟩
          · intro o' hne
            have := sq2.sf.objs o'
            simp only [getObj_putObj, if_neg (Ne.symm hne)] at this
            exact this
          · intro r' hne
            simp only [getRec_putRec, if_neg (Ne.symm hne)]
            exact sq2.sf.recs r'
        refine ⟨?_, .inr ⟨rfl, done⟩⟩
        have fr : Out own o w (w2.putRec r { x2 with data := mput x2.data k v }) :=
          (Out.putObj o w _).trans ((sq2.sf.out o).trans (Out.putRec _ hown))
        have hcell : ∀ r' ∈ vo.recs, ∀ k', cellOf (w2.putRec r { x2 with data := mput x2.data k v }) r' k' =
            if r' = r ∧ k' = k then some v else cellOf w r' k' := by
          intro r' hr' k'
          obtain ⟨_, y, hy, hyv⟩ := hi.v.mem o vo ho hs r' hr'
          by_cases e : r' = r
          · subst e
            simp only [cellOf, getRec_putRec_self, Option.bind_some, mget_mput, hx, hd2, true_and]
            by_cases e' : k' = k
            · subst e'; simp
            · simp [e', Ne.symm e']
          · obtain ⟨z, hz, _, _, hzd⟩ := (done.recs r' e).to hy
            simp [cellOf, hz, hy, hzd hyv, e]
        refine hi.build fr q3 hobj hs ?_ ?_ ?_
        · refine hvok.updCol hk sh1 sh2 ?_ ?_
          · refine hcok.setVal hrm hold hty.symm hsv ?_ ?_
            · intro r' hr' hne; rw [hcell r' hr']; simp [hne]
            · rw [hcell r hrm]; simp
          · intro r' hr' k' hne; rw [hcell r' hr']; simp [hne]
        · intro r' hr'
          obtain ⟨a, y, hy, hyv⟩ := hi.v.mem o vo ho hs r' hr'
          refine ⟨a, ?_⟩
          by_cases e : r' = r
          · subst e; obtain ⟨z, hz, hzv, _⟩ := done.here; exact ⟨z, hz, hzv⟩
          · obtain ⟨z, hz, hzv, _⟩ := (done.recs r' e).to hy
            exact ⟨z, hz, by rw [hzv]; exact hyv⟩
        · intro r' z hz hzv ho'
          by_cases e : r' = r
          · subst e; exact hrm
          · obtain ⟨y, hy, hyv, _⟩ := (done.recs r' e).of hz
            obtain ⟨vo1, a1, _, a3⟩ := hi.v.val r' y hy (by rw [← hyv]; exact hzv)
            rw [ho', ho] at a1; cases a1; exact a3
    · simp only [ne_eq, hty, not_false_eq_true, if_true, Option.bind_some, Res.bad, Option.some.injEq, Prod.mk.injEq] at h
      obtain ⟨rfl, rfl⟩ := h
      exact ⟨hi, .inl ⟨rfl, .inr (.inl ⟨c, rfl, rfl, hty⟩)⟩⟩

/-- SetData through a reference that points at a set: only the index of the set changes. -/
theorem setData_set {env : Env} {w w' : World K V Ty} {s r : Nat} {so : Obj K V Ty} {k : K} {v : V} {res : Res K}
    (hi : Inv own home w) (hs : w.getObj s = some so) (his : so.isSet = true) (hown : own r = home s) {x : Rec K V} (hx : w.getRec r = some x)
    (h : setDataToRecord env w s r k v = some (w', res)) : SQ own home w w' := by
  have hb := (hi.s.sets s so hs his).base
  simp only [setDataToRecord, hs, hb, Option.bind_eq_bind, Option.bind_some, Bool.false_eq_true, if_false, ite_self, Option.bind_eq_some_iff,
    Option.some.injEq, Prod.mk.injEq, Prod.exists] at h
  obtain ⟨w1, res1, h1, rfl, rfl⟩ := h
  exact setDataIndex_sq hs his hown (hi.s.ltR r x hx) h1

/-- SetData through a reference keeps the invariant. -/
theorem refSetData_inv {env : Env} {w w' : World K V Ty} {f : Nat} {k : K} {v : V} {res : Res K} (hi : Inv own home w)
    (h : refSetData env w f k v = some (w', res)) : Inv own home w' := by
  simp only [refSetData, Option.bind_eq_bind, Option.bind_eq_some_iff] at h
  obtain ⟨ref, hf, h⟩ := h
  cases hp : ref.ptr with
  | none => rw [hp] at h; cases h; exact hi
  | some r =>
    simp only [hp, Option.bind_eq_some_iff] at h
    obtain ⟨o, ho, oo, hoo, x, hx, h⟩ := h
    split at h
    · cases h; exact hi
    · rename_i hv
      have hown := hi.r.own ref (mem_of_get hf) r o oo hp ho hoo
      by_cases hset : oo.isSet = true
      · rw [if_pos hset] at hown
        exact (setData_set hi hoo hset hown hx h).inv hi
      · rw [if_neg hset] at hown
        exact (setData_vault hi hoo (by simpa using hset) hx (by simpa using hv) hown h).1

theorem refSetDataLoop_inv {env : Env} {f : Nat} {ps : List (K × V)} {w w' : World K V Ty} {res res' : Res K} (hi : Inv own home w)
    (h : refSetDataLoop env f ps w res = some (w', res')) : Inv own home w' := by
  induction ps generalizing w res with
  | nil => simp [refSetDataLoop] at h; rw [← h.1]; exact hi
  | cons p ps ih =>
    obtain ⟨k, v⟩ := p
    simp only [refSetDataLoop, Option.bind_eq_bind, Option.bind_eq_some_iff, Prod.exists] at h
    obtain ⟨w1, res1, h1, h⟩ := h
    have hi1 := refSetData_inv hi h1
    split at h
    · cases h; exact hi1
    · exact ih hi1 h

theorem refSetDataMany_inv {env : Env} {f : Nat} {ps : List (K × V)} {w w' : World K V Ty} {res' : Res K} (hi : Inv own home w)
    (h : refSetDataMany env w f ps = some (w', res')) : Inv own home w' := by
  simp only [refSetDataMany, Option.bind_eq_bind, Option.bind_eq_some_iff] at h
  obtain ⟨ref, hf, o, ho, oo, hoo, h⟩ := h
  exact refSetDataLoop_inv hi h

end MVault.W
