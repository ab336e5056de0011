import Verif.WorldObs
/-
Which vaults an operation leaves alone.
-/
set_option linter.unusedSectionVars false
set_option linter.unusedSimpArgs false
namespace MVault.W
variable {K V Ty : Type} [LinearOrder K] [LinearOrder V] [Typed V Ty] [DecidableEq Ty]
variable {own home : Nat → Nat}

theorem isVault_iff {w : World K V Ty} {o : Nat} : isVault w o = true ↔ ∃ vo, w.getObj o = some vo ∧ vo.isSet = false := by
  unfold isVault
  cases w.getObj o with
  | none => simp
  | some x => cases h : x.isSet <;> simp [h]

theorem isSetObj_iff {w : World K V Ty} {o : Nat} : isSetObj w o = true ↔ ∃ vo, w.getObj o = some vo ∧ vo.isSet = true := by
  unfold isSetObj
  cases w.getObj o with
  | none => simp
  | some x => cases h : x.isSet <;> simp [h]

theorem members_eq {w : World K V Ty} {o : Nat} {vo : Obj K V Ty} (h : w.getObj o = some vo) : members w o = vo.recs := by simp [members, h]
theorem getKeys_eq {w : World K V Ty} {o : Nat} {vo : Obj K V Ty} (h : w.getObj o = some vo) : getKeys w o = vo.keysOrder := by simp [getKeys, h]
theorem getUniqueKeys_eq {w : World K V Ty} {o : Nat} {vo : Obj K V Ty} (h : w.getObj o = some vo) : getUniqueKeys w o = vo.uniq := by simp [getUniqueKeys, h]
theorem isKeyExist_eq {w : World K V Ty} {o : Nat} {vo : Obj K V Ty} (h : w.getObj o = some vo) (k : K) : isKeyExist w o k = mhas vo.tmpl k := by simp [isKeyExist, h]
theorem getKeyType_eq {w : World K V Ty} {o : Nat} {vo : Obj K V Ty} (h : w.getObj o = some vo) (k : K) : getKeyType w o k = (mget vo.cols k).map (·.ty) := by simp [getKeyType, h]
theorem getDefault_eq {w : World K V Ty} {o : Nat} {vo : Obj K V Ty} (h : w.getObj o = some vo) (k : K) : getDefault w o k = mget vo.tmpl k := by simp [getDefault, h]
theorem parentOf_eq {w : World K V Ty} {o : Nat} {vo : Obj K V Ty} (h : w.getObj o = some vo) : parentOf w o = vo.parent := by simp [parentOf, h]
theorem value_eq (w : World K V Ty) (r : Nat) (k : K) : value w r k = cellOf w r k := rfl
theorem target_eq {w : World K V Ty} {f : Nat} {ref : Ref} (h : w.refs[f]? = some ref) : target w f = ref.ptr := by simp [target, h]
theorem through_eq {w : World K V Ty} {f : Nat} {ref : Ref} (h : w.refs[f]? = some ref) : through w f = ref.vlt := by simp [through, h]

theorem target_some {w : World K V Ty} {f r : Nat} (h : target w f = some r) : ∃ ref, w.refs[f]? = some ref ∧ ref.ptr = some r := by
  unfold target at h
  obtain ⟨ref, h1, h2⟩ := Option.bind_eq_some_iff.mp h
  exact ⟨ref, h1, h2⟩

/-- Vault `o` is the same, including its lookup structures, and so are the values of its records; only the list of its sets may differ. -/
structure Kept (w w' : World K V Ty) (o : Nat) : Prop where
  obj : ∃ vo vo', w.getObj o = some vo ∧ vo.isSet = false ∧ w'.getObj o = some vo' ∧ vo' = { vo with sets := vo'.sets }
  val : ∀ r ∈ members w o, ∀ k, value w' r k = value w r k
  valid : ∀ r ∈ members w o, alive w r → alive w' r

theorem Kept.same {w w' : World K V Ty} {o : Nat} (h : Kept w w' o) : SameVault w w' o := by
  obtain ⟨⟨vo, vo', h1, h2, h3, h4⟩, h5, _⟩ := h
  have e1 : vo'.isSet = vo.isSet := by rw [h4]
  refine ⟨?_, ?_, h5, ?_, ?_, ?_, ?_, ?_⟩
  · simp [isVault, h1, h3, e1]
  · rw [members_eq h1, members_eq h3, h4]
  · rw [getKeys_eq h1, getKeys_eq h3, h4]
  · rw [getUniqueKeys_eq h1, getUniqueKeys_eq h3, h4]
  · intro k; rw [isKeyExist_eq h1, isKeyExist_eq h3, h4]
  · intro k; rw [getKeyType_eq h1, getKeyType_eq h3, h4]
  · intro k; rw [getDefault_eq h1, getDefault_eq h3, h4]

theorem Kept.refl {w : World K V Ty} {o : Nat} (h : isVault w o = true) : Kept w w o := by
  obtain ⟨vo, h1, h2⟩ := isVault_iff.mp h
  exact ⟨⟨vo, vo, h1, h2, h1, rfl⟩, fun _ _ _ => rfl, fun _ _ h => h⟩

theorem Kept.vault {w w' : World K V Ty} {o : Nat} (h : Kept w w' o) : isVault w' o = true := by
  obtain ⟨⟨vo, vo', h1, h2, h3, h4⟩, _, _⟩ := h
  exact isVault_iff.mpr ⟨vo', h3, by rw [h4]; exact h2⟩

theorem Kept.trans {a b c : World K V Ty} {o : Nat} (h1 : Kept a b o) (h2 : Kept b c o) : Kept a c o := by
  obtain ⟨⟨vo, vo1, p1, p2, p3, p4⟩, p5, p6⟩ := h1
  obtain ⟨⟨vo1', vo2, q1, q2, q3, q4⟩, q5, q6⟩ := h2
  rw [p3] at q1; cases q1
  have hm : members b o = members a o := by rw [members_eq p1, members_eq p3, p4]
  refine ⟨⟨vo, vo2, p1, p2, q3, by rw [q4, p4]⟩, ?_, ?_⟩
  · intro r hr k; rw [q5 r (by rw [hm]; exact hr), p5 r hr]
  · intro r hr ha; exact q6 r (by rw [hm]; exact hr) (p6 r hr ha)

/-- A step that keeps vault `o`'s object and its records. -/
theorem Kept.of {w w' : World K V Ty} {o : Nat} (hv : VInv own w) (ho : isVault w o = true)
    (h1 : ObjSame (w.getObj o) (w'.getObj o))
    (h2 : ∀ r, own r = o → ∀ x, w.getRec r = some x → x.valid = true → ∃ y, w'.getRec r = some y ∧ y.data = x.data ∧ y.valid = true) : Kept w w' o := by
  obtain ⟨vo, hvo, hs⟩ := isVault_iff.mp ho
  obtain ⟨vo', hvo', e1, e2⟩ := h1.to hvo
  refine ⟨⟨vo, vo', hvo, hs, hvo', e2 hs⟩, ?_, ?_⟩
  · intro r hr k
    rw [members_eq hvo] at hr
    obtain ⟨ho, x, hx, hxv⟩ := hv.mem o vo hvo hs r hr
    obtain ⟨y, hy, hd, _⟩ := h2 r ho x hx hxv
    simp [value, hx, hy, hd]
  · intro r hr _
    rw [members_eq hvo] at hr
    obtain ⟨ho, x, hx, hxv⟩ := hv.mem o vo hvo hs r hr
    obtain ⟨y, hy, _, hv'⟩ := h2 r ho x hx hxv
    exact ⟨y, hy, hv'⟩

theorem SF.kept {w w' : World K V Ty} {o : Nat} (h : SF w w') (hv : VInv own w) (ho : isVault w o = true) : Kept w w' o :=
  .of hv ho (h.objs o) fun r _ x hx hxv => by
    obtain ⟨y, hy, e, _, d⟩ := h.recTo hx
    exact ⟨y, hy, d hxv, by rw [e]; exact hxv⟩

theorem RF.kept {w w' : World K V Ty} {o : Nat} (h : RF w w') (hv : VInv own w) (ho : isVault w o = true) : Kept w w' o :=
  .of hv ho (by rw [h.obj]; exact .refl _) fun r _ x hx hxv => by
    obtain ⟨y, hy, d, v, _⟩ := h.recTo' hx hxv
    exact ⟨y, hy, d, v⟩

theorem Out.kept {w w' : World K V Ty} {o o' : Nat} (h : Out own o w w') (hv : VInv own w) (ho : isVault w o' = true) (hne : o' ≠ o) : Kept w w' o' :=
  .of hv ho (h.objs o' hne) fun r hr x hx hxv => by
    obtain ⟨y, hy, e, _, d⟩ := (h.recs r (by rw [hr]; exact hne)).to hx
    exact ⟨y, hy, d hxv, by rw [e]; exact hxv⟩

theorem VStep.kept {w w' : World K V Ty} {o o' : Nat} {vo' : Obj K V Ty} {upd : Nat → List (K × V) → List (K × V)}
    (h : VStep w w' o vo' upd) (hv : VInv own w) (ho : isVault w o' = true) (hne : o' ≠ o)
    (hid : ∀ r, own r ≠ o → ∀ d, upd r d = d) : Kept w w' o' := (h.out hid).kept hv ho hne

theorem Erased.keptV {w w' : World K V Ty} {o o' : Nat} {vo : Obj K V Ty} {l : List Nat} (h : Erased w w' o vo l) (hv : VInv own w)
    (hl : ∀ r ∈ l, own r = o) (ho : isVault w o' = true) (hne : o' ≠ o) : Kept w w' o' :=
  Out.kept (own := own) (o := o) ⟨h.objs, fun r hr => h.recs r (fun hm => hr (hl r hm))⟩ hv ho hne

theorem Kept.newObj {w : World K V Ty} (hv : VInv own w) (x : Obj K V Ty) {o : Nat} (ho : isVault w o = true) :
    Kept w ({ w with objs := mput w.objs w.nextO x, nextO := w.nextO + 1 } : World K V Ty) o := by
  obtain ⟨vo, hvo, hs⟩ := isVault_iff.mp ho
  have := hv.ltO o vo hvo
  refine .of hv ho ?_ fun r _ x hx hxv => ⟨x, hx, rfl, hxv⟩
  rw [getObj_new, if_neg (by omega)]
  exact .refl _

/-- The vaults an operation is about. -/
def touched (w : World K V Ty) : Op K V Ty → List Nat
  | .addKey o _ _ | .addUniqueKey o _ _ _ _ | .updateKey o _ _ | .removeKey o _ | .createRecord o _ _ | .createRow o _ | .eraseRef o _ | .eraseKV o _ _
  | .eraseManyKV o _ _ _ | .dropData o | .dropVault o | .destroyVault o | .vaultAssign o _ => [o]
  | .vaultMoveNew a => [a]
  | .vaultMoveAssign o a => [o, a]
  | .refSetData f _ _ | .refSetDataMany f _ => (through w f).toList
  | _ => []

/-- All outcomes of `SetData` through a reference. -/
theorem refSetData_spec {env : Env} {w w' : World K V Ty} {f : Nat} {k : K} {v : V} {res : Res K} (hi : Inv own home w)
    (h : refSetData env w f k v = some (w', res)) :
    ∃ ref, w.refs[f]? = some ref ∧
    ((w' = w ∧ res = .bad .DataRecordNotValid (some k) ∧ ∀ r, ref.ptr = some r → ¬ alive w r) ∨
    ∃ r o oo x, ref.ptr = some r ∧ ref.vlt = some o ∧ w.getObj o = some oo ∧ w.getRec r = some x ∧ x.valid = true ∧
      ((oo.isSet = true ∧ SQ own home w w') ∨
      (oo.isSet = false ∧ own r = o ∧ Inv own home w' ∧
        ((w' = w ∧ ((res = .bad .WrongKey (some k) ∧ mget oo.cols k = none) ∨
          (∃ c, mget oo.cols k = some c ∧ res = .bad .WrongType (some k) ∧ c.ty ≠ typeOf v) ∨
          (∃ c, mget oo.cols k = some c ∧ c.ty = typeOf v ∧ c.multi = false ∧ res = .bad .UniqueKeyValueAlredyInSet (some k)))) ∨
        (res = .good (some k) ∧ SetDone w w' o r oo x k v))))) := by
  simp only [refSetData, Option.bind_eq_bind, Option.bind_eq_some_iff] at h
  obtain ⟨ref, hf, h⟩ := h
  refine ⟨ref, hf, ?_⟩
  cases hp : ref.ptr with
  | none => rw [hp] at h; cases h; exact .inl ⟨rfl, rfl, by simp⟩
  | some r =>
    simp only [hp, Option.bind_eq_some_iff] at h
    obtain ⟨o, ho, oo, hoo, x, hx, h⟩ := h
    split at h
    · rename_i hv; cases h
      refine .inl ⟨rfl, rfl, ?_⟩
      intro r' e; cases e
      rintro ⟨y, hy, hyv⟩; rw [hx] at hy; cases hy; rw [hv] at hyv; cases hyv
    · rename_i hv
      have hown := hi.r.own ref (mem_of_get hf) r o oo hp ho hoo
      refine .inr ⟨r, o, oo, x, rfl, ho, hoo, hx, by simpa using hv, ?_⟩
      by_cases hset : oo.isSet = true
      · rw [if_pos hset] at hown
        exact .inl ⟨hset, setData_set hi hoo hset hown hx h⟩
      · rw [if_neg hset] at hown
        exact .inr ⟨by simpa using hset, hown, setData_vault hi hoo (by simpa using hset) hx (by simpa using hv) hown h⟩

theorem refSetData_refs {env : Env} {w w' : World K V Ty} {f : Nat} {k : K} {v : V} {res : Res K} (hi : Inv own home w)
    (h : refSetData env w f k v = some (w', res)) : w'.refs = w.refs := by
  obtain ⟨ref, hf, h | ⟨r, o, oo, x, _, _, _, _, _, ⟨_, h⟩ | ⟨_, _, _, ⟨h, _⟩ | ⟨_, h⟩⟩⟩⟩ := refSetData_spec hi h
  · rw [h.1]
  · exact h.sf.refs
  · rw [h]
  · exact h.refs

theorem refSetData_kept {env : Env} {w w' : World K V Ty} {f : Nat} {k : K} {v : V} {res : Res K} (hi : Inv own home w)
    (h : refSetData env w f k v = some (w', res)) {o' : Nat} (ho : isVault w o' = true) (hne : through w f ≠ some o') : Kept w w' o' := by
  obtain ⟨ref, hf, h | ⟨r, o, oo, x, hp, hvl, _, hx, _, ⟨_, h⟩ | ⟨hs, hown, _, ⟨h, _⟩ | ⟨_, h⟩⟩⟩⟩ := refSetData_spec hi h
  · rw [h.1]; exact .refl ho
  · exact h.sf.kept hi.v ho
  · rw [h]; exact .refl ho
  · rw [through_eq hf, hvl] at hne
    have hne' : o' ≠ o := fun e => hne (by rw [e])
    refine Out.kept (own := own) (o := o) ⟨h.objs, ?_⟩ hi.v ho hne'
    intro r' hr'
    exact h.recs r' (fun e => hr' (by rw [e]; exact hown))

theorem refSetDataLoop_kept {env : Env} {f : Nat} {ps : List (K × V)} {w w' : World K V Ty} {res res' : Res K} (hi : Inv own home w)
    (h : refSetDataLoop env f ps w res = some (w', res')) {o' : Nat} (ho : isVault w o' = true) (hne : through w f ≠ some o') : Kept w w' o' := by
  induction ps generalizing w res with
  | nil => simp [refSetDataLoop] at h; rw [← h.1]; exact .refl ho
  | cons p ps ih =>
    obtain ⟨k, v⟩ := p
    simp only [refSetDataLoop, Option.bind_eq_bind, Option.bind_eq_some_iff, Prod.exists] at h
    obtain ⟨w1, res1, h1, h⟩ := h
    have hi1 := refSetData_inv hi h1
    have k1 := refSetData_kept hi h1 ho hne
    split at h
    · cases h; exact k1
    · refine k1.trans (ih hi1 h k1.vault ?_)
      unfold through at hne ⊢; rw [refSetData_refs hi h1]; exact hne

theorem copyInto_kept {env : Env} {w w' : World K V Ty} {o a : Nat} {vo ao : Obj K V Ty} (hi : Inv own home w) (hne : o ≠ a)
    (ho : w.getObj o = some vo) (hr : vo.recs = []) (ha : w.getObj a = some ao) (has : ao.isSet = false)
    (h : copyInto env w o a = some w') {o' : Nat} (ho' : isVault w o' = true) (hne' : o' ≠ o) : Kept w w' o' := by
  have e : w.putObj o vo = w := by
    cases w; simp only [World.putObj]; congr 1
    exact mput_same _ _ _ ho
  obtain ⟨w2, h2, cp⟩ := copyInto_spec (env := env) (vo := vo) hne ha hr hi.v.ltR (fun r hr => by
    obtain ⟨_, x, hx, _⟩ := hi.v.mem a ao ha has r hr; exact ⟨x, hx⟩)
  rw [e] at h2 cp
  rw [h] at h2; cases h2
  refine .of hi.v ho' ?_ ?_
  · rw [cp.objs o' hne']; exact .refl _
  · intro r _ x hx hxv
    exact ⟨x, by rw [cp.old r (hi.v.ltR r x hx)]; exact hx, rfl, hxv⟩

theorem moveInto_kept {w w' : World K V Ty} {o a : Nat} (hv : VInv own w) (h : moveInto w o a = some w') {o' : Nat} (ho' : isVault w o' = true)
    (h1 : o' ≠ o) (h2 : o' ≠ a) : Kept w w' o' := by
  simp only [moveInto, Option.bind_eq_bind, Option.bind_eq_some_iff, Option.some.injEq] at h
  obtain ⟨ao, ha, vo, ho, rfl⟩ := h
  refine .of hv ho' ?_ ?_
  · rw [getObj_putObj, if_neg (Ne.symm h2), getObj_putObj, if_neg (Ne.symm h1)]; exact .refl _
  · intro r _ x hx hxv; exact ⟨x, hx, rfl, hxv⟩

/-- An ordinary operation leaves all vaults alone except those it is about. -/
theorem step_kept {env : Env} {w w' : World K V Ty} {op : Op K V Ty} (hi : Inv own home w) (hg : Ordinary home w op)
    (h : step env w op = some w') {o' : Nat} (ho' : isVault w o' = true) (hn : o' ∉ touched w op) : Kept w w' o' := by
  have ne : ∀ {o : Nat}, o' ∉ [o] → o' ≠ o := fun h e => h (by rw [e]; exact List.mem_singleton_self _)
  cases op with
  | newVault => simp only [step, Option.some.injEq] at h; subst h; exact .newObj hi.v _ ho'
  | newSet => simp only [step, Option.some.injEq] at h; subst h; exact .newObj hi.v _ ho'
  | newRef => simp only [step, Option.some.injEq] at h; subst h; exact (newRef_ok hi.r).rf.kept hi.v ho'
  | destroyVault o =>
    obtain ⟨⟨vo, ho, hs⟩, h⟩ := onVault_some h
    simp only [destroyVault, Option.bind_eq_bind, Option.bind_eq_some_iff, Option.some.injEq] at h
    obtain ⟨w1, h1, rfl⟩ := h
    obtain ⟨_, _, hO, hR, _⟩ := dropVault_spec hi ho hs h1
    have hne := ne hn
    refine .of hi.v ho' ?_ ?_
    · have : ({ w1 with objs := mdel w1.objs o } : World K V Ty).getObj o' = w1.getObj o' := by
        simp only [World.getObj, mget_mdel, if_neg (Ne.symm hne)]
      rw [this]; exact hO o' hne
    · intro r hr x hx hxv
      have hm : r ∉ vo.recs := fun hm => hne (by rw [← hr]; exact (hi.v.mem o vo ho hs r hm).1)
      obtain ⟨y, hy, e, _, d⟩ := (hR r hm).to hx
      exact ⟨y, hy, d hxv, by rw [e]; exact hxv⟩
  | destroySet s =>
    obtain ⟨⟨so, ho, hs⟩, h⟩ := onSet_some h
    simp only [destroySet, Option.bind_eq_bind, Option.bind_eq_some_iff, Option.some.injEq] at h
    obtain ⟨w1, h1, w2, h2, rfl⟩ := h
    obtain ⟨sp, ⟨so1, hs1, hi1, hp1, hr1, _⟩, _⟩ := setReset_spec ho hs hi.q.si h1
    have k1 := sp.sf.kept hi.v ho'
    have hse := (sp.si.s.sets s so1 hs1 hi1).sets
    have hp0 : ∀ l : List Nat, l = [] → env.perm l = [] := fun l hl => by subst hl; simp [List.perm_nil.mp (env.isPerm [])]
    simp only [dropVault, hs1, Option.bind_eq_bind, Option.bind_some, hp0 _ hse, loop, dropCore, hp0 _ hr1, Option.some.injEq] at h2
    subst h2
    obtain ⟨vo1, hv1, hvs⟩ := isVault_iff.mp k1.vault
    have hne : o' ≠ s := fun e => by subst e; rw [hs1] at hv1; cases hv1; rw [hi1] at hvs; cases hvs
    refine k1.trans (.of (sp.sf.vinv hi.v) k1.vault ?_ fun r _ x hx hxv => ⟨x, hx, rfl, hxv⟩)
    have : ({ (w1.putObj s { so1 with tmpl := [], cols := [], keysOrder := [], uniq := [], recs := [], sets := [] }) with
        objs := mdel (w1.putObj s { so1 with tmpl := [], cols := [], keysOrder := [], uniq := [], recs := [], sets := [] }).objs s } : World K V Ty).getObj o' = w1.getObj o' := by
      simp only [World.getObj, World.putObj, mget_mdel, if_neg (Ne.symm hne), mget_mput]
    rw [this]; exact .refl _
  | refCopy f g =>
    simp only [step] at h
    have h0 := h
    simp only [refCopy, Option.bind_eq_bind, Option.bind_eq_some_iff] at h0
    obtain ⟨old, hf, src, hg', _⟩ := h0
    obtain ⟨w1, e, st, _⟩ := refCopy_ok hi.r hf hg'
    rw [h] at e; cases e; exact st.rf.kept hi.v ho'
  | refMove f g =>
    simp only [step] at h
    have h0 := h
    simp only [refMove, Option.bind_eq_bind, Option.bind_eq_some_iff] at h0
    obtain ⟨old, hf, src, hg', _⟩ := h0
    obtain ⟨w1, e, st, _⟩ := refMove_ok hi.r hf hg'
    rw [h] at e; cases e; exact st.rf.kept hi.v ho'
  | refReset f =>
    simp only [step] at h
    have h0 := h
    simp only [refReset, Option.bind_eq_bind, Option.bind_eq_some_iff] at h0
    obtain ⟨old, hf, _⟩ := h0
    obtain ⟨w1, e, st, _⟩ := refReset_ok hi.r hf
    rw [h] at e; cases e; exact st.rf.kept hi.v ho'
  | refSetData f k v => obtain ⟨res, h⟩ := map_fst h; exact refSetData_kept hi h ho' (fun e => hn (by simp [touched, e]))
  | refSetDataMany f ps =>
    obtain ⟨res, h⟩ := map_fst h
    simp only [refSetDataMany, Option.bind_eq_bind, Option.bind_eq_some_iff] at h
    obtain ⟨ref, hf, o, ho, oo, hoo, h⟩ := h
    exact refSetDataLoop_kept hi h ho' (fun e => hn (by simp [touched, e]))
  | addKey o k d =>
    obtain ⟨⟨vo, ho, hs⟩, h⟩ := onVault_some h
    obtain ⟨res, h⟩ := map_fst h
    rcases addKey_spec hi ho hs h with ⟨rfl, _⟩ | ⟨_, _, i, c, _, _, _, _, _, st⟩
    · exact .refl ho'
    · refine st.kept hi.v ho' (ne hn) ?_
      intro r hr d
      rw [if_neg]; exact fun hm => hr (hi.v.mem o vo ho hs r hm).1
  | addUniqueKey o k t noFn f =>
    obtain ⟨⟨vo, ho, hs⟩, h⟩ := onVault_some h
    obtain ⟨res, h⟩ := map_fst h
    rcases addUniqueKey_spec hi ho hs h with ⟨rfl, _⟩ | ⟨rfl, _⟩ | ⟨rfl, _⟩ | ⟨_, _, _, i, _, c, _, _, st⟩
    · exact .refl ho'
    · exact .refl ho'
    · exact .refl ho'
    · refine st.kept hi.v ho' (ne hn) ?_
      intro r hr d
      cases hm : mget (fnValues t (f o) 0 (env.perm vo.recs)) r with
      | none => rfl
      | some v =>
        exfalso
        have h1 := mget_mem _ _ _ hm
        have h2 : r ∈ (fnValues t (f o) 0 (env.perm vo.recs)).map (·.1) := List.mem_map.mpr ⟨_, h1, rfl⟩
        rw [fnValues_fst] at h2
        exact hr (hi.v.mem o vo ho hs r ((env.isPerm _).mem_iff.mp h2)).1
  | updateKey o k d =>
    obtain ⟨⟨vo, ho, hs⟩, h⟩ := onVault_some h
    obtain ⟨res, h⟩ := map_fst h
    rcases (updateKey_spec hi ho hs h).2 with ⟨rfl, _⟩ | ⟨_, _, _, rfl, _⟩ | ⟨_, _, _, _, rfl, _⟩ | ⟨_, _, _, _, _, rfl⟩
    · exact .refl ho'
    · exact .refl ho'
    · exact .refl ho'
    · exact (Out.putObj (own := own) o w _).kept hi.v ho' (ne hn)
  | removeKey o k =>
    obtain ⟨⟨vo, ho, hs⟩, h⟩ := onVault_some h
    obtain ⟨res, h⟩ := map_fst h
    rcases removeKey_spec hi ho hs h with ⟨rfl, _⟩ | ⟨_, _, i, st⟩
    · exact .refl ho'
    · refine st.kept hi.v ho' (ne hn) ?_
      intro r hr d
      rw [if_neg]; exact fun hm => hr (hi.v.mem o vo ho hs r hm).1
  | createRecord o f ps =>
    obtain ⟨⟨vo, ho, hs⟩, h⟩ := onVault_some h
    obtain ⟨res, h⟩ := map_fst h
    rcases createRecord_spec hi ho hs h with ⟨rfl, _⟩ | ⟨_, _, rfl, _⟩ | ⟨data, w1, cols, _, _, _, _, e1, st, _, _⟩
    · exact .refl ho'
    · exact .refl ho'
    · have hne := ne hn
      refine .of hi.v ho' ?_ ?_
      · rw [st.rf.obj, e1, getObj_putObj, if_neg (Ne.symm hne)]; exact .refl _
      · intro r _ x hx hxv
        have := hi.v.ltR r x hx
        have hx1 : w1.getRec r = some x := by
          subst e1
          show mget (mput w.recs w.nextR _) r = some x
          rw [mget_mput, if_neg (by omega)]; exact hx
        obtain ⟨y, hy, d, v, _⟩ := st.rf.recTo' hx1 hxv
        exact ⟨y, hy, d, v⟩
  | createRow o ps =>
    obtain ⟨⟨vo, ho, hs⟩, h⟩ := onVault_some h
    obtain ⟨res, h⟩ := map_fst h
    rcases createRow_spec hi ho hs h with ⟨rfl, _⟩ | ⟨_, _, rfl, _⟩ | ⟨data, w1, cols, _, _, _, _, e1, st, _, _⟩
    · exact .refl ho'
    · exact .refl ho'
    · have hne := ne hn
      refine .of hi.v ho' ?_ ?_
      · rw [st.rf.obj, e1, getObj_putObj, if_neg (Ne.symm hne)]; exact .refl _
      · intro r _ x hx hxv
        have := hi.v.ltR r x hx
        have hx1 : w1.getRec r = some x := by
          subst e1
          show mget (mput w.recs w.nextR _) r = some x
          rw [mget_mput, if_neg (by omega)]; exact hx
        obtain ⟨y, hy, d, v, _⟩ := st.rf.recTo' hx1 hxv
        exact ⟨y, hy, d, v⟩
  | eraseRef o f =>
    obtain ⟨⟨vo, ho, hs⟩, h⟩ := onVault_some h
    obtain ⟨res, h⟩ := map_fst h
    obtain ⟨ref, _, hh⟩ := eraseRef_vault hi ho hs h
    rcases hh with ⟨rfl, _⟩ | ⟨r, _, _, hr, i, er⟩
    · exact .refl ho'
    · exact er.keptV hi.v (by simp; exact (hi.v.mem o vo ho hs r hr).1) ho' (ne hn)
  | eraseKV o k v =>
    obtain ⟨⟨vo, ho, hs⟩, h⟩ := onVault_some h
    obtain ⟨res, h⟩ := map_fst h
    rcases eraseKV_vault hi ho hs h with ⟨rfl, _⟩ | ⟨c, _, _, ⟨rfl, _⟩ | ⟨r, l, _, _, hr, _, i, er⟩⟩
    · exact .refl ho'
    · exact .refl ho'
    · exact er.keptV hi.v (by simp; exact (hi.v.mem o vo ho hs r hr).1) ho' (ne hn)
  | eraseManyKV o k v n =>
    obtain ⟨⟨vo, ho, hs⟩, h⟩ := onVault_some h
    obtain ⟨res, h⟩ := map_fst h
    rcases eraseManyKV_vault hi ho hs h with ⟨rfl, _⟩ | ⟨c, _, hc, ⟨rfl, _⟩ | ⟨_, _, i, er⟩⟩
    · exact .refl ho'
    · exact .refl ho'
    · refine er.keptV hi.v ?_ ho' (ne hn)
      intro r hr
      exact (hi.v.mem o vo ho hs r ((equalRange_vault hi ho hs hc v).2 r (List.mem_of_mem_take hr)).1).1
  | dropData o =>
    obtain ⟨⟨vo, ho, hs⟩, h⟩ := onVault_some h
    exact (dropData_spec hi ho hs h).2.1.keptV hi.v (fun r hr => (hi.v.mem o vo ho hs r hr).1) ho' (ne hn)
  | dropVault o =>
    obtain ⟨⟨vo, ho, hs⟩, h⟩ := onVault_some h
    obtain ⟨_, _, hO, hR, _⟩ := dropVault_spec hi ho hs h
    refine Out.kept (own := own) (o := o) ⟨hO, fun r hr => hR r (fun hm => hr (hi.v.mem o vo ho hs r hm).1)⟩ hi.v ho' (ne hn)
  | getRecord o k v f =>
    obtain ⟨⟨vo, ho, hs⟩, h⟩ := onVault_some h
    obtain ⟨res, h⟩ := map_fst h
    rcases getRecord_spec hi ho hs h with ⟨rfl, _⟩ | ⟨c, _, _, st, _⟩
    · exact .refl ho'
    · exact st.rf.kept hi.v ho'
  | getRecords o k v n =>
    obtain ⟨⟨vo, ho, hs⟩, h⟩ := onVault_some h
    obtain ⟨res, h⟩ := map_fst h
    rcases getRecords_spec hi ho hs h with ⟨rfl, _⟩ | ⟨c, _, _, ⟨rfl, _⟩ | ⟨_, _, st, _⟩⟩
    · exact .refl ho'
    · exact .refl ho'
    · exact st.rf.kept hi.v ho'
  | getSorted o k rev n =>
    simp only [step] at h
    have h0 := h
    simp only [getSorted, Option.bind_eq_bind, Option.bind_eq_some_iff] at h0
    obtain ⟨oo, ho, _⟩ := h0
    exact (getSorted_spec hi ho h).1.rf.kept hi.v ho'
  | request o t k a b ia ib n pred s =>
    obtain ⟨⟨so, hs, his⟩, h⟩ := onSet_some h
    obtain ⟨res, h⟩ := map_fst h
    exact (request_sp hi.v hi.q.si hs his hg h).sf.kept hi.v ho'
  | requestTree o q s =>
    obtain ⟨⟨so, hs, his⟩, h⟩ := onSet_some h
    obtain ⟨res, h⟩ := map_fst h
    exact (requestTree_sp hi.v hi.q.si hs his hg h).sf.kept hi.v ho'
  | setAddRecord s f =>
    obtain ⟨⟨so, hs, his⟩, h⟩ := onSet_some h
    obtain ⟨res, h⟩ := map_fst h
    exact (setAddRecord_sq hi.r hi.q.si hs his h).sf.kept hi.v ho'
  | setRemoveRef s f =>
    obtain ⟨⟨so, hs, his⟩, h⟩ := onSet_some h
    obtain ⟨res, h⟩ := map_fst h
    simp only [setRemoveRef, hs, Option.bind_eq_bind, Option.bind_some] at h
    split at h
    · cases h; exact .refl ho'
    · exact (eraseRef_set hi.s hs his h).sf.kept hi.v ho'
  | setRemoveKV s k v =>
    obtain ⟨⟨so, hs, his⟩, h⟩ := onSet_some h
    obtain ⟨res, h⟩ := map_fst h
    simp only [setRemoveKV, hs, Option.bind_eq_bind, Option.bind_some] at h
    split at h
    · cases h; exact .refl ho'
    · exact (eraseKV_set hi.s hs his h).sf.kept hi.v ho'
  | setRemoveManyKV s k v n =>
    obtain ⟨⟨so, hs, his⟩, h⟩ := onSet_some h
    obtain ⟨res, h⟩ := map_fst h
    simp only [setRemoveManyKV, hs, Option.bind_eq_bind, Option.bind_some] at h
    split at h
    · cases h; exact .refl ho'
    · exact (eraseManyKV_set hi.s hs his h).sf.kept hi.v ho'
  | setClear s =>
    obtain ⟨⟨so, hs, his⟩, h⟩ := onSet_some h
    exact (setClear_sq (own := own) (home := home) hs his h).sf.kept hi.v ho'
  | setReset s =>
    obtain ⟨⟨so, hs, his⟩, h⟩ := onSet_some h
    exact (setReset_spec hs his hi.q.si h).1.sf.kept hi.v ho'
  | setGetRecord s k v f =>
    obtain ⟨⟨so, hs, his⟩, h⟩ := onSet_some h
    obtain ⟨res, h⟩ := map_fst h
    refine (setGetRecord_spec hi hs his ?_ h).1.rf.kept hi.v ho'
    intro ref r e p h1 h2 h3 h4
    rcases checkKey_cases so k (typeOf v) with ⟨_, hn⟩ | ⟨c, hc, ht, _⟩ | ⟨c, hc, ht, hok⟩
    · exact hg so ref r p hs h1 h2 h4 (by rw [hn]; simp)
    · exact hg so ref r p hs h1 h2 h4 (by rw [hc]; intro c' e; cases e; exact ht)
    · rw [hok] at h3; cases h3
  | setGetRecords s k v n =>
    obtain ⟨⟨so, hs, his⟩, h⟩ := onSet_some h
    obtain ⟨res, h⟩ := map_fst h
    exact (setGetRecords_spec hi hs his h).1.rf.kept hi.v ho'
  | setJoin s a =>
    obtain ⟨⟨so, hs, his⟩, h⟩ := onSet_some h
    obtain ⟨⟨ao, ha, hai⟩, h⟩ := onSet_some h
    obtain ⟨res, h⟩ := map_fst h
    exact (setJoin_sq hi.s hs his ha hai h).sf.kept hi.v ho'
  | setExclude s a =>
    obtain ⟨⟨so, hs, his⟩, h⟩ := onSet_some h
    obtain ⟨⟨ao, ha, hai⟩, h⟩ := onSet_some h
    obtain ⟨res, h⟩ := map_fst h
    exact (setExclude_sq hi.s hs his h).sf.kept hi.v ho'
  | setIntersect s a =>
    obtain ⟨⟨so, hs, his⟩, h⟩ := onSet_some h
    obtain ⟨⟨ao, ha, hai⟩, h⟩ := onSet_some h
    obtain ⟨res, h⟩ := map_fst h
    exact (setIntersect_sq hi.s hs his h).sf.kept hi.v ho'
  | setUnion a b s =>
    obtain ⟨⟨so, hs, his⟩, h⟩ := onSet_some h
    obtain ⟨⟨ao, ha, hai⟩, h⟩ := onSet_some h
    obtain ⟨⟨bo, hb, hbi⟩, h⟩ := onSet_some h
    obtain ⟨res, h⟩ := map_fst h
    exact (setUnion_sp hi.q.si hs his ha hai hb hbi (fun p hp => hg ao p ha hp) h).sf.kept hi.v ho'
  | setIntersection a b s =>
    obtain ⟨⟨so, hs, his⟩, h⟩ := onSet_some h
    obtain ⟨⟨ao, ha, hai⟩, h⟩ := onSet_some h
    obtain ⟨⟨bo, hb, hbi⟩, h⟩ := onSet_some h
    obtain ⟨res, h⟩ := map_fst h
    exact (setIntersection_sp hi.q.si hs his ha hai hb hbi (fun p hp => hg ao p ha hp) h).sf.kept hi.v ho'
  | setCopyNew a =>
    obtain ⟨⟨ao, ha, hai⟩, h⟩ := onSet_some h
    have hp := hg ao ha
    obtain ⟨_, i1, sf⟩ := setCopyNew_sf hi ha hai (by rw [hp]; simp) ((hi.s.sets a ao ha hai).par _ hp) h
    have k1 : Kept w ({ w with objs := mput w.objs w.nextO Obj.newSet, nextO := w.nextO + 1 } : World K V Ty) o' := .newObj hi.v _ ho'
    exact k1.trans (sf.kept i1.v k1.vault)
  | setMoveNew a =>
    obtain ⟨⟨ao, ha, hai⟩, h⟩ := onSet_some h
    have hp := hg ao ha
    obtain ⟨_, i1, sf⟩ := setMoveNew_sf hi ha hai (by rw [hp]; simp) ((hi.s.sets a ao ha hai).par _ hp) h
    have k1 : Kept w ({ w with objs := mput w.objs w.nextO Obj.newSet, nextO := w.nextO + 1 } : World K V Ty) o' := .newObj hi.v _ ho'
    exact k1.trans (sf.kept i1.v k1.vault)
  | setAssign s a =>
    obtain ⟨⟨so, hs, his⟩, h⟩ := onSet_some h
    obtain ⟨⟨ao, ha, hai⟩, h⟩ := onSet_some h
    exact (setAssign_spec hi.q.si hs his ha hai (fun p hp => hg ao p ha hp) h).1.sf.kept hi.v ho'
  | setMoveAssign s a =>
    obtain ⟨⟨so, hs, his⟩, h⟩ := onSet_some h
    obtain ⟨⟨ao, ha, hai⟩, h⟩ := onSet_some h
    exact (setMoveAssign_sp hi.q.si hs his ha hai (hg.2 so ao hs ha) (fun p hp => hg.1 ao p ha hp) h).sf.kept hi.v ho'
  | vaultCopyNew a =>
    obtain ⟨⟨ao, ha, hai⟩, h⟩ := onVault_some h
    have hlt := hi.v.ltO a ao ha
    have hne : w.nextO ≠ a := by omega
    have i1 : Inv own home (newVault w) := hi.newObj (.inl rfl)
    have k1 : Kept w (newVault w) o' := .newObj hi.v _ ho'
    have ha1 : (newVault w).getObj a = some ao := by
      show ({ w with objs := mput w.objs w.nextO Obj.newVault, nextO := w.nextO + 1 } : World K V Ty).getObj a = _
      rw [getObj_new, if_neg hne]; exact ha
    obtain ⟨vo, hvo, _⟩ := isVault_iff.mp ho'
    have := hi.v.ltO o' vo hvo
    exact k1.trans (copyInto_kept i1 hne (getObj_freshSelf _ _ _ _) rfl ha1 hai h k1.vault (by omega))
  | vaultAssign o a =>
    obtain ⟨⟨vo, ho, hs⟩, h⟩ := onVault_some h
    obtain ⟨⟨ao, ha, hai⟩, h⟩ := onVault_some h
    unfold vaultAssign at h
    split at h
    · cases h; exact .refl ho'
    · rename_i hne
      simp only [Option.bind_eq_bind, Option.bind_eq_some_iff] at h
      obtain ⟨w1, h1, h2⟩ := h
      obtain ⟨i1, ho1, hO, hR, _⟩ := dropVault_spec hi ho hs h1
      obtain ⟨ao1, ha1, e1, e2⟩ := (hO a (Ne.symm hne)).to ha
      have k1 : Kept w w1 o' := Out.kept (own := own) (o := o) ⟨hO, fun r hr => hR r (fun hm => hr (hi.v.mem o vo ho hs r hm).1)⟩ hi.v ho' (ne hn)
      exact k1.trans (copyInto_kept i1 hne ho1 rfl ha1 (e1.trans hai) h2 k1.vault (ne hn))
  | vaultMoveNew a =>
    obtain ⟨⟨ao, ha, hai⟩, h⟩ := onVault_some h
    have hlt := hi.v.ltO a ao ha
    have k1 : Kept w (newVault w) o' := .newObj hi.v _ ho'
    obtain ⟨vo, hvo, _⟩ := isVault_iff.mp ho'
    have := hi.v.ltO o' vo hvo
    exact k1.trans (moveInto_kept (hi.newObj (own := own) (home := home) (.inl rfl)).v h k1.vault (by omega) (ne hn))
  | vaultMoveAssign o a =>
    obtain ⟨⟨vo, ho, hs⟩, h⟩ := onVault_some h
    obtain ⟨⟨ao, ha, hai⟩, h⟩ := onVault_some h
    have h1 : o' ≠ o := fun e => hn (by rw [e]; exact List.mem_cons_self)
    have h2 : o' ≠ a := fun e => hn (by rw [e]; exact List.mem_cons_of_mem _ List.mem_cons_self)
    unfold vaultMoveAssign at h
    split at h
    · cases h; exact .refl ho'
    · simp only [Option.bind_eq_bind, Option.bind_eq_some_iff] at h
      obtain ⟨w1, hd, h3⟩ := h
      obtain ⟨i1, ho1, hO, hR, _⟩ := dropVault_spec hi ho hs hd
      have k1 : Kept w w1 o' := Out.kept (own := own) (o := o) ⟨hO, fun r hr => hR r (fun hm => hr (hi.v.mem o vo ho hs r hm).1)⟩ hi.v ho' h1
      exact k1.trans (moveInto_kept i1.v h3 k1.vault h1 h2)

end MVault.W
