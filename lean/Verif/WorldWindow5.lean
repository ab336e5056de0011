import Verif.WorldWindow4
import Verif.PropsTable
/-
Every careful call, in terms of windows.
-/
set_option linter.unusedSectionVars false
set_option linter.unusedSimpArgs false
set_option linter.unusedVariables false
namespace MVault.W
open MVault.Spec (Table Db Event Cmd SetVar State Call UpTo leaves arg)
variable {K V Ty : Type} [LinearOrder K] [LinearOrder V] [Typed V Ty] [DecidableEq Ty]
variable {own home : Nat → Nat}

/-- What the operation is in terms of vaults and sets. -/
def callOf (w : World K V Ty) : Op K V Ty → Call K V Ty
  | .newSet => .new w.nextO
  | .destroySet s => .gone s
  | .request o t k a b ia ib n pred s => .ask o k (condOf t a b ia ib) n pred s
  | .requestTree o q s => .tree o q s
  | .setAddRecord s f => .add s (through w f) (target w f)
  | .setClear s => .clear s
  | .setReset s => .reset s
  | .setCopyNew a => .copyNew w.nextO a
  | .setAssign s a => .assign s a
  | .setMoveAssign s a => .assign s a
  | .setGetRecord s k v _ => .find s k v
  | .setGetRecords s k v _ => .find s k v
  | op => .vault (eventOf w op)

/-! ### Calls on vaults -/

theorem getObj_old {w : World K V Ty} (hi : Inv own home w) {t : Nat} {x : Obj K V Ty} (h : w.getObj t = some x) : t ≠ w.nextO :=
  fun e => Nat.lt_irrefl _ (e ▸ hi.v.ltO t x h)

theorem nextO_none {w : World K V Ty} (hi : Inv own home w) : w.getObj w.nextO = none := by
  cases h : w.getObj w.nextO with
  | none => rfl
  | some x => exact absurd rfl (getObj_old hi h)

/-- A new vault. -/
theorem new_vault_sets {w w' : World K V Ty} (hi : Inv own home w) (h : ∀ t, t ≠ w.nextO → w'.getObj t = w.getObj t) (hv : isVault w' w.nextO = true) :
    varsOf w' = varsOf w := by
  obtain ⟨vo, h1, h2⟩ := isVault_iff.mp hv
  funext s
  by_cases e : s = w.nextO
  · subst e
    rw [varsOf_none (fun so a => by rw [h1] at a; cases a; exact h2), varsOf_none (fun so a => by rw [nextO_none hi] at a; cases a)]
  · cases hx : w.getObj s with
    | none => rw [varsOf_none (fun so a => by rw [h s e, hx] at a; cases a), varsOf_none (fun so a => by rw [hx] at a; cases a)]
    | some a =>
      cases ha : a.isSet with
      | true => rw [varsOf_some hx ha, varsOf_some (by rw [h s e]; exact hx) ha]
      | false => rw [varsOf_none (fun so b => by rw [h s e, hx] at b; cases b; exact ha), varsOf_none (fun so b => by rw [hx] at b; cases b; exact ha)]

/-- A new vault that takes the contents of vault `a`. -/
theorem moved_vault_sets {w w' : World K V Ty} (hi : Inv own home w) {a : Nat} (h : ∀ t, t ≠ w.nextO → t ≠ a → w'.getObj t = w.getObj t)
    (hv : isVault w' w.nextO = true) (ha : isVault w a = true) (ha' : isVault w' a = true) : varsOf w' = varsOf w := by
  obtain ⟨vo, h1, h2⟩ := isVault_iff.mp hv
  obtain ⟨ao, h3, h4⟩ := isVault_iff.mp ha
  obtain ⟨ao', h5, h6⟩ := isVault_iff.mp ha'
  funext s
  by_cases e : s = w.nextO
  · subst e
    rw [varsOf_none (fun so a => by rw [h1] at a; cases a; exact h2), varsOf_none (fun so a => by rw [nextO_none hi] at a; cases a)]
  by_cases e' : s = a
  · subst e'
    rw [varsOf_none (fun so a => by rw [h5] at a; cases a; exact h6), varsOf_none (fun so a => by rw [h3] at a; cases a; exact h4)]
  cases hx : w.getObj s with
  | none => rw [varsOf_none (fun so a => by rw [h s e e', hx] at a; cases a), varsOf_none (fun so a => by rw [hx] at a; cases a)]
  | some a =>
    cases ha : a.isSet with
    | true => rw [varsOf_some hx ha, varsOf_some (by rw [h s e e']; exact hx) ha]
    | false => rw [varsOf_none (fun so b => by rw [h s e e', hx] at b; cases b; exact ha), varsOf_none (fun so b => by rw [hx] at b; cases b; exact ha)]

theorem follows_objs {w w' : World K V Ty} {e : Event K V Ty} (h : w'.objs = w.objs) (he : ∀ x : SetVar K, x.follow (dbOf w) (dbOf w') e = x) : Follows w w' e :=
  follows_same (sets_objs h) he

theorem find_stays (db db' : Db K V Ty) (o : Nat) (k : K) (v : V) (x : SetVar K) : x.follow db db' (.on o (.find k v)) = x := by
  simp only [SetVar.follow]
  split
  · split <;> rfl
  · rfl

theorem destroyVault_noNew {env : Env} {w w' : World K V Ty} {o : Nat} {vo : Obj K V Ty} (hi : Inv own home w)
    (ho : w.getObj o = some vo) (hs : vo.isSet = false) (h : destroyVault env w o = some w') : NoNew w w' := by
  simp only [destroyVault, Option.bind_eq_bind, Option.bind_eq_some_iff] at h
  obtain ⟨w1, h1, h⟩ := h
  cases h
  obtain ⟨_, hobj, hobs, _⟩ := dropVault_spec hi ho hs h1
  have n1 : NoNew w w1 := .of hobs fun x hx => by rw [hobj] at hx; cases hx; exact hs
  intro s so' hso' hss
  rw [getObj_del] at hso'
  split at hso'
  · cases hso'
  · exact n1 s so' hso' hss

theorem vaultAssign_noNew {env : Env} {w w' : World K V Ty} {o a : Nat} {vo ao : Obj K V Ty} (hi : Inv own home w)
    (ho : w.getObj o = some vo) (hs : vo.isSet = false) (ha : w.getObj a = some ao) (has : ao.isSet = false) (hne : o ≠ a)
    (h : vaultAssign env w o a = some w') (hv : isVault w' o = true) : NoNew w w' := by
  obtain ⟨vo', g1, g2⟩ := isVault_iff.mp hv
  simp only [vaultAssign, if_neg hne, Option.bind_eq_bind, Option.bind_eq_some_iff] at h
  obtain ⟨w1, h1, h⟩ := h
  obtain ⟨hi1, hobj, hobs, _⟩ := dropVault_spec hi ho hs h1
  have n1 : NoNew w w1 := .of hobs fun x hx => by rw [hobj] at hx; cases hx; exact hs
  obtain ⟨ao1, ha1, ha2, _⟩ := (hobs a (Ne.symm hne)).to ha
  intro s so' hso' hss
  by_cases e : s = o
  · subst e; rw [g1] at hso'; cases hso'; rw [g2] at hss; cases hss
  · rw [copyInto_sets hi1 hobj ha1 (by rw [ha2]; exact has) hne rfl h s e] at hso'
    exact n1 s so' hso' hss

theorem vaultMoveAssign_noNew {env : Env} {w w' : World K V Ty} {o a : Nat} {vo ao : Obj K V Ty} (hi : Inv own home w)
    (ho : w.getObj o = some vo) (hs : vo.isSet = false) (ha : w.getObj a = some ao) (has : ao.isSet = false) (hne : o ≠ a)
    (h : vaultMoveAssign env w o a = some w') : NoNew w w' := by
  simp only [vaultMoveAssign, if_neg hne, Option.bind_eq_bind, Option.bind_eq_some_iff] at h
  obtain ⟨w1, h1, h⟩ := h
  obtain ⟨hi1, hobj, hobs, _⟩ := dropVault_spec hi ho hs h1
  have n1 : NoNew w w1 := .of hobs fun x hx => by rw [hobj] at hx; cases hx; exact hs
  obtain ⟨ao1, ha1, ha2, _⟩ := (hobs a (Ne.symm hne)).to ha
  simp only [moveInto, ha1, hobj, Option.bind_eq_bind, Option.bind_some, Option.some.injEq] at h
  subst h
  intro s so' hso' hss
  rw [getObj_putObj] at hso'
  split at hso'
  · cases hso'; rw [show ao1.isSet = true from hss] at ha2; rw [has] at ha2; cases ha2
  · rw [getObj_putObj] at hso'
    split at hso'
    · cases hso'; rw [show vo.isSet = true from hss] at hs; cases hs
    · exact n1 s so' hso' hss

/-- What the careful calls on vaults and references make of the sets. -/
theorem vault_follows {env : Env} {w w' : World K V Ty} {op : Op K V Ty} {ans : Answer K} (hi : Inv own home w) (hd : Deep w) (hg : Careful home w op)
    (h : outcome env w op = some (w', ans)) (hdb : (dbOf w).Step (eventOf w op) ans (dbOf w')) {e : Event K V Ty} (he : callOf w op = .vault e) : e = eventOf w op ∧ Follows w w' e := by
  have hstep : step env w op = some w' := by rw [← outcome_step, h]; rfl
  obtain ⟨own', hi'⟩ := step_inv hi hg.1 hstep
  obtain ⟨_, e', hd'⟩ := step_deep (env := env) hi hd hg
  rw [hstep] at e'; cases e'
  obtain ⟨hO, hA⟩ := hg
  cases op <;> simp only [Allowed] at hA <;> simp only [callOf, Call.vault.injEq, reduceCtorEq] at he <;> subst he <;> refine ⟨rfl, ?_⟩ <;>
    simp only [outcome] at h
  case newVault =>
    cases h
    refine follows_same (new_vault_sets hi (fun t ht => ?_) ?_) fun x => rfl
    · rw [newVault, getObj_new, if_neg (Ne.symm ht)]
    · exact vault_of_obj (by rw [newVault, getObj_new, if_pos rfl]) rfl
  case newRef => cases h; exact follows_objs rfl fun x => rfl
  case destroyVault o =>
    obtain ⟨vo, h1, h2⟩ := isVault_iff.mp hA
    rw [onVault, if_pos hA] at h
    obtain ⟨w1, e, h⟩ := Option.map_eq_some_iff.mp h
    cases h
    exact (destroyVault_sets hi hd h1 h2 e).map hi' hd' (destroyVault_noNew hi h1 h2 e)
  case refCopy f g =>
    obtain ⟨a, ha'⟩ := get_ref hA.1
    obtain ⟨b, hb⟩ := get_ref hA.2
    obtain ⟨w1, e, st, _⟩ := refCopy_ok hi.r ha' hb
    rw [e] at h; cases h
    exact follows_objs st.rf.objs fun x => rfl
  case refMove f g =>
    obtain ⟨a, ha'⟩ := get_ref hA.1
    obtain ⟨b, hb⟩ := get_ref hA.2
    obtain ⟨w1, e, st, _⟩ := refMove_ok hi.r ha' hb
    rw [e] at h; cases h
    exact follows_objs st.rf.objs fun x => rfl
  case refReset f =>
    obtain ⟨a, ha'⟩ := get_ref hA
    obtain ⟨w1, e, st, _⟩ := refReset_ok hi.r ha'
    rw [e] at h; cases h
    exact follows_objs st.rf.objs fun x => rfl
  case refSetData f k v =>
    obtain ⟨⟨w1, r1⟩, h1, h⟩ := Option.map_eq_some_iff.mp h
    cases h
    by_cases hx : ∃ o, through w f = some o ∧ isVault w o = true
    · obtain ⟨o, ht, ho⟩ := hx
      simp only [eventOf, ht, ho, if_true]
      exact refSetData_follows hi hd ho ht h1
    · obtain ⟨ref, h2, h3⟩ := hA
      have hp : ref.ptr = none := by
        rcases h3 with h3 | ⟨o, h3, h4⟩
        · exact h3
        · exact absurd ⟨o, by simp [through, h2, h3], h4⟩ hx
      have e1 : eventOf w (.refSetData f k v) = .other := by
        simp only [eventOf]
        split
        · rename_i o ht
          split
          · rename_i ho; exact absurd ⟨o, ht, ho⟩ hx
          · rfl
        · rfl
      simp only [refSetData, h2, hp, Option.bind_eq_bind, Option.bind_some, Option.some.injEq, Prod.mk.injEq] at h1
      rw [e1, ← h1.1]
      exact follows_objs rfl fun x => rfl
  case refSetDataMany f ps =>
    obtain ⟨⟨w1, r1⟩, h1, h⟩ := Option.map_eq_some_iff.mp h
    cases h
    obtain ⟨ref, o, h2, h3, h4⟩ := hA
    have ht : through w f = some o := by simp [through, h2, h3]
    simp only [eventOf, ht, h4, if_true]
    exact refSetDataMany_follows hi hd h4 ht h1
  case addKey o k d =>
    obtain ⟨vo, h1, h2⟩ := isVault_iff.mp hA
    rw [onVault, if_pos hA] at h
    obtain ⟨⟨w1, r1⟩, e, h⟩ := Option.map_eq_some_iff.mp h
    cases h; exact addKey_follows hi hd h1 h2 e
  case addUniqueKey o k t n f =>
    obtain ⟨vo, h1, h2⟩ := isVault_iff.mp hA.1
    rw [onVault, if_pos hA.1] at h
    obtain ⟨⟨w1, r1⟩, e, h⟩ := Option.map_eq_some_iff.mp h
    cases h
    refine addUniqueKey_follows hi hd h1 h2 ?_ e
    rcases hA.2 with h | h | h
    · exact .inl h
    · exact .inr (.inl h)
    · exact .inr (.inr (h vo h1))
  case updateKey o k d =>
    obtain ⟨vo, h1, h2⟩ := isVault_iff.mp hA
    rw [onVault, if_pos hA] at h
    obtain ⟨⟨w1, r1⟩, e, h⟩ := Option.map_eq_some_iff.mp h
    cases h; exact updateKey_follows hi h1 h2 e
  case removeKey o k =>
    obtain ⟨vo, h1, h2⟩ := isVault_iff.mp hA
    rw [onVault, if_pos hA] at h
    obtain ⟨⟨w1, r1⟩, e, h⟩ := Option.map_eq_some_iff.mp h
    cases h; exact removeKey_follows hi hd h1 h2 e
  case createRecord o f ps =>
    obtain ⟨vo, h1, h2⟩ := isVault_iff.mp hA.1
    rw [onVault, if_pos hA.1] at h
    obtain ⟨⟨w1, r1⟩, e, h⟩ := Option.map_eq_some_iff.mp h
    cases h; exact createRecord_follows hi h1 h2 e
  case createRow o ps =>
    obtain ⟨vo, h1, h2⟩ := isVault_iff.mp hA
    rw [onVault, if_pos hA] at h
    obtain ⟨⟨w1, r1⟩, e, h⟩ := Option.map_eq_some_iff.mp h
    cases h; exact createRow_follows hi h1 h2 e
  case eraseRef o f =>
    obtain ⟨vo, h1, h2⟩ := isVault_iff.mp hA.1
    rw [onVault, if_pos hA.1] at h
    obtain ⟨⟨w1, r1⟩, e, h⟩ := Option.map_eq_some_iff.mp h
    cases h; exact (eraseRef_gone hi hd h1 h2 e).follows hi hd hd' h1 h2 fun _ => rfl
  case eraseKV o k v =>
    obtain ⟨vo, h1, h2⟩ := isVault_iff.mp hA
    rw [onVault, if_pos hA] at h
    obtain ⟨⟨w1, r1⟩, e, h⟩ := Option.map_eq_some_iff.mp h
    cases h; exact (eraseKV_gone hi hd h1 h2 e).follows hi hd hd' h1 h2 fun _ => rfl
  case eraseManyKV o k v n =>
    obtain ⟨vo, h1, h2⟩ := isVault_iff.mp hA
    rw [onVault, if_pos hA] at h
    obtain ⟨⟨w1, r1⟩, e, h⟩ := Option.map_eq_some_iff.mp h
    cases h; exact (eraseManyKV_gone hi hd h1 h2 e).follows hi hd hd' h1 h2 fun _ => rfl
  case dropData o =>
    obtain ⟨vo, h1, h2⟩ := isVault_iff.mp hA
    rw [onVault, if_pos hA] at h
    obtain ⟨w1, e, h⟩ := Option.map_eq_some_iff.mp h
    cases h; exact dropData_follows hi hd h1 h2 e
  case dropVault o =>
    obtain ⟨vo, h1, h2⟩ := isVault_iff.mp hA
    rw [onVault, if_pos hA] at h
    obtain ⟨w1, e, h⟩ := Option.map_eq_some_iff.mp h
    cases h; exact dropVault_follows hi hd h1 h2 e
  case getRecord o k v f =>
    obtain ⟨vo, h1, h2⟩ := isVault_iff.mp hA.1
    obtain ⟨b, hb⟩ := get_ref hA.2
    rw [onVault, if_pos hA.1] at h
    obtain ⟨⟨w1, r1⟩, e, h⟩ := Option.map_eq_some_iff.mp h
    cases h
    obtain ⟨w2, res, e2, rf, _⟩ := getRecord_deep (env := env) (k := k) (v := v) hi hd h1 hb
    rw [e] at e2; cases e2
    exact follows_objs rf.objs fun x => find_stays ..
  case getRecords o k v n =>
    obtain ⟨vo, h1, h2⟩ := isVault_iff.mp hA
    rw [onVault, if_pos hA] at h
    obtain ⟨⟨w1, r1⟩, e, h⟩ := Option.map_eq_some_iff.mp h
    cases h
    obtain ⟨w2, res, e2, rf⟩ := getRecords_deep (env := env) (k := k) (v := v) (n := n) hi hd h1
    rw [e] at e2; cases e2
    exact follows_objs rf.objs fun x => find_stays ..
  case getSorted o k rev n =>
    obtain ⟨vo, h1⟩ := liveObj hA
    obtain ⟨w2, e2, rf⟩ := getSorted_deep (k := k) (rev := rev) (n := n) hi hd h1
    rw [e2] at h; cases h
    exact follows_objs rf.objs fun x => rfl
  case vaultCopyNew a =>
    obtain ⟨vo, h1, h2⟩ := isVault_iff.mp hA
    rw [onVault, if_pos hA] at h
    obtain ⟨w1, e, h⟩ := Option.map_eq_some_iff.mp h
    cases h
    have hv' : isVault w' w.nextO = true := by
      obtain ⟨t, t', _, _, _, x⟩ := hdb
      have := congrFun x w.nextO
      cases hv : isVault w' w.nextO with
      | true => rfl
      | false => rw [dbOf_none hv] at this; simp [Spec.Db.put] at this
    exact follows_same (new_vault_sets hi (vaultCopyNew_sets hi h1 h2 e) hv') fun x => rfl
  case vaultAssign o a =>
    obtain ⟨vo, h1, h2⟩ := isVault_iff.mp hA.1
    obtain ⟨ao, h3, h4⟩ := isVault_iff.mp hA.2
    rw [onVault, if_pos hA.1, onVault, if_pos hA.2] at h
    obtain ⟨w1, e, h⟩ := Option.map_eq_some_iff.mp h
    cases h
    by_cases hoa : o = a
    · subst hoa
      simp only [vaultAssign, if_true, Option.some.injEq] at e
      refine follows_same (sets_objs (by rw [e])) fun x => ?_
      simp [eventOf, SetVar.follow]
    · have hv' : isVault w' o = true := by
        rcases hdb with ⟨x, _⟩ | ⟨t, t', _, _, _, _, x⟩
        · exact absurd x hoa
        · have := congrFun x o
          cases hv : isVault w' o with
          | true => rfl
          | false => rw [dbOf_none hv] at this; simp [Spec.Db.put] at this
      have hm := (vaultAssign_sets hi hd h1 h2 h3 h4 hoa e).map hi' hd' (vaultAssign_noNew hi h1 h2 h3 h4 hoa e hv')
      intro s
      rw [hm]
      congr 1
      funext x
      simp [eventOf, SetVar.follow, hoa]
  case vaultMoveNew a =>
    obtain ⟨vo, h1, h2⟩ := isVault_iff.mp hA
    rw [onVault, if_pos hA] at h
    obtain ⟨w1, e, h⟩ := Option.map_eq_some_iff.mp h
    cases h
    obtain ⟨w2, e2, _, k2⟩ := vaultMoveNew_deep hi hd h1 h2 hO
    rw [e] at e2; cases e2
    obtain ⟨t, g1, g2, x⟩ := hdb
    have hne : a ≠ w.nextO := Nat.ne_of_lt (hi.v.ltO a vo h1)
    have hv' : isVault w' w.nextO = true := by
      have := congrFun x w.nextO
      cases hv : isVault w' w.nextO with
      | true => rfl
      | false => rw [dbOf_none hv] at this; simp [Spec.Db.put, hne, Ne.symm hne] at this
    have hva : isVault w' a = true := by
      have := congrFun x a
      cases hv : isVault w' a with
      | true => rfl
      | false => rw [dbOf_none hv] at this; simp [Spec.Db.put] at this
    exact follows_same (moved_vault_sets hi k2 hv' hA hva) fun x => rfl
  case vaultMoveAssign o a =>
    obtain ⟨vo, h1, h2⟩ := isVault_iff.mp hA.1
    obtain ⟨ao, h3, h4⟩ := isVault_iff.mp hA.2
    rw [onVault, if_pos hA.1, onVault, if_pos hA.2] at h
    obtain ⟨w1, e, h⟩ := Option.map_eq_some_iff.mp h
    cases h
    by_cases hoa : o = a
    · subst hoa
      simp only [vaultMoveAssign, if_true, Option.some.injEq] at e
      refine follows_same (sets_objs (by rw [e])) fun x => ?_
      simp [eventOf, SetVar.follow]
    · obtain ⟨w2, e2, _, k2⟩ := vaultMoveAssign_deep (env := env) hi hd h1 h2 h3 h4 hoa (hO.resolve_left hoa)
      rw [e] at e2; cases e2
      have hm := k2.map hi' hd' (vaultMoveAssign_noNew hi h1 h2 h3 h4 hoa e)
      intro s
      rw [hm]
      congr 1
      funext x
      simp [eventOf, SetVar.follow, hoa]

end MVault.W
