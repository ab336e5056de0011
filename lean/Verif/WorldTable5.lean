import Verif.WorldTable4
/-
The step on the table, call by call: copies and moves, and all calls together.
-/
set_option linter.unusedSectionVars false
set_option linter.unusedSimpArgs false
set_option linter.unusedVariables false
namespace MVault.W
open MVault.Spec (Table Db Event Cmd)
variable {K V Ty : Type} [LinearOrder K] [LinearOrder V] [Typed V Ty] [DecidableEq Ty]
variable {home : Nat → Nat}

theorem fresh_ge {w : World K V Ty} (hai : AI w) (r : Nat) (hr : w.nextR ≤ r) : (dbOf w).fresh r := by
  rw [dbOf_row]
  intro o ho hm
  obtain ⟨vo, hvo, hs⟩ := isVault_iff.mp ho
  rw [members_eq hvo] at hm
  have := (hai.obj o vo hvo).recs r hm
  omega

theorem newVault_old {w : World K V Ty} {o : Nat} (h : o ≠ w.nextO) : (newVault w).getObj o = w.getObj o := by
  unfold newVault World.getObj; simp only [mget_mput]; rw [if_neg (Ne.symm h)]

/-- The table of a vault depends on its object and the records only. -/
theorem asTable_same {w w' : World K V Ty} {o o' : Nat} {x y : Obj K V Ty} (h : w.getObj o = some x) (h' : w'.getObj o' = some y) (h1 : y.keysOrder = x.keysOrder)
    (h2 : y.uniq = x.uniq) (h3 : y.cols = x.cols) (h4 : y.tmpl = x.tmpl) (h5 : y.recs = x.recs) (hv : ∀ r ∈ x.recs, ∀ k, value w' r k = value w r k) :
    asTable w' o' = asTable w o := by
  apply Table.ext
  · simp only [asTable, getKeys_eq h, getKeys_eq h', h1]
  · simp only [asTable, getUniqueKeys_eq h, getUniqueKeys_eq h', h2]
  · funext k; simp only [asTable, getKeyType_eq h, getKeyType_eq h', h3]
  · funext k; simp only [asTable, getDefault_eq h, getDefault_eq h', h4]
  · funext k; simp only [asTable, getUniqueKeys_eq h, getUniqueKeys_eq h', h2, keyDefault_eq h, keyDefault_eq h', h3]
  · simp only [asTable, members_eq h, members_eq h', h5]
  · funext r k
    simp only [asTable, members_eq h, members_eq h', h5]
    split
    · exact hv r ‹_› k
    · rfl
  · funext b k r
    simp only [asTable, Listed, ordIndex, hashIndex, h, h', h3]

theorem vaultCopyNew_table {env : Env} {w w' : World K V Ty} (hw : HReach Ordinary home w) {a : Nat} (ha : isVault w a = true)
    (hg : Ordinary home w (.vaultCopyNew a)) (h : vaultCopyNew env w a = some w') :
    isVault w' w.nextO = true ∧ (asTable w a).Copy (dbOf w).fresh (asTable w' w.nextO) := by
  have hai := reach_ai hw.any
  obtain ⟨ao, hao, has⟩ := isVault_iff.mp ha
  have hne : a ≠ w.nextO := Nat.ne_of_lt (hai.objB a ao hao)
  obtain ⟨own', hi'⟩ := reach_inv (HReach.step w w' env (.vaultCopyNew a) hw hg (by simp [step, onVault, ha, h]))
  have hao1 := (newVault_old hne).trans hao
  obtain ⟨h1, h2⟩ := copyInto_table (own := fun _ => 0) (newVault_st (t := [w.nextO]) hai (by simp)).ai (reach_ni hw.any a ao hao).1 hi' (Ne.symm hne) (newVault_obj w) rfl
    hao1 has (hg ao hao) rfl rfl rfl h (fresh := (dbOf w).fresh) (fun r hr => fresh_ge hai r hr)
  refine ⟨h1, ?_⟩
  rw [asTable_same (w := w) (o := a) hao hao1 rfl rfl rfl rfl rfl (fun r _ k => rfl)] at h2
  exact h2

theorem vaultAssign_table {env : Env} {w w' : World K V Ty} (hw : HReach Ordinary home w) {o a : Nat} (ho : isVault w o = true) (ha : isVault w a = true)
    (hne : o ≠ a) (hg : Ordinary home w (.vaultAssign o a)) (h : vaultAssign env w o a = some w') :
    isVault w' o = true ∧ (asTable w a).Copy (dbOf w).fresh (asTable w' o) := by
  have hai := reach_ai hw.any
  obtain ⟨own, hi⟩ := reach_inv hw
  obtain ⟨ao, hao, has⟩ := isVault_iff.mp ha
  obtain ⟨vo, hvo, hvs⟩ := isVault_iff.mp ho
  obtain ⟨own', hi'⟩ := reach_inv (HReach.step w w' env (.vaultAssign o a) hw hg (by simp [step, onVault, ha, ho, h]))
  have hu := hg.resolve_left hne ao hao
  rw [vaultAssign, if_neg hne] at h
  simp only [Option.bind_eq_bind, Option.bind_eq_some_iff] at h
  obtain ⟨w1, h1, h2⟩ := h
  obtain ⟨i1, ho1, hO1, _, _, _, _, hnR1, _⟩ := dropVault_spec hi hvo hvs h1
  have hs1 : step env w (.dropVault o) = some w1 := by simp [step, onVault, ho, h1]
  have hai1 : AI w1 := (step_any (env := env) (op := .dropVault o) hai hs1).ai
  have kp := step_kept hi (show Ordinary home w (.dropVault o) from trivial) hs1 ha (by simp [touched]; exact fun e => hne e.symm)
  obtain ⟨y, hy, _, e⟩ := (hO1 a (Ne.symm hne)).to hao
  have e := e has
  obtain ⟨h3, h4⟩ := copyInto_table (own := fun _ => 0) hai1 (by rw [e]; exact (reach_ni hw.any a ao hao).1) hi' hne ho1 hvs hy (by rw [e]; exact has) (by rw [e]; exact hu)
    rfl rfl rfl h2 (fresh := (dbOf w).fresh) (fun r hr => fresh_ge hai r (by rw [← hnR1]; exact hr))
  exact ⟨h3, by rw [kp.table] at h4; exact h4⟩

theorem moveInto_table {w w' : World K V Ty} {o a : Nat} {vo ao : Obj K V Ty} (hne : o ≠ a) (ho : w.getObj o = some vo) (hvs : vo.isSet = false)
    (ha : w.getObj a = some ao) (has : ao.isSet = false) (h : moveInto w o a = some w') :
    isVault w' o = true ∧ isVault w' a = true ∧ asTable w' o = asTable w a ∧ asTable w' a = .empty := by
  simp only [moveInto, ha, ho, Option.bind_eq_bind, Option.bind_some, Option.some.injEq] at h
  subst h
  have h1 : ((w.putObj o { vo with tmpl := ao.tmpl, cols := ao.cols, keysOrder := ao.keysOrder, uniq := ao.uniq, recs := ao.recs, sets := ao.sets }).putObj a
      { ao with tmpl := [], cols := [], keysOrder := [], uniq := [], recs := [], sets := [] }).getObj o =
      some { vo with tmpl := ao.tmpl, cols := ao.cols, keysOrder := ao.keysOrder, uniq := ao.uniq, recs := ao.recs, sets := ao.sets } := by
    rw [getObj_putObj, if_neg (Ne.symm hne), getObj_putObj_self]
  exact ⟨isVault_iff.mpr ⟨_, h1, hvs⟩, isVault_iff.mpr ⟨_, getObj_putObj_self _ _ _, has⟩,
    asTable_same ha h1 rfl rfl rfl rfl rfl (fun r _ k => rfl), emptied_table (getObj_putObj_self _ _ _) rfl rfl rfl rfl rfl⟩

theorem vaultMoveNew_table {w w' : World K V Ty} (hw : HReach Ordinary home w) {a : Nat} (ha : isVault w a = true) (h : vaultMoveNew w a = some w') :
    isVault w' w.nextO = true ∧ isVault w' a = true ∧ asTable w' w.nextO = asTable w a ∧ asTable w' a = .empty := by
  have hai := reach_ai hw.any
  obtain ⟨ao, hao, has⟩ := isVault_iff.mp ha
  have hne : a ≠ w.nextO := Nat.ne_of_lt (hai.objB a ao hao)
  have hao1 := (newVault_old hne).trans hao
  obtain ⟨h1, h2, h3, h4⟩ := moveInto_table (Ne.symm hne) (newVault_obj w) rfl hao1 has h
  exact ⟨h1, h2, h3.trans (asTable_same hao hao1 rfl rfl rfl rfl rfl (fun r _ k => rfl)), h4⟩

theorem vaultMoveAssign_table {env : Env} {w w' : World K V Ty} (hw : HReach Ordinary home w) {o a : Nat} (ho : isVault w o = true) (ha : isVault w a = true)
    (hne : o ≠ a) (h : vaultMoveAssign env w o a = some w') :
    isVault w' o = true ∧ isVault w' a = true ∧ asTable w' o = asTable w a ∧ asTable w' a = .empty := by
  have hai := reach_ai hw.any
  obtain ⟨own, hi⟩ := reach_inv hw
  obtain ⟨ao, hao, has⟩ := isVault_iff.mp ha
  obtain ⟨vo, hvo, hvs⟩ := isVault_iff.mp ho
  rw [vaultMoveAssign, if_neg hne] at h
  simp only [Option.bind_eq_bind, Option.bind_eq_some_iff] at h
  obtain ⟨w1, h1, h2⟩ := h
  obtain ⟨i1, ho1, hO1, _, _, _, _, hnR1, _⟩ := dropVault_spec hi hvo hvs h1
  have hs1 : step env w (.dropVault o) = some w1 := by simp [step, onVault, ho, h1]
  have kp := step_kept hi (show Ordinary home w (.dropVault o) from trivial) hs1 ha (by simp [touched]; exact fun e => hne e.symm)
  obtain ⟨y, hy, _, e⟩ := (hO1 a (Ne.symm hne)).to hao
  have e := e has
  obtain ⟨h3, h4, h5, h6⟩ := moveInto_table hne ho1 hvs hy (by rw [e]; exact has) h2
  exact ⟨h3, h4, h5.trans kp.table, h6⟩

/-- A call that concerns no vault. -/
theorem db_other {own : Nat → Nat} {env : Env} {w w' : World K V Ty} {op : Op K V Ty} (hi : Inv own home w) (hai : AI w) (hg : Ordinary home w op)
    (h : step env w op = some w') (h1 : ∀ o ∈ touched w op, isVault w o = false) (h2 : keyOps w op = []) : dbOf w' = dbOf w := by
  funext o
  by_cases ho : o ∈ touched w op
  · have hv := h1 o ho
    rw [dbOf_none hv]
    apply dbOf_none
    cases ho' : isVault w' o with
    | false => rfl
    | true =>
      obtain ⟨vo, a, b⟩ := isVault_iff.mp ho'
      have := isVault_iff.mpr ((step_any hai h).before o vo a b (by rw [h2]; simp))
      rw [hv] at this; cases this
  · exact db_rest hi hai hg h ho (by rw [h2]; simp)

/-- Every call is a step of the specification. -/
theorem outcome_db {env : Env} {w w' : World K V Ty} {op : Op K V Ty} {ans : Answer K} (hw : HReach Ordinary home w) (hg : Ordinary home w op)
    (h : outcome env w op = some (w', ans)) : (dbOf w).Step (eventOf w op) ans (dbOf w') := by
  have hai := reach_ai hw.any
  obtain ⟨own, hi⟩ := reach_inv hw
  have hs : step env w op = some w' := by rw [← outcome_step, h]; rfl
  have hnone : isVault w w.nextO = false := by
    cases hx : w.getObj w.nextO with
    | none => simp [isVault, hx]
    | some x => exact absurd (hai.objB _ x hx) (by omega)
  have hothers : ∀ {e : Event K V Ty}, e = .other → (∀ o ∈ touched w op, isVault w o = false) → keyOps w op = [] → (dbOf w).Step e ans (dbOf w') := by
    rintro _ rfl h1 h2; exact db_other hi hai hg hs h1 h2
  have hon : ∀ {o : Nat} {c : Cmd K V Ty}, (∀ o', o' ≠ o → o' ∉ touched w op ∧ o' ∉ keyOps w op) → isVault w o = true →
      (isVault w' o = true ∧ (asTable w o).Step (dbOf w).fresh c ans (asTable w' o)) → (dbOf w).Step (.on o c) ans (dbOf w') :=
    fun h1 h2 h3 => db_on hi hai hg hs h1 h2 h3.1 h3.2
  cases op
  case newVault =>
    cases h
    refine ⟨dbOf_none hnone, ?_⟩
    rw [db_one hi hai hg hs (o := w.nextO) (by simp [touched, keyOps]) (isVault_iff.mpr ⟨_, newVault_obj w, rfl⟩)]
    rw [emptied_table (newVault_obj w) rfl rfl rfl rfl rfl]
  case destroyVault o =>
    obtain ⟨⟨vo, hvo, hvs⟩, h1⟩ := onVault_some hs
    refine ⟨⟨_, dbOf_vault (isVault_iff.mpr ⟨vo, hvo, hvs⟩)⟩, ?_⟩
    funext o'
    unfold Db.put
    split
    · rename_i e; subst e
      apply dbOf_none
      simp only [destroyVault, Option.bind_eq_bind, Option.bind_eq_some_iff, Option.some.injEq] at h1
      obtain ⟨w1, h1, rfl⟩ := h1
      simp [isVault, World.getObj, mget_mdel]
    · rename_i e; exact db_rest hi hai hg hs (by simpa [touched] using e) (by simpa [keyOps] using e)
  case addKey o k d =>
    obtain ⟨⟨vo, hvo, hvs⟩, h1⟩ := onVault_some h
    have ho := isVault_iff.mpr ⟨vo, hvo, hvs⟩
    obtain ⟨⟨_, res⟩, h3, h2⟩ := Option.map_eq_some_iff.mp h1
    cases h2
    exact hon (by intro o' e'; simp [touched, keyOps, e']) ho (addKey_table hw ho h3)
  case addUniqueKey o k t n f =>
    obtain ⟨⟨vo, hvo, hvs⟩, h1⟩ := onVault_some h
    have ho := isVault_iff.mpr ⟨vo, hvo, hvs⟩
    obtain ⟨⟨_, res⟩, h3, h2⟩ := Option.map_eq_some_iff.mp h1
    cases h2
    exact hon (by intro o' e'; simp [touched, keyOps, e']) ho (addUniqueKey_table hw ho h3)
  case updateKey o k d =>
    obtain ⟨⟨vo, hvo, hvs⟩, h1⟩ := onVault_some h
    have ho := isVault_iff.mpr ⟨vo, hvo, hvs⟩
    obtain ⟨⟨_, res⟩, h3, h2⟩ := Option.map_eq_some_iff.mp h1
    cases h2
    exact hon (by intro o' e'; simp [touched, keyOps, e']) ho (updateKey_table hw ho h3)
  case removeKey o k =>
    obtain ⟨⟨vo, hvo, hvs⟩, h1⟩ := onVault_some h
    have ho := isVault_iff.mpr ⟨vo, hvo, hvs⟩
    obtain ⟨⟨_, res⟩, h3, h2⟩ := Option.map_eq_some_iff.mp h1
    cases h2
    exact hon (by intro o' e'; simp [touched, keyOps, e']) ho (removeKey_table hw ho h3)
  case createRecord o f ps =>
    obtain ⟨⟨vo, hvo, hvs⟩, h1⟩ := onVault_some h
    have ho := isVault_iff.mpr ⟨vo, hvo, hvs⟩
    obtain ⟨⟨_, res⟩, h3, h2⟩ := Option.map_eq_some_iff.mp h1
    cases h2
    exact hon (by intro o' e'; simp [touched, keyOps, e']) ho (createRecord_table (env := env) hw ho h3)
  case createRow o ps =>
    obtain ⟨⟨vo, hvo, hvs⟩, h1⟩ := onVault_some h
    have ho := isVault_iff.mpr ⟨vo, hvo, hvs⟩
    obtain ⟨⟨_, res⟩, h3, h2⟩ := Option.map_eq_some_iff.mp h1
    cases h2
    exact hon (by intro o' e'; simp [touched, keyOps, e']) ho (createRow_table (env := env) hw ho h3)
  case refSetData f k v =>
    obtain ⟨⟨_, res⟩, h1, h2⟩ := Option.map_eq_some_iff.mp h
    cases h2
    cases ht : through w f with
    | none => exact hothers (by simp [eventOf, ht]) (by simp [touched, ht]) rfl
    | some o =>
      cases ho : isVault w o with
      | false => exact hothers (by simp [eventOf, ht, ho]) (by simp [touched, ht, ho]) rfl
      | true =>
        have e : eventOf w (.refSetData f k v) = .on o (.set (target w f) k v) := by simp [eventOf, ht, ho]
        rw [e]
        obtain ⟨a1, _, a3, a4⟩ := refSetData_table hi ho ht h1
        exact hon (by intro o' e'; simp [touched, ht, keyOps, e', Ne.symm e']) ho ⟨a1, by rw [← a3], a4⟩
  case refSetDataMany f ps =>
    obtain ⟨⟨_, res⟩, h1, h2⟩ := Option.map_eq_some_iff.mp h
    cases h2
    cases ht : through w f with
    | none => exact hothers (by simp [eventOf, ht]) (by simp [touched, ht]) rfl
    | some o =>
      cases ho : isVault w o with
      | false => exact hothers (by simp [eventOf, ht, ho]) (by simp [touched, ht, ho]) rfl
      | true =>
        have e : eventOf w (.refSetDataMany f ps) = .on o (.setMany (target w f) ps) := by simp [eventOf, ht, ho]
        rw [e]
        simp only [refSetDataMany, Option.bind_eq_bind, Option.bind_eq_some_iff] at h1
        obtain ⟨_, _, _, _, _, _, h1⟩ := h1
        obtain ⟨a1, a3, a4⟩ := refSetDataLoop_table ps ⟨_, hi⟩ ho ht rfl h1
        exact hon (by intro o' e'; simp [touched, ht, keyOps, e', Ne.symm e']) ho ⟨a1, by rw [← a3], a4⟩
  case eraseRef o f =>
    obtain ⟨⟨vo, hvo, hvs⟩, h1⟩ := onVault_some h
    have ho := isVault_iff.mpr ⟨vo, hvo, hvs⟩
    obtain ⟨⟨_, res⟩, h3, h2⟩ := Option.map_eq_some_iff.mp h1
    cases h2
    exact hon (by intro o' e'; simp [touched, keyOps, e']) ho (eraseRef_table hw ho h3)
  case eraseKV o k v =>
    obtain ⟨⟨vo, hvo, hvs⟩, h1⟩ := onVault_some h
    have ho := isVault_iff.mpr ⟨vo, hvo, hvs⟩
    obtain ⟨⟨_, res⟩, h3, h2⟩ := Option.map_eq_some_iff.mp h1
    cases h2
    exact hon (by intro o' e'; simp [touched, keyOps, e']) ho (eraseKV_table hw ho h3)
  case eraseManyKV o k v n =>
    obtain ⟨⟨vo, hvo, hvs⟩, h1⟩ := onVault_some h
    have ho := isVault_iff.mpr ⟨vo, hvo, hvs⟩
    obtain ⟨⟨_, res⟩, h3, h2⟩ := Option.map_eq_some_iff.mp h1
    cases h2
    exact hon (by intro o' e'; simp [touched, keyOps, e']) ho (eraseManyKV_table hw ho h3)
  case dropData o =>
    obtain ⟨x, h1, h2⟩ := Option.map_eq_some_iff.mp h
    cases h2
    obtain ⟨⟨vo, hvo, hvs⟩, h1⟩ := onVault_some h1
    have ho := isVault_iff.mpr ⟨vo, hvo, hvs⟩
    exact hon (by intro o' e'; simp [touched, keyOps, e']) ho (dropData_table hw ho h1)
  case dropVault o =>
    obtain ⟨x, h1, h2⟩ := Option.map_eq_some_iff.mp h
    cases h2
    obtain ⟨⟨vo, hvo, hvs⟩, h1⟩ := onVault_some h1
    have ho := isVault_iff.mpr ⟨vo, hvo, hvs⟩
    exact hon (by intro o' e'; simp [touched, keyOps, e']) ho (dropVault_table hw ho h1)
  case getRecord o k v f =>
    obtain ⟨⟨vo, hvo, hvs⟩, h1⟩ := onVault_some h
    have ho := isVault_iff.mpr ⟨vo, hvo, hvs⟩
    obtain ⟨⟨_, res⟩, h3, h2⟩ := Option.map_eq_some_iff.mp h1
    cases h2
    exact hon (by intro o' e'; simp [touched, keyOps, e']) ho (getRecord_table hw ho h3)
  case getRecords o k v n =>
    obtain ⟨⟨vo, hvo, hvs⟩, h1⟩ := onVault_some h
    have ho := isVault_iff.mpr ⟨vo, hvo, hvs⟩
    obtain ⟨⟨_, res⟩, h3, h2⟩ := Option.map_eq_some_iff.mp h1
    cases h2
    exact hon (by intro o' e'; simp [touched, keyOps, e']) ho (getRecords_table hw ho h3)
  case vaultCopyNew a =>
    obtain ⟨⟨ao, hao, has⟩, h1⟩ := onVault_some hs
    have ha := isVault_iff.mpr ⟨ao, hao, has⟩
    obtain ⟨a1, a2⟩ := vaultCopyNew_table hw ha hg h1
    exact ⟨_, _, dbOf_none hnone, dbOf_vault ha, a2, db_one hi hai hg hs (by simp [touched, keyOps]) a1⟩
  case vaultAssign o a =>
    obtain ⟨⟨vo, hvo, hvs⟩, h1⟩ := onVault_some hs
    obtain ⟨⟨ao, hao, has⟩, h1⟩ := onVault_some h1
    have ha := isVault_iff.mpr ⟨ao, hao, has⟩
    have ho := isVault_iff.mpr ⟨vo, hvo, hvs⟩
    by_cases hne : o = a
    · refine .inl ⟨hne, ?_⟩
      rw [vaultAssign, if_pos hne] at h1; cases h1; rfl
    · obtain ⟨a1, a2⟩ := vaultAssign_table hw ho ha hne hg h1
      exact .inr ⟨_, _, hne, ⟨_, dbOf_vault ho⟩, dbOf_vault ha, a2, db_one hi hai hg hs (by simp [touched, keyOps]) a1⟩
  case vaultMoveNew a =>
    obtain ⟨⟨ao, hao, has⟩, h1⟩ := onVault_some hs
    have ha := isVault_iff.mpr ⟨ao, hao, has⟩
    obtain ⟨a1, a2, a3, a4⟩ := vaultMoveNew_table hw ha h1
    refine ⟨_, dbOf_none hnone, dbOf_vault ha, ?_⟩
    funext o'
    unfold Db.put
    split
    · rename_i e; subst e; rw [dbOf_vault a2, a4]
    · rename_i e
      split
      · rename_i e'; subst e'; rw [dbOf_vault a1, a3]
      · rename_i e'; exact db_rest hi hai hg hs (by simpa [touched] using e) (by simpa [keyOps] using ⟨e', e⟩)
  case vaultMoveAssign o a =>
    obtain ⟨⟨vo, hvo, hvs⟩, h1⟩ := onVault_some hs
    obtain ⟨⟨ao, hao, has⟩, h1⟩ := onVault_some h1
    have ha := isVault_iff.mpr ⟨ao, hao, has⟩
    have ho := isVault_iff.mpr ⟨vo, hvo, hvs⟩
    by_cases hne : o = a
    · refine .inl ⟨hne, ?_⟩
      rw [vaultMoveAssign, if_pos hne] at h1; cases h1; rfl
    · obtain ⟨a1, a2, a3, a4⟩ := vaultMoveAssign_table hw ho ha hne h1
      refine .inr ⟨_, hne, ⟨_, dbOf_vault ho⟩, dbOf_vault ha, ?_⟩
      funext o'
      unfold Db.put
      split
      · rename_i e; subst e; rw [dbOf_vault a2, a4]
      · rename_i e
        split
        · rename_i e'; subst e'; rw [dbOf_vault a1, a3]
        · rename_i e'; exact db_rest hi hai hg hs (by simpa [touched] using ⟨e', e⟩) (by simpa [keyOps] using ⟨e', e⟩)
  all_goals exact hothers rfl (by simp [touched]) rfl

end MVault.W
