import Verif.WorldSets3
/-
Set-internal operations, part 4: copies, moves, union and intersection of sets.
-/
set_option linter.unusedSectionVars false
set_option linter.unusedSimpArgs false
namespace MVault.W
variable {K V Ty : Type} [LinearOrder K] [LinearOrder V] [Typed V Ty] [DecidableEq Ty] {own home : Nat → Nat}

theorem mput_mput {A B : Type} [DecidableEq A] (m : List (A × B)) (k : A) (v v' : B) : mput (mput m k v) k v' = mput m k v' := by
  induction m with
  | nil => simp [mput]
  | cons e l ih =>
    obtain ⟨a, b⟩ := e
    simp only [mput]
    by_cases h : a = k
    · simp [h, mput]
    · simp [h, mput, ih]

theorem putObj_putObj (w : World K V Ty) (o : Nat) (x y : Obj K V Ty) : (w.putObj o x).putObj o y = w.putObj o y := by
  unfold World.putObj; simp only [mput_mput]

theorem SObj.putVault {w : World K V Ty} {o : Nat} {vo vo' : Obj K V Ty} (h : SObj own home w) (ho : w.getObj o = some vo)
    (h1 : vo'.isSet = false) (h2 : vo'.isBase = true) : SObj own home (w.putObj o vo') := by
  refine ⟨?_, h.deps, ?_, h.ltR, ?_⟩
  · intro s x hx hi
    simp only [getObj_putObj] at hx
    split at hx
    · cases hx; rw [h1] at hi; cases hi
    · exact h.sets s x hx hi
  · intro o' x hx
    simp only [getObj_putObj] at hx
    split at hx
    · rename_i e; subst e; exact h.ltO _ _ ho
    · exact h.ltO _ _ hx
  · intro o' x hx hi
    simp only [getObj_putObj] at hx
    split at hx
    · cases hx; exact h2
    · exact h.vb _ _ hx hi

theorem SObj.putSet {w : World K V Ty} {s : Nat} {so so' : Obj K V Ty} (h : SObj own home w) (hs : w.getObj s = some so)
    (hi : so'.isSet = true) (hok : SetOk own home w.nextR s so') : SObj own home (w.putObj s so') := by
  refine ⟨?_, h.deps, ?_, h.ltR, ?_⟩
  · intro s' x hx hi'
    simp only [getObj_putObj] at hx
    split at hx
    · rename_i e; subst e; cases hx; exact hok
    · exact h.sets s' x hx hi'
  · intro o' x hx
    simp only [getObj_putObj] at hx
    split at hx
    · rename_i e; subst e; exact h.ltO _ _ hs
    · exact h.ltO _ _ hx
  · intro o' x hx hi'
    simp only [getObj_putObj] at hx
    split at hx
    · cases hx; rw [hi] at hi'; cases hi'
    · exact h.vb _ _ hx hi'

/-- Common part of `CopySet` and `Intersection`: a detached set becomes a set of vault `p` with the keys of `ao`. -/
theorem adopt_spec {env : Env} {w w2 : World K V Ty} {s p : Nat} {so ao po so2 : Obj K V Ty} {b : Bool} (hsi : SI own home w)
    (hs : w.getObj s = some so) (hi : so.isSet = true) (hd : so.parent = none) (hb : b = false)
    (hp : w.getObj p = some po) (hpv : po.isSet = false) (hh : p = home s)
    (h2 : copyKeys env ao (w.putObj s { so with isBase := b, parent := some p }) s = some w2)
    (hso2 : w2.getObj s = some so2) :
    ∃ w5 so5, w5 = (w2.putObj s { so2 with keysOrder := ao.keysOrder, uniq := ao.uniq }).putObj p { po with sets := setIns po.sets s } ∧
      (w2.putObj s { so2 with keysOrder := ao.keysOrder, uniq := ao.uniq }).getObj p = some po ∧
      SP own home w w5 ∧ w5.getObj s = some so5 ∧ so5.isSet = true ∧ so5.parent = some p ∧ so5.recs = [] ∧
      (∀ x, x ≠ s → x ≠ p → w5.getObj x = w.getObj x) := by
  subst hb
  have ok := hsi.s.sets s so hs hi
  have hsp : s ≠ p := by intro e; subst e; rw [hs] at hp; cases hp; rw [hi] at hpv; cases hpv
  have sf1 : SF w (w.putObj s { so with isBase := false, parent := some p }) := .putSet hs hi hi
  have so1 : SObj own home (w.putObj s { so with isBase := false, parent := some p }) :=
    hsi.s.putSet hs hi ⟨rfl, ok.sets, by intro p' hp'; cases hp'; exact hh, by simp, ok.recs, ok.cols⟩
  obtain ⟨q2, k2, so2', k3, k4, k5, k6⟩ := copyKeys_set (own := own) (home := home) (getObj_putObj_self _ _ _)
    (by exact hi) (by exact ok.det hd) h2
  rw [k3] at hso2; cases hso2
  have q3 : SQ own home w2 (w2.putObj s { so2 with keysOrder := ao.keysOrder, uniq := ao.uniq }) := by
    refine .putSet k3 k4 k4 rfl rfl ?_
    intro hso
    have ok := hso.sets s so2 k3 k4
    exact ok.ofCols rfl rfl rfl ok.det ok.recs ok.cols
  have hp3 : (w2.putObj s { so2 with keysOrder := ao.keysOrder, uniq := ao.uniq }).getObj p = some po := by
    simp only [getObj_putObj, if_neg hsp]
    rw [k2 p (Ne.symm hsp)]
    simp only [getObj_putObj, if_neg hsp]; exact hp
  have so3 := q3.so (q2.so so1)
  have so4 := so3.putVault hp3 (vo' := { po with sets := setIns po.sets s }) hpv (hsi.s.vb p po hp hpv)
  have sf4 : SF _ ((w2.putObj s { so2 with keysOrder := ao.keysOrder, uniq := ao.uniq }).putObj p { po with sets := setIns po.sets s }) :=
    .putSets hp3 _
  have hs5 : ((w2.putObj s { so2 with keysOrder := ao.keysOrder, uniq := ao.uniq }).putObj p { po with sets := setIns po.sets s }).getObj s
      = some { so2 with keysOrder := ao.keysOrder, uniq := ao.uniq } := by
    simp only [getObj_putObj, if_neg (Ne.symm hsp), if_true]
  have hO : ∀ x, x ≠ s → x ≠ p → ((w2.putObj s { so2 with keysOrder := ao.keysOrder, uniq := ao.uniq }).putObj p
      { po with sets := setIns po.sets s }).getObj x = w.getObj x := by
    intro x hxs hxp
    simp only [getObj_putObj, if_neg (Ne.symm hxs), if_neg (Ne.symm hxp)]
    rw [k2 x hxs]
    simp only [getObj_putObj, if_neg (Ne.symm hxs)]
  refine ⟨_, _, rfl, hp3, ⟨sf1.trans (q2.sf.trans (q3.sf.trans sf4)), so4, ?_⟩, hs5, k4, k6, k5, hO⟩
  refine link_update hsi.l (q := some p) (by rintro p' e; cases e; exact ⟨po, hp, hpv⟩)
    (by intro x hx; rw [hs] at hx; cases hx; exact hi) hs5 k4 k6 ?_ ?_
  · intro x xo' hne hx
    by_cases hxp : x = p
    · subst hxp
      rw [getObj_putObj_self] at hx; cases hx
      refine ⟨po, hp, rfl, rfl, ?_, ?_⟩
      · intro _ y hy; rw [mem_setIns]; simp [hy]
      · intro _; rw [mem_setIns]; simp
    · rw [hO x hne hxp] at hx
      refine ⟨xo', hx, rfl, rfl, fun _ _ _ => Iff.rfl, ?_⟩
      intro hv
      simp only [Option.some.injEq]
      constructor
      · intro hm
        obtain ⟨so0, a, _, c⟩ := hsi.l.down x xo' s hx hv hm
        rw [hs] at a; cases a; rw [hd] at c; cases c
      · intro e; exact absurd e.symm hxp
  · intro x xo hne hx
    by_cases hxp : x = p
    · subst hxp; exact ⟨_, getObj_putObj_self _ _ _⟩
    · exact ⟨xo, by rw [hO x hne hxp]; exact hx⟩

/-- `CopySet` into a detached set. -/
theorem copySet_spec {env : Env} {w w' : World K V Ty} {s a : Nat} {so ao : Obj K V Ty} (hsi : SI own home w)
    (hs : w.getObj s = some so) (hi : so.isSet = true) (hd : so.parent = none) (ha : w.getObj a = some ao) (hai : ao.isSet = true)
    (_hsa : s ≠ a) (hh : ∀ p, ao.parent = some p → p = home s)
    (h : copySet env w s a = some w') : SP own home w w' ∧
      ∃ so', w'.getObj s = some so' ∧ so'.isSet = true ∧ so'.parent = ao.parent ∧ so'.recs = (env.perm ao.recs).foldl setIns [] := by
  simp only [copySet, ha, hs, Option.bind_eq_bind, Option.bind_some, Option.bind_eq_some_iff] at h
  obtain ⟨p, hp, po, hpo, w2, h2, so2, hso2, po3, hpo3, h5⟩ := h
  obtain ⟨po', e, hpv, _⟩ := hsi.l.up a ao p ha hai hp
  rw [hpo] at e; cases e
  obtain ⟨w5, so5, e5, e5', sp5, g1, g2, g3, g4, _⟩ := adopt_spec hsi hs hi hd rfl hpo hpv (hh p hp) h2 hso2
  rw [e5'] at hpo3; cases hpo3
  rw [← e5] at h5
  have oka := hsi.s.sets a ao ha hai
  have hre : home a = home s := by rw [← oka.par p hp]; exact hh p hp
  have key := loop_pre (fun d w1 => SQ own home w5 w1 ∧ ∃ so', w1.getObj s = some so' ∧ so'.isSet = true ∧ so'.parent = some p ∧
      so'.recs = d.foldl setIns []) _ _ _ _ ?_ ⟨.refl _ _ _, so5, g1, g2, g3, g4⟩ h5
  · obtain ⟨q, so', k1, k2, k3, k4⟩ := key
    exact ⟨sp5.trans (q.sp sp5.si), so', k1, k2, k3.trans hp.symm, k4⟩
  · rintro d r e b b' hle ⟨q, so', k1, k2, k3, k4⟩ hh'
    simp only [k1, Option.bind_eq_some_iff, Option.some.injEq] at hh'
    obtain ⟨so6, e6, hh'⟩ := hh'
    subst e6
    have hr : r ∈ ao.recs := by
      have : r ∈ env.perm ao.recs := by rw [hle]; simp
      simpa using this
    have hro := oka.recs r hr
    rw [hre] at hro
    have hb : b.nextR = w.nextR := q.sf.nextR.trans sp5.sf.nextR
    have q1 : SQ own home b (b.putObj s { so' with recs := setIns so'.recs r }) := by
      refine .putSet k1 k2 k2 rfl rfl ?_
      intro hso
      have ok := hso.sets s so' k1 k2
      refine ok.ofCols rfl rfl rfl (fun hn => by rw [k3] at hn; cases hn) ?_ ok.cols
      intro r' hr'
      rcases (mem_setIns _ _ _).mp hr' with hr' | rfl
      · exact ok.recs r' hr'
      · exact ⟨hro.1, by rw [hb]; exact hro.2⟩
    obtain ⟨q2, so2, m1, m2, m3, m4⟩ := attach_sq (own := own) (home := home) (getObj_putObj_self b s { so' with recs := setIns so'.recs r })
      (by exact k2) hro.1 (by show r < b.nextR; rw [hb]; exact hro.2)
      (by show s < b.nextO; rw [q.sf.nextO, sp5.sf.nextO]; exact hsi.s.ltO s so hs) hh'
    exact ⟨q.trans (q1.trans q2), so2, m1, m2, by rw [m4]; exact k3, by rw [m3]; show setIns so'.recs r = _; rw [k4]; simp⟩

theorem setAssign_spec {env : Env} {w w' : World K V Ty} {s a : Nat} {so ao : Obj K V Ty} (hsi : SI own home w)
    (hs : w.getObj s = some so) (hi : so.isSet = true) (ha : w.getObj a = some ao) (hai : ao.isSet = true)
    (hh : ∀ p, ao.parent = some p → p = home s)
    (h : setAssign env w s a = some w') : SP own home w w' ∧ (s ≠ a → ∃ so' l, w'.getObj s = some so' ∧ so'.isSet = true ∧
      so'.parent = ao.parent ∧ so'.recs = l ∧ l.Nodup ∧ (∀ r, r ∈ l ↔ r ∈ ao.recs)) ∧ (s ≠ a → w'.getObj a = some ao) := by
  have oka := hsi.s.sets a ao ha hai
  simp only [setAssign, hs, ha, Option.bind_eq_bind, Option.bind_some] at h
  split at h
  · rename_i e; cases h; exact ⟨⟨.refl _, hsi⟩, fun hn => absurd e hn, fun hn => absurd e hn⟩
  · rename_i hsa
    simp only [Option.bind_eq_some_iff] at h
    obtain ⟨w1, h1, h⟩ := h
    obtain ⟨sp1, ⟨so1, g1, g2, g3, g4, g5⟩, gO⟩ := setReset_spec hs hi hsi h1
    have ha1 : w1.getObj a = some ao := by
      rw [gO a (Ne.symm hsa)]
      split
      · rename_i hpa
        obtain ⟨po, e1, e2, _⟩ := hsi.l.up s so a hs hi hpa
        rw [ha] at e1; cases e1; rw [hai] at e2; cases e2
      · exact ha
    split at h
    · rename_i hn
      cases h
      exact ⟨sp1, fun _ => ⟨so1, [], g1, g2, by rw [g3, hn], g4, by simp, by rw [oka.det hn]; simp⟩, fun _ => ha1⟩
    · obtain ⟨sp2, so', k1, k2, k3, k4⟩ := copySet_spec sp1.si g1 g2 g3 ha1 hai hsa hh h
      refine ⟨sp1.trans sp2, fun _ => ⟨so', _, k1, k2, k3, k4, nodup_foldl_setIns _ _ (by simp), ?_⟩, fun _ => ?_⟩
      · intro r; rw [mem_foldl_setIns]; simp
      · simp only [copySet, ha1, g1, Option.bind_eq_bind, Option.bind_some, Option.bind_eq_some_iff] at h
        obtain ⟨p, hp, po, hpo, w2, h2, so2, hso2, po3, hpo3, h5⟩ := h
        obtain ⟨po', e, hpv, _⟩ := sp1.si.l.up a ao p ha1 hai hp
        rw [hpo] at e; cases e
        obtain ⟨w5, so5, e5, e5', sp5, m1, m2, m3, m4, mO⟩ := adopt_spec sp1.si g1 g2 g3 rfl hpo hpv (hh p hp) h2 hso2
        rw [e5'] at hpo3; cases hpo3
        rw [← e5] at h5
        have hap : a ≠ p := by intro e; subst e; rw [ha1] at hpo; cases hpo; rw [hai] at hpv; cases hpv
        have := loop_inv (fun w1 => w1.getObj a = some ao) _ _ _ _ ?_ ((mO a (Ne.symm hsa) hap).trans ha1) h5
        · exact this
        · intro r _ b b' hb hh'
          simp only [Option.bind_eq_some_iff] at hh'
          obtain ⟨so6, e6, hh'⟩ := hh'
          simp only [attach, Option.bind_eq_bind, Option.bind_eq_some_iff] at hh'
          obtain ⟨_, _, _, _, hh'⟩ := hh'
          rw [getObj_of_objs (addDep_objs hh')]
          simp only [getObj_putObj, if_neg hsa]; exact hb

theorem moveDep_sq {w w' : World K V Ty} {s a r : Nat} (h : moveDep s a w r = some w') (hr : own r = home s) (hn : s < w.nextO) :
    w'.objs = w.objs ∧ SQ own home w w' := by
  simp only [moveDep, Option.bind_eq_bind, Option.bind_eq_some_iff] at h
  obtain ⟨w1, h1, h2⟩ := h
  have q1 := eraseDep_sq (own := own) (home := home) h1
  exact ⟨(addDep_objs h2).trans (eraseDep_objs h1), q1.trans (addDep_sq h2 hr (by rw [q1.sf.nextO]; exact hn))⟩

/-- `MoveSet` into a set that holds no records. -/
theorem moveSet_spec {env : Env} {w w' : World K V Ty} {s a : Nat} {so ao : Obj K V Ty} (hsi : SI own home w)
    (hs : w.getObj s = some so) (hi : so.isSet = true) (hre : so.recs = []) (ha : w.getObj a = some ao) (hai : ao.isSet = true)
    (hsa : s ≠ a) (hh : ∀ p, ao.parent = some p → p = home s)
    (h : moveSet env w s a = some w') : SP own home w w' := by
  have oka := hsi.s.sets a ao ha hai
  have ok := hsi.s.sets s so hs hi
  simp only [moveSet, ha, Option.bind_eq_bind, Option.bind_some, Option.bind_eq_some_iff] at h
  obtain ⟨p, hp, po, hpo, w1, h1, so1, hso1, w4, h4, so4, hso4, po5, hpo5, h5⟩ := h
  obtain ⟨po', e, hpv, hpm⟩ := hsi.l.up a ao p ha hai hp
  rw [hpo] at e; cases e
  have hps := hh p hp
  have hre2 : home a = home s := by rw [← oka.par p hp]; exact hps
  have hsp : s ≠ p := by intro e; subst e; rw [hs] at hpo; cases hpo; rw [hi] at hpv; cases hpv
  have hap : a ≠ p := by intro e; subst e; rw [ha] at hpo; cases hpo; rw [hai] at hpv; cases hpv
  obtain ⟨o1, q1⟩ := loop_inv (fun w1 => w1.objs = w.objs ∧ SQ own home w w1) _ _ _ _ (by
    rintro r hr b b' ⟨hb1, hb2⟩ hh'
    have hro := oka.recs r (by simpa using hr)
    obtain ⟨e1, q⟩ := moveDep_sq (own := own) (home := home) hh' (hro.1.trans hre2) (by rw [hb2.sf.nextO]; exact hsi.s.ltO s so hs)
    exact ⟨e1.trans hb1, hb2.trans q⟩) ⟨rfl, .refl _ _ _⟩ h1
  have hs1 : w1.getObj s = some so := by rw [getObj_of_objs o1]; exact hs
  have ha1 : w1.getObj a = some ao := by rw [getObj_of_objs o1]; exact ha
  have hp1 : w1.getObj p = some po := by rw [getObj_of_objs o1]; exact hpo
  rw [hs1] at hso1; cases hso1
  have so1 := q1.so hsi.s
  have sf2 : SF w1 (w1.putObj s { so with isBase := false, parent := some p }) := .putSet hs1 hi hi
  have ok1 := so1.sets s so hs1 hi
  have so2 := so1.putSet hs1 (so' := { so with isBase := false, parent := some p }) hi
    ⟨rfl, ok1.sets, by intro p' hp'; cases hp'; exact hps, by simp, ok1.recs, ok1.cols⟩
  have ha2 : (w1.putObj s { so with isBase := false, parent := some p }).getObj a = some ao := by
    simp only [getObj_putObj, if_neg hsa]; exact ha1
  have oka2 := so2.sets a ao ha2 hai
  have sf3 : SF _ ((w1.putObj s { so with isBase := false, parent := some p }).putObj a
    { ao with parent := none, recs := [], keysOrder := [], uniq := [] }) := .putSet ha2 hai hai
  have so3 := so2.putSet ha2 (so' := { ao with parent := none, recs := [], keysOrder := [], uniq := [] }) hai
    ⟨oka2.base, oka2.sets, by simp, by simp, by simp, oka2.cols⟩
  have hs3 : ((w1.putObj s { so with isBase := false, parent := some p }).putObj a
    { ao with parent := none, recs := [], keysOrder := [], uniq := [] }).getObj s = some { so with isBase := false, parent := some p } := by
    simp only [getObj_putObj, if_neg (Ne.symm hsa), if_true]
  obtain ⟨q4, kO, so4', k3, k4, k5, k6⟩ := copyKeys_set (own := own) (home := home) hs3 hi hre h4
  rw [k3] at hso4; cases hso4
  have q5 : SQ own home w4 (w4.putObj s { so4 with keysOrder := ao.keysOrder, uniq := ao.uniq, recs := ao.recs }) := by
    refine .putSet k3 k4 k4 rfl rfl ?_
    intro hso
    have ok := hso.sets s so4 k3 k4
    refine ok.ofCols rfl rfl rfl (fun hn => by rw [k6] at hn; cases hn) ?_ ok.cols
    intro r hr
    have := oka.recs r hr
    rw [hre2] at this
    have e : w4.nextR = w.nextR := q4.sf.nextR.trans (sf3.nextR.trans (sf2.nextR.trans q1.sf.nextR))
    rw [e]; exact this
  have hp5 : (w4.putObj s { so4 with keysOrder := ao.keysOrder, uniq := ao.uniq, recs := ao.recs }).getObj p = some po := by
    simp only [getObj_putObj, if_neg hsp]
    rw [kO p (Ne.symm hsp)]
    simp only [getObj_putObj, if_neg hsp, if_neg hap]; exact hp1
  rw [hp5] at hpo5; cases hpo5
  cases h5
  have so5 := (q5.so (q4.so so3)).putVault hp5 (vo' := { po with sets := setIns (po.sets.filter (· ≠ a)) s }) hpv (hsi.s.vb p po hpo hpv)
  have sf5 : SF _ ((w4.putObj s { so4 with keysOrder := ao.keysOrder, uniq := ao.uniq, recs := ao.recs }).putObj p
    { po with sets := setIns (po.sets.filter (· ≠ a)) s }) := .putSets hp5 _
  refine ⟨q1.sf.trans (sf2.trans (sf3.trans (q4.sf.trans (q5.sf.trans sf5)))), so5, ?_⟩
  -- links: first `a` leaves, then `s` joins
  let wI := (w.putObj a { ao with parent := none }).putObj p { po with sets := po.sets.filter (· ≠ a) }
  have hIa : wI.getObj a = some { ao with parent := none } := by
    simp only [wI, getObj_putObj, if_neg (Ne.symm hap), if_true]
  have lI : Link wI := by
    refine link_update hsi.l (q := none) (s := a) (by simp) (by intro x hx; rw [ha] at hx; cases hx; exact hai) hIa hai rfl ?_ ?_
    · intro x xo' hne hx
      simp only [wI, getObj_putObj, if_neg (Ne.symm hne)] at hx
      split at hx
      · rename_i e; subst e; cases hx
        refine ⟨po, hpo, rfl, rfl, ?_, ?_⟩
        · intro _ y hy; simp [hy]
        · simp
      · rename_i e
        refine ⟨xo', hx, rfl, rfl, fun _ _ _ => Iff.rfl, ?_⟩
        intro hv
        simp only [reduceCtorEq, iff_false]
        intro hm
        obtain ⟨so0, a0, _, c⟩ := hsi.l.down x xo' a hx hv hm
        rw [ha] at a0; cases a0; rw [hp] at c; cases c; exact e rfl
    · intro x xo hne hx
      simp only [wI, getObj_putObj, if_neg (Ne.symm hne)]
      split
      · exact ⟨_, rfl⟩
      · exact ⟨xo, hx⟩
  have hGs : ((w4.putObj s { so4 with keysOrder := ao.keysOrder, uniq := ao.uniq, recs := ao.recs }).putObj p
      { po with sets := setIns (po.sets.filter (· ≠ a)) s }).getObj s
      = some { so4 with keysOrder := ao.keysOrder, uniq := ao.uniq, recs := ao.recs } := by
    simp only [getObj_putObj, if_neg (Ne.symm hsp), if_true]
  have hIs : wI.getObj s = some so := by
    simp only [wI, getObj_putObj, if_neg (Ne.symm hsp), if_neg (Ne.symm hsa)]; exact hs
  have hG : ∀ x, x ≠ s → x ≠ p → ((w4.putObj s { so4 with keysOrder := ao.keysOrder, uniq := ao.uniq, recs := ao.recs }).putObj p
      { po with sets := setIns (po.sets.filter (· ≠ a)) s }).getObj x =
      if a = x then some { ao with parent := none, recs := [], keysOrder := [], uniq := [] } else w.getObj x := by
    intro x hxs hxp
    simp only [getObj_putObj, if_neg (Ne.symm hxs), if_neg (Ne.symm hxp)]
    rw [kO x hxs]
    simp only [getObj_putObj, if_neg (Ne.symm hxs)]
    split
    · rfl
    · exact getObj_of_objs o1 x
  refine link_update lI (q := some p) (s := s) (by
      rintro p' e; cases e
      exact ⟨{ po with sets := po.sets.filter (· ≠ a) }, by simp only [wI]; exact getObj_putObj_self _ _ _, hpv⟩)
    (by intro x hx; rw [hIs] at hx; cases hx; exact hi) hGs k4 k6 ?_ ?_
  · intro x xo' hne hx
    by_cases hxp : x = p
    · subst hxp
      rw [getObj_putObj_self] at hx; cases hx
      refine ⟨{ po with sets := po.sets.filter (· ≠ a) }, by simp only [wI]; exact getObj_putObj_self _ _ _, rfl, rfl, ?_, ?_⟩
      · intro _ y hy; rw [mem_setIns]; simp [hy]
      · intro _; rw [mem_setIns]; simp
    · rw [hG x hne hxp] at hx
      split at hx
      · rename_i e; subst e; cases hx
        refine ⟨_, hIa, rfl, rfl, ?_, ?_⟩
        · intro hn; have hn' : ao.isSet = false := hn; rw [hai] at hn'; cases hn'
        · intro hn; have hn' : ao.isSet = false := hn; rw [hai] at hn'; cases hn'
      · rename_i hxa
        have hIx : wI.getObj x = some xo' := by
          simp only [wI, getObj_putObj, if_neg (Ne.symm hxp), if_neg hxa]; exact hx
        refine ⟨xo', hIx, rfl, rfl, fun _ _ _ => Iff.rfl, ?_⟩
        intro hv
        simp only [Option.some.injEq]
        constructor
        · intro hm
          obtain ⟨so0, a0, _, c⟩ := hsi.l.down x xo' s hx hv hm
          rw [hs] at a0; cases a0
          have := ok.par x c
          rw [← hps] at this; exact this.symm
        · intro e; exact absurd e.symm hxp
  · intro x xo hne hx
    by_cases hxp : x = p
    · subst hxp; exact ⟨_, getObj_putObj_self _ _ _⟩
    · rw [hG x hne hxp]
      split
      · exact ⟨_, rfl⟩
      · rename_i hxa
        simp only [wI, getObj_putObj, if_neg (Ne.symm hxp), if_neg hxa] at hx
        exact ⟨xo, hx⟩

theorem setMoveAssign_sp {env : Env} {w w' : World K V Ty} {s a : Nat} {so ao : Obj K V Ty} (hsi : SI own home w)
    (hs : w.getObj s = some so) (hi : so.isSet = true) (ha : w.getObj a = some ao) (hai : ao.isSet = true)
    (hre : so.recs = [] ∨ ao.parent = none) (hh : ∀ p, ao.parent = some p → p = home s)
    (h : setMoveAssign env w s a = some w') : SP own home w w' := by
  simp only [setMoveAssign, hs, ha, Option.bind_eq_bind, Option.bind_some] at h
  split at h
  · cases h; exact ⟨.refl _, hsi⟩
  · rename_i hsa
    split at h
    · exact (setReset_spec hs hi hsi h).1
    · rename_i hn
      exact moveSet_spec hsi hs hi (hre.resolve_right hn) ha hai hsa hh h

theorem setUnion_sp {env : Env} {w w' : World K V Ty} {a b s : Nat} {res : Res K} {so ao bo : Obj K V Ty} (hsi : SI own home w)
    (hs : w.getObj s = some so) (hi : so.isSet = true) (ha : w.getObj a = some ao) (hai : ao.isSet = true)
    (hb : w.getObj b = some bo) (hbi : bo.isSet = true)
    (hh : ∀ p, ao.parent = some p → p = home s) (h : setUnion env w a b s = some (w', res)) : SP own home w w' := by
  simp only [setUnion, hs, ha, hb, Option.bind_eq_bind, Option.bind_some] at h
  split at h
  · cases h; exact ⟨.refl _, hsi⟩
  · rename_i hne
    simp only [not_or] at hne
    split at h
    · cases h; exact ⟨.refl _, hsi⟩
    · split at h
      · cases h; exact ⟨.refl _, hsi⟩
      · split at h
        · cases h; exact ⟨.refl _, hsi⟩
        · simp only [Option.bind_eq_some_iff] at h
          obtain ⟨w1, h1, h2⟩ := h
          obtain ⟨sp1, x1, _⟩ := setAssign_spec hsi hs hi ha hai hh h1
          obtain ⟨so1, l, g1, g2, _⟩ := x1 (fun e => hne.2.1 e.symm)
          -- `b` is still a set
          have hb1 : ∃ bo1, w1.getObj b = some bo1 ∧ bo1.isSet = true := by
            obtain ⟨y, hy, e, _⟩ := sp1.sf.objTo hb
            exact ⟨y, hy, e.trans hbi⟩
          obtain ⟨bo1, k1, k2⟩ := hb1
          exact sp1.trans ((setJoin_sq sp1.si.s g1 g2 k1 k2 h2).sp sp1.si)

theorem setIntersection_sp {env : Env} {w w' : World K V Ty} {a b s : Nat} {res : Res K} {so ao bo : Obj K V Ty} (hsi : SI own home w)
    (hs : w.getObj s = some so) (hi : so.isSet = true) (ha : w.getObj a = some ao) (hai : ao.isSet = true)
    (hb : w.getObj b = some bo) (hbi : bo.isSet = true)
    (hh : ∀ p, ao.parent = some p → p = home s) (h : setIntersection env w a b s = some (w', res)) : SP own home w w' := by
  simp only [setIntersection, hs, ha, hb, Option.bind_eq_bind, Option.bind_some] at h
  split at h
  · cases h; exact ⟨.refl _, hsi⟩
  · rename_i hne
    simp only [not_or] at hne
    split at h
    · cases h; exact ⟨.refl _, hsi⟩
    · rename_i p hp
      split at h
      · cases h; exact ⟨.refl _, hsi⟩
      · split at h
        · cases h; exact ⟨.refl _, hsi⟩
        · rename_i hbp
          have hbp : bo.parent = some p := by simpa using hbp
          simp only [Option.bind_eq_some_iff] at h
          obtain ⟨w1, h1, so1, hso1, w3, h3, so3, hso3, po, hpo, h⟩ := h
          simp only [Option.map_eq_some_iff, Prod.mk.injEq] at h
          obtain ⟨w6, h6, rfl, _⟩ := h
          obtain ⟨sp1, ⟨so1', g1, g2, g3, g4, g5⟩, gO⟩ := setReset_spec hs hi hsi h1
          rw [hso1] at g1; cases g1
          have ok1 := sp1.si.s.sets s so1 hso1 g2
          obtain ⟨po0, hpo0, hpv0, _⟩ := hsi.l.up a ao p ha hai hp
          obtain ⟨po1, hpo1, e1, _⟩ := sp1.sf.objTo hpo0
          have hpv1 : po1.isSet = false := e1.trans hpv0
          have hw2 : w1.putObj s { so1 with parent := some p } = w1.putObj s { so1 with isBase := false, parent := some p } := by
            have : so1.isBase = false := ok1.base
            rw [show ({ so1 with parent := some p } : Obj K V Ty) = { so1 with isBase := false, parent := some p } from by rw [← this]]
          rw [hw2] at h3
          obtain ⟨w5, so5, e5, e5', sp5, m1, m2, m3, m4, mO⟩ := adopt_spec sp1.si hso1 g2 g3 rfl hpo1 hpv1 (hh p hp) h3 hso3
          rw [e5'] at hpo; cases hpo
          rw [← e5] at h6
          have sp15 := sp1.trans sp5
          have oka := hsi.s.sets a ao ha hai
          have okb := hsi.s.sets b bo hb hbi
          have ea : home a = home s := by rw [← oka.par p hp]; exact hh p hp
          have eb : home b = home s := by rw [← okb.par p hbp]; exact hh p hp
          obtain ⟨q, _⟩ := loop_addOnly (own := own) (home := home) m1 m2 (by rw [m3]; simp) (by
            intro r hr
            rw [sp15.sf.nextR]
            split at hr
            · have := oka.recs r (by simpa using (List.mem_filter.mp hr).1)
              rw [ea] at this; exact this
            · have := okb.recs r (by simpa using (List.mem_filter.mp hr).1)
              rw [eb] at this; exact this) h6
          exact sp15.trans (q.sp sp15.si)

end MVault.W
