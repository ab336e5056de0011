import Verif.WorldGentle3
/-
`Union` and `Intersection` into a third set.
-/
set_option linter.unusedSectionVars false
set_option linter.unusedSimpArgs false
set_option linter.unusedVariables false
namespace MVault.W
variable {K V Ty : Type} [LinearOrder K] [LinearOrder V] [Typed V Ty] [DecidableEq Ty]
variable {own home : Nat → Nat}

/-- Nothing but set `s`, and the lists of sets of the vaults, has changed. -/
structure Beside (s : Nat) (w w' : World K V Ty) : Prop where
  objN : ∀ o, o ≠ s → w.getObj o = none → w'.getObj o = none
  obj : ∀ o, o ≠ s → ∀ a, w.getObj o = some a → ∃ l, w'.getObj o = some { a with sets := l }

theorem Beside.refl (s : Nat) (w : World K V Ty) : Beside s w w := ⟨fun _ _ h => h, fun _ _ a h => ⟨a.sets, h⟩⟩

theorem Beside.trans {s : Nat} {a b c : World K V Ty} (h1 : Beside s a b) (h2 : Beside s b c) : Beside s a c where
  objN o hne h := h2.objN o hne (h1.objN o hne h)
  obj o hne x hx := by
    obtain ⟨l, h⟩ := h1.obj o hne x hx
    obtain ⟨m, h'⟩ := h2.obj o hne _ h
    exact ⟨m, h'⟩

theorem Only.beside {s : Nat} {w w' : World K V Ty} (h : Only s w w') : Beside s w w' :=
  ⟨h.objN, fun o hne a ha => by obtain ⟨l, h, _⟩ := h.obj o hne a ha; exact ⟨l, h⟩⟩

theorem Turn.beside {s : Nat} {so so' : Obj K V Ty} {w w' : World K V Ty} (h : Turn own home s so so' w w') : Beside s w w' :=
  ⟨fun o hne hn => by rw [h.obj o hne]; exact hn, fun o hne a ha => ⟨a.sets, by rw [h.obj o hne]; exact ha⟩⟩

/-- Through the repaired worlds. -/
theorem Beside.sim {D D' : Nat → Bool → List Nat → List Nat → Prop} {s : Nat} {w w' u u' : World K V Ty} (h : Beside s u u') (h1 : DepSim D w u) (h2 : DepSim D' w' u') : Beside s w w' :=
  ⟨fun o hne hn => by rw [h2.obj]; exact h.objN o hne (by rw [← h1.obj]; exact hn),
   fun o hne a ha => by obtain ⟨l, e⟩ := h.obj o hne a (by rw [← h1.obj]; exact ha); exact ⟨l, by rw [h2.obj]; exact e⟩⟩

theorem Beside.setOf {s : Nat} {w w' : World K V Ty} (h : Beside s w w') {t : Nat} (ht : t ≠ s) {x : Obj K V Ty} (hx : w.getObj t = some x) :
    ∃ y, w'.getObj t = some y ∧ y.isSet = x.isSet ∧ y.parent = x.parent ∧ y.recs = x.recs := by
  obtain ⟨l, e⟩ := h.obj t ht x hx; exact ⟨_, e, rfl, rfl, rfl⟩

/-- A set of vault `p` that shows the records of `L`, all of them found. -/
structure Filled (own home : Nat → Nat) (T P : Nat → Prop) (s p : Nat) (L : Nat → Prop) (w w' : World K V Ty) : Prop where
  good : Good w'
  knows : Knows T P w'
  inv : Inv own home w'
  beside : Beside s w w'
  out : ∃ so', w'.getObj s = some so' ∧ so'.isSet = true ∧ so'.parent = some p ∧ (∀ r, r ∈ so'.recs ↔ L r) ∧
    ∀ b k r, L r → mhas so'.cols k = true → so'.lists b k r

/-! ### The functions they use -/

theorem assign_good {T P : Nat → Prop} {env : Env} {w : World K V Ty} {s a p : Nat} {so ao : Obj K V Ty} (hi : Inv own home w) (hg : Good w) (hk : Knows T P w)
    (hs : w.getObj s = some so) (his : so.isSet = true) (ha : w.getObj a = some ao) (hai : ao.isSet = true) (hsa : s ≠ a) (hp : ao.parent = some p) (hh : p = home s) :
    ∃ w', setAssign env w s a = some w' ∧ Filled own home T P s p (· ∈ ao.recs) w w' := by
  have sim := told_sim (E := fun _ => False) hi hk
  have du := full_deep hi hg
  obtain ⟨u', e, d, hc⟩ := setAssign_obj (env := env) (told_inv (E := fun _ => False) hi) du hs his ha hai
  obtain ⟨w', e', sim'⟩ := (setAssign_sim (closedDT _ _ _) env sim s a).right e
  rcases hc with ⟨h, _⟩ | ⟨_, h, _⟩ | ⟨_, p', h, an⟩
  · exact absurd h hsa
  · rw [hp] at h; cases h
  · rw [hp] at h; cases h
    obtain ⟨g1, g2⟩ := sim'.good d
    have hi' : Inv own home w' := by
      have := (setAssign_spec hi.q.si hs his ha hai (fun p' hp' => by rw [hp] at hp'; cases hp'; exact hh) e').1
      exact this.inv hi
    obtain ⟨so', b1, b2, b3, b4⟩ := an.out
    refine ⟨w', e', g1, g2, hi', an.only.beside.sim sim sim', so', by rw [sim'.obj]; exact b1, b2, b3, b4, an.lists so' b1⟩

theorem reset_good {T P : Nat → Prop} {env : Env} {w : World K V Ty} {s : Nat} {so : Obj K V Ty} (hi : Inv own home w) (hg : Good w) (hk : Knows T P w)
    (hs : w.getObj s = some so) (his : so.isSet = true) :
    ∃ w' so', setReset env w s = some w' ∧ Good w' ∧ Knows T P w' ∧ Inv own home w' ∧ Beside s w w' ∧ w'.getObj s = some so' ∧ so'.isSet = true ∧ so'.parent = none ∧
      so'.recs = [] ∧ so'.cols = [] ∧ so'.sets = [] ∧ so'.isBase = false := by
  have sim := told_sim (E := fun _ => False) hi hk
  have du := full_deep hi hg
  obtain ⟨u', so', e, on, d, si, lo, _⟩ := setReset_deep (env := env) du (told_inv (E := fun _ => False) hi).q.si hs his
  obtain ⟨w', e', sim'⟩ := (setReset_sim (closedDT _ _ _) env sim s).right e
  obtain ⟨g1, g2⟩ := sim'.good d
  have hi' : Inv own home w' := (setReset_spec hs his hi.q.si e').1.inv hi
  exact ⟨w', so', e', g1, g2, hi', on.beside.sim sim sim', by rw [sim'.obj]; exact lo.get, lo.isSet, lo.parent, lo.recs, lo.cols, lo.sets, lo.base⟩

/-- A detached set becomes an empty set of vault `p`. -/
theorem adopt_deep {w : World K V Ty} {s a p : Nat} {so ao po : Obj K V Ty} (hi : Inv own home w) (hd : Deep w)
    (hs : w.getObj s = some so) (his : so.isSet = true) (hnone : so.parent = none) (ha : w.getObj a = some ao) (hai : ao.isSet = true)
    (hp : ao.parent = some p) (hpo : w.getObj p = some po) :
    Deep ((w.putObj s { withKeys { so with isBase := false, parent := some p } ao.cols with keysOrder := ao.keysOrder, uniq := ao.uniq }).putObj p
      { po with sets := setIns po.sets s }) := by
  have hva : vaultOf a ao = some p := by simp [vaultOf, hai, hp]
  obtain ⟨po', hpo', hpv, hsub⟩ := vault_of hi hd ha hva
  rw [hpo] at hpo'; cases hpo'
  have hal := alike_of hi hd ha hva hpo
  have hps : p ≠ s := by intro e; subst e; rw [hs] at hpo; cases hpo; rw [his] at hpv; cases hpv
  have ok := hi.s.sets s so hs his
  have dp := hd.set s so hs his
  have hrec := ok.det hnone
  obtain ⟨hcol, hkeys, huniq⟩ := dp.det hnone
  let so3 : Obj K V Ty := { so with isBase := false, parent := some p }
  let so4 := withKeys so3 ao.cols
  let so5 : Obj K V Ty := { so4 with keysOrder := ao.keysOrder, uniq := ao.uniq }
  let po1 : Obj K V Ty := { po with sets := setIns po.sets s }
  let w3 := w.putObj s so5
  let w4 := w3.putObj p po1
  have hp3 : w3.getObj p = some po := by simp only [w3, getObj_putObj, if_neg (Ne.symm hps)]; exact hpo
  obtain ⟨k1, k2, k3, k4, k5, k6, k7, _⟩ := withKeys_spec ao.cols so3
  have o3 : Only s w w3 := .putSet _ _ _
  have o4 : Only s w3 w4 := .putSets hp3 _ (fun h => nodup_setIns _ _ h)
  have oAll := o3.trans o4
  have hcols : ∀ k, mget so5.cols k = (mget ao.cols k).map Col.fresh := by
    intro k
    show mget (withKeys so3 ao.cols).cols k = _
    rw [k7]
    have : mget so3.cols k = none := by show mget so.cols k = none; rw [hcol]; rfl
    rw [this]; simp
  have hg4 : w4.getObj p = some po1 := by simp only [w4, getObj_putObj, if_true]
  have hs4 : w4.getObj s = some so5 := by simp only [w4, w3, getObj_putObj, if_neg hps, if_true]
  have fil : Filling own w4 s p [] so5 := by
    refine ⟨hs4, k1.trans his, k2, k6.trans ok.sets, k3, ?_, ?_, ?_⟩
    · intro po' h
      rw [hg4] at h; cases h
      refine ⟨hal.keys, hal.uniq, ?_, ?_⟩
      · intro k
        rw [hcols]
        show _ = (mget po.cols k).map (·.ty)
        rw [← hal.ty k]
        cases hc : mget ao.cols k with
        | none => rfl
        | some c => simp [Col.fresh, (col_of hi hd ha hc).dfltT]
      · intro k c pc hc _ hm
        rw [hcols, Option.map_eq_some_iff] at hc
        obtain ⟨c0, _, rfl⟩ := hc
        simp [Col.fresh] at hm
    · intro k c hc
      rw [hcols, Option.map_eq_some_iff] at hc
      obtain ⟨c0, _, rfl⟩ := hc
      exact .empty _ _ rfl rfl rfl rfl rfl
    · intro r x hx hv
      simp only [List.not_mem_nil, iff_false]
      intro hm
      obtain ⟨so', h1, _, h3⟩ := hd.told r x s hx hv hm
      rw [hs] at h1; cases h1; rw [hrec] at h3; cases h3
  have hrec5 : so5.recs = [] := k5.trans hrec
  exact fil.deep hd hi.l oAll hs his (by rw [hrec5]; exact fun _ => Iff.rfl) (by rw [hrec5]; simp) (by simp)

theorem adopt_good {T P : Nat → Prop} {env : Env} {w : World K V Ty} {s a p : Nat} {so ao po : Obj K V Ty} (hi : Inv own home w) (hg : Good w) (hk : Knows T P w)
    (hs : w.getObj s = some so) (his : so.isSet = true) (hnone : so.parent = none) (ha : w.getObj a = some ao) (hai : ao.isSet = true)
    (hp : ao.parent = some p) (hpo : w.getObj p = some po) (hh : p = home s) :
    ∃ w2 so2 w5 so5, copyKeys env ao (w.putObj s { so with parent := some p }) s = some w2 ∧ w2.getObj s = some so2 ∧
      (w2.putObj s { so2 with keysOrder := ao.keysOrder, uniq := ao.uniq }).getObj p = some po ∧
      w5 = (w2.putObj s { so2 with keysOrder := ao.keysOrder, uniq := ao.uniq }).putObj p { po with sets := setIns po.sets s } ∧
      Good w5 ∧ Knows T P w5 ∧ Inv own home w5 ∧ Beside s w w5 ∧ w5.getObj s = some so5 ∧ so5.isSet = true ∧ so5.parent = some p ∧ so5.recs = [] := by
  have ok := hi.s.sets s so hs his
  have hrec := ok.det hnone
  obtain ⟨po', hpo', hpv, _⟩ := hi.l.up a ao p ha hai hp
  rw [hpo] at hpo'; cases hpo'
  have hps : p ≠ s := by intro e; subst e; rw [hs] at hpo; cases hpo; rw [his] at hpv; cases hpv
  have hb : ({ so with parent := some p } : Obj K V Ty) = { so with isBase := false, parent := some p } := by rw [← ok.base]
  have hck : copyKeys env ao (w.putObj s { so with isBase := false, parent := some p }) s =
      some (w.putObj s (withKeys { so with isBase := false, parent := some p } ao.cols)) := copyKeys_eq hrec
  have hg2 : (w.putObj s (withKeys { so with isBase := false, parent := some p } ao.cols)).getObj s = some (withKeys { so with isBase := false, parent := some p } ao.cols) :=
    getObj_putObj_self _ _ _
  obtain ⟨w5, so5, e5, e5', sp5, m1, m2, m3, m4, mO⟩ := adopt_spec hi.q.si hs his hnone rfl hpo hpv hh hck hg2
  have sim := told_sim (E := fun _ => False) hi hk
  have d := adopt_deep (told_inv (E := fun _ => False) hi) (full_deep hi hg) hs his hnone ha hai hp hpo
  have sim5 := (sim.putObj s { withKeys { so with isBase := false, parent := some p } ao.cols with keysOrder := ao.keysOrder, uniq := ao.uniq }).putObj p
    { po with sets := setIns po.sets s }
  have ew5 : w5 = (w.putObj s { withKeys { so with isBase := false, parent := some p } ao.cols with keysOrder := ao.keysOrder, uniq := ao.uniq }).putObj p
      { po with sets := setIns po.sets s } := by rw [e5, putObj_putObj]
  rw [← ew5] at sim5
  obtain ⟨g1, g2⟩ := sim5.good d
  refine ⟨_, _, w5, so5, by rw [hb]; exact hck, hg2, e5', e5, g1, g2, sp5.inv hi, ?_, m1, m2, m3, m4⟩
  refine ⟨fun o hne hn => ?_, fun o hne x hx => ?_⟩
  · have : o ≠ p := by rintro rfl; rw [hpo] at hn; cases hn
    rw [mO o hne this]; exact hn
  · by_cases e : o = p
    · subst e; rw [hpo] at hx; cases hx
      exact ⟨_, by rw [ew5, getObj_putObj_self]⟩
    · exact ⟨x.sets, by rw [mO o hne e]; exact hx⟩

/-! ### The functions -/

theorem union_turn {T P : Nat → Prop} {env : Env} {w : World K V Ty} {a b s p : Nat} {so ao bo : Obj K V Ty} (hi : Inv own home w) (hg : Good w) (hk : Knows T P w)
    (hs : w.getObj s = some so) (his : so.isSet = true) (ha : w.getObj a = some ao) (hai : ao.isSet = true) (hb : w.getObj b = some bo) (hbi : bo.isSet = true)
    (hab : ¬ (a = b ∨ a = s ∨ b = s)) (hpa : ao.parent = some p) (hpb : bo.parent = some p) (hh : p = home s) :
    ∃ w', setUnion env w a b s = some (w', .good none) ∧ Filled own home (fun t => T t ∨ t = s) P s p (fun r => r ∈ ao.recs ∨ r ∈ bo.recs) w w' := by
  simp only [not_or] at hab
  obtain ⟨h1, h2, h3⟩ := hab
  obtain ⟨w1, e1, f1⟩ := assign_good (env := env) hi hg hk hs his ha hai (Ne.symm h2) hpa hh
  obtain ⟨so1, b1, b2, b3, b4, b5⟩ := f1.out
  obtain ⟨bo1, c1, c2, c3, c4⟩ := f1.beside.setOf h3 hb
  rcases setJoin_turn (env := env) f1.inv f1.good b1 b2 c1 (c2.trans hbi) with ⟨c, hc, _⟩ | ⟨p', w', so', l, _, _, _, e2, tu, g1, g2, g3⟩
  · exfalso
    simp only [setOpCheck, b3, c3, hpb] at hc
    simp [Ne.symm h3] at hc
  · refine ⟨w', ?_, tu.good, ?_, tu.inv, f1.beside.trans tu.beside, so', tu.get, tu.isSet, tu.par.trans b3, ?_, ?_⟩
    · simp only [setUnion, ha, hb, hs, Option.bind_eq_bind, Option.bind_some, h1, h2, h3, or_self, if_false, hpa, hpb, reduceCtorEq, ne_eq, not_true_eq_false, e1, e2]
    · refine tu.knows b1 b2 f1.knows (fun _ h => .inl h) (fun _ h => h) (fun r h h' => ?_) (fun _ _ _ => .inr rfl)
      rw [g1] at h'; simp [h] at h'
    · intro r
      rw [g1, List.mem_append, g2, b4, c4]
      by_cases hr : r ∈ ao.recs <;> simp [hr]
    · intro bb k r hr hm
      have hm1 : mhas so1.cols k = true := by
        by_contra hn
        have hn : mhas so1.cols k = false := by simpa using hn
        obtain ⟨c, hc⟩ := (mhas_iff _ _).mp hm
        have hv := hi.l.up a ao p ha hai hpa
        obtain ⟨po, hpo, hpv, _⟩ := f1.inv.l.up s so1 p b1 b2 b3
        have a1 := (f1.good.set s so1 b1 b2).att p po b3 hpo
        have hps : p ≠ s := by rintro rfl; rw [b1] at hpo; cases hpo; rw [b2] at hpv; cases hpv
        have a2 := (tu.good.set s so' tu.get tu.isSet).att p po (tu.par.trans b3) (by rw [tu.obj p hps]; exact hpo)
        have e := (a2.ty k).trans (a1.ty k).symm
        rw [hc, (mhas_false _ _).mp hn] at e; cases e
      rw [g3]
      by_cases hra : r ∈ ao.recs
      · exact .inl (b5 bb k r hra hm1)
      · refine .inr ⟨?_, hm1⟩
        rw [g2, b4, c4]
        exact ⟨hr.resolve_left hra, hra⟩

theorem intersection_turn {T P : Nat → Prop} {env : Env} {w : World K V Ty} {a b s p : Nat} {so ao bo : Obj K V Ty} (hi : Inv own home w) (hg : Good w) (hk : Knows T P w)
    (hs : w.getObj s = some so) (his : so.isSet = true) (ha : w.getObj a = some ao) (hai : ao.isSet = true) (hb : w.getObj b = some bo) (hbi : bo.isSet = true)
    (hab : ¬ (a = b ∨ a = s ∨ b = s)) (hpa : ao.parent = some p) (hpb : bo.parent = some p) (hh : p = home s) :
    ∃ w', setIntersection env w a b s = some (w', .good none) ∧ Filled own home (fun t => T t ∨ t = s) P s p (fun r => r ∈ ao.recs ∧ r ∈ bo.recs) w w' := by
  have hab0 := hab
  simp only [not_or] at hab
  obtain ⟨h1, h2, h3⟩ := hab
  obtain ⟨w1, so1, e1, g1, k1, i1, be1, a1, a2, a3, a4, _⟩ := reset_good (env := env) hi hg hk hs his
  obtain ⟨l1, c1⟩ := be1.obj a h2 ao ha
  obtain ⟨po, hpo, hpv, hsub⟩ := good_vault i1 g1 c1 hai hpa
  obtain ⟨w2, so2, w5, so5, q1, q2, q3, q4, g5, k5, i5, be5, m1, m2, m3, m4⟩ := adopt_good (env := env) i1 g1 k1 a1 a2 a3 c1 hai hpa hpo hh
  have hps : p ≠ s := by intro e; subst e; rw [a1] at hpo; cases hpo; rw [a2] at hpv; cases hpv
  obtain ⟨l5, hpo5⟩ := be5.obj p hps po hpo
  have hm : ∀ r, r ∈ (if ao.recs.length < bo.recs.length then (env.perm ao.recs).filter (· ∈ bo.recs) else (env.perm bo.recs).filter (· ∈ ao.recs)) ↔
      r ∈ ao.recs ∧ r ∈ bo.recs := by
    intro r
    split
    · simp [List.mem_filter]
    · simp [List.mem_filter, and_comm]
  obtain ⟨w', so', l, e6, tu, r1, r2, r3, r4⟩ := loop_addOnly_turn (own := own) (home := home)
    (if ao.recs.length < bo.recs.length then (env.perm ao.recs).filter (· ∈ bo.recs) else (env.perm bo.recs).filter (· ∈ ao.recs))
    i5 g5 m1 m2 m3 hpo5 (fun r hr => hsub r ((hm r).mp hr).1)
  refine ⟨w', ?_, tu.good, ?_, tu.inv, (be1.trans be5).trans tu.beside, so', tu.get, tu.isSet, tu.par.trans m3, ?_, ?_⟩
  · simp only [setIntersection, ha, hb, hs, Option.bind_eq_bind, Option.bind_some, h1, h2, h3, or_self, if_false, hpa, hpb, reduceCtorEq, ne_eq, not_true_eq_false, e1, a1]
    have : copyKeys env ao (w1.putObj s { so1 with parent := some p }) s = some w2 := q1
    simp only [this, q2, q3, Option.bind_some]
    have q4 : w5 = (w2.putObj s { so2 with keysOrder := ao.keysOrder, uniq := ao.uniq }).putObj p { po with sets := setIns po.sets s } := q4
    rw [← q4, e6]; rfl
  · refine tu.knows m1 m2 k5 (fun _ h => .inl h) (fun _ h => h) (fun r h h' => ?_) (fun _ _ _ => .inr rfl)
    rw [m4] at h; cases h
  · intro r
    rw [r1, m4, List.nil_append, r2, hm, m4]; simp
  · intro bb k r hr hk'
    rw [r3]
    refine .inr ⟨?_, by rw [← r4]; exact hk'⟩
    rw [r2, hm, m4]; exact ⟨hr, by simp⟩

end MVault.W
