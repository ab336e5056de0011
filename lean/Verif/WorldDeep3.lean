import Verif.WorldDeep2
import Verif.WorldAsk
/-
Requests in careful histories.
-/
set_option linter.unusedSectionVars false
set_option linter.unusedSimpArgs false
namespace MVault.W
variable {K V Ty : Type} [LinearOrder K] [LinearOrder V] [Typed V Ty] [DecidableEq Ty]
variable {own home : Nat → Nat}

theorem Alike.refl (a : Obj K V Ty) : Alike a a :=
  ⟨rfl, rfl, fun _ => rfl, fun k c pc h1 h2 h3 => by rw [h1] at h2; cases h2; exact h3⟩

/-- What an object and the vault it belongs to have in common. -/
theorem alike_of {w : World K V Ty} (hi : Inv own home w) (hd : Deep w) {o p : Nat} {oo po : Obj K V Ty} (ho : w.getObj o = some oo)
    (hp : vaultOf o oo = some p) (hpo : w.getObj p = some po) : Alike oo po := by
  unfold vaultOf at hp
  split at hp
  · rename_i hs; exact (hd.set o oo ho hs).att p po hp hpo
  · cases hp; rw [ho] at hpo; cases hpo; exact .refl _

/-- The columns of vaults and sets are consistent with the records they hold. -/
theorem col_of {w : World K V Ty} (hi : Inv own home w) (hd : Deep w) {o : Nat} {oo : Obj K V Ty} (ho : w.getObj o = some oo)
    {k : K} {c : Col V Ty} (hc : mget oo.cols k = some c) : ColOk (fun r => cellOf w r k) oo.recs c := by
  cases hs : oo.isSet with
  | true => exact (hd.set o oo ho hs).cols k c hc
  | false => exact (hi.v.vok o oo ho hs).cols k c hc

/-- The vault an object belongs to is alive, and has the object's records. -/
theorem vault_of {w : World K V Ty} (hi : Inv own home w) (hd : Deep w) {o p : Nat} {oo : Obj K V Ty} (ho : w.getObj o = some oo)
    (hp : vaultOf o oo = some p) : ∃ po, w.getObj p = some po ∧ po.isSet = false ∧ ∀ r ∈ oo.recs, r ∈ po.recs := by
  unfold vaultOf at hp
  split at hp
  · rename_i hs
    obtain ⟨po, h1, h2, _⟩ := hi.l.up o oo p ho hs hp
    refine ⟨po, h1, h2, ?_⟩
    intro r hr
    obtain ⟨x, hx, hv, _⟩ := (hd.set o oo ho hs).held r hr
    have hso := hi.s.sets o oo ho hs
    obtain ⟨vo, a, b, c⟩ := hi.v.val r x hx hv
    rw [(hso.recs r hr).1, ← hso.par p hp, h1] at a
    cases a; exact c
  · rename_i hs
    cases hp; exact ⟨oo, ho, by simpa using hs, fun r h => h⟩

theorem prepTarget_deep {env : Env} {w : World K V Ty} {o p s : Nat} {oo so : Obj K V Ty} (hi : Inv own home w) (hd : Deep w)
    (ho : w.getObj o = some oo) (hp : vaultOf o oo = some p) (hs : w.getObj s = some so) (his : so.isSet = true) (hh : p = home s)
    (hos : o ≠ s) :
    ∃ w' so' po, prepTarget env w o p s = some w' ∧ Only s w w' ∧ Deep w' ∧ Filling own w' s p [] so' ∧ so'.recs = [] ∧
      w'.getObj p = some po ∧ po.isSet = false ∧ (∃ l, w'.getObj o = some { oo with sets := l }) ∧ w'.refs = w.refs ∧
      w'.nextR = w.nextR ∧ w'.nextO = w.nextO := by
  obtain ⟨po, hpo, hpv, hsubr⟩ := vault_of hi hd ho hp
  have hal := alike_of hi hd ho hp hpo
  have hps : p ≠ s := by intro e; subst e; rw [hs] at hpo; cases hpo; rw [his] at hpv; cases hpv
  have ok := hi.s.sets s so hs his
  have dp := hd.set s so hs his
  by_cases hpar : so.parent = some p
  · obtain ⟨po', a, _, hm⟩ := hi.l.up s so p hs his hpar
    rw [hpo] at a; cases a
    have e : setIns po.sets s = po.sets := by simp [setIns, hm]
    have hself : w.putObj p { po with sets := setIns po.sets s } = w := by
      rw [e]
      have : ({ po with sets := po.sets } : Obj K V Ty) = po := rfl
      rw [this]
      unfold World.putObj
      rw [mput_same w.objs p po hpo]
    obtain ⟨w1, h1, o1, d1, si1, g1, f1, u1, rr1, e1, e2, e3⟩ := setClear_deep (env := env) hd hi.q.si hs his
    refine ⟨w1, { so with cols := clearCols so.cols, recs := [] }, po, ?_, o1, d1, ?_, rfl, by rw [f1 p hps]; exact hpo, hpv, ⟨oo.sets, by rw [f1 o hos]; exact ho⟩, e1, e2, e3⟩
    · simp only [prepTarget, hpo, Option.bind_eq_bind, Option.bind_some, hself, hs, if_pos hpar]
      exact h1
    · have dp1 := d1.set s _ g1 his
      refine ⟨g1, his, ok.base, ok.sets, hpar, fun po' h => dp1.att p po' hpar h, fun k c hc => dp1.cols k c hc, ?_⟩
      intro r x hx hv
      simp only [List.not_mem_nil, iff_false]
      exact u1 r x hx hv
  · have hnone : so.parent = none := by
      cases hq : so.parent with
      | none => rfl
      | some q => exact absurd (by rw [hq, ok.par q hq, ← hh]) hpar
    have hrec := ok.det hnone
    obtain ⟨hcol, hkeys, huniq⟩ := dp.det hnone
    let po1 : Obj K V Ty := { po with sets := setIns po.sets s }
    let w1 := w.putObj p po1
    let so3 : Obj K V Ty := { so with parent := some p }
    let w3 := w1.putObj s so3
    have hs1 : w1.getObj s = some so := by simp only [w1, getObj_putObj, if_neg hps, hs]
    have ho1 : ∃ l, w1.getObj o = some { oo with sets := l } := by
      simp only [w1, getObj_putObj]
      by_cases e : p = o
      · subst e; rw [hpo] at ho; cases ho; simp only [if_true]; exact ⟨_, rfl⟩
      · rw [if_neg e]; exact ⟨oo.sets, ho⟩
    obtain ⟨lo, ho1⟩ := ho1
    have ho3 : w3.getObj o = some { oo with sets := lo } := by simp only [w3, getObj_putObj, if_neg (Ne.symm hos)]; exact ho1
    let so4 := withKeys so3 oo.cols
    let so5 : Obj K V Ty := { so4 with keysOrder := oo.keysOrder, uniq := oo.uniq }
    have hck : copyKeys env { oo with sets := lo } w3 s = some (w1.putObj s so4) :=
      copyKeys_eq (env := env) (src := { oo with sets := lo }) (vo := so3) (w := w1) (o := s) hrec
    have hreset : setReset env w1 s = some w1 := by simp [setReset, hs1, hnone]
    have hcall : prepTarget env w o p s = some (w1.putObj s so5) := by
      have e1 : (w.putObj p { po with sets := setIns po.sets s }).getObj s = some so := hs1
      have e2 : setReset env (w.putObj p { po with sets := setIns po.sets s }) s = some w1 := hreset
      have e3 : (w1.putObj s { so with parent := some p }).getObj o = some { oo with sets := lo } := ho3
      have e4 : copyKeys env { oo with sets := lo } (w1.putObj s { so with parent := some p }) s = some (w1.putObj s so4) := hck
      simp only [prepTarget, hpo, Option.bind_eq_bind, Option.bind_some, e1, if_neg hpar, e2, hs1, e3, e4, getObj_putObj_self, putObj_putObj]
      rfl
    obtain ⟨k1, k2, k3, k4, k5, k6, k7, _⟩ := withKeys_spec oo.cols so3
    have o1 : Only s w w1 := .putSets hpo _ (fun h => nodup_setIns _ _ h)
    have oAll : Only s w (w1.putObj s so5) := o1.trans (.putSet _ _ _)
    have hcols : ∀ k, mget so5.cols k = (mget oo.cols k).map Col.fresh := by
      intro k
      show mget (withKeys so3 oo.cols).cols k = _
      rw [k7]
      have : mget so3.cols k = none := by show mget so.cols k = none; rw [hcol]; rfl
      rw [this]; simp
    have hun : Unknown s w := by
      intro r x hx hv hm
      obtain ⟨so', h1, _, h3⟩ := hd.told r x s hx hv hm
      rw [hs] at h1; cases h1; rw [hrec] at h3; cases h3
    have hg : (w1.putObj s so5).getObj p = some po1 := by
      simp only [w1, getObj_putObj, if_neg (Ne.symm hps), if_true]
    have fil : Filling own (w1.putObj s so5) s p [] so5 := by
      refine ⟨getObj_putObj_self _ _ _, k1.trans his, k2.trans ok.base, k6.trans ok.sets, k3, ?_, ?_, ?_⟩
      · intro po' h
        rw [hg] at h; cases h
        refine ⟨hal.keys, hal.uniq, ?_, ?_⟩
        · intro k
          rw [hcols]
          show _ = (mget po.cols k).map (·.ty)
          rw [← hal.ty k]
          cases hc : mget oo.cols k with
          | none => rfl
          | some c => simp [Col.fresh, (col_of hi hd ho hc).dfltT]
        · intro k c pc hc _ hm
          rw [hcols, Option.map_eq_some_iff] at hc
          obtain ⟨c0, _, rfl⟩ := hc
          simp [Col.fresh] at hm
      · intro k c hc
        rw [hcols, Option.map_eq_some_iff] at hc
        obtain ⟨c0, _, rfl⟩ := hc
        exact .empty _ _ rfl rfl rfl rfl rfl
      · intro r x hx hv
        simp only [List.not_mem_nil, iff_false]
        exact hun r x hx hv
    have hrec5 : so5.recs = [] := k5.trans hrec
    refine ⟨_, so5, po1, hcall, oAll, ?_, fil, hrec5, hg, hpv, ⟨lo, ?_⟩, rfl, rfl, rfl⟩
    · exact fil.deep hd hi.l oAll hs his (by rw [hrec5]; simp) (by rw [hrec5]; simp) (by simp)
    · simp only [getObj_putObj, if_neg (Ne.symm hos)]; exact ho1

end MVault.W
