import Verif.WorldDeep4
/-
Look-ups, AddRecord and copies of sets in careful histories: defined, and the set invariant is kept.
-/
set_option linter.unusedSectionVars false
set_option linter.unusedSimpArgs false
namespace MVault.W
variable {K V Ty : Type} [LinearOrder K] [LinearOrder V] [Typed V Ty] [DecidableEq Ty]
variable {own home : Nat → Nat}

/-- The records of a vault or set are valid. -/
theorem rec_of {w : World K V Ty} (hi : Inv own home w) (hd : Deep w) {o : Nat} {oo : Obj K V Ty} (ho : w.getObj o = some oo)
    {r : Nat} (hr : r ∈ oo.recs) : (∃ x, w.getRec r = some x ∧ x.valid = true) ∧ own r = if oo.isSet = true then home o else o := by
  cases hs : oo.isSet with
  | true =>
    obtain ⟨x, hx, hv, _⟩ := (hd.set o oo ho hs).held r hr
    exact ⟨⟨x, hx, hv⟩, by simpa using ((hi.s.sets o oo ho hs).recs r hr).1⟩
  | false =>
    obtain ⟨h1, h2⟩ := hi.v.mem o oo ho hs r hr
    exact ⟨h2, by simpa using h1⟩

theorem range_mem {env : Env} {w : World K V Ty} (hi : Inv own home w) (hd : Deep w) {o : Nat} {oo : Obj K V Ty} (ho : w.getObj o = some oo)
    {k : K} {c : Col V Ty} (hc : mget oo.cols k = some c) {v : V} {r : Nat} (hr : r ∈ equalRange env c v) :
    r ∈ oo.recs ∧ cellOf w r k = some v :=
  (col_of hi hd ho hc).hashS v r (equalRange_mem.mp hr)

theorem getRecord_deep {env : Env} {w : World K V Ty} {o f : Nat} {oo : Obj K V Ty} {k : K} {v : V} {old : Ref} (hi : Inv own home w)
    (hd : Deep w) (ho : w.getObj o = some oo) (hf : w.refs[f]? = some old) :
    ∃ w' res, getRecord env w o k v f = some (w', res) ∧ RF w w' ∧ ∃ x, w'.refs[f]? = some x := by
  simp only [getRecord, ho, Option.bind_eq_bind, Option.bind_some]
  cases hc : checkKey oo k (typeOf v) with
  | error e => exact ⟨w, e, rfl, .refl _, old, hf⟩
  | ok c =>
    obtain ⟨hk, _⟩ := checkKey_ok hc
    dsimp only
    cases he : equalRange env c v with
    | nil =>
      obtain ⟨w2, e2, st, rf⟩ := setRecord_ok (p := none) hi.r hi.v.ltO ho hf (by simp) (by simp)
      exact ⟨w2, _, by rw [e2]; rfl, st.rf, ⟨none, some o⟩, by rw [rf]; exact set_getElem?_self hf _⟩
    | cons r l =>
      obtain ⟨hr, _⟩ := range_mem (env := env) (v := v) (r := r) hi hd ho hk (by rw [he]; simp)
      obtain ⟨⟨x, hx, _⟩, hown⟩ := rec_of hi hd ho hr
      obtain ⟨w2, e2, st, rf⟩ := setRecord_ok (p := some r) hi.r hi.v.ltO ho hf
        (by intro r' e; cases e; exact ⟨x, hx⟩) (by intro r' e; cases e; exact hown)
      exact ⟨w2, _, by dsimp only; rw [e2]; rfl, st.rf, ⟨some r, some o⟩, by rw [rf]; exact set_getElem?_self hf _⟩

theorem getRecords_deep {env : Env} {w : World K V Ty} {o n : Nat} {oo : Obj K V Ty} {k : K} {v : V} (hi : Inv own home w)
    (hd : Deep w) (ho : w.getObj o = some oo) : ∃ w' res, getRecords env w o k v n = some (w', res) ∧ RF w w' := by
  simp only [getRecords, ho, Option.bind_eq_bind, Option.bind_some]
  cases hc : checkKey oo k (typeOf v) with
  | error e => exact ⟨w, e, rfl, .refl _⟩
  | ok c =>
    obtain ⟨hk, _⟩ := checkKey_ok hc
    dsimp only
    cases he : equalRange env c v with
    | nil => exact ⟨w, _, rfl, .refl _⟩
    | cons r l =>
      obtain ⟨w2, e2, st, _⟩ := loop_newRefTo (l := (r :: l).take (max n 1)) hi ho (by
        intro r' hr'
        exact rec_of hi hd ho (range_mem (env := env) (v := v) hi hd ho hk (by rw [he]; exact List.mem_of_mem_take hr')).1)
      exact ⟨w2, _, by dsimp only; rw [e2]; rfl, st.rf⟩

theorem getSorted_deep {w : World K V Ty} {o : Nat} {oo : Obj K V Ty} {k : K} {rev : Bool} {n : Option Nat} (hi : Inv own home w)
    (hd : Deep w) (ho : w.getObj o = some oo) : ∃ w', getSorted w o k rev n = some w' ∧ RF w w' := by
  simp only [getSorted, ho, Option.bind_eq_bind, Option.bind_some]
  split
  · exact ⟨w, rfl, .refl _⟩
  · obtain ⟨w2, e2, st, _⟩ := loop_newRefTo (l := sortedIds oo k rev n) hi ho (by
      intro r hr
      obtain ⟨c, v, hc, hm⟩ := sortedIds_mem hr
      exact rec_of hi hd ho ((col_of hi hd ho hc).ordS v r hm).1)
    exact ⟨w2, e2, st.rf⟩

theorem setGetRecord_deep {env : Env} {w : World K V Ty} {s f : Nat} {so : Obj K V Ty} {k : K} {v : V} {old : Ref} (hi : Inv own home w)
    (hd : Deep w) (hs : w.getObj s = some so) (hf : w.refs[f]? = some old) :
    ∃ w' res, setGetRecord env w s k v f = some (w', res) ∧ RF w w' := by
  simp only [setGetRecord, hs, Option.bind_eq_bind, Option.bind_some]
  cases hp : so.parent with
  | none => exact ⟨w, _, rfl, .refl _⟩
  | some p =>
    obtain ⟨w1, res, h1, f1, x, hx⟩ := getRecord_deep (env := env) (k := k) (v := v) hi hd hs hf
    simp only [h1, Option.bind_some, hx]
    exact ⟨_, _, rfl, f1.trans (.setRefs _ _)⟩

theorem setGetRecords_deep {env : Env} {w : World K V Ty} {s n : Nat} {so : Obj K V Ty} {k : K} {v : V} (hi : Inv own home w)
    (hd : Deep w) (hs : w.getObj s = some so) (his : so.isSet = true) :
    ∃ w' res, setGetRecords env w s k v n = some (w', res) ∧ RF w w' := by
  simp only [setGetRecords, hs, Option.bind_eq_bind, Option.bind_some]
  cases hp : so.parent with
  | none => exact ⟨w, _, rfl, .refl _⟩
  | some p =>
    obtain ⟨po, hpo, hpv, _⟩ := hi.l.up s so p hs his hp
    simp only [hpo, Option.bind_some]
    cases hc : checkKey so k (typeOf v) with
    | error e => exact ⟨w, e, rfl, .refl _⟩
    | ok c =>
      obtain ⟨hk, _⟩ := checkKey_ok hc
      dsimp only
      cases he : equalRange env c v with
      | nil => exact ⟨w, _, rfl, .refl _⟩
      | cons r l =>
        obtain ⟨w2, e2, st, _⟩ := loop_newRefTo (l := (r :: l).take (max n 1)) hi hpo (by
          intro r' hr'
          obtain ⟨h1, h2⟩ := rec_of hi hd hs (range_mem (env := env) (v := v) hi hd hs hk (by rw [he]; exact List.mem_of_mem_take hr')).1
          refine ⟨h1, ?_⟩
          rw [h2]; simp only [his, hpv, if_true, Bool.false_eq_true, if_false]
          exact ((hi.s.sets s so hs his).par p hp).symm)
        exact ⟨w2, _, by dsimp only; rw [e2]; rfl, st.rf⟩

/-! ### AddRecord -/

theorem Filling.of_deep {w : World K V Ty} {s p : Nat} {so : Obj K V Ty} (hi : Inv own home w) (hd : Deep w) (hs : w.getObj s = some so)
    (his : so.isSet = true) (hp : so.parent = some p) : Filling own w s p so.recs so := by
  have ok := hi.s.sets s so hs his
  have dp := hd.set s so hs his
  refine ⟨hs, his, ok.base, ok.sets, hp, fun po h => dp.att p po hp h, dp.cols, ?_⟩
  intro r x hx hv
  constructor
  · intro hm
    obtain ⟨so', h1, _, h3⟩ := hd.told r x s hx hv hm
    rw [hs] at h1; cases h1; exact h3
  · intro hr
    obtain ⟨y, hy, _, hm⟩ := dp.held r hr
    rw [hx] at hy; cases hy; exact hm

theorem Filling.withRecs {w : World K V Ty} {s p : Nat} {d : List Nat} {so : Obj K V Ty} (hf : Filling own w s p d so) (hps : p ≠ s)
    (l : List Nat) : Filling own (w.putObj s { so with recs := l }) s p d { so with recs := l } := by
  refine ⟨getObj_putObj_self _ _ _, hf.isSet, hf.base, hf.sets, hf.par, ?_, hf.cols, hf.know⟩
  intro po h
  simp only [getObj_putObj, if_neg (Ne.symm hps)] at h
  obtain ⟨a, b, c, d⟩ := hf.alike po h
  exact ⟨a, b, c, d⟩

/-- One record is entered and remembered. -/
theorem enter_fill {so po : Obj K V Ty} {w : World K V Ty} {s p r : Nat} {d l : List Nat} {x : Rec K V}
    (hf : Filling own w s p d so) (hv : VInv own w) (hp : w.getObj p = some po) (hpv : po.isSet = false) (hr : r ∈ po.recs)
    (hx : w.getRec r = some x) (hrd : r ∉ d) (hsub : ∀ r' ∈ d, r' ∈ po.recs) :
    ∃ w' so', attach s (w.putObj s { so with recs := l }) r = some w' ∧ Only s w w' ∧ Filling own w' s p (d ++ [r]) so' ∧ so'.recs = l ∧
      w'.refs = w.refs ∧ w'.nextR = w.nextR ∧ w'.nextO = w.nextO ∧ (∀ o, o ≠ s → w'.getObj o = w.getObj o) ∧ Grown [r] so so' := by
  have hps : p ≠ s := by
    intro e; subst e; rw [hf.get] at hp; cases hp; rw [hf.isSet] at hpv; cases hpv
  have f1 := hf.withRecs hps l
  have o1 : Only s w (w.putObj s { so with recs := l }) := .putSet _ _ _
  have hv1 := (o1.sf hf.get hf.isSet f1.get f1.isSet rfl rfl rfl).vinv hv
  have hp1 : (w.putObj s { so with recs := l }).getObj p = some po := by simp only [getObj_putObj, if_neg (Ne.symm hps)]; exact hp
  obtain ⟨w2, so2, h2, o2, f2, a1, a2, a3, a4, a5, a6, a7, a8⟩ := attach_fill f1 hv1 hp1 hpv hr (by simpa using hx) hrd hsub
  refine ⟨w2, so2, h2, o1.trans o2, f2, a1, a4, a5, a6, ?_, a8⟩
  intro o hne
  rw [a7 o hne]; simp only [getObj_putObj, if_neg (Ne.symm hne)]

/-- The record behind the reference can enter the set. -/
def Fits (w : World K V Ty) (so : Obj K V Ty) (ref : Ref) (p r : Nat) : Prop :=
  so.parent = some p ∧ ref.ptr = some r ∧ ref.vlt = some p ∧ r ∉ so.recs ∧ ∃ x, w.getRec r = some x ∧ x.valid = true

theorem setAddRecord_obj {w : World K V Ty} {s f : Nat} {so : Obj K V Ty} {ref : Ref} (hi : Inv own home w) (hd : Deep w)
    (hs : w.getObj s = some so) (his : so.isSet = true) (hf : w.refs[f]? = some ref) :
    ∃ w' res, setAddRecord w s f = some (w', res) ∧ Deep w' ∧
      ((w' = w ∧ res.ok = false ∧ ∀ p r, ¬ Fits w so ref p r) ∨
       (res = .good none ∧ ∃ p r so', Fits w so ref p r ∧ Only s w w' ∧ w'.nextO = w.nextO ∧ w'.getObj s = some so' ∧ so'.isSet = true ∧
         so'.parent = some p ∧ so'.recs = so.recs ++ [r] ∧ Grown [r] so so')) := by
  simp only [setAddRecord, hs, Option.bind_eq_bind, Option.bind_some]
  cases hp : so.parent with
  | none => exact ⟨w, _, rfl, hd, .inl ⟨rfl, rfl, fun p r h => by have := h.1; rw [hp] at this; cases this⟩⟩
  | some p =>
    obtain ⟨po, hpo, hpv, _⟩ := hi.l.up s so p hs his hp
    simp only [hf, Option.bind_some]
    cases hptr : ref.ptr with
    | none =>
      have : refIsValid w f = some false := by simp [refIsValid, hf, hptr]
      simp only [this, Option.bind_some, if_true]
      exact ⟨w, _, rfl, hd, .inl ⟨rfl, rfl, fun p r h => by have := h.2.1; rw [hptr] at this; cases this⟩⟩
    | some r =>
      obtain ⟨x, hx⟩ := hi.r.live ref (mem_of_get hf) r hptr
      have hv : refIsValid w f = some x.valid := by simp [refIsValid, hf, hptr, hx]
      simp only [hv, Option.bind_some]
      by_cases hxv : x.valid = false
      · rw [if_pos hxv]
        refine ⟨w, _, rfl, hd, .inl ⟨rfl, rfl, ?_⟩⟩
        rintro p' r' ⟨_, h2, _, _, y, hy, hyv⟩
        rw [hptr] at h2; cases h2; rw [hx] at hy; cases hy; rw [hxv] at hyv; cases hyv
      · rw [if_neg hxv]
        have hxv : x.valid = true := by simpa using hxv
        by_cases hvl : ref.vlt = some p
        · rw [if_neg (show ¬(ref.vlt ≠ some p) from fun h => h hvl)]
          by_cases hm : r ∈ so.recs
          · simp only [if_pos hm]
            refine ⟨w, _, rfl, hd, .inl ⟨rfl, rfl, ?_⟩⟩
            rintro p' r' ⟨_, h2, _, h4, _⟩
            rw [hptr] at h2; cases h2; exact h4 hm
          · simp only [if_neg hm]
            have hown := hi.r.own ref (mem_of_get hf) r p po hptr hvl hpo
            simp only [hpv, Bool.false_eq_true, if_false] at hown
            obtain ⟨po', a, _, hr⟩ := hi.v.val r x hx hxv
            rw [hown, hpo] at a; cases a
            have fil := Filling.of_deep hi hd hs his hp
            obtain ⟨_, hpo2, _, hsub⟩ := vault_of (p := p) hi hd hs (by simp [vaultOf, his, hp])
            rw [hpo] at hpo2; cases hpo2
            obtain ⟨w2, so2, h2, o2, f2, a1, _, _, an, _, ag⟩ := enter_fill (l := so.recs ++ [r]) fil hi.v hpo hpv hr hx hm hsub
            refine ⟨w2, .good none, by rw [← hp, h2]; rfl, ?_, .inr ⟨rfl, p, r, so2, ⟨hp, hptr, hvl, hm, x, hx, hxv⟩, o2, an, f2.get, f2.isSet, f2.par, a1, ag⟩⟩
            refine f2.deep hd hi.l o2 hs his (by rw [a1]; exact fun _ => Iff.rfl) ?_ ?_
            · rw [a1, List.nodup_append]
              exact ⟨(hd.set s so hs his).recsN, by simp, by intro a ha b hb e; simp at hb; subst hb; subst e; exact hm ha⟩
            · intro r' hr'
              have : ∃ y, w.getRec r' = some y ∧ y.valid = true := by
                rcases List.mem_append.mp hr' with h | h
                · exact (rec_of hi hd hs h).1
                · simp at h; subst h; exact ⟨x, hx, hxv⟩
              obtain ⟨y, hy, hyv⟩ := this
              obtain ⟨dd, hdd, _⟩ := o2.recS r' y hy
              exact ⟨_, hdd, hyv⟩
        · rw [if_pos hvl]
          refine ⟨w, _, rfl, hd, .inl ⟨rfl, rfl, ?_⟩⟩
          rintro p' r' ⟨h1, _, h3, _⟩
          rw [hp] at h1; cases h1; exact hvl h3

theorem setAddRecord_deep {w : World K V Ty} {s f : Nat} {so : Obj K V Ty} {ref : Ref} (hi : Inv own home w) (hd : Deep w)
    (hs : w.getObj s = some so) (his : so.isSet = true) (hf : w.refs[f]? = some ref) :
    ∃ w' res, setAddRecord w s f = some (w', res) ∧ Deep w' := by
  obtain ⟨w', res, h, d, _⟩ := setAddRecord_obj hi hd hs his hf
  exact ⟨w', res, h, d⟩

/-! ### Copies of sets -/

theorem loop_copy {po : Obj K V Ty} {s p : Nat} {l : List Nat} {w : World K V Ty} {d : List Nat} {so : Obj K V Ty}
    (hf : Filling own w s p d so) (hv : VInv own w) (hp : w.getObj p = some po) (hpv : po.isSet = false) (hl : ∀ r ∈ l, r ∈ po.recs)
    (hn : (d ++ l).Nodup) (hsub : ∀ r' ∈ d, r' ∈ po.recs) (hrd : ∀ r, r ∈ so.recs ↔ r ∈ d) (hrn : so.recs.Nodup) :
    ∃ w' so', loop (fun w r => do
        let so ← w.getObj s
        attach s (w.putObj s { so with recs := setIns so.recs r }) r) l w = some w' ∧ Only s w w' ∧ Filling own w' s p (d ++ l) so' ∧
      (∀ r, r ∈ so'.recs ↔ r ∈ d ++ l) ∧ so'.recs.Nodup ∧ w'.refs = w.refs ∧ w'.nextO = w.nextO ∧ Grown l so so' ∧
      ∀ k, mhas so'.cols k = mhas so.cols k := by
  induction l generalizing w d so with
  | nil => exact ⟨w, so, rfl, .refl _ _, by simpa using hf, by simpa using hrd, hrn, rfl, rfl, .refl _, fun _ => rfl⟩
  | cons r l ih =>
    have hps : p ≠ s := by
      intro e; subst e; rw [hf.get] at hp; cases hp; rw [hf.isSet] at hpv; cases hpv
    obtain ⟨_, x, hx, _⟩ := hv.mem p po hp hpv r (hl r (by simp))
    have hr : r ∉ d := by
      intro hm; rw [List.nodup_append] at hn; exact hn.2.2 r hm r (by simp) rfl
    obtain ⟨w1, so1, h1, o1, f1, a1, a4, a5, a6, a7, a8⟩ := enter_fill (l := setIns so.recs r) hf hv hp hpv (hl r (by simp)) hx hr hsub
    have hv1 := (o1.sf hf.get hf.isSet f1.get f1.isSet a4 a5 a6).vinv hv
    have hk1 : ∀ k, mhas so1.cols k = mhas so.cols k := fun k => mhas_alike (f1.alike po (by rw [a7 p hps]; exact hp)) (hf.alike po hp) k
    obtain ⟨w2, so2, h2, o2, f2, b1, b2, b3, b4, b5, b6⟩ := ih f1 hv1 (by rw [a7 p hps]; exact hp) (fun r' hr' => hl r' (by simp [hr']))
      (by simpa using hn) (by
        intro r' hr'
        rcases List.mem_append.mp hr' with hr' | hr'
        · exact hsub r' hr'
        · simp at hr'; subst hr'; exact hl _ (by simp))
      (by intro r'; rw [a1, mem_setIns, hrd]; simp)
      (by rw [a1]; exact nodup_setIns _ _ hrn)
    refine ⟨w2, so2, ?_, o1.trans o2, by simpa using f2, by simpa using b1, b2, b3.trans a4, b4.trans a6, a8.cons b5 hk1, fun k => (b6 k).trans (hk1 k)⟩
    simp only [loop, hf.get, Option.bind_eq_bind, Option.bind_some, h1]
    exact h2

theorem copySet_deep {env : Env} {w : World K V Ty} {s a p : Nat} {so ao : Obj K V Ty} (hi : Inv own home w) (hd : Deep w)
    (hs : w.getObj s = some so) (his : so.isSet = true) (hnone : so.parent = none) (ha : w.getObj a = some ao) (hai : ao.isSet = true)
    (hsa : s ≠ a) (hp : ao.parent = some p) : ∃ w', copySet env w s a = some w' ∧ Answered w w' s p ao.recs := by
  have hva : vaultOf a ao = some p := by simp [vaultOf, hai, hp]
  obtain ⟨po, hpo, hpv, hsub⟩ := vault_of hi hd ha hva
  have hal := alike_of hi hd ha hva hpo
  have hps : p ≠ s := by intro e; subst e; rw [hs] at hpo; cases hpo; rw [his] at hpv; cases hpv
  have ok := hi.s.sets s so hs his
  have dp := hd.set s so hs his
  have hrec := ok.det hnone
  obtain ⟨hcol, hkeys, huniq⟩ := dp.det hnone
  let so3 : Obj K V Ty := { so with isBase := false, parent := some p }
  let so4 := withKeys so3 ao.cols
  let so5 : Obj K V Ty := { so4 with keysOrder := ao.keysOrder, uniq := ao.uniq }
  let po1 : Obj K V Ty := { po with sets := setIns po.sets s }
  let w3 := w.putObj s so5
  let w4 := w3.putObj p po1
  have hck : copyKeys env ao (w.putObj s so3) s = some (w.putObj s so4) := copyKeys_eq (env := env) (src := ao) (vo := so3) (w := w) (o := s) hrec
  have hp3 : w3.getObj p = some po := by simp only [w3, getObj_putObj, if_neg (Ne.symm hps)]; exact hpo
  obtain ⟨k1, k2, k3, k4, k5, k6, k7, _⟩ := withKeys_spec ao.cols so3
  have o3 : Only s w w3 := .putSet _ _ _
  have o4 : Only s w3 w4 := .putSets hp3 _ (fun h => nodup_setIns _ _ h)
  have oAll := o3.trans o4
  have hcols : ∀ k, mget so5.cols k = (mget ao.cols k).map Col.fresh := by
    intro k
    show mget (withKeys so3 ao.cols).cols k = _
    rw [k7]
    have : mget so3.cols k = none := by show mget so.cols k = none; rw [hcol]; rfl
    rw [this]; simp
  have hg4 : w4.getObj p = some po1 := by simp only [w4, getObj_putObj, if_true]
  have hs4 : w4.getObj s = some so5 := by simp only [w4, w3, getObj_putObj, if_neg hps, if_true]
  have fil : Filling own w4 s p [] so5 := by
    refine ⟨hs4, k1.trans his, k2, k6.trans ok.sets, k3, ?_, ?_, ?_⟩
    · intro po' h
      rw [hg4] at h; cases h
      refine ⟨hal.keys, hal.uniq, ?_, ?_⟩
      · intro k
        rw [hcols]
        show _ = (mget po.cols k).map (·.ty)
        rw [← hal.ty k]
        cases hc : mget ao.cols k with
        | none => rfl
        | some c => simp [Col.fresh, (col_of hi hd ha hc).dfltT]
      · intro k c pc hc _ hm
        rw [hcols, Option.map_eq_some_iff] at hc
        obtain ⟨c0, _, rfl⟩ := hc
        simp [Col.fresh] at hm
    · intro k c hc
      rw [hcols, Option.map_eq_some_iff] at hc
      obtain ⟨c0, _, rfl⟩ := hc
      exact .empty _ _ rfl rfl rfl rfl rfl
    · intro r x hx hv
      simp only [List.not_mem_nil, iff_false]
      intro hm
      obtain ⟨so', h1, _, h3⟩ := hd.told r x s hx hv hm
      rw [hs] at h1; cases h1; rw [hrec] at h3; cases h3
  have hrec5 : so5.recs = [] := k5.trans hrec
  have hv4 : VInv own w4 := (oAll.sf hs his fil.get fil.isSet rfl rfl rfl).vinv hi.v
  obtain ⟨w5, so6, h5, o5, f5, b1, b2, b3, b4, b5, b6⟩ := loop_copy (l := env.perm ao.recs) fil hv4 hg4 hpv
    (fun r hr => hsub r (by simpa using hr)) (by simpa [nodup_perm] using (hd.set a ao ha hai).recsN) (by simp)
    (by rw [hrec5]; exact fun _ => Iff.rfl) (by rw [hrec5]; simp)
  refine ⟨w5, ?_, ?_, oAll.trans o5, b3, ⟨so6, f5.get, f5.isSet, f5.par, by simpa using b1⟩, ?_, b4⟩
  · have e1 : copyKeys env ao (w.putObj s { so with isBase := false, parent := some p }) s = some (w.putObj s so4) := hck
    have e2 : (w.putObj s so4).getObj s = some so4 := getObj_putObj_self _ _ _
    have e3 : (w.putObj s { so4 with keysOrder := ao.keysOrder, uniq := ao.uniq }).getObj p = some po := hp3
    simp only [copySet, ha, hp, hpo, hs, Option.bind_eq_bind, Option.bind_some, e1, e2, putObj_putObj, e3]
    exact h5
  · refine f5.deep hd hi.l (oAll.trans o5) hs his (by simpa using b1) b2 ?_
    intro r hr
    obtain ⟨_, x, hx, hxv⟩ := hi.v.mem p po hpo hpv r (hsub r (by simpa using hr))
    obtain ⟨d, hdd, _⟩ := (oAll.trans o5).recS r x hx
    exact ⟨_, hdd, hxv⟩
  · intro so' hs' b k r hr hk
    rw [f5.get] at hs'; cases hs'
    exact (b5 b k r).mpr (.inr ⟨by simpa using hr, by rw [← b6]; exact hk⟩)

/-- A set that belongs to no vault. -/
def Loosed (w w' : World K V Ty) (s : Nat) : Prop :=
  Only s w w' ∧ w'.nextO = w.nextO ∧ ∃ so', w'.getObj s = some so' ∧ so'.isSet = true ∧ so'.parent = none

theorem setAssign_obj {env : Env} {w : World K V Ty} {s a : Nat} {so ao : Obj K V Ty} (hi : Inv own home w) (hd : Deep w)
    (hs : w.getObj s = some so) (his : so.isSet = true) (ha : w.getObj a = some ao) (hai : ao.isSet = true) :
    ∃ w', setAssign env w s a = some w' ∧ Deep w' ∧ ((s = a ∧ w' = w) ∨ (s ≠ a ∧ ao.parent = none ∧ Loosed w w' s) ∨
      (s ≠ a ∧ ∃ p, ao.parent = some p ∧ Answered w w' s p ao.recs)) := by
  simp only [setAssign, hs, ha, Option.bind_eq_bind, Option.bind_some]
  by_cases hsa : s = a
  · rw [if_pos hsa]; exact ⟨w, rfl, hd, .inl ⟨hsa, rfl⟩⟩
  · rw [if_neg hsa]
    obtain ⟨w1, so1, h1, o1, d1, si1, lo, g, rr, e1, e2, e3⟩ := setReset_deep (env := env) hd hi.q.si hs his
    simp only [h1, Option.bind_some]
    cases hp : ao.parent with
    | none => simp only [if_true]; exact ⟨w1, rfl, d1, .inr (.inl ⟨hsa, trivial, o1, e3, so1, lo.get, lo.isSet, lo.parent⟩)⟩
    | some p =>
      rw [if_neg (by simp)]
      have sp1 := (setReset_spec hs his hi.q.si h1).1
      have i1 : Inv own home w1 := sp1.inv hi
      have ha1 : w1.getObj a = some ao := by
        rw [g a (Ne.symm hsa), if_neg]
        · exact ha
        · intro hpa
          obtain ⟨po, e1, e2, _⟩ := hi.l.up s so a hs his hpa
          rw [ha] at e1; cases e1; rw [hai] at e2; cases e2
      obtain ⟨w2, h2, an⟩ := copySet_deep (env := env) i1 d1 lo.get lo.isSet lo.parent ha1 hai hsa hp
      exact ⟨w2, h2, an.deep, .inr (.inr ⟨hsa, p, rfl, an.deep, o1.trans an.only, an.refs.trans e1, an.out, an.lists, an.next.trans e3⟩)⟩

theorem setAssign_deep {env : Env} {w : World K V Ty} {s a : Nat} {so ao : Obj K V Ty} (hi : Inv own home w) (hd : Deep w)
    (hs : w.getObj s = some so) (his : so.isSet = true) (ha : w.getObj a = some ao) (hai : ao.isSet = true) :
    ∃ w', setAssign env w s a = some w' ∧ Deep w' := by
  obtain ⟨w', h, d, _⟩ := setAssign_obj (env := env) hi hd hs his ha hai
  exact ⟨w', h, d⟩

/-- A new vault or set. -/
theorem Deep.newObj {w : World K V Ty} (hi : Inv own home w) (hd : Deep w) {x : Obj K V Ty} (hx : (x = Obj.newVault) ∨ (x = Obj.newSet)) :
    Deep ({ w with objs := mput w.objs w.nextO x, nextO := w.nextO + 1 } : World K V Ty) := by
  have hg : ∀ o' y, ({ w with objs := mput w.objs w.nextO x, nextO := w.nextO + 1 } : World K V Ty).getObj o' = some y →
      (o' = w.nextO ∧ y = x) ∨ (o' ≠ w.nextO ∧ w.getObj o' = some y) := by
    intro o' y hy
    rw [getObj_new] at hy
    split at hy
    · rename_i e; cases hy; exact .inl ⟨e.symm, rfl⟩
    · rename_i e; exact .inr ⟨Ne.symm e, hy⟩
  refine ⟨?_, ?_, hd.depsN, ?_⟩
  · intro s so hs his
    rcases hg s so hs with ⟨rfl, rfl⟩ | ⟨hne, hs⟩
    · rcases hx with rfl | rfl
      · cases his
      · refine ⟨by simp [Obj.newSet], by simp [Obj.newSet], by simp [Obj.newSet, mget], fun _ => ⟨rfl, rfl, rfl⟩, ?_⟩
        intro p po hp; cases hp
    · refine (hd.set s so hs his).frame (fun r hm y hy hv hdd => ⟨y, hy, hv, hdd, fun _ _ => rfl⟩) ?_
      intro p po' hp hpo'
      rcases hg p po' hpo' with ⟨rfl, _⟩ | ⟨_, h⟩
      · obtain ⟨po, hpo, _⟩ := hi.l.up s so _ hs his hp
        exact absurd (hi.v.ltO _ _ hpo) (by omega)
      · exact ⟨po', h, .refl _⟩
  · intro r y s hy hv hm
    obtain ⟨so, h1, h2, h3⟩ := hd.told r y s hy hv hm
    have hlt := hi.v.ltO s so h1
    refine ⟨so, ?_, h2, h3⟩
    rw [getObj_new, if_neg (by omega)]; exact h1
  · intro o vo ho
    rcases hg o vo ho with ⟨_, rfl⟩ | ⟨_, h⟩
    · rcases hx with rfl | rfl <;> simp [Obj.newVault, Obj.newSet]
    · exact hd.setsN o vo h

theorem setCopyNew_obj {env : Env} {w : World K V Ty} {a : Nat} {ao : Obj K V Ty} (hi : Inv own home w) (hd : Deep w)
    (ha : w.getObj a = some ao) (hai : ao.isSet = true) (hpar : ao.parent ≠ none) : ∃ w', setCopyNew env w a = some w' ∧ ∃ p, ao.parent = some p ∧
      Answered ({ w with objs := mput w.objs w.nextO Obj.newSet, nextO := w.nextO + 1 } : World K V Ty) w' w.nextO p ao.recs := by
  simp only [setCopyNew, ha, Option.bind_eq_bind, Option.bind_some, if_neg hpar]
  have hlt := hi.v.ltO a ao ha
  have hsa : w.nextO ≠ a := by omega
  rw [copySet_flag env w w.nextO a _ hsa]
  · have i1 : Inv own home ({ w with objs := mput w.objs w.nextO Obj.newSet, nextO := w.nextO + 1 } : World K V Ty) := hi.newObj (.inr rfl)
    have d1 := hd.newObj hi (x := Obj.newSet) (.inr rfl)
    have ha1 : ({ w with objs := mput w.objs w.nextO Obj.newSet, nextO := w.nextO + 1 } : World K V Ty).getObj a = some ao := by
      rw [getObj_new, if_neg hsa]; exact ha
    cases hp : ao.parent with
    | none => exact absurd hp hpar
    | some p =>
      obtain ⟨w2, h2, an⟩ := copySet_deep (env := env) i1 d1 (getObj_freshSelf _ _ _ _) rfl rfl ha1 hai hsa hp
      exact ⟨w2, h2, p, rfl, an⟩
  · intro ao' h' hp
    rw [ha] at h'; cases h'
    obtain ⟨po, hpo, _⟩ := hi.l.up a ao w.nextO ha hai hp
    have := hi.v.ltO _ _ hpo; omega

theorem setCopyNew_deep {env : Env} {w : World K V Ty} {a : Nat} {ao : Obj K V Ty} (hi : Inv own home w) (hd : Deep w)
    (ha : w.getObj a = some ao) (hai : ao.isSet = true) (hpar : ao.parent ≠ none) : ∃ w', setCopyNew env w a = some w' ∧ Deep w' := by
  obtain ⟨w', h, p, _, an⟩ := setCopyNew_obj (env := env) hi hd ha hai hpar
  exact ⟨w', h, an.deep⟩

end MVault.W
