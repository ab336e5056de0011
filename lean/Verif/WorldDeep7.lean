import Verif.WorldDeep6
/-
Writing values in careful histories: defined, and the set invariant is kept.
-/
set_option linter.unusedSectionVars false
set_option linter.unusedSimpArgs false
namespace MVault.W
variable {K V Ty : Type} [LinearOrder K] [LinearOrder V] [Typed V Ty] [DecidableEq Ty]
variable {own home : Nat → Nat}

/-- Keys, indices and values change; membership and the links between sets, vaults and records stay. -/
structure Steady (w w' : World K V Ty) : Prop where
  recOf : ∀ r y, w'.getRec r = some y → ∃ x, w.getRec r = some x ∧ y.valid = x.valid ∧ y.deps = x.deps
  recTo : ∀ r x, w.getRec r = some x → ∃ y, w'.getRec r = some y ∧ y.valid = x.valid ∧ y.deps = x.deps
  objOf : ∀ o b, w'.getObj o = some b → ∃ a, w.getObj o = some a ∧ b.isSet = a.isSet ∧ b.parent = a.parent ∧ b.recs = a.recs ∧ b.sets = a.sets
  objTo : ∀ o a, w.getObj o = some a → ∃ b, w'.getObj o = some b ∧ b.isSet = a.isSet ∧ b.parent = a.parent ∧ b.recs = a.recs ∧ b.sets = a.sets

theorem Deep.steady {w w' : World K V Ty} (hd : Deep w) (h : Steady w w')
    (hset : ∀ s a b, w.getObj s = some a → a.isSet = true → SetDeep w s a → w'.getObj s = some b →
      (∀ k c, mget b.cols k = some c → ColOk (fun r => cellOf w' r k) a.recs c) ∧
      (a.parent = none → b.cols = [] ∧ b.keysOrder = [] ∧ b.uniq = []) ∧
      (∀ p po, a.parent = some p → w'.getObj p = some po → Alike b po)) : Deep w' := by
  refine ⟨?_, ?_, ?_, ?_⟩
  · intro s b hb hbi
    obtain ⟨a, ha, e1, e2, e3, e4⟩ := h.objOf s b hb
    have dp := hd.set s a ha (e1 ▸ hbi)
    obtain ⟨g1, g2, g3⟩ := hset s a b ha (e1 ▸ hbi) dp hb
    refine ⟨?_, e3 ▸ dp.recsN, ?_, fun hn => g2 (e2 ▸ hn), fun p po hp => g3 p po (e2 ▸ hp)⟩
    · intro r hr
      obtain ⟨x, hx, hv, hdx⟩ := dp.held r (e3 ▸ hr)
      obtain ⟨y, hy, f1, f2⟩ := h.recTo r x hx
      exact ⟨y, hy, f1.trans hv, f2 ▸ hdx⟩
    · intro k c hc; rw [e3]; exact g1 k c hc
  · intro r y s hy hyv hm
    obtain ⟨x, hx, f1, f2⟩ := h.recOf r y hy
    obtain ⟨a, ha, b1, b2⟩ := hd.told r x s hx (f1 ▸ hyv) (f2 ▸ hm)
    obtain ⟨b, hb, e1, e2, e3, e4⟩ := h.objTo s a ha
    exact ⟨b, hb, e1.trans b1, e3 ▸ b2⟩
  · intro r y hy
    obtain ⟨x, hx, f1, f2⟩ := h.recOf r y hy
    rw [f2]; exact hd.depsN r x hx
  · intro o b hb
    obtain ⟨a, ha, e1, e2, e3, e4⟩ := h.objOf o b hb
    rw [e4]; exact hd.setsN o a ha

/-- A set that holds a record is attached to the record's vault and has its keys. -/
theorem holder {w : World K V Ty} (hi : Inv own home w) (hd : Deep w) {o r s : Nat} {vo so : Obj K V Ty} (ho : w.getObj o = some vo)
    (hown : own r = o) (hs : w.getObj s = some so) (his : so.isSet = true) (hr : r ∈ so.recs) : so.parent = some o ∧ Alike so vo := by
  have ok := hi.s.sets s so hs his
  cases hp : so.parent with
  | none => rw [ok.det hp] at hr; simp at hr
  | some p =>
    have : p = o := by rw [ok.par p hp, ← (ok.recs r hr).1, hown]
    subst this
    exact ⟨rfl, (hd.set s so hs his).att p vo hp ho⟩

/-- An object after the value of one of its records has changed in its index. -/
def Obj.reindexed (x : Rec K V) (k : K) (v : V) (r : Nat) (so : Obj K V Ty) : Obj K V Ty :=
  match mget so.cols k with
  | none => so
  | some c => match c.setVal (c.oldVal x.data k) v r with
    | none => so
    | some c' => { so with cols := mput so.cols k c' }

theorem reindexed_same (x : Rec K V) (k : K) (v : V) (r : Nat) (so : Obj K V Ty) :
    SameKeys so (so.reindexed x k v r) ∧ (so.reindexed x k v r).isSet = so.isSet ∧ (so.reindexed x k v r).parent = so.parent ∧
      (so.reindexed x k v r).recs = so.recs ∧ (so.reindexed x k v r).sets = so.sets := by
  unfold Obj.reindexed
  split
  · exact ⟨.refl _, rfl, rfl, rfl, rfl⟩
  · rename_i c hc
    split
    · exact ⟨.refl _, rfl, rfl, rfl, rfl⟩
    · rename_i c' hc'
      obtain ⟨a, b, _⟩ := Col.setVal_shape hc'
      refine ⟨⟨rfl, rfl, ?_⟩, rfl, rfl, rfl, rfl⟩
      intro k'
      simp only [mget_mput]
      split
      · rename_i e; subst e; rw [hc]; simp [a, b]
      · rfl

/-- What writing `v` under `k` into record `r` does to the sets: those that hold the record file it anew. -/
def SetsWrite (r : Nat) (k : K) (v : V) (w w' : World K V Ty) : Prop :=
  ∀ s so, w.getObj s = some so → so.isSet = true →
    (r ∉ so.recs ∧ w'.getObj s = some so) ∨
    (r ∈ so.recs ∧ ∃ sc sc' a, mget so.cols k = some sc ∧ cellOf w r k = some a ∧ sc.setVal a v r = some sc' ∧
      w'.getObj s = some { so with cols := mput so.cols k sc' })

theorem setData_obj {env : Env} {w : World K V Ty} {o r : Nat} {vo : Obj K V Ty} {x : Rec K V} {k : K} {v : V}
    (hi : Inv own home w) (hd : Deep w) (ho : w.getObj o = some vo) (hs : vo.isSet = false) (hx : w.getRec r = some x) (hv : x.valid = true)
    (hown : own r = o) : ∃ w' res, setDataToRecord env w o r k v = some (w', res) ∧ Deep w' ∧
      ((w' = w ∧ res.ok = false) ∨ (res = .good (some k) ∧ SetsWrite r k v w w')) := by
  have hvok := hi.v.vok o vo ho hs
  obtain ⟨vo0, hvo0, _, hrm⟩ := hi.v.val r x hx hv
  rw [hown, ho] at hvo0; cases hvo0
  simp only [setDataToRecord, ho, setDataIndex, hx, hv, Option.bind_eq_bind, Option.bind_some, Bool.true_eq_false, if_false]
  cases hk : mget vo.cols k with
  | none => exact ⟨w, _, rfl, hd, .inl ⟨rfl, rfl⟩⟩
  | some c =>
    dsimp only
    by_cases hty : c.ty = typeOf v
    swap
    · rw [if_pos hty]; exact ⟨w, _, rfl, hd, .inl ⟨rfl, rfl⟩⟩
    rw [if_neg (show ¬(c.ty ≠ typeOf v) from fun h => h hty)]
    cases hsv : c.setVal (c.oldVal x.data k) v r with
    | none => exact ⟨w, _, rfl, hd, .inl ⟨rfl, rfl⟩⟩
    | some c' =>
      have hcok := hvok.cols k c hk
      have hcell : cellOf w r k = some (c.oldVal x.data k) := oldVal_cell hcok hrm (by simp [cellOf, hx])
      have hmulti : c.multi = true := by
        by_contra hm
        rw [hcok.setVal_unique (by simpa using hm) hrm hcell] at hsv; cases hsv
      simp only [Option.bind_some, Res.good, Bool.true_eq_false, if_false]
      rw [if_pos hvok.base]
      let w1 := w.putObj o { vo with cols := mput vo.cols k c' }
      have evo : vo.reindexed x k v r = { vo with cols := mput vo.cols k c' } := by simp only [Obj.reindexed, hk, hsv]
      have hx1 : w1.getRec r = some x := hx
      have hdep : ∀ s ∈ x.deps, s ≠ o ∧ ∃ so, w.getObj s = some so ∧ w1.getObj s = some so ∧ so.isSet = true ∧ r ∈ so.recs ∧ so.isBase = false ∧
          ∃ sc sc', mget so.cols k = some sc ∧ sc.ty = typeOf v ∧ sc.setVal (sc.oldVal x.data k) v r = some sc' := by
        intro s hm
        obtain ⟨so, a, b, d⟩ := hd.told r x s hx hv hm
        have hne : o ≠ s := by rintro rfl; rw [ho] at a; cases a; rw [hs] at b; cases b
        refine ⟨Ne.symm hne, so, a, by simp only [w1, getObj_putObj, if_neg hne]; exact a, b, d, (hi.s.sets s so a b).base, ?_⟩
        obtain ⟨_, al⟩ := holder hi hd ho hown a b d
        have hkt := al.ty k
        rw [hk] at hkt
        cases hsc : mget so.cols k with
        | none => rw [hsc] at hkt; simp at hkt
        | some sc =>
          rw [hsc] at hkt; simp at hkt
          have hsm : sc.multi = true := by
            by_contra hm
            rw [al.multi k sc c hsc hk (by simpa using hm)] at hmulti; cases hmulti
          obtain ⟨sc', h'⟩ := Col.setVal_multi sc hsm (sc.oldVal x.data k) v r
          exact ⟨sc, sc', rfl, hkt.trans hty, h'⟩
      obtain ⟨w2, h2, er, ef, _, _, eo⟩ := objLoop (f := fun w s => do
          let so ← w.getObj s
          if so.isBase = true then none else (setDataIndex w s r k v).map (·.1)) (g := fun _ => Obj.reindexed x k v r)
        (w := w1) (l := env.perm x.deps) (by simpa [nodup_perm] using hd.depsN r x hx) (by
          intro s hm wa har hao
          obtain ⟨_, so, _, a, b, d, hb, sc, sc', e1, e2, e3⟩ := hdep s (by simpa using hm)
          refine ⟨so, a, ?_⟩
          have hxa : wa.getRec r = some x := by unfold World.getRec; rw [har]; exact hx1
          rw [a] at hao
          simp only [hao, Option.bind_eq_bind, Option.bind_some, if_neg (show ¬(so.isBase = true) from fun e => by rw [hb] at e; cases e),
            setDataIndex, hxa, hv, Bool.true_eq_false, if_false, e1, if_neg (show ¬(sc.ty ≠ typeOf v) from fun h => h e2), e3, Option.map_some,
            Obj.reindexed])
      have hcall2 : updateDeps env w1 r k v = some w2 := by
        simp only [updateDeps, hx1, Option.bind_eq_bind, Option.bind_some]; exact h2
      have hx2 : w2.getRec r = some x := by unfold World.getRec; rw [er]; exact hx1
      refine ⟨w2.putRec r { x with data := mput x.data k v }, .good (some k), ?_, ?_⟩
      · rw [show updateDeps env (w.putObj o { vo with cols := mput vo.cols k c' }) r k v = some w2 from hcall2]
        simp only [Option.bind_some, hx2]; rfl
      have hobj : ∀ t, (w2.putRec r { x with data := mput x.data k v }).getObj t =
          if t = o ∨ t ∈ x.deps then (w.getObj t).map (Obj.reindexed x k v r) else w.getObj t := by
        intro t
        show w2.getObj t = _
        rw [eo]; simp only [mem_perm]
        by_cases e : t = o
        · subst e
          have hn : t ∉ x.deps := fun hm => (hdep t hm).1 rfl
          rw [if_neg hn, if_pos (.inl rfl)]
          simp only [w1, getObj_putObj_self, ho, Option.map_some, evo]
        · have : w1.getObj t = w.getObj t := by simp only [w1, getObj_putObj, if_neg (Ne.symm e)]
          simp only [this, e, false_or]
      have hrec : ∀ t, (w2.putRec r { x with data := mput x.data k v }).getRec t = if r = t then some { x with data := mput x.data k v } else w.getRec t := by
        intro t
        rw [getRec_putRec]
        have : w2.getRec t = w.getRec t := by unfold World.getRec; rw [er]; rfl
        rw [this]
      have hcl : ∀ t k', (t = r → k' ≠ k) → cellOf (w2.putRec r { x with data := mput x.data k v }) t k' = cellOf w t k' := by
        intro t k' hne
        simp only [cellOf, hrec]
        split
        · rename_i e; subst e
          simp [hx, mget_mput, Ne.symm (hne rfl)]
        · rfl
      have hck : cellOf (w2.putRec r { x with data := mput x.data k v }) r k = some v := by simp [cellOf, hrec, mget_mput]
      have hsk : ∀ t a b, w.getObj t = some a → (w2.putRec r { x with data := mput x.data k v }).getObj t = some b →
          (b = a.reindexed x k v r ∧ (t = o ∨ t ∈ x.deps)) ∨ (b = a ∧ ¬(t = o ∨ t ∈ x.deps)) := by
        intro t a b ha hb
        rw [hobj] at hb
        split at hb
        · rename_i h; rw [ha] at hb; cases hb; exact .inl ⟨rfl, h⟩
        · rename_i h; rw [ha] at hb; cases hb; exact .inr ⟨rfl, h⟩
      have hso : ∀ t a b, w.getObj t = some a → (w2.putRec r { x with data := mput x.data k v }).getObj t = some b → SameKeys a b := by
        intro t a b ha hb
        rcases hsk t a b ha hb with ⟨rfl, _⟩ | ⟨rfl, _⟩
        · exact (reindexed_same ..).1
        · exact .refl _
      refine ⟨?_, .inr ⟨rfl, ?_⟩⟩
      swap
      · intro s so hso his
        have hne : s ≠ o := by rintro rfl; rw [ho] at hso; cases hso; rw [hs] at his; cases his
        by_cases hm : s ∈ x.deps
        · obtain ⟨_, so1, a1, _, _, hra, _, sc, sc', e1, e2, e3⟩ := hdep s hm
          rw [hso] at a1; cases a1
          refine .inr ⟨hra, sc, sc', _, e1, oldVal_cell ((hd.set s so hso his).cols k sc e1) hra (by simp [cellOf, hx]), e3, ?_⟩
          rw [hobj, if_pos (.inr hm), hso]
          simp only [Option.map_some, Obj.reindexed, e1, e3]
        · refine .inl ⟨?_, ?_⟩
          · intro hr
            obtain ⟨y, hy, _, hyd⟩ := (hd.set s so hso his).held r hr
            rw [hx] at hy; cases hy; exact hm hyd
          · rw [hobj, if_neg (by simp [hne, hm])]; exact hso
      refine hd.steady ⟨?_, ?_, ?_, ?_⟩ ?_
      · intro t y hy
        rw [hrec] at hy
        split at hy
        · rename_i e; subst e; cases hy; exact ⟨x, hx, rfl, rfl⟩
        · exact ⟨y, hy, rfl, rfl⟩
      · intro t y hy
        rw [hrec]
        split
        · rename_i e; subst e; rw [hx] at hy; cases hy; exact ⟨_, rfl, rfl, rfl⟩
        · exact ⟨y, hy, rfl, rfl⟩
      · intro t b hb
        cases ha : w.getObj t with
        | none => rw [hobj, ha] at hb; split at hb <;> cases hb
        | some a =>
          refine ⟨a, rfl, ?_⟩
          rcases hsk t a b ha hb with ⟨rfl, _⟩ | ⟨rfl, _⟩
          · exact (reindexed_same ..).2
          · exact ⟨rfl, rfl, rfl, rfl⟩
      · intro t a ha
        rw [hobj, ha]; split
        · exact ⟨_, rfl, (reindexed_same ..).2⟩
        · exact ⟨_, rfl, rfl, rfl, rfl, rfl⟩
      · intro s a b ha hai dp hb
        have hvault : ∀ p po', a.parent = some p → (w2.putRec r { x with data := mput x.data k v }).getObj p = some po' →
            ∃ po, w.getObj p = some po ∧ SameKeys po po' := by
          intro p po' hp hpo'
          obtain ⟨po, hpo, _⟩ := hi.l.up s a p ha hai hp
          exact ⟨po, hpo, hso p po po' hpo hpo'⟩
        have hatt : ∀ p po, a.parent = some p → (w2.putRec r { x with data := mput x.data k v }).getObj p = some po → Alike b po := by
          intro p po' hp hpo'
          obtain ⟨po, hpo, hkk⟩ := hvault p po' hp hpo'
          exact ((dp.att p po hp hpo).left (hso s a b ha hb)).right hkk
        rcases hsk s a b ha hb with ⟨rfl, h | h⟩ | ⟨rfl, h⟩
        · subst h; rw [ho] at ha; cases ha; rw [hs] at hai; cases hai
        · obtain ⟨_, so, a1, a2, _, hra, _, sc, sc', e1, e2, e3⟩ := hdep s h
          rw [ha] at a1; cases a1
          refine ⟨?_, ?_, hatt⟩
          · intro k' c1 hc1
            simp only [Obj.reindexed, e1, e3, mget_mput] at hc1
            have ok := fun hq => dp.cols k' c1 hq
            by_cases ek : k = k'
            · subst ek
              rw [if_pos rfl] at hc1; cases hc1
              have ok := dp.cols k sc e1
              refine ok.setVal hra (oldVal_cell ok hra (by simp [cellOf, hx])) e2.symm e3 ?_ hck
              intro t _ hne; exact hcl t k (fun e => absurd e hne)
            · rw [if_neg ek] at hc1
              exact (dp.cols k' c1 hc1).congr (fun _ => Iff.rfl) (fun t _ => hcl t k' (fun _ => Ne.symm ek))
          · intro hn
            exact absurd hra (by rw [(hi.s.sets s a ha hai).det hn]; simp)
        · refine ⟨?_, dp.det, hatt⟩
          intro k' c1 hc1
          refine (dp.cols k' c1 hc1).congr (fun _ => Iff.rfl) ?_
          intro t ht
          refine hcl t k' ?_
          rintro rfl
          obtain ⟨y, hy, _, hyd⟩ := dp.held t ht
          rw [hx] at hy; cases hy
          exact absurd (.inr hyd) h

theorem setData_deep {env : Env} {w : World K V Ty} {o r : Nat} {vo : Obj K V Ty} {x : Rec K V} {k : K} {v : V}
    (hi : Inv own home w) (hd : Deep w) (ho : w.getObj o = some vo) (hs : vo.isSet = false) (hx : w.getRec r = some x) (hv : x.valid = true)
    (hown : own r = o) : ∃ w' res, setDataToRecord env w o r k v = some (w', res) ∧ Deep w' := by
  obtain ⟨w', res, h, d, _⟩ := setData_obj (env := env) (k := k) (v := v) hi hd ho hs hx hv hown
  exact ⟨w', res, h, d⟩

/-! ### SetData through references -/

/-- A reference through which data may be written: null, or given out by a vault that is still alive. -/
def Settable (w : World K V Ty) (f : Nat) : Prop :=
  ∃ ref, w.refs[f]? = some ref ∧ (ref.ptr = none ∨ ∃ o vo, ref.vlt = some o ∧ w.getObj o = some vo ∧ vo.isSet = false)

theorem refSetData_deep {env : Env} {w : World K V Ty} {f : Nat} {k : K} {v : V} (hi : Inv own home w) (hd : Deep w) (hf : Settable w f) :
    ∃ w' res, refSetData env w f k v = some (w', res) ∧ Deep w' := by
  obtain ⟨ref, hf, hw⟩ := hf
  simp only [refSetData, hf, Option.bind_eq_bind, Option.bind_some]
  cases hp : ref.ptr with
  | none => exact ⟨w, _, rfl, hd⟩
  | some r =>
    rw [hp] at hw
    obtain ⟨o, vo, h1, h2, h3⟩ := hw.resolve_left (by simp)
    obtain ⟨x, hx⟩ := hi.r.live ref (mem_of_get hf) r hp
    simp only [h1, h2, hx, Option.bind_some]
    split
    · exact ⟨w, _, rfl, hd⟩
    · rename_i hv
      have hown := hi.r.own ref (mem_of_get hf) r o vo hp h1 h2
      rw [if_neg (show ¬(vo.isSet = true) from fun e => by rw [h3] at e; cases e)] at hown
      exact setData_deep hi hd h2 h3 hx (by simpa using hv) hown

/-- What writing through a reference does to the sets. -/
theorem refSetData_obj {env : Env} {w w' : World K V Ty} {f : Nat} {k : K} {v : V} {res : Res K} (hi : Inv own home w) (hd : Deep w) (hf : Settable w f)
    (h : refSetData env w f k v = some (w', res)) :
    (w' = w ∧ res.ok = false) ∨ (res = .good (some k) ∧ ∃ ref r, w.refs[f]? = some ref ∧ ref.ptr = some r ∧ SetsWrite r k v w w') := by
  obtain ⟨ref, hf, hw⟩ := hf
  simp only [refSetData, hf, Option.bind_eq_bind, Option.bind_some] at h
  cases hp : ref.ptr with
  | none => rw [hp] at h; cases h; exact .inl ⟨rfl, rfl⟩
  | some r =>
    rw [hp] at hw
    obtain ⟨o, vo, h1, h2, h3⟩ := hw.resolve_left (by simp)
    obtain ⟨x, hx⟩ := hi.r.live ref (mem_of_get hf) r hp
    simp only [hp, h1, h2, hx, Option.bind_some] at h
    split at h
    · cases h; exact .inl ⟨rfl, rfl⟩
    · rename_i hv
      have hown := hi.r.own ref (mem_of_get hf) r o vo hp h1 h2
      rw [if_neg (show ¬(vo.isSet = true) from fun e => by rw [h3] at e; cases e)] at hown
      obtain ⟨w1, r1, e1, _, c⟩ := setData_obj (env := env) (k := k) (v := v) hi hd h2 h3 hx (by simpa using hv) hown
      rw [h] at e1; cases e1
      rcases c with c | ⟨c1, c2⟩
      · exact .inl c
      · exact .inr ⟨c1, ref, r, hf, hp, c2⟩

/-- Writing through a reference keeps the references and the vaults. -/
theorem refSetData_keeps {env : Env} {w w' : World K V Ty} {f : Nat} {k : K} {v : V} {res : Res K} (hi : Inv own home w) (hf : Settable w f)
    (h : refSetData env w f k v = some (w', res)) :
    w'.refs = w.refs ∧ ∀ o vo, w.getObj o = some vo → vo.isSet = false → ∃ vo', w'.getObj o = some vo' ∧ vo'.isSet = false := by
  obtain ⟨ref, hf, hw⟩ := hf
  simp only [refSetData, hf, Option.bind_eq_bind, Option.bind_some] at h
  cases hp : ref.ptr with
  | none => rw [hp] at h; cases h; exact ⟨rfl, fun o vo h1 h2 => ⟨vo, h1, h2⟩⟩
  | some r =>
    rw [hp] at hw
    obtain ⟨o, vo, h1, h2, h3⟩ := hw.resolve_left (by simp)
    obtain ⟨x, hx⟩ := hi.r.live ref (mem_of_get hf) r hp
    simp only [hp, h1, h2, hx, Option.bind_some] at h
    split at h
    · cases h; exact ⟨rfl, fun o vo h1 h2 => ⟨vo, h1, h2⟩⟩
    · rename_i hv
      have hown := hi.r.own ref (mem_of_get hf) r o vo hp h1 h2
      rw [if_neg (show ¬(vo.isSet = true) from fun e => by rw [h3] at e; cases e)] at hown
      rcases (setData_vault hi h2 h3 hx (by simpa using hv) hown h).2 with ⟨rfl, _⟩ | ⟨_, dn⟩
      · exact ⟨rfl, fun o vo h1 h2 => ⟨vo, h1, h2⟩⟩
      · refine ⟨dn.refs, ?_⟩
        intro t vt ht hts
        by_cases e : t = o
        · subst e
          rw [h2] at ht; cases ht
          obtain ⟨c, c', _, _, _, hg⟩ := dn.col
          exact ⟨_, hg, h3⟩
        · obtain ⟨b, hb, e1, _⟩ := (dn.objs t e).to ht
          exact ⟨b, hb, e1.trans hts⟩

theorem refSetDataLoop_deep {env : Env} {f : Nat} {ps : List (K × V)} {w : World K V Ty} {res : Res K} (hi : Inv own home w) (hd : Deep w)
    (hf : Settable w f) : ∃ w' res', refSetDataLoop env f ps w res = some (w', res') ∧ Deep w' := by
  induction ps generalizing w res with
  | nil => exact ⟨w, res, rfl, hd⟩
  | cons p ps ih =>
    obtain ⟨k, v⟩ := p
    obtain ⟨w1, r1, h1, d1⟩ := refSetData_deep (env := env) (k := k) (v := v) hi hd hf
    have i1 := refSetData_inv hi h1
    obtain ⟨e1, e2⟩ := refSetData_keeps hi hf h1
    simp only [refSetDataLoop, h1, Option.bind_eq_bind, Option.bind_some]
    split
    · exact ⟨w1, r1, rfl, d1⟩
    · refine ih i1 d1 ?_
      obtain ⟨ref, hf, hw⟩ := hf
      refine ⟨ref, by rw [e1]; exact hf, ?_⟩
      rcases hw with hw | ⟨o, vo, a, b, c⟩
      · exact .inl hw
      · obtain ⟨vo', b', c'⟩ := e2 o vo b c
        exact .inr ⟨o, vo', a, b', c'⟩

theorem refSetDataMany_deep {env : Env} {f : Nat} {ps : List (K × V)} {w : World K V Ty} {ref : Ref} {o : Nat} {vo : Obj K V Ty}
    (hi : Inv own home w) (hd : Deep w) (hf : w.refs[f]? = some ref) (ho : ref.vlt = some o) (hvo : w.getObj o = some vo) (hs : vo.isSet = false) :
    ∃ w' res', refSetDataMany env w f ps = some (w', res') ∧ Deep w' := by
  simp only [refSetDataMany, hf, ho, hvo, Option.bind_eq_bind, Option.bind_some]
  exact refSetDataLoop_deep hi hd ⟨ref, hf, .inr ⟨o, vo, ho, hvo, hs⟩⟩

end MVault.W
