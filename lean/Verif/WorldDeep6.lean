import Verif.WorldDeep5
/-
Creating and erasing records in careful histories: defined, and the set invariant is kept.
-/
set_option linter.unusedSectionVars false
set_option linter.unusedSimpArgs false
namespace MVault.W
variable {K V Ty : Type} [LinearOrder K] [LinearOrder V] [Typed V Ty] [DecidableEq Ty]
variable {own home : Nat → Nat}

/-- A vault is replaced by one with the same keys. -/
theorem Deep.putVault {w : World K V Ty} (hd : Deep w) {o : Nat} {vo vo' : Obj K V Ty} (ho : w.getObj o = some vo) (hv : vo.isSet = false)
    (hv' : vo'.isSet = false) (hk : SameKeys vo vo') (hn : vo'.sets.Nodup) : Deep (w.putObj o vo') := by
  have hg : ∀ t y, (w.putObj o vo').getObj t = some y → (t = o ∧ y = vo') ∨ (t ≠ o ∧ w.getObj t = some y) := by
    intro t y hy
    simp only [getObj_putObj] at hy
    split at hy
    · rename_i e; cases hy; exact .inl ⟨e.symm, rfl⟩
    · rename_i e; exact .inr ⟨Ne.symm e, hy⟩
  refine ⟨?_, ?_, hd.depsN, ?_⟩
  · intro s so hs his
    rcases hg s so hs with ⟨rfl, rfl⟩ | ⟨hne, hs⟩
    · rw [hv'] at his; cases his
    · refine (hd.set s so hs his).frame (fun r hm y hy hv hdd => ⟨y, hy, hv, hdd, fun _ _ => rfl⟩) ?_
      intro p po' _ hpo'
      rcases hg p po' hpo' with ⟨rfl, rfl⟩ | ⟨_, h⟩
      · exact ⟨vo, ho, hk⟩
      · exact ⟨po', h, .refl _⟩
  · intro r y s hy hyv hm
    obtain ⟨so, h1, h2, h3⟩ := hd.told r y s hy hyv hm
    refine ⟨so, ?_, h2, h3⟩
    have : o ≠ s := by rintro rfl; rw [ho] at h1; cases h1; rw [hv] at h2; cases h2
    simp only [getObj_putObj, if_neg this]; exact h1
  · intro t y hy
    rcases hg t y hy with ⟨_, rfl⟩ | ⟨_, h⟩
    · exact hn
    · exact hd.setsN t y h

/-- A new record that no set holds. -/
theorem Deep.newRec {w : World K V Ty} (hd : Deep w) (hf : w.getRec w.nextR = none) (data : List (K × V)) (n : Nat) :
    Deep ({ w with recs := mput w.recs w.nextR ⟨data, true, 0, []⟩, nextR := n } : World K V Ty) := by
  have hg : ∀ r, ({ w with recs := mput w.recs w.nextR ⟨data, true, 0, []⟩, nextR := n } : World K V Ty).getRec r =
      if w.nextR = r then some ⟨data, true, 0, []⟩ else w.getRec r := by
    intro r; simp only [World.getRec, mget_mput]
  refine ⟨?_, ?_, ?_, hd.setsN⟩
  · intro s so hs his
    refine (hd.set s so hs his).frame ?_ (fun p po' _ h => ⟨po', h, .refl _⟩)
    intro r hm y hy hv hdd
    refine ⟨y, ?_, hv, hdd, fun _ _ => rfl⟩
    rw [hg, if_neg]
    · exact hy
    · rintro rfl; rw [hf] at hy; cases hy
  · intro r y s hy hyv hm
    rw [hg] at hy
    split at hy
    · cases hy; simp at hm
    · exact hd.told r y s hy hyv hm
  · intro r y hy
    rw [hg] at hy
    split at hy
    · cases hy; simp
    · exact hd.depsN r y hy

theorem fresh_none {w : World K V Ty} (hi : Inv own home w) : w.getRec w.nextR = none := by
  cases hx : w.getRec w.nextR with
  | none => rfl
  | some x => have := hi.v.ltR _ _ hx; omega

/-- The state after a record has been inserted into the vault. -/
theorem insert_deep {w : World K V Ty} {o : Nat} {vo : Obj K V Ty} (hi : Inv own home w) (hd : Deep w) (ho : w.getObj o = some vo)
    (hs : vo.isSet = false) {data : List (K × V)} {cols : List (K × Col V Ty)}
    (hc : ∀ k, mget cols k = (mget vo.cols k).map fun c => (c.add (c.addVal data k) w.nextR).1) :
    Deep (({ w with recs := mput w.recs w.nextR ⟨data, true, 0, []⟩, nextR := w.nextR + 1 } : World K V Ty).putObj o
        { vo with cols := cols, recs := vo.recs ++ [w.nextR] }) := by
  refine (hd.newRec (fresh_none hi) data _).putVault (vo := vo) ho hs hs ⟨rfl, rfl, ?_⟩ (hd.setsN o vo ho)
  intro k
  show (mget cols k).map _ = _
  rw [hc, Option.map_map]
  congr 1; funext c
  simp only [Function.comp_apply, (Col.add_shape c _ _).1, (Col.add_shape c _ _).2.1]

/-- Data for a new record that fits the keys of the vault. -/
theorem params_fit {w : World K V Ty} {o : Nat} {vo : Obj K V Ty} (hi : Inv own home w) (ho : w.getObj o = some vo) (hs : vo.isSet = false)
    {ps data : List (K × V)} (hp : applyParams vo ps vo.tmpl = .ok data) :
    (∀ k c, mget vo.cols k = some c → ∃ v, mget data k = some v ∧ typeOf v = c.ty) ∧
    (∀ k, mget vo.cols k = none → mget data k = none) := by
  have hvok := hi.v.vok o vo ho hs
  have hap := applyParams_ok hp
  constructor
  · intro k c hk
    obtain ⟨v, hv, hvt⟩ := hvok.tmplT k c hk
    obtain ⟨v', a, b⟩ := (hap k).2 v hv
    exact ⟨v', a, b.trans hvt⟩
  · intro k hk; exact (hap k).1 (hvok.tmplN k hk)

theorem createRow_deep {w : World K V Ty} {o : Nat} {vo : Obj K V Ty} {ps : List (K × V)} (hi : Inv own home w) (hd : Deep w)
    (ho : w.getObj o = some vo) (hs : vo.isSet = false) : ∃ w' res, createRow w o ps = some (w', res) ∧ Deep w' := by
  simp only [createRow, ho, Option.bind_eq_bind, Option.bind_some]
  cases hp : applyParams vo ps vo.tmpl with
  | error e => exact ⟨w, e, rfl, hd⟩
  | ok data =>
    obtain ⟨f1, f2⟩ := params_fit hi ho hs hp
    have hi' : Inv (fun r => if r = w.nextR then o else own r) home w := hi.own_congr (fun r hr => by simp; omega)
    rcases insertRecord_spec (data := data) hi' ho hs (by simp) f1 f2 with ⟨k, _, h1, _⟩ | ⟨w1, cols, h1, _, _, hc, rfl⟩
    · simp only [h1, Option.bind_some]; exact ⟨w, _, rfl, hd⟩
    · simp only [h1, Option.bind_some]; exact ⟨_, _, rfl, insert_deep hi hd ho hs hc⟩

theorem createRecord_deep {w : World K V Ty} {o f : Nat} {vo : Obj K V Ty} {ps : List (K × V)} {old : Ref} (hi : Inv own home w) (hd : Deep w)
    (ho : w.getObj o = some vo) (hs : vo.isSet = false) (hf : w.refs[f]? = some old) :
    ∃ w' res, createRecord w o f ps = some (w', res) ∧ Deep w' := by
  simp only [createRecord, ho, Option.bind_eq_bind, Option.bind_some]
  cases hp : applyParams vo ps vo.tmpl with
  | error e => exact ⟨w, e, rfl, hd⟩
  | ok data =>
    obtain ⟨f1, f2⟩ := params_fit hi ho hs hp
    have hi' : Inv (fun r => if r = w.nextR then o else own r) home w := hi.own_congr (fun r hr => by simp; omega)
    rcases insertRecord_spec (data := data) hi' ho hs (by simp) f1 f2 with ⟨k, _, h1, _⟩ | ⟨w1, cols, h1, i1, _, hc, hw⟩
    · simp only [h1, Option.bind_some]; exact ⟨w, _, rfl, hd⟩
    · have d1 := insert_deep hi hd ho hs hc
      rw [← hw] at d1
      have ho1 : w1.getObj o = some { vo with cols := cols, recs := vo.recs ++ [w.nextR] } := by rw [hw]; exact getObj_putObj_self _ _ _
      have hx1 : w1.getRec w.nextR = some ⟨data, true, 0, []⟩ := by
        rw [hw]; simp [World.getRec, World.putObj, mget_mput]
      obtain ⟨w2, e2, st, _⟩ := setRecord_ok (p := some w.nextR) i1.r i1.v.ltO ho1 (show w1.refs[f]? = some old by rw [hw]; exact hf)
        (by intro r' e; cases e; exact ⟨_, hx1⟩) (by intro r' e; cases e; simp [hs])
      simp only [h1, Option.bind_some, e2, Option.map_some]
      exact ⟨w2, _, rfl, d1.rf st.rf⟩

/-! ### Erasing -/

/-- The objects after a record with the given data has left them. -/
def Obj.without (x : Rec K V) (r : Nat) (so : Obj K V Ty) : Obj K V Ty :=
  { so with cols := eraseCols so.cols x.data r, recs := so.recs.filter (· ≠ r) }

theorem oldVal_cell {cell : Nat → Option V} {recs : List Nat} {c : Col V Ty} {data : List (K × V)} {k : K} {r : Nat} (h : ColOk cell recs c)
    (hr : r ∈ recs) (hd : cell r = mget data k) : cell r = some (c.oldVal data k) := by
  obtain ⟨v, hv, ht⟩ := h.typed r hr
  rw [hv] at hd
  rw [hv]; simp [Col.oldVal, readOr, ← hd, ht]

theorem sameKeys_without (x : Rec K V) (r : Nat) (so : Obj K V Ty) : SameKeys so (so.without x r) := by
  refine ⟨rfl, rfl, ?_⟩
  intro k
  simp only [Obj.without, eraseCols, mget_mmap, Option.map_map]
  rfl

theorem eraseOne_obj {env : Env} {w : World K V Ty} {o r : Nat} {vo : Obj K V Ty} (hi : Inv own home w) (hd : Deep w)
    (ho : w.getObj o = some vo) (hs : vo.isSet = false) (hr : r ∈ vo.recs) : ∃ w', eraseOne env w o r = some w' ∧ Deep w' ∧
      ∃ x, w.getRec r = some x ∧ SetsBy w w' (fun so => if r ∈ so.recs then so.without x r else so) := by
  have hvok := hi.v.vok o vo ho hs
  obtain ⟨hown, x, hx, hv⟩ := hi.v.mem o vo ho hs r hr
  let w1 := w.putObj o (vo.without x r)
  have d1 : Deep w1 := hd.putVault ho hs hs (sameKeys_without x r vo) (hd.setsN o vo ho)
  have h1 : eraseLocal w o r = some w1 := by simp only [eraseLocal, ho, hx, Option.bind_eq_bind, Option.bind_some]; rfl
  have hx1 : w1.getRec r = some x := hx
  have hdep : ∀ s ∈ x.deps, ∃ so, w1.getObj s = some so ∧ so.isSet = true ∧ r ∈ so.recs ∧ so.isBase = false := by
    intro s hm
    obtain ⟨so, a, b, c⟩ := hd.told r x s hx hv hm
    have hne : o ≠ s := by rintro rfl; rw [ho] at a; cases a; rw [hs] at b; cases b
    exact ⟨so, by simp only [w1, getObj_putObj, if_neg hne]; exact a, b, c, (hi.s.sets s so a b).base⟩
  obtain ⟨w2, h2, er, ef, _, _, eo⟩ := objLoop (f := fun w s => do
      let so ← w.getObj s
      if r ∉ so.recs then some w else if so.isBase = true then none else eraseLocal w s r) (g := fun _ => Obj.without x r)
    (w := w1) (l := env.perm x.deps) (by simpa [nodup_perm] using hd.depsN r x hx) (by
      intro s hm wa har hao
      obtain ⟨so, a, b, c, d⟩ := hdep s (by simpa using hm)
      refine ⟨so, a, ?_⟩
      have hxa : wa.getRec r = some x := by unfold World.getRec; rw [har]; exact hx1
      rw [a] at hao
      simp only [hao, Option.bind_eq_bind, Option.bind_some, if_neg (show ¬(r ∉ so.recs) from fun h => h c),
        if_neg (show ¬(so.isBase = true) from fun e => by rw [d] at e; cases e), eraseLocal, hxa]
      rfl)
  have hcall2 : removeFromDeps env w1 r = some w2 := by
    simp only [removeFromDeps, hx1, Option.bind_eq_bind, Option.bind_some]; exact h2
  have hx2 : w2.getRec r = some x := by unfold World.getRec; rw [er]; exact hx1
  let w3 : World K V Ty := if x.refs = 0 then w2.freeRec r else w2.putRec r { x with valid := false }
  have hcall : eraseOne env w o r = some w3 := by
    simp only [eraseOne, ho, Option.bind_eq_bind, Option.bind_some, h1, if_pos hvok.base, hcall2, invalidate, hx2, Option.map_some]; rfl
  have ho3 : ∀ t, w3.getObj t = w2.getObj t := by
    intro t; simp only [w3]; split <;> rfl
  have hr3 : ∀ t, t ≠ r → w3.getRec t = w.getRec t := by
    intro t hne
    have : w2.getRec t = w.getRec t := by unfold World.getRec; rw [er]; rfl
    simp only [w3]; split
    · simp only [World.freeRec, World.getRec, mget_mdel, if_neg (Ne.symm hne)] at this ⊢; exact this
    · rw [getRec_putRec, if_neg (Ne.symm hne)]; exact this
  have hrv : ∀ y, w3.getRec r = some y → y.valid = false ∧ y.deps = x.deps := by
    intro y hy
    simp only [w3] at hy; split at hy
    · simp [World.freeRec, World.getRec, mget_mdel] at hy
    · rw [getRec_putRec, if_pos rfl] at hy; cases hy; exact ⟨rfl, rfl⟩
  -- objects of the final state
  have hobj : ∀ t y, w3.getObj t = some y → ∃ z, w1.getObj t = some z ∧ y = (if t ∈ x.deps then z.without x r else z) := by
    intro t y hy
    rw [ho3, eo] at hy
    simp only [mem_perm] at hy
    split at hy
    · rename_i hm
      simp only [Option.map_eq_some_iff] at hy
      obtain ⟨z, hz, rfl⟩ := hy
      exact ⟨z, hz, by rw [if_pos hm]⟩
    · rename_i hm
      exact ⟨y, hy, by rw [if_neg hm]⟩
  have hcell : ∀ t, t ≠ r → ∀ k, cellOf w3 t k = cellOf w1 t k := by
    intro t hne k
    simp only [cellOf, hr3 t hne]; rfl
  refine ⟨w3, hcall, ⟨?_, ?_, ?_, ?_⟩, x, hx, ?_⟩
  · intro s so' hs' his'
    obtain ⟨so, hso, e⟩ := hobj s so' hs'
    have his : so.isSet = true := by
      rw [e] at his'; split at his' <;> exact his'
    have dp := d1.set s so hso his
    have hatt : ∀ p po', so.parent = some p → w3.getObj p = some po' → ∃ po, w1.getObj p = some po ∧ SameKeys po po' := by
      intro p po' _ hpo'
      obtain ⟨z, hz, e⟩ := hobj p po' hpo'
      refine ⟨z, hz, ?_⟩
      rw [e]; split
      · exact sameKeys_without x r z
      · exact .refl _
    by_cases hm : s ∈ x.deps
    · rw [if_pos hm] at e; subst e
      have hrm : r ∈ so.recs := by
        obtain ⟨so', a, _, c, _⟩ := hdep s hm
        rw [hso] at a; cases a; exact c
      refine ⟨?_, dp.recsN.filter _, ?_, ?_, ?_⟩
      · intro t ht
        obtain ⟨h1, h2⟩ := List.mem_filter.mp ht
        have hne : t ≠ r := by simpa using h2
        obtain ⟨y, hy, hyv, hyd⟩ := dp.held t h1
        exact ⟨y, by rw [hr3 t hne]; exact hy, hyv, hyd⟩
      · intro k c hc
        simp only [Obj.without, eraseCols, mget_mmap, Option.map_eq_some_iff] at hc
        obtain ⟨c0, h0, rfl⟩ := hc
        have ok := dp.cols k c0 h0
        have hcr : cellOf w1 r k = some (c0.oldVal x.data k) := oldVal_cell ok hrm (by simp [cellOf, hx1])
        refine (ok.erase hrm hcr).congr (fun _ => Iff.rfl) ?_
        intro t ht
        have hne : t ≠ r := by simpa using (List.mem_filter.mp ht).2
        exact hcell t hne k
      · intro hn
        obtain ⟨a, b, c⟩ := dp.det hn
        refine ⟨?_, b, c⟩
        show eraseCols so.cols x.data r = []
        rw [a]; rfl
      · intro p po' hp hpo'
        obtain ⟨po, hpo, hk⟩ := hatt p po' hp hpo'
        exact ((dp.att p po hp hpo).left (sameKeys_without x r so)).right hk
    · rw [if_neg hm] at e; subst e
      refine dp.frame ?_ hatt
      intro t ht y hy hyv hyd
      have hne : t ≠ r := by rintro rfl; rw [hx1] at hy; cases hy; exact hm hyd
      exact ⟨y, by rw [hr3 t hne]; exact hy, hyv, hyd, fun _ _ => rfl⟩
  · intro t y s hy hyv hyd
    have hne : t ≠ r := by rintro rfl; rw [(hrv y hy).1] at hyv; cases hyv
    rw [hr3 t hne] at hy
    obtain ⟨so, a, b, c⟩ := d1.told t y s hy hyv hyd
    refine ⟨if s ∈ x.deps then so.without x r else so, ?_, ?_, ?_⟩
    · rw [ho3, eo]; simp only [mem_perm]; split
      · rw [a]; rfl
      · exact a
    · split <;> exact b
    · split
      · exact List.mem_filter.mpr ⟨c, by simpa using hne⟩
      · exact c
  · intro t y hy
    by_cases hne : t = r
    · subst hne; rw [(hrv y hy).2]; exact hd.depsN t x hx
    · rw [hr3 t hne] at hy; exact hd.depsN t y hy
  · intro t y hy
    obtain ⟨z, hz, e⟩ := hobj t y hy
    have := d1.setsN t z hz
    rw [e]; split <;> exact this
  · intro s so hso his
    have hne : o ≠ s := by rintro rfl; rw [ho] at hso; cases hso; rw [hs] at his; cases his
    have hso1 : w1.getObj s = some so := by simp only [w1, getObj_putObj, if_neg hne]; exact hso
    have hiff : r ∈ so.recs ↔ s ∈ x.deps := by
      constructor
      · intro hm
        obtain ⟨y, hy, _, hyd⟩ := (hd.set s so hso his).held r hm
        rw [hx] at hy; cases hy; exact hyd
      · intro hm
        obtain ⟨so', a, _, c, _⟩ := hdep s hm
        rw [hso1] at a; cases a; exact c
    rw [ho3, eo, hso1]
    simp only [mem_perm, hiff]
    split <;> rfl

theorem eraseOne_deep {env : Env} {w : World K V Ty} {o r : Nat} {vo : Obj K V Ty} (hi : Inv own home w) (hd : Deep w)
    (ho : w.getObj o = some vo) (hs : vo.isSet = false) (hr : r ∈ vo.recs) : ∃ w', eraseOne env w o r = some w' ∧ Deep w' := by
  obtain ⟨w', h, d, _⟩ := eraseOne_obj (env := env) hi hd ho hs hr
  exact ⟨w', h, d⟩

/-- A set after the records of `l` have been erased from its vault. -/
structure Lost (l : List Nat) (so so' : Obj K V Ty) : Prop where
  isSet : so'.isSet = so.isSet
  parent : so'.parent = so.parent
  same : SameKeys so so'
  recs : ∀ r, r ∈ so'.recs ↔ r ∈ so.recs ∧ r ∉ l
  shr : ∀ k c c', mget so.cols k = some c → mget so'.cols k = some c' → Shrunk l c c'

/-- All sets after the records of `l` have been erased. -/
def SetsLost (l : List Nat) (w w' : World K V Ty) : Prop :=
  ∀ s so, w.getObj s = some so → so.isSet = true → ∃ so', w'.getObj s = some so' ∧ Lost l so so'

theorem SetsLost.refl (w : World K V Ty) : SetsLost [] w w := by
  intro s so hs _
  refine ⟨so, hs, rfl, rfl, .refl _, by simp, ?_⟩
  intro k c c' h1 h2
  rw [h1] at h2; cases h2
  exact ⟨fun _ h => h, fun _ h => h, fun _ h _ => h, fun _ h _ => h, by simp⟩

theorem SetsLost.cons {r : Nat} {l : List Nat} {a b c : World K V Ty} (h1 : SetsLost [r] a b) (h2 : SetsLost l b c) : SetsLost (r :: l) a c := by
  intro s so hs his
  obtain ⟨s1, g1, e1⟩ := h1 s so hs his
  obtain ⟨s2, g2, e2⟩ := h2 s s1 g1 (e1.isSet.trans his)
  refine ⟨s2, g2, e2.isSet.trans e1.isSet, e2.parent.trans e1.parent, ⟨e2.same.keys.trans e1.same.keys, e2.same.uniq.trans e1.same.uniq,
    fun k => (e2.same.kind k).trans (e1.same.kind k)⟩, ?_, ?_⟩
  · intro r'; rw [e2.recs, e1.recs]; simp only [List.mem_cons, List.not_mem_nil, or_false, not_or, and_assoc]
  · intro k c0 c2 hc0 hc2
    have := e1.same.kind k
    rw [hc0] at this
    obtain ⟨c1, hc1, _⟩ := Option.map_eq_some_iff.mp this
    exact (e1.shr k c0 c1 hc0 hc1).trans (e2.shr k c1 c2 hc1 hc2)

theorem eraseOne_lost {env : Env} {w : World K V Ty} {o r : Nat} {vo : Obj K V Ty} (hi : Inv own home w) (hd : Deep w)
    (ho : w.getObj o = some vo) (hs : vo.isSet = false) (hr : r ∈ vo.recs) : ∃ w', eraseOne env w o r = some w' ∧ Deep w' ∧ SetsLost [r] w w' := by
  obtain ⟨w', h, d, x, hx, hb⟩ := eraseOne_obj (env := env) hi hd ho hs hr
  refine ⟨w', h, d, ?_⟩
  intro s so hso his
  have dp := hd.set s so hso his
  refine ⟨_, hb s so hso his, ?_⟩
  dsimp only
  split
  · rename_i hm
    refine ⟨rfl, rfl, sameKeys_without x r so, ?_, ?_⟩
    · intro r'; simp [Obj.without, List.mem_filter]
    · intro k c c' hc hc'
      simp only [Obj.without, eraseCols, mget_mmap, hc, Option.map_some, Option.some.injEq] at hc'
      subst hc'
      refine Shrunk.erase c _ r ?_
      intro v' hv'
      have ok := dp.cols k c hc
      have hcr : cellOf w r k = some (c.oldVal x.data k) := oldVal_cell ok hm (by simp [cellOf, hx])
      have h2 := (ok.ordS v' r hv').2
      rw [hcr] at h2; cases h2; rfl
  · rename_i hm
    refine ⟨rfl, rfl, .refl _, ?_, ?_⟩
    · intro r'
      simp only [List.mem_cons, List.not_mem_nil, or_false]
      exact ⟨fun hh => ⟨hh, by rintro rfl; exact hm hh⟩, fun hh => hh.1⟩
    · intro k c c' hc hc'
      rw [hc] at hc'; cases hc'
      have ok := dp.cols k c hc
      refine ⟨fun _ h => h, fun _ h => h, fun _ h _ => h, fun _ h _ => h, ?_⟩
      intro e he r' hr' hm'
      simp only [List.mem_cons, List.not_mem_nil, or_false] at hr'
      subst hr'
      exact hm (ok.ordS _ _ hm').1

theorem removeRecord_deep {env : Env} {w : World K V Ty} {o r : Nat} {vo : Obj K V Ty} (hi : Inv own home w) (hd : Deep w)
    (ho : w.getObj o = some vo) (hs : vo.isSet = false) : ∃ w' b, removeRecord env w o r = some (w', b) ∧ Deep w' := by
  simp only [removeRecord, ho, Option.bind_eq_bind, Option.bind_some]
  by_cases hr : r ∈ vo.recs
  · rw [if_neg (show ¬(r ∉ vo.recs) from fun h => h hr)]
    obtain ⟨w', h, d⟩ := eraseOne_deep (env := env) hi hd ho hs hr
    exact ⟨w', true, by rw [h]; rfl, d⟩
  · rw [if_pos hr]; exact ⟨w, false, rfl, hd⟩

theorem eraseRef_deep {env : Env} {w : World K V Ty} {o f : Nat} {vo : Obj K V Ty} {ref : Ref} (hi : Inv own home w) (hd : Deep w)
    (ho : w.getObj o = some vo) (hs : vo.isSet = false) (hf : w.refs[f]? = some ref) :
    ∃ w' b, eraseRef env w o f = some (w', b) ∧ Deep w' := by
  simp only [eraseRef, hf, Option.bind_eq_bind, Option.bind_some]
  cases ref.ptr with
  | none => exact ⟨w, false, by simp [ho], hd⟩
  | some r => exact removeRecord_deep hi hd ho hs

theorem eraseKV_deep {env : Env} {w : World K V Ty} {o : Nat} {vo : Obj K V Ty} {k : K} {v : V} (hi : Inv own home w) (hd : Deep w)
    (ho : w.getObj o = some vo) (hs : vo.isSet = false) : ∃ w' res, eraseKV env w o k v = some (w', res) ∧ Deep w' := by
  simp only [eraseKV, ho, Option.bind_eq_bind, Option.bind_some]
  cases hc : checkKey vo k (typeOf v) with
  | error e => exact ⟨w, e, rfl, hd⟩
  | ok c =>
    obtain ⟨hk, _⟩ := checkKey_ok hc
    dsimp only
    cases he : equalRange env c v with
    | nil => exact ⟨w, _, rfl, hd⟩
    | cons r l =>
      obtain ⟨w', h, d⟩ := eraseOne_deep (env := env) (r := r) hi hd ho hs (range_mem (env := env) (v := v) hi hd ho hk (by rw [he]; simp)).1
      exact ⟨w', _, by dsimp only; rw [h]; rfl, d⟩

theorem loop_erase_deep {env : Env} {o : Nat} {l : List Nat} {w : World K V Ty} {vo : Obj K V Ty} (hi : Inv own home w) (hd : Deep w)
    (ho : w.getObj o = some vo) (hs : vo.isSet = false) (hn : l.Nodup) (hl : ∀ r ∈ l, r ∈ vo.recs) :
    ∃ w', loop (fun w r => eraseOne env w o r) l w = some w' ∧ Deep w' ∧ SetsLost l w w' := by
  induction l generalizing w vo with
  | nil => exact ⟨w, rfl, hd, .refl _⟩
  | cons r l ih =>
    obtain ⟨w1, h1, d1, s1⟩ := eraseOne_lost (env := env) hi hd ho hs (hl r (by simp))
    obtain ⟨i1, er⟩ := eraseOne_vault hi ho hs (hl r (by simp)) h1
    obtain ⟨hr, hn⟩ := List.nodup_cons.mp hn
    obtain ⟨vo1, ho1, hr1⟩ : ∃ vo1, w1.getObj o = some vo1 ∧ vo1.isSet = false ∧ ∀ t ∈ l, t ∈ vo1.recs := by
      obtain ⟨cols, hob, _⟩ := er.obj
      exact ⟨_, hob, hs, fun t ht => List.mem_filter.mpr ⟨hl t (by simp [ht]), by simp; rintro rfl; exact hr ht⟩⟩
    obtain ⟨w2, h2, d2, s2⟩ := ih i1 d1 ho1 hr1.1 hn hr1.2
    exact ⟨w2, by simp only [loop, h1, Option.bind_some]; exact h2, d2, s1.cons s2⟩

theorem eraseManyKV_deep {env : Env} {w : World K V Ty} {o n : Nat} {vo : Obj K V Ty} {k : K} {v : V} (hi : Inv own home w) (hd : Deep w)
    (ho : w.getObj o = some vo) (hs : vo.isSet = false) : ∃ w' res, eraseManyKV env w o k v n = some (w', res) ∧ Deep w' := by
  simp only [eraseManyKV, ho, Option.bind_eq_bind, Option.bind_some]
  cases hc : checkKey vo k (typeOf v) with
  | error e => exact ⟨w, e, rfl, hd⟩
  | ok c =>
    obtain ⟨hk, _⟩ := checkKey_ok hc
    dsimp only
    obtain ⟨hn, hm⟩ := equalRange_vault (env := env) hi ho hs hk v
    cases he : equalRange env c v with
    | nil => exact ⟨w, _, rfl, hd⟩
    | cons r l =>
      obtain ⟨w', h, d, _⟩ := loop_erase_deep (env := env) (l := (r :: l).take (max n 1)) hi hd ho hs
        ((he ▸ hn).sublist (List.take_sublist _ _)) (fun t ht => (hm t (by rw [he]; exact List.mem_of_mem_take ht)).1)
      exact ⟨w', _, by dsimp only; rw [h]; rfl, d⟩

/-- Erasing from a vault: the records of a list leave the vault and every set. -/
def Gone (w w' : World K V Ty) (o : Nat) (vo : Obj K V Ty) : Prop :=
  ∃ l, (∀ r ∈ l, r ∈ vo.recs) ∧ Erased w w' o vo l ∧ SetsLost l w w'

theorem Gone.refl {w : World K V Ty} {o : Nat} {vo : Obj K V Ty} (ho : w.getObj o = some vo) : Gone w w o vo :=
  ⟨[], by simp, .refl ho, .refl w⟩

theorem eraseOne_gone {env : Env} {w w' : World K V Ty} {o r : Nat} {vo : Obj K V Ty} (hi : Inv own home w) (hd : Deep w)
    (ho : w.getObj o = some vo) (hs : vo.isSet = false) (hr : r ∈ vo.recs) (h : eraseOne env w o r = some w') : Gone w w' o vo := by
  obtain ⟨w1, h1, _, l1⟩ := eraseOne_lost (env := env) hi hd ho hs hr
  rw [h] at h1; cases h1
  exact ⟨[r], by simpa using hr, (eraseOne_vault hi ho hs hr h).2, l1⟩

theorem eraseRef_gone {env : Env} {w w' : World K V Ty} {o f : Nat} {vo : Obj K V Ty} {b : Bool} (hi : Inv own home w) (hd : Deep w)
    (ho : w.getObj o = some vo) (hs : vo.isSet = false) (h : eraseRef env w o f = some (w', b)) : Gone w w' o vo := by
  simp only [eraseRef, removeRecord, ho, Option.bind_eq_bind, Option.bind_eq_some_iff] at h
  obtain ⟨ref, hf, h⟩ := h
  cases hp : ref.ptr with
  | none => rw [hp] at h; simp at h; rw [← h.1]; exact .refl ho
  | some r =>
    rw [hp] at h; simp only [Option.bind_some] at h
    by_cases hr : r ∈ vo.recs
    · rw [if_neg (show ¬(r ∉ vo.recs) from fun h => h hr)] at h
      obtain ⟨w1, h1, h2⟩ := Option.map_eq_some_iff.mp h
      cases h2
      exact eraseOne_gone hi hd ho hs hr h1
    · rw [if_pos hr] at h; cases h; exact .refl ho

theorem eraseKV_gone {env : Env} {w w' : World K V Ty} {o : Nat} {vo : Obj K V Ty} {k : K} {v : V} {res : Res K} (hi : Inv own home w)
    (hd : Deep w) (ho : w.getObj o = some vo) (hs : vo.isSet = false) (h : eraseKV env w o k v = some (w', res)) : Gone w w' o vo := by
  simp only [eraseKV, ho, Option.bind_eq_bind, Option.bind_some] at h
  cases hc : checkKey vo k (typeOf v) with
  | error e => rw [hc] at h; cases h; exact .refl ho
  | ok c =>
    obtain ⟨hk, _⟩ := checkKey_ok hc
    rw [hc] at h; dsimp only at h
    cases he : equalRange env c v with
    | nil => rw [he] at h; cases h; exact .refl ho
    | cons r l =>
      rw [he] at h; dsimp only at h
      obtain ⟨w1, h1, h2⟩ := Option.map_eq_some_iff.mp h
      cases h2
      exact eraseOne_gone hi hd ho hs (range_mem (env := env) (v := v) hi hd ho hk (by rw [he]; simp)).1 h1

theorem eraseManyKV_gone {env : Env} {w w' : World K V Ty} {o n : Nat} {vo : Obj K V Ty} {k : K} {v : V} {res : Res K} (hi : Inv own home w)
    (hd : Deep w) (ho : w.getObj o = some vo) (hs : vo.isSet = false) (h : eraseManyKV env w o k v n = some (w', res)) : Gone w w' o vo := by
  simp only [eraseManyKV, ho, Option.bind_eq_bind, Option.bind_some] at h
  cases hc : checkKey vo k (typeOf v) with
  | error e => rw [hc] at h; cases h; exact .refl ho
  | ok c =>
    obtain ⟨hk, _⟩ := checkKey_ok hc
    rw [hc] at h; dsimp only at h
    obtain ⟨hn, hm⟩ := equalRange_vault (env := env) hi ho hs hk v
    cases he : equalRange env c v with
    | nil => rw [he] at h; cases h; exact .refl ho
    | cons r l =>
      rw [he] at h; dsimp only at h
      obtain ⟨w1, h1, h2⟩ := Option.map_eq_some_iff.mp h
      cases h2
      have hnd := (he ▸ hn : (r :: l).Nodup).sublist (List.take_sublist (max n 1) _)
      have hin : ∀ t ∈ (r :: l).take (max n 1), t ∈ vo.recs := fun t ht => (hm t (by rw [he]; exact List.mem_of_mem_take ht)).1
      obtain ⟨w2, h3, _, l2⟩ := loop_erase_deep (env := env) hi hd ho hs hnd hin
      rw [h1] at h3; cases h3
      exact ⟨_, hin, (loop_eraseOne hi ho hs hin hnd h1).2, l2⟩

end MVault.W
