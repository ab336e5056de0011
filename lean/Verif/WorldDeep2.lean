import Verif.WorldDeep
/-
Clear, Reset, preparing and filling a set: defined, and the set invariant is kept.
-/
set_option linter.unusedSectionVars false
set_option linter.unusedSimpArgs false
namespace MVault.W
variable {K V Ty : Type} [LinearOrder K] [LinearOrder V] [Typed V Ty] [DecidableEq Ty]
variable {own home : Nat → Nat}

/-- No valid record knows set `s`. -/
def Unknown (s : Nat) (w : World K V Ty) : Prop := ∀ r x, w.getRec r = some x → x.valid = true → s ∉ x.deps

theorem loop_eraseDep {w : World K V Ty} {s : Nat} {l : List Nat} (hl : ∀ r ∈ l, ∃ x, w.getRec r = some x) :
    ∃ w', loop (eraseDep s) l w = some w' ∧ w'.objs = w.objs ∧ w'.refs = w.refs ∧ w'.nextR = w.nextR ∧ w'.nextO = w.nextO ∧
      ∀ r, w'.getRec r = if r ∈ l then (w.getRec r).map (fun x => { x with deps := x.deps.filter (· ≠ s) }) else w.getRec r :=
  recLoop (g := fun x => { x with deps := x.deps.filter (· ≠ s) }) (fun x => by simp) hl (fun _ _ _ => rfl)

theorem setClear_deep {env : Env} {w : World K V Ty} {s : Nat} {so : Obj K V Ty} (hd : Deep w) (hsi : SI own home w)
    (hs : w.getObj s = some so) (hi : so.isSet = true) :
    ∃ w', setClear env w s = some w' ∧ Only s w w' ∧ Deep w' ∧ SI own home w' ∧
      w'.getObj s = some { so with cols := clearCols so.cols, recs := [] } ∧ (∀ o, o ≠ s → w'.getObj o = w.getObj o) ∧
      Unknown s w' ∧ (∀ r ∉ so.recs, w'.getRec r = w.getRec r) ∧ w'.refs = w.refs ∧ w'.nextR = w.nextR ∧ w'.nextO = w.nextO := by
  have ok := hsi.s.sets s so hs hi
  have dp := hd.set s so hs hi
  by_cases hp : so.parent = none
  · have hrec := ok.det hp
    have hcol := (dp.det hp).1
    have hun : Unknown s w := by
      intro r x hx hv hm
      obtain ⟨so', h1, _, h3⟩ := hd.told r x s hx hv hm
      rw [hs] at h1; cases h1; rw [hrec] at h3; cases h3
    refine ⟨w, by simp [setClear, hs, hp], .refl _ _, hd, hsi, ?_, fun _ _ => rfl, hun, fun _ _ => rfl, rfl, rfl, rfl⟩
    rw [hs]
    obtain ⟨a, b, c, d, e, f, g, h, i⟩ := so
    simp only at hrec hcol
    subst hrec; subst hcol; rfl
  · obtain ⟨w1, h1, ho, hr, hnR, hnO, hrec⟩ := loop_eraseDep (w := w) (s := s) (l := env.perm so.recs)
      (fun r hr => by obtain ⟨x, hx, _⟩ := dp.held r (by simpa using hr); exact ⟨x, hx⟩)
    have hcall : setClear env w s = some (w1.putObj s { so with cols := clearCols so.cols, recs := [] }) := by
      simp [setClear, hs, hp, h1]
    have only1 : Only s w w1 := by
      refine ⟨?_, ?_, ?_, ?_⟩
      · intro o _ h; rw [getObj_of_objs ho]; exact h
      · intro o _ a h; exact ⟨a.sets, by rw [getObj_of_objs ho]; exact h, fun h => h⟩
      · intro r h; rw [hrec, h]; simp
      · intro r x hx
        rw [hrec, hx]
        split
        · refine ⟨_, rfl, ?_, fun h => h.filter _⟩
          intro t ht; simp [ht]
        · exact ⟨x.deps, rfl, fun _ _ => Iff.rfl, fun h => h⟩
    have only := only1.trans (Only.putSet s w1 { so with cols := clearCols so.cols, recs := [] })
    have hun : Unknown s (w1.putObj s { so with cols := clearCols so.cols, recs := [] }) := by
      intro r x hx hv hm
      simp only [getRec_putObj, hrec] at hx
      split at hx
      · simp only [Option.map_eq_some_iff] at hx
        obtain ⟨y, _, rfl⟩ := hx
        simp at hm
      · rename_i hnr
        obtain ⟨so', h1, _, h3⟩ := hd.told r x s hx hv hm
        rw [hs] at h1; cases h1; exact hnr (by simpa using h3)
    have sq := setClear_sq (own := own) (home := home) hs hi hcall
    refine ⟨_, hcall, only, ?_, sq.si hsi, getObj_putObj_self _ _ _, ?_, hun, ?_, hr, hnR, hnO⟩
    · refine hd.only hsi.l only hs hi (getObj_putObj_self _ _ _) hi (hd.setsN s so hs) ?_ ?_
      · refine ⟨by simp, by simp, ?_, fun h => absurd h hp, ?_⟩
        · intro k c hc
          simp only [clearCols, mget_mmap, Option.map_eq_some_iff] at hc
          obtain ⟨c0, h0, rfl⟩ := hc
          exact (dp.cols k c0 h0).clear _
        · intro p po hpp hpo
          have hps : p ≠ s := by
            intro e; subst e
            obtain ⟨po', a, b, _⟩ := hsi.l.up p so p hs hi hpp
            rw [hs] at a; cases a; rw [hi] at b; cases b
          simp only [getObj_putObj, if_neg (Ne.symm hps), getObj_of_objs ho] at hpo
          refine (dp.att p po hpp hpo).left ⟨rfl, rfl, ?_⟩
          intro k
          simp only [clearCols, mget_mmap, Option.map_map]
          rfl
      · intro r x hx hv hm
        exact absurd hm (hun r x hx hv)
    · intro o hne
      simp only [getObj_putObj, if_neg (Ne.symm hne), getObj_of_objs ho]
    · intro r hr'
      simp only [getRec_putObj, hrec, mem_perm, if_neg hr']

/-- A set without vault and without records that no valid record knows. -/
structure Loose (w : World K V Ty) (s : Nat) (so : Obj K V Ty) : Prop where
  get : w.getObj s = some so
  isSet : so.isSet = true
  parent : so.parent = none
  recs : so.recs = []
  cols : so.cols = []
  sets : so.sets = []
  base : so.isBase = false
  unk : Unknown s w

theorem setReset_deep {env : Env} {w : World K V Ty} {s : Nat} {so : Obj K V Ty} (hd : Deep w) (hsi : SI own home w)
    (hs : w.getObj s = some so) (hi : so.isSet = true) :
    ∃ w' so', setReset env w s = some w' ∧ Only s w w' ∧ Deep w' ∧ SI own home w' ∧ Loose w' s so' ∧
      (∀ o, o ≠ s → w'.getObj o = if so.parent = some o then (w.getObj o).map (fun po => { po with sets := po.sets.filter (· ≠ s) })
        else w.getObj o) ∧ (∀ r ∉ so.recs, w'.getRec r = w.getRec r) ∧ w'.refs = w.refs ∧ w'.nextR = w.nextR ∧ w'.nextO = w.nextO := by
  have ok := hsi.s.sets s so hs hi
  have dp := hd.set s so hs hi
  cases hp : so.parent with
  | none =>
    have hrec := ok.det hp
    have hun : Unknown s w := by
      intro r x hx hv hm
      obtain ⟨so', h1, _, h3⟩ := hd.told r x s hx hv hm
      rw [hs] at h1; cases h1; rw [hrec] at h3; cases h3
    refine ⟨w, so, by simp [setReset, hs, hp], .refl _ _, hd, hsi, ⟨hs, hi, hp, hrec, (dp.det hp).1, ok.sets, ok.base, hun⟩, ?_,
      fun _ _ => rfl, rfl, rfl, rfl⟩
    intro o _; simp
  | some p =>
    obtain ⟨po, hpo, hpv, hpm⟩ := hsi.l.up s so p hs hi hp
    have hps : p ≠ s := by intro e; subst e; rw [hs] at hpo; cases hpo; rw [hi] at hpv; cases hpv
    obtain ⟨w1, h1, o1, d1, si1, g1, f1, u1, rr1, e1, e2, e3⟩ := setClear_deep (env := env) hd hsi hs hi
    let so2 : Obj K V Ty := { so with parent := some p, tmpl := [], cols := [], keysOrder := [], uniq := [], recs := [], sets := [] }
    let w2 := w1.putObj s so2
    let w3 := w2.putObj p { po with sets := po.sets.filter (· ≠ s) }
    let so3 : Obj K V Ty := { so2 with parent := none }
    have hcall : setReset env w s = some (w3.putObj s so3) := by
      simp only [setReset, hs, hp, hpo, h1, Option.bind_eq_bind, Option.bind_some, dropCore, g1, perm_nil, loop]
      simp only [getObj_putObj, if_neg (Ne.symm hps), f1 p hps, hpo, Option.bind_some, if_neg hps, if_true]
      rfl
    have o2 : Only s w1 w2 := .putSet _ _ _
    have hp2 : w2.getObj p = some po := by simp only [w2, getObj_putObj, if_neg (Ne.symm hps), f1 p hps, hpo]
    have o3 : Only s w2 w3 := .putSets hp2 _ (fun h => h.filter _)
    have o4 : Only s w3 (w3.putObj s so3) := .putSet _ _ _
    have oAll := o1.trans (o2.trans (o3.trans o4))
    have hun : Unknown s (w3.putObj s so3) := fun r x hx hv => u1 r x hx hv
    have hsi' := (setReset_spec (own := own) (home := home) hs hi hsi hcall).1.si
    refine ⟨_, so3, hcall, oAll, ?_, hsi', ⟨getObj_putObj_self _ _ _, hi, rfl, rfl, rfl, rfl, ok.base, hun⟩, ?_, rr1, e1, e2, e3⟩
    · refine hd.only hsi.l oAll hs hi (getObj_putObj_self _ _ _) hi (by simp [so3, so2]) ?_ ?_
      · refine ⟨by simp [so3, so2], by simp [so3, so2], by simp [so3, so2, mget], fun _ => ⟨rfl, rfl, rfl⟩, by simp [so3]⟩
      · intro r x hx hv hm; exact absurd hm (hun r x hx hv)
    · intro o hne
      simp only [w3, w2, getObj_putObj, if_neg (Ne.symm hne)]
      by_cases e : p = o
      · subst e; simp [hpo]
      · simp [e, f1 o hne]

/-! ### Filling a set -/

/-- The set `s` of vault `p`, while the records of `d` have been entered: the columns hold exactly the records of `d`, which are
exactly the valid records that know the set. -/
structure Filling (own : Nat → Nat) (w : World K V Ty) (s p : Nat) (d : List Nat) (so : Obj K V Ty) : Prop where
  get : w.getObj s = some so
  isSet : so.isSet = true
  base : so.isBase = false
  sets : so.sets = []
  par : so.parent = some p
  alike : ∀ po, w.getObj p = some po → Alike so po
  cols : ∀ k c, mget so.cols k = some c → ColOk (fun r => cellOf w r k) d c
  know : ∀ r x, w.getRec r = some x → x.valid = true → (s ∈ x.deps ↔ r ∈ d)

theorem addCols_fill {so po : Obj K V Ty} {w : World K V Ty} {s p r : Nat} {d : List Nat} {x : Rec K V}
    (hf : Filling own w s p d so) (hv : VInv own w) (hp : w.getObj p = some po) (hpv : po.isSet = false) (hr : r ∈ po.recs)
    (hx : w.getRec r = some x) (hrd : r ∉ d) (hsub : ∀ r' ∈ d, r' ∈ po.recs) :
    (∀ k c, mget (addCols so.cols x.data r) k = some c → ColOk (fun r => cellOf w r k) (d ++ [r]) c) ∧
      Grown [r] so { so with cols := addCols so.cols x.data r } := by
  have main : ∀ k c0, mget so.cols k = some c0 → ColOk (fun r => cellOf w r k) (d ++ [r]) (c0.add (c0.addVal x.data k) r).1 ∧
      (c0.add (c0.addVal x.data k) r).2 = true := by
    intro k c0 h0
    have hok := hf.cols k c0 h0
    have hty := (hf.alike po hp).ty k
    rw [h0] at hty
    cases hpc : mget po.cols k with
    | none => rw [hpc] at hty; simp at hty
    | some pc =>
      rw [hpc] at hty; simp at hty
      obtain ⟨v, hcv, hvt⟩ := ((hv.vok p po hp hpv).cols k pc hpc).typed r hr
      have hdv : mget x.data k = some v := by simpa [cellOf, hx] using hcv
      have hav : c0.addVal x.data k = v := by simp [Col.addVal, readOr, hdv, hvt, hty]
      rw [hav]
      have hacc : (c0.add v r).2 = true := by
        by_contra hno
        obtain ⟨hm, r', h1, h2⟩ := (hok.add_false v r).mp (by simpa using hno)
        have hu := (hf.alike po hp).multi k c0 pc h0 hpc hm
        have := ((hv.vok p po hp hpv).cols k pc hpc).uniq hu
        have e := this.2.2 r' (hsub r' h1) r hr (h2.trans hcv.symm)
        subst e; exact hrd h1
      exact ⟨hok.add (hvt.trans hty.symm) hrd hacc (fun _ _ => rfl) hcv, hacc⟩
  constructor
  · intro k c hc
    simp only [addCols, mget_mmap, Option.map_eq_some_iff] at hc
    obtain ⟨c0, h0, rfl⟩ := hc
    exact (main k c0 h0).1
  · intro b k r'
    simp only [Obj.lists, addCols, mget_mmap, Option.map_eq_some_iff, List.mem_singleton, mhas_iff]
    constructor
    · rintro ⟨_, ⟨c0, h0, rfl⟩, hl⟩
      rcases ((hf.cols k c0 h0).add_lists (main k c0 h0).2 b r').mp hl with hl | hl
      · exact .inl ⟨c0, h0, hl⟩
      · exact .inr ⟨hl, c0, h0⟩
    · rintro (⟨c0, h0, hl⟩ | ⟨hl, c0, h0⟩)
      · exact ⟨_, ⟨c0, h0, rfl⟩, ((hf.cols k c0 h0).add_lists (main k c0 h0).2 b r').mpr (.inl hl)⟩
      · exact ⟨_, ⟨c0, h0, rfl⟩, ((hf.cols k c0 h0).add_lists (main k c0 h0).2 b r').mpr (.inr hl)⟩

theorem mhas_alike {a b po : Obj K V Ty} (h1 : Alike a po) (h2 : Alike b po) (k : K) : mhas a.cols k = mhas b.cols k := by
  have e := (h1.ty k).trans (h2.ty k).symm
  cases ha : mget a.cols k with
  | none =>
    rw [ha] at e
    have hb : mget b.cols k = none := by cases hb : mget b.cols k with
      | none => rfl
      | some _ => rw [hb] at e; cases e
    rw [(mhas_false _ _).mpr ha, (mhas_false _ _).mpr hb]
  | some c =>
    rw [ha] at e
    have hb : ∃ c', mget b.cols k = some c' := by cases hb : mget b.cols k with
      | none => rw [hb] at e; cases e
      | some c' => exact ⟨c', rfl⟩
    rw [(mhas_iff _ _).mpr ⟨c, ha⟩, (mhas_iff _ _).mpr hb]

theorem Grown.cons {r : Nat} {l : List Nat} {a b c : Obj K V Ty} (h1 : Grown [r] a b) (h2 : Grown l b c) (hk : ∀ k, mhas b.cols k = mhas a.cols k) :
    Grown (r :: l) a c := by
  intro bb k r'
  rw [h2, h1, hk]
  simp only [List.mem_cons, List.not_mem_nil, or_false]
  constructor
  · rintro ((h | h) | h)
    · exact .inl h
    · exact .inr ⟨.inl h.1, h.2⟩
    · exact .inr ⟨.inr h.1, h.2⟩
  · rintro (h | ⟨h | h, h'⟩)
    · exact .inl (.inl h)
    · exact .inl (.inr ⟨h, h'⟩)
    · exact .inr ⟨h, h'⟩

/-- One record is entered. -/
theorem attach_fill {so po : Obj K V Ty} {w : World K V Ty} {s p r : Nat} {d : List Nat} {x : Rec K V}
    (hf : Filling own w s p d so) (hv : VInv own w) (hp : w.getObj p = some po) (hpv : po.isSet = false) (hr : r ∈ po.recs)
    (hx : w.getRec r = some x) (hrd : r ∉ d) (hsub : ∀ r' ∈ d, r' ∈ po.recs) :
    ∃ w' so', attach s w r = some w' ∧ Only s w w' ∧ Filling own w' s p (d ++ [r]) so' ∧ so'.recs = so.recs ∧
      so'.keysOrder = so.keysOrder ∧ so'.uniq = so.uniq ∧ w'.refs = w.refs ∧ w'.nextR = w.nextR ∧ w'.nextO = w.nextO ∧
      (∀ o, o ≠ s → w'.getObj o = w.getObj o) ∧ Grown [r] so so' := by
  have hps : p ≠ s := by
    intro e; subst e; rw [hf.get] at hp; cases hp; rw [hf.isSet] at hpv; cases hpv
  let so' : Obj K V Ty := { so with cols := addCols so.cols x.data r }
  let w1 := w.putObj s so'
  let w2 := w1.putRec r { x with deps := setIns x.deps s }
  have hcall : attach s w r = some w2 := by
    simp only [attach, hf.get, hx, Option.bind_eq_bind, Option.bind_some, addDep, getRec_putObj, Option.map_some]
    rfl
  have o1 : Only s w w1 := .putSet _ _ _
  have o2 : Only s w1 w2 := by
    refine ⟨fun _ _ h => h, fun _ _ a h => ⟨a.sets, h, fun h => h⟩, ?_, ?_⟩
    · intro r' h
      simp only [w2, getRec_putRec]; split
      · rename_i e; subst e; rw [getRec_putObj, hx] at h; cases h
      · exact h
    · intro r' y hy
      simp only [w2, getRec_putRec]; split
      · rename_i e; subst e; rw [getRec_putObj, hx] at hy; cases hy
        refine ⟨_, rfl, ?_, nodup_setIns _ _⟩
        intro t ht; rw [mem_setIns]; simp [ht]
      · exact ⟨y.deps, hy, fun _ _ => Iff.rfl, fun h => h⟩
  have oo := o1.trans o2
  have hadd := addCols_fill hf hv hp hpv hr hx hrd hsub
  refine ⟨w2, so', hcall, oo, ?_, rfl, rfl, rfl, rfl, rfl, rfl, ?_, hadd.2⟩
  · refine ⟨by simp [w2, w1], hf.isSet, hf.base, hf.sets, hf.par, ?_, ?_, ?_⟩
    · intro po' hpo'
      simp only [w2, w1, getObj_putRec, getObj_putObj, if_neg (Ne.symm hps)] at hpo'
      refine (hf.alike po' hpo').left ⟨rfl, rfl, ?_⟩
      intro k
      simp only [so', addCols, mget_mmap, Option.map_map, Function.comp_def]
      congr 1; funext c
      rw [(Col.add_shape c _ r).1, (Col.add_shape c _ r).2.1]
    · intro k c hc
      have h1 := hadd.1 k c hc
      exact h1.congr (fun _ => Iff.rfl) (fun r' _ => oo.cell r' k)
    · intro r' y hy hyv
      simp only [w2, getRec_putRec] at hy
      split at hy
      · rename_i e; subst e; cases hy
        rw [mem_setIns]; simp
      · rename_i e
        rw [hf.know r' y hy hyv]; simp [Ne.symm e]
  · intro o hne
    simp only [w2, w1, getObj_putRec, getObj_putObj, if_neg (Ne.symm hne)]

theorem Only.sf {s : Nat} {w w' : World K V Ty} {so so' : Obj K V Ty} (h : Only s w w') (hs : w.getObj s = some so) (hi : so.isSet = true)
    (hs' : w'.getObj s = some so') (hi' : so'.isSet = true) (e1 : w'.refs = w.refs) (e2 : w'.nextR = w.nextR) (e3 : w'.nextO = w.nextO) :
    SF w w' where
  recs r := by
    cases hx : w.getRec r with
    | none => rw [h.recN r hx]; trivial
    | some x => obtain ⟨d, hd, _⟩ := h.recS r x hx; rw [hd]; exact ⟨rfl, rfl, fun _ => rfl⟩
  objs o := by
    by_cases e : o = s
    · subst e; rw [hs, hs']; exact ⟨hi'.trans hi.symm, fun hh => by rw [hi] at hh; cases hh⟩
    · cases hx : w.getObj o with
      | none => rw [h.objN o e hx]; trivial
      | some a => obtain ⟨l, hl, _⟩ := h.obj o e a hx; rw [hl]; exact ⟨rfl, fun _ => rfl⟩
  refs := e1
  nextR := e2
  nextO := e3

/-- Many records are entered. -/
theorem loop_fill {po : Obj K V Ty} {s p : Nat} {l : List Nat} {w : World K V Ty} {d : List Nat} {so : Obj K V Ty}
    (hf : Filling own w s p d so) (hv : VInv own w) (hp : w.getObj p = some po) (hpv : po.isSet = false) (hl : ∀ r ∈ l, r ∈ po.recs)
    (hn : (d ++ l).Nodup) (hsub : ∀ r' ∈ d, r' ∈ po.recs) :
    ∃ w' so', loop (attach s) l w = some w' ∧ Only s w w' ∧ Filling own w' s p (d ++ l) so' ∧ so'.recs = so.recs ∧
      so'.keysOrder = so.keysOrder ∧ so'.uniq = so.uniq ∧ w'.refs = w.refs ∧ w'.nextR = w.nextR ∧ w'.nextO = w.nextO ∧
      (∀ o, o ≠ s → w'.getObj o = w.getObj o) ∧ Grown l so so' ∧ ∀ k, mhas so'.cols k = mhas so.cols k := by
  induction l generalizing w d so with
  | nil => exact ⟨w, so, rfl, .refl _ _, by simpa using hf, rfl, rfl, rfl, rfl, rfl, rfl, fun _ _ => rfl, .refl _, fun _ => rfl⟩
  | cons r l ih =>
    have hps : p ≠ s := by
      intro e; subst e; rw [hf.get] at hp; cases hp; rw [hf.isSet] at hpv; cases hpv
    obtain ⟨_, x, hx, _⟩ := hv.mem p po hp hpv r (hl r (by simp))
    have hrd : r ∉ d := by
      intro hm; rw [List.nodup_append] at hn; exact hn.2.2 r hm r (by simp) rfl
    obtain ⟨w1, so1, h1, o1, f1, a1, a2, a3, a4, a5, a6, a7, a8⟩ := attach_fill hf hv hp hpv (hl r (by simp)) hx hrd hsub
    have hv1 := (o1.sf hf.get hf.isSet f1.get f1.isSet a4 a5 a6).vinv hv
    have hk1 : ∀ k, mhas so1.cols k = mhas so.cols k := fun k => mhas_alike (f1.alike po (by rw [a7 p hps]; exact hp)) (hf.alike po hp) k
    obtain ⟨w2, so2, h2, o2, f2, b1, b2, b3, b4, b5, b6, b7, b8, b9⟩ := ih f1 hv1 (by rw [a7 p hps]; exact hp) (fun r' hr' => hl r' (by simp [hr']))
      (by simpa using hn) (by
        intro r' hr'
        rcases List.mem_append.mp hr' with hr' | hr'
        · exact hsub r' hr'
        · simp at hr'; subst hr'; exact hl _ (by simp))
    refine ⟨w2, so2, by simp [loop, h1, h2], o1.trans o2, by simpa using f2, b1.trans a1, b2.trans a2, b3.trans a3, b4.trans a4,
      b5.trans a5, b6.trans a6, fun o hne => (b7 o hne).trans (a7 o hne), a8.cons b8 hk1, fun k => (b9 k).trans (hk1 k)⟩

/-- A filled set satisfies the invariant. -/
theorem Filling.deep {w w0 : World K V Ty} {s p : Nat} {d : List Nat} {so so0 : Obj K V Ty} (hf : Filling own w s p d so) (h0 : Deep w0)
    (hl : Link w0) (ho : Only s w0 w) (hs : w0.getObj s = some so0) (hi : so0.isSet = true)
    (hrd : ∀ r, r ∈ so.recs ↔ r ∈ d) (hn : so.recs.Nodup) (hlive : ∀ r ∈ d, ∃ x, w.getRec r = some x ∧ x.valid = true) : Deep w := by
  refine h0.only hl ho hs hi hf.get hf.isSet (by rw [hf.sets]; simp) ?_ ?_
  · refine ⟨?_, hn, ?_, ?_, ?_⟩
    · intro r hr
      obtain ⟨x, hx, hv⟩ := hlive r ((hrd r).mp hr)
      exact ⟨x, hx, hv, (hf.know r x hx hv).mpr ((hrd r).mp hr)⟩
    · intro k c hc; exact (hf.cols k c hc).congr hrd (fun _ _ => rfl)
    · intro h; rw [hf.par] at h; cases h
    · intro p' po hp hpo
      rw [hf.par] at hp; cases hp
      exact hf.alike po hpo
  · intro r x hx hv hm
    exact (hrd r).mpr ((hf.know r x hx hv).mp hm)

/-- Putting found records into an empty set. -/
theorem fillTarget_deep {env : Env} {w : World K V Ty} {s p : Nat} {l : List Nat} {so po : Obj K V Ty}
    (hf : Filling own w s p [] so) (hrec : so.recs = []) (h0 : Deep w) (hlk : Link w) (hv : VInv own w) (hp : w.getObj p = some po)
    (hpv : po.isSet = false) (hl : ∀ r ∈ l, r ∈ po.recs) :
    ∃ w' so', fillTarget env w s l = some w' ∧ Only s w w' ∧ Deep w' ∧ w'.getObj s = some so' ∧ so'.isSet = true ∧
      so'.parent = some p ∧ (∀ r, r ∈ so'.recs ↔ r ∈ l) ∧ w'.refs = w.refs ∧ w'.nextR = w.nextR ∧ w'.nextO = w.nextO ∧
      (∀ b k r, so'.lists b k r ↔ r ∈ l ∧ mhas so'.cols k = true) := by
  have hps : p ≠ s := by
    intro e; subst e; rw [hf.get] at hp; cases hp; rw [hf.isSet] at hpv; cases hpv
  let rs := l.foldl setIns so.recs
  have hrs : ∀ r, r ∈ rs ↔ r ∈ l := by intro r; simp only [rs, mem_foldl_setIns, hrec]; simp
  have hrn : rs.Nodup := by simp only [rs]; exact nodup_foldl_setIns _ _ (by rw [hrec]; simp)
  let so1 : Obj K V Ty := { so with recs := rs }
  let w1 := w.putObj s so1
  have o1 : Only s w w1 := .putSet _ _ _
  have hpo : w1.getObj p = some po := by simp only [w1, getObj_putObj, if_neg (Ne.symm hps), hp]
  have f1 : Filling own w1 s p [] so1 := by
    refine ⟨getObj_putObj_self _ _ _, hf.isSet, hf.base, hf.sets, hf.par, ?_, hf.cols, hf.know⟩
    intro po' h
    rw [hpo] at h; cases h
    obtain ⟨a, b, c, d⟩ := hf.alike po hp
    exact ⟨a, b, c, d⟩
  have hv1 : VInv own w1 := (o1.sf hf.get hf.isSet f1.get f1.isSet rfl rfl rfl).vinv hv
  obtain ⟨w2, so2, h2, o2, f2, b1, b2, b3, b4, b5, b6, b7, b8, b9⟩ := loop_fill (l := env.perm rs) f1 hv1 hpo hpv
    (fun r hr => hl r ((hrs r).mp (by simpa using hr))) (by simpa [nodup_perm] using hrn) (by simp)
  refine ⟨w2, so2, ?_, o1.trans o2, ?_, f2.get, f2.isSet, f2.par, ?_, b4, b5, b6, ?_⟩
  · simp only [fillTarget, hf.get, Option.bind_eq_bind, Option.bind_some]
    exact h2
  · refine f2.deep h0 hlk (o1.trans o2) hf.get hf.isSet ?_ (by rw [b1]; exact hrn) ?_
    · intro r; rw [b1]; simp [so1]
    · intro r hr
      obtain ⟨_, x, hx, hxv⟩ := hv.mem p po hp hpv r (hl r ((hrs r).mp (by simpa using hr)))
      obtain ⟨d, hd, _⟩ := (o1.trans o2).recS r x hx
      exact ⟨_, hd, hxv⟩
  · intro r; rw [b1]; exact hrs r
  · intro b k r
    have hno : ¬ so1.lists b k r := by
      rintro ⟨c, hc, v, hv⟩
      have := f1.cols k c hc
      cases b
      · exact absurd (this.hashS v r hv).1 (by simp)
      · exact absurd (this.ordS v r hv).1 (by simp)
    rw [b8 b k r, b9 k]
    simp only [hno, false_or, mem_perm, hrs]

end MVault.W
