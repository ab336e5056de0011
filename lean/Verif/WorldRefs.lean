import Verif.WorldSets4
/-
Reference operations keep the invariant and are always defined.
-/
set_option linter.unusedSectionVars false
set_option linter.unusedSimpArgs false
namespace MVault.W
variable {K V Ty : Type} [LinearOrder K] [LinearOrder V] [Typed V Ty] [DecidableEq Ty]
variable {own home : Nat → Nat}

/-- Only reference counts (and records that are already invalid) changed. -/
structure RF (w w' : World K V Ty) : Prop where
  objs : w'.objs = w.objs
  nextR : w'.nextR = w.nextR
  nextO : w'.nextO = w.nextO
  recOf : ∀ r y, w'.getRec r = some y → ∃ x, w.getRec r = some x ∧ y.data = x.data ∧ y.valid = x.valid ∧ y.deps = x.deps
  recTo : ∀ r x, w.getRec r = some x → x.valid = true → ∃ y, w'.getRec r = some y

theorem RF.refl (w : World K V Ty) : RF w w := ⟨rfl, rfl, rfl, fun _ y h => ⟨y, h, rfl, rfl, rfl⟩, fun _ x h _ => ⟨x, h⟩⟩

theorem RF.trans {a b c : World K V Ty} (h1 : RF a b) (h2 : RF b c) : RF a c where
  objs := h2.objs.trans h1.objs
  nextR := h2.nextR.trans h1.nextR
  nextO := h2.nextO.trans h1.nextO
  recOf r y hy := by
    obtain ⟨x, hx, e1, e2, e3⟩ := h2.recOf r y hy
    obtain ⟨z, hz, f1, f2, f3⟩ := h1.recOf r x hx
    exact ⟨z, hz, e1.trans f1, e2.trans f2, e3.trans f3⟩
  recTo r x hx hv := by
    obtain ⟨y, hy⟩ := h1.recTo r x hx hv
    obtain ⟨x', hx', _, e, _⟩ := h1.recOf r y hy
    rw [hx] at hx'; cases hx'
    exact h2.recTo r y hy (by rw [e]; exact hv)

theorem RF.setRefs (w : World K V Ty) (l : List Ref) : RF w { w with refs := l } :=
  ⟨rfl, rfl, rfl, fun _ y h => ⟨y, h, rfl, rfl, rfl⟩, fun _ x h _ => ⟨x, h⟩⟩

theorem RF.obj {w w' : World K V Ty} (h : RF w w') (o : Nat) : w'.getObj o = w.getObj o := getObj_of_objs h.objs o

theorem RF.recTo' {w w' : World K V Ty} (h : RF w w') {r : Nat} {x : Rec K V} (hx : w.getRec r = some x) (hv : x.valid = true) :
    ∃ y, w'.getRec r = some y ∧ y.data = x.data ∧ y.valid = true ∧ y.deps = x.deps := by
  obtain ⟨y, hy⟩ := h.recTo r x hx hv
  obtain ⟨x', hx', e1, e2, e3⟩ := h.recOf r y hy
  rw [hx] at hx'; cases hx'
  exact ⟨y, hy, e1, e2.trans hv, e3⟩

theorem RF.cell {w w' : World K V Ty} (h : RF w w') {r : Nat} {x : Rec K V} (hx : w.getRec r = some x) (hv : x.valid = true) (k : K) :
    cellOf w' r k = cellOf w r k := by
  obtain ⟨y, hy, e, _⟩ := h.recTo' hx hv
  simp [cellOf, hx, hy, e]

theorem RF.vinv {w w' : World K V Ty} (h : RF w w') (hv : VInv own w) : VInv own w' where
  vok o b hb hs := by
    rw [h.obj] at hb
    refine (hv.vok o b hb hs).congr ?_
    intro r hr k
    obtain ⟨_, x, hx, hxv⟩ := hv.mem o b hb hs r hr
    exact h.cell hx hxv k
  mem o b hb hs r hr := by
    rw [h.obj] at hb
    obtain ⟨a1, x, hx, hxv⟩ := hv.mem o b hb hs r hr
    obtain ⟨y, hy, _, e, _⟩ := h.recTo' hx hxv
    exact ⟨a1, y, hy, e⟩
  val r y hy hyv := by
    obtain ⟨x, hx, _, e, _⟩ := h.recOf r y hy
    rw [h.obj]
    exact hv.val r x hx (by rw [← e]; exact hyv)
  ltR r y hy := by
    obtain ⟨x, hx, _⟩ := h.recOf r y hy
    rw [h.nextR]; exact hv.ltR r x hx
  ltO o b hb := by
    rw [h.obj] at hb; rw [h.nextO]; exact hv.ltO o b hb

theorem RF.sobj {w w' : World K V Ty} (h : RF w w') (hv : SObj own home w) : SObj own home w' where
  sets s so hs hi := by rw [h.obj] at hs; rw [h.nextR]; exact hv.sets s so hs hi
  deps r y s hy hm := by
    obtain ⟨x, hx, _, e', e⟩ := h.recOf r y hy
    obtain ⟨d1, d2⟩ := hv.deps r x s hx (by rw [← e]; exact hm)
    rw [h.nextO]; exact ⟨fun hv => d1 (by rw [← e']; exact hv), d2⟩
  ltO o b hb := by rw [h.obj] at hb; rw [h.nextO]; exact hv.ltO o b hb
  ltR r y hy := by
    obtain ⟨x, hx, _⟩ := h.recOf r y hy
    rw [h.nextR]; exact hv.ltR r x hx
  vb o b hb := by rw [h.obj] at hb; exact hv.vb o b hb

theorem RF.link {w w' : World K V Ty} (h : RF w w') (hv : Link w) : Link w' :=
  hv.congr fun o => by unfold Lk; rw [h.obj]

/-- The reference counts are `e`. -/
structure CntOk (e : Nat → Nat) (w : World K V Ty) : Prop where
  cnt : ∀ r x, w.getRec r = some x → x.refs = e r
  inv : ∀ r x, w.getRec r = some x → x.valid = false → 0 < x.refs
  live : ∀ r, 0 < e r → ∃ x, w.getRec r = some x

theorem CntOk.addRef {e : Nat → Nat} {w : World K V Ty} {r : Nat} {x : Rec K V} (h : CntOk e w) (hx : w.getRec r = some x) :
    ∃ w', addRef w r = some w' ∧ w'.refs = w.refs ∧ RF w w' ∧ CntOk (fun a => if a = r then e a + 1 else e a) w' ∧
      (∀ r', (∃ y, w'.getRec r' = some y) ↔ ∃ y, w.getRec r' = some y) := by
  refine ⟨w.putRec r { x with refs := x.refs + 1 }, by simp only [W.addRef, hx, Option.map_some], rfl, ⟨rfl, rfl, rfl, ?_, ?_⟩, ⟨?_, ?_, ?_⟩, ?_⟩
  · intro r' y hy
    simp only [getRec_putRec] at hy
    split at hy
    · rename_i e; subst e; cases hy; exact ⟨x, hx, rfl, rfl, rfl⟩
    · exact ⟨y, hy, rfl, rfl, rfl⟩
  · intro r' x' hx' _
    simp only [getRec_putRec]
    split
    · exact ⟨_, rfl⟩
    · exact ⟨_, hx'⟩
  · intro r' y hy
    simp only [getRec_putRec] at hy
    split at hy
    · rename_i e; subst e; cases hy; simp [h.cnt r x hx]
    · rename_i e1
      simp only [if_neg (Ne.symm e1)]; exact h.cnt _ _ hy
  · intro r' y hy hv
    simp only [getRec_putRec] at hy
    split at hy
    · cases hy; simp
    · exact h.inv _ _ hy hv
  · intro r' hr
    simp only [getRec_putRec]
    split
    · exact ⟨_, rfl⟩
    · rename_i e1
      simp only [if_neg (Ne.symm e1)] at hr
      exact h.live r' hr
  · intro r'
    simp only [getRec_putRec]
    split
    · rename_i e; subst e; simp [hx]
    · exact Iff.rfl

theorem CntOk.removeRef {e : Nat → Nat} {w : World K V Ty} {r : Nat} (h : CntOk e w) (hr : 0 < e r) :
    ∃ w', removeRef w r = some w' ∧ w'.refs = w.refs ∧ RF w w' ∧ CntOk (fun a => if a = r then e a - 1 else e a) w' ∧
      (∀ r', r' ≠ r → w'.getRec r' = w.getRec r') := by
  obtain ⟨x, hx⟩ := h.live r hr
  have hc := h.cnt r x hx
  by_cases hf : x.valid = false ∧ x.refs - 1 = 0
  · refine ⟨w.freeRec r, by simp only [W.removeRef, hx, Option.map_some, if_pos hf], rfl, ⟨rfl, rfl, rfl, ?_, ?_⟩, ⟨?_, ?_, ?_⟩, ?_⟩
    · intro r' y hy
      simp only [getRec_freeRec] at hy
      split at hy
      · cases hy
      · exact ⟨y, hy, rfl, rfl, rfl⟩
    · intro r' x' hx' hv
      simp only [getRec_freeRec]
      split
      · rename_i e1; subst e1; rw [hx] at hx'; cases hx'; rw [hf.1] at hv; cases hv
      · exact ⟨_, hx'⟩
    · intro r' y hy
      simp only [getRec_freeRec] at hy
      split at hy
      · cases hy
      · rename_i e1; simp only [if_neg (Ne.symm e1)]; exact h.cnt _ _ hy
    · intro r' y hy hv
      simp only [getRec_freeRec] at hy
      split at hy
      · cases hy
      · exact h.inv _ _ hy hv
    · intro r' hr'
      simp only [getRec_freeRec]
      split
      · rename_i e1; subst e1; simp at hr'; omega
      · rename_i e1; simp only [if_neg (Ne.symm e1)] at hr'; exact h.live r' hr'
    · intro r' hne
      simp only [getRec_freeRec, if_neg (Ne.symm hne)]
  · refine ⟨w.putRec r { x with refs := x.refs - 1 }, by simp only [W.removeRef, hx, Option.map_some, if_neg hf], rfl, ⟨rfl, rfl, rfl, ?_, ?_⟩, ⟨?_, ?_, ?_⟩, ?_⟩
    · intro r' y hy
      simp only [getRec_putRec] at hy
      split at hy
      · rename_i e; subst e; cases hy; exact ⟨x, hx, rfl, rfl, rfl⟩
      · exact ⟨y, hy, rfl, rfl, rfl⟩
    · intro r' x' hx' _
      simp only [getRec_putRec]
      split
      · exact ⟨_, rfl⟩
      · exact ⟨_, hx'⟩
    · intro r' y hy
      simp only [getRec_putRec] at hy
      split at hy
      · rename_i e; subst e; cases hy; simp [hc]
      · rename_i e1
        simp only [if_neg (Ne.symm e1)]; exact h.cnt _ _ hy
    · intro r' y hy hv
      simp only [getRec_putRec] at hy
      split at hy
      · cases hy
        simp only [not_and] at hf
        have := hf hv
        simp; omega
      · exact h.inv _ _ hy hv
    · intro r' hr
      simp only [getRec_putRec]
      split
      · exact ⟨_, rfl⟩
      · rename_i e1
        simp only [if_neg (Ne.symm e1)] at hr
        exact h.live r' hr
    · intro r' hne
      simp only [getRec_putRec, if_neg (Ne.symm hne)]

theorem RInv.cntOk {w : World K V Ty} (h : RInv own home w) : CntOk (refCount w) w where
  cnt := h.cnt
  inv := h.inv
  live r hr := by
    unfold refCount at hr
    obtain ⟨f, hf, hp⟩ := List.countP_pos_iff.mp hr
    exact h.live f hf r (by simpa using hp)

theorem refCount_pos {w : World K V Ty} {f : Ref} {r : Nat} (hf : f ∈ w.refs) (hp : f.ptr = some r) : 0 < refCount w r := by
  unfold refCount
  exact List.countP_pos_iff.mpr ⟨f, hf, by simpa using hp⟩

theorem refCount_set {l : List Ref} {f : Nat} {old : Ref} (new : Ref) (hf : l[f]? = some old) (r : Nat) :
    (l.set f new).countP (fun g => decide (g.ptr = some r)) + (if old.ptr = some r then 1 else 0) =
      l.countP (fun g => decide (g.ptr = some r)) + (if new.ptr = some r then 1 else 0) := by
  obtain ⟨hlt, he⟩ := List.getElem?_eq_some_iff.mp hf
  rw [List.countP_set hlt]
  have hm : old ∈ l := he ▸ List.getElem_mem hlt
  have : old.ptr = some r → 0 < l.countP (fun g => decide (g.ptr = some r)) := fun h =>
    List.countP_pos_iff.mpr ⟨old, hm, by simpa using h⟩
  rw [he]
  simp only [decide_eq_true_eq]
  split <;> split <;> simp_all

/-- Installing a new list of references whose counts are the expected ones. -/
theorem RInv.install {w w2 : World K V Ty} {l : List Ref} (h : RInv own home w) (hrf : RF w w2) (hc : CntOk e w2)
    (he : ∀ r, e r = l.countP (fun g => decide (g.ptr = some r)))
    (hl : ∀ f ∈ l, f ∈ w.refs ∨ ∀ r, f.ptr = some r → (∃ o, f.vlt = some o ∧ o < w.nextO) ∧
      ∀ o oo, f.vlt = some o → w.getObj o = some oo → own r = if oo.isSet = true then home o else o) :
    RInv own home ({ w2 with refs := l } : World K V Ty) where
  cnt r x hx := by
    have := hc.cnt r x hx
    rw [this, he]; rfl
  inv r x hx := hc.inv r x hx
  live f hf r hr := by
    have : 0 < e r := by
      rw [he]; exact List.countP_pos_iff.mpr ⟨f, hf, by simpa using hr⟩
    exact hc.live r this
  own f hf r o oo hr ho hoo := by
    have hoo' : w.getObj o = some oo := by rw [← hrf.obj]; exact hoo
    rcases hl f hf with h1 | h1
    · exact h.own f h1 r o oo hr ho hoo'
    · exact (h1 r hr).2 o oo ho hoo'
  vlt f hf r hr := by
    have hn : ({ w2 with refs := l } : World K V Ty).nextO = w.nextO := hrf.nextO
    rw [hn]
    rcases hl f hf with h1 | h1
    · exact h.vlt f h1 r hr
    · exact (h1 r hr).1

/-- The result of an operation on references. -/
structure RStep (own home : Nat → Nat) (w w' : World K V Ty) : Prop where
  rf : RF w w'
  rinv : RInv own home w'

theorem RStep.inv {w w' : World K V Ty} (h : RStep own home w w') (hi : Inv own home w) : Inv own home w' :=
  ⟨h.rf.vinv hi.v, h.rinv, h.rf.sobj hi.s, h.rf.link hi.l⟩

theorem RStep.trans {a b c : World K V Ty} (h1 : RStep own home a b) (h2 : RStep own home b c) : RStep own home a c :=
  ⟨h1.rf.trans h2.rf, h2.rinv⟩

theorem optAdd {e : Nat → Nat} {w : World K V Ty} {p : Option Nat} (h : CntOk e w) (hx : ∀ r, p = some r → ∃ x, w.getRec r = some x) :
    ∃ w', optStep addRef w p = some w' ∧ w'.refs = w.refs ∧ RF w w' ∧ CntOk (fun a => e a + if p = some a then 1 else 0) w' := by
  cases p with
  | none => exact ⟨w, rfl, rfl, .refl _, by simpa using h⟩
  | some r =>
    obtain ⟨x, hx⟩ := hx r rfl
    obtain ⟨w', h1, h2, h3, h4, _⟩ := h.addRef hx
    refine ⟨w', h1, h2, h3, ?_⟩
    have : (fun a => if a = r then e a + 1 else e a) = (fun a => e a + if some r = some a then 1 else 0) := by
      funext a
      by_cases ha : a = r
      · subst ha; simp
      · simp [ha, Ne.symm ha]
    rw [← this]; exact h4

theorem optRemove {e : Nat → Nat} {w : World K V Ty} {p : Option Nat} (h : CntOk e w) (hx : ∀ r, p = some r → 0 < e r) :
    ∃ w', optStep removeRef w p = some w' ∧ w'.refs = w.refs ∧ RF w w' ∧ CntOk (fun a => e a - if p = some a then 1 else 0) w' := by
  cases p with
  | none => exact ⟨w, rfl, rfl, .refl _, by simpa using h⟩
  | some r =>
    obtain ⟨w', h1, h2, h3, h4, _⟩ := h.removeRef (hx r rfl)
    refine ⟨w', h1, h2, h3, ?_⟩
    have : (fun a => if a = r then e a - 1 else e a) = (fun a => e a - if some r = some a then 1 else 0) := by
      funext a
      by_cases ha : a = r
      · subst ha; simp
      · simp [ha, Ne.symm ha]
    rw [← this]; exact h4

theorem mem_of_get {l : List Ref} {f : Nat} {x : Ref} (h : l[f]? = some x) : x ∈ l := by
  obtain ⟨hlt, he⟩ := List.getElem?_eq_some_iff.mp h
  exact he ▸ List.getElem_mem hlt

/-- `SetRecord` is defined and keeps the invariant. -/
theorem setRecord_ok {w : World K V Ty} {f : Nat} {p : Option Nat} {o : Nat} {oo : Obj K V Ty} {old : Ref} (h : RInv own home w)
    (hlt : ∀ o x, w.getObj o = some x → o < w.nextO)
    (ho : w.getObj o = some oo) (hf : w.refs[f]? = some old) (hp : ∀ r, p = some r → ∃ x, w.getRec r = some x)
    (hown : ∀ r, p = some r → own r = if oo.isSet = true then home o else o) :
    ∃ w', setRecord w f p o = some w' ∧ RStep own home w w' ∧ w'.refs = w.refs.set f ⟨p, some o⟩ := by
  obtain ⟨w1, h1, r1, f1, c1⟩ := optAdd h.cntOk hp
  obtain ⟨w2, h2, r2, f2, c2⟩ := optRemove (p := old.ptr) c1 (by
    intro r hr
    have := refCount_pos (mem_of_get hf) hr
    omega)
  have hrefs : w2.refs = w.refs := r2.trans r1
  refine ⟨{ w2 with refs := w2.refs.set f ⟨p, some o⟩ }, ?_, ⟨f1.trans (f2.trans (.setRefs _ _)), ?_⟩, by rw [hrefs]⟩
  · simp [setRecord, ho, hf, h1, h2]
  · refine h.install (f1.trans f2) c2 ?_ ?_
    · intro r
      have := refCount_set ⟨p, some o⟩ hf r
      rw [hrefs]
      simp only [refCount]
      simp only at this
      omega
    · intro g hg
      rw [hrefs] at hg
      rcases List.mem_or_eq_of_mem_set hg with hg | rfl
      · exact .inl hg
      · right
        intro r hr
        refine ⟨⟨o, rfl, hlt o oo ho⟩, ?_⟩
        rintro o' oo' e hoo'
        cases e; rw [ho] at hoo'; cases hoo'
        exact hown r hr

/-- A new null reference. -/
theorem newRef_ok {w : World K V Ty} (h : RInv own home w) : RStep own home w (newRef w) := by
  refine ⟨.setRefs _ _, h.install (.refl _) h.cntOk ?_ ?_⟩
  · intro r; simp [refCount, List.countP_append]
  · intro f hf
    rcases List.mem_append.mp hf with hf | hf
    · exact .inl hf
    · right; simp at hf; subst hf; simp

theorem newRefTo_ok {w : World K V Ty} {r o : Nat} {oo : Obj K V Ty} {x : Rec K V} (h : RInv own home w)
    (hlt : ∀ o x, w.getObj o = some x → o < w.nextO)
    (ho : w.getObj o = some oo) (hx : w.getRec r = some x) (hown : own r = if oo.isSet = true then home o else o) :
    ∃ w', newRefTo w r o = some w' ∧ RStep own home w w' ∧ w'.refs = w.refs ++ [⟨some r, some o⟩] := by
  have hn := newRef_ok h
  obtain ⟨w', h1, h2, h3⟩ := setRecord_ok (w := newRef w) (f := w.refs.length) (p := some r) (o := o) (old := ⟨none, none⟩) hn.rinv hlt
    ho (by simp [newRef]) (by rintro r' e; cases e; exact ⟨x, hx⟩) (by rintro r' e; cases e; exact hown)
  refine ⟨w', h1, hn.trans h2, ?_⟩
  rw [h3]; simp [newRef]

/-- Copy assignment. -/
theorem refCopy_ok {w : World K V Ty} {f g : Nat} {old src : Ref} (h : RInv own home w)
    (hf : w.refs[f]? = some old) (hg : w.refs[g]? = some src) :
    ∃ w', refCopy w f g = some w' ∧ RStep own home w w' ∧
      w'.refs = if f = g then w.refs else w.refs.set f (if src.ptr = none then ⟨none, none⟩ else src) := by
  by_cases hfg : f = g
  · subst hfg
    rw [hf] at hg; cases hg
    exact ⟨w, by simp [refCopy, hf], ⟨.refl _, h⟩, by simp⟩
  · obtain ⟨w1, h1, r1, f1, c1⟩ := optRemove (p := old.ptr) h.cntOk (fun r hr => refCount_pos (mem_of_get hf) hr)
    have hc2 : ∀ r, src.ptr = some r → 0 < refCount w r - if old.ptr = some r then 1 else 0 := by
      intro r hr
      have e1 := refCount_set ⟨none, none⟩ hf r
      have : 0 < (w.refs.set f ⟨none, none⟩).countP (fun g => decide (g.ptr = some r)) :=
        List.countP_pos_iff.mpr ⟨src, by
          refine mem_of_get (f := g) ?_
          rw [List.getElem?_set_ne hfg]; exact hg, by simpa using hr⟩
      simp only [refCount]
      simp only [reduceCtorEq, if_false] at e1
      omega
    obtain ⟨w2, h2, r2, f2, c2⟩ := optAdd (p := src.ptr) c1 (fun r hr => c1.live r (hc2 r hr))
    have hrefs : w2.refs = w.refs := r2.trans r1
    have hsrc : (match src.ptr with | some r => (⟨some r, src.vlt⟩ : Ref) | none => ⟨none, none⟩) = if src.ptr = none then ⟨none, none⟩ else src := by
      cases src with | mk p v => cases p <;> simp
    have hptr : (if src.ptr = none then (⟨none, none⟩ : Ref) else src).ptr = src.ptr := by
      cases src with | mk p v => cases p <;> simp
    refine ⟨{ w2 with refs := w2.refs.set f (if src.ptr = none then ⟨none, none⟩ else src) }, ?_, ⟨f1.trans (f2.trans (.setRefs _ _)), ?_⟩, by rw [if_neg hfg, hrefs]⟩
    · simp only [refCopy, hf, hg, h1, h2, if_neg hfg, Option.bind_eq_bind, Option.bind_some]
      rw [← hsrc]; rfl
    · refine h.install (f1.trans f2) c2 ?_ ?_
      · intro r
        have := refCount_set (if src.ptr = none then ⟨none, none⟩ else src) hf r
        rw [hptr] at this
        have h0 := hc2 r
        have hp : old.ptr = some r → 0 < refCount w r := fun hr => refCount_pos (mem_of_get hf) hr
        rw [hrefs]
        simp only [refCount] at h0 hp ⊢
        by_cases h1 : old.ptr = some r
        · have hpp := hp h1
          simp only [h1, if_true] at this ⊢ h0
          by_cases h2 : src.ptr = some r
          · simp only [h2, if_true] at *; omega
          · simp only [h2, if_false] at *; omega
        · by_cases h2 : src.ptr = some r
          · simp only [h2, h1, if_true, if_false] at *; omega
          · simp only [h2, h1, if_false] at *; omega
      · intro x hx
        rw [hrefs] at hx
        rcases List.mem_or_eq_of_mem_set hx with hx | hx
        · exact .inl hx
        · split at hx
          · right; subst hx; simp
          · left; subst hx; exact mem_of_get hg

/-- `Reset`. -/
theorem refReset_ok {w : World K V Ty} {f : Nat} {old : Ref} (h : RInv own home w) (hf : w.refs[f]? = some old) :
    ∃ w', refReset w f = some w' ∧ RStep own home w w' ∧ w'.refs = w.refs.set f ⟨none, none⟩ := by
  obtain ⟨w1, h1, r1, f1, c1⟩ := optRemove (p := old.ptr) h.cntOk (fun r hr => refCount_pos (mem_of_get hf) hr)
  refine ⟨{ w1 with refs := w1.refs.set f ⟨none, none⟩ }, ?_, ⟨f1.trans (.setRefs _ _), ?_⟩, by rw [r1]⟩
  · simp only [refReset, hf, h1, Option.bind_eq_bind, Option.bind_some]
  · refine h.install f1 c1 ?_ ?_
    · intro r
      have := refCount_set ⟨none, none⟩ hf r
      rw [r1]
      simp only [reduceCtorEq, if_false] at this
      simp only [refCount]
      omega
    · intro x hx
      rw [r1] at hx
      rcases List.mem_or_eq_of_mem_set hx with hx | hx
      · exact .inl hx
      · right; subst hx; simp

/-- Move assignment. -/
theorem refMove_ok {w : World K V Ty} {f g : Nat} {old src : Ref} (h : RInv own home w)
    (hf : w.refs[f]? = some old) (hg : w.refs[g]? = some src) :
    ∃ w', refMove w f g = some w' ∧ RStep own home w w' ∧
      w'.refs = if f = g then w.refs else if src.ptr = none then w.refs.set f ⟨none, none⟩ else (w.refs.set f src).set g ⟨none, none⟩ := by
  by_cases hfg : f = g
  · subst hfg
    rw [hf] at hg; cases hg
    exact ⟨w, by simp [refMove, hf], ⟨.refl _, h⟩, by simp⟩
  · obtain ⟨w1, h1, r1, f1, c1⟩ := optRemove (p := old.ptr) h.cntOk (fun r hr => refCount_pos (mem_of_get hf) hr)
    have hp : ∀ r, old.ptr = some r → 0 < refCount w r := fun r hr => refCount_pos (mem_of_get hf) hr
    cases hsp : src.ptr with
    | none =>
      refine ⟨{ w1 with refs := w1.refs.set f ⟨none, none⟩ }, ?_, ⟨f1.trans (.setRefs _ _), ?_⟩, by rw [if_neg hfg, r1]; simp⟩
      · simp only [refMove, hf, hg, h1, hsp, if_neg hfg, Option.bind_eq_bind, Option.bind_some]
      · refine h.install f1 c1 ?_ ?_
        · intro r
          have := refCount_set ⟨none, none⟩ hf r
          rw [r1]
          simp only [reduceCtorEq, if_false] at this
          simp only [refCount]
          omega
        · intro x hx
          rw [r1] at hx
          rcases List.mem_or_eq_of_mem_set hx with hx | hx
          · exact .inl hx
          · right; subst hx; simp
    | some q =>
      have hs : (⟨some q, src.vlt⟩ : Ref) = src := by cases src; simp_all
      refine ⟨{ w1 with refs := (w1.refs.set f src).set g ⟨none, none⟩ }, ?_, ⟨f1.trans (.setRefs _ _), ?_⟩, by rw [if_neg hfg, r1]; simp⟩
      · simp only [refMove, hf, hg, h1, hsp, if_neg hfg, Option.bind_eq_bind, Option.bind_some, hs]
      · refine h.install f1 c1 ?_ ?_
        · intro r
          have e1 := refCount_set src hf r
          have e2 := refCount_set ⟨none, none⟩ (show (w.refs.set f src)[g]? = some src by rw [List.getElem?_set_ne hfg]; exact hg) r
          have h0 := hp r
          rw [r1]
          simp only [reduceCtorEq, if_false] at e2
          simp only [refCount] at *
          omega
        · intro x hx
          rw [r1] at hx
          rcases List.mem_or_eq_of_mem_set hx with hx | hx
          · rcases List.mem_or_eq_of_mem_set hx with hx | hx
            · exact .inl hx
            · left; subst hx; exact mem_of_get hg
          · right; subst hx; simp

end MVault.W
