import Verif.WorldCols
/-
The invariants of the World layer and the relations "only set internals changed".
-/
set_option linter.unusedSectionVars false
set_option linter.unusedSimpArgs false
namespace MVault.W
variable {K V Ty : Type} [LinearOrder K] [LinearOrder V] [Typed V Ty] [DecidableEq Ty]

/-- The value record `r` holds for key `k`, if the record exists and has one. -/
def cellOf (w : World K V Ty) (r : Nat) (k : K) : Option V := (w.getRec r).bind fun x => mget x.data k

/-- Invariant of one vault, `cell` giving the values of the records. -/
structure VOk (cell : Nat → K → Option V) (vo : Obj K V Ty) : Prop where
  cols : ∀ k c, mget vo.cols k = some c → ColOk (fun r => cell r k) vo.recs c
  nocol : ∀ r ∈ vo.recs, ∀ k, mget vo.cols k = none → cell r k = none
  recsN : vo.recs.Nodup
  keysN : vo.keysOrder.Nodup
  keysM : ∀ k, k ∈ vo.keysOrder ↔ ∃ c, mget vo.cols k = some c
  uniqS : vo.uniq.Pairwise (· < ·)
  uniqM : ∀ k, k ∈ vo.uniq ↔ ∃ c, mget vo.cols k = some c ∧ c.multi = false
  tmplN : ∀ k, mget vo.cols k = none → mget vo.tmpl k = none
  tmplT : ∀ k c, mget vo.cols k = some c → ∃ v, mget vo.tmpl k = some v ∧ typeOf v = c.ty
  base : vo.isBase = true
  par : vo.parent = none

/-- Invariant of all vaults; `own` says in which vault each record was created. -/
structure VInv (own : Nat → Nat) (w : World K V Ty) : Prop where
  vok : ∀ o vo, w.getObj o = some vo → vo.isSet = false → VOk (cellOf w) vo
  mem : ∀ o vo, w.getObj o = some vo → vo.isSet = false → ∀ r ∈ vo.recs, own r = o ∧ ∃ x, w.getRec r = some x ∧ x.valid = true
  val : ∀ r x, w.getRec r = some x → x.valid = true → ∃ vo, w.getObj (own r) = some vo ∧ vo.isSet = false ∧ r ∈ vo.recs
  ltR : ∀ r x, w.getRec r = some x → r < w.nextR
  ltO : ∀ o x, w.getObj o = some x → o < w.nextO

/-- Number of reference variables pointing at record `r`. -/
def refCount (w : World K V Ty) (r : Nat) : Nat := w.refs.countP (fun f => decide (f.ptr = some r))

/-- Invariant of the references; `home s` is the vault set `s` is used with. -/
structure RInv (own home : Nat → Nat) (w : World K V Ty) : Prop where
  cnt : ∀ r x, w.getRec r = some x → x.refs = refCount w r
  inv : ∀ r x, w.getRec r = some x → x.valid = false → 0 < x.refs
  live : ∀ f ∈ w.refs, ∀ r, f.ptr = some r → ∃ x, w.getRec r = some x
  own : ∀ f ∈ w.refs, ∀ r o oo, f.ptr = some r → f.vlt = some o → w.getObj o = some oo → own r = if oo.isSet = true then home o else o
  vlt : ∀ f ∈ w.refs, ∀ r, f.ptr = some r → ∃ o, f.vlt = some o ∧ o < w.nextO

/-- Invariant of one key of a set: the entries are about records created in vault `h`; the ordered index is sorted. -/
structure ColS (own : Nat → Nat) (h n : Nat) (c : Col V Ty) : Prop where
  hash : ∀ e ∈ c.hash, own e.2 = h ∧ e.2 < n
  ord : ∀ e ∈ c.ord, own e.2 = h ∧ e.2 < n
  sorted : c.ord.Pairwise (fun a b => a.1 ≤ b.1)

/-- Invariant of one set. -/
structure SetOk (own home : Nat → Nat) (n : Nat) (s : Nat) (so : Obj K V Ty) : Prop where
  base : so.isBase = false
  sets : so.sets = []
  par : ∀ p, so.parent = some p → p = home s
  det : so.parent = none → so.recs = []
  recs : ∀ r ∈ so.recs, own r = home s ∧ r < n
  cols : ∀ k c, mget so.cols k = some c → ColS own (home s) n c

/-- Invariant of all sets and of the dependent sets of the records. -/
structure SObj (own home : Nat → Nat) (w : World K V Ty) : Prop where
  sets : ∀ s so, w.getObj s = some so → so.isSet = true → SetOk own home w.nextR s so
  deps : ∀ r x s, w.getRec r = some x → s ∈ x.deps → (x.valid = true → own r = home s) ∧ s < w.nextO
  ltO : ∀ o x, w.getObj o = some x → o < w.nextO
  ltR : ∀ r x, w.getRec r = some x → r < w.nextR
  vb : ∀ o x, w.getObj o = some x → x.isSet = false → x.isBase = true

/-- The part of an object that links sets and vaults. -/
def Lk (w : World K V Ty) (o : Nat) : Option (Bool × Option Nat × List Nat) := (w.getObj o).map fun x => (x.isSet, x.parent, x.sets)

/-- Sets and vaults know each other. -/
structure Link (w : World K V Ty) : Prop where
  up : ∀ s so p, w.getObj s = some so → so.isSet = true → so.parent = some p →
    ∃ po, w.getObj p = some po ∧ po.isSet = false ∧ s ∈ po.sets
  down : ∀ p po s, w.getObj p = some po → po.isSet = false → s ∈ po.sets →
    ∃ so, w.getObj s = some so ∧ so.isSet = true ∧ so.parent = some p

/-- The invariant. -/
structure Inv (own home : Nat → Nat) (w : World K V Ty) : Prop where
  v : VInv own w
  r : RInv own home w
  s : SObj own home w
  l : Link w

/-! ### Only set internals changed -/

/-- Same record up to the dependent sets (and the data of invalid records). -/
def RecSame : Option (Rec K V) → Option (Rec K V) → Prop
  | none, none => True
  | some x, some y => y.valid = x.valid ∧ y.refs = x.refs ∧ (x.valid = true → y.data = x.data)
  | _, _ => False

/-- Same vault up to the list of its sets; nothing is said about sets. -/
def ObjSame : Option (Obj K V Ty) → Option (Obj K V Ty) → Prop
  | none, none => True
  | some a, some b => b.isSet = a.isSet ∧ (a.isSet = false → b = { a with sets := b.sets })
  | _, _ => False

theorem RecSame.refl (a : Option (Rec K V)) : RecSame a a := by cases a <;> simp [RecSame]
theorem ObjSame.refl (a : Option (Obj K V Ty)) : ObjSame a a := by cases a <;> simp [ObjSame]

theorem RecSame.trans {a b c : Option (Rec K V)} (h1 : RecSame a b) (h2 : RecSame b c) : RecSame a c := by
  cases a <;> cases b <;> cases c <;> simp_all [RecSame]

theorem ObjSame.trans {a b c : Option (Obj K V Ty)} (h1 : ObjSame a b) (h2 : ObjSame b c) : ObjSame a c := by
  cases a with
  | none => cases b with
    | none => exact h2
    | some b => exact h1.elim
  | some a => cases b with
    | none => exact h1.elim
    | some b => cases c with
      | none => exact h2.elim
      | some c =>
        obtain ⟨e1, f1⟩ := h1
        obtain ⟨e2, f2⟩ := h2
        refine ⟨e2.trans e1, fun h => ?_⟩
        have g1 := f1 h
        have g2 := f2 (e1.trans h)
        rw [g2, g1]

/-- Everything a user can see of vaults and records is the same. -/
structure SF (w w' : World K V Ty) : Prop where
  recs : ∀ r, RecSame (w.getRec r) (w'.getRec r)
  objs : ∀ o, ObjSame (w.getObj o) (w'.getObj o)
  refs : w'.refs = w.refs
  nextR : w'.nextR = w.nextR
  nextO : w'.nextO = w.nextO

theorem SF.refl (w : World K V Ty) : SF w w := ⟨fun _ => .refl _, fun _ => .refl _, rfl, rfl, rfl⟩

theorem SF.trans {a b c : World K V Ty} (h1 : SF a b) (h2 : SF b c) : SF a c :=
  ⟨fun r => (h1.recs r).trans (h2.recs r), fun o => (h1.objs o).trans (h2.objs o), h2.refs.trans h1.refs,
    h2.nextR.trans h1.nextR, h2.nextO.trans h1.nextO⟩

theorem SF.recOf {w w' : World K V Ty} (h : SF w w') {r : Nat} {y : Rec K V} (hy : w'.getRec r = some y) :
    ∃ x, w.getRec r = some x ∧ y.valid = x.valid ∧ y.refs = x.refs ∧ (x.valid = true → y.data = x.data) := by
  have := h.recs r; rw [hy] at this
  cases hx : w.getRec r with
  | none => rw [hx] at this; simp [RecSame] at this
  | some x => rw [hx] at this; exact ⟨x, rfl, this⟩

theorem SF.recTo {w w' : World K V Ty} (h : SF w w') {r : Nat} {x : Rec K V} (hx : w.getRec r = some x) :
    ∃ y, w'.getRec r = some y ∧ y.valid = x.valid ∧ y.refs = x.refs ∧ (x.valid = true → y.data = x.data) := by
  have := h.recs r; rw [hx] at this
  cases hy : w'.getRec r with
  | none => rw [hy] at this; simp [RecSame] at this
  | some y => rw [hy] at this; exact ⟨y, rfl, this⟩

theorem SF.objOf {w w' : World K V Ty} (h : SF w w') {o : Nat} {b : Obj K V Ty} (hb : w'.getObj o = some b) :
    ∃ a, w.getObj o = some a ∧ b.isSet = a.isSet ∧ (a.isSet = false → b = { a with sets := b.sets }) := by
  have := h.objs o; rw [hb] at this
  cases ha : w.getObj o with
  | none => rw [ha] at this; simp [ObjSame] at this
  | some a => rw [ha] at this; exact ⟨a, rfl, this⟩

theorem SF.objTo {w w' : World K V Ty} (h : SF w w') {o : Nat} {a : Obj K V Ty} (ha : w.getObj o = some a) :
    ∃ b, w'.getObj o = some b ∧ b.isSet = a.isSet ∧ (a.isSet = false → b = { a with sets := b.sets }) := by
  have := h.objs o; rw [ha] at this
  cases hb : w'.getObj o with
  | none => rw [hb] at this; simp [ObjSame] at this
  | some b => rw [hb] at this; exact ⟨b, rfl, this⟩

theorem SF.cell {w w' : World K V Ty} (h : SF w w') {r : Nat} {x : Rec K V} (hx : w.getRec r = some x) (hv : x.valid = true) (k : K) :
    cellOf w' r k = cellOf w r k := by
  obtain ⟨y, hy, _, _, hd⟩ := h.recTo hx
  simp [cellOf, hx, hy, hd hv]

/-- `VOk` does not look at `sets`. -/
theorem VOk.sets {cell : Nat → K → Option V} {vo : Obj K V Ty} (h : VOk cell vo) (l : List Nat) : VOk cell { vo with sets := l } :=
  ⟨h.cols, h.nocol, h.recsN, h.keysN, h.keysM, h.uniqS, h.uniqM, h.tmplN, h.tmplT, h.base, h.par⟩

/-- `VOk` only looks at the values of the vault's records. -/
theorem VOk.congr {cell cell' : Nat → K → Option V} {vo : Obj K V Ty} (h : VOk cell vo)
    (hc : ∀ r ∈ vo.recs, ∀ k, cell' r k = cell r k) : VOk cell' vo :=
  { h with
    cols := fun k c hk => (h.cols k c hk).congr (fun _ => Iff.rfl) (fun r hr => hc r hr k)
    nocol := fun r hr k hk => by rw [hc r hr]; exact h.nocol r hr k hk }

theorem SF.vinv {w w' : World K V Ty} {own : Nat → Nat} (h : SF w w') (hv : VInv own w) : VInv own w' where
  vok o b hb hs := by
    obtain ⟨a, ha, e1, e2⟩ := h.objOf hb
    rw [e1] at hs
    rw [e2 hs]
    refine ((hv.vok o a ha hs).congr ?_).sets _
    intro r hr k
    obtain ⟨_, x, hx, hxv⟩ := hv.mem o a ha hs r hr
    exact h.cell hx hxv k
  mem o b hb hs r hr := by
    obtain ⟨a, ha, e1, e2⟩ := h.objOf hb
    rw [e1] at hs
    rw [e2 hs] at hr
    obtain ⟨a1, x, hx, hxv⟩ := hv.mem o a ha hs r hr
    obtain ⟨y, hy, e, _⟩ := h.recTo hx
    exact ⟨a1, y, hy, by rw [e]; exact hxv⟩
  val r y hy hyv := by
    obtain ⟨x, hx, e, _⟩ := h.recOf hy
    obtain ⟨vo, h1, h2, h3⟩ := hv.val r x hx (by rw [← e]; exact hyv)
    obtain ⟨b, hb, e1, e2⟩ := h.objTo h1
    exact ⟨b, hb, by rw [e1]; exact h2, by rw [e2 h2]; exact h3⟩
  ltR r y hy := by
    obtain ⟨x, hx, _⟩ := h.recOf hy
    rw [h.nextR]; exact hv.ltR r x hx
  ltO o b hb := by
    obtain ⟨a, ha, _⟩ := h.objOf hb
    rw [h.nextO]; exact hv.ltO o a ha

theorem SF.rinv {w w' : World K V Ty} {own home : Nat → Nat} (h : SF w w') (hv : RInv own home w) : RInv own home w' where
  cnt r y hy := by
    obtain ⟨x, hx, _, e, _⟩ := h.recOf hy
    rw [e, hv.cnt r x hx]; unfold refCount; rw [h.refs]
  inv r y hy hyv := by
    obtain ⟨x, hx, e1, e, _⟩ := h.recOf hy
    rw [e]; exact hv.inv r x hx (by rw [← e1]; exact hyv)
  live f hf r hr := by
    rw [h.refs] at hf
    obtain ⟨x, hx⟩ := hv.live f hf r hr
    obtain ⟨y, hy, _⟩ := h.recTo hx
    exact ⟨y, hy⟩
  own f hf r o b hr ho hb := by
    rw [h.refs] at hf
    obtain ⟨a, ha, e1, _⟩ := h.objOf hb
    rw [e1]; exact hv.own f hf r o a hr ho ha
  vlt f hf r hr := by
    rw [h.refs] at hf; rw [h.nextO]; exact hv.vlt f hf r hr

/-! ### Set-internal steps -/

/-- Set-internal step that keeps the links and the set invariant. -/
structure SQ (own home : Nat → Nat) (w w' : World K V Ty) : Prop where
  sf : SF w w'
  lk : ∀ o, Lk w' o = Lk w o
  so : SObj own home w → SObj own home w'

theorem SQ.refl (own home : Nat → Nat) (w : World K V Ty) : SQ own home w w := ⟨.refl _, fun _ => rfl, fun h => h⟩
theorem SQ.trans {own home : Nat → Nat} {a b c : World K V Ty} (h1 : SQ own home a b) (h2 : SQ own home b c) : SQ own home a c :=
  ⟨h1.sf.trans h2.sf, fun o => (h2.lk o).trans (h1.lk o), fun h => h2.so (h1.so h)⟩

theorem lk_some {w : World K V Ty} {o : Nat} {x : Obj K V Ty} (h : w.getObj o = some x) : Lk w o = some (x.isSet, x.parent, x.sets) := by
  simp [Lk, h]

theorem lk_of {w w' : World K V Ty} {o : Nat} {y : Obj K V Ty} (h : Lk w' o = Lk w o) (hy : w'.getObj o = some y) :
    ∃ x, w.getObj o = some x ∧ y.isSet = x.isSet ∧ y.parent = x.parent ∧ y.sets = x.sets := by
  rw [lk_some hy] at h
  unfold Lk at h
  cases hx : w.getObj o with
  | none => rw [hx] at h; simp at h
  | some x => rw [hx] at h; simp at h; exact ⟨x, rfl, h.1, h.2.1, h.2.2⟩

theorem lk_to {w w' : World K V Ty} {o : Nat} {x : Obj K V Ty} (h : Lk w' o = Lk w o) (hx : w.getObj o = some x) :
    ∃ y, w'.getObj o = some y ∧ y.isSet = x.isSet ∧ y.parent = x.parent ∧ y.sets = x.sets := by
  obtain ⟨y, h1, h2, h3, h4⟩ := lk_of h.symm hx
  exact ⟨y, h1, h2.symm, h3.symm, h4.symm⟩

theorem Link.congr {w w' : World K V Ty} (h : Link w) (hl : ∀ o, Lk w' o = Lk w o) : Link w' where
  up s so p h1 h2 h3 := by
    obtain ⟨x, hx, e1, e2, e3⟩ := lk_of (hl s) h1
    obtain ⟨po, a, b, c⟩ := h.up s x p hx (by rw [← e1]; exact h2) (by rw [← e2]; exact h3)
    obtain ⟨y, hy, f1, f2, f3⟩ := lk_to (hl p) a
    exact ⟨y, hy, by rw [f1]; exact b, by rw [f3]; exact c⟩
  down p po s h1 h2 h3 := by
    obtain ⟨x, hx, e1, e2, e3⟩ := lk_of (hl p) h1
    obtain ⟨so, a, b, c⟩ := h.down p x s hx (by rw [← e1]; exact h2) (by rw [← e3]; exact h3)
    obtain ⟨y, hy, f1, f2, f3⟩ := lk_to (hl s) a
    exact ⟨y, hy, by rw [f1]; exact b, by rw [f2]; exact c⟩

/-- Replacing a set. -/
theorem SF.putSet {w : World K V Ty} {s : Nat} {so so' : Obj K V Ty} (h : w.getObj s = some so) (h1 : so.isSet = true)
    (h2 : so'.isSet = true) : SF w (w.putObj s so') where
  recs r := .refl _
  objs o := by
    simp only [getObj_putObj]
    split
    · rename_i e; subst e; rw [h]; simp [ObjSame, h1, h2]
    · exact .refl _
  refs := rfl
  nextR := rfl
  nextO := rfl

/-- Replacing the list of sets. -/
theorem SF.putSets {w : World K V Ty} {o : Nat} {vo : Obj K V Ty} (h : w.getObj o = some vo) (l : List Nat) :
    SF w (w.putObj o { vo with sets := l }) where
  recs r := .refl _
  objs o' := by
    simp only [getObj_putObj]
    split
    · rename_i e; subst e; rw [h]; simp [ObjSame]
    · exact .refl _
  refs := rfl
  nextR := rfl
  nextO := rfl

/-- Replacing a record by one that differs only in the dependent sets. -/
theorem SF.putRec {w : World K V Ty} {r : Nat} {x y : Rec K V} (h : w.getRec r = some x) (h1 : y.valid = x.valid)
    (h2 : y.refs = x.refs) (h3 : x.valid = true → y.data = x.data) : SF w (w.putRec r y) where
  recs r' := by
    simp only [getRec_putRec]
    split
    · rename_i e; subst e; rw [h]; exact ⟨h1, h2, h3⟩
    · exact .refl _
  objs o := .refl _
  refs := rfl
  nextR := rfl
  nextO := rfl

theorem SQ.putSet {own home : Nat → Nat} {w : World K V Ty} {s : Nat} {so so' : Obj K V Ty} (h : w.getObj s = some so)
    (h1 : so.isSet = true) (h2 : so'.isSet = true) (h3 : so'.parent = so.parent) (h4 : so'.sets = so.sets)
    (h5 : SObj own home w → SetOk own home w.nextR s so') : SQ own home w (w.putObj s so') where
  sf := .putSet h h1 h2
  lk o := by
    unfold Lk; simp only [getObj_putObj]
    split
    · rename_i e; subst e; simp [h, h1, h2, h3, h4]
    · rfl
  so hs :=
    { sets := by
        intro s' x hx hi
        simp only [getObj_putObj] at hx
        split at hx
        · rename_i e; subst e; cases hx; exact h5 hs
        · exact hs.sets s' x hx hi
      deps := hs.deps
      ltO := by
        intro o x hx
        simp only [getObj_putObj] at hx
        split at hx
        · rename_i e; subst e; exact hs.ltO _ _ h
        · exact hs.ltO _ _ hx
      ltR := hs.ltR
      vb := by
        intro o x hx hi
        simp only [getObj_putObj] at hx
        split at hx
        · rename_i e; subst e; cases hx; rw [h2] at hi; cases hi
        · exact hs.vb _ _ hx hi }

theorem SQ.putRec {own home : Nat → Nat} {w : World K V Ty} {r : Nat} {x y : Rec K V} (h : w.getRec r = some x)
    (h1 : y.valid = x.valid) (h2 : y.refs = x.refs) (h3 : x.valid = true → y.data = x.data)
    (h4 : SObj own home w → ∀ s ∈ y.deps, (x.valid = true → own r = home s) ∧ s < w.nextO) : SQ own home w (w.putRec r y) where
  sf := .putRec h h1 h2 h3
  lk _ := rfl
  so hs :=
    { sets := hs.sets
      deps := by
        intro r' x' s' hx' hm
        simp only [getRec_putRec] at hx'
        split at hx'
        · rename_i e; subst e; cases hx'; exact ⟨fun hv => (h4 hs s' hm).1 (h1 ▸ hv), (h4 hs s' hm).2⟩
        · exact hs.deps r' x' s' hx' hm
      ltO := hs.ltO
      ltR := by
        intro r' x' hx'
        simp only [getRec_putRec] at hx'
        split at hx'
        · rename_i e; subst e; exact hs.ltR _ _ h
        · exact hs.ltR _ _ hx'
      vb := hs.vb }

/-- The set part of the invariant. -/
structure SI (own home : Nat → Nat) (w : World K V Ty) : Prop where
  s : SObj own home w
  l : Link w

theorem SQ.si {own home : Nat → Nat} {w w' : World K V Ty} (h : SQ own home w w') (hs : SI own home w) : SI own home w' :=
  ⟨h.so hs.s, hs.l.congr h.lk⟩

/-- What is left to show for a set-internal operation. -/
structure SP (own home : Nat → Nat) (w w' : World K V Ty) : Prop where
  sf : SF w w'
  si : SI own home w'

theorem SQ.sp {own home : Nat → Nat} {w w' : World K V Ty} (h : SQ own home w w') (hs : SI own home w) : SP own home w w' :=
  ⟨h.sf, h.si hs⟩

theorem SP.trans {own home : Nat → Nat} {a b c : World K V Ty} (h1 : SP own home a b) (h2 : SP own home b c) : SP own home a c :=
  ⟨h1.sf.trans h2.sf, h2.si⟩

end MVault.W
