import Verif.WorldRefs
/-
Frame lemmas for operations on vaults.
-/
set_option linter.unusedSectionVars false
set_option linter.unusedSimpArgs false
namespace MVault.W
variable {K V Ty : Type} [LinearOrder K] [LinearOrder V] [Typed V Ty] [DecidableEq Ty]
variable {own home : Nat → Nat}

/-- The invariant without the contents of the vaults. -/
structure QI (own home : Nat → Nat) (w : World K V Ty) : Prop where
  r : RInv own home w
  s : SObj own home w
  l : Link w

theorem Inv.q {w : World K V Ty} (h : Inv own home w) : QI own home w := ⟨h.r, h.s, h.l⟩
theorem QI.si {w : World K V Ty} (h : QI own home w) : SI own home w := ⟨h.s, h.l⟩

theorem SQ.qi {w w' : World K V Ty} (h : SQ own home w w') (q : QI own home w) : QI own home w' :=
  ⟨h.sf.rinv q.r, h.so q.s, (h.si q.si).l⟩
theorem SP.qi {w w' : World K V Ty} (h : SP own home w w') (q : QI own home w) : QI own home w' :=
  ⟨h.sf.rinv q.r, h.si.s, h.si.l⟩

/-- Set-internal operations keep the invariant. -/
theorem SP.inv {w w' : World K V Ty} (h : SP own home w w') (q : Inv own home w) : Inv own home w' :=
  ⟨h.sf.vinv q.v, h.sf.rinv q.r, h.si.s, h.si.l⟩
theorem SQ.inv {w w' : World K V Ty} (h : SQ own home w w') (q : Inv own home w) : Inv own home w' :=
  (h.sp ⟨q.s, q.l⟩).inv q

theorem QI.putVault {w : World K V Ty} {o : Nat} {vo vo' : Obj K V Ty} (q : QI own home w) (ho : w.getObj o = some vo)
    (hs : vo.isSet = false) (h1 : vo'.isSet = false) (h2 : vo'.isBase = true) (h3 : vo'.parent = vo.parent) (h4 : vo'.sets = vo.sets) :
    QI own home (w.putObj o vo') := by
  refine ⟨⟨q.r.cnt, q.r.inv, q.r.live, ?_, q.r.vlt⟩, q.s.putVault ho h1 h2, ?_⟩
  · intro f hf r o' oo hr ho' hoo
    simp only [getObj_putObj] at hoo
    split at hoo
    · rename_i e; subst e; cases hoo
      rw [q.r.own f hf r o vo hr ho' ho, h1, hs]
    · exact q.r.own f hf r o' oo hr ho' hoo
  · refine q.l.congr ?_
    intro o'
    unfold Lk; simp only [getObj_putObj]
    split
    · rename_i e; subst e; simp [ho, hs, h1, h3, h4]
    · rfl

theorem QI.putData {w : World K V Ty} {r : Nat} {x y : Rec K V} (q : QI own home w) (hx : w.getRec r = some x)
    (h1 : y.valid = x.valid) (h2 : y.refs = x.refs) (h3 : y.deps = x.deps) : QI own home (w.putRec r y) := by
  refine ⟨⟨?_, ?_, ?_, q.r.own, q.r.vlt⟩, ⟨q.s.sets, ?_, q.s.ltO, ?_, q.s.vb⟩, q.l.congr fun _ => rfl⟩
  · intro r' z hz
    simp only [getRec_putRec] at hz
    split at hz
    · rename_i e; subst e; cases hz; rw [h2]; exact q.r.cnt r x hx
    · exact q.r.cnt _ _ hz
  · intro r' z hz hv
    simp only [getRec_putRec] at hz
    split at hz
    · cases hz; rw [h2]; exact q.r.inv r x hx (by rw [← h1]; exact hv)
    · exact q.r.inv _ _ hz hv
  · intro f hf r' hr
    simp only [getRec_putRec]
    split
    · exact ⟨_, rfl⟩
    · exact q.r.live f hf r' hr
  · intro r' z s hz hm
    simp only [getRec_putRec] at hz
    split at hz
    · rename_i e; subst e; cases hz; rw [h3] at hm; exact ⟨fun hv => (q.s.deps r x s hx hm).1 (h1 ▸ hv), (q.s.deps r x s hx hm).2⟩
    · exact q.s.deps _ _ _ hz hm
  · intro r' z hz
    simp only [getRec_putRec] at hz
    split at hz
    · rename_i e; subst e; exact q.s.ltR _ _ hx
    · exact q.s.ltR _ _ hz

/-- `Invalidate` is defined, keeps the rest and drops the record when nothing refers to it. -/
theorem QI.invalidate {w : World K V Ty} {r : Nat} {x : Rec K V} (q : QI own home w) (hx : w.getRec r = some x) :
    ∃ w', invalidate w r = some w' ∧ QI own home w' ∧ w'.objs = w.objs ∧ w'.refs = w.refs ∧ w'.nextR = w.nextR ∧ w'.nextO = w.nextO ∧
      (∀ r', r' ≠ r → w'.getRec r' = w.getRec r') ∧
      (w'.getRec r = if refCount w r = 0 then none else some { x with valid := false }) := by
  have hc := q.r.cnt r x hx
  by_cases h0 : x.refs = 0
  · refine ⟨w.freeRec r, by simp [W.invalidate, hx, h0], ⟨⟨?_, ?_, ?_, q.r.own, q.r.vlt⟩, ⟨q.s.sets, ?_, q.s.ltO, ?_, q.s.vb⟩, q.l.congr fun _ => rfl⟩,
      rfl, rfl, rfl, rfl, ?_, ?_⟩
    · intro r' z hz
      simp only [getRec_freeRec] at hz
      split at hz
      · cases hz
      · exact q.r.cnt _ _ hz
    · intro r' z hz hv
      simp only [getRec_freeRec] at hz
      split at hz
      · cases hz
      · exact q.r.inv _ _ hz hv
    · intro f hf r' hr
      simp only [getRec_freeRec]
      split
      · rename_i e; subst e
        have : 0 < refCount w r := refCount_pos (w := w) hf hr
        omega
      · exact q.r.live f hf r' hr
    · intro r' z s hz hm
      simp only [getRec_freeRec] at hz
      split at hz
      · cases hz
      · exact q.s.deps _ _ _ hz hm
    · intro r' z hz
      simp only [getRec_freeRec] at hz
      split at hz
      · cases hz
      · exact q.s.ltR _ _ hz
    · intro r' hne; simp only [getRec_freeRec, if_neg (Ne.symm hne)]
    · simp only [getRec_freeRec, if_true]; rw [if_pos (by omega)]
  · refine ⟨w.putRec r { x with valid := false }, by simp [W.invalidate, hx, h0], ⟨⟨?_, ?_, ?_, q.r.own, q.r.vlt⟩, ⟨q.s.sets, ?_, q.s.ltO, ?_, q.s.vb⟩, q.l.congr fun _ => rfl⟩,
      rfl, rfl, rfl, rfl, ?_, ?_⟩
    · intro r' z hz
      simp only [getRec_putRec] at hz
      split at hz
      · rename_i e; subst e; cases hz; exact hc
      · exact q.r.cnt _ _ hz
    · intro r' z hz hv
      simp only [getRec_putRec] at hz
      split at hz
      · cases hz; simp; omega
      · exact q.r.inv _ _ hz hv
    · intro f hf r' hr
      simp only [getRec_putRec]
      split
      · exact ⟨_, rfl⟩
      · exact q.r.live f hf r' hr
    · intro r' z s hz hm
      simp only [getRec_putRec] at hz
      split at hz
      · rename_i e; subst e; cases hz; exact ⟨fun hv => (by cases hv), (q.s.deps r x s hx hm).2⟩
      · exact q.s.deps _ _ _ hz hm
    · intro r' z hz
      simp only [getRec_putRec] at hz
      split at hz
      · rename_i e; subst e; exact q.s.ltR _ _ hx
      · exact q.s.ltR _ _ hz
    · intro r' hne; simp only [getRec_putRec, if_neg (Ne.symm hne)]
    · simp only [getRec_putRec, if_true]; rw [if_neg (by omega)]

theorem SetOk.mono {n n' s : Nat} {so : Obj K V Ty} (h : SetOk own home n s so) (hn : n ≤ n') : SetOk own home n' s so where
  base := h.base
  sets := h.sets
  par := h.par
  det := h.det
  recs r hr := ⟨(h.recs r hr).1, by have := (h.recs r hr).2; omega⟩
  cols k c hc := by
    have := h.cols k c hc
    exact ⟨fun e he => ⟨(this.hash e he).1, by have := (this.hash e he).2; omega⟩,
      fun e he => ⟨(this.ord e he).1, by have := (this.ord e he).2; omega⟩, this.sorted⟩

/-- A fresh record. -/
theorem QI.newRec {w : World K V Ty} (q : QI own home w) (data : List (K × V)) :
    QI own home ({ w with recs := mput w.recs w.nextR ⟨data, true, 0, []⟩, nextR := w.nextR + 1 } : World K V Ty) := by
  have hfresh : refCount w w.nextR = 0 := by
    by_contra h
    unfold refCount at h
    obtain ⟨f, hf, hp⟩ := List.countP_pos_iff.mp (Nat.pos_of_ne_zero h)
    obtain ⟨x, hx⟩ := q.r.live f hf w.nextR (by simpa using hp)
    have := q.s.ltR _ _ hx
    omega
  refine ⟨⟨?_, ?_, ?_, q.r.own, q.r.vlt⟩, ⟨?_, ?_, q.s.ltO, ?_, q.s.vb⟩, q.l.congr fun _ => rfl⟩
  · intro r' z hz
    rw [getRec_new] at hz
    split at hz
    · rename_i e; subst e; cases hz; exact hfresh.symm
    · exact q.r.cnt _ _ hz
  · intro r' z hz hv
    rw [getRec_new] at hz
    split at hz
    · cases hz; cases hv
    · exact q.r.inv _ _ hz hv
  · intro f hf r' hr
    rw [getRec_new]
    split
    · exact ⟨_, rfl⟩
    · exact q.r.live f hf r' hr
  · intro s so hs hi
    exact (q.s.sets s so hs hi).mono (by simp)
  · intro r' z s hz hm
    rw [getRec_new] at hz
    split at hz
    · cases hz; simp at hm
    · exact q.s.deps _ _ _ hz hm
  · intro r' z hz
    rw [getRec_new] at hz
    split at hz
    · rename_i e; subst e; simp
    · have := q.s.ltR _ _ hz
      show r' < w.nextR + 1
      omega

/-- `own` matters for existing records only. -/
theorem Inv.own_congr {own' : Nat → Nat} {w : World K V Ty} (h : Inv own home w) (he : ∀ r, r < w.nextR → own' r = own r) :
    Inv own' home w := by
  have hr : ∀ r x, w.getRec r = some x → own' r = own r := fun r x hx => he r (h.v.ltR r x hx)
  refine ⟨⟨h.v.vok, ?_, ?_, h.v.ltR, h.v.ltO⟩, ⟨h.r.cnt, h.r.inv, h.r.live, ?_, h.r.vlt⟩, ⟨?_, ?_, h.s.ltO, h.s.ltR, h.s.vb⟩, h.l⟩
  · intro o vo ho hs r hm
    obtain ⟨a, x, hx, hv⟩ := h.v.mem o vo ho hs r hm
    exact ⟨by rw [hr r x hx]; exact a, x, hx, hv⟩
  · intro r x hx hv
    rw [hr r x hx]; exact h.v.val r x hx hv
  · intro f hf r o oo hp ho hoo
    obtain ⟨x, hx⟩ := h.r.live f hf r hp
    rw [hr r x hx]; exact h.r.own f hf r o oo hp ho hoo
  · intro s so hs hi
    have ok := h.s.sets s so hs hi
    refine ⟨ok.base, ok.sets, ok.par, ok.det, ?_, ?_⟩
    · intro r hm
      have := ok.recs r hm
      exact ⟨by rw [he r this.2]; exact this.1, this.2⟩
    · intro k c hc
      have hcs := ok.cols k c hc
      exact ⟨fun e hm => ⟨by rw [he _ (hcs.hash e hm).2]; exact (hcs.hash e hm).1, (hcs.hash e hm).2⟩,
        fun e hm => ⟨by rw [he _ (hcs.ord e hm).2]; exact (hcs.ord e hm).1, (hcs.ord e hm).2⟩, hcs.sorted⟩
  · intro r x s hx hm
    rw [hr r x hx]; exact h.s.deps r x s hx hm

/-- Nothing outside vault `o` (and the internals of sets) changed. -/
structure Out (own : Nat → Nat) (o : Nat) (w w' : World K V Ty) : Prop where
  objs : ∀ o', o' ≠ o → ObjSame (w.getObj o') (w'.getObj o')
  recs : ∀ r, own r ≠ o → RecSame (w.getRec r) (w'.getRec r)

theorem Out.refl (o : Nat) (w : World K V Ty) : Out own o w w := ⟨fun _ _ => .refl _, fun _ _ => .refl _⟩
theorem Out.trans {o : Nat} {a b c : World K V Ty} (h1 : Out own o a b) (h2 : Out own o b c) : Out own o a c :=
  ⟨fun o' h => (h1.objs o' h).trans (h2.objs o' h), fun r h => (h1.recs r h).trans (h2.recs r h)⟩
theorem SF.out {w w' : World K V Ty} (h : SF w w') (o : Nat) : Out own o w w' := ⟨fun o' _ => h.objs o', fun r _ => h.recs r⟩
theorem Out.putObj (o : Nat) (w : World K V Ty) (x : Obj K V Ty) : Out own o w (w.putObj o x) :=
  ⟨fun o' h => by simp only [getObj_putObj, if_neg (Ne.symm h)]; exact .refl _, fun _ _ => .refl _⟩
theorem Out.putRec {o r : Nat} {w : World K V Ty} (x : Rec K V) (h : own r = o) : Out own o w (w.putRec r x) :=
  ⟨fun _ _ => .refl _, fun r' hr => by
    simp only [getRec_putRec]
    split
    · rename_i e; subst e; exact absurd h hr
    · exact .refl _⟩

theorem ObjSame.to {a b : Option (Obj K V Ty)} {x : Obj K V Ty} (h : ObjSame a b) (ha : a = some x) :
    ∃ y, b = some y ∧ y.isSet = x.isSet ∧ (x.isSet = false → y = { x with sets := y.sets }) := by
  subst ha
  cases b with
  | none => simp [ObjSame] at h
  | some y => exact ⟨y, rfl, h⟩

theorem ObjSame.of {a b : Option (Obj K V Ty)} {y : Obj K V Ty} (h : ObjSame a b) (hb : b = some y) :
    ∃ x, a = some x ∧ y.isSet = x.isSet ∧ (x.isSet = false → y = { x with sets := y.sets }) := by
  subst hb
  cases a with
  | none => simp [ObjSame] at h
  | some x => exact ⟨x, rfl, h⟩

theorem RecSame.to {a b : Option (Rec K V)} {x : Rec K V} (h : RecSame a b) (ha : a = some x) :
    ∃ y, b = some y ∧ y.valid = x.valid ∧ y.refs = x.refs ∧ (x.valid = true → y.data = x.data) := by
  subst ha
  cases b with
  | none => simp [RecSame] at h
  | some y => exact ⟨y, rfl, h⟩

theorem RecSame.of {a b : Option (Rec K V)} {y : Rec K V} (h : RecSame a b) (hb : b = some y) :
    ∃ x, a = some x ∧ y.valid = x.valid ∧ y.refs = x.refs ∧ (x.valid = true → y.data = x.data) := by
  subst hb
  cases a with
  | none => simp [RecSame] at h
  | some x => exact ⟨x, rfl, h⟩

/-- One vault changed. -/
theorem VInv.build {o : Nat} {w w' : World K V Ty} {vo' : Obj K V Ty} (hi : VInv own w) (fr : Out own o w w') (q : QI own home w')
    (ho : w'.getObj o = some vo') (hs : vo'.isSet = false) (vok : VOk (cellOf w') vo')
    (mem : ∀ r ∈ vo'.recs, own r = o ∧ ∃ x, w'.getRec r = some x ∧ x.valid = true)
    (val : ∀ r x, w'.getRec r = some x → x.valid = true → own r = o → r ∈ vo'.recs) : VInv own w' where
  vok o' b hb hbs := by
    by_cases he : o' = o
    · subst he; rw [ho] at hb; cases hb; exact vok
    · obtain ⟨a, ha, e1, e2⟩ := (fr.objs o' he).of hb
      rw [e1] at hbs
      rw [e2 hbs]
      refine ((hi.vok o' a ha hbs).congr ?_).sets _
      intro r hr k
      obtain ⟨ho', x, hx, hxv⟩ := hi.mem o' a ha hbs r hr
      obtain ⟨y, hy, _, _, hd⟩ := (fr.recs r (by rw [ho']; exact he)).to hx
      simp [cellOf, hx, hy, hd hxv]
  mem o' b hb hbs r hr := by
    by_cases he : o' = o
    · subst he; rw [ho] at hb; cases hb; exact mem r hr
    · obtain ⟨a, ha, e1, e2⟩ := (fr.objs o' he).of hb
      rw [e1] at hbs
      rw [e2 hbs] at hr
      obtain ⟨ho', x, hx, hxv⟩ := hi.mem o' a ha hbs r hr
      obtain ⟨y, hy, e, _⟩ := (fr.recs r (by rw [ho']; exact he)).to hx
      exact ⟨ho', y, hy, by rw [e]; exact hxv⟩
  val r y hy hyv := by
    by_cases he : own r = o
    · exact ⟨vo', by rw [he]; exact ho, hs, val r y hy hyv he⟩
    · obtain ⟨x, hx, e, _⟩ := (fr.recs r he).of hy
      obtain ⟨a, ha, h2, h3⟩ := hi.val r x hx (by rw [← e]; exact hyv)
      obtain ⟨b, hb, e1, e2⟩ := (fr.objs _ he).to ha
      exact ⟨b, hb, by rw [e1]; exact h2, by rw [e2 h2]; exact h3⟩
  ltR := q.s.ltR
  ltO := q.s.ltO

theorem Inv.build {o : Nat} {w w' : World K V Ty} {vo' : Obj K V Ty} (hi : Inv own home w) (fr : Out own o w w') (q : QI own home w')
    (ho : w'.getObj o = some vo') (hs : vo'.isSet = false) (vok : VOk (cellOf w') vo')
    (mem : ∀ r ∈ vo'.recs, own r = o ∧ ∃ x, w'.getRec r = some x ∧ x.valid = true)
    (val : ∀ r x, w'.getRec r = some x → x.valid = true → own r = o → r ∈ vo'.recs) : Inv own home w' :=
  ⟨hi.v.build fr q ho hs vok mem val, q.r, q.s, q.l⟩

end MVault.W
