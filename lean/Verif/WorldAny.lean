import Verif.WorldCreate
/-
Facts that hold in every world, reachable or not, and for every history, whatever operations it has.
-/
set_option linter.unusedSectionVars false
set_option linter.unusedSimpArgs false
namespace MVault.W
variable {K V Ty : Type} [LinearOrder K] [LinearOrder V] [Typed V Ty] [DecidableEq Ty]

/-! ### References -/

theorem addRef_rf {w w' : World K V Ty} {r : Nat} (h : addRef w r = some w') : RF w w' ∧ w'.refs = w.refs := by
  simp only [addRef, Option.map_eq_some_iff] at h
  obtain ⟨x, hx, rfl⟩ := h
  refine ⟨⟨rfl, rfl, rfl, ?_, ?_⟩, rfl⟩
  · intro r' y hy
    simp only [getRec_putRec] at hy
    split at hy
    · rename_i e; subst e; cases hy; exact ⟨x, hx, rfl, rfl, rfl⟩
    · exact ⟨y, hy, rfl, rfl, rfl⟩
  · intro r' x' hx' _
    simp only [getRec_putRec]
    split
    · exact ⟨_, rfl⟩
    · exact ⟨x', hx'⟩

theorem removeRef_rf {w w' : World K V Ty} {r : Nat} (h : removeRef w r = some w') : RF w w' ∧ w'.refs = w.refs := by
  simp only [removeRef, Option.map_eq_some_iff] at h
  obtain ⟨x, hx, h⟩ := h
  split at h
  · rename_i hc
    subst h
    refine ⟨⟨rfl, rfl, rfl, ?_, ?_⟩, rfl⟩
    · intro r' y hy
      rw [getRec_freeRec] at hy
      split at hy
      · cases hy
      · exact ⟨y, hy, rfl, rfl, rfl⟩
    · intro r' x' hx' hv
      rw [getRec_freeRec]
      split
      · rename_i e; subst e; rw [hx] at hx'; cases hx'; rw [hc.1] at hv; cases hv
      · exact ⟨x', hx'⟩
  · subst h
    refine ⟨⟨rfl, rfl, rfl, ?_, ?_⟩, rfl⟩
    · intro r' y hy
      simp only [getRec_putRec] at hy
      split at hy
      · rename_i e; subst e; cases hy; exact ⟨x, hx, rfl, rfl, rfl⟩
      · exact ⟨y, hy, rfl, rfl, rfl⟩
    · intro r' x' hx' _
      simp only [getRec_putRec]
      split
      · exact ⟨_, rfl⟩
      · exact ⟨x', hx'⟩

theorem optStep_rf {f : World K V Ty → Nat → Option (World K V Ty)} (hf : ∀ w w' r, f w r = some w' → RF w w' ∧ w'.refs = w.refs)
    {w w' : World K V Ty} {p : Option Nat} (h : optStep f w p = some w') : RF w w' ∧ w'.refs = w.refs := by
  cases p with
  | none => simp only [optStep, Option.some.injEq] at h; subst h; exact ⟨.refl _, rfl⟩
  | some r => exact hf _ _ _ h

theorem RF.withRefs {w w' : World K V Ty} (h : RF w w') (l : List Ref) : RF w { w' with refs := l } :=
  ⟨h.objs, h.nextR, h.nextO, h.recOf, h.recTo⟩

theorem setRecord_rf {w w' : World K V Ty} {f : Nat} {p : Option Nat} {o : Nat} (h : setRecord w f p o = some w') :
    RF w w' ∧ w'.refs = w.refs.set f ⟨p, some o⟩ ∧ f < w.refs.length ∧ ∀ r, p = some r → ∃ x, w.getRec r = some x := by
  simp only [setRecord, Option.bind_eq_bind, Option.bind_eq_some_iff] at h
  obtain ⟨_, _, old, hold, w1, h1, w2, h2, h3⟩ := h
  cases h3
  obtain ⟨a1, a2⟩ := optStep_rf (fun _ _ _ h => addRef_rf h) h1
  obtain ⟨b1, b2⟩ := optStep_rf (fun _ _ _ h => removeRef_rf h) h2
  refine ⟨(a1.trans b1).withRefs _, by simp only; rw [b2, a2], (List.getElem?_eq_some_iff.mp hold).1, ?_⟩
  intro r e; subst e
  simp only [optStep, addRef, Option.map_eq_some_iff] at h1
  obtain ⟨x, hx, _⟩ := h1
  exact ⟨x, hx⟩

theorem newRefTo_rf {w w' : World K V Ty} {r o : Nat} (h : newRefTo w r o = some w') :
    RF w w' ∧ w'.refs = w.refs ++ [⟨some r, some o⟩] := by
  obtain ⟨h1, h2, _⟩ := setRecord_rf h
  refine ⟨⟨h1.objs, h1.nextR, h1.nextO, h1.recOf, h1.recTo⟩, ?_⟩
  rw [h2]; simp [newRef]

theorem loop_newRefTo_rf {o : Nat} (l : List Nat) {w w' : World K V Ty} (h : loop (fun w r => newRefTo w r o) l w = some w') :
    RF w w' ∧ w'.refs = w.refs ++ l.map (fun r => ⟨some r, some o⟩) := by
  induction l generalizing w with
  | nil => simp only [loop, Option.some.injEq] at h; subst h; exact ⟨.refl _, by simp⟩
  | cons r l ih =>
    simp only [loop, Option.bind_eq_some_iff] at h
    obtain ⟨w1, h1, h2⟩ := h
    obtain ⟨a1, a2⟩ := newRefTo_rf h1
    obtain ⟨b1, b2⟩ := ih h2
    exact ⟨a1.trans b1, by rw [b2, a2]; simp⟩

theorem RF.members {w w' : World K V Ty} (h : RF w w') (o : Nat) : members w' o = members w o := by
  unfold W.members World.getObj; rw [h.objs]

theorem RF.alive {w w' : World K V Ty} (h : RF w w') (r : Nat) : alive w' r ↔ alive w r := by
  constructor
  · rintro ⟨y, hy, hv⟩
    obtain ⟨x, hx, _, e, _⟩ := h.recOf r y hy
    exact ⟨x, hx, e ▸ hv⟩
  · rintro ⟨x, hx, hv⟩
    obtain ⟨y, hy⟩ := h.recTo r x hx hv
    obtain ⟨x', hx', _, e, _⟩ := h.recOf r y hy
    rw [hx] at hx'; cases hx'
    exact ⟨y, hy, e.trans hv⟩

theorem RF.value {w w' : World K V Ty} (h : RF w w') {r : Nat} (hr : W.alive w r) (k : K) : value w' r k = value w r k := by
  obtain ⟨x, hx, hv⟩ := hr
  obtain ⟨y, hy⟩ := h.recTo r x hx hv
  obtain ⟨x', hx', e, _, _⟩ := h.recOf r y hy
  rw [hx] at hx'; cases hx'
  simp [W.value, hx, hy, e]

/-! ### What every history keeps -/

/-- Class of an object: `some true` a set, `some false` a vault, `none` not alive. -/
def kind (w : World K V Ty) (o : Nat) : Option Bool := (w.getObj o).map (·.isSet)

theorem kind_eq {w : World K V Ty} {o : Nat} {x : Obj K V Ty} (h : w.getObj o = some x) : kind w o = some x.isSet := by simp [kind, h]

/-- The key tables of a vault fit together. -/
structure KeyOk (x : Obj K V Ty) : Prop where
  nodup : x.keysOrder.Nodup
  mem : ∀ k, k ∈ x.keysOrder ↔ ∃ c, mget x.cols k = some c
  uniqS : x.uniq.Pairwise (· < ·)
  uniqM : ∀ k ∈ x.uniq, ∃ c, mget x.cols k = some c
  tmplN : ∀ k, mget x.cols k = none → mget x.tmpl k = none
  tmplT : ∀ k c, mget x.cols k = some c → ∃ v, mget x.tmpl k = some v ∧ typeOf v = c.ty

/-- What holds for one index in every history. -/
structure ColAny (c : Col V Ty) : Prop where
  dflt : typeOf c.dflt = c.ty
  hash : ∀ e ∈ c.hash, typeOf e.1 = c.ty
  ord : ∀ e ∈ c.ord, typeOf e.1 = c.ty
  sorted : c.ord.Pairwise (fun a b => a.1 ≤ b.1)

/-- All indices of an object. -/
def ColsAny (cols : List (K × Col V Ty)) : Prop := ∀ k c, mget cols k = some c → ColAny c

/-- What holds for one object in every history; `kd` gives the classes of the objects. -/
structure ObjOk (nR nO : Nat) (kd : Nat → Option Bool) (x : Obj K V Ty) : Prop where
  recs : ∀ r ∈ x.recs, r < nR
  vault : x.isSet = false → x.isBase = true ∧ x.parent = none ∧ KeyOk x
  set : x.isSet = true → x.sets = []
  par : ∀ p, x.parent = some p → p < nO ∧ kd p ≠ some true
  sets : ∀ s ∈ x.sets, s < nO ∧ kd s ≠ some false
  cols : ColsAny x.cols

/-- What every history keeps. -/
structure AI (w : World K V Ty) : Prop where
  recB : ∀ r x, w.getRec r = some x → r < w.nextR
  objB : ∀ o x, w.getObj o = some x → o < w.nextO
  obj : ∀ o x, w.getObj o = some x → ObjOk w.nextR w.nextO (kind w) x

/-- Same keys, types, defaults. -/
structure KSame (x y : Obj K V Ty) : Prop where
  keysOrder : y.keysOrder = x.keysOrder
  uniq : y.uniq = x.uniq
  tmpl : y.tmpl = x.tmpl
  cols : ∀ k, (mget y.cols k).map Col.sig = (mget x.cols k).map Col.sig

theorem KSame.refl (x : Obj K V Ty) : KSame x x := ⟨rfl, rfl, rfl, fun _ => rfl⟩
theorem KSame.trans {x y z : Obj K V Ty} (h1 : KSame x y) (h2 : KSame y z) : KSame x z :=
  ⟨h2.keysOrder.trans h1.keysOrder, h2.uniq.trans h1.uniq, h2.tmpl.trans h1.tmpl, fun k => (h2.cols k).trans (h1.cols k)⟩

theorem KSame.key {x y : Obj K V Ty} (h : KSame x y) (hk : KeyOk x) : KeyOk y where
  nodup := h.keysOrder ▸ hk.nodup
  mem k := by
    rw [h.keysOrder, hk.mem k]
    have := h.cols k
    cases h1 : mget x.cols k <;> cases h2 : mget y.cols k <;> simp_all
  uniqS := h.uniq ▸ hk.uniqS
  uniqM k hm := by
    obtain ⟨c, hc⟩ := hk.uniqM k (h.uniq ▸ hm)
    have := h.cols k
    rw [hc] at this
    cases h2 : mget y.cols k with
    | none => rw [h2] at this; cases this
    | some c' => exact ⟨c', rfl⟩
  tmplN k hn := by
    have := h.cols k
    rw [hn] at this
    cases h2 : mget x.cols k with
    | none => rw [h.tmpl]; exact hk.tmplN k h2
    | some c => rw [h2] at this; cases this
  tmplT k c hc := by
    have := h.cols k
    rw [hc] at this
    cases h2 : mget x.cols k with
    | none => rw [h2] at this; cases this
    | some c' =>
      rw [h2] at this
      simp only [Option.map_some, Option.some.injEq, Col.sig, Prod.mk.injEq] at this
      obtain ⟨v, hv, ht⟩ := hk.tmplT k c' h2
      exact ⟨v, by rw [h.tmpl]; exact hv, ht.trans this.1.symm⟩

/-- One step of any kind: the invariant is kept, classes of objects do not change, and only the vaults of `t` get other keys. -/
structure St (t : List Nat) (w w' : World K V Ty) : Prop where
  ai : AI w'
  nR : w.nextR ≤ w'.nextR
  nO : w.nextO ≤ w'.nextO
  live : ∀ o x, w.getObj o = some x → ∃ y, w'.getObj o = some y ∧ y.isSet = x.isSet ∧ (x.isSet = false → o ∉ t → KSame x y)
  dead : ∀ o, o < w.nextO → w.getObj o = none → w'.getObj o = none
  new : ∀ o x, w.nextO ≤ o → w'.getObj o = some x → x.isSet = false → o ∈ t

/-- No object of a world of the invariant has a later number. -/
theorem AI.noNew {w : World K V Ty} (h : AI w) {t : List Nat} : ∀ o x, w.nextO ≤ o → w.getObj o = some x → x.isSet = false → o ∈ t :=
  fun o x ho hx _ => absurd (h.objB o x hx) (by omega)

theorem St.refl {w : World K V Ty} (h : AI w) (t : List Nat) : St t w w :=
  ⟨h, le_refl _, le_refl _, fun _ x h => ⟨x, h, rfl, fun _ _ => .refl _⟩, fun _ _ h => h, h.noNew⟩

theorem St.kd {t : List Nat} {w w' : World K V Ty} (h : St t w w') {o : Nat} (ho : o < w.nextO) : kind w' o = kind w o := by
  cases hx : w.getObj o with
  | none => simp [kind, hx, h.dead o ho hx]
  | some x => obtain ⟨y, hy, e, _⟩ := h.live o x hx; simp [kind, hx, hy, e]

theorem St.trans {t : List Nat} {a b c : World K V Ty} (h1 : St t a b) (h2 : St t b c) : St t a c where
  ai := h2.ai
  nR := h1.nR.trans h2.nR
  nO := h1.nO.trans h2.nO
  live o x hx := by
    obtain ⟨y, hy, e1, k1⟩ := h1.live o x hx
    obtain ⟨z, hz, e2, k2⟩ := h2.live o y hy
    exact ⟨z, hz, e2.trans e1, fun hs ht => (k1 hs ht).trans (k2 (e1.trans hs) ht)⟩
  dead o ho hx := h2.dead o (lt_of_lt_of_le ho h1.nO) (h1.dead o ho hx)
  new o x ho hx hs := by
    by_cases hlt : o < b.nextO
    · cases hb : b.getObj o with
      | none => rw [h2.dead o hlt hb] at hx; cases hx
      | some y =>
        obtain ⟨z, hz, e, _⟩ := h2.live o y hb
        rw [hx] at hz; cases hz
        exact h1.new o y ho hb (e.symm.trans hs)
    · exact h2.new o x (by omega) hx hs

theorem St.mono {t t' : List Nat} {a b : World K V Ty} (h : St t a b) (ht : ∀ o ∈ t, o ∈ t') : St t' a b :=
  ⟨h.ai, h.nR, h.nO, fun o x hx => (h.live o x hx).imp fun _ ⟨hy, e1, k1⟩ => ⟨hy, e1, fun hs hn => k1 hs (fun hm => hn (ht o hm))⟩, h.dead, fun o x a b c => ht o (h.new o x a b c)⟩

theorem ObjOk.congr {nR nO nR' nO' : Nat} {kd kd' : Nat → Option Bool} {x : Obj K V Ty} (h : ObjOk nR nO kd x) (h1 : nR ≤ nR') (h2 : nO ≤ nO')
    (h3 : ∀ o, o < nO → kd' o = kd o) : ObjOk nR' nO' kd' x where
  recs r hr := lt_of_lt_of_le (h.recs r hr) h1
  vault := h.vault
  set := h.set
  par p hp := ⟨lt_of_lt_of_le (h.par p hp).1 h2, by rw [h3 p (h.par p hp).1]; exact (h.par p hp).2⟩
  sets s hs := ⟨lt_of_lt_of_le (h.sets s hs).1 h2, by rw [h3 s (h.sets s hs).1]; exact (h.sets s hs).2⟩
  cols := h.cols

theorem RF.st {w w' : World K V Ty} (h : RF w w') (hi : AI w) (t : List Nat) : St t w w' := by
  have ho : ∀ o, w'.getObj o = w.getObj o := fun o => by unfold World.getObj; rw [h.objs]
  have hk : kind w' = kind w := by funext o; simp [kind, ho]
  refine ⟨⟨?_, ?_, ?_⟩, le_of_eq h.nextR.symm, le_of_eq h.nextO.symm, ?_, ?_, ?_⟩
  · intro r y hy
    obtain ⟨x, hx, _⟩ := h.recOf r y hy
    rw [h.nextR]; exact hi.recB r x hx
  · intro o x hx; rw [h.nextO]; exact hi.objB o x (ho o ▸ hx)
  · intro o x hx; rw [h.nextR, h.nextO, hk]; exact hi.obj o x (ho o ▸ hx)
  · intro o x hx; exact ⟨x, by rw [ho]; exact hx, rfl, fun _ _ => .refl _⟩
  · intro o _ hx; rw [ho]; exact hx
  · intro o x h1 hx; exact hi.noNew o x h1 (ho o ▸ hx)

theorem AI.putRec {w : World K V Ty} (hi : AI w) {r : Nat} {x : Rec K V} (hx : w.getRec r = some x) (y : Rec K V) (t : List Nat) : St t w (w.putRec r y) := by
  refine ⟨⟨?_, hi.objB, hi.obj⟩, le_refl _, le_refl _, fun _ x h => ⟨x, h, rfl, fun _ _ => .refl _⟩, fun _ _ h => h, hi.noNew⟩
  intro r' z hz
  simp only [getRec_putRec] at hz
  split at hz
  · rename_i e; subst e; exact hi.recB _ _ hx
  · exact hi.recB _ _ hz

theorem AI.freeRec {w : World K V Ty} (hi : AI w) (r : Nat) (t : List Nat) : St t w (w.freeRec r) := by
  refine ⟨⟨?_, hi.objB, hi.obj⟩, le_refl _, le_refl _, fun _ x h => ⟨x, h, rfl, fun _ _ => .refl _⟩, fun _ _ h => h, hi.noNew⟩
  intro r' z hz
  rw [getRec_freeRec] at hz
  split at hz
  · cases hz
  · exact hi.recB _ _ hz

theorem AI.putObj {w : World K V Ty} (hi : AI w) {o : Nat} {x y : Obj K V Ty} {t : List Nat} (hx : w.getObj o = some x)
    (hs : y.isSet = x.isSet) (hy : ObjOk w.nextR w.nextO (kind w) y) (ht : x.isSet = false → o ∉ t → KSame x y) : St t w (w.putObj o y) := by
  have hk : kind (w.putObj o y) = kind w := by
    funext o'
    unfold kind
    rw [getObj_putObj]
    split
    · rename_i e; subst e; simp [hx, hs]
    · rfl
  refine ⟨⟨hi.recB, ?_, ?_⟩, le_refl _, le_refl _, ?_, ?_, ?_⟩
  · intro o' z hz
    rw [getObj_putObj] at hz
    split at hz
    · rename_i e; subst e; exact hi.objB _ _ hx
    · exact hi.objB _ _ hz
  · intro o' z hz
    rw [hk]
    rw [getObj_putObj] at hz
    split at hz
    · cases hz; exact hy
    · exact hi.obj _ _ hz
  · intro o' z hz
    rw [getObj_putObj]
    split
    · rename_i e; subst e; rw [hx] at hz; cases hz; exact ⟨y, rfl, hs, ht⟩
    · exact ⟨z, hz, rfl, fun _ _ => .refl _⟩
  · intro o' _ hz
    rw [getObj_putObj]
    split
    · rename_i e; subst e; rw [hx] at hz; cases hz
    · exact hz
  · intro o' z hlt hz
    rw [getObj_putObj] at hz
    split at hz
    · rename_i e; subst e; exact absurd (hi.objB _ _ hx) (by omega)
    · exact hi.noNew _ _ hlt hz

/-- Changes of an object that leave its class, keys and links alone. -/
theorem AI.putSame {w : World K V Ty} (hi : AI w) {o : Nat} {x y : Obj K V Ty} (hx : w.getObj o = some x)
    (h1 : y.isSet = x.isSet) (h2 : x.isSet = false → y.isBase = x.isBase ∧ y.parent = x.parent) (hp : ∀ p, y.parent = some p → x.parent = some p)
    (h3 : ∀ s ∈ y.sets, s ∈ x.sets)
    (h4 : KSame x y) (h5 : ∀ r ∈ y.recs, r < w.nextR) (h6 : ColsAny y.cols) (t : List Nat) : St t w (w.putObj o y) := by
  have ok := hi.obj o x hx
  refine hi.putObj hx h1 ⟨h5, ?_, ?_, ?_, ?_, h6⟩ (fun _ _ => h4)
  · intro hs
    rw [h1] at hs
    obtain ⟨e1, e2, e3⟩ := ok.vault hs
    obtain ⟨f1, f2⟩ := h2 hs
    exact ⟨f1.trans e1, f2.trans e2, h4.key e3⟩
  · intro hs
    rw [h1] at hs
    have := ok.set hs
    rw [List.eq_nil_iff_forall_not_mem]
    intro s hm; have := h3 s hm; rw [ok.set hs] at this; cases this
  · intro p hp'; exact ok.par p (hp p hp')
  · intro s hm; exact ok.sets s (h3 s hm)

theorem loop_st {A : Type} {t : List Nat} {f : World K V Ty → A → Option (World K V Ty)} {P : World K V Ty → A → Prop}
    (hP : ∀ w w' a, St t w w' → P w a → P w' a) (hf : ∀ w w' a, AI w → P w a → f w a = some w' → St t w w') (l : List A) :
    ∀ {w w' : World K V Ty}, AI w → (∀ a ∈ l, P w a) → loop f l w = some w' → St t w w' := by
  induction l with
  | nil => intro w w' hi _ h; simp only [loop, Option.some.injEq] at h; subst h; exact .refl hi t
  | cons a l ih =>
    intro w w' hi hl h
    simp only [loop, Option.bind_eq_some_iff] at h
    obtain ⟨w1, h1, h2⟩ := h
    have s1 := hf _ _ _ hi (hl a (List.mem_cons_self ..)) h1
    exact s1.trans (ih s1.ai (fun b hb => hP _ _ _ s1 (hl b (List.mem_cons_of_mem _ hb))) h2)

theorem loop_st' {A : Type} {t : List Nat} {f : World K V Ty → A → Option (World K V Ty)}
    (hf : ∀ w w' a, AI w → f w a = some w' → St t w w') (l : List A) {w w' : World K V Ty} (hi : AI w) (h : loop f l w = some w') : St t w w' :=
  loop_st (P := fun _ _ => True) (fun _ _ _ _ h => h) (fun w w' a hi _ h => hf w w' a hi h) l hi (fun _ _ => trivial) h

/-- `s` is, or was, a set. -/
def NotVault (w : World K V Ty) (s : Nat) : Prop := s < w.nextO ∧ kind w s ≠ some false

theorem NotVault.st {t : List Nat} {w w' : World K V Ty} {s : Nat} (h : St t w w') (hn : NotVault w s) : NotVault w' s :=
  ⟨lt_of_lt_of_le hn.1 h.nO, by rw [h.kd hn.1]; exact hn.2⟩

theorem NotVault.obj {w : World K V Ty} {s : Nat} {x : Obj K V Ty} (hn : NotVault w s) (h : w.getObj s = some x) : x.isSet = true := by
  have := hn.2
  rw [kind_eq h] at this
  cases hx : x.isSet with
  | true => rfl
  | false => rw [hx] at this; exact absurd rfl this

theorem ksame_cols {x : Obj K V Ty} {cols : List (K × Col V Ty)} (h : ∀ k, (mget cols k).map Col.sig = (mget x.cols k).map Col.sig) (l : List Nat) :
    KSame x { x with cols := cols, recs := l } := ⟨rfl, rfl, rfl, h⟩

theorem sig_mmap {f : K → Col V Ty → Col V Ty} (hf : ∀ k c, (f k c).sig = c.sig) (cols : List (K × Col V Ty)) (k : K) :
    (mget (mmap f cols) k).map Col.sig = (mget cols k).map Col.sig := by
  rw [mget_mmap]
  cases mget cols k <;> simp [hf]

theorem ColsAny.mmap {f : K → Col V Ty → Col V Ty} {cols : List (K × Col V Ty)} (h : ColsAny cols) (hf : ∀ k c, mget cols k = some c → ColAny c → ColAny (f k c)) :
    ColsAny (mmap f cols) := by
  intro k c hc
  rw [mget_mmap] at hc
  obtain ⟨c', h1, rfl⟩ := Option.map_eq_some_iff.mp hc
  exact hf k c' h1 (h k c' h1)

theorem ColsAny.mput {cols : List (K × Col V Ty)} {k : K} {c : Col V Ty} (h : ColsAny cols) (hc : ColAny c) : ColsAny (mput cols k c) := by
  intro k' c' hc'
  rw [mget_mput] at hc'
  split at hc'
  · cases hc'; exact hc
  · exact h k' c' hc'

theorem ColsAny.nil : ColsAny ([] : List (K × Col V Ty)) := by intro k c h; cases h

theorem ColAny.add {c : Col V Ty} (h : ColAny c) {v : V} (hv : typeOf v = c.ty) (r : Nat) : ColAny (c.add v r).1 := by
  obtain ⟨e1, e2, e3, _⟩ := Col.add_shape c v r
  refine ⟨by rw [e1, e3]; exact h.dflt, ?_, ?_, sorted_add c v r h.sorted⟩
  · intro e he; rw [e1]
    rcases mem_hash_add c v r e he with h' | rfl
    · exact h.hash e h'
    · exact hv
  · intro e he; rw [e1]
    rcases mem_ord_add c v r e he with h' | rfl
    · exact h.ord e h'
    · exact hv

theorem ColAny.erase {c : Col V Ty} (h : ColAny c) (v : V) (r : Nat) : ColAny (c.erase v r) :=
  ⟨h.dflt, fun e he => h.hash e (mem_hash_erase c v r e he), fun e he => h.ord e (mem_ord_erase c v r e he), sorted_erase c v r h.sorted⟩

theorem ColAny.clear {c : Col V Ty} (h : ColAny c) : ColAny c.clear :=
  ⟨h.dflt, by simp [Col.clear], by simp [Col.clear], by simp [Col.clear]⟩

theorem ColAny.setVal {c c' : Col V Ty} (h : ColAny c) {old new : V} {r : Nat} (hv : typeOf new = c.ty) (e : c.setVal old new r = some c') : ColAny c' := by
  obtain ⟨e1, e2, e3⟩ := Col.setVal_shape e
  refine ⟨by rw [e1, e3]; exact h.dflt, ?_, ?_, sorted_setVal e h.sorted⟩
  · intro x hx; rw [e1]
    rcases mem_hash_setVal e x hx with h' | rfl
    · exact h.hash x h'
    · exact hv
  · intro x hx; rw [e1]
    rcases mem_ord_setVal e x hx with h' | rfl
    · exact h.ord x h'
    · exact hv

theorem readOr_ty {ty : Ty} {d : V} (hd : typeOf d = ty) (data : List (K × V)) (k : K) : typeOf (readOr ty d data k) = ty := by
  unfold readOr
  split
  · split
    · assumption
    · exact hd
  · exact hd

theorem ColsAny.addCols {cols : List (K × Col V Ty)} (h : ColsAny cols) (data : List (K × V)) (r : Nat) : ColsAny (addCols cols data r) :=
  h.mmap fun k _ _ hc => hc.add (readOr_ty hc.dflt data k) r

theorem ColsAny.eraseCols {cols : List (K × Col V Ty)} (h : ColsAny cols) (data : List (K × V)) (r : Nat) : ColsAny (eraseCols cols data r) :=
  h.mmap fun _ _ _ hc => hc.erase _ r

theorem ColsAny.clearCols {cols : List (K × Col V Ty)} (h : ColsAny cols) : ColsAny (clearCols cols) :=
  h.mmap fun _ _ _ hc => hc.clear

theorem sig_addCols (cols : List (K × Col V Ty)) (data : List (K × V)) (r : Nat) (k : K) :
    (mget (addCols cols data r) k).map Col.sig = (mget cols k).map Col.sig := sig_mmap (fun _ _ => sig_add _ _ _) _ k

theorem sig_eraseCols (cols : List (K × Col V Ty)) (data : List (K × V)) (r : Nat) (k : K) :
    (mget (eraseCols cols data r) k).map Col.sig = (mget cols k).map Col.sig :=
  sig_mmap (f := fun k c => c.erase (c.oldVal data k) r) (fun _ _ => rfl) _ k

theorem sig_clearCols (cols : List (K × Col V Ty)) (k : K) :
    (mget (clearCols cols) k).map Col.sig = (mget cols k).map Col.sig := sig_mmap (f := fun _ c => c.clear) (fun _ _ => rfl) _ k

/-! ### Set operations -/

theorem eraseDep_st {w w' : World K V Ty} {s r : Nat} (hi : AI w) (h : eraseDep s w r = some w') (t : List Nat) : St t w w' := by
  simp only [eraseDep, Option.map_eq_some_iff] at h
  obtain ⟨x, hx, rfl⟩ := h
  exact hi.putRec hx _ t

theorem addDep_st {w w' : World K V Ty} {s r : Nat} (hi : AI w) (h : addDep s w r = some w') (t : List Nat) : St t w w' := by
  simp only [addDep, Option.map_eq_some_iff] at h
  obtain ⟨x, hx, rfl⟩ := h
  exact hi.putRec hx _ t

theorem setClear_st {env : Env} {w w' : World K V Ty} {s : Nat} (hi : AI w) (h : setClear env w s = some w') (t : List Nat) : St t w w' := by
  simp only [setClear, Option.bind_eq_bind, Option.bind_eq_some_iff] at h
  obtain ⟨so, hso, h⟩ := h
  split at h
  · cases h; exact .refl hi t
  · simp only [Option.bind_eq_some_iff] at h
    obtain ⟨w1, h1, h2⟩ := h
    cases h2
    have s1 : St t w w1 := loop_st' (fun w w' a hi h => eraseDep_st hi h t) _ hi h1
    have hobj : w1.getObj s = some so := by
      have : w1.objs = w.objs := by
        clear s1 hso
        revert h1
        generalize env.perm so.recs = l
        intro h1
        induction l generalizing w with
        | nil => simp only [loop, Option.some.injEq] at h1; rw [h1]
        | cons a l ih =>
          simp only [loop, Option.bind_eq_some_iff, eraseDep, Option.map_eq_some_iff] at h1
          obtain ⟨_, ⟨x, hx, rfl⟩, h1⟩ := h1
          exact (ih (hi.putRec hx _ t).ai h1).trans rfl
      unfold World.getObj at hso ⊢; rw [this]; exact hso
    refine s1.trans (s1.ai.putSame (y := { so with cols := clearCols so.cols, recs := [] }) hobj rfl (fun _ => ⟨rfl, rfl⟩) (fun _ h => h) (fun _ h => h) (ksame_cols (sig_clearCols _) _) (by simp) (s1.ai.obj _ _ hobj).cols.clearCols t)

theorem invalidate_st {w w' : World K V Ty} {r : Nat} (hi : AI w) (h : invalidate w r = some w') (t : List Nat) : St t w w' := by
  simp only [invalidate, Option.map_eq_some_iff] at h
  obtain ⟨x, hx, h⟩ := h
  split at h <;> subst h
  · exact hi.freeRec r t
  · exact hi.putRec hx _ t

theorem invalidate_objs {w w' : World K V Ty} {r : Nat} (h : invalidate w r = some w') : w'.objs = w.objs := by
  simp only [invalidate, Option.map_eq_some_iff] at h
  obtain ⟨x, hx, h⟩ := h
  split at h <;> subst h <;> rfl

theorem loop_objs {A : Type} {f : World K V Ty → A → Option (World K V Ty)} (hf : ∀ w w' a, f w a = some w' → w'.objs = w.objs) (l : List A) :
    ∀ {w w' : World K V Ty}, loop f l w = some w' → w'.objs = w.objs := by
  induction l with
  | nil => intro w w' h; simp only [loop, Option.some.injEq] at h; rw [h]
  | cons a l ih =>
    intro w w' h
    simp only [loop, Option.bind_eq_some_iff] at h
    obtain ⟨w1, h1, h2⟩ := h
    exact (ih h2).trans (hf _ _ _ h1)

theorem KeyOk.empty {x : Obj K V Ty} (h1 : x.keysOrder = []) (h2 : x.cols = []) (h3 : x.uniq = []) (h4 : x.tmpl = []) : KeyOk x := by
  refine ⟨by rw [h1]; exact List.nodup_nil, ?_, by rw [h3]; exact .nil, ?_, ?_, ?_⟩ <;> simp [h1, h2, h3, h4, mget]

theorem dropCore_st {env : Env} {w w' : World K V Ty} {o : Nat} (hi : AI w) {t : List Nat} (ht : NotVault w o ∨ o ∈ t) (h : dropCore env w o = some w') : St t w w' := by
  simp only [dropCore, Option.bind_eq_bind, Option.bind_eq_some_iff] at h
  obtain ⟨vo, hvo, w1, h1, h2⟩ := h
  cases h2
  have s1 : St t w w1 := loop_st' (fun w w' a hi h => invalidate_st hi h t) _ hi h1
  have hobj : w1.getObj o = some vo := by
    unfold World.getObj at hvo ⊢; rw [loop_objs (fun _ _ _ h => invalidate_objs h) _ h1]; exact hvo
  have ok := s1.ai.obj o vo hobj
  refine s1.trans (s1.ai.putObj hobj rfl ⟨by simp, ?_, by simp, ok.par, by simp, .nil⟩ ?_)
  · intro hs
    obtain ⟨a, b, _⟩ := ok.vault hs
    exact ⟨a, b, .empty rfl rfl rfl rfl⟩
  · intro hs hn
    rcases ht with h | h
    · rw [h.obj hvo] at hs; cases hs
    · exact absurd h hn

theorem setReset_st {env : Env} {w w' : World K V Ty} {s : Nat} (hi : AI w) (h : setReset env w s = some w') (t : List Nat) : St t w w' := by
  simp only [setReset, Option.bind_eq_bind, Option.bind_eq_some_iff] at h
  obtain ⟨so, hso, h⟩ := h
  split at h
  · cases h; exact .refl hi t
  · rename_i p hp
    simp only [Option.bind_eq_some_iff] at h
    obtain ⟨_, _, w1, h1, w2, h2, po, hpo, so', hso', h3⟩ := h
    cases h3
    have hset : so.isSet = true := by
      cases hs : so.isSet with
      | true => rfl
      | false => have := ((hi.obj s so hso).vault hs).2.1; rw [hp] at this; cases this
    have s1 := setClear_st hi h1 t
    have nv : NotVault w1 s := NotVault.st s1 ⟨hi.objB s so hso, by rw [kind_eq hso, hset]; simp⟩
    have s2 := s1.trans (dropCore_st s1.ai (t := t) (.inl nv) h2)
    have s3 := s2.trans (s2.ai.putSame (y := { po with sets := po.sets.filter (· ≠ s) }) hpo rfl (fun _ => ⟨rfl, rfl⟩) (fun _ h => h) (fun a h => (List.mem_filter.mp h).1) ⟨rfl, rfl, rfl, fun _ => rfl⟩
      (fun r hr => (s2.ai.obj p po hpo).recs r hr) (s2.ai.obj p po hpo).cols t)
    have hs' : so'.isSet = true := by
      obtain ⟨y, hy, e, _⟩ := s3.live s so hso
      rw [hso'] at hy; cases hy; rw [e, hset]
    exact s3.trans (s3.ai.putSame (y := { so' with parent := none }) hso' rfl (fun h => by rw [hs'] at h; cases h) (fun _ h => by cases h) (fun _ h => h) ⟨rfl, rfl, rfl, fun _ => rfl⟩
      (fun r hr => (s3.ai.obj s so' hso').recs r hr) (s3.ai.obj s so' hso').cols t)

end MVault.W
