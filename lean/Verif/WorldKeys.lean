import Verif.WorldAny4
import Verif.WorldAsk
/-
Key functions in every history.
-/
set_option linter.unusedSectionVars false
set_option linter.unusedSimpArgs false
namespace MVault.W
variable {K V Ty : Type} [LinearOrder K] [LinearOrder V] [Typed V Ty] [DecidableEq Ty]

theorem St.ksame {w w' : World K V Ty} (h : St [] w w') {o : Nat} {vo : Obj K V Ty} (ho : w.getObj o = some vo) (hs : vo.isSet = false) :
    ∃ y, w'.getObj o = some y ∧ y.isSet = false ∧ KSame vo y := by
  obtain ⟨y, hy, e, k⟩ := h.live o vo ho
  exact ⟨y, hy, e.trans hs, k hs (by simp)⟩

theorem fold_add_sig (l : List Nat) (d : V) (c : Col V Ty) : (l.foldl (fun c r => (c.add d r).1) c).sig = c.sig := by
  induction l generalizing c with
  | nil => rfl
  | cons r l ih => rw [List.foldl_cons, ih, sig_add]

theorem fnCol_sig (l : List (Nat × V)) {c c' : Col V Ty} (h : fnCol l c = some c') : c'.sig = c.sig := by
  induction l generalizing c with
  | nil => simp only [fnCol, Option.some.injEq] at h; rw [h]
  | cons p l ih =>
    obtain ⟨r, v⟩ := p
    simp only [fnCol] at h
    cases hb : c.add v r with
    | mk c1 b =>
      rw [hb] at h
      cases b with
      | false => cases h
      | true => simp only at h; rw [ih h, show c1 = (c.add v r).1 by rw [hb], sig_add]

theorem addKey_any {env : Env} {w w' : World K V Ty} {o : Nat} {vo : Obj K V Ty} {k : K} {d : V} {res : Res K} (hi : AI w)
    (ho : w.getObj o = some vo) (hs : vo.isSet = false) (h : addKey env w o k d = some (w', res)) :
    (w' = w ∧ res = .bad .DuplicateKey (some k) ∧ ∃ c, mget vo.cols k = some c) ∨
    (res = .good (some k) ∧ mget vo.cols k = none ∧ ∃ y c, w'.getObj o = some y ∧ y.isSet = false ∧ c.ty = typeOf d ∧ KSame (vo.withKey k d false c) y) := by
  simp only [addKey, ho, Option.bind_eq_bind, Option.bind_some, Option.bind_eq_some_iff, Prod.exists] at h
  obtain ⟨w1, res1, h1, h⟩ := h
  have s1 := addKeyLocal_st (t := [o]) hi (.inr (by simp)) h1
  simp only [addKeyLocal, ho, Option.bind_eq_bind, Option.bind_some] at h1
  split at h1
  · rename_i hk
    cases h1
    simp only [Res.bad, if_true] at h
    cases h
    refine .inl ⟨rfl, rfl, ?_⟩
    unfold mhas at hk
    cases e : mget vo.cols k with
    | none => rw [e] at hk; cases hk
    | some c => exact ⟨c, rfl⟩
  · rename_i hk
    right
    simp only [Option.bind_eq_some_iff, Option.some.injEq, Prod.mk.injEq] at h1
    obtain ⟨w0, h0, rfl, rfl⟩ := h1
    simp only [Res.good, Bool.true_eq_false, if_false, Option.bind_eq_some_iff, Option.some.injEq, Prod.mk.injEq] at h
    obtain ⟨w2, h2, rfl, rfl⟩ := h
    have s2 := loop_st (t := []) (P := NotVault) (fun _ _ _ s h => h.st s) (fun w w' s hi hs h => by
      simp only [Option.bind_eq_some_iff, Prod.exists] at h
      obtain ⟨w3, _, h3, h4⟩ := h
      have s3 := addKeyLocal_st (t := []) hi (.inl hs) h3
      exact s3.trans (pushKey_st s3.ai (hs.st s3) h4 [])) _ s1.ai (fun s hs => (sets_notVault hi ho env s hs).st s1) h2
    obtain ⟨y, hy, hys, ks⟩ := s2.ksame (getObj_putObj_self _ _ _) hs
    refine ⟨rfl, mhas_none hk, y, _, hy, hys, ?_, ks⟩
    have := fold_add_sig (env.perm vo.recs) d (⟨typeOf d, true, d, [], [], false, false⟩ : Col V Ty)
    simp only [Col.sig, Prod.mk.injEq] at this
    exact this.1

theorem addUniqueKey_any {env : Env} {w w' : World K V Ty} {o : Nat} {vo : Obj K V Ty} {k : K} {t : Ty} {noFn : Bool} {f : Nat → Nat → Nat → V} {res : Res K} (hi : AI w)
    (ho : w.getObj o = some vo) (hs : vo.isSet = false) (h : addUniqueKey env w o k t noFn f = some (w', res)) :
    (w' = w ∧ res.ok = false) ∨
    (res = .good (some k) ∧ mget vo.cols k = none ∧ ∃ y c, w'.getObj o = some y ∧ y.isSet = false ∧ c.ty = t ∧ KSame (vo.withKey k (zero t) true c) y) := by
  simp only [addUniqueKey, ho, Option.bind_eq_bind, Option.bind_some, Option.bind_eq_some_iff, Prod.exists] at h
  obtain ⟨w1, res1, h1, h⟩ := h
  have s1 := addUniqueLocal_st (t := [o]) hi (.inr (by simp)) h1
  simp only [addUniqueLocal, ho, Option.bind_eq_bind, Option.bind_some] at h1
  split at h1
  · cases h1; simp only [Res.bad, if_true] at h; cases h; exact .inl ⟨rfl, rfl⟩
  rename_i hk
  split at h1
  · cases h1; simp only [Res.bad, if_true] at h; cases h; exact .inl ⟨rfl, rfl⟩
  split at h1
  · cases h1; simp only [Res.bad, if_true] at h; cases h; exact .inl ⟨rfl, rfl⟩
  rename_i c hc
  right
  have e1 : ∃ w0 : World K V Ty, w1 = w0.putObj o (vo.withKey k (zero t) true c) ∧ res1 = .good (some k) := by
    split at h1
    · simp only [Option.bind_eq_some_iff, Option.some.injEq, Prod.mk.injEq] at h1
      obtain ⟨w0, _, rfl, rfl⟩ := h1; exact ⟨w0, rfl, rfl⟩
    · simp only [Option.bind_some, Option.some.injEq, Prod.mk.injEq] at h1
      obtain ⟨rfl, rfl⟩ := h1; exact ⟨w, rfl, rfl⟩
  obtain ⟨w0, rfl, rfl⟩ := e1
  simp only [Res.good, Bool.true_eq_false, if_false, Option.bind_eq_some_iff, Option.some.injEq, Prod.mk.injEq] at h
  obtain ⟨w2, h2, rfl, rfl⟩ := h
  have s2 := loop_st (t := []) (P := NotVault) (fun _ _ _ s h => h.st s) (fun w w' s hi hs h => by
    simp only [Option.bind_eq_some_iff, Prod.exists] at h
    obtain ⟨w3, _, h3, h4⟩ := h
    have s3 := addUniqueLocal_st (t := []) hi (.inl hs) h3
    exact s3.trans (pushKey_st s3.ai (hs.st s3) h4 [])) _ s1.ai (fun s hs => (sets_notVault hi ho env s hs).st s1) h2
  obtain ⟨y, hy, hys, ks⟩ := s2.ksame (getObj_putObj_self _ _ _) hs
  refine ⟨rfl, mhas_none hk, y, _, hy, hys, ?_, ks⟩
  have := fnCol_sig _ hc
  simp only [Col.sig, Prod.mk.injEq] at this
  exact this.1

theorem removeKey_any {env : Env} {w w' : World K V Ty} {o : Nat} {vo : Obj K V Ty} {k : K} {b : Bool} (hi : AI w)
    (ho : w.getObj o = some vo) (hs : vo.isSet = false) (h : removeKey env w o k = some (w', b)) :
    (w' = w ∧ b = false ∧ mget vo.cols k = none) ∨
    (b = true ∧ (∃ c, mget vo.cols k = some c) ∧ ∃ y, w'.getObj o = some y ∧ y.isSet = false ∧ KSame (vo.withoutKey k) y) := by
  simp only [removeKey, ho, Option.bind_eq_bind, Option.bind_some] at h
  split at h
  · rename_i hk; cases h; exact .inl ⟨rfl, rfl, (mhas_false _ _).mp hk⟩
  · rename_i hk
    simp only [Option.bind_eq_some_iff, Option.some.injEq, Prod.mk.injEq] at h
    obtain ⟨w2, h2, w3, h3, rfl, rfl⟩ := h
    have s1 : St [o] w (w.putObj o (vo.withoutKey k)) := hi.putObj ho rfl ((hi.obj o vo ho).withoutKey k) (fun _ hn => absurd (by simp) hn)
    have s2 : St [] (w.putObj o (vo.withoutKey k)) w2 := loop_st' (fun w w' a hi h => dropCell_st hi h []) _ s1.ai h2
    have s3 := s2.trans (loop_st (t := []) (P := NotVault) (fun _ _ _ s h => h.st s) (fun w w' s hi hs h => removeKeyLocal_st hi hs h) _ s2.ai
      (fun s hs => ((sets_notVault hi ho env s hs).st s1).st s2) h3)
    obtain ⟨y, hy, hys, ks⟩ := s3.ksame (getObj_putObj_self _ _ _) hs
    refine .inr ⟨rfl, ?_, y, hy, hys, ks⟩
    cases e : mget vo.cols k with
    | some c => exact ⟨c, rfl⟩
    | none => exact absurd ((mhas_false _ _).mpr e) hk

/-- The keys of a vault, as seen by a user, are those of `y`. -/
theorem KSame.keys {w : World K V Ty} {o : Nat} {x y : Obj K V Ty} (h : KSame x y) (ho : w.getObj o = some y) :
    getKeys w o = x.keysOrder ∧ getUniqueKeys w o = x.uniq ∧ (∀ k, getKeyType w o k = (mget x.cols k).map (·.ty)) ∧ ∀ k, getDefault w o k = mget x.tmpl k := by
  refine ⟨by rw [getKeys_eq ho, h.keysOrder], by rw [getUniqueKeys_eq ho, h.uniq], fun k => ?_, fun k => by rw [getDefault_eq ho, h.tmpl]⟩
  rw [getKeyType_eq ho]
  have := congrArg (Option.map Prod.fst) (h.cols k)
  simpa [Option.map_map, Function.comp_def, Col.sig] using this

/-- Keys of a copy. -/
theorem copyInto_keys {env : Env} {w w' : World K V Ty} {o a : Nat} {vo : Obj K V Ty} {ao : Obj K V Ty} (hi : AI w) (ho : w.getObj o = some vo) (hos : vo.isSet = false)
    (hao : w.getObj a = some ao) (has : ao.isSet = false) (hr : vo.recs = []) (hc : vo.cols = []) (htm : vo.tmpl = [])
    (h : copyInto env w o a = some w') : ∃ y, w'.getObj o = some y ∧ y.keysOrder = ao.keysOrder ∧ y.uniq = ao.uniq ∧
      (∀ k, (mget y.cols k).map (·.ty) = (mget ao.cols k).map (·.ty)) ∧ ∀ k, mget y.tmpl k = (mget ao.cols k).map (·.dflt) := by
  simp only [copyInto, hao, Option.bind_eq_bind, Option.bind_some, Option.bind_eq_some_iff] at h
  obtain ⟨w1, h1, vo1, hvo1, h⟩ := h
  have s1 : St [o] w w1 := copyKeys_st hi (.inr (by simp)) h1
  have hw : w1 = w.putObj o (withKeys vo ao.cols) := by
    have := copyKeys_eq (env := env) (src := ao) (w := w) (o := o) hr
    rw [putObj_self ho] at this
    rw [this] at h1; cases h1; rfl
  have hvo1' : vo1 = withKeys vo ao.cols := by rw [hw, getObj_putObj_self] at hvo1; cases hvo1; rfl
  have aok := (hi.obj a ao hao).vault has
  have ok1 := s1.ai.obj o vo1 hvo1
  obtain ⟨b1, b2⟩ := withKeys_empty hc htm ao.cols
  obtain ⟨a1, a2, a3, a4, a5, a6, _⟩ := withKeys_spec ao.cols vo
  have v1 := ok1.vault (by rw [hvo1', a1]; exact hos)
  have key : KeyOk { vo1 with keysOrder := ao.keysOrder, uniq := ao.uniq } := by
    refine ⟨aok.2.2.nodup, ?_, aok.2.2.uniqS, ?_, v1.2.2.tmplN, v1.2.2.tmplT⟩
    · intro k
      show k ∈ ao.keysOrder ↔ ∃ c, mget vo1.cols k = some c
      rw [aok.2.2.mem, hvo1', b1]
      cases mget ao.cols k <;> simp
    · intro k hk
      obtain ⟨c, hc⟩ := aok.2.2.uniqM k hk
      exact ⟨c.fresh, by show mget vo1.cols k = _; rw [hvo1', b1, hc]; rfl⟩
  have s2 := s1.trans (s1.ai.putObj (t := [o]) (y := { vo1 with keysOrder := ao.keysOrder, uniq := ao.uniq }) hvo1 rfl
    ⟨ok1.recs, fun _ => ⟨v1.1, v1.2.1, key⟩, ok1.set, ok1.par, ok1.sets, ok1.cols⟩ (fun _ hn => absurd (by simp) hn))
  have s3 : St [] _ w' := loop_st' (fun w w' a hi h => copyOne_st hi h []) _ s2.ai h
  obtain ⟨y, hy, hys, ks⟩ := s3.ksame (getObj_putObj_self _ _ _) (by show vo1.isSet = false; rw [hvo1', a1]; exact hos)
  refine ⟨y, hy, ks.keysOrder, ks.uniq, fun k => ?_, fun k => ?_⟩
  · have := congrArg (Option.map Prod.fst) (ks.cols k)
    simp only [Option.map_map, Function.comp_def, Col.sig] at this
    rw [this]
    show (mget vo1.cols k).map (·.ty) = _
    rw [hvo1', b1]
    cases hk : mget ao.cols k with
    | none => rfl
    | some c => simp [Col.fresh, ((hi.obj a ao hao).cols k c hk).dflt]
  · rw [ks.tmpl]
    show mget vo1.tmpl k = _
    rw [hvo1', b2]

/-! ### Frames of the key functions -/

/-- Only data about key `k` changed. -/
structure KeyFrame (k : K) (w w' : World K V Ty) : Prop where
  recTo : ∀ r x, w.getRec r = some x → ∃ y, w'.getRec r = some y ∧ y.valid = x.valid ∧ y.refs = x.refs ∧ y.deps = x.deps ∧
    ∀ k', k' ≠ k → mget y.data k' = mget x.data k'
  recOf : ∀ r, w.getRec r = none → w'.getRec r = none
  refs : w'.refs = w.refs
  objTo : ∀ o x, w.getObj o = some x → ∃ y, w'.getObj o = some y ∧ y.isSet = x.isSet ∧ y.parent = x.parent ∧ y.recs = x.recs ∧ y.sets = x.sets ∧
    y.isBase = x.isBase ∧ ∀ k', k' ≠ k → mget y.cols k' = mget x.cols k'
  objOf : ∀ o, w.getObj o = none → w'.getObj o = none

theorem KeyFrame.refl (k : K) (w : World K V Ty) : KeyFrame k w w :=
  ⟨fun _ x h => ⟨x, h, rfl, rfl, rfl, fun _ _ => rfl⟩, fun _ h => h, rfl, fun _ x h => ⟨x, h, rfl, rfl, rfl, rfl, rfl, fun _ _ => rfl⟩, fun _ h => h⟩

theorem KeyFrame.trans {k : K} {a b c : World K V Ty} (h1 : KeyFrame k a b) (h2 : KeyFrame k b c) : KeyFrame k a c := by
  refine ⟨fun r x hx => ?_, fun r h => h2.recOf r (h1.recOf r h), h2.refs.trans h1.refs, fun o x hx => ?_, fun o h => h2.objOf o (h1.objOf o h)⟩
  · obtain ⟨y, hy, e1, e2, e3, e4⟩ := h1.recTo r x hx
    obtain ⟨z, hz, f1, f2, f3, f4⟩ := h2.recTo r y hy
    exact ⟨z, hz, f1.trans e1, f2.trans e2, f3.trans e3, fun k' hk => (f4 k' hk).trans (e4 k' hk)⟩
  · obtain ⟨y, hy, e1, e2, e3, e4, e5, e6⟩ := h1.objTo o x hx
    obtain ⟨z, hz, f1, f2, f3, f4, f5, f6⟩ := h2.objTo o y hy
    exact ⟨z, hz, f1.trans e1, f2.trans e2, f3.trans e3, f4.trans e4, f5.trans e5, fun k' hk => (f6 k' hk).trans (e6 k' hk)⟩

theorem KeyFrame.members {k : K} {w w' : World K V Ty} (h : KeyFrame k w w') (o : Nat) : members w' o = members w o := by
  unfold W.members
  cases hx : w.getObj o with
  | none => rw [h.objOf o hx]
  | some x => obtain ⟨y, hy, _, _, e, _⟩ := h.objTo o x hx; rw [hy]; exact e

theorem KeyFrame.value {k : K} {w w' : World K V Ty} (h : KeyFrame k w w') (r : Nat) {k' : K} (hk : k' ≠ k) : value w' r k' = value w r k' := by
  unfold W.value
  cases hx : w.getRec r with
  | none => rw [h.recOf r hx]
  | some x => obtain ⟨y, hy, _, _, _, e⟩ := h.recTo r x hx; rw [hy]; exact e k' hk

theorem KeyFrame.alive {k : K} {w w' : World K V Ty} (h : KeyFrame k w w') (r : Nat) : alive w' r ↔ alive w r := by
  unfold W.alive
  cases hx : w.getRec r with
  | none => rw [h.recOf r hx]
  | some x => obtain ⟨y, hy, e, _⟩ := h.recTo r x hx; rw [hy]; simp [e]

/-- The index of key `k` of object `o`. -/
def indexOf (w : World K V Ty) (o : Nat) (k : K) : Option (Col V Ty) := (w.getObj o).bind fun x => mget x.cols k

theorem KeyFrame.index {k : K} {w w' : World K V Ty} (h : KeyFrame k w w') (o : Nat) {k' : K} (hk : k' ≠ k) : indexOf w' o k' = indexOf w o k' := by
  unfold indexOf
  cases hx : w.getObj o with
  | none => rw [h.objOf o hx]
  | some x => obtain ⟨y, hy, _, _, _, _, _, e⟩ := h.objTo o x hx; rw [hy]; exact e k' hk

theorem KeyFrame.loop {A : Type} {k : K} {f : World K V Ty → A → Option (World K V Ty)} (hf : ∀ w w' a, f w a = some w' → KeyFrame k w w')
    (l : List A) {w w' : World K V Ty} (h : loop f l w = some w') : KeyFrame k w w' :=
  loop_inv (fun w1 => KeyFrame k w w1) _ _ _ _ (fun a _ b b' hb hh => hb.trans (hf b b' a hh)) (.refl k w) h

theorem KeyFrame.putRec {k : K} {w : World K V Ty} {r : Nat} {x y : Rec K V} (hx : w.getRec r = some x) (h1 : y.valid = x.valid) (h2 : y.refs = x.refs)
    (h3 : y.deps = x.deps) (h4 : ∀ k', k' ≠ k → mget y.data k' = mget x.data k') : KeyFrame k w (w.putRec r y) := by
  refine ⟨fun r' x' hx' => ?_, fun r' hn => ?_, rfl, fun _ x h => ⟨x, h, rfl, rfl, rfl, rfl, rfl, fun _ _ => rfl⟩, fun _ h => h⟩
  · simp only [getRec_putRec]
    split
    · rename_i e; subst e; rw [hx] at hx'; cases hx'; exact ⟨y, rfl, h1, h2, h3, h4⟩
    · exact ⟨x', hx', rfl, rfl, rfl, fun _ _ => rfl⟩
  · simp only [getRec_putRec]
    split
    · rename_i e; subst e; rw [hx] at hn; cases hn
    · exact hn

theorem KeyFrame.putObj {k : K} {w : World K V Ty} {o : Nat} {x y : Obj K V Ty} (hx : w.getObj o = some x) (h1 : y.isSet = x.isSet) (h2 : y.parent = x.parent)
    (h3 : y.recs = x.recs) (h4 : y.sets = x.sets) (h5 : y.isBase = x.isBase) (h6 : ∀ k', k' ≠ k → mget y.cols k' = mget x.cols k') : KeyFrame k w (w.putObj o y) := by
  refine ⟨fun _ x h => ⟨x, h, rfl, rfl, rfl, fun _ _ => rfl⟩, fun _ h => h, rfl, fun o' x' hx' => ?_, fun o' hn => ?_⟩
  · simp only [getObj_putObj]
    split
    · rename_i e; subst e; rw [hx] at hx'; cases hx'; exact ⟨y, rfl, h1, h2, h3, h4, h5, h6⟩
    · exact ⟨x', hx', rfl, rfl, rfl, rfl, rfl, fun _ _ => rfl⟩
  · simp only [getObj_putObj]
    split
    · rename_i e; subst e; rw [hx] at hn; cases hn
    · exact hn

theorem writeCell_kf {k : K} {w w' : World K V Ty} {p : Nat × V} (h : writeCell k w p = some w') : KeyFrame k w w' := by
  simp only [writeCell, Option.map_eq_some_iff] at h
  obtain ⟨x, hx, rfl⟩ := h
  exact .putRec hx rfl rfl rfl (fun k' hk => by simp [mget_mput, Ne.symm hk])

theorem dropCell_objs {k : K} {w w' : World K V Ty} {r : Nat} (h : dropCell k w r = some w') : w'.objs = w.objs := by
  simp only [dropCell, Option.map_eq_some_iff] at h
  obtain ⟨x, _, rfl⟩ := h; rfl

theorem dropCell_kf {k : K} {w w' : World K V Ty} {r : Nat} (h : dropCell k w r = some w') : KeyFrame k w w' := by
  simp only [dropCell, Option.map_eq_some_iff] at h
  obtain ⟨x, hx, rfl⟩ := h
  exact .putRec hx rfl rfl rfl (fun k' hk => by simp [mget_mdel, Ne.symm hk])

theorem withKey_kf {k : K} {w : World K V Ty} {o : Nat} {x : Obj K V Ty} (hx : w.getObj o = some x) (d : V) (u : Bool) (c : Col V Ty) :
    KeyFrame k w (w.putObj o (x.withKey k d u c)) :=
  .putObj hx rfl rfl rfl rfl rfl (fun k' hk => by simp [Obj.withKey, mget_mput, Ne.symm hk])

theorem addKeyLocal_kf {env : Env} {w w' : World K V Ty} {o : Nat} {k : K} {d : V} {res : Res K} (h : addKeyLocal env w o k d = some (w', res)) :
    KeyFrame k w w' ∧ ∀ o', o' ≠ o → w'.getObj o' = w.getObj o' := by
  simp only [addKeyLocal, Option.bind_eq_bind, Option.bind_eq_some_iff] at h
  obtain ⟨vo, hvo, h⟩ := h
  split at h
  · cases h; exact ⟨.refl _ _, fun _ _ => rfl⟩
  · simp only [Option.bind_eq_some_iff] at h
    obtain ⟨w1, h1, h⟩ := h
    cases h
    have e : w1.objs = w.objs := loop_objs (fun _ _ _ h => writeCell_objs h) _ h1
    have hobj : w1.getObj o = some vo := by unfold World.getObj at hvo ⊢; rw [e]; exact hvo
    refine ⟨(KeyFrame.loop (fun _ _ _ h => writeCell_kf h) _ h1).trans (withKey_kf hobj d false _), fun o' hne => ?_⟩
    rw [getObj_putObj, if_neg (Ne.symm hne)]; unfold World.getObj; rw [e]

theorem addUniqueLocal_kf {env : Env} {w w' : World K V Ty} {o : Nat} {k : K} {t : Ty} {noFn : Bool} {f : Nat → Nat → V} {res : Res K}
    (h : addUniqueLocal env w o k t noFn f = some (w', res)) : KeyFrame k w w' ∧ ∀ o', o' ≠ o → w'.getObj o' = w.getObj o' := by
  simp only [addUniqueLocal, Option.bind_eq_bind, Option.bind_eq_some_iff] at h
  obtain ⟨vo, hvo, h⟩ := h
  split at h
  · cases h; exact ⟨.refl _ _, fun _ _ => rfl⟩
  split at h
  · cases h; exact ⟨.refl _ _, fun _ _ => rfl⟩
  split at h
  · cases h; exact ⟨.refl _ _, fun _ _ => rfl⟩
  rename_i c hc
  have e1 : ∃ w0 : World K V Ty, KeyFrame k w w0 ∧ w0.objs = w.objs ∧ w' = w0.putObj o (vo.withKey k (zero t) true c) := by
    split at h
    · simp only [Option.bind_eq_some_iff, Option.some.injEq, Prod.mk.injEq] at h
      obtain ⟨w0, h0, rfl, rfl⟩ := h
      exact ⟨w0, KeyFrame.loop (fun _ _ _ h => writeCell_kf h) _ h0, loop_objs (fun _ _ _ h => writeCell_objs h) _ h0, rfl⟩
    · simp only [Option.bind_some, Option.some.injEq, Prod.mk.injEq] at h
      obtain ⟨rfl, rfl⟩ := h; exact ⟨w, .refl _ _, rfl, rfl⟩
  obtain ⟨w0, kf, e, rfl⟩ := e1
  have hobj : w0.getObj o = some vo := by unfold World.getObj at hvo ⊢; rw [e]; exact hvo
  refine ⟨kf.trans (withKey_kf hobj _ _ _), fun o' hne => ?_⟩
  rw [getObj_putObj, if_neg (Ne.symm hne)]; unfold World.getObj; rw [e]

theorem pushKey_kf {k : K} {w w' : World K V Ty} {s : Nat} (h : pushKey k w s = some w') : KeyFrame k w w' ∧ ∀ o', o' ≠ s → w'.getObj o' = w.getObj o' := by
  simp only [pushKey, Option.map_eq_some_iff] at h
  obtain ⟨so, hso, rfl⟩ := h
  exact ⟨.putObj hso rfl rfl rfl rfl rfl (fun _ _ => rfl), fun o' hne => by rw [getObj_putObj, if_neg (Ne.symm hne)]⟩

theorem withoutKey_kf {k : K} {w : World K V Ty} {o : Nat} {x : Obj K V Ty} (hx : w.getObj o = some x) : KeyFrame k w (w.putObj o (x.withoutKey k)) :=
  .putObj hx rfl rfl rfl rfl rfl (fun k' hk => by simp [Obj.withoutKey, mget_mdel, Ne.symm hk])

theorem removeKeyLocal_kf {k : K} {w w' : World K V Ty} {s : Nat} (h : removeKeyLocal k w s = some w') :
    KeyFrame k w w' ∧ (∀ o', o' ≠ s → w'.getObj o' = w.getObj o') ∧ indexOf w' s k = none ∧ w'.recs = w.recs := by
  simp only [removeKeyLocal, Option.map_eq_some_iff] at h
  obtain ⟨so, hso, rfl⟩ := h
  split
  · refine ⟨withoutKey_kf hso, fun o' hne => by rw [getObj_putObj, if_neg (Ne.symm hne)], ?_, rfl⟩
    unfold indexOf; rw [getObj_putObj_self]; simp [Obj.withoutKey, mget_mdel]
  · rename_i hk
    exact ⟨.refl _ _, fun _ _ => rfl, by unfold indexOf; rw [hso]; exact mhas_none hk, rfl⟩

/-- A loop over objects other than `o`. -/
theorem loop_other {f : World K V Ty → Nat → Option (World K V Ty)} {o : Nat} (hf : ∀ w w' s, s ≠ o → f w s = some w' → w'.getObj o = w.getObj o)
    (l : List Nat) (hl : o ∉ l) {w w' : World K V Ty} (h : loop f l w = some w') : w'.getObj o = w.getObj o :=
  loop_inv (fun w1 => w1.getObj o = w.getObj o) _ _ _ _ (fun a ha b b' hb hh => (hf b b' a (fun e => hl (e ▸ ha)) hh).trans hb) rfl h

theorem not_own_set {w : World K V Ty} (hi : AI w) {o : Nat} {vo : Obj K V Ty} (ho : w.getObj o = some vo) (hs : vo.isSet = false) (env : Env) : o ∉ env.perm vo.sets := by
  intro hm
  have := (sets_notVault hi ho env o hm).obj ho
  rw [hs] at this; cases this

/-- The cell of `k` of the records in `l` after writing `d` everywhere. -/
theorem loop_writeCell_value {k : K} {d : V} (l : List Nat) {w w' : World K V Ty} (h : loop (writeCell k) (l.map (·, d)) w = some w') :
    ∀ r, (r ∈ l ∨ value w r k = some d) → value w' r k = some d := by
  induction l generalizing w with
  | nil => simp only [List.map_nil, loop, Option.some.injEq] at h; subst h; simp
  | cons a l ih =>
    simp only [List.map_cons, loop, Option.bind_eq_some_iff] at h
    obtain ⟨w1, h1, h2⟩ := h
    intro r hr
    apply ih h2 r
    simp only [writeCell, Option.map_eq_some_iff] at h1
    obtain ⟨x, hx, rfl⟩ := h1
    by_cases e : a = r
    · subst e; right; simp [value, getRec_putRec, mget_mput]
    · rcases hr with hr | hr
      · rcases List.mem_cons.mp hr with e' | hr
        · exact absurd e'.symm e
        · exact .inl hr
      · right; simpa [value, getRec_putRec, e] using hr

theorem addKeyLocal_value {env : Env} {w w' : World K V Ty} {o : Nat} {k : K} {d : V} {res : Res K} (h : addKeyLocal env w o k d = some (w', res)) {r : Nat}
    (hr : value w r k = some d ∨ (r ∈ members w o ∧ res.ok = true)) : value w' r k = some d := by
  simp only [addKeyLocal, Option.bind_eq_bind, Option.bind_eq_some_iff] at h
  obtain ⟨vo, hvo, h⟩ := h
  split at h
  · cases h
    rcases hr with hr | ⟨_, hr⟩
    · exact hr
    · simp [Res.bad] at hr
  · simp only [Option.bind_eq_some_iff] at h
    obtain ⟨w1, h1, h⟩ := h
    cases h
    exact loop_writeCell_value _ h1 r (hr.symm.imp (fun h => (env.isPerm _).mem_iff.mpr (by rw [← members_eq hvo]; exact h.1)) id)

theorem fold_add_hash (l : List Nat) (d : V) {c : Col V Ty} (hm : c.multi = true) :
    (l.foldl (fun c r => (c.add d r).1) c).hash.Perm (c.hash ++ l.map (d, ·)) := by
  induction l generalizing c with
  | nil => simp
  | cons a l ih =>
    have hm' : (c.add d a).1.multi = true := by rw [(Col.add_shape c d a).2.1]; exact hm
    have e : (c.add d a).1.hash.Perm (c.hash ++ [(d, a)]) := by
      unfold Col.add; rw [if_neg (by simp [hm])]; simp [hashEmplace, hm]
    rw [List.foldl_cons]
    refine (ih hm').trans ((e.append_right _).trans ?_)
    simp

theorem loop_dropCell_value {k : K} (l : List Nat) {w w' : World K V Ty} (h : loop (dropCell k) l w = some w') :
    ∀ r, (r ∈ l ∨ value w r k = none) → value w' r k = none := by
  induction l generalizing w with
  | nil => simp only [loop, Option.some.injEq] at h; subst h; simp
  | cons a l ih =>
    simp only [loop, Option.bind_eq_some_iff] at h
    obtain ⟨w1, h1, h2⟩ := h
    intro r hr
    apply ih h2 r
    simp only [dropCell, Option.map_eq_some_iff] at h1
    obtain ⟨x, hx, rfl⟩ := h1
    by_cases e : a = r
    · subst e; right; simp [value, getRec_putRec, mget_mdel]
    · rcases hr with hr | hr
      · rcases List.mem_cons.mp hr with e' | hr
        · exact absurd e'.symm e
        · exact .inl hr
      · right; simpa [value, getRec_putRec, e] using hr

theorem loop_removeKeyLocal_index {k : K} (l : List Nat) {w w' : World K V Ty} (h : loop (removeKeyLocal k) l w = some w') :
    ∀ s, (s ∈ l ∨ indexOf w s k = none) → indexOf w' s k = none := by
  induction l generalizing w with
  | nil => simp only [loop, Option.some.injEq] at h; subst h; simp
  | cons a l ih =>
    simp only [loop, Option.bind_eq_some_iff] at h
    obtain ⟨w1, h1, h2⟩ := h
    intro s hs
    apply ih h2 s
    obtain ⟨_, g1, g2, _⟩ := removeKeyLocal_kf h1
    by_cases e : a = s
    · subst e; exact .inr g2
    · rcases hs with hs | hs
      · rcases List.mem_cons.mp hs with e' | hs
        · exact absurd e'.symm e
        · exact .inl hs
      · right; unfold indexOf; rw [g1 s (Ne.symm e)]; exact hs

end MVault.W
