import Verif.WorldVault6
/-
Look-ups, and new sets made by copying or moving.
-/
set_option linter.unusedSectionVars false
set_option linter.unusedSimpArgs false
namespace MVault.W
variable {K V Ty : Type} [LinearOrder K] [LinearOrder V] [Typed V Ty] [DecidableEq Ty]
variable {own home : Nat → Nat}

/-- New references to a list of existing records. -/
theorem loop_newRefTo {o : Nat} {oo : Obj K V Ty} {l : List Nat} {w : World K V Ty} (h : Inv own home w) (ho : w.getObj o = some oo)
    (hl : ∀ r ∈ l, (∃ x, w.getRec r = some x ∧ x.valid = true) ∧ own r = if oo.isSet = true then home o else o) :
    ∃ w', loop (fun w r => newRefTo w r o) l w = some w' ∧ RStep own home w w' ∧ w'.refs = w.refs ++ l.map (fun r => ⟨some r, some o⟩) := by
  induction l generalizing w with
  | nil => exact ⟨w, rfl, ⟨.refl _, h.r⟩, by simp⟩
  | cons r l ih =>
    obtain ⟨⟨x, hx, hv⟩, hr⟩ := hl r (by simp)
    obtain ⟨w1, e1, st1, rf1⟩ := newRefTo_ok h.r h.v.ltO ho hx hr
    obtain ⟨w2, e2, st2, rf2⟩ := ih (st1.inv h) (by rw [st1.rf.obj]; exact ho) (by
      intro r' hr'
      obtain ⟨⟨x', hx', hv'⟩, hr2⟩ := hl r' (by simp [hr'])
      obtain ⟨y, hy, _, hyv, _⟩ := st1.rf.recTo' hx' hv'
      exact ⟨⟨y, hy, hyv⟩, hr2⟩)
    exact ⟨w2, by simp only [loop, e1, Option.bind_some]; exact e2, st1.trans st2, by rw [rf2, rf1]; simp⟩

theorem getRecord_spec {env : Env} {w w' : World K V Ty} {o f : Nat} {vo : Obj K V Ty} {k : K} {v : V} {res : Res K}
    (hi : Inv own home w) (ho : w.getObj o = some vo) (hs : vo.isSet = false) (h : getRecord env w o k v f = some (w', res)) :
    (w' = w ∧ checkKey vo k (typeOf v) = .error res) ∨
    (∃ c, checkKey vo k (typeOf v) = .ok c ∧ mget vo.cols k = some c ∧ RStep own home w w' ∧
      ((res = .bad .WrongValue (some k) ∧ equalRange env c v = [] ∧ w'.refs = w.refs.set f ⟨none, some o⟩) ∨
      ∃ r l, equalRange env c v = r :: l ∧ res = .good (some k) ∧ r ∈ vo.recs ∧ cellOf w r k = some v ∧ w'.refs = w.refs.set f ⟨some r, some o⟩)) := by
  simp only [getRecord, ho, Option.bind_eq_bind, Option.bind_some] at h
  cases hc : checkKey vo k (typeOf v) with
  | error e => rw [hc] at h; simp at h; exact .inl ⟨h.1.symm, by rw [h.2]⟩
  | ok c =>
    rw [hc] at h
    dsimp only at h
    have hk := checkKey_ok hc
    refine .inr ⟨c, rfl, hk.1, ?_⟩
    cases he : equalRange env c v with
    | nil =>
      rw [he] at h
      simp only [Option.map_eq_some_iff, Prod.mk.injEq] at h
      obtain ⟨w1, h1, rfl, rfl⟩ := h
      have hf : ∃ old, w.refs[f]? = some old := by
        simp only [setRecord, Option.bind_eq_bind, Option.bind_eq_some_iff] at h1
        obtain ⟨_, _, old, hold, _⟩ := h1
        exact ⟨old, hold⟩
      obtain ⟨old, hf⟩ := hf
      obtain ⟨w2, e2, st, rf⟩ := setRecord_ok (p := none) hi.r hi.v.ltO ho hf (by simp) (by simp)
      rw [h1] at e2; cases e2
      exact ⟨st, .inl ⟨rfl, rfl, rf⟩⟩
    | cons r l =>
      rw [he] at h
      simp only [Option.map_eq_some_iff, Prod.mk.injEq] at h
      obtain ⟨w1, h1, rfl, rfl⟩ := h
      have hf : ∃ old, w.refs[f]? = some old := by
        simp only [setRecord, Option.bind_eq_bind, Option.bind_eq_some_iff] at h1
        obtain ⟨_, _, old, hold, _⟩ := h1
        exact ⟨old, hold⟩
      obtain ⟨old, hf⟩ := hf
      obtain ⟨hr, hcell⟩ := (equalRange_vault (env := env) hi ho hs hk.1 v).2 r (by rw [he]; simp)
      obtain ⟨hown, x, hx, _⟩ := hi.v.mem o vo ho hs r hr
      obtain ⟨w2, e2, st, rf⟩ := setRecord_ok (p := some r) hi.r hi.v.ltO ho hf
        (by intro r' e; cases e; exact ⟨x, hx⟩) (by intro r' e; cases e; simp [hs, hown])
      rw [h1] at e2; cases e2
      exact ⟨st, .inr ⟨r, l, rfl, rfl, hr, hcell, rf⟩⟩

theorem getRecords_spec {env : Env} {w w' : World K V Ty} {o n : Nat} {vo : Obj K V Ty} {k : K} {v : V} {res : Res K}
    (hi : Inv own home w) (ho : w.getObj o = some vo) (hs : vo.isSet = false) (h : getRecords env w o k v n = some (w', res)) :
    (w' = w ∧ checkKey vo k (typeOf v) = .error res) ∨
    (∃ c, checkKey vo k (typeOf v) = .ok c ∧ mget vo.cols k = some c ∧
      ((w' = w ∧ res = .bad .WrongValue (some k) ∧ equalRange env c v = []) ∨
      (equalRange env c v ≠ [] ∧ res = .good (some k) ∧ RStep own home w w' ∧
        w'.refs = w.refs ++ ((equalRange env c v).take (max n 1)).map (fun r => ⟨some r, some o⟩)))) := by
  simp only [getRecords, ho, Option.bind_eq_bind, Option.bind_some] at h
  cases hc : checkKey vo k (typeOf v) with
  | error e => rw [hc] at h; simp at h; exact .inl ⟨h.1.symm, by rw [h.2]⟩
  | ok c =>
    rw [hc] at h
    dsimp only at h
    have hk := checkKey_ok hc
    refine .inr ⟨c, rfl, hk.1, ?_⟩
    cases he : equalRange env c v with
    | nil => rw [he] at h; simp at h; exact .inl ⟨h.1.symm, h.2.symm, rfl⟩
    | cons r l =>
      rw [he] at h
      simp only [Option.map_eq_some_iff, Prod.mk.injEq] at h
      obtain ⟨w1, h1, rfl, rfl⟩ := h
      obtain ⟨w2, e2, st, rf⟩ := loop_newRefTo (l := (r :: l).take (max n 1)) hi ho (by
        intro r' hr'
        obtain ⟨hr, hcell⟩ := (equalRange_vault (env := env) hi ho hs hk.1 v).2 r' (by rw [he]; exact List.mem_of_mem_take hr')
        obtain ⟨hown, x, hx, hxv⟩ := hi.v.mem o vo ho hs r' hr
        exact ⟨⟨x, hx, hxv⟩, by simp [hs, hown]⟩)
      rw [h1] at e2; cases e2
      exact .inr ⟨by simp, rfl, st, rf⟩

/-- References to records of a set. -/
theorem loop_newRefTo_part {o : Nat} {oo : Obj K V Ty} {l : List Nat} {w w' : World K V Ty} (h : Inv own home w) (ho : w.getObj o = some oo)
    (hl : ∀ r ∈ l, own r = if oo.isSet = true then home o else o) (hh : loop (fun w r => newRefTo w r o) l w = some w') :
    RStep own home w w' ∧ w'.refs = w.refs ++ l.map (fun r => ⟨some r, some o⟩) := by
  induction l generalizing w with
  | nil => simp only [loop, Option.some.injEq] at hh; subst hh; exact ⟨⟨.refl _, h.r⟩, by simp⟩
  | cons r l ih =>
    simp only [loop, Option.bind_eq_some_iff] at hh
    obtain ⟨w1, h1, hh⟩ := hh
    have hx : ∃ x, w.getRec r = some x := by
      simp only [newRefTo, setRecord, optStep, addRef, Option.bind_eq_bind, Option.bind_eq_some_iff, Option.map_eq_some_iff] at h1
      obtain ⟨_, _, _, _, _, ⟨x, hx, _⟩, _⟩ := h1
      exact ⟨x, hx⟩
    obtain ⟨x, hx⟩ := hx
    obtain ⟨w2, e2, st1, rf1⟩ := newRefTo_ok h.r h.v.ltO ho hx (hl r (by simp))
    rw [h1] at e2; cases e2
    obtain ⟨st2, rf2⟩ := ih (st1.inv h) (by rw [st1.rf.obj]; exact ho) (fun r' hr' => hl r' (by simp [hr'])) hh
    exact ⟨st1.trans st2, by rw [rf2, rf1]; simp⟩

theorem sortedIds_mem {vo : Obj K V Ty} {k : K} {rev : Bool} {n : Option Nat} {r : Nat} (h : r ∈ sortedIds vo k rev n) :
    ∃ c v, mget vo.cols k = some c ∧ (v, r) ∈ c.ord := by
  unfold sortedIds at h
  split at h
  · simp at h
  · rename_i c hc
    have : r ∈ (if rev = true then c.ord.reverse else c.ord).map (·.2) := by
      cases n with
      | none => exact h
      | some n => exact List.mem_of_mem_take h
    rw [List.mem_map] at this
    obtain ⟨⟨v, r'⟩, hm, rfl⟩ := this
    refine ⟨c, v, hc, ?_⟩
    split at hm
    · simpa using hm
    · exact hm

theorem getSorted_spec {w w' : World K V Ty} {o : Nat} {oo : Obj K V Ty} {k : K} {rev : Bool} {n : Option Nat}
    (hi : Inv own home w) (ho : w.getObj o = some oo) (h : getSorted w o k rev n = some w') :
    RStep own home w w' ∧ w'.refs = w.refs ++ (if oo.isSet = true ∧ oo.parent = none then [] else
      (sortedIds oo k rev n).map (fun r => ⟨some r, some o⟩)) := by
  simp only [getSorted, ho, Option.bind_eq_bind, Option.bind_some] at h
  split at h
  · rename_i e; cases h; exact ⟨⟨.refl _, hi.r⟩, by rw [if_pos e]; simp⟩
  · rename_i e
    rw [if_neg e]
    refine loop_newRefTo_part hi ho ?_ h
    intro r hr
    obtain ⟨c, v, hc, hm⟩ := sortedIds_mem hr
    by_cases hs : oo.isSet = true
    · rw [if_pos hs]
      exact (((hi.s.sets o oo ho hs).cols k c hc).ord _ hm).1
    · have hs' : oo.isSet = false := by simpa using hs
      rw [if_neg hs]
      have := ((hi.v.vok o oo ho hs').cols k c hc).ordS v r hm
      exact (hi.v.mem o oo ho hs' r this.1).1

theorem set_getElem?_self {l : List Ref} {f : Nat} {x : Ref} (h : l[f]? = some x) (y : Ref) : (l.set f y)[f]? = some y := by
  have : f < l.length := by
    rw [List.getElem?_eq_some_iff] at h; exact h.1
  rw [List.getElem?_set_self this]

/-- Pointing a reference at another vault. -/
theorem repoint' {w : World K V Ty} {f p : Nat} {po : Obj K V Ty} {ref : Ref} (hi : Inv own home w)
    (hf : w.refs[f]? = some ref) (hp : w.getObj p = some po) (hpv : po.isSet = false) (hown : ∀ r, ref.ptr = some r → own r = p) :
    RStep own home w ({ w with refs := w.refs.set f ⟨ref.ptr, some p⟩ } : World K V Ty) := by
  refine ⟨.setRefs _ _, ?_⟩
  refine hi.r.install (.refl w) hi.r.cntOk ?_ ?_
  · intro r
    have := refCount_set (⟨ref.ptr, some p⟩ : Ref) hf r
    simp only at this
    unfold refCount
    omega
  · intro g hg
    rcases List.mem_or_eq_of_mem_set hg with hg | rfl
    · exact .inl hg
    · refine .inr ?_
      intro r hr
      refine ⟨⟨p, rfl, hi.v.ltO _ _ hp⟩, ?_⟩
      intro o oo ho hoo
      cases ho
      rw [hp] at hoo; cases hoo
      simp [hpv, hown r hr]

/-- `GetRecord` on a set: either nothing but a failure and (possibly) the vault of the reference, or a record found in the index. -/
theorem setGetRecord_spec {env : Env} {w w' : World K V Ty} {s f : Nat} {so : Obj K V Ty} {k : K} {v : V} {res : Res K}
    (hi : Inv own home w) (hs : w.getObj s = some so) (his : so.isSet = true)
    (hg : ∀ ref r e p, w.refs[f]? = some ref → ref.ptr = some r → checkKey so k (typeOf v) = .error e → so.parent = some p → ref.vlt = some p)
    (h : setGetRecord env w s k v f = some (w', res)) :
    RStep own home w w' ∧
    ((w' = w ∧ so.parent = none ∧ res = .bad .ParentVaultNotValid (some k)) ∨
    (∃ p ref, so.parent = some p ∧ w.refs[f]? = some ref ∧
      ((checkKey so k (typeOf v) = .error res ∧ w'.refs = w.refs.set f ⟨ref.ptr, some p⟩) ∨
      (∃ c, checkKey so k (typeOf v) = .ok c ∧ res = .bad .WrongValue (some k) ∧ equalRange env c v = [] ∧ w'.refs = w.refs.set f ⟨none, some p⟩) ∨
      (∃ c r l, checkKey so k (typeOf v) = .ok c ∧ equalRange env c v = r :: l ∧ res = .good (some k) ∧ w'.refs = w.refs.set f ⟨some r, some p⟩)))) := by
  have ok := hi.s.sets s so hs his
  simp only [setGetRecord, hs, Option.bind_eq_bind, Option.bind_some] at h
  cases hp : so.parent with
  | none => rw [hp] at h; simp at h; rw [← h.1, ← h.2]; exact ⟨⟨.refl _, hi.r⟩, .inl ⟨rfl, rfl, rfl⟩⟩
  | some p =>
    rw [hp] at h
    simp only [Option.bind_eq_some_iff, Option.some.injEq, Prod.mk.injEq, Prod.exists] at h
    obtain ⟨w1, res1, h1, ref, hr1, rfl, rfl⟩ := h
    obtain ⟨po, hpo, hpv, _⟩ := hi.l.up s so p hs his hp
    have hph := ok.par p hp
    simp only [getRecord, hs, Option.bind_eq_bind, Option.bind_some] at h1
    cases hc : checkKey so k (typeOf v) with
    | error e =>
      rw [hc] at h1; simp at h1
      obtain ⟨rfl, rfl⟩ := h1
      refine ⟨repoint' hi hr1 hpo hpv ?_, .inr ⟨p, ref, rfl, hr1, .inl ⟨rfl, rfl⟩⟩⟩
      intro r hr
      have := hi.r.own ref (mem_of_get hr1) r p po hr (hg ref r e p hr1 hr hc hp) hpo
      rw [this]; simp [hpv]
    | ok c =>
      rw [hc] at h1
      dsimp only at h1
      have hk := checkKey_ok hc
      have hf : ∃ old, w.refs[f]? = some old := by
        cases he : equalRange env c v with
        | nil =>
          rw [he] at h1
          simp only [setRecord, Option.map_eq_some_iff, Option.bind_eq_bind, Option.bind_eq_some_iff] at h1
          obtain ⟨_, ⟨_, _, old, hold, _⟩, _⟩ := h1
          exact ⟨old, hold⟩
        | cons r l =>
          rw [he] at h1
          simp only [setRecord, Option.map_eq_some_iff, Option.bind_eq_bind, Option.bind_eq_some_iff] at h1
          obtain ⟨_, ⟨_, _, old, hold, _⟩, _⟩ := h1
          exact ⟨old, hold⟩
      obtain ⟨old, hf⟩ := hf
      cases he : equalRange env c v with
      | nil =>
        rw [he] at h1
        simp only [Option.map_eq_some_iff, Prod.mk.injEq] at h1
        obtain ⟨w2, h2, rfl, rfl⟩ := h1
        obtain ⟨w3, e3, st, rf⟩ := setRecord_ok (p := none) hi.r hi.v.ltO hs hf (by simp) (by simp)
        rw [h2] at e3; cases e3
        have hr2 := hr1
        rw [rf, set_getElem?_self hf] at hr2; cases hr2
        have i2 := st.inv hi
        refine ⟨st.trans (repoint' (p := p) i2 hr1 (by rw [st.rf.obj]; exact hpo) hpv (by simp)), .inr ⟨p, old, rfl, hf, .inr (.inl ⟨c, rfl, rfl, he, ?_⟩)⟩⟩
        show (w2.refs.set f _) = _
        rw [rf, List.set_set]
      | cons r l =>
        rw [he] at h1
        simp only [Option.map_eq_some_iff, Prod.mk.injEq] at h1
        obtain ⟨w2, h2, rfl, rfl⟩ := h1
        have hm : (v, r) ∈ c.hash := equalRange_mem.mp (by rw [he]; simp)
        have hown := ((ok.cols k c hk.1).hash _ hm).1
        have hx : ∃ x, w.getRec r = some x := by
          simp only [setRecord, optStep, addRef, Option.bind_eq_bind, Option.bind_eq_some_iff, Option.map_eq_some_iff] at h2
          obtain ⟨_, _, _, _, _, ⟨x, hx, _⟩, _⟩ := h2
          exact ⟨x, hx⟩
        obtain ⟨w3, e3, st, rf⟩ := setRecord_ok (p := some r) hi.r hi.v.ltO hs hf (by intro r' e; cases e; exact hx)
          (by intro r' e; cases e; simp [his]; exact hown)
        rw [h2] at e3; cases e3
        have hr2 := hr1
        rw [rf, set_getElem?_self hf] at hr2; cases hr2
        have i2 := st.inv hi
        refine ⟨st.trans (repoint' (p := p) i2 hr1 (by rw [st.rf.obj]; exact hpo) hpv (by intro r' e; cases e; rw [hph]; exact hown)),
          .inr ⟨p, old, rfl, hf, .inr (.inr ⟨c, r, l, rfl, he, rfl, ?_⟩)⟩⟩
        show (w2.refs.set f _) = _
        rw [rf, List.set_set]

theorem setGetRecords_spec {env : Env} {w w' : World K V Ty} {s n : Nat} {so : Obj K V Ty} {k : K} {v : V} {res : Res K}
    (hi : Inv own home w) (hs : w.getObj s = some so) (his : so.isSet = true) (h : setGetRecords env w s k v n = some (w', res)) :
    RStep own home w w' ∧
    ((w' = w ∧ so.parent = none ∧ res = .bad .ParentVaultNotValid (some k)) ∨
    (∃ p, so.parent = some p ∧ ((w' = w ∧ checkKey so k (typeOf v) = .error res) ∨
    (∃ c, checkKey so k (typeOf v) = .ok c ∧
      ((w' = w ∧ res = .bad .WrongValue (some k) ∧ equalRange env c v = []) ∨
      (equalRange env c v ≠ [] ∧ res = .good (some k) ∧
        w'.refs = w.refs ++ ((equalRange env c v).take (max n 1)).map (fun r => ⟨some r, some p⟩))))))) := by
  have ok := hi.s.sets s so hs his
  simp only [setGetRecords, hs, Option.bind_eq_bind, Option.bind_some] at h
  cases hp : so.parent with
  | none => rw [hp] at h; simp at h; rw [← h.1, ← h.2]; exact ⟨⟨.refl _, hi.r⟩, .inl ⟨rfl, rfl, rfl⟩⟩
  | some p =>
    rw [hp] at h
    obtain ⟨po, hpo, hpv, _⟩ := hi.l.up s so p hs his hp
    have hph := ok.par p hp
    simp only [hpo, Option.bind_some] at h
    cases hc : checkKey so k (typeOf v) with
    | error e =>
      rw [hc] at h; simp at h
      obtain ⟨rfl, rfl⟩ := h
      exact ⟨⟨.refl _, hi.r⟩, .inr ⟨p, rfl, .inl ⟨rfl, rfl⟩⟩⟩
    | ok c =>
      rw [hc] at h
      dsimp only at h
      have hk := checkKey_ok hc
      cases he : equalRange env c v with
      | nil =>
        rw [he] at h; simp at h
        obtain ⟨rfl, rfl⟩ := h
        exact ⟨⟨.refl _, hi.r⟩, .inr ⟨p, rfl, .inr ⟨c, rfl, .inl ⟨rfl, rfl, he⟩⟩⟩⟩
      | cons r l =>
        rw [he] at h
        simp only [Option.map_eq_some_iff, Prod.mk.injEq] at h
        obtain ⟨w1, h1, rfl, rfl⟩ := h
        obtain ⟨st, rf⟩ := loop_newRefTo_part hi hpo (by
          intro r' hr'
          have hm : (v, r') ∈ c.hash := equalRange_mem.mp (by rw [he]; exact List.mem_of_mem_take hr')
          rw [((ok.cols k c hk.1).hash _ hm).1]; simp [hpv, hph]) h1
        exact ⟨st, .inr ⟨p, rfl, .inr ⟨c, rfl, .inr ⟨by simp [he], rfl, by rw [he]; exact rf⟩⟩⟩⟩

/-! ### New sets by copy and move -/

theorem getObj_freshSelf (w : World K V Ty) (s : Nat) (x : Obj K V Ty) (n : Nat) :
    ({ w with objs := mput w.objs s x, nextO := n } : World K V Ty).getObj s = some x := by
  simp [World.getObj, mget_mput]

/-- The flag a set starts with does not matter: `CopySet` overwrites it. -/
theorem copySet_flag (env : Env) (w : World K V Ty) (s a n : Nat) (hsa : s ≠ a) (hp : ∀ ao, w.getObj a = some ao → ao.parent ≠ some s) :
    copySet env ({ w with objs := mput w.objs s { Obj.newSet with isBase := true }, nextO := n } : World K V Ty) s a =
    copySet env ({ w with objs := mput w.objs s Obj.newSet, nextO := n } : World K V Ty) s a := by
  simp only [copySet, getObj_freshSelf, Option.bind_eq_bind, Option.bind_some]
  have h1 : ∀ (x : Obj K V Ty) y, y ≠ s → ({ w with objs := mput w.objs s x, nextO := n } : World K V Ty).getObj y = w.getObj y := by
    intro x y hy; simp [World.getObj, mget_mput, Ne.symm hy]
  rw [h1 _ a (Ne.symm hsa), h1 _ a (Ne.symm hsa)]
  cases ha : w.getObj a with
  | none => rfl
  | some ao =>
    simp only [Option.bind_some]
    cases hpa : ao.parent with
    | none => rfl
    | some p =>
      have hps : p ≠ s := by rintro rfl; exact hp ao ha hpa
      simp only [Option.bind_some]
      rw [h1 _ p hps, h1 _ p hps]
      simp only [World.putObj, mput_mput, Obj.newSet]

theorem moveDep_objs (s a r : Nat) (w : World K V Ty) (X : List (Nat × Obj K V Ty)) :
    moveDep s a ({ w with objs := X } : World K V Ty) r = (moveDep s a w r).map fun w' => { w' with objs := X } := by
  simp only [moveDep, eraseDep, addDep, World.getRec, World.putRec, Option.bind_eq_bind]
  cases mget w.recs r with
  | none => rfl
  | some x => simp [mget_mput]

theorem loop_moveDep_objs (s a : Nat) (l : List Nat) (w : World K V Ty) (X : List (Nat × Obj K V Ty)) :
    loop (moveDep s a) l ({ w with objs := X } : World K V Ty) = (loop (moveDep s a) l w).map fun w' => { w' with objs := X } := by
  induction l generalizing w with
  | nil => rfl
  | cons r l ih =>
    simp only [loop, moveDep_objs]
    cases moveDep s a w r with
    | none => rfl
    | some w1 => simp only [Option.map_some, Option.bind_some]; exact ih w1

theorem moveSet_flag (env : Env) (w : World K V Ty) (s a n : Nat) (hsa : s ≠ a) (hp : ∀ ao, w.getObj a = some ao → ao.parent ≠ some s) :
    moveSet env ({ w with objs := mput w.objs s { Obj.newSet with isBase := true }, nextO := n } : World K V Ty) s a =
    moveSet env ({ w with objs := mput w.objs s Obj.newSet, nextO := n } : World K V Ty) s a := by
  have h1 : ∀ (x : Obj K V Ty) y, y ≠ s → ({ w with objs := mput w.objs s x, nextO := n } : World K V Ty).getObj y = w.getObj y := by
    intro x y hy; simp [World.getObj, mget_mput, Ne.symm hy]
  simp only [moveSet, Option.bind_eq_bind]
  rw [h1 _ a (Ne.symm hsa), h1 _ a (Ne.symm hsa)]
  cases ha : w.getObj a with
  | none => rfl
  | some ao =>
    simp only [Option.bind_some]
    cases hpa : ao.parent with
    | none => rfl
    | some p =>
      have hps : p ≠ s := by rintro rfl; exact hp ao ha hpa
      simp only [Option.bind_some]
      rw [h1 _ p hps, h1 _ p hps]
      cases hpo : w.getObj p with
      | none => rfl
      | some po =>
        simp only [Option.bind_some]
        have e1 := loop_moveDep_objs s a (env.perm ao.recs) ({ w with nextO := n } : World K V Ty) (mput w.objs s { Obj.newSet with isBase := true })
        have e2 := loop_moveDep_objs s a (env.perm ao.recs) ({ w with nextO := n } : World K V Ty) (mput w.objs s Obj.newSet)
        simp only at e1 e2
        rw [e1, e2]
        cases loop (moveDep s a) (env.perm ao.recs) ({ w with nextO := n } : World K V Ty) with
        | none => rfl
        | some w1 =>
          simp only [Option.map_some, Option.bind_some]
          have g : ∀ x : Obj K V Ty, ({ w1 with objs := mput w.objs s x } : World K V Ty).getObj s = some x := by
            intro x; simp [World.getObj, mget_mput]
          rw [g, g]
          simp only [Option.bind_some, World.putObj, mput_mput, Obj.newSet]

theorem setCopyNew_inv {env : Env} {w w' : World K V Ty} {a : Nat} {ao : Obj K V Ty} (hi : Inv own home w)
    (ha : w.getObj a = some ao) (hai : ao.isSet = true) (hpar : ao.parent ≠ none) (hh : home w.nextO = home a)
    (h : setCopyNew env w a = some w') : Inv own home w' ∧
      ∃ so', w'.getObj w.nextO = some so' ∧ so'.isSet = true ∧ so'.parent = ao.parent ∧ so'.recs = (env.perm ao.recs).foldl setIns [] := by
  simp only [setCopyNew, ha, Option.bind_eq_bind, Option.bind_some, if_neg hpar] at h
  have hlt := hi.v.ltO a ao ha
  have hsa : w.nextO ≠ a := by omega
  rw [copySet_flag env w w.nextO a _ hsa] at h
  · have i1 : Inv own home ({ w with objs := mput w.objs w.nextO Obj.newSet, nextO := w.nextO + 1 } : World K V Ty) := hi.newObj (.inr rfl)
    have ha1 : ({ w with objs := mput w.objs w.nextO Obj.newSet, nextO := w.nextO + 1 } : World K V Ty).getObj a = some ao := by
      rw [getObj_new, if_neg hsa]; exact ha
    obtain ⟨sp, so', k⟩ := copySet_spec i1.q.si (getObj_freshSelf _ _ _ _) rfl rfl ha1 hai hsa (by
      intro p hp; rw [hh]; exact (hi.s.sets a ao ha hai).par p hp) h
    exact ⟨sp.inv i1, so', k⟩
  · intro ao' h' hp
    rw [ha] at h'; cases h'
    obtain ⟨po, hpo, _⟩ := hi.l.up a ao w.nextO ha hai hp
    have := hi.v.ltO _ _ hpo; omega

theorem setCopyNew_sf {env : Env} {w w' : World K V Ty} {a : Nat} {ao : Obj K V Ty} (hi : Inv own home w)
    (ha : w.getObj a = some ao) (hai : ao.isSet = true) (hpar : ao.parent ≠ none) (hh : home w.nextO = home a)
    (h : setCopyNew env w a = some w') : True ∧
      Inv own home ({ w with objs := mput w.objs w.nextO Obj.newSet, nextO := w.nextO + 1 } : World K V Ty) ∧
      SF ({ w with objs := mput w.objs w.nextO Obj.newSet, nextO := w.nextO + 1 } : World K V Ty) w' := by
  simp only [setCopyNew, ha, Option.bind_eq_bind, Option.bind_some, if_neg hpar] at h
  have hlt := hi.v.ltO a ao ha
  have hsa : w.nextO ≠ a := by omega
  rw [copySet_flag env w w.nextO a _ hsa] at h
  · have i1 : Inv own home ({ w with objs := mput w.objs w.nextO Obj.newSet, nextO := w.nextO + 1 } : World K V Ty) := hi.newObj (.inr rfl)
    have ha1 : ({ w with objs := mput w.objs w.nextO Obj.newSet, nextO := w.nextO + 1 } : World K V Ty).getObj a = some ao := by
      rw [getObj_new, if_neg hsa]; exact ha
    obtain ⟨sp, so', k⟩ := copySet_spec i1.q.si (getObj_freshSelf _ _ _ _) rfl rfl ha1 hai hsa (by
      intro p hp; rw [hh]; exact (hi.s.sets a ao ha hai).par p hp) h
    exact ⟨trivial, i1, sp.sf⟩
  · intro ao' h' hp
    rw [ha] at h'; cases h'
    obtain ⟨po, hpo, _⟩ := hi.l.up a ao w.nextO ha hai hp
    have := hi.v.ltO _ _ hpo; omega

theorem setMoveNew_inv {env : Env} {w w' : World K V Ty} {a : Nat} {ao : Obj K V Ty} (hi : Inv own home w)
    (ha : w.getObj a = some ao) (hai : ao.isSet = true) (hpar : ao.parent ≠ none) (hh : home w.nextO = home a)
    (h : setMoveNew env w a = some w') : Inv own home w' := by
  simp only [setMoveNew, ha, Option.bind_eq_bind, Option.bind_some, if_neg hpar] at h
  have hlt := hi.v.ltO a ao ha
  have hsa : w.nextO ≠ a := by omega
  rw [moveSet_flag env w w.nextO a _ hsa] at h
  · have i1 : Inv own home ({ w with objs := mput w.objs w.nextO Obj.newSet, nextO := w.nextO + 1 } : World K V Ty) := hi.newObj (.inr rfl)
    have ha1 : ({ w with objs := mput w.objs w.nextO Obj.newSet, nextO := w.nextO + 1 } : World K V Ty).getObj a = some ao := by
      rw [getObj_new, if_neg hsa]; exact ha
    have sp := moveSet_spec i1.q.si (getObj_freshSelf _ _ _ _) rfl rfl ha1 hai hsa (by
      intro p hp; rw [hh]; exact (hi.s.sets a ao ha hai).par p hp) h
    exact sp.inv i1
  · intro ao' h' hp
    rw [ha] at h'; cases h'
    obtain ⟨po, hpo, _⟩ := hi.l.up a ao w.nextO ha hai hp
    have := hi.v.ltO _ _ hpo; omega

theorem setMoveNew_sf {env : Env} {w w' : World K V Ty} {a : Nat} {ao : Obj K V Ty} (hi : Inv own home w)
    (ha : w.getObj a = some ao) (hai : ao.isSet = true) (hpar : ao.parent ≠ none) (hh : home w.nextO = home a)
    (h : setMoveNew env w a = some w') : True ∧
      Inv own home ({ w with objs := mput w.objs w.nextO Obj.newSet, nextO := w.nextO + 1 } : World K V Ty) ∧
      SF ({ w with objs := mput w.objs w.nextO Obj.newSet, nextO := w.nextO + 1 } : World K V Ty) w' := by
  simp only [setMoveNew, ha, Option.bind_eq_bind, Option.bind_some, if_neg hpar] at h
  have hlt := hi.v.ltO a ao ha
  have hsa : w.nextO ≠ a := by omega
  rw [moveSet_flag env w w.nextO a _ hsa] at h
  · have i1 : Inv own home ({ w with objs := mput w.objs w.nextO Obj.newSet, nextO := w.nextO + 1 } : World K V Ty) := hi.newObj (.inr rfl)
    have ha1 : ({ w with objs := mput w.objs w.nextO Obj.newSet, nextO := w.nextO + 1 } : World K V Ty).getObj a = some ao := by
      rw [getObj_new, if_neg hsa]; exact ha
    have sp := moveSet_spec i1.q.si (getObj_freshSelf _ _ _ _) rfl rfl ha1 hai hsa (by
      intro p hp; rw [hh]; exact (hi.s.sets a ao ha hai).par p hp) h
    exact ⟨trivial, i1, sp.sf⟩
  · intro ao' h' hp
    rw [ha] at h'; cases h'
    obtain ⟨po, hpo, _⟩ := hi.l.up a ao w.nextO ha hai hp
    have := hi.v.ltO _ _ hpo; omega

end MVault.W
