import Verif.WorldTypes
import Verif.PropsResults
import Verif.PropsLookup
/-
C77: the fields `RequestedType` and `SavedType` of result objects.
-/
set_option linter.unusedSectionVars false
set_option linter.unusedSimpArgs false
set_option linter.unusedVariables false
namespace MVault.W
variable {K V Ty : Type} [LinearOrder K] [LinearOrder V] [Typed V Ty] [DecidableEq Ty]

/-- The object whose keys an operation looks at (specification): the vault or set it is called on, or the vault of the
reference. -/
def lookedAt (w : World K V Ty) : Op K V Ty → Option Nat
  | .refSetData f _ _ | .refSetDataMany f _ => (w.refs[f]?).bind (·.vlt)
  | .addKey o _ _ | .addUniqueKey o _ _ _ _ | .updateKey o _ _ | .createRecord o _ _ | .createRow o _ | .eraseKV o _ _ | .eraseManyKV o _ _ _
  | .getRecord o _ _ _ | .getRecords o _ _ _ | .request o _ _ _ _ _ _ _ _ _ | .requestTree o _ _
  | .setRemoveKV o _ _ | .setRemoveManyKV o _ _ _ | .setGetRecord o _ _ _ | .setGetRecords o _ _ _ => some o
  | _ => none

/-- The key and type an operation with one key argument is called with (specification). -/
def keyArg : Op K V Ty → Option (K × Ty)
  | .refSetData _ k v | .addKey _ k v | .updateKey _ k v | .eraseKV _ k v | .eraseManyKV _ k v _ | .getRecord _ k v _ | .getRecords _ k v _
  | .request _ _ k v _ _ _ _ _ _ | .setRemoveKV _ k v | .setRemoveManyKV _ k v _ | .setGetRecord _ k v _ | .setGetRecords _ k v _ => some (k, typeOf v)
  | .addUniqueKey _ k t _ _ => some (k, t)
  | _ => none

/-- The operation adds a key (specification). -/
def addsKey : Op K V Ty → Bool
  | .addKey _ _ _ | .addUniqueKey _ _ _ _ _ => true
  | _ => false

/-- What a result says about types (specification): on `WrongType` it names the key of object `o`, the type the caller used
and the different type the key has; on `WrongKey` it names a key `o` does not have, the type the caller used and no saved type. -/
structure Explains (w : World K V Ty) (o : Nat) (r : Res K) (T : Types Ty) : Prop where
  wrongType : r.code = .WrongType → ∃ k t s, r.key = some k ∧ T = ⟨some t, some s⟩ ∧ getKeyType w o k = some s ∧ t ≠ s
  wrongKey : r.code = .WrongKey → ∃ k t, r.key = some k ∧ T = ⟨some t, none⟩ ∧ getKeyType w o k = none

theorem keyTy_eq (w : World K V Ty) (o : Nat) (k : K) : keyTy w o k = getKeyType w o k := by
  unfold keyTy getKeyType
  cases w.getObj o <;> rfl

theorem Explains.check {w : World K V Ty} {o : Nat} {vo : Obj K V Ty} (ho : w.getObj o = some vo) {k : K} {t : Ty} {res : Res K} (h : checkKey vo k t = .error res) :
    Explains w o res (.lookup w o k t) := by
  obtain ⟨h1, rfl⟩ := checkKey_answer ho h
  cases hk : getKeyType w o k with
  | none => exact ⟨fun h => (by simp [Res.bad, hk] at h), fun _ => ⟨k, t, rfl, by simp [Types.lookup, keyTy_eq, hk], hk⟩⟩
  | some s => exact ⟨fun _ => ⟨k, t, s, rfl, by simp [Types.lookup, keyTy_eq, hk], hk, fun e => h1 (by rw [hk, e])⟩, fun h => (by simp [Res.bad, hk] at h)⟩

theorem Explains.other {w : World K V Ty} {o : Nat} {T : Types Ty} {r : Res K} (h1 : r.code ≠ .WrongType) (h2 : r.code ≠ .WrongKey) : Explains w o r T :=
  ⟨fun h => absurd h h1, fun h => absurd h h2⟩

theorem checkKey_type {w : World K V Ty} {o : Nat} {vo : Obj K V Ty} (ho : w.getObj o = some vo) {k : K} {t : Ty} {c : Col V Ty} (h : checkKey vo k t = .ok c) :
    getKeyType w o k = some t := by
  rw [getKeyType_eq ho]
  unfold checkKey at h
  split at h
  · cases h
  · rename_i c0 e
    split at h
    · cases h
    · rename_i hne; simp [e, Classical.not_not.mp hne]

theorem isSet_obj {w : World K V Ty} {s : Nat} (h : isSetObj w s = true) : ∃ x, w.getObj s = some x ∧ x.isSet = true := isSetObj_iff.mp h

/-- One lookup: explains failures, and on success both types are the type of the key. -/
structure Looked (w : World K V Ty) (o : Nat) (k : K) (t : Ty) (r : Res K) (T : Types Ty) : Prop where
  fail : Explains w o r T
  good : r.code = .Success → T = ⟨some t, some t⟩ ∧ getKeyType w o k = some t

theorem Looked.bad {w : World K V Ty} {o : Nat} {k : K} {t : Ty} {T : Types Ty} {c : Code} {k' : Option K} (h1 : c ≠ .WrongType) (h2 : c ≠ .WrongKey) (h3 : c ≠ .Success) :
    Looked w o k t (.bad c k') T := ⟨.other h1 h2, fun h => absurd h h3⟩

theorem Looked.check {w : World K V Ty} {o : Nat} {vo : Obj K V Ty} (ho : w.getObj o = some vo) {k : K} {t : Ty} {res : Res K} (h : checkKey vo k t = .error res) :
    Looked w o k t res (.lookup w o k t) := by
  refine ⟨.check ho h, fun e => ?_⟩
  obtain ⟨_, rfl⟩ := checkKey_answer ho h
  split at e <;> cases e

theorem Looked.ok {w : World K V Ty} {o : Nat} {vo : Obj K V Ty} (ho : w.getObj o = some vo) {k : K} {t : Ty} {c : Col V Ty} (h : checkKey vo k t = .ok c) {k' : Option K} :
    Looked w o k t (.good k') (.lookup w o k t) :=
  ⟨.other (fun h => by cases h) (fun h => by cases h), fun _ => ⟨by simp [Types.lookup, keyTy_eq, checkKey_type ho h], checkKey_type ho h⟩⟩

theorem eraseKV_looked {env : Env} {w w' : World K V Ty} {o : Nat} {k : K} {v : V} {r : Res K} (h : eraseKV env w o k v = some (w', r)) :
    Looked w o k (typeOf v) r (.lookup w o k (typeOf v)) := by
  simp only [eraseKV, Option.bind_eq_bind, Option.bind_eq_some_iff] at h
  obtain ⟨vo, hvo, h⟩ := h
  split at h
  · rename_i e he; cases h; exact .check hvo he
  · rename_i c hc
    split at h
    · cases h; exact .bad (by decide) (by decide) (by decide)
    · simp only [Option.map_eq_some_iff, Prod.mk.injEq] at h
      obtain ⟨_, _, _, rfl⟩ := h; exact .ok hvo hc

theorem eraseManyKV_looked {env : Env} {w w' : World K V Ty} {o : Nat} {k : K} {v : V} {n : Nat} {r : Res K} (h : eraseManyKV env w o k v n = some (w', r)) :
    Looked w o k (typeOf v) r (.lookup w o k (typeOf v)) := by
  simp only [eraseManyKV, Option.bind_eq_bind, Option.bind_eq_some_iff] at h
  obtain ⟨vo, hvo, h⟩ := h
  split at h
  · rename_i e he; cases h; exact .check hvo he
  · rename_i c hc
    split at h
    · cases h; exact .bad (by decide) (by decide) (by decide)
    · simp only [Option.map_eq_some_iff, Prod.mk.injEq] at h
      obtain ⟨_, _, _, rfl⟩ := h; exact .ok hvo hc

theorem getRecord_looked {env : Env} {w w' : World K V Ty} {o : Nat} {k : K} {v : V} {f : Nat} {r : Res K} (h : getRecord env w o k v f = some (w', r)) :
    Looked w o k (typeOf v) r (.lookup w o k (typeOf v)) := by
  simp only [getRecord, Option.bind_eq_bind, Option.bind_eq_some_iff] at h
  obtain ⟨vo, hvo, h⟩ := h
  split at h
  · rename_i e he; cases h; exact .check hvo he
  · rename_i c hc
    split at h
    · simp only [Option.map_eq_some_iff, Prod.mk.injEq] at h
      obtain ⟨_, _, _, rfl⟩ := h; exact .bad (by decide) (by decide) (by decide)
    · simp only [Option.map_eq_some_iff, Prod.mk.injEq] at h
      obtain ⟨_, _, _, rfl⟩ := h; exact .ok hvo hc

theorem getRecords_looked {env : Env} {w w' : World K V Ty} {o : Nat} {k : K} {v : V} {n : Nat} {r : Res K} (h : getRecords env w o k v n = some (w', r)) :
    Looked w o k (typeOf v) r (.lookup w o k (typeOf v)) := by
  simp only [getRecords, Option.bind_eq_bind, Option.bind_eq_some_iff] at h
  obtain ⟨vo, hvo, h⟩ := h
  split at h
  · rename_i e he; cases h; exact .check hvo he
  · rename_i c hc
    split at h
    · cases h; exact .bad (by decide) (by decide) (by decide)
    · simp only [Option.map_eq_some_iff, Prod.mk.injEq] at h
      obtain ⟨_, _, _, rfl⟩ := h; exact .ok hvo hc

theorem updateKey_looked {w w' : World K V Ty} {o : Nat} {k : K} {d : V} {r : Res K} (h : updateKey w o k d = some (w', r)) :
    Looked w o k (typeOf d) r (.lookup w o k (typeOf d)) := by
  simp only [updateKey, Option.bind_eq_bind, Option.bind_eq_some_iff] at h
  obtain ⟨vo, hvo, h⟩ := h
  split at h
  · rename_i e he; cases h; exact .check hvo he
  · rename_i c hc
    split at h
    · cases h; exact .bad (by decide) (by decide) (by decide)
    · cases h; exact .ok hvo hc

theorem setDataIndex_looked {w w' : World K V Ty} {o r : Nat} {k : K} {v : V} {x : Rec K V} (hx : w.getRec r = some x) (hv : x.valid ≠ false) {res : Res K}
    (h : setDataIndex w o r k v = some (w', res)) : Looked w o k (typeOf v) res (.lookup w o k (typeOf v)) := by
  simp only [setDataIndex, hx, Option.bind_eq_bind, Option.bind_eq_some_iff, Option.bind_some, if_neg hv] at h
  obtain ⟨vo, hvo, h⟩ := h
  split at h
  · rename_i hk; cases h
    exact .check hvo (by simp [checkKey, hk])
  · rename_i c hk
    split at h
    · rename_i hne; cases h; exact .check hvo (by simp only [checkKey, hk]; rw [if_pos hne])
    · rename_i hne
      split at h
      · cases h; exact .bad (by decide) (by decide) (by decide)
      · cases h; exact .ok hvo (c := c) (by simp only [checkKey, hk]; rw [if_neg hne])

theorem refSetData_looked {env : Env} {w w' : World K V Ty} {f : Nat} {k : K} {v : V} {res : Res K} (h : refSetData env w f k v = some (w', res)) :
    (res.code = .DataRecordNotValid) ∨ ∃ o, (w.refs[f]?).bind (·.vlt) = some o ∧ Looked w o k (typeOf v) res (.setData w f k v) := by
  simp only [refSetData, Option.bind_eq_bind, Option.bind_eq_some_iff] at h
  obtain ⟨⟨p, vl⟩, hf, h⟩ := h
  cases p with
  | none => cases h; exact .inl rfl
  | some r =>
    simp only [Option.bind_eq_some_iff] at h
    obtain ⟨o, ho, vo, hvo, x, hx, h⟩ := h
    have ho : vl = some o := ho
    subst ho
    split at h
    · cases h; exact .inl rfl
    · rename_i hv
      refine .inr ⟨o, by simp [hf], ?_⟩
      have e : Types.setData w f k v = .lookup w o k (typeOf v) := by simp only [Types.setData, hf, hx, if_neg hv]
      rw [e]
      simp only [setDataToRecord, Option.bind_eq_bind, Option.bind_eq_some_iff, Prod.exists] at h
      obtain ⟨_, _, w1, r1, h1, h⟩ := h
      have hl := setDataIndex_looked hx hv h1
      split at h
      · cases h; exact hl
      · split at h
        · simp only [Option.bind_eq_some_iff] at h
          obtain ⟨_, _, _, _, h⟩ := h; cases h; exact hl
        · cases h; exact hl

theorem request_looked {env : Env} {w w' : World K V Ty} {o : Nat} {t : ReqType} {k : K} {a b : V} {ia ib : Bool} {n : Option Nat}
    {pred : Nat → Bool} {s : Nat} {res : Res K} (ha : AI w) (hi : NI w) (hs : NotVault w s) (h : request env w o t k a b ia ib n pred s = some (w', res)) :
    Looked w o k (typeOf a) res (.request w o k a s) := by
  simp only [request, Option.bind_eq_bind, Option.bind_eq_some_iff] at h
  obtain ⟨oo, hoo, h⟩ := h
  split at h
  · cases h; exact .bad (by decide) (by decide) (by decide)
  · rename_i p hp
    split at h
    · cases h; exact .bad (by decide) (by decide) (by decide)
    · rename_i hne
      simp only [Option.bind_eq_some_iff] at h
      obtain ⟨w1, h1, oo', hoo', out, hout, h⟩ := h
      obtain ⟨f1, e1⟩ := prepTarget_fs (l := [s]) (by simp) ha hi (vaultOf_notSet ha hoo hp) hs h1
      rcases f1.getObj (q := o) (by simpa using hne) with ⟨h0, _⟩ | ⟨x, y, hx, hy, e⟩
      · rw [hoo] at h0; cases h0
      rw [hoo] at hx; cases hx
      rw [hoo'] at hy; cases hy
      rw [requestSet_congr e] at hout
      have hT : Types.request w o k a s = .lookup w o k (typeOf a) := by simp only [Types.request, hoo, hp]; rw [if_neg hne]
      rw [hT]
      unfold requestSet at hout
      split at hout
      · rename_i e' he
        cases hout
        cases h
        exact .check hoo he
      · rename_i c hc
        simp only [Option.map_eq_some_iff] at hout
        obtain ⟨l, _, rfl⟩ := hout
        simp only [Option.map_eq_some_iff, Prod.mk.injEq] at h
        obtain ⟨_, _, _, rfl⟩ := h
        exact .ok hoo hc

theorem Types.ofSet_parent {w : World K V Ty} {s : Nat} {so : Obj K V Ty} (hso : w.getObj s = some so) {p : Nat} (hp : so.parent = some p) (k : K) (t : Ty) :
    Types.ofSet w s k t = .lookup w s k t := by simp [Types.ofSet, hso, hp]

theorem setRemoveKV_looked {env : Env} {w w' : World K V Ty} {s : Nat} {k : K} {v : V} {r : Res K} (h : setRemoveKV env w s k v = some (w', r)) :
    Looked w s k (typeOf v) r (.ofSet w s k (typeOf v)) := by
  simp only [setRemoveKV, Option.bind_eq_bind, Option.bind_eq_some_iff] at h
  obtain ⟨so, hso, h⟩ := h
  cases hp : so.parent with
  | none => rw [if_pos hp] at h; cases h; exact .bad (by decide) (by decide) (by decide)
  | some p => rw [if_neg (by simp [hp])] at h; rw [Types.ofSet_parent hso hp]; exact eraseKV_looked h

theorem setRemoveManyKV_looked {env : Env} {w w' : World K V Ty} {s : Nat} {k : K} {v : V} {n : Nat} {r : Res K} (h : setRemoveManyKV env w s k v n = some (w', r)) :
    Looked w s k (typeOf v) r (.ofSet w s k (typeOf v)) := by
  simp only [setRemoveManyKV, Option.bind_eq_bind, Option.bind_eq_some_iff] at h
  obtain ⟨so, hso, h⟩ := h
  cases hp : so.parent with
  | none => rw [if_pos hp] at h; cases h; exact .bad (by decide) (by decide) (by decide)
  | some p => rw [if_neg (by simp [hp])] at h; rw [Types.ofSet_parent hso hp]; exact eraseManyKV_looked h

theorem setGetRecord_looked {env : Env} {w w' : World K V Ty} {s : Nat} {k : K} {v : V} {f : Nat} {r : Res K} (h : setGetRecord env w s k v f = some (w', r)) :
    Looked w s k (typeOf v) r (.ofSet w s k (typeOf v)) := by
  simp only [setGetRecord, Option.bind_eq_bind, Option.bind_eq_some_iff] at h
  obtain ⟨so, hso, h⟩ := h
  split at h
  · cases h; exact .bad (by decide) (by decide) (by decide)
  · rename_i p hp
    rw [Types.ofSet_parent hso hp]
    simp only [Option.bind_eq_some_iff, Prod.exists] at h
    obtain ⟨w1, r1, h1, _, _, h⟩ := h
    cases h
    exact getRecord_looked h1

theorem setGetRecords_looked {env : Env} {w w' : World K V Ty} {s : Nat} {k : K} {v : V} {n : Nat} {r : Res K} (h : setGetRecords env w s k v n = some (w', r)) :
    Looked w s k (typeOf v) r (.ofSet w s k (typeOf v)) := by
  simp only [setGetRecords, Option.bind_eq_bind, Option.bind_eq_some_iff] at h
  obtain ⟨so, hso, h⟩ := h
  split at h
  · cases h; exact .bad (by decide) (by decide) (by decide)
  · rename_i p hp
    rw [Types.ofSet_parent hso hp]
    simp only [Option.bind_eq_some_iff] at h
    obtain ⟨_, _, h⟩ := h
    split at h
    · rename_i e he; cases h; exact .check hso he
    · rename_i c hc
      split at h
      · cases h; exact .bad (by decide) (by decide) (by decide)
      · simp only [Option.map_eq_some_iff, Prod.mk.injEq] at h
        obtain ⟨_, _, _, rfl⟩ := h; exact .ok hso hc

/-! ### CreateRecord -/

/-- The template and the index types agree. -/
def TmplOk (vo : Obj K V Ty) (data : List (K × V)) : Prop := ∀ k, (mget data k).map (fun v => typeOf v) = (mget vo.cols k).map (·.ty)

theorem TmplOk.of {vo : Obj K V Ty} (h : KeyOk vo) : TmplOk vo vo.tmpl := by
  intro k
  cases hc : mget vo.cols k with
  | none => rw [h.tmplN k hc]; rfl
  | some c => obtain ⟨v, hv, ht⟩ := h.tmplT k c hc; rw [hv]; simp [ht]

theorem TmplOk.put {vo : Obj K V Ty} {data : List (K × V)} (h : TmplOk vo data) {k : K} {v v0 : V} (h0 : mget data k = some v0) (ht : typeOf v0 = typeOf v) :
    TmplOk vo (mput data k v) := by
  intro k'
  rw [mget_mput]
  split
  · rename_i e; subst e; rw [← h k, h0]; simp [ht]
  · exact h k'

theorem params_explains {w : World K V Ty} {o : Nat} {vo : Obj K V Ty} (ho : w.getObj o = some vo) (ps : List (K × V)) : ∀ {data : List (K × V)} {T : Types Ty} {r : Res K},
    TmplOk vo data → applyParams vo ps data = .error r → Explains w o r (.params vo ps data T) := by
  induction ps with
  | nil => intro data T r _ h; cases h
  | cons p ps ih =>
    obtain ⟨k, v⟩ := p
    intro data T r ht h
    have hk := ht k
    unfold applyParams at h
    unfold Types.params
    split at h
    · rename_i e
      cases h
      simp only [e]
      rw [e] at hk
      exact ⟨fun h => (by cases h), fun _ => ⟨k, typeOf v, rfl, rfl, by rw [getKeyType_eq ho, ← hk]; rfl⟩⟩
    · rename_i v0 e
      rw [e] at hk
      simp only [e]
      split at h
      · rename_i hty
        rw [if_pos hty]
        exact ih (ht.put e hty) h
      · rename_i hty
        cases h
        rw [if_neg hty]
        refine ⟨fun _ => ⟨k, typeOf v, typeOf v0, rfl, ?_, ?_, fun e => hty e.symm⟩, fun h => by cases h⟩
        · rw [← hk]; rfl
        · rw [getKeyType_eq ho, ← hk]; rfl

theorem create_explains {w : World K V Ty} {o : Nat} {vo : Obj K V Ty} (ho : w.getObj o = some vo) (ht : TmplOk vo vo.tmpl) {ps : List (K × V)} {r : Res K}
    (h : (∃ e, applyParams vo ps vo.tmpl = .error e ∧ r = e) ∨ (r.code = .UniqueKeyValueAlredyInSet ∨ r.code = .Success)) :
    Explains w o r (.create w o ps) := by
  rcases h with ⟨e, h1, rfl⟩ | h
  · have hc : Types.create w o ps = .params vo ps vo.tmpl ⟨none, none⟩ := by simp only [Types.create, ho, h1]
    rw [hc]
    exact params_explains ho ps ht h1
  · rcases h with h | h <;> exact .other (by rw [h]; decide) (by rw [h]; decide)

theorem createRecord_cases {w w' : World K V Ty} {o f : Nat} {ps : List (K × V)} {r : Res K} (h : createRecord w o f ps = some (w', r)) : ∃ vo, w.getObj o = some vo ∧
    ((∃ e, applyParams vo ps vo.tmpl = .error e ∧ r = e) ∨ (r.code = .UniqueKeyValueAlredyInSet ∨ r.code = .Success)) := by
  simp only [createRecord, Option.bind_eq_bind, Option.bind_eq_some_iff] at h
  obtain ⟨vo, hvo, h⟩ := h
  refine ⟨vo, hvo, ?_⟩
  split at h
  · rename_i e he; cases h; exact .inl ⟨_, he, rfl⟩
  · simp only [Option.bind_eq_some_iff, Prod.exists] at h
    obtain ⟨w1, out, h1, h⟩ := h
    split at h
    · cases h; exact .inr (.inl rfl)
    · simp only [Option.map_eq_some_iff, Prod.mk.injEq] at h
      obtain ⟨_, _, _, rfl⟩ := h; exact .inr (.inr rfl)

theorem createRow_cases {w w' : World K V Ty} {o : Nat} {ps : List (K × V)} {r : Res K} (h : createRow w o ps = some (w', r)) : ∃ vo, w.getObj o = some vo ∧
    ((∃ e, applyParams vo ps vo.tmpl = .error e ∧ r = e) ∨ (r.code = .UniqueKeyValueAlredyInSet ∨ r.code = .Success)) := by
  simp only [createRow, Option.bind_eq_bind, Option.bind_eq_some_iff] at h
  obtain ⟨vo, hvo, h⟩ := h
  refine ⟨vo, hvo, ?_⟩
  split at h
  · rename_i e he; cases h; exact .inl ⟨_, he, rfl⟩
  · simp only [Option.bind_eq_some_iff, Prod.exists] at h
    obtain ⟨w1, out, h1, h⟩ := h
    split at h
    · cases h; exact .inr (.inl rfl)
    · cases h; exact .inr (.inr rfl)

/-! ### Request trees -/

theorem leaf_explains {env : Env} {w : World K V Ty} {o : Nat} {vo : Obj K V Ty} (ho : w.getObj o = some vo) {t : ReqType} {k : K} {v b : V} {ia ib : Bool} {n : Option Nat}
    {pred : Nat → Bool} {r : Res K} (h : requestSet env vo t k v b ia ib n pred [] = some (.error r)) :
    Explains w o r ⟨some (typeOf v), (mget vo.cols k).map (·.ty)⟩ := by
  unfold requestSet at h
  split at h
  · rename_i e he; cases h
    have := Explains.check ho he
    rwa [Types.lookup, keyTy_eq, getKeyType_eq ho] at this
  · simp at h

theorem leaf_error_iff {env : Env} {vo : Obj K V Ty} {t t' : ReqType} {k : K} {v b b' : V} {ia ib ia' ib' : Bool} {n n' : Option Nat}
    {pred pred' : Nat → Bool} {r : Res K} (h : requestSet env vo t k v b ia ib n pred [] = some (.error r)) :
    requestSet env vo t' k v b' ia' ib' n' pred' [] = some (.error r) := by
  simp only [requestSet] at h ⊢
  cases he : checkKey vo k (typeOf v) with
  | error e => rw [he] at h; exact h
  | ok c => rw [he] at h; simp at h

theorem andBind_error {x y : Option (Except (Res K) (List Nat))} {r : Res K} (h : andBind x y = some (.error r)) :
    x = some (.error r) ∨ (∃ l, x = some (.ok l)) ∧ y = some (.error r) := by
  unfold andBind at h
  simp only [Option.bind_eq_some_iff] at h
  obtain ⟨ra, h1, h⟩ := h
  split at h
  · cases h; exact .inl h1
  · rename_i la
    simp only [Option.bind_eq_some_iff] at h
    obtain ⟨rb, h2, h⟩ := h
    split at h
    · cases h; exact .inr ⟨⟨la, h1⟩, h2⟩
    · cases h

theorem tree_explains {env : Env} {w : World K V Ty} {o : Nat} {vo : Obj K V Ty} (ho : w.getObj o = some vo) (q : Req K V) : ∀ {r : Res K},
    evalReq env vo q = some (.error r) → Explains w o r (.tree env vo q) := by
  induction q with
  | leaf t k v p => intro r h; exact leaf_explains ho h
  | or a b iha ihb =>
    intro r h
    simp only [evalReq, Option.bind_eq_bind, Option.bind_eq_some_iff] at h
    obtain ⟨ra, h1, h⟩ := h
    split at h
    · cases h; simp only [Types.tree, h1]; exact iha h1
    · simp only [Option.bind_eq_some_iff] at h
      obtain ⟨rb, h2, h⟩ := h
      split at h
      · cases h; simp only [Types.tree, h1]; exact ihb h2
      · cases h
  | and a b iha ihb =>
    intro r h
    have key : evalReq env vo a = some (.error r) ∨ (∃ l, evalReq env vo a = some (.ok l)) ∧ evalReq env vo b = some (.error r) := by
      cases a with
      | leaf t1 k1 v1 p1 => cases b with
        | leaf t2 k2 v2 p2 =>
          simp only [evalReq] at h
          split at h
          · split at h
            · cases h
            · exact .inl (leaf_error_iff h)
          · exact andBind_error h
        | and c d => exact andBind_error h
        | or c d => exact andBind_error h
      | and c d => exact andBind_error h
      | or c d => exact andBind_error h
    rcases key with h1 | ⟨⟨l, h1⟩, h2⟩
    · simp only [Types.tree, h1]; exact iha h1
    · simp only [Types.tree, h1]; exact ihb h2

theorem requestTree_explains {env : Env} {w w' : World K V Ty} {o : Nat} {q : Req K V} {s : Nat} {res : Res K} (ha : AI w) (hi : NI w) (hs : NotVault w s)
    (h : requestTree env w o q s = some (w', res)) : Explains w o res (.ofTree env w o q s) := by
  simp only [requestTree, Option.bind_eq_bind, Option.bind_eq_some_iff] at h
  obtain ⟨oo, hoo, h⟩ := h
  split at h
  · cases h; exact .other (fun e => by cases e) (fun e => by cases e)
  · rename_i p hp
    split at h
    · cases h; exact .other (fun e => by cases e) (fun e => by cases e)
    · rename_i hne
      simp only [Option.bind_eq_some_iff] at h
      obtain ⟨w1, h1, oo', hoo', out, hout, h⟩ := h
      obtain ⟨f1, e1⟩ := prepTarget_fs (l := [s]) (by simp) ha hi (vaultOf_notSet ha hoo hp) hs h1
      rcases f1.getObj (q := o) (by simpa using hne) with ⟨h0, _⟩ | ⟨x, y, hx, hy, e⟩
      · rw [hoo] at h0; cases h0
      rw [hoo] at hx; cases hx
      rw [hoo'] at hy; cases hy
      rw [evalReq_congr e] at hout
      split at h
      · simp only [Option.map_eq_some_iff, Prod.mk.injEq] at h
        obtain ⟨_, _, _, rfl⟩ := h
        have hT : Types.ofTree env w o q s = .tree env oo q := by
          simp only [Types.ofTree, hoo, hp, hout]; rw [if_neg hne]
        rw [hT]
        exact tree_explains hoo q hout
      · simp only [Option.map_eq_some_iff, Prod.mk.injEq] at h
        obtain ⟨_, _, _, rfl⟩ := h
        exact .other (fun e => by cases e) (fun e => by cases e)

/-! ### AddKey -/

theorem addKeyLocal_code {env : Env} {w w' : World K V Ty} {o : Nat} {k : K} {d : V} {r : Res K} (h : addKeyLocal env w o k d = some (w', r)) :
    r.code ≠ .WrongType ∧ r.code ≠ .WrongKey ∧ r.key = some k ∧ (r.code = .DuplicateKey ↔ getKeyType w o k ≠ none) := by
  simp only [addKeyLocal, Option.bind_eq_bind, Option.bind_eq_some_iff] at h
  obtain ⟨vo, hvo, h⟩ := h
  rw [getKeyType_eq hvo]
  cases hm : mget vo.cols k with
  | none =>
    rw [if_neg (by simp [mhas, hm])] at h
    simp only [Option.bind_eq_some_iff] at h
    obtain ⟨_, _, h⟩ := h
    cases h; refine ⟨fun e => (by cases e), fun e => (by cases e), rfl, ⟨fun e => (by cases e), fun e => absurd rfl e⟩⟩
  | some c => rw [if_pos (by simp [mhas, hm])] at h; cases h; refine ⟨fun e => (by cases e), fun e => (by cases e), rfl, by simp [Res.bad]⟩

theorem addKey_code {env : Env} {w w' : World K V Ty} {o : Nat} {k : K} {d : V} {r : Res K} (h : addKey env w o k d = some (w', r)) :
    r.code ≠ .WrongType ∧ r.code ≠ .WrongKey ∧ r.key = some k ∧ (r.code = .DuplicateKey ↔ getKeyType w o k ≠ none) := by
  simp only [addKey, Option.bind_eq_bind, Option.bind_eq_some_iff, Prod.exists] at h
  obtain ⟨vo, hvo, w1, r1, h1, h⟩ := h
  have := addKeyLocal_code h1
  split at h
  · cases h; exact this
  · simp only [Option.bind_eq_some_iff] at h
    obtain ⟨_, _, h⟩ := h
    cases h; exact this

theorem addUniqueLocal_code {env : Env} {w w' : World K V Ty} {o : Nat} {k : K} {t : Ty} {noFn : Bool} {f : Nat → Nat → V} {r : Res K}
    (h : addUniqueLocal env w o k t noFn f = some (w', r)) :
    r.code ≠ .WrongType ∧ r.code ≠ .WrongKey ∧ r.key = some k ∧ (r.code = .DuplicateKey ↔ getKeyType w o k ≠ none) := by
  simp only [addUniqueLocal, Option.bind_eq_bind, Option.bind_eq_some_iff] at h
  obtain ⟨vo, hvo, h⟩ := h
  rw [getKeyType_eq hvo]
  cases hm : mget vo.cols k with
  | some c => rw [if_pos (by simp [mhas, hm])] at h; cases h; refine ⟨fun e => (by cases e), fun e => (by cases e), rfl, by simp [Res.bad]⟩
  | none =>
    rw [if_neg (by simp [mhas, hm])] at h
    have fin : ∀ c : Code, c ≠ .WrongType → c ≠ .WrongKey → c ≠ .DuplicateKey → ∀ r : Res K, r.code = c → r.key = some k →
        r.code ≠ .WrongType ∧ r.code ≠ .WrongKey ∧ r.key = some k ∧ (r.code = .DuplicateKey ↔ (none : Option (Col V Ty)).map (·.ty) ≠ none) :=
      fun c a b d r e e' => ⟨e ▸ a, e ▸ b, e', ⟨fun x => absurd (e ▸ x) d, fun x => absurd rfl x⟩⟩
    split at h
    · cases h; exact fin _ (fun e => by cases e) (fun e => by cases e) (fun e => by cases e) _ rfl rfl
    · split at h
      · cases h; exact fin _ (fun e => by cases e) (fun e => by cases e) (fun e => by cases e) _ rfl rfl
      · split at h <;> simp only [Option.bind_eq_some_iff] at h <;> obtain ⟨_, _, h⟩ := h <;> cases h <;> exact fin _ (fun e => by cases e) (fun e => by cases e) (fun e => by cases e) _ rfl rfl

theorem addUniqueKey_code {env : Env} {w w' : World K V Ty} {o : Nat} {k : K} {t : Ty} {noFn : Bool} {f : Nat → Nat → Nat → V} {r : Res K}
    (h : addUniqueKey env w o k t noFn f = some (w', r)) :
    r.code ≠ .WrongType ∧ r.code ≠ .WrongKey ∧ r.key = some k ∧ (r.code = .DuplicateKey ↔ getKeyType w o k ≠ none) := by
  simp only [addUniqueKey, Option.bind_eq_bind, Option.bind_eq_some_iff, Prod.exists] at h
  obtain ⟨vo, hvo, w1, r1, h1, h⟩ := h
  have := addUniqueLocal_code h1
  split at h
  · cases h; exact this
  · simp only [Option.bind_eq_some_iff] at h
    obtain ⟨_, _, h⟩ := h
    cases h; exact this

/-! ### C77 -/

/-- The operations with a key argument. -/
theorem keyArg_looked {G : World K V Ty → Op K V Ty → Prop} {env : Env} {w w' : World K V Ty} {op : Op K V Ty} {r : Res K} {k : K} {t : Ty}
    (hw : Reach G w) (h : outcome env w op = some (w', .res r)) (hk : keyArg op = some (k, t)) (ha : addsKey op = false) :
    r.code = .DataRecordNotValid ∨ ∃ o, lookedAt w op = some o ∧ Looked w o k t r (typesOf env w op) := by
  have hai := reach_ai hw
  have hni := reach_ni hw
  cases op <;> simp only [keyArg, addsKey, Option.some.injEq, Prod.mk.injEq, reduceCtorEq] at hk ha
  all_goals obtain ⟨rfl, rfl⟩ := hk
  all_goals (simp only [outcome, onVault_map, onSet_map, onVault_iff, onSet_iff, Option.map_eq_some_iff, Prod.exists, Prod.mk.injEq, Answer.res.injEq] at h)
  case refSetData => obtain ⟨_, _, h, rfl, rfl⟩ := h; exact refSetData_looked h
  all_goals refine .inr ⟨_, rfl, ?_⟩
  case updateKey => obtain ⟨_, _, _, h, rfl, rfl⟩ := h; exact updateKey_looked h
  case eraseKV => obtain ⟨_, _, _, h, rfl, rfl⟩ := h; exact eraseKV_looked h
  case eraseManyKV => obtain ⟨_, _, _, h, rfl, rfl⟩ := h; exact eraseManyKV_looked h
  case getRecord => obtain ⟨_, _, _, h, rfl, rfl⟩ := h; exact getRecord_looked h
  case getRecords => obtain ⟨_, _, _, h, rfl, rfl⟩ := h; exact getRecords_looked h
  case request => obtain ⟨hs, _, _, h, rfl, rfl⟩ := h; exact request_looked hai hni (.of hai (isSetObj_iff.mp hs)) h
  case setRemoveKV => obtain ⟨_, _, _, h, rfl, rfl⟩ := h; exact setRemoveKV_looked h
  case setRemoveManyKV => obtain ⟨_, _, _, h, rfl, rfl⟩ := h; exact setRemoveManyKV_looked h
  case setGetRecord => obtain ⟨_, _, _, h, rfl, rfl⟩ := h; exact setGetRecord_looked h
  case setGetRecords => obtain ⟨_, _, _, h, rfl, rfl⟩ := h; exact setGetRecords_looked h

theorem setOps_code {r : Res K} {w : World K V Ty} {o : Nat} {T : Types Ty} (h : r.code = .Success ∨ r.code = .ParentVaultNotValid ∨ r.code = .SameVaultRecordSet ∨
    r.code = .ParentVaultNotMatch ∨ r.code = .DataRecordNotValid) : Explains w o r T := by
  rcases h with h | h | h | h | h <;> exact .other (by rw [h]; decide) (by rw [h]; decide)

/-- In every history, whenever an operation that takes keys answers `WrongType` or `WrongKey`, the result names the key, the
type the caller used, and the type the key has in the vault or set asked (nothing when the key does not exist).
`SetData(params)` is `C77_set_many`. -/
theorem C77_failures {G : World K V Ty → Op K V Ty → Prop} {env : Env} {w w' : World K V Ty} {op : Op K V Ty} {r : Res K} {o : Nat}
    (hw : Reach G w) (h : outcome env w op = some (w', .res r)) (ho : lookedAt w op = some o) (hm : ∀ f ps, op ≠ .refSetDataMany f ps) :
    Explains w o r (typesOf env w op) := by
  have hai := reach_ai hw
  have hni := reach_ni hw
  by_cases hk : ∃ k t, keyArg op = some (k, t) ∧ addsKey op = false
  · obtain ⟨k, t, hk, ha⟩ := hk
    rcases keyArg_looked hw h hk ha with e | ⟨o', ho', hl⟩
    · exact .other (by rw [e]; decide) (by rw [e]; decide)
    · rw [ho] at ho'; cases ho'; exact hl.fail
  · cases op
    all_goals first
      | (exact absurd ⟨_, _, rfl, rfl⟩ hk)
      | (cases ho; done)
      | (exact absurd rfl (hm _ _))
      | skip
    all_goals (simp only [outcome, onVault_map, onSet_map, onVault_iff, onSet_iff, Option.map_eq_some_iff, Prod.exists, Prod.mk.injEq, Answer.res.injEq] at h)
    all_goals (simp only [lookedAt, Option.some.injEq] at ho; subst ho)
    case addKey => obtain ⟨_, _, _, h, rfl, rfl⟩ := h; exact .other (addKey_code h).1 (addKey_code h).2.1
    case addUniqueKey => obtain ⟨_, _, _, h, rfl, rfl⟩ := h; exact .other (addUniqueKey_code h).1 (addUniqueKey_code h).2.1
    case createRecord =>
      obtain ⟨hv, _, _, h, rfl, rfl⟩ := h
      obtain ⟨vo, hvo, h⟩ := createRecord_cases h
      obtain ⟨x, hx, hs⟩ := isVault_iff.mp hv
      rw [hvo] at hx; cases hx
      exact create_explains hvo (.of ((hai.obj _ _ hvo).vault hs).2.2) h
    case createRow =>
      obtain ⟨hv, _, _, h, rfl, rfl⟩ := h
      obtain ⟨vo, hvo, h⟩ := createRow_cases h
      obtain ⟨x, hx, hs⟩ := isVault_iff.mp hv
      rw [hvo] at hx; cases hx
      exact create_explains hvo (.of ((hai.obj _ _ hvo).vault hs).2.2) h
    case requestTree => obtain ⟨hs, _, _, h, rfl, rfl⟩ := h; exact requestTree_explains hai hni (.of hai (isSetObj_iff.mp hs)) h

/-- Key 1 of the demo vault has the small type, key 7 does not exist. -/
example : ∃ w' : DW, outcome Env.id demoW (.getRecord 0 1 100 0) = some (w', .res (.bad .WrongType (some 1))) ∧
    typesOf Env.id demoW (.getRecord 0 1 100 0) = ⟨some true, some false⟩ ∧
    outcome Env.id demoW (.createRecord 0 2 [(2, 9), (7, 1)]) = some (demoW, .res (.bad .WrongKey (some 7))) ∧
    typesOf Env.id demoW (.createRecord 0 2 [(2, 9), (7, 1)]) = ⟨some false, none⟩ := ⟨_, rfl, by decide, rfl, by decide⟩

/-- `SetData(params)` that answers `WrongType` or `WrongKey`: the same, in the state in which the call stops. -/
theorem C77_set_many {env : Env} {w w' : World K V Ty} {f : Nat} {ps : List (K × V)} {r : Res K}
    (h : outcome env w (.refSetDataMany f ps) = some (w', .res r)) (hc : r.code = .WrongType ∨ r.code = .WrongKey) :
    ∃ o, (w'.refs[f]?).bind (·.vlt) = some o ∧ Explains w' o r (typesOf env w (.refSetDataMany f ps)) := by
  simp only [outcome, Option.map_eq_some_iff, Prod.exists, Prod.mk.injEq, Answer.res.injEq] at h
  obtain ⟨_, _, h, rfl, rfl⟩ := h
  simp only [refSetDataMany, Option.bind_eq_bind, Option.bind_eq_some_iff] at h
  obtain ⟨_, -, _, -, _, -, h⟩ := h
  simp only [typesOf]
  generalize hr0 : (⟨true, .Idle, none⟩ : Res K) = r0 at h
  replace hr0 : r0.code ≠ .WrongType ∧ r0.code ≠ .WrongKey := by rw [← hr0]; exact ⟨fun e => (by cases e), fun e => (by cases e)⟩
  generalize (⟨none, none⟩ : Types Ty) = T
  induction ps generalizing w r0 T with
  | nil =>
    simp only [refSetDataLoop, Option.some.injEq, Prod.mk.injEq] at h
    obtain ⟨_, rfl⟩ := h
    rcases hc with e | e
    · exact absurd e hr0.1
    · exact absurd e hr0.2
  | cons p ps ih =>
    obtain ⟨k, v⟩ := p
    simp only [refSetDataLoop, Option.bind_eq_bind, Option.bind_eq_some_iff, Prod.exists] at h
    obtain ⟨w1, r1, h1, h⟩ := h
    simp only [Types.setMany, h1]
    split at h
    · rename_i hf
      cases h
      rw [if_pos hf]
      have hww := (refSetData_fair h1).2 hf
      subst hww
      rcases refSetData_looked h1 with e | ⟨o, ho, hl⟩
      · rcases hc with e' | e' <;> rw [e] at e' <;> cases e'
      · exact ⟨o, ho, hl.fail⟩
    · rename_i hf
      rw [if_neg hf]
      refine ih _ h ?_ _
      have hok : r1.code = .Success := (refSetData_fair h1).1.mp (by simpa using hf)
      rw [hok]; exact ⟨by decide, by decide⟩

/-- The second pair has the wrong type. -/
example : ∃ w' : DW, outcome Env.id demoW (.refSetDataMany 0 [(1, 3), (2, 100)]) = some (w', .res (.bad .WrongType (some 2))) ∧
    typesOf Env.id demoW (.refSetDataMany 0 [(1, 3), (2, 100)]) = ⟨some true, some false⟩ := ⟨_, rfl, by decide⟩

/-- A lookup, removal, update or assignment that succeeds names the type of the caller, and it is the type of the key. -/
theorem C77_success {G : World K V Ty → Op K V Ty → Prop} {env : Env} {w w' : World K V Ty} {op : Op K V Ty} {r : Res K} {o : Nat} {k : K} {t : Ty}
    (hw : Reach G w) (h : outcome env w op = some (w', .res r)) (ho : lookedAt w op = some o) (hk : keyArg op = some (k, t)) (ha : addsKey op = false)
    (hr : r.code = .Success) : typesOf env w op = ⟨some t, some t⟩ ∧ getKeyType w o k = some t := by
  rcases keyArg_looked hw h hk ha with e | ⟨o', ho', hl⟩
  · rw [hr] at e; cases e
  · rw [ho] at ho'; cases ho'; exact hl.good hr

example : ∃ w' : DW, outcome Env.id demoW (.refSetData 0 1 3) = some (w', .res (.good (some 1))) ∧
    typesOf Env.id demoW (.refSetData 0 1 3) = ⟨some false, some false⟩ := ⟨_, rfl, by decide⟩

/-- `AddKey` names the type of the new key; when the key exists already it names the type of the existing key. -/
theorem C77_add_key {env : Env} {w w' : World K V Ty} {op : Op K V Ty} {r : Res K} {o : Nat} {k : K} {t : Ty}
    (h : outcome env w op = some (w', .res r)) (ho : lookedAt w op = some o) (hk : keyArg op = some (k, t)) (ha : addsKey op = true) :
    r.key = some k ∧ typesOf env w op = ⟨some t, getKeyType w o k⟩ ∧ (r.code = .DuplicateKey ↔ ∃ s, getKeyType w o k = some s) := by
  have fin : (r.code = .DuplicateKey ↔ getKeyType w o k ≠ none) → (r.code = .DuplicateKey ↔ ∃ s, getKeyType w o k = some s) :=
    fun e => e.trans Option.ne_none_iff_exists'
  cases op <;> simp only [keyArg, addsKey, lookedAt, Option.some.injEq, Prod.mk.injEq, reduceCtorEq] at hk ha ho
  all_goals (obtain ⟨rfl, rfl⟩ := hk; subst ho)
  all_goals (simp only [outcome, onVault_map, onSet_map, onVault_iff, onSet_iff, Option.map_eq_some_iff, Prod.exists, Prod.mk.injEq, Answer.res.injEq] at h)
  case addKey =>
    obtain ⟨_, _, _, h, rfl, rfl⟩ := h
    exact ⟨(addKey_code h).2.2.1, by simp [typesOf, Types.lookup, keyTy_eq], fin (addKey_code h).2.2.2⟩
  case addUniqueKey =>
    obtain ⟨_, _, _, h, rfl, rfl⟩ := h
    exact ⟨(addUniqueKey_code h).2.2.1, by simp [typesOf, Types.lookup, keyTy_eq], fin (addUniqueKey_code h).2.2.2⟩

example : outcome Env.id demoW (.addKey 0 1 100) = some (demoW, .res (.bad .DuplicateKey (some 1))) ∧
    typesOf Env.id demoW (.addKey 0 1 100) = ⟨some true, some false⟩ ∧ typesOf Env.id demoW (.addKey 0 7 100) = ⟨some true, none⟩ := ⟨rfl, by decide, by decide⟩

theorem params_last (vo : Obj K V Ty) (ps : List (K × V)) : ∀ {data data' : List (K × V)} {T : Types Ty}, applyParams vo ps data = .ok data' →
    (Types.params vo ps data T).requested = match ps.getLast? with | some p => some (typeOf p.2) | none => T.requested := by
  induction ps with
  | nil => intro data data' T _; rfl
  | cons p ps ih =>
    obtain ⟨k, v⟩ := p
    intro data data' T h
    unfold applyParams at h
    unfold Types.params
    split at h
    · cases h
    · rename_i v0 e
      simp only [e]
      split at h
      · rename_i hty
        rw [if_pos hty, ih h, List.getLast?_cons]
        cases ps.getLast? <;> rfl
      · cases h

/-- `CreateRecord` names no saved type unless a parameter has the wrong type. When a unique value is taken it names the
type of that unique key as the requested one; on success the type of the last parameter. -/
theorem C77_create_record {env : Env} {w w' : World K V Ty} {o f : Nat} {ps : List (K × V)} {r : Res K}
    (h : outcome env w (.createRecord o f ps) = some (w', .res r)) :
    (r.code = .UniqueKeyValueAlredyInSet → ∃ k, r.key = some k ∧ typesOf env w (.createRecord o f ps) = ⟨getKeyType w o k, none⟩) ∧
    (r.code = .Success → r.key = ps.getLast?.map (·.1) ∧ typesOf env w (.createRecord o f ps) = ⟨ps.getLast?.map fun p => typeOf p.2, none⟩) := by
  simp only [outcome, onVault_iff, Option.map_eq_some_iff, Prod.exists, Prod.mk.injEq, Answer.res.injEq] at h
  obtain ⟨_, _, _, h, rfl, rfl⟩ := h
  simp only [createRecord, Option.bind_eq_bind, Option.bind_eq_some_iff] at h
  obtain ⟨vo, hvo, h⟩ := h
  split at h
  · rename_i e he
    cases h
    have : ∀ (ps : List (K × V)) (data : List (K × V)) (r : Res K), applyParams vo ps data = .error r → r.code = .WrongKey ∨ r.code = .WrongType := by
      intro ps
      induction ps with
      | nil => intro data r h; cases h
      | cons p ps ih =>
        intro data r h
        obtain ⟨k, v⟩ := p
        unfold applyParams at h
        split at h
        · cases h; exact .inl rfl
        · split at h
          · exact ih _ _ h
          · cases h; exact .inr rfl
    constructor <;> intro hc <;> rcases this _ _ _ he with e | e <;> rw [e] at hc <;> cases hc
  · rename_i data hd
    simp only [Option.bind_eq_some_iff, Prod.exists] at h
    obtain ⟨w1, out, h1, h⟩ := h
    split at h
    · cases h
      refine ⟨fun _ => ⟨_, rfl, ?_⟩, fun h => by cases h⟩
      simp only [typesOf, Types.create, hvo, hd, h1, keyTy_eq]
    · simp only [Option.map_eq_some_iff, Prod.mk.injEq] at h
      obtain ⟨_, _, _, rfl⟩ := h
      refine ⟨fun h => (by cases h), fun _ => ⟨rfl, ?_⟩⟩
      simp only [typesOf, Types.create, hvo, hd, h1, params_last vo ps hd]
      cases ps.getLast? <;> rfl

example : outcome Env.id demoW (.createRecord 0 2 [(2, 8)]) = some (demoW, .res (.bad .UniqueKeyValueAlredyInSet (some 2))) ∧
    typesOf Env.id demoW (.createRecord 0 2 [(2, 8)]) = ⟨some false, none⟩ ∧
    (∃ w', outcome Env.id demoW (.createRecord 0 2 [(2, 9)]) = some (w', .res (.good (some 2)))) ∧
    typesOf Env.id demoW (.createRecord 0 2 [(2, 9)]) = ⟨some false, none⟩ := ⟨rfl, by decide, ⟨_, rfl⟩, by decide⟩

end MVault.W
