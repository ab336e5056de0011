import Verif.WorldAny5
import Verif.WorldOut
/-
Every history: what the set operations leave alone. Vaults keep everything except their list of sets, records everything
except their list of sets, references everything.
-/
set_option linter.unusedSectionVars false
set_option linter.unusedSimpArgs false
namespace MVault.W
variable {K V Ty : Type} [LinearOrder K] [LinearOrder V] [Typed V Ty] [DecidableEq Ty]

/-- An object without its list of sets. -/
def Obj.noSets (x : Obj K V Ty) : Obj K V Ty := { x with sets := [] }
/-- A record without its list of sets. -/
def Rec.noDeps (x : Rec K V) : Rec K V := { x with deps := [] }

/-- Only the objects of `l` change, apart from the lists of sets kept by vaults and records. -/
structure FS (l : List Nat) (w w' : World K V Ty) : Prop where
  obj : ∀ q, q ∉ l → (w'.getObj q).map Obj.noSets = (w.getObj q).map Obj.noSets
  recs : ∀ r, (w'.getRec r).map Rec.noDeps = (w.getRec r).map Rec.noDeps
  refs : w'.refs = w.refs

theorem FS.refl (l : List Nat) (w : World K V Ty) : FS l w w := ⟨fun _ _ => rfl, fun _ => rfl, rfl⟩
theorem FS.trans {l : List Nat} {a b c : World K V Ty} (h1 : FS l a b) (h2 : FS l b c) : FS l a c :=
  ⟨fun q hq => (h2.obj q hq).trans (h1.obj q hq), fun r => (h2.recs r).trans (h1.recs r), h2.refs.trans h1.refs⟩
theorem FS.mono {l l' : List Nat} {a b : World K V Ty} (h : FS l a b) (hl : ∀ q ∈ l, q ∈ l') : FS l' a b :=
  ⟨fun q hq => h.obj q (fun hm => hq (hl q hm)), h.recs, h.refs⟩

theorem FS.loop {A : Type} {l : List Nat} {f : World K V Ty → A → Option (World K V Ty)} (hf : ∀ w w' a, f w a = some w' → FS l w w') (as : List A)
    {w w' : World K V Ty} (h : loop f as w = some w') : FS l w w' :=
  loop_inv (fun v => FS l w v) f as w w' (fun a _ b b' hb hh => hb.trans (hf b b' a hh)) (.refl _ _) h

theorem fs_putObj (w : World K V Ty) {s : Nat} (y : Obj K V Ty) {l : List Nat} (h : s ∈ l) : FS l w (w.putObj s y) where
  obj q hq := by rw [getObj_putObj, if_neg (by rintro rfl; exact hq h)]
  recs _ := rfl
  refs := rfl

theorem fs_putSets {w : World K V Ty} {p : Nat} {po : Obj K V Ty} (hp : w.getObj p = some po) (ss : List Nat) (l : List Nat) :
    FS l w (w.putObj p { po with sets := ss }) where
  obj q hq := by
    rw [getObj_putObj]
    split
    · rename_i e; subst e; rw [hp]; rfl
    · rfl
  recs _ := rfl
  refs := rfl

theorem fs_putDeps {w : World K V Ty} {r : Nat} {x : Rec K V} (hx : w.getRec r = some x) (ds : List Nat) (l : List Nat) :
    FS l w (w.putRec r { x with deps := ds }) where
  obj _ _ := rfl
  recs r' := by
    rw [getRec_putRec]
    split
    · rename_i e; subst e; rw [hx]; rfl
    · rfl
  refs := rfl

theorem eraseDep_fs {w w' : World K V Ty} {s r : Nat} (l : List Nat) (h : eraseDep s w r = some w') : FS l w w' := by
  simp only [eraseDep, Option.map_eq_some_iff] at h
  obtain ⟨x, hx, rfl⟩ := h; exact fs_putDeps hx _ l

theorem addDep_fs {w w' : World K V Ty} {s r : Nat} (l : List Nat) (h : addDep s w r = some w') : FS l w w' := by
  simp only [addDep, Option.map_eq_some_iff] at h
  obtain ⟨x, hx, rfl⟩ := h; exact fs_putDeps hx _ l

theorem setClear_fs {env : Env} {w w' : World K V Ty} {s : Nat} {l : List Nat} (hl : s ∈ l) (h : setClear env w s = some w') : FS l w w' := by
  simp only [setClear, Option.bind_eq_bind, Option.bind_eq_some_iff] at h
  obtain ⟨so, hso, h⟩ := h
  split at h
  · cases h; exact .refl _ _
  · simp only [Option.bind_eq_some_iff] at h
    obtain ⟨w1, h1, h2⟩ := h; cases h2
    exact (FS.loop (fun _ _ _ h => eraseDep_fs l h) _ h1).trans (fs_putObj _ _ hl)

/-- After clearing, the set is empty (if it has a parent). -/
theorem setClear_rs {env : Env} {w w' : World K V Ty} {s : Nat} {p : Nat} (hp : pr w s = some (some p)) (h : setClear env w s = some w') : rs w' s = some [] := by
  simp only [setClear, Option.bind_eq_bind, Option.bind_eq_some_iff] at h
  obtain ⟨so, hso, h⟩ := h
  rw [pr_of hso] at hp; simp only [Option.some.injEq] at hp
  rw [if_neg (by rw [hp]; simp)] at h
  simp only [Option.bind_eq_some_iff] at h
  obtain ⟨w1, h1, h2⟩ := h; cases h2
  rw [rs_of (getObj_putObj_self _ _ _)]

theorem perm_nil_of (env : Env) {l : List Nat} (h : l = []) : env.perm l = [] := by
  subst h; exact List.Perm.eq_nil (env.isPerm [])

theorem dropCore_fs {env : Env} {w w' : World K V Ty} {s : Nat} {l : List Nat} (hl : s ∈ l) (hr : rs w s = some []) (h : dropCore env w s = some w') : FS l w w' := by
  simp only [dropCore, Option.bind_eq_bind, Option.bind_eq_some_iff] at h
  obtain ⟨vo, hvo, w1, h1, h2⟩ := h; cases h2
  rw [rs_of hvo] at hr; simp only [Option.some.injEq] at hr
  rw [perm_nil_of env hr] at h1; cases h1
  exact fs_putObj _ _ hl

theorem setReset_fs {env : Env} {w w' : World K V Ty} {s : Nat} {l : List Nat} (hl : s ∈ l) (h : setReset env w s = some w') : FS l w w' := by
  simp only [setReset, Option.bind_eq_bind, Option.bind_eq_some_iff] at h
  obtain ⟨so, hso, h⟩ := h
  split at h
  · cases h; exact .refl _ _
  · rename_i p hp
    simp only [Option.bind_eq_some_iff] at h
    obtain ⟨_, _, w1, h1, w2, h2, po, hpo, so', hso', h3⟩ := h
    cases h3
    have e1 := setClear_rs (by rw [pr_of hso, hp]) h1
    exact (((setClear_fs hl h1).trans (dropCore_fs hl e1 h2)).trans (fs_putSets hpo _ l)).trans (fs_putObj _ _ hl)

theorem addKeyLocal_fs {env : Env} {w w' : World K V Ty} {s : Nat} {k : K} {d : V} {res : Res K} {l : List Nat} (hl : s ∈ l) (hr : rs w s = some [])
    (h : addKeyLocal env w s k d = some (w', res)) : FS l w w' := by
  simp only [addKeyLocal, Option.bind_eq_bind, Option.bind_eq_some_iff] at h
  obtain ⟨vo, hvo, h⟩ := h
  split at h
  · cases h; exact .refl _ _
  · rw [rs_of hvo] at hr; simp only [Option.some.injEq] at hr
    rw [perm_nil_of env hr] at h
    simp only [List.map_nil, loop, Option.bind_some] at h
    cases h
    exact fs_putObj _ _ hl

theorem copyKeys_fs {env : Env} {src : Obj K V Ty} {w w' : World K V Ty} {s : Nat} {l : List Nat} (hl : s ∈ l) (hr : rs w s = some [])
    (h : copyKeys env src w s = some w') : FS l w w' := by
  refine (loop_inv (fun v => FS l w v ∧ rs v s = some []) _ _ _ _ (fun kc _ b b' hb hh => ?_) ⟨.refl _ _, hr⟩ h).1
  simp only [Option.map_eq_some_iff, Prod.exists] at hh
  obtain ⟨w1, res, h1, rfl⟩ := hh
  exact ⟨hb.1.trans (addKeyLocal_fs hl hb.2 h1), (addKeyLocal_pr h1 s).2.trans hb.2⟩

theorem prepTarget_fs {env : Env} {w w' : World K V Ty} {o p s : Nat} {l : List Nat} (hl : s ∈ l) (ha : AI w) (hi : NI w) (hp : NotSet w p) (hs : NotVault w s)
    (h : prepTarget env w o p s = some w') : FS l w w' ∧ rs w' s = some [] := by
  simp only [prepTarget, Option.bind_eq_bind, Option.bind_eq_some_iff] at h
  obtain ⟨po, hpo, so, hso, h⟩ := h
  have i1 := hi.putObj p (y := { po with sets := setIns po.sets s }) (hi p po hpo)
  have s1 := ha.link hpo (hp.obj hpo) (setIns po.sets s) (fun a ha' => by
    rcases (mem_setIns _ _ _).mp ha' with h | rfl
    · exact (ha.obj p po hpo).sets a h
    · exact hs) []
  have f1 := fs_putSets hpo (setIns po.sets s) l
  split at h
  · rename_i e
    exact ⟨f1.trans (setClear_fs hl h), setClear_rs (by rw [pr_of hso, e]) h⟩
  · simp only [Option.bind_eq_some_iff] at h
    obtain ⟨w2, h2, so2, hso2, oo, hoo, w4, h4, so4, hso4, h⟩ := h
    cases h
    have f2 := f1.trans (setReset_fs hl h2)
    have e2 := (setReset_obj s1.ai i1 (hs.st s1) h2).2
    have e3 : rs (w2.putObj s { so2 with parent := some p }) s = some [] := by rw [rs_putObj hso2 (by rfl)]; exact e2
    have f4 := (f2.trans (fs_putObj _ _ hl)).trans (copyKeys_fs hl e3 h4)
    refine ⟨f4.trans (fs_putObj _ _ hl), ?_⟩
    rw [rs_putObj hso4 (by rfl), (copyKeys_pr h4 s).2, e3]

theorem attach_fs {w w' : World K V Ty} {s r : Nat} {l : List Nat} (hl : s ∈ l) (h : attach s w r = some w') : FS l w w' := by
  simp only [attach, Option.bind_eq_bind, Option.bind_eq_some_iff] at h
  obtain ⟨so, hso, x, hx, h⟩ := h
  exact (fs_putObj _ _ hl).trans (addDep_fs l h)

theorem fillTarget_fs {env : Env} {w w' : World K V Ty} {s : Nat} {rl : List Nat} {l : List Nat} (hl : s ∈ l) (h : fillTarget env w s rl = some w') : FS l w w' := by
  simp only [fillTarget, Option.bind_eq_bind, Option.bind_eq_some_iff] at h
  obtain ⟨so, hso, h⟩ := h
  exact (fs_putObj _ _ hl).trans (FS.loop (fun _ _ _ h => attach_fs hl h) _ h)

/-- A request changes the target set only; when it fails, the target set is empty or nothing has changed. -/
theorem request_fs {env : Env} {w w' : World K V Ty} {o : Nat} {ty : ReqType} {k : K} {a b : V} {ia ib : Bool} {n : Option Nat} {pred : Nat → Bool} {s : Nat} {res : Res K}
    (ha : AI w) (hi : NI w) (hs : NotVault w s) (h : request env w o ty k a b ia ib n pred s = some (w', res)) : FS [s] w w' := by
  simp only [request, Option.bind_eq_bind, Option.bind_eq_some_iff] at h
  obtain ⟨oo, hoo, h⟩ := h
  split at h
  · cases h; exact .refl _ _
  · rename_i p hp
    split at h
    · cases h; exact .refl _ _
    · simp only [Option.bind_eq_some_iff] at h
      obtain ⟨w1, h1, oo', _, out, _, h⟩ := h
      have f1 := (prepTarget_fs (l := [s]) (by simp) ha hi (vaultOf_notSet ha hoo hp) hs h1).1
      split at h
      · cases h; exact f1
      · simp only [Option.map_eq_some_iff, Prod.mk.injEq] at h
        obtain ⟨w2, h2, rfl, rfl⟩ := h
        exact f1.trans (fillTarget_fs (by simp) h2)

theorem requestTree_fs {env : Env} {w w' : World K V Ty} {o : Nat} {q : Req K V} {s : Nat} {res : Res K}
    (ha : AI w) (hi : NI w) (hs : NotVault w s) (h : requestTree env w o q s = some (w', res)) : FS [s] w w' := by
  simp only [requestTree, Option.bind_eq_bind, Option.bind_eq_some_iff] at h
  obtain ⟨oo, hoo, h⟩ := h
  split at h
  · cases h; exact .refl _ _
  · rename_i p hp
    split at h
    · cases h; exact .refl _ _
    · simp only [Option.bind_eq_some_iff] at h
      obtain ⟨w1, h1, oo', _, out, _, h⟩ := h
      have f1 := (prepTarget_fs (l := [s]) (by simp) ha hi (vaultOf_notSet ha hoo hp) hs h1).1
      split at h <;> simp only [Option.map_eq_some_iff, Prod.mk.injEq] at h <;> obtain ⟨w2, h2, rfl, rfl⟩ := h
      · exact f1.trans (setClear_fs (by simp) h2)
      · exact f1.trans (fillTarget_fs (by simp) h2)

theorem setAddRecord_fs {w w' : World K V Ty} {s f : Nat} {res : Res K} (h : setAddRecord w s f = some (w', res)) : FS [s] w w' := by
  simp only [setAddRecord, Option.bind_eq_bind, Option.bind_eq_some_iff] at h
  obtain ⟨so, hso, h⟩ := h
  split at h
  · cases h; exact .refl _ _
  · simp only [Option.bind_eq_some_iff] at h
    obtain ⟨ref, _, val, _, h⟩ := h
    split at h
    · cases h; exact .refl _ _
    split at h
    · cases h; exact .refl _ _
    split at h
    · cases h
    split at h
    · cases h; exact .refl _ _
    simp only [Option.map_eq_some_iff, Prod.mk.injEq] at h
    obtain ⟨w2, h2, rfl, _⟩ := h
    exact (fs_putObj _ _ (by simp)).trans (attach_fs (by simp) h2)

theorem addOnly_fs {w w' : World K V Ty} {s r : Nat} {l : List Nat} (hl : s ∈ l) (h : addOnly s w r = some w') : FS l w w' := by
  simp only [addOnly, Option.bind_eq_bind, Option.bind_eq_some_iff] at h
  obtain ⟨so, hso, h⟩ := h
  split at h
  · cases h; exact .refl _ _
  · simp only [Option.bind_eq_some_iff] at h
    obtain ⟨x, hx, h⟩ := h; cases h
    exact fs_putObj _ _ hl

theorem setJoin_fs {env : Env} {w w' : World K V Ty} {s a : Nat} {res : Res K} (h : setJoin env w s a = some (w', res)) : FS [s] w w' := by
  simp only [setJoin, Option.bind_eq_bind, Option.bind_eq_some_iff] at h
  obtain ⟨so, hso, ao, hao, h⟩ := h
  split at h
  · cases h; exact .refl _ _
  · simp only [Option.map_eq_some_iff, Prod.mk.injEq] at h
    obtain ⟨w2, h2, rfl, _⟩ := h
    exact FS.loop (fun _ _ _ h => addOnly_fs (by simp) h) _ h2

/-! Removal from a set that is not flagged as a vault -/

/-- The flag `VaultDerivedClass == VaultBase` of an object. -/
def bs (w : World K V Ty) (q : Nat) : Option Bool := (w.getObj q).map (·.isBase)

theorem bs_of {w : World K V Ty} {q : Nat} {x : Obj K V Ty} (h : w.getObj q = some x) : bs w q = some x.isBase := by simp [bs, h]

theorem eraseOne_fs {env : Env} {w w' : World K V Ty} {s r : Nat} (hb : bs w s = some false) (h : eraseOne env w s r = some w') :
    FS [s] w w' ∧ bs w' s = some false := by
  simp only [eraseOne, eraseLocal, Option.bind_eq_bind, Option.bind_eq_some_iff] at h
  obtain ⟨vo, hvo, w1, ⟨vo', hvo', x, hx, h1⟩, h⟩ := h
  cases h1
  rw [hvo] at hvo'; cases hvo'
  rw [bs_of hvo] at hb; simp only [Option.some.injEq] at hb
  rw [if_neg (by rw [hb]; simp)] at h
  cases h
  exact ⟨fs_putObj _ _ (by simp), by rw [bs_of (getObj_putObj_self _ _ _)]; simp [hb]⟩

theorem removeRecord_fs {env : Env} {w w' : World K V Ty} {s r : Nat} {b : Bool} (hb : bs w s = some false) (h : removeRecord env w s r = some (w', b)) :
    FS [s] w w' ∧ bs w' s = some false := by
  simp only [removeRecord, Option.bind_eq_bind, Option.bind_eq_some_iff] at h
  obtain ⟨vo, hvo, h⟩ := h
  split at h
  · cases h; exact ⟨.refl _ _, hb⟩
  · simp only [Option.map_eq_some_iff, Prod.mk.injEq] at h
    obtain ⟨w2, h2, rfl, _⟩ := h; exact eraseOne_fs hb h2

theorem setRemoveRef_fs {env : Env} {w w' : World K V Ty} {s f : Nat} {b : Bool} (hb : bs w s = some false) (h : setRemoveRef env w s f = some (w', b)) : FS [s] w w' := by
  simp only [setRemoveRef, Option.bind_eq_bind, Option.bind_eq_some_iff] at h
  obtain ⟨so, hso, h⟩ := h
  split at h
  · cases h; exact .refl _ _
  · simp only [eraseRef, Option.bind_eq_bind, Option.bind_eq_some_iff] at h
    obtain ⟨ref, hf, h⟩ := h
    split at h
    · simp only [Option.map_eq_some_iff, Prod.mk.injEq] at h
      obtain ⟨_, _, rfl, _⟩ := h; exact .refl _ _
    · exact (removeRecord_fs hb h).1

theorem setRemoveKV_fs {env : Env} {w w' : World K V Ty} {s : Nat} {k : K} {v : V} {res : Res K} (hb : bs w s = some false) (h : setRemoveKV env w s k v = some (w', res)) : FS [s] w w' := by
  simp only [setRemoveKV, Option.bind_eq_bind, Option.bind_eq_some_iff] at h
  obtain ⟨so, hso, h⟩ := h
  split at h
  · cases h; exact .refl _ _
  · simp only [eraseKV, Option.bind_eq_bind, Option.bind_eq_some_iff] at h
    obtain ⟨vo, hvo, h⟩ := h
    split at h
    · cases h; exact .refl _ _
    · split at h
      · cases h; exact .refl _ _
      · simp only [Option.map_eq_some_iff, Prod.mk.injEq] at h
        obtain ⟨w2, h2, rfl, _⟩ := h; exact (eraseOne_fs hb h2).1

theorem setRemoveManyKV_fs {env : Env} {w w' : World K V Ty} {s n : Nat} {k : K} {v : V} {res : Res K} (hb : bs w s = some false)
    (h : setRemoveManyKV env w s k v n = some (w', res)) : FS [s] w w' := by
  simp only [setRemoveManyKV, Option.bind_eq_bind, Option.bind_eq_some_iff] at h
  obtain ⟨so, hso, h⟩ := h
  split at h
  · cases h; exact .refl _ _
  · simp only [eraseManyKV, Option.bind_eq_bind, Option.bind_eq_some_iff] at h
    obtain ⟨vo, hvo, h⟩ := h
    split at h
    · cases h; exact .refl _ _
    · split at h
      · cases h; exact .refl _ _
      · simp only [Option.map_eq_some_iff, Prod.mk.injEq] at h
        obtain ⟨w2, h2, rfl, _⟩ := h
        exact (loop_inv (fun v => FS [s] w v ∧ bs v s = some false) _ _ _ _ (fun _ _ b b' hb hh =>
          ⟨hb.1.trans (eraseOne_fs hb.2 hh).1, (eraseOne_fs hb.2 hh).2⟩) ⟨.refl _ _, hb⟩ h2).1

theorem loop_removeRecord_fs {env : Env} {s : Nat} (l : List Nat) {w w' : World K V Ty} (hb : bs w s = some false)
    (h : loop (fun w r => (removeRecord env w s r).map (·.1)) l w = some w') : FS [s] w w' :=
  (loop_inv (fun v => FS [s] w v ∧ bs v s = some false) _ _ _ _ (fun _ _ b b' hb hh => by
    simp only [Option.map_eq_some_iff, Prod.exists] at hh
    obtain ⟨_, _, h1, rfl⟩ := hh
    exact ⟨hb.1.trans (removeRecord_fs hb.2 h1).1, (removeRecord_fs hb.2 h1).2⟩) ⟨.refl _ _, hb⟩ h).1

theorem setExclude_fs {env : Env} {w w' : World K V Ty} {s a : Nat} {res : Res K} (hb : bs w s = some false) (h : setExclude env w s a = some (w', res)) : FS [s] w w' := by
  simp only [setExclude, Option.bind_eq_bind, Option.bind_eq_some_iff] at h
  obtain ⟨so, hso, ao, hao, h⟩ := h
  split at h
  · cases h; exact .refl _ _
  · simp only [Option.map_eq_some_iff, Prod.mk.injEq] at h
    obtain ⟨w2, h2, rfl, _⟩ := h
    exact loop_removeRecord_fs _ hb h2

theorem setIntersect_fs {env : Env} {w w' : World K V Ty} {s a : Nat} {res : Res K} (hb : bs w s = some false) (h : setIntersect env w s a = some (w', res)) : FS [s] w w' := by
  simp only [setIntersect, Option.bind_eq_bind, Option.bind_eq_some_iff] at h
  obtain ⟨so, hso, ao, hao, h⟩ := h
  split at h
  · cases h; exact .refl _ _
  · simp only [Option.map_eq_some_iff, Prod.mk.injEq] at h
    obtain ⟨w2, h2, rfl, _⟩ := h
    exact loop_removeRecord_fs _ hb h2

theorem copySet_fs {env : Env} {w w' : World K V Ty} {s a : Nat} {l : List Nat} (hl : s ∈ l) (hs : rs w s = some []) (h : copySet env w s a = some w') : FS l w w' := by
  simp only [copySet, Option.bind_eq_bind, Option.bind_eq_some_iff] at h
  obtain ⟨ao, hao, p, hp, po0, hpo0, so, hso, w2, h2, so2, hso2, po, hpo, h⟩ := h
  have e1 : rs (w.putObj s { so with isBase := false, parent := some p }) s = some [] := by rw [rs_putObj hso (by rfl)]; exact hs
  have f2 := (fs_putObj w { so with isBase := false, parent := some p } hl).trans (copyKeys_fs hl e1 h2)
  refine ((f2.trans (fs_putObj _ _ hl)).trans (fs_putSets hpo _ l)).trans (FS.loop (fun w w' r h => ?_) _ h)
  simp only [Option.bind_eq_some_iff] at h
  obtain ⟨so, hso, h⟩ := h
  exact (fs_putObj _ _ hl).trans (attach_fs hl h)

theorem fs_newObj {w : World K V Ty} (y : Obj K V Ty) (s n : Nat) : FS [s] w ({ w with objs := mput w.objs s y, nextO := n } : World K V Ty) := by
  have := fs_putObj w y (s := s) (l := [s]) (by simp)
  exact ⟨this.obj, this.recs, this.refs⟩

theorem setCopyNew_fs {env : Env} {w w' : World K V Ty} {a : Nat} (h : setCopyNew env w a = some w') : FS [w.nextO] w w' := by
  simp only [setCopyNew, Option.bind_eq_bind, Option.bind_eq_some_iff] at h
  obtain ⟨ao, hao, h⟩ := h
  have f1 := fs_newObj (w := w) ({ Obj.newSet with isBase := true }) w.nextO (w.nextO + 1)
  have hg : World.getObj ({ w with objs := mput w.objs w.nextO { Obj.newSet with isBase := true }, nextO := w.nextO + 1 } : World K V Ty) w.nextO = some { Obj.newSet with isBase := true } :=
    getObj_putObj_self w _ _
  split at h
  · cases h; exact f1
  · exact f1.trans (copySet_fs (by simp) (rs_of hg) h)

theorem setAssign_fs {env : Env} {w w' : World K V Ty} {s a : Nat} (ha : AI w) (hi : NI w) (hs : NotVault w s) (h : setAssign env w s a = some w') : FS [s] w w' := by
  simp only [setAssign, Option.bind_eq_bind, Option.bind_eq_some_iff] at h
  obtain ⟨_, _, ao, hao, h⟩ := h
  split at h
  · cases h; exact .refl _ _
  · simp only [Option.bind_eq_some_iff] at h
    obtain ⟨w1, h1, h⟩ := h
    have f1 := setReset_fs (l := [s]) (by simp) h1
    have e := setReset_obj ha hi hs h1
    split at h
    · cases h; exact f1
    · exact f1.trans (copySet_fs (by simp) e.2 h)

theorem setUnion_fs {env : Env} {w w' : World K V Ty} {a b s : Nat} {res : Res K} (ha : AI w) (hi : NI w) (hs : NotVault w s) (h : setUnion env w a b s = some (w', res)) : FS [s] w w' := by
  simp only [setUnion, Option.bind_eq_bind, Option.bind_eq_some_iff] at h
  obtain ⟨ao, hao, bo, hbo, _, _, h⟩ := h
  split at h
  · cases h; exact .refl _ _
  split at h
  · cases h; exact .refl _ _
  split at h
  · cases h; exact .refl _ _
  split at h
  · cases h; exact .refl _ _
  simp only [Option.bind_eq_some_iff] at h
  obtain ⟨w1, h1, h⟩ := h
  exact (setAssign_fs ha hi hs h1).trans (setJoin_fs h)

theorem setIntersection_fs {env : Env} {w w' : World K V Ty} {a b s : Nat} {res : Res K} (ha : AI w) (hi : NI w) (hs : NotVault w s)
    (h : setIntersection env w a b s = some (w', res)) : FS [s] w w' := by
  simp only [setIntersection, Option.bind_eq_bind, Option.bind_eq_some_iff] at h
  obtain ⟨ao, hao, bo, hbo, _, _, h⟩ := h
  split at h
  · cases h; exact .refl _ _
  split at h
  · cases h; exact .refl _ _
  rename_i p hp
  split at h
  · cases h; exact .refl _ _
  split at h
  · cases h; exact .refl _ _
  simp only [Option.bind_eq_some_iff] at h
  obtain ⟨w1, h1, so1, hso1, w3, h3, so3, hso3, po, hpo, h⟩ := h
  simp only [Option.map_eq_some_iff, Prod.mk.injEq] at h
  obtain ⟨w6, h6, rfl, rfl⟩ := h
  have e1 := (setReset_obj ha hi hs h1).2
  have e2 : rs (w1.putObj s { so1 with parent := some p }) s = some [] := by rw [rs_putObj hso1 (by rfl)]; exact e1
  have f3 := ((setReset_fs (l := [s]) (by simp) h1).trans (fs_putObj w1 { so1 with parent := some p } (by simp))).trans (copyKeys_fs (by simp) e2 h3)
  exact ((f3.trans (fs_putObj _ _ (by simp))).trans (fs_putSets hpo _ [s])).trans (FS.loop (fun _ _ _ h => addOnly_fs (by simp) h) _ h6)

theorem moveDep_fs {w w' : World K V Ty} {s a r : Nat} (l : List Nat) (h : moveDep s a w r = some w') : FS l w w' := by
  simp only [moveDep, Option.bind_eq_bind, Option.bind_eq_some_iff] at h
  obtain ⟨w1, h1, h2⟩ := h
  exact (eraseDep_fs l h1).trans (addDep_fs l h2)

/-- Moving into an empty set. -/
theorem moveSet_fs {env : Env} {w w' : World K V Ty} {s a : Nat} (hne : s ≠ a) (hr : rs w s = some []) (h : moveSet env w s a = some w') : FS [s, a] w w' := by
  simp only [moveSet, Option.bind_eq_bind, Option.bind_eq_some_iff] at h
  obtain ⟨ao, hao, p, hp, _, _, w1, h1, so, hso, w4, h4, so4, hso4, po, hpo, h⟩ := h
  cases h
  have e1 := loop_objs (fun _ _ _ h => moveDep_objs0 h) _ h1
  have hr1 : so.recs = [] := by
    have := (rs_objs e1 s).trans hr
    rw [rs_of hso] at this; simpa using this
  have e3 : rs ((w1.putObj s { so with isBase := false, parent := some p }).putObj a { ao with parent := none, recs := [], keysOrder := [], uniq := [] }) s = some [] := by
    unfold rs
    rw [getObj_putObj, if_neg hne.symm, getObj_putObj_self]; simp [hr1]
  have f4 := (((FS.loop (fun _ _ _ h => moveDep_fs [s, a] h) _ h1).trans (fs_putObj w1 { so with isBase := false, parent := some p } (by simp))).trans
    (fs_putObj _ { ao with parent := none, recs := [], keysOrder := [], uniq := [] } (by simp))).trans (copyKeys_fs (by simp) e3 h4)
  exact (f4.trans (fs_putObj _ _ (by simp))).trans (fs_putSets hpo _ _)

theorem setMoveNew_fs {env : Env} {w w' : World K V Ty} {a : Nat} (ha : AI w) (h : setMoveNew env w a = some w') : FS [w.nextO, a] w w' := by
  simp only [setMoveNew, Option.bind_eq_bind, Option.bind_eq_some_iff] at h
  obtain ⟨ao, hao, h⟩ := h
  have f1 := (fs_newObj (w := w) ({ Obj.newSet with isBase := true }) w.nextO (w.nextO + 1)).mono (l' := [w.nextO, a]) (by simp)
  have hg : World.getObj ({ w with objs := mput w.objs w.nextO { Obj.newSet with isBase := true }, nextO := w.nextO + 1 } : World K V Ty) w.nextO = some { Obj.newSet with isBase := true } :=
    getObj_putObj_self w _ _
  split at h
  · cases h; exact f1
  · exact f1.trans (moveSet_fs (fun e => absurd (ha.objB a ao hao) (by omega)) (rs_of hg) h)

theorem setMoveAssign_fs {env : Env} {w w' : World K V Ty} {s a : Nat} (hr : rs w s = some []) (h : setMoveAssign env w s a = some w') : FS [s, a] w w' := by
  simp only [setMoveAssign, Option.bind_eq_bind, Option.bind_eq_some_iff] at h
  obtain ⟨_, _, ao, hao, h⟩ := h
  split at h
  · cases h; exact .refl _ _
  · rename_i hne
    split at h
    · exact setReset_fs (by simp) h
    · exact moveSet_fs hne hr h

theorem fs_del (w : World K V Ty) (s : Nat) : FS [s] w ({ w with objs := mdel w.objs s } : World K V Ty) where
  obj q hq := by
    show (mget (mdel w.objs s) q).map _ = _
    rw [mget_mdel, if_neg (by rintro rfl; simp at hq)]; rfl
  recs _ := rfl
  refs := rfl

theorem destroySet_fs {env : Env} {w w' : World K V Ty} {s : Nat} (ha : AI w) (hi : NI w) (hs : NotVault w s) (h : destroySet env w s = some w') : FS [s] w w' := by
  simp only [destroySet, dropVault, Option.bind_eq_bind, Option.bind_eq_some_iff] at h
  obtain ⟨w1, h1, w2, ⟨vo, hvo, w3, h3, h2⟩, h⟩ := h
  cases h
  have s1 := setReset_st ha h1 []
  have hse := (s1.ai.obj s vo hvo).set ((hs.st s1).obj hvo)
  rw [perm_nil_of env hse] at h3; cases h3
  exact ((setReset_fs (by simp) h1).trans (dropCore_fs (by simp) (setReset_obj ha hi hs h1).2 h2)).trans (fs_del _ _)

/-! ### What the frame means for a user -/

theorem FS.getObj {l : List Nat} {w w' : World K V Ty} (h : FS l w w') {q : Nat} (hq : q ∉ l) :
    (w.getObj q = none ∧ w'.getObj q = none) ∨ ∃ x y, w.getObj q = some x ∧ w'.getObj q = some y ∧ y = { x with sets := y.sets } := by
  have := h.obj q hq
  cases hx : w.getObj q with
  | none => rw [hx] at this; cases hy : w'.getObj q with
    | none => exact .inl ⟨rfl, rfl⟩
    | some y => rw [hy] at this; cases this
  | some x =>
    rw [hx] at this
    cases hy : w'.getObj q with
    | none => rw [hy] at this; cases this
    | some y =>
      rw [hy] at this
      refine .inr ⟨x, y, rfl, rfl, ?_⟩
      simp only [Option.map_some, Option.some.injEq, Obj.noSets] at this
      obtain ⟨a, b, c, d, e, f, g, i, j⟩ := x
      obtain ⟨a', b', c', d', e', f', g', i', j'⟩ := y
      simp only [Obj.mk.injEq] at this ⊢
      simp [this]

theorem FS.getRec {l : List Nat} {w w' : World K V Ty} (h : FS l w w') (r : Nat) :
    (w.getRec r = none ∧ w'.getRec r = none) ∨ ∃ x y, w.getRec r = some x ∧ w'.getRec r = some y ∧ y = { x with deps := y.deps } := by
  have := h.recs r
  cases hx : w.getRec r with
  | none => rw [hx] at this; cases hy : w'.getRec r with
    | none => exact .inl ⟨rfl, rfl⟩
    | some y => rw [hy] at this; cases this
  | some x =>
    rw [hx] at this
    cases hy : w'.getRec r with
    | none => rw [hy] at this; cases this
    | some y =>
      rw [hy] at this
      refine .inr ⟨x, y, rfl, rfl, ?_⟩
      simp only [Option.map_some, Option.some.injEq, Rec.noDeps] at this
      obtain ⟨a, b, c, d⟩ := x
      obtain ⟨a', b', c', d'⟩ := y
      simp only [Rec.mk.injEq] at this ⊢
      simp [this]

end MVault.W
