import Verif.WorldSim
/-
Worlds that differ only in what the records know about the sets that hold them: every function of the library.
-/
set_option linter.unusedSectionVars false
set_option linter.unusedSimpArgs false
set_option linter.unusedVariables false
namespace MVault.W
variable {K V Ty : Type} [LinearOrder K] [LinearOrder V] [Typed V Ty] [DecidableEq Ty]
variable {own home : Nat → Nat} {D : Nat → Bool → List Nat → List Nat → Prop} {w u : World K V Ty}

/-- On record `r` the two worlds agree also in the sets it knows. -/
def Agree (D : Nat → Bool → List Nat → List Nat → Prop) (r : Nat) : Prop := ∀ v a b, D r v a b → a = b

/-- Object `o` is a vault or not, as far as erasing records goes. -/
def Based (f : Bool) (o : Nat) (w : World K V Ty) : Prop := ∀ vo, w.getObj o = some vo → vo.isBase = f

/-! ### SetData -/

theorem setDataIndex_sim (h : DepSim D w u) (o r : Nat) (k : K) (v : V) : Both (DepSimP D) (setDataIndex w o r k v) (setDataIndex u o r k v) := by
  simp only [setDataIndex, Option.bind_eq_bind, h.obj]
  refine Both.same fun vo _ => h.bindRec fun x l _ _ _ => ?_
  by_cases e : x.valid = false
  · rw [if_pos e, if_pos e]; exact ⟨h, rfl⟩
  · rw [if_neg e, if_neg e]
    cases hc : mget vo.cols k with
    | none => exact ⟨h, rfl⟩
    | some c =>
      dsimp only
      by_cases e2 : c.ty ≠ typeOf v
      · rw [if_pos e2, if_pos e2]; exact ⟨h, rfl⟩
      · rw [if_neg e2, if_neg e2]
        cases hs : c.setVal (c.oldVal x.data k) v r with
        | none => exact ⟨h, rfl⟩
        | some c' => exact ⟨h.putObj _ _, rfl⟩

theorem updateDeps_sim (env : Env) (h : DepSim D w u) {r : Nat} (hr : Agree D r) (k : K) (v : V) : Both (DepSim D) (updateDeps env w r k v) (updateDeps env u r k v) := by
  simp only [updateDeps, Option.bind_eq_bind]
  refine h.bindRec fun x l _ _ h3 => ?_
  rw [hr _ _ _ h3]
  refine Both.loop _ (fun s _ b c hb => ?_) h
  simp only [hb.obj]
  refine Both.same fun so _ => ?_
  split
  · trivial
  · exact (setDataIndex_sim hb s r k v).map fun _ _ h => h.1

theorem setDataToRecord_sim (env : Env) (h : DepSim D w u) (o : Nat) {r : Nat} (hr : Agree D r) (k : K) (v : V) :
    Both (DepSimP D) (setDataToRecord env w o r k v) (setDataToRecord env u o r k v) := by
  simp only [setDataToRecord, Option.bind_eq_bind, h.obj]
  refine Both.same fun vo _ => (setDataIndex_sim h o r k v).bind fun p q _ _ hp => ?_
  obtain ⟨w1, res⟩ := p; obtain ⟨u1, res'⟩ := q
  obtain ⟨h1, rfl⟩ := hp
  dsimp only at h1 ⊢
  split
  · exact ⟨h1, rfl⟩
  · split
    · refine (updateDeps_sim env h1 hr k v).bind fun w2 u2 _ _ h2 => h2.bindRec fun x l _ _ h3 => ?_
      exact ⟨h2.putRec r (x := { x with data := mput x.data k v }) h3, rfl⟩
    · exact ⟨h1, rfl⟩

/-- The reference points at a record on which the worlds agree. -/
def AgreeRef (D : Nat → Bool → List Nat → List Nat → Prop) (w : World K V Ty) (f : Nat) : Prop := ∀ ref r, w.refs[f]? = some ref → ref.ptr = some r → Agree D r

theorem refSetData_sim (env : Env) (h : DepSim D w u) {f : Nat} (hr : AgreeRef D w f) (k : K) (v : V) :
    Both (DepSimP D) (refSetData env w f k v) (refSetData env u f k v) := by
  simp only [refSetData, Option.bind_eq_bind, h.obj, ← h.refs]
  refine Both.same fun ref href => ?_
  cases hp : ref.ptr with
  | none => exact ⟨h, rfl⟩
  | some r =>
    refine Both.same fun o _ => Both.same fun _ _ => h.bindRec fun x l _ _ _ => ?_
    by_cases e : x.valid = false
    · rw [if_pos e, if_pos e]; exact ⟨h, rfl⟩
    · rw [if_neg e, if_neg e]; exact setDataToRecord_sim env h o (hr ref r href hp) k v

theorem setDataIndex_refs {w' : World K V Ty} {o r : Nat} {k : K} {v : V} {res : Res K} (h : setDataIndex w o r k v = some (w', res)) : w'.refs = w.refs := by
  simp only [setDataIndex, Option.bind_eq_bind, Option.bind_eq_some_iff] at h
  obtain ⟨vo, _, x, _, h⟩ := h
  split at h
  · cases h; rfl
  · split at h
    · cases h; rfl
    · split at h
      · cases h; rfl
      · split at h <;> (cases h; rfl)

theorem loop_refs {A : Type} {f : World K V Ty → A → Option (World K V Ty)} (l : List A) (hf : ∀ a ∈ l, ∀ w w', f w a = some w' → w'.refs = w.refs)
    {w w' : World K V Ty} (h : loop f l w = some w') : w'.refs = w.refs :=
  loop_inv (fun x : World K V Ty => x.refs = w.refs) f l w w' (fun a ha b b' hb e => (hf a ha b b' e).trans hb) rfl h

theorem refSetData_refs0 {env : Env} {w' : World K V Ty} {f : Nat} {k : K} {v : V} {res : Res K} (h : refSetData env w f k v = some (w', res)) : w'.refs = w.refs := by
  simp only [refSetData, Option.bind_eq_bind, Option.bind_eq_some_iff] at h
  obtain ⟨ref, _, h⟩ := h
  split at h
  · cases h; rfl
  · simp only [Option.bind_eq_some_iff] at h
    obtain ⟨o, _, _, _, x, _, h⟩ := h
    split at h
    · cases h; rfl
    · simp only [setDataToRecord, Option.bind_eq_bind, Option.bind_eq_some_iff] at h
      obtain ⟨vo, _, ⟨w1, res1⟩, h1, h⟩ := h
      have e1 := setDataIndex_refs h1
      dsimp only at h
      split at h
      · cases h; exact e1
      · split at h
        · simp only [Option.bind_eq_some_iff] at h
          obtain ⟨w2, h2, x2, _, h⟩ := h
          cases h
          refine Eq.trans ?_ e1
          simp only [updateDeps, Option.bind_eq_bind, Option.bind_eq_some_iff] at h2
          obtain ⟨x3, _, h2⟩ := h2
          show w2.refs = w1.refs
          refine loop_refs _ ?_ h2
          intro s _ a b e
          simp only [Option.bind_eq_some_iff] at e
          obtain ⟨so, _, e⟩ := e
          split at e
          · cases e
          · obtain ⟨⟨a1, a2⟩, e9, rfl⟩ := Option.map_eq_some_iff.mp e
            exact setDataIndex_refs e9
        · cases h; exact e1

theorem refSetDataLoop_sim (env : Env) {f : Nat} (ps : List (K × V)) : ∀ {w u : World K V Ty} (res : Res K), DepSim D w u → AgreeRef D w f →
    Both (DepSimP D) (refSetDataLoop env f ps w res) (refSetDataLoop env f ps u res) := by
  induction ps with
  | nil => intro w u res h _; exact ⟨h, rfl⟩
  | cons p ps ih =>
    intro w u res h hr
    simp only [refSetDataLoop, Option.bind_eq_bind]
    refine (refSetData_sim env h hr p.1 p.2).bind fun a b ha _ hp => ?_
    obtain ⟨w1, r1⟩ := a; obtain ⟨u1, r1'⟩ := b
    obtain ⟨h1, rfl⟩ := hp
    dsimp only at h1 ⊢
    split
    · exact ⟨h1, rfl⟩
    · exact ih _ h1 (by unfold AgreeRef; rw [refSetData_refs0 ha]; exact hr)

theorem refSetDataMany_sim (env : Env) (h : DepSim D w u) {f : Nat} (hr : AgreeRef D w f) (ps : List (K × V)) :
    Both (DepSimP D) (refSetDataMany env w f ps) (refSetDataMany env u f ps) := by
  simp only [refSetDataMany, Option.bind_eq_bind, h.obj, h.refs]
  exact Both.same fun ref _ => Both.same fun o _ => Both.same fun _ _ => refSetDataLoop_sim env ps _ h hr

/-! ### Erasing -/

theorem removeFromDeps_sim (env : Env) (h : DepSim D w u) {r : Nat} (hr : Agree D r) : Both (DepSim D) (removeFromDeps env w r) (removeFromDeps env u r) := by
  simp only [removeFromDeps, Option.bind_eq_bind]
  refine h.bindRec fun x l _ _ h3 => ?_
  rw [hr _ _ _ h3]
  refine Both.loop _ (fun s _ b c hb => ?_) h
  simp only [hb.obj]
  refine Both.same fun so _ => ?_
  split
  · exact hb
  · split
    · trivial
    · exact eraseLocal_sim hb s r

theorem eraseLocal_based {f : Bool} {o o' r : Nat} {w w' : World K V Ty} (hb : Based f o w) (h : eraseLocal w o' r = some w') : Based f o w' := by
  simp only [eraseLocal, Option.bind_eq_bind, Option.bind_eq_some_iff] at h
  obtain ⟨vo, hvo, x, _, h⟩ := h
  cases h
  intro y hy
  rw [getObj_putObj] at hy
  split at hy
  · rename_i e; subst e; cases hy; exact hb vo hvo
  · exact hb y hy

theorem removeFromDeps_based {f : Bool} {env : Env} {o r : Nat} {w w' : World K V Ty} (hb : Based f o w) (h : removeFromDeps env w r = some w') : Based f o w' := by
  simp only [removeFromDeps, Option.bind_eq_bind, Option.bind_eq_some_iff] at h
  obtain ⟨x, _, h⟩ := h
  refine loop_inv (Based f o) _ _ _ _ (fun s _ b b' hb e => ?_) hb h
  simp only [Option.bind_eq_some_iff] at e
  obtain ⟨so, _, e⟩ := e
  split at e
  · cases e; exact hb
  · split at e
    · cases e
    · exact eraseLocal_based hb e

theorem invalidate_based {f : Bool} {o r : Nat} {w w' : World K V Ty} (hb : Based f o w) (h : invalidate w r = some w') : Based f o w' := by
  simp only [invalidate, Option.map_eq_some_iff] at h
  obtain ⟨x, _, rfl⟩ := h
  split <;> exact hb

theorem eraseOne_based {f : Bool} {env : Env} {o r : Nat} {w w' : World K V Ty} (hb : Based f o w) (h : eraseOne env w o r = some w') : Based f o w' := by
  simp only [eraseOne, Option.bind_eq_bind, Option.bind_eq_some_iff] at h
  obtain ⟨vo, _, w1, h1, h⟩ := h
  have b1 := eraseLocal_based hb h1
  split at h
  · simp only [Option.bind_eq_some_iff] at h
    obtain ⟨w2, h2, h⟩ := h
    exact invalidate_based (removeFromDeps_based b1 h2) h
  · cases h; exact b1

theorem eraseOne_sim (hD : Closed D) (env : Env) (h : DepSim D w u) {o r : Nat} (hr : Based false o u ∨ Agree D r) :
    Both (DepSim D) (eraseOne env w o r) (eraseOne env u o r) := by
  simp only [eraseOne, Option.bind_eq_bind, h.obj]
  refine Both.same fun vo hvo => (eraseLocal_sim h o r).bind fun w1 u1 _ _ h1 => ?_
  split
  · rename_i e
    rcases hr with hr | hr
    · rw [hr vo hvo] at e; cases e
    · exact (removeFromDeps_sim env h1 hr).bind fun w2 u2 _ _ h2 => invalidate_sim hD h2 r
  · exact h1

theorem removeRecord_sim (hD : Closed D) (env : Env) (h : DepSim D w u) {o r : Nat} (hr : Based false o u ∨ Agree D r) :
    Both (DepSimP D) (removeRecord env w o r) (removeRecord env u o r) := by
  simp only [removeRecord, Option.bind_eq_bind, h.obj]
  refine Both.same fun vo hvo => ?_
  split
  · exact ⟨h, rfl⟩
  · exact (eraseOne_sim hD env h hr).map fun a b h1 => ⟨h1, rfl⟩

theorem eraseRef_sim (hD : Closed D) (env : Env) (h : DepSim D w u) {o f : Nat} (hr : Based false o u ∨ AgreeRef D w f) :
    Both (DepSimP D) (eraseRef env w o f) (eraseRef env u o f) := by
  simp only [eraseRef, Option.bind_eq_bind, h.obj, ← h.refs]
  refine Both.same fun ref href => ?_
  cases hp : ref.ptr with
  | none =>
    cases u.getObj o with
    | none => trivial
    | some _ => exact ⟨h, rfl⟩
  | some r => exact removeRecord_sim hD env h (hr.imp id fun hr => hr ref r href hp)

/-- The worlds agree on all records that the object lists with this value. -/
def AgreeAll (D : Nat → Bool → List Nat → List Nat → Prop) (o : Nat) (k : K) (v : V) (w : World K V Ty) : Prop :=
  ∀ vo c r, w.getObj o = some vo → mget vo.cols k = some c → (v, r) ∈ c.hash → Agree D r

theorem eraseKV_sim (hD : Closed D) (env : Env) (h : DepSim D w u) {o : Nat} (k : K) (v : V) (hr : Based false o u ∨ AgreeAll D o k v u) :
    Both (DepSimP D) (eraseKV env w o k v) (eraseKV env u o k v) := by
  simp only [eraseKV, Option.bind_eq_bind, h.obj]
  refine Both.same fun vo hvo => ?_
  cases hc : checkKey vo k (typeOf v) with
  | error e => exact ⟨h, rfl⟩
  | ok c =>
    dsimp only
    cases hl : equalRange env c v with
    | nil => exact ⟨h, rfl⟩
    | cons r l =>
      refine (eraseOne_sim hD env h (hr.imp id fun hr => ?_)).map fun a b h1 => ⟨h1, rfl⟩
      exact hr vo c r hvo (checkKey_ok hc).1 (equalRange_mem.mp (show r ∈ equalRange env c v by rw [hl]; simp))

theorem loop_eraseOne_sim (hD : Closed D) (env : Env) (h : DepSim D w u) {o : Nat} {l : List Nat} (hr : Based false o u ∨ ∀ r ∈ l, Agree D r) :
    Both (DepSim D) (loop (fun w r => eraseOne env w o r) l w) (loop (fun w r => eraseOne env w o r) l u) := by
  rcases hr with hr | hr
  · induction l generalizing w u with
    | nil => exact h
    | cons r l ih =>
      simp only [loop]
      exact (eraseOne_sim hD env h (.inl hr)).bind fun a b _ hb h1 => ih h1 (eraseOne_based hr hb)
  · exact Both.loop _ (fun r hm b c hb => eraseOne_sim hD env hb (.inr (hr r hm))) h

theorem eraseManyKV_sim (hD : Closed D) (env : Env) (h : DepSim D w u) {o : Nat} (k : K) (v : V) (hr : Based false o u ∨ AgreeAll D o k v u) (n : Nat) :
    Both (DepSimP D) (eraseManyKV env w o k v n) (eraseManyKV env u o k v n) := by
  simp only [eraseManyKV, Option.bind_eq_bind, h.obj]
  refine Both.same fun vo hvo => ?_
  cases hc : checkKey vo k (typeOf v) with
  | error e => exact ⟨h, rfl⟩
  | ok c =>
    dsimp only
    cases hl : equalRange env c v with
    | nil => exact ⟨h, rfl⟩
    | cons r l =>
      refine (loop_eraseOne_sim hD env h (hr.imp id fun hr => ?_)).map fun a b h1 => ⟨h1, rfl⟩
      intro t ht
      exact hr vo c t hvo (checkKey_ok hc).1 (equalRange_mem.mp (show t ∈ equalRange env c v by rw [hl]; exact List.mem_of_mem_take ht))

theorem dropData_sim (hD : Closed D) (env : Env) (h : DepSim D w u) (o : Nat) : Both (DepSim D) (dropData env w o) (dropData env u o) := by
  simp only [dropData, Option.bind_eq_bind, h.obj]
  refine Both.same fun vo _ => ?_
  refine (Both.loop _ (fun s _ b c hb => setClear_sim hD env hb s) h).bind fun w1 u1 _ _ h1 => ?_
  refine (Both.loop _ (fun r _ b c hb => invalidate_sim hD hb r) h1).bind fun w2 u2 _ _ h2 => ?_
  simp only [h2.obj]
  exact Both.same fun vo _ => h2.putObj _ _

theorem dropVault_sim (hD : Closed D) (env : Env) (h : DepSim D w u) (o : Nat) : Both (DepSim D) (dropVault env w o) (dropVault env u o) := by
  simp only [dropVault, Option.bind_eq_bind, h.obj]
  refine Both.same fun vo _ => ?_
  exact (Both.loop _ (fun s _ b c hb => setReset_sim hD env hb s) h).bind fun w1 u1 _ _ h1 => dropCore_sim hD env h1 o

/-! ### Keys -/

theorem writeCell_sim (h : DepSim D w u) (k : K) (p : Nat × V) : Both (DepSim D) (writeCell k w p) (writeCell k u p) :=
  h.mapRec (f := fun x => w.putRec p.1 { x with data := mput x.data k p.2 }) fun x l _ _ h3 => h.putRec p.1 (x := { x with data := mput x.data k p.2 }) h3

theorem addUniqueLocal_sim (env : Env) (h : DepSim D w u) (o : Nat) (k : K) (t : Ty) (noFn : Bool) (f : Nat → Nat → V) :
    Both (DepSimP D) (addUniqueLocal env w o k t noFn f) (addUniqueLocal env u o k t noFn f) := by
  simp only [addUniqueLocal, Option.bind_eq_bind, h.obj]
  refine Both.same fun vo _ => ?_
  split
  · exact ⟨h, rfl⟩
  · split
    · exact ⟨h, rfl⟩
    · cases hc : fnCol (fnValues t f 0 (env.perm vo.recs)) (⟨t, false, zero t, [], [], false, false⟩ : Col V Ty) with
      | none => exact ⟨h, rfl⟩
      | some c =>
        dsimp only
        split
        · refine Both.bind (R := DepSim D) (Both.loop _ (fun p _ b c hb => writeCell_sim hb k p) h) fun a b _ _ h1 => ?_
          exact ⟨h1.putObj _ _, rfl⟩
        · exact ⟨h.putObj _ _, rfl⟩

theorem pushKey_sim (h : DepSim D w u) (k : K) (s : Nat) : Both (DepSim D) (pushKey k w s) (pushKey k u s) := by
  simp only [pushKey, h.obj]
  cases u.getObj s with
  | none => trivial
  | some so => exact h.putObj _ _

theorem addKey_sim (env : Env) (h : DepSim D w u) (o : Nat) (k : K) (d : V) : Both (DepSimP D) (addKey env w o k d) (addKey env u o k d) := by
  simp only [addKey, Option.bind_eq_bind, h.obj]
  refine Both.same fun vo _ => (addKeyLocal_sim env h o k d).bind fun p q _ _ hp => ?_
  obtain ⟨w1, res⟩ := p; obtain ⟨u1, res'⟩ := q
  obtain ⟨h1, rfl⟩ := hp
  dsimp only at h1 ⊢
  split
  · exact ⟨h1, rfl⟩
  · refine (Both.loop _ (fun s _ b c hb => ?_) h1).bind fun w2 u2 _ _ h2 => ⟨h2, rfl⟩
    exact (addKeyLocal_sim env hb s k d).bind fun p q _ _ hp => pushKey_sim hp.1 k s

theorem addUniqueKey_sim (env : Env) (h : DepSim D w u) (o : Nat) (k : K) (t : Ty) (noFn : Bool) (f : Nat → Nat → Nat → V) :
    Both (DepSimP D) (addUniqueKey env w o k t noFn f) (addUniqueKey env u o k t noFn f) := by
  simp only [addUniqueKey, Option.bind_eq_bind, h.obj]
  refine Both.same fun vo _ => (addUniqueLocal_sim env h o k t noFn (f o)).bind fun p q _ _ hp => ?_
  obtain ⟨w1, res⟩ := p; obtain ⟨u1, res'⟩ := q
  obtain ⟨h1, rfl⟩ := hp
  dsimp only at h1 ⊢
  split
  · exact ⟨h1, rfl⟩
  · refine (Both.loop _ (fun s _ b c hb => ?_) h1).bind fun w2 u2 _ _ h2 => ⟨h2, rfl⟩
    exact (addUniqueLocal_sim env hb s k t false (f s)).bind fun p q _ _ hp => pushKey_sim hp.1 k s

theorem updateKey_sim (h : DepSim D w u) (o : Nat) (k : K) (d : V) : Both (DepSimP D) (updateKey w o k d) (updateKey u o k d) := by
  simp only [updateKey, Option.bind_eq_bind, h.obj]
  refine Both.same fun vo _ => ?_
  cases checkKey vo k (typeOf d) with
  | error e => exact ⟨h, rfl⟩
  | ok c =>
    dsimp only
    split
    · exact ⟨h, rfl⟩
    · exact ⟨h.putObj _ _, rfl⟩

theorem removeKey_sim (env : Env) (h : DepSim D w u) (o : Nat) (k : K) : Both (DepSimP D) (removeKey env w o k) (removeKey env u o k) := by
  simp only [removeKey, Option.bind_eq_bind, h.obj]
  refine Both.same fun vo _ => ?_
  split
  · exact ⟨h, rfl⟩
  · refine (Both.loop _ (fun r _ b c hb => ?_) (h.putObj _ _)).bind fun w2 u2 _ _ h2 => ?_
    · exact hb.mapRec (f := fun x => b.putRec r { x with data := mdel x.data k }) fun x l _ _ h3 => hb.putRec r (x := { x with data := mdel x.data k }) h3
    · refine (Both.loop _ (fun s _ b c hb => ?_) h2).bind fun w3 u3 _ _ h3 => ⟨h3, rfl⟩
      simp only [removeKeyLocal, hb.obj]
      cases c.getObj s with
      | none => trivial
      | some so =>
        show DepSim D _ _
        dsimp only
        split
        · exact hb.putObj _ _
        · exact hb

/-! ### Creating, finding -/

theorem insertRecord_sim (hD : Closed D) (h : DepSim D w u) (o : Nat) (data : List (K × V)) :
    Both (DepSimP D) (insertRecord w o data) (insertRecord u o data) := by
  simp only [insertRecord, Option.bind_eq_bind, h.obj, h.nextR]
  refine Both.same fun vo _ => Both.same fun p _ => ?_
  obtain ⟨cols, clash⟩ := p
  dsimp only
  cases clash with
  | some c => exact ⟨h.putObj _ _, rfl⟩
  | none =>
    refine ⟨?_, rfl⟩
    have := h.newRec hD data
    rw [h.nextR] at this
    exact this.putObj _ _

theorem createRecord_sim (hD : Closed D) (h : DepSim D w u) (o f : Nat) (ps : List (K × V)) : Both (DepSimP D) (createRecord w o f ps) (createRecord u o f ps) := by
  simp only [createRecord, Option.bind_eq_bind, h.obj]
  refine Both.same fun vo _ => ?_
  cases applyParams vo ps vo.tmpl with
  | error e => exact ⟨h, rfl⟩
  | ok data =>
    dsimp only
    refine (insertRecord_sim hD h o data).bind fun p q _ _ hp => ?_
    obtain ⟨w1, out⟩ := p; obtain ⟨u1, out'⟩ := q
    obtain ⟨h1, rfl⟩ := hp
    dsimp only at h1 ⊢
    cases out with
    | error k => exact ⟨h1, rfl⟩
    | ok r => exact (setRecord_sim h1 f (some r) o).map fun a b h2 => ⟨h2, rfl⟩

theorem createRow_sim (hD : Closed D) (h : DepSim D w u) (o : Nat) (ps : List (K × V)) : Both (DepSimP D) (createRow w o ps) (createRow u o ps) := by
  simp only [createRow, Option.bind_eq_bind, h.obj]
  refine Both.same fun vo _ => ?_
  cases applyParams vo ps vo.tmpl with
  | error e => exact ⟨h, rfl⟩
  | ok data =>
    dsimp only
    refine (insertRecord_sim hD h o data).bind fun p q _ _ hp => ?_
    obtain ⟨w1, out⟩ := p; obtain ⟨u1, out'⟩ := q
    obtain ⟨h1, rfl⟩ := hp
    dsimp only at h1 ⊢
    cases out with
    | error k => exact ⟨h1, rfl⟩
    | ok r => exact ⟨h1, rfl⟩

theorem getRecord_sim (env : Env) (h : DepSim D w u) (o : Nat) (k : K) (v : V) (f : Nat) : Both (DepSimP D) (getRecord env w o k v f) (getRecord env u o k v f) := by
  simp only [getRecord, Option.bind_eq_bind, h.obj]
  refine Both.same fun vo _ => ?_
  cases checkKey vo k (typeOf v) with
  | error e => exact ⟨h, rfl⟩
  | ok c =>
    dsimp only
    cases equalRange env c v with
    | nil => exact (setRecord_sim h f none o).map fun a b h2 => ⟨h2, rfl⟩
    | cons r l => exact (setRecord_sim h f (some r) o).map fun a b h2 => ⟨h2, rfl⟩

theorem getRecords_sim (env : Env) (h : DepSim D w u) (o : Nat) (k : K) (v : V) (n : Nat) : Both (DepSimP D) (getRecords env w o k v n) (getRecords env u o k v n) := by
  simp only [getRecords, Option.bind_eq_bind, h.obj]
  refine Both.same fun vo _ => ?_
  cases checkKey vo k (typeOf v) with
  | error e => exact ⟨h, rfl⟩
  | ok c =>
    dsimp only
    cases equalRange env c v with
    | nil => exact ⟨h, rfl⟩
    | cons r l => exact (Both.loop _ (fun r _ b c hb => newRefTo_sim hb r o) h).map fun a b h2 => ⟨h2, rfl⟩

theorem getSorted_sim (h : DepSim D w u) (o : Nat) (k : K) (rev : Bool) (n : Option Nat) : Both (DepSim D) (getSorted w o k rev n) (getSorted u o k rev n) := by
  simp only [getSorted, Option.bind_eq_bind, h.obj]
  refine Both.same fun vo _ => ?_
  split
  · exact h
  · exact Both.loop _ (fun r _ b c hb => newRefTo_sim hb r o) h

theorem setGetRecord_sim (env : Env) (h : DepSim D w u) (s : Nat) (k : K) (v : V) (f : Nat) :
    Both (DepSimP D) (setGetRecord env w s k v f) (setGetRecord env u s k v f) := by
  simp only [setGetRecord, Option.bind_eq_bind, h.obj]
  refine Both.same fun so _ => ?_
  cases so.parent with
  | none => exact ⟨h, rfl⟩
  | some p =>
    refine (getRecord_sim env h s k v f).bind fun a b _ _ hp => ?_
    obtain ⟨w1, res⟩ := a; obtain ⟨u1, res'⟩ := b
    obtain ⟨h1, rfl⟩ := hp
    dsimp only at h1 ⊢
    rw [h1.refs]
    exact Both.same fun ref _ => ⟨h1.setRefs _, rfl⟩

theorem setGetRecords_sim (env : Env) (h : DepSim D w u) (s : Nat) (k : K) (v : V) (n : Nat) :
    Both (DepSimP D) (setGetRecords env w s k v n) (setGetRecords env u s k v n) := by
  simp only [setGetRecords, Option.bind_eq_bind, h.obj]
  refine Both.same fun so _ => ?_
  cases so.parent with
  | none => exact ⟨h, rfl⟩
  | some p =>
    refine Both.same fun _ _ => ?_
    cases checkKey so k (typeOf v) with
    | error e => exact ⟨h, rfl⟩
    | ok c =>
      dsimp only
      cases equalRange env c v with
      | nil => exact ⟨h, rfl⟩
      | cons r l => exact (Both.loop _ (fun r _ b c hb => newRefTo_sim hb r p) h).map fun a b h2 => ⟨h2, rfl⟩

/-! ### Requests and sets -/

theorem setAddRecord_sim (hD : Closed D) (h : DepSim D w u) (s f : Nat) : Both (DepSimP D) (setAddRecord w s f) (setAddRecord u s f) := by
  simp only [setAddRecord, Option.bind_eq_bind, h.obj, h.refs, refIsValid_sim h]
  refine Both.same fun so _ => ?_
  cases so.parent with
  | none => exact ⟨h, rfl⟩
  | some p =>
    refine Both.same fun ref _ => Both.same fun val _ => ?_
    split
    · exact ⟨h, rfl⟩
    · split
      · exact ⟨h, rfl⟩
      · cases ref.ptr with
        | none => trivial
        | some r =>
          dsimp only
          split
          · exact ⟨h, rfl⟩
          · exact (attach_sim hD (h.putObj _ _) s r).map fun a b h2 => ⟨h2, rfl⟩

theorem setCopyNew_sim (hD : Closed D) (env : Env) (h : DepSim D w u) (a : Nat) : Both (DepSim D) (setCopyNew env w a) (setCopyNew env u a) := by
  simp only [setCopyNew, Option.bind_eq_bind, h.obj]
  refine Both.same fun ao _ => ?_
  have h1 : DepSim D ({ w with objs := mput w.objs w.nextO { Obj.newSet with isBase := true }, nextO := w.nextO + 1 } : World K V Ty)
      { u with objs := mput u.objs u.nextO { Obj.newSet with isBase := true }, nextO := u.nextO + 1 } :=
    ⟨by simp only [h.objs, h.nextO], h.refs, h.nextR, by simp only [h.nextO], h.recs⟩
  split
  · exact h1
  · rw [← h.nextO] at h1 ⊢; exact copySet_sim hD env h1 _ a

theorem setAssign_sim (hD : Closed D) (env : Env) (h : DepSim D w u) (s a : Nat) : Both (DepSim D) (setAssign env w s a) (setAssign env u s a) := by
  simp only [setAssign, Option.bind_eq_bind, h.obj]
  refine Both.same fun _ _ => Both.same fun ao _ => ?_
  split
  · exact h
  · refine (setReset_sim hD env h s).bind fun w1 u1 _ _ h1 => ?_
    split
    · exact h1
    · exact copySet_sim hD env h1 s a

theorem destroyVault_sim (hD : Closed D) (env : Env) (h : DepSim D w u) (o : Nat) : Both (DepSim D) (destroyVault env w o) (destroyVault env u o) := by
  simp only [destroyVault, Option.bind_eq_bind]
  refine (dropVault_sim hD env h o).bind fun w1 u1 _ _ h1 => ?_
  show DepSim D _ _
  rw [h1.objs]; exact h1.setObjs _

theorem destroySet_sim (hD : Closed D) (env : Env) (h : DepSim D w u) (s : Nat) : Both (DepSim D) (destroySet env w s) (destroySet env u s) := by
  simp only [destroySet, Option.bind_eq_bind]
  refine (setReset_sim hD env h s).bind fun w1 u1 _ _ h1 => (dropVault_sim hD env h1 s).bind fun w2 u2 _ _ h2 => ?_
  show DepSim D _ _
  rw [h2.objs]; exact h2.setObjs _

theorem newObj_sim (h : DepSim D w u) (x : Obj K V Ty) : DepSim D ({ w with objs := mput w.objs w.nextO x, nextO := w.nextO + 1 } : World K V Ty)
      { u with objs := mput u.objs u.nextO x, nextO := u.nextO + 1 } :=
  ⟨by simp only [h.objs, h.nextO], h.refs, h.nextR, by simp only [h.nextO], h.recs⟩

theorem copyInto_sim (hD : Closed D) (env : Env) (h : DepSim D w u) (o a : Nat) : Both (DepSim D) (copyInto env w o a) (copyInto env u o a) := by
  simp only [copyInto, Option.bind_eq_bind, h.obj]
  refine Both.same fun ao _ => (copyKeys_sim env ao h o).bind fun w1 u1 _ _ h1 => ?_
  simp only [h1.obj]
  refine Both.same fun vo _ => Both.loop _ (fun r _ b c hb => ?_) (h1.putObj _ _)
  simp only [copyOne, Option.bind_eq_bind, hb.obj]
  refine hb.bindRec fun x l _ _ _ => Both.same fun vo _ => ?_
  rw [hb.nextR]
  have := hb.newRec hD x.data
  rw [hb.nextR] at this
  exact this.putObj _ _

theorem vaultCopyNew_sim (hD : Closed D) (env : Env) (h : DepSim D w u) (a : Nat) : Both (DepSim D) (vaultCopyNew env w a) (vaultCopyNew env u a) := by
  simp only [vaultCopyNew, h.nextO]
  exact copyInto_sim hD env (newObj_sim h _) _ a

theorem vaultAssign_sim (hD : Closed D) (env : Env) (h : DepSim D w u) (o a : Nat) : Both (DepSim D) (vaultAssign env w o a) (vaultAssign env u o a) := by
  unfold vaultAssign
  split
  · exact h
  · exact (dropVault_sim hD env h o).bind fun w1 u1 _ _ h1 => copyInto_sim hD env h1 o a

theorem moveInto_sim (h : DepSim D w u) (o a : Nat) : Both (DepSim D) (moveInto w o a) (moveInto u o a) := by
  simp only [moveInto, Option.bind_eq_bind, h.obj]
  exact Both.same fun ao _ => Both.same fun vo _ => (h.putObj _ _).putObj _ _

theorem vaultMoveNew_sim (h : DepSim D w u) (a : Nat) : Both (DepSim D) (vaultMoveNew w a) (vaultMoveNew u a) := by
  simp only [vaultMoveNew, h.nextO]
  exact moveInto_sim (newObj_sim h _) _ a

theorem vaultMoveAssign_sim (hD : Closed D) (env : Env) (h : DepSim D w u) (o a : Nat) : Both (DepSim D) (vaultMoveAssign env w o a) (vaultMoveAssign env u o a) := by
  unfold vaultMoveAssign
  split
  · exact h
  · exact (dropVault_sim hD env h o).bind fun w1 u1 _ _ h1 => moveInto_sim h1 o a

end MVault.W
