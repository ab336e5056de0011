import Verif.WorldOut
import Verif.WorldDeep10
/-
Worlds that differ only in what the records know about the sets that hold them (`deps`). Almost no function of the library reads that list, so
such worlds behave alike. This file: the relation and the small steps.
-/
set_option linter.unusedSectionVars false
set_option linter.unusedSimpArgs false
set_option linter.unusedVariables false
namespace MVault.W
variable {K V Ty : Type} [LinearOrder K] [LinearOrder V] [Typed V Ty] [DecidableEq Ty]
variable {own home : Nat → Nat}

/-- Both undefined, or both defined with related results. -/
def Both {A B : Type} (R : A → B → Prop) : Option A → Option B → Prop
  | some a, some b => R a b
  | none, none => True
  | _, _ => False

theorem Both.mono {A B : Type} {R S : A → B → Prop} {x : Option A} {y : Option B} (h : Both R x y) (hi : ∀ a b, R a b → S a b) : Both S x y := by
  cases x <;> cases y <;> simp_all [Both]

theorem Both.bind {A B A' B' : Type} {R : A → B → Prop} {S : A' → B' → Prop} {x : Option A} {y : Option B} {f : A → Option A'} {g : B → Option B'}
    (h : Both R x y) (hf : ∀ a b, x = some a → y = some b → R a b → Both S (f a) (g b)) : Both S (x.bind f) (y.bind g) := by
  cases x <;> cases y <;> simp_all [Both]

theorem Both.map {A B A' B' : Type} {R : A → B → Prop} {S : A' → B' → Prop} {x : Option A} {y : Option B} {f : A → A'} {g : B → B'}
    (h : Both R x y) (hf : ∀ a b, R a b → S (f a) (g b)) : Both S (x.map f) (y.map g) := by
  cases x <;> cases y <;> simp_all [Both]

theorem Both.same {A A' B' : Type} {S : A' → B' → Prop} {x : Option A} {f : A → Option A'} {g : A → Option B'}
    (hf : ∀ a, x = some a → Both S (f a) (g a)) : Both S (x.bind f) (x.bind g) := by
  cases x <;> simp_all [Both]

theorem Both.loop {A B C : Type} {R : B → C → Prop} {f : B → A → Option B} {g : C → A → Option C} (l : List A)
    (hf : ∀ a ∈ l, ∀ b c, R b c → Both R (f b a) (g c a)) {b : B} {c : C} (h : R b c) : Both R (loop f l b) (loop g l c) := by
  induction l generalizing b c with
  | nil => exact h
  | cons a l ih =>
    simp only [W.loop]
    exact (hf a (by simp) b c h).bind fun b1 c1 _ _ h1 => ih (fun a ha => hf a (by simp [ha])) h1

theorem Both.left {A B : Type} {R : A → B → Prop} {x : Option A} {y : Option B} (h : Both R x y) {a : A} (hx : x = some a) : ∃ b, y = some b ∧ R a b := by
  cases y <;> simp_all [Both]

theorem Both.right {A B : Type} {R : A → B → Prop} {x : Option A} {y : Option B} (h : Both R x y) {b : B} (hy : y = some b) : ∃ a, x = some a ∧ R a b := by
  cases x <;> simp_all [Both]

/-- Relations between two lists of sets known to a record (the flag: the record is valid) that survive registering a set with the record, striking
it from the record, and the end of the record. -/
structure Closed (D : Nat → Bool → List Nat → List Nat → Prop) : Prop where
  nil : ∀ r, D r true [] []
  add : ∀ r v s a b, D r v a b → D r v (setIns a s) (setIns b s)
  del : ∀ r v s a b, D r v a b → D r v (a.filter (· ≠ s)) (b.filter (· ≠ s))
  inv : ∀ r v a b, D r v a b → D r false a b

/-- Same record, up to the sets it knows. -/
def RecSim (D : Nat → Bool → List Nat → List Nat → Prop) (r : Nat) (a b : Option (Rec K V)) : Prop :=
  (a = none ∧ b = none) ∨ ∃ x l, a = some x ∧ b = some { x with deps := l } ∧ D r x.valid x.deps l

/-- Same world, up to the sets the records know. -/
structure DepSim (D : Nat → Bool → List Nat → List Nat → Prop) (w u : World K V Ty) : Prop where
  objs : w.objs = u.objs
  refs : w.refs = u.refs
  nextR : w.nextR = u.nextR
  nextO : w.nextO = u.nextO
  recs : ∀ r, RecSim D r (w.getRec r) (u.getRec r)

/-- Same, with a result. -/
def DepSimP {A : Type} (D : Nat → Bool → List Nat → List Nat → Prop) (p q : World K V Ty × A) : Prop := DepSim D p.1 q.1 ∧ p.2 = q.2

variable {D : Nat → Bool → List Nat → List Nat → Prop} {w u : World K V Ty}

theorem DepSim.obj (h : DepSim D w u) (o : Nat) : w.getObj o = u.getObj o := by simp only [World.getObj, h.objs]

theorem DepSim.putObj (h : DepSim D w u) (o : Nat) (x : Obj K V Ty) : DepSim D (w.putObj o x) (u.putObj o x) :=
  ⟨by simp only [World.putObj, h.objs], h.refs, h.nextR, h.nextO, h.recs⟩

theorem DepSim.setRefs (h : DepSim D w u) (l : List Ref) : DepSim D { w with refs := l } { u with refs := l } :=
  ⟨h.objs, rfl, h.nextR, h.nextO, h.recs⟩

theorem DepSim.setObjs (h : DepSim D w u) (l : List (Nat × Obj K V Ty)) : DepSim D { w with objs := l } { u with objs := l } :=
  ⟨rfl, h.refs, h.nextR, h.nextO, h.recs⟩

theorem DepSim.putRec (h : DepSim D w u) (r : Nat) {x : Rec K V} {l : List Nat} (hx : D r x.valid x.deps l) :
    DepSim D (w.putRec r x) (u.putRec r { x with deps := l }) := by
  refine ⟨h.objs, h.refs, h.nextR, h.nextO, fun t => ?_⟩
  rw [getRec_putRec, getRec_putRec]
  by_cases e : r = t
  · subst e; rw [if_pos rfl, if_pos rfl]; exact .inr ⟨x, l, rfl, rfl, hx⟩
  · rw [if_neg e, if_neg e]; exact h.recs t

theorem DepSim.freeRec (h : DepSim D w u) (r : Nat) : DepSim D (w.freeRec r) (u.freeRec r) := by
  refine ⟨h.objs, h.refs, h.nextR, h.nextO, fun t => ?_⟩
  simp only [World.freeRec, World.getRec, mget_mdel]
  by_cases e : r = t
  · rw [if_pos e, if_pos e]; exact .inl ⟨rfl, rfl⟩
  · rw [if_neg e, if_neg e]; exact h.recs t

theorem DepSim.newRec (hD : Closed D) (h : DepSim D w u) (data : List (K × V)) :
    DepSim D ({ w with recs := mput w.recs w.nextR ⟨data, true, 0, []⟩, nextR := w.nextR + 1 } : World K V Ty)
      { u with recs := mput u.recs u.nextR ⟨data, true, 0, []⟩, nextR := u.nextR + 1 } := by
  refine ⟨h.objs, h.refs, by simp only [h.nextR], h.nextO, fun t => ?_⟩
  simp only [World.getRec, mget_mput, ← h.nextR]
  by_cases e : w.nextR = t
  · rw [if_pos e, if_pos e]; exact .inr ⟨_, _, rfl, rfl, hD.nil t⟩
  · rw [if_neg e, if_neg e]; exact h.recs t

/-- A step that replaces one record. -/
theorem DepSim.mapRec {A B : Type} {S : A → B → Prop} (h : DepSim D w u) {r : Nat} {f : Rec K V → A} {g : Rec K V → B}
    (hf : ∀ x l, w.getRec r = some x → u.getRec r = some { x with deps := l } → D r x.valid x.deps l → S (f x) (g { x with deps := l })) :
    Both S ((w.getRec r).map f) ((u.getRec r).map g) := by
  rcases h.recs r with ⟨h1, h2⟩ | ⟨x, l, h1, h2, h3⟩
  · rw [h1, h2]; trivial
  · rw [h1, h2]; exact hf x l h1 h2 h3

theorem DepSim.bindRec {A B : Type} {S : A → B → Prop} (h : DepSim D w u) {r : Nat} {f : Rec K V → Option A} {g : Rec K V → Option B}
    (hf : ∀ x l, w.getRec r = some x → u.getRec r = some { x with deps := l } → D r x.valid x.deps l → Both S (f x) (g { x with deps := l })) :
    Both S ((w.getRec r).bind f) ((u.getRec r).bind g) := by
  rcases h.recs r with ⟨h1, h2⟩ | ⟨x, l, h1, h2, h3⟩
  · rw [h1, h2]; trivial
  · rw [h1, h2]; exact hf x l h1 h2 h3

theorem DepSim.data (h : DepSim D w u) (r : Nat) : (w.getRec r).map (·.data) = (u.getRec r).map (·.data) := by
  rcases h.recs r with ⟨h1, h2⟩ | ⟨x, l, h1, h2, h3⟩ <;> rw [h1, h2]; rfl

theorem DepSim.validity (h : DepSim D w u) (r : Nat) : (w.getRec r).map (·.valid) = (u.getRec r).map (·.valid) := by
  rcases h.recs r with ⟨h1, h2⟩ | ⟨x, l, h1, h2, h3⟩ <;> rw [h1, h2]; rfl

theorem DepSim.mono {D' : Nat → Bool → List Nat → List Nat → Prop} (h : DepSim D w u)
    (hm : ∀ r x y, w.getRec r = some x → u.getRec r = some y → D r x.valid x.deps y.deps → D' r x.valid x.deps y.deps) : DepSim D' w u := by
  refine ⟨h.objs, h.refs, h.nextR, h.nextO, fun r => ?_⟩
  rcases h.recs r with ⟨h1, h2⟩ | ⟨x, l, h1, h2, h3⟩
  · exact .inl ⟨h1, h2⟩
  · exact .inr ⟨x, l, h1, h2, hm r x _ h1 h2 h3⟩

/-! ### Records and references -/

theorem addRef_sim (h : DepSim D w u) (r : Nat) : Both (DepSim D) (addRef w r) (addRef u r) :=
  h.mapRec (f := fun x => w.putRec r { x with refs := x.refs + 1 }) fun x l _ _ h3 => h.putRec r (x := { x with refs := x.refs + 1 }) h3

theorem removeRef_sim (h : DepSim D w u) (r : Nat) : Both (DepSim D) (removeRef w r) (removeRef u r) := by
  refine h.mapRec (f := fun x => if x.valid = false ∧ x.refs - 1 = 0 then w.freeRec r else w.putRec r { x with refs := x.refs - 1 }) fun x l _ _ h3 => ?_
  by_cases e : x.valid = false ∧ x.refs - 1 = 0
  · rw [if_pos e, if_pos e]; exact h.freeRec r
  · rw [if_neg e, if_neg e]; exact h.putRec r (x := { x with refs := x.refs - 1 }) h3

theorem invalidate_sim (hD : Closed D) (h : DepSim D w u) (r : Nat) : Both (DepSim D) (invalidate w r) (invalidate u r) := by
  refine h.mapRec (f := fun x => if x.refs = 0 then w.freeRec r else w.putRec r { x with valid := false }) fun x l _ _ h3 => ?_
  by_cases e : x.refs = 0
  · rw [if_pos e, if_pos e]; exact h.freeRec r
  · rw [if_neg e, if_neg e]; exact h.putRec r (x := { x with valid := false }) (hD.inv r _ _ _ h3)

theorem optStep_sim {f : World K V Ty → Nat → Option (World K V Ty)} (hf : ∀ {w u : World K V Ty} (r : Nat), DepSim D w u → Both (DepSim D) (f w r) (f u r))
    (h : DepSim D w u) (r : Option Nat) : Both (DepSim D) (optStep f w r) (optStep f u r) := by
  cases r with
  | none => exact h
  | some r => exact hf r h

theorem setRecord_sim (h : DepSim D w u) (f : Nat) (r : Option Nat) (o : Nat) : Both (DepSim D) (setRecord w f r o) (setRecord u f r o) := by
  simp only [setRecord, Option.bind_eq_bind, h.obj, h.refs]
  refine Both.same fun _ _ => Both.same fun old _ => ?_
  refine (optStep_sim (fun r h => addRef_sim h r) h r).bind fun a b _ _ h1 => ?_
  refine (optStep_sim (fun r h => removeRef_sim h r) h1 _).bind fun a b _ _ h2 => ?_
  show DepSim D _ _
  rw [h2.refs]; exact h2.setRefs _

theorem newRef_sim (h : DepSim D w u) : DepSim D (newRef w) (newRef u) := by
  simp only [newRef, h.refs]; exact h.setRefs _

theorem newRefTo_sim (h : DepSim D w u) (r o : Nat) : Both (DepSim D) (newRefTo w r o) (newRefTo u r o) := by
  simp only [newRefTo, h.refs]; exact setRecord_sim (newRef_sim h) _ _ _

theorem refCopy_sim (h : DepSim D w u) (f g : Nat) : Both (DepSim D) (refCopy w f g) (refCopy u f g) := by
  simp only [refCopy, Option.bind_eq_bind, h.refs]
  refine Both.same fun old _ => Both.same fun src _ => ?_
  split
  · exact h
  · refine (optStep_sim (fun r h => removeRef_sim h r) h _).bind fun a b _ _ h1 => ?_
    refine (optStep_sim (fun r h => addRef_sim h r) h1 _).bind fun a b _ _ h2 => ?_
    show DepSim D _ _
    rw [h2.refs]; exact h2.setRefs _

theorem refMove_sim (h : DepSim D w u) (f g : Nat) : Both (DepSim D) (refMove w f g) (refMove u f g) := by
  simp only [refMove, Option.bind_eq_bind, h.refs]
  refine Both.same fun old _ => Both.same fun src _ => ?_
  split
  · exact h
  · refine (optStep_sim (fun r h => removeRef_sim h r) h _).bind fun a b _ _ h1 => ?_
    cases src.ptr with
    | none => show DepSim D _ _; rw [h1.refs]; exact h1.setRefs _
    | some r => show DepSim D _ _; rw [h1.refs]; exact h1.setRefs _

theorem refReset_sim (h : DepSim D w u) (f : Nat) : Both (DepSim D) (refReset w f) (refReset u f) := by
  simp only [refReset, Option.bind_eq_bind, h.refs]
  refine Both.same fun old _ => ?_
  refine (optStep_sim (fun r h => removeRef_sim h r) h _).bind fun a b _ _ h1 => ?_
  show DepSim D _ _
  rw [h1.refs]; exact h1.setRefs _

theorem refIsValid_sim (h : DepSim D w u) (f : Nat) : refIsValid w f = refIsValid u f := by
  simp only [refIsValid, Option.bind_eq_bind, h.refs, h.validity]

/-! ### Sets -/

theorem eraseDep_sim (hD : Closed D) (h : DepSim D w u) (s r : Nat) : Both (DepSim D) (eraseDep s w r) (eraseDep s u r) :=
  h.mapRec (f := fun x => w.putRec r { x with deps := x.deps.filter (· ≠ s) }) fun x l _ _ h3 =>
    h.putRec r (x := { x with deps := x.deps.filter (· ≠ s) }) (l := l.filter (· ≠ s)) (hD.del r _ s _ _ h3)

theorem addDep_sim (hD : Closed D) (h : DepSim D w u) (s r : Nat) : Both (DepSim D) (addDep s w r) (addDep s u r) :=
  h.mapRec (f := fun x => w.putRec r { x with deps := setIns x.deps s }) fun x l _ _ h3 =>
    h.putRec r (x := { x with deps := setIns x.deps s }) (l := setIns l s) (hD.add r _ s _ _ h3)

theorem setClear_sim (hD : Closed D) (env : Env) (h : DepSim D w u) (s : Nat) : Both (DepSim D) (setClear env w s) (setClear env u s) := by
  simp only [setClear, Option.bind_eq_bind, h.obj]
  refine Both.same fun so _ => ?_
  split
  · exact h
  · exact (Both.loop _ (fun r _ b c hb => eraseDep_sim hD hb s r) h).bind fun a b _ _ h1 => h1.putObj _ _

theorem dropCore_sim (hD : Closed D) (env : Env) (h : DepSim D w u) (o : Nat) : Both (DepSim D) (dropCore env w o) (dropCore env u o) := by
  simp only [dropCore, Option.bind_eq_bind, h.obj]
  refine Both.same fun so _ => ?_
  exact (Both.loop _ (fun r _ b c hb => invalidate_sim hD hb r) h).bind fun a b _ _ h1 => h1.putObj _ _

theorem setReset_sim (hD : Closed D) (env : Env) (h : DepSim D w u) (s : Nat) : Both (DepSim D) (setReset env w s) (setReset env u s) := by
  simp only [setReset, Option.bind_eq_bind, h.obj]
  refine Both.same fun so _ => ?_
  cases so.parent with
  | none => exact h
  | some p =>
    refine Both.same fun _ _ => ?_
    refine (setClear_sim hD env h s).bind fun a b _ _ h1 => ?_
    refine (dropCore_sim hD env h1 s).bind fun a b _ _ h2 => ?_
    simp only [h2.obj]
    refine Both.same fun po _ => ?_
    simp only [(h2.putObj p _).obj]
    refine Both.same fun so _ => ?_
    exact (h2.putObj p _).putObj _ _

theorem eraseLocal_sim (h : DepSim D w u) (o r : Nat) : Both (DepSim D) (eraseLocal w o r) (eraseLocal u o r) := by
  simp only [eraseLocal, Option.bind_eq_bind, h.obj]
  exact Both.same fun vo _ => h.bindRec fun x l _ _ _ => h.putObj _ _

theorem addKeyLocal_sim (env : Env) (h : DepSim D w u) (o : Nat) (k : K) (d : V) : Both (DepSimP D) (addKeyLocal env w o k d) (addKeyLocal env u o k d) := by
  simp only [addKeyLocal, Option.bind_eq_bind, h.obj]
  refine Both.same fun vo _ => ?_
  split
  · exact ⟨h, rfl⟩
  · refine (Both.loop _ (fun p _ b c hb => ?_) h).bind fun a b _ _ h1 => ⟨h1.putObj _ _, rfl⟩
    exact hb.mapRec (f := fun x => b.putRec p.1 { x with data := mput x.data k p.2 }) fun x l _ _ h3 => hb.putRec p.1 (x := { x with data := mput x.data k p.2 }) h3

theorem copyKeys_sim (env : Env) (src : Obj K V Ty) (h : DepSim D w u) (s : Nat) : Both (DepSim D) (copyKeys env src w s) (copyKeys env src u s) :=
  Both.loop _ (fun kc _ b c hb => (addKeyLocal_sim env hb s kc.1 kc.2.dflt).map fun _ _ h => h.1) h

theorem prepTarget_sim (hD : Closed D) (env : Env) (h : DepSim D w u) (o p s : Nat) : Both (DepSim D) (prepTarget env w o p s) (prepTarget env u o p s) := by
  simp only [prepTarget, Option.bind_eq_bind, h.obj]
  refine Both.same fun po _ => ?_
  have h1 := h.putObj p { po with sets := setIns po.sets s }
  simp only [h1.obj]
  refine Both.same fun so _ => ?_
  split
  · exact setClear_sim hD env h1 s
  · refine (setReset_sim hD env h1 s).bind fun a b _ _ h2 => ?_
    simp only [h2.obj]
    refine Both.same fun so _ => ?_
    have h3 := h2.putObj s { so with parent := some p }
    simp only [h3.obj]
    refine Both.same fun oo _ => ?_
    refine (copyKeys_sim env oo h3 s).bind fun a b _ _ h4 => ?_
    simp only [h4.obj]
    exact Both.same fun so _ => h4.putObj _ _

theorem attach_sim (hD : Closed D) (h : DepSim D w u) (s r : Nat) : Both (DepSim D) (attach s w r) (attach s u r) := by
  simp only [attach, Option.bind_eq_bind, h.obj]
  exact Both.same fun so _ => h.bindRec fun x l _ _ _ => addDep_sim hD (h.putObj _ _) s r

theorem fillTarget_sim (hD : Closed D) (env : Env) (h : DepSim D w u) (s : Nat) (l : List Nat) : Both (DepSim D) (fillTarget env w s l) (fillTarget env u s l) := by
  simp only [fillTarget, Option.bind_eq_bind, h.obj]
  exact Both.same fun so _ => Both.loop _ (fun r _ b c hb => attach_sim hD hb s r) (h.putObj _ _)

theorem copySet_sim (hD : Closed D) (env : Env) (h : DepSim D w u) (s a : Nat) : Both (DepSim D) (copySet env w s a) (copySet env u s a) := by
  simp only [copySet, Option.bind_eq_bind, h.obj]
  refine Both.same fun ao _ => Both.same fun p _ => Both.same fun _ _ => Both.same fun so _ => ?_
  refine (copyKeys_sim env ao (h.putObj s _) s).bind fun w2 u2 _ _ h2 => ?_
  simp only [h2.obj]
  refine Both.same fun so _ => ?_
  have h3 := h2.putObj s { so with keysOrder := ao.keysOrder, uniq := ao.uniq }
  simp only [h3.obj]
  refine Both.same fun po _ => Both.loop _ (fun r _ b c hb => ?_) (h3.putObj _ _)
  simp only [hb.obj]
  exact Both.same fun so _ => attach_sim hD (hb.putObj _ _) s r

end MVault.W
