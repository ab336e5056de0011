import Verif.WorldGentle4
import Verif.AlgSpec
import Verif.PropsWindow
/-
Gentle use: the calls, what they mark, and what they are to the user of the sets.
-/
set_option linter.unusedSectionVars false
set_option linter.unusedSimpArgs false
set_option linter.unusedVariables false
namespace MVault.W
open MVault.Spec (Table Db Event Cmd SetVar State Call UpTo leaves arg GCall)
variable {K V Ty : Type} [LinearOrder K] [LinearOrder V] [Typed V Ty] [DecidableEq Ty]
variable {own home : Nat → Nat}

/-! ### What the user sees does not depend on what the records know -/

section
variable {D : Nat → Bool → List Nat → List Nat → Prop} {w u : World K V Ty}

theorem DepSim.value (h : DepSim D w u) (r : Nat) (k : K) : value w r k = value u r k := by
  simp only [W.value]
  rcases h.recs r with ⟨h1, h2⟩ | ⟨x, l, h1, h2, h3⟩ <;> rw [h1, h2]; rfl

theorem DepSim.listed (h : DepSim D w u) : (Listed · w · · ·) = (Listed · u · · · : Bool → Nat → K → Nat → Prop) := by
  funext b o k r
  simp only [Listed, ordIndex, hashIndex, h.obj]

theorem DepSim.table (h : DepSim D w u) (o : Nat) : asTable w o = asTable u o := by
  have e : ∀ r k, W.value w r k = W.value u r k := h.value
  have l : ∀ b k r, Listed b w o k r = Listed b u o k r := fun b k r => congrFun (congrFun (congrFun (congrFun h.listed b) o) k) r
  have m : members w o = members u o := by simp only [members, h.obj]
  apply Table.ext
  · simp only [asTable, getKeys, h.obj]
  · simp only [asTable, getUniqueKeys, h.obj]
  · funext k; simp only [asTable, getKeyType, h.obj]
  · funext k; simp only [asTable, getDefault, h.obj]
  · have g : getUniqueKeys w o = getUniqueKeys u o := by simp only [getUniqueKeys, h.obj]
    have d : ∀ k, keyDefault w o k = keyDefault u o k := fun k => by simp only [keyDefault, h.obj]
    funext k; simp only [asTable, g, d]
  · simp only [asTable, m]
  · funext r k; simp only [asTable, m, e]
  · funext b k r; exact l b k r

theorem DepSim.isVault (h : DepSim D w u) (o : Nat) : W.isVault w o = W.isVault u o := by simp only [W.isVault, h.obj]

theorem DepSim.db (h : DepSim D w u) : dbOf w = dbOf u := by
  funext o; simp only [dbOf, h.isVault, h.table]

theorem DepSim.state (h : DepSim D w u) : stateOf w = stateOf u := State.ext h.db (sets_objs h.objs)

theorem DepSim.event (h : DepSim D w u) (op : Op K V Ty) : eventOf w op = eventOf u op := by
  have e : ∀ o, W.isVault w o = W.isVault u o := h.isVault
  cases op <;> simp only [eventOf, target, through, h.refs, e, h.nextO]

theorem DepSim.call (h : DepSim D w u) (op : Op K V Ty) : callOf w op = callOf u op := by
  cases op <;> simp only [callOf, target, through, h.refs, h.nextO, h.event]

end

/-! ### One set has changed -/

theorem Beside.put {w w' : World K V Ty} {s : Nat} {so' : Obj K V Ty} (h : Beside s w w') (hdb : dbOf w' = dbOf w) (hs : w'.getObj s = some so') (his : so'.isSet = true) :
    stateOf w' = (stateOf w).put s (some so'.var) := by
  apply State.ext
  · exact hdb
  · funext t
    show varsOf w' t = if t = s then some so'.var else varsOf w t
    by_cases e : t = s
    · subst e; rw [if_pos rfl]; exact varsOf_some hs his
    · rw [if_neg e]
      cases hx : w.getObj t with
      | none =>
        have h1 := h.objN t e hx
        rw [varsOf_none (by intro so a; rw [h1] at a; cases a), varsOf_none (by intro so a; rw [hx] at a; cases a)]
      | some a =>
        obtain ⟨l, h1⟩ := h.obj t e a hx
        cases ha : a.isSet with
        | true => rw [varsOf_some hx ha, varsOf_some h1 (by exact ha)]; rfl
        | false => rw [varsOf_none (by intro so b; rw [h1] at b; cases b; exact ha), varsOf_none (by intro so b; rw [hx] at b; cases b; exact ha)]

theorem full_sim {w : World K V Ty} (hi : Inv own home w) {T P : Nat → Prop} (hk : Knows T P w) : DepSim (DT T P fun _ => False) w w.full := told_sim hi hk

theorem full_table {w : World K V Ty} (hi : Inv own home w) {T P : Nat → Prop} (hk : Knows T P w) (o : Nat) : asTable w.full o = asTable w o := ((full_sim hi hk).table o).symm

theorem full_objs (w : World K V Ty) (o : Nat) : w.full.getObj o = w.getObj o := rfl

/-- Records have come in. -/
theorem plus_var {T P : Nat → Prop} {w : World K V Ty} (hi : Inv own home w) (hg : Good w) (hk : Knows T P w) {s p : Nat} {so so' ao : Obj K V Ty} {l : List Nat}
    (hs : w.getObj s = some so) (his : so.isSet = true) (hp : so.parent = some p) (hp' : so'.parent = so.parent) (hr : so'.recs = so.recs ++ l)
    (hl : ∀ t, t ∈ l ↔ t ∈ ao.recs ∧ t ∉ so.recs) (hgr : Grown l so so') : so'.var = so.var.plus (asTable w p) ao.var.row := by
  apply SetVar.ext
  · exact hp'
  · funext r
    apply propext
    show r ∈ so'.recs ↔ r ∈ so.recs ∨ r ∈ ao.recs
    rw [hr, List.mem_append, hl]
    by_cases h : r ∈ so.recs <;> simp [h]
  · funext b k r
    apply propext
    show so'.lists b k r ↔ so.lists b k r ∨ (k ∈ (asTable w p).keys ∧ r ∈ ao.recs ∧ r ∉ so.recs)
    rw [hgr, hl, ← full_table hi hk, ← set_col (w := w.full) (told_inv hi) (full_deep hi hg) hs his hp]
    constructor
    · rintro (h | ⟨h1, h2⟩)
      · exact .inl h
      · exact .inr ⟨h2, h1⟩
    · rintro (h | ⟨h1, h2⟩)
      · exact .inl h
      · exact .inr ⟨h2, h1⟩

/-- Records have gone. -/
theorem lost_var {T P T' P' : Nat → Prop} {w w' : World K V Ty} (hi : Inv own home w) (hg : Good w) (hk : Knows T P w) (hi' : Inv own home w') (hg' : Good w')
    {s p : Nat} {so so' : Obj K V Ty} {l : List Nat} (hs : w.getObj s = some so) (his : so.isSet = true) (hp : so.parent = some p) (hs' : w'.getObj s = some so')
    (hl : Lost l so so') : so'.var = so.var.take ((so.var.on (asTable w p)).erase (· ∈ l)) := by
  rw [← full_table hi hk]
  exact mem_lists (told_inv hi) (full_deep hi hg) hs his hp (full_deep hi' hg') hs' hl

theorem minus_congr {x : SetVar K} {t : Table K V Ty} {p q : Nat → Prop} (hs : ∀ b k r, x.seen b k r → x.row r) (h : ∀ r, x.row r → (p r ↔ q r)) :
    x.take ((x.on t).erase p) = x.minus t q := by
  apply SetVar.ext
  · rfl
  · funext r
    apply propext
    show x.row r ∧ ¬ p r ↔ x.row r ∧ ¬ q r
    exact and_congr_right fun hr => not_congr (h r hr)
  · funext b k r
    apply propext
    show ¬ p r ∧ x.seen b k r ∧ (b = true → ∀ r0, p r0 → (x.on t).cell r0 k = (x.on t).cell r k → ¬ x.seen true k r0) ↔
      ¬ q r ∧ x.seen b k r ∧ (b = true → ∀ r0, q r0 → (x.on t).cell r0 k = (x.on t).cell r k → ¬ x.seen true k r0)
    constructor
    · rintro ⟨h1, h2, h3⟩
      refine ⟨fun hq => h1 ((h r (hs _ _ _ h2)).mpr hq), h2, fun hb r0 h0 hc hn => h3 hb r0 ((h r0 (hs _ _ _ hn)).mpr h0) hc hn⟩
    · rintro ⟨h1, h2, h3⟩
      refine ⟨fun hq => h1 ((h r (hs _ _ _ h2)).mp hq), h2, fun hb r0 h0 hc hn => h3 hb r0 ((h r0 (hs _ _ _ hn)).mp h0) hc hn⟩

theorem good_lists {w : World K V Ty} (hi : Inv own home w) (hg : Good w) {s : Nat} {so : Obj K V Ty} (hs : w.getObj s = some so) (his : so.isSet = true) (b : Bool) (k : K) (r : Nat)
    (h : so.var.seen b k r) : so.var.row r := (lists_mem (full_deep hi hg) hs his h).1

/-- A set has been filled. -/
theorem Filled.put {T P : Nat → Prop} {s p : Nat} {L : Nat → Prop} {w w' : World K V Ty} (h : Filled own home T P s p L w w') (hdb : dbOf w' = dbOf w) :
    stateOf w' = (stateOf w).put s (some (SetVar.fill p (asTable w p) L)) := by
  obtain ⟨so', h1, h2, h3, h4, h5⟩ := h.out
  rw [h.beside.put hdb h1 h2]
  congr 2
  obtain ⟨po, hpo, hpv, _⟩ := h.inv.l.up s so' p h1 h2 h3
  have htab := (table_of_db hdb (vault_of_obj hpo hpv)).2
  exact fill_var (w := w'.full) (told_inv h.inv) (full_deep h.inv h.good) h1 h2 h3 (fun r => h4 r) (fun b k r a c => h5 b k r ((h4 r).mp a) c)
    (fun k => by rw [full_table h.inv h.knows, htab])

/-! ### Gentle use -/

/-- The calls of the algebra of sets, on live sets and declared references. -/
def Algebra (w : World K V Ty) : Op K V Ty → Prop
  | .setJoin s a | .setExclude s a | .setIntersect s a => isSetObj w s = true ∧ isSetObj w a = true
  | .setUnion a b s | .setIntersection a b s => isSetObj w a = true ∧ isSetObj w b = true ∧ isSetObj w s = true
  | .setRemoveRef s f => isSetObj w s = true ∧ f < w.refs.length
  | .setRemoveKV s _ _ | .setRemoveManyKV s _ _ _ => isSetObj w s = true
  | _ => False

/-- `Join`, `Union` or `Intersection` into set `t`. -/
def fills : Op K V Ty → Nat → Prop
  | .setJoin s _, t | .setUnion _ _ s, t | .setIntersection _ _ s, t => t = s
  | _, _ => False

/-- `RemoveRecord`, `RemoveRecords`, `Exclude` or `Intersect` on set `t`. -/
def takes : Op K V Ty → Nat → Prop
  | .setRemoveRef s _, t | .setRemoveKV s _ _, t | .setRemoveManyKV s _ _ _, t | .setExclude s _, t | .setIntersect s _, t => t = s
  | _, _ => False

/-- The record is not in a set that was joined together (`T`), and was never taken out of a set on its own (`P`). -/
def Clean (T P : Nat → Prop) (w : World K V Ty) (r : Nat) : Prop := ¬ P r ∧ ∀ s, T s → isSetObj w s = true → r ∉ members w s

/-- `SetData` and `EraseRecord`, `EraseRecords` are for clean records only. -/
def Untangled (T P : Nat → Prop) (w : World K V Ty) : Op K V Ty → Prop
  | .refSetData f _ _ | .refSetDataMany f _ | .eraseRef _ f => ∀ r, target w f = some r → Clean T P w r
  | .eraseKV o k v | .eraseManyKV o k v _ => ∀ r ∈ members w o, value w r k = some v → Clean T P w r
  | _ => True

/-- Gentle use: what careful use and the algebra of sets allow, on clean records. -/
def Gently (home : Nat → Nat) (T P : Nat → Prop) (w : World K V Ty) (op : Op K V Ty) : Prop :=
  Ordinary home w op ∧ (Allowed w op ∨ Algebra w op) ∧ Untangled T P w op

/-- The sets joined together, after the call: until they are empty. -/
def markT (T : Nat → Prop) (op : Op K V Ty) (w' : World K V Ty) (s : Nat) : Prop := (T s ∨ fills op s) ∧ members w' s ≠ []

/-- The records taken out of a set on their own, after the call. -/
def markP (P : Nat → Prop) (op : Op K V Ty) (w w' : World K V Ty) (r : Nat) : Prop := P r ∨ ∃ s, takes op s ∧ r ∈ members w s ∧ r ∉ members w' s

/-- What the operation is in terms of vaults and sets. -/
def gcallOf (w : World K V Ty) : Op K V Ty → GCall K V Ty
  | .setJoin s a => .join s a
  | .setExclude s a => .exclude s a
  | .setIntersect s a => .intersect s a
  | .setUnion a b s => .union a b s
  | .setIntersection a b s => .inter a b s
  | .setRemoveRef s f => .removeRow s (target w f)
  | .setRemoveKV s k v => .removeOne s k v
  | .setRemoveManyKV s k v n => .removeMany s k v n
  | op => .base (callOf w op)

theorem heldBy_iff {w : World K V Ty} {s r : Nat} : HeldBy w s r ↔ isSetObj w s = true ∧ r ∈ members w s := by
  constructor
  · rintro ⟨so, h1, h2, h3⟩; exact ⟨isSetObj_iff.mpr ⟨so, h1, h2⟩, by rw [members_eq h1]; exact h3⟩
  · rintro ⟨h1, h2⟩
    obtain ⟨so, h3, h4⟩ := isSetObj_iff.mp h1
    exact ⟨so, h3, h4, by rw [members_eq h3] at h2; exact h2⟩

theorem Clean.intact {T P : Nat → Prop} {w : World K V Ty} {r : Nat} (h : Clean T P w r) : Intact T P w r :=
  ⟨h.1, fun s hs hh => by obtain ⟨h1, h2⟩ := heldBy_iff.mp hh; exact h.2 s hs h1 h2⟩

theorem Untangled.reads {T P : Nat → Prop} {w : World K V Ty} {op : Op K V Ty} (hi : Inv own home w) (ha : Allowed w op) (h : Untangled T P w op) :
    Reads (DT T P (Intact T P w)) w op := by
  have key : ∀ f, (∀ r, target w f = some r → Clean T P w r) → AgreeRef (DT T P (Intact T P w)) w f := by
    intro f h ref r h1 h2
    exact DT.agree (h r (by simp [target, h1, h2])).intact
  have key2 : ∀ o k v, isVault w o = true → (∀ r ∈ members w o, value w r k = some v → Clean T P w r) → AgreeAll (DT T P (Intact T P w)) o k v w := by
    intro o k v ho h vo c r h1 h2 h3
    obtain ⟨vo', e1, e2⟩ := isVault_iff.mp ho
    rw [h1] at e1; cases e1
    have ok := (hi.v.vok o vo h1 e2).cols k c h2
    obtain ⟨h4, h5⟩ := ok.hashS v r h3
    exact DT.agree (h r (by rw [members_eq h1]; exact h4) h5).intact
  cases op <;> simp only [Reads, Untangled, Allowed] at h ha ⊢
  case refSetData f k v => exact key f h
  case refSetDataMany f ps => exact key f h
  case eraseRef o f => exact key f h
  case eraseKV o k v => exact key2 o k v ha h
  case eraseManyKV o k v n => exact key2 o k v ha h

theorem Knows.mark {T P : Nat → Prop} {op : Op K V Ty} {w w' : World K V Ty} (h : Knows (fun s => T s ∨ fills op s) (markP P op w w') w') :
    Knows (markT T op w') (markP P op w w') w' :=
  h.less fun s r hs hh => ⟨hs, by
    obtain ⟨_, h2⟩ := heldBy_iff.mp hh
    intro e; rw [e] at h2; cases h2⟩

end MVault.W
