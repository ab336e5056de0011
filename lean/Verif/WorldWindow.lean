import Verif.SetFacts
import Verif.WorldDeep10
import Verif.WorldTable5
/-
What the sets of the model are to their user, and what the calls on vaults make of them.
-/
set_option linter.unusedSectionVars false
set_option linter.unusedSimpArgs false
set_option linter.unusedVariables false
namespace MVault.W
open MVault.Spec (Table Db Event Cmd SetVar State Call)
variable {K V Ty : Type} [LinearOrder K] [LinearOrder V] [Typed V Ty] [DecidableEq Ty]
variable {own home : Nat → Nat}

/-- What set `s` is: its vault (VaultRecordSet.h: `ParentVault`), its records (`RecordsSet`) and what its indices list (`VaultHashMapStructure`,
`VaultMapStructure`). -/
def setVarOf (w : World K V Ty) (s : Nat) : SetVar K := ⟨parentOf w s, fun r => r ∈ members w s, fun b k r => Listed b w s k r⟩

/-- All live sets. -/
def varsOf (w : World K V Ty) : Nat → Option (SetVar K) := fun s => if isSetObj w s = true then some (setVarOf w s) else none

/-- All live vaults and sets. -/
def stateOf (w : World K V Ty) : State K V Ty := ⟨dbOf w, varsOf w⟩

/-- The same for an object. -/
def Obj.var (so : Obj K V Ty) : SetVar K := ⟨so.parent, fun r => r ∈ so.recs, fun b k r => so.lists b k r⟩

theorem listed_obj {w : World K V Ty} {o : Nat} {vo : Obj K V Ty} (h : w.getObj o = some vo) (b : Bool) (k : K) (r : Nat) :
    Listed b w o k r ↔ vo.lists b k r := by
  unfold Obj.lists
  cases hc : mget vo.cols k with
  | none => exact ⟨fun x => absurd x (listed_none h hc), fun ⟨c, x, _⟩ => by cases x⟩
  | some c => rw [listed_iff h hc]; exact ⟨fun x => ⟨c, rfl, x⟩, fun ⟨c', x, y⟩ => by cases x; exact y⟩

theorem setVarOf_eq {w : World K V Ty} {s : Nat} {so : Obj K V Ty} (h : w.getObj s = some so) : setVarOf w s = so.var := by
  apply SetVar.ext
  · simp [setVarOf, Obj.var, parentOf, h]
  · funext r; simp only [setVarOf, Obj.var, members_eq h]
  · funext b k r; exact propext (listed_obj h b k r)

theorem varsOf_some {w : World K V Ty} {s : Nat} {so : Obj K V Ty} (h : w.getObj s = some so) (hs : so.isSet = true) : varsOf w s = some so.var := by
  rw [varsOf, if_pos (isSetObj_iff.mpr ⟨so, h, hs⟩), setVarOf_eq h]

theorem varsOf_none {w : World K V Ty} {s : Nat} (h : ∀ so, w.getObj s = some so → so.isSet = false) : varsOf w s = none := by
  rw [varsOf, if_neg]
  intro hs
  obtain ⟨so, h1, h2⟩ := isSetObj_iff.mp hs
  rw [h so h1] at h2; cases h2

theorem isSetObj_none {w : World K V Ty} {s : Nat} (h : varsOf w s = none) : ∀ so, w.getObj s = some so → so.isSet = false := by
  intro so hso
  cases hs : so.isSet with
  | false => rfl
  | true => rw [varsOf_some hso hs] at h; cases h

/-- No set appears. -/
def NoNew (w w' : World K V Ty) : Prop := ∀ s so', w'.getObj s = some so' → so'.isSet = true → ∃ so, w.getObj s = some so ∧ so.isSet = true

theorem NoNew.of {w w' : World K V Ty} {o : Nat} (h1 : ∀ t, t ≠ o → ObjSame (w.getObj t) (w'.getObj t))
    (h2 : ∀ x, w'.getObj o = some x → x.isSet = false) : NoNew w w' := by
  intro s so' h hs
  by_cases e : s = o
  · subst e; rw [h2 so' h] at hs; cases hs
  · obtain ⟨x, a, b, _⟩ := (h1 s e).of h
    exact ⟨x, a, by rw [← b]; exact hs⟩

theorem sets_map {w w' : World K V Ty} {f : SetVar K → SetVar K} (hto : ∀ s so, w.getObj s = some so → so.isSet = true →
    ∃ so', w'.getObj s = some so' ∧ so'.isSet = true ∧ so'.var = f so.var) (hof : NoNew w w') (s : Nat) : varsOf w' s = (varsOf w s).map f := by
  cases hx : varsOf w s with
  | none =>
    refine varsOf_none fun so' h => ?_
    cases hs : so'.isSet with
    | false => rfl
    | true =>
      obtain ⟨so, h1, h2⟩ := hof s so' h hs
      rw [isSetObj_none hx so h1] at h2; cases h2
  | some x =>
    have hs : isSetObj w s = true := by
      unfold varsOf at hx; split at hx
      · assumption
      · cases hx
    obtain ⟨so, h1, h2⟩ := isSetObj_iff.mp hs
    obtain ⟨so', h3, h4, h5⟩ := hto s so h1 h2
    rw [varsOf_some h1 h2] at hx; cases hx
    rw [varsOf_some h3 h4, h5]; rfl

/-- All objects but vaults are as before. -/
theorem sets_same {w w' : World K V Ty} (h : ∀ t, (∀ x, w.getObj t = some x → x.isSet = true) → w'.getObj t = w.getObj t)
    (hv : ∀ t x, w.getObj t = some x → x.isSet = false → ∀ y, w'.getObj t = some y → y.isSet = false) (s : Nat) : varsOf w' s = varsOf w s := by
  have := sets_map (w := w) (w' := w') (f := id) (fun s so h1 h2 => ⟨so, by rw [h s fun x hx => by rw [h1] at hx; cases hx; exact h2]; exact h1, h2, rfl⟩) (by
    intro s so' h1 h2
    cases hx : w.getObj s with
    | none => rw [h s fun x hx' => by rw [hx] at hx'; cases hx'] at h1; rw [hx] at h1; cases h1
    | some so =>
      cases hs : so.isSet with
      | true => exact ⟨so, rfl, hs⟩
      | false => rw [hv s so hx hs so' h1] at h2; cases h2) s
  rw [this]; cases varsOf w s <;> rfl

theorem sets_objs {w w' : World K V Ty} (h : w'.objs = w.objs) : varsOf w' = varsOf w := by
  funext s
  refine sets_same (fun t _ => by simp only [World.getObj, h]) ?_ s
  intro t x hx hs y hy
  simp only [World.getObj, h] at hy
  simp only [World.getObj] at hx
  rw [hx] at hy; cases hy; exact hs

/-- The records of a set are records of its vault. -/
theorem set_home {w : World K V Ty} (hi : Inv own home w) (hd : Deep w) {s r : Nat} {so : Obj K V Ty} (hso : w.getObj s = some so) (hs : so.isSet = true)
    (hr : r ∈ so.recs) : so.parent = some (own r) ∧ ∃ vo, w.getObj (own r) = some vo ∧ vo.isSet = false ∧ r ∈ vo.recs := by
  have ok := hi.s.sets s so hso hs
  cases hp : so.parent with
  | none => rw [ok.det hp] at hr; cases hr
  | some p =>
    obtain ⟨x, hx, hv, _⟩ := (hd.set s so hso hs).held r hr
    exact ⟨by rw [ok.par p hp, (ok.recs r hr).1], hi.v.val r x hx hv⟩

theorem set_rows {w : World K V Ty} (hi : Inv own home w) (hd : Deep w) {s o : Nat} {so : Obj K V Ty} (hso : w.getObj s = some so) (hs : so.isSet = true)
    (hp : so.parent = some o) (r : Nat) (hr : so.var.row r) : (asTable w o).row r := by
  obtain ⟨h1, vo, h2, _, h4⟩ := set_home hi hd hso hs hr
  rw [hp] at h1; cases h1
  show r ∈ members w (own r)
  rw [members_eq h2]; exact h4

/-- Only records of the set are listed, under keys of the vault. -/
theorem lists_mem {w : World K V Ty} (hd : Deep w) {s : Nat} {so : Obj K V Ty} (hso : w.getObj s = some so) (hs : so.isSet = true) {b : Bool} {k : K} {r : Nat}
    (h : so.lists b k r) : r ∈ so.recs ∧ ∃ c, mget so.cols k = some c ∧ ColOk (fun r => cellOf w r k) so.recs c ∧ c.lists b r := by
  obtain ⟨c, h1, h2⟩ := h
  have ok := (hd.set s so hso hs).cols k c h1
  exact ⟨(ok.lists_val h2).1, c, h1, ok, h2⟩

/-- The column of a set under a key of its vault. -/
theorem set_col {w : World K V Ty} (hi : Inv own home w) (hd : Deep w) {s o : Nat} {so : Obj K V Ty} (hso : w.getObj s = some so) (hs : so.isSet = true)
    (hp : so.parent = some o) (k : K) : mhas so.cols k = true ↔ k ∈ (asTable w o).keys := by
  obtain ⟨po, h1, h2, _⟩ := hi.l.up s so o hso hs hp
  have al := (hd.set s so hso hs).att o po hp h1
  show _ ↔ k ∈ getKeys w o
  rw [getKeys_eq h1, (hi.v.vok o po h1 h2).keysM, mhas_iff]
  have e := al.ty k
  cases ha : mget so.cols k <;> cases hb : mget po.cols k <;> rw [ha, hb] at e <;> simp_all

/-- The cells of the window. -/
theorem set_cell {w : World K V Ty} (hi : Inv own home w) (hd : Deep w) {s o : Nat} {so : Obj K V Ty} (hso : w.getObj s = some so) (hs : so.isSet = true)
    (hp : so.parent = some o) {r : Nat} (hr : r ∈ so.recs) (k : K) : (so.var.on (asTable w o)).cell r k = cellOf w r k := by
  have h : so.var.row r := hr
  simp only [SetVar.on, Table.window, h, if_true]
  rw [cell_in (set_rows hi hd hso hs hp r hr)]; rfl

end MVault.W
