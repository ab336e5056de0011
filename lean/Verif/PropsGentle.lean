import Verif.WorldGentle6
/-
C85, C86: histories with the algebra of sets. `Join`, `Exclude`, `Intersect`, `Union`, `Intersection`, `RemoveRecord` and `RemoveRecords` together with
everything careful use allows, as long as `SetData` and `EraseRecord`, `EraseRecords` keep to clean records: records that are in no set that was joined
together, and were never taken out of a set on their own.
-/
set_option linter.unusedSectionVars false
set_option linter.unusedSimpArgs false
set_option linter.unusedVariables false
namespace MVault.W
open MVault.Spec (Table Db Event Cmd SetVar State Call UpTo leaves arg GCall)
variable {K V Ty : Type} [LinearOrder K] [LinearOrder V] [Typed V Ty] [DecidableEq Ty]

/-- A history of gentle calls with their answers, the last one first; the sets joined together; the records taken out of a set on
their own. A set that is not in use may change its vault. -/
inductive GentleHistory : (Nat → Nat) → List (GCall K V Ty × Answer K) → (Nat → Prop) → (Nat → Prop) → World K V Ty → Prop
  | init {home : Nat → Nat} : GentleHistory home [] (fun _ => False) (fun _ => False) World.empty
  | reuse {home : Nat → Nat} (l : List (GCall K V Ty × Answer K)) (T P : Nat → Prop) (w : World K V Ty) (s p : Nat) : GentleHistory home l T P w → Unused w s → GentleHistory (rehome home s p) l T P w
  | step {home : Nat → Nat} (l : List (GCall K V Ty × Answer K)) (T P : Nat → Prop) (w w' : World K V Ty) (env : Env) (op : Op K V Ty) (ans : Answer K) :
      GentleHistory home l T P w → Gently home T P w op → outcome env w op = some (w', ans) →
      GentleHistory home ((gcallOf w op, ans) :: l) (markT T op w') (markP P op w w') w'

section
variable {home : Nat → Nat} {l : List (GCall K V Ty × Answer K)} {T P : Nat → Prop} {w w' : World K V Ty} {env : Env} {op : Op K V Ty} {ans : Answer K}

theorem GentleHistory.reach (h : GentleHistory home l T P w) : HReach Ordinary home w := by
  induction h with
  | init => exact .init
  | reuse l T P w s p _ hu ih => exact .reuse _ s p ih hu
  | step l T P w w' env op ans _ hg ho ih => exact .step _ _ env op ih hg.1 (by rw [← outcome_step, ho]; rfl)

theorem GentleHistory.inv (h : GentleHistory home l T P w) : ∃ own, Inv own home w ∧ Good w ∧ Knows T P w := by
  induction h with
  | init => exact ⟨fun _ => 0, Inv.empty _ _, Good.empty, Knows.empty _ _⟩
  | reuse l T P w s p _ hu ih =>
    obtain ⟨own, hi, g, k⟩ := ih
    exact ⟨own, hi.rehome hu p, g, k⟩
  | step l T P w w' env op ans _ hg ho ih =>
    obtain ⟨own, hi, g, k⟩ := ih
    obtain ⟨own', hi'⟩ := step_inv hi hg.1 (show W.step env w op = some w' by rw [← outcome_step, ho]; rfl)
    obtain ⟨w1, a1, e, g', k', _⟩ := gentle_goes (env := env) hi g k hg
    rw [ho] at e; cases e
    exact ⟨own', hi', g', k'⟩

/-! ### C85 -/

/-- Every gentle call has an outcome: no freed record, destroyed vault or destroyed set is touched. -/
theorem C85_defined (h : GentleHistory home l T P w) (hg : Gently home T P w op) :
    ∃ w' ans, outcome env w op = some (w', ans) ∧ GentleHistory home ((gcallOf w op, ans) :: l) (markT T op w') (markP P op w w') w' := by
  obtain ⟨own, hi, g, k⟩ := h.inv
  obtain ⟨w', ans, e, _⟩ := gentle_goes (env := env) hi g k hg
  exact ⟨w', ans, e, .step _ _ _ _ _ env op ans h hg e⟩

/-- A set holds only valid records of its vault, none of them twice; its keys, unique keys and types are the ones of the vault. A set that belongs to no
vault is empty and has no keys. -/
theorem C85_held (h : GentleHistory home l T P w) {s : Nat} (hs : isSetObj w s = true) :
    (members w s).Nodup ∧ (parentOf w s = none → members w s = [] ∧ getKeys w s = []) ∧
    ∀ p, parentOf w s = some p → isVault w p = true ∧ getKeys w s = getKeys w p ∧ getUniqueKeys w s = getUniqueKeys w p ∧ (∀ k, getKeyType w s k = getKeyType w p k) ∧
      ∀ r ∈ members w s, alive w r ∧ r ∈ members w p := by
  obtain ⟨own, hi, g, k⟩ := h.inv
  obtain ⟨so, h1, h2⟩ := isSetObj_iff.mp hs
  have sg := g.set s so h1 h2
  have hp : parentOf w s = so.parent := by simp [parentOf, h1]
  rw [hp, members_eq h1, getKeys_eq h1, getUniqueKeys_eq h1]
  refine ⟨sg.recsN, fun e => ⟨(hi.s.sets s so h1 h2).det e, (sg.det e).2.1⟩, fun p e => ?_⟩
  obtain ⟨po, h3, h4, h5⟩ := good_vault hi g h1 h2 e
  have al := sg.att p po e h3
  refine ⟨vault_of_obj h3 h4, by rw [getKeys_eq h3, al.keys], by rw [getUniqueKeys_eq h3, al.uniq], fun k => by rw [getKeyType_eq h1, getKeyType_eq h3, al.ty], fun r hr => ?_⟩
  obtain ⟨x, hx, hv⟩ := sg.held r hr
  exact ⟨⟨x, hx, hv⟩, by rw [members_eq h3]; exact h5 r hr⟩

/-- What the indices of a set list are records of the set with the value they have. -/
theorem C85_indices (h : GentleHistory home l T P w) {s : Nat} (hs : isSetObj w s = true) (k : K) (v : V) (r : Nat) :
    ((v, r) ∈ hashIndex w s k ∨ (v, r) ∈ ordIndex w s k) → r ∈ members w s ∧ value w r k = some v ∧ k ∈ getKeys w s := by
  obtain ⟨own, hi, g, kn⟩ := h.inv
  obtain ⟨so, h1, h2⟩ := isSetObj_iff.mp hs
  have sg := g.set s so h1 h2
  rw [members_eq h1]
  simp only [hashIndex, ordIndex, h1]
  cases hc : mget so.cols k with
  | none => simp
  | some c =>
    have ok := sg.cols k c hc
    have hkey : k ∈ getKeys w s := by
      cases hp : so.parent with
      | none => rw [(sg.det hp).1] at hc; cases hc
      | some p =>
        have e := (C85_held h hs).2.2 p (by simp [parentOf, h1, hp])
        rw [e.2.1]
        have hcol := set_col (w := w.full) (told_inv hi) (full_deep hi g) h1 h2 hp k
        have := hcol.mp ((mhas_iff _ _).mpr ⟨c, hc⟩)
        rw [full_table hi kn] at this; exact this
    rintro (hm | hm)
    · obtain ⟨a, b⟩ := ok.hashS v r hm; exact ⟨a, b, hkey⟩
    · obtain ⟨a, b⟩ := ok.ordS v r hm; exact ⟨a, b, hkey⟩

/-- A record that is in no vault any more is in no set. -/
theorem C85_gone (h : GentleHistory home l T P w) {r : Nat} (hr : ∀ o, isVault w o = true → r ∉ members w o) {s : Nat} (hs : isSetObj w s = true) : r ∉ members w s := by
  intro hm
  cases hp : parentOf w s with
  | none => rw [((C85_held h hs).2.1 hp).1] at hm; cases hm
  | some p =>
    obtain ⟨h1, _, _, _, h2⟩ := (C85_held h hs).2.2 p hp
    exact hr p h1 (h2 r hm).2

/-- Careful use is gentle use with no marks. -/
theorem C85_careful {home : Nat → Nat} {w : World K V Ty} {l : List (Call K V Ty × Answer K)} (h : CarefulHistory home l w) :
    GentleHistory home (l.map fun x => (GCall.base x.1, x.2)) (fun _ => False) (fun _ => False) w := by
  induction h with
  | init => exact .init
  | reuse l w s p _ hu ih => exact .reuse _ _ _ w s p ih hu
  | step l w w' env op ans _ hg ho ih =>
    have hu : Untangled (fun _ => False) (fun _ => False) w op := by
      have : ∀ r, Clean (fun _ => False) (fun _ => False) w r := fun r => ⟨id, fun _ h => h.elim⟩
      cases op <;> simp only [Untangled] <;> intros <;> exact this _
    have e := GentleHistory.step _ _ _ w w' env op ans ih ⟨hg.1, .inl hg.2, hu⟩ ho
    have ha := hg.2
    have e1 : gcallOf w op = .base (callOf w op) := by cases op <;> first | rfl | (simp only [Allowed] at ha)
    have e2 : markT (fun _ => False) op w' = fun _ => False := by
      funext s
      have : ¬ fills op s := by cases op <;> first | exact id | (simp only [Allowed] at ha)
      simp [markT, this]
    have e3 : markP (fun _ => False) op w w' = fun _ => False := by
      funext s
      have : ∀ t, ¬ takes op t := by intro t; cases op <;> first | exact id | (simp only [Allowed] at ha)
      simp [markP, this]
    rw [e1, e2, e3] at e
    exact e

/-! ### C86 -/

/-- Every gentle call is one step of the specification. -/
theorem C86_refines (h : GentleHistory home l T P w) (hg : Gently home T P w op) (ho : outcome env w op = some (w', ans)) :
    (stateOf w).Does (gcallOf w op) ans (stateOf w') := by
  obtain ⟨own, hi, g, k⟩ := h.inv
  obtain ⟨w1, a1, e, _, _, hd⟩ := gentle_goes (env := env) hi g k hg
  rw [ho] at e; cases e
  exact hd (C79_refines h.reach hg.1 ho)

/-- Whole histories: the calls and answers of every gentle history are a run of the specification, which ends with the tables and windows the vaults and
sets are. -/
theorem C86_history (h : GentleHistory home l T P w) : State.Runs l (stateOf w) := by
  induction h with
  | init =>
    have : stateOf (World.empty : World K V Ty) = State.empty :=
      State.ext dbOf_empty (funext fun s => show varsOf (World.empty : World K V Ty) s = none from varsOf_none fun so h => by simp [World.empty, World.getObj, mget] at h)
    rw [this]; exact .init
  | reuse _ _ _ _ _ _ _ _ ih => exact ih
  | step l T P w w' env op ans hh hg ho ih => exact .step _ _ _ _ _ ih (C86_refines hh hg ho)

/-- What the functions of a set show is the window of the specification. -/
theorem C86_window (h : GentleHistory home l T P w) {s : Nat} (hs : isSetObj w s = true) :
    ∃ x, (stateOf w).sets s = some x ∧ x.vault = parentOf w s ∧ (∀ r, x.row r ↔ r ∈ members w s) ∧ (∀ b k r, x.seen b k r ↔ Listed b w s k r) ∧
      ∀ p, parentOf w s = some p → ∃ t, (stateOf w).vaults p = some t ∧ (stateOf w).source s = some (p, x.on t) ∧ t.keys = getKeys w s ∧
        (∀ k, t.ty k = getKeyType w s k) ∧ ∀ r k, x.row r → (x.on t).cell r k = value w r k := by
  obtain ⟨own, hi, g, kn⟩ := h.inv
  obtain ⟨so, h1, h2⟩ := isSetObj_iff.mp hs
  refine ⟨so.var, var_of h1 h2, by simp [parentOf, h1, Obj.var], fun r => by rw [members_eq h1]; rfl, fun b k r => (listed_obj h1 b k r).symm, fun p hp => ?_⟩
  obtain ⟨a1, a2, a3, a4, a5⟩ := (C85_held h hs).2.2 p hp
  have hp' : so.parent = some p := by simpa [parentOf, h1] using hp
  refine ⟨asTable w p, dbOf_vault a1, source_set hi h1 h2 hp', a2.symm, fun k => (a4 k).symm, fun r k hr => ?_⟩
  have e := set_cell (w := w.full) (told_inv hi) (full_deep hi g) h1 h2 hp' hr k
  rw [full_table hi kn] at e
  rw [e, World.full, told_cell]; rfl

/-- The algebra of sets changes no vault, no record, and no set but the one it is for. -/
theorem C86_apart (h : GentleHistory home l T P w) (hg : Gently home T P w op) (ha : Algebra w op) (ho : outcome env w op = some (w', ans)) :
    dbOf w' = dbOf w ∧ ∃ s, (fills op s ∨ takes op s) ∧ ∀ t, t ≠ s → varsOf w' t = varsOf w t := by
  have hd := C86_refines h hg ho
  have key : ∀ {s : Nat} {x : Option (SetVar K)}, stateOf w' = (stateOf w).put s x → (fills op s ∨ takes op s) →
      dbOf w' = dbOf w ∧ ∃ s, (fills op s ∨ takes op s) ∧ ∀ t, t ≠ s → varsOf w' t = varsOf w t := by
    intro s x e hs
    refine ⟨congrArg State.vaults e, s, hs, fun t ht => ?_⟩
    have := congrFun (congrArg State.sets e) t
    simp only [State.put, ht, if_false] at this; exact this
  have same : ∀ {s : Nat}, stateOf w' = stateOf w → (fills op s ∨ takes op s) →
      dbOf w' = dbOf w ∧ ∃ s, (fills op s ∨ takes op s) ∧ ∀ t, t ≠ s → varsOf w' t = varsOf w t := by
    intro s e hs
    exact ⟨congrArg State.vaults e, s, hs, fun t _ => congrFun (congrArg State.sets e) t⟩
  have change : ∀ {s a f}, (stateOf w).change s a f ans (stateOf w') → (fills op s ∨ takes op s) →
      dbOf w' = dbOf w ∧ ∃ s, (fills op s ∨ takes op s) ∧ ∀ t, t ≠ s → varsOf w' t = varsOf w t := by
    rintro s a f ⟨x, y, _, _, hc⟩ hs
    split at hc
    · exact same hc.2 hs
    · split at hc
      · exact same hc.2 hs
      · obtain ⟨_, _, _, _, _, e⟩ := hc; exact key e hs
  have combine : ∀ {a b s f}, (stateOf w).combine a b s f ans (stateOf w') → (fills op s ∨ takes op s) →
      dbOf w' = dbOf w ∧ ∃ s, (fills op s ∨ takes op s) ∧ ∀ t, t ≠ s → varsOf w' t = varsOf w t := by
    rintro a b s f ⟨x, y, z, _, _, _, hc⟩ hs
    split at hc
    · exact same hc.2 hs
    · split at hc
      · exact same hc.2 hs
      · obtain ⟨_, _, _, _, _, e⟩ := hc; exact key e hs
  have remove : ∀ {s c none}, (stateOf w).remove s c none ans (stateOf w') → (fills op s ∨ takes op s) →
      dbOf w' = dbOf w ∧ ∃ s, (fills op s ∨ takes op s) ∧ ∀ t, t ≠ s → varsOf w' t = varsOf w t := by
    rintro s c none ⟨x, _, hc⟩ hs
    split at hc
    · exact same hc.2 hs
    · obtain ⟨_, _, e⟩ := hc; exact key e hs
  cases op <;> simp only [Algebra] at ha <;> simp only [gcallOf, State.Does] at hd <;>
    first | exact change hd (.inl rfl) | exact change hd (.inr rfl) | exact combine hd (.inl rfl) | exact remove hd (.inr rfl)

end

/-! ### Laws -/

theorem change_unique {st st1 st2 : State K V Ty} {s a : Nat} {f : Table K V Ty → SetVar K → SetVar K → SetVar K} {a1 a2 : Answer K} (h1 : st.change s a f a1 st1)
    (h2 : st.change s a f a2 st2) : a1 = a2 ∧ st1 = st2 := by
  obtain ⟨x, y, x1, y1, h1⟩ := h1
  obtain ⟨x', y', x2, y2, h2⟩ := h2
  rw [x1] at x2; cases x2
  rw [y1] at y2; cases y2
  split at h1
  · rename_i e; rw [e] at h2; exact ⟨h1.1.trans h2.1.symm, h1.2.trans h2.2.symm⟩
  · rename_i e; rw [e] at h2
    dsimp only at h2
    split at h1
    · rename_i e; rw [if_pos e] at h2; exact ⟨h1.1.trans h2.1.symm, h1.2.trans h2.2.symm⟩
    · rename_i e; rw [if_neg e] at h2
      obtain ⟨p, t, e1, e2, e3, e4⟩ := h1
      obtain ⟨q, u, f1, f2, f3, f4⟩ := h2
      rw [e1] at f1; cases f1
      rw [e2] at f2; cases f2
      exact ⟨e3.trans f3.symm, e4.trans f4.symm⟩

theorem combine_unique {st st1 st2 : State K V Ty} {a b s : Nat} {f : Prop → Prop → Prop} {a1 a2 : Answer K} (h1 : st.combine a b s f a1 st1) (h2 : st.combine a b s f a2 st2) :
    a1 = a2 ∧ st1 = st2 := by
  obtain ⟨x, y, z, x1, y1, z1, h1⟩ := h1
  obtain ⟨x', y', z', x2, y2, z2, h2⟩ := h2
  rw [x1] at x2; cases x2
  rw [y1] at y2; cases y2
  split at h1
  · rename_i e; rw [if_pos e] at h2; exact ⟨h1.1.trans h2.1.symm, h1.2.trans h2.2.symm⟩
  · rename_i e; rw [if_neg e] at h2
    split at h1
    · rename_i e; rw [e] at h2; exact ⟨h1.1.trans h2.1.symm, h1.2.trans h2.2.symm⟩
    · rename_i e; rw [e] at h2
      obtain ⟨p, t, e1, e2, e3, e4⟩ := h1
      obtain ⟨q, u, f1, f2, f3, f4⟩ := h2
      rw [e1] at f1; cases f1
      rw [e2] at f2; cases f2
      exact ⟨e3.trans f3.symm, e4.trans f4.symm⟩

/-- The two sets of a successful `Union` or `Intersection` can be swapped. -/
theorem combine_swap {st st1 st2 : State K V Ty} {a b s : Nat} {f : Prop → Prop → Prop} (hf : ∀ p q, f p q = f q p) {a2 : Answer K}
    (h1 : st.combine a b s f (.res (.good none)) st1) (h2 : st.combine b a s f a2 st2) : a2 = .res (.good none) ∧ st2 = st1 := by
  obtain ⟨x, y, z, x1, y1, z1, h1⟩ := h1
  obtain ⟨y', x', z', y2, x2, z2, h2⟩ := h2
  rw [x1] at x2; cases x2
  rw [y1] at y2; cases y2
  split at h1
  · exact absurd h1.1 (by simp [Res.good, Res.bad])
  · rename_i e
    rw [if_neg (by rintro (h | h | h); exact e (.inl h.symm); exact e (.inr (.inr h)); exact e (.inr (.inl h)))] at h2
    split at h1
    · exact absurd h1.1 (by simp [Res.good, Res.bad])
    · rename_i e'
      obtain ⟨p, t, e1, e2, e3, e4⟩ := h1
      have hy : y.vault = some p := by
        simp only [SetVar.mismatch, e1] at e'
        cases hv : y.vault with
        | none => rw [hv] at e'; simp at e'
        | some q =>
          rw [hv] at e'
          by_cases hpq : p = q
          · rw [hpq]
          · simp [hpq] at e'
      rw [mismatch_same hy e1] at h2
      obtain ⟨q, u, f1, f2, f3, f4⟩ := h2
      rw [hy] at f1; cases f1
      rw [e2] at f2; cases f2
      refine ⟨f3, ?_⟩
      rw [e4, f4]
      refine put_fill fun r => ?_
      rw [hf]

section
variable {home : Nat → Nat} {l : List (GCall K V Ty × Answer K)} {T P : Nat → Prop} {w w1 w2 : World K V Ty} {e1 e2 : Env} {a1 a2 : Answer K}

/-- The order of the hash tables does not matter to `Join`, `Exclude`, `Intersect`, `Union`, `Intersection`: same answer, same vaults, same sets. -/
theorem C86_order {op : Op K V Ty} (h : GentleHistory home l T P w) (hg : Gently home T P w op) (h1 : outcome e1 w op = some (w1, a1)) (h2 : outcome e2 w op = some (w2, a2))
    (hop : (∃ s a, op = .setJoin s a ∨ op = .setExclude s a ∨ op = .setIntersect s a) ∨ ∃ a b s, op = .setUnion a b s ∨ op = .setIntersection a b s) :
    a1 = a2 ∧ stateOf w1 = stateOf w2 := by
  have d1 := C86_refines h hg h1
  have d2 := C86_refines h hg h2
  rcases hop with ⟨s, a, rfl | rfl | rfl⟩ | ⟨a, b, s, rfl | rfl⟩
  · exact change_unique d1 d2
  · exact change_unique d1 d2
  · exact change_unique d1 d2
  · exact combine_unique d1 d2
  · exact combine_unique d1 d2

/-- `Union(a, b, s)` and `Union(b, a, s)` are the same, and `Intersection` too. -/
theorem C86_commute {a b s : Nat} {op op' : Op K V Ty} (hop : (op = .setUnion a b s ∧ op' = .setUnion b a s) ∨ (op = .setIntersection a b s ∧ op' = .setIntersection b a s))
    (h : GentleHistory home l T P w) (hg : Gently home T P w op) (hg' : Gently home T P w op') (h1 : outcome e1 w op = some (w1, .res (.good none)))
    (h2 : outcome e2 w op' = some (w2, a2)) : a2 = .res (.good none) ∧ stateOf w2 = stateOf w1 := by
  have d1 := C86_refines h hg h1
  have d2 := C86_refines h hg' h2
  rcases hop with ⟨rfl, rfl⟩ | ⟨rfl, rfl⟩
  · exact combine_swap (f := (· ∨ ·)) (fun p q => propext or_comm) d1 d2
  · exact combine_swap (f := (· ∧ ·)) (fun p q => propext and_comm) d1 d2

/-- Sets are equal (`==`) iff they belong to the same vault, or both to none, and hold the same records. -/
theorem C86_equal (h : GentleHistory home l T P w) {a b : Nat} (ha : isSetObj w a = true) (hb : isSetObj w b = true) :
    ∃ res, setEq w a b = some res ∧ (res = true ↔ parentOf w a = parentOf w b ∧ ∀ r, r ∈ members w a ↔ r ∈ members w b) := by
  obtain ⟨ao, h1, h2⟩ := isSetObj_iff.mp ha
  obtain ⟨bo, h3, h4⟩ := isSetObj_iff.mp hb
  have na := (C85_held h ha).1
  have nb := (C85_held h hb).1
  rw [members_eq h1] at na ⊢
  rw [members_eq h3] at nb ⊢
  refine ⟨decide (ao.parent = bo.parent ∧ ao.recs.length = bo.recs.length ∧ ∀ r ∈ ao.recs, r ∈ bo.recs), by simp only [setEq, h1, h3, Option.bind_eq_bind, Option.bind_some], ?_⟩
  simp only [decide_eq_true_eq, parentOf, h1, h3]
  refine and_congr_right fun _ => ?_
  constructor
  · rintro ⟨g1, g2⟩ r
    exact ⟨g2 r, fun hr => ((List.subperm_of_subset na g2).perm_of_length_le (by omega)).symm.subset hr⟩
  · intro g
    have := (List.perm_ext_iff_of_nodup na nb).mpr g
    exact ⟨this.length_eq, fun r hr => (g r).mp hr⟩

/-- After `Union` and `Intersection` every search in the result finds all there is to find: a request on the result gives exactly the records of the two
sets (or of both of them) that satisfy the condition, whatever the indices of the two sets miss. -/
theorem C86_search {a b s s' : Nat} {op : Op K V Ty} {f : Prop → Prop → Prop} (hop : (op = .setUnion a b s ∧ f = (· ∨ ·)) ∨ (op = .setIntersection a b s ∧ f = (· ∧ ·)))
    {k : K} {t : ReqType} {v v' : V} {ia ib : Bool}
    (h : GentleHistory home l T P w) (hg : Gently home T P w op) (h1 : outcome e1 w op = some (w1, .res (.good none)))
    (hg2 : Gently home (markT T op w1) (markP P op w w1) w1 (.request s t k v v' ia ib none (fun _ => true) s'))
    (h2 : outcome e2 w1 (.request s t k v v' ia ib none (fun _ => true) s') = some (w2, .res (.good (some k)))) (r : Nat) :
    r ∈ members w2 s' ↔ f (r ∈ members w a) (r ∈ members w b) ∧ ∃ x, value w1 r k = some x ∧ (condOf t v v' ia ib).holds x := by
  have hh1 := GentleHistory.step _ _ _ _ _ e1 op _ h hg h1
  have hh2 := GentleHistory.step _ _ _ _ _ e2 _ _ hh1 hg2 h2
  have d1 : (stateOf w).combine a b s f (.res (.good none)) (stateOf w1) := by
    have := C86_refines h hg h1
    rcases hop with ⟨rfl, rfl⟩ | ⟨rfl, rfl⟩
    · exact this
    · exact this
  have d2 : (stateOf w1).Step (.ask s k (condOf t v v' ia ib) none (fun _ => true) s') (.res (.good (some k))) (stateOf w2) := C86_refines hh1 hg2 h2
  obtain ⟨x, y, z, hx, hy, hz, d1⟩ := d1
  split at d1
  · exact absurd d1.1 (by simp [Res.good, Res.bad])
  · split at d1
    · exact absurd d1.1 (by simp [Res.good, Res.bad])
    · obtain ⟨p, tb, e3, e4, _, e5⟩ := d1
      have setIs : ∀ {w : World K V Ty} {s : Nat} {x}, (stateOf w).sets s = some x → isSetObj w s = true ∧ setVarOf w s = x := by
        intro w s x h
        have h : varsOf w s = some x := h
        unfold varsOf at h
        split at h
        · rename_i hs; exact ⟨hs, Option.some.inj h⟩
        · cases h
      have rx : ∀ r, x.row r ↔ r ∈ members w a := fun r => by rw [← (setIs hx).2]; rfl
      have ry : ∀ r, y.row r ↔ r ∈ members w b := fun r => by rw [← (setIs hy).2]; rfl
      have hs1 : (stateOf w1).sets s = some (SetVar.fill p tb fun r => f (x.row r) (y.row r)) := by rw [e5]; simp [State.put]
      obtain ⟨iss, _⟩ := setIs hs1
      obtain ⟨x1, k1, k2, k3, k4, k5⟩ := C86_window hh1 iss
      rw [hs1] at k1; cases k1
      obtain ⟨t1, m1, m2, m3, m4, m5⟩ := k5 p k2.symm
      have ht1 : t1 = tb := by
        have : (stateOf w1).vaults p = some tb := by rw [e5]; exact e4
        rw [m1] at this; exact Option.some.inj this
      subst ht1
      obtain ⟨_, d2⟩ := d2
      rw [m2] at d2
      dsimp only at d2
      split at d2
      · exact absurd d2.1 (by simp [Res.good, Res.bad])
      · split at d2
        · exact absurd d2.1 (by simp [Res.good, Res.bad])
        · rename_i hbad
          obtain ⟨ll, hu, _, e6⟩ := d2
          have hs2 : (stateOf w2).sets s' = some (SetVar.fill p ((SetVar.fill p t1 fun r => f (x.row r) (y.row r)).on t1) fun r => r ∈ ll ∧ true = true) := by rw [e6]; simp [State.put]
          have : r ∈ members w2 s' ↔ r ∈ ll := by
            have := (setIs hs2).2
            have e := congrFun (congrArg SetVar.row this) r
            have e : (r ∈ members w2 s') = (r ∈ ll ∧ true = true) := e
            rw [e]; simp
          rw [this]
          have hall : r ∈ ll ↔ ((SetVar.fill p t1 fun r => f (x.row r) (y.row r)).on t1).finds k (condOf t v v' ia ib) r := ⟨hu.2.1 r, hu.2.2 r⟩
          rw [hall]
          have hkey : k ∈ t1.keys := by
            obtain ⟨own, hi, g, kn⟩ := hh1.inv
            obtain ⟨so, g1, g2⟩ := isSetObj_iff.mp iss
            have hp : so.parent = some p := by
              have := k2
              simp only [parentOf, g1] at this; exact this.symm
            have hty : getKeyType w1 s k ≠ none := by
              rw [← m4]
              intro hn
              have : ((SetVar.fill p t1 fun r => f (x.row r) (y.row r)).on t1).ty k = none := hn
              simp [Table.bad, this] at hbad
            have hcol := set_col (w := w1.full) (told_inv hi) (full_deep hi g) g1 g2 hp k
            rw [full_table hi kn] at hcol
            have et : t1 = asTable w1 p := by
              obtain ⟨po, hpo, hpv, _⟩ := hi.l.up s so p g1 g2 hp
              have : (stateOf w1).vaults p = some (asTable w1 p) := dbOf_vault (vault_of_obj hpo hpv)
              rw [m1] at this; exact Option.some.inj this
            rw [et, ← hcol, mhas_iff]
            rw [getKeyType_eq g1] at hty
            cases hc : mget so.cols k with
            | none => rw [hc] at hty; exact absurd rfl hty
            | some cc => exact ⟨cc, rfl⟩
          have hrow : f (x.row r) (y.row r) ↔ f (r ∈ members w a) (r ∈ members w b) := by rw [propext (rx r), propext (ry r)]
          constructor
          · rintro ⟨q1, ⟨u, q2, q3⟩, _⟩
            refine ⟨hrow.mp q1, u, ?_, q3⟩
            rw [← m5 r k q1]; exact q2
          · rintro ⟨q1, u, q2, q3⟩
            have q1 := hrow.mpr q1
            exact ⟨q1, ⟨u, by rw [m5 r k q1]; exact q2, q3⟩, hkey, q1⟩

end

/-! ### Concrete cases -/

/-- Executable form of `fills`. -/
def fillsL : Op K V Ty → List Nat
  | .setJoin s _ | .setUnion _ _ s | .setIntersection _ _ s => [s]
  | _ => []

/-- Executable form of `takes`. -/
def takesL : Op K V Ty → List Nat
  | .setRemoveRef s _ | .setRemoveKV s _ _ | .setRemoveManyKV s _ _ _ | .setExclude s _ | .setIntersect s _ => [s]
  | _ => []

theorem fills_iff (op : Op K V Ty) (t : Nat) : fills op t ↔ t ∈ fillsL op := by cases op <;> simp [fills, fillsL]
theorem takes_iff (op : Op K V Ty) (t : Nat) : takes op t ↔ t ∈ takesL op := by cases op <;> simp [takes, takesL]

/-- Executable form of `Algebra`. -/
def algebraB (w : World K V Ty) : Op K V Ty → Bool
  | .setJoin s a | .setExclude s a | .setIntersect s a => isSetObj w s && isSetObj w a
  | .setUnion a b s | .setIntersection a b s => isSetObj w a && isSetObj w b && isSetObj w s
  | .setRemoveRef s f => isSetObj w s && decide (f < w.refs.length)
  | .setRemoveKV s _ _ | .setRemoveManyKV s _ _ _ => isSetObj w s
  | _ => false

theorem algebraB_sound {w : World K V Ty} {op : Op K V Ty} (h : algebraB w op = true) : Algebra w op := by
  cases op <;> simp only [algebraB, Algebra, Bool.and_eq_true, decide_eq_true_eq, and_assoc, reduceCtorEq, Bool.false_eq_true] at h ⊢ <;> exact h

/-- Executable form of `Clean`. -/
def cleanB (T P : List Nat) (w : World K V Ty) (r : Nat) : Bool := decide (r ∉ P) && T.all fun s => !(isSetObj w s) || decide (r ∉ members w s)

theorem cleanB_sound {T P : List Nat} {w : World K V Ty} {r : Nat} (h : cleanB T P w r = true) : Clean (· ∈ T) (· ∈ P) w r := by
  simp only [cleanB, Bool.and_eq_true, decide_eq_true_eq, List.all_eq_true, Bool.or_eq_true, Bool.not_eq_true'] at h
  refine ⟨h.1, fun s hs h1 h2 => ?_⟩
  rcases h.2 s hs with e | e
  · rw [h1] at e; cases e
  · exact e h2

/-- Executable form of `Untangled`. -/
def untangledB (T P : List Nat) (w : World K V Ty) : Op K V Ty → Bool
  | .refSetData f _ _ | .refSetDataMany f _ | .eraseRef _ f => match target w f with | some r => cleanB T P w r | none => true
  | .eraseKV o k v | .eraseManyKV o k v _ => (members w o).all fun r => !(decide (value w r k = some v)) || cleanB T P w r
  | _ => true

theorem untangledB_sound {T P : List Nat} {w : World K V Ty} {op : Op K V Ty} (h : untangledB T P w op = true) : Untangled (· ∈ T) (· ∈ P) w op := by
  cases op <;> simp only [untangledB, Untangled] at h ⊢
  case refSetData f k v => intro r hr; rw [hr] at h; exact cleanB_sound h
  case refSetDataMany f ps => intro r hr; rw [hr] at h; exact cleanB_sound h
  case eraseRef o f => intro r hr; rw [hr] at h; exact cleanB_sound h
  case eraseKV o k v =>
    intro r hr hv
    simp only [List.all_eq_true, Bool.or_eq_true, Bool.not_eq_true', decide_eq_false_iff_not] at h
    exact cleanB_sound ((h r hr).resolve_left fun x => x hv)
  case eraseManyKV o k v n =>
    intro r hr hv
    simp only [List.all_eq_true, Bool.or_eq_true, Bool.not_eq_true', decide_eq_false_iff_not] at h
    exact cleanB_sound ((h r hr).resolve_left fun x => x hv)

/-- Executable form of `Gently`. -/
def gentlyB (home : Nat → Nat) (T P : List Nat) (w : World K V Ty) (op : Op K V Ty) : Bool :=
  ordinaryB home w op && (allowedB w op || algebraB w op) && untangledB T P w op

theorem gentlyB_sound {home : Nat → Nat} {T P : List Nat} {w : World K V Ty} {op : Op K V Ty} (h : gentlyB home T P w op = true) : Gently home (· ∈ T) (· ∈ P) w op := by
  simp only [gentlyB, Bool.and_eq_true, Bool.or_eq_true] at h
  exact ⟨ordinaryB_sound h.1.1, h.1.2.imp allowedB_sound algebraB_sound, untangledB_sound h.2⟩

/-- A history of gentle operations, with its marks; `none` when an operation is not gentle or undefined. -/
def runG (home : Nat → Nat) (T P : List Nat) (w : World K V Ty) : List (Env × Op K V Ty) → Option (World K V Ty × List Nat × List Nat)
  | [] => some (w, T, P)
  | (env, op) :: l => if gentlyB home T P w op = true then (step env w op).bind fun w' =>
      runG home ((T ++ fillsL op).filter fun s => decide (members w' s ≠ [])) (P ++ (takesL op).flatMap fun s => (members w s).filter (· ∉ members w' s)) w' l else none

theorem runG_gentle {home : Nat → Nat} (l : List (Env × Op K V Ty)) : ∀ {T P : List Nat} {w : World K V Ty} {h0 : List (GCall K V Ty × Answer K)}
    {out : World K V Ty × List Nat × List Nat}, GentleHistory home h0 (· ∈ T) (· ∈ P) w → runG home T P w l = some out →
    ∃ h1, GentleHistory home h1 (· ∈ out.2.1) (· ∈ out.2.2) out.1 := by
  induction l with
  | nil => intro T P w h0 out hw h; simp only [runG, Option.some.injEq] at h; subst h; exact ⟨_, hw⟩
  | cons p l ih =>
    obtain ⟨env, op⟩ := p
    intro T P w h0 out hw h
    simp only [runG] at h
    split at h
    · rename_i hg
      obtain ⟨w1, h1, h2⟩ := Option.bind_eq_some_iff.mp h
      rw [← outcome_step] at h1
      obtain ⟨⟨w2, ans⟩, e1, e2⟩ := Option.map_eq_some_iff.mp h1
      cases e2
      have st := GentleHistory.step _ _ _ _ _ env op ans hw (gentlyB_sound hg) e1
      refine ih ?_ h2 (h0 := (gcallOf w op, ans) :: h0)
      have t1 : markT (· ∈ T) op w2 = (· ∈ (T ++ fillsL op).filter fun s => decide (members w2 s ≠ [])) := by
        funext s; simp only [markT, List.mem_filter, List.mem_append, decide_eq_true_eq, fills_iff]
      have t2 : markP (· ∈ P) op w w2 = (· ∈ P ++ (takesL op).flatMap fun s => (members w s).filter (· ∉ members w2 s)) := by
        funext r; simp only [markP, List.mem_append, List.mem_flatMap, List.mem_filter, decide_eq_true_eq, takes_iff]
      rw [t1, t2] at st
      exact st
    · cases h

/-- The world after a history of gentle operations with one vault (object 0), with its marks. -/
def gentleRun (l : List DO) : Option (DW × List Nat × List Nat) := runG (fun _ => 0) [] [] World.empty (l.map (Env.id, ·))

theorem gentleRun_gentle {l : List DO} {out : DW × List Nat × List Nat} (h : gentleRun l = some out) :
    ∃ h1, GentleHistory (fun _ => 0) h1 (· ∈ out.2.1) (· ∈ out.2.2) out.1 := by
  refine runG_gentle _ (h0 := []) ?_ h
  have : ((fun s => s ∈ ([] : List Nat)) : Nat → Prop) = fun _ => False := by funext s; simp
  rw [this]; exact .init

/-- A vault with four records and the sets 1 = {0, 1, 2}, 2 = {2, 3}; their union in 3, their intersection in 4; 1 without 2, record 3 taken out of 2;
set 3 cleared; `SetData` on record 0 and `EraseRecord` of record 1, which are clean by then. -/
def gentleOps : List DO :=
  [.newVault, .newSet, .newSet, .newSet, .newSet, .addKey 0 1 5, .newRef, .newRef, .newRef, .newRef,
   .createRecord 0 0 [(1, 1)], .createRecord 0 1 [(1, 2)], .createRecord 0 2 [(1, 3)], .createRecord 0 3 [(1, 4)],
   .ask 0 1 (.lt 4) none (fun _ => true) 1, .ask 0 1 (.gt 2) none (fun _ => true) 2,
   .setUnion 1 2 3, .setIntersection 1 2 4, .setExclude 1 2, .setRemoveRef 2 3, .setClear 3, .refSetData 0 1 9, .eraseRef 0 1]

/-- The world after `gentleOps`. -/
def gentleW : DW := ((gentleRun gentleOps).map (·.1)).getD World.empty

theorem gentleW_history : ∃ l, GentleHistory (fun _ => 0) l (· ∈ [4]) (· ∈ [2, 3]) gentleW := gentleRun_gentle (l := gentleOps) (out := (gentleW, [4], [2, 3])) rfl

example : members gentleW 0 = [0, 2, 3] ∧ members gentleW 1 = [0] ∧ members gentleW 2 = [2] ∧ members gentleW 3 = [] ∧ members gentleW 4 = [2] ∧ value gentleW 0 1 = some 9 := by decide

/-- Record 0 is clean, records 2 and 3 are not. -/
example : Clean (· ∈ [4]) (· ∈ [2, 3]) gentleW 0 ∧ ¬ Clean (· ∈ [4]) (· ∈ [2, 3]) gentleW 2 := ⟨cleanB_sound (by decide), fun h => h.1 (by decide)⟩

/-- Gentle calls on `gentleW`: `Join`, `SetData` on record 0, `Exclude`. -/
example : Gently (fun _ => 0) (· ∈ [4]) (· ∈ [2, 3]) gentleW (.setJoin 1 2) ∧ Gently (fun _ => 0) (· ∈ [4]) (· ∈ [2, 3]) gentleW (.refSetData 0 1 7) ∧
    Gently (fun _ => 0) (· ∈ [4]) (· ∈ [2, 3]) gentleW (.setExclude 2 4) ∧ ¬ Gently (fun _ => 0) (· ∈ [4]) (· ∈ [2, 3]) gentleW (.refSetData 2 1 7) := by
  refine ⟨gentlyB_sound (by decide), gentlyB_sound (by decide), gentlyB_sound (by decide), fun h => ?_⟩
  exact (h.2.2 2 (by decide)).1 (by decide)

/-- `Join` on `gentleW`: one step of the specification. -/
example : ∃ w' : DW, outcome Env.id gentleW (.setJoin 1 2) = some (w', .res (.good none)) ∧ members w' 1 = [0, 2] ∧ (stateOf gentleW).Does (.join 1 2) (.res (.good none)) (stateOf w') := by
  obtain ⟨l, hl⟩ := gentleW_history
  have h : ∃ w', outcome Env.id gentleW (.setJoin 1 2) = some (w', .res (.good none)) ∧ members w' 1 = [0, 2] := ⟨_, rfl, by decide⟩
  obtain ⟨w', h1, h2⟩ := h
  exact ⟨w', h1, h2, C86_refines hl (gentlyB_sound (by decide)) h1⟩

/-- Sets, windows, indices, and a record that is in no vault any more. -/
example : isSetObj gentleW 2 = true ∧ parentOf gentleW 2 = some 0 ∧ (3, 2) ∈ hashIndex gentleW 2 1 ∧ (3, 2) ∈ ordIndex gentleW 4 1 ∧ 1 ∉ members gentleW 0 ∧ isSetObj gentleW 1 = true := by decide

/-- `C85_careful` speaks about this history. -/
example : ∃ l, GentleHistory (fun _ => 0) l (fun _ => False) (fun _ => False) carefulW := by
  obtain ⟨l, h, _⟩ := C83_history_exists carefulW_reach
  exact ⟨_, C85_careful h⟩

/-- Both orders of the hash tables, both orders of the sets. -/
example : ∃ w1 w2 : DW, outcome Env.id gentleW (.setUnion 1 2 3) = some (w1, .res (.good none)) ∧ outcome Env.rev gentleW (.setUnion 2 1 3) = some (w2, .res (.good none)) ∧
    members w1 3 = [0, 2] ∧ members w2 3 = [2, 0] ∧ stateOf w2 = stateOf w1 := by
  obtain ⟨l, hl⟩ := gentleW_history
  have h : ∃ w1 w2 : DW, outcome Env.id gentleW (.setUnion 1 2 3) = some (w1, .res (.good none)) ∧ outcome Env.rev gentleW (.setUnion 2 1 3) = some (w2, .res (.good none)) ∧
    members w1 3 = [0, 2] ∧ members w2 3 = [2, 0] := ⟨_, _, rfl, rfl, by decide, by decide⟩
  obtain ⟨w1, w2, h1, h2, h3, h4⟩ := h
  exact ⟨w1, w2, h1, h2, h3, h4, (C86_commute (.inl ⟨rfl, rfl⟩) hl (gentlyB_sound (by decide)) (gentlyB_sound (by decide)) h1 h2).2⟩

/-- A request on a union. -/
example : ∃ w1 w2 : DW, outcome Env.id gentleW (.setUnion 1 2 3) = some (w1, .res (.good none)) ∧
    outcome Env.id w1 (.request 3 .Greater 1 4 4 false false none (fun _ => true) 4) = some (w2, .res (.good (some 1))) ∧ members w2 4 = [0] ∧
    Gently (fun _ => 0) (· ∈ [4, 3]) (· ∈ [2, 3]) w1 (.request 3 .Greater 1 4 4 false false none (fun _ => true) 4) :=
  ⟨_, _, rfl, rfl, by decide, gentlyB_sound (by decide)⟩

/-- Equal and different sets. -/
example : setEq gentleW 2 4 = some true ∧ setEq gentleW 1 2 = some false ∧ isSetObj gentleW 4 = true := by decide

end MVault.W
