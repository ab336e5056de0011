import Verif.WorldMove
/-
Every state reached by ordinary operations satisfies the invariant.
-/
set_option linter.unusedSectionVars false
set_option linter.unusedSimpArgs false
namespace MVault.W
variable {K V Ty : Type} [LinearOrder K] [LinearOrder V] [Typed V Ty] [DecidableEq Ty]

/-- Operations that keep vaults apart. `home s` is the vault that set variable `s` is used with now; it may become another one as soon as the set is not in use
(`HReach.reuse` below).
Excluded are the operations the code does not survive:
* moving a vault a set has been used with, or to whose records references refer (these sets and references keep pointing at the
  source, Vault.cpp lines 261-314),
* copying a vault that has unique keys (the copy does not enforce them, Vault.hpp lines 519-522),
* copying or moving a set without parent into a new one (it stays flagged as a vault, VaultRecordSet.cpp lines 86-114),
* move assignment of sets to a set with records (VaultRecordSet.cpp lines 116-129),
* a failing `GetRecord` on a set with a reference into another vault (VaultRecordSet.hpp line 102),
* using one set variable with two vaults at a time. -/
def Ordinary (home : Nat → Nat) (w : World K V Ty) : Op K V Ty → Prop
  | .vaultMoveNew a => Untied home w a
  | .vaultMoveAssign o a => o = a ∨ Untied home w a
  | .vaultCopyNew a => ∀ ao, w.getObj a = some ao → ao.uniq = []
  | .vaultAssign o a => o = a ∨ ∀ ao, w.getObj a = some ao → ao.uniq = []
  | .request o _ _ _ _ _ _ _ _ s => ∀ oo p, w.getObj o = some oo → vaultOf o oo = some p → p = home s
  | .requestTree o _ s => ∀ oo p, w.getObj o = some oo → vaultOf o oo = some p → p = home s
  | .setCopyNew a => ∀ ao, w.getObj a = some ao → ao.parent = some (home w.nextO)
  | .setMoveNew a => ∀ ao, w.getObj a = some ao → ao.parent = some (home w.nextO)
  | .setAssign s a => ∀ ao p, w.getObj a = some ao → ao.parent = some p → p = home s
  | .setMoveAssign s a => (∀ ao p, w.getObj a = some ao → ao.parent = some p → p = home s) ∧
      ∀ so ao, w.getObj s = some so → w.getObj a = some ao → so.recs = [] ∨ ao.parent = none
  | .setUnion a _ s => ∀ ao p, w.getObj a = some ao → ao.parent = some p → p = home s
  | .setIntersection a _ s => ∀ ao p, w.getObj a = some ao → ao.parent = some p → p = home s
  | .setGetRecord s k v f => ∀ so ref r p, w.getObj s = some so → w.refs[f]? = some ref → ref.ptr = some r → so.parent = some p →
      (∀ c, mget so.cols k = some c → c.ty ≠ typeOf v) → ref.vlt = some p
  | _ => True

theorem Inv.empty (own home : Nat → Nat) : Inv own home (World.empty : World K V Ty) := by
  refine ⟨⟨?_, ?_, ?_, ?_, ?_⟩, ⟨?_, ?_, ?_, ?_, ?_⟩, ⟨?_, ?_, ?_, ?_, ?_⟩, ⟨?_, ?_⟩⟩ <;>
    simp [World.empty, World.getObj, World.getRec, mget]

theorem onVault_some {A : Type} {w : World K V Ty} {o : Nat} {x : Option A} {y : A} (h : onVault w o x = some y) :
    (∃ vo, w.getObj o = some vo ∧ vo.isSet = false) ∧ x = some y := by
  unfold onVault isVault at h
  cases ho : w.getObj o with
  | none => rw [ho] at h; simp at h
  | some vo =>
    rw [ho] at h
    cases hs : vo.isSet with
    | false => simp [hs] at h; exact ⟨⟨vo, rfl, hs⟩, h⟩
    | true => simp [hs] at h

theorem onSet_some {A : Type} {w : World K V Ty} {o : Nat} {x : Option A} {y : A} (h : onSet w o x = some y) :
    (∃ vo, w.getObj o = some vo ∧ vo.isSet = true) ∧ x = some y := by
  unfold onSet isSetObj at h
  cases ho : w.getObj o with
  | none => rw [ho] at h; simp at h
  | some vo =>
    rw [ho] at h
    cases hs : vo.isSet with
    | true => simp [hs] at h; exact ⟨⟨vo, rfl, hs⟩, h⟩
    | false => simp [hs] at h

theorem map_fst {A B : Type} {x : Option (A × B)} {a : A} (h : x.map (·.1) = some a) : ∃ b, x = some (a, b) := by
  cases x with
  | none => simp at h
  | some p => simp at h; exact ⟨p.2, by rw [← h]⟩

variable {own home : Nat → Nat}

theorem step_inv {env : Env} {w w' : World K V Ty} {op : Op K V Ty} (hi : Inv own home w) (hg : Ordinary home w op)
    (h : step env w op = some w') : ∃ own', Inv own' home w' := by
  cases op with
  | newVault => simp only [step, Option.some.injEq] at h; subst h; exact ⟨own, hi.newObj (.inl rfl)⟩
  | newSet => simp only [step, Option.some.injEq] at h; subst h; exact ⟨own, hi.newObj (.inr rfl)⟩
  | newRef => simp only [step, Option.some.injEq] at h; subst h; exact ⟨own, (newRef_ok hi.r).inv hi⟩
  | destroyVault o =>
    obtain ⟨⟨vo, ho, hs⟩, h⟩ := onVault_some h
    exact ⟨own, destroyVault_inv hi ho hs h⟩
  | destroySet s =>
    obtain ⟨⟨so, ho, hs⟩, h⟩ := onSet_some h
    exact ⟨own, destroySet_inv hi ho hs h⟩
  | refCopy f g =>
    simp only [step] at h
    have h0 := h
    simp only [refCopy, Option.bind_eq_bind, Option.bind_eq_some_iff] at h0
    obtain ⟨old, hf, src, hg', _⟩ := h0
    obtain ⟨w1, e, st, _⟩ := refCopy_ok hi.r hf hg'
    rw [h] at e; cases e; exact ⟨own, st.inv hi⟩
  | refMove f g =>
    simp only [step] at h
    have h0 := h
    simp only [refMove, Option.bind_eq_bind, Option.bind_eq_some_iff] at h0
    obtain ⟨old, hf, src, hg', _⟩ := h0
    obtain ⟨w1, e, st, _⟩ := refMove_ok hi.r hf hg'
    rw [h] at e; cases e; exact ⟨own, st.inv hi⟩
  | refReset f =>
    simp only [step] at h
    have h0 := h
    simp only [refReset, Option.bind_eq_bind, Option.bind_eq_some_iff] at h0
    obtain ⟨old, hf, _⟩ := h0
    obtain ⟨w1, e, st, _⟩ := refReset_ok hi.r hf
    rw [h] at e; cases e; exact ⟨own, st.inv hi⟩
  | refSetData f k v => obtain ⟨res, h⟩ := map_fst h; exact ⟨own, refSetData_inv hi h⟩
  | refSetDataMany f ps => obtain ⟨res, h⟩ := map_fst h; exact ⟨own, refSetDataMany_inv hi h⟩
  | addKey o k d =>
    obtain ⟨⟨vo, ho, hs⟩, h⟩ := onVault_some h
    obtain ⟨res, h⟩ := map_fst h
    rcases addKey_spec hi ho hs h with ⟨rfl, _⟩ | ⟨_, _, i, _⟩
    · exact ⟨own, hi⟩
    · exact ⟨own, i⟩
  | addUniqueKey o k t noFn f =>
    obtain ⟨⟨vo, ho, hs⟩, h⟩ := onVault_some h
    obtain ⟨res, h⟩ := map_fst h
    rcases addUniqueKey_spec hi ho hs h with ⟨rfl, _⟩ | ⟨rfl, _⟩ | ⟨rfl, _⟩ | ⟨_, _, _, i, _⟩
    · exact ⟨own, hi⟩
    · exact ⟨own, hi⟩
    · exact ⟨own, hi⟩
    · exact ⟨own, i⟩
  | updateKey o k d =>
    obtain ⟨⟨vo, ho, hs⟩, h⟩ := onVault_some h
    obtain ⟨res, h⟩ := map_fst h
    exact ⟨own, (updateKey_spec hi ho hs h).1⟩
  | removeKey o k =>
    obtain ⟨⟨vo, ho, hs⟩, h⟩ := onVault_some h
    obtain ⟨res, h⟩ := map_fst h
    rcases removeKey_spec hi ho hs h with ⟨rfl, _⟩ | ⟨_, _, i, _⟩
    · exact ⟨own, hi⟩
    · exact ⟨own, i⟩
  | createRecord o f ps =>
    obtain ⟨⟨vo, ho, hs⟩, h⟩ := onVault_some h
    obtain ⟨res, h⟩ := map_fst h
    rcases createRecord_spec hi ho hs h with ⟨rfl, _⟩ | ⟨_, _, rfl, _⟩ | ⟨data, w1, cols, _, _, _, _, _, _, i, _⟩
    · exact ⟨own, hi⟩
    · exact ⟨own, hi⟩
    · exact ⟨_, i⟩
  | createRow o ps =>
    obtain ⟨⟨vo, ho, hs⟩, h⟩ := onVault_some h
    obtain ⟨res, h⟩ := map_fst h
    rcases createRow_spec hi ho hs h with ⟨rfl, _⟩ | ⟨_, _, rfl, _⟩ | ⟨data, w1, cols, _, _, _, _, _, _, i, _⟩
    · exact ⟨own, hi⟩
    · exact ⟨own, hi⟩
    · exact ⟨_, i⟩
  | eraseRef o f =>
    obtain ⟨⟨vo, ho, hs⟩, h⟩ := onVault_some h
    obtain ⟨res, h⟩ := map_fst h
    obtain ⟨ref, _, hh⟩ := eraseRef_vault hi ho hs h
    rcases hh with ⟨rfl, _⟩ | ⟨_, _, _, _, i, _⟩
    · exact ⟨own, hi⟩
    · exact ⟨own, i⟩
  | eraseKV o k v =>
    obtain ⟨⟨vo, ho, hs⟩, h⟩ := onVault_some h
    obtain ⟨res, h⟩ := map_fst h
    rcases eraseKV_vault hi ho hs h with ⟨rfl, _⟩ | ⟨c, _, _, ⟨rfl, _⟩ | ⟨r, l, _, _, _, _, i, _⟩⟩
    · exact ⟨own, hi⟩
    · exact ⟨own, hi⟩
    · exact ⟨own, i⟩
  | eraseManyKV o k v n =>
    obtain ⟨⟨vo, ho, hs⟩, h⟩ := onVault_some h
    obtain ⟨res, h⟩ := map_fst h
    rcases eraseManyKV_vault hi ho hs h with ⟨rfl, _⟩ | ⟨c, _, _, ⟨rfl, _⟩ | ⟨_, _, i, _⟩⟩
    · exact ⟨own, hi⟩
    · exact ⟨own, hi⟩
    · exact ⟨own, i⟩
  | dropData o =>
    obtain ⟨⟨vo, ho, hs⟩, h⟩ := onVault_some h
    exact ⟨own, (dropData_spec hi ho hs h).1⟩
  | dropVault o =>
    obtain ⟨⟨vo, ho, hs⟩, h⟩ := onVault_some h
    exact ⟨own, (dropVault_spec hi ho hs h).1⟩
  | getRecord o k v f =>
    obtain ⟨⟨vo, ho, hs⟩, h⟩ := onVault_some h
    obtain ⟨res, h⟩ := map_fst h
    rcases getRecord_spec hi ho hs h with ⟨rfl, _⟩ | ⟨c, _, _, st, _⟩
    · exact ⟨own, hi⟩
    · exact ⟨own, st.inv hi⟩
  | getRecords o k v n =>
    obtain ⟨⟨vo, ho, hs⟩, h⟩ := onVault_some h
    obtain ⟨res, h⟩ := map_fst h
    rcases getRecords_spec hi ho hs h with ⟨rfl, _⟩ | ⟨c, _, _, ⟨rfl, _⟩ | ⟨_, _, st, _⟩⟩
    · exact ⟨own, hi⟩
    · exact ⟨own, hi⟩
    · exact ⟨own, st.inv hi⟩
  | getSorted o k rev n =>
    simp only [step] at h
    have h0 := h
    simp only [getSorted, Option.bind_eq_bind, Option.bind_eq_some_iff] at h0
    obtain ⟨oo, ho, _⟩ := h0
    exact ⟨own, (getSorted_spec hi ho h).1.inv hi⟩
  | request o t k a b ia ib n pred s =>
    obtain ⟨⟨so, hs, his⟩, h⟩ := onSet_some h
    obtain ⟨res, h⟩ := map_fst h
    exact ⟨own, (request_sp hi.v hi.q.si hs his hg h).inv hi⟩
  | requestTree o q s =>
    obtain ⟨⟨so, hs, his⟩, h⟩ := onSet_some h
    obtain ⟨res, h⟩ := map_fst h
    exact ⟨own, (requestTree_sp hi.v hi.q.si hs his hg h).inv hi⟩
  | setAddRecord s f =>
    obtain ⟨⟨so, hs, his⟩, h⟩ := onSet_some h
    obtain ⟨res, h⟩ := map_fst h
    exact ⟨own, (setAddRecord_sq hi.r hi.q.si hs his h).inv hi⟩
  | setRemoveRef s f =>
    obtain ⟨⟨so, hs, his⟩, h⟩ := onSet_some h
    obtain ⟨res, h⟩ := map_fst h
    simp only [setRemoveRef, hs, Option.bind_eq_bind, Option.bind_some] at h
    split at h
    · cases h; exact ⟨own, hi⟩
    · exact ⟨own, (eraseRef_set hi.s hs his h).inv hi⟩
  | setRemoveKV s k v =>
    obtain ⟨⟨so, hs, his⟩, h⟩ := onSet_some h
    obtain ⟨res, h⟩ := map_fst h
    simp only [setRemoveKV, hs, Option.bind_eq_bind, Option.bind_some] at h
    split at h
    · cases h; exact ⟨own, hi⟩
    · exact ⟨own, (eraseKV_set hi.s hs his h).inv hi⟩
  | setRemoveManyKV s k v n =>
    obtain ⟨⟨so, hs, his⟩, h⟩ := onSet_some h
    obtain ⟨res, h⟩ := map_fst h
    simp only [setRemoveManyKV, hs, Option.bind_eq_bind, Option.bind_some] at h
    split at h
    · cases h; exact ⟨own, hi⟩
    · exact ⟨own, (eraseManyKV_set hi.s hs his h).inv hi⟩
  | setClear s =>
    obtain ⟨⟨so, hs, his⟩, h⟩ := onSet_some h
    exact ⟨own, (setClear_sq hs his h).inv hi⟩
  | setReset s =>
    obtain ⟨⟨so, hs, his⟩, h⟩ := onSet_some h
    exact ⟨own, (setReset_spec hs his hi.q.si h).1.inv hi⟩
  | setGetRecord s k v f =>
    obtain ⟨⟨so, hs, his⟩, h⟩ := onSet_some h
    obtain ⟨res, h⟩ := map_fst h
    refine ⟨own, (setGetRecord_spec hi hs his ?_ h).1.inv hi⟩
    intro ref r e p h1 h2 h3 h4
    rcases checkKey_cases so k (typeOf v) with ⟨_, hn⟩ | ⟨c, hc, ht, _⟩ | ⟨c, hc, ht, hok⟩
    · exact hg so ref r p hs h1 h2 h4 (by rw [hn]; simp)
    · exact hg so ref r p hs h1 h2 h4 (by rw [hc]; intro c' e; cases e; exact ht)
    · rw [hok] at h3; cases h3
  | setGetRecords s k v n =>
    obtain ⟨⟨so, hs, his⟩, h⟩ := onSet_some h
    obtain ⟨res, h⟩ := map_fst h
    exact ⟨own, (setGetRecords_spec hi hs his h).1.inv hi⟩
  | setJoin s a =>
    obtain ⟨⟨so, hs, his⟩, h⟩ := onSet_some h
    obtain ⟨⟨ao, ha, hai⟩, h⟩ := onSet_some h
    obtain ⟨res, h⟩ := map_fst h
    exact ⟨own, (setJoin_sq hi.s hs his ha hai h).inv hi⟩
  | setExclude s a =>
    obtain ⟨⟨so, hs, his⟩, h⟩ := onSet_some h
    obtain ⟨⟨ao, ha, hai⟩, h⟩ := onSet_some h
    obtain ⟨res, h⟩ := map_fst h
    exact ⟨own, (setExclude_sq hi.s hs his h).inv hi⟩
  | setIntersect s a =>
    obtain ⟨⟨so, hs, his⟩, h⟩ := onSet_some h
    obtain ⟨⟨ao, ha, hai⟩, h⟩ := onSet_some h
    obtain ⟨res, h⟩ := map_fst h
    exact ⟨own, (setIntersect_sq hi.s hs his h).inv hi⟩
  | setUnion a b s =>
    obtain ⟨⟨so, hs, his⟩, h⟩ := onSet_some h
    obtain ⟨⟨ao, ha, hai⟩, h⟩ := onSet_some h
    obtain ⟨⟨bo, hb, hbi⟩, h⟩ := onSet_some h
    obtain ⟨res, h⟩ := map_fst h
    exact ⟨own, (setUnion_sp hi.q.si hs his ha hai hb hbi (fun p hp => hg ao p ha hp) h).inv hi⟩
  | setIntersection a b s =>
    obtain ⟨⟨so, hs, his⟩, h⟩ := onSet_some h
    obtain ⟨⟨ao, ha, hai⟩, h⟩ := onSet_some h
    obtain ⟨⟨bo, hb, hbi⟩, h⟩ := onSet_some h
    obtain ⟨res, h⟩ := map_fst h
    exact ⟨own, (setIntersection_sp hi.q.si hs his ha hai hb hbi (fun p hp => hg ao p ha hp) h).inv hi⟩
  | setCopyNew a =>
    obtain ⟨⟨ao, ha, hai⟩, h⟩ := onSet_some h
    have hp := hg ao ha
    refine ⟨own, (setCopyNew_inv hi ha hai (by rw [hp]; simp) ?_ h).1⟩
    exact (hi.s.sets a ao ha hai).par _ hp
  | setMoveNew a =>
    obtain ⟨⟨ao, ha, hai⟩, h⟩ := onSet_some h
    have hp := hg ao ha
    refine ⟨own, setMoveNew_inv hi ha hai (by rw [hp]; simp) ?_ h⟩
    exact (hi.s.sets a ao ha hai).par _ hp
  | setAssign s a =>
    obtain ⟨⟨so, hs, his⟩, h⟩ := onSet_some h
    obtain ⟨⟨ao, ha, hai⟩, h⟩ := onSet_some h
    exact ⟨own, (setAssign_spec hi.q.si hs his ha hai (fun p hp => hg ao p ha hp) h).1.inv hi⟩
  | setMoveAssign s a =>
    obtain ⟨⟨so, hs, his⟩, h⟩ := onSet_some h
    obtain ⟨⟨ao, ha, hai⟩, h⟩ := onSet_some h
    exact ⟨own, (setMoveAssign_sp hi.q.si hs his ha hai (hg.2 so ao hs ha) (fun p hp => hg.1 ao p ha hp) h).inv hi⟩
  | vaultCopyNew a =>
    obtain ⟨⟨ao, ha, hai⟩, h⟩ := onVault_some h
    exact ⟨_, vaultCopyNew_inv hi ha hai (hg ao ha) h⟩
  | vaultAssign o a =>
    obtain ⟨⟨vo, ho, hs⟩, h⟩ := onVault_some h
    obtain ⟨⟨ao, ha, hai⟩, h⟩ := onVault_some h
    refine vaultAssign_inv hi ho hs ha hai ?_ h
    intro hne
    rcases hg with e | hg
    · exact absurd e hne
    · exact hg ao ha
  | vaultMoveNew a =>
    obtain ⟨⟨ao, ha, hai⟩, h⟩ := onVault_some h
    exact vaultMoveNew_inv hi ha hai hg h
  | vaultMoveAssign o a =>
    obtain ⟨⟨vo, ho, hs⟩, h⟩ := onVault_some h
    obtain ⟨⟨ao, ha, hai⟩, h⟩ := onVault_some h
    exact vaultMoveAssign_inv hi ho hs ha hai (fun hne => hg.resolve_left hne) h

/-- A set variable that is not in use: it has no vault (as after `Reset`), no maps of keys, no reference variable got through it refers to a record, and no record in a vault has it in
its list of sets. Holds of numbers of objects that do not exist yet. -/
structure Unused (w : World K V Ty) (s : Nat) : Prop where
  obj : ∀ so, w.getObj s = some so → so.isSet = true → so.parent = none ∧ so.cols = []
  refs : ∀ so, w.getObj s = some so → so.isSet = true → ∀ f ∈ w.refs, f.vlt = some s → f.ptr = none
  recs : ∀ r x, w.getRec r = some x → x.valid = true → s ∉ x.deps

/-- The vault of set variable `s` is now `p`. -/
def rehome (home : Nat → Nat) (s p : Nat) : Nat → Nat := fun t => if t = s then p else home t

/-- Worlds reached from the empty world by operations that each satisfy `G`, without undefined behaviour on the way. `home` says which vault each set variable is used with; a set that is
not in use may be used with another one from now on. -/
inductive HReach (G : (Nat → Nat) → World K V Ty → Op K V Ty → Prop) : (Nat → Nat) → World K V Ty → Prop
  | init {home : Nat → Nat} : HReach G home World.empty
  | step {home : Nat → Nat} (w w' : World K V Ty) (env : Env) (op : Op K V Ty) : HReach G home w → G home w op → W.step env w op = some w' → HReach G home w'
  | reuse {home : Nat → Nat} (w : World K V Ty) (s p : Nat) : HReach G home w → Unused w s → HReach G (rehome home s p) w

theorem HReach.any {G : (Nat → Nat) → World K V Ty → Op K V Ty → Prop} {w : World K V Ty} (h : HReach G home w) : Reach (fun _ _ => True) w := by
  induction h with
  | init => exact .init
  | step w w' env op _ _ hs ih => exact .step w w' env op ih trivial hs
  | reuse _ _ _ _ _ ih => exact ih

theorem Reach.mono {G H : World K V Ty → Op K V Ty → Prop} (hg : ∀ w op, G w op → H w op) {w : World K V Ty} (h : Reach G w) : Reach H w := by
  induction h with
  | init => exact .init
  | step w w' env op _ g hs ih => exact .step w w' env op ih (hg _ _ g) hs

/-- If no set changes its vault. -/
theorem Reach.fixed {G : (Nat → Nat) → World K V Ty → Op K V Ty → Prop} {w : World K V Ty} (h : Reach (G home) w) : HReach G home w := by
  induction h with
  | init => exact .init
  | step w w' env op _ g hs ih => exact .step w w' env op ih g hs

theorem HReach.mono {G H : (Nat → Nat) → World K V Ty → Op K V Ty → Prop} (hg : ∀ home w op, G home w op → H home w op) {w : World K V Ty} (h : HReach G home w) : HReach H home w := by
  induction h with
  | init => exact .init
  | step w w' env op _ g hs ih => exact .step w w' env op ih (hg _ _ _ g) hs
  | reuse w s p _ hu ih => exact .reuse w s p ih hu

theorem Inv.rehome {w : World K V Ty} (h : Inv own home w) {s : Nat} (hu : Unused w s) (p : Nat) : Inv own (W.rehome home s p) w := by
  have hne : ∀ t, t ≠ s → W.rehome home s p t = home t := fun t ht => by simp [W.rehome, ht]
  refine ⟨h.v, ⟨h.r.cnt, h.r.inv, h.r.live, ?_, h.r.vlt⟩, ⟨?_, ?_, h.s.ltO, h.s.ltR, h.s.vb⟩, h.l⟩
  · intro f hf r o oo hp hv hoo
    have := h.r.own f hf r o oo hp hv hoo
    by_cases hs : oo.isSet = true
    · have : o ≠ s := by rintro rfl; rw [hu.refs oo hoo hs f hf hv] at hp; cases hp
      rw [if_pos hs, hne o this]; rw [if_pos hs] at *; assumption
    · rw [if_neg hs]; rw [if_neg hs] at this; exact this
  · intro t so ht hts
    have ok := h.s.sets t so ht hts
    by_cases e : t = s
    · subst e
      obtain ⟨u1, u2⟩ := hu.obj so ht hts
      have hr := ok.det u1
      exact ⟨ok.base, ok.sets, (by rw [u1]; simp), ok.det, (by rw [hr]; simp), (by rw [u2]; intro k c hc; cases hc)⟩
    · exact ⟨ok.base, ok.sets, (by rw [hne t e]; exact ok.par), ok.det, (by rw [hne t e]; exact ok.recs), (by rw [hne t e]; exact ok.cols)⟩
  · intro r x t hx ht
    obtain ⟨d1, d2⟩ := h.s.deps r x t hx ht
    refine ⟨fun hv => ?_, d2⟩
    have : t ≠ s := by rintro rfl; exact hu.recs r x hx hv ht
    rw [hne t this]; exact d1 hv

/-- The invariant holds in every state reached by ordinary operations. -/
theorem reach_inv {w : World K V Ty} (h : HReach Ordinary home w) : ∃ own, Inv own home w := by
  induction h with
  | init => exact ⟨fun _ => 0, Inv.empty _ _⟩
  | step w w' env op _ hg hs ih =>
    obtain ⟨own, hi⟩ := ih
    exact step_inv hi hg hs
  | reuse w s p _ hu ih =>
    obtain ⟨own, hi⟩ := ih
    exact ⟨own, hi.rehome hu p⟩

end MVault.W
