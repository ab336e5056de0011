import Verif.WorldWindow6
import Verif.PropsTable2
import Verif.PropsCareful
/-
C83: in careful use every call does to the vaults and the sets exactly what the specification of tables and windows says (SetSpec.lean).
-/
set_option linter.unusedSectionVars false
set_option linter.unusedSimpArgs false
set_option linter.unusedVariables false
namespace MVault.W
open MVault.Spec (Table Db Event Cmd SetVar State Call UpTo leaves arg)
variable {K V Ty : Type} [LinearOrder K] [LinearOrder V] [Typed V Ty] [DecidableEq Ty]

theorem other_db {home : Nat → Nat} {env : Env} {w w' : World K V Ty} {op : Op K V Ty} {ans : Answer K} (hw : HReach Careful home w)
    (hg : Ordinary home w op) (h : outcome env w op = some (w', ans)) (he : eventOf w op = .other) : dbOf w' = dbOf w := by
  have := C79_refines (Careful.ordinary hw) hg h
  rw [he] at this; exact this

theorem careful_step {own home : Nat → Nat} {env : Env} {w w' : World K V Ty} {op : Op K V Ty} {ans : Answer K} (hi : Inv own home w) (hd : Deep w)
    (hg : Careful home w op) (h : outcome env w op = some (w', ans)) (hS : (dbOf w).Step (eventOf w op) ans (dbOf w')) :
    (stateOf w).Step (callOf w op) ans (stateOf w') := by
  have hstep : step env w op = some w' := by rw [← outcome_step, h]; rfl
  obtain ⟨own', hi'⟩ := step_inv hi hg.1 hstep
  obtain ⟨_, e', hd'⟩ := step_deep (env := env) hi hd hg
  rw [hstep] at e'; cases e'
  have hdb : eventOf w op = .other → dbOf w' = dbOf w := fun he => by rw [he] at hS; exact hS
  have hv : ∀ e, callOf w op = .vault e → (stateOf w).Step (callOf w op) ans (stateOf w') := by
    intro e he
    obtain ⟨h1, h2⟩ := vault_follows hi hd hg h hS he
    rw [he, h1]
    exact ⟨hS, by rw [← h1]; exact h2⟩
  have hO := hg.1
  have hA := hg.2
  clear hg
  cases op <;> (first | exact hv _ rfl | skip) <;> clear hv <;> simp only [Allowed] at hA <;> simp only [outcome] at h <;>
    replace hdb := hdb rfl <;> simp only [callOf]
  case newSet =>
    cases h
    obtain ⟨n1, n2⟩ := newSet_state hi hdb
    exact ⟨n1, rfl, n2⟩
  case destroySet s =>
    obtain ⟨so, h1, h2⟩ := isSetObj_iff.mp hA
    rw [onSet, if_pos hA] at h
    obtain ⟨w1, e, h⟩ := Option.map_eq_some_iff.mp h
    cases h
    exact ⟨⟨_, var_of h1 h2⟩, rfl, destroySet_state hi hd h1 h2 e hdb⟩
  case request o t k a b ia ib n pred s =>
    obtain ⟨oo, h1⟩ := liveObj hA.1
    obtain ⟨so, h2, h3⟩ := isSetObj_iff.mp hA.2
    rw [onSet, if_pos hA.2] at h
    obtain ⟨⟨w1, r1⟩, e, h⟩ := Option.map_eq_some_iff.mp h
    cases h
    exact request_state hi hd hi' h1 h2 h3 (fun p hp => hO oo p h1 hp) e hdb
  case requestTree o q s =>
    obtain ⟨oo, h1⟩ := liveObj hA.1
    obtain ⟨so, h2, h3⟩ := isSetObj_iff.mp hA.2.1
    rw [onSet, if_pos hA.2.1] at h
    obtain ⟨⟨w1, r1⟩, e, h⟩ := Option.map_eq_some_iff.mp h
    cases h
    exact requestTree_state hi hd hi' h1 h2 h3 (fun p hp => hO oo p h1 hp) hA.2.2 e hdb
  case setAddRecord s f =>
    obtain ⟨so, h1, h2⟩ := isSetObj_iff.mp hA.1
    rw [onSet, if_pos hA.1] at h
    obtain ⟨⟨w1, r1⟩, e, h⟩ := Option.map_eq_some_iff.mp h
    cases h
    exact setAddRecord_state hi hd hi' h1 h2 hA.2 e hdb
  case setClear s =>
    obtain ⟨so, h1, h2⟩ := isSetObj_iff.mp hA
    rw [onSet, if_pos hA] at h
    obtain ⟨w1, e, h⟩ := Option.map_eq_some_iff.mp h
    cases h
    exact ⟨_, var_of h1 h2, rfl, setClear_state hi hd h1 h2 e hdb⟩
  case setReset s =>
    obtain ⟨so, h1, h2⟩ := isSetObj_iff.mp hA
    rw [onSet, if_pos hA] at h
    obtain ⟨w1, e, h⟩ := Option.map_eq_some_iff.mp h
    cases h
    exact ⟨⟨_, var_of h1 h2⟩, rfl, setReset_state hi hd hi' h1 h2 e hdb⟩
  case setGetRecord s k v f =>
    obtain ⟨so, h1, h2⟩ := isSetObj_iff.mp hA.1
    rw [onSet, if_pos hA.1] at h
    obtain ⟨⟨w1, r1⟩, e, h⟩ := Option.map_eq_some_iff.mp h
    cases h
    exact setGetRecord_state hi hd h1 h2 hA.2 e hdb
  case setGetRecords s k v n =>
    obtain ⟨so, h1, h2⟩ := isSetObj_iff.mp hA
    rw [onSet, if_pos hA] at h
    obtain ⟨⟨w1, r1⟩, e, h⟩ := Option.map_eq_some_iff.mp h
    cases h
    exact setGetRecords_state hi hd h1 h2 e hdb
  case setCopyNew a =>
    obtain ⟨so, h1, h2⟩ := isSetObj_iff.mp hA
    rw [onSet, if_pos hA] at h
    obtain ⟨w1, e, h⟩ := Option.map_eq_some_iff.mp h
    cases h
    exact setCopyNew_state hi hd hi' h1 h2 (by rw [hO so h1]; simp) e hdb
  case setAssign s a =>
    obtain ⟨so, h1, h2⟩ := isSetObj_iff.mp hA.1
    obtain ⟨ao, h3, h4⟩ := isSetObj_iff.mp hA.2
    rw [onSet, if_pos hA.1, onSet, if_pos hA.2] at h
    obtain ⟨w1, e, h⟩ := Option.map_eq_some_iff.mp h
    cases h
    exact setAssign_state hi hd hi' h1 h2 h3 h4 e hdb
  case setMoveAssign s a =>
    obtain ⟨so, h1, h2⟩ := isSetObj_iff.mp hA.1
    obtain ⟨ao, h3, h4⟩ := isSetObj_iff.mp hA.2.1
    rw [onSet, if_pos hA.1, onSet, if_pos hA.2.1] at h
    obtain ⟨w1, e, h⟩ := Option.map_eq_some_iff.mp h
    cases h
    simp only [setMoveAssign, h1, h3, Option.bind_eq_bind, Option.bind_some] at e
    refine ⟨⟨_, var_of h1 h2⟩, rfl, ao.var, var_of h3 h4, ?_⟩
    by_cases hsa : s = a
    · rw [if_pos hsa] at e; cases e; exact .inl ⟨hsa, rfl⟩
    · have hp := hA.2.2.resolve_left hsa ao h3
      rw [if_neg hsa, if_pos hp] at e
      exact .inr (.inl ⟨hsa, hp, setReset_state hi hd hi' h1 h2 e hdb⟩)

/-- Every careful call is one step of the specification. -/
theorem C83_refines {home : Nat → Nat} {env : Env} {w w' : World K V Ty} {op : Op K V Ty} {ans : Answer K} (hw : HReach Careful home w)
    (hg : Careful home w op) (h : outcome env w op = some (w', ans)) : (stateOf w).Step (callOf w op) ans (stateOf w') := by
  obtain ⟨own, hi, hd⟩ := reach_deep hw
  exact careful_step hi hd hg h (C79_refines (Careful.ordinary hw) hg.1 h)

/-- Every careful call has an outcome: no freed record, destroyed vault or destroyed set is touched. -/
theorem C83_defined {home : Nat → Nat} {env : Env} {w : World K V Ty} {op : Op K V Ty} (hw : HReach Careful home w) (hg : Careful home w op) :
    ∃ w' ans, outcome env w op = some (w', ans) ∧ HReach Careful home w' := by
  obtain ⟨own, hi, hd⟩ := reach_deep hw
  obtain ⟨w', h, _⟩ := step_deep (env := env) hi hd hg
  have h' := h
  rw [← outcome_step] at h'
  obtain ⟨⟨w1, a⟩, h1, h2⟩ := Option.map_eq_some_iff.mp h'
  cases h2
  exact ⟨_, a, h1, .step w _ env op hw hg h⟩

/-- A history of careful calls with their answers, the last one first; a set that is not in use may change its vault. -/
inductive CarefulHistory : (Nat → Nat) → List (Call K V Ty × Answer K) → World K V Ty → Prop
  | init {home : Nat → Nat} : CarefulHistory home [] World.empty
  | reuse {home : Nat → Nat} (l : List (Call K V Ty × Answer K)) (w : World K V Ty) (s p : Nat) : CarefulHistory home l w → Unused w s → CarefulHistory (rehome home s p) l w
  | step {home : Nat → Nat} (l : List (Call K V Ty × Answer K)) (w w' : World K V Ty) (env : Env) (op : Op K V Ty) (ans : Answer K) :
      CarefulHistory home l w → Careful home w op → outcome env w op = some (w', ans) → CarefulHistory home ((callOf w op, ans) :: l) w'

theorem CarefulHistory.reach {home : Nat → Nat} {l : List (Call K V Ty × Answer K)} {w : World K V Ty} (h : CarefulHistory home l w) : HReach Careful home w := by
  induction h with
  | init => exact .init
  | reuse l w s p _ hu ih => exact .reuse _ s p ih hu
  | step l w w' env op ans _ hg ho ih => exact .step _ _ env op ih hg (by rw [← outcome_step, ho]; rfl)

/-- Whole histories: the calls and answers of every careful history are a run of the specification, which ends with the tables and windows the
vaults and sets are. -/
theorem C83_history {home : Nat → Nat} {l : List (Call K V Ty × Answer K)} {w : World K V Ty} (h : CarefulHistory home l w) : State.Run l (stateOf w) := by
  induction h with
  | init =>
    have : stateOf (World.empty : World K V Ty) = State.empty :=
      State.ext dbOf_empty (funext fun s => show varsOf (World.empty : World K V Ty) s = none from varsOf_none fun so h => by simp [World.empty, World.getObj, mget] at h)
    rw [this]; exact .init
  | reuse _ _ _ _ _ _ ih => exact ih
  | step l w w' env op ans hh hg ho ih => exact .step _ _ _ _ _ ih (C83_refines hh.reach hg ho)

/-- Every state careful calls can reach has such a history. -/
theorem C83_history_exists {home : Nat → Nat} {w : World K V Ty} (hw : HReach Careful home w) : ∃ l, CarefulHistory home l w ∧ State.Run l (stateOf w) := by
  suffices H : ∃ l, CarefulHistory home l w by obtain ⟨l, h⟩ := H; exact ⟨l, h, C83_history h⟩
  induction hw with
  | init => exact ⟨_, .init⟩
  | step w w' env op _ hg hs ih =>
    obtain ⟨l, h⟩ := ih
    rw [← outcome_step] at hs
    obtain ⟨⟨w1, ans⟩, h1, h2⟩ := Option.map_eq_some_iff.mp hs
    cases h2
    exact ⟨_, .step _ _ _ env op ans h hg h1⟩
  | reuse w s p _ hu ih =>
    obtain ⟨l, h⟩ := ih
    exact ⟨l, .reuse l w s p h hu⟩

/-- What the functions of an attached set show is the window: its keys, unique keys and types are the ones of the vault, its records are records of
the vault, and what its indices list are its records, under keys of the vault. A set without vault shows nothing. -/
theorem C83_window {home : Nat → Nat} {w : World K V Ty} (hw : HReach Careful home w) {s : Nat} (hs : isSetObj w s = true) :
    ∃ x, (stateOf w).sets s = some x ∧ x.vault = parentOf w s ∧ (∀ r, x.row r ↔ r ∈ members w s) ∧ (∀ b k r, x.seen b k r ↔ Listed b w s k r) ∧
      (parentOf w s = none → members w s = [] ∧ getKeys w s = [] ∧ (stateOf w).source s = none) ∧
      ∀ p, parentOf w s = some p → ∃ t, (stateOf w).vaults p = some t ∧ (stateOf w).source s = some (p, x.on t) ∧ t.keys = getKeys w s ∧
        (∀ k, t.uniq k ↔ k ∈ getUniqueKeys w s) ∧ (∀ k, t.ty k = getKeyType w s k) ∧ (∀ r, x.row r → t.row r) ∧
        (∀ r k, x.row r → (x.on t).cell r k = value w r k) ∧ (∀ b k r, x.seen b k r → x.row r ∧ k ∈ t.keys) := by
  obtain ⟨own, hi, hd⟩ := reach_deep hw
  obtain ⟨so, hso, his⟩ := isSetObj_iff.mp hs
  have hpar : parentOf w s = so.parent := by simp [parentOf, hso]
  have hvo : vaultOf s so = so.parent := by simp [vaultOf, his]
  have sd := hd.set s so hso his
  refine ⟨so.var, var_of hso his, hpar.symm, fun r => by rw [members_eq hso]; rfl, fun b k r => (listed_obj hso b k r).symm, fun hp => ?_, fun p hp => ?_⟩
  · rw [hpar] at hp
    refine ⟨by rw [members_eq hso]; exact (hi.s.sets s so hso his).det hp, by rw [getKeys_eq hso]; exact (sd.det hp).2.1, source_none hso (by rw [hvo, hp])⟩
  · rw [hpar] at hp
    obtain ⟨po, hpo, hpv, _⟩ := hi.l.up s so p hso his hp
    have al := sd.att p po hp hpo
    have hv := vault_of_obj hpo hpv
    refine ⟨asTable w p, dbOf_vault hv, ?_, ?_, fun k => ?_, fun k => ?_, fun r hr => set_rows hi hd hso his hp r hr, fun r k hr => set_cell hi hd hso his hp hr k,
      fun b k r hx => ?_⟩
    · show (match dbOf w s with | some t => some (s, t) | none => match varsOf w s with | some s => s.vault.bind fun p => (dbOf w p).map fun t => (p, s.on t) | none => none) = _
      rw [dbOf_none (by simp [isVault, hso, his]), varsOf_some hso his]
      show so.parent.bind (fun p => (dbOf w p).map fun t => (p, so.var.on t)) = _
      rw [hp, Option.bind_some, dbOf_vault hv]; rfl
    · show getKeys w p = _
      rw [getKeys_eq hpo, getKeys_eq hso, al.keys]
    · show k ∈ getUniqueKeys w p ↔ _
      rw [getUniqueKeys_eq hpo, getUniqueKeys_eq hso, al.uniq]
    · show getKeyType w p k = _
      rw [getKeyType_eq hpo, getKeyType_eq hso, al.ty]
    · obtain ⟨a, c, b', _⟩ := lists_mem hd hso his hx
      exact ⟨a, (set_col hi hd hso his hp k).mp (by rw [mhas_iff]; exact ⟨c, b'⟩)⟩

/-! ### C84 -/

/-- A call on sets only (constructor, request, `AddRecord`, `Clear`, `Reset`, copy, search) changes no vault and no set but the one it is for. -/
theorem C84_apart {home : Nat → Nat} {env : Env} {w w' : World K V Ty} {op : Op K V Ty} {ans : Answer K} (hw : HReach Careful home w)
    (hg : Careful home w op) (h : outcome env w op = some (w', ans)) (he : ∀ e, callOf w op ≠ .vault e) :
    dbOf w' = dbOf w ∧ ∃ s, ∀ t, t ≠ s → varsOf w' t = varsOf w t := by
  have hs := C83_refines hw hg h
  have key : ∀ {s : Nat} {x : Option (SetVar K)}, stateOf w' = (stateOf w).put s x → dbOf w' = dbOf w ∧ ∃ s, ∀ t, t ≠ s → varsOf w' t = varsOf w t := by
    intro s x e
    refine ⟨congrArg State.vaults e, s, fun t ht => ?_⟩
    have := congrFun (congrArg State.sets e) t
    simp only [State.put, ht, if_false] at this; exact this
  have same : stateOf w' = stateOf w → dbOf w' = dbOf w ∧ ∃ s, ∀ t, t ≠ s → varsOf w' t = varsOf w t := by
    intro e
    exact ⟨congrArg State.vaults e, 0, fun t _ => congrFun (congrArg State.sets e) t⟩
  cases hc : callOf w op with
  | vault e => exact absurd hc (he e)
  | new s => rw [hc] at hs; exact key hs.2.2
  | gone s => rw [hc] at hs; exact key hs.2.2
  | ask o k c n pred s =>
    rw [hc] at hs
    obtain ⟨_, hs⟩ := hs
    split at hs
    · exact same hs.2
    · split at hs
      · exact same hs.2
      · split at hs
        · exact key hs.2
        · obtain ⟨l, _, _, e⟩ := hs; exact key e
  | tree o q s =>
    rw [hc] at hs
    obtain ⟨_, hs⟩ := hs
    split at hs
    · exact same hs.2
    · split at hs
      · exact same hs.2
      · split at hs
        · exact key hs.2
        · exact key hs.2
  | add s p r =>
    rw [hc] at hs
    obtain ⟨x, _, ⟨_, _, e⟩ | ⟨_, _, _, e⟩ | ⟨_, _, _, _, e⟩ | ⟨_, _, _, _, _, _, _, e⟩ | ⟨_, _, _, _, _, _, _, _, _, _, e⟩⟩ := hs
    · exact same e
    · exact same e
    · exact same e
    · exact same e
    · exact key e
  | clear s => rw [hc] at hs; obtain ⟨_, _, _, e⟩ := hs; exact key e
  | reset s => rw [hc] at hs; exact key hs.2.2
  | copyNew s a => rw [hc] at hs; obtain ⟨_, _, _, _, _, _, _, _, e⟩ := hs; exact key e
  | assign s a =>
    rw [hc] at hs
    obtain ⟨_, _, x, _, ⟨_, e⟩ | ⟨_, _, e⟩ | ⟨_, _, _, _, _, e⟩⟩ := hs
    · exact same e
    · exact key e
    · exact key e
  | find s k v => rw [hc] at hs; exact same hs.2.1

/-- A call on a vault changes only sets of that vault: every other set keeps its vault, its records and what its searches find. -/
theorem C84_elsewhere {home : Nat → Nat} {env : Env} {w w' : World K V Ty} {op : Op K V Ty} {ans : Answer K} (hw : HReach Careful home w)
    (hg : Careful home w op) (h : outcome env w op = some (w', ans)) {o : Nat} {c : Cmd K V Ty} (he : eventOf w op = .on o c) (hc : callOf w op = .vault (eventOf w op))
    {s : Nat} (hp : parentOf w s ≠ some o) : varsOf w' s = varsOf w s := by
  have hs := C83_refines hw hg h
  rw [hc, he] at hs
  have e := hs.2 s
  have e : varsOf w' s = (varsOf w s).map fun x => x.follow (dbOf w) (dbOf w') (.on o c) := e
  rw [e]
  by_cases hso : isSetObj w s = true
  · obtain ⟨so, h1, h2⟩ := isSetObj_iff.mp hso
    rw [varsOf_some h1 h2, Option.map_some]
    have hne : so.var.vault ≠ some o := by
      intro x; apply hp; simp only [parentOf, h1]; exact x
    congr 1
    simp only [SetVar.follow]
    split
    · rw [if_neg hne]
    · rfl
  · rw [varsOf, if_neg hso]; rfl

/-- Two requests one after the other: asking the result of a request gives the records of the first result that satisfy the second condition, and misses
none of them, whatever the indices of the vault miss. -/
theorem C84_narrow {home : Nat → Nat} {e1 e2 : Env} {w w1 w2 : World K V Ty} {o s s' : Nat} {k k' : K} {t t' : ReqType}
    {a b a' b' : V} {ia ib ia' ib' : Bool} {p : Nat → Bool} {n : Option Nat}
    (hw : HReach Careful home w) (hg1 : Careful home w (.request o t k a b ia ib n p s)) (h1 : outcome e1 w (.request o t k a b ia ib n p s) = some (w1, .res (.good (some k))))
    (hg2 : Careful home w1 (.request s t' k' a' b' ia' ib' none (fun _ => true) s'))
    (h2 : outcome e2 w1 (.request s t' k' a' b' ia' ib' none (fun _ => true) s') = some (w2, .res (.good (some k')))) :
    ∀ r, r ∈ members w2 s' ↔ r ∈ members w1 s ∧ ∃ v, value w1 r k' = some v ∧ (condOf t' a' b' ia' ib').holds v := by
  have hw1 : HReach Careful home w1 := .step w w1 e1 _ hw hg1 (by rw [← outcome_step, h1]; rfl)
  have st1 := C83_refines hw hg1 h1
  have st2 := C83_refines hw1 hg2 h2
  simp only [callOf] at st1 st2
  obtain ⟨⟨x0, hx0⟩, st1⟩ := st1
  obtain ⟨⟨y0, hy0⟩, st2⟩ := st2
  -- the first result
  obtain ⟨q, tb, row, hsets⟩ : ∃ q tb row, stateOf w1 = (stateOf w).put s (some (SetVar.fill q tb row)) ∧ (stateOf w).source o = some (q, tb) := by
    split at st1
    · exact absurd st1.1 (by simp [Res.good, Res.bad])
    · rename_i q tb hsrc
      split at st1
      · exact absurd st1.1 (by simp [Res.good, Res.bad])
      · split at st1
        · exact absurd st1.1 (by simp [Res.good, Res.bad])
        · obtain ⟨l, _, _, e⟩ := st1
          exact ⟨q, tb, _, e, hsrc⟩
  have hset1 : (stateOf w1).sets s = some (SetVar.fill q tb row) := by rw [hsets.1]; simp [State.put]
  have hs1 : isSetObj w1 s = true := by
    cases hx : isSetObj w1 s with
    | true => rfl
    | false => rw [show (stateOf w1).sets s = none by show varsOf w1 s = none; simp [varsOf, hx]] at hset1; cases hset1
  obtain ⟨x, hx1, hx2, hx3, hx4, hx5, hx6⟩ := C83_window hw1 hs1
  have hxe : x = SetVar.fill q tb row := by rw [hset1] at hx1; exact (Option.some.inj hx1).symm
  have hpar : parentOf w1 s = some q := by rw [← hx2, hxe]; rfl
  obtain ⟨t1, ht1, hsrc1, hk1, _, hty1, hrow1, hcell1, _⟩ := hx6 q hpar
  rw [hsrc1] at st2
  dsimp only at st2
  by_cases hss : s = s'
  · rw [if_pos hss] at st2; exact absurd st2.1 (by simp [Res.good, Res.bad])
  · rw [if_neg hss] at st2
    split at st2
    · exact absurd st2.1 (by simp [Res.good, Res.bad])
    · rename_i hbad
      obtain ⟨l, hu, _, e⟩ := st2
      have hs2 : (stateOf w2).sets s' = some (.fill q (x.on t1) fun r => r ∈ l ∧ (fun _ => true) r = true) := by rw [e]; simp [State.put]
      have hso2 : isSetObj w2 s' = true := by
        cases hx : isSetObj w2 s' with
        | true => rfl
        | false => rw [show (stateOf w2).sets s' = none by show varsOf w2 s' = none; simp [varsOf, hx]] at hs2; cases hs2
      obtain ⟨y, hy1, hy2, hy3, _⟩ := C83_window (.step w1 w2 e2 _ hw1 hg2 (by rw [← outcome_step, h2]; rfl)) hso2
      rw [hs2] at hy1
      have hye := (Option.some.inj hy1).symm
      intro r
      rw [← hy3, hye, ← hx3]
      show (r ∈ l ∧ true = true) ↔ _
      have hall : r ∈ l ↔ (x.on t1).finds k' (condOf t' a' b' ia' ib') r := ⟨hu.2.1 r, hu.2.2 r⟩
      simp only [and_true]
      rw [hall]
      constructor
      · rintro ⟨g1, ⟨v, g2, g3⟩, _⟩
        refine ⟨g1, v, ?_, g3⟩
        rw [← hcell1 r k' g1]; exact g2
      · rintro ⟨g1, v, g2, g3⟩
        rw [← hcell1 r k' g1] at g2
        refine ⟨g1, ⟨v, g2, g3⟩, ?_⟩
        show x.seen _ _ _
        rw [hxe]
        refine ⟨?_, by rw [hxe] at g1; exact g1⟩
        -- the key is a key of the vault
        have hkey : k' ∈ t1.keys := by
          have : (x.on t1).ty k' ≠ none := by
            intro hn
            simp [Table.bad, hn] at hbad
          have hty : t1.ty k' ≠ none := this
          obtain ⟨own, hi, hd⟩ := reach_deep hw1
          obtain ⟨so, hso, his⟩ := isSetObj_iff.mp hs1
          have hp : so.parent = some q := by simpa [parentOf, hso] using hpar
          have ht1' : t1 = asTable w1 q := by
            obtain ⟨po, hpo, hpv, _⟩ := hi.l.up s so q hso his hp
            have : (stateOf w1).vaults q = some (asTable w1 q) := dbOf_vault (vault_of_obj hpo hpv)
            rw [ht1] at this; exact Option.some.inj this
          rw [ht1', ← set_col hi hd hso his hp k', mhas_iff]
          rw [hty1, getKeyType_eq hso] at hty
          cases hc : mget so.cols k' with
          | none => rw [hc] at hty; exact absurd rfl hty
          | some cc => exact ⟨cc, rfl⟩
        have hfill : ∀ b kk r, x.seen b kk r ↔ (kk ∈ tb.keys ∧ row r) := by intro b kk r; rw [hxe]; rfl
        -- keys of the source are the keys of its vault
        obtain ⟨own, hi, hd⟩ := reach_deep hw
        have hlive : ∃ oo, w.getObj o = some oo := liveObj hg1.2.1
        obtain ⟨oo, hoo⟩ := hlive
        cases hvo : vaultOf o oo with
        | none => rw [source_none hoo hvo] at hsets; exact absurd hsets.2 (by simp)
        | some q' =>
          obtain ⟨tb', hsrc', src⟩ := source_of hi hd hoo hvo
          rw [hsets.2] at hsrc'
          cases hsrc'
          rw [← src.keys]
          have hdb : (stateOf w1).vaults = (stateOf w).vaults := by rw [hsets.1]; rfl
          have ht0 : dbOf w q = some t1 := by rw [← show (stateOf w1).vaults q = dbOf w q from congrFun hdb q]; exact ht1
          cases hv : isVault w q with
          | false => rw [dbOf_none hv] at ht0; cases ht0
          | true => rw [dbOf_vault hv] at ht0; rw [Option.some.inj ht0]; exact hkey

/-- The call asks for all matches. -/
def unlimited : Op K V Ty → Prop
  | .request _ _ _ _ _ _ _ n _ _ => n = none
  | _ => True

theorem put_fill {st : State K V Ty} {s p : Nat} {t : Table K V Ty} {row row' : Nat → Prop} (h : ∀ r, row r ↔ row' r) :
    st.put s (some (SetVar.fill p t row)) = st.put s (some (SetVar.fill p t row')) := by
  rw [show row = row' from funext fun r => propext (h r)]

/-- A call on sets has one answer and one effect. -/
theorem set_call_unique {st st1 st2 : State K V Ty} {c : Call K V Ty} {a1 a2 : Answer K} (h1 : st.Step c a1 st1) (h2 : st.Step c a2 st2)
    (hv : ∀ e, c ≠ .vault e) (hu : ∀ o k d n pred s, c = .ask o k d n pred s → n = none) : a1 = a2 ∧ st1 = st2 := by
  cases c with
  | vault e => exact absurd rfl (hv e)
  | new s => exact ⟨h1.2.1.trans h2.2.1.symm, h1.2.2.trans h2.2.2.symm⟩
  | gone s => exact ⟨h1.2.1.trans h2.2.1.symm, h1.2.2.trans h2.2.2.symm⟩
  | ask o k d n pred s =>
    cases hu _ _ _ _ _ _ rfl
    obtain ⟨_, h1⟩ := h1
    obtain ⟨_, h2⟩ := h2
    split at h1
    · rename_i e; rw [e] at h2; exact ⟨h1.1.trans h2.1.symm, h1.2.trans h2.2.symm⟩
    · rename_i p t e
      rw [e] at h2
      dsimp only at h2
      split at h1
      · rename_i e; rw [if_pos e] at h2; exact ⟨h1.1.trans h2.1.symm, h1.2.trans h2.2.symm⟩
      · rename_i e; rw [if_neg e] at h2
        split at h1
        · rename_i e; rw [e] at h2; exact ⟨h1.1.trans h2.1.symm, h1.2.trans h2.2.symm⟩
        · rename_i e; rw [e] at h2
          obtain ⟨l, u1, b1, d1⟩ := h1
          obtain ⟨l', u2, b2, d2⟩ := h2
          refine ⟨b1.trans b2.symm, ?_⟩
          rw [d1, d2]
          refine put_fill fun r => and_congr_left fun _ => ?_
          exact ⟨fun x => u2.2.2 r (u1.2.1 r x), fun x => u1.2.2 r (u2.2.1 r x)⟩
  | tree o q s =>
    obtain ⟨_, h1⟩ := h1
    obtain ⟨_, h2⟩ := h2
    split at h1
    · rename_i e; rw [e] at h2; exact ⟨h1.1.trans h2.1.symm, h1.2.trans h2.2.symm⟩
    · rename_i p t e
      rw [e] at h2
      dsimp only at h2
      split at h1
      · rename_i e; rw [if_pos e] at h2; exact ⟨h1.1.trans h2.1.symm, h1.2.trans h2.2.symm⟩
      · rename_i e; rw [if_neg e] at h2
        split at h1
        · rename_i e; rw [e] at h2; exact ⟨h1.1.trans h2.1.symm, h1.2.trans h2.2.symm⟩
        · rename_i e; rw [e] at h2; exact ⟨h1.1.trans h2.1.symm, h1.2.trans h2.2.symm⟩
  | add s p r =>
    obtain ⟨x, x1, h1⟩ := h1
    obtain ⟨y, y1, h2⟩ := h2
    rw [x1] at y1; cases y1
    have live : ∀ {q t r'}, st.vaults q = some t → t.row r' → st.alive r' := fun a b => ⟨_, _, a, b⟩
    rcases h1 with ⟨c1, rfl, rfl⟩ | ⟨c1, c2, rfl, rfl⟩ | ⟨c1, ⟨r1, c2, c3⟩, c4, rfl, rfl⟩ | ⟨r1, c1, c2, c3, c4, c5, rfl, rfl⟩ | ⟨r1, q1, t1, c1, c2, c3, c4, c5, c6, rfl, rfl⟩ <;>
      rcases h2 with ⟨d1, rfl, rfl⟩ | ⟨d1, d2, rfl, rfl⟩ | ⟨d1, ⟨r2, d2, d3⟩, d4, rfl, rfl⟩ | ⟨r2, d1, d2, d3, d4, d5, rfl, rfl⟩ | ⟨r2, q2, t2, d1, d2, d3, d4, d5, d6, rfl, rfl⟩ <;>
      first
      | exact ⟨rfl, rfl⟩
      | (exfalso; simp_all; done)
      | (exfalso; grind)
      | (rw [c1] at d1; cases d1; rw [c2] at d2; cases d2; rw [c4] at d4; cases d4; exact ⟨rfl, rfl⟩)
  | clear s =>
    obtain ⟨x, x1, x2, x3⟩ := h1
    obtain ⟨y, y1, y2, y3⟩ := h2
    rw [x1] at y1; cases y1
    exact ⟨x2.trans y2.symm, x3.trans y3.symm⟩
  | reset s => exact ⟨h1.2.1.trans h2.2.1.symm, h1.2.2.trans h2.2.2.symm⟩
  | copyNew s a =>
    obtain ⟨_, x2, x, p, t, e1, e2, e3, e4⟩ := h1
    obtain ⟨_, y2, y, q, u, f1, f2, f3, f4⟩ := h2
    rw [e1] at f1; cases f1
    rw [e2] at f2; cases f2
    rw [e3] at f3; cases f3
    exact ⟨x2.trans y2.symm, e4.trans f4.symm⟩
  | assign s a =>
    obtain ⟨_, x2, x, e1, h1⟩ := h1
    obtain ⟨_, y2, y, f1, h2⟩ := h2
    rw [e1] at f1; cases f1
    refine ⟨x2.trans y2.symm, ?_⟩
    rcases h1 with ⟨c1, rfl⟩ | ⟨c1, c2, rfl⟩ | ⟨c1, p, t, c2, c3, rfl⟩ <;> rcases h2 with ⟨d1, rfl⟩ | ⟨d1, d2, rfl⟩ | ⟨d1, q, u, d2, d3, rfl⟩ <;>
      first
      | rfl
      | (exact absurd c1 d1)
      | (exact absurd d1 c1)
      | (rw [c2] at d2; cases d2; done)
      | (rw [c2] at d2; cases d2; rw [c3] at d3; cases d3; rfl)
  | find s k v =>
    obtain ⟨_, x2, h1⟩ := h1
    obtain ⟨_, y2, h2⟩ := h2
    refine ⟨?_, x2.trans y2.symm⟩
    split at h1
    · rename_i e; rw [e] at h2; exact h1.trans h2.symm
    · rename_i e; rw [e] at h2
      dsimp only at h2
      split at h1
      · rename_i e; rw [e] at h2; exact h1.trans h2.symm
      · rename_i e; rw [e] at h2
        rcases h1 with ⟨c1, c2⟩ | ⟨c1, c2⟩ <;> rcases h2 with ⟨d1, d2⟩ | ⟨d1, d2⟩
        · exact c2.trans d2.symm
        · exact absurd c1 d1
        · exact absurd d1 c1
        · exact c2.trans d2.symm

/-- The order of the hash tables matters to no careful call on sets without a limit: same answer, same vaults, same sets. -/
theorem C84_order {home : Nat → Nat} {e1 e2 : Env} {w w1 w2 : World K V Ty} {op : Op K V Ty} {a1 a2 : Answer K} (hw : HReach Careful home w)
    (hg : Careful home w op) (h1 : outcome e1 w op = some (w1, a1)) (h2 : outcome e2 w op = some (w2, a2)) (he : ∀ e, callOf w op ≠ .vault e) (hu : unlimited op) :
    a1 = a2 ∧ stateOf w1 = stateOf w2 := by
  refine set_call_unique (C83_refines hw hg h1) (C83_refines hw hg h2) he ?_
  intro o k d n pred s e
  cases op <;> simp only [callOf, reduceCtorEq, Call.ask.injEq] at e
  obtain ⟨_, _, _, rfl, _⟩ := e
  exact hu

theorem row_list {home : Nat → Nat} {w : World K V Ty} (hw : HReach Careful home w) {s : Nat} {x : SetVar K} (h : varsOf w s = some x) :
    ∃ l : List Nat, l.Nodup ∧ (∀ r, r ∈ l ↔ x.row r) ∧ (members w s).length = l.length := by
  have hso : isSetObj w s = true := by
    cases hx : isSetObj w s with
    | true => rfl
    | false => rw [show varsOf w s = none by simp [varsOf, hx]] at h; cases h
  obtain ⟨own, hi, hd⟩ := reach_deep hw
  obtain ⟨so, g1, g2⟩ := isSetObj_iff.mp hso
  rw [varsOf_some g1 g2] at h
  cases h
  exact ⟨so.recs, (hd.set s so g1 g2).recsN, fun r => Iff.rfl, by rw [members_eq g1]⟩

theorem row_len {home : Nat → Nat} {w : World K V Ty} (hw : HReach Careful home w) {s : Nat} {x : SetVar K} (h : varsOf w s = some x) {l : List Nat} (hl : l.Nodup)
    (hm : ∀ r, r ∈ l ↔ x.row r) : (members w s).length = l.length := by
  obtain ⟨l', h1, h2, h3⟩ := row_list hw h
  rw [h3]
  exact ((List.perm_ext_iff_of_nodup h1 hl).mpr fun r => (h2 r).trans (hm r).symm).length_eq

/-- With a limit the answer is still the same; which records are taken may differ, but (without a filter function) not how many. -/
theorem C84_limit {home : Nat → Nat} {e1 e2 : Env} {w w1 w2 : World K V Ty} {o s : Nat} {t : ReqType} {k : K} {a b : V} {ia ib : Bool} {n : Option Nat}
    {a1 a2 : Answer K} (hw : HReach Careful home w) (hg : Careful home w (.request o t k a b ia ib n (fun _ => true) s))
    (h1 : outcome e1 w (.request o t k a b ia ib n (fun _ => true) s) = some (w1, a1)) (h2 : outcome e2 w (.request o t k a b ia ib n (fun _ => true) s) = some (w2, a2)) :
    a1 = a2 ∧ dbOf w1 = dbOf w2 ∧ (members w1 s).length = (members w2 s).length := by
  have s1 := C83_refines hw hg h1
  have s2 := C83_refines hw hg h2
  have r1 : HReach Careful home w1 := .step _ _ e1 _ hw hg (by rw [← outcome_step, h1]; rfl)
  have r2 : HReach Careful home w2 := .step _ _ e2 _ hw hg (by rw [← outcome_step, h2]; rfl)
  simp only [callOf] at s1 s2
  obtain ⟨⟨x0, hx0⟩, s1⟩ := s1
  obtain ⟨_, s2⟩ := s2
  -- both end in the same state
  have same : ∀ {x : SetVar K} {st : State K V Ty}, st.sets s = some x → stateOf w1 = st → stateOf w2 = st → dbOf w1 = dbOf w2 ∧ (members w1 s).length = (members w2 s).length := by
    intro x st hx g1 g2
    obtain ⟨l, l1, l2, l3⟩ := row_list r2 (s := s) (x := x) (by show (stateOf w2).sets s = _; rw [g2]; exact hx)
    refine ⟨by show (stateOf w1).vaults = (stateOf w2).vaults; rw [g1, g2], ?_⟩
    rw [row_len r1 (by show (stateOf w1).sets s = _; rw [g1]; exact hx) l1 l2, l3]
  split at s1
  · rename_i e; rw [e] at s2; exact ⟨s1.1.trans s2.1.symm, same hx0 s1.2 s2.2⟩
  · rename_i p tb e
    rw [e] at s2
    dsimp only at s2
    split at s1
    · rename_i e; rw [if_pos e] at s2; exact ⟨s1.1.trans s2.1.symm, same hx0 s1.2 s2.2⟩
    · rename_i e; rw [if_neg e] at s2
      split at s1
      · rename_i e; rw [e] at s2; exact ⟨s1.1.trans s2.1.symm, same (x := SetVar.fill p tb fun _ => False) (by simp [State.put]) s1.2 s2.2⟩
      · rename_i e; rw [e] at s2
        obtain ⟨l, u1, b1, d1⟩ := s1
        obtain ⟨l', u2, b2, d2⟩ := s2
        refine ⟨b1.trans b2.symm, ?_, ?_⟩
        · show (stateOf w1).vaults = (stateOf w2).vaults; rw [d1, d2]; rfl
        · rw [row_len (l := l) r1 (by show (stateOf w1).sets s = _; rw [d1]; simp only [State.put, if_true]; rfl) u1.1 (fun r => by simp [SetVar.fill]),
            row_len (l := l') r2 (by show (stateOf w2).sets s = _; rw [d2]; simp only [State.put, if_true]; rfl) u2.1 (fun r => by simp [SetVar.fill])]
          have sub : ∀ {l l' : List Nat}, UpTo n (tb.finds k (condOf t a b ia ib)) l → UpTo n (tb.finds k (condOf t a b ia ib)) l' → l.length ≤ l'.length := by
            intro l l' ⟨n1, m1, c1⟩ ⟨n2, m2, c2⟩
            have full : (∀ r, tb.finds k (condOf t a b ia ib) r → r ∈ l') → l.length ≤ l'.length := fun h =>
              (List.subperm_of_subset n1 fun r hr => h r (m1 r hr)).length_le
            cases n with
            | none => exact full c2
            | some n =>
              rcases c2.2 with e | e
              · rw [e]; exact c1.1
              · exact full e
          exact Nat.le_antisymm (sub u1 u2) (sub u2 u1)

/-! ### Concrete cases -/

example : ∃ l, CarefulHistory (fun _ => 0) l carefulW ∧ State.Run l (stateOf carefulW) := C83_history_exists carefulW_reach

/-- A request on set 1 of `carefulW`: one step of the specification. -/
example : ∃ w' : DW, outcome Env.id carefulW (.request 1 .Greater 1 5 5 false false none (fun _ => true) 3) = some (w', .res (.good (some 1))) ∧ members w' 3 = [1] ∧
    (stateOf carefulW).Step (.ask 1 1 (.gt 5) none (fun _ => true) 3) (.res (.good (some 1))) (stateOf w') := by
  have hg : Careful (fun _ => 0) carefulW (.request 1 .Greater 1 5 5 false false none (fun _ => true) 3) :=
    ⟨ordinaryB_sound (by decide), ⟨.inr (by decide), by decide⟩⟩
  have h : ∃ w', outcome Env.id carefulW (.request 1 .Greater 1 5 5 false false none (fun _ => true) 3) = some (w', .res (.good (some 1))) ∧ members w' 3 = [1] := ⟨_, rfl, by decide⟩
  obtain ⟨w', h1, h2⟩ := h
  exact ⟨w', h1, h2, C83_refines carefulW_reach hg h1⟩

/-- `AddRecord` of the record reference 0 points at to set 2 of `carefulW`: the window grows by the row. -/
example : ∃ w' : DW, outcome Env.id carefulW (.setAddRecord 2 0) = some (w', .res (.good none)) ∧ members carefulW 2 = [1] ∧ members w' 2 = [1, 0] ∧
    (stateOf carefulW).Step (.add 2 (some 0) (some 0)) (.res (.good none)) (stateOf w') := by
  have hg : Careful (fun _ => 0) carefulW (.setAddRecord 2 0) := ⟨trivial, by decide, by decide⟩
  have h : ∃ w', outcome Env.id carefulW (.setAddRecord 2 0) = some (w', .res (.good none)) ∧ members w' 2 = [1, 0] := ⟨_, rfl, by decide⟩
  obtain ⟨w', h1, h2⟩ := h
  exact ⟨w', h1, by decide, h2, C83_refines carefulW_reach hg h1⟩

/-- `EraseRecord` on the vault: the sets follow. -/
example : ∃ w' : DW, outcome Env.id carefulW (.eraseRef 0 1) = some (w', .flag true) ∧ members w' 0 = [0] ∧ members w' 1 = [0] ∧ members w' 2 = [] ∧
    callOf carefulW (.eraseRef 0 1) = .vault (.on 0 (.eraseRow (some 1))) ∧
    (stateOf carefulW).Step (.vault (.on 0 (.eraseRow (some 1)))) (.flag true) (stateOf w') := by
  have hg : Careful (fun _ => 0) carefulW (.eraseRef 0 1) := ⟨trivial, by decide, by decide⟩
  have hc : callOf carefulW (.eraseRef 0 1) = .vault (.on 0 (.eraseRow (some 1))) := by
    have : target carefulW 1 = some 1 := by decide
    simp [callOf, eventOf, this]
  have h : ∃ w', outcome Env.id carefulW (.eraseRef 0 1) = some (w', .flag true) ∧ members w' 0 = [0] ∧ members w' 1 = [0] ∧ members w' 2 = [] := ⟨_, rfl, by decide, by decide, by decide⟩
  obtain ⟨w', h1, h2, h3, h4⟩ := h
  exact ⟨w', h1, h2, h3, h4, hc, hc ▸ C83_refines carefulW_reach hg h1⟩

/-- Set 1 of `carefulW` is a window on vault 0 with two rows; a detached set shows nothing. -/
example : isSetObj carefulW 1 = true ∧ parentOf carefulW 1 = some 0 ∧ getKeys carefulW 1 = [1, 2, 3] ∧ members carefulW 1 = [0, 1] ∧ value carefulW 1 1 = some 20 ∧
    Listed true carefulW 1 1 1 ∧ Listed false carefulW 1 2 0 := by decide
example : ∃ w' : DW, step Env.id carefulW (.setReset 1) = some w' ∧ isSetObj w' 1 = true ∧ parentOf w' 1 = none ∧ members w' 1 = [] ∧ HReach Careful (fun _ => 0) w' :=
  ⟨_, rfl, by decide, by decide, by decide, .step _ _ Env.id (.setReset 1) carefulW_reach ⟨trivial, show isSetObj carefulW 1 = true by decide⟩ rfl⟩

/-- `C84_apart` and `C84_elsewhere` speak about these calls. -/
example : Careful (fun _ => 0) carefulW (.setClear 1) ∧ (∀ e, callOf carefulW (.setClear 1) ≠ .vault e) ∧ ∃ w', outcome Env.id carefulW (.setClear 1) = some (w', .unit) ∧
    members w' 1 = [] ∧ members w' 2 = [1] ∧ members w' 0 = [0, 1] :=
  ⟨⟨trivial, show isSetObj carefulW 1 = true by decide⟩, (fun e h => by cases h), _, rfl, by decide, by decide, by decide⟩
example : ∃ w' : DW, carefulRun (carefulOps ++ [.setReset 2]) = some w' ∧ parentOf w' 2 ≠ some 0 ∧ eventOf w' (.removeKey 0 1) = .on 0 (.removeKey 1) ∧
    callOf w' (.removeKey 0 1) = .vault (eventOf w' (.removeKey 0 1)) ∧ Careful (fun _ => 0) w' (.removeKey 0 1) :=
  ⟨_, rfl, by decide, rfl, rfl, trivial, by show _ = true; decide⟩

/-- Two requests one after the other. -/
example : ∃ w1 w2 : DW, outcome Env.id carefulW (.request 0 .GreaterOrEqual 1 5 5 false false none (fun _ => true) 2) = some (w1, .res (.good (some 1))) ∧ members w1 2 = [0, 1] ∧
    outcome Env.rev w1 (.request 2 .Equal 2 8 8 false false none (fun _ => true) 3) = some (w2, .res (.good (some 2))) ∧ members w2 3 = [1] ∧
    Careful (fun _ => 0) carefulW (.request 0 .GreaterOrEqual 1 5 5 false false none (fun _ => true) 2) ∧
    Careful (fun _ => 0) w1 (.request 2 .Equal 2 8 8 false false none (fun _ => true) 3) :=
  ⟨_, _, rfl, by decide, rfl, by decide, ⟨ordinaryB_sound (by decide), .inl (by decide), by decide⟩, ⟨ordinaryB_sound (by decide), .inr (by decide), by decide⟩⟩

/-- Two orders of the hash tables; a limit. -/
example : ∃ w1 w2 : DW, outcome Env.id carefulW (.request 0 .Equal 3 110 110 false false none (fun _ => true) 2) = some (w1, .res (.good (some 3))) ∧
    outcome Env.rev carefulW (.request 0 .Equal 3 110 110 false false none (fun _ => true) 2) = some (w2, .res (.good (some 3))) ∧ members w1 2 = [0, 1] ∧ members w2 2 = [1, 0] :=
  ⟨_, _, rfl, rfl, by decide, by decide⟩
example : ∃ w1 w2 : DW, outcome Env.id carefulW (.request 0 .Equal 3 110 110 false false (some 1) (fun _ => true) 2) = some (w1, .res (.good (some 3))) ∧
    outcome Env.rev carefulW (.request 0 .Equal 3 110 110 false false (some 1) (fun _ => true) 2) = some (w2, .res (.good (some 3))) ∧ members w1 2 = [0] ∧ members w2 2 = [1] :=
  ⟨_, _, rfl, rfl, by decide, by decide⟩

end MVault.W
