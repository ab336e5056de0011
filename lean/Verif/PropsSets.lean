import Verif.PropsResults
/-
C31, C32, C34: record sets.
-/
set_option linter.unusedSectionVars false
set_option linter.unusedSimpArgs false
namespace MVault.W
variable {K V Ty : Type} [LinearOrder K] [LinearOrder V] [Typed V Ty] [DecidableEq Ty]

/-! ### Members of a set after an operation -/

theorem eraseLocal_rs {w w' : World K V Ty} {o r : Nat} (h : eraseLocal w o r = some w') (q : Nat) :
    rs w' q = if o = q then (rs w q).map (·.filter (· ≠ r)) else rs w q := by
  simp only [eraseLocal, Option.bind_eq_bind, Option.bind_eq_some_iff] at h
  obtain ⟨vo, hvo, x, hx, h⟩ := h
  cases h
  unfold rs
  rw [getObj_putObj]
  split
  · rename_i e; subst e; rw [hvo]; rfl
  · rfl

theorem eraseOne_rs {env : Env} {w w' : World K V Ty} {s r : Nat} (h : eraseOne env w s r = some w') : rs w' s = (rs w s).map (·.filter (· ≠ r)) := by
  simp only [eraseOne, Option.bind_eq_bind, Option.bind_eq_some_iff] at h
  obtain ⟨vo, hvo, w1, h1, h⟩ := h
  have e1 := eraseLocal_rs h1 s
  rw [if_pos rfl] at e1
  split at h
  · simp only [Option.bind_eq_some_iff, removeFromDeps, Option.bind_eq_bind] at h
    obtain ⟨w2, ⟨x, hx, h2⟩, h3⟩ := h
    rw [rs_objs (invalidate_objs h3)]
    refine loop_inv (fun v => rs v s = (rs w s).map (·.filter (· ≠ r))) _ _ _ _ (fun a _ b b' hb hh => ?_) e1 h2
    simp only [Option.bind_eq_some_iff] at hh
    obtain ⟨so, hso, hh⟩ := hh
    split at hh
    · cases hh; exact hb
    · rename_i hin
      split at hh
      · cases hh
      · rw [eraseLocal_rs hh s]
        split
        · rename_i e; subst e
          rw [rs_of hso] at hb
          exfalso
          rw [rs_of hvo] at hb
          simp only [Option.map_some, Option.some.injEq] at hb
          rw [hb] at hin; simp at hin
        · exact hb
  · cases h; exact e1

theorem removeRecord_rs {env : Env} {w w' : World K V Ty} {s r : Nat} {b : Bool} (h : removeRecord env w s r = some (w', b)) :
    rs w' s = (rs w s).map (·.filter (· ≠ r)) := by
  simp only [removeRecord, Option.bind_eq_bind, Option.bind_eq_some_iff] at h
  obtain ⟨vo, hvo, h⟩ := h
  split at h
  · rename_i hr
    cases h
    rw [rs_of hvo]
    simp only [Option.map_some, Option.some.injEq]
    exact (List.filter_eq_self.mpr (fun a ha => by simp; rintro rfl; exact hr ha)).symm
  · simp only [Option.map_eq_some_iff, Prod.mk.injEq] at h
    obtain ⟨w1, h1, rfl, _⟩ := h
    exact eraseOne_rs h1

theorem members_rs (w : World K V Ty) (q : Nat) : members w q = (rs w q).getD [] := by
  unfold members rs; cases w.getObj q <;> rfl

theorem loop_remove_mem {env : Env} {s : Nat} (l : List Nat) : ∀ {w w' : World K V Ty}, loop (fun w r => (removeRecord env w s r).map (·.1)) l w = some w' →
    ∀ r, r ∈ members w' s ↔ r ∈ members w s ∧ r ∉ l := by
  induction l with
  | nil => intro w w' h r; cases h; simp
  | cons a l ih =>
    intro w w' h r
    simp only [loop, Option.bind_eq_some_iff, Option.map_eq_some_iff, Prod.exists] at h
    obtain ⟨w1, ⟨_, _, h1, rfl⟩, h2⟩ := h
    rw [ih h2 r, members_rs, removeRecord_rs h1, members_rs]
    cases rs w s <;> simp [and_assoc]

theorem addOnly_mem {w w' : World K V Ty} {s r : Nat} (h : addOnly s w r = some w') (r' : Nat) : r' ∈ members w' s ↔ r' ∈ members w s ∨ r' = r := by
  simp only [addOnly, Option.bind_eq_bind, Option.bind_eq_some_iff] at h
  obtain ⟨so, hso, h⟩ := h
  split at h
  · rename_i hm
    cases h; rw [members_eq hso]
    constructor
    · exact .inl
    · rintro (h | rfl)
      · exact h
      · exact hm
  · simp only [Option.bind_eq_some_iff] at h
    obtain ⟨x, hx, h⟩ := h; cases h
    rw [members_eq (getObj_putObj_self _ _ _), members_eq hso]; simp

theorem loop_addOnly_mem {s : Nat} (l : List Nat) : ∀ {w w' : World K V Ty}, loop (addOnly s) l w = some w' →
    ∀ r, r ∈ members w' s ↔ r ∈ members w s ∨ r ∈ l := by
  induction l with
  | nil => intro w w' h r; cases h; simp
  | cons a l ih =>
    intro w w' h r
    simp only [loop, Option.bind_eq_some_iff] at h
    obtain ⟨w1, h1, h2⟩ := h
    rw [ih h2 r, addOnly_mem h1]; simp [or_assoc]

theorem attach_rs {w w' : World K V Ty} {s r : Nat} (h : attach s w r = some w') (q : Nat) : rs w' q = rs w q := by
  simp only [attach, addDep, Option.bind_eq_bind, Option.bind_eq_some_iff, Option.map_eq_some_iff] at h
  obtain ⟨so, hso, x, hx, y, hy, rfl⟩ := h
  exact rs_putObj hso (by rfl) q

theorem copySet_mem {env : Env} {w w' : World K V Ty} {s a : Nat} (hs : rs w s = some []) (h : copySet env w s a = some w') :
    ∀ r, r ∈ members w' s ↔ r ∈ members w a := by
  simp only [copySet, Option.bind_eq_bind, Option.bind_eq_some_iff] at h
  obtain ⟨ao, hao, p, hp, po0, hpo0, so, hso, w2, h2, so2, hso2, po, hpo, h⟩ := h
  have e1 : rs w2 s = some [] := by rw [(copyKeys_pr h2 s).2, rs_putObj hso (by rfl)]; exact hs
  have e2 : rs (w2.putObj s { so2 with keysOrder := ao.keysOrder, uniq := ao.uniq }) s = some [] := by rw [rs_putObj hso2 (by rfl)]; exact e1
  have e3 : rs ((w2.putObj s { so2 with keysOrder := ao.keysOrder, uniq := ao.uniq }).putObj p { po with sets := setIns po.sets s }) s = some [] := by
    rw [rs_putObj hpo (by rfl)]; exact e2
  have key : ∀ (l : List Nat) (w w' : World K V Ty), loop (fun w r => do
      let so ← w.getObj s
      attach s (w.putObj s { so with recs := setIns so.recs r }) r) l w = some w' → ∀ r, r ∈ members w' s ↔ r ∈ members w s ∨ r ∈ l := by
    intro l
    induction l with
    | nil => intro w w' h r; cases h; simp
    | cons a l ih =>
      intro w w' h r
      simp only [loop, Option.bind_eq_bind, Option.bind_eq_some_iff] at h
      obtain ⟨w1, ⟨so, hso, h1⟩, h2⟩ := h
      rw [ih _ _ h2 r, members_rs, attach_rs h1, ← members_rs, members_eq (getObj_putObj_self _ _ _), members_eq hso]
      simp [mem_setIns, or_assoc]
  intro r
  rw [key _ _ _ h r, members_rs, e3, members_eq hao]; simp

theorem setAssign_mem {env : Env} {w w' : World K V Ty} {s a : Nat} (ha : AI w) (hi : NI w) (hs : NotVault w s) (hva : NotVault w a)
    (h : setAssign env w s a = some w') : ∀ r, r ∈ members w' s ↔ r ∈ members w a := by
  simp only [setAssign, Option.bind_eq_bind, Option.bind_eq_some_iff] at h
  obtain ⟨_, _, ao, hao, h⟩ := h
  split at h
  · rename_i e; subst e; cases h; exact fun _ => Iff.rfl
  · rename_i hne
    simp only [Option.bind_eq_some_iff] at h
    obtain ⟨w1, h1, h⟩ := h
    have e := setReset_obj ha hi hs h1
    split at h
    · rename_i hpn
      cases h
      intro r
      rw [members_rs, e.2, members_eq hao, (hi a ao hao).2 (hva.obj hao) hpn]; simp
    · intro r
      rw [copySet_mem e.2 h r]
      have f1 := setReset_fs (l := [s]) (by simp) h1
      rw [(f1.sameObj (q := a) (by simpa using Ne.symm hne)).members]

/-! ### C32 -/

/-- `Join`, in any state: the set then holds exactly its own records and those of the other set. -/
theorem C32_join {env : Env} {w w' : World K V Ty} {s a : Nat} {res : Res K} (h : outcome env w (.setJoin s a) = some (w', .res res)) (hok : res.ok = true) :
    ∀ r, r ∈ members w' s ↔ r ∈ members w s ∨ r ∈ members w a := by
  simp only [outcome, onSet_iff, Option.map_eq_some_iff, Prod.exists, Prod.mk.injEq, Answer.res.injEq] at h
  obtain ⟨_, _, _, _, h, rfl, rfl⟩ := h
  simp only [setJoin, Option.bind_eq_bind, Option.bind_eq_some_iff] at h
  obtain ⟨so, hso, ao, hao, h⟩ := h
  split at h
  · cases h; cases hok
  · simp only [Option.map_eq_some_iff, Prod.mk.injEq] at h
    obtain ⟨w1, h1, rfl, _⟩ := h
    intro r; rw [loop_addOnly_mem _ h1 r, members_eq hao]; simp

/-- `Exclude`, in any state: the set then holds exactly its records that are not in the other set. -/
theorem C32_exclude {env : Env} {w w' : World K V Ty} {s a : Nat} {res : Res K} (h : outcome env w (.setExclude s a) = some (w', .res res)) (hok : res.ok = true) :
    ∀ r, r ∈ members w' s ↔ r ∈ members w s ∧ r ∉ members w a := by
  simp only [outcome, onSet_iff, Option.map_eq_some_iff, Prod.exists, Prod.mk.injEq, Answer.res.injEq] at h
  obtain ⟨_, _, _, _, h, rfl, rfl⟩ := h
  simp only [setExclude, Option.bind_eq_bind, Option.bind_eq_some_iff] at h
  obtain ⟨so, hso, ao, hao, h⟩ := h
  split at h
  · cases h; cases hok
  · simp only [Option.map_eq_some_iff, Prod.mk.injEq] at h
    obtain ⟨w1, h1, rfl, _⟩ := h
    intro r; rw [loop_remove_mem _ h1 r, members_eq hso, members_eq hao]; simp
    intro hr; simp [hr]

/-- `Intersect`, in any state: the set then holds exactly its records that are also in the other set. -/
theorem C32_intersect {env : Env} {w w' : World K V Ty} {s a : Nat} {res : Res K} (h : outcome env w (.setIntersect s a) = some (w', .res res)) (hok : res.ok = true) :
    ∀ r, r ∈ members w' s ↔ r ∈ members w s ∧ r ∈ members w a := by
  simp only [outcome, onSet_iff, Option.map_eq_some_iff, Prod.exists, Prod.mk.injEq, Answer.res.injEq] at h
  obtain ⟨_, _, _, _, h, rfl, rfl⟩ := h
  simp only [setIntersect, Option.bind_eq_bind, Option.bind_eq_some_iff] at h
  obtain ⟨so, hso, ao, hao, h⟩ := h
  split at h
  · cases h; cases hok
  · simp only [Option.map_eq_some_iff, Prod.mk.injEq] at h
    obtain ⟨w1, h1, rfl, _⟩ := h
    intro r; rw [loop_remove_mem _ h1 r, members_eq hso, members_eq hao]; simp
    intro hr; simp [hr]

/-- `Union`, after any history: the result set then holds exactly the records of both sets, and these are as before. -/
theorem C32_union {G : World K V Ty → Op K V Ty → Prop} {env : Env} {w w' : World K V Ty} (hw : Reach G w) {a b s : Nat} {res : Res K}
    (h : outcome env w (.setUnion a b s) = some (w', .res res)) (hok : res.ok = true) :
    (∀ r, r ∈ members w' s ↔ r ∈ members w a ∨ r ∈ members w b) ∧ members w' a = members w a ∧ members w' b = members w b := by
  have hi := reach_ai hw
  have hn := reach_ni hw
  simp only [outcome, onSet_iff, Option.map_eq_some_iff, Prod.exists, Prod.mk.injEq, Answer.res.injEq] at h
  obtain ⟨hs, ha, hb, _, _, h, rfl, rfl⟩ := h
  have hsv := NotVault.of hi (isSetObj_iff.mp hs)
  have hfs := setUnion_fs hi hn hsv h
  simp only [setUnion, Option.bind_eq_bind, Option.bind_eq_some_iff] at h
  obtain ⟨ao, hao, bo, hbo, _, _, h⟩ := h
  split at h
  · cases h; cases hok
  rename_i hne
  have hsa : a ∉ [s] := by simp; exact fun e => hne (.inr (.inl e))
  have hsb : b ∉ [s] := by simp; exact fun e => hne (.inr (.inr e))
  refine ⟨?_, (hfs.sameObj hsa).members, (hfs.sameObj hsb).members⟩
  split at h
  · cases h; cases hok
  split at h
  · cases h; cases hok
  split at h
  · cases h; cases hok
  simp only [Option.bind_eq_some_iff] at h
  obtain ⟨w1, h1, h⟩ := h
  intro r
  simp only [setJoin, Option.bind_eq_bind, Option.bind_eq_some_iff] at h
  obtain ⟨so, hso, ao, hao, h⟩ := h
  split at h
  · cases h; cases hok
  · simp only [Option.map_eq_some_iff, Prod.mk.injEq] at h
    obtain ⟨w2, h2, rfl, _⟩ := h
    rw [loop_addOnly_mem _ h2 r, mem_perm, ← members_eq hao, ((setAssign_fs hi hn hsv h1).sameObj hsb).members,
      setAssign_mem hi hn hsv (NotVault.of hi (isSetObj_iff.mp ha)) h1 r]

/-- `Intersection`, after any history: the result set then holds exactly the records that are in both sets, and these are as
before. -/
theorem C32_intersection {G : World K V Ty → Op K V Ty → Prop} {env : Env} {w w' : World K V Ty} (hw : Reach G w) {a b s : Nat} {res : Res K}
    (h : outcome env w (.setIntersection a b s) = some (w', .res res)) (hok : res.ok = true) :
    (∀ r, r ∈ members w' s ↔ r ∈ members w a ∧ r ∈ members w b) ∧ members w' a = members w a ∧ members w' b = members w b := by
  have hi := reach_ai hw
  have hn := reach_ni hw
  simp only [outcome, onSet_iff, Option.map_eq_some_iff, Prod.exists, Prod.mk.injEq, Answer.res.injEq] at h
  obtain ⟨hs, ha, hb, _, _, h, rfl, rfl⟩ := h
  have hsv := NotVault.of hi (isSetObj_iff.mp hs)
  have hfs := setIntersection_fs hi hn hsv h
  simp only [setIntersection, Option.bind_eq_bind, Option.bind_eq_some_iff] at h
  obtain ⟨ao, hao, bo, hbo, _, _, h⟩ := h
  split at h
  · cases h; cases hok
  rename_i hne
  have hsa : a ∉ [s] := by simp; exact fun e => hne (.inr (.inl e))
  have hsb : b ∉ [s] := by simp; exact fun e => hne (.inr (.inr e))
  refine ⟨?_, (hfs.sameObj hsa).members, (hfs.sameObj hsb).members⟩
  split at h
  · cases h; cases hok
  rename_i p hp
  split at h
  · cases h; cases hok
  split at h
  · cases h; cases hok
  simp only [Option.bind_eq_some_iff] at h
  obtain ⟨w1, h1, so1, hso1, w3, h3, so3, hso3, po, hpo, h⟩ := h
  simp only [Option.map_eq_some_iff, Prod.mk.injEq] at h
  obtain ⟨w6, h6, rfl, _⟩ := h
  intro r
  rw [loop_addOnly_mem _ h6 r, members_rs, rs_putObj hpo (by rfl), rs_putObj hso3 (by rfl), (copyKeys_pr h3 s).2, rs_putObj hso1 (by rfl),
    (setReset_obj hi hn hsv h1).2, members_eq hao, members_eq hbo]
  simp only [Option.getD_some, List.not_mem_nil, false_or]
  split
  · simp
  · simp [and_comm]

/-- Set 1 holds records 0 and 1, set 2 holds record 1, set 3 is new. -/
def demoAlg : DW := (demo (demoOps ++ [.ask 0 2 (.gt 0) none (fun _ => true) 1, .ask 0 2 (.gt 7) none (fun _ => true) 2, .newSet])).getD World.empty
theorem demoAlg_reach : HReach Ordinary (fun _ => 0) demoAlg :=
  demo_reach (l := demoOps ++ [.ask 0 2 (.gt 0) none (fun _ => true) 1, .ask 0 2 (.gt 7) none (fun _ => true) 2, .newSet]) rfl

example : members demoAlg 1 = [0, 1] ∧ members demoAlg 2 = [1] ∧
    (∃ w', outcome Env.id demoAlg (.setJoin 2 1) = some (w', .res (.good none)) ∧ members w' 2 = [1, 0]) ∧
    (∃ w', outcome Env.id demoAlg (.setExclude 1 2) = some (w', .res (.good none)) ∧ members w' 1 = [0]) ∧
    (∃ w', outcome Env.id demoAlg (.setIntersect 1 2) = some (w', .res (.good none)) ∧ members w' 1 = [1]) ∧
    (∃ w', outcome Env.id demoAlg (.setUnion 2 1 3) = some (w', .res (.good none)) ∧ members w' 3 = [1, 0]) ∧
    (∃ w', outcome Env.id demoAlg (.setIntersection 1 2 3) = some (w', .res (.good none)) ∧ members w' 3 = [1]) := by
  refine ⟨by decide, by decide, ⟨_, rfl, ?_⟩, ⟨_, rfl, ?_⟩, ⟨_, rfl, ?_⟩, ⟨_, rfl, ?_⟩, ⟨_, rfl, ?_⟩⟩ <;> decide

/-! ### C31 -/

/-- After any history whatsoever a set (and a vault) holds no record twice, and a set without a parent holds nothing. Missing
for the full claim: that the records are valid records of the parent, which is false (`C31_refuted`); for histories that avoid
the operations at fault see `C31_careful_partial`. -/
theorem C31_no_duplicates_partial {G : World K V Ty → Op K V Ty → Prop} {w : World K V Ty} (hw : Reach G w) (s : Nat) :
    (members w s).Nodup ∧ (isSetObj w s = true → parentOf w s = none → members w s = []) := by
  have hn := reach_ni hw
  cases hx : w.getObj s with
  | none => simp [members, hx]
  | some x =>
    rw [members_eq hx, parentOf_eq hx]
    refine ⟨(hn s x hx).1, fun h hp => (hn s x hx).2 ?_ hp⟩
    obtain ⟨y, hy, h⟩ := isSetObj_iff.mp h
    rw [hx] at hy; cases hy; exact h

example : members demoAlg 1 = [0, 1] ∧ isSetObj demoAlg 3 = true ∧ parentOf demoAlg 3 = none ∧ members demoAlg 3 = [] := by decide

/-- A set filled by `Join` keeps a record that has left the vault. -/
theorem C31_refuted : ∃ w : DW, HReach Ordinary (fun _ => 0) w ∧ isSetObj w 2 = true ∧ parentOf w 2 = some 0 ∧ 0 ∈ members w 2 ∧
    0 ∉ members w 0 ∧ ¬ alive w 0 := by
  refine ⟨_, demo_reach (l := demoOps ++ [.ask 0 2 (.gt 0) none (fun _ => true) 1, .ask 0 2 (.gt 7) none (fun _ => true) 2, .setJoin 2 1, .eraseKV 0 2 7]) rfl,
    by decide, by decide, by decide, by decide, ?_⟩
  rintro ⟨x, hx, hv⟩
  revert hv
  cases hx
  decide

/-! ### C34 -/

/-- What a request would find and what `GetSortedRecords` would list (specification): the answers of the look-up functions of
object `q`, Vault.hpp lines 128-269 and Vault.cpp lines 651-675, as functions of the request. -/
structure SameLookups (w w' : World K V Ty) (q : Nat) : Prop where
  requests : ∀ (env : Env) (t : ReqType) (k : K) (a b : V) (ia ib : Bool) (n : Option Nat) (pred : Nat → Bool),
    (w'.getObj q).map (fun x => requestSet env x t k a b ia ib n pred []) = (w.getObj q).map (fun x => requestSet env x t k a b ia ib n pred [])
  trees : ∀ (env : Env) (t : Req K V), (w'.getObj q).map (fun x => evalReq env x t) = (w.getObj q).map (fun x => evalReq env x t)
  sorted : ∀ (k : K) (rev : Bool) (n : Option Nat), (w'.getObj q).map (fun x => sortedIds x k rev n) = (w.getObj q).map (fun x => sortedIds x k rev n)

theorem checkKey_sets (x : Obj K V Ty) (ss : List Nat) (k : K) (t : Ty) : checkKey { x with sets := ss } k t = checkKey x k t := rfl
theorem requestSet_sets (env : Env) (x : Obj K V Ty) (ss : List Nat) (t : ReqType) (k : K) (a b : V) (ia ib : Bool) (n : Option Nat) (pred : Nat → Bool) (acc : List Nat) :
    requestSet env { x with sets := ss } t k a b ia ib n pred acc = requestSet env x t k a b ia ib n pred acc := rfl

theorem evalReq_sets (env : Env) (x : Obj K V Ty) (ss : List Nat) (q : Req K V) : evalReq env { x with sets := ss } q = evalReq env x q := by
  induction q with
  | leaf t k v pred => rfl
  | or a b iha ihb => simp only [evalReq, iha, ihb]
  | and a b iha ihb =>
    cases a <;> cases b <;> simp only [evalReq, requestSet_sets, iha, ihb] at * <;> (try simp only [iha, ihb])

theorem FS.sameLookups {l : List Nat} {w w' : World K V Ty} (h : FS l w w') {q : Nat} (hq : q ∉ l) : SameLookups w w' q := by
  rcases h.getObj hq with ⟨a, b⟩ | ⟨x, y, a, b, e⟩
  · constructor <;> intros <;> rw [a, b]
  · rw [e] at b
    constructor
    · intros; rw [a, b]; simp only [Option.map_some, requestSet_sets]
    · intros; rw [a, b]; simp only [Option.map_some, evalReq_sets]
    · intros; rw [a, b]; rfl

theorem RF.sameLookups {w w' : World K V Ty} (h : RF w w') (q : Nat) : SameLookups w w' q := by
  have : w'.getObj q = w.getObj q := by unfold World.getObj; rw [h.objs]
  constructor <;> intros <;> rw [this]

/-- The sets an operation on sets works on (specification); `none` for the operations that are not set operations. A request
is an operation on its result set. -/
def setsOf (w : World K V Ty) : Op K V Ty → Option (List Nat)
  | .newSet => some [w.nextO]
  | .destroySet s => some [s]
  | .request _ _ _ _ _ _ _ _ _ s => some [s]
  | .requestTree _ _ s => some [s]
  | .setAddRecord s _ => some [s]
  | .setRemoveRef s _ => some [s]
  | .setRemoveKV s _ _ => some [s]
  | .setRemoveManyKV s _ _ _ => some [s]
  | .setClear s => some [s]
  | .setReset s => some [s]
  | .setGetRecord s _ _ _ => some [s]
  | .setGetRecords s _ _ _ => some [s]
  | .setJoin s _ => some [s]
  | .setExclude s _ => some [s]
  | .setIntersect s _ => some [s]
  | .setUnion _ _ s => some [s]
  | .setIntersection _ _ s => some [s]
  | .setCopyNew _ => some [w.nextO]
  | .setAssign s _ => some [s]
  | .setMoveNew a => some [w.nextO, a]
  | .setMoveAssign s a => some [s, a]
  | _ => none

/-- An operation on sets, after ordinary operations and itself ordinary: the vaults, all other sets, all records and all their
values, and what the look-ups of all vaults and other sets find, are as before. Missing for the full claim: operations that
are not ordinary, where it is false (`C34_refuted`). -/
theorem C34_sets_leave_vault_alone_partial {home : Nat → Nat} {env : Env} {w w' : World K V Ty} (hw : HReach Ordinary home w) {op : Op K V Ty} {l : List Nat}
    (hop : setsOf w op = some l) (hg : Ordinary home w op) (h : step env w op = some w') :
    Unchanged l w w' ∧ (∀ q, q ∉ l → SameLookups w w' q) ∧ (∀ q ∈ l, isVault w q = false) := by
  have hi := reach_ai hw.any
  have hn := reach_ni hw.any
  obtain ⟨own, inv⟩ := reach_inv hw
  have fs : ∀ {l : List Nat}, FS l w w' → (∀ q ∈ l, isVault w q = false) → Unchanged l w w' ∧ (∀ q, q ∉ l → SameLookups w w' q) ∧ (∀ q ∈ l, isVault w q = false) :=
    fun hf hl => ⟨hf.unchanged, fun q hq => hf.sameLookups hq, hl⟩
  have rf : ∀ {l : List Nat}, RF w w' → (∀ q ∈ l, isVault w q = false) → Unchanged l w w' ∧ (∀ q, q ∉ l → SameLookups w w' q) ∧ (∀ q ∈ l, isVault w q = false) :=
    fun hf hl => ⟨hf.unchanged _, fun q _ => hf.sameLookups q, hl⟩
  have hset : ∀ {s : Nat}, isSetObj w s = true → isVault w s = false := by
    intro s hs
    obtain ⟨x, hx, e⟩ := isSetObj_iff.mp hs
    simp [isVault, hx, e]
  have hnew : isVault w w.nextO = false := by
    cases hx : w.getObj w.nextO with
    | none => simp [isVault, hx]
    | some x => have := hi.objB _ _ hx; omega
  have hb : ∀ {s : Nat}, isSetObj w s = true → bs w s = some false := by
    intro s hs
    obtain ⟨x, hx, e⟩ := isSetObj_iff.mp hs
    rw [bs_of hx, (inv.s.sets s x hx e).base]
  have one : ∀ {s : Nat}, isSetObj w s = true → ∀ q ∈ [s], isVault w q = false := by
    intro s hs q hq; rw [List.mem_singleton] at hq; subst hq; exact hset hs
  have two : ∀ {s a : Nat}, isVault w s = false → isSetObj w a = true → ∀ q ∈ [s, a], isVault w q = false := by
    intro s a hs ha q hq
    simp only [List.mem_cons, List.not_mem_nil, or_false] at hq
    rcases hq with rfl | rfl
    · exact hs
    · exact hset ha
  cases op
  all_goals (simp only [setsOf, Option.some.injEq, reduceCtorEq] at hop)
  all_goals subst hop
  all_goals (simp only [step, onVault_iff, onSet_iff, Option.map_eq_some_iff, Prod.exists, exists_and_right, exists_eq_right, Option.some.injEq] at h)
  case newSet => exact fs (h ▸ fs_newObj _ _ _) (by simp [hnew])
  case destroySet => exact fs (destroySet_fs hi hn (NotVault.of hi (isSetObj_iff.mp h.1)) h.2) (one h.1)
  case request => obtain ⟨hs, _, h⟩ := h; exact fs (request_fs hi hn (NotVault.of hi (isSetObj_iff.mp hs)) h) (one hs)
  case requestTree => obtain ⟨hs, _, h⟩ := h; exact fs (requestTree_fs hi hn (NotVault.of hi (isSetObj_iff.mp hs)) h) (one hs)
  case setAddRecord => obtain ⟨hs, _, h⟩ := h; exact fs (setAddRecord_fs h) (one hs)
  case setRemoveRef => obtain ⟨hs, _, h⟩ := h; exact fs (setRemoveRef_fs (hb hs) h) (one hs)
  case setRemoveKV => obtain ⟨hs, _, h⟩ := h; exact fs (setRemoveKV_fs (hb hs) h) (one hs)
  case setRemoveManyKV => obtain ⟨hs, _, h⟩ := h; exact fs (setRemoveManyKV_fs (hb hs) h) (one hs)
  case setClear => exact fs (setClear_fs (by simp) h.2) (one h.1)
  case setReset => exact fs (setReset_fs (by simp) h.2) (one h.1)
  case setGetRecord => obtain ⟨hs, _, h⟩ := h; exact rf (setGetRecord_rf h) (one hs)
  case setGetRecords => obtain ⟨hs, _, h⟩ := h; exact rf (setGetRecords_rf h) (one hs)
  case setJoin => obtain ⟨hs, _, _, h⟩ := h; exact fs (setJoin_fs h) (one hs)
  case setExclude => obtain ⟨hs, _, _, h⟩ := h; exact fs (setExclude_fs (hb hs) h) (one hs)
  case setIntersect => obtain ⟨hs, _, _, h⟩ := h; exact fs (setIntersect_fs (hb hs) h) (one hs)
  case setUnion => obtain ⟨hs, _, _, _, h⟩ := h; exact fs (setUnion_fs hi hn (NotVault.of hi (isSetObj_iff.mp hs)) h) (one hs)
  case setIntersection => obtain ⟨hs, _, _, _, h⟩ := h; exact fs (setIntersection_fs hi hn (NotVault.of hi (isSetObj_iff.mp hs)) h) (one hs)
  case setCopyNew => exact fs (setCopyNew_fs h.2) (by simp [hnew])
  case setAssign => obtain ⟨hs, _, h⟩ := h; exact fs (setAssign_fs hi hn (NotVault.of hi (isSetObj_iff.mp hs)) h) (one hs)
  case setMoveNew => exact fs (setMoveNew_fs hi h.2) (two hnew h.1)
  case setMoveAssign s a =>
    obtain ⟨hs, ha, h⟩ := h
    refine fs ?_ (two (hset hs) ha)
    obtain ⟨so, hso, _⟩ := isSetObj_iff.mp hs
    obtain ⟨ao, hao, _⟩ := isSetObj_iff.mp ha
    rcases hg.2 so ao hso hao with e | e
    · exact setMoveAssign_fs (by rw [rs_of hso, e]) h
    · simp only [setMoveAssign, hso, hao, Option.bind_eq_bind, Option.bind_some, e, if_true] at h
      split at h
      · cases h; exact .refl _ _
      · exact setReset_fs (by simp) h

/-- Excluding and clearing in a state with records. -/
example : setsOf demoAlg (.setExclude 1 2) = some [1] ∧ Ordinary (fun _ => 0) demoAlg (.setExclude 1 2) ∧ (step Env.id demoAlg (.setExclude 1 2)).isSome = true ∧
    setsOf demoAlg (.setMoveAssign 3 1) = some [3, 1] ∧ (step Env.id demoAlg (.setMoveAssign 3 1)).isSome = true := by
  refine ⟨by decide, trivial, by decide, by decide, by decide⟩

/-- A set copied from a set without parent behaves like a vault: removing a record from it removes the record from the vault's
other sets and makes it invalid, while the vault still lists it. (This also refutes C25 for arbitrary histories.) -/
theorem C34_refuted : ∃ w w' : DW, Reach (fun _ _ => True) w ∧ isSetObj w 3 = true ∧ members w 3 = [0, 1] ∧ alive w 0 ∧ 0 ∈ members w 0 ∧ refIsValid w 0 = some true ∧
    setRemoveKV Env.id w 3 2 7 = some (w', .good (some 2)) ∧ 0 ∈ members w' 0 ∧ refIsValid w' 0 = some false := by
  refine ⟨_, _, anyRun_reach (l := demoOps ++ [.setCopyNew 1, .ask 0 2 (.gt 0) none (fun _ => true) 3]) rfl, by decide, by decide, ⟨_, rfl, by decide⟩, by decide,
    by decide, rfl, by decide, by decide⟩

end MVault.W
