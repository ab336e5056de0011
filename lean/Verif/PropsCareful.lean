import Verif.WorldDeep10
import Verif.PropsRefuted
import Verif.PropsSort
/-
C31, C35, C50, C62, C63: careful histories. No operation is undefined in them, and the sets stay in step with their vaults.
-/
set_option linter.unusedSectionVars false
set_option linter.unusedSimpArgs false
namespace MVault.W
variable {K V Ty : Type} [LinearOrder K] [LinearOrder V] [Typed V Ty] [DecidableEq Ty]

/-! ### C50 -/

/-- In a careful history every careful operation has defined behaviour: no freed record, destroyed vault or destroyed set is
touched. Missing for the full claim: the functions `Allowed` leaves out, where it is false (`C50_refuted`,
`C50_refuted_vault`, `C50_refuted_removed`). -/
theorem C50_careful_defined_partial {home : Nat → Nat} {env : Env} {w : World K V Ty} (hw : HReach Careful home w) {op : Op K V Ty} (hg : Careful home w op) :
    ∃ w', step env w op = some w' := by
  obtain ⟨own, hi, hd⟩ := reach_deep hw
  obtain ⟨w', h, _⟩ := step_deep (env := env) hi hd hg
  exact ⟨w', h⟩

/-- In a careful history `IsValid`, `==`, `!=` and `GetUniqueId` of every reference are defined, and so is `GetData` of every
reference that is null or was given out by a live vault or set. -/
theorem C50_careful_refs_partial {home : Nat → Nat} {w : World K V Ty} (hw : HReach Careful home w) {f : Nat} (hf : f < w.refs.length) :
    (∃ b, refIsValid w f = some b) ∧ (∀ g, g < w.refs.length → ∃ b c, refEq w f g = some b ∧ refNe w f g = some c) ∧
    (∀ k t, (target w f = none ∨ ∃ o, through w f = some o ∧ (isVault w o = true ∨ isSetObj w o = true)) → ∃ a, refGetData w f k t = some a) := by
  obtain ⟨own, hi, hd⟩ := reach_deep hw
  have hv : ∀ f, f < w.refs.length → ∃ b, refIsValid w f = some b := by
    intro f hf
    obtain ⟨ref, h1⟩ := get_ref hf
    cases hp : ref.ptr with
    | none => exact ⟨false, by simp [refIsValid, h1, hp]⟩
    | some r =>
      obtain ⟨x, hx⟩ := hi.r.live ref (List.mem_of_getElem? h1) r hp
      exact ⟨x.valid, by simp [refIsValid, h1, hp, hx]⟩
  refine ⟨hv f hf, fun g hg => ?_, fun k t h => ?_⟩
  · obtain ⟨a, h1⟩ := get_ref hf
    obtain ⟨b, h2⟩ := get_ref hg
    obtain ⟨x, h3⟩ := hv f hf
    obtain ⟨y, h4⟩ := hv g hg
    cases x <;> simp only [refEq, refNe, h1, h2, h3, h4, Option.bind_eq_bind, Option.bind_some] <;> exact ⟨_, _, rfl, rfl⟩
  · obtain ⟨ref, h1⟩ := get_ref hf
    cases hp : ref.ptr with
    | none => simp only [refGetData, h1, Option.bind_eq_bind, Option.bind_some, hp]; exact ⟨_, rfl⟩
    | some r =>
      obtain ⟨x, hx⟩ := hi.r.live ref (List.mem_of_getElem? h1) r hp
      rcases h with h | ⟨o, h2, h3⟩
      · simp [target, h1, hp] at h
      · simp only [through, h1, Option.bind_some] at h2
        obtain ⟨oo, h4⟩ := liveObj h3
        simp only [refGetData, h1, Option.bind_eq_bind, Option.bind_some, hp, h2, h4, hx]
        split
        · exact ⟨_, rfl⟩
        · split
          · exact ⟨_, rfl⟩
          · split <;> exact ⟨_, rfl⟩

/-- A careful history: a vault with a plain key (1) and a unique key (2) and three records; set 1 is filled by a request, set 2 by a
request on set 1, set 3 is a copy of set 1; a value is changed, a record is erased, a key is added, the copy is cleared and
filled again. -/
def carefulOps : List DO :=
  [.newVault, .newSet, .newSet, .addKey 0 1 5, .addUniqueKey 0 2 false true (fun _ _ _ => 0), .newRef, .newRef, .newRef,
   .createRecord 0 0 [(2, 7)], .createRecord 0 1 [(1, 6), (2, 8)], .createRecord 0 2 [(1, 8), (2, 9)], .ask 0 1 (.ge 5) none (fun _ => true) 1,
   .ask 1 2 (.gt 7) none (fun _ => true) 2, .setCopyNew 1, .refSetData 1 1 20, .eraseRef 0 2, .addKey 0 3 110, .setClear 3, .setAddRecord 3 1]

/-- The world after `carefulOps`. -/
def carefulW : DW := (carefulRun carefulOps).getD World.empty
theorem carefulW_reach : HReach Careful (fun _ => 0) carefulW := carefulRun_reach (l := carefulOps) rfl

example : members carefulW 0 = [0, 1] ∧ members carefulW 1 = [0, 1] ∧ members carefulW 2 = [1] ∧ members carefulW 3 = [1] ∧ value carefulW 1 1 = some 20 := by decide
example : Careful (fun _ => 0) carefulW (.eraseKV 0 1 20) := ⟨trivial, show isVault carefulW 0 = true by decide⟩
example : target carefulW 1 = some 1 ∧ through carefulW 1 = some 0 ∧ isVault carefulW 0 = true ∧ 1 < carefulW.refs.length := by decide

/-- Vaults nobody else uses may be moved in a careful history: vault 1 is filled, moved into a new vault (2), and this is moved into vault 0, whose sets are detached; then
vault 0 is searched with the set again. -/
def carefulMovedOps : List DO :=
  [.newVault, .newVault, .addKey 0 1 9, .createRow 0 [], .newSet, .ask 0 1 (.ge 5) none (fun _ => true) 2, .addKey 1 1 5, .createRow 1 [(1, 7)], .createRow 1 [(1, 4)], .vaultMoveNew 1,
   .vaultMoveAssign 0 3, .ask 0 1 (.ge 5) none (fun _ => true) 2, .createRow 0 [(1, 8)]]
example : ∃ w : DW, carefulRun carefulMovedOps = some w ∧ HReach Careful (fun _ => 0) w ∧ members w 0 = [1, 2, 3] ∧ members w 2 = [1] ∧ members w 1 = [] ∧ members w 3 = [] :=
  ⟨(carefulRun carefulMovedOps).getD World.empty, rfl, carefulRun_reach (l := carefulMovedOps) rfl, by decide, by decide, by decide, by decide⟩

/-- `RemoveRecord` of a set does not tell the record (VaultRecordSet.cpp lines 277-285), so after the set has been destroyed `SetData`
on the record writes into the destroyed set. Nothing but ordinary operations on live objects. -/
theorem C50_refuted_removed : ∃ w : DW, HReach Ordinary (fun _ => 0) w ∧ target w 0 = some 0 ∧ through w 0 = some 0 ∧ isVault w 0 = true ∧ 0 ∈ members w 0 ∧
    alive w 0 ∧ step Env.id w (.refSetData 0 1 6) = none := by
  refine ⟨_, demo_reach (l := [.newVault, .addKey 0 1 5, .newRef, .createRecord 0 0 [], .newSet, .ask 0 1 (.gt 0) none (fun _ => true) 1,
    .setRemoveRef 1 0, .destroySet 1]) rfl, by decide, by decide, by decide, by decide, ⟨_, rfl, by decide⟩, rfl⟩

/-! ### C31, C35 -/

/-- In a careful history a set holds only valid records of its parent vault, none of them twice; a set without parent is
empty. Missing for the full claim: the functions `Allowed` leaves out, where it is false (`C31_refuted`). -/
theorem C31_careful_partial {home : Nat → Nat} {w : World K V Ty} (hw : HReach Careful home w) {s : Nat} (hs : isSetObj w s = true) :
    (members w s).Nodup ∧ ∀ r ∈ members w s, alive w r ∧ ∃ p, parentOf w s = some p ∧ isVault w p = true ∧ r ∈ members w p := by
  obtain ⟨own, hi, hd⟩ := reach_deep hw
  obtain ⟨so, hso, hss⟩ := isSetObj_iff.mp hs
  have sd := hd.set s so hso hss
  rw [members_eq hso]
  refine ⟨sd.recsN, fun r hr => ?_⟩
  obtain ⟨x, hx, hv, _⟩ := sd.held r hr
  obtain ⟨vo, h1, h2, h3⟩ := hi.v.val r x hx hv
  obtain ⟨hown, hpar⟩ := (hi.s.sets s so hso hss).recs r hr
  refine ⟨⟨x, hx, hv⟩, ?_⟩
  cases hp : so.parent with
  | none => exact absurd hr (by rw [(hi.s.sets s so hso hss).det hp]; simp)
  | some p =>
    have e := (hi.s.sets s so hso hss).par p hp
    refine ⟨p, by rw [parentOf_eq hso, hp], ?_⟩
    have ep : p = own r := by rw [hown]; exact e
    subst ep
    exact ⟨isVault_iff.mpr ⟨vo, h1, h2⟩, by rw [members_eq h1]; exact h3⟩

example : isSetObj carefulW 1 = true ∧ members carefulW 1 = [0, 1] ∧ parentOf carefulW 1 = some 0 := by decide

/-- No set of a careful history holds a record that is not valid any more. -/
theorem dead_nowhere {home : Nat → Nat} {w : World K V Ty} (hw : HReach Careful home w) {r : Nat} (hr : ¬ alive w r) {s : Nat} (hs : isSetObj w s = true) :
    r ∉ members w s := fun h => hr ((C31_careful_partial hw hs).2 r h).1

/-- The functions that erase records of vault `o` (specification). -/
def erases (o : Nat) : Op K V Ty → Prop
  | .eraseRef o' _ | .eraseKV o' _ _ | .eraseManyKV o' _ _ _ | .dropData o' | .dropVault o' => o' = o
  | _ => False

/-- In a careful history, a record that one of the erasing functions takes out of the vault is in no set afterwards. Missing
for the full claim: the functions `Allowed` leaves out, where it is false (`C35_refuted`). -/
theorem C35_careful_partial {home : Nat → Nat} {env : Env} {w w' : World K V Ty} (hw : HReach Careful home w) {op : Op K V Ty} (hg : Careful home w op)
    (h : step env w op = some w') {o : Nat} (hop : erases o op) {r : Nat} (hr : r ∈ members w o) (hr' : r ∉ members w' o) :
    ∀ s, isSetObj w' s = true → r ∉ members w' s := by
  have hwo := Careful.ordinary hw
  have hw' := HReach.step w w' env op hw hg h
  have fin : ¬ alive w' r → ∀ s, isSetObj w' s = true → r ∉ members w' s := fun hd s hs => dead_nowhere hw' hd hs
  have ex : ∀ {l : List Nat}, ErasesExactly w w' o l → ¬ alive w' r := by
    intro l e
    refine e.dead r ?_
    by_contra hn
    exact hr' (by rw [e.left]; exact List.mem_filter.mpr ⟨hr, by simpa using hn⟩)
  cases op <;> simp only [erases] at hop
  case eraseRef o' f =>
    subst hop
    simp only [step, onVault_iff, Option.map_eq_some_iff, Prod.exists, exists_and_right, exists_eq_right] at h
    obtain ⟨ho, b, h⟩ := h
    obtain ⟨_, h2, h3⟩ := C23_eraseRef_partial hwo ho h
    cases b with
    | true => obtain ⟨_, _, e⟩ := h3 rfl; exact fin (ex e)
    | false => rw [h2 rfl] at hr'; exact absurd hr hr'
  case eraseKV o' k v =>
    subst hop
    simp only [step, onVault_iff, Option.map_eq_some_iff, Prod.exists, exists_and_right, exists_eq_right] at h
    obtain ⟨ho, b, h⟩ := h
    obtain ⟨h2, h3⟩ := C23_eraseKV_partial hwo ho h
    cases hb : b.ok with
    | true => obtain ⟨_, _, e⟩ := h3 hb; exact fin (ex e)
    | false => rw [h2 hb] at hr'; exact absurd hr hr'
  case eraseManyKV o' k v n =>
    subst hop
    simp only [step, onVault_iff, Option.map_eq_some_iff, Prod.exists, exists_and_right, exists_eq_right] at h
    obtain ⟨ho, b, h⟩ := h
    obtain ⟨h2, h3⟩ := C23_eraseRecords_partial hwo ho h
    cases hb : b.ok with
    | true => obtain ⟨_, _, _, _, _, e⟩ := h3 hb; exact fin (ex e)
    | false => rw [h2 hb] at hr'; exact absurd hr hr'
  case dropData o' =>
    subst hop
    simp only [step, onVault_iff] at h
    exact fin (ex (C30_dropData_partial hwo h.1 h.2).1)
  case dropVault o' =>
    subst hop
    simp only [step, onVault_iff] at h
    obtain ⟨own, hi⟩ := reach_inv hwo
    obtain ⟨vo, hvo, hvs⟩ := isVault_iff.mp h.1
    rw [members_eq hvo] at hr
    obtain ⟨_, _, _, _, hdead, _⟩ := dropVault_spec hi hvo hvs h.2
    exact fin (fun ⟨x, hx, hv⟩ => by rw [hdead r hr x hx] at hv; cases hv)

example : erases (Ty := Bool) 0 (.eraseKV (K := Nat) (V := Nat) 0 1 20) ∧ 1 ∈ members carefulW 1 ∧ 1 ∈ members carefulW 2 ∧
    ∃ w', step Env.id carefulW (.eraseKV 0 1 20) = some w' ∧ members w' 0 = [0] ∧ members w' 1 = [0] ∧ members w' 2 = [] := by
  refine ⟨rfl, by decide, by decide, _, rfl, ?_, ?_, ?_⟩ <;> decide

/-! ### C62 -/

theorem Only.value {s : Nat} {w w' : World K V Ty} (h : Only s w w') (r : Nat) (k : K) : value w' r k = value w r k := by
  cases hx : w.getRec r with
  | none => simp [W.value, hx, h.recN r hx]
  | some x => obtain ⟨d, e, _⟩ := h.recS r x hx; simp [W.value, hx, e]

theorem Only.alive {s : Nat} {w w' : World K V Ty} (h : Only s w w') (r : Nat) : alive w' r ↔ alive w r := by
  cases hx : w.getRec r with
  | none => simp [W.alive, hx, h.recN r hx]
  | some x => obtain ⟨d, e, _⟩ := h.recS r x hx; simp [W.alive, hx, e]

theorem Only.members {s : Nat} {w w' : World K V Ty} (h : Only s w w') {o : Nat} (ho : o ≠ s) : members w' o = members w o := by
  cases hx : w.getObj o with
  | none => simp [W.members, hx, h.objN o ho hx]
  | some x => obtain ⟨d, e, _⟩ := h.obj o ho x hx; rw [members_eq hx, members_eq e]

theorem Only.matches {s : Nat} {w w' : World K V Ty} (h : Only s w w') {o : Nat} (ho : o ≠ s) (k : K) (c : Cond V) (r : Nat) :
    Matches w' o k c r ↔ Matches w o k c r := by
  unfold Matches; rw [h.members ho, h.alive, h.value]

theorem vaultOf_set {w : World K V Ty} {o p : Nat} {oo : Obj K V Ty} (ho : w.getObj o = some oo) (hs : oo.isSet = true) (hp : parentOf w o = some p) :
    vaultOf o oo = some p := by
  rw [parentOf_eq ho] at hp
  unfold vaultOf; rw [if_pos hs]; exact hp

/-- A request on an attached set, in a careful history, is defined and gives into the other set only valid records of the set that
satisfy the condition and the predicate, none of them twice; the set asked keeps its records, the result set is attached to the same
vault. With a key the set does not have, or of another type, it fails with `WrongKey` or `WrongType`. Missing for the full
claim: the functions `Allowed` leaves out (false: `C62_refuted`), and that all such records are given (false as for vaults, `C19_refuted`). -/
theorem C62_request_partial {home : Nat → Nat} {w : World K V Ty} (hw : HReach Careful home w) (env : Env) {o s p : Nat} {k : K} {c : Cond V} {n : Option Nat}
    {pred : Nat → Bool} (ho : isSetObj w o = true) (hs : isSetObj w s = true) (hne : o ≠ s) (hp : parentOf w o = some p) (hh : home s = p) (ht : c.typed c.ty) :
    ∃ w' res, ask env w o k c n pred s = some (w', res) ∧ parentOf w' s = some p ∧ members w' o = members w o ∧
      (∀ r ∈ members w' s, Matches w o k c r ∧ Matches w' o k c r ∧ pred r = true) ∧ (members w' s).Nodup ∧
      (getKeyType w o k = some c.ty → res = .good (some k)) ∧
      (getKeyType w o k ≠ some c.ty → res = .bad (if getKeyType w o k = none then .WrongKey else .WrongType) (some k) ∧ members w' s = []) := by
  obtain ⟨own, hi, hd⟩ := reach_deep hw
  obtain ⟨oo, hoo, hos⟩ := isSetObj_iff.mp ho
  obtain ⟨so, hso, hss⟩ := isSetObj_iff.mp hs
  have hv := vaultOf_set hoo hos hp
  obtain ⟨w', res, e, d, hx⟩ := request_deep (env := env) (t := c.args.1) (k := k) (a := c.args.2.1) (b := c.args.2.2.1) (ia := c.args.2.2.2.1)
    (ib := c.args.2.2.2.2) (n := n) (pred := pred) hi hd hoo hso hss (fun q hq => by rw [hv] at hq; cases hq; exact hh.symm)
  obtain ⟨x, hx, hres⟩ := hx p hv hne
  refine ⟨w', res, by rw [ask_eq]; exact e, ?_⟩
  unfold requestSet at hx
  split at hx
  · rename_i er hck
    cases hx
    obtain ⟨rfl, an⟩ := hres
    obtain ⟨so', h1, h2, h3, h4⟩ := an.out
    have hm : members w' s = [] := by rw [members_eq h1]; exact List.eq_nil_iff_forall_not_mem.mpr (fun r hr => by simpa using (h4 r).mp hr)
    obtain ⟨a1, a2⟩ := checkKey_answer hoo hck
    exact ⟨by rw [parentOf_eq h1]; exact h3, an.only.members hne, by rw [hm]; simp, by rw [hm]; exact List.nodup_nil, fun h => absurd h a1, fun _ => ⟨a2, hm⟩⟩
  · rename_i col hck
    obtain ⟨hc, hty⟩ := checkKey_ok hck
    have hk : getKeyType w o k = some c.ty := by rw [getKeyType_eq hoo, hc]; simp [hty, Cond.ty]
    rw [Cond.typed_snd ht] at hx
    have cok := col_of hi hd hoo hc
    obtain ⟨l0, hs0, hn0, hsnd, _⟩ := scan_vault (env := env) cok c
    have hs1 := hs0
    unfold scan at hs1
    rw [hs1] at hx
    simp only [Option.map_some, Option.some.injEq] at hx
    subst hx
    obtain ⟨rfl, an⟩ := hres
    obtain ⟨so', h1, h2, h3, h4⟩ := an.out
    refine ⟨by rw [parentOf_eq h1]; exact h3, an.only.members hne, ?_, by rw [members_eq h1]; exact (an.deep.set s so' h1 h2).recsN, fun _ => rfl, fun h => absurd hk h⟩
    intro r hr
    rw [members_eq h1, h4] at hr
    change r ∈ ((takeOpt n l0).filter pred).foldl setIns [] at hr
    rcases (mem_foldl_setIns _ _ _).mp hr with hr | hr
    · cases hr
    · obtain ⟨hr, hpr⟩ := List.mem_filter.mp hr
      obtain ⟨hm, v, hv, hh⟩ := hsnd r ((takeOpt_sublist n l0).subset hr)
      have hM : Matches w o k c r := ⟨by rw [members_eq hoo]; exact hm, (rec_of hi hd hoo hm).1, v, hv, hh⟩
      exact ⟨hM, (an.only.matches hne k c r).mpr hM, hpr⟩

example : ∃ w' : DW, ask Env.id carefulW 1 1 (.gt 5) none (fun _ => true) 3 = some (w', .good (some 1)) ∧ members w' 3 = [1] ∧ members carefulW 1 = [0, 1] ∧
    isSetObj carefulW 1 = true ∧ isSetObj carefulW 3 = true ∧ parentOf carefulW 1 = some 0 ∧ getKeyType carefulW 1 1 = some false :=
  ⟨_, rfl, by decide, by decide, by decide, by decide, by decide, by decide⟩

/-- A request tree on an attached set: every record it gives is a valid record of the set that satisfies the tree. -/
theorem C62_requestTree_partial {home : Nat → Nat} {w : World K V Ty} (hw : HReach Careful home w) (env : Env) {o s p : Nat} {q : Req K V}
    (ho : isSetObj w o = true) (hs : isSetObj w s = true) (hne : o ≠ s) (hp : parentOf w o = some p) (hh : home s = p) (hq : q.wellTyped) :
    ∃ w' res, requestTree env w o q s = some (w', res) ∧ parentOf w' s = some p ∧ members w' o = members w o ∧
      (∀ r ∈ members w' s, r ∈ members w o ∧ alive w r ∧ q.sat w r) ∧ (members w' s).Nodup ∧ (res.ok = false → members w' s = []) := by
  obtain ⟨own, hi, hd⟩ := reach_deep hw
  obtain ⟨oo, hoo, hos⟩ := isSetObj_iff.mp ho
  obtain ⟨so, hso, hss⟩ := isSetObj_iff.mp hs
  have hv := vaultOf_set hoo hos hp
  obtain ⟨w', res, e, d, hx0⟩ := requestTree_deep (env := env) hi hd hoo hso hss (fun p' hp' => by rw [hv] at hp'; cases hp'; exact hh.symm) hq
  obtain ⟨x, hx, hres⟩ := hx0 p hv hne
  refine ⟨w', res, e, ?_⟩
  cases x with
  | error er =>
    obtain ⟨rfl, an⟩ := hres
    obtain ⟨so', h1, h2, h3, h4⟩ := an.out
    have hm : members w' s = [] := by rw [members_eq h1]; exact List.eq_nil_iff_forall_not_mem.mpr (fun r hr => by simpa using (h4 r).mp hr)
    exact ⟨by rw [parentOf_eq h1]; exact h3, an.only.members hne, by rw [hm]; simp, by rw [hm]; exact List.nodup_nil, fun _ => hm⟩
  | ok l =>
    obtain ⟨rfl, an⟩ := hres
    obtain ⟨so', h1, h2, h3, h4⟩ := an.out
    have hcols := colsOk_of hi hd hoo
    obtain ⟨_, _, hf⟩ := (evalReq_ok (env := env) hcols q).2.1 l hx
    refine ⟨by rw [parentOf_eq h1]; exact h3, an.only.members hne, fun r hr => ?_, by rw [members_eq h1]; exact (an.deep.set s so' h1 h2).recsN, (fun h => by cases h)⟩
    rw [members_eq h1, h4] at hr
    obtain ⟨a1, a2⟩ := found_sat hcols ((hf r).mp hr)
    exact ⟨by rw [members_eq hoo]; exact a1, (rec_of hi hd hoo a1).1, a2⟩

example : ∃ w' : DW, requestTree Env.id carefulW 1 (.or (.leaf .Less 1 6 fun _ => true) (.leaf .Greater 2 8 fun _ => true)) 3 = some (w', .good none) ∧ members w' 3 = [0] :=
  ⟨_, rfl, by decide⟩

/-- `GetRecord` of an attached set: on success the reference points at a valid record of the set with the value, and works through
the vault; otherwise the reason is reported. -/
theorem C62_getRecord_partial {home : Nat → Nat} {w w' : World K V Ty} (hw : HReach Careful home w) {env : Env} {s p f : Nat} {k : K} {v : V} {res : Res K}
    (hs : isSetObj w s = true) (hp : parentOf w s = some p) (hf : f < w.refs.length) (hg : Careful home w (.setGetRecord s k v f))
    (h : setGetRecord env w s k v f = some (w', res)) :
    through w' f = some p ∧
    (res.ok = true → res = .good (some k) ∧ ∃ r, target w' f = some r ∧ Matches w s k (.eq v) r ∧ Matches w' s k (.eq v) r) ∧
    (getKeyType w s k ≠ some (typeOf v) → res = .bad (if getKeyType w s k = none then .WrongKey else .WrongType) (some k) ∧ target w' f = target w f) ∧
    (getKeyType w s k = some (typeOf v) → res.ok = false → res = .bad .WrongValue (some k) ∧ target w' f = none) := by
  obtain ⟨own, hi, hd⟩ := reach_deep hw
  obtain ⟨so, hso, hss⟩ := isSetObj_iff.mp hs
  have rf := setGetRecord_rf h
  obtain ⟨_, h⟩ := setGetRecord_spec hi hso hss (by
    intro ref r e p h1 h2 h3 h4
    refine hg.1 so ref r p hso h1 h2 h4 (fun c hc hty => ?_)
    unfold checkKey at h3; rw [hc] at h3; simp [hty] at h3) h
  rw [parentOf_eq hso] at hp
  rcases h with ⟨_, h, _⟩ | ⟨p', ref, h, hr, h'⟩
  · rw [hp] at h; cases h
  rw [hp] at h; cases h
  rcases h' with ⟨hc, hrefs⟩ | ⟨c, hc, rfl, _, hrefs⟩ | ⟨c, r, l, hc, he, rfl, hrefs⟩
  · obtain ⟨a1, a2⟩ := checkKey_answer hso hc
    exact ⟨by simp [through, hrefs, hf], (fun e => by rw [checkKey_fail hc] at e; cases e), fun _ => ⟨a2, by simp only [target, hrefs, hr, set_getElem?_self hr, Option.bind_some]⟩, fun e => absurd e a1⟩
  · obtain ⟨hk, hty⟩ := checkKey_ok hc
    have hk' : getKeyType w s k = some (typeOf v) := by rw [getKeyType_eq hso, hk]; simp [hty]
    exact ⟨by simp [through, hrefs, hf], (fun e => by cases e), fun e => absurd hk' e, fun _ _ => ⟨rfl, by simp [target, hrefs, hf]⟩⟩
  · obtain ⟨hk, hty⟩ := checkKey_ok hc
    have hk' : getKeyType w s k = some (typeOf v) := by rw [getKeyType_eq hso, hk]; simp [hty]
    refine ⟨by simp [through, hrefs, hf], fun _ => ⟨rfl, r, by simp [target, hrefs, hf], ?_⟩, fun e => absurd hk' e, (fun _ e => by cases e)⟩
    obtain ⟨hm, hcell⟩ := range_mem (env := env) (v := v) (r := r) hi hd hso hk (by rw [he]; simp)
    have hal := (rec_of hi hd hso hm).1
    have hM : Matches w s k (.eq v) r := ⟨by rw [members_eq hso]; exact hm, hal, v, hcell, rfl⟩
    refine ⟨hM, ?_⟩
    obtain ⟨h1, h2, h3⟩ := hM
    exact ⟨by rw [rf.members]; exact h1, (rf.alive r).mpr h2, by rw [rf.value h2]; exact h3⟩

example : ∃ w' : DW, setGetRecord Env.id carefulW 1 2 8 2 = some (w', .good (some 2)) ∧ target w' 2 = some 1 ∧ through w' 2 = some 0 ∧ parentOf carefulW 1 = some 0 :=
  ⟨_, rfl, by decide, by decide, by decide⟩

/-- `GetRecords` of an attached set: the references it returns are different and all point at valid records of the set with the value;
there are at most `n` of them (one when `n` is 0). -/
theorem C62_getRecords_partial {home : Nat → Nat} {w w' : World K V Ty} (hw : HReach Careful home w) {env : Env} {s p n : Nat} {k : K} {v : V} {res : Res K}
    (hs : isSetObj w s = true) (hp : parentOf w s = some p) (h : setGetRecords env w s k v n = some (w', res)) :
    ∃ out : List Nat, w'.refs = w.refs ++ out.map (fun r => ⟨some r, some p⟩) ∧ out.Nodup ∧ out.length ≤ max n 1 ∧
      (∀ r ∈ out, Matches w s k (.eq v) r ∧ Matches w' s k (.eq v) r) ∧ (res.ok = true ↔ out ≠ []) ∧
      (res.ok = true → res = .good (some k)) ∧
      (getKeyType w s k ≠ some (typeOf v) → res = .bad (if getKeyType w s k = none then .WrongKey else .WrongType) (some k)) ∧
      (getKeyType w s k = some (typeOf v) → res.ok = false → res = .bad .WrongValue (some k)) := by
  obtain ⟨own, hi, hd⟩ := reach_deep hw
  obtain ⟨so, hso, hss⟩ := isSetObj_iff.mp hs
  have rf := setGetRecords_rf h
  obtain ⟨_, h⟩ := setGetRecords_spec hi hso hss h
  rw [parentOf_eq hso] at hp
  rcases h with ⟨_, h, _⟩ | ⟨p', h, h'⟩
  · rw [hp] at h; cases h
  rw [hp] at h; cases h
  rcases h' with ⟨rfl, hc⟩ | ⟨c, hc, h⟩
  · obtain ⟨a1, a2⟩ := checkKey_answer hso hc
    exact ⟨[], by simp, List.nodup_nil, by simp, by simp, by simp [checkKey_fail hc], (fun e => by rw [checkKey_fail hc] at e; cases e), fun _ => a2, fun e => absurd e a1⟩
  · obtain ⟨hk, hty⟩ := checkKey_ok hc
    have hk' : getKeyType w s k = some (typeOf v) := by rw [getKeyType_eq hso, hk]; simp [hty]
    rcases h with ⟨rfl, hr, _⟩ | ⟨hne, hr, hrefs⟩
    · subst hr
      exact ⟨[], by simp, List.nodup_nil, by simp, by simp, by simp [Res.bad], (fun e => by cases e), fun e => absurd hk' e, fun _ _ => rfl⟩
    · subst hr
      have cok := col_of hi hd hso hk
      have hn : (equalRange env c v).Nodup := by
        unfold equalRange
        rw [(env.isPerm _).nodup_iff, List.Nodup, List.pairwise_map]
        refine (cok.hashN.filter _).imp_of_mem ?_
        rintro ⟨a, b⟩ ⟨a', b'⟩ h1 h2 hne e
        have h1 := (List.mem_filter.mp h1).2
        have h2 := (List.mem_filter.mp h2).2
        simp at h1 h2 e
        exact hne (by rw [h1, h2, e])
      refine ⟨_, hrefs, hn.sublist (List.take_sublist _ _), by simp; omega, ?_, ?_, fun _ => rfl, fun e => absurd hk' e, (fun _ e => by cases e)⟩
      · intro r hr
        obtain ⟨hm, hcell⟩ := range_mem (env := env) (v := v) hi hd hso hk (List.mem_of_mem_take hr)
        have hal := (rec_of hi hd hso hm).1
        have hM : Matches w s k (.eq v) r := ⟨by rw [members_eq hso]; exact hm, hal, v, hcell, rfl⟩
        refine ⟨hM, ?_⟩
        obtain ⟨h1, h2, h3⟩ := hM
        exact ⟨by rw [rf.members]; exact h1, (rf.alive r).mpr h2, by rw [rf.value h2]; exact h3⟩
      · refine ⟨fun _ => ?_, fun _ => rfl⟩
        cases he : equalRange env c v with
        | nil => exact absurd he hne
        | cons a l =>
          obtain ⟨m, hm⟩ : ∃ m, max n 1 = m + 1 := ⟨max n 1 - 1, by omega⟩
          rw [hm]; simp

example : ∃ w' : DW, setGetRecords Env.id carefulW 1 1 20 7 = some (w', .good (some 1)) ∧ w'.refs.length = carefulW.refs.length + 1 ∧ target w' 3 = some 1 :=
  ⟨_, rfl, by decide, by decide⟩

/-- `GetSortedRecords` of an attached set: the references point, in order of the values, at different valid records of the set. -/
theorem C62_getSorted_partial {home : Nat → Nat} {w w' : World K V Ty} (hw : HReach Careful home w) {s p : Nat} {k : K} {rev : Bool} {n : Option Nat}
    (hs : isSetObj w s = true) (hp : parentOf w s = some p) (h : getSorted w s k rev n = some w') :
    ∃ l, SortedList w s k rev l ∧ InOrder w k rev l ∧ l.Nodup ∧ (∀ r ∈ l, r ∈ members w s ∧ alive w r ∧ ∃ v, value w r k = some v) ∧
      w'.refs = w.refs ++ (match n with | none => l | some n => l.take n).map (fun r => ⟨some r, some s⟩) := by
  obtain ⟨own, hi, hd⟩ := reach_deep hw
  obtain ⟨so, hso, hss⟩ := isSetObj_iff.mp hs
  obtain ⟨_, hrefs⟩ := getSorted_spec hi hso h
  rw [parentOf_eq hso] at hp
  rw [if_neg (by simp [hp]), sortedIds_take] at hrefs
  obtain ⟨f1, f2⟩ := sorted_facts (colsOk_of hi hd hso) k rev
  refine ⟨_, ⟨so, hso, rfl⟩, f1, f2, ?_, hrefs⟩
  intro r hr
  obtain ⟨c, v, hc, hm⟩ := sortedIds_mem hr
  obtain ⟨h1, h2⟩ := (col_of hi hd hso hc).ordS v r hm
  exact ⟨by rw [members_eq hso]; exact h1, (rec_of hi hd hso h1).1, v, h2⟩

example : ∃ w', getSorted carefulW 1 1 true none = some w' ∧ SortedList carefulW 1 1 true [1, 0] ∧ w'.refs.length = carefulW.refs.length + 2 :=
  ⟨_, rfl, ⟨_, rfl, by decide⟩, by decide⟩

/-- `RemoveRecord` of a set does not tell the record (VaultRecordSet.cpp lines 277-285): a later `SetData` on the record puts it back into the
index of the set, and `GetRecord` of the set finds it, although it is not in the set. -/
theorem C62_refuted : ∃ w w' : DW, HReach Ordinary (fun _ => 0) w ∧ isSetObj w 1 = true ∧ parentOf w 1 = some 0 ∧ members w 1 = [] ∧
    setGetRecord Env.id w 1 1 6 1 = some (w', .good (some 1)) ∧ target w' 1 = some 0 := by
  refine ⟨_, _, demo_reach (l := [.newVault, .addKey 0 1 5, .newRef, .newRef, .createRecord 0 0 [], .newSet, .ask 0 1 (.gt 0) none (fun _ => true) 1,
    .setRemoveRef 1 0, .refSetData 0 1 6]) rfl, by decide, by decide, by decide, rfl, by decide⟩

/-- When that record is then erased and freed, the index of the set points at freed memory, and `GetRecord` of the set touches it. -/
theorem C50_refuted_index : ∃ w : DW, HReach Ordinary (fun _ => 0) w ∧ isSetObj w 1 = true ∧ parentOf w 1 = some 0 ∧ isVault w 0 = true ∧ members w 0 = [] ∧ members w 1 = [] ∧
    1 < w.refs.length ∧ step Env.id w (.setGetRecord 1 1 6 1) = none := by
  refine ⟨_, demo_reach (l := [.newVault, .addKey 0 1 5, .newRef, .newRef, .createRecord 0 0 [], .newSet, .ask 0 1 (.gt 0) none (fun _ => true) 1,
    .setRemoveRef 1 0, .refSetData 0 1 6, .refReset 0, .eraseKV 0 1 6]) rfl, ?_, ?_, ?_, ?_, ?_, ?_, rfl⟩ <;> decide

/-- `AddUniqueKey` calls the user's function for the records of the vault, and again for the records of every set of the vault, each time counting
from 0 (Vault.hpp lines 374-408 and 524-534). With a function that uses the counter the index of the set gets values the records do
not have: `GetRecord` of the set finds a record by the value of another one. -/
theorem C62_refuted_counter : ∃ w w' : DW, HReach Ordinary (fun _ => 0) w ∧ isSetObj w 1 = true ∧ parentOf w 1 = some 0 ∧ members w 0 = [0, 1] ∧ members w 1 = [1] ∧
    value w 0 2 = some 0 ∧ value w 1 2 = some 1 ∧ setGetRecord Env.id w 1 2 0 1 = some (w', .good (some 2)) ∧ target w' 1 = some 1 := by
  refine ⟨_, _, demo_reach (l := [.newVault, .addKey 0 1 5, .newRef, .newRef, .createRecord 0 0 [], .createRecord 0 1 [(1, 6)], .newSet,
    .ask 0 1 (.gt 5) none (fun _ => true) 1, .addUniqueKey 0 2 false false (fun _ i _ => i)]) rfl,
    by decide, by decide, by decide, by decide, by decide, by decide, rfl, by decide⟩

/-! ### C63 -/

/-- In a careful history an attached set has the keys of its vault, in the same order, with the same types and the same unique keys; a set
without vault has no keys. Missing for the full claim: the functions `Allowed` leaves out (moves of sets and vaults). -/
theorem C63_set_keys_partial {home : Nat → Nat} {w : World K V Ty} (hw : HReach Careful home w) {s : Nat} (hs : isSetObj w s = true) :
    (∀ p, parentOf w s = some p → getKeys w s = getKeys w p ∧ getUniqueKeys w s = getUniqueKeys w p ∧ ∀ k, getKeyType w s k = getKeyType w p k) ∧
    (parentOf w s = none → getKeys w s = [] ∧ getUniqueKeys w s = [] ∧ ∀ k, getKeyType w s k = none) := by
  obtain ⟨own, hi, hd⟩ := reach_deep hw
  obtain ⟨so, hso, hss⟩ := isSetObj_iff.mp hs
  have sd := hd.set s so hso hss
  rw [parentOf_eq hso]
  refine ⟨fun p hp => ?_, fun hp => ?_⟩
  · obtain ⟨po, hpo, _⟩ := hi.l.up s so p hso hss hp
    have al := sd.att p po hp hpo
    exact ⟨by rw [getKeys_eq hso, getKeys_eq hpo, al.keys], by rw [getUniqueKeys_eq hso, getUniqueKeys_eq hpo, al.uniq],
      fun k => by rw [getKeyType_eq hso, getKeyType_eq hpo, al.ty]⟩
  · obtain ⟨a, b, c⟩ := sd.det hp
    exact ⟨by rw [getKeys_eq hso, b], by rw [getUniqueKeys_eq hso, c], fun k => by rw [getKeyType_eq hso, a]; rfl⟩

example : isSetObj carefulW 3 = true ∧ parentOf carefulW 3 = some 0 ∧ getKeys carefulW 3 = [1, 2, 3] ∧ getUniqueKeys carefulW 3 = [2] ∧ getKeyType carefulW 3 3 = some true := by decide

/-- So look-ups on an attached set accept exactly the keys of its vault, with their types there. -/
theorem C63_request_codes_partial {home : Nat → Nat} {w w' : World K V Ty} (hw : HReach Careful home w) {env : Env} {o s p : Nat} {k : K} {c : Cond V} {n : Option Nat}
    {pred : Nat → Bool} {res : Res K} (ho : isSetObj w o = true) (hs : isSetObj w s = true) (hne : o ≠ s) (hp : parentOf w o = some p) (hh : home s = p) (ht : c.typed c.ty)
    (h : ask env w o k c n pred s = some (w', res)) :
    (res.code = .Success ↔ getKeyType w p k = some c.ty) ∧ (res.code = .WrongKey ↔ getKeyType w p k = none) := by
  obtain ⟨w1, res1, e, _, _, _, _, h1, h2⟩ := C62_request_partial hw env ho hs hne hp hh (n := n) (pred := pred) (k := k) ht
  rw [h] at e; cases e
  rw [((C63_set_keys_partial hw ho).1 p hp).2.2 k] at h1 h2
  by_cases hk : getKeyType w p k = some c.ty
  · rw [h1 hk, hk]; simp [Res.good]
  · rw [(h2 hk).1]
    cases hn : getKeyType w p k with
    | none => simp [Res.bad]
    | some t => rw [hn] at hk; simp only [Option.some.injEq] at hk; simp [Res.bad, hk]

example : (∃ w', ask Env.id carefulW 1 3 (.eq 110) none (fun _ => true) 2 = some (w', .good (some 3)) ∧ members w' 2 = [0, 1]) ∧
    (∃ w', ask Env.id carefulW 1 4 (.eq 110) none (fun _ => true) 2 = some (w', .bad .WrongKey (some 4))) := ⟨⟨_, rfl, by decide⟩, ⟨_, rfl⟩⟩

end MVault.W
