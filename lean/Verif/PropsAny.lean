import Verif.WorldCount
import Verif.PropsRefuted
import Verif.PropsSort
/-
C24, C48, C64: facts about references that hold after every history, whatever operations it has.
C14, C17, C20, C21, C23, C30, C36, C54, C63: histories in which the full claims are false.
-/
set_option linter.unusedSectionVars false
set_option linter.unusedSimpArgs false
namespace MVault.W
variable {K V Ty : Type} [LinearOrder K] [LinearOrder V] [Typed V Ty] [DecidableEq Ty]

theorem target_ref {w : World K V Ty} {f r : Nat} (h : target w f = some r) : ∃ ref ∈ w.refs, w.refs[f]? = some ref ∧ ref.ptr = some r := by
  unfold target at h
  obtain ⟨ref, h1, h2⟩ := Option.bind_eq_some_iff.mp h
  exact ⟨ref, mem_of_get h1, h1, h2⟩

/-! ### C24 -/

/-- After every history (no operation excluded): while a reference points at a record, the record is not freed; and a record that is
allocated has not been erased or is pointed at by a reference. -/
theorem C24_never_freed_while_referenced {G : World K V Ty → Op K V Ty → Prop} {w : World K V Ty} (hw : Reach G w) :
    (∀ f r, target w f = some r → allocated w r) ∧ ∀ r, allocated w r → alive w r ∨ ∃ f, target w f = some r := by
  have hi := reach_ci hw
  refine ⟨fun f r h => ?_, fun r h => ?_⟩
  · obtain ⟨ref, hm, _, hp⟩ := target_ref h
    exact hi.ok.live r (refCount_pos hm hp)
  · obtain ⟨x, hx⟩ := h
    cases hv : x.valid with
    | true => exact .inl ⟨x, hx, hv⟩
    | false =>
      right
      have h0 := hi.ok.inv r x hx hv
      rw [hi.ok.cnt r x hx] at h0
      unfold refCount at h0
      obtain ⟨ref, hm, hp⟩ := List.countP_pos_iff.mp h0
      obtain ⟨f, hf, he⟩ := List.mem_iff_getElem.mp hm
      refine ⟨f, ?_⟩
      unfold target
      rw [List.getElem?_eq_getElem hf, he]
      simpa using hp

/-- The hypotheses are met by a history with a vault move, in which a record was erased while a reference points at it. -/
example : ∃ w : DW, Reach (fun _ _ => True) w ∧ target w 0 = some 0 ∧ refIsValid w 0 = some false ∧ members w 1 = [1] := by
  refine ⟨_, anyRun_reach (l := [.newVault, .addKey 0 1 5, .newRef, .createRecord 0 0 [], .createRow 0 [(1, 6)], .vaultMoveNew 0, .eraseKV 1 1 5]) rfl, ?_, ?_, ?_⟩ <;> decide

/-! ### C48 -/

/-- After every history: comparing references, asking for validity and for the unique id is defined (the answers are those of
`C48_reference_identity`). -/
theorem C48_defined {G : World K V Ty → Op K V Ty → Prop} {w : World K V Ty} (hw : Reach G w) {f g : Nat} (hf : f < w.refs.length) (hg : g < w.refs.length) :
    (∃ a, refIsValid w f = some a) ∧ (∃ b, refEq w f g = some b) ∧ (∃ b, refNe w f g = some b) ∧ ∃ i, refId w f = some i := by
  have key : ∀ f, f < w.refs.length → ∃ a, refIsValid w f = some a := by
    intro f hf
    have h1 : w.refs[f]? = some w.refs[f] := List.getElem?_eq_getElem hf
    simp only [refIsValid, h1, Option.bind_eq_bind, Option.bind_some]
    cases hp : w.refs[f].ptr with
    | none => exact ⟨_, rfl⟩
    | some r =>
      obtain ⟨x, hx⟩ := (C24_never_freed_while_referenced hw).1 f r (by unfold target; rw [h1]; exact hp)
      exact ⟨x.valid, by dsimp only; rw [hx]; rfl⟩
  obtain ⟨a, ha⟩ := key f hf
  obtain ⟨b, hb⟩ := key g hg
  have h1 : w.refs[f]? = some w.refs[f] := List.getElem?_eq_getElem hf
  have h2 : w.refs[g]? = some w.refs[g] := List.getElem?_eq_getElem hg
  refine ⟨⟨a, ha⟩, ?_, ?_, ?_⟩
  · simp only [refEq, h1, h2, ha, hb, Option.bind_eq_bind, Option.bind_some, Option.map_some]; split <;> exact ⟨_, rfl⟩
  · simp only [refNe, h1, h2, ha, hb, Option.bind_eq_bind, Option.bind_some, Option.map_some]; split <;> exact ⟨_, rfl⟩
  · simp only [refId, h1, ha, Option.bind_eq_bind, Option.bind_some]; exact ⟨_, rfl⟩

/-! ### C64 -/

/-- After every history, for every operation: a record that has been erased, or was never created, does not become valid unless it is a
new record (with a number never used before). So a reference that is not valid stays not valid as long as it keeps its record. -/
theorem C64_invalid_stays_invalid {G : World K V Ty → Op K V Ty → Prop} {env : Env} {w w' : World K V Ty} {op : Op K V Ty} (hw : Reach G w)
    (h : step env w op = some w') {f : Nat} (hf : refIsValid w f = some false) :
    (∀ r, target w f = some r → ¬ alive w' r) ∧ (target w' f = target w f → refIsValid w' f = some false) := by
  have hi := reach_ci hw
  have hm := step_cm hi h
  have key : ∀ r, target w f = some r → ¬ alive w' r := by
    intro r hr
    obtain ⟨ref, hmem, hget, hp⟩ := target_ref hr
    simp only [refIsValid, hget, hp, Option.bind_eq_bind, Option.bind_some, Option.map_eq_some_iff] at hf
    obtain ⟨x, hx, hv⟩ := hf
    rintro ⟨y, hy, hyv⟩
    obtain ⟨x', hx', e⟩ := hm.mono r y hy (hi.ltR r x hx)
    rw [hx] at hx'; cases hx'
    rw [e hyv] at hv; cases hv
  refine ⟨key, fun ht => ?_⟩
  cases htf : target w f with
  | some r =>
    rw [htf] at ht
    obtain ⟨ref, hmem, hget, hp⟩ := target_ref ht
    obtain ⟨x, hx⟩ := hm.ci.ok.live r (refCount_pos hmem hp)
    have hn := key r htf
    simp only [refIsValid, hget, hp, Option.bind_eq_bind, Option.bind_some, hx, Option.map_some, Option.some.injEq]
    cases hv : x.valid with
    | false => rfl
    | true => exact absurd ⟨x, hx, hv⟩ hn
  | none =>
    rw [htf] at ht
    have hlt : f < w'.refs.length := by
      have h0 : f < w.refs.length := by
        by_contra hn
        simp [refIsValid, List.getElem?_eq_none (by omega : w.refs.length ≤ f)] at hf
      exact lt_of_lt_of_le h0 hm.len
    have h1 : w'.refs[f]? = some w'.refs[f] := List.getElem?_eq_getElem hlt
    simp only [target, h1, Option.bind_some] at ht
    simp only [refIsValid, h1, ht, Option.bind_eq_bind, Option.bind_some]

/-- The same for whole histories: a record that has been erased never comes back. -/
theorem C64_erased_never_returns {G G' : World K V Ty → Op K V Ty → Prop} {w w' : World K V Ty} (hw : Reach G w) (h : Later G' w w') {r : Nat} (ha : allocated w r)
    (hn : ¬ alive w r) : ¬ alive w' r := by
  obtain ⟨x, hx⟩ := ha
  have hi := reach_ci hw
  have hr := hi.ltR r x hx
  suffices H : CM w w' by
    rintro ⟨y, hy, hv⟩
    obtain ⟨x', hx', e⟩ := H.mono r y hy hr
    exact hn ⟨x', hx', e hv⟩
  induction h with
  | refl => exact .refl hi
  | step v v' env op _ _ hs ih => exact ih.trans (step_cm ih.ci hs)

example : refIsValid demoFreed 0 = some false ∧ refIsValid demoW 0 = some true := by decide

/-! ### Histories outside the ordinary ones in which full claims are false -/

/-- The history of `C11_refuted`: through a reference left over by a failed `GetRecord` on a set of vault 0, a record of vault 1 got a value
for a key of vault 0. -/
def strayOps : List DO := [.newVault, .newVault, .addKey 0 1 5, .addKey 1 2 6, .newRef, .createRecord 1 0 [], .newSet,
  .ask 0 1 (.gt 0) none (fun _ => true) 2, .setGetRecord 2 9 4 0, .refSetData 0 1 7]

/-- A copied vault accepts two records with the same value of a unique key. -/
theorem C14_refuted : ∃ w : DW, Reach (fun _ _ => True) w ∧ isVault w 1 = true ∧ members w 1 = [1, 2] ∧ 2 ∈ getUniqueKeys w 1 ∧ value w 1 2 = some 7 ∧ value w 2 2 = some 7 := by
  refine ⟨_, anyRun_reach (l := [.newVault, .addUniqueKey 0 2 false true (fun _ _ _ => 0), .newRef, .createRecord 0 0 [(2, 7)], .vaultCopyNew 0,
    .createRecord 1 0 [(2, 7)]]) rfl, ?_, ?_, ?_, ?_, ?_⟩ <;> decide

/-- A request on vault 0 returns a record of vault 1. -/
theorem C17_refuted : ∃ w w' : DW, Reach (fun _ _ => True) w ∧ isVault w 0 = true ∧ members w 0 = [] ∧ 0 ∈ members w 1 ∧
    ask Env.id w 0 1 (.gt 0) none (fun _ => true) 2 = some (w', .good (some 1)) ∧ members w' 2 = [0] := by
  refine ⟨_, _, anyRun_reach (l := strayOps) rfl, ?_, ?_, ?_, rfl, ?_⟩ <;> decide

/-- The ordered index of vault 0 holds a value of a record of vault 1; an interval request finds it. -/
theorem C21_refuted : ∃ w w' : DW, Reach (fun _ _ => True) w ∧ isVault w 0 = true ∧ members w 0 = [] ∧
    request Env.id w 0 .Interval 1 6 8 true true none (fun _ => true) 2 = some (w', .good (some 1)) ∧ members w' 2 = [0] := by
  refine ⟨_, _, anyRun_reach (l := strayOps) rfl, ?_, ?_, rfl, ?_⟩ <;> decide

/-- In a copied vault a new record is entered twice under a unique key, so a request with limit 2 returns one record although two
records match. -/
theorem C20_refuted : ∃ w w1 w2 : DW, Reach (fun _ _ => True) w ∧ isVault w 1 = true ∧ isSetObj w 2 = true ∧
    ask Env.id w 1 2 (.gt 0) (some 2) (fun _ => true) 2 = some (w1, .good (some 2)) ∧ ask Env.id w 1 2 (.gt 0) none (fun _ => true) 2 = some (w2, .good (some 2)) ∧
    members w1 2 = [2] ∧ members w2 2 = [2, 1] := by
  refine ⟨_, _, _, anyRun_reach (l := [.newVault, .addUniqueKey 0 2 false true (fun _ _ _ => 0), .newRef, .createRecord 0 0 [(2, 7)], .vaultCopyNew 0,
    .createRecord 1 0 [(2, 3)], .newSet]) rfl, ?_, ?_, rfl, rfl, ?_, ?_⟩ <;> decide

/-- `EraseRecord` on vault 0, which has no record, invalidates a record of vault 1, which stays in vault 1. -/
theorem C23_refuted : ∃ w w' : DW, Reach (fun _ _ => True) w ∧ isVault w 0 = true ∧ isVault w 1 = true ∧ members w 0 = [] ∧ members w 1 = [0] ∧
    refIsValid w 0 = some true ∧ eraseKV Env.id w 0 1 7 = some (w', .good (some 1)) ∧ members w' 1 = [0] ∧ refIsValid w' 0 = some false := by
  refine ⟨_, _, anyRun_reach (l := strayOps) rfl, ?_, ?_, ?_, ?_, ?_, rfl, ?_, ?_⟩ <;> decide

/-- The same operation, which is about vault 0, changes vault 1. -/
theorem C54_refuted : ∃ w w' : DW, Reach (fun _ _ => True) w ∧ isVault w 1 = true ∧ step Env.id w (.eraseKV 0 1 7) = some w' ∧
    touched w (.eraseKV 0 1 7 : DO) = [0] ∧ members w 1 = [0] ∧ refIsValid w 0 = some true ∧ refIsValid w' 0 = some false := by
  refine ⟨_, _, anyRun_reach (l := strayOps) rfl, ?_, rfl, ?_, ?_, ?_, ?_⟩ <;> decide

/-- After a vault has been moved from, its sets still name it as their parent: `DropData` on it leaves their records. -/
theorem C30_refuted : ∃ w w' : DW, Reach (fun _ _ => True) w ∧ isVault w 0 = true ∧ isSetObj w 1 = true ∧ parentOf w 1 = some 0 ∧
    dropData Env.id w 0 = some w' ∧ parentOf w' 1 = some 0 ∧ members w' 1 = [0] := by
  refine ⟨_, _, anyRun_reach (l := [.newVault, .addKey 0 1 5, .newRef, .createRecord 0 0 [], .newSet, .ask 0 1 (.gt 0) none (fun _ => true) 1, .vaultMoveNew 0]) rfl,
    ?_, ?_, ?_, rfl, ?_, ?_⟩ <;> decide

/-- The set of a moved vault has keys its parent does not have. -/
theorem C63_refuted : ∃ w : DW, Reach (fun _ _ => True) w ∧ isSetObj w 1 = true ∧ parentOf w 1 = some 0 ∧ isVault w 0 = true ∧ getKeyType w 0 1 = none ∧
    getKeyType w 1 1 = some false := by
  refine ⟨_, anyRun_reach (l := [.newVault, .addKey 0 1 5, .newSet, .ask 0 1 (.gt 0) none (fun _ => true) 1, .vaultMoveNew 0]) rfl, ?_, ?_, ?_, ?_, ?_⟩ <;> decide

/-- A change through a reference that works through vault 0 changes a record of its copy, vault 1: the reference was left at the copy's
record by a failed `GetRecord` on a set of vault 0. -/
theorem C36_refuted : ∃ w w' : DW, Reach (fun _ _ => True) w ∧ isVault w 1 = true ∧ members w 1 = [1] ∧ through w 1 = some 0 ∧
    refSetData Env.id w 1 1 7 = some (w', .good (some 1)) ∧ value w 1 1 = some 5 ∧ value w' 1 1 = some 7 := by
  refine ⟨_, _, anyRun_reach (l := [.newVault, .addKey 0 1 5, .newRef, .createRecord 0 0 [], .vaultCopyNew 0, .newRef, .getRecord 1 1 5 1, .newSet,
    .ask 0 1 (.gt 0) none (fun _ => true) 2, .setGetRecord 2 9 4 1]) rfl, ?_, ?_, ?_, rfl, ?_, ?_⟩ <;> decide

end MVault.W
