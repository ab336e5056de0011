import Verif.SizeModel
import Verif.PropsSets
import Verif.PropsErase
import Verif.PropsRecords
import Verif.PropsCareful
import Mathlib.Data.Finset.Card
import Mathlib.Data.Finset.Dedup
import Mathlib.Data.Finset.Lattice.Basic
/-
C118: `Size` is the number of different records the iteration gives, and it counts as numbers of elements do.
-/
set_option linter.unusedSectionVars false
set_option linter.unusedSimpArgs false
set_option linter.unusedVariables false
namespace MVault.W
variable {K V Ty : Type} [LinearOrder K] [LinearOrder V] [Typed V Ty] [DecidableEq Ty]

/-- `Size` of a vault, after any history: the number of records the iteration gives, and it gives none twice. -/
theorem C118_vault {G : World K V Ty → Op K V Ty → Prop} {w : World K V Ty} (hw : Reach G w) {o : Nat} (ho : isVault w o = true) :
    vaultSize w o = some (members w o).length ∧ (members w o).Nodup := by
  obtain ⟨vo, hvo, _⟩ := isVault_iff.mp ho
  exact ⟨by simp [vaultSize, members, hvo], (C31_no_duplicates_partial hw o).1⟩

/-- `Size` of a set in an ordinary history: likewise, also when the set has lost its vault (then 0), and it is always defined. -/
theorem C118_set {home : Nat → Nat} {w : World K V Ty} (hw : HReach Ordinary home w) {s : Nat} (hs : isSetObj w s = true) :
    setSize w s = some (members w s).length ∧ (members w s).Nodup ∧ (parentOf w s = none → setSize w s = some 0) := by
  obtain ⟨own, hi⟩ := reach_inv hw
  obtain ⟨so, hso, his⟩ := isSetObj_iff.mp hs
  obtain ⟨h1, h2⟩ := C31_no_duplicates_partial hw.any s
  rw [parentOf_eq hso]
  cases hp : so.parent with
  | none =>
    have : members w s = [] := h2 hs (by rw [parentOf_eq hso, hp])
    rw [this]
    refine ⟨by simp [setSize, hso, hp], List.nodup_nil, fun _ => by simp [setSize, hso, hp]⟩
  | some p =>
    obtain ⟨po, hpo, _⟩ := hi.l.up s so p hso his hp
    exact ⟨by simp [setSize, hso, hp, hpo, vaultSize, members], h1, fun h => by cases h⟩

/-- A set is never larger than its vault, in careful histories. -/
theorem C118_set_le_vault {home : Nat → Nat} {w : World K V Ty} (hw : HReach Careful home w) {s p : Nat} (hs : isSetObj w s = true) (hp : parentOf w s = some p) :
    ∃ m n, setSize w s = some m ∧ vaultSize w p = some n ∧ m ≤ n := by
  obtain ⟨h1, h2⟩ := C31_careful_partial hw hs
  have ho := Careful.ordinary hw
  obtain ⟨own, hi⟩ := reach_inv ho
  obtain ⟨so, hso, his⟩ := isSetObj_iff.mp hs
  obtain ⟨po, hpo, hps, _⟩ := hi.l.up s so p hso his (by rw [← parentOf_eq hso]; exact hp)
  have hv : isVault w p = true := isVault_iff.mpr ⟨po, hpo, hps⟩
  refine ⟨_, _, (C118_set ho hs).1, (C118_vault ho.any hv).1, ?_⟩
  refine (h1.subperm fun r hr => ?_).length_le
  obtain ⟨_, q, hq, _, hm⟩ := h2 r hr
  rw [hp] at hq; cases hq
  exact hm

/-- Care is needed: after a join, which does not tell the records about the set, the set is larger than its vault once a record is erased. -/
theorem C118_needs_care : ∃ w : DW, HReach Ordinary (fun _ => 0) w ∧ isSetObj w 2 = true ∧ parentOf w 2 = some 0 ∧ setSize w 2 = some 2 ∧ vaultSize w 0 = some 1 := by
  refine ⟨_, demo_reach (l := demoOps ++ [.ask 0 2 (.gt 0) none (fun _ => true) 1, .ask 0 2 (.gt 7) none (fun _ => true) 2, .setJoin 2 1, .eraseKV 0 2 7]) rfl,
    by decide, by decide, by decide, by decide⟩

/-- A record that is created counts one. -/
theorem C118_create {G : World K V Ty → Op K V Ty → Prop} {w w' : World K V Ty} (hw : Reach G w) {o : Nat} (ho : isVault w o = true)
    {ps : List (K × V)} {res : Res K} (h : createRow w o ps = some (w', res)) (hok : res.ok = true) {n : Nat} (hn : vaultSize w o = some n) :
    vaultSize w' o = some (n + 1) := by
  obtain ⟨r, _, _, hm, _⟩ := C13_createRow hw ho h hok
  rw [(C118_vault hw ho).1] at hn
  cases hn
  cases ho' : w'.getObj o with
  | none => simp [members, ho'] at hm
  | some vo' => rw [vaultSize, ho', ← List.length_singleton (a := r), ← List.length_append, ← hm, members_eq ho']; rfl

/-- The size falls by the number of records erased. -/
theorem ErasesExactly.size {w w' : World K V Ty} {o : Nat} {l : List Nat} (h : ErasesExactly w w' o l) (hl : l.Nodup) (hm : (members w o).Nodup) {n : Nat}
    (hn : n = (members w o).length) : ∃ n', vaultSize w' o = some n' ∧ n' + l.length = n := by
  obtain ⟨vo', hvo', _⟩ := isVault_iff.mp h.vault
  refine ⟨_, by rw [vaultSize, hvo', Option.map_some, ← members_eq hvo'], ?_⟩
  rw [h.left, hn]
  have hp : ((members w o).filter fun r => decide (r ∈ l)).Perm l := by
    rw [List.perm_ext_iff_of_nodup (hm.sublist List.filter_sublist) hl]
    intro r
    simp only [List.mem_filter, decide_eq_true_eq]
    exact ⟨fun x => x.2, fun x => ⟨h.sub r x, x⟩⟩
  rw [← hp.length_eq]
  have := List.length_eq_length_filter_add (l := members w o) (fun r => decide (r ∉ l))
  rw [this]
  congr 2
  refine List.filter_congr fun r _ => ?_
  by_cases hr : r ∈ l <;> simp [hr]

/-- `EraseRecord(ref)`: one less exactly if it answers true. -/
theorem C118_eraseRef {home : Nat → Nat} {w w' : World K V Ty} (hw : HReach Ordinary home w) {env : Env} {o f : Nat} {b : Bool} (ho : isVault w o = true)
    (h : eraseRef env w o f = some (w', b)) {n : Nat} (hn : vaultSize w o = some n) :
    ∃ n', vaultSize w' o = some n' ∧ n' + (if b = true then 1 else 0) = n := by
  obtain ⟨h1, h2⟩ := C118_vault hw.any ho
  rw [h1] at hn
  obtain ⟨_, c2, c3⟩ := C23_eraseRef_partial hw ho h
  cases b with
  | false => rw [c2 rfl]; exact ⟨_, h1, by simpa using hn⟩
  | true =>
    obtain ⟨r, _, he⟩ := c3 rfl
    obtain ⟨n', a, b⟩ := he.size (List.nodup_singleton r) h2 (Option.some.inj hn).symm
    exact ⟨n', a, by simpa using b⟩

/-- `EraseRecords`: less by at least one and by at most the given amount if it succeeds, otherwise unchanged. -/
theorem C118_eraseRecords {home : Nat → Nat} {w w' : World K V Ty} (hw : HReach Ordinary home w) {env : Env} {o m : Nat} {k : K} {v : V} {res : Res K} (ho : isVault w o = true)
    (h : eraseManyKV env w o k v m = some (w', res)) {n : Nat} (hn : vaultSize w o = some n) :
    ∃ n' d, vaultSize w' o = some n' ∧ n' + d = n ∧ (res.ok = false → d = 0) ∧ (res.ok = true → 1 ≤ d ∧ d ≤ max m 1) := by
  obtain ⟨h1, h2⟩ := C118_vault hw.any ho
  rw [h1] at hn
  obtain ⟨c1, c2⟩ := C23_eraseRecords_partial hw ho h
  cases hr : res.ok with
  | false => rw [c1 hr]; exact ⟨_, 0, h1, by simpa using hn, fun _ => rfl, fun h => by cases h⟩
  | true =>
    obtain ⟨l, l1, l2, l3, _, he⟩ := c2 hr
    obtain ⟨n', a, b⟩ := he.size l2 h2 (Option.some.inj hn).symm
    exact ⟨n', l.length, a, b, fun h => (by cases h), fun _ => ⟨List.length_pos_of_ne_nil l1, l3⟩⟩

/-- `DropData` leaves size 0, of the vault and of its sets. -/
theorem C118_dropData {home : Nat → Nat} {w w' : World K V Ty} (hw : HReach Ordinary home w) {env : Env} {o : Nat} (ho : isVault w o = true)
    (h : dropData env w o = some w') : vaultSize w' o = some 0 ∧ ∀ s, isSetObj w s = true → parentOf w s = some o → vaultSize w' s = some 0 := by
  obtain ⟨h1, h2, h3⟩ := C30_dropData_partial hw ho h
  refine ⟨?_, fun s hs hp => ?_⟩
  · obtain ⟨vo, hvo, _⟩ := isVault_iff.mp h1.vault
    rw [vaultSize, hvo, Option.map_some, ← members_eq hvo, h2]; rfl
  · obtain ⟨a, _, b⟩ := h3 s hs hp
    obtain ⟨so, hso, _⟩ := isSetObj_iff.mp a
    rw [vaultSize, hso, Option.map_some, ← members_eq hso, b]; rfl

/-! ### Sizes of joins and intersections -/

theorem size_card {l : List Nat} (h : l.Nodup) : l.length = l.toFinset.card := (List.toFinset_card_of_nodup h).symm

theorem size_step {home : Nat → Nat} {w w' : World K V Ty} (hw : HReach Ordinary home w) {env : Env} {op : Op K V Ty} (hg : Ordinary home w op) {a : Answer K}
    (h : outcome env w op = some (w', a)) : HReach Ordinary home w' := .step _ _ env op hw hg (by rw [← outcome_step, h]; rfl)

/-- The union of two sets and their intersection have together as many records as the two sets: both computed from the same state,
each into a set of its own. -/
theorem C118_union_intersection {home : Nat → Nat} {w w1 w2 : World K V Ty} (hw : HReach Ordinary home w) {env : Env} {a b s t : Nat} {res res' : Res K}
    (g1 : Ordinary home w (.setUnion a b s)) (g2 : Ordinary home w (.setIntersection a b t))
    (h1 : outcome env w (.setUnion a b s) = some (w1, .res res)) (h2 : outcome env w (.setIntersection a b t) = some (w2, .res res'))
    (ok1 : res.ok = true) (ok2 : res'.ok = true) (hs : isSetObj w1 s = true) (ht : isSetObj w2 t = true) (ha : isSetObj w a = true) (hb : isSetObj w b = true) :
    ∃ m n u v, setSize w1 s = some m ∧ setSize w2 t = some n ∧ setSize w a = some u ∧ setSize w b = some v ∧ m + n = u + v := by
  obtain ⟨e1, n1, _⟩ := C118_set (size_step hw g1 h1) hs
  obtain ⟨e2, n2, _⟩ := C118_set (size_step hw g2 h2) ht
  obtain ⟨e3, n3, _⟩ := C118_set hw ha
  obtain ⟨e4, n4, _⟩ := C118_set hw hb
  obtain ⟨u1, _⟩ := C32_union hw.any h1 ok1
  obtain ⟨i1, _⟩ := C32_intersection hw.any h2 ok2
  refine ⟨_, _, _, _, e1, e2, e3, e4, ?_⟩
  rw [size_card n1, size_card n2, size_card n3, size_card n4, ← Finset.card_union_add_card_inter (members w a).toFinset (members w b).toFinset]
  congr 2
  · ext r; simp [u1]
  · ext r; simp [i1]

/-- Excluding a set takes away as many records as the two have in common. -/
theorem C118_exclude_intersection {home : Nat → Nat} {w w1 w2 : World K V Ty} (hw : HReach Ordinary home w) {env : Env} {a b t : Nat} {res res' : Res K}
    (g1 : Ordinary home w (.setExclude a b)) (g2 : Ordinary home w (.setIntersection a b t))
    (h1 : outcome env w (.setExclude a b) = some (w1, .res res)) (h2 : outcome env w (.setIntersection a b t) = some (w2, .res res'))
    (ok1 : res.ok = true) (ok2 : res'.ok = true) (hs : isSetObj w1 a = true) (ht : isSetObj w2 t = true) (ha : isSetObj w a = true) :
    ∃ m n u, setSize w1 a = some m ∧ setSize w2 t = some n ∧ setSize w a = some u ∧ m + n = u := by
  obtain ⟨e1, n1, _⟩ := C118_set (size_step hw g1 h1) hs
  obtain ⟨e2, n2, _⟩ := C118_set (size_step hw g2 h2) ht
  obtain ⟨e3, n3, _⟩ := C118_set hw ha
  have x1 := C32_exclude h1 ok1
  obtain ⟨i1, _⟩ := C32_intersection hw.any h2 ok2
  refine ⟨_, _, _, e1, e2, e3, ?_⟩
  rw [size_card n1, size_card n2, size_card n3, ← Finset.card_sdiff_add_card_inter (members w a).toFinset (members w b).toFinset]
  congr 2
  · ext r; simp [x1]
  · ext r; simp [i1]

/-! ### Concrete cases -/

example : vaultSize carefulW 0 = some 2 ∧ setSize carefulW 1 = some 2 ∧ setSize carefulW 2 = some 1 ∧ isSetObj carefulW 2 = true ∧ parentOf carefulW 2 = some 0 := by decide
example : ∃ w' res, createRow carefulW 0 [] = some (w', res) ∧ res.ok = true ∧ vaultSize w' 0 = some 3 := ⟨_, _, rfl, by decide, by decide⟩
example : ∃ w', eraseRef Env.id carefulW 0 1 = some (w', true) ∧ vaultSize w' 0 = some 1 := ⟨_, rfl, by decide⟩
example : ∃ w1 w2 r1 r2, outcome Env.id carefulW (.setUnion 1 2 3) = some (w1, .res r1) ∧ outcome Env.id carefulW (.setIntersection 1 2 3) = some (w2, .res r2) ∧
    r1.ok = true ∧ r2.ok = true ∧ setSize w1 3 = some 2 ∧ setSize w2 3 = some 1 := ⟨_, _, _, _, rfl, rfl, by decide, by decide, by decide, by decide⟩
example : ∃ w1 r1, outcome Env.id carefulW (.setExclude 1 2) = some (w1, .res r1) ∧ r1.ok = true ∧ setSize w1 1 = some 1 := ⟨_, _, rfl, by decide, by decide⟩

end MVault.W
