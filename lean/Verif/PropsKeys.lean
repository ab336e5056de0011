import Verif.WorldKeys
import Verif.PropsVault
/-
C12, C26-C29: the key functions. `Reach G w` without a condition on `G`: any history whatever.
-/
set_option linter.unusedSectionVars false
set_option linter.unusedSimpArgs false
namespace MVault.W
variable {K V Ty : Type} [LinearOrder K] [LinearOrder V] [Typed V Ty] [DecidableEq Ty]

/-! ### C12 -/

/-- After any history: `GetKeys` lists every key once; `IsKeyExist`, `GetKeyType` and `GetKeys` agree; `GetUniqueKeys` is
sorted without repetitions and lists keys only. -/
theorem C12_key_list {G : World K V Ty → Op K V Ty → Prop} {w : World K V Ty} (hw : Reach G w) {o : Nat} (ho : isVault w o = true) :
    (getKeys w o).Nodup ∧ (∀ k, k ∈ getKeys w o ↔ isKeyExist w o k = true) ∧ (∀ k, k ∈ getKeys w o ↔ ∃ t, getKeyType w o k = some t) ∧
    (getUniqueKeys w o).Pairwise (· < ·) ∧ ∀ k ∈ getUniqueKeys w o, k ∈ getKeys w o := by
  have hi := reach_ai hw
  obtain ⟨vo, hvo, hs⟩ := isVault_iff.mp ho
  obtain ⟨_, _, ok⟩ := (hi.obj o vo hvo).vault hs
  rw [getKeys_eq hvo, getUniqueKeys_eq hvo]
  refine ⟨ok.nodup, fun k => ?_, fun k => ?_, ok.uniqS, fun k hk => ?_⟩
  · rw [ok.mem, isKeyExist_eq hvo, mhas]
    cases hk : mget vo.cols k with
    | none => simp [ok.tmplN k hk]
    | some c => obtain ⟨v, hv, _⟩ := ok.tmplT k c hk; simp [hv]
  · rw [ok.mem, getKeyType_eq hvo]
    cases hk : mget vo.cols k <;> simp
  · obtain ⟨c, hc⟩ := ok.uniqM k hk
    exact (ok.mem k).mpr ⟨c, hc⟩

/-- A vault has no keys when it is created. -/
theorem C12_new_vault (w : World K V Ty) : getKeys (newVault w) w.nextO = [] ∧ getUniqueKeys (newVault w) w.nextO = [] := by
  rw [getKeys_eq (newVault_obj w), getUniqueKeys_eq (newVault_obj w)]; exact ⟨rfl, rfl⟩

/-- `AddKey` that succeeds appends the key to the list and does not make it unique; it fails exactly when the key exists, and
then changes nothing. -/
theorem C12_addKey {G : World K V Ty → Op K V Ty → Prop} {env : Env} {w w' : World K V Ty} (hw : Reach G w) {o : Nat} (ho : isVault w o = true)
    {k : K} {d : V} {res : Res K} (h : addKey env w o k d = some (w', res)) :
    (k ∉ getKeys w o → res = .good (some k) ∧ getKeys w' o = getKeys w o ++ [k] ∧ getUniqueKeys w' o = getUniqueKeys w o ∧
      ∀ k', getKeyType w' o k' = if k' = k then some (typeOf d) else getKeyType w o k') ∧
    (k ∈ getKeys w o → res = .bad .DuplicateKey (some k) ∧ w' = w) := by
  have hi := reach_ai hw
  obtain ⟨vo, hvo, hs⟩ := isVault_iff.mp ho
  obtain ⟨hb, _, ok⟩ := (hi.obj o vo hvo).vault hs
  rw [getKeys_eq hvo]
  rcases addKey_any hi hvo hs h with ⟨rfl, rfl, hk⟩ | ⟨rfl, hk, y, c, hy, hys, hc, ks⟩
  · exact ⟨fun hn => absurd ((ok.mem k).mpr hk) hn, fun _ => ⟨rfl, rfl⟩⟩
  · refine ⟨fun _ => ⟨rfl, ?_⟩, fun hm => by rw [ok.mem, hk] at hm; simp at hm⟩
    obtain ⟨e1, e2, e3, _⟩ := ks.keys hy
    rw [e1, e2, getUniqueKeys_eq hvo]
    refine ⟨by simp only [Obj.withKey, if_pos hb], by simp [Obj.withKey], fun k' => ?_⟩
    rw [e3, getKeyType_eq hvo]
    simp only [Obj.withKey, mget_mput, eq_comm (a := k) (b := k')]
    split
    · simp [hc]
    · rfl

/-- `AddUniqueKey` that succeeds appends the key to the list and makes it unique; one that fails changes nothing. -/
theorem C12_addUniqueKey {G : World K V Ty → Op K V Ty → Prop} {env : Env} {w w' : World K V Ty} (hw : Reach G w) {o : Nat} (ho : isVault w o = true)
    {k : K} {t : Ty} {noFn : Bool} {f : Nat → Nat → Nat → V} {res : Res K} (h : addUniqueKey env w o k t noFn f = some (w', res)) :
    (res.ok = true → res = .good (some k) ∧ getKeys w' o = getKeys w o ++ [k] ∧ (∀ k', k' ∈ getUniqueKeys w' o ↔ k' = k ∨ k' ∈ getUniqueKeys w o) ∧
      k ∉ getKeys w o ∧ ∀ k', getKeyType w' o k' = if k' = k then some t else getKeyType w o k') ∧
    (res.ok = false → w' = w) := by
  have hi := reach_ai hw
  obtain ⟨vo, hvo, hs⟩ := isVault_iff.mp ho
  obtain ⟨hb, _, ok⟩ := (hi.obj o vo hvo).vault hs
  rw [getKeys_eq hvo]
  rcases addUniqueKey_any hi hvo hs h with ⟨rfl, hr⟩ | ⟨rfl, hk, y, c, hy, hys, hc, ks⟩
  · exact ⟨(fun hn => by rw [hr] at hn; cases hn), fun _ => rfl⟩
  · refine ⟨fun _ => ⟨rfl, ?_⟩, fun hm => by simp [Res.good] at hm⟩
    obtain ⟨e1, e2, e3, _⟩ := ks.keys hy
    rw [e1, e2, getUniqueKeys_eq hvo]
    refine ⟨by simp only [Obj.withKey, if_pos hb], ?_, by rw [ok.mem, hk]; simp, fun k' => ?_⟩
    · intro k'; simp only [Obj.withKey, if_true, mem_uniqIns]
    · rw [e3, getKeyType_eq hvo]
      simp only [Obj.withKey, mget_mput, eq_comm (a := k) (b := k')]
      split
      · simp [hc]
      · rfl

/-- `RemoveKey` removes exactly the key from both lists; it answers false exactly when there is no such key, and then changes
nothing. -/
theorem C12_removeKey {G : World K V Ty → Op K V Ty → Prop} {env : Env} {w w' : World K V Ty} (hw : Reach G w) {o : Nat} (ho : isVault w o = true)
    {k : K} {b : Bool} (h : removeKey env w o k = some (w', b)) :
    (k ∈ getKeys w o → b = true ∧ getKeys w' o = (getKeys w o).erase k ∧ getUniqueKeys w' o = (getUniqueKeys w o).filter (· ≠ k) ∧
      ∀ k', getKeyType w' o k' = if k' = k then none else getKeyType w o k') ∧
    (k ∉ getKeys w o → b = false ∧ w' = w) := by
  have hi := reach_ai hw
  obtain ⟨vo, hvo, hs⟩ := isVault_iff.mp ho
  obtain ⟨hb, _, ok⟩ := (hi.obj o vo hvo).vault hs
  rw [getKeys_eq hvo, getUniqueKeys_eq hvo]
  rcases removeKey_any hi hvo hs h with ⟨rfl, rfl, hk⟩ | ⟨rfl, hk, y, hy, hys, ks⟩
  · exact ⟨fun hm => by rw [ok.mem, hk] at hm; simp at hm, fun _ => ⟨rfl, rfl⟩⟩
  · refine ⟨fun _ => ⟨rfl, ?_⟩, fun hn => absurd ((ok.mem k).mpr hk) hn⟩
    obtain ⟨e1, e2, e3, _⟩ := ks.keys hy
    rw [e1, e2]
    refine ⟨rfl, rfl, fun k' => ?_⟩
    rw [e3, getKeyType_eq hvo]
    simp only [Obj.withoutKey, mget_mdel, eq_comm (a := k) (b := k')]
    split <;> rfl

/-- `DropVault` removes all keys. -/
theorem C12_dropVault {env : Env} {w w' : World K V Ty} {o : Nat} (h : dropVault env w o = some w') :
    getKeys w' o = [] ∧ getUniqueKeys w' o = [] ∧ ∀ k, getKeyType w' o k = none := by
  simp only [dropVault, dropCore, Option.bind_eq_bind, Option.bind_eq_some_iff] at h
  obtain ⟨vo, hvo, w1, h1, vo1, hvo1, w2, h2, h⟩ := h
  cases h
  have hy := getObj_putObj_self w2 o { vo1 with tmpl := [], cols := [], keysOrder := [], uniq := [], recs := [], sets := [] }
  rw [getKeys_eq hy, getUniqueKeys_eq hy]
  exact ⟨rfl, rfl, fun k => by rw [getKeyType_eq hy]; rfl⟩

/-- A copy of a vault (copy constructor) has the same keys in the same order with the same types. -/
theorem C12_copy {G : World K V Ty → Op K V Ty → Prop} {env : Env} {w w' : World K V Ty} (hw : Reach G w) {a : Nat} (ha : isVault w a = true)
    (h : vaultCopyNew env w a = some w') :
    getKeys w' w.nextO = getKeys w a ∧ getUniqueKeys w' w.nextO = getUniqueKeys w a ∧ ∀ k, getKeyType w' w.nextO k = getKeyType w a k := by
  have hi := reach_ai hw
  obtain ⟨ao, hao, has⟩ := isVault_iff.mp ha
  have hne : a ≠ w.nextO := Nat.ne_of_lt (hi.objB a ao hao)
  have hao1 : (newVault w).getObj a = some ao := by
    unfold newVault World.getObj; simp only [mget_mput]; rw [if_neg (Ne.symm hne)]; exact hao
  obtain ⟨y, hy, e1, e2, e3, e4⟩ := copyInto_keys (newVault_st (t := [w.nextO]) hi (by simp)).ai (newVault_obj w) rfl hao1 has rfl rfl rfl h
  refine ⟨by rw [getKeys_eq hy, getKeys_eq hao, e1], by rw [getUniqueKeys_eq hy, getUniqueKeys_eq hao, e2], fun k => ?_⟩
  rw [getKeyType_eq hy, getKeyType_eq hao, e3]

/-- All other operations leave the keys of every vault alone: an operation may change the keys, types and defaults only of
the vaults that `keyOps` names (the vault whose keys are added, updated or removed, that is dropped, destroyed, copied or moved into,
or moved from). -/
theorem C12_only_key_operations {G : World K V Ty → Op K V Ty → Prop} {env : Env} {w w' : World K V Ty} {op : Op K V Ty} (hw : Reach G w)
    (h : step env w op = some w') {o : Nat} (ho : isVault w o = true) (hn : o ∉ keyOps w op) :
    isVault w' o = true ∧ getKeys w' o = getKeys w o ∧ getUniqueKeys w' o = getUniqueKeys w o ∧ (∀ k, getKeyType w' o k = getKeyType w o k) ∧
      ∀ k, getDefault w' o k = getDefault w o k := by
  have hi := reach_ai hw
  obtain ⟨vo, hvo, hs⟩ := isVault_iff.mp ho
  obtain ⟨y, hy, hys, ks⟩ := (step_any hi h).same o vo hvo hs hn
  obtain ⟨e1, e2, e3, e4⟩ := ks.keys hy
  refine ⟨isVault_iff.mpr ⟨y, hy, hys⟩, by rw [e1, getKeys_eq hvo], by rw [e2, getUniqueKeys_eq hvo], fun k => ?_, fun k => ?_⟩
  · rw [e3, getKeyType_eq hvo]
  · rw [e4, getDefault_eq hvo]

example : isVault demoW 0 = true ∧ getKeys demoW 0 = [1, 2] ∧ getUniqueKeys demoW 0 = [2] ∧ 0 ∉ keyOps demoW (.eraseKV 0 1 5) ∧
    (step Env.id demoW (.eraseKV 0 1 5)).isSome = true := by decide
example : ∃ w' w'' w3, addKey Env.id demoW 0 3 101 = some (w', .good (some 3)) ∧ getKeys w' 0 = [1, 2, 3] ∧
    removeKey Env.id w' 0 1 = some (w'', true) ∧ getKeys w'' 0 = [2, 3] ∧
    vaultCopyNew Env.id w'' 0 = some w3 ∧ getKeys w3 3 = [2, 3] := ⟨_, _, _, rfl, rfl, rfl, rfl, rfl, rfl⟩

/-! ### C26 -/

/-- `UpdateKey` on a vault, in any state: the answer is determined by the keys, and a successful call changes nothing but the
default of the key - no record, reference, set, index (`Obj.cols`) or other vault. -/
theorem C26_updateKey {G : World K V Ty → Op K V Ty → Prop} {w w' : World K V Ty} (hw : Reach G w) {o : Nat} (ho : isVault w o = true)
    {k : K} {d : V} {res : Res K} (h : updateKey w o k d = some (w', res)) :
    res = (if getKeyType w o k = none then .bad .WrongKey (some k) else if getKeyType w o k ≠ some (typeOf d) then .bad .WrongType (some k)
      else if k ∈ getUniqueKeys w o then .bad .UniqueKey (some k) else .good (some k)) ∧
    (res.ok = false → w' = w) ∧
    (res.ok = true → (∀ k', getDefault w' o k' = if k' = k then some d else getDefault w o k') ∧
      w'.recs = w.recs ∧ w'.refs = w.refs ∧ (∀ o', o' ≠ o → w'.getObj o' = w.getObj o') ∧
      members w' o = members w o ∧ getKeys w' o = getKeys w o ∧ getUniqueKeys w' o = getUniqueKeys w o ∧ (∀ k', getKeyType w' o k' = getKeyType w o k') ∧
      (w'.getObj o).map Obj.cols = (w.getObj o).map Obj.cols) := by
  have hi := reach_ai hw
  obtain ⟨vo, hvo, hs⟩ := isVault_iff.mp ho
  simp only [updateKey, hvo, checkKey, Option.bind_eq_bind, Option.bind_some] at h
  rw [getKeyType_eq hvo, getUniqueKeys_eq hvo]
  cases hk : mget vo.cols k with
  | none => rw [hk] at h; cases h; exact ⟨by simp, fun _ => rfl, by simp [Res.bad]⟩
  | some c =>
    rw [hk] at h; dsimp only at h
    by_cases hty : c.ty = typeOf d
    · rw [if_neg (by simp [hty])] at h; dsimp only at h
      by_cases hu : k ∈ vo.uniq
      · rw [if_pos hu] at h; cases h; exact ⟨by simp [hty, hu], fun _ => rfl, by simp [Res.bad]⟩
      · rw [if_neg hu] at h; cases h
        refine ⟨by simp [hty, hu], by simp [Res.good], fun _ => ?_⟩
        have hy := getObj_putObj_self w o { vo with tmpl := mput vo.tmpl k d }
        refine ⟨fun k' => ?_, rfl, rfl, fun o' hne => by rw [getObj_putObj, if_neg (Ne.symm hne)], ?_, ?_, ?_, fun k' => ?_, ?_⟩
        · rw [getDefault_eq hy, getDefault_eq hvo]; simp only [mget_mput, eq_comm (a := k) (b := k')]
        · rw [members_eq hy, members_eq hvo]
        · rw [getKeys_eq hy, getKeys_eq hvo]
        · rw [getUniqueKeys_eq hy]
        · rw [getKeyType_eq hy, getKeyType_eq hvo]
        · rw [hy, hvo]; rfl
    · rw [if_pos hty] at h; cases h; exact ⟨by simp [hty], fun _ => rfl, by simp [Res.bad]⟩

example : ∃ w', updateKey demoW 0 1 9 = some (w', .good (some 1)) ∧ getDefault demoW 0 1 = some 5 ∧ getDefault w' 0 1 = some 9 ∧ value w' 0 1 = some 5 ∧
    updateKey demoW 0 2 9 = some (demoW, .bad .UniqueKey (some 2)) := ⟨_, rfl, rfl, rfl, rfl, rfl⟩

/-! ### C27 -/

/-- `RemoveKey` of an existing key, after any history: no record of the vault has a value for the key any more, the vault
answers `WrongKey` for it, and nothing else changes: not the other values of any record, the members and validity of anything,
nor the indices of the other keys (`indexOf`). -/
theorem C27_removeKey {G : World K V Ty → Op K V Ty → Prop} {env : Env} {w w' : World K V Ty} (hw : Reach G w) {o : Nat} (ho : isVault w o = true)
    {k : K} (hk : k ∈ getKeys w o) {b : Bool} (h : removeKey env w o k = some (w', b)) :
    b = true ∧ (∀ r ∈ members w o, value w' r k = none) ∧ (∀ r k', k' ≠ k → value w' r k' = value w r k') ∧
    (∀ o', members w' o' = members w o') ∧ (∀ r, alive w' r ↔ alive w r) ∧ w'.refs = w.refs ∧
    (∀ o' k', k' ≠ k → indexOf w' o' k' = indexOf w o' k') ∧
    k ∉ getKeys w' o ∧ k ∉ getUniqueKeys w' o ∧ isKeyExist w' o k = false ∧ getKeyType w' o k = none ∧
    (∀ env' v f w'' res, getRecord env' w' o k v f = some (w'', res) → res = .bad .WrongKey (some k)) ∧
    (∀ env' v n w'' res, getRecords env' w' o k v n = some (w'', res) → res = .bad .WrongKey (some k)) := by
  have hi := reach_ai hw
  have hkl := C12_key_list hw ho
  obtain ⟨vo, hvo, hs⟩ := isVault_iff.mp ho
  have hk0 := ((C12_removeKey hw ho h).1 hk)
  have ok := ((hi.obj o vo hvo).vault hs).2.2
  simp only [removeKey, hvo, Option.bind_eq_bind, Option.bind_some] at h
  have hks : mhas vo.cols k = true := by
    rw [getKeys_eq hvo, ok.mem] at hk
    obtain ⟨c, hc⟩ := hk; simp [mhas, hc]
  rw [if_neg (by simp [hks])] at h
  simp only [Option.bind_eq_some_iff, Option.some.injEq, Prod.mk.injEq] at h
  obtain ⟨w2, h2, w3, h3, rfl, rfl⟩ := h
  have f2 := (withoutKey_kf (k := k) hvo).trans (KeyFrame.loop (fun _ _ _ h => dropCell_kf h) _ h2)
  have f3 := f2.trans (KeyFrame.loop (fun _ _ _ h => (removeKeyLocal_kf h).1) _ h3)
  have e2 : w2.getObj o = some (vo.withoutKey k) := by
    unfold World.getObj; rw [loop_objs (fun _ _ _ h => dropCell_objs h) _ h2]; exact getObj_putObj_self _ _ _
  have e3 : w3.getObj o = some (vo.withoutKey k) := by
    rw [loop_other (fun _ _ _ hne h => (removeKeyLocal_kf h).2.1 _ (Ne.symm hne)) _ (not_own_set hi hvo hs env) h3]; exact e2
  have er : w3.recs = w2.recs := loop_inv (fun w1 => w1.recs = w2.recs) _ _ _ _ (fun a _ b b' hb hh => (removeKeyLocal_kf hh).2.2.2.trans hb) rfl h3
  have hnone : mget (vo.withoutKey k).cols k = none := by simp [Obj.withoutKey, mget_mdel]
  refine ⟨rfl, ?_, fun r k' hne => f3.value r hne, f3.members, f3.alive, f3.refs, fun o' k' hne => f3.index o' hne, ?_, ?_, ?_, ?_, ?_, ?_⟩
  · intro r hr
    rw [members_eq hvo] at hr
    have : value w2 r k = none := loop_dropCell_value _ h2 r (.inl ((env.isPerm _).mem_iff.mpr hr))
    unfold value World.getRec at this ⊢; rw [er]; exact this
  · rw [getKeys_eq e3]; show k ∉ vo.keysOrder.erase k
    rw [ok.nodup.mem_erase_iff]; simp
  · rw [getUniqueKeys_eq e3]; simp [Obj.withoutKey]
  · rw [isKeyExist_eq e3, mhas_false]; simp [Obj.withoutKey, mget_mdel]
  · rw [getKeyType_eq e3, hnone]; rfl
  · intro env' v f w'' res hg
    simp only [getRecord, e3, checkKey, hnone, Option.bind_eq_bind, Option.bind_some] at hg
    cases hg; rfl
  · intro env' v n w'' res hg
    simp only [getRecords, e3, checkKey, hnone, Option.bind_eq_bind, Option.bind_some] at hg
    cases hg; rfl

/-- ... and no set of the vault knows the key any more. Missing for the full claim: histories with operations that are not
ordinary, where a set can have the vault as its parent without the vault knowing it (`C27_sets_refuted`). -/
theorem C27_sets_partial {home : Nat → Nat} {env : Env} {w w' : World K V Ty} (hw : HReach Ordinary home w) {o : Nat} (ho : isVault w o = true)
    {k : K} (hk : k ∈ getKeys w o) {b : Bool} (h : removeKey env w o k = some (w', b)) {s : Nat} (hs : parentOf w s = some o) (hss : isVault w s = false) :
    parentOf w' s = some o ∧ getKeyType w' s k = none ∧ ∀ k', k' ≠ k → getKeyType w' s k' = getKeyType w s k' := by
  obtain ⟨own, hinv⟩ := reach_inv hw
  have hi := reach_ai hw.any
  obtain ⟨vo, hvo, hos⟩ := isVault_iff.mp ho
  obtain ⟨so, hso⟩ : ∃ so, w.getObj s = some so := by
    unfold parentOf at hs; split at hs
    · exact ⟨_, by assumption⟩
    · cases hs
  have hsos : so.isSet = true := by
    cases e : so.isSet with
    | true => rfl
    | false => rw [isVault_iff.mpr ⟨so, hso, e⟩] at hss; cases hss
  rw [parentOf_eq hso] at hs
  obtain ⟨po, hpo, _, hm⟩ := hinv.l.up s so o hso hsos hs
  rw [hvo] at hpo; cases hpo
  have ok := ((hi.obj o vo hvo).vault hos).2.2
  simp only [removeKey, hvo, Option.bind_eq_bind, Option.bind_some] at h
  have hks : mhas vo.cols k = true := by
    rw [getKeys_eq hvo, ok.mem] at hk
    obtain ⟨c, hc⟩ := hk; simp [mhas, hc]
  rw [if_neg (by simp [hks])] at h
  simp only [Option.bind_eq_some_iff, Option.some.injEq, Prod.mk.injEq] at h
  obtain ⟨w2, h2, w3, h3, rfl, rfl⟩ := h
  have f3 := (withoutKey_kf (k := k) hvo).trans ((KeyFrame.loop (fun _ _ _ h => dropCell_kf h) _ h2).trans
    (KeyFrame.loop (fun _ _ _ h => (removeKeyLocal_kf h).1) _ h3))
  obtain ⟨y, hy, _, e2, _, _, _, e6⟩ := f3.objTo s so hso
  refine ⟨by rw [parentOf_eq hy, e2, hs], ?_, fun k' hne => by rw [getKeyType_eq hy, getKeyType_eq hso, e6 k' hne]⟩
  have := loop_removeKeyLocal_index _ h3 s (.inl ((env.isPerm _).mem_iff.mpr hm))
  unfold indexOf at this
  rw [hy] at this
  rw [getKeyType_eq hy]
  have h' : mget y.cols k = none := this
  rw [h']; rfl

/-- Without the restriction to ordinary operations the sets can keep the key: vault 0 with key 1 and set 1 is moved to vault
2; the old vault then adds and removes key 1 again, and its set still knows the key. -/
theorem C27_sets_refuted : ∃ w w' : DW, Reach (fun _ _ => True) w ∧ isVault w 0 = true ∧ isVault w 1 = false ∧ parentOf w 1 = some 0 ∧
    1 ∈ getKeys w 0 ∧ removeKey Env.id w 0 1 = some (w', true) ∧ parentOf w' 1 = some 0 ∧ getKeyType w' 1 1 = some false := by
  refine ⟨_, _, anyRun_reach (l := [.newVault, .addKey 0 1 5, .newSet, .ask 0 1 (.eq 5) none (fun _ => true) 1, .vaultMoveNew 0, .addKey 0 1 5]) rfl,
    ?_, ?_, ?_, ?_, rfl, ?_, ?_⟩ <;> decide

/-- A set of the vault with both records. -/
def demoSet : DW := (demo (demoOps ++ [.ask 0 2 (.gt 0) none (fun _ => true) 1])).getD World.empty
theorem demoSet_reach : HReach Ordinary (fun _ => 0) demoSet := demo_reach (l := demoOps ++ [.ask 0 2 (.gt 0) none (fun _ => true) 1]) rfl
example : isVault demoSet 0 = true ∧ 1 ∈ getKeys demoSet 0 ∧ parentOf demoSet 1 = some 0 ∧ isVault demoSet 1 = false ∧ members demoSet 1 = [0, 1] ∧
    getKeyType demoSet 1 1 = some false ∧ value demoSet 0 1 = some 5 ∧ (removeKey Env.id demoSet 0 1).isSome = true := by decide

/-! ### C28 -/

/-- `AddKey` of a new key, after any history: every record of the vault has the default for it, later records get it, looking
the default up finds exactly the records of the vault, and nothing else changes. An existing key is refused and nothing
changes. -/
theorem C28_addKey {G : World K V Ty → Op K V Ty → Prop} {env : Env} {w w' : World K V Ty} (hw : Reach G w) {o : Nat} (ho : isVault w o = true)
    {k : K} {d : V} {res : Res K} (h : addKey env w o k d = some (w', res)) :
    (k ∈ getKeys w o → res = .bad .DuplicateKey (some k) ∧ w' = w) ∧
    (k ∉ getKeys w o → res = .good (some k) ∧
      (∀ r ∈ members w o, value w' r k = some d) ∧ getDefault w' o k = some d ∧ getKeyType w' o k = some (typeOf d) ∧
      (∀ r k', k' ≠ k → value w' r k' = value w r k') ∧ (∀ o', members w' o' = members w o') ∧ (∀ r, alive w' r ↔ alive w r) ∧ w'.refs = w.refs ∧
      (∀ o' k', k' ≠ k → indexOf w' o' k' = indexOf w o' k') ∧
      (∀ env' n w'' res', getRecords env' w' o k d n = some (w'', res') → (members w o).length ≤ n →
        ∃ l : List Nat, w''.refs = w'.refs ++ l.map (fun r => ⟨some r, some o⟩) ∧ l.Perm (members w o) ∧ (res'.ok = true ↔ members w o ≠ []))) := by
  have hc12 := C12_addKey hw ho h
  refine ⟨hc12.2, fun hn => ?_⟩
  have hi := reach_ai hw
  obtain ⟨vo, hvo, hs⟩ := isVault_iff.mp ho
  obtain ⟨hb, _, ok⟩ := (hi.obj o vo hvo).vault hs
  simp only [addKey, hvo, Option.bind_eq_bind, Option.bind_some, Option.bind_eq_some_iff, Prod.exists] at h
  obtain ⟨w1, res1, h1, h⟩ := h
  have f1 := addKeyLocal_kf h1
  have v1 := fun r hr => addKeyLocal_value h1 (r := r) hr
  have h1' := h1
  have hk : mget vo.cols k = none := by
    rw [getKeys_eq hvo, ok.mem] at hn
    cases e : mget vo.cols k with
    | none => rfl
    | some c => exact absurd ⟨c, e⟩ hn
  simp only [addKeyLocal, hvo, Option.bind_eq_bind, Option.bind_some] at h1'
  rw [if_neg (by simp [mhas, hk])] at h1'
  simp only [Option.bind_eq_some_iff, Option.some.injEq, Prod.mk.injEq] at h1'
  obtain ⟨w0, h0, rfl, rfl⟩ := h1'
  simp only [Res.good, Bool.true_eq_false, if_false, Option.bind_eq_some_iff, Option.some.injEq, Prod.mk.injEq] at h
  obtain ⟨w2, h2, rfl, rfl⟩ := h
  generalize hcol : (env.perm vo.recs).foldl (fun c r => (c.add d r).1) (⟨typeOf d, true, d, [], [], false, false⟩ : Col V Ty) = col at h2 f1 h1 v1
  have hbody : ∀ (a b : World K V Ty) (s : Nat), ((addKeyLocal env a s k d).bind fun x => pushKey k x.1 s) = some b →
      KeyFrame k a b ∧ (∀ o', o' ≠ s → b.getObj o' = a.getObj o') ∧ ∀ r, value a r k = some d → value b r k = some d := by
    intro a b s hh
    simp only [Option.bind_eq_some_iff, Prod.exists] at hh
    obtain ⟨a1, ra, hh1, hh2⟩ := hh
    obtain ⟨g1, g2⟩ := addKeyLocal_kf hh1
    obtain ⟨p1, p2⟩ := pushKey_kf hh2
    refine ⟨g1.trans p1, fun o' hne => (p2 o' hne).trans (g2 o' hne), fun r hr => ?_⟩
    have := addKeyLocal_value hh1 (.inl hr)
    simp only [pushKey, Option.map_eq_some_iff] at hh2
    obtain ⟨so, _, rfl⟩ := hh2
    exact this
  have f2 := f1.1.trans (KeyFrame.loop (fun a b s h => (hbody a b s h).1) _ h2)
  have eo : w2.getObj o = some (vo.withKey k d false col) := by
    rw [loop_other (fun a b s hne h => (hbody a b s h).2.1 o (Ne.symm hne)) _ (not_own_set hi hvo hs env) h2]; exact getObj_putObj_self _ _ _
  have hcs := fold_add_sig (env.perm vo.recs) d (⟨typeOf d, true, d, [], [], false, false⟩ : Col V Ty)
  have hch := fold_add_hash (env.perm vo.recs) d (c := (⟨typeOf d, true, d, [], [], false, false⟩ : Col V Ty)) rfl
  rw [hcol] at hcs hch
  simp only [Col.sig, Prod.mk.injEq] at hcs
  have hmc : mget (vo.withKey k d false col).cols k = some col := by simp [Obj.withKey, mget_mput]
  refine ⟨rfl, ?_, ?_, ?_, fun r k' hne => f2.value r hne, f2.members, f2.alive, f2.refs, fun o' k' hne => f2.index o' hne, ?_⟩
  · intro r hr
    exact loop_inv (fun w1 => value w1 r k = some d) _ _ _ _ (fun s _ a b ha hh => (hbody a b s hh).2.2 r ha) (v1 r (.inr ⟨hr, rfl⟩)) h2
  · rw [getDefault_eq eo]; simp [Obj.withKey, mget_mput]
  · rw [getKeyType_eq eo, hmc]; simp [hcs.1]
  · intro env' n w'' res' hg hlen
    rw [members_eq hvo] at hlen ⊢
    simp only [getRecords, eo, checkKey, hmc, Option.bind_eq_bind, Option.bind_some, hcs.1, ne_eq, not_true, if_false] at hg
    have hp : (equalRange env' col d).Perm vo.recs := by
      unfold equalRange
      refine (env'.isPerm _).trans (((hch.filter _).map _).trans ?_)
      have e : ∀ l : List Nat, ((l.map fun r => (d, r)).filter fun p => decide (p.1 = d)).map (·.2) = l := by
        intro l; induction l with
        | nil => rfl
        | cons a l ih => simpa using ih
      simp only [List.nil_append]
      refine (List.Perm.of_eq ?_).trans (env.isPerm vo.recs)
      exact e _
    cases hq : equalRange env' col d with
    | nil =>
      rw [hq] at hg hp
      cases hg
      have : vo.recs = [] := hp.nil_eq.symm
      exact ⟨[], by simp, hp, by simp [Res.bad, this]⟩
    | cons a l =>
      rw [hq] at hg hp
      simp only [Option.map_eq_some_iff, Prod.mk.injEq] at hg
      obtain ⟨w3, h3, rfl, rfl⟩ := hg
      have hl : (a :: l).take (max n 1) = a :: l := List.take_of_length_le (by rw [hp.length_eq]; omega)
      rw [hl] at h3
      refine ⟨a :: l, (loop_newRefTo_rf _ h3).2, hp, ?_⟩
      simp only [Res.good, true_iff]
      intro e; rw [e] at hp; exact absurd hp.eq_nil (by simp)

example : ∃ w' w'', addKey Env.id demoW 0 3 9 = some (w', .good (some 3)) ∧ value w' 0 3 = some 9 ∧ value w' 1 3 = some 9 ∧
    getRecords Env.id w' 0 3 9 5 = some (w'', .good (some 3)) ∧ 3 ∉ getKeys demoW 0 ∧ members demoW 0 = [0, 1] := ⟨_, _, rfl, rfl, rfl, rfl, by decide, rfl⟩

end MVault.W
