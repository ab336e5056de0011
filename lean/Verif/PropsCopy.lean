import Verif.PropsErase
/-
C36, C37: copying vaults.
-/
set_option linter.unusedSectionVars false
set_option linter.unusedSimpArgs false
namespace MVault.W
variable {K V Ty : Type} [LinearOrder K] [LinearOrder V] [Typed V Ty] [DecidableEq Ty]

/-! ### Specification -/

/-- Vault `n` of `w'` is a copy of vault `a` of `w`: the same keys in the same order with the same types, the same unique keys,
and one new, valid record for each record of `a` (`m` says which), with the same values. -/
structure IsCopy (w w' : World K V Ty) (a n : Nat) (m : Nat → Nat) : Prop where
  vault : isVault w' n = true
  keys : getKeys w' n = getKeys w a
  uniq : getUniqueKeys w' n = getUniqueKeys w a
  types : ∀ k, getKeyType w' n k = getKeyType w a k
  members : (members w' n).Perm ((members w a).map m)
  nodup : (MVault.W.members w' n).Nodup
  values : ∀ r ∈ MVault.W.members w a, ∀ k, value w' (m r) k = value w r k
  valid : ∀ r ∈ MVault.W.members w a, alive w' (m r)
  new : ∀ r ∈ MVault.W.members w a, ∀ o, m r ∉ MVault.W.members w o

/-- A later history: any number of operations that each satisfy `G`. -/
inductive Later (G : World K V Ty → Op K V Ty → Prop) : World K V Ty → World K V Ty → Prop
  | refl (w : World K V Ty) : Later G w w
  | step (w w1 w2 : World K V Ty) (env : Env) (op : Op K V Ty) : Later G w w1 → G w1 op → step env w1 op = some w2 → Later G w w2

/-! ### Copying -/

theorem copyLoop_exists {o : Nat} (d : List Nat) : ∀ {w w' : World K V Ty}, loop (copyOne o) d w = some w' → (∀ r ∈ d, r < w.nextR) →
    ∀ r ∈ d, ∃ x, w.getRec r = some x := by
  induction d with
  | nil => intro w w' _ _ r hr; cases hr
  | cons a d ih =>
    intro w w' h hd r hr
    simp only [loop, Option.bind_eq_some_iff] at h
    obtain ⟨w1, h1, h2⟩ := h
    simp only [copyOne, Option.bind_eq_bind, Option.bind_eq_some_iff, Option.some.injEq] at h1
    obtain ⟨x, hx, vo, ho, rfl⟩ := h1
    rcases List.mem_cons.mp hr with rfl | hr
    · exact ⟨x, hx⟩
    · obtain ⟨y, hy⟩ := ih h2 (by intro q hq; have := hd q (List.mem_cons_of_mem _ hq); show q < w.nextR + 1; omega) r hr
      have hlt := hd r (List.mem_cons_of_mem _ hr)
      have : (mget (mput w.recs w.nextR ⟨x.data, true, 0, []⟩) r) = some y := hy
      rw [mget_mput, if_neg (by omega)] at this
      exact ⟨y, this⟩

/-- The record made from `r` when the records are copied in the order `d`, the first becoming `n`. -/
def copyOf (n : Nat) (d : List Nat) (r : Nat) : Nat := n + d.idxOf r

theorem map_copyOf (n : Nat) (d : List Nat) (hd : d.Nodup) : d.map (copyOf n d) = List.range' n d.length := by
  apply List.ext_getElem
  · simp
  · intro i h1 h2
    simp only [List.getElem_map, List.getElem_range', copyOf]
    rw [hd.idxOf_getElem i (by simpa using h1)]
    omega

/-- What copying into an empty vault `o` does. -/
theorem copyInto_copy {env : Env} {w w' : World K V Ty} {o a : Nat} {vo ao : Obj K V Ty} (hi : AI w) (hN : ao.recs.Nodup) (hne : o ≠ a)
    (ho : w.getObj o = some vo) (hvs : vo.isSet = false) (ha : w.getObj a = some ao) (has : ao.isSet = false) (hr : vo.recs = [])
    (hc : vo.cols = []) (ht : vo.tmpl = []) (h : copyInto env w o a = some w') :
    IsCopy w w' a o (copyOf w.nextR (env.perm ao.recs)) ∧ (∀ o', o' ≠ o → w'.getObj o' = w.getObj o') ∧
      (∀ r, r < w.nextR → w'.getRec r = w.getRec r) ∧ w'.refs = w.refs := by
  obtain ⟨y, hy, e1, e2, e3, e4⟩ := copyInto_keys hi ho hvs ha has hr hc ht h
  have hd : ∀ r ∈ env.perm ao.recs, r < w.nextR := by
    intro q hq; exact (hi.obj a ao ha).recs q ((env.isPerm _).mem_iff.mp hq)
  have hex : ∀ r ∈ ao.recs, ∃ x, w.getRec r = some x := by
    have h' := h
    have hck := copyKeys_eq (env := env) (src := ao) (w := w) (o := o) hr
    rw [putObj_self ho] at hck
    simp only [copyInto, ha, Option.bind_eq_bind, Option.bind_some, hck, getObj_putObj_self] at h'
    intro r hrm
    obtain ⟨x, hx⟩ := copyLoop_exists _ h' hd r ((env.isPerm _).mem_iff.mpr hrm)
    exact ⟨x, hx⟩
  obtain ⟨w1, h1, cp⟩ := copyInto_spec (env := env) hne ha hr hi.recB hex
  rw [putObj_self ho] at h1 cp
  rw [h] at h1; cases h1
  obtain ⟨cols, hobj, _⟩ := cp.obj
  have hnd : (env.perm ao.recs).Nodup := (env.isPerm _).nodup_iff.mpr hN
  obtain ⟨a1, _, _, _, a5, _⟩ := withKeys_spec ao.cols vo
  have hmem : members w' o = List.range' w.nextR (env.perm ao.recs).length := by
    rw [members_eq hobj]; simp [a5, hr]
  have hval : ∀ r ∈ ao.recs, ∃ x, w.getRec r = some x ∧ w'.getRec (copyOf w.nextR (env.perm ao.recs) r) = some ⟨x.data, true, 0, []⟩ := by
    intro r hrm
    have hrm' := (env.isPerm ao.recs).mem_iff.mpr hrm
    refine cp.new _ r ?_
    rw [List.getElem?_eq_some_iff]
    exact ⟨List.idxOf_lt_length_of_mem hrm', List.getElem_idxOf _⟩
  refine ⟨⟨isVault_iff.mpr ⟨_, hobj, a1.trans hvs⟩, by rw [getKeys_eq hy, getKeys_eq ha, e1], by rw [getUniqueKeys_eq hy, getUniqueKeys_eq ha, e2],
    fun k => by rw [getKeyType_eq hy, getKeyType_eq ha, e3], ?_, ?_, ?_, ?_, ?_⟩, cp.objs, cp.old, cp.refs⟩
  · rw [hmem, members_eq ha, ← map_copyOf _ _ hnd]
    exact (env.isPerm _).map _
  · rw [hmem]; exact List.nodup_range'
  · intro r hrm k
    rw [members_eq ha] at hrm
    obtain ⟨x, hx, hx'⟩ := hval r hrm
    simp [value, hx, hx']
  · intro r hrm
    rw [members_eq ha] at hrm
    obtain ⟨x, hx, hx'⟩ := hval r hrm
    exact ⟨_, hx', rfl⟩
  · intro r hrm o' hm
    unfold members at hm
    split at hm
    · rename_i x hx
      have := (hi.obj o' x hx).recs _ hm
      simp only [copyOf] at this; omega
    · cases hm

/-- A vault whose object and records are untouched looks the same. -/
theorem sameVault_of {w w' : World K V Ty} {o : Nat} {vo : Obj K V Ty} (h : w.getObj o = some vo) (h' : w'.getObj o = some vo)
    (hr : ∀ r ∈ vo.recs, w'.getRec r = w.getRec r) : SameVault w w' o where
  kind := by simp [isVault, h, h']
  members := by rw [members_eq h, members_eq h']
  values := by intro r hrm k; rw [members_eq h] at hrm; simp [value, hr r hrm]
  keys := by rw [getKeys_eq h, getKeys_eq h']
  uniq := by rw [getUniqueKeys_eq h, getUniqueKeys_eq h']
  keyExists := by intro k; simp [isKeyExist, h, h']
  types := by intro k; rw [getKeyType_eq h, getKeyType_eq h']
  defaults := by intro k; rw [getDefault_eq h, getDefault_eq h']

/-! ### C36 -/

/-- Copy construction, in any state reached by any history: the new vault is a copy of the source, with records of its own; the
source and every other vault, and all references, are as before. -/
theorem C36_copy {G : World K V Ty → Op K V Ty → Prop} {env : Env} {w w' : World K V Ty} (hw : Reach G w) {a : Nat} (ha : isVault w a = true)
    (h : vaultCopyNew env w a = some w') :
    (∃ m, IsCopy w w' a w.nextO m) ∧ isVault w w.nextO = false ∧ (∀ o, isVault w o = true → SameVault w w' o) ∧ w'.refs = w.refs := by
  have hi := reach_ai hw
  obtain ⟨ao, hao, has⟩ := isVault_iff.mp ha
  have hne : a ≠ w.nextO := Nat.ne_of_lt (hi.objB a ao hao)
  have hold : ∀ o, o ≠ w.nextO → (newVault w).getObj o = w.getObj o := by
    intro o hn; unfold newVault World.getObj; simp only [mget_mput]; rw [if_neg (Ne.symm hn)]
  obtain ⟨cp, hO, hR, hf⟩ := copyInto_copy (newVault_st (t := [w.nextO]) hi (by simp)).ai (reach_ni hw a ao hao).1 (Ne.symm hne) (newVault_obj w) rfl
    ((hold a hne).trans hao) has rfl rfl rfl h
  have hmm : ∀ o, o ≠ w.nextO → members (newVault w) o = members w o := by intro o hn; simp only [members, hold o hn]
  have hnone : w.getObj w.nextO = none := by
    cases hx : w.getObj w.nextO with
    | none => rfl
    | some x => exact absurd (hi.objB _ x hx) (by omega)
  refine ⟨⟨copyOf (newVault w).nextR (env.perm ao.recs), ⟨cp.vault, ?_, ?_, ?_, ?_, cp.nodup, ?_, ?_, ?_⟩⟩, by simp [isVault, hnone], ?_, hf⟩
  · rw [cp.keys]; simp only [getKeys, hold a hne]
  · rw [cp.uniq]; simp only [getUniqueKeys, hold a hne]
  · intro k; rw [cp.types]; simp only [getKeyType, hold a hne]
  · rw [← hmm a hne]; exact cp.members
  · intro r hr k; rw [← hmm a hne] at hr; exact cp.values r hr k
  · intro r hr; rw [← hmm a hne] at hr; exact cp.valid r hr
  · intro r hr o hm
    rw [← hmm a hne] at hr
    by_cases e : o = w.nextO
    · rw [e] at hm; simp only [members, hnone] at hm; cases hm
    · rw [← hmm o e] at hm; exact cp.new r hr o hm
  · intro o ho
    obtain ⟨vo, hvo, hvs⟩ := isVault_iff.mp ho
    have hlt := hi.objB o vo hvo
    have hn : o ≠ w.nextO := by omega
    refine sameVault_of hvo ((hO o hn).trans ((hold o hn).trans hvo)) fun r hr => ?_
    exact hR r ((hi.obj o vo hvo).recs r hr)

example : HReach Ordinary (fun _ => 0) demoW ∧ isVault demoW 0 = true ∧ members demoW 0 = [0, 1] ∧
    ∃ w', vaultCopyNew Env.rev demoW 0 = some w' ∧ members w' demoW.nextO = [2, 3] ∧ value w' 2 2 = some 8 ∧ value w' 3 2 = some 7 :=
  ⟨demoW_reach, by decide, by decide, _, rfl, by decide, by decide, by decide⟩

/-- Not part of the claim: a default changed with `UpdateKey` is not copied, the copy creates records with the default once given
to `AddKey`. -/
theorem C36_default_not_copied : ∃ w w' : DW, Reach (fun _ _ => True) w ∧ vaultCopyNew Env.id w 0 = some w' ∧ getDefault w 0 1 = some 6 ∧
    getDefault w' 1 1 = some 5 :=
  ⟨_, _, anyRun_reach (l := [.newVault, .addKey 0 1 5, .updateKey 0 1 6]) rfl, rfl, by decide, by decide⟩

/-- Copy assignment, in any state reached by ordinary operations (also from a source with unique keys): afterwards the target is
a copy of the source; the source and all other vaults are as before; the old records of the target are not valid any more.
Missing: states reached by operations that are not ordinary. -/
theorem C36_assign_partial {home : Nat → Nat} {env : Env} {w w' : World K V Ty} (hw : HReach Ordinary home w) {a o : Nat} (ha : isVault w a = true)
    (ho : isVault w o = true) (hne : o ≠ a) (h : vaultAssign env w o a = some w') :
    (∃ m, IsCopy w w' a o m) ∧ (∀ o', isVault w o' = true → o' ≠ o → SameVault w w' o') ∧ w'.refs = w.refs ∧
      ∀ r ∈ members w o, ¬ alive w' r := by
  obtain ⟨own, hi⟩ := reach_inv hw
  obtain ⟨ao, hao, has⟩ := isVault_iff.mp ha
  obtain ⟨vo, hvo, hvs⟩ := isVault_iff.mp ho
  have hai := reach_ai hw.any
  rw [vaultAssign, if_neg hne] at h
  simp only [Option.bind_eq_bind, Option.bind_eq_some_iff] at h
  obtain ⟨w1, h1, h2⟩ := h
  obtain ⟨i1, ho1, hO1, hR1, hD1, _, hf1, hnR1, hnO1, _⟩ := dropVault_spec hi hvo hvs h1
  have hother : ∀ o', isVault w o' = true → o' ≠ o → ∃ x y, w.getObj o' = some x ∧ w1.getObj o' = some y ∧ y = { x with sets := y.sets } ∧
      ∀ r ∈ x.recs, RecSame (w.getRec r) (w1.getRec r) := by
    intro o' ho' hn
    obtain ⟨x, hx, hxs⟩ := isVault_iff.mp ho'
    obtain ⟨y, hy, e1, e2⟩ := (hO1 o' hn).to hx
    refine ⟨x, y, hx, hy, e2 hxs, fun r hr => hR1 r fun hr' => ?_⟩
    have t1 := (hi.v.mem o' x hx hxs r hr).1
    have t2 := (hi.v.mem o vo hvo hvs r hr').1
    exact hn (t1.symm.trans t2)
  have hsame1 : ∀ o', isVault w o' = true → o' ≠ o → SameVault w w1 o' := by
    intro o' ho' hn
    obtain ⟨x, y, hx, hy, e, hr⟩ := hother o' ho' hn
    refine ⟨?_, ?_, ?_, ?_, ?_, ?_, ?_, ?_⟩
    · simp only [isVault, hx, hy]; rw [e]
    · rw [members_eq hx, members_eq hy, e]
    · intro r hrm k
      rw [members_eq hx] at hrm
      obtain ⟨z, hz, hzv⟩ := (hi.v.mem o' x hx (by obtain ⟨x', hx', hs'⟩ := isVault_iff.mp ho'; rw [hx] at hx'; cases hx'; exact hs') r hrm).2
      have h2 := hr r hrm
      rw [hz] at h2
      cases hz1 : w1.getRec r with
      | none => rw [hz1] at h2; cases h2
      | some z1 => rw [hz1] at h2; simp only [value, hz, hz1, Option.bind_some]; rw [h2.2.2 hzv]
    · rw [getKeys_eq hx, getKeys_eq hy, e]
    · rw [getUniqueKeys_eq hx, getUniqueKeys_eq hy, e]
    · intro k; simp only [isKeyExist, hx, hy]; rw [e]
    · intro k; rw [getKeyType_eq hx, getKeyType_eq hy, e]
    · intro k; rw [getDefault_eq hx, getDefault_eq hy, e]
  have hai1 : AI w1 := (step_any (env := env) (op := .dropVault o) hai (by simp [step, onVault, ho, h1])).ai
  have sa := hsame1 a ha (Ne.symm hne)
  obtain ⟨x, y, hx, hy, e, _⟩ := hother a ha (Ne.symm hne)
  rw [hao] at hx; cases hx
  obtain ⟨cp, hO, hR, hf⟩ := copyInto_copy hai1 (by rw [e]; exact (reach_ni hw.any a ao hao).1) hne ho1 hvs hy (by rw [e]; exact has) rfl rfl rfl h2
  refine ⟨⟨_, ⟨cp.vault, cp.keys.trans sa.keys, cp.uniq.trans sa.uniq, fun k => (cp.types k).trans (sa.types k), sa.members ▸ cp.members, cp.nodup, ?_, ?_, ?_⟩⟩,
    ?_, hf.trans hf1, ?_⟩
  · intro r hr k
    rw [cp.values r (by rw [sa.members]; exact hr), sa.values r hr]
  · intro r hr; exact cp.valid r (by rw [sa.members]; exact hr)
  · intro r hr o' hm
    have hlt : copyOf w1.nextR (env.perm y.recs) r < w.nextR := by
      unfold members at hm
      split at hm
      · rename_i x hx; exact (hai.obj o' x hx).recs _ hm
      · cases hm
    rw [← hnR1] at hlt
    simp only [copyOf] at hlt; omega
  · intro o' ho' hn
    obtain ⟨x, y, hx, hy, e, _⟩ := hother o' ho' hn
    have s1 := hsame1 o' ho' hn
    have s2 := sameVault_of hy ((hO o' hn).trans hy) (fun r hr => hR r ((hai1.obj o' y hy).recs r hr))
    exact ⟨s2.kind.trans s1.kind, s2.members.trans s1.members, fun r hr k => (s2.values r (by rw [s1.members]; exact hr) k).trans (s1.values r hr k),
      s2.keys.trans s1.keys, s2.uniq.trans s1.uniq, fun k => (s2.keyExists k).trans (s1.keyExists k), fun k => (s2.types k).trans (s1.types k),
      fun k => (s2.defaults k).trans (s1.defaults k)⟩
  · intro r hr ⟨x, hx, hxv⟩
    rw [members_eq hvo] at hr
    rw [hR r (by rw [hnR1]; exact (hai.obj o vo hvo).recs r hr)] at hx
    rw [hD1 r hr x hx] at hxv; cases hxv

/-- Later operations: after any number of later ordinary operations none of which is about vault `o` - in particular operations
on a copy of `o`, or on the vault `o` was copied from - vault `o` is as it was and its records are still valid. Missing:
operations that are not ordinary, among them copying a vault with unique keys. -/
theorem C36_independent_partial {home : Nat → Nat} {w w' : World K V Ty} (hw : HReach Ordinary home w) {o : Nat} (ho : isVault w o = true)
    (h : Later (fun w op => Ordinary home w op ∧ o ∉ touched w op) w w') :
    SameVault w w' o ∧ ∀ r ∈ members w o, alive w' r := by
  suffices H : HReach Ordinary home w' ∧ SameVault w w' o ∧ ∀ r ∈ members w o, alive w' r from H.2
  induction h with
  | refl =>
    obtain ⟨own, hi⟩ := reach_inv hw
    refine ⟨hw, ⟨rfl, rfl, fun _ _ _ => rfl, rfl, rfl, fun _ => rfl, fun _ => rfl, fun _ => rfl⟩, fun r hr => ?_⟩
    obtain ⟨vo, hvo, hs⟩ := isVault_iff.mp ho
    rw [members_eq hvo] at hr
    exact (hi.v.mem o vo hvo hs r hr).2
  | step w1 w2 env op _ hg hs ih =>
    obtain ⟨hr1, s1, a1⟩ := ih
    have ho1 : isVault w1 o = true := by rw [s1.kind]; exact ho
    obtain ⟨s2, a2⟩ := C54_vaults_independent_partial hr1 hg.1 hs ho1 hg.2
    exact ⟨.step _ _ _ _ hr1 hg.1 hs, ⟨s2.kind.trans s1.kind, s2.members.trans s1.members, fun r hr k => (s2.values r (by rw [s1.members]; exact hr) k).trans (s1.values r hr k),
      s2.keys.trans s1.keys, s2.uniq.trans s1.uniq, fun k => (s2.keyExists k).trans (s1.keyExists k), fun k => (s2.types k).trans (s1.types k),
      fun k => (s2.defaults k).trans (s1.defaults k)⟩, fun r hr => a2 r (by rw [s1.members]; exact hr)⟩

example : HReach Ordinary (fun _ => 0) demoW ∧ ∃ w1 w2, step Env.id demoW .newVault = some w1 ∧ isVault w1 0 = true ∧ isVault w1 3 = true ∧
    vaultAssign Env.id w1 3 0 = some w2 ∧ members w2 3 = [2, 3] := ⟨demoW_reach, _, _, rfl, by decide, by decide, rfl, by decide⟩

/-- A vault without unique keys and its copy (object 1), then changes of the copy. -/
def demoCopied : DW := (demo [.newVault, .addKey 0 1 5, .newRef, .createRecord 0 0 [], .createRecord 0 0 [(1, 6)], .vaultCopyNew 0]).getD World.empty
theorem demoCopied_reach : HReach Ordinary (fun _ => 0) demoCopied :=
  demo_reach (l := [.newVault, .addKey 0 1 5, .newRef, .createRecord 0 0 [], .createRecord 0 0 [(1, 6)], .vaultCopyNew 0]) rfl
example : ∃ w', Later (fun w op => Ordinary (fun _ => 0) w op ∧ 0 ∉ touched w op) demoCopied w' ∧ members w' 0 = [0, 1] ∧ members w' 1 = [] ∧
    getKeys w' 1 = [1, 4] ∧ getKeys w' 0 = [1] := by
  refine ⟨_, .step _ _ _ Env.id (.dropData 1) (.step _ _ _ Env.id (.addKey 1 4 3) (.refl _) ⟨trivial, by decide⟩ rfl) ⟨trivial, ?_⟩ rfl, ?_, ?_, ?_, ?_⟩ <;> decide

/-! ### C37 -/

/-- Two records of one vault with the same value for one of its unique keys. -/
def DuplicateUnique (w : World K V Ty) (o : Nat) : Prop :=
  ∃ k ∈ getUniqueKeys w o, ∃ r ∈ members w o, ∃ r' ∈ members w o, r ≠ r' ∧ ∃ v, value w r k = some v ∧ value w r' k = some v

/-- False: in a copy of a vault with a unique key two records with the same value can be created; the copy still lists the key as
unique. The source (`o = 0`) refuses the same call. -/
theorem C37_refuted : ∃ w w' w'' : DW, Reach (fun _ _ => True) w ∧ isVault w 0 = true ∧ vaultCopyNew Env.id w 0 = some w' ∧ w.nextO = 1 ∧
    members w' 1 = [1] ∧ getUniqueKeys w' 1 = [2] ∧ createRecord w' 1 0 [(2, 7)] = some (w'', .good (some 2)) ∧ DuplicateUnique w'' 1 ∧
    (∃ w3, createRecord w' 0 0 [(2, 7)] = some (w3, .bad .UniqueKeyValueAlredyInSet (some 2))) := by
  refine ⟨_, _, _, anyRun_reach (l := [.newVault, .addUniqueKey 0 2 false true (fun _ _ _ => 0), .newRef, .createRecord 0 0 [(2, 7)]]) rfl,
    by decide, rfl, rfl, by decide, by decide, rfl, ⟨2, by decide, 1, by decide, 2, by decide, by decide, 7, rfl, rfl⟩, ⟨_, rfl⟩⟩

end MVault.W
