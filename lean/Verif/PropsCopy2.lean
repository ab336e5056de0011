import Verif.PropsCopy
/-
C37: what is left of unique keys in a copy.
-/
set_option linter.unusedSectionVars false
set_option linter.unusedSimpArgs false
namespace MVault.W
variable {K V Ty : Type} [LinearOrder K] [LinearOrder V] [Typed V Ty] [DecidableEq Ty]

/-- The true part of C37: right after it has been made by copy construction in a state reached by ordinary operations, the copy lists the same unique keys as the source
and no two of its records share a value of one of them. Missing: any later time (`C37_never_enforced`). -/
theorem C37_new_copy_partial {home : Nat → Nat} {env : Env} {w w' : World K V Ty} (hw : HReach Ordinary home w) {a : Nat} (ha : isVault w a = true)
    (h : vaultCopyNew env w a = some w') : getUniqueKeys w' w.nextO = getUniqueKeys w a ∧ ¬ DuplicateUnique w' w.nextO := by
  obtain ⟨⟨m, cp⟩, -⟩ := C36_copy hw.any ha h
  refine ⟨cp.uniq, ?_⟩
  rintro ⟨k, hk, r, hr, r', hr', hne, v, h1, h2⟩
  obtain ⟨b, hb, rfl⟩ := List.mem_map.mp (cp.members.mem_iff.mp hr)
  obtain ⟨b', hb', rfl⟩ := List.mem_map.mp (cp.members.mem_iff.mp hr')
  rw [cp.uniq] at hk
  rw [cp.values b hb] at h1
  rw [cp.values b' hb'] at h2
  exact hne (congrArg m (C14_unique_partial hw ha hb hb' hk (h1.trans h2.symm)))

theorem copyInto_multi {env : Env} {w w' : World K V Ty} {o a : Nat} {vo ao : Obj K V Ty} (hi : AI w) (hne : o ≠ a)
    (ho : w.getObj o = some vo) (ha : w.getObj a = some ao) (hr : vo.recs = []) (hc : vo.cols = []) (h : copyInto env w o a = some w') :
    ∃ y, w'.getObj o = some y ∧ ∀ k c, mget y.cols k = some c → c.multi = true := by
  have hd : ∀ r ∈ env.perm ao.recs, r < w.nextR := by
    intro q hq; exact (hi.obj a ao ha).recs q ((env.isPerm _).mem_iff.mp hq)
  have hex : ∀ r ∈ ao.recs, ∃ x, w.getRec r = some x := by
    have h' := h
    have hck := copyKeys_eq (env := env) (src := ao) (w := w) (o := o) hr
    rw [putObj_self ho] at hck
    simp only [copyInto, ha, Option.bind_eq_bind, Option.bind_some, hck, getObj_putObj_self] at h'
    intro r hrm
    obtain ⟨x, hx⟩ := copyLoop_exists _ h' hd r ((env.isPerm _).mem_iff.mpr hrm)
    exact ⟨x, hx⟩
  obtain ⟨w1, h1, cp⟩ := copyInto_spec (env := env) hne ha hr hi.recB hex
  rw [putObj_self ho] at h1 cp
  rw [h] at h1; cases h1
  obtain ⟨cols, hobj, hsig⟩ := cp.obj
  refine ⟨_, hobj, ?_⟩
  intro k c hk
  have := hsig k
  have hk' : mget cols k = some c := hk
  rw [hk'] at this
  obtain ⟨_, _, _, _, _, _, a7, _⟩ := withKeys_spec ao.cols vo
  simp only [a7, hc, mget, Option.none_or] at this
  cases hx : mget ao.cols k with
  | none => simp [hx] at this
  | some c0 => simp [hx, Col.sig, Col.fresh] at this; grind

theorem addUniques_multi (data : List (K × V)) (r : Nat) (l : List K) : ∀ (cols : List (K × Col V Ty)) (done : List K) {x : List (K × Col V Ty) × Option (K × List K)},
    (∀ k c, mget cols k = some c → c.multi = true) → addUniques data r l cols done = some x → x.2 = none := by
  induction l with
  | nil => intro cols done x _ h; simp only [addUniques, Option.some.injEq] at h; subst h; rfl
  | cons k l ih =>
    intro cols done x hm h
    unfold addUniques at h
    split at h
    · cases h
    · rename_i c hc
      have hcm := hm k c hc
      split at h
      · rename_i c' ha
        refine ih _ _ ?_ h
        intro k' c1 hk'
        rw [mget_mput] at hk'
        split at hk'
        · cases hk'
          have := Col.add_shape c (c.addVal data k) r
          rw [ha] at this
          grind
        · exact hm k' c1 hk'
      · rename_i c' ha
        simp only [Col.add, hcm] at ha
        grind

/-- How it is lost, after any history: a copy never refuses a value of a unique key. `CreateRecord` in the copy never answers `UniqueKeyValueAlredyInSet`, whatever values are
given, and neither does `SetData` on its records (in the source it always does, C49). -/
theorem C37_never_enforced {G : World K V Ty → Op K V Ty → Prop} {env : Env} {w w' : World K V Ty} (hw : Reach G w) {a : Nat} (ha : isVault w a = true)
    (h : vaultCopyNew env w a = some w') :
    (∀ f ps w'' res, createRecord w' w.nextO f ps = some (w'', res) → res.code ≠ .UniqueKeyValueAlredyInSet) ∧
    (∀ ps w'' res, createRow w' w.nextO ps = some (w'', res) → res.code ≠ .UniqueKeyValueAlredyInSet) ∧
    (∀ env' r k v w'' res, setDataToRecord env' w' w.nextO r k v = some (w'', res) → res.code ≠ .UniqueKeyValueAlredyInSet) := by
  have hi := reach_ai hw
  obtain ⟨ao, hao, has⟩ := isVault_iff.mp ha
  have hne : a ≠ w.nextO := Nat.ne_of_lt (hi.objB a ao hao)
  have hold : (newVault w).getObj a = some ao := by
    rw [← hao]; unfold newVault World.getObj; simp only [mget_mput]; rw [if_neg (Ne.symm hne)]
  obtain ⟨y, hy, hm⟩ := copyInto_multi (newVault_st (t := [w.nextO]) hi (by simp)).ai (Ne.symm hne) (newVault_obj w) hold rfl rfl h
  have hp : ∀ (ps data : List (K × V)) (e : Res K), applyParams y ps data = .error e → e.code ≠ .UniqueKeyValueAlredyInSet := by
    intro ps
    induction ps with
    | nil => intro data e h; cases h
    | cons p ps ih =>
      intro data e h
      obtain ⟨k, v⟩ := p
      unfold applyParams at h
      split at h
      · cases h; simp [Res.bad]
      · split at h
        · exact ih _ _ h
        · cases h; simp [Res.bad]
  have hins : ∀ data w1 k, insertRecord w' w.nextO data ≠ some (w1, .error k) := by
    intro data w1 k hx
    simp only [insertRecord, hy, Option.bind_eq_bind, Option.bind_some, Option.bind_eq_some_iff] at hx
    obtain ⟨⟨cols, clash⟩, h1, h2⟩ := hx
    have := addUniques_multi _ _ _ _ _ hm h1
    simp only at this
    subst this
    simp at h2
  refine ⟨?_, ?_, ?_⟩
  · intro f ps w'' res hx
    simp only [createRecord, hy, Option.bind_eq_bind, Option.bind_some] at hx
    split at hx
    · rename_i e he
      simp only [Option.some.injEq, Prod.mk.injEq] at hx
      rw [← hx.2]; exact hp _ _ _ he
    · simp only [Option.bind_eq_some_iff] at hx
      obtain ⟨⟨w1, out⟩, h1, h2⟩ := hx
      cases out with
      | error k => exact absurd h1 (hins _ _ _)
      | ok r =>
        simp only [Option.map_eq_some_iff, Prod.mk.injEq] at h2
        obtain ⟨_, _, _, rfl⟩ := h2
        simp [Res.good]
  · intro ps w'' res hx
    simp only [createRow, hy, Option.bind_eq_bind, Option.bind_some] at hx
    split at hx
    · rename_i e he
      simp only [Option.some.injEq, Prod.mk.injEq] at hx
      rw [← hx.2]; exact hp _ _ _ he
    · simp only [Option.bind_eq_some_iff] at hx
      obtain ⟨⟨w1, out⟩, h1, h2⟩ := hx
      cases out with
      | error k => exact absurd h1 (hins _ _ _)
      | ok r =>
        simp only [Option.some.injEq, Prod.mk.injEq] at h2
        rw [← h2.2]
        simp [Res.good]
  · intro env' r k v w'' res hx
    simp only [setDataToRecord, hy, Option.bind_eq_bind, Option.bind_some, Option.bind_eq_some_iff] at hx
    obtain ⟨⟨w1, res1⟩, h1, h2⟩ := hx
    have h3 : res1.code ≠ .UniqueKeyValueAlredyInSet := by
      simp only [setDataIndex, hy, Option.bind_eq_bind, Option.bind_some, Option.bind_eq_some_iff] at h1
      obtain ⟨x, hx, h1⟩ := h1
      split at h1
      · cases h1; simp [Res.bad]
      · split at h1
        · cases h1; simp [Res.bad]
        · rename_i c hc
          split at h1
          · cases h1; simp [Res.bad]
          · split at h1
            · rename_i hn
              have := hm k c hc
              simp only [Col.setVal, this] at hn
              grind
            · cases h1; simp [Res.good]
    have h4 : res = res1 := by
      simp only at h2
      split at h2
      · cases h2; rfl
      · split at h2
        · simp only [Option.bind_eq_some_iff] at h2
          obtain ⟨_, _, _, _, h2⟩ := h2
          cases h2; rfl
        · cases h2; rfl
    rw [h4]; exact h3

example : HReach Ordinary (fun _ => 0) demoW ∧ isVault demoW 0 = true ∧ getUniqueKeys demoW 0 ≠ [] ∧ members demoW 0 = [0, 1] ∧
    ∃ w', vaultCopyNew Env.rev demoW 0 = some w' ∧ members w' demoW.nextO = [2, 3] :=
  ⟨demoW_reach, by decide, by decide, by decide, _, rfl, by decide⟩

end MVault.W
