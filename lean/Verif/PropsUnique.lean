import Verif.PropsErase
/-
C29: adding a unique key with a function.
-/
set_option linter.unusedSectionVars false
set_option linter.unusedSimpArgs false
namespace MVault.W
variable {K V Ty : Type} [LinearOrder K] [LinearOrder V] [Typed V Ty] [DecidableEq Ty]

theorem mem_fnValues_idx {t : Ty} {f : Nat → Nat → V} (hf : ∀ i r, typeOf (f i r) = t) {l : List Nat} (hn : l.Nodup) (i : Nat) {r : Nat} {v : V} :
    (r, v) ∈ fnValues t f i l ↔ r ∈ l ∧ v = f (i + l.idxOf r) r := by
  induction l generalizing i with
  | nil => simp [fnValues]
  | cons a l ih =>
    simp only [List.nodup_cons] at hn
    simp only [fnValues, List.mem_cons, Prod.mk.injEq, ih hn.2, castTo, hf, if_true]
    by_cases e : r = a
    · subst e; simp [hn.1]
    · have h1 : (a :: l).idxOf r = l.idxOf r + 1 := by rw [List.idxOf_cons_ne _ (Ne.symm e)]
      rw [h1]; simp only [e, false_and, false_or]
      rw [show i + 1 + l.idxOf r = i + (l.idxOf r + 1) by omega]

/-! ### C29 -/

/-- The answer of `AddUniqueKey` and its failures, after any history. The function is asked once for every record, in some order
of the records (`order`), with the position as counter. For a new key (and a function, or an empty vault) it succeeds exactly when the
values are pairwise different; otherwise it reports the reason, and nothing at all changes. `ht`: the function returns values of
the type of the key (C++ typing). -/
theorem C29_answer {G : World K V Ty → Op K V Ty → Prop} {w w' : World K V Ty} (hw : Reach G w) {env : Env} {o : Nat} {k : K} {t : Ty} {noFn : Bool}
    {f : Nat → Nat → Nat → V} {res : Res K} (ho : isVault w o = true) (ht : ∀ i r, typeOf (f o i r) = t) (h : addUniqueKey env w o k t noFn f = some (w', res)) :
    ∃ order : List Nat, order.Perm (members w o) ∧
      (k ∈ getKeys w o → res = .bad .DuplicateKey (some k) ∧ w' = w) ∧
      (k ∉ getKeys w o → noFn = true → members w o ≠ [] → res = .bad .TryToAddUniqueKeyInNonEmptyVaultWithoutLambda (some k) ∧ w' = w) ∧
      (k ∉ getKeys w o → (noFn = true → members w o = []) →
        (res.ok = true ↔ ∀ r ∈ members w o, ∀ r' ∈ members w o, r ≠ r' → f o (order.idxOf r) r ≠ f o (order.idxOf r') r') ∧
        (res.ok = true → res = .good (some k)) ∧
        (res.ok = false → res = .bad .UniqueKeyValueAlredyInSet (some k) ∧ w' = w)) := by
  obtain ⟨vo, hvo, hs⟩ := isVault_iff.mp ho
  obtain ⟨hb, _, ok⟩ := ((reach_ai hw).obj o vo hvo).vault hs
  have hN := (reach_ni hw o vo hvo).1
  have hN' : (env.perm vo.recs).Nodup := (nodup_perm env _).mpr hN
  refine ⟨env.perm vo.recs, by rw [members_eq hvo]; exact env.isPerm _, ?_⟩
  rw [members_eq hvo, getKeys_eq hvo]
  simp only [addUniqueKey, hvo, Option.bind_eq_bind, Option.bind_some, Option.bind_eq_some_iff, Prod.exists] at h
  obtain ⟨w1, res1, h1, h⟩ := h
  simp only [addUniqueLocal, hvo, Option.bind_eq_bind, Option.bind_some] at h1
  have hkm : mhas vo.cols k = true ↔ k ∈ vo.keysOrder := by rw [ok.mem]; exact mhas_iff _ _
  split at h1
  · rename_i hk
    cases h1
    simp only [Res.bad, if_true, Option.some.injEq, Prod.mk.injEq] at h
    obtain ⟨rfl, rfl⟩ := h
    have hk := hkm.mp hk
    exact ⟨fun _ => ⟨rfl, rfl⟩, fun hn => absurd hk hn, fun hn => absurd hk hn⟩
  · rename_i hk
    have hk : k ∉ vo.keysOrder := fun hm => hk (hkm.mpr hm)
    split at h1
    · rename_i hno
      cases h1
      simp only [Res.bad, if_true, Option.some.injEq, Prod.mk.injEq] at h
      obtain ⟨rfl, rfl⟩ := h
      exact ⟨fun hn => absurd hn hk, fun _ _ _ => ⟨rfl, rfl⟩, fun _ he => absurd (he hno.1) hno.2⟩
    · rename_i hno
      refine ⟨fun hn => absurd hn hk, fun _ a b => absurd ⟨a, b⟩ hno, fun _ _ => ?_⟩
      have hmem := fun r v => mem_fnValues_idx (t := t) (f := f o) ht hN' 0 (r := r) (v := v)
      simp only [Nat.zero_add] at hmem
      generalize hvals : fnValues t (f o) 0 (env.perm vo.recs) = vals at h1 hmem
      have hfst : vals.map (·.1) = env.perm vo.recs := by rw [← hvals]; exact fnValues_fst _ _ _ _
      have hn : (vals.map (·.1)).Nodup := by rw [hfst]; exact hN'
      have hty : ∀ p ∈ vals, typeOf p.2 = t := by rw [← hvals]; exact fnValues_ty _ _ _ _
      have hspec := fnCol_spec (cell := fun r => mget vals r) vals [] (⟨t, false, zero t, [], [], false, false⟩ : Col V Ty)
        (ColOk.empty _ _ (Typed.zero_ty t) rfl rfl rfl rfl) rfl hty (by simpa using hn)
        (by intro p hp; exact mget_nodup hn hp)
      split at h1
      · rename_i hf
        cases h1
        simp only [Res.bad, if_true, Option.some.injEq, Prod.mk.injEq] at h
        obtain ⟨rfl, rfl⟩ := h
        obtain ⟨p, hp, r', hr', hne, hc⟩ := hspec.2 hf
        refine ⟨⟨(fun e => by cases e), fun he => ?_⟩, (fun e => by cases e), fun _ => ⟨rfl, rfl⟩⟩
        obtain ⟨a1, a2⟩ := (hmem p.1 p.2).mp hp
        obtain ⟨b1, b2⟩ := (hmem r' p.2).mp (mget_mem _ _ _ hc)
        exact absurd (a2.symm.trans b2) (he p.1 (by simpa using a1) r' (by simpa using b1) (Ne.symm hne))
      · rename_i c hf
        obtain ⟨hcok, hcm, hct⟩ := hspec.1 c hf
        have hres : res1 = .good (some k) := by
          simp only [Option.bind_eq_some_iff, Option.some.injEq, Prod.mk.injEq] at h1
          obtain ⟨_, _, _, e⟩ := h1; exact e.symm
        subst hres
        simp only [Res.good, Bool.true_eq_false, if_false, Option.bind_eq_some_iff, Option.some.injEq, Prod.mk.injEq] at h
        obtain ⟨_, _, _, rfl⟩ := h
        refine ⟨⟨fun _ r hr r' hr' hne he => ?_, fun _ => rfl⟩, fun _ => rfl, (fun e => by cases e)⟩
        have m1 := mget_nodup hn ((hmem r _).mpr ⟨by simpa using hr, rfl⟩)
        have m2 := mget_nodup hn ((hmem r' _).mpr ⟨by simpa using hr', rfl⟩)
        refine hne ((hcok.uniq hcm).2.2 r (by simp only [List.nil_append, hfst]; simpa using hr) r' (by simp only [List.nil_append, hfst]; simpa using hr') ?_)
        show mget vals r = mget vals r'
        rw [m1, m2, he]

/-- On success the values are stored: every record of the vault has its value of the function for the new key, the other values,
the records and the references stay, and the new key is the last one of the list, unique, of the right type. Missing: histories with
operations that are not ordinary, where it is false (`C29_refuted`). -/
theorem C29_stores_partial {home : Nat → Nat} {w w' : World K V Ty} (hw : HReach Ordinary home w) {env : Env} {o : Nat} {k : K} {t : Ty} {noFn : Bool}
    {f : Nat → Nat → Nat → V} {res : Res K} (ho : isVault w o = true) (ht : ∀ i r, typeOf (f o i r) = t) (h : addUniqueKey env w o k t noFn f = some (w', res))
    (hok : res.ok = true) :
    (∃ order : List Nat, order.Perm (members w o) ∧ ∀ r ∈ members w o, value w' r k = some (f o (order.idxOf r) r)) ∧
    (∀ r k', alive w r → (k' ≠ k ∨ r ∉ members w o) → value w' r k' = value w r k') ∧ (∀ r, alive w' r ↔ alive w r) ∧
    members w' o = members w o ∧ w'.refs = w.refs ∧
    getKeys w' o = getKeys w o ++ [k] ∧ k ∈ getUniqueKeys w' o ∧ getKeyType w' o k = some t ∧
    ∀ o', o' ≠ o → isVault w o' = true → SameVault w w' o' := by
  obtain ⟨own, hi⟩ := reach_inv hw
  obtain ⟨vo, hvo, hs⟩ := isVault_iff.mp ho
  obtain ⟨_, hk1, hk2, hk3, hk4⟩ := (C12_addUniqueKey hw.any ho h).1 hok
  have hN' : (env.perm vo.recs).Nodup := (nodup_perm env _).mpr (hi.v.vok o vo hvo hs).recsN
  rcases addUniqueKey_spec hi hvo hs h with ⟨_, rfl, _⟩ | ⟨_, _, rfl, _⟩ | ⟨_, _, rfl, _⟩ | ⟨_, hn, _, i, _, c, hct, hm, st⟩
  · cases hok
  · cases hok
  · cases hok
  have hmem := fun r v => mem_fnValues_idx (t := t) (f := f o) ht hN' 0 (r := r) (v := v)
  simp only [Nat.zero_add] at hmem
  have hfst := fnValues_fst t (f o) 0 (env.perm vo.recs)
  generalize fnValues t (f o) 0 (env.perm vo.recs) = vals at st hmem hfst
  have hnd : (vals.map (·.1)).Nodup := by rw [hfst]; exact hN'
  have hget : ∀ r ∈ vo.recs, mget vals r = some (f o ((env.perm vo.recs).idxOf r) r) := fun r hr =>
    mget_nodup hnd ((hmem r _).mpr ⟨by simpa using hr, rfl⟩)
  have hval : ∀ r k', alive w r → (k' ≠ k ∨ r ∉ vo.recs) → value w' r k' = value w r k' := by
    rintro r k' ⟨x, hx, hxv⟩ he
    obtain ⟨y, hy, _, _, d⟩ := st.recTo r x hx
    simp only [value, hx, hy, Option.bind_some, d hxv]
    split
    · rename_i v hv
      rw [mget_mput, if_neg]
      rintro rfl
      rcases he with he | he
      · exact he rfl
      · exact he (by simpa using ((hmem r v).mp (mget_mem _ _ _ hv)).1)
    · rfl
  have hal : ∀ r, alive w' r ↔ alive w r := by
    intro r
    constructor
    · rintro ⟨y, hy, hv⟩
      obtain ⟨x, hx⟩ := st.recOf r y hy
      obtain ⟨y', hy', e, _⟩ := st.recTo r x hx
      rw [hy] at hy'; cases hy'
      exact ⟨x, hx, by rw [← e]; exact hv⟩
    · rintro ⟨x, hx, hv⟩
      obtain ⟨y, hy, e, _⟩ := st.recTo r x hx
      exact ⟨y, hy, by rw [e]; exact hv⟩
  refine ⟨⟨env.perm vo.recs, by rw [members_eq hvo]; exact env.isPerm _, fun r hr => ?_⟩, fun r k' hr he => hval r k' hr (by rw [members_eq hvo] at he; exact he), hal,
    by rw [members_eq st.obj, members_eq hvo]; rfl, st.refs, hk1, (hk2 k).mpr (.inl rfl), by rw [hk4, if_pos rfl], fun o' e hv => ?_⟩
  · rw [members_eq hvo] at hr
    obtain ⟨x, hx, hc⟩ := st.cell hi.v hvo hs hr
    show cellOf w' r k = _
    rw [(hc k).1]
    simp only [hget r hr, mget_mput, if_true]
  · refine objSame_vault (st.objs o' e) (fun r hr k' => ?_) hv
    obtain ⟨vo', hvo', hs'⟩ := isVault_iff.mp hv
    rw [members_eq hvo'] at hr
    obtain ⟨h1, h2⟩ := hi.v.mem o' vo' hvo' hs' r hr
    exact hval r k' h2 (.inr fun hm => e (h1.symm.trans (hi.v.mem o vo hvo hs r hm).1))

/-- Two records, values 10 and 11 by position. -/
example : ∃ w' : DW, addUniqueKey Env.id demoFilled 0 3 false false (fun _ i _ => 10 + i) = some (w', .good (some 3)) ∧ value w' 0 3 = some 10 ∧ value w' 1 3 = some 11 ∧
    getKeys w' 0 = [1, 2, 3] := ⟨_, rfl, by decide, by decide, by decide⟩
/-- The same value for both records. -/
example : ∃ w' : DW, addUniqueKey Env.id demoFilled 0 3 false false (fun _ _ _ => 10) = some (w', .bad .UniqueKeyValueAlredyInSet (some 3)) ∧ w' = demoFilled := ⟨_, rfl, rfl⟩
example : ∃ w' : DW, addUniqueKey Env.id demoFilled 0 3 false true (fun _ _ _ => 10) = some (w', .bad .TryToAddUniqueKeyInNonEmptyVaultWithoutLambda (some 3)) := ⟨_, rfl⟩

/-- A set that was copied from a set without parent is treated as a vault: the function runs again for its records, in the order of
the set, and these values are stored in the records - record 0 keeps a value it was given in the vault's own order only in the vault's index. -/
theorem C29_refuted : ∃ w w' : DW, Reach (fun _ _ => True) w ∧ isVault w 0 = true ∧
    addUniqueKey Env.id w 0 3 false false (fun _ i _ => 10 + i) = some (w', .good (some 3)) ∧ members w 0 = [0, 1] ∧
    value w' 0 3 = some 11 ∧ value w' 1 3 = some 10 ∧ ordIndex w' 0 3 = [(10, 0), (11, 1)] := by
  refine ⟨_, _, anyRun_reach (l := [.newVault, .addKey 0 1 5, .newRef, .newRef, .createRecord 0 0 [(1, 7)], .createRecord 0 1 [(1, 6)], .newSet, .setCopyNew 1,
    .request 0 .GreaterOrEqual 1 0 0 false false none (fun _ => true) 2]) rfl, ?_, rfl, ?_⟩ <;> decide

end MVault.W
