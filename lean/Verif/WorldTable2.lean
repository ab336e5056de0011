import Verif.WorldTable
/-
The step on the table, call by call: keys.
-/
set_option linter.unusedSectionVars false
set_option linter.unusedSimpArgs false
set_option linter.unusedVariables false
namespace MVault.W
open MVault.Spec (Table Db Event Cmd)
variable {K V Ty : Type} [LinearOrder K] [LinearOrder V] [Typed V Ty] [DecidableEq Ty]
variable {home : Nat → Nat}

theorem bad_check {w : World K V Ty} {o : Nat} {vo : Obj K V Ty} (ho : w.getObj o = some vo) {k : K} {v : V} {res : Res K}
    (h : checkKey vo k (typeOf v) = .error res) : ∃ c, (asTable w o).bad k v = some c ∧ res = .bad c (some k) := by
  simp only [Table.bad, asTable, getKeyType_eq ho]
  unfold checkKey at h
  cases e : mget vo.cols k with
  | none => rw [e] at h; cases h; exact ⟨_, rfl, rfl⟩
  | some c =>
    rw [e] at h
    dsimp only at h
    by_cases ht : c.ty = typeOf v
    · rw [if_neg (by simp [ht])] at h; cases h
    · rw [if_pos ht] at h; cases h
      exact ⟨_, by simp [ht], rfl⟩

theorem good_check {w : World K V Ty} {o : Nat} {vo : Obj K V Ty} (ho : w.getObj o = some vo) {k : K} {v : V} {c : Col V Ty}
    (hc : mget vo.cols k = some c) (ht : c.ty = typeOf v) : (asTable w o).bad k v = none := by
  simp [Table.bad, asTable, getKeyType_eq ho, hc, ht]

/-- A call that adds a key. -/
theorem withKey_table {env : Env} {w w' : World K V Ty} (hw : HReach Ordinary home w) {own : Nat → Nat} (hi : Inv own home w) {o : Nat} {vo : Obj K V Ty}
    (hvo : w.getObj o = some vo) (hs : vo.isSet = false) {k : K} {d : V} {u : Bool} {c : Col V Ty} {upd : Nat → List (K × V) → List (K × V)}
    {val : Nat → V} {ty : Ty} (hn : mget vo.cols k = none) (st : VStep w w' o (vo.withKey k d u c) upd) (hct : c.ty = ty) (hcd : u = false → c.dflt = d)
    (hupd : ∀ r ∈ vo.recs, ∀ dt k', mget (upd r dt) k' = if k' = k then some (val r) else mget dt k') {op : Op K V Ty} {ans : Answer K}
    (hg : Ordinary home w op) (hout : outcome env w op = some (w', ans)) (hm : ∀ a, op ≠ .vaultMoveNew a) (hm' : ∀ a b, op ≠ .vaultMoveAssign a b)
    (hne : ∀ f ps, op ≠ .refSetDataMany f ps) (hwr : ∀ k, written w o k op ans = none) :
    isVault w' o = true ∧ k ∉ getKeys w o ∧ asTable w' o = (asTable w o).addKey k u ty d val := by
  have hai := reach_ai hw.any
  have ok := hi.v.vok o vo hvo hs
  have ho : isVault w o = true := isVault_iff.mpr ⟨_, hvo, hs⟩
  have hk : k ∉ getKeys w o := by rw [getKeys_eq hvo, ok.keysM, hn]; simp
  have ho' : isVault w' o = true := isVault_iff.mpr ⟨_, st.obj, hs⟩
  have hmem : members w' o = members w o := by rw [members_eq st.obj, members_eq hvo]; rfl
  have hkeys : getKeys w' o = getKeys w o ++ [k] := by rw [getKeys_eq st.obj, getKeys_eq hvo]; simp [Obj.withKey, ok.base]
  have hkU : k ∉ vo.uniq := by rw [ok.uniqM, hn]; simp
  refine ⟨ho', hk, ?_⟩
  apply Table.ext
  · exact hkeys
  · funext k'
    cases u <;> simp [asTable, Table.addKey, getUniqueKeys_eq st.obj, getUniqueKeys_eq hvo, Obj.withKey, mem_uniqIns, or_comm]
  · funext k'
    simp only [asTable, Table.addKey, getKeyType_eq st.obj, getKeyType_eq hvo, Obj.withKey, mget_mput, eq_comm (a := k)]
    split <;> simp [hct]
  · funext k'
    simp only [asTable, Table.addKey, getDefault_eq st.obj, getDefault_eq hvo, Obj.withKey, mget_mput, eq_comm (a := k)]
  · funext k'
    simp only [asTable, Table.addKey, getUniqueKeys_eq st.obj, getUniqueKeys_eq hvo, keyDefault_eq st.obj, keyDefault_eq hvo, Obj.withKey, mget_mput, eq_comm (a := k)]
    by_cases e : k' = k
    · subst e
      cases u with
      | false => simp [hkU, hcd rfl]
      | true => simp [mem_uniqIns]
    · cases u <;> simp [e, mem_uniqIns]
  · funext r; simp only [asTable, Table.addKey, hmem]
  · funext r k'
    simp only [asTable, Table.addKey, hmem]
    by_cases hr : r ∈ members w o
    · have hr' := hr
      rw [members_eq hvo] at hr'
      obtain ⟨x, hx, hc⟩ := st.cell hi.v hvo hs hr'
      simp only [hr, if_true, value_eq, (hc k').1, (hc k').2, hupd r hr']
    · simp [hr]
  · funext b k' r
    apply propext
    show Listed b w' o k' r ↔ _
    rw [seen_quiet hi hai hg hout ho ho' hm hm' hne hwr (fun r hr => by rw [hmem]; exact hr)]
    simp only [asTable, Table.addKey, hmem, hkeys]
    by_cases e : k' = k
    · subst e; simp [hk]
    · simp only [e, if_false, List.mem_append, List.mem_singleton, or_false]
      constructor
      · rintro ⟨h1, h2, h3 | h3 | h3⟩
        · exact absurd h1 h3
        · exact absurd h2 h3
        · exact h3
      · intro h1
        exact ⟨(listed_key hi hvo hs h1).1, (listed_key hi hvo hs h1).2, .inr (.inr h1)⟩

theorem addKey_table {env : Env} {w w' : World K V Ty} (hw : HReach Ordinary home w) {o : Nat} {k : K} {d : V} {res : Res K} (ho : isVault w o = true)
    (h : addKey env w o k d = some (w', res)) {fresh : Nat → Prop} :
    isVault w' o = true ∧ (asTable w o).Step fresh (.addKey k d) (.res res) (asTable w' o) := by
  obtain ⟨own, hi⟩ := reach_inv hw
  obtain ⟨vo, hvo, hs⟩ := isVault_iff.mp ho
  have ok := hi.v.vok o vo hvo hs
  have hout : outcome env w (.addKey o k d) = some (w', .res res) := by simp [outcome, onVault, ho, h]
  rcases addKey_spec hi hvo hs h with ⟨rfl, rfl, c, hc⟩ | ⟨rfl, hn, hi', c, hcd, hct, hcm, _, _, st⟩
  · exact ⟨ho, .inl ⟨by show k ∈ getKeys w' o; rw [getKeys_eq hvo]; exact (ok.keysM k).mpr ⟨c, hc⟩, rfl, rfl⟩⟩
  · obtain ⟨h1, h2, h3⟩ := withKey_table (val := fun _ => d) hw hi hvo hs hn st hct (fun _ => hcd)
      (fun r hr dt k' => by simp only [hr, if_true, mget_mput, eq_comm (a := k)])
      (show Ordinary home w (.addKey o k d) from trivial) hout (fun _ e => by cases e) (fun _ _ e => by cases e) (fun _ _ e => by cases e) (fun _ => rfl)
    exact ⟨h1, .inr ⟨h2, rfl, h3⟩⟩

theorem mem_fnValues_cast {t : Ty} {f : Nat → Nat → V} {l : List Nat} (hn : l.Nodup) {r : Nat} {v : V} :
    (r, v) ∈ fnValues t f 0 l ↔ r ∈ l ∧ v = castTo t (f (l.idxOf r) r) := by
  have key : ∀ (i : Nat) (l : List Nat), fnValues t f i l = fnValues t (fun i r => castTo t (f i r)) i l := by
    intro i l
    induction l generalizing i with
    | nil => rfl
    | cons a l ih =>
      simp only [fnValues, ih]
      congr 2
      unfold castTo
      split
      · rename_i h; simp [h]
      · simp [Typed.zero_ty]
  rw [key]
  have := mem_fnValues_idx (t := t) (f := fun i r => castTo t (f i r)) (by
    intro i r; unfold castTo; split
    · assumption
    · exact Typed.zero_ty t) hn 0 (r := r) (v := v)
  simpa using this

theorem addUniqueKey_table {env : Env} {w w' : World K V Ty} (hw : HReach Ordinary home w) {o : Nat} {k : K} {t : Ty} {noFn : Bool} {f : Nat → Nat → Nat → V}
    {res : Res K} (ho : isVault w o = true) (h : addUniqueKey env w o k t noFn f = some (w', res)) {fresh : Nat → Prop} :
    isVault w' o = true ∧ (asTable w o).Step fresh (.addUniqueKey k t noFn (f o)) (.res res) (asTable w' o) := by
  obtain ⟨own, hi⟩ := reach_inv hw
  obtain ⟨vo, hvo, hs⟩ := isVault_iff.mp ho
  have ok := hi.v.vok o vo hvo hs
  have hout : outcome env w (.addUniqueKey o k t noFn f) = some (w', .res res) := by simp [outcome, onVault, ho, h]
  have hN' : (env.perm vo.recs).Nodup := (nodup_perm env _).mpr ok.recsN
  have hmem := fun r v => mem_fnValues_cast (t := t) (f := f o) hN' (r := r) (v := v)
  have hrow : ∀ r, r ∈ env.perm vo.recs ↔ (asTable w o).row r := by
    intro r; show _ ↔ r ∈ members w o; rw [members_eq hvo]; simp
  have hrow' : ∀ r, r ∈ vo.recs ↔ (asTable w o).row r := by
    intro r; show _ ↔ r ∈ members w o; rw [members_eq hvo]
  have hnk : mget vo.cols k = none → k ∉ (asTable w o).keys := by
    intro hn; show k ∉ getKeys w o; rw [getKeys_eq hvo, ok.keysM, hn]; simp
  rcases addUniqueKey_spec hi hvo hs h with ⟨rfl, rfl, c, hc⟩ | ⟨rfl, hn, rfl, hno, hne⟩ | ⟨rfl, hn, rfl, r, r', v, hrr, h1, h2⟩ | ⟨rfl, hn, hno, hi', hinj, c, hct, hcm, st⟩
  · exact ⟨ho, .inl ⟨by show k ∈ getKeys w' o; rw [getKeys_eq hvo]; exact (ok.keysM k).mpr ⟨c, hc⟩, rfl, rfl⟩⟩
  · obtain ⟨r, hr⟩ := List.exists_mem_of_ne_nil _ hne
    exact ⟨ho, .inr (.inl ⟨hnk hn, hno, ⟨r, (hrow' r).mp hr⟩, rfl, rfl⟩)⟩
  · obtain ⟨a1, a2⟩ := (hmem r v).mp h1
    obtain ⟨b1, b2⟩ := (hmem r' v).mp h2
    refine ⟨ho, ?_⟩
    have hno : noFn = true → ∀ r, ¬ (asTable w' o).row r := by
      intro e
      by_contra hh
      have hne : vo.recs ≠ [] := by
        intro e2; rw [e2] at a1; simp at a1
      simp only [addUniqueKey, hvo, Option.bind_eq_bind, Option.bind_some, addUniqueLocal] at h
      rw [if_neg (by simp [mhas, hn]), if_pos ⟨e, hne⟩] at h
      simp [Res.bad] at h
    exact .inr (.inr ⟨hnk hn, hno, env.perm vo.recs, hN', hrow, .inl ⟨r, r', (hrow r).mp a1, (hrow r').mp b1, hrr, a2.symm.trans b2, rfl, rfl⟩⟩)
  · have hget : ∀ r ∈ vo.recs, mget (fnValues t (f o) 0 (env.perm vo.recs)) r = some (castTo t (f o ((env.perm vo.recs).idxOf r) r)) := by
      intro r hr
      exact mget_nodup (by rw [fnValues_fst]; exact hN') ((hmem r _).mpr ⟨by simpa using hr, rfl⟩)
    obtain ⟨h1, h2, h3⟩ := withKey_table (val := fun r => castTo t (f o ((env.perm vo.recs).idxOf r) r)) hw hi hvo hs hn st hct (fun e => by cases e)
      (fun r hr dt k' => by simp only [hget r hr, mget_mput, eq_comm (a := k)])
      (show Ordinary home w (.addUniqueKey o k t noFn f) from trivial) hout (fun _ e => by cases e) (fun _ _ e => by cases e) (fun _ _ e => by cases e) (fun _ => rfl)
    refine ⟨h1, .inr (.inr ⟨h2, ?_, env.perm vo.recs, hN', hrow, .inr ⟨?_, rfl, h3⟩⟩)⟩
    · intro e r hr
      have := (hrow' r).mpr hr
      rw [hno e] at this; cases this
    · intro r r' hr hr' hrr e
      exact hrr (hinj r r' _ ((hmem r _).mpr ⟨(hrow r).mpr hr, rfl⟩) ((hmem r' _).mpr ⟨(hrow r').mpr hr', e⟩))

theorem updateKey_table {w w' : World K V Ty} (hw : HReach Ordinary home w) {o : Nat} {k : K} {d : V} {res : Res K} (ho : isVault w o = true)
    (h : updateKey w o k d = some (w', res)) {fresh : Nat → Prop} :
    isVault w' o = true ∧ (asTable w o).Step fresh (.updateKey k d) (.res res) (asTable w' o) := by
  obtain ⟨own, hi⟩ := reach_inv hw
  obtain ⟨vo, hvo, hs⟩ := isVault_iff.mp ho
  have ok := hi.v.vok o vo hvo hs
  have hu : ∀ c, mget vo.cols k = some c → ((asTable w o).uniq k ↔ c.multi = false) := by
    intro c hc
    show k ∈ getUniqueKeys w o ↔ _
    rw [getUniqueKeys_eq hvo, ok.uniqM, hc]; simp
  simp only [Table.Step]
  obtain ⟨_, ⟨rfl, rfl, hn⟩ | ⟨c, hc, ht, rfl, rfl⟩ | ⟨c, hc, ht, hm, rfl, rfl⟩ | ⟨c, hc, ht, hm, rfl, rfl⟩⟩ := updateKey_spec hi hvo hs h
  · refine ⟨ho, ?_⟩
    have : (asTable w' o).bad k d = some .WrongKey := by simp [Table.bad, asTable, getKeyType_eq hvo, hn]
    rw [this]; exact ⟨rfl, rfl⟩
  · refine ⟨ho, ?_⟩
    have : (asTable w' o).bad k d = some .WrongType := by simp [Table.bad, asTable, getKeyType_eq hvo, hc, ht]
    rw [this]; exact ⟨rfl, rfl⟩
  · refine ⟨ho, ?_⟩
    rw [good_check hvo hc ht]
    exact .inl ⟨(hu c hc).mpr hm, rfl, rfl⟩
  · have hobj := getObj_putObj_self w o { vo with tmpl := mput vo.tmpl k d }
    refine ⟨isVault_iff.mpr ⟨_, hobj, hs⟩, ?_⟩
    rw [good_check hvo hc ht]
    refine .inr ⟨(fun e => by rw [(hu c hc)] at e; rw [e] at hm; cases hm), rfl, ?_⟩
    apply Table.ext
    · simp only [asTable, Table.setDefault, getKeys_eq hobj, getKeys_eq hvo]
    · simp only [asTable, Table.setDefault, getUniqueKeys_eq hobj, getUniqueKeys_eq hvo]
    · funext k'; simp only [asTable, Table.setDefault, getKeyType_eq hobj, getKeyType_eq hvo]
    · funext k'; simp only [asTable, Table.setDefault, getDefault_eq hobj, getDefault_eq hvo, mget_mput, eq_comm (a := k)]
    · funext k'; simp only [asTable, Table.setDefault, getUniqueKeys_eq hobj, getUniqueKeys_eq hvo, keyDefault_eq hobj, keyDefault_eq hvo]
    · simp only [asTable, Table.setDefault, members_eq hobj, members_eq hvo]
    · funext r k'; simp only [asTable, Table.setDefault, members_eq hobj, members_eq hvo]; rfl
    · funext b k' r
      exact propext (listed_same hvo hobj rfl)

theorem removeKey_table {env : Env} {w w' : World K V Ty} (hw : HReach Ordinary home w) {o : Nat} {k : K} {b : Bool} (ho : isVault w o = true)
    (h : removeKey env w o k = some (w', b)) {fresh : Nat → Prop} :
    isVault w' o = true ∧ (asTable w o).Step fresh (.removeKey k) (.flag b) (asTable w' o) := by
  obtain ⟨own, hi⟩ := reach_inv hw
  have hai := reach_ai hw.any
  obtain ⟨vo, hvo, hs⟩ := isVault_iff.mp ho
  have ok := hi.v.vok o vo hvo hs
  have hout : outcome env w (.removeKey o k) = some (w', .flag b) := by simp [outcome, onVault, ho, h]
  rcases removeKey_spec hi hvo hs h with ⟨rfl, rfl, hn⟩ | ⟨rfl, ⟨c, hc⟩, hi', st⟩
  · exact ⟨ho, .inl ⟨by show k ∉ getKeys w' o; rw [getKeys_eq hvo, ok.keysM, hn]; simp, rfl, rfl⟩⟩
  · have ho' : isVault w' o = true := isVault_iff.mpr ⟨_, st.obj, hs⟩
    have hmem : members w' o = members w o := by rw [members_eq st.obj, members_eq hvo]; rfl
    have hkeys : getKeys w' o = (getKeys w o).erase k := by rw [getKeys_eq st.obj, getKeys_eq hvo]; rfl
    refine ⟨ho', .inr ⟨by show k ∈ getKeys w o; rw [getKeys_eq hvo]; exact (ok.keysM k).mpr ⟨c, hc⟩, rfl, ?_⟩⟩
    apply Table.ext
    · exact hkeys
    · funext k'; simp [asTable, Table.removeKey, getUniqueKeys_eq st.obj, getUniqueKeys_eq hvo, Obj.withoutKey]
    · funext k'
      simp only [asTable, Table.removeKey, getKeyType_eq st.obj, getKeyType_eq hvo, Obj.withoutKey, mget_mdel, eq_comm (a := k)]
      split <;> rfl
    · funext k'
      simp only [asTable, Table.removeKey, getDefault_eq st.obj, getDefault_eq hvo, Obj.withoutKey, mget_mdel, eq_comm (a := k)]
    · funext k'
      simp only [asTable, Table.removeKey, getUniqueKeys_eq st.obj, getUniqueKeys_eq hvo, keyDefault_eq st.obj, keyDefault_eq hvo, Obj.withoutKey, mget_mdel, eq_comm (a := k)]
      by_cases e : k' = k
      · simp [e]
      · simp [e]
    · funext r; simp only [asTable, Table.removeKey, hmem]
    · funext r k'
      simp only [asTable, Table.removeKey, hmem]
      by_cases hr : r ∈ members w o
      · have hr' := hr
        rw [members_eq hvo] at hr'
        obtain ⟨x, hx, hc⟩ := st.cell hi.v hvo hs hr'
        simp only [hr, if_true, value_eq, (hc k').1, (hc k').2, hr', mget_mdel, eq_comm (a := k)]
      · simp [hr]
    · funext b k' r
      apply propext
      show Listed b w' o k' r ↔ _
      rw [seen_quiet hi hai (show Ordinary home w (.removeKey o k) from trivial) hout ho ho' (fun _ e => by cases e) (fun _ _ e => by cases e)
        (fun _ _ e => by cases e) (fun _ => rfl) (fun r hr => by rw [hmem]; exact hr)]
      have hN : (getKeys w o).Nodup := by rw [getKeys_eq hvo]; exact ok.keysN
      simp only [asTable, Table.removeKey, hmem, hkeys, hN.mem_erase_iff]
      constructor
      · rintro ⟨h1, h2, h3 | h3 | h3⟩
        · exact absurd h1 h3
        · exact absurd h2.2 h3
        · exact ⟨h2.1, h3⟩
      · rintro ⟨h0, h1⟩
        exact ⟨(listed_key hi hvo hs h1).1, ⟨h0, (listed_key hi hvo hs h1).2⟩, .inr (.inr h1)⟩

end MVault.W
