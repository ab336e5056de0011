import Verif.WorldDeep8
/-
Dropping, destroying and copying vaults in careful histories: defined, and the set invariant is kept.
-/
set_option linter.unusedSectionVars false
set_option linter.unusedSimpArgs false
namespace MVault.W
variable {K V Ty : Type} [LinearOrder K] [LinearOrder V] [Typed V Ty] [DecidableEq Ty]
variable {own home : Nat → Nat}

theorem loop_invalidate_some {l : List Nat} {w : World K V Ty} (hn : l.Nodup) (hl : ∀ r ∈ l, ∃ x, w.getRec r = some x) :
    ∃ w', loop invalidate l w = some w' ∧ w'.objs = w.objs ∧ w'.nextO = w.nextO ∧ (∀ r, r ∉ l → w'.getRec r = w.getRec r) ∧
      ∀ r ∈ l, ∀ y, w'.getRec r = some y → y.valid = false ∧ ∃ x, w.getRec r = some x ∧ y.deps = x.deps := by
  induction l generalizing w with
  | nil => exact ⟨w, rfl, rfl, rfl, fun _ _ => rfl, by simp⟩
  | cons r l ih =>
    obtain ⟨hr, hn⟩ := List.nodup_cons.mp hn
    obtain ⟨x, hx⟩ := hl r (by simp)
    let w1 : World K V Ty := if x.refs = 0 then w.freeRec r else w.putRec r { x with valid := false }
    have h1 : invalidate w r = some w1 := by simp only [invalidate, hx, Option.map_some, w1]
    have e1 : w1.objs = w.objs ∧ w1.nextO = w.nextO := by simp only [w1]; split <;> exact ⟨rfl, rfl⟩
    have g1 : ∀ t, t ≠ r → w1.getRec t = w.getRec t := by
      intro t hne
      simp only [w1]; split
      · simp only [World.freeRec, World.getRec, mget_mdel, if_neg (Ne.symm hne)]
      · rw [getRec_putRec, if_neg (Ne.symm hne)]
    have g2 : ∀ y, w1.getRec r = some y → y.valid = false ∧ y.deps = x.deps := by
      intro y hy
      simp only [w1] at hy; split at hy
      · simp [World.freeRec, World.getRec, mget_mdel] at hy
      · rw [getRec_putRec, if_pos rfl] at hy; cases hy; exact ⟨rfl, rfl⟩
    obtain ⟨w2, h2, a1, a2, a3, a4⟩ := ih (w := w1) hn (by
      intro t ht
      have : t ≠ r := by rintro rfl; exact hr ht
      rw [g1 t this]; exact hl t (by simp [ht]))
    refine ⟨w2, by simp only [loop, h1, Option.bind_some]; exact h2, a1.trans e1.1, a2.trans e1.2, ?_, ?_⟩
    · intro t ht
      simp only [List.mem_cons, not_or] at ht
      rw [a3 t ht.2, g1 t ht.1]
    · intro t ht y hy
      simp only [List.mem_cons] at ht
      by_cases e : t = r
      · subst e
        rw [a3 t hr] at hy
        obtain ⟨b1, b2⟩ := g2 y hy
        exact ⟨b1, x, hx, b2⟩
      · have ht' := ht.resolve_left e
        obtain ⟨b1, y1, b2, b3⟩ := a4 t ht' y hy
        rw [g1 t e] at b2
        exact ⟨b1, y1, b2, b3⟩

/-- Records that no set holds become invalid. -/
theorem Deep.dead {w w' : World K V Ty} (hd : Deep w) {l : List Nat} (ho : w'.objs = w.objs)
    (h1 : ∀ r, r ∉ l → w'.getRec r = w.getRec r)
    (h2 : ∀ r ∈ l, ∀ y, w'.getRec r = some y → y.valid = false ∧ ∃ x, w.getRec r = some x ∧ y.deps = x.deps)
    (h3 : ∀ s so, w.getObj s = some so → so.isSet = true → ∀ r ∈ so.recs, r ∉ l) : Deep w' := by
  have hg : ∀ t, w'.getObj t = w.getObj t := fun t => getObj_of_objs ho t
  refine ⟨?_, ?_, ?_, ?_⟩
  · intro s so hs his
    rw [hg] at hs
    refine (hd.set s so hs his).frame ?_ ?_
    · intro r hr x hx hv hdx
      exact ⟨x, by rw [h1 r (h3 s so hs his r hr)]; exact hx, hv, hdx, fun _ _ => rfl⟩
    · intro p po _ hp
      rw [hg] at hp; exact ⟨po, hp, .refl _⟩
  · intro r y s hy hyv hm
    by_cases hr : r ∈ l
    · rw [(h2 r hr y hy).1] at hyv; cases hyv
    · rw [h1 r hr] at hy
      rw [hg]; exact hd.told r y s hy hyv hm
  · intro r y hy
    by_cases hr : r ∈ l
    · obtain ⟨_, x, hx, e⟩ := h2 r hr y hy
      rw [e]; exact hd.depsN r x hx
    · rw [h1 r hr] at hy; exact hd.depsN r y hy
  · intro t y hy; rw [hg] at hy; exact hd.setsN t y hy

theorem loop_setClear_deep {env : Env} {w : World K V Ty} {l : List Nat} (hd : Deep w) (hsi : SI own home w)
    (hl : ∀ s ∈ l, ∃ so, w.getObj s = some so ∧ so.isSet = true) :
    ∃ w', loop (setClear env) l w = some w' ∧ Deep w' ∧ (∀ t, t ∉ l → w'.getObj t = w.getObj t) ∧
      ∀ s ∈ l, ∀ so, w.getObj s = some so → ∃ so', w'.getObj s = some so' ∧ so'.isSet = so.isSet ∧ so'.parent = so.parent ∧ SameKeys so so' := by
  obtain ⟨w', h, d, _, _, d3, d4⟩ := loop_some (fun w' : World K V Ty => Deep w' ∧ SI own home w' ∧ (∀ s ∈ l, ∃ so, w'.getObj s = some so ∧ so.isSet = true) ∧
      (∀ t, t ∉ l → w'.getObj t = w.getObj t) ∧
      ∀ s ∈ l, ∀ so, w.getObj s = some so → ∃ so', w'.getObj s = some so' ∧ so'.isSet = so.isSet ∧ so'.parent = so.parent ∧ SameKeys so so')
    (setClear env) l w (by
      rintro s hs b ⟨b1, b2, b3, b4, b5⟩
      obtain ⟨so, hso, his⟩ := b3 s hs
      obtain ⟨b', e, _, c1, c2, c3, c4, _⟩ := setClear_deep (env := env) b1 b2 hso his
      refine ⟨b', e, c1, c2, ?_, ?_, ?_⟩
      · intro t ht
        by_cases e : t = s
        · subst e; exact ⟨_, c3, his⟩
        · rw [c4 t e]; exact b3 t ht
      · intro t ht
        rw [c4 t (by rintro rfl; exact ht hs)]; exact b4 t ht
      · intro t ht to hto
        obtain ⟨t1, g1, g2, g3, g4⟩ := b5 t ht to hto
        by_cases e : t = s
        · subst e
          rw [hso] at g1; cases g1
          refine ⟨_, c3, g2, g3, ⟨g4.keys, g4.uniq, ?_⟩⟩
          intro k
          simp only [clearCols, mget_mmap, Option.map_map]
          rw [← g4.kind k]; rfl
        · rw [c4 t e]; exact ⟨t1, g1, g2, g3, g4⟩) ⟨hd, hsi, hl, fun _ _ => rfl, fun s hs so hso => ⟨so, hso, rfl, rfl, .refl _⟩⟩
  exact ⟨w', h, d, d3, d4⟩

theorem loop_setReset_deep {env : Env} {w : World K V Ty} {l : List Nat} (hd : Deep w) (hsi : SI own home w)
    (hl : ∀ s ∈ l, ∃ so, w.getObj s = some so ∧ so.isSet = true) :
    ∃ w', loop (setReset env) l w = some w' ∧ Deep w' ∧ ∀ t to, t ∉ l → w.getObj t = some to → to.isSet = true → w'.getObj t = some to := by
  obtain ⟨w', h, d, _, _, d4⟩ := loop_some (fun w' : World K V Ty => Deep w' ∧ SI own home w' ∧ (∀ s ∈ l, ∃ so, w'.getObj s = some so ∧ so.isSet = true) ∧
      ∀ t to, t ∉ l → w.getObj t = some to → to.isSet = true → w'.getObj t = some to)
    (setReset env) l w (by
      rintro s hs b ⟨b1, b2, b3, b4⟩
      obtain ⟨so, hso, his⟩ := b3 s hs
      obtain ⟨b', so', e, _, c1, c2, c3, c4, _⟩ := setReset_deep (env := env) b1 b2 hso his
      refine ⟨b', e, c1, c2, ?_, ?_⟩
      · intro t ht
        by_cases e : t = s
        · subst e; exact ⟨_, c3.get, c3.isSet⟩
        · obtain ⟨to, hto, hti⟩ := b3 t ht
          rw [c4 t e, hto]; split
          · exact ⟨_, rfl, hti⟩
          · exact ⟨to, rfl, hti⟩
      · intro t to ht hto hti
        have hb := b4 t to ht hto hti
        rw [c4 t (by rintro rfl; exact ht hs), if_neg]
        · exact hb
        · intro hp
          obtain ⟨po, p1, p2, _⟩ := b2.l.up s so t hso his hp
          rw [hb] at p1; cases p1; rw [hti] at p2; cases p2) ⟨hd, hsi, hl, fun _ _ _ h _ => h⟩
  exact ⟨w', h, d, d4⟩

/-- What clearing a vault's data does to the sets: those of the vault become empty. -/
def SetsEmpty (o : Nat) (w w' : World K V Ty) : Prop :=
  ∀ s so, w.getObj s = some so → so.isSet = true →
    (so.parent ≠ some o ∧ w'.getObj s = some so) ∨
    (so.parent = some o ∧ ∃ so', w'.getObj s = some so' ∧ so'.isSet = true ∧ so'.parent = some o ∧ SameKeys so so' ∧ so'.recs = [])

/-- The sets of a vault are those attached to it. -/
theorem sets_iff {w : World K V Ty} (hi : Inv own home w) {o s : Nat} {vo so : Obj K V Ty} (ho : w.getObj o = some vo) (hs : vo.isSet = false)
    (hso : w.getObj s = some so) (his : so.isSet = true) : s ∈ vo.sets ↔ so.parent = some o := by
  constructor
  · intro hm
    obtain ⟨so1, a, _, b⟩ := hi.l.down o vo s ho hs hm
    rw [hso] at a; cases a; exact b
  · intro hp
    obtain ⟨po, h1, _, h3⟩ := hi.l.up s so o hso his hp
    rw [ho] at h1; cases h1; exact h3

theorem dropData_obj {env : Env} {w : World K V Ty} {o : Nat} {vo : Obj K V Ty} (hi : Inv own home w) (hd : Deep w)
    (ho : w.getObj o = some vo) (hs : vo.isSet = false) : ∃ w', dropData env w o = some w' ∧ Deep w' ∧ SetsEmpty o w w' := by
  have hvok := hi.v.vok o vo ho hs
  have hl : ∀ s ∈ env.perm vo.sets, ∃ so, w.getObj s = some so ∧ so.isSet = true := by
    intro s hm
    obtain ⟨so, a, b, _⟩ := hi.l.down o vo s ho hs (by simpa using hm)
    exact ⟨so, a, b⟩
  obtain ⟨w1, h1, d1, k1, k2⟩ := loop_setClear_deep (env := env) (l := env.perm vo.sets) hd ⟨hi.s, hi.l⟩ hl
  obtain ⟨sq1, hclear⟩ := loop_setClear (own := own) (home := home) ⟨hi.s, hi.l⟩ hl h1
  have ho1 := sq1.vaultObj ho hs
  have i1 := sq1.inv hi
  obtain ⟨w2, h2, a1, a2, a3, a4⟩ := loop_invalidate_some (w := w1) (l := env.perm vo.recs) ((nodup_perm env _).mpr hvok.recsN) (by
    intro r hr
    obtain ⟨_, x, hx, _⟩ := i1.v.mem o vo ho1 hs r (by simpa using hr)
    exact ⟨x, hx⟩)
  have d2 : Deep w2 := d1.dead a1 a3 a4 (by
    intro s so hso his r hr hm
    obtain ⟨hpar, _⟩ := holder i1 d1 ho1 (i1.v.mem o vo ho1 hs r (by simpa using hm)).1 hso his hr
    obtain ⟨po, p1, _, p3⟩ := i1.l.up s so o hso his hpar
    rw [ho1] at p1; cases p1
    obtain ⟨so', b1, _, b3⟩ := hclear s (by simpa using p3)
    rw [hso] at b1; cases b1
    rw [b3] at hr; simp at hr)
  have ho2 : w2.getObj o = some vo := by rw [getObj_of_objs a1]; exact ho1
  refine ⟨w2.putObj o { vo with cols := clearCols vo.cols, recs := [] }, ?_, ?_, ?_⟩
  · simp only [dropData, ho, Option.bind_eq_bind, Option.bind_some, h1, h2, ho2]
  · refine d2.putVault ho2 hs hs ⟨rfl, rfl, ?_⟩ (d2.setsN o vo ho2)
    intro k
    simp only [clearCols, mget_mmap, Option.map_map]; rfl
  · intro s so hso his
    have hne : o ≠ s := by rintro rfl; rw [ho] at hso; cases hso; rw [hs] at his; cases his
    have hw : (w2.putObj o { vo with cols := clearCols vo.cols, recs := [] }).getObj s = w1.getObj s := by
      rw [getObj_putObj, if_neg hne, getObj_of_objs a1]
    rw [hw]
    by_cases hm : s ∈ vo.sets
    · have hp := (sets_iff hi ho hs hso his).mp hm
      obtain ⟨so1, b1, b2, b3⟩ := hclear s (by simpa using hm)
      obtain ⟨so2, c1, c2, c3, c4⟩ := k2 s (by simpa using hm) so hso
      rw [b1] at c1; cases c1
      exact .inr ⟨hp, so1, b1, b2, c3.trans hp, c4, b3⟩
    · exact .inl ⟨fun hp => hm ((sets_iff hi ho hs hso his).mpr hp), by rw [k1 s (by simpa using hm)]; exact hso⟩

theorem dropData_deep {env : Env} {w : World K V Ty} {o : Nat} {vo : Obj K V Ty} (hi : Inv own home w) (hd : Deep w)
    (ho : w.getObj o = some vo) (hs : vo.isSet = false) : ∃ w', dropData env w o = some w' ∧ Deep w' := by
  obtain ⟨w', h, d, _⟩ := dropData_obj (env := env) hi hd ho hs
  exact ⟨w', h, d⟩

/-- A vault without sets is replaced by another one without sets; records may appear that are in no set. -/
theorem Deep.lone {w w' : World K V Ty} (hd : Deep w) (hl : Link w) {o : Nat} {vo vo' : Obj K V Ty} (ho : w.getObj o = some vo) (hs : vo.isSet = false)
    (hn : vo.sets = []) (ho' : w'.getObj o = some vo') (hs' : vo'.isSet = false) (hn' : vo'.sets = []) (hobj : ∀ t, t ≠ o → w'.getObj t = w.getObj t)
    (hr : ∀ r y, w'.getRec r = some y → w.getRec r = some y ∨ y.deps = []) (hr' : ∀ r x, w.getRec r = some x → w'.getRec r = some x) : Deep w' := by
  refine ⟨?_, ?_, ?_, ?_⟩
  · intro s so hso his
    have hne : s ≠ o := by rintro rfl; rw [ho'] at hso; cases hso; rw [hs'] at his; cases his
    rw [hobj s hne] at hso
    refine (hd.set s so hso his).frame (fun r _ x hx hv hdx => ⟨x, hr' r x hx, hv, hdx, fun _ _ => rfl⟩) ?_
    intro p po hp hpo
    have hpo' : p ≠ o := by
      rintro rfl
      obtain ⟨q, h1, _, h3⟩ := hl.up s so p hso his hp
      rw [ho] at h1; cases h1; rw [hn] at h3; simp at h3
    rw [hobj p hpo'] at hpo
    exact ⟨po, hpo, .refl _⟩
  · intro r y s hy hyv hm
    rcases hr r y hy with h | h
    · obtain ⟨so, a, b, c⟩ := hd.told r y s h hyv hm
      have hne : s ≠ o := by rintro rfl; rw [ho] at a; cases a; rw [hs] at b; cases b
      exact ⟨so, by rw [hobj s hne]; exact a, b, c⟩
    · rw [h] at hm; simp at hm
  · intro r y hy
    rcases hr r y hy with h | h
    · exact hd.depsN r y h
    · rw [h]; simp
  · intro t y hy
    by_cases e : t = o
    · subst e; rw [ho'] at hy; cases hy; rw [hn']; simp
    · rw [hobj t e] at hy; exact hd.setsN t y hy

/-- What the end of a vault's contents does to the sets: those of the vault are detached. -/
def SetsFree (o : Nat) (w w' : World K V Ty) : Prop :=
  ∀ s so, w.getObj s = some so → so.isSet = true →
    (so.parent ≠ some o ∧ w'.getObj s = some so) ∨
    (so.parent = some o ∧ ∃ so', w'.getObj s = some so' ∧ so'.isSet = true ∧ so'.parent = none)

theorem dropVault_sets {env : Env} {w : World K V Ty} {o : Nat} {vo : Obj K V Ty} (hi : Inv own home w) (hd : Deep w)
    (ho : w.getObj o = some vo) (hs : vo.isSet = false) : ∃ w', dropVault env w o = some w' ∧ Deep w' ∧ SetsFree o w w' := by
  have hvok := hi.v.vok o vo ho hs
  have hl : ∀ s ∈ env.perm vo.sets, ∃ so, w.getObj s = some so ∧ so.isSet = true := by
    intro s hm
    obtain ⟨so, a, b, _⟩ := hi.l.down o vo s ho hs (by simpa using hm)
    exact ⟨so, a, b⟩
  obtain ⟨w1, h1, d1, k1⟩ := loop_setReset_deep (env := env) (l := env.perm vo.sets) hd ⟨hi.s, hi.l⟩ hl
  obtain ⟨sp1, ho1, hsets⟩ := loop_setReset (own := own) (home := home) ⟨hi.s, hi.l⟩ ho hs hl h1
  have i1 := sp1.inv hi
  have hemp : vo.sets.filter (fun s => decide (s ∉ env.perm vo.sets)) = [] := by
    rw [List.filter_eq_nil_iff]; intro s hm; simp [hm]
  rw [hemp] at ho1
  obtain ⟨w2, h2, a1, a2, a3, a4⟩ := loop_invalidate_some (w := w1) (l := env.perm vo.recs) ((nodup_perm env _).mpr hvok.recsN) (by
    intro r hr
    obtain ⟨_, x, hx, _⟩ := i1.v.mem o _ ho1 hs r (show r ∈ vo.recs by simpa using hr)
    exact ⟨x, hx⟩)
  have d2 : Deep w2 := d1.dead a1 a3 a4 (by
    intro s so hso his r hr hm
    obtain ⟨hpar, _⟩ := holder i1 d1 ho1 (i1.v.mem o _ ho1 hs r (show r ∈ vo.recs by simpa using hm)).1 hso his hr
    obtain ⟨po, p1, _, p3⟩ := i1.l.up s so o hso his hpar
    rw [ho1] at p1; cases p1
    simp at p3)
  have ho2 : w2.getObj o = some { vo with sets := [] } := by rw [getObj_of_objs a1]; exact ho1
  refine ⟨w2.putObj o vo.emptied, ?_, ?_, ?_⟩
  · simp only [dropVault, ho, Option.bind_eq_bind, Option.bind_some, h1, dropCore, ho1, h2]; rfl
  · have hlk : Link w2 := by
      refine i1.l.congr ?_
      intro t; simp only [Lk, getObj_of_objs a1]
    refine d2.lone hlk ho2 hs rfl (vo' := vo.emptied) (getObj_putObj_self _ _ _) hs rfl ?_ (fun r y hy => .inl hy) (fun r x hx => hx)
    intro t hne
    simp only [getObj_putObj, if_neg (Ne.symm hne)]
  · intro s so hso his
    have hne : o ≠ s := by rintro rfl; rw [ho] at hso; cases hso; rw [hs] at his; cases his
    have hw : (w2.putObj o vo.emptied).getObj s = w1.getObj s := by
      rw [getObj_putObj, if_neg hne, getObj_of_objs a1]
    rw [hw]
    by_cases hm : s ∈ vo.sets
    · obtain ⟨so1, b1, b2, b3, _⟩ := hsets s (by simpa using hm)
      exact .inr ⟨(sets_iff hi ho hs hso his).mp hm, so1, b1, b2, b3⟩
    · exact .inl ⟨fun hp => hm ((sets_iff hi ho hs hso his).mpr hp), k1 s so (by simpa using hm) hso his⟩

theorem dropVault_deep {env : Env} {w : World K V Ty} {o : Nat} {vo : Obj K V Ty} (hi : Inv own home w) (hd : Deep w)
    (ho : w.getObj o = some vo) (hs : vo.isSet = false) : ∃ w', dropVault env w o = some w' ∧ Deep w' := by
  obtain ⟨w', h, d, _⟩ := dropVault_sets (env := env) hi hd ho hs
  exact ⟨w', h, d⟩

/-- An object without links disappears. -/
theorem Deep.del {w : World K V Ty} (hd : Deep w) (hl : Link w) {o : Nat} {oo : Obj K V Ty} (ho : w.getObj o = some oo)
    (h : (oo.isSet = false ∧ oo.sets = []) ∨ (oo.isSet = true ∧ oo.recs = [])) : Deep ({ w with objs := mdel w.objs o } : World K V Ty) := by
  have hg : ∀ o' x, ({ w with objs := mdel w.objs o } : World K V Ty).getObj o' = some x → o' ≠ o ∧ w.getObj o' = some x := by
    intro o' x hx
    rw [getObj_del] at hx
    split at hx
    · cases hx
    · rename_i e; exact ⟨Ne.symm e, hx⟩
  refine ⟨?_, ?_, hd.depsN, ?_⟩
  · intro s so hs his
    obtain ⟨_, hs⟩ := hg s so hs
    exact (hd.set s so hs his).frame (fun r _ x hx hv hdx => ⟨x, hx, hv, hdx, fun _ _ => rfl⟩) (fun p po _ hp => ⟨po, (hg p po hp).2, .refl _⟩)
  · intro r y s hy hyv hm
    obtain ⟨so, a, b, c⟩ := hd.told r y s hy hyv hm
    have hne : o ≠ s := by
      rintro rfl
      rw [ho] at a; cases a
      rcases h with ⟨h, _⟩ | ⟨_, h⟩
      · rw [h] at b; cases b
      · rw [h] at c; simp at c
    exact ⟨so, by rw [getObj_del, if_neg hne]; exact a, b, c⟩
  · intro t y hy; exact hd.setsN t y (hg t y hy).2

theorem destroyVault_deep {env : Env} {w : World K V Ty} {o : Nat} {vo : Obj K V Ty} (hi : Inv own home w) (hd : Deep w)
    (ho : w.getObj o = some vo) (hs : vo.isSet = false) : ∃ w', destroyVault env w o = some w' ∧ Deep w' := by
  obtain ⟨w1, h1, d1⟩ := dropVault_deep (env := env) hi hd ho hs
  obtain ⟨i1, ho1, _⟩ := dropVault_spec hi ho hs h1
  exact ⟨_, by simp only [destroyVault, h1, Option.bind_eq_bind, Option.bind_some], d1.del i1.l ho1 (.inl ⟨hs, rfl⟩)⟩

theorem destroyVault_sets {env : Env} {w w' : World K V Ty} {o : Nat} {vo : Obj K V Ty} (hi : Inv own home w) (hd : Deep w)
    (ho : w.getObj o = some vo) (hs : vo.isSet = false) (h : destroyVault env w o = some w') : SetsFree o w w' := by
  obtain ⟨w1, h1, d1, f1⟩ := dropVault_sets (env := env) hi hd ho hs
  simp only [destroyVault, h1, Option.bind_eq_bind, Option.bind_some, Option.some.injEq] at h
  subst h
  intro s so hso his
  have hne : o ≠ s := by rintro rfl; rw [ho] at hso; cases hso; rw [hs] at his; cases his
  rw [getObj_del, if_neg hne]
  exact f1 s so hso his

theorem destroySet_deep {env : Env} {w : World K V Ty} {s : Nat} {so : Obj K V Ty} (hi : Inv own home w) (hd : Deep w)
    (hs : w.getObj s = some so) (his : so.isSet = true) : ∃ w', destroySet env w s = some w' ∧ Deep w' := by
  obtain ⟨w1, so1, h1, on, d1, si1, lo, _⟩ := setReset_deep (env := env) hd ⟨hi.s, hi.l⟩ hs his
  let so2 : Obj K V Ty := { so1 with tmpl := [], cols := [], keysOrder := [], uniq := [], recs := [], sets := [] }
  have h2 : dropVault env w1 s = some (w1.putObj s so2) := by
    simp only [dropVault, lo.get, lo.sets, Option.bind_eq_bind, Option.bind_some, perm_nil, loop, dropCore, lo.recs]
    have e1 := lo.recs
    have e2 := lo.sets
    simp only [so2]
  have d2 : Deep (w1.putObj s so2) := by
    refine d1.only si1.l (Only.putSet s w1 so2) lo.get lo.isSet (getObj_putObj_self _ _ _) lo.isSet (by simp [so2]) ?_ ?_
    · refine ⟨by simp [so2], by simp [so2], by simp [so2, mget], fun _ => ⟨rfl, rfl, rfl⟩, ?_⟩
      intro p po hp
      have : so1.parent = some p := hp
      rw [lo.parent] at this; cases this
    · intro r x hx hv hm
      exact absurd hm (lo.unk r x hx hv)
  have l2 : Link (w1.putObj s so2) := by
    refine si1.l.congr ?_
    intro t
    simp only [Lk, getObj_putObj]
    split
    · rename_i e; subst e; rw [lo.get]; simp [so2, lo.sets]
    · rfl
  exact ⟨_, by simp only [destroySet, h1, h2, Option.bind_eq_bind, Option.bind_some],
    d2.del l2 (getObj_putObj_self _ _ _) (.inr ⟨lo.isSet, rfl⟩)⟩

/-! ### Copying vaults -/

theorem copyInto_deep {env : Env} {w : World K V Ty} {o a : Nat} {vo ao : Obj K V Ty} (hi : Inv own home w) (hd : Deep w)
    (ho : w.getObj o = some vo) (hs : vo.isSet = false) (ha : w.getObj a = some ao) (has : ao.isSet = false) (hne : o ≠ a)
    (hu : ao.uniq = []) (hc : vo.cols = []) (ht : vo.tmpl = []) (hr : vo.recs = []) (hn : vo.sets = []) :
    ∃ w', copyInto env w o a = some w' ∧ Deep w' := by
  have hw : w.putObj o vo = w := by
    show ({ w with objs := mput w.objs o vo } : World K V Ty) = w
    rw [show mput w.objs o vo = w.objs from mput_same _ _ _ ho]
  obtain ⟨w', h, cp⟩ := copyInto_spec (env := env) (w := w) (o := o) (vo := vo) hne ha hr hi.v.ltR (by
    intro r hr
    obtain ⟨_, x, hx, _⟩ := hi.v.mem a ao ha has r hr
    exact ⟨x, hx⟩)
  rw [hw] at h cp
  have i' := copyInto_inv hi ho hs ha has hne hu hc ht hr h
  obtain ⟨a1, a2, a3, a4, a5, a6, a7, a8⟩ := withKeys_spec ao.cols vo
  obtain ⟨cols, hob, _⟩ := cp.obj
  refine ⟨w', h, hd.lone hi.l ho hs hn hob (a1.trans hs) (a6.trans hn) cp.objs ?_ ?_⟩
  · intro r y hy
    by_cases hlt : r < w.nextR
    · rw [cp.old r hlt] at hy; exact .inl hy
    · have h1 := i'.v.ltR r y hy
      rw [cp.nextR] at h1
      have h2 : r - w.nextR < (env.perm ao.recs).length := by omega
      obtain ⟨x, _, hx⟩ := cp.new (r - w.nextR) _ (List.getElem?_eq_getElem h2)
      rw [show w.nextR + (r - w.nextR) = r by omega] at hx
      rw [hx] at hy; cases hy; exact .inr rfl
  · intro r x hx
    rw [cp.old r (hi.v.ltR r x hx)]; exact hx

theorem copyInto_sets {env : Env} {w w' : World K V Ty} {o a : Nat} {vo ao : Obj K V Ty} (hi : Inv own home w)
    (ho : w.getObj o = some vo) (ha : w.getObj a = some ao) (has : ao.isSet = false) (hne : o ≠ a)
    (hr : vo.recs = []) (h : copyInto env w o a = some w') : ∀ t, t ≠ o → w'.getObj t = w.getObj t := by
  have hw : w.putObj o vo = w := by
    show ({ w with objs := mput w.objs o vo } : World K V Ty) = w
    rw [show mput w.objs o vo = w.objs from mput_same _ _ _ ho]
  obtain ⟨w1, h1, cp⟩ := copyInto_spec (env := env) (w := w) (o := o) (vo := vo) hne ha hr hi.v.ltR (by
    intro r hr
    obtain ⟨_, x, hx, _⟩ := hi.v.mem a ao ha has r hr
    exact ⟨x, hx⟩)
  rw [hw] at h1 cp
  rw [h] at h1; cases h1
  exact cp.objs

theorem vaultCopyNew_sets {env : Env} {w w' : World K V Ty} {a : Nat} {ao : Obj K V Ty} (hi : Inv own home w)
    (ha : w.getObj a = some ao) (has : ao.isSet = false) (h : vaultCopyNew env w a = some w') : ∀ t, t ≠ w.nextO → w'.getObj t = w.getObj t := by
  have hlt := hi.v.ltO a ao ha
  have hne : w.nextO ≠ a := by omega
  intro t ht
  have hn : ∀ t, (newVault w).getObj t = if w.nextO = t then some Obj.newVault else w.getObj t := fun t => by rw [newVault, getObj_new]
  have := copyInto_sets (w := newVault w) (hi.newObj (.inl rfl)) (vo := Obj.newVault) (by rw [hn, if_pos rfl])
    (by rw [hn, if_neg hne]; exact ha) has hne rfl h t ht
  rw [this, hn, if_neg (Ne.symm ht)]

theorem vaultAssign_sets {env : Env} {w w' : World K V Ty} {o a : Nat} {vo ao : Obj K V Ty} (hi : Inv own home w) (hd : Deep w)
    (ho : w.getObj o = some vo) (hs : vo.isSet = false) (ha : w.getObj a = some ao) (has : ao.isSet = false) (hne : o ≠ a)
    (h : vaultAssign env w o a = some w') : SetsFree o w w' := by
  unfold vaultAssign at h
  rw [if_neg hne] at h
  obtain ⟨w1, h1, d1, f1⟩ := dropVault_sets (env := env) hi hd ho hs
  obtain ⟨i1, ho1, hobs, _⟩ := dropVault_spec hi ho hs h1
  obtain ⟨ao1, ha1, e1, e2⟩ := (hobs a (Ne.symm hne)).to ha
  simp only [h1, Option.bind_eq_bind, Option.bind_some] at h
  have hk := copyInto_sets i1 ho1 ha1 (e1.trans has) hne rfl h
  intro s so hso his
  have hs1 : s ≠ o := by rintro rfl; rw [ho] at hso; cases hso; rw [hs] at his; cases his
  rw [hk s hs1]
  exact f1 s so hso his

theorem vaultCopyNew_deep {env : Env} {w : World K V Ty} {a : Nat} {ao : Obj K V Ty} (hi : Inv own home w) (hd : Deep w)
    (ha : w.getObj a = some ao) (has : ao.isSet = false) (hu : ao.uniq = []) : ∃ w', vaultCopyNew env w a = some w' ∧ Deep w' := by
  have hlt := hi.v.ltO a ao ha
  have hne : w.nextO ≠ a := by omega
  exact copyInto_deep (hi.newObj (.inl rfl)) (hd.newObj hi (.inl rfl)) (vo := Obj.newVault) (by rw [newVault, getObj_new, if_pos rfl]) rfl
    (by rw [newVault, getObj_new, if_neg hne]; exact ha) has hne hu rfl rfl rfl rfl

theorem vaultAssign_deep {env : Env} {w : World K V Ty} {o a : Nat} {vo ao : Obj K V Ty} (hi : Inv own home w) (hd : Deep w)
    (ho : w.getObj o = some vo) (hs : vo.isSet = false) (ha : w.getObj a = some ao) (has : ao.isSet = false) (hu : ao.uniq = []) :
    ∃ w', vaultAssign env w o a = some w' ∧ Deep w' := by
  unfold vaultAssign
  by_cases hne : o = a
  · rw [if_pos hne]; exact ⟨w, rfl, hd⟩
  · rw [if_neg hne]
    obtain ⟨w1, h1, d1⟩ := dropVault_deep (env := env) hi hd ho hs
    obtain ⟨i1, ho1, hobs, _⟩ := dropVault_spec hi ho hs h1
    obtain ⟨ao1, ha1, e1, e2⟩ := (hobs a (Ne.symm hne)).to ha
    have e2' := e2 has
    obtain ⟨w2, h2, d2⟩ := copyInto_deep (env := env) i1 d1 ho1 hs ha1 (e1.trans has) hne (by rw [e2']; exact hu) rfl rfl rfl rfl
    exact ⟨w2, by simp only [h1, Option.bind_eq_bind, Option.bind_some, h2], d2⟩

/-- A vault nobody else uses has no sets. -/
theorem Untied.noSets {w : World K V Ty} {a : Nat} {ao : Obj K V Ty} (hi : Inv own home w) (ha : w.getObj a = some ao) (has : ao.isSet = false)
    (hu : Untied home w a) : ao.sets = [] := by
  apply List.eq_nil_iff_forall_not_mem.mpr
  intro s hm
  obtain ⟨so, h1, h2, h3⟩ := hi.l.down a ao s ha has hm
  exact hu.1 s (hi.v.ltO s so h1) ((hi.s.sets s so h1 h2).par a h3).symm

/-- Handing the contents of a vault without sets over to a vault without sets. -/
theorem moveInto_deep {w : World K V Ty} {o a : Nat} {vo ao : Obj K V Ty} (hl : Link w) (hd : Deep w)
    (ho : w.getObj o = some vo) (hs : vo.isSet = false) (ha : w.getObj a = some ao) (has : ao.isSet = false) (hne : o ≠ a)
    (hn : vo.sets = []) (hna : ao.sets = []) :
    ∃ w', moveInto w o a = some w' ∧ Deep w' ∧ (∀ t, t ≠ o → t ≠ a → w'.getObj t = w.getObj t) := by
  obtain ⟨w1, hw1⟩ : ∃ w1, w1 = w.putObj o { vo with tmpl := ao.tmpl, cols := ao.cols, keysOrder := ao.keysOrder, uniq := ao.uniq, recs := ao.recs, sets := ao.sets } := ⟨_, rfl⟩
  refine ⟨w1.putObj a { ao with tmpl := [], cols := [], keysOrder := [], uniq := [], recs := [], sets := [] }, by
    rw [hw1]; simp only [moveInto, ha, ho, Option.bind_eq_bind, Option.bind_some], ?_, fun t h1 h2 => by
    rw [getObj_putObj, if_neg (Ne.symm h2), hw1, getObj_putObj, if_neg (Ne.symm h1)]⟩
  have hg1 : ∀ t, t ≠ o → w1.getObj t = w.getObj t := fun t h => by rw [hw1, getObj_putObj, if_neg (Ne.symm h)]
  have d1 : Deep w1 := hd.lone hl ho hs hn (vo' := { vo with tmpl := ao.tmpl, cols := ao.cols, keysOrder := ao.keysOrder, uniq := ao.uniq, recs := ao.recs, sets := ao.sets }) (by rw [hw1]; exact getObj_putObj_self _ _ _) hs hna hg1 (fun r y h => .inl (by rw [hw1] at h; exact h)) (fun r x h => by rw [hw1]; exact h)
  have ha1 : w1.getObj a = some ao := by rw [hg1 a (Ne.symm hne)]; exact ha
  have l1 : Link w1 := by
    constructor
    · intro s so p h1 h2 h3
      have e : s ≠ o := by rintro rfl; rw [hw1, getObj_putObj_self] at h1; cases h1; rw [show vo.isSet = true from h2] at hs; cases hs
      rw [hg1 s e] at h1
      obtain ⟨po, g1, g2, g3⟩ := hl.up s so p h1 h2 h3
      have e' : p ≠ o := by rintro rfl; rw [ho] at g1; cases g1; rw [hn] at g3; simp at g3
      exact ⟨po, by rw [hg1 p e']; exact g1, g2, g3⟩
    · intro p po s h1 h2 h3
      have e : p ≠ o := by
        rintro rfl; rw [hw1, getObj_putObj_self] at h1; cases h1
        rw [show s ∈ ao.sets ↔ s ∈ ([] : List Nat) by rw [hna]] at h3; simp at h3
      rw [hg1 p e] at h1
      obtain ⟨so, g1, g2, g3⟩ := hl.down p po s h1 h2 h3
      have e' : s ≠ o := by rintro rfl; rw [ho] at g1; cases g1; rw [hs] at g2; cases g2
      exact ⟨so, by rw [hg1 s e']; exact g1, g2, g3⟩
  exact d1.lone l1 ha1 has hna (getObj_putObj_self _ _ _) has rfl (fun t h => by rw [getObj_putObj, if_neg (Ne.symm h)]) (fun r y h => .inl h) (fun r x h => h)

theorem vaultMoveNew_deep {w : World K V Ty} {a : Nat} {ao : Obj K V Ty} (hi : Inv own home w) (hd : Deep w)
    (ha : w.getObj a = some ao) (has : ao.isSet = false) (hu : Untied home w a) :
    ∃ w', vaultMoveNew w a = some w' ∧ Deep w' ∧ (∀ t, t ≠ w.nextO → t ≠ a → w'.getObj t = w.getObj t) := by
  have hlt := hi.v.ltO a ao ha
  have hne : w.nextO ≠ a := by omega
  have hn : ∀ t, (newVault w).getObj t = if w.nextO = t then some Obj.newVault else w.getObj t := fun t => by rw [newVault, getObj_new]
  obtain ⟨w', h1, h2, h3⟩ := moveInto_deep (hi.newObj (.inl rfl)).l (hd.newObj hi (.inl rfl)) (vo := Obj.newVault) (o := w.nextO) (a := a) (ao := ao)
    ((hn w.nextO).trans (if_pos rfl)) rfl ((hn a).trans ((if_neg hne).trans ha)) has hne rfl (hu.noSets hi ha has)
  exact ⟨w', h1, h2, fun t e1 e2 => by rw [h3 t e1 e2]; exact (hn t).trans (if_neg (Ne.symm e1))⟩

theorem vaultMoveAssign_deep {env : Env} {w : World K V Ty} {o a : Nat} {vo ao : Obj K V Ty} (hi : Inv own home w) (hd : Deep w)
    (ho : w.getObj o = some vo) (hs : vo.isSet = false) (ha : w.getObj a = some ao) (has : ao.isSet = false) (hne : o ≠ a) (hu : Untied home w a) :
    ∃ w', vaultMoveAssign env w o a = some w' ∧ Deep w' ∧ SetsFree o w w' := by
  obtain ⟨w1, h1, d1, f1⟩ := dropVault_sets (env := env) hi hd ho hs
  obtain ⟨i1, ho1, hobs, _, _, _, hF, _, hnO, _⟩ := dropVault_spec hi ho hs h1
  obtain ⟨ao1, ha1, e1, e2⟩ := (hobs a (Ne.symm hne)).to ha
  have u1 := hu.drop ha has (hobs a (Ne.symm hne)) hF hnO
  obtain ⟨w2, h2, d2, k2⟩ := moveInto_deep i1.l d1 ho1 hs ha1 (e1.trans has) hne rfl (u1.noSets i1 ha1 (e1.trans has))
  refine ⟨w2, by simp only [vaultMoveAssign, if_neg hne, h1, Option.bind_eq_bind, Option.bind_some, h2], d2, ?_⟩
  intro s so hso his
  have s1 : s ≠ o := by rintro rfl; rw [ho] at hso; cases hso; rw [hs] at his; cases his
  have s2 : s ≠ a := by rintro rfl; rw [ha] at hso; cases hso; rw [has] at his; cases his
  rw [k2 s s1 s2]
  exact f1 s so hso his

end MVault.W
