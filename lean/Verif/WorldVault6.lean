import Verif.WorldVault5
/-
DropData, DropVault, destruction of vaults and sets, creation of vaults and sets.
-/
set_option linter.unusedSectionVars false
set_option linter.unusedSimpArgs false
namespace MVault.W
variable {K V Ty : Type} [LinearOrder K] [LinearOrder V] [Typed V Ty] [DecidableEq Ty]
variable {own home : Nat → Nat}

theorem loop_invalidate {l : List Nat} {w w' : World K V Ty} (q : QI own home w) (hn : l.Nodup) (h : loop invalidate l w = some w') :
    QI own home w' ∧ w'.objs = w.objs ∧ w'.refs = w.refs ∧ w'.nextR = w.nextR ∧ w'.nextO = w.nextO ∧
      (∀ r, r ∉ l → w'.getRec r = w.getRec r) ∧ (∀ r ∈ l, ∀ y, w'.getRec r = some y → y.valid = false) ∧
      (∀ r ∈ l, (∃ y, w'.getRec r = some y) ↔ 0 < refCount w r) := by
  induction l generalizing w with
  | nil => simp [loop] at h; subst h; simp [q]
  | cons a l ih =>
    simp only [loop, Option.bind_eq_some_iff] at h
    obtain ⟨w1, h1, h2⟩ := h
    rw [List.nodup_cons] at hn
    have hx : ∃ x, w.getRec a = some x := by
      simp only [invalidate, Option.map_eq_some_iff] at h1
      obtain ⟨x, hx, _⟩ := h1; exact ⟨x, hx⟩
    obtain ⟨x, hx⟩ := hx
    obtain ⟨w1', e, q1, g1, g2, g3, g4, g5, g6⟩ := q.invalidate hx
    rw [h1] at e; cases e
    obtain ⟨q2, i1, i2, i3, i4, i5, i6, i7⟩ := ih q1 hn.2 h2
    refine ⟨q2, i1.trans g1, i2.trans g2, i3.trans g3, i4.trans g4, ?_, ?_, ?_⟩
    · intro r hr
      simp only [List.mem_cons, not_or] at hr
      rw [i5 r hr.2, g5 r hr.1]
    · intro r hr y hy
      rcases List.mem_cons.mp hr with e | hr'
      · subst e
        rw [i5 r hn.1, g6] at hy
        split at hy
        · cases hy
        · cases hy; rfl
      · exact i6 r hr' y hy
    · intro r hr
      rcases List.mem_cons.mp hr with e | hr'
      · subst e
        rw [i5 r hn.1, g6]
        split
        · rename_i e; simp [e]
        · rename_i e; simp [Nat.pos_of_ne_zero e]
      · rw [i7 r hr']
        have : refCount w1 r = refCount w r := by unfold refCount; rw [g2]
        rw [this]

/-- Clearing all sets of a vault. -/
theorem loop_setClear {env : Env} {w w' : World K V Ty} {l : List Nat} (hi : SI own home w)
    (hl : ∀ s ∈ l, ∃ so, w.getObj s = some so ∧ so.isSet = true) (h : loop (setClear env) l w = some w') :
    SQ own home w w' ∧ ∀ s ∈ l, ∃ so', w'.getObj s = some so' ∧ so'.isSet = true ∧ so'.recs = [] := by
  refine loop_pre (fun d w1 => SQ own home w w1 ∧ ∀ s ∈ d, ∃ so', w1.getObj s = some so' ∧ so'.isSet = true ∧ so'.recs = []) _ l w w' ?_ ⟨.refl _ _ _, by simp⟩ h
  rintro d s e b b' hle ⟨hb, hd⟩ hh
  obtain ⟨so, hso, hset⟩ := hl s (by rw [hle]; simp)
  obtain ⟨so1, hso1, e1, _⟩ := hb.sf.objTo hso
  have his : so1.isSet = true := e1.trans hset
  have hsi := hb.si hi
  have ok := hsi.s.sets s so1 hso1 his
  obtain ⟨⟨so2, a1, a2, a3, _⟩, a4⟩ := setClear_obj hso1 hh ok.det
  refine ⟨hb.trans (setClear_sq hso1 his hh), ?_⟩
  intro s' hs'
  by_cases he : s' = s
  · subst he; exact ⟨so2, a1, a3.trans his, a2⟩
  · rcases List.mem_append.mp hs' with h1 | h1
    · obtain ⟨z, hz, hz2⟩ := hd s' h1
      exact ⟨z, by rw [a4 s' he]; exact hz, hz2⟩
    · simp at h1; exact absurd h1 he

theorem VOk.clear {cell cell' : Nat → K → Option V} {vo : Obj K V Ty} (h : VOk cell vo) :
    VOk cell' { vo with cols := clearCols vo.cols, recs := [] } where
  cols k e he := by
    simp only [clearCols, mget_mmap, Option.map_eq_some_iff] at he
    obtain ⟨c, hk, rfl⟩ := he
    exact (h.cols k c hk).clear _
  nocol r' hr' := by simp at hr'
  recsN := by simp
  keysN := h.keysN
  keysM k := by
    simp only [clearCols, mget_mmap, h.keysM, Option.map_eq_some_iff]
    constructor
    · rintro ⟨c, hc⟩; exact ⟨_, c, hc, rfl⟩
    · rintro ⟨_, c, hc, _⟩; exact ⟨c, hc⟩
  uniqS := h.uniqS
  uniqM k := by
    simp only [clearCols, mget_mmap, h.uniqM, Option.map_eq_some_iff]
    constructor
    · rintro ⟨c, hc, hm⟩; exact ⟨_, ⟨c, hc, rfl⟩, hm⟩
    · rintro ⟨_, ⟨c, hc, rfl⟩, hm⟩; exact ⟨c, hc, hm⟩
  tmplN k hk := by
    simp only [clearCols, mget_mmap, Option.map_eq_none_iff] at hk
    exact h.tmplN k hk
  tmplT k c hk := by
    simp only [clearCols, mget_mmap, Option.map_eq_some_iff] at hk
    obtain ⟨c0, hk, rfl⟩ := hk
    exact h.tmplT k c0 hk
  base := h.base
  par := h.par

theorem filter_self (l : List Nat) : l.filter (fun r => decide (r ∉ l)) = [] := by
  rw [List.filter_eq_nil_iff]; intro a ha; simpa using ha

theorem dropData_spec {env : Env} {w w' : World K V Ty} {o : Nat} {vo : Obj K V Ty}
    (hi : Inv own home w) (ho : w.getObj o = some vo) (hs : vo.isSet = false) (h : dropData env w o = some w') :
    Inv own home w' ∧ Erased w w' o vo vo.recs ∧ w'.getObj o = some { vo with cols := clearCols vo.cols, recs := [] } ∧
      ∀ s ∈ vo.sets, ∃ so, w'.getObj s = some so ∧ so.isSet = true ∧ so.recs = [] := by
  have hvok := hi.v.vok o vo ho hs
  simp only [dropData, ho, Option.bind_eq_bind, Option.bind_some, Option.bind_eq_some_iff, Option.some.injEq] at h
  obtain ⟨w1, h1, w2, h2, vo2, hvo2, rfl⟩ := h
  obtain ⟨sq1, hclear⟩ := loop_setClear (own := own) (home := home) ⟨hi.s, hi.l⟩ (by
    intro s hsm
    obtain ⟨so, a, b, _⟩ := hi.l.down o vo s ho hs (by simpa using hsm)
    exact ⟨so, a, b⟩) h1
  have ho1 := sq1.vaultObj ho hs
  have q1 := sq1.qi hi.q
  obtain ⟨q2, g1, g2, g3, g4, g5, g6, g7⟩ := loop_invalidate q1 ((nodup_perm env _).mpr hvok.recsN) h2
  have ho2 : w2.getObj o = some vo := by rw [getObj_of_objs g1]; exact ho1
  rw [ho2] at hvo2; cases hvo2
  have q3 : QI own home (w2.putObj o { vo with cols := clearCols vo.cols, recs := [] }) := q2.putVault ho2 hs hs hvok.base rfl rfl
  have hobj := getObj_putObj_self w2 o { vo with cols := clearCols vo.cols, recs := [] }
  have hobjs : ∀ o', o' ≠ o → ObjSame (w.getObj o') ((w2.putObj o { vo with cols := clearCols vo.cols, recs := [] }).getObj o') := by
    intro o' hne
    simp only [getObj_putObj, if_neg (Ne.symm hne), getObj_of_objs g1]
    exact sq1.sf.objs o'
  have hrecs : ∀ r, r ∉ vo.recs → RecSame (w.getRec r) ((w2.putObj o { vo with cols := clearCols vo.cols, recs := [] }).getRec r) := by
    intro r hr
    rw [getRec_putObj, g5 r (by simpa using hr)]
    exact sq1.sf.recs r
  have hdead : ∀ r ∈ vo.recs, ∀ y, (w2.putObj o { vo with cols := clearCols vo.cols, recs := [] }).getRec r = some y → y.valid = false := by
    intro r hr y hy
    rw [getRec_putObj] at hy
    exact g6 r (by simpa using hr) y hy
  refine ⟨?_, ⟨⟨clearCols vo.cols, ?_, ?_⟩, hobjs, hrecs, hdead, ?_, g2.trans sq1.sf.refs, g3.trans sq1.sf.nextR, g4.trans sq1.sf.nextO, ?_⟩, hobj, ?_⟩
  · refine hi.build (o := o) ⟨hobjs, ?_⟩ q3 hobj hs hvok.clear (by simp) ?_
    · intro r hne
      refine hrecs r ?_
      intro hm; exact hne (hi.v.mem o vo ho hs r hm).1
    · intro r y hy hyv hown
      exfalso
      by_cases hm : r ∈ vo.recs
      · rw [hdead r hm y hy] at hyv; cases hyv
      · obtain ⟨x, hx, e, _⟩ := (hrecs r hm).of hy
        obtain ⟨vo1, a1, _, a3⟩ := hi.v.val r x hx (by rw [← e]; exact hyv)
        rw [hown, ho] at a1; cases a1; exact hm a3
  · rw [hobj, filter_self]
  · intro k; simp only [clearCols, mget_mmap, Option.map_map]; rfl
  · intro r hr
    rw [getRec_putObj, g7 r (by simpa using hr)]
    unfold refCount; rw [sq1.sf.refs]
  · intro vo' hvo' k c c' hc hc'
    rw [hobj] at hvo'; cases hvo'
    simp only [clearCols, mget_mmap, hc, Option.map_some, Option.some.injEq] at hc'
    subst hc'
    have cok := hvok.cols k c hc
    refine ⟨by simp [Col.clear], by simp [Col.clear], ?_, ?_, by simp [Col.clear]⟩
    · intro e he hn; exact absurd (cok.hashS e.1 e.2 he).1 hn
    · intro e he hn; exact absurd he (hn e.2 (cok.ordS e.1 e.2 he).1)
  · intro s hsm
    obtain ⟨so, a1, a2, a3⟩ := hclear s (by simpa using hsm)
    have hne : s ≠ o := by
      rintro rfl; rw [ho1] at a1; cases a1; rw [hs] at a2; cases a2
    refine ⟨so, ?_, a2, a3⟩
    simp only [getObj_putObj, if_neg (Ne.symm hne), getObj_of_objs g1]
    exact a1

/-! ### DropVault -/

/-- The vault without keys and records. -/
def Obj.emptied (vo : Obj K V Ty) : Obj K V Ty := { vo with tmpl := [], cols := [], keysOrder := [], uniq := [], recs := [], sets := [] }

theorem VOk.emptied {cell : Nat → K → Option V} {vo : Obj K V Ty} (h1 : vo.isBase = true) (h2 : vo.parent = none) : VOk cell vo.emptied where
  cols k e he := by simp [Obj.emptied, mget] at he
  nocol r' hr' := by simp [Obj.emptied] at hr'
  recsN := by simp [Obj.emptied]
  keysN := by simp [Obj.emptied]
  keysM k := by simp [Obj.emptied, mget]
  uniqS := by simp [Obj.emptied]
  uniqM k := by simp [Obj.emptied, mget]
  tmplN k hk := by simp [Obj.emptied, mget]
  tmplT k c hk := by simp [Obj.emptied, mget] at hk
  base := h1
  par := h2

/-- Resetting sets of a vault one after the other. -/
theorem loop_setReset {env : Env} {w w' : World K V Ty} {o : Nat} {vo : Obj K V Ty} {l : List Nat} (hi : SI own home w)
    (ho : w.getObj o = some vo) (hs : vo.isSet = false) (hl : ∀ s ∈ l, ∃ so, w.getObj s = some so ∧ so.isSet = true)
    (h : loop (setReset env) l w = some w') :
    SP own home w w' ∧ w'.getObj o = some { vo with sets := vo.sets.filter (fun s => decide (s ∉ l)) } ∧
      ∀ s ∈ l, ∃ so', w'.getObj s = some so' ∧ so'.isSet = true ∧ so'.parent = none ∧ so'.recs = [] := by
  refine loop_pre (fun d w1 => SP own home w w1 ∧ w1.getObj o = some { vo with sets := vo.sets.filter (fun s => decide (s ∉ d)) } ∧
      ∀ s ∈ d, ∃ so', w1.getObj s = some so' ∧ so'.isSet = true ∧ so'.parent = none ∧ so'.recs = []) _ l w w' ?_
    ⟨⟨.refl _, hi⟩, by
      have : vo.sets.filter (fun s => decide (s ∉ ([] : List Nat))) = vo.sets := by simp
      rw [ho, this], by simp⟩ h
  rintro d s e b b' hle ⟨hb, hob, hd⟩ hh
  obtain ⟨so, hso, hset⟩ := hl s (by rw [hle]; simp)
  obtain ⟨so1, hso1, e1, _⟩ := hb.sf.objTo hso
  have his : so1.isSet = true := e1.trans hset
  obtain ⟨sp, ⟨so2, a1, a2, a3, a4, _⟩, a5⟩ := setReset_spec hso1 his hb.si hh
  have hne : o ≠ s := by rintro rfl; rw [ho] at hso; cases hso; rw [hs] at hset; cases hset
  refine ⟨hb.trans sp, ?_, ?_⟩
  · have hfil : ∀ l : List Nat, (l.filter (fun s => decide (s ∉ d))).filter (fun x => decide (x ≠ s)) = l.filter (fun x => decide (x ∉ d ++ [s])) := by
      intro l
      rw [List.filter_filter]
      congr 1; funext a
      simp only [List.mem_append, List.mem_singleton, ← Bool.decide_and]
      exact decide_eq_decide.mpr ⟨fun h => by rintro (h1 | h1); exacts [h.2 h1, h.1 h1], fun h => ⟨fun h1 => h (.inr h1), fun h1 => h (.inl h1)⟩⟩
    rw [a5 o hne]
    split
    · rw [hob]; simp only [Option.map_some, hfil]
    · rename_i hp
      rw [hob]
      have hnot : s ∉ vo.sets.filter (fun s => decide (s ∉ d)) := by
        intro hm
        obtain ⟨so3, b1, _, b3⟩ := hb.si.l.down o _ s hob hs hm
        rw [hso1] at b1; cases b1; exact hp b3
      have : vo.sets.filter (fun x => decide (x ∉ d ++ [s])) = vo.sets.filter (fun s => decide (s ∉ d)) := by
        rw [← hfil, List.filter_eq_self]
        intro a ha
        simp only [ne_eq, decide_not, Bool.not_eq_true', decide_eq_false_iff_not]
        rintro rfl; exact hnot ha
      rw [this]
  · intro s' hs'
    by_cases he : s' = s
    · subst he; exact ⟨so2, a1, a2, a3, a4⟩
    · rcases List.mem_append.mp hs' with h1 | h1
      · obtain ⟨z, hz, b1, b2, b3⟩ := hd s' h1
        rw [a5 s' he]
        have : so1.parent ≠ some s' := by
          intro hp
          obtain ⟨po, c1, c2, _⟩ := hb.si.l.up s so1 s' hso1 his hp
          rw [hz] at c1; cases c1; rw [b1] at c2; cases c2
        rw [if_neg this]
        exact ⟨z, hz, b1, b2, b3⟩
      · simp at h1; exact absurd h1 he

theorem dropVault_spec {env : Env} {w w' : World K V Ty} {o : Nat} {vo : Obj K V Ty}
    (hi : Inv own home w) (ho : w.getObj o = some vo) (hs : vo.isSet = false) (h : dropVault env w o = some w') :
    Inv own home w' ∧ w'.getObj o = some vo.emptied ∧
      (∀ o', o' ≠ o → ObjSame (w.getObj o') (w'.getObj o')) ∧
      (∀ r, r ∉ vo.recs → RecSame (w.getRec r) (w'.getRec r)) ∧
      (∀ r ∈ vo.recs, ∀ y, w'.getRec r = some y → y.valid = false) ∧
      (∀ r ∈ vo.recs, (∃ y, w'.getRec r = some y) ↔ 0 < refCount w r) ∧
      w'.refs = w.refs ∧ w'.nextR = w.nextR ∧ w'.nextO = w.nextO ∧
      ∀ s ∈ vo.sets, ∃ so, w'.getObj s = some so ∧ so.isSet = true ∧ so.parent = none ∧ so.recs = [] := by
  have hvok := hi.v.vok o vo ho hs
  simp only [dropVault, ho, Option.bind_eq_bind, Option.bind_some, Option.bind_eq_some_iff] at h
  obtain ⟨w1, h1, h⟩ := h
  obtain ⟨sp1, ho1, hsets⟩ := loop_setReset (own := own) (home := home) ⟨hi.s, hi.l⟩ ho hs (by
    intro s hsm
    obtain ⟨so, a, b, _⟩ := hi.l.down o vo s ho hs (by simpa using hsm)
    exact ⟨so, a, b⟩) h1
  have hnil : vo.sets.filter (fun s => decide (s ∉ env.perm vo.sets)) = [] := by
    rw [List.filter_eq_nil_iff]; intro a ha; simpa using ha
  rw [hnil] at ho1
  have q1 := sp1.qi hi.q
  simp only [dropCore, ho1, Option.bind_eq_bind, Option.bind_some, Option.bind_eq_some_iff, Option.some.injEq] at h
  obtain ⟨w2, h2, rfl⟩ := h
  obtain ⟨q2, g1, g2, g3, g4, g5, g6, g7⟩ := loop_invalidate q1 ((nodup_perm env _).mpr hvok.recsN) h2
  have ho2 : w2.getObj o = some { vo with sets := [] } := by rw [getObj_of_objs g1]; exact ho1
  have q3 : QI own home (w2.putObj o vo.emptied) := q2.putVault ho2 hs hs hvok.base rfl rfl
  have hobjs : ∀ o', o' ≠ o → ObjSame (w.getObj o') ((w2.putObj o vo.emptied).getObj o') := by
    intro o' hne
    simp only [getObj_putObj, if_neg (Ne.symm hne), getObj_of_objs g1]
    exact sp1.sf.objs o'
  have hrecs : ∀ r, r ∉ vo.recs → RecSame (w.getRec r) ((w2.putObj o vo.emptied).getRec r) := by
    intro r hr
    rw [getRec_putObj, g5 r (by simpa using hr)]
    exact sp1.sf.recs r
  have hdead : ∀ r ∈ vo.recs, ∀ y, (w2.putObj o vo.emptied).getRec r = some y → y.valid = false := by
    intro r hr y hy
    rw [getRec_putObj] at hy
    exact g6 r (by simpa using hr) y hy
  refine ⟨?_, getObj_putObj_self _ _ _, hobjs, hrecs, hdead, ?_, g2.trans sp1.sf.refs, g3.trans sp1.sf.nextR, g4.trans sp1.sf.nextO, ?_⟩
  · refine hi.build (o := o) ⟨hobjs, ?_⟩ q3 (getObj_putObj_self _ _ _) hs (VOk.emptied hvok.base hvok.par) (by simp [Obj.emptied]) ?_
    · intro r hne
      refine hrecs r ?_
      intro hm; exact hne (hi.v.mem o vo ho hs r hm).1
    · intro r y hy hyv hown
      exfalso
      by_cases hm : r ∈ vo.recs
      · rw [hdead r hm y hy] at hyv; cases hyv
      · obtain ⟨x, hx, e, _⟩ := (hrecs r hm).of hy
        obtain ⟨vo1, a1, _, a3⟩ := hi.v.val r x hx (by rw [← e]; exact hyv)
        rw [hown, ho] at a1; cases a1; exact hm a3
  · intro r hr
    rw [getRec_putObj, g7 r (by simpa using hr)]
    unfold refCount; rw [sp1.sf.refs]
  · intro s hsm
    obtain ⟨so, a1, a2, a3, a4⟩ := hsets s (by simpa using hsm)
    have hne : s ≠ o := by
      rintro rfl; rw [ho1] at a1; cases a1; rw [hs] at a2; cases a2
    refine ⟨so, ?_, a2, a3, a4⟩
    simp only [getObj_putObj, if_neg (Ne.symm hne), getObj_of_objs g1]
    exact a1

/-! ### Creation and destruction of objects -/

theorem Inv.del {w : World K V Ty} {o : Nat} {oo : Obj K V Ty} (hi : Inv own home w) (ho : w.getObj o = some oo)
    (h : (oo.isSet = false ∧ oo.recs = [] ∧ oo.sets = []) ∨ (oo.isSet = true ∧ oo.parent = none)) :
    Inv own home ({ w with objs := mdel w.objs o } : World K V Ty) := by
  have hg : ∀ o' x, ({ w with objs := mdel w.objs o } : World K V Ty).getObj o' = some x → o' ≠ o ∧ w.getObj o' = some x := by
    intro o' x hx
    rw [getObj_del] at hx
    split at hx
    · cases hx
    · rename_i e; exact ⟨Ne.symm e, hx⟩
  have hg' : ∀ o' x, o' ≠ o → w.getObj o' = some x → ({ w with objs := mdel w.objs o } : World K V Ty).getObj o' = some x := by
    intro o' x hne hx
    rw [getObj_del, if_neg (Ne.symm hne)]; exact hx
  refine ⟨⟨?_, ?_, ?_, hi.v.ltR, ?_⟩, ⟨hi.r.cnt, hi.r.inv, hi.r.live, ?_, hi.r.vlt⟩, ⟨?_, hi.s.deps, ?_, hi.s.ltR, ?_⟩, ⟨?_, ?_⟩⟩
  · intro o' x hx; exact hi.v.vok o' x (hg o' x hx).2
  · intro o' x hx; exact hi.v.mem o' x (hg o' x hx).2
  · intro r x hx hv
    obtain ⟨vo, a1, a2, a3⟩ := hi.v.val r x hx hv
    refine ⟨vo, hg' _ _ ?_ a1, a2, a3⟩
    rintro e
    rw [e, ho] at a1; cases a1
    rcases h with ⟨b1, b2, _⟩ | ⟨b1, _⟩
    · rw [b2] at a3; simp at a3
    · rw [b1] at a2; cases a2
  · intro o' x hx; exact hi.v.ltO o' x (hg o' x hx).2
  · intro f hf r o' x hr hv hx; exact hi.r.own f hf r o' x hr hv (hg o' x hx).2
  · intro s so hs; exact hi.s.sets s so (hg s so hs).2
  · intro o' x hx; exact hi.s.ltO o' x (hg o' x hx).2
  · intro o' x hx; exact hi.s.vb o' x (hg o' x hx).2
  · intro s so p hs his hp
    obtain ⟨po, a1, a2, a3⟩ := hi.l.up s so p (hg s so hs).2 his hp
    refine ⟨po, hg' _ _ ?_ a1, a2, a3⟩
    rintro rfl
    rw [ho] at a1; cases a1
    rcases h with ⟨b1, _, b2⟩ | ⟨b1, _⟩
    · rw [b2] at a3; simp at a3
    · rw [b1] at a2; cases a2
  · intro p po s hp hps hm
    obtain ⟨so, a1, a2, a3⟩ := hi.l.down p po s (hg p po hp).2 hps hm
    refine ⟨so, hg' _ _ ?_ a1, a2, a3⟩
    rintro rfl
    rw [ho] at a1; cases a1
    rcases h with ⟨b1, _, _⟩ | ⟨_, b1⟩
    · rw [b1] at a2; cases a2
    · rw [b1] at a3; cases a3

theorem destroyVault_inv {env : Env} {w w' : World K V Ty} {o : Nat} {vo : Obj K V Ty}
    (hi : Inv own home w) (ho : w.getObj o = some vo) (hs : vo.isSet = false) (h : destroyVault env w o = some w') :
    Inv own home w' := by
  simp only [destroyVault, Option.bind_eq_bind, Option.bind_eq_some_iff, Option.some.injEq] at h
  obtain ⟨w1, h1, rfl⟩ := h
  obtain ⟨i1, ho1, _⟩ := dropVault_spec hi ho hs h1
  exact i1.del ho1 (.inl ⟨hs, rfl, rfl⟩)

theorem destroySet_inv {env : Env} {w w' : World K V Ty} {s : Nat} {so : Obj K V Ty}
    (hi : Inv own home w) (hs : w.getObj s = some so) (his : so.isSet = true) (h : destroySet env w s = some w') :
    Inv own home w' := by
  simp only [destroySet, Option.bind_eq_bind, Option.bind_eq_some_iff, Option.some.injEq] at h
  obtain ⟨w1, h1, w2, h2, rfl⟩ := h
  obtain ⟨sp, ⟨so1, a1, a2, a3, a4, _⟩, _⟩ := setReset_spec hs his ⟨hi.s, hi.l⟩ h1
  have i1 := sp.inv hi
  have ok := i1.s.sets s so1 a1 a2
  simp only [dropVault, a1, ok.sets, Option.bind_eq_bind, Option.bind_some, perm_nil, loop, dropCore, a4, Option.some.injEq] at h2
  subst h2
  have : SQ own home w1 (w1.putObj s { so1 with tmpl := [], cols := [], keysOrder := [], uniq := [], recs := [], sets := [] }) := by
    refine .putSet a1 a2 a2 rfl ok.sets.symm ?_
    intro _
    exact ⟨ok.base, rfl, ok.par, fun _ => rfl, by simp, by simp [mget]⟩
  exact (this.inv i1).del (getObj_putObj_self _ _ _) (.inr ⟨a2, a3⟩)

theorem Inv.newObj {w : World K V Ty} (hi : Inv own home w) {x : Obj K V Ty} (hx : (x = Obj.newVault) ∨ (x = Obj.newSet)) :
    Inv own home ({ w with objs := mput w.objs w.nextO x, nextO := w.nextO + 1 } : World K V Ty) := by
  have hg : ∀ o' y, ({ w with objs := mput w.objs w.nextO x, nextO := w.nextO + 1 } : World K V Ty).getObj o' = some y →
      (o' = w.nextO ∧ y = x) ∨ (o' ≠ w.nextO ∧ w.getObj o' = some y) := by
    intro o' y hy
    rw [getObj_new] at hy
    split at hy
    · rename_i e; cases hy; exact .inl ⟨e.symm, rfl⟩
    · rename_i e; exact .inr ⟨Ne.symm e, hy⟩
  have hg' : ∀ o' y, w.getObj o' = some y → ({ w with objs := mput w.objs w.nextO x, nextO := w.nextO + 1 } : World K V Ty).getObj o' = some y := by
    intro o' y hy
    rw [getObj_new, if_neg]
    · exact hy
    · rintro rfl; have := hi.v.ltO _ _ hy; omega
  have hxr : x.recs = [] := by rcases hx with rfl | rfl <;> rfl
  have hxs : x.sets = [] := by rcases hx with rfl | rfl <;> rfl
  have hxp : x.parent = none := by rcases hx with rfl | rfl <;> rfl
  have hxb : x.isSet = false → x = Obj.newVault := by rcases hx with rfl | rfl <;> simp [Obj.newSet]
  have hxst : x.isSet = true → x = Obj.newSet := by rcases hx with rfl | rfl <;> simp [Obj.newVault]
  refine ⟨⟨?_, ?_, ?_, hi.v.ltR, ?_⟩, ⟨hi.r.cnt, hi.r.inv, hi.r.live, ?_, ?_⟩, ⟨?_, ?_, ?_, hi.s.ltR, ?_⟩, ⟨?_, ?_⟩⟩
  · intro o' y hy hs
    rcases hg o' y hy with ⟨_, rfl⟩ | ⟨_, hy⟩
    · rw [hxb hs]; exact VOk.emptied (vo := Obj.newVault) rfl rfl
    · exact hi.v.vok o' y hy hs
  · intro o' y hy hs r hr
    rcases hg o' y hy with ⟨_, rfl⟩ | ⟨_, hy⟩
    · rw [hxr] at hr; simp at hr
    · exact hi.v.mem o' y hy hs r hr
  · intro r z hz hv
    obtain ⟨vo, a1, a2, a3⟩ := hi.v.val r z hz hv
    exact ⟨vo, hg' _ _ a1, a2, a3⟩
  · intro o' y hy
    show o' < w.nextO + 1
    rcases hg o' y hy with ⟨e, _⟩ | ⟨_, hy⟩
    · omega
    · have := hi.v.ltO o' y hy; omega
  · intro f hf r o' y hr hv hy
    rcases hg o' y hy with ⟨e, _⟩ | ⟨_, hy⟩
    · obtain ⟨o2, b1, b2⟩ := hi.r.vlt f hf r hr
      rw [hv] at b1; cases b1; omega
    · exact hi.r.own f hf r o' y hr hv hy
  · intro f hf r hr
    obtain ⟨o2, b1, b2⟩ := hi.r.vlt f hf r hr
    exact ⟨o2, b1, by show o2 < w.nextO + 1; omega⟩
  · intro s so hs his
    rcases hg s so hs with ⟨_, rfl⟩ | ⟨_, hy⟩
    · rw [hxst his]; exact ⟨rfl, rfl, by simp [Obj.newSet], fun _ => rfl, by simp [Obj.newSet], by simp [Obj.newSet, mget]⟩
    · exact hi.s.sets s so hy his
  · intro r z s hz hm
    have := hi.s.deps r z s hz hm
    exact ⟨this.1, by show s < w.nextO + 1; omega⟩
  · intro o' y hy
    show o' < w.nextO + 1
    rcases hg o' y hy with ⟨e, _⟩ | ⟨_, hy⟩
    · omega
    · have := hi.v.ltO o' y hy; omega
  · intro o' y hy hs
    rcases hg o' y hy with ⟨_, rfl⟩ | ⟨_, hy⟩
    · rw [hxb hs]; rfl
    · exact hi.s.vb o' y hy hs
  · intro s so p hs his hp
    rcases hg s so hs with ⟨_, rfl⟩ | ⟨_, hy⟩
    · rw [hxp] at hp; cases hp
    · obtain ⟨po, a1, a2, a3⟩ := hi.l.up s so p hy his hp
      exact ⟨po, hg' _ _ a1, a2, a3⟩
  · intro p po s hp hps hm
    rcases hg p po hp with ⟨_, rfl⟩ | ⟨_, hy⟩
    · rw [hxs] at hm; simp at hm
    · obtain ⟨so, a1, a2, a3⟩ := hi.l.down p po s hy hps hm
      exact ⟨so, hg' _ _ a1, a2, a3⟩

end MVault.W
