import Verif.WorldInv
/-
Set-internal operations keep the invariants and change nothing of the vaults.
-/
set_option linter.unusedSectionVars false
set_option linter.unusedSimpArgs false
namespace MVault.W
variable {K V Ty : Type} [LinearOrder K] [LinearOrder V] [Typed V Ty] [DecidableEq Ty] {own home : Nat → Nat}

/-! ### Columns of sets -/

theorem ColS.add {h n : Nat} {c : Col V Ty} (hc : ColS own h n c) (v : V) {r : Nat} (h1 : own r = h) (h2 : r < n) :
    ColS own h n (c.add v r).1 where
  hash e he := by
    rcases mem_hash_add _ _ _ _ he with he | he
    · exact hc.hash e he
    · subst he; exact ⟨h1, h2⟩
  ord e he := by
    rcases mem_ord_add _ _ _ _ he with he | he
    · exact hc.ord e he
    · subst he; exact ⟨h1, h2⟩
  sorted := sorted_add _ _ _ hc.sorted

theorem ColS.erase {h n : Nat} {c : Col V Ty} (hc : ColS own h n c) (v : V) (r : Nat) : ColS own h n (c.erase v r) where
  hash e he := hc.hash e (mem_hash_erase _ _ _ _ he)
  ord e he := hc.ord e (mem_ord_erase _ _ _ _ he)
  sorted := sorted_erase _ _ _ hc.sorted

theorem ColS.setVal {h n : Nat} {c c' : Col V Ty} (hc : ColS own h n c) {old new : V} {r : Nat} (h1 : own r = h) (h2 : r < n)
    (hs : c.setVal old new r = some c') : ColS own h n c' where
  hash e he := by
    rcases mem_hash_setVal hs _ he with he | he
    · exact hc.hash e he
    · subst he; exact ⟨h1, h2⟩
  ord e he := by
    rcases mem_ord_setVal hs _ he with he | he
    · exact hc.ord e he
    · subst he; exact ⟨h1, h2⟩
  sorted := sorted_setVal hs hc.sorted

theorem ColS.empty {h n : Nat} {c : Col V Ty} (h1 : c.hash = []) (h2 : c.ord = []) : ColS own h n c :=
  ⟨by simp [h1], by simp [h2], by simp [h2]⟩

theorem ColS.fold {h n : Nat} (d : V) (l : List Nat) (c : Col V Ty) (hc : ColS own h n c) (hl : ∀ r ∈ l, own r = h ∧ r < n) :
    ColS own h n (l.foldl (fun c r => (c.add d r).1) c) := by
  induction l generalizing c with
  | nil => exact hc
  | cons r l ih => exact ih _ (hc.add d (hl r (by simp)).1 (hl r (by simp)).2) (fun r hr => hl r (by simp [hr]))

theorem ColS.fn {h n : Nat} (l : List (Nat × V)) (c c' : Col V Ty) (hc : ColS own h n c) (hl : ∀ p ∈ l, own p.1 = h ∧ p.1 < n)
    (hf : fnCol l c = some c') : ColS own h n c' := by
  induction l generalizing c with
  | nil => simp [fnCol] at hf; subst hf; exact hc
  | cons p l ih =>
    obtain ⟨r, v⟩ := p
    simp only [fnCol] at hf
    cases ha : c.add v r with
    | mk c1 b =>
      rw [ha] at hf
      cases b with
      | false => simp at hf
      | true =>
        have := hc.add v (hl (r, v) (by simp)).1 (hl (r, v) (by simp)).2
        rw [ha] at this
        exact ih c1 this (fun p hp => hl p (by simp [hp])) hf

/-! ### Primitive steps -/

theorem eraseDep_objs {w w' : World K V Ty} {s r : Nat} (h : eraseDep s w r = some w') : w'.objs = w.objs := by
  simp only [eraseDep, Option.map_eq_some_iff] at h
  obtain ⟨x, _, rfl⟩ := h; rfl

theorem addDep_objs {w w' : World K V Ty} {s r : Nat} (h : addDep s w r = some w') : w'.objs = w.objs := by
  simp only [addDep, Option.map_eq_some_iff] at h
  obtain ⟨x, _, rfl⟩ := h; rfl

theorem getObj_of_objs {w w' : World K V Ty} (h : w'.objs = w.objs) (o : Nat) : w'.getObj o = w.getObj o := by
  unfold World.getObj; rw [h]

theorem eraseDep_sq {w w' : World K V Ty} {s r : Nat} (h : eraseDep s w r = some w') : SQ own home w w' := by
  simp only [eraseDep, Option.map_eq_some_iff] at h
  obtain ⟨x, hx, rfl⟩ := h
  refine .putRec hx rfl rfl (fun _ => rfl) ?_
  intro hs s' hm
  exact hs.deps r x s' hx (List.mem_filter.mp hm).1

theorem addDep_sq {w w' : World K V Ty} {s r : Nat} (h : addDep s w r = some w') (hr : own r = home s) (hn : s < w.nextO) :
    SQ own home w w' := by
  simp only [addDep, Option.map_eq_some_iff] at h
  obtain ⟨x, hx, rfl⟩ := h
  refine .putRec hx rfl rfl (fun _ => rfl) ?_
  intro hs s' hm
  rcases (mem_setIns _ _ _).mp hm with hm | rfl
  · exact hs.deps r x s' hx hm
  · exact ⟨fun _ => hr, hn⟩

/-- A loop of set-internal steps that leaves the objects alone. -/
theorem loop_sq_objs {f : World K V Ty → Nat → Option (World K V Ty)} {l : List Nat} {w w' : World K V Ty}
    (hf : ∀ r ∈ l, ∀ w w', f w r = some w' → w'.objs = w.objs ∧ SQ own home w w') (h : loop f l w = some w') :
    w'.objs = w.objs ∧ SQ own home w w' := by
  refine loop_inv (fun w1 => w1.objs = w.objs ∧ SQ own home w w1) f l w w' ?_ ⟨rfl, .refl _ _ _⟩ h
  intro r hr b b' hb hbb
  obtain ⟨h1, h2⟩ := hf r hr b b' hbb
  exact ⟨h1.trans hb.1, hb.2.trans h2⟩

theorem setClear_shape {env : Env} {w w' : World K V Ty} {s : Nat} {so : Obj K V Ty} (hs : w.getObj s = some so) (h : setClear env w s = some w') :
    (so.parent = none ∧ w' = w) ∨ (so.parent ≠ none ∧ ∃ w1, loop (eraseDep s) (env.perm so.recs) w = some w1 ∧
      w' = w1.putObj s { so with cols := clearCols so.cols, recs := [] }) := by
  simp only [setClear, hs, Option.bind_eq_bind, Option.bind_some] at h
  split at h
  · left; cases h; exact ⟨by assumption, rfl⟩
  · right
    simp only [Option.bind_eq_some_iff, Option.some.injEq] at h
    obtain ⟨w1, h1, h2⟩ := h
    exact ⟨by assumption, w1, h1, h2.symm⟩

theorem setClear_sq {env : Env} {w w' : World K V Ty} {s : Nat} {so : Obj K V Ty} (hs : w.getObj s = some so) (hi : so.isSet = true)
    (h : setClear env w s = some w') : SQ own home w w' := by
  rcases setClear_shape hs h with ⟨_, rfl⟩ | ⟨hp, w1, h1, rfl⟩
  · exact .refl _ _ _
  · obtain ⟨ho, q⟩ := loop_sq_objs (own := own) (home := home) (fun r _ w w' h => ⟨eraseDep_objs h, eraseDep_sq h⟩) h1
    refine q.trans ?_
    have hs1 : w1.getObj s = some so := by rw [getObj_of_objs ho]; exact hs
    refine .putSet hs1 hi hi rfl rfl ?_
    intro hso
    have ok := hso.sets s so hs1 hi
    exact { ok with
      det := fun _ => rfl
      recs := by simp
      cols := by
        intro k c hc
        simp only [clearCols, mget_mmap, Option.map_eq_some_iff] at hc
        obtain ⟨c0, _, rfl⟩ := hc
        exact .empty rfl rfl }

theorem setClear_obj {env : Env} {w w' : World K V Ty} {s : Nat} {so : Obj K V Ty} (hs : w.getObj s = some so)
    (h : setClear env w s = some w') (hdet : so.parent = none → so.recs = []) :
    (∃ so', w'.getObj s = some so' ∧ so'.recs = [] ∧ so'.isSet = so.isSet ∧ so'.parent = so.parent ∧ so'.isBase = so.isBase ∧ so'.sets = so.sets) ∧
      (∀ o, o ≠ s → w'.getObj o = w.getObj o) := by
  rcases setClear_shape hs h with ⟨hp, rfl⟩ | ⟨hp, w1, h1, rfl⟩
  · exact ⟨⟨so, hs, hdet hp, rfl, rfl, rfl, rfl⟩, fun _ _ => rfl⟩
  · have ho : w1.objs = w.objs := by
      refine loop_inv (fun w1 => w1.objs = w.objs) _ _ _ _ ?_ rfl h1
      intro r _ b b' hb hbb
      exact (eraseDep_objs hbb).trans hb
    refine ⟨⟨_, getObj_putObj_self _ _ _, rfl, rfl, rfl, rfl, rfl⟩, fun o hne => ?_⟩
    simp only [getObj_putObj, if_neg (Ne.symm hne)]
    exact getObj_of_objs ho o

/-- `Reset` of a set: everything about the set is forgotten, the vault forgets the set, nothing else changes. -/
theorem setReset_get {env : Env} {w w' : World K V Ty} {s : Nat} {so : Obj K V Ty} (hs : w.getObj s = some so) (hi : so.isSet = true)
    (hso : SObj own home w) (hv : ∀ p po, so.parent = some p → w.getObj p = some po → po.isSet = false)
    (h : setReset env w s = some w') :
    SF w w' ∧ SObj own home w' ∧
    (∃ so', w'.getObj s = some so' ∧ so'.isSet = true ∧ so'.parent = none ∧ so'.recs = [] ∧ (so.parent ≠ none → so'.cols = [])) ∧
    (∀ o, o ≠ s → w'.getObj o = if so.parent = some o then (w.getObj o).map (fun po => { po with sets := po.sets.filter (· ≠ s) })
      else w.getObj o) := by
  have ok := hso.sets s so hs hi
  simp only [setReset, hs, Option.bind_eq_bind, Option.bind_some] at h
  cases hp : so.parent with
  | none =>
    rw [hp] at h; cases h
    exact ⟨.refl _, hso, ⟨so, hs, hi, hp, ok.det hp, fun hh => absurd rfl hh⟩, fun _ _ => by simp⟩
  | some p =>
    rw [hp] at h
    simp only [Option.bind_eq_some_iff] at h
    obtain ⟨po, hpo, w1, h1, w2, h2, po2, hpo2, so3, hso3, h3⟩ := h
    have hpv := hv p po hp hpo
    have hsp : s ≠ p := by
      intro e; subst e; rw [hs] at hpo; cases hpo; rw [hi] at hpv; cases hpv
    have q1 := setClear_sq (own := own) (home := home) hs hi h1
    obtain ⟨⟨so1, g1, g2, g3, g4, g5, g6⟩, gO⟩ := setClear_obj hs h1 ok.det
    -- dropCore: nothing to invalidate
    simp only [dropCore, g1, g2, perm_nil, loop, Option.bind_eq_bind, Option.bind_some, Option.some.injEq] at h2
    have hw2 : w2 = w1.putObj s { so1 with tmpl := [], cols := [], keysOrder := [], uniq := [], recs := [], sets := [] } := by
      rw [← h2]
    have q2 : SQ own home w1 w2 := by
      rw [hw2]
      refine .putSet g1 (by rw [g3]; exact hi) (by show so1.isSet = true; rw [g3]; exact hi) rfl ?_ ?_
      · show [] = so1.sets; rw [g6, ok.sets]
      · intro h'
        have ok1 := h'.sets s so1 g1 (by rw [g3]; exact hi)
        exact { ok1 with sets := rfl, det := fun _ => rfl, recs := by simp, cols := by simp [mget] }
    have q12 := q1.trans q2
    have e2 : w2.getObj p = some po := by
      rw [hw2]; simp only [getObj_putObj, if_neg hsp]; rw [gO p (Ne.symm hsp)]; exact hpo
    rw [e2] at hpo2; cases hpo2
    simp only [getObj_putObj, if_neg (Ne.symm hsp)] at hso3
    have e3 : w2.getObj s = some { so1 with tmpl := [], cols := [], keysOrder := [], uniq := [], recs := [], sets := [] } := by
      rw [hw2]; simp
    rw [e3] at hso3; cases hso3
    cases h3
    have sfA : SF w2 (w2.putObj p { po with sets := po.sets.filter (· ≠ s) }) := .putSets e2 _
    have sfB : SF (w2.putObj p { po with sets := po.sets.filter (· ≠ s) }) _ :=
      .putSet (s := s) (so := { so1 with tmpl := [], cols := [], keysOrder := [], uniq := [], recs := [], sets := [] })
        (so' := { so1 with tmpl := [], cols := [], keysOrder := [], uniq := [], recs := [], sets := [], parent := none })
        (by simp only [getObj_putObj, if_neg (Ne.symm hsp)]; exact e3) (by show so1.isSet = true; rw [g3]; exact hi)
        (by show so1.isSet = true; rw [g3]; exact hi)
    have hG : ∀ o, ((w2.putObj p { po with sets := po.sets.filter (· ≠ s) }).putObj s
        { so1 with tmpl := [], cols := [], keysOrder := [], uniq := [], recs := [], sets := [], parent := none }).getObj o =
        if s = o then some { so1 with tmpl := [], cols := [], keysOrder := [], uniq := [], recs := [], sets := [], parent := none }
        else if p = o then some { po with sets := po.sets.filter (· ≠ s) } else w.getObj o := by
      intro o
      simp only [getObj_putObj]
      split
      · rfl
      · split
        · rfl
        · rename_i h1 h2
          rw [hw2]; simp only [getObj_putObj, if_neg h1]; exact gO o (Ne.symm h1)
    have so2 := q12.so hso
    refine ⟨q12.sf.trans (sfA.trans sfB), ?_, ?_, ?_⟩
    · refine ⟨?_, so2.deps, ?_, so2.ltR, ?_⟩
      · intro s' x hx hxi
        rw [hG] at hx
        split at hx
        · rename_i e; subst e; cases hx
          exact ⟨by show so1.isBase = false; rw [g5]; exact ok.base, rfl, by simp, fun _ => rfl, by simp, by simp [mget]⟩
        · split at hx
          · cases hx; simp only at hxi; rw [hpv] at hxi; cases hxi
          · have := hso.sets s' x hx hxi
            have e : w2.nextR = w.nextR := q12.sf.nextR
            show SetOk own home w2.nextR s' x
            rw [e]; exact this
      · intro o x hx
        have e : w2.nextO = w.nextO := q12.sf.nextO
        show o < w2.nextO
        rw [e]
        rw [hG] at hx
        split at hx
        · rename_i e; subst e; exact hso.ltO _ _ hs
        · split at hx
          · rename_i e; subst e; exact hso.ltO _ _ hpo
          · exact hso.ltO _ _ hx
      · intro o x hx hxi
        rw [hG] at hx
        split at hx
        · cases hx; simp only at hxi; rw [g3, hi] at hxi; cases hxi
        · split at hx
          · cases hx; exact hso.vb p po hpo hpv
          · exact hso.vb _ _ hx hxi
    · exact ⟨_, getObj_putObj_self _ _ _, by show so1.isSet = true; rw [g3]; exact hi, rfl, rfl, fun _ => rfl⟩
    · intro o hne
      rw [hG, if_neg (Ne.symm hne)]
      by_cases e : p = o
      · subst e; simp [hpo]
      · simp [e]

/-- A set changes its vault from nothing or something to `q`. -/
theorem link_update {w w' : World K V Ty} {s : Nat} {so' : Obj K V Ty} (hl : Link w) {q : Option Nat}
    (hq : ∀ p, q = some p → ∃ po, w.getObj p = some po ∧ po.isSet = false)
    (hn : ∀ so, w.getObj s = some so → so.isSet = true)
    (hs' : w'.getObj s = some so') (hi' : so'.isSet = true) (hp' : so'.parent = q)
    (hof : ∀ o oo', o ≠ s → w'.getObj o = some oo' → ∃ oo, w.getObj o = some oo ∧ oo'.isSet = oo.isSet ∧ oo'.parent = oo.parent ∧
      (oo.isSet = false → ∀ x, x ≠ s → (x ∈ oo'.sets ↔ x ∈ oo.sets)) ∧ (oo.isSet = false → (s ∈ oo'.sets ↔ q = some o)))
    (hto : ∀ o oo, o ≠ s → w.getObj o = some oo → ∃ oo', w'.getObj o = some oo') : Link w' := by
  constructor
  · intro x xo p hx hxi hxp
    by_cases e : x = s
    · subst e
      rw [hs'] at hx; cases hx
      rw [hp'] at hxp
      obtain ⟨po, h1, h2⟩ := hq p hxp
      have hne : p ≠ x := by intro e; subst e; rw [hn po h1] at h2; cases h2
      obtain ⟨po', h3⟩ := hto p po hne h1
      obtain ⟨po2, a, b, c, d, f⟩ := hof p po' hne h3
      rw [h1] at a; cases a
      exact ⟨po', h3, b.trans h2, (f h2).mpr hxp⟩
    · obtain ⟨xo0, a, b, c, _⟩ := hof x xo e hx
      obtain ⟨po, h1, h2, h3⟩ := hl.up x xo0 p a (b ▸ hxi) (c ▸ hxp)
      have hne : p ≠ s := by intro e; subst e; rw [hn po h1] at h2; cases h2
      obtain ⟨po', h4⟩ := hto p po hne h1
      obtain ⟨po2, a', b', c', d', f'⟩ := hof p po' hne h4
      rw [h1] at a'; cases a'
      exact ⟨po', h4, b'.trans h2, (d' h2 x e).mpr h3⟩
  · intro p po' x hp hpv hx
    have hne : p ≠ s := by intro e; subst e; rw [hs'] at hp; cases hp; rw [hi'] at hpv; cases hpv
    obtain ⟨po, a, b, c, d, f⟩ := hof p po' hne hp
    have hv : po.isSet = false := b ▸ hpv
    by_cases e : x = s
    · subst e
      exact ⟨so', hs', hi', hp'.trans ((f hv).mp hx)⟩
    · obtain ⟨xo, h1, h2, h3⟩ := hl.down p po x a hv ((d hv x e).mp hx)
      obtain ⟨xo', h4⟩ := hto x xo e h1
      obtain ⟨xo2, a', b', c', _⟩ := hof x xo' e h4
      rw [h1] at a'; cases a'
      exact ⟨xo', h4, b'.trans h2, c'.trans h3⟩

/-- `Reset` keeps the invariant. -/
theorem setReset_spec {env : Env} {w w' : World K V Ty} {s : Nat} {so : Obj K V Ty} (hs : w.getObj s = some so) (hi : so.isSet = true)
    (hsi : SI own home w) (h : setReset env w s = some w') :
    SP own home w w' ∧
    (∃ so', w'.getObj s = some so' ∧ so'.isSet = true ∧ so'.parent = none ∧ so'.recs = [] ∧ (so.parent ≠ none → so'.cols = [])) ∧
    (∀ o, o ≠ s → w'.getObj o = if so.parent = some o then (w.getObj o).map (fun po => { po with sets := po.sets.filter (· ≠ s) })
      else w.getObj o) := by
  obtain ⟨h1, h2, ⟨so', g1, g2, g3, g4, g5⟩, h4⟩ := setReset_get hs hi hsi.s (by
    intro p po hp hpo
    obtain ⟨po', a, b, _⟩ := hsi.l.up s so p hs hi hp
    rw [hpo] at a; cases a; exact b) h
  refine ⟨⟨h1, h2, ?_⟩, ⟨so', g1, g2, g3, g4, g5⟩, h4⟩
  refine link_update hsi.l (q := none) (by simp) (by intro x hx; rw [hs] at hx; cases hx; exact hi) g1 g2 g3 ?_ ?_
  · intro o oo' hne ho
    rw [h4 o hne] at ho
    split at ho
    · simp only [Option.map_eq_some_iff] at ho
      obtain ⟨po, hpo, rfl⟩ := ho
      refine ⟨po, hpo, rfl, rfl, ?_, ?_⟩
      · intro _ x hx; simp [hx]
      · simp
    · rename_i hnp
      refine ⟨oo', ho, rfl, rfl, fun _ _ _ => Iff.rfl, ?_⟩
      intro hv
      simp only [reduceCtorEq, iff_false]
      intro hm
      obtain ⟨so0, a, _, c⟩ := hsi.l.down o oo' s ho hv hm
      rw [hs] at a; cases a
      exact hnp c
  · intro o oo hne ho
    rw [h4 o hne]
    split
    · exact ⟨_, by rw [ho]; rfl⟩
    · exact ⟨oo, ho⟩

end MVault.W
