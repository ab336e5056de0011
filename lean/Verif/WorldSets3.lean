import Verif.WorldSets2
/-
Set-internal operations, part 3: requests, set algebra, copies and moves of sets.
-/
set_option linter.unusedSectionVars false
set_option linter.unusedSimpArgs false
namespace MVault.W
variable {K V Ty : Type} [LinearOrder K] [LinearOrder V] [Typed V Ty] [DecidableEq Ty] {own home : Nat → Nat}

/-! ### Where requested records come from -/

theorem iterRange_mem {l : List (V × Nat)} {i j : Nat} {out : List Nat} (h : iterRange l i j = some out) {r : Nat} (hr : r ∈ out) :
    ∃ v, (v, r) ∈ l := by
  unfold iterRange at h
  split at h
  · cases h
    obtain ⟨⟨v, r'⟩, hm, rfl⟩ := List.mem_map.mp hr
    exact ⟨v, List.mem_of_mem_drop (List.mem_of_mem_take hm)⟩
  · cases h

theorem equalRange_mem {env : Env} {c : Col V Ty} {v : V} {r : Nat} : r ∈ equalRange env c v ↔ (v, r) ∈ c.hash := by
  unfold equalRange
  rw [mem_perm, List.mem_map]
  constructor
  · rintro ⟨⟨v', r'⟩, hm, rfl⟩
    obtain ⟨h1, h2⟩ := List.mem_filter.mp hm
    simp at h2; subst h2; exact h1
  · intro h; exact ⟨(v, r), List.mem_filter.mpr ⟨h, by simp⟩, rfl⟩

theorem visited_mem {env : Env} {c : Col V Ty} {t : ReqType} {a b : V} {ia ib : Bool} {l : List Nat}
    (h : visited env c t a b ia ib = some l) {r : Nat} (hr : r ∈ l) : ∃ v, (v, r) ∈ c.hash ∨ (v, r) ∈ c.ord := by
  unfold visited at h
  cases t with
  | Equal => cases h; exact ⟨a, .inl (equalRange_mem.mp hr)⟩
  | Interval =>
    dsimp only at h
    split at h
    · obtain ⟨v, hv⟩ := iterRange_mem h hr; exact ⟨v, .inr hv⟩
    · obtain ⟨v, hv⟩ := iterRange_mem h hr; exact ⟨v, .inr hv⟩
  | Greater => obtain ⟨v, hv⟩ := iterRange_mem h hr; exact ⟨v, .inr hv⟩
  | GreaterOrEqual => obtain ⟨v, hv⟩ := iterRange_mem h hr; exact ⟨v, .inr hv⟩
  | Less => obtain ⟨v, hv⟩ := iterRange_mem h hr; exact ⟨v, .inr hv⟩
  | LessOrEqual => obtain ⟨v, hv⟩ := iterRange_mem h hr; exact ⟨v, .inr hv⟩

/-- Record `r` occurs in an index of the object. -/
def Indexed (vo : Obj K V Ty) (r : Nat) : Prop := ∃ k c v, mget vo.cols k = some c ∧ ((v, r) ∈ c.hash ∨ (v, r) ∈ c.ord)

theorem checkKey_ok {vo : Obj K V Ty} {k : K} {t : Ty} {c : Col V Ty} (h : checkKey vo k t = .ok c) : mget vo.cols k = some c ∧ c.ty = t := by
  unfold checkKey at h
  split at h
  · cases h
  · split at h
    · cases h
    · rename_i h1 h2; cases h; exact ⟨h1, by simpa using h2⟩

theorem requestSet_mem {env : Env} {vo : Obj K V Ty} {t : ReqType} {k : K} {a b : V} {ia ib : Bool} {n : Option Nat} {pred : Nat → Bool}
    {acc l : List Nat} (h : requestSet env vo t k a b ia ib n pred acc = some (.ok l)) {r : Nat} (hr : r ∈ l) : r ∈ acc ∨ Indexed vo r := by
  unfold requestSet at h
  split at h
  · cases h
  · rename_i c hc
    obtain ⟨hc, _⟩ := checkKey_ok hc
    simp only [Option.map_eq_some_iff, Except.ok.injEq] at h
    obtain ⟨l0, hl0, rfl⟩ := h
    rcases (mem_foldl_setIns _ _ _).mp hr with hr | hr
    · exact .inl hr
    · have hr := (List.mem_filter.mp hr).1
      have hr : r ∈ l0 := by
        cases n with
        | none => exact hr
        | some n => exact List.mem_of_mem_take hr
      obtain ⟨v, hv⟩ := visited_mem hl0 hr
      exact .inr ⟨k, c, v, hc, hv⟩

theorem evalReq_mem {env : Env} {vo : Obj K V Ty} {q : Req K V} {l : List Nat} (h : evalReq env vo q = some (.ok l)) {r : Nat} (hr : r ∈ l) :
    Indexed vo r := by
  induction q generalizing l with
  | leaf t k v pred =>
    rcases requestSet_mem h hr with h | h
    · simp at h
    · exact h
  | or a b iha ihb =>
    simp only [evalReq, Option.bind_eq_bind, Option.bind_eq_some_iff] at h
    obtain ⟨ra, ha, h⟩ := h
    split at h
    · cases h
    · simp only [Option.bind_eq_some_iff] at h
      obtain ⟨rb, hb, h⟩ := h
      split at h
      · cases h
      · cases h
        rcases (mem_foldl_setIns _ _ _).mp hr with hr | hr
        · simp at hr
        · rcases List.mem_append.mp hr with hr | hr
          · exact iha ha hr
          · exact ihb hb hr
  | and a b iha ihb =>
    unfold evalReq at h
    split at h
    · split at h
      · split at h
        · cases h
        · rcases requestSet_mem h hr with h | h
          · simp at h
          · exact h
      · simp only [Option.bind_eq_bind, Option.bind_eq_some_iff] at h
        obtain ⟨ra, ha, h⟩ := h
        split at h
        · cases h
        · simp only [Option.bind_eq_some_iff] at h
          obtain ⟨rb, hb, h⟩ := h
          split at h
          · cases h
          · cases h
            exact iha (by unfold evalReq; exact ha) (List.mem_filter.mp hr).1
    · simp only [Option.bind_eq_bind, Option.bind_eq_some_iff] at h
      obtain ⟨ra, ha, h⟩ := h
      split at h
      · cases h
      · simp only [Option.bind_eq_some_iff] at h
        obtain ⟨rb, hb, h⟩ := h
        split at h
        · cases h
        · cases h
          exact iha ha (List.mem_filter.mp hr).1

/-- The vault an object belongs to: a set's parent, a vault itself. -/
def vaultOf (o : Nat) (oo : Obj K V Ty) : Option Nat := if oo.isSet = true then oo.parent else some o

theorem indexed_own {w : World K V Ty} (hv : VInv own w) (hs : SObj own home w) {o p : Nat} {oo : Obj K V Ty} (ho : w.getObj o = some oo)
    (hp : vaultOf o oo = some p) {r : Nat} (hr : Indexed oo r) : own r = p ∧ r < w.nextR := by
  obtain ⟨k, c, v, hc, hm⟩ := hr
  unfold vaultOf at hp
  split at hp
  · rename_i hi
    have ok := hs.sets o oo ho hi
    have := ok.par p hp
    subst this
    rcases hm with hm | hm
    · exact (ok.cols k c hc).hash _ hm
    · exact (ok.cols k c hc).ord _ hm
  · rename_i hi
    cases hp
    have hi : oo.isSet = false := by simpa using hi
    have vok := hv.vok o oo ho hi
    have : r ∈ oo.recs := by
      rcases hm with hm | hm
      · exact ((vok.cols k c hc).hashS _ _ hm).1
      · exact ((vok.cols k c hc).ordS _ _ hm).1
    obtain ⟨h1, x, h2, _⟩ := hv.mem o oo ho hi r this
    exact ⟨h1, hv.ltR r x h2⟩

/-! ### The target of a request -/

theorem prepTarget_spec {env : Env} {w w' : World K V Ty} {o p s : Nat} {so po : Obj K V Ty} (hsi : SI own home w)
    (hs : w.getObj s = some so) (hi : so.isSet = true) (hp : w.getObj p = some po) (hpv : po.isSet = false) (hh : p = home s) (_hos : o ≠ s)
    (h : prepTarget env w o p s = some w') :
    SP own home w w' ∧ (∃ so', w'.getObj s = some so' ∧ so'.isSet = true ∧ so'.parent = some p ∧ so'.recs = []) ∧
    (∀ x xo, x ≠ s → w.getObj x = some xo → xo.isSet = true → w'.getObj x = some xo) := by
  have hsp : s ≠ p := by intro e; subst e; rw [hs] at hp; cases hp; rw [hi] at hpv; cases hpv
  have ok := hsi.s.sets s so hs hi
  simp only [prepTarget, hp, Option.bind_eq_bind, Option.bind_some, Option.bind_eq_some_iff] at h
  obtain ⟨so1, h1, h⟩ := h
  simp only [getObj_putObj, if_neg (Ne.symm hsp), hs] at h1
  cases h1
  by_cases hpar : so.parent = some p
  · -- already a set of this vault
    rw [if_pos hpar] at h
    obtain ⟨po', a, _, hm⟩ := hsi.l.up s so p hs hi hpar
    rw [hp] at a; cases a
    have e : setIns po.sets s = po.sets := by simp [setIns, hm]
    rw [e] at h
    have hpo : w.putObj p { po with sets := po.sets } = w := by
      have : ({ po with sets := po.sets } : Obj K V Ty) = po := rfl
      rw [this]
      unfold World.putObj
      have := mput_same w.objs p po hp
      rw [this]
    rw [hpo] at h
    have q := setClear_sq (own := own) (home := home) hs hi h
    obtain ⟨⟨so', g1, g2, g3, g4, _⟩, gO⟩ := setClear_obj hs h ok.det
    exact ⟨q.sp hsi, ⟨so', g1, g3.trans hi, g4.trans hpar, g2⟩, fun x xo hne hx _ => by rw [gO x hne]; exact hx⟩
  · rw [if_neg hpar] at h
    simp only [Option.bind_eq_some_iff] at h
    obtain ⟨w2, h2, so2, hso2, oo, hoo, w4, h4, so4, hso4, h5⟩ := h
    let w1 := w.putObj p { po with sets := setIns po.sets s }
    have sf1 : SF w w1 := .putSets hp _
    have hs1 : w1.getObj s = some so := by simp only [w1, getObj_putObj, if_neg (Ne.symm hsp)]; exact hs
    have so1 : SObj own home w1 := by
      refine ⟨?_, hsi.s.deps, ?_, hsi.s.ltR, ?_⟩
      · intro s' x hx hxi
        simp only [w1, getObj_putObj] at hx
        split at hx
        · cases hx; simp only at hxi; rw [hpv] at hxi; cases hxi
        · exact hsi.s.sets s' x hx hxi
      · intro o x hx
        simp only [w1, getObj_putObj] at hx
        split at hx
        · rename_i e; subst e; exact hsi.s.ltO _ _ hp
        · exact hsi.s.ltO _ _ hx
      · intro o x hx hxi
        simp only [w1, getObj_putObj] at hx
        split at hx
        · cases hx; exact hsi.s.vb p po hp hpv
        · exact hsi.s.vb _ _ hx hxi
    have hupv : ∀ p' po', so.parent = some p' → w.getObj p' = some po' → po'.isSet = false := by
      intro p' po' h1 h2
      obtain ⟨po2, a, b, _⟩ := hsi.l.up s so p' hs hi h1
      rw [h2] at a; cases a; exact b
    obtain ⟨r1, r2, ⟨so', g1, g2, g3, g4, g5⟩, r4⟩ := setReset_get hs1 hi so1 (by
      intro p' po' h1 h2
      simp only [w1, getObj_putObj] at h2
      split at h2
      · cases h2; exact hpv
      · exact hupv p' po' h1 h2) h2
    rw [g1] at hso2; cases hso2
    -- the set gets its parent
    have sf3 : SF w2 (w2.putObj s { so2 with parent := some p }) := .putSet g1 g2 g2
    have ok2 := r2.sets s so2 g1 g2
    have so3 : SObj own home (w2.putObj s { so2 with parent := some p }) := by
      refine ⟨?_, r2.deps, ?_, r2.ltR, ?_⟩
      · intro s' x hx hxi
        simp only [getObj_putObj] at hx
        split at hx
        · rename_i e; subst e; cases hx
          exact ⟨ok2.base, ok2.sets, by intro p' hp'; cases hp'; exact hh, by simp, ok2.recs, ok2.cols⟩
        · exact r2.sets s' x hx hxi
      · intro o x hx
        simp only [getObj_putObj] at hx
        split at hx
        · rename_i e; subst e; exact r2.ltO _ _ g1
        · exact r2.ltO _ _ hx
      · intro o x hx hxi
        simp only [getObj_putObj] at hx
        split at hx
        · cases hx; simp only at hxi; rw [g2] at hxi; cases hxi
        · exact r2.vb _ _ hx hxi
    have hs3 : (w2.putObj s { so2 with parent := some p }).getObj s = some { so2 with parent := some p } := getObj_putObj_self _ _ _
    obtain ⟨q4, k2, so4', k3, k4, k5, k6⟩ := copyKeys_set (own := own) (home := home) hs3 g2 g4 h4
    rw [k3] at hso4; cases hso4
    cases h5
    have q5 : SQ own home w4 (w4.putObj s { so4 with keysOrder := oo.keysOrder, uniq := oo.uniq }) := by
      refine .putSet k3 k4 k4 rfl rfl ?_
      intro hso
      have ok := hso.sets s so4 k3 k4
      exact ok.ofCols rfl rfl rfl ok.det ok.recs ok.cols
    have so5 := q5.so (q4.so so3)
    have sfAll := sf1.trans (r1.trans (sf3.trans (q4.sf.trans q5.sf)))
    -- other objects
    have hO : ∀ x, x ≠ s → (w4.putObj s { so4 with keysOrder := oo.keysOrder, uniq := oo.uniq }).getObj x =
        if so.parent = some x then (w1.getObj x).map (fun po => { po with sets := po.sets.filter (· ≠ s) }) else w1.getObj x := by
      intro x hx
      simp only [getObj_putObj, if_neg (Ne.symm hx)]
      rw [k2 x hx]
      simp only [getObj_putObj, if_neg (Ne.symm hx)]
      exact r4 x hx
    refine ⟨⟨sfAll, so5, ?_⟩, ⟨_, getObj_putObj_self _ _ _, k4, k6, k5⟩, ?_⟩
    · refine link_update hsi.l (q := some p) (by rintro p' e; cases e; exact ⟨po, hp, hpv⟩)
        (by intro x hx; rw [hs] at hx; cases hx; exact hi) (getObj_putObj_self _ _ _) k4 k6 ?_ ?_
      · intro x xo' hne hx
        rw [hO x hne] at hx
        split at hx
        · rename_i hpx
          have hxp : p ≠ x := by intro e; subst e; exact hpar hpx
          simp only [w1, getObj_putObj, if_neg hxp, Option.map_eq_some_iff] at hx
          obtain ⟨xo, hxo, rfl⟩ := hx
          refine ⟨xo, hxo, rfl, rfl, ?_, ?_⟩
          · intro _ y hy; simp [hy]
          · intro _
            simp only [List.mem_filter, decide_eq_true_eq, ne_eq, not_true_eq_false, and_false, Option.some.injEq, false_iff]
            exact hxp
        · rename_i hpx
          simp only [w1, getObj_putObj] at hx
          split at hx
          · rename_i e; subst e; cases hx
            refine ⟨po, hp, rfl, rfl, ?_, ?_⟩
            · intro _ y hy; rw [mem_setIns]; simp [hy]
            · intro _; rw [mem_setIns]; simp
          · rename_i e
            refine ⟨xo', hx, rfl, rfl, fun _ _ _ => Iff.rfl, ?_⟩
            intro hv
            simp only [Option.some.injEq]
            constructor
            · intro hm
              obtain ⟨so0, a, _, c⟩ := hsi.l.down x xo' s hx hv hm
              rw [hs] at a; cases a; exact absurd c hpx
            · intro e'; exact absurd e' e
      · intro x xo hne hx
        rw [hO x hne]
        have : ∃ y, w1.getObj x = some y := by
          simp only [w1, getObj_putObj]; split
          · exact ⟨_, rfl⟩
          · exact ⟨xo, hx⟩
        obtain ⟨y, hy⟩ := this
        split
        · exact ⟨_, by rw [hy]; rfl⟩
        · exact ⟨y, hy⟩
    · intro x xo hne hx hxi
      rw [hO x hne]
      have hxp : p ≠ x := by intro e; subst e; rw [hp] at hx; cases hx; rw [hpv] at hxi; cases hxi
      have e1 : w1.getObj x = some xo := by simp only [w1, getObj_putObj, if_neg hxp]; exact hx
      split
      · rename_i hpx
        have := hupv x xo hpx hx
        rw [this] at hxi; cases hxi
      · exact e1

/-- Requests change only the target set. -/
theorem request_sp {env : Env} {w w' : World K V Ty} {o : Nat} {t : ReqType} {k : K} {a b : V} {ia ib : Bool} {n : Option Nat}
    {pred : Nat → Bool} {s : Nat} {res : Res K} {so : Obj K V Ty} (hv : VInv own w) (hsi : SI own home w) (hs : w.getObj s = some so)
    (hi : so.isSet = true) (hh : ∀ oo p, w.getObj o = some oo → vaultOf o oo = some p → p = home s)
    (h : request env w o t k a b ia ib n pred s = some (w', res)) : SP own home w w' := by
  simp only [request, Option.bind_eq_bind, Option.bind_eq_some_iff] at h
  obtain ⟨oo, ho, h⟩ := h
  change (match vaultOf o oo with | none => _ | some p => _) = _ at h
  cases hp : vaultOf o oo with
  | none => rw [hp] at h; cases h; exact ⟨.refl _, hsi⟩
  | some p =>
    rw [hp] at h
    dsimp only at h
    split at h
    · cases h; exact ⟨.refl _, hsi⟩
    · rename_i hos
      simp only [Option.bind_eq_some_iff] at h
      obtain ⟨w1, h1, oo1, ho1, out, hout, h⟩ := h
      obtain ⟨po, hpo, hpv⟩ : ∃ po, w.getObj p = some po ∧ po.isSet = false := by
        unfold vaultOf at hp
        split at hp
        · rename_i hi'
          obtain ⟨po, a, b, _⟩ := hsi.l.up o oo p ho hi' hp
          exact ⟨po, a, b⟩
        · rename_i hi'
          cases hp; exact ⟨oo, ho, by simpa using hi'⟩
      obtain ⟨sp1, ⟨so1, g1, g2, g3, g4⟩, gS⟩ := prepTarget_spec hsi hs hi hpo hpv (hh oo p ho hp) hos h1
      have hv1 := sp1.sf.vinv hv
      have hp1 : vaultOf o oo1 = some p := by
        unfold vaultOf at hp ⊢
        split at hp
        · rename_i hi'
          have := gS o oo hos ho hi'
          rw [ho1] at this; cases this
          rw [if_pos hi']; exact hp
        · rename_i hi'
          obtain ⟨b, hb, e, _⟩ := sp1.sf.objTo ho
          rw [ho1] at hb; cases hb
          rw [e, if_neg hi']; exact hp
      cases out with
      | error e => cases h; exact sp1
      | ok l =>
        simp only [Option.map_eq_some_iff, Prod.mk.injEq] at h
        obtain ⟨w2, h2, rfl, _⟩ := h
        obtain ⟨q, _⟩ := fillTarget_sq sp1.si.s g1 g2 (by rw [g3]; simp) (by
          intro r hr
          rcases requestSet_mem hout hr with hr | hr
          · simp at hr
          · have := indexed_own hv1 sp1.si.s ho1 hp1 hr
            rw [← hh oo p ho hp]; exact this) h2
        exact sp1.trans (q.sp sp1.si)

theorem requestTree_sp {env : Env} {w w' : World K V Ty} {o : Nat} {q : Req K V} {s : Nat} {res : Res K} {so : Obj K V Ty}
    (hv : VInv own w) (hsi : SI own home w) (hs : w.getObj s = some so)
    (hi : so.isSet = true) (hh : ∀ oo p, w.getObj o = some oo → vaultOf o oo = some p → p = home s)
    (h : requestTree env w o q s = some (w', res)) : SP own home w w' := by
  simp only [requestTree, Option.bind_eq_bind, Option.bind_eq_some_iff] at h
  obtain ⟨oo, ho, h⟩ := h
  change (match vaultOf o oo with | none => _ | some p => _) = _ at h
  cases hp : vaultOf o oo with
  | none => rw [hp] at h; cases h; exact ⟨.refl _, hsi⟩
  | some p =>
    rw [hp] at h
    dsimp only at h
    split at h
    · cases h; exact ⟨.refl _, hsi⟩
    · rename_i hos
      simp only [Option.bind_eq_some_iff] at h
      obtain ⟨w1, h1, oo1, ho1, out, hout, h⟩ := h
      obtain ⟨po, hpo, hpv⟩ : ∃ po, w.getObj p = some po ∧ po.isSet = false := by
        unfold vaultOf at hp
        split at hp
        · rename_i hi'
          obtain ⟨po, a, b, _⟩ := hsi.l.up o oo p ho hi' hp
          exact ⟨po, a, b⟩
        · rename_i hi'
          cases hp; exact ⟨oo, ho, by simpa using hi'⟩
      obtain ⟨sp1, ⟨so1, g1, g2, g3, g4⟩, gS⟩ := prepTarget_spec hsi hs hi hpo hpv (hh oo p ho hp) hos h1
      have hv1 := sp1.sf.vinv hv
      have hp1 : vaultOf o oo1 = some p := by
        unfold vaultOf at hp ⊢
        split at hp
        · rename_i hi'
          have := gS o oo hos ho hi'
          rw [ho1] at this; cases this
          rw [if_pos hi']; exact hp
        · rename_i hi'
          obtain ⟨b, hb, e, _⟩ := sp1.sf.objTo ho
          rw [ho1] at hb; cases hb
          rw [e, if_neg hi']; exact hp
      cases out with
      | error e =>
        simp only [Option.map_eq_some_iff, Prod.mk.injEq] at h
        obtain ⟨w2, h2, rfl, _⟩ := h
        exact sp1.trans ((setClear_sq g1 g2 h2).sp sp1.si)
      | ok l =>
        simp only [Option.map_eq_some_iff, Prod.mk.injEq] at h
        obtain ⟨w2, h2, rfl, _⟩ := h
        obtain ⟨q, _⟩ := fillTarget_sq sp1.si.s g1 g2 (by rw [g3]; simp) (by
          intro r hr
          have := indexed_own hv1 sp1.si.s ho1 hp1 (evalReq_mem hout hr)
          rw [← hh oo p ho hp]; exact this) h2
        exact sp1.trans (q.sp sp1.si)

/-! ### Erasing from sets and set algebra -/

theorem eraseOne_set {env : Env} {w w' : World K V Ty} {s r : Nat} {so : Obj K V Ty} (hsi : SObj own home w) (hs : w.getObj s = some so)
    (hi : so.isSet = true) (h : eraseOne env w s r = some w') : SQ own home w w' ∧ ∃ so', w'.getObj s = some so' ∧ so'.isSet = true ∧
      so'.recs = so.recs.filter (· ≠ r) ∧ so'.parent = so.parent := by
  have ok := hsi.sets s so hs hi
  simp only [eraseOne, hs, Option.bind_eq_bind, Option.bind_some, Option.bind_eq_some_iff] at h
  obtain ⟨w1, h1, h⟩ := h
  rw [ok.base] at h
  simp only [Bool.false_eq_true, if_false, Option.some.injEq] at h
  subst h
  refine ⟨eraseLocal_sq hs hi h1, ?_⟩
  simp only [eraseLocal, hs, Option.bind_eq_bind, Option.bind_some, Option.bind_eq_some_iff, Option.some.injEq] at h1
  obtain ⟨x, hx, rfl⟩ := h1
  exact ⟨_, getObj_putObj_self _ _ _, hi, rfl, rfl⟩

theorem removeRecord_set {env : Env} {w w' : World K V Ty} {s r : Nat} {b : Bool} {so : Obj K V Ty} (hsi : SObj own home w)
    (hs : w.getObj s = some so) (hi : so.isSet = true) (h : removeRecord env w s r = some (w', b)) :
    SQ own home w w' ∧ ∃ so', w'.getObj s = some so' ∧ so'.isSet = true ∧ so'.recs = so.recs.filter (· ≠ r) ∧ so'.parent = so.parent := by
  simp only [removeRecord, hs, Option.bind_eq_bind, Option.bind_some] at h
  split at h
  · rename_i hn
    cases h
    refine ⟨.refl _ _ _, so, hs, hi, ?_, rfl⟩
    rw [List.filter_eq_self.mpr]
    intro a ha; simp; rintro rfl; exact hn ha
  · simp only [Option.map_eq_some_iff, Prod.mk.injEq] at h
    obtain ⟨w1, h1, rfl, _⟩ := h
    exact eraseOne_set hsi hs hi h1

theorem eraseRef_set {env : Env} {w w' : World K V Ty} {s f : Nat} {b : Bool} {so : Obj K V Ty} (hsi : SObj own home w)
    (hs : w.getObj s = some so) (hi : so.isSet = true) (h : eraseRef env w s f = some (w', b)) : SQ own home w w' := by
  simp only [eraseRef, Option.bind_eq_bind, Option.bind_eq_some_iff] at h
  obtain ⟨ref, hf, h⟩ := h
  split at h
  · rw [hs] at h; cases h; exact .refl _ _ _
  · exact (removeRecord_set hsi hs hi h).1

theorem eraseKV_set {env : Env} {w w' : World K V Ty} {s : Nat} {k : K} {v : V} {res : Res K} {so : Obj K V Ty} (hsi : SObj own home w)
    (hs : w.getObj s = some so) (hi : so.isSet = true) (h : eraseKV env w s k v = some (w', res)) : SQ own home w w' := by
  simp only [eraseKV, hs, Option.bind_eq_bind, Option.bind_some] at h
  split at h
  · cases h; exact .refl _ _ _
  · split at h
    · cases h; exact .refl _ _ _
    · simp only [Option.map_eq_some_iff, Prod.mk.injEq] at h
      obtain ⟨w1, h1, rfl, _⟩ := h
      exact (eraseOne_set hsi hs hi h1).1

theorem loop_eraseOne_set {env : Env} {w w' : World K V Ty} {s : Nat} {l : List Nat} {so : Obj K V Ty} (hsi : SObj own home w)
    (hs : w.getObj s = some so) (hi : so.isSet = true) (h : loop (fun w r => eraseOne env w s r) l w = some w') : SQ own home w w' := by
  have := loop_inv (fun w1 => SQ own home w w1 ∧ ∃ so1, w1.getObj s = some so1 ∧ so1.isSet = true) _ _ _ _ ?_
    ⟨.refl _ _ _, so, hs, hi⟩ h
  · exact this.1
  · rintro r _ b b' ⟨q, so1, g1, g2⟩ hh
    obtain ⟨q2, so2, k1, k2, _⟩ := eraseOne_set (q.so hsi) g1 g2 hh
    exact ⟨q.trans q2, so2, k1, k2⟩

theorem eraseManyKV_set {env : Env} {w w' : World K V Ty} {s : Nat} {k : K} {v : V} {n : Nat} {res : Res K} {so : Obj K V Ty}
    (hsi : SObj own home w) (hs : w.getObj s = some so) (hi : so.isSet = true) (h : eraseManyKV env w s k v n = some (w', res)) :
    SQ own home w w' := by
  simp only [eraseManyKV, hs, Option.bind_eq_bind, Option.bind_some] at h
  split at h
  · cases h; exact .refl _ _ _
  · split at h
    · cases h; exact .refl _ _ _
    · simp only [Option.map_eq_some_iff, Prod.mk.injEq] at h
      obtain ⟨w1, h1, rfl, _⟩ := h
      exact loop_eraseOne_set hsi hs hi h1

theorem filter_filter_ne (l d : List Nat) (r : Nat) : (l.filter (· ∉ d)).filter (· ≠ r) = l.filter (· ∉ d ++ [r]) := by
  rw [List.filter_filter]
  congr 1
  funext x
  simp [List.mem_append, not_or, Bool.and_comm]

theorem loop_removeRecord_set {env : Env} {w w' : World K V Ty} {s : Nat} {l : List Nat} {so : Obj K V Ty} (hsi : SObj own home w)
    (hs : w.getObj s = some so) (hi : so.isSet = true) (h : loop (fun w r => (removeRecord env w s r).map (·.1)) l w = some w') :
    SQ own home w w' ∧ ∃ so', w'.getObj s = some so' ∧ so'.isSet = true ∧ so'.recs = so.recs.filter (· ∉ l) ∧ so'.parent = so.parent := by
  have := loop_pre (fun d w1 => SQ own home w w1 ∧ ∃ so1, w1.getObj s = some so1 ∧ so1.isSet = true ∧ so1.recs = so.recs.filter (· ∉ d) ∧
    so1.parent = so.parent) _ _ _ _ ?_ ⟨.refl _ _ _, so, hs, hi, (List.filter_eq_self.mpr (by simp)).symm, rfl⟩ h
  · exact this
  · rintro d r e b b' _ ⟨q, so1, g1, g2, g3, g4⟩ hh
    simp only [Option.map_eq_some_iff] at hh
    obtain ⟨⟨w1, b1⟩, hh, rfl⟩ := hh
    obtain ⟨q2, so2, k1, k2, k3, k4⟩ := removeRecord_set (q.so hsi) g1 g2 hh
    exact ⟨q.trans q2, so2, k1, k2, by rw [k3, g3, filter_filter_ne], k4.trans g4⟩

theorem setAddRecord_sq {w w' : World K V Ty} {s f : Nat} {res : Res K} {so : Obj K V Ty} (hr : RInv own home w) (hsi : SI own home w)
    (hs : w.getObj s = some so) (hi : so.isSet = true) (h : setAddRecord w s f = some (w', res)) : SQ own home w w' := by
  simp only [setAddRecord, hs, Option.bind_eq_bind, Option.bind_some] at h
  have ok := hsi.s.sets s so hs hi
  split at h
  · cases h; exact .refl _ _ _
  · rename_i p hp
    obtain ⟨po, hpo, hpv, _⟩ := hsi.l.up s so p hs hi hp
    simp only [Option.bind_eq_some_iff] at h
    obtain ⟨ref, hf, val, hval, h⟩ := h
    split at h
    · cases h; exact .refl _ _ _
    · split at h
      · cases h; exact .refl _ _ _
      · rename_i hvlt
        split at h
        · cases h
        · rename_i r hptr
          split at h
          · cases h; exact .refl _ _ _
          · rename_i hnr
            simp only [Option.map_eq_some_iff, Prod.mk.injEq] at h
            obtain ⟨w1, h1, rfl, _⟩ := h
            have hm : ref ∈ w.refs := List.mem_of_getElem? hf
            have hown := hr.own ref hm r p po hptr (by simpa using hvlt) hpo
            rw [hpv] at hown
            simp only [Bool.false_eq_true, if_false] at hown
            have hps := ok.par p hp
            rw [hps] at hown
            obtain ⟨x, hx⟩ := hr.live ref hm r hptr
            have hlt := hsi.s.ltR r x hx
            have q1 : SQ own home w (w.putObj s { so with recs := so.recs ++ [r] }) := by
              refine .putSet hs hi hi rfl rfl ?_
              intro _
              refine ok.ofCols rfl rfl rfl (fun hh => by rw [hp] at hh; cases hh) ?_ ok.cols
              intro r' hr'
              rcases List.mem_append.mp hr' with hr' | hr'
              · exact ok.recs r' hr'
              · simp at hr'; subst hr'; exact ⟨hown, hlt⟩
            have hs1 : (w.putObj s { so with recs := so.recs ++ [r] }).getObj s = some { so with recs := so.recs ++ [r] } :=
              getObj_putObj_self _ _ _
            exact q1.trans (attach_sq hs1 hi hown hlt (hsi.s.ltO s so hs) h1).1

theorem setOpCheck_none {so ao : Obj K V Ty} {s a : Nat} (h : setOpCheck so ao s a = none) :
    so.parent ≠ none ∧ ao.parent = so.parent ∧ s ≠ a := by
  unfold setOpCheck at h
  split at h
  · cases h
  · split at h
    · cases h
    · split at h
      · cases h
      · split at h
        · cases h
        · rename_i h1 h2 h3 h4; exact ⟨h1, by simpa using h3, h4⟩

theorem setJoin_sq {env : Env} {w w' : World K V Ty} {s a : Nat} {res : Res K} {so ao : Obj K V Ty} (hsi : SObj own home w)
    (hs : w.getObj s = some so) (hi : so.isSet = true) (ha : w.getObj a = some ao) (hai : ao.isSet = true)
    (h : setJoin env w s a = some (w', res)) : SQ own home w w' := by
  simp only [setJoin, hs, ha, Option.bind_eq_bind, Option.bind_some] at h
  split at h
  · cases h; exact .refl _ _ _
  · rename_i hc
    obtain ⟨h1, h2, h3⟩ := setOpCheck_none hc
    simp only [Option.map_eq_some_iff, Prod.mk.injEq] at h
    obtain ⟨w1, hw, rfl, _⟩ := h
    obtain ⟨p, hp⟩ := Option.ne_none_iff_exists'.mp h1
    have e1 := (hsi.sets s so hs hi).par p hp
    have oka := hsi.sets a ao ha hai
    have e2 := oka.par p (h2.trans hp)
    refine (loop_addOnly hs hi h1 ?_ hw).1
    intro r hr
    have := oka.recs r (by simpa using hr)
    rw [← e1, e2]; exact this

theorem setExclude_sq {env : Env} {w w' : World K V Ty} {s a : Nat} {res : Res K} {so : Obj K V Ty} (hsi : SObj own home w)
    (hs : w.getObj s = some so) (hi : so.isSet = true) (h : setExclude env w s a = some (w', res)) : SQ own home w w' := by
  simp only [setExclude, hs, Option.bind_eq_bind, Option.bind_some, Option.bind_eq_some_iff] at h
  obtain ⟨ao, ha, h⟩ := h
  split at h
  · cases h; exact .refl _ _ _
  · simp only [Option.map_eq_some_iff, Prod.mk.injEq] at h
    obtain ⟨w1, hw, rfl, _⟩ := h
    exact (loop_removeRecord_set hsi hs hi hw).1

theorem setIntersect_sq {env : Env} {w w' : World K V Ty} {s a : Nat} {res : Res K} {so : Obj K V Ty} (hsi : SObj own home w)
    (hs : w.getObj s = some so) (hi : so.isSet = true) (h : setIntersect env w s a = some (w', res)) : SQ own home w w' := by
  simp only [setIntersect, hs, Option.bind_eq_bind, Option.bind_some, Option.bind_eq_some_iff] at h
  obtain ⟨ao, ha, h⟩ := h
  split at h
  · cases h; exact .refl _ _ _
  · simp only [Option.map_eq_some_iff, Prod.mk.injEq] at h
    obtain ⟨w1, hw, rfl, _⟩ := h
    exact (loop_removeRecord_set hsi hs hi hw).1

end MVault.W
