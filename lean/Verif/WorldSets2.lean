import Verif.WorldSets
/-
Set-internal operations, part 2: erasing, keys, attaching, requests, set algebra, copies and moves of sets.
-/
set_option linter.unusedSectionVars false
set_option linter.unusedSimpArgs false
namespace MVault.W
variable {K V Ty : Type} [LinearOrder K] [LinearOrder V] [Typed V Ty] [DecidableEq Ty] {own home : Nat → Nat}

theorem SetOk.ofCols {n s : Nat} {so so' : Obj K V Ty} (ok : SetOk own home n s so) (h1 : so'.isBase = so.isBase) (h2 : so'.sets = so.sets)
    (h3 : so'.parent = so.parent) (h4 : so.parent = none → so'.recs = []) (h5 : ∀ r ∈ so'.recs, own r = home s ∧ r < n)
    (h6 : ∀ k c, mget so'.cols k = some c → ColS own (home s) n c) : SetOk own home n s so' :=
  ⟨h1.trans ok.base, h2.trans ok.sets, fun p hp => ok.par p (h3 ▸ hp), fun hp => h4 (h3 ▸ hp), h5, h6⟩

theorem eraseLocal_sq {w w' : World K V Ty} {s r : Nat} {so : Obj K V Ty} (hs : w.getObj s = some so) (hi : so.isSet = true)
    (h : eraseLocal w s r = some w') : SQ own home w w' := by
  simp only [eraseLocal, hs, Option.bind_eq_bind, Option.bind_some, Option.bind_eq_some_iff, Option.some.injEq] at h
  obtain ⟨x, hx, rfl⟩ := h
  refine .putSet hs hi hi rfl rfl ?_
  intro hso
  have ok := hso.sets s so hs hi
  refine ok.ofCols rfl rfl rfl ?_ ?_ ?_
  · intro hp; simp [ok.det hp]
  · intro r' hr'; exact ok.recs r' (List.mem_filter.mp hr').1
  · intro k c hc
    simp only [eraseCols, mget_mmap, Option.map_eq_some_iff] at hc
    obtain ⟨c0, h0, rfl⟩ := hc
    exact (ok.cols k c0 h0).erase _ _

theorem removeFromDeps_sp {env : Env} {w w' : World K V Ty} {r : Nat} (hs : SI own home w) (h : removeFromDeps env w r = some w') :
    SP own home w w' ∧ SQ own home w w' := by
  simp only [removeFromDeps, Option.bind_eq_bind, Option.bind_eq_some_iff] at h
  obtain ⟨x, hx, h⟩ := h
  have : SQ own home w w' ∧ SObj own home w' := by
    refine loop_inv (fun w1 => SQ own home w w1 ∧ SObj own home w1) _ _ _ _ ?_ ⟨.refl _ _ _, hs.s⟩ h
    rintro s hsm b b' ⟨hb, hb'⟩ hh
    simp only [Option.bind_eq_some_iff] at hh
    obtain ⟨so, hso, hh⟩ := hh
    split at hh
    · cases hh; exact ⟨hb, hb'⟩
    · split at hh
      · cases hh
      · rename_i hnb
        have hi : so.isSet = true := by
          by_contra hn
          exact hnb (hb'.vb s so hso (by simpa using hn))
        have q := eraseLocal_sq (own := own) (home := home) hso hi hh
        exact ⟨hb.trans q, q.so hb'⟩
  exact ⟨this.1.sp hs, this.1⟩

theorem setDataIndex_sq {w w' : World K V Ty} {s r : Nat} {k : K} {v : V} {res : Res K} {so : Obj K V Ty} (hs : w.getObj s = some so)
    (hi : so.isSet = true) (hr : own r = home s) (hn : r < w.nextR) (h : setDataIndex w s r k v = some (w', res)) : SQ own home w w' := by
  simp only [setDataIndex, hs, Option.bind_eq_bind, Option.bind_some, Option.bind_eq_some_iff] at h
  obtain ⟨x, hx, h⟩ := h
  split at h
  · cases h; exact .refl _ _ _
  · split at h
    · cases h; exact .refl _ _ _
    · rename_i c hc
      split at h
      · cases h; exact .refl _ _ _
      · split at h
        · cases h; exact .refl _ _ _
        · rename_i c' hc'
          cases h
          refine .putSet hs hi hi rfl rfl ?_
          intro hso
          have ok := hso.sets s so hs hi
          refine ok.ofCols rfl rfl rfl ok.det ok.recs ?_
          intro k' c1 hc1
          simp only [mget_mput] at hc1
          split at hc1
          · cases hc1; exact (ok.cols k c hc).setVal hr hn hc'
          · exact ok.cols k' c1 hc1

theorem updateDeps_sq {env : Env} {w w' : World K V Ty} {r : Nat} {k : K} {v : V} (hs : SObj own home w)
    (hval : ∀ x, w.getRec r = some x → x.valid = true) (h : updateDeps env w r k v = some w') : SQ own home w w' := by
  simp only [updateDeps, Option.bind_eq_bind, Option.bind_eq_some_iff] at h
  obtain ⟨x, hx, h⟩ := h
  have : SQ own home w w' ∧ SObj own home w' := by
    refine loop_inv (fun w1 => SQ own home w w1 ∧ SObj own home w1) _ _ _ _ ?_ ⟨.refl _ _ _, hs⟩ h
    rintro s hsm b b' ⟨hb, hb'⟩ hh
    simp only [Option.bind_eq_some_iff] at hh
    obtain ⟨so, hso, hh⟩ := hh
    split at hh
    · cases hh
    · rename_i hnb
      have hi : so.isSet = true := by
        by_contra hn
        exact hnb (hb'.vb s so hso (by simpa using hn))
      simp only [Option.map_eq_some_iff] at hh
      obtain ⟨⟨w1, res⟩, hh, rfl⟩ := hh
      rw [mem_perm] at hsm
      have q := setDataIndex_sq (own := own) (home := home) hso hi ((hs.deps r x s hx hsm).1 (hval x hx))
        (by rw [hb.sf.nextR]; exact hs.ltR r x hx) hh
      exact ⟨hb.trans q, q.so hb'⟩
  exact this.1

/-! ### Keys of sets -/

theorem writeCell_objs {w w' : World K V Ty} {k : K} {p : Nat × V} (h : writeCell k w p = some w') : w'.objs = w.objs := by
  simp only [writeCell, Option.map_eq_some_iff] at h
  obtain ⟨x, _, rfl⟩ := h; rfl

theorem loop_writeCell_objs {w w' : World K V Ty} {k : K} {l : List (Nat × V)} (h : loop (writeCell k) l w = some w') :
    w'.objs = w.objs := by
  refine loop_inv (fun w1 => w1.objs = w.objs) _ _ _ _ ?_ rfl h
  intro p _ b b' hb hh
  exact (writeCell_objs hh).trans hb

/-- Writing the value that is already there. -/
theorem writeCell_sq {w w' : World K V Ty} {k : K} {p : Nat × V} (h : writeCell k w p = some w')
    (hd : ∀ x, w.getRec p.1 = some x → x.valid = true → mget x.data k = some p.2) : SQ own home w w' := by
  simp only [writeCell, Option.map_eq_some_iff] at h
  obtain ⟨x, hx, rfl⟩ := h
  refine .putRec hx rfl rfl ?_ ?_
  · intro hv; exact mput_same _ _ _ (hd x hx hv)
  · intro hs s hm; exact hs.deps p.1 x s hx hm

theorem loop_writeCell_sq {w w' : World K V Ty} {k : K} {l : List (Nat × V)} (h : loop (writeCell k) l w = some w')
    (hd : ∀ p ∈ l, ∀ x, w.getRec p.1 = some x → x.valid = true → mget x.data k = some p.2) : SQ own home w w' := by
  refine loop_inv (fun w1 => SQ own home w w1) _ _ _ _ ?_ (.refl _ _ _) h
  intro p hp b b' hb hh
  refine hb.trans (writeCell_sq hh ?_)
  intro x hx hv
  obtain ⟨y, hy, e1, _, e3⟩ := hb.sf.recOf hx
  rw [e3 (by rw [← e1]; exact hv)]
  exact hd p hp y hy (by rw [← e1]; exact hv)

/-- `AddKey` propagated to a set, when the set's valid records hold the default already. -/
theorem addKeyLocal_set {env : Env} {w w' : World K V Ty} {s : Nat} {k : K} {d : V} {res : Res K} {so : Obj K V Ty}
    (hs : w.getObj s = some so) (hi : so.isSet = true) (h : addKeyLocal env w s k d = some (w', res))
    (hd : ∀ r ∈ so.recs, ∀ x, w.getRec r = some x → x.valid = true → mget x.data k = some d) :
    SQ own home w w' ∧ (∀ o, o ≠ s → w'.getObj o = w.getObj o) ∧
    ∃ so', w'.getObj s = some so' ∧ so'.isSet = true ∧ so'.recs = so.recs ∧ so'.parent = so.parent := by
  simp only [addKeyLocal, hs, Option.bind_eq_bind, Option.bind_some] at h
  split at h
  · cases h; exact ⟨.refl _ _ _, fun _ _ => rfl, so, hs, hi, rfl, rfl⟩
  · simp only [Option.bind_eq_some_iff, Option.some.injEq, Prod.mk.injEq] at h
    obtain ⟨w1, h1, rfl, rfl⟩ := h
    have ho := loop_writeCell_objs h1
    have hs1 : w1.getObj s = some so := by rw [getObj_of_objs ho]; exact hs
    have q1 : SQ own home w w1 := loop_writeCell_sq h1 (by
      intro p hp x hx hv
      obtain ⟨r, hr, rfl⟩ := List.mem_map.mp hp
      exact hd r (by simpa using hr) x hx hv)
    refine ⟨q1.trans ?_, ?_, _, getObj_putObj_self _ _ _, hi, rfl, rfl⟩
    · refine .putSet hs1 hi hi rfl rfl ?_
      intro hso
      have ok := hso.sets s so hs1 hi
      refine ok.ofCols rfl rfl rfl ok.det ok.recs ?_
      intro k' c1 hc1
      simp only [Obj.withKey, mget_mput] at hc1
      split at hc1
      · cases hc1
        refine ColS.fold d _ _ (.empty rfl rfl) ?_
        intro r hr; exact ok.recs r (by simpa using hr)
      · exact ok.cols k' c1 hc1
    · intro o hne
      simp only [getObj_putObj, if_neg (Ne.symm hne)]
      exact getObj_of_objs ho o

theorem mem_fnValues (t : Ty) (f : Nat → Nat → V) (i : Nat) (l : List Nat) : (fnValues t f i l).map (·.1) = l := by
  induction l generalizing i with
  | nil => rfl
  | cons r l ih => simp [fnValues, ih]

theorem addUniqueLocal_set {env : Env} {w w' : World K V Ty} {s : Nat} {k : K} {t : Ty} {b : Bool} {f : Nat → Nat → V} {res : Res K}
    {so : Obj K V Ty} (hso : SObj own home w) (hs : w.getObj s = some so) (hi : so.isSet = true)
    (h : addUniqueLocal env w s k t b f = some (w', res)) :
    SQ own home w w' ∧ ∃ so', w'.getObj s = some so' ∧ so'.isSet = true := by
  have ok := hso.sets s so hs hi
  simp only [addUniqueLocal, hs, Option.bind_eq_bind, Option.bind_some] at h
  split at h
  · cases h; exact ⟨.refl _ _ _, so, hs, hi⟩
  · split at h
    · cases h; exact ⟨.refl _ _ _, so, hs, hi⟩
    · split at h
      · cases h; exact ⟨.refl _ _ _, so, hs, hi⟩
      · rename_i c hc
        rw [ok.base] at h
        simp only [Bool.false_eq_true, if_false, Option.bind_some, Option.some.injEq, Prod.mk.injEq] at h
        obtain ⟨rfl, rfl⟩ := h
        refine ⟨.putSet hs hi hi rfl rfl ?_, _, getObj_putObj_self _ _ _, hi⟩
        intro _
        refine ok.ofCols rfl rfl rfl ok.det ok.recs ?_
        intro k' c1 hc1
        simp only [Obj.withKey, mget_mput] at hc1
        split at hc1
        · cases hc1
          refine ColS.fn _ _ _ (.empty rfl rfl) ?_ hc
          intro p hp
          have : p.1 ∈ (fnValues t f 0 (env.perm so.recs)).map (·.1) := List.mem_map_of_mem hp
          rw [mem_fnValues] at this
          exact ok.recs p.1 (by simpa using this)
        · exact ok.cols k' c1 hc1

theorem pushKey_sq {w w' : World K V Ty} {s : Nat} {k : K} {so : Obj K V Ty} (hs : w.getObj s = some so) (hi : so.isSet = true)
    (h : pushKey k w s = some w') : SQ own home w w' := by
  simp only [pushKey, hs, Option.map_some, Option.some.injEq] at h
  subst h
  refine .putSet hs hi hi rfl rfl ?_
  intro hso
  have ok := hso.sets s so hs hi
  exact ok.ofCols rfl rfl rfl ok.det ok.recs ok.cols

theorem removeKeyLocal_sq {w w' : World K V Ty} {s : Nat} {k : K} {so : Obj K V Ty} (hs : w.getObj s = some so) (hi : so.isSet = true)
    (h : removeKeyLocal k w s = some w') : SQ own home w w' := by
  simp only [removeKeyLocal, hs, Option.map_some, Option.some.injEq] at h
  split at h
  · subst h
    refine .putSet hs hi hi rfl rfl ?_
    intro hso
    have ok := hso.sets s so hs hi
    refine ok.ofCols rfl rfl rfl ok.det ok.recs ?_
    intro k' c hc
    simp only [Obj.withoutKey, mget_mdel] at hc
    split at hc
    · cases hc
    · exact ok.cols k' c hc
  · subst h; exact .refl _ _ _

/-- Key copiers on an empty set. -/
theorem copyKeys_set {env : Env} {src : Obj K V Ty} {w w' : World K V Ty} {s : Nat} {so : Obj K V Ty}
    (hs : w.getObj s = some so) (hi : so.isSet = true) (hr : so.recs = []) (h : copyKeys env src w s = some w') :
    SQ own home w w' ∧ (∀ o, o ≠ s → w'.getObj o = w.getObj o) ∧
    ∃ so', w'.getObj s = some so' ∧ so'.isSet = true ∧ so'.recs = [] ∧ so'.parent = so.parent := by
  have := loop_inv (fun w1 => SQ own home w w1 ∧ (∀ o, o ≠ s → w1.getObj o = w.getObj o) ∧
    ∃ so', w1.getObj s = some so' ∧ so'.isSet = true ∧ so'.recs = [] ∧ so'.parent = so.parent) _ _ _ _ ?_
    ⟨.refl _ _ _, fun _ _ => rfl, so, hs, hi, hr, rfl⟩ h
  · exact this
  · rintro kc _ b b' ⟨q, hO, so1, g1, g2, g3, g4⟩ hh
    simp only [Option.map_eq_some_iff] at hh
    obtain ⟨⟨w1, res⟩, hh, rfl⟩ := hh
    obtain ⟨q2, hO2, so2, k1, k2, k3, k4⟩ := addKeyLocal_set g1 g2 hh (by rw [g3]; simp)
    exact ⟨q.trans q2, fun o hne => (hO2 o hne).trans (hO o hne), so2, k1, k2, k3.trans g3, k4.trans g4⟩

/-! ### Records into sets -/

theorem attach_sq {w w' : World K V Ty} {s r : Nat} {so : Obj K V Ty} (hs : w.getObj s = some so) (hi : so.isSet = true)
    (hr : own r = home s) (hn : r < w.nextR) (hsn : s < w.nextO) (h : attach s w r = some w') :
    SQ own home w w' ∧ ∃ so', w'.getObj s = some so' ∧ so'.isSet = true ∧ so'.recs = so.recs ∧ so'.parent = so.parent := by
  simp only [attach, hs, Option.bind_eq_bind, Option.bind_some, Option.bind_eq_some_iff] at h
  obtain ⟨x, hx, h⟩ := h
  have q1 : SQ own home w (w.putObj s { so with cols := addCols so.cols x.data r }) := by
    refine .putSet hs hi hi rfl rfl ?_
    intro hso
    have ok := hso.sets s so hs hi
    refine ok.ofCols rfl rfl rfl ok.det ok.recs ?_
    intro k c hc
    simp only [addCols, mget_mmap, Option.map_eq_some_iff] at hc
    obtain ⟨c0, h0, rfl⟩ := hc
    exact (ok.cols k c0 h0).add _ hr hn
  refine ⟨q1.trans (addDep_sq h hr hsn), ?_⟩
  rw [getObj_of_objs (addDep_objs h)]
  exact ⟨_, getObj_putObj_self _ _ _, hi, rfl, rfl⟩

theorem loop_attach {w w' : World K V Ty} {s : Nat} {l : List Nat} {so : Obj K V Ty} (hs : w.getObj s = some so) (hi : so.isSet = true)
    (hl : ∀ r ∈ l, own r = home s ∧ r < w.nextR) (hsn : s < w.nextO) (h : loop (attach s) l w = some w') :
    SQ own home w w' ∧ ∃ so', w'.getObj s = some so' ∧ so'.isSet = true ∧ so'.recs = so.recs ∧ so'.parent = so.parent := by
  refine loop_inv (fun w1 => SQ own home w w1 ∧ ∃ so', w1.getObj s = some so' ∧ so'.isSet = true ∧ so'.recs = so.recs ∧
    so'.parent = so.parent) _ _ _ _ ?_ ⟨.refl _ _ _, so, hs, hi, rfl, rfl⟩ h
  rintro r hr b b' ⟨q, so1, g1, g2, g3, g4⟩ hh
  obtain ⟨q2, so2, k1, k2, k3, k4⟩ := attach_sq g1 g2 (hl r hr).1 (by rw [q.sf.nextR]; exact (hl r hr).2) (by rw [q.sf.nextO]; exact hsn) hh
  exact ⟨q.trans q2, so2, k1, k2, k3.trans g3, k4.trans g4⟩

theorem fillTarget_sq {env : Env} {w w' : World K V Ty} {s : Nat} {l : List Nat} {so : Obj K V Ty} (hso : SObj own home w)
    (hs : w.getObj s = some so) (hi : so.isSet = true) (hp : so.parent ≠ none) (hl : ∀ r ∈ l, own r = home s ∧ r < w.nextR)
    (h : fillTarget env w s l = some w') :
    SQ own home w w' ∧ ∃ so', w'.getObj s = some so' ∧ so'.isSet = true ∧ so'.recs = l.foldl setIns so.recs ∧ so'.parent = so.parent := by
  simp only [fillTarget, hs, Option.bind_eq_bind, Option.bind_some] at h
  have ok := hso.sets s so hs hi
  have hm : ∀ r ∈ l.foldl setIns so.recs, own r = home s ∧ r < w.nextR := by
    intro r hr
    rcases (mem_foldl_setIns _ _ _).mp hr with hr | hr
    · exact ok.recs r hr
    · exact hl r hr
  have q1 : SQ own home w (w.putObj s { so with recs := l.foldl setIns so.recs }) := by
    refine .putSet hs hi hi rfl rfl ?_
    intro _
    refine ok.ofCols rfl rfl rfl (fun hh => absurd hh hp) hm ok.cols
  have hs1 : (w.putObj s { so with recs := l.foldl setIns so.recs }).getObj s = some { so with recs := l.foldl setIns so.recs } :=
    getObj_putObj_self _ _ _
  obtain ⟨q2, so', g1, g2, g3, g4⟩ := loop_attach (own := own) (home := home) (l := env.perm (l.foldl setIns so.recs)) hs1 hi
    (by intro r hr; exact hm r (by simpa using hr)) (hso.ltO s so hs) h
  exact ⟨q1.trans q2, so', g1, g2, g3, g4⟩

theorem addOnly_sq {w w' : World K V Ty} {s r : Nat} {so : Obj K V Ty} (hs : w.getObj s = some so) (hi : so.isSet = true)
    (hp : so.parent ≠ none) (hr : own r = home s) (hn : r < w.nextR) (h : addOnly s w r = some w') :
    SQ own home w w' ∧ ∃ so', w'.getObj s = some so' ∧ so'.isSet = true ∧ so'.recs = setIns so.recs r ∧ so'.parent = so.parent := by
  simp only [addOnly, hs, Option.bind_eq_bind, Option.bind_some] at h
  split at h
  · rename_i hm; cases h; exact ⟨.refl _ _ _, so, hs, hi, by simp [setIns, hm], rfl⟩
  · rename_i hm
    simp only [Option.bind_eq_some_iff, Option.some.injEq] at h
    obtain ⟨x, hx, rfl⟩ := h
    refine ⟨.putSet hs hi hi rfl rfl ?_, _, getObj_putObj_self _ _ _, hi, by simp [setIns, hm], rfl⟩
    intro hso
    have ok := hso.sets s so hs hi
    refine ok.ofCols rfl rfl rfl (fun hh => absurd hh hp) ?_ ?_
    · intro r' hr'
      rcases List.mem_append.mp hr' with hr' | hr'
      · exact ok.recs r' hr'
      · simp at hr'; subst hr'; exact ⟨hr, hn⟩
    · intro k c hc
      simp only [addCols, mget_mmap, Option.map_eq_some_iff] at hc
      obtain ⟨c0, h0, rfl⟩ := hc
      exact (ok.cols k c0 h0).add _ hr hn

theorem loop_addOnly {w w' : World K V Ty} {s : Nat} {l : List Nat} {so : Obj K V Ty} (hs : w.getObj s = some so) (hi : so.isSet = true)
    (hp : so.parent ≠ none) (hl : ∀ r ∈ l, own r = home s ∧ r < w.nextR) (h : loop (addOnly s) l w = some w') :
    SQ own home w w' ∧ ∃ so', w'.getObj s = some so' ∧ so'.isSet = true ∧ so'.recs = l.foldl setIns so.recs ∧ so'.parent = so.parent := by
  have := loop_pre (fun d w1 => SQ own home w w1 ∧ ∃ so', w1.getObj s = some so' ∧ so'.isSet = true ∧ so'.recs = d.foldl setIns so.recs ∧
    so'.parent = so.parent) _ _ _ _ ?_ ⟨.refl _ _ _, so, hs, hi, rfl, rfl⟩ h
  · exact this
  · rintro d r e b b' hle ⟨q, so1, g1, g2, g3, g4⟩ hh
    have hr : r ∈ l := by rw [hle]; simp
    obtain ⟨q2, so2, k1, k2, k3, k4⟩ := addOnly_sq g1 g2 (by rw [g4]; exact hp) (hl r hr).1 (by rw [q.sf.nextR]; exact (hl r hr).2) hh
    exact ⟨q.trans q2, so2, k1, k2, by rw [k3, g3]; simp, k4.trans g4⟩

end MVault.W
