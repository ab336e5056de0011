import Verif.WorldVault2
/-
Key operations on vaults: AddKey, AddUniqueKey, UpdateKey, RemoveKey.
-/
set_option linter.unusedSectionVars false
set_option linter.unusedSimpArgs false
namespace MVault.W
variable {K V Ty : Type} [LinearOrder K] [LinearOrder V] [Typed V Ty] [DecidableEq Ty]
variable {own home : Nat → Nat}

/-- Vault `o` becomes `vo'`, the data of the records change by `upd`, nothing else that a user can see of vaults, records and
references changes. -/
structure VStep (w w' : World K V Ty) (o : Nat) (vo' : Obj K V Ty) (upd : Nat → List (K × V) → List (K × V)) : Prop where
  obj : w'.getObj o = some vo'
  objs : ∀ o', o' ≠ o → ObjSame (w.getObj o') (w'.getObj o')
  recTo : ∀ r x, w.getRec r = some x → ∃ y, w'.getRec r = some y ∧ y.valid = x.valid ∧ y.refs = x.refs ∧ (x.valid = true → y.data = upd r x.data)
  recOf : ∀ r y, w'.getRec r = some y → ∃ x, w.getRec r = some x
  refs : w'.refs = w.refs
  nextR : w'.nextR = w.nextR
  nextO : w'.nextO = w.nextO

theorem VStep.sf {w w' w'' : World K V Ty} {o : Nat} {vo' : Obj K V Ty} {upd : Nat → List (K × V) → List (K × V)}
    (h : VStep w w' o vo' upd) (hs : SF w' w'') (ho : w''.getObj o = some vo') : VStep w w'' o vo' upd where
  obj := ho
  objs o' hne := (h.objs o' hne).trans (hs.objs o')
  recTo r x hx := by
    obtain ⟨y, hy, e1, e2, e3⟩ := h.recTo r x hx
    obtain ⟨z, hz, f1, f2, f3⟩ := hs.recTo hy
    exact ⟨z, hz, f1.trans e1, f2.trans e2, fun hv => (f3 (e1.trans hv)).trans (e3 hv)⟩
  recOf r z hz := by
    obtain ⟨y, hy, _⟩ := hs.recOf hz
    exact h.recOf r y hy
  refs := hs.refs.trans h.refs
  nextR := hs.nextR.trans h.nextR
  nextO := hs.nextO.trans h.nextO

theorem VStep.out {w w' : World K V Ty} {o : Nat} {vo' : Obj K V Ty} {upd : Nat → List (K × V) → List (K × V)}
    (h : VStep w w' o vo' upd) (hid : ∀ r, own r ≠ o → ∀ d, upd r d = d) : Out own o w w' where
  objs := h.objs
  recs r hr := by
    cases hx : w.getRec r with
    | none =>
      cases hy : w'.getRec r with
      | none => exact trivial
      | some y => obtain ⟨x, hx'⟩ := h.recOf r y hy; rw [hx] at hx'; cases hx'
    | some x =>
      obtain ⟨y, hy, e1, e2, e3⟩ := h.recTo r x hx
      rw [hy]; exact ⟨e1, e2, fun hv => by rw [e3 hv, hid r hr]⟩

theorem VStep.cell {w w' : World K V Ty} {o : Nat} {vo vo' : Obj K V Ty} {upd : Nat → List (K × V) → List (K × V)}
    (h : VStep w w' o vo' upd) (hi : VInv own w) (ho : w.getObj o = some vo) (hs : vo.isSet = false) {r : Nat} (hr : r ∈ vo.recs) :
    ∃ x, w.getRec r = some x ∧ ∀ k, cellOf w' r k = mget (upd r x.data) k ∧ cellOf w r k = mget x.data k := by
  obtain ⟨_, x, hx, hv⟩ := hi.mem o vo ho hs r hr
  obtain ⟨y, hy, _, _, e3⟩ := h.recTo r x hx
  exact ⟨x, hx, fun k => by simp [cellOf, hx, hy, e3 hv]⟩

theorem Inv.vstep {w w' : World K V Ty} {o : Nat} {vo vo' : Obj K V Ty} {upd : Nat → List (K × V) → List (K × V)}
    (hi : Inv own home w) (ho : w.getObj o = some vo) (hs : vo.isSet = false) (st : VStep w w' o vo' upd) (hs' : vo'.isSet = false)
    (hr : vo'.recs = vo.recs) (hid : ∀ r, own r ≠ o → ∀ d, upd r d = d) (q : QI own home w') (vok : VOk (cellOf w') vo') :
    Inv own home w' := by
  refine hi.build (st.out hid) q st.obj hs' vok ?_ ?_
  · intro r hr'
    rw [hr] at hr'
    obtain ⟨a, x, hx, hv⟩ := hi.v.mem o vo ho hs r hr'
    obtain ⟨y, hy, e, _⟩ := st.recTo r x hx
    exact ⟨a, y, hy, e.trans hv⟩
  · intro r y hy hyv hown
    obtain ⟨x, hx⟩ := st.recOf r y hy
    obtain ⟨y', hy', e, _⟩ := st.recTo r x hx
    rw [hy] at hy'; cases hy'
    obtain ⟨vo1, a1, _, a3⟩ := hi.v.val r x hx (by rw [← e]; exact hyv)
    rw [hown, ho] at a1; cases a1; rw [hr]; exact a3

/-! ### Loops writing cells -/

/-- Effect of writing one key in some records. -/
theorem loop_writeCell_get {w w' : World K V Ty} {k : K} {l : List (Nat × V)} (hn : (l.map (·.1)).Nodup) (h : loop (writeCell k) l w = some w') :
    ∀ r, w'.getRec r = match mget l r with
      | some v => (w.getRec r).map fun x => { x with data := mput x.data k v }
      | none => w.getRec r := by
  induction l generalizing w with
  | nil => simp [loop] at h; subst h; intro r; simp [mget]
  | cons p l ih =>
    obtain ⟨r0, v0⟩ := p
    simp only [loop, Option.bind_eq_some_iff] at h
    obtain ⟨w1, h1, h2⟩ := h
    simp only [List.map_cons, List.nodup_cons] at hn
    intro r
    rw [ih hn.2 h2 r]
    simp only [writeCell, Option.map_eq_some_iff] at h1
    obtain ⟨x, hx, rfl⟩ := h1
    simp only [mget, getRec_putRec]
    by_cases e : r0 = r
    · subst e
      have : mget l r0 = none := by
        cases hm : mget l r0 with
        | none => rfl
        | some v => exact absurd (List.mem_map.mpr ⟨_, mget_mem _ _ _ hm, rfl⟩) hn.1
      simp [this, hx]
    · simp [e]

theorem loop_writeCell_qi {w w' : World K V Ty} {k : K} {l : List (Nat × V)} (q : QI own home w) (h : loop (writeCell k) l w = some w') :
    QI own home w' ∧ w'.objs = w.objs ∧ w'.refs = w.refs ∧ w'.nextR = w.nextR ∧ w'.nextO = w.nextO := by
  refine loop_inv (fun w1 => QI own home w1 ∧ w1.objs = w.objs ∧ w1.refs = w.refs ∧ w1.nextR = w.nextR ∧ w1.nextO = w.nextO) _ _ _ _ ?_ ⟨q, rfl, rfl, rfl, rfl⟩ h
  rintro p _ b b' ⟨hb, h1, h2, h3, h4⟩ hh
  simp only [writeCell, Option.map_eq_some_iff] at hh
  obtain ⟨x, hx, rfl⟩ := hh
  exact ⟨hb.putData hx rfl rfl rfl, h1, h2, h3, h4⟩

theorem loop_dropCell_get {w w' : World K V Ty} {k : K} {l : List Nat} (hn : l.Nodup) (h : loop (dropCell k) l w = some w') :
    ∀ r, w'.getRec r = if r ∈ l then (w.getRec r).map fun x => { x with data := mdel x.data k } else w.getRec r := by
  induction l generalizing w with
  | nil => simp [loop] at h; subst h; intro r; simp
  | cons r0 l ih =>
    simp only [loop, Option.bind_eq_some_iff] at h
    obtain ⟨w1, h1, h2⟩ := h
    rw [List.nodup_cons] at hn
    intro r
    rw [ih hn.2 h2 r]
    simp only [dropCell, Option.map_eq_some_iff] at h1
    obtain ⟨x, hx, rfl⟩ := h1
    simp only [getRec_putRec, List.mem_cons]
    by_cases e : r0 = r
    · subst e
      simp [hn.1, hx]
    · simp [e, Ne.symm e]

theorem loop_dropCell_qi {w w' : World K V Ty} {k : K} {l : List Nat} (q : QI own home w) (h : loop (dropCell k) l w = some w') :
    QI own home w' ∧ w'.objs = w.objs ∧ w'.refs = w.refs ∧ w'.nextR = w.nextR ∧ w'.nextO = w.nextO := by
  refine loop_inv (fun w1 => QI own home w1 ∧ w1.objs = w.objs ∧ w1.refs = w.refs ∧ w1.nextR = w.nextR ∧ w1.nextO = w.nextO) _ _ _ _ ?_ ⟨q, rfl, rfl, rfl, rfl⟩ h
  rintro p _ b b' ⟨hb, h1, h2, h3, h4⟩ hh
  simp only [dropCell, Option.map_eq_some_iff] at hh
  obtain ⟨x, hx, rfl⟩ := hh
  exact ⟨hb.putData hx rfl rfl rfl, h1, h2, h3, h4⟩

/-! ### AddKey -/

theorem mem_uniqIns (l : List K) (k a : K) : a ∈ uniqIns l k ↔ a = k ∨ a ∈ l := by
  induction l with
  | nil => simp [uniqIns]
  | cons b t ih =>
    simp only [uniqIns]
    split
    · simp
    · split
      · rename_i e; subst e; simp
      · simp only [List.mem_cons, ih]
        constructor
        · rintro (h | h | h) <;> simp [h]
        · rintro (h | h | h) <;> simp [h]

theorem sorted_uniqIns (l : List K) (k : K) (h : l.Pairwise (· < ·)) : (uniqIns l k).Pairwise (· < ·) := by
  induction l with
  | nil => simp [uniqIns]
  | cons b t ih =>
    rw [List.pairwise_cons] at h
    simp only [uniqIns]
    split
    · rename_i hlt
      rw [List.pairwise_cons]
      refine ⟨?_, List.pairwise_cons.mpr h⟩
      intro a ha
      rcases List.mem_cons.mp ha with rfl | ha
      · exact hlt
      · exact lt_trans hlt (h.1 a ha)
    · split
      · exact List.pairwise_cons.mpr h
      · rename_i h1 h2
        rw [List.pairwise_cons]
        refine ⟨?_, ih h.2⟩
        intro a ha
        rcases (mem_uniqIns _ _ _).mp ha with rfl | ha
        · exact lt_of_le_of_ne (not_lt.mp h1) h2
        · exact h.1 a ha

theorem VOk.withKey {cell cell' : Nat → K → Option V} {vo : Obj K V Ty} {k : K} {d : V} {u : Bool} {c : Col V Ty} (h : VOk cell vo)
    (hk : mget vo.cols k = none) (h1 : c.ty = typeOf d) (h2 : c.multi = !u)
    (hc : ColOk (fun r => cell' r k) vo.recs c) (ho : ∀ r ∈ vo.recs, ∀ k', k' ≠ k → cell' r k' = cell r k') :
    VOk cell' (vo.withKey k d u c) where
  cols k' e he := by
    simp only [Obj.withKey, mget_mput] at he
    split at he
    · rename_i e; subst e; cases he; exact hc
    · rename_i e
      exact (h.cols k' _ he).congr (fun _ => Iff.rfl) (fun r hr => ho r hr k' (Ne.symm e))
  nocol r hr k' hd := by
    simp only [Obj.withKey, mget_mput] at hd
    split at hd
    · cases hd
    · rename_i e
      rw [ho r hr k' (Ne.symm e)]; exact h.nocol r hr k' hd
  recsN := h.recsN
  keysN := by
    simp only [Obj.withKey, h.base, if_true]
    rw [List.nodup_append]
    refine ⟨h.keysN, by simp, ?_⟩
    intro a ha b hb
    simp only [List.mem_singleton] at hb
    subst hb
    rintro rfl
    obtain ⟨c', hc'⟩ := (h.keysM a).mp ha
    rw [hk] at hc'; cases hc'
  keysM k' := by
    simp only [Obj.withKey, h.base, if_true, List.mem_append, List.mem_singleton, mget_mput, h.keysM]
    split
    · rename_i e; subst e; simp
    · rename_i e; simp [Ne.symm e]
  uniqS := by
    simp only [Obj.withKey]
    split
    · exact sorted_uniqIns _ _ h.uniqS
    · exact h.uniqS
  uniqM k' := by
    simp only [Obj.withKey, mget_mput]
    cases u with
    | true =>
      simp only [if_true, mem_uniqIns, h.uniqM]
      split
      · rename_i e; subst e; simp [h2]
      · rename_i e; simp [Ne.symm e]
    | false =>
      simp only [Bool.false_eq_true, if_false, h.uniqM]
      split
      · rename_i e; subst e; simp [h2, hk]
      · rfl
  tmplN k' hd := by
    simp only [Obj.withKey, mget_mput] at hd ⊢
    split at hd
    · cases hd
    · rename_i e; simp [e]; exact h.tmplN k' hd
  tmplT k' e he := by
    simp only [Obj.withKey, mget_mput] at he ⊢
    split at he
    · rename_i e; subst e; cases he; simp [h1]
    · rename_i e; simp [e]; exact h.tmplT k' _ he
  base := h.base
  par := h.par

theorem mget_mapPair (l : List Nat) (d : V) (r : Nat) : mget (l.map (·, d)) r = if r ∈ l then some d else none := by
  induction l with
  | nil => simp [mget]
  | cons a l ih =>
    simp only [List.map_cons, mget, ih, List.mem_cons]
    by_cases e : a = r
    · simp [e]
    · simp [e, Ne.symm e]

/-- A world where only a vault's object and the data of its records changed. -/
theorem vstep_write {w w1 : World K V Ty} {o : Nat} {k : K} {l : List (Nat × V)} (vo' : Obj K V Ty)
    (hn : (l.map (·.1)).Nodup) (h : loop (writeCell k) l w = some w1)
    (hf : w1.objs = w.objs ∧ w1.refs = w.refs ∧ w1.nextR = w.nextR ∧ w1.nextO = w.nextO) :
    VStep w (w1.putObj o vo') o vo' (fun r d => match mget l r with | some v => mput d k v | none => d) := by
  have hg := loop_writeCell_get hn h
  refine ⟨getObj_putObj_self _ _ _, ?_, ?_, ?_, hf.2.1, hf.2.2.1, hf.2.2.2⟩
  · intro o' hne
    simp only [getObj_putObj, if_neg (Ne.symm hne), getObj_of_objs hf.1]
    exact .refl _
  · intro r x hx
    simp only [getRec_putObj, hg r, hx]
    cases mget l r with
    | none => exact ⟨x, rfl, rfl, rfl, fun _ => rfl⟩
    | some v => exact ⟨_, rfl, rfl, rfl, fun _ => rfl⟩
  · intro r y hy
    simp only [getRec_putObj, hg r] at hy
    cases hm : mget l r with
    | none => rw [hm] at hy; exact ⟨y, hy⟩
    | some v =>
      rw [hm] at hy
      simp only [Option.map_eq_some_iff] at hy
      obtain ⟨x, hx, _⟩ := hy
      exact ⟨x, hx⟩

/-- AddKey on a vault, before the propagation. -/
theorem addKeyLocal_vault {env : Env} {w w' : World K V Ty} {o : Nat} {vo : Obj K V Ty} {k : K} {d : V} {res : Res K}
    (hi : Inv own home w) (ho : w.getObj o = some vo) (hs : vo.isSet = false) (h : addKeyLocal env w o k d = some (w', res)) :
    (w' = w ∧ res = .bad .DuplicateKey (some k) ∧ ∃ c, mget vo.cols k = some c) ∨
    (res = .good (some k) ∧ mget vo.cols k = none ∧ Inv own home w' ∧ ∃ c, c.dflt = d ∧ c.ty = typeOf d ∧ c.multi = true ∧ c.dropH = false ∧ c.dropO = false ∧
      VStep w w' o (vo.withKey k d false c) (fun r dt => if r ∈ vo.recs then mput dt k d else dt)) := by
  have hvok := hi.v.vok o vo ho hs
  simp only [addKeyLocal, ho, Option.bind_eq_bind, Option.bind_some] at h
  split at h
  · rename_i hk; cases h; exact .inl ⟨rfl, rfl, (mhas_iff _ _).mp hk⟩
  · rename_i hk
    have hk' : mget vo.cols k = none := (mhas_false _ _).mp (by simpa using hk)
    simp only [Option.bind_eq_some_iff, Option.some.injEq, Prod.mk.injEq] at h
    obtain ⟨w1, h1, rfl, rfl⟩ := h
    right
    have hn : (((env.perm vo.recs).map (·, d)).map (·.1)).Nodup := by
      simp only [List.map_map, Function.comp_def, List.map_id']
      exact (nodup_perm _ _).mpr hvok.recsN
    obtain ⟨q1, hf⟩ := loop_writeCell_qi hi.q h1
    generalize hc : (env.perm vo.recs).foldl (fun c r => (c.add d r).1) (⟨typeOf d, true, d, [], [], false, false⟩ : Col V Ty) = c
    have hshape : c.ty = typeOf d ∧ c.multi = true ∧ c.dflt = d ∧ c.dropH = false ∧ c.dropO = false := by
      rw [← hc]
      have : ∀ (l : List Nat) (c : Col V Ty), (l.foldl (fun c r => (c.add d r).1) c).ty = c.ty ∧ (l.foldl (fun c r => (c.add d r).1) c).multi = c.multi ∧
          (l.foldl (fun c r => (c.add d r).1) c).dflt = c.dflt ∧ (l.foldl (fun c r => (c.add d r).1) c).dropH = c.dropH ∧
          (l.foldl (fun c r => (c.add d r).1) c).dropO = c.dropO := by
        intro l
        induction l with
        | nil => intro c; simp
        | cons a l ih =>
          intro c
          have h1 := ih (c.add d a).1
          have h2 := Col.add_shape c d a
          simp only [List.foldl_cons]
          exact ⟨h1.1.trans h2.1, h1.2.1.trans h2.2.1, h1.2.2.1.trans h2.2.2.1, h1.2.2.2.1.trans h2.2.2.2.1, h1.2.2.2.2.trans h2.2.2.2.2⟩
      exact this _ _
    have st := vstep_write (o := o) (vo.withKey k d false c) hn h1 hf
    have hupd : (fun r dt => match mget ((env.perm vo.recs).map (·, d)) r with | some v => mput dt k v | none => dt) =
        (fun r (dt : List (K × V)) => if r ∈ vo.recs then mput dt k d else dt) := by
      funext r dt
      rw [mget_mapPair]
      by_cases hr : r ∈ vo.recs <;> simp [hr]
    rw [hupd] at st
    have ho1 : w1.getObj o = some vo := by rw [getObj_of_objs hf.1]; exact ho
    have q2 : QI own home (w1.putObj o (vo.withKey k d false c)) := q1.putVault ho1 hs hs hvok.base rfl rfl
    refine ⟨rfl, hk', ?_, c, hshape.2.2.1, hshape.1, hshape.2.1, hshape.2.2.2.1, hshape.2.2.2.2, st⟩
    have hcell : ∀ r ∈ vo.recs, ∀ k', cellOf (w1.putObj o (vo.withKey k d false c)) r k' = if k' = k then some d else cellOf w r k' := by
      intro r hr k'
      obtain ⟨x, hx, hxx⟩ := st.cell hi.v ho hs hr
      rw [(hxx k').1, (hxx k').2]
      simp only [hr, if_true, mget_mput]
      by_cases e : k' = k
      · simp [e]
      · simp [e, Ne.symm e]
    refine hi.vstep ho hs st hs rfl ?_ q2 ?_
    · intro r hr dt
      rw [if_neg]
      intro hm
      exact hr (hi.v.mem o vo ho hs r hm).1
    · refine hvok.withKey hk' hshape.1 (by simp [hshape.2.1]) ?_ ?_
      · have := ColOk.fold (cell := fun r => cellOf (w1.putObj o (vo.withKey k d false c)) r k) d (env.perm vo.recs) []
          (⟨typeOf d, true, d, [], [], false, false⟩ : Col V Ty) (ColOk.empty _ _ rfl rfl rfl rfl rfl) rfl rfl
          (by simpa using (nodup_perm env _).mpr hvok.recsN)
          (by intro r hr; have hr' : r ∈ vo.recs := by simpa using hr
              simp only [hcell r hr' k, if_true])
        rw [hc] at this
        refine this.congr ?_ (fun _ _ => rfl)
        intro r; simp
      · intro r hr k' hne; rw [hcell r hr]; simp [hne]

/-- The propagation of AddKey to the sets. -/
theorem addKey_spec {env : Env} {w w' : World K V Ty} {o : Nat} {vo : Obj K V Ty} {k : K} {d : V} {res : Res K}
    (hi : Inv own home w) (ho : w.getObj o = some vo) (hs : vo.isSet = false) (h : addKey env w o k d = some (w', res)) :
    (w' = w ∧ res = .bad .DuplicateKey (some k) ∧ ∃ c, mget vo.cols k = some c) ∨
    (res = .good (some k) ∧ mget vo.cols k = none ∧ Inv own home w' ∧ ∃ c, c.dflt = d ∧ c.ty = typeOf d ∧ c.multi = true ∧ c.dropH = false ∧ c.dropO = false ∧
      VStep w w' o (vo.withKey k d false c) (fun r dt => if r ∈ vo.recs then mput dt k d else dt)) := by
  simp only [addKey, ho, Option.bind_eq_bind, Option.bind_some, Option.bind_eq_some_iff, Prod.exists] at h
  obtain ⟨w1, res1, h1, h⟩ := h
  rcases addKeyLocal_vault hi ho hs h1 with ⟨rfl, rfl, hk⟩ | ⟨rfl, hk, hi1, c, hc1, hc2, hc3, hc4, hc5, st⟩
  · simp only [Res.bad, if_true] at h
    cases h
    exact .inl ⟨rfl, rfl, hk⟩
  · simp only [Res.good, Bool.true_eq_false, if_false, Option.bind_eq_some_iff, Option.some.injEq, Prod.mk.injEq] at h
    obtain ⟨w2, h2, rfl, rfl⟩ := h
    have key : SQ own home w1 w2 := by
      refine loop_inv (fun w3 => SQ own home w1 w3) _ _ _ _ ?_ (.refl _ _ _) h2
      intro s hsm b b' hb hh
      simp only [Option.bind_eq_some_iff, Prod.exists] at hh
      obtain ⟨b1, res2, hb1, hh⟩ := hh
      obtain ⟨so, hso, hset, hpar⟩ := hi.l.down o vo s ho hs (by simpa using hsm)
      have hne : s ≠ o := by rintro rfl; rw [ho] at hso; cases hso; rw [hs] at hset; cases hset
      obtain ⟨so1, hso1, e1, _⟩ := (st.objs s hne).to hso
      obtain ⟨so2, hso2, e2, _⟩ := hb.sf.objTo hso1
      have his : so2.isSet = true := by rw [e2, e1]; exact hset
      have ib := hb.inv hi1
      obtain ⟨a1, a2, so3, hso3, his3, _⟩ := addKeyLocal_set (own := own) (home := home) hso2 his hb1 (by
        intro r hr x hx hv
        have hown := ((ib.s.sets s so2 hso2 his).recs r hr).1
        have hhome : home s = o := ((hi.s.sets s so hso hset).par o hpar).symm
        obtain ⟨x1, hx1, f1, _, f3⟩ := hb.sf.recOf hx
        obtain ⟨x0, hx0⟩ := st.recOf r x1 hx1
        obtain ⟨x1', hx1', g1, _, g3⟩ := st.recTo r x0 hx0
        rw [hx1] at hx1'; cases hx1'
        have hv0 : x0.valid = true := by rw [← g1, ← f1]; exact hv
        obtain ⟨vo1, j1, _, j3⟩ := hi.v.val r x0 hx0 hv0
        rw [hown, hhome, ho] at j1; cases j1
        rw [f3 (g1.trans hv0), g3 hv0, if_pos j3, mget_mput, if_pos rfl])
      exact hb.trans (a1.trans (pushKey_sq hso3 his3 hh))
    refine .inr ⟨rfl, hk, key.inv hi1, c, hc1, hc2, hc3, hc4, hc5, st.sf key.sf ?_⟩
    obtain ⟨b, hb, f1, f2⟩ := key.sf.objTo st.obj
    obtain ⟨z, hz, g1, g2, g3⟩ := lk_of (key.lk o) hb
    rw [st.obj] at hz; cases hz
    rw [hb, f2 hs, g3]

/-! ### AddUniqueKey -/

theorem fnValues_fst (t : Ty) (f : Nat → Nat → V) (i : Nat) (l : List Nat) : (fnValues t f i l).map (·.1) = l := by
  induction l generalizing i with
  | nil => rfl
  | cons r l ih => simp [fnValues, ih]

theorem fnValues_ty (t : Ty) (f : Nat → Nat → V) (i : Nat) (l : List Nat) : ∀ p ∈ fnValues t f i l, typeOf p.2 = t := by
  induction l generalizing i with
  | nil => simp [fnValues]
  | cons r l ih =>
    intro p hp
    simp only [fnValues, List.mem_cons] at hp
    rcases hp with rfl | hp
    · unfold castTo; simp only; split
      · assumption
      · exact Typed.zero_ty t
    · exact ih _ p hp

theorem mget_some_of_fst {l : List (Nat × V)} {r : Nat} (h : r ∈ l.map (·.1)) : ∃ v, mget l r = some v := by
  obtain ⟨p, hp, rfl⟩ := List.mem_map.mp h
  exact mget_of_mem l p.1 p.2 hp

theorem mget_nodup {l : List (Nat × V)} (hn : (l.map (·.1)).Nodup) {r : Nat} {v : V} (h : (r, v) ∈ l) : mget l r = some v := by
  induction l with
  | nil => simp at h
  | cons p l ih =>
    obtain ⟨a, b⟩ := p
    simp only [List.map_cons, List.nodup_cons] at hn
    simp only [mget]
    rcases List.mem_cons.mp h with e | h
    · cases e; simp
    · rw [if_neg, ih hn.2 h]
      rintro rfl
      exact hn.1 (List.mem_map.mpr ⟨_, h, rfl⟩)

/-- AddUniqueKey on a vault, before the propagation. -/
theorem addUniqueLocal_vault {env : Env} {w w' : World K V Ty} {o : Nat} {vo : Obj K V Ty} {k : K} {t : Ty} {noFn : Bool}
    {f : Nat → Nat → V} {res : Res K}
    (hi : Inv own home w) (ho : w.getObj o = some vo) (hs : vo.isSet = false) (h : addUniqueLocal env w o k t noFn f = some (w', res)) :
    (w' = w ∧ res = .bad .DuplicateKey (some k) ∧ ∃ c, mget vo.cols k = some c) ∨
    (w' = w ∧ mget vo.cols k = none ∧ res = .bad .TryToAddUniqueKeyInNonEmptyVaultWithoutLambda (some k) ∧ noFn = true ∧ vo.recs ≠ []) ∨
    (w' = w ∧ mget vo.cols k = none ∧ res = .bad .UniqueKeyValueAlredyInSet (some k) ∧
      ∃ r r' v, r ≠ r' ∧ (r, v) ∈ fnValues t f 0 (env.perm vo.recs) ∧ (r', v) ∈ fnValues t f 0 (env.perm vo.recs)) ∨
    (res = .good (some k) ∧ mget vo.cols k = none ∧ (noFn = true → vo.recs = []) ∧ Inv own home w' ∧
      (∀ r r' v, (r, v) ∈ fnValues t f 0 (env.perm vo.recs) → (r', v) ∈ fnValues t f 0 (env.perm vo.recs) → r = r') ∧
      ∃ c, c.ty = t ∧ c.multi = false ∧
      VStep w w' o (vo.withKey k (zero t) true c)
        (fun r dt => match mget (fnValues t f 0 (env.perm vo.recs)) r with | some v => mput dt k v | none => dt)) := by
  have hvok := hi.v.vok o vo ho hs
  simp only [addUniqueLocal, ho, Option.bind_eq_bind, Option.bind_some] at h
  split at h
  · rename_i hk; cases h; exact .inl ⟨rfl, rfl, (mhas_iff _ _).mp hk⟩
  · rename_i hk
    have hk' : mget vo.cols k = none := (mhas_false _ _).mp (by simpa using hk)
    split at h
    · rename_i hno; cases h; exact .inr (.inl ⟨rfl, hk', rfl, hno.1, hno.2⟩)
    · rename_i hno
      generalize hvals : fnValues t f 0 (env.perm vo.recs) = vals at h ⊢
      have hfst : vals.map (·.1) = env.perm vo.recs := by rw [← hvals]; exact fnValues_fst _ _ _ _
      have hn : (vals.map (·.1)).Nodup := by rw [hfst]; exact (nodup_perm _ _).mpr hvok.recsN
      have hty : ∀ p ∈ vals, typeOf p.2 = t := by rw [← hvals]; exact fnValues_ty _ _ _ _
      have hspec := fnCol_spec (cell := fun r => mget vals r) vals [] (⟨t, false, zero t, [], [], false, false⟩ : Col V Ty)
        (ColOk.empty _ _ (Typed.zero_ty t) rfl rfl rfl rfl) rfl hty (by simpa using hn)
        (by intro p hp; exact mget_nodup hn hp)
      split at h
      · rename_i hf
        cases h
        obtain ⟨p, hp, r', hr', hne, hc⟩ := hspec.2 hf
        exact .inr (.inr (.inl ⟨rfl, hk', rfl, p.1, r', p.2, Ne.symm hne, hp, mget_mem _ _ _ hc⟩))
      · rename_i c hf
        obtain ⟨hcok, hcm, hct⟩ := hspec.1 c hf
        simp only [hvok.base, if_true, Option.bind_eq_some_iff, Option.some.injEq, Prod.mk.injEq] at h
        obtain ⟨w1, h1, rfl, rfl⟩ := h
        refine .inr (.inr (.inr ⟨rfl, hk', ?_, ?_, ?_, c, hct, hcm, ?_⟩))
        · intro hb
          by_contra hne
          exact hno ⟨hb, hne⟩
        · obtain ⟨q1, hf1⟩ := loop_writeCell_qi hi.q h1
          have st := vstep_write (o := o) (vo.withKey k (zero t) true c) hn h1 hf1
          have ho1 : w1.getObj o = some vo := by rw [getObj_of_objs hf1.1]; exact ho
          have q2 : QI own home (w1.putObj o (vo.withKey k (zero t) true c)) := q1.putVault ho1 hs hs hvok.base rfl rfl
          have hcell : ∀ r ∈ vo.recs, ∀ k', cellOf (w1.putObj o (vo.withKey k (zero t) true c)) r k' =
              if k' = k then mget vals r else cellOf w r k' := by
            intro r hr k'
            obtain ⟨x, hx, hxx⟩ := st.cell hi.v ho hs hr
            rw [(hxx k').1, (hxx k').2]
            obtain ⟨v, hv⟩ := mget_some_of_fst (l := vals) (r := r) (by rw [hfst]; simpa using hr)
            simp only [hv, mget_mput]
            by_cases e : k' = k
            · simp [e]
            · simp [e, Ne.symm e]
          refine hi.vstep ho hs st hs rfl ?_ q2 ?_
          · intro r hr dt
            have : mget vals r = none := by
              cases hm : mget vals r with
              | none => rfl
              | some v =>
                have : r ∈ vals.map (·.1) := List.mem_map.mpr ⟨_, mget_mem _ _ _ hm, rfl⟩
                rw [hfst] at this
                exact absurd (hi.v.mem o vo ho hs r (by simpa using this)).1 hr
            simp [this]
          · refine hvok.withKey hk' (by rw [hct]; exact (Typed.zero_ty t).symm) (by simp [hcm]) ?_ ?_
            · refine hcok.congr ?_ ?_
              · intro r; rw [List.nil_append, hfst]; simp
              · intro r hr
                rw [List.nil_append, hfst] at hr
                rw [hcell r (by simpa using hr) k]; simp
            · intro r hr k' hne; rw [hcell r hr]; simp [hne]
        · intro r r' v h1 h2
          have m1 := mget_nodup hn h1
          have m2 := mget_nodup hn h2
          exact (hcok.uniq hcm).2.2 r (List.mem_map.mpr ⟨_, h1, rfl⟩) r' (List.mem_map.mpr ⟨_, h2, rfl⟩) (m1.trans m2.symm)
        · obtain ⟨q1, hf1⟩ := loop_writeCell_qi hi.q h1
          exact vstep_write (o := o) (vo.withKey k (zero t) true c) hn h1 hf1

/-- A vault keeps its object when only set internals change. -/
theorem SQ.vaultObj {w w' : World K V Ty} {o : Nat} {vo : Obj K V Ty} (h : SQ own home w w') (ho : w.getObj o = some vo) (hs : vo.isSet = false) :
    w'.getObj o = some vo := by
  obtain ⟨b, hb, f1, f2⟩ := h.sf.objTo ho
  obtain ⟨z, hz, g1, g2, g3⟩ := lk_of (h.lk o) hb
  rw [ho] at hz; cases hz
  rw [hb, f2 hs, g3]

/-- AddUniqueKey on a vault. -/
theorem addUniqueKey_spec {env : Env} {w w' : World K V Ty} {o : Nat} {vo : Obj K V Ty} {k : K} {t : Ty} {noFn : Bool}
    {f : Nat → Nat → Nat → V} {res : Res K}
    (hi : Inv own home w) (ho : w.getObj o = some vo) (hs : vo.isSet = false) (h : addUniqueKey env w o k t noFn f = some (w', res)) :
    (w' = w ∧ res = .bad .DuplicateKey (some k) ∧ ∃ c, mget vo.cols k = some c) ∨
    (w' = w ∧ mget vo.cols k = none ∧ res = .bad .TryToAddUniqueKeyInNonEmptyVaultWithoutLambda (some k) ∧ noFn = true ∧ vo.recs ≠ []) ∨
    (w' = w ∧ mget vo.cols k = none ∧ res = .bad .UniqueKeyValueAlredyInSet (some k) ∧
      ∃ r r' v, r ≠ r' ∧ (r, v) ∈ fnValues t (f o) 0 (env.perm vo.recs) ∧ (r', v) ∈ fnValues t (f o) 0 (env.perm vo.recs)) ∨
    (res = .good (some k) ∧ mget vo.cols k = none ∧ (noFn = true → vo.recs = []) ∧ Inv own home w' ∧
      (∀ r r' v, (r, v) ∈ fnValues t (f o) 0 (env.perm vo.recs) → (r', v) ∈ fnValues t (f o) 0 (env.perm vo.recs) → r = r') ∧
      ∃ c, c.ty = t ∧ c.multi = false ∧
      VStep w w' o (vo.withKey k (zero t) true c)
        (fun r dt => match mget (fnValues t (f o) 0 (env.perm vo.recs)) r with | some v => mput dt k v | none => dt)) := by
  simp only [addUniqueKey, ho, Option.bind_eq_bind, Option.bind_some, Option.bind_eq_some_iff, Prod.exists] at h
  obtain ⟨w1, res1, h1, h⟩ := h
  rcases addUniqueLocal_vault hi ho hs h1 with ⟨rfl, rfl, hk⟩ | ⟨rfl, hk, rfl, hk1⟩ | ⟨rfl, hk, rfl, hk1⟩ | ⟨rfl, hk, hno, hi1, hd, c, hc1, hc2, st⟩
  · simp only [Res.bad, if_true] at h
    cases h
    exact .inl ⟨rfl, rfl, hk⟩
  · simp only [Res.bad, if_true] at h
    cases h
    exact .inr (.inl ⟨rfl, hk, rfl, hk1⟩)
  · simp only [Res.bad, if_true] at h
    cases h
    exact .inr (.inr (.inl ⟨rfl, hk, rfl, hk1⟩))
  · simp only [Res.good, Bool.true_eq_false, if_false, Option.bind_eq_some_iff, Option.some.injEq, Prod.mk.injEq] at h
    obtain ⟨w2, h2, rfl, rfl⟩ := h
    have key : SQ own home w1 w2 := by
      refine loop_inv (fun w3 => SQ own home w1 w3) _ _ _ _ ?_ (.refl _ _ _) h2
      intro s hsm b b' hb hh
      simp only [Option.bind_eq_some_iff, Prod.exists] at hh
      obtain ⟨b1, res2, hb1, hh⟩ := hh
      obtain ⟨so, hso, hset, hpar⟩ := hi.l.down o vo s ho hs (by simpa using hsm)
      have hne : s ≠ o := by rintro rfl; rw [ho] at hso; cases hso; rw [hs] at hset; cases hset
      obtain ⟨so1, hso1, e1, _⟩ := (st.objs s hne).to hso
      obtain ⟨so2, hso2, e2, _⟩ := hb.sf.objTo hso1
      have his : so2.isSet = true := by rw [e2, e1]; exact hset
      have ib := hb.inv hi1
      obtain ⟨a1, so3, hso3, his3⟩ := addUniqueLocal_set (own := own) (home := home) ib.s hso2 his hb1
      exact hb.trans (a1.trans (pushKey_sq hso3 his3 hh))
    exact .inr (.inr (.inr ⟨rfl, hk, hno, key.inv hi1, hd, c, hc1, hc2, st.sf key.sf (key.vaultObj st.obj hs)⟩))

/-! ### UpdateKey -/

theorem VOk.tmpl {cell : Nat → K → Option V} {vo : Obj K V Ty} {k : K} {d : V} {c : Col V Ty} (h : VOk cell vo)
    (hk : mget vo.cols k = some c) (ht : typeOf d = c.ty) : VOk cell { vo with tmpl := mput vo.tmpl k d } :=
  { h with
    cols := h.cols
    nocol := h.nocol
    keysM := h.keysM
    uniqM := h.uniqM
    tmplN := fun k' hk' => by
      simp only [mget_mput]
      rw [if_neg]
      · exact h.tmplN k' hk'
      · rintro rfl; rw [hk] at hk'; cases hk'
    tmplT := fun k' c' hk' => by
      simp only [mget_mput]
      split
      · rename_i e; subst e; rw [hk] at hk'; cases hk'; exact ⟨d, rfl, ht⟩
      · exact h.tmplT k' c' hk' }

theorem updateKey_spec {w w' : World K V Ty} {o : Nat} {vo : Obj K V Ty} {k : K} {d : V} {res : Res K}
    (hi : Inv own home w) (ho : w.getObj o = some vo) (hs : vo.isSet = false) (h : updateKey w o k d = some (w', res)) :
    Inv own home w' ∧
    ((w' = w ∧ res = .bad .WrongKey (some k) ∧ mget vo.cols k = none) ∨
    (∃ c, mget vo.cols k = some c ∧ c.ty ≠ typeOf d ∧ w' = w ∧ res = .bad .WrongType (some k)) ∨
    (∃ c, mget vo.cols k = some c ∧ c.ty = typeOf d ∧ c.multi = false ∧ w' = w ∧ res = .bad .UniqueKey (some k)) ∨
    (∃ c, mget vo.cols k = some c ∧ c.ty = typeOf d ∧ c.multi = true ∧ res = .good (some k) ∧ w' = w.putObj o { vo with tmpl := mput vo.tmpl k d })) := by
  have hvok := hi.v.vok o vo ho hs
  simp only [updateKey, ho, checkKey, Option.bind_eq_bind, Option.bind_some] at h
  cases hk : mget vo.cols k with
  | none =>
    simp only [hk] at h; cases h
    exact ⟨hi, .inl ⟨rfl, rfl, rfl⟩⟩
  | some c =>
    simp only [hk] at h
    by_cases hty : c.ty = typeOf d
    · simp only [ne_eq, hty, not_true_eq_false, if_false] at h
      by_cases hu : k ∈ vo.uniq
      · rw [if_pos hu] at h; cases h
        obtain ⟨c', hc', hm⟩ := (hvok.uniqM k).mp hu
        rw [hk] at hc'; cases hc'
        exact ⟨hi, .inr (.inr (.inl ⟨c, rfl, hty, hm, rfl, rfl⟩))⟩
      · rw [if_neg hu] at h; cases h
        refine ⟨?_, .inr (.inr (.inr ⟨c, rfl, hty, ?_, rfl, rfl⟩))⟩
        · have q : QI own home (w.putObj o { vo with tmpl := mput vo.tmpl k d }) := hi.q.putVault ho hs hs hvok.base rfl rfl
          refine hi.build (Out.putObj o w _) q (getObj_putObj_self _ _ _) hs (hvok.tmpl hk hty.symm) ?_ ?_
          · exact hi.v.mem o vo ho hs
          · intro r x hx hv hown
            obtain ⟨vo1, a1, _, a3⟩ := hi.v.val r x hx hv
            rw [hown, ho] at a1; cases a1; exact a3
        · by_contra hm
          exact hu ((hvok.uniqM k).mpr ⟨c, hk, by simpa using hm⟩)
    · simp only [ne_eq, hty, not_false_eq_true, if_true] at h; cases h
      exact ⟨hi, .inr (.inl ⟨c, rfl, hty, rfl, rfl⟩)⟩

/-! ### RemoveKey -/

theorem VOk.withoutKey {cell cell' : Nat → K → Option V} {vo : Obj K V Ty} {k : K} (h : VOk cell vo)
    (hc : ∀ r ∈ vo.recs, cell' r k = none) (ho : ∀ r ∈ vo.recs, ∀ k', k' ≠ k → cell' r k' = cell r k') :
    VOk cell' (vo.withoutKey k) where
  cols k' e he := by
    simp only [Obj.withoutKey, mget_mdel] at he
    split at he
    · cases he
    · rename_i e
      exact (h.cols k' _ he).congr (fun _ => Iff.rfl) (fun r hr => ho r hr k' (Ne.symm e))
  nocol r hr k' hd := by
    simp only [Obj.withoutKey, mget_mdel] at hd
    split at hd
    · rename_i e; subst e; exact hc r hr
    · rename_i e
      rw [ho r hr k' (Ne.symm e)]; exact h.nocol r hr k' hd
  recsN := h.recsN
  keysN := h.keysN.erase _
  keysM k' := by
    simp only [Obj.withoutKey, mget_mdel, h.keysN.mem_erase_iff, h.keysM]
    by_cases e : k = k'
    · subst e; simp
    · simp [e, Ne.symm e]
  uniqS := h.uniqS.filter _
  uniqM k' := by
    simp only [Obj.withoutKey, mget_mdel, List.mem_filter, h.uniqM, decide_eq_true_eq, ne_eq]
    by_cases e : k = k'
    · subst e; simp
    · simp [e, Ne.symm e]
  tmplN k' hd := by
    simp only [Obj.withoutKey, mget_mdel] at hd ⊢
    split at hd
    · rename_i e; simp [e]
    · rename_i e; simp [e]; exact h.tmplN k' hd
  tmplT k' e he := by
    simp only [Obj.withoutKey, mget_mdel] at he ⊢
    split at he
    · cases he
    · rename_i e; simp [e]; exact h.tmplT k' _ he
  base := h.base
  par := h.par

theorem removeKey_spec {env : Env} {w w' : World K V Ty} {o : Nat} {vo : Obj K V Ty} {k : K} {b : Bool}
    (hi : Inv own home w) (ho : w.getObj o = some vo) (hs : vo.isSet = false) (h : removeKey env w o k = some (w', b)) :
    (w' = w ∧ b = false ∧ mget vo.cols k = none) ∨
    (b = true ∧ (∃ c, mget vo.cols k = some c) ∧ Inv own home w' ∧
      VStep w w' o (vo.withoutKey k) (fun r dt => if r ∈ vo.recs then mdel dt k else dt)) := by
  have hvok := hi.v.vok o vo ho hs
  simp only [removeKey, ho, Option.bind_eq_bind, Option.bind_some] at h
  split at h
  · rename_i hk; cases h; exact .inl ⟨rfl, rfl, (mhas_false _ _).mp hk⟩
  · rename_i hk
    simp only [Option.bind_eq_some_iff, Option.some.injEq, Prod.mk.injEq] at h
    obtain ⟨w2, h2, w3, h3, rfl, rfl⟩ := h
    right
    have q1 : QI own home (w.putObj o (vo.withoutKey k)) := hi.q.putVault ho hs hs hvok.base rfl rfl
    obtain ⟨q2, g1, g2, g3, g4⟩ := loop_dropCell_qi q1 h2
    have hg := loop_dropCell_get ((nodup_perm env _).mpr hvok.recsN) h2
    have ho2 : w2.getObj o = some (vo.withoutKey k) := by rw [getObj_of_objs g1]; exact getObj_putObj_self _ _ _
    have hset2 : ∀ s ∈ vo.sets, ∃ so, w2.getObj s = some so ∧ so.isSet = true := by
      intro s hsm
      obtain ⟨so, hso, hset, _⟩ := q2.l.down o (vo.withoutKey k) s ho2 hs hsm
      exact ⟨so, hso, hset⟩
    have key : SQ own home w2 w3 := by
      refine loop_inv (fun w4 => SQ own home w2 w4) _ _ _ _ ?_ (.refl _ _ _) h3
      intro s hsm b b' hb hh
      obtain ⟨so, hso, hset⟩ := hset2 s (by simpa using hsm)
      obtain ⟨so2, hso2, e2, _⟩ := hb.sf.objTo hso
      exact hb.trans (removeKeyLocal_sq hso2 (by rw [e2]; exact hset) hh)
    have st2 : VStep w w2 o (vo.withoutKey k) (fun r dt => if r ∈ vo.recs then mdel dt k else dt) := by
      refine ⟨ho2, ?_, ?_, ?_, g2, g3, g4⟩
      · intro o' hne
        rw [getObj_of_objs g1]
        simp only [getObj_putObj, if_neg (Ne.symm hne)]
        exact .refl _
      · intro r x hx
        simp only [hg r, getRec_putObj, mem_perm, hx]
        split
        · exact ⟨_, rfl, rfl, rfl, fun _ => rfl⟩
        · exact ⟨x, rfl, rfl, rfl, fun _ => rfl⟩
      · intro r y hy
        simp only [hg r, getRec_putObj, mem_perm] at hy
        split at hy
        · simp only [Option.map_eq_some_iff] at hy
          obtain ⟨x, hx, _⟩ := hy
          exact ⟨x, hx⟩
        · exact ⟨y, hy⟩
    have st := st2.sf key.sf (key.vaultObj ho2 hs)
    have hcell : ∀ r ∈ vo.recs, ∀ k', cellOf w3 r k' = if k' = k then none else cellOf w r k' := by
      intro r hr k'
      obtain ⟨x, hx, hxx⟩ := st.cell hi.v ho hs hr
      rw [(hxx k').1, (hxx k').2]
      simp only [hr, if_true, mget_mdel]
      by_cases e : k' = k
      · simp [e]
      · simp [e, Ne.symm e]
    refine ⟨rfl, (mhas_iff _ _).mp (by simpa using hk), ?_, st⟩
    refine hi.vstep ho hs st hs rfl ?_ (key.qi q2) ?_
    · intro r hr dt
      rw [if_neg]
      intro hm
      exact hr (hi.v.mem o vo ho hs r hm).1
    · refine hvok.withoutKey ?_ ?_
      · intro r hr; rw [hcell r hr]; simp
      · intro r hr k' hne; rw [hcell r hr]; simp [hne]

end MVault.W
