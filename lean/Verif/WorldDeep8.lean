import Verif.WorldDeep7
/-
Adding and removing keys in careful histories: defined, and the set invariant is kept.
-/
set_option linter.unusedSectionVars false
set_option linter.unusedSimpArgs false
namespace MVault.W
variable {K V Ty : Type} [LinearOrder K] [LinearOrder V] [Typed V Ty] [DecidableEq Ty]
variable {own home : Nat → Nat}

/-- A set after a key has been added to its vault. -/
def Obj.withSetKey (so : Obj K V Ty) (k : K) (d : V) (u : Bool) (c : Col V Ty) : Obj K V Ty :=
  { so.withKey k d u c with keysOrder := so.keysOrder ++ [k] }

theorem loop_write {w : World K V Ty} {k : K} {l : List (Nat × V)} (hl : ∀ p ∈ l, ∃ x, w.getRec p.1 = some x) :
    ∃ w', loop (writeCell k) l w = some w' ∧ w'.objs = w.objs := by
  obtain ⟨w', h, _, e⟩ := loop_some (fun w' : World K V Ty => (∀ p ∈ l, ∃ x, w'.getRec p.1 = some x) ∧ w'.objs = w.objs) (writeCell k) l w (by
    rintro p hp b ⟨hb, he⟩
    obtain ⟨x, hx⟩ := hb p hp
    refine ⟨b.putRec p.1 { x with data := mput x.data k p.2 }, by simp only [writeCell, hx, Option.map_some], ?_, he⟩
    intro q hq
    rw [getRec_putRec]
    split
    · exact ⟨_, rfl⟩
    · exact hb q hq) ⟨hl, rfl⟩
  exact ⟨w', h, e⟩

/-- Writing values that are already there. -/
theorem loop_write_same {w : World K V Ty} {k : K} {l : List (Nat × V)} (hl : ∀ p ∈ l, ∃ x, w.getRec p.1 = some x ∧ mget x.data k = some p.2) :
    loop (writeCell k) l w = some w := by
  induction l with
  | nil => rfl
  | cons p l ih =>
    obtain ⟨x, hx, hv⟩ := hl p (by simp)
    have : writeCell k w p = some w := by
      simp only [writeCell, hx, Option.map_some, mput_same _ _ _ hv, World.putRec]
      rw [show mput w.recs p.1 x = w.recs from mput_same _ _ _ hx]
    simp only [loop, this, Option.bind_some]
    exact ih (fun q hq => hl q (by simp [hq]))

theorem ColOk.lists_all {cell : Nat → Option V} {recs : List Nat} {c : Col V Ty} (h : ColOk cell recs c) (h1 : c.dropH = false) (h2 : c.dropO = false)
    (b : Bool) (r : Nat) : c.lists b r ↔ r ∈ recs := by
  constructor
  · rintro ⟨v, hv⟩
    cases b with
    | true => exact (h.ordS v r hv).1
    | false => exact (h.hashS v r hv).1
  · intro hr
    obtain ⟨v, hv, _⟩ := h.typed r hr
    cases b with
    | true => exact ⟨v, h.ordC h2 r hr v hv⟩
    | false => exact ⟨v, h.hashC h1 r hr v hv⟩

/-- What a new key does to the sets: those of the vault get it and list all their records under it. -/
def SetsKey (o : Nat) (k : K) (d : V) (u : Bool) (w w' : World K V Ty) : Prop :=
  ∀ s so, w.getObj s = some so → so.isSet = true →
    (so.parent ≠ some o ∧ w'.getObj s = some so) ∨
    (so.parent = some o ∧ ∃ c, w'.getObj s = some (so.withSetKey k d u c) ∧ c.ty = typeOf d ∧ ∀ b r, c.lists b r ↔ r ∈ so.recs)

theorem added_sets {w w' : World K V Ty} {o : Nat} {vo : Obj K V Ty} {k : K} {d : V} {u : Bool} {c : Col V Ty} {cs : Obj K V Ty → Col V Ty}
    {cell : Nat → Option V} (hi : Inv own home w) (ho : w.getObj o = some vo) (hs : vo.isSet = false)
    (hobj : ∀ t, w'.getObj t = if t = o then some (vo.withKey k d u c) else if t ∈ vo.sets then (w.getObj t).map (fun so => so.withSetKey k d u (cs so))
      else w.getObj t)
    (hcol : ∀ s ∈ vo.sets, ∀ so, w.getObj s = some so → so.isSet = true →
      (cs so).ty = typeOf d ∧ (cs so).dropH = false ∧ (cs so).dropO = false ∧ ColOk cell so.recs (cs so)) : SetsKey o k d u w w' := by
  intro s so hso his
  have hne : s ≠ o := by rintro rfl; rw [ho] at hso; cases hso; rw [hs] at his; cases his
  by_cases hm : s ∈ vo.sets
  · obtain ⟨so1, a, _, b⟩ := hi.l.down o vo s ho hs hm
    rw [hso] at a; cases a
    obtain ⟨c1, c2, c3, c4⟩ := hcol s hm so hso his
    exact .inr ⟨b, _, by rw [hobj, if_neg hne, if_pos hm, hso]; rfl, c1, c4.lists_all c2 c3⟩
  · refine .inl ⟨?_, by rw [hobj, if_neg hne, if_neg hm]; exact hso⟩
    intro hp
    obtain ⟨po, h1, _, h3⟩ := hi.l.up s so o hso his hp
    rw [ho] at h1; cases h1; exact hm h3

theorem added_deep {w w' : World K V Ty} {o : Nat} {vo : Obj K V Ty} {k : K} {d : V} {u : Bool} {c : Col V Ty} {cs : Obj K V Ty → Col V Ty}
    {vals : List (Nat × V)} (hi : Inv own home w) (hd : Deep w) (ho : w.getObj o = some vo) (hs : vo.isSet = false)
    (hk : mget vo.cols k = none)
    (hrec : ∀ r, w'.getRec r = match mget vals r with
      | some v => (w.getRec r).map fun x => { x with data := mput x.data k v }
      | none => w.getRec r)
    (hobj : ∀ t, w'.getObj t = if t = o then some (vo.withKey k d u c) else if t ∈ vo.sets then (w.getObj t).map (fun so => so.withSetKey k d u (cs so))
      else w.getObj t)
    (hvals : ∀ r v, mget vals r = some v → r ∈ vo.recs)
    (hcol : ∀ s ∈ vo.sets, ∀ so, w.getObj s = some so → so.isSet = true →
      (cs so).ty = c.ty ∧ (cs so).multi = c.multi ∧ ColOk (fun r => cellOf w' r k) so.recs (cs so)) : Deep w' := by
  have hbase := (hi.v.vok o vo ho hs).base
  have hcell : ∀ r k', (k' = k → r ∉ vo.recs) → cellOf w' r k' = cellOf w r k' := by
    intro r k' hne
    simp only [cellOf, hrec]
    cases hm : mget vals r with
    | none => rfl
    | some v =>
      have : k ≠ k' := by rintro rfl; exact hne rfl (hvals r v hm)
      simp only [Option.bind_map, Function.comp_def, mget_mput, if_neg this]
  have hso : ∀ t a, w.getObj t = some a → ∃ b, w'.getObj t = some b ∧ b.isSet = a.isSet ∧ b.parent = a.parent ∧ b.recs = a.recs ∧ b.sets = a.sets := by
    intro t a ha
    rw [hobj]
    split
    · rename_i e; subst e; rw [ho] at ha; cases ha; exact ⟨_, rfl, rfl, rfl, rfl, rfl⟩
    · split
      · rw [ha]; exact ⟨_, rfl, rfl, rfl, rfl, rfl⟩
      · exact ⟨a, ha, rfl, rfl, rfl, rfl⟩
  refine hd.steady ⟨?_, ?_, ?_, hso⟩ ?_
  · intro r y hy
    rw [hrec] at hy
    cases hm : mget vals r with
    | none => rw [hm] at hy; exact ⟨y, hy, rfl, rfl⟩
    | some v =>
      rw [hm] at hy; simp only [Option.map_eq_some_iff] at hy
      obtain ⟨x, hx, rfl⟩ := hy
      exact ⟨x, hx, rfl, rfl⟩
  · intro r x hx
    rw [hrec]
    cases hm : mget vals r with
    | none => exact ⟨x, hx, rfl, rfl⟩
    | some v => simp only [hx]; exact ⟨_, rfl, rfl, rfl⟩
  · intro t b hb
    cases ha : w.getObj t with
    | none =>
      rw [hobj, ha] at hb
      split at hb
      · rename_i e; subst e; rw [ho] at ha; cases ha
      · split at hb <;> cases hb
    | some a =>
      obtain ⟨b', hb', h⟩ := hso t a ha
      rw [hb] at hb'; cases hb'
      exact ⟨a, rfl, h⟩
  · intro s a b ha hai dp hb
    have hne : s ≠ o := by rintro rfl; rw [ho] at ha; cases ha; rw [hs] at hai; cases hai
    rw [hobj, if_neg hne] at hb
    by_cases hm : s ∈ vo.sets
    · rw [if_pos hm, ha] at hb; cases hb
      obtain ⟨c1, c2, c3⟩ := hcol s hm a ha hai
      obtain ⟨a', ha', _, hpar⟩ := hi.l.down o vo s ho hs hm
      rw [ha] at ha'; cases ha'
      have al := dp.att o vo hpar ho
      refine ⟨?_, ?_, ?_⟩
      · intro k' c' hc'
        simp only [Obj.withSetKey, Obj.withKey, mget_mput] at hc'
        split at hc'
        · rename_i e; subst e; cases hc'; exact c3
        · rename_i e
          exact (dp.cols k' c' hc').congr (fun _ => Iff.rfl) (fun r _ => hcell r k' (fun e' => absurd e'.symm e))
      · intro hn; rw [hpar] at hn; cases hn
      · intro p po hp hpo
        rw [hpar] at hp; cases hp
        rw [hobj, if_pos rfl] at hpo; cases hpo
        refine ⟨?_, ?_, ?_, ?_⟩
        · simp only [Obj.withSetKey, Obj.withKey, if_pos hbase, al.keys]
        · simp only [Obj.withSetKey, Obj.withKey, al.uniq]
        · intro k'
          simp only [Obj.withSetKey, Obj.withKey, mget_mput]
          split
          · simp [c1]
          · exact al.ty k'
        · intro k' x y hx hy
          simp only [Obj.withSetKey, Obj.withKey, mget_mput] at hx hy
          split at hx
          · rename_i e; rw [if_pos e] at hy; cases hx; cases hy; rw [c2]; exact fun h => h
          · rename_i e; rw [if_neg e] at hy; exact al.multi k' x y hx hy
    · rw [if_neg hm, ha] at hb; cases hb
      refine ⟨?_, dp.det, ?_⟩
      · intro k' c' hc'
        refine (dp.cols k' c' hc').congr (fun _ => Iff.rfl) (fun r hr => hcell r k' ?_)
        intro _ hrv
        obtain ⟨hpar, _⟩ := holder hi hd ho (hi.v.mem o vo ho hs r hrv).1 ha hai hr
        obtain ⟨po, h1, _, h3⟩ := hi.l.up s a o ha hai hpar
        rw [ho] at h1; cases h1
        exact hm h3
      · intro p po' hp hpo'
        obtain ⟨po, hpo, h2, h3⟩ := hi.l.up s a p ha hai hp
        have hpo1 : p ≠ o := by rintro rfl; rw [ho] at hpo; cases hpo; exact hm h3
        rw [hobj, if_neg hpo1] at hpo'
        have : p ∉ vo.sets := by
          intro hq
          obtain ⟨q, hq1, hq2, _⟩ := hi.l.down o vo p ho hs hq
          rw [hpo] at hq1; cases hq1; rw [h2] at hq2; cases hq2
        rw [if_neg this, hpo] at hpo'; cases hpo'
        exact dp.att p _ hp hpo

theorem mget_const {l : List Nat} {d : V} {r : Nat} : mget (l.map (·, d)) r = if r ∈ l then some d else none := by
  induction l with
  | nil => simp [mget]
  | cons a l ih =>
    simp only [List.map_cons, mget, ih, List.mem_cons]
    by_cases e : a = r
    · subst e; simp
    · simp [e, Ne.symm e]

theorem addKey_obj {env : Env} {w : World K V Ty} {o : Nat} {vo : Obj K V Ty} {k : K} {d : V} (hi : Inv own home w) (hd : Deep w)
    (ho : w.getObj o = some vo) (hs : vo.isSet = false) : ∃ w' res, addKey env w o k d = some (w', res) ∧ Deep w' ∧
      ((w' = w ∧ mhas vo.cols k = true) ∨ (mhas vo.cols k = false ∧ SetsKey o k d false w w')) := by
  have hvok := hi.v.vok o vo ho hs
  simp only [addKey, addKeyLocal, ho, Option.bind_eq_bind, Option.bind_some]
  by_cases hk : mhas vo.cols k = true
  · rw [if_pos hk]; exact ⟨w, _, rfl, hd, .inl ⟨rfl, hk⟩⟩
  rw [if_neg hk]
  have hkn : mget vo.cols k = none := (mhas_false _ _).mp (by simpa using hk)
  obtain ⟨w1, h1, e1⟩ := loop_write (w := w) (k := k) (l := (env.perm vo.recs).map (·, d)) (by
    intro p hp
    obtain ⟨r, hr, rfl⟩ := List.mem_map.mp hp
    obtain ⟨_, x, hx, _⟩ := hi.v.mem o vo ho hs r (by simpa using hr)
    exact ⟨x, hx⟩)
  have hnd : (((env.perm vo.recs).map (·, d)).map (·.1)).Nodup := by
    rw [List.map_map]; simpa [Function.comp_def] using (nodup_perm env _).mpr hvok.recsN
  have hg := loop_writeCell_get hnd h1
  let cs : Obj K V Ty → Col V Ty := fun so => (env.perm so.recs).foldl (fun c r => (c.add d r).1) (⟨typeOf d, true, d, [], [], false, false⟩ : Col V Ty)
  let w2 := w1.putObj o (vo.withKey k d false (cs vo))
  simp only [h1, Option.bind_some, Res.good, Bool.true_eq_false, if_false]
  have hr2 : ∀ r, w2.getRec r = match mget ((env.perm vo.recs).map (·, d)) r with
      | some v => (w.getRec r).map fun x => { x with data := mput x.data k v }
      | none => w.getRec r := hg
  have ho2 : ∀ t, w2.getObj t = if o = t then some (vo.withKey k d false (cs vo)) else w.getObj t := by
    intro t
    simp only [w2, getObj_putObj]
    rw [getObj_of_objs e1]
  have hsets : ∀ s ∈ vo.sets, s ≠ o ∧ ∃ so, w.getObj s = some so ∧ w2.getObj s = some so ∧ so.isSet = true ∧ so.parent = some o := by
    intro s hm
    obtain ⟨so, a, b, c⟩ := hi.l.down o vo s ho hs hm
    have hne : o ≠ s := by rintro rfl; rw [ho] at a; cases a; rw [hs] at b; cases b
    exact ⟨Ne.symm hne, so, a, by rw [ho2, if_neg hne]; exact a, b, c⟩
  have hsub : ∀ s ∈ vo.sets, ∀ so, w.getObj s = some so → ∀ r ∈ so.recs, r ∈ vo.recs := by
    intro s hm so hso r hr
    obtain ⟨_, so', a, _, b, c⟩ := hsets s hm
    rw [hso] at a; cases a
    obtain ⟨po, hpo, _, hsub⟩ := vault_of hi hd hso (show vaultOf s so = some o by simp [vaultOf, b, c])
    rw [ho] at hpo; cases hpo; exact hsub r hr
  have hcell : ∀ r ∈ vo.recs, ∃ x, w2.getRec r = some x ∧ mget x.data k = some d := by
    intro r hr
    obtain ⟨_, x, hx, _⟩ := hi.v.mem o vo ho hs r hr
    rw [hr2, mget_const, if_pos (by simpa using hr)]
    simp only [hx, Option.map_some]
    exact ⟨_, rfl, by simp [mget_mput]⟩
  obtain ⟨w3, h3, er, ef, _, _, eo⟩ := objLoop (f := fun w s => do
        let __x ← addKeyLocal env w s k d
        pushKey k __x.1 s) (g := fun _ so => so.withSetKey k d false (cs so))
      (w := w2) (l := env.perm vo.sets) (by simpa [nodup_perm] using hd.setsN o vo ho) (by
    intro s hm wa har hao
    obtain ⟨_, so, a0, a, b, c⟩ := hsets s (by simpa using hm)
    refine ⟨so, a, ?_⟩
    rw [a] at hao
    have hb := (hi.s.sets s so a0 b).base
    have hmh : mhas so.cols k = false := by
      have := ((hd.set s so a0 b).att o vo c ho).ty k
      rw [hkn] at this
      rw [mhas_false]
      cases hh : mget so.cols k with
      | none => rfl
      | some _ => rw [hh] at this; simp at this
    have hl := loop_write_same (w := wa) (k := k) (l := (env.perm so.recs).map (·, d)) (by
      intro p hp
      obtain ⟨r, hr, rfl⟩ := List.mem_map.mp hp
      obtain ⟨x, hx, hv⟩ := hcell r (hsub s (by simpa using hm) so a0 r (by simpa using hr))
      exact ⟨x, by unfold World.getRec; rw [har]; exact hx, hv⟩)
    simp only [addKeyLocal, hao, Option.bind_eq_bind, Option.bind_some, hmh, Bool.false_eq_true, if_false, hl, pushKey, getObj_putObj_self,
      Option.map_some, putObj_putObj]
    rw [Obj.withSetKey]
    simp only [Obj.withKey]
    rw [if_neg (show ¬(so.isBase = true) from fun e => by rw [hb] at e; cases e)])
  refine ⟨w3, .good (some k), ?_, ?_⟩
  · show (loop (fun w s => do
        let __x ← addKeyLocal env w s k d
        pushKey k __x.1 s) (env.perm vo.sets) w2).bind _ = _
    rw [h3]; rfl
  · have hob : ∀ t, w3.getObj t = if t = o then some (vo.withKey k d false (cs vo)) else if t ∈ vo.sets then
        (w.getObj t).map (fun so => so.withSetKey k d false (cs so)) else w.getObj t := by
      intro t
      rw [eo]; simp only [mem_perm]
      by_cases e : t = o
      · subst e
        rw [if_pos rfl, if_neg (fun hm => (hsets t hm).1 rfl), ho2, if_pos rfl]
      · rw [if_neg e, ho2, if_neg (Ne.symm e)]
    refine (fun (H : ∀ s ∈ vo.sets, ∀ so, w.getObj s = some so → so.isSet = true → ((cs so).ty = (cs vo).ty ∧ (cs so).multi = (cs vo).multi ∧
          ColOk (fun r => cellOf w3 r k) so.recs (cs so)) ∧ (cs so).ty = typeOf d ∧ (cs so).dropH = false ∧ (cs so).dropO = false) => (⟨?_, .inr ⟨by simpa using hk,
        added_sets (cell := fun r => cellOf w3 r k) hi ho hs hob (fun s hm so hso his => ⟨(H s hm so hso his).2.1, (H s hm so hso his).2.2.1,
          (H s hm so hso his).2.2.2, (H s hm so hso his).1.2.2⟩)⟩⟩ : Deep w3 ∧ _)) ?_
    · refine added_deep (vals := (env.perm vo.recs).map (·, d)) (u := false) (d := d) (c := cs vo) (cs := cs) hi hd ho hs hkn ?_ hob ?_
        (fun s hm so hso his => (H s hm so hso his).1)
      · intro r; rw [← hr2]; unfold World.getRec; rw [er]
      · intro r v hm
        rw [mget_const] at hm; split at hm
        · rename_i h; simpa using h
        · cases hm
    · have hfold : ∀ (l : List Nat) (c : Col V Ty), (l.foldl (fun c r => (c.add d r).1) c).ty = c.ty ∧ (l.foldl (fun c r => (c.add d r).1) c).multi = c.multi ∧
          (l.foldl (fun c r => (c.add d r).1) c).dropH = c.dropH ∧ (l.foldl (fun c r => (c.add d r).1) c).dropO = c.dropO := by
        intro l
        induction l with
        | nil => intro c; exact ⟨rfl, rfl, rfl, rfl⟩
        | cons a l ih =>
          intro c; simp only [List.foldl_cons]
          obtain ⟨i1, i2, i3, i4⟩ := ih (c.add d a).1
          obtain ⟨j1, j2, _, j3, j4⟩ := Col.add_shape c d a
          exact ⟨i1.trans j1, i2.trans j2, i3.trans j3, i4.trans j4⟩
      intro s hm so hso his
      refine ⟨⟨by simp only [cs, (hfold _ _).1], by simp only [cs, (hfold _ _).2.1], ?_⟩, by simp only [cs, (hfold _ _).1],
        by simp only [cs, (hfold _ _).2.2.1], by simp only [cs, (hfold _ _).2.2.2]⟩
      have hce : ∀ r ∈ so.recs, cellOf w3 r k = some d := by
        intro r hr
        obtain ⟨x, hx, hv⟩ := hcell r (hsub s hm so hso r hr)
        have : w3.getRec r = some x := by unfold World.getRec; rw [er]; exact hx
        simp [cellOf, this, hv]
      have h0 : ColOk (fun r => cellOf w3 r k) ([] : List Nat) (⟨typeOf d, true, d, [], [], false, false⟩ : Col V Ty) := by
        exact ColOk.empty _ _ rfl rfl rfl rfl rfl
      refine (ColOk.fold d (env.perm so.recs) [] _ h0 rfl rfl (by simpa [nodup_perm] using (hd.set s so hso his).recsN) (fun r hr => hce r (by simpa using hr))).congr ?_ (fun _ _ => rfl)
      intro r; simp

theorem addKey_deep {env : Env} {w : World K V Ty} {o : Nat} {vo : Obj K V Ty} {k : K} {d : V} (hi : Inv own home w) (hd : Deep w)
    (ho : w.getObj o = some vo) (hs : vo.isSet = false) : ∃ w' res, addKey env w o k d = some (w', res) ∧ Deep w' := by
  obtain ⟨w', res, h, d, _⟩ := addKey_obj (env := env) (k := k) (d := d) hi hd ho hs
  exact ⟨w', res, h, d⟩

/-! ### AddUniqueKey -/

/-- The function that computes the values of a new unique key looks only at the record. -/
def RecordOnly (f : Nat → Nat → Nat → V) : Prop := ∃ g : Nat → V, ∀ o i r, f o i r = g r

theorem fnValues_only {f : Nat → Nat → V} {g : Nat → V} (hf : ∀ i r, f i r = g r) (t : Ty) (i : Nat) (l : List Nat) :
    fnValues t f i l = l.map fun r => (r, castTo t (g r)) := by
  induction l generalizing i with
  | nil => rfl
  | cons r l ih => simp only [fnValues, hf, ih, List.map_cons]

theorem mget_pairs {l : List Nat} {g : Nat → V} {r : Nat} : mget (l.map fun r => (r, g r)) r = if r ∈ l then some (g r) else none := by
  induction l with
  | nil => simp [mget]
  | cons a l ih =>
    simp only [List.map_cons, mget, ih, List.mem_cons]
    by_cases e : a = r
    · subst e; simp
    · simp [e, Ne.symm e]

theorem addUniqueKey_obj {env : Env} {w : World K V Ty} {o : Nat} {vo : Obj K V Ty} {k : K} {t : Ty} {noFn : Bool}
    {f : Nat → Nat → Nat → V} (hi : Inv own home w) (hd : Deep w)
    (ho : w.getObj o = some vo) (hs : vo.isSet = false) (hf : RecordOnly f ∨ noFn = true ∨ vo.recs = []) :
    ∃ w' res, addUniqueKey env w o k t noFn f = some (w', res) ∧ Deep w' ∧
      ((w' = w ∧ res.ok = false) ∨ (mhas vo.cols k = false ∧ SetsKey o k (zero t) true w w' ∧ ∃ vo', w'.getObj o = some vo' ∧ mhas vo'.cols k = true)) := by
  have hvok := hi.v.vok o vo ho hs
  simp only [addUniqueKey, addUniqueLocal, ho, Option.bind_eq_bind, Option.bind_some]
  by_cases hk : mhas vo.cols k = true
  · rw [if_pos hk]; exact ⟨w, _, rfl, hd, .inl ⟨rfl, rfl⟩⟩
  rw [if_neg hk]
  by_cases hno : noFn = true ∧ vo.recs ≠ []
  · rw [if_pos hno]; exact ⟨w, _, rfl, hd, .inl ⟨rfl, rfl⟩⟩
  rw [if_neg hno]
  obtain ⟨g, hfv⟩ : ∃ g : Nat → V, ∀ a ao, (a = o ∨ a ∈ vo.sets) → w.getObj a = some ao → fnValues t (f a) 0 (env.perm ao.recs) =
      (env.perm ao.recs).map fun r => (r, castTo t (g r)) := by
    have hnil : vo.recs = [] → ∃ g : Nat → V, ∀ a ao, (a = o ∨ a ∈ vo.sets) → w.getObj a = some ao → fnValues t (f a) 0 (env.perm ao.recs) =
        (env.perm ao.recs).map fun r => (r, castTo t (g r)) := by
      intro he
      refine ⟨fun _ => zero t, fun a ao ha hao => ?_⟩
      have : ao.recs = [] := by
        rcases ha with rfl | ha
        · rw [ho] at hao; cases hao; exact he
        · obtain ⟨so, h1, h2, h3⟩ := hi.l.down o vo a ho hs ha
          rw [hao] at h1; cases h1
          obtain ⟨po, hpo, _, hsub⟩ := vault_of hi hd hao (show vaultOf a ao = some o by simp [vaultOf, h2, h3])
          rw [ho] at hpo; cases hpo
          rw [List.eq_nil_iff_forall_not_mem]
          intro r hr
          have := hsub r hr
          rw [he] at this; simp at this
      rw [this, perm_nil]; rfl
    rcases hf with ⟨g, hf⟩ | hf | hf
    · exact ⟨g, fun a ao _ _ => fnValues_only (hf a) t 0 _⟩
    · refine hnil ?_
      by_contra hne
      exact hno ⟨hf, hne⟩
    · exact hnil hf
  have hgt : ∀ r, typeOf (castTo t (g r)) = t := by
    intro r
    have := fnValues_ty t (fun _ r => g r) 0 [r]
    simpa [fnValues] using this
  have hkn : mget vo.cols k = none := (mhas_false _ _).mp (by simpa using hk)
  let c0 : Col V Ty := ⟨t, false, zero t, [], [], false, false⟩
  let vals : List Nat → List (Nat × V) := fun l => (env.perm l).map fun r => (r, castTo t (g r))
  rw [hfv o vo (.inl rfl) ho]
  have hfst : ∀ l, (vals l).map (·.1) = env.perm l := by intro l; simp [vals, List.map_map, Function.comp_def]
  have h0 : ∀ cell : Nat → Option V, ColOk cell ([] : List Nat) c0 := fun cell => ColOk.empty _ _ (Typed.zero_ty t) rfl rfl rfl rfl
  have hv0 := fnCol_spec (vals vo.recs) [] c0 (cell := fun r => some (castTo t (g r))) (h0 _) rfl
    (by intro p hp; obtain ⟨r, _, rfl⟩ := List.mem_map.mp hp; exact hgt r)
    (by simp only [List.nil_append, hfst]; exact (nodup_perm env _).mpr hvok.recsN)
    (by intro p hp; obtain ⟨r, _, rfl⟩ := List.mem_map.mp hp; rfl)
  cases hfc : fnCol (vals vo.recs) c0 with
  | none =>
    exact ⟨w, _, rfl, hd, .inl ⟨rfl, rfl⟩⟩
  | some c =>
    obtain ⟨cok, cm, ct⟩ := hv0.1 c hfc
    dsimp only
    rw [if_pos hvok.base]
    obtain ⟨w1, h1, e1⟩ := loop_write (w := w) (k := k) (l := vals vo.recs) (by
      intro p hp
      obtain ⟨r, hr, rfl⟩ := List.mem_map.mp hp
      obtain ⟨_, x, hx, _⟩ := hi.v.mem o vo ho hs r (by simpa using hr)
      exact ⟨x, hx⟩)
    have hg := loop_writeCell_get (by rw [hfst]; exact (nodup_perm env _).mpr hvok.recsN) h1
    let w2 := w1.putObj o (vo.withKey k (zero t) true c)
    rw [show loop (writeCell k) ((env.perm vo.recs).map fun r => (r, castTo t (g r))) w = some w1 from h1]
    simp only [Option.bind_some, Res.good, Bool.true_eq_false, if_false]
    have hr2 : ∀ r, w2.getRec r = match mget (vals vo.recs) r with
        | some v => (w.getRec r).map fun x => { x with data := mput x.data k v }
        | none => w.getRec r := hg
    have ho2 : ∀ t', w2.getObj t' = if o = t' then some (vo.withKey k (zero t) true c) else w.getObj t' := by
      intro t'
      simp only [w2, getObj_putObj]
      rw [getObj_of_objs e1]
    have hsets : ∀ s ∈ vo.sets, s ≠ o ∧ ∃ so, w.getObj s = some so ∧ w2.getObj s = some so ∧ so.isSet = true ∧ so.parent = some o := by
      intro s hm
      obtain ⟨so, a, b, c⟩ := hi.l.down o vo s ho hs hm
      have hne : o ≠ s := by rintro rfl; rw [ho] at a; cases a; rw [hs] at b; cases b
      exact ⟨Ne.symm hne, so, a, by rw [ho2, if_neg hne]; exact a, b, c⟩
    have hsub : ∀ s ∈ vo.sets, ∀ so, w.getObj s = some so → ∀ r ∈ so.recs, r ∈ vo.recs := by
      intro s hm so hso r hr
      obtain ⟨_, so', a, _, b, c⟩ := hsets s hm
      rw [hso] at a; cases a
      obtain ⟨po, hpo, _, hsub⟩ := vault_of hi hd hso (show vaultOf s so = some o by simp [vaultOf, b, c])
      rw [ho] at hpo; cases hpo; exact hsub r hr
    have hcell : ∀ r ∈ vo.recs, ∃ x, w2.getRec r = some x ∧ mget x.data k = some (castTo t (g r)) := by
      intro r hr
      obtain ⟨_, x, hx, _⟩ := hi.v.mem o vo ho hs r hr
      rw [hr2, show mget (vals vo.recs) r = _ from mget_pairs, if_pos (by simpa using hr)]
      simp only [hx, Option.map_some]
      exact ⟨_, rfl, by simp [mget_mput]⟩
    -- the column of a set
    have hcs : ∀ s ∈ vo.sets, ∀ so, w.getObj s = some so → so.isSet = true → ∃ cs, fnCol (vals so.recs) c0 = some cs ∧
        ColOk (fun r => some (castTo t (g r))) so.recs cs ∧ cs.multi = false ∧ cs.ty = t := by
      intro s hm so hso his
      have hv1 := fnCol_spec (vals so.recs) [] c0 (cell := fun r => some (castTo t (g r))) (h0 _) rfl
        (by intro p hp; obtain ⟨r, _, rfl⟩ := List.mem_map.mp hp; exact hgt r)
        (by simp only [List.nil_append, hfst]; exact (nodup_perm env _).mpr (hd.set s so hso his).recsN)
        (by intro p hp; obtain ⟨r, _, rfl⟩ := List.mem_map.mp hp; rfl)
      cases hh : fnCol (vals so.recs) c0 with
      | some cs =>
        obtain ⟨a, b, d⟩ := hv1.1 cs hh
        refine ⟨cs, rfl, a.congr ?_ (fun _ _ => rfl), b, d⟩
        intro r; simp [hfst]
      | none =>
        obtain ⟨p, hp, r', hr', hne, he⟩ := hv1.2 hh
        obtain ⟨r, hr, rfl⟩ := List.mem_map.mp hp
        simp only [List.nil_append, hfst, mem_perm] at hr hr'
        have u := (cok.uniq cm)
        have hr1 := hsub s hm so hso r hr
        have hr2 := hsub s hm so hso r' hr'
        exfalso
        exact hne (u.2.2 r' (by simp [hfst, hr2]) r (by simp [hfst, hr1]) he)
    obtain ⟨w3, h3, er, ef, _, _, eo⟩ := objLoop (f := fun w s => do
          let __x ← addUniqueLocal env w s k t false (f s)
          pushKey k __x.1 s) (g := fun _ so => so.withSetKey k (zero t) true ((fnCol (vals so.recs) c0).getD c0))
        (w := w2) (l := env.perm vo.sets) (by simpa [nodup_perm] using hd.setsN o vo ho) (by
      intro s hm wa har hao
      obtain ⟨_, so, a0, a, b, c⟩ := hsets s (by simpa using hm)
      refine ⟨so, a, ?_⟩
      rw [a] at hao
      have hb := (hi.s.sets s so a0 b).base
      have hmh : mhas so.cols k = false := by
        have := ((hd.set s so a0 b).att o vo c ho).ty k
        rw [hkn] at this
        rw [mhas_false]
        cases hh : mget so.cols k with
        | none => rfl
        | some _ => rw [hh] at this; simp at this
      obtain ⟨cs, hcs, _⟩ := hcs s (by simpa using hm) so a0 b
      have hcs' : fnCol ((env.perm so.recs).map fun r => (r, castTo t (g r))) (⟨t, false, zero t, [], [], false, false⟩ : Col V Ty) = some cs := hcs
      simp only [addUniqueLocal, hao, Option.bind_eq_bind, Option.bind_some, hmh, Bool.false_eq_true, if_false, false_and, hfv s so (.inr (by simpa using hm)) a0, hcs',
        if_neg (show ¬(so.isBase = true) from fun e => by rw [hb] at e; cases e), pushKey, getObj_putObj_self, Option.map_some, putObj_putObj, hcs,
        Option.getD_some]
      rw [Obj.withSetKey]
      simp only [Obj.withKey]
      rw [if_neg (show ¬(so.isBase = true) from fun e => by rw [hb] at e; cases e)])
    refine ⟨w3, .good (some k), ?_, ?_⟩
    · show (loop (fun w s => do
          let __x ← addUniqueLocal env w s k t false (f s)
          pushKey k __x.1 s) (env.perm vo.sets) w2).bind _ = _
      rw [h3]; rfl
    · have hob : ∀ t', w3.getObj t' = if t' = o then some (vo.withKey k (zero t) true c) else if t' ∈ vo.sets then
          (w.getObj t').map (fun so => so.withSetKey k (zero t) true ((fnCol (vals so.recs) c0).getD c0)) else w.getObj t' := by
        intro t'
        rw [eo]; simp only [mem_perm]
        by_cases e : t' = o
        · subst e
          rw [if_pos rfl, if_neg (fun hm => (hsets t' hm).1 rfl), ho2, if_pos rfl]
        · rw [if_neg e, ho2, if_neg (Ne.symm e)]
      have H : ∀ s ∈ vo.sets, ∀ so, w.getObj s = some so → so.isSet = true → ((fnCol (vals so.recs) c0).getD c0).ty = t ∧
          ((fnCol (vals so.recs) c0).getD c0).multi = false ∧ ColOk (fun r => cellOf w3 r k) so.recs ((fnCol (vals so.recs) c0).getD c0) := by
        intro s hm so hso his
        obtain ⟨cs, e, ok, em, et⟩ := hcs s hm so hso his
        simp only [e, Option.getD_some]
        refine ⟨et, em, ok.congr (fun _ => Iff.rfl) ?_⟩
        intro r hr
        obtain ⟨x, hx, hv⟩ := hcell r (hsub s hm so hso r hr)
        have : w3.getRec r = some x := by unfold World.getRec; rw [er]; exact hx
        simp [cellOf, this, hv]
      refine ⟨?_, .inr ⟨by simpa using hk, added_sets (cell := fun r => cellOf w3 r k) (cs := fun so => (fnCol (vals so.recs) c0).getD c0) hi ho hs hob ?_,
        _, by rw [hob, if_pos rfl], by simp [Obj.withKey, mhas_iff, mget_mput]⟩⟩
      · refine added_deep (vals := vals vo.recs) (u := true) (d := zero t) (c := c) (cs := fun so => (fnCol (vals so.recs) c0).getD c0) hi hd ho hs hkn ?_ hob ?_ ?_
        · intro r; rw [← hr2]; unfold World.getRec; rw [er]
        · intro r v hm
          rw [show mget (vals vo.recs) r = _ from mget_pairs] at hm; split at hm
          · rename_i h; simpa using h
          · cases hm
        · intro s hm so hso his
          obtain ⟨a, b, d⟩ := H s hm so hso his
          exact ⟨a.trans ct.symm, b.trans cm.symm, d⟩
      · intro s hm so hso his
        obtain ⟨a, b, d⟩ := H s hm so hso his
        exact ⟨a.trans (Typed.zero_ty t).symm, (d.uniq b).1, (d.uniq b).2.1, d⟩

theorem addUniqueKey_deep {env : Env} {w : World K V Ty} {o : Nat} {vo : Obj K V Ty} {k : K} {t : Ty} {noFn : Bool}
    {f : Nat → Nat → Nat → V} (hi : Inv own home w) (hd : Deep w)
    (ho : w.getObj o = some vo) (hs : vo.isSet = false) (hf : RecordOnly f ∨ noFn = true ∨ vo.recs = []) :
    ∃ w' res, addUniqueKey env w o k t noFn f = some (w', res) ∧ Deep w' := by
  obtain ⟨w', res, h, d, _⟩ := addUniqueKey_obj (env := env) (k := k) (t := t) hi hd ho hs hf
  exact ⟨w', res, h, d⟩

/-! ### RemoveKey, UpdateKey -/

theorem loop_drop {w : World K V Ty} {k : K} {l : List Nat} (hl : ∀ r ∈ l, ∃ x, w.getRec r = some x) :
    ∃ w', loop (dropCell k) l w = some w' ∧ w'.objs = w.objs := by
  obtain ⟨w', h, _, e⟩ := loop_some (fun w' : World K V Ty => (∀ r ∈ l, ∃ x, w'.getRec r = some x) ∧ w'.objs = w.objs) (dropCell k) l w (by
    rintro p hp b ⟨hb, he⟩
    obtain ⟨x, hx⟩ := hb p hp
    refine ⟨b.putRec p { x with data := mdel x.data k }, by simp only [dropCell, hx, Option.map_some], ?_, he⟩
    intro q hq
    rw [getRec_putRec]
    split
    · exact ⟨_, rfl⟩
    · exact hb q hq) ⟨hl, rfl⟩
  exact ⟨w', h, e⟩

/-- What removing a key does to the sets: those of the vault lose it. -/
def SetsUnkey (o : Nat) (k : K) (w w' : World K V Ty) : Prop :=
  ∀ s so, w.getObj s = some so → so.isSet = true →
    (so.parent ≠ some o ∧ w'.getObj s = some so) ∨ (so.parent = some o ∧ w'.getObj s = some (so.withoutKey k))

theorem removeKey_obj {env : Env} {w : World K V Ty} {o : Nat} {vo : Obj K V Ty} {k : K} (hi : Inv own home w) (hd : Deep w)
    (ho : w.getObj o = some vo) (hs : vo.isSet = false) : ∃ w' b, removeKey env w o k = some (w', b) ∧ Deep w' ∧
      ((w' = w ∧ mhas vo.cols k = false) ∨ (mhas vo.cols k = true ∧ SetsUnkey o k w w')) := by
  have hvok := hi.v.vok o vo ho hs
  simp only [removeKey, ho, Option.bind_eq_bind, Option.bind_some]
  by_cases hk : mhas vo.cols k = false
  · rw [if_pos hk]; exact ⟨w, _, rfl, hd, .inl ⟨rfl, hk⟩⟩
  rw [if_neg hk]
  let w1 := w.putObj o (vo.withoutKey k)
  obtain ⟨w2, h2, e2⟩ := loop_drop (w := w1) (k := k) (l := env.perm vo.recs) (by
    intro r hr
    obtain ⟨_, x, hx, _⟩ := hi.v.mem o vo ho hs r (by simpa using hr)
    exact ⟨x, hx⟩)
  have hg := loop_dropCell_get ((nodup_perm env _).mpr hvok.recsN) h2
  have hsets : ∀ s ∈ vo.sets, s ≠ o ∧ ∃ so, w.getObj s = some so ∧ w2.getObj s = some so ∧ so.isSet = true ∧ so.parent = some o := by
    intro s hm
    obtain ⟨so, a, b, c⟩ := hi.l.down o vo s ho hs hm
    have hne : o ≠ s := by rintro rfl; rw [ho] at a; cases a; rw [hs] at b; cases b
    refine ⟨Ne.symm hne, so, a, ?_, b, c⟩
    rw [getObj_of_objs e2]
    simp only [w1, getObj_putObj, if_neg hne]; exact a
  have hkv : ∃ c, mget vo.cols k = some c := (mhas_iff _ _).mp (by simpa using hk)
  have hks : ∀ s so, w.getObj s = some so → so.isSet = true → so.parent = some o → mhas so.cols k = true := by
    intro s so hso his hpar
    obtain ⟨c, hc⟩ := hkv
    have := ((hd.set s so hso his).att o vo hpar ho).ty k
    rw [hc] at this
    rw [mhas_iff]
    cases hh : mget so.cols k with
    | none => rw [hh] at this; simp at this
    | some sc => exact ⟨sc, rfl⟩
  obtain ⟨w3, h3, er, ef, _, _, eo⟩ := objLoop (f := removeKeyLocal k) (g := fun _ so => so.withoutKey k)
      (w := w2) (l := env.perm vo.sets) (by simpa [nodup_perm] using hd.setsN o vo ho) (by
    intro s hm wa har hao
    obtain ⟨_, so, a0, a, b, c⟩ := hsets s (by simpa using hm)
    refine ⟨so, a, ?_⟩
    rw [a] at hao
    simp only [removeKeyLocal, hao, Option.map_some, if_pos (hks s so a0 b c)])
  refine ⟨w3, true, ?_, ?_⟩
  · rw [show loop (dropCell k) (env.perm vo.recs) (w.putObj o (vo.withoutKey k)) = some w2 from h2]
    simp only [Option.bind_some, h3]
  have hobj : ∀ t, w3.getObj t = if t = o ∨ t ∈ vo.sets then (w.getObj t).map (fun so => so.withoutKey k) else w.getObj t := by
    intro t
    rw [eo, getObj_of_objs e2]; simp only [mem_perm, w1, getObj_putObj]
    by_cases e : t = o
    · subst e
      rw [if_neg (fun hm => (hsets t hm).1 rfl), if_pos rfl, if_pos (Or.inl rfl), ho]; rfl
    · simp only [if_neg (Ne.symm e), e, false_or]
  have hrec : ∀ r, w3.getRec r = if r ∈ vo.recs then (w.getRec r).map (fun x => { x with data := mdel x.data k }) else w.getRec r := by
    intro r
    have : w3.getRec r = w2.getRec r := by unfold World.getRec; rw [er]
    rw [this, hg]; simp only [mem_perm]; rfl
  have hcell : ∀ r k', (k' = k → r ∉ vo.recs) → cellOf w3 r k' = cellOf w r k' := by
    intro r k' hne
    simp only [cellOf, hrec]
    split
    · rename_i hr
      have : k ≠ k' := by rintro rfl; exact hne rfl hr
      simp only [Option.bind_map, Function.comp_def, mget_mdel, if_neg this]
    · rfl
  have hso : ∀ t a, w.getObj t = some a → ∃ b, w3.getObj t = some b ∧ b.isSet = a.isSet ∧ b.parent = a.parent ∧ b.recs = a.recs ∧ b.sets = a.sets := by
    intro t a ha
    rw [hobj, ha]
    split
    · exact ⟨_, rfl, rfl, rfl, rfl, rfl⟩
    · exact ⟨a, rfl, rfl, rfl, rfl, rfl⟩
  refine ⟨?_, .inr ⟨by simpa using hk, ?_⟩⟩
  swap
  · intro s so h1 h2
    have hne : s ≠ o := by rintro rfl; rw [ho] at h1; cases h1; rw [hs] at h2; cases h2
    by_cases hm : s ∈ vo.sets
    · obtain ⟨_, so1, a, _, _, b⟩ := hsets s hm
      rw [h1] at a; cases a
      exact .inr ⟨b, by rw [hobj, if_pos (.inr hm), h1]; rfl⟩
    · refine .inl ⟨?_, by rw [hobj, if_neg (by simp [hne, hm])]; exact h1⟩
      intro hp
      obtain ⟨po, q1, _, q3⟩ := hi.l.up s so o h1 h2 hp
      rw [ho] at q1; cases q1; exact hm q3
  refine hd.steady ⟨?_, ?_, ?_, hso⟩ ?_
  · intro r y hy
    rw [hrec] at hy
    split at hy
    · simp only [Option.map_eq_some_iff] at hy
      obtain ⟨x, hx, rfl⟩ := hy
      exact ⟨x, hx, rfl, rfl⟩
    · exact ⟨y, hy, rfl, rfl⟩
  · intro r x hx
    rw [hrec, hx]; split
    · exact ⟨_, rfl, rfl, rfl⟩
    · exact ⟨_, rfl, rfl, rfl⟩
  · intro t b hb
    cases ha : w.getObj t with
    | none => rw [hobj, ha] at hb; split at hb <;> cases hb
    | some a =>
      obtain ⟨b', hb', h⟩ := hso t a ha
      rw [hb] at hb'; cases hb'
      exact ⟨a, rfl, h⟩
  · intro s a b ha hai dp hb
    have hne : s ≠ o := by rintro rfl; rw [ho] at ha; cases ha; rw [hs] at hai; cases hai
    rw [hobj] at hb
    by_cases hm : s ∈ vo.sets
    · rw [if_pos (.inr hm), ha] at hb; cases hb
      obtain ⟨a', ha', _, hpar⟩ := hi.l.down o vo s ho hs hm
      rw [ha] at ha'; cases ha'
      have al := dp.att o vo hpar ho
      refine ⟨?_, ?_, ?_⟩
      · intro k' c' hc'
        simp only [Obj.withoutKey, mget_mdel] at hc'
        split at hc'
        · cases hc'
        · rename_i e
          exact (dp.cols k' c' hc').congr (fun _ => Iff.rfl) (fun r _ => hcell r k' (fun e' => absurd e'.symm e))
      · intro hn; rw [hpar] at hn; cases hn
      · intro p po hp hpo
        rw [hpar] at hp; cases hp
        rw [hobj, if_pos (.inl rfl), ho] at hpo; cases hpo
        refine ⟨?_, ?_, ?_, ?_⟩
        · simp only [Obj.withoutKey, al.keys]
        · simp only [Obj.withoutKey, al.uniq]
        · intro k'
          simp only [Obj.withoutKey, mget_mdel]
          split
          · rfl
          · exact al.ty k'
        · intro k' x y hx hy
          simp only [Obj.withoutKey, mget_mdel] at hx hy
          split at hx
          · cases hx
          · rename_i e; rw [if_neg e] at hy; exact al.multi k' x y hx hy
    · rw [if_neg (by simp [hne, hm]), ha] at hb; cases hb
      refine ⟨?_, dp.det, ?_⟩
      · intro k' c' hc'
        refine (dp.cols k' c' hc').congr (fun _ => Iff.rfl) (fun r hr => hcell r k' ?_)
        intro _ hrv
        obtain ⟨hpar, _⟩ := holder hi hd ho (hi.v.mem o vo ho hs r hrv).1 ha hai hr
        obtain ⟨po, h1, _, h3⟩ := hi.l.up s a o ha hai hpar
        rw [ho] at h1; cases h1
        exact hm h3
      · intro p po' hp hpo'
        obtain ⟨po, hpo, h2, h3⟩ := hi.l.up s a p ha hai hp
        have hpo1 : p ≠ o := by rintro rfl; rw [ho] at hpo; cases hpo; exact hm h3
        have : p ∉ vo.sets := by
          intro hq
          obtain ⟨q, hq1, hq2, _⟩ := hi.l.down o vo p ho hs hq
          rw [hpo] at hq1; cases hq1; rw [h2] at hq2; cases hq2
        rw [hobj, if_neg (by simp [hpo1, this]), hpo] at hpo'; cases hpo'
        exact dp.att p _ hp hpo

theorem removeKey_deep {env : Env} {w : World K V Ty} {o : Nat} {vo : Obj K V Ty} {k : K} (hi : Inv own home w) (hd : Deep w)
    (ho : w.getObj o = some vo) (hs : vo.isSet = false) : ∃ w' b, removeKey env w o k = some (w', b) ∧ Deep w' := by
  obtain ⟨w', b, h, d, _⟩ := removeKey_obj (env := env) (k := k) hi hd ho hs
  exact ⟨w', b, h, d⟩

theorem updateKey_deep {w : World K V Ty} {o : Nat} {vo : Obj K V Ty} {k : K} {d : V} (hd : Deep w)
    (ho : w.getObj o = some vo) (hs : vo.isSet = false) : ∃ w' res, updateKey w o k d = some (w', res) ∧ Deep w' := by
  simp only [updateKey, ho, Option.bind_eq_bind, Option.bind_some]
  cases hc : checkKey vo k (typeOf d) with
  | error e => exact ⟨w, e, rfl, hd⟩
  | ok c =>
    dsimp only
    split
    · exact ⟨w, _, rfl, hd⟩
    · exact ⟨_, _, rfl, hd.putVault ho hs hs ⟨rfl, rfl, fun _ => rfl⟩ (hd.setsN o vo ho)⟩

end MVault.W
