import Verif.WorldWindow2
/-
What writing, creating and erasing records make of the sets.
-/
set_option linter.unusedSectionVars false
set_option linter.unusedSimpArgs false
set_option linter.unusedVariables false
namespace MVault.W
open MVault.Spec (Table Db Event Cmd SetVar State Call set_cases window_refused window_norow window_setMany take_on)
variable {K V Ty : Type} [LinearOrder K] [LinearOrder V] [Typed V Ty] [DecidableEq Ty]
variable {own home : Nat → Nat}

/-! ### SetData -/

/-- What one write makes of one set. -/
def SetWrote (o : Nat) (t : Table K V Ty) (r : Option Nat) (k : K) (v : V) (w w' : World K V Ty) : Prop :=
  ∀ s so, w.getObj s = some so → so.isSet = true → ∃ so', w'.getObj s = some so' ∧ so'.isSet = true ∧
    ((so.parent ≠ some o ∧ so'.var = so.var) ∨ (so.parent = some o ∧ so'.var = so.var.take ((so.var.on t).set r k v).2))

theorem write_var {w w' : World K V Ty} (hi : Inv own home w) (hd : Deep w) (hd' : Deep w') {s o r : Nat} {so : Obj K V Ty} {k : K} {v a : V} {sc sc' : Col V Ty}
    (hso : w.getObj s = some so) (hs : so.isSet = true) (hp : so.parent = some o) (hr : r ∈ so.recs) (hc : mget so.cols k = some sc) (ha : cellOf w r k = some a)
    (hset : sc.setVal a v r = some sc') (hso' : w'.getObj s = some { so with cols := mput so.cols k sc' }) :
    ({ so with cols := mput so.cols k sc' } : Obj K V Ty).var = so.var.take ((so.var.on (asTable w o)).setCell r k v) := by
  apply SetVar.ext
  · rfl
  · rfl
  · funext b k' r'
    apply propext
    show (∃ c', mget (mput so.cols k sc') k' = some c' ∧ c'.lists b r') ↔
      (if k' = k then r' = r ∨ (so.lists b k r' ∧ ¬ (so.lists b k r ∧ (so.var.on (asTable w o)).cell r' k = (so.var.on (asTable w o)).cell r k)) else so.lists b k' r')
    rw [mget_mput]
    by_cases e : k' = k
    swap
    · rw [if_neg (Ne.symm e), if_neg e]; exact Iff.rfl
    subst e
    rw [if_pos rfl, if_pos rfl]
    have hl : ∀ r', so.lists b k' r' ↔ sc.lists b r' := fun r' => ⟨fun ⟨c', x, y⟩ => by rw [hc] at x; cases x; exact y, fun x => ⟨sc, hc, x⟩⟩
    have hl' : (∃ c', some sc' = some c' ∧ c'.lists b r') ↔ sc'.lists b r' := ⟨fun ⟨c', x, y⟩ => by cases x; exact y, fun x => ⟨sc', rfl, x⟩⟩
    rw [hl', hl, hl]
    by_cases hr' : r' ∈ so.recs
    · have ok := (hd.set s so hso hs).cols k' sc hc
      rw [setVal_lists ok hr ha hset b hr', set_cell hi hd hso hs hp hr, set_cell hi hd hso hs hp hr', ha]
      constructor
      · rintro (x | ⟨x, y⟩)
        · exact .inl x
        · exact .inr ⟨x, fun z => y ⟨z.2, z.1⟩⟩
      · rintro (x | ⟨x, y⟩)
        · exact .inl x
        · exact .inr ⟨x, fun z => y ⟨z.2, z.1⟩⟩
    · constructor
      · intro x
        exact absurd (lists_mem hd' hso' hs ⟨sc', by rw [mget_mput, if_pos rfl], x⟩).1 hr'
      · rintro (rfl | ⟨x, _⟩)
        · exact absurd hr hr'
        · exact absurd (lists_mem hd hso hs ((hl r').mpr x)).1 hr'

theorem refSetData_wrote {env : Env} {w w' : World K V Ty} (hi : Inv own home w) (hd : Deep w) {o f : Nat} {k : K} {v : V} {res : Res K} (ho : isVault w o = true)
    (hthr : through w f = some o) (h : refSetData env w f k v = some (w', res)) : NoNew w w' ∧ SetWrote o (asTable w o) (target w f) k v w w' := by
  obtain ⟨vo, hvo, hvs⟩ := isVault_iff.mp ho
  obtain ⟨ref, hf, hvl⟩ : ∃ ref, w.refs[f]? = some ref ∧ ref.vlt = some o := by
    unfold through at hthr
    obtain ⟨ref, a, b⟩ := Option.bind_eq_some_iff.mp hthr
    exact ⟨ref, a, b⟩
  have hset : Settable w f := ⟨ref, hf, .inr ⟨o, vo, hvl, hvo, hvs⟩⟩
  obtain ⟨w1, r1, e1, hd'⟩ := refSetData_deep (env := env) (k := k) (v := v) hi hd hset
  rw [h] at e1; cases e1
  obtain ⟨t1, t2, t3, t4⟩ := refSetData_table hi ho hthr h
  have hnew : NoNew w w' := by
    obtain ⟨ref', hf', ⟨rfl, _⟩ | ⟨r0, o', oo, x, hp, hvl', hoo, hx, hxv, ⟨hs', _⟩ | ⟨hs', _, _, ⟨rfl, _⟩ | ⟨_, sd⟩⟩⟩⟩ := refSetData_spec hi h
    · exact fun s so' a b => ⟨so', a, b⟩
    · rw [hf] at hf'; cases hf'; rw [hvl] at hvl'; cases hvl'; rw [hvo] at hoo; cases hoo; rw [hvs] at hs'; cases hs'
    · exact fun s so' a b => ⟨so', a, b⟩
    · obtain ⟨_, _, _, _, _, e⟩ := sd.col
      exact .of sd.objs fun y hy => by rw [e] at hy; cases hy; exact hs'
  refine ⟨hnew, ?_⟩
  rcases refSetData_obj hi hd hset h with ⟨rfl, hok⟩ | ⟨rfl, ref', r, hf', hp, sw⟩
  · intro s so hso hs
    refine ⟨so, hso, hs, ?_⟩
    by_cases hpar : so.parent = some o
    · refine .inr ⟨hpar, ?_⟩
      rw [t3] at hok
      rw [(window_refused (set_rows hi hd hso hs hpar) hok).2, take_on]
    · exact .inl ⟨hpar, rfl⟩
  · rw [hf] at hf'; cases hf'
    have ht : target w f = some r := by rw [target_eq hf]; exact hp
    rw [ht] at t3 t4 ⊢
    have hgood : (asTable w o).row r ∧ (asTable w o).bad k v = none ∧ ¬ (asTable w o).uniq k := by
      rcases set_cases (asTable w o) (some r) k v with ⟨a, _⟩ | ⟨r', a, b, c, d, _⟩
      · rw [← t3] at a; cases a
      · cases a; exact ⟨b, c, d⟩
    obtain ⟨g1, g2, g3⟩ := hgood
    have hown : own r = o := by
      have g1' : r ∈ members w o := g1
      rw [members_eq hvo] at g1'
      exact (hi.v.mem o vo hvo hvs r g1').1
    intro s so hso hs
    rcases sw s so hso hs with ⟨a, b⟩ | ⟨a, sc, sc', old, b1, b2, b3, b4⟩
    · refine ⟨so, b, hs, ?_⟩
      by_cases hpar : so.parent = some o
      · refine .inr ⟨hpar, ?_⟩
        rw [(window_norow (t := asTable w o) (s := so.var) (k := k) (v := v) (fun r' e => by cases e; exact a)).2, take_on]
      · exact .inl ⟨hpar, rfl⟩
    · have hpar := (set_home hi hd hso hs a).1
      rw [hown] at hpar
      refine ⟨_, b4, hs, .inr ⟨hpar, ?_⟩⟩
      rcases set_cases (so.var.on (asTable w o)) (some r) k v with ⟨_, _, c⟩ | ⟨r', c, _, _, _, d⟩
      · exfalso
        rcases c with c | c | c
        · exact c r rfl a
        · exact c g2
        · exact g3 c
      · cases c
        rw [d]
        exact write_var hi hd hd' hso hs hpar a b1 b2 b3 b4

theorem refSetData_follows {env : Env} {w w' : World K V Ty} (hi : Inv own home w) (hd : Deep w) {o f : Nat} {k : K} {v : V} {res : Res K} (ho : isVault w o = true)
    (hthr : through w f = some o) (h : refSetData env w f k v = some (w', res)) : Follows w w' (.on o (.set (target w f) k v)) := by
  obtain ⟨a, b⟩ := refSetData_wrote hi hd ho hthr h
  exact follows_on ho (refSetData_table hi ho hthr h).1 a b

/-- What a series of writes makes of one set. -/
theorem refSetDataLoop_sets {env : Env} {f o : Nat} {r : Option Nat} (ps : List (K × V)) : ∀ {w w' : World K V Ty} {res res' : Res K}, Inv own home w → Deep w →
    isVault w o = true → through w f = some o → target w f = r → refSetDataLoop env f ps w res = some (w', res') → NoNew w w' ∧
    ∀ s so, w.getObj s = some so → so.isSet = true → ∃ so', w'.getObj s = some so' ∧ so'.isSet = true ∧
      ((so.parent ≠ some o ∧ so'.var = so.var) ∨ (so.parent = some o ∧ so'.var = so.var.take (Table.setMany r ps res (so.var.on (asTable w o))).2)) := by
  induction ps with
  | nil =>
    intro w w' res res' _ _ ho _ _ h; cases h
    refine ⟨fun s so' a b => ⟨so', a, b⟩, fun s so hso hs => ⟨so, hso, hs, ?_⟩⟩
    by_cases hp : so.parent = some o
    · exact .inr ⟨hp, rfl⟩
    · exact .inl ⟨hp, rfl⟩
  | cons p ps ih =>
    intro w w' res res' hi hd ho ht hr h
    simp only [refSetDataLoop, Option.bind_eq_bind, Option.bind_eq_some_iff, Prod.exists] at h
    obtain ⟨w1, res1, h1, h⟩ := h
    obtain ⟨n1, wr⟩ := refSetData_wrote hi hd ho ht h1
    obtain ⟨a1, a2, a3, a4⟩ := refSetData_table hi ho ht h1
    rw [hr] at a3 a4 wr
    split at h
    · rename_i hf
      cases h
      refine ⟨n1, fun s so hso hs => ?_⟩
      obtain ⟨so', b1, b2, b3⟩ := wr s so hso hs
      refine ⟨so', b1, b2, b3.imp_right fun ⟨c1, c2⟩ => ⟨c1, ?_⟩⟩
      rw [window_setMany (set_rows hi hd hso hs c1) c2, ← a3, if_pos hf]
    · rename_i hf
      have hset : Settable w f := by
        unfold through at ht
        obtain ⟨ref, a, b⟩ := Option.bind_eq_some_iff.mp ht
        obtain ⟨vo, hvo, hvs⟩ := isVault_iff.mp ho
        exact ⟨ref, a, .inr ⟨o, vo, b, hvo, hvs⟩⟩
      obtain ⟨w2, r2, e2, hd2⟩ := refSetData_deep (env := env) (k := p.1) (v := p.2) hi hd hset
      rw [h1] at e2; cases e2
      obtain ⟨n2, ih2⟩ := ih (refSetData_inv hi h1) hd2 a1 (by unfold through; rw [a2]; exact ht)
        (by unfold target; rw [a2]; exact hr) h
      refine ⟨fun s so' a b => ?_, fun s so hso hs => ?_⟩
      · obtain ⟨so1, c1, c2⟩ := n2 s so' a b; exact n1 s so1 c1 c2
      · obtain ⟨so1, b1, b2, b3⟩ := wr s so hso hs
        obtain ⟨so2, c1, c2, c3⟩ := ih2 s so1 b1 b2
        refine ⟨so2, c1, c2, ?_⟩
        have hpar : so1.parent = so.parent := by
          rcases b3 with ⟨_, e⟩ | ⟨_, e⟩ <;> exact congrArg SetVar.vault e
        rw [hpar] at c3
        rcases b3 with ⟨d1, d2⟩ | ⟨d1, d2⟩
        · refine .inl ⟨d1, ?_⟩
          rcases c3 with ⟨_, e⟩ | ⟨e, _⟩
          · rw [e, d2]
          · exact absurd e d1
        · refine .inr ⟨d1, ?_⟩
          rcases c3 with ⟨e, _⟩ | ⟨_, e⟩
          · exact absurd d1 e
          · rw [window_setMany (set_rows hi hd hso hs d1) d2, ← a3, if_neg hf, e, a4]

theorem refSetDataMany_follows {env : Env} {w w' : World K V Ty} (hi : Inv own home w) (hd : Deep w) {o f : Nat} {ps : List (K × V)} {res : Res K} (ho : isVault w o = true)
    (hthr : through w f = some o) (h : refSetDataMany env w f ps = some (w', res)) : Follows w w' (.on o (.setMany (target w f) ps)) := by
  simp only [refSetDataMany, Option.bind_eq_bind, Option.bind_eq_some_iff] at h
  obtain ⟨ref, h1, o1, h2, oo, h3, h⟩ := h
  obtain ⟨a, b⟩ := refSetDataLoop_sets ps hi hd ho hthr rfl h
  exact follows_on ho (refSetDataLoop_table ps ⟨_, hi⟩ ho hthr rfl h).1 a b

/-! ### New records -/

theorem created_follows {w w1 w' : World K V Ty} {o : Nat} {vo vo' : Obj K V Ty} {ps : List (K × V)} {rs : List (Nat × Rec K V)} {n : Nat}
    (ho : w.getObj o = some vo) (hs : vo.isSet = false) (hs' : vo'.isSet = false)
    (h1 : w1 = ({ w with recs := rs, nextR := n } : World K V Ty).putObj o vo') (h2 : w'.objs = w1.objs) : Follows w w' (.on o (.create ps)) := by
  have hobj : ∀ t, w'.getObj t = if o = t then some vo' else w.getObj t := by
    intro t
    have : w'.getObj t = w1.getObj t := by simp only [World.getObj, h2]
    rw [this, h1, getObj_putObj]; rfl
  refine follows_on (vault_of_obj ho hs) (vault_of_obj (vo := vo') (by rw [hobj, if_pos rfl]) hs') ?_ fun s so hso hss => ?_
  · intro s so' a b
    rw [hobj] at a
    split at a
    · cases a; rw [hs'] at b; cases b
    · exact ⟨so', a, b⟩
  · have hne : o ≠ s := by rintro rfl; rw [ho] at hso; cases hso; rw [hs] at hss; cases hss
    refine ⟨so, by rw [hobj, if_neg hne]; exact hso, hss, ?_⟩
    by_cases hp : so.parent = some o
    · exact .inr ⟨hp, rfl⟩
    · exact .inl ⟨hp, rfl⟩

theorem createRecord_follows {w w' : World K V Ty} {o f : Nat} {vo : Obj K V Ty} {ps : List (K × V)} {res : Res K}
    (hi : Inv own home w) (ho : w.getObj o = some vo) (hs : vo.isSet = false) (h : createRecord w o f ps = some (w', res)) : Follows w w' (.on o (.create ps)) := by
  rcases createRecord_spec hi ho hs h with ⟨rfl, _⟩ | ⟨_, _, rfl, _⟩ | ⟨data, w1, cols, _, _, _, _, e, rs, _⟩
  · exact follows_refl (vault_of_obj ho hs) fun _ _ _ _ _ => rfl
  · exact follows_refl (vault_of_obj ho hs) fun _ _ _ _ _ => rfl
  · exact created_follows ho hs (by exact hs) e rs.rf.objs

theorem createRow_follows {w w' : World K V Ty} {o : Nat} {vo : Obj K V Ty} {ps : List (K × V)} {res : Res K}
    (hi : Inv own home w) (ho : w.getObj o = some vo) (hs : vo.isSet = false) (h : createRow w o ps = some (w', res)) : Follows w w' (.on o (.create ps)) := by
  rcases createRow_spec hi ho hs h with ⟨rfl, _⟩ | ⟨_, _, rfl, _⟩ | ⟨data, w1, cols, _, _, _, _, e, rs, _⟩
  · exact follows_refl (vault_of_obj ho hs) fun _ _ _ _ _ => rfl
  · exact follows_refl (vault_of_obj ho hs) fun _ _ _ _ _ => rfl
  · exact created_follows ho hs (by exact hs) e rs.rf.objs

/-! ### Erased records -/

theorem mem_lists {w : World K V Ty} {s o : Nat} {so so' : Obj K V Ty} {l : List Nat} (hi : Inv own home w) (hd : Deep w) (hso : w.getObj s = some so)
    (hs : so.isSet = true) (hp : so.parent = some o) {w' : World K V Ty} (hd' : Deep w') (hso' : w'.getObj s = some so') (hl : Lost l so so') :
    so'.var = so.var.take ((so.var.on (asTable w o)).erase (· ∈ l)) := by
  apply SetVar.ext
  · exact hl.parent
  · funext r; exact propext (hl.recs r)
  · funext b k r
    apply propext
    show so'.lists b k r ↔ r ∉ l ∧ so.lists b k r ∧ (b = true → ∀ r0, r0 ∈ l → (so.var.on (asTable w o)).cell r0 k = (so.var.on (asTable w o)).cell r k → ¬ so.lists true k r0)
    have hkind := hl.same.kind k
    cases hc : mget so.cols k with
    | none =>
      rw [hc] at hkind
      cases hc' : mget so'.cols k with
      | none => simp [Obj.lists, hc, hc']
      | some c' => rw [hc'] at hkind; cases hkind
    | some c =>
      rw [hc] at hkind
      cases hc' : mget so'.cols k with
      | none => rw [hc'] at hkind; cases hkind
      | some c' =>
        have sh := hl.shr k c c' hc hc'
        have ok := (hd.set s so hso hs).cols k c hc
        have e1 : ∀ b r, so.lists b k r ↔ c.lists b r := fun b r => ⟨fun ⟨c', x, y⟩ => by rw [hc] at x; cases x; exact y, fun x => ⟨c, hc, x⟩⟩
        have e2 : so'.lists b k r ↔ c'.lists b r := ⟨fun ⟨c', x, y⟩ => by rw [hc'] at x; cases x; exact y, fun x => ⟨c', hc', x⟩⟩
        rw [e2]; simp only [e1]
        by_cases hr : r ∈ l
        · simp only [hr, not_true_eq_false, false_and, iff_false]
          intro x
          exact ((hl.recs r).mp (lists_mem hd' hso' (by rw [hl.isSet]; exact hs) (e2.mpr x)).1).2 hr
        · rw [sh.lists ok b hr]
          simp only [hr, not_false_eq_true, true_and]
          refine and_congr_right fun hlist => ?_
          have hrm := (ok.lists_val hlist).1
          have cell_r := set_cell hi hd hso hs hp hrm k
          refine forall_congr' fun hb => forall_congr' fun r0 => forall_congr' fun h0 => ?_
          constructor
          · intro x y z
            refine x ?_ z
            have := set_cell hi hd hso hs hp (ok.lists_val z).1 k
            rw [← this, ← cell_r]; exact y
          · intro x y z
            refine x ?_ z
            have := set_cell hi hd hso hs hp (ok.lists_val z).1 k
            rw [this, cell_r]; exact y

theorem Gone.follows {w w' : World K V Ty} {o : Nat} {vo : Obj K V Ty} (h : Gone w w' o vo) (hi : Inv own home w) (hd : Deep w) (hd' : Deep w')
    (ho : w.getObj o = some vo) (hs : vo.isSet = false) {c : Cmd K V Ty}
    (hc : ∀ x : SetVar K, x.after (asTable w o) (asTable w' o) c = x.take ((x.on (asTable w o)).erase fun r => (asTable w o).row r ∧ ¬ (asTable w' o).row r)) :
    Follows w w' (.on o c) := by
  obtain ⟨l, hl, er, ls⟩ := h
  obtain ⟨cols, hobj, _⟩ := er.obj
  have hrow : ∀ r, ((asTable w o).row r ∧ ¬ (asTable w' o).row r) ↔ r ∈ l := by
    intro r
    show (r ∈ members w o ∧ r ∉ members w' o) ↔ _
    rw [members_eq ho, members_eq hobj]
    simp only [List.mem_filter, decide_not, Bool.not_eq_true', decide_eq_false_iff_not, not_and, Classical.not_not]
    exact ⟨fun ⟨a, b⟩ => b a, fun a => ⟨hl r a, fun _ => a⟩⟩
  have hfun : (fun r => (asTable w o).row r ∧ ¬ (asTable w' o).row r) = (· ∈ l) := funext fun r => propext (hrow r)
  refine follows_on (vault_of_obj ho hs) (vault_of_obj hobj hs) (.of er.objs fun x hx => by rw [hobj] at hx; cases hx; exact hs) fun s so hso hss => ?_
  obtain ⟨so', a, b⟩ := ls s so hso hss
  refine ⟨so', a, by rw [b.isSet]; exact hss, ?_⟩
  by_cases hp : so.parent = some o
  · refine .inr ⟨hp, ?_⟩
    rw [hc, hfun]
    exact mem_lists hi hd hso hss hp hd' a b
  · refine .inl ⟨hp, ?_⟩
    -- a set of another vault holds none of these records
    have hnone : ∀ r ∈ so.recs, r ∉ l := by
      intro r hr hrl
      have h1 := (set_home hi hd hso hss hr).1
      rw [(hi.v.mem o vo ho hs r (hl r hrl)).1] at h1
      exact hp h1
    apply SetVar.ext
    · exact b.parent
    · funext r; exact propext ((b.recs r).trans ⟨fun x => x.1, fun x => ⟨x, hnone r x⟩⟩)
    · funext bb k r
      apply propext
      show so'.lists bb k r ↔ so.lists bb k r
      have hkind := b.same.kind k
      cases hc : mget so.cols k with
      | none =>
        rw [hc] at hkind
        cases hc' : mget so'.cols k with
        | none => simp [Obj.lists, hc, hc']
        | some c' => rw [hc'] at hkind; cases hkind
      | some c =>
        rw [hc] at hkind
        cases hc' : mget so'.cols k with
        | none => rw [hc'] at hkind; cases hkind
        | some c' =>
          have sh := b.shr k c c' hc hc'
          have ok := (hd.set s so hso hss).cols k c hc
          have e1 : ∀ b r, so.lists b k r ↔ c.lists b r := fun b r => ⟨fun ⟨c', x, y⟩ => by rw [hc] at x; cases x; exact y, fun x => ⟨c, hc, x⟩⟩
          have e2 : so'.lists bb k r ↔ c'.lists bb r := ⟨fun ⟨c', x, y⟩ => by rw [hc'] at x; cases x; exact y, fun x => ⟨c', hc', x⟩⟩
          rw [e2, e1]
          by_cases hr : r ∈ l
          · constructor
            · intro x
              exact absurd hr (((b.recs r).mp (lists_mem hd' a (by rw [b.isSet]; exact hss) (e2.mpr x)).1).2)
            · intro x
              exact absurd hr (hnone r (ok.lists_val x).1)
          · rw [sh.lists ok bb hr]
            refine ⟨fun x => x.1, fun x => ⟨x, fun _ r0 h0 _ h2 => ?_⟩⟩
            exact hnone r0 (ok.lists_val h2).1 h0

/-! ### DropData, DropVault -/

theorem empty_lists {w : World K V Ty} (hd : Deep w) {s : Nat} {so : Obj K V Ty} (hso : w.getObj s = some so) (hs : so.isSet = true) (h : so.recs = [])
    (b : Bool) (k : K) (r : Nat) : ¬ so.lists b k r := by
  intro x
  have := (lists_mem hd hso hs x).1
  rw [h] at this; cases this

theorem dropData_follows {env : Env} {w w' : World K V Ty} {o : Nat} {vo : Obj K V Ty} (hi : Inv own home w) (hd : Deep w)
    (ho : w.getObj o = some vo) (hs : vo.isSet = false) (h : dropData env w o = some w') : Follows w w' (.on o .dropData) := by
  obtain ⟨w1, e, hd', c⟩ := dropData_obj (env := env) hi hd ho hs
  rw [h] at e; cases e
  obtain ⟨_, er, hobj, _⟩ := dropData_spec hi ho hs h
  refine follows_on (vault_of_obj ho hs) (vault_of_obj hobj hs) (.of er.objs fun x hx => by rw [hobj] at hx; cases hx; exact hs) fun s so hso hss => ?_
  rcases c s so hso hss with ⟨a, b⟩ | ⟨a, so', b1, b2, b3, b4, b5⟩
  · exact ⟨so, b, hss, .inl ⟨a, rfl⟩⟩
  · refine ⟨so', b1, b2, .inr ⟨a, ?_⟩⟩
    have hrow : ∀ r, so.var.row r → (asTable w o).row r ∧ ¬ (asTable w' o).row r := by
      intro r hr
      refine ⟨set_rows hi hd hso hss a r hr, ?_⟩
      show r ∉ members w' o
      rw [members_eq hobj]; simp
    apply SetVar.ext
    · exact b3.trans a.symm
    · funext r
      apply propext
      show r ∈ so'.recs ↔ so.var.row r ∧ ¬ _
      rw [b5]
      exact ⟨fun x => by simp at x, fun ⟨x, y⟩ => absurd (hrow r x) y⟩
    · funext bb k r
      apply propext
      show so'.lists bb k r ↔ ¬ _ ∧ so.lists bb k r ∧ _
      refine ⟨fun x => absurd x (empty_lists hd' b1 b2 b5 bb k r), fun ⟨x, y, _⟩ => absurd (hrow r (lists_mem hd hso hss y).1) x⟩

theorem free_var {w : World K V Ty} (hi : Inv own home w) (hd : Deep w) {s : Nat} {so : Obj K V Ty} (hso : w.getObj s = some so) (hs : so.isSet = true)
    (hp : so.parent = none) : so.var = .free := by
  have h := (hi.s.sets s so hso hs).det hp
  apply SetVar.ext
  · exact hp
  · funext r; simp [Obj.var, SetVar.free, h]
  · funext b k r; simp only [Obj.var, SetVar.free, eq_iff_iff, iff_false]; exact empty_lists hd hso hs h b k r

theorem dropVault_follows {env : Env} {w w' : World K V Ty} {o : Nat} {vo : Obj K V Ty} (hi : Inv own home w) (hd : Deep w)
    (ho : w.getObj o = some vo) (hs : vo.isSet = false) (h : dropVault env w o = some w') : Follows w w' (.on o .dropVault) := by
  obtain ⟨w1, e, hd', c⟩ := dropVault_sets (env := env) hi hd ho hs
  rw [h] at e; cases e
  obtain ⟨hi', hobj, hobs, _⟩ := dropVault_spec hi ho hs h
  refine follows_on (vault_of_obj ho hs) (vault_of_obj hobj hs) (.of hobs fun x hx => by rw [hobj] at hx; cases hx; exact hs) fun s so hso hss => ?_
  rcases c s so hso hss with ⟨a, b⟩ | ⟨a, so', b1, b2, b3⟩
  · exact ⟨so, b, hss, .inl ⟨a, rfl⟩⟩
  · exact ⟨so', b1, b2, .inr ⟨a, free_var hi' hd' b1 b2 b3⟩⟩

theorem SetsFree.map {w w' : World K V Ty} {o : Nat} (h : SetsFree o w w') (hi' : Inv own home w') (hd' : Deep w') (hn : NoNew w w') (s : Nat) :
    varsOf w' s = (varsOf w s).map fun x => if x.vault = some o then .free else x := by
  refine sets_map (fun s so hso hss => ?_) hn s
  rcases h s so hso hss with ⟨a, b⟩ | ⟨a, so', b1, b2, b3⟩
  · refine ⟨so, b, hss, ?_⟩
    simp only [show ¬ so.var.vault = some o from a, if_false]
  · refine ⟨so', b1, b2, ?_⟩
    simp only [show so.var.vault = some o from a, if_true]
    exact free_var hi' hd' b1 b2 b3

end MVault.W
