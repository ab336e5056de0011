import Verif.WorldWindow
/-
What the calls on vaults make of the sets.
-/
set_option linter.unusedSectionVars false
set_option linter.unusedSimpArgs false
set_option linter.unusedVariables false
namespace MVault.W
open MVault.Spec (Table Db Event Cmd SetVar State Call)
variable {K V Ty : Type} [LinearOrder K] [LinearOrder V] [Typed V Ty] [DecidableEq Ty]
variable {own home : Nat → Nat}

/-- Every set does what the specification says of the call `e`. -/
def Follows (w w' : World K V Ty) (e : Event K V Ty) : Prop := ∀ s, varsOf w' s = (varsOf w s).map fun x => x.follow (dbOf w) (dbOf w') e

theorem follow_on {w w' : World K V Ty} {o : Nat} (h1 : isVault w o = true) (h2 : isVault w' o = true) (x : SetVar K) (c : Cmd K V Ty) :
    x.follow (dbOf w) (dbOf w') (.on o c) = if x.vault = some o then x.after (asTable w o) (asTable w' o) c else x := by
  simp only [SetVar.follow, dbOf_vault h1, dbOf_vault h2]

theorem follows_on {w w' : World K V Ty} {o : Nat} {c : Cmd K V Ty} (h1 : isVault w o = true) (h2 : isVault w' o = true) (hn : NoNew w w')
    (hto : ∀ s so, w.getObj s = some so → so.isSet = true → ∃ so', w'.getObj s = some so' ∧ so'.isSet = true ∧
      ((so.parent ≠ some o ∧ so'.var = so.var) ∨ (so.parent = some o ∧ so'.var = so.var.after (asTable w o) (asTable w' o) c))) :
    Follows w w' (.on o c) := by
  refine sets_map (fun s so hso hs => ?_) hn
  obtain ⟨so', a, b, d⟩ := hto s so hso hs
  refine ⟨so', a, b, ?_⟩
  rw [follow_on h1 h2]
  rcases d with ⟨d1, d2⟩ | ⟨d1, d2⟩
  · rw [d2]; simp only [Obj.var, d1, if_false]
  · rw [d2]; simp only [show so.var.vault = some o from d1, if_true]

/-- The sets are as before, and the call leaves sets as they are. -/
theorem follows_same {w w' : World K V Ty} {e : Event K V Ty} (h : varsOf w' = varsOf w) (he : ∀ x : SetVar K, x.follow (dbOf w) (dbOf w') e = x) : Follows w w' e := by
  intro s
  rw [h]
  cases varsOf w s with
  | none => rfl
  | some x => simp only [Option.map_some, he x]

/-- A call that changed nothing at all. -/
theorem follows_refl {w : World K V Ty} {o : Nat} {c : Cmd K V Ty} (ho : isVault w o = true)
    (h : ∀ s so, w.getObj s = some so → so.isSet = true → so.parent = some o → so.var.after (asTable w o) (asTable w o) c = so.var) :
    Follows w w (.on o c) := by
  refine follows_on ho ho (fun s so' a b => ⟨so', a, b⟩) fun s so hso hs => ⟨so, hso, hs, ?_⟩
  by_cases hp : so.parent = some o
  · exact .inr ⟨hp, (h s so hso hs hp).symm⟩
  · exact .inl ⟨hp, rfl⟩

theorem vault_of_obj {w : World K V Ty} {o : Nat} {vo : Obj K V Ty} (h : w.getObj o = some vo) (hs : vo.isSet = false) : isVault w o = true := isVault_iff.mpr ⟨vo, h, hs⟩

theorem key_col {w : World K V Ty} {o : Nat} {vo : Obj K V Ty} (hi : Inv own home w) (ho : w.getObj o = some vo) (hs : vo.isSet = false) (k : K) :
    k ∈ (asTable w o).keys ↔ mhas vo.cols k = true := by
  show k ∈ getKeys w o ↔ _
  rw [getKeys_eq ho, (hi.v.vok o vo ho hs).keysM, mhas_iff]

/-! ### Keys -/

theorem withSetKey_var {so : Obj K V Ty} {k : K} {d : V} {u : Bool} {c : Col V Ty} {t : Table K V Ty} {ty : Ty} {val : Nat → V}
    (hc : ∀ b r, c.lists b r ↔ r ∈ so.recs) : (so.withSetKey k d u c).var = so.var.take ((so.var.on t).addKey k u ty d val) := by
  apply SetVar.ext
  · rfl
  · rfl
  · funext b k' r
    apply propext
    show (∃ c', mget (mput so.cols k c) k' = some c' ∧ c'.lists b r) ↔ (if k' = k then r ∈ so.recs else so.lists b k' r)
    rw [mget_mput]
    by_cases e : k' = k
    · subst e; rw [if_pos rfl, if_pos rfl, ← hc b r]
      exact ⟨fun ⟨c', x, y⟩ => by cases x; exact y, fun x => ⟨c, rfl, x⟩⟩
    · rw [if_neg (Ne.symm e), if_neg e]; exact Iff.rfl

theorem SetsKey.follows {w w' : World K V Ty} {o : Nat} {k : K} {d : V} {u : Bool} {cmd : Cmd K V Ty} (h1 : isVault w o = true) (h2 : isVault w' o = true)
    (hn : NoNew w w') (h : SetsKey o k d u w w')
    (hc : ∀ x : SetVar K, ∃ ty val, x.after (asTable w o) (asTable w' o) cmd = x.take ((x.on (asTable w o)).addKey k u ty d val)) : Follows w w' (.on o cmd) := by
  refine follows_on h1 h2 hn fun s so hso hs => ?_
  rcases h s so hso hs with ⟨a, b⟩ | ⟨a, c, b, _, hl⟩
  · exact ⟨so, b, hs, .inl ⟨a, rfl⟩⟩
  · refine ⟨_, b, hs, .inr ⟨a, ?_⟩⟩
    obtain ⟨ty, val, e⟩ := hc so.var
    rw [e]; exact withSetKey_var hl

theorem addKey_follows {env : Env} {w w' : World K V Ty} {o : Nat} {vo : Obj K V Ty} {k : K} {d : V} {res : Res K} (hi : Inv own home w) (hd : Deep w)
    (ho : w.getObj o = some vo) (hs : vo.isSet = false) (h : addKey env w o k d = some (w', res)) : Follows w w' (.on o (.addKey k d)) := by
  have hv := vault_of_obj ho hs
  obtain ⟨w1, r1, e, _, c⟩ := addKey_obj (env := env) (k := k) (d := d) hi hd ho hs
  rw [h] at e; cases e
  rcases c with ⟨rfl, hk⟩ | ⟨hk, hsk⟩
  · refine follows_refl hv fun s so hso hss hp => ?_
    simp only [SetVar.after, (key_col hi ho hs k).mpr hk, if_true]
  · rcases addKey_spec hi ho hs h with ⟨rfl, _, c, hc⟩ | ⟨_, hkn, _, c, _, _, _, _, _, st⟩
    · rw [mhas_false] at hk; rw [hk] at hc; cases hc
    · have hv' := vault_of_obj st.obj hs
      refine hsk.follows hv hv' (.of st.objs fun x hx => by rw [st.obj] at hx; cases hx; exact hs) fun x => ⟨typeOf d, fun _ => d, ?_⟩
      have : k ∉ (asTable w o).keys := by rw [key_col hi ho hs k]; simp [hk]
      simp only [SetVar.after, this, if_false]

theorem addUniqueKey_follows {env : Env} {w w' : World K V Ty} {o : Nat} {vo : Obj K V Ty} {k : K} {t : Ty} {noFn : Bool}
    {f : Nat → Nat → Nat → V} {res : Res K} (hi : Inv own home w) (hd : Deep w)
    (ho : w.getObj o = some vo) (hs : vo.isSet = false) (hf : RecordOnly f ∨ noFn = true ∨ vo.recs = [])
    (h : addUniqueKey env w o k t noFn f = some (w', res)) : Follows w w' (.on o (.addUniqueKey k t noFn (f o))) := by
  have hv := vault_of_obj ho hs
  obtain ⟨w1, r1, e, _, c⟩ := addUniqueKey_obj (env := env) (k := k) (t := t) hi hd ho hs hf
  rw [h] at e; cases e
  have same : ∀ {w2 : World K V Ty}, w2 = w → Follows w w2 (.on o (.addUniqueKey k t noFn (f o))) := by
    intro w2 e
    rw [e]
    refine follows_refl hv fun s so hso hss hp => ?_
    have : k ∈ (asTable w o).keys ∨ k ∉ (asTable w o).keys := Classical.em _
    simp only [SetVar.after, this, if_true]
  rcases c with ⟨e, _⟩ | ⟨hk, hsk, vo', ho', hk'⟩
  · exact same e
  · rcases addUniqueKey_spec hi ho hs h with ⟨e, _⟩ | ⟨e, _⟩ | ⟨e, _⟩ | ⟨_, hkn, _, hi', _, c, _, _, st⟩
    · exact same e
    · exact same e
    · exact same e
    · have hv' := vault_of_obj st.obj hs
      refine hsk.follows hv hv' (.of st.objs fun x hx => by rw [st.obj] at hx; cases hx; exact hs) fun x => ⟨t, fun _ => zero t, ?_⟩
      have : ¬ (k ∈ (asTable w o).keys ∨ k ∉ (asTable w' o).keys) := by
        have a : k ∉ (asTable w o).keys := by rw [key_col hi ho hs k]; simp [hk]
        have b : k ∈ (asTable w' o).keys := by
          have e := st.obj
          rw [ho'] at e; cases e
          rw [key_col hi' ho' hs k]; exact hk'
        simp [a, b]
      simp only [SetVar.after, this, if_false]

theorem removeKey_follows {env : Env} {w w' : World K V Ty} {o : Nat} {vo : Obj K V Ty} {k : K} {b : Bool} (hi : Inv own home w) (hd : Deep w)
    (ho : w.getObj o = some vo) (hs : vo.isSet = false) (h : removeKey env w o k = some (w', b)) : Follows w w' (.on o (.removeKey k)) := by
  have hv := vault_of_obj ho hs
  obtain ⟨w1, r1, e, _, c⟩ := removeKey_obj (env := env) (k := k) hi hd ho hs
  rw [h] at e; cases e
  rcases c with ⟨rfl, hk⟩ | ⟨hk, hsk⟩
  · refine follows_refl hv fun s so hso hss hp => ?_
    apply SetVar.ext
    · rfl
    · rfl
    · funext b' k' r
      apply propext
      show (k' ≠ k ∧ so.lists b' k' r) ↔ so.lists b' k' r
      refine ⟨fun x => x.2, fun x => ⟨?_, x⟩⟩
      rintro rfl
      obtain ⟨_, c, hc, _⟩ := lists_mem hd hso hss x
      have := (set_col hi hd hso hss hp k').mp (by rw [mhas_iff]; exact ⟨c, hc⟩)
      rw [key_col hi ho hs] at this; rw [this] at hk; cases hk
  · rcases removeKey_spec hi ho hs h with ⟨rfl, _, hc⟩ | ⟨_, _, _, st⟩
    · rw [mhas_iff, hc] at hk; obtain ⟨_, hk⟩ := hk; cases hk
    · have hv' := vault_of_obj st.obj hs
      refine follows_on hv hv' (.of st.objs fun x hx => by rw [st.obj] at hx; cases hx; exact hs) fun s so hso hss => ?_
      rcases hsk s so hso hss with ⟨a, b⟩ | ⟨a, b⟩
      · exact ⟨so, b, hss, .inl ⟨a, rfl⟩⟩
      · refine ⟨_, b, hss, .inr ⟨a, ?_⟩⟩
        apply SetVar.ext
        · rfl
        · rfl
        · funext b' k' r
          apply propext
          show (∃ c', mget (mdel so.cols k) k' = some c' ∧ c'.lists b' r) ↔ (k' ≠ k ∧ so.lists b' k' r)
          rw [mget_mdel]
          by_cases e : k' = k
          · subst e; simp
          · simp [e, Ne.symm e, Obj.lists]

theorem updateKey_follows {w w' : World K V Ty} {o : Nat} {vo : Obj K V Ty} {k : K} {d : V} {res : Res K} (hi : Inv own home w)
    (ho : w.getObj o = some vo) (hs : vo.isSet = false) (h : updateKey w o k d = some (w', res)) : Follows w w' (.on o (.updateKey k d)) := by
  have hv := vault_of_obj ho hs
  rcases (updateKey_spec hi ho hs h).2 with ⟨rfl, _⟩ | ⟨_, _, _, rfl, _⟩ | ⟨_, _, _, _, rfl, _⟩ | ⟨_, _, _, _, _, rfl⟩
  · exact follows_refl hv fun _ _ _ _ _ => rfl
  · exact follows_refl hv fun _ _ _ _ _ => rfl
  · exact follows_refl hv fun _ _ _ _ _ => rfl
  · refine follows_on hv (vault_of_obj (vo := { vo with tmpl := mput vo.tmpl k d }) (by rw [getObj_putObj, if_pos rfl]) hs) ?_ fun s so hso hss => ?_
    · intro s so' a b
      rw [getObj_putObj] at a
      split at a
      · cases a; rw [hs] at b; cases b
      · exact ⟨so', a, b⟩
    · have hne : o ≠ s := by rintro rfl; rw [ho] at hso; cases hso; rw [hs] at hss; cases hss
      refine ⟨so, by rw [getObj_putObj, if_neg hne]; exact hso, hss, ?_⟩
      by_cases hp : so.parent = some o
      · exact .inr ⟨hp, rfl⟩
      · exact .inl ⟨hp, rfl⟩

end MVault.W
