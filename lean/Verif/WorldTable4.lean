import Verif.WorldTable3
/-
The step on the table, call by call: SetData, copies, moves; all calls together.
-/
set_option linter.unusedSectionVars false
set_option linter.unusedSimpArgs false
set_option linter.unusedVariables false
namespace MVault.W
open MVault.Spec (Table Db Event Cmd)
variable {K V Ty : Type} [LinearOrder K] [LinearOrder V] [Typed V Ty] [DecidableEq Ty]
variable {home : Nat → Nat}

/-! ### SetData -/

theorem refSetData_table {env : Env} {w w' : World K V Ty} {own : Nat → Nat} (hi : Inv own home w) {o f : Nat} {k : K} {v : V} {res : Res K} (ho : isVault w o = true)
    (hthr : through w f = some o) (h : refSetData env w f k v = some (w', res)) :
    isVault w' o = true ∧ w'.refs = w.refs ∧ res = ((asTable w o).set (target w f) k v).1 ∧ asTable w' o = ((asTable w o).set (target w f) k v).2 := by
  obtain ⟨vo, hvo, hvs⟩ := isVault_iff.mp ho
  have ok := hi.v.vok o vo hvo hvs
  have ho' := refSetData_isVault hi ho h
  have hi' := refSetData_inv hi h
  have hlist := fun b k' r (hr : r ∈ members w o) => refSetData_listed (k := k') hi ho h b hr
  obtain ⟨ref, hfr, ⟨rfl, rfl, hd⟩ | ⟨r0, o', oo, x, hp, hvl, hoo, hx, hxv, ⟨hset, h⟩ | ⟨hs, hown, _, ⟨rfl, hres⟩ | ⟨rfl, h⟩⟩⟩⟩ := refSetData_spec hi h
  · refine ⟨ho, rfl, ?_⟩
    rw [target_eq hfr]
    cases hp : ref.ptr with
    | none => exact ⟨rfl, rfl⟩
    | some r =>
      have : ¬ (asTable w' o).row r := by
        intro hr
        have hr : r ∈ members w' o := hr
        rw [members_eq hvo] at hr
        exact hd r hp (hi.v.mem o vo hvo hvs r hr).2
      simp [Table.set, this]
  · rw [through_eq hfr, hvl] at hthr; cases hthr
    rw [hoo] at hvo; cases hvo; rw [hset] at hvs; cases hvs
  · rw [through_eq hfr, hvl] at hthr; cases hthr
    rw [hoo] at hvo; cases hvo
    obtain ⟨vo0, hvo0, _, hrm⟩ := hi.v.val r0 x hx hxv
    rw [hown, hoo] at hvo0; cases hvo0
    have hrow : (asTable w' o).row r0 := by show r0 ∈ members w' o; rw [members_eq hoo]; exact hrm
    refine ⟨ho, rfl, ?_⟩
    rw [target_eq hfr, hp]
    simp only [Table.set, hrow, not_true_eq_false, if_false]
    rcases hres with ⟨rfl, hn⟩ | ⟨c, hc, rfl, ht⟩ | ⟨c, hc, ht, hm, rfl⟩
    · have : (asTable w' o).bad k v = some .WrongKey := by simp [Table.bad, asTable, getKeyType_eq hoo, hn]
      rw [this]; exact ⟨rfl, rfl⟩
    · have : (asTable w' o).bad k v = some .WrongType := by simp [Table.bad, asTable, getKeyType_eq hoo, hc, ht]
      rw [this]; exact ⟨rfl, rfl⟩
    · rw [good_check hoo hc ht]
      have : (asTable w' o).uniq k := by show k ∈ getUniqueKeys w' o; rw [getUniqueKeys_eq hoo, ok.uniqM]; exact ⟨c, hc, hm⟩
      simp [this]
  · rw [through_eq hfr, hvl] at hthr; cases hthr
    rw [hoo] at hvo; cases hvo
    obtain ⟨vo0, hvo0, _, hrm⟩ := hi.v.val r0 x hx hxv
    rw [hown, hoo] at hvo0; cases hvo0
    have hrm' : r0 ∈ members w o := by rw [members_eq hoo]; exact hrm
    have hrow : (asTable w o).row r0 := hrm'
    refine ⟨ho', h.refs, ?_⟩
    rw [target_eq hfr, hp]
    simp only [Table.set, hrow, not_true_eq_false, if_false]
    obtain ⟨c, c', hc, hct, hcm, hobj⟩ := h.col
    obtain ⟨c1, c1', old, hc1, hold, hsv, hobj1⟩ := h.idx
    rw [hc] at hc1; cases hc1
    have hcc : c' = c1' := by
      rw [hobj] at hobj1
      have := congrArg (fun x : Option (Obj K V Ty) => x.bind fun y => mget y.cols k) hobj1
      simpa [mget_mput] using this
    subst hcc
    obtain ⟨y, hy, _, _, hyd⟩ := h.here
    have hu : ¬ (asTable w o).uniq k := by
      show ¬ k ∈ getUniqueKeys w o
      rw [getUniqueKeys_eq hoo, ok.uniqM, hc]; simp [hcm]
    rw [good_check hoo hc hct]
    simp only [hu, if_false, true_and]
    have hmem : members w' o = members w o := by rw [members_eq hobj, members_eq hoo]
    have hsig : ∀ k', (mget (mput vo.cols k c') k').map Col.sig = (mget vo.cols k').map Col.sig := by
      intro k'
      rw [mget_mput]
      by_cases e : k = k'
      · subst e; simp [hc, setVal_sig hsv]
      · simp [e]
    have hval : ∀ r' ∈ members w o, ∀ k', value w' r' k' = if r' = r0 ∧ k' = k then some v else value w r' k' := by
      intro r' hr' k'
      rw [members_eq hoo] at hr'
      by_cases e : r' = r0
      · subst e
        simp only [value, hx, hy, Option.bind_some, hyd, mget_mput, true_and, eq_comm (a := k)]
      · obtain ⟨_, z, hz, hzv⟩ := hi.v.mem o vo hoo hs r' hr'
        obtain ⟨z', hz', _, _, hd⟩ := (h.recs r' e).to hz
        simp [value, hz, hz', hd hzv, e]
    apply Table.ext
    · simp only [asTable, Table.setCell, getKeys_eq hobj, getKeys_eq hoo]
    · simp only [asTable, Table.setCell, getUniqueKeys_eq hobj, getUniqueKeys_eq hoo]
    · funext k'
      simp only [asTable, Table.setCell, getKeyType_eq hobj, getKeyType_eq hoo]
      have := hsig k'
      cases a : mget vo.cols k' <;> cases b : mget (mput vo.cols k c') k' <;> simp_all [Col.sig]
    · funext k'; simp only [asTable, Table.setCell, getDefault_eq hobj, getDefault_eq hoo]
    · funext k'
      simp only [asTable, Table.setCell, getUniqueKeys_eq hobj, getUniqueKeys_eq hoo, keyDefault_eq hobj, keyDefault_eq hoo]
      have := hsig k'
      cases a : mget vo.cols k' <;> cases b : mget (mput vo.cols k c') k' <;> simp_all [Col.sig]
    · simp only [asTable, Table.setCell, hmem]
    · funext r' k'
      simp only [asTable, Table.setCell, hmem]
      by_cases hr' : r' ∈ members w o
      · simp only [hr', if_true, hval r' hr' k']
      · have : ¬ (r' = r0 ∧ k' = k) := by rintro ⟨rfl, _⟩; exact hr' hrm'
        simp [hr', this]
    · funext b k' r'
      apply propext
      show Listed b w' o k' r' ↔ _
      simp only [asTable, Table.setCell]
      by_cases hr' : r' ∈ members w o
      swap
      · have h1 : ¬ Listed b w' o k' r' := by
          intro hl; have := (listed_key hi' hobj hs hl).1; rw [hmem] at this; exact hr' this
        have h2 : ∀ k', ¬ Listed b w o k' r' := fun k' hl => hr' (listed_key hi hoo hs hl).1
        have h3 : r' ≠ r0 := by rintro rfl; exact hr' hrm'
        simp [h1, h2, h3]
      · rw [hlist b k' r' hr']
        have ht : target w f = some r0 := by rw [target_eq hfr, hp]
        have hth : through w f = some o := by rw [through_eq hfr, hvl]
        by_cases e : k' = k
        · subst e
          rw [if_pos ⟨rfl, hth, rfl⟩, if_pos rfl, ht]
          simp only [Option.some.injEq, hr', hrm', if_true]
          constructor
          · rintro (rfl | ⟨h1, h2⟩)
            · exact .inl rfl
            · exact .inr ⟨h1, fun h3 => h2 ⟨r0, rfl, h3.2.symm, h3.1⟩⟩
          · rintro (rfl | ⟨h1, h2⟩)
            · exact .inl rfl
            · refine .inr ⟨h1, ?_⟩
              rintro ⟨_, rfl, h3, h4⟩
              exact h2 ⟨h4, h3.symm⟩
        · rw [if_neg (by rintro ⟨e', _⟩; exact e e'.symm), if_neg e]

theorem refSetDataLoop_table {env : Env} {f o : Nat} {r : Option Nat} (ps : List (K × V)) : ∀ {w w' : World K V Ty} {res res' : Res K}, (∃ own, Inv own home w) →
    isVault w o = true → through w f = some o → target w f = r → refSetDataLoop env f ps w res = some (w', res') →
    isVault w' o = true ∧ res' = (Table.setMany r ps res (asTable w o)).1 ∧ asTable w' o = (Table.setMany r ps res (asTable w o)).2 := by
  induction ps with
  | nil => intro w w' res res' _ ho _ _ h; cases h; exact ⟨ho, rfl, rfl⟩
  | cons p ps ih =>
    rintro w w' res res' ⟨own, hi⟩ ho ht hr h
    simp only [refSetDataLoop, Option.bind_eq_bind, Option.bind_eq_some_iff, Prod.exists] at h
    obtain ⟨w1, res1, h1, h⟩ := h
    obtain ⟨a1, a2, a3, a4⟩ := refSetData_table hi ho ht h1
    rw [hr] at a3 a4
    simp only [Table.setMany]
    rw [← a3, ← a4]
    split at h
    · rename_i hf
      cases h
      rw [if_pos hf]
      exact ⟨a1, a3, a4⟩
    · rename_i hf
      rw [if_neg hf]
      refine ih ⟨own, refSetData_inv hi h1⟩ a1 ?_ ?_ h
      · unfold through; rw [a2]; exact ht
      · unfold target; rw [a2]; exact hr

/-! ### Copies and moves -/

theorem isCopy_table {w w' : World K V Ty} {a n : Nat} {m : Nat → Nat} (hc : IsCopy w w' a n m) (hd : ∀ k, getDefault w' n k = (asTable w a).first k)
    (hf : ∀ k, (asTable w' n).first k = (asTable w a).first k) (hinj : ∀ r ∈ members w a, ∀ r' ∈ members w a, m r = m r' → r = r')
    {fresh : Nat → Prop} (hfr : ∀ r ∈ members w a, fresh (m r)) (hu : getUniqueKeys w a = [])
    (hs : ∀ b k r, Listed b w' n k r ↔ k ∈ getKeys w' n ∧ r ∈ members w' n) : (asTable w a).Copy fresh (asTable w' n) := by
  have hrow : ∀ r', r' ∈ members w' n ↔ ∃ r, r ∈ members w a ∧ r' = m r := by
    intro r'
    rw [hc.members.mem_iff, List.mem_map]
    exact ⟨fun ⟨r, h1, h2⟩ => ⟨r, h1, h2.symm⟩, fun ⟨r, h1, h2⟩ => ⟨r, h1, h2.symm⟩⟩
  refine ⟨fun k => by simp [asTable, hu], m, fun r hr => hfr r hr, fun r r' hr hr' e => hinj r hr r' hr' e, hc.keys, ?_, ?_, ?_, ?_, hrow, ?_, ?_, ?_⟩
  · simp only [asTable, hc.uniq]
  · funext k; exact hc.types k
  · funext k; exact hd k
  · funext k; exact hf k
  · intro r hr k
    have h1 : m r ∈ members w' n := (hrow _).mpr ⟨r, hr, rfl⟩
    rw [cell_in h1, cell_in hr]; exact hc.values r hr k
  · intro r' hr' k; exact if_neg hr'
  · intro b k r'
    show Listed b w' n k r' ↔ k ∈ getKeys w a ∧ _
    rw [hs, hc.keys]; rfl

/-- Copying vault `a` (without unique keys) into the empty vault `o`. -/
theorem copyInto_table {own : Nat → Nat} {env : Env} {w w' : World K V Ty} {o a : Nat} {vo ao : Obj K V Ty} (hai : AI w) (hN : ao.recs.Nodup)
    {own' : Nat → Nat} (hi' : Inv own' home w') (hne : o ≠ a)
    (ho : w.getObj o = some vo) (hvs : vo.isSet = false) (ha : w.getObj a = some ao) (has : ao.isSet = false) (hu : ao.uniq = []) (hr : vo.recs = [])
    (hc : vo.cols = []) (ht : vo.tmpl = []) (h : copyInto env w o a = some w') {fresh : Nat → Prop} (hfr : ∀ r, w.nextR ≤ r → fresh r) :
    isVault w' o = true ∧ (asTable w a).Copy fresh (asTable w' o) := by
  obtain ⟨cp, hO, hR, hf⟩ := copyInto_copy hai hN hne ho hvs ha has hr hc ht h
  obtain ⟨y, hy, e1, e2, e3, e4⟩ := copyInto_keys hai ho hvs ha has hr hc ht h
  have hUf := copyInto_unflagged ho ha hr hc h
  obtain ⟨y', hy', hys⟩ := isVault_iff.mp cp.vault
  rw [hy] at hy'; cases hy'
  have hd : ∀ k, (mget y.cols k).map (·.dflt) = (mget ao.cols k).map (·.dflt) := by
    intro k
    have hex : ∀ r ∈ ao.recs, ∃ x, w.getRec r = some x := by
      have h' := h
      have hck := copyKeys_eq (env := env) (src := ao) (w := w) (o := o) hr
      rw [putObj_self ho] at hck
      simp only [copyInto, ha, Option.bind_eq_bind, Option.bind_some, hck, getObj_putObj_self] at h'
      intro r hrm
      obtain ⟨x, hx⟩ := copyLoop_exists _ h' (fun q hq => (hai.obj a ao ha).recs q ((env.isPerm _).mem_iff.mp hq)) r ((env.isPerm _).mem_iff.mpr hrm)
      exact ⟨x, hx⟩
    obtain ⟨w1, h1, cq⟩ := copyInto_spec (env := env) hne ha hr hai.recB hex
    rw [putObj_self ho] at h1 cq
    rw [h] at h1; cases h1
    obtain ⟨cols, hobj, hsig⟩ := cq.obj
    rw [hy] at hobj; cases hobj
    obtain ⟨_, _, _, _, _, _, b1, _⟩ := withKeys_spec ao.cols vo
    have := hsig k
    simp only [b1 k, hc, mget, Option.none_or] at this
    cases q1 : mget cols k <;> cases q2 : mget ao.cols k <;> simp_all [Col.sig, Col.fresh]
  refine ⟨cp.vault, isCopy_table cp ?_ ?_ ?_ ?_ (by rw [getUniqueKeys_eq ha, hu]) ?_⟩
  · intro k
    simp only [asTable, getUniqueKeys_eq ha, hu, keyDefault_eq ha, getDefault_eq hy, e4]
    simp
  · intro k
    simp only [asTable, getUniqueKeys_eq ha, getUniqueKeys_eq hy, e2, keyDefault_eq ha, keyDefault_eq hy, hd]
  · intro r hr r' hr' e
    rw [members_eq ha] at hr hr'
    have h1 := (env.isPerm ao.recs).mem_iff.mpr hr
    simp only [copyOf] at e
    exact (List.idxOf_inj h1).mp (by omega)
  · intro r _; exact hfr _ (by simp [copyOf])
  · intro b k r
    constructor
    · intro hl; exact (listed_key hi' hy hys hl).symm
    · rintro ⟨h1, h2⟩
      exact hUf.listed hi' cp.vault ((key_iff hi' hy hys k).mp h1) h2 b

end MVault.W
