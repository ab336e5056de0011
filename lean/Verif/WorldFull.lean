import Mathlib.Data.List.Perm.Subperm
import Verif.PropsLookup
/-
When are the lookup structures of a key complete? They lose entries of records an operation was not about when records share
values: erasing a record removes all entries with its value from the ordered index (Vault.hpp line 496), `SetData` removes all
entries with the old value from both (lines 81 and 102).
-/
set_option linter.unusedSectionVars false
set_option linter.unusedSimpArgs false
namespace MVault.W
variable {K V Ty : Type} [LinearOrder K] [LinearOrder V] [Typed V Ty] [DecidableEq Ty]
variable {own home : Nat → Nat}

/-- No other record of vault `o` has the value of record `r` for key `k`. -/
def Alone (w : World K V Ty) (o r : Nat) (k : K) : Prop := ∀ r' ∈ members w o, r' ≠ r → value w r' k ≠ value w r k

instance (w : World K V Ty) (o r : Nat) (k : K) : Decidable (Alone w o r k) := by unfold Alone; infer_instance

/-- The operation does not erase from vault `o`, or change through a reference, the value of a record for key `k` while another record of the
vault that stays there has the same value for `k`, nor moves another vault into `o`. -/
def Apart (o : Nat) (k : K) (w : World K V Ty) : Op K V Ty → Prop
  | .refSetData f k' _ => k' = k → through w f = some o → match target w f with | some r => Alone w o r k | none => True
  | .refSetDataMany f ps => through w f = some o → (ps.map (·.1)).count k ≤ 1 ∧
      (k ∈ ps.map (·.1) → match target w f with | some r => Alone w o r k | none => True)
  | .eraseRef o' f => o' = o → match target w f with | some r => Alone w o r k | none => True
  | .eraseKV o' k' v => o' = o → ∀ r ∈ members w o, value w r k' = some v → Alone w o r k
  | .eraseManyKV o' k' v n => o' = o →
      (k' = k ∧ (members w o).countP (fun r => decide (value w r k = some v)) ≤ max n 1) ∨
      ∀ r ∈ members w o, value w r k' = some v → Alone w o r k
  | .vaultMoveNew _ => o ≠ w.nextO
  | .vaultMoveAssign o' a => o' = o → a = o
  | _ => True

instance (o : Nat) (k : K) (w : World K V Ty) (op : Op K V Ty) : Decidable (Apart o k w op) := by
  cases op <;> simp only [Apart] <;> (try infer_instance)
  all_goals cases target w _ <;> infer_instance

/-- Both indices list every record. -/
def CFull (cell : Nat → Option V) (recs : List Nat) (c : Col V Ty) : Prop :=
  ∀ r ∈ recs, ∀ v, cell r = some v → (v, r) ∈ c.hash ∧ (v, r) ∈ c.ord

/-- The indices of key `k` of vault `o`, if it has the key, list every record of the vault. -/
def FullAt (w : World K V Ty) (o : Nat) (k : K) : Prop :=
  ∀ vo c, w.getObj o = some vo → vo.isSet = false → mget vo.cols k = some c → CFull (fun r => cellOf w r k) vo.recs c

theorem ColOk.full {cell : Nat → Option V} {recs : List Nat} {c : Col V Ty} (h : ColOk cell recs c) (h1 : c.dropH = false) (h2 : c.dropO = false) : CFull cell recs c :=
  fun r hr v hv => ⟨h.hashC h1 r hr v hv, h.ordC h2 r hr v hv⟩

theorem ColOk.fullU {cell : Nat → Option V} {recs : List Nat} {c : Col V Ty} (h : ColOk cell recs c) (hu : c.multi = false) : CFull cell recs c :=
  h.full (h.uniq hu).1 (h.uniq hu).2.1

theorem Kept.full {w w' : World K V Ty} {o : Nat} {k : K} (h : Kept w w' o) (hf : FullAt w o k) : FullAt w' o k := by
  intro vo' c ho' hs hc r hr v hv
  obtain ⟨⟨vo, vo1, h1, h2, h3, h4⟩, h5, _⟩ := h
  rw [ho'] at h3; cases h3
  rw [h4] at hc hr
  have hr0 : r ∈ members w o := by rw [members_eq h1]; exact hr
  refine hf vo c h1 h2 hc r hr v ?_
  have := h5 r hr0 k
  rw [value_eq, value_eq] at this
  show cellOf w r k = some v
  rw [← this]; exact hv

/-- The vault's records and this key's indices are the same. -/
theorem FullAt.of {w w' : World K V Ty} {o : Nat} {k : K} {vo vo' : Obj K V Ty} (hf : FullAt w o k) (ho : w.getObj o = some vo) (hs : vo.isSet = false)
    (ho' : w'.getObj o = some vo') (hr : ∀ r ∈ vo'.recs, r ∈ vo.recs) (hc : mget vo'.cols k = mget vo.cols k)
    (hv : ∀ r ∈ vo'.recs, cellOf w' r k = cellOf w r k) : FullAt w' o k := by
  intro vo1 c h1 _ hk r hrr v hcell
  rw [ho'] at h1; cases h1
  exact hf vo c ho hs (by rw [← hc]; exact hk) r (hr r hrr) v (by show cellOf w r k = some v; rw [← hv r hrr]; exact hcell)

theorem Col.add_multi_mem (c : Col V Ty) (hm : c.multi = true) (v : V) (r : Nat) (e : V × Nat) :
    (e ∈ (c.add v r).1.hash ↔ e ∈ c.hash ∨ e = (v, r)) ∧ (e ∈ (c.add v r).1.ord ↔ e ∈ c.ord ∨ e = (v, r)) := by
  unfold Col.add hashEmplace ordEmplace
  simp only [hm, Bool.true_eq_false, false_and, if_false, List.mem_append, List.mem_singleton, mem_ordInsert]
  exact ⟨trivial, Or.comm⟩

theorem cell_of_step {w w' : World K V Ty} {upd : Nat → List (K × V) → List (K × V)} {o : Nat} {vo' : Obj K V Ty} (st : VStep w w' o vo' upd)
    {r : Nat} {x : Rec K V} (hx : w.getRec r = some x) (hv : x.valid = true) (k : K) : cellOf w' r k = mget (upd r x.data) k := by
  obtain ⟨y, hy, _, _, hd⟩ := st.recTo r x hx
  simp [cellOf, hy, hd hv]

theorem CFull.setVal {cell cell' : Nat → Option V} {recs : List Nat} {c c' : Col V Ty} (hok : ColOk cell recs c) (hf : CFull cell recs c) {old new : V} {r : Nat}
    (hr : r ∈ recs) (ho : cell r = some old) (hs : c.setVal old new r = some c') (ha : ∀ r' ∈ recs, r' ≠ r → cell r' ≠ some old)
    (hc : ∀ r' ∈ recs, r' ≠ r → cell' r' = cell r') (hcr : cell' r = some new) : CFull cell' recs c' := by
  have hm : c.multi = true := by
    by_contra hm
    rw [hok.setVal_unique (by simpa using hm) hr ho] at hs; cases hs
  unfold Col.setVal at hs
  rw [if_neg (by simp [hm])] at hs
  simp only [Option.some.injEq] at hs
  subst hs
  intro r' hr' v hv
  simp only [hashEmplace, ordEmplace, hm, Bool.true_eq_false, false_and, if_false, List.mem_append, List.mem_singleton, mem_ordInsert]
  by_cases e : r' = r
  · subst e; rw [hcr] at hv; cases hv; exact ⟨.inr rfl, .inl rfl⟩
  · rw [hc r' hr' e] at hv
    obtain ⟨a, b⟩ := hf r' hr' v hv
    have hne : v ≠ old := by rintro rfl; exact ha r' hr' e hv
    constructor
    · left; split
      · exact List.mem_filter.mpr ⟨a, by simpa using hne⟩
      · exact a
    · right; split
      · exact List.mem_filter.mpr ⟨b, by simpa using hne⟩
      · exact b

/-- One `SetData`. -/
theorem refSetData_full {env : Env} {w w' : World K V Ty} {f o : Nat} {k k' : K} {v : V} {res : Res K} (hi : Inv own home w) (hf : FullAt w o k)
    (ho : isVault w o = true) (ha : k' = k → through w f = some o → ∀ r, target w f = some r → Alone w o r k)
    (h : refSetData env w f k' v = some (w', res)) : FullAt w' o k := by
  by_cases hthr : through w f = some o
  swap
  · exact (refSetData_kept hi h ho hthr).full hf
  obtain ⟨ref, hfr, h | ⟨r, o', oo, x, hp, hvl, hoo, hx, hxv, ⟨_, h⟩ | ⟨hs, hown, _, ⟨h, _⟩ | ⟨_, h⟩⟩⟩⟩ := refSetData_spec hi h
  · rw [h.1]; exact hf
  · exact (h.sf.kept hi.v ho).full hf
  · rw [h]; exact hf
  · rw [through_eq hfr, hvl] at hthr; cases hthr
    obtain ⟨c, c', old, hc, hold, hsv, hobj⟩ := h.idx
    obtain ⟨y, hy, _, _, hyd⟩ := h.here
    obtain ⟨vo0, hvo0, _, hrm⟩ := hi.v.val r x hx hxv
    rw [hown, hoo] at hvo0; cases hvo0
    have hcell : ∀ r' ∈ oo.recs, r' ≠ r → cellOf w' r' k = cellOf w r' k := by
      intro r' hr' hne
      obtain ⟨_, z, hz, hzv⟩ := hi.v.mem o oo hoo hs r' hr'
      obtain ⟨z', hz', _, _, hd⟩ := (h.recs r' hne).to hz
      simp [cellOf, hz, hz', hd hzv]
    by_cases e : k' = k
    · subst e
      have hal := ha rfl (by rw [through_eq hfr]; exact hvl) r (by rw [target_eq hfr]; exact hp)
      intro vo1 c1 hvo1 _ hc1
      rw [hobj] at hvo1; cases hvo1
      simp only [mget_mput, if_true, Option.some.injEq] at hc1
      subst hc1
      have hold' : cellOf w r k' = some old := by simp [cellOf, hx, hold]
      refine CFull.setVal ((hi.v.vok o oo hoo hs).cols k' c hc) (hf oo c hoo hs hc) hrm hold' hsv ?_ hcell (by simp [cellOf, hy, hyd, mget_mput])
      intro r' hr' hne
      have := hal r' (by rw [members_eq hoo]; exact hr') hne
      rw [value_eq, value_eq, hold'] at this; exact this
    · refine hf.of hoo hs hobj (fun _ h => h) (by simp [mget_mput, e]) ?_
      intro r' hr'
      by_cases e' : r' = r
      · subst e'; simp [cellOf, hx, hy, hyd, mget_mput, e]
      · exact hcell r' hr' e'

/-- `SetData` for another key changes neither the value nor who is alone. -/
theorem refSetData_other {env : Env} {w w' : World K V Ty} {f o : Nat} {k k' : K} {v : V} {res : Res K} (hi : Inv own home w)
    (ho : isVault w o = true) (hne : k' ≠ k) (h : refSetData env w f k' v = some (w', res)) :
    isVault w' o = true ∧ members w' o = members w o ∧ ∀ r ∈ members w o, value w' r k = value w r k := by
  by_cases hthr : through w f = some o
  swap
  · have kp := refSetData_kept hi h ho hthr
    exact ⟨kp.vault, kp.same.members, fun r hr => kp.val r hr k⟩
  obtain ⟨ref, hfr, h | ⟨r, o', oo, x, hp, hvl, hoo, hx, hxv, ⟨_, h⟩ | ⟨hs, hown, _, ⟨h, _⟩ | ⟨_, h⟩⟩⟩⟩ := refSetData_spec hi h
  · rw [h.1]; exact ⟨ho, rfl, fun _ _ => rfl⟩
  · have kp := h.sf.kept hi.v ho
    exact ⟨kp.vault, kp.same.members, fun r hr => kp.val r hr k⟩
  · rw [h]; exact ⟨ho, rfl, fun _ _ => rfl⟩
  · rw [through_eq hfr, hvl] at hthr; cases hthr
    obtain ⟨c, c', old, hc, hold, hsv, hobj⟩ := h.idx
    obtain ⟨y, hy, _, _, hyd⟩ := h.here
    refine ⟨isVault_iff.mpr ⟨_, hobj, hs⟩, by rw [members_eq hobj, members_eq hoo], ?_⟩
    intro r' hr'
    rw [members_eq hoo] at hr'
    by_cases e' : r' = r
    · subst e'; simp [value, hx, hy, hyd, mget_mput, hne]
    · obtain ⟨_, z, hz, hzv⟩ := hi.v.mem o oo hoo hs r' hr'
      obtain ⟨z', hz', _, _, hd⟩ := (h.recs r' e').to hz
      simp [value, hz, hz', hd hzv]

theorem refSetData_isVault {env : Env} {w w' : World K V Ty} {f o : Nat} {k' : K} {v : V} {res : Res K} (hi : Inv own home w)
    (ho : isVault w o = true) (h : refSetData env w f k' v = some (w', res)) : isVault w' o = true := by
  obtain ⟨ref, hfr, h | ⟨r, o', oo, x, hp, hvl, hoo, hx, hxv, ⟨_, h⟩ | ⟨hs, hown, _, ⟨h, _⟩ | ⟨_, h⟩⟩⟩⟩ := refSetData_spec hi h
  · rw [h.1]; exact ho
  · exact (h.sf.kept hi.v ho).vault
  · rw [h]; exact ho
  · obtain ⟨vo, hvo, hvs⟩ := isVault_iff.mp ho
    obtain ⟨c, c', old, hc, hold, hsv, hobj⟩ := h.idx
    by_cases e : o = o'
    · subst e; exact isVault_iff.mpr ⟨_, hobj, hs⟩
    · obtain ⟨z, hz, e1, _⟩ := (h.objs o e).to hvo
      exact isVault_iff.mpr ⟨z, hz, e1.trans hvs⟩

theorem refSetDataLoop_full {env : Env} {f o : Nat} {k : K} {ps : List (K × V)} : ∀ {w w' : World K V Ty} {res res' : Res K}, Inv own home w → FullAt w o k →
    isVault w o = true → (through w f = some o → (ps.map (·.1)).count k ≤ 1 ∧ (k ∈ ps.map (·.1) → ∀ r, target w f = some r → Alone w o r k)) →
    refSetDataLoop env f ps w res = some (w', res') → FullAt w' o k := by
  induction ps with
  | nil => intro w w' res res' hi hf ho ha h; simp [refSetDataLoop] at h; rw [← h.1]; exact hf
  | cons p ps ih =>
    obtain ⟨k', v⟩ := p
    intro w w' res res' hi hf ho ha h
    simp only [refSetDataLoop, Option.bind_eq_bind, Option.bind_eq_some_iff, Prod.exists] at h
    obtain ⟨w1, res1, h1, h⟩ := h
    have hi1 := refSetData_inv hi h1
    have hf1 : FullAt w1 o k := refSetData_full hi hf ho (fun e ht r hr => (ha ht).2 (by simp [e]) r hr) h1
    split at h
    · cases h; exact hf1
    · refine ih hi1 hf1 (refSetData_isVault hi ho h1) ?_ h
      intro ht
      have hr1 := refSetData_refs hi h1
      have ht0 : through w f = some o := by unfold through at ht ⊢; rw [← hr1]; exact ht
      obtain ⟨hc, ha⟩ := ha ht0
      simp only [List.map_cons, List.count_cons, beq_iff_eq] at hc
      refine ⟨by split at hc <;> omega, ?_⟩
      intro hk r hr
      have hpos : 0 < (ps.map (·.1)).count k := List.count_pos_iff.mpr hk
      have hne : k' ≠ k := by intro e; rw [if_pos e] at hc; omega
      have hr0 : target w f = some r := by unfold target at hr ⊢; rw [← hr1]; exact hr
      obtain ⟨_, hm, hv⟩ := refSetData_other (k := k) hi ho hne h1
      have := ha (by simp [hk]) r hr0
      obtain ⟨vo, hvo, hvs⟩ := isVault_iff.mp ho
      obtain ⟨ref, hfr, hp⟩ := target_some hr0
      have hown : own r = o := by
        have := hi.r.own ref (mem_of_get hfr) r o vo hp (by rw [through_eq hfr] at ht0; exact ht0) hvo
        rw [hvs] at this; simpa using this
      intro r' hr' hne'
      rw [hm] at hr'
      rw [hv r' hr']
      by_cases hrm : r ∈ members w o
      · rw [hv r hrm]; exact this r' hr' hne'
      · -- the record is not in the vault, so it is not valid and nothing was written
        obtain ⟨ref', hfr', h2 | ⟨r2, o2, oo2, x2, hp2, hvl2, hoo2, hx2, hxv2, _⟩⟩ := refSetData_spec hi h1
        · rw [h2.1]; exact this r' hr' hne'
        · exfalso
          rw [hfr] at hfr'; cases hfr'
          rw [hp] at hp2; cases hp2
          obtain ⟨vo3, b1, _, b3⟩ := hi.v.val r x2 hx2 hxv2
          rw [hown, hvo] at b1; cases b1
          exact hrm (by rw [members_eq hvo]; exact b3)

/-- Erasing records. -/
theorem Erased.full {w w' : World K V Ty} {o : Nat} {k : K} {vo : Obj K V Ty} {l : List Nat} (h : Erased w w' o vo l) (hi : Inv own home w)
    (ho : w.getObj o = some vo) (hs : vo.isSet = false) (hf : FullAt w o k)
    (ha : ∀ r ∈ l, ∀ r' ∈ vo.recs, r' ∉ l → cellOf w r' k ≠ cellOf w r k) : FullAt w' o k := by
  intro vo' c' ho' _ hc' r hr v hv
  obtain ⟨cols, h1, h2⟩ := h.obj
  rw [ho'] at h1; cases h1
  have := h2 k
  simp only at hc'
  rw [hc', Option.map_some] at this
  obtain ⟨c, hc, _⟩ := Option.map_eq_some_iff.mp this.symm
  have sh := h.shr _ ho' k c c' hc hc'
  obtain ⟨hr1, hr2⟩ := List.mem_filter.mp hr
  have hr2 : r ∉ l := by simpa using hr2
  obtain ⟨_, x, hx, hxv⟩ := hi.v.mem o vo ho hs r hr1
  obtain ⟨y, hy, _, _, hd⟩ := (h.recs r hr2).to hx
  have hv0 : cellOf w r k = some v := by simpa [cellOf, hx, hy, hd hxv] using hv
  obtain ⟨a, b⟩ := hf vo c ho hs hc r hr1 v hv0
  refine ⟨sh.hashK _ a hr2, sh.ordK _ b ?_⟩
  intro r0 hr0 hm
  have := ((hi.v.vok o vo ho hs).cols k c hc).ordS v r0 hm
  exact ha r0 hr0 r hr1 hr2 (by rw [hv0]; exact this.2.symm)

/-- The ghost flags of all keys of an object are clear. -/
def Unflagged (w : World K V Ty) (o : Nat) : Prop := ∀ vo, w.getObj o = some vo → ∀ k c, mget vo.cols k = some c → c.dropH = false ∧ c.dropO = false

theorem Unflagged.full {w : World K V Ty} {o : Nat} (h : Unflagged w o) (hi : Inv own home w) (k : K) : FullAt w o k := by
  intro vo c ho hs hc
  exact ((hi.v.vok o vo ho hs).cols k c hc).full (h vo ho k c hc).1 (h vo ho k c hc).2

theorem copyOne_unflagged {o r : Nat} {w w' : World K V Ty} (hu : Unflagged w o) (h : copyOne o w r = some w') : Unflagged w' o := by
  simp only [copyOne, Option.bind_eq_bind, Option.bind_eq_some_iff, Option.some.injEq] at h
  obtain ⟨x, hx, vo, ho, rfl⟩ := h
  intro vo' hvo' k c hc
  rw [getObj_putObj_self] at hvo'
  cases hvo'
  simp only [addCols, mget_mmap, Option.map_eq_some_iff] at hc
  obtain ⟨c0, hc0, rfl⟩ := hc
  obtain ⟨_, _, _, e1, e2⟩ := Col.add_shape c0 (c0.addVal x.data k) w.nextR
  obtain ⟨a, b⟩ := hu vo ho k c0 hc0
  exact ⟨e1.trans a, e2.trans b⟩

theorem copyInto_unflagged {env : Env} {w w' : World K V Ty} {o a : Nat} {vo ao : Obj K V Ty} (ho : w.getObj o = some vo) (ha : w.getObj a = some ao)
    (hr : vo.recs = []) (hc : vo.cols = []) (h : copyInto env w o a = some w') : Unflagged w' o := by
  have e : w.putObj o vo = w := by
    cases w; simp only [World.putObj]; congr 1
    exact mput_same _ _ _ ho
  rw [← e] at h
  simp only [copyInto, Option.bind_eq_bind, copyKeys_eq hr, getObj_putObj_self, Option.bind_some, putObj_putObj, Option.bind_eq_some_iff] at h
  obtain ⟨ao1, ha1, h⟩ := h
  refine loop_inv (fun w => Unflagged w o) _ _ _ _ (fun r _ b b' hb hh => copyOne_unflagged hb hh) ?_ h
  intro vo' hvo' k c hc'
  rw [getObj_putObj_self] at hvo'; cases hvo'
  simp only [(withKeys_spec ao1.cols vo).2.2.2.2.2.2.1, hc, mget, Option.none_or, Option.map_eq_some_iff] at hc'
  obtain ⟨c0, _, rfl⟩ := hc'
  exact ⟨rfl, rfl⟩

/-- An ordinary operation that keeps shared values apart keeps the indices complete. -/
theorem step_full {env : Env} {w w' : World K V Ty} {op : Op K V Ty} {o : Nat} {k : K} (hi : Inv own home w) (hg : Ordinary home w op)
    (hai : AI w) (ha : Apart o k w op) (hf : FullAt w o k) (h : step env w op = some w') : FullAt w' o k := by
  by_cases ho : isVault w o = true
  swap
  · -- not a vault: only a new vault can appear there
    obtain ⟨own', hi'⟩ := step_inv hi hg h
    by_cases hk : o ∈ keyOps w op
    swap
    · intro vo c h1 h2 _
      exact absurd (isVault_iff.mpr ((step_any hai h).before o vo h1 h2 hk)) ho
    cases op <;> simp only [keyOps, List.mem_singleton, List.not_mem_nil] at hk
    case newVault =>
      subst hk; cases h
      intro vo c h1 h2 h3
      rw [newVault_obj] at h1; cases h1; cases h3
    case vaultCopyNew a =>
      subst hk
      obtain ⟨⟨ao, ha', has⟩, h⟩ := onVault_some h
      have hne : w.nextO ≠ a := by have := hi.v.ltO a ao ha'; omega
      refine (copyInto_unflagged (w := newVault w) (ao := ao) (newVault_obj w) ?_ rfl rfl h).full hi' k
      · show mget (mput w.objs w.nextO Obj.newVault) a = some ao
        rw [mget_mput, if_neg hne]; exact ha'
    case vaultMoveNew a =>
      rcases List.mem_cons.mp hk with e | e
      · exact absurd e ha
      · (first | subst e | (have e := List.mem_singleton.mp e; subst e)); exact absurd (isVault_iff.mpr (onVault_some h).1) ho
    case vaultMoveAssign o' a =>
      rcases List.mem_cons.mp hk with e | e
      · (first | subst e | (have e := List.mem_singleton.mp e; subst e)); exact absurd (isVault_iff.mpr (onVault_some h).1) ho
      · (first | subst e | (have e := List.mem_singleton.mp e; subst e)); exact absurd (isVault_iff.mpr (onVault_some (onVault_some h).2).1) ho
    all_goals
      subst hk
      exact absurd (isVault_iff.mpr (onVault_some h).1) ho
  by_cases ht : o ∈ touched w op
  swap
  · exact (step_kept hi hg h ho ht).full hf
  obtain ⟨vo, hvo, hs⟩ := isVault_iff.mp ho
  have hvok := hi.v.vok o vo hvo hs
  cases op <;> simp only [touched, List.mem_singleton, List.not_mem_nil] at ht
  case refSetData f k' v =>
    obtain ⟨res, h⟩ := map_fst h
    refine refSetData_full hi hf ho (fun e e' r hr => ?_) h
    simp only [Apart] at ha
    have := ha e e'
    rw [hr] at this; exact this
  case refSetDataMany f ps =>
    obtain ⟨res, h⟩ := map_fst h
    simp only [refSetDataMany, Option.bind_eq_bind, Option.bind_eq_some_iff] at h
    obtain ⟨ref, hfr, o', ho', oo, hoo, h⟩ := h
    refine refSetDataLoop_full hi hf ho (fun e' => ?_) h
    simp only [Apart] at ha
    refine ⟨(ha e').1, fun hk r hr => ?_⟩
    have := (ha e').2 hk
    rw [hr] at this; exact this
  case addKey o' k' d =>
    subst ht
    obtain ⟨_, h⟩ := onVault_some h
    obtain ⟨res, h⟩ := map_fst h
    rcases addKey_spec hi hvo hs h with ⟨rfl, _⟩ | ⟨_, hn, i, c, _, _, _, d1, d2, st⟩
    · exact hf
    · by_cases e : k' = k
      · subst e
        intro vo1 c1 h1 h2 h3
        have := (i.v.vok _ vo1 h1 h2).cols k' c1 h3
        rw [st.obj] at h1; cases h1
        simp only [Obj.withKey, mget_mput, if_true, Option.some.injEq] at h3
        subst h3
        exact this.full d1 d2
      · refine hf.of hvo hs st.obj (fun _ h => h) (by simp [Obj.withKey, mget_mput, e]) ?_
        intro r hr
        obtain ⟨_, x, hx, hxv⟩ := hi.v.mem _ vo hvo hs r hr
        rw [cell_of_step st hx hxv]
        simp only [cellOf, hx, Option.bind_some]
        split <;> simp [mget_mput, e]
  case addUniqueKey o' k' t noFn fn =>
    subst ht
    obtain ⟨_, h⟩ := onVault_some h
    obtain ⟨res, h⟩ := map_fst h
    rcases addUniqueKey_spec hi hvo hs h with ⟨rfl, _⟩ | ⟨rfl, _⟩ | ⟨rfl, _⟩ | ⟨_, hn, _, i, _, c, _, hm, st⟩
    · exact hf
    · exact hf
    · exact hf
    · by_cases e : k' = k
      · subst e
        intro vo1 c1 h1 h2 h3
        have := (i.v.vok _ vo1 h1 h2).cols k' c1 h3
        rw [st.obj] at h1; cases h1
        simp only [Obj.withKey, mget_mput, if_true, Option.some.injEq] at h3
        subst h3
        exact this.fullU hm
      · refine hf.of hvo hs st.obj (fun _ h => h) (by simp [Obj.withKey, mget_mput, e]) ?_
        intro r hr
        obtain ⟨_, x, hx, hxv⟩ := hi.v.mem _ vo hvo hs r hr
        rw [cell_of_step st hx hxv]
        simp only [cellOf, hx, Option.bind_some]
        split <;> simp [mget_mput, e]
  case updateKey o' k' d =>
    subst ht
    obtain ⟨_, h⟩ := onVault_some h
    obtain ⟨res, h⟩ := map_fst h
    rcases (updateKey_spec hi hvo hs h).2 with ⟨rfl, _⟩ | ⟨_, _, _, rfl, _⟩ | ⟨_, _, _, _, rfl, _⟩ | ⟨_, _, _, _, _, rfl⟩
    · exact hf
    · exact hf
    · exact hf
    · exact hf.of hvo hs (getObj_putObj_self _ _ _) (fun _ h => h) rfl (fun _ _ => rfl)
  case removeKey o' k' =>
    subst ht
    obtain ⟨_, h⟩ := onVault_some h
    obtain ⟨res, h⟩ := map_fst h
    rcases removeKey_spec hi hvo hs h with ⟨rfl, _⟩ | ⟨_, _, i, st⟩
    · exact hf
    · by_cases e : k' = k
      · subst e
        intro vo1 c1 h1 h2 h3
        rw [st.obj] at h1; cases h1
        simp [Obj.withoutKey, mget_mdel] at h3
      · refine hf.of hvo hs st.obj (fun _ h => h) (by simp [Obj.withoutKey, mget_mdel, e]) ?_
        intro r hr
        obtain ⟨_, x, hx, hxv⟩ := hi.v.mem _ vo hvo hs r hr
        rw [cell_of_step st hx hxv]
        simp only [cellOf, hx, Option.bind_some]
        split <;> simp [mget_mdel, e]
  case createRecord o' f ps =>
    subst ht
    obtain ⟨_, h⟩ := onVault_some h
    obtain ⟨res, h⟩ := map_fst h
    rcases createRecord_spec hi hvo hs h with ⟨rfl, _⟩ | ⟨_, _, rfl, _⟩ | ⟨data, w1, cols, _, _, _, hcols, e1, st, i, _⟩
    · exact hf
    · exact hf
    · intro vo1 c1 h1 h2 h3
      have hok := (i.v.vok _ vo1 h1 h2).cols k c1 h3
      rw [st.rf.obj, e1, getObj_putObj_self] at h1; cases h1
      dsimp only at h3 hok ⊢
      rw [hcols, Option.map_eq_some_iff] at h3
      obtain ⟨c, hc, rfl⟩ := h3
      by_cases hm : c.multi = true
      · intro r hr v hv
        rw [(Col.add_multi_mem c hm _ _ _).1, (Col.add_multi_mem c hm _ _ _).2]
        rcases List.mem_append.mp hr with hr | hr
        · obtain ⟨_, x, hx, hxv⟩ := hi.v.mem _ vo hvo hs r hr
          have hlt := hi.v.ltR r x hx
          have hx1 : w1.getRec r = some x := by
            subst e1
            show mget (mput w.recs w.nextR _) r = some x
            rw [mget_mput, if_neg (by omega)]; exact hx
          obtain ⟨y, hy, d, _⟩ := st.rf.recTo' hx1 hxv
          have hv0 : cellOf w r k = some v := by simpa [cellOf, hx, hy, d] using hv
          obtain ⟨a, b⟩ := hf vo c hvo hs hc r hr v hv0
          exact ⟨.inl a, .inl b⟩
        · simp only [List.mem_singleton] at hr; subst hr
          have hx1 : w1.getRec w.nextR = some ⟨data, true, 0, []⟩ := by
            subst e1
            show mget (mput w.recs w.nextR _) w.nextR = some _
            rw [mget_mput, if_pos rfl]
          obtain ⟨y, hy, d, _⟩ := st.rf.recTo' hx1 rfl
          have hd : mget data k = some v := by simpa [cellOf, hy, d] using hv
          obtain ⟨v', hv', ht⟩ := hok.typed w.nextR hr
          have hv2 : cellOf w' w.nextR k = some v := hv
          have : v' = v := by rw [hv2] at hv'; exact (Option.some.inj hv').symm
          subst this
          have : c.addVal data k = v' := by
            unfold Col.addVal readOr; rw [hd]
            rw [(Col.add_shape c _ _).1] at ht
            simp [ht]
          rw [this]; exact ⟨.inr rfl, .inr rfl⟩
      · exact hok.fullU (by rw [(Col.add_shape c _ _).2.1]; simpa using hm)
  case createRow o' ps =>
    subst ht
    obtain ⟨_, h⟩ := onVault_some h
    obtain ⟨res, h⟩ := map_fst h
    rcases createRow_spec hi hvo hs h with ⟨rfl, _⟩ | ⟨_, _, rfl, _⟩ | ⟨data, w1, cols, _, _, _, hcols, e1, st, i, _⟩
    · exact hf
    · exact hf
    · intro vo1 c1 h1 h2 h3
      have hok := (i.v.vok _ vo1 h1 h2).cols k c1 h3
      rw [st.rf.obj, e1, getObj_putObj_self] at h1; cases h1
      dsimp only at h3 hok ⊢
      rw [hcols, Option.map_eq_some_iff] at h3
      obtain ⟨c, hc, rfl⟩ := h3
      by_cases hm : c.multi = true
      · intro r hr v hv
        rw [(Col.add_multi_mem c hm _ _ _).1, (Col.add_multi_mem c hm _ _ _).2]
        rcases List.mem_append.mp hr with hr | hr
        · obtain ⟨_, x, hx, hxv⟩ := hi.v.mem _ vo hvo hs r hr
          have hlt := hi.v.ltR r x hx
          have hx1 : w1.getRec r = some x := by
            subst e1
            show mget (mput w.recs w.nextR _) r = some x
            rw [mget_mput, if_neg (by omega)]; exact hx
          obtain ⟨y, hy, d, _⟩ := st.rf.recTo' hx1 hxv
          have hv0 : cellOf w r k = some v := by simpa [cellOf, hx, hy, d] using hv
          obtain ⟨a, b⟩ := hf vo c hvo hs hc r hr v hv0
          exact ⟨.inl a, .inl b⟩
        · simp only [List.mem_singleton] at hr; subst hr
          have hx1 : w1.getRec w.nextR = some ⟨data, true, 0, []⟩ := by
            subst e1
            show mget (mput w.recs w.nextR _) w.nextR = some _
            rw [mget_mput, if_pos rfl]
          obtain ⟨y, hy, d, _⟩ := st.rf.recTo' hx1 rfl
          have hd : mget data k = some v := by simpa [cellOf, hy, d] using hv
          obtain ⟨v', hv', ht⟩ := hok.typed w.nextR hr
          have hv2 : cellOf w' w.nextR k = some v := hv
          have : v' = v := by rw [hv2] at hv'; exact (Option.some.inj hv').symm
          subst this
          have : c.addVal data k = v' := by
            unfold Col.addVal readOr; rw [hd]
            rw [(Col.add_shape c _ _).1] at ht
            simp [ht]
          rw [this]; exact ⟨.inr rfl, .inr rfl⟩
      · exact hok.fullU (by rw [(Col.add_shape c _ _).2.1]; simpa using hm)
  case eraseRef o' f =>
    subst ht
    obtain ⟨_, h⟩ := onVault_some h
    obtain ⟨res, h⟩ := map_fst h
    obtain ⟨ref, hfr, hh⟩ := eraseRef_vault hi hvo hs h
    rcases hh with ⟨rfl, _⟩ | ⟨r, hp, _, hr, i, er⟩
    · exact hf
    · refine er.full hi hvo hs hf ?_
      simp only [Apart] at ha
      have := ha trivial
      rw [target_eq hfr, hp] at this
      intro r0 h0 r' hr' hn
      simp only [List.mem_singleton] at h0 hn; subst h0
      exact this r' (by rw [members_eq hvo]; exact hr') hn
  case eraseKV o' k' v =>
    subst ht
    obtain ⟨_, h⟩ := onVault_some h
    obtain ⟨res, h⟩ := map_fst h
    rcases eraseKV_vault hi hvo hs h with ⟨rfl, _⟩ | ⟨c, _, _, ⟨rfl, _⟩ | ⟨r, l, _, _, hr, hcell, i, er⟩⟩
    · exact hf
    · exact hf
    · refine er.full hi hvo hs hf ?_
      simp only [Apart] at ha
      have := ha trivial r (by rw [members_eq hvo]; exact hr) hcell
      intro r0 h0 r' hr' hn
      simp only [List.mem_singleton] at h0 hn; subst h0
      exact this r' (by rw [members_eq hvo]; exact hr') hn
  case eraseManyKV o' k' v n =>
    subst ht
    obtain ⟨_, h⟩ := onVault_some h
    obtain ⟨res, h⟩ := map_fst h
    rcases eraseManyKV_vault hi hvo hs h with ⟨rfl, _⟩ | ⟨c, _, hc, ⟨rfl, _⟩ | ⟨_, _, i, er⟩⟩
    · exact hf
    · exact hf
    · refine er.full hi hvo hs hf ?_
      obtain ⟨hN, hm⟩ := equalRange_vault (env := env) hi hvo hs hc v
      simp only [Apart] at ha
      intro r0 h0 r' hr' hn
      obtain ⟨h1, h2⟩ := hm r0 (List.mem_of_mem_take h0)
      rcases ha trivial with ⟨rfl, hle⟩ | ha
      · -- every record with the value is erased
        intro e
        rw [h2] at e
        have hall : r' ∈ equalRange env c v := by
          unfold equalRange
          rw [(env.isPerm _).mem_iff, List.mem_map]
          exact ⟨(v, r'), List.mem_filter.mpr ⟨(hf vo c hvo hs hc r' hr' v e).1, by simp⟩, rfl⟩
        have hlen : (equalRange env c v).length ≤ max n 1 := by
          refine le_trans ?_ hle
          rw [members_eq hvo, List.countP_eq_length_filter]
          refine (List.Nodup.subperm hN ?_).length_le
          intro r hr
          obtain ⟨a, b⟩ := hm r hr
          exact List.mem_filter.mpr ⟨a, decide_eq_true (by simpa [value_eq] using b)⟩
        rw [List.take_of_length_le hlen] at hn
        exact hn hall
      · exact ha r0 (by rw [members_eq hvo]; exact h1) h2 r' (by rw [members_eq hvo]; exact hr') (by rintro rfl; exact hn h0)
  case dropData o' =>
    subst ht
    obtain ⟨_, h⟩ := onVault_some h
    obtain ⟨_, _, ho', _⟩ := dropData_spec hi hvo hs h
    intro vo1 c1 h1 h2 h3 r hr
    rw [ho'] at h1; cases h1; cases hr
  case dropVault o' =>
    subst ht
    obtain ⟨_, h⟩ := onVault_some h
    obtain ⟨_, ho', _⟩ := dropVault_spec hi hvo hs h
    intro vo1 c1 h1 h2 h3 r hr
    rw [ho'] at h1; cases h1; cases hr
  case destroyVault o' =>
    subst ht
    obtain ⟨_, h⟩ := onVault_some h
    simp only [destroyVault, Option.bind_eq_bind, Option.bind_eq_some_iff, Option.some.injEq] at h
    obtain ⟨w1, h1, rfl⟩ := h
    intro vo1 c1 h1
    simp [World.getObj, mget_mdel] at h1
  case vaultAssign o' a =>
    subst ht
    obtain ⟨_, h⟩ := onVault_some h
    obtain ⟨⟨ao, ha', has⟩, h⟩ := onVault_some h
    obtain ⟨own', i'⟩ := vaultAssign_inv hi hvo hs ha' has (fun hne => by
      rcases hg with e | hg
      · exact absurd e hne
      · exact hg ao ha') h
    unfold vaultAssign at h
    split at h
    · cases h; exact hf
    · rename_i hne
      simp only [Option.bind_eq_bind, Option.bind_eq_some_iff] at h
      obtain ⟨w1, h1, h2⟩ := h
      obtain ⟨i1, ho1, hO, hR, _⟩ := dropVault_spec hi hvo hs h1
      obtain ⟨ao1, ha1, e1, e2⟩ := (hO a (Ne.symm hne)).to ha'
      exact (copyInto_unflagged ho1 ha1 rfl rfl h2).full i' k
  case vaultMoveNew a =>
    subst ht
    obtain ⟨_, h⟩ := onVault_some h
    simp only [vaultMoveNew, moveInto, Option.bind_eq_bind, Option.bind_eq_some_iff, Option.some.injEq] at h
    obtain ⟨ao, _, vo', _, rfl⟩ := h
    intro vo1 c1 h1 _ h3
    rw [getObj_putObj_self] at h1; cases h1; cases h3
  case vaultMoveAssign o' a =>
    obtain ⟨_, h⟩ := onVault_some h
    obtain ⟨_, h⟩ := onVault_some h
    unfold vaultMoveAssign at h
    split at h
    · cases h; exact hf
    · rename_i hne
      have e : o = a := by
        rcases List.mem_cons.mp ht with e | e
        · exact absurd ((ha e.symm).trans e) (Ne.symm hne)
        · simpa using e
      subst e
      simp only [moveInto, Option.bind_eq_bind, Option.bind_eq_some_iff, Option.some.injEq] at h
      obtain ⟨w1, _, ao, _, vo', _, rfl⟩ := h
      intro vo1 c1 h1 _ h3
      rw [getObj_putObj_self] at h1; cases h1; cases h3

/-- Ordinary operations that keep values apart for the keys of `ks` in vault `o`. -/
def OrdinaryApart (o : Nat) (ks : List K) (home : Nat → Nat) (w : World K V Ty) (op : Op K V Ty) : Prop :=
  Ordinary home w op ∧ ∀ k ∈ ks, Apart o k w op

theorem OrdinaryApart.reach {o : Nat} {ks : List K} {w : World K V Ty} (h : HReach (OrdinaryApart o ks) home w) : HReach Ordinary home w :=
  h.mono fun _ _ _ g => g.1

theorem reach_full {o : Nat} {ks : List K} {w : World K V Ty} (h : HReach (OrdinaryApart o ks) home w) {k : K} (hk : k ∈ ks) : FullAt w o k := by
  induction h with
  | init => intro vo c h; cases h
  | step w w' env op hr hg hs ih =>
    obtain ⟨own, hi⟩ := reach_inv (OrdinaryApart.reach hr)
    exact step_full hi hg.1 (reach_ai hr.any) (hg.2 k hk) ih hs
  | reuse _ _ _ _ _ ih => exact ih

/-- A history with a guard that can be computed. -/
def runD (g : World K V Ty → Op K V Ty → Bool) (w : World K V Ty) : List (Env × Op K V Ty) → Option (World K V Ty)
  | [] => some w
  | (env, op) :: l => if g w op = true then (step env w op).bind (fun w' => runD g w' l) else none

theorem runD_reach {g : World K V Ty → Op K V Ty → Bool} {G : (Nat → Nat) → World K V Ty → Op K V Ty → Prop} (hg : ∀ w op, g w op = true → G home w op)
    (l : List (Env × Op K V Ty)) : ∀ {w w' : World K V Ty}, HReach G home w → runD g w l = some w' → HReach G home w' := by
  induction l with
  | nil => intro w w' hw h; simp only [runD, Option.some.injEq] at h; exact h ▸ hw
  | cons p l ih =>
    obtain ⟨env, op⟩ := p
    intro w w' hw h
    simp only [runD] at h
    split at h
    · rename_i hg'
      obtain ⟨w1, h1, h2⟩ := Option.bind_eq_some_iff.mp h
      exact ih (.step w w1 env op hw (hg _ _ hg') h1) h2
    · cases h

/-- A history of ordinary operations with vault 0 that keep values of the keys `ks` apart. -/
def apartRun (ks : List Nat) (l : List DO) : Option DW :=
  runD (fun w op => ordinaryB (fun _ => 0) w op && decide (∀ k ∈ ks, Apart 0 k w op)) World.empty (l.map (Env.id, ·))

theorem apartRun_reach {ks : List Nat} {l : List DO} {w : DW} (h : apartRun ks l = some w) : HReach (OrdinaryApart 0 ks) (fun _ => 0) w :=
  runD_reach (fun w op h => by
    obtain ⟨h1, h2⟩ := Bool.and_eq_true _ _ ▸ h
    exact ⟨ordinaryB_sound h1, of_decide_eq_true h2⟩) _ .init h

end MVault.W
