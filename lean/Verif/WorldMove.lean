import Verif.WorldVault8
/-
Moving a vault nobody else uses keeps the invariant.
-/
set_option linter.unusedSectionVars false
set_option linter.unusedSimpArgs false
namespace MVault.W
variable {K V Ty : Type} [LinearOrder K] [LinearOrder V] [Typed V Ty] [DecidableEq Ty]
variable {own home : Nat → Nat}

/-- Nobody else uses vault `a`: no set was ever used with it and no reference refers to one of its records (Vault.cpp lines 261-314 do not
tell sets and references about the move). -/
def Untied (home : Nat → Nat) (w : World K V Ty) (a : Nat) : Prop :=
  (∀ s, s < w.nextO → home s ≠ a) ∧ ∀ f ∈ w.refs, ∀ r ao, f.ptr = some r → w.getObj a = some ao → r ∉ ao.recs

/-- What is used of `Untied`. -/
structure Free (home : Nat → Nat) (w : World K V Ty) (a : Nat) : Prop where
  sets : ∀ s so, w.getObj s = some so → so.isSet = true → home s ≠ a
  deps : ∀ r x s ao, w.getRec r = some x → s ∈ x.deps → w.getObj a = some ao → r ∉ ao.recs
  refs : ∀ f ∈ w.refs, ∀ r ao, f.ptr = some r → w.getObj a = some ao → r ∉ ao.recs

theorem Untied.free {w : World K V Ty} {a : Nat} {ao : Obj K V Ty} (hi : Inv own home w) (ha : w.getObj a = some ao) (has : ao.isSet = false)
    (h : Untied home w a) : Free home w a where
  sets s so h1 _ := h.1 s (hi.v.ltO s so h1)
  deps r x s ao' hx hs ha' hm := by
    rw [ha] at ha'; cases ha'
    obtain ⟨e, hl⟩ := hi.s.deps r x s hx hs
    obtain ⟨m1, y, m2, m3⟩ := hi.v.mem a ao ha has r hm
    rw [hx] at m2; cases m2
    exact h.1 s hl (by rw [← e m3]; exact m1)
  refs := h.2

theorem moveInto_inv {w w' : World K V Ty} {o a : Nat} {vo ao : Obj K V Ty} (hi : Inv own home w) (hne : o ≠ a)
    (ho : w.getObj o = some vo) (hs : vo.isSet = false) (hr : vo.recs = []) (hsets : vo.sets = [])
    (ha : w.getObj a = some ao) (has : ao.isSet = false) (hu : Free home w a) (h : moveInto w o a = some w') :
    Inv (fun r => if r ∈ ao.recs then o else own r) home w' := by
  simp only [moveInto, ha, ho, Option.bind_eq_bind, Option.bind_some, Option.some.injEq] at h
  have hvo := hi.v.vok o vo ho hs
  have hva := hi.v.vok a ao ha has
  have hown : ∀ r ∈ ao.recs, own r = a := fun r hr => (hi.v.mem a ao ha has r hr).1
  have hasets : ao.sets = [] := by
    cases e : ao.sets with
    | nil => rfl
    | cons s l =>
      obtain ⟨so, h1, h2, h3⟩ := hi.l.down a ao s ha has (by rw [e]; exact List.mem_cons_self)
      exact absurd ((hi.s.sets s so h1 h2).par a h3).symm (hu.sets s so h1 h2)
  have gO : ∀ o' y, w'.getObj o' = some y → (o' = a ∧ y = { ao with tmpl := [], cols := [], keysOrder := [], uniq := [], recs := [], sets := [] }) ∨
      (o' = o ∧ o' ≠ a ∧ y = { vo with tmpl := ao.tmpl, cols := ao.cols, keysOrder := ao.keysOrder, uniq := ao.uniq, recs := ao.recs, sets := ao.sets }) ∨
      (o' ≠ a ∧ o' ≠ o ∧ w.getObj o' = some y) := by
    intro o' y hy
    rw [← h, getObj_putObj, getObj_putObj] at hy
    by_cases e : a = o'
    · rw [if_pos e] at hy; cases hy; exact .inl ⟨e.symm, rfl⟩
    · rw [if_neg e] at hy
      by_cases e' : o = o'
      · rw [if_pos e'] at hy; cases hy; exact .inr (.inl ⟨e'.symm, Ne.symm e, rfl⟩)
      · rw [if_neg e'] at hy; exact .inr (.inr ⟨Ne.symm e, Ne.symm e', hy⟩)
  have gR : ∀ r, w'.getRec r = w.getRec r := fun r => by rw [← h]; rfl
  have gC : cellOf w' = cellOf w := by funext r k; simp only [cellOf, gR]
  have gF : w'.refs = w.refs := by rw [← h]; rfl
  have gnR : w'.nextR = w.nextR := by rw [← h]; rfl
  have gnO : w'.nextO = w.nextO := by rw [← h]; rfl
  have ga : w'.getObj a = some { ao with tmpl := [], cols := [], keysOrder := [], uniq := [], recs := [], sets := [] } := by
    rw [← h]; exact getObj_putObj_self _ _ _
  have gb : w'.getObj o = some { vo with tmpl := ao.tmpl, cols := ao.cols, keysOrder := ao.keysOrder, uniq := ao.uniq, recs := ao.recs, sets := ao.sets } := by
    rw [← h, getObj_putObj, if_neg (Ne.symm hne), getObj_putObj_self]
  have gn : ∀ o', o' ≠ a → o' ≠ o → w'.getObj o' = w.getObj o' := by
    intro o' h1 h2
    rw [← h, getObj_putObj, if_neg (Ne.symm h1), getObj_putObj, if_neg (Ne.symm h2)]
  have hlt : ∀ o' x, w'.getObj o' = some x → o' < w'.nextO := by
    intro o' x hx
    rw [gnO]
    rcases gO o' x hx with ⟨e, _⟩ | ⟨e, _, _⟩ | ⟨_, _, hy⟩
    · rw [e]; exact hi.v.ltO a ao ha
    · rw [e]; exact hi.v.ltO o vo ho
    · exact hi.v.ltO o' x hy
  have hset : ∀ s so, w'.getObj s = some so → so.isSet = true → s ≠ a ∧ s ≠ o ∧ w.getObj s = some so := by
    intro s so h1 h2
    rcases gO s so h1 with ⟨_, e⟩ | ⟨_, _, e⟩ | h3
    · rw [e] at h2; rw [has] at h2; cases h2
    · rw [e] at h2; rw [hs] at h2; cases h2
    · exact h3
  refine ⟨⟨?_, ?_, ?_, ?_, hlt⟩, ⟨?_, ?_, ?_, ?_, ?_⟩, ⟨?_, ?_, hlt, ?_, ?_⟩, ⟨?_, ?_⟩⟩
  · intro o' y hy hys
    rw [gC]
    rcases gO o' y hy with ⟨_, rfl⟩ | ⟨_, _, rfl⟩ | ⟨_, _, hy⟩
    · exact ⟨by simp [mget], by simp, by simp, by simp, by simp [mget], by simp, by simp [mget], by simp [mget], by simp [mget], hva.base, hva.par⟩
    · exact ⟨hva.cols, hva.nocol, hva.recsN, hva.keysN, hva.keysM, hva.uniqS, hva.uniqM, hva.tmplN, hva.tmplT, hvo.base, hvo.par⟩
    · exact hi.v.vok o' y hy hys
  · intro o' y hy hys r hrm
    rcases gO o' y hy with ⟨_, rfl⟩ | ⟨e, _, rfl⟩ | ⟨h1, h2, hy⟩
    · cases hrm
    · refine ⟨?_, by rw [gR]; exact (hi.v.mem a ao ha has r hrm).2⟩
      show (if r ∈ ao.recs then o else own r) = o'
      rw [if_pos hrm, e]
    · obtain ⟨e1, e2⟩ := hi.v.mem o' y hy hys r hrm
      refine ⟨?_, by rw [gR]; exact e2⟩
      show (if r ∈ ao.recs then o else own r) = o'
      rw [if_neg (fun hm => h1 (by rw [← e1]; exact hown r hm)), e1]
  · intro r x hx hv
    rw [gR] at hx
    obtain ⟨vo', h1, h2, h3⟩ := hi.v.val r x hx hv
    by_cases hm : r ∈ ao.recs
    · simp only [if_pos hm]; exact ⟨_, gb, hs, hm⟩
    · simp only [if_neg hm]
      by_cases e : own r = a
      · rw [e, ha] at h1; cases h1; exact absurd h3 hm
      by_cases e' : own r = o
      · rw [e', ho] at h1; cases h1; rw [hr] at h3; cases h3
      exact ⟨vo', by rw [gn _ e e']; exact h1, h2, h3⟩
  · intro r x hx; rw [gnR]; rw [gR] at hx; exact hi.v.ltR r x hx
  · intro r x hx; rw [gR] at hx; rw [hi.r.cnt r x hx]; simp only [refCount, gF]
  · intro r x hx hv; rw [gR] at hx; exact hi.r.inv r x hx hv
  · intro f hf r hp; rw [gF] at hf; rw [gR]; exact hi.r.live f hf r hp
  · intro f hf r o' oo hp hvl hoo
    rw [gF] at hf
    show (if r ∈ ao.recs then o else own r) = _
    rw [if_neg (hu.refs f hf r ao hp ha)]
    rcases gO o' oo hoo with ⟨rfl, rfl⟩ | ⟨rfl, _, rfl⟩ | ⟨_, _, hy⟩
    · exact hi.r.own f hf r o' ao hp hvl ha
    · exact hi.r.own f hf r o' vo hp hvl ho
    · exact hi.r.own f hf r o' oo hp hvl hy
  · intro f hf r hp; rw [gF] at hf; rw [gnO]; exact hi.r.vlt f hf r hp
  · intro s so h1 h2
    obtain ⟨_, _, h3⟩ := hset s so h1 h2
    have hk := hi.s.sets s so h3 h2
    rw [gnR]
    have hmv : ∀ r, own r = home s → (if r ∈ ao.recs then o else own r) = home s := by
      intro r e; rw [if_neg (fun hm => hu.sets s so h3 h2 (by rw [← e]; exact hown r hm))]; exact e
    refine ⟨hk.base, hk.sets, hk.par, hk.det, ?_, ?_⟩
    · intro r hr; exact ⟨hmv r (hk.recs r hr).1, (hk.recs r hr).2⟩
    · intro k c hc
      have hcc := hk.cols k c hc
      exact ⟨fun e he => ⟨hmv _ (hcc.hash e he).1, (hcc.hash e he).2⟩, fun e he => ⟨hmv _ (hcc.ord e he).1, (hcc.ord e he).2⟩, hcc.sorted⟩
  · intro r x s hx hsd
    rw [gR] at hx
    obtain ⟨e, hl⟩ := hi.s.deps r x s hx hsd
    refine ⟨fun hv => ?_, by rw [gnO]; exact hl⟩
    show (if r ∈ ao.recs then o else own r) = home s
    rw [if_neg (hu.deps r x s ao hx hsd ha)]; exact e hv
  · intro r x hx; rw [gnR]; rw [gR] at hx; exact hi.s.ltR r x hx
  · intro o' x hx hxs
    rcases gO o' x hx with ⟨_, rfl⟩ | ⟨_, _, rfl⟩ | ⟨_, _, hy⟩
    · exact hva.base
    · exact hvo.base
    · exact hi.s.vb o' x hy hxs
  · intro s so p h1 h2 h3
    obtain ⟨_, _, h4⟩ := hset s so h1 h2
    obtain ⟨po, h5, h6, h7⟩ := hi.l.up s so p h4 h2 h3
    have e1 : p ≠ a := by
      rintro rfl; rw [ha] at h5; cases h5; rw [hasets] at h7; cases h7
    have e2 : p ≠ o := by
      rintro rfl; rw [ho] at h5; cases h5; rw [hsets] at h7; cases h7
    exact ⟨po, by rw [gn p e1 e2]; exact h5, h6, h7⟩
  · intro p po s h1 h2 h3
    rcases gO p po h1 with ⟨_, rfl⟩ | ⟨_, _, rfl⟩ | ⟨_, _, hy⟩
    · cases h3
    · rw [show ao.sets = [] from hasets] at h3; cases h3
    · obtain ⟨so, h4, h5, h6⟩ := hi.l.down p po s hy h2 h3
      have e1 : s ≠ a := by rintro rfl; rw [ha] at h4; cases h4; rw [has] at h5; cases h5
      have e2 : s ≠ o := by rintro rfl; rw [ho] at h4; cases h4; rw [hs] at h5; cases h5
      exact ⟨so, by rw [gn s e1 e2]; exact h4, h5, h6⟩

theorem newVault_getObj {w : World K V Ty} {a : Nat} (h : a ≠ w.nextO) : (newVault w).getObj a = w.getObj a := by
  unfold newVault World.getObj; simp only [mget_mput]; rw [if_neg (Ne.symm h)]

theorem vaultMoveNew_inv {w w' : World K V Ty} {a : Nat} {ao : Obj K V Ty} (hi : Inv own home w) (ha : w.getObj a = some ao)
    (has : ao.isSet = false) (hu : Untied home w a) (h : vaultMoveNew w a = some w') : ∃ own', Inv own' home w' := by
  have hlt := hi.v.ltO a ao ha
  have hne : w.nextO ≠ a := by omega
  have fr := hu.free hi ha has
  have ha1 : (newVault w).getObj a = some ao := by rw [newVault_getObj (Ne.symm hne)]; exact ha
  refine ⟨_, moveInto_inv (w := newVault w) (hi.newObj (.inl rfl)) hne (getObj_freshSelf _ _ _ _) rfl rfl rfl ha1 has ⟨?_, ?_, ?_⟩ h⟩
  · intro s so h1 h2
    by_cases e : s = w.nextO
    · rw [e, show (newVault w).getObj w.nextO = some Obj.newVault from getObj_freshSelf _ _ _ _] at h1; cases h1; cases h2
    · rw [newVault_getObj e] at h1; exact fr.sets s so h1 h2
  · intro r x s ao' hx hs ha'
    rw [newVault_getObj (Ne.symm hne)] at ha'
    exact fr.deps r x s ao' hx hs ha'
  · intro f hf r ao' hp ha'
    rw [newVault_getObj (Ne.symm hne)] at ha'
    exact fr.refs f hf r ao' hp ha'

theorem Untied.drop {w w' : World K V Ty} {a : Nat} {ao : Obj K V Ty} (hu : Untied home w a) (ha : w.getObj a = some ao) (has : ao.isSet = false)
    (hO : ObjSame (w.getObj a) (w'.getObj a)) (hF : w'.refs = w.refs) (hnO : w'.nextO = w.nextO) : Untied home w' a := by
  refine ⟨fun s hs => hu.1 s (by rw [← hnO]; exact hs), fun f hf r ao' hp ha' => ?_⟩
  obtain ⟨ao1, ha1, e1, e2⟩ := hO.to ha
  rw [ha1] at ha'; cases ha'
  rw [e2 has]
  exact hu.2 f (by rw [← hF]; exact hf) r ao hp ha

theorem vaultMoveAssign_inv {env : Env} {w w' : World K V Ty} {o a : Nat} {vo ao : Obj K V Ty} (hi : Inv own home w)
    (ho : w.getObj o = some vo) (hs : vo.isSet = false) (ha : w.getObj a = some ao) (has : ao.isSet = false)
    (hu : o ≠ a → Untied home w a) (h : vaultMoveAssign env w o a = some w') : ∃ own', Inv own' home w' := by
  unfold vaultMoveAssign at h
  split at h
  · cases h; exact ⟨own, hi⟩
  · rename_i hne
    simp only [Option.bind_eq_bind, Option.bind_eq_some_iff] at h
    obtain ⟨w1, h1, h2⟩ := h
    obtain ⟨i1, ho1, hO, _, _, _, hF, _, hnO, _⟩ := dropVault_spec hi ho hs h1
    obtain ⟨ao1, ha1, e1, e2⟩ := (hO a (Ne.symm hne)).to ha
    exact ⟨_, moveInto_inv i1 hne ho1 hs rfl rfl ha1 (e1.trans has) (((hu hne).drop ha has (hO a (Ne.symm hne)) hF hnO).free i1 ha1 (e1.trans has)) h2⟩

end MVault.W
