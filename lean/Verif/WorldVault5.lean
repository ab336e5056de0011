import Verif.WorldVault4
/-
Erasing records, DropData, DropVault, destruction.
-/
set_option linter.unusedSectionVars false
set_option linter.unusedSimpArgs false
namespace MVault.W
variable {K V Ty : Type} [LinearOrder K] [LinearOrder V] [Typed V Ty] [DecidableEq Ty]
variable {own home : Nat → Nat}

/-- What never changes in a key while it exists. -/
def Col.sig (c : Col V Ty) : Ty × Bool × V := (c.ty, c.multi, c.dflt)

/-- What erasing the records of `l` may do to the indices of a key: nothing is added, the hash index keeps the other records,
the ordered index keeps exactly the other values. -/
structure Shrunk (l : List Nat) (c c' : Col V Ty) : Prop where
  hashS : ∀ e ∈ c'.hash, e ∈ c.hash
  ordS : ∀ e ∈ c'.ord, e ∈ c.ord
  hashK : ∀ e ∈ c.hash, e.2 ∉ l → e ∈ c'.hash
  ordK : ∀ e ∈ c.ord, (∀ r ∈ l, (e.1, r) ∉ c.ord) → e ∈ c'.ord
  ordX : ∀ e ∈ c'.ord, ∀ r ∈ l, (e.1, r) ∉ c.ord

theorem Shrunk.erase (c : Col V Ty) (v : V) (r : Nat) (hv : ∀ v', (v', r) ∈ c.ord → v' = v) : Shrunk [r] c (c.erase v r) where
  hashS e he := mem_hash_erase c v r e he
  ordS e he := mem_ord_erase c v r e he
  hashK e he hn := by
    have : e ≠ (v, r) := by rintro rfl; simp at hn
    exact (List.mem_erase_of_ne this).mpr he
  ordK e he hn := by
    simp only [Col.erase]
    split
    · rename_i hm
      refine List.mem_filter.mpr ⟨he, ?_⟩
      simp only [ne_eq, decide_not, Bool.not_eq_eq_eq_not, Bool.not_true, decide_eq_false_iff_not]
      intro e1; exact hn r (by simp) (by rw [e1]; exact hm)
    · exact he
  ordX e he r' hr' hm := by
    simp only [List.mem_singleton] at hr'; subst hr'
    have e1 := hv _ hm
    rw [e1] at hm
    simp only [Col.erase, if_pos hm] at he
    have := (List.mem_filter.mp he).2
    simp [e1] at this

theorem Shrunk.trans {l m : List Nat} {a b c : Col V Ty} (h1 : Shrunk l a b) (h2 : Shrunk m b c) : Shrunk (l ++ m) a c where
  hashS e he := h1.hashS e (h2.hashS e he)
  ordS e he := h1.ordS e (h2.ordS e he)
  hashK e he hn := by
    simp only [List.mem_append, not_or] at hn
    exact h2.hashK e (h1.hashK e he hn.1) hn.2
  ordK e he hn := h2.ordK e (h1.ordK e he (fun r hr => hn r (by simp [hr]))) (fun r hr hm => hn r (by simp [hr]) (h1.ordS _ hm))
  ordX e he r hr hm := by
    have hb := h2.ordS e he
    rcases List.mem_append.mp hr with hr | hr
    · exact h1.ordX e hb r hr hm
    · exact h2.ordX e he r hr (h1.ordK _ hm (fun r0 h0 => h1.ordX e hb r0 h0))

/-- Vault `o` loses the records of `l`; everything else a user can see of vaults, records and references stays. -/
structure Erased (w w' : World K V Ty) (o : Nat) (vo : Obj K V Ty) (l : List Nat) : Prop where
  obj : ∃ cols, w'.getObj o = some { vo with cols := cols, recs := vo.recs.filter (fun r => decide (r ∉ l)) } ∧
    ∀ k, (mget cols k).map Col.sig = (mget vo.cols k).map Col.sig
  objs : ∀ o', o' ≠ o → ObjSame (w.getObj o') (w'.getObj o')
  recs : ∀ r, r ∉ l → RecSame (w.getRec r) (w'.getRec r)
  dead : ∀ r ∈ l, ∀ y, w'.getRec r = some y → y.valid = false
  kept : ∀ r ∈ l, (∃ y, w'.getRec r = some y) ↔ 0 < refCount w r
  refs : w'.refs = w.refs
  nextR : w'.nextR = w.nextR
  nextO : w'.nextO = w.nextO
  shr : ∀ vo', w'.getObj o = some vo' → ∀ k c c', mget vo.cols k = some c → mget vo'.cols k = some c' → Shrunk l c c'

theorem VOk.erase {cell : Nat → K → Option V} {vo : Obj K V Ty} (h : VOk cell vo) {data : List (K × V)} {r : Nat} (hr : r ∈ vo.recs)
    (hd : ∀ k, mget data k = cell r k) :
    VOk cell { vo with cols := eraseCols vo.cols data r, recs := vo.recs.filter (· ≠ r) } where
  cols k e he := by
    simp only [eraseCols, mget_mmap, Option.map_eq_some_iff] at he
    obtain ⟨c, hk, rfl⟩ := he
    obtain ⟨v, hv, hvt⟩ := (h.cols k c hk).typed r hr
    have : c.oldVal data k = v := by unfold Col.oldVal readOr; rw [hd, hv]; simp [hvt]
    rw [this]
    exact (h.cols k c hk).erase hr hv
  nocol r' hr' k hk := by
    simp only [eraseCols, mget_mmap, Option.map_eq_none_iff] at hk
    exact h.nocol r' (List.mem_filter.mp hr').1 k hk
  recsN := h.recsN.filter _
  keysN := h.keysN
  keysM k := by
    simp only [eraseCols, mget_mmap, h.keysM, Option.map_eq_some_iff]
    constructor
    · rintro ⟨c, hc⟩; exact ⟨_, c, hc, rfl⟩
    · rintro ⟨_, c, hc, _⟩; exact ⟨c, hc⟩
  uniqS := h.uniqS
  uniqM k := by
    simp only [eraseCols, mget_mmap, h.uniqM, Option.map_eq_some_iff]
    constructor
    · rintro ⟨c, hc, hm⟩; exact ⟨_, ⟨c, hc, rfl⟩, hm⟩
    · rintro ⟨_, ⟨c, hc, rfl⟩, hm⟩; exact ⟨c, hc, hm⟩
  tmplN k hk := by
    simp only [eraseCols, mget_mmap, Option.map_eq_none_iff] at hk
    exact h.tmplN k hk
  tmplT k c hk := by
    simp only [eraseCols, mget_mmap, Option.map_eq_some_iff] at hk
    obtain ⟨c0, hk, rfl⟩ := hk
    exact h.tmplT k c0 hk
  base := h.base
  par := h.par

theorem RecSame.symm' {a b : Option (Rec K V)} (h : RecSame a b) (hb : b = none) : a = none := by
  subst hb; cases a with
  | none => rfl
  | some x => simp [RecSame] at h

theorem eraseOne_vault {env : Env} {w w' : World K V Ty} {o r : Nat} {vo : Obj K V Ty}
    (hi : Inv own home w) (ho : w.getObj o = some vo) (hs : vo.isSet = false) (hr : r ∈ vo.recs)
    (h : eraseOne env w o r = some w') : Inv own home w' ∧ Erased w w' o vo [r] := by
  have hvok := hi.v.vok o vo ho hs
  obtain ⟨hown, x, hx, hv⟩ := hi.v.mem o vo ho hs r hr
  simp only [eraseOne, eraseLocal, ho, hx, Option.bind_eq_bind, Option.bind_some] at h
  rw [if_pos hvok.base] at h
  simp only [Option.bind_eq_some_iff] at h
  obtain ⟨w2, h2, h3⟩ := h
  have q1 : QI own home (w.putObj o { vo with cols := eraseCols vo.cols x.data r, recs := vo.recs.filter (· ≠ r) }) :=
    hi.q.putVault ho hs hs hvok.base rfl rfl
  obtain ⟨_, sq2⟩ := removeFromDeps_sp q1.si h2
  have q2 := sq2.qi q1
  have hx1 : (w.putObj o { vo with cols := eraseCols vo.cols x.data r, recs := vo.recs.filter (· ≠ r) }).getRec r = some x := hx
  obtain ⟨x2, hx2, e1, e2, e3⟩ := sq2.sf.recTo hx1
  obtain ⟨w3, h3', q3, g1, g2, g3, g4, g5, g6⟩ := q2.invalidate hx2
  rw [h3] at h3'; cases h3'
  have hobj : w'.getObj o = some { vo with cols := eraseCols vo.cols x.data r, recs := vo.recs.filter (· ≠ r) } := by
    rw [getObj_of_objs g1]
    exact sq2.vaultObj (getObj_putObj_self _ _ _) hs
  have hobjs : ∀ o', o' ≠ o → ObjSame (w.getObj o') (w'.getObj o') := by
    intro o' hne
    rw [getObj_of_objs g1]
    have := sq2.sf.objs o'
    simp only [getObj_putObj, if_neg (Ne.symm hne)] at this
    exact this
  have hrecs : ∀ r', r' ≠ r → RecSame (w.getRec r') (w'.getRec r') := by
    intro r' hne
    rw [g5 r' hne]
    exact sq2.sf.recs r'
  have hcnt : refCount w2 r = refCount w r := by unfold refCount; rw [sq2.sf.refs]; rfl
  have hfil : vo.recs.filter (fun r' => decide (r' ≠ r)) = vo.recs.filter (fun r' => decide (r' ∉ [r])) := by
    congr 1; funext r'; simp
  have hdead : ∀ y, w'.getRec r = some y → y.valid = false := by
    intro y hy
    rw [g6] at hy
    split at hy
    · cases hy
    · cases hy; rfl
  refine ⟨?_, ⟨⟨eraseCols vo.cols x.data r, ?_, ?_⟩, hobjs, ?_, ?_, ?_, g2.trans sq2.sf.refs, g3.trans sq2.sf.nextR, g4.trans sq2.sf.nextO, ?_⟩⟩
  · refine hi.build (o := o) ⟨hobjs, ?_⟩ q3 hobj hs ?_ ?_ ?_
    · intro r' hne; exact hrecs r' (by rintro rfl; exact hne hown)
    · have hbase : VOk (cellOf w) { vo with cols := eraseCols vo.cols x.data r, recs := vo.recs.filter (· ≠ r) } :=
        hvok.erase hr (fun k => by simp [cellOf, hx])
      refine hbase.congr ?_
      intro r' hr' k
      have hr'' := List.mem_filter.mp hr'
      obtain ⟨_, y, hy, hyv⟩ := hi.v.mem o vo ho hs r' hr''.1
      obtain ⟨z, hz, _, _, hd⟩ := (hrecs r' (by simpa using hr''.2)).to hy
      simp [cellOf, hy, hz, hd hyv]
    · intro r' hr'
      have hr'' := List.mem_filter.mp hr'
      obtain ⟨a, y, hy, hyv⟩ := hi.v.mem o vo ho hs r' hr''.1
      obtain ⟨z, hz, e, _⟩ := (hrecs r' (by simpa using hr''.2)).to hy
      exact ⟨a, z, hz, e.trans hyv⟩
    · intro r' z hz hzv hown'
      have hne : r' ≠ r := by rintro rfl; rw [hdead z hz] at hzv; cases hzv
      obtain ⟨y, hy, e, _⟩ := (hrecs r' hne).of hz
      obtain ⟨vo1, a1, _, a3⟩ := hi.v.val r' y hy (by rw [← e]; exact hzv)
      rw [hown', ho] at a1; cases a1
      exact List.mem_filter.mpr ⟨a3, by simpa using hne⟩
  · rw [hobj, hfil]
  · intro k
    simp only [eraseCols, mget_mmap, Option.map_map]
    rfl
  · intro r' hne; exact hrecs r' (by simpa using hne)
  · intro r' hr' y hy
    simp only [List.mem_singleton] at hr'; subst hr'
    exact hdead y hy
  · intro r' hr'
    simp only [List.mem_singleton] at hr'; subst hr'
    rw [g6, hcnt]
    split
    · rename_i e; simp [e]
    · rename_i e; simp [Nat.pos_of_ne_zero e]
  · intro vo' hvo' k c c' hc hc'
    rw [hobj] at hvo'; cases hvo'
    simp only [eraseCols, mget_mmap, hc, Option.map_some, Option.some.injEq] at hc'
    subst hc'
    refine .erase c _ r fun v' hm => ?_
    obtain ⟨_, hv'⟩ := (hvok.cols k c hc).ordS v' r hm
    obtain ⟨v, hv0, hvt⟩ := (hvok.cols k c hc).typed r hr
    have hv1 : cellOf w r k = some v' := hv'
    have hv2 : cellOf w r k = some v := hv0
    rw [hv1] at hv2; cases hv2
    have : mget x.data k = some v' := by simpa [cellOf, hx] using hv1
    unfold Col.oldVal readOr; rw [this]; simp [hvt]

theorem Erased.refl {w : World K V Ty} {o : Nat} {vo : Obj K V Ty} (ho : w.getObj o = some vo) : Erased w w o vo [] where
  obj := ⟨vo.cols, by
    have : vo.recs.filter (fun r => decide (r ∉ ([] : List Nat))) = vo.recs := by simp
    rw [ho, this], fun _ => rfl⟩
  objs _ _ := .refl _
  recs _ _ := .refl _
  dead := by simp
  kept := by simp
  refs := rfl
  nextR := rfl
  nextO := rfl
  shr vo' hvo' k c c' hc hc' := by
    rw [ho] at hvo'; cases hvo'; rw [hc] at hc'; cases hc'
    exact ⟨fun _ h => h, fun _ h => h, fun _ h _ => h, fun _ h _ => h, fun _ _ _ h => by cases h⟩

/-- The vault after the erasure. -/
theorem Erased.vault {w w' : World K V Ty} {o : Nat} {vo : Obj K V Ty} {l : List Nat} (h : Erased w w' o vo l) :
    ∃ vo', w'.getObj o = some vo' ∧ vo'.isSet = vo.isSet ∧ vo'.recs = vo.recs.filter (fun r => decide (r ∉ l)) ∧ vo'.isBase = vo.isBase ∧
      vo' = { vo with cols := vo'.cols, recs := vo'.recs } ∧ ∀ k, (mget vo'.cols k).map Col.sig = (mget vo.cols k).map Col.sig := by
  obtain ⟨cols, h1, h2⟩ := h.obj
  exact ⟨_, h1, rfl, rfl, rfl, rfl, h2⟩

theorem Erased.trans {w w1 w2 : World K V Ty} {o : Nat} {vo vo1 : Obj K V Ty} {l : List Nat} {r : Nat} (h1 : Erased w w1 o vo l)
    (hvo1 : w1.getObj o = some vo1) (h2 : Erased w1 w2 o vo1 [r]) (hr : r ∉ l) : Erased w w2 o vo (l ++ [r]) where
  obj := by
    obtain ⟨c1, a1, b1⟩ := h1.obj
    obtain ⟨c2, a2, b2⟩ := h2.obj
    rw [a1] at hvo1; cases hvo1
    refine ⟨c2, ?_, fun k => (b2 k).trans (b1 k)⟩
    rw [a2]
    congr 1
    simp only [List.filter_filter]
    congr 1
    · congr 1; funext a
      simp only [List.mem_append, List.mem_singleton, ← Bool.decide_and]
      exact decide_eq_decide.mpr ⟨fun h => by rintro (h1 | h1); exacts [h.2 h1, h.1 h1], fun h => ⟨fun h1 => h (.inr h1), fun h1 => h (.inl h1)⟩⟩
  objs o' hne := (h1.objs o' hne).trans (h2.objs o' hne)
  recs r' hne := by
    simp only [List.mem_append, not_or] at hne
    exact (h1.recs r' hne.1).trans (h2.recs r' hne.2)
  dead r' hm y hy := by
    rcases List.mem_append.mp hm with hm1 | hm1
    · by_cases e : r' = r
      · subst e; exact absurd hm1 hr
      · obtain ⟨z, hz, hv, _⟩ := (h2.recs r' (by simpa using e)).of hy
        rw [hv]; exact h1.dead r' hm1 z hz
    · exact h2.dead r' hm1 y hy
  kept r' hm := by
    have hc : refCount w1 r' = refCount w r' := by unfold refCount; rw [h1.refs]
    rcases List.mem_append.mp hm with hm1 | hm1
    · have e : r' ≠ r := by rintro rfl; exact absurd hm1 hr
      rw [← h1.kept r' hm1]
      constructor
      · rintro ⟨y, hy⟩
        obtain ⟨z, hz, _⟩ := (h2.recs r' (by simpa using e)).of hy
        exact ⟨z, hz⟩
      · rintro ⟨y, hy⟩
        obtain ⟨z, hz, _⟩ := (h2.recs r' (by simpa using e)).to hy
        exact ⟨z, hz⟩
    · rw [h2.kept r' hm1, hc]
  refs := h2.refs.trans h1.refs
  nextR := h2.nextR.trans h1.nextR
  nextO := h2.nextO.trans h1.nextO
  shr vo2 hvo2 k c c2 hc hc2 := by
    obtain ⟨cols1, a1, b1⟩ := h1.obj
    rw [hvo1] at a1; cases a1
    have := b1 k
    rw [hc, Option.map_some] at this
    obtain ⟨c1, hc1, _⟩ := Option.map_eq_some_iff.mp this
    exact (h1.shr _ hvo1 k c c1 hc hc1).trans (h2.shr vo2 hvo2 k c1 c2 hc1 hc2)

theorem loop_eraseOne {env : Env} {w w' : World K V Ty} {o : Nat} {vo : Obj K V Ty} {l : List Nat}
    (hi : Inv own home w) (ho : w.getObj o = some vo) (hs : vo.isSet = false) (hl : ∀ r ∈ l, r ∈ vo.recs) (hn : l.Nodup)
    (h : loop (fun w r => eraseOne env w o r) l w = some w') : Inv own home w' ∧ Erased w w' o vo l := by
  refine loop_pre (fun d w1 => Inv own home w1 ∧ Erased w w1 o vo d) _ l w w' ?_ ⟨hi, .refl ho⟩ h
  rintro d r e b b' rfl ⟨hib, hb⟩ hh
  obtain ⟨vo1, hvo1, hs1, hr1, _⟩ := hb.vault
  have hrd : r ∉ d := by
    rw [List.nodup_append] at hn
    intro hm; exact hn.2.2 r hm r (by simp) rfl
  have hrm : r ∈ vo1.recs := by
    rw [hr1]; exact List.mem_filter.mpr ⟨hl r (by simp), by simpa using hrd⟩
  obtain ⟨hi', he⟩ := eraseOne_vault hib hvo1 (hs1.trans hs) hrm hh
  exact ⟨hi', hb.trans hvo1 he hrd⟩

/-- Which records EraseRecord(ref), EraseRecord(k, v) and EraseRecords(k, v, n) erase. -/
theorem removeRecord_vault {env : Env} {w w' : World K V Ty} {o r : Nat} {vo : Obj K V Ty} {b : Bool}
    (hi : Inv own home w) (ho : w.getObj o = some vo) (hs : vo.isSet = false) (h : removeRecord env w o r = some (w', b)) :
    (w' = w ∧ b = false ∧ r ∉ vo.recs) ∨ (b = true ∧ r ∈ vo.recs ∧ Inv own home w' ∧ Erased w w' o vo [r]) := by
  simp only [removeRecord, ho, Option.bind_eq_bind, Option.bind_some] at h
  split at h
  · rename_i hr; cases h; exact .inl ⟨rfl, rfl, hr⟩
  · rename_i hr
    simp only [Option.map_eq_some_iff, Prod.mk.injEq] at h
    obtain ⟨w1, h1, rfl, rfl⟩ := h
    have hr' : r ∈ vo.recs := by simpa using hr
    obtain ⟨a, b⟩ := eraseOne_vault hi ho hs hr' h1
    exact .inr ⟨rfl, hr', a, b⟩

theorem equalRange_vault {env : Env} {w : World K V Ty} {o : Nat} {vo : Obj K V Ty} {k : K} {c : Col V Ty}
    (hi : Inv own home w) (ho : w.getObj o = some vo) (hs : vo.isSet = false) (hk : mget vo.cols k = some c) (v : V) :
    (equalRange env c v).Nodup ∧ ∀ r ∈ equalRange env c v, r ∈ vo.recs ∧ cellOf w r k = some v := by
  have hc := (hi.v.vok o vo ho hs).cols k c hk
  unfold equalRange
  constructor
  · rw [nodup_perm]
    rw [List.Nodup, List.pairwise_map]
    refine (hc.hashN.filter _).imp_of_mem ?_
    rintro ⟨a, b⟩ ⟨a', b'⟩ h1 h2 hne e
    have e1 := (List.mem_filter.mp h1).2
    have e2 := (List.mem_filter.mp h2).2
    simp only [decide_eq_true_eq] at e1 e2
    subst e1; subst e2
    simp only at e; subst e
    exact hne rfl
  · intro r hr
    rw [mem_perm, List.mem_map] at hr
    obtain ⟨⟨a, b⟩, hm, rfl⟩ := hr
    obtain ⟨hm1, e⟩ := List.mem_filter.mp hm
    simp only [decide_eq_true_eq] at e; subst e
    exact hc.hashS _ _ hm1

theorem checkKey_cases (vo : Obj K V Ty) (k : K) (t : Ty) :
    (checkKey vo k t = .error (.bad .WrongKey (some k)) ∧ mget vo.cols k = none) ∨
    (∃ c, mget vo.cols k = some c ∧ c.ty ≠ t ∧ checkKey vo k t = .error (.bad .WrongType (some k))) ∨
    (∃ c, mget vo.cols k = some c ∧ c.ty = t ∧ checkKey vo k t = .ok c) := by
  unfold checkKey
  cases hk : mget vo.cols k with
  | none => exact .inl ⟨rfl, rfl⟩
  | some c =>
    by_cases ht : c.ty = t
    · exact .inr (.inr ⟨c, rfl, ht, by simp [ht]⟩)
    · exact .inr (.inl ⟨c, rfl, ht, by simp [ht]⟩)

theorem eraseKV_vault {env : Env} {w w' : World K V Ty} {o : Nat} {vo : Obj K V Ty} {k : K} {v : V} {res : Res K}
    (hi : Inv own home w) (ho : w.getObj o = some vo) (hs : vo.isSet = false) (h : eraseKV env w o k v = some (w', res)) :
    (w' = w ∧ checkKey vo k (typeOf v) = .error res) ∨
    (∃ c, checkKey vo k (typeOf v) = .ok c ∧ mget vo.cols k = some c ∧
      ((w' = w ∧ res = .bad .WrongValue (some k) ∧ equalRange env c v = []) ∨
      ∃ r l, equalRange env c v = r :: l ∧ res = .good (some k) ∧ r ∈ vo.recs ∧ cellOf w r k = some v ∧ Inv own home w' ∧ Erased w w' o vo [r])) := by
  simp only [eraseKV, ho, Option.bind_eq_bind, Option.bind_some] at h
  rcases checkKey_cases vo k (typeOf v) with ⟨e, _⟩ | ⟨c, hk, _, e⟩ | ⟨c, hk, ht, e⟩
  · rw [e] at h ⊢; cases h; exact .inl ⟨rfl, rfl⟩
  · rw [e] at h ⊢; cases h; exact .inl ⟨rfl, rfl⟩
  · rw [e] at h ⊢
    simp only at h
    refine .inr ⟨c, rfl, hk, ?_⟩
    obtain ⟨_, hm⟩ := equalRange_vault (env := env) hi ho hs hk v
    cases hl : equalRange env c v with
    | nil => simp only [hl] at h; cases h; exact .inl ⟨rfl, rfl, rfl⟩
    | cons r l =>
      simp only [hl, Option.map_eq_some_iff, Prod.mk.injEq] at h
      obtain ⟨w1, h1, rfl, rfl⟩ := h
      have hr := hm r (by rw [hl]; simp)
      obtain ⟨a, b⟩ := eraseOne_vault hi ho hs hr.1 h1
      exact .inr ⟨r, l, rfl, rfl, hr.1, hr.2, a, b⟩

theorem eraseManyKV_vault {env : Env} {w w' : World K V Ty} {o : Nat} {vo : Obj K V Ty} {k : K} {v : V} {n : Nat} {res : Res K}
    (hi : Inv own home w) (ho : w.getObj o = some vo) (hs : vo.isSet = false) (h : eraseManyKV env w o k v n = some (w', res)) :
    (w' = w ∧ checkKey vo k (typeOf v) = .error res) ∨
    (∃ c, checkKey vo k (typeOf v) = .ok c ∧ mget vo.cols k = some c ∧
      ((w' = w ∧ res = .bad .WrongValue (some k) ∧ equalRange env c v = []) ∨
      (equalRange env c v ≠ [] ∧ res = .good (some k) ∧ Inv own home w' ∧ Erased w w' o vo ((equalRange env c v).take (max n 1))))) := by
  simp only [eraseManyKV, ho, Option.bind_eq_bind, Option.bind_some] at h
  rcases checkKey_cases vo k (typeOf v) with ⟨e, _⟩ | ⟨c, hk, _, e⟩ | ⟨c, hk, ht, e⟩
  · rw [e] at h ⊢; cases h; exact .inl ⟨rfl, rfl⟩
  · rw [e] at h ⊢; cases h; exact .inl ⟨rfl, rfl⟩
  · rw [e] at h ⊢
    simp only at h
    refine .inr ⟨c, rfl, hk, ?_⟩
    obtain ⟨hn, hm⟩ := equalRange_vault (env := env) hi ho hs hk v
    cases hl : equalRange env c v with
    | nil => simp only [hl] at h; cases h; exact .inl ⟨rfl, rfl, rfl⟩
    | cons r l =>
      simp only [hl, Option.map_eq_some_iff, Prod.mk.injEq] at h
      obtain ⟨w1, h1, rfl, rfl⟩ := h
      rw [hl] at hm hn
      obtain ⟨a, b⟩ := loop_eraseOne hi ho hs (fun r' hr' => (hm r' (List.mem_of_mem_take hr')).1) (hn.sublist (List.take_sublist _ _)) h1
      exact .inr ⟨by simp, rfl, a, b⟩

theorem eraseRef_vault {env : Env} {w w' : World K V Ty} {o f : Nat} {vo : Obj K V Ty} {b : Bool}
    (hi : Inv own home w) (ho : w.getObj o = some vo) (hs : vo.isSet = false) (h : eraseRef env w o f = some (w', b)) :
    ∃ ref, w.refs[f]? = some ref ∧ ((w' = w ∧ b = false ∧ ∀ r, ref.ptr = some r → r ∉ vo.recs) ∨
      (∃ r, ref.ptr = some r ∧ b = true ∧ r ∈ vo.recs ∧ Inv own home w' ∧ Erased w w' o vo [r])) := by
  simp only [eraseRef, Option.bind_eq_bind, Option.bind_eq_some_iff] at h
  obtain ⟨ref, hf, h⟩ := h
  refine ⟨ref, hf, ?_⟩
  cases hp : ref.ptr with
  | none => simp only [hp, ho, Option.map_some] at h; cases h; exact .inl ⟨rfl, rfl, by simp⟩
  | some r =>
    simp only [hp] at h
    rcases removeRecord_vault hi ho hs h with ⟨a, b, c⟩ | ⟨a, b, c, d⟩
    · exact .inl ⟨a, b, by rintro r' e; cases e; exact c⟩
    · exact .inr ⟨r, rfl, a, b, c, d⟩

end MVault.W
