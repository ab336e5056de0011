import Verif.WorldFull
/-
Exactly which records the lookup structures of a vault's key list, operation by operation.
-/
set_option linter.unusedSectionVars false
set_option linter.unusedSimpArgs false
set_option linter.unusedVariables false
namespace MVault.W
variable {K V Ty : Type} [LinearOrder K] [LinearOrder V] [Typed V Ty] [DecidableEq Ty]
variable {own home : Nat → Nat}

/-- Record `r` is listed in the hash index (`b = false`) or the ordered index (`b = true`) of key `k` of object `o`. -/
def Listed (b : Bool) (w : World K V Ty) (o : Nat) (k : K) (r : Nat) : Prop :=
  ∃ v, (v, r) ∈ (if b = true then ordIndex w o k else hashIndex w o k)

theorem listed_iff {b : Bool} {w : World K V Ty} {o : Nat} {k : K} {r : Nat} {vo : Obj K V Ty} {c : Col V Ty} (ho : w.getObj o = some vo) (hc : mget vo.cols k = some c) :
    Listed b w o k r ↔ c.lists b r := by
  simp only [Listed, Col.lists, ordIndex, hashIndex, ho, hc]

theorem listed_none {b : Bool} {w : World K V Ty} {o : Nat} {k : K} {r : Nat} {vo : Obj K V Ty} (ho : w.getObj o = some vo) (hc : mget vo.cols k = none) :
    ¬ Listed b w o k r := by
  rintro ⟨v, h⟩
  simp only [ordIndex, hashIndex, ho, hc] at h
  split at h <;> cases h

theorem listed_same {b : Bool} {w w' : World K V Ty} {o : Nat} {k : K} {r : Nat} {vo vo' : Obj K V Ty} (ho : w.getObj o = some vo) (ho' : w'.getObj o = some vo')
    (hc : mget vo'.cols k = mget vo.cols k) : Listed b w' o k r ↔ Listed b w o k r := by
  simp only [Listed, ordIndex, hashIndex, ho, ho', hc]

theorem ColOk.lists_val {cell : Nat → Option V} {recs : List Nat} {c : Col V Ty} (h : ColOk cell recs c) {b : Bool} {r : Nat} (hl : c.lists b r) :
    r ∈ recs ∧ ∃ v, cell r = some v ∧ (v, r) ∈ (if b = true then c.ord else c.hash) := by
  obtain ⟨v, hv⟩ := hl
  cases b with
  | true => exact ⟨(h.ordS v r hv).1, v, (h.ordS v r hv).2, hv⟩
  | false => exact ⟨(h.hashS v r hv).1, v, (h.hashS v r hv).2, hv⟩

theorem ColOk.lists_iff {cell : Nat → Option V} {recs : List Nat} {c : Col V Ty} (h : ColOk cell recs c) {b : Bool} {r : Nat} {v : V} (hv : cell r = some v) :
    c.lists b r ↔ (v, r) ∈ (if b = true then c.ord else c.hash) := by
  constructor
  · intro hl
    obtain ⟨_, v', hv', hm⟩ := h.lists_val hl
    rw [hv] at hv'; cases hv'; exact hm
  · exact fun hm => ⟨v, hm⟩

/-- `SetData`. -/
theorem setVal_lists {cell : Nat → Option V} {recs : List Nat} {c c' : Col V Ty} (hok : ColOk cell recs c) {old new : V} {r0 : Nat}
    (hr0 : r0 ∈ recs) (ho : cell r0 = some old) (hs : c.setVal old new r0 = some c') (b : Bool) {r : Nat} (hr : r ∈ recs) :
    c'.lists b r ↔ r = r0 ∨ (c.lists b r ∧ ¬ (cell r = some old ∧ c.lists b r0)) := by
  have hm : c.multi = true := by
    by_contra hm
    rw [hok.setVal_unique (by simpa using hm) hr0 ho] at hs; cases hs
  unfold Col.setVal at hs
  rw [if_neg (by simp [hm])] at hs
  simp only [Option.some.injEq] at hs
  subst hs
  have h0 := hok.lists_iff (b := b) ho
  rw [h0]
  have key : ∀ (l : List (V × Nat)) (l' : List (V × Nat)), (∀ e, e ∈ l' ↔ e = (new, r0) ∨ e ∈ (if (old, r0) ∈ l then l.filter (fun e => e.1 ≠ old) else l)) →
      (∀ v', (v', r) ∈ l → cell r = some v') →
      ((∃ v, (v, r) ∈ l') ↔ r = r0 ∨ ((∃ v, (v, r) ∈ l) ∧ ¬ (cell r = some old ∧ (old, r0) ∈ l))) := by
    intro l l' hl' hS
    constructor
    · rintro ⟨v, hv⟩
      rcases (hl' _).mp hv with e | hv
      · cases e; exact .inl rfl
      · right
        split at hv
        · rename_i hin
          obtain ⟨hv1, hv2⟩ := List.mem_filter.mp hv
          have hne : v ≠ old := by simpa using hv2
          refine ⟨⟨v, hv1⟩, ?_⟩
          rintro ⟨e, _⟩
          have := hS v hv1; rw [e] at this; cases this; exact hne rfl
        · rename_i hin
          exact ⟨⟨v, hv⟩, fun h => hin h.2⟩
    · rintro (rfl | ⟨⟨v, hv⟩, hn⟩)
      · exact ⟨new, (hl' _).mpr (.inl rfl)⟩
      · refine ⟨v, (hl' _).mpr (.inr ?_)⟩
        split
        · rename_i hin
          refine List.mem_filter.mpr ⟨hv, ?_⟩
          have hne : v ≠ old := by rintro rfl; exact hn ⟨hS v hv, hin⟩
          simpa using hne
        · exact hv
  cases b with
  | true =>
    simp only [Col.lists, if_true]
    refine key c.ord _ ?_ (fun v' h => (hok.ordS v' r h).2)
    intro e
    simp only [ordEmplace, hm, Bool.true_eq_false, false_and, if_false, mem_ordInsert]
  | false =>
    simp only [Col.lists, Bool.false_eq_true, if_false]
    refine key c.hash _ ?_ (fun v' h => (hok.hashS v' r h).2)
    intro e
    simp only [hashEmplace, hm, Bool.true_eq_false, false_and, if_false, List.mem_append, List.mem_singleton]
    exact or_comm

/-- Erasing records. -/
theorem Shrunk.lists {cell : Nat → Option V} {recs : List Nat} {c c' : Col V Ty} {l : List Nat} (h : Shrunk l c c') (hok : ColOk cell recs c) (b : Bool) {r : Nat}
    (hr : r ∉ l) : c'.lists b r ↔ c.lists b r ∧ (b = true → ∀ r0 ∈ l, cell r0 = cell r → ¬ c.lists true r0) := by
  cases b with
  | false =>
    simp only [Col.lists, Bool.false_eq_true, if_false, false_imp_iff, and_true]
    exact ⟨fun ⟨v, hv⟩ => ⟨v, h.hashS _ hv⟩, fun ⟨v, hv⟩ => ⟨v, h.hashK _ hv hr⟩⟩
  | true =>
    simp only [Col.lists, if_true, true_imp_iff]
    constructor
    · rintro ⟨v, hv⟩
      have hv0 := h.ordS _ hv
      refine ⟨⟨v, hv0⟩, ?_⟩
      rintro r0 h0 e ⟨v1, hv1⟩
      have a := (hok.ordS v1 r0 hv1).2
      have b := (hok.ordS v r hv0).2
      rw [e, b] at a; cases a
      exact h.ordX _ hv r0 h0 hv1
    · rintro ⟨⟨v, hv⟩, hn⟩
      refine ⟨v, h.ordK _ hv ?_⟩
      intro r0 h0 hm
      exact hn r0 h0 ((hok.ordS v r0 hm).2.trans (hok.ordS v r hv).2.symm) ⟨v, hm⟩

theorem Erased.listed {w w' : World K V Ty} {o : Nat} {k : K} {vo : Obj K V Ty} {l : List Nat} (h : Erased w w' o vo l) (hi : Inv own home w)
    (ho : w.getObj o = some vo) (hs : vo.isSet = false) {r : Nat} (hr : r ∉ l) (b : Bool) :
    Listed b w' o k r ↔ Listed b w o k r ∧ (b = true → ∀ r0 ∈ l, value w r0 k = value w r k → ¬ Listed true w o k r0) := by
  obtain ⟨vo', ho', _, _, _, _, hsig⟩ := h.vault
  have hk := hsig k
  cases hc : mget vo.cols k with
  | none =>
    rw [hc] at hk
    have hc' : mget vo'.cols k = none := by cases hc' : mget vo'.cols k with
      | none => rfl
      | some c => rw [hc'] at hk; cases hk
    exact ⟨fun x => absurd x (listed_none ho' hc'), fun x => absurd x.1 (listed_none ho hc)⟩
  | some c =>
    rw [hc] at hk
    obtain ⟨c', hc', _⟩ := Option.map_eq_some_iff.mp hk
    rw [listed_iff ho' hc', listed_iff ho hc]
    have := (h.shr vo' ho' k c c' hc hc').lists ((hi.v.vok o vo ho hs).cols k c hc) b hr
    rw [this]
    simp only [listed_iff (w := w) ho hc, value_eq]

theorem Kept.listed {w w' : World K V Ty} {o : Nat} (h : Kept w w' o) (b : Bool) (k : K) (r : Nat) : Listed b w' o k r ↔ Listed b w o k r := by
  obtain ⟨⟨vo, vo', h1, h2, h3, h4⟩, _⟩ := h
  exact listed_same h1 h3 (by rw [h4])

theorem CFull.listed {w : World K V Ty} {o : Nat} {k : K} {vo : Obj K V Ty} {c : Col V Ty} (ho : w.getObj o = some vo) (hc : mget vo.cols k = some c)
    (hok : ColOk (fun r => cellOf w r k) vo.recs c) (hf : CFull (fun r => cellOf w r k) vo.recs c) (b : Bool) {r : Nat} (hr : r ∈ vo.recs) : Listed b w o k r := by
  obtain ⟨v, hv, _⟩ := hok.typed r hr
  rw [listed_iff ho hc]
  cases b with
  | true => exact ⟨v, (hf r hr v hv).2⟩
  | false => exact ⟨v, (hf r hr v hv).1⟩

/-- `SetData` through a reference: whose listing changes. -/
theorem refSetData_listed {env : Env} {w w' : World K V Ty} {f o : Nat} {k k' : K} {v : V} {res : Res K} (hi : Inv own home w)
    (ho : isVault w o = true) (h : refSetData env w f k' v = some (w', res)) (b : Bool) {r : Nat} (hr : r ∈ members w o) :
    Listed b w' o k r ↔
      if k' = k ∧ through w f = some o ∧ res.ok = true then
        target w f = some r ∨ (Listed b w o k r ∧ ¬ ∃ r0, target w f = some r0 ∧ value w r0 k = value w r k ∧ Listed b w o k r0)
      else Listed b w o k r := by
  by_cases hthr : through w f = some o
  swap
  · rw [if_neg (by rintro ⟨_, h, _⟩; exact hthr h)]
    exact (refSetData_kept hi h ho hthr).listed b k r
  obtain ⟨ref, hfr, h | ⟨r0, o', oo, x, hp, hvl, hoo, hx, hxv, ⟨hset, h⟩ | ⟨hs, hown, _, ⟨h, hres⟩ | ⟨hres, h⟩⟩⟩⟩ := refSetData_spec hi h
  · rw [if_neg (by rintro ⟨_, _, e⟩; rw [h.2.1] at e; cases e), h.1]
  · rw [through_eq hfr, hvl] at hthr; cases hthr
    obtain ⟨vo, hvo, hvs⟩ := isVault_iff.mp ho
    rw [hoo] at hvo; cases hvo; rw [hset] at hvs; cases hvs
  · have hf : res.ok = false := by rcases hres with ⟨e, _⟩ | ⟨_, _, e, _⟩ | ⟨_, _, _, _, e⟩ <;> rw [e] <;> rfl
    rw [if_neg (by rintro ⟨_, _, e⟩; rw [hf] at e; cases e), h]
  · rw [through_eq hfr, hvl] at hthr; cases hthr
    obtain ⟨c, c', old, hc, hold, hsv, hobj⟩ := h.idx
    obtain ⟨vo0, hvo0, _, hrm⟩ := hi.v.val r0 x hx hxv
    rw [hown, hoo] at hvo0; cases hvo0
    rw [members_eq hoo] at hr
    by_cases e : k' = k
    swap
    · rw [if_neg (by rintro ⟨h, _⟩; exact e h)]
      exact listed_same hoo hobj (by simp [mget_mput, e])
    · subst e
      rw [if_pos ⟨rfl, by rw [through_eq hfr]; exact hvl, by rw [hres]; rfl⟩]
      have hc' : mget (mput oo.cols k' c') k' = some c' := by simp [mget_mput]
      rw [listed_iff hobj hc', listed_iff hoo hc]
      have hcell : cellOf w r0 k' = some old := by simp [cellOf, hx, hold]
      rw [setVal_lists ((hi.v.vok o oo hoo hs).cols k' c hc) hrm hcell hsv b hr, target_eq hfr, hp]
      constructor
      · rintro (rfl | ⟨h1, h2⟩)
        · exact .inl rfl
        · refine .inr ⟨h1, ?_⟩
          rintro ⟨r1, e, hv, hl⟩
          cases e
          rw [listed_iff hoo hc] at hl
          exact h2 ⟨by rw [value_eq, value_eq, hcell] at hv; exact hv.symm, hl⟩
      · rintro (e | ⟨h1, h2⟩)
        · cases e; exact .inl rfl
        · refine .inr ⟨h1, ?_⟩
          rintro ⟨hv, hl⟩
          exact h2 ⟨r0, rfl, by rw [value_eq, value_eq, hcell]; exact hv.symm, by rw [listed_iff hoo hc]; exact hl⟩

theorem createCase_listed {w w1 w' : World K V Ty} {o : Nat} {vo : Obj K V Ty} {data : List (K × V)} {cols : List (K × Col V Ty)} (hi : Inv own home w) {own' : Nat → Nat}
    (i : Inv own' home w') (ho : w.getObj o = some vo) (hs : vo.isSet = false) (hn : w.getRec w.nextR = none)
    (hobj : w'.getObj o = some { vo with cols := cols, recs := vo.recs ++ [w.nextR] })
    (hcell : ∀ r ∈ vo.recs, ∀ k, cellOf w' r k = cellOf w r k) (hcellN : ∀ k, cellOf w' w.nextR k = mget data k)
    (hcols : ∀ k, mget cols k = (mget vo.cols k).map (fun c => (c.add (c.addVal data k) w.nextR).1)) {b : Bool} {k : K} {r : Nat} (hr : r ∈ vo.recs ++ [w.nextR])
    (hk : mget vo.cols k ≠ none) : Listed b w' o k r ↔ r = w.nextR ∨ Listed b w o k r := by
  obtain ⟨c, hc⟩ := Option.ne_none_iff_exists'.mp hk
  have hc' : mget cols k = some (c.add (c.addVal data k) w.nextR).1 := by rw [hcols, hc]; rfl
  have hok := (i.v.vok _ _ hobj hs).cols k _ hc'
  have hok0 := (hi.v.vok _ _ ho hs).cols k _ hc
  rw [listed_iff hobj hc', listed_iff ho hc]
  by_cases hm : c.multi = true
  · obtain ⟨v', hv', ht⟩ := hok.typed w.nextR (by simp)
    have hd : mget data k = some v' := by rw [← hcellN]; exact hv'
    cases b with
    | true =>
      simp only [Col.lists, if_true, (Col.add_multi_mem c hm _ _ _).2, Prod.mk.injEq]
      constructor
      · rintro ⟨v, h | ⟨_, h⟩⟩
        · exact .inr ⟨v, h⟩
        · exact .inl h
      · rintro (h | ⟨v, h⟩)
        · exact ⟨_, .inr ⟨rfl, h⟩⟩
        · exact ⟨v, .inl h⟩
    | false =>
      simp only [Col.lists, Bool.false_eq_true, if_false, (Col.add_multi_mem c hm _ _ _).1, Prod.mk.injEq]
      constructor
      · rintro ⟨v, h | ⟨_, h⟩⟩
        · exact .inr ⟨v, h⟩
        · exact .inl h
      · rintro (h | ⟨v, h⟩)
        · exact ⟨_, .inr ⟨rfl, h⟩⟩
        · exact ⟨v, .inl h⟩
  · have hm : c.multi = false := by simpa using hm
    have hf := hok.fullU (by rw [(Col.add_shape c _ _).2.1]; exact hm)
    have hf0 := hok0.fullU hm
    have h1 : (c.add (c.addVal data k) w.nextR).1.lists b r := by
      rw [← listed_iff hobj hc']
      exact CFull.listed hobj hc' hok hf b hr
    refine ⟨fun _ => ?_, fun _ => h1⟩
    rcases List.mem_append.mp hr with hr | hr
    · right
      rw [← listed_iff ho hc]
      exact CFull.listed ho hc hok0 hf0 b hr
    · simp only [List.mem_singleton] at hr; exact .inl hr

/-- The record a successful `SetData` on key `k` writes through a reference into vault `o`. -/
def written (w : World K V Ty) (o : Nat) (k : K) (op : Op K V Ty) (ans : Answer K) : Option Nat :=
  match op, ans with
  | .refSetData f k' _, .res res => if k' = k ∧ through w f = some o ∧ res.ok = true then target w f else none
  | _, _ => none

/-- Record `r` is struck from a lookup structure: a listed record with the same value was written, or (ordered index) erased. -/
def Struck (b : Bool) (w w' : World K V Ty) (o : Nat) (k : K) (wr : Option Nat) (r : Nat) : Prop :=
  ∃ r0, Listed b w o k r0 ∧ value w r0 k = value w r k ∧ (wr = some r0 ∨ (b = true ∧ r0 ∈ members w o ∧ r0 ∉ members w' o))

theorem listed_mem {b : Bool} {w : World K V Ty} {o : Nat} {k : K} {r : Nat} {vo : Obj K V Ty} (hi : Inv own home w) (ho : w.getObj o = some vo) (hs : vo.isSet = false)
    (h : Listed b w o k r) : r ∈ vo.recs := by
  cases hc : mget vo.cols k with
  | none => exact absurd h (listed_none ho hc)
  | some c => exact (((hi.v.vok o vo ho hs).cols k c hc).lists_val ((listed_iff ho hc).mp h)).1

theorem struck_erase {w w' : World K V Ty} {o : Nat} {k : K} {vo : Obj K V Ty} {l : List Nat} (h : Erased w w' o vo l) (hi : Inv own home w)
    (ho : w.getObj o = some vo) (hs : vo.isSet = false) (hl : ∀ r ∈ l, r ∈ vo.recs) {r : Nat} (hr : r ∈ members w' o) (b : Bool) :
    Listed b w' o k r ↔ Listed b w o k r ∧ ¬ Struck b w w' o k none r := by
  obtain ⟨cols, hobj, _⟩ := h.obj
  rw [members_eq hobj] at hr
  have hr2 : r ∉ l := by simpa using (List.mem_filter.mp hr).2
  rw [h.listed hi ho hs hr2 b]
  refine and_congr_right fun _ => ?_
  have hm : ∀ r0, (r0 ∈ members w o ∧ r0 ∉ members w' o) ↔ r0 ∈ l := by
    intro r0
    rw [members_eq hobj, members_eq ho]
    simp only [List.mem_filter, decide_eq_true_eq, not_and, not_not]
    exact ⟨fun ⟨a, b⟩ => by simpa using b a, fun a => ⟨hl r0 a, fun _ => by simpa using a⟩⟩
  constructor
  · rintro h1 ⟨r0, h2, h3, h4 | ⟨rfl, h4⟩⟩
    · cases h4
    · exact h1 rfl r0 ((hm r0).mp h4) h3 h2
  · rintro h1 rfl r0 h2 h3 h4
    exact h1 ⟨r0, h4, h3, .inr ⟨rfl, (hm r0).mpr h2⟩⟩

theorem not_struck {b : Bool} {w w' : World K V Ty} {o : Nat} {k : K} {r : Nat} (h : ∀ r0 ∈ members w o, r0 ∈ members w' o) :
    ¬ Struck b w w' o k none r := by
  rintro ⟨r0, _, _, h4 | ⟨_, h4, h5⟩⟩
  · cases h4
  · exact h5 (h r0 h4)

theorem vaultAssign_fresh {env : Env} {w w' : World K V Ty} {o a : Nat} {vo ao : Obj K V Ty} (hi : Inv own home w) (hne : o ≠ a)
    (ho : w.getObj o = some vo) (hs : vo.isSet = false) (ha : w.getObj a = some ao) (has : ao.isSet = false) (h : vaultAssign env w o a = some w') :
    ∀ r ∈ members w' o, w.nextR ≤ r := by
  unfold vaultAssign at h
  rw [if_neg hne] at h
  simp only [Option.bind_eq_bind, Option.bind_eq_some_iff] at h
  obtain ⟨w1, h1, h2⟩ := h
  obtain ⟨i1, ho1, hO, _, _, _, _, hn, _⟩ := dropVault_spec hi ho hs h1
  obtain ⟨ao1, ha1, e1, e2⟩ := (hO a (Ne.symm hne)).to ha
  obtain ⟨w2, h3, cp⟩ := copyInto_spec (env := env) (w := w1) (vo := vo.emptied) hne ha1 rfl i1.v.ltR (by
    intro r hr
    obtain ⟨_, x, hx, _⟩ := i1.v.mem a ao1 ha1 (e1.trans has) r hr
    exact ⟨x, hx⟩)
  have e : w1.putObj o vo.emptied = w1 := by
    cases w1; simp only [World.putObj]; congr 1
    exact mput_same _ _ _ ho1
  rw [e] at h3 cp
  rw [h2] at h3; cases h3
  obtain ⟨cols, hobj, _⟩ := cp.obj
  intro r hr
  rw [members_eq hobj] at hr
  simp only [(withKeys_spec _ _).2.2.2.2.1, Obj.emptied, List.nil_append, List.mem_range'_1] at hr
  omega

/-- Key of an object, read off the columns. -/
theorem isKey_col {w : World K V Ty} {o : Nat} {k : K} {vo : Obj K V Ty} (hi : Inv own home w) (ho : w.getObj o = some vo) (hs : vo.isSet = false)
    (h : isKeyExist w o k = true) : mget vo.cols k ≠ none := by
  simp only [isKeyExist, ho] at h
  intro hn
  have := (hi.v.vok o vo ho hs).tmplN k hn
  rw [(mhas_false _ _).mpr this] at h; cases h

/-- Exactly which records stay listed after one call. -/
theorem step_listed {env : Env} {w w' : World K V Ty} {op : Op K V Ty} {ans : Answer K} (hi : Inv own home w) (hg : Ordinary home w op)
    (h : outcome env w op = some (w', ans)) {o : Nat} {k : K} (ho : isVault w o = true) (hne : ∀ f ps, op ≠ .refSetDataMany f ps) {r : Nat}
    (hr : r ∈ members w o) (hr' : r ∈ members w' o) (hk : isKeyExist w o k = true) (hk' : isKeyExist w' o k = true) (b : Bool) :
    Listed b w' o k r ↔ written w o k op ans = some r ∨ (Listed b w o k r ∧ ¬ Struck b w w' o k (written w o k op ans) r) := by
  have hstep : step env w op = some w' := by rw [← outcome_step, h]; rfl
  have same : ∀ (_ : written w o k op ans = none) (_ : ∀ r0 ∈ members w o, r0 ∈ members w' o) (_ : Listed b w' o k r ↔ Listed b w o k r),
      (Listed b w' o k r ↔ written w o k op ans = some r ∨ (Listed b w o k r ∧ ¬ Struck b w w' o k (written w o k op ans) r)) := by
    intro e1 e2 e3
    rw [e1, e3]
    exact ⟨fun x => .inr ⟨x, not_struck e2⟩, fun x => by rcases x with x | x; · cases x
                                                         · exact x.1⟩
  by_cases ht : o ∈ touched w op
  swap
  · have hkp := step_kept hi hg hstep ho ht
    refine same ?_ ?_ (hkp.listed b k r)
    · cases op <;> first | rfl | skip
      rename_i f k' v
      cases ans <;> first | rfl | skip
      simp only [written]
      refine if_neg ?_
      rintro ⟨_, e, _⟩
      exact ht (by simp [touched, e])
    · intro r0 h0
      obtain ⟨⟨a, a', h1, h2, h3, h4⟩, _⟩ := hkp
      rw [members_eq h1] at h0; rw [members_eq h3, h4]; exact h0
  obtain ⟨vo, hvo, hs⟩ := isVault_iff.mp ho
  have hvok := hi.v.vok o vo hvo hs
  have hkc := isKey_col hi hvo hs hk
  cases op <;> simp only [touched, List.mem_singleton, List.not_mem_nil] at ht
  case refSetDataMany f ps => exact absurd rfl (hne f ps)
  case refSetData f k' v =>
    simp only [outcome, Option.map_eq_some_iff, Prod.exists, Prod.mk.injEq] at h
    obtain ⟨w1, res, h1, rfl, rfl⟩ := h
    rw [refSetData_listed hi ho h1 b hr]
    have hmem : ∀ r0 ∈ members w o, r0 ∈ members w1 o := by
      intro r0 h0
      obtain ⟨ref, hfr, h | ⟨r1, o', oo, x, hp, hvl, hoo, hx, hxv, hcase⟩⟩ := refSetData_spec hi h1
      · rw [h.1]; exact h0
      · have e : o = o' := by simpa [touched, through_eq hfr, hvl] using ht
        subst e
        rw [hvo] at hoo; cases hoo
        rcases hcase with ⟨hset, h⟩ | ⟨hs', hown, _, ⟨h, hres⟩ | ⟨hres, h⟩⟩
        · rw [hs] at hset; cases hset
        · rw [h]; exact h0
        · obtain ⟨c, c', old, hc, hold, hsv, hobj⟩ := h.idx
          rw [members_eq hobj]; rw [members_eq hvo] at h0; exact h0
    simp only [written]
    split
    · rename_i e
      refine or_congr_right (and_congr_right fun _ => not_congr ?_)
      constructor
      · rintro ⟨r0, h1, h2, h3⟩; exact ⟨r0, h3, h2, .inl h1⟩
      · rintro ⟨r0, h1, h2, h3 | ⟨_, h3, h4⟩⟩
        · exact ⟨r0, h3, h2, h1⟩
        · exact absurd (hmem r0 h3) h4
    · exact ⟨fun x => .inr ⟨x, not_struck hmem⟩, fun x => by rcases x with x | x; · cases x
                                                             · exact x.1⟩
  case addKey o' k' d =>
    subst ht
    obtain ⟨_, h1⟩ := onVault_some h
    simp only [Option.map_eq_some_iff, Prod.exists, Prod.mk.injEq] at h1
    obtain ⟨w1, res, h1, rfl, rfl⟩ := h1
    rcases addKey_spec hi hvo hs h1 with ⟨rfl, _⟩ | ⟨_, hn, i, c, _, _, _, d1, d2, st⟩
    · exact same rfl (fun _ h => h) Iff.rfl
    · refine same rfl ?_ (listed_same hvo st.obj ?_)
      · intro r0 h0; rw [members_eq st.obj]; rw [members_eq hvo] at h0; exact h0
      · have : k' ≠ k := by rintro rfl; exact hkc hn
        simp [Obj.withKey, mget_mput, this]
  case addUniqueKey o' k' t noFn fn =>
    subst ht
    obtain ⟨_, h1⟩ := onVault_some h
    simp only [Option.map_eq_some_iff, Prod.exists, Prod.mk.injEq] at h1
    obtain ⟨w1, res, h1, rfl, rfl⟩ := h1
    rcases addUniqueKey_spec hi hvo hs h1 with ⟨rfl, _⟩ | ⟨rfl, _⟩ | ⟨rfl, _⟩ | ⟨_, hn, _, i, _, c, _, hm, st⟩
    · exact same rfl (fun _ h => h) Iff.rfl
    · exact same rfl (fun _ h => h) Iff.rfl
    · exact same rfl (fun _ h => h) Iff.rfl
    · refine same rfl ?_ (listed_same hvo st.obj ?_)
      · intro r0 h0; rw [members_eq st.obj]; rw [members_eq hvo] at h0; exact h0
      · have : k' ≠ k := by rintro rfl; exact hkc hn
        simp [Obj.withKey, mget_mput, this]
  case updateKey o' k' d =>
    subst ht
    obtain ⟨_, h1⟩ := onVault_some h
    simp only [Option.map_eq_some_iff, Prod.exists, Prod.mk.injEq] at h1
    obtain ⟨w1, res, h1, rfl, rfl⟩ := h1
    rcases (updateKey_spec hi hvo hs h1).2 with ⟨rfl, _⟩ | ⟨_, _, _, rfl, _⟩ | ⟨_, _, _, _, rfl, _⟩ | ⟨_, _, _, _, _, rfl⟩
    · exact same rfl (fun _ h => h) Iff.rfl
    · exact same rfl (fun _ h => h) Iff.rfl
    · exact same rfl (fun _ h => h) Iff.rfl
    · exact same rfl (fun r0 h0 => by rw [members_eq (getObj_putObj_self _ _ _)]; rw [members_eq hvo] at h0; exact h0) (listed_same hvo (getObj_putObj_self _ _ _) rfl)
  case removeKey o' k' =>
    subst ht
    obtain ⟨_, h1⟩ := onVault_some h
    simp only [Option.map_eq_some_iff, Prod.exists, Prod.mk.injEq] at h1
    obtain ⟨w1, res, h1, rfl, rfl⟩ := h1
    rcases removeKey_spec hi hvo hs h1 with ⟨rfl, _⟩ | ⟨_, _, i, st⟩
    · exact same rfl (fun _ h => h) Iff.rfl
    · refine same rfl ?_ (listed_same hvo st.obj ?_)
      · intro r0 h0; rw [members_eq st.obj]; rw [members_eq hvo] at h0; exact h0
      · have := isKey_col i st.obj hs hk'
        have : k' ≠ k := by rintro rfl; exact this (by simp [Obj.withoutKey, mget_mdel])
        simp [Obj.withoutKey, mget_mdel, this]
  case createRecord o' f ps =>
    subst ht
    obtain ⟨_, h1⟩ := onVault_some h
    simp only [Option.map_eq_some_iff, Prod.exists, Prod.mk.injEq] at h1
    obtain ⟨w1, res, h1, rfl, rfl⟩ := h1
    rcases createRecord_spec hi hvo hs h1 with ⟨rfl, _⟩ | ⟨_, _, rfl, _⟩ | ⟨data, w2, cols, _, _, _, hcols, e1, st, i, _⟩
    · exact same rfl (fun _ h => h) Iff.rfl
    · exact same rfl (fun _ h => h) Iff.rfl
    · have hw2 : w2.getObj o = some { vo with cols := cols, recs := vo.recs ++ [w.nextR] } := by rw [e1, getObj_putObj_self]
      have hobj : w1.getObj o = some { vo with cols := cols, recs := vo.recs ++ [w.nextR] } := by rw [st.rf.obj]; exact hw2
      have hcell : ∀ r ∈ vo.recs, ∀ k, cellOf w1 r k = cellOf w r k := by
        intro r hr k
        obtain ⟨_, x, hx, hxv⟩ := hi.v.mem _ vo hvo hs r hr
        have hlt := hi.v.ltR r x hx
        have hx1 : w2.getRec r = some x := by
          subst e1
          show mget (mput w.recs w.nextR _) r = some x
          rw [mget_mput, if_neg (by omega)]; exact hx
        obtain ⟨y, hy, d, _⟩ := st.rf.recTo' hx1 hxv
        simp [cellOf, hx, hy, d]
      have hcellN : ∀ k, cellOf w1 w.nextR k = mget data k := by
        intro k
        have hx1 : w2.getRec w.nextR = some ⟨data, true, 0, []⟩ := by
          subst e1
          show mget (mput w.recs w.nextR _) w.nextR = some _
          rw [mget_mput, if_pos rfl]
        obtain ⟨y, hy, d, _⟩ := st.rf.recTo' hx1 rfl
        simp [cellOf, hy, d]
      have hn : w.getRec w.nextR = none := by
        cases e : w.getRec w.nextR with
        | none => rfl
        | some x => have := hi.v.ltR _ x e; omega
      have hrn : r ≠ w.nextR := by
        rintro rfl
        rw [members_eq hvo] at hr
        obtain ⟨_, x, hx, _⟩ := hi.v.mem _ vo hvo hs _ hr
        rw [hn] at hx; cases hx
      refine same rfl ?_ ?_
      · intro r0 h0; rw [members_eq hobj]; rw [members_eq hvo] at h0; exact List.mem_append_left _ h0
      · rw [createCase_listed (w1 := w2) hi i hvo hs hn hobj hcell hcellN hcols (by rw [members_eq hobj] at hr'; exact hr') hkc]
        exact ⟨fun x => x.resolve_left hrn, .inr⟩
  case createRow o' ps =>
    subst ht
    obtain ⟨_, h1⟩ := onVault_some h
    simp only [Option.map_eq_some_iff, Prod.exists, Prod.mk.injEq] at h1
    obtain ⟨w1, res, h1, rfl, rfl⟩ := h1
    rcases createRow_spec hi hvo hs h1 with ⟨rfl, _⟩ | ⟨_, _, rfl, _⟩ | ⟨data, w2, cols, _, _, _, hcols, e1, st, i, _⟩
    · exact same rfl (fun _ h => h) Iff.rfl
    · exact same rfl (fun _ h => h) Iff.rfl
    · have hw2 : w2.getObj o = some { vo with cols := cols, recs := vo.recs ++ [w.nextR] } := by rw [e1, getObj_putObj_self]
      have hobj : w1.getObj o = some { vo with cols := cols, recs := vo.recs ++ [w.nextR] } := by rw [st.rf.obj]; exact hw2
      have hcell : ∀ r ∈ vo.recs, ∀ k, cellOf w1 r k = cellOf w r k := by
        intro r hr k
        obtain ⟨_, x, hx, hxv⟩ := hi.v.mem _ vo hvo hs r hr
        have hlt := hi.v.ltR r x hx
        have hx1 : w2.getRec r = some x := by
          subst e1
          show mget (mput w.recs w.nextR _) r = some x
          rw [mget_mput, if_neg (by omega)]; exact hx
        obtain ⟨y, hy, d, _⟩ := st.rf.recTo' hx1 hxv
        simp [cellOf, hx, hy, d]
      have hcellN : ∀ k, cellOf w1 w.nextR k = mget data k := by
        intro k
        have hx1 : w2.getRec w.nextR = some ⟨data, true, 0, []⟩ := by
          subst e1
          show mget (mput w.recs w.nextR _) w.nextR = some _
          rw [mget_mput, if_pos rfl]
        obtain ⟨y, hy, d, _⟩ := st.rf.recTo' hx1 rfl
        simp [cellOf, hy, d]
      have hn : w.getRec w.nextR = none := by
        cases e : w.getRec w.nextR with
        | none => rfl
        | some x => have := hi.v.ltR _ x e; omega
      have hrn : r ≠ w.nextR := by
        rintro rfl
        rw [members_eq hvo] at hr
        obtain ⟨_, x, hx, _⟩ := hi.v.mem _ vo hvo hs _ hr
        rw [hn] at hx; cases hx
      refine same rfl ?_ ?_
      · intro r0 h0; rw [members_eq hobj]; rw [members_eq hvo] at h0; exact List.mem_append_left _ h0
      · rw [createCase_listed (w1 := w2) hi i hvo hs hn hobj hcell hcellN hcols (by rw [members_eq hobj] at hr'; exact hr') hkc]
        exact ⟨fun x => x.resolve_left hrn, .inr⟩
  case eraseRef o' f =>
    subst ht
    obtain ⟨_, h1⟩ := onVault_some h
    simp only [Option.map_eq_some_iff, Prod.exists, Prod.mk.injEq] at h1
    obtain ⟨w1, res, h1, rfl, rfl⟩ := h1
    obtain ⟨ref, hfr, hh⟩ := eraseRef_vault hi hvo hs h1
    rcases hh with ⟨rfl, _⟩ | ⟨r, hp, _, hr, i, er⟩
    · exact same rfl (fun _ h => h) Iff.rfl
    · rw [struck_erase er hi hvo hs (by simpa using hr) hr' b]
      simp [written]
  case eraseKV o' k' v =>
    subst ht
    obtain ⟨_, h1⟩ := onVault_some h
    simp only [Option.map_eq_some_iff, Prod.exists, Prod.mk.injEq] at h1
    obtain ⟨w1, res, h1, rfl, rfl⟩ := h1
    rcases eraseKV_vault hi hvo hs h1 with ⟨rfl, _⟩ | ⟨c, _, _, ⟨rfl, _⟩ | ⟨r, l, _, _, hr, hcell, i, er⟩⟩
    · exact same rfl (fun _ h => h) Iff.rfl
    · exact same rfl (fun _ h => h) Iff.rfl
    · rw [struck_erase er hi hvo hs (by simpa using hr) hr' b]
      simp [written]
  case eraseManyKV o' k' v n =>
    subst ht
    obtain ⟨_, h1⟩ := onVault_some h
    simp only [Option.map_eq_some_iff, Prod.exists, Prod.mk.injEq] at h1
    obtain ⟨w1, res, h1, rfl, rfl⟩ := h1
    rcases eraseManyKV_vault hi hvo hs h1 with ⟨rfl, _⟩ | ⟨c, _, hc, ⟨rfl, _⟩ | ⟨_, _, i, er⟩⟩
    · exact same rfl (fun _ h => h) Iff.rfl
    · exact same rfl (fun _ h => h) Iff.rfl
    · obtain ⟨hN, hm⟩ := equalRange_vault (env := env) hi hvo hs hc v
      rw [struck_erase er hi hvo hs (fun r0 h0 => (hm r0 (List.mem_of_mem_take h0)).1) hr' b]
      simp [written]
  case dropData o' =>
    subst ht
    obtain ⟨_, h⟩ := onVault_some hstep
    obtain ⟨_, _, ho', _⟩ := dropData_spec hi hvo hs h
    rw [members_eq ho'] at hr'; cases hr'
  case dropVault o' =>
    subst ht
    obtain ⟨_, h⟩ := onVault_some hstep
    obtain ⟨_, ho', _⟩ := dropVault_spec hi hvo hs h
    rw [members_eq ho'] at hr'; cases hr'
  case destroyVault o' =>
    subst ht
    obtain ⟨_, h⟩ := onVault_some hstep
    simp only [destroyVault, Option.bind_eq_bind, Option.bind_eq_some_iff, Option.some.injEq] at h
    obtain ⟨w1, h1, rfl⟩ := h
    simp [members, World.getObj, mget_mdel] at hr'
  case vaultAssign o' a =>
    subst ht
    obtain ⟨_, h1⟩ := onVault_some hstep
    obtain ⟨⟨ao, ha', has⟩, h1⟩ := onVault_some h1
    by_cases hne : o = a
    · subst hne
      simp only [vaultAssign, if_true, Option.some.injEq] at h1; subst h1
      have : written w o k (.vaultAssign o o) ans = none := rfl
      exact same rfl (fun _ h => h) Iff.rfl
    · have h2 := vaultAssign_fresh hi hne hvo hs ha' has h1 r hr'
      rw [members_eq hvo] at hr
      obtain ⟨_, x, hx, _⟩ := hi.v.mem o vo hvo hs r hr
      have := hi.v.ltR r x hx
      omega
  case vaultMoveNew a =>
    subst ht
    obtain ⟨_, h⟩ := onVault_some hstep
    simp only [vaultMoveNew, moveInto, Option.bind_eq_bind, Option.bind_eq_some_iff, Option.some.injEq] at h
    obtain ⟨ao, _, vo', _, rfl⟩ := h
    rw [members_eq (getObj_putObj_self _ _ _)] at hr'; cases hr'
  case vaultMoveAssign o' a =>
    obtain ⟨_, h1⟩ := onVault_some hstep
    obtain ⟨⟨ao, ha', has⟩, h1⟩ := onVault_some h1
    unfold vaultMoveAssign at h1
    split at h1
    · cases h1
      exact same rfl (fun _ h => h) Iff.rfl
    · rename_i hne
      simp only [moveInto, Option.bind_eq_bind, Option.bind_eq_some_iff, Option.some.injEq] at h1
      obtain ⟨w1, hd, ao1, ha1, vo', hvo', rfl⟩ := h1
      rcases List.mem_cons.mp ht with e | e
      · subst e
        obtain ⟨i1, ho1, hO, _⟩ := dropVault_spec hi hvo hs hd
        obtain ⟨ao2, ha2, e1, e2⟩ := (hO a (Ne.symm hne)).to ha'
        rw [ha1] at ha2; cases ha2
        rw [members_eq hvo] at hr
        rw [members_eq (vo := { vo' with tmpl := ao1.tmpl, cols := ao1.cols, keysOrder := ao1.keysOrder, uniq := ao1.uniq, recs := ao1.recs, sets := ao1.sets })
          (by rw [getObj_putObj, if_neg (Ne.symm hne), getObj_putObj_self])] at hr'
        have h1 := (hi.v.mem o vo hvo hs r hr).1
        have h2 := (hi.v.mem a ao ha' has r (by rw [e2 has] at hr'; exact hr')).1
        exact absurd (h1.symm.trans h2) hne
      · simp only [List.mem_singleton] at e
        subst e
        rw [members_eq (getObj_putObj_self _ _ _)] at hr'; cases hr'

theorem noKey_col {w : World K V Ty} {o : Nat} {k : K} {vo : Obj K V Ty} (hi : Inv own home w) (ho : w.getObj o = some vo) (hs : vo.isSet = false) :
    isKeyExist w o k = false ↔ mget vo.cols k = none := by
  simp only [isKeyExist, ho, mhas_false]
  constructor
  · intro h
    cases hc : mget vo.cols k with
    | none => rfl
    | some c =>
      obtain ⟨v, hv, _⟩ := (hi.v.vok o vo ho hs).tmplT k c hc
      rw [h] at hv; cases hv
  · exact (hi.v.vok o vo ho hs).tmplN k

theorem Unflagged.listed {w : World K V Ty} {o : Nat} (h : Unflagged w o) (hi : Inv own home w) (ho : isVault w o = true) {k : K} (hk : isKeyExist w o k = true)
    {r : Nat} (hr : r ∈ members w o) (b : Bool) : Listed b w o k r := by
  obtain ⟨vo, hvo, hs⟩ := isVault_iff.mp ho
  obtain ⟨c, hc⟩ := Option.ne_none_iff_exists'.mp (isKey_col hi hvo hs hk)
  rw [members_eq hvo] at hr
  exact CFull.listed hvo hc ((hi.v.vok o vo hvo hs).cols k c hc) (h.full hi k vo c hvo hs hc) b hr

theorem Erased.not_new {w w' : World K V Ty} {o : Nat} {k : K} {vo : Obj K V Ty} {l : List Nat} {own' : Nat → Nat} (h : Erased w w' o vo l) (hi : Inv own home w)
    (hi' : Inv own' home w') (ho : w.getObj o = some vo) (hs : vo.isSet = false) {r : Nat} (hnew : r ∉ members w o ∨ isKeyExist w o k = false) (hr : r ∈ members w' o)
    (hk : isKeyExist w' o k = true) {P : Prop} : P := by
  exfalso
  obtain ⟨cols, hobj, hsig⟩ := h.obj
  rcases hnew with h1 | h1
  · rw [members_eq hobj] at hr; rw [members_eq ho] at h1
    exact h1 (List.mem_filter.mp hr).1
  · simp only [isKeyExist, hobj] at hk
    simp only [isKeyExist, ho] at h1
    rw [h1] at hk; cases hk

/-- A new record is listed under every key, and a new key lists every record. -/
theorem step_listed_new {env : Env} {w w' : World K V Ty} {op : Op K V Ty} (hi : Inv own home w) (hg : Ordinary home w op)
    (hai : AI w) (hstep : step env w op = some w') {o : Nat} {k : K} (hm : ∀ a, op ≠ .vaultMoveNew a) (hm' : ∀ a b, op ≠ .vaultMoveAssign a b)
    (hne : ∀ f ps, op ≠ .refSetDataMany f ps) {r : Nat} (ho' : isVault w' o = true)
    (hr' : r ∈ members w' o) (hk' : isKeyExist w' o k = true)
    (hnew : isVault w o = false ∨ r ∉ members w o ∨ isKeyExist w o k = false) (b : Bool) : Listed b w' o k r := by
  obtain ⟨own', hi'⟩ := step_inv hi hg hstep
  by_cases ho : isVault w o = true
  swap
  · by_cases hk : o ∈ keyOps w op
    swap
    · obtain ⟨vo, h1, h2⟩ := isVault_iff.mp ho'
      exact absurd (isVault_iff.mpr ((step_any hai hstep).before o vo h1 h2 hk)) ho
    cases op <;> simp only [keyOps, List.mem_singleton, List.not_mem_nil] at hk
    case newVault =>
      subst hk; cases hstep
      rw [members_eq (newVault_obj w)] at hr'; cases hr'
    case vaultCopyNew a =>
      subst hk
      obtain ⟨⟨ao, ha', has⟩, h⟩ := onVault_some hstep
      have hne : w.nextO ≠ a := by have := hi.v.ltO a ao ha'; omega
      refine (copyInto_unflagged (w := newVault w) (ao := ao) (newVault_obj w) ?_ rfl rfl h).listed hi' ho' hk' hr' b
      show mget (mput w.objs w.nextO Obj.newVault) a = some ao
      rw [mget_mput, if_neg hne]; exact ha'
    case vaultMoveNew a => exact absurd rfl (hm a)
    case vaultMoveAssign a b => exact absurd rfl (hm' a b)
    all_goals
      subst hk
      exact absurd (isVault_iff.mpr (onVault_some hstep).1) ho
  have hnew : r ∉ members w o ∨ isKeyExist w o k = false := by
    rcases hnew with h | h
    · rw [ho] at h; cases h
    · exact h
  have same : (members w' o = members w o) → (isKeyExist w' o k = isKeyExist w o k) → Listed b w' o k r := by
    intro e1 e2
    exfalso
    rcases hnew with h | h
    · exact h (e1 ▸ hr')
    · rw [← e2, hk'] at h; cases h
  by_cases ht : o ∈ touched w op
  swap
  · obtain ⟨⟨a, a', h1, h2, h3, h4⟩, _⟩ := step_kept hi hg hstep ho ht
    exact same (by rw [members_eq h1, members_eq h3, h4]) (by unfold isKeyExist; rw [h1, h3]; dsimp only; rw [h4])
  obtain ⟨vo, hvo, hs⟩ := isVault_iff.mp ho
  have hvok := hi.v.vok o vo hvo hs
  cases op <;> simp only [touched, List.mem_singleton, List.not_mem_nil] at ht
  case refSetDataMany f ps => exact absurd rfl (hne f ps)
  case vaultMoveNew a => exact absurd rfl (hm a)
  case vaultMoveAssign a b => exact absurd rfl (hm' a b)
  case refSetData f k' v =>
    obtain ⟨res, h1⟩ := map_fst hstep
    obtain ⟨ref, hfr, h | ⟨r1, o', oo, x, hp, hvl, hoo, hx, hxv, hcase⟩⟩ := refSetData_spec hi h1
    · rw [h.1] at same ⊢; exact same rfl rfl
    · have e : o = o' := by simpa [touched, through_eq hfr, hvl] using ht
      subst e
      rw [hvo] at hoo; cases hoo
      rcases hcase with ⟨hset, h⟩ | ⟨hs', hown, _, ⟨h, hres⟩ | ⟨hres, h⟩⟩
      · rw [hs] at hset; cases hset
      · rw [h] at same ⊢; exact same rfl rfl
      · obtain ⟨c, c', old, hc, hold, hsv, hobj⟩ := h.idx
        exact same (by rw [members_eq hobj, members_eq hvo]) (by simp only [isKeyExist, hobj, hvo])
  case addKey o' k' d =>
    subst ht
    obtain ⟨_, h1⟩ := onVault_some hstep
    obtain ⟨res, h1⟩ := map_fst h1
    rcases addKey_spec hi hvo hs h1 with ⟨rfl, _⟩ | ⟨_, hn, i, c, _, _, _, d1, d2, st⟩
    · exact same rfl rfl
    · by_cases e : k' = k
      · subst e
        have hc : mget (vo.withKey k' d false c).cols k' = some c := by simp [Obj.withKey, mget_mput]
        have hok := (i.v.vok _ _ st.obj hs).cols k' c hc
        rw [members_eq st.obj] at hr'
        exact CFull.listed st.obj hc hok (hok.full d1 d2) b hr'
      · refine same (by rw [members_eq st.obj, members_eq hvo]; rfl) ?_
        rw [Bool.eq_iff_iff, ← not_iff_not, Bool.not_eq_true, Bool.not_eq_true, noKey_col i st.obj hs, noKey_col hi hvo hs]
        simp [Obj.withKey, mget_mput, e]
  case addUniqueKey o' k' t noFn fn =>
    subst ht
    obtain ⟨_, h1⟩ := onVault_some hstep
    obtain ⟨res, h1⟩ := map_fst h1
    rcases addUniqueKey_spec hi hvo hs h1 with ⟨rfl, _⟩ | ⟨rfl, _⟩ | ⟨rfl, _⟩ | ⟨_, hn, _, i, _, c, _, hm, st⟩
    · exact same rfl rfl
    · exact same rfl rfl
    · exact same rfl rfl
    · by_cases e : k' = k
      · subst e
        have hc : mget (vo.withKey k' (zero t) true c).cols k' = some c := by simp [Obj.withKey, mget_mput]
        have hok := (i.v.vok _ _ st.obj hs).cols k' c hc
        rw [members_eq st.obj] at hr'
        exact CFull.listed st.obj hc hok (hok.fullU hm) b hr'
      · refine same (by rw [members_eq st.obj, members_eq hvo]; rfl) ?_
        rw [Bool.eq_iff_iff, ← not_iff_not, Bool.not_eq_true, Bool.not_eq_true, noKey_col i st.obj hs, noKey_col hi hvo hs]
        simp [Obj.withKey, mget_mput, e]
  case updateKey o' k' d =>
    subst ht
    obtain ⟨_, h1⟩ := onVault_some hstep
    obtain ⟨res, h1⟩ := map_fst h1
    rcases (updateKey_spec hi hvo hs h1).2 with ⟨rfl, _⟩ | ⟨_, _, _, rfl, _⟩ | ⟨_, _, _, _, rfl, _⟩ | ⟨_, _, _, _, _, rfl⟩
    · exact same rfl rfl
    · exact same rfl rfl
    · exact same rfl rfl
    · refine same (by rw [members_eq (getObj_putObj_self _ _ _), members_eq hvo]) ?_
      rw [Bool.eq_iff_iff, ← not_iff_not, Bool.not_eq_true, Bool.not_eq_true, noKey_col hi' (getObj_putObj_self _ _ _) hs, noKey_col hi hvo hs]
  case removeKey o' k' =>
    subst ht
    obtain ⟨_, h1⟩ := onVault_some hstep
    obtain ⟨res, h1⟩ := map_fst h1
    rcases removeKey_spec hi hvo hs h1 with ⟨rfl, _⟩ | ⟨_, _, i, st⟩
    · exact same rfl rfl
    · have := isKey_col i st.obj hs hk'
      have e : k' ≠ k := by rintro rfl; exact this (by simp [Obj.withoutKey, mget_mdel])
      refine same (by rw [members_eq st.obj, members_eq hvo]; rfl) ?_
      rw [Bool.eq_iff_iff, ← not_iff_not, Bool.not_eq_true, Bool.not_eq_true, noKey_col i st.obj hs, noKey_col hi hvo hs]
      simp [Obj.withoutKey, mget_mdel, e]
  case createRecord o' f ps =>
    subst ht
    obtain ⟨_, h1⟩ := onVault_some hstep
    simp only [Option.map_eq_some_iff, Prod.exists] at h1
    obtain ⟨w1, res, h1, rfl⟩ := h1
    rcases createRecord_spec hi hvo hs h1 with ⟨rfl, _⟩ | ⟨_, _, rfl, _⟩ | ⟨data, w2, cols, _, _, _, hcols, e1, st, i, _⟩
    · exact same rfl rfl
    · exact same rfl rfl
    · have hw2 : w2.getObj o = some { vo with cols := cols, recs := vo.recs ++ [w.nextR] } := by rw [e1, getObj_putObj_self]
      have hobj : w1.getObj o = some { vo with cols := cols, recs := vo.recs ++ [w.nextR] } := by rw [st.rf.obj]; exact hw2
      have hcell : ∀ r ∈ vo.recs, ∀ k, cellOf w1 r k = cellOf w r k := by
        intro r hr k
        obtain ⟨_, x, hx, hxv⟩ := hi.v.mem _ vo hvo hs r hr
        have hlt := hi.v.ltR r x hx
        have hx1 : w2.getRec r = some x := by
          subst e1
          show mget (mput w.recs w.nextR _) r = some x
          rw [mget_mput, if_neg (by omega)]; exact hx
        obtain ⟨y, hy, d, _⟩ := st.rf.recTo' hx1 hxv
        simp [cellOf, hx, hy, d]
      have hcellN : ∀ k, cellOf w1 w.nextR k = mget data k := by
        intro k
        have hx1 : w2.getRec w.nextR = some ⟨data, true, 0, []⟩ := by
          subst e1
          show mget (mput w.recs w.nextR _) w.nextR = some _
          rw [mget_mput, if_pos rfl]
        obtain ⟨y, hy, d, _⟩ := st.rf.recTo' hx1 rfl
        simp [cellOf, hy, d]
      have hn : w.getRec w.nextR = none := by
        cases e : w.getRec w.nextR with
        | none => rfl
        | some x => have := hi.v.ltR _ x e; omega
      have hkc : mget vo.cols k ≠ none := by
        have := isKey_col i hobj hs hk'
        intro e; exact this (by simp [hcols, e])
      rw [createCase_listed (w1 := w2) hi i hvo hs hn hobj hcell hcellN hcols (by rw [members_eq hobj] at hr'; exact hr') hkc]
      rw [members_eq hobj] at hr'
      rcases List.mem_append.mp hr' with h1 | h1
      · exfalso
        rcases hnew with h2 | h2
        · rw [members_eq hvo] at h2; exact h2 h1
        · exact hkc ((noKey_col hi hvo hs).mp h2)
      · exact .inl (by simpa using h1)
  case createRow o' ps =>
    subst ht
    obtain ⟨_, h1⟩ := onVault_some hstep
    simp only [Option.map_eq_some_iff, Prod.exists] at h1
    obtain ⟨w1, res, h1, rfl⟩ := h1
    rcases createRow_spec hi hvo hs h1 with ⟨rfl, _⟩ | ⟨_, _, rfl, _⟩ | ⟨data, w2, cols, _, _, _, hcols, e1, st, i, _⟩
    · exact same rfl rfl
    · exact same rfl rfl
    · have hw2 : w2.getObj o = some { vo with cols := cols, recs := vo.recs ++ [w.nextR] } := by rw [e1, getObj_putObj_self]
      have hobj : w1.getObj o = some { vo with cols := cols, recs := vo.recs ++ [w.nextR] } := by rw [st.rf.obj]; exact hw2
      have hcell : ∀ r ∈ vo.recs, ∀ k, cellOf w1 r k = cellOf w r k := by
        intro r hr k
        obtain ⟨_, x, hx, hxv⟩ := hi.v.mem _ vo hvo hs r hr
        have hlt := hi.v.ltR r x hx
        have hx1 : w2.getRec r = some x := by
          subst e1
          show mget (mput w.recs w.nextR _) r = some x
          rw [mget_mput, if_neg (by omega)]; exact hx
        obtain ⟨y, hy, d, _⟩ := st.rf.recTo' hx1 hxv
        simp [cellOf, hx, hy, d]
      have hcellN : ∀ k, cellOf w1 w.nextR k = mget data k := by
        intro k
        have hx1 : w2.getRec w.nextR = some ⟨data, true, 0, []⟩ := by
          subst e1
          show mget (mput w.recs w.nextR _) w.nextR = some _
          rw [mget_mput, if_pos rfl]
        obtain ⟨y, hy, d, _⟩ := st.rf.recTo' hx1 rfl
        simp [cellOf, hy, d]
      have hn : w.getRec w.nextR = none := by
        cases e : w.getRec w.nextR with
        | none => rfl
        | some x => have := hi.v.ltR _ x e; omega
      have hkc : mget vo.cols k ≠ none := by
        have := isKey_col i hobj hs hk'
        intro e; exact this (by simp [hcols, e])
      rw [createCase_listed (w1 := w2) hi i hvo hs hn hobj hcell hcellN hcols (by rw [members_eq hobj] at hr'; exact hr') hkc]
      rw [members_eq hobj] at hr'
      rcases List.mem_append.mp hr' with h1 | h1
      · exfalso
        rcases hnew with h2 | h2
        · rw [members_eq hvo] at h2; exact h2 h1
        · exact hkc ((noKey_col hi hvo hs).mp h2)
      · exact .inl (by simpa using h1)
  case eraseRef o' f =>
    subst ht
    obtain ⟨_, h1⟩ := onVault_some hstep
    obtain ⟨res, h1⟩ := map_fst h1
    obtain ⟨ref, hfr, hh⟩ := eraseRef_vault hi hvo hs h1
    rcases hh with ⟨rfl, _⟩ | ⟨r, hp, _, hr, i, er⟩
    · exact same rfl rfl
    · exact er.not_new hi hi' hvo hs hnew hr' hk'
  case eraseKV o' k' v =>
    subst ht
    obtain ⟨_, h1⟩ := onVault_some hstep
    obtain ⟨res, h1⟩ := map_fst h1
    rcases eraseKV_vault hi hvo hs h1 with ⟨rfl, _⟩ | ⟨c, _, _, ⟨rfl, _⟩ | ⟨r, l, _, _, hr, hcell, i, er⟩⟩
    · exact same rfl rfl
    · exact same rfl rfl
    · exact er.not_new hi hi' hvo hs hnew hr' hk'
  case eraseManyKV o' k' v n =>
    subst ht
    obtain ⟨_, h1⟩ := onVault_some hstep
    obtain ⟨res, h1⟩ := map_fst h1
    rcases eraseManyKV_vault hi hvo hs h1 with ⟨rfl, _⟩ | ⟨c, _, hc, ⟨rfl, _⟩ | ⟨_, _, i, er⟩⟩
    · exact same rfl rfl
    · exact same rfl rfl
    · exact er.not_new hi hi' hvo hs hnew hr' hk'
  case dropData o' =>
    subst ht
    obtain ⟨_, h⟩ := onVault_some hstep
    obtain ⟨_, _, ho', _⟩ := dropData_spec hi hvo hs h
    rw [members_eq ho'] at hr'; cases hr'
  case dropVault o' =>
    subst ht
    obtain ⟨_, h⟩ := onVault_some hstep
    obtain ⟨_, ho', _⟩ := dropVault_spec hi hvo hs h
    rw [members_eq ho'] at hr'; cases hr'
  case destroyVault o' =>
    subst ht
    obtain ⟨_, h⟩ := onVault_some hstep
    simp only [destroyVault, Option.bind_eq_bind, Option.bind_eq_some_iff, Option.some.injEq] at h
    obtain ⟨w1, h1, rfl⟩ := h
    simp [members, World.getObj, mget_mdel] at hr'
  case vaultAssign o' a =>
    subst ht
    obtain ⟨_, h⟩ := onVault_some hstep
    obtain ⟨⟨ao, ha', has⟩, h⟩ := onVault_some h
    unfold vaultAssign at h
    split at h
    · cases h; exact same rfl rfl
    · rename_i hne
      simp only [Option.bind_eq_bind, Option.bind_eq_some_iff] at h
      obtain ⟨w1, h1, h2⟩ := h
      obtain ⟨i1, ho1, hO, hR, _⟩ := dropVault_spec hi hvo hs h1
      obtain ⟨ao1, ha1, e1, e2⟩ := (hO a (Ne.symm hne)).to ha'
      exact (copyInto_unflagged ho1 ha1 rfl rfl h2).listed hi' ho' hk' hr' b

/-- Moving a vault moves its listings. -/
theorem moveInto_listed {w w' : World K V Ty} {o a : Nat} (hne : o ≠ a) (h : moveInto w o a = some w') (b : Bool) (k : K) (r : Nat) :
    (Listed b w' o k r ↔ Listed b w a k r) ∧ ¬ Listed b w' a k r := by
  simp only [moveInto, Option.bind_eq_bind, Option.bind_eq_some_iff, Option.some.injEq] at h
  obtain ⟨ao, ha, vo, ho, rfl⟩ := h
  constructor
  · have h1 : ((w.putObj o { vo with tmpl := ao.tmpl, cols := ao.cols, keysOrder := ao.keysOrder, uniq := ao.uniq, recs := ao.recs, sets := ao.sets }).putObj a
        { ao with tmpl := [], cols := [], keysOrder := [], uniq := [], recs := [], sets := [] }).getObj o =
        some { vo with tmpl := ao.tmpl, cols := ao.cols, keysOrder := ao.keysOrder, uniq := ao.uniq, recs := ao.recs, sets := ao.sets } := by
      rw [getObj_putObj, if_neg (Ne.symm hne), getObj_putObj_self]
    simp only [Listed, ordIndex, hashIndex, h1, ha]
  · exact listed_none (getObj_putObj_self _ _ _) rfl

end MVault.W
