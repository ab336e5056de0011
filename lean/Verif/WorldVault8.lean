import Verif.WorldVault7
/-
Copying vaults.
-/
set_option linter.unusedSectionVars false
set_option linter.unusedSimpArgs false
namespace MVault.W
variable {K V Ty : Type} [LinearOrder K] [LinearOrder V] [Typed V Ty] [DecidableEq Ty]
variable {own home : Nat → Nat}

/-- The key a copied vault gets for key `c` of the source. -/
def Col.fresh (c : Col V Ty) : Col V Ty := ⟨typeOf c.dflt, true, c.dflt, [], [], false, false⟩

/-- The object after the key copiers of `l` have run on an object without records. -/
def withKeys (vo : Obj K V Ty) : List (K × Col V Ty) → Obj K V Ty
  | [] => vo
  | (k, c) :: l => withKeys (if mhas vo.cols k = true then vo else vo.withKey k c.dflt false c.fresh) l

theorem withKeys_spec (l : List (K × Col V Ty)) (vo : Obj K V Ty) :
    (withKeys vo l).isSet = vo.isSet ∧ (withKeys vo l).isBase = vo.isBase ∧ (withKeys vo l).parent = vo.parent ∧
    (withKeys vo l).uniq = vo.uniq ∧ (withKeys vo l).recs = vo.recs ∧ (withKeys vo l).sets = vo.sets ∧
    (∀ k, mget (withKeys vo l).cols k = (mget vo.cols k).or ((mget l k).map Col.fresh)) ∧
    ((∀ k, mget vo.cols k = none → mget vo.tmpl k = none) →
      ∀ k, mget (withKeys vo l).tmpl k = if mhas vo.cols k = true then mget vo.tmpl k else (mget l k).map (·.dflt)) := by
  induction l generalizing vo with
  | nil =>
    refine ⟨rfl, rfl, rfl, rfl, rfl, rfl, fun k => by simp [withKeys, mget], ?_⟩
    intro h k
    by_cases hk : mhas vo.cols k = true
    · simp [withKeys, hk]
    · have := h k ((mhas_false _ _).mp (by simpa using hk))
      simp [withKeys, hk, this, mget]
  | cons e l ih =>
    obtain ⟨k, c⟩ := e
    simp only [withKeys]
    by_cases hk : mhas vo.cols k = true
    · rw [if_pos hk]
      obtain ⟨a1, a2, a3, a4, a5, a6, a7, a8⟩ := ih vo
      refine ⟨a1, a2, a3, a4, a5, a6, ?_, ?_⟩
      · intro k'
        rw [a7]
        by_cases e : k = k'
        · subst e
          obtain ⟨c0, hc0⟩ := (mhas_iff _ _).mp hk
          simp [hc0]
        · simp [mget, e]
      · intro h k'
        rw [a8 h]
        by_cases e : k = k'
        · subst e; simp [hk]
        · simp [mget, e]
    · rw [if_neg hk]
      have hk' : mget vo.cols k = none := (mhas_false _ _).mp (by simpa using hk)
      obtain ⟨a1, a2, a3, a4, a5, a6, a7, a8⟩ := ih (vo.withKey k c.dflt false c.fresh)
      refine ⟨a1, a2, a3, a4.trans (by simp [Obj.withKey]), a5, a6, ?_, ?_⟩
      · intro k'
        rw [a7]
        simp only [Obj.withKey, mget_mput]
        by_cases e : k = k'
        · subst e; simp [mget, hk']
        · simp [mget, e]
      · intro h k'
        rw [a8]
        · simp only [Obj.withKey, mhas, mget_mput]
          by_cases e : k = k'
          · subst e; simp [mget, hk']
          · simp [mget, e]
        · intro k'' hk''
          simp only [Obj.withKey, mget_mput] at hk'' ⊢
          split at hk''
          · cases hk''
          · rename_i e; rw [if_neg e]; exact h k'' hk''

theorem copyKeys_eq {env : Env} {src vo : Obj K V Ty} {w : World K V Ty} {o : Nat} (hr : vo.recs = []) :
    copyKeys env src (w.putObj o vo) o = some (w.putObj o (withKeys vo src.cols)) := by
  unfold copyKeys
  generalize src.cols = l
  induction l generalizing vo with
  | nil => rfl
  | cons e l ih =>
    obtain ⟨k, c⟩ := e
    simp only [loop, withKeys, addKeyLocal, getObj_putObj_self, Option.bind_eq_bind, Option.bind_some]
    by_cases hk : mhas vo.cols k = true
    · simp only [if_pos hk, Option.map_some, Option.bind_some]
      exact ih hr
    · simp only [if_neg hk, hr, perm_nil, List.map_nil, loop, Option.bind_some, List.foldl_nil, Option.map_some, putObj_putObj]
      exact ih (vo := vo.withKey k c.dflt false c.fresh) hr

/-- What `copyOne` has done after the records of `d`. -/
structure Copied (w w' : World K V Ty) (o : Nat) (vo : Obj K V Ty) (d : List Nat) : Prop where
  obj : ∃ cols, w'.getObj o = some { vo with cols := cols, recs := vo.recs ++ List.range' w.nextR d.length } ∧
    ∀ k, (mget cols k).map Col.sig = (mget vo.cols k).map Col.sig
  objs : ∀ o', o' ≠ o → w'.getObj o' = w.getObj o'
  old : ∀ r, r < w.nextR → w'.getRec r = w.getRec r
  new : ∀ i r, d[i]? = some r → ∃ x, w.getRec r = some x ∧ w'.getRec (w.nextR + i) = some ⟨x.data, true, 0, []⟩
  refs : w'.refs = w.refs
  nextR : w'.nextR = w.nextR + d.length
  nextO : w'.nextO = w.nextO

theorem sig_add (c : Col V Ty) (v : V) (r : Nat) : (c.add v r).1.sig = c.sig := by
  obtain ⟨a, b, c, _⟩ := Col.add_shape c v r
  simp [Col.sig, a, b, c]

theorem copyLoop_spec {w : World K V Ty} {o : Nat} {vo : Obj K V Ty} (ho : w.getObj o = some vo) (hlt : ∀ r x, w.getRec r = some x → r < w.nextR)
    (d : List Nat) (hd : ∀ r ∈ d, ∃ x, w.getRec r = some x) :
    ∃ w', loop (copyOne o) d w = some w' ∧ Copied w w' o vo d := by
  suffices H : ∀ (d done : List Nat) (w1 : World K V Ty), (∀ r ∈ d, ∃ x, w.getRec r = some x) → Copied w w1 o vo done →
      ∃ w', loop (copyOne o) d w1 = some w' ∧ Copied w w' o vo (done ++ d) by
    refine H d [] w hd ⟨⟨vo.cols, by simp [ho], fun _ => rfl⟩, fun _ _ => rfl, fun _ _ => rfl, by simp, rfl, rfl, rfl⟩
  intro d
  induction d with
  | nil => intro done w1 _ h; exact ⟨w1, rfl, by simpa using h⟩
  | cons r d ih =>
    intro done w1 hd h
    obtain ⟨x, hx⟩ := hd r (by simp)
    have hr := hlt r x hx
    obtain ⟨cols, hob, hsig⟩ := h.obj
    have hx1 : w1.getRec r = some x := by rw [h.old r hr]; exact hx
    have e1 : copyOne o w1 r = some (({ w1 with recs := mput w1.recs w1.nextR ⟨x.data, true, 0, []⟩, nextR := w1.nextR + 1 } : World K V Ty).putObj o
        { vo with cols := addCols cols x.data w1.nextR, recs := vo.recs ++ List.range' w.nextR done.length ++ [w1.nextR] }) := by
      simp only [copyOne, hx1, hob, Option.bind_eq_bind, Option.bind_some]
    obtain ⟨w', e', c'⟩ := ih (done ++ [r])
      (({ w1 with recs := mput w1.recs w1.nextR ⟨x.data, true, 0, []⟩, nextR := w1.nextR + 1 } : World K V Ty).putObj o
        { vo with cols := addCols cols x.data w1.nextR, recs := vo.recs ++ List.range' w.nextR done.length ++ [w1.nextR] })
      (fun r' hr' => hd r' (by simp [hr'])) (by
        refine ⟨⟨addCols cols x.data w1.nextR, ?_, ?_⟩, ?_, ?_, ?_, h.refs, ?_, h.nextO⟩
        · rw [getObj_putObj_self, h.nextR]
          simp [List.range'_append, List.range'_concat]
        · intro k
          simp only [addCols, mget_mmap, ← hsig]
          cases mget cols k with
          | none => rfl
          | some c => simp [sig_add]
        · intro o' hne
          rw [getObj_putObj, if_neg (Ne.symm hne), getObj_newRec]
          exact h.objs o' hne
        · intro r' hr'
          have hlt' := h.nextR
          rw [getRec_putObj, getRec_new, if_neg (by omega)]
          exact h.old r' hr'
        · intro i r' hi
          have hlt' := h.nextR
          rw [getRec_putObj, getRec_new]
          by_cases hil : i < done.length
          · rw [if_neg (by omega)]
            rw [List.getElem?_append_left hil] at hi
            exact h.new i r' hi
          · rw [List.getElem?_append_right (by omega)] at hi
            have : i = done.length := by
              by_contra hne
              rw [List.getElem?_eq_none (by simp; omega)] at hi; cases hi
            subst this
            simp at hi; subst hi
            rw [if_pos (by omega)]
            exact ⟨x, hx, rfl⟩
        · show w1.nextR + 1 = _
          have hlt' := h.nextR
          simp; omega)
    exact ⟨w', by simp only [loop, e1, Option.bind_some]; exact e', by simpa using c'⟩

/-- Copying into a vault without records and keys is always defined and gives equal contents. -/
theorem copyInto_spec {env : Env} {w : World K V Ty} {o a : Nat} {vo ao : Obj K V Ty} (hne : o ≠ a)
    (ha : w.getObj a = some ao) (hr : vo.recs = [])
    (hlt : ∀ r x, w.getRec r = some x → r < w.nextR) (hl : ∀ r ∈ ao.recs, ∃ x, w.getRec r = some x) :
    ∃ w', copyInto env (w.putObj o vo) o a = some w' ∧
      Copied (w.putObj o vo) w' o { withKeys vo ao.cols with keysOrder := ao.keysOrder, uniq := ao.uniq } (env.perm ao.recs) := by
  have ha' : (w.putObj o vo).getObj a = some ao := by rw [getObj_putObj, if_neg hne]; exact ha
  simp only [copyInto, ha', Option.bind_eq_bind, Option.bind_some, copyKeys_eq hr, getObj_putObj_self, putObj_putObj]
  obtain ⟨w', e, c⟩ := copyLoop_spec (w := w.putObj o { withKeys vo ao.cols with keysOrder := ao.keysOrder, uniq := ao.uniq }) (getObj_putObj_self _ _ _)
    (by intro r x hx; exact hlt r x hx) (env.perm ao.recs) (by intro r hr; exact hl r (by simpa using hr))
  refine ⟨w', e, ⟨c.obj, ?_, c.old, c.new, c.refs, c.nextR, c.nextO⟩⟩
  intro o' hne'
  rw [c.objs o' hne']
  simp only [getObj_putObj, if_neg (Ne.symm hne')]

/-! ### The invariant when the source has no unique keys -/

theorem copyOne_inv {w w' : World K V Ty} {o r : Nat} {vo : Obj K V Ty} {x : Rec K V} (hi : Inv own home w) (ho : w.getObj o = some vo) (hs : vo.isSet = false)
    (hu : vo.uniq = []) (hx : w.getRec r = some x)
    (hdata : ∀ k c, mget vo.cols k = some c → ∃ v, mget x.data k = some v ∧ typeOf v = c.ty)
    (hnone : ∀ k, mget vo.cols k = none → mget x.data k = none) (h : copyOne o w r = some w') :
    Inv (fun r => if r = w.nextR then o else own r) home w' := by
  have hi' : Inv (fun r => if r = w.nextR then o else own r) home w := hi.own_congr (by intro r hr; simp; omega)
  rcases insertRecord_spec hi' ho hs (by simp) hdata hnone with ⟨k, hk, _⟩ | ⟨w2, cols, h2, i2, _, _, _⟩
  · rw [hu] at hk; simp at hk
  · simp only [copyOne, hx, ho, Option.bind_eq_bind, Option.bind_some, Option.some.injEq] at h
    simp only [insertRecord, ho, hu, addUniques, Option.bind_eq_bind, Option.bind_some, Option.some.injEq, Prod.mk.injEq] at h2
    rw [← h, hu, h2.1]; exact i2

theorem copyLoop_inv {o : Nat} {d : List Nat} : ∀ {own : Nat → Nat} {w w' : World K V Ty} {vo : Obj K V Ty},
    Inv own home w → w.getObj o = some vo → vo.isSet = false → vo.uniq = [] →
    (∀ r ∈ d, ∃ x, w.getRec r = some x ∧ (∀ k c, mget vo.cols k = some c → ∃ v, mget x.data k = some v ∧ typeOf v = c.ty) ∧
      (∀ k, mget vo.cols k = none → mget x.data k = none)) →
    loop (copyOne o) d w = some w' → Inv (fun r => if w.nextR ≤ r ∧ r < w.nextR + d.length then o else own r) home w' := by
  induction d with
  | nil =>
    intro own w w' vo hi _ _ _ _ h
    simp only [loop, Option.some.injEq] at h; subst h
    exact hi.own_congr (by intro r hr; simp; omega)
  | cons r d ih =>
    intro own w w' vo hi ho hs hu hd h
    simp only [loop, Option.bind_eq_some_iff] at h
    obtain ⟨w1, h1, h⟩ := h
    obtain ⟨x, hx, hx1, hx2⟩ := hd r (by simp)
    have i1 := copyOne_inv hi ho hs hu hx hx1 hx2 h1
    obtain ⟨w1', e1, c1⟩ := copyLoop_spec ho hi.v.ltR [r] (by intro r' hr'; simp at hr'; subst hr'; exact ⟨x, hx⟩)
    simp only [loop, h1, Option.bind_some, Option.some.injEq] at e1; subst e1
    obtain ⟨cols, hob, hsig⟩ := c1.obj
    have i2 := ih i1 hob hs hu (by
      intro r' hr'
      obtain ⟨y, hy, hy1, hy2⟩ := hd r' (by simp [hr'])
      refine ⟨y, by rw [c1.old r' (hi.v.ltR _ _ hy)]; exact hy, ?_, ?_⟩
      · intro k c hk
        have hk' : mget cols k = some c := hk
        have := hsig k
        rw [hk'] at this
        cases hc : mget vo.cols k with
        | none => rw [hc] at this; simp at this
        | some c0 =>
          rw [hc] at this; simp [Col.sig] at this
          obtain ⟨v, hv, hvt⟩ := hy1 k c0 hc
          exact ⟨v, hv, by rw [hvt, this.1]⟩
      · intro k hk
        have hk' : mget cols k = none := hk
        have := hsig k
        rw [hk'] at this
        cases hc : mget vo.cols k with
        | none => exact hy2 k hc
        | some c0 => rw [hc] at this; simp at this) h
    refine i2.own_congr ?_
    intro r' hr'
    have hn := c1.nextR
    simp at hn
    simp only [hn, List.length_cons]
    by_cases e : r' = w.nextR
    · subst e; simp
    · rw [if_neg e]
      by_cases e2 : w.nextR ≤ r' ∧ r' < w.nextR + (d.length + 1)
      · rw [if_pos e2, if_pos (by omega)]
      · rw [if_neg e2, if_neg (by omega)]

/-- The keys of a copy satisfy the invariant when the source has no unique keys. -/
theorem VOk.copy {cell cell' : Nat → K → Option V} {ao vo : Obj K V Ty} (h : VOk cell ao) (hu : ao.uniq = []) (hb : vo.isBase = true) (hp : vo.parent = none)
    (hc : vo.cols = []) (ht : vo.tmpl = []) (hr : vo.recs = []) :
    VOk cell' { withKeys vo ao.cols with keysOrder := ao.keysOrder, uniq := ao.uniq } := by
  obtain ⟨a1, a2, a3, a4, a5, a6, a7, a8⟩ := withKeys_spec ao.cols vo
  have a7' : ∀ k, mget (withKeys vo ao.cols).cols k = (mget ao.cols k).map Col.fresh := by
    intro k; rw [a7, hc]; simp [mget]
  have a8' : ∀ k, mget (withKeys vo ao.cols).tmpl k = (mget ao.cols k).map (·.dflt) := by
    intro k
    rw [a8 (by intro k _; rw [ht]; rfl), hc]
    simp [mget, mhas]
  have hmulti : ∀ k c, mget ao.cols k = some c → c.multi = true := by
    intro k c hk
    by_contra hm
    have := (h.uniqM k).mpr ⟨c, hk, by simpa using hm⟩
    rw [hu] at this; simp at this
  refine ⟨?_, ?_, ?_, h.keysN, ?_, ?_, ?_, ?_, ?_, a2.trans hb, a3.trans hp⟩
  · intro k c hk
    have hk' : mget (withKeys vo ao.cols).cols k = some c := hk
    rw [a7'] at hk'
    simp only [Option.map_eq_some_iff] at hk'
    obtain ⟨c0, h0, rfl⟩ := hk'
    show ColOk _ (withKeys vo ao.cols).recs _
    rw [a5, hr]
    exact ColOk.empty _ _ rfl rfl rfl rfl rfl
  · intro r hr'
    have hr' : r ∈ (withKeys vo ao.cols).recs := hr'
    rw [a5, hr] at hr'; simp at hr'
  · show (withKeys vo ao.cols).recs.Nodup
    rw [a5, hr]; simp
  · intro k
    show k ∈ ao.keysOrder ↔ ∃ c, mget (withKeys vo ao.cols).cols k = some c
    rw [h.keysM, a7']
    constructor
    · rintro ⟨c, hc⟩; exact ⟨c.fresh, by rw [hc]; rfl⟩
    · rintro ⟨c, hc⟩
      simp only [Option.map_eq_some_iff] at hc
      obtain ⟨c0, h0, _⟩ := hc
      exact ⟨c0, h0⟩
  · exact h.uniqS
  · intro k
    show k ∈ ao.uniq ↔ ∃ c, mget (withKeys vo ao.cols).cols k = some c ∧ _
    rw [hu, a7']
    constructor
    · intro hm; simp at hm
    · rintro ⟨c, hc, hm⟩
      simp only [Option.map_eq_some_iff] at hc
      obtain ⟨c0, h0, rfl⟩ := hc
      simp [Col.fresh] at hm
  · intro k hk
    have hk' : mget (withKeys vo ao.cols).cols k = none := hk
    show mget (withKeys vo ao.cols).tmpl k = none
    rw [a7'] at hk'
    rw [a8']
    cases hc0 : mget ao.cols k with
    | none => rfl
    | some c => rw [hc0] at hk'; simp at hk'
  · intro k c hk
    have hk' : mget (withKeys vo ao.cols).cols k = some c := hk
    show ∃ v, mget (withKeys vo ao.cols).tmpl k = some v ∧ _
    rw [a7'] at hk'
    simp only [Option.map_eq_some_iff] at hk'
    obtain ⟨c0, h0, rfl⟩ := hk'
    exact ⟨c0.dflt, by rw [a8', h0]; rfl, rfl⟩

theorem copyInto_inv {env : Env} {w w' : World K V Ty} {o a : Nat} {vo ao : Obj K V Ty} (hi : Inv own home w)
    (ho : w.getObj o = some vo) (hs : vo.isSet = false) (ha : w.getObj a = some ao) (has : ao.isSet = false) (hne : o ≠ a)
    (hu : ao.uniq = []) (hc : vo.cols = []) (ht : vo.tmpl = []) (hr : vo.recs = [])
    (h : copyInto env w o a = some w') :
    Inv (fun r => if w.nextR ≤ r ∧ r < w.nextR + ao.recs.length then o else own r) home w' := by
  have hvok := hi.v.vok o vo ho hs
  have hvoka := hi.v.vok a ao ha has
  obtain ⟨a1, a2, a3, a4, a5, a6, a7, a8⟩ := withKeys_spec ao.cols vo
  have hw : w.putObj o vo = w := by
    show ({ w with objs := mput w.objs o vo } : World K V Ty) = w
    have : mput w.objs o vo = w.objs := by
      have hg : mget w.objs o = some vo := ho
      generalize w.objs = m at hg
      induction m with
      | nil => simp [mget] at hg
      | cons e m ih =>
        obtain ⟨k, v⟩ := e
        simp only [mget] at hg
        simp only [mput]
        split at hg
        · rename_i e; cases hg; rw [if_pos e, e]
        · rename_i e; rw [if_neg e, ih hg]
    rw [this]
  have ha' := ha
  simp only [copyInto, ha, Option.bind_eq_bind, Option.bind_some] at h
  rw [← hw] at h
  simp only [copyKeys_eq hr, Option.bind_some, getObj_putObj_self, putObj_putObj] at h
  have q1 : QI own home (w.putObj o { withKeys vo ao.cols with keysOrder := ao.keysOrder, uniq := ao.uniq }) :=
    hi.q.putVault ho hs (a1.trans hs) (a2.trans hvok.base) a3 a6
  have vok1 : VOk (cellOf (w.putObj o { withKeys vo ao.cols with keysOrder := ao.keysOrder, uniq := ao.uniq }))
      { withKeys vo ao.cols with keysOrder := ao.keysOrder, uniq := ao.uniq } := hvoka.copy hu hvok.base hvok.par hc ht hr
  have i1 : Inv own home (w.putObj o { withKeys vo ao.cols with keysOrder := ao.keysOrder, uniq := ao.uniq }) := by
    refine hi.build (o := o) (.putObj o w _) q1 (getObj_putObj_self _ _ _) (a1.trans hs) vok1 ?_ ?_
    · intro r hr'
      have hr' : r ∈ (withKeys vo ao.cols).recs := hr'
      rw [a5, hr] at hr'; simp at hr'
    · intro r x hx hv hown
      have hx' : w.getRec r = some x := hx
      obtain ⟨vo', b1, b2, b3⟩ := hi.v.val r x hx' hv
      rw [hown, ho] at b1; cases b1
      rw [hr] at b3; simp at b3
  have := copyLoop_inv i1 (getObj_putObj_self _ _ _) (a1.trans hs) hu (d := env.perm ao.recs) ?_ h
  · rw [(env.isPerm ao.recs).length_eq] at this; exact this
  · intro r hr'
    have hr' : r ∈ ao.recs := by simpa using hr'
    obtain ⟨_, x, hx, hxv⟩ := hi.v.mem a ao ha has r hr'
    have hcell : ∀ k, cellOf w r k = mget x.data k := by intro k; simp [cellOf, hx]
    refine ⟨x, hx, ?_, ?_⟩
    · intro k c hk
      have hk' : mget (withKeys vo ao.cols).cols k = some c := hk
      rw [a7, hc] at hk'
      simp only [mget, Option.none_or, Option.map_eq_some_iff] at hk'
      obtain ⟨c0, h0, rfl⟩ := hk'
      obtain ⟨v, hv, hvt⟩ := (hvoka.cols k c0 h0).typed r hr'
      rw [hcell] at hv
      exact ⟨v, hv, by rw [hvt]; exact (hvoka.cols k c0 h0).dfltT.symm⟩
    · intro k hk
      have hk' : mget (withKeys vo ao.cols).cols k = none := hk
      rw [a7, hc] at hk'
      simp only [mget, Option.none_or, Option.map_eq_none_iff] at hk'
      rw [← hcell]
      exact hvoka.nocol r hr' k hk'

theorem vaultCopyNew_inv {env : Env} {w w' : World K V Ty} {a : Nat} {ao : Obj K V Ty} (hi : Inv own home w)
    (ha : w.getObj a = some ao) (has : ao.isSet = false) (hu : ao.uniq = []) (h : vaultCopyNew env w a = some w') :
    Inv (fun r => if w.nextR ≤ r ∧ r < w.nextR + ao.recs.length then w.nextO else own r) home w' := by
  have hlt := hi.v.ltO a ao ha
  have hne : w.nextO ≠ a := by omega
  exact copyInto_inv (w := newVault w) (hi.newObj (.inl rfl)) (getObj_freshSelf _ _ _ _) rfl
    (by show ({ w with objs := mput w.objs w.nextO Obj.newVault, nextO := w.nextO + 1 } : World K V Ty).getObj a = _; rw [getObj_new, if_neg hne]; exact ha)
    has hne hu rfl rfl rfl h

theorem vaultAssign_inv {env : Env} {w w' : World K V Ty} {o a : Nat} {vo ao : Obj K V Ty} (hi : Inv own home w)
    (ho : w.getObj o = some vo) (hs : vo.isSet = false)
    (ha : w.getObj a = some ao) (has : ao.isSet = false) (hu : o ≠ a → ao.uniq = []) (h : vaultAssign env w o a = some w') :
    ∃ own', Inv own' home w' := by
  unfold vaultAssign at h
  split at h
  · cases h; exact ⟨own, hi⟩
  · rename_i hne
    simp only [Option.bind_eq_bind, Option.bind_eq_some_iff] at h
    obtain ⟨w1, h1, h2⟩ := h
    obtain ⟨i1, ho1, hO, _⟩ := dropVault_spec hi ho hs h1
    obtain ⟨ao1, ha1, e1, e2⟩ := (hO a (Ne.symm hne)).to ha
    exact ⟨_, copyInto_inv i1 ho1 hs ha1 (e1.trans has) hne (by rw [e2 has]; exact hu hne) rfl rfl rfl h2⟩

end MVault.W
