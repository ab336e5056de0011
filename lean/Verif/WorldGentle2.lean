import Verif.WorldGentle
/-
The algebra of sets: putting records into a set, and taking them out, keeps the set invariant.
-/
set_option linter.unusedSectionVars false
set_option linter.unusedSimpArgs false
set_option linter.unusedVariables false
namespace MVault.W
variable {K V Ty : Type} [LinearOrder K] [LinearOrder V] [Typed V Ty] [DecidableEq Ty]
variable {own home : Nat → Nat}

/-- Only the set `s` has changed, from `so` to `so'`. -/
structure Turn (own home : Nat → Nat) (s : Nat) (so so' : Obj K V Ty) (w w' : World K V Ty) : Prop where
  recs : w'.recs = w.recs
  refs : w'.refs = w.refs
  nextR : w'.nextR = w.nextR
  nextO : w'.nextO = w.nextO
  obj : ∀ o, o ≠ s → w'.getObj o = w.getObj o
  get : w'.getObj s = some so'
  isSet : so'.isSet = true
  par : so'.parent = so.parent
  good : Good w'
  inv : Inv own home w'

theorem Turn.refl {w : World K V Ty} {s : Nat} {so : Obj K V Ty} (hi : Inv own home w) (hg : Good w) (hs : w.getObj s = some so) (his : so.isSet = true) :
    Turn own home s so so w w := ⟨rfl, rfl, rfl, rfl, fun _ _ => rfl, hs, his, rfl, hg, hi⟩

theorem Turn.trans {a b c : World K V Ty} {s : Nat} {x y z : Obj K V Ty} (h1 : Turn own home s x y a b) (h2 : Turn own home s y z b c) :
    Turn own home s x z a c :=
  ⟨h2.recs.trans h1.recs, h2.refs.trans h1.refs, h2.nextR.trans h1.nextR, h2.nextO.trans h1.nextO, fun o h => (h2.obj o h).trans (h1.obj o h), h2.get, h2.isSet,
    h2.par.trans h1.par, h2.good, h2.inv⟩

theorem Turn.recOf {w w' : World K V Ty} {s : Nat} {so so' : Obj K V Ty} (h : Turn own home s so so' w w') (r : Nat) : w'.getRec r = w.getRec r := by
  simp only [World.getRec, h.recs]

theorem Turn.knows {T P T' P' : Nat → Prop} {w w' : World K V Ty} {s : Nat} {so so' : Obj K V Ty} (h : Turn own home s so so' w w') (hs : w.getObj s = some so)
    (his : so.isSet = true) (hk : Knows T P w) (hT : ∀ s, T s → T' s) (hP : ∀ r, P r → P' r) (h1 : ∀ r ∈ so.recs, r ∉ so'.recs → P' r)
    (h2 : ∀ r ∈ so'.recs, r ∉ so.recs → T' s) : Knows T' P' w' := by
  intro r x hx
  rw [h.recOf] at hx
  obtain ⟨k0, k⟩ := hk r x hx
  refine ⟨k0, fun hv hp => ?_⟩
  obtain ⟨k1, k2⟩ := k hv fun h' => hp (hP r h')
  refine ⟨fun t ht => ?_, ?_⟩
  · obtain ⟨to, a, b, c⟩ := k1 t ht
    by_cases e : t = s
    · subst e
      rw [hs] at a; cases a
      exact ⟨so', h.get, h.isSet, by by_contra hn; exact hp (h1 r c hn)⟩
    · exact ⟨to, by rw [h.obj t e]; exact a, b, c⟩
  · rintro t ⟨to, a, b, c⟩ hn
    by_cases e : t = s
    · subst e
      rw [h.get] at a; cases a
      refine k2 t ⟨so, hs, his, ?_⟩ fun h' => hn (hT t h')
      by_contra hn'; exact hn (h2 r c hn')
    · exact k2 t ⟨to, by rw [← h.obj t e]; exact a, b, c⟩ fun h' => hn (hT t h')

theorem Good.putSet {w : World K V Ty} {s : Nat} {so so' : Obj K V Ty} (hi : Inv own home w) (hg : Good w) (hs : w.getObj s = some so)
    (his : so.isSet = true) (hsets : so'.sets = so.sets) (hpar : so'.parent = so.parent) (g : SetGood w so') : Good (w.putObj s so') := by
  have key : ∀ t x, w.getObj t = some x → x.isSet = true → ∀ y : Obj K V Ty, y.parent = x.parent → SetGood w y → SetGood (w.putObj s so') y := by
    intro t x hx hxs y hy g
    refine ⟨g.held, g.recsN, g.cols, g.det, fun p po hp hpo => ?_⟩
    obtain ⟨po', a, b, _⟩ := hi.l.up t x p hx hxs (by rw [← hy]; exact hp)
    have hne : s ≠ p := by rintro rfl; rw [hs] at a; cases a; rw [his] at b; cases b
    rw [getObj_putObj, if_neg hne] at hpo
    exact g.att p po hp hpo
  refine ⟨fun t x hx hxs => ?_, fun o vo ho => ?_⟩
  · rw [getObj_putObj] at hx
    split at hx
    · rename_i e; subst e; cases hx
      exact key s so hs his so' hpar g
    · exact key t x hx hxs x rfl (hg.set t x hx hxs)
  · rw [getObj_putObj] at ho
    split at ho
    · rename_i e; subst e; cases ho; rw [hsets]; exact hg.setsN s so hs
    · exact hg.setsN o vo ho

/-! ### Putting records in -/

theorem addOnly_turn {w : World K V Ty} {s p r : Nat} {so po : Obj K V Ty} (hi : Inv own home w) (hg : Good w) (hs : w.getObj s = some so)
    (his : so.isSet = true) (hp : so.parent = some p) (hpo : w.getObj p = some po) (hr : r ∈ po.recs) :
    ∃ w' so' l, addOnly s w r = some w' ∧ Turn own home s so so' w w' ∧ so'.recs = so.recs ++ l ∧ (∀ t, t ∈ l ↔ t = r ∧ r ∉ so.recs) ∧ Grown l so so' ∧
      ∀ k, mhas so'.cols k = mhas so.cols k := by
  have hu := full_deep hi hg
  have iu : Inv own home w.full := told_inv hi
  obtain ⟨_, hpo', hpv, _⟩ := hi.l.up s so p hs his hp
  rw [hpo] at hpo'; cases hpo'
  by_cases hm : r ∈ so.recs
  · refine ⟨w, so, [], ?_, .refl hi hg hs his, by simp, by simp [hm], .refl _, fun _ => rfl⟩
    simp only [addOnly, hs, Option.bind_eq_bind, Option.bind_some, if_pos hm]
  · obtain ⟨hown, x, hx, hv⟩ := hi.v.mem p po hpo hpv r hr
    have ok := hi.s.sets s so hs his
    have g := hg.set s so hs his
    have fil := Filling.of_deep (so := so) iu hu hs his hp
    obtain ⟨_, hpo2, _, hsub⟩ := vault_of (p := p) (oo := so) (o := s) iu hu hs (by simp [vaultOf, his, hp])
    have : some po = some _ := hpo.symm.trans hpo2
    cases this
    obtain ⟨d, e1, _⟩ := told_rec (fun _ => False) w r
    have hxu : w.full.getRec r = some { x with deps := d x.deps } := by rw [World.full, e1, hx]; rfl
    obtain ⟨hcols, hgrown⟩ := addCols_fill fil iu.v hpo hpv hr hxu hm hsub
    have hcall : addOnly s w r = some (w.putObj s { so with recs := so.recs ++ [r], cols := addCols so.cols x.data r }) := by
      simp only [addOnly, hs, hx, Option.bind_eq_bind, Option.bind_some, if_neg hm]
    have hq := (addOnly_sq (own := own) (home := home) hs his (by rw [hp]; simp) (hown.trans (ok.par p hp)) (hi.s.ltR r x hx) hcall).1
    refine ⟨_, { so with recs := so.recs ++ [r], cols := addCols so.cols x.data r }, [r], hcall, ⟨rfl, rfl, rfl, rfl, ?_, getObj_putObj_self _ _ _, his, rfl, ?_, ?_⟩,
      rfl, by simp [hm], ?_, ?_⟩
    · intro o hne; rw [getObj_putObj, if_neg (Ne.symm hne)]
    · refine hg.putSet hi hs his rfl rfl ⟨?_, ?_, ?_, ?_, ?_⟩
      · intro t ht
        rcases List.mem_append.mp ht with ht | ht
        · exact g.held t ht
        · rw [List.mem_singleton] at ht; subst ht; exact ⟨x, hx, hv⟩
      · rw [List.nodup_append]
        exact ⟨g.recsN, by simp, by intro a ha b hb e; simp at hb; subst hb; subst e; exact hm ha⟩
      · intro k c hc
        exact (hcols k c hc).congr (fun _ => Iff.rfl) (fun t _ => (told_cell _ w t k).symm)
      · intro hn; rw [show ({ so with recs := so.recs ++ [r], cols := addCols so.cols x.data r } : Obj K V Ty).parent = so.parent from rfl, hp] at hn; cases hn
      · intro p' po' h1 h2
        refine (g.att p' po' h1 h2).left ⟨rfl, rfl, ?_⟩
        intro k
        simp only [addCols, mget_mmap, Option.map_map, Function.comp_def]
        congr 1; funext c
        rw [(Col.add_shape c _ r).1, (Col.add_shape c _ r).2.1]
    · exact (hq.sp ⟨hi.s, hi.l⟩).inv hi
    · exact hgrown
    · intro k
      simp only [mhas, addCols, mget_mmap]
      cases mget so.cols k <;> rfl

theorem Grown.append {l m : List Nat} {a b c : Obj K V Ty} (h1 : Grown l a b) (h2 : Grown m b c) (hk : ∀ k, mhas b.cols k = mhas a.cols k) :
    Grown (l ++ m) a c := by
  intro bb k r'
  rw [h2, h1, hk]
  simp only [List.mem_append]
  constructor
  · rintro ((h | h) | h)
    · exact .inl h
    · exact .inr ⟨.inl h.1, h.2⟩
    · exact .inr ⟨.inr h.1, h.2⟩
  · rintro (h | ⟨h | h, h'⟩)
    · exact .inl (.inl h)
    · exact .inl (.inr ⟨h, h'⟩)
    · exact .inr ⟨h, h'⟩

theorem loop_addOnly_turn {s p : Nat} {po : Obj K V Ty} (m : List Nat) : ∀ {w : World K V Ty} {so : Obj K V Ty}, Inv own home w → Good w →
    w.getObj s = some so → so.isSet = true → so.parent = some p → w.getObj p = some po → (∀ r ∈ m, r ∈ po.recs) →
    ∃ w' so' l, loop (addOnly s) m w = some w' ∧ Turn own home s so so' w w' ∧ so'.recs = so.recs ++ l ∧ (∀ t, t ∈ l ↔ t ∈ m ∧ t ∉ so.recs) ∧ Grown l so so' ∧
      ∀ k, mhas so'.cols k = mhas so.cols k := by
  induction m with
  | nil => intro w so hi hg hs his hp hpo hm; exact ⟨w, so, [], rfl, .refl hi hg hs his, by simp, by simp, .refl _, fun _ => rfl⟩
  | cons r m ih =>
    intro w so hi hg hs his hp hpo hm
    obtain ⟨w1, so1, l1, a1, t1, a2, a3, a4, a5⟩ := addOnly_turn hi hg hs his hp hpo (hm r (by simp))
    have hsp : p ≠ s := by
      obtain ⟨_, hpo', hpv, _⟩ := hi.l.up s so p hs his hp
      rintro rfl; rw [hs] at hpo'; cases hpo'; rw [his] at hpv; cases hpv
    obtain ⟨w2, so2, l2, b1, t2, b2, b3, b4, b5⟩ := ih t1.inv t1.good t1.get t1.isSet (t1.par.trans hp) (by rw [t1.obj p hsp]; exact hpo) fun t ht => hm t (by simp [ht])
    refine ⟨w2, so2, l1 ++ l2, by simp only [loop, a1, Option.bind_some]; exact b1, t1.trans t2, by rw [b2, a2]; simp, ?_, a4.append b4 a5, fun k => (b5 k).trans (a5 k)⟩
    intro t
    rw [List.mem_append, a3, b3, a2, List.mem_append, a3, List.mem_cons]
    by_cases e : t = r
    · subst e; by_cases h : t ∈ so.recs <;> simp [h]
    · simp [e]

/-! ### Taking records out -/

theorem without_turn {env : Env} {w : World K V Ty} {s r : Nat} {so : Obj K V Ty} (hi : Inv own home w) (hg : Good w) (hs : w.getObj s = some so)
    (his : so.isSet = true) (hr : r ∈ so.recs) :
    ∃ w' so', eraseOne env w s r = some w' ∧ Turn own home s so so' w w' ∧ Lost [r] so so' := by
  have g := hg.set s so hs his
  have ok := hi.s.sets s so hs his
  obtain ⟨x, hx, hv⟩ := g.held r hr
  have hcall : eraseLocal w s r = some (w.putObj s (so.without x r)) := by
    simp only [eraseLocal, hs, hx, Option.bind_eq_bind, Option.bind_some]; rfl
  have hcell : ∀ k c, mget so.cols k = some c → cellOf w r k = some (c.oldVal x.data k) := fun k c hc =>
    oldVal_cell (g.cols k c hc) hr (by simp [cellOf, hx])
  refine ⟨w.putObj s (so.without x r), so.without x r, ?_, ⟨rfl, rfl, rfl, rfl, ?_, getObj_putObj_self _ _ _, his, rfl, ?_, ?_⟩, ⟨rfl, rfl, sameKeys_without x r so, ?_, ?_⟩⟩
  · simp only [eraseOne, hs, hcall, Option.bind_eq_bind, Option.bind_some, ok.base, Bool.false_eq_true, if_false]
  · intro o hne; rw [getObj_putObj, if_neg (Ne.symm hne)]
  · refine hg.putSet hi hs his rfl rfl ⟨?_, g.recsN.filter _, ?_, ?_, ?_⟩
    · intro t ht; exact g.held t (List.mem_filter.mp ht).1
    · intro k c hc
      simp only [Obj.without, eraseCols, mget_mmap, Option.map_eq_some_iff] at hc
      obtain ⟨c0, h0, rfl⟩ := hc
      exact (g.cols k c0 h0).erase hr (hcell k c0 h0)
    · intro hn
      obtain ⟨a, b, c⟩ := g.det hn
      refine ⟨?_, b, c⟩
      show eraseCols so.cols x.data r = []
      rw [a]; rfl
    · intro p po hp hpo
      exact (g.att p po hp hpo).left (sameKeys_without x r so)
  · exact ((eraseLocal_sq hs his hcall).sp ⟨hi.s, hi.l⟩).inv hi
  · intro r'; simp [Obj.without, List.mem_filter]
  · intro k c c' hc hc'
    simp only [Obj.without, eraseCols, mget_mmap, hc, Option.map_some, Option.some.injEq] at hc'
    subst hc'
    refine Shrunk.erase c _ r ?_
    intro v' hv'
    have h2 := ((g.cols k c hc).ordS v' r hv').2
    rw [hcell k c hc] at h2; cases h2; rfl

theorem Lost.nil (so : Obj K V Ty) : Lost [] so so := by
  refine ⟨rfl, rfl, .refl _, by simp, ?_⟩
  intro k c c' h1 h2
  rw [h1] at h2; cases h2
  exact ⟨fun _ h => h, fun _ h => h, fun _ h _ => h, fun _ h _ => h, by simp⟩

theorem Lost.cons {r : Nat} {l : List Nat} {a b c : Obj K V Ty} (e1 : Lost [r] a b) (e2 : Lost l b c) : Lost (r :: l) a c := by
  refine ⟨e2.isSet.trans e1.isSet, e2.parent.trans e1.parent, ⟨e2.same.keys.trans e1.same.keys, e2.same.uniq.trans e1.same.uniq,
    fun k => (e2.same.kind k).trans (e1.same.kind k)⟩, ?_, ?_⟩
  · intro r'; rw [e2.recs, e1.recs]; simp only [List.mem_cons, List.not_mem_nil, or_false, not_or, and_assoc]
  · intro k c0 c2 hc0 hc2
    have := e1.same.kind k
    rw [hc0] at this
    obtain ⟨c1, hc1, _⟩ := Option.map_eq_some_iff.mp this
    exact (e1.shr k c0 c1 hc0 hc1).trans (e2.shr k c1 c2 hc1 hc2)

theorem loop_without_turn {env : Env} {s : Nat} (m : List Nat) : ∀ {w : World K V Ty} {so : Obj K V Ty}, Inv own home w → Good w →
    w.getObj s = some so → so.isSet = true → m.Nodup → (∀ r ∈ m, r ∈ so.recs) →
    ∃ w' so', loop (fun w r => eraseOne env w s r) m w = some w' ∧ Turn own home s so so' w w' ∧ Lost m so so' := by
  induction m with
  | nil => intro w so hi hg hs his _ _; exact ⟨w, so, rfl, .refl hi hg hs his, .nil so⟩
  | cons r m ih =>
    intro w so hi hg hs his hn hm
    obtain ⟨w1, so1, a1, t1, l1⟩ := without_turn (env := env) hi hg hs his (hm r (by simp))
    rw [List.nodup_cons] at hn
    obtain ⟨w2, so2, b1, t2, l2⟩ := ih t1.inv t1.good t1.get t1.isSet hn.2 fun t ht => by
      rw [l1.recs]; exact ⟨hm t (by simp [ht]), by rw [List.mem_singleton]; rintro rfl; exact hn.1 ht⟩
    exact ⟨w2, so2, by simp only [loop, a1, Option.bind_some]; exact b1, t1.trans t2, l1.cons l2⟩

theorem removeRecord_turn {env : Env} {w : World K V Ty} {s r : Nat} {so : Obj K V Ty} (hi : Inv own home w) (hg : Good w) (hs : w.getObj s = some so)
    (his : so.isSet = true) :
    ∃ w' so', removeRecord env w s r = some (w', decide (r ∈ so.recs)) ∧ Turn own home s so so' w w' ∧ Lost (if r ∈ so.recs then [r] else []) so so' := by
  by_cases hr : r ∈ so.recs
  · obtain ⟨w1, so1, a1, t1, l1⟩ := without_turn (env := env) hi hg hs his hr
    refine ⟨w1, so1, ?_, t1, by rw [if_pos hr]; exact l1⟩
    simp only [removeRecord, hs, Option.bind_eq_bind, Option.bind_some, if_neg (show ¬(r ∉ so.recs) from fun h => h hr), a1, Option.map_some, hr, decide_true, not_true_eq_false, if_false]
  · refine ⟨w, so, ?_, .refl hi hg hs his, by rw [if_neg hr]; exact .nil so⟩
    simp only [removeRecord, hs, Option.bind_eq_bind, Option.bind_some, if_pos hr, hr, decide_false, not_false_eq_true, if_true]

theorem loop_removeRecord_turn {env : Env} {s : Nat} (m : List Nat) : ∀ {w : World K V Ty} {so : Obj K V Ty}, Inv own home w → Good w →
    w.getObj s = some so → so.isSet = true → m.Nodup → (∀ r ∈ m, r ∈ so.recs) →
    ∃ w' so', loop (fun w r => (removeRecord env w s r).map (·.1)) m w = some w' ∧ Turn own home s so so' w w' ∧ Lost m so so' := by
  induction m with
  | nil => intro w so hi hg hs his _ _; exact ⟨w, so, rfl, .refl hi hg hs his, .nil so⟩
  | cons r m ih =>
    intro w so hi hg hs his hn hm
    obtain ⟨w1, so1, a1, t1, l1⟩ := removeRecord_turn (env := env) (r := r) hi hg hs his
    rw [if_pos (hm r (by simp))] at l1
    rw [List.nodup_cons] at hn
    obtain ⟨w2, so2, b1, t2, l2⟩ := ih t1.inv t1.good t1.get t1.isSet hn.2 fun t ht => by
      rw [l1.recs]; exact ⟨hm t (by simp [ht]), by rw [List.mem_singleton]; rintro rfl; exact hn.1 ht⟩
    exact ⟨w2, so2, by simp only [loop, a1, Option.map_some, Option.bind_some]; exact b1, t1.trans t2, l1.cons l2⟩

end MVault.W
