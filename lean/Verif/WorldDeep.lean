import Verif.WorldReach
/-
Sets and the records they hold, in histories that avoid the functions that forget to keep the two in step:
the invariant and its frame rules.
-/
set_option linter.unusedSectionVars false
set_option linter.unusedSimpArgs false
namespace MVault.W
variable {K V Ty : Type} [LinearOrder K] [LinearOrder V] [Typed V Ty] [DecidableEq Ty]
variable {own home : Nat → Nat}

/-- A set has the keys of its vault; a key that is unique in the set is unique in the vault. -/
structure Alike (so po : Obj K V Ty) : Prop where
  keys : so.keysOrder = po.keysOrder
  uniq : so.uniq = po.uniq
  ty : ∀ k, (mget so.cols k).map (·.ty) = (mget po.cols k).map (·.ty)
  multi : ∀ k c pc, mget so.cols k = some c → mget po.cols k = some pc → c.multi = false → pc.multi = false

/-- Invariant of one set: its records are valid and know the set, its indices hold exactly the values of its records. -/
structure SetDeep (w : World K V Ty) (s : Nat) (so : Obj K V Ty) : Prop where
  held : ∀ r ∈ so.recs, ∃ x, w.getRec r = some x ∧ x.valid = true ∧ s ∈ x.deps
  recsN : so.recs.Nodup
  cols : ∀ k c, mget so.cols k = some c → ColOk (fun r => cellOf w r k) so.recs c
  det : so.parent = none → so.cols = [] ∧ so.keysOrder = [] ∧ so.uniq = []
  att : ∀ p po, so.parent = some p → w.getObj p = some po → Alike so po

/-- Invariant of all sets, and of what the records know about the sets. -/
structure Deep (w : World K V Ty) : Prop where
  set : ∀ s so, w.getObj s = some so → so.isSet = true → SetDeep w s so
  told : ∀ r x s, w.getRec r = some x → x.valid = true → s ∈ x.deps → ∃ so, w.getObj s = some so ∧ so.isSet = true ∧ r ∈ so.recs
  depsN : ∀ r x, w.getRec r = some x → x.deps.Nodup
  setsN : ∀ o vo, w.getObj o = some vo → vo.sets.Nodup

theorem Deep.empty : Deep (World.empty : World K V Ty) := by
  constructor <;> simp [World.empty, World.getObj, World.getRec, mget]

/-- What the step does to the sets. -/
def SetsBy (w w' : World K V Ty) (g : Obj K V Ty → Obj K V Ty) : Prop :=
  ∀ s so, w.getObj s = some so → so.isSet = true → w'.getObj s = some (g so)

/-- Record `r` is listed under key `k` of the object. -/
def Obj.lists (b : Bool) (k : K) (so : Obj K V Ty) (r : Nat) : Prop := ∃ c, mget so.cols k = some c ∧ c.lists b r

/-- The columns list, besides what they listed, the records of `l`. -/
def Grown (l : List Nat) (so so' : Obj K V Ty) : Prop :=
  ∀ b k r, so'.lists b k r ↔ so.lists b k r ∨ (r ∈ l ∧ mhas so.cols k = true)

theorem Grown.refl (so : Obj K V Ty) : Grown [] so so := fun b k r => by simp

/-- Same keys, types and kinds of keys. -/
structure SameKeys (a b : Obj K V Ty) : Prop where
  keys : b.keysOrder = a.keysOrder
  uniq : b.uniq = a.uniq
  kind : ∀ k, (mget b.cols k).map (fun c => (c.ty, c.multi)) = (mget a.cols k).map (fun c => (c.ty, c.multi))

theorem SameKeys.refl (a : Obj K V Ty) : SameKeys a a := ⟨rfl, rfl, fun _ => rfl⟩

theorem SameKeys.ty {a b : Obj K V Ty} (h : SameKeys a b) (k : K) : (mget b.cols k).map (·.ty) = (mget a.cols k).map (·.ty) := by
  have := congrArg (Option.map Prod.fst) (h.kind k)
  simpa [Option.map_map, Function.comp_def] using this

theorem SameKeys.multi {a b : Obj K V Ty} (h : SameKeys a b) (k : K) : (mget b.cols k).map (·.multi) = (mget a.cols k).map (·.multi) := by
  have := congrArg (Option.map Prod.snd) (h.kind k)
  simpa [Option.map_map, Function.comp_def] using this

theorem Alike.right {so po po' : Obj K V Ty} (h : Alike so po) (hp : SameKeys po po') : Alike so po' where
  keys := h.keys.trans hp.keys.symm
  uniq := h.uniq.trans hp.uniq.symm
  ty k := (h.ty k).trans (hp.ty k).symm
  multi k c pc hc hpc hm := by
    have := hp.multi k
    rw [hpc] at this
    cases hq : mget po.cols k with
    | none => rw [hq] at this; simp at this
    | some qc =>
      rw [hq] at this; simp at this
      rw [this]; exact h.multi k c qc hc hq hm

theorem Alike.left {so so' po : Obj K V Ty} (h : Alike so po) (hp : SameKeys so so') : Alike so' po where
  keys := hp.keys.trans h.keys
  uniq := hp.uniq.trans h.uniq
  ty k := (hp.ty k).trans (h.ty k)
  multi k c pc hc hpc hm := by
    have := hp.multi k
    rw [hc] at this
    cases hq : mget so.cols k with
    | none => rw [hq] at this; simp at this
    | some qc =>
      rw [hq] at this; simp at this
      exact h.multi k qc pc hq hpc (this ▸ hm)

/-- A set that is not touched keeps its invariant when its records keep their values and its vault its keys. -/
theorem SetDeep.frame {w w' : World K V Ty} {s : Nat} {so : Obj K V Ty} (h : SetDeep w s so)
    (hr : ∀ r ∈ so.recs, ∀ x, w.getRec r = some x → x.valid = true → s ∈ x.deps →
      ∃ y, w'.getRec r = some y ∧ y.valid = true ∧ s ∈ y.deps ∧ ∀ k, mhas so.cols k = true → mget y.data k = mget x.data k)
    (hp : ∀ p po', so.parent = some p → w'.getObj p = some po' → ∃ po, w.getObj p = some po ∧ SameKeys po po') :
    SetDeep w' s so where
  held r hm := by
    obtain ⟨x, hx, hv, hd⟩ := h.held r hm
    obtain ⟨y, hy, hyv, hyd, _⟩ := hr r hm x hx hv hd
    exact ⟨y, hy, hyv, hyd⟩
  recsN := h.recsN
  cols k c hc := by
    refine (h.cols k c hc).congr (fun _ => Iff.rfl) ?_
    intro r hm
    obtain ⟨x, hx, hv, hd⟩ := h.held r hm
    obtain ⟨y, hy, _, _, hyk⟩ := hr r hm x hx hv hd
    simp only [cellOf, hx, hy, Option.bind_some]
    exact hyk k ((mhas_iff _ _).mpr ⟨c, hc⟩)
  det := h.det
  att p po' h1 h2 := by
    obtain ⟨po, h3, h4⟩ := hp p po' h1 h2
    exact (h.att p po h1 h3).right h4

/-- Steps on reference variables. -/
theorem Deep.rf {w w' : World K V Ty} (h : Deep w) (f : RF w w') : Deep w' where
  set s so hs hi := by
    rw [f.obj] at hs
    refine (h.set s so hs hi).frame ?_ ?_
    · intro r hm x hx hv hd
      obtain ⟨y, hy, e1, e2, e3⟩ := f.recTo' hx hv
      exact ⟨y, hy, e2, e3 ▸ hd, fun k _ => by rw [e1]⟩
    · intro p po' _ hp
      rw [f.obj] at hp
      exact ⟨po', hp, .refl _⟩
  told r y s hy hv hd := by
    obtain ⟨x, hx, _, e2, e3⟩ := f.recOf r y hy
    rw [f.obj]
    exact h.told r x s hx (e2 ▸ hv) (e3 ▸ hd)
  depsN r y hy := by
    obtain ⟨x, hx, _, _, e3⟩ := f.recOf r y hy
    rw [e3]; exact h.depsN r x hx
  setsN o vo ho := by rw [f.obj] at ho; exact h.setsN o vo ho

/-! ### Steps that touch one set -/

/-- Only set `s`, what the records say about it and the lists of sets of the vaults changed. -/
structure Only (s : Nat) (w w' : World K V Ty) : Prop where
  objN : ∀ o, o ≠ s → w.getObj o = none → w'.getObj o = none
  obj : ∀ o, o ≠ s → ∀ a, w.getObj o = some a → ∃ l, w'.getObj o = some { a with sets := l } ∧ (a.sets.Nodup → l.Nodup)
  recN : ∀ r, w.getRec r = none → w'.getRec r = none
  recS : ∀ r x, w.getRec r = some x → ∃ d, w'.getRec r = some { x with deps := d } ∧ (∀ t, t ≠ s → (t ∈ d ↔ t ∈ x.deps)) ∧
    (x.deps.Nodup → d.Nodup)

theorem Only.refl (s : Nat) (w : World K V Ty) : Only s w w :=
  ⟨fun _ _ h => h, fun _ _ a h => ⟨a.sets, h, fun h => h⟩, fun _ h => h, fun _ x h => ⟨x.deps, h, fun _ _ => Iff.rfl, fun h => h⟩⟩

theorem Only.trans {s : Nat} {a b c : World K V Ty} (h1 : Only s a b) (h2 : Only s b c) : Only s a c where
  objN o hne h := h2.objN o hne (h1.objN o hne h)
  obj o hne x hx := by
    obtain ⟨l, hl, hn⟩ := h1.obj o hne x hx
    obtain ⟨l', hl', hn'⟩ := h2.obj o hne _ hl
    exact ⟨l', hl', fun h => hn' (hn h)⟩
  recN r h := h2.recN r (h1.recN r h)
  recS r x hx := by
    obtain ⟨d, hd, e, hn⟩ := h1.recS r x hx
    obtain ⟨d', hd', e', hn'⟩ := h2.recS r _ hd
    exact ⟨d', hd', fun t ht => (e' t ht).trans (e t ht), fun h => hn' (hn h)⟩

theorem Only.objOf {s : Nat} {w w' : World K V Ty} (h : Only s w w') {o : Nat} (hne : o ≠ s) {b : Obj K V Ty} (hb : w'.getObj o = some b) :
    ∃ a, w.getObj o = some a ∧ ∃ l, b = { a with sets := l } ∧ (a.sets.Nodup → l.Nodup) := by
  cases ha : w.getObj o with
  | none => rw [h.objN o hne ha] at hb; cases hb
  | some a =>
    obtain ⟨l, hl, hn⟩ := h.obj o hne a ha
    rw [hl] at hb; cases hb
    exact ⟨a, rfl, l, rfl, hn⟩

theorem Only.recOf {s : Nat} {w w' : World K V Ty} (h : Only s w w') {r : Nat} {y : Rec K V} (hy : w'.getRec r = some y) :
    ∃ x, w.getRec r = some x ∧ y.data = x.data ∧ y.valid = x.valid ∧ y.refs = x.refs ∧ (∀ t, t ≠ s → (t ∈ y.deps ↔ t ∈ x.deps)) ∧
      (x.deps.Nodup → y.deps.Nodup) := by
  cases hx : w.getRec r with
  | none => rw [h.recN r hx] at hy; cases hy
  | some x =>
    obtain ⟨d, hd, e, hn⟩ := h.recS r x hx
    rw [hd] at hy; cases hy
    exact ⟨x, rfl, rfl, rfl, rfl, e, hn⟩

theorem Only.cell {s : Nat} {w w' : World K V Ty} (h : Only s w w') (r : Nat) (k : K) : cellOf w' r k = cellOf w r k := by
  cases hx : w.getRec r with
  | none => simp [cellOf, hx, h.recN r hx]
  | some x => obtain ⟨d, hd, _⟩ := h.recS r x hx; simp [cellOf, hx, hd]

theorem Only.putSet (s : Nat) (w : World K V Ty) (x : Obj K V Ty) : Only s w (w.putObj s x) where
  objN o hne h := by simp only [getObj_putObj, if_neg (Ne.symm hne)]; exact h
  obj o hne a h := ⟨a.sets, by simp only [getObj_putObj, if_neg (Ne.symm hne)]; exact h, fun h => h⟩
  recN _ h := h
  recS _ x h := ⟨x.deps, h, fun _ _ => Iff.rfl, fun h => h⟩

theorem Only.putSets {s p : Nat} {w : World K V Ty} {po : Obj K V Ty} (hp : w.getObj p = some po) (l : List Nat)
    (hl : po.sets.Nodup → l.Nodup) : Only s w (w.putObj p { po with sets := l }) where
  objN o hne h := by
    simp only [getObj_putObj]; split
    · rename_i e; subst e; rw [hp] at h; cases h
    · exact h
  obj o hne a h := by
    simp only [getObj_putObj]; split
    · rename_i e; subst e; rw [hp] at h; cases h; exact ⟨l, rfl, hl⟩
    · exact ⟨a.sets, h, fun h => h⟩
  recN _ h := h
  recS _ x h := ⟨x.deps, h, fun _ _ => Iff.rfl, fun h => h⟩

/-- The invariant after a step that touches one set. -/
theorem Deep.only {s : Nat} {w w' : World K V Ty} {so so' : Obj K V Ty} (h : Deep w) (hl : Link w) (f : Only s w w')
    (hs : w.getObj s = some so) (hi : so.isSet = true) (hs' : w'.getObj s = some so') (hi' : so'.isSet = true)
    (hn : so'.sets.Nodup) (hd : SetDeep w' s so')
    (ht : ∀ r x, w'.getRec r = some x → x.valid = true → s ∈ x.deps → r ∈ so'.recs) : Deep w' where
  set t to ht' hti := by
    by_cases e : t = s
    · subst e; rw [hs'] at ht'; cases ht'; exact hd
    · obtain ⟨a, ha, l, rfl, _⟩ := f.objOf e ht'
      have := h.set t a ha hti
      have : SetDeep w' t a := by
        refine this.frame ?_ ?_
        · intro r hm x hx hv hdx
          obtain ⟨d, hd, e1, _⟩ := f.recS r x hx
          exact ⟨_, hd, hv, (e1 t e).mpr hdx, fun _ _ => rfl⟩
        · intro p po' hp hpo'
          obtain ⟨po, h1, h2, _⟩ := hl.up t a p ha hti hp
          have hps : p ≠ s := by rintro rfl; rw [hs] at h1; cases h1; rw [hi] at h2; cases h2
          obtain ⟨po2, h3, l2, rfl, _⟩ := f.objOf hps hpo'
          exact ⟨po2, h3, ⟨rfl, rfl, fun _ => rfl⟩⟩
      exact ⟨this.held, this.recsN, this.cols, this.det, fun p po h1 h2 => by
        obtain ⟨a1, a2, a3, a4⟩ := this.att p po h1 h2; exact ⟨a1, a2, a3, a4⟩⟩
  told r y t hy hv hdy := by
    by_cases e : t = s
    · subst e; exact ⟨so', hs', hi', ht r y hy hv hdy⟩
    · obtain ⟨x, hx, _, e2, _, e3, _⟩ := f.recOf hy
      obtain ⟨to, h1, h2, h3⟩ := h.told r x t hx (e2 ▸ hv) ((e3 t e).mp hdy)
      obtain ⟨l, h4, _⟩ := f.obj t e to h1
      exact ⟨_, h4, h2, h3⟩
  depsN r y hy := by
    obtain ⟨x, hx, _, _, _, _, hn⟩ := f.recOf hy
    exact hn (h.depsN r x hx)
  setsN o vo ho := by
    by_cases e : o = s
    · subst e; rw [hs'] at ho; cases ho; exact hn
    · obtain ⟨a, ha, l, rfl, hn⟩ := f.objOf e ho
      exact hn (h.setsN o a ha)

/-! ### Loops that change each object once -/

/-- A loop whose body replaces the object it is run for, and looks at nothing else that the loop changes. -/
theorem objLoop {f : World K V Ty → Nat → Option (World K V Ty)} {g : Nat → Obj K V Ty → Obj K V Ty} {w : World K V Ty} {l : List Nat}
    (hn : l.Nodup)
    (hf : ∀ s ∈ l, ∀ w1 : World K V Ty, w1.recs = w.recs → w1.getObj s = w.getObj s →
      ∃ so, w.getObj s = some so ∧ f w1 s = some (w1.putObj s (g s so))) :
    ∃ w', loop f l w = some w' ∧ w'.recs = w.recs ∧ w'.refs = w.refs ∧ w'.nextR = w.nextR ∧ w'.nextO = w.nextO ∧
      ∀ o, w'.getObj o = if o ∈ l then (w.getObj o).map (g o) else w.getObj o := by
  suffices H : ∀ (d e : List Nat) (w1 : World K V Ty), l = d ++ e → w1.recs = w.recs → w1.refs = w.refs → w1.nextR = w.nextR →
      w1.nextO = w.nextO → (∀ o, w1.getObj o = if o ∈ d then (w.getObj o).map (g o) else w.getObj o) →
      ∃ w', loop f e w1 = some w' ∧ w'.recs = w.recs ∧ w'.refs = w.refs ∧ w'.nextR = w.nextR ∧ w'.nextO = w.nextO ∧
      ∀ o, w'.getObj o = if o ∈ l then (w.getObj o).map (g o) else w.getObj o from
    H [] l w rfl rfl rfl rfl rfl (by simp)
  intro d e
  induction e generalizing d with
  | nil =>
    intro w1 hl h1 h2 h3 h4 h5
    refine ⟨w1, rfl, h1, h2, h3, h4, ?_⟩
    simp at hl; subst hl; exact h5
  | cons s e ih =>
    intro w1 hl h1 h2 h3 h4 h5
    have hsd : s ∉ d := by
      intro hm
      rw [hl, List.nodup_append] at hn
      exact hn.2.2 s hm s (by simp) rfl
    obtain ⟨so, ho, hfs⟩ := hf s (by rw [hl]; simp) w1 h1 (by rw [h5, if_neg hsd])
    simp only [loop, hfs, Option.bind_some]
    refine ih (d ++ [s]) _ (by rw [hl]; simp) h1 h2 h3 h4 ?_
    intro o
    simp only [getObj_putObj]
    by_cases e' : s = o
    · subst e'; simp [ho]
    · rw [if_neg e', h5]
      have : o ∈ d ++ [s] ↔ o ∈ d := by simp [Ne.symm e']
      simp only [this]

/-- A loop whose body changes the record it is run for. -/
theorem recLoop {f : World K V Ty → Nat → Option (World K V Ty)} {g : Rec K V → Rec K V} {w : World K V Ty} {l : List Nat}
    (hg : ∀ x, g (g x) = g x) (hl : ∀ r ∈ l, ∃ x, w.getRec r = some x)
    (hf : ∀ r ∈ l, ∀ w1 : World K V Ty, f w1 r = (w1.getRec r).map fun x => w1.putRec r (g x)) :
    ∃ w', loop f l w = some w' ∧ w'.objs = w.objs ∧ w'.refs = w.refs ∧ w'.nextR = w.nextR ∧ w'.nextO = w.nextO ∧
      ∀ r, w'.getRec r = if r ∈ l then (w.getRec r).map g else w.getRec r := by
  suffices H : ∀ (d e : List Nat) (w1 : World K V Ty), l = d ++ e → w1.objs = w.objs → w1.refs = w.refs → w1.nextR = w.nextR →
      w1.nextO = w.nextO → (∀ r, w1.getRec r = if r ∈ d then (w.getRec r).map g else w.getRec r) →
      ∃ w', loop f e w1 = some w' ∧ w'.objs = w.objs ∧ w'.refs = w.refs ∧ w'.nextR = w.nextR ∧ w'.nextO = w.nextO ∧
      ∀ r, w'.getRec r = if r ∈ l then (w.getRec r).map g else w.getRec r from
    H [] l w rfl rfl rfl rfl rfl (by simp)
  intro d e
  induction e generalizing d with
  | nil =>
    intro w1 hl' h1 h2 h3 h4 h5
    refine ⟨w1, rfl, h1, h2, h3, h4, ?_⟩
    simp at hl'; subst hl'; exact h5
  | cons s e ih =>
    intro w1 hl' h1 h2 h3 h4 h5
    have hs : s ∈ l := by rw [hl']; simp
    obtain ⟨x, hx⟩ := hl s hs
    have hx1 : ∃ y, w1.getRec s = some y ∧ g y = g x := by
      rw [h5]; split
      · exact ⟨g x, by rw [hx]; rfl, hg x⟩
      · exact ⟨x, hx, rfl⟩
    obtain ⟨y, hy, hgy⟩ := hx1
    simp only [loop, hf s hs, hy, Option.map_some, Option.bind_some]
    refine ih (d ++ [s]) _ (by rw [hl']; simp) h1 h2 h3 h4 ?_
    intro r
    simp only [getRec_putRec]
    by_cases e' : s = r
    · subst e'; simp [hx, hgy]
    · rw [if_neg e', h5]
      have : r ∈ d ++ [s] ↔ r ∈ d := by simp [Ne.symm e']
      simp only [this]

end MVault.W
