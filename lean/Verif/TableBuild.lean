import Verif.TableTwin
/-
Building a table with given contents, and: a unique key has the zero value of its type as its default. No code is modelled here.
-/
set_option linter.unusedSectionVars false
set_option linter.unusedSimpArgs false
set_option linter.unusedVariables false
namespace MVault.Spec
open MVault.W (Res Code Answer Typed typeOf zero castTo lastParam lastParam_cons)
open Classical
variable {K V Ty : Type} [LinearOrder K] [LinearOrder V] [Typed V Ty] [DecidableEq Ty]

/-- Specification, models no code: the default of a unique key is the zero of its type. -/
def Table.UniqZero (t : Table K V Ty) : Prop := ∀ k ty, t.uniq k → t.ty k = some ty → t.dflt k = some (zero ty)

/-! ### The default of a unique key -/

theorem Table.UniqZero.of {t u : Table K V Ty} (h : t.UniqZero) (h1 : u.uniq = t.uniq) (h2 : u.ty = t.ty) (h3 : u.dflt = t.dflt) : u.UniqZero := by
  intro k ty
  rw [h1, h2, h3]
  exact h k ty

theorem Table.set_head (t : Table K V Ty) (r : Option Nat) (k : K) (v : V) :
    (t.set r k v).2.uniq = t.uniq ∧ (t.set r k v).2.ty = t.ty ∧ (t.set r k v).2.dflt = t.dflt := by
  unfold Table.set
  repeat' split
  all_goals exact ⟨rfl, rfl, rfl⟩

theorem Table.setMany_head (r : Option Nat) : ∀ (ps : List (K × V)) (res : Res K) (t : Table K V Ty),
    (Table.setMany r ps res t).2.uniq = t.uniq ∧ (Table.setMany r ps res t).2.ty = t.ty ∧ (Table.setMany r ps res t).2.dflt = t.dflt
  | [], _, _ => ⟨rfl, rfl, rfl⟩
  | p :: ps, res, t => by
    simp only [Table.setMany]
    split
    · exact Table.set_head ..
    · obtain ⟨a, b, c⟩ := Table.setMany_head r ps (t.set r p.1 p.2).1 (t.set r p.1 p.2).2
      obtain ⟨a', b', c'⟩ := Table.set_head t r p.1 p.2
      exact ⟨a.trans a', b.trans b', c.trans c'⟩

theorem Table.Step.uniqZero {t u : Table K V Ty} {fresh : Nat → Prop} {c : Cmd K V Ty} {a : Answer K} (hs : t.Sane) (h : t.UniqZero) (s : t.Step fresh c a u) : u.UniqZero := by
  have hadd : ∀ {k b ty d val}, k ∉ t.keys → (b = true → d = zero ty) → (t.addKey k b ty d val).UniqZero := by
    intro k b ty d val hk hd k' ty' hu ht
    simp only [Table.addKey] at hu ht ⊢
    by_cases e : k' = k
    · rw [if_pos e] at ht ⊢
      cases ht
      rcases hu with hu | ⟨_, hb⟩
      · exact absurd (hs.uniq k' hu) (e ▸ hk)
      · rw [hd hb]
    · rw [if_neg e] at ht ⊢
      exact h k' ty' (hu.resolve_right fun x => e x.1) ht
  cases c with
  | addKey k d =>
    rcases s with ⟨_, _, rfl⟩ | ⟨hk, _, rfl⟩
    · exact h
    · exact hadd hk (by simp)
  | addUniqueKey k ty n f =>
    rcases s with ⟨_, _, rfl⟩ | ⟨_, _, _, _, rfl⟩ | ⟨hk, _, _, _, _, ⟨_, _, _, _, _, _, _, rfl⟩ | ⟨_, _, rfl⟩⟩
    · exact h
    · exact h
    · exact h
    · exact hadd hk fun _ => rfl
  | updateKey k d =>
    simp only [Table.Step] at s
    split at s
    · rw [s.2]; exact h
    · rcases s with ⟨_, _, rfl⟩ | ⟨hn, _, rfl⟩
      · exact h
      · intro k' ty hu ht
        have e : k' ≠ k := fun e => hn (e ▸ hu)
        simp only [Table.setDefault, if_neg e]
        exact h k' ty hu ht
  | removeKey k =>
    rcases s with ⟨_, _, rfl⟩ | ⟨_, _, rfl⟩
    · exact h
    · intro k' ty hu ht
      simp only [Table.removeKey] at hu ht ⊢
      have e : k' ≠ k := by intro e; simp [e] at hu
      simp only [if_neg e] at ht ⊢
      refine h k' ty ?_ ht
      exact hu.1
  | create ps =>
    simp only [Table.Step] at s
    split at s
    · rw [s.2]; exact h
    · rcases s with ⟨_, _, _, _, _, rfl⟩ | ⟨_, x, _, _, rfl⟩ <;> exact h
  | set r k v => rw [s.2]; obtain ⟨a, b, c⟩ := Table.set_head t r k v; exact h.of a b c
  | setMany r ps => rw [s.2]; obtain ⟨a, b, c⟩ := Table.setMany_head r ps ⟨true, .Idle, none⟩ t; exact h.of a b c
  | find k v => rw [s.1]; exact h
  | eraseRow r => rcases s with ⟨_, _, _, _, rfl⟩ | ⟨_, _, rfl⟩ <;> exact h
  | eraseOne k v =>
    simp only [Table.Step] at s
    split at s
    · rw [s.2]; exact h
    · rcases s with ⟨_, _, _, rfl⟩ | ⟨_, _, rfl⟩ <;> exact h
  | eraseMany k v n =>
    simp only [Table.Step] at s
    split at s
    · rw [s.2]; exact h
    · rcases s with ⟨_, _, _, _, _, _, _, rfl⟩ | ⟨_, _, rfl⟩ <;> exact h
  | dropData => rw [s.2]; exact h
  | dropVault => rw [s.2]; exact fun _ _ hu => hu.elim

theorem Db.Run.uniqZero {l : List (Event K V Ty × Answer K)} {db : Db K V Ty} (h : Db.Run l db) : ∀ o t, db o = some t → t.UniqZero := by
  have put : ∀ {db : Db K V Ty} {o : Nat} {t : Option (Table K V Ty)}, (∀ o t, db o = some t → t.UniqZero) → (∀ u, t = some u → u.UniqZero) →
      ∀ o' u, db.put o t o' = some u → u.UniqZero := by
    intro db o t h1 h2 o' u hu
    by_cases e : o' = o
    · subst e; rw [Db.put_same] at hu; exact h2 u hu
    · rw [Db.put_other e] at hu; exact h1 o' u hu
  have copy : ∀ {fresh : Nat → Prop} {t u : Table K V Ty}, t.Copy fresh u → u.UniqZero := by
    rintro fresh t u ⟨h1, m, _, _, _, h2, _⟩ k ty hu
    rw [h2] at hu
    exact absurd hu (h1 k)
  induction h with
  | init => intro o t h; cases h
  | step l db db' e a hr hs ih =>
    have hsane := hr.sane
    cases e with
    | on o c =>
      obtain ⟨t, t', h1, h2, rfl⟩ := hs
      exact put ih fun u e => by cases e; exact h2.uniqZero (hsane.table o t h1) (ih o t h1)
    | new o => rw [hs.2]; exact put ih fun u e => by cases e; exact fun _ _ hu => hu.elim
    | gone o => rw [hs.2]; exact put ih fun u e => by cases e
    | copyNew o b =>
      obtain ⟨t, t', h1, h2, h3, rfl⟩ := hs
      exact put ih fun u e => by cases e; exact copy h3
    | assign o b =>
      rcases hs with ⟨_, rfl⟩ | ⟨t, t', h1, h2, h3, h4, rfl⟩
      · exact ih
      · exact put ih fun u e => by cases e; exact copy h4
    | moveNew o b =>
      obtain ⟨t, h1, h2, rfl⟩ := hs
      exact put (put ih fun u e => by cases e; exact ih b t h2) fun u e => by cases e; exact fun _ _ hu => hu.elim
    | moveAssign o b =>
      rcases hs with ⟨_, rfl⟩ | ⟨t, h1, h2, h3, rfl⟩
      · exact ih
      · exact put (put ih fun u e => by cases e; exact ih b t h3) fun u e => by cases e; exact fun _ _ hu => hu.elim
    | other => rw [show db' = db from hs]; exact ih

/-! ### Building -/

/-- The first keys of `t` have been added to `u`, which has no rows. -/
structure Table.Head (t u : Table K V Ty) (pre : List K) : Prop where
  keys : u.keys = pre
  uniq : ∀ k ∈ pre, u.uniq k ↔ t.uniq k
  ty : ∀ k ∈ pre, u.ty k = t.ty k
  dflt : ∀ k ∈ pre, u.dflt k = t.dflt k
  row : ∀ r, ¬ u.row r

/-- The call that adds the next key. -/
noncomputable def Table.keyCmd (t : Table K V Ty) (k : K) (d : V) : Cmd K V Ty := if t.uniq k then .addUniqueKey k (typeOf d) true (fun _ _ => d) else .addKey k d

theorem Table.Head.next {t u u' : Table K V Ty} {pre : List K} {k : K} {d : V} {fresh : Nat → Prop} {a : Answer K} (h : t.Head u pre) (hk : k ∉ pre) (hkt : k ∈ t.keys)
    (ht : t.Sane) (hsu : u.Sane) (hz : t.UniqZero) (hd : t.dflt k = some d) (s : u.Step fresh (t.keyCmd k d) a u') : t.Head u' (pre ++ [k]) ∧ a = .res (.good (some k)) := by
  obtain ⟨ty, hty⟩ := (ht.typed k).mp hkt
  obtain ⟨d', hd', hdt⟩ := ht.dflt k ty hty
  rw [hd] at hd'; cases hd'
  have fin : ∀ {b d2 val}, (b = true ↔ t.uniq k) → d2 = d → u' = u.addKey k b (typeOf d) d2 val → t.Head u' (pre ++ [k]) := by
    rintro b d2 val hb rfl rfl
    constructor
    · simp only [Table.addKey, h.keys]
    · intro k' hk'
      simp only [Table.addKey]
      by_cases e : k' = k
      · subst e
        constructor
        · rintro (x | ⟨_, x⟩)
          · exact absurd (h.keys ▸ hsu.uniq _ x) hk
          · exact hb.mp x
        · intro x; exact .inr ⟨rfl, hb.mpr x⟩
      · have hm : k' ∈ pre := by simpa [e] using hk'
        constructor
        · rintro (x | ⟨x, _⟩)
          · exact (h.uniq k' hm).mp x
          · exact absurd x e
        · intro x; exact .inl ((h.uniq k' hm).mpr x)
    · intro k' hk'
      simp only [Table.addKey]
      by_cases e : k' = k
      · rw [if_pos e, e, hty, hdt]
      · rw [if_neg e]; exact h.ty k' (by simpa [e] using hk')
    · intro k' hk'
      simp only [Table.addKey]
      by_cases e : k' = k
      · rw [if_pos e, e, hd]
      · rw [if_neg e]; exact h.dflt k' (by simpa [e] using hk')
    · exact h.row
  unfold Table.keyCmd at s
  split at s
  · rename_i hu
    rcases s with ⟨x, _⟩ | ⟨_, _, ⟨r, hr⟩, _⟩ | ⟨_, _, _, _, _, ⟨r, _, hr, _⟩ | ⟨_, ha, e⟩⟩
    · exact absurd (h.keys ▸ x) hk
    · exact absurd hr (h.row r)
    · exact absurd hr (h.row r)
    · refine ⟨fin (b := true) (by simp [hu]) ?_ e, ha⟩
      have := hz k ty hu hty
      rw [hd] at this; cases this
      rw [hdt]
  · rename_i hu
    rcases s with ⟨x, _⟩ | ⟨_, ha, e⟩
    · exact absurd (h.keys ▸ x) hk
    · exact ⟨fin (b := false) (by simp [hu]) rfl e, ha⟩

/-- All keys of `t` and the rows `done` have been added to `u`. -/
structure Table.Part (t u : Table K V Ty) (m : Nat → Nat) (done : List Nat) : Prop where
  keys : u.keys = t.keys
  uniq : ∀ k, u.uniq k ↔ t.uniq k
  ty : ∀ k, u.ty k = t.ty k
  dflt : ∀ k, u.dflt k = t.dflt k
  inj : ∀ r ∈ done, ∀ s ∈ done, m r = m s → r = s
  row : ∀ r', u.row r' ↔ ∃ r ∈ done, r' = m r
  cell : ∀ r ∈ done, ∀ k, u.cell (m r) k = t.cell r k
  seen : ∀ r ∈ done, ∀ b, ∀ k ∈ t.keys, u.seen b k (m r)

theorem Table.Head.part {t u : Table K V Ty} (h : t.Head u t.keys) (ht : t.Sane) (hu : u.Sane) (m : Nat → Nat) : t.Part u m [] where
  keys := h.keys
  uniq k := by
    by_cases hk : k ∈ t.keys
    · exact h.uniq k hk
    · exact ⟨fun x => absurd (h.keys ▸ hu.uniq k x) hk, fun x => absurd (ht.uniq k x) hk⟩
  ty k := by
    by_cases hk : k ∈ t.keys
    · exact h.ty k hk
    · rw [ht.ty_none hk, hu.ty_none (by rw [h.keys]; exact hk)]
  dflt k := by
    by_cases hk : k ∈ t.keys
    · exact h.dflt k hk
    · rw [ht.dflt' k hk, hu.dflt' k (by rw [h.keys]; exact hk)]
  inj := fun _ h => by cases h
  row r' := ⟨fun x => absurd x (h.row r'), fun ⟨_, x, _⟩ => by cases x⟩
  cell := fun _ h => by cases h
  seen := fun _ h => by cases h

/-- The parameters for a new row with the values of row `r`. -/
noncomputable def Table.params (t : Table K V Ty) (r : Nat) : List (K × V) := t.keys.filterMap fun k => (t.cell r k).map fun v => (k, v)

theorem lastParam_filterMap (g : K → Option V) (k : K) : ∀ ks : List K, ks.Nodup → lastParam (ks.filterMap fun k => (g k).map fun v => (k, v)) k = if k ∈ ks then g k else none
  | [], _ => rfl
  | k0 :: ks, hn => by
    obtain ⟨h1, h2⟩ := List.nodup_cons.mp hn
    have ih := lastParam_filterMap g k ks h2
    cases hg : g k0 with
    | none =>
      rw [List.filterMap_cons_none (by rw [hg]; rfl), ih]
      by_cases e : k = k0
      · subst e; rw [if_neg h1, if_pos (by simp), hg]
      · simp [e]
    | some v =>
      rw [List.filterMap_cons_some (b := (k0, v)) (by rw [hg]; rfl), lastParam_cons, ih]
      by_cases e : k = k0
      · subst e; rw [if_neg h1, if_pos (by simp), hg]; simp
      · simp only [List.mem_cons, e, false_or]
        split
        · rename_i x y; exact y.symm ▸ rfl
        · rename_i y; rw [if_neg (fun x => e x.symm)]; exact y.symm

theorem Table.Part.next {t u u' : Table K V Ty} {m : Nat → Nat} {done : List Nat} {r : Nat} {fresh : Nat → Prop} {a : Answer K} (h : t.Part u m done) (ht : t.Sane)
    (hu : u.Sane) (hf : ∀ r, fresh r → ¬ u.row r) (hrow : t.row r) (hdone : ∀ q ∈ done, t.row q) (hr : r ∉ done) (s : u.Step fresh (.create (t.params r)) a u') :
    ∃ m', t.Part u' m' (done ++ [r]) ∧ a = .res (.good ((t.params r).getLast?.map (·.1))) := by
  have hval : ∀ k, u.newValue (t.params r) k = t.cell r k := by
    intro k
    simp only [Table.newValue, Table.params, lastParam_filterMap (t.cell r) k t.keys ht.nodup]
    by_cases hk : k ∈ t.keys
    · rw [if_pos hk]
      obtain ⟨ty, hty⟩ := (ht.typed k).mp hk
      obtain ⟨v, hv, _⟩ := ht.cell r k ty hrow hty
      rw [hv]
    · rw [if_neg hk]
      show u.dflt k = _
      rw [h.dflt, ht.dflt' k hk, ht.cell' r k (.inr hk)]
  have hbad : u.firstBad (t.params r) = none := by
    simp only [Table.firstBad, List.findSome?_eq_none_iff, Option.map_eq_none_iff]
    intro p hp
    obtain ⟨k, hk, e⟩ := List.mem_filterMap.mp hp
    obtain ⟨v, hv, rfl⟩ := Option.map_eq_some_iff.mp e
    obtain ⟨ty, hty⟩ := (ht.typed k).mp hk
    obtain ⟨v', hv', ht'⟩ := ht.cell r k ty hrow hty
    rw [hv] at hv'; cases hv'
    simp only [Table.bad, h.ty, hty, ht', if_true]
  have hclash : ∀ k, u.uniq k → ¬ u.clash (t.params r) k := by
    rintro k hk ⟨q', hq', e⟩
    obtain ⟨q, hq, rfl⟩ := (h.row q').mp hq'
    rw [hval, h.cell q hq] at e
    exact hr (ht.inj k q r ((h.uniq k).mp hk) (hdone q hq) hrow e ▸ hq)
  simp only [Table.Step, hbad] at s
  rcases s with ⟨k, hk, hc, _⟩ | ⟨_, x, hx, ha, rfl⟩
  · exact absurd hc (hclash k hk)
  have hxr : ¬ u.row x := hf x hx
  have hne : ∀ q ∈ done, q ≠ r := fun q hq e => hr (e ▸ hq)
  have hmx : ∀ q ∈ done, m q ≠ x := fun q hq e => hxr (e ▸ (h.row _).mpr ⟨q, hq, rfl⟩)
  refine ⟨fun q => if q = r then x else m q, ?_, ha⟩
  have old : ∀ q ∈ done, (if q = r then x else m q) = m q := fun q hq => if_neg (hne q hq)
  refine ⟨h.keys, h.uniq, h.ty, h.dflt, ?_, ?_, ?_, ?_⟩
  · intro a ha b hb e
    simp only [List.mem_append, List.mem_singleton] at ha hb
    rcases ha with ha | ha <;> rcases hb with hb | hb
    · simp only [old a ha, old b hb] at e; exact h.inj a ha b hb e
    · simp only [old a ha, hb, if_true] at e; exact absurd e (hmx a ha)
    · simp only [old b hb, ha, if_true] at e; exact absurd e.symm (hmx b hb)
    · rw [ha, hb]
  · intro r'
    simp only [Table.addRow, h.row, List.mem_append, List.mem_singleton]
    constructor
    · rintro (⟨q, hq, rfl⟩ | rfl)
      · exact ⟨q, .inl hq, (old q hq).symm⟩
      · exact ⟨r, .inr rfl, (if_pos rfl).symm⟩
    · rintro ⟨q, hq | rfl, rfl⟩
      · exact .inl ⟨q, hq, old q hq⟩
      · exact .inr (if_pos rfl)
  · intro q hq k
    simp only [List.mem_append, List.mem_singleton] at hq
    simp only [Table.addRow]
    rcases hq with hq | rfl
    · rw [old q hq, if_neg (hmx q hq), h.cell q hq]
    · rw [if_pos rfl, if_pos rfl, hval]
  · intro q hq b k hk
    simp only [List.mem_append, List.mem_singleton] at hq
    simp only [Table.addRow]
    rcases hq with hq | rfl
    · rw [old q hq]; exact .inl (h.seen q hq b k hk)
    · rw [if_pos rfl]; exact .inr ⟨rfl, h.keys.symm ▸ hk⟩

/-- When all rows have been added, `u` has the contents of `t`, if searches in `t` find everything. -/
theorem Table.Part.like {t u : Table K V Ty} {m : Nat → Nat} {done : List Nat} (h : t.Part u m done) (ht : t.Sane) (hu : u.Sane) (hd : ∀ r, r ∈ done ↔ t.row r)
    (hs : ∀ r, t.row r → ∀ k ∈ t.keys, ∀ b, t.seen b k r) : t.Like m u where
  keys := h.keys
  uniq := h.uniq
  ty := h.ty
  dflt := h.dflt
  inj r s hr hs := h.inj r ((hd r).mpr hr) s ((hd s).mpr hs)
  row r' := by
    rw [h.row]
    exact ⟨fun ⟨r, hr, e⟩ => ⟨r, (hd r).mp hr, e⟩, fun ⟨r, hr, e⟩ => ⟨r, (hd r).mpr hr, e⟩⟩
  cell r hr := h.cell r ((hd r).mpr hr)
  seen r hr b k := ⟨fun x => hs r hr k (h.keys ▸ (hu.seen _ _ _ x).2) b, fun x => h.seen r ((hd r).mpr hr) b k (ht.seen _ _ _ x).2⟩

end MVault.Spec
