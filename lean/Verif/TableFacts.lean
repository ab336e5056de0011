import Verif.TableSpec
/-
What always holds of the tables of TableSpec.lean, by induction over runs of the specification. No code is modelled here.
-/
set_option linter.unusedSectionVars false
set_option linter.unusedSimpArgs false
set_option linter.unusedVariables false
namespace MVault.Spec
open MVault.W (Res Code Answer Typed typeOf zero castTo lastParam)
open Classical
variable {K V Ty : Type} [LinearOrder K] [LinearOrder V] [Typed V Ty] [DecidableEq Ty]

/-- A well-formed table. -/
structure Table.Sane (t : Table K V Ty) : Prop where
  /-- no key is listed twice -/
  nodup : t.keys.Nodup
  /-- the listed keys are the ones with a type -/
  typed : ∀ k, k ∈ t.keys ↔ ∃ ty, t.ty k = some ty
  /-- unique keys are keys -/
  uniq : ∀ k, t.uniq k → k ∈ t.keys
  /-- every key has a default of its type, and nothing else has -/
  dflt : ∀ k ty, t.ty k = some ty → ∃ d, t.dflt k = some d ∧ typeOf d = ty
  dflt' : ∀ k, k ∉ t.keys → t.dflt k = none
  first : ∀ k ty, t.ty k = some ty → ¬ t.uniq k → ∃ d, t.first k = some d ∧ typeOf d = ty
  first' : ∀ k, (k ∉ t.keys ∨ t.uniq k) → t.first k = none
  /-- every row has for every key a value of its type, and nothing else has -/
  cell : ∀ r k ty, t.row r → t.ty k = some ty → ∃ v, t.cell r k = some v ∧ typeOf v = ty
  cell' : ∀ r k, (¬ t.row r ∨ k ∉ t.keys) → t.cell r k = none
  /-- only rows are found, and only under keys -/
  seen : ∀ b k r, t.seen b k r → t.row r ∧ k ∈ t.keys
  /-- no two rows have the same value of a unique key -/
  inj : ∀ k r r', t.uniq k → t.row r → t.row r' → t.cell r k = t.cell r' k → r = r'
  /-- every row is found under every unique key -/
  full : ∀ b k r, t.uniq k → t.row r → t.seen b k r

namespace Table
variable {t t' : Table K V Ty}

theorem empty_sane : (empty : Table K V Ty).Sane := by
  constructor <;> simp [empty]

theorem Sane.ty_none (h : t.Sane) {k : K} (hk : k ∉ t.keys) : t.ty k = none := by
  cases e : t.ty k with
  | none => rfl
  | some ty => exact absurd ((h.typed k).mpr ⟨ty, e⟩) hk

theorem castTo_ty (ty : Ty) (v : V) : typeOf (castTo ty v) = ty := by
  unfold castTo; split
  · assumption
  · exact Typed.zero_ty ty

theorem Sane.addKey (h : t.Sane) {k : K} {u : Bool} {ty : Ty} {d : V} {val : Nat → V} (hk : k ∉ t.keys) (hd : typeOf d = ty)
    (hv : ∀ r, t.row r → typeOf (val r) = ty) (hi : u = true → ∀ r r', t.row r → t.row r' → r ≠ r' → val r ≠ val r') :
    (t.addKey k u ty d val).Sane where
  nodup := by
    simp only [Table.addKey]
    exact List.nodup_append.mpr ⟨h.nodup, by simp, by rintro a ha b hb; simp at hb; rintro rfl; subst hb; exact hk ha⟩
  typed k' := by
    simp only [Table.addKey, List.mem_append, List.mem_singleton]
    by_cases e : k' = k
    · simp [e]
    · simp [e, h.typed k']
  uniq k' hk' := by
    simp only [Table.addKey, List.mem_append, List.mem_singleton] at *
    rcases hk' with hk' | ⟨rfl, _⟩
    · exact .inl (h.uniq _ hk')
    · exact .inr rfl
  dflt k' ty' hk' := by
    simp only [Table.addKey] at *
    by_cases e : k' = k
    · simp only [e, if_true, Option.some.injEq] at hk' ⊢; exact ⟨d, rfl, hd.trans hk'⟩
    · simp only [e, if_false] at hk' ⊢; exact h.dflt k' ty' hk'
  dflt' k' hk' := by
    simp only [Table.addKey, List.mem_append, List.mem_singleton, not_or] at *
    simp only [hk'.2, if_false]; exact h.dflt' k' hk'.1
  first k' ty' hk' hu := by
    simp only [Table.addKey, not_or] at *
    by_cases e : k' = k
    · simp only [e, if_true, Option.some.injEq, true_and] at hk' hu ⊢
      simp only [hu.2, if_false]; exact ⟨d, rfl, hd.trans hk'⟩
    · simp only [e, if_false] at hk' ⊢; exact h.first k' ty' hk' hu.1
  first' k' hk' := by
    simp only [Table.addKey, List.mem_append, List.mem_singleton, not_or] at *
    by_cases e : k' = k
    · subst e
      rcases hk' with hk' | hk' | hk'
      · exact absurd rfl hk'.2
      · exact absurd (h.uniq _ hk') hk
      · simp [hk'.2]
    · simp only [e, if_false, false_and, or_false] at hk' ⊢
      exact h.first' k' (hk'.imp (·.1) id)
  cell r k' ty' hr hk' := by
    simp only [Table.addKey] at *
    by_cases e : k' = k
    · simp only [e, if_true, Option.some.injEq, hr] at hk' ⊢; exact ⟨_, rfl, (hv r hr).trans hk'⟩
    · simp only [e, if_false] at hk' ⊢; exact h.cell r k' ty' hr hk'
  cell' r k' hk' := by
    simp only [Table.addKey, List.mem_append, List.mem_singleton, not_or] at *
    by_cases e : k' = k
    · simp only [e, if_true, not_true, and_false, or_false] at hk' ⊢; simp only [hk', if_false]
    · simp only [e, if_false, not_false_iff, and_true] at hk' ⊢; exact h.cell' r k' hk'
  seen b k' r hs := by
    simp only [Table.addKey, List.mem_append, List.mem_singleton] at *
    by_cases e : k' = k
    · simp only [e, if_true] at hs; exact ⟨hs, .inr e⟩
    · simp only [e, if_false] at hs; exact ⟨(h.seen b k' r hs).1, .inl (h.seen b k' r hs).2⟩
  inj k' r r' hu hr hr' he := by
    simp only [Table.addKey] at *
    by_cases e : k' = k
    · subst e
      simp only [if_true, hr, hr', Option.some.injEq] at he
      rcases hu with hu | hu
      · exact absurd (h.uniq _ hu) hk
      · exact Classical.byContradiction fun hn => hi hu.2 r r' hr hr' hn he
    · simp only [e, if_false, false_and, or_false] at he hu; exact h.inj k' r r' hu hr hr' he
  full b k' r hu hr := by
    simp only [Table.addKey] at *
    by_cases e : k' = k
    · simp only [e, if_true]; exact hr
    · simp only [e, if_false, false_and, or_false] at hu ⊢; exact h.full b k' r hu hr

theorem Sane.setDefault (h : t.Sane) {k : K} {d : V} (hk : t.ty k = some (typeOf d)) : (t.setDefault k d).Sane where
  nodup := h.nodup
  typed := h.typed
  uniq := h.uniq
  dflt k' ty hk' := by
    simp only [Table.setDefault] at *
    by_cases e : k' = k
    · subst e; simp only [if_true, Option.some.injEq]; rw [hk] at hk'; cases hk'; exact ⟨d, rfl, rfl⟩
    · simp only [e, if_false]; exact h.dflt k' ty hk'
  dflt' k' hk' := by
    simp only [Table.setDefault] at *
    by_cases e : k' = k
    · subst e; exact absurd ((h.typed _).mpr ⟨_, hk⟩) hk'
    · simp only [e, if_false]; exact h.dflt' k' hk'
  first := h.first
  first' := h.first'
  cell := h.cell
  cell' := h.cell'
  seen := h.seen
  inj := h.inj
  full := h.full

theorem Sane.removeKey (h : t.Sane) (k : K) : (t.removeKey k).Sane := by
  have hm : ∀ k', k' ∈ t.keys.erase k ↔ k' ≠ k ∧ k' ∈ t.keys := fun k' => h.nodup.mem_erase_iff
  constructor
  · exact h.nodup.erase k
  · intro k'; simp only [Table.removeKey, hm]
    by_cases e : k' = k
    · simp [e]
    · simp [e, h.typed k']
  · intro k' hu; simp only [Table.removeKey, hm] at *; exact ⟨hu.2, h.uniq _ hu.1⟩
  · intro k' ty hk'; simp only [Table.removeKey] at *
    by_cases e : k' = k
    · simp [e] at hk'
    · simp only [e, if_false] at hk' ⊢; exact h.dflt k' ty hk'
  · intro k' hk'; simp only [Table.removeKey, hm, not_and] at *
    by_cases e : k' = k
    · simp [e]
    · simp only [e, if_false]; exact h.dflt' k' (hk' e)
  · intro k' ty hk' hu; simp only [Table.removeKey, not_and] at *
    by_cases e : k' = k
    · simp [e] at hk'
    · simp only [e, if_false] at hk' ⊢; exact h.first k' ty hk' fun hu' => hu hu' e
  · intro k' hk'; simp only [Table.removeKey, hm, not_and] at *
    by_cases e : k' = k
    · simp [e]
    · simp only [e, if_false]; exact h.first' k' (hk'.imp (fun f => f e) (·.1))
  · intro r k' ty hr hk'; simp only [Table.removeKey] at *
    by_cases e : k' = k
    · simp [e] at hk'
    · simp only [e, if_false] at hk' ⊢; exact h.cell r k' ty hr hk'
  · intro r k' hk'; simp only [Table.removeKey, hm, not_and] at *
    by_cases e : k' = k
    · simp [e]
    · simp only [e, if_false]; exact h.cell' r k' (hk'.imp id (fun f => f e))
  · intro b k' r hs; simp only [Table.removeKey, hm] at *; exact ⟨(h.seen b k' r hs.2).1, hs.1, (h.seen b k' r hs.2).2⟩
  · intro k' r r' hu hr hr' he; simp only [Table.removeKey] at *
    simp only [hu.2, if_false] at he; exact h.inj k' r r' hu.1 hr hr' he
  · intro b k' r hu hr; simp only [Table.removeKey] at *; exact ⟨hu.2, h.full b k' r hu.1 hr⟩

theorem firstBad_none {ps : List (K × V)} (h : t.firstBad ps = none) {k : K} {v : V} (hl : lastParam ps k = some v) : t.ty k = some (typeOf v) := by
  simp only [firstBad, List.findSome?_eq_none_iff, Option.map_eq_none_iff] at h
  have hm : (k, v) ∈ ps := by
    simp only [lastParam, Option.map_eq_some_iff] at hl
    obtain ⟨⟨k1, v1⟩, h1, rfl⟩ := hl
    have := List.mem_of_getLast? h1
    simp only [List.mem_filter, decide_eq_true_eq] at this
    rw [← this.2]; exact this.1
  have := h _ hm
  simp only [bad] at this
  split at this
  · cases this
  · rename_i ty e
    split at this
    · rename_i e2; rw [e, e2]
    · cases this

theorem Sane.newValue (h : t.Sane) {ps : List (K × V)} (hb : t.firstBad ps = none) {k : K} {ty : Ty} (hk : t.ty k = some ty) :
    ∃ v, t.newValue ps k = some v ∧ typeOf v = ty := by
  unfold Table.newValue
  split
  · rename_i v e
    have := firstBad_none hb e
    rw [hk] at this; cases this; exact ⟨v, rfl, rfl⟩
  · exact h.dflt k ty hk

theorem Sane.newValue_none (h : t.Sane) {ps : List (K × V)} (hb : t.firstBad ps = none) {k : K} (hk : k ∉ t.keys) : t.newValue ps k = none := by
  unfold Table.newValue
  split
  · rename_i v e
    exact absurd ((h.typed k).mpr ⟨_, firstBad_none hb e⟩) hk
  · exact h.dflt' k hk

theorem Sane.addRow (h : t.Sane) {r : Nat} {ps : List (K × V)} (hb : t.firstBad ps = none) (hr : ¬ t.row r)
    (hc : ∀ k, t.uniq k → ¬ t.clash ps k) : (t.addRow r ps).Sane where
  nodup := h.nodup
  typed := h.typed
  uniq := h.uniq
  dflt := h.dflt
  dflt' := h.dflt'
  first := h.first
  first' := h.first'
  cell r' k ty hr' hk := by
    simp only [Table.addRow] at *
    by_cases e : r' = r
    · simp only [e, if_true]; exact h.newValue hb hk
    · simp only [e, if_false, or_false] at hr' ⊢; exact h.cell r' k ty hr' hk
  cell' r' k hk := by
    simp only [Table.addRow, not_or] at *
    by_cases e : r' = r
    · simp only [e, if_true, not_true, and_false, false_or] at hk ⊢; exact h.newValue_none hb hk
    · simp only [e, if_false, not_false_iff, and_true] at hk ⊢; exact h.cell' r' k hk
  seen b k r' hs := by
    simp only [Table.addRow] at *
    rcases hs with hs | hs
    · exact ⟨.inl (h.seen b k r' hs).1, (h.seen b k r' hs).2⟩
    · exact ⟨.inr hs.1, hs.2⟩
  inj k r1 r2 hu h1 h2 he := by
    simp only [Table.addRow] at *
    by_cases e1 : r1 = r <;> by_cases e2 : r2 = r
    · rw [e1, e2]
    · simp only [e1, e2, if_true, if_false, or_false] at he h2
      exact absurd ⟨r2, h2, he.symm⟩ (hc k hu)
    · simp only [e1, e2, if_true, if_false, or_false] at he h1
      exact absurd ⟨r1, h1, he⟩ (hc k hu)
    · simp only [e1, e2, if_false, or_false] at he h1 h2
      exact h.inj k r1 r2 hu h1 h2 he
  full b k r' hu hr' := by
    simp only [Table.addRow] at *
    rcases hr' with hr' | hr'
    · exact .inl (h.full b k r' hu hr')
    · exact .inr ⟨hr', h.uniq k hu⟩

theorem Sane.setCell (h : t.Sane) {r : Nat} {k : K} {v : V} (hr : t.row r) (hk : t.ty k = some (typeOf v)) (hu : ¬ t.uniq k) :
    (t.setCell r k v).Sane where
  nodup := h.nodup
  typed := h.typed
  uniq := h.uniq
  dflt := h.dflt
  dflt' := h.dflt'
  first := h.first
  first' := h.first'
  cell r' k' ty hr' hk' := by
    simp only [Table.setCell] at *
    by_cases e : r' = r ∧ k' = k
    · simp only [e, and_self, if_true, Option.some.injEq, exists_eq_left']
      rw [e.2, hk] at hk'; cases hk'; rfl
    · simp only [e, if_false]; exact h.cell r' k' ty hr' hk'
  cell' r' k' hk' := by
    simp only [Table.setCell] at *
    by_cases e : r' = r ∧ k' = k
    · rw [e.1, e.2] at hk'
      rcases hk' with hk' | hk'
      · exact absurd hr hk'
      · exact absurd ((h.typed k).mpr ⟨_, hk⟩) hk'
    · simp only [e, if_false]; exact h.cell' r' k' hk'
  seen b k' r' hs := by
    simp only [Table.setCell] at *
    by_cases e : k' = k
    · subst e
      simp only [if_true] at hs
      rcases hs with rfl | hs
      · exact ⟨hr, (h.typed _).mpr ⟨_, hk⟩⟩
      · exact h.seen b _ r' hs.1
    · simp only [e, if_false] at hs; exact h.seen b k' r' hs
  inj k' r1 r2 hu' h1 h2 he := by
    simp only [Table.setCell] at *
    have e : k' ≠ k := by rintro rfl; exact hu hu'
    simp only [e, and_false, if_false] at he; exact h.inj k' r1 r2 hu' h1 h2 he
  full b k' r' hu' hr' := by
    simp only [Table.setCell] at *
    have e : k' ≠ k := by rintro rfl; exact hu hu'
    simp only [e, if_false]; exact h.full b k' r' hu' hr'

theorem Sane.erase (h : t.Sane) {l : Nat → Prop} (hl : ∀ r, l r → t.row r) : (t.erase l).Sane where
  nodup := h.nodup
  typed := h.typed
  uniq := h.uniq
  dflt := h.dflt
  dflt' := h.dflt'
  first := h.first
  first' := h.first'
  cell r k ty hr hk := by
    simp only [Table.erase] at *
    simp only [hr.2, if_false]; exact h.cell r k ty hr.1 hk
  cell' r k hk := by
    simp only [Table.erase] at *
    by_cases e : l r
    · simp only [e, if_true]
    · simp only [e, if_false]; exact h.cell' r k (hk.imp (fun f g => f ⟨g, e⟩) id)
  seen b k r hs := by
    simp only [Table.erase] at *
    exact ⟨⟨(h.seen b k r hs.2.1).1, hs.1⟩, (h.seen b k r hs.2.1).2⟩
  inj k r r' hu hr hr' he := by
    simp only [Table.erase] at *
    simp only [hr.2, hr'.2, if_false] at he; exact h.inj k r r' hu hr.1 hr'.1 he
  full b k r hu hr := by
    simp only [Table.erase] at *
    refine ⟨hr.2, h.full b k r hu hr.1, fun _ r0 h0 he _ => ?_⟩
    have := h.inj k r0 r hu (hl r0 h0) hr.1 he
    exact hr.2 (this ▸ h0)

theorem bad_none {k : K} {v : V} (h : t.bad k v = none) : t.ty k = some (typeOf v) := by
  simp only [bad] at h
  split at h
  · cases h
  · rename_i ty e
    split at h
    · rename_i e2; rw [e, e2]
    · cases h

theorem Sane.set (h : t.Sane) (r : Option Nat) (k : K) (v : V) : (t.set r k v).2.Sane := by
  unfold Table.set
  split
  · exact h
  · split
    · exact h
    · rename_i r hr
      split
      · exact h
      · rename_i hb
        split
        · exact h
        · exact h.setCell (Classical.not_not.mp hr) (bad_none hb) (by assumption)

theorem Sane.setMany (r : Option Nat) (ps : List (K × V)) : ∀ (res : Res K) {t : Table K V Ty}, t.Sane → (Table.setMany r ps res t).2.Sane := by
  induction ps with
  | nil => intro res t h; exact h
  | cons p ps ih =>
    intro res t h
    simp only [Table.setMany]
    split
    · exact h.set _ _ _
    · exact ih _ (h.set _ _ _)

theorem Sane.copy {fresh : Nat → Prop} (h : t.Sane) (hc : t.Copy fresh t') : t'.Sane := by
  obtain ⟨hu, m, _, hinj, h1, h2, h3, h4, h5, h6, h7, h8, h9⟩ := hc
  constructor
  · rw [h1]; exact h.nodup
  · rw [h1, h3]; exact h.typed
  · rw [h1, h2]; exact h.uniq
  · rw [h3, h4]; exact fun k ty hk => h.first k ty hk (hu k)
  · rw [h1, h4]; exact fun k hk => h.first' k (.inl hk)
  · rw [h3, h5, h2]; exact h.first
  · rw [h1, h5, h2]; exact h.first'
  · intro r k ty hr hk
    obtain ⟨r0, hr0, rfl⟩ := (h6 r).mp hr
    rw [h7 r0 hr0, ]; rw [h3] at hk; exact h.cell r0 k ty hr0 hk
  · intro r k hk
    by_cases hr : t'.row r
    · obtain ⟨r0, hr0, rfl⟩ := (h6 r).mp hr
      rw [h7 r0 hr0]; rw [h1] at hk; exact h.cell' r0 k (.inr (hk.resolve_left fun f => f hr))
    · exact h8 r hr k
  · intro b k r hs
    rw [h1]; exact ⟨((h9 b k r).mp hs).2, ((h9 b k r).mp hs).1⟩
  · intro k r r' hu'; rw [h2] at hu'; exact absurd hu' (hu k)
  · intro b k r hu'; rw [h2] at hu'; exact absurd hu' (hu k)

/-- Every call keeps tables well-formed. -/
theorem Step.sane {fresh : Nat → Prop} (hf : ∀ r, fresh r → ¬ t.row r) (h : t.Sane) {c : Cmd K V Ty} {a : Answer K} (hs : t.Step fresh c a t') : t'.Sane := by
  cases c with
  | addKey k d =>
    rcases hs with ⟨_, _, rfl⟩ | ⟨hk, _, rfl⟩
    · exact h
    · exact h.addKey hk rfl (fun _ _ => rfl) (by simp)
  | addUniqueKey k ty noFn f =>
    rcases hs with ⟨_, _, rfl⟩ | ⟨_, _, _, _, rfl⟩ | ⟨hk, _, order, ho1, ho2, ⟨_, _, _, _, _, _, _, rfl⟩ | ⟨hd, _, rfl⟩⟩
    · exact h
    · exact h
    · exact h
    · exact h.addKey hk (Typed.zero_ty ty) (fun r _ => castTo_ty ty _) (fun _ r r' hr hr' hn => hd r r' hr hr' hn)
  | updateKey k d =>
    simp only [Table.Step] at hs
    split at hs
    · rw [hs.2]; exact h
    · rename_i hb
      rcases hs with ⟨_, _, rfl⟩ | ⟨_, _, rfl⟩
      · exact h
      · exact h.setDefault (bad_none hb)
  | removeKey k =>
    rcases hs with ⟨_, _, rfl⟩ | ⟨_, _, rfl⟩
    · exact h
    · exact h.removeKey k
  | create ps =>
    simp only [Table.Step] at hs
    split at hs
    · rw [hs.2]; exact h
    · rename_i hb
      rcases hs with ⟨_, _, _, _, _, rfl⟩ | ⟨hc, r, hr, _, rfl⟩
      · exact h
      · exact h.addRow hb (hf r hr) hc
  | set r k v => rw [hs.2]; exact h.set r k v
  | setMany r ps => rw [hs.2]; exact Sane.setMany r ps _ h
  | find k v => rw [hs.1]; exact h
  | eraseRow r =>
    rcases hs with ⟨r', _, hr, _, rfl⟩ | ⟨_, _, rfl⟩
    · exact h.erase fun r hr' => hr' ▸ hr
    · exact h
  | eraseOne k v =>
    simp only [Table.Step] at hs
    split at hs
    · rw [hs.2]; exact h
    · rcases hs with ⟨r, hr, _, rfl⟩ | ⟨_, _, rfl⟩
      · exact h.erase fun r' e => e ▸ hr.1
      · exact h
  | eraseMany k v n =>
    simp only [Table.Step] at hs
    split at hs
    · rw [hs.2]; exact h
    · rcases hs with ⟨l, _, _, hl, _, _, _, rfl⟩ | ⟨_, _, rfl⟩
      · exact h.erase fun r hr => (hl r hr).1
      · exact h
  | dropData => rw [hs.2]; exact h.erase fun _ hr => hr
  | dropVault => rw [hs.2]; exact empty_sane

/-- New rows are fresh, and rows a table loses do not come back by themselves: where the rows of a step come from. -/
theorem Step.rows {fresh : Nat → Prop} {c : Cmd K V Ty} {a : Answer K} (hs : t.Step fresh c a t') {r : Nat} (hr : t'.row r) : t.row r ∨ fresh r := by
  cases c with
  | addKey k d =>
    rcases hs with ⟨_, _, rfl⟩ | ⟨hk, _, rfl⟩ <;> exact .inl hr
  | addUniqueKey k ty noFn f =>
    rcases hs with ⟨_, _, rfl⟩ | ⟨_, _, _, _, rfl⟩ | ⟨hk, _, order, ho1, ho2, ⟨_, _, _, _, _, _, _, rfl⟩ | ⟨hd, _, rfl⟩⟩ <;> exact .inl hr
  | updateKey k d =>
    simp only [Table.Step] at hs
    split at hs
    · rw [hs.2] at hr; exact .inl hr
    · rcases hs with ⟨_, _, rfl⟩ | ⟨_, _, rfl⟩ <;> exact .inl hr
  | removeKey k =>
    rcases hs with ⟨_, _, rfl⟩ | ⟨_, _, rfl⟩ <;> exact .inl hr
  | create ps =>
    simp only [Table.Step] at hs
    split at hs
    · rw [hs.2] at hr; exact .inl hr
    · rcases hs with ⟨_, _, _, _, _, rfl⟩ | ⟨hc, r1, hr1, _, rfl⟩
      · exact .inl hr
      · rcases hr with hr | rfl
        · exact .inl hr
        · exact .inr hr1
  | set r0 k v =>
    rw [hs.2] at hr; left
    unfold Table.set at hr
    repeat' split at hr
    all_goals exact hr
  | setMany r0 ps =>
    rw [hs.2] at hr; left
    have key : ∀ ps (res : Res K) (t : Table K V Ty), (Table.setMany r0 ps res t).2.row r → t.row r := by
      intro ps
      induction ps with
      | nil => intro res t h; exact h
      | cons p ps ih =>
        intro res t h
        have h1 : (t.set r0 p.1 p.2).2.row r → t.row r := by
          intro hr
          unfold Table.set at hr
          repeat' split at hr
          all_goals exact hr
        simp only [Table.setMany] at h
        split at h
        · exact h1 h
        · exact h1 (ih _ _ h)
    exact key _ _ _ hr
  | find k v => rw [hs.1] at hr; exact .inl hr
  | eraseRow r =>
    rcases hs with ⟨r', _, _, _, rfl⟩ | ⟨_, _, rfl⟩
    · exact .inl hr.1
    · exact .inl hr
  | eraseOne k v =>
    simp only [Table.Step] at hs
    split at hs
    · rw [hs.2] at hr; exact .inl hr
    · rcases hs with ⟨r, _, _, rfl⟩ | ⟨_, _, rfl⟩
      · exact .inl hr.1
      · exact .inl hr
  | eraseMany k v n =>
    simp only [Table.Step] at hs
    split at hs
    · rw [hs.2] at hr; exact .inl hr
    · rcases hs with ⟨l, _, _, hl, _, _, _, rfl⟩ | ⟨_, _, rfl⟩
      · exact .inl hr.1
      · exact .inl hr
  | dropData => rw [hs.2] at hr; exact .inl hr.1
  | dropVault => rw [hs.2] at hr; exact hr.elim

end Table

/-- Well-formed tables, and no row in two of them. -/
structure Db.Sane (db : Db K V Ty) : Prop where
  table : ∀ o t, db o = some t → t.Sane
  apart : ∀ o o' t t' r, o ≠ o' → db o = some t → db o' = some t' → t.row r → ¬ t'.row r

namespace Db
variable {db db' : Db K V Ty}

theorem put_same (db : Db K V Ty) (o : Nat) (t : Option (Table K V Ty)) : db.put o t o = t := by simp [put]
theorem put_other {o o' : Nat} (h : o' ≠ o) (t : Option (Table K V Ty)) : db.put o t o' = db o' := by simp [put, h]

theorem empty_sane : (empty : Db K V Ty).Sane := ⟨fun _ _ h => by simp [empty] at h, fun _ _ _ _ _ _ h => by simp [empty] at h⟩

theorem Sane.put_none (h : db.Sane) (o : Nat) : (db.put o none).Sane where
  table o' t ht := by
    by_cases e : o' = o
    · simp [put, e] at ht
    · rw [put_other e] at ht; exact h.table o' t ht
  apart o1 o2 t1 t2 r hn h1 h2 := by
    by_cases e1 : o1 = o
    · simp [put, e1] at h1
    · by_cases e2 : o2 = o
      · simp [put, e2] at h2
      · rw [put_other e1] at h1; rw [put_other e2] at h2; exact h.apart o1 o2 t1 t2 r hn h1 h2

/-- A vault variable gets a well-formed table whose rows are in no other vault. -/
theorem Sane.put (h : db.Sane) {o : Nat} {t : Table K V Ty} (ht : t.Sane) (hr : ∀ r, t.row r → ∀ o' t', o' ≠ o → db o' = some t' → ¬ t'.row r) :
    (db.put o (some t)).Sane where
  table o' t' h' := by
    by_cases e : o' = o
    · subst e; rw [put_same] at h'; cases h'; exact ht
    · rw [put_other e] at h'; exact h.table o' t' h'
  apart o1 o2 t1 t2 r hn h1 h2 hr1 hr2 := by
    by_cases e1 : o1 = o <;> by_cases e2 : o2 = o
    · exact hn (e1.trans e2.symm)
    · rw [e1, put_same] at h1; cases h1; rw [put_other e2] at h2; exact hr r hr1 o2 t2 e2 h2 hr2
    · rw [e2, put_same] at h2; cases h2; rw [put_other e1] at h1; exact hr r hr2 o1 t1 e1 h1 hr1
    · rw [put_other e1] at h1; rw [put_other e2] at h2; exact h.apart o1 o2 t1 t2 r hn h1 h2 hr1 hr2

theorem copy_rows {fresh : Nat → Prop} {t t' : Table K V Ty} (h : t.Copy fresh t') {r : Nat} (hr : t'.row r) : fresh r := by
  obtain ⟨_, m, h0, _, _, _, _, _, _, h1, _⟩ := h
  obtain ⟨r0, h2, rfl⟩ := (h1 r).mp hr; exact h0 r0 h2

/-- Every call keeps all tables well-formed and apart. -/
theorem Step.sane (h : db.Sane) {e : Event K V Ty} {a : Answer K} (hs : db.Step e a db') : db'.Sane := by
  cases e with
  | on o c =>
    obtain ⟨t, t', h1, h2, rfl⟩ := hs
    refine h.put (h2.sane (fun r hr => hr o t h1) (h.table o t h1)) fun r hr o' t'' hn h3 => ?_
    rcases h2.rows hr with h4 | h4
    · exact h.apart o o' t t'' r (Ne.symm hn) h1 h3 h4
    · exact h4 o' t'' h3
  | new o => obtain ⟨h1, rfl⟩ := hs; exact h.put Table.empty_sane fun r hr => hr.elim
  | gone o => obtain ⟨h1, rfl⟩ := hs; exact h.put_none o
  | copyNew o a =>
    obtain ⟨t, t', h1, h2, h3, rfl⟩ := hs
    exact h.put ((h.table a t h2).copy h3) fun r hr o' t'' hn h4 => copy_rows h3 hr o' t'' h4
  | assign o a =>
    rcases hs with ⟨_, rfl⟩ | ⟨t, t', hn, h1, h2, h3, rfl⟩
    · exact h
    · exact h.put ((h.table a t h2).copy h3) fun r hr o' t'' hn h4 => copy_rows h3 hr o' t'' h4
  | moveNew o a =>
    obtain ⟨t, h1, h2, rfl⟩ := hs
    have hn : o ≠ a := by rintro rfl; rw [h1] at h2; cases h2
    constructor
    · intro o' t' h3
      by_cases e : o' = a
      · subst e; rw [put_same] at h3; cases h3; exact Table.empty_sane
      · rw [put_other e] at h3
        by_cases e2 : o' = o
        · subst e2; rw [put_same] at h3; cases h3; exact h.table a t h2
        · rw [put_other e2] at h3; exact h.table o' t' h3
    · intro o1 o2 t1 t2 r hne h3 h4 hr1 hr2
      have e1 : o1 ≠ a := by rintro rfl; rw [put_same] at h3; cases h3; exact hr1
      have e2 : o2 ≠ a := by rintro rfl; rw [put_same] at h4; cases h4; exact hr2
      rw [put_other e1] at h3; rw [put_other e2] at h4
      by_cases e3 : o1 = o
      · subst e3; rw [put_same] at h3; cases h3
        rw [put_other (Ne.symm hne)] at h4; exact h.apart a o2 _ _ r (Ne.symm e2) h2 h4 hr1 hr2
      · rw [put_other e3] at h3
        by_cases e4 : o2 = o
        · subst e4; rw [put_same] at h4; cases h4; exact h.apart a o1 _ _ r (Ne.symm e1) h2 h3 hr2 hr1
        · rw [put_other e4] at h4; exact h.apart o1 o2 t1 t2 r hne h3 h4 hr1 hr2
  | moveAssign o a =>
    rcases hs with ⟨_, rfl⟩ | ⟨t, hn, h1, h2, rfl⟩
    · exact h
    constructor
    · intro o' t' h3
      by_cases e : o' = a
      · subst e; rw [put_same] at h3; cases h3; exact Table.empty_sane
      · rw [put_other e] at h3
        by_cases e2 : o' = o
        · subst e2; rw [put_same] at h3; cases h3; exact h.table a t h2
        · rw [put_other e2] at h3; exact h.table o' t' h3
    · intro o1 o2 t1 t2 r hne h3 h4 hr1 hr2
      have e1 : o1 ≠ a := by rintro rfl; rw [put_same] at h3; cases h3; exact hr1
      have e2 : o2 ≠ a := by rintro rfl; rw [put_same] at h4; cases h4; exact hr2
      rw [put_other e1] at h3; rw [put_other e2] at h4
      by_cases e3 : o1 = o
      · subst e3; rw [put_same] at h3; cases h3
        rw [put_other (Ne.symm hne)] at h4; exact h.apart a o2 _ _ r (Ne.symm e2) h2 h4 hr1 hr2
      · rw [put_other e3] at h3
        by_cases e4 : o2 = o
        · subst e4; rw [put_same] at h4; cases h4; exact h.apart a o1 _ _ r (Ne.symm e1) h2 h3 hr2 hr1
        · rw [put_other e4] at h4; exact h.apart o1 o2 t1 t2 r hne h3 h4 hr1 hr2
  | other => rw [hs]; exact h

/-- Every run ends with well-formed tables that share no row. -/
theorem Run.sane {l : List (Event K V Ty × Answer K)} (h : Run l db) : db.Sane := by
  induction h with
  | init => exact empty_sane
  | step l db db' e a _ hs ih => exact Step.sane ih hs

end Db
end MVault.Spec
