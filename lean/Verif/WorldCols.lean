import Verif.WorldMaps
/-
The invariant of one key of a vault (`ColOk`) and its preservation by the index operations.
-/
set_option linter.unusedSectionVars false
set_option linter.unusedSimpArgs false
namespace MVault.W
variable {V Ty : Type} [LinearOrder V] [Typed V Ty] [DecidableEq Ty]

/-- What the index of a key has to do with the values `cell r` of the records `recs`: every record has a value of the key's
type; the entries of both indices are correct and not repeated; the ordered index is sorted; unless the ghost flags are set
both indices are complete; a unique key is complete and has no repeated value. -/
structure ColOk (cell : Nat → Option V) (recs : List Nat) (c : Col V Ty) : Prop where
  typed : ∀ r ∈ recs, ∃ v, cell r = some v ∧ typeOf v = c.ty
  hashS : ∀ v r, (v, r) ∈ c.hash → r ∈ recs ∧ cell r = some v
  ordS : ∀ v r, (v, r) ∈ c.ord → r ∈ recs ∧ cell r = some v
  hashN : c.hash.Nodup
  ordN : c.ord.Nodup
  sorted : c.ord.Pairwise (fun a b => a.1 ≤ b.1)
  hashC : c.dropH = false → ∀ r ∈ recs, ∀ v, cell r = some v → (v, r) ∈ c.hash
  ordC : c.dropO = false → ∀ r ∈ recs, ∀ v, cell r = some v → (v, r) ∈ c.ord
  uniq : c.multi = false → c.dropH = false ∧ c.dropO = false ∧ ∀ r ∈ recs, ∀ r' ∈ recs, cell r = cell r' → r = r'
  dfltT : typeOf c.dflt = c.ty

theorem mem_ordInsert (l : List (V × Nat)) (v : V) (r : Nat) (e : V × Nat) : e ∈ ordInsert l v r ↔ e = (v, r) ∨ e ∈ l := by
  induction l with
  | nil => simp [ordInsert]
  | cons a l ih =>
    obtain ⟨v', r'⟩ := a
    simp only [ordInsert]
    split
    · simp
    · simp only [List.mem_cons, ih]
      constructor
      · rintro (h | h | h) <;> simp [h]
      · rintro (h | h | h) <;> simp [h]

theorem perm_ordInsert (l : List (V × Nat)) (v : V) (r : Nat) : (ordInsert l v r).Perm ((v, r) :: l) := by
  induction l with
  | nil => exact List.Perm.refl _
  | cons a l ih =>
    obtain ⟨v', r'⟩ := a
    simp only [ordInsert]
    split
    · exact List.Perm.refl _
    · exact (List.Perm.cons _ ih).trans (List.Perm.swap ..)

theorem sorted_ordInsert (l : List (V × Nat)) (v : V) (r : Nat) (h : l.Pairwise (fun a b => a.1 ≤ b.1)) :
    (ordInsert l v r).Pairwise (fun a b => a.1 ≤ b.1) := by
  induction l with
  | nil => simp [ordInsert]
  | cons a l ih =>
    obtain ⟨v', r'⟩ := a
    rw [List.pairwise_cons] at h
    simp only [ordInsert]
    split
    · rename_i hlt
      rw [List.pairwise_cons]
      refine ⟨?_, List.pairwise_cons.mpr h⟩
      intro e he
      rcases List.mem_cons.mp he with he | he
      · subst he; exact le_of_lt hlt
      · exact le_trans (le_of_lt hlt) (h.1 e he)
    · rename_i hlt
      rw [List.pairwise_cons]
      refine ⟨?_, ih h.2⟩
      intro e he
      rw [mem_ordInsert] at he
      rcases he with he | he
      · subst he; exact le_of_not_gt hlt
      · exact h.1 e he

theorem hasVal_iff (l : List (V × Nat)) (v : V) : hasVal l v = true ↔ ∃ r, (v, r) ∈ l := by
  unfold hasVal
  rw [List.any_eq_true]
  constructor
  · rintro ⟨⟨a, b⟩, h, e⟩; simp at e; subst e; exact ⟨b, h⟩
  · rintro ⟨r, h⟩; exact ⟨_, h, by simp⟩

theorem hasVal_false (l : List (V × Nat)) (v : V) : hasVal l v = false ↔ ∀ r, (v, r) ∉ l := by
  rw [← Bool.not_eq_true, hasVal_iff]; simp

/-- The invariant only looks at the values of the records. -/
theorem ColOk.congr {cell cell' : Nat → Option V} {recs recs' : List Nat} {c : Col V Ty} (h : ColOk cell recs c)
    (hr : ∀ r, r ∈ recs' ↔ r ∈ recs) (hc : ∀ r ∈ recs, cell' r = cell r) : ColOk cell' recs' c where
  typed r hm := by rw [hr] at hm; rw [hc r hm]; exact h.typed r hm
  hashS v r hm := by obtain ⟨a, b⟩ := h.hashS v r hm; exact ⟨(hr r).mpr a, by rw [hc r a]; exact b⟩
  ordS v r hm := by obtain ⟨a, b⟩ := h.ordS v r hm; exact ⟨(hr r).mpr a, by rw [hc r a]; exact b⟩
  hashN := h.hashN
  ordN := h.ordN
  sorted := h.sorted
  hashC hd r hm v hv := by rw [hr] at hm; rw [hc r hm] at hv; exact h.hashC hd r hm v hv
  ordC hd r hm v hv := by rw [hr] at hm; rw [hc r hm] at hv; exact h.ordC hd r hm v hv
  uniq hu := by
    obtain ⟨a, b, u⟩ := h.uniq hu
    refine ⟨a, b, ?_⟩
    intro r hm r' hm' e
    rw [hr] at hm hm'; rw [hc r hm, hc r' hm'] at e; exact u r hm r' hm' e
  dfltT := h.dfltT

/-- Indices with no records. -/
theorem ColOk.empty (cell : Nat → Option V) (c : Col V Ty) (hd : typeOf c.dflt = c.ty) (hh : c.hash = []) (ho : c.ord = [])
    (h1 : c.dropH = false) (h2 : c.dropO = false) : ColOk cell [] c where
  typed := by simp
  hashS := by simp [hh]
  ordS := by simp [ho]
  hashN := by simp [hh]
  ordN := by simp [ho]
  sorted := by simp [ho]
  hashC := by simp
  ordC := by simp
  uniq _ := ⟨h1, h2, by simp⟩
  dfltT := hd

theorem ColOk.clear {cell : Nat → Option V} {recs : List Nat} {c : Col V Ty} (h : ColOk cell recs c) (cell' : Nat → Option V) :
    ColOk cell' [] c.clear :=
  ColOk.empty _ _ h.dfltT rfl rfl rfl rfl

section add
variable {cell : Nat → Option V} {recs : List Nat} {c : Col V Ty}

/-- The adder refuses exactly a value held by another record for a unique key. -/
theorem ColOk.add_false (h : ColOk cell recs c) (v : V) (r : Nat) :
    (c.add v r).2 = false ↔ c.multi = false ∧ ∃ r' ∈ recs, cell r' = some v := by
  unfold Col.add
  by_cases hm : c.multi = false
  · have hc := h.hashC (h.uniq hm).1
    have : hasVal c.hash v = true ↔ ∃ r' ∈ recs, cell r' = some v := by
      rw [hasVal_iff]
      constructor
      · rintro ⟨r', h'⟩; exact ⟨r', h.hashS _ _ h'⟩
      · rintro ⟨r', h1, h2⟩; exact ⟨r', hc r' h1 v h2⟩
    simp only [hm, true_and]
    split
    · rename_i h1; rw [this] at h1; simpa using h1
    · rename_i h1; rw [this] at h1; simpa using h1
  · simp [hm]

theorem Col.add_shape (c : Col V Ty) (v : V) (r : Nat) : (c.add v r).1.ty = c.ty ∧ (c.add v r).1.multi = c.multi ∧
    (c.add v r).1.dflt = c.dflt ∧ (c.add v r).1.dropH = c.dropH ∧ (c.add v r).1.dropO = c.dropO := by
  unfold Col.add; split <;> simp

theorem Col.add_refused (c : Col V Ty) (v : V) (r : Nat) (h : (c.add v r).2 = false) : (c.add v r).1 = c := by
  unfold Col.add at h ⊢; split at h
  · rw [if_pos (by assumption)]
  · simp at h

/-- Record `r` is listed in the hash index (`b = false`) or the ordered index (`b = true`) of the key. -/
def Col.lists (b : Bool) (c : Col V Ty) (r : Nat) : Prop := ∃ v, (v, r) ∈ (if b = true then c.ord else c.hash)

/-- A value that is not refused enters both indices. -/
theorem ColOk.add_lists (h : ColOk cell recs c) {v : V} {r : Nat} (hok : (c.add v r).2 = true) (b : Bool) (r' : Nat) :
    (c.add v r).1.lists b r' ↔ c.lists b r' ∨ r' = r := by
  have hne : ¬ (c.multi = false ∧ hasVal c.hash v = true) := by
    intro hh; unfold Col.add at hok; rw [if_pos hh] at hok; simp at hok
  have hne2 : ¬ (c.multi = false ∧ hasVal c.ord v = true) := by
    rintro ⟨hm, hh⟩
    rw [hasVal_iff] at hh
    obtain ⟨r', h'⟩ := hh
    have := (h.add_false v r).mpr ⟨hm, r', h.ordS _ _ h'⟩
    rw [this] at hok; simp at hok
  have e : (c.add v r).1 = { c with hash := c.hash ++ [(v, r)], ord := ordInsert c.ord v r } := by
    unfold Col.add hashEmplace ordEmplace; rw [if_neg hne, if_neg hne, if_neg hne2]
  rw [e]
  cases b with
  | true =>
    simp only [Col.lists, if_true, mem_ordInsert, Prod.mk.injEq]
    constructor
    · rintro ⟨v', ⟨_, h⟩ | h⟩
      · exact .inr h
      · exact .inl ⟨v', h⟩
    · rintro (⟨v', h⟩ | h)
      · exact ⟨v', .inr h⟩
      · exact ⟨v, .inl ⟨rfl, h⟩⟩
  | false =>
    simp only [Col.lists, Bool.false_eq_true, if_false, List.mem_append, List.mem_singleton, Prod.mk.injEq]
    constructor
    · rintro ⟨v', h | ⟨_, h⟩⟩
      · exact .inl ⟨v', h⟩
      · exact .inr h
    · rintro (⟨v', h⟩ | h)
      · exact ⟨v', .inl h⟩
      · exact ⟨v, .inr ⟨rfl, h⟩⟩

theorem ColOk.add (h : ColOk cell recs c) {v : V} {r : Nat} (hv : typeOf v = c.ty) (hr : r ∉ recs)
    (hok : (c.add v r).2 = true) {cell' : Nat → Option V} (hc : ∀ r' ∈ recs, cell' r' = cell r') (hcr : cell' r = some v) :
    ColOk cell' (recs ++ [r]) (c.add v r).1 := by
  have hne : ¬ (c.multi = false ∧ hasVal c.hash v = true) := by
    intro hh; unfold Col.add at hok; rw [if_pos hh] at hok; simp at hok
  have hnc : c.multi = false → ∀ r' ∈ recs, cell r' ≠ some v := by
    intro hm r' h1 h2
    have := (h.add_false v r).mpr ⟨hm, r', h1, h2⟩
    rw [this] at hok; simp at hok
  have hne2 : ¬ (c.multi = false ∧ hasVal c.ord v = true) := by
    rintro ⟨hm, hh⟩
    rw [hasVal_iff] at hh
    obtain ⟨r', h'⟩ := hh
    obtain ⟨a, b⟩ := h.ordS _ _ h'
    exact hnc hm r' a b
  have hnh : (v, r) ∉ c.hash := fun hh => hr (h.hashS _ _ hh).1
  have hno : (v, r) ∉ c.ord := fun hh => hr (h.ordS _ _ hh).1
  have e : (c.add v r).1 = { c with hash := c.hash ++ [(v, r)], ord := ordInsert c.ord v r } := by
    unfold Col.add hashEmplace ordEmplace; rw [if_neg hne, if_neg hne, if_neg hne2]
  rw [e]
  have hcell : ∀ r' ∈ recs ++ [r], r' = r ∧ cell' r' = some v ∨ r' ∈ recs ∧ cell' r' = cell r' := by
    intro r' hm
    rcases List.mem_append.mp hm with hm | hm
    · exact .inr ⟨hm, hc r' hm⟩
    · simp at hm; subst hm; exact .inl ⟨rfl, hcr⟩
  exact {
    typed := by
      intro r' hm
      rcases hcell r' hm with ⟨_, h2⟩ | ⟨h1, h2⟩
      · exact ⟨v, h2, hv⟩
      · rw [h2]; exact h.typed r' h1
    hashS := by
      intro v' r' hm
      rcases List.mem_append.mp hm with hm | hm
      · obtain ⟨a, b⟩ := h.hashS _ _ hm
        exact ⟨List.mem_append_left _ a, by rw [hc r' a]; exact b⟩
      · simp at hm; obtain ⟨rfl, rfl⟩ := hm; exact ⟨by simp, hcr⟩
    ordS := by
      intro v' r' hm
      rcases (mem_ordInsert _ _ _ _).mp hm with hm | hm
      · simp at hm; obtain ⟨rfl, rfl⟩ := hm; exact ⟨by simp, hcr⟩
      · obtain ⟨a, b⟩ := h.ordS _ _ hm
        exact ⟨List.mem_append_left _ a, by rw [hc r' a]; exact b⟩
    hashN := by
      rw [List.nodup_append]
      refine ⟨h.hashN, by simp, ?_⟩
      intro a ha b hb; simp at hb; subst hb; intro hh; subst hh; exact hnh ha
    ordN := (perm_ordInsert _ _ _).nodup_iff.mpr (List.nodup_cons.mpr ⟨hno, h.ordN⟩)
    sorted := sorted_ordInsert _ _ _ h.sorted
    hashC := by
      intro hd r' hm v' hv'
      rcases hcell r' hm with ⟨h1, h2⟩ | ⟨h1, h2⟩
      · subst h1; rw [h2] at hv'; cases hv'; simp
      · rw [h2] at hv'; exact List.mem_append_left _ (h.hashC hd r' h1 v' hv')
    ordC := by
      intro hd r' hm v' hv'
      rcases hcell r' hm with ⟨h1, h2⟩ | ⟨h1, h2⟩
      · subst h1; rw [h2] at hv'; cases hv'; exact (mem_ordInsert _ _ _ _).mpr (.inl rfl)
      · rw [h2] at hv'; exact (mem_ordInsert _ _ _ _).mpr (.inr (h.ordC hd r' h1 v' hv'))
    uniq := by
      intro hm
      obtain ⟨a, b, u⟩ := h.uniq hm
      refine ⟨a, b, ?_⟩
      intro r1 h1 r2 h2 e12
      rcases hcell r1 h1 with ⟨a1, b1⟩ | ⟨a1, b1⟩ <;> rcases hcell r2 h2 with ⟨a2, b2⟩ | ⟨a2, b2⟩
      · rw [a1, a2]
      · rw [b1, b2] at e12; exact absurd e12.symm (hnc hm r2 a2)
      · rw [b1, b2] at e12; exact absurd e12 (hnc hm r1 a1)
      · rw [b1, b2] at e12; exact u r1 a1 r2 a2 e12
    dfltT := h.dfltT }

theorem mem_hash_add (c : Col V Ty) (v : V) (r : Nat) (e : V × Nat) (h : e ∈ (c.add v r).1.hash) : e ∈ c.hash ∨ e = (v, r) := by
  unfold Col.add hashEmplace at h
  split at h
  · exact .inl h
  · rename_i hn
    simp only [if_neg hn, List.mem_append, List.mem_singleton] at h
    exact h

theorem mem_ord_add (c : Col V Ty) (v : V) (r : Nat) (e : V × Nat) (h : e ∈ (c.add v r).1.ord) : e ∈ c.ord ∨ e = (v, r) := by
  unfold Col.add ordEmplace at h
  split at h
  · exact .inl h
  · dsimp only at h
    split at h
    · exact .inl h
    · rcases (mem_ordInsert _ _ _ _).mp h with h | h
      · exact .inr h
      · exact .inl h

theorem sorted_ordEmplace (m : Bool) (l : List (V × Nat)) (v : V) (r : Nat) (h : l.Pairwise (fun a b => a.1 ≤ b.1)) :
    (ordEmplace m l v r).Pairwise (fun a b => a.1 ≤ b.1) := by
  unfold ordEmplace; split
  · exact h
  · exact sorted_ordInsert _ _ _ h

theorem sorted_add (c : Col V Ty) (v : V) (r : Nat) (h : c.ord.Pairwise (fun a b => a.1 ≤ b.1)) :
    (c.add v r).1.ord.Pairwise (fun a b => a.1 ≤ b.1) := by
  unfold Col.add; split
  · exact h
  · exact sorted_ordEmplace _ _ _ _ h

end add

section erase
variable {cell : Nat → Option V} {recs : List Nat} {c : Col V Ty}

theorem mem_hash_erase (c : Col V Ty) (v : V) (r : Nat) (e : V × Nat) (h : e ∈ (c.erase v r).hash) : e ∈ c.hash :=
  List.mem_of_mem_erase h

theorem mem_ord_erase (c : Col V Ty) (v : V) (r : Nat) (e : V × Nat) (h : e ∈ (c.erase v r).ord) : e ∈ c.ord := by
  unfold Col.erase at h
  dsimp only at h
  split at h
  · exact (List.mem_filter.mp h).1
  · exact h

theorem sorted_erase (c : Col V Ty) (v : V) (r : Nat) (h : c.ord.Pairwise (fun a b => a.1 ≤ b.1)) :
    (c.erase v r).ord.Pairwise (fun a b => a.1 ≤ b.1) := by
  unfold Col.erase
  dsimp only
  split
  · exact h.filter _
  · exact h

theorem ColOk.erase (h : ColOk cell recs c) {v : V} {r : Nat} (hr : r ∈ recs) (hv : cell r = some v) :
    ColOk cell (recs.filter (· ≠ r)) (c.erase v r) where
  typed r' hm := h.typed r' (List.mem_filter.mp hm).1
  hashS v' r' hm := by
    have hm' : (v', r') ∈ c.hash.erase (v, r) := hm
    rw [h.hashN.mem_erase_iff] at hm'
    obtain ⟨a, b⟩ := h.hashS _ _ hm'.2
    refine ⟨List.mem_filter.mpr ⟨a, ?_⟩, b⟩
    simp only [decide_eq_true_eq]
    intro e; subst e; rw [hv] at b; cases b; exact hm'.1 rfl
  ordS v' r' hm := by
    obtain ⟨a, b⟩ := h.ordS _ _ (mem_ord_erase _ _ _ _ hm)
    refine ⟨List.mem_filter.mpr ⟨a, ?_⟩, b⟩
    simp only [decide_eq_true_eq]
    intro e; subst e; rw [hv] at b; cases b
    unfold Col.erase at hm
    dsimp only at hm
    split at hm
    · simp at hm
    · contradiction
  hashN := h.hashN.erase _
  ordN := by
    unfold Col.erase; dsimp only; split
    · exact h.ordN.filter _
    · exact h.ordN
  sorted := sorted_erase _ _ _ h.sorted
  hashC hd r' hm v' hv' := by
    obtain ⟨a, b⟩ := List.mem_filter.mp hm
    simp only [decide_eq_true_eq] at b
    have := h.hashC hd r' a v' hv'
    show (v', r') ∈ c.hash.erase (v, r)
    rw [h.hashN.mem_erase_iff]
    refine ⟨?_, this⟩
    intro e; cases e; exact b rfl
  ordC hd r' hm v' hv' := by
    obtain ⟨a, b⟩ := List.mem_filter.mp hm
    simp only [decide_eq_true_eq] at b
    unfold Col.erase at hd ⊢
    simp only [Bool.or_eq_false_iff, Bool.and_eq_false_iff, decide_eq_false_iff_not] at hd
    have hm' := h.ordC hd.1 r' a v' hv'
    dsimp only
    split
    · rename_i hin
      rcases hd.2 with hd2 | hd2
      · exact absurd hin hd2
      · refine List.mem_filter.mpr ⟨hm', ?_⟩
        simp only [decide_eq_true_eq]
        intro e
        rw [List.any_eq_false] at hd2
        exact hd2 _ hm' (by simp [e, b])
    · exact hm'
  uniq hu := by
    obtain ⟨a, b, u⟩ := h.uniq hu
    refine ⟨a, ?_, ?_⟩
    · show (c.dropO || _) = false
      rw [b, Bool.false_or, Bool.and_eq_false_iff]
      right
      rw [List.any_eq_false]
      rintro ⟨v', r'⟩ he hh
      simp only [decide_eq_true_eq] at hh
      obtain ⟨a', b'⟩ := h.ordS _ _ he
      exact hh.2 (u r' a' r hr (by rw [b', hv, hh.1]))
    · intro r1 h1 r2 h2
      exact u r1 (List.mem_filter.mp h1).1 r2 (List.mem_filter.mp h2).1
  dfltT := h.dfltT

end erase

section setVal
variable {cell : Nat → Option V} {recs : List Nat} {c c' : Col V Ty}

theorem Col.setVal_shape {c c' : Col V Ty} {old new : V} {r : Nat} (h : c.setVal old new r = some c') :
    c'.ty = c.ty ∧ c'.multi = c.multi ∧ c'.dflt = c.dflt := by
  unfold Col.setVal at h; split at h
  · simp at h
  · cases h; simp

/-- On a unique key `SetData` is always refused. -/
theorem ColOk.setVal_unique (h : ColOk cell recs c) (hu : c.multi = false) {old : V} {r : Nat} (hr : r ∈ recs) (ho : cell r = some old)
    (new : V) : c.setVal old new r = none := by
  unfold Col.setVal
  rw [if_pos]
  exact ⟨hu, (hasVal_iff _ _).mpr ⟨r, h.hashC (h.uniq hu).1 r hr old ho⟩⟩

theorem Col.setVal_multi (c : Col V Ty) (hm : c.multi = true) (old new : V) (r : Nat) : ∃ c', c.setVal old new r = some c' := by
  unfold Col.setVal; simp [hm]

theorem mem_hashEmplace (m : Bool) (l : List (V × Nat)) (v : V) (r : Nat) (e : V × Nat) (h : e ∈ hashEmplace m l v r) :
    e ∈ l ∨ e = (v, r) := by
  unfold hashEmplace at h; split at h
  · exact .inl h
  · simpa using h

theorem mem_ordEmplace (m : Bool) (l : List (V × Nat)) (v : V) (r : Nat) (e : V × Nat) (h : e ∈ ordEmplace m l v r) :
    e ∈ l ∨ e = (v, r) := by
  unfold ordEmplace at h; split at h
  · exact .inl h
  · exact ((mem_ordInsert _ _ _ _).mp h).symm

theorem mem_ite_filter (p : Prop) [Decidable p] (q : V × Nat → Bool) (l : List (V × Nat)) (e : V × Nat)
    (h : e ∈ (if p then l.filter q else l)) : e ∈ l := by
  split at h
  · exact (List.mem_filter.mp h).1
  · exact h

theorem mem_hash_setVal {old new : V} {r : Nat} (h : c.setVal old new r = some c') (e : V × Nat) (he : e ∈ c'.hash) :
    e ∈ c.hash ∨ e = (new, r) := by
  unfold Col.setVal at h; split at h
  · simp at h
  · cases h
    rcases mem_hashEmplace _ _ _ _ _ he with he | he
    · exact .inl (mem_ite_filter _ _ _ _ he)
    · exact .inr he

theorem mem_ord_setVal {old new : V} {r : Nat} (h : c.setVal old new r = some c') (e : V × Nat) (he : e ∈ c'.ord) :
    e ∈ c.ord ∨ e = (new, r) := by
  unfold Col.setVal at h; split at h
  · simp at h
  · cases h
    rcases mem_ordEmplace _ _ _ _ _ he with he | he
    · exact .inl (mem_ite_filter _ _ _ _ he)
    · exact .inr he

theorem sorted_setVal {old new : V} {r : Nat} (h : c.setVal old new r = some c') (hs : c.ord.Pairwise (fun a b => a.1 ≤ b.1)) :
    c'.ord.Pairwise (fun a b => a.1 ≤ b.1) := by
  unfold Col.setVal at h; split at h
  · simp at h
  · cases h
    apply sorted_ordEmplace
    split
    · exact hs.filter _
    · exact hs

theorem ColOk.setVal (h : ColOk cell recs c) {old new : V} {r : Nat} (hr : r ∈ recs) (ho : cell r = some old)
    (hn : typeOf new = c.ty) (hs : c.setVal old new r = some c') {cell' : Nat → Option V}
    (hc : ∀ r' ∈ recs, r' ≠ r → cell' r' = cell r') (hcr : cell' r = some new) : ColOk cell' recs c' := by
  have hm : c.multi = true := by
    by_contra hm
    have hm' : c.multi = false := by simpa using hm
    rw [h.setVal_unique hm' hr ho] at hs; cases hs
  unfold Col.setVal at hs
  rw [if_neg (by simp [hm])] at hs
  cases hs
  -- entries after the removal of the old value: correct, and not about `r`
  have keepS : ∀ (l : List (V × Nat)), (∀ v r, (v, r) ∈ l → r ∈ recs ∧ cell r = some v) →
      ∀ v' r', (v', r') ∈ (if (old, r) ∈ l then l.filter (fun e => e.1 ≠ old) else l) → r' ∈ recs ∧ r' ≠ r ∧ cell r' = some v' := by
    intro l hl v' r' hm'
    split at hm'
    · obtain ⟨a, b⟩ := List.mem_filter.mp hm'
      simp only [decide_eq_true_eq] at b
      obtain ⟨a1, a2⟩ := hl _ _ a
      refine ⟨a1, ?_, a2⟩
      rintro rfl; rw [ho] at a2; cases a2; exact b rfl
    · rename_i hni
      obtain ⟨a1, a2⟩ := hl _ _ hm'
      refine ⟨a1, ?_, a2⟩
      rintro rfl; rw [ho] at a2; cases a2; exact hni hm'
  have keepC : ∀ (l : List (V × Nat)) (d : Bool), (∀ v r, (v, r) ∈ l → r ∈ recs ∧ cell r = some v) →
      (d || (decide ((old, r) ∈ l) && l.any (fun e => e.1 = old ∧ e.2 ≠ r))) = false →
      (d = false → ∀ r ∈ recs, ∀ v, cell r = some v → (v, r) ∈ l) →
      ∀ r' ∈ recs, r' ≠ r → ∀ v, cell r' = some v → (v, r') ∈ (if (old, r) ∈ l then l.filter (fun e => e.1 ≠ old) else l) := by
    intro l d hl hd hC r' hr' hne v hv
    simp only [Bool.or_eq_false_iff, Bool.and_eq_false_iff, decide_eq_false_iff_not] at hd
    have hin := hC hd.1 r' hr' v hv
    split
    · rename_i hi
      rcases hd.2 with h1 | h1
      · exact absurd hi h1
      · refine List.mem_filter.mpr ⟨hin, ?_⟩
        simp only [decide_eq_true_eq]
        intro e
        rw [List.any_eq_false] at h1
        exact h1 _ hin (by simp [e, hne])
    · exact hin
  have keepN : ∀ (l : List (V × Nat)), l.Nodup → (if (old, r) ∈ l then l.filter (fun e => e.1 ≠ old) else l).Nodup := by
    intro l hl; split
    · exact hl.filter _
    · exact hl
  have hne : ∀ l : List (V × Nat), ¬ (c.multi = false ∧ hasVal l new = true) := by simp [hm]
  exact {
    typed := by
      intro r' hm'
      by_cases e : r' = r
      · subst e; exact ⟨new, hcr, hn⟩
      · rw [hc r' hm' e]; exact h.typed r' hm'
    hashS := by
      intro v' r' hm'
      simp only [hashEmplace, if_neg (hne _), List.mem_append, List.mem_singleton] at hm'
      rcases hm' with hm' | hm'
      · obtain ⟨a, b, d⟩ := keepS _ h.hashS _ _ hm'
        exact ⟨a, by rw [hc r' a b]; exact d⟩
      · cases hm'; exact ⟨hr, hcr⟩
    ordS := by
      intro v' r' hm'
      simp only [ordEmplace, if_neg (hne _)] at hm'
      rcases (mem_ordInsert _ _ _ _).mp hm' with hm' | hm'
      · cases hm'; exact ⟨hr, hcr⟩
      · obtain ⟨a, b, d⟩ := keepS _ h.ordS _ _ hm'
        exact ⟨a, by rw [hc r' a b]; exact d⟩
    hashN := by
      simp only [hashEmplace, if_neg (hne _)]
      rw [List.nodup_append]
      refine ⟨keepN _ h.hashN, by simp, ?_⟩
      intro a ha b hb
      simp only [List.mem_singleton] at hb; subst hb
      intro hh; subst hh
      exact (keepS _ h.hashS _ _ ha).2.1 rfl
    ordN := by
      simp only [ordEmplace, if_neg (hne _)]
      refine (perm_ordInsert _ _ _).nodup_iff.mpr (List.nodup_cons.mpr ⟨?_, keepN _ h.ordN⟩)
      intro hh
      exact (keepS _ h.ordS _ _ hh).2.1 rfl
    sorted := by
      apply sorted_ordEmplace
      split
      · exact h.sorted.filter _
      · exact h.sorted
    hashC := by
      intro hd r' hm' v' hv'
      simp only [hashEmplace, if_neg (hne _), List.mem_append, List.mem_singleton]
      by_cases e : r' = r
      · subst e; rw [hcr] at hv'; cases hv'; exact .inr rfl
      · rw [hc r' hm' e] at hv'
        exact .inl (keepC _ _ h.hashS hd h.hashC r' hm' e v' hv')
    ordC := by
      intro hd r' hm' v' hv'
      simp only [ordEmplace, if_neg (hne _)]
      refine (mem_ordInsert _ _ _ _).mpr ?_
      by_cases e : r' = r
      · subst e; rw [hcr] at hv'; cases hv'; exact .inl rfl
      · rw [hc r' hm' e] at hv'
        exact .inr (keepC _ _ h.ordS hd h.ordC r' hm' e v' hv')
    uniq := by intro hu; simp [hm] at hu
    dfltT := h.dfltT }

end setVal

section build

/-- Adding many records to a non-unique key, AddKey on a non-empty vault. -/
theorem ColOk.fold {cell : Nat → Option V} (d : V) (l : List Nat) (recs : List Nat) (c : Col V Ty) (h : ColOk cell recs c)
    (hm : c.multi = true) (hd : typeOf d = c.ty) (hn : (recs ++ l).Nodup) (hc : ∀ r ∈ l, cell r = some d) :
    ColOk cell (recs ++ l) (l.foldl (fun c r => (c.add d r).1) c) := by
  induction l generalizing recs c with
  | nil => simpa using h
  | cons r l ih =>
    have hr : r ∉ recs := by
      intro hh
      rw [List.nodup_append] at hn
      exact hn.2.2 r hh r (by simp) rfl
    have hok : (c.add d r).2 = true := by
      unfold Col.add; simp [hm]
    have := h.add hd hr hok (cell' := cell) (fun _ _ => rfl) (hc r (by simp))
    have sh := Col.add_shape c d r
    have := ih (recs ++ [r]) (c.add d r).1 this (by rw [sh.2.1]; exact hm) (by rw [sh.1]; exact hd) (by simpa using hn)
      (fun r hr => hc r (by simp [hr]))
    simpa using this

/-- Adding many records to a unique key, AddUniqueKey with a function: what success and failure mean. -/
theorem fnCol_spec (l : List (Nat × V)) (recs : List Nat) (c : Col V Ty) {cell : Nat → Option V} (h : ColOk cell recs c)
    (hm : c.multi = false) (ht : ∀ p ∈ l, typeOf p.2 = c.ty) (hn : (recs ++ l.map (·.1)).Nodup)
    (hc : ∀ p ∈ l, cell p.1 = some p.2) :
    (∀ c', fnCol l c = some c' → ColOk cell (recs ++ l.map (·.1)) c' ∧ c'.multi = false ∧ c'.ty = c.ty) ∧
    (fnCol l c = none → ∃ p ∈ l, ∃ r' ∈ recs ++ l.map (·.1), r' ≠ p.1 ∧ cell r' = some p.2) := by
  induction l generalizing recs c with
  | nil => simp [fnCol]; exact ⟨h, hm⟩
  | cons p l ih =>
    obtain ⟨r, v⟩ := p
    have hr : r ∉ recs := by
      intro hh
      rw [List.nodup_append] at hn
      exact hn.2.2 r hh r (by simp) rfl
    have hcell : cell r = some v := hc (r, v) (by simp)
    simp only [fnCol]
    cases ha : c.add v r with
    | mk c1 b =>
      cases b with
      | true =>
        have hok : (c.add v r).2 = true := by rw [ha]
        have h1 := h.add (ht (r, v) (by simp)) hr hok (cell' := cell) (fun _ _ => rfl) hcell
        have sh := Col.add_shape c v r
        rw [ha] at h1 sh
        have := ih (recs ++ [r]) c1 h1 (by rw [sh.2.1]; exact hm) (fun p hp => by rw [sh.1]; exact ht p (by simp [hp]))
          (by simpa using hn) (fun p hp => hc p (by simp [hp]))
        simp only [List.append_assoc, List.singleton_append] at this
        refine ⟨fun c' hc' => ?_, fun hnn => ?_⟩
        · obtain ⟨a, b, d⟩ := this.1 c' hc'
          refine ⟨by simpa using a, b, by rw [d]; exact sh.1⟩
        · obtain ⟨p, hp, r', hr', e⟩ := this.2 hnn
          exact ⟨p, by simp [hp], r', by simpa using hr', e⟩
      | false =>
        simp only [reduceCtorEq, false_implies, implies_true, true_and]
        intro _
        have := (h.add_false v r).mp (by rw [ha])
        obtain ⟨_, r', h1, h2⟩ := this
        refine ⟨(r, v), by simp, r', by simp [h1], ?_, h2⟩
        rintro rfl; exact hr h1

end build

end MVault.W
