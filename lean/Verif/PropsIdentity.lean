import Verif.PropsCareful
/-
C111: addresses may be used again, and yet no record, vault or set is taken for another one.
-/
set_option linter.unusedSectionVars false
set_option linter.unusedSimpArgs false
set_option linter.unusedVariables false
namespace MVault.Ad
open MVault.W
variable {K V Ty : Type} [LinearOrder K] [LinearOrder V] [Typed V Ty] [DecidableEq Ty]

/-! ### Specification

The model gives every record and every object a number of its own, for ever. The program knows a record, a vault and a set by its
address, and memory that was freed is given out again. `addr` says where each of them is put; all that is asked is that two of
them that exist at the same time are at different places. -/

/-- Memory was given out correctly: records that exist now are at different addresses (`new VaultRecord`, Vault.cpp line 452; freed in VaultRecord.cpp lines
76-99). Nothing is said about records that were freed: theirs may have been used again. -/
def Fits (addr : Nat → Nat) (w : World K V Ty) : Prop := ∀ p q, allocated w p → allocated w q → addr p = addr q → p = q

/-- The object (vault or set) exists. Specification, models no code. -/
def existsObj (w : World K V Ty) (s : Nat) : Prop := isVault w s = true ∨ isSetObj w s = true

/-- The same for vaults and sets. Specification, models no code. -/
def FitsO (addr : Nat → Nat) (w : World K V Ty) : Prop := ∀ p q, existsObj w p → existsObj w q → addr p = addr q → p = q

/-- A pointer to the record is kept somewhere: in a reference (VaultRecordRef.h: `DataRecord`), in the set of records of a vault or a set (Vault.h line 110), or in the
indexes of a key (Vault.h lines 67-113). -/
def Kept (w : World K V Ty) (r : Nat) : Prop :=
  (∃ f, target w f = some r) ∨
  ∃ o vo, w.getObj o = some vo ∧ (r ∈ vo.recs ∨ ∃ k c v, mget vo.cols k = some c ∧ ((v, r) ∈ c.hash ∨ (v, r) ∈ c.ord))

/-- A pointer to the vault or set is kept somewhere: in the list of sets of a vault (Vault.h line 113), as the parent of a set (VaultRecordSet.h: `ParentVault`), or in
the list of sets of a valid record (VaultRecord.h line 30). -/
def KeptO (w : World K V Ty) (s : Nat) : Prop :=
  (∃ o vo, w.getObj o = some vo ∧ (s ∈ vo.sets ∨ vo.parent = some s)) ∨ ∃ r x, w.getRec r = some x ∧ x.valid = true ∧ s ∈ x.deps

/-- `operator==` of references as the program computes it, on addresses. VaultRecordRef.cpp lines 99-116. -/
def eqA (addr : Nat → Nat) (w : World K V Ty) (f g : Nat) : Option Bool := do
  let a ← w.refs[f]?
  let b ← w.refs[g]?
  let va ← refIsValid w f
  if va then some (decide (a.ptr.map addr = b.ptr.map addr)) else (refIsValid w g).map (!·)

/-- `operator!=` of references, on addresses. VaultRecordRef.cpp lines 118-135. -/
def neA (addr : Nat → Nat) (w : World K V Ty) (f g : Nat) : Option Bool := do
  let a ← w.refs[f]?
  let b ← w.refs[g]?
  let va ← refIsValid w f
  if va then some (decide (a.ptr.map addr ≠ b.ptr.map addr)) else refIsValid w g

/-- `GetRecordUniqueId`: the address of the record, or "null". VaultRecordRef.cpp lines 137-149. -/
def idA (addr : Nat → Nat) (w : World K V Ty) (f : Nat) : Option (Option Nat) := do
  let a ← w.refs[f]?
  let va ← refIsValid w f
  some (if va then a.ptr.map addr else none)

/-! ### Theorems -/

theorem kept_allocated {home : Nat → Nat} {w : World K V Ty} (hw : HReach Careful home w) {r : Nat} (h : Kept w r) : allocated w r := by
  obtain ⟨own, hi, hd⟩ := reach_deep hw
  rcases h with ⟨f, hf⟩ | ⟨o, vo, ho, h⟩
  · simp only [target, Option.bind_eq_some_iff] at hf
    obtain ⟨ref, h1, h2⟩ := hf
    exact hi.r.live ref (List.mem_of_getElem? h1) r h2
  · have hr : r ∈ vo.recs := by
      rcases h with h | ⟨k, c, v, hc, h⟩
      · exact h
      · cases hs : vo.isSet with
        | true =>
          have := (hd.set o vo ho hs).cols k c hc
          rcases h with h | h
          · exact (this.hashS v r h).1
          · exact (this.ordS v r h).1
        | false =>
          have := (hi.v.vok o vo ho hs).cols k c hc
          rcases h with h | h
          · exact (this.hashS v r h).1
          · exact (this.ordS v r h).1
    cases hs : vo.isSet with
    | true =>
      obtain ⟨x, hx, _⟩ := (hd.set o vo ho hs).held r hr
      exact ⟨x, hx⟩
    | false =>
      obtain ⟨_, x, hx, _⟩ := hi.v.mem o vo ho hs r hr
      exact ⟨x, hx⟩

theorem keptO_exists {home : Nat → Nat} {w : World K V Ty} (hw : HReach Careful home w) {s : Nat} (h : KeptO w s) : existsObj w s := by
  obtain ⟨own, hi, hd⟩ := reach_deep hw
  rcases h with ⟨o, vo, ho, h⟩ | ⟨r, x, hx, hv, h⟩
  · cases hs : vo.isSet with
    | true =>
      rcases h with h | h
      · rw [(hi.s.sets o vo ho hs).sets] at h; simp at h
      · obtain ⟨po, h1, h2, _⟩ := hi.l.up o vo s ho hs h
        exact .inl (isVault_iff.mpr ⟨po, h1, h2⟩)
    | false =>
      rcases h with h | h
      · obtain ⟨so, h1, h2, _⟩ := hi.l.down o vo s ho hs h
        exact .inr (isSetObj_iff.mpr ⟨so, h1, h2⟩)
      · rw [(hi.v.vok o vo ho hs).par] at h; cases h
  · obtain ⟨so, h1, h2, _⟩ := hd.told r x s hx hv h
    exact .inr (isSetObj_iff.mpr ⟨so, h1, h2⟩)

/-- In a careful history every kept pointer points to something that still exists, so that comparing addresses is comparing records (and vaults and sets): wherever two
pointers are kept, in references, vaults, sets, indexes of keys or lists of sets, they are equal if and only if they are about the same record (vault, set). This
is so although the memory of freed records, vaults and sets is used again. -/
theorem C111_addresses_tell_apart {home : Nat → Nat} {w : World K V Ty} (hw : HReach Careful home w) :
    (∀ addr, Fits addr w → ∀ p q, Kept w p → Kept w q → (addr p = addr q ↔ p = q)) ∧
    (∀ addr, FitsO addr w → ∀ s t, KeptO w s → KeptO w t → (addr s = addr t ↔ s = t)) :=
  ⟨fun addr h p q hp hq => ⟨h p q (kept_allocated hw hp) (kept_allocated hw hq), fun e => e ▸ rfl⟩,
   fun addr h p q hp hq => ⟨h p q (keptO_exists hw hp) (keptO_exists hw hq), fun e => e ▸ rfl⟩⟩

/-- No mistaken identity when something is made: a record (a vault, a set) that did not exist before a careful call and exists after it has an address that no kept
pointer has, apart from the pointers to itself. So no set is told to hold a new record it does not hold, and no reference to an old record becomes one to the
new record. -/
theorem C111_new_is_new {home : Nat → Nat} {env : Env} {w w' : World K V Ty} (hw : HReach Careful home w) {op : Op K V Ty} (hg : Careful home w op)
    (h : step env w op = some w') :
    (∀ addr, Fits addr w' → ∀ r q, ¬ allocated w r → allocated w' r → Kept w q → Kept w' q → addr q ≠ addr r) ∧
    (∀ addr, FitsO addr w' → ∀ s t, ¬ existsObj w s → existsObj w' s → KeptO w t → KeptO w' t → addr t ≠ addr s) := by
  have hw' : HReach Careful home w' := .step w w' env op hw hg h
  refine ⟨fun addr hf r q hn hr hq hq' e => ?_, fun addr hf s t hn hs ht ht' e => ?_⟩
  · have := hf q r (kept_allocated hw' hq') hr e
    exact hn (this ▸ kept_allocated hw hq)
  · have := hf t s (keptO_exists hw' ht') hs e
    exact hn (this ▸ keptO_exists hw ht)

/-- What a user sees of addresses. `==` and `!=` of references computed on addresses are those of the records; the ids of two valid references are equal exactly if they
are references to the same record, and an invalid reference has the id "null". -/
theorem C111_references {home : Nat → Nat} {w : World K V Ty} (hw : HReach Careful home w) {addr : Nat → Nat} (ha : Fits addr w) (f g : Nat) :
    eqA addr w f g = refEq w f g ∧ neA addr w f g = refNe w f g ∧ idA addr w f = (refId w f).map (·.map addr) ∧
    (refIsValid w f = some true → refIsValid w g = some true → (idA addr w f = idA addr w g ↔ target w f = target w g)) ∧
    (refIsValid w f = some false → idA addr w f = some none) := by
  have key : ∀ a b, w.refs[f]? = some a → w.refs[g]? = some b → (a.ptr.map addr = b.ptr.map addr ↔ a.ptr = b.ptr) := by
    intro a b h1 h2
    cases ea : a.ptr with
    | none => cases eb : b.ptr <;> simp
    | some p =>
      cases eb : b.ptr with
      | none => simp
      | some q =>
        simp only [Option.map_some, Option.some.injEq]
        exact (C111_addresses_tell_apart hw).1 addr ha p q (.inl ⟨f, by simp [target, h1, ea]⟩) (.inl ⟨g, by simp [target, h2, eb]⟩)
  refine ⟨?_, ?_, ?_, fun h1 h2 => ?_, fun h => ?_⟩
  · simp only [eqA, refEq, Option.bind_eq_bind]
    cases h1 : w.refs[f]? with
    | none => rfl
    | some a =>
      cases h2 : w.refs[g]? with
      | none => rfl
      | some b => simp only [Option.bind_some, key a b h1 h2]
  · simp only [neA, refNe, Option.bind_eq_bind]
    cases h1 : w.refs[f]? with
    | none => rfl
    | some a =>
      cases h2 : w.refs[g]? with
      | none => rfl
      | some b => simp only [Option.bind_some, ne_eq, key a b h1 h2]
  · simp only [idA, refId, Option.bind_eq_bind]
    cases h1 : w.refs[f]? with
    | none => rfl
    | some a =>
      simp only [Option.bind_some]
      cases refIsValid w f with
      | none => rfl
      | some b => cases b <;> rfl
  · cases e1 : w.refs[f]? with
    | none => simp [refIsValid, e1] at h1
    | some a =>
      cases e2 : w.refs[g]? with
      | none => simp [refIsValid, e2] at h2
      | some b => simp only [idA, target, e1, e2, h1, h2, Option.bind_eq_bind, Option.bind_some, if_true, Option.some.injEq, key a b e1 e2]
  · cases e1 : w.refs[f]? with
    | none => simp [refIsValid, e1] at h
    | some a => simp [idA, e1, h]

/-- As long as any reference to a record is kept, even to a record that was erased, no other record gets its address: the id a user has written down
while the record was valid belongs to no other record. -/
theorem C111_id_held {home : Nat → Nat} {w : World K V Ty} (hw : HReach Careful home w) {addr : Nat → Nat} (ha : Fits addr w) {f g r q : Nat}
    (hf : target w f = some r) (hg : target w g = some q) (hv : refIsValid w g = some true) (h : idA addr w g = some (some (addr r))) : q = r := by
  simp only [target, Option.bind_eq_some_iff] at hg
  obtain ⟨b, h1, h2⟩ := hg
  simp only [idA, h1, hv, h2, Option.bind_eq_bind, Option.bind_some, if_true, Option.map_some, Option.some.injEq] at h
  exact ((C111_addresses_tell_apart hw).1 addr ha q r (.inl ⟨g, by simp [target, h1, h2]⟩) (.inl ⟨f, hf⟩)).mp h

/-! ### Ids of vaults -/

/-- `GetParentVaultUniqueId` of a set: the address of its vault, or "null". `none` (of the outer option) is a set that does not exist. VaultRecordSet.cpp lines 138-149. -/
def parentIdA (addr : Nat → Nat) (w : World K V Ty) (s : Nat) : Option (Option Nat) := (w.getObj s).map fun so => so.parent.map addr

/-- The id that a set gives for its vault is about the vault: two sets give the same id if and only if they belong to the same vault or both to none; it is "null" exactly
for a set without vault; and it is the address of a vault that exists exactly for the sets of that vault. So the test `a.GetParentVaultUniqueId() != b.GetParentVaultUniqueId()` of `Union`
(VaultRecordSet.cpp line 602) is the test for different vaults that `Intersection` makes on the pointers (line 640). -/
theorem C111_parent_id {home : Nat → Nat} {w : World K V Ty} (hw : HReach Careful home w) {addr : Nat → Nat} (ha : FitsO addr w) {s t : Nat}
    (hs : isSetObj w s = true) (ht : isSetObj w t = true) :
    (parentIdA addr w s = parentIdA addr w t ↔ parentOf w s = parentOf w t) ∧ (parentIdA addr w s = some none ↔ parentOf w s = none) ∧
    ∀ o, isVault w o = true → (parentIdA addr w s = some (some (addr o)) ↔ parentOf w s = some o) := by
  obtain ⟨x, hx, hxs⟩ := isSetObj_iff.1 hs
  obtain ⟨y, hy, hys⟩ := isSetObj_iff.1 ht
  have kx : ∀ p, x.parent = some p → KeptO w p := fun p e => .inl ⟨s, x, hx, .inr e⟩
  have ky : ∀ p, y.parent = some p → KeptO w p := fun p e => .inl ⟨t, y, hy, .inr e⟩
  simp only [parentIdA, parentOf, hx, hy, Option.map_some, Option.some.injEq]
  refine ⟨?_, by cases x.parent <;> simp, fun o ho => ?_⟩
  · cases ex : x.parent with
    | none => cases ey : y.parent <;> simp
    | some p =>
      cases ey : y.parent with
      | none => simp
      | some q => simpa using (C111_addresses_tell_apart hw).2 addr ha p q (kx p ex) (ky q ey)
  · cases ex : x.parent with
    | none => simp
    | some p =>
      simp only [Option.map_some, Option.some.injEq]
      exact ⟨fun e => ha p o (keptO_exists hw (kx p ex)) (.inl ho) e, fun e => e ▸ rfl⟩

/-! ### Where it fails -/

theorem fits_of {w : DW} {addr : Nat → Nat} (l : List Nat) (h : w.recs.map (·.1) = l) (hl : ∀ p ∈ l, ∀ q ∈ l, addr p = addr q → p = q) : Fits addr w := by
  have mem : ∀ p x, w.getRec p = some x → p ∈ l := fun p x hx => h ▸ List.mem_map.mpr ⟨(p, x), mget_mem _ _ _ hx, rfl⟩
  exact fun p q ⟨x, hx⟩ ⟨y, hy⟩ e => hl p (mem p x hx) q (mem q y hy) e

/-- A careful history with one record, referred to by reference 0. -/
def firstOps : List DO := [.newVault, .addKey 0 1 5, .newRef, .createRecord 0 0 []]
/-- It is erased and freed, and another one is made. -/
def secondOps : List DO := firstOps ++ [.refReset 0, .eraseKV 0 1 5, .createRecord 0 0 []]
def firstW : DW := (carefulRun firstOps).getD World.empty
def secondW : DW := (carefulRun secondOps).getD World.empty
theorem firstW_reach : HReach Careful (fun _ => 0) firstW := carefulRun_reach (l := firstOps) rfl
theorem secondW_reach : HReach Careful (fun _ => 0) secondW := carefulRun_reach (l := secondOps) rfl

/-- An id outlives its record: when no reference is kept, the id written down for a record that was erased may be the id of a later one. The record is
erased and freed, and the next record is put at the same address. -/
theorem C111_refuted_id_reused : ∃ (addr : Nat → Nat) (w w' : DW), HReach Careful (fun _ => 0) w ∧ HReach Careful (fun _ => 0) w' ∧ Fits addr w ∧ Fits addr w' ∧
    target w 0 = some 0 ∧ target w' 0 = some 1 ∧ idA addr w 0 = some (some 7) ∧ idA addr w' 0 = some (some 7) ∧ members w' 0 = [1] :=
  ⟨fun _ => 7, firstW, secondW, firstW_reach, secondW_reach, fits_of [0] (by decide) (by decide), fits_of [1] (by decide) (by decide),
    by decide, by decide, by decide, by decide, by decide⟩

/-- A set keeps a pointer to a record that was freed, and another record is made. -/
def staleOps : List DO := joinOps ++ [.refReset 0, .eraseKV 0 1 5, .createRow 0 []]
def staleW : DW := (demo staleOps).getD World.empty
theorem staleW_reach : HReach Ordinary (fun _ => 0) staleW := demo_reach (l := staleOps) rfl

/-- Outside careful histories identity is lost: set 2 got record 0 by `Join`, which does not tell the record (VaultRecordSet.cpp lines 420-429); the record is erased and
freed, and a new record (1) is put at its address. Set 2 keeps a pointer to the freed record, which now is the address of a record it was never given. -/
theorem C111_refuted_stale : ∃ (addr : Nat → Nat) (w : DW), HReach Ordinary (fun _ => 0) w ∧ Fits addr w ∧ Kept w 0 ∧ Kept w 1 ∧ addr 0 = addr 1 ∧
    members w 2 = [0] ∧ members w 0 = [1] ∧ ¬ allocated w 0 := by
  have k : ∀ (w : DW) o r, r ∈ members w o → Kept w r := by
    intro w o r h
    cases ho : w.getObj o with
    | none => simp [members, ho] at h
    | some vo => exact .inr ⟨o, vo, ho, .inl (by simpa [members, ho] using h)⟩
  refine ⟨fun _ => 7, staleW, staleW_reach, fits_of [1] (by decide) (by decide), k _ 2 0 (by decide), k _ 0 1 (by decide), rfl, by decide, by decide, ?_⟩
  rintro ⟨x, hx⟩
  have : staleW.getRec 0 = none := by decide
  rw [hx] at this; cases this

/-! ### Non-vacuity -/

/-- A careful history in which memory is used again: record 0 is freed, records 1 and 2 are made, and set 1 holds them. -/
def againOps : List DO := [.newVault, .addKey 0 1 5, .newRef, .newRef, .createRow 0 [], .eraseKV 0 1 5, .createRecord 0 0 [], .createRecord 0 1 [(1, 6)], .newSet,
    .ask 0 1 (.gt 0) none (fun _ => true) 1]
def againW : DW := (carefulRun againOps).getD World.empty
theorem againW_reach : HReach Careful (fun _ => 0) againW := carefulRun_reach (l := againOps) rfl

/-- Record 1 is at the place of record 0, record 2 beside it; the hypotheses of the theorems hold. -/
example : Fits (fun r => if r = 2 then 1 else 0) againW ∧ members againW 1 = [1, 2] ∧ parentOf againW 1 = some 0 ∧
    refIsValid againW 0 = some true ∧ refIsValid againW 1 = some true ∧ target againW 0 = some 1 ∧ target againW 1 = some 2 ∧
    idA (fun r => if r = 2 then 1 else 0) againW 1 = some (some 1) :=
  ⟨fits_of [1, 2] (by decide) (by decide), by decide, by decide, by decide, by decide, by decide, by decide, by decide⟩

example : Kept againW 1 ∧ Kept againW 2 ∧ ¬ Kept againW 0 := by
  refine ⟨.inl ⟨0, by decide⟩, .inl ⟨1, by decide⟩, fun h => ?_⟩
  obtain ⟨x, hx⟩ := kept_allocated againW_reach h
  have : againW.getRec 0 = none := by decide
  rw [hx] at this; cases this

/-- A case for `C111_parent_id`: an attached set and (here added) one without vault; vault 0 is at 7, the sets at 8 and 9. -/
example : isSetObj againW 1 = true ∧ parentIdA (fun o => o + 7) againW 1 = some (some 7) ∧ isVault againW 0 = true ∧ FitsO (fun o => o + 7) againW :=
  ⟨by decide, by decide, by decide, fun p q _ _ h => by simpa using h⟩

end MVault.Ad
