import Verif.MultiModel
import Mathlib.Data.Multiset.Basic
import Mathlib.Data.Multiset.MapFold
import Mathlib.Data.Multiset.Filter
import Mathlib.Data.List.Perm.Basic
/-! # C91: containers with several values per key -/
set_option linter.unusedSectionVars false
set_option linter.unusedSimpArgs false
set_option linter.unusedVariables false
namespace MVault.Cont
section
variable {K V Ty : Type} [DecidableEq Ty] [LinearOrder K]

/-! ## Specification -/

/-- One entry as a user thinks of it: the key, the value (`none`: an entry written from an empty DataSaver), the custom delete function. -/
structure Item (K V : Type) where
  key : K
  value : Option V
  custom : Option Nat

/-- What a call does to the collection of all entries. -/
inductive BagSpec (τ : V → Ty) (fromStr : Ty → List Char → Option V) : Multiset (Item K V) → MOp K V Ty → Multiset (Item K V) → MRes V → Prop
  | add (m k v c) : BagSpec τ fromStr m (.add k v c) (⟨k, some v, c⟩ ::ₘ m) {}
  | addSaver (m k d v) : d.ptr = some v → BagSpec τ fromStr m (.addSaver k d) (⟨k, some v, d.custom⟩ ::ₘ m) {}
  | addEmpty (m k d) : d.ptr = none → BagSpec τ fromStr m (.addSaver k d) (⟨k, none, none⟩ ::ₘ m) {}
  | setNew (m k v c) : (∀ x ∈ m, x.key ≠ k) → BagSpec τ fromStr m (.set k v c) (⟨k, some v, c⟩ ::ₘ m) {}
  | setOne (m k v c old oldc) : BagSpec τ fromStr (⟨k, old, oldc⟩ ::ₘ m) (.set k v c) (⟨k, some v, c⟩ ::ₘ m) {}
  | saverNew (m k d v) : (∀ x ∈ m, x.key ≠ k) → d.ptr = some v → BagSpec τ fromStr m (.setSaver k d) (⟨k, some v, d.custom⟩ ::ₘ m) {}
  | saverNewEmpty (m k d) : (∀ x ∈ m, x.key ≠ k) → d.ptr = none → BagSpec τ fromStr m (.setSaver k d) (⟨k, none, none⟩ ::ₘ m) {}
  | saverOne (m k d v old oldc) : d.ptr = some v → BagSpec τ fromStr (⟨k, old, oldc⟩ ::ₘ m) (.setSaver k d) (⟨k, some v, d.custom⟩ ::ₘ m) {}
  | saverOneEmpty (m k d old oldc) : d.ptr = none → BagSpec τ fromStr (⟨k, old, oldc⟩ ::ₘ m) (.setSaver k d) (⟨k, none, oldc⟩ ::ₘ m) {}
  | strNone (m k str) : (∀ x ∈ m, x.key ≠ k) → BagSpec τ fromStr m (.setStr k str) m { answer := some false }
  | strOne (m k str old c v) : fromStr (τ old) str = some v →
      BagSpec τ fromStr (⟨k, some old, c⟩ ::ₘ m) (.setStr k str) (⟨k, some v, c⟩ ::ₘ m) { answer := some true }
  | strBad (m k str old c) : fromStr (τ old) str = none →
      BagSpec τ fromStr (⟨k, some old, c⟩ ::ₘ m) (.setStr k str) (⟨k, some old, c⟩ ::ₘ m) { answer := some false }
  | eraseNone (m k) : (∀ x ∈ m, x.key ≠ k) → BagSpec τ fromStr m (.erase k) m {}
  | eraseOne (m k v) : BagSpec τ fromStr (⟨k, v, none⟩ ::ₘ m) (.erase k) m {}
  | eraseCustom (m k v f) : BagSpec τ fromStr (⟨k, v, some f⟩ ::ₘ m) (.erase k) m { deleted := [(f, v)] }
  | clear (m) : BagSpec τ fromStr m .clear 0 {}

/-- The sequence of values of key `k` becomes `l`, those of other keys stay. -/
def withSeq (f : K → List (Item K V)) (k : K) (l : List (Item K V)) : K → List (Item K V) := fun j => if j = k then l else f j

/-- What a call does to the sequences of entries of the keys in an ordered container: new entries come last, changed ones keep their place. -/
inductive SeqSpec (τ : V → Ty) (fromStr : Ty → List Char → Option V) : (K → List (Item K V)) → MOp K V Ty → (K → List (Item K V)) → MRes V → Prop
  | add (f k v c) : SeqSpec τ fromStr f (.add k v c) (withSeq f k (f k ++ [⟨k, some v, c⟩])) {}
  | addSaver (f k d v) : d.ptr = some v → SeqSpec τ fromStr f (.addSaver k d) (withSeq f k (f k ++ [⟨k, some v, d.custom⟩])) {}
  | addEmpty (f k d) : d.ptr = none → SeqSpec τ fromStr f (.addSaver k d) (withSeq f k (f k ++ [⟨k, none, none⟩])) {}
  | setNew (f k v c) : f k = [] → SeqSpec τ fromStr f (.set k v c) (withSeq f k [⟨k, some v, c⟩]) {}
  | setOne (f k v c l old oldc r) : f k = l ++ ⟨k, old, oldc⟩ :: r → SeqSpec τ fromStr f (.set k v c) (withSeq f k (l ++ ⟨k, some v, c⟩ :: r)) {}
  | saverNew (f k d v) : f k = [] → d.ptr = some v → SeqSpec τ fromStr f (.setSaver k d) (withSeq f k [⟨k, some v, d.custom⟩]) {}
  | saverNewEmpty (f k d) : f k = [] → d.ptr = none → SeqSpec τ fromStr f (.setSaver k d) (withSeq f k [⟨k, none, none⟩]) {}
  | saverOne (f k d v l old oldc r) : f k = l ++ ⟨k, old, oldc⟩ :: r → d.ptr = some v →
      SeqSpec τ fromStr f (.setSaver k d) (withSeq f k (l ++ ⟨k, some v, d.custom⟩ :: r)) {}
  | saverOneEmpty (f k d l old oldc r) : f k = l ++ ⟨k, old, oldc⟩ :: r → d.ptr = none →
      SeqSpec τ fromStr f (.setSaver k d) (withSeq f k (l ++ ⟨k, none, oldc⟩ :: r)) {}
  | strNone (f k str) : f k = [] → SeqSpec τ fromStr f (.setStr k str) f { answer := some false }
  | strOne (f k str l old c r v) : f k = l ++ ⟨k, some old, c⟩ :: r → fromStr (τ old) str = some v →
      SeqSpec τ fromStr f (.setStr k str) (withSeq f k (l ++ ⟨k, some v, c⟩ :: r)) { answer := some true }
  | strBad (f k str l old c r) : f k = l ++ ⟨k, some old, c⟩ :: r → fromStr (τ old) str = none → SeqSpec τ fromStr f (.setStr k str) f { answer := some false }
  | eraseNone (f k) : f k = [] → SeqSpec τ fromStr f (.erase k) f {}
  | eraseOne (f k l v r) : f k = l ++ ⟨k, v, none⟩ :: r → SeqSpec τ fromStr f (.erase k) (withSeq f k (l ++ r)) {}
  | eraseCustom (f k l v g r) : f k = l ++ ⟨k, v, some g⟩ :: r → SeqSpec τ fromStr f (.erase k) (withSeq f k (l ++ r)) { deleted := [(g, v)] }
  | clear (f) : SeqSpec τ fromStr f .clear (fun _ => []) {}

/-- A DataSaver that was filled by its own functions: type and function pointers are those of the value (C69). -/
def Saver.Typed (τ : V → Ty) (s : Saver V Ty) : Prop := ∀ v, s.ptr = some v → s.dataType = some (τ v) ∧ s.funs = some (τ v)

/-- The DataSaver handed to a call, if any, is such a DataSaver. -/
def MOp.Typed (τ : V → Ty) : MOp K V Ty → Prop
  | .addSaver _ d => d.Typed τ
  | .setSaver _ d => d.Typed τ
  | _ => True

/-- The user's view of an entry. -/
def item (p : K × Saver V Ty) : Item K V := ⟨p.1, p.2.ptr, p.2.custom⟩

/-- All entries, as an iteration over the container shows them, without their order. -/
def Multi.items (b : Multi K V Ty) : Multiset (Item K V) := (b.map item : List (Item K V))

/-- What an iteration shows for key `k`, in order. -/
def Multi.seqOf (b : Multi K V Ty) (k : K) : List (Item K V) := (b.map item).filter (fun x => decide (x.key = k))

/-! ## Lemmas -/

theorem emplace_perm {kind : Kind} {b b' : Multi K V Ty} {e : K × Saver V Ty} (h : kind.emplace b e b') : b'.Perm (e :: b) := by
  cases kind with
  | hash => exact h.1
  | tree =>
    simp only [Kind.emplace] at h
    subst h
    refine List.perm_middle.trans (List.Perm.cons _ ?_)
    rw [List.takeWhile_append_dropWhile]

theorem items_emplace {kind : Kind} {b b' : Multi K V Ty} {e : K × Saver V Ty} (h : kind.emplace b e b') : b'.items = item e ::ₘ b.items := by
  simp only [Multi.items]
  rw [Multiset.cons_coe, Multiset.coe_eq_coe, ← List.map_cons]
  exact (emplace_perm h).map _

theorem items_mid (l : Multi K V Ty) (e : K × Saver V Ty) (r : Multi K V Ty) : Multi.items (l ++ e :: r) = item e ::ₘ Multi.items (l ++ r) := by
  simp only [Multi.items]
  rw [Multiset.cons_coe, Multiset.coe_eq_coe, ← List.map_cons]
  exact List.perm_middle.map _

theorem misses_items {b : Multi K V Ty} {k : K} : b.Misses k ↔ ∀ x ∈ b.items, x.key ≠ k := by
  constructor
  · intro h x hx
    simp only [Multi.items, Multiset.mem_coe, List.mem_map] at hx
    obtain ⟨p, hp, rfl⟩ := hx
    exact h p hp
  · intro h p hp
    exact h (item p) (by simp only [Multi.items, Multiset.mem_coe, List.mem_map]; exact ⟨p, hp, rfl⟩)

theorem Saver.typed_setData (τ : V → Ty) (s : Saver V Ty) (v : V) (c : Option Nat) : (s.setData τ v c).Typed τ := by
  intro w hw
  simp only [Saver.setData, Option.some.injEq] at hw
  subst hw; exact ⟨rfl, rfl⟩

theorem Saver.typed_assign {τ : V → Ty} {s d : Saver V Ty} (hd : d.Typed τ) : (s.assign d).Typed τ := by
  intro v hv
  unfold Saver.assign at hv ⊢
  cases hp : d.ptr with
  | none => simp [hp] at hv
  | some w =>
    simp only [hp, Option.some.injEq] at hv ⊢
    subst hv
    exact hd _ hp

theorem Saver.setStr_cases {τ : V → Ty} {fromStr : Ty → List Char → Option V} {s s' : Saver V Ty} {str a} (hs : s.Typed τ)
    (h : s.setDataFromString fromStr str = some (a, s')) :
    ∃ old, s.ptr = some old ∧ s'.custom = s.custom ∧ s'.dataType = s.dataType ∧ s'.funs = s.funs ∧
      ((a = true ∧ ∃ v, fromStr (τ old) str = some v ∧ s'.ptr = some v) ∨ (a = false ∧ fromStr (τ old) str = none ∧ s' = s)) := by
  unfold Saver.setDataFromString at h
  cases hp : s.ptr with
  | none => simp [hp] at h
  | some old =>
    obtain ⟨h1, h2⟩ := hs old hp
    simp only [h2, hp] at h
    refine ⟨old, rfl, ?_⟩
    cases hf : fromStr (τ old) str with
    | none =>
      simp only [hf, Option.some.injEq, Prod.mk.injEq] at h
      obtain ⟨rfl, rfl⟩ := h
      exact ⟨rfl, rfl, rfl, .inr ⟨rfl, rfl, rfl⟩⟩
    | some v =>
      simp only [hf, Option.some.injEq, Prod.mk.injEq] at h
      obtain ⟨rfl, rfl⟩ := h
      exact ⟨rfl, rfl, h2.symm, .inl ⟨rfl, v, rfl, rfl⟩⟩

/-- Every entry's DataSaver is typed. -/
def Multi.Typed (τ : V → Ty) (b : Multi K V Ty) : Prop := ∀ p ∈ b, p.2.Typed τ

/-- FromString makes values of the type it is asked for. -/
def TypedParse (τ : V → Ty) (fromStr : Ty → List Char → Option V) : Prop := ∀ T str v, fromStr T str = some v → τ v = T

theorem typed_emplace {kind : Kind} {τ : V → Ty} {b b' : Multi K V Ty} {e : K × Saver V Ty} (h : kind.emplace b e b') (hb : b.Typed τ) (he : e.2.Typed τ) :
    b'.Typed τ := by
  intro p hp
  have := (emplace_perm h).mem_iff.1 hp
  rcases List.mem_cons.1 this with rfl | h1
  · exact he
  · exact hb p h1

theorem typed_mid {τ : V → Ty} {l r : Multi K V Ty} {e e' : K × Saver V Ty} (hb : Multi.Typed τ (l ++ e :: r)) (he : e'.2.Typed τ) :
    Multi.Typed τ (l ++ e' :: r) := by
  intro p hp
  simp only [List.mem_append, List.mem_cons] at hp
  rcases hp with h | rfl | h
  · exact hb p (by simp [h])
  · exact he
  · exact hb p (by simp [h])

theorem MStep.typed {kind : Kind} {τ : V → Ty} {fromStr : Ty → List Char → Option V} (ht : TypedParse τ fromStr) {b b' : Multi K V Ty} {op : MOp K V Ty} {r : MRes V}
    (h : MStep kind τ fromStr b op b' r) (hop : op.Typed τ) (hb : b.Typed τ) : b'.Typed τ := by
  cases h with
  | add _ k v c h => exact typed_emplace h hb (Saver.typed_setData τ Saver.empty v c)
  | addSaver _ k d h => exact typed_emplace h hb (Saver.typed_assign hop)
  | setNew _ k v c _ h => exact typed_emplace h hb (Saver.typed_setData τ Saver.empty v c)
  | setOld l s r k v c h => subst h; exact typed_mid hb (Saver.typed_setData τ s v c)
  | setSaverNew _ k d _ h => exact typed_emplace h hb (Saver.typed_assign hop)
  | setSaverOld l s r k d h => subst h; exact typed_mid hb (Saver.typed_assign hop)
  | setStrNone => exact hb
  | setStr l s r k str a s' h hs =>
    subst h
    refine typed_mid hb ?_
    have hts := hb (k, s) (by simp)
    obtain ⟨old, h1, h2, h3, h4, h5⟩ := Saver.setStr_cases hts hs
    rcases h5 with ⟨_, v, hv, hp⟩ | ⟨_, _, rfl⟩
    · intro w hw
      rw [show (k, s').2.ptr = some v from hp] at hw
      cases hw
      have := ht _ _ _ hv
      have h6 := hts old h1
      simp only [h3, h4, this]
      exact h6
    · exact hts
  | eraseNone => exact hb
  | erase l s r k h => subst h; intro p hp; exact hb p (by simp only [List.mem_append, List.mem_cons] at hp ⊢; grind)
  | clear => intro p hp; simp at hp

theorem MStep.bag {kind : Kind} {τ : V → Ty} {fromStr : Ty → List Char → Option V} {b b' : Multi K V Ty} {op : MOp K V Ty} {r : MRes V}
    (h : MStep kind τ fromStr b op b' r) (hb : b.Typed τ) : BagSpec τ fromStr b.items op b'.items r := by
  cases h with
  | add _ k v c h => rw [items_emplace h]; exact .add ..
  | addSaver _ k d h =>
    rw [items_emplace h]
    cases hd : d.ptr with
    | none => simpa [item, Saver.copy, Saver.assign, hd, Saver.empty] using BagSpec.addEmpty (τ := τ) (fromStr := fromStr) b.items k d hd
    | some v => simpa [item, Saver.copy, Saver.assign, hd, Saver.empty] using BagSpec.addSaver (τ := τ) (fromStr := fromStr) b.items k d v hd
  | setNew _ k v c hm h => rw [items_emplace h]; exact .setNew _ _ _ _ (misses_items.1 hm)
  | setOld l s r k v c h => subst h; rw [items_mid, items_mid]; exact .setOne ..
  | setSaverNew _ k d hm h =>
    rw [items_emplace h]
    cases hd : d.ptr with
    | none => simpa [item, Saver.copy, Saver.assign, hd, Saver.empty] using BagSpec.saverNewEmpty (τ := τ) (fromStr := fromStr) b.items k d (misses_items.1 hm) hd
    | some v => simpa [item, Saver.copy, Saver.assign, hd, Saver.empty] using BagSpec.saverNew (τ := τ) (fromStr := fromStr) b.items k d v (misses_items.1 hm) hd
  | setSaverOld l s r k d h =>
    subst h; rw [items_mid, items_mid]
    cases hd : d.ptr with
    | none => simpa [item, Saver.assign, hd] using BagSpec.saverOneEmpty (τ := τ) (fromStr := fromStr) (Multi.items (l ++ r)) k d s.ptr s.custom hd
    | some v => simpa [item, Saver.assign, hd] using BagSpec.saverOne (τ := τ) (fromStr := fromStr) (Multi.items (l ++ r)) k d v s.ptr s.custom hd
  | setStrNone k str hm => exact .strNone _ _ _ (misses_items.1 hm)
  | setStr l s r k str a s' h hs =>
    subst h; rw [items_mid, items_mid]
    obtain ⟨old, h1, h2, h3, h4, h5⟩ := Saver.setStr_cases (hb (k, s) (by simp)) hs
    dsimp only at h1 h2
    rcases h5 with ⟨rfl, v, hv, hp⟩ | ⟨rfl, hn, rfl⟩
    · simpa [item, h1, h2, hp] using BagSpec.strOne (τ := τ) (Multi.items (l ++ r)) k str old s.custom v hv
    · simpa [item, h1] using BagSpec.strBad (τ := τ) (Multi.items (l ++ r)) k str old s'.custom hn
  | eraseNone k hm => exact .eraseNone _ _ (misses_items.1 hm)
  | erase l s r k h =>
    subst h; rw [items_mid]
    cases hc : s.custom with
    | none => simpa [item, Saver.customCall, Saver.resetData, hc] using BagSpec.eraseOne (τ := τ) (fromStr := fromStr) (Multi.items (l ++ r)) k s.ptr
    | some f => simpa [item, Saver.customCall, Saver.resetData, hc] using BagSpec.eraseCustom (τ := τ) (fromStr := fromStr) (Multi.items (l ++ r)) k s.ptr f
  | clear => exact .clear _

/-- What holds of the order of entries: a tree is sorted by key, a hash table keeps equal keys together. -/
def Kind.Ordered : Kind → Multi K V Ty → Prop
  | .tree, b => b.Pairwise (fun p q => p.1 ≤ q.1)
  | .hash, b => b.Grouped

theorem ordered_of_keys {kind : Kind} {b b' : Multi K V Ty} (hk : (b'.map Prod.fst).Sublist (b.map Prod.fst)) (h : kind.Ordered b) : kind.Ordered b' := by
  cases kind with
  | tree =>
    simp only [Kind.Ordered] at h ⊢
    have h1 : (b.map Prod.fst).Pairwise (· ≤ ·) := List.pairwise_map.2 h
    exact List.pairwise_map.1 (h1.sublist hk)
  | hash => intro x z hs; exact h x z (hs.trans hk)

theorem mem_takeWhile_le {b : Multi K V Ty} {k : K} {p} (h : p ∈ b.takeWhile (fun p => decide (p.1 ≤ k))) : p.1 ≤ k := by
  induction b with
  | nil => simp at h
  | cons q b ih =>
    rw [List.takeWhile_cons] at h
    split at h
    · rename_i hq
      rcases List.mem_cons.1 h with rfl | h1
      · simpa using hq
      · exact ih h1
    · simp at h

theorem mem_dropWhile_lt {b : Multi K V Ty} {k : K} (hs : b.Pairwise (fun p q => p.1 ≤ q.1)) {p} (h : p ∈ b.dropWhile (fun p => decide (p.1 ≤ k))) : k < p.1 := by
  induction b with
  | nil => simp at h
  | cons q b ih =>
    rw [List.pairwise_cons] at hs
    rw [List.dropWhile_cons] at h
    split at h
    · exact ih hs.2 h
    · rename_i hq
      simp only [decide_eq_true_eq, not_le] at hq
      rcases List.mem_cons.1 h with rfl | h1
      · exact hq
      · exact lt_of_lt_of_le hq (hs.1 p h1)

theorem ordered_emplace {kind : Kind} {b b' : Multi K V Ty} {e : K × Saver V Ty} (h : kind.emplace b e b') (hb : kind.Ordered b) : kind.Ordered b' := by
  cases kind with
  | hash => exact h.2
  | tree =>
    simp only [Kind.emplace] at h
    subst h
    simp only [Kind.Ordered] at hb ⊢
    rw [List.pairwise_append, List.pairwise_cons]
    refine ⟨hb.sublist (List.takeWhile_sublist _), ⟨?_, hb.sublist (List.dropWhile_sublist _)⟩, ?_⟩
    · intro p hp; exact (mem_dropWhile_lt hb hp).le
    · intro p hp q hq
      have h1 := mem_takeWhile_le hp
      rcases List.mem_cons.1 hq with rfl | h2
      · exact h1
      · exact h1.trans (mem_dropWhile_lt hb h2).le

theorem MStep.ordered {kind : Kind} {τ : V → Ty} {fromStr : Ty → List Char → Option V} {b b' : Multi K V Ty} {op : MOp K V Ty} {r : MRes V}
    (h : MStep kind τ fromStr b op b' r) (hb : kind.Ordered b) : kind.Ordered b' := by
  cases h with
  | add _ k v c h => exact ordered_emplace h hb
  | addSaver _ k d h => exact ordered_emplace h hb
  | setNew _ k v c _ h => exact ordered_emplace h hb
  | setOld l s r k v c h => subst h; exact ordered_of_keys (by simp) hb
  | setSaverNew _ k d _ h => exact ordered_emplace h hb
  | setSaverOld l s r k d h => subst h; exact ordered_of_keys (by simp) hb
  | setStrNone => exact hb
  | setStr l s r k str a s' h hs => subst h; exact ordered_of_keys (by simp) hb
  | eraseNone => exact hb
  | erase l s r k h => subst h; exact ordered_of_keys (by simp) hb
  | clear => cases kind <;> simp [Kind.Ordered, Multi.Grouped]

/-- All DataSavers handed to the calls of a history are typed. -/
def HistTyped (τ : V → Ty) (h : List (MOp K V Ty × MRes V)) : Prop := ∀ x ∈ h, x.1.Typed τ

theorem MReach.inv {kind : Kind} {τ : V → Ty} {fromStr : Ty → List Char → Option V} (ht : TypedParse τ fromStr) {h b} (hr : MReach (K := K) kind τ fromStr h b)
    (hh : HistTyped τ h) : b.Typed τ ∧ kind.Ordered b := by
  induction hr with
  | nil => exact ⟨fun p hp => by simp at hp, by cases kind <;> simp [Kind.Ordered, Multi.Grouped]⟩
  | snoc h b op b' r _ hs ih =>
    obtain ⟨h1, h2⟩ := ih (fun x hx => hh x (by simp [hx]))
    exact ⟨hs.typed ht (hh (op, r) (by simp)) h1, hs.ordered h2⟩

theorem range_tree {b : Multi K V Ty} (hb : b.Pairwise (fun p q => p.1 ≤ q.1)) (k : K) :
    Kind.getAllData .tree b k = b.filter (fun p => decide (p.1 = k)) := by
  simp only [Kind.getAllData]
  have aux : ∀ b : Multi K V Ty, b.Pairwise (fun p q => p.1 ≤ q.1) → (∀ p ∈ b, k ≤ p.1) →
      b.takeWhile (fun p => decide (p.1 ≤ k)) = b.filter (fun p => decide (p.1 = k)) := by
    intro b hb hk
    induction b with
    | nil => rfl
    | cons p b ih =>
      rw [List.pairwise_cons] at hb
      have hp := hk p (by simp)
      rw [List.takeWhile_cons, List.filter_cons]
      by_cases h : p.1 = k
      · rw [if_pos (by simp [h]), if_pos (by simp [h]), ih hb.2 (fun q hq => hk q (by simp [hq]))]
      · have h1 : ¬ p.1 ≤ k := fun hle => h (le_antisymm hle hp)
        rw [if_neg (by simp [h1]), if_neg (by simp [h])]
        symm
        rw [List.filter_eq_nil_iff]
        intro q hq
        simp only [decide_eq_true_eq]
        rintro rfl
        exact h1 (hb.1 q hq)
  induction b with
  | nil => rfl
  | cons p b ih =>
    rw [List.dropWhile_cons]
    by_cases h : p.1 < k
    · rw [if_pos (by simp [h]), ih (List.pairwise_cons.1 hb).2, List.filter_cons, if_neg (by simp [h.ne])]
    · rw [if_neg (by simp [h])]
      apply aux _ hb
      intro q hq
      rcases List.mem_cons.1 hq with rfl | h1
      · exact not_lt.1 h
      · exact (not_lt.1 h).trans ((List.pairwise_cons.1 hb).1 q h1)

theorem range_hash {b : Multi K V Ty} (hb : b.Grouped) (k : K) : Kind.getAllData .hash b k = b.filter (fun p => decide (p.1 = k)) := by
  simp only [Kind.getAllData]
  have aux : ∀ b : Multi K V Ty, (∀ z, List.Sublist [z, k] (b.map Prod.fst) → z = k) →
      b.takeWhile (fun p => decide (p.1 = k)) = b.filter (fun p => decide (p.1 = k)) := by
    intro b hk
    induction b with
    | nil => rfl
    | cons p b ih =>
      rw [List.takeWhile_cons, List.filter_cons]
      by_cases h : p.1 = k
      · rw [if_pos (by simp [h]), if_pos (by simp [h]), ih (fun z hz => hk z (by rw [List.map_cons]; exact hz.cons _))]
      · rw [if_neg (by simp [h]), if_neg (by simp [h])]
        symm
        rw [List.filter_eq_nil_iff]
        intro q hq
        simp only [decide_eq_true_eq]
        intro hqk
        apply h
        apply hk
        rw [List.map_cons]
        refine List.Sublist.cons_cons _ (List.singleton_sublist.2 ?_)
        rw [← hqk]
        exact List.mem_map_of_mem hq
  induction b with
  | nil => rfl
  | cons p b ih =>
    rw [List.dropWhile_cons]
    by_cases h : p.1 = k
    · rw [if_neg (by simp [h]), List.takeWhile_cons, if_pos (by simp [h]), List.filter_cons, if_pos (by simp [h])]
      congr 1
      apply aux
      intro z hz
      apply hb
      rw [List.map_cons, h]
      exact hz.cons_cons _
    · rw [if_pos (by simp [h]), ih (fun x z hz => hb x z (by rw [List.map_cons]; exact hz.cons _)), List.filter_cons, if_neg (by simp [h])]

theorem range_eq {kind : Kind} {b : Multi K V Ty} (hb : kind.Ordered b) (k : K) : kind.getAllData b k = b.filter (fun p => decide (p.1 = k)) := by
  cases kind with
  | tree => exact range_tree hb k
  | hash => exact range_hash hb k

theorem seqOf_append (l r : Multi K V Ty) (k : K) : Multi.seqOf (l ++ r) k = l.seqOf k ++ r.seqOf k := by
  simp [Multi.seqOf, List.filter_append]

theorem seqOf_cons (e : K × Saver V Ty) (r : Multi K V Ty) (k : K) : Multi.seqOf (e :: r) k = if k = e.1 then item e :: r.seqOf k else r.seqOf k := by
  simp only [Multi.seqOf, List.map_cons, List.filter_cons]
  by_cases h : k = e.1
  · rw [if_pos (by simp [item, h]), if_pos h]
  · have h1 : ¬ e.1 = k := fun h' => h h'.symm
    rw [if_neg (by simp [item, h1]), if_neg h]

theorem seqOf_misses {b : Multi K V Ty} {k : K} (h : b.Misses k) : b.seqOf k = [] := by
  simp only [Multi.seqOf, List.filter_eq_nil_iff, List.mem_map]
  rintro _ ⟨p, hp, rfl⟩
  have := h p hp
  simp [item, this]

theorem seq_mid (l : Multi K V Ty) (k : K) (s s' : Saver V Ty) (r : Multi K V Ty) :
    Multi.seqOf (l ++ (k, s') :: r) = withSeq (Multi.seqOf (l ++ (k, s) :: r)) k (l.seqOf k ++ item (k, s') :: r.seqOf k) := by
  funext j
  simp only [withSeq, seqOf_append, seqOf_cons]
  by_cases h : j = k
  · subst h; simp
  · simp [h]

theorem seq_erase (l : Multi K V Ty) (k : K) (s : Saver V Ty) (r : Multi K V Ty) :
    Multi.seqOf (l ++ r) = withSeq (Multi.seqOf (l ++ (k, s) :: r)) k (l.seqOf k ++ r.seqOf k) := by
  funext j
  simp only [withSeq, seqOf_append, seqOf_cons]
  by_cases h : j = k
  · subst h; simp
  · simp [h]

theorem seq_at (l : Multi K V Ty) (k : K) (s : Saver V Ty) (r : Multi K V Ty) :
    Multi.seqOf (l ++ (k, s) :: r) k = l.seqOf k ++ item (k, s) :: r.seqOf k := by
  simp [seqOf_append, seqOf_cons]

theorem seq_emplace {b b' : Multi K V Ty} {k : K} {s : Saver V Ty} (hb : Kind.tree.Ordered b) (h : Kind.tree.emplace b (k, s) b') :
    b'.seqOf = withSeq b.seqOf k (b.seqOf k ++ [item (k, s)]) := by
  simp only [Kind.emplace] at h
  subst h
  have h1 : Multi.seqOf (b.dropWhile (fun p => decide (p.1 ≤ k))) k = [] :=
    seqOf_misses (fun p hp => (mem_dropWhile_lt hb hp).ne')
  funext j
  have h2 : b.seqOf j = Multi.seqOf (b.takeWhile (fun p => decide (p.1 ≤ k))) j ++ Multi.seqOf (b.dropWhile (fun p => decide (p.1 ≤ k))) j := by
    rw [← seqOf_append, List.takeWhile_append_dropWhile]
  simp only [withSeq, seqOf_append, seqOf_cons]
  by_cases hj : j = k
  · subst hj
    simp only [if_true, h1]
    rw [h1, List.append_nil] at h2
    rw [h2]
  · simp [hj, h2]

theorem withSeq_self (f : K → List (Item K V)) (k : K) : withSeq f k (f k) = f := by
  funext j; simp only [withSeq]; split <;> simp_all

theorem MStep.seq {τ : V → Ty} {fromStr : Ty → List Char → Option V} {b b' : Multi K V Ty} {op : MOp K V Ty} {r : MRes V}
    (h : MStep .tree τ fromStr b op b' r) (hb : b.Typed τ) (ho : Kind.tree.Ordered b) : SeqSpec τ fromStr b.seqOf op b'.seqOf r := by
  cases h with
  | add _ k v c h => rw [seq_emplace ho h]; exact .add ..
  | addSaver _ k d h =>
    rw [seq_emplace ho h]
    cases hd : d.ptr with
    | none => simpa [item, Saver.copy, Saver.assign, hd, Saver.empty] using SeqSpec.addEmpty (τ := τ) (fromStr := fromStr) b.seqOf k d hd
    | some v => simpa [item, Saver.copy, Saver.assign, hd, Saver.empty] using SeqSpec.addSaver (τ := τ) (fromStr := fromStr) b.seqOf k d v hd
  | setNew _ k v c hm h =>
    have h0 := seqOf_misses hm
    rw [seq_emplace ho h, h0]; exact .setNew _ _ _ _ h0
  | setOld l s r k v c h => subst h; rw [seq_mid l k s (s.setData τ v c)]; exact .setOne _ _ _ _ _ _ _ _ (seq_at l k s r)
  | setSaverNew _ k d hm h =>
    have h0 := seqOf_misses hm
    rw [seq_emplace ho h, h0]
    cases hd : d.ptr with
    | none => simpa [item, Saver.copy, Saver.assign, hd, Saver.empty] using SeqSpec.saverNewEmpty (τ := τ) (fromStr := fromStr) b.seqOf k d h0 hd
    | some v => simpa [item, Saver.copy, Saver.assign, hd, Saver.empty] using SeqSpec.saverNew (τ := τ) (fromStr := fromStr) b.seqOf k d v h0 hd
  | setSaverOld l s r k d h =>
    subst h; rw [seq_mid l k s (s.assign d)]
    cases hd : d.ptr with
    | none =>
      simpa [item, Saver.assign, hd] using SeqSpec.saverOneEmpty (τ := τ) (fromStr := fromStr) _ k d _ _ _ _ (seq_at l k s r) hd
    | some v =>
      simpa [item, Saver.assign, hd] using SeqSpec.saverOne (τ := τ) (fromStr := fromStr) _ k d v _ _ _ _ (seq_at l k s r) hd
  | setStrNone k str hm => exact .strNone _ _ _ (seqOf_misses hm)
  | setStr l s r k str a s' h hs =>
    subst h
    obtain ⟨old, h1, h2, h3, h4, h5⟩ := Saver.setStr_cases (hb (k, s) (by simp)) hs
    dsimp only at h1 h2
    have hat := seq_at l k s r
    simp only [item, h1] at hat
    rcases h5 with ⟨rfl, v, hv, hp⟩ | ⟨rfl, hn, rfl⟩
    · rw [seq_mid l k s s']
      simpa [item, h2, hp] using SeqSpec.strOne (τ := τ) _ k str _ old _ _ v hat hv
    · exact SeqSpec.strBad (τ := τ) _ k str _ old _ _ hat hn
  | eraseNone k hm => exact .eraseNone _ _ (seqOf_misses hm)
  | erase l s r k h =>
    subst h; rw [seq_erase l k s r]
    have hat := seq_at l k s r
    simp only [item] at hat
    cases hc : s.custom with
    | none =>
      rw [hc] at hat
      simpa [Saver.customCall, Saver.resetData, hc] using SeqSpec.eraseOne (τ := τ) (fromStr := fromStr) _ k _ _ _ hat
    | some f =>
      rw [hc] at hat
      simpa [Saver.customCall, Saver.resetData, hc] using SeqSpec.eraseCustom (τ := τ) (fromStr := fromStr) _ k _ _ f _ hat
  | clear => exact .clear _

/-! ## C91 -/

/-- **C91.** Whatever the history of calls and whatever the standard library chose, the next call changes the collection of all entries as the specification says:
AddData adds an entry and touches no other; SetData, SetDataFromDataSaver and SetDataFromString change exactly one entry of the key (SetData adds one when there is
none); EraseData removes exactly one entry of the key and calls its custom delete function, if it has one, exactly once with its value; Clear removes everything and calls
nothing. -/
theorem C91_calls (kind : Kind) {τ : V → Ty} {fromStr : Ty → List Char → Option V} (ht : TypedParse τ fromStr) {h b} (hr : MReach (K := K) kind τ fromStr h b)
    (hh : HistTyped τ h) {op b' r} (hs : MStep kind τ fromStr b op b' r) : BagSpec τ fromStr b.items op b'.items r :=
  hs.bag (hr.inv ht hh).1

/-- **C91.** In a DataMultiMap the entries of every key also keep the order in which they were added. -/
theorem C91_order {τ : V → Ty} {fromStr : Ty → List Char → Option V} (ht : TypedParse τ fromStr) {h b} (hr : MReach (K := K) .tree τ fromStr h b)
    (hh : HistTyped τ h) {op b' r} (hs : MStep .tree τ fromStr b op b' r) : SeqSpec τ fromStr b.seqOf op b'.seqOf r :=
  hs.seq (hr.inv ht hh).1 (hr.inv ht hh).2

/-- **C91.** An iteration over a DataMultiMap goes through the keys in ascending order. -/
theorem C91_sorted {τ : V → Ty} {fromStr : Ty → List Char → Option V} (ht : TypedParse τ fromStr) {h b} (hr : MReach (K := K) .tree τ fromStr h b)
    (hh : HistTyped τ h) : (b.map Prod.fst).Pairwise (· ≤ ·) :=
  List.pairwise_map.2 (hr.inv ht hh).2

/-- **C91.** GetAllData shows exactly the entries of the key, in the order of the iteration; Size counts all entries; IsData says whether the key has an entry. -/
theorem C91_getAll (kind : Kind) {τ : V → Ty} {fromStr : Ty → List Char → Option V} (ht : TypedParse τ fromStr) {h b} (hr : MReach (K := K) kind τ fromStr h b)
    (hh : HistTyped τ h) (k : K) :
    (kind.getAllData b k).map item = b.seqOf k ∧ b.size = Multiset.card b.items ∧ (b.isData k = true ↔ ∃ x ∈ b.items, x.key = k) ∧
      (kind.getAllData b k = [] ↔ b.isData k = false) := by
  rw [range_eq (hr.inv ht hh).2]
  have hany : b.isData k = true ↔ ∃ p ∈ b, p.1 = k := by simp [Multi.isData]
  refine ⟨?_, by simp [Multi.size, Multi.items], ?_, ?_⟩
  · simp only [Multi.seqOf, List.filter_map]
    rfl
  · rw [hany]
    simp only [Multi.items, Multiset.mem_coe, List.mem_map]
    constructor
    · rintro ⟨p, hp, rfl⟩; exact ⟨item p, ⟨p, hp, rfl⟩, rfl⟩
    · rintro ⟨_, ⟨p, hp, rfl⟩, rfl⟩; exact ⟨p, hp, rfl⟩
  · rw [← Bool.not_eq_true, hany, List.filter_eq_nil_iff]
    constructor
    · rintro h ⟨p, hp, hk⟩; exact h p hp (by simp [hk])
    · intro h p hp hk; exact h ⟨p, hp, by simpa using hk⟩

/-- **C91.** GetData answers false and leaves the variable exactly when the key has no entry; otherwise it answers true and reads one of the entries of the key: the
variable gets its value when the value has the type of the variable and is left alone when it has not. -/
theorem C91_get (kind : Kind) {τ : V → Ty} {fromStr : Ty → List Char → Option V} (ht : TypedParse τ fromStr) {h b} (hr : MReach (K := K) kind τ fromStr h b)
    (hh : HistTyped τ h) {k : K} {T : Ty} {data out : V} {a : Bool} (hg : MGet b k T data a out) :
    (a = false ∧ out = data ∧ ∀ x ∈ b.items, x.key ≠ k) ∨
    (a = true ∧ ∃ x ∈ b.items, x.key = k ∧
      ((∃ v, x.value = some v ∧ τ v = T ∧ out = v) ∨ ((∀ v, x.value = some v → τ v ≠ T) ∧ out = data))) := by
  cases hg with
  | missing hm => exact .inl ⟨rfl, rfl, misses_items.1 hm⟩
  | found l s r hf =>
    have hts : s.Typed τ := (hr.inv ht hh).1 (k, s) (by rw [hf]; simp)
    refine .inr ⟨rfl, item (k, s), by rw [hf, items_mid]; simp, rfl, ?_⟩
    simp only [item, Saver.getData]
    cases hp : s.ptr with
    | none => exact .inr ⟨by simp, by split <;> rfl⟩
    | some v =>
      obtain ⟨h1, -⟩ := hts v hp
      rw [h1]
      by_cases hT : τ v = T
      · exact .inl ⟨v, rfl, hT, by simp [hT]⟩
      · exact .inr ⟨by simpa using hT, by simp [hT]⟩

/-- **C91.** GetDataSaver and GetDataAsString likewise. -/
theorem C91_getSaver (kind : Kind) {τ : V → Ty} {fromStr : Ty → List Char → Option V} (ht : TypedParse τ fromStr) {h b} (hr : MReach (K := K) kind τ fromStr h b)
    (hh : HistTyped τ h) {k : K} {toStr : V → List Char} :
    (∀ {d d' : Saver V Ty} {a : Bool}, MGetSaver b k d a d' →
      (a = false ∧ d' = d ∧ ∀ x ∈ b.items, x.key ≠ k) ∨ (a = true ∧ ∃ x ∈ b.items, x.key = k ∧ d'.ptr = x.value ∧ d'.Typed τ)) ∧
    (∀ {str str' : List Char} {a : Bool}, MGetStr toStr b k str a str' →
      (a = false ∧ str' = str ∧ ∀ x ∈ b.items, x.key ≠ k) ∨ (a = true ∧ ∃ x ∈ b.items, x.key = k ∧ ∃ v, x.value = some v ∧ str' = toStr v)) := by
  constructor
  · intro d d' a hg
    cases hg with
    | missing hm => exact .inl ⟨rfl, rfl, misses_items.1 hm⟩
    | found l s r hf =>
      have hts : s.Typed τ := (hr.inv ht hh).1 (k, s) (by rw [hf]; simp)
      refine .inr ⟨rfl, item (k, s), by rw [hf, items_mid]; simp, rfl, ?_, Saver.typed_assign hts⟩
      unfold Saver.assign
      cases hp : s.ptr <;> simp [item, hp]
  · intro str str' a hg
    cases hg with
    | missing hm => exact .inl ⟨rfl, rfl, misses_items.1 hm⟩
    | found l s r t hf hs =>
      refine .inr ⟨rfl, item (k, s), by rw [hf, items_mid]; simp, rfl, ?_⟩
      unfold Saver.str at hs
      cases hp : s.ptr with
      | none => simp [hp] at hs
      | some v =>
        cases hF : s.funs with
        | none => simp [hp, hF] at hs
        | some T => simp only [hp, hF, Option.some.injEq] at hs; exact ⟨v, by simp [item, hp], hs.symm⟩

theorem sorted_grouped {b : Multi K V Ty} (h : b.Pairwise (fun p q => p.1 ≤ q.1)) : b.Grouped := by
  intro x z hs
  have h1 : (b.map Prod.fst).Pairwise (· ≤ ·) := List.pairwise_map.2 h
  have h2 := h1.sublist hs
  simp only [List.pairwise_cons, List.mem_cons, List.not_mem_nil, or_false, forall_eq_or_imp, forall_eq] at h2
  exact le_antisymm h2.2.1 h2.1.1

theorem emplace_total (kind : Kind) (b : Multi K V Ty) (e : K × Saver V Ty) : ∃ b', kind.emplace b e b' := by
  cases kind with
  | tree => exact ⟨_, rfl⟩
  | hash =>
    refine ⟨(e :: b).mergeSort (fun p q => decide (p.1 ≤ q.1)), List.mergeSort_perm _ _, sorted_grouped ?_⟩
    have := List.pairwise_mergeSort (le := fun p q : K × Saver V Ty => decide (p.1 ≤ q.1)) (fun a b c hab hbc => by
      simp only [decide_eq_true_eq] at *; exact hab.trans hbc) (fun a b => by simp [le_total]) (e :: b)
    simpa using this

theorem find_total (b : Multi K V Ty) (k : K) : b.Misses k ∨ ∃ l s r, b.FindsAt k l s r := by
  by_cases h : ∃ p ∈ b, p.1 = k
  · obtain ⟨⟨_, s⟩, hp, rfl⟩ := h
    obtain ⟨l, r, h⟩ := List.append_of_mem hp
    exact .inr ⟨l, s, r, h⟩
  · exact .inl (fun p hp hk => h ⟨p, hp, hk⟩)

/-- **C91.** No call is undefined, except SetDataFromString when the entry found holds no value (it was written from an empty DataSaver). -/
theorem C91_defined (kind : Kind) {τ : V → Ty} {fromStr : Ty → List Char → Option V} (ht : TypedParse τ fromStr) {h b} (hr : MReach (K := K) kind τ fromStr h b)
    (hh : HistTyped τ h) (op : MOp K V Ty) (hop : ∀ k str, op = .setStr k str → ∀ x ∈ b.items, x.key = k → x.value ≠ none) :
    ∃ b' r, MStep kind τ fromStr b op b' r := by
  cases op with
  | add k v c => obtain ⟨b', h⟩ := emplace_total kind b (k, Saver.setData τ Saver.empty v c); exact ⟨b', _, .add _ _ _ _ _ h⟩
  | addSaver k d => obtain ⟨b', h⟩ := emplace_total kind b (k, Saver.copy d); exact ⟨b', _, .addSaver _ _ _ _ h⟩
  | set k v c =>
    rcases find_total b k with hm | ⟨l, s, r, hf⟩
    · obtain ⟨b', h⟩ := emplace_total kind b (k, Saver.setData τ Saver.empty v c); exact ⟨b', _, .setNew _ _ _ _ _ hm h⟩
    · exact ⟨_, _, .setOld _ _ _ _ _ _ _ hf⟩
  | setSaver k d =>
    rcases find_total b k with hm | ⟨l, s, r, hf⟩
    · obtain ⟨b', h⟩ := emplace_total kind b (k, Saver.copy d); exact ⟨b', _, .setSaverNew _ _ _ _ hm h⟩
    · exact ⟨_, _, .setSaverOld _ _ _ _ _ _ hf⟩
  | setStr k str =>
    rcases find_total b k with hm | ⟨l, s, r, hf⟩
    · exact ⟨_, _, .setStrNone _ _ _ hm⟩
    · have hts : s.Typed τ := (hr.inv ht hh).1 (k, s) (by rw [hf]; simp)
      have hne := hop k str rfl (item (k, s)) (by rw [hf, items_mid]; simp) rfl
      obtain ⟨v, hv⟩ := Option.ne_none_iff_exists'.1 hne
      have hv' : s.ptr = some v := hv
      have h2 := (hts v hv').2
      have : ∃ x, s.setDataFromString fromStr str = some x := by
        unfold Saver.setDataFromString
        simp only [hv', h2]
        cases fromStr (τ v) str <;> exact ⟨_, rfl⟩
      obtain ⟨⟨a, s'⟩, hx⟩ := this
      exact ⟨_, _, .setStr _ _ _ _ _ _ _ _ hf hx⟩
  | erase k =>
    rcases find_total b k with hm | ⟨l, s, r, hf⟩
    · exact ⟨_, _, .eraseNone _ _ hm⟩
    · exact ⟨_, _, .erase _ _ _ _ _ hf⟩
  | clear => exact ⟨_, _, .clear _⟩

/-! ## A concrete history -/

/-- `AddData("a", 1); AddData("b", 2, del); AddData("a", 3); EraseData("b"); SetData("a", 4)` in a DataMultiMap, with keys 0 and 1. -/
example : ∃ h b, MReach (K := Nat) (V := Nat) (Ty := Unit) .tree (fun _ => ()) (fun _ _ => none) h b ∧ HistTyped (fun _ => ()) h ∧
    h.map Prod.snd = [{}, {}, {}, { deleted := [(7, some 2)] }, {}] ∧ b.seqOf 0 = [⟨0, some 1, none⟩, ⟨0, some 4, none⟩] ∧ b.seqOf 1 = [] := by
  refine ⟨_, _, .snoc _ _ (.set 0 4 none) _ _ (.snoc _ _ (.erase 1) _ _ (.snoc _ _ (.add 0 3 none) _ _ (.snoc _ _ (.add 1 2 (some 7)) _ _ (.snoc _ _ (.add 0 1 none) _ _ .nil
    (.add _ _ _ _ _ rfl)) (.add _ _ _ _ _ rfl)) (.add _ _ _ _ _ rfl)) (.erase _ [(0, _), (0, _)] _ [] _ rfl)) (.setOld _ [(0, _)] _ [] _ _ _ rfl), ?_, ?_, ?_, ?_⟩
  · intro x hx
    simp only [List.mem_append, List.mem_cons, List.not_mem_nil, or_false, List.nil_append] at hx
    rcases hx with (((rfl | rfl) | rfl) | rfl) | rfl <;> trivial
  · rfl
  · rfl
  · rfl

/-- The hypotheses about types and conversions can be met. -/
example : TypedParse (fun _ : Nat => ()) (fun _ _ => none) := fun _ _ _ h => by cases h

end
end MVault.Cont
