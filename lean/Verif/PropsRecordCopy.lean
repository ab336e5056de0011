import Verif.RecordModel
import Verif.PropsContainer
/-
C117: a copied or moved record holds the data of the other and starts a life of its own.
-/
set_option linter.unusedSectionVars false
set_option linter.unusedSimpArgs false
namespace MVault.Cont
variable {K V Ty : Type} [DecidableEq K] [DecidableEq Ty]

/-- Specification, models no code: two containers that no reading call tells apart: `Size`, `IsData`, `GetData` of every key, type and variable. -/
def SameReads (a b : Box K V Ty) : Prop :=
  a.size = b.size ∧ ∀ k, a.isData k = b.isData k ∧ ∀ T d, a.getData k T d = b.getData k T d

/-- Specification, models no code: distinct keys. -/
def Distinct (b : Box K V Ty) : Prop := (b.map Prod.fst).Nodup

/-- Specification, models no code: the same keys, and under each the same value (or none). -/
def Like (a b : Box K V Ty) : Prop := Distinct a ∧ Distinct b ∧ ∀ k, (a.find k).map Saver.copy = (b.find k).map Saver.copy

theorem copy_copy (s : Saver V Ty) : s.copy.copy = s.copy := by
  cases h : s.ptr <;> simp [Saver.copy, Saver.assign, Saver.empty, h]

theorem getData_copy (s : Saver V Ty) (T : Ty) (d : V) : s.copy.getData T d = s.getData T d := by
  cases h : s.ptr <;> simp [Saver.copy, Saver.assign, Saver.empty, Saver.getData, h]

theorem Like.keys {a b : Box K V Ty} (h : Like a b) (k : K) : k ∈ a.map Prod.fst ↔ k ∈ b.map Prod.fst := by
  have h1 := find_none a k
  have h2 := find_none b k
  have h3 := h.2.2 k
  cases ea : a.find k <;> cases eb : b.find k <;> rw [ea, eb] at h3 <;> simp_all

theorem Like.reads {a b : Box K V Ty} (h : Like a b) : SameReads a b := by
  refine ⟨?_, fun k => ?_⟩
  · have hp : (a.map Prod.fst).Perm (b.map Prod.fst) := (List.perm_ext_iff_of_nodup h.1 h.2.1).mpr h.keys
    simpa [Box.size] using hp.length_eq
  · have h3 := h.2.2 k
    cases ea : a.find k with
    | none =>
      cases eb : b.find k with
      | none => simp [Box.isData, Box.getData, ea, eb]
      | some t => rw [ea, eb] at h3; simp at h3
    | some s =>
      cases eb : b.find k with
      | none => rw [ea, eb] at h3; simp at h3
      | some t =>
        rw [ea, eb] at h3
        simp only [Option.map_some, Option.some.injEq] at h3
        refine ⟨by simp [Box.isData, ea, eb], fun T d => ?_⟩
        simp only [Box.getData, ea, eb]
        rw [← getData_copy s, ← getData_copy t, h3]

theorem find_add (b : Box K V Ty) (k : K) (s : Saver V Ty) (x : K) :
    (b.add k s).find x = if x = k then (if b.find k = none then some s else b.find k) else b.find x := by
  unfold Box.add
  by_cases h : b.find k = none
  · rw [if_pos h]
    by_cases e : x = k
    · subst e; rw [if_pos rfl, if_pos h]; simp [Box.find, List.find?_cons]
    · have e' : ¬ k = x := fun h => e h.symm
      simp [Box.find, e, e', List.find?_cons]
  · rw [if_neg h]
    by_cases e : x = k
    · subst e; simp [h]
    · simp [e]

theorem distinct_add {b : Box K V Ty} (h : Distinct b) (k : K) (s : Saver V Ty) : Distinct (b.add k s) := by
  unfold Box.add
  by_cases e : b.find k = none
  · rw [if_pos e]
    exact List.nodup_cons.mpr ⟨(find_none b k).mp e, h⟩
  · rw [if_neg e]; exact h

theorem distinct_put {b : Box K V Ty} (h : Distinct b) (k : K) (s : Saver V Ty) : Distinct (b.put k s) := by
  have e : (b.put k s).map Prod.fst = b.map Prod.fst := by
    unfold Box.put
    rw [List.map_map]
    refine List.map_congr_left fun p _ => ?_
    by_cases hp : p.1 = k <;> simp [hp]
  rw [Distinct, e]; exact h

theorem distinct_erase {b : Box K V Ty} (h : Distinct b) (k : K) : Distinct (b.erase k) :=
  h.sublist (List.filter_sublist.map Prod.fst)

/-- The copying loop. -/
theorem copy_loop (l : Box K V Ty) : ∀ acc : Box K V Ty, Distinct acc → (l.map Prod.fst).Nodup → (∀ k ∈ l.map Prod.fst, k ∉ acc.map Prod.fst) →
    Distinct (l.foldl (fun b p => b.add p.1 p.2.copy) acc) ∧
      ∀ k, (l.foldl (fun b p => b.add p.1 p.2.copy) acc).find k = match (l.find? fun p => p.1 = k) with
        | some p => some p.2.copy
        | none => acc.find k := by
  induction l with
  | nil => intro acc h _ _; exact ⟨h, fun k => by simp⟩
  | cons p l ih =>
    intro acc h1 h2 h3
    obtain ⟨h4, h5⟩ := List.nodup_cons.mp h2
    have hp : p.1 ∉ acc.map Prod.fst := h3 p.1 (by simp)
    have hn : acc.find p.1 = none := (find_none acc p.1).mpr hp
    obtain ⟨i1, i2⟩ := ih (acc.add p.1 p.2.copy) (distinct_add h1 _ _) h5 (by
      intro k hk hk'
      have : (acc.add p.1 p.2.copy).map Prod.fst = p.1 :: acc.map Prod.fst := by simp [Box.add, hn]
      rw [this] at hk'
      rcases List.mem_cons.mp hk' with e | e
      · subst e; exact h4 hk
      · exact h3 k (by simp [hk]) e)
    refine ⟨i1, fun k => ?_⟩
    rw [List.foldl_cons, i2 k, find_add, List.find?_cons]
    by_cases e : p.1 = k
    · subst e
      have : (l.find? fun q => decide (q.1 = p.1)) = none := by
        rw [List.find?_eq_none]
        intro q hq hd
        exact h4 (List.mem_map.mpr ⟨q, hq, by simpa using hd⟩)
      simp [this, hn]
    · have e' : ¬ k = p.1 := fun h => e h.symm
      simp [e, e']

theorem copyData_like {b order : Box K V Ty} (hb : Distinct b) (hp : order.Perm b) : Like (copyData order) b := by
  have ho : Distinct order := (hp.map Prod.fst).nodup_iff.mpr hb
  obtain ⟨h1, h2⟩ := copy_loop order [] (List.nodup_nil) ho (by simp)
  refine ⟨h1, hb, fun k => ?_⟩
  show ((List.foldl _ _ _ : Box K V Ty).find k).map _ = _
  rw [h2 k]
  have same : (order.find? fun p => decide (p.1 = k)) = b.find? fun p => decide (p.1 = k) := by
    cases eb : b.find? fun p => decide (p.1 = k) with
    | none =>
      rw [List.find?_eq_none] at eb ⊢
      exact fun p hm => eb p (hp.mem_iff.mp hm)
    | some p =>
      have hm := List.mem_of_find?_eq_some eb
      have hk : p.1 = k := by simpa using List.find?_some eb
      cases eo : order.find? fun p => decide (p.1 = k) with
      | none =>
        rw [List.find?_eq_none] at eo
        exact absurd (by simpa using hk) (eo p (hp.mem_iff.mpr hm))
      | some q =>
        have hq := hp.mem_iff.mp (List.mem_of_find?_eq_some eo)
        have hqk : q.1 = k := by simpa using List.find?_some eo
        have : ∀ l : Box K V Ty, Distinct l → p ∈ l → q ∈ l → q = p := by
          intro l
          induction l with
          | nil => intro _ h; cases h
          | cons a l ih =>
            intro hd h3 h4
            obtain ⟨h5, h6⟩ := List.nodup_cons.mp hd
            rcases List.mem_cons.mp h3 with e3 | e3 <;> rcases List.mem_cons.mp h4 with e4 | e4
            · rw [e3, e4]
            · exact absurd (List.mem_map.mpr ⟨q, e4, by rw [hqk, ← hk, e3]⟩) h5
            · exact absurd (List.mem_map.mpr ⟨p, e3, by rw [hk, ← hqk, e4]⟩) h5
            · exact ih h6 e3 e4
        rw [this b hb hm hq]
  rw [same]
  unfold Box.find
  cases (b.find? fun p => decide (p.1 = k)) with
  | none => rfl
  | some p => simp [copy_copy]

theorem Like.step {τ : V → Ty} {a b : Box K V Ty} (h : Like a b) (op : BoxOp K V) : Like (a.step τ op) (b.step τ op) := by
  obtain ⟨h1, h2, h3⟩ := h
  have hn : ∀ k, a.find k = none ↔ b.find k = none := by
    intro k
    have := h3 k
    cases ea : a.find k <;> cases eb : b.find k <;> rw [ea, eb] at this <;> simp_all
  have addL : ∀ k s, Like (a.add k s) (b.add k s) := by
    intro k s
    refine ⟨distinct_add h1 _ _, distinct_add h2 _ _, fun x => ?_⟩
    rw [find_add, find_add]
    by_cases e : x = k
    · subst e
      by_cases hx : a.find x = none
      · simp [hx, (hn x).mp hx]
      · rw [if_pos rfl, if_pos rfl, if_neg hx, if_neg fun h => hx ((hn x).mpr h), h3]
    · simp [e, h3]
  have putL : ∀ k s, Like (a.put k s) (b.put k s) := by
    intro k s
    refine ⟨distinct_put h1 _ _, distinct_put h2 _ _, fun x => ?_⟩
    rw [find_put, find_put]
    by_cases e : x = k
    · subst e
      have := hn x
      cases ea : a.find x <;> cases eb : b.find x <;> simp_all
    · simp [e, h3]
  cases op with
  | add k v c => exact addL _ _
  | addSaver k v c => exact addL _ _
  | set k v c =>
    simp only [Box.step, Box.setData]
    cases ea : a.find k with
    | none => rw [(hn k).mp ea]; exact addL _ _
    | some s =>
      cases eb : b.find k with
      | none => rw [(hn k).mpr eb] at ea; cases ea
      | some t => exact putL _ _
  | setSaver k v c =>
    simp only [Box.step, Box.setSaver]
    cases ea : a.find k with
    | none => rw [(hn k).mp ea]; exact addL _ _
    | some s =>
      cases eb : b.find k with
      | none => rw [(hn k).mpr eb] at ea; cases ea
      | some t => exact putL _ _
  | erase k =>
    refine ⟨distinct_erase h1 _, distinct_erase h2 _, fun x => ?_⟩
    simp only [Box.step]
    rw [find_erase, find_erase]
    by_cases e : x = k <;> simp [e, h3]
  | clear => exact ⟨List.nodup_nil, List.nodup_nil, fun _ => rfl⟩

theorem Like.run {τ : V → Ty} (l : List (BoxOp K V)) : ∀ {a b : Box K V Ty}, Like a b → Like (l.foldl (Box.step τ) a) (l.foldl (Box.step τ) b) := by
  induction l with
  | nil => exact fun h => h
  | cons op l ih => exact fun h => ih (h.step op)

/-- A copied record: no reading call tells its data from the other's, also after the same calls have been made on both; it is valid,
has no references and is in no set. Whatever the order of the hash table. -/
theorem C117_copy {τ : V → Ty} {b order : Box K V Ty} (hb : Distinct b) (hp : order.Perm b) :
    (∀ l : List (BoxOp K V), SameReads (l.foldl (Box.step τ) (Rec.copyNew order).box) (l.foldl (Box.step τ) b)) ∧
      (Rec.copyNew order).valid = true ∧ (Rec.copyNew order).refs = 0 ∧ (Rec.copyNew order).sets = [] :=
  ⟨fun l => ((copyData_like hb hp).run l).reads, rfl, rfl, rfl⟩

/-- A moved record has the data itself; its life is its own, and the life of the other is left alone. -/
theorem C117_move (left : Box K V Ty) (other : Rec K V Ty) :
    (Rec.moveNew left other).1.box = other.box ∧ (Rec.moveNew left other).1.valid = true ∧ (Rec.moveNew left other).1.refs = 0 ∧
      (Rec.moveNew left other).1.sets = [] ∧ (Rec.moveNew left other).2.valid = other.valid ∧ (Rec.moveNew left other).2.refs = other.refs ∧
      (Rec.moveNew left other).2.sets = other.sets := ⟨rfl, rfl, rfl, rfl, rfl, rfl, rfl⟩

/-- An assigned record has data no reading call tells from the other's, now and after the same calls, and stays in its sets; a
record assigned to itself is left alone. -/
theorem C117_assign_data {τ : V → Ty} {b order : Box K V Ty} (hb : Distinct b) (hp : order.Perm b) (r : Rec K V Ty) :
    (∀ l : List (BoxOp K V), SameReads (l.foldl (Box.step τ) (r.assign false order).box) (l.foldl (Box.step τ) b)) ∧ (r.assign false order).sets = r.sets ∧
      (r.assign false order).valid = true ∧ r.assign true order = r :=
  ⟨fun l => ((copyData_like hb hp).run l).reads, rfl, rfl, rfl⟩

/-- A record that another one is moved into has the data itself and stays in its own sets; the other keeps its mark, count and sets.
The counter is set to 0 (see the refutations for what this does to a record that has references). -/
theorem C117_move_assign (left : Box K V Ty) (r other : Rec K V Ty) :
    (Rec.moveAssign left r other).1 = ⟨other.box, true, 0, r.sets⟩ ∧
      (Rec.moveAssign left r other).2 = ⟨left, other.valid, other.refs, other.sets⟩ := ⟨rfl, rfl⟩

/-- Specification, models no code: run of calls by users who hold `n` references and release only what they took: `alive` is what is true of a record
that keeps the rule "deleted with the last reference once it is invalid". -/
def rule : Nat → Bool → List RefCall → Option (Nat × Bool)
  | n, v, [] => some (n, v)
  | n, v, .addRef :: l => rule (n + 1) v l
  | n, v, .removeRef :: l => if n = 1 ∧ v = false then none else rule (n - 1) v l
  | n, _, .invalidate :: l => if n = 0 then none else rule n false l

/-- Specification, models no code: every release releases a reference that is held. -/
def Held : Nat → List RefCall → Prop
  | _, [] => True
  | n, .addRef :: l => Held (n + 1) l
  | n, .removeRef :: l => 0 < n ∧ Held (n - 1) l
  | n, .invalidate :: l => Held n l

/-- A record whose counter is the number of references held keeps the rule in every run in which fewer than 2^64 references are held. -/
theorem C117_rule (l : List RefCall) : ∀ (r : Rec K V Ty), Held r.refs l → r.refs + l.length < sizeT →
    (r.calls l).map (fun r' => (r'.refs, r'.valid)) = rule r.refs r.valid l := by
  induction l with
  | nil => intro r _ _; rfl
  | cons c l ih =>
    intro r h hb
    rw [List.length_cons] at hb
    cases c with
    | addRef =>
      have e : (r.refs + 1) % sizeT = r.refs + 1 := Nat.mod_eq_of_lt (by omega)
      simp only [Rec.calls, Rec.call, Option.bind_some, rule, e]
      exact ih { r with refs := r.refs + 1 } h (by dsimp only; omega)
    | removeRef =>
      obtain ⟨h1, h2⟩ := h
      have e : (r.refs + sizeT - 1) % sizeT = r.refs - 1 := by
        rw [show r.refs + sizeT - 1 = (r.refs - 1) + sizeT by omega, Nat.add_mod_right]
        exact Nat.mod_eq_of_lt (by omega)
      simp only [Rec.calls, Rec.call, e, rule]
      by_cases hd : r.valid = false ∧ r.refs - 1 = 0
      · rw [if_pos hd, if_pos ⟨by omega, hd.1⟩]; rfl
      · rw [if_neg hd, if_neg (fun hh => hd ⟨hh.2, by omega⟩), Option.bind_some]
        exact ih { r with refs := r.refs - 1 } h2 (by dsimp only; omega)
    | invalidate =>
      simp only [Rec.calls, Rec.call, rule]
      by_cases hd : r.refs = 0
      · rw [if_pos hd, if_pos hd]; rfl
      · rw [if_neg hd, if_neg hd, Option.bind_some]
        exact ih { r with valid := false } h (by dsimp only; omega)

/-- Assignment to a record to which nobody holds a reference: it keeps the rule afterwards. Missing: records that are referenced,
for which it is false (`C117_refuted_early`, `C117_refuted_never`). -/
theorem C117_assign_rule_partial (r : Rec K V Ty) (order : Box K V Ty) (hr : r.refs = 0) (l : List RefCall) (hl : Held 0 l) (hb : l.length < sizeT) :
    ((r.assign false order).calls l).map (fun r' => (r'.refs, r'.valid)) = rule r.refs true l := by
  rw [hr]
  exact C117_rule l (r.assign false order) hl (by show 0 + _ < _; omega)

/-- A copied record keeps the rule. -/
theorem C117_copy_rule (order : Box K V Ty) (l : List RefCall) (hl : Held 0 l) (hb : l.length < sizeT) :
    ((Rec.copyNew order).calls l).map (fun r' => (r'.refs, r'.valid)) = rule 0 true l :=
  C117_rule l (Rec.copyNew order) hl (by show 0 + _ < _; omega)

/-- Assignment forgets the references: the record deletes itself while a reference is held. -/
theorem C117_refuted_early : ∃ r : Rec Nat Nat Unit, (Rec.fresh : Rec Nat Nat Unit).calls [.addRef] = some r ∧
    (r.assign false []).calls [.invalidate] = none ∧ rule 1 true [.invalidate] = some (1, false) := ⟨_, rfl, rfl, rfl⟩

/-- Or it is not deleted when the last reference is released: the counter runs below zero, to 2^64 - 1. -/
theorem C117_refuted_never : ∃ r r' : Rec Nat Nat Unit, (Rec.fresh : Rec Nat Nat Unit).calls [.addRef] = some r ∧
    (r.assign false []).calls [.removeRef, .invalidate] = some r' ∧ r'.refs = 2 ^ 64 - 1 ∧ rule 1 true [.removeRef, .invalidate] = none :=
  ⟨⟨[], true, 1, []⟩, ⟨[], false, 2 ^ 64 - 1, []⟩, by simp [Rec.calls, Rec.call, Rec.fresh, sizeT],
    by simp [Rec.calls, Rec.call, Rec.assign, sizeT, copyData], rfl, by simp [rule]⟩

/-! ### Concrete cases -/

example : Distinct ([(1, ⟨some 5, some (), some (), none⟩), (2, Saver.empty)] : Box Nat Nat Unit) := by unfold Distinct; decide
/-- The hash table of the other record is walked backwards; the copy has the values, and an empty one stays empty. -/
example : ((Rec.copyNew ([(2, Saver.empty), (1, ⟨some 5, some (), some (), none⟩)] : Box Nat Nat Unit)).box.getData 1 () 0 = (true, 5)) ∧
    ((Rec.copyNew ([(2, Saver.empty), (1, ⟨some 5, some (), some (), none⟩)] : Box Nat Nat Unit)).box.getData 2 () 7 = (true, 7)) := ⟨rfl, rfl⟩
example : Held 0 [.addRef, .addRef, .removeRef, .invalidate, .removeRef] ∧ rule 0 true [.addRef, .addRef, .removeRef, .invalidate] = some (1, false) ∧
    rule 0 true [.addRef, .addRef, .removeRef, .invalidate, .removeRef] = none := by simp [Held, rule]

end MVault.Cont
