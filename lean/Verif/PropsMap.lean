import Verif.MapModel
import Mathlib.Order.Nat
/-
C72: the map wrappers behave as one multimap or one map, whichever was chosen at construction.
-/
set_option linter.unusedSectionVars false
set_option linter.unusedSimpArgs false
set_option linter.unusedVariables false
namespace MVault.Mp
variable {A B : Type} [LinearOrder A] {good : List (Node A B) → Prop}

/-! ### Specification vocabulary -/

/-- The container in use. -/
def PMap.act (x : PMap A B) : Seq A B := if x.isMulti = true then x.multi else x.single
/-- The entries of the map in iteration order. -/
def PMap.content (x : PMap A B) : List (A × B) := x.act.nodes.map fun n => (n.key, n.val)

/-! ### Proof -/

/-- The half of an iterator that is in use. -/
def It.act (a : It) : Ptr := if a.isMulti = true then a.m else a.s

theorem deref_act {x : PMap A B} {a : It} (h : a.isMulti = x.isMulti) : x.deref a = x.act.deref a.act := by
  cases e : x.isMulti <;> simp [PMap.deref, PMap.act, It.act, h, e]

theorem ne_act {a b : It} (h : a.isMulti = b.isMulti) : a.ne b = decide (a.act.pos ≠ b.act.pos) := by
  cases e : b.isMulti <;> simp [It.ne, It.act, h, e]

theorem incr_act {x : PMap A B} {a : It} (h : a.isMulti = x.isMulti) {p : Ptr} (hp : x.act.incr a.act = some p) :
    ∃ a', x.incr a = some a' ∧ a'.isMulti = x.isMulti ∧ a'.act = p := by
  cases e : x.isMulti
  · simp only [PMap.act, It.act, h, e] at hp
    refine ⟨{ a with s := p }, ?_, ?_, ?_⟩ <;> simp_all [PMap.incr, It.act]
  · simp only [PMap.act, It.act, h, e] at hp
    refine ⟨{ a with m := p }, ?_, ?_, ?_⟩ <;> simp_all [PMap.incr, It.act]

/-- Identities of the nodes. -/
def ids (l : List (Node A B)) : List Nat := l.map (·.id)

theorem afterIn_split : ∀ (pre : List (Node A B)) (n : Node A B) (l : List (Node A B)), (ids (pre ++ n :: l)).Nodup →
    afterIn (pre ++ n :: l) n.id = some (headId l)
  | [], n, l, _ => by simp [afterIn]
  | m :: pre, n, l, h => by
    simp only [ids, List.cons_append, List.map_cons, List.nodup_cons] at h
    have hne : m.id ≠ n.id := fun e => h.1 (by rw [e]; simp)
    simp only [List.cons_append, afterIn, if_neg hne]
    exact afterIn_split pre n l h.2

theorem find_split : ∀ (pre : List (Node A B)) (n : Node A B) (l : List (Node A B)), (ids (pre ++ n :: l)).Nodup →
    (pre ++ n :: l).find? (fun m => decide (m.id = n.id)) = some n
  | [], n, l, _ => by simp
  | m :: pre, n, l, h => by
    simp only [ids, List.cons_append, List.map_cons, List.nodup_cons] at h
    have hne : m.id ≠ n.id := fun e => h.1 (by rw [e]; simp)
    simp only [List.cons_append, List.find?_cons, decide_eq_false hne]
    exact find_split pre n l h.2

theorem headId_ne {mid post : List (Node A B)} {pre : List (Node A B)} {n : Node A B} (h : (ids (pre ++ (n :: mid ++ post))).Nodup) : some n.id ≠ headId post := by
  intro e
  cases post with
  | nil => cases e
  | cons m l =>
    simp only [headId, List.head?_cons, Option.map_some, Option.some.injEq] at e
    simp only [ids, List.map_append, List.map_cons, List.cons_append, List.nodup_append, List.nodup_cons] at h
    exact h.2.1.1 (by rw [e]; simp)

/-- A stretch of the container is visited by going from its first element to the element after it. -/
theorem visits_stretch {x : PMap A B} : ∀ (mid pre post : List (Node A B)) (a b : It), x.act.nodes = pre ++ (mid ++ post) → (ids x.act.nodes).Nodup →
    a.isMulti = x.isMulti → b.isMulti = x.isMulti → a.act = ⟨headId (mid ++ post), x.act.gen⟩ → b.act.pos = headId post →
    Visits x a b (mid.map fun n => (n.key, n.val))
  | [], pre, post, a, b, hn, hd, ha, hb, ea, eb => by
    refine .done a b ?_
    rw [ne_act (ha.trans hb.symm), ea, eb]; simp
  | n :: mid, pre, post, a, b, hn, hd, ha, hb, ea, eb => by
    have hd' := hd; rw [hn] at hd'
    have hnd : (ids (pre ++ n :: (mid ++ post))).Nodup := by simpa using hd'
    have hinc : x.act.incr a.act = some ⟨headId (mid ++ post), x.act.gen⟩ := by
      rw [ea]
      simp only [Seq.incr, headId, List.cons_append, List.head?_cons, Option.map_some, Option.bind_some, ne_eq, not_true_eq_false, if_false]
      rw [hn, List.cons_append, afterIn_split pre n (mid ++ post) hnd]; rfl
    obtain ⟨a', h1, h2, h3⟩ := incr_act ha hinc
    refine .next a b a' _ _ ?_ ?_ h1 (visits_stretch mid (pre ++ [n]) post a' b (by rw [hn]; simp) hd h2 hb h3 eb)
    · rw [ne_act (ha.trans hb.symm), ea, eb]
      simp only [decide_eq_true_eq]
      exact headId_ne (by simpa using hd')
    · rw [deref_act ha, ea]
      simp only [Seq.deref, headId, List.cons_append, List.head?_cons, Option.map_some, Option.bind_some, ne_eq, not_true_eq_false, if_false]
      rw [hn, List.cons_append, find_split pre n (mid ++ post) hnd]; rfl

/-- What every map of a program satisfies. -/
structure MI (good : List (Node A B) → Prop) (x : PMap A B) : Prop where
  nodup : (ids x.act.nodes).Nodup
  lt : ∀ n ∈ x.act.nodes, n.id < x.next
  ok : good x.act.nodes
  multi : x.isMulti = false → x.multi.nodes = []
  single : x.isMulti = true → x.single.nodes = []
  uniq : x.isMulti = false → (x.act.nodes.map (·.key)).Nodup

theorem MI.sub (S : Stl good) {x x' : PMap A B} (h : MI good x) (hm : x'.isMulti = x.isMulti) (hs : x'.act.nodes.Sublist x.act.nodes) (hn : x'.next = x.next)
    (h1 : x.isMulti = false → x'.multi.nodes = []) (h2 : x.isMulti = true → x'.single.nodes = []) : MI good x' :=
  ⟨(hs.map _).nodup h.nodup, fun n hm => hn ▸ h.lt n (hs.subset hm), S.good_sub _ _ hs h.ok, fun e => h1 (hm ▸ e), fun e => h2 (hm ▸ e),
    fun e => (hs.map _).nodup (h.uniq (hm ▸ e))⟩

/-- A new element. -/
theorem MI.put (S : Stl good) {x x' : PMap A B} {k : A} {v : B} (h : MI good x) (hm : x'.isMulti = x.isMulti) (hs : x'.act.nodes = S.ins x.act.nodes ⟨x.next, k, v⟩)
    (hn : x'.next = x.next + 1) (h1 : x.isMulti = false → x'.multi.nodes = []) (h2 : x.isMulti = true → x'.single.nodes = [])
    (hu : x.isMulti = false → ∀ n ∈ x.act.nodes, n.key ≠ k) : MI good x' := by
  have hp := S.perm x.act.nodes ⟨x.next, k, v⟩
  rw [← hs] at hp
  refine ⟨?_, ?_, hs ▸ S.good_ins _ _ h.ok, fun e => h1 (hm ▸ e), fun e => h2 (hm ▸ e), ?_⟩
  · refine (hp.map (·.id)).nodup_iff.mpr ?_
    simp only [List.map_cons, List.nodup_cons]
    refine ⟨fun hc => ?_, h.nodup⟩
    obtain ⟨n, hn, e⟩ := List.mem_map.1 hc
    exact absurd (h.lt n hn) (by omega)
  · intro n hc
    rw [hn]
    rcases List.mem_cons.1 (hp.subset hc) with e | e
    · rw [e]; exact Nat.lt_succ_self _
    · exact Nat.lt_succ_of_lt (h.lt n e)
  · intro e
    refine (hp.map (·.key)).nodup_iff.mpr ?_
    simp only [List.map_cons, List.nodup_cons]
    refine ⟨fun hc => ?_, h.uniq (hm ▸ e)⟩
    obtain ⟨n, hn, e'⟩ := List.mem_map.1 hc
    exact hu (hm ▸ e) n hn e'

theorem MI.init (S : Stl good) (b : Bool) : MI good (.empty b : PMap A B) := by
  cases b <;> exact ⟨by simp [PMap.act, PMap.empty, ids], by simp [PMap.act, PMap.empty], by simpa [PMap.act, PMap.empty] using S.good_nil, fun _ => rfl, fun _ => rfl, fun _ => by simp [PMap.act, PMap.empty]⟩

theorem MI.step (S : Stl good) {x x' : PMap A B} {op : MOp A B} (h : MI good x) (hs : x.step S op = some x') : MI good x' := by
  cases op with
  | emplace k v =>
    simp only [PMap.step, Option.some.injEq] at hs
    subst hs
    cases e : x.isMulti with
    | true =>
      refine h.put S ?_ (k := k) (v := v) ?_ ?_ ?_ ?_ ?_ <;> simp [PMap.emplace, e, PMap.act, Seq.put]
      exact h.single e
    | false =>
      cases hf : x.single.nodes.find? (·.key = k) with
      | some n => simp only [PMap.emplace, e, hf]; exact h
      | none =>
        refine h.put S ?_ (k := k) (v := v) ?_ ?_ ?_ ?_ ?_ <;> simp [PMap.emplace, e, PMap.act, Seq.put, hf]
        · exact h.multi e
        · intro n hn; have := List.find?_eq_none.1 hf n hn; simpa using this
  | eraseKey k =>
    simp only [PMap.step, Option.some.injEq] at hs
    subst hs
    cases e : x.isMulti with
    | true => refine h.sub S ?_ ?_ ?_ ?_ ?_ <;> simp [PMap.eraseKey, e, PMap.act, Seq.eraseKey]; exact h.single e
    | false => refine h.sub S ?_ ?_ ?_ ?_ ?_ <;> simp [PMap.eraseKey, e, PMap.act, Seq.eraseKey]; exact h.multi e
  | eraseAt a =>
    simp only [PMap.step, PMap.eraseAt, Option.map_eq_some_iff, Prod.exists] at hs
    obtain ⟨y, a', hs, rfl⟩ := hs
    cases e : x.isMulti with
    | true =>
      simp only [e, if_true, Option.map_eq_some_iff, Prod.exists, Prod.mk.injEq, Seq.eraseAt] at hs
      obtain ⟨c, p, hc, rfl, _⟩ := hs
      by_cases hg : a.m.gen ≠ x.multi.gen
      · rw [if_pos hg] at hc; cases hc
      · rw [if_neg hg] at hc
        simp only [Option.bind_eq_some_iff, Option.map_eq_some_iff, Prod.mk.injEq] at hc
        obtain ⟨i, _, j, _, rfl, _⟩ := hc
        refine h.sub S ?_ ?_ ?_ ?_ ?_ <;> simp [e, PMap.act]; exact h.single e
    | false =>
      simp only [e, Bool.false_eq_true, if_false, Option.map_eq_some_iff, Prod.exists, Prod.mk.injEq, Seq.eraseAt] at hs
      obtain ⟨c, p, hc, rfl, _⟩ := hs
      by_cases hg : a.s.gen ≠ x.single.gen
      · rw [if_pos hg] at hc; cases hc
      · rw [if_neg hg] at hc
        simp only [Option.bind_eq_some_iff, Option.map_eq_some_iff, Prod.mk.injEq] at hc
        obtain ⟨i, _, j, _, rfl, _⟩ := hc
        refine h.sub S ?_ ?_ ?_ ?_ ?_ <;> simp [e, PMap.act]; exact h.multi e
  | clear =>
    simp only [PMap.step, Option.some.injEq] at hs
    subst hs
    cases e : x.isMulti with
    | true => refine h.sub S ?_ ?_ ?_ ?_ ?_ <;> simp [PMap.clear, e, PMap.act]; exact h.single e
    | false => refine h.sub S ?_ ?_ ?_ ?_ ?_ <;> simp [PMap.clear, e, PMap.act]; exact h.multi e

theorem reach_mi (S : Stl good) {x : PMap A B} (h : PMap.Reach good x) : MI good x := by
  induction h with
  | init b => exact .init S b
  | step S x x' op _ hs ih => exact ih.step S hs


/-! ### The standard containers -/

theorem ordPut_perm : ∀ (l : List (Node A B)) (n : Node A B), (ordPut l n).Perm (n :: l)
  | [], n => .refl _
  | m :: l, n => by
    unfold ordPut
    by_cases h : n.key < m.key
    · rw [if_pos h]
    · rw [if_neg h]; exact ((ordPut_perm l n).cons m).trans (.swap n m l)

theorem ordPut_sorted : ∀ (l : List (Node A B)) (n : Node A B), Sorted l → Sorted (ordPut l n)
  | [], n, _ => by simp [ordPut, Sorted]
  | m :: l, n, h => by
    have h' := List.pairwise_cons.1 h
    unfold ordPut
    by_cases hk : n.key < m.key
    · rw [if_pos hk]
      refine List.pairwise_cons.2 ⟨fun b hb => ?_, h⟩
      rcases List.mem_cons.1 hb with e | e
      · rw [e]; exact le_of_lt hk
      · exact le_trans (le_of_lt hk) (h'.1 b e)
    · rw [if_neg hk]
      refine List.pairwise_cons.2 ⟨fun b hb => ?_, ordPut_sorted l n h'.2⟩
      rcases List.mem_cons.1 ((ordPut_perm l n).subset hb) with e | e
      · rw [e]; exact le_of_not_gt hk
      · exact h'.1 b e

/-- A sorted sequence splits at a key. -/
theorem sorted_split : ∀ (l : List (Node A B)), Sorted l → ∀ k : A, (∀ n ∈ l.dropWhile (fun n => decide (n.key < k)), k ≤ n.key) ∧
    ∀ n ∈ l.dropWhile (fun n => decide (n.key ≤ k)), k < n.key
  | [], _, _ => by simp
  | m :: l, h, k => by
    have h' := List.pairwise_cons.1 h
    have ih := sorted_split l h'.2 k
    constructor
    · rw [List.dropWhile_cons]
      by_cases hk : m.key < k
      · rw [if_pos (by simpa using hk)]; exact ih.1
      · rw [if_neg (by simpa using hk)]
        intro n hn
        rcases List.mem_cons.1 hn with e | e
        · rw [e]; exact le_of_not_gt hk
        · exact le_trans (le_of_not_gt hk) (h'.1 n e)
    · rw [List.dropWhile_cons]
      by_cases hk : m.key ≤ k
      · rw [if_pos (by simpa using hk)]; exact ih.2
      · rw [if_neg (by simpa using hk)]
        intro n hn
        rcases List.mem_cons.1 hn with e | e
        · rw [e]; exact lt_of_not_ge hk
        · exact lt_of_lt_of_le (lt_of_not_ge hk) (h'.1 n e)

/-- The parts of a sorted sequence below, at and above a key. -/
theorem sorted_parts (l : List (Node A B)) (h : Sorted l) (k : A) : ∃ pre mid post, l = pre ++ (mid ++ post) ∧ (∀ n ∈ pre, n.key < k) ∧ (∀ n ∈ mid, n.key = k) ∧
    (∀ n ∈ post, k < n.key) ∧ l.dropWhile (fun n => decide (n.key < k)) = mid ++ post ∧ l.dropWhile (fun n => decide (n.key ≤ k)) = post := by
  induction l with
  | nil => exact ⟨[], [], [], by simp⟩
  | cons m l ih =>
    have h' := List.pairwise_cons.1 h
    obtain ⟨pre, mid, post, e, h1, h2, h3, h4, h5⟩ := ih h'.2
    rcases lt_trichotomy m.key k with hk | hk | hk
    · refine ⟨m :: pre, mid, post, by simp [e], ?_, h2, h3, ?_, ?_⟩
      · intro n hn
        rcases List.mem_cons.1 hn with e | e
        · rw [e]; exact hk
        · exact h1 n e
      · rw [List.dropWhile_cons, if_pos (by simpa using hk)]; exact h4
      · rw [List.dropWhile_cons, if_pos (by simpa using le_of_lt hk)]; exact h5
    · have hp : pre = [] := by
        cases pre with
        | nil => rfl
        | cons n pre => exact absurd (h'.1 n (by rw [e]; simp)) (not_le_of_gt (by rw [hk]; exact h1 n (by simp)))
      subst hp
      refine ⟨[], m :: mid, post, by simp [e], by simp, ?_, h3, ?_, ?_⟩
      · intro n hn
        rcases List.mem_cons.1 hn with e | e
        · rw [e]; exact hk
        · exact h2 n e
      · rw [List.dropWhile_cons, if_neg (by simp [hk])]; simp [e]
      · rw [List.dropWhile_cons, if_pos (by simp [hk])]; exact h5
    · have hp : pre = [] := by
        cases pre with
        | nil => rfl
        | cons n pre => exact absurd (lt_of_lt_of_le hk (h'.1 n (by rw [e]; simp))) (not_lt_of_gt (h1 n (by simp)))
      have hm : mid = [] := by
        cases mid with
        | nil => rfl
        | cons n mid =>
          have := lt_of_lt_of_le hk (h'.1 n (by rw [e]; simp))
          rw [h2 n (by simp)] at this; exact absurd this (lt_irrefl _)
      subst hp hm
      refine ⟨[], [], m :: post, by simp [e], by simp, by simp, ?_, ?_, ?_⟩
      · intro n hn
        rcases List.mem_cons.1 hn with e | e
        · rw [e]; exact hk
        · exact h3 n e
      · rw [List.dropWhile_cons, if_neg (by simpa using le_of_lt hk)]; simp [e]
      · rw [List.dropWhile_cons, if_neg (by simpa using hk)]; simp [e]

/-- `std::map` and `std::multimap`: sorted by key, a new element goes behind those with the same key, iterators stay valid. `find` may return any of several
elements. -/
def ordStl (pick : Nat) : Stl (Sorted : List (Node A B) → Prop) where
  ins := ordPut
  moves := false
  eqr l k := (headId (l.dropWhile fun n => decide (n.key < k)), headId (l.dropWhile fun n => decide (n.key ≤ k)))
  pick := pick
  perm := ordPut_perm
  good_ins := ordPut_sorted
  good_sub _ _ hs h := h.sublist hs
  good_nil := List.Pairwise.nil
  eqr_spec l k h := by
    obtain ⟨pre, mid, post, e, h1, h2, h3, h4, h5⟩ := sorted_parts l h k
    exact ⟨pre, mid, post, e, h2, fun n hn => ne_of_lt (h1 n hn), fun n hn => ne_of_gt (h3 n hn), by rw [h4, h5]⟩

theorem Grouped.sub {l' l : List (Node A B)} (hs : l'.Sublist l) (h : Grouped l) : Grouped l' := by
  intro k
  obtain ⟨pre, mid, post, rfl, h1, h2, h3⟩ := h k
  obtain ⟨a, b, rfl, ha, hb⟩ := List.sublist_append_iff.1 hs
  obtain ⟨c, d, rfl, hc, hd⟩ := List.sublist_append_iff.1 hb
  exact ⟨a, c, d, rfl, fun n hn => h1 n (hc.subset hn), fun n hn => h2 n (ha.subset hn), fun n hn => h3 n (hd.subset hn)⟩

/-- `equal_range` of a hash container: the stretch with the key, the end twice if there is none. -/
def hashEqr (l : List (Node A B)) (k : A) : Option Nat × Option Nat :=
  let r := l.dropWhile fun n => decide (n.key ≠ k)
  (headId r, headId (r.dropWhile fun n => decide (n.key = k)))

theorem dropWhile_all {C : Type} (p : C → Bool) : ∀ (l m : List C), (∀ x ∈ l, p x = true) → (l ++ m).dropWhile p = m.dropWhile p
  | [], m, _ => rfl
  | x :: l, m, h => by
    rw [List.cons_append, List.dropWhile_cons, if_pos (h x (by simp))]
    exact dropWhile_all p l m fun y hy => h y (by simp [hy])

theorem dropWhile_none {C : Type} (p : C → Bool) (l : List C) (h : ∀ x ∈ l, p x = false) : l.dropWhile p = l := by
  cases l with
  | nil => rfl
  | cons x l => rw [List.dropWhile_cons, if_neg (by simp [h x (by simp)])]

theorem dropWhile_full {C : Type} (p : C → Bool) (l : List C) (h : ∀ x ∈ l, p x = true) : l.dropWhile p = [] := by
  have := dropWhile_all p l [] h
  simpa using this

/-- `std::unordered_map` and `std::unordered_multimap`: any order in which equal keys are adjacent, rearranged arbitrarily by an insertion, which may invalidate
iterators. -/
def hashStl (ins : List (Node A B) → Node A B → List (Node A B)) (pick : Nat) (perm : ∀ l n, (ins l n).Perm (n :: l)) (grouped : ∀ l n, Grouped l → Grouped (ins l n)) :
    Stl (Grouped : List (Node A B) → Prop) where
  ins := ins
  moves := true
  eqr := hashEqr
  pick := pick
  perm := perm
  good_ins := grouped
  good_sub _ _ hs h := h.sub hs
  good_nil k := ⟨[], [], [], by simp⟩
  eqr_spec l k h := by
    obtain ⟨pre, mid, post, rfl, h1, h2, h3⟩ := h k
    have e1 : (pre ++ (mid ++ post)).dropWhile (fun n => decide (n.key ≠ k)) = (mid ++ post).dropWhile (fun n => decide (n.key ≠ k)) :=
      dropWhile_all _ _ _ fun n hn => by simpa using h2 n hn
    cases mid with
    | nil =>
      have e2 : ([] ++ post).dropWhile (fun n : Node A B => decide (n.key ≠ k)) = [] := dropWhile_full _ _ fun n hn => by simpa using h3 n (by simpa using hn)
      refine ⟨pre ++ post, [], [], by simp, by simp, ?_, by simp, ?_⟩
      · intro n hn
        rcases List.mem_append.1 hn with e | e
        · exact h2 n e
        · exact h3 n e
      · simp only [hashEqr]; rw [e1, e2]; rfl
    | cons m mid =>
      have e2 : (m :: mid ++ post).dropWhile (fun n => decide (n.key ≠ k)) = m :: mid ++ post := by
        rw [List.cons_append, List.dropWhile_cons, if_neg (by simp [h1 m (by simp)])]
      have e3 : (m :: mid ++ post).dropWhile (fun n => decide (n.key = k)) = post := by
        rw [dropWhile_all _ (m :: mid) post fun n hn => by simpa using h1 n hn]
        exact dropWhile_none _ _ fun n hn => by simpa using h3 n hn
      refine ⟨pre, m :: mid, post, rfl, h1, h2, h3, ?_⟩
      simp only [hashEqr]; rw [e1, e2, e3]

/-- A hash container that puts a new element in front of those with the same key, in front of everything if there are none. -/
def demoIns : List (Node A B) → Node A B → List (Node A B) := fun l n => l.filter (fun m => decide (m.key ≠ n.key)) ++ n :: l.filter (fun m => decide (m.key = n.key))

theorem demoIns_perm (l : List (Node A B)) (n : Node A B) : (demoIns l n).Perm (n :: l) := by
  refine List.perm_middle.trans (List.Perm.cons n ?_)
  have := List.filter_append_perm (fun m : Node A B => decide (m.key ≠ n.key)) l
  simpa using this

theorem demoIns_grouped (l : List (Node A B)) (n : Node A B) (h : Grouped l) : Grouped (demoIns l n) := by
  intro k
  by_cases e : n.key = k
  · refine ⟨l.filter (fun m => decide (m.key ≠ n.key)), n :: l.filter (fun m => decide (m.key = n.key)), [], by simp [demoIns], ?_, ?_, by simp⟩
    · intro m hm
      rcases List.mem_cons.1 hm with x | x
      · rw [x]; exact e
      · have := (List.mem_filter.1 x).2; rw [← e]; simpa using this
    · intro m hm; have := (List.mem_filter.1 hm).2; rw [← e]; simpa using this
  · obtain ⟨a, b, c, hs, h1, h2, h3⟩ := (h.sub (List.filter_sublist (p := fun m => decide (m.key ≠ n.key)))) k
    refine ⟨a, b, c ++ n :: l.filter (fun m => decide (m.key = n.key)), by simp only [demoIns, hs, List.append_assoc], h1, h2, ?_⟩
    intro m hm
    rcases List.mem_append.1 hm with x | x
    · exact h3 m x
    · rcases List.mem_cons.1 x with x | x
      · rw [x]; exact e
      · have := (List.mem_filter.1 x).2
        have : m.key = n.key := by simpa using this
        rw [this]; exact e

/-- A concrete hash container. -/
def demoHash : Stl (Grouped : List (Node A B) → Prop) := hashStl demoIns 0 demoIns_perm demoIns_grouped


/-! ### C72 -/

theorem act_gen {x : PMap A B} : x.begin_.act = x.act.first ∧ x.end_.act = x.act.last ∧ x.begin_.isMulti = x.isMulti ∧ x.end_.isMulti = x.isMulti := by
  cases e : x.isMulti <;> simp [PMap.begin_, PMap.end_, It.act, PMap.act, e]

/-- A loop has one outcome. -/
theorem visits_unique {x : PMap A B} {a b : It} {l l' : List (A × B)} (h : Visits x a b l) (h' : Visits x a b l') : l = l' := by
  induction h generalizing l' with
  | done a b hn =>
    cases h' with
    | done => rfl
    | next _ _ _ _ _ hn' => rw [hn] at hn'; cases hn'
  | next a b a' e l hn hd hi _ ih =>
    cases h' with
    | done _ _ hn' => rw [hn] at hn'; cases hn'
    | next _ _ _ _ _ _ hd' hi' hv =>
      rw [hd] at hd'; cases hd'
      rw [hi] at hi'; cases hi'
      rw [ih hv]

/-- A loop over the whole map visits every entry exactly once, in the order of the container; a loop from `Rbegin` to `Rend` does so in the reverse order; `Size` is
the number of entries. -/
theorem C72_whole_map (S : Stl good) {x : PMap A B} (h : PMap.Reach good x) :
    Visits x x.begin_ x.end_ x.content ∧ Visits x.rev x.rbegin x.rend x.content.reverse ∧ x.size = x.content.length := by
  have hi := reach_mi S h
  obtain ⟨h1, h2, h3, h4⟩ := act_gen (x := x)
  refine ⟨visits_stretch x.act.nodes [] [] _ _ (by simp) hi.nodup h3 h4 (by rw [h1]; simp [Seq.first]) (by rw [h2]; rfl), ?_, ?_⟩
  · have e : x.rev.act = x.act.rev := by cases e : x.isMulti <;> simp [PMap.rev, PMap.act, e]
    have hr : x.content.reverse = x.act.nodes.reverse.map fun n => (n.key, n.val) := by simp [PMap.content]
    rw [hr]
    refine visits_stretch x.act.nodes.reverse [] [] _ _ (by simp [e, Seq.rev]) ?_ rfl rfl ?_ ?_
    · rw [e]; simp only [Seq.rev, ids, List.map_reverse]; exact (List.reverse_perm _).nodup_iff.mpr hi.nodup
    · cases e' : x.isMulti <;> simp [PMap.rbegin, It.act, PMap.rev, PMap.act, e', Seq.first, Seq.rev]
    · cases e' : x.isMulti <;> simp [PMap.rend, It.act, e', Seq.last, headId]
  · cases e : x.isMulti <;> simp [PMap.size, PMap.content, PMap.act, e]

/-- An ordered map keeps its entries sorted by key; a map that is not multi has every key at most once. -/
theorem C72_sorted_unique {x : PMap A B} (h : PMap.Reach Sorted x) : x.content.Pairwise (fun a b => a.1 ≤ b.1) ∧ (x.isMulti = false → (x.content.map (·.1)).Nodup) := by
  have hi := reach_mi (ordStl 0) h
  refine ⟨?_, fun e => ?_⟩
  · simp only [PMap.content, List.pairwise_map]; exact hi.ok
  · have := hi.uniq e; simpa [PMap.content, List.map_map, Function.comp_def] using this

theorem C72_unique_keys (S : Stl good) {x : PMap A B} (h : PMap.Reach good x) (e : x.isMulti = false) : (x.content.map (·.1)).Nodup := by
  have := (reach_mi S h).uniq e; simpa [PMap.content, List.map_map, Function.comp_def] using this

theorem filter_parts {C : Type} (p : C → Bool) {pre mid post : List C} (h1 : ∀ n ∈ pre, p n = false) (h2 : ∀ n ∈ mid, p n = true) (h3 : ∀ n ∈ post, p n = false) :
    (pre ++ (mid ++ post)).filter p = mid := by
  rw [List.filter_append, List.filter_append, List.filter_eq_nil_iff.2 (fun n hn => by simp [h1 n hn]), List.filter_eq_self.2 h2,
    List.filter_eq_nil_iff.2 (fun n hn => by simp [h3 n hn])]
  simp

/-- A loop over `EqualRange(k)` visits exactly the entries with key `k`. -/
theorem C72_equal_range (S : Stl good) {x : PMap A B} (h : PMap.Reach good x) (k : A) :
    Visits x (x.equalRange S k).1 (x.equalRange S k).2 (x.content.filter fun e => decide (e.1 = k)) := by
  have hi := reach_mi S h
  obtain ⟨pre, mid, post, e, h1, h2, h3, h4⟩ := S.eqr_spec x.act.nodes k hi.ok
  have hc : (x.content.filter fun e => decide (e.1 = k)) = mid.map fun n => (n.key, n.val) := by
    simp only [PMap.content, List.filter_map]
    rw [e, filter_parts _ (by simpa using h2) (by simpa using h1) (by simpa using h3)]
  rw [hc]
  refine visits_stretch mid pre post _ _ e hi.nodup ?_ ?_ ?_ ?_
  · cases e : x.isMulti <;> simp [PMap.equalRange, e]
  · cases e : x.isMulti <;> simp [PMap.equalRange, e]
  · cases e : x.isMulti <;> simp only [PMap.act, e] at h4 ⊢ <;> simp_all [PMap.equalRange, It.act]
  · cases e : x.isMulti <;> simp only [PMap.act, e] at h4 <;> simp_all [PMap.equalRange, It.act]

/-- `Find(k)` is the end exactly if no entry has the key, otherwise it is at an entry with the key. -/
theorem C72_find (S : Stl good) {x : PMap A B} (h : PMap.Reach good x) (k : A) :
    ((x.find S k).eq x.end_ = true ↔ ∀ e ∈ x.content, e.1 ≠ k) ∧
    ((x.find S k).eq x.end_ = false → ∃ v, x.deref (x.find S k) = some (k, v) ∧ (k, v) ∈ x.content) := by
  have hi := reach_mi S h
  have hm : (x.find S k).isMulti = x.isMulti := by cases e : x.isMulti <;> simp [PMap.find, e]
  have ha : (x.find S k).act = x.act.find S k := by cases e : x.isMulti <;> simp [PMap.find, e, It.act, PMap.act]
  have he : (x.find S k).eq x.end_ = decide ((x.act.find S k).pos = none) := by
    cases e : x.isMulti <;> simp [It.eq, PMap.find, e, PMap.act, PMap.end_, Seq.last]
  rw [he, deref_act hm, ha]
  generalize hl : x.act.nodes.filter (fun n => decide (n.key = k)) = l
  have hpos : (x.act.find S k) = ⟨(l[S.pick % l.length]?).map (·.id), x.act.gen⟩ := by simp only [Seq.find, hl]
  have hnil : l = [] ↔ ∀ e ∈ x.content, e.1 ≠ k := by rw [← hl, List.filter_eq_nil_iff]; simp [PMap.content]
  rw [hpos]
  cases hc : l with
  | nil => exact ⟨by rw [← hnil, hc]; simp, by simp⟩
  | cons m l' =>
    have hlt : S.pick % l.length < l.length := Nat.mod_lt _ (by rw [hc]; simp)
    have hg : l[S.pick % l.length]? = some l[S.pick % l.length] := List.getElem?_eq_getElem hlt
    rw [← hc, hg]
    have hne : l ≠ [] := by rw [hc]; simp
    refine ⟨by rw [← hnil]; simp [hne], fun _ => ?_⟩
    generalize hn : l[S.pick % l.length] = n
    have hmem : n ∈ x.act.nodes.filter (fun n => decide (n.key = k)) := by rw [hl, ← hn]; exact List.getElem_mem _
    obtain ⟨h1, h2⟩ := List.mem_filter.1 hmem
    have h2 : n.key = k := by simpa using h2
    obtain ⟨pre, post, e⟩ := List.append_of_mem h1
    refine ⟨n.val, ?_, ?_⟩
    · have hnd := hi.nodup; rw [e] at hnd
      simp only [Seq.deref, Option.map_some, Option.bind_some, ne_eq, not_true_eq_false, if_false]
      rw [e, find_split pre n post hnd, ← h2]; rfl
    · rw [← h2]; exact List.mem_map.2 ⟨n, h1, rfl⟩


theorem bound_act {x : PMap A B} (k : A) : (x.lowerBound k).act = x.act.lowerBound k ∧ (x.upperBound k).act = x.act.upperBound k ∧
    (x.lowerBound k).isMulti = x.isMulti ∧ (x.upperBound k).isMulti = x.isMulti := by
  cases e : x.isMulti <;> simp [PMap.lowerBound, PMap.upperBound, It.act, PMap.act, e]

/-- Loops that start or end at a bound of an ordered map visit exactly the entries on the right side of the bound, in order. -/
theorem C72_bounds {x : PMap A B} (h : PMap.Reach Sorted x) (k : A) :
    Visits x (x.lowerBound k) x.end_ (x.content.filter fun e => decide (k ≤ e.1)) ∧
    Visits x (x.upperBound k) x.end_ (x.content.filter fun e => decide (k < e.1)) ∧
    Visits x x.begin_ (x.lowerBound k) (x.content.filter fun e => decide (e.1 < k)) ∧
    Visits x x.begin_ (x.upperBound k) (x.content.filter fun e => decide (e.1 ≤ k)) := by
  have hi := reach_mi (ordStl 0) h
  obtain ⟨pre, mid, post, e, h1, h2, h3, h4, h5⟩ := sorted_parts x.act.nodes hi.ok k
  obtain ⟨b1, b2, b3, b4⟩ := act_gen (x := x)
  obtain ⟨l1, l2, l3, l4⟩ := bound_act (x := x) k
  have hf : ∀ p : A → Bool, (x.content.filter fun e => p e.1) = ((pre ++ (mid ++ post)).filter fun n => p n.key).map fun n => (n.key, n.val) := by
    intro p; simp only [PMap.content, List.filter_map, e]; rfl
  have f1 : ∀ n ∈ pre, n.key < k := h1
  refine ⟨?_, ?_, ?_, ?_⟩
  · rw [hf (fun a => decide (k ≤ a)), show pre ++ (mid ++ post) = pre ++ ((mid ++ post) ++ []) by simp, filter_parts _ (by simpa using h1) _ (by simp)]
    · refine visits_stretch (mid ++ post) pre [] _ _ (by simp [e]) hi.nodup l3 b4 ?_ (by rw [b2]; rfl)
      rw [l1, Seq.lowerBound, h4]; simp
    · intro n hn
      rcases List.mem_append.1 hn with hn | hn
      · simpa using le_of_eq (h2 n hn).symm
      · simpa using le_of_lt (h3 n hn)
  · rw [hf (fun a => decide (k < a)), show pre ++ (mid ++ post) = (pre ++ mid) ++ (post ++ []) by simp, filter_parts _ _ (by simpa using h3) (by simp)]
    · refine visits_stretch post (pre ++ mid) [] _ _ (by simp [e]) hi.nodup l4 b4 ?_ (by rw [b2]; rfl)
      rw [l2, Seq.upperBound, h5]; simp
    · intro n hn
      rcases List.mem_append.1 hn with hn | hn
      · simpa using le_of_lt (h1 n hn)
      · simpa using le_of_eq (h2 n hn)
  · rw [hf (fun a => decide (a < k)), show pre ++ (mid ++ post) = [] ++ (pre ++ (mid ++ post)) by simp, filter_parts _ (by simp) (by simpa using h1) _]
    · refine visits_stretch pre [] (mid ++ post) _ _ (by simp [e]) hi.nodup b3 l3 ?_ ?_
      · rw [b1, Seq.first, e]
      · rw [l1, Seq.lowerBound, h4]
    · intro n hn
      rcases List.mem_append.1 hn with hn | hn
      · simpa using le_of_eq (h2 n hn).symm
      · simpa using le_of_lt (h3 n hn)
  · rw [hf (fun a => decide (a ≤ k)), show pre ++ (mid ++ post) = [] ++ ((pre ++ mid) ++ post) by simp, filter_parts _ (by simp) _ (by simpa using h3)]
    · refine visits_stretch (pre ++ mid) [] post _ _ (by simp [e]) hi.nodup b3 l4 ?_ ?_
      · rw [b1, Seq.first, e]; simp
      · rw [l2, Seq.upperBound, h5]
    · intro n hn
      rcases List.mem_append.1 hn with hn | hn
      · simpa using le_of_lt (h1 n hn)
      · simpa using le_of_eq (h2 n hn)

/-- `Emplace(k, v)`: a multi map gets the entry and answers true; a map with unique keys gets it and answers true exactly if no entry has the key. The returned iterator
is at the entry with the key that is in the map now: the new one, or the one that was in the way, and then nothing has changed. -/
theorem C72_emplace (S : Stl good) {x : PMap A B} (h : PMap.Reach good x) (k : A) (v : B) :
    ((x.emplace S k v).2.2 = true ↔ x.isMulti = true ∨ ∀ e ∈ x.content, e.1 ≠ k) ∧
    ((x.emplace S k v).2.2 = true → (x.emplace S k v).1.content.Perm ((k, v) :: x.content) ∧ (x.emplace S k v).1.deref (x.emplace S k v).2.1 = some (k, v)) ∧
    ((x.emplace S k v).2.2 = false → (x.emplace S k v).1 = x ∧ ∃ v', x.deref (x.emplace S k v).2.1 = some (k, v') ∧ (k, v') ∈ x.content) := by
  have hi := reach_mi S h
  have hi' : MI good (x.emplace S k v).1 := hi.step S (op := .emplace k v) rfl
  have hnew : ∀ y : PMap A B, MI good y → ∀ a : It, a.isMulti = y.isMulti → a.act = ⟨some x.next, y.act.gen⟩ → y.act.nodes = S.ins x.act.nodes ⟨x.next, k, v⟩ →
      y.content.Perm ((k, v) :: x.content) ∧ y.deref a = some (k, v) := by
    intro y hy a ha hp hn
    have hperm := S.perm x.act.nodes ⟨x.next, k, v⟩
    rw [← hn] at hperm
    refine ⟨by simpa [PMap.content] using hperm.map fun n => (n.key, n.val), ?_⟩
    obtain ⟨pre, post, e⟩ := List.append_of_mem (hperm.symm.subset (List.mem_cons_self))
    have hnd := hy.nodup; rw [e] at hnd
    rw [deref_act ha, hp]
    simp only [Seq.deref, Option.bind_some, ne_eq, not_true_eq_false, if_false]
    have := find_split pre ⟨x.next, k, v⟩ post hnd
    rw [e]
    rw [show (fun n : Node A B => decide (n.id = x.next)) = (fun m => decide (m.id = (⟨x.next, k, v⟩ : Node A B).id)) from rfl, this]; rfl
  cases e : x.isMulti with
  | true =>
    have h3 : (x.emplace S k v).2.2 = true := by simp [PMap.emplace, e]
    refine ⟨by simp [h3], fun _ => ?_, fun hc => by rw [h3] at hc; cases hc⟩
    refine hnew _ hi' _ ?_ ?_ ?_ <;> simp [PMap.emplace, e, It.act, PMap.act, Seq.put]
  | false =>
    have hc : ∀ p : A → Prop, (∀ e ∈ x.content, p e.1) ↔ ∀ n ∈ x.single.nodes, p n.key := by intro p; simp [PMap.content, PMap.act, e]
    cases hf : x.single.nodes.find? (·.key = k) with
    | some n =>
      have h3 : (x.emplace S k v).2.2 = false := by simp [PMap.emplace, e, hf]
      have hk : n.key = k := by simpa using List.find?_some hf
      have hm := List.mem_of_find?_eq_some hf
      refine ⟨?_, fun hc => (by rw [h3] at hc; cases hc), fun _ => ⟨by simp [PMap.emplace, e, hf], n.val, ?_, ?_⟩⟩
      · rw [h3, hc (fun a => a ≠ k)]; simp; exact ⟨n, hm, hk⟩
      · obtain ⟨pre, post, e'⟩ := List.append_of_mem hm
        have hnd := hi.nodup
        simp only [PMap.act, e, Bool.false_eq_true, if_false, e'] at hnd
        simp only [PMap.emplace, e, hf, Bool.false_eq_true, if_false, PMap.deref, Seq.deref, Option.bind_some, ne_eq, not_true_eq_false]
        rw [e', find_split pre n post hnd, ← hk]; rfl
      · simp only [PMap.content, PMap.act, e]
        exact List.mem_map.2 ⟨n, hm, by rw [hk]⟩
    | none =>
      have h3 : (x.emplace S k v).2.2 = true := by simp [PMap.emplace, e, hf]
      refine ⟨?_, fun _ => ?_, fun hc => by rw [h3] at hc; cases hc⟩
      · rw [h3, hc (fun a => a ≠ k)]; simp; intro n hn; have := List.find?_eq_none.1 hf n hn; simpa using this
      · refine hnew _ hi' _ ?_ ?_ ?_ <;> simp [PMap.emplace, e, It.act, PMap.act, Seq.put, hf]

/-- `Erase(k)` removes exactly the entries with the key and answers how many. `Clear` removes all. -/
theorem C72_erase_key (x : PMap A B) (k : A) :
    (x.eraseKey k).1.content = x.content.filter (fun e => decide (e.1 ≠ k)) ∧ (x.eraseKey k).2 = (x.content.filter fun e => decide (e.1 = k)).length ∧
    x.clear.content = [] := by
  cases e : x.isMulti <;> simp [PMap.eraseKey, PMap.content, PMap.act, e, Seq.eraseKey, List.filter_map, Function.comp_def, PMap.clear]

/-- An iterator of this map, at an entry. -/
def PMap.valid (x : PMap A B) (a : It) : Prop := a.isMulti = x.isMulti ∧ (x.deref a).isSome

theorem valid_split {x : PMap A B} {a : It} (h : x.valid a) : ∃ pre n post, x.act.nodes = pre ++ n :: post ∧ a.act = ⟨some n.id, x.act.gen⟩ ∧ x.deref a = some (n.key, n.val) := by
  obtain ⟨hm, hd⟩ := h
  rw [deref_act hm] at hd ⊢
  have hg : a.act.gen = x.act.gen := by
    by_contra hc
    simp [Seq.deref, hc] at hd
  simp only [Seq.deref, hg, ne_eq, not_true_eq_false, if_false] at hd ⊢
  cases hp : a.act.pos with
  | none => rw [hp] at hd; cases hd
  | some i =>
    rw [hp] at hd
    simp only [Option.bind_some, Option.isSome_map] at hd ⊢
    obtain ⟨n, hn⟩ := Option.isSome_iff_exists.1 hd
    have hid : n.id = i := by simpa using List.find?_some hn
    obtain ⟨pre, post, e⟩ := List.append_of_mem (List.mem_of_find?_eq_some hn)
    refine ⟨pre, n, post, e, ?_, by rw [hn]; rfl⟩
    rw [hid, ← hg, ← hp]

theorem filter_ids {pre : List (Node A B)} {n : Node A B} {post : List (Node A B)} (h : (ids (pre ++ n :: post)).Nodup) :
    (pre ++ n :: post).filter (fun m => decide (m.id ≠ n.id)) = pre ++ post := by
  simp only [ids, List.map_append, List.map_cons, List.nodup_append, List.nodup_cons] at h
  rw [List.filter_append, List.filter_cons, if_neg (by simp)]
  congr 1
  · refine List.filter_eq_self.2 fun m hm => ?_
    have := h.2.2 m.id (List.mem_map.2 ⟨m, hm, rfl⟩) n.id (by simp)
    simpa using this
  · refine List.filter_eq_self.2 fun m hm => ?_
    have : m.id ≠ n.id := fun e => h.2.1.1 (e ▸ List.mem_map.2 ⟨m, hm, rfl⟩)
    simpa using this

/-- `Erase(it)` with an iterator at an entry removes that entry only, and returns the iterator from which the loop goes on with the entries behind it. -/
theorem C72_erase_at (S : Stl good) {x : PMap A B} (h : PMap.Reach good x) {a : It} (ha : x.valid a) :
    ∃ l1 e l2 x' a', x.deref a = some e ∧ Visits x x.begin_ a l1 ∧ x.content = l1 ++ e :: l2 ∧ x.eraseAt a = some (x', a') ∧ x'.content = l1 ++ l2 ∧
      Visits x' a' x'.end_ l2 := by
  have hi := reach_mi S h
  obtain ⟨pre, n, post, e, hp, hd⟩ := valid_split ha
  have hnd := hi.nodup; rw [e] at hnd
  obtain ⟨b1, b2, b3, b4⟩ := act_gen (x := x)
  have hs : x.act.eraseAt a.act = some (⟨pre ++ post, x.act.gen⟩, ⟨headId post, x.act.gen⟩) := by
    simp only [Seq.eraseAt, hp, ne_eq, not_true_eq_false, if_false, Option.bind_some]
    rw [e, afterIn_split pre n post hnd, filter_ids hnd]; rfl
  have hex : ∃ x' a', x.eraseAt a = some (x', a') ∧ x'.act = ⟨pre ++ post, x.act.gen⟩ ∧ x'.isMulti = x.isMulti ∧ a'.isMulti = x.isMulti ∧ a'.act = ⟨headId post, x.act.gen⟩ := by
    cases hm : x.isMulti with
    | true =>
      have hs' : x.multi.eraseAt a.m = some (⟨pre ++ post, x.act.gen⟩, ⟨headId post, x.act.gen⟩) := by
        have := hs; rw [PMap.act, It.act, ha.1, hm, if_pos rfl, if_pos rfl] at this; rw [PMap.act, hm, if_pos rfl]; exact this
      exact ⟨{ x with multi := ⟨pre ++ post, x.act.gen⟩ }, ⟨true, ⟨headId post, x.act.gen⟩, x.single.last⟩, by simp [PMap.eraseAt, hm, hs'], by simp [PMap.act, hm], hm, rfl, rfl⟩
    | false =>
      have hs' : x.single.eraseAt a.s = some (⟨pre ++ post, x.act.gen⟩, ⟨headId post, x.act.gen⟩) := by
        have := hs; rw [PMap.act, It.act, ha.1, hm, if_neg (by simp), if_neg (by simp)] at this; rw [PMap.act, hm, if_neg (by simp)]; exact this
      exact ⟨{ x with single := ⟨pre ++ post, x.act.gen⟩ }, ⟨false, x.multi.last, ⟨headId post, x.act.gen⟩⟩, by simp [PMap.eraseAt, hm, hs'], by simp [PMap.act, hm], hm, rfl, rfl⟩
  obtain ⟨x', a', h1, h2, h3, h4, h5⟩ := hex
  have hi' : MI good x' := hi.step S (op := .eraseAt a) (by simp [PMap.step, h1])
  obtain ⟨c1, c2, c3, c4⟩ := act_gen (x := x')
  refine ⟨pre.map fun n => (n.key, n.val), (n.key, n.val), post.map fun n => (n.key, n.val), x', a', hd, ?_, ?_, h1, ?_, ?_⟩
  · refine visits_stretch pre [] (n :: post) _ _ (by simpa using e) hi.nodup b3 ha.1 ?_ ?_
    · rw [b1, Seq.first, e]
    · rw [hp]; rfl
  · simp [PMap.content, e]
  · simp [PMap.content, h2]
  · refine visits_stretch post pre [] _ _ (by simp [h2]) hi'.nodup (h4.trans h3.symm) c4 ?_ ?_
    · rw [h5, h2]; simp
    · rw [c2]; rfl


/-- The operation does not remove the entry at the iterator, and does not insert into a container whose insertions may invalidate iterators. -/
def MOp.spares (S : Stl good) (x : PMap A B) (a : It) : MOp A B → Prop
  | .emplace _ _ => S.moves = false
  | .eraseKey k => ∀ e, x.deref a = some e → e.1 ≠ k
  | .eraseAt b => b.isMulti = x.isMulti ∧ a.ne b = true
  | .clear => False

theorem deref_of {y : PMap A B} {a : It} {n : Node A B} (hm : a.isMulti = y.isMulti) (hnd : (ids y.act.nodes).Nodup) (hmem : n ∈ y.act.nodes) (ha : a.act = ⟨some n.id, y.act.gen⟩) :
    y.deref a = some (n.key, n.val) := by
  obtain ⟨pre, post, e⟩ := List.append_of_mem hmem
  rw [e] at hnd
  rw [deref_act hm, ha]
  simp only [Seq.deref, Option.bind_some, ne_eq, not_true_eq_false, if_false]
  rw [e, find_split pre n post hnd]; rfl

/-- An iterator stays valid and at its entry as long as the entry is not removed (and, for hash maps, nothing is inserted). -/
theorem C72_iterators_stay (S : Stl good) {x x' : PMap A B} (h : PMap.Reach good x) {a : It} (ha : x.valid a) {op : MOp A B} (hs : x.step S op = some x') (hop : op.spares S x a) :
    x'.valid a ∧ x'.deref a = x.deref a := by
  have hi := reach_mi S h
  have hi' := hi.step S hs
  obtain ⟨pre, n, post, e, hp, hd⟩ := valid_split ha
  have hn : n ∈ x.act.nodes := by rw [e]; simp
  suffices H : x'.isMulti = x.isMulti ∧ n ∈ x'.act.nodes ∧ x'.act.gen = x.act.gen by
    have := deref_of (y := x') (a := a) (ha.1.trans H.1.symm) hi'.nodup H.2.1 (by rw [hp, H.2.2])
    exact ⟨⟨ha.1.trans H.1.symm, by rw [this]; rfl⟩, by rw [this, hd]⟩
  cases op with
  | emplace k v =>
    have hop : S.moves = false := hop
    simp only [PMap.step, Option.some.injEq] at hs
    subst hs
    cases hm : x.isMulti with
    | true =>
      refine ⟨by simp [PMap.emplace, hm], ?_, by simp [PMap.emplace, hm, PMap.act, Seq.put, hop]⟩
      simp only [PMap.emplace, hm, if_true, PMap.act, Seq.put] at hn ⊢
      exact (S.perm _ _).symm.subset (List.mem_cons_of_mem _ hn)
    | false =>
      cases hf : x.single.nodes.find? (·.key = k) with
      | some m =>
        have hx : (x.emplace S k v).1 = x := by simp [PMap.emplace, hm, hf]
        rw [hx]; exact ⟨hm, hn, rfl⟩
      | none =>
        refine ⟨by simp [PMap.emplace, hm, hf], ?_, by simp [PMap.emplace, hm, hf, PMap.act, Seq.put, hop]⟩
        simp only [PMap.emplace, hm, hf, Bool.false_eq_true, if_false, PMap.act, Seq.put] at hn ⊢
        exact (S.perm _ _).symm.subset (List.mem_cons_of_mem _ hn)
  | eraseKey k =>
    have hk : n.key ≠ k := hop _ hd
    simp only [PMap.step, Option.some.injEq] at hs
    subst hs
    cases hm : x.isMulti <;> simp_all [PMap.eraseKey, PMap.act, Seq.eraseKey]
  | eraseAt b =>
    obtain ⟨hb, hne⟩ := hop
    rw [ne_act (ha.1.trans hb.symm)] at hne
    simp only [decide_eq_true_eq] at hne
    simp only [PMap.step, PMap.eraseAt, Option.map_eq_some_iff, Prod.exists] at hs
    obtain ⟨y, a', hs, rfl⟩ := hs
    cases hm : x.isMulti with
    | true =>
      simp only [hm, if_true, Option.map_eq_some_iff, Prod.exists, Prod.mk.injEq, Seq.eraseAt] at hs
      obtain ⟨c, p, hc, rfl, _⟩ := hs
      by_cases hg : b.m.gen ≠ x.multi.gen
      · rw [if_pos hg] at hc; cases hc
      · rw [if_neg hg] at hc
        simp only [Option.bind_eq_some_iff, Option.map_eq_some_iff, Prod.mk.injEq] at hc
        obtain ⟨i, hi1, j, _, rfl, _⟩ := hc
        refine ⟨by simp [hm], ?_, by simp [hm, PMap.act]⟩
        simp only [PMap.act, hm, if_true] at hn ⊢
        refine List.mem_filter.2 ⟨hn, ?_⟩
        rw [hp, It.act, hb, hm, if_pos rfl, hi1] at hne
        simpa using hne
    | false =>
      simp only [hm, Bool.false_eq_true, if_false, Option.map_eq_some_iff, Prod.exists, Prod.mk.injEq, Seq.eraseAt] at hs
      obtain ⟨c, p, hc, rfl, _⟩ := hs
      by_cases hg : b.s.gen ≠ x.single.gen
      · rw [if_pos hg] at hc; cases hc
      · rw [if_neg hg] at hc
        simp only [Option.bind_eq_some_iff, Option.map_eq_some_iff, Prod.mk.injEq] at hc
        obtain ⟨i, hi1, j, _, rfl, _⟩ := hc
        refine ⟨by simp [hm], ?_, by simp [hm, PMap.act]⟩
        simp only [PMap.act, hm, Bool.false_eq_true, if_false] at hn ⊢
        refine List.mem_filter.2 ⟨hn, ?_⟩
        rw [hp, It.act, hb, hm, if_neg (by simp), hi1] at hne
        simpa using hne
  | clear => exact hop.elim

/-- `--` undoes `++`. -/
theorem C72_decrement (S : Stl good) {x : PMap A B} (h : PMap.Reach good x) {a a' : It} (hm : a.isMulti = x.isMulti) (hs : x.incr a = some a') : x.decr a' = some a := by
  have hi := reach_mi S h
  have key : ∀ (s : Seq A B) (p q : Ptr), (ids s.nodes).Nodup → s.incr p = some q → s.decr q = some p := by
    intro s p q hnd hq
    unfold Seq.incr at hq
    by_cases hg : p.gen ≠ s.gen
    · rw [if_pos hg] at hq; cases hq
    · rw [if_neg hg] at hq
      simp only [Option.bind_eq_some_iff, Option.map_eq_some_iff] at hq
      obtain ⟨i, hp, j, hj, rfl⟩ := hq
      have hspl : ∀ (l : List (Node A B)), afterIn l i = some j → ∃ pre n post, l = pre ++ n :: post ∧ n.id = i ∧ headId post = j := by
        intro l
        induction l with
        | nil => intro hc; cases hc
        | cons m l ih =>
          intro hc
          unfold afterIn at hc
          by_cases e : m.id = i
          · rw [if_pos e] at hc; cases hc; exact ⟨[], m, l, rfl, e, rfl⟩
          · rw [if_neg e] at hc
            obtain ⟨pre, n, post, e1, e2, e3⟩ := ih hc
            exact ⟨m :: pre, n, post, by simp [e1], e2, e3⟩
      obtain ⟨pre, n, post, e1, e2, e3⟩ := hspl _ hj
      have hpe : p = ⟨some i, s.gen⟩ := by
        have hg' : p.gen = s.gen := by simpa using hg
        rw [← hp, ← hg']
      cases post with
      | nil =>
        have : j = none := e3.symm
        subst this
        simp only [Seq.decr, ne_eq, not_true_eq_false, if_false, e1]
        simp [headId, e2, hpe]
      | cons m l =>
        have : j = some m.id := e3.symm
        subst this
        simp only [Seq.decr, ne_eq, not_true_eq_false, if_false, e1]
        have hr : (pre ++ n :: m :: l).reverse = l.reverse ++ m :: (n :: pre.reverse) := by simp
        rw [hr, afterIn_split]
        · simp [headId, e2, hpe]
        · rw [← hr, ids, List.map_reverse]
          rw [e1] at hnd
          exact (List.reverse_perm _).nodup_iff.mpr hnd
  cases e : x.isMulti with
  | true =>
    simp only [PMap.incr, hm, e, if_true, Option.map_eq_some_iff] at hs
    obtain ⟨p, hp, rfl⟩ := hs
    have hn := hi.nodup; simp only [PMap.act, e, if_true] at hn
    simp only [PMap.decr, hm, e, if_true, key _ _ _ hn hp, Option.map_some]
    cases a; simp_all
  | false =>
    simp only [PMap.incr, hm, e, Bool.false_eq_true, if_false, Option.map_eq_some_iff] at hs
    obtain ⟨p, hp, rfl⟩ := hs
    have hn := hi.nodup; simp only [PMap.act, e, Bool.false_eq_true, if_false] at hn
    simp only [PMap.decr, hm, e, Bool.false_eq_true, if_false, key _ _ _ hn hp, Option.map_some]
    cases a; simp_all

/-! ### Concrete maps -/

theorem run_reach {x : PMap A B} (h : PMap.Reach good x) (S : Stl good) (op : MOp A B) {x' : PMap A B} (hs : x.step S op = some x') : PMap.Reach good x' := .step S x x' op h hs

/-- A multi map with entries 2, 1, 2, 3 inserted in this order. -/
def demoMulti : PMap Nat Char := ((((PMap.empty true).emplace (ordStl 0) 2 'a').1.emplace (ordStl 0) 1 'b').1.emplace (ordStl 0) 2 'c').1
theorem demoMulti_reach : PMap.Reach Sorted demoMulti := run_reach (run_reach (run_reach (.init true) (ordStl 0) (.emplace 2 'a') rfl) (ordStl 0) (.emplace 1 'b') rfl) (ordStl 0) (.emplace 2 'c') rfl
example : demoMulti.content = [(1, 'b'), (2, 'a'), (2, 'c')] ∧ (demoMulti.content.filter fun e => decide (e.1 = 2)) = [(2, 'a'), (2, 'c')] := by decide
example : demoMulti.valid (demoMulti.find (ordStl 1) 2) ∧ demoMulti.deref (demoMulti.find (ordStl 1) 2) = some (2, 'c') := ⟨⟨rfl, rfl⟩, rfl⟩
example : ((demoMulti.eraseAt (demoMulti.find (ordStl 0) 2)).map fun r => r.1.content) = some [(1, 'b'), (2, 'c')] := rfl
/-- A hash map with unique keys refuses the second entry. -/
def demoSingle : PMap Nat Char := ((PMap.empty false).emplace demoHash 2 'a').1
theorem demoSingle_reach : PMap.Reach Grouped demoSingle := run_reach (.init false) demoHash (.emplace 2 'a') rfl
example : (demoSingle.emplace demoHash 2 'b').2.2 = false ∧ (demoSingle.emplace demoHash 3 'b').2.2 = true := by decide

end MVault.Mp
