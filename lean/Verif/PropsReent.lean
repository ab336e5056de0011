import Verif.ReentModel
import Verif.PropsIndex
/-
C93: SortBy whose function changes the vault.
-/
set_option linter.unusedSectionVars false
set_option linter.unusedSimpArgs false
set_option linter.unusedVariables false
namespace MVault.Rn
open MVault.Mp MVault.Ix
variable {V : Type} [LinearOrder V]

/-! ### Lemmas -/

theorem Changes.reach {x y : PMap V Nat} (h : Changes x y) (hx : PMap.Reach Sorted x) : PMap.Reach Sorted y := by
  induction h with
  | refl => exact hx
  | step y z op _ hs ih => exact .step (ordStl 0) _ _ op ih hs

theorem Changes.trans {x y z : PMap V Nat} (h : Changes x y) (h' : Changes y z) : Changes x z := by
  induction h' with
  | refl => exact h
  | step y' z' op h1 hs ih => exact .step _ _ _ _ ih hs

theorem ordPut_filter (b : Nat) (n : Node V Nat) (hn : b ≤ n.id) : ∀ l : List (Node V Nat), (ordPut l n).filter (fun m => decide (m.id < b)) = l.filter (fun m => decide (m.id < b))
  | [] => by simp [ordPut]; omega
  | m :: l => by
    unfold ordPut
    split
    · rw [List.filter_cons, if_neg (by simp; omega)]
    · rw [List.filter_cons, List.filter_cons, ordPut_filter b n hn l]

/-- One operation: the elements that stay keep their order. -/
theorem step_old {x y : PMap V Nat} {op : MOp V Nat} (hs : x.step (ordStl 0) op = some y) :
    y.isMulti = x.isMulti ∧ y.act.gen = x.act.gen ∧ x.next ≤ y.next ∧ ∀ b ≤ x.next, (y.act.nodes.filter fun m => decide (m.id < b)).Sublist (x.act.nodes.filter fun m => decide (m.id < b)) := by
  cases op with
  | emplace k v =>
    simp only [PMap.step, Option.some.injEq] at hs
    subst hs
    cases hm : x.isMulti with
    | true =>
      simp only [PMap.emplace, hm, if_true, PMap.act, Seq.put, ordStl]
      exact ⟨by simp, by simp, by omega, fun b hb => by rw [ordPut_filter b _ hb]⟩
    | false =>
      cases hf : x.single.nodes.find? (·.key = k) with
      | some m =>
        have hx : (x.emplace (ordStl 0) k v).1 = x := by simp [PMap.emplace, hm, hf]
        rw [hx]; exact ⟨hm, rfl, le_refl _, fun b _ => .refl _⟩
      | none =>
        simp only [PMap.emplace, hm, hf, Bool.false_eq_true, if_false, PMap.act, Seq.put, ordStl]
        exact ⟨by simp, by simp, by omega, fun b hb => by rw [ordPut_filter b _ hb]⟩
  | eraseKey k =>
    simp only [PMap.step, Option.some.injEq] at hs
    subst hs
    cases hm : x.isMulti <;> simp only [PMap.eraseKey, hm, Bool.false_eq_true, if_false, if_true, PMap.act, Seq.eraseKey]
    all_goals exact ⟨by trivial, by trivial, le_refl _, fun b _ => List.Sublist.filter _ List.filter_sublist⟩
  | eraseAt a =>
    simp only [PMap.step, PMap.eraseAt, Option.map_eq_some_iff, Prod.exists] at hs
    obtain ⟨y', a', hs, rfl⟩ := hs
    cases hm : x.isMulti with
    | true =>
      simp only [hm, if_true, Option.map_eq_some_iff, Prod.exists, Prod.mk.injEq, Seq.eraseAt] at hs
      obtain ⟨c, p, hc, rfl, _⟩ := hs
      by_cases hg : a.m.gen ≠ x.multi.gen
      · rw [if_pos hg] at hc; cases hc
      · rw [if_neg hg] at hc
        simp only [Option.bind_eq_some_iff, Option.map_eq_some_iff, Prod.mk.injEq] at hc
        obtain ⟨i, hi1, j, _, rfl, _⟩ := hc
        simp only [PMap.act, hm, if_true]
        exact ⟨by trivial, by trivial, le_refl _, fun b _ => List.Sublist.filter _ List.filter_sublist⟩
    | false =>
      simp only [hm, Bool.false_eq_true, if_false, Option.map_eq_some_iff, Prod.exists, Prod.mk.injEq, Seq.eraseAt] at hs
      obtain ⟨c, p, hc, rfl, _⟩ := hs
      by_cases hg : a.s.gen ≠ x.single.gen
      · rw [if_pos hg] at hc; cases hc
      · rw [if_neg hg] at hc
        simp only [Option.bind_eq_some_iff, Option.map_eq_some_iff, Prod.mk.injEq] at hc
        obtain ⟨i, hi1, j, _, rfl, _⟩ := hc
        simp only [PMap.act, hm, Bool.false_eq_true, if_false]
        exact ⟨by trivial, by trivial, le_refl _, fun b _ => List.Sublist.filter _ List.filter_sublist⟩
  | clear =>
    simp only [PMap.step, Option.some.injEq] at hs
    subst hs
    cases hm : x.isMulti <;> simp only [PMap.clear, hm, Bool.false_eq_true, if_false, if_true, PMap.act]
    all_goals exact ⟨by trivial, by trivial, le_refl _, fun b _ => by simp⟩

theorem Changes.old {x y : PMap V Nat} (h : Changes x y) :
    y.isMulti = x.isMulti ∧ y.act.gen = x.act.gen ∧ x.next ≤ y.next ∧ ∀ b ≤ x.next, (y.act.nodes.filter fun m => decide (m.id < b)).Sublist (x.act.nodes.filter fun m => decide (m.id < b)) := by
  induction h with
  | refl => exact ⟨rfl, rfl, le_refl _, fun b _ => .refl _⟩
  | step y z op _ hs ih =>
    obtain ⟨a1, a2, a3, a4⟩ := ih
    obtain ⟨b1, b2, b3, b4⟩ := step_old hs
    exact ⟨b1.trans a1, b2.trans a2, a3.trans b3, fun b hb => (b4 b (hb.trans a3)).trans (a4 b hb)⟩

/-- Elements of the changed map with an old address are old elements, in the old order. -/
theorem Changes.sub {x y : PMap V Nat} (h : Changes x y) : (y.act.nodes.filter fun m => decide (m.id < x.next)).Sublist x.act.nodes :=
  (h.old.2.2.2 _ (le_refl _)).trans List.filter_sublist

theorem Changes.mem {x y : PMap V Nat} (h : Changes x y) {m : Node V Nat} (hm : m ∈ y.act.nodes) (hl : m.id < x.next) : m ∈ x.act.nodes :=
  h.sub.subset (List.mem_filter.2 ⟨hm, by simpa using hl⟩)

theorem same_id {l : List (Node V Nat)} (h : (ids l).Nodup) {m n : Node V Nat} (hm : m ∈ l) (hn : n ∈ l) (e : m.id = n.id) : m = n :=
  by
  obtain ⟨pre, post, rfl⟩ := List.append_of_mem hn
  have h1 := find_split pre n post h
  obtain ⟨pre', post', e'⟩ := List.append_of_mem hm
  have h2 := find_split pre' m post' (e' ▸ h)
  rw [← e', e, h1] at h2
  exact (Option.some.inj h2).symm

/-- The elements behind an old element: the old ones among them were behind it before. -/
theorem Changes.behind {x y : PMap V Nat} (h : Changes x y) (hx : PMap.Reach Sorted x) {pre post pre' post' : List (Node V Nat)} {n : Node V Nat} (e : x.act.nodes = pre ++ n :: post)
    (e' : y.act.nodes = pre' ++ n :: post') :
    (∀ m ∈ pre', m.id < x.next → m ∈ pre) ∧ ∀ m ∈ post', m.id < x.next → m ∈ post := by
  have hi := reach_mi (ordStl 0) hx
  have hn : n.id < x.next := hi.lt n (by rw [e]; simp)
  have hs := h.sub
  rw [e', e, List.filter_append, List.filter_cons, if_pos (by simpa using hn)] at hs
  have hnd := hi.nodup; rw [e] at hnd
  have key : ∀ (p q p' q' : List (Node V Nat)), (ids (p ++ n :: q)).Nodup → (p' ++ n :: q').Sublist (p ++ n :: q) → p'.Sublist p ∧ q'.Sublist q := by
    intro p
    induction p with
    | nil =>
      intro q p' q' hd hs
      cases p' with
      | nil => exact ⟨.refl _, by simpa using hs⟩
      | cons m p' =>
        have hnq : n ∉ q := fun hc => by
          simp only [ids, List.nil_append, List.map_cons, List.nodup_cons] at hd
          exact hd.1 (List.mem_map.2 ⟨n, hc, rfl⟩)
        cases hs with
        | cons _ h2 => exact absurd (h2.subset (by simp)) hnq
        | cons_cons _ h2 => exact absurd (h2.subset (by simp)) hnq
    | cons m p ih =>
      intro q p' q' hd hs
      have hd' : (ids (p ++ n :: q)).Nodup := by
        simp only [ids, List.cons_append, List.map_cons, List.nodup_cons] at hd; exact hd.2
      cases p' with
      | nil =>
        cases hs with
        | cons _ h2 => exact ⟨List.nil_sublist _, (ih q [] q' hd' h2).2⟩
        | cons_cons _ h2 =>
          simp only [ids, List.cons_append, List.map_cons, List.nodup_cons] at hd
          exact absurd (List.mem_map.2 ⟨n, by simp, rfl⟩) hd.1
      | cons m' p' =>
        rw [List.cons_append] at hs
        cases hs with
        | cons _ h2 => exact ⟨((ih q (m' :: p') q' hd' h2).1).cons _, (ih q (m' :: p') q' hd' h2).2⟩
        | cons_cons _ h2 => exact ⟨((ih q p' q' hd' h2).1).cons_cons _, (ih q p' q' hd' h2).2⟩
  obtain ⟨k1, k2⟩ := key _ _ _ _ hnd hs
  exact ⟨fun m hm hl => k1.subset (List.mem_filter.2 ⟨hm, by simpa using hl⟩), fun m hm hl => k2.subset (List.mem_filter.2 ⟨hm, by simpa using hl⟩)⟩

theorem afterIn_some {i : Nat} {j : Option Nat} : ∀ {l : List (Node V Nat)}, afterIn l i = some j → ∃ pre n post, l = pre ++ n :: post ∧ n.id = i ∧ headId post = j
  | [], hc => by cases hc
  | m :: l, hc => by
    unfold afterIn at hc
    by_cases e : m.id = i
    · rw [if_pos e] at hc; cases hc; exact ⟨[], m, l, rfl, e, rfl⟩
    · rw [if_neg e] at hc
      obtain ⟨pre, n, post, e1, e2, e3⟩ := afterIn_some hc
      exact ⟨m :: pre, n, post, by simp [e1], e2, e3⟩

/-- A defined `++`. -/
theorem incr_some {y : PMap V Nat} {a a' : It} (hm : a.isMulti = y.isMulti) (h : y.incr a = some a') :
    ∃ pre n post, y.act.nodes = pre ++ n :: post ∧ a.act = ⟨some n.id, y.act.gen⟩ ∧ a'.isMulti = y.isMulti ∧ a'.act = ⟨headId post, y.act.gen⟩ := by
  have key : ∀ (s : Seq V Nat) (p q : Ptr), s.incr p = some q → ∃ pre n post, s.nodes = pre ++ n :: post ∧ p = ⟨some n.id, s.gen⟩ ∧ q = ⟨headId post, s.gen⟩ := by
    intro s p q hq
    unfold Seq.incr at hq
    by_cases hg : p.gen ≠ s.gen
    · rw [if_pos hg] at hq; cases hq
    · rw [if_neg hg] at hq
      simp only [Option.bind_eq_some_iff, Option.map_eq_some_iff] at hq
      obtain ⟨i, hp, j, hj, rfl⟩ := hq
      obtain ⟨pre, n, post, e1, e2, e3⟩ := afterIn_some hj
      have hg' : p.gen = s.gen := by simpa using hg
      exact ⟨pre, n, post, e1, by rw [e2, ← hp, ← hg'], by rw [e3]⟩
  cases e : y.isMulti with
  | true =>
    simp only [PMap.incr, hm, e, if_true, Option.map_eq_some_iff] at h
    obtain ⟨p, hp, rfl⟩ := h
    obtain ⟨pre, n, post, e1, e2, e3⟩ := key _ _ _ hp
    exact ⟨pre, n, post, by simp [PMap.act, e, e1], by simp [It.act, PMap.act, hm, e, e2], by simp [hm, e], by simp [It.act, PMap.act, hm, e, e3]⟩
  | false =>
    simp only [PMap.incr, hm, e, Bool.false_eq_true, if_false, Option.map_eq_some_iff] at h
    obtain ⟨p, hp, rfl⟩ := h
    obtain ⟨pre, n, post, e1, e2, e3⟩ := key _ _ _ hp
    exact ⟨pre, n, post, by simp [PMap.act, e, e1], by simp [It.act, PMap.act, hm, e, e2], by simp [hm, e], by simp [It.act, PMap.act, hm, e, e3]⟩

/-- `++` at an element. -/
theorem incr_of {y : PMap V Nat} {a : It} {pre post : List (Node V Nat)} {n : Node V Nat} (hd : (ids y.act.nodes).Nodup) (e : y.act.nodes = pre ++ n :: post)
    (hm : a.isMulti = y.isMulti) (ha : a.act = ⟨some n.id, y.act.gen⟩) : ∃ a', y.incr a = some a' ∧ a'.isMulti = y.isMulti ∧ a'.act = ⟨headId post, y.act.gen⟩ := by
  refine incr_act hm ?_
  rw [ha]
  simp only [Seq.incr, Option.bind_some, ne_eq, not_true_eq_false, if_false]
  rw [e, afterIn_split pre n post (e ▸ hd)]; rfl

/-! ### The loop forward -/

/-- What holds after any number of turns. -/
structure Inv (x0 : PMap V Nat) (tr : List (Visit V)) (x : PMap V Nat) (a : It) : Prop where
  reach : PMap.Reach Sorted x
  kind : x.isMulti = x0.isMulti
  gen : x.act.gen = x0.act.gen
  grows : x0.next ≤ x.next
  hm : a.isMulti = x.isMulti
  place : ∃ pre post, x.act.nodes = pre ++ post ∧ a.act = ⟨headId post, x.act.gen⟩ ∧
    (∀ n ∈ pre, n ∈ x0.act.nodes → ∃ v ∈ tr, v.it.act.pos = some n.id ∧ v.entry = (n.key, n.val)) ∧
    (∀ v ∈ tr, ∀ n ∈ post, v.entry.1 ≤ n.key ∧ v.it.act.pos ≠ some n.id)
  old : ∀ v ∈ tr, ∃ i < x.next, v.it.act.pos = some i
  sorted : (tr.map fun v => v.entry.1).Pairwise (· ≤ ·)
  once : (tr.map fun v => v.it.act.pos).Nodup
  there : ∀ v ∈ tr, v.map.deref v.it = some v.entry ∧ v.entry ∈ v.map.content

theorem old_mem {x0 x : PMap V Nat} (h0 : PMap.Reach Sorted x0) {m : Node V Nat} (hm : m ∈ x0.act.nodes) (hg : x0.next ≤ x.next) : m.id < x.next :=
  lt_of_lt_of_le ((reach_mi (ordStl 0) h0).lt m hm) hg

theorem inv {x0 : PMap V Nat} (h0 : PMap.Reach Sorted x0) {tr : List (Visit V)} {x : PMap V Nat} {a : It} (h : Turns x0 tr x a) : Inv x0 tr x a := by
  induction h with
  | start =>
    obtain ⟨b1, b2, b3, b4⟩ := act_gen (x := x0)
    exact ⟨h0, rfl, rfl, le_refl _, b3, ⟨[], x0.act.nodes, rfl, b1, by simp, by simp⟩, by simp, by simp, by simp, by simp⟩
  | turn tr x a e x' a' _ hd hv hc hs ih =>
    obtain ⟨pre, post, e1, e2, e3, e4⟩ := ih.place
    have hi := reach_mi (ordStl 0) ih.reach
    obtain ⟨o1, o2, o3, o4⟩ := hc.old
    have hr' := hc.reach ih.reach
    have hi' := reach_mi (ordStl 0) hr'
    obtain ⟨pre', n', post', f1, f2, f3, f4⟩ := incr_some (ih.hm.trans o1.symm) hs
    cases post with
    | nil => rw [e2] at f2; simp [headId] at f2
    | cons n post =>
      have hnn : n'.id = n.id := by rw [e2] at f2; exact (by simpa [headId] using f2.symm : n'.id = n.id ∧ _).1
      have hnl : n.id < x.next := hi.lt n (by rw [e1]; simp)
      have hn' : n' = n := same_id hi.nodup (hc.mem (by rw [f1]; simp) (by omega)) (by rw [e1]; simp) hnn
      subst hn'
      obtain ⟨k1, k2⟩ := hc.behind ih.reach e1 f1
      have hent : e = (n'.key, n'.val) := by
        have := deref_of ih.hm hi.nodup (n := n') (by rw [e1]; simp) (by rw [e2]; rfl)
        rw [this] at hv; exact (Option.some.inj hv).symm
      have hpos : a.act.pos = some n'.id := by rw [f2]
      have hsort : Sorted x'.act.nodes := hi'.ok
      rw [f1] at hsort
      have hle : ∀ m ∈ post', n'.key ≤ m.key := by
        have := (List.pairwise_append.1 hsort).2.1
        exact (List.pairwise_cons.1 this).1
      have hnd' := hi'.nodup; rw [f1] at hnd'
      have hne : ∀ m ∈ post', m.id ≠ n'.id := by
        simp only [ids, List.map_append, List.map_cons, List.nodup_append, List.nodup_cons] at hnd'
        intro m hm he
        exact hnd'.2.1.1 (he ▸ List.mem_map.2 ⟨m, hm, rfl⟩)
      refine ⟨hr', o1.trans ih.kind, o2.trans ih.gen, ih.grows.trans o3, f3, ⟨pre' ++ [n'], post', by rw [f1]; simp, f4, ?_, ?_⟩, ?_, ?_, ?_, ?_⟩
      · intro m hm hm0
        rcases List.mem_append.1 hm with q | q
        · obtain ⟨v, v1, v2⟩ := e3 m (k1 m q (old_mem h0 hm0 ih.grows)) hm0
          exact ⟨v, List.mem_append_left _ v1, v2⟩
        · simp only [List.mem_singleton] at q
          subst q
          exact ⟨⟨x, a, e⟩, by simp, hpos, hent⟩
      · intro v hv m hm
        rcases List.mem_append.1 hv with q | q
        · refine ⟨le_trans (e4 v q n' (by simp)).1 (hle m hm), fun hp => ?_⟩
          obtain ⟨i, hi1, hi2⟩ := ih.old v q
          rw [hi2] at hp
          have : m.id < x.next := by cases hp; exact hi1
          exact (e4 v q m (List.mem_cons_of_mem _ (k2 m hm this))).2 (by rw [hi2]; exact hp)
        · simp only [List.mem_singleton] at q
          subst q
          refine ⟨by rw [hent]; exact hle m hm, ?_⟩
          rw [hpos]
          intro hc
          exact hne m hm (Option.some.inj hc).symm
      · intro v hv
        rcases List.mem_append.1 hv with q | q
        · obtain ⟨i, hi1, hi2⟩ := ih.old v q
          exact ⟨i, by omega, hi2⟩
        · simp only [List.mem_singleton] at q
          subst q
          exact ⟨n'.id, by omega, hpos⟩
      · rw [List.map_append, List.pairwise_append]
        refine ⟨ih.sorted, by simp, ?_⟩
        intro u hu w hw
        simp only [List.map_cons, List.map_nil, List.mem_singleton] at hw
        subst hw
        obtain ⟨v, hv, rfl⟩ := List.mem_map.1 hu
        rw [hent]; exact (e4 v hv n' (by simp)).1
      · rw [List.map_append, List.nodup_append]
        refine ⟨ih.once, by simp, ?_⟩
        intro u hu w hw
        simp only [List.map_cons, List.map_nil, List.mem_singleton] at hw
        subst hw
        obtain ⟨v, hv, rfl⟩ := List.mem_map.1 hu
        rw [hpos]; exact (e4 v hv n' (by simp)).2
      · intro v hv'
        rcases List.mem_append.1 hv' with q | q
        · exact ih.there v q
        · simp only [List.mem_singleton] at q
          subst q
          refine ⟨hv, ?_⟩
          rw [hent, content_eq, e1]
          simp [ent]

/-! ### What is claimed about the loop forward -/

/-- **C93.** At every turn the loop can go on: comparing the iterator with the end is defined, and if they differ there is an entry to give to the function. So the only thing
that can fail is the `++` after the function. -/
theorem C93_goes_on {x0 : PMap V Nat} (h0 : PMap.Reach Sorted x0) {tr : List (Visit V)} {x : PMap V Nat} {a : It} (h : Turns x0 tr x a) :
    (differ x a x0.end_ = some true ∧ ∃ e, x.deref a = some e ∧ e ∈ x.content) ∨ differ x a x0.end_ = some false := by
  have hi := inv h0 h
  obtain ⟨pre, post, e1, e2, _, _⟩ := hi.place
  obtain ⟨b1, b2, b3, b4⟩ := act_gen (x := x0)
  have hs : Stretch x a x0.end_ pre post [] := ⟨by simp [e1], (reach_mi (ordStl 0) hi.reach).nodup, hi.hm, b4.trans hi.kind.symm, by simpa using e2, by rw [b2, hi.gen]; rfl⟩
  cases post with
  | nil => exact .inr hs.nil
  | cons n post =>
    obtain ⟨h1, h2, _⟩ := hs.cons
    exact .inl ⟨h1, _, h2, by rw [content_eq, e1]; simp [ent]⟩

/-- **C93.** Whatever the function does to the map, the `++` after it is defined exactly if the entry that was given to the function is still in the map. -/
theorem C93_next_defined {x x' : PMap V Nat} (hx : PMap.Reach Sorted x) {a : It} (ha : x.valid a) (hc : Changes x x') :
    (x'.incr a).isSome ↔ x'.valid a ∧ x'.deref a = x.deref a := by
  have hi := reach_mi (ordStl 0) hx
  have hi' := reach_mi (ordStl 0) (hc.reach hx)
  obtain ⟨o1, o2, o3, o4⟩ := hc.old
  obtain ⟨pre, n, post, e1, e2, e3⟩ := valid_split ha
  constructor
  · intro hs
    obtain ⟨a', hs⟩ := Option.isSome_iff_exists.1 hs
    obtain ⟨pre', n', post', f1, f2, f3, f4⟩ := incr_some (ha.1.trans o1.symm) hs
    have hnn : n'.id = n.id := by rw [e2] at f2; exact (by simpa using f2.symm : n'.id = n.id ∧ _).1
    have hnl : n.id < x.next := hi.lt n (by rw [e1]; simp)
    have hn' : n' = n := same_id hi.nodup (hc.mem (by rw [f1]; simp) (by omega)) (by rw [e1]; simp) hnn
    subst hn'
    have := deref_of (ha.1.trans o1.symm) hi'.nodup (n := n') (by rw [f1]; simp) f2
    exact ⟨⟨ha.1.trans o1.symm, by rw [this]; rfl⟩, by rw [this, e3]⟩
  · rintro ⟨hv, _⟩
    obtain ⟨pre', n', post', f1, f2, f3⟩ := valid_split hv
    obtain ⟨a', h1, _⟩ := incr_of hi'.nodup f1 hv.1 f2
    rw [h1]; rfl

/-- Operations that do not remove the entry at the iterator. -/
inductive Spares (a : It) : PMap V Nat → PMap V Nat → Prop
  | refl (x) : Spares a x x
  | step (x y z op) : Spares a x y → y.step (ordStl 0) op = some z → op.spares (ordStl 0 : Stl (Sorted : List (Node V Nat) → Prop)) y a → Spares a x z

/-- **C93.** A function that only adds entries and removes entries of other values never breaks the loop. -/
theorem C93_spared {x x' : PMap V Nat} (hx : PMap.Reach Sorted x) {a : It} (ha : x.valid a) (hc : Spares a x x') :
    Changes x x' ∧ x'.valid a ∧ (x'.incr a).isSome := by
  have key : Changes x x' ∧ x'.valid a := by
    induction hc with
    | refl => exact ⟨.refl _, ha⟩
    | step y z op _ hs hop ih => exact ⟨.step _ _ _ op ih.1 hs, (C72_iterators_stay (ordStl 0) (ih.1.reach hx) ih.2 hs hop).1⟩
  refine ⟨key.1, key.2, (C93_next_defined hx ha key.1).2 ⟨key.2, ?_⟩⟩
  have hi := reach_mi (ordStl 0) hx
  obtain ⟨pre, n, post, e1, e2, e3⟩ := valid_split ha
  obtain ⟨pre', n', post', f1, f2, f3⟩ := valid_split key.2
  have hnn : n'.id = n.id := by rw [e2] at f2; exact (by simpa using f2.symm : n'.id = n.id ∧ _).1
  have hn' : n' = n := same_id hi.nodup (key.1.mem (by rw [f1]; simp) (by rw [hnn]; exact hi.lt n (by rw [e1]; simp))) (by rw [e1]; simp) hnn
  rw [f3, e3, hn']

/-- **C93.** The entries come in ascending order, each one is in the map when it is given to the function, and no element of the map is given twice. -/
theorem C93_order {x0 : PMap V Nat} (h0 : PMap.Reach Sorted x0) {tr : List (Visit V)} {x : PMap V Nat} {a : It} (h : Turns x0 tr x a) :
    (tr.map fun v => v.entry.1).Pairwise (· ≤ ·) ∧ (∀ v ∈ tr, v.entry ∈ v.map.content) ∧ (tr.map fun v => v.it.act.pos).Nodup :=
  ⟨(inv h0 h).sorted, fun v hv => ((inv h0 h).there v hv).2, (inv h0 h).once⟩

/-- **C93.** When the loop ends, every element that was there at the start and still is has been given to the function. -/
theorem C93_complete {x0 : PMap V Nat} (h0 : PMap.Reach Sorted x0) {tr : List (Visit V)} {x : PMap V Nat} {a : It} (h : Turns x0 tr x a) (he : differ x a x0.end_ = some false)
    {n : Node V Nat} (h1 : n ∈ x0.act.nodes) (h2 : n ∈ x.act.nodes) : ∃ v ∈ tr, v.it.act.pos = some n.id ∧ v.entry = (n.key, n.val) := by
  have hi := inv h0 h
  obtain ⟨pre, post, e1, e2, e3, _⟩ := hi.place
  cases post with
  | nil => exact e3 n (by rw [e1] at h2; simpa using h2) h1
  | cons m post =>
    obtain ⟨b1, b2, b3, b4⟩ := act_gen (x := x0)
    have hs : Stretch x a x0.end_ pre (m :: post) [] := ⟨by simp [e1], (reach_mi (ordStl 0) hi.reach).nodup, hi.hm, b4.trans hi.kind.symm, by simpa using e2, by rw [b2, hi.gen]; rfl⟩
    rw [hs.cons.1] at he; cases he

/-! ### Calls of the vault made by the function -/

/-- The calls a function makes, as they act on the two maps of the key. -/
inductive Calls : Idx V → Idx V → Prop
  | refl (x) : Calls x x
  | step (x y z op) (S : Hash V) : Calls x y → IStep S y op z → Calls x z

theorem eraseKeyOf_changes {x : PMap V Nat} {r : Nat} {a b : It} {y : PMap V Nat} (h : EraseKeyOf x r a b y) : Changes x y := by
  induction h with
  | done => exact .refl _
  | hit a b e _ _ _ => exact .step _ _ _ (.eraseKey e.1) (.refl _) rfl
  | next a b e a' y _ _ _ _ _ ih => exact ih

theorem istep_changes {S : Hash V} {x y : Idx V} {op : IOp V} (h : IStep S x op y) : Changes x.ord y.ord := by
  cases h with
  | add v r =>
    unfold Idx.add
    by_cases hb : (x.hash.emplace S.stl v r).2.2 = false
    · simp only []
      rw [if_pos hb]; exact .refl _
    · simp only []
      rw [if_neg hb]; exact .step _ _ _ (.emplace v r) (.refl _) rfl
  | erase v r x' hs => cases hs with | run h o h1 h2 => exact eraseKeyOf_changes h2
  | set old new r x' hs => cases hs with | run h o _ h1 h2 => exact .step _ _ _ (.emplace new r) (eraseKeyOf_changes h2) rfl
  | refused => exact .refl _
  | clear => exact .step _ _ _ .clear (.refl _) rfl

/-- **C93.** Calls that change the records of a vault act on the map as the theorems above allow, so these hold for every function given to `SortBy`. -/
theorem C93_calls {x y : Idx V} (h : Calls x y) : Changes x.ord y.ord := by
  induction h with
  | refl => exact .refl _
  | step y z op S _ hs ih => exact ih.trans (istep_changes hs)

/-- What a call erases from the map of the key: the value it looks for. -/
def erases : IOp V → V → Prop
  | .add _ _, _ => False
  | .erase v _, u => u = v
  | .set old _ _, u => u = old
  | .clear, _ => True

theorem eraseKeyOf_ord {x : PMap V Nat} (hx : PMap.Reach Sorted x) {v : V} {r : Nat} {y : PMap V Nat}
    (h : EraseKeyOf x r (x.equalRange (ordStl 0) v).1 (x.equalRange (ordStl 0) v).2 y) : ((v, r) ∈ x.content ∧ y = (x.eraseKey v).1) ∨ ((v, r) ∉ x.content ∧ y = x) := by
  obtain ⟨pre, mid, post, t, t1, t2, t3⟩ := range_ord hx v
  have := eraseKeyOf_unique (eraseKeyOf_run r v mid t t1) h
  have hm := mem_stretch t.nodes t1 t2 t3 r
  rw [this, content_eq, hm]
  by_cases hc : ∃ n ∈ mid, n.val = r
  · exact .inl ⟨hc, by rw [if_pos hc]⟩
  · exact .inr ⟨hc, by rw [if_neg hc]⟩

/-- **C93.** A call that changes records with other values of the sorted key (or adds records) leaves the loop intact. -/
theorem C93_other_values {multi : Bool} {x y : Idx V} (hx : Maps multi x) {a : It} (ha : x.ord.valid a) {v : V} {r : Nat} (hd : x.ord.deref a = some (v, r)) {S : Hash V} {op : IOp V}
    (h : IStep S x op y) (hop : ¬ erases op v) : y.ord.valid a ∧ y.ord.deref a = some (v, r) ∧ (y.ord.incr a).isSome := by
  have key : ∀ {u : V} {r' : Nat} {z : PMap V Nat}, u ≠ v → EraseKeyOf x.ord r' (x.ord.equalRange (ordStl 0) u).1 (x.ord.equalRange (ordStl 0) u).2 z → Spares a x.ord z := by
    intro u r' z hu hz
    rcases eraseKeyOf_ord hx.ord hz with ⟨_, rfl⟩ | ⟨_, rfl⟩
    · exact .step _ _ _ (.eraseKey u) (.refl _) rfl (fun e he => by rw [hd] at he; cases he; exact hu.symm)
    · exact .refl _
  have hs : Spares a x.ord y.ord := by
    cases h with
    | add v r =>
      unfold Idx.add
      by_cases hb : (x.hash.emplace S.stl v r).2.2 = false
      · simp only []
        rw [if_pos hb]; exact .refl _
      · simp only []
        rw [if_neg hb]; exact .step _ _ _ (.emplace v r) (.refl _) rfl rfl
    | erase u r' x' hs => cases hs with | run h o h1 h2 => exact key (fun e => hop e.symm) h2
    | set old new r' x' hs => cases hs with | run h o _ h1 h2 => exact .step _ _ _ (.emplace new r') (key (fun e => hop e.symm) h2) rfl rfl
    | refused => exact .refl _
    | clear => exact absurd trivial hop
  obtain ⟨h1, h2, h3⟩ := C93_spared hx.ord ha hs
  exact ⟨h2, by rw [((C93_next_defined hx.ord ha h1).1 h3).2, hd], h3⟩

theorem gone_incr {x y : PMap V Nat} (hx : PMap.Reach Sorted x) {a : It} (ha : x.valid a) (hc : Changes x y) {v : V} {r : Nat} (hd : x.deref a = some (v, r))
    (hg : ∀ n ∈ y.act.nodes, n.id < x.next → n.key ≠ v) : y.incr a = none := by
  by_contra hne
  obtain ⟨hv, he⟩ := (C93_next_defined hx ha hc).1 (Option.isSome_iff_ne_none.2 hne)
  obtain ⟨pre, n, post, e1, e2, e3⟩ := valid_split hv
  obtain ⟨pre', n', post', f1, f2, f3⟩ := valid_split ha
  have hi := reach_mi (ordStl 0) hx
  have hnn : n.id = n'.id := by rw [e2] at f2; exact (by simpa using f2 : n.id = n'.id ∧ _).1
  refine hg n (by rw [e1]; simp) (by rw [hnn]; exact hi.lt n' (by rw [f1]; simp)) ?_
  rw [e3, hd] at he
  exact congrArg Prod.fst (Option.some.inj he)

theorem eraseKey_nodes (x : PMap V Nat) (v : V) : (x.eraseKey v).1.act.nodes = x.act.nodes.filter fun n => decide (n.key ≠ v) := by
  cases hm : x.isMulti <;> simp [PMap.eraseKey, hm, PMap.act, Seq.eraseKey]

/-- **C93, refuted.** Erasing the record that was given to the function, or any other record with the same value of the sorted key, leaves the loop without a defined next
step: `SortBy` then uses a deleted element. -/
theorem C93_erase_refuted {multi : Bool} {x y : Idx V} (hx : Maps multi x) {a : It} (ha : x.ord.valid a) {v : V} {r r' : Nat} (hd : x.ord.deref a = some (v, r))
    (hr : (v, r') ∈ x.ord.content) {S : Hash V} (h : x.Erase S v r' y) : y.ord.incr a = none := by
  refine gone_incr hx.ord ha (istep_changes (.erase v r' y h)) hd ?_
  cases h with
  | run h o h1 h2 =>
    rcases eraseKeyOf_ord hx.ord h2 with ⟨_, rfl⟩ | ⟨hc, _⟩
    · intro n hn _
      simp only [eraseKey_nodes, List.mem_filter, decide_eq_true_eq] at hn
      exact hn.2
    · exact absurd hr hc

/-- **C93, refuted.** The same happens if the function sets the sorted key of the record it was given, or of any other record with the same value (even to the value it has). -/
theorem C93_set_refuted {x y : Idx V} (hx : Maps true x) {a : It} (ha : x.ord.valid a) {v new : V} {r r' : Nat} (hd : x.ord.deref a = some (v, r))
    (hr : (v, r') ∈ x.ord.content) {S : Hash V} (h : x.Set S v new r' (some y)) : y.ord.incr a = none := by
  refine gone_incr hx.ord ha (istep_changes (.set v new r' y h)) hd ?_
  cases h with
  | run h o _ h1 h2 =>
    rcases eraseKeyOf_ord hx.ord h2 with ⟨_, rfl⟩ | ⟨hc, _⟩
    · intro n hn hl
      have hst : ((x.ord.eraseKey v).1.emplace (ordStl 0) new r').1.act.nodes = ordPut (x.ord.eraseKey v).1.act.nodes ⟨(x.ord.eraseKey v).1.next, new, r'⟩ := by
        have hm : (x.ord.eraseKey v).1.isMulti = true := by simp [PMap.eraseKey, hx.kindO]
        simp [PMap.emplace, hm, PMap.act, Seq.put, ordStl]
      have hnx : (x.ord.eraseKey v).1.next = x.ord.next := by unfold PMap.eraseKey; split <;> rfl
      simp only [] at hn
      rw [hst] at hn
      rcases List.mem_cons.1 ((ordPut_perm _ _).subset hn) with e | e
      · rw [e, hnx] at hl; simp at hl
      · simp only [eraseKey_nodes, List.mem_filter, decide_eq_true_eq] at e
        exact e.2
    · exact absurd hr hc

/-! ### A function that keeps the loop running -/

/-- A map with one entry. -/
def one : PMap Nat Nat := ((PMap.empty true).emplace (ordStl 0) 0 0).1
theorem one_reach : PMap.Reach Sorted one := .step (ordStl 0) _ _ (.emplace 0 0) (.init true) rfl

theorem ordPut_last : ∀ (l : List (Node Nat Nat)) (n : Node Nat Nat), (∀ m ∈ l, m.key ≤ n.key) → ordPut l n = l ++ [n]
  | [], _, _ => rfl
  | m :: l, n, h => by
    unfold ordPut
    rw [if_neg (not_lt.2 (h m (by simp))), ordPut_last l n fun k hk => h k (List.mem_cons_of_mem _ hk)]; rfl

/-- **C93, refuted.** A function that adds a record with a greater value each time keeps `SortBy` running forever: there is no number of turns after which it must have ended. -/
theorem C93_endless_refuted : ∀ n : Nat, ∃ tr x a, Turns one tr x a ∧ tr.length = n ∧ differ x a one.end_ = some true := by
  have key : ∀ n : Nat, ∃ tr x a pre m, Turns one tr x a ∧ tr.length = n ∧ x.isMulti = true ∧ x.act.nodes = pre ++ [m] ∧ (∀ k ∈ pre ++ [m], k.key ≤ m.key) ∧
      a.isMulti = true ∧ a.act = ⟨some m.id, x.act.gen⟩ := by
    intro n
    induction n with
    | zero => exact ⟨[], one, one.begin_, [], ⟨0, 0, 0⟩, .start, rfl, rfl, rfl, by simp, rfl, rfl⟩
    | succ n ih =>
      obtain ⟨tr, x, a, pre, m, h1, h2, h3, h4, h5, h6, h7⟩ := ih
      have hi := inv one_reach h1
      have hmi := reach_mi (ordStl 0) hi.reach
      let x' := (x.emplace (ordStl 0) (m.key + 1) 0).1
      have hc : Changes x x' := .step _ _ _ (.emplace (m.key + 1) 0) (.refl _) rfl
      have hm' : x'.isMulti = true := hc.old.1.trans h3
      have hn' : x'.act.nodes = pre ++ m :: [⟨x.next, m.key + 1, 0⟩] := by
        have : x'.act.nodes = ordPut x.act.nodes ⟨x.next, m.key + 1, 0⟩ := by
          simp [x', PMap.emplace, h3, PMap.act, Seq.put, ordStl]
        rw [this, h4, ordPut_last _ _ (fun k hk => Nat.le_succ_of_le (h5 k hk))]; simp
      have hmi' := reach_mi (ordStl 0) (hc.reach hi.reach)
      obtain ⟨a', g1, g2, g3⟩ := incr_of (a := a) hmi'.nodup hn' (h6.trans hm'.symm) (by rw [h7, hc.old.2.1])
      have hv := deref_of (y := x) (a := a) (n := m) (h6.trans h3.symm) hmi.nodup (by rw [h4]; simp) h7
      have hd : differ x a one.end_ = some true := by
        rcases C93_goes_on one_reach h1 with ⟨q, _⟩ | q
        · exact q
        · have hs : Stretch x a one.end_ pre [m] [] := ⟨by simp [h4], hmi.nodup, h6.trans h3.symm, by rw [h3]; rfl, by rw [h7]; rfl, by rw [hi.gen]; rfl⟩
          exact hs.cons.1
      refine ⟨_, x', a', pre ++ [m], ⟨x.next, m.key + 1, 0⟩, .turn tr x a _ x' a' h1 hd hv hc g1, by simp [h2], hm', by rw [hn']; simp, ?_, g2.trans hm', by rw [g3]; rfl⟩
      intro k hk
      rcases List.mem_append.1 hk with q | q
      · exact Nat.le_succ_of_le (h5 k q)
      · simp only [List.mem_singleton] at q; rw [q]
  intro n
  obtain ⟨tr, x, a, pre, m, h1, h2, h3, h4, h5, h6, h7⟩ := key n
  have hi := inv one_reach h1
  have hs : Stretch x a one.end_ pre [m] [] := ⟨by simp [h4], (reach_mi (ordStl 0) hi.reach).nodup, h6.trans h3.symm, by rw [h3]; rfl, by rw [h7]; rfl, by rw [hi.gen]; rfl⟩
  exact ⟨tr, x, a, h1, h2, hs.cons.1⟩

/-! ### The loop backward -/

theorem decr_act {x : PMap V Nat} {a : It} (h : a.isMulti = x.isMulti) :
    (x.act.decr a.act = none → x.decr a = none) ∧ ∀ {p : Ptr}, x.act.decr a.act = some p → ∃ a', x.decr a = some a' ∧ a'.isMulti = x.isMulti ∧ a'.act = p := by
  cases e : x.isMulti with
  | true =>
    simp only [PMap.decr, h, e, if_true, PMap.act, It.act]
    exact ⟨fun hq => by rw [hq]; rfl, fun {p} hp => ⟨{ a with m := p }, by simp [hp, h, e], by simp [h, e], by simp [h, e]⟩⟩
  | false =>
    simp only [PMap.decr, h, e, Bool.false_eq_true, if_false, PMap.act, It.act]
    exact ⟨fun hq => by rw [hq]; rfl, fun {p} hp => ⟨{ a with s := p }, by simp [hp, h, e], by simp [h, e], by simp [h, e]⟩⟩

/-- `--` from the place behind the element `m`. -/
theorem decr_of {y : PMap V Nat} {a : It} {pre post : List (Node V Nat)} {m : Node V Nat} (hd : (ids y.act.nodes).Nodup) (e : y.act.nodes = pre ++ m :: post)
    (hm : a.isMulti = y.isMulti) (ha : a.act = ⟨headId post, y.act.gen⟩) : ∃ a', y.decr a = some a' ∧ a'.isMulti = y.isMulti ∧ a'.act = ⟨some m.id, y.act.gen⟩ := by
  refine (decr_act hm).2 ?_
  rw [ha]
  cases post with
  | nil =>
    simp only [Seq.decr, ne_eq, not_true_eq_false, if_false, e, headId, List.head?_nil, Option.map_none]
    simp
  | cons k l =>
    simp only [Seq.decr, ne_eq, not_true_eq_false, if_false, headId, List.head?_cons, Option.map_some]
    have hr : y.act.nodes.reverse = l.reverse ++ k :: (m :: pre.reverse) := by rw [e]; simp
    rw [hr, afterIn_split]
    · simp [headId]
    · rw [← hr, ids, List.map_reverse]
      exact (List.reverse_perm _).nodup_iff.mpr hd

/-- `--` from the first place is undefined. -/
theorem decr_first {y : PMap V Nat} {a : It} (hd : (ids y.act.nodes).Nodup) (hm : a.isMulti = y.isMulti) (ha : a.act = ⟨headId y.act.nodes, y.act.gen⟩) : y.decr a = none := by
  refine (decr_act hm).1 ?_
  rw [ha]
  cases e : y.act.nodes with
  | nil => simp [Seq.decr, headId, e]
  | cons k l =>
    simp only [Seq.decr, ne_eq, not_true_eq_false, if_false, headId, List.head?_cons, Option.map_some]
    have hr : y.act.nodes.reverse = l.reverse ++ k :: [] := by rw [e]; simp
    rw [hr, afterIn_split]
    · simp [headId]
    · rw [← hr, ids, List.map_reverse]
      exact (List.reverse_perm _).nodup_iff.mpr hd

theorem afterIn_missing {i : Nat} : ∀ {l : List (Node V Nat)}, (∀ n ∈ l, n.id ≠ i) → afterIn l i = none
  | [], _ => rfl
  | m :: l, h => by
    unfold afterIn
    rw [if_neg (h m (by simp))]; exact afterIn_missing fun n hn => h n (List.mem_cons_of_mem _ hn)

/-- Where an iterator can be. -/
theorem places {y : PMap V Nat} {a : It} (hm : a.isMulti = y.isMulti) (hu : usable y a = true) : ∃ pre post, y.act.nodes = pre ++ post ∧ a.act = ⟨headId post, y.act.gen⟩ := by
  unfold usable at hu
  simp only [Bool.and_eq_true, decide_eq_true_eq] at hu
  obtain ⟨⟨_, hg⟩, hp⟩ := hu
  cases hpos : a.act.pos with
  | none => exact ⟨y.act.nodes, [], by simp, by rw [← hg]; rw [show headId ([] : List (Node V Nat)) = none from rfl, ← hpos]⟩
  | some i =>
    rw [hpos] at hp
    simp only [List.any_eq_true, decide_eq_true_eq] at hp
    obtain ⟨n, hn, hni⟩ := hp
    obtain ⟨pre, post, e⟩ := List.append_of_mem hn
    exact ⟨pre, n :: post, e, by rw [← hg]; rw [show headId (n :: post) = some i from by simp [headId, hni], ← hpos]⟩

/-- **C93.** Backward, the `++` after the function is defined exactly if the element behind (the one visited before, or the end) is still there and is not the first one of the
map now. -/
theorem C93_reverse_next_defined {x' : PMap V Nat} (hx : PMap.Reach Sorted x') {a : It} (hm : a.isMulti = x'.isMulti) :
    (x'.decr a).isSome ↔ differ x' a x'.begin_ = some true := by
  have hi := reach_mi (ordStl 0) hx
  obtain ⟨b1, b2, b3, b4⟩ := act_gen (x := x')
  have hb : usable x' x'.begin_ = true := usable_of (pre := []) (l := x'.act.nodes) rfl b3 b1
  by_cases hu : usable x' a = true
  · obtain ⟨pre, post, e1, e2⟩ := places hm hu
    have hdf : differ x' a x'.begin_ = some (a.ne x'.begin_) := by unfold differ; rw [if_pos ⟨hu, hb⟩]
    rw [hdf, ne_act (hm.trans b3.symm), b1, e2]
    rcases List.eq_nil_or_concat pre with rfl | ⟨pre', m, rfl⟩
    · rw [decr_first hi.nodup hm (by rw [e2, e1]; simp)]
      simp only [e1, List.nil_append, Seq.first]; simp
    · obtain ⟨a', h1, _⟩ := decr_of (a := a) (pre := pre') (m := m) (post := post) hi.nodup (by rw [e1]; simp) hm e2
      rw [h1]
      simp only [Option.isSome_some, Option.some.injEq, decide_eq_true_eq, true_iff]
      have hnd := hi.nodup; rw [e1] at hnd
      have hne : ∀ (q : List (Node V Nat)) (k : Node V Nat), q ++ post ≠ [] → (ids (k :: (q ++ post))).Nodup → headId post ≠ some k.id := by
        intro q k _ hk hc
        cases post with
        | nil => cases hc
        | cons p l =>
          simp only [headId, List.head?_cons, Option.map_some, Option.some.injEq] at hc
          simp only [ids, List.map_cons, List.nodup_cons] at hk
          exact hk.1 (hc ▸ List.mem_map.2 ⟨p, by simp, rfl⟩)
      have hpn : ∀ (q : List (Node V Nat)) (k : Node V Nat), (ids (k :: (q ++ post))).Nodup → headId post ≠ some k.id := by
        intro q k hk hc
        by_cases hq : q ++ post = []
        · have : post = [] := (List.append_eq_nil_iff.1 hq).2
          rw [this] at hc; cases hc
        · exact hne q k hq hk hc
      simp only [Seq.first, e1]
      cases pre' with
      | nil => exact hpn [] m (by simpa using hnd)
      | cons k q => exact hpn (q ++ [m]) k (by simpa using hnd)
  · have h1 : differ x' a x'.begin_ = none := by unfold differ; rw [if_neg (fun h => hu h.1)]
    rw [h1]
    have : x'.decr a = none := by
      refine (decr_act hm).1 ?_
      unfold Seq.decr
      split
      · rfl
      · rename_i hg
        have hg : a.act.gen = x'.act.gen := by simpa using hg
        unfold usable at hu
        cases hpos : a.act.pos with
        | none => rw [hpos] at hu; exact absurd (by simp [hm, hg]) hu
        | some i =>
          rw [hpos] at hu
          have : ∀ n ∈ x'.act.nodes.reverse, n.id ≠ i := by
            intro n hn hni
            exact hu (by simp [hm, hg]; exact ⟨n, List.mem_reverse.1 hn, hni⟩)
          simp only []
          rw [afterIn_missing this]; rfl
    rw [this]; simp

theorem rloop_unique {x : PMap V Nat} {f : List Nat → Nat → Bool} {a : It} {s l l' : List Nat} (h : RLoop x f a s l) (h' : RLoop x f a s l') : l' = l := by
  induction h generalizing l' with
  | done a s h1 => cases h' <;> simp_all
  | stop a s t e h1 h2 h3 h4 => cases h' <;> simp_all
  | next a s t e a' l h1 h2 h3 h4 h5 h6 ih =>
    cases h' with
    | done => simp_all
    | stop => simp_all
    | next _ _ t' e' a'' l'' g1 g2 g3 g4 g5 g6 =>
      rw [h2] at g2; cases g2
      rw [h3] at g3; cases g3
      rw [h5] at g5; cases g5
      rw [ih g6]

theorem rloop_run {x : PMap V Nat} (hx : PMap.Reach Sorted x) (f : List Nat → Nat → Bool) : ∀ (k : Nat) (pre post : List (Node V Nat)) (a : It) (s : List Nat), pre.length = k →
    x.act.nodes = pre ++ post → a.isMulti = x.isMulti → a.act = ⟨headId post, x.act.gen⟩ → RLoop x f a s (until_ f s (pre.reverse.map (·.val)))
  | 0, pre, post, a, s, hk, e1, hm, ha => by
    have : pre = [] := by simpa using hk
    subst this
    have hi := reach_mi (ordStl 0) hx
    obtain ⟨b1, b2, b3, b4⟩ := act_gen (x := x)
    have hs : Stretch x a x.begin_ [] [] x.act.nodes := ⟨by simp, hi.nodup, hm, b3, by rw [ha]; simp [e1], by rw [b1]; rfl⟩
    simpa [until_] using RLoop.done a s hs.nil
  | k + 1, pre, post, a, s, hk, e1, hm, ha => by
    have hi := reach_mi (ordStl 0) hx
    rcases List.eq_nil_or_concat pre with rfl | ⟨pre', m, rfl⟩
    · cases hk
    · obtain ⟨t, t1, t2, t3⟩ := decr_of (a := a) (pre := pre') (m := m) (post := post) hi.nodup (by rw [e1]; simp) hm ha
      have hd := (C93_reverse_next_defined hx hm).1 (by rw [t1]; rfl)
      have hv := deref_of (y := x) (a := t) (n := m) t2 hi.nodup (by rw [e1]; simp) t3
      have hr : (pre'.concat m).reverse.map (·.val) = m.val :: pre'.reverse.map (·.val) := by simp
      rw [hr]
      unfold until_
      by_cases hf : f s m.val = true
      · rw [if_pos hf]
        exact .next a s t _ t _ hd t1 hv hf t1 (rloop_run hx f k pre' (m :: post) t (m.val :: s) (by simpa using hk) (by rw [e1]; simp) t2 (by rw [t3]; rfl))
      · rw [if_neg hf]
        exact .stop a s t _ hd t1 hv (by simpa using hf)

/-- **C93.** With a function that leaves the sorted key alone, the backward loop, at the level of `std::reverse_iterator`s, gives exactly the entries of the map in reverse order
to the function until it answers false. -/
theorem C93_reverse {multi : Bool} {x : Idx V} (h : Maps multi x) (f : List Nat → Nat → Bool) :
    Only (RLoop x.ord f x.ord.end_ []) (until_ f [] (x.ord.content.reverse.map (·.2))) := by
  obtain ⟨b1, b2, b3, b4⟩ := act_gen (x := x.ord)
  have := rloop_run h.ord f _ x.ord.act.nodes [] x.ord.end_ [] rfl (by simp) b4 (by rw [b2]; rfl)
  have he : x.ord.content.reverse.map (·.2) = x.ord.act.nodes.reverse.map (·.val) := by simp [PMap.content]
  rw [he]
  exact ⟨this, fun l hl => rloop_unique this hl⟩

/-- The iterator behind the entry given to the function. -/
theorem behind_visit {x : PMap V Nat} (hx : PMap.Reach Sorted x) {a t : It} (hm : a.isMulti = x.isMulti) (ht : x.decr a = some t) :
    ∃ pre n post, x.act.nodes = pre ++ n :: post ∧ a.act = ⟨headId post, x.act.gen⟩ ∧ t.isMulti = x.isMulti ∧ t.act = ⟨some n.id, x.act.gen⟩ ∧ x.deref t = some (n.key, n.val) := by
  have hi := reach_mi (ordStl 0) hx
  have hd := (C93_reverse_next_defined hx hm).1 (by rw [ht]; rfl)
  have hu : usable x a = true := by
    by_contra hu
    unfold differ at hd
    rw [if_neg (fun h => hu h.1)] at hd; cases hd
  obtain ⟨pre, post, e1, e2⟩ := places hm hu
  rcases List.eq_nil_or_concat pre with rfl | ⟨pre', m, rfl⟩
  · rw [decr_first hi.nodup hm (by rw [e2, e1]; simp)] at ht; cases ht
  · obtain ⟨t', t1, t2, t3⟩ := decr_of (a := a) (pre := pre') (m := m) (post := post) hi.nodup (by rw [e1]; simp) hm e2
    rw [ht] at t1; cases t1
    exact ⟨pre', m, post, by rw [e1]; simp, e2, t2, t3, deref_of t2 hi.nodup (by rw [e1]; simp) t3⟩

theorem ent_split {l : List (Node V Nat)} {e : V × Nat} : ∀ {l1 l2 : List (V × Nat)}, ent l = l1 ++ e :: l2 → ∃ p n q, l = p ++ n :: q ∧ ent p = l1 ∧ (n.key, n.val) = e ∧ ent q = l2 := by
  intro l1 l2 h
  obtain ⟨p, q, rfl, h1, h2⟩ := List.map_eq_append_iff.1 h
  obtain ⟨n, q', rfl, h3, h4⟩ := List.map_eq_cons_iff.1 h2
  exact ⟨p, n, q', rfl, h1, h3, h4⟩

/-- The element with a value that no other element has. -/
theorem lone_split {p q p' q' : List (Node V Nat)} {n n' : Node V Nat} (e : p ++ n :: q = p' ++ n' :: q') (hp : ∀ m ∈ p, m.key ≠ n'.key) (hq : ∀ m ∈ q, m.key ≠ n'.key) :
    p = p' ∧ n = n' ∧ q = q' := by
  induction p generalizing p' with
  | nil =>
    cases p' with
    | nil => simp at e; exact ⟨rfl, e⟩
    | cons m p' =>
      simp only [List.nil_append, List.cons_append, List.cons.injEq] at e
      exact absurd rfl (hq n' (by rw [e.2]; simp))
  | cons m p ih =>
    cases p' with
    | nil =>
      simp only [List.nil_append, List.cons_append, List.cons.injEq] at e
      exact absurd (by rw [e.1]) (hp m (by simp))
    | cons m' p' =>
      simp only [List.cons_append, List.cons.injEq] at e
      obtain ⟨h1, h2, h3⟩ := ih e.2 (fun k hk => hp k (List.mem_cons_of_mem _ hk))
      exact ⟨by rw [e.1, h1], h2, h3⟩

theorem erased_nodes {multi : Bool} {x y : Idx V} (hx : Maps multi x) {v : V} {r : Nat} {S : Hash V} (h : x.Erase S v r y) {pre post : List (Node V Nat)} {n : Node V Nat}
    (e : x.ord.act.nodes = pre ++ n :: post) (hk : n.key = v) (hv : n.val = r) (hp : ∀ m ∈ pre, m.key ≠ v) (hq : ∀ m ∈ post, m.key ≠ v) :
    y.ord.act.nodes = pre ++ post ∧ y.ord.act.gen = x.ord.act.gen ∧ y.ord.isMulti = x.ord.isMulti ∧ PMap.Reach Sorted y.ord := by
  have hc := istep_changes (.erase v r y h)
  refine ⟨?_, hc.old.2.1, hc.old.1, hc.reach hx.ord⟩
  cases h with
  | run h o h1 h2 =>
    rcases eraseKeyOf_ord hx.ord h2 with ⟨_, rfl⟩ | ⟨hc, _⟩
    · simp only [eraseKey_nodes, e, List.filter_append, List.filter_cons]
      rw [if_neg (by simp [hk]), List.filter_eq_self.2 (fun m hm => by simpa using hp m hm), List.filter_eq_self.2 (fun m hm => by simpa using hq m hm)]
    · refine absurd ?_ hc
      rw [content_eq, e]; simp [ent, hk, hv]

/-- **C93, refuted.** Backward, erasing the record that was given to the function is silently wrong: the record before it is skipped. `(v, r)` is given to the function, which erases
it; the loop goes on, but `(u, p)`, the entry before it, is now the one behind the iterator: the next entry given to the function is the one before `(u, p)`, or the loop ends. -/
theorem C93_reverse_skips_refuted {multi : Bool} {x y : Idx V} (hx : Maps multi x) {l1 l2 : List (V × Nat)} {u v : V} {p r : Nat} (hl : x.ord.content = l1 ++ (u, p) :: (v, r) :: l2)
    (huv : u ≠ v) (h1 : ∀ e ∈ l1, e.1 ≠ v) (h2 : ∀ e ∈ l2, e.1 ≠ v) {a t : It} (hm : a.isMulti = x.ord.isMulti) (ht : x.ord.decr a = some t) (hd : x.ord.deref t = some (v, r))
    {S : Hash V} (h : x.Erase S v r y) :
    ∃ a', y.ord.decr a = some a' ∧ y.ord.deref a' = some (u, p) ∧ (l1 = [] → differ y.ord a' y.ord.begin_ = some false) ∧
      ∀ l0 e, l1 = l0 ++ [e] → differ y.ord a' y.ord.begin_ = some true ∧ ∃ t', y.ord.decr a' = some t' ∧ y.ord.deref t' = some e := by
  obtain ⟨pre, n, post, e1, e2, e3, e4, e5⟩ := behind_visit hx.ord hm ht
  rw [hd] at e5
  have hkv : n.key = v ∧ n.val = r := by cases e5; exact ⟨rfl, rfl⟩
  rw [content_eq] at hl
  obtain ⟨q1, k, q2, f1, f2, f3, f4⟩ := ent_split hl
  obtain ⟨q3, n', q4, g1, g2, g3, g4⟩ := ent_split (l1 := []) f4
  have hq3 : q3 = [] := by simpa [ent] using g2
  subst hq3
  have hn'k : n'.key = v := congrArg Prod.fst g3
  have hkk : k.key = u := congrArg Prod.fst f3
  have hkey : ∀ (l : List (Node V Nat)) (l' : List (V × Nat)), ent l = l' → (∀ e ∈ l', e.1 ≠ v) → ∀ m ∈ l, m.key ≠ v := by
    intro l l' hl hv m hm
    exact hv _ (by rw [← hl]; exact List.mem_map.2 ⟨m, hm, rfl⟩)
  have hall : (q1 ++ [k]) ++ n' :: q4 = pre ++ n :: post := by rw [← e1, f1, g1]; simp
  obtain ⟨i1, i2, i3⟩ := lone_split (p := q1 ++ [k]) (n := n') (q := q4) hall
    (by
      rw [hkv.1]; intro m hm'
      rcases List.mem_append.1 hm' with z | z
      · exact hkey _ _ f2 h1 m z
      · simp only [List.mem_singleton] at z; subst z; rw [hkk]; exact huv)
    (by rw [hkv.1]; exact hkey _ _ g4 h2)
  subst i2
  obtain ⟨j1, j2, j3, j4⟩ := erased_nodes hx h e1 hkv.1 hkv.2 (by
      rw [← i1]; intro m hm'
      rcases List.mem_append.1 hm' with z | z
      · exact hkey _ _ f2 h1 m z
      · simp only [List.mem_singleton] at z; subst z; rw [hkk]; exact huv) (by rw [← i3]; exact hkey _ _ g4 h2)
  have hi := reach_mi (ordStl 0) j4
  have hy : y.ord.act.nodes = q1 ++ k :: post := by rw [j1, ← i1]; simp
  obtain ⟨a', k1, k2, k3⟩ := decr_of (a := a) hi.nodup hy (hm.trans j3.symm) (by rw [e2, j2])
  have hv' := deref_of (y := y.ord) (a := a') (n := k) k2 hi.nodup (by rw [hy]; simp) k3
  rw [f3] at hv'
  refine ⟨a', k1, hv', ?_, ?_⟩
  · intro hnil
    have : q1 = [] := by rw [hnil] at f2; simpa [ent] using f2
    subst this
    obtain ⟨b1, b2, b3, b4⟩ := act_gen (x := y.ord)
    have hs : Stretch y.ord a' y.ord.begin_ [] [] y.ord.act.nodes := ⟨by simp, hi.nodup, k2, b3, by rw [k3, hy]; rfl, by rw [b1]; rfl⟩
    exact hs.nil
  · intro l0 e hl0
    rw [hl0] at f2
    obtain ⟨p1, m, p2, m1, m2, m3, m4⟩ := ent_split f2
    have hp2 : p2 = [] := by simpa [ent] using m4
    subst hp2
    obtain ⟨t', t1, t2, t3⟩ := decr_of (a := a') (pre := p1) (m := m) (post := k :: post) hi.nodup (by rw [hy, m1]; simp) k2 (by rw [k3]; rfl)
    refine ⟨(C93_reverse_next_defined j4 k2).1 (by rw [t1]; rfl), t', t1, ?_⟩
    rw [deref_of (y := y.ord) (a := t') (n := m) t2 hi.nodup (by rw [hy, m1]; simp) t3, m3]

/-- **C93, refuted.** If the record that the function erases is the first of the map, the backward loop runs off the beginning. -/
theorem C93_reverse_first_refuted {multi : Bool} {x y : Idx V} (hx : Maps multi x) {l2 : List (V × Nat)} {v : V} {r : Nat} (hl : x.ord.content = (v, r) :: l2)
    (h2 : ∀ e ∈ l2, e.1 ≠ v) {a t : It} (hm : a.isMulti = x.ord.isMulti) (ht : x.ord.decr a = some t) (hd : x.ord.deref t = some (v, r))
    {S : Hash V} (h : x.Erase S v r y) : y.ord.decr a = none := by
  obtain ⟨pre, n, post, e1, e2, e3, e4, e5⟩ := behind_visit hx.ord hm ht
  rw [hd] at e5
  have hkv : n.key = v ∧ n.val = r := by cases e5; exact ⟨rfl, rfl⟩
  rw [content_eq] at hl
  obtain ⟨q1, n', q2, f1, f2, f3, f4⟩ := ent_split (l1 := []) hl
  have hq1 : q1 = [] := by simpa [ent] using f2
  subst hq1
  have hq : ∀ m ∈ q2, m.key ≠ v := fun m hm => h2 _ (by rw [← f4]; exact List.mem_map.2 ⟨m, hm, rfl⟩)
  obtain ⟨i1, i2, i3⟩ := lone_split (p := []) (n := n') (q := q2) (f1.symm.trans e1) (by simp) (by rw [hkv.1]; exact hq)
  subst i1 i2 i3
  obtain ⟨j1, j2, j3, j4⟩ := erased_nodes hx h e1 hkv.1 hkv.2 (by simp) hq
  exact decr_first (reach_mi (ordStl 0) j4).nodup (hm.trans j3.symm) (by rw [e2, j2, j1]; rfl)

/-- **C93, refuted.** Backward, a function that adds a record whose value is not less than the visited one and less than all greater ones of the map is given the same record again: the new
entry is now the one behind, and the entry before it is the old one. -/
theorem C93_reverse_twice_refuted {x : Idx V} (hx : Maps true x) {l1 l2 : List (V × Nat)} {v v' : V} {r r' : Nat} (hl : x.ord.content = l1 ++ (v, r) :: l2)
    (h1 : ∀ e ∈ l1, e.1 ≠ v) (h2 : ∀ e ∈ l2, v' < e.1) (hvv : v ≤ v') {a t : It} (hm : a.isMulti = x.ord.isMulti) (ht : x.ord.decr a = some t) (hd : x.ord.deref t = some (v, r)) (S : Hash V) :
    ∃ a' t', (x.add S v' r').1.ord.decr a = some a' ∧ (x.add S v' r').1.ord.deref a' = some (v', r') ∧ differ (x.add S v' r').1.ord a' (x.add S v' r').1.ord.begin_ = some true ∧
      (x.add S v' r').1.ord.decr a' = some t' ∧ (x.add S v' r').1.ord.deref t' = some (v, r) := by
  obtain ⟨pre, n, post, e1, e2, e3, e4, e5⟩ := behind_visit hx.ord hm ht
  rw [hd] at e5
  have hkv : n.key = v ∧ n.val = r := by cases e5; exact ⟨rfl, rfl⟩
  rw [content_eq] at hl
  obtain ⟨q1, n', q2, f1, f2, f3, f4⟩ := ent_split hl
  have hq2 : ∀ m ∈ q2, v' < m.key := fun m hm => h2 _ (by rw [← f4]; exact List.mem_map.2 ⟨m, hm, rfl⟩)
  obtain ⟨i1, i2, i3⟩ := lone_split (p := q1) (n := n') (q := q2) (f1.symm.trans e1) (by
      rw [hkv.1]; exact fun m hm => h1 _ (by rw [← f2]; exact List.mem_map.2 ⟨m, hm, rfl⟩))
    (by rw [hkv.1]; exact fun m hm => ne_of_gt (lt_of_le_of_lt hvv (hq2 m hm)))
  subst i1 i2 i3
  have hy : (x.add S v' r').1.ord = (x.ord.emplace (ordStl 0) v' r').1 := by
    have hb : (x.hash.emplace S.stl v' r').2.2 = true := by simp [PMap.emplace, hx.kindH]
    simp [Idx.add, hb]
  have hc : Changes x.ord (x.ord.emplace (ordStl 0) v' r').1 := .step _ _ _ (.emplace v' r') (.refl _) rfl
  rw [hy]
  generalize hz : (x.ord.emplace (ordStl 0) v' r').1 = z at *
  have hi := reach_mi (ordStl 0) hx.ord
  have hzr := hc.reach hx.ord
  have hiz := reach_mi (ordStl 0) hzr
  have hput : ∀ (p q : List (Node V Nat)), (∀ m ∈ p, m.key ≤ v') → (∀ m ∈ q, v' < m.key) → ordPut (p ++ q) ⟨x.ord.next, v', r'⟩ = p ++ ⟨x.ord.next, v', r'⟩ :: q := by
    intro p
    induction p with
    | nil =>
      intro q _ hq
      cases q with
      | nil => rfl
      | cons m q => simp [ordPut, hq m (by simp)]
    | cons m p ih =>
      intro q hp hq
      rw [List.cons_append, ordPut, if_neg (not_lt.2 (hp m (by simp))), ih q (fun k hk => hp k (List.mem_cons_of_mem _ hk)) hq]; rfl
  have hsorted : Sorted x.ord.act.nodes := hi.ok
  rw [e1] at hsorted
  have hpre : ∀ m ∈ q1, m.key ≤ n'.key := fun m hm => (List.pairwise_append.1 hsorted).2.2 m hm n' (by simp)
  have hzn : z.act.nodes = (q1 ++ [n']) ++ ⟨x.ord.next, v', r'⟩ :: q2 := by
    have : z.act.nodes = ordPut x.ord.act.nodes ⟨x.ord.next, v', r'⟩ := by
      rw [← hz]; simp [PMap.emplace, hx.kindO, PMap.act, Seq.put, ordStl]
    rw [this, e1, ← hput (q1 ++ [n']) q2 ?_ hq2]
    · simp
    · intro m hm
      rcases List.mem_append.1 hm with w | w
      · exact le_trans (hpre m w) (by rw [hkv.1]; exact hvv)
      · simp only [List.mem_singleton] at w; subst w; rw [hkv.1]; exact hvv
  obtain ⟨a', k1, k2, k3⟩ := decr_of (a := a) hiz.nodup hzn (hm.trans hc.old.1.symm) (by rw [e2, hc.old.2.1])
  obtain ⟨t', t1, t2, t3⟩ := decr_of (a := a') (pre := q1) (m := n') (post := ⟨x.ord.next, v', r'⟩ :: q2) hiz.nodup (by rw [hzn]; simp) k2 (by rw [k3]; rfl)
  refine ⟨a', t', k1, ?_, (C93_reverse_next_defined hzr k2).1 (by rw [t1]; rfl), t1, ?_⟩
  · rw [deref_of (y := z) (a := a') k2 hiz.nodup (by rw [hzn]; simp) k3]
  · rw [deref_of (y := z) (a := t') (n := n') t2 hiz.nodup (by rw [hzn]; simp) t3, hkv.1, hkv.2]

/-! ### The loop backward, with a function that changes the map -/

/-- What holds after any number of turns backward. -/
structure BInv (x0 : PMap V Nat) (tr : List (Visit V)) (x : PMap V Nat) (a : It) : Prop where
  reach : PMap.Reach Sorted x
  kind : x.isMulti = x0.isMulti
  gen : x.act.gen = x0.act.gen
  grows : x0.next ≤ x.next
  hm : a.isMulti = x.isMulti
  place : ∃ pre post, x.act.nodes = pre ++ post ∧ a.act = ⟨headId post, x.act.gen⟩ ∧ (tr ≠ [] → post ≠ []) ∧ (tr = [] → x = x0 ∧ post = []) ∧
    (∀ v ∈ tr, ∀ b f, v.map.incr v.it = some b → v.map.deref b = some f → ∀ n ∈ pre ++ post.take 1, n.key ≤ f.1) ∧
    ((∀ v ∈ tr, x.deref v.it = some v.entry) → ∀ n ∈ post, n ∈ x0.act.nodes → ∃ v ∈ tr, v.it.act.pos = some n.id ∧ v.entry = (n.key, n.val)) ∧
    ((∀ v ∈ tr, v.map = x0) → x = x0 → ent post = (tr.map (·.entry)).reverse)
  bound : tr.Pairwise fun v w => ∀ b f, v.map.incr v.it = some b → v.map.deref b = some f → w.entry.1 ≤ f.1
  there : ∀ v ∈ tr, v.map.deref v.it = some v.entry ∧ v.entry ∈ v.map.content
  old : ∀ v ∈ tr, ∃ n : Node V Nat, n.id < x.next ∧ v.it.isMulti = x.isMulti ∧ v.it.act = ⟨some n.id, x.act.gen⟩ ∧ v.entry = (n.key, n.val) ∧ ∀ m ∈ x.act.nodes, m.id = n.id → m = n

theorem unique_split {p q p' q' : List (Node V Nat)} {n : Node V Nat} (hd : (ids (p ++ n :: q)).Nodup) (e : p ++ n :: q = p' ++ n :: q') : p = p' ∧ q = q' := by
  induction p generalizing p' with
  | nil =>
    cases p' with
    | nil => simpa using e
    | cons m p' =>
      simp only [List.nil_append, List.cons_append, List.cons.injEq] at e
      simp only [ids, List.nil_append, List.map_cons, List.nodup_cons] at hd
      exact absurd (List.mem_map.2 ⟨n, by rw [e.2]; simp, rfl⟩) hd.1
  | cons m p ih =>
    cases p' with
    | nil =>
      simp only [List.nil_append, List.cons_append, List.cons.injEq] at e
      simp only [ids, List.cons_append, List.map_cons, List.nodup_cons] at hd
      exact absurd (List.mem_map.2 ⟨n, by simp, by rw [e.1]⟩) hd.1
    | cons m' p' =>
      simp only [List.cons_append, List.cons.injEq] at e
      simp only [ids, List.cons_append, List.map_cons, List.nodup_cons] at hd
      obtain ⟨h1, h2⟩ := ih hd.2 e.2
      exact ⟨by rw [e.1, h1], h2⟩

theorem deref_mem {x : PMap V Nat} {t : It} {n : Node V Nat} (hm : t.isMulti = x.isMulti) (ht : t.act = ⟨some n.id, x.act.gen⟩) {e : V × Nat} (h : x.deref t = some e) :
    ∃ m ∈ x.act.nodes, m.id = n.id := by
  by_contra hc
  push Not at hc
  have key : x.act.deref ⟨some n.id, x.act.gen⟩ = none := by
    simp only [Seq.deref, ne_eq, not_true_eq_false, if_false, Option.bind_some]
    rw [List.find?_eq_none.2 (by intro m hm; simpa using hc m hm)]; rfl
  cases hb : x.isMulti <;> simp [PMap.deref, It.act, PMap.act, hm, hb] at * <;> rw [ht, key] at h <;> cases h

theorem binv {x0 : PMap V Nat} (h0 : PMap.Reach Sorted x0) {tr : List (Visit V)} {x : PMap V Nat} {a : It} (h : RTurns x0 tr x a) : BInv x0 tr x a := by
  induction h with
  | start =>
    obtain ⟨b1, b2, b3, b4⟩ := act_gen (x := x0)
    exact ⟨h0, rfl, rfl, le_refl _, b4, ⟨x0.act.nodes, [], by simp, by rw [b2]; rfl, by simp, by simp, by simp, by simp, by simp [ent]⟩, by simp, by simp, by simp⟩
  | turn tr x a t e x' a' _ hd ht hv hc hs ih =>
    obtain ⟨pre, post, e1, e2, e3, e3', e4, e5, e6⟩ := ih.place
    have hi := reach_mi (ordStl 0) ih.reach
    obtain ⟨o1, o2, o3, o4⟩ := hc.old
    have hr' := hc.reach ih.reach
    have hi' := reach_mi (ordStl 0) hr'
    -- the entry given to the function
    obtain ⟨pre1, n, post1, f1, f2, f3, f4, f5⟩ := behind_visit ih.reach ih.hm ht
    rw [hv] at f5
    have hent : e = (n.key, n.val) := Option.some.inj f5
    -- the entry behind the next iterator
    obtain ⟨pre', n', post', g1, g2, g3, g4, g5⟩ := behind_visit hr' (ih.hm.trans o1.symm) hs
    have hh1 : headId post1 = headId post := by rw [e2] at f2; exact (by simpa using f2 : headId post = headId post1).symm
    have hh' : headId post' = headId post := by rw [e2] at g2; exact (by simpa using g2 : headId post = headId post' ∧ _).1.symm
    have hnd := hi.nodup
    have hnd' := hi'.nodup
    have hsort' : Sorted x'.act.nodes := hi'.ok
    have hsort : Sorted x.act.nodes := hi.ok
    have hnx : n.id < x.next := hi.lt n (by rw [f1]; simp)
    -- both places are the same place
    have hpp : pre = pre1 ++ [n] ∧ post = post1 := by
      cases post with
      | nil =>
        cases post1 with
        | nil => rw [f1] at e1; exact ⟨by simpa using e1.symm, rfl⟩
        | cons p l => simp [headId] at hh1
      | cons p l =>
        cases post1 with
        | nil => simp [headId] at hh1
        | cons p1 l1 =>
          have hpid : p1.id = p.id := by simpa [headId] using hh1
          have : p1 = p := same_id hnd (by rw [f1]; simp) (by rw [e1]; simp) hpid
          subst this
          have := unique_split (p := pre) (q := l) (n := p1) (p' := pre1 ++ [n]) (q' := l1) (e1 ▸ hnd) (by rw [← e1, f1]; simp)
          exact ⟨this.1, by rw [this.2]⟩
    obtain ⟨hp1, rfl⟩ := hpp
    -- the element behind is still there
    have hpost : (post = [] ∧ post' = []) ∨ ∃ p l l', post = p :: l ∧ post' = p :: l' := by
      cases post with
      | nil =>
        cases post' with
        | nil => exact .inl ⟨rfl, rfl⟩
        | cons p l => simp [headId] at hh'
      | cons p l =>
        cases post' with
        | nil => simp [headId] at hh'
        | cons p1 l1 =>
          have hpid : p1.id = p.id := by simpa [headId] using hh'
          have hpl : p.id < x.next := hi.lt p (by rw [f1]; simp)
          have : p1 = p := same_id hnd (hc.mem (by rw [g1]; simp) (by omega)) (by rw [f1]; simp) hpid
          subst this
          exact .inr ⟨_, _, _, rfl, rfl⟩
    have hold : ∀ v ∈ tr ++ [⟨x, t, e⟩], ∃ n : Node V Nat, n.id < x'.next ∧ v.it.isMulti = x'.isMulti ∧ v.it.act = ⟨some n.id, x'.act.gen⟩ ∧ v.entry = (n.key, n.val) ∧
        ∀ m ∈ x'.act.nodes, m.id = n.id → m = n := by
      intro v hv'
      rcases List.mem_append.1 hv' with q | q
      · obtain ⟨k, k1, k2, k3, k4, k5⟩ := ih.old v q
        exact ⟨k, by omega, k2.trans o1.symm, by rw [k3, o2], k4, fun m hm hk => k5 m (hc.mem hm (by omega)) hk⟩
      · simp only [List.mem_singleton] at q
        subst q
        exact ⟨n, by omega, f3.trans o1.symm, by rw [o2]; exact f4, hent, fun m hm hk => same_id hnd (hc.mem hm (by omega)) (by rw [f1]; simp) hk⟩
    have hbnd : ∀ v ∈ tr ++ [⟨x, t, e⟩], ∀ b f, v.map.incr v.it = some b → v.map.deref b = some f → ∃ p l, post = p :: l ∧ p.key ≤ f.1 := by
      intro v hv' b f hb hf
      rcases List.mem_append.1 hv' with q | q
      · cases post with
        | nil => exact absurd rfl (e3 (List.ne_nil_of_mem q))
        | cons p l => exact ⟨p, l, rfl, e4 v q b f hb hf p (by simp)⟩
      · simp only [List.mem_singleton] at q
        subst q
        obtain ⟨b', hb', hb1, hb2⟩ := incr_of (y := x) (a := t) hnd f1 f3 f4
        rw [show (⟨x, t, e⟩ : Visit V).map = x from rfl, show (⟨x, t, e⟩ : Visit V).it = t from rfl, hb', Option.some.injEq] at hb
        subst hb
        cases post with
        | nil =>
          exfalso
          have : x.act.deref ⟨none, x.act.gen⟩ = none := by simp [Seq.deref]
          have hb3 : b'.act = ⟨none, x.act.gen⟩ := by rw [hb2]; rfl
          cases hbm : x.isMulti <;> simp [PMap.deref, It.act, PMap.act, hb1, hbm] at * <;> rw [hb3, this] at hf <;> cases hf
        | cons p l =>
          have := deref_of (y := x) (a := b') (n := p) hb1 hnd (by rw [f1]; simp) (by rw [hb2]; rfl)
          rw [show (⟨x, t, e⟩ : Visit V).map = x from rfl, this] at hf
          cases hf
          exact ⟨p, l, rfl, le_refl _⟩
    refine ⟨hr', o1.trans ih.kind, o2.trans ih.gen, ih.grows.trans o3, g3, ⟨pre', n' :: post', g1, g4, by simp, by simp, ?_, ?_, ?_⟩, ?_, ?_, hold⟩
    · intro v hv' b f hb hf m hm
      obtain ⟨p, l, rfl, hpf⟩ := hbnd v hv' b f hb hf
      rcases hpost with ⟨hz, _⟩ | ⟨p', l1, l', hz1, hz2⟩
      · cases hz
      · cases hz1
        subst hz2
        refine le_trans ?_ hpf
        rw [g1, show pre' ++ n' :: p :: l' = (pre' ++ [n']) ++ p :: l' from by simp] at hsort'
        exact (List.pairwise_append.1 hsort').2.2 m (by simpa using hm) p (by simp)
    · intro hst m hm hm0
      have hml : m.id < x.next := old_mem h0 hm0 ih.grows
      have hst' : ∀ v ∈ tr, x.deref v.it = some v.entry := by
        intro v hv'
        obtain ⟨k, k1, k2, k3, k4, k5⟩ := ih.old v hv'
        have h1 := hst v (List.mem_append_left _ hv')
        obtain ⟨j, j1, j2⟩ := deref_mem (x := x') (t := v.it) (n := k) (k2.trans o1.symm) (by rw [k3, o2]) h1
        have := k5 j (hc.mem j1 (by omega)) j2
        subst this
        rw [k4]
        exact deref_of k2 hnd (hc.mem j1 (by omega)) k3
      obtain ⟨j, j1, j2⟩ := deref_mem (x := x') (t := t) (n := n) (f3.trans o1.symm) (by rw [f4, o2]) (hst ⟨x, t, e⟩ (by simp))
      have : j = n := same_id hnd (hc.mem j1 (by omega)) (by rw [f1]; simp) j2
      subst this
      rcases List.mem_cons.1 hm with q | q
      · subst q
        refine ⟨⟨x, t, e⟩, by simp, ?_⟩
        have hmn : m = j := by
          by_contra hne
          have hmx : m ∈ x.act.nodes := hc.mem (by rw [g1]; simp) hml
          obtain ⟨q, q', hq⟩ := List.append_of_mem hmx
          obtain ⟨w1, w2⟩ := hc.behind ih.reach hq g1
          have hjq : j ∈ q ∨ j ∈ q' ∧ j ∈ post' := by
            rw [g1] at j1
            rcases List.mem_append.1 j1 with z | z
            · exact .inl (w1 j z (by omega))
            · rcases List.mem_cons.1 z with z | z
              · exact absurd z.symm hne
              · exact .inr ⟨w2 j z (by omega), z⟩
          rcases hjq with hjq | ⟨_, hjp⟩
          · -- `m` would be behind `j`, that is in `post`, and before the element behind in the changed map
            obtain ⟨r1, r2, hr⟩ := List.append_of_mem hjq
            rw [hr] at hq
            have := unique_split (p := pre1) (n := j) (q := post) (p' := r1) (q' := r2 ++ m :: q') (f1 ▸ hnd) (by rw [← f1, hq]; simp)
            have hmp : m ∈ post := by rw [this.2]; simp
            rcases hpost with ⟨hz, _⟩ | ⟨p, l1, l', hz1, hz2⟩
            · rw [hz] at hmp; cases hmp
            · subst hz2
              obtain ⟨y1, y2⟩ := hc.behind ih.reach (pre := pre1 ++ [j]) (post := l1) (n := p) (by rw [f1, hz1]; simp) (pre' := pre' ++ [m]) (post' := l') (by rw [g1]; simp)
              have hmm : m ∈ pre1 ++ [j] := y1 m (by simp) hml
              rw [f1, show pre1 ++ j :: post = (pre1 ++ [j]) ++ post from by simp] at hnd
              rw [ids, List.map_append, List.nodup_append] at hnd
              exact hnd.2.2 _ (List.mem_map.2 ⟨m, hmm, rfl⟩) _ (List.mem_map.2 ⟨m, hmp, rfl⟩) rfl
          · -- `j` cannot be behind the element behind
            rcases hpost with ⟨_, hz⟩ | ⟨p, l1, l', hz1, hz2⟩
            · rw [hz] at hjp; cases hjp
            · subst hz2
              obtain ⟨y1, y2⟩ := hc.behind ih.reach (pre := pre1 ++ [j]) (post := l1) (n := p) (by rw [f1, hz1]; simp) (pre' := pre' ++ [m]) (post' := l') (by rw [g1]; simp)
              rw [f1, show pre1 ++ j :: post = (pre1 ++ [j]) ++ post from by simp] at hnd
              rw [ids, List.map_append, List.nodup_append] at hnd
              have hjpost : j ∈ post := by
                rw [hz1]
                rcases List.mem_cons.1 hjp with z | z
                · rw [z]; simp
                · exact List.mem_cons_of_mem _ (y2 j z (by omega))
              exact hnd.2.2 _ (List.mem_map.2 ⟨j, by simp, rfl⟩) _ (List.mem_map.2 ⟨j, hjpost, rfl⟩) rfl
        rw [hmn]
        exact ⟨by rw [f4], hent⟩
      · have hmp : m ∈ post := by
          rcases hpost with ⟨_, hz⟩ | ⟨p, l1, l', hz1, hz2⟩
          · rw [hz] at q; cases q
          · subst hz2
            obtain ⟨y1, y2⟩ := hc.behind ih.reach (pre := pre1 ++ [j]) (post := l1) (n := p) (by rw [f1, hz1]; simp) (pre' := pre' ++ [n']) (post' := l') (by rw [g1]; simp)
            rw [hz1]
            rcases List.mem_cons.1 q with z | z
            · rw [z]; simp
            · exact List.mem_cons_of_mem _ (y2 m z hml)
        obtain ⟨v, v1, v2⟩ := e5 hst' m hmp hm0
        exact ⟨v, List.mem_append_left _ v1, v2⟩
    · intro hall hx'
      have hx : x = x0 := hall ⟨x, t, e⟩ (by simp)
      have h6 := e6 (fun v hv' => hall v (List.mem_append_left _ hv')) hx
      have hpp : n' = n ∧ post' = post := by
        rw [hx', ← hx, f1] at g1
        rcases hpost with ⟨hz1, hz2⟩ | ⟨p, l1, l', hz1, hz2⟩
        · rw [hz1, hz2] at g1
          have := List.append_inj_right' g1 rfl
          simp at this
          exact ⟨this.symm, by rw [hz1, hz2]⟩
        · rw [hz1, hz2] at g1
          rw [f1, hz1] at hnd
          have := unique_split (p := pre1 ++ [n]) (n := p) (q := l1) (p' := pre' ++ [n']) (q' := l') (by simpa using hnd) (by simpa using g1)
          have h7 := List.append_inj_right' this.1 rfl
          simp at h7
          exact ⟨h7.symm, by rw [hz1, hz2, this.2]⟩
      rw [hpp.1, hpp.2, List.map_append, List.reverse_append]
      simp only [List.map_cons, List.map_nil, List.reverse_cons, List.reverse_nil, List.nil_append, List.cons_append]
      rw [← h6, hent]; rfl
    · rw [List.pairwise_append]
      refine ⟨ih.bound, by simp, ?_⟩
      intro v hv' w hw b f hb hf
      simp only [List.mem_singleton] at hw
      subst hw
      rw [hent]
      exact e4 v hv' b f hb hf n (by rw [hp1]; simp)
    · intro v hv'
      rcases List.mem_append.1 hv' with q | q
      · exact ih.there v q
      · simp only [List.mem_singleton] at q
        subst q
        exact ⟨hv, by rw [hent, content_eq, f1]; simp [ent]⟩

theorem RTurns.changes {x0 : PMap V Nat} {tr : List (Visit V)} {x : PMap V Nat} {a : It} (h : RTurns x0 tr x a) : Changes x0 x := by
  induction h with
  | start => exact .refl _
  | turn _ _ _ _ _ _ _ _ _ _ _ hc _ ih => exact ih.trans hc

/-- **C93.** Backward too, at every turn the loop can go on: comparing with the beginning is defined, and if they differ there is an entry to give to the function, one of the map now.
So only the `++` after the function can fail. -/
theorem C93_reverse_goes_on {x0 : PMap V Nat} (h0 : PMap.Reach Sorted x0) {tr : List (Visit V)} {x : PMap V Nat} {a : It} (h : RTurns x0 tr x a) :
    (∀ v ∈ tr, v.map.deref v.it = some v.entry ∧ v.entry ∈ v.map.content) ∧
    ((differ x a x.begin_ = some true ∧ ∃ t e, x.decr a = some t ∧ x.deref t = some e ∧ e ∈ x.content) ∨ differ x a x.begin_ = some false) := by
  have hi := binv h0 h
  refine ⟨hi.there, ?_⟩
  have hm := reach_mi (ordStl 0) hi.reach
  obtain ⟨pre, post, e1, e2, _⟩ := hi.place
  rcases List.eq_nil_or_concat pre with rfl | ⟨pre', m, rfl⟩
  · obtain ⟨b1, b2, b3, b4⟩ := act_gen (x := x)
    have hs : Stretch x a x.begin_ [] [] x.act.nodes := ⟨by simp, hm.nodup, hi.hm, b3, by rw [e2]; simp [e1], by rw [b1]; rfl⟩
    exact .inr hs.nil
  · obtain ⟨t, t1, t2, t3⟩ := decr_of (a := a) (pre := pre') (m := m) (post := post) hm.nodup (by rw [e1]; simp) hi.hm e2
    refine .inl ⟨(C93_reverse_next_defined hi.reach hi.hm).1 (by rw [t1]; rfl), t, _, t1, deref_of (y := x) (n := m) t2 hm.nodup (by rw [e1]; simp) t3, ?_⟩
    rw [content_eq, e1]; simp [ent]

/-- **C93.** How far up the backward loop can come again, whatever the function does: once the loop has given an entry to the function, no later one has a value greater than that of the
entry that was the next one above it. (It may have a greater value than the entry itself: `C93_reverse_twice_refuted` shows how.) -/
theorem C93_reverse_bound {x0 : PMap V Nat} (h0 : PMap.Reach Sorted x0) {tr : List (Visit V)} {x : PMap V Nat} {a : It} (h : RTurns x0 tr x a) :
    tr.Pairwise fun v w => ∀ above e, v.map.incr v.it = some above → v.map.deref above = some e → w.entry.1 ≤ e.1 := (binv h0 h).bound

/-- **C93.** If no entry that was given to the function has been erased, the backward loop misses nothing: at its end, every entry of the map at the start that is still there has been
given to the function. -/
theorem C93_reverse_complete {x0 : PMap V Nat} (h0 : PMap.Reach Sorted x0) {tr : List (Visit V)} {x : PMap V Nat} {a : It} (h : RTurns x0 tr x a) (he : differ x a x.begin_ = some false)
    (hs : ∀ v ∈ tr, x.deref v.it = some v.entry) {b : It} (hb : x0.valid b) {e : V × Nat} (h1 : x0.deref b = some e) (h2 : x.deref b = some e) :
    ∃ v ∈ tr, v.it.act = b.act ∧ v.entry = e := by
  have hi := binv h0 h
  have hm := reach_mi (ordStl 0) hi.reach
  have hm0 := reach_mi (ordStl 0) h0
  obtain ⟨pre, post, e1, e2, _, _, _, e5, _⟩ := hi.place
  obtain ⟨p0, n, q0, f1, f2, f3⟩ := valid_split hb
  rw [h1] at f3
  obtain ⟨m, m1, m2⟩ := deref_mem (x := x) (t := b) (n := n) (hb.1.trans hi.kind.symm) (by rw [f2, hi.gen]) h2
  have hn0 : n.id < x0.next := hm0.lt n (by rw [f1]; simp)
  have hpre : pre = [] := by
    rcases List.eq_nil_or_concat pre with rfl | ⟨pre', k, rfl⟩
    · rfl
    · obtain ⟨t, t1, t2, t3⟩ := decr_of (a := a) (pre := pre') (m := k) (post := post) hm.nodup (by rw [e1]; simp) hi.hm e2
      have := (C93_reverse_next_defined hi.reach hi.hm).1 (by rw [t1]; rfl)
      rw [he] at this; cases this
  subst hpre
  have hall := h.changes
  have hmn : m = n := same_id hm0.nodup (hall.mem m1 (by omega)) (by rw [f1]; simp) m2
  subst hmn
  obtain ⟨v, v1, v2, v3⟩ := e5 hs m (by rw [e1] at m1; simpa using m1) (by rw [f1]; simp)
  obtain ⟨k, k1, k2, k3, k4, k5⟩ := hi.old v v1
  refine ⟨v, v1, ?_, ?_⟩
  · rw [k3, f2, ← hi.gen]
    rw [k3] at v2
    have v2 : some k.id = some m.id := v2
    rw [v2]
  · rw [v3]; exact (Option.some.inj f3).symm

/-- **C93.** If the function changes nothing, the turns of the backward loop give the entries from the last one downwards, and all of them once the loop is at its end. -/
theorem C93_reverse_unchanged {x0 : PMap V Nat} (h0 : PMap.Reach Sorted x0) {tr : List (Visit V)} {a : It} (h : RTurns x0 tr x0 a) (hs : ∀ v ∈ tr, v.map = x0) :
    tr.map (·.entry) <+: x0.content.reverse ∧ (differ x0 a x0.begin_ = some false → tr.map (·.entry) = x0.content.reverse) := by
  have hi := binv h0 h
  have hm := reach_mi (ordStl 0) h0
  obtain ⟨pre, post, e1, e2, _, _, _, _, e6⟩ := hi.place
  have h6 := e6 hs rfl
  have hc : x0.content.reverse = tr.map (·.entry) ++ (ent pre).reverse := by
    rw [content_eq, e1, ent, List.map_append, List.reverse_append]
    rw [← ent, ← ent, h6, List.reverse_reverse]
  refine ⟨⟨_, hc.symm⟩, fun he => ?_⟩
  have hpre : pre = [] := by
    rcases List.eq_nil_or_concat pre with rfl | ⟨pre', k, rfl⟩
    · rfl
    · obtain ⟨t, t1, t2, t3⟩ := decr_of (a := a) (pre := pre') (m := k) (post := post) hm.nodup (by rw [e1]; simp) hi.hm e2
      have := (C93_reverse_next_defined h0 hi.hm).1 (by rw [t1]; rfl)
      rw [he] at this; cases this
  rw [hc, hpre]; simp [ent]

/-! ### Concrete cases -/

/-- Three records; the loop has given the one with 5 to the function, forward and backward. -/
def dn : Idx Nat := ((((Idx.empty true).add exHash 3 1).1.add exHash 5 0).1.add exHash 7 2).1
theorem dn_maps : Maps true dn := (IReach.step exHash _ (.add 7 2) _ (.step exHash _ (.add 5 0) _ (.step exHash _ (.add 3 1) _ .init (.add _ _)) (.add _ _)) (.add _ _)).maps
/-- The iterator at 5, the one behind it. -/
def at5 : It := ((dn.ord.incr dn.ord.begin_).getD dn.ord.end_)
def behind5 : It := ((dn.ord.incr at5).getD dn.ord.end_)
theorem at5_valid : dn.ord.valid at5 ∧ dn.ord.deref at5 = some (5, 0) := ⟨⟨rfl, rfl⟩, rfl⟩
example : dn.ord.decr behind5 = some at5 ∧ behind5.isMulti = dn.ord.isMulti ∧ dn.ord.content = [] ++ (3, 1) :: (5, 0) :: [(7, 2)] := ⟨rfl, rfl, rfl⟩
/-- Two turns in which the function adds a record in front of the visited one and one behind. -/
def dn1 : PMap Nat Nat := ((dn.ord.emplace (ordStl 0) 4 8).1.emplace (ordStl 0) 1 9).1
theorem dn1_changes : Changes dn.ord dn1 := .step _ _ _ (.emplace 1 9) (.step _ _ _ (.emplace 4 8) (.refl _) rfl) rfl
example : ∃ tr x a, Turns dn.ord tr x a ∧ tr.map (·.entry) = [(3, 1), (4, 8)] ∧ differ x a dn.ord.end_ = some true :=
  ⟨_, dn1, ((dn1.incr ((dn1.incr dn.ord.begin_).getD dn.ord.end_)).getD dn.ord.end_),
    .turn _ _ _ (4, 8) dn1 _ (.turn [] dn.ord dn.ord.begin_ (3, 1) dn1 ((dn1.incr dn.ord.begin_).getD dn.ord.end_) .start (by decide) rfl dn1_changes rfl) (by decide) rfl (.refl _) rfl, rfl, by decide⟩
/-- Two turns backward: the function is given 7, adds 6, and is then given 6; nothing visited was erased. -/
def dn2 : PMap Nat Nat := (dn.ord.emplace (ordStl 0) 6 9).1
example : ∃ tr x a, RTurns dn.ord tr x a ∧ tr.map (·.entry) = [(7, 2), (6, 9)] ∧ differ x a x.begin_ = some true ∧ ∀ v ∈ tr, x.deref v.it = some v.entry :=
  ⟨_, dn2, ((dn2.decr ((dn2.decr dn.ord.end_).getD dn.ord.end_)).getD dn.ord.end_),
    .turn _ _ _ ((dn2.decr ((dn2.decr dn.ord.end_).getD dn.ord.end_)).getD dn.ord.end_) (6, 9) dn2 _ (.turn [] dn.ord dn.ord.end_ ((dn.ord.decr dn.ord.end_).getD dn.ord.end_) (7, 2) dn2 ((dn2.decr dn.ord.end_).getD dn.ord.end_) .start
      (by decide) rfl rfl (.step _ _ _ (.emplace 6 9) (.refl _) rfl) rfl) (by decide) rfl rfl (.refl _) rfl, rfl, by decide, by decide⟩
/-- A call that erases the record at the iterator. -/
example : ∃ y, dn.Erase exHash 5 0 y ∧ y.ord.incr at5 = none ∧ y.ord.decr behind5 ≠ none := by
  obtain ⟨y, h, _, _⟩ := C75_erase dn_maps exHash 5 0
  refine ⟨y, h.1, C93_erase_refuted dn_maps at5_valid.1 at5_valid.2 (by decide) h.1, ?_⟩
  obtain ⟨a', h1, _⟩ := C93_reverse_skips_refuted (l1 := []) (l2 := [(7, 2)]) (u := 3) (p := 1) dn_maps rfl (by decide) (by simp) (by decide) (a := behind5) (t := at5) rfl rfl rfl h.1
  rw [h1]; simp
/-- A call that changes another record. -/
example : ∃ y, IStep exHash dn (.set 7 1 2) y ∧ ¬ erases (.set 7 1 2) 5 ∧ (y.ord.incr at5).isSome := by
  obtain ⟨y, h, _⟩ := (C75_set dn_maps exHash 7 1 2).2 (by simp)
  exact ⟨y, .set _ _ _ _ h.1, by simp [erases], (C93_other_values dn_maps at5_valid.1 at5_valid.2 (.set _ _ _ _ h.1) (by simp [erases])).2.2⟩
example : until_ (fun _ _ => true) [] (dn.ord.content.reverse.map (·.2)) = [2, 0, 1] := by decide

end MVault.Rn
