import Verif.PropsReent
/-
C100: Request with a predicate that changes the vault.
-/
set_option linter.unusedSectionVars false
set_option linter.unusedSimpArgs false
set_option linter.unusedVariables false
namespace MVault.Rn
open MVault.Mp MVault.Ix
variable {V : Type} [LinearOrder V]

/-! ### Lemmas -/

/-- A changed map: the elements that stay are in the old order; new elements have new addresses; iterators of elements that stay remain good. -/
structure Keeps (x y : PMap V Nat) : Prop where
  kind : y.isMulti = x.isMulti
  gen : y.act.gen = x.act.gen
  grows : x.next ≤ y.next
  sub : ∀ b ≤ x.next, (y.act.nodes.filter fun m => decide (m.id < b)).Sublist (x.act.nodes.filter fun m => decide (m.id < b))

theorem Keeps.refl (x : PMap V Nat) : Keeps x x := ⟨rfl, rfl, le_refl _, fun _ _ => .refl _⟩

theorem Keeps.trans {x y z : PMap V Nat} (h : Keeps x y) (h' : Keeps y z) : Keeps x z :=
  ⟨h'.kind.trans h.kind, h'.gen.trans h.gen, h.grows.trans h'.grows, fun b hb => (h'.sub b (hb.trans h.grows)).trans (h.sub b hb)⟩

theorem Changes.keeps {x y : PMap V Nat} (h : Changes x y) : Keeps x y := ⟨h.old.1, h.old.2.1, h.old.2.2.1, h.old.2.2.2⟩

theorem keeps_sublist {x y : PMap V Nat} (h1 : y.isMulti = x.isMulti) (h2 : y.act.gen = x.act.gen) (h3 : y.next = x.next) (h4 : y.act.nodes.Sublist x.act.nodes) : Keeps x y :=
  ⟨h1, h2, h3.ge, fun b _ => List.Sublist.filter _ h4⟩

theorem eraseKey_keeps (x : PMap V Nat) (k : V) : Keeps x (x.eraseKey k).1 := by
  cases hm : x.isMulti <;> refine keeps_sublist ?_ ?_ ?_ ?_ <;> simp [PMap.eraseKey, hm, PMap.act, Seq.eraseKey]

theorem clear_keeps (x : PMap V Nat) : Keeps x x.clear := by
  cases hm : x.isMulti <;> refine keeps_sublist ?_ ?_ ?_ ?_ <;> simp [PMap.clear, hm, PMap.act]

theorem eraseAt_keeps {x : PMap V Nat} {a : It} {z : PMap V Nat × It} (h : x.eraseAt a = some z) : Keeps x z.1 := by
  have hs : x.step (ordStl 0) (.eraseAt a) = some z.1 := by simp [PMap.step, h]
  have := step_old hs
  exact ⟨this.1, this.2.1, this.2.2.1, this.2.2.2⟩

theorem Erasures.keeps {x y : PMap V Nat} (h : Erasures x y) : Keeps x y := by
  induction h with
  | refl => exact .refl _
  | key y k _ ih => exact ih.trans (eraseKey_keeps _ _)
  | elem y a z _ he ih => exact ih.trans (eraseAt_keeps he)
  | clear y _ ih => exact ih.trans (clear_keeps _)

theorem Erasures.reach {good : List (Node V Nat) → Prop} (S : Stl good) {x y : PMap V Nat} (h : Erasures x y) (hx : PMap.Reach good x) : PMap.Reach good y := by
  induction h with
  | refl => exact hx
  | key y k _ ih => exact .step S _ _ (.eraseKey k) ih rfl
  | elem y a z _ he ih => exact .step S _ _ (.eraseAt a) ih (by simp [PMap.step, he])
  | clear y _ ih => exact .step S _ _ .clear ih rfl

theorem Erasures.subset {x y : PMap V Nat} (h : Erasures x y) : y.act.nodes.Sublist x.act.nodes := by
  induction h with
  | refl => exact .refl _
  | key y k _ ih => rw [eraseKey_nodes]; exact List.filter_sublist.trans ih
  | elem y a z _ he ih =>
    refine List.Sublist.trans ?_ ih
    cases hm : y.isMulti with
    | true =>
      simp only [PMap.eraseAt, hm, if_true, Option.map_eq_some_iff, Seq.eraseAt] at he
      obtain ⟨c, hc, rfl⟩ := he
      by_cases hg : a.m.gen ≠ y.multi.gen
      · rw [if_pos hg] at hc; cases hc
      · rw [if_neg hg] at hc
        simp only [Option.bind_eq_some_iff, Option.map_eq_some_iff] at hc
        obtain ⟨i, _, j, _, rfl⟩ := hc
        simp [PMap.act, hm]
    | false =>
      simp only [PMap.eraseAt, hm, Bool.false_eq_true, if_false, Option.map_eq_some_iff, Seq.eraseAt] at he
      obtain ⟨c, hc, rfl⟩ := he
      by_cases hg : a.s.gen ≠ y.single.gen
      · rw [if_pos hg] at hc; cases hc
      · rw [if_neg hg] at hc
        simp only [Option.bind_eq_some_iff, Option.map_eq_some_iff] at hc
        obtain ⟨i, _, j, _, rfl⟩ := hc
        simp [PMap.act, hm]
  | clear y _ ih =>
    refine List.Sublist.trans ?_ ih
    cases hm : y.isMulti <;> simp [PMap.clear, hm, PMap.act]

theorem Keeps.mem {x y : PMap V Nat} (h : Keeps x y) {m : Node V Nat} (hm : m ∈ y.act.nodes) (hl : m.id < x.next) : m ∈ x.act.nodes :=
  ((h.sub _ (le_refl _)).trans List.filter_sublist).subset (List.mem_filter.2 ⟨hm, by simpa using hl⟩)

theorem sub_around {n : Node V Nat} : ∀ (p q p' q' : List (Node V Nat)), (ids (p ++ n :: q)).Nodup → (p' ++ n :: q').Sublist (p ++ n :: q) → p'.Sublist p ∧ q'.Sublist q := by
  intro p
  induction p with
  | nil =>
    intro q p' q' hd hs
    cases p' with
    | nil => exact ⟨.refl _, by simpa using hs⟩
    | cons m p' =>
      have hnq : n ∉ q := fun hc => by
        simp only [ids, List.nil_append, List.map_cons, List.nodup_cons] at hd
        exact hd.1 (List.mem_map.2 ⟨n, hc, rfl⟩)
      cases hs with
      | cons _ h2 => exact absurd (h2.subset (by simp)) hnq
      | cons_cons _ h2 => exact absurd (h2.subset (by simp)) hnq
  | cons m p ih =>
    intro q p' q' hd hs
    have hd' : (ids (p ++ n :: q)).Nodup := by
      simp only [ids, List.cons_append, List.map_cons, List.nodup_cons] at hd; exact hd.2
    cases p' with
    | nil =>
      cases hs with
      | cons _ h2 => exact ⟨List.nil_sublist _, (ih q [] q' hd' h2).2⟩
      | cons_cons _ h2 =>
        simp only [ids, List.cons_append, List.map_cons, List.nodup_cons] at hd
        exact absurd (List.mem_map.2 ⟨n, by simp, rfl⟩) hd.1
    | cons m' p' =>
      rw [List.cons_append] at hs
      cases hs with
      | cons _ h2 => exact ⟨((ih q (m' :: p') q' hd' h2).1).cons _, (ih q (m' :: p') q' hd' h2).2⟩
      | cons_cons _ h2 => exact ⟨((ih q p' q' hd' h2).1).cons_cons _, (ih q p' q' hd' h2).2⟩

/-- The old elements before and behind an old element were so before. -/
theorem Keeps.behind {x y : PMap V Nat} (h : Keeps x y) (hd : (ids x.act.nodes).Nodup) (hl : ∀ m ∈ x.act.nodes, m.id < x.next) {pre post pre' post' : List (Node V Nat)} {n : Node V Nat}
    (e : x.act.nodes = pre ++ n :: post) (e' : y.act.nodes = pre' ++ n :: post') : (∀ m ∈ pre', m.id < x.next → m ∈ pre) ∧ ∀ m ∈ post', m.id < x.next → m ∈ post := by
  have hn : n.id < x.next := hl n (by rw [e]; simp)
  have hs := (h.sub _ (le_refl _)).trans List.filter_sublist
  rw [e', e, List.filter_append, List.filter_cons, if_pos (by simpa using hn)] at hs
  rw [e] at hd
  obtain ⟨k1, k2⟩ := sub_around _ _ _ _ hd hs
  exact ⟨fun m hm hl => k1.subset (List.mem_filter.2 ⟨hm, by simpa using hl⟩), fun m hm hl => k2.subset (List.mem_filter.2 ⟨hm, by simpa using hl⟩)⟩

/-! ### The loop -/

/-- An element was given to the predicate. -/
def Seen (tr : List (Visit V)) (n : Node V Nat) : Prop := ∃ v ∈ tr, v.it.act.pos = some n.id ∧ v.entry = (n.key, n.val)

/-- What holds after any number of turns. -/
structure QInv (good : List (Node V Nat) → Prop) (x0 : PMap V Nat) (pre0 mid0 post0 : List (Node V Nat)) (tr : List (Visit V)) (x : PMap V Nat) (a : It) : Prop where
  reach : PMap.Reach good x
  keeps : Keeps x0 x
  hm : a.isMulti = x.isMulti
  place : ∃ pre post, x.act.nodes = pre ++ post ∧ a.act = ⟨headId post, x.act.gen⟩ ∧
    (∀ n ∈ pre, n ∈ x0.act.nodes → n ∈ pre0 ∨ Seen tr n) ∧
    (∀ v ∈ tr, ∀ n ∈ post, v.it.act.pos ≠ some n.id) ∧
    (∀ n ∈ post, n ∈ x0.act.nodes → n ∈ mid0 ++ post0) ∧
    (∀ s, post0.head? = some s → s ∈ x.act.nodes → s ∈ post)
  old : ∀ v ∈ tr, ∃ i < x.next, v.it.act.pos = some i
  once : (tr.map fun v => v.it.act.pos).Nodup
  there : ∀ v ∈ tr, v.map.deref v.it = some v.entry ∧ v.entry ∈ v.map.content
  sound : ∀ v ∈ tr, (∃ n ∈ mid0, v.it.act.pos = some n.id ∧ v.entry = (n.key, n.val)) ∨ ∀ n ∈ x0.act.nodes, v.it.act.pos ≠ some n.id

theorem differ_true {x : PMap V Nat} {a b : It} {v : Bool} (h : differ x a b = some v) : usable x a = true ∧ usable x b = true ∧ a.ne b = v := by
  unfold differ at h
  by_cases hu : usable x a = true ∧ usable x b = true
  · rw [if_pos hu] at h; exact ⟨hu.1, hu.2, Option.some.inj h⟩
  · rw [if_neg hu] at h; cases h

theorem usable_at {x : PMap V Nat} {a : It} {i g : Nat} (h : usable x a = true) (ha : a.act = ⟨some i, g⟩) : ∃ n ∈ x.act.nodes, n.id = i := by
  unfold usable at h
  rw [ha] at h
  simp only [Bool.and_eq_true, List.any_eq_true, decide_eq_true_eq] at h
  exact h.2

variable {good : List (Node V Nat) → Prop} {x0 : PMap V Nat} {start stop : It} {pre0 mid0 post0 : List (Node V Nat)}

theorem qinv_turn (S : Stl good) (h0 : PMap.Reach good x0) (hst : Stretch x0 start stop pre0 mid0 post0) {tr : List (Visit V)} {x x' : PMap V Nat} {a a' : It} {e : V × Nat}
    (ih : QInv good x0 pre0 mid0 post0 tr x a) (hd : differ x a stop = some true) (hv : x.deref a = some e) (hc : Keeps x x') (hr' : PMap.Reach good x') (hs : x'.incr a = some a') :
    QInv good x0 pre0 mid0 post0 (tr ++ [⟨x, a, e⟩]) x' a' ∧ ∀ s, post0.head? = some s → ∀ n ∈ x.act.nodes, a.act.pos = some n.id → ∃ pre post, x.act.nodes = pre ++ n :: post ∧ s ∈ post := by
  obtain ⟨pre, post, e1, e2, e3, e4, e5, e6⟩ := ih.place
  have hi0 := reach_mi S h0
  have hi := reach_mi S ih.reach
  have hi' := reach_mi S hr'
  obtain ⟨pre', n', post', f1, f2, f3, f4⟩ := incr_some (ih.hm.trans hc.kind.symm) hs
  cases post with
  | nil => rw [e2] at f2; simp [headId] at f2
  | cons n post =>
    have hnn : n'.id = n.id := by rw [e2] at f2; exact (by simpa [headId] using f2.symm : n'.id = n.id ∧ _).1
    have hnl : n.id < x.next := hi.lt n (by rw [e1]; simp)
    have hn' : n' = n := same_id hi.nodup (hc.mem (by rw [f1]; simp) (by omega)) (by rw [e1]; simp) hnn
    subst hn'
    obtain ⟨k1, k2⟩ := hc.behind hi.nodup hi.lt e1 f1
    have hent : e = (n'.key, n'.val) := by
      have := deref_of ih.hm hi.nodup (n := n') (by rw [e1]; simp) (by rw [e2]; rfl)
      rw [this] at hv; exact (Option.some.inj hv).symm
    have hpos : a.act.pos = some n'.id := by rw [f2]
    have hnd := hi.nodup; rw [e1] at hnd
    have hnd' := hi'.nodup; rw [f1] at hnd'
    have hne : ∀ m ∈ post', m.id ≠ n'.id := by
      simp only [ids, List.map_append, List.map_cons, List.nodup_append, List.nodup_cons] at hnd'
      intro m hm he
      exact hnd'.2.1.1 (he ▸ List.mem_map.2 ⟨m, hm, rfl⟩)
    have hdis : ∀ m ∈ pre, m ∉ n' :: post := by
      intro m hm hm'
      simp only [ids, List.map_append, List.nodup_append] at hnd
      exact hnd.2.2 m.id (List.mem_map.2 ⟨m, hm, rfl⟩) m.id (List.mem_map.2 ⟨m, hm', rfl⟩) rfl
    obtain ⟨u1, u2, u3⟩ := differ_true hd
    have hkx := ih.keeps
    -- the element at `stop` is behind the current one
    have hstop : ∀ s, post0.head? = some s → s ∈ post ∧ s ∈ x.act.nodes ∧ s.id < x.next := by
      intro s hs0
      have hs0' : s ∈ x0.act.nodes := by rw [hst.nodes]; simp [List.mem_of_mem_head? hs0]
      have hb : stop.act = ⟨some s.id, x0.act.gen⟩ := by rw [hst.eb]; simp [headId, hs0]
      obtain ⟨m, hm1, hm2⟩ := usable_at u2 hb
      have hml : m.id < x0.next := by rw [hm2]; exact hi0.lt s hs0'
      have hms : m = s := same_id hi0.nodup (hkx.mem hm1 hml) hs0' hm2
      subst hms
      have hp := e6 m hs0 hm1
      refine ⟨?_, hm1, hi.lt m hm1⟩
      rcases List.mem_cons.1 hp with q | q
      · exfalso
        rw [ne_act (ih.hm.trans (hkx.kind.trans hst.mb.symm)), hb, hpos, q] at u3
        simp at u3
      · exact q
    have hmem : n' ∈ x0.act.nodes → n' ∈ mid0 := by
      intro hn0
      rcases List.mem_append.1 (e5 n' (by simp) hn0) with q | q
      · exact q
      · exfalso
        cases hp0 : post0 with
        | nil => rw [hp0] at q; simp at q
        | cons s p0 =>
          obtain ⟨s1, s2, s3⟩ := hstop s (by rw [hp0]; rfl)
          obtain ⟨l1, l2, hl⟩ := List.append_of_mem s1
          have ex : x.act.nodes = (pre ++ n' :: l1) ++ s :: l2 := by rw [e1, hl]; simp
          have ex0 : x0.act.nodes = (pre0 ++ mid0) ++ s :: p0 := by rw [hst.nodes, hp0]; simp
          obtain ⟨g1, _⟩ := hkx.behind hi0.nodup hi0.lt ex0 ex
          have hin := g1 n' (by simp) (hi0.lt n' hn0)
          have hnd0 := hi0.nodup
          rw [ex0] at hnd0
          simp only [ids, List.map_append, List.nodup_append] at hnd0
          rw [hp0] at q
          exact hnd0.2.2 n'.id (by rw [← List.map_append]; exact List.mem_map.2 ⟨n', hin, rfl⟩) n'.id (List.mem_map.2 ⟨n', q, rfl⟩) rfl
    have hk' : Keeps x0 x' := hkx.trans hc
    refine ⟨⟨hr', hk', f3, ⟨pre' ++ [n'], post', by rw [f1]; simp, f4, ?_, ?_, ?_, ?_⟩, ?_, ?_, ?_, ?_⟩, ?_⟩
    · intro m hm hm0
      rcases List.mem_append.1 hm with q | q
      · rcases e3 m (k1 m q (lt_of_lt_of_le (hi0.lt m hm0) hkx.grows)) hm0 with r | ⟨v, v1, v2⟩
        · exact .inl r
        · exact .inr ⟨v, List.mem_append_left _ v1, v2⟩
      · simp only [List.mem_singleton] at q
        subst q
        exact .inr ⟨⟨x, a, e⟩, by simp, hpos, hent⟩
    · intro v hv m hm hp
      rcases List.mem_append.1 hv with q | q
      · obtain ⟨i, hi1, hi2⟩ := ih.old v q
        rw [hi2] at hp
        have : m.id < x.next := by cases hp; exact hi1
        exact e4 v q m (List.mem_cons_of_mem _ (k2 m hm this)) (by rw [hi2]; exact hp)
      · simp only [List.mem_singleton] at q
        subst q
        rw [hpos] at hp
        exact hne m hm (Option.some.inj hp).symm
    · intro m hm hm0
      exact e5 m (List.mem_cons_of_mem _ (k2 m hm (lt_of_lt_of_le (hi0.lt m hm0) hkx.grows))) hm0
    · intro s hs0 hsx
      obtain ⟨s1, s2, s3⟩ := hstop s hs0
      rw [f1] at hsx
      rcases List.mem_append.1 hsx with q | q
      · exact absurd (List.mem_cons_of_mem _ s1) (hdis s (k1 s q s3))
      · rcases List.mem_cons.1 q with q | q
        · exfalso
          simp only [ids, List.map_append, List.map_cons, List.nodup_append, List.nodup_cons] at hnd
          exact hnd.2.1.1 (List.mem_map.2 ⟨s, s1, by rw [q]⟩)
        · exact q
    · intro v hv
      rcases List.mem_append.1 hv with q | q
      · obtain ⟨i, hi1, hi2⟩ := ih.old v q
        exact ⟨i, lt_of_lt_of_le hi1 hc.grows, hi2⟩
      · simp only [List.mem_singleton] at q
        subst q
        exact ⟨n'.id, lt_of_lt_of_le hnl hc.grows, hpos⟩
    · rw [List.map_append, List.nodup_append]
      refine ⟨ih.once, by simp, ?_⟩
      intro u hu w hw
      simp only [List.map_cons, List.map_nil, List.mem_singleton] at hw
      subst hw
      obtain ⟨v, hv, rfl⟩ := List.mem_map.1 hu
      rw [hpos]; exact e4 v hv n' (by simp)
    · intro v hv'
      rcases List.mem_append.1 hv' with q | q
      · exact ih.there v q
      · simp only [List.mem_singleton] at q
        subst q
        refine ⟨hv, ?_⟩
        rw [hent, content_eq, e1]
        simp [ent]
    · intro v hv'
      rcases List.mem_append.1 hv' with q | q
      · exact ih.sound v q
      · simp only [List.mem_singleton] at q
        subst q
        by_cases hin : n' ∈ x0.act.nodes
        · exact .inl ⟨n', hmem hin, hpos, hent⟩
        · refine .inr fun m hm hp => hin ?_
          have : m.id = n'.id := by rw [hpos] at hp; exact (Option.some.inj hp).symm
          have hl : n'.id < x0.next := this ▸ hi0.lt m hm
          exact hkx.mem (by rw [e1]; simp) hl
    · intro s hs0 m hm hmp
      have : m = n' := same_id hi.nodup hm (by rw [e1]; simp) (by rw [hpos] at hmp; exact (Option.some.inj hmp).symm)
      subst this
      exact ⟨pre, post, e1, (hstop s hs0).1⟩

theorem qinv (S : Stl good) (h0 : PMap.Reach good x0) (hst : Stretch x0 start stop pre0 mid0 post0) {Can : PMap V Nat → PMap V Nat → Prop}
    (hk : ∀ x y, Can x y → Keeps x y) (hr : ∀ x y, Can x y → PMap.Reach good x → PMap.Reach good y) {n : Option Nat} {tr : List (Visit V)} {got : List Nat} {x : PMap V Nat} {a : It}
    (h : Asked Can x0 start stop n tr got x a) : QInv good x0 pre0 mid0 post0 tr x a := by
  induction h with
  | start =>
    refine ⟨h0, .refl _, hst.ma, ⟨pre0, mid0 ++ post0, hst.nodes, hst.ea, fun n hn _ => .inl hn, by simp, fun n hn _ => hn, ?_⟩, by simp, by simp, by simp, by simp⟩
    intro s hs _
    exact List.mem_append_right _ (List.mem_of_mem_head? hs)
  | yes tr got x a e x' e' a' _ hd hl hv hc _ hs ih => exact (qinv_turn S h0 hst ih hd hv (hk _ _ hc) (hr _ _ hc ih.reach) hs).1
  | no tr got x a e x' a' _ hd hl hv hc hs ih => exact (qinv_turn S h0 hst ih hd hv (hk _ _ hc) (hr _ _ hc ih.reach) hs).1

/-- The entries of the ordered map come in ascending order. -/
theorem qsorted (h0 : PMap.Reach Sorted x0) (hst : Stretch x0 start stop pre0 mid0 post0) {n : Option Nat} {tr : List (Visit V)} {got : List Nat} {x : PMap V Nat} {a : It}
    (h : Asked Changes x0 start stop n tr got x a) :
    (tr.map fun v => v.entry.1).Pairwise (· ≤ ·) ∧ (∀ v ∈ tr, ∀ pre post, x.act.nodes = pre ++ post → a.act = ⟨headId post, x.act.gen⟩ → ∀ n ∈ post, v.entry.1 ≤ n.key) ∧
    (∀ v ∈ tr, ∀ s, post0.head? = some s → v.entry.1 ≤ s.key) := by
  have hkr : ∀ x y : PMap V Nat, Changes x y → PMap.Reach Sorted x → PMap.Reach Sorted y := fun x y hc hx => hc.reach hx
  have turn : ∀ (tr : List (Visit V)) (got : List Nat) (x : PMap V Nat) (a : It) (e : V × Nat) (x' : PMap V Nat) (a' : It), Asked Changes x0 start stop n tr got x a →
      differ x a stop = some true → x.deref a = some e → Changes x x' → x'.incr a = some a' →
      ((tr.map fun v => v.entry.1).Pairwise (· ≤ ·) ∧ (∀ v ∈ tr, ∀ pre post, x.act.nodes = pre ++ post → a.act = ⟨headId post, x.act.gen⟩ → ∀ n ∈ post, v.entry.1 ≤ n.key) ∧
        (∀ v ∈ tr, ∀ s, post0.head? = some s → v.entry.1 ≤ s.key)) →
      (((tr ++ [(⟨x, a, e⟩ : Visit V)]).map fun v => v.entry.1).Pairwise (· ≤ ·) ∧
        (∀ v ∈ tr ++ [(⟨x, a, e⟩ : Visit V)], ∀ pre post, x'.act.nodes = pre ++ post → a'.act = ⟨headId post, x'.act.gen⟩ → ∀ n ∈ post, v.entry.1 ≤ n.key) ∧
        (∀ v ∈ tr ++ [(⟨x, a, e⟩ : Visit V)], ∀ s, post0.head? = some s → v.entry.1 ≤ s.key)) := by
    intro tr got x a e x' a' hA hd hv hc hs ⟨i1, i2, i3⟩
    have ih := qinv (ordStl 0) h0 hst (fun _ _ => Changes.keeps) hkr hA
    have hlast := (qinv_turn (ordStl 0) h0 hst ih hd hv hc.keeps (hc.reach ih.reach) hs).2
    have hi := reach_mi (ordStl 0) ih.reach
    have hi' := reach_mi (ordStl 0) (hc.reach ih.reach)
    obtain ⟨pre, post, e1, e2, _⟩ := ih.place
    obtain ⟨pre', n', post', f1, f2, f3, f4⟩ := incr_some (ih.hm.trans hc.keeps.kind.symm) hs
    cases post with
    | nil => rw [e2] at f2; simp [headId] at f2
    | cons n post =>
      have hnn : n'.id = n.id := by rw [e2] at f2; exact (by simpa [headId] using f2.symm : n'.id = n.id ∧ _).1
      have hnl : n.id < x.next := hi.lt n (by rw [e1]; simp)
      have hn' : n' = n := same_id hi.nodup (hc.mem (by rw [f1]; simp) (by omega)) (by rw [e1]; simp) hnn
      subst hn'
      have hent : e = (n'.key, n'.val) := by
        have := deref_of ih.hm hi.nodup (n := n') (by rw [e1]; simp) (by rw [e2]; rfl)
        rw [this] at hv; exact (Option.some.inj hv).symm
      have hsort : Sorted x'.act.nodes := hi'.ok
      rw [f1] at hsort
      have hle : ∀ m ∈ post', n'.key ≤ m.key := (List.pairwise_cons.1 (List.pairwise_append.1 hsort).2.1).1
      have hkey : ∀ v ∈ tr, v.entry.1 ≤ n'.key := fun v hv => i2 v hv pre (n' :: post) e1 e2 n' (by simp)
      refine ⟨?_, ?_, ?_⟩
      · rw [List.map_append, List.pairwise_append]
        refine ⟨i1, by simp, ?_⟩
        intro u hu w hw
        simp only [List.map_cons, List.map_nil, List.mem_singleton] at hw
        subst hw
        obtain ⟨v, hv, rfl⟩ := List.mem_map.1 hu
        rw [hent]; exact hkey v hv
      · intro v hv p q hpq haq m hm
        have hq : q = post' := by
          rw [f4] at haq
          have hid : headId post' = headId q := by simpa using haq
          have hnd := hi'.nodup
          have hall : (pre' ++ [n']) ++ post' = p ++ q := by rw [← hpq, f1]; simp
          cases q with
          | nil =>
            cases post' with
            | nil => rfl
            | cons => simp [headId] at hid
          | cons c q =>
            cases post' with
            | nil => simp [headId] at hid
            | cons d post' =>
              have hcd : d.id = c.id := by simpa [headId] using hid
              have hdc : d = c := same_id hi'.nodup (by rw [f1]; simp) (by rw [hpq]; simp) hcd
              subst hdc
              have hnd2 : ((pre' ++ [n']) ++ d :: post').map (·.id) |>.Nodup := by
                have := hnd; rw [f1] at this; simpa [ids] using this
              have := split_unique (·.id) hall hnd2 rfl
              rw [this.2]
        subst hq
        rcases List.mem_append.1 hv with r | r
        · exact le_trans (hkey v r) (hle m hm)
        · simp only [List.mem_singleton] at r
          subst r
          rw [hent]; exact hle m hm
      · intro v hv s hs0
        rcases List.mem_append.1 hv with r | r
        · exact i3 v r s hs0
        · simp only [List.mem_singleton] at r
          subst r
          obtain ⟨p, q, g1, g2⟩ := hlast s hs0 n' (by rw [e1]; simp) (by rw [f2])
          have hso : Sorted x.act.nodes := hi.ok
          rw [g1] at hso
          rw [hent]
          exact (List.pairwise_cons.1 (List.pairwise_append.1 hso).2.1).1 s g2
  induction h with
  | start => exact ⟨by simp, by simp, by simp⟩
  | yes tr got x a e x' e' a' hA hd hl hv hc _ hs ih => exact turn tr got x a e x' a' hA hd hv hc hs ih
  | no tr got x a e x' a' hA hd hl hv hc hs ih => exact turn tr got x a e x' a' hA hd hv hc hs ih

/-- The first entry given to the predicate is the one at `start`, in the map as it was. -/
theorem qfirst {Can : PMap V Nat → PMap V Nat → Prop} {n : Option Nat} {tr : List (Visit V)} {got : List Nat} {x : PMap V Nat} {a : It} (h : Asked Can x0 start stop n tr got x a) :
    (tr = [] ∧ x = x0 ∧ a = start) ∨ ∃ e rest, tr = ⟨x0, start, e⟩ :: rest ∧ x0.deref start = some e := by
  have key : ∀ (tr : List (Visit V)) (x : PMap V Nat) (a : It) (e : V × Nat), x.deref a = some e → ((tr = [] ∧ x = x0 ∧ a = start) ∨ ∃ e rest, tr = ⟨x0, start, e⟩ :: rest ∧ x0.deref start = some e) →
      ∃ e' rest, tr ++ [⟨x, a, e⟩] = ⟨x0, start, e'⟩ :: rest ∧ x0.deref start = some e' := by
    intro tr x a e hv hq
    rcases hq with ⟨rfl, rfl, rfl⟩ | ⟨e', rest, rfl, he'⟩
    · exact ⟨e, [], rfl, hv⟩
    · exact ⟨e', rest ++ [⟨x, a, e⟩], rfl, he'⟩
  induction h with
  | start => exact .inl ⟨rfl, rfl, rfl⟩
  | yes tr got x a e x' e' a' hA hd hl hv hc _ hs ih => exact .inr (key tr x a e hv ih)
  | no tr got x a e x' a' hA hd hl hv hc hs ih => exact .inr (key tr x a e hv ih)

/-- Nodes in the middle part are those that satisfy the condition. -/
theorem mid_iff {l pre mid post : List (Node V Nat)} (e : l = pre ++ (mid ++ post)) (p : V → Bool) (hf : ((ent l).filter fun e => p e.1) = ent mid) :
    ∀ n ∈ l, (n ∈ mid ∧ p n.key = true) ∨ (n ∈ pre ++ post ∧ p n.key = false) := by
  have hm : ∀ n ∈ mid, p n.key = true := by
    intro n hn
    have : (n.key, n.val) ∈ ent mid := by simp only [ent, List.mem_map]; exact ⟨n, hn, rfl⟩
    rw [← hf] at this
    exact (List.mem_filter.1 this).2
  have hlen : (pre.filter fun n => p n.key).length + (post.filter fun n => p n.key).length = 0 := by
    have h1 := congrArg List.length hf
    simp only [ent, List.filter_map, List.length_map] at h1
    have h2 : (l.filter ((fun e : V × Nat => p e.1) ∘ fun n : Node V Nat => (n.key, n.val))).length = (l.filter fun n => p n.key).length := rfl
    have h3 : mid.filter (fun n => p n.key) = mid := List.filter_eq_self.2 hm
    rw [h2, e, List.filter_append, List.filter_append, List.length_append, List.length_append, h3] at h1
    omega
  intro n hn
  rw [e] at hn
  have hz : ∀ q : List (Node V Nat), (q.filter fun n => p n.key).length = 0 → ∀ n ∈ q, p n.key = false := by
    intro q hq n hn
    have := List.filter_eq_nil_iff.1 (List.length_eq_zero_iff.1 hq) n hn
    simpa using this
  rcases List.mem_append.1 hn with q | q
  · exact .inr ⟨List.mem_append_left _ q, hz pre (by omega) n q⟩
  · rcases List.mem_append.1 q with q | q
    · exact .inl ⟨q, hm n q⟩
    · exact .inr ⟨List.mem_append_right _ q, hz post (by omega) n q⟩

theorem qlen {Can : PMap V Nat → PMap V Nat → Prop} {k : Nat} {tr : List (Visit V)} {got : List Nat} {x : PMap V Nat} {a : It} (h : Asked Can x0 start stop (some k) tr got x a) : tr.length ≤ k := by
  cases h with
  | start => simp
  | yes tr got x a e x' e' a' hA hd hl => simp [atLimit] at hl; simp; omega
  | no tr got x a e x' a' hA hd hl => simp [atLimit] at hl; simp; omega

theorem keeps_same {good : List (Node V Nat) → Prop} (S : Stl good) {x y : PMap V Nat} (hx : PMap.Reach good x) (hy : PMap.Reach good y) (hc : Keeps x y) {a : It} (ha : x.valid a) {e : V × Nat}
    (he : y.deref a = some e) : x.deref a = some e := by
  have hi := reach_mi S hx
  obtain ⟨pre, n, post, e1, e2, e3⟩ := valid_split ha
  obtain ⟨pre', n', post', f1, f2, f3⟩ := valid_split (x := y) ⟨ha.1.trans hc.kind.symm, by rw [he]; rfl⟩
  have hnn : n'.id = n.id := by rw [e2] at f2; exact (by simpa using f2.symm : n'.id = n.id ∧ _).1
  have : n' = n := same_id hi.nodup (hc.mem (by rw [f1]; simp) (by rw [hnn]; exact hi.lt n (by rw [e1]; simp))) (by rw [e1]; simp) hnn
  rw [e3, ← this, ← f3, he]

/-- The records collected are among those given to the predicate, in the same order. -/
theorem qgot (S : Stl good) (h0 : PMap.Reach good x0) (hst : Stretch x0 start stop pre0 mid0 post0) {Can : PMap V Nat → PMap V Nat → Prop}
    (hk : ∀ x y, Can x y → Keeps x y) (hr : ∀ x y, Can x y → PMap.Reach good x → PMap.Reach good y) {n : Option Nat} {tr : List (Visit V)} {got : List Nat} {x : PMap V Nat} {a : It}
    (h : Asked Can x0 start stop n tr got x a) : got.Sublist (tr.map fun v => v.entry.2) := by
  induction h with
  | start => simp
  | yes tr got x a e x' e' a' hA hd hl hv hc he' hs ih =>
    have hi := qinv S h0 hst hk hr hA
    have := keeps_same S hi.reach (hr _ _ hc hi.reach) (hk _ _ hc) (a := a) ⟨hi.hm, by rw [hv]; rfl⟩ he'
    rw [hv] at this
    cases this
    rw [List.map_append]
    exact ih.append (.refl _)
  | no tr got x a e x' a' hA hd hl hv hc hs ih =>
    rw [List.map_append]
    exact ih.trans (List.sublist_append_left _ _)

theorem qcomplete (S : Stl good) (h0 : PMap.Reach good x0) (hst : Stretch x0 start stop pre0 mid0 post0) {tr : List (Visit V)} {y : PMap V Nat} {i : It} (hq : QInv good x0 pre0 mid0 post0 tr y i)
    (he : differ y i stop = some false) {m : Node V Nat} (hmid : m ∈ mid0) (h2 : m ∈ y.act.nodes) : Seen tr m := by
  have hi0 := reach_mi S h0
  have hi := reach_mi S hq.reach
  obtain ⟨pre, post, e1, e2, e3, e4, e5, e6⟩ := hq.place
  have hm0 : m ∈ x0.act.nodes := by rw [hst.nodes]; simp [hmid]
  have hnd0 := hi0.nodup
  rw [hst.nodes] at hnd0
  simp only [ids, List.map_append, List.nodup_append] at hnd0
  have hnp : m ∉ pre0 := fun hc => hnd0.2.2 m.id (List.mem_map.2 ⟨m, hc, rfl⟩) m.id (List.mem_append_left _ (List.mem_map.2 ⟨m, hmid, rfl⟩)) rfl
  obtain ⟨u1, u2, u3⟩ := differ_true he
  rw [ne_act (hq.hm.trans (hq.keeps.kind.trans hst.mb.symm)), e2, hst.eb] at u3
  have hh : headId post = headId post0 := by simpa using u3
  rw [e1] at h2
  rcases List.mem_append.1 h2 with q | q
  · rcases e3 m q hm0 with r | r
    · exact absurd r hnp
    · exact r
  · exfalso
    cases hp : post with
    | nil => rw [hp] at q; cases q
    | cons s p =>
      cases hp0 : post0 with
      | nil => rw [hp, hp0] at hh; simp [headId] at hh
      | cons s0 p0 =>
        have hid : s.id = s0.id := by rw [hp, hp0] at hh; simpa [headId] using hh
        have hs0 : s0 ∈ x0.act.nodes := by rw [hst.nodes, hp0]; simp
        have hss : s = s0 := same_id hi0.nodup (hq.keeps.mem (by rw [e1, hp]; simp) (by rw [hid]; exact hi0.lt s0 hs0)) hs0 hid
        subst hss
        rw [hp] at q e1
        rcases List.mem_cons.1 q with r | r
        · subst r
          rw [hp0] at hnd0
          exact hnd0.2.1.2.2 m.id (List.mem_map.2 ⟨m, hmid, rfl⟩) m.id (by simp) rfl
        · obtain ⟨_, g2⟩ := hq.keeps.behind hi0.nodup hi0.lt (pre := pre0 ++ mid0) (post := p0) (n := s) (by rw [hst.nodes, hp0]; simp) e1
          have := g2 m r (hi0.lt m hm0)
          rw [hp0] at hnd0
          exact hnd0.2.1.2.2 m.id (List.mem_map.2 ⟨m, hmid, rfl⟩) m.id (List.mem_map.2 ⟨m, List.mem_cons_of_mem _ this, rfl⟩) rfl

theorem qdefined (S : Stl good) (h0 : PMap.Reach good x0) (hst : Stretch x0 start stop pre0 mid0 post0) {tr : List (Visit V)} {y : PMap V Nat} {i : It} (hq : QInv good x0 pre0 mid0 post0 tr y i) :
    ((differ y i stop).isSome ↔ (stop.act.pos = none ∨ y.valid stop)) ∧ (differ y i stop = some true → ∃ e, y.deref i = some e ∧ e ∈ y.content) := by
  have hi0 := reach_mi S h0
  have hi := reach_mi S hq.reach
  obtain ⟨pre, post, e1, e2, e3, e4, e5, e6⟩ := hq.place
  have hu := usable_of e1 hq.hm e2
  have hms : stop.isMulti = y.isMulti := hst.mb.trans hq.keeps.kind.symm
  have hg : stop.act.gen = y.act.gen := by rw [hst.eb, hq.keeps.gen]
  constructor
  · constructor
    · intro hd
      obtain ⟨b, hb⟩ := Option.isSome_iff_exists.1 hd
      obtain ⟨u1, u2, u3⟩ := differ_true hb
      cases hp : stop.act.pos with
      | none => exact .inl rfl
      | some j =>
        right
        have hsa : stop.act = ⟨some j, y.act.gen⟩ := by rw [← hp, ← hg]
        obtain ⟨m, hm1, hm2⟩ := usable_at u2 hsa
        exact ⟨hms, by rw [deref_of hms hi.nodup hm1 (by rw [hm2]; exact hsa)]; rfl⟩
    · intro hd
      have hu2 : usable y stop = true := by
        rcases hd with q | q
        · unfold usable; rw [q]; simp [hms, hg]
        · obtain ⟨p, m, r, f1, f2, f3⟩ := valid_split q
          exact usable_of (l := m :: r) f1 hms (by rw [f2]; rfl)
      unfold differ
      rw [if_pos ⟨hu, hu2⟩]; rfl
  · intro hd
    obtain ⟨u1, u2, u3⟩ := differ_true hd
    cases post with
    | cons m post => 
      have := deref_of hq.hm hi.nodup (n := m) (by rw [e1]; simp) (by rw [e2]; rfl)
      exact ⟨_, this, by rw [content_eq, e1]; simp [ent]⟩
    | nil =>
      exfalso
      rw [ne_act (hq.hm.trans hms.symm), e2] at u3
      cases hp : post0 with
      | nil => rw [hst.eb, hp] at u3; simp [headId] at u3
      | cons s p0 =>
        have hs0 : s ∈ x0.act.nodes := by rw [hst.nodes, hp]; simp
        obtain ⟨m, hm1, hm2⟩ := usable_at u2 (by rw [hst.eb, hp]; rfl)
        have hms' : m = s := same_id hi0.nodup (hq.keeps.mem hm1 (by rw [hm2]; exact hi0.lt s hs0)) hs0 hm2
        have := e6 s (by rw [hp]; rfl) (hms' ▸ hm1)
        cases this

/-! ### What is claimed -/

/-- **C100.** A request other than Equal, whatever its predicate does to the vault: the entries given to the predicate come in ascending order, each one is in the index at that moment,
no element of the index is given twice, and there are no more of them than the amount. -/
theorem C100_order {multi : Bool} {x : Idx V} (hx : Maps multi x) {t : Kind} (ht : t ≠ .Equal) {lo hi : V} {ilo ihi : Bool} {n : Option Nat} {tr : List (Visit V)} {got : List Nat} {y : PMap V Nat} {i : It}
    (h : Asked Changes x.ord (x.bounds t lo hi ilo ihi).1 (x.bounds t lo hi ilo ihi).2 n tr got y i) :
    (tr.map fun v => v.entry.1).Pairwise (· ≤ ·) ∧ (∀ v ∈ tr, v.entry ∈ v.map.content) ∧ (tr.map fun v => v.it.act.pos).Nodup ∧ (∀ k, n = some k → tr.length ≤ k) ∧
    got.Sublist (tr.map fun v => v.entry.2) := by
  obtain ⟨pre, mid, post, s, hf⟩ := bounds_stretch hx.ord t ht lo hi ilo ihi
  have hkr : ∀ x y : PMap V Nat, Changes x y → PMap.Reach Sorted x → PMap.Reach Sorted y := fun x y hc hx => hc.reach hx
  have hq := qinv (ordStl 0) hx.ord s (fun _ _ => Changes.keeps) hkr h
  exact ⟨(qsorted hx.ord s h).1, fun v hv => (hq.there v hv).2, hq.once, fun k hk => by subst hk; exact qlen h, qgot (ordStl 0) hx.ord s (fun _ _ => Changes.keeps) hkr h⟩

/-- **C100.** Which entries are given to the predicate: those that were in the index from the start satisfy the condition; every one lies at or above an entry of the start that
satisfies it, and at or below every entry of the start behind the range. -/
theorem C100_within {multi : Bool} {x : Idx V} (hx : Maps multi x) {t : Kind} (ht : t ≠ .Equal) {lo hi : V} {ilo ihi : Bool} {n : Option Nat} {tr : List (Visit V)} {got : List Nat} {y : PMap V Nat} {i : It}
    (h : Asked Changes x.ord (x.bounds t lo hi ilo ihi).1 (x.bounds t lo hi ilo ihi).2 n tr got y i) {v : Visit V} (hv : v ∈ tr) :
    (x.ord.valid v.it → t.holds lo hi ilo ihi v.entry.1 = true) ∧
    (∃ e ∈ x.ord.content, t.holds lo hi ilo ihi e.1 = true ∧ e.1 ≤ v.entry.1) ∧
    ∀ s ∈ x.ord.content, t.holds lo hi ilo ihi s.1 = false → (∃ e ∈ x.ord.content, t.holds lo hi ilo ihi e.1 = true ∧ e.1 < s.1) → v.entry.1 ≤ s.1 := by
  obtain ⟨pre, mid, post, s, hf⟩ := bounds_stretch hx.ord t ht lo hi ilo ihi
  have hkr : ∀ x y : PMap V Nat, Changes x y → PMap.Reach Sorted x → PMap.Reach Sorted y := fun x y hc hx => hc.reach hx
  have hq := qinv (ordStl 0) hx.ord s (fun _ _ => Changes.keeps) hkr h
  obtain ⟨q1, _, q3⟩ := qsorted hx.ord s h
  have hi0 := reach_mi (ordStl 0) hx.ord
  have hm := mid_iff s.nodes (t.holds lo hi ilo ihi) (by rw [← content_eq]; exact hf)
  have hmid : ∀ n ∈ mid, t.holds lo hi ilo ihi n.key = true := by
    intro n hn
    rcases hm n (by rw [s.nodes]; simp [hn]) with q | ⟨q, _⟩
    · exact q.2
    · have : (n.key, n.val) ∈ ent mid := by simp only [ent, List.mem_map]; exact ⟨n, hn, rfl⟩
      rw [← hf] at this
      exact (List.mem_filter.1 this).2
  have hso : Sorted x.ord.act.nodes := hi0.ok
  rw [s.nodes] at hso
  refine ⟨?_, ?_, ?_⟩
  · intro hval
    rcases hq.sound v hv with ⟨n, hn, _, he⟩ | hno
    · rw [he]; exact hmid n hn
    · obtain ⟨p, n, q, e1, e2, e3⟩ := valid_split hval
      exact absurd (by rw [e2]) (hno n (by rw [e1]; simp))
  · rcases qfirst h with ⟨rfl, _⟩ | ⟨e, rest, rfl, he⟩
    · cases hv
    · have h1 : e.1 ≤ v.entry.1 := by
        rcases List.mem_cons.1 hv with q | q
        · rw [q]
        · rw [List.map_cons, List.pairwise_cons] at q1
          exact q1.1 _ (List.mem_map.2 ⟨v, q, rfl⟩)
      rcases hq.sound _ (List.mem_cons_self ..) with ⟨n, hn, _, hen⟩ | hno
      · have hen : e = (n.key, n.val) := hen
        subst hen
        refine ⟨_, ?_, hmid n hn, h1⟩
        rw [content_eq, s.nodes]
        simp only [ent, List.mem_map]
        exact ⟨n, by simp [hn], rfl⟩
      · obtain ⟨p, n, q, e1, e2, e3⟩ := valid_split (x := x.ord) (a := (x.bounds t lo hi ilo ihi).1) ⟨s.ma, by rw [he]; rfl⟩
        exact absurd (by rw [e2]) (hno n (by rw [e1]; simp))
  · intro b hb hbf ⟨e, he, het, hes⟩
    rw [content_eq, s.nodes] at hb he
    simp only [ent, List.mem_map] at hb he
    obtain ⟨m, hm1, rfl⟩ := hb
    obtain ⟨c, hc1, rfl⟩ := he
    have hmp : m ∈ post := by
      rcases hm m (by rw [s.nodes]; exact hm1) with ⟨_, q⟩ | ⟨q, _⟩
      · rw [q] at hbf; cases hbf
      · rcases List.mem_append.1 q with q | q
        · exfalso
          rcases hm c (by rw [s.nodes]; exact hc1) with ⟨r, _⟩ | ⟨_, r⟩
          · exact absurd ((List.pairwise_append.1 hso).2.2 m q c (by simp [r])) (not_le.2 hes)
          · rw [r] at het; cases het
        · exact q
    cases hp : post with
    | nil => rw [hp] at hmp; cases hmp
    | cons d post' =>
      have h1 := q3 v hv d (by rw [hp]; rfl)
      rw [hp] at hmp hso
      rcases List.mem_cons.1 hmp with q | q
      · rw [q]; exact h1
      · have := (List.pairwise_append.1 (List.pairwise_append.1 hso).2.1).2.1
        exact le_trans h1 ((List.pairwise_cons.1 this).1 m q)

/-- **C100.** When the loop has run to its end, every element of the index that satisfied the condition at the start and is still there has been given to the predicate. -/
theorem C100_complete {multi : Bool} {x : Idx V} (hx : Maps multi x) {t : Kind} (ht : t ≠ .Equal) {lo hi : V} {ilo ihi : Bool} {n : Option Nat} {tr : List (Visit V)} {got : List Nat} {y : PMap V Nat} {i : It}
    (h : Asked Changes x.ord (x.bounds t lo hi ilo ihi).1 (x.bounds t lo hi ilo ihi).2 n tr got y i) (he : differ y i (x.bounds t lo hi ilo ihi).2 = some false)
    {m : Node V Nat} (h1 : m ∈ x.ord.act.nodes) (hm : t.holds lo hi ilo ihi m.key = true) (h2 : m ∈ y.act.nodes) : ∃ v ∈ tr, v.it.act.pos = some m.id ∧ v.entry = (m.key, m.val) := by
  obtain ⟨pre, mid, post, s, hf⟩ := bounds_stretch hx.ord t ht lo hi ilo ihi
  have hkr : ∀ x y : PMap V Nat, Changes x y → PMap.Reach Sorted x → PMap.Reach Sorted y := fun x y hc hx => hc.reach hx
  have hq := qinv (ordStl 0) hx.ord s (fun _ _ => Changes.keeps) hkr h
  have hmi := mid_iff s.nodes (t.holds lo hi ilo ihi) (by rw [← content_eq]; exact hf) m h1
  have hmid : m ∈ mid := by
    rcases hmi with q | ⟨_, q⟩
    · exact q.1
    · rw [hm] at q; cases q
  exact qcomplete (ordStl 0) hx.ord s hq he hmid h2

/-- **C100.** What keeps the loop defined: comparing with the end of the range is defined exactly if that end is the end of the index or an entry that is still there; and then there is an
entry to give to the predicate. The `++` after the predicate is defined exactly if the entry given to it is still there. -/
theorem C100_defined {multi : Bool} {x : Idx V} (hx : Maps multi x) {t : Kind} (ht : t ≠ .Equal) {lo hi : V} {ilo ihi : Bool} {n : Option Nat} {tr : List (Visit V)} {got : List Nat} {y : PMap V Nat} {i : It}
    (h : Asked Changes x.ord (x.bounds t lo hi ilo ihi).1 (x.bounds t lo hi ilo ihi).2 n tr got y i) :
    ((differ y i (x.bounds t lo hi ilo ihi).2).isSome ↔ ((x.bounds t lo hi ilo ihi).2.act.pos = none ∨ y.valid (x.bounds t lo hi ilo ihi).2)) ∧
    (differ y i (x.bounds t lo hi ilo ihi).2 = some true → ∃ e, y.deref i = some e ∧ e ∈ y.content ∧
      ∀ z, Changes y z → ((z.incr i).isSome ↔ z.valid i ∧ z.deref i = some e)) := by
  obtain ⟨pre, mid, post, s, hf⟩ := bounds_stretch hx.ord t ht lo hi ilo ihi
  have hkr : ∀ x y : PMap V Nat, Changes x y → PMap.Reach Sorted x → PMap.Reach Sorted y := fun x y hc hx => hc.reach hx
  have hq := qinv (ordStl 0) hx.ord s (fun _ _ => Changes.keeps) hkr h
  obtain ⟨d1, d2⟩ := qdefined (ordStl 0) hx.ord s hq
  refine ⟨d1, fun hd => ?_⟩
  obtain ⟨e, he, hc⟩ := d2 hd
  refine ⟨e, he, hc, fun z hz => ?_⟩
  rw [C93_next_defined hq.reach ⟨hq.hm, by rw [he]; rfl⟩ hz, he]

/-! ### Equal -/

theorem keeps_next (S : Stl good) {x y : PMap V Nat} (hx : PMap.Reach good x) (hy : PMap.Reach good y) (hc : Keeps x y) {a : It} (ha : x.valid a) :
    (y.incr a).isSome ↔ y.valid a ∧ y.deref a = x.deref a := by
  have hi := reach_mi S hx
  have hi' := reach_mi S hy
  obtain ⟨pre, n, post, e1, e2, e3⟩ := valid_split ha
  constructor
  · intro hs
    obtain ⟨a', hs⟩ := Option.isSome_iff_exists.1 hs
    obtain ⟨pre', n', post', f1, f2, f3, f4⟩ := incr_some (ha.1.trans hc.kind.symm) hs
    have := deref_of (ha.1.trans hc.kind.symm) hi'.nodup (n := n') (by rw [f1]; simp) f2
    exact ⟨⟨ha.1.trans hc.kind.symm, by rw [this]; rfl⟩, by rw [this, keeps_same S hx hy hc ha this]⟩
  · rintro ⟨hv, _⟩
    obtain ⟨pre', n', post', f1, f2, f3⟩ := valid_split hv
    obtain ⟨a', h1, _⟩ := incr_of hi'.nodup f1 hv.1 f2
    rw [h1]; rfl

/-- **C100.** An Equal request whose predicate only erases: it is given entries with the value only, all of them in the index from the start to that moment, none twice, and at the end every
one that is still there has been given to it. -/
theorem C100_equal {multi : Bool} {x : Idx V} (hx : Maps multi x) (S : Hash V) {u : V} {n : Option Nat} {tr : List (Visit V)} {got : List Nat} {y : PMap V Nat} {i : It}
    (h : Asked Erasures x.hash (x.hash.equalRange S.stl u).1 (x.hash.equalRange S.stl u).2 n tr got y i) :
    (∀ v ∈ tr, v.entry.1 = u ∧ v.entry ∈ x.hash.content ∧ v.entry ∈ v.map.content) ∧ (tr.map fun v => v.it.act.pos).Nodup ∧ (∀ k, n = some k → tr.length ≤ k) ∧ got.Sublist (tr.map fun v => v.entry.2) ∧
    (differ y i (x.hash.equalRange S.stl u).2 = some false → ∀ m ∈ x.hash.act.nodes, m.key = u → m ∈ y.act.nodes → ∃ v ∈ tr, v.it.act.pos = some m.id ∧ v.entry = (m.key, m.val)) := by
  obtain ⟨pre, mid, post, s, s1, s2, s3, s4⟩ := range_hash' S hx.hash u
  have hkr : ∀ x y : PMap V Nat, Erasures x y → PMap.Reach Grouped x → PMap.Reach Grouped y := fun x y hc hx => hc.reach S.stl hx
  have hq := qinv S.stl hx.hash s (fun _ _ => Erasures.keeps) hkr h
  refine ⟨fun v hv => ?_, hq.once, fun k hk => by subst hk; exact qlen h, qgot S.stl hx.hash s (fun _ _ => Erasures.keeps) hkr h, fun he m hm hk hy => ?_⟩
  · rcases hq.sound v hv with ⟨m, hm, h1, h2⟩ | hno
    · refine ⟨by rw [h2]; exact s1 m hm, ?_, (hq.there v hv).2⟩
      rw [h2, content_eq, s.nodes]
      simp only [ent, List.mem_map]
      exact ⟨m, by simp [hm], rfl⟩
    · exfalso
      -- nothing is added, so every element visited was there at the start
      have hsub : ∀ (tr : List (Visit V)) (got : List Nat) (y : PMap V Nat) (i : It), Asked Erasures x.hash (x.hash.equalRange S.stl u).1 (x.hash.equalRange S.stl u).2 n tr got y i →
          y.act.nodes.Sublist x.hash.act.nodes ∧ ∀ v ∈ tr, ∃ m ∈ x.hash.act.nodes, v.it.act.pos = some m.id := by
        intro tr got y i hA
        have key : ∀ (tr : List (Visit V)) (got : List Nat) (y : PMap V Nat) (i : It) (e : V × Nat) (y' : PMap V Nat), Asked Erasures x.hash (x.hash.equalRange S.stl u).1 (x.hash.equalRange S.stl u).2 n tr got y i →
            y.deref i = some e → Erasures y y' → (y.act.nodes.Sublist x.hash.act.nodes ∧ ∀ v ∈ tr, ∃ m ∈ x.hash.act.nodes, v.it.act.pos = some m.id) →
            (y'.act.nodes.Sublist x.hash.act.nodes ∧ ∀ v ∈ tr ++ [(⟨y, i, e⟩ : Visit V)], ∃ m ∈ x.hash.act.nodes, v.it.act.pos = some m.id) := by
          intro tr got y i e y' hA hv hc ⟨i1, i2⟩
          have hq := qinv S.stl hx.hash s (fun _ _ => Erasures.keeps) hkr hA
          refine ⟨hc.subset.trans i1, fun v hv' => ?_⟩
          rcases List.mem_append.1 hv' with r | r
          · exact i2 v r
          · simp only [List.mem_singleton] at r
            subst r
            obtain ⟨p, m, q, e1, e2, e3⟩ := valid_split (x := y) (a := i) ⟨hq.hm, by rw [hv]; rfl⟩
            exact ⟨m, i1.subset (by rw [e1]; simp), by rw [e2]⟩
        induction hA with
        | start => exact ⟨.refl _, by simp⟩
        | yes tr got x a e x' e' a' hA hd hl hv hc _ hs ih => exact key tr got x a e x' hA hv hc ih
        | no tr got x a e x' a' hA hd hl hv hc hs ih => exact key tr got x a e x' hA hv hc ih
      obtain ⟨m, hm, hp⟩ := (hsub tr got y i h).2 v hv
      exact hno m hm hp
  · refine qcomplete S.stl hx.hash s hq he ?_ hy
    rw [s.nodes] at hm
    rcases List.mem_append.1 hm with q | q
    · exact absurd hk (s2 m q)
    · rcases List.mem_append.1 q with q | q
      · exact q
      · exact absurd hk (s3 m q)

/-- **C100.** What keeps this loop defined: the entry just given and the entry behind the range must stay. -/
theorem C100_equal_defined {multi : Bool} {x : Idx V} (hx : Maps multi x) (S : Hash V) {u : V} {n : Option Nat} {tr : List (Visit V)} {got : List Nat} {y : PMap V Nat} {i : It}
    (h : Asked Erasures x.hash (x.hash.equalRange S.stl u).1 (x.hash.equalRange S.stl u).2 n tr got y i) :
    ((differ y i (x.hash.equalRange S.stl u).2).isSome ↔ ((x.hash.equalRange S.stl u).2.act.pos = none ∨ y.valid (x.hash.equalRange S.stl u).2)) ∧
    (differ y i (x.hash.equalRange S.stl u).2 = some true → ∃ e, y.deref i = some e ∧ e ∈ y.content ∧
      ∀ z, Erasures y z → ((z.incr i).isSome ↔ z.valid i ∧ z.deref i = some e)) := by
  obtain ⟨pre, mid, post, s, s1, s2, s3, s4⟩ := range_hash' S hx.hash u
  have hkr : ∀ x y : PMap V Nat, Erasures x y → PMap.Reach Grouped x → PMap.Reach Grouped y := fun x y hc hx => hc.reach S.stl hx
  have hq := qinv S.stl hx.hash s (fun _ _ => Erasures.keeps) hkr h
  obtain ⟨d1, d2⟩ := qdefined S.stl hx.hash s hq
  refine ⟨d1, fun hd => ?_⟩
  obtain ⟨e, he, hc⟩ := d2 hd
  refine ⟨e, he, hc, fun z hz => ?_⟩
  rw [keeps_next S.stl hq.reach (hz.reach S.stl hq.reach) hz.keeps ⟨hq.hm, by rw [he]; rfl⟩, he]

/-- Calls that erase records or clear the vault. -/
inductive EraseCalls : Idx V → Idx V → Prop
  | refl (x) : EraseCalls x x
  | erase (x y z v r) (S : Hash V) : EraseCalls x y → IStep S y (.erase v r) z → EraseCalls x z
  | clear (x y z) (S : Hash V) : EraseCalls x y → IStep S y .clear z → EraseCalls x z

/-- **C100.** Calls that erase records act on the hash map as the theorems on Equal allow (and all calls act on the ordered map as those on the other requests allow, `C93_calls`). -/
theorem C100_erase_calls {x y : Idx V} (h : EraseCalls x y) : Erasures x.hash y.hash := by
  have one : ∀ {p : PMap V Nat} {r : Nat} {a b : It} {q : PMap V Nat}, EraseIt p r a b q → p = q ∨ ∃ c z, p.eraseAt c = some z ∧ q = z.1 := by
    intro p r a b q h
    induction h with
    | done => exact .inl rfl
    | hit a b e y _ _ _ he => exact .inr ⟨a, y, he, rfl⟩
    | next _ _ _ _ _ _ _ _ _ _ ih => exact ih
  induction h with
  | refl => exact .refl _
  | erase y z v r S _ hs ih =>
    cases hs with
    | erase _ _ x' hs =>
      cases hs with
      | run h o h1 h2 =>
        rcases one h1 with q | ⟨c, z, hz, q⟩
        · rw [← q]; exact ih
        · rw [q]; exact .elem _ _ c z ih hz
  | clear y z S _ hs ih => cases hs; exact .clear _ _ ih

/-! ### Where it breaks -/

/-- **C100, refuted.** Adding a record while an Equal request runs may rehash the hash map; if it does, the loop has no defined next step: neither its comparison nor its `++`. -/
theorem C100_equal_add_refuted {x : Idx V} (S : Hash V) (hS : S.stl.moves = true) {v : V} {r : Nat} (hn : x.hash.isMulti = true ∨ ∀ m ∈ x.hash.act.nodes, m.key ≠ v) {i : It}
    (hg : i.act.gen = x.hash.act.gen) (hk : i.isMulti = x.hash.isMulti) : (x.add S v r).1.hash.incr i = none ∧ ∀ j, differ (x.add S v r).1.hash i j = none := by
  have hy : (x.add S v r).1.hash = (x.hash.emplace S.stl v r).1 := by
    unfold Idx.add; simp only []; split <;> rfl
  have hgen : (x.hash.emplace S.stl v r).1.act.gen = x.hash.act.gen + 1 ∧ (x.hash.emplace S.stl v r).1.isMulti = x.hash.isMulti := by
    cases hm : x.hash.isMulti with
    | true => simp [PMap.emplace, hm, PMap.act, Seq.put, hS]
    | false =>
      have hf : x.hash.single.nodes.find? (·.key = v) = none := by
        rcases hn with q | q
        · rw [hm] at q; cases q
        · refine List.find?_eq_none.2 fun m hmm => ?_
          have := q m (by simpa [PMap.act, hm] using hmm)
          simpa using this
      simp [PMap.emplace, hm, hf, PMap.act, Seq.put, hS]
  rw [hy]
  constructor
  · by_contra hne
    obtain ⟨a', ha⟩ := Option.ne_none_iff_exists'.1 hne
    obtain ⟨_, m, _, _, h2, _⟩ := incr_some (hk.trans hgen.2.symm) ha
    rw [h2] at hg
    simp only [] at hg
    omega
  · intro j
    unfold differ
    rw [if_neg]
    rintro ⟨hu, _⟩
    unfold usable at hu
    simp only [Bool.and_eq_true, decide_eq_true_eq] at hu
    have := hu.1.2
    omega

/-- **C100, refuted.** Erasing a record with the value of the first entry behind the range, although the request has nothing to do with that record, leaves the loop without a defined
comparison. -/
theorem C100_stop_refuted {multi : Bool} {x y : Idx V} (hx : Maps multi x) {stop : It} (hs : x.ord.valid stop) {u : V} {r r' : Nat} (hd : x.ord.deref stop = some (u, r))
    (hr : (u, r') ∈ x.ord.content) {S : Hash V} (h : x.Erase S u r' y) (i : It) : differ y.ord i stop = none := by
  obtain ⟨pre, n, post, e1, e2, e3⟩ := valid_split hs
  have hi := reach_mi (ordStl 0) hx.ord
  have hu : n.key = u := by rw [e3] at hd; exact congrArg Prod.fst (Option.some.inj hd)
  unfold differ
  rw [if_neg]
  rintro ⟨_, hus⟩
  cases h with
  | run h o h1 h2 =>
    rcases eraseKeyOf_ord hx.ord h2 with ⟨_, rfl⟩ | ⟨hc, _⟩
    · obtain ⟨m, hm1, hm2⟩ := usable_at hus e2
      simp only [eraseKey_nodes, List.mem_filter, decide_eq_true_eq] at hm1
      have := same_id hi.nodup hm1.1 (by rw [e1]; simp) hm2
      exact hm1.2 (by rw [this]; exact hu)
    · exact hc hr

/-- **C100, refuted.** Erasing the record given to the predicate, or any record with the same value, leaves the loop without a defined next step: its `++` uses a deleted element, and so
does reading the entry again if the predicate answers yes. -/
theorem C100_given_refuted {multi : Bool} {x : Idx V} (hx : Maps multi x) {t : Kind} (ht : t ≠ .Equal) {lo hi : V} {ilo ihi : Bool} {n : Option Nat} {tr : List (Visit V)} {got : List Nat} {y z : Idx V} {i : It}
    (h : Asked Changes x.ord (x.bounds t lo hi ilo ihi).1 (x.bounds t lo hi ilo ihi).2 n tr got y.ord i) (hy : Maps multi y) {u : V} {r r' : Nat} (hd : y.ord.deref i = some (u, r))
    (hr : (u, r') ∈ y.ord.content) {S : Hash V} (he : y.Erase S u r' z) : z.ord.incr i = none ∧ z.ord.deref i = none := by
  obtain ⟨pre, mid, post, s, hf⟩ := bounds_stretch hx.ord t ht lo hi ilo ihi
  have hq := qinv (ordStl 0) hx.ord s (fun _ _ => Changes.keeps) (fun _ _ hc hx => hc.reach hx) h
  have hv : y.ord.valid i := ⟨hq.hm, by rw [hd]; rfl⟩
  have h1 := C93_erase_refuted hy hv hd hr he
  refine ⟨h1, ?_⟩
  have hc : Changes y.ord z.ord := istep_changes (.erase u r' z he)
  by_contra hne
  obtain ⟨e, hz⟩ := Option.ne_none_iff_exists'.1 hne
  have hsm := keeps_same (ordStl 0) hy.ord (hc.reach hy.ord) hc.keeps hv hz
  have := (C93_next_defined hy.ord hv hc).2 ⟨⟨hq.hm.trans hc.keeps.kind.symm, by rw [hz]; rfl⟩, by rw [hz, hsm]⟩
  rw [h1] at this; cases this

/-- Two records: record 0 with value 1, record 1 with value 5. -/
def two : Idx Nat := (((Idx.empty true).add exHash 1 0).1.add exHash 5 1).1
theorem two_maps : Maps true two := IReach.maps (.step exHash _ (.add 5 1) _ (.step exHash _ (.add 1 0) _ .init (.add _ _)) (.add _ _))

/-- The index after the predicate has added record 2 with value 4. -/
def twoAdd : PMap Nat Nat := (two.ord.emplace (ordStl 0) 4 2).1
/-- The index after the predicate has erased record 0. -/
def twoErase : PMap Nat Nat := (two.ord.eraseKey 1).1
/-- An iterator of these maps. -/
def at_ (i : Option Nat) : It := ⟨true, ⟨i, 0⟩, ⟨none, 0⟩⟩

/-- Request Less 3 with a predicate that adds the value 4 in its first call. -/
theorem two_less : Asked Changes two.ord (two.bounds .Less 0 3 true true).1 (two.bounds .Less 0 3 true true).2 none
    [⟨two.ord, at_ (some 0), (1, 0)⟩, ⟨twoAdd, at_ (some 2), (4, 2)⟩] [0, 2] twoAdd (at_ (some 1)) := by
  have h1 : Asked Changes two.ord (two.bounds .Less 0 3 true true).1 (two.bounds .Less 0 3 true true).2 none [⟨two.ord, at_ (some 0), (1, 0)⟩] [0] twoAdd (at_ (some 2)) :=
    .yes [] [] two.ord (at_ (some 0)) (1, 0) twoAdd (1, 0) (at_ (some 2)) .start rfl rfl rfl (.step _ _ _ (.emplace 4 2) (.refl _) rfl) rfl rfl
  exact .yes _ _ twoAdd (at_ (some 2)) (4, 2) twoAdd (4, 2) (at_ (some 1)) h1 rfl rfl rfl (.refl _) rfl rfl

/-- Request GreaterOrEqual 0 with a predicate that says yes to both records and erases the first one in its second call. -/
theorem two_erase : Asked Changes two.ord (two.bounds .GreaterOrEqual 0 0 true true).1 (two.bounds .GreaterOrEqual 0 0 true true).2 none
    [⟨two.ord, at_ (some 0), (1, 0)⟩, ⟨two.ord, at_ (some 1), (5, 1)⟩] [0, 1] twoErase (at_ none) := by
  have h1 : Asked Changes two.ord (two.bounds .GreaterOrEqual 0 0 true true).1 (two.bounds .GreaterOrEqual 0 0 true true).2 none [⟨two.ord, at_ (some 0), (1, 0)⟩] [0] two.ord (at_ (some 1)) :=
    .yes [] [] two.ord (at_ (some 0)) (1, 0) two.ord (1, 0) (at_ (some 1)) .start rfl rfl rfl (.refl _) rfl rfl
  exact .yes _ _ two.ord (at_ (some 1)) (5, 1) twoErase (5, 1) (at_ none) h1 rfl rfl rfl (.step _ _ _ (.eraseKey 1) (.refl _) rfl) rfl rfl

/-- **C100, refuted.** A record added by the predicate can be taken although its value does not satisfy the request: the end of the range is computed once, as a place in the index and
not as a value. Here `Less 3` takes a record with the value 4. -/
theorem C100_upper_refuted : ∃ (x : Idx Nat) (tr : List (Visit Nat)) (got : List Nat) (y : PMap Nat Nat) (i : It), Maps true x ∧
    Asked Changes x.ord (x.bounds .Less 0 3 true true).1 (x.bounds .Less 0 3 true true).2 none tr got y i ∧ Over (x.bounds .Less 0 3 true true).2 none tr y i ∧
    ∃ r ∈ got, (4, r) ∈ y.content ∧ Kind.Less.holds 0 3 true true 4 = false :=
  ⟨two, _, _, _, _, two_maps, two_less, .inl rfl, 2, by decide, by decide, by decide⟩

/-- **C100, refuted.** A record that was taken and then erased by the predicate (which is defined, as it is not the current one) stays among the records collected: `Request` then uses a
deleted record. -/
theorem C100_dangling_refuted : ∃ (x : Idx Nat) (tr : List (Visit Nat)) (got : List Nat) (y : PMap Nat Nat) (i : It), Maps true x ∧
    Asked Changes x.ord (x.bounds .GreaterOrEqual 0 0 true true).1 (x.bounds .GreaterOrEqual 0 0 true true).2 none tr got y i ∧ Over (x.bounds .GreaterOrEqual 0 0 true true).2 none tr y i ∧
    ∃ r ∈ got, ∀ e ∈ y.content, e.2 ≠ r :=
  ⟨two, _, _, _, _, two_maps, two_erase, .inl rfl, 0, by decide, by decide⟩

/-! ### Cases -/

/-- The hypotheses of `C100_order`, `C100_within`, `C100_complete` and `C100_defined` are met by two runs in which the predicate changes the index. -/
example : Maps true two ∧ Kind.Less ≠ Kind.Equal ∧ Kind.GreaterOrEqual ≠ Kind.Equal ∧ ∃ tr got y i, tr.length = 2 ∧
    Asked Changes two.ord (two.bounds .Less 0 3 true true).1 (two.bounds .Less 0 3 true true).2 none tr got y i := ⟨two_maps, by decide, by decide, _, _, _, _, rfl, two_less⟩
example : differ twoAdd (at_ (some 1)) (two.bounds .Less 0 3 true true).2 = some false ∧ differ twoErase (at_ none) (two.bounds .GreaterOrEqual 0 0 true true).2 = some false ∧
    Kind.Less.holds 0 3 true true 1 = true ∧ twoAdd.content = [(1, 0), (4, 2), (5, 1)] ∧ twoErase.content = [(5, 1)] := by decide
/-- For `C100_given_refuted`: before the first call, the record with value 1. -/
example : Asked Changes two.ord (two.bounds .Less 0 3 true true).1 (two.bounds .Less 0 3 true true).2 none [] [] two.ord (two.bounds .Less 0 3 true true).1 ∧
    two.ord.deref (two.bounds .Less 0 3 true true).1 = some (1, 0) ∧ (1, 0) ∈ two.ord.content := ⟨.start, rfl, by decide⟩
/-- For `C100_stop_refuted`: the range of Less 3 ends at the entry with value 5. -/
example : two.ord.valid (two.bounds .Less 0 3 true true).2 ∧ two.ord.deref (two.bounds .Less 0 3 true true).2 = some (5, 1) ∧ (5, 1) ∈ two.ord.content := ⟨⟨rfl, rfl⟩, rfl, by decide⟩

/-- For `C100_equal` and `C100_equal_defined`: two records with the value 5; in its first call the predicate erases the record with the value 3. -/
theorem eq_run : Asked Erasures exIdx.hash (exIdx.hash.equalRange exHash.stl 5).1 (exIdx.hash.equalRange exHash.stl 5).2 none
    [⟨exIdx.hash, (exIdx.hash.equalRange exHash.stl 5).1, (5, 2)⟩, ⟨(exIdx.hash.eraseKey 3).1, ⟨true, ⟨some 0, 3⟩, ⟨none, 0⟩⟩, (5, 0)⟩] [0] (exIdx.hash.eraseKey 3).1 ⟨true, ⟨none, 3⟩, ⟨none, 0⟩⟩ := by
  have h1 : Asked Erasures exIdx.hash (exIdx.hash.equalRange exHash.stl 5).1 (exIdx.hash.equalRange exHash.stl 5).2 none
      [⟨exIdx.hash, (exIdx.hash.equalRange exHash.stl 5).1, (5, 2)⟩] [] (exIdx.hash.eraseKey 3).1 ⟨true, ⟨some 0, 3⟩, ⟨none, 0⟩⟩ :=
    .no [] [] exIdx.hash _ (5, 2) (exIdx.hash.eraseKey 3).1 _ .start rfl rfl rfl (.key _ _ 3 (.refl _)) rfl
  exact .yes _ _ _ _ (5, 0) _ (5, 0) _ h1 rfl rfl rfl (.refl _) rfl rfl
example : differ (exIdx.hash.eraseKey 3).1 ⟨true, ⟨none, 3⟩, ⟨none, 0⟩⟩ (exIdx.hash.equalRange exHash.stl 5).2 = some false := rfl
/-- For `C100_equal_add_refuted`: a hash map that rehashes. -/
example : exHash.stl.moves = true ∧ exIdx.hash.isMulti = true ∧ (exIdx.hash.equalRange exHash.stl 5).1.act.gen = exIdx.hash.act.gen ∧ (exIdx.hash.equalRange exHash.stl 5).1.isMulti = exIdx.hash.isMulti :=
  ⟨rfl, rfl, rfl, rfl⟩

end MVault.Rn
