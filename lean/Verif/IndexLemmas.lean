import Verif.IndexModel
/-
Lemmas about the index loops of `IndexModel`.
-/
set_option linter.unusedSectionVars false
set_option linter.unusedSimpArgs false
set_option linter.unusedVariables false
namespace MVault.Ix
open MVault.Mp
variable {K V : Type} [LinearOrder V]

/-- The iterators `a` and `b` enclose the nodes `mid`. -/
structure Stretch (x : PMap V Nat) (a b : It) (pre mid post : List (Node V Nat)) : Prop where
  nodes : x.act.nodes = pre ++ (mid ++ post)
  nodup : (ids x.act.nodes).Nodup
  ma : a.isMulti = x.isMulti
  mb : b.isMulti = x.isMulti
  ea : a.act = ⟨headId (mid ++ post), x.act.gen⟩
  eb : b.act = ⟨headId post, x.act.gen⟩

theorem usable_of {x : PMap V Nat} {a : It} {pre l : List (Node V Nat)} (hn : x.act.nodes = pre ++ l) (hm : a.isMulti = x.isMulti)
    (ha : a.act = ⟨headId l, x.act.gen⟩) : usable x a = true := by
  unfold usable
  rw [ha]
  cases l with
  | nil => simp [hm, headId]
  | cons n l => simp [hm, headId, hn]

theorem Stretch.cmp {x : PMap V Nat} {a b : It} {pre mid post : List (Node V Nat)} (h : Stretch x a b pre mid post) : differ x a b = some (a.ne b) := by
  unfold differ
  rw [if_pos ⟨usable_of h.nodes h.ma h.ea, usable_of (pre := pre ++ mid) (l := post) (by rw [h.nodes]; simp) h.mb h.eb⟩]

theorem Stretch.nil {x : PMap V Nat} {a b : It} {pre post : List (Node V Nat)} (h : Stretch x a b pre [] post) : differ x a b = some false := by
  rw [h.cmp, ne_act (h.ma.trans h.mb.symm), h.ea, h.eb]; simp

theorem Stretch.cons {x : PMap V Nat} {a b : It} {pre mid post : List (Node V Nat)} {n : Node V Nat} (h : Stretch x a b pre (n :: mid) post) :
    differ x a b = some true ∧ x.deref a = some (n.key, n.val) ∧ ∃ a', x.incr a = some a' ∧ Stretch x a' b (pre ++ [n]) mid post := by
  have hd' := h.nodup; rw [h.nodes] at hd'
  have hnd : (ids (pre ++ n :: (mid ++ post))).Nodup := by simpa using hd'
  have hinc : x.act.incr a.act = some ⟨headId (mid ++ post), x.act.gen⟩ := by
    rw [h.ea]
    simp only [Seq.incr, headId, List.cons_append, List.head?_cons, Option.map_some, Option.bind_some, ne_eq, not_true_eq_false, if_false]
    rw [h.nodes, List.cons_append, afterIn_split pre n (mid ++ post) hnd]; rfl
  obtain ⟨a', h1, h2, h3⟩ := incr_act h.ma hinc
  refine ⟨?_, ?_, a', h1, ⟨by rw [h.nodes]; simp, h.nodup, h2, h.mb, h3, h.eb⟩⟩
  · rw [h.cmp, ne_act (h.ma.trans h.mb.symm), h.ea, h.eb]
    simp only [Option.some.injEq, decide_eq_true_eq]
    exact headId_ne (by simpa using hd')
  · rw [deref_act h.ma, h.ea]
    simp only [Seq.deref, headId, List.cons_append, List.head?_cons, Option.map_some, Option.bind_some, ne_eq, not_true_eq_false, if_false]
    rw [h.nodes, List.cons_append, find_split pre n (mid ++ post) hnd]; rfl

/-- What the maps of a key satisfy. -/
structure Ok (x : Idx V) : Prop where
  h : PMap.Reach Grouped x.hash
  o : PMap.Reach Sorted x.ord
  m : x.ord.isMulti = x.hash.isMulti

/-- The equal range of the hash map. -/
theorem range_hash (S : Stl (Grouped : List (Node V Nat) → Prop)) {x : PMap V Nat} (h : PMap.Reach Grouped x) (v : V) :
    ∃ pre mid post, Stretch x (x.equalRange S v).1 (x.equalRange S v).2 pre mid post ∧ (∀ n ∈ mid, n.key = v) ∧ (∀ n ∈ pre, n.key ≠ v) ∧ ∀ n ∈ post, n.key ≠ v := by
  have hi := reach_mi S h
  obtain ⟨pre, mid, post, e, h1, h2, h3, h4⟩ := S.eqr_spec x.act.nodes v hi.ok
  refine ⟨pre, mid, post, ⟨e, hi.nodup, ?_, ?_, ?_, ?_⟩, h1, h2, h3⟩
  all_goals cases em : x.isMulti <;> simp_all [PMap.equalRange, It.act, PMap.act]

/-- The equal range of the ordered map. -/
theorem range_ord {x : PMap V Nat} (h : PMap.Reach Sorted x) (v : V) :
    ∃ pre mid post, Stretch x (x.equalRange (ordStl 0) v).1 (x.equalRange (ordStl 0) v).2 pre mid post ∧ (∀ n ∈ mid, n.key = v) ∧ (∀ n ∈ pre, n.key ≠ v) ∧ ∀ n ∈ post, n.key ≠ v := by
  have hi := reach_mi (ordStl 0) h
  obtain ⟨pre, mid, post, e, h1, h2, h3, h4⟩ := (ordStl 0).eqr_spec x.act.nodes v hi.ok
  refine ⟨pre, mid, post, ⟨e, hi.nodup, ?_, ?_, ?_, ?_⟩, h1, h2, h3⟩
  all_goals cases em : x.isMulti <;> simp_all [PMap.equalRange, It.act, PMap.act]

/-- Entries of nodes. -/
def ent (l : List (Node V Nat)) : List (V × Nat) := l.map fun n => (n.key, n.val)

theorem content_eq (x : PMap V Nat) : x.content = ent x.act.nodes := rfl

theorem eraseAt_act {x : PMap V Nat} {a : It} {pre l : List (Node V Nat)} {n : Node V Nat} (hn : x.act.nodes = pre ++ n :: l) (hd : (ids x.act.nodes).Nodup)
    (hm : a.isMulti = x.isMulti) (ha : a.act = ⟨some n.id, x.act.gen⟩) :
    ∃ x' a', x.eraseAt a = some (x', a') ∧ x'.act.nodes = pre ++ l ∧ x'.isMulti = x.isMulti ∧ x'.act.gen = x.act.gen := by
  have hd' := hd; rw [hn] at hd'
  have hs : x.act.eraseAt a.act = some (⟨pre ++ l, x.act.gen⟩, ⟨headId l, x.act.gen⟩) := by
    rw [ha]
    simp only [Seq.eraseAt, ne_eq, not_true_eq_false, if_false, Option.bind_some]
    rw [hn, afterIn_split pre n l hd', filter_ids hd']; rfl
  cases e : x.isMulti with
  | true =>
    simp only [PMap.act, It.act, hm, e, if_true] at hs ⊢
    refine ⟨{ x with multi := ⟨pre ++ l, x.multi.gen⟩ }, ⟨true, ⟨headId l, x.multi.gen⟩, x.single.last⟩, ?_, ?_, e, ?_⟩
    · simp only [PMap.eraseAt, e, if_true, hs, Option.map_some]
    · simp [e]
    · simp [e]
  | false =>
    simp only [PMap.act, It.act, hm, e] at hs ⊢
    refine ⟨{ x with single := ⟨pre ++ l, x.single.gen⟩ }, ⟨false, x.multi.last, ⟨headId l, x.single.gen⟩⟩, ?_, ?_, e, ?_⟩
    · simp only [PMap.eraseAt, e]; simp only [Bool.false_eq_true, if_false] at hs ⊢; simp only [hs, Option.map_some]
    · simp [e]
    · simp [e]

/-- The loop that erases by iterator ends, and has erased one entry of the record if there was one. -/
theorem eraseIt_run {x : PMap V Nat} (r : Nat) : ∀ (mid : List (Node V Nat)) {a b : It} {pre post : List (Node V Nat)}, Stretch x a b pre mid post →
    ∃ y, EraseIt x r a b y ∧ y.isMulti = x.isMulti ∧ y.act.gen = x.act.gen ∧ (y = x ∨ ∃ c, x.eraseAt c = some (y, (x.eraseAt c).elim c (·.2))) ∧
      ((∀ n ∈ mid, n.val ≠ r) ∧ y = x ∨ ∃ m1 n m2, mid = m1 ++ n :: m2 ∧ n.val = r ∧ (∀ n ∈ m1, n.val ≠ r) ∧ y.act.nodes = pre ++ (m1 ++ (m2 ++ post)))
  | [], a, b, pre, post, h => ⟨x, .done a b h.nil, rfl, rfl, .inl rfl, .inl ⟨by simp, rfl⟩⟩
  | n :: mid, a, b, pre, post, h => by
    obtain ⟨h1, h2, a', h3, h4⟩ := h.cons
    by_cases hr : n.val = r
    · obtain ⟨y, c, e1, e2, e3, e4⟩ := eraseAt_act (x := x) (a := a) (pre := pre) (l := mid ++ post) (n := n) (by rw [h.nodes]; simp) h.nodup h.ma (by rw [h.ea]; simp [headId])
      exact ⟨y, .hit a b _ (y, c) h1 h2 hr e1, e3, e4, .inr ⟨a, by rw [e1]; rfl⟩, .inr ⟨[], n, mid, rfl, hr, by simp, by simpa using e2⟩⟩
    · obtain ⟨y, e1, e2, e3, e4, e5⟩ := eraseIt_run r mid h4
      refine ⟨y, .next a b _ a' y h1 h2 hr h3 e1, e2, e3, e4, ?_⟩
      rcases e5 with ⟨g1, g2⟩ | ⟨m1, m, m2, g1, g2, g3, g4⟩
      · refine .inl ⟨fun m hm => ?_, g2⟩
        rcases List.mem_cons.1 hm with q | q
        · rw [q]; exact hr
        · exact g1 m q
      · refine .inr ⟨n :: m1, m, m2, by rw [g1]; rfl, g2, fun q hq => ?_, by rw [g4]; simp⟩
        rcases List.mem_cons.1 hq with z | z
        · rw [z]; exact hr
        · exact g3 q z

/-- The loop that erases by value ends, and has erased all entries with the value if the record was among them. -/
theorem eraseKeyOf_run {x : PMap V Nat} (r : Nat) (v : V) : ∀ (mid : List (Node V Nat)) {a b : It} {pre post : List (Node V Nat)}, Stretch x a b pre mid post → (∀ n ∈ mid, n.key = v) →
    EraseKeyOf x r a b (if ∃ n ∈ mid, n.val = r then (x.eraseKey v).1 else x)
  | [], a, b, pre, post, h, _ => by rw [if_neg (by simp)]; exact .done a b h.nil
  | n :: mid, a, b, pre, post, h, hk => by
    obtain ⟨h1, h2, a', h3, h4⟩ := h.cons
    by_cases hr : n.val = r
    · rw [if_pos ⟨n, by simp, hr⟩, ← hk n (by simp)]
      exact .hit a b _ h1 h2 hr
    · have ih := eraseKeyOf_run r v mid h4 (fun m hm => hk m (by simp [hm]))
      have e : (∃ m ∈ n :: mid, m.val = r) ↔ ∃ m ∈ mid, m.val = r := by simp [hr]
      rw [if_congr e rfl rfl]
      exact .next a b _ a' _ h1 h2 hr h3 ih

theorem scan_run {x : PMap V Nat} (n : Option Nat) : ∀ (mid : List (Node V Nat)) {a b : It} {pre post : List (Node V Nat)} (i : Nat), Stretch x a b pre mid post →
    Scan x n a b i (match n with | none => ent mid | some n => (ent mid).take (n - i))
  | [], a, b, pre, post, i, h => by
    have : (match n with | none => ent ([] : List (Node V Nat)) | some n => (ent []).take (n - i)) = [] := by cases n <;> simp [ent]
    rw [this]; exact .done a b i h.nil
  | m :: mid, a, b, pre, post, i, h => by
    obtain ⟨h1, h2, a', h3, h4⟩ := h.cons
    have ih := scan_run n mid (i + 1) h4
    cases n with
    | none => exact .next a b i _ a' _ h1 rfl h2 h3 ih
    | some n =>
      by_cases hl : i ≥ n
      · have : n - i = 0 := by omega
        simp only [this, List.take_zero]
        exact .full a b i h1 (by simp [atLimit, hl])
      · have : n - i = (n - (i + 1)) + 1 := by omega
        simp only [this, ent, List.map_cons, List.take_succ_cons]
        exact .next a b i _ a' _ h1 (by simp [atLimit]; omega) h2 h3 ih

theorem collect_run {x : PMap V Nat} (n : Nat) : ∀ (mid : List (Node V Nat)) {a b : It} {pre post : List (Node V Nat)} (i : Nat), Stretch x a b pre mid post →
    Collect x n a b i ((mid.map (·.val)).take (max (n - i) 1))
  | [], a, b, pre, post, i, h => by simpa using Collect.done a b i h.nil
  | m :: mid, a, b, pre, post, i, h => by
    obtain ⟨h1, h2, a', h3, h4⟩ := h.cons
    by_cases hl : i + 1 ≥ n
    · have : max (n - i) 1 = 1 := by omega
      rw [this]
      exact .full a b i _ h1 h2 hl
    · have ih := collect_run n mid (i + 1) h4
      have : max (n - i) 1 = max (n - (i + 1)) 1 + 1 := by omega
      rw [this]
      exact .next a b i _ a' _ h1 h2 (by omega) h3 ih

/-- Records given to a callback until it answers false. -/
def until_ (f : List Nat → Nat → Bool) : List Nat → List Nat → List Nat
  | _, [] => []
  | s, r :: l => if f s r = true then r :: until_ f (r :: s) l else [r]

theorem sort_run {x : PMap V Nat} (f : List Nat → Nat → Bool) : ∀ (mid : List (Node V Nat)) {a b : It} {pre post : List (Node V Nat)} (s : List Nat), Stretch x a b pre mid post →
    SortLoop x f a b s (until_ f s (mid.map (·.val)))
  | [], a, b, pre, post, s, h => by simpa [until_] using SortLoop.done a b s h.nil
  | m :: mid, a, b, pre, post, s, h => by
    obtain ⟨h1, h2, a', h3, h4⟩ := h.cons
    simp only [List.map_cons, until_]
    by_cases hf : f s m.val = true
    · rw [if_pos hf]
      exact .next a b s _ a' _ h1 h2 hf h3 (sort_run f mid (m.val :: s) h4)
    · rw [if_neg hf]
      exact .stop a b s _ h1 h2 (by simpa using hf)

end MVault.Ix
