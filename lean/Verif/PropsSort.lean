import Verif.SortModel
import Verif.PropsComplete
/-
C38: `SortBy` and `GetSortedRecords` of a vault.
-/
set_option linter.unusedSectionVars false
set_option linter.unusedSimpArgs false
namespace MVault.W
variable {K V Ty : Type} [LinearOrder K] [LinearOrder V] [Typed V Ty] [DecidableEq Ty]

/-! ### Specification -/

/-- The values of the records for the key are in order: none is smaller (reverse: greater) than an earlier one. -/
def InOrder (w : World K V Ty) (k : K) (rev : Bool) (l : List Nat) : Prop :=
  l.Pairwise (fun r r' => ∀ v v', value w r k = some v → value w r' k = some v' → if rev = true then v' ≤ v else v ≤ v')

/-- The whole list of a key in sorted order, as `GetSortedRecords(key, isReverse)` returns it: the records its references point
at, in the order of the returned vector. -/
def SortedList (w : World K V Ty) (o : Nat) (k : K) (rev : Bool) (l : List Nat) : Prop :=
  ∃ vo, w.getObj o = some vo ∧ l = sortedIds vo k rev none

theorem sortedIds_take (vo : Obj K V Ty) (k : K) (rev : Bool) (n : Option Nat) :
    sortedIds vo k rev n = (match n with | none => sortedIds vo k rev none | some n => (sortedIds vo k rev none).take n) := by
  unfold sortedIds
  cases mget vo.cols k <;> cases n <;> simp

/-- The list goes through different records in the order of their values. -/
theorem sorted_facts {w : World K V Ty} {vo : Obj K V Ty} (hcols : ColsOk (cellOf w) vo) (k : K) (rev : Bool) :
    InOrder w k rev (sortedIds vo k rev none) ∧ (sortedIds vo k rev none).Nodup := by
  refine ⟨?_, ?_⟩
  · unfold sortedIds
    cases hc : mget vo.cols k with
    | none => exact List.Pairwise.nil
    | some c =>
      have ok := hcols k c hc
      have hval : ∀ e ∈ c.ord, ∀ v, value w e.2 k = some v → v = e.1 := by
        rintro ⟨v, r⟩ he v' hv'
        have := (ok.ordS v r he).2
        exact Option.some.inj (hv'.symm.trans this)
      cases rev with
      | false =>
        simp only [InOrder, Bool.false_eq_true, if_false, List.pairwise_map]
        refine ok.sorted.imp_of_mem fun ha hb h v v' hv hv' => ?_
        rw [hval _ ha v hv, hval _ hb v' hv']; exact h
      | true =>
        simp only [InOrder, if_true, List.pairwise_map, List.pairwise_reverse]
        refine ok.sorted.imp_of_mem fun ha hb h v v' hv hv' => ?_
        rw [hval _ ha v' hv', hval _ hb v hv]; exact h
  · unfold sortedIds
    cases hc : mget vo.cols k with
    | none => exact List.nodup_nil
    | some c =>
      have ok := hcols k c hc
      have hN : (c.ord.map (·.2)).Nodup := by
        rw [List.Nodup, List.pairwise_map]
        refine ok.ordN.imp_of_mem ?_
        rintro ⟨v, r⟩ ⟨v', r'⟩ ha hb hne e
        apply hne
        have h1 := (ok.ordS v r ha).2
        have h2 := (ok.ordS v' r' hb).2
        dsimp only at e
        rw [e, h2] at h1
        rw [e, Option.some.inj h1]
      cases rev with
      | false => simpa using hN
      | true => simp only [if_true, List.map_reverse]; exact (List.reverse_perm _).nodup_iff.mpr hN

/-- `GetSortedRecords` of a vault: the references of the returned vector point at different valid records of the vault, in order
of their values; at most `amount` of them, and the list is the longest such prefix of the unlimited list `l`, which is the same
list `SortBy` goes through (`C38_sortBy_partial`). Missing: histories with operations that are not ordinary, where a record can be
listed twice (`C38_refuted`). -/
theorem C38_getSorted_partial {home : Nat → Nat} {w w' : World K V Ty} (hw : HReach Ordinary home w) {o : Nat} {k : K} {rev : Bool} {n : Option Nat}
    (ho : isVault w o = true) (h : getSorted w o k rev n = some w') :
    ∃ l, SortedList w o k rev l ∧ InOrder w k rev l ∧ l.Nodup ∧ (∀ r ∈ l, r ∈ members w o ∧ alive w r ∧ ∃ v, value w r k = some v) ∧
      w'.refs = w.refs ++ (match n with | none => l | some n => l.take n).map (fun r => ⟨some r, some o⟩) := by
  obtain ⟨own, hi⟩ := reach_inv hw
  obtain ⟨vo, hvo, hvs⟩ := isVault_iff.mp ho
  obtain ⟨_, hrefs⟩ := getSorted_spec hi hvo h
  rw [if_neg (by simp [hvs]), sortedIds_take] at hrefs
  obtain ⟨f1, f2⟩ := sorted_facts (hi.v.vok o vo hvo hvs).cols k rev
  refine ⟨_, ⟨vo, hvo, rfl⟩, f1, f2, ?_, hrefs⟩
  · intro r hr
    obtain ⟨c, v, hc, hm⟩ := sortedIds_mem hr
    obtain ⟨h1, h2⟩ := ((hi.v.vok o vo hvo hvs).cols k c hc).ordS v r hm
    exact ⟨by rw [members_eq hvo]; exact h1, (hi.v.mem o vo hvo hvs r h1).2, v, h2⟩

/-- The list misses no record of the vault, if the values of the key have been kept apart (see C19) or the key is unique. -/
theorem C38_complete_partial {home : Nat → Nat} {w : World K V Ty} {o : Nat} {k : K} (hw : HReach (OrdinaryApart o [k]) home w)
    (ho : isVault w o = true) (hk : k ∈ getKeys w o) {rev : Bool} {l : List Nat} (hl : SortedList w o k rev l) : l.Perm (members w o) := by
  have hwo := OrdinaryApart.reach hw
  obtain ⟨own, hi⟩ := reach_inv hwo
  obtain ⟨vo, hvo, hvs⟩ := isVault_iff.mp ho
  obtain ⟨vo', hvo', rfl⟩ := hl
  rw [hvo] at hvo'; cases hvo'
  have hvok := hi.v.vok o vo hvo hvs
  rw [getKeys_eq hvo] at hk
  obtain ⟨c, hc⟩ := (hvok.keysM k).mp hk
  have ok := hvok.cols k c hc
  have hfull := reach_full hw (k := k) (by simp) vo c hvo hvs hc
  rw [members_eq hvo]
  have hN : (c.ord.map (·.2)).Nodup := by
    rw [List.Nodup, List.pairwise_map]
    refine ok.ordN.imp_of_mem ?_
    rintro ⟨v, r⟩ ⟨v', r'⟩ ha hb hne e
    apply hne
    have h1 := (ok.ordS v r ha).2
    have h2 := (ok.ordS v' r' hb).2
    dsimp only at e
    rw [e, h2] at h1
    rw [e, Option.some.inj h1]
  have hP : (c.ord.map (·.2)).Perm vo.recs := by
    rw [List.perm_ext_iff_of_nodup hN hvok.recsN]
    intro r
    constructor
    · intro h
      obtain ⟨⟨v, r'⟩, hm, rfl⟩ := List.mem_map.mp h
      exact (ok.ordS _ _ hm).1
    · intro h
      obtain ⟨v, hv, _⟩ := ok.typed r h
      exact List.mem_map.mpr ⟨(v, r), (hfull r h v hv).2, rfl⟩
  simp only [sortedIds, hc]
  cases rev with
  | false => simpa using hP
  | true => simp only [if_true, List.map_reverse]; exact (List.reverse_perm _).trans hP

/-- The same for a unique key, after any ordinary history. -/
theorem C38_unique_complete_partial {home : Nat → Nat} {w : World K V Ty} {o : Nat} {k : K} (hw : HReach Ordinary home w)
    (ho : isVault w o = true) (hk : k ∈ getUniqueKeys w o) {rev : Bool} {l : List Nat} (hl : SortedList w o k rev l) :
    (∀ r, r ∈ l ↔ r ∈ members w o) := by
  obtain ⟨own, hi⟩ := reach_inv hw
  obtain ⟨vo, hvo, hvs⟩ := isVault_iff.mp ho
  obtain ⟨vo', hvo', rfl⟩ := hl
  rw [hvo] at hvo'; cases hvo'
  have hvok := hi.v.vok o vo hvo hvs
  rw [getUniqueKeys_eq hvo] at hk
  obtain ⟨c, hc, hm⟩ := (hvok.uniqM k).mp hk
  have ok := hvok.cols k c hc
  intro r
  rw [members_eq hvo]
  constructor
  · intro h
    obtain ⟨c', v, hc', hm⟩ := sortedIds_mem h
    rw [hc] at hc'; cases hc'
    exact (ok.ordS _ _ hm).1
  · intro h
    obtain ⟨v, hv, _⟩ := ok.typed r h
    have := ok.ordC (ok.uniq hm).2.1 r h v hv
    simp only [sortedIds, hc]
    cases rev with
    | false => exact List.mem_map.mpr ⟨_, this, rfl⟩
    | true => exact List.mem_map.mpr ⟨_, by simpa using this, rfl⟩

/-- `SortBy`: the user's function is called with the records of the sorted list (`SortedList`, whose order, distinctness and
membership `C38_getSorted_partial` gives), one after the other from the first; at most `amount` times; every call but the last was
answered true; and it stops only at the end of the list, after `amount` calls, or after an answer false. Holds in any state. -/
theorem C38_sortBy {S : Type} {w : World K V Ty} {o : Nat} {k : K} {func : S → Nat → S × Bool} {s : S} {rev : Bool} {amount : Nat} {t : SortRun S}
    (h : sortBy w o k func s rev amount = some t) :
    ∃ l, SortedList w o k rev l ∧ t.calls.map (·.1) <+: l ∧ t.calls.length ≤ amount ∧
      (∀ i, i + 1 < t.calls.length → ∀ e, t.calls[i]? = some e → e.2 = true) ∧
      (t.calls.map (·.1) = l ∨ t.calls.length = amount ∨ ∃ r, t.calls.getLast? = some (r, false)) := by
  simp only [sortBy, Option.map_eq_some_iff] at h
  obtain ⟨vo, hvo, rfl⟩ := h
  refine ⟨_, ⟨vo, hvo, rfl⟩, ?_⟩
  unfold sorter sortedIds
  cases hc : mget vo.cols k with
  | none => simp
  | some c =>
    dsimp only
    obtain ⟨⟨more, e1, e2⟩, a, b, d⟩ := sortBy_ran func amount ((if rev = true then c.ord.reverse else c.ord).map (·.2)) s [] (by simp)
    dsimp only [List.length_nil] at e1 e2 a b d
    refine ⟨by rw [e1]; simpa using e2, by simpa using a, b, ?_⟩
    rcases d with d | d | d
    · exact .inl (by simpa using d)
    · exact .inr (.inl (Nat.le_antisymm (by simpa using a) d))
    · exact .inr (.inr d)

/-- The records passed to the callback of `SortBy` are different valid records of the vault in order of their values; missing:
as above. -/
theorem C38_sortBy_partial {home : Nat → Nat} {S : Type} {w : World K V Ty} (hw : HReach Ordinary home w) {o : Nat} {k : K} {func : S → Nat → S × Bool} {s : S}
    {rev : Bool} {amount : Nat} {t : SortRun S} (ho : isVault w o = true) (h : sortBy w o k func s rev amount = some t) :
    InOrder w k rev (t.calls.map (·.1)) ∧ (t.calls.map (·.1)).Nodup ∧ ∀ r ∈ t.calls.map (·.1), r ∈ members w o ∧ alive w r := by
  obtain ⟨l, hl, hp, _⟩ := C38_sortBy h
  obtain ⟨own, hi⟩ := reach_inv hw
  obtain ⟨vo, hvo, hvs⟩ := isVault_iff.mp ho
  have hgs : ∃ w', getSorted w o k rev none = some w' := by
    simp only [getSorted, hvo, Option.bind_eq_bind, Option.bind_some]
    rw [if_neg (by simp [hvs])]
    obtain ⟨w2, e2, _⟩ := loop_newRefTo (l := sortedIds vo k rev none) hi hvo (by
      intro r hr
      obtain ⟨c, v, hc, hm⟩ := sortedIds_mem hr
      have := (((hi.v.vok o vo hvo hvs).cols k c hc).ordS v r hm).1
      obtain ⟨hown, hx⟩ := hi.v.mem o vo hvo hvs r this
      exact ⟨hx, by simp [hvs, hown]⟩)
    exact ⟨w2, e2⟩
  obtain ⟨w', hg⟩ := hgs
  obtain ⟨l', hl', h1, h2, h3, _⟩ := C38_getSorted_partial hw ho hg
  obtain ⟨vo1, e1, rfl⟩ := hl
  obtain ⟨vo2, e2, rfl⟩ := hl'
  rw [e1] at e2; cases e2
  exact ⟨h1.sublist hp.sublist, h2.sublist hp.sublist, fun r hr => ⟨(h3 r (hp.sublist.mem hr)).1, (h3 r (hp.sublist.mem hr)).2.1⟩⟩

/-- Specification, models no code: the calls of a function that does not depend on earlier calls: the records up to and with the first one refused, at most `amount`. -/
def callsOf (f : Nat → Bool) (l : List Nat) (amount : Nat) : List Nat := (l.takeWhile f ++ (l.dropWhile f).take 1).take amount

theorem sortByCalls_eq (f : Nat → Bool) : ∀ (l : List Nat) (n : Nat), sortByCalls f l (some n) = callsOf f l n
  | [], n => by simp [sortByCalls, callsOf]
  | r :: l, 0 => by simp [sortByCalls, callsOf]
  | r :: l, n + 1 => by
    have ih := sortByCalls_eq f l n
    unfold sortByCalls
    by_cases h : f r = true
    · simp only [h, if_true, Option.map_some, Nat.add_sub_cancel, ih, callsOf, List.takeWhile_cons, List.dropWhile_cons, List.cons_append, List.take_succ_cons]
    · simp [h, callsOf, List.takeWhile_cons, List.dropWhile_cons]

theorem sortBy_exact (f : Nat → Bool) (amount : Nat) (l : List Nat) : ∀ (done : List (Nat × Bool)),
    (sorterLoop (fun (t : SortRun Unit) r =>
      if t.counter ≥ amount then (t, false)
      else
        let a := ((), f r)
        if a.2 = false then (⟨t.counter, a.1, t.calls ++ [(r, false)]⟩, false)
        else (⟨t.counter + 1, a.1, t.calls ++ [(r, true)]⟩, true)) l ⟨done.length, (), done⟩).calls =
      done ++ (callsOf f l (amount - done.length)).map fun r => (r, f r) := by
  induction l with
  | nil => intro done; simp [sorterLoop, callsOf]
  | cons r l ih =>
    intro done
    simp only [sorterLoop]
    by_cases h : done.length ≥ amount
    · simp [h, Nat.sub_eq_zero_of_le h, callsOf]
    · obtain ⟨m, hm⟩ : ∃ m, amount - done.length = m + 1 := ⟨amount - done.length - 1, by omega⟩
      rw [if_neg h, hm]
      by_cases hf : f r = true
      · have e := ih (done ++ [(r, true)])
        rw [List.length_append, List.length_singleton, show amount - (done.length + 1) = m by omega] at e
        simp only [hf, if_true, Bool.true_eq_false, if_false]
        rw [e]
        simp [callsOf, hf]
      · have hf' : f r = false := by simpa using hf
        simp [hf', callsOf]

/-- The calls `SortBy` makes of a function whose answer depends on the record only: exactly the records of the sorted list up to
and with the first one refused, at most `amount`, with its answers. Holds in any state. -/
theorem C38_sortBy_calls {w : World K V Ty} {o : Nat} {k : K} {f : Nat → Bool} {rev : Bool} {amount : Nat} {l : List Nat} (hl : SortedList w o k rev l) :
    ∃ t, sortBy w o k (fun (_ : Unit) r => ((), f r)) () rev amount = some t ∧
      t.calls = (callsOf f l amount).map (fun r => (r, f r)) ∧ t.calls.map (·.1) = sortByCalls f l (some amount) := by
  obtain ⟨vo, hvo, rfl⟩ := hl
  refine ⟨_, by rw [sortBy, hvo, Option.map_some], ?_⟩
  unfold sorter sortedIds
  cases hc : mget vo.cols k with
  | none => simp [callsOf, sortByCalls]
  | some c =>
    dsimp only
    have e := sortBy_exact f amount ((if rev = true then c.ord.reverse else c.ord).map (·.2)) []
    dsimp only [List.length_nil, List.nil_append, Nat.sub_zero] at e
    rw [e, sortByCalls_eq]
    exact ⟨rfl, by rw [List.map_map]; exact List.map_id _⟩

example : SortedList apartW 0 1 false [3, 2] ∧ callsOf (fun r => decide (r = 2)) [3, 2] 5 = [3] ∧ callsOf (fun _ => true) [3, 2] 1 = [3] ∧
    callsOf (fun r => decide (r = 3)) [3, 2] 5 = [3, 2] := ⟨⟨_, rfl, by decide⟩, by decide, by decide, by decide⟩

/-- The vector `GetSortedRecords` fills in its loop is the list of the world model. -/
theorem C38_getSorted_loop (vo : Obj K V Ty) (k : K) (rev : Bool) (amount : Nat) :
    getSortedLoop vo k rev amount = (sortedIds vo k rev none).take amount := by
  rw [getSortedLoop_eq, sortedIds_take]

example : ∃ w', getSorted apartW 0 1 false (some 2) = some w' ∧ w'.refs.length = apartW.refs.length + 2 ∧
    SortedList apartW 0 1 false [3, 2] ∧ SortedList apartW 0 1 true [2, 3] ∧ members apartW 0 = [2, 3] := ⟨_, rfl, by decide, ⟨_, rfl, by decide⟩, ⟨_, rfl, by decide⟩, by decide⟩
/-- A callback that counts its calls and refuses the second one. -/
example : ∃ t, sortBy demoW 0 2 (fun n _ => (n + 1, decide (n = 0))) 0 true 5 = some t ∧ t.calls = [(1, true), (0, false)] := ⟨_, rfl, by decide⟩

/-- False after copying a vault with a unique key: a record created in the copy is listed twice. -/
theorem C38_refuted : ∃ w w' : DW, Reach (fun _ _ => True) w ∧ isVault w 1 = true ∧ members w 1 = [0] ∧ SortedList w 1 2 false [0, 0] ∧
    getSorted w 1 2 false none = some w' ∧ w'.refs.map (·.ptr) = w.refs.map (·.ptr) ++ [some 0, some 0] := by
  refine ⟨_, _, anyRun_reach (l := [.newVault, .addUniqueKey 0 2 false true (fun _ _ _ => 0), .vaultCopyNew 0, .newRef, .createRecord 1 0 [(2, 7)]]) rfl,
    by decide, by decide, ⟨_, rfl, by decide⟩, rfl, by decide⟩

end MVault.W
