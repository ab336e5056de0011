import Verif.WorldGentle2
/-
The functions of the algebra of sets: `Join`, `Exclude`, `Intersect`, `RemoveRecord`, `RemoveRecords`.
-/
set_option linter.unusedSectionVars false
set_option linter.unusedSimpArgs false
set_option linter.unusedVariables false
namespace MVault.W
variable {K V Ty : Type} [LinearOrder K] [LinearOrder V] [Typed V Ty] [DecidableEq Ty]
variable {own home : Nat → Nat}

/-- The records of a set are records of its vault. -/
theorem good_vault {w : World K V Ty} (hi : Inv own home w) (hg : Good w) {s p : Nat} {so : Obj K V Ty} (hs : w.getObj s = some so) (his : so.isSet = true)
    (hp : so.parent = some p) : ∃ po, w.getObj p = some po ∧ po.isSet = false ∧ ∀ r ∈ so.recs, r ∈ po.recs := by
  obtain ⟨po, h1, h2, _⟩ := hi.l.up s so p hs his hp
  refine ⟨po, h1, h2, fun r hr => ?_⟩
  obtain ⟨x, hx, hv⟩ := (hg.set s so hs his).held r hr
  have hso := hi.s.sets s so hs his
  obtain ⟨vo, a, b, c⟩ := hi.v.val r x hx hv
  rw [(hso.recs r hr).1, ← hso.par p hp, h1] at a
  cases a; exact c

theorem opCheck_none {so ao : Obj K V Ty} {s a : Nat} (h : setOpCheck so ao s a = none) : ∃ p, so.parent = some p ∧ ao.parent = some p ∧ s ≠ a := by
  unfold setOpCheck at h
  split at h
  · cases h
  · rename_i h1
    split at h
    · cases h
    · split at h
      · cases h
      · rename_i h2
        split at h
        · cases h
        · rename_i h3
          cases hp : so.parent with
          | none => exact absurd hp h1
          | some p => exact ⟨p, rfl, by rw [← hp]; exact Classical.not_not.mp h2, h3⟩

theorem join_turn {env : Env} {w : World K V Ty} {s a p : Nat} {so ao : Obj K V Ty} (hi : Inv own home w) (hg : Good w) (hs : w.getObj s = some so)
    (his : so.isSet = true) (ha : w.getObj a = some ao) (hai : ao.isSet = true) (hp : so.parent = some p) (hpa : ao.parent = some p) :
    ∃ w' so' l, loop (addOnly s) (env.perm ao.recs) w = some w' ∧ Turn own home s so so' w w' ∧ so'.recs = so.recs ++ l ∧
      (∀ t, t ∈ l ↔ t ∈ ao.recs ∧ t ∉ so.recs) ∧ Grown l so so' := by
  obtain ⟨po, h1, h2, h3⟩ := good_vault hi hg ha hai hpa
  obtain ⟨w', so', l, e1, e2, e3, e4, e5, _⟩ := loop_addOnly_turn (env.perm ao.recs) hi hg hs his hp h1 (fun r hr => h3 r (by simpa using hr))
  exact ⟨w', so', l, e1, e2, e3, fun t => by rw [e4, mem_perm], e5⟩

theorem setJoin_turn {env : Env} {w : World K V Ty} {s a : Nat} {so ao : Obj K V Ty} (hi : Inv own home w) (hg : Good w) (hs : w.getObj s = some so)
    (his : so.isSet = true) (ha : w.getObj a = some ao) (hai : ao.isSet = true) :
    (∃ c, setOpCheck so ao s a = some c ∧ setJoin env w s a = some (w, .bad c none)) ∨
    ∃ p w' so' l, so.parent = some p ∧ ao.parent = some p ∧ s ≠ a ∧ setJoin env w s a = some (w', .good none) ∧ Turn own home s so so' w w' ∧ so'.recs = so.recs ++ l ∧
      (∀ t, t ∈ l ↔ t ∈ ao.recs ∧ t ∉ so.recs) ∧ Grown l so so' := by
  cases hc : setOpCheck so ao s a with
  | some c => exact .inl ⟨c, rfl, by simp only [setJoin, hs, ha, Option.bind_eq_bind, Option.bind_some, hc]⟩
  | none =>
    obtain ⟨p, h1, h2, h3⟩ := opCheck_none hc
    obtain ⟨w', so', l, e1, e2⟩ := join_turn (env := env) hi hg hs his ha hai h1 h2
    exact .inr ⟨p, w', so', l, h1, h2, h3, by simp only [setJoin, hs, ha, Option.bind_eq_bind, Option.bind_some, hc, e1, Option.map_some], e2⟩

theorem setExclude_turn {env : Env} {w : World K V Ty} {s a : Nat} {so ao : Obj K V Ty} (hi : Inv own home w) (hg : Good w) (hs : w.getObj s = some so)
    (his : so.isSet = true) (ha : w.getObj a = some ao) (hai : ao.isSet = true) :
    (∃ c, setOpCheck so ao s a = some c ∧ setExclude env w s a = some (w, .bad c none)) ∨
    ∃ p w' so' l, so.parent = some p ∧ ao.parent = some p ∧ s ≠ a ∧ setExclude env w s a = some (w', .good none) ∧ Turn own home s so so' w w' ∧ Lost l so so' ∧
      ∀ t, t ∈ l ↔ t ∈ so.recs ∧ t ∈ ao.recs := by
  cases hc : setOpCheck so ao s a with
  | some c => exact .inl ⟨c, rfl, by simp only [setExclude, hs, ha, Option.bind_eq_bind, Option.bind_some, hc]⟩
  | none =>
    obtain ⟨p, h1, h2, h3⟩ := opCheck_none hc
    have hm : ∀ t, t ∈ (env.perm so.recs).filter (· ∈ ao.recs) ↔ t ∈ so.recs ∧ t ∈ ao.recs := by intro t; simp [List.mem_filter]
    obtain ⟨w', so', e1, e2, e3⟩ := loop_removeRecord_turn (env := env) ((env.perm so.recs).filter (· ∈ ao.recs)) hi hg hs his
      ((nodup_perm env so.recs).mpr (hg.set s so hs his).recsN |>.filter _) (fun r hr => ((hm r).mp hr).1)
    exact .inr ⟨p, w', so', _, h1, h2, h3, by simp only [setExclude, hs, ha, Option.bind_eq_bind, Option.bind_some, hc, e1, Option.map_some], e2, e3, hm⟩

theorem setIntersect_turn {env : Env} {w : World K V Ty} {s a : Nat} {so ao : Obj K V Ty} (hi : Inv own home w) (hg : Good w) (hs : w.getObj s = some so)
    (his : so.isSet = true) (ha : w.getObj a = some ao) (hai : ao.isSet = true) :
    (∃ c, setOpCheck so ao s a = some c ∧ setIntersect env w s a = some (w, .bad c none)) ∨
    ∃ p w' so' l, so.parent = some p ∧ ao.parent = some p ∧ s ≠ a ∧ setIntersect env w s a = some (w', .good none) ∧ Turn own home s so so' w w' ∧ Lost l so so' ∧
      ∀ t, t ∈ l ↔ t ∈ so.recs ∧ t ∉ ao.recs := by
  cases hc : setOpCheck so ao s a with
  | some c => exact .inl ⟨c, rfl, by simp only [setIntersect, hs, ha, Option.bind_eq_bind, Option.bind_some, hc]⟩
  | none =>
    obtain ⟨p, h1, h2, h3⟩ := opCheck_none hc
    have hm : ∀ t, t ∈ (env.perm so.recs).filter (· ∉ ao.recs) ↔ t ∈ so.recs ∧ t ∉ ao.recs := by intro t; simp [List.mem_filter]
    obtain ⟨w', so', e1, e2, e3⟩ := loop_removeRecord_turn (env := env) ((env.perm so.recs).filter (· ∉ ao.recs)) hi hg hs his
      ((nodup_perm env so.recs).mpr (hg.set s so hs his).recsN |>.filter _) (fun r hr => ((hm r).mp hr).1)
    exact .inr ⟨p, w', so', _, h1, h2, h3, by simp only [setIntersect, hs, ha, Option.bind_eq_bind, Option.bind_some, hc, e1, Option.map_some], e2, e3, hm⟩

/-! ### RemoveRecord -/

theorem setRemoveRef_turn {env : Env} {w : World K V Ty} {s f : Nat} {so : Obj K V Ty} {ref : Ref} (hi : Inv own home w) (hg : Good w) (hs : w.getObj s = some so)
    (his : so.isSet = true) (hf : w.refs[f]? = some ref) :
    ∃ w' so' b l, setRemoveRef env w s f = some (w', b) ∧ Turn own home s so so' w w' ∧ Lost l so so' ∧ (∀ t, t ∈ l ↔ t ∈ so.recs ∧ ref.ptr = some t) ∧
      (b = true ↔ ∃ r ∈ so.recs, ref.ptr = some r) := by
  have ok := hi.s.sets s so hs his
  cases hp : so.parent with
  | none =>
    have hn := ok.det hp
    exact ⟨w, so, false, [], by simp only [setRemoveRef, hs, Option.bind_eq_bind, Option.bind_some, hp, if_true], .refl hi hg hs his, .nil so, by simp [hn], by simp [hn]⟩
  | some p =>
    cases hq : ref.ptr with
    | none =>
      exact ⟨w, so, false, [], by simp [setRemoveRef, eraseRef, hs, hp, hf, hq], .refl hi hg hs his, .nil so, by simp, by simp⟩
    | some r =>
      obtain ⟨w', so', e1, e2, e3⟩ := removeRecord_turn (env := env) (r := r) hi hg hs his
      refine ⟨w', so', decide (r ∈ so.recs), if r ∈ so.recs then [r] else [], ?_, e2, e3, ?_, ?_⟩
      · simp only [setRemoveRef, eraseRef, hs, Option.bind_eq_bind, Option.bind_some, hp, hf, hq, e1, reduceCtorEq, if_false]
      · intro t
        by_cases hr : r ∈ so.recs
        · simp only [hr, if_true, List.mem_singleton, Option.some.injEq]; exact ⟨fun e => ⟨e ▸ hr, e.symm⟩, fun e => e.2.symm⟩
        · simp only [hr, if_false, List.not_mem_nil, Option.some.injEq, false_iff]; rintro ⟨a, rfl⟩; exact hr a
      · simp

theorem good_range {w : World K V Ty} (hg : Good w) {s : Nat} {so : Obj K V Ty} (hs : w.getObj s = some so) (his : so.isSet = true) {env : Env} {k : K} {v : V}
    {c : Col V Ty} (hc : mget so.cols k = some c) : (equalRange env c v).Nodup ∧ ∀ r ∈ equalRange env c v, r ∈ so.recs := by
  have ok := (hg.set s so hs his).cols k c hc
  obtain ⟨l, h1, h2, h3, _⟩ := scan_vault (env := env) ok (.eq v)
  cases h1
  exact ⟨h2, fun r hr => (h3 r hr).1⟩

theorem setRemoveKV_turn {env : Env} {w : World K V Ty} {s : Nat} {so : Obj K V Ty} {k : K} {v : V} (hi : Inv own home w) (hg : Good w) (hs : w.getObj s = some so)
    (his : so.isSet = true) :
    (so.parent = none ∧ setRemoveKV env w s k v = some (w, .bad .ParentVaultNotValid (some k))) ∨
    (∃ e, so.parent ≠ none ∧ checkKey so k (typeOf v) = .error e ∧ setRemoveKV env w s k v = some (w, e)) ∨
    (∃ c, so.parent ≠ none ∧ checkKey so k (typeOf v) = .ok c ∧ equalRange env c v = [] ∧ setRemoveKV env w s k v = some (w, .bad .WrongValue (some k))) ∨
    ∃ c r l w' so', so.parent ≠ none ∧ checkKey so k (typeOf v) = .ok c ∧ equalRange env c v = r :: l ∧ setRemoveKV env w s k v = some (w', .good (some k)) ∧
      Turn own home s so so' w w' ∧ Lost [r] so so' := by
  cases hp : so.parent with
  | none => exact .inl ⟨rfl, by simp only [setRemoveKV, hs, Option.bind_eq_bind, Option.bind_some, hp, if_true]⟩
  | some p =>
    right
    cases hc : checkKey so k (typeOf v) with
    | error e => exact .inl ⟨e, by simp, rfl, by simp only [setRemoveKV, eraseKV, hs, Option.bind_eq_bind, Option.bind_some, hp, reduceCtorEq, if_false, hc]⟩
    | ok c =>
      right
      cases hr : equalRange env c v with
      | nil => exact .inl ⟨c, by simp, rfl, hr, by simp only [setRemoveKV, eraseKV, hs, Option.bind_eq_bind, Option.bind_some, hp, reduceCtorEq, if_false, hc, hr]⟩
      | cons r l =>
        obtain ⟨w', so', e1, e2, e3⟩ := without_turn (env := env) hi hg hs his ((good_range (env := env) hg hs his (checkKey_ok hc).1).2 r (by rw [hr]; simp))
        exact .inr ⟨c, r, l, w', so', by simp, rfl, hr, by simp only [setRemoveKV, eraseKV, hs, Option.bind_eq_bind, Option.bind_some, hp, reduceCtorEq, if_false, hc, hr, e1, Option.map_some], e2, e3⟩

theorem setRemoveManyKV_turn {env : Env} {w : World K V Ty} {s n : Nat} {so : Obj K V Ty} {k : K} {v : V} (hi : Inv own home w) (hg : Good w) (hs : w.getObj s = some so)
    (his : so.isSet = true) :
    (so.parent = none ∧ setRemoveManyKV env w s k v n = some (w, .bad .ParentVaultNotValid (some k))) ∨
    (∃ e, so.parent ≠ none ∧ checkKey so k (typeOf v) = .error e ∧ setRemoveManyKV env w s k v n = some (w, e)) ∨
    (∃ c, so.parent ≠ none ∧ checkKey so k (typeOf v) = .ok c ∧ equalRange env c v = [] ∧ setRemoveManyKV env w s k v n = some (w, .bad .WrongValue (some k))) ∨
    ∃ c w' so', so.parent ≠ none ∧ checkKey so k (typeOf v) = .ok c ∧ equalRange env c v ≠ [] ∧ setRemoveManyKV env w s k v n = some (w', .good (some k)) ∧
      Turn own home s so so' w w' ∧ Lost ((equalRange env c v).take (max n 1)) so so' := by
  cases hp : so.parent with
  | none => exact .inl ⟨rfl, by simp only [setRemoveManyKV, hs, Option.bind_eq_bind, Option.bind_some, hp, if_true]⟩
  | some p =>
    right
    cases hc : checkKey so k (typeOf v) with
    | error e => exact .inl ⟨e, by simp, rfl, by simp only [setRemoveManyKV, eraseManyKV, hs, Option.bind_eq_bind, Option.bind_some, hp, reduceCtorEq, if_false, hc]⟩
    | ok c =>
      right
      cases hr : equalRange env c v with
      | nil => exact .inl ⟨c, by simp, rfl, hr, by simp only [setRemoveManyKV, eraseManyKV, hs, Option.bind_eq_bind, Option.bind_some, hp, reduceCtorEq, if_false, hc, hr]⟩
      | cons r l =>
        obtain ⟨n1, n2⟩ := good_range (env := env) (v := v) hg hs his (checkKey_ok hc).1
        obtain ⟨w', so', e1, e2, e3⟩ := loop_without_turn (env := env) ((equalRange env c v).take (max n 1)) hi hg hs his (n1.sublist (List.take_sublist _ _))
          (fun t ht => n2 t (List.mem_of_mem_take ht))
        refine .inr ⟨c, w', so', by simp, rfl, by rw [hr]; simp, ?_, e2, e3⟩
        rw [hr] at e1
        simp only [setRemoveManyKV, eraseManyKV, hs, Option.bind_eq_bind, Option.bind_some, hp, reduceCtorEq, if_false, hc, hr, e1, Option.map_some]

end MVault.W
