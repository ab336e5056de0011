import Verif.LoopModel
import Verif.WorldDeep10
import Verif.WorldAny5
import Verif.PropsVault
import Verif.PropsCareful
/-
C110: the loops that run over a set while it changes are well defined and visit every element once.
-/
set_option linter.unusedSectionVars false
set_option linter.unusedSimpArgs false
set_option linter.unusedVariables false
namespace MVault.Lp
open MVault.W

variable {K V Ty : Type} [LinearOrder K] [LinearOrder V] [Typed V Ty] [DecidableEq Ty]

/-! ### Specification -/

/-- `res` is what the loop comes to, in every execution. -/
def Comes {W : Type} (round : Pos W → Nat → Option (Pos W)) (p : Pos W) (res : Option (Pos W)) : Prop := Run round p res ∧ ∀ r, Run round p r → r = res

/-- `l` is an order in which an `std::unordered_set` with the elements `s` may be iterated: every element once. -/
def OrderOf (l s : List Nat) : Prop := l.Nodup ∧ ∀ x, x ∈ l ↔ x ∈ s

/-! ### Proof -/

theorem run_det {W : Type} {round : Pos W → Nat → Option (Pos W)} {p : Pos W} {a b : Option (Pos W)} (h : Run round p a) (h' : Run round p b) : b = a := by
  induction h generalizing b with
  | done p e =>
    cases h' with
    | done _ _ => rfl
    | bad _ x e' _ => rw [e] at e'; cases e'
    | go _ p' x _ e' _ _ => rw [e] at e'; cases e'
  | bad p x e r =>
    cases h' with
    | done _ e' => rw [e] at e'; cases e'
    | bad _ _ _ _ => rfl
    | go _ p' y _ e' r' _ => rw [e] at e'; cases e'; rw [r] at r'; cases r'
  | go p p' x res e r _ ih =>
    cases h' with
    | done _ e' => rw [e] at e'; cases e'
    | bad _ y e' r' => rw [e] at e'; cases e'; rw [r] at r'; cases r'
    | go _ q y _ e' r' h' => rw [e] at e'; cases e'; rw [r] at r'; cases r'; exact ih h'

theorem comes {W : Type} {round : Pos W → Nat → Option (Pos W)} {p : Pos W} {a : Option (Pos W)} (h : Run round p a) : Comes round p a := ⟨h, fun _ h' => run_det h h'⟩

theorem incr_app {pre : List Nat} {x : Nat} {r : List Nat} (h : x ∉ pre) : incr (pre ++ x :: r) x = some r.head? := by
  induction pre with
  | nil => simp [incr]
  | cons y t ih =>
    simp only [List.mem_cons, not_or] at h
    simp only [List.cons_append, incr, Ne.symm h.1, if_false]
    exact ih h.2

theorem incr_none {l : List Nat} {x : Nat} (h : x ∉ l) : incr l x = none := by
  induction l with
  | nil => rfl
  | cons y t ih =>
    simp only [List.mem_cons, not_or] at h
    simp only [incr, Ne.symm h.1, if_false]; exact ih h.2

theorem after_same {l now : List Nat} (h : ∀ x, x ∈ now ↔ x ∈ l) : after l now = some l := by
  unfold after
  rw [if_pos (fun x hx => (h x).1 hx)]
  congr 1
  rw [List.filter_eq_self]
  intro x hx; simpa using (h x).2 hx

theorem after_drop {pre r now : List Nat} {x : Nat} (hn : (pre ++ x :: r).Nodup) (h : ∀ y, y ∈ now ↔ y ∈ pre ++ r) : after (pre ++ x :: r) now = some (pre ++ r) := by
  unfold after
  rw [if_pos (fun y hy => by have := (h y).1 hy; simp only [List.mem_append, List.mem_cons] at this ⊢; grind)]
  congr 1
  have hx : x ∉ pre ++ r := by
    rw [List.nodup_append] at hn
    simp only [List.nodup_cons, List.mem_cons] at hn
    simp only [List.mem_append]; grind
  have e : ∀ l : List Nat, (∀ y ∈ l, y ∈ pre ++ r) → l.filter (· ∈ now) = l := by
    intro l hl; rw [List.filter_eq_self]; intro y hy; simpa using (h y).2 (hl y hy)
  rw [List.filter_append, e pre (fun y hy => List.mem_append.2 (.inl hy)), List.filter_cons, if_neg (by simpa using fun hh => hx ((h x).1 hh)),
    e r (fun y hy => List.mem_append.2 (.inr hy))]

/-- A range-based loop whose body leaves the set alone. -/
theorem range_all {W : Type} {obs : W → Option (List Nat)} {body : W → Nat → Option W} (P : W → Prop) (now : W → List Nat) (l : List Nat) (hl : l.Nodup)
    (hobs : ∀ w, P w → obs w = some (now w) ∧ ∀ x, x ∈ now w ↔ x ∈ l) (hstep : ∀ w x w', P w → x ∈ l → body w x = some w' → P w') :
    ∀ (r pre : List Nat) (w : W), l = pre ++ r → P w → Run (rangeRound obs body) ⟨l, r.head?, w⟩ ((loop body r w).map fun w' => ⟨l, none, w'⟩) := by
  intro r
  induction r with
  | nil => intro pre w _ _; exact .done _ rfl
  | cons x r ih =>
    intro pre w e hp
    have hx : x ∈ l := by rw [e]; simp
    have hpre : x ∉ pre := by rw [e, List.nodup_append] at hl; intro h; exact hl.2.2 x h x (by simp) rfl
    cases hb : body w x with
    | none =>
      have : (loop body (x :: r) w).map (fun w' => (⟨l, none, w'⟩ : Pos W)) = none := by simp [loop, hb]
      rw [this]
      exact .bad _ x rfl (by simp [rangeRound, hx, hb])
    | some w' =>
      have hp' := hstep w x w' hp hx hb
      have : loop body (x :: r) w = loop body r w' := by simp [loop, hb]
      rw [this]
      refine .go _ ⟨l, r.head?, w'⟩ x _ rfl ?_ (ih (pre ++ [x]) w' (by rw [e]; simp) hp')
      obtain ⟨o1, o2⟩ := hobs w' hp'
      have hi : incr l x = some r.head? := by rw [e]; exact incr_app hpre
      simp [rangeRound, hx, hb, o1, after_same o2, hi]

/-- The loop of `DropVault`: the body erases the element it is at. -/
theorem saved_all {W : Type} {obs : W → Option (List Nat)} {body : W → Nat → Option W} (P : List Nat → W → Prop)
    (hstep : ∀ x r w w', (x :: r).Nodup → P (x :: r) w → body w x = some w' → P r w' ∧ ∃ now, obs w' = some now ∧ ∀ y, y ∈ now ↔ y ∈ r) :
    ∀ (r : List Nat) (w : W), r.Nodup → P r w → Run (savedRound obs body) ⟨r, r.head?, w⟩ ((loop body r w).map fun w' => ⟨[], none, w'⟩) := by
  intro r
  induction r with
  | nil => intro w _ _; exact .done _ rfl
  | cons x r ih =>
    intro w hn hp
    have hi : incr (x :: r) x = some r.head? := by simp [incr]
    cases hb : body w x with
    | none =>
      have : (loop body (x :: r) w).map (fun w' => (⟨[], none, w'⟩ : Pos W)) = none := by simp [loop, hb]
      rw [this]
      exact .bad _ x rfl (by simp [savedRound, hi, hb])
    | some w' =>
      obtain ⟨hp', now, o1, o2⟩ := hstep x r w w' hn hp hb
      have : loop body (x :: r) w = loop body r w' := by simp [loop, hb]
      rw [this]
      refine .go _ ⟨r, r.head?, w'⟩ x _ rfl ?_ (ih w' (List.nodup_cons.1 hn).2 hp')
      have ha : after (x :: r) now = some r := after_drop (pre := []) hn o2
      simp [savedRound, hi, hb, o1, ha]

/-! ### DropVault, and what would happen without the saved iterator -/

/-- What the loop of `DropVault` relies on. -/
def Left (own home : Nat → Nat) (o : Nat) (r : List Nat) (w : World K V Ty) : Prop :=
  Inv own home w ∧ ∃ vo, w.getObj o = some vo ∧ vo.isSet = false ∧ ∀ x, x ∈ vo.sets ↔ x ∈ r

theorem left_step {own home : Nat → Nat} {env : Env} {o x : Nat} {r : List Nat} {w w' : World K V Ty} (hn : (x :: r).Nodup) (h : Left own home o (x :: r) w)
    (hb : setReset env w x = some w') : Left own home o r w' ∧ ∃ now, kidsOf o w' = some now ∧ ∀ y, y ∈ now ↔ y ∈ r := by
  obtain ⟨hi, vo, ho, hs, hm⟩ := h
  obtain ⟨so, hso, his, hpar⟩ := hi.l.down o vo x ho hs ((hm x).2 (by simp))
  obtain ⟨sp, _, g4⟩ := setReset_spec hso his hi.q.si hb
  have hne : o ≠ x := by rintro rfl; rw [ho] at hso; cases hso; rw [hs] at his; cases his
  have go := g4 o hne
  rw [if_pos hpar, ho] at go
  have hm' : ∀ y, y ∈ vo.sets.filter (· ≠ x) ↔ y ∈ r := by
    intro y
    have hx : x ∉ r := (List.nodup_cons.1 hn).1
    simp only [List.mem_filter, hm, List.mem_cons, decide_eq_true_eq]
    constructor
    · rintro ⟨rfl | h, h'⟩
      · exact absurd rfl h'
      · exact h
    · intro h; exact ⟨.inr h, by rintro rfl; exact hx h⟩
  exact ⟨⟨sp.inv hi, _, go, hs, hm'⟩, _, by rw [kidsOf, go]; rfl, hm'⟩

/-- The set `s` is detached and empty. -/
def Detached (w : World K V Ty) (s : Nat) : Prop := ∃ so, w.getObj s = some so ∧ so.parent = none ∧ so.recs = []

theorem detached_step {own home : Nat → Nat} {env : Env} {o x : Nat} {r : List Nat} {w w' : World K V Ty} (h : Left own home o (x :: r) w)
    (hb : setReset env w x = some w') : Detached w' x ∧ ∀ s, s ≠ o → Detached w s → Detached w' s := by
  obtain ⟨hi, vo, ho, hs, hm⟩ := h
  obtain ⟨so, hso, his, hpar⟩ := hi.l.down o vo x ho hs ((hm x).2 (by simp))
  obtain ⟨sp, ⟨so', g1, g2, g3, g4, g5⟩, g6⟩ := setReset_spec hso his hi.q.si hb
  have hx : Detached w' x := ⟨so', g1, g3, g4⟩
  refine ⟨hx, ?_⟩
  rintro s hso' ⟨tob, t1, t2, t3⟩
  by_cases e : s = x
  · subst e; exact hx
  · have := g6 s e
    rw [hpar, if_neg (by simpa using Ne.symm hso'), t1] at this
    exact ⟨tob, this, t2, t3⟩

theorem sets_not_self {own home : Nat → Nat} {o : Nat} {vo : Obj K V Ty} {w : World K V Ty} (hi : Inv own home w) (ho : w.getObj o = some vo) (hs : vo.isSet = false) :
    o ∉ vo.sets := by
  intro h
  obtain ⟨so, hso, his, _⟩ := hi.l.down o vo o ho hs h
  rw [ho] at hso; cases hso; rw [hs] at his; cases his

/-- DropVault, in any order in which the vault's sets may be iterated: the loop uses no iterator to an erased element; unless resetting a set itself goes wrong, it ends with the
vault's list of sets empty and every set that was in it detached and empty; and it comes to the same as "reset each set once" in the model of DropVault. -/
theorem C110_drop_vault {home : Nat → Nat} {w : World K V Ty} (hw : HReach Ordinary home w) {o : Nat} {vo : Obj K V Ty} (ho : w.getObj o = some vo) (hset : vo.isSet = false)
    (env : Env) {l : List Nat} (hl : OrderOf l vo.sets) :
    ∃ res, Comes (savedRound (kidsOf o) (setReset env)) (start l w) res ∧ (res = none ↔ loop (setReset env) l w = none) ∧
      (∀ p, res = some p → p.order = [] ∧ kidsOf o p.w = some [] ∧ ∀ s ∈ vo.sets, Detached p.w s) ∧
      (env.perm vo.sets = l → dropVault env w o = res.bind fun p => dropCore env p.w o) := by
  obtain ⟨own, hi⟩ := reach_inv hw
  have hself : o ∉ l := fun h => sets_not_self hi ho hset ((hl.2 o).1 h)
  refine ⟨(loop (setReset env) l w).map fun w' => ⟨[], none, w'⟩, comes ?_, by simp, ?_, ?_⟩
  · exact saved_all (Left own home o) (fun x r w w' hn h hb => left_step hn h hb) l w hl.1 ⟨hi, vo, ho, hset, fun x => (hl.2 x).symm⟩
  · rintro p hp
    simp only [Option.map_eq_some_iff] at hp
    obtain ⟨w', hw', rfl⟩ := hp
    refine ⟨rfl, ?_⟩
    have key : ∀ (r : List Nat) (v : World K V Ty), r.Nodup → Left own home o r v → (∀ s ∈ l, s ∉ r → Detached v s) → loop (setReset env) r v = some w' →
        Left own home o [] w' ∧ ∀ s ∈ l, Detached w' s := by
      intro r
      induction r with
      | nil => intro v _ h1 h2 h3; cases h3; exact ⟨h1, fun s hs => h2 s hs (by simp)⟩
      | cons x r ih =>
        intro v hn h1 h2 h3
        simp only [loop, Option.bind_eq_some_iff] at h3
        obtain ⟨v', hv, h3⟩ := h3
        obtain ⟨dx, dr⟩ := detached_step h1 hv
        refine ih v' (List.nodup_cons.1 hn).2 (left_step hn h1 hv).1 ?_ h3
        intro s hs hr
        by_cases e : s = x
        · subst e; exact dx
        · exact dr s (by rintro rfl; exact hself hs) (h2 s hs (by simp [e, hr]))
    obtain ⟨⟨_, vo', h1, _, h2⟩, h3⟩ := key l w hl.1 ⟨hi, vo, ho, hset, fun x => (hl.2 x).symm⟩ (fun s hs hr => absurd hs hr) hw'
    refine ⟨?_, fun s hs => h3 s ((hl.2 s).2 hs)⟩
    have : vo'.sets = [] := List.eq_nil_iff_forall_not_mem.2 (fun a ha => by simpa using (h2 a).1 ha)
    simp [kidsOf, h1, this]
  · rintro rfl
    simp only [dropVault, ho, Option.bind_eq_bind, Option.bind_some]
    cases loop (setReset env) (env.perm vo.sets) w <;> rfl

/-- The same loop without the saved iterator, advancing after the set has been reset, would be undefined whenever the vault has a set. -/
theorem C110_without_saving {home : Nat → Nat} {w : World K V Ty} (hw : HReach Ordinary home w) {o : Nat} {vo : Obj K V Ty} (ho : w.getObj o = some vo) (hset : vo.isSet = false)
    (env : Env) {l : List Nat} (hl : OrderOf l vo.sets) (hne : vo.sets ≠ []) : Comes (rangeRound (kidsOf o) (setReset env)) (start l w) none := by
  obtain ⟨own, hi⟩ := reach_inv hw
  cases l with
  | nil =>
    exfalso
    obtain ⟨a, t, e⟩ := List.exists_cons_of_ne_nil hne
    have := (hl.2 a).2 (by rw [e]; simp)
    simp at this
  | cons x r =>
    refine comes (.bad _ x rfl ?_)
    cases hb : setReset env w x with
    | none => simp [rangeRound, start, hb]
    | some w' =>
      obtain ⟨_, now, o1, o2⟩ := left_step hl.1 ⟨hi, vo, ho, hset, fun x => (hl.2 x).symm⟩ hb
      have ha : after (x :: r) now = some r := after_drop (pre := []) hl.1 o2
      simp [rangeRound, start, hb, o1, ha, incr_none (List.nodup_cons.1 hl.1).1]

/-! ### Exclude and Intersect -/

theorem removeRecord_of {env : Env} {w : World K V Ty} {s r : Nat} {so : Obj K V Ty} (hs : w.getObj s = some so) (hb : so.isBase = false) (hr : r ∈ so.recs) :
    removeRecord env w s r = (w.getRec r).map fun x => (w.putObj s { so with cols := eraseCols so.cols x.data r, recs := so.recs.filter (· ≠ r) }, true) := by
  simp only [removeRecord, hs, Option.bind_eq_bind, Option.bind_some, hr, not_true, if_false, eraseOne, eraseLocal, hb, Bool.false_eq_true]
  cases w.getRec r <;> rfl

/-- The loops of Exclude and Intersect. -/
theorem erase_all {cond : World K V Ty → Nat → Option Bool} {env : Env} {s : Nat} (c : Nat → Bool) (P : World K V Ty → Prop) (hc : ∀ w x, P w → cond w x = some (c x))
    (hP : ∀ w y, P w → P (w.putObj s y)) :
    ∀ (r pre : List Nat) (w : World K V Ty) (so : Obj K V Ty), (pre ++ r).Nodup → P w → w.getObj s = some so → so.isBase = false → (∀ x, x ∈ so.recs ↔ x ∈ pre ++ r) →
      Run (eraseRound cond env s) ⟨pre ++ r, r.head?, w⟩
        ((loop (fun w r => (removeRecord env w s r).map (·.1)) (r.filter c) w).map fun w' => ⟨pre ++ r.filter (fun x => !c x), none, w'⟩) := by
  intro r
  induction r with
  | nil => intro pre w so _ _ _ _ _; exact .done _ rfl
  | cons x r ih =>
    intro pre w so hn hp hs hb hm
    have hx : x ∈ pre ++ x :: r := by simp
    have hpre : x ∉ pre := by rw [List.nodup_append] at hn; intro h; exact hn.2.2 x h x (by simp) rfl
    have hi : incr (pre ++ x :: r) x = some r.head? := incr_app hpre
    cases hcx : c x with
    | false =>
      simp only [List.filter_cons, hcx, Bool.not_false, Bool.not_true, if_true, Bool.false_eq_true, if_false]
      have := ih (pre ++ [x]) w so (by simpa using hn) hp hs hb (by simpa using hm)
      simp only [List.append_assoc, List.cons_append, List.nil_append] at this
      refine .go _ ⟨pre ++ x :: r, r.head?, w⟩ x _ rfl ?_ this
      simp [eraseRound, hc w x hp, hcx, hi]
    | true =>
      simp only [List.filter_cons, hcx, Bool.not_false, Bool.not_true, if_true, Bool.false_eq_true, if_false]
      have hr := removeRecord_of (env := env) hs hb ((hm x).2 hx)
      cases hg : w.getRec x with
      | none =>
        rw [hg] at hr
        have e : loop (fun w r => (removeRecord env w s r).map (·.1)) (x :: r.filter c) w = none := by
          simp only [loop, hr, Option.map_none, Option.bind_none]
        rw [e]
        exact .bad _ x rfl (by simp [eraseRound, hc w x hp, hcx, hr])
      | some y =>
        rw [hg] at hr
        simp only [Option.map_some] at hr
        have e : loop (fun w r => (removeRecord env w s r).map (·.1)) (x :: r.filter c) w =
            loop (fun w r => (removeRecord env w s r).map (·.1)) (r.filter c) (w.putObj s { so with cols := eraseCols so.cols y.data x, recs := so.recs.filter (· ≠ x) }) := by
          simp only [loop, hr, Option.map_some, Option.bind_some]
        rw [e]
        have hm' : ∀ z, z ∈ so.recs.filter (· ≠ x) ↔ z ∈ pre ++ r := by
          intro z
          have hxr : x ∉ r := by
            rw [List.nodup_append] at hn; exact (List.nodup_cons.1 hn.2.1).1
          simp only [List.mem_filter, hm, List.mem_append, List.mem_cons, decide_eq_true_eq]
          constructor
          · rintro ⟨h | rfl | h, h'⟩
            · exact .inl h
            · exact absurd rfl h'
            · exact .inr h
          · rintro (h | h)
            · exact ⟨.inl h, by rintro rfl; exact hpre h⟩
            · exact ⟨.inr (.inr h), by rintro rfl; exact hxr h⟩
        have hn' : (pre ++ r).Nodup := by
          rw [List.nodup_append] at hn ⊢
          exact ⟨hn.1, (List.nodup_cons.1 hn.2.1).2, fun a ha b hb => hn.2.2 a ha b (List.mem_cons_of_mem _ hb)⟩
        refine .go _ ⟨pre ++ r, r.head?, _⟩ x _ rfl ?_ (ih pre _ _ hn' (hP _ _ hp) (getObj_putObj_self _ _ _) hb hm')
        have ha := after_drop hn hm'
        simp only [ne_eq, decide_not] at ha
        simp [eraseRound, hc w x hp, hcx, hr, hi, getObj_putObj_self, ha]

/-- Exclude, in any order in which the set's records may be iterated: no iterator to an erased element is used, RemoveRecord is called exactly for the records that are in the
other set, and the set keeps the others in their order; it comes to the same as in the model of Exclude. -/
theorem C110_exclude {home : Nat → Nat} {w : World K V Ty} (hw : HReach Ordinary home w) {s a : Nat} {so ao : Obj K V Ty} (hs : w.getObj s = some so) (hset : so.isSet = true)
    (ha : w.getObj a = some ao) (hc : setOpCheck so ao s a = none) (env : Env) {l : List Nat} (hl : OrderOf l so.recs) :
    ∃ res, Comes (eraseRound (inSet a) env s) (start l w) res ∧
      (∀ p, res = some p → p.order = l.filter (· ∉ ao.recs)) ∧
      (env.perm so.recs = l → (setExclude env w s a).map (·.1) = res.map (·.w)) := by
  obtain ⟨own, hi⟩ := reach_inv hw
  have hne : s ≠ a := by rintro rfl; simp only [setOpCheck] at hc; split at hc <;> simp_all
  have hb : so.isBase = false := (hi.s.sets s so hs hset).base
  have h := erase_all (cond := inSet a) (env := env) (s := s) (fun x => decide (x ∈ ao.recs)) (fun w => w.getObj a = some ao) (fun w x h => by simp [inSet, h])
    (fun w y h => by rw [getObj_putObj, if_neg hne]; exact h) l [] w so (by simpa using hl.1) ha hs hb (fun x => by simpa using (hl.2 x).symm)
  refine ⟨_, comes h, ?_, ?_⟩
  · rintro p hp
    simp only [Option.map_eq_some_iff] at hp
    obtain ⟨w', _, rfl⟩ := hp
    simp [decide_not]
  · rintro rfl
    simp only [setExclude, hs, ha, hc, Option.bind_eq_bind, Option.bind_some, Option.map_map]
    congr 1

/-- Intersect, likewise: RemoveRecord is called exactly for the records that are not in the other set. -/
theorem C110_intersect {home : Nat → Nat} {w : World K V Ty} (hw : HReach Ordinary home w) {s a : Nat} {so ao : Obj K V Ty} (hs : w.getObj s = some so) (hset : so.isSet = true)
    (ha : w.getObj a = some ao) (hc : setOpCheck so ao s a = none) (env : Env) {l : List Nat} (hl : OrderOf l so.recs) :
    ∃ res, Comes (eraseRound (notInSet a) env s) (start l w) res ∧
      (∀ p, res = some p → p.order = l.filter (· ∈ ao.recs)) ∧
      (env.perm so.recs = l → (setIntersect env w s a).map (·.1) = res.map (·.w)) := by
  obtain ⟨own, hi⟩ := reach_inv hw
  have hne : s ≠ a := by rintro rfl; simp only [setOpCheck] at hc; split at hc <;> simp_all
  have hb : so.isBase = false := (hi.s.sets s so hs hset).base
  have h := erase_all (cond := notInSet a) (env := env) (s := s) (fun x => decide (x ∉ ao.recs)) (fun w => w.getObj a = some ao) (fun w x h => by simp [notInSet, h])
    (fun w y h => by rw [getObj_putObj, if_neg hne]; exact h) l [] w so (by simpa using hl.1) ha hs hb (fun x => by simpa using (hl.2 x).symm)
  refine ⟨_, comes h, ?_, ?_⟩
  · rintro p hp
    simp only [Option.map_eq_some_iff] at hp
    obtain ⟨w', _, rfl⟩ := hp
    simp [decide_not]
  · rintro rfl
    simp only [setIntersect, hs, ha, hc, Option.bind_eq_bind, Option.bind_some, Option.map_map]
    congr 1

/-! ### The other loops: the body leaves the set alone -/

theorem range_same {W : Type} {obs : W → Option (List Nat)} {body : W → Nat → Option W} (hb : ∀ w x w', body w x = some w' → obs w' = obs w) {w : W} {now l : List Nat}
    (h : obs w = some now) (hl : OrderOf l now) : Comes (rangeRound obs body) (start l w) ((loop body l w).map fun w' => ⟨l, none, w'⟩) :=
  comes (range_all (fun v => obs v = some now) (fun _ => now) l hl.1 (fun v hv => ⟨hv, fun x => (hl.2 x).symm⟩) (fun v x v' hv _ hh => (hb v x v' hh).trans hv) l [] w rfl h)

theorem kidsOf_put {w : World K V Ty} {s o : Nat} {so y : Obj K V Ty} (hs : w.getObj s = some so) (e : y.sets = so.sets) : kidsOf o (w.putObj s y) = kidsOf o w := by
  unfold kidsOf; rw [getObj_putObj]
  split
  · rename_i h; subst h; simp [hs, e]
  · rfl

/-- DropData: clearing a set does not change the vault's list of sets. -/
theorem C110_drop_data (env : Env) {w : World K V Ty} {o : Nat} {vo : Obj K V Ty} (ho : w.getObj o = some vo) {l : List Nat} (hl : OrderOf l vo.sets) :
    Comes (rangeRound (kidsOf o) (setClear env)) (start l w) ((loop (setClear env) l w).map fun w' => ⟨l, none, w'⟩) := by
  refine range_same (fun v x v' h => ?_) (by simp [kidsOf, ho]) hl
  simp only [setClear, Option.bind_eq_bind, Option.bind_eq_some_iff] at h
  obtain ⟨so, hso, h⟩ := h
  split at h
  · cases h; rfl
  · simp only [Option.bind_eq_some_iff] at h
    obtain ⟨w1, h1, h2⟩ := h; cases h2
    have e := loop_objs (fun _ _ _ h => eraseDep_objs h) _ h1
    rw [kidsOf_put ((getObj_objs e x).trans hso) (by rfl)]
    unfold kidsOf; rw [getObj_objs e o]

/-- `VaultRecordSet::Clear`, and the loop that invalidates all records: telling a record does not change the list of records. -/
theorem C110_clear (env : Env) {w : World K V Ty} {s : Nat} {so : Obj K V Ty} (hs : w.getObj s = some so) {l : List Nat} (hl : OrderOf l so.recs) :
    Comes (rangeRound (recsOf s) (eraseDep s)) (start l w) ((loop (eraseDep s) l w).map fun w' => ⟨l, none, w'⟩) ∧
    Comes (rangeRound (recsOf s) invalidate) (start l w) ((loop invalidate l w).map fun w' => ⟨l, none, w'⟩) :=
  ⟨range_same (fun v x v' h => by unfold recsOf; rw [getObj_objs (eraseDep_objs h) s]) (by simp [recsOf, hs]) hl,
   range_same (fun v x v' h => by unfold recsOf; rw [getObj_objs (invalidate_objs h) s]) (by simp [recsOf, hs]) hl⟩

/-- Join, which iterates over the other set: the check for the same set keeps the list it iterates over unchanged. -/
theorem C110_join {w : World K V Ty} {s a : Nat} {so ao : Obj K V Ty} (ha : w.getObj a = some ao) (hc : setOpCheck so ao s a = none) {l : List Nat} (hl : OrderOf l ao.recs) :
    Comes (rangeRound (recsOf a) (addOnly s)) (start l w) ((loop (addOnly s) l w).map fun w' => ⟨l, none, w'⟩) := by
  have hne : s ≠ a := by rintro rfl; grind [setOpCheck]
  refine range_same (fun v x v' h => ?_) (by simp [recsOf, ha]) hl
  simp only [addOnly, Option.bind_eq_bind, Option.bind_eq_some_iff] at h
  obtain ⟨tob, _, h⟩ := h
  split at h
  · cases h; rfl
  · simp only [Option.bind_eq_some_iff] at h
    obtain ⟨x, _, h⟩ := h; cases h
    unfold recsOf; rw [getObj_putObj, if_neg hne]

/-- `RemoveFromDependentSets`: removing a record from a set does not change the record's list of sets. -/
theorem C110_dependent {w : World K V Ty} {r : Nat} {x : Rec K V} (hr : w.getRec r = some x) {l : List Nat} (hl : OrderOf l x.deps) (env : Env) :
    ∃ body : World K V Ty → Nat → Option (World K V Ty), (∀ w s, body w s = do
        let so ← w.getObj s
        if r ∉ so.recs then some w else if so.isBase = true then none else eraseLocal w s r) ∧
      Comes (rangeRound (depsOf r) body) (start l w) ((loop body l w).map fun w' => ⟨l, none, w'⟩) ∧ (env.perm x.deps = l → removeFromDeps env w r = loop body l w) := by
  refine ⟨fun w s => do
        let so ← w.getObj s
        if r ∉ so.recs then some w else if so.isBase = true then none else eraseLocal w s r, fun _ _ => rfl, ?_, ?_⟩
  · refine range_same (fun v s v' h => ?_) (by simp [depsOf, hr]) hl
    simp only [Option.bind_eq_bind, Option.bind_eq_some_iff] at h
    obtain ⟨so, _, h⟩ := h
    split at h
    · cases h; rfl
    · split at h
      · cases h
      · simp only [eraseLocal, Option.bind_eq_bind, Option.bind_eq_some_iff] at h
        obtain ⟨vo, _, y, _, h⟩ := h; cases h; rfl
  · rintro rfl
    simp only [removeFromDeps, hr, Option.bind_eq_bind, Option.bind_some]

/-! ### Careful histories -/

/-- In a careful history the lists of records and of sets of every object have no element twice, so that every order the library may choose is an `OrderOf`; and the loops of DropVault and
DropData come to a world, never to undefined behaviour: every set is reset (cleared) and the iterator is never to an erased element. -/
theorem C110_careful {home : Nat → Nat} {w : World K V Ty} (hw : HReach Careful home w) {o : Nat} {vo : Obj K V Ty} (ho : w.getObj o = some vo) (hset : vo.isSet = false)
    (env : Env) : OrderOf (env.perm vo.sets) vo.sets ∧ OrderOf (env.perm vo.recs) vo.recs ∧ ∀ l, OrderOf l vo.sets →
    (∃ p, Comes (savedRound (kidsOf o) (setReset env)) (start l w) (some p) ∧ p.order = [] ∧ kidsOf o p.w = some [] ∧ ∀ s ∈ vo.sets, Detached p.w s) ∧
    (∃ w', Comes (rangeRound (kidsOf o) (setClear env)) (start l w) (some ⟨l, none, w'⟩)) := by
  obtain ⟨own, hi, hd⟩ := reach_deep hw
  refine ⟨⟨(env.isPerm _).nodup_iff.mpr (hd.setsN o vo ho), fun x => (env.isPerm _).mem_iff⟩,
    ⟨(env.isPerm _).nodup_iff.mpr (hi.v.vok o vo ho hset).recsN, fun x => (env.isPerm _).mem_iff⟩, fun l hl => ?_⟩
  have hsets : ∀ s ∈ l, ∃ so, w.getObj s = some so ∧ so.isSet = true := by
    intro s h
    obtain ⟨so, h1, h2, _⟩ := hi.l.down o vo s ho hset ((hl.2 s).1 h)
    exact ⟨so, h1, h2⟩
  constructor
  · obtain ⟨w', h, _⟩ := loop_setReset_deep (env := env) hd hi.q.si hsets
    obtain ⟨res, hc, hn, hp, _⟩ := C110_drop_vault (Careful.ordinary hw) ho hset env hl
    cases res with
    | none => rw [hn.mp rfl] at h; cases h
    | some p =>
      exact ⟨p, hc, hp p rfl⟩
  · obtain ⟨w', h, _⟩ := loop_setClear_deep (env := env) hd hi.q.si hsets
    have := C110_drop_data env ho hl
    rw [h] at this
    exact ⟨w', this⟩

/-! ### A concrete case: a vault with four records and two sets that share the records 2 and 3 (numbers 1, 2) -/

/-- A vault (0) with four records, two sets with three records each. -/
def twoOps : List DO :=
  [.newVault, .newSet, .newSet, .addKey 0 1 5, .newRef, .newRef, .newRef, .newRef, .createRecord 0 0 [(1, 1)], .createRecord 0 1 [(1, 2)], .createRecord 0 2 [(1, 3)],
   .createRecord 0 3 [(1, 4)], .ask 0 1 (.lt 4) none (fun _ => true) 1, .ask 0 1 (.gt 1) none (fun _ => true) 2]
def twoW : DW := (demo twoOps).getD World.empty
theorem twoW_reach : HReach Ordinary (fun _ => 0) twoW := demo_reach (l := twoOps) rfl

/-- The vault's sets are 1 and 2, reset in the order 2, 1; the sets have the records 0, 1, 2 and 1, 2, 3, iterated backwards. -/
example : ∃ vo so ao, twoW.getObj 0 = some vo ∧ vo.isSet = false ∧ OrderOf [2, 1] vo.sets ∧ twoW.getObj 1 = some so ∧ so.isSet = true ∧ twoW.getObj 2 = some ao ∧
    setOpCheck so ao 1 2 = none ∧ OrderOf [2, 1, 0] so.recs ∧ [2, 1, 0].filter (· ∉ ao.recs) = [0] ∧ vo.sets ≠ [] ∧
    ∃ w', loop (setReset Env.id) [2, 1] twoW = some w' ∧ kidsOf 0 w' = some [] := by
  refine ⟨_, _, _, rfl, rfl, ⟨by decide, ?_⟩, rfl, rfl, rfl, by decide, ⟨by decide, ?_⟩, by decide, by decide, _, rfl, rfl⟩
  · intro x
    show x ∈ [2, 1] ↔ x ∈ [1, 2]
    simp only [List.mem_cons, List.not_mem_nil, or_false]; exact or_comm
  · intro x
    show x ∈ [2, 1, 0] ↔ x ∈ [0, 1, 2]
    simp only [List.mem_cons, List.not_mem_nil, or_false]; grind

/-- The careful world of PropsCareful: the vault has a set with a parent and records. -/
example : ∃ vo, carefulW.getObj 0 = some vo ∧ vo.isSet = false ∧ 2 ≤ vo.sets.length ∧ 2 ≤ vo.recs.length := ⟨_, rfl, rfl, by decide, by decide⟩

end MVault.Lp
