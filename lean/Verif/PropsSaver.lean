import Verif.SaverHeap
import Verif.PropsContainer
import Mathlib.Logic.Function.Basic
/-
C69: the memory of DataSaver objects.
-/
set_option linter.unusedSectionVars false
set_option linter.unusedSimpArgs false
set_option linter.unusedVariables false
namespace MVault.Cont
section
variable {V Ty : Type} [DecidableEq Ty]

/-! ### Specification -/

/-- What a variable holds: the value itself instead of its address. -/
def Hp.view (h : Hp V Ty) (i : Nat) : Option (Saver V Ty) := (h.vars i).map fun s => ⟨s.ptr.bind h.cells, s.dataType, s.strF, s.custom⟩

/-- The operations on savers as plain values, without memory: the variables after the operation. `n` is the number of the next new variable. -/
def saverSpec (τ : V → Ty) (fromStr : Ty → List Char → Option V) (n : Nat) (m : Nat → Option (Saver V Ty)) : SvOp V → Nat → Option (Saver V Ty)
  | .new => Function.update m n (some .empty)
  | .newFrom v c => Function.update m n (some (Saver.empty.setData τ v c))
  | .newCopy j => Function.update m n ((m j).map .copy)
  | .setData i v c => Function.update m i ((m i).map fun s => s.setData τ v c)
  | .assign i j => if i = j then m else Function.update m i ((m i).bind fun s => (m j).map s.assign)
  | .reset i => Function.update m i ((m i).map fun s => s.resetData.1)
  | .swap i j => if i = j then m else
      Function.update (Function.update m i ((m i).bind fun s => (m j).map fun o => (s.swap o).1)) j ((m i).bind fun s => (m j).map fun o => (s.swap o).2)
  | .setStr i str => Function.update m i ((m i).bind fun s => (s.setDataFromString fromStr str).map (·.2))
  | .str _ => m
  | .destroy i => Function.update m i none

/-- The operation is called on variables that exist, and text conversions on variables that hold a value. -/
def SvOp.fine (m : Nat → Option (Saver V Ty)) : SvOp V → Prop
  | .new => True
  | .newFrom _ _ => True
  | .newCopy j => (m j).isSome
  | .setData i _ _ => (m i).isSome
  | .assign i j => (m i).isSome ∧ (m j).isSome
  | .reset i => (m i).isSome
  | .swap i j => (m i).isSome ∧ (m j).isSome
  | .setStr i _ => ∃ s, m i = some s ∧ s.ptr.isSome
  | .str i => ∃ s, m i = some s ∧ s.ptr.isSome
  | .destroy i => (m i).isSome

/-- Text that is accepted for a type gives a value of the type. -/
def TypedText (τ : V → Ty) (fromStr : Ty → List Char → Option V) : Prop := ∀ T s v, fromStr T s = some v → τ v = T

/-! ### Proof -/

/-- A filled variable. -/
def Sv.full (p : Nat) (T : Ty) (c : Option Nat) : Sv Ty := ⟨some p, some T, some T, some T, some T, some T, c⟩

structure HI (τ : V → Ty) (h : Hp V Ty) : Prop where
  own : ∀ i s p, h.vars i = some s → s.ptr = some p → ∃ v, h.cells p = some v ∧ s = .full p (τ v) s.custom
  inj : ∀ i j s t p, h.vars i = some s → h.vars j = some t → s.ptr = some p → t.ptr = some p → i = j
  live : ∀ p v, h.cells p = some v → ∃ i s, h.vars i = some s ∧ s.ptr = some p
  lt : ∀ p v, h.cells p = some v → p < h.next
  ltv : ∀ i s, h.vars i = some s → i < h.nvars
  same : ∀ i s, h.vars i = some s → s.fromF = s.strF

theorem HI.init (τ : V → Ty) : HI τ (.init : Hp V Ty) := ⟨by simp [Hp.init], by simp [Hp.init], by simp [Hp.init], by simp [Hp.init], by simp [Hp.init], by simp [Hp.init]⟩

/-- After deleting the old value of variable `i`. -/
structure Freed (h h1 : Hp V Ty) (s : Sv Ty) : Prop where
  vars : h1.vars = h.vars
  nvars : h1.nvars = h.nvars
  next : h1.next = h.next
  calls : h1.calls = h.calls
  cells : h1.cells = fun p => if s.ptr = some p then none else h.cells p

theorem HI.delOld {τ : V → Ty} {h : Hp V Ty} (hi : HI τ h) {i : Nat} {s : Sv Ty} (hs : h.vars i = some s) : ∃ h1, h.delOld τ s = some h1 ∧ Freed h h1 s := by
  unfold Hp.delOld
  cases hp : s.ptr with
  | none => exact ⟨h, rfl, rfl, rfl, rfl, rfl, by simp [hp]⟩
  | some p =>
    obtain ⟨v, hv, he⟩ := hi.own i s p hs hp
    have hd : s.delF = some (τ v) := by rw [he]; rfl
    refine ⟨{ h with cells := fun q => if q = p then none else h.cells q }, by simp [Hp.del, hd, hv], rfl, rfl, rfl, rfl, ?_⟩
    funext q
    simp only [hp, Option.some.injEq]
    by_cases e : q = p
    · simp [e]
    · simp [e, Ne.symm e]

/-- Variable `i` without a value. -/
theorem HI.drop {τ : V → Ty} {h h1 : Hp V Ty} (hi : HI τ h) {i : Nat} {s : Sv Ty} (hs : h.vars i = some s) (hf : Freed h h1 s) (x : Option (Sv Ty))
    (hx : ∀ s', x = some s' → s'.ptr = none ∧ s'.fromF = s'.strF) : HI τ (h1.put i x) := by
  have hv : ∀ j, (h1.put i x).vars j = if j = i then x else h.vars j := by intro j; simp [Hp.put, hf.vars]
  have hc : ∀ p, (h1.put i x).cells p = if s.ptr = some p then none else h.cells p := by intro p; simp [Hp.put, hf.cells]
  constructor
  · intro j t p hj hp
    rw [hv] at hj
    by_cases e : j = i
    · rw [if_pos e] at hj; rw [(hx t hj).1] at hp; cases hp
    · rw [if_neg e] at hj
      obtain ⟨v, h1', h2⟩ := hi.own j t p hj hp
      refine ⟨v, ?_, h2⟩
      rw [hc, if_neg]; exact h1'
      intro e'; exact e (hi.inj j i t s p hj hs hp e')
  · intro j k a b p hj hk ha hb
    rw [hv] at hj hk
    by_cases e : j = i
    · rw [if_pos e] at hj; rw [(hx a hj).1] at ha; cases ha
    · by_cases e' : k = i
      · rw [if_pos e'] at hk; rw [(hx b hk).1] at hb; cases hb
      · rw [if_neg e] at hj; rw [if_neg e'] at hk; exact hi.inj j k a b p hj hk ha hb
  · intro p v hp
    rw [hc] at hp
    by_cases e : s.ptr = some p
    · rw [if_pos e] at hp; cases hp
    · rw [if_neg e] at hp
      obtain ⟨j, t, hj, ht⟩ := hi.live p v hp
      refine ⟨j, t, ?_, ht⟩
      rw [hv, if_neg]; exact hj
      rintro rfl; rw [hs] at hj; cases hj; exact e ht
  · intro p v hp
    rw [hc] at hp
    by_cases e : s.ptr = some p
    · rw [if_pos e] at hp; cases hp
    · rw [if_neg e] at hp
      show p < h1.next
      rw [hf.next]; exact hi.lt p v hp
  · intro j t hj
    show j < h1.nvars
    rw [hf.nvars]
    rw [hv] at hj
    by_cases e : j = i
    · rw [e]; exact hi.ltv i s hs
    · rw [if_neg e] at hj; exact hi.ltv j t hj
  · intro j t hj
    rw [hv] at hj
    by_cases e : j = i
    · rw [if_pos e] at hj; exact (hx t hj).2
    · rw [if_neg e] at hj; exact hi.same j t hj

/-- Variable `i`, without a value so far, gets one. -/
theorem HI.fill {τ : V → Ty} {g : Hp V Ty} {i : Nat} {x : Option (Sv Ty)} (hi : HI τ (g.put i x)) (hx : ∀ s', x = some s' → s'.ptr = none) (hlt : i < g.nvars) (v : V)
    (c : Option Nat) : HI τ ((g.alloc v).1.put i (some (.full g.next (τ v) c))) := by
  have hv : ∀ j, ((g.alloc v).1.put i (some (Sv.full g.next (τ v) c))).vars j = if j = i then some (Sv.full g.next (τ v) c) else g.vars j := by intro j; simp [Hp.put, Hp.alloc]
  have hv' : ∀ j, j ≠ i → (g.put i x).vars j = g.vars j := by intro j e; simp [Hp.put, e]
  have hc : ∀ p, ((g.alloc v).1.put i (some (Sv.full g.next (τ v) c))).cells p = if p = g.next then some v else g.cells p := by intro p; simp [Hp.put, Hp.alloc]
  have nlt : ∀ p w, g.cells p = some w → p < g.next := hi.lt
  constructor
  · intro j t p hj hp
    rw [hv] at hj
    by_cases e : j = i
    · rw [if_pos e] at hj; cases hj
      cases hp
      exact ⟨v, by rw [hc, if_pos rfl], rfl⟩
    · rw [if_neg e] at hj
      obtain ⟨w, h1, h2⟩ := hi.own j t p (by rw [hv' j e]; exact hj) hp
      refine ⟨w, ?_, h2⟩
      have : p ≠ g.next := Nat.ne_of_lt (nlt p w h1)
      rw [hc, if_neg this]; exact h1
  · intro j k a b p hj hk ha hb
    rw [hv] at hj hk
    by_cases e : j = i <;> by_cases e' : k = i
    · rw [e, e']
    · rw [if_pos e] at hj; rw [if_neg e'] at hk; cases hj; cases ha
      obtain ⟨w, h1, _⟩ := hi.own k b g.next (by rw [hv' k e']; exact hk) hb
      exact absurd (nlt _ w h1) (Nat.lt_irrefl _)
    · rw [if_neg e] at hj; rw [if_pos e'] at hk; cases hk; cases hb
      obtain ⟨w, h1, _⟩ := hi.own j a g.next (by rw [hv' j e]; exact hj) ha
      exact absurd (nlt _ w h1) (Nat.lt_irrefl _)
    · rw [if_neg e] at hj; rw [if_neg e'] at hk
      exact hi.inj j k a b p (by rw [hv' j e]; exact hj) (by rw [hv' k e']; exact hk) ha hb
  · intro p w hp
    rw [hc] at hp
    by_cases e : p = g.next
    · exact ⟨i, _, by rw [hv, if_pos rfl], by rw [e]; rfl⟩
    · rw [if_neg e] at hp
      obtain ⟨j, t, hj, ht⟩ := hi.live p w hp
      have ej : j ≠ i := by
        rintro rfl
        have : x = some t := by simpa [Hp.put] using hj
        rw [hx t this] at ht; cases ht
      exact ⟨j, t, by rw [hv, if_neg ej]; rw [hv' j ej] at hj; exact hj, ht⟩
  · intro p w hp
    show p < g.next + 1
    rw [hc] at hp
    by_cases e : p = g.next
    · omega
    · rw [if_neg e] at hp; have := nlt p w hp; omega
  · intro j t hj
    rw [hv] at hj
    by_cases e : j = i
    · rw [e]; exact hlt
    · rw [if_neg e] at hj; exact hi.ltv j t (by rw [hv' j e]; exact hj)
  · intro j t hj
    rw [hv] at hj
    by_cases e : j = i
    · rw [if_pos e] at hj; cases hj; rfl
    · rw [if_neg e] at hj; exact hi.same j t (by rw [hv' j e]; exact hj)

theorem HI.newVar {τ : V → Ty} {h : Hp V Ty} (hi : HI τ h) : HI τ h.newVar := by
  have hn : h.vars h.nvars = none := by
    cases e : h.vars h.nvars with
    | none => rfl
    | some s => exact absurd (hi.ltv _ s e) (Nat.lt_irrefl _)
  have hv : ∀ j, h.newVar.vars j = if j = h.nvars then some .empty else h.vars j := fun j => rfl
  constructor
  · intro j t p hj hp
    rw [hv] at hj
    by_cases e : j = h.nvars
    · rw [if_pos e] at hj; cases hj; cases hp
    · rw [if_neg e] at hj; exact hi.own j t p hj hp
  · intro j k a b p hj hk ha hb
    rw [hv] at hj hk
    by_cases e : j = h.nvars
    · rw [if_pos e] at hj; cases hj; cases ha
    · by_cases e' : k = h.nvars
      · rw [if_pos e'] at hk; cases hk; cases hb
      · rw [if_neg e] at hj; rw [if_neg e'] at hk; exact hi.inj j k a b p hj hk ha hb
  · intro p v hp
    obtain ⟨j, t, hj, ht⟩ := hi.live p v hp
    exact ⟨j, t, by rw [hv, if_neg (Nat.ne_of_lt (hi.ltv j t hj))]; exact hj, ht⟩
  · exact hi.lt
  · intro j t hj
    show j < h.nvars + 1
    rw [hv] at hj
    by_cases e : j = h.nvars
    · omega
    · rw [if_neg e] at hj; have := hi.ltv j t hj; omega
  · intro j t hj
    rw [hv] at hj
    by_cases e : j = h.nvars
    · rw [if_pos e] at hj; cases hj; rfl
    · rw [if_neg e] at hj; exact hi.same j t hj

theorem view_newVar {h : Hp V Ty} (j : Nat) : h.newVar.view j = Function.update h.view h.nvars (some .empty) j := by
  by_cases e : j = h.nvars
  · subst e; simp [Hp.view, Hp.newVar, Hp.put, Sv.empty, Saver.empty]
  · simp [Hp.view, Hp.newVar, Hp.put, e, Function.update]

/-- The other variables keep their values. -/
theorem view_other {τ : V → Ty} {h h' : Hp V Ty} (hi : HI τ h) {i j : Nat} (e : j ≠ i) (hv : h'.vars j = h.vars j)
    (hc : ∀ p v, h.cells p = some v → (∀ s, h.vars i = some s → s.ptr ≠ some p) → h'.cells p = some v) : h'.view j = h.view j := by
  unfold Hp.view
  rw [hv]
  cases hj : h.vars j with
  | none => rfl
  | some t =>
    simp only [Option.map_some, Option.some.injEq, Saver.mk.injEq, and_true]
    cases hp : t.ptr with
    | none => rfl
    | some p =>
      obtain ⟨v, h1, _⟩ := hi.own j t p hj hp
      simp only [Option.bind_some]
      rw [hc p v h1, h1]
      intro s hs hsp
      exact e (hi.inj j i t s p hj hs hp hsp)

theorem setData_spec {τ : V → Ty} {h : Hp V Ty} (hi : HI τ h) {i : Nat} {s : Sv Ty} (hs : h.vars i = some s) (v : V) (c : Option Nat) :
    ∃ h', h.setData τ i v c = some h' ∧ HI τ h' ∧ h'.nvars = h.nvars ∧ ∀ j, h'.view j = Function.update h.view i ((h.view i).map fun s => s.setData τ v c) j := by
  obtain ⟨h1, hd, hf⟩ := hi.delOld hs
  have hlt : i < h1.nvars := by rw [hf.nvars]; exact hi.ltv i s hs
  have hdrop := hi.drop hs hf (some { s with ptr := none }) (fun s' e => by cases e; exact ⟨rfl, hi.same i s hs⟩)
  refine ⟨(h1.alloc v).1.put i (some (.full h1.next (τ v) c)), ?_, hdrop.fill (fun s' e => by cases e; rfl) hlt v c, hf.nvars, ?_⟩
  · simp only [Hp.setData, hs, hd, Option.bind_eq_bind, Option.bind_some]; rfl
  · intro j
    by_cases e : j = i
    · subst e
      simp [Hp.view, Hp.put, Hp.alloc, Sv.full, Saver.setData, hs]
    · simp only [Function.update, e, dif_neg, not_false_iff]
      apply view_other hi e
      · simp [Hp.put, Hp.alloc, e, hf.vars]
      · intro p w hw hn
        have : p ≠ h1.next := by rw [hf.next]; exact Nat.ne_of_lt (hi.lt p w hw)
        simp [Hp.put, Hp.alloc, this, hf.cells, hn s hs, hw]

theorem assign_spec {τ : V → Ty} {h : Hp V Ty} (hi : HI τ h) {i j : Nat} {s o : Sv Ty} (hs : h.vars i = some s) (ho : h.vars j = some o) (hne : i ≠ j) :
    ∃ h', h.assign τ i j = some h' ∧ HI τ h' ∧ h'.nvars = h.nvars ∧
      ∀ k, h'.view k = Function.update h.view i ((h.view i).bind fun a => (h.view j).map a.assign) k := by
  obtain ⟨h1, hd, hf⟩ := hi.delOld hs
  have hlt : i < h1.nvars := by rw [hf.nvars]; exact hi.ltv i s hs
  have hdrop := hi.drop hs hf (some { s with ptr := none }) (fun s' e => by cases e; exact ⟨rfl, hi.same i s hs⟩)
  cases hq : o.ptr with
  | none =>
    refine ⟨h1.put i (some { s with ptr := none }), ?_, hdrop, hf.nvars, ?_⟩
    · simp only [Hp.assign, hs, ho, if_neg hne, hd, hq, Option.bind_eq_bind, Option.bind_some]
    · intro k
      by_cases e : k = i
      · subst e
        simp [Hp.view, Hp.put, hs, ho, hq, Saver.assign]
      · simp only [Function.update, e, dif_neg, not_false_iff]
        apply view_other hi e
        · simp [Hp.put, e, hf.vars]
        · intro p w hw hn
          simp [Hp.put, hf.cells, hn s hs, hw]
  | some q =>
    obtain ⟨v, hv, he⟩ := hi.own j o q ho hq
    have hnp : s.ptr ≠ some q := fun e => hne (hi.inj i j s o q hs ho e hq)
    have hc : h1.cells q = some v := by simp [hf.cells, hnp, hv]
    have hcf : o.copyF = some (τ v) := by rw [he]; rfl
    have hcopy : h1.copyOf τ o.copyF q = some (h1.alloc v) := by simp [Hp.copyOf, hcf, hc]
    refine ⟨(h1.alloc v).1.put i (some (.full h1.next (τ v) o.custom)), ?_, hdrop.fill (fun s' e => by cases e; rfl) hlt v o.custom, hf.nvars, ?_⟩
    · simp only [Hp.assign, hs, ho, if_neg hne, hd, hq, hcopy, Option.bind_eq_bind, Option.bind_some]
      congr 2
      rw [he]; rfl
    · intro k
      by_cases e : k = i
      · subst e
        simp only [Function.update_self, Hp.view, hs, ho, hq, Option.map_some, Option.bind_some, hv]
        rw [he]
        simp [Hp.put, Hp.alloc, Sv.full, Saver.assign]
      · simp only [Function.update, e, dif_neg, not_false_iff]
        apply view_other hi e
        · simp [Hp.put, Hp.alloc, e, hf.vars]
        · intro p w hw hn
          have : p ≠ h1.next := by rw [hf.next]; exact Nat.ne_of_lt (hi.lt p w hw)
          simp [Hp.put, Hp.alloc, this, hf.cells, hn s hs, hw]

theorem destroy_spec {τ : V → Ty} {h : Hp V Ty} (hi : HI τ h) {i : Nat} {s : Sv Ty} (hs : h.vars i = some s) :
    ∃ h', h.destroy τ i = some h' ∧ HI τ h' ∧ h'.nvars = h.nvars ∧ ∀ k, h'.view k = Function.update h.view i none k := by
  obtain ⟨h1, hd, hf⟩ := hi.delOld hs
  refine ⟨h1.put i none, by simp only [Hp.destroy, hs, hd, Option.bind_eq_bind, Option.bind_some], hi.drop hs hf none (fun s' e => by cases e), hf.nvars, ?_⟩
  intro k
  by_cases e : k = i
  · subst e; simp [Hp.view, Hp.put]
  · simp only [Function.update, e, dif_neg, not_false_iff]
    apply view_other hi e
    · simp [Hp.put, e, hf.vars]
    · intro p w hw hn
      simp [Hp.put, hf.cells, hn s hs, hw]

theorem reset_spec {τ : V → Ty} {h : Hp V Ty} (hi : HI τ h) {i : Nat} {s : Sv Ty} (hs : h.vars i = some s) :
    ∃ h', h.reset τ i = some h' ∧ HI τ h' ∧ h'.nvars = h.nvars ∧ ∀ k, h'.view k = Function.update h.view i ((h.view i).map fun s => s.resetData.1) k := by
  have hi0 : HI τ (h.callCustom s) := by
    unfold Hp.callCustom
    cases s.custom with
    | none => exact hi
    | some f => exact ⟨hi.own, hi.inj, hi.live, hi.lt, hi.ltv, hi.same⟩
  have hs0 : (h.callCustom s).vars i = some s := by unfold Hp.callCustom; cases s.custom <;> exact hs
  have hview : ∀ k, (h.callCustom s).view k = h.view k := by intro k; unfold Hp.callCustom; cases s.custom <;> rfl
  have hnv : (h.callCustom s).nvars = h.nvars := by unfold Hp.callCustom; cases s.custom <;> rfl
  obtain ⟨h1, hd, hf⟩ := hi0.delOld hs0
  refine ⟨h1.put i (some ⟨none, none, none, s.delF, none, none, none⟩), ?_, hi0.drop hs0 hf _ (fun s' e => by cases e; exact ⟨rfl, rfl⟩), hf.nvars.trans hnv, ?_⟩
  · simp only [Hp.reset, hs, hd, Option.bind_eq_bind, Option.bind_some]
  · intro k
    by_cases e : k = i
    · subst e; simp [Hp.view, Hp.put, hs, Saver.resetData]
    · simp only [Function.update, e, dif_neg, not_false_iff]
      rw [← hview]
      apply view_other hi0 e
      · simp [Hp.put, e, hf.vars]
      · intro p w hw hn
        simp [Hp.put, hf.cells, hn s hs0, hw]

theorem setStr_spec {τ : V → Ty} {fromStr : Ty → List Char → Option V} (ht : TypedText τ fromStr) {h : Hp V Ty} (hi : HI τ h) {i : Nat} {s : Sv Ty} (hs : h.vars i = some s)
    {p : Nat} (hp : s.ptr = some p) (str : List Char) :
    ∃ h', h.setStr τ fromStr i str = some h' ∧ HI τ h' ∧ h'.nvars = h.nvars ∧
      ∀ k, h'.view k = Function.update h.view i ((h.view i).bind fun s => (s.setDataFromString fromStr str).map (·.2)) k := by
  obtain ⟨v, hv, he⟩ := hi.own i s p hs hp
  have hf : s.fromF = some (τ v) := by rw [he]; rfl
  have hst : s.strF = some (τ v) := by rw [he]; rfl
  have hview : h.view i = some ⟨some v, s.dataType, some (τ v), s.custom⟩ := by simp [Hp.view, hs, hp, hv, hst]
  cases hx : fromStr (τ v) str with
  | none =>
    refine ⟨h, by simp only [Hp.setStr, hs, hp, hf, hv, Option.bind_eq_bind, Option.bind_some, if_true, hx], hi, rfl, ?_⟩
    intro k
    by_cases e : k = i
    · subst e; simp [hview, Saver.setDataFromString, hx]
    · simp [Function.update, e]
  | some v' =>
    have hty := ht _ _ _ hx
    refine ⟨{ h with cells := fun q => if q = p then some v' else h.cells q }, by simp only [Hp.setStr, hs, hp, hf, hv, Option.bind_eq_bind, Option.bind_some, if_true, hx], ?_, rfl, ?_⟩
    · constructor
      · intro j t q hj hq
        obtain ⟨w, h1, h2⟩ := hi.own j t q hj hq
        by_cases e : q = p
        · subst e
          rw [hv] at h1; cases h1
          exact ⟨v', by simp, by rw [hty]; exact h2⟩
        · exact ⟨w, by simp [e, h1], h2⟩
      · exact hi.inj
      · intro q w hq
        by_cases e : q = p
        · exact hi.live q v (by rw [e]; exact hv)
        · exact hi.live q w (by simpa [e] using hq)
      · intro q w hq
        by_cases e : q = p
        · exact hi.lt q v (by rw [e]; exact hv)
        · exact hi.lt q w (by simpa [e] using hq)
      · exact hi.ltv
      · exact hi.same
    · intro k
      by_cases e : k = i
      · subst e
        simp only [Function.update_self, hview, Option.bind_some, Saver.setDataFromString, hx, Option.map_some]
        simp [Hp.view, hs, hp, hst]
      · simp only [Function.update, e, dif_neg, not_false_iff]
        refine view_other hi e (by rfl) ?_
        intro q w hw hn
        have : q ≠ p := by rintro rfl; exact hn s hs hp
        simp [this, hw]

theorem view_some {h : Hp V Ty} {i : Nat} (hv : (h.view i).isSome) : ∃ s, h.vars i = some s := by
  cases e : h.vars i with
  | none => simp [Hp.view, e] at hv
  | some s => exact ⟨s, rfl⟩

theorem vars_of_view {h : Hp V Ty} {i : Nat} {a : Saver V Ty} (hv : h.view i = some a) : ∃ s, h.vars i = some s := view_some (by simp [hv])

theorem swap_spec {τ : V → Ty} {h : Hp V Ty} (hi : HI τ h) {i j : Nat} {a b : Saver V Ty} (ha : h.view i = some a) (hb : h.view j = some b) :
    ∃ h', h.swap τ i j = some h' ∧ HI τ h' ∧
      ∀ k, h'.view k = if i = j then h.view k else Function.update (Function.update h.view i (some (a.swap b).1)) j (some (a.swap b).2) k := by
  obtain ⟨s, hs⟩ := vars_of_view ha
  obtain ⟨o, ho⟩ := vars_of_view hb
  have hti : i ≠ h.nvars := Nat.ne_of_lt (hi.ltv i s hs)
  have htj : j ≠ h.nvars := Nat.ne_of_lt (hi.ltv j o ho)
  have hni := hi.newVar
  have n1 : h.newVar.view h.nvars = some .empty := by rw [view_newVar]; simp
  have n2 : ∀ k, k ≠ h.nvars → h.newVar.view k = h.view k := by intro k e; rw [view_newVar]; simp [Function.update, e]
  obtain ⟨st, hst⟩ := vars_of_view n1
  obtain ⟨sj, hsj⟩ := vars_of_view ((n2 j htj).trans hb)
  obtain ⟨h1, e1, i1, v1, w1⟩ := assign_spec hni hst hsj (Ne.symm htj)
  have a1 : h1.view h.nvars = some (Saver.copy b) := by rw [w1, Function.update_self, n1, n2 j htj, hb]; rfl
  have o1 : ∀ k, k ≠ h.nvars → h1.view k = h.view k := by intro k e; rw [w1]; simp [Function.update, e, n2 k e]
  by_cases hij : i = j
  · subst hij
    obtain ⟨si, hsi⟩ := vars_of_view ((o1 i hti).trans ha)
    have e2 : h1.assign τ i i = some h1 := by simp [Hp.assign, hsi]
    obtain ⟨st', hst'⟩ := vars_of_view a1
    obtain ⟨h3, e3, i3, v3, w3⟩ := assign_spec i1 hsi hst' hti
    have a3 : h3.view h.nvars = some (Saver.copy b) := by rw [w3]; simp [Function.update, Ne.symm hti, a1]
    obtain ⟨st3, hst3⟩ := vars_of_view a3
    obtain ⟨h4, e4, i4, v4, w4⟩ := destroy_spec i3 hst3
    refine ⟨h4, ?_, i4, ?_⟩
    · simp only [Hp.swap, hs, ho, Option.bind_eq_bind, Option.bind_some, e1, e2, e3, e4]
    · intro k
      rw [if_pos rfl, w4]
      rw [ha] at hb
      cases hb
      by_cases ek : k = h.nvars
      · subst ek
        rw [Function.update_self]
        have : h.vars h.nvars = none := by
          cases e : h.vars h.nvars with
          | none => rfl
          | some s => exact absurd (hi.ltv _ s e) (Nat.lt_irrefl _)
        simp [Hp.view, this]
      · rw [Function.update_of_ne ek, w3]
        by_cases eki : k = i
        · subst eki
          rw [Function.update_self, o1 k ek, ha, a1]
          cases hp : a.ptr <;> simp [Saver.assign, Saver.copy, hp, Saver.empty] <;> cases a <;> simp_all
        · rw [Function.update_of_ne eki, o1 k ek]
  · obtain ⟨si, hsi⟩ := vars_of_view ((o1 i hti).trans ha)
    obtain ⟨sj1, hsj1⟩ := vars_of_view ((o1 j htj).trans hb)
    obtain ⟨h2, e2, i2, v2, w2⟩ := assign_spec i1 hsj1 hsi (Ne.symm hij)
    have a2 : h2.view h.nvars = some (Saver.copy b) := by rw [w2]; simp [Function.update, Ne.symm htj, a1]
    have b2 : h2.view i = some a := by rw [w2]; simp [Function.update, hij, o1 i hti, ha]
    obtain ⟨si2, hsi2⟩ := vars_of_view b2
    obtain ⟨st2, hst2⟩ := vars_of_view a2
    obtain ⟨h3, e3, i3, v3, w3⟩ := assign_spec i2 hsi2 hst2 hti
    have a3 : h3.view h.nvars = some (Saver.copy b) := by rw [w3]; simp [Function.update, Ne.symm hti, a2]
    obtain ⟨st3, hst3⟩ := vars_of_view a3
    obtain ⟨h4, e4, i4, v4, w4⟩ := destroy_spec i3 hst3
    refine ⟨h4, ?_, i4, ?_⟩
    · simp only [Hp.swap, hs, ho, Option.bind_eq_bind, Option.bind_some, e1, e2, e3, e4]
    · intro k
      rw [if_neg hij, w4]
      by_cases ek : k = h.nvars
      · subst ek
        rw [Function.update_self, Function.update_of_ne (Ne.symm htj), Function.update_of_ne (Ne.symm hti)]
        have : h.vars h.nvars = none := by
          cases e : h.vars h.nvars with
          | none => rfl
          | some s => exact absurd (hi.ltv _ s e) (Nat.lt_irrefl _)
        simp [Hp.view, this]
      · rw [Function.update_of_ne ek, w3]
        by_cases eki : k = i
        · subst eki
          rw [Function.update_self, Function.update_of_ne hij, Function.update_self, b2, a2]; rfl
        · rw [Function.update_of_ne eki, w2]
          by_cases ekj : k = j
          · subst ekj
            rw [Function.update_self, Function.update_self, o1 k ek, o1 i hti, ha, hb]; rfl
          · rw [Function.update_of_ne ekj, Function.update_of_ne ekj, Function.update_of_ne eki, o1 k ek]

/-- Every operation that is used as intended. -/
theorem step_spec {τ : V → Ty} {fromStr : Ty → List Char → Option V} (ht : TypedText τ fromStr) (toStr : V → List Char) {h : Hp V Ty} (hi : HI τ h) (op : SvOp V)
    (hf : op.fine h.view) : ∃ h', h.step τ fromStr toStr op = some h' ∧ HI τ h' ∧ ∀ k, h'.view k = saverSpec τ fromStr h.nvars h.view op k := by
  cases op with
  | new => exact ⟨_, rfl, hi.newVar, fun k => view_newVar k⟩
  | newFrom v c =>
    have n1 : h.newVar.view h.nvars = some .empty := by rw [view_newVar]; simp
    obtain ⟨st, hst⟩ := vars_of_view n1
    obtain ⟨h', a, b, _, d⟩ := setData_spec hi.newVar hst v c
    refine ⟨h', a, b, fun k => ?_⟩
    rw [d k, n1]
    by_cases e : k = h.nvars
    · subst e; simp [saverSpec]
    · simp [saverSpec, Function.update, e, view_newVar]
  | newCopy j =>
    obtain ⟨s, hs⟩ := view_some hf
    have htj : j ≠ h.nvars := Nat.ne_of_lt (hi.ltv j s hs)
    have n1 : h.newVar.view h.nvars = some .empty := by rw [view_newVar]; simp
    have n2 : h.newVar.view j = h.view j := by rw [view_newVar]; simp [Function.update, htj]
    obtain ⟨st, hst⟩ := vars_of_view n1
    obtain ⟨sj, hsj⟩ := view_some (n2 ▸ hf : (h.newVar.view j).isSome)
    obtain ⟨h', a, b, _, d⟩ := assign_spec hi.newVar hst hsj (Ne.symm htj)
    refine ⟨h', by simp only [Hp.step, hs, Option.bind_some]; exact a, b, fun k => ?_⟩
    rw [d k, n1, n2]
    by_cases e : k = h.nvars
    · subst e; simp [saverSpec]; rfl
    · simp [saverSpec, Function.update, e, view_newVar]
  | setData i v c =>
    obtain ⟨s, hs⟩ := view_some hf
    obtain ⟨h', a, b, _, d⟩ := setData_spec hi hs v c
    exact ⟨h', a, b, d⟩
  | assign i j =>
    obtain ⟨s, hs⟩ := view_some hf.1
    obtain ⟨o, ho⟩ := view_some hf.2
    by_cases e : i = j
    · subst e
      exact ⟨h, by simp [Hp.step, Hp.assign, hs], hi, fun k => by simp [saverSpec]⟩
    · obtain ⟨h', a, b, _, d⟩ := assign_spec hi hs ho e
      exact ⟨h', a, b, fun k => by rw [d k]; simp only [saverSpec, if_neg e]⟩
  | reset i =>
    obtain ⟨s, hs⟩ := view_some hf
    obtain ⟨h', a, b, _, d⟩ := reset_spec hi hs
    exact ⟨h', a, b, d⟩
  | swap i j =>
    obtain ⟨a, ha⟩ := Option.isSome_iff_exists.1 hf.1
    obtain ⟨b, hb⟩ := Option.isSome_iff_exists.1 hf.2
    obtain ⟨h', x, y, d⟩ := swap_spec hi ha hb
    refine ⟨h', x, y, fun k => ?_⟩
    rw [d k]
    by_cases e : i = j
    · simp [saverSpec, e]
    · simp [saverSpec, e, ha, hb]
  | setStr i str =>
    obtain ⟨a, ha, hp⟩ := hf
    obtain ⟨s, hs⟩ := vars_of_view ha
    cases hsp : s.ptr with
    | none => simp [Hp.view, hs, hsp] at ha; subst ha; simp at hp
    | some p =>
      obtain ⟨h', x, y, _, d⟩ := setStr_spec ht hi hs hsp str
      exact ⟨h', x, y, d⟩
  | str i =>
    obtain ⟨a, ha, hp⟩ := hf
    obtain ⟨s, hs⟩ := vars_of_view ha
    cases hsp : s.ptr with
    | none => simp [Hp.view, hs, hsp] at ha; subst ha; simp at hp
    | some p =>
      obtain ⟨v, hv, he⟩ := hi.own i s p hs hsp
      have hst : s.strF = some (τ v) := by rw [he]; rfl
      exact ⟨h, by simp [Hp.step, Hp.str, hs, hsp, hst, hv], hi, fun k => rfl⟩
  | destroy i =>
    obtain ⟨s, hs⟩ := view_some hf
    obtain ⟨h', a, b, _, d⟩ := destroy_spec hi hs
    exact ⟨h', a, b, d⟩

/-- An operation that is not undefined is used as intended. -/
theorem fine_of_step {τ : V → Ty} {fromStr : Ty → List Char → Option V} {toStr : V → List Char} {h h' : Hp V Ty} {op : SvOp V} (hi : HI τ h)
    (hs : h.step τ fromStr toStr op = some h') : op.fine h.view := by
  have vw : ∀ {i : Nat} {s : Sv Ty}, h.vars i = some s → (h.view i).isSome := fun e => by simp [Hp.view, e]
  cases op with
  | new => trivial
  | newFrom v c => trivial
  | newCopy j =>
    simp only [Hp.step, Option.bind_eq_some_iff] at hs
    obtain ⟨s, h1, _⟩ := hs; exact vw h1
  | setData i v c =>
    simp only [Hp.step, Hp.setData, Option.bind_eq_bind, Option.bind_eq_some_iff] at hs
    obtain ⟨s, h1, _⟩ := hs; exact vw h1
  | assign i j =>
    simp only [Hp.step, Hp.assign, Option.bind_eq_bind, Option.bind_eq_some_iff] at hs
    obtain ⟨s, h1, o, h2, _⟩ := hs; exact ⟨vw h1, vw h2⟩
  | reset i =>
    simp only [Hp.step, Hp.reset, Option.bind_eq_bind, Option.bind_eq_some_iff] at hs
    obtain ⟨s, h1, _⟩ := hs; exact vw h1
  | swap i j =>
    simp only [Hp.step, Hp.swap, Option.bind_eq_bind, Option.bind_eq_some_iff] at hs
    obtain ⟨s, h1, o, h2, _⟩ := hs; exact ⟨vw h1, vw h2⟩
  | setStr i str =>
    simp only [Hp.step, Hp.setStr, Option.bind_eq_bind, Option.bind_eq_some_iff] at hs
    obtain ⟨s, h1, p, h2, T, h3, v, h4, _⟩ := hs
    exact ⟨_, by simp [Hp.view, h1]; rfl, by simp [h2, h4]⟩
  | str i =>
    simp only [Hp.step, Hp.str, Option.bind_eq_bind, Option.bind_eq_some_iff, Option.map_eq_some_iff] at hs
    obtain ⟨_, ⟨s, h1, p, h2, T, h3, v, h4, _⟩, _⟩ := hs
    exact ⟨_, by simp [Hp.view, h1]; rfl, by simp [h2, h4]⟩
  | destroy i =>
    simp only [Hp.step, Hp.destroy, Option.bind_eq_bind, Option.bind_eq_some_iff] at hs
    obtain ⟨s, h1, _⟩ := hs; exact vw h1

theorem reach_hi {τ : V → Ty} {fromStr : Ty → List Char → Option V} (ht : TypedText τ fromStr) {toStr : V → List Char} {h : Hp V Ty}
    (hr : Hp.Reach τ fromStr toStr h) : HI τ h := by
  induction hr with
  | init => exact .init τ
  | step h h' op _ hs ih =>
    obtain ⟨h'', a, b, _⟩ := step_spec ht toStr ih op (fine_of_step ih hs)
    rw [hs] at a; cases a; exact b

/-! ### C69 -/

/-- Any history of DataSaver variables: an operation is undefined exactly if it names a variable that does not exist or converts a variable without a value to or
from text. In particular no value is deleted twice, used after deletion, or deleted or copied as another type than its own. -/
theorem C69_undefined_exactly {τ : V → Ty} {fromStr : Ty → List Char → Option V} (ht : TypedText τ fromStr) {toStr : V → List Char} {h : Hp V Ty}
    (hr : Hp.Reach τ fromStr toStr h) (op : SvOp V) : h.step τ fromStr toStr op ≠ none ↔ op.fine h.view := by
  have hi := reach_hi ht hr
  constructor
  · intro hne
    cases e : h.step τ fromStr toStr op with
    | none => exact absurd e hne
    | some h' => exact fine_of_step hi e
  · intro hf e
    obtain ⟨h', a, _⟩ := step_spec ht toStr hi op hf
    rw [e] at a; cases a

/-- Allocated memory is at every moment owned by exactly one variable: nothing leaks, nothing is shared. -/
theorem C69_no_leak {τ : V → Ty} {fromStr : Ty → List Char → Option V} (ht : TypedText τ fromStr) {toStr : V → List Char} {h : Hp V Ty}
    (hr : Hp.Reach τ fromStr toStr h) (p : Nat) : (h.cells p).isSome ↔ ∃! i, ∃ s, h.vars i = some s ∧ s.ptr = some p := by
  have hi := reach_hi ht hr
  constructor
  · intro hp
    obtain ⟨v, hv⟩ := Option.isSome_iff_exists.1 hp
    obtain ⟨i, s, h1, h2⟩ := hi.live p v hv
    exact ⟨i, ⟨s, h1, h2⟩, fun j ⟨t, h3, h4⟩ => hi.inj j i t s p h3 h1 h4 h2⟩
  · rintro ⟨i, ⟨s, h1, h2⟩, _⟩
    obtain ⟨v, hv, _⟩ := hi.own i s p h1 h2
    simp [hv]

/-- When all variables are destroyed, all memory is freed. -/
theorem C69_all_freed {τ : V → Ty} {fromStr : Ty → List Char → Option V} (ht : TypedText τ fromStr) {toStr : V → List Char} {h : Hp V Ty}
    (hr : Hp.Reach τ fromStr toStr h) (hn : ∀ i, h.vars i = none) (p : Nat) : h.cells p = none := by
  cases e : h.cells p with
  | none => rfl
  | some v =>
    obtain ⟨i, s, h1, _⟩ := (reach_hi ht hr).live p v e
    rw [hn i] at h1; cases h1

/-- Variables behave as independent values: what they hold after an operation is what the operation on plain values says. -/
theorem C69_values {τ : V → Ty} {fromStr : Ty → List Char → Option V} (ht : TypedText τ fromStr) {toStr : V → List Char} {h h' : Hp V Ty}
    (hr : Hp.Reach τ fromStr toStr h) {op : SvOp V} (hs : h.step τ fromStr toStr op = some h') (k : Nat) : h'.view k = saverSpec τ fromStr h.nvars h.view op k := by
  have hi := reach_hi ht hr
  obtain ⟨h'', a, _, b⟩ := step_spec ht toStr hi op (fine_of_step hi hs)
  rw [hs] at a; cases a; exact b k

/-- What a user expects of variables that hold at most one value each: `m i` is `none` if variable `i` does not exist, `some none` if it is empty and `some (some v)` if
it holds `v`. `n` is the number of the next new variable. -/
def plainSpec (τ : V → Ty) (fromStr : Ty → List Char → Option V) (n : Nat) (m : Nat → Option (Option V)) : SvOp V → Nat → Option (Option V)
  | .new => Function.update m n (some none)
  | .newFrom v _ => Function.update m n (some (some v))
  | .newCopy j => Function.update m n (m j)
  | .setData i v _ => Function.update m i (some (some v))
  | .assign i j => Function.update m i (m j)
  | .reset i => Function.update m i (some none)
  | .swap i j => fun k => if k = i then m j else if k = j then m i else m k
  | .setStr i str => Function.update m i ((m i).map fun x => x.map fun v => (fromStr (τ v) str).getD v)
  | .str _ => m
  | .destroy i => Function.update m i none

/-- The value of a variable. -/
def Hp.value (h : Hp V Ty) (i : Nat) : Option (Option V) := (h.vars i).map fun s => s.ptr.bind h.cells

/-- After every operation every variable holds exactly the value a user expects; in particular a copy holds the value of the original and changing one of them later
does not change the other. -/
theorem C69_plain_values {τ : V → Ty} {fromStr : Ty → List Char → Option V} (ht : TypedText τ fromStr) {toStr : V → List Char} {h h' : Hp V Ty}
    (hr : Hp.Reach τ fromStr toStr h) {op : SvOp V} (hs : h.step τ fromStr toStr op = some h') (k : Nat) : h'.value k = plainSpec τ fromStr h.nvars h.value op k := by
  have hi := reach_hi ht hr
  have hv : ∀ (g : Hp V Ty) i, g.value i = (g.view i).map (·.ptr) := by intro g i; simp [Hp.value, Hp.view, Function.comp_def]
  have hf := fine_of_step hi hs
  have he : h.value = fun i => (h.view i).map (·.ptr) := funext (hv h)
  have hty : ∀ i s v, h.view i = some s → s.ptr = some v → s.funs = some (τ v) := by
    intro i s v h1 h2
    simp only [Hp.view, Option.map_eq_some_iff] at h1
    obtain ⟨x, hx, e⟩ := h1
    subst e
    simp only [Option.bind_eq_some_iff] at h2
    obtain ⟨p, hp, hc⟩ := h2
    obtain ⟨w, hw, es⟩ := hi.own i x p hx hp
    rw [hw] at hc; cases hc
    show x.strF = some (τ v)
    rw [es]; rfl
  rw [hv, C69_values ht hr hs k, he]
  generalize h.view = m at hf hty
  cases op with
  | new => by_cases e : k = h.nvars <;> simp [saverSpec, plainSpec, Function.update_apply, e, Saver.empty]
  | newFrom v c => by_cases e : k = h.nvars <;> simp [saverSpec, plainSpec, Function.update_apply, e, Saver.setData]
  | newCopy j =>
    by_cases e : k = h.nvars
    · obtain ⟨s, hs⟩ := Option.isSome_iff_exists.1 hf
      cases hp : s.ptr <;> simp [saverSpec, plainSpec, e, hs, Saver.copy, Saver.assign, Saver.empty, hp]
    · simp [saverSpec, plainSpec, Function.update_apply, e]
  | setData i v c =>
    obtain ⟨s, hs⟩ := Option.isSome_iff_exists.1 hf
    by_cases e : k = i <;> simp [saverSpec, plainSpec, Function.update_apply, e, Saver.setData, hs]
  | assign i j =>
    obtain ⟨s, hs⟩ := Option.isSome_iff_exists.1 hf.1
    obtain ⟨t, ht⟩ := Option.isSome_iff_exists.1 hf.2
    by_cases ij : i = j
    · subst ij
      by_cases e : k = i <;> simp [saverSpec, plainSpec, Function.update_apply, e]
    · by_cases e : k = i
      · cases hp : t.ptr <;> simp [saverSpec, plainSpec, ij, e, hs, ht, Saver.assign, hp]
      · simp [saverSpec, plainSpec, ij, Function.update_apply, e]
  | reset i =>
    obtain ⟨s, hs⟩ := Option.isSome_iff_exists.1 hf
    by_cases e : k = i <;> simp [saverSpec, plainSpec, Function.update_apply, e, Saver.resetData, hs]
  | swap i j =>
    obtain ⟨s, hs⟩ := Option.isSome_iff_exists.1 hf.1
    obtain ⟨t, ht⟩ := Option.isSome_iff_exists.1 hf.2
    by_cases ij : i = j
    · subst ij
      by_cases e : k = i <;> simp [saverSpec, plainSpec, e]
    · by_cases e : k = i
      · have : k ≠ j := fun x => ij (e.symm.trans x)
        cases hp : t.ptr <;> simp [saverSpec, plainSpec, ij, e, Function.update_apply, hs, ht, Saver.swap, Saver.copy, Saver.assign, Saver.empty, hp]
      · by_cases e2 : k = j
        · have ji : j ≠ i := fun x => ij x.symm
          cases hp : s.ptr <;> simp [saverSpec, plainSpec, ij, ji, e2, Function.update_apply, hs, ht, Saver.swap, Saver.assign, hp]
        · simp [saverSpec, plainSpec, ij, e, e2, Function.update_apply]
  | setStr i str =>
    obtain ⟨s, hs, hp⟩ := hf
    obtain ⟨v, hv⟩ := Option.isSome_iff_exists.1 hp
    have hfu := hty i s v hs hv
    by_cases e : k = i
    · cases hx : fromStr (τ v) str <;> simp [saverSpec, plainSpec, e, hs, hv, hfu, Saver.setDataFromString, hx]
    · simp [saverSpec, plainSpec, Function.update_apply, e]
  | str i => rfl
  | destroy i => by_cases e : k = i <;> simp [saverSpec, plainSpec, Function.update_apply, e]

/-! ### Concrete case: numbers below 10 have type `true`, the others `false` -/

def demoT : Nat → Bool := fun n => n < 10
def demoFrom : Bool → List Char → Option Nat := fun T s => if T = true ∧ s = ['7'] then some 7 else none
theorem demoTyped : TypedText demoT demoFrom := by
  intro T s v h
  simp only [demoFrom] at h
  by_cases e : T = true ∧ s = ['7']
  · rw [if_pos e] at h; cases h; rw [e.1]; rfl
  · rw [if_neg e] at h; cases h

/-- The run of a list of operations. -/
def demoRunSv (ops : List (SvOp Nat)) : Option (Hp Nat Bool) := ops.foldlM (fun h op => h.step demoT demoFrom (fun _ => []) op) .init

theorem foldlM_reach : ∀ (ops : List (SvOp Nat)) (h h' : Hp Nat Bool), Hp.Reach demoT demoFrom (fun _ => []) h →
    ops.foldlM (fun h op => h.step demoT demoFrom (fun _ => []) op) h = some h' → Hp.Reach demoT demoFrom (fun _ => []) h'
  | [], h, h', hr, e => by simp only [List.foldlM_nil, Option.pure_def, Option.some.injEq] at e; subst e; exact hr
  | op :: ops, h, h', hr, e => by
    simp only [List.foldlM_cons, Option.bind_eq_bind, Option.bind_eq_some_iff] at e
    obtain ⟨h1, h2, h3⟩ := e
    exact foldlM_reach ops h1 h' (.step _ _ op hr h2) h3

/-- Three variables with values of two types, copied, swapped, set from text and destroyed: a reachable state with live and freed memory. -/
example : ∃ h, Hp.Reach demoT demoFrom (fun _ => []) h ∧ h.view 0 = some ⟨some 12, some false, some false, none⟩ ∧ h.view 1 = none ∧
    h.view 2 = some ⟨some 7, some true, some true, some 5⟩ := by
  refine ⟨_, foldlM_reach [.newFrom 3 (some 5), .newFrom 12 none, .newCopy 0, .swap 0 1, .setStr 2 ['7'], .destroy 1] _ _ .init rfl, rfl, rfl, rfl⟩

/-! ### C70: custom delete functions -/

theorem delOld_calls {τ : V → Ty} {h h1 : Hp V Ty} {s : Sv Ty} (e : h.delOld τ s = some h1) : h1.calls = h.calls := by
  unfold Hp.delOld at e
  cases hp : s.ptr with
  | none => rw [hp] at e; cases e; rfl
  | some p =>
    rw [hp] at e
    dsimp only at e
    unfold Hp.del at e
    split at e
    · split at e
      · cases e; rfl
      · cases e
    · cases e

theorem assign_calls {τ : V → Ty} {h h1 : Hp V Ty} {i j : Nat} (e : h.assign τ i j = some h1) : h1.calls = h.calls := by
  simp only [Hp.assign, Option.bind_eq_bind, Option.bind_eq_some_iff] at e
  obtain ⟨s, h1', o, h2, h3⟩ := e
  by_cases hij : i = j
  · rw [if_pos hij] at h3; cases h3; rfl
  · rw [if_neg hij] at h3
    simp only [Option.bind_eq_some_iff] at h3
    obtain ⟨g, h4, h5⟩ := h3
    have := delOld_calls h4
    cases hp : o.ptr with
    | none => rw [hp] at h5; cases h5; exact this
    | some q =>
      rw [hp] at h5
      simp only [Option.bind_eq_some_iff, Prod.exists] at h5
      obtain ⟨g2, p, h6, h7⟩ := h5
      unfold Hp.copyOf at h6
      split at h6
      · split at h6
        · cases h6; cases h7; exact this
        · cases h6
      · cases h6

theorem destroy_calls {τ : V → Ty} {h h1 : Hp V Ty} {i : Nat} (e : h.destroy τ i = some h1) : h1.calls = h.calls := by
  simp only [Hp.destroy, Option.bind_eq_bind, Option.bind_eq_some_iff] at e
  obtain ⟨s, _, g, h4, h5⟩ := e
  cases h5; exact (delOld_calls h4 : g.calls = _)

/-- Custom delete functions are called by ResetData and by nothing else, not by the destructor, by an assignment or by SetData; ResetData calls the variable's function
once, with the address of its value. -/
theorem C70_called_by_reset_partial {τ : V → Ty} {fromStr : Ty → List Char → Option V} {toStr : V → List Char} {h h' : Hp V Ty} {op : SvOp V}
    (hs : h.step τ fromStr toStr op = some h') :
    h'.calls = match op with
      | .reset i => match (h.vars i).bind (·.custom) with
        | some f => h.calls ++ [(f, (h.vars i).bind (·.ptr))]
        | none => h.calls
      | _ => h.calls := by
  cases op with
  | new => cases hs; rfl
  | newFrom v c =>
    simp only [Hp.step, Hp.setData, Option.bind_eq_bind, Option.bind_eq_some_iff] at hs
    obtain ⟨s, _, g, h4, h5⟩ := hs
    cases h5; exact (delOld_calls h4 : g.calls = _)
  | newCopy j =>
    simp only [Hp.step, Option.bind_eq_some_iff] at hs
    obtain ⟨s, _, h5⟩ := hs
    exact (assign_calls h5 : _ = h.newVar.calls)
  | setData i v c =>
    simp only [Hp.step, Hp.setData, Option.bind_eq_bind, Option.bind_eq_some_iff] at hs
    obtain ⟨s, _, g, h4, h5⟩ := hs
    cases h5; exact (delOld_calls h4 : g.calls = _)
  | assign i j => exact assign_calls hs
  | reset i =>
    simp only [Hp.step, Hp.reset, Option.bind_eq_bind, Option.bind_eq_some_iff] at hs
    obtain ⟨s, h1, g, h4, h5⟩ := hs
    cases h5
    show g.calls = _
    rw [delOld_calls h4]
    simp only [h1, Option.bind_some]
    unfold Hp.callCustom
    cases s.custom <;> rfl
  | swap i j =>
    simp only [Hp.step, Hp.swap, Option.bind_eq_bind, Option.bind_eq_some_iff] at hs
    obtain ⟨_, _, _, _, g1, e1, g2, e2, g3, e3, e4⟩ := hs
    rw [destroy_calls e4, assign_calls e3, assign_calls e2, assign_calls e1]; rfl
  | setStr i str =>
    simp only [Hp.step, Hp.setStr, Option.bind_eq_bind, Option.bind_eq_some_iff] at hs
    obtain ⟨s, h1, p, h2, T, h3, v, h4, h5⟩ := hs
    by_cases e : τ v = T
    · rw [if_pos e] at h5
      split at h5 <;> cases h5 <;> rfl
    · rw [if_neg e] at h5; cases h5
  | str i =>
    simp only [Hp.step, Option.map_eq_some_iff] at hs
    obtain ⟨_, _, h5⟩ := hs
    subst h5; rfl
  | destroy i => exact destroy_calls hs

/-- A variable with a custom delete function is destroyed: the function is not called. -/
theorem C70_refuted_destructor : ∃ h, Hp.Reach demoT demoFrom (fun _ => []) h ∧ h.vars 0 = none ∧ h.nvars = 1 ∧ h.calls = [] :=
  ⟨_, foldlM_reach [.newFrom 3 (some 5), .destroy 0] _ _ .init rfl, rfl, rfl, rfl⟩

/-- A variable and its copy are reset: the function is called twice for one stored value. -/
theorem C70_refuted_copy : ∃ h, Hp.Reach demoT demoFrom (fun _ => []) h ∧ h.calls = [(5, some 0), (5, some 1)] :=
  ⟨_, foldlM_reach [.newFrom 3 (some 5), .newCopy 0, .reset 0, .reset 1] _ _ .init rfl, rfl⟩

/-- An empty variable is assigned to one with a custom delete function, which is then reset: the function gets a null pointer. -/
theorem C70_refuted_null : ∃ h, Hp.Reach demoT demoFrom (fun _ => []) h ∧ h.calls = [(5, none)] :=
  ⟨_, foldlM_reach [.newFrom 3 (some 5), .new, .assign 0 1, .reset 0] _ _ .init rfl, rfl⟩

end
end MVault.Cont
