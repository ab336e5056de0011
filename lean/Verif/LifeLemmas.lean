import Verif.LifeModel
import Verif.PropsMutex
/-
Invariant of the record lifetime model.
-/
set_option linter.unusedSectionVars false
set_option linter.unusedSimpArgs false
set_option linter.unusedVariables false
namespace MVault.Life
open MVault.Mtx
variable {T : Type} [DecidableEq T]

/-- The thread is inside the record's mutex. -/
def LPc.holds : LPc → Bool
  | .ar2 => true | .ar3 => true | .rr2 => true | .rr3 => true | .rr4 _ => true | .iv2 => true | .iv3 => true | .iv4 _ => true
  | .gv2 => true | .gv3 => true | .tj2 => true | .tj3 => true
  | _ => false

/-- The thread decides or has decided to delete the record, if the record is invalid and without references. -/
def LPc.last : LPc → Bool
  | .rr3 => true | .iv3 => true | .rr4 e => e | .rr5 e => e | .iv4 e => e | .iv5 e => e
  | _ => false

/-- What is known about a thread at each point. -/
def TOk (c : Conc T) (t : T) : LPc → Prop
  | .ar1 => c.reaches t | .ar2 => c.reaches t | .gv1 => c.reaches t | .gv2 => c.reaches t | .gv3 => c.reaches t | .us1 => c.reaches t
  | .ar3 => t ∈ c.life.owners | .rr1 => t ∈ c.life.owners | .rr2 => t ∈ c.life.owners
  | .tj1 => t ∈ c.life.owners | .tj2 => t ∈ c.life.owners | .tj3 => t ∈ c.life.owners
  | .rr4 true => c.life.valid = false ∧ c.life.owners = [] | .rr5 true => c.life.valid = false ∧ c.life.owners = []
  | .rr4 false => c.life.valid = true ∨ c.life.owners ≠ []
  | .iv1 => c.writes t ∧ c.life.valid = true ∧ c.life.made = true ∧ c.life.inVault = false
  | .iv2 => c.writes t ∧ c.life.valid = true ∧ c.life.made = true ∧ c.life.inVault = false
  | .iv3 => c.life.valid = false
  | .iv4 true => c.life.valid = false ∧ c.life.owners = [] | .iv5 true => c.life.valid = false ∧ c.life.owners = []
  | .iv4 false => c.life.owners ≠ []
  | _ => True

/-- The invariant. -/
structure LInv (c : Conc T) : Prop where
  sys : SReach false c.sys
  cnt : c.life.cnt = c.life.owners.length
  mtx : ∀ t, c.life.mtx = some t ↔ (c.life.pc t).holds = true
  thr : ∀ t, TOk c t (c.life.pc t)
  inV : c.life.inVault = true → c.life.valid = true ∧ c.life.made = true
  out : c.life.inVault = false → c.life.made = true → c.life.valid = true → ∃ t, c.life.pc t = .iv1 ∨ c.life.pc t = .iv2
  unmade : c.life.made = false → c.life.owners = [] ∧ c.life.valid = true
  one : c.life.valid = false → c.life.owners = [] → ∀ t u, (c.life.pc t).last = true → (c.life.pc u).last = true → t = u
  pend : c.life.valid = false → c.life.owners = [] → c.life.freed = false → ∃ t, (c.life.pc t).last = true
  gone : c.life.freed = true → c.life.valid = false ∧ c.life.owners = [] ∧ ∀ t, (c.life.pc t).last = false

theorem LInv.excl {c : Conc T} (h : LInv c) {t u : T} (hne : u ≠ t) (ht : c.writes t) (hu : c.sys.job u = .free) : c.sys.stack u = [] :=
  C42_recursive_exclusion_partial c.sys h.sys t u hne ht.1 hu ht.2

theorem LInv.alone {c : Conc T} (h : LInv c) {t u : T} (ht : (c.life.pc t).holds = true) (hu : (c.life.pc u).holds = true) : t = u := by
  have h1 := (h.mtx t).2 ht
  have h2 := (h.mtx u).2 hu
  rw [h1] at h2; simpa using h2

/-- A thread that may use the record finds it alive. -/
theorem LInv.reach_live {c : Conc T} (h : LInv c) {t : T} (ht : c.reaches t) : c.life.owners ≠ [] ∨ c.life.valid = true := by
  rcases ht with ht | ⟨_, hv⟩
  · exact .inl (List.ne_nil_of_mem ht)
  · exact .inr (h.inV hv).1

/-- A step of thread `t` that only moves it and may take or release the record's mutex. -/
theorem LInv.move {c : Conc T} (h : LInv c) (t : T) (q : LPc) (m : Option T)
    (hm : (q.holds = true ∧ m = some t ∧ (c.life.mtx = none ∨ (c.life.pc t).holds = true)) ∨
      (q.holds = false ∧ (c.life.pc t).holds = true ∧ m = none) ∨ (q.holds = false ∧ (c.life.pc t).holds = false ∧ m = c.life.mtx))
    (hq : TOk c t q) (hiv : (c.life.pc t = .iv1 ∨ c.life.pc t = .iv2) → (q = .iv1 ∨ q = .iv2))
    (hlast : q.last = (c.life.pc t).last ∨ (c.life.valid = true ∨ c.life.owners ≠ []) ∧ c.life.freed = false) :
    LInv ⟨c.sys, { c.life.goto t q with mtx := m }⟩ := by
  have hpc : ∀ u, u ≠ t → (c.life.goto t q).pc u = c.life.pc u := fun u hu => by simp [Life.goto, upd, hu]
  have hpt : (c.life.goto t q).pc t = q := by simp [Life.goto, upd]
  have htok : ∀ u p, TOk (⟨c.sys, { c.life.goto t q with mtx := m }⟩ : Conc T) u p = TOk c u p := by
    intro u p; cases p <;> rfl
  refine ⟨h.sys, h.cnt, ?_, ?_, h.inV, ?_, h.unmade, ?_, ?_, ?_⟩
  · intro u
    show m = some u ↔ _
    by_cases e : u = t
    · subst e
      show m = some u ↔ ((c.life.goto u q).pc u).holds = true
      rw [hpt]
      rcases hm with ⟨a, b, _⟩ | ⟨a, b, d⟩ | ⟨a, b, d⟩
      · simp [a, b]
      · simp [a, d]
      · rw [a, d]
        have := h.mtx u
        rw [b] at this; simpa using this
    · show m = some u ↔ ((c.life.goto t q).pc u).holds = true
      rw [hpc u e]
      have hu := h.mtx u
      rcases hm with ⟨a, b, d⟩ | ⟨a, b, d⟩ | ⟨a, b, d⟩
      · rw [b]
        constructor
        · intro x; exact absurd (Option.some.inj x).symm e
        · intro x
          rcases d with d | d
          · rw [d] at hu; exact absurd (hu.2 x) (by simp)
          · exact absurd (h.alone x d) e
      · rw [d]
        constructor
        · intro x; cases x
        · intro x; exact absurd (h.alone x b) e
      · rw [d]; exact hu
  · intro u
    show TOk (⟨c.sys, { c.life.goto t q with mtx := m }⟩ : Conc T) u ((c.life.goto t q).pc u)
    rw [htok]
    by_cases e : u = t
    · subst e; rw [hpt]; exact hq
    · rw [hpc u e]; exact h.thr u
  · intro a b d
    obtain ⟨u, hu⟩ := h.out a b d
    by_cases e : u = t
    · subst e; exact ⟨u, by show (c.life.goto u q).pc u = _ ∨ (c.life.goto u q).pc u = _; rw [hpt]; exact hiv hu⟩
    · exact ⟨u, by show (c.life.goto t q).pc u = _ ∨ (c.life.goto t q).pc u = _; rw [hpc u e]; exact hu⟩
  · intro a b u v hu hv
    replace hu : ((c.life.goto t q).pc u).last = true := hu
    replace hv : ((c.life.goto t q).pc v).last = true := hv
    rcases hlast with hl | ⟨hl, _⟩
    · have key : ∀ u, ((c.life.goto t q).pc u).last = (c.life.pc u).last := by
        intro u
        by_cases e : u = t
        · subst e; rw [hpt, hl]
        · rw [hpc u e]
      rw [key] at hu hv
      exact h.one a b u v hu hv
    · replace a : c.life.valid = false := a
      replace b : c.life.owners = [] := b
      rcases hl with hl | hl
      · rw [hl] at a; cases a
      · exact absurd b hl
  · intro a b d
    replace a : c.life.valid = false := a
    replace b : c.life.owners = [] := b
    rcases hlast with hl | ⟨hl, _⟩
    · obtain ⟨u, hu⟩ := h.pend a b d
      refine ⟨u, ?_⟩
      show ((c.life.goto t q).pc u).last = true
      by_cases e : u = t
      · subst e; rw [hpt, hl]; exact hu
      · rw [hpc u e]; exact hu
    · rcases hl with hl | hl
      · rw [hl] at a; cases a
      · exact absurd b hl
  · intro a
    replace a : c.life.freed = true := a
    obtain ⟨b, d, e⟩ := h.gone a
    refine ⟨b, d, fun u => ?_⟩
    show ((c.life.goto t q).pc u).last = false
    rcases hlast with hl | ⟨_, hl⟩
    · by_cases e' : u = t
      · subst e'; rw [hpt, hl]; exact e u
      · rw [hpc u e']; exact e u
    · rw [hl] at a; cases a

/-- The record is not freed when a thread may use it. -/
theorem LInv.not_freed {c : Conc T} (h : LInv c) (hl : c.life.owners ≠ [] ∨ c.life.valid = true) : c.life.freed = false := by
  cases hf : c.life.freed with
  | false => rfl
  | true =>
    obtain ⟨a, b, _⟩ := h.gone hf
    rcases hl with hl | hl
    · exact absurd b hl
    · rw [hl] at a; cases a

theorem Conc.ext' (c : Conc T) (t : T) (q : LPc) : (⟨c.sys, c.life.goto t q⟩ : Conc T) = ⟨c.sys, { c.life.goto t q with mtx := c.life.mtx }⟩ := rfl

theorem step_linv {c c' : Conc T} (h : LInv c) (hs : CStep c c') : LInv c' := by
  cases hs with
  | lock s' hst hk =>
    refine ⟨.step _ _ h.sys hst, h.cnt, h.mtx, ?_, h.inV, h.out, h.unmade, h.one, h.pend, h.gone⟩
    intro t
    have ht := h.thr t
    have hb := hk t
    show TOk (⟨s', c.life⟩ : Conc T) t (c.life.pc t)
    cases hp : c.life.pc t with
    | idle => trivial
    | rr3 => trivial
    | tj2 => rw [hp] at ht; exact ht
    | rr4 e => rw [hp] at ht; cases e <;> exact ht
    | rr5 e => rw [hp] at ht; cases e <;> exact ht
    | iv4 e => rw [hp] at ht; cases e <;> exact ht
    | iv5 e => rw [hp] at ht; cases e <;> exact ht
    | _ =>
      rw [hp] at ht hb
      obtain ⟨b1, b2⟩ := hb rfl
      simp only [TOk, Conc.reaches, Conc.locked, Conc.writes] at ht ⊢
      first
        | exact ht
        | (rw [b1, b2]; exact ht)
  | create t hp hw hm =>
    have hno : c.life.owners = [] ∧ c.life.valid = true := h.unmade hm
    refine ⟨h.sys, h.cnt, h.mtx, ?_, fun _ => ⟨hno.2, rfl⟩, fun a => by simp at a, fun a => by simp at a, h.one, h.pend, h.gone⟩
    intro u
    have hu := h.thr u
    show TOk (⟨c.sys, { c.life with made := true, inVault := true }⟩ : Conc T) u (c.life.pc u)
    cases hq : c.life.pc u with
    | idle => trivial
    | rr3 => trivial
    | rr4 e => rw [hq] at hu; cases e <;> exact hu
    | rr5 e => rw [hq] at hu; cases e <;> exact hu
    | iv4 e => rw [hq] at hu; cases e <;> exact hu
    | iv5 e => rw [hq] at hu; cases e <;> exact hu
    | _ =>
      rw [hq] at hu
      simp only [TOk, Conc.reaches, Conc.locked, Conc.writes] at hu ⊢
      first
        | exact hu
        | (rcases hu with hu | ⟨hu, _⟩; exact .inl hu; first | exact .inr ⟨hu, rfl⟩ | exact .inr ⟨hu, trivial⟩ | exact .inr hu)
        | (rw [hu.2.2.1] at hm; cases hm)
  | addRef t hp hr =>
    rw [Conc.ext']
    exact h.move t .ar1 _ (.inr (.inr ⟨rfl, by rw [hp]; rfl, rfl⟩)) hr (by rw [hp]; simp) (.inl (by rw [hp]; rfl))
  | ar1 t hp hm =>
    have ht := h.thr t; rw [hp] at ht
    exact h.move t .ar2 _ (.inl ⟨rfl, rfl, .inl hm⟩) ht (by rw [hp]; simp) (.inl (by rw [hp]; rfl))
  | ar2 t hp =>
    have ht : c.reaches t := by have := h.thr t; rw [hp] at this; exact this
    have hlive := h.reach_live ht
    have hnf := h.not_freed hlive
    have hmade : c.life.made = true := by
      cases hm : c.life.made with
      | true => rfl
      | false =>
        obtain ⟨a, b⟩ := h.unmade hm
        rcases ht with ht | ⟨_, ht⟩
        · rw [a] at ht; cases ht
        · rw [(h.inV ht).2] at hm; cases hm
    have hvalid : c.life.owners = [] → c.life.valid = true := by
      intro a; rcases hlive with b | b
      · exact absurd a b
      · exact b
    refine ⟨h.sys, by simp [Life.goto, h.cnt], ?_, ?_, h.inV, ?_, ?_, ?_, ?_, ?_⟩
    · intro u
      show c.life.mtx = some u ↔ (upd c.life.pc t .ar3 u).holds = true
      by_cases e : u = t
      · subst e; rw [h.mtx u, hp]; simp [upd, LPc.holds]
      · rw [h.mtx u]; simp [upd, e]
    · intro u
      show TOk (⟨c.sys, { c.life.goto t .ar3 with cnt := c.life.cnt + 1, owners := t :: c.life.owners }⟩ : Conc T) u (upd c.life.pc t .ar3 u)
      by_cases e : u = t
      · subst e; simp [upd, TOk]
      · rw [show upd c.life.pc t .ar3 u = c.life.pc u by simp [upd, e]]
        have hu := h.thr u
        cases hq : c.life.pc u with
        | idle => trivial
        | rr3 => trivial
        | rr4 b =>
          rw [hq] at hu
          cases b with
          | false => exact .inr (by simp)
          | true => obtain ⟨x, y⟩ := hu; rw [hvalid y] at x; cases x
        | rr5 b =>
          rw [hq] at hu
          cases b with
          | false => trivial
          | true => obtain ⟨x, y⟩ := hu; rw [hvalid y] at x; cases x
        | iv4 b =>
          rw [hq] at hu
          cases b with
          | false => simp [TOk]
          | true => obtain ⟨x, y⟩ := hu; rw [hvalid y] at x; cases x
        | iv5 b =>
          rw [hq] at hu
          cases b with
          | false => trivial
          | true => obtain ⟨x, y⟩ := hu; rw [hvalid y] at x; cases x
        | _ =>
          rw [hq] at hu
          simp only [TOk, Conc.reaches, Conc.locked, Conc.writes] at hu ⊢
          first
            | exact hu
            | exact List.mem_cons_of_mem _ hu
            | (rcases hu with hu | hu; exact .inl (List.mem_cons_of_mem _ hu); exact .inr hu)
            | trivial
    · intro a b d
      obtain ⟨u, hu⟩ := h.out a b d
      by_cases e : u = t
      · subst e; rw [hp] at hu; simp at hu
      · exact ⟨u, by show upd c.life.pc t .ar3 u = _ ∨ upd c.life.pc t .ar3 u = _; simpa [upd, e] using hu⟩
    · intro a; replace a : c.life.made = false := a; rw [hmade] at a; cases a
    · intro _ a; cases a
    · intro _ a; cases a
    · intro a; replace a : c.life.freed = true := a; rw [hnf] at a; cases a
  | ar3 t hp =>
    have ht := h.thr t; rw [hp] at ht
    exact h.move t .idle _ (.inr (.inl ⟨rfl, by rw [hp]; rfl, rfl⟩)) trivial (by rw [hp]; simp) (.inl (by rw [hp]; rfl))
  | removeRef t hp ht =>
    rw [Conc.ext']
    exact h.move t .rr1 _ (.inr (.inr ⟨rfl, by rw [hp]; rfl, rfl⟩)) ht (by rw [hp]; simp) (.inl (by rw [hp]; rfl))
  | rr1 t hp hm =>
    have ht := h.thr t; rw [hp] at ht
    exact h.move t .rr2 _ (.inl ⟨rfl, rfl, .inl hm⟩) ht (by rw [hp]; simp) (.inl (by rw [hp]; rfl))
  | rr2 t hp =>
    have ht : t ∈ c.life.owners := by have := h.thr t; rw [hp] at this; exact this
    have hne := List.ne_nil_of_mem ht
    have hnf := h.not_freed (.inl hne)
    have hholds : (c.life.pc t).holds = true := by rw [hp]; rfl
    have hmade : c.life.made = true := by
      cases hm : c.life.made with
      | true => rfl
      | false => exact absurd (h.unmade hm).1 hne
    refine ⟨h.sys, by simp [Life.goto, h.cnt, List.length_erase_of_mem ht], ?_, ?_, h.inV, ?_, ?_, ?_, ?_, ?_⟩
    · intro u
      show c.life.mtx = some u ↔ (upd c.life.pc t .rr3 u).holds = true
      by_cases e : u = t
      · subst e; rw [h.mtx u, hp]; simp [upd, LPc.holds]
      · rw [h.mtx u]; simp [upd, e]
    · intro u
      show TOk (⟨c.sys, { c.life.goto t .rr3 with cnt := c.life.cnt - 1, owners := c.life.owners.erase t }⟩ : Conc T) u (upd c.life.pc t .rr3 u)
      by_cases e : u = t
      · subst e; simp [upd, TOk]
      · rw [show upd c.life.pc t .rr3 u = c.life.pc u by simp [upd, e]]
        have hu := h.thr u
        cases hq : c.life.pc u with
        | idle => trivial
        | rr3 => trivial
        | rr4 b => exact absurd (h.alone (u := t) (t := u) (by rw [hq]; rfl) hholds) e
        | rr5 b =>
          rw [hq] at hu
          cases b with
          | false => trivial
          | true => exact absurd hu.2 hne
        | iv4 b => exact absurd (h.alone (u := t) (t := u) (by rw [hq]; rfl) hholds) e
        | iv5 b =>
          rw [hq] at hu
          cases b with
          | false => trivial
          | true => exact absurd hu.2 hne
        | _ =>
          rw [hq] at hu
          simp only [TOk, Conc.reaches, Conc.locked, Conc.writes] at hu ⊢
          first
            | exact hu
            | exact (List.mem_erase_of_ne e).2 hu
            | (rcases hu with hu | hu; exact .inl ((List.mem_erase_of_ne e).2 hu); exact .inr hu)
            | trivial
    · intro a b d
      obtain ⟨u, hu⟩ := h.out a b d
      by_cases e : u = t
      · subst e; rw [hp] at hu; simp at hu
      · exact ⟨u, by show upd c.life.pc t .rr3 u = _ ∨ upd c.life.pc t .rr3 u = _; simpa [upd, e] using hu⟩
    · intro a; replace a : c.life.made = false := a; rw [hmade] at a; cases a
    · intro a b u v hu hv
      have only : ∀ u, (upd c.life.pc t .rr3 u).last = true → u = t := by
        intro u hu
        by_cases e : u = t
        · exact e
        · rw [show upd c.life.pc t .rr3 u = c.life.pc u by simp [upd, e]] at hu
          have hk := h.thr u
          cases hq : c.life.pc u with
          | rr3 => exact absurd (h.alone (u := t) (t := u) (by rw [hq]; rfl) hholds) e
          | iv3 => exact absurd (h.alone (u := t) (t := u) (by rw [hq]; rfl) hholds) e
          | rr4 b => exact absurd (h.alone (u := t) (t := u) (by rw [hq]; rfl) hholds) e
          | iv4 b => exact absurd (h.alone (u := t) (t := u) (by rw [hq]; rfl) hholds) e
          | rr5 b => rw [hq] at hu hk; cases b; cases hu; exact absurd hk.2 hne
          | iv5 b => rw [hq] at hu hk; cases b; cases hu; exact absurd hk.2 hne
          | _ => rw [hq] at hu; cases hu
      rw [only u hu, only v hv]
    · intro _ _ _; exact ⟨t, by show (upd c.life.pc t .rr3 t).last = true; simp [upd, LPc.last]⟩
    · intro a; replace a : c.life.freed = true := a; rw [hnf] at a; cases a
  | rr3 t hp =>
    rw [Conc.ext']
    have hmt := (h.mtx t).2 (by rw [hp]; rfl)
    have hdec : (!c.life.valid && c.life.cnt == 0) = true ↔ c.life.valid = false ∧ c.life.owners = [] := by
      rw [h.cnt]; cases c.life.valid <;> simp
    cases hb : (!c.life.valid && c.life.cnt == 0) with
    | true =>
      exact h.move t (.rr4 true) _ (.inl ⟨rfl, hmt, .inr (by rw [hp]; rfl)⟩) (hdec.1 hb) (by rw [hp]; simp) (.inl (by rw [hp]; rfl))
    | false =>
      have hn : c.life.valid = true ∨ c.life.owners ≠ [] := by
        cases hv : c.life.valid with
        | true => exact .inl rfl
        | false =>
          refine .inr fun ho => ?_
          rw [hdec.2 ⟨hv, ho⟩] at hb; cases hb
      exact h.move t (.rr4 false) _ (.inl ⟨rfl, hmt, .inr (by rw [hp]; rfl)⟩) hn (by rw [hp]; simp)
        (.inr ⟨hn, h.not_freed (hn.symm)⟩)
  | rr4 t e hp =>
    have ht := h.thr t; rw [hp] at ht
    refine h.move t (.rr5 e) _ (.inr (.inl ⟨rfl, by rw [hp]; rfl, rfl⟩)) ?_ (by rw [hp]; simp) (.inl (by rw [hp]; rfl))
    cases e with
    | true => exact ht
    | false => trivial
  | rr5 t e hp =>
    have ht := h.thr t; rw [hp] at ht
    cases e with
    | false =>
      have : (⟨c.sys, { c.life.goto t .idle with freed := if false = true then true else c.life.freed }⟩ : Conc T) =
        ⟨c.sys, { c.life.goto t .idle with mtx := c.life.mtx }⟩ := rfl
      rw [this]
      exact h.move t .idle _ (.inr (.inr ⟨rfl, by rw [hp]; rfl, rfl⟩)) trivial (by rw [hp]; simp) (.inl (by rw [hp]; rfl))
    | true =>
      have hl : (c.life.pc t).last = true := by rw [hp]; rfl
      refine ⟨h.sys, h.cnt, ?_, ?_, h.inV, ?_, h.unmade, ?_, ?_, ?_⟩
      · intro u
        show c.life.mtx = some u ↔ (upd c.life.pc t .idle u).holds = true
        by_cases e : u = t
        · subst e; rw [h.mtx u, hp]; simp [upd, LPc.holds]
        · rw [h.mtx u]; simp [upd, e]
      · intro u
        show TOk (⟨c.sys, { c.life.goto t .idle with freed := true }⟩ : Conc T) u (upd c.life.pc t .idle u)
        by_cases e : u = t
        · subst e; simp [upd, TOk]
        · rw [show upd c.life.pc t .idle u = c.life.pc u by simp [upd, e]]
          have hk := h.thr u
          cases hq : c.life.pc u with
          | rr4 b => rw [hq] at hk; cases b <;> exact hk
          | rr5 b => rw [hq] at hk; cases b <;> exact hk
          | iv4 b => rw [hq] at hk; cases b <;> exact hk
          | iv5 b => rw [hq] at hk; cases b <;> exact hk
          | _ => rw [hq] at hk; exact hk
      · intro _ _ d; replace d : c.life.valid = true := d; rw [ht.1] at d; cases d
      · intro a b u v hu hv
        have none : ∀ u, (upd c.life.pc t .idle u).last = true → False := by
          intro u hu
          by_cases e : u = t
          · subst e; simp [upd, LPc.last] at hu
          · rw [show upd c.life.pc t .idle u = c.life.pc u by simp [upd, e]] at hu
            exact e (h.one ht.1 ht.2 u t hu hl)
        exact (none u hu).elim
      · intro _ _ a; cases a
      · intro _
        refine ⟨ht.1, ht.2, fun u => ?_⟩
        show (upd c.life.pc t .idle u).last = false
        by_cases e : u = t
        · subst e; simp [upd, LPc.last]
        · rw [show upd c.life.pc t .idle u = c.life.pc u by simp [upd, e]]
          cases hq : (c.life.pc u).last with
          | false => rfl
          | true => exact absurd (h.one ht.1 ht.2 u t hq hl) e
  | handOver t u hp hp' ht =>
    have hne := List.ne_nil_of_mem ht
    have hnf := h.not_freed (.inl hne)
    have hmade : c.life.made = true := by
      cases hm : c.life.made with
      | true => rfl
      | false => exact absurd (h.unmade hm).1 hne
    refine ⟨h.sys, ?_, h.mtx, ?_, h.inV, h.out, ?_, ?_, ?_, ?_⟩
    · have := List.length_pos_of_mem ht
      simp only [List.length_cons, List.length_erase_of_mem ht, h.cnt]; omega
    · intro v
      show TOk (⟨c.sys, { c.life with owners := u :: c.life.owners.erase t }⟩ : Conc T) v (c.life.pc v)
      have hv := h.thr v
      by_cases e : v = t
      · subst e; rw [hp]; trivial
      · have keep : v ∈ c.life.owners → v ∈ u :: c.life.owners.erase t := fun hm => List.mem_cons_of_mem _ ((List.mem_erase_of_ne e).2 hm)
        cases hq : c.life.pc v with
        | idle => trivial
        | rr3 => trivial
        | rr4 b =>
          rw [hq] at hv
          cases b with
          | false => exact .inr (by simp)
          | true => exact absurd hv.2 hne
        | rr5 b =>
          rw [hq] at hv
          cases b with
          | false => trivial
          | true => exact absurd hv.2 hne
        | iv4 b =>
          rw [hq] at hv
          cases b with
          | false => simp [TOk]
          | true => exact absurd hv.2 hne
        | iv5 b =>
          rw [hq] at hv
          cases b with
          | false => trivial
          | true => exact absurd hv.2 hne
        | _ =>
          rw [hq] at hv
          simp only [TOk, Conc.reaches, Conc.locked, Conc.writes] at hv ⊢
          first
            | exact hv
            | exact keep hv
            | (rcases hv with hv | hv; exact .inl (keep hv); exact .inr hv)
            | trivial
    · intro a; replace a : c.life.made = false := a; rw [hmade] at a; cases a
    · intro _ a; cases a
    · intro _ a; cases a
    · intro a; replace a : c.life.freed = true := a; rw [hnf] at a; cases a
  | erase t hp hw hin =>
    obtain ⟨hv, hm⟩ := h.inV hin
    refine ⟨h.sys, h.cnt, ?_, ?_, fun a => by simp at a, ?_, h.unmade, ?_, ?_, ?_⟩
    · intro u
      show c.life.mtx = some u ↔ (upd c.life.pc t .iv1 u).holds = true
      by_cases e : u = t
      · subst e; rw [h.mtx u, hp]; simp [upd, LPc.holds]
      · rw [h.mtx u]; simp [upd, e]
    · intro u
      show TOk (⟨c.sys, { c.life.goto t .iv1 with inVault := false }⟩ : Conc T) u (upd c.life.pc t .iv1 u)
      by_cases e : u = t
      · subst e; simp only [upd, if_true]; exact ⟨hw, hv, hm, rfl⟩
      · rw [show upd c.life.pc t .iv1 u = c.life.pc u by simp [upd, e]]
        have hu := h.thr u
        have nolock : ¬ c.locked u := fun hl => hl.2 (h.excl e hw hl.1)
        have nowrite : ¬ c.writes u := fun hl => by
          have := h.excl e hw hl.1
          have hl2 := hl.2
          rw [this] at hl2; cases hl2
        cases hq : c.life.pc u with
        | idle => trivial
        | rr3 => trivial
        | rr4 b => rw [hq] at hu; cases b <;> exact hu
        | rr5 b => rw [hq] at hu; cases b <;> exact hu
        | iv4 b => rw [hq] at hu; cases b <;> exact hu
        | iv5 b => rw [hq] at hu; cases b <;> exact hu
        | iv1 => rw [hq] at hu; exact absurd hu.1 nowrite
        | iv2 => rw [hq] at hu; exact absurd hu.1 nowrite
        | _ =>
          rw [hq] at hu
          simp only [TOk, Conc.reaches] at hu ⊢
          first
            | exact hu
            | (rcases hu with hu | ⟨hu, _⟩; exact .inl hu; exact absurd hu nolock)
            | trivial
    · intro _ _ _; exact ⟨t, by left; show upd c.life.pc t .iv1 t = _; simp [upd]⟩
    · intro a; replace a : c.life.valid = false := a; rw [hv] at a; cases a
    · intro a; replace a : c.life.valid = false := a; rw [hv] at a; cases a
    · intro a; replace a : c.life.freed = true := a; rw [h.not_freed (.inr hv)] at a; cases a
  | iv1 t hp hm =>
    have ht := h.thr t; rw [hp] at ht
    exact h.move t .iv2 _ (.inl ⟨rfl, rfl, .inl hm⟩) ht (by simp) (.inl (by rw [hp]; rfl))
  | iv2 t hp =>
    have ht : c.writes t ∧ c.life.valid = true ∧ c.life.made = true ∧ c.life.inVault = false := by have := h.thr t; rw [hp] at this; exact this
    obtain ⟨hw, hv, hm, hin⟩ := ht
    have hnf := h.not_freed (.inr hv)
    have hholds : (c.life.pc t).holds = true := by rw [hp]; rfl
    have only : ∀ u, (upd c.life.pc t .iv3 u).last = true → u = t := by
      intro u hu
      by_cases e : u = t
      · exact e
      · rw [show upd c.life.pc t .iv3 u = c.life.pc u by simp [upd, e]] at hu
        have hk := h.thr u
        cases hq : c.life.pc u with
        | rr3 => exact absurd (h.alone (u := t) (t := u) (by rw [hq]; rfl) hholds) e
        | iv3 => exact absurd (h.alone (u := t) (t := u) (by rw [hq]; rfl) hholds) e
        | rr4 b => exact absurd (h.alone (u := t) (t := u) (by rw [hq]; rfl) hholds) e
        | iv4 b => exact absurd (h.alone (u := t) (t := u) (by rw [hq]; rfl) hholds) e
        | rr5 b => rw [hq] at hu hk; cases b; cases hu; rw [hk.1] at hv; cases hv
        | iv5 b => rw [hq] at hu hk; cases b; cases hu; rw [hk.1] at hv; cases hv
        | _ => rw [hq] at hu; cases hu
    refine ⟨h.sys, h.cnt, ?_, ?_, ?_, ?_, ?_, ?_, ?_, ?_⟩
    · intro u
      show c.life.mtx = some u ↔ (upd c.life.pc t .iv3 u).holds = true
      by_cases e : u = t
      · subst e; rw [h.mtx u, hp]; simp [upd, LPc.holds]
      · rw [h.mtx u]; simp [upd, e]
    · intro u
      show TOk (⟨c.sys, { c.life.goto t .iv3 with valid := false }⟩ : Conc T) u (upd c.life.pc t .iv3 u)
      by_cases e : u = t
      · subst e; simp [upd, TOk]
      · rw [show upd c.life.pc t .iv3 u = c.life.pc u by simp [upd, e]]
        have hu := h.thr u
        have nowrite : ¬ c.writes u := fun hl => by
          have := h.excl e hw hl.1
          have hl2 := hl.2
          rw [this] at hl2; cases hl2
        cases hq : c.life.pc u with
        | idle => trivial
        | rr3 => trivial
        | rr4 b => exact absurd (h.alone (u := t) (t := u) (by rw [hq]; rfl) hholds) e
        | iv4 b => exact absurd (h.alone (u := t) (t := u) (by rw [hq]; rfl) hholds) e
        | rr5 b => rw [hq] at hu; cases b; trivial; exact ⟨rfl, hu.2⟩
        | iv5 b => rw [hq] at hu; cases b; trivial; exact ⟨rfl, hu.2⟩
        | iv1 => rw [hq] at hu; exact absurd hu.1 nowrite
        | iv2 => rw [hq] at hu; exact absurd hu.1 nowrite
        | iv3 => rfl
        | _ => rw [hq] at hu; exact hu
    · intro a; replace a : c.life.inVault = true := a; rw [hin] at a; cases a
    · intro _ _ a; cases a
    · intro a; replace a : c.life.made = false := a; rw [hm] at a; cases a
    · intro _ _ u v hu hv'; rw [only u hu, only v hv']
    · intro _ _ _; exact ⟨t, by show (upd c.life.pc t .iv3 t).last = true; simp [upd, LPc.last]⟩
    · intro a; replace a : c.life.freed = true := a; rw [hnf] at a; cases a
  | iv3 t hp =>
    have ht : c.life.valid = false := by have := h.thr t; rw [hp] at this; exact this
    rw [Conc.ext']
    have hmt := (h.mtx t).2 (by rw [hp]; rfl)
    cases hb : (c.life.cnt == 0) with
    | true =>
      have : c.life.owners = [] := by rw [h.cnt] at hb; simpa using hb
      exact h.move t (.iv4 true) _ (.inl ⟨rfl, hmt, .inr (by rw [hp]; rfl)⟩) ⟨ht, this⟩ (by rw [hp]; simp) (.inl (by rw [hp]; rfl))
    | false =>
      have hn : c.life.owners ≠ [] := by rw [h.cnt] at hb; simpa using hb
      exact h.move t (.iv4 false) _ (.inl ⟨rfl, hmt, .inr (by rw [hp]; rfl)⟩) hn (by rw [hp]; simp)
        (.inr ⟨.inr hn, h.not_freed (.inl hn)⟩)
  | iv4 t e hp =>
    have ht := h.thr t; rw [hp] at ht
    refine h.move t (.iv5 e) _ (.inr (.inl ⟨rfl, by rw [hp]; rfl, rfl⟩)) ?_ (by rw [hp]; simp) (.inl (by rw [hp]; rfl))
    cases e with
    | true => exact ht
    | false => trivial
  | iv5 t e hp =>
    have ht := h.thr t; rw [hp] at ht
    cases e with
    | false =>
      have : (⟨c.sys, { c.life.goto t .idle with freed := if false = true then true else c.life.freed }⟩ : Conc T) =
        ⟨c.sys, { c.life.goto t .idle with mtx := c.life.mtx }⟩ := rfl
      rw [this]
      exact h.move t .idle _ (.inr (.inr ⟨rfl, by rw [hp]; rfl, rfl⟩)) trivial (by rw [hp]; simp) (.inl (by rw [hp]; rfl))
    | true =>
      have hl : (c.life.pc t).last = true := by rw [hp]; rfl
      refine ⟨h.sys, h.cnt, ?_, ?_, h.inV, ?_, h.unmade, ?_, ?_, ?_⟩
      · intro u
        show c.life.mtx = some u ↔ (upd c.life.pc t .idle u).holds = true
        by_cases e : u = t
        · subst e; rw [h.mtx u, hp]; simp [upd, LPc.holds]
        · rw [h.mtx u]; simp [upd, e]
      · intro u
        show TOk (⟨c.sys, { c.life.goto t .idle with freed := true }⟩ : Conc T) u (upd c.life.pc t .idle u)
        by_cases e : u = t
        · subst e; simp [upd, TOk]
        · rw [show upd c.life.pc t .idle u = c.life.pc u by simp [upd, e]]
          have hk := h.thr u
          cases hq : c.life.pc u with
          | rr4 b => rw [hq] at hk; cases b <;> exact hk
          | rr5 b => rw [hq] at hk; cases b <;> exact hk
          | iv4 b => rw [hq] at hk; cases b <;> exact hk
          | iv5 b => rw [hq] at hk; cases b <;> exact hk
          | _ => rw [hq] at hk; exact hk
      · intro _ _ d; replace d : c.life.valid = true := d; rw [ht.1] at d; cases d
      · intro a b u v hu hv
        have none : ∀ u, (upd c.life.pc t .idle u).last = true → False := by
          intro u hu
          by_cases e : u = t
          · subst e; simp [upd, LPc.last] at hu
          · rw [show upd c.life.pc t .idle u = c.life.pc u by simp [upd, e]] at hu
            exact e (h.one ht.1 ht.2 u t hu hl)
        exact (none u hu).elim
      · intro _ _ a; cases a
      · intro _
        refine ⟨ht.1, ht.2, fun u => ?_⟩
        show (upd c.life.pc t .idle u).last = false
        by_cases e : u = t
        · subst e; simp [upd, LPc.last]
        · rw [show upd c.life.pc t .idle u = c.life.pc u by simp [upd, e]]
          cases hq : (c.life.pc u).last with
          | false => rfl
          | true => exact absurd (h.one ht.1 ht.2 u t hq hl) e
  | getIsValid t hp hr =>
    rw [Conc.ext']
    exact h.move t .gv1 _ (.inr (.inr ⟨rfl, by rw [hp]; rfl, rfl⟩)) hr (by rw [hp]; simp) (.inl (by rw [hp]; rfl))
  | gv1 t hp hm =>
    have ht := h.thr t; rw [hp] at ht
    exact h.move t .gv2 _ (.inl ⟨rfl, rfl, .inl hm⟩) ht (by rw [hp]; simp) (.inl (by rw [hp]; rfl))
  | gv2 t hp =>
    have ht := h.thr t; rw [hp] at ht
    rw [Conc.ext']
    exact h.move t .gv3 _ (.inl ⟨rfl, (h.mtx t).2 (by rw [hp]; rfl), .inr (by rw [hp]; rfl)⟩) ht (by rw [hp]; simp) (.inl (by rw [hp]; rfl))
  | gv3 t hp =>
    exact h.move t .idle _ (.inr (.inl ⟨rfl, by rw [hp]; rfl, rfl⟩)) trivial (by rw [hp]; simp) (.inl (by rw [hp]; rfl))
  | use t hp hr =>
    rw [Conc.ext']
    exact h.move t .us1 _ (.inr (.inr ⟨rfl, by rw [hp]; rfl, rfl⟩)) hr (by rw [hp]; simp) (.inl (by rw [hp]; rfl))
  | us1 t hp =>
    rw [Conc.ext']
    exact h.move t .idle _ (.inr (.inr ⟨rfl, by rw [hp]; rfl, rfl⟩)) trivial (by rw [hp]; simp) (.inl (by rw [hp]; rfl))
  | toJson t hp ht =>
    rw [Conc.ext']
    exact h.move t .tj1 _ (.inr (.inr ⟨rfl, by rw [hp]; rfl, rfl⟩)) ht (by rw [hp]; simp) (.inl (by rw [hp]; rfl))
  | tj1 t hp hm =>
    have ht := h.thr t; rw [hp] at ht
    exact h.move t .tj2 _ (.inl ⟨rfl, rfl, .inl hm⟩) ht (by rw [hp]; simp) (.inl (by rw [hp]; rfl))
  | tj2 t hp hj =>
    have ht := h.thr t; rw [hp] at ht
    rw [Conc.ext']
    exact h.move t .tj3 _ (.inl ⟨rfl, (h.mtx t).2 (by rw [hp]; rfl), .inr (by rw [hp]; rfl)⟩) ht (by rw [hp]; simp) (.inl (by rw [hp]; rfl))
  | tj3 t hp =>
    exact h.move t .idle _ (.inr (.inl ⟨rfl, by rw [hp]; rfl, rfl⟩)) trivial (by rw [hp]; simp) (.inl (by rw [hp]; rfl))

theorem reach_linv {c : Conc T} (h : CReach c) : LInv c := by
  induction h with
  | init =>
    refine ⟨.init, rfl, ?_, ?_, ?_, ?_, ?_, ?_, ?_, ?_⟩ <;> simp [Conc.init, LPc.holds, LPc.last, TOk]
  | step c c' _ hs ih => exact step_linv ih hs

end MVault.Life
