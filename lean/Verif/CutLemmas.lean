import Verif.WideModel
import Verif.PropsFile2
/-
Reading the beginning of a text is defined when reading the text is defined.
-/
set_option linter.unusedSimpArgs false
set_option linter.unusedVariables false
namespace MVault.W
open MVault

theorem digitLoop_prefix {t : Str.IntTy} (r : List Char) : ∀ (p : List Char) (a : Int), Str.digitLoop t (p ++ r) a ≠ .ub → Str.digitLoop t p a ≠ .ub
  | [], a, _ => by simp [Str.digitLoop]
  | c :: p, a, h => by
    simp only [List.cons_append, Str.digitLoop] at h ⊢
    split
    · simp
    · rename_i hd
      rw [if_neg hd] at h
      cases h1 : t.fit (a * 10) with
      | none => rw [h1] at h; exact absurd rfl h
      | some r1 =>
        rw [h1] at h
        dsimp only at h ⊢
        cases h2 : t.fit (r1 + ((c.toNat : Int) - 48)) with
        | none => rw [h2] at h; exact absurd rfl h
        | some r2 => rw [h2] at h; exact digitLoop_prefix r p r2 h

theorem intPartLoop_prefix (r : List Char) : ∀ (p : List Char) (a : Int), Str.intPartLoop (p ++ r) a ≠ .ub →
    Str.intPartLoop p a ≠ .ub ∧ ∀ i rest, Str.intPartLoop p a = .ok (i, rest) → rest = [] ∨ Str.intPartLoop (p ++ r) a = .ok (i, rest ++ r)
  | [], a, _ => by
    refine ⟨by simp [Str.intPartLoop], fun i rest e => ?_⟩
    simp only [Str.intPartLoop, Str.Out.ok.injEq, Prod.mk.injEq] at e
    exact .inl e.2.symm
  | c :: p, a, h => by
    simp only [List.cons_append, Str.intPartLoop] at h ⊢
    by_cases hc : c = '.'
    · simp only [hc, if_true] at h ⊢
      refine ⟨by simp, fun i rest e => ?_⟩
      simp only [Str.Out.ok.injEq, Prod.mk.injEq] at e ⊢
      obtain ⟨rfl, rfl⟩ := e
      exact .inr ⟨rfl, rfl⟩
    · simp only [if_neg hc] at h ⊢
      by_cases hd : Str.notDigit c = true
      · simp [hd]
      · simp only [if_neg hd] at h ⊢
        cases h1 : Str.IntTy.i32.fit (a * 10) with
        | none => rw [h1] at h; exact absurd rfl h
        | some r1 =>
          rw [h1] at h
          dsimp only at h ⊢
          cases h2 : Str.IntTy.i32.fit (r1 + ((c.toNat : Int) - 48)) with
          | none => rw [h2] at h; exact absurd rfl h
          | some r2 => rw [h2] at h; exact intPartLoop_prefix r p r2 h

theorem fit_range {t : Str.IntTy} {x y : Int} (h : t.fit x = some y) : t.lo ≤ y ∧ y ≤ t.hi := by
  by_cases ht : t.wraps = true
  · exact wrap_fits ht h
  · unfold Str.IntTy.fit at h
    split at h
    · cases h; assumption
    · simp [ht] at h

theorem digitLoop_nonneg {t : Str.IntTy} (ht : t.wraps = false) : ∀ (l : List Char) (r x : Int), 0 ≤ r ∧ r ≤ t.hi → Str.digitLoop t l r = .ok x → 0 ≤ x ∧ x ≤ t.hi
  | [], r, x, hr, h => by simp only [Str.digitLoop, Str.Out.ok.injEq] at h; subst h; exact hr
  | c :: l, r, x, hr, h => by
    simp only [Str.digitLoop] at h
    split at h
    · cases h
    · rename_i hd
      split at h
      · cases h
      · split at h
        · cases h
        · rename_i r1 h1 _ r2 h2
          have e1 : r1 = r * 10 := by
            unfold Str.IntTy.fit at h1
            split at h1
            · cases h1; rfl
            · rw [ht] at h1; simp at h1
          have e2 : r2 = r1 + ((c.toNat : Int) - 48) := by
            unfold Str.IntTy.fit at h2
            split at h2
            · cases h2; rfl
            · rw [ht] at h2; simp at h2
          have hc : 48 ≤ c.toNat := by
            simp [Str.notDigit] at hd
            omega
          exact digitLoop_nonneg ht l r2 x ⟨by omega, (fit_range h2).2⟩ h

/-- The sign is put on without overflow. -/
theorem negate_fits {t : Str.IntTy} {l : List Char} {x : Int} (h : Str.digitLoop t l 0 = .ok x) : t.fit (x * -1) ≠ none := by
  by_cases ht : t.wraps = true
  · unfold Str.IntTy.fit
    split
    · simp
    · simp
  · have ht : t.wraps = false := by simpa using ht
    have := digitLoop_nonneg ht l 0 x ⟨by omega, by cases t <;> decide⟩ h
    unfold Str.IntTy.fit
    rw [if_pos]
    · simp
    · cases t <;> simp [Str.IntTy.wraps, Str.IntTy.lo, Str.IntTy.hi] at * <;> omega

theorem fromStringInt_range {t : Str.IntTy} {s : List Char} {i : Int} (hi : Str.fromStringInt t s = .ok i) : t.lo ≤ i ∧ i ≤ t.hi := by
  have hloop : ∀ l x, Str.digitLoop t l 0 = .ok x → t.lo ≤ x ∧ x ≤ t.hi := by
    intro l x h
    by_cases ht : t.wraps = true
    · exact digitLoop_fits ht _ _ _ (Str.IntTy.zero_ok t) h
    · have ht : t.wraps = false := by simpa using ht
      have h0 := Str.IntTy.zero_ok t
      have := digitLoop_nonneg ht l 0 x ⟨by omega, h0.2⟩ h
      omega
  cases s with
  | nil => simp [Str.fromStringInt] at hi
  | cons c cs =>
    simp only [Str.fromStringInt] at hi
    split at hi
    · rename_i res hres
      split at hi
      · split at hi
        · cases hi
        · rename_i hf; cases hi; exact fit_range hf
      · cases hi; exact hloop _ _ hres
    · rename_i o hno; cases o <;> simp_all

theorem fromStringInt_prefix {t : Str.IntTy} {p r : List Char} (h : Str.fromStringInt t (p ++ r) ≠ .ub) : Str.fromStringInt t p ≠ .ub := by
  cases p with
  | nil => simp [Str.fromStringInt]
  | cons c p =>
    by_cases hm : c = '-' ∧ p = []
    · obtain ⟨rfl, rfl⟩ := hm
      clear h
      cases t <;> decide
    · have hneg : (c == '-' && !(p ++ r).isEmpty) = (c == '-' && !p.isEmpty) := by
        cases p with
        | nil => simp at hm; simp [hm]
        | cons => simp
      simp only [List.cons_append, Str.fromStringInt, hneg] at h ⊢
      have hl : Str.digitLoop t (if (c == '-' && !p.isEmpty) = true then p else c :: p) 0 ≠ .ub := by
        intro e
        have : Str.digitLoop t (if (c == '-' && !p.isEmpty) = true then p ++ r else c :: (p ++ r)) 0 = .ub := by
          refine Decidable.byContradiction fun hne => ?_
          refine digitLoop_prefix r (if (c == '-' && !p.isEmpty) = true then p else c :: p) 0 ?_ e
          have ee : (if (c == '-' && !p.isEmpty) = true then p else c :: p) ++ r = if (c == '-' && !p.isEmpty) = true then p ++ r else c :: (p ++ r) := by split <;> rfl
          rw [ee]; exact hne
        rw [this] at h
        exact h rfl
      split
      · rename_i res hres
        split
        · have := negate_fits hres
          split
          · rename_i e; exact absurd e this
          · simp
        · simp
      · rename_i o hno
        exact hl

theorem fromStringDecimal_prefix {p r : List Char} (h : Str.fromStringDecimal (p ++ r) ≠ .ub) : Str.fromStringDecimal p ≠ .ub := by
  cases p with
  | nil => simp [Str.fromStringDecimal]
  | cons c p =>
    by_cases hm : c = '-' ∧ p = []
    · obtain ⟨rfl, rfl⟩ := hm
      decide
    · have hneg : (c == '-' && !(p ++ r).isEmpty) = (c == '-' && !p.isEmpty) := by
        cases p with
        | nil => simp at hm; simp [hm]
        | cons => simp
      simp only [List.cons_append, Str.fromStringDecimal, hneg] at h ⊢
      have ee : (if (c == '-' && !p.isEmpty) = true then p ++ r else c :: (p ++ r)) = (if (c == '-' && !p.isEmpty) = true then p else c :: p) ++ r := by split <;> rfl
      rw [ee] at h
      generalize (if (c == '-' && !p.isEmpty) = true then p else c :: p) = q at h ⊢
      have hi : Str.intPartLoop (q ++ r) 0 ≠ .ub := by intro e; rw [e] at h; exact h rfl
      obtain ⟨h1, h2⟩ := intPartLoop_prefix r q 0 hi
      cases hq : Str.intPartLoop q 0 with
      | ub => exact absurd hq h1
      | reject => simp
      | ok x =>
        obtain ⟨i, rest⟩ := x
        dsimp only
        have hr : Str.digitLoop .i32 rest 0 ≠ .ub := by
          rcases h2 i rest hq with rfl | e
          · simp [Str.digitLoop]
          · rw [e] at h
            refine digitLoop_prefix r rest 0 fun e' => ?_
            dsimp only at h
            rw [e'] at h
            exact h rfl
        cases hd : Str.digitLoop .i32 rest 0 with
        | ub => exact absurd hd hr
        | reject => simp
        | ok => simp

/-- Reading the beginning of a text is defined when reading the text is defined (specification). -/
def PrefixSafe (V Ty : Type) [LinearOrder V] [Typed V Ty] [DecidableEq Ty] [Texts V Ty] : Prop :=
  ∀ (t : Ty) (p r : List Char), (fromText t (p ++ r) : Str.Out V) ≠ .ub → (fromText t p : Str.Out V) ≠ .ub

theorem prefixSafe_wide : PrefixSafe WVal WTy := by
  intro t p r h
  change readWide t (p ++ r) ≠ .ub at h
  show readWide t p ≠ .ub
  cases t with
  | int t =>
    simp only [readWide] at h ⊢
    have : Str.fromStringInt t p ≠ .ub := fromStringInt_prefix (r := r) (by intro e; rw [e] at h; exact h rfl)
    cases hf : Str.fromStringInt t p with
    | ub => exact absurd hf this
    | reject => simp
    | ok i => dsimp only; rw [dif_pos (fromStringInt_range hf)]; simp
  | byte s => simp [readWide, Str.fromStringOther]
  | user s => simp [readWide, Str.fromStringOther]
  | bool => simp only [readWide, Str.fromStringBool]; split <;> (try split) <;> simp_all; split at * <;> (try split at *) <;> simp_all
  | str => simp [readWide, Str.fromStringStr]
  | real d =>
    simp only [readWide] at h ⊢
    have : Str.fromStringDecimal p ≠ .ub := fromStringDecimal_prefix (r := r) (by intro e; rw [e] at h; exact h rfl)
    cases hf : Str.fromStringDecimal p with
    | ub => exact absurd hf this
    | reject => simp
    | ok i => simp

theorem prefixSafe_val : PrefixSafe Val VTy := by
  intro t p r h
  change readVal t (p ++ r) ≠ .ub at h
  show readVal t p ≠ .ub
  cases t with
  | int t =>
    simp only [readVal] at h ⊢
    have : Str.fromStringInt t p ≠ .ub := fromStringInt_prefix (r := r) (by intro e; rw [e] at h; exact h rfl)
    cases hf : Str.fromStringInt t p with
    | ub => exact absurd hf this
    | reject => simp
    | ok i => dsimp only; rw [dif_pos (fromStringInt_range hf)]; simp
  | bool => simp only [readVal, Str.fromStringBool]; split <;> (try split) <;> simp_all; split at * <;> (try split at *) <;> simp_all
  | str => simp [readVal, Str.fromStringStr]

end MVault.W
