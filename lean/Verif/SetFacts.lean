import Verif.SetSpec
/-
Facts about windows, needed to show that sets follow their vaults. No code is modelled here.
-/
set_option linter.unusedSectionVars false
set_option linter.unusedSimpArgs false
namespace MVault.Spec
open MVault.W (Res Code Answer Typed typeOf zero castTo Cond Req leafCond)
open Classical
variable {K V Ty : Type} [LinearOrder K] [LinearOrder V] [Typed V Ty] [DecidableEq Ty]

theorem take_on (s : SetVar K) (t : Table K V Ty) : s.take (s.on t) = s := rfl

theorem on_bad (s : SetVar K) (t : Table K V Ty) (k : K) (v : V) : (s.on t).bad k v = t.bad k v := rfl

theorem set_cases (t : Table K V Ty) (r : Option Nat) (k : K) (v : V) :
    ((t.set r k v).1.ok = false ∧ (t.set r k v).2 = t ∧ ((∀ r', r = some r' → ¬ t.row r') ∨ t.bad k v ≠ none ∨ t.uniq k)) ∨
    ∃ r', r = some r' ∧ t.row r' ∧ t.bad k v = none ∧ ¬ t.uniq k ∧ t.set r k v = (.good (some k), t.setCell r' k v) := by
  cases r with
  | none => exact .inl ⟨rfl, rfl, .inl fun r' h => by cases h⟩
  | some r =>
    by_cases hr : t.row r
    · cases hb : t.bad k v with
      | some c =>
        refine .inl ⟨?_, ?_, .inr (.inl (by simp))⟩ <;> simp [Table.set, hr, hb, Res.bad]
      | none =>
        by_cases hu : t.uniq k
        · refine .inl ⟨?_, ?_, .inr (.inr hu)⟩ <;> simp [Table.set, hr, hb, hu, Res.bad]
        · exact .inr ⟨r, rfl, hr, rfl, hu, by simp [Table.set, hr, hb, hu]⟩
    · refine .inl ⟨?_, ?_, .inl fun r' h => by cases h; exact hr⟩ <;> simp [Table.set, hr, Res.bad]

/-- What the vault refuses changes no set. -/
theorem window_refused {s : SetVar K} {t : Table K V Ty} {r : Option Nat} {k : K} {v : V} (hs : ∀ r, s.row r → t.row r)
    (h : (t.set r k v).1.ok = false) : ((s.on t).set r k v).1.ok = false ∧ ((s.on t).set r k v).2 = s.on t := by
  rcases set_cases (s.on t) r k v with ⟨h1, h2, _⟩ | ⟨r', rfl, hr, hb, hu, _⟩
  · exact ⟨h1, h2⟩
  · exfalso
    have : (t.set (some r') k v) = (.good (some k), t.setCell r' k v) := by
      have hr' : t.row r' := hs r' hr
      have hb' : t.bad k v = none := hb
      have hu' : ¬ t.uniq k := hu
      simp [Table.set, hr', hb', hu']
    rw [this] at h; cases h

/-- A row that is not in the set is not written in it. -/
theorem window_norow {s : SetVar K} {t : Table K V Ty} {r : Option Nat} {k : K} {v : V} (hr : ∀ r', r = some r' → ¬ s.row r') :
    ((s.on t).set r k v).1.ok = false ∧ ((s.on t).set r k v).2 = s.on t := by
  rcases set_cases (s.on t) r k v with ⟨h1, h2, _⟩ | ⟨r', rfl, h, _⟩
  · exact ⟨h1, h2⟩
  · exact absurd h (hr r' rfl)

/-- Writing in the vault and writing in the set give the same window. -/
theorem window_set {s : SetVar K} {t : Table K V Ty} {r : Nat} {k : K} {v : V} (hs : ∀ r, s.row r → t.row r) (hr : s.row r) :
    ((s.on t).set (some r) k v).1 = (t.set (some r) k v).1 ∧
    (s.take ((s.on t).set (some r) k v).2).on (t.set (some r) k v).2 = ((s.on t).set (some r) k v).2 := by
  have htr : t.row r := hs r hr
  have hsr : (s.on t).row r := hr
  simp only [Table.set, htr, hsr, not_true_eq_false, if_false, on_bad]
  cases hb : t.bad k v with
  | some c => exact ⟨rfl, rfl⟩
  | none =>
    by_cases hu : t.uniq k
    · have : (s.on t).uniq k := hu
      simp only [hu, this, if_true]; exact ⟨trivial, rfl⟩
    · have : ¬ (s.on t).uniq k := hu
      simp only [hu, this, if_false]
      refine ⟨trivial, ?_⟩
      apply Table.ext <;> try rfl
      funext r' k'
      show (if s.row r' then (t.setCell r k v).cell r' k' else none) = ((s.on t).setCell r k v).cell r' k'
      simp only [Table.setCell, SetVar.on, Table.window]
      by_cases hr' : s.row r'
      · simp only [hr', if_true]
      · simp only [hr', if_false]
        rw [if_neg]
        rintro ⟨rfl, _⟩; exact hr' hr

theorem setMany_norow {s : SetVar K} {t : Table K V Ty} {r : Option Nat} (hr : ∀ r', r = some r' → ¬ s.row r') (ps : List (K × V)) (res : Res K) :
    (Table.setMany r ps res (s.on t)).2 = s.on t := by
  cases ps with
  | nil => rfl
  | cons p ps =>
    obtain ⟨h1, h2⟩ := window_norow (t := t) (k := p.1) (v := p.2) hr
    rw [Table.setMany, if_pos h1, h2]

theorem set_row (t : Table K V Ty) (r : Option Nat) (k : K) (v : V) : (t.set r k v).2.row = t.row := by
  rcases set_cases t r k v with ⟨_, h, _⟩ | ⟨_, _, _, _, _, h⟩ <;> rw [h]
  rfl

theorem setMany_row (r : Option Nat) (ps : List (K × V)) : ∀ (res : Res K) (t : Table K V Ty), (Table.setMany r ps res t).2.row = t.row := by
  induction ps with
  | nil => intro res t; rfl
  | cons p ps ih =>
    intro res t
    rw [Table.setMany]
    split
    · exact set_row ..
    · rw [ih, set_row]

/-- One more step of a series of writes, seen from the set. -/
theorem window_setMany {s s1 : SetVar K} {t : Table K V Ty} {r : Option Nat} {p : K × V} {ps : List (K × V)} {res : Res K}
    (hs : ∀ r, s.row r → t.row r) (h1 : s1 = s.take ((s.on t).set r p.1 p.2).2) :
    s.take (Table.setMany r (p :: ps) res (s.on t)).2 =
      if (t.set r p.1 p.2).1.ok = false then s1 else s1.take (Table.setMany r ps (t.set r p.1 p.2).1 (s1.on (t.set r p.1 p.2).2)).2 := by
  subst h1
  rw [Table.setMany]
  by_cases hok : (t.set r p.1 p.2).1.ok = false
  · rw [if_pos hok, if_pos (window_refused hs hok).1]
  · rw [if_neg hok]
    by_cases hrow : ∃ r', r = some r' ∧ s.row r'
    · obtain ⟨r', rfl, hrow⟩ := hrow
      obtain ⟨e1, e2⟩ := window_set (k := p.1) (v := p.2) hs hrow
      rw [e1, if_neg hok, e2]; rfl
    · have hn : ∀ r', r = some r' → ¬ s.row r' := fun r' e h => hrow ⟨r', e, h⟩
      obtain ⟨e1, e2⟩ := window_norow (t := t) (k := p.1) (v := p.2) hn
      rw [if_pos e1, e2, take_on]
      have := setMany_norow (s := s) (t := (t.set r p.1 p.2).2) hn ps (t.set r p.1 p.2).1
      rw [this]; rfl

end MVault.Spec
