import Verif.TableLaws
import Mathlib.Data.List.Perm.Subperm
/-
Two tables with the same contents whose rows have different identities: calls on them have the same answers and keep them alike. No code is modelled here.
-/
set_option linter.unusedSectionVars false
set_option linter.unusedSimpArgs false
set_option linter.unusedVariables false
namespace MVault.Spec
open MVault.W (Res Code Answer Typed typeOf zero castTo lastParam)
open Classical
variable {K V Ty : Type} [LinearOrder K] [LinearOrder V] [Typed V Ty] [DecidableEq Ty]

/-- `t'` has the contents of `t`; row `r` of `t` is row `m r` of `t'`. -/
structure Table.Like (m : Nat → Nat) (t t' : Table K V Ty) : Prop where
  /-- the same keys in the same order, with the same properties -/
  keys : t'.keys = t.keys
  uniq : ∀ k, t'.uniq k ↔ t.uniq k
  ty : ∀ k, t'.ty k = t.ty k
  dflt : ∀ k, t'.dflt k = t.dflt k
  /-- different rows are different rows, and there are no others -/
  inj : ∀ r s, t.row r → t.row s → m r = m s → r = s
  row : ∀ r', t'.row r' ↔ ∃ r, t.row r ∧ r' = m r
  /-- the same values -/
  cell : ∀ r, t.row r → ∀ k, t'.cell (m r) k = t.cell r k
  /-- searches find the same -/
  seen : ∀ r, t.row r → ∀ b k, t'.seen b k (m r) ↔ t.seen b k r

/-- References to the same row, or both to no row of the table. -/
def SameRow (m : Nat → Nat) (t t' : Table K V Ty) (r r' : Option Nat) : Prop :=
  (∃ x, t.row x ∧ r = some x ∧ r' = some (m x)) ∨ ((∀ x, r = some x → ¬ t.row x) ∧ ∀ x, r' = some x → ¬ t'.row x)

/-- The same call on the two tables: the arguments are the same, rows are named by their own identities. -/
inductive Cmd.Same (m : Nat → Nat) (t t' : Table K V Ty) : Cmd K V Ty → Cmd K V Ty → Prop
  | addKey (k d) : Same m t t' (.addKey k d) (.addKey k d)
  /-- the function gives the same values for the same rows, in whatever order it is called -/
  | addUniqueKey (k ty n) (f f' : Nat → Nat → V) : (∀ r, t.row r → ∀ i j, f i r = f' j (m r)) → Same m t t' (.addUniqueKey k ty n f) (.addUniqueKey k ty n f')
  | updateKey (k d) : Same m t t' (.updateKey k d) (.updateKey k d)
  | removeKey (k) : Same m t t' (.removeKey k) (.removeKey k)
  | create (ps) : Same m t t' (.create ps) (.create ps)
  | set (r r' k v) : SameRow m t t' r r' → Same m t t' (.set r k v) (.set r' k v)
  | setMany (r r' ps) : SameRow m t t' r r' → Same m t t' (.setMany r ps) (.setMany r' ps)
  | find (k v) : Same m t t' (.find k v) (.find k v)
  | eraseRow (r r') : SameRow m t t' r r' → Same m t t' (.eraseRow r) (.eraseRow r')
  | eraseOne (k v) : Same m t t' (.eraseOne k v) (.eraseOne k v)
  | eraseMany (k v n) : Same m t t' (.eraseMany k v n) (.eraseMany k v n)
  | dropData : Same m t t' .dropData .dropData
  | dropVault : Same m t t' .dropVault .dropVault

/-- The call does not have to choose among several matching rows. -/
def Cmd.NoChoice (t : Table K V Ty) : Cmd K V Ty → Prop
  | .eraseOne k v => ∀ r s, t.hits k v r → t.hits k v s → r = s
  | .eraseMany k v n => ∃ l : List Nat, l.length ≤ max n 1 ∧ ∀ r, t.hits k v r → r ∈ l
  | _ => True

namespace Table.Like
variable {m : Nat → Nat} {t t' : Table K V Ty}

theorem rowm (h : t.Like m t') {r : Nat} (hr : t.row r) : t'.row (m r) := (h.row _).mpr ⟨r, hr, rfl⟩

theorem refl (t : Table K V Ty) : t.Like id t :=
  ⟨rfl, fun _ => .rfl, fun _ => rfl, fun _ => rfl, fun _ _ _ _ h => h, fun r' => ⟨fun h => ⟨r', h, rfl⟩, fun ⟨_, h, e⟩ => e ▸ h⟩, fun _ _ _ => rfl, fun _ _ _ _ => .rfl⟩

theorem empty : (Table.empty : Table K V Ty).Like m .empty :=
  ⟨rfl, fun _ => .rfl, fun _ => rfl, fun _ => rfl, fun _ _ h => h.elim, fun r' => ⟨fun h => h.elim, fun ⟨_, h, _⟩ => h.elim⟩, fun _ h => h.elim, fun _ h => h.elim⟩

theorem bad (h : t.Like m t') (k : K) (v : V) : t'.bad k v = t.bad k v := by simp only [Table.bad, h.ty]

theorem firstBad (h : t.Like m t') (ps : List (K × V)) : t'.firstBad ps = t.firstBad ps := by simp only [Table.firstBad, h.bad]

theorem newValue (h : t.Like m t') (ps : List (K × V)) (k : K) : t'.newValue ps k = t.newValue ps k := by simp only [Table.newValue, h.dflt]

theorem clash (h : t.Like m t') (ps : List (K × V)) (k : K) : t'.clash ps k ↔ t.clash ps k := by
  simp only [Table.clash, h.newValue]
  constructor
  · rintro ⟨r', hr', hc⟩
    obtain ⟨r, hr, rfl⟩ := (h.row r').mp hr'
    exact ⟨r, hr, by rw [← hc, h.cell r hr]⟩
  · rintro ⟨r, hr, hc⟩
    exact ⟨m r, h.rowm hr, by rw [h.cell r hr, hc]⟩

theorem hits (h : t.Like m t') {k : K} {v : V} {r : Nat} (hr : t.row r) : t'.hits k v (m r) ↔ t.hits k v r := by
  simp only [Table.hits, h.cell r hr, h.seen r hr, hr, h.rowm hr]

theorem hits' (h : t.Like m t') {k : K} {v : V} {r' : Nat} (hr : t'.hits k v r') : ∃ r, t.hits k v r ∧ r' = m r := by
  obtain ⟨r, hr1, rfl⟩ := (h.row r').mp hr.1
  exact ⟨r, (h.hits hr1).mp hr, rfl⟩

theorem hits_ex (h : t.Like m t') {k : K} {v : V} : (∃ r, t'.hits k v r) ↔ ∃ r, t.hits k v r := by
  constructor
  · rintro ⟨r', hr'⟩; obtain ⟨r, hr, _⟩ := h.hits' hr'; exact ⟨r, hr⟩
  · rintro ⟨r, hr⟩; exact ⟨m r, (h.hits hr.1).mpr hr⟩

theorem addKey (h : t.Like m t') (k : K) (u : Bool) (ty : Ty) (d : V) {val val' : Nat → V} (hv : ∀ r, t.row r → val' (m r) = val r) :
    (t.addKey k u ty d val).Like m (t'.addKey k u ty d val') where
  keys := by simp only [Table.addKey, h.keys]
  uniq k' := by simp only [Table.addKey, h.uniq]
  ty k' := by simp only [Table.addKey, h.ty]
  dflt k' := by simp only [Table.addKey, h.dflt]
  inj := h.inj
  row := h.row
  cell r hr k' := by
    have hr : t.row r := hr
    simp only [Table.addKey, h.cell r hr, h.rowm hr, hr, if_true, hv r hr]
  seen r hr b k' := by
    have hr : t.row r := hr
    simp only [Table.addKey, h.seen r hr, h.rowm hr, hr]

theorem setDefault (h : t.Like m t') (k : K) (d : V) : (t.setDefault k d).Like m (t'.setDefault k d) where
  keys := h.keys
  uniq := h.uniq
  ty := h.ty
  dflt k' := by simp only [Table.setDefault, h.dflt]
  inj := h.inj
  row := h.row
  cell := h.cell
  seen := h.seen

theorem removeKey (h : t.Like m t') (k : K) : (t.removeKey k).Like m (t'.removeKey k) where
  keys := by simp only [Table.removeKey, h.keys]
  uniq k' := by simp only [Table.removeKey, h.uniq]
  ty k' := by simp only [Table.removeKey, h.ty]
  dflt k' := by simp only [Table.removeKey, h.dflt]
  inj := h.inj
  row := h.row
  cell r hr k' := by
    have hr : t.row r := hr
    simp only [Table.removeKey, h.cell r hr]
  seen r hr b k' := by
    have hr : t.row r := hr
    simp only [Table.removeKey, h.seen r hr]

theorem addRow (h : t.Like m t') {x x' : Nat} (hx : ¬ t.row x) (hx' : ¬ t'.row x') (hs : ∀ b k, ¬ t.seen b k x) (hs' : ∀ b k, ¬ t'.seen b k x') (ps : List (K × V)) :
    (t.addRow x ps).Like (fun r => if r = x then x' else m r) (t'.addRow x' ps) where
  keys := h.keys
  uniq := h.uniq
  ty := h.ty
  dflt := h.dflt
  inj r s hr hs e := by
    have key : ∀ q, t.row q → m q ≠ x' := fun q hq e => hx' (e ▸ h.rowm hq)
    simp only [Table.addRow] at hr hs e
    by_cases e1 : r = x <;> by_cases e2 : s = x
    · rw [e1, e2]
    · simp only [e1, e2, if_true, if_false] at e
      exact absurd e.symm (key s (hs.resolve_right e2))
    · simp only [e1, e2, if_true, if_false] at e
      exact absurd e (key r (hr.resolve_right e1))
    · simp only [e1, e2, if_false] at e
      exact h.inj r s (hr.resolve_right e1) (hs.resolve_right e2) e
  row r' := by
    simp only [Table.addRow, h.row]
    constructor
    · rintro (⟨r, hr, rfl⟩ | rfl)
      · refine ⟨r, .inl hr, ?_⟩
        rw [if_neg]; rintro rfl; exact hx hr
      · exact ⟨x, .inr rfl, by simp⟩
    · rintro ⟨r, hr, rfl⟩
      by_cases e : r = x
      · exact .inr (by simp [e])
      · exact .inl ⟨r, hr.resolve_right e, by simp [e]⟩
  cell r hr k := by
    simp only [Table.addRow] at hr ⊢
    by_cases e : r = x
    · simp only [e, if_true, h.newValue]
    · have hr := hr.resolve_right e
      have : m r ≠ x' := fun e => hx' (e ▸ h.rowm hr)
      simp only [e, this, if_false, h.cell r hr]
  seen r hr b k := by
    simp only [Table.addRow] at hr ⊢
    by_cases e : r = x
    · subst e
      simp only [if_true, true_and, h.keys, hs, hs', false_or]
    · have hr := hr.resolve_right e
      have : m r ≠ x' := fun e => hx' (e ▸ h.rowm hr)
      simp only [e, this, if_false, h.seen r hr, false_and]

theorem setCell (h : t.Like m t') {x : Nat} (hx : t.row x) (k : K) (v : V) : (t.setCell x k v).Like m (t'.setCell (m x) k v) where
  keys := h.keys
  uniq := h.uniq
  ty := h.ty
  dflt := h.dflt
  inj := h.inj
  row := h.row
  cell r hr k' := by
    have hr : t.row r := hr
    have : m r = m x ↔ r = x := ⟨h.inj r x hr hx, fun e => e ▸ rfl⟩
    simp only [Table.setCell, h.cell r hr, this]
  seen r hr b k' := by
    have hr : t.row r := hr
    have : m r = m x ↔ r = x := ⟨h.inj r x hr hx, fun e => e ▸ rfl⟩
    simp only [Table.setCell, h.cell r hr, h.cell x hx, h.seen r hr, h.seen x hx, this]

theorem erase (h : t.Like m t') {l l' : Nat → Prop} (hl' : ∀ r', l' r' → t'.row r') (hl : ∀ r, t.row r → (l' (m r) ↔ l r)) (hs : ∀ r, l r → t.row r) : (t.erase l).Like m (t'.erase l') where
  keys := h.keys
  uniq := h.uniq
  ty := h.ty
  dflt := h.dflt
  inj r s hr hs := h.inj r s hr.1 hs.1
  row r' := by
    simp only [Table.erase, h.row]
    constructor
    · rintro ⟨⟨r, hr, rfl⟩, hn⟩; exact ⟨r, ⟨hr, fun hh => hn ((hl r hr).mpr hh)⟩, rfl⟩
    · rintro ⟨r, ⟨hr, hn⟩, rfl⟩; exact ⟨⟨r, hr, rfl⟩, fun hh => hn ((hl r hr).mp hh)⟩
  cell r hr k := by simp only [Table.erase, hl r hr.1, h.cell r hr.1]
  seen r hr b k := by
    simp only [Table.erase, hl r hr.1, h.seen r hr.1, h.cell r hr.1]
    refine and_congr_right fun _ => and_congr_right fun _ => imp_congr_right fun _ => ?_
    constructor
    · intro H r0 h0 e
      have := H (m r0) ((hl r0 (hs r0 h0)).mpr h0) (by rw [h.cell r0 (hs r0 h0)]; exact e)
      rwa [h.seen r0 (hs r0 h0)] at this
    · intro H r0' h0 e
      obtain ⟨r0, hr0, rfl⟩ := (h.row r0').mp (hl' r0' h0)
      rw [h.seen r0 hr0]
      exact H r0 ((hl r0 hr0).mp h0) (by rw [← h.cell r0 hr0]; exact e)

theorem set (h : t.Like m t') {r r' : Option Nat} (hr : SameRow m t t' r r') (k : K) (v : V) :
    (t'.set r' k v).1 = (t.set r k v).1 ∧ (t.set r k v).2.Like m (t'.set r' k v).2 ∧ (t.set r k v).2.row = t.row ∧ (t'.set r' k v).2.row = t'.row := by
  rcases hr with ⟨x, hx, rfl, rfl⟩ | ⟨h1, h2⟩
  · simp only [Table.set, hx, h.rowm hx, not_true, if_false, h.bad]
    cases t.bad k v with
    | some c => exact ⟨rfl, h, rfl, rfl⟩
    | none =>
      simp only [h.uniq]
      split
      · exact ⟨rfl, h, rfl, rfl⟩
      · exact ⟨rfl, h.setCell hx k v, rfl, rfl⟩
  · have e1 : t.set r k v = (.bad .DataRecordNotValid (some k), t) := by
      cases r with
      | none => rfl
      | some x => simp only [Table.set, h1 x rfl, not_false_eq_true, if_true]
    have e2 : t'.set r' k v = (.bad .DataRecordNotValid (some k), t') := by
      cases r' with
      | none => rfl
      | some x => simp only [Table.set, h2 x rfl, not_false_eq_true, if_true]
    rw [e1, e2]; exact ⟨rfl, h, rfl, rfl⟩

theorem setMany {r r' : Option Nat} (ps : List (K × V)) : ∀ {res : Res K} {t t' : Table K V Ty}, t.Like m t' → SameRow m t t' r r' →
    (Table.setMany r' ps res t').1 = (Table.setMany r ps res t).1 ∧ (Table.setMany r ps res t).2.Like m (Table.setMany r' ps res t').2 := by
  induction ps with
  | nil => intro res t t' h _; exact ⟨rfl, h⟩
  | cons p ps ih =>
    intro res t t' h hr
    obtain ⟨a, b, c, d⟩ := h.set hr p.1 p.2
    simp only [Table.setMany, a]
    by_cases e : (t.set r p.1 p.2).1.ok = false
    · simp only [e, if_true]; exact ⟨a, b⟩
    · simp only [e, if_false]
      exact ih b (by unfold SameRow at *; rw [c, d]; exact hr)

end Table.Like

/-- The rows that the identities of the new rows are chosen from are not rows, and rows are all that is found. -/
theorem Table.Step.twin {m : Nat → Nat} {t t' u u' : Table K V Ty} {fresh fresh' : Nat → Prop} {c c' : Cmd K V Ty} {a a' : Answer K} (h : t.Like m t')
    (hc : Cmd.Same m t t' c c') (s1 : t.Step fresh c a u) (s2 : t'.Step fresh' c' a' u') (hf : ∀ r, fresh r → ¬ t.row r) (hf' : ∀ r, fresh' r → ¬ t'.row r)
    (hs : t.Sane) (hs' : t'.Sane) : a' = a ∧ (c.NoChoice t → ∃ m', u.Like m' u' ∧ ∀ r, t.row r → m' r = m r) := by
  have stay : ∀ {x x' : Table K V Ty}, x.Like m x' → ∃ m', x.Like m' x' ∧ ∀ r, t.row r → m' r = m r := fun hx => ⟨m, hx, fun _ _ => rfl⟩
  cases hc with
  | addKey k d =>
    simp only [Table.Step, h.keys] at s2
    rcases s1 with ⟨x, rfl, rfl⟩ | ⟨x, rfl, rfl⟩ <;> rcases s2 with ⟨y, rfl, rfl⟩ | ⟨y, rfl, rfl⟩
    · exact ⟨rfl, fun _ => stay h⟩
    · exact absurd x y
    · exact absurd y x
    · exact ⟨rfl, fun _ => stay (h.addKey k false _ d fun _ _ => rfl)⟩
  | addUniqueKey k ty n f f' hff =>
    have hrow : (∃ r, t'.row r) ↔ ∃ r, t.row r :=
      ⟨fun ⟨r', hr'⟩ => (((h.row r').mp hr').imp fun _ hh => hh.1), fun ⟨r, hr⟩ => ⟨m r, h.rowm hr⟩⟩
    simp only [Table.Step, h.keys, hrow] at s2
    have conv : ∀ {i j r : Nat}, t.row r → f' i (m r) = f j r := fun hr => (hff _ hr _ _).symm
    have conv' : ∀ {i j r : Nat}, t.row r → f i r = f j r := fun {i j r} hr => (hff r hr i 0).trans (hff r hr j 0).symm
    by_cases hk : k ∈ t.keys
    · rcases s1 with ⟨_, rfl, rfl⟩ | ⟨x, _⟩ | ⟨x, _⟩
      · rcases s2 with ⟨_, rfl, rfl⟩ | ⟨x, _⟩ | ⟨x, _⟩
        · exact ⟨rfl, fun _ => stay h⟩
        · exact absurd hk x
        · exact absurd hk x
      · exact absurd hk x
      · exact absurd hk x
    · rcases s1 with ⟨x, _⟩ | ⟨_, x', x'', rfl, rfl⟩ | ⟨_, x', o1, _, _, s1⟩
      · exact absurd x hk
      · rcases s2 with ⟨x, _⟩ | ⟨_, y', y'', rfl, rfl⟩ | ⟨_, y', o2, _, _, s2⟩
        · exact absurd x hk
        · exact ⟨rfl, fun _ => stay h⟩
        · obtain ⟨r0, h0⟩ := x''; exact absurd (h.rowm h0) (y' x' _)
      · rcases s2 with ⟨x, _⟩ | ⟨_, y', y'', rfl, rfl⟩ | ⟨_, y', o2, _, _, s2⟩
        · exact absurd x hk
        · obtain ⟨r0, h0⟩ := y''; exact absurd h0 (x' y' _)
        · rcases s1 with ⟨r, q, g1, g2, g3, g4, rfl, rfl⟩ | ⟨g, rfl, rfl⟩
          · rcases s2 with ⟨r', q', e1, e2, e3, e4, rfl, rfl⟩ | ⟨e, rfl, rfl⟩
            · exact ⟨rfl, fun _ => stay h⟩
            · have g4' : castTo ty (f 0 r) = castTo ty (f 0 q) := by rw [conv' (j := o1.idxOf r) g1, conv' (j := o1.idxOf q) g2]; exact g4
              refine absurd ?_ (e (m r) (m q) (h.rowm g1) (h.rowm g2) fun ee => g3 (h.inj r q g1 g2 ee))
              rw [conv (j := 0) g1, conv (j := 0) g2]; exact g4'
          · rcases s2 with ⟨r', q', e1, e2, e3, e4, rfl, rfl⟩ | ⟨e, rfl, rfl⟩
            · obtain ⟨r, hr, rfl⟩ := (h.row r').mp e1
              obtain ⟨q, hq, rfl⟩ := (h.row q').mp e2
              refine absurd ?_ (g r q hr hq fun ee => e3 (ee ▸ rfl))
              rw [conv (j := o1.idxOf r) hr, conv (j := o1.idxOf q) hq] at e4; exact e4
            · exact ⟨rfl, fun _ => stay (h.addKey k true ty _ fun r hr => congrArg (castTo ty) (conv hr))⟩
  | updateKey k d =>
    simp only [Table.Step, h.bad, h.uniq] at s1 s2
    split at s1
    · rename_i c e; rw [e] at s2; obtain ⟨rfl, rfl⟩ := s1; obtain ⟨rfl, rfl⟩ := s2; exact ⟨rfl, fun _ => stay h⟩
    · rename_i e; rw [e] at s2
      rcases s1 with ⟨x, rfl, rfl⟩ | ⟨x, rfl, rfl⟩ <;> rcases s2 with ⟨y, rfl, rfl⟩ | ⟨y, rfl, rfl⟩
      · exact ⟨rfl, fun _ => stay h⟩
      · exact absurd x y
      · exact absurd y x
      · exact ⟨rfl, fun _ => stay (h.setDefault k d)⟩
  | removeKey k =>
    simp only [Table.Step, h.keys] at s2
    rcases s1 with ⟨x, rfl, rfl⟩ | ⟨x, rfl, rfl⟩ <;> rcases s2 with ⟨y, rfl, rfl⟩ | ⟨y, rfl, rfl⟩
    · exact ⟨rfl, fun _ => stay h⟩
    · exact absurd y x
    · exact absurd x y
    · exact ⟨rfl, fun _ => stay (h.removeKey k)⟩
  | create ps =>
    simp only [Table.Step, h.firstBad, h.uniq, h.clash] at s1 s2
    split at s1
    · rename_i c k e; rw [e] at s2; obtain ⟨rfl, rfl⟩ := s1; obtain ⟨rfl, rfl⟩ := s2; exact ⟨rfl, fun _ => stay h⟩
    · rename_i e; rw [e] at s2
      rcases s1 with ⟨k1, a1, a2, a3, rfl, rfl⟩ | ⟨x, r, hr, rfl, rfl⟩ <;> rcases s2 with ⟨k2, b1, b2, b3, rfl, rfl⟩ | ⟨y, r', hr', rfl, rfl⟩
      · rcases lt_trichotomy k1 k2 with hlt | rfl | hlt
        · exact absurd a2 (b3 k1 a1 hlt)
        · exact ⟨rfl, fun _ => stay h⟩
        · exact absurd b2 (a3 k2 b1 hlt)
      · exact absurd a2 (y k1 a1)
      · exact absurd b2 (x k2 b1)
      · have n1 := hf r hr
        have n2 := hf' r' hr'
        exact ⟨rfl, fun _ => ⟨_, h.addRow n1 n2 (fun b k hh => n1 (hs.seen b k r hh).1) (fun b k hh => n2 (hs'.seen b k r' hh).1) ps,
          fun q hq => if_neg (by rintro rfl; exact n1 hq)⟩⟩
  | set r r' k v hr =>
    obtain ⟨rfl, rfl⟩ := s1; obtain ⟨rfl, rfl⟩ := s2
    obtain ⟨e1, e2, _⟩ := h.set hr k v
    exact ⟨by rw [e1], fun _ => stay e2⟩
  | setMany r r' ps hr =>
    obtain ⟨rfl, rfl⟩ := s1; obtain ⟨rfl, rfl⟩ := s2
    obtain ⟨e1, e2⟩ := h.setMany ps (res := ⟨true, .Idle, none⟩) hr
    exact ⟨by rw [e1], fun _ => stay e2⟩
  | find k v =>
    obtain ⟨rfl, s1⟩ := s1; obtain ⟨rfl, s2⟩ := s2
    refine ⟨?_, fun _ => stay h⟩
    simp only [h.bad, h.hits_ex] at s1 s2
    split at s1
    · rename_i c e; rw [e] at s2; rw [s1, s2]
    · rename_i e; rw [e] at s2
      rcases s1 with ⟨x, rfl⟩ | ⟨x, rfl⟩ <;> rcases s2 with ⟨y, rfl⟩ | ⟨y, rfl⟩ <;> first | rfl | exact absurd x y | exact absurd y x
  | eraseRow r r' hr =>
    rcases hr with ⟨x, hx, rfl, rfl⟩ | ⟨h1, h2⟩
    · rcases s1 with ⟨r1, e1, x1, rfl, rfl⟩ | ⟨x1, _, _⟩
      · rcases s2 with ⟨r2, e2, x2, rfl, rfl⟩ | ⟨x2, _, _⟩
        · cases e1; cases e2
          exact ⟨rfl, fun _ => stay (h.erase (by rintro _ rfl; exact x2) (fun q hq => ⟨fun e => h.inj q x hq hx e, fun e => e ▸ rfl⟩) (by rintro _ rfl; exact hx))⟩
        · exact absurd (h.rowm hx) (x2 _ rfl)
      · exact absurd hx (x1 _ rfl)
    · rcases s1 with ⟨r1, e1, x1, _, _⟩ | ⟨_, rfl, rfl⟩
      · exact absurd x1 (h1 _ e1)
      · rcases s2 with ⟨r2, e2, x2, _, _⟩ | ⟨_, rfl, rfl⟩
        · exact absurd x2 (h2 _ e2)
        · exact ⟨rfl, fun _ => stay h⟩
  | eraseOne k v =>
    simp only [Table.Step, h.bad] at s1 s2
    split at s1
    · rename_i c e; rw [e] at s2; obtain ⟨rfl, rfl⟩ := s1; obtain ⟨rfl, rfl⟩ := s2; exact ⟨rfl, fun _ => stay h⟩
    · rename_i e; rw [e] at s2
      rcases s1 with ⟨r, hr, rfl, rfl⟩ | ⟨x, rfl, rfl⟩ <;> rcases s2 with ⟨r', hr', rfl, rfl⟩ | ⟨y, rfl, rfl⟩
      · refine ⟨rfl, fun hn => ?_⟩
        obtain ⟨q, hq, rfl⟩ := h.hits' hr'
        obtain rfl := hn q r hq hr
        exact stay (h.erase (by rintro _ rfl; exact hr'.1) (fun z hz => ⟨fun e => h.inj z q hz hq.1 e, fun e => e ▸ rfl⟩) (by rintro _ rfl; exact hq.1))
      · exact absurd ⟨m r, (h.hits hr.1).mpr hr⟩ y
      · exact absurd (h.hits_ex.mp ⟨r', hr'⟩) x
      · exact ⟨rfl, fun _ => stay h⟩
  | eraseMany k v n =>
    simp only [Table.Step, h.bad] at s1 s2
    split at s1
    · rename_i c e; rw [e] at s2; obtain ⟨rfl, rfl⟩ := s1; obtain ⟨rfl, rfl⟩ := s2; exact ⟨rfl, fun _ => stay h⟩
    · rename_i e; rw [e] at s2
      rcases s1 with ⟨l, hl, n1, m1, _, x1, rfl, rfl⟩ | ⟨x, rfl, rfl⟩ <;> rcases s2 with ⟨l', hl', n2, m2, _, x2, rfl, rfl⟩ | ⟨y, rfl, rfl⟩
      · refine ⟨rfl, fun hn => ?_⟩
        obtain ⟨full, hlen, hfull⟩ := hn
        have key : ∀ (x : Table K V Ty) (full l : List Nat), full.length ≤ max n 1 → (∀ r, x.hits k v r → r ∈ full) → l.Nodup → (∀ r ∈ l, x.hits k v r) →
            (l.length = max n 1 ∨ ∀ r, x.hits k v r → r ∈ l) → ∀ r, r ∈ l ↔ x.hits k v r := by
          intro x full l hlen hfull hn hh ho r
          refine ⟨hh r, fun hr => ?_⟩
          rcases ho with ho | ho
          · have hsub : l ⊆ full := fun x hx => hfull x (hh x hx)
            have hp := (List.subperm_of_subset hn hsub).perm_of_length_le (by omega)
            exact hp.mem_iff.mpr (hfull r hr)
          · exact ho r hr
        have k1 := key t full l hlen hfull n1 m1 x1
        have k2 := key t' (full.map m) l' (by simpa using hlen)
          (fun r' hr' => by obtain ⟨q, hq, rfl⟩ := h.hits' hr'; exact List.mem_map.mpr ⟨q, hfull q hq, rfl⟩) n2 m2 x2
        exact stay (h.erase (fun r' hr' => (m2 r' hr').1) (fun r hr => by rw [k1, k2, h.hits hr]) (fun r hr => (m1 r hr).1))
      · obtain ⟨r, hr⟩ := List.exists_mem_of_ne_nil l hl
        exact absurd ⟨m r, (h.hits (m1 r hr).1).mpr (m1 r hr)⟩ y
      · obtain ⟨r, hr⟩ := List.exists_mem_of_ne_nil l' hl'
        exact absurd (h.hits_ex.mp ⟨r, m2 r hr⟩) x
      · exact ⟨rfl, fun _ => stay h⟩
  | dropData =>
    obtain ⟨rfl, rfl⟩ := s1; obtain ⟨rfl, rfl⟩ := s2
    exact ⟨rfl, fun _ => stay (h.erase (fun _ hr => hr) (fun r hr => ⟨fun _ => hr, fun _ => h.rowm hr⟩) (fun _ hr => hr))⟩
  | dropVault =>
    obtain ⟨rfl, rfl⟩ := s1; obtain ⟨rfl, rfl⟩ := s2
    exact ⟨rfl, fun _ => stay .empty⟩

/-- A call makes at most one new row, and then no row goes. -/
theorem Table.Step.one_new {t u : Table K V Ty} {fresh : Nat → Prop} {c : Cmd K V Ty} {a : Answer K} (s : t.Step fresh c a u) :
    (∀ r, u.row r → t.row r) ∨ ∃ x, ∀ r, u.row r ↔ t.row r ∨ r = x := by
  have hset : ∀ (t : Table K V Ty) r k v, (t.set r k v).2.row = t.row := by
    intro t r k v
    unfold Table.set
    repeat' split
    all_goals rfl
  have hmany : ∀ (r : Option Nat) (ps : List (K × V)) (res : Res K) (t : Table K V Ty), (Table.setMany r ps res t).2.row = t.row := by
    intro r ps
    induction ps with
    | nil => intro _ _; rfl
    | cons p ps ih =>
      intro res t
      simp only [Table.setMany]
      split
      · exact hset ..
      · rw [ih, hset]
  cases c with
  | addKey k d => rcases s with ⟨_, _, rfl⟩ | ⟨_, _, rfl⟩ <;> exact .inl fun _ h => h
  | addUniqueKey k ty n f =>
    rcases s with ⟨_, _, rfl⟩ | ⟨_, _, _, _, rfl⟩ | ⟨_, _, _, _, _, ⟨_, _, _, _, _, _, _, rfl⟩ | ⟨_, _, rfl⟩⟩ <;> exact .inl fun _ h => h
  | updateKey k d =>
    simp only [Table.Step] at s
    split at s
    · rw [s.2]; exact .inl fun _ h => h
    · rcases s with ⟨_, _, rfl⟩ | ⟨_, _, rfl⟩ <;> exact .inl fun _ h => h
  | removeKey k => rcases s with ⟨_, _, rfl⟩ | ⟨_, _, rfl⟩ <;> exact .inl fun _ h => h
  | create ps =>
    simp only [Table.Step] at s
    split at s
    · rw [s.2]; exact .inl fun _ h => h
    · rcases s with ⟨_, _, _, _, _, rfl⟩ | ⟨_, x, _, _, rfl⟩
      · exact .inl fun _ h => h
      · exact .inr ⟨x, fun _ => .rfl⟩
  | set r k v => rw [s.2, hset]; exact .inl fun _ h => h
  | setMany r ps => rw [s.2, hmany]; exact .inl fun _ h => h
  | find k v => rw [s.1]; exact .inl fun _ h => h
  | eraseRow r =>
    rcases s with ⟨_, _, _, _, rfl⟩ | ⟨_, _, rfl⟩
    · exact .inl fun _ h => h.1
    · exact .inl fun _ h => h
  | eraseOne k v =>
    simp only [Table.Step] at s
    split at s
    · rw [s.2]; exact .inl fun _ h => h
    · rcases s with ⟨_, _, _, rfl⟩ | ⟨_, _, rfl⟩
      · exact .inl fun _ h => h.1
      · exact .inl fun _ h => h
  | eraseMany k v n =>
    simp only [Table.Step] at s
    split at s
    · rw [s.2]; exact .inl fun _ h => h
    · rcases s with ⟨_, _, _, _, _, _, _, rfl⟩ | ⟨_, _, rfl⟩
      · exact .inl fun _ h => h.1
      · exact .inl fun _ h => h
  | dropData => rw [s.2]; exact .inl fun _ h => h.1
  | dropVault => rw [s.2]; exact .inl fun _ h => h.elim

/-- Only the identities of rows matter. -/
theorem Table.Like.congr {m m' : Nat → Nat} {t t' : Table K V Ty} (h : t.Like m t') (e : ∀ r, t.row r → m' r = m r) : t.Like m' t' where
  keys := h.keys
  uniq := h.uniq
  ty := h.ty
  dflt := h.dflt
  inj r s hr hs ee := h.inj r s hr hs (by rw [← e r hr, ← e s hs, ee])
  row r' := by
    rw [h.row]
    constructor
    · rintro ⟨r, hr, rfl⟩; exact ⟨r, hr, (e r hr).symm⟩
    · rintro ⟨r, hr, rfl⟩; exact ⟨r, hr, e r hr⟩
  cell r hr k := by rw [e r hr, h.cell r hr]
  seen r hr b k := by rw [e r hr, h.seen r hr]

/-- After a call on both that does not choose, the tables are alike under every way of naming rows that keeps the old names and names a new row by the
new row. -/
theorem Table.Step.twin_named {m m' : Nat → Nat} {t t' u u' : Table K V Ty} {fresh fresh' : Nat → Prop} {c c' : Cmd K V Ty} {a a' : Answer K} (h : t.Like m t')
    (hc : Cmd.Same m t t' c c') (s1 : t.Step fresh c a u) (s2 : t'.Step fresh' c' a' u') (hf : ∀ r, fresh r → ¬ t.row r) (hf' : ∀ r, fresh' r → ¬ t'.row r)
    (hs : t.Sane) (hs' : t'.Sane) (hn : c.NoChoice t) (hold : ∀ r, t.row r → m' r = m r) (hnew : ∀ r, u.row r → ¬ t.row r → u'.row (m' r) ∧ ¬ t'.row (m' r)) :
    u.Like m' u' := by
  obtain ⟨m2, hl, he⟩ := (Table.Step.twin h hc s1 s2 hf hf' hs hs').2 hn
  refine hl.congr fun r hr => ?_
  by_cases ht : t.row r
  · rw [hold r ht, he r ht]
  · obtain ⟨n1, n2⟩ := hnew r hr ht
    rcases s1.one_new with h1 | ⟨x, hx⟩
    · exact absurd (h1 r hr) ht
    rcases s2.one_new with h2 | ⟨x', hx'⟩
    · exact absurd (h2 _ n1) n2
    have e1 : m' r = x' := ((hx' _).mp n1).resolve_left n2
    have e2 : m2 r = x' := by
      refine ((hx' _).mp (hl.rowm hr)).resolve_left fun hh => ?_
      obtain ⟨q, hq, e⟩ := (h.row _).mp hh
      have hqu : u.row q := (hx q).mpr (.inl hq)
      have := hl.inj r q hr hqu (by rw [he q hq, e])
      exact ht (this ▸ hq)
    rw [e1, e2]

/-- A copy of a table whose defaults are the original ones and all of whose rows are found is like the table. -/
theorem Table.Copy.like {fresh : Nat → Prop} {t t' : Table K V Ty} (h : t.Copy fresh t') (hd : ∀ k, t.dflt k = t.first k)
    (hs : ∀ r, t.row r → ∀ b k, t.seen b k r ↔ k ∈ t.keys) : ∃ m, t.Like m t' ∧ ∀ r, t.row r → fresh (m r) := by
  obtain ⟨_, m, h1, h2, h3, h4, h5, h6, h7, h8, h9, h10, h11⟩ := h
  refine ⟨m, ⟨h3, fun k => by rw [h4], fun k => by rw [h5], fun k => by rw [h6, hd], h2, h8, h9, fun r hr b k => ?_⟩, h1⟩
  rw [h11, hs r hr, h8]
  exact ⟨fun x => x.1, fun x => ⟨x, r, hr, rfl⟩⟩

/-- Alike in one direction is alike in the other. -/
theorem Table.Like.symm {m : Nat → Nat} {t t' : Table K V Ty} (h : t.Like m t') : ∃ n, t'.Like n t ∧ ∀ r, t.row r → n (m r) = r := by
  have hex : ∀ r', ∃ r, t'.row r' → t.row r ∧ r' = m r := by
    intro r'
    by_cases hr : t'.row r'
    · obtain ⟨r, hh⟩ := (h.row r').mp hr; exact ⟨r, fun _ => hh⟩
    · exact ⟨0, fun hh => absurd hh hr⟩
  obtain ⟨n, hn⟩ := Classical.axiomOfChoice hex
  have hnm : ∀ r, t.row r → n (m r) = r := fun r hr => by
    obtain ⟨x, y⟩ := hn (m r) (h.rowm hr)
    exact (h.inj r _ hr x y).symm
  refine ⟨n, ⟨h.keys.symm, fun k => (h.uniq k).symm, fun k => (h.ty k).symm, fun k => (h.dflt k).symm, ?_, ?_, ?_, ?_⟩, hnm⟩
  · intro r s hr hs e
    rw [(hn r hr).2, (hn s hs).2, e]
  · intro r
    constructor
    · intro hr; exact ⟨m r, h.rowm hr, (hnm r hr).symm⟩
    · rintro ⟨r', hr', rfl⟩; exact (hn r' hr').1
  · intro r' hr' k
    obtain ⟨x, y⟩ := hn r' hr'
    have := h.cell _ x k
    rw [← y] at this; exact this.symm
  · intro r' hr' b k
    obtain ⟨x, y⟩ := hn r' hr'
    have := h.seen _ x b k
    rw [← y] at this; exact this.symm

end MVault.Spec
