import Verif.TableFacts
/-
Laws of the tables of TableSpec.lean: what two calls in a row do. No code is modelled here.
-/
set_option linter.unusedSectionVars false
set_option linter.unusedSimpArgs false
set_option linter.unusedVariables false
namespace MVault.Spec.Table
open MVault.W (Res Code Answer Typed typeOf zero castTo lastParam)
open Classical
variable {K V Ty : Type} [LinearOrder K] [LinearOrder V] [Typed V Ty] [DecidableEq Ty] {t t' : Table K V Ty}

/-- Removing a key that was just added undoes the addition. -/
theorem addKey_removeKey (h : t.Sane) {k : K} {u : Bool} {ty : Ty} {d : V} {val : Nat → V} (hk : k ∉ t.keys) :
    (t.addKey k u ty d val).removeKey k = t := by
  have hu : ¬ t.uniq k := fun f => hk (h.uniq k f)
  ext1
  · simp only [Table.addKey, Table.removeKey]
    rw [List.erase_append_right _ hk]; simp
  · funext k'; simp only [Table.addKey, Table.removeKey]
    by_cases e : k' = k
    · simp [e, hu]
    · simp [e]
  · funext k'; simp only [Table.addKey, Table.removeKey]
    by_cases e : k' = k
    · simp [e, h.ty_none hk]
    · simp [e]
  · funext k'; simp only [Table.addKey, Table.removeKey]
    by_cases e : k' = k
    · simp [e, h.dflt' k hk]
    · simp [e]
  · funext k'; simp only [Table.addKey, Table.removeKey]
    by_cases e : k' = k
    · simp [e, h.first' k (.inl hk)]
    · simp [e]
  · rfl
  · funext r k'; simp only [Table.addKey, Table.removeKey]
    by_cases e : k' = k
    · simp [e, h.cell' r k (.inr hk)]
    · simp [e]
  · funext b k' r; simp only [Table.addKey, Table.removeKey]
    by_cases e : k' = k
    · subst e; simp; exact fun f => hk (h.seen b _ r f).2
    · simp [e]

/-- The value written last counts. -/
theorem setCell_twice_cell (t : Table K V Ty) (r : Nat) (k : K) (v v' : V) : ((t.setCell r k v).setCell r k v').cell = (t.setCell r k v').cell := by
  funext r' k'; simp only [Table.setCell]; split <;> rfl

/-- Two writes to one cell are as good as the second one, if no other row holds the value that was there in between. -/
theorem setCell_twice (h : t.Sane) {r : Nat} {k : K} {v v' : V} (hv : ∀ r', r' ≠ r → t.row r' → t.cell r' k ≠ some v) :
    (t.setCell r k v).setCell r k v' = t.setCell r k v' := by
  ext1 <;> try rfl
  · exact setCell_twice_cell t r k v v'
  · funext b k' r'
    simp only [Table.setCell]
    by_cases e : k' = k
    · simp only [e, if_true, true_or, and_true, true_and, if_true, eq_iff_iff]
      by_cases e2 : r' = r
      · simp [e2]
      · simp only [e2, false_or, if_false]
        constructor
        · exact fun f => f.1
        · intro f; exact ⟨f, hv r' e2 (h.seen b k r' f.1).1⟩
    · simp [e]

/-- Writing the old value back restores all values. -/
theorem setCell_back (t : Table K V Ty) {r : Nat} {k : K} {v v0 : V} (h : t.cell r k = some v0) : ((t.setCell r k v).setCell r k v0).cell = t.cell := by
  funext r' k'
  simp only [Table.setCell]
  by_cases e : r' = r ∧ k' = k
  · simp only [e, and_self, if_true]; exact h.symm
  · simp only [e, if_false]

/-- Writes to different keys commute. -/
theorem setCell_comm (t : Table K V Ty) {r r' : Nat} {k k' : K} {v v' : V} (hk : k ≠ k') :
    (t.setCell r k v).setCell r' k' v' = (t.setCell r' k' v').setCell r k v := by
  ext1 <;> try rfl
  · funext r1 k1; simp only [Table.setCell]
    by_cases e : r1 = r ∧ k1 = k
    · simp [e, hk]
    · simp only [e, if_false]
  · funext b k1 r1; simp only [Table.setCell]
    by_cases e : k1 = k
    · simp [e, hk, Ne.symm hk]
    · by_cases e' : k1 = k'
      · simp [e, e', hk, Ne.symm hk]
      · simp [e, e']

/-- Writes to different rows commute as far as values are concerned. -/
theorem setCell_comm_cell (t : Table K V Ty) {r r' : Nat} {k k' : K} {v v' : V} (hr : r ≠ r') :
    ((t.setCell r k v).setCell r' k' v').cell = ((t.setCell r' k' v').setCell r k v).cell := by
  funext r1 k1; simp only [Table.setCell]
  by_cases e : r1 = r ∧ k1 = k
  · simp [e, hr]
  · simp only [e, if_false]

/-- Erasing a row that was just created: everything is as before, but range requests and sorting lose the rows that share a value with it. -/
theorem addRow_erase (h : t.Sane) {r : Nat} {ps : List (K × V)} (hr : ¬ t.row r) :
    (t.addRow r ps).erase (fun r' => r' = r) = { t with seen := fun b k r' => t.seen b k r' ∧ (b = true → t.cell r' k ≠ t.newValue ps k) } := by
  ext1 <;> try rfl
  · funext r'; simp only [Table.addRow, Table.erase, eq_iff_iff]
    constructor
    · rintro ⟨h1 | h1, h2⟩
      · exact h1
      · exact absurd h1 h2
    · intro h1; exact ⟨.inl h1, fun e => hr (e ▸ h1)⟩
  · funext r' k; simp only [Table.addRow, Table.erase]
    by_cases e : r' = r
    · simp only [e, if_true]; exact (h.cell' r k (.inl hr)).symm
    · simp only [e, if_false]
  · funext b k r'; simp only [Table.addRow, Table.erase, eq_iff_iff]
    constructor
    · rintro ⟨h1, h2, h3⟩
      have h2 := h2.resolve_right fun f => h1 f.1
      refine ⟨h2, fun hb f => h3 hb r rfl ?_ (.inr ⟨rfl, (h.seen b k r' h2).2⟩)⟩
      simp only [h1, if_false, if_true]; exact f.symm
    · rintro ⟨h1, h2⟩
      have hn : r' ≠ r := fun e => hr (e ▸ (h.seen b k r' h1).1)
      refine ⟨hn, .inl h1, fun hb r0 e0 e _ => h2 hb ?_⟩
      subst e0
      simpa only [if_true, hn, if_false, eq_comm] using e.symm

/-- Erasing in two goes is erasing in one. -/
theorem erase_erase (t : Table K V Ty) (l l' : Nat → Prop) : (t.erase l).erase l' = t.erase (fun r => l r ∨ l' r) := by
  ext1 <;> try rfl
  · funext r; simp only [Table.erase, eq_iff_iff, not_or, and_assoc]
  · funext r k; simp only [Table.erase]
    by_cases e : l r
    · simp [e]
    · by_cases e' : l' r <;> simp [e, e']
  · funext b k r; simp only [Table.erase, eq_iff_iff, not_or]
    constructor
    · rintro ⟨h1, ⟨h2, h3, h4⟩, h5⟩
      refine ⟨⟨h2, h1⟩, h3, fun hb r0 h0 he hs => ?_⟩
      rcases h0 with h0 | h0
      · exact h4 hb r0 h0 he hs
      · by_cases hl : l r0
        · exact h4 hb r0 hl he hs
        · refine h5 hb r0 h0 (by simp only [hl, h2, if_false]; exact he) ⟨hl, hs, fun _ r1 h6 h7 h8 => ?_⟩
          exact h4 hb r1 h6 (h7.trans he) h8
    · rintro ⟨⟨h1, h2⟩, h3, h4⟩
      refine ⟨h2, ⟨h1, h3, fun hb r0 h0 => h4 hb r0 (.inl h0)⟩, fun hb r0 h0 he hs => ?_⟩
      have hl := hs.1
      simp only [hl, h1, if_false] at he
      exact h4 hb r0 (.inr h0) he hs.2.1

/-- The order of erasing does not matter. -/
theorem erase_comm (t : Table K V Ty) (l l' : Nat → Prop) : (t.erase l).erase l' = (t.erase l').erase l := by
  rw [erase_erase, erase_erase]
  congr 1; funext r; exact propext Or.comm

/-! ### Answers and tables are functions of table and call -/

/-- The calls that choose: which identity a new row gets, which of several matching rows are erased, in which order rows are visited. -/
def _root_.MVault.Spec.Cmd.chooses : Cmd K V Ty → Prop
  | .addUniqueKey .. | .create _ | .eraseOne .. | .eraseMany .. => True
  | _ => False

/-- The answer of a call does not depend on any choice, except for `AddKey` of a unique key (whose function may count). -/
theorem Step.answer {fresh fresh' : Nat → Prop} {t1 t2 : Table K V Ty} {c : Cmd K V Ty} {a1 a2 : Answer K} (h1 : t.Step fresh c a1 t1) (h2 : t.Step fresh' c a2 t2)
    (hc : ∀ k ty n f, c = .addUniqueKey k ty n f → ∀ i j r, f i r = f j r) : a1 = a2 := by
  cases c with
  | addKey k d => rcases h1 with ⟨a, rfl, _⟩ | ⟨a, rfl, _⟩ <;> rcases h2 with ⟨b, rfl, _⟩ | ⟨b, rfl, _⟩ <;> first | rfl | exact absurd a b | exact absurd b a
  | addUniqueKey k ty n f =>
    obtain ⟨f0, rfl⟩ : ∃ f0 : Nat → V, f = fun _ r => f0 r := ⟨f 0, funext fun i => funext fun r => hc k ty n f rfl i 0 r⟩
    rcases h1 with ⟨a, rfl, _⟩ | ⟨a, a', a'', rfl, _⟩ | ⟨a, a', o1, _, _, ⟨r, r', g1, g2, g3, g4, rfl, _⟩ | ⟨g, rfl, _⟩⟩ <;>
      rcases h2 with ⟨b, rfl, _⟩ | ⟨b, b', b'', rfl, _⟩ | ⟨b, b', o2, _, _, ⟨q, q', e1, e2, e3, e4, rfl, _⟩ | ⟨e, rfl, _⟩⟩ <;> try rfl
    all_goals first
      | exact absurd ‹k ∈ t.keys› ‹k ∉ t.keys›
      | exact absurd a''.choose_spec (b' a' _)
      | exact absurd b''.choose_spec (a' b' _)
      | exact absurd g4 (e r r' g1 g2 g3)
      | exact absurd e4 (g q q' e1 e2 e3)
  | updateKey k d =>
    simp only [Table.Step] at h1 h2
    split at h1
    · rename_i c e; rw [e] at h2; rw [h1.1, h2.1]
    · rename_i e; rw [e] at h2
      rcases h1 with ⟨a, rfl, _⟩ | ⟨a, rfl, _⟩ <;> rcases h2 with ⟨b, rfl, _⟩ | ⟨b, rfl, _⟩ <;> first | rfl | exact absurd a b | exact absurd b a
  | removeKey k => rcases h1 with ⟨a, rfl, _⟩ | ⟨a, rfl, _⟩ <;> rcases h2 with ⟨b, rfl, _⟩ | ⟨b, rfl, _⟩ <;> first | rfl | exact absurd a b | exact absurd b a
  | create ps =>
    simp only [Table.Step] at h1 h2
    split at h1
    · rename_i c e; rw [e] at h2; rw [h1.1, h2.1]
    · rename_i e; rw [e] at h2
      rcases h1 with ⟨k1, a1, a2, a3, rfl, _⟩ | ⟨a, _, _, rfl, _⟩ <;> rcases h2 with ⟨k2, b1, b2, b3, rfl, _⟩ | ⟨b, _, _, rfl, _⟩
      · rcases lt_trichotomy k1 k2 with hlt | rfl | hlt
        · exact absurd a2 (b3 k1 a1 hlt)
        · rfl
        · exact absurd b2 (a3 k2 b1 hlt)
      · exact absurd a2 (b k1 a1)
      · exact absurd b2 (a k2 b1)
      · rfl
  | set r k v => rw [h1.1, h2.1]
  | setMany r ps => rw [h1.1, h2.1]
  | find k v =>
    obtain ⟨_, h1⟩ := h1; obtain ⟨_, h2⟩ := h2
    split at h1
    · rename_i c e; rw [e] at h2; rw [h1, h2]
    · rename_i e; rw [e] at h2
      rcases h1 with ⟨a, rfl⟩ | ⟨a, rfl⟩ <;> rcases h2 with ⟨b, rfl⟩ | ⟨b, rfl⟩ <;> first | rfl | exact absurd a b | exact absurd b a
  | eraseRow r =>
    rcases h1 with ⟨r1, rfl, a, rfl, _⟩ | ⟨a, rfl, _⟩ <;> rcases h2 with ⟨r2, b', b, rfl, _⟩ | ⟨b, rfl, _⟩
    · rfl
    · exact absurd a (b r1 rfl)
    · exact absurd b (a r2 b')
    · rfl
  | eraseOne k v =>
    simp only [Table.Step] at h1 h2
    split at h1
    · rename_i c e; rw [e] at h2; rw [h1.1, h2.1]
    · rename_i e; rw [e] at h2
      rcases h1 with ⟨r, a, rfl, _⟩ | ⟨a, rfl, _⟩ <;> rcases h2 with ⟨r', b, rfl, _⟩ | ⟨b, rfl, _⟩
      · rfl
      · exact absurd ⟨r, a⟩ b
      · exact absurd ⟨r', b⟩ a
      · rfl
  | eraseMany k v n =>
    simp only [Table.Step] at h1 h2
    split at h1
    · rename_i c e; rw [e] at h2; rw [h1.1, h2.1]
    · rename_i e; rw [e] at h2
      rcases h1 with ⟨l, hl, _, a, _, _, rfl, _⟩ | ⟨a, rfl, _⟩ <;> rcases h2 with ⟨l', hl', _, b, _, _, rfl, _⟩ | ⟨b, rfl, _⟩
      · rfl
      · obtain ⟨r, hr⟩ := List.exists_mem_of_ne_nil l hl; exact absurd ⟨r, a r hr⟩ b
      · obtain ⟨r, hr⟩ := List.exists_mem_of_ne_nil l' hl'; exact absurd ⟨r, b r hr⟩ a
      · rfl
  | dropData => rw [h1.1, h2.1]
  | dropVault => rw [h1.1, h2.1]

/-- Apart from the calls that choose, the table afterwards is determined. -/
theorem Step.table {fresh fresh' : Nat → Prop} {t1 t2 : Table K V Ty} {c : Cmd K V Ty} {a1 a2 : Answer K} (h1 : t.Step fresh c a1 t1) (h2 : t.Step fresh' c a2 t2)
    (hc : ¬ c.chooses) : t1 = t2 := by
  cases c with
  | addKey k d => rcases h1 with ⟨a, _, rfl⟩ | ⟨a, _, rfl⟩ <;> rcases h2 with ⟨b, _, rfl⟩ | ⟨b, _, rfl⟩ <;> first | rfl | exact absurd a b | exact absurd b a
  | addUniqueKey k ty n f => exact absurd trivial hc
  | updateKey k d =>
    simp only [Table.Step] at h1 h2
    split at h1
    · rename_i c e; rw [e] at h2; rw [h1.2, h2.2]
    · rename_i e; rw [e] at h2
      rcases h1 with ⟨a, _, rfl⟩ | ⟨a, _, rfl⟩ <;> rcases h2 with ⟨b, _, rfl⟩ | ⟨b, _, rfl⟩ <;> first | rfl | exact absurd a b | exact absurd b a
  | removeKey k => rcases h1 with ⟨a, _, rfl⟩ | ⟨a, _, rfl⟩ <;> rcases h2 with ⟨b, _, rfl⟩ | ⟨b, _, rfl⟩ <;> first | rfl | exact absurd a b | exact absurd b a
  | create ps => exact absurd trivial hc
  | set r k v => rw [h1.2, h2.2]
  | setMany r ps => rw [h1.2, h2.2]
  | find k v => rw [h1.1, h2.1]
  | eraseRow r =>
    rcases h1 with ⟨r1, rfl, a, _, rfl⟩ | ⟨a, _, rfl⟩ <;> rcases h2 with ⟨r2, b', b, _, rfl⟩ | ⟨b, _, rfl⟩
    · cases b'; rfl
    · exact absurd a (b r1 rfl)
    · exact absurd b (a r2 b')
    · rfl
  | eraseOne k v => exact absurd trivial hc
  | eraseMany k v n => exact absurd trivial hc
  | dropData => rw [h1.2, h2.2]
  | dropVault => rw [h1.2, h2.2]

end MVault.Spec.Table
