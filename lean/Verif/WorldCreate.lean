import Verif.WorldAsk
/-
Specification of the parameters of CreateRecord, and the effect of CreateRecord in an arbitrary world.
-/
set_option linter.unusedSectionVars false
set_option linter.unusedSimpArgs false
namespace MVault.W
variable {K V Ty : Type} [LinearOrder K] [LinearOrder V] [Typed V Ty] [DecidableEq Ty]

/-- The last value given for a key (specification). -/
def lastParam (ps : List (K × V)) (k : K) : Option V := ((ps.filter (fun p => decide (p.1 = k))).getLast?).map (·.2)

theorem lastParam_cons (p : K × V) (l : List (K × V)) (k : K) :
    lastParam (p :: l) k = match lastParam l k with | some v => some v | none => if p.1 = k then some p.2 else none := by
  unfold lastParam
  by_cases h : p.1 = k
  · simp only [h, List.filter_cons, decide_true, if_true, List.getLast?_cons]
    cases (l.filter (fun p => decide (p.1 = k))).getLast? <;> simp
  · simp only [h, List.filter_cons, decide_false, Bool.false_eq_true, if_false]
    cases (l.filter (fun p => decide (p.1 = k))).getLast? <;> simp

theorem applyParams_val {vo : Obj K V Ty} {ps data data' : List (K × V)} (h : applyParams vo ps data = .ok data') (k : K) :
    mget data' k = match lastParam ps k with | some v => some v | none => mget data k := by
  induction ps generalizing data with
  | nil => simp only [applyParams, Except.ok.injEq] at h; subst h; simp [lastParam]
  | cons p l ih =>
    obtain ⟨k', v'⟩ := p
    simp only [applyParams] at h
    split at h
    · cases h
    · split at h
      · rw [ih h, lastParam_cons]
        cases hl : lastParam l k with
        | some v => rfl
        | none =>
          simp only [mget_mput]
          by_cases e : k' = k <;> simp [e]
      · cases h

/-- Why one parameter of CreateRecord is refused, if it is (specification). -/
def badParam (w : World K V Ty) (o : Nat) (p : K × V) : Option Code :=
  match getKeyType w o p.1 with
  | none => some .WrongKey
  | some t => if t = typeOf p.2 then none else some .WrongType

theorem applyParams_cases {vo : Obj K V Ty} {data0 : List (K × V)} {ty : K → Option Ty}
    (hty : ∀ k, (mget data0 k).map typeOf = ty k) (ps : List (K × V)) :
    (∃ pre p post, ps = pre ++ p :: post ∧ (∀ q ∈ pre, ty q.1 = some (typeOf q.2)) ∧
      ((ty p.1 = none ∧ applyParams vo ps data0 = .error (.bad .WrongKey (some p.1))) ∨
       (∃ t, ty p.1 = some t ∧ t ≠ typeOf p.2 ∧ applyParams vo ps data0 = .error (.bad .WrongType (some p.1))))) ∨
    ((∀ q ∈ ps, ty q.1 = some (typeOf q.2)) ∧ ∃ data, applyParams vo ps data0 = .ok data) := by
  induction ps generalizing data0 with
  | nil => exact .inr ⟨by simp, data0, rfl⟩
  | cons p l ih =>
    obtain ⟨k, v⟩ := p
    simp only [applyParams]
    cases hk : mget data0 k with
    | none => exact .inl ⟨[], (k, v), l, rfl, by simp, .inl ⟨by rw [← hty, hk]; rfl, rfl⟩⟩
    | some v0 =>
      have ht : ty k = some (typeOf v0) := by rw [← hty, hk]; rfl
      by_cases e : typeOf v0 = typeOf v
      · simp only [e, if_true]
        have hty' : ∀ k', (mget (mput data0 k v) k').map typeOf = ty k' := by
          intro k'
          rw [mget_mput]
          by_cases e' : k = k'
          · subst e'; simp [ht, e]
          · simp [e', hty]
        rcases ih hty' with ⟨pre, p, post, e1, e2, e3⟩ | ⟨e1, e2⟩
        · refine .inl ⟨(k, v) :: pre, p, post, by rw [e1]; rfl, ?_, e3⟩
          intro q hq
          rcases List.mem_cons.mp hq with rfl | hq
          · simp only; rw [ht, e]
          · exact e2 q hq
        · refine .inr ⟨?_, e2⟩
          intro q hq
          rcases List.mem_cons.mp hq with rfl | hq
          · simp only; rw [ht, e]
          · exact e1 q hq
      · simp only [e, if_false]
        exact .inl ⟨[], (k, v), l, rfl, by simp, .inr ⟨typeOf v0, ht, e, rfl⟩⟩

end MVault.W
