import Verif.ParamModel
import Verif.PropsVault
/-
C113: a parameter stands for the value its variable held when it was put into the list.
-/
set_option linter.unusedSectionVars false
set_option linter.unusedVariables false
set_option linter.unusedSimpArgs false
namespace MVault.W
variable {K V Ty : Type} [LinearOrder K] [LinearOrder V] [Typed V Ty] [DecidableEq Ty]

/-! ### Specification: a list of parameters is a list of keys and values. -/

/-- One statement of a program whose parameter lists are plain lists of keys and values. Specification, models no code. -/
def PState.stepV (env : Env) (s : PState V K V Ty) : PStmt K V → Option (PState V K V Ty)
  | .assign x v => some { s with vars := fun y => if y = x then v else s.vars y }
  | .push l k x => some { s with lists := fun m => if m = l then s.lists l ++ [(k, s.vars x)] else s.lists m }
  | .clear l => some { s with lists := fun m => if m = l then [] else s.lists m }
  | .copy l l' => some { s with lists := fun m => if m = l' then s.lists l else s.lists m }
  | .create o f l => (createRecord s.w o f (s.lists l)).map fun r => { s with w := r.1, out := s.out ++ [r.2] }
  | .createRow o l => (W.createRow s.w o (s.lists l)).map fun r => { s with w := r.1, out := s.out ++ [r.2] }
  | .setMany f l => (refSetDataMany env s.w f (s.lists l)).map fun r => { s with w := r.1, out := s.out ++ [r.2] }

/-- The whole program with plain lists. Specification, models no code. -/
def PState.runV (env : Env) : List (PStmt K V) → PState V K V Ty → Option (PState V K V Ty)
  | [], s => some s
  | c :: p, s => (s.stepV env c).bind (PState.runV env p)

/-- A program that has not put anything into a list yet. Specification, models no code. -/
def PState.start (P : Type) (σ : Vars V) (w : World K V Ty) : PState P K V Ty := ⟨σ, fun _ => [], w, []⟩

/-! ### Proofs -/

/-- The parameter that a value makes. -/
def PInput.ofVal (v : V) : PInput K V Ty := .ofVar (fun _ => v) 0

theorem ofVar_eq (σ : Vars V) (x : Nat) : (PInput.ofVar σ x : PInput K V Ty) = .ofVal (σ x) := rfl

/-- A list of pairs with the values made parameters. -/
def inputs (l : List (K × V)) : List (K × PInput K V Ty) := l.map fun e => (e.1, .ofVal e.2)

theorem inputs_getLast (l : List (K × V)) : ((inputs l : List (K × PInput K V Ty)).getLast?.map (·.1)) = l.getLast?.map (·.1) := by
  simp [inputs, List.getLast?_map, Function.comp_def]

theorem applyInputs_eq (σ : Vars V) (vo : Obj K V Ty) (l : List (K × V)) (data : List (K × V)) :
    applyInputs (Ty := Ty) σ (inputs l) data = applyParams vo l data := by
  induction l generalizing data with
  | nil => rfl
  | cons e l ih =>
    obtain ⟨k, v⟩ := e
    show applyInputs σ ((k, PInput.ofVal v) :: inputs l) data = _
    simp only [applyInputs, applyParams]
    cases h : mget data k with
    | none => rfl
    | some v0 =>
      show (if typeOf v0 = typeOf v then applyInputs σ (inputs l) (mput data k v) else _) = (if typeOf v0 = typeOf v then _ else _)
      rw [ih]

theorem createRecordIn_eq (σ : Vars V) (w : World K V Ty) (o f : Nat) (l : List (K × V)) :
    createRecordIn σ w o f (inputs l) = createRecord w o f l := by
  simp only [createRecordIn, createRecord]
  cases w.getObj o with
  | none => rfl
  | some vo => simp only [Option.bind_eq_bind, Option.bind_some, applyInputs_eq σ vo, inputs_getLast]; rfl

theorem createRowIn_eq (σ : Vars V) (w : World K V Ty) (o : Nat) (l : List (K × V)) :
    createRowIn σ w o (inputs l) = createRow w o l := by
  simp only [createRowIn, createRow]
  cases w.getObj o with
  | none => rfl
  | some vo => simp only [Option.bind_eq_bind, Option.bind_some, applyInputs_eq σ vo, inputs_getLast]; rfl

theorem setInputsLoop_eq (σ : Vars V) (env : Env) (f : Nat) (l : List (K × V)) (w : World K V Ty) (r : Res K) :
    setInputsLoop σ env f (inputs l) w r = refSetDataLoop env f l w r := by
  induction l generalizing w r with
  | nil => rfl
  | cons e l ih =>
    obtain ⟨k, v⟩ := e
    simp only [inputs, List.map_cons, setInputsLoop, refSetDataLoop, PInput.setDataToRef, PInput.ofVal, PInput.ofVar, Option.bind_eq_bind]
    cases refSetData env w f k v with
    | none => rfl
    | some x => simp only [Option.bind_some]; split; rfl; exact ih _ _

theorem setInputs_eq (σ : Vars V) (env : Env) (w : World K V Ty) (f : Nat) (l : List (K × V)) :
    setInputs σ env w f (inputs l) = refSetDataMany env w f l := by
  simp only [setInputs, refSetDataMany, setInputsLoop_eq]

/-- The program with plain lists, seen as one with parameters. -/
def PState.emb (s : PState V K V Ty) : PState (PInput K V Ty) K V Ty := ⟨s.vars, fun l => inputs (s.lists l), s.w, s.out⟩

theorem step_emb (env : Env) (s : PState V K V Ty) (c : PStmt K V) : s.emb.step env c = (s.stepV env c).map PState.emb := by
  cases c with
  | assign x v => rfl
  | push l k x =>
    simp only [PState.step, PState.stepV, PState.emb, Option.map_some, Option.some.injEq, PState.mk.injEq, true_and, and_true]
    funext m; split <;> simp [inputs, ofVar_eq]
  | clear l =>
    simp only [PState.step, PState.stepV, PState.emb, Option.map_some, Option.some.injEq, PState.mk.injEq, true_and, and_true]
    funext m; split <;> simp [inputs]
  | copy l l' =>
    simp only [PState.step, PState.stepV, PState.emb, Option.map_some, Option.some.injEq, PState.mk.injEq, true_and, and_true]
    funext m; split <;> rfl
  | create o f l => simp only [PState.step, PState.stepV, PState.emb, createRecordIn_eq, Option.map_map]; rfl
  | createRow o l => simp only [PState.step, PState.stepV, PState.emb, createRowIn_eq, Option.map_map]; rfl
  | setMany f l => simp only [PState.step, PState.stepV, PState.emb, setInputs_eq, Option.map_map]; rfl

theorem run_emb (env : Env) (p : List (PStmt K V)) (s : PState V K V Ty) : s.emb.run env p = (s.runV env p).map PState.emb := by
  induction p generalizing s with
  | nil => rfl
  | cons c p ih =>
    simp only [PState.run, PState.runV, step_emb]
    cases s.stepV env c with
    | none => rfl
    | some s1 => simpa using ih s1

theorem run_append (env : Env) (p q : List (PStmt K V)) (s : PState (PInput K V Ty) K V Ty) : s.run env (p ++ q) = (s.run env p).bind (PState.run env q) := by
  induction p generalizing s with
  | nil => rfl
  | cons c p ih =>
    simp only [List.cons_append, PState.run]
    cases s.step env c with
    | none => rfl
    | some s1 => simpa using ih s1

theorem start_emb (σ : Vars V) (w : World K V Ty) : (PState.start V σ w).emb = PState.start (PInput K V Ty) σ w := rfl

/-! ### C113 -/

/-- A program that uses parameters ends as the program that uses the values: same calls defined, same results, same vault, and its lists have the same
keys, with the types of the values. -/
theorem C113_by_value (env : Env) (p : List (PStmt K V)) (σ : Vars V) (w : World K V Ty) :
    ((PState.start (PInput K V Ty) σ w).run env p = none ↔ (PState.start V σ w).runV env p = none) ∧
    ∀ s, (PState.start (PInput K V Ty) σ w).run env p = some s → ∃ t, (PState.start V σ w).runV env p = some t ∧ s.w = t.w ∧ s.out = t.out ∧ s.vars = t.vars ∧
      ∀ l, (s.lists l).map (fun e => (e.1, e.2.getDataType)) = (t.lists l).map (fun e => (e.1, typeOf e.2)) := by
  rw [← start_emb, run_emb]
  constructor
  · simp
  · intro s h
    obtain ⟨t, ht, rfl⟩ := Option.map_eq_some_iff.mp h
    exact ⟨t, ht, rfl, rfl, rfl, fun l => by simp [PState.emb, inputs, PInput.getDataType, PInput.ofVal, PInput.ofVar, Function.comp_def]⟩

/-- What the variables of the program hold at the time of a call makes no difference to it: the call ends the same whatever was assigned to them since
the parameters were put into the list. -/
theorem C113_later_assignments (env : Env) (p : List (PStmt K V)) (σ σ' : Vars V) (w : World K V Ty) (s : PState (PInput K V Ty) K V Ty)
    (h : (PState.start (PInput K V Ty) σ w).run env p = some s) (o f l : Nat) :
    createRecordIn σ' s.w o f (s.lists l) = createRecordIn s.vars s.w o f (s.lists l) ∧
    createRowIn σ' s.w o (s.lists l) = createRowIn s.vars s.w o (s.lists l) ∧
    setInputs σ' env s.w f (s.lists l) = setInputs s.vars env s.w f (s.lists l) := by
  rw [← start_emb, run_emb] at h
  obtain ⟨t, ht, rfl⟩ := Option.map_eq_some_iff.mp h
  simp only [PState.emb, createRecordIn_eq, createRowIn_eq, setInputs_eq, and_self]

/-- The same said of programs: an assignment just before a call can be left out. -/
theorem C113_assignment_before_call (env : Env) (p : List (PStmt K V)) (σ : Vars V) (w : World K V Ty) (x : Nat) (v : V) (c : PStmt K V)
    (hc : (∃ o f l, c = .create o f l) ∨ (∃ o l, c = .createRow o l) ∨ (∃ f l, c = .setMany f l)) :
    ((PState.start (PInput K V Ty) σ w).run env (p ++ [.assign x v, c])).map (fun s => (s.w, s.out)) =
    ((PState.start (PInput K V Ty) σ w).run env (p ++ [c])).map (fun s => (s.w, s.out)) := by
  rw [run_append, run_append]
  cases h : (PState.start (PInput K V Ty) σ w).run env p with
  | none => rfl
  | some s =>
    have H := fun o f l => C113_later_assignments env p σ (fun y => if y = x then v else s.vars y) w s h o f l
    rcases hc with ⟨o, f, l, rfl⟩ | ⟨o, l, rfl⟩ | ⟨f, l, rfl⟩
    · simp only [Option.bind_some, PState.run, PState.step, (H o f l).1]
      cases createRecordIn s.vars s.w o f (s.lists l) <;> rfl
    · simp only [Option.bind_some, PState.run, PState.step, (H o 0 l).2.1]
      cases createRowIn s.vars s.w o (s.lists l) <;> rfl
    · simp only [Option.bind_some, PState.run, PState.step, (H 0 f l).2.2]
      cases setInputs s.vars env s.w f (s.lists l) <;> rfl

/-- A program: a parameter is made of a variable that holds 77, the variable gets 5, the record is created, with 77; then a copied list changes it to 6,
although the list it was copied from has been emptied and the variable assigned again; a last call fails, its value being taken. -/
def paramProg : List (PStmt Nat Nat) :=
  [.assign 0 77, .push 0 1 0, .assign 0 9, .push 0 2 0, .assign 0 5, .create 0 0 0, .assign 0 6, .push 1 1 0, .copy 1 2, .clear 1, .assign 0 60, .setMany 0 2, .createRow 0 0]

example : ∃ s, (PState.start (PInput Nat Nat Bool) (fun _ => 0) demoW).run Env.id paramProg = some s ∧
    s.out = [.good (some 2), .good (some 1), .bad .UniqueKeyValueAlredyInSet (some 2)] ∧ members s.w 0 = [0, 1, 2] ∧ value s.w 2 1 = some 6 ∧ value s.w 2 2 = some 9 :=
  ⟨_, rfl, rfl, by decide, by decide, by decide⟩

/-- The same program stopped after the creation: the record has 77 under key 1. -/
example : ∃ s, (PState.start (PInput Nat Nat Bool) (fun _ => 0) demoW).run Env.id (paramProg.take 6) = some s ∧ value s.w 2 1 = some 77 ∧ s.vars 0 = 5 :=
  ⟨_, rfl, by decide, by decide⟩

/-- A constructor that captured by reference would make the difference the theorems exclude: with it the record gets what the variable holds at the call. -/
example :
    applyInputs (fun _ => 5) [(1, (⟨false, fun _ _ _ _ _ => none, fun σ k data => mput data k (σ 0)⟩ : PInput Nat Nat Bool))] [(1, 8)] = .ok [(1, 5)] ∧
    applyInputs (fun _ => 77) [(1, (⟨false, fun _ _ _ _ _ => none, fun σ k data => mput data k (σ 0)⟩ : PInput Nat Nat Bool))] [(1, 8)] = .ok [(1, 77)] :=
  ⟨rfl, rfl⟩

end MVault.W
