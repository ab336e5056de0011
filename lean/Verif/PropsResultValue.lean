import Verif.ResultModel
import Verif.PropsResults
import Verif.PropsTypes
/-! **C108.** Result objects as values: comparison, texts, printed lines. -/
set_option linter.unusedSectionVars false
namespace MVault.W
variable {K V Ty : Type} [LinearOrder K] [LinearOrder V] [Typed V Ty] [DecidableEq Ty]

/-- **C108.** Two result objects compare equal exactly when all five fields are the same. -/
theorem C108_equal_iff (a b : Result Ty) : a.equal b = true ↔
    a.isOperationSuccess = b.isOperationSuccess ∧ a.resultCode = b.resultCode ∧ a.key = b.key ∧
    a.requestedType = b.requestedType ∧ a.savedType = b.savedType := by
  simp [Result.equal, and_assoc]

/-- **C108.** Comparison is an equivalence, and equal results cannot be told apart in any way. -/
theorem C108_equal_is_equality (a b : Result Ty) : a.equal b = true ↔ a = b := by
  rw [C108_equal_iff]
  constructor
  · rintro ⟨h1, h2, h3, h4, h5⟩
    cases a; cases b; simp_all
  · rintro rfl; exact ⟨rfl, rfl, rfl, rfl, rfl⟩

/-- Specification: all codes of the enumeration. -/
def allCodes : List Code := [.OtherParentVaultNotValid, .SameVaultRecordSet, .TryToAddUniqueKeyInNonEmptyVaultWithoutLambda, .DuplicateKey,
  .UniqueKey, .RecordAlredyInSet, .ParentVaultNotMatch, .ParentVaultNotValid, .DataRecordNotValid, .WrongKey, .WrongType, .Idle, .WrongValue,
  .UniqueKeyValueAlredyInSet, .Success]

theorem mem_allCodes (c : Code) : c ∈ allCodes := by cases c <;> decide

theorem texts_apart (c d : Code) (h : c.text.toList <+: d.text.toList) : c = d := by
  have key : ∀ c ∈ allCodes, ∀ d ∈ allCodes, c.text.toList.isPrefixOf d.text.toList = true → c = d := by decide
  exact key c (mem_allCodes c) d (mem_allCodes d) (List.isPrefixOf_iff_prefix.2 h)

/-- **C108.** Every code has a text of its own, never the empty one and never the beginning of another one. -/
theorem C108_texts (c d : Code) : (c.text.toList <+: d.text.toList ↔ c = d) ∧ (c.text = d.text ↔ c = d) ∧ c.text ≠ "" := by
  refine ⟨⟨texts_apart c d, by rintro rfl; exact List.prefix_rfl⟩, ⟨fun h => texts_apart c d (by rw [h]; exact List.prefix_rfl), by rintro rfl; rfl⟩, ?_⟩
  cases c <;> decide

/-- **C108.** The printed line tells whether the operation succeeded and which code it ended with, whatever the key and the names of the
types look like. -/
theorem C108_line_tells (name : Option Ty → List Char) (a b : Result Ty) (h : a.print name = b.print name) :
    a.isOperationSuccess = b.isOperationSuccess ∧ a.resultCode = b.resultCode := by
  have hs : a.isOperationSuccess = b.isOperationSuccess := by
    have h0 := congrArg List.head? h
    simp only [Result.print, List.append_assoc] at h0
    cases ha : a.isOperationSuccess <;> cases hb : b.isOperationSuccess <;> simp [ha, hb] at h0 ⊢
  refine ⟨hs, ?_⟩
  simp only [Result.print, hs, List.append_assoc] at h
  have h1 := List.append_cancel_left h
  have h2 : a.resultCode.text.toList <+: b.resultCode.text.toList ∨ b.resultCode.text.toList <+: a.resultCode.text.toList :=
    List.prefix_or_prefix_of_prefix (List.prefix_append _ _) (by rw [h1]; exact List.prefix_append _ _)
  rcases h2 with h2 | h2
  · exact texts_apart _ _ h2
  · exact (texts_apart _ _ h2).symm

/-- **C108.** The printed line ends with the key, then the type of the stored value, then the type that was asked for, each under its own label. -/
theorem C108_line_end (name : Option Ty → List Char) (a : Result Ty) :
    (" Key: ".toList ++ a.key ++ " Saved type: ".toList ++ name a.savedType ++ " Requested type: ".toList ++ name a.requestedType ++ ['\n']) <:+ a.print name := by
  simp only [Result.print, List.append_assoc]
  exact ⟨(if a.isOperationSuccess then "Success! ".toList else "Failed! ".toList) ++ a.resultCode.text.toList, by simp only [List.append_assoc]⟩

theorem split_space : ∀ {x y r s : List Char}, ' ' ∉ x → ' ' ∉ y → x ++ ' ' :: r = y ++ ' ' :: s → x = y ∧ r = s
  | [], [], r, s, _, _, h => by simpa using h
  | [], c :: y, r, s, _, hy, h => by
    simp only [List.nil_append, List.cons_append, List.cons.injEq] at h
    exact absurd (h.1 ▸ List.mem_cons_self ..) hy
  | c :: x, [], r, s, hx, _, h => by
    simp only [List.nil_append, List.cons_append, List.cons.injEq] at h
    exact absurd (h.1 ▸ List.mem_cons_self ..) hx
  | c :: x, d :: y, r, s, hx, hy, h => by
    simp only [List.cons_append, List.cons.injEq] at h
    obtain ⟨e1, e2⟩ := split_space (fun hm => hx (List.mem_cons_of_mem _ hm)) (fun hm => hy (List.mem_cons_of_mem _ hm)) h.2
    exact ⟨by rw [h.1, e1], e2⟩

/-- **C108.** For keys without spaces (and type names without spaces, different for different types) the printed line tells everything: two results that print alike are equal. -/
theorem C108_line_tells_all (name : Option Ty → List Char) (hn : ∀ t u, name t = name u → t = u) (hsp : ∀ t, ' ' ∉ name t) (a b : Result Ty)
    (ha : ' ' ∉ a.key) (hb : ' ' ∉ b.key) (h : a.print name = b.print name) : a = b := by
  obtain ⟨h1, h2⟩ := C108_line_tells name a b h
  simp only [Result.print, h1, h2, List.append_assoc] at h
  have h := List.append_cancel_left (List.append_cancel_left (List.append_cancel_left h))
  rw [show " Saved type: ".toList = ' ' :: "Saved type: ".toList from rfl, show " Requested type: ".toList = ' ' :: "Requested type: ".toList from rfl] at h
  simp only [List.cons_append] at h
  obtain ⟨e1, h⟩ := split_space ha hb h
  have h := List.append_cancel_left h
  obtain ⟨e2, h⟩ := split_space (hsp _) (hsp _) h
  have e3 := List.append_cancel_right (List.append_cancel_left h)
  exact (C108_equal_is_equality a b).1 ((C108_equal_iff a b).2 ⟨h1, h2, e1, hn _ _ e3, hn _ _ e2⟩)

/-- **C108.** The result object a call returns carries the flag, the code and the types of the answer, the key if the call wrote one and the empty key otherwise. -/
theorem C108_fields (txt : K → List Char) (r : Res K) (t : Types Ty) :
    (Result.of txt r t).isOperationSuccess = r.ok ∧ (Result.of txt r t).resultCode = r.code ∧ (Result.of txt r t).requestedType = t.requested ∧
    (Result.of txt r t).savedType = t.saved ∧ (r.key = none → (Result.of txt r t).key = []) ∧ ∀ k, r.key = some k → (Result.of txt r t).key = txt k := by
  refine ⟨rfl, rfl, rfl, rfl, fun h => by simp [Result.of, h], fun k h => by simp [Result.of, h]⟩

/-- **C108.** A line is one line: a key and type names without line feeds give exactly one, at the end. -/
theorem C108_one_line (name : Option Ty → List Char) (hn : ∀ t, '\n' ∉ name t) (a : Result Ty) (hk : '\n' ∉ a.key) :
    ∃ l, a.print name = l ++ ['\n'] ∧ '\n' ∉ l := by
  refine ⟨_, rfl, ?_⟩
  have ht : ∀ c ∈ allCodes, '\n' ∉ c.text.toList := by decide
  have hc := ht _ (mem_allCodes a.resultCode)
  have h1 : '\n' ∉ "Success! ".toList ∧ '\n' ∉ "Failed! ".toList ∧ '\n' ∉ " Key: ".toList ∧ '\n' ∉ " Saved type: ".toList ∧
      '\n' ∉ " Requested type: ".toList := by decide
  obtain ⟨h1, h2, h3, h4, h5⟩ := h1
  simp only [List.mem_append, not_or]
  refine ⟨⟨⟨⟨⟨⟨⟨?_, hc⟩, h3⟩, hk⟩, h4⟩, hn _⟩, h5⟩, hn _⟩
  split
  · exact h1
  · exact h2

/-- **C108.** What any call on any object answers is printed as a success exactly when its code is `Success` (the exception is `SetData` with no
parameters, C47). -/
theorem C108_printed_answers {env : Env} {w w' : World K V Ty} {op : Op K V Ty} {r : Res K} (h : outcome env w op = some (w', .res r))
    (hop : ∀ f, op ≠ .refSetDataMany f []) (txt : K → List Char) (name : Option Ty → List Char) :
    ("Success! The operation was completed successfully. Key: ".toList <+: (Result.of txt r (typesOf env w op)).print name ↔ r.code = .Success) ∧
    ("Failed! ".toList <+: (Result.of txt r (typesOf env w op)).print name ↔ r.code ≠ .Success) := by
  have hc := C47_results_agree_partial h hop
  cases hr : r.code == .Success
  · have hne : r.code ≠ .Success := by simpa using hr
    have hok : r.ok = false := by
      cases hk : r.ok with
      | false => rfl
      | true => exact absurd (hc.1 hk) hne
    simp only [Result.print, Result.of, hok, hne, List.append_assoc, Bool.false_eq_true, if_false]
    refine ⟨⟨fun hp => ?_, fun hf => hf.elim⟩, ⟨fun _ => by simpa using hne, fun _ => List.prefix_append _ _⟩⟩
    rcases hp with ⟨t, ht⟩
    have := congrArg List.head? ht
    simp at this
  · have heq : r.code = .Success := by simpa using hr
    have hok : r.ok = true := hc.2 heq
    simp only [Result.print, Result.of, hok, heq, if_true]
    refine ⟨⟨fun _ => trivial, fun _ => ?_⟩, ⟨fun hp => ?_, fun hf => absurd rfl hf⟩⟩
    · have e : "Success! ".toList ++ Code.Success.text.toList ++ " Key: ".toList =
          "Success! The operation was completed successfully. Key: ".toList := by decide
      rw [e]
      simp only [List.append_assoc]
      exact List.prefix_append _ _
    · rcases hp with ⟨t, ht⟩
      have := congrArg List.head? ht
      simp at this

example : (⟨true, .Success, "a".toList, some false, none⟩ : Result Bool).equal ⟨true, .Success, "a".toList, some false, none⟩ = true ∧
    (⟨true, .Success, "a".toList, some false, none⟩ : Result Bool).equal ⟨true, .Success, "a".toList, some true, none⟩ = false ∧
    (⟨false, .WrongKey, "a".toList, some false, none⟩ : Result Bool).print (fun t => if t = none then "v".toList else "i".toList) =
      "Failed! The requested key was not found. Key: a Saved type: v Requested type: i\n".toList := by
  refine ⟨by decide, by decide, by decide⟩

example : outcome Env.id demoSet (.getRecord 0 2 50 0) ≠ none ∧
    (Result.of (fun k => [Char.ofNat (48 + k)]) (Res.bad .WrongValue (some 2) : Res Nat) (typesOf Env.id demoSet (.getRecord 0 2 50 0))).print
      (fun t => if t = none then "v".toList else "i".toList) =
      "Failed! A record with this key value was not found. Key: 2 Saved type: i Requested type: i\n".toList := by
  refine ⟨by decide, by decide⟩

/-- A case for `C108_line_tells_all` and `C108_fields`: an answer without a key, and names without spaces. -/
example : (Res.good none : Res Nat).key = none ∧ (∀ t u : Option Bool, (fun t => match t with | none => ['v'] | some true => ['s'] | some false => ['i']) t =
    (fun t => match t with | none => ['v'] | some true => ['s'] | some false => ['i']) u → t = u) := by
  refine ⟨rfl, ?_⟩
  intro t u; cases t <;> cases u <;> (try rename_i b; cases b) <;> (try rename_i c; cases c) <;> simp

end MVault.W
