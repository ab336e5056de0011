import Verif.TraceModel
/-
C87: diagnostics of debug builds. `says` is the specification: it knows only the function the user called, not the trace.
-/
namespace MVault.Tr

mutual
/-- Specification: the format afterwards, the names printed and whether an exception comes out, when the function the user called last is `outer`. A line
names the function the user called, however deep inside the library it is printed. -/
def Act.says : Act → Option String → Fmt → Fmt × List String × Bool
  | .call name body, outer, f => Act.saysAll body (some (outer.getD name)) f
  | .print, outer, f => (f, if f = .Compact then outer.toList else [], false)
  | .format g, _, _ => (g, [], false)
  | .throw, _, f => (f, [], true)
  | .catching body, outer, f => let (g, l, _) := Act.saysAll body outer f; (g, l, false)
/-- See `Act.says`. -/
def Act.saysAll : List Act → Option String → Fmt → Fmt × List String × Bool
  | [], _, f => (f, [], false)
  | a :: l, outer, f =>
    let (g, x, e) := Act.says a outer f
    if e = true then (g, x, true) else let (h, y, e') := Act.saysAll l outer g; (h, x ++ y, e')
end

mutual
/-- Back traces are printed only inside traced functions, nested less than 1022 deep (`depth` of them around). -/
def Act.Within : Act → Nat → Prop
  | .call _ body, depth => Act.WithinAll body (depth + 1)
  | .print, depth => 0 < depth ∧ depth < 1022
  | .format _, _ => True
  | .throw, _ => True
  | .catching body, depth => Act.WithinAll body depth
/-- See `Act.Within`. -/
def Act.WithinAll : List Act → Nat → Prop
  | [], _ => True
  | a :: l, depth => Act.Within a depth ∧ Act.WithinAll l depth
end

theorem getD_head (l : List String) (n : String) : some (l.head?.getD n) = (l ++ [n]).head? := by cases l <;> rfl

mutual
theorem Act.run_says : ∀ (a : Act) (s : St), a.Within s.trace.length →
    a.run s = some (⟨(a.says s.trace.head? s.fmt).1, s.trace, s.out ++ (a.says s.trace.head? s.fmt).2.1⟩, (a.says s.trace.head? s.fmt).2.2)
  | .call name body, s, h => by
    have ih := Act.runs_says body (enter s name) (by simpa [enter, Act.Within] using h)
    simp only [Act.run]
    rw [ih]
    simp only [Act.says, enter, Option.bind_eq_bind, Option.bind_some, leave, List.getLast?_append, List.getLast?_singleton, Option.some_or, if_true,
      List.dropLast_concat, getD_head]
  | .print, s, h => by
    obtain ⟨f, t, o⟩ := s
    simp only [Act.Within] at h
    cases f with
    | None => simp [Act.run, printTrace, Act.says]
    | Compact =>
      cases t with
      | nil => simp at h
      | cons x l =>
        have : (x :: l).length + 2 < traceMax := by simp only [traceMax]; omega
        simp only [Act.run, printTrace, this, if_true, List.getLast?_append, List.getLast?_singleton, Option.some_or, Option.map_some, Act.says, List.head?_cons,
          Option.toList_some, List.dropLast_concat]
  | .format g, s, _ => by simp [Act.run, Act.says]
  | .throw, s, _ => by simp [Act.run, Act.says]
  | .catching body, s, h => by
    have ih := Act.runs_says body s (by simpa [Act.Within] using h)
    simp [Act.run, ih, Act.says]
theorem Act.runs_says : ∀ (l : List Act) (s : St), Act.WithinAll l s.trace.length →
    Act.runs l s = some (⟨(Act.saysAll l s.trace.head? s.fmt).1, s.trace, s.out ++ (Act.saysAll l s.trace.head? s.fmt).2.1⟩, (Act.saysAll l s.trace.head? s.fmt).2.2)
  | [], s, _ => by simp [Act.runs, Act.saysAll]
  | a :: l, s, h => by
    have ha := Act.run_says a s h.1
    simp only [Act.runs, ha, Option.bind_eq_bind, Option.bind_some, Act.saysAll]
    split
    · rfl
    · have ih := Act.runs_says l ⟨(a.says s.trace.head? s.fmt).1, s.trace, s.out ++ (a.says s.trace.head? s.fmt).2.1⟩ h.2
      rw [ih]
      simp [List.append_assoc]
end

/-- Debug builds: whatever a program does, as long as back traces are printed by library functions nested less than 1022 deep, tracing is defined, every
printed line names the function the user called, and afterwards the trace is empty again: exceptions included. -/
theorem C87_trace (l : List Act) (f : Fmt) (h : Act.WithinAll l 0) :
    Act.runs l ⟨f, [], []⟩ = some (⟨(Act.saysAll l none f).1, [], (Act.saysAll l none f).2.1⟩, (Act.saysAll l none f).2.2) := by
  have := Act.runs_says l ⟨f, [], []⟩ h
  simpa using this

mutual
theorem Act.says_outer : ∀ (a : Act) (n : String) (f : Fmt), ∀ x ∈ (a.says (some n) f).2.1, x = n
  | .call name body, n, f => by simpa [Act.says] using Act.saysAll_outer body n f
  | .print, n, f => by
    intro x hx
    simp only [Act.says] at hx
    split at hx
    · simpa using hx
    · cases hx
  | .format g, n, f => by simp [Act.says]
  | .throw, n, f => by simp [Act.says]
  | .catching body, n, f => by simpa [Act.says] using Act.saysAll_outer body n f
theorem Act.saysAll_outer : ∀ (l : List Act) (n : String) (f : Fmt), ∀ x ∈ (Act.saysAll l (some n) f).2.1, x = n
  | [], n, f => by simp [Act.saysAll]
  | a :: l, n, f => by
    intro x hx
    simp only [Act.saysAll] at hx
    split at hx
    · exact Act.says_outer a n f x hx
    · rcases List.mem_append.mp hx with h | h
      · exact Act.says_outer a n f x h
      · exact Act.saysAll_outer l n _ x h
end

/-- A user calls one function of the library: every back trace printed in the call names this function. -/
theorem C87_names_the_call (name : String) (body : List Act) (f : Fmt) (h : Act.WithinAll body 1) :
    ∃ s e, Act.run (.call name body) ⟨f, [], []⟩ = some (s, e) ∧ s.trace = [] ∧ ∀ x ∈ s.out, x = name := by
  have := Act.run_says (.call name body) ⟨f, [], []⟩ (by simpa [Act.Within] using h)
  refine ⟨_, _, this, rfl, fun x hx => ?_⟩
  simp only [List.nil_append, Act.says, List.head?_nil, Option.getD_none] at hx
  exact Act.saysAll_outer body name f x hx

/-- A failing `GetData` with the wrong type, called from inside a function of the user's: the conditions hold and the line is printed. -/
example : Act.WithinAll [.call "GetData" [.call "IsValid" [], setOpResult], .call "Request" [.catching [.call "Request" [setOpResult, .throw]]]] 0 := by
  simp [Act.WithinAll, Act.Within, setOpResult]

example : Act.runs [.call "GetData" [.call "IsValid" [], setOpResult], .call "Request" [.catching [.call "Request" [setOpResult, .throw]]]] ⟨.Compact, [], []⟩ =
    some (⟨.Compact, [], ["GetData", "Request"]⟩, false) := by decide

/-- `d` functions around an action. -/
def nest : Nat → List Act → List Act
  | 0, l => l
  | d + 1, l => [.call "Request" (nest d l)]

theorem nest_undefined (l : List Act) : ∀ (d : Nat) (s : St), (∀ t, t.trace.length = s.trace.length + d → t.fmt = s.fmt → Act.runs l t = none) →
    Act.runs (nest d l) s = none
  | 0, s, h => h s rfl rfl
  | d + 1, s, h => by
    have := nest_undefined l d (enter s "Request") fun t ht hf => h t (by simp [enter] at ht; omega) hf
    simp [nest, Act.runs, Act.run, this]

/-- The limits are the right ones: printed outside of every function, or inside 1022 or more (a request of so many nested `&&` and `||` with a value of the wrong
type), the trace reads past the end of a vector or an array. -/
theorem C87_limits :
    Act.runs [.print] ⟨.Compact, [], []⟩ = none ∧
    ∀ d, 1021 ≤ d → Act.runs (nest d [setOpResult]) ⟨.Compact, [], []⟩ = none := by
  refine ⟨by decide, fun d hd => nest_undefined _ d _ fun t ht hf => ?_⟩
  have h1 : Act.run (.call "ResultCodeString" []) (enter t "SetOpResult") = some (enter t "SetOpResult", false) := by
    simp [Act.run, Act.runs, leave, enter]
  have h2 : printTrace (enter t "SetOpResult") = none := by
    have h3 : (enter t "SetOpResult").fmt = .Compact := hf
    have h4 : ¬ (enter t "SetOpResult").trace.length + 2 < traceMax := by simp [enter, traceMax, ht] ; omega
    simp [printTrace, h3, h4]
  simp only [Act.runs, setOpResult, Act.run.eq_def (.call "SetOpResult" _), h1, Option.bind_eq_bind, Option.bind_some]
  simp [Act.run, h2]

end MVault.Tr

namespace MVault.W
/-- Every result code has a text of its own. -/
theorem C87_code_texts : (∀ c : Code, c.text ≠ "") ∧ ∀ c d : Code, c.text = d.text → c = d := by
  constructor
  · intro c; cases c <;> decide
  · intro c d; cases c <;> cases d <;> decide
end MVault.W
