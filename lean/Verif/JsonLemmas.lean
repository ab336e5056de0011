import Verif.JsonSpec
import Verif.TextModel
import Verif.PropsFile
/-
Lemmas: the parser of the specification reads the texts the model writes.
-/
set_option linter.unusedSectionVars false
set_option linter.unusedSimpArgs false
namespace MVault.W
open MVault.JsonSpec

/-- Texts that stand for themselves between quotes: no quotes, backslashes or control characters. -/
def Literal (s : List Char) : Prop := ∀ c ∈ s, c ≠ '"' ∧ c ≠ '\\' ∧ 32 ≤ c.toNat

instance (s : List Char) : Decidable (Literal s) := inferInstanceAs (Decidable (∀ c ∈ s, _))

theorem parseString_literal : ∀ (s rest : List Char), Literal s → parseString (s ++ '"' :: rest) = some (s, rest)
  | [], rest, _ => by simp [parseString]
  | c :: s, rest, h => by
    obtain ⟨h1, h2, h3⟩ := h c (by simp)
    have ih := parseString_literal s rest (fun c hc => h c (by simp [hc]))
    rw [List.cons_append, parseString.eq_5]
    · rw [if_neg (by intro e; rcases e with e | e; omega; exact h2 e), ih]; rfl
    · exact h1
    · intro a b c d l e _; exact h2 e
    · intro a l e _; exact h2 e

/-- What may follow a value. -/
def Delim (rest : List Char) : Prop := ∀ c, rest.head? = some c → isDig c = false ∧ c ≠ '.' ∧ c ≠ 'e' ∧ c ≠ 'E'

/-- A text is read as a value whatever delimiter follows. -/
def Renders (pv : List Char → Option (Json × List Char)) (txt : List Char) (j : Json) : Prop :=
  ∀ rest, Delim rest → pv (txt ++ rest) = some (j, rest)

/-- Texts of white space. -/
def Blank (l : List Char) : Prop := ∀ c ∈ l, isWs c = true

theorem skipWs_blank : ∀ (l rest : List Char), Blank l → skipWs (l ++ rest) = skipWs rest
  | [], rest, _ => rfl
  | c :: l, rest, h => by
    have ih := skipWs_blank l rest (fun c hc => h c (by simp [hc]))
    unfold skipWs at ih ⊢
    rw [List.cons_append, List.dropWhile_cons_of_pos (h c (by simp)), ih]

theorem skipWs_cons {c : Char} (h : isWs c = false) (l : List Char) : skipWs (c :: l) = c :: l := by
  unfold skipWs; rw [List.dropWhile_cons_of_neg (by simp [h])]

theorem expect_ok {b : List Char} (hb : Blank b) {c : Char} (hc : isWs c = false) {l : List Char} : expect c (b ++ c :: l) = some l := by
  unfold expect; rw [skipWs_blank _ _ hb, skipWs_cons hc]; simp

theorem expect_ne {b : List Char} (hb : Blank b) {c d : Char} (hd : isWs d = false) (hne : d ≠ c) {l : List Char} : expect c (b ++ d :: l) = none := by
  unfold expect; rw [skipWs_blank _ _ hb, skipWs_cons hd]; simp [hne]

theorem renders_ws {n : Nat} {txt : List Char} {j : Json} {l : List Char} (hl : Blank l) (h : Renders (parseValue n) txt j) : Renders (parseValue n) (l ++ txt) j := by
  intro rest hr
  have := h rest hr
  cases n with
  | zero => simp [parseValue] at this
  | succ n =>
    rw [parseValue] at this ⊢
    rw [List.append_assoc, skipWs_blank _ _ hl]; exact this

/-! ### Numbers -/

theorem isDig_iff (c : Char) : isDig c = true ↔ Str.IsDigit c := by
  unfold isDig Str.IsDigit; simp

theorem digits_append {ds rest : List Char} (h : ∀ c ∈ ds, isDig c = true) (hr : ∀ c, rest.head? = some c → isDig c = false) :
    digits (ds ++ rest) = (ds, rest) := by
  unfold digits
  have h1 : (ds ++ rest).takeWhile isDig = ds := by
    induction ds with
    | nil =>
      cases rest with
      | nil => rfl
      | cons c l => simp [List.takeWhile, hr c rfl]
    | cons c ds ih => simp [List.takeWhile, h c (by simp), ih (fun c hc => h c (by simp [hc]))]
  have h2 : (ds ++ rest).dropWhile isDig = rest := by
    induction ds with
    | nil =>
      cases rest with
      | nil => rfl
      | cons c l => simp [List.dropWhile, hr c rfl]
    | cons c ds ih => simp [List.dropWhile, h c (by simp), ih (fun c hc => h c (by simp [hc])) (by
        have := h1
        rw [List.cons_append, List.takeWhile_cons_of_pos (h c (by simp))] at this
        exact (List.cons.inj this).2)]
  rw [h1, h2]

theorem decDigits_head : ∀ (n : Nat), 0 < n → (Str.decDigits n).head? ≠ some '0' := by
  intro n
  induction n using Nat.strongRecOn with
  | _ n ih =>
    intro hn
    rw [Str.decDigits]
    split
    · rename_i h
      simp only [List.head?_cons, ne_eq, Option.some.injEq]
      intro e
      have := Str.ofNat_digit n h
      rw [e] at this
      simp at this; omega
    · rename_i h
      have h2 := (Str.decDigits_spec (n / 10)).2.1
      rw [List.head?_append_of_ne_nil _ h2]
      exact ih (n / 10) (by omega) (by omega)

theorem digitsValue_eq (ds : List Char) : digitsValue ds = Str.dvalue ds 0 := rfl

theorem parseUnsigned_dec (neg : Bool) (n : Nat) (rest : List Char) (hr : Delim rest) :
    parseUnsigned neg (Str.decDigits n ++ rest) = some (.num (if neg = true then -(n : Int) else n) 0, rest) := by
  obtain ⟨h1, h2, h3⟩ := Str.decDigits_spec n
  have hd : ∀ c ∈ Str.decDigits n, isDig c = true := fun c hc => (isDig_iff c).mpr ((Str.isDigit_iff c).mpr (h1 c hc))
  have hdig := digits_append hd (fun c hc => (hr c hc).1)
  have hz : ¬ (Str.decDigits n = [] ∨ (Str.decDigits n).head? = some '0' ∧ (Str.decDigits n).length ≠ 1) := by
    rintro (e | ⟨e, e2⟩)
    · exact h2 e
    · cases n with
      | zero => exact e2 (by rw [Str.decDigits]; rfl)
      | succ n => exact decDigits_head (n + 1) (by omega) e
  have hval : digitsValue (Str.decDigits n) = (n : Int) := by rw [digitsValue_eq]; exact h3
  have hfr : fraction rest = ([], rest, true) := by
    unfold fraction
    rw [if_neg]
    intro e; exact (hr _ e).2.1 rfl
  unfold parseUnsigned
  rw [hdig]
  simp only [hfr, List.append_nil, hval]
  rw [if_neg (by rintro (e | e | e); exact hz (.inl e); exact hz (.inr e); cases e)]
  rw [if_neg (by rintro (e | e); exact (hr _ e).2.2.1 rfl; exact (hr _ e).2.2.2 rfl)]
  rfl

theorem dig_other {c d : Char} (h : isDig c = true) (hd : isDig d = false) : c ≠ d := by
  rintro rfl; rw [h] at hd; cases hd

theorem renders_int (n : Nat) (i : Int) : Renders (parseValue (n + 1)) (Str.toStringInt i) (.num i 0) := by
  intro rest hr
  rw [parseValue]
  unfold Str.toStringInt
  by_cases h : i < 0
  · rw [if_pos h, List.cons_append, skipWs_cons (by decide)]
    simp only [show ('-' : Char) ≠ '"' by decide, show ('-' : Char) ≠ '{' by decide, show ('-' : Char) ≠ '[' by decide, show ('-' : Char) ≠ 't' by decide,
      show ('-' : Char) ≠ 'f' by decide, show ('-' : Char) ≠ 'n' by decide, if_false, if_true]
    rw [parseUnsigned_dec _ _ _ hr]
    simp only [if_true]
    rw [show -(i.natAbs : Int) = i by omega]
  · rw [if_neg h]
    obtain ⟨h1, h2, h3⟩ := Str.decDigits_spec i.natAbs
    cases hd : Str.decDigits i.natAbs with
    | nil => exact absurd hd h2
    | cons c l =>
      have hc : isDig c = true := (isDig_iff c).mpr ((Str.isDigit_iff c).mpr (h1 c (by rw [hd]; simp)))
      have hw : isWs c = false := by
        unfold isWs
        simp [dig_other hc (show isDig ' ' = false by decide), dig_other hc (show isDig '\t' = false by decide), dig_other hc (show isDig '\n' = false by decide),
          dig_other hc (show isDig '\r' = false by decide)]
      rw [List.cons_append, skipWs_cons hw]
      simp only [dig_other hc (show isDig '"' = false by decide), dig_other hc (show isDig '{' = false by decide), dig_other hc (show isDig '[' = false by decide),
        dig_other hc (show isDig 't' = false by decide), dig_other hc (show isDig 'f' = false by decide), dig_other hc (show isDig 'n' = false by decide),
        dig_other hc (show isDig '-' = false by decide), if_false]
      rw [← List.cons_append, ← hd, parseUnsigned_dec _ _ _ hr]
      simp only [Bool.false_eq_true, if_false]
      rw [show (i.natAbs : Int) = i by omega]

theorem renders_bool (n : Nat) (b : Bool) : Renders (parseValue (n + 1)) (Str.toStringBool b) (.bool b) := by
  intro rest hr
  rw [parseValue]
  cases b
  · simp only [Str.toStringBool, Bool.false_eq_true, if_false, List.cons_append]
    rw [skipWs_cons (by decide)]
    simp
  · simp only [Str.toStringBool, if_true, List.cons_append]
    rw [skipWs_cons (by decide)]
    simp

theorem renders_str (n : Nat) {s : List Char} (h : Literal s) : Renders (parseValue (n + 1)) ('"' :: (s ++ ['"'])) (.str s) := by
  intro rest hr
  rw [parseValue, List.cons_append, skipWs_cons (by decide)]
  simp only [if_true]
  rw [List.append_assoc, List.cons_append, List.nil_append, parseString_literal s rest h]
  rfl

/-- What values mean as JSON (specification), and which of them the code can write. -/
class Means (V : Type) (Ty : outParam Type) [Typed V Ty] [Texts V Ty] [Quoting Ty] where
  /-- The JSON value of a value. -/
  jsonOf : V → Json
  /-- Values that can be written. -/
  Writable : V → Prop
  renders_cell : ∀ (n : Nat) (v : V), Writable v → Renders (parseValue (n + 1)) (jsonCell v) (jsonOf v)
export Means (jsonOf Writable)

/-- The JSON value of a value (specification): integers are numbers, booleans booleans, texts strings. -/
def Val.json : Val → Json
  | .int _ i _ => .num i 0
  | .bool b => .bool b
  | .str s => .str s

/-- Values that can be written: texts without quotes, backslashes and control characters. -/
def Val.writable : Val → Prop
  | .str s => Literal s
  | _ => True

instance : Means Val VTy where
  jsonOf := Val.json
  Writable := Val.writable
  renders_cell n v h := by
    cases v with
    | int t i hi => exact renders_int n i
    | bool b => exact renders_bool n b
    | str s => exact renders_str n h

/-! ### Objects and arrays -/

/-- Members separated by commas. -/
def membersText (pre sp : List Char) : List (List Char × List Char) → List Char
  | [] => []
  | [(name, txt)] => pre ++ '"' :: (name ++ '"' :: ':' :: (sp ++ txt))
  | (name, txt) :: l => pre ++ '"' :: (name ++ '"' :: ':' :: (sp ++ (txt ++ ',' :: membersText pre sp l)))

theorem parseMembers_text {n : Nat} {pre sp post : List Char} (hpre : Blank pre) (hsp : Blank sp) (hpost : Blank post) :
    ∀ (l : List (List Char × List Char × Json)) (fuel : Nat) (rest : List Char), l ≠ [] → l.length ≤ fuel →
      (∀ p ∈ l, Literal p.1 ∧ Renders (parseValue n) p.2.1 p.2.2) →
      parseMembers (parseValue n) fuel (membersText pre sp (l.map fun p => (p.1, p.2.1)) ++ (post ++ '}' :: rest)) = some (l.map fun p => (p.1, p.2.2), rest)
  | [], _, _, h, _, _ => absurd rfl h
  | (name, txt, j) :: l, fuel, rest, _, hf, hp => by
    obtain ⟨h1, h2⟩ := hp (name, txt, j) (by simp)
    cases fuel with
    | zero => simp at hf
    | succ fuel =>
      have hdelim : ∀ (post : List Char), Blank post → Delim (post ++ '}' :: rest) := by
        intro post hpost c hc
        cases post with
        | nil => simp at hc; subst hc; decide
        | cons a post =>
          simp at hc; subst hc
          have := hpost a (by simp)
          unfold isWs at this
          simp only [Bool.or_eq_true, decide_eq_true_eq] at this
          rcases this with ((rfl | rfl) | rfl) | rfl <;> decide
      cases l with
      | nil =>
        simp only [List.map_cons, List.map_nil, membersText]
        rw [show pre ++ '"' :: (name ++ '"' :: ':' :: (sp ++ txt)) ++ (post ++ '}' :: rest) = pre ++ '"' :: (name ++ '"' :: ([] ++ ':' :: ((sp ++ txt) ++ (post ++ '}' :: rest)))) by simp]
        rw [parseMembers, expect_ok hpre (by decide)]
        simp only [Option.bind_eq_bind, Option.bind_some, parseString_literal name _ h1, expect_ok (c := ':') (b := []) (by intro c hc; cases hc) (by decide)]
        rw [renders_ws hsp h2 (post ++ '}' :: rest) (hdelim post hpost)]
        simp only [Option.bind_some]
        rw [expect_ne hpost (by decide) (by decide), expect_ok hpost (by decide)]
        rfl
      | cons q l =>
        have ih := parseMembers_text hpre hsp hpost (q :: l) fuel rest (by simp) (by simpa using hf) (fun p hp' => hp p (by simp only [List.mem_cons] at hp' ⊢; exact .inr hp'))
        simp only [List.map_cons] at ih ⊢
        rw [membersText]
        · rw [show ∀ x, pre ++ '"' :: (name ++ '"' :: ':' :: (sp ++ (txt ++ ',' :: x))) ++ (post ++ '}' :: rest) =
            pre ++ '"' :: (name ++ '"' :: ([] ++ ':' :: ((sp ++ txt) ++ ([] ++ ',' :: (x ++ (post ++ '}' :: rest)))))) by intro x; simp]
          rw [parseMembers, expect_ok hpre (by decide)]
          simp only [Option.bind_eq_bind, Option.bind_some, parseString_literal name _ h1, expect_ok (c := ':') (b := []) (by intro c hc; cases hc) (by decide)]
          rw [renders_ws hsp h2 _ (by intro c hc; simp at hc; subst hc; decide)]
          simp only [Option.bind_some, expect_ok (c := ',') (b := []) (by intro c hc; cases hc) (by decide)]
          rw [ih]; rfl
        · simp

theorem membersText_length (pre sp : List Char) : ∀ l : List (List Char × List Char), l.length ≤ (membersText pre sp l).length
  | [] => by simp
  | [(n, t)] => by simp [membersText]; omega
  | (n, t) :: q :: l => by
    have := membersText_length pre sp (q :: l)
    simp only [membersText, List.length_append, List.length_cons] at this ⊢; omega

/-- An object is read back. -/
theorem renders_object {n : Nat} {pre sp post : List Char} (hpre : Blank pre) (hsp : Blank sp) (hpost : Blank post) (l : List (List Char × List Char × Json))
    (hp : ∀ p ∈ l, Literal p.1 ∧ Renders (parseValue n) p.2.1 p.2.2) :
    Renders (parseValue (n + 1)) ('{' :: (membersText pre sp (l.map fun p => (p.1, p.2.1)) ++ (post ++ ['}']))) (.obj (l.map fun p => (p.1, p.2.2))) := by
  intro rest _
  rw [parseValue, List.cons_append, skipWs_cons (by decide)]
  simp only [show ('{' : Char) ≠ '"' by decide, if_false, if_true]
  rw [show membersText pre sp (l.map fun p => (p.1, p.2.1)) ++ (post ++ ['}']) ++ rest = membersText pre sp (l.map fun p => (p.1, p.2.1)) ++ (post ++ '}' :: rest) by simp]
  by_cases hne : l = []
  · subst hne
    simp only [List.map_nil, membersText, List.nil_append]
    rw [expect_ok hpost (by decide)]
  · have hhead : ∃ t, membersText pre sp (l.map fun p => (p.1, p.2.1)) ++ (post ++ '}' :: rest) = pre ++ '"' :: t := by
      cases l with
      | nil => exact absurd rfl hne
      | cons q l' =>
        cases l' with
        | nil => exact ⟨q.1 ++ '"' :: ':' :: (sp ++ q.2.1) ++ (post ++ '}' :: rest), by simp only [List.map_cons, List.map_nil, membersText]; simp⟩
        | cons q' l' => exact ⟨_, by
            simp only [List.map_cons]
            rw [membersText]
            · rw [List.append_assoc, List.cons_append]
            · simp⟩
    obtain ⟨t, ht⟩ := hhead
    have hx : expect '}' (membersText pre sp (l.map fun p => (p.1, p.2.1)) ++ (post ++ '}' :: rest)) = none := by
      rw [ht, expect_ne hpre (by decide) (by decide)]
    rw [hx]
    dsimp only
    rw [parseMembers_text hpre hsp hpost l _ rest hne _ hp]
    · rfl
    · have := membersText_length pre sp (l.map fun p => (p.1, p.2.1))
      simp only [List.length_map, List.length_append] at this ⊢; omega

/-- Elements separated by commas. -/
def elementsText (pre : List Char) : List (List Char) → List Char
  | [] => []
  | [txt] => pre ++ txt
  | txt :: l => pre ++ (txt ++ ',' :: elementsText pre l)

theorem elementsText_length (pre : List Char) : ∀ l : List (List Char), (∀ t ∈ l, t ≠ []) → l.length ≤ (elementsText pre l).length
  | [], _ => by simp
  | [t], h => by
    have := List.length_pos_iff.mpr (h t (by simp))
    simp [elementsText]; omega
  | t :: q :: l, h => by
    have := elementsText_length pre (q :: l) (fun t ht => h t (by simp only [List.mem_cons] at ht ⊢; exact .inr ht))
    simp only [elementsText, List.length_append, List.length_cons] at this ⊢; omega

theorem parseElements_text {n : Nat} {pre post : List Char} (hpre : Blank pre) (hpost : Blank post) :
    ∀ (l : List (List Char × Json)) (fuel : Nat) (rest : List Char), l ≠ [] → l.length ≤ fuel → (∀ p ∈ l, Renders (parseValue n) p.1 p.2) →
      parseElements (parseValue n) fuel (elementsText pre (l.map (·.1)) ++ (post ++ ']' :: rest)) = some (l.map (·.2), rest)
  | [], _, _, h, _, _ => absurd rfl h
  | (txt, j) :: l, fuel, rest, _, hf, hp => by
    have h2 := hp (txt, j) (by simp)
    cases fuel with
    | zero => simp at hf
    | succ fuel =>
      have hdelim : Delim (post ++ ']' :: rest) := by
        intro c hc
        cases post with
        | nil => simp at hc; subst hc; decide
        | cons a post =>
          simp at hc; subst hc
          have := hpost a (by simp)
          unfold isWs at this
          simp only [Bool.or_eq_true, decide_eq_true_eq] at this
          rcases this with ((rfl | rfl) | rfl) | rfl <;> decide
      cases l with
      | nil =>
        simp only [List.map_cons, List.map_nil, elementsText]
        rw [parseElements, renders_ws hpre h2 _ hdelim]
        simp only [Option.bind_eq_bind, Option.bind_some]
        rw [expect_ne hpost (by decide) (by decide), expect_ok hpost (by decide)]
        rfl
      | cons q l =>
        have ih := parseElements_text hpre hpost (q :: l) fuel rest (by simp) (by simpa using hf) (fun p hp' => hp p (by simp only [List.mem_cons] at hp' ⊢; exact .inr hp'))
        simp only [List.map_cons] at ih ⊢
        rw [elementsText]
        · rw [show ∀ x, pre ++ (txt ++ ',' :: x) ++ (post ++ ']' :: rest) = (pre ++ txt) ++ ([] ++ ',' :: (x ++ (post ++ ']' :: rest))) by intro x; simp]
          rw [parseElements, renders_ws hpre h2 _ (by intro c hc; simp at hc; subst hc; decide)]
          simp only [Option.bind_eq_bind, Option.bind_some, expect_ok (c := ',') (b := []) (by intro c hc; cases hc) (by decide)]
          rw [ih]; rfl
        · simp

/-- An array of objects is read back. -/
theorem renders_array {n : Nat} {pre post : List Char} (hpre : Blank pre) (hpost : Blank post) (l : List (List Char × Json))
    (hp : ∀ p ∈ l, Renders (parseValue n) p.1 p.2 ∧ p.1.head? = some '{') :
    Renders (parseValue (n + 1)) ('[' :: (elementsText pre (l.map (·.1)) ++ (post ++ [']']))) (.arr (l.map (·.2))) := by
  intro rest _
  rw [parseValue, List.cons_append, skipWs_cons (by decide)]
  simp only [show ('[' : Char) ≠ '"' by decide, show ('[' : Char) ≠ '{' by decide, if_false, if_true]
  rw [show elementsText pre (l.map (·.1)) ++ (post ++ [']']) ++ rest = elementsText pre (l.map (·.1)) ++ (post ++ ']' :: rest) by simp]
  by_cases hne : l = []
  · subst hne
    simp only [List.map_nil, elementsText, List.nil_append]
    rw [expect_ok hpost (by decide)]
  · have hhead : ∃ t, elementsText pre (l.map (·.1)) ++ (post ++ ']' :: rest) = pre ++ '{' :: t := by
      cases l with
      | nil => exact absurd rfl hne
      | cons q l' =>
        have hq := (hp q (by simp)).2
        obtain ⟨t, ht⟩ : ∃ t, q.1 = '{' :: t := by
          cases hq' : q.1 with
          | nil => rw [hq'] at hq; cases hq
          | cons c t => rw [hq'] at hq; simp at hq; exact ⟨t, by rw [hq]⟩
        cases l' with
        | nil => exact ⟨t ++ (post ++ ']' :: rest), by simp only [List.map_cons, List.map_nil, elementsText, ht]; simp⟩
        | cons q' l' => exact ⟨_, by
            simp only [List.map_cons]
            rw [elementsText]
            · rw [ht, List.append_assoc, List.cons_append, List.cons_append]
            · simp⟩
    obtain ⟨t, ht⟩ := hhead
    have hx : expect ']' (elementsText pre (l.map (·.1)) ++ (post ++ ']' :: rest)) = none := by
      rw [ht, expect_ne hpre (by decide) (by decide)]
    rw [hx]
    dsimp only
    rw [parseElements_text hpre hpost l _ rest hne _ (fun p h => (hp p h).1)]
    · rfl
    · have := elementsText_length pre (l.map (·.1)) (by
        intro t ht
        obtain ⟨p, h1, rfl⟩ := List.mem_map.mp ht
        intro e
        have := (hp p h1).2
        rw [e] at this; cases this)
      simp only [List.length_map, List.length_append] at this ⊢; omega

/-- A whole text. -/
theorem parseJson_of {txt : List Char} {j : Json} {n : Nat} (h : Renders (parseValue n) txt j) (hn : n = txt.length + 1) : parseJson txt = some j := by
  subst hn
  unfold parseJson
  have := h [] (by intro c hc; cases hc)
  rw [List.append_nil] at this
  rw [this]; rfl

end MVault.W
