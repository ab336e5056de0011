import Verif.PropsWideJson
/-
Lemmas: the parser of the specification reads the texts the model writes as the wanted values only if all names and texts stand for themselves.
-/
set_option linter.unusedSectionVars false
set_option linter.unusedSimpArgs false
set_option linter.unusedVariables false
namespace MVault.W
open MVault.JsonSpec

/-! ### Strings -/

theorem parseString_u {t o r : List Char} (h : parseString ('\\' :: 'u' :: t) = some (o, r)) :
    ∃ a b c d l x s, t = a :: b :: c :: d :: l ∧ (hex a).isSome ∧ (hex b).isSome ∧ (hex c).isSome ∧ (hex d).isSome ∧
      parseString l = some (s, r) ∧ o = x :: s := by
  match t, h with
  | [], h => simp [parseString, escape] at h
  | [a], h => simp [parseString, escape] at h
  | [a, b], h => simp [parseString, escape] at h
  | [a, b, c], h => simp [parseString, escape] at h
  | a :: b :: c :: d :: l, h =>
    simp only [parseString, Option.bind_eq_bind, Option.bind_eq_some_iff] at h
    obtain ⟨a', ha, b', hb, c', hc, d', hd, ⟨s, r'⟩, hs, h⟩ := h
    simp only [Option.some.injEq, Prod.mk.injEq] at h
    obtain ⟨h1, h2⟩ := h
    subst h2
    exact ⟨a, b, c, d, l, _, s, rfl, by simp [ha], by simp [hb], by simp [hc], by simp [hd], hs, h1.symm⟩

theorem parseString_esc {e : Char} (he : e ≠ 'u') {t o r : List Char} (h : parseString ('\\' :: e :: t) = some (o, r)) :
    ∃ x s, escape e = some x ∧ parseString t = some (s, r) ∧ o = x :: s := by
  rw [parseString.eq_4 _ _ (by intro a b c d l h1 _; exact he h1)] at h
  simp only [Option.bind_eq_bind, Option.bind_eq_some_iff] at h
  obtain ⟨x, hx, ⟨s, r'⟩, hs, h⟩ := h
  simp only [Option.some.injEq, Prod.mk.injEq] at h
  obtain ⟨h1, h2⟩ := h
  subst h2
  exact ⟨x, s, hx, hs, h1.symm⟩

theorem parseString_plain {e : Char} (he : e ≠ '\\') (hq : e ≠ '"') {t o r : List Char} (h : parseString (e :: t) = some (o, r)) :
    ∃ s, 32 ≤ e.toNat ∧ parseString t = some (s, r) ∧ o = e :: s := by
  rw [parseString.eq_5] at h
  · split at h
    · cases h
    · rename_i hn
      rw [Option.map_eq_some_iff] at h
      obtain ⟨⟨s, r'⟩, hs, h⟩ := h
      simp only [Prod.mk.injEq] at h
      obtain ⟨h1, h2⟩ := h
      subst h2
      exact ⟨s, by omega, hs, h1.symm⟩
  · exact hq
  · intro a b c d l h1 _; exact he h1
  · intro a l h1 _; exact he h1

theorem hex_quote : hex '"' = none := by decide

/-- The string that starts before a text without quotes and a quote: it ends at this quote and has no more characters than
the text, or the quote is escaped and the string has a quote before. -/
theorem parseString_split : ∀ (n : Nat) (a r out rest' : List Char), a.length ≤ n → '"' ∉ a → parseString (a ++ '"' :: r) = some (out, rest') →
    (rest' = r ∧ out.length ≤ a.length ∧ (out.length = a.length → Literal a)) ∨ ∃ i, i + 1 ≤ a.length ∧ out[i]? = some '"'
  | n, [], r, out, rest', _, _, h => by
    simp [parseString] at h
    obtain ⟨rfl, rfl⟩ := h
    exact .inl ⟨rfl, by simp, fun _ c hc => by cases hc⟩
  | 0, c :: a, r, out, rest', hn, _, h => by simp at hn
  | n + 1, c :: a, r, out, rest', hn, hq, h => by
    have hc : c ≠ '"' := by rintro rfl; simp at hq
    have hqa : '"' ∉ a := fun h => hq (by simp [h])
    simp only [List.length_cons] at hn
    by_cases hb : c = '\\'
    · subst hb
      match a, h, hqa, hn with
      | [], h, _, _ =>
        obtain ⟨x, s, h1, h2, rfl⟩ := parseString_esc (e := '"') (t := r) (by decide) (by simpa using h)
        have : x = '"' := by simpa [escape] using h1.symm
        subst this
        exact .inr ⟨0, by simp, rfl⟩
      | e :: a2, h, hqa, hn =>
        by_cases hu : e = 'u'
        · subst hu
          obtain ⟨x1, x2, x3, x4, l, x, s, ht, g1, g2, g3, g4, hl, rfl⟩ := parseString_u (by simpa using h)
          have bad : ¬ (hex '"').isSome := by rw [hex_quote]; simp
          match a2, ht, hqa, hn with
          | [], ht, _, _ => simp at ht; rw [← ht.1] at g1; exact absurd g1 bad
          | [y1], ht, _, _ => simp at ht; rw [← ht.2.1] at g2; exact absurd g2 bad
          | [y1, y2], ht, _, _ => simp at ht; rw [← ht.2.2.1] at g3; exact absurd g3 bad
          | [y1, y2, y3], ht, _, _ => simp at ht; rw [← ht.2.2.2.1] at g4; exact absurd g4 bad
          | y1 :: y2 :: y3 :: y4 :: a3, ht, hqa, hn =>
            simp only [List.cons_append, List.cons.injEq] at ht
            obtain ⟨-, -, -, -, rfl⟩ := ht
            simp only [List.length_cons] at hn
            rcases parseString_split n a3 r s rest' (by omega) (fun h => hqa (by simp [h])) hl with ⟨h1, h2, -⟩ | ⟨i, h1, h2⟩
            · exact .inl ⟨h1, by simp only [List.length_cons]; omega, by simp only [List.length_cons]; omega⟩
            · exact .inr ⟨i + 1, by simp only [List.length_cons]; omega, by simpa using h2⟩
        · obtain ⟨x, s, h1, h2, rfl⟩ := parseString_esc hu (by simpa using h)
          simp only [List.length_cons] at hn
          rcases parseString_split n a2 r s rest' (by omega) (fun h => hqa (by simp [h])) h2 with ⟨h1, h2, -⟩ | ⟨i, h1, h2⟩
          · exact .inl ⟨h1, by simp only [List.length_cons]; omega, by simp only [List.length_cons]; omega⟩
          · exact .inr ⟨i + 1, by simp only [List.length_cons]; omega, by simpa using h2⟩
    · obtain ⟨s, h32, h2, rfl⟩ := parseString_plain hb hc (by simpa using h)
      rcases parseString_split n a r s rest' (by omega) hqa h2 with ⟨h1, h2, h3⟩ | ⟨i, h1, h2⟩
      · refine .inl ⟨h1, by simp only [List.length_cons]; omega, fun he d hd => ?_⟩
        simp only [List.length_cons, Nat.add_right_cancel_iff] at he
        rcases List.mem_cons.mp hd with rfl | hd
        · exact ⟨hc, hb, h32⟩
        · exact h3 he d hd
      · exact .inr ⟨i + 1, by simp only [List.length_cons]; omega, by simpa using h2⟩

theorem first_split {c : Char} : ∀ {s : List Char}, c ∈ s → ∃ a b, s = a ++ c :: b ∧ c ∉ a
  | d :: s, h => by
    by_cases e : d = c
    · exact ⟨[], s, by rw [e]; rfl, by simp⟩
    · have : c ∈ s := by
        rcases List.mem_cons.mp h with h | h
        · exact absurd h.symm e
        · exact h
      obtain ⟨a, b, h1, h2⟩ := first_split this
      exact ⟨d :: a, b, by rw [h1]; rfl, by simp [h2, Ne.symm e]⟩

/-- A text between quotes is read as itself only if it is literal. -/
theorem parseString_forces {s rest rest' : List Char} (h : parseString (s ++ '"' :: rest) = some (s, rest')) : Literal s ∧ rest' = rest := by
  by_cases hq : '"' ∈ s
  · exfalso
    obtain ⟨a, b, hs, ha⟩ := first_split hq
    have h' := h
    rw [hs, List.append_assoc, List.cons_append] at h'
    rcases parseString_split _ a _ _ rest' (Nat.le_refl _) ha h' with ⟨_, h2, _⟩ | ⟨i, h1, h2⟩
    · simp at h2
    · rw [List.getElem?_append_left (by omega)] at h2
      exact ha (List.mem_of_getElem? h2)
  · rcases parseString_split _ s rest s rest' (Nat.le_refl _) hq h with ⟨h1, _, h3⟩ | ⟨i, h1, h2⟩
    · exact ⟨h3 rfl, h1⟩
    · exact absurd (List.mem_of_getElem? h2) hq

/-! ### Values -/

/-- A text is read as the value `j` only if `P`. -/
def Forces (pv : List Char → Option (Json × List Char)) (txt : List Char) (j : Json) (P : Prop) : Prop :=
  ∀ rest, Delim rest → ∀ rest', pv (txt ++ rest) = some (j, rest') → P ∧ rest' = rest

theorem Renders.forces {pv : List Char → Option (Json × List Char)} {txt : List Char} {j : Json} (h : Renders pv txt j) : Forces pv txt j True := by
  intro rest hr rest' h2
  rw [h rest hr] at h2
  simp only [Option.some.injEq, Prod.mk.injEq, true_and] at h2
  exact ⟨trivial, h2.symm⟩

theorem forces_ws {n : Nat} {txt : List Char} {j : Json} {l : List Char} {P : Prop} (hl : Blank l) (h : Forces (parseValue n) txt j P) :
    Forces (parseValue n) (l ++ txt) j P := by
  intro rest hr rest' h2
  refine h rest hr rest' ?_
  cases n with
  | zero => simp [parseValue] at h2
  | succ n =>
    rw [parseValue] at h2 ⊢
    rw [List.append_assoc, skipWs_blank _ _ hl] at h2; exact h2

theorem forces_str (n : Nat) (s : List Char) : Forces (parseValue (n + 1)) ('"' :: (s ++ ['"'])) (.str s) (Literal s) := by
  intro rest hr rest' h
  rw [parseValue, List.cons_append, skipWs_cons (by decide)] at h
  simp only [if_true] at h
  rw [List.append_assoc, List.cons_append, List.nil_append, Option.map_eq_some_iff] at h
  obtain ⟨⟨s', r'⟩, h1, h2⟩ := h
  simp only [Prod.mk.injEq, Json.str.injEq] at h2
  obtain ⟨rfl, rfl⟩ := h2
  exact parseString_forces h1

/-- Values whose texts are read back only if they are writable. -/
class Tight (V : Type) (Ty : outParam Type) [Typed V Ty] [Texts V Ty] [Quoting Ty] [Means V Ty] : Prop where
  forces_cell : ∀ (n : Nat) (v : V), Forces (parseValue (n + 1)) (jsonCell v) (jsonOf v) (Writable v)

instance : Tight Val VTy where
  forces_cell n v := by
    cases v with
    | int t i hi => exact (renders_int n i).forces
    | bool b => exact (renders_bool n b).forces
    | str s => exact forces_str n s

instance : Tight WVal WTy where
  forces_cell n v := by
    cases v with
    | int t i hi => exact (renders_int n i).forces
    | byte s i hi => exact (renders_int n i).forces
    | bool b => exact (renders_bool n b).forces
    | str s => exact forces_str n s
    | real d x hx => exact (renders_real n x).forces
    | user u c => exact (renders_str n (s := []) (by intro c hc; cases hc)).forces

/-! ### Objects and arrays -/

theorem delim_close {post rest : List Char} (hpost : Blank post) {c : Char} (hc : isDig c = false ∧ c ≠ '.' ∧ c ≠ 'e' ∧ c ≠ 'E') : Delim (post ++ c :: rest) := by
  intro d hd
  cases post with
  | nil => simp at hd; subst hd; exact hc
  | cons a post =>
    simp at hd; subst hd
    have := hpost a (by simp)
    unfold isWs at this
    simp only [Bool.or_eq_true, decide_eq_true_eq] at this
    rcases this with ((rfl | rfl) | rfl) | rfl <;> decide

variable {A : Type}

theorem parseMembers_forces {n : Nat} {pre sp post : List Char} (hpre : Blank pre) (hsp : Blank sp) (hpost : Blank post)
    (nm tx : A → List Char) (js : A → Json) (P : A → Prop) :
    ∀ (l : List A) (fuel : Nat) (rest rest' : List Char), l ≠ [] → (∀ a ∈ l, Forces (parseValue n) (tx a) (js a) (P a)) →
      parseMembers (parseValue n) fuel (membersText pre sp (l.map fun a => (nm a, tx a)) ++ (post ++ '}' :: rest)) = some (l.map fun a => (nm a, js a), rest') →
      (∀ a ∈ l, Literal (nm a) ∧ P a) ∧ rest' = rest
  | [], _, _, _, h, _, _ => absurd rfl h
  | a :: l, 0, rest, rest', _, _, h => by simp [parseMembers] at h
  | [a], fuel + 1, rest, rest', _, hp, h => by
    have h2 := hp a (by simp)
    simp only [List.map_cons, List.map_nil, membersText] at h
    rw [show pre ++ '"' :: (nm a ++ '"' :: ':' :: (sp ++ tx a)) ++ (post ++ '}' :: rest) = pre ++ '"' :: (nm a ++ '"' :: (':' :: ((sp ++ tx a) ++ (post ++ '}' :: rest)))) by simp] at h
    rw [parseMembers, expect_ok hpre (by decide)] at h
    simp only [Option.bind_eq_bind, Option.bind_some, Option.bind_eq_some_iff] at h
    obtain ⟨⟨name, l2⟩, h3, l3, h4, ⟨v, l4⟩, h5, h6⟩ := h
    have hh : name = nm a ∧ v = js a := by
      dsimp only at h6
      split at h6
      · simp only [Option.bind_eq_some_iff, Option.some.injEq, Prod.mk.injEq, List.cons.injEq] at h6
        obtain ⟨_, _, ⟨⟨h7, h8⟩, _⟩, _⟩ := h6
        exact ⟨h7, h8⟩
      · simp only [Option.bind_eq_some_iff, Option.some.injEq, Prod.mk.injEq, List.cons.injEq] at h6
        obtain ⟨_, _, ⟨⟨h7, h8⟩, _⟩, _⟩ := h6
        exact ⟨h7, h8⟩
    obtain ⟨rfl, rfl⟩ := hh
    obtain ⟨hlit, rfl⟩ := parseString_forces h3
    rw [show ':' :: ((sp ++ tx a) ++ (post ++ '}' :: rest)) = [] ++ ':' :: ((sp ++ tx a) ++ (post ++ '}' :: rest)) from rfl, expect_ok (by intro c hc; cases hc) (by decide)] at h4
    cases h4
    obtain ⟨hP, rfl⟩ := forces_ws hsp h2 _ (delim_close hpost (by decide)) _ h5
    dsimp only at h6
    rw [expect_ne hpost (by decide) (by decide)] at h6
    simp only [expect_ok hpost (show isWs '}' = false by decide), Option.bind_some, Option.some.injEq, Prod.mk.injEq, true_and] at h6
    refine ⟨fun b hb => ?_, h6.symm⟩
    have : b = a := by simpa using hb
    subst this
    exact ⟨hlit, hP⟩
  | a :: b :: l, fuel + 1, rest, rest', _, hp, h => by
    have h2 := hp a (by simp)
    simp only [List.map_cons] at h
    rw [membersText_cons2] at h
    rw [show ∀ x, pre ++ '"' :: (nm a ++ '"' :: ':' :: (sp ++ (tx a ++ ',' :: x))) ++ (post ++ '}' :: rest) =
            pre ++ '"' :: (nm a ++ '"' :: (':' :: ((sp ++ tx a) ++ (',' :: (x ++ (post ++ '}' :: rest)))))) by intro x; simp] at h
    rw [parseMembers, expect_ok hpre (by decide)] at h
    simp only [Option.bind_eq_bind, Option.bind_some, Option.bind_eq_some_iff] at h
    obtain ⟨⟨name, l2⟩, h3, l3, h4, ⟨v, l4⟩, h5, h6⟩ := h
    have hh : name = nm a ∧ v = js a := by
      dsimp only at h6
      split at h6
      · simp only [Option.bind_eq_some_iff, Option.some.injEq, Prod.mk.injEq, List.cons.injEq] at h6
        obtain ⟨_, _, ⟨⟨h7, h8⟩, _⟩, _⟩ := h6
        exact ⟨h7, h8⟩
      · simp only [Option.bind_eq_some_iff, Option.some.injEq, Prod.mk.injEq, List.cons.injEq] at h6
        obtain ⟨_, _, ⟨⟨h7, h8⟩, _⟩, _⟩ := h6
        exact ⟨h7, h8⟩
    obtain ⟨rfl, rfl⟩ := hh
    obtain ⟨hlit, rfl⟩ := parseString_forces h3
    rw [show ∀ x, ':' :: x = [] ++ ':' :: x from fun _ => rfl, expect_ok (by intro c hc; cases hc) (by decide)] at h4
    cases h4
    obtain ⟨hP, rfl⟩ := forces_ws hsp h2 _ (delim_close (post := []) (by intro c hc; cases hc) (by decide)) _ h5
    dsimp only at h6
    rw [expect_ok (by intro c hc; cases hc) (by decide)] at h6
    dsimp only at h6
    simp only [Option.bind_eq_some_iff] at h6
    obtain ⟨⟨ms, l6⟩, h7, h8⟩ := h6
    simp only [Option.some.injEq, Prod.mk.injEq, List.cons.injEq, true_and] at h8
    obtain ⟨h8, rfl⟩ := h8
    subst h8
    obtain ⟨i1, i2⟩ := parseMembers_forces hpre hsp hpost nm tx js P (b :: l) fuel rest l6 (by simp) (fun c hc => hp c (by simp only [List.mem_cons] at hc ⊢; exact .inr hc))
      (by simpa using h7)
    refine ⟨fun c hc => ?_, i2⟩
    rcases List.mem_cons.mp hc with rfl | hc
    · exact ⟨hlit, hP⟩
    · exact i1 c hc

theorem forces_object {n : Nat} {pre sp post : List Char} (hpre : Blank pre) (hsp : Blank sp) (hpost : Blank post)
    (nm tx : A → List Char) (js : A → Json) (P : A → Prop) (l : List A) (hp : ∀ a ∈ l, Forces (parseValue n) (tx a) (js a) (P a)) :
    Forces (parseValue (n + 1)) ('{' :: (membersText pre sp (l.map fun a => (nm a, tx a)) ++ (post ++ ['}']))) (.obj (l.map fun a => (nm a, js a)))
      (∀ a ∈ l, Literal (nm a) ∧ P a) := by
  intro rest _ rest' h
  rw [parseValue, List.cons_append, skipWs_cons (by decide)] at h
  simp only [show ('{' : Char) ≠ '"' by decide, if_false, if_true] at h
  rw [show membersText pre sp (l.map fun a => (nm a, tx a)) ++ (post ++ ['}']) ++ rest = membersText pre sp (l.map fun a => (nm a, tx a)) ++ (post ++ '}' :: rest) by simp] at h
  by_cases hne : l = []
  · subst hne
    simp only [List.map_nil, membersText, List.nil_append] at h
    rw [expect_ok hpost (by decide)] at h
    simp only [Option.some.injEq, Prod.mk.injEq, true_and] at h
    exact ⟨by simp, h.symm⟩
  · have hhead : ∃ t, membersText pre sp (l.map fun a => (nm a, tx a)) ++ (post ++ '}' :: rest) = pre ++ '"' :: t := by
      cases l with
      | nil => exact absurd rfl hne
      | cons q l' =>
        cases l' with
        | nil => exact ⟨nm q ++ '"' :: ':' :: (sp ++ tx q) ++ (post ++ '}' :: rest), by simp only [List.map_cons, List.map_nil, membersText]; simp⟩
        | cons q' l' => exact ⟨_, by
            simp only [List.map_cons]
            rw [membersText_cons2]
            rw [List.append_assoc, List.cons_append]⟩
    obtain ⟨t, ht⟩ := hhead
    have hx : expect '}' (membersText pre sp (l.map fun a => (nm a, tx a)) ++ (post ++ '}' :: rest)) = none := by
      rw [ht, expect_ne hpre (by decide) (by decide)]
    rw [hx] at h
    dsimp only at h
    rw [Option.map_eq_some_iff] at h
    obtain ⟨⟨ms, r'⟩, h1, h2⟩ := h
    simp only [Prod.mk.injEq, Json.obj.injEq] at h2
    obtain ⟨rfl, rfl⟩ := h2
    exact parseMembers_forces hpre hsp hpost nm tx js P l _ rest r' hne hp h1

theorem parseElements_forces {n : Nat} {pre post : List Char} (hpre : Blank pre) (hpost : Blank post)
    (tx : A → List Char) (js : A → Json) (P : A → Prop) :
    ∀ (l : List A) (fuel : Nat) (rest rest' : List Char), l ≠ [] → (∀ a ∈ l, Forces (parseValue n) (tx a) (js a) (P a)) →
      parseElements (parseValue n) fuel (elementsText pre (l.map tx) ++ (post ++ ']' :: rest)) = some (l.map js, rest') →
      (∀ a ∈ l, P a) ∧ rest' = rest
  | [], _, _, _, h, _, _ => absurd rfl h
  | a :: l, 0, rest, rest', _, _, h => by simp [parseElements] at h
  | [a], fuel + 1, rest, rest', _, hp, h => by
    have h2 := hp a (by simp)
    simp only [List.map_cons, List.map_nil, elementsText] at h
    rw [parseElements] at h
    simp only [Option.bind_eq_bind, Option.bind_eq_some_iff] at h
    obtain ⟨⟨v, l4⟩, h5, h6⟩ := h
    have hh : v = js a := by
      dsimp only at h6
      split at h6
      · simp only [Option.bind_eq_some_iff, Option.some.injEq, Prod.mk.injEq, List.cons.injEq] at h6
        obtain ⟨_, _, ⟨h8, _⟩, _⟩ := h6
        exact h8
      · simp only [Option.bind_eq_some_iff, Option.some.injEq, Prod.mk.injEq, List.cons.injEq] at h6
        obtain ⟨_, _, ⟨h8, _⟩, _⟩ := h6
        exact h8
    subst hh
    obtain ⟨hP, rfl⟩ := forces_ws hpre h2 _ (delim_close hpost (by decide)) _ h5
    dsimp only at h6
    rw [expect_ne hpost (by decide) (by decide)] at h6
    simp only [expect_ok hpost (show isWs ']' = false by decide), Option.bind_some, Option.some.injEq, Prod.mk.injEq, true_and] at h6
    refine ⟨fun b hb => ?_, h6.symm⟩
    have : b = a := by simpa using hb
    subst this
    exact hP
  | a :: b :: l, fuel + 1, rest, rest', _, hp, h => by
    have h2 := hp a (by simp)
    simp only [List.map_cons] at h
    rw [elementsText_cons2] at h
    rw [show ∀ x, pre ++ (tx a ++ ',' :: x) ++ (post ++ ']' :: rest) = (pre ++ tx a) ++ (',' :: (x ++ (post ++ ']' :: rest))) by intro x; simp] at h
    rw [parseElements] at h
    simp only [Option.bind_eq_bind, Option.bind_eq_some_iff] at h
    obtain ⟨⟨v, l4⟩, h5, h6⟩ := h
    have hh : v = js a := by
      dsimp only at h6
      split at h6
      · simp only [Option.bind_eq_some_iff, Option.some.injEq, Prod.mk.injEq, List.cons.injEq] at h6
        obtain ⟨_, _, ⟨h8, _⟩, _⟩ := h6
        exact h8
      · simp only [Option.bind_eq_some_iff, Option.some.injEq, Prod.mk.injEq, List.cons.injEq] at h6
        obtain ⟨_, _, ⟨h8, _⟩, _⟩ := h6
        exact h8
    subst hh
    obtain ⟨hP, rfl⟩ := forces_ws hpre h2 _ (delim_close (post := []) (by intro c hc; cases hc) (by decide)) _ h5
    dsimp only at h6
    rw [expect_ok (by intro c hc; cases hc) (by decide)] at h6
    dsimp only at h6
    simp only [Option.bind_eq_some_iff] at h6
    obtain ⟨⟨ms, l6⟩, h7, h8⟩ := h6
    simp only [Option.some.injEq, Prod.mk.injEq, List.cons.injEq, true_and] at h8
    obtain ⟨h8, rfl⟩ := h8
    subst h8
    obtain ⟨i1, i2⟩ := parseElements_forces hpre hpost tx js P (b :: l) fuel rest l6 (by simp) (fun c hc => hp c (by simp only [List.mem_cons] at hc ⊢; exact .inr hc))
      (by simpa using h7)
    refine ⟨fun c hc => ?_, i2⟩
    rcases List.mem_cons.mp hc with rfl | hc
    · exact hP
    · exact i1 c hc

theorem forces_array {n : Nat} {pre post : List Char} (hpre : Blank pre) (hpost : Blank post)
    (tx : A → List Char) (js : A → Json) (P : A → Prop) (l : List A) (hp : ∀ a ∈ l, Forces (parseValue n) (tx a) (js a) (P a) ∧ (tx a).head? = some '{') :
    Forces (parseValue (n + 1)) ('[' :: (elementsText pre (l.map tx) ++ (post ++ [']']))) (.arr (l.map js)) (∀ a ∈ l, P a) := by
  intro rest _ rest' h
  rw [parseValue, List.cons_append, skipWs_cons (by decide)] at h
  simp only [show ('[' : Char) ≠ '"' by decide, show ('[' : Char) ≠ '{' by decide, if_false, if_true] at h
  rw [show elementsText pre (l.map tx) ++ (post ++ [']']) ++ rest = elementsText pre (l.map tx) ++ (post ++ ']' :: rest) by simp] at h
  by_cases hne : l = []
  · subst hne
    simp only [List.map_nil, elementsText, List.nil_append] at h
    rw [expect_ok hpost (by decide)] at h
    simp only [Option.some.injEq, Prod.mk.injEq, true_and] at h
    exact ⟨by simp, h.symm⟩
  · have hhead : ∃ t, elementsText pre (l.map tx) ++ (post ++ ']' :: rest) = pre ++ '{' :: t := by
      cases l with
      | nil => exact absurd rfl hne
      | cons q l' =>
        have hq := (hp q (by simp)).2
        obtain ⟨t, ht⟩ : ∃ t, tx q = '{' :: t := by
          cases hq' : tx q with
          | nil => rw [hq'] at hq; cases hq
          | cons c t => rw [hq'] at hq; simp at hq; exact ⟨t, by rw [hq]⟩
        cases l' with
        | nil => exact ⟨t ++ (post ++ ']' :: rest), by simp only [List.map_cons, List.map_nil, elementsText, ht]; simp⟩
        | cons q' l' => exact ⟨_, by
            simp only [List.map_cons]
            rw [elementsText_cons2]
            rw [ht, List.append_assoc, List.cons_append, List.cons_append]⟩
    obtain ⟨t, ht⟩ := hhead
    have hx : expect ']' (elementsText pre (l.map tx) ++ (post ++ ']' :: rest)) = none := by
      rw [ht, expect_ne hpre (by decide) (by decide)]
    rw [hx] at h
    dsimp only at h
    rw [Option.map_eq_some_iff] at h
    obtain ⟨⟨ms, r'⟩, h1, h2⟩ := h
    simp only [Prod.mk.injEq, Json.arr.injEq] at h2
    obtain ⟨rfl, rfl⟩ := h2
    exact parseElements_forces hpre hpost tx js P l _ rest r' hne (fun a ha => (hp a ha).1) h1

/-- A whole text. -/
theorem parseJson_forces {txt : List Char} {j : Json} {n : Nat} {P : Prop} (h : Forces (parseValue n) txt j P) (hn : n = txt.length + 1) (hj : parseJson txt = some j) : P := by
  subst hn
  unfold parseJson at hj
  split at hj
  · rename_i j' rest' hp
    split at hj
    · cases hj
      exact (h [] (by intro c hc; cases hc) rest' (by rw [List.append_nil]; exact hp)).1
    · cases hj
  · cases hj

end MVault.W
