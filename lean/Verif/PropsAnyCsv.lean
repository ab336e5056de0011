import Verif.PropsRfc
/-
C102: what any file whatsoever, well-formed CSV or not, is read as.
-/
set_option linter.unusedSimpArgs false
set_option linter.unusedVariables false
namespace MVault.Csv

/-! ### Specification: fields, lines and files with stray and unclosed quotation marks. Models no code (it describes what CsvParser.cpp lines 42-122 read). -/

/-- The text between quotation marks that stands for `q`: the quotation marks of `q` doubled. -/
def doubled (q : List Char) : List Char := q.flatMap fun c => if c = '"' then ['"', '"'] else [c]

/-- A finished field: `AnyField sep v t` says that the text `t` is read as `v`. Ordinary characters stand for themselves. A part in quotation marks stands for its content, *and
what the field had before it is dropped*. (Where a part has just been closed another one cannot open: two quotation marks are one character of the part.) -/
inductive AnyField (sep : Char) : List Char → List Char → Prop
  | start : AnyField sep [] []
  | char (v t c) : AnyField sep v t → c ≠ sep → c ≠ '"' → c ≠ '\r' → c ≠ '\n' → AnyField sep (v ++ [c]) (t ++ [c])
  | part (v t q) : AnyField sep v t → t.getLast? ≠ some '"' → AnyField sep q (t ++ '"' :: (doubled q ++ ['"']))

/-- A finished line: its fields, with separators between them. -/
inductive AnyLine (sep : Char) : List (List Char) → List Char → Prop
  | one (v t) : AnyField sep v t → AnyLine sep [v] t
  | more (v t vs ts) : AnyField sep v t → AnyLine sep vs ts → AnyLine sep (v :: vs) (t ++ sep :: ts)

/-- A line whose last part in quotation marks is never closed; it goes on to the end of the file. -/
inductive OpenLine (sep : Char) : List (List Char) → List Char → Prop
  | one (v t q) : AnyField sep v t → t.getLast? ≠ some '"' → OpenLine sep [q] (t ++ '"' :: doubled q)
  | more (v t vs ts) : AnyField sep v t → OpenLine sep vs ts → OpenLine sep (v :: vs) (t ++ sep :: ts)

/-- The row made of a line: an empty last field is dropped. -/
def rowOf (fields : List (List Char)) : List (List Char) := if fields.getLast? = some [] then fields.dropLast else fields

/-- A file: lines, each but the last with its end. The end of a line is CR or LF, together with an LF after it (so that LF LF is *one* end). The last line gives no row when
nothing is left of it. -/
inductive AnyText (sep : Char) : List (List (List Char)) → List Char → Prop
  | last (fs t) : AnyLine sep fs t ∨ OpenLine sep fs t → AnyText sep (if rowOf fs = [] then [] else [rowOf fs]) t
  | line (fs t c stop rows rest) : AnyLine sep fs t → c = '\r' ∨ c = '\n' → (stop = [c, '\n'] ∨ (stop = [c] ∧ rest.head? ≠ some '\n')) → AnyText sep rows rest →
      AnyText sep (rowOf fs :: rows) (t ++ stop ++ rest)

/-! ### Lemmas -/

theorem scan_any {sep : Char} {v t : List Char} (h : AnyField sep v t) : ∀ (rest : List Char) (row : List (List Char)), (t.getLast? = some '"' → rest.head? ≠ some '"') →
    scan sep (t ++ rest) false [] row = scan sep rest false v row := by
  induction h with
  | start => intro rest row _; rfl
  | char v t c h h1 h2 h3 h4 ih =>
    intro rest row _
    rw [List.append_assoc, ih _ _ (by simp [h2]), List.singleton_append, scan]
    simp [h1, h2, h3, h4]
  | part v t q h hl ih =>
    intro rest row hr
    have hr' : rest.head? ≠ some '"' := hr (by
      have : t ++ '"' :: (doubled q ++ ['"']) = (t ++ '"' :: doubled q) ++ ['"'] := by simp
      rw [this, List.getLast?_append]; simp)
    rw [List.append_assoc, ih _ _ (fun hh => absurd hh hl)]
    simp only [List.cons_append, List.append_assoc]
    rw [scan]
    simp only [show (('"' : Char) == '\r') = false from rfl, show (('"' : Char) == '\n') = false from rfl,
      Bool.or_false, Bool.and_false, Bool.false_eq_true, if_false, beq_self_eq_true, if_true, Bool.not_false]
    rw [show doubled q = dbl q from rfl, scan_dbl]
    simp only [List.nil_append]
    rw [scan]
    simp only [Bool.not_true, Bool.false_and, Bool.false_eq_true, if_false, beq_self_eq_true, if_true]
    cases rest with
    | nil => rfl
    | cons d r =>
      have : d ≠ '"' := by simpa using hr'
      simp [this]

theorem scan_sep {sep : Char} (hs : GoodSep sep) (v ts : List Char) (acc : List (List Char)) : scan sep (sep :: ts) false v acc = scan sep ts false [] (acc ++ [v]) := by
  rw [scan]
  have h1 : (sep == '\r' || sep == '\n') = false := by simp [hs.2.1, hs.2.2]
  have h2 : (sep == '"') = false := by simp [hs.1]
  simp only [h1, h2, Bool.and_false, Bool.false_eq_true, if_false, beq_self_eq_true, Bool.not_false, Bool.and_true, if_true]

theorem scan_anyLine {sep : Char} (hs : GoodSep sep) {fs : List (List Char)} {t : List Char} (h : AnyLine sep fs t) (rest : List Char) (hr : rest.head? ≠ some '"') :
    ∀ acc, ∃ init lst, fs = init ++ [lst] ∧ scan sep (t ++ rest) false [] acc = scan sep rest false lst (acc ++ init) := by
  induction h with
  | one f t h => exact fun acc => ⟨[], f, rfl, by rw [scan_any h _ _ (fun _ => hr)]; simp⟩
  | more f t fs ts h _ ih =>
    intro acc
    obtain ⟨init, lst, e1, e2⟩ := ih (acc ++ [f])
    refine ⟨f :: init, lst, by rw [e1]; rfl, ?_⟩
    rw [List.append_assoc, scan_any h _ _ (fun _ => by simp [hs.1]), List.cons_append, scan_sep hs, e2]
    simp

theorem scan_openLine {sep : Char} (hs : GoodSep sep) {fs : List (List Char)} {t : List Char} (h : OpenLine sep fs t) :
    ∀ acc, ∃ init lst, fs = init ++ [lst] ∧ scan sep t false [] acc = scan sep [] true lst (acc ++ init) := by
  induction h with
  | one v t q h hl =>
    refine fun acc => ⟨[], q, rfl, ?_⟩
    have h2 : scan sep ('"' :: doubled q) false v acc = scan sep (dbl q ++ []) true [] acc := by
      rw [scan, List.append_nil]
      rfl
    rw [scan_any h _ _ (fun hh => absurd hh hl), h2, scan_dbl]
    simp
  | more f t fs ts h _ ih =>
    intro acc
    obtain ⟨init, lst, e1, e2⟩ := ih (acc ++ [f])
    refine ⟨f :: init, lst, by rw [e1]; rfl, ?_⟩
    rw [scan_any h _ _ (fun _ => by simp [hs.1]), scan_sep hs, e2]
    simp

theorem rowOf_snoc (init : List (List Char)) (lst : List Char) : rowOf (init ++ [lst]) = if lst.isEmpty then init else init ++ [lst] := trim_snoc init lst

theorem rowsOf_any {sep : Char} (hs : GoodSep sep) {rows : List (List (List Char))} {text : List Char} (h : AnyText sep rows text) :
    ∀ n, rows.length < n → rowsOf sep n text = some rows := by
  induction h with
  | last fs t h =>
    intro n hn
    obtain ⟨m, rfl⟩ : ∃ m, n = m + 1 := ⟨n - 1, by omega⟩
    obtain ⟨init, lst, esc, e1, e2⟩ : ∃ init lst, ∃ esc : Bool, fs = init ++ [lst] ∧ scan sep t false [] [] = scan sep [] esc lst init := by
      rcases h with h | h
      · obtain ⟨init, lst, e1, e2⟩ := scan_anyLine hs h [] (by simp) []
        exact ⟨init, lst, false, e1, by simpa using e2⟩
      · obtain ⟨init, lst, e1, e2⟩ := scan_openLine hs h []
        exact ⟨init, lst, true, e1, by simpa using e2⟩
    rw [rowsOf, e2, scan]
    rw [e1, rowOf_snoc] at hn ⊢
    by_cases he : (if lst.isEmpty = true then init else init ++ [lst]) = []
    · have : (!(if lst.isEmpty = true then init else init ++ [lst]).isEmpty) = false := by simpa using he
      rw [if_pos he]
      simp only [this]
    · rw [if_neg he] at hn ⊢
      have : (!(if lst.isEmpty = true then init else init ++ [lst]).isEmpty) = true := by simpa using he
      simp only [this]
      obtain ⟨k, rfl⟩ : ∃ k, m = k + 1 := ⟨m - 1, by simp at hn; omega⟩
      simp only [rowsOf_nil, Option.map_some]
  | line fs t c stop rows rest h hc hst _ ih =>
    intro n hn
    obtain ⟨m, rfl⟩ : ∃ m, n = m + 1 := ⟨n - 1, by simp at hn; omega⟩
    have hq : (stop ++ rest).head? ≠ some '"' := by
      rcases hst with rfl | ⟨rfl, _⟩ <;> rcases hc with rfl | rfl <;> simp
    obtain ⟨init, lst, e1, e2⟩ := scan_anyLine hs h (stop ++ rest) hq []
    rw [List.append_assoc, rowsOf, e2]
    have hsc : scan sep (stop ++ rest) false lst ([] ++ init) = (true, rowOf fs, rest) := by
      rw [e1, rowOf_snoc]
      have hcc : (c == '\r' || c == '\n') = true := by rcases hc with rfl | rfl <;> rfl
      rcases hst with rfl | ⟨rfl, hh⟩
      · simp [scan, hcc]
      · have : (rest.head? == some '\n') = false := by simpa using hh
        simp [scan, this, hcc]
    rw [hsc]
    simp only [ih m (by simp at hn; omega), Option.map_some]

theorem AnyLine.len {sep : Char} {fs : List (List Char)} (h : AnyLine sep fs []) : rowOf fs = [] := by
  generalize ht : ([] : List Char) = t at h
  cases h with
  | one v t h =>
    cases h with
    | start => rfl
    | char => simp at ht
    | part => simp at ht
  | more => simp at ht

theorem AnyText.len {sep : Char} {rows : List (List (List Char))} {text : List Char} (h : AnyText sep rows text) : rows.length ≤ text.length := by
  induction h with
  | last fs t h =>
    split
    · simp
    · rename_i hne
      cases t with
      | cons => simp
      | nil =>
        exfalso
        rcases h with h | h
        · exact hne h.len
        · generalize ht : ([] : List Char) = t at h
          cases h <;> simp at ht
  | line fs t c stop rows rest h hc hst _ ih =>
    have : 1 ≤ stop.length := by rcases hst with rfl | ⟨rfl, _⟩ <;> simp
    simp; omega

/-- Behind an opening quotation mark: the part is closed somewhere, or never. -/
theorem close_or_not : ∀ (n : Nat) (l : List Char), l.length ≤ n → (∃ q r, l = doubled q ++ '"' :: r ∧ r.head? ≠ some '"') ∨ ∃ q, l = doubled q
  | _, [], _ => .inr ⟨[], rfl⟩
  | 0, _ :: _, h => by simp at h
  | n + 1, c :: l, h => by
    by_cases hc : c = '"'
    · subst hc
      match l, h with
      | [], _ => exact .inl ⟨[], [], rfl, by simp⟩
      | d :: l, h =>
        by_cases hd : d = '"'
        · subst hd
          rcases close_or_not n l (by simp at h; omega) with ⟨q, r, rfl, hr⟩ | ⟨q, rfl⟩
          · exact .inl ⟨'"' :: q, r, by simp [doubled], hr⟩
          · exact .inr ⟨'"' :: q, by simp [doubled]⟩
        · exact .inl ⟨[], d :: l, rfl, by simpa using hd⟩
    · rcases close_or_not n l (by simp at h; omega) with ⟨q, r, rfl, hr⟩ | ⟨q, rfl⟩
      · exact .inl ⟨c :: q, r, by simp [doubled, hc], hr⟩
      · exact .inr ⟨c :: q, by simp [doubled, hc]⟩

/-- The rest of a field: it is finished before a separator, an end of a line or the end of the file, or a part is never closed. -/
theorem field_total (sep : Char) : ∀ (n : Nat) (l : List Char), l.length ≤ n → ∀ v t, AnyField sep v t → (t.getLast? = some '"' → l.head? ≠ some '"') →
    (∃ v' t' r, AnyField sep v' (t ++ t') ∧ l = t' ++ r ∧ ∀ c, r.head? = some c → c = sep ∨ c = '\r' ∨ c = '\n') ∨
    ∃ v' t' q, AnyField sep v' (t ++ t') ∧ (t ++ t').getLast? ≠ some '"' ∧ l = t' ++ '"' :: doubled q
  | _, [], _, v, t, h, _ => .inl ⟨v, [], [], by simpa using h, rfl, by simp⟩
  | 0, _ :: _, hl, _, _, _, _ => by simp at hl
  | n + 1, c :: l, hl, v, t, h, hq => by
    by_cases hend : c = sep ∨ c = '\r' ∨ c = '\n'
    · exact .inl ⟨v, [], c :: l, by simpa using h, rfl, by simpa using hend⟩
    · simp only [not_or] at hend
      by_cases hc : c = '"'
      · subst hc
        have htl : t.getLast? ≠ some '"' := fun e => hq e rfl
        rcases close_or_not l.length l (le_refl _) with ⟨q, r, rfl, hr⟩ | ⟨q, rfl⟩
        · have h' := AnyField.part v t q h htl
          have hlen : r.length ≤ n := by simp at hl; omega
          rcases field_total sep n r hlen q _ h' (fun _ => hr) with ⟨v', t', r', h1, rfl, h3⟩ | ⟨v', t', q', h1, h2, rfl⟩
          · exact .inl ⟨v', '"' :: (doubled q ++ ['"']) ++ t', r', by simpa using h1, by simp, h3⟩
          · exact .inr ⟨v', '"' :: (doubled q ++ ['"']) ++ t', q', by simpa using h1, by simpa using h2, by simp⟩
        · exact .inr ⟨v, [], q, by simpa using h, by simpa using htl, rfl⟩
      · have h' := AnyField.char v t c h hend.1 hc hend.2.1 hend.2.2
        rcases field_total sep n l (by simp at hl; omega) _ _ h' (by simp [hc]) with ⟨v', t', r', h1, rfl, h3⟩ | ⟨v', t', q', h1, h2, rfl⟩
        · exact .inl ⟨v', c :: t', r', by simpa using h1, by simp, h3⟩
        · exact .inr ⟨v', c :: t', q', by simpa using h1, by simpa using h2, by simp⟩

theorem line_total (sep : Char) : ∀ (n : Nat) (l : List Char), l.length ≤ n →
    (∃ fs t r, AnyLine sep fs t ∧ l = t ++ r ∧ ∀ c, r.head? = some c → c = '\r' ∨ c = '\n') ∨ ∃ fs, OpenLine sep fs l
  | n, l, hl => by
    rcases field_total sep l.length l (le_refl _) [] [] .start (by simp) with ⟨v, t, r, h1, rfl, h3⟩ | ⟨v, t, q, h1, h2, rfl⟩
    · rw [List.nil_append] at h1
      cases r with
      | nil => exact .inl ⟨[v], t, [], .one _ _ h1, rfl, by simp⟩
      | cons c r =>
        by_cases hc : c = '\r' ∨ c = '\n'
        · exact .inl ⟨[v], t, c :: r, .one _ _ h1, rfl, by simpa using hc⟩
        · have hcs : c = sep := by
            rcases h3 c rfl with h | h
            · exact h
            · exact absurd h hc
          subst hcs
          match n, hl with
          | 0, hl => simp at hl
          | n + 1, hl =>
            rcases line_total c n r (by simp at hl; omega) with ⟨fs, t2, r2, g1, rfl, g3⟩ | ⟨fs, g⟩
            · exact .inl ⟨v :: fs, t ++ c :: t2, r2, .more _ _ _ _ h1 g1, by simp, g3⟩
            · exact .inr ⟨v :: fs, .more _ _ _ _ h1 g⟩
    · rw [List.nil_append] at h1 h2
      exact .inr ⟨[q], .one _ _ _ h1 h2⟩

theorem text_total (sep : Char) : ∀ (n : Nat) (l : List Char), l.length ≤ n → ∃ rows, AnyText sep rows l
  | n, l, hl => by
    rcases line_total sep l.length l (le_refl _) with ⟨fs, t, r, h1, rfl, h3⟩ | ⟨fs, h⟩
    · cases r with
      | nil => exact ⟨_, by simpa using AnyText.last fs t (.inl h1)⟩
      | cons c r =>
        match n, hl with
        | 0, hl => simp at hl
        | n + 1, hl =>
          by_cases hn : r.head? = some '\n'
          · obtain ⟨r', rfl⟩ : ∃ r', r = '\n' :: r' := by
              cases r with
              | nil => simp at hn
              | cons d r => simp at hn; exact ⟨r, by rw [hn]⟩
            obtain ⟨rows, h⟩ := text_total sep n r' (by simp at hl; omega)
            exact ⟨_, by simpa using AnyText.line fs t c [c, '\n'] rows r' h1 (h3 c rfl) (.inl rfl) h⟩
          · obtain ⟨rows, h⟩ := text_total sep n r (by simp at hl; omega)
            exact ⟨_, by simpa using AnyText.line fs t c [c] rows r h1 (h3 c rfl) (.inr ⟨rfl, hn⟩) h⟩
    · exact ⟨_, .last fs l (.inr h)⟩

/-! ### Theorems -/

/-- **C102.** Every file, well-formed or not, is read as exactly the rows that the specification says, whether it is read as a whole or block by block. -/
theorem C102_reads_any (block big : Nat) (hb : 1 < block) (hbig : block ≤ big) {sep : Char} (hs : GoodSep sep) (text : List Char) (rows : List (List (List Char))) :
    parseFile block big sep text = some rows ↔ AnyText sep rows text := by
  have key : ∀ rows, AnyText sep rows text → parseFile block big sep text = some rows := by
    intro rows h
    have hl := h.len
    have := rowsOf_any hs h (text.length + 1) (by omega)
    unfold parseFile
    split
    · rw [readRows_chunk sep _ block hb _ (by omega), this]
    · rw [readRows_small, this]
  constructor
  · intro h
    obtain ⟨rows', h'⟩ := text_total sep text.length text (le_refl _)
    rw [key _ h'] at h
    simp only [Option.some.injEq] at h
    exact h ▸ h'
  · exact key rows

/-- **C102.** The specification gives every file exactly one table. -/
theorem C102_meaning (sep : Char) (hs : GoodSep sep) (text : List Char) : ∃! rows, AnyText sep rows text := by
  obtain ⟨rows, h⟩ := text_total sep text.length text (le_refl _)
  refine ⟨rows, h, fun rows' h' => ?_⟩
  have h1 := (C102_reads_any 4096 10485760 (by decide) (by decide) hs text rows).2 h
  have h2 := (C102_reads_any 4096 10485760 (by decide) (by decide) hs text rows').2 h'
  rw [h1] at h2
  exact (Option.some.inj h2).symm

theorem AnyField.plain_eq {sep : Char} {v t : List Char} (h : AnyField sep v t) (hq : '"' ∉ t) : v = t := by
  induction h with
  | start => rfl
  | char v t c h _ _ _ _ ih => rw [ih (fun hh => hq (by simp [hh]))]
  | part v t q => simp at hq

theorem doubled_plain {q : List Char} (h : '"' ∉ q) : doubled q = q := by
  unfold doubled
  induction q with
  | nil => rfl
  | cons c q ih =>
    simp only [List.mem_cons, not_or] at h
    rw [List.flatMap_cons, ih h.2, if_neg (Ne.symm h.1)]
    rfl

theorem open_of_line {sep : Char} {fs : List (List Char)} {t : List Char} (h : AnyLine sep fs t) (hq : '"' ∉ t) (q : List Char) :
    OpenLine sep (fs.dropLast ++ [q]) (t ++ '"' :: doubled q) := by
  induction h with
  | one v t h => exact .one v t q h (fun e => hq (List.mem_of_getLast? e))
  | more v t vs ts h hl ih =>
    have hne : vs ≠ [] := by cases hl <;> simp
    have := OpenLine.more v t _ _ h (ih (fun hh => hq (by simp [hh])))
    rw [List.dropLast_cons_of_ne_nil hne]
    simpa using this

theorem no_open {sep : Char} {fs : List (List Char)} {t : List Char} (h : OpenLine sep fs t) : '"' ∈ t := by
  induction h with
  | one => simp
  | more v t vs ts h _ ih => simp [ih]

theorem unclosed_text {sep : Char} {b : List Char} (hb : '"' ∉ b) (hne : b ≠ []) : ∀ (n : Nat) (a : List Char), a.length ≤ n → '"' ∉ a →
    ∃ rows row, AnyText sep (rows ++ [row]) (a ++ '"' :: b) ∧ row.getLast? = some b ∧ rows.length ≤ a.countP (fun c => c == '\r' || c == '\n')
  | n, a, hl, hq => by
    rcases line_total sep a.length a (le_refl _) with ⟨fs, t, r, h1, rfl, h3⟩ | ⟨fs, h⟩
    · have hqt : '"' ∉ t := fun hh => hq (by simp [hh])
      cases r with
      | nil =>
        have ho := open_of_line h1 hqt b
        have := AnyText.last _ _ (.inr ho)
        rw [rowOf_snoc, doubled_plain hb] at this
        have hbe : b.isEmpty = false := by simpa using hne
        simp only [hbe, Bool.false_eq_true, if_false] at this
        rw [if_neg (by simp)] at this
        exact ⟨[], fs.dropLast ++ [b], by simpa using this, by simp, by simp⟩
      | cons c r =>
        match n, hl with
        | 0, hl => simp at hl
        | n + 1, hl =>
          have hc := h3 c rfl
          have hcc : (c == '\r' || c == '\n') = true := by rcases hc with rfl | rfl <;> rfl
          by_cases hn : r.head? = some '\n'
          · obtain ⟨r', rfl⟩ : ∃ r', r = '\n' :: r' := by
              cases r with
              | nil => simp at hn
              | cons d r => simp at hn; exact ⟨r, by rw [hn]⟩
            obtain ⟨rows, row, g1, g2, g3⟩ := unclosed_text hb hne n r' (by simp at hl; omega) (fun hh => hq (by simp [hh]))
            refine ⟨rowOf fs :: rows, row, by simpa using AnyText.line fs t c [c, '\n'] _ _ h1 hc (.inl rfl) g1, g2, ?_⟩
            simp [List.countP_cons, hcc]
            omega
          · obtain ⟨rows, row, g1, g2, g3⟩ := unclosed_text hb hne n r (by simp at hl; omega) (fun hh => hq (by simp [hh]))
            refine ⟨rowOf fs :: rows, row, by
              simpa using AnyText.line fs t c [c] _ _ h1 hc (.inr ⟨rfl, by cases r with | nil => simp | cons d r => simpa using hn⟩) g1, g2, ?_⟩
            simp [List.countP_cons, hcc]
            omega
    · exact absurd (no_open h) hq

/-- **C102.** A single stray quotation mark swallows the rest of the file: everything behind it, line ends and separators included, is one field, the last field of the last row;
there are no more rows than line ends before it, plus one. -/
theorem C102_unclosed (block big : Nat) (hb : 1 < block) (hbig : block ≤ big) {sep : Char} (hs : GoodSep sep) {a b : List Char} (ha : '"' ∉ a) (hq : '"' ∉ b) (hne : b ≠ []) :
    ∃ rows row, parseFile block big sep (a ++ '"' :: b) = some (rows ++ [row]) ∧ row.getLast? = some b ∧ rows.length ≤ a.countP (fun c => c == '\r' || c == '\n') := by
  obtain ⟨rows, row, h1, h2, h3⟩ := unclosed_text (sep := sep) hq hne a.length a (le_refl _) ha
  exact ⟨rows, row, (C102_reads_any block big hb hbig hs _ _).2 h1, h2, h3⟩

/-- **C102.** A quotation mark in the middle of a field drops what the field had before it: a file with the single line `x"y"z` (no special characters in `x` and `z`, not both `y`
and `z` empty) has the single field `yz`. -/
theorem C102_stray (block big : Nat) (hb : 1 < block) (hbig : block ≤ big) {sep : Char} (hs : GoodSep sep) {x y z : List Char}
    (hx : ∀ c ∈ x ++ z, c ≠ sep ∧ c ≠ '"' ∧ c ≠ '\r' ∧ c ≠ '\n') (hne : y ++ z ≠ []) :
    parseFile block big sep (x ++ '"' :: (doubled y ++ '"' :: z)) = some [[y ++ z]] := by
  have grow : ∀ (z v t : List Char), AnyField sep v t → (∀ c ∈ z, c ≠ sep ∧ c ≠ '"' ∧ c ≠ '\r' ∧ c ≠ '\n') → AnyField sep (v ++ z) (t ++ z) := by
    intro z
    induction z with
    | nil => intro v t h _; simpa using h
    | cons c z ih =>
      intro v t h hz
      obtain ⟨h1, h2, h3, h4⟩ := hz c (by simp)
      have := ih _ _ (.char v t c h h1 h2 h3 h4) (fun c hc => hz c (by simp [hc]))
      simpa using this
  have hX := grow x [] [] .start (fun c hc => hx c (by simp [hc]))
  simp only [List.nil_append] at hX
  have hP := AnyField.part x x y hX (fun e => (hx '"' (by simp [List.mem_of_getLast? e])).2.1 rfl)
  have hZ := grow z _ _ hP (fun c hc => hx c (by simp [hc]))
  have := AnyText.last [y ++ z] _ (.inl (.one _ _ hZ))
  have hr : rowOf [y ++ z] = [y ++ z] := by
    unfold rowOf
    rw [if_neg (by simpa using hne)]
  rw [hr, if_neg (by simp)] at this
  exact (C102_reads_any block big hb hbig hs _ _).2 (by simpa using this)

/-- **C102.** A blank line written with LF is not seen: LF LF ends one line, not two. -/
theorem C102_blank (block big : Nat) (hb : 1 < block) (hbig : block ≤ big) {sep : Char} (hs : GoodSep sep) {fs : List (List Char)} {t rest : List Char} (h : AnyLine sep fs t)
    (hr : rest.head? ≠ some '\n') : parseFile block big sep (t ++ ['\n', '\n'] ++ rest) = parseFile block big sep (t ++ ['\n'] ++ rest) := by
  obtain ⟨rows, hrest⟩ := text_total sep rest.length rest (le_refl _)
  rw [(C102_reads_any block big hb hbig hs _ _).2 (.line fs t '\n' ['\n', '\n'] rows rest h (.inr rfl) (.inl rfl) hrest),
    (C102_reads_any block big hb hbig hs _ _).2 (.line fs t '\n' ['\n'] rows rest h (.inr rfl) (.inr ⟨rfl, hr⟩) hrest)]

/-! ### Concrete cases -/

/-- `5" pipe,x⏎y` : the rest of the file is one field, and `5` is lost. -/
example : ∃ rows row, parseFile 4096 10485760 ',' ("a,b\r\n5".toList ++ '"' :: " pipe,x\r\ny,z".toList) = some (rows ++ [row]) ∧ row.getLast? = some " pipe,x\r\ny,z".toList ∧ rows.length ≤ 2 :=
  C102_unclosed 4096 10485760 (by decide) (by decide) (by decide) (by decide) (by decide) (by decide)
example : parseFile 4096 10485760 ',' "5\" in\"ch".toList = some [[" inch".toList]] :=
  C102_stray 4096 10485760 (by decide) (by decide) (by decide) (x := ['5']) (y := " in".toList) (z := "ch".toList) (by decide) (by decide)
example : parseFile 4096 10485760 ',' (['a'] ++ ['\n', '\n'] ++ ['b']) = parseFile 4096 10485760 ',' (['a'] ++ ['\n'] ++ ['b']) :=
  C102_blank 4096 10485760 (by decide) (by decide) (by decide) (.one ['a'] _ (.char [] [] 'a' .start (by decide) (by decide) (by decide) (by decide))) (by decide)
/-- Carriage returns make blank lines (empty rows), and an empty last line gives no row. -/
example : AnyText ',' [[['a']], [], [['b']]] ['a', '\r', '\r', 'b'] :=
  .line [['a']] ['a'] '\r' ['\r'] [[], [['b']]] ['\r', 'b'] (.one ['a'] _ (.char [] [] 'a' .start (by decide) (by decide) (by decide) (by decide))) (.inl rfl) (.inr ⟨rfl, by decide⟩)
    (.line [[]] [] '\r' ['\r'] [[['b']]] ['b'] (.one _ _ .start) (.inl rfl) (.inr ⟨rfl, by decide⟩)
      (.last [['b']] ['b'] (.inl (.one ['b'] _ (.char [] [] 'b' .start (by decide) (by decide) (by decide) (by decide))))))

end MVault.Csv

namespace MVault.W
open MVault.Csv (AnyText GoodSep parseFile C102_reads_any)
variable {V Ty : Type} [LinearOrder V] [Typed V Ty] [DecidableEq Ty] [Texts V Ty]

/-- **C102.** So `ReadFile` of a vault, of any two files that mean the same table, gives the same records, answers and errors, or both are undefined. -/
theorem C102_vault_reads (block big : Nat) (hb : 1 < block) (hbig : block ≤ big) {sep : Char} (hs : GoodSep sep) {rows : List (List (List Char))} {text text' : List Char}
    (h : AnyText sep rows text) (h' : AnyText sep rows text') (handler : List Key → List (List Char) → List (List Char)) (w : World Key V Ty) (o : Nat) (isLoadKeys : Bool)
    (userKeys : List Key) :
    readFileWith handler block big w o (some text) sep isLoadKeys userKeys = readFileWith handler block big w o (some text') sep isLoadKeys userKeys := by
  simp only [readFileWith]
  rw [(C102_reads_any block big hb hbig hs _ _).2 h, (C102_reads_any block big hb hbig hs _ _).2 h']

/-- Non-vacuity of `C102_vault_reads`: one table, two texts, one of them with a stray quotation mark. -/
example : AnyText ',' [[['5']]] ['5'] ∧ AnyText ',' [[['5']]] ['4', '"', '5', '"', '\n', '\n'] :=
  ⟨.last [['5']] ['5'] (.inl (.one ['5'] _ (.char [] [] '5' .start (by decide) (by decide) (by decide) (by decide)))),
    .line [['5']] ['4', '"', '5', '"'] '\n' ['\n', '\n'] [] [] (.one ['5'] _ (.part ['4'] ['4'] ['5'] (.char [] [] '4' .start (by decide) (by decide) (by decide) (by decide)) (by decide)))
      (.inr rfl) (.inl rfl) (.last [[]] [] (.inl (.one _ _ .start)))⟩

end MVault.W
