import Verif.CsvLemmas
/-!
# Properties of the CSV writer, the CSV parser and the file reader (C01–C04)

Vocabulary: a *row* is a list of fields, a *field* is a list of characters. `writeRows [sep] rows` is the
text SaveToFile writes, `parseFile block big sep text` is what a client that opens a file with that content
and calls `GetNextVector` until it answers false gets (`none` would mean that it never answers false).
-/
namespace MVault.Csv

/-- Specification: a field that contains a character which makes the writer quote it. -/
def Quoted (f : List Char) : Prop := '"' ∈ f ∨ ',' ∈ f ∨ '\n' ∈ f

/-- Specification: fields that survive: quoted ones, and ones without carriage return and separator. -/
def Clean (sep : Char) (f : List Char) : Prop := Quoted f ∨ ('\r' ∉ f ∧ sep ∉ f)

/-- Specification: separators that are not themselves quote or line-end characters. -/
def GoodSep (sep : Char) : Prop := sep ≠ '"' ∧ sep ≠ '\r' ∧ sep ≠ '\n'

instance (sep : Char) : Decidable (GoodSep sep) := inferInstanceAs (Decidable (_ ∧ _))

theorem clean_fieldOk {sep : Char} {f : List Char} (h : Clean sep f) : FieldOk sep f := by
  rcases h with h | ⟨h1, h2⟩
  · left
    simp only [List.any_eq_true, special]
    rcases h with h | h | h
    · exact ⟨_, h, by simp⟩
    · exact ⟨_, h, by simp⟩
    · exact ⟨_, h, by simp⟩
  · right
    intro c hc
    exact ⟨fun e => h1 (e ▸ hc), fun e => h2 (e ▸ hc)⟩

/-- **C02, exact form.** Parsing what was written gives back the rows, except that an empty last field of a
row is lost; this holds for whole-file and block-wise reading. -/
theorem C02_table_roundtrip_exact (block big : Nat) (hb : 1 < block) (hbig : block ≤ big) (sep : Char)
    (hs : GoodSep sep) (rows : List (List (List Char)))
    (hclean : ∀ row ∈ rows, ∀ f ∈ row, Clean sep f) :
    parseFile block big sep (writeRows [sep] rows) =
      some (rows.map (fun row => if row.getLast? = some [] then row.dropLast else row)) := by
  have hlen := writeRows_length [sep] rows
  have key := rowsOf_write sep hs rows ((writeRows [sep] rows).length + 1) (by omega)
    (fun r hr f hf => clean_fieldOk (hclean r hr f hf))
  unfold parseFile
  split
  · rw [readRows_chunk sep _ block hb _ (by omega)]; exact key
  · rw [readRows_small]; exact key

/-- **C02.** Write-then-parse is the identity on tables. Partial: fields must be `Clean` and no row may end in
an empty field (both are necessary, see the refutations below). -/
theorem C02_table_roundtrip_partial (block big : Nat) (hb : 1 < block) (hbig : block ≤ big) (sep : Char)
    (hs : GoodSep sep) (rows : List (List (List Char)))
    (hclean : ∀ row ∈ rows, ∀ f ∈ row, Clean sep f)
    (hlast : ∀ row ∈ rows, row.getLast? ≠ some []) :
    parseFile block big sep (writeRows [sep] rows) = some rows := by
  rw [C02_table_roundtrip_exact block big hb hbig sep hs rows hclean]
  congr 1
  rw [List.map_congr_left (g := id)]
  · simp
  · intro row hr; simp [hlast row hr]

example : GoodSep ',' ∧
    (∀ row ∈ [["a,\"b\n".toList, [], "c".toList], [[',', '\r']]], ∀ f ∈ row, Clean ',' f) ∧
    (∀ row ∈ [["a,\"b\n".toList, [], "c".toList], [[',', '\r']]], row.getLast? ≠ some []) := by
  refine ⟨by decide, ?_, by decide⟩
  intro row hr f hf
  simp at hr
  rcases hr with rfl | rfl <;> simp at hf
  · rcases hf with rfl | rfl | rfl <;> simp [Clean, Quoted]
  · subst hf; simp [Clean, Quoted]

/-- Refutation of the unrestricted C02: an empty last field is lost. -/
theorem C02_refuted_empty_last :
    parseFile 4096 10485760 ',' (writeRows [','] [[['a'], []]]) = some [[['a']]] := by
  rw [C02_table_roundtrip_exact 4096 10485760 (by decide) (by decide) ',' (by decide) _
    (by intro r hr f hf; simp at hr; subst hr; simp at hf; rcases hf with rfl | rfl <;> simp [Clean, Quoted])]
  rfl

/-- Refutation of the unrestricted C02: a carriage return in a field splits the row. -/
theorem C02_refuted_cr :
    parseFile 4096 10485760 ',' (writeRows [','] [[['a', '\r', 'b']]]) = some [[['a']], [['b']]] := by
  unfold parseFile
  rw [if_neg (by decide), readRows_small]
  simp [writeRows, writeRow, formatCsv_eq, dbl, special, rowsOf, scan]

/-- Refutation of the unrestricted C02: with a separator other than the comma the separator is not quoted. -/
theorem C02_refuted_separator :
    parseFile 4096 10485760 ';' (writeRows [';'] [[['a', ';', 'b']]]) = some [[['a'], ['b']]] := by
  unfold parseFile
  rw [if_neg (by decide), readRows_small]
  simp [writeRows, writeRow, formatCsv_eq, dbl, special, rowsOf, scan]

/-- **C01.** A field without carriage return comes back byte for byte at its place in a comma-separated line,
whatever quotes, commas and newlines it holds and whatever clean fields surround it, unless it is an empty
last field. -/
theorem C01_field_roundtrip (block big : Nat) (hb : 1 < block) (hbig : block ≤ big)
    (before after : List (List Char)) (f : List Char) (hcr : '\r' ∉ f)
    (hne : f ≠ [] ∨ after ≠ [])
    (hnb : ∀ g ∈ before ++ after, '\r' ∉ g) :
    ∃ row, parseFile block big ',' (writeRows [','] [before ++ f :: after]) = some [row] ∧
      row[before.length]? = some f ∧ (∀ i, i < before.length → row[i]? = before[i]?) := by
  have hc : ∀ g, '\r' ∉ g → Clean ',' g := by
    intro g hg
    by_cases h : ',' ∈ g
    · exact Or.inl (Or.inr (Or.inl h))
    · exact Or.inr ⟨hg, h⟩
  have hgood : GoodSep ',' := by decide
  rw [C02_table_roundtrip_exact block big hb hbig ',' hgood]
  · refine ⟨_, rfl, ?_, ?_⟩
    · simp only []
      split
      · rename_i h
        have hafter : after ≠ [] := by
          intro ha; subst ha
          simp at h
          rcases hne with h' | h'
          · exact h' h
          · exact h' rfl
        obtain ⟨a, as, rfl⟩ : ∃ a as, after = a :: as := by
          cases after with
          | nil => exact absurd rfl hafter
          | cons a as => exact ⟨a, as, rfl⟩
        rw [List.dropLast_append_of_ne_nil (by simp)]
        simp
      · simp
    · intro i hi
      simp only []
      split
      · rw [List.dropLast_append_of_ne_nil (by simp), List.getElem?_append_left hi]
      · rw [List.getElem?_append_left hi]
  · intro row hr g hg
    simp at hr; subst hr
    apply hc
    simp at hg
    rcases hg with hg | hg | hg
    · exact hnb g (by simp [hg])
    · exact hg ▸ hcr
    · exact hnb g (by simp [hg])

example : '\r' ∉ "say \"hi\",\nbye".toList ∧ ("say \"hi\",\nbye".toList ≠ [] ∨ ([] : List (List Char)) ≠ []) ∧
    (∀ g ∈ [['x'], []] ++ ([] : List (List Char)), '\r' ∉ g) := by decide

/-- **C03.** After any number `n` of moves, block-wise reading and whole-file reading answer the same: same end
test, same position, same current character and same look-ahead character, namely those of the file. -/
theorem C03_block_reading_transparent (block : Nat) (hb : 1 < block) (file : List Char)
    (hf : block ≤ file.length) (n : Nat) :
    let c := Nat.repeat (chunkReader block file).move n (ChunkRd.opened block file)
    let w := Nat.repeat (smallReader file).move n (SmallRd.opened file)
    (chunkReader block file).notEnd c = decide (n < file.length) ∧
    (smallReader file).notEnd w = decide (n < file.length) ∧
    (chunkReader block file).pos c = min n file.length ∧
    (smallReader file).pos w = min n file.length ∧
    (∀ x, file[n]? = some x → (chunkReader block file).chr c = x ∧ (smallReader file).chr w = x) ∧
    (∀ x, file[n + 1]? = some x → (chunkReader block file).next c = x ∧ (smallReader file).next w = x) := by
  intro c w
  have hw : SmallQ file w (file.drop n) := by
    show SmallQ file (Nat.repeat (smallReader file).move n _) _
    induction n with
    | zero => simpa [Nat.repeat] using smallOpened file (by omega)
    | succ n ih =>
      have := (smallSim file).move _ _ (ih)
      simpa [Nat.repeat] using this
  have hcq : ChunkQ block file c (file.drop n) := by
    show ChunkQ block file (Nat.repeat (chunkReader block file).move n _) _
    clear hw
    induction n with
    | zero => simpa [Nat.repeat] using chunkOpened block hb file hf
    | succ n ih =>
      have := (chunkSim block hb file).move _ _ (ih)
      simpa [Nat.repeat] using this
  have ne : ∀ b : Bool, (b = true ↔ file.drop n ≠ []) → b = decide (n < file.length) := by
    intro b h
    by_cases hlt : n < file.length
    · have : file.drop n ≠ [] := by simp; omega
      simp [hlt, h.2 this]
    · have h0 : file.drop n = [] := List.drop_eq_nil_of_le (by omega)
      rw [h0] at h
      simp [hlt]; cases b <;> simp_all
  refine ⟨ne _ ((chunkSim block hb file).notEnd c _ hcq), ne _ ((smallSim file).notEnd w _ hw), ?_, ?_, ?_, ?_⟩
  · obtain ⟨p, hp, hle, hl, -⟩ := hcq
    have := congrArg List.length hl
    simp at this
    simp [chunkReader, hp]; omega
  · obtain ⟨p, hp, hle, hl, -⟩ := hw
    have := congrArg List.length hl
    simp at this
    simp [smallReader, hp]; omega
  · intro x hx
    obtain ⟨hn, hx'⟩ := List.getElem?_eq_some_iff.1 hx
    have hd : file.drop n = x :: file.drop (n + 1) := by rw [List.drop_eq_getElem_cons hn, hx']
    rw [hd] at hw hcq
    exact ⟨(chunkSim block hb file).chr _ _ _ hcq, (smallSim file).chr _ _ _ hw⟩
  · intro x hx
    obtain ⟨hn, hx'⟩ := List.getElem?_eq_some_iff.1 hx
    have hd : file.drop n = file[n] :: x :: file.drop (n + 1 + 1) := by
      rw [List.drop_eq_getElem_cons (by omega), List.drop_eq_getElem_cons hn, hx']
    rw [hd] at hw hcq
    exact ⟨(chunkSim block hb file).next _ _ _ _ hcq, (smallSim file).next _ _ _ _ hw⟩

example : 1 < 4096 ∧ 4096 ≤ (List.replicate 10485761 'x').length :=
  ⟨by decide, by rw [List.length_replicate]; decide⟩

/-- **C03, parser level.** The rows a client reads do not depend on whether the file is read in blocks
(`big < length`) or as a whole (threshold at least `length`). -/
theorem C03_parse_independent_of_block_mode (block big : Nat) (hb : 1 < block) (hbig : block ≤ big) (sep : Char)
    (file : List Char) : parseFile block big sep file = parseFile block file.length sep file := by
  unfold parseFile
  rw [if_neg (Nat.lt_irrefl _)]
  split
  · rw [readRows_chunk sep _ block hb _ (by omega), readRows_small]
  · rfl

/-- **C04.** Reading rows from any file whatsoever terminates: after at most `length + 1` calls the parser has
answered "end". -/
theorem C04_parsing_terminates (block big : Nat) (hb : 1 < block) (hbig : block ≤ big) (sep : Char)
    (file : List Char) : ∃ rows, parseFile block big sep file = some rows ∧ rows.length ≤ file.length := by
  have hlen : ∀ n (l : List Char) rows, rowsOf sep n l = some rows → rows.length ≤ l.length := by
    intro n
    induction n with
    | zero => intro l rows h; simp [rowsOf] at h
    | succ n ih =>
      intro l rows h
      rw [rowsOf] at h
      have hr := scan_rest sep l false [] []
      rcases hsc : scan sep l false [] [] with ⟨b, row, l'⟩
      rw [hsc] at hr h
      cases b
      · simp at h; subst h; simp
      · have hne : l ≠ [] := by
          intro h'; subst h'; simp [scan] at hsc
        have hlt : l'.length < l.length := hr.2.1 rfl hne
        simp only [Option.map_eq_some_iff] at h
        obtain ⟨rs, hrs, rfl⟩ := h
        have := ih l' rs hrs
        simp; omega
  obtain ⟨rows, h⟩ := rowsOf_total sep (file.length + 1) file (by omega)
  refine ⟨rows, ?_, hlen _ _ _ h⟩
  rw [C03_parse_independent_of_block_mode block big hb hbig]
  unfold parseFile
  rw [if_neg (Nat.lt_irrefl _), readRows_small, h]

/-- **C04, progress of a single call**, from any reading position: a call that answers true has consumed at
least one character, and a call that answers false delivers an empty row and stands at the end of the file. -/
theorem C04_call_progress (sep : Char) (file : List Char) (n : Nat) (hn : n ≤ file.length) (h0 : file ≠ []) :
    let w := Nat.repeat (smallReader file).move n (SmallRd.opened file)
    ∃ ok row w', getNext (smallReader file) sep w = some (ok, row, w') ∧
      (ok = true → n < (smallReader file).pos w' ∧ (smallReader file).pos w' ≤ file.length) ∧
      (ok = false → row = [] ∧ (smallReader file).notEnd w' = false) := by
  intro w
  have hpos : 0 < file.length := List.length_pos_iff.2 h0
  have hw : SmallQ file w (file.drop n) := by
    show SmallQ file (Nat.repeat (smallReader file).move n _) _
    clear hn
    induction n with
    | zero => simpa [Nat.repeat] using smallOpened file (by omega)
    | succ n ih =>
      have := (smallSim file).move _ _ (ih)
      simpa [Nat.repeat] using this
  obtain ⟨s', e, q⟩ := getNextLoop_eq (smallSim file) sep (file.length + 2) w (file.drop n) false [] [] hw
    (by simp; omega)
  have hr := scan_rest sep (file.drop n) false [] []
  rcases hsc : scan sep (file.drop n) false [] [] with ⟨b, row, l'⟩
  rw [hsc] at hr e q
  refine ⟨b, row, s', ?_, ?_, ?_⟩
  · rw [getNext, if_pos (by simpa [smallReader] using hpos)]; exact e
  · intro hb; subst hb
    have hne : file.drop n ≠ [] := by
      intro h'; rw [h'] at hsc; simp [scan] at hsc
    have hlt := hr.2.1 rfl hne
    obtain ⟨p, hp, hle, hl, -⟩ := q
    have := congrArg List.length hl
    simp at this hlt
    simp [smallReader, hp]; omega
  · intro hb; subst hb
    have h2 := hr.2.2 rfl
    simp only at h2
    refine ⟨h2.2, ?_⟩
    have := (smallSim file).notEnd s' l' q
    rw [h2.1] at this
    cases hh : (smallReader file).notEnd s' <;> simp_all

example : (2 : Nat) ≤ ['"', '"', 'a', '\n', '\n'].length ∧ ['"', '"', 'a', '\n', '\n'] ≠ [] := by decide

/-- Test: a quoted file read through the actual state machine. -/
example : parseFile 4096 10485760 ',' "a,\"b\"\"\"\r\nc".toList = some [[['a'], ['b', '"']], [['c']]] := by decide

end MVault.Csv
