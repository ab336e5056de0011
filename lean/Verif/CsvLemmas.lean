import Verif.CsvModel
/-! Helper lemmas for the CSV and stream-reader properties. -/
namespace MVault.Csv

/-- The parser as a function on the remaining text (proof device). -/
def scan (sep : Char) : List Char → Bool → List Char → List (List Char) → Bool × List (List Char) × List Char
  | [], _, fld, row =>
    let row' := if fld.isEmpty then row else row ++ [fld]
    (!row'.isEmpty, row', [])
  | c :: rest, esc, fld, row =>
    if !esc && (c == '\r' || c == '\n') then
      (true, (if fld.isEmpty then row else row ++ [fld]), if rest.head? == some '\n' then rest.tail else rest)
    else if c == '"' then
      if !esc then scan sep rest true [] row
      else if rest.head? == some '"' then scan sep rest.tail true (fld ++ ['"']) row
      else scan sep rest false fld row
    else if c == sep && !esc then scan sep rest esc [] (row ++ [fld])
    else scan sep rest esc (fld ++ [c]) row
termination_by l => l.length
decreasing_by all_goals (simp; try omega)

/-- Simulation of a reader state by the remaining text. -/
structure Simulates {σ : Type} (R : Reader σ) (Q : σ → List Char → Prop) : Prop where
  notEnd : ∀ s l, Q s l → (R.notEnd s = true ↔ l ≠ [])
  chr : ∀ s c l, Q s (c :: l) → R.chr s = c
  next : ∀ s c d l, Q s (c :: d :: l) → R.next s = d
  pos : ∀ s c l, Q s (c :: l) → (R.pos s + 1 < R.size ↔ l ≠ [])
  move : ∀ s l, Q s l → Q (R.move s) l.tail
  size : ∀ s l, Q s l → l.length ≤ R.size

theorem getNextLoop_eq {σ : Type} {R : Reader σ} {Q : σ → List Char → Prop} (h : Simulates R Q) (sep : Char) :
    ∀ (fuel : Nat) (s : σ) (l : List Char) (esc : Bool) (fld : List Char) (row : List (List Char)),
      Q s l → l.length < fuel →
      ∃ s', getNextLoop R sep fuel s esc fld row =
          some ((scan sep l esc fld row).1, (scan sep l esc fld row).2.1, s') ∧
        Q s' (scan sep l esc fld row).2.2 := by
  intro fuel
  induction fuel with
  | zero => intro s l esc fld row _ hl; omega
  | succ fuel ih =>
    intro s l esc fld row hq hl
    cases l with
    | nil =>
      have hn : R.notEnd s = false := by
        have := h.notEnd s [] hq
        cases hh : R.notEnd s <;> simp_all
      refine ⟨s, ?_, ?_⟩
      · simp [getNextLoop, hn, scan]
      · simpa [scan] using hq
    | cons c rest =>
      have hn : R.notEnd s = true := (h.notEnd s _ hq).2 (by simp)
      have hc : R.chr s = c := h.chr s c rest hq
      have hm : Q (R.move s) rest := h.move s _ hq
      have hlen : rest.length < fuel := by simp at hl; omega
      have hp := h.pos s c rest hq
      by_cases h1 : (!esc && (c == '\r' || c == '\n')) = true
      · cases rest with
        | nil =>
          have hp' : ¬ (R.pos s + 1 < R.size) := by rw [hp]; simp
          refine ⟨R.move s, ?_, ?_⟩
          · rw [getNextLoop, scan]; simp [hn, hc, h1, hp']
          · rw [scan]; simpa [h1] using hm
        | cons d r =>
          have hnx : R.next s = d := h.next s c d r hq
          have hp' : (R.pos s + 1 < R.size) := by rw [hp]; simp
          by_cases hd : (d == '\n') = true
          · have hd' : ((d :: r).head? == some '\n') = true := by simpa using hd
            refine ⟨R.move (R.move s), ?_, ?_⟩
            · rw [getNextLoop, scan]; simp only [hn, hc, if_true, h1, hp', decide_true, Bool.true_and, hnx, hd]
            · rw [scan]; simp only [h1, if_true, hd']; exact h.move _ _ hm
          · have hd' : ¬ ((d :: r).head? == some '\n') = true := by simpa using hd
            refine ⟨R.move s, ?_, ?_⟩
            · rw [getNextLoop, scan]; simp only [hn, hc, if_true, h1, hp', decide_true, Bool.true_and, hnx, hd, Bool.false_eq_true, if_false]
            · rw [scan]; simp only [h1, if_true, hd', if_false]; exact hm
      · by_cases h2 : (c == '"') = true
        · cases esc with
          | false =>
            simp only [Bool.not_false, Bool.true_and] at h1
            obtain ⟨s', e, q⟩ := ih (R.move s) rest true [] row hm hlen
            refine ⟨s', ?_, ?_⟩
            · rw [getNextLoop, scan]; simp only [hn, hc, if_true, h1, h2, Bool.true_and, Bool.false_eq_true, if_false, Bool.not_false]; exact e
            · rw [scan]; simp only [h1, h2, Bool.false_eq_true, if_false, if_true, Bool.not_false, Bool.true_and]; exact q
          | true =>
            cases rest with
            | nil =>
              have hp' : ¬ (R.pos s + 1 < R.size) := by rw [hp]; simp
              obtain ⟨s', e, q⟩ := ih (R.move s) [] false fld row hm hlen
              refine ⟨s', ?_, ?_⟩
              · rw [getNextLoop, scan]; simp only [hn, hc, if_true, h2, Bool.false_eq_true, if_false, Bool.not_true, hp', decide_false, Bool.false_and, show ((([]:List Char).head? == some '"') = true) = False by simp]; exact e
              · rw [scan]; simp only [h2, Bool.false_eq_true, if_false, if_true, Bool.not_true, Bool.false_and, show ((([]:List Char).head? == some '"') = true) = False by simp]; exact q
            | cons d r =>
              have hnx : R.next s = d := h.next s c d r hq
              have hp' : (R.pos s + 1 < R.size) := by rw [hp]; simp
              by_cases hd : (d == '"') = true
              · have hd' : ((d :: r).head? == some '"') = true := by simpa using hd
                obtain ⟨s', e, q⟩ := ih (R.move (R.move s)) r true (fld ++ ['"']) row (h.move _ _ hm) (by simp at hlen; omega)
                refine ⟨s', ?_, ?_⟩
                · rw [getNextLoop, scan]; simp only [hn, hc, if_true, h2, Bool.false_and, Bool.false_eq_true, if_false, Bool.not_true, hp', decide_true, Bool.true_and, hnx, hd, hd']; exact e
                · rw [scan]; simp only [h2, Bool.false_and, Bool.false_eq_true, if_false, if_true, Bool.not_true, hd']; exact q
              · have hd' : ¬ ((d :: r).head? == some '"') = true := by simpa using hd
                obtain ⟨s', e, q⟩ := ih (R.move s) (d :: r) false fld row hm hlen
                refine ⟨s', ?_, ?_⟩
                · rw [getNextLoop, scan]; simp only [hn, hc, if_true, h2, Bool.false_and, Bool.false_eq_true, if_false, Bool.not_true, hp', decide_true, Bool.true_and, hnx, hd, hd']; exact e
                · rw [scan]; simp only [h2, Bool.false_and, Bool.false_eq_true, if_false, if_true, Bool.not_true, hd']; exact q
        · by_cases h3 : (c == sep && !esc) = true
          · obtain ⟨s', e, q⟩ := ih (R.move s) rest esc [] (row ++ [fld]) hm hlen
            refine ⟨s', ?_, ?_⟩
            · rw [getNextLoop, scan]; simp only [hn, hc, if_true, h1, h2, h3, Bool.false_eq_true, if_false]; exact e
            · rw [scan]; simp only [h1, h2, h3, Bool.false_eq_true, if_false, if_true]; exact q
          · obtain ⟨s', e, q⟩ := ih (R.move s) rest esc (fld ++ [c]) row hm hlen
            refine ⟨s', ?_, ?_⟩
            · rw [getNextLoop, scan]; simp only [hn, hc, if_true, h1, h2, h3, Bool.false_eq_true, if_false]; exact e
            · rw [scan]; simp only [h1, h2, h3, Bool.false_eq_true, if_false]; exact q

/-- Whole-file reader state at position `p`. -/
def SmallQ (file : List Char) (s : SmallRd) (l : List Char) : Prop :=
  ∃ p, s.filePos = p + 1 ∧ p ≤ file.length ∧ l = file.drop p ∧
    (p < file.length → s.chr = file.getD p '\x00') ∧ (p + 1 < file.length → s.next = file.getD (p + 1) '\x00')

theorem drop_cons {file : List Char} {p : Nat} {c : Char} {l : List Char} (h : c :: l = file.drop p) :
    p < file.length ∧ file.getD p '\x00' = c ∧ l = file.drop (p + 1) := by
  have hp : p < file.length := by
    apply Classical.byContradiction; intro hn
    rw [List.drop_eq_nil_of_le (by omega)] at h; simp at h
  rw [List.drop_eq_getElem_cons hp] at h
  injection h with h1 h2
  refine ⟨hp, ?_, h2⟩
  simp [List.getD, hp, h1]

theorem smallSim (file : List Char) : Simulates (smallReader file) (SmallQ file) where
  notEnd := by
    rintro s l ⟨p, hp, hle, rfl, -, -⟩
    simp [smallReader, hp]; omega
  chr := by
    rintro s c l ⟨p, hp, hle, hl, h1, h2⟩
    obtain ⟨a, b, _⟩ := drop_cons hl
    show s.chr = c; rw [h1 a, b]
  next := by
    rintro s c d l ⟨p, hp, hle, hl, h1, h2⟩
    obtain ⟨a, b, e⟩ := drop_cons hl
    obtain ⟨a', b', _⟩ := drop_cons e
    show s.next = d; rw [h2 a', b']
  pos := by
    rintro s c l ⟨p, hp, hle, hl, h1, h2⟩
    obtain ⟨a, b, e⟩ := drop_cons hl
    subst e
    simp [smallReader, hp]
  move := by
    rintro s l ⟨p, hp, hle, rfl, h1, h2⟩
    show SmallQ file (SmallRd.move file s) _
    by_cases hlt : p < file.length
    · have hg : s.filePos ≤ file.length := by omega
      rw [SmallRd.move, if_pos hg]
      refine ⟨p + 1, by simp; omega, by omega, by simp, h2, ?_⟩
      intro h
      have h' : s.filePos + 1 < file.length := by omega
      simp only [h', if_true]; rw [hp]
    · have hg : ¬ s.filePos ≤ file.length := by omega
      rw [SmallRd.move, if_neg hg]
      refine ⟨p, hp, hle, ?_, fun h => by omega, fun h => by omega⟩
      rw [List.drop_eq_nil_of_le (by omega)]; rfl
  size := by
    rintro s l ⟨p, hp, hle, rfl, -, -⟩
    simp [smallReader]

theorem smallOpened (file : List Char) (h : 0 < file.length) : SmallQ file (SmallRd.opened file) file :=
  ⟨0, rfl, by omega, by simp, fun _ => rfl, fun _ => rfl⟩

/-- Block-wise reader state at position `p`. -/
def ChunkQ (block : Nat) (file : List Char) (s : ChunkRd) (l : List Char) : Prop :=
  ∃ p, s.filePos + s.chunkPos = p + 1 ∧ p ≤ file.length ∧ l = file.drop p ∧ s.chunkPos < block ∧
    (s.filePos ≤ file.length → s.off = min (s.filePos + block) file.length) ∧
    (∀ i, i < block → s.filePos + i < file.length → s.chunk i = file.getD (s.filePos + i) '\x00') ∧
    (p < file.length → s.chr = file.getD p '\x00') ∧ (p + 1 < file.length → s.next = file.getD (p + 1) '\x00')

theorem read_chunk (file : List Char) (s : ChunkRd) (n : Int) (i : Nat) (h1 : i < n.toNat)
    (h2 : s.off + i < file.length) : (ChunkRd.read file s n).chunk i = file.getD (s.off + i) '\x00' := by
  have : i < min n.toNat (file.length - s.off) := by omega
  simp only [ChunkRd.read, this, if_true]

theorem chunkMoveQ (block : Nat) (hb : 1 < block) (file : List Char) (s : ChunkRd) (l : List Char)
    (hq : ChunkQ block file s l) : ChunkQ block file (s.move block file) l.tail := by
  obtain ⟨p, hp, hle, rfl, hcb, hoff, hck, h1, h2⟩ := hq
  by_cases hlt : p < file.length
  · have hg : s.filePos + s.chunkPos ≤ file.length := by omega
    by_cases hbk : s.chunkPos + 1 = block
    · have hoff' := hoff (by omega)
      unfold ChunkRd.move
      rw [if_pos hg]
      simp only [hbk, if_true]
      refine ⟨p + 1, ?_, by omega, by simp, by simp [ChunkRd.read]; omega, ?_, ?_, ?_, ?_⟩
      · simp [ChunkRd.read]; omega
      · intro h
        simp [ChunkRd.read] at h ⊢
        split <;> omega
      · intro i hi hf
        have hf' : s.filePos + block + i < file.length := hf
        have e : s.off = s.filePos + block := by omega
        show (ChunkRd.read file _ _).chunk i = file.getD (s.filePos + block + i) '\x00'
        rw [read_chunk]
        · simp only [e]
        · split <;> omega
        · simp only; omega
      · intro h
        exact h2 (by omega)
      · intro h
        have hk : s.filePos + block + 0 < file.length := by omega
        have e : s.off = s.filePos + block := by omega
        show (if s.filePos + block + 0 < file.length then (ChunkRd.read file _ _).chunk 0 else _) = _
        rw [if_pos hk, read_chunk]
        · simp only [e]; congr 1; omega
        · split <;> omega
        · simp only; omega
    · unfold ChunkRd.move
      rw [if_pos hg]
      simp only [hbk, if_false]
      refine ⟨p + 1, ?_, by omega, by simp, ?_, ?_, ?_, ?_, ?_⟩
      · simp; omega
      · simp; omega
      · simpa using hoff
      · simpa using hck
      · intro h; simpa using h2 (by omega)
      · intro h
        have hk : s.filePos + (s.chunkPos + 1) < file.length := by omega
        simp only [hk, if_true]
        rw [hck _ (by omega) hk]
        congr 1; omega
  · have hg : ¬ s.filePos + s.chunkPos ≤ file.length := by omega
    unfold ChunkRd.move
    rw [if_neg hg]
    refine ⟨p, hp, hle, ?_, hcb, hoff, hck, fun h => by omega, fun h => by omega⟩
    rw [List.drop_eq_nil_of_le (by omega)]; rfl

theorem chunkSim (block : Nat) (hb : 1 < block) (file : List Char) :
    Simulates (chunkReader block file) (ChunkQ block file) where
  notEnd := by
    rintro s l ⟨p, hp, hle, rfl, -⟩
    simp [chunkReader, hp]; omega
  chr := by
    rintro s c l ⟨p, hp, hle, hl, -, -, -, h1, h2⟩
    obtain ⟨a, b, _⟩ := drop_cons hl
    show s.chr = c; rw [h1 a, b]
  next := by
    rintro s c d l ⟨p, hp, hle, hl, -, -, -, h1, h2⟩
    obtain ⟨a, b, e⟩ := drop_cons hl
    obtain ⟨a', b', _⟩ := drop_cons e
    show s.next = d; rw [h2 a', b']
  pos := by
    rintro s c l ⟨p, hp, hle, hl, -, -, -, h1, h2⟩
    obtain ⟨a, b, e⟩ := drop_cons hl
    subst e
    simp [chunkReader, hp]
  move := fun s l hq => chunkMoveQ block hb file s l hq
  size := by
    rintro s l ⟨p, hp, hle, rfl, -⟩
    simp [chunkReader]

theorem chunkOpened (block : Nat) (hb : 1 < block) (file : List Char) (h : block ≤ file.length) :
    ChunkQ block file (ChunkRd.opened block file) file := by
  refine ⟨0, rfl, by omega, by simp, hb, ?_, ?_, ?_, ?_⟩
  · intro _; simp [ChunkRd.opened, ChunkRd.read]
  · intro i hi hf
    simp [ChunkRd.opened, ChunkRd.read] at hf ⊢
    intro hh; omega
  · intro _
    exact read_chunk file _ _ 0 (by omega) (by simp only; omega) |>.trans (by simp)
  · intro _
    exact read_chunk file _ _ 1 (by omega) (by simp only; omega) |>.trans (by simp)

/-! ### Rows -/

/-- All rows of a text (proof device). -/
def rowsOf (sep : Char) : Nat → List Char → Option (List (List (List Char)))
  | 0, _ => none
  | n + 1, l =>
    match scan sep l false [] [] with
    | (false, _, _) => some []
    | (true, row, l') => (rowsOf sep n l').map (row :: ·)

theorem readRows_eq {σ : Type} {R : Reader σ} {Q : σ → List Char → Prop} (h : Simulates R Q) (sep : Char)
    (hs : 0 < R.size) : ∀ n s l, Q s l → readRows R sep n s = rowsOf sep n l := by
  intro n
  induction n with
  | zero => intros; rfl
  | succ n ih =>
    intro s l hq
    have hl := h.size s l hq
    obtain ⟨s', e, q⟩ := getNextLoop_eq h sep (R.size + 2) s l false [] [] hq (by omega)
    rw [readRows, rowsOf, getNext, if_pos hs, e]
    rcases hsc : scan sep l false [] [] with ⟨b, row, l'⟩
    rw [hsc] at q
    cases b
    · rfl
    · simp only; rw [ih s' l' q]

theorem rowsOf_nil (sep : Char) (n : Nat) : rowsOf sep (n + 1) [] = some [] := by
  simp [rowsOf, scan]

theorem readRows_small (sep : Char) (n : Nat) (file : List Char) :
    readRows (smallReader file) sep (n + 1) (SmallRd.opened file) = rowsOf sep (n + 1) file := by
  cases file with
  | nil => simp [readRows, getNext, smallReader, rowsOf_nil]
  | cons c cs => exact readRows_eq (smallSim _) sep (by simp [smallReader]) _ _ _ (smallOpened _ (by simp))

theorem readRows_chunk (sep : Char) (n block : Nat) (hb : 1 < block) (file : List Char) (hf : block ≤ file.length) :
    readRows (chunkReader block file) sep n (ChunkRd.opened block file) = rowsOf sep n file :=
  readRows_eq (chunkSim block hb file) sep (by simp [chunkReader]; omega) _ _ _ (chunkOpened block hb file hf)

/-! ### Consumption -/

theorem scan_rest (sep : Char) : ∀ (l : List Char) (esc : Bool) (fld : List Char) (row : List (List Char)),
    (∃ pre, l = pre ++ (scan sep l esc fld row).2.2) ∧
    ((scan sep l esc fld row).1 = true → l ≠ [] → (scan sep l esc fld row).2.2.length < l.length) ∧
    ((scan sep l esc fld row).1 = false → (scan sep l esc fld row).2.2 = [] ∧ (scan sep l esc fld row).2.1 = []) := by
  intro l esc fld row
  fun_induction scan sep l esc fld row
  · simp
  · rename_i c rest esc fld row h
    refine ⟨?_, ?_, by simp⟩
    · cases rest with
      | nil => exact ⟨[c], rfl⟩
      | cons d r =>
        simp only
        split
        · exact ⟨[c, d], by simp⟩
        · exact ⟨[c], by simp⟩
    · intro _ _
      cases rest with
      | nil => simp
      | cons d r => simp only; split <;> simp <;> omega
  case case4 c rest esc fld row h1 h2 h3 h4 ih =>
    obtain ⟨⟨pre, hpre⟩, hlt, hf⟩ := ih
    cases rest with
    | nil => simp at h4
    | cons d r =>
      simp only [List.tail_cons] at hpre hlt hf ⊢
      refine ⟨⟨c :: d :: pre, by rw [List.cons_append, List.cons_append, ← hpre]⟩, ?_, hf⟩
      intro _ _
      have := congrArg List.length hpre
      simp at this ⊢
      omega
  all_goals
    rename_i ih
    obtain ⟨⟨pre, hpre⟩, hlt, hf⟩ := ih
    refine ⟨⟨_ :: pre, by rw [List.cons_append, ← hpre]⟩, ?_, hf⟩
    intro _ _
    have := congrArg List.length hpre
    simp at this ⊢
    omega

theorem rowsOf_total (sep : Char) : ∀ (n : Nat) (l : List Char), l.length < n → ∃ rows, rowsOf sep n l = some rows := by
  intro n
  induction n with
  | zero => intro l h; omega
  | succ n ih =>
    intro l hl
    rw [rowsOf]
    have hr := scan_rest sep l false [] []
    rcases hsc : scan sep l false [] [] with ⟨b, row, l'⟩
    rw [hsc] at hr
    cases b
    · exact ⟨[], rfl⟩
    · have hne : l ≠ [] := by
        intro h; subst h; simp [scan] at hsc
      have : l'.length < l.length := hr.2.1 rfl hne
      obtain ⟨rows, e⟩ := ih l' (by omega)
      exact ⟨row :: rows, by simp [e]⟩

/-! ### Formatting -/

def dbl (s : List Char) : List Char := s.flatMap (fun c => if c = '"' then ['"', '"'] else [c])

def special (c : Char) : Bool := c == '"' || c == ',' || c == '\n'

theorem fmt_fold (s : List Char) : ∀ st, s.foldl fmtStep st = (st.1 || s.any special, st.2 ++ dbl s) := by
  induction s with
  | nil => intro st; simp [dbl]
  | cons c s ih =>
    intro st
    rw [List.foldl_cons, ih]
    by_cases h1 : c = '"'
    · subst h1; simp [fmtStep, special, dbl]
    · by_cases h2 : c = ','
      · subst h2; simp [fmtStep, special, dbl]
      · by_cases h3 : c = '\n'
        · subst h3; simp [fmtStep, special, dbl]
        · have hsp : special c = false := by simp [special, h1, h2, h3]
          simp [fmtStep, dbl, h1, h2, h3, hsp]

theorem formatCsv_eq (s : List Char) :
    formatCsv s = if s.any special then '"' :: (dbl s ++ ['"']) else dbl s := by
  simp [formatCsv, fmt_fold]

theorem dbl_plain (s : List Char) (h : s.any special = false) : dbl s = s := by
  induction s with
  | nil => rfl
  | cons c s ih =>
    simp only [List.any_cons, Bool.or_eq_false_iff] at h
    have hc : c ≠ '"' := by intro hc; subst hc; simp [special] at h
    show (if c = '"' then ['"', '"'] else [c]) ++ dbl s = c :: s
    rw [if_neg hc, ih h.2]; rfl

/-- Escaped text inside quotes is scanned into the field. -/
theorem scan_dbl (sep : Char) (rest : List Char) (row : List (List Char)) :
    ∀ (s fld : List Char), scan sep (dbl s ++ rest) true fld row = scan sep rest true (fld ++ s) row := by
  intro s
  induction s with
  | nil => intro fld; simp [dbl]
  | cons c s ih =>
    intro fld
    have hd : dbl (c :: s) = (if c = '"' then ['"', '"'] else [c]) ++ dbl s := rfl
    by_cases hc : c = '"'
    · subst hc
      rw [hd, if_pos rfl]
      simp only [List.cons_append, List.nil_append]
      rw [scan]
      simp [ih]
    · rw [hd, if_neg hc]
      simp only [List.cons_append, List.nil_append]
      rw [scan]
      simp [hc, ih]

/-- Plain text is scanned into the field. -/
theorem scan_plain (sep : Char) (rest : List Char) (row : List (List Char)) :
    ∀ (s fld : List Char), (∀ c ∈ s, c ≠ '\r' ∧ c ≠ '\n' ∧ c ≠ '"' ∧ c ≠ sep) →
      scan sep (s ++ rest) false fld row = scan sep rest false (fld ++ s) row := by
  intro s
  induction s with
  | nil => intro fld _; simp
  | cons c s ih =>
    intro fld h
    obtain ⟨h1, h2, h3, h4⟩ := h c (by simp)
    rw [List.cons_append, scan]
    simp only [h1, h2, h3, h4, beq_eq_false_iff_ne.2, ne_eq, not_false_eq_true, Bool.or_false, Bool.and_false,
      Bool.false_eq_true, if_false, Bool.false_and, Bool.not_false]
    rw [ih _ (fun c hc => h c (by simp [hc]))]
    simp

/-- A field that the writer and the parser agree on (for a given separator). -/
def FieldOk (sep : Char) (f : List Char) : Prop :=
  (f.any special = true) ∨ (∀ c ∈ f, c ≠ '\r' ∧ c ≠ sep)

/-- Scanning a formatted field followed by a separator or a line end. -/
theorem scan_field (sep : Char) (f rest : List Char) (row : List (List Char)) (hf : FieldOk sep f)
    (hr : ∀ d r, rest = d :: r → d ≠ '"') :
    scan sep (formatCsv f ++ rest) false [] row = scan sep rest false f row := by
  rw [formatCsv_eq]
  by_cases h : f.any special = true
  · rw [if_pos h]
    simp only [List.cons_append, List.append_assoc]
    rw [scan]
    simp only [show (('"' : Char) == '\r') = false from rfl, show (('"' : Char) == '\n') = false from rfl,
      Bool.or_false, Bool.and_false, Bool.false_eq_true, if_false, beq_self_eq_true, if_true, Bool.not_false]
    rw [scan_dbl]
    simp only [List.nil_append]
    rw [scan]
    simp only [Bool.not_true, Bool.false_and, Bool.false_eq_true, if_false, beq_self_eq_true, if_true]
    cases rest with
    | nil => rfl
    | cons d r =>
      have := hr d r rfl
      simp [this]
  · have h' : f.any special = false := by simpa using h
    rw [if_neg h, dbl_plain f h']
    rw [scan_plain]
    · simp
    · intro c hc
      have hs : special c = false := by
        have := List.any_eq_false.1 h' c hc
        simpa using this
      simp [special] at hs
      rcases hf with hf | hf
      · exact absurd hf h
      · exact ⟨(hf c hc).1, hs.2, hs.1.1, (hf c hc).2⟩

/-- Rows lose an empty last field. -/
def trimLast (row : List (List Char)) : List (List Char) :=
  if row.getLast? = some [] then row.dropLast else row

theorem scan_row (sep : Char) (hs : sep ≠ '"' ∧ sep ≠ '\r' ∧ sep ≠ '\n') (rest : List Char) :
    ∀ (row acc : List (List Char)), (∀ f ∈ row, FieldOk sep f) →
      scan sep (writeRow [sep] row ++ ('\r' :: '\n' :: rest)) false [] acc = (true, acc ++ trimLast row, rest) := by
  intro row
  induction row with
  | nil => intro acc _; simp [writeRow, scan, trimLast]
  | cons f fs ih =>
    intro acc h
    cases fs with
    | nil =>
      rw [writeRow, scan_field sep f _ _ (h f (by simp)) (by intro d r hd; simp at hd; rw [← hd.1]; decide)]
      rw [scan]
      cases f <;> simp [trimLast]
    | cons g gs =>
      rw [writeRow, List.append_assoc, List.append_assoc, scan_field sep f _ _ (h f (by simp))
        (by intro d r hd; simp at hd; rw [← hd.1]; exact hs.1)]
      rw [List.singleton_append, scan]
      have e1 : (sep == '\r' || sep == '\n') = false := by simp [hs.2.1, hs.2.2]
      have e2 : (sep == '"') = false := by simp [hs.1]
      simp only [e1, e2, Bool.and_false, Bool.false_eq_true, if_false, beq_self_eq_true, Bool.not_false, Bool.and_true, if_true]
      rw [ih (acc ++ [f]) (fun x hx => h x (by simp at hx ⊢; right; exact hx))]
      simp only [List.append_assoc, List.singleton_append]
      congr 2
      simp only [trimLast, List.getLast?_cons_cons]
      split <;> simp

theorem rowsOf_write (sep : Char) (hs : sep ≠ '"' ∧ sep ≠ '\r' ∧ sep ≠ '\n') :
    ∀ (rows : List (List (List Char))) (n : Nat), rows.length < n → (∀ r ∈ rows, ∀ f ∈ r, FieldOk sep f) →
      rowsOf sep n (writeRows [sep] rows) = some (rows.map trimLast) := by
  intro rows
  induction rows with
  | nil =>
    intro n hn _
    obtain ⟨m, rfl⟩ : ∃ m, n = m + 1 := ⟨n - 1, by simp at hn; omega⟩
    simp [writeRows, rowsOf_nil]
  | cons r rs ih =>
    intro n hn h
    obtain ⟨m, rfl⟩ : ∃ m, n = m + 1 := ⟨n - 1, by simp at hn; omega⟩
    have hw : writeRows [sep] (r :: rs) = writeRow [sep] r ++ ('\r' :: '\n' :: writeRows [sep] rs) := by
      simp [writeRows]
    rw [hw, rowsOf, scan_row sep hs _ r [] (h r (by simp))]
    simp only [List.nil_append]
    rw [ih m (by simp at hn; omega) (fun x hx => h x (by simp [hx]))]
    rfl

theorem writeRows_length (sep : List Char) (rows : List (List (List Char))) :
    2 * rows.length ≤ (writeRows sep rows).length := by
  induction rows with
  | nil => simp
  | cons r rs ih =>
    have : writeRows sep (r :: rs) = (writeRow sep r ++ ['\r', '\n']) ++ writeRows sep rs := rfl
    rw [this]; simp; omega

end MVault.Csv
