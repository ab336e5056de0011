import Verif.ReaderModel
import Verif.PropsCsv
/-
C99: a reader delivers the file it was opened with.
-/
set_option linter.unusedSimpArgs false
namespace MVault.Csv

/-! ### Specification -/

/-- The reader `s` delivers the file `f` from its beginning: `n` calls of `Move` are defined for every `n`, and after them the reader says that there is a character
exactly when `n` is less than the length of the file; the position is `n` (at the end: the length); the size is the length; the current and the next character
are those of the file where it has them; and the next `Move` answers whether there was a character. -/
def Delivers (block : Nat) (f : List Char) (s : Rd) : Prop :=
  ∀ n, ∃ t, s.moves block n = some t ∧ t.notEnd = decide (n < f.length) ∧ t.pos = min n f.length ∧ t.size = f.length ∧
    (∀ c, f[n]? = some c → t.chr = c) ∧ (∀ c, f[n + 1]? = some c → t.next = c) ∧ ∃ u, t.move block = some (u, decide (n < f.length))

/-! ### Small files -/

/-- A reader in the middle of a small file. -/
structure SmallAt (f : List Char) (p : Nat) (s : Rd) : Prop where
  data : s.data = some f
  size : s.size = f.length
  pos : s.filePos = p + 1
  le : p ≤ f.length
  chr : ∀ c, f[p]? = some c → s.chr = c
  next : ∀ c, f[p + 1]? = some c → s.next = c

theorem SmallAt.move {block : Nat} {f : List Char} {p : Nat} {s : Rd} (h : SmallAt f p s) :
    ∃ t, s.move block = some (t, decide (p < f.length)) ∧ SmallAt f (min (p + 1) f.length) t := by
  obtain ⟨hd, hs, hp, hl, hc, hn⟩ := h
  by_cases hlt : p < f.length
  · have h1 : (s.filePos : Int) ≤ s.size := by rw [hp, hs]; omega
    unfold Rd.move
    simp only [hd, h1, if_true, hlt, decide_true]
    by_cases h2 : p + 2 < f.length
    · have h3 : ((s.filePos + 1 : Nat) : Int) < s.size := by rw [hp, hs]; omega
      have h4 : f[s.filePos + 1]? = some f[p + 2] := by rw [hp]; simp [h2]
      simp only [h3, if_true, h4]
      refine ⟨_, rfl, rfl, hs, by simp; omega, by omega, ?_, ?_⟩
      · intro c hc'; rw [Nat.min_eq_left (by omega)] at hc'; exact hn c hc'
      · intro c hc'; rw [Nat.min_eq_left (by omega)] at hc'; simp only; rw [List.getElem?_eq_getElem h2] at hc'; exact Option.some.inj hc'
    · have h3 : ¬ ((s.filePos + 1 : Nat) : Int) < s.size := by rw [hp, hs]; omega
      simp only [h3, if_false]
      refine ⟨_, rfl, rfl, hs, by simp; omega, by omega, ?_, ?_⟩
      · intro c hc'; rw [Nat.min_eq_left (by omega)] at hc'; exact hn c hc'
      · intro c hc'; rw [Nat.min_eq_left (by omega), List.getElem?_eq_none (by omega)] at hc'; cases hc'
  · have h1 : ¬ (s.filePos : Int) ≤ s.size := by rw [hp, hs]; omega
    unfold Rd.move
    simp only [hd, h1, if_false, hlt, decide_false]
    refine ⟨s, rfl, hd, hs, by omega, by omega, ?_, ?_⟩ <;> intro c hc' <;> rw [List.getElem?_eq_none (by omega)] at hc' <;> cases hc'

theorem SmallAt.moves {block : Nat} {f : List Char} {s : Rd} (h : SmallAt f 0 s) (n : Nat) :
    ∃ t, s.moves block n = some t ∧ SmallAt f (min n f.length) t := by
  induction n with
  | zero => exact ⟨s, rfl, by simpa using h⟩
  | succ n ih =>
    obtain ⟨t, ht, hq⟩ := ih
    obtain ⟨u, hu, hq'⟩ := hq.move (block := block)
    refine ⟨u, by simp [Rd.moves, ht, hu], ?_⟩
    have : min (min n f.length + 1) f.length = min (n + 1) f.length := by omega
    rwa [this] at hq'

theorem getElem?_min {f : List Char} {n k : Nat} {c : Char} (h : f[n + k]? = some c) : f[min n f.length + k]? = some c := by
  have : n + k < f.length := (List.getElem?_eq_some_iff.mp h).1
  rwa [Nat.min_eq_left (by omega)]

theorem SmallAt.delivers {block : Nat} {f : List Char} {s : Rd} (h : SmallAt f 0 s) (h0 : f ≠ []) : Delivers block f s := by
  intro n
  obtain ⟨t, ht, hq⟩ := h.moves (block := block) n
  have hpos : 0 < f.length := List.length_pos_iff.mpr h0
  obtain ⟨u, hu, -⟩ := hq.move (block := block)
  have hd : (min n f.length < f.length) ↔ n < f.length := by omega
  refine ⟨t, ht, ?_, ?_, hq.size, ?_, ?_, u, ?_⟩
  · simp only [Rd.notEnd, hq.data, hq.pos, hq.size, decide_eq_decide]; omega
  · have : t.size ≠ 0 := by rw [hq.size]; omega
    simp only [Rd.pos, this, if_false, hq.data, hq.pos]; omega
  · intro c hc; exact hq.chr c (getElem?_min (k := 0) hc)
  · intro c hc; exact hq.next c (getElem?_min (k := 1) hc)
  · rw [hu]; simp only [hd]

theorem open_small {block big : Nat} {f : List Char} {s : Rd} (ho : s.isOpen = false) (h0 : f ≠ []) (hb : f.length ≤ big) :
    (s.open block big (some f)).2 = true ∧ SmallAt f 0 (s.open block big (some f)).1 := by
  have hpos : 0 < f.length := List.length_pos_iff.mpr h0
  simp only [Rd.open, ho, hpos, if_true, if_false, Nat.not_lt.mpr hb, Bool.false_eq_true]
  refine ⟨trivial, rfl, rfl, rfl, by omega, ?_, ?_⟩
  · intro c hc; simp [hc]
  · intro c hc
    have : 1 < f.length := (List.getElem?_eq_some_iff.mp hc).1
    simp [this]; rw [List.getElem?_eq_some_iff] at hc; exact hc.2

/-! ### Empty files -/

@[simp] theorem read_filePos (s : Rd) (n : Int) : (s.read n).filePos = s.filePos := by unfold Rd.read; split <;> rfl
@[simp] theorem read_data (s : Rd) (n : Int) : (s.read n).data = s.data := by unfold Rd.read; split <;> rfl
@[simp] theorem read_size (s : Rd) (n : Int) : (s.read n).size = s.size := by unfold Rd.read; split <;> rfl

/-- What a move does to the positions. -/
theorem move_shape {block : Nat} {s t : Rd} {b : Bool} (h : s.move block = some (t, b)) :
    t = s ∨ (s.data = none ∧ t.data = none ∧ ((t.filePos = s.filePos ∧ t.chunkPos = s.chunkPos + 1 ∧ s.chunkPos + 1 ≠ block) ∨
      (t.filePos = s.filePos + block ∧ t.chunkPos = 0))) ∨
    (∃ d, s.data = some d ∧ t.data = some d ∧ t.filePos = s.filePos + 1 ∧ t.chunkPos = s.chunkPos) := by
  unfold Rd.move at h
  split at h
  · rename_i hd
    split at h
    · dsimp only at h
      right; left
      refine ⟨hd, ?_⟩
      by_cases hc : s.chunkPos + 1 = block
      · rw [if_pos hc] at h
        generalize (if s.size - ((s.filePos + block : Nat) : Int) > (block : Int) then (block : Int) else s.size - ((s.filePos + block : Nat) : Int)) = left at h
        split at h
        · split at h
          · simp only [Option.some.injEq, Prod.mk.injEq] at h; obtain ⟨rfl, _⟩ := h
            exact ⟨by simpa using hd, .inr ⟨by simp, rfl⟩⟩
          · cases h
        · simp only [Option.some.injEq, Prod.mk.injEq] at h; obtain ⟨rfl, _⟩ := h
          exact ⟨by simpa using hd, .inr ⟨by simp, rfl⟩⟩
      · rw [if_neg hc] at h
        split at h
        · split at h
          · simp only [Option.some.injEq, Prod.mk.injEq] at h; obtain ⟨rfl, _⟩ := h
            exact ⟨hd, .inl ⟨rfl, rfl, hc⟩⟩
          · cases h
        · simp only [Option.some.injEq, Prod.mk.injEq] at h; obtain ⟨rfl, _⟩ := h
          exact ⟨hd, .inl ⟨rfl, rfl, hc⟩⟩
    · simp only [Option.some.injEq, Prod.mk.injEq] at h; exact .inl h.1.symm
  · rename_i d hd
    split at h
    · dsimp only at h
      right; right
      split at h
      · split at h
        · simp only [Option.some.injEq, Prod.mk.injEq] at h; obtain ⟨rfl, _⟩ := h
          exact ⟨d, hd, hd, rfl, rfl⟩
        · cases h
      · simp only [Option.some.injEq, Prod.mk.injEq] at h; obtain ⟨rfl, _⟩ := h
        exact ⟨d, hd, hd, rfl, rfl⟩
    · simp only [Option.some.injEq, Prod.mk.injEq] at h; exact .inl h.1.symm

theorem rd_shape {block big : Nat} (hb : 1 < block) {s : Rd} (h : RdReach block big s) :
    s.chunkPos < block ∧ 0 < s.filePos + s.chunkPos ∧ (s.data ≠ none → 0 < s.filePos) := by
  induction h with
  | new => exact ⟨hb, by decide, by simp [Rd.new]⟩
  | @«open» s f _ ih =>
    unfold Rd.open
    split
    · exact ih
    · cases f with
      | none => exact ih
      | some f =>
        dsimp only
        split
        · split
          · simp only [Rd.read]; split <;> exact ih
          · refine ⟨ih.1, ?_, ?_⟩ <;> simp <;> omega
        · exact ih
  | @move s t b _ hm ih =>
    rcases move_shape hm with rfl | ⟨hd, hd', h | h⟩ | ⟨d, hd, hd', h, h'⟩
    · exact ih
    · exact ⟨by omega, by omega, fun hx => absurd hd' hx⟩
    · exact ⟨by omega, by omega, fun hx => absurd hd' hx⟩
    · exact ⟨by omega, by omega, fun _ => by omega⟩
  | close _ ih => exact ih

theorem stuck {block : Nat} {s : Rd} (h : s.notEnd = false) : s.move block = some (s, false) := by
  unfold Rd.notEnd at h; unfold Rd.move
  split at h <;> rename_i hd <;> simp only [hd] <;> rw [if_neg (by simpa using h)]

theorem stuck_moves {block : Nat} {s : Rd} (h : s.notEnd = false) (n : Nat) : s.moves block n = some s := by
  induction n with
  | zero => rfl
  | succ n ih => simp [Rd.moves, ih, stuck h]

theorem delivers_nil {block : Nat} {s : Rd} (hz : s.size = 0) (h : s.notEnd = false) : Delivers block [] s := by
  intro n
  exact ⟨s, stuck_moves h n, by simp [h], by simp [Rd.pos, hz], by simp [hz], by simp, by simp, s, by simp [stuck h]⟩

/-! ### Big files -/

/-- The block reader of `CsvModel` inside the object. -/
def Rd.toChunk (s : Rd) : ChunkRd := ⟨s.filePos, s.chunkPos, s.chr, s.next, s.chunk, s.off⟩

structure BigAt (f : List Char) (s : Rd) : Prop where
  isOpen : s.isOpen = true
  file : s.file = f
  size : s.size = f.length
  data : s.data = none

theorem BigAt.move {block : Nat} (hb : 1 < block) {f : List Char} {s : Rd} (h : BigAt f s) (hc : s.chunkPos < block) :
    ∃ t, s.move block = some (t, decide (s.filePos + s.chunkPos ≤ f.length)) ∧ BigAt f t ∧ t.toChunk = s.toChunk.move block f ∧ t.chunkPos < block := by
  obtain ⟨ho, hf, hs, hd⟩ := h
  obtain ⟨isOpen, file, off, size, filePos, chunkPos, chr, next, chunk, data⟩ := s
  simp only at ho hf hs hd hc
  subst ho hf hs hd
  simp only [Rd.move, Rd.toChunk, ChunkRd.move, Rd.read, ChunkRd.read, Int.ofNat_le, Int.ofNat_lt, if_true]
  by_cases h1 : filePos + chunkPos ≤ file.length
  · simp only [h1, if_true, decide_true]
    by_cases h2 : chunkPos + 1 = block
    · simp only [h2, if_true]
      split
      · rename_i h3
        rw [if_pos (by omega)]
        exact ⟨_, rfl, ⟨rfl, rfl, rfl, rfl⟩, by rw [if_pos (Int.ofNat_lt.mp h3)] <;> rfl, by simp; omega⟩
      · rename_i h3
        exact ⟨_, rfl, ⟨rfl, rfl, rfl, rfl⟩, by rw [if_neg (fun h => h3 (Int.ofNat_lt.mpr h))] <;> rfl, by simp; omega⟩
    · simp only [h2, if_false]
      split
      · rename_i h3
        rw [if_pos (by omega)]
        exact ⟨_, rfl, ⟨rfl, rfl, rfl, rfl⟩, by rw [if_pos (Int.ofNat_lt.mp h3)] <;> rfl, by simp; omega⟩
      · rename_i h3
        exact ⟨_, rfl, ⟨rfl, rfl, rfl, rfl⟩, by rw [if_neg (fun h => h3 (Int.ofNat_lt.mpr h))] <;> rfl, by simp; omega⟩
  · simp only [h1, if_false, decide_false]
    exact ⟨_, rfl, ⟨rfl, rfl, rfl, rfl⟩, rfl, hc⟩

theorem BigAt.moves {block : Nat} (hb : 1 < block) {f : List Char} {s : Rd} (h : BigAt f s) (hc : s.chunkPos < block) (n : Nat) :
    ∃ t, s.moves block n = some t ∧ BigAt f t ∧ t.toChunk = Nat.repeat (chunkReader block f).move n s.toChunk ∧ t.chunkPos < block := by
  induction n with
  | zero => exact ⟨s, rfl, h, rfl, hc⟩
  | succ n ih =>
    obtain ⟨t, ht, hq, he, hc'⟩ := ih
    obtain ⟨u, hu, hq', he', hc''⟩ := hq.move hb hc'
    exact ⟨u, by simp [Rd.moves, ht, hu], hq', by rw [he', he]; rfl, hc''⟩

theorem open_big {block big : Nat} {f : List Char} {s : Rd} (ho : s.isOpen = false) (hb : 1 < block) (hbig : block ≤ big) (hf : big < f.length) :
    (s.open block big (some f)).2 = true ∧ (s.open block big (some f)).1.isOpen = true ∧ (s.open block big (some f)).1.file = f ∧
    (s.open block big (some f)).1.size = f.length ∧ (s.open block big (some f)).1.data = s.data ∧ (s.open block big (some f)).1.filePos = s.filePos ∧
    (s.open block big (some f)).1.chunkPos = s.chunkPos := by
  have hpos : 0 < f.length := by omega
  simp [Rd.open, ho, hpos, hf, Rd.read]

theorem open_big_chunk {block big : Nat} {f : List Char} {s : Rd} (ho : s.isOpen = false) (hb : 1 < block) (hbig : block ≤ big) (hf : big < f.length)
    (h1 : s.filePos = 0) (h2 : s.chunkPos = 1) : ∃ c : Nat → Char, (s.open block big (some f)).1.toChunk = { (ChunkRd.opened block f) with chunk := c } ∧
      ∀ i, i < block → c i = (ChunkRd.opened block f).chunk i := by
  have hpos : 0 < f.length := by omega
  have hg : min block f.length = block := by omega
  have g0 : 0 < block := by omega
  refine ⟨fun i => if i < block then f.getD i '\x00' else s.chunk i, ?_, ?_⟩
  · simp [Rd.open, ho, hpos, hf, Rd.read, Rd.toChunk, ChunkRd.opened, ChunkRd.read, h1, h2, hg, g0, hb]
  · intro i hi
    simp [ChunkRd.opened, ChunkRd.read, hg, hi]

theorem chunkQ_chunk {block : Nat} {f : List Char} {s : ChunkRd} {l : List Char} {c : Nat → Char} (h : ChunkQ block f s l) (hc : ∀ i, i < block → c i = s.chunk i) :
    ChunkQ block f { s with chunk := c } l := by
  obtain ⟨p, a1, a2, a3, a4, a5, a6, a7, a8⟩ := h
  exact ⟨p, a1, a2, a3, a4, a5, fun i hi hl => by show c i = _; rw [hc i hi]; exact a6 i hi hl, a7, a8⟩

theorem delivers_big {block big : Nat} {f : List Char} {s : Rd} (ho : s.isOpen = false) (hb : 1 < block) (hbig : block ≤ big) (hf : big < f.length)
    (hd : s.data = none) (h1 : s.filePos = 0) (h2 : s.chunkPos = 1) :
    (s.open block big (some f)).2 = true ∧ Delivers block f (s.open block big (some f)).1 := by
  obtain ⟨e0, e1, e2, e3, e4, e5, e6⟩ := open_big ho hb hbig hf
  refine ⟨e0, ?_⟩
  obtain ⟨ch, hch, hcc⟩ := open_big_chunk ho hb hbig hf h1 h2
  intro n
  obtain ⟨t, ht, hq, he, hc⟩ := BigAt.moves hb (f := f) ⟨e1, e2, e3, e4.trans hd⟩ (by rw [e6, h2]; exact hb) n
  have hcq : ChunkQ block f t.toChunk (f.drop n) := by
    rw [he, hch]
    clear he
    induction n generalizing t with
    | zero => simpa [Nat.repeat] using chunkQ_chunk (chunkOpened block hb f (by omega)) hcc
    | succ n ih =>
      obtain ⟨t', ht', hq', he', hc'⟩ := BigAt.moves hb (f := f) (s := (s.open block big (some f)).1) ⟨e1, e2, e3, e4.trans hd⟩ (by rw [e6, h2]; exact hb) n
      have := (chunkSim block hb f).move _ _ (ih t' ht' hq' hc')
      simpa [Nat.repeat] using this
  obtain ⟨u, hu, -⟩ := hq.move hb hc
  obtain ⟨p, a1, a2, a3, -, -, -, a7, a8⟩ := hcq
  have hlen := congrArg List.length a3
  simp only [List.length_drop] at hlen
  have hp : p = min n f.length := by omega
  have a1' : t.filePos + t.chunkPos = p + 1 := a1
  refine ⟨t, ht, ?_, ?_, hq.size, ?_, ?_, u, ?_⟩
  · simp only [Rd.notEnd, hq.data, hq.size, a1', decide_eq_decide]; omega
  · have : t.size ≠ 0 := by rw [hq.size]; omega
    simp only [Rd.pos, this, if_false, hq.data, a1']; omega
  · intro c hc
    have hn : n < f.length := (List.getElem?_eq_some_iff.mp hc).1
    have := a7 (by omega)
    have h3 : p = n := by omega
    rw [h3] at this
    simpa [Rd.toChunk, hc] using this
  · intro c hc
    have hn : n + 1 < f.length := (List.getElem?_eq_some_iff.mp hc).1
    have := a8 (by omega)
    have h3 : p = n := by omega
    rw [h3] at this
    simpa [Rd.toChunk, hc] using this
  · rw [hu, a1']; congr 2; simp only [decide_eq_decide]; omega

/-! ### C99 -/

/-- A reader that has just been constructed delivers every file, small or big. -/
theorem C99_first_file {block big : Nat} (hb : 1 < block) (hbig : block ≤ big) (f : List Char) :
    (Rd.new.open block big (some f)).2 = true ∧ Delivers block f (Rd.new.open block big (some f)).1 := by
  rcases Nat.lt_or_ge big f.length with h | h
  · exact delivers_big rfl hb hbig h rfl rfl rfl
  · by_cases h0 : f = []
    · subst h0
      exact ⟨rfl, delivers_nil rfl rfl⟩
    · obtain ⟨a, b⟩ := open_small (block := block) (s := Rd.new) rfl h0 h
      exact ⟨a, b.delivers h0⟩

/-- A reader that is closed, after any history of opened files, moves and closes, delivers every file that is not larger than `BIG_FILE_SIZE`, whatever
was read with it before. -/
theorem C99_reopened_partial {block big : Nat} (hb : 1 < block) {s : Rd} (hs : RdReach block big s) (ho : s.isOpen = false) {f : List Char} (hf : f.length ≤ big) :
    (s.open block big (some f)).2 = true ∧ Delivers block f (s.open block big (some f)).1 := by
  by_cases h0 : f = []
  · subst h0
    obtain ⟨a1, a2, a3⟩ := rd_shape hb hs
    simp only [Rd.open, ho, Bool.false_eq_true, if_false, List.length_nil, Nat.lt_irrefl]
    refine ⟨trivial, delivers_nil rfl ?_⟩
    cases hd : s.data with
    | none => simp only [Rd.notEnd, hd, decide_eq_false_iff_not]; simp; omega
    | some d => have := a3 (by simp [hd]); simp only [Rd.notEnd, hd, decide_eq_false_iff_not]; simp; omega
  · obtain ⟨a, b⟩ := open_small (block := block) ho h0 hf
    exact ⟨a, b.delivers h0⟩

/-- A file that does not exist is refused and the reader stays as it is. -/
theorem C99_no_file {block big : Nat} {s : Rd} (ho : s.isOpen = false) : s.open block big none = (s, false) := by
  simp [Rd.open, ho]

theorem moves_data {block : Nat} {s : Rd} {d : List Char} (hd : s.data = some d) : ∀ {n : Nat} {t : Rd}, s.moves block n = some t → t.data = some d := by
  intro n
  induction n with
  | zero => intro t h; simp only [Rd.moves, Option.some.injEq] at h; subst h; exact hd
  | succ n ih =>
    intro t h
    simp only [Rd.moves, Option.bind_eq_some_iff, Option.map_eq_some_iff] at h
    obtain ⟨u, hu, ⟨t', b⟩, hm, rfl⟩ := h
    have := ih hu
    rcases move_shape hm with h | ⟨h, _⟩ | ⟨d', h, h', _⟩
    · exact h ▸ this
    · rw [this] at h; cases h
    · rw [this] at h; cases h; exact h'

/-- Never delivered: a file larger than `BIG_FILE_SIZE`, when an array of an earlier small file is still in the reader. The `Move`s after `Open` read the old array, in the
end outside its bounds. -/
theorem not_delivers_data {block big : Nat} (hb : 2 < block) (hbig : block ≤ big) {s : Rd} {d f : List Char} (hd : s.data = some d) (hl : d.length ≤ big)
    (hf : big < f.length) : ¬ Delivers block f s := by
  intro h
  obtain ⟨t, ht, -, hp, hs, -, -, u, hu⟩ := h (max 1 (d.length - 2))
  have htd := moves_data hd ht
  have h0 : t.size ≠ 0 := by omega
  simp only [Rd.pos, h0, if_false, htd] at hp
  have h1 : t.filePos = max 1 (d.length - 2) + 1 := by omega
  have h2 : (t.filePos : Int) ≤ t.size := by omega
  have h3 : ((t.filePos + 1 : Nat) : Int) < t.size := by omega
  have h4 : d[t.filePos + 1]? = none := List.getElem?_eq_none (by omega)
  unfold Rd.move at hu
  simp only [htd, h2, if_true, h3, h4] at hu
  cases hu

/-- **Refuted**: for every small file `f₁` with characters, any number of moves, and every big file `f₂`: a reader that was used for `f₁` and closed does not deliver `f₂`. -/
theorem C99_refuted_big_after_small {block big : Nat} (hb : 2 < block) (hbig : block ≤ big) {f₁ f₂ : List Char} (h0 : f₁ ≠ []) (h1 : f₁.length ≤ big)
    (h2 : big < f₂.length) (k : Nat) : ∃ s, (Rd.new.open block big (some f₁)).1.moves block k = some s ∧
      ((s.close).open block big (some f₂)).2 = true ∧ ¬ Delivers block f₂ ((s.close).open block big (some f₂)).1 := by
  obtain ⟨-, hq⟩ := open_small (block := block) (s := Rd.new) rfl h0 h1
  obtain ⟨s, hs, hq'⟩ := hq.moves (block := block) k
  obtain ⟨e0, -, -, -, e4, -⟩ := open_big (block := block) (s := s.close) rfl (by omega) hbig h2
  exact ⟨s, hs, e0, not_delivers_data hb hbig (e4.trans hq'.data) h1 h2⟩

/-- **Refuted**: after a big file of which at least one character was read, no big file is delivered: the position does not start at 0 again. When nothing was read of the first
one, the second one is delivered. -/
theorem C99_refuted_big_after_big {block big : Nat} (hb : 1 < block) (hbig : block ≤ big) {f₁ f₂ : List Char} (h1 : big < f₁.length)
    (h2 : big < f₂.length) (k : Nat) : ∃ s, (Rd.new.open block big (some f₁)).1.moves block k = some s ∧
      ((s.close).open block big (some f₂)).2 = true ∧ (Delivers block f₂ ((s.close).open block big (some f₂)).1 ↔ k = 0) := by
  obtain ⟨-, hdl⟩ := delivers_big (s := Rd.new) rfl hb hbig h1 rfl rfl rfl
  obtain ⟨a0, a1, a2, a3, a4, a5, a6⟩ := open_big (s := Rd.new) rfl hb hbig h1
  obtain ⟨s, hs, -, hp, hz, -⟩ := hdl k
  obtain ⟨s', hs', hq, -, hc⟩ := BigAt.moves hb (f := f₁) ⟨a1, a2, a3, a4⟩ (by rw [a6]; exact hb) k
  rw [hs] at hs'; cases hs'
  obtain ⟨e0, e1, e2, e3, e4, e5, e6⟩ := open_big (block := block) (s := s.close) rfl hb hbig h2
  refine ⟨s, hs, e0, ?_, ?_⟩
  · intro h
    obtain ⟨t, ht, -, hp', -⟩ := h 0
    simp only [Rd.moves, Option.some.injEq] at ht; subst ht
    have hd : s.close.data = none := hq.data
    have z1 : s.size ≠ 0 := by omega
    simp only [Rd.pos, z1, if_false, hq.data] at hp
    have z2 : (((s.close).open block big (some f₂)).1).size ≠ 0 := by rw [e3]; omega
    simp only [Rd.pos, z2, if_false, e4, hd, e5, e6] at hp'
    have e7 : s.close.filePos = s.filePos := rfl
    have e8 : s.close.chunkPos = s.chunkPos := rfl
    omega
  · rintro rfl
    simp only [Rd.moves, Option.some.injEq] at hs; subst hs
    exact (delivers_big (s := ((Rd.new.open block big (some f₁)).1).close) rfl hb hbig h2 a4 a5 a6).2

/-- **Refuted**: `Open` on a reader that is still open answers true, for an existing file as for a missing one, and from then on there is no character. -/
theorem C99_refuted_second_open {block big : Nat} (s : Rd) (ho : s.isOpen = true) (f : Option (List Char)) :
    (s.open block big f).2 = true ∧ ∀ n, ∃ t, (s.open block big f).1.moves block n = some t ∧ t.notEnd = false := by
  have hn : (s.open block big f).1.notEnd = false := by
    simp only [Rd.open, ho, if_true, Rd.notEnd]
    split <;> simp <;> omega
  exact ⟨by simp [Rd.open, ho], fun n => ⟨_, stuck_moves hn n, hn⟩⟩

/-- **Refuted**: a `CsvParser` whose `OpenFile` is called a second time answers true and then finds no row in any file (a `CsvParser` cannot be closed). -/
theorem C99_refuted_parser {block big : Nat} (s : Rd) (ho : s.isOpen = true) (f : List Char) (sep : Char) :
    (s.open block big (some f)).2 = true ∧
      getNext (Rd.reader block (s.open block big (some f)).1) sep (s.open block big (some f)).1 = some (false, [], (s.open block big (some f)).1) := by
  have hn : (s.open block big (some f)).1.notEnd = false := by
    simp only [Rd.open, ho, if_true, Rd.notEnd]
    split <;> simp <;> omega
  refine ⟨by simp [Rd.open, ho], ?_⟩
  generalize hsz : (Rd.reader block (s.open block big (some f)).1).size = z
  unfold getNext
  rw [hsz]
  split
  · unfold getNextLoop
    have : (Rd.reader block (s.open block big (some f)).1).notEnd (s.open block big (some f)).1 = false := hn
    rw [this]; rfl
  · rfl

/-- **Refuted**: the documentation says that `Move` answers whether the next character exists; on the last character it answers true. -/
theorem C99_refuted_move : ∃ t u, (Rd.new.open 4096 10485760 (some ['a', 'b'])).1.moves 4096 1 = some t ∧ t.pos = 1 ∧ t.move 4096 = some (u, true) := by
  exact ⟨_, _, rfl, rfl, rfl⟩

/-! ### Concrete cases -/

/-- Three files in a row with the block and file sizes of the code: after "ab" (read to its end), "" and "c,d" the last is delivered. -/
example : ∃ s, RdReach 4096 10485760 s ∧ s.isOpen = false ∧ s.data = some ['a', 'b'] ∧ s.filePos = 3 ∧ ['c', ',', 'd'].length ≤ 10485760 := by
  refine ⟨_, .close (.open (some []) (.close (.move (.move (.open (some ['a', 'b']) .new) rfl) rfl))), rfl, rfl, rfl, by decide⟩

example : 2 < 4096 ∧ 4096 ≤ 10485760 ∧ ['a'] ≠ [] ∧ ['a'].length ≤ 10485760 ∧ 10485760 < (List.replicate 10485761 'x').length :=
  ⟨by decide, by decide, by decide, by decide, by rw [List.length_replicate]; decide⟩

example : (Rd.new.open 4096 10485760 (some ['a'])).1.isOpen = true := rfl

end MVault.Csv
