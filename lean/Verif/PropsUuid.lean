import Verif.PropsStrings
/-! **C107.** UUIDs and the names of temporary files: which of the random bits a UUID carries, and when two names are the same. -/
set_option linter.unusedSimpArgs false
set_option linter.unusedVariables false
namespace MVault.Str

theorem toHexLoop_get : ∀ (n : Nat) (d : BitVec 64) (i : Nat), i < n →
    (toHexLoop n d)[i]? = some (hexChar ((d >>> (4 * (n - 1 - i))) &&& 0xf#64).toNat) := by
  intro n
  induction n with
  | zero => intro d i h; omega
  | succ n ih =>
    intro d i h
    have hl := hex_loop_length n (d >>> 4)
    rw [toHexLoop]
    by_cases hi : i < n
    · rw [List.getElem?_append_left (by omega), ih _ _ hi, ← BitVec.shiftRight_add]
      congr 6
      omega
    · have e : i = n := by omega
      subst e
      rw [List.getElem?_append_right (by omega), hl]
      simp

theorem hexChar_inj {a b : Nat} (ha : a < 16) (hb : b < 16) (h : hexChar a = hexChar b) : a = b := by
  have key : ∀ x < 16, ∀ y < 16, hexChar x = hexChar y → x = y := by decide
  exact key a ha b hb h

theorem nibble_bits (x : BitVec 64) (j : Nat) : (x &&& 0xf#64).getLsbD j = (x.getLsbD j && decide (j < 4)) := by
  rw [BitVec.getLsbD_and]
  congr 1
  by_cases h : j < 64
  · have key : ∀ j < 64, (0xf#64).getLsbD j = decide (j < 4) := by decide
    exact key j h
  · rw [BitVec.getLsbD_of_ge _ _ (by omega)]
    simp; omega

theorem nibble_lt (x : BitVec 64) : (x &&& 0xf#64).toNat < 16 := by
  rw [BitVec.toNat_and]
  exact Nat.lt_of_le_of_lt Nat.and_le_right (by decide)

theorem nibble_eq_iff (x y : BitVec 64) : hexChar (x &&& 0xf#64).toNat = hexChar (y &&& 0xf#64).toNat ↔
    ∀ j < 4, x.getLsbD j = y.getLsbD j := by
  constructor
  · intro h j hj
    have e := BitVec.eq_of_toNat_eq (hexChar_inj (nibble_lt x) (nibble_lt y) h)
    have := congrArg (BitVec.getLsbD · j) e
    simp only [nibble_bits, hj, decide_true, Bool.and_true] at this
    exact this
  · intro h
    have : (x &&& 0xf#64) = (y &&& 0xf#64) := by
      apply BitVec.eq_of_getLsbD_eq
      intro j hj
      rw [nibble_bits, nibble_bits]
      by_cases h4 : j < 4
      · rw [h j h4]
      · simp [h4]
    rw [this]

/-- One digit of the hexadecimal text stands for four bits. -/
theorem toHex_get_iff (x y : BitVec 64) (i : Nat) (hi : i < 16) : (toHex x)[i]? = (toHex y)[i]? ↔
    ∀ j, 4 * (15 - i) ≤ j → j < 4 * (15 - i) + 4 → x.getLsbD j = y.getLsbD j := by
  unfold toHex
  rw [toHexLoop_get 16 x i hi, toHexLoop_get 16 y i hi, Option.some.injEq, nibble_eq_iff]
  simp only [BitVec.getLsbD_ushiftRight, Nat.reduceSub]
  constructor
  · intro h j h1 h2
    have := h (j - 4 * (15 - i)) (by omega)
    rwa [show 4 * (15 - i) + (j - 4 * (15 - i)) = j by omega] at this
  · intro h j hj
    exact h _ (by omega) (by omega)

theorem substr_eq_iff (a b : List Char) (p n : Nat) : substr a p n = substr b p n ↔ ∀ i, p ≤ i → i < p + n → a[i]? = b[i]? := by
  unfold substr
  constructor
  · intro h i h1 h2
    have := congrArg (fun l : List Char => l[i - p]?) h
    simp only [List.getElem?_take, List.getElem?_drop] at this
    rw [if_pos (by omega), if_pos (by omega), show p + (i - p) = i by omega] at this
    exact this
  · intro h
    apply List.ext_getElem?
    intro i
    simp only [List.getElem?_take, List.getElem?_drop]
    split
    · exact h _ (by omega) (by omega)
    · rfl

theorem substr_length (d : BitVec 64) (p n : Nat) (h : p + n ≤ 16) : (substr (toHex d) p n).length = n := by
  have := hex_loop_length 16 d
  unfold substr toHex
  simp [this]; omega

/-- Specification: the bits of the two words drawn from the random device that a UUID shows: all of the first word but the four
bits in whose place the version digit stands, all of the second word but its two lowest bits. They are 60 + 62 = 122. -/
def SameRandomBits (r1 r2 r1' r2' : BitVec 64) : Prop :=
  (∀ j, j < 64 → ¬ (12 ≤ j ∧ j < 16) → r1.getLsbD j = r1'.getLsbD j) ∧ (∀ j, 2 ≤ j → j < 64 → r2.getLsbD j = r2'.getLsbD j)

theorem variant_bits (r : BitVec 64) (j : Nat) (h : j < 64) :
    ((r >>> 2) ||| (1#64 <<< 63)).getLsbD j = (r.getLsbD (2 + j) || decide (j = 63)) := by
  rw [BitVec.getLsbD_or, BitVec.getLsbD_ushiftRight]
  congr 1
  have key : ∀ j < 64, (1#64 <<< 63).getLsbD j = decide (j = 63) := by decide
  exact key j h

/-- **C107.** Two generated UUIDs are the same exactly when the 122 random bits they show are the same: no randomness is lost
besides the six bits that say "version 4, variant 1". -/
theorem C107_same_uuid_iff (r1 r2 r1' r2' : BitVec 64) : uuid r1 r2 = uuid r1' r2' ↔ SameRandomBits r1 r2 r1' r2' := by
  have parts : uuid r1 r2 = uuid r1' r2' ↔
      substr (toHex r1) 0 8 = substr (toHex r1') 0 8 ∧ substr (toHex r1) 8 4 = substr (toHex r1') 8 4 ∧
      substr (toHex r1) 13 3 = substr (toHex r1') 13 3 ∧
      substr (toHex ((r2 >>> 2) ||| (1#64 <<< 63))) 0 4 = substr (toHex ((r2' >>> 2) ||| (1#64 <<< 63))) 0 4 ∧
      substr (toHex ((r2 >>> 2) ||| (1#64 <<< 63))) 4 12 = substr (toHex ((r2' >>> 2) ||| (1#64 <<< 63))) 4 12 := by
    constructor
    · intro h
      unfold uuid at h
      simp only [List.append_assoc] at h
      obtain ⟨h1, h⟩ := List.append_inj h (by simp only [substr_length _ _ _ (by decide : 0 + 8 ≤ 16)])
      obtain ⟨-, h⟩ := List.append_inj h rfl
      obtain ⟨h2, h⟩ := List.append_inj h (by simp only [substr_length _ _ _ (by decide : 8 + 4 ≤ 16)])
      obtain ⟨-, h⟩ := List.append_inj h rfl
      obtain ⟨h3, h⟩ := List.append_inj h (by simp only [substr_length _ _ _ (by decide : 13 + 3 ≤ 16)])
      obtain ⟨-, h⟩ := List.append_inj h rfl
      obtain ⟨h4, h⟩ := List.append_inj h (by simp only [substr_length _ _ _ (by decide : 0 + 4 ≤ 16)])
      obtain ⟨-, h⟩ := List.append_inj h rfl
      exact ⟨h1, h2, h3, h4, h⟩
    · rintro ⟨h1, h2, h3, h4, h5⟩
      unfold uuid
      simp only [h1, h2, h3, h4, h5]
  rw [parts]
  simp only [substr_eq_iff]
  constructor
  · rintro ⟨h1, h2, h3, h4, h5⟩
    refine ⟨fun j hj hn => ?_, fun j h2j hj => ?_⟩
    · have hi : 15 - j / 4 < 16 := by omega
      have hk : ∀ (h : (toHex r1)[15 - j / 4]? = (toHex r1')[15 - j / 4]?), r1.getLsbD j = r1'.getLsbD j :=
        fun h => (toHex_get_iff r1 r1' _ hi).1 h j (by omega) (by omega)
      by_cases c1 : 15 - j / 4 < 8
      · exact hk (h1 _ (by omega) (by omega))
      · by_cases c2 : 15 - j / 4 < 12
        · exact hk (h2 _ (by omega) (by omega))
        · exact hk (h3 _ (by omega) (by omega))
    · have hi : 15 - (j - 2) / 4 < 16 := by omega
      have hk : ∀ (h : (toHex ((r2 >>> 2) ||| (1#64 <<< 63)))[15 - (j - 2) / 4]? = (toHex ((r2' >>> 2) ||| (1#64 <<< 63)))[15 - (j - 2) / 4]?),
          r2.getLsbD j = r2'.getLsbD j := by
        intro h
        have := (toHex_get_iff _ _ _ hi).1 h (j - 2) (by omega) (by omega)
        rw [variant_bits _ _ (by omega), variant_bits _ _ (by omega), show 2 + (j - 2) = j by omega] at this
        have hne : ¬ j - 2 = 63 := by omega
        simpa [hne] using this
      by_cases c1 : 15 - (j - 2) / 4 < 4
      · exact hk (h4 _ (by omega) (by omega))
      · exact hk (h5 _ (by omega) (by omega))
  · rintro ⟨ha, hb⟩
    have ka : ∀ i, i < 16 → i ≠ 12 → (toHex r1)[i]? = (toHex r1')[i]? := by
      intro i hi hne
      exact (toHex_get_iff r1 r1' i hi).2 fun j h1 h2 => ha j (by omega) (by omega)
    have kb : ∀ i, i < 16 → (toHex ((r2 >>> 2) ||| (1#64 <<< 63)))[i]? = (toHex ((r2' >>> 2) ||| (1#64 <<< 63)))[i]? := by
      intro i hi
      refine (toHex_get_iff _ _ i hi).2 fun j h1 h2 => ?_
      rw [variant_bits _ _ (by omega), variant_bits _ _ (by omega)]
      by_cases h62 : 2 + j < 64
      · rw [hb (2 + j) (by omega) h62]
      · rw [BitVec.getLsbD_of_ge _ _ (by omega), BitVec.getLsbD_of_ge _ _ (by omega)]
    exact ⟨fun i _ _ => ka i (by omega) (by omega), fun i _ _ => ka i (by omega) (by omega), fun i _ _ => ka i (by omega) (by omega),
      fun i _ _ => kb i (by omega), fun i _ _ => kb i (by omega)⟩

/-- Different bits, different UUIDs; the same UUID for words that differ only in bits it does not show. -/
example : uuid 0#64 4#64 ≠ uuid 0#64 0#64 ∧ uuid 0xf000#64 3#64 = uuid 0#64 0#64 ∧ SameRandomBits 0xf000#64 3#64 0#64 0#64 := by
  refine ⟨by decide, by decide, (C107_same_uuid_iff _ _ _ _).1 (by decide)⟩

/-- **C107.** The name of a temporary file is the directory `/tmp/`, the prefix and a UUID. -/
theorem C107_tmp_name (pre : List Char) (r1 r2 : BitVec 64) : genTmpFileName pre r1 r2 = "/tmp/".toList ++ pre ++ uuid r1 r2 := by
  unfold genTmpFileName
  cases pre <;> simp

/-- **C107.** Two temporary names are the same exactly when the prefixes and the random bits are: prefixes of different lengths never
make names clash. -/
theorem C107_same_tmp_name_iff (p p' : List Char) (r1 r2 r1' r2' : BitVec 64) :
    genTmpFileName p r1 r2 = genTmpFileName p' r1' r2' ↔ p = p' ∧ SameRandomBits r1 r2 r1' r2' := by
  rw [C107_tmp_name, C107_tmp_name, ← C107_same_uuid_iff]
  constructor
  · intro h
    obtain ⟨h1, h2⟩ := List.append_inj' h (by rw [C09_length, C09_length])
    exact ⟨(List.append_inj h1 rfl).2, h2⟩
  · rintro ⟨rfl, h⟩
    rw [h]

/-- **C107.** A prefix without a slash gives a file directly in `/tmp`. -/
theorem C107_in_tmp (p : List Char) (hp : '/' ∉ p) (r1 r2 : BitVec 64) :
    ∃ name, genTmpFileName p r1 r2 = "/tmp/".toList ++ name ∧ '/' ∉ name ∧ 36 ≤ name.length := by
  refine ⟨p ++ uuid r1 r2, by rw [C107_tmp_name, List.append_assoc], ?_, by rw [List.length_append, C09_length]; omega⟩
  obtain ⟨p1, p2, p3, p4, p5, y, e, -, -, -, -, -, hy, hh⟩ := C09_uuid_shape r1 r2
  have hd : ∀ c ∈ p1 ++ p2 ++ p3 ++ p4 ++ p5, c ≠ '/' := by
    intro c hc e
    subst e
    have := hh _ hc
    unfold IsHex at this
    revert this
    decide
  simp only [List.mem_append] at hd ⊢
  rintro (h | h)
  · exact hp h
  rw [e] at h
  simp only [List.mem_append, List.mem_cons, List.not_mem_nil, or_false] at h
  have n1 : ('/' : Char) ≠ '-' := by decide
  have n2 : ('/' : Char) ≠ '4' := by decide
  have n3 : y ≠ '/' := by rcases hy with rfl | rfl | rfl | rfl <;> decide
  rcases h with (((((h | h) | h) | h | h) | h) | h) | h
  all_goals grind

example : genTmpFileName "log".toList 0#64 0#64 = "/tmp/log00000000-0000-4000-8000-000000000000".toList ∧
    genTmpFileName [] 0x123456789abcdef0#64 0xffffffffffffffff#64 = "/tmp/12345678-9abc-4ef0-bfff-ffffffffffff".toList ∧ '/' ∉ "log".toList := by
  refine ⟨by decide, by decide, by decide⟩

end MVault.Str
