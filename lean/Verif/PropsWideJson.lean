import Verif.PropsJson
import Verif.PropsWide
/-
C44 and C59 for all types of values: 8-bit integers and floating point values are JSON numbers, user types empty strings.
-/
set_option linter.unusedSectionVars false
set_option linter.unusedSimpArgs false
namespace MVault.W
open MVault.JsonSpec

/-- `IsQuotedJsonType`, ToJson.cpp lines 5-21, for all types. -/
def WTy.quoted : WTy → Bool
  | .int _ | .byte _ | .bool | .real _ => false
  | .str | .user _ => true
instance : Quoting WTy := ⟨WTy.quoted⟩

theorem dvalue_acc : ∀ (ds : List Char) (acc : Int), Str.dvalue ds acc = acc * 10 ^ ds.length + Str.dvalue ds 0
  | [], acc => by simp [Str.dvalue]
  | c :: ds, acc => by
    rw [Str.dvalue_cons, Str.dvalue_cons, dvalue_acc ds, dvalue_acc ds (0 * 10 + Str.dval c), List.length_cons]
    ring

theorem parseUnsigned_real (neg : Bool) (a b : Nat) (rest : List Char) (hr : Delim rest) (hb : b < 10 ^ 6) :
    parseUnsigned neg (Str.decDigits a ++ ('.' :: Fp.fixedDigits 6 b ++ rest)) =
      some (.num (if neg = true then -((a * 10 ^ 6 + b : Nat) : Int) else ((a * 10 ^ 6 + b : Nat) : Int)) (-6), rest) := by
  obtain ⟨h1, h2, h3⟩ := Str.decDigits_spec a
  obtain ⟨g1, g2⟩ := Fp.fixedDigits_spec 6 b
  have hd : ∀ c ∈ Str.decDigits a, isDig c = true := fun c hc => (isDig_iff c).mpr ((Str.isDigit_iff c).mpr (h1 c hc))
  have hf : ∀ c ∈ Fp.fixedDigits 6 b, isDig c = true := fun c hc => (isDig_iff c).mpr ((Str.isDigit_iff c).mpr (g1 c hc))
  have hdig : digits (Str.decDigits a ++ ('.' :: Fp.fixedDigits 6 b ++ rest)) = (Str.decDigits a, '.' :: (Fp.fixedDigits 6 b ++ rest)) := by
    rw [List.cons_append]
    exact digits_append hd (fun c hc => by simp only [List.head?_cons, Option.some.injEq] at hc; subst hc; decide)
  have hdig2 : digits (Fp.fixedDigits 6 b ++ rest) = (Fp.fixedDigits 6 b, rest) := digits_append hf (fun c hc => (hr c hc).1)
  have hlen := Fp.fixedDigits_length 6 b
  have hfr : fraction ('.' :: (Fp.fixedDigits 6 b ++ rest)) = (Fp.fixedDigits 6 b, rest, true) := by
    unfold fraction
    rw [if_pos (by rfl), List.tail_cons, hdig2]
    have : (Fp.fixedDigits 6 b).isEmpty = false := by
      cases h : Fp.fixedDigits 6 b with
      | nil => rw [h] at hlen; simp at hlen
      | cons => rfl
    simp [this]
  have hz : ¬ (Str.decDigits a = [] ∨ (Str.decDigits a).head? = some '0' ∧ (Str.decDigits a).length ≠ 1) := by
    rintro (e | ⟨e, e2⟩)
    · exact h2 e
    · cases a with
      | zero => exact e2 (by rw [Str.decDigits]; rfl)
      | succ n => exact decDigits_head (n + 1) (by omega) e
  have hval : digitsValue (Str.decDigits a ++ Fp.fixedDigits 6 b) = ((a * 10 ^ 6 + b : Nat) : Int) := by
    rw [digitsValue_eq, Str.dvalue_append, dvalue_acc, h3, g2, hlen, Nat.mod_eq_of_lt hb]
    push_cast
    ring
  unfold parseUnsigned
  rw [hdig]
  simp only [hfr, hval, hlen]
  rw [if_neg (by rintro (e | e | e); exact hz (.inl e); exact hz (.inr e); cases e)]
  rw [if_neg (by rintro (e | e); exact (hr _ e).2.2.1 rfl; exact (hr _ e).2.2.2 rfl)]
  rfl

/-- A floating point value in millionths, rounded to the nearest with ties to even (specification: see `C44_number`). -/
def millionths (x : ℚ) : Int := if x < 0 then -((Fp.scaled x : Nat) : Int) else ((Fp.scaled x : Nat) : Int)

theorem renders_real (n : Nat) (x : ℚ) : Renders (parseValue (n + 1)) (Fp.toStringFloat x) (.num (millionths x) (-6)) := by
  intro rest hr
  obtain ⟨ht, -, -, -⟩ := Fp.toString_shape x
  have hmod : Fp.scaled x % 10 ^ 6 < 10 ^ 6 := Nat.mod_lt _ (by decide)
  have hsum : Fp.scaled x / 10 ^ 6 * 10 ^ 6 + Fp.scaled x % 10 ^ 6 = Fp.scaled x := by
    have := Nat.div_add_mod (Fp.scaled x) (10 ^ 6); rw [Nat.mul_comm]; exact this
  rw [ht, parseValue]
  unfold Fp.decimalText millionths
  by_cases h : x < 0
  · simp only [h, decide_true, if_true, List.cons_append, List.nil_append]
    rw [skipWs_cons (by decide)]
    simp only [show ('-' : Char) ≠ '"' by decide, show ('-' : Char) ≠ '{' by decide, show ('-' : Char) ≠ '[' by decide, show ('-' : Char) ≠ 't' by decide,
      show ('-' : Char) ≠ 'f' by decide, show ('-' : Char) ≠ 'n' by decide, if_false, if_true]
    rw [List.append_assoc, parseUnsigned_real true _ _ _ hr hmod, hsum]
    rfl
  · simp only [h, decide_false, Bool.false_eq_true, if_false, List.nil_append]
    rw [List.append_assoc]
    obtain ⟨h1, h2, h3⟩ := Str.decDigits_spec (Fp.scaled x / 10 ^ 6)
    have hp := parseUnsigned_real false (Fp.scaled x / 10 ^ 6) _ _ hr hmod
    cases hd : Str.decDigits (Fp.scaled x / 10 ^ 6) with
    | nil => exact absurd hd h2
    | cons c l =>
      have hc : isDig c = true := (isDig_iff c).mpr ((Str.isDigit_iff c).mpr (h1 c (by rw [hd]; simp)))
      have hw : isWs c = false := by
        unfold isWs
        simp [dig_other hc (show isDig ' ' = false by decide), dig_other hc (show isDig '\t' = false by decide), dig_other hc (show isDig '\n' = false by decide),
          dig_other hc (show isDig '\r' = false by decide)]
      rw [hd, hsum] at hp
      rw [List.cons_append, skipWs_cons hw]
      simp only [dig_other hc (show isDig '"' = false by decide), dig_other hc (show isDig '{' = false by decide), dig_other hc (show isDig '[' = false by decide),
        dig_other hc (show isDig 't' = false by decide), dig_other hc (show isDig 'f' = false by decide), dig_other hc (show isDig 'n' = false by decide),
        dig_other hc (show isDig '-' = false by decide), if_false]
      rw [List.cons_append] at hp
      rw [hp]
      rfl

/-- The JSON value of a value (specification): integers of all sizes are numbers, floating point values numbers of six decimals, booleans booleans, texts strings, values
of user types without `ToString` empty strings. -/
def WVal.json : WVal → Json
  | .int _ i _ => .num i 0
  | .byte _ i _ => .num i 0
  | .bool b => .bool b
  | .str s => .str s
  | .real _ x _ => .num (millionths x) (-6)
  | .user _ _ => .str []

/-- Values that can be written: texts without quotes, backslashes and control characters, and all other values. -/
def WVal.writable : WVal → Prop
  | .str s => Literal s
  | _ => True

instance : Means WVal WTy where
  jsonOf := WVal.json
  Writable := WVal.writable
  renders_cell n v h := by
    cases v with
    | int t i hi => exact renders_int n i
    | byte s i hi => exact renders_int n i
    | bool b => exact renders_bool n b
    | str s => exact renders_str n h
    | real d x hx => exact renders_real n x
    | user u c => exact renders_str n (s := []) (by intro c hc; cases hc)

/-- **C44.** The number written for a floating point value is at most half a millionth away from it. -/
theorem C44_number (x : ℚ) : |(millionths x : ℚ) * (10 : ℚ) ^ (-6 : Int) - x| ≤ 1 / 2 / 10 ^ 6 := by
  have h := Fp.scaled_err x
  have e : (millionths x : ℚ) * (10 : ℚ) ^ (-6 : Int) - x = (if x < 0 then (-1 : ℚ) else 1) * (((Fp.scaled x : Nat) : ℚ) / 10 ^ 6 - |x|) := by
    rw [mul_sub, Fp.sign_abs]
    unfold millionths
    split
    · push_cast; ring
    · push_cast; ring
  rw [e, Fp.abs_signed]
  exact h

theorem wide_writable {home : Nat → Nat} {w : World Key WVal WTy} (hw : HReach Ordinary home w) {o : Nat} (hv : isVault w o = true)
    (hnames : ∀ k ∈ getKeys w o, Literal k.name) (hvals : ∀ r ∈ members w o, ∀ k s, value w r k = some (.str s) → Literal s) :
    ∀ r ∈ members w o, alive w r ∧ WritableRecord w (getKeys w o) r := by
  obtain ⟨own, hi⟩ := reach_inv hw
  obtain ⟨vo, hvo, hs⟩ := isVault_iff.mp hv
  have ok := hi.v.vok o vo hvo hs
  intro r hr
  have hr' := hr
  rw [members_eq hvo] at hr'
  obtain ⟨_, x, hx, hval⟩ := hi.v.mem o vo hvo hs r hr'
  refine ⟨⟨x, hx, hval⟩, fun k hk => ?_⟩
  have hk' := hk
  rw [getKeys_eq hvo, ok.keysM] at hk'
  obtain ⟨c, hc⟩ := hk'
  obtain ⟨v, h, _⟩ := (ok.cols k c hc).typed r hr'
  refine ⟨hnames k hk, v, h, ?_⟩
  cases v with
  | str s => exact hvals r hr k s h
  | int _ _ _ => trivial
  | bool _ => trivial
  | byte _ _ _ => trivial
  | real _ _ _ => trivial
  | user _ _ => trivial

/-- C44 for all types of values: `ToJson` of a reference to a record of a vault. Missing for the full claim: names and texts that need escapes
(`C44_refuted_name`), user types with a `ToString` of their own. -/
theorem C44_all_types_partial {home : Nat → Nat} {w : World Key WVal WTy} (hw : HReach Ordinary home w) {f r o : Nat} (hf : target w f = some r)
    (ho : through w f = some o) (hv : isVault w o = true) (hm : r ∈ members w o) (hnames : ∀ k ∈ getKeys w o, Literal k.name)
    (hvals : ∀ r ∈ members w o, ∀ k s, value w r k = some (.str s) → Literal s) (fmt : Bool) (tabSize : Nat) :
    ∃ text, refToJson w f fmt tabSize = some text ∧
      parseJson text = some (.obj ((getKeys w o).map fun k => (k.name, match value w r k with | some v => WVal.json v | none => .null))) ∧
      ∀ k ∈ getKeys w o, ∃ v, value w r k = some v := by
  obtain ⟨ha, hwr⟩ := wide_writable hw hv hnames hvals r hm
  obtain ⟨text, h1, h2⟩ := C44_record_json_partial hf ho ha (.inl hv) hwr fmt tabSize
  refine ⟨text, h1, h2.trans ?_, fun k hk => by obtain ⟨_, v, h, _⟩ := hwr k hk; exact ⟨v, h⟩⟩
  unfold recordJson
  congr 2
  refine List.map_congr_left fun k hk => ?_
  obtain ⟨_, v, h, _⟩ := hwr k hk
  rw [h]; rfl

/-- C59 for all types of values: `ToJson` of a vault after an ordinary history as an array and as an object. Missing for the full claim: names and texts that need
escapes (`C59_refuted`), user types with a `ToString` of their own. -/
theorem C59_all_types_partial {home : Nat → Nat} {w : World Key WVal WTy} (hw : HReach Ordinary home w) {o : Nat} (hv : isVault w o = true)
    (hnames : ∀ k ∈ getKeys w o, Literal k.name) (hvals : ∀ r ∈ members w o, ∀ k s, value w r k = some (.str s) → Literal s)
    (env : Env) (addr : Nat → List Char) (haddr : ∀ r, Literal (addr r)) (fmt : Bool) (tabSize : Nat) (useTemplate : Bool) (template : List Char) (htemplate : Literal template) :
    ∃ order : List Nat, order.Perm (members w o) ∧
      (∃ text, vaultToJson env addr w o fmt tabSize useTemplate template true = some text ∧ parseJson text = some (.arr (order.map (recordJson w (getKeys w o))))) ∧
      (∃ text, vaultToJson env addr w o fmt tabSize useTemplate template false = some text ∧ parseJson text = some (.obj (order.zipIdx.map fun p =>
        (if useTemplate = true then template ++ Str.toStringInt p.2 else addr p.1, recordJson w (getKeys w o) p.1)))) := by
  obtain ⟨vo, hvo, hs⟩ := isVault_iff.mp hv
  have h := wide_writable hw hv hnames hvals
  exact ⟨env.perm (members w o), env.isPerm _, C59_array_partial hvo h env addr fmt tabSize useTemplate template,
    C59_object_partial hvo h env addr haddr fmt tabSize useTemplate template htemplate⟩

theorem wideW_literal : ∀ r ∈ members wideW 0, ∀ k s, value wideW r k = some (.str s) → Literal s := by
  intro r hr k s hv
  have hm : members wideW 0 = [0] := rfl
  rw [hm, List.mem_singleton] at hr; subst hr
  have key : ∀ x, wideW.getRec 0 = some x → ∀ p ∈ x.data, ∀ s, p.2 = .str s → Literal s := by
    intro x hx
    cases hx
    intro p hp s hs
    rcases List.mem_cons.mp hp with rfl | hp
    · cases hs; try decide
    · rcases List.mem_cons.mp hp with rfl | hp
      · cases hs; try decide
      · rcases List.mem_cons.mp hp with rfl | hp
        · cases hs; try decide
        · cases hp
  unfold value at hv
  cases hx : wideW.getRec 0 with
  | none => rw [hx] at hv; cases hv
  | some x => rw [hx, Option.bind_some] at hv; exact key x hx (k, .str s) (mget_in hv) s rfl

/-- The hypotheses of `C59_all_types_partial` hold for the vault with a `double` key and an `int8_t` key. -/
example : ∃ text, vaultToJson Env.rev (fun _ => []) wideW 0 true 4 true "Record".toList true = some text ∧
    parseJson text = some (.arr [recordJson wideW (getKeys wideW 0) 0]) :=
  C59_array_partial (o := 0) (w := wideW) rfl (wide_writable wideW_reach (by decide) (by decide) wideW_literal) Env.rev _ true 4 true _

end MVault.W
