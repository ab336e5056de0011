import Verif.JsonLemmas
/-
C44 and C59: JSON output.
-/
set_option linter.unusedSectionVars false
set_option linter.unusedSimpArgs false
namespace MVault.W
open MVault.JsonSpec
variable {V Ty : Type} [LinearOrder V] [Typed V Ty] [DecidableEq Ty] [Texts V Ty] [Quoting Ty] [Means V Ty]

/-- The JSON object of a record under some keys (specification): the keys in order with the record's values. -/
def recordJson (w : World Key V Ty) (keys : List Key) (r : Nat) : Json :=
  .obj (keys.map fun k => (k.name, match value w r k with | some v => jsonOf v | none => .null))

/-- A record that can be written under some keys: it has a writable value for each, and the names are literal. -/
def WritableRecord (w : World Key V Ty) (keys : List Key) (r : Nat) : Prop :=
  ∀ k ∈ keys, Literal k.name ∧ ∃ v, value w r k = some v ∧ Writable v

theorem elementsText_cons2 (pre t q : List Char) (l : List (List Char)) : elementsText pre (t :: q :: l) = pre ++ (t ++ ',' :: elementsText pre (q :: l)) := by
  rw [elementsText]; simp

theorem membersText_cons2 (pre sp name txt : List Char) (q : List Char × List Char) (l : List (List Char × List Char)) :
    membersText pre sp ((name, txt) :: q :: l) = pre ++ '"' :: (name ++ '"' :: ':' :: (sp ++ (txt ++ ',' :: membersText pre sp (q :: l)))) := by
  rw [membersText]; simp

theorem blank_replicate (n : Nat) : Blank (List.replicate n ' ') := by
  intro c hc; rw [List.eq_of_mem_replicate hc]; decide

theorem blank_start (fmt : Bool) {start : List Char} (h : Blank start) : Blank (if fmt = true then '\n' :: start else []) := by
  cases fmt
  · intro c hc; cases hc
  · intro c hc
    rcases List.mem_cons.mp hc with rfl | hc
    · decide
    · exact h c hc

theorem blank_space (b : Prop) [Decidable b] : Blank (if b then [' '] else []) := by
  intro c hc
  split at hc
  · simp at hc; subst hc; decide
  · cases hc

theorem jsonFields_text (fmt : Bool) (start : List Char) {w : World Key V Ty} {r : Nat} {x : Rec Key V} (hx : w.getRec r = some x) (total : Nat) :
    ∀ (ks : List Key) (n : Nat), n + ks.length = total → (∀ k ∈ ks, ∃ v, value w r k = some v) →
      jsonFields fmt start x.data total ks n = some (membersText (if fmt = true then '\n' :: start else []) (if fmt = true then [' '] else [])
        (ks.map fun k => (k.name, match value w r k with | some v => jsonCell v | none => [])))
  | [], n, _, _ => rfl
  | k :: ks, n, hn, hv => by
    obtain ⟨v, h1⟩ := hv k (by simp)
    have h2 : mget x.data k = some v := by
      have := h1; unfold value at this; rw [hx] at this; exact this
    have ih := jsonFields_text fmt start hx total ks (n + 1) (by simp at hn; omega) (fun k hk => hv k (by simp [hk]))
    simp only [jsonFields, h2, ih, Option.bind_eq_bind, Option.bind_some]
    congr 1
    cases ks with
    | nil =>
      simp only [List.map_cons, List.map_nil, membersText, h1]
      rw [if_neg (show ¬ (n + 1 ≠ total) by simp at hn; omega)]
      simp
    | cons q ks =>
      rw [if_pos (show n + 1 ≠ total by simp at hn; omega)]
      rw [List.map_cons (a := k), membersText]
      · simp [h1]
      · simp

theorem renders_record (n : Nat) (fmt : Bool) {start post : List Char} (hs : Blank start) (hpost : Blank post) {w : World Key V Ty} {r : Nat} {x : Rec Key V}
    (hx : w.getRec r = some x) (keys : List Key) (hw : WritableRecord w keys r) :
    ∃ body, jsonFields fmt start x.data keys.length keys 0 = some body ∧ Renders (parseValue (n + 2)) ('{' :: (body ++ (post ++ ['}']))) (recordJson w keys r) := by
  refine ⟨_, jsonFields_text fmt start hx _ keys 0 (by simp) (fun k hk => by obtain ⟨_, v, h, _⟩ := hw k hk; exact ⟨v, h⟩), ?_⟩
  have := renders_object (n := n + 1) (blank_start fmt hs) (blank_space (fmt = true)) hpost
    (keys.map fun k => (k.name, (match value w r k with | some v => jsonCell v | none => []), match value w r k with | some v => jsonOf v | none => .null)) (by
      intro p hp
      obtain ⟨k, hk, rfl⟩ := List.mem_map.mp hp
      obtain ⟨h1, v, h2, h3⟩ := hw k hk
      refine ⟨h1, ?_⟩
      simp only [h2]
      exact Means.renders_cell n _ h3)
  rw [List.map_map, List.map_map] at this
  exact this

/-- `ToJson` of a reference to a live record is a well-formed JSON text: the object with the keys of the vault or set it works
through, in key order, with the record's values. For every kind of values that says what its values mean (`Means`); all types of the library are in
`C44_all_types_partial`. Missing for the full claim: texts and key names that need escapes (`C44_refuted_name`). -/
theorem C44_record_json_partial {w : World Key V Ty} {f r o : Nat} (hf : target w f = some r) (ho : through w f = some o) (hr : alive w r)
    (hobj : isVault w o = true ∨ isSetObj w o = true) (hw : WritableRecord w (getKeys w o) r) (fmt : Bool) (tabSize : Nat) :
    ∃ text, refToJson w f fmt tabSize = some text ∧ parseJson text = some (recordJson w (getKeys w o) r) := by
  obtain ⟨x, hx, hval⟩ := hr
  obtain ⟨vo, hvo⟩ : ∃ vo, w.getObj o = some vo := by
    rcases hobj with h | h
    · obtain ⟨vo, h, _⟩ := isVault_iff.mp h; exact ⟨vo, h⟩
    · obtain ⟨vo, h, _⟩ := isSetObj_iff.mp h; exact ⟨vo, h⟩
  rw [getKeys_eq hvo] at hw ⊢
  unfold target at hf
  unfold through at ho
  obtain ⟨ref, h1, h2⟩ := Option.bind_eq_some_iff.mp hf
  rw [h1, Option.bind_some] at ho
  have hpost : Blank (if fmt = true then ['\n'] else []) := by
    cases fmt
    · intro c hc; cases hc
    · intro c hc; simp at hc; subst hc; decide
  have key : ∀ n, ∃ body, jsonFields fmt (List.replicate tabSize ' ') x.data vo.keysOrder.length vo.keysOrder 0 = some body ∧
      Renders (parseValue (n + 2)) ('{' :: (body ++ ((if fmt = true then ['\n'] else []) ++ ['}']))) (recordJson w vo.keysOrder r) :=
    fun n => renders_record n fmt (blank_replicate tabSize) hpost hx vo.keysOrder hw
  obtain ⟨body, hb, _⟩ := key 0
  refine ⟨'{' :: (body ++ ((if fmt = true then ['\n'] else []) ++ ['}'])), ?_, ?_⟩
  · simp only [refToJson, h1, h2, ho, hx, hvo, hval, hb, Option.bind_eq_bind, Option.bind_some, if_true]
  · obtain ⟨body', hb', hr⟩ := key ((body ++ ((if fmt = true then ['\n'] else []) ++ ['}'])).length)
    rw [hb] at hb'; cases hb'
    exact parseJson_of hr (by simp only [List.length_cons])

/-- After ordinary histories every record of a vault has a value for every key, so only the texts have to be free of quotes, backslashes
and control characters. -/
theorem C44_vault_record_partial {home : Nat → Nat} {w : World Key Val VTy} (hw : HReach Ordinary home w) {f r o : Nat} (hf : target w f = some r)
    (ho : through w f = some o) (hv : isVault w o = true) (hm : r ∈ members w o) (hnames : ∀ k ∈ getKeys w o, Literal k.name)
    (hvals : ∀ k s, value w r k = some (.str s) → Literal s) (fmt : Bool) (tabSize : Nat) :
    ∃ text, refToJson w f fmt tabSize = some text ∧ parseJson text = some (recordJson w (getKeys w o) r) ∧ ∀ k ∈ getKeys w o, ∃ v, value w r k = some v := by
  obtain ⟨own, hi⟩ := reach_inv hw
  obtain ⟨vo, hvo, hs⟩ := isVault_iff.mp hv
  have ok := hi.v.vok o vo hvo hs
  rw [members_eq hvo] at hm
  obtain ⟨_, x, hx, hval⟩ := hi.v.mem o vo hvo hs r hm
  have hex : ∀ k ∈ getKeys w o, ∃ v, value w r k = some v := by
    intro k hk
    rw [getKeys_eq hvo, ok.keysM] at hk
    obtain ⟨c, hc⟩ := hk
    obtain ⟨v, h, _⟩ := (ok.cols k c hc).typed r hm
    exact ⟨v, h⟩
  obtain ⟨text, h1, h2⟩ := C44_record_json_partial hf ho ⟨x, hx, hval⟩ (.inl hv) (fun k hk => by
    obtain ⟨v, h⟩ := hex k hk
    refine ⟨hnames k hk, v, h, ?_⟩
    cases v with
    | str s => exact hvals k s h
    | int _ _ _ => trivial
    | bool _ => trivial) fmt tabSize
  exact ⟨text, h1, h2, hex⟩

/-- A reference without a live record gives the empty object. -/
theorem C44_invalid {w : World Key V Ty} {f : Nat} (h : refIsValid w f = some false) (fmt : Bool) (tabSize : Nat) :
    ∃ text, refToJson w f fmt tabSize = some text ∧ parseJson text = some (.obj []) := by
  have : refToJson w f fmt tabSize = some ('{' :: ((if fmt = true then ['\n'] else []) ++ ['}'])) := by
    simp only [refIsValid, Option.bind_eq_bind, Option.bind_eq_some_iff] at h
    obtain ⟨ref, h1, h2⟩ := h
    cases hp : ref.ptr with
    | none => simp only [refToJson, h1, hp, Option.bind_eq_bind, Option.bind_some, List.nil_append]
    | some r =>
      rw [hp] at h2
      dsimp only at h2
      rw [Option.map_eq_some_iff] at h2
      obtain ⟨x, hx, hv⟩ := h2
      simp only [refToJson, h1, hp, hx, hv, Option.bind_eq_bind, Option.bind_some, Bool.false_eq_true, if_false, List.nil_append]
  refine ⟨_, this, ?_⟩
  cases fmt
  · rfl
  · rfl

/-! ### C59: vaults and sets -/

theorem jsonRecords_array (fmt : Bool) (tab : List Char) (ht : Blank tab) (name : Nat → Nat → List Char) {w : World Key V Ty} (keys : List Key) (total n : Nat) :
    ∀ (rs : List Nat) (c : Nat), c + rs.length = total → (∀ r ∈ rs, (∃ x, w.getRec r = some x) ∧ WritableRecord w keys r) →
      ∃ l : List (List Char × Json), jsonRecords fmt tab true name w keys total rs c = some (elementsText (if fmt = true then '\n' :: tab else []) (l.map (·.1))) ∧
        l.map (·.2) = rs.map (recordJson w keys) ∧ ∀ p ∈ l, Renders (parseValue (n + 2)) p.1 p.2 ∧ p.1.head? = some '{'
  | [], c, _, _ => ⟨[], rfl, rfl, by simp⟩
  | r :: rs, c, hc, h => by
    obtain ⟨⟨x, hx⟩, hw⟩ := h r (by simp)
    have hb : Blank (tab ++ tab) := by intro a ha; rcases List.mem_append.mp ha with ha | ha <;> exact ht a ha
    obtain ⟨body, h1, h2⟩ := renders_record n fmt hb (blank_start fmt ht) hx keys hw
    obtain ⟨l, i1, i2, i3⟩ := jsonRecords_array fmt tab ht name keys total n rs (c + 1) (by simp at hc; omega) (fun r hr => h r (by simp [hr]))
    refine ⟨('{' :: (body ++ ((if fmt = true then '\n' :: tab else []) ++ ['}'])), recordJson w keys r) :: l, ?_, by simp [i2], ?_⟩
    · simp only [jsonRecords, hx, h1, i1, Option.bind_eq_bind, Option.bind_some, if_true]
      congr 1
      have hlen : l.length = rs.length := by
        have := congrArg List.length i2; simpa using this
      cases l with
      | nil =>
        have : rs = [] := by simpa using hlen.symm
        subst this
        rw [if_neg (show ¬ (c + 1 ≠ total) by simp at hc; omega)]
        simp [elementsText]
      | cons q l =>
        have : rs ≠ [] := by intro e; rw [e] at hlen; simp at hlen
        have : 0 < rs.length := List.length_pos_iff.mpr this
        rw [if_pos (show c + 1 ≠ total by simp at hc; omega)]
        simp only [List.map_cons, elementsText_cons2]
        simp
    · intro p hp
      rcases List.mem_cons.mp hp with rfl | hp
      · exact ⟨h2, rfl⟩
      · exact i3 p hp

theorem jsonRecords_object (fmt : Bool) (tab : List Char) (ht : Blank tab) (name : Nat → Nat → List Char) (hname : ∀ c r, Literal (name c r)) {w : World Key V Ty} (keys : List Key)
    (total n : Nat) :
    ∀ (rs : List Nat) (c : Nat), c + rs.length = total → (∀ r ∈ rs, (∃ x, w.getRec r = some x) ∧ WritableRecord w keys r) →
      ∃ l : List (List Char × List Char × Json), jsonRecords fmt tab false name w keys total rs c =
          some (membersText (if fmt = true then '\n' :: tab else []) (if fmt = true then [' '] else []) (l.map fun p => (p.1, p.2.1))) ∧
        l.map (fun p => (p.1, p.2.2)) = (rs.zipIdx c).map (fun p => (name p.2 p.1, recordJson w keys p.1)) ∧
        ∀ p ∈ l, Literal p.1 ∧ Renders (parseValue (n + 2)) p.2.1 p.2.2
  | [], c, _, _ => ⟨[], rfl, rfl, by simp⟩
  | r :: rs, c, hc, h => by
    obtain ⟨⟨x, hx⟩, hw⟩ := h r (by simp)
    have hb : Blank (tab ++ tab) := by intro a ha; rcases List.mem_append.mp ha with ha | ha <;> exact ht a ha
    obtain ⟨body, h1, h2⟩ := renders_record n fmt hb (blank_start fmt ht) hx keys hw
    obtain ⟨l, i1, i2, i3⟩ := jsonRecords_object fmt tab ht name hname keys total n rs (c + 1) (by simp at hc; omega) (fun r hr => h r (by simp [hr]))
    refine ⟨(name c r, '{' :: (body ++ ((if fmt = true then '\n' :: tab else []) ++ ['}'])), recordJson w keys r) :: l, ?_, by simp [i2], ?_⟩
    · simp only [jsonRecords, hx, h1, i1, Option.bind_eq_bind, Option.bind_some, Bool.false_eq_true, if_false]
      congr 1
      have hlen : l.length = rs.length := by
        have := congrArg List.length i2; simpa using this
      cases l with
      | nil =>
        have : rs = [] := by simpa using hlen.symm
        subst this
        rw [if_neg (show ¬ (c + 1 ≠ total) by simp at hc; omega)]
        simp [membersText]
      | cons q l =>
        have : rs ≠ [] := by intro e; rw [e] at hlen; simp at hlen
        have : 0 < rs.length := List.length_pos_iff.mpr this
        rw [if_pos (show c + 1 ≠ total by simp at hc; omega)]
        simp only [List.map_cons, membersText_cons2]
        simp
    · intro p hp
      rcases List.mem_cons.mp hp with rfl | hp
      · exact ⟨hname c r, h2⟩
      · exact i3 p hp

/-- `ToJson` of a vault, or of a set with a parent, as an array: a well-formed JSON text, the array of all its records. -/
theorem C59_array_partial {w : World Key V Ty} {o : Nat} {vo : Obj Key V Ty} (ho : w.getObj o = some vo)
    (hw : ∀ r ∈ members w o, alive w r ∧ WritableRecord w (getKeys w o) r) (env : Env) (addr : Nat → List Char) (fmt : Bool) (tabSize : Nat) (useTemplate : Bool)
    (template : List Char) :
    ∃ text, vaultToJson env addr w o fmt tabSize useTemplate template true = some text ∧
      parseJson text = some (.arr ((env.perm (members w o)).map (recordJson w (getKeys w o)))) := by
  rw [members_eq ho] at hw ⊢
  rw [getKeys_eq ho] at hw ⊢
  have hpost : Blank (if fmt = true then ['\n'] else []) := by
    cases fmt
    · intro c hc; cases hc
    · intro c hc; simp at hc; subst hc; decide
  have key := fun n => jsonRecords_array fmt (List.replicate tabSize ' ') (blank_replicate tabSize) (fun n r => if useTemplate = true then template ++ Str.decDigits n else addr r) vo.keysOrder
    vo.recs.length n (env.perm vo.recs) 0 (by rw [(env.isPerm vo.recs).length_eq]; simp) (fun r hr => by
      obtain ⟨⟨x, hx, _⟩, h⟩ := hw r ((env.isPerm vo.recs).mem_iff.mp hr); exact ⟨⟨x, hx⟩, h⟩)
  obtain ⟨l, h1, h2, _⟩ := key 0
  refine ⟨'[' :: (elementsText (if fmt = true then '\n' :: List.replicate tabSize ' ' else []) (l.map (·.1)) ++ ((if fmt = true then ['\n'] else []) ++ [']'])),
    by simp only [vaultToJson, ho, h1, Option.bind_eq_bind, Option.bind_some, if_true], ?_⟩
  obtain ⟨l', g1, g2, g3⟩ := key ((elementsText (if fmt = true then '\n' :: List.replicate tabSize ' ' else []) (l.map (·.1)) ++ ((if fmt = true then ['\n'] else []) ++ [']'])).length - 1)
  have hR := renders_array (blank_start fmt (blank_replicate tabSize)) hpost l' g3
  rw [h1] at g1
  have ge := Option.some.inj g1
  rw [← ge, g2] at hR
  refine parseJson_of hR ?_
  simp only [List.length_cons, List.length_append, List.length_nil]; omega

/-- `ToJson` of a vault, or of a set with a parent, as an object: a well-formed JSON text; its members are the records, named with
the template and their numbers (or with their addresses). -/
theorem C59_object_partial {w : World Key V Ty} {o : Nat} {vo : Obj Key V Ty} (ho : w.getObj o = some vo)
    (hw : ∀ r ∈ members w o, alive w r ∧ WritableRecord w (getKeys w o) r) (env : Env) (addr : Nat → List Char) (haddr : ∀ r, Literal (addr r)) (fmt : Bool) (tabSize : Nat) (useTemplate : Bool)
    (template : List Char) (htemplate : Literal template) :
    ∃ text, vaultToJson env addr w o fmt tabSize useTemplate template false = some text ∧
      parseJson text = some (.obj ((env.perm (members w o)).zipIdx.map fun p =>
        (if useTemplate = true then template ++ Str.toStringInt p.2 else addr p.1, recordJson w (getKeys w o) p.1))) := by
  rw [members_eq ho] at hw ⊢
  rw [getKeys_eq ho] at hw ⊢
  have hpost : Blank (if fmt = true then ['\n'] else []) := by
    cases fmt
    · intro c hc; cases hc
    · intro c hc; simp at hc; subst hc; decide
  have hname : ∀ n r, Literal (if useTemplate = true then template ++ Str.decDigits n else addr r) := by
    intro n r
    cases useTemplate
    · exact haddr r
    · intro c hc
      rcases List.mem_append.mp hc with hc | hc
      · exact htemplate c hc
      · have hd := (Str.isDigit_iff c).mpr ((Str.decDigits_spec n).1 c hc)
        have h0 : '0'.toNat = 48 := by decide
        have h9 : '9'.toNat = 57 := by decide
        unfold Str.IsDigit at hd
        refine ⟨?_, ?_, by omega⟩
        · rintro rfl; revert hd; decide
        · rintro rfl; revert hd; decide
  have key := fun n => jsonRecords_object fmt (List.replicate tabSize ' ') (blank_replicate tabSize) (fun n r => if useTemplate = true then template ++ Str.decDigits n else addr r) hname vo.keysOrder
    vo.recs.length n (env.perm vo.recs) 0 (by rw [(env.isPerm vo.recs).length_eq]; simp) (fun r hr => by
      obtain ⟨⟨x, hx, _⟩, h⟩ := hw r ((env.isPerm vo.recs).mem_iff.mp hr); exact ⟨⟨x, hx⟩, h⟩)
  obtain ⟨l, h1, h2, _⟩ := key 0
  refine ⟨'{' :: (membersText (if fmt = true then '\n' :: List.replicate tabSize ' ' else []) (if fmt = true then [' '] else []) (l.map fun p => (p.1, p.2.1)) ++
    ((if fmt = true then ['\n'] else []) ++ ['}'])), by simp only [vaultToJson, ho, h1, Option.bind_eq_bind, Option.bind_some, Bool.false_eq_true, if_false], ?_⟩
  obtain ⟨l', g1, g2, g3⟩ := key ((membersText (if fmt = true then '\n' :: List.replicate tabSize ' ' else []) (if fmt = true then [' '] else []) (l.map fun p => (p.1, p.2.1)) ++
    ((if fmt = true then ['\n'] else []) ++ ['}'])).length - 1)
  have hR := renders_object (blank_start fmt (blank_replicate tabSize)) (blank_space (fmt = true)) hpost l' g3
  rw [h1] at g1
  have ge := Option.some.inj g1
  rw [← ge, g2] at hR
  have hdec : ∀ n : Nat, Str.decDigits n = Str.toStringInt (n : Int) := by
    intro n; unfold Str.toStringInt; rw [if_neg (by omega)]; rfl
  simp only [hdec] at hR
  refine parseJson_of hR ?_
  simp only [List.length_cons, List.length_append, List.length_nil]; omega

theorem vault_writable {home : Nat → Nat} {w : World Key Val VTy} (hw : HReach Ordinary home w) {o : Nat} (hv : isVault w o = true)
    (hnames : ∀ k ∈ getKeys w o, Literal k.name) (hvals : ∀ r ∈ members w o, ∀ k s, value w r k = some (.str s) → Literal s) :
    ∀ r ∈ members w o, alive w r ∧ WritableRecord w (getKeys w o) r := by
  obtain ⟨own, hi⟩ := reach_inv hw
  obtain ⟨vo, hvo, hs⟩ := isVault_iff.mp hv
  have ok := hi.v.vok o vo hvo hs
  intro r hr
  have hr' := hr
  rw [members_eq hvo] at hr'
  obtain ⟨_, x, hx, hval⟩ := hi.v.mem o vo hvo hs r hr'
  refine ⟨⟨x, hx, hval⟩, fun k hk => ?_⟩
  have hk' := hk
  rw [getKeys_eq hvo, ok.keysM] at hk'
  obtain ⟨c, hc⟩ := hk'
  obtain ⟨v, h, _⟩ := (ok.cols k c hc).typed r hr'
  refine ⟨hnames k hk, v, h, ?_⟩
  cases v with
  | str s => exact hvals r hr k s h
  | int _ _ _ => trivial
  | bool _ => trivial

/-- For a vault after an ordinary history, whose texts and key names are free of quotes, backslashes and control characters: the array
form and the object form are well-formed and hold all records, each with all keys in order and its values. Missing for the full
claim: names and texts that need escapes (`C59_refuted`); the other types of values are in `C59_all_types_partial`. -/
theorem C59_vault_partial {home : Nat → Nat} {w : World Key Val VTy} (hw : HReach Ordinary home w) {o : Nat} (hv : isVault w o = true)
    (hnames : ∀ k ∈ getKeys w o, Literal k.name) (hvals : ∀ r ∈ members w o, ∀ k s, value w r k = some (.str s) → Literal s)
    (env : Env) (addr : Nat → List Char) (haddr : ∀ r, Literal (addr r)) (fmt : Bool) (tabSize : Nat) (useTemplate : Bool) (template : List Char) (htemplate : Literal template) :
    ∃ order : List Nat, order.Perm (members w o) ∧
      (∃ text, vaultToJson env addr w o fmt tabSize useTemplate template true = some text ∧ parseJson text = some (.arr (order.map (recordJson w (getKeys w o))))) ∧
      (∃ text, vaultToJson env addr w o fmt tabSize useTemplate template false = some text ∧ parseJson text = some (.obj (order.zipIdx.map fun p =>
        (if useTemplate = true then template ++ Str.toStringInt p.2 else addr p.1, recordJson w (getKeys w o) p.1)))) := by
  obtain ⟨vo, hvo, hs⟩ := isVault_iff.mp hv
  have h := vault_writable hw hv hnames hvals
  exact ⟨env.perm (members w o), env.isPerm _, C59_array_partial hvo h env addr fmt tabSize useTemplate template,
    C59_object_partial hvo h env addr haddr fmt tabSize useTemplate template htemplate⟩

/-- A set without a parent vault gives the empty object, also when an array is asked for. -/
theorem C59_refuted_detached : ∃ w : World Key Val VTy, HReach Ordinary (fun _ => 0) w ∧ isSetObj w 0 = true ∧
    ∃ text, setToJson Env.id (fun _ => []) w 0 false 2 true [] true = some text ∧ ∃ l, parseJson text = some (.obj l) :=
  ⟨(fileRun [.newSet]).getD World.empty, fileRun_reach (l := [.newSet]) rfl, by decide, ['{', '}'], rfl, [], rfl⟩

/-! ### Concrete records -/

/-- A text key and a boolean key with two records, and a reference to the first. -/
def jsonOps : List (Op Key Val VTy) := strKeys ++ [.newRef, .createRecord 0 0 [(kName, .str "Ann, Bo".toList)], .createRow 0 [(kFlag, .bool false)]]
def jsonW : World Key Val VTy := (fileRun jsonOps).getD World.empty
theorem jsonW_reach : HReach Ordinary (fun _ => 0) jsonW := fileRun_reach (l := jsonOps) rfl

theorem jsonW_vals : ∀ r ∈ members jsonW 0, ∀ k s, value jsonW r k = some (.str s) → Literal s := by
  intro r hr k s hv
  have hm : members jsonW 0 = [0, 1] := by decide
  rw [hm] at hr
  have key : ∀ r ∈ [0, 1], ∀ x, jsonW.getRec r = some x → ∀ p ∈ x.data, Literal p.2.text := by
    intro r hr x hx
    simp only [List.mem_cons, List.not_mem_nil, or_false] at hr
    rcases hr with rfl | rfl <;> (cases hx; decide)
  unfold value at hv
  cases hx : jsonW.getRec r with
  | none => rw [hx] at hv; cases hv
  | some x => rw [hx] at hv; exact key r hr x hx _ (mget_in hv)

/-- The hypotheses of `C44_vault_record_partial` hold, and the text is the expected one. -/
example : refToJson jsonW 0 false 2 = some "{\"flag\":true,\"name\":\"Ann, Bo\"}".toList ∧
    ∃ text, refToJson jsonW 0 true 2 = some text ∧ parseJson text = some (recordJson jsonW (getKeys jsonW 0) 0) := by
  refine ⟨by decide, ?_⟩
  obtain ⟨text, a, b, _⟩ := C44_vault_record_partial jsonW_reach (f := 0) (r := 0) (o := 0) (by decide) (by decide) (by decide) (by decide) (by decide)
    (jsonW_vals 0 (by decide)) true 2
  exact ⟨text, a, b⟩

example : ∃ text, vaultToJson Env.rev (fun _ => []) jsonW 0 true 4 true "Record".toList true = some text ∧
    parseJson text = some (.arr ([1, 0].map (recordJson jsonW (getKeys jsonW 0)))) :=
  C59_array_partial (o := 0) (w := jsonW) rfl (vault_writable jsonW_reach (by decide) (by decide) jsonW_vals) Env.rev _ true 4 true _

/-- A record with a quote in a text gives a text that is not JSON. -/
theorem C59_refuted : ∃ w : World Key Val VTy, HReach Ordinary (fun _ => 0) w ∧ isVault w 0 = true ∧
    value w 0 kName = some (.str "a\"b".toList) ∧ ∃ text, vaultToJson Env.id (fun _ => []) w 0 false 2 true "Record".toList true = some text ∧ parseJson text = none :=
  ⟨(fileRun (strKeys ++ [.createRow 0 [(kName, .str "a\"b".toList)]])).getD World.empty, fileRun_reach (l := strKeys ++ [.createRow 0 [(kName, .str "a\"b".toList)]]) rfl,
    by decide, by decide, "[{\"flag\":true,\"name\":\"a\"b\"}]".toList, by decide, rfl⟩

/-- A key name with a quote gives a text that is not JSON, although no value has one. -/
theorem C44_refuted_name : ∃ w : World Key Val VTy, HReach Ordinary (fun _ => 0) w ∧ refIsValid w 0 = some true ∧
    value w 0 (Key.of "a\"b".toList) = some (.bool true) ∧ ∃ text, refToJson w 0 false 2 = some text ∧ parseJson text = none :=
  ⟨(fileRun [.newVault, .addKey 0 (Key.of "a\"b".toList) (.bool true), .newRef, .createRecord 0 0 []]).getD World.empty,
    fileRun_reach (l := [.newVault, .addKey 0 (Key.of "a\"b".toList) (.bool true), .newRef, .createRecord 0 0 []]) rfl,
    by decide, by decide, "{\"a\"b\":true}".toList, by decide, rfl⟩

end MVault.W
