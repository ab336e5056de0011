import Verif.JsonExactLemmas
/-
C44 and C59, exactly: the texts `ToJson` writes mean the records (as the parser of JsonSpec reads them) if and only if all key names and all
texts stand for themselves between quotes. One quote, backslash or control character in a name or a text that is written and the JSON text is malformed
or says something else; nothing that is written around it can repair it.
-/
set_option linter.unusedSectionVars false
set_option linter.unusedSimpArgs false
set_option linter.unusedVariables false
namespace MVault.W
open MVault.JsonSpec
variable {V Ty : Type} [LinearOrder V] [Typed V Ty] [DecidableEq Ty] [Texts V Ty] [Quoting Ty] [Means V Ty] [Tight V Ty]

/-- The text of one record. -/
def recordText (fmt : Bool) (start post : List Char) (w : World Key V Ty) (keys : List Key) (r : Nat) : List Char :=
  '{' :: (membersText (if fmt = true then '\n' :: start else []) (if fmt = true then [' '] else [])
    (keys.map fun k => (k.name, match value w r k with | some v => jsonCell v | none => [])) ++ (post ++ ['}']))

theorem forces_record (n : Nat) (fmt : Bool) {start post : List Char} (hs : Blank start) (hpost : Blank post) {w : World Key V Ty} {r : Nat} (keys : List Key)
    (hv : ∀ k ∈ keys, ∃ v, value w r k = some v) :
    Forces (parseValue (n + 2)) (recordText fmt start post w keys r) (recordJson w keys r) (WritableRecord w keys r) := by
  have h := forces_object (n := n + 1) (blank_start fmt hs) (blank_space (fmt = true)) hpost (fun k : Key => k.name)
    (fun k => match value w r k with | some v => jsonCell v | none => []) (fun k => match value w r k with | some v => jsonOf v | none => .null)
    (fun k => ∃ v, value w r k = some v ∧ Writable v) keys (fun k hk => by
      obtain ⟨v, h1⟩ := hv k hk
      simp only [h1]
      intro rest hr rest' h2
      obtain ⟨a, b⟩ := Tight.forces_cell n v rest hr rest' h2
      exact ⟨⟨v, rfl, a⟩, b⟩)
  exact h

theorem jsonRecords_arrayText (fmt : Bool) (tab : List Char) (name : Nat → Nat → List Char) {w : World Key V Ty} (keys : List Key) (total : Nat) :
    ∀ (rs : List Nat) (c : Nat), c + rs.length = total → (∀ r ∈ rs, (∃ x, w.getRec r = some x) ∧ ∀ k ∈ keys, ∃ v, value w r k = some v) →
      jsonRecords fmt tab true name w keys total rs c = some (elementsText (if fmt = true then '\n' :: tab else [])
        (rs.map (recordText fmt (tab ++ tab) (if fmt = true then '\n' :: tab else []) w keys)))
  | [], c, _, _ => rfl
  | r :: rs, c, hc, h => by
    obtain ⟨⟨x, hx⟩, hv⟩ := h r (by simp)
    have ih := jsonRecords_arrayText fmt tab name keys total rs (c + 1) (by simp at hc; omega) (fun r hr => h r (by simp [hr]))
    have h1 := jsonFields_text fmt (tab ++ tab) hx keys.length keys 0 (by simp) hv
    simp only [jsonRecords, hx, h1, ih, Option.bind_eq_bind, Option.bind_some, if_true]
    congr 1
    cases rs with
    | nil =>
      rw [if_neg (show ¬ (c + 1 ≠ total) by simp at hc; omega)]
      simp [elementsText, recordText]
      rfl
    | cons q rs =>
      rw [if_pos (show c + 1 ≠ total by simp at hc; omega)]
      simp only [List.map_cons, elementsText_cons2]
      simp [recordText]
      rfl

theorem jsonRecords_objectText (fmt : Bool) (tab : List Char) (name : Nat → Nat → List Char) {w : World Key V Ty} (keys : List Key) (total : Nat) :
    ∀ (rs : List Nat) (c : Nat), c + rs.length = total → (∀ r ∈ rs, (∃ x, w.getRec r = some x) ∧ ∀ k ∈ keys, ∃ v, value w r k = some v) →
      jsonRecords fmt tab false name w keys total rs c = some (membersText (if fmt = true then '\n' :: tab else []) (if fmt = true then [' '] else [])
        ((rs.zipIdx c).map fun p => (name p.2 p.1, recordText fmt (tab ++ tab) (if fmt = true then '\n' :: tab else []) w keys p.1)))
  | [], c, _, _ => rfl
  | r :: rs, c, hc, h => by
    obtain ⟨⟨x, hx⟩, hv⟩ := h r (by simp)
    have ih := jsonRecords_objectText fmt tab name keys total rs (c + 1) (by simp at hc; omega) (fun r hr => h r (by simp [hr]))
    have h1 := jsonFields_text fmt (tab ++ tab) hx keys.length keys 0 (by simp) hv
    simp only [jsonRecords, hx, h1, ih, Option.bind_eq_bind, Option.bind_some, Bool.false_eq_true, if_false]
    congr 1
    cases rs with
    | nil =>
      rw [if_neg (show ¬ (c + 1 ≠ total) by simp at hc; omega)]
      simp [membersText, recordText]
      rfl
    | cons q rs =>
      rw [if_pos (show c + 1 ≠ total by simp at hc; omega)]
      simp only [List.zipIdx_cons, List.map_cons, membersText_cons2]
      simp [recordText]
      rfl

theorem blank_nl (fmt : Bool) : Blank (if fmt = true then ['\n'] else []) := by
  cases fmt
  · intro c hc; cases hc
  · intro c hc; simp at hc; subst hc; decide

/-- **C44, exactly.** The text of a reference to a live record means the record's object if and only if the key names and the record's values can be
written: no quotes, backslashes and control characters in names and texts. -/
theorem C44_exact {w : World Key V Ty} {f r o : Nat} (hf : target w f = some r) (ho : through w f = some o) (hr : alive w r)
    (hobj : isVault w o = true ∨ isSetObj w o = true) (hv : ∀ k ∈ getKeys w o, ∃ v, value w r k = some v) (fmt : Bool) (tabSize : Nat) :
    ∃ text, refToJson w f fmt tabSize = some text ∧ (parseJson text = some (recordJson w (getKeys w o) r) ↔ WritableRecord w (getKeys w o) r) := by
  have hr' := hr
  obtain ⟨x, hx, hval⟩ := hr
  obtain ⟨vo, hvo⟩ : ∃ vo, w.getObj o = some vo := by
    rcases hobj with h | h
    · obtain ⟨vo, h, _⟩ := isVault_iff.mp h; exact ⟨vo, h⟩
    · obtain ⟨vo, h, _⟩ := isSetObj_iff.mp h; exact ⟨vo, h⟩
  have htext : refToJson w f fmt tabSize = some (recordText fmt (List.replicate tabSize ' ') (if fmt = true then ['\n'] else []) w (getKeys w o) r) := by
    have hf2 := hf; have ho2 := ho
    unfold target at hf2; unfold through at ho2
    obtain ⟨ref, h1, h2⟩ := Option.bind_eq_some_iff.mp hf2
    rw [h1, Option.bind_some] at ho2
    rw [getKeys_eq hvo] at hv ⊢
    have hb := jsonFields_text fmt (List.replicate tabSize ' ') hx vo.keysOrder.length vo.keysOrder 0 (by simp) hv
    simp only [refToJson, h1, h2, ho2, hx, hvo, hval, hb, Option.bind_eq_bind, Option.bind_some, if_true]
    rfl
  refine ⟨_, htext, fun hj => ?_, fun hw => ?_⟩
  · refine parseJson_forces (forces_record (n := (recordText fmt (List.replicate tabSize ' ') (if fmt = true then ['\n'] else []) w (getKeys w o) r).length - 1) fmt (blank_replicate tabSize) (blank_nl fmt) _ hv) ?_ hj
    have : 0 < (recordText fmt (List.replicate tabSize ' ') (if fmt = true then ['\n'] else []) w (getKeys w o) r).length := by simp [recordText]
    omega
  · obtain ⟨text, h1, h2⟩ := C44_record_json_partial hf ho hr' hobj hw fmt tabSize
    rw [htext] at h1
    rw [Option.some.inj h1]; exact h2

/-- **C59, exactly, arrays.** The array text of a vault, or of a set with a parent, means the array of its records if and only if all key names and all values
of its records can be written. -/
theorem C59_array_exact {w : World Key V Ty} {o : Nat} {vo : Obj Key V Ty} (ho : w.getObj o = some vo)
    (hv : ∀ r ∈ members w o, alive w r ∧ ∀ k ∈ getKeys w o, ∃ v, value w r k = some v) (env : Env) (addr : Nat → List Char) (fmt : Bool) (tabSize : Nat)
    (useTemplate : Bool) (template : List Char) :
    ∃ text, vaultToJson env addr w o fmt tabSize useTemplate template true = some text ∧
      (parseJson text = some (.arr ((env.perm (members w o)).map (recordJson w (getKeys w o)))) ↔ ∀ r ∈ members w o, WritableRecord w (getKeys w o) r) := by
  have htext : vaultToJson env addr w o fmt tabSize useTemplate template true = some ('[' :: (elementsText (if fmt = true then '\n' :: List.replicate tabSize ' ' else [])
      ((env.perm (members w o)).map (recordText fmt (List.replicate tabSize ' ' ++ List.replicate tabSize ' ') (if fmt = true then '\n' :: List.replicate tabSize ' ' else []) w (getKeys w o))) ++
      ((if fmt = true then ['\n'] else []) ++ [']']))) := by
    rw [members_eq ho] at hv ⊢
    rw [getKeys_eq ho] at hv ⊢
    have h1 := jsonRecords_arrayText fmt (List.replicate tabSize ' ') (fun n r => if useTemplate = true then template ++ Str.decDigits n else addr r) vo.keysOrder
      vo.recs.length (env.perm vo.recs) 0 (by rw [(env.isPerm vo.recs).length_eq]; simp) (fun r hr => by
        obtain ⟨⟨x, hx, _⟩, h⟩ := hv r ((env.isPerm vo.recs).mem_iff.mp hr); exact ⟨⟨x, hx⟩, h⟩)
    simp only [vaultToJson, ho, h1, Option.bind_eq_bind, Option.bind_some, if_true]
  refine ⟨_, htext, fun hj => ?_, fun hw => ?_⟩
  · have hb : Blank (List.replicate tabSize ' ' ++ List.replicate tabSize ' ') := by
      intro a ha; rcases List.mem_append.mp ha with ha | ha <;> exact blank_replicate tabSize a ha
    have key := fun n => forces_array (blank_start fmt (blank_replicate tabSize)) (blank_nl fmt)
      (recordText fmt (List.replicate tabSize ' ' ++ List.replicate tabSize ' ') (if fmt = true then '\n' :: List.replicate tabSize ' ' else []) w (getKeys w o))
      (recordJson w (getKeys w o)) (WritableRecord w (getKeys w o)) (env.perm (members w o))
      (fun r hr => ⟨forces_record n fmt hb (blank_start fmt (blank_replicate tabSize)) (getKeys w o) (hv r ((env.isPerm _).mem_iff.mp hr)).2, rfl⟩)
    have := parseJson_forces (key ((elementsText (if fmt = true then '\n' :: List.replicate tabSize ' ' else [])
      ((env.perm (members w o)).map (recordText fmt (List.replicate tabSize ' ' ++ List.replicate tabSize ' ') (if fmt = true then '\n' :: List.replicate tabSize ' ' else []) w (getKeys w o))) ++
      ((if fmt = true then ['\n'] else []) ++ [']'])).length - 1)) (by simp only [List.length_cons, List.length_append, List.length_nil]; omega) hj
    exact fun r hr => this r ((env.isPerm _).mem_iff.mpr hr)
  · obtain ⟨text, h1, h2⟩ := C59_array_partial ho (fun r hr => ⟨(hv r hr).1, hw r hr⟩) env addr fmt tabSize useTemplate template
    rw [htext] at h1
    rw [Option.some.inj h1]; exact h2

theorem literal_digits {template : List Char} {n : Nat} : Literal (template ++ Str.decDigits n) ↔ Literal template := by
  refine ⟨fun h c hc => h c (List.mem_append.mpr (.inl hc)), fun h c hc => ?_⟩
  rcases List.mem_append.mp hc with hc | hc
  · exact h c hc
  · have hd := (Str.isDigit_iff c).mpr ((Str.decDigits_spec n).1 c hc)
    have h0 : '0'.toNat = 48 := by decide
    have h9 : '9'.toNat = 57 := by decide
    unfold Str.IsDigit at hd
    refine ⟨?_, ?_, by omega⟩
    · rintro rfl; revert hd; decide
    · rintro rfl; revert hd; decide

/-- **C59, exactly, objects.** The object text of a vault, or of a set with a parent, with named records means the object of its records if and only if all key
names and all values of its records can be written, and the template of the names as well unless there is no record. -/
theorem C59_object_exact {w : World Key V Ty} {o : Nat} {vo : Obj Key V Ty} (ho : w.getObj o = some vo)
    (hv : ∀ r ∈ members w o, alive w r ∧ ∀ k ∈ getKeys w o, ∃ v, value w r k = some v) (env : Env) (addr : Nat → List Char) (fmt : Bool) (tabSize : Nat)
    (template : List Char) :
    ∃ text, vaultToJson env addr w o fmt tabSize true template false = some text ∧
      (parseJson text = some (.obj ((env.perm (members w o)).zipIdx.map fun p => (template ++ Str.toStringInt p.2, recordJson w (getKeys w o) p.1))) ↔
        ∀ r ∈ members w o, Literal template ∧ WritableRecord w (getKeys w o) r) := by
  have hdec : ∀ n : Nat, Str.decDigits n = Str.toStringInt (n : Int) := by
    intro n; unfold Str.toStringInt; rw [if_neg (by omega)]; rfl
  have htext : vaultToJson env addr w o fmt tabSize true template false = some ('{' :: (membersText (if fmt = true then '\n' :: List.replicate tabSize ' ' else [])
      (if fmt = true then [' '] else []) ((env.perm (members w o)).zipIdx.map fun p => (template ++ Str.decDigits p.2,
        recordText fmt (List.replicate tabSize ' ' ++ List.replicate tabSize ' ') (if fmt = true then '\n' :: List.replicate tabSize ' ' else []) w (getKeys w o) p.1)) ++
      ((if fmt = true then ['\n'] else []) ++ ['}']))) := by
    rw [members_eq ho] at hv ⊢
    rw [getKeys_eq ho] at hv ⊢
    have h1 := jsonRecords_objectText fmt (List.replicate tabSize ' ') (fun n r => template ++ Str.decDigits n) vo.keysOrder
      vo.recs.length (env.perm vo.recs) 0 (by rw [(env.isPerm vo.recs).length_eq]; simp) (fun r hr => by
        obtain ⟨⟨x, hx, _⟩, h⟩ := hv r ((env.isPerm vo.recs).mem_iff.mp hr); exact ⟨⟨x, hx⟩, h⟩)
    simp only [vaultToJson, ho, h1, Option.bind_eq_bind, Option.bind_some, Bool.false_eq_true, if_false, if_true]
  have hmem : ∀ r, (∃ p ∈ (env.perm (members w o)).zipIdx, p.1 = r) ↔ r ∈ members w o := by
    intro r
    rw [← (env.isPerm (members w o)).mem_iff]
    constructor
    · rintro ⟨p, hp, rfl⟩; exact List.fst_mem_of_mem_zipIdx hp
    · intro hr
      obtain ⟨i, hi, rfl⟩ := List.mem_iff_getElem.mp hr
      exact ⟨((env.perm (members w o))[i], i), by simp [List.mem_zipIdx_iff_getElem?], rfl⟩
  refine ⟨_, htext, fun hj => ?_, fun hw => ?_⟩
  · have hb : Blank (List.replicate tabSize ' ' ++ List.replicate tabSize ' ') := by
      intro a ha; rcases List.mem_append.mp ha with ha | ha <;> exact blank_replicate tabSize a ha
    have key := fun n => forces_object (blank_start fmt (blank_replicate tabSize)) (blank_space (fmt = true)) (blank_nl fmt)
      (fun p : Nat × Nat => template ++ Str.decDigits p.2)
      (fun p => recordText fmt (List.replicate tabSize ' ' ++ List.replicate tabSize ' ') (if fmt = true then '\n' :: List.replicate tabSize ' ' else []) w (getKeys w o) p.1)
      (fun p => recordJson w (getKeys w o) p.1) (fun p => WritableRecord w (getKeys w o) p.1) (env.perm (members w o)).zipIdx
      (fun p hp => forces_record n fmt hb (blank_start fmt (blank_replicate tabSize)) (getKeys w o) (hv p.1 ((hmem p.1).mp ⟨p, hp, rfl⟩)).2)
    simp only [← hdec] at hj
    have := parseJson_forces (key ((membersText (if fmt = true then '\n' :: List.replicate tabSize ' ' else [])
      (if fmt = true then [' '] else []) ((env.perm (members w o)).zipIdx.map fun p => (template ++ Str.decDigits p.2,
        recordText fmt (List.replicate tabSize ' ' ++ List.replicate tabSize ' ') (if fmt = true then '\n' :: List.replicate tabSize ' ' else []) w (getKeys w o) p.1)) ++
      ((if fmt = true then ['\n'] else []) ++ ['}'])).length - 1)) (by simp only [List.length_cons, List.length_append, List.length_nil]; omega) hj
    intro r hr
    obtain ⟨p, hp, rfl⟩ := (hmem r).mpr hr
    obtain ⟨a, b⟩ := this p hp
    exact ⟨literal_digits.mp a, b⟩
  · by_cases hne : members w o = []
    · have hp : env.perm (members w o) = [] := by rw [hne]; exact List.perm_nil.mp (env.isPerm [])
      simp only [hp, List.zipIdx_nil, List.map_nil, membersText, List.nil_append]
      have h2 := renders_object (n := ('{' :: ((if fmt = true then ['\n'] else []) ++ ['}'] : List Char)).length) (pre := []) (sp := []) (by intro c hc; cases hc) (by intro c hc; cases hc) (blank_nl fmt) [] (by simp)
      simp only [List.map_nil, membersText, List.nil_append] at h2
      exact parseJson_of h2 rfl
    · obtain ⟨r0, hr0⟩ := List.exists_mem_of_ne_nil _ hne
      obtain ⟨text, h1, h2⟩ := C59_object_partial ho (fun r hr => ⟨(hv r hr).1, (hw r hr).2⟩) env (fun _ => []) (fun _ c hc => by cases hc) fmt tabSize true template (hw r0 hr0).1
      have e : vaultToJson env addr w o fmt tabSize true template false = vaultToJson env (fun _ => []) w o fmt tabSize true template false := by
        simp only [vaultToJson, if_true]
      rw [← e, htext] at h1
      simp only [if_true] at h2
      rw [Option.some.inj h1]; exact h2

/-- For vaults after ordinary histories and all types of values: the array text is right if and only if there is no record, or the key names are literal and so is
every text in every record. -/
theorem C59_vault_exact {home : Nat → Nat} {w : World Key WVal WTy} (hw : HReach Ordinary home w) {o : Nat} (hvt : isVault w o = true) (env : Env)
    (addr : Nat → List Char) (fmt : Bool) (tabSize : Nat) (useTemplate : Bool) (template : List Char) :
    ∃ text, vaultToJson env addr w o fmt tabSize useTemplate template true = some text ∧
      (parseJson text = some (.arr ((env.perm (members w o)).map (recordJson w (getKeys w o)))) ↔
        ∀ r ∈ members w o, (∀ k ∈ getKeys w o, Literal k.name) ∧ ∀ k ∈ getKeys w o, ∀ s, value w r k = some (.str s) → Literal s) := by
  obtain ⟨own, hi⟩ := reach_inv hw
  obtain ⟨vo, hvo, hs⟩ := isVault_iff.mp hvt
  have ok := hi.v.vok o vo hvo hs
  have hv : ∀ r ∈ members w o, alive w r ∧ ∀ k ∈ getKeys w o, ∃ v, value w r k = some v := by
    intro r hr
    rw [members_eq hvo] at hr
    obtain ⟨_, x, hx, hval⟩ := hi.v.mem o vo hvo hs r hr
    refine ⟨⟨x, hx, hval⟩, fun k hk => ?_⟩
    rw [getKeys_eq hvo, ok.keysM] at hk
    obtain ⟨c, hc⟩ := hk
    obtain ⟨v, h, _⟩ := (ok.cols k c hc).typed r hr
    exact ⟨v, h⟩
  obtain ⟨text, h1, h2⟩ := C59_array_exact hvo hv env addr fmt tabSize useTemplate template
  refine ⟨text, h1, h2.trans ⟨fun h r hr => ⟨fun k hk => (h r hr k hk).1, fun k hk s hsv => ?_⟩, fun h r hr k hk => ?_⟩⟩
  · obtain ⟨_, v, e, hwv⟩ := h r hr k hk
    rw [e] at hsv; cases hsv; exact hwv
  · obtain ⟨v, e⟩ := (hv r hr).2 k hk
    refine ⟨(h r hr).1 k hk, v, e, ?_⟩
    cases v with
    | str s => exact (h r hr).2 k hk s e
    | int _ _ _ => trivial
    | bool _ => trivial
    | byte _ _ _ => trivial
    | real _ _ _ => trivial
    | user _ _ => trivial

/-- Both sides of the equivalence occur: the vault with two records whose texts are literal, and a vault with a text with a backslash that is valid JSON (`\\t`) but means
another text. -/
example : ∃ text, vaultToJson Env.id (fun _ => []) jsonW 0 false 2 true [] true = some text ∧
    parseJson text = some (.arr ((Env.id.perm (members jsonW 0)).map (recordJson jsonW (getKeys jsonW 0)))) := by
  have hw := vault_writable jsonW_reach (o := 0) (by decide) (by decide) jsonW_vals
  obtain ⟨text, h1, h2⟩ := C59_array_exact (w := jsonW) (o := 0) rfl
    (fun r hr => ⟨(hw r hr).1, fun k hk => by obtain ⟨_, v, h, _⟩ := (hw r hr).2 k hk; exact ⟨v, h⟩⟩) Env.id (fun _ => []) false 2 true []
  exact ⟨text, h1, h2.mpr fun r hr => (hw r hr).2⟩

def tabOps : List (Op Key Val VTy) := strKeys ++ [.createRow 0 [(kName, .str "a\\tb".toList)]]
def tabW : World Key Val VTy := (fileRun tabOps).getD World.empty

/-- The text `a\tb` (with a backslash) is written as it is: the JSON text is well-formed, but it says `a`, tabulator, `b`. -/
example : value tabW 0 kName = some (.str "a\\tb".toList) ∧
    vaultToJson Env.id (fun _ => []) tabW 0 false 2 true [] true = some "[{\"flag\":true,\"name\":\"a\\tb\"}]".toList ∧
    parseJson "[{\"flag\":true,\"name\":\"a\\tb\"}]".toList = some (.arr [.obj [("flag".toList, .bool true), ("name".toList, .str "a\tb".toList)]]) ∧
    ¬ WritableRecord tabW (getKeys tabW 0) 0 := by
  refine ⟨by decide, by decide, rfl, fun h => ?_⟩
  obtain ⟨_, v, h1, h2⟩ := h kName (by decide)
  have : value tabW 0 kName = some (.str "a\\tb".toList) := by decide
  rw [this] at h1; cases h1
  exact absurd h2 (show ¬ Literal "a\\tb".toList by decide)

end MVault.W
