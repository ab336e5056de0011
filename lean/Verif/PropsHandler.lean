import Verif.HandlerModel
import Verif.PropsFile2
import Verif.PropsAnyCsv
/-
C105: record handlers of `ReadFile` that remember things and use the vault.
-/
set_option linter.unusedSectionVars false
set_option linter.unusedVariables false
set_option linter.unusedSimpArgs false
namespace MVault.W
open MVault.Csv (parseFile AnyText GoodSep)
variable {V Ty S : Type} [LinearOrder V] [Typed V Ty] [DecidableEq Ty] [Texts V Ty]

/-! ### Specification -/

/-- What a handler does to the vaults (specification): any calls `G` allows, in any number, except calls that change the keys of vault `d`, which is being read into. -/
inductive Works (G : World Key V Ty → Op Key V Ty → Prop) (d : Nat) (w : World Key V Ty) : World Key V Ty → Prop
  | nothing : Works G d w w
  | call {w1 w2 : World Key V Ty} (env : Env) (op : Op Key V Ty) : Works G d w w1 → G w1 op → d ∉ keyOps w1 op → W.step env w1 op = some w2 → Works G d w w2

/-- A handler that calls only such functions, and no `ReadFile` of the vault (specification). -/
def Uses (G : World Key V Ty → Op Key V Ty → Prop) (d : Nat) (h : Handler S V Ty) : Prop :=
  ∀ ks row s s' fields, h ks row s = some (s', fields) → Works G d s.world s'.world ∧ s'.errs = s.errs

/-- The handler with a list of its calls (specification). -/
def logged (h : Handler S V Ty) : Handler (S × List (List Key × List (List Char))) V Ty := fun ks row s =>
  (h ks row ⟨s.own.1, s.world, s.errs⟩).map fun p => (⟨(p.1.own, s.own.2 ++ [(ks, row)]), p.1.world, p.1.errs⟩, p.2)

/-- The fields a row assigns after the handler (specification): field `i` belongs to key `i`, surplus fields and keys are ignored. -/
def keyed (ks : List Key) (fields : List (List Char)) : List (Option Key × List Char) :=
  (List.range (min ks.length fields.length)).map fun i => (ks[i]?, fields[i]?.getD [])

/-- How reading with a handler goes (specification): for each row in turn the handler is called once; then the row it leaves has its outcome in the vault as it is after the
handler's work (`Did`, C56), which adds the new record or the report and changes nothing else (`Added`, C55). `n` rows came before. -/
inductive Story (ord : Prop) (h : Handler S V Ty) (ks : List Key) (d : Nat) : List (List (List Char)) → Nat → HState S V Ty → HState S V Ty → Prop
  | over (n : Nat) (s : HState S V Ty) : Story ord h ks d [] n s s
  | row {row fields : List (List Char)} {rows : List (List (List Char))} {n : Nat} {s s1 s' : HState S V Ty} {w2 : World Key V Ty} (o : Outcome) :
      h ks row s = some (s1, fields) → Did ord d s1.world w2 (n + 2) (n + 1) (keyed ks fields) o → Added d o.record?.toList s1.world w2 →
      Story ord h ks d rows (n + 1) ⟨s1.own, w2, s1.errs ++ o.report?.toList⟩ s' → Story ord h ks d (row :: rows) n s s'

/-- The rows as a handler that only remembers things (`f`) leaves them, one after the other (specification). -/
def rewritten (f : S → List Key → List (List Char) → S × List (List Char)) (ks : List Key) : S → List (List (List Char)) → List (List (List Char))
  | _, [] => []
  | s, row :: rows => (f s ks row).2 :: rewritten f ks (f s ks row).1 rows

/-- Such a handler. -/
def blind (f : S → List Key → List (List Char) → S × List (List Char)) : Handler S V Ty := fun ks row s => some (⟨(f s.own ks row).1, s.world, s.errs⟩, (f s.own ks row).2)

/-! ### One row -/

theorem works_same {G : World Key V Ty → Op Key V Ty → Prop} {R : World Key V Ty → Prop} {d : Nat} (hR : ∀ w, R w → Reach (fun _ _ => True) w)
    (hG : ∀ w w' env op, R w → G w op → W.step env w op = some w' → R w') {w w' : World Key V Ty} (hw : R w) {vo : Obj Key V Ty} (hvo : w.getObj d = some vo) (hs : vo.isSet = false)
    (h : Works G d w w') : R w' ∧ ∃ y, w'.getObj d = some y ∧ y.isSet = false ∧ y.tmpl = vo.tmpl := by
  induction h with
  | nothing => exact ⟨hw, vo, hvo, hs, rfl⟩
  | call env op _ hg hk hst ih =>
    obtain ⟨hr, y, hy, hys, ht⟩ := ih
    obtain ⟨z, hz, hzs, ks⟩ := (step_any (reach_ai (hR _ hr)) hst).same d y hy hys hk
    exact ⟨hG _ _ _ _ hr hg hst, z, hz, hzs, by rw [ks.tmpl, ht]⟩

theorem rowPairs_keyed' (ks : List Key) (fields : List (List Char)) : rowPairs (some ks) [] ([] : List Key) fields = keyed ks fields := by
  rw [rowPairs, zip_range]; rfl

theorem rowPairs_any (ks uk a b : List Key) (fields : List (List Char)) : rowPairs (some ks) uk a fields = rowPairs (some ks) [] b fields := rfl

/-- One turn of the loop is the handler's call followed by reading the row it leaves. -/
theorem heldLoop_turn (h : Handler S V Ty) (ks : List Key) {d : Nat} {row : List (List Char)} {rows : List (List (List Char))} {n : Nat} {s s1 : HState S V Ty} {fields : List (List Char)}
    {vo y : Obj Key V Ty} (hvo : s.world.getObj d = some vo) (hh : h ks row s = some (s1, fields)) (hy : s1.world.getObj d = some y) (ht : y.tmpl = vo.tmpl) :
    heldLoop h ks d (row :: rows) n s =
      (readLoop (fun _ r => r) (some ks) [] d [fields] n s1.world s1.errs).bind fun p => heldLoop h ks d rows (n + 1) ⟨s1.own, p.1, p.2⟩ := by
  simp only [heldLoop, readLoop, hvo, hh, hy, Option.bind_eq_bind, Option.bind_some, handledRow, rowPairs, ht]
  cases setRow ((ks.zip fields).map fun p => (some p.1, p.2)) vo.tmpl false with
  | ub => rfl
  | skip => rfl
  | bad k => rfl
  | ok data =>
    dsimp only
    cases insertRecord s1.world d data with
    | none => rfl
    | some p => obtain ⟨w2, out⟩ := p; cases out <;> rfl

theorem heldLoop_story {G : World Key V Ty → Op Key V Ty → Prop} {R : World Key V Ty → Prop} {d : Nat} (hR : ∀ w, R w → Reach (fun _ _ => True) w)
    (hG : ∀ w w' env op, R w → G w op → W.step env w op = some w' → R w')
    (hstep : ∀ w w1 ps res, R w → isVault w d = true → createRow w d ps = some (w1, res) → R w1 ∧ isVault w1 d = true) {ord : Prop} (hord : ord → ∀ w, R w → ∃ home, HReach Ordinary home w)
    {h : Handler S V Ty} (hu : Uses G d h) (ks : List Key) : ∀ (rows : List (List (List Char))) (n : Nat) (s s' : HState S V Ty), R s.world → isVault s.world d = true →
      heldLoop h ks d rows n s = some s' → R s'.world ∧ isVault s'.world d = true ∧ Story ord h ks d rows n s s'
  | [], n, s, s', hr, hd, he => by
    simp only [heldLoop, Option.some.injEq] at he
    subst he
    exact ⟨hr, hd, .over n s⟩
  | row :: rows, n, s, s', hr, hd, he => by
    obtain ⟨vo, hvo, hs⟩ := isVault_iff.mp hd
    cases hh : h ks row s with
    | none => simp [heldLoop, hvo, hh] at he
    | some p =>
      obtain ⟨s1, fields⟩ := p
      obtain ⟨hw, hes⟩ := hu _ _ _ _ _ hh
      obtain ⟨hr1, y, hy, hys, ht⟩ := works_same hR hG hr hvo hs hw
      rw [heldLoop_turn h ks hvo hh hy ht, Option.bind_eq_some_iff] at he
      obtain ⟨⟨w2, errs2⟩, hl, he⟩ := he
      have hd1 : isVault s1.world d = true := isVault_iff.mpr ⟨y, hy, hys⟩
      obtain ⟨outs, a1, a2, a3, a4⟩ := readLoop_spec hR hstep hord (fun _ r => r) (some ks) [] [fields] n s1.world w2 s1.errs errs2 hr1 hd1 hl
      obtain ⟨o, rfl⟩ : ∃ o, outs = [o] := by
        have := a4.length_eq
        simp only [List.length_zipIdx, List.length_map, List.length_cons, List.length_nil] at this
        exact List.length_eq_one_iff.mp this.symm
      have hdid := (List.forall₂_cons.mp a4).1
      have e1 : [o].filterMap Outcome.record? = o.record?.toList := by cases ho : o.record? <;> simp [ho]
      have e2 : [o].filterMap Outcome.report? = o.report?.toList := by cases ho : o.report? <;> simp [ho]
      rw [e1] at a2
      rw [e2] at a3
      subst a3
      obtain ⟨b1, b2, b3⟩ := heldLoop_story hR hG hstep hord hu ks rows (n + 1) _ s' a1 a2.vault he
      refine ⟨b1, b2, .row o hh ?_ a2 b3⟩
      have := hdid
      simp only [handledRow] at this
      rw [rowPairs_any ks [] _ [] fields, rowPairs_keyed'] at this
      exact this

theorem readHeld_loop {h : Handler S V Ty} {block big : Nat} {s s' : HState S V Ty} {d : Nat} {text : List Char} {sep : Char} {b : Bool}
    (he : readHeld h block big s d (some text) sep = some (b, s')) :
    ∃ rows, parseFile block big sep text = some rows ∧ b = true ∧ heldLoop h ((rows.head?.getD []).map Key.of) d rows.tail 0 ⟨s.own, s.world, []⟩ = some s' := by
  simp only [readHeld, Option.bind_eq_bind, Option.bind_eq_some_iff, Option.some.injEq, Prod.mk.injEq] at he
  obtain ⟨rows, h1, s1, h2, rfl, rfl⟩ := he
  exact ⟨rows, h1, rfl, h2⟩

/-! ### The theorems -/

theorem heldLoop_logged (h : Handler S V Ty) (ks : List Key) (d : Nat) : ∀ (rows : List (List (List Char))) (n : Nat) (s : HState S V Ty) (log : List (List Key × List (List Char))),
    heldLoop (logged h) ks d rows n ⟨(s.own, log), s.world, s.errs⟩ =
      (heldLoop h ks d rows n s).map fun s' => ⟨(s'.own, log ++ rows.map fun row => (ks, row)), s'.world, s'.errs⟩
  | [], n, s, log => by simp [heldLoop]
  | row :: rows, n, s, log => by
    simp only [heldLoop, logged, Option.bind_eq_bind]
    cases s.world.getObj d with
    | none => rfl
    | some vo =>
      simp only [Option.bind_some]
      cases h ks row s with
      | none => rfl
      | some p =>
        obtain ⟨s1, fields⟩ := p
        simp only [Option.map_some, Option.bind_some]
        cases setRow ((ks.zip fields).map fun p => (some p.1, p.2)) vo.tmpl false with
        | ub => rfl
        | skip =>
          dsimp only
          exact (heldLoop_logged h ks d rows (n + 1) s1 (log ++ [(ks, row)])).trans (by simp)
        | bad k =>
          dsimp only
          exact (heldLoop_logged h ks d rows (n + 1) ⟨s1.own, s1.world, s1.errs ++ [(n + 1 + 1, k)]⟩ (log ++ [(ks, row)])).trans (by simp)
        | ok data =>
          dsimp only
          cases insertRecord s1.world d data with
          | none => rfl
          | some q =>
            obtain ⟨w2, out⟩ := q
            cases out with
            | error k =>
              simp only [Option.bind_some]
              exact (heldLoop_logged h ks d rows (n + 1) ⟨s1.own, w2, s1.errs ++ [(n + 1, k)]⟩ (log ++ [(ks, row)])).trans (by simp)
            | ok r =>
              simp only [Option.bind_some]
              exact (heldLoop_logged h ks d rows (n + 1) ⟨s1.own, w2, s1.errs⟩ (log ++ [(ks, row)])).trans (by simp)

/-- **C105.** Whatever the handler does, it is called exactly once for every row of the file but the first, in the order of the file, with the fields of the row and with the first
row of the file as keys: writing down the calls changes nothing, and gives this list. -/
theorem C105_calls (h : Handler S V Ty) (block big : Nat) (s : HState S V Ty) (d : Nat) (text : List Char) (sep : Char) {rows : List (List (List Char))}
    (hr : parseFile block big sep text = some rows) :
    readHeld (logged h) block big ⟨(s.own, []), s.world, s.errs⟩ d (some text) sep = (readHeld h block big s d (some text) sep).map fun p =>
      (p.1, ⟨(p.2.own, rows.tail.map fun row => ((rows.head?.getD []).map Key.of, row)), p.2.world, p.2.errs⟩) := by
  simp only [readHeld, hr, Option.bind_eq_bind, Option.bind_some]
  have := heldLoop_logged h ((rows.head?.getD []).map Key.of) d rows.tail 0 ⟨s.own, s.world, []⟩ []
  simp only [List.nil_append] at this
  rw [this]
  cases heldLoop h ((rows.head?.getD []).map Key.of) d rows.tail 0 ⟨s.own, s.world, []⟩ <;> rfl

/-- **C105.** A handler may use the vault, as long as it does not change its keys: after any history the state is again one that the handler's calls and `CreateRecord` calls
could have led to, and row by row the record that the handler leaves is loaded or reported as C55 and C56 say. -/
theorem C105_row_by_row {G : World Key V Ty → Op Key V Ty → Prop} (hG : ∀ w o ps, G w (.createRow o ps)) {d : Nat} {h : Handler S V Ty} (hu : Uses G d h) {s s' : HState S V Ty}
    (hw : Reach G s.world) (hd : isVault s.world d = true) {block big : Nat} {text : List Char} {sep : Char} {b : Bool} (he : readHeld h block big s d (some text) sep = some (b, s')) :
    b = true ∧ Reach G s'.world ∧ isVault s'.world d = true ∧ ∃ rows, parseFile block big sep text = some rows ∧
      Story False h ((rows.head?.getD []).map Key.of) d rows.tail 0 ⟨s.own, s.world, []⟩ s' := by
  obtain ⟨rows, h1, rfl, h2⟩ := readHeld_loop he
  obtain ⟨a, b, c⟩ := heldLoop_story (G := G) (R := Reach G) (fun _ h => h.mono fun _ _ _ => trivial) (fun w w' env op a b c => .step w w' env op a b c)
    (fun _ _ _ _ a b c => createRow_step hG a b c) (ord := False) (by simp) hu _ _ 0 ⟨s.own, s.world, []⟩ s' hw hd h2
  exact ⟨rfl, a, b, rows, h1, c⟩

/-- **C105.** The same for ordinary histories and handlers: all theorems about ordinary histories hold after such a `ReadFile`, and a reported clash is one with a live record. -/
theorem C105_ordinary {home : Nat → Nat} {d : Nat} {h : Handler S V Ty} (hu : Uses (Ordinary home) d h) {s s' : HState S V Ty}
    (hw : HReach Ordinary home s.world) (hd : isVault s.world d = true) {block big : Nat} {text : List Char} {sep : Char} {b : Bool}
    (he : readHeld h block big s d (some text) sep = some (b, s')) :
    HReach Ordinary home s'.world ∧ ∃ rows, parseFile block big sep text = some rows ∧ Story True h ((rows.head?.getD []).map Key.of) d rows.tail 0 ⟨s.own, s.world, []⟩ s' := by
  obtain ⟨rows, h1, rfl, h2⟩ := readHeld_loop he
  obtain ⟨a, b, c⟩ := heldLoop_story (G := Ordinary home) (R := HReach Ordinary home) (fun _ h => h.any) (fun w w' env op a b c => .step w w' env op a b c)
    (fun _ _ _ _ a b c => createRow_hstep a b c) (ord := True) (fun _ w hw => ⟨home, hw⟩) hu _ _ 0 ⟨s.own, s.world, []⟩ s' hw hd h2
  exact ⟨a, rows, h1, c⟩

/-- **C105.** Reading answers false exactly when the file cannot be opened; then the handler was not called (its memory is what it was), no vault is changed, and the list of errors is empty. -/
theorem C105_no_file {h : Handler S V Ty} {block big : Nat} {s s' : HState S V Ty} {d : Nat} {file : Option (List Char)} {sep : Char} {b : Bool}
    (he : readHeld h block big s d file sep = some (b, s')) : (b = false ↔ file = none) ∧ (b = false → s'.own = s.own ∧ s'.world = s.world ∧ s'.errs = []) := by
  cases file with
  | none =>
    simp only [readHeld, Option.some.injEq, Prod.mk.injEq] at he
    obtain ⟨rfl, rfl⟩ := he
    exact ⟨by simp, fun _ => ⟨rfl, rfl, rfl⟩⟩
  | some text =>
    obtain ⟨_, _, rfl, _⟩ := readHeld_loop he
    exact ⟨by simp, fun h => by cases h⟩

theorem heldLoop_blind (f : S → List Key → List (List Char) → S × List (List Char)) (ks : List Key) (d : Nat) : ∀ (rows : List (List (List Char))) (n : Nat) (s : HState S V Ty),
    (heldLoop (blind f) ks d rows n s).map (fun s' => (s'.world, s'.errs)) = readLoop (fun _ r => r) (some ks) [] d (rewritten f ks s.own rows) n s.world s.errs
  | [], n, s => by simp [heldLoop, rewritten, readLoop]
  | row :: rows, n, s => by
    simp only [heldLoop, blind, rewritten, readLoop, handledRow, rowPairs, Option.bind_eq_bind, Option.bind_some]
    cases s.world.getObj d with
    | none => rfl
    | some vo =>
      simp only [Option.bind_some, Option.isSome_some, if_true]
      cases setRow ((ks.zip (f s.own ks row).2).map fun p => (some p.1, p.2)) vo.tmpl false with
      | ub => rfl
      | skip => exact heldLoop_blind f ks d rows (n + 1) _
      | bad k => exact heldLoop_blind f ks d rows (n + 1) _
      | ok data =>
        dsimp only
        cases insertRecord s.world d data with
        | none => rfl
        | some q =>
          obtain ⟨w2, out⟩ := q
          cases out with
          | error k => exact heldLoop_blind f ks d rows (n + 1) _
          | ok r => exact heldLoop_blind f ks d rows (n + 1) _

/-- **C105.** Reading with a handler that only changes the rows (and remembers what it likes) is reading the changed file: any text that holds the key line and the rows as the handler
leaves them, read without a handler, gives the same records and the same errors, or is undefined as well. -/
theorem C105_is_the_changed_file (f : S → List Key → List (List Char) → S × List (List Char)) (block big : Nat) (hb : 1 < block) (hbig : block ≤ big) {sep : Char} (hs : GoodSep sep)
    {top : List (List Char)} {rows : List (List (List Char))} {text text' : List Char} (h : AnyText sep (top :: rows) text)
    {x : S} (h' : AnyText sep (top :: rewritten f (top.map Key.of) x rows) text') (w : World Key V Ty) (errs : List (Nat × Key)) (d : Nat) :
    (readHeld (blind f) block big ⟨x, w, errs⟩ d (some text) sep).map (fun p => (p.1, p.2.world, p.2.errs)) = readFile block big w d (some text') sep true [] := by
  have e1 := (Csv.C102_reads_any block big hb hbig hs text _).mpr h
  have e2 := (Csv.C102_reads_any block big hb hbig hs text' _).mpr h'
  simp only [readHeld, readFile, readFileWith, e1, e2, Option.bind_eq_bind, Option.bind_some, List.head?_cons, Option.getD_some, List.tail_cons, if_true]
  have := heldLoop_blind f (top.map Key.of) d rows 0 (⟨x, w, []⟩ : HState S V Ty)
  rw [← this]
  cases heldLoop (blind f) (top.map Key.of) d rows 0 (⟨x, w, []⟩ : HState S V Ty) <;> rfl

/-! ### Concrete handlers -/

/-- A handler that makes a record of its own for every row it sees (name "seen"), drops the second field of a row and counts. -/
def noter : Handler Nat Val VTy := fun _ row s =>
  (W.step .id s.world (.createRow 0 [(kName, .str "seen".toList), (kFlag, .bool false)])).map fun w => (⟨s.own + 1, w, s.errs⟩, row.take 1)

/-- It uses the vault as `Uses` says, in ordinary histories. -/
theorem noter_uses (home : Nat → Nat) : Uses (Ordinary home) 0 noter := by
  intro ks row s s' fields h
  simp only [noter, Option.map_eq_some_iff, Prod.mk.injEq] at h
  obtain ⟨w, hw, rfl, rfl⟩ := h
  exact ⟨.call .id (.createRow 0 [(kName, .str "seen".toList), (kFlag, .bool false)]) .nothing trivial (by simp [keyOps]) hw, rfl⟩

example : readHeld noter 512 1000 ⟨0, (fileRun boolKeys).getD World.empty, [(9, kName)]⟩ 0 none ',' = some (false, ⟨0, (fileRun boolKeys).getD World.empty, []⟩) := rfl

/-- Non-vacuity: two rows, two calls; the handler's record takes the value `false`, so the first row is loaded with "true" and the second one is reported as a clash. -/
example : ∃ w', readHeld noter 512 1000 ⟨0, (fileRun boolKeys).getD World.empty, [(9, kName)]⟩ 0 (some "flag,name\r\ntrue,a\r\nfalse,b\r\n".toList) ',' =
    some (true, ⟨2, w', [(2, kFlag)]⟩) ∧ members w' 0 = [0, 1] ∧ value w' 0 kName = some (.str "seen".toList) ∧ value w' 1 kFlag = some (.bool true) ∧
      value w' 1 kName = some (.str "x".toList) ∧ HReach Ordinary (fun _ => 0) w' := by
  have h : ∃ w', readHeld noter 512 1000 ⟨0, (fileRun boolKeys).getD World.empty, [(9, kName)]⟩ 0 (some "flag,name\r\ntrue,a\r\nfalse,b\r\n".toList) ',' =
    some (true, ⟨2, w', [(2, kFlag)]⟩) ∧ members w' 0 = [0, 1] ∧ value w' 0 kName = some (.str "seen".toList) ∧ value w' 1 kFlag = some (.bool true) ∧
      value w' 1 kName = some (.str "x".toList) := ⟨_, rfl, by decide, by decide, by decide, by decide⟩
  obtain ⟨w', h, h2, h3, h4, h5⟩ := h
  exact ⟨w', h, h2, h3, h4, h5, (C105_ordinary (noter_uses _) (fileRun_reach (l := boolKeys) rfl) (by decide) h).1⟩

/-- A handler that copies the first field it has seen into every later row. -/
def sticky : Option (List Char) → List Key → List (List Char) → Option (List Char) × List (List Char) := fun m _ row =>
  match m with
  | none => (row.head?, row)
  | some x => (some x, x :: row.tail)

/-- Non-vacuity of `C105_is_the_changed_file`. -/
example : AnyText ',' ([['n']] :: [[['a']], [['b']]]) ['n', '\n', 'a', '\n', 'b'] ∧
    AnyText ',' ([['n']] :: rewritten sticky ([['n']].map Key.of) none [[['a']], [['b']]]) ['n', '\n', 'a', '\n', 'a'] := by
  refine ⟨?_, ?_⟩ <;> rw [← Csv.C102_reads_any 512 1000 (by decide) (by decide) (by decide)] <;> rfl

/-- A handler that adds the key "id" when it is called for the first time. -/
def adder : Handler Bool Val VTy := fun _ row s =>
  if s.own = true then some (s, row) else (W.step .id s.world (.addKey 0 kId (.int .i32 0 (by decide)))).map fun w => (⟨true, w, s.errs⟩, row)

/-- **C105**, refuted for handlers that change the keys. A handler that adds a key of the file when it first sees it comes too late for that row, which is reported although the vault has
the key, while the same text in the next row is loaded. -/
theorem C105_key_too_late_refuted : ∃ w w' : World Key Val VTy, HReach Ordinary (fun _ => 0) w ∧ isVault w 0 = true ∧ members w 0 = [] ∧
    readHeld adder 512 1000 ⟨false, w, []⟩ 0 (some "flag,id\r\ntrue,5\r\nfalse,5\r\n".toList) ',' = some (true, ⟨true, w', [(2, kId)]⟩) ∧
    getKeys w' 0 = [kFlag, kName, kId] ∧ members w' 0 = [0] ∧ value w' 0 kFlag = some (.bool false) ∧ value w' 0 kId = some (.int .i32 5 (by decide)) :=
  ⟨(fileRun boolKeys).getD World.empty, _, fileRun_reach (l := boolKeys) rfl, by decide, by decide, rfl, by decide, by decide, by decide, by decide⟩

/-- **C105**, refuted for handlers that change the keys. If the file does not mention the new key, the first row becomes a record without a value for it. -/
theorem C105_missing_value_refuted : ∃ w w' : World Key Val VTy, HReach Ordinary (fun _ => 0) w ∧ isVault w 0 = true ∧ members w 0 = [] ∧
    readHeld adder 512 1000 ⟨false, w, []⟩ 0 (some "flag\r\ntrue\r\nfalse\r\n".toList) ',' = some (true, ⟨true, w', []⟩) ∧
    getKeys w' 0 = [kFlag, kName, kId] ∧ members w' 0 = [0, 1] ∧ value w' 0 kId = none ∧ value w' 1 kId = some (.int .i32 0 (by decide)) :=
  ⟨(fileRun boolKeys).getD World.empty, _, fileRun_reach (l := boolKeys) rfl, by decide, by decide, rfl, by decide, by decide, by decide, by decide⟩

/-- A handler that reads another file into the same vault when it is called for the second time. -/
def nester : Handler Nat Val VTy := fun _ row s =>
  if s.own = 1 then (readFile 512 1000 s.world 0 (some "name\r\n".toList) ',' true []).map fun p => (⟨2, p.2.1, p.2.2⟩, row) else some (⟨s.own + 1, s.world, s.errs⟩, row)

/-- **C105**, refuted for handlers that call `ReadFile`: the reports about the rows before are lost. Here the first row was refused, nothing was loaded from it, and no report is left. -/
theorem C105_nested_refuted : ∃ w w' : World Key Val VTy, HReach Ordinary (fun _ => 0) w ∧ isVault w 0 = true ∧ members w 0 = [] ∧
    readHeld nester 512 1000 ⟨0, w, []⟩ 0 (some "flag\r\nmaybe\r\ntrue\r\n".toList) ',' = some (true, ⟨2, w', []⟩) ∧ members w' 0 = [0] ∧ value w' 0 kFlag = some (.bool true) ∧
    ∃ w'', readFile 512 1000 w 0 (some "flag\r\nmaybe\r\ntrue\r\n".toList) ',' true [] = some (true, w'', [(2, kFlag)]) :=
  ⟨(fileRun boolKeys).getD World.empty, _, fileRun_reach (l := boolKeys) rfl, by decide, by decide, rfl, by decide, by decide, _, rfl⟩

/-- A handler that only writes down what it is called with. -/
def watcher : Handler (List (List Key × List (List Char))) Val VTy := fun ks row s => some (⟨s.own ++ [(ks, row)], s.world, s.errs⟩, row)

/-- **C105**, refuted documentation ("If the file does not contain keys, then this vector will be empty", Vault.h line 761). In a file without a key line the handler gets the first row of data as
keys, and that row is not loaded. -/
theorem C105_no_key_line_refuted : ∃ w w' : World Key Val VTy, HReach Ordinary (fun _ => 0) w ∧ isVault w 0 = true ∧ getKeys w 0 = [kFlag, kName] ∧ members w 0 = [] ∧
    readHeld watcher 512 1000 ⟨[], w, []⟩ 0 (some "true,a\r\nfalse,b\r\n".toList) ',' =
      some (true, ⟨[([Key.of "true".toList, Key.of "a".toList], ["false".toList, "b".toList])], w', [(2, Key.of "true".toList)]⟩) ∧ members w' 0 = [] :=
  ⟨(fileRun boolKeys).getD World.empty, _, fileRun_reach (l := boolKeys) rfl, by decide, by decide, by decide, rfl, by decide⟩

end MVault.W
