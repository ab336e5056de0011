import Verif.PropsFile
/-
C55, C56, C57, C58: reading arbitrary files.
-/
set_option linter.unusedSectionVars false
set_option linter.unusedSimpArgs false
namespace MVault.W
open MVault.Csv (parseFile)
variable {V Ty : Type} [LinearOrder V] [Typed V Ty] [DecidableEq Ty] [Texts V Ty]

/-- What creating records without a reference may do to a world (specification): new valid records are added to vault `d`, nothing
else a user can ask about changes. -/
structure Added (d : Nat) (new : List Nat) (w w' : World Key V Ty) : Prop where
  vault : isVault w' d = true
  members : members w' d = members w d ++ new
  fresh : ∀ r ∈ new, ¬ alive w r ∧ alive w' r
  kept : ∀ r, alive w r → alive w' r ∧ ∀ k, value w' r k = value w r k
  keys : getKeys w' d = getKeys w d
  uniq : getUniqueKeys w' d = getUniqueKeys w d
  types : ∀ k, getKeyType w' d k = getKeyType w d k
  defaults : ∀ k, getDefault w' d k = getDefault w d k
  others : ∀ q, q ≠ d → W.members w' q = W.members w q
  vaults : ∀ q, q ≠ d → isVault w q = true → isVault w' q = true ∧ getKeys w' q = getKeys w q ∧ getUniqueKeys w' q = getUniqueKeys w q ∧
    (∀ k, getKeyType w' q k = getKeyType w q k) ∧ ∀ k, getDefault w' q k = getDefault w q k
  refs : ∀ f, target w' f = target w f ∧ through w' f = through w f

theorem Added.refl {w : World Key V Ty} {d : Nat} (hd : isVault w d = true) : Added d [] w w :=
  ⟨hd, by simp, by simp, fun _ h => ⟨h, fun _ => rfl⟩, rfl, rfl, fun _ => rfl, fun _ => rfl, fun _ _ => rfl,
    fun _ _ h => ⟨h, rfl, rfl, fun _ => rfl, fun _ => rfl⟩, fun _ => ⟨rfl, rfl⟩⟩

theorem Added.trans {d : Nat} {l1 l2 : List Nat} {a b c : World Key V Ty} (h1 : Added d l1 a b) (h2 : Added d l2 b c) : Added d (l1 ++ l2) a c where
  vault := h2.vault
  members := by rw [h2.members, h1.members, List.append_assoc]
  fresh r hr := by
    rcases List.mem_append.mp hr with h | h
    · exact ⟨(h1.fresh r h).1, (h2.kept r (h1.fresh r h).2).1⟩
    · exact ⟨fun e => (h2.fresh r h).1 (h1.kept r e).1, (h2.fresh r h).2⟩
  kept r hr := by
    obtain ⟨x, y⟩ := h1.kept r hr
    exact ⟨(h2.kept r x).1, fun k => ((h2.kept r x).2 k).trans (y k)⟩
  keys := h2.keys.trans h1.keys
  uniq := h2.uniq.trans h1.uniq
  types k := (h2.types k).trans (h1.types k)
  defaults k := (h2.defaults k).trans (h1.defaults k)
  others q hq := (h2.others q hq).trans (h1.others q hq)
  vaults q hq hv := by
    obtain ⟨a1, a2, a3, a4, a5⟩ := h1.vaults q hq hv
    obtain ⟨b1, b2, b3, b4, b5⟩ := h2.vaults q hq a1
    exact ⟨b1, b2.trans a2, b3.trans a3, fun k => (b4 k).trans (a4 k), fun k => (b5 k).trans (a5 k)⟩
  refs f := ⟨(h2.refs f).1.trans (h1.refs f).1, (h2.refs f).2.trans (h1.refs f).2⟩

theorem createRow_refs {w w1 : World Key V Ty} {d : Nat} {ps : List (Key × V)} {res : Res Key} (h : createRow w d ps = some (w1, res)) : w1.refs = w.refs := by
  simp only [createRow, Option.bind_eq_bind, Option.bind_eq_some_iff] at h
  obtain ⟨vo, hvo, h⟩ := h
  split at h
  · cases h; rfl
  · simp only [Option.bind_eq_some_iff, Prod.exists] at h
    obtain ⟨w2, out, h1, h⟩ := h
    simp only [insertRecord, hvo, Option.bind_eq_bind, Option.bind_some, Option.bind_eq_some_iff, Prod.exists] at h1
    obtain ⟨cols, clash, h2, h1⟩ := h1
    split at h1 <;> cases h1 <;> cases h <;> rfl

/-- One record creation without a reference, in any history. -/
theorem createRow_added {G : World Key V Ty → Op Key V Ty → Prop} {w w1 : World Key V Ty} (hw : Reach G w) {d : Nat} (hd : isVault w d = true)
    {ps : List (Key × V)} {res : Res Key} (h : createRow w d ps = some (w1, res)) :
    ∃ new, Added d new w w1 ∧ new.length = if res.ok = true then 1 else 0 := by
  have hst : step .id w (.createRow d ps) = some w1 := by
    show onVault w d _ = _
    rw [onVault, if_pos hd, h]; rfl
  have hk : ∀ q, isVault w q = true → _ := fun q hq => C12_only_key_operations hw hst hq (by simp [keyOps])
  have hrefs := createRow_refs h
  cases hok : res.ok with
  | true =>
    obtain ⟨r, h1, h2, h3, h4, h5, h6, h7, h8, h9⟩ := C13_createRow hw hd h hok
    obtain ⟨k1, k2, k3, k4, k5⟩ := hk d hd
    refine ⟨[r], ⟨k1, h3, ?_, ?_, k2, k3, k4, k5, h9, fun q _ hq => hk q hq, h5⟩, rfl⟩
    · intro r' hr'
      simp only [List.mem_singleton] at hr'; subst hr'
      exact ⟨fun ⟨x, hx, _⟩ => h1 ⟨x, hx⟩, h4⟩
    · intro r' hr'
      refine ⟨?_, h8 r' hr'⟩
      by_cases e : r' = r
      · subst e; exact h4
      · exact (h7 r' e).mpr hr'
  | false =>
    have hu := createRow_failed h hok
    have so := fun q => hu.objs q (by simp)
    refine ⟨[], ⟨(so d).vault.trans hd, by rw [(so d).members]; simp, by simp, fun r hr => ⟨(hu.alive r).mpr hr, hu.values r hr⟩,
      (so d).keys, (so d).uniq, (so d).types, (so d).defaults, fun q _ => (so q).members,
      fun q _ hq => ⟨(so q).vault.trans hq, (so q).keys, (so q).uniq, (so q).types, (so q).defaults⟩,
      fun f => ⟨by unfold target; rw [hrefs], by unfold through; rw [hrefs]⟩⟩, by simp⟩

theorem addUniques_clash {data : List (Key × V)} {r : Nat} : ∀ (l : List Key) {cols cols' : List (Key × Col V Ty)} {done : List Key} {k : Key} {done' : List Key},
    addUniques data r l cols done = some (cols', some (k, done')) → k ∈ l
  | [], _, _, _, _, _, h => by simp [addUniques] at h
  | k0 :: l, cols, cols', done, k, done', h => by
    simp only [addUniques] at h
    split at h
    · cases h
    · split at h
      · exact List.mem_cons_of_mem _ (addUniques_clash l h)
      · cases h; simp

theorem insertRecord_clash {w w1 : World Key V Ty} {d : Nat} {data : List (Key × V)} {k : Key} (h : insertRecord w d data = some (w1, .error k)) :
    k ∈ getUniqueKeys w d := by
  simp only [insertRecord, Option.bind_eq_bind, Option.bind_eq_some_iff, Prod.exists] at h
  obtain ⟨vo, hvo, cols, clash, h2, h1⟩ := h
  rw [getUniqueKeys_eq hvo]
  split at h1
  · cases h1; exact addUniques_clash _ h2
  · cases h1

/-- Why a field of a row is refused (specification): the vault does not have the key, or the text is not a text of the key's
type. -/
def FieldError (w : World Key V Ty) (d : Nat) (k : Key) (s : List Char) : Prop :=
  getDefault w d k = none ∨ ∃ v : V, getDefault w d k = some v ∧ fromText (typeOf v) s = (.reject : Str.Out V)

/-- The text a row gives for a key (specification): the last field with that key. -/
def fieldText (fields : List (Option Key × List Char)) (k : Key) : Option (List Char) :=
  ((fields.filter fun p => decide (p.1 = some k)).getLast?).map (·.2)

/-- A field that is accepted (specification): the vault has the key and the text converts to a value of the key's type. -/
def FieldOk (w : World Key V Ty) (d : Nat) (p : Option Key × List Char) : Prop :=
  ∃ k, p.1 = some k ∧ ∃ v x : V, getDefault w d k = some v ∧ fromText (typeOf v) p.2 = .ok x

/-- The value a row gives to a key (specification): the value of the last field with that key, or the key's default. -/
def RowValue (w : World Key V Ty) (d : Nat) (fields : List (Option Key × List Char)) (k : Key) (x : Option V) : Prop :=
  match fieldText fields k with
  | none => x = getDefault w d k
  | some s => ∃ v y : V, getDefault w d k = some v ∧ fromText (typeOf v) s = .ok y ∧ x = some y

/-- What became of a row. -/
inductive Outcome
  | nothing | loaded (r : Nat) | reported (line : Nat) (k : Key)

/-- The new record of a row. -/
def Outcome.record? : Outcome → Option Nat
  | .loaded r => some r
  | _ => none
/-- The report about a row. -/
def Outcome.report? : Outcome → Option (Nat × Key)
  | .reported n k => some (n, k)
  | _ => none

/-- What the outcome of a row with these fields means (specification). `line` is the number reported for field errors, `line'` the
one reported for clashes. In ordinary histories (`ord`) a clash means that a record with the value exists. -/
def Did (ord : Prop) (d : Nat) (w w' : World Key V Ty) (line line' : Nat) (fields : List (Option Key × List Char)) : Outcome → Prop
  | .nothing => fields = []
  | .loaded r => fields ≠ [] ∧ (∀ p ∈ fields, FieldOk w d p) ∧ ¬ alive w r ∧ alive w' r ∧ ∀ k, RowValue w d fields k (value w' r k)
  | .reported m k =>
    (m = line ∧ ∃ pre s post, fields = pre ++ (some k, s) :: post ∧ (∀ p ∈ pre, FieldOk w d p) ∧ FieldError w d k s) ∨
    (m = line' ∧ fields ≠ [] ∧ (∀ p ∈ fields, FieldOk w d p) ∧ k ∈ getUniqueKeys w d ∧
      (ord → ∃ r ∈ members w' d, alive w' r ∧ RowValue w d fields k (value w' r k)))

theorem fieldText_cons (p : Option Key × List Char) (l : List (Option Key × List Char)) (k : Key) :
    fieldText (p :: l) k = match fieldText l k with | some s => some s | none => if p.1 = some k then some p.2 else none := by
  unfold fieldText
  by_cases h : p.1 = some k
  · simp only [h, List.filter_cons, decide_true, if_true, List.getLast?_cons]
    cases (l.filter (fun p => decide (p.1 = some k))).getLast? <;> simp
  · simp only [h, List.filter_cons, decide_false, Bool.false_eq_true, if_false]
    cases (l.filter (fun p => decide (p.1 = some k))).getLast? <;> simp

theorem setRow_bad {w : World Key V Ty} {d : Nat} {vo : Obj Key V Ty} (hvo : w.getObj d = some vo) {k : Key} :
    ∀ (l : List (Option Key × List Char)) (data : List (Key × V)) (b : Bool), (∀ k, (mget data k).map typeOf = (mget vo.tmpl k).map typeOf) →
    setRow l data b = .bad k → ∃ pre s post, l = pre ++ (some k, s) :: post ∧ (∀ p ∈ pre, FieldOk w d p) ∧ FieldError w d k s
  | [], data, b, _, h => by cases b <;> simp [setRow] at h
  | (none, _) :: _, _, _, _, h => by simp [setRow] at h
  | (some k0, s) :: l, data, b, hd, h => by
    simp only [setRow] at h
    cases hk : mget data k0 with
    | none =>
      rw [hk] at h; cases h
      exact ⟨[], s, l, rfl, by simp, .inl (by rw [getDefault_eq hvo]; exact (by have := hd k; rw [hk] at this; simpa using this.symm))⟩
    | some v0 =>
      rw [hk] at h; dsimp only at h
      have := hd k0
      rw [hk, Option.map_some, eq_comm, Option.map_eq_some_iff] at this
      obtain ⟨v1, h1, h2⟩ := this
      cases hf : (fromText (typeOf v0) s : Str.Out V) with
      | ub => rw [hf] at h; cases h
      | reject =>
        rw [hf] at h; cases h
        exact ⟨[], s, l, rfl, by simp, .inr ⟨v1, by rw [getDefault_eq hvo]; exact h1, by rw [h2]; exact hf⟩⟩
      | ok v =>
        rw [hf] at h; dsimp only at h
        obtain ⟨pre, s', post, e1, e2, e3⟩ := setRow_bad hvo l _ _ (by
          intro k'
          rw [mget_mput, ← hd k']
          split
          · rename_i e; subst e; simp [hk, Texts.from_ty _ _ _ hf]
          · rfl) h
        refine ⟨(some k0, s) :: pre, s', post, by rw [e1]; rfl, ?_, e3⟩
        intro p hp
        rcases List.mem_cons.mp hp with rfl | hp
        · exact ⟨k0, rfl, v1, v, by rw [getDefault_eq hvo]; exact h1, by rw [h2]; exact hf⟩
        · exact e2 p hp

theorem setRow_ok {w : World Key V Ty} {d : Nat} {vo : Obj Key V Ty} (hvo : w.getObj d = some vo) {data' : List (Key × V)} :
    ∀ (l : List (Option Key × List Char)) (data : List (Key × V)) (b : Bool), (∀ k, (mget data k).map typeOf = (mget vo.tmpl k).map typeOf) →
    setRow l data b = .ok data' → (b = false → l ≠ []) ∧ (∀ p ∈ l, FieldOk w d p) ∧
      ∀ k, match fieldText l k with | none => mget data' k = mget data k | some s => ∃ v y : V, getDefault w d k = some v ∧ fromText (typeOf v) s = .ok y ∧ mget data' k = some y
  | [], data, b, _, h => by
    cases b with
    | false => simp [setRow] at h
    | true => simp only [setRow, if_true, RowOut.ok.injEq] at h; subst h; exact ⟨by simp, by simp, by simp [fieldText]⟩
  | (none, _) :: _, _, _, _, h => by simp [setRow] at h
  | (some k0, s) :: l, data, b, hd, h => by
    simp only [setRow] at h
    cases hk : mget data k0 with
    | none => rw [hk] at h; cases h
    | some v0 =>
      rw [hk] at h; dsimp only at h
      have := hd k0
      rw [hk, Option.map_some, eq_comm, Option.map_eq_some_iff] at this
      obtain ⟨v1, h1, h2⟩ := this
      rw [← getDefault_eq hvo] at h1
      cases hf : (fromText (typeOf v0) s : Str.Out V) with
      | ub => rw [hf] at h; cases h
      | reject => rw [hf] at h; cases h
      | ok v =>
        rw [hf] at h; dsimp only at h
        obtain ⟨_, a2, a3⟩ := setRow_ok hvo l _ _ (by
          intro k'
          rw [mget_mput, ← hd k']
          split
          · rename_i e; subst e; simp [hk, Texts.from_ty _ _ _ hf]
          · rfl) h
        refine ⟨by simp, ?_, ?_⟩
        · intro p hp
          rcases List.mem_cons.mp hp with rfl | hp
          · exact ⟨k0, rfl, v1, v, h1, by rw [h2]; exact hf⟩
          · exact a2 p hp
        · intro k
          have := a3 k
          rw [fieldText_cons]
          cases ht : fieldText l k with
          | some s' => rw [ht] at this; exact this
          | none =>
            rw [ht] at this
            dsimp only at this ⊢
            by_cases e : k0 = k
            · subst e
              rw [if_pos rfl]
              dsimp only
              refine ⟨v1, v, h1, by rw [h2]; exact hf, ?_⟩
              rw [this, mget_mput, if_pos rfl]
            · rw [if_neg (by simpa using e)]
              dsimp only
              rw [this, mget_mput, if_neg e]

theorem Did.mono {ord : Prop} {d : Nat} {new : List Nat} {a b c : World Key V Ty} {line line' : Nat} {fields : List (Option Key × List Char)} {o : Outcome}
    (ha : Added d new b c) (h : Did ord d a b line line' fields o) : Did ord d a c line line' fields o := by
  cases o with
  | nothing => exact h
  | loaded r =>
    obtain ⟨h1, h2, h3, h4, h5⟩ := h
    exact ⟨h1, h2, h3, (ha.kept r h4).1, fun k => by rw [(ha.kept r h4).2]; exact h5 k⟩
  | reported m k =>
    rcases h with h | ⟨h1, h2, h3, h4, h5⟩
    · exact .inl h
    · refine .inr ⟨h1, h2, h3, h4, fun ho => ?_⟩
      obtain ⟨r, hr, hv, h6⟩ := h5 ho
      exact ⟨r, by rw [ha.members]; simp [hr], (ha.kept r hv).1, by rw [(ha.kept r hv).2]; exact h6⟩

theorem Did.base {ord : Prop} {d : Nat} {new : List Nat} {a b c : World Key V Ty} {line line' : Nat} {fields : List (Option Key × List Char)} {o : Outcome}
    (ha : Added d new a b) (h : Did ord d b c line line' fields o) : Did ord d a c line line' fields o := by
  have hok : ∀ p, FieldOk b d p → FieldOk a d p := by
    rintro p ⟨k, h1, v, x, h2, h3⟩
    exact ⟨k, h1, v, x, by rw [← ha.defaults]; exact h2, h3⟩
  have hv : ∀ k x, RowValue b d fields k x → RowValue a d fields k x := by
    intro k x hx
    unfold RowValue at hx ⊢
    rw [ha.defaults] at hx; exact hx
  cases o with
  | nothing => exact h
  | loaded r =>
    obtain ⟨h1, h2, h3, h4, h5⟩ := h
    exact ⟨h1, fun p hp => hok p (h2 p hp), fun e => h3 (ha.kept r e).1, h4, fun k => hv k _ (h5 k)⟩
  | reported m k =>
    rcases h with ⟨h0, pre, s, post, h1, h2, h3⟩ | ⟨h1, h2, h3, h4, h5⟩
    · refine .inl ⟨h0, pre, s, post, h1, fun p hp => hok p (h2 p hp), ?_⟩
      rcases h3 with h3 | ⟨v, h3, h4⟩
      · exact .inl (by rw [← ha.defaults]; exact h3)
      · exact .inr ⟨v, by rw [← ha.defaults]; exact h3, h4⟩
    · refine .inr ⟨h1, h2, fun p hp => hok p (h3 p hp), by rw [← ha.uniq]; exact h4, fun ho => ?_⟩
      obtain ⟨r, hr, hl, h6⟩ := h5 ho
      exact ⟨r, hr, hl, hv k _ h6⟩

/-- In an ordinary history a refused insertion means that a live record of the vault has the value. -/
theorem insert_clash {home : Nat → Nat} {w w1 : World Key V Ty} (hw : HReach Ordinary home w) {d : Nat} {vo : Obj Key V Ty} (hvo : w.getObj d = some vo)
    (hs : vo.isSet = false) {ps data : List (Key × V)} (hp : applyParams vo ps vo.tmpl = .ok data) {k : Key} (h : insertRecord w d data = some (w1, .error k)) :
    w1 = w ∧ ∃ r ∈ members w d, alive w r ∧ value w r k = mget data k := by
  obtain ⟨own, hi⟩ := reach_inv hw
  have hvok := hi.v.vok d vo hvo hs
  have hap := applyParams_ok hp
  have hi' : Inv (fun r => if r = w.nextR then d else own r) home w := hi.own_congr (fun r hr => by simp; omega)
  rcases insertRecord_spec (data := data) hi' hvo hs (by simp)
    (by
      intro k c hk
      obtain ⟨v, hv, hvt⟩ := hvok.tmplT k c hk
      obtain ⟨v', a, b⟩ := (hap k).2 v hv
      exact ⟨v', a, b.trans hvt⟩)
    (fun k hk => (hap k).1 (hvok.tmplN k hk)) with ⟨k', _, hins, ⟨r, hr, hv⟩, _⟩ | ⟨w2, cols, hins, _⟩
  · rw [hins] at h; cases h
    refine ⟨rfl, r, by rw [members_eq hvo]; exact hr, ?_, hv⟩
    obtain ⟨_, x, hx, hval⟩ := hi.v.mem d vo hvo hs r hr
    exact ⟨x, hx, hval⟩
  · rw [hins] at h; cases h

/-- The new record of an accepted row has the row's data. -/
theorem insert_value {w w1 : World Key V Ty} {d r : Nat} {data : List (Key × V)} (h : insertRecord w d data = some (w1, .ok r)) (k : Key) :
    r = w.nextR ∧ value w1 r k = mget data k := by
  simp only [insertRecord, Option.bind_eq_bind, Option.bind_eq_some_iff, Prod.exists] at h
  obtain ⟨vo, hvo, cols, clash, h2, h1⟩ := h
  split at h1
  · cases h1
  · simp only [Option.some.injEq, Prod.mk.injEq, Except.ok.injEq] at h1
    obtain ⟨rfl, rfl⟩ := h1
    refine ⟨rfl, ?_⟩
    show Option.bind (mget (mput w.recs w.nextR _) w.nextR) _ = _
    rw [mget_mput, if_pos rfl]; rfl

/-- The number reported for a field error in data row `i` (counted from 0). -/
def fieldLine (hasKeyLine : Bool) (i : Nat) : Nat := if hasKeyLine = true then i + 2 else i + 1

/-- The loop over the rows. -/
theorem readLoop_spec {R : World Key V Ty → Prop} {d : Nat} (hR : ∀ w, R w → Reach (fun _ _ => True) w)
    (hstep : ∀ w w1 ps res, R w → isVault w d = true → createRow w d ps = some (w1, res) → R w1 ∧ isVault w1 d = true) {ord : Prop} (hord : ord → ∀ w, R w → ∃ home, HReach Ordinary home w)
    (handler : List Key → List (List Char) → List (List Char)) (loaded : Option (List Key)) (userKeys : List Key) :
    ∀ (rows : List (List (List Char))) (n : Nat) (w w' : World Key V Ty) (errs errs' : List (Nat × Key)), R w → isVault w d = true →
      readLoop handler loaded userKeys d rows n w errs = some (w', errs') →
      ∃ outs : List Outcome, R w' ∧ Added d (outs.filterMap Outcome.record?) w w' ∧ errs' = errs ++ outs.filterMap Outcome.report? ∧
        List.Forall₂ (fun (p : List (Option Key × List Char) × Nat) o => Did ord d w w' (fieldLine loaded.isSome p.2) (p.2 + 1) p.1 o)
          ((rows.map fun row => rowPairs loaded userKeys (getKeys w d) (handledRow handler loaded row)).zipIdx n) outs
  | [], n, w, w', errs, errs', hr, hd, h => by
    simp only [readLoop, Option.some.injEq, Prod.mk.injEq] at h
    obtain ⟨rfl, rfl⟩ := h
    exact ⟨[], hr, .refl hd, by simp, .nil⟩
  | row :: rows, n, w, w', errs, errs', hr, hd, h => by
    obtain ⟨vo, hvo, hs⟩ := isVault_iff.mp hd
    simp only [readLoop, hvo, Option.bind_eq_bind, Option.bind_some] at h
    have hkeys : getKeys w d = vo.keysOrder := getKeys_eq hvo
    -- one step: the outcome `o` of the row leads to `w1`
    have one : ∀ (o : Outcome) (w1 : World Key V Ty) (errs1 : List (Nat × Key)), R w1 → isVault w1 d = true → Added d o.record?.toList w w1 →
        errs1 = errs ++ o.report?.toList →
        Did ord d w w1 (fieldLine loaded.isSome n) (n + 1) (rowPairs loaded userKeys (getKeys w d) (handledRow handler loaded row)) o →
        readLoop handler loaded userKeys d rows (n + 1) w1 errs1 = some (w', errs') →
        ∃ outs : List Outcome, R w' ∧ Added d (outs.filterMap Outcome.record?) w w' ∧ errs' = errs ++ outs.filterMap Outcome.report? ∧
          List.Forall₂ (fun (p : List (Option Key × List Char) × Nat) o => Did ord d w w' (fieldLine loaded.isSome p.2) (p.2 + 1) p.1 o)
            (((row :: rows).map fun row => rowPairs loaded userKeys (getKeys w d) (handledRow handler loaded row)).zipIdx n) outs := by
      intro o w1 errs1 hr1 hd1 ha he hdid hl
      obtain ⟨outs, a1, a2, a3, a4⟩ := readLoop_spec hR hstep hord handler loaded userKeys rows (n + 1) w1 w' errs1 errs' hr1 hd1 hl
      refine ⟨o :: outs, a1, ?_, ?_, ?_⟩
      · have := ha.trans a2
        cases ho : o.record? <;> simpa [List.filterMap_cons, ho] using this
      · rw [a3, he]
        cases ho : o.report? <;> simp [List.filterMap_cons, ho]
      · rw [List.map_cons, List.zipIdx_cons]
        refine .cons (hdid.mono a2) ?_
        rw [ha.keys] at a4
        exact a4.imp fun _ _ hx => hx.base ha
    cases hsr : setRow (rowPairs loaded userKeys vo.keysOrder (handledRow handler loaded row)) vo.tmpl false with
    | ub => rw [hsr] at h; cases h
    | skip =>
      rw [hsr] at h; dsimp only at h
      obtain ⟨he, _⟩ := setRow_skip _ _ _ hsr
      exact one .nothing w errs hr hd (.refl hd) (by simp [Outcome.report?]) (by rw [hkeys]; exact he) h
    | bad k =>
      rw [hsr] at h; dsimp only at h
      obtain ⟨pre, s, post, e1, e2, e3⟩ := setRow_bad hvo _ _ _ (fun _ => rfl) hsr
      refine one (.reported (fieldLine loaded.isSome n) k) w _ hr hd (.refl hd) ?_ (.inl ⟨rfl, pre, s, post, by rw [hkeys]; exact e1, e2, e3⟩) h
      cases loaded <;> simp [Outcome.report?, fieldLine]
    | ok data =>
      rw [hsr] at h; dsimp only at h
      obtain ⟨ps, hps⟩ := setRow_params vo _ _ _ _ hsr
      obtain ⟨b1, b2, b3⟩ := setRow_ok hvo _ _ _ (fun _ => rfl) hsr
      simp only [Option.bind_eq_some_iff, Prod.exists] at h
      obtain ⟨w1, out, hins, h⟩ := h
      have hc := insert_createRow hvo hps hins
      obtain ⟨hr1, hd1⟩ := hstep _ _ _ _ hr hd hc
      obtain ⟨new1, ha, hn1⟩ := createRow_added (hR _ hr) hd hc
      have hval : ∀ k x, x = mget data k → RowValue w d (rowPairs loaded userKeys (getKeys w d) (handledRow handler loaded row)) k x := by
        intro k x hx
        have := b3 k
        rw [hkeys]
        unfold RowValue
        cases ht : fieldText (rowPairs loaded userKeys vo.keysOrder (handledRow handler loaded row)) k with
        | none => rw [ht] at this; dsimp only at this ⊢; rw [hx, this, getDefault_eq hvo]
        | some s => rw [ht] at this; dsimp only at this ⊢; rw [hx]; exact this
      cases out with
      | error k =>
        dsimp only at h hn1
        have hnil : new1 = [] := by
          apply List.length_eq_zero_iff.mp; rw [hn1]; rfl
        subst hnil
        have hu := insertRecord_clash hins
        refine one (.reported (n + 1) k) w1 _ hr1 hd1 ha (by simp [Outcome.report?]) (.inr ⟨rfl, by rw [hkeys]; exact b1 rfl, by rw [hkeys]; exact b2, hu, ?_⟩) h
        intro ho
        obtain ⟨home, hr'⟩ := hord ho _ hr
        obtain ⟨rfl, r, h1, h2, h3⟩ := insert_clash hr' hvo hs hps hins
        exact ⟨r, h1, h2, hval k _ h3⟩
      | ok r =>
        dsimp only at h hn1
        have hlen : new1.length = 1 := hn1
        have hrn : new1 = [r] := by
          obtain ⟨x, rfl⟩ := List.length_eq_one_iff.mp hlen
          have hm := ha.members
          have : members w1 d = members w d ++ [r] := by
            have hins' := hins
            simp only [insertRecord, hvo, Option.bind_eq_bind, Option.bind_some, Option.bind_eq_some_iff, Prod.exists] at hins'
            obtain ⟨cols, clash, h2, h1⟩ := hins'
            split at h1
            · cases h1
            · cases h1
              rw [members_eq hvo, members_eq (getObj_putObj_self _ _ _)]
          rw [this] at hm
          simpa using hm.symm
        subst hrn
        exact one (.loaded r) w1 _ hr1 hd1 ha (by simp [Outcome.report?])
          ⟨by rw [hkeys]; exact b1 rfl, by rw [hkeys]; exact b2, (ha.fresh r (by simp)).1, (ha.fresh r (by simp)).2, fun k => hval k _ (insert_value hins k).2⟩ h


/-! ### C55, C56, C57 -/

/-- The rows of data of a file (specification): all rows but the key line. -/
def dataRows (isLoadKeys : Bool) (rows : List (List (List Char))) : List (List (List Char)) := if isLoadKeys = true then rows.tail else rows

/-- The key line of a file, if it has one (specification). -/
def keyLine (isLoadKeys : Bool) (rows : List (List (List Char))) : Option (List Key) :=
  if isLoadKeys = true then some ((rows.head?.getD []).map Key.of) else none

/-- The keys the fields of a row belong to (specification): those of the key line, or those given by the caller, or the vault's
keys in order. -/
def fieldKeys (isLoadKeys : Bool) (rows : List (List (List Char))) (userKeys vaultKeys : List Key) : List Key :=
  if isLoadKeys = true then (rows.head?.getD []).map Key.of else if userKeys = [] then vaultKeys else userKeys

/-- The fields of a row after the record handler, which is called for files with a key line only (specification). -/
def fieldTexts (handler : List Key → List (List Char) → List (List Char)) (isLoadKeys : Bool) (rows : List (List (List Char))) (row : List (List Char)) : List (List Char) :=
  if isLoadKeys = true then handler ((rows.head?.getD []).map Key.of) row else row

/-- The fields a row assigns (specification): field number `i` belongs to key number `i`. Surplus fields are ignored if the keys
come from the file or the caller, and have no key (`none`) if they are the vault's own keys. -/
def fieldsOf (handler : List Key → List (List Char) → List (List Char)) (isLoadKeys : Bool) (rows : List (List (List Char))) (userKeys vaultKeys : List Key)
    (row : List (List Char)) : List (Option Key × List Char) :=
  let keys := fieldKeys isLoadKeys rows userKeys vaultKeys
  let texts := fieldTexts handler isLoadKeys rows row
  (List.range (if isLoadKeys = true ∨ userKeys ≠ [] then min keys.length texts.length else texts.length)).map fun i => (keys[i]?, texts[i]?.getD [])

theorem zip_range : ∀ (ks : List Key) (l : List (List Char)), ((ks.zip l).map fun p => (some p.1, p.2)) =
    (List.range (min ks.length l.length)).map fun i => (ks[i]?, l[i]?.getD [])
  | [], l => by simp
  | k :: ks, [] => by simp
  | k :: ks, s :: l => by
    rw [List.zip_cons_cons, List.map_cons, zip_range ks l, List.length_cons, List.length_cons, Nat.add_min_add_right, List.range_succ_eq_map, List.map_cons, List.map_map]
    rfl

theorem pairRow_range : ∀ (l : List (List Char)) (ks : List Key), pairRow ks l = (List.range l.length).map fun i => (ks[i]?, l[i]?.getD [])
  | [], _ => rfl
  | s :: l, ks => by
    rw [pairRow, pairRow_range l, List.length_cons, List.range_succ_eq_map, List.map_cons, List.map_map]
    cases ks <;> rfl

theorem fieldsOf_eq (handler : List Key → List (List Char) → List (List Char)) (il : Bool) (rows : List (List (List Char))) (uk vk : List Key) (row : List (List Char)) :
    fieldsOf handler il rows uk vk row = rowPairs (keyLine il rows) uk vk (handledRow handler (keyLine il rows) row) := by
  cases il with
  | true => simp only [fieldsOf, fieldKeys, fieldTexts, keyLine, if_true, true_or, handledRow, rowPairs, zip_range]
  | false =>
    by_cases e : uk = []
    · simp [fieldsOf, fieldKeys, fieldTexts, keyLine, handledRow, rowPairs, pairRow_range, e]
    · simp only [fieldsOf, fieldKeys, fieldTexts, keyLine, handledRow, rowPairs, zip_range, Bool.false_eq_true, if_false, e, ne_eq, not_false_eq_true, or_true, if_true]

theorem readFile_loop {handler : List Key → List (List Char) → List (List Char)} {block big : Nat} {w w' : World Key V Ty} {d : Nat} {text : List Char} {sep : Char}
    {il : Bool} {uk : List Key} {b : Bool} {errs : List (Nat × Key)} (h : readFileWith handler block big w d (some text) sep il uk = some (b, w', errs)) :
    ∃ rows, parseFile block big sep text = some rows ∧ b = true ∧ readLoop handler (keyLine il rows) uk d (dataRows il rows) 0 w [] = some (w', errs) := by
  cases il
  · simp only [readFileWith, Bool.false_eq_true, if_false, Option.bind_eq_bind, Option.bind_eq_some_iff, Prod.exists, Option.some.injEq, Prod.mk.injEq] at h
    obtain ⟨rows, h1, w1, e, h2, rfl, rfl, rfl⟩ := h
    exact ⟨rows, h1, rfl, by simpa [keyLine, dataRows] using h2⟩
  · simp only [readFileWith, if_true, Option.bind_eq_bind, Option.bind_eq_some_iff, Prod.exists, Option.some.injEq, Prod.mk.injEq] at h
    obtain ⟨rows, h1, w1, e, h2, rfl, rfl, rfl⟩ := h
    exact ⟨rows, h1, rfl, by simpa [keyLine, dataRows] using h2⟩

/-- Reading any file, after any history: only new records are added to the vault, and the new state is one that
`CreateRecord` calls could have led to (so every theorem about all histories holds after `ReadFile`). The call answers
`false` exactly when the file cannot be opened, and then changes nothing. -/
theorem C55_readFile_only_adds {G : World Key V Ty → Op Key V Ty → Prop} (hG : ∀ w o ps, G w (.createRow o ps)) {w w' : World Key V Ty} (hw : Reach G w) {d : Nat}
    (hd : isVault w d = true) {handler : List Key → List (List Char) → List (List Char)} {block big : Nat} {file : Option (List Char)} {sep : Char} {il : Bool}
    {uk : List Key} {b : Bool} {errs : List (Nat × Key)} (h : readFileWith handler block big w d file sep il uk = some (b, w', errs)) :
    Reach G w' ∧ (∃ new, Added d new w w') ∧ (b = false ↔ file = none) ∧ (b = false → w' = w ∧ errs = []) := by
  cases file with
  | none =>
    simp only [readFileWith, Option.some.injEq, Prod.mk.injEq] at h
    obtain ⟨rfl, rfl, rfl⟩ := h
    exact ⟨hw, ⟨[], .refl hd⟩, by simp, by simp⟩
  | some text =>
    obtain ⟨rows, h1, rfl, h2⟩ := readFile_loop h
    obtain ⟨outs, a1, a2, _⟩ := readLoop_spec (R := Reach G) (fun _ h => h.mono fun _ _ _ => trivial) (fun _ _ _ _ a b c => createRow_step hG a b c) (ord := False) (by simp) handler _ uk _ 0 w w' [] errs hw hd h2
    exact ⟨a1, ⟨_, a2⟩, by simp, by simp⟩

/-- The same for ordinary histories: the theorems about them hold after `ReadFile`. -/
theorem C55_readFile_ordinary {home : Nat → Nat} {w w' : World Key V Ty} (hw : HReach Ordinary home w) {d : Nat}
    (hd : isVault w d = true) {handler : List Key → List (List Char) → List (List Char)} {block big : Nat} {file : Option (List Char)} {sep : Char} {il : Bool}
    {uk : List Key} {b : Bool} {errs : List (Nat × Key)} (h : readFileWith handler block big w d file sep il uk = some (b, w', errs)) : HReach Ordinary home w' := by
  cases file with
  | none =>
    simp only [readFileWith, Option.some.injEq, Prod.mk.injEq] at h
    obtain ⟨rfl, rfl, rfl⟩ := h
    exact hw
  | some text =>
    obtain ⟨rows, h1, rfl, h2⟩ := readFile_loop h
    obtain ⟨outs, a1, _⟩ := readLoop_spec (R := HReach Ordinary home) (fun _ h => h.any) (fun _ _ _ _ a b c => createRow_hstep a b c) (ord := False) (by simp) handler _ uk _ 0 w w' [] errs hw hd h2
    exact a1

/-- What the rows of a file became (specification): each data row (numbered from 0 in the list) has one outcome; the new records are
those of the loaded rows, in order, and the reports are those of the reported rows, in order. -/
def RowByRow (ord : Prop) (d : Nat) (w w' : World Key V Ty) (errs : List (Nat × Key)) (hasKeyLine : Bool) (rows : List (List (Option Key × List Char))) : Prop :=
  ∃ outs : List Outcome, members w' d = members w d ++ outs.filterMap Outcome.record? ∧ errs = outs.filterMap Outcome.report? ∧
    List.Forall₂ (fun (p : List (Option Key × List Char) × Nat) o => Did ord d w w' (fieldLine hasKeyLine p.2) (p.2 + 1) p.1 o) rows.zipIdx outs

/-- Reading any file, after any history: every row without fields is dropped, and every other row has either become exactly one
new record, with the row's values and the defaults, or is reported once, with the first field that was refused (the key is unknown
or the text does not convert) or, if there is no such field, with a unique key. -/
theorem C56_loaded_or_reported {G : World Key V Ty → Op Key V Ty → Prop} (hG : ∀ w o ps, G w (.createRow o ps)) {w w' : World Key V Ty} (hw : Reach G w) {d : Nat}
    (hd : isVault w d = true) {handler : List Key → List (List Char) → List (List Char)} {block big : Nat} {text : List Char} {sep : Char} {il : Bool}
    {uk : List Key} {b : Bool} {errs : List (Nat × Key)} (h : readFileWith handler block big w d (some text) sep il uk = some (b, w', errs)) :
    ∃ rows, parseFile block big sep text = some rows ∧
      RowByRow False d w w' errs il ((dataRows il rows).map (fieldsOf handler il rows uk (getKeys w d))) := by
  obtain ⟨rows, h1, rfl, h2⟩ := readFile_loop h
  obtain ⟨outs, a1, a2, a3, a4⟩ := readLoop_spec (R := Reach G) (fun _ h => h.mono fun _ _ _ => trivial) (fun _ _ _ _ a b c => createRow_step hG a b c) (ord := False) (by simp) handler _ uk _ 0 w w' [] errs hw hd h2
  have hl : (keyLine il rows).isSome = il := by cases il <;> rfl
  rw [hl] at a4
  exact ⟨rows, h1, outs, a2.members, by simpa using a3, by rw [funext (fieldsOf_eq handler il rows uk (getKeys w d))]; exact a4⟩

/-- After an ordinary history the reported unique key is one for which the vault has a live record with the row's value. Missing
for the full claim: histories that are not ordinary (there `C56_loaded_or_reported` holds). -/
theorem C56_clash_partial {home : Nat → Nat} {w w' : World Key V Ty} (hw : HReach Ordinary home w) {d : Nat}
    (hd : isVault w d = true) {handler : List Key → List (List Char) → List (List Char)} {block big : Nat} {text : List Char} {sep : Char} {il : Bool}
    {uk : List Key} {b : Bool} {errs : List (Nat × Key)} (h : readFileWith handler block big w d (some text) sep il uk = some (b, w', errs)) :
    ∃ rows, parseFile block big sep text = some rows ∧
      RowByRow True d w w' errs il ((dataRows il rows).map (fieldsOf handler il rows uk (getKeys w d))) := by
  obtain ⟨rows, h1, rfl, h2⟩ := readFile_loop h
  obtain ⟨outs, a1, a2, a3, a4⟩ := readLoop_spec (R := HReach Ordinary home) (fun _ h => h.any) (fun _ _ _ _ a b c => createRow_hstep a b c) (ord := True) (fun _ _ h => ⟨home, h⟩) handler _ uk _ 0 w w' [] errs hw hd h2
  have hl : (keyLine il rows).isSome = il := by cases il <;> rfl
  rw [hl] at a4
  exact ⟨rows, h1, outs, a2.members, by simpa using a3, by rw [funext (fieldsOf_eq handler il rows uk (getKeys w d))]; exact a4⟩

theorem forall2_report {ord : Prop} {d : Nat} {w w' : World Key V Ty} {hk : Bool} : ∀ {rows : List (List (Option Key × List Char))} {n : Nat} {outs : List Outcome},
    List.Forall₂ (fun (p : List (Option Key × List Char) × Nat) o => Did ord d w w' (fieldLine hk p.2) (p.2 + 1) p.1 o) (rows.zipIdx n) outs →
    (∀ e ∈ outs.filterMap Outcome.report?, ∃ i fields, rows[i]? = some fields ∧ Did ord d w w' (fieldLine hk (n + i)) (n + i + 1) fields (.reported e.1 e.2)) ∧
    (hk = false → ((outs.filterMap Outcome.report?).map (·.1)).Pairwise (· < ·))
  | [], n, outs, h => by
    rw [List.zipIdx_nil] at h; cases h; exact ⟨by simp, by simp⟩
  | row :: rows, n, outs, h => by
    rw [List.zipIdx_cons] at h
    cases h with
    | @cons _ o _ outs h1 h2 =>
      obtain ⟨i1, i2⟩ := forall2_report h2
      have hrest : ∀ e ∈ outs.filterMap Outcome.report?, ∃ i fields, (row :: rows)[i + 1]? = some fields ∧
          Did ord d w w' (fieldLine hk (n + (i + 1))) (n + (i + 1) + 1) fields (.reported e.1 e.2) := by
        intro e he
        obtain ⟨i, fields, a, b⟩ := i1 e he
        exact ⟨i, fields, by simpa using a, by rw [show n + (i + 1) = n + 1 + i by omega]; exact b⟩
      cases o with
      | nothing => exact ⟨fun e he => by obtain ⟨i, f, a⟩ := hrest e (by simpa [List.filterMap_cons, Outcome.report?] using he); exact ⟨i + 1, f, a⟩,
          fun e => by simpa [List.filterMap_cons, Outcome.report?] using i2 e⟩
      | loaded r => exact ⟨fun e he => by obtain ⟨i, f, a⟩ := hrest e (by simpa [List.filterMap_cons, Outcome.report?] using he); exact ⟨i + 1, f, a⟩,
          fun e => by simpa [List.filterMap_cons, Outcome.report?] using i2 e⟩
      | reported m k =>
        constructor
        · intro e he
          simp only [List.filterMap_cons, Outcome.report?, List.mem_cons] at he
          rcases he with rfl | he
          · exact ⟨0, row, rfl, h1⟩
          · obtain ⟨i, f, a⟩ := hrest e he; exact ⟨i + 1, f, a⟩
        · intro e
          simp only [List.filterMap_cons, Outcome.report?, List.map_cons, List.pairwise_cons]
          refine ⟨?_, i2 e⟩
          intro m' hm'
          obtain ⟨p, hp, rfl⟩ := List.mem_map.mp hm'
          obtain ⟨i, f, _, hdid⟩ := i1 p hp
          have hm : m = n + 1 := by
            rcases h1 with ⟨h1, _⟩ | ⟨h1, _⟩
            · rw [h1]; simp [fieldLine, e]
            · exact h1
          have hp1 : p.1 = n + 1 + i + 1 := by
            rcases hdid with ⟨h1, _⟩ | ⟨h1, _⟩
            · rw [h1]; simp [fieldLine, e]
            · exact h1
          omega

/-- Reported numbers. In a file without key line, each is the number of an offending row (the first row has number 1) and no row is
reported twice. In a file with key line, the number is that of the offending row if a field was refused; missing for the full
claim: a clash of a unique key is reported one line too early there (`C57_refuted`). -/
theorem C57_line_numbers_partial {G : World Key V Ty → Op Key V Ty → Prop} (hG : ∀ w o ps, G w (.createRow o ps)) {w w' : World Key V Ty} (hw : Reach G w) {d : Nat}
    (hd : isVault w d = true) {handler : List Key → List (List Char) → List (List Char)} {block big : Nat} {text : List Char} {sep : Char} {il : Bool}
    {uk : List Key} {b : Bool} {errs : List (Nat × Key)} (h : readFileWith handler block big w d (some text) sep il uk = some (b, w', errs)) :
    ∃ rows, parseFile block big sep text = some rows ∧ (il = false → (errs.map (·.1)).Pairwise (· < ·)) ∧
      ∀ e ∈ errs,
        (0 < e.1 ∧ ∃ row, rows[e.1 - 1]? = some row ∧ ∃ pre s post, fieldsOf handler il rows uk (getKeys w d) row = pre ++ (some e.2, s) :: post ∧
          (∀ p ∈ pre, FieldOk w d p) ∧ FieldError w d e.2 s) ∨
        (0 < e.1 ∧ ∃ row, rows[if il = true then e.1 else e.1 - 1]? = some row ∧ e.2 ∈ getUniqueKeys w d ∧
          ∀ p ∈ fieldsOf handler il rows uk (getKeys w d) row, FieldOk w d p) := by
  obtain ⟨rows, h1, outs, h2, h3, h4⟩ := C56_loaded_or_reported hG hw hd h
  obtain ⟨a1, a2⟩ := forall2_report h4
  refine ⟨rows, h1, fun e => by rw [h3]; exact a2 e, ?_⟩
  intro e he
  rw [h3] at he
  obtain ⟨i, fields, hi, hdid⟩ := a1 e he
  rw [List.getElem?_map, Option.map_eq_some_iff] at hi
  obtain ⟨row, hrow, rfl⟩ := hi
  have hrow' : rows[if il = true then i + 1 else i]? = some row := by
    cases il
    · simpa [dataRows] using hrow
    · simp only [dataRows, if_true] at hrow ⊢
      cases rows with
      | nil => simp at hrow
      | cons _ _ => simpa using hrow
  rcases hdid with ⟨b1, b2⟩ | ⟨b1, _, b3, b4, _⟩
  · refine .inl ⟨by rw [b1]; unfold fieldLine; split <;> omega, row, ?_, b2⟩
    rw [b1, ← hrow']; congr 1; unfold fieldLine; split <;> omega
  · refine .inr ⟨by omega, row, ?_, b4, b3⟩
    rw [← hrow']; congr 1; split <;> omega

/-! ### C58 -/

theorem setRow_defined {w : World Key V Ty} {d : Nat} {vo : Obj Key V Ty} (hvo : w.getObj d = some vo) :
    ∀ (l : List (Option Key × List Char)) (data : List (Key × V)) (b : Bool), (∀ k, (mget data k).map typeOf = (mget vo.tmpl k).map typeOf) →
    (∀ p ∈ l, ∃ k, p.1 = some k ∧ ∀ v : V, getDefault w d k = some v → fromText (typeOf v) p.2 ≠ (.ub : Str.Out V)) → setRow l data b ≠ .ub
  | [], data, b, _, _ => by cases b <;> simp [setRow]
  | (none, _) :: _, _, _, _, h => by
    obtain ⟨k, hk, _⟩ := h _ (List.mem_cons_self ..)
    cases hk
  | (some k0, s) :: l, data, b, hd, h => by
    obtain ⟨k, hk, hub⟩ := h _ (List.mem_cons_self ..)
    cases hk
    simp only [setRow]
    cases hk : mget data k0 with
    | none => simp
    | some v0 =>
      dsimp only
      have := hd k0
      rw [hk, Option.map_some, eq_comm, Option.map_eq_some_iff] at this
      obtain ⟨v1, h1, h2⟩ := this
      rw [← getDefault_eq hvo] at h1
      have hne := hub v1 h1
      rw [h2] at hne
      cases hf : (fromText (typeOf v0) s : Str.Out V) with
      | ub => exact absurd hf hne
      | reject => simp
      | ok v =>
        dsimp only
        exact setRow_defined hvo l _ _ (by
          intro k'
          rw [mget_mput, ← hd k']
          split
          · rename_i e; subst e; simp [hk, Texts.from_ty _ _ _ hf]
          · rfl) (fun p hp => h p (List.mem_cons_of_mem _ hp))

theorem readLoop_defined {home : Nat → Nat} (handler : List Key → List (List Char) → List (List Char)) (loaded : Option (List Key)) (userKeys : List Key) (d : Nat) :
    ∀ (rows : List (List (List Char))) (n : Nat) (w : World Key V Ty) (errs : List (Nat × Key)), HReach Ordinary home w → isVault w d = true →
      (∀ row ∈ rows, ∀ p ∈ rowPairs loaded userKeys (getKeys w d) (handledRow handler loaded row), ∃ k, p.1 = some k ∧
        ∀ v : V, getDefault w d k = some v → fromText (typeOf v) p.2 ≠ (.ub : Str.Out V)) →
      ∃ w' errs', readLoop handler loaded userKeys d rows n w errs = some (w', errs')
  | [], n, w, errs, _, _, _ => ⟨w, errs, rfl⟩
  | row :: rows, n, w, errs, hr, hd, hdef => by
    obtain ⟨vo, hvo, hs⟩ := isVault_iff.mp hd
    have hkeys : getKeys w d = vo.keysOrder := getKeys_eq hvo
    simp only [readLoop, hvo, Option.bind_eq_bind, Option.bind_some]
    have hrest : ∀ row ∈ rows, ∀ p ∈ rowPairs loaded userKeys (getKeys w d) (handledRow handler loaded row), ∃ k, p.1 = some k ∧
        ∀ v : V, getDefault w d k = some v → fromText (typeOf v) p.2 ≠ (.ub : Str.Out V) := fun r hr => hdef r (List.mem_cons_of_mem _ hr)
    have h0 := hdef row (List.mem_cons_self ..)
    rw [hkeys] at h0
    have hnub := setRow_defined hvo _ vo.tmpl false (fun _ => rfl) h0
    cases hsr : setRow (rowPairs loaded userKeys vo.keysOrder (handledRow handler loaded row)) vo.tmpl false with
    | ub => exact absurd hsr hnub
    | skip => exact readLoop_defined handler loaded userKeys d rows _ w _ hr hd hrest
    | bad k => exact readLoop_defined handler loaded userKeys d rows _ w _ hr hd hrest
    | ok data =>
      dsimp only
      obtain ⟨ps, hps⟩ := setRow_params vo _ _ _ _ hsr
      obtain ⟨w1, res, hc⟩ := createRow_total hr hd ps
      have hins : ∃ out, insertRecord w d data = some (w1, out) := by
        have hc' := hc
        simp only [createRow, hvo, hps, Option.bind_eq_bind, Option.bind_some, Option.bind_eq_some_iff, Prod.exists] at hc'
        obtain ⟨w2, out, h1, h2⟩ := hc'
        cases out <;> cases h2 <;> exact ⟨_, h1⟩
      obtain ⟨out, hins⟩ := hins
      obtain ⟨hr1, hd1⟩ := createRow_hstep hr hd hc
      obtain ⟨new1, ha, _⟩ := createRow_added hr.any hd hc
      rw [hins, Option.bind_some]
      have hrest1 : ∀ row ∈ rows, ∀ p ∈ rowPairs loaded userKeys (getKeys w1 d) (handledRow handler loaded row), ∃ k, p.1 = some k ∧
          ∀ v : V, getDefault w1 d k = some v → fromText (typeOf v) p.2 ≠ (.ub : Str.Out V) := by
        intro row' hrow' p hp
        rw [ha.keys] at hp
        obtain ⟨k, h1, h2⟩ := hrest row' hrow' p hp
        exact ⟨k, h1, fun v hv => h2 v (by rw [← ha.defaults]; exact hv)⟩
      cases out with
      | error k => exact readLoop_defined handler loaded userKeys d rows _ w1 _ hr1 hd1 hrest1
      | ok r => exact readLoop_defined handler loaded userKeys d rows _ w1 _ hr1 hd1 hrest1

theorem rowPairs_keyed {loaded : Option (List Key)} {uk order : List Key} (h : loaded.isSome = true ∨ uk ≠ []) (row : List (List Char)) :
    ∀ p ∈ rowPairs loaded uk order row, ∃ k, p.1 = some k := by
  intro p hp
  unfold rowPairs at hp
  cases loaded with
  | some ks =>
    obtain ⟨q, _, rfl⟩ := List.mem_map.mp hp
    exact ⟨_, rfl⟩
  | none =>
    have : uk ≠ [] := by rcases h with h | h; cases h; exact h
    dsimp only at hp
    rw [if_neg this] at hp
    obtain ⟨q, _, rfl⟩ := List.mem_map.mp hp
    exact ⟨_, rfl⟩

/-- A signed 32- or 64-bit integer type. -/
def Wide : VTy → Prop
  | .int .i32 => True
  | .int .i64 => True
  | _ => False

theorem digitLoop_wraps {t : Str.IntTy} (ht : t.wraps = true) : ∀ (l : List Char) (r : Int), Str.digitLoop t l r ≠ .ub
  | [], r => by simp [Str.digitLoop]
  | c :: l, r => by
    have hfit : ∀ x, ∃ y, t.fit x = some y := by
      intro x; unfold Str.IntTy.fit
      split
      · exact ⟨_, rfl⟩
      · exact ⟨_, rfl⟩
    obtain ⟨y1, h1⟩ := hfit (r * 10)
    obtain ⟨y2, h2⟩ := hfit (y1 + ((c.toNat : Int) - 48))
    simp only [Str.digitLoop, h1, h2]
    split
    · simp
    · exact digitLoop_wraps ht l y2

theorem wrap_fits {t : Str.IntTy} (ht : t.wraps = true) {x y : Int} (h : t.fit x = some y) : t.lo ≤ y ∧ y ≤ t.hi := by
  unfold Str.IntTy.fit at h
  split at h
  · cases h; assumption
  · cases h
    unfold Str.IntTy.wrap
    have hpos : 0 < t.hi - t.lo + 1 := by cases t <;> decide
    have h1 := Int.emod_nonneg (x - t.lo) (Int.ne_of_gt hpos)
    have h2 := Int.emod_lt_of_pos (x - t.lo) hpos
    omega

theorem digitLoop_fits {t : Str.IntTy} (ht : t.wraps = true) : ∀ (l : List Char) (r x : Int), t.lo ≤ r ∧ r ≤ t.hi → Str.digitLoop t l r = .ok x → t.lo ≤ x ∧ x ≤ t.hi
  | [], r, x, hr, h => by simp only [Str.digitLoop, Str.Out.ok.injEq] at h; subst h; exact hr
  | c :: l, r, x, hr, h => by
    simp only [Str.digitLoop] at h
    split at h
    · cases h
    · split at h
      · cases h
      · split at h
        · cases h
        · rename_i r1 h1 _ r2 h2
          exact digitLoop_fits ht l r2 x (wrap_fits ht h2) h

theorem readVal_defined {t : VTy} (ht : ¬ Wide t) (s : List Char) : readVal t s ≠ .ub := by
  cases t with
  | bool => simp only [readVal, Str.fromStringBool]; split <;> (try split) <;> simp_all; split at * <;> (try split at *) <;> simp_all
  | str => simp [readVal, Str.fromStringStr]
  | int t =>
    have hw : t.wraps = true := by cases t <;> first | rfl | exact absurd trivial ht
    have key : ∀ i, Str.fromStringInt t s = .ok i → t.lo ≤ i ∧ i ≤ t.hi := by
      intro i hi
      cases s with
      | nil => simp [Str.fromStringInt] at hi
      | cons c cs =>
        simp only [Str.fromStringInt] at hi
        split at hi
        · rename_i res hres
          have := digitLoop_fits hw _ _ _ (Str.IntTy.zero_ok t) hres
          split at hi
          · split at hi
            · cases hi
            · rename_i hf; cases hi; exact wrap_fits hw hf
          · cases hi; exact this
        · rename_i o hno; cases o <;> simp_all
    have hnub : Str.fromStringInt t s ≠ .ub := by
      cases s with
      | nil => simp [Str.fromStringInt]
      | cons c cs =>
        simp only [Str.fromStringInt]
        split
        · split
          · split
            · rename_i hf
              unfold Str.IntTy.fit at hf
              split at hf
              · cases hf
              · cases hf
            · simp
          · simp
        · rename_i o hno
          intro e
          exact digitLoop_wraps hw _ _ e
    simp only [readVal]
    cases hf : Str.fromStringInt t s with
    | ub => exact absurd hf hnub
    | reject => simp
    | ok i => dsimp only; rw [dif_pos (key i hf)]; simp

/-- Reading a file is defined after every ordinary history, whatever the file contains and whatever the handler does, if the file
has a key line or the caller gives keys, and no key has a type whose conversion can overflow. Missing for the full claim:
`int` and `int64` keys (a numeral that is too large is undefined behaviour, `C58_refuted_overflow`), files without keys
(a row with more fields than the vault has keys is undefined behaviour, `C58_refuted_surplus_field`), floating-point keys. -/
theorem C58_defined_partial {home : Nat → Nat} {w : World Key Val VTy} (hw : HReach Ordinary home w) {d : Nat} (hd : isVault w d = true)
    (handler : List Key → List (List Char) → List (List Char)) (block big : Nat) (hb : 1 < block) (hbig : block ≤ big) (file : Option (List Char)) (sep : Char)
    (il : Bool) (uk : List Key) (hkeys : il = true ∨ uk ≠ []) (htypes : ∀ k t, getKeyType w d k = some t → ¬ Wide t) :
    ∃ b w' errs, readFileWith handler block big w d file sep il uk = some (b, w', errs) := by
  cases file with
  | none => exact ⟨_, _, _, rfl⟩
  | some text =>
    obtain ⟨rows, h1, _⟩ := Csv.C04_parsing_terminates block big hb hbig sep text
    have hdef : ∀ row p, p ∈ rowPairs (keyLine il rows) uk (getKeys w d) (handledRow handler (keyLine il rows) row) → ∃ k, p.1 = some k ∧
        ∀ v : Val, getDefault w d k = some v → fromText (typeOf v) p.2 ≠ (.ub : Str.Out Val) := by
      intro row p hp
      obtain ⟨k, hk⟩ := rowPairs_keyed (by rcases hkeys with h | h; exact .inl (by rw [h]; rfl); exact .inr h) _ p hp
      refine ⟨k, hk, fun v hv => readVal_defined (htypes k _ ?_) _⟩
      obtain ⟨own, hi⟩ := reach_inv hw
      obtain ⟨vo, hvo, hs⟩ := isVault_iff.mp hd
      have ok := hi.v.vok d vo hvo hs
      rw [getDefault_eq hvo] at hv
      rw [getKeyType_eq hvo]
      cases hc : mget vo.cols k with
      | none => rw [ok.tmplN k hc] at hv; cases hv
      | some c =>
        obtain ⟨v', a, b⟩ := ok.tmplT k c hc
        rw [a] at hv; cases hv; simp [b]
    obtain ⟨w', errs, h2⟩ := readLoop_defined handler (keyLine il rows) uk d (dataRows il rows) 0 w [] hw hd (fun row _ p hp => hdef row p hp)
    refine ⟨true, w', errs, ?_⟩
    cases il
    · simp only [readFileWith, Bool.false_eq_true, if_false, h1, Option.bind_eq_bind, Option.bind_some]
      rw [show readLoop handler none uk d rows 0 w [] = some (w', errs) from h2]; rfl
    · simp only [readFileWith, if_true, h1, Option.bind_eq_bind, Option.bind_some]
      rw [show readLoop handler (some ((rows.head?.getD []).map Key.of)) uk d rows.tail 0 w [] = some (w', errs) from h2]; rfl

/-! ### Concrete files -/

/-- A unique boolean key and a text key. -/
def boolKeys : List (Op Key Val VTy) := [.newVault, .addUniqueKey 0 kFlag .bool true (fun _ _ _ => .bool false), .addKey 0 kName (.str "x".toList)]
/-- The vault with these keys and one record. -/
def boolW : World Key Val VTy := (fileRun (boolKeys ++ [.createRow 0 [(kFlag, .bool true)]])).getD World.empty
theorem boolW_reach : HReach Ordinary (fun _ => 0) boolW := fileRun_reach (l := boolKeys ++ [.createRow 0 [(kFlag, .bool true)]]) rfl

/-- The file "name,flag / a,yes / b / c,false / d,true" in this vault: row 2 does not convert, row 3 is
loaded with the default of the unique key, row 4 then clashes with it and row 5 with the old record. -/
example : ∃ w', readFile 512 1000 boolW 0 (some "name,flag\r\na,yes\r\nb\r\nc,false\r\nd,true\r\n".toList) ',' true [] =
    some (true, w', [(2, kFlag), (3, kFlag), (4, kFlag)]) ∧ members w' 0 = [0, 1] ∧ value w' 1 kName = some (.str "b".toList) ∧ value w' 1 kFlag = some (.bool false) :=
  ⟨_, rfl, by decide, by decide, by decide⟩

/-- The theorems apply to it. -/
example : ∃ w', HReach Ordinary (fun _ => 0) w' ∧ RowByRow True 0 boolW w' [(2, kFlag), (3, kFlag), (4, kFlag)] true
    ((dataRows true [["name".toList, "flag".toList], ["a".toList, "yes".toList], ["b".toList], ["c".toList, "false".toList], ["d".toList, "true".toList]]).map
      (fieldsOf (fun _ row => row) true [["name".toList, "flag".toList], ["a".toList, "yes".toList], ["b".toList], ["c".toList, "false".toList], ["d".toList, "true".toList]] []
        (getKeys boolW 0))) := by
  have h : ∃ w', readFileWith (fun _ row => row) 512 1000 boolW 0 (some "name,flag\r\na,yes\r\nb\r\nc,false\r\nd,true\r\n".toList) ',' true [] =
      some (true, w', [(2, kFlag), (3, kFlag), (4, kFlag)]) := ⟨_, rfl⟩
  obtain ⟨w', h⟩ := h
  refine ⟨w', C55_readFile_ordinary boolW_reach (by decide) h, ?_⟩
  obtain ⟨rows, h1, h2⟩ := C56_clash_partial boolW_reach (by decide) h
  have : parseFile 512 1000 ',' "name,flag\r\na,yes\r\nb\r\nc,false\r\nd,true\r\n".toList =
    some [["name".toList, "flag".toList], ["a".toList, "yes".toList], ["b".toList], ["c".toList, "false".toList], ["d".toList, "true".toList]] := rfl
  rw [this] at h1; cases h1
  exact h2

/-- The hypotheses of `C58_defined_partial` hold for this vault. -/
example (text : List Char) : ∃ b w' errs, readFileWith (fun _ row => row) 512 1000 boolW 0 (some text) ',' true [] = some (b, w', errs) :=
  C58_defined_partial boolW_reach (by decide) _ 512 1000 (by decide) (by decide) _ _ _ _ (.inl rfl) (by
    intro k t h
    have h' : Option.map _ (mget [(kFlag, _), (kName, _)] k) = some t := h
    simp only [mget] at h'
    split at h'
    · cases h'; exact id
    · split at h'
      · cases h'; exact id
      · cases h')

/-- A clash of a unique key in a file with a key line is reported one line too early: the second and third line have the
same value of the unique key, the second line becomes a record, and the report names line 2. -/
theorem C57_refuted : ∃ w w' : World Key Val VTy, HReach Ordinary (fun _ => 0) w ∧ isVault w 0 = true ∧ members w 0 = [] ∧
    parseFile 512 1000 ',' "flag\r\ntrue\r\ntrue\r\n".toList = some [["flag".toList], ["true".toList], ["true".toList]] ∧
    readFile 512 1000 w 0 (some "flag\r\ntrue\r\ntrue\r\n".toList) ',' true [] = some (true, w', [(2, kFlag)]) ∧ members w' 0 = [0] ∧
    value w' 0 kFlag = some (.bool true) :=
  ⟨(fileRun boolKeys).getD World.empty, _, fileRun_reach (l := boolKeys) rfl, by decide, by decide, rfl, rfl, by decide, by decide⟩

/-- A row with more fields than the vault has keys, in a file read without keys, is undefined behaviour. -/
theorem C58_refuted_surplus_field : ∃ w : World Key Val VTy, HReach Ordinary (fun _ => 0) w ∧ isVault w 0 = true ∧ getKeys w 0 = [kFlag, kName] ∧
    readFile 512 1000 w 0 (some "false,a,b\r\n".toList) ',' false [] = none :=
  ⟨boolW, boolW_reach, by decide, by decide, rfl⟩

/-- A numeral that does not fit an `int` key is undefined behaviour. -/
theorem C58_refuted_overflow : ∃ w : World Key Val VTy, HReach Ordinary (fun _ => 0) w ∧ isVault w 0 = true ∧ getKeyType w 0 kId = some (.int .i32) ∧
    readFile 512 1000 w 0 (some "id\r\n2147483648\r\n".toList) ',' true [] = none :=
  ⟨(fileRun minKeys).getD World.empty, fileRun_reach (l := minKeys) rfl, by decide, by decide, rfl⟩

/-- A history that is not ordinary: through a reference left over by a failed `GetRecord` on a set of vault 0 (VaultRecordSet.hpp line 102),
a record of vault 1 enters the index of the unique key of vault 0. -/
def strayFile : List (Op Key Val VTy) := [.newVault, .newVault, .addUniqueKey 0 kFlag .bool true (fun _ _ _ => .bool false), .addKey 1 kName (.str []),
  .newRef, .createRecord 1 0 [], .newSet, .ask 0 kFlag (.gt (.bool false)) none (fun _ => true) 2, .setGetRecord 2 kName (.bool true) 0,
  .refSetData 0 kFlag (.bool true)]

/-- There the only row of a file is refused because of a unique value although the vault has no record at all. -/
theorem C56_refuted : ∃ w w' : World Key Val VTy, Reach (fun _ _ => True) w ∧ isVault w 0 = true ∧ members w 0 = [] ∧
    readFile 512 1000 w 0 (some "flag\r\ntrue\r\n".toList) ',' true [] = some (true, w', [(1, kFlag)]) ∧ members w' 0 = [] := by
  refine ⟨_, _, run_reach (strayFile.map (Env.id, ·)) .init rfl, ?_, ?_, rfl, ?_⟩ <;> decide

end MVault.W
