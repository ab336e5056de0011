import Verif.PropsResults
import Verif.PropsCsv
import Verif.PropsStrings
import Verif.FileModel
/-
Lemmas about the file layer: a saved file is a table of fields; reading a file is a sequence of record creations.
-/
set_option linter.unusedSectionVars false
set_option linter.unusedSimpArgs false
namespace MVault.W
open MVault.Csv (formatCsv parseFile writeRow writeRows)
variable {V Ty : Type} [LinearOrder V] [Typed V Ty] [DecidableEq Ty] [Texts V Ty]

/-! ### Saving -/

theorem saveRow_eq (sep : List Char) (data : List (Key × V)) : ∀ (ks : List Key), ks ≠ [] →
    saveRow sep data ks ks.length = writeRow sep (ks.map (cellText data))
  | [], h => absurd rfl h
  | [k], _ => by simp [saveRow, writeRow]
  | k :: k' :: ks, _ => by
    have ih := saveRow_eq sep data (k' :: ks) (by simp)
    rw [saveRow, if_neg (by simp), if_neg (by simp)]
    simp only [List.length_cons, Nat.add_sub_cancel] at ih ⊢
    rw [ih]
    simp [writeRow]

theorem loop_text {w : World Key V Ty} (f : Rec Key V → List Char) : ∀ (l : List Nat) (t : List Char),
    (∀ r ∈ l, ∃ x, w.getRec r = some x) →
    loop (fun text r => (w.getRec r).map fun x => text ++ f x ++ endLine) l t =
      some (t ++ l.flatMap fun r => (match w.getRec r with | some x => f x | none => []) ++ ['\r', '\n'])
  | [], t, _ => by simp [loop]
  | r :: l, t, h => by
    obtain ⟨x, hx⟩ := h r (by simp)
    simp only [loop, hx, Option.map_some, Option.bind_some]
    rw [loop_text f l _ (fun r' hr' => h r' (by simp [hr']))]
    simp [hx, endLine]

theorem mget_none_iff {data : List (Key × V)} {k : Key} : mget data k = none ↔ k ∉ data.map (·.1) := by
  induction data with
  | nil => simp [mget]
  | cons p l ih =>
    obtain ⟨k', v⟩ := p
    simp only [mget, List.map_cons, List.mem_cons]
    split
    · rename_i h; subst h; simp
    · rename_i h; rw [ih]; simp [Ne.symm h]

theorem sizeOf_eq {data : List (Key × V)} {ks : List Key} (hn : ks.Nodup) (hm : ∀ k, k ∈ ks ↔ ∃ v, mget data k = some v) : sizeOf data = ks.length := by
  unfold sizeOf
  refine ((List.perm_ext_iff_of_nodup (List.nodup_dedup _) hn).mpr ?_).length_eq
  intro k
  rw [List.mem_dedup, hm]
  constructor
  · intro h
    cases hv : mget data k with
    | none => exact absurd h (mget_none_iff.mp hv)
    | some v => exact ⟨v, rfl⟩
  · rintro ⟨v, hv⟩
    by_contra h
    rw [mget_none_iff.mpr h] at hv; cases hv

/-- The texts of one record in key order. -/
def textRow (w : World Key V Ty) (ks : List Key) (r : Nat) : List (List Char) :=
  ks.map fun k => match value w r k with | some v => toText v | none => []

theorem cellText_value {w : World Key V Ty} {r : Nat} {x : Rec Key V} (hx : w.getRec r = some x) (k : Key) :
    cellText x.data k = match value w r k with | some v => toText v | none => [] := by
  unfold cellText value; rw [hx, Option.bind_some]; cases mget x.data k <;> rfl

/-- Names that may be written without quotes. -/
def Plain (sep : Char) (f : List Char) : Prop := '"' ∉ f ∧ ',' ∉ f ∧ '\n' ∉ f ∧ '\r' ∉ f ∧ sep ∉ f

theorem fmtPlain (f : List Char) : ∀ (st : Bool × List Char), '"' ∉ f → ',' ∉ f → '\n' ∉ f → f.foldl Csv.fmtStep st = (st.1, st.2 ++ f) := by
  induction f with
  | nil => intro st _ _ _; simp
  | cons c f ih =>
    intro st h1 h2 h3
    simp only [List.mem_cons, not_or] at h1 h2 h3
    rw [List.foldl_cons, ih _ h1.2 h2.2 h3.2]
    simp [Csv.fmtStep, Ne.symm h1.1, Ne.symm h2.1, Ne.symm h3.1]

theorem format_plain {f : List Char} (h1 : '"' ∉ f) (h2 : ',' ∉ f) (h3 : '\n' ∉ f) : formatCsv f = f := by
  unfold formatCsv; rw [fmtPlain f _ h1 h2 h3]; simp

theorem header_eq (sep : Char) : ∀ (ks : List Key), ks ≠ [] → (∀ k ∈ ks, Plain sep k.name) →
    saveHeader [sep] ks true = some (writeRow [sep] (ks.map Key.name) ++ ['\r', '\n'])
  | [], h, _ => absurd rfl h
  | k :: ks, _, hp => by
    have key : ∀ (l : List Key) (k : Key), (∀ k' ∈ k :: l, Plain sep k'.name) → k.name ++ l.flatMap (fun k' => [sep] ++ k'.name) = writeRow [sep] ((k :: l).map Key.name) := by
      intro l
      induction l with
      | nil =>
        intro k h
        obtain ⟨a, b, c, _⟩ := h k (by simp)
        simp [writeRow, format_plain a b c]
      | cons k' l ih =>
        intro k h
        obtain ⟨a, b, c, _⟩ := h k (by simp)
        rw [List.map_cons, List.map_cons, writeRow, format_plain a b c, ← List.map_cons, ← ih k' (fun q hq => h q (by simp only [List.mem_cons] at hq ⊢; exact .inr hq))]
        simp
    simp only [saveHeader, endLine]
    rw [key ks k hp]
    simp

/-- What `SaveToFile` writes for a vault that meets the invariant, all keys. -/
theorem saveToFile_eq {home : Nat → Nat} {w : World Key V Ty} (hw : HReach Ordinary home w) {o : Nat} (ho : isVault w o = true) (env : Env) (sep : Char) (hdr : Bool)
    (hk : getKeys w o ≠ []) (hplain : hdr = true → ∀ k ∈ getKeys w o, Plain sep k.name) :
    saveToFile env w o [] [sep] hdr =
      some (writeRows [sep] ((if hdr = true then [(getKeys w o).map Key.name] else []) ++ (env.perm (members w o)).map (textRow w (getKeys w o)))) := by
  obtain ⟨own, hi⟩ := reach_inv hw
  obtain ⟨vo, hvo, hs⟩ := isVault_iff.mp ho
  have ok := hi.v.vok o vo hvo hs
  rw [getKeys_eq hvo] at hk hplain ⊢
  rw [members_eq hvo]
  have hrow : ∀ r ∈ vo.recs, ∃ x, w.getRec r = some x ∧ saveRow [sep] x.data vo.keysOrder (sizeOf x.data) = writeRow [sep] (textRow w vo.keysOrder r) := by
    intro r hr
    obtain ⟨_, x, hx, _⟩ := hi.v.mem o vo hvo hs r hr
    refine ⟨x, hx, ?_⟩
    have : sizeOf x.data = vo.keysOrder.length := by
      refine sizeOf_eq ok.keysN ?_
      intro k
      rw [ok.keysM]
      have hcell : cellOf w r k = mget x.data k := by simp [cellOf, hx]
      constructor
      · rintro ⟨c, hc⟩
        obtain ⟨v, hv, _⟩ := (ok.cols k c hc).typed r hr
        exact ⟨v, by rw [← hcell]; exact hv⟩
      · rintro ⟨v, hv⟩
        cases hc : mget vo.cols k with
        | some c => exact ⟨c, rfl⟩
        | none => have := ok.nocol r hr k hc; rw [hcell, hv] at this; cases this
    rw [this, saveRow_eq _ _ _ hk]
    congr 1
    exact List.map_congr_left fun k _ => cellText_value hx k
  have hperm : ∀ r ∈ env.perm vo.recs, r ∈ vo.recs := fun r hr => (env.isPerm vo.recs).mem_iff.mp hr
  have hrows : ∀ t, loop (fun text r => (w.getRec r).map fun x => text ++ saveRow [sep] x.data vo.keysOrder (sizeOf x.data) ++ endLine) (env.perm vo.recs) t =
      some (t ++ writeRows [sep] ((env.perm vo.recs).map (textRow w vo.keysOrder))) := by
    intro t
    rw [loop_text (fun x => saveRow [sep] x.data vo.keysOrder (sizeOf x.data)) _ _ (fun r hr => by
      obtain ⟨x, hx, _⟩ := hrow r (hperm r hr); exact ⟨x, hx⟩)]
    congr 2
    unfold writeRows
    rw [List.flatMap_map]
    refine List.flatMap_congr ?_
    intro r hr
    obtain ⟨x, hx, e⟩ := hrow r (hperm r hr)
    rw [hx]; dsimp only; rw [e]
  simp only [saveToFile, hvo, Option.bind_eq_bind, Option.bind_some, if_true]
  cases hdr with
  | false =>
    simp only [Bool.false_eq_true, if_false, Option.bind_some, List.nil_append]
    rw [hrows]; simp
  | true =>
    have : decide (vo.keysOrder.length ≠ 0) = true := by simp [hk]
    rw [if_pos rfl, this, header_eq sep _ hk (hplain rfl)]
    simp only [if_true, Option.bind_some]
    rw [hrows]
    simp [writeRows]

/-! ### Reading -/

theorem setRow_apply {vo : Obj Key V Ty} {data : List (Key × V)} : ∀ (ps d : List (Key × V)) (b : Bool),
    (∀ p ∈ ps, fromText (typeOf p.2) (toText p.2) = .ok p.2) → (ps ≠ [] ∨ b = true) → applyParams vo ps d = .ok data →
    setRow (ps.map fun p => (some p.1, toText p.2)) d b = .ok data
  | [], d, b, _, hb, h => by
    simp only [applyParams, Except.ok.injEq] at h; subst h
    rcases hb with hb | hb
    · exact absurd rfl hb
    · simp [setRow, hb]
  | (k, v) :: ps, d, b, hf, _, h => by
    simp only [applyParams] at h
    simp only [List.map_cons, setRow]
    cases hd : mget d k with
    | none => rw [hd] at h; cases h
    | some v0 =>
      rw [hd] at h
      dsimp only at h ⊢
      split at h
      · rename_i e
        have := hf (k, v) (by simp)
        dsimp only at this
        rw [e, this]
        exact setRow_apply ps _ true (fun p hp => hf p (by simp [hp])) (.inr rfl) h
      · cases h

theorem setRow_params (vo : Obj Key V Ty) : ∀ (l : List (Option Key × List Char)) (d data : List (Key × V)) (b : Bool),
    setRow l d b = .ok data → ∃ ps, applyParams vo ps d = .ok data
  | [], d, data, b, h => by
    simp only [setRow] at h
    split at h
    · cases h; exact ⟨[], rfl⟩
    · cases h
  | (none, _) :: _, _, _, _, h => by simp [setRow] at h
  | (some k, s) :: l, d, data, b, h => by
    simp only [setRow] at h
    cases hd : mget d k with
    | none => rw [hd] at h; cases h
    | some v0 =>
      rw [hd] at h
      dsimp only at h
      split at h
      · cases h
      · cases h
      · rename_i v hv
        obtain ⟨ps, hps⟩ := setRow_params vo l _ _ _ h
        refine ⟨(k, v) :: ps, ?_⟩
        simp only [applyParams, hd]
        rw [if_pos (Texts.from_ty _ _ _ hv).symm]; exact hps

theorem setRow_skip : ∀ (l : List (Option Key × List Char)) (d : List (Key × V)) (b : Bool), setRow l d b = .skip → l = [] ∧ b = false
  | [], d, b, h => by cases b <;> simp [setRow] at h ⊢
  | (none, _) :: _, _, _, h => by simp [setRow] at h
  | (some k, s) :: l, d, b, h => by
    simp only [setRow] at h
    split at h
    · cases h
    · split at h
      · cases h
      · cases h
      · exact absurd (setRow_skip l _ _ h).2 (by simp)

/-- A row that is neither undefined, bad nor skipped is one record creation. -/
theorem insert_createRow {w w1 : World Key V Ty} {o : Nat} {vo : Obj Key V Ty} {data ps : List (Key × V)} {out : Except Key Nat}
    (hvo : w.getObj o = some vo) (hp : applyParams vo ps vo.tmpl = .ok data) (h : insertRecord w o data = some (w1, out)) :
    createRow w o ps = some (w1, match out with | .error k => .bad .UniqueKeyValueAlredyInSet (some k) | .ok _ => .good (ps.getLast?.map (·.1))) := by
  simp only [createRow, hvo, hp, h, Option.bind_eq_bind, Option.bind_some]
  cases out <;> rfl

theorem createRow_total {home : Nat → Nat} {w : World Key V Ty} (hw : HReach Ordinary home w) {o : Nat} (ho : isVault w o = true) (ps : List (Key × V)) :
    ∃ w' res, createRow w o ps = some (w', res) := by
  obtain ⟨own, hi⟩ := reach_inv hw
  obtain ⟨vo, hvo, hs⟩ := isVault_iff.mp ho
  have hvok := hi.v.vok o vo hvo hs
  cases hp : applyParams vo ps vo.tmpl with
  | error e => exact ⟨w, e, by simp only [createRow, hvo, hp, Option.bind_eq_bind, Option.bind_some]⟩
  | ok data =>
    have hap := applyParams_ok hp
    have hi' : Inv (fun r => if r = w.nextR then o else own r) home w := hi.own_congr (fun r hr => by simp; omega)
    rcases insertRecord_spec (data := data) hi' hvo hs (by simp)
      (by
        intro k c hk
        obtain ⟨v, hv, hvt⟩ := hvok.tmplT k c hk
        obtain ⟨v', a, b⟩ := (hap k).2 v hv
        exact ⟨v', a, b.trans hvt⟩)
      (fun k hk => (hap k).1 (hvok.tmplN k hk)) with ⟨k, _, hins, _⟩ | ⟨w2, cols, hins, _⟩
    · exact ⟨_, _, insert_createRow hvo hp hins⟩
    · exact ⟨_, _, insert_createRow hvo hp hins⟩

/-- The world after a row is the world before it or after a record creation. -/
theorem createRow_step {G : World Key V Ty → Op Key V Ty → Prop} (hG : ∀ w o ps, G w (.createRow o ps)) {w w1 : World Key V Ty} (hw : Reach G w)
    {o : Nat} (ho : isVault w o = true) {ps : List (Key × V)} {res : Res Key} (h : createRow w o ps = some (w1, res)) : Reach G w1 ∧ isVault w1 o = true := by
  refine ⟨.step w w1 .id (.createRow o ps) hw (hG _ _ _) ?_, ?_⟩
  · show onVault w o _ = _
    rw [onVault, if_pos ho, h]; rfl
  · obtain ⟨vo, hvo, hs⟩ := isVault_iff.mp ho
    simp only [createRow, hvo, Option.bind_eq_bind, Option.bind_some] at h
    split at h
    · cases h; exact ho
    · simp only [Option.bind_eq_some_iff, Prod.exists] at h
      obtain ⟨w2, out, h1, h⟩ := h
      have : isVault w2 o = true := by
        simp only [insertRecord, hvo, Option.bind_eq_bind, Option.bind_some, Option.bind_eq_some_iff, Prod.exists] at h1
        obtain ⟨cols, clash, h2, h1⟩ := h1
        split at h1 <;> cases h1 <;> exact isVault_iff.mpr ⟨_, getObj_putObj_self _ _ _, hs⟩
      split at h <;> cases h <;> exact this

/-- The world after a row is the world before it or after a record creation. -/
theorem createRow_hstep {home : Nat → Nat} {w w1 : World Key V Ty} (hw : HReach Ordinary home w)
    {o : Nat} (ho : isVault w o = true) {ps : List (Key × V)} {res : Res Key} (h : createRow w o ps = some (w1, res)) : HReach Ordinary home w1 ∧ isVault w1 o = true := by
  refine ⟨.step w w1 .id (.createRow o ps) hw trivial ?_, ?_⟩
  · show onVault w o _ = _
    rw [onVault, if_pos ho, h]; rfl
  · obtain ⟨vo, hvo, hs⟩ := isVault_iff.mp ho
    simp only [createRow, hvo, Option.bind_eq_bind, Option.bind_some] at h
    split at h
    · cases h; exact ho
    · simp only [Option.bind_eq_some_iff, Prod.exists] at h
      obtain ⟨w2, out, h1, h⟩ := h
      have : isVault w2 o = true := by
        simp only [insertRecord, hvo, Option.bind_eq_bind, Option.bind_some, Option.bind_eq_some_iff, Prod.exists] at h1
        obtain ⟨cols, clash, h2, h1⟩ := h1
        split at h1 <;> cases h1 <;> exact isVault_iff.mpr ⟨_, getObj_putObj_self _ _ _, hs⟩
      split at h <;> cases h <;> exact this

end MVault.W
