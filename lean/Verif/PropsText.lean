import Verif.TextModel
import Verif.PropsSort
import Verif.PropsJson
/-
C60 and C61: `ToStrings` and printed tables.
-/
set_option linter.unusedSectionVars false
set_option linter.unusedSimpArgs false
namespace MVault.W
variable {V Ty : Type} [LinearOrder V] [Typed V Ty] [DecidableEq Ty] [Texts V Ty]

/-! ### Specification -/

/-- The text of the value a record has for a key. -/
def textOf (w : World Key V Ty) (r : Nat) (k : Key) : List Char := match value w r k with | some v => toText v | none => []

/-- The record has a value for each of the keys. -/
def HasAll (w : World Key V Ty) (keys : List Key) (r : Nat) : Prop := ∀ k ∈ keys, ∃ v, value w r k = some v

/-- The entry of a record in `ToStrings`: each key with the text of its value. -/
def entry (w : World Key V Ty) (keys : List Key) (r : Nat) : List (Key × List Char) := keys.map fun k => (k, textOf w r k)

/-! ### C60: ToStrings -/

theorem textOf_eq {w : World Key V Ty} {r : Nat} {x : Rec Key V} (hx : w.getRec r = some x) {k : Key} {v : V} (h : mget x.data k = some v) :
    textOf w r k = toText v := by
  unfold textOf value; rw [hx, Option.bind_some, h]

theorem pairTexts_some {w : World Key V Ty} {r : Nat} {x : Rec Key V} (hx : w.getRec r = some x) :
    ∀ {ks : List Key} {l}, pairTexts x.data ks = some l → HasAll w ks r ∧ l = entry w ks r
  | [], l, h => by
    simp only [pairTexts] at h; cases h
    exact ⟨(by intro k hk; cases hk), rfl⟩
  | k :: ks, l, h => by
    simp only [pairTexts, Option.bind_eq_bind, Option.bind_eq_some_iff] at h
    obtain ⟨v, hv, rest, hr, h⟩ := h
    cases h
    obtain ⟨h1, h2⟩ := pairTexts_some hx hr
    refine ⟨fun k' hk' => ?_, ?_⟩
    · rcases List.mem_cons.mp hk' with rfl | hk'
      · exact ⟨v, by unfold value; rw [hx]; exact hv⟩
      · exact h1 k' hk'
    · rw [h2, entry, entry, List.map_cons, textOf_eq hx hv]

theorem pairTexts_def {w : World Key V Ty} {r : Nat} {x : Rec Key V} (hx : w.getRec r = some x) :
    ∀ {ks : List Key}, HasAll w ks r → pairTexts x.data ks = some (entry w ks r)
  | [], _ => rfl
  | k :: ks, h => by
    obtain ⟨v, hv⟩ := h k (by simp)
    have hv' : mget x.data k = some v := by unfold value at hv; rw [hx] at hv; exact hv
    simp only [pairTexts, hv', pairTexts_def hx (ks := ks) (fun q hq => h q (List.mem_cons_of_mem _ hq)), Option.bind_eq_bind, Option.bind_some]
    simp only [entry, List.map_cons, textOf_eq hx hv']

theorem mapM_some {α β : Type} {f : α → Option β} : ∀ {l : List α} {l' : List β}, l.mapM f = some l' → List.Forall₂ (fun a b => f a = some b) l l'
  | [], l', h => by simp at h; subst h; exact .nil
  | a :: l, l', h => by
    simp only [List.mapM_cons, Option.bind_eq_bind, Option.bind_eq_some_iff] at h
    obtain ⟨b, hb, rest, hr, h⟩ := h
    cases h
    exact .cons hb (mapM_some hr)

theorem mapM_map {α β : Type} {f : α → Option β} {g : α → β} : ∀ {l : List α}, (∀ a ∈ l, f a = some (g a)) → l.mapM f = some (l.map g)
  | [], _ => rfl
  | a :: l, h => by
    simp only [List.mapM_cons, h a (by simp), mapM_map (l := l) (fun b hb => h b (by simp [hb])), Option.bind_eq_bind, Option.bind_some]
    rfl

theorem forall2_map {α β : Type} {g : α → β} {P : α → Prop} {R : α → β → Prop} (hR : ∀ a b, R a b → P a ∧ b = g a) :
    ∀ {l : List α} {l' : List β}, List.Forall₂ R l l' → (∀ a ∈ l, P a) ∧ l' = l.map g
  | _, _, .nil => ⟨by simp, rfl⟩
  | _, _, .cons (a := a) (b := b) h t => by
    obtain ⟨h1, h2⟩ := hR a b h
    obtain ⟨h3, h4⟩ := forall2_map hR t
    refine ⟨fun x hx => ?_, by rw [h2, h4, List.map_cons]⟩
    rcases List.mem_cons.mp hx with rfl | hx
    · exact h1
    · exact h3 x hx

/-- Whatever the history: if `ToStrings` of a vault or a set with a parent is defined, it has exactly one entry per record, and each entry has every
key in key order with the text of the record's value. -/
theorem C60_complete {w : World Key V Ty} {o : Nat} (env : Env) {rows : List (List (Key × List Char))} (h : vaultToStrings env w o = some rows) :
    ∃ order : List Nat, order.Perm (members w o) ∧ rows = order.map (entry w (getKeys w o)) ∧ ∀ r ∈ members w o, HasAll w (getKeys w o) r := by
  simp only [vaultToStrings, Option.bind_eq_bind, Option.bind_eq_some_iff] at h
  obtain ⟨vo, hvo, h⟩ := h
  rw [members_eq hvo, getKeys_eq hvo]
  obtain ⟨h1, h2⟩ := forall2_map (g := entry w vo.keysOrder) (P := fun r => HasAll w vo.keysOrder r) (fun r b hb => by
    obtain ⟨x, hx, hp⟩ := Option.bind_eq_some_iff.mp hb
    exact pairTexts_some hx hp) (mapM_some h)
  exact ⟨env.perm vo.recs, env.isPerm _, h2, fun r hr => h1 r ((env.isPerm _).mem_iff.mpr hr)⟩

/-- The same for sets; a set without parent gives nothing. -/
theorem C60_set {w : World Key V Ty} {s : Nat} (env : Env) {rows : List (List (Key × List Char))} (h : setToStrings env w s = some rows) :
    (parentOf w s = none ∧ rows = []) ∨ (parentOf w s ≠ none ∧ ∃ order : List Nat, order.Perm (members w s) ∧
      rows = order.map (entry w (getKeys w s)) ∧ ∀ r ∈ members w s, HasAll w (getKeys w s) r) := by
  simp only [setToStrings, Option.bind_eq_bind, Option.bind_eq_some_iff] at h
  obtain ⟨so, hso, h⟩ := h
  rw [parentOf_eq hso]
  cases hp : so.parent with
  | none => rw [hp] at h; cases h; exact .inl ⟨rfl, rfl⟩
  | some p =>
    rw [hp] at h
    dsimp only at h
    simp only [Option.bind_eq_some_iff] at h
    obtain ⟨_, _, h⟩ := h
    exact .inr ⟨(by simp), C60_complete env h⟩

/-- Beyond the claim: for a vault after an ordinary history `ToStrings` always returns. -/
theorem C60_vault_defined {home : Nat → Nat} {w : World Key V Ty} (hw : HReach Ordinary home w) {o : Nat} (hv : isVault w o = true) (env : Env) :
    ∃ order : List Nat, order.Perm (members w o) ∧ vaultToStrings env w o = some (order.map (entry w (getKeys w o))) ∧ ∀ r ∈ members w o, HasAll w (getKeys w o) r := by
  obtain ⟨own, hi⟩ := reach_inv hw
  obtain ⟨vo, hvo, hs⟩ := isVault_iff.mp hv
  have ok := hi.v.vok o vo hvo hs
  have hall : ∀ r ∈ vo.recs, HasAll w vo.keysOrder r := by
    intro r hr k hk
    obtain ⟨c, hc⟩ := (ok.keysM k).mp hk
    obtain ⟨v, h, _⟩ := (ok.cols k c hc).typed r hr
    exact ⟨v, h⟩
  rw [members_eq hvo, getKeys_eq hvo]
  refine ⟨env.perm vo.recs, env.isPerm _, ?_, hall⟩
  simp only [vaultToStrings, hvo, Option.bind_eq_bind, Option.bind_some]
  refine mapM_map fun r hr => ?_
  have hr' := (env.isPerm _).mem_iff.mp hr
  obtain ⟨_, x, hx, _⟩ := hi.v.mem o vo hvo hs r hr'
  rw [hx, Option.bind_some]
  exact pairTexts_def hx (hall r hr')

/-- `ToStrings` of a reference, in every world: the entry of its record under the keys of the vault or set it works through; nothing when
it has no live record. -/
theorem C60_reference {w : World Key V Ty} {f : Nat} {l : List (Key × List Char)} (h : refToStrings w f = some l) :
    (∃ r o, target w f = some r ∧ alive w r ∧ through w f = some o ∧ l = entry w (getKeys w o) r ∧ HasAll w (getKeys w o) r) ∨
      (refIsValid w f = some false ∧ l = []) := by
  simp only [refToStrings, Option.bind_eq_bind, Option.bind_eq_some_iff] at h
  obtain ⟨ref, href, h⟩ := h
  cases hp : ref.ptr with
  | none =>
    rw [hp] at h; cases h
    refine .inr ⟨?_, rfl⟩
    simp only [refIsValid, href, hp, Option.bind_eq_bind, Option.bind_some]
  | some r =>
    rw [hp] at h
    dsimp only at h
    simp only [Option.bind_eq_some_iff] at h
    obtain ⟨x, hx, h⟩ := h
    by_cases hval : x.valid = true
    · rw [if_pos hval] at h
      simp only [Option.bind_eq_some_iff] at h
      obtain ⟨o, ho, vo, hvo, h⟩ := h
      obtain ⟨h1, h2⟩ := pairTexts_some hx h
      refine .inl ⟨r, o, by unfold target; rw [href]; exact hp, ⟨x, hx, hval⟩, by unfold through; rw [href]; exact ho, ?_, ?_⟩
      · rw [getKeys_eq hvo]; exact h2
      · rw [getKeys_eq hvo]; exact h1
    · rw [if_neg hval] at h; cases h
      refine .inr ⟨?_, rfl⟩
      simp only [Bool.not_eq_true] at hval
      simp only [refIsValid, href, hp, hx, hval, Option.bind_eq_bind, Option.bind_some, Option.map_some]

/-! ### C61: tables

Specification of a table. -/

/-- The width of a column: the longest of the key name and the texts of the records. -/
def colWidth (w : World Key V Ty) (rs : List Nat) (k : Key) : Nat := ((k.name.length) :: rs.map fun r => (textOf w r k).length).foldr max 0

/-- A line of a table made of padded cells. -/
def lineOf (cells : List (List Char × Nat)) : List Char :=
  ['|'] ++ (cells.map fun c => [' '] ++ c.1 ++ List.replicate (c.2 - c.1.length) ' ' ++ [' ', '|']).flatten

/-- A horizontal rule. -/
def ruleOf (corner bar : Char) (ns : List Nat) : List Char := [corner] ++ (ns.map fun n => List.replicate (n + 2) bar ++ [corner]).flatten

/-- The table: the columns are as wide as the records `all` need, the rows are the records `shown`. -/
def tableOf (w : World Key V Ty) (keys : List Key) (all shown : List Nat) (torn : Bool) : List (List Char) :=
  let ns := keys.map (colWidth w all)
  [ruleOf '+' '-' ns, lineOf (keys.map fun k => (k.name, colWidth w all k)), ruleOf '+' '-' ns] ++
    shown.map (fun r => lineOf (keys.map fun k => (textOf w r k, colWidth w all k))) ++
    [if torn = true then ruleOf '$' '~' ns else ruleOf '+' '-' ns]

/-- A reference through which the values of a record for the keys can be read. -/
def Readable (w : World Key V Ty) (keys : List Key) (ref : Ref) (r : Nat) : Prop :=
  ref.ptr = some r ∧ alive w r ∧ HasAll w keys r ∧ ∃ o vo, ref.vlt = some o ∧ w.getObj o = some vo ∧ ∀ k ∈ keys, ∃ c, mget vo.cols k = some c

theorem le_foldr_max {n : Nat} : ∀ {l : List Nat}, n ∈ l → n ≤ l.foldr max 0
  | m :: l, h => by
    simp only [List.foldr_cons]
    rcases List.mem_cons.mp h with rfl | h
    · exact Nat.le_max_left _ _
    · exact Nat.le_trans (le_foldr_max h) (Nat.le_max_right _ _)

theorem lineOf_length : ∀ (cells : List (List Char × Nat)), (∀ c ∈ cells, c.1.length ≤ c.2) → (lineOf cells).length = 1 + (cells.map fun c => c.2 + 3).sum
  | [], _ => rfl
  | c :: cells, h => by
    have ih := lineOf_length cells (fun c hc => h c (by simp [hc]))
    have hc := h c (by simp)
    unfold lineOf at ih ⊢
    simp only [List.map_cons, List.flatten_cons, List.length_append, List.length_cons, List.length_nil, List.length_replicate, List.sum_cons] at ih ⊢
    omega

theorem ruleOf_length (a b : Char) : ∀ (ns : List Nat), (ruleOf a b ns).length = 1 + (ns.map fun n => n + 3).sum
  | [] => rfl
  | n :: ns => by
    have ih := ruleOf_length a b ns
    unfold ruleOf at ih ⊢
    simp only [List.map_cons, List.flatten_cons, List.length_append, List.length_cons, List.length_nil, List.length_replicate, List.sum_cons] at ih ⊢
    omega

/-- All lines of the table have the same length, if the shown records are among those the widths were computed from. -/
theorem C61_aligned (w : World Key V Ty) (keys : List Key) (all shown : List Nat) (torn : Bool) (hsub : ∀ r ∈ shown, r ∈ all) :
    ∀ line ∈ tableOf w keys all shown torn, line.length = 1 + (keys.map fun k => colWidth w all k + 3).sum := by
  have hr : ∀ a b, (ruleOf a b (keys.map (colWidth w all))).length = 1 + (keys.map fun k => colWidth w all k + 3).sum := by
    intro a b; rw [ruleOf_length, List.map_map]; rfl
  intro line hl
  simp only [tableOf, List.mem_append, List.mem_cons, List.not_mem_nil, or_false, List.mem_map] at hl
  rcases hl with ((rfl | rfl | rfl) | ⟨r, hr', rfl⟩) | rfl
  · exact hr _ _
  · rw [lineOf_length, List.map_map]
    · rfl
    · intro c hc
      obtain ⟨k, _, rfl⟩ := List.mem_map.mp hc
      exact le_foldr_max (by simp)
  · exact hr _ _
  · rw [lineOf_length, List.map_map]
    · rfl
    · intro c hc
      obtain ⟨k, _, rfl⟩ := List.mem_map.mp hc
      exact le_foldr_max (List.mem_cons_of_mem _ (List.mem_map.mpr ⟨r, hsub r hr', rfl⟩))
  · cases torn <;> exact hr _ _

theorem widthLoop_eq {R : Type} {get : R → Key → List Char → Option (List Char)} {k : Key} {text : R → List Char} :
    ∀ (rs : List R), (∀ r ∈ rs, ∀ old, get r k old = some (text r)) → ∀ n old, ∃ t, widthLoop get k rs (n, old) = some (max n ((rs.map fun r => (text r).length).foldr max 0), t)
  | [], _, n, old => ⟨old, by simp [widthLoop]⟩
  | r :: rs, h, n, old => by
    obtain ⟨t, ht⟩ := widthLoop_eq rs (fun r hr => h r (by simp [hr])) (if (text r).length > n then (text r).length else n) (text r)
    refine ⟨t, ?_⟩
    simp only [widthLoop, h r (by simp), Option.bind_eq_bind, Option.bind_some, ht, List.map_cons, List.foldr_cons]
    congr 2
    split <;> omega

theorem widths_eq {R : Type} {get : R → Key → List Char → Option (List Char)} {text : R → Key → List Char} {rs : List R} :
    ∀ (ks : List Key), (∀ r ∈ rs, ∀ k ∈ ks, ∀ old, get r k old = some (text r k)) → ∀ old, ∃ t, widths get rs ks old =
      some (ks.map fun k => max k.name.length ((rs.map fun r => (text r k).length).foldr max 0), t)
  | [], _, old => ⟨old, rfl⟩
  | k :: ks, h, old => by
    obtain ⟨t, ht⟩ := widthLoop_eq (get := get) (k := k) (text := fun r => text r k) rs (fun r hr old => h r hr k (by simp) old) k.name.length old
    obtain ⟨t', ht'⟩ := widths_eq (get := get) (text := text) (rs := rs) ks (fun r hr k hk => h r hr k (by simp [hk])) t
    refine ⟨t', ?_⟩
    simp only [widths, ht, ht', Option.bind_eq_bind, Option.bind_some, List.map_cons]

theorem rowCells_eq {R : Type} {get : R → Key → List Char → Option (List Char)} {text : Key → List Char} {width : Key → Nat} {r : R} :
    ∀ (ks : List Key), (∀ k ∈ ks, ∀ old, get r k old = some (text k)) → ∀ old, ∃ t, rowCells get r ks (ks.map width) old =
      some ((ks.map fun k => [' '] ++ text k ++ List.replicate (width k - (text k).length) ' ' ++ [' ', '|']).flatten, t)
  | [], _, old => ⟨old, by simp [rowCells]⟩
  | k :: ks, h, old => by
    obtain ⟨t, ht⟩ := rowCells_eq (get := get) (text := text) (width := width) (r := r) ks (fun k hk => h k (by simp [hk])) (text k)
    refine ⟨t, ?_⟩
    simp only [List.map_cons, rowCells, h k (by simp), ht, Option.bind_eq_bind, Option.bind_some, List.flatten_cons, cell]
    simp

theorem rowLines_eq {R : Type} {get : R → Key → List Char → Option (List Char)} {idText : R → List Char} {text : R → Key → List Char} {width : Key → Nat} {ks : List Key} :
    ∀ (rs : List R), (∀ r ∈ rs, ∀ k ∈ ks, ∀ old, get r k old = some (text r k)) → ∀ old, rowLines get idText ks (ks.map width) rs old =
      some (rs.map fun r => lineOf (ks.map fun k => (text r k, width k)) ++ idText r)
  | [], _, old => rfl
  | r :: rs, h, old => by
    obtain ⟨t, ht⟩ := rowCells_eq (get := get) (text := text r) (width := width) (r := r) ks (fun k hk => h r (by simp) k hk) old
    simp only [rowLines, ht, rowLines_eq rs (fun r hr => h r (by simp [hr])) t, Option.bind_eq_bind, Option.bind_some, List.map_cons, lineOf, List.map_map]
    simp [Function.comp_def]

theorem rule_eq (a b : Char) (ns : List Nat) : rule a b ns = ruleOf a b ns := by
  unfold rule ruleOf
  simp only [List.flatMap_def, List.singleton_append, List.replicate_succ]
  congr 2
  refine List.map_congr_left fun n _ => ?_
  rw [show b :: List.replicate n b = List.replicate (n + 1) b from rfl, ← List.replicate_succ, List.replicate_succ' (n := n + 1)]
  simp [List.replicate_succ]

theorem headLine_eq (ks : List Key) (width : Key → Nat) :
    ('|' :: (ks.zip (ks.map width)).flatMap fun p => cell p.1.name p.2) = lineOf (ks.map fun k => (k.name, width k)) := by
  unfold lineOf cell
  rw [List.zip_map_right, List.flatMap_map]
  induction ks with
  | nil => rfl
  | cons k ks ih => simp at ih ⊢; exact ih

theorem refText_eq {w : World Key V Ty} {ref : Ref} {r : Nat} {keys : List Key} (h : Readable w keys ref r) {k : Key} (hk : k ∈ keys) (old : List Char) :
    refText w ref k old = some (textOf w r k) := by
  obtain ⟨h1, ⟨x, hx, hv⟩, h3, o, vo, h4, h5, h6⟩ := h
  obtain ⟨c, hc⟩ := h6 k hk
  obtain ⟨v, hval⟩ := h3 k hk
  have hval' : mget x.data k = some v := by unfold value at hval; rw [hx] at hval; exact hval
  simp only [refText, h1, h4, h5, hx, hv, hc, recText, Option.bind_eq_bind, Option.bind_some, Option.map_some, hval', textOf_eq hx hval']
  simp

theorem forall2_mem {α β : Type} {R : α → β → Prop} : ∀ {l : List α} {l' : List β}, List.Forall₂ R l l' → ∀ a ∈ l, ∃ b ∈ l', R a b
  | _, _, .nil, a, h => by cases h
  | _, _, .cons (b := b) h t, a, hm => by
    rcases List.mem_cons.mp hm with rfl | hm
    · exact ⟨b, by simp, h⟩
    · obtain ⟨b', hb', hr⟩ := forall2_mem t a hm
      exact ⟨b', by simp [hb'], hr⟩

/-- The record a reference of the container points at (specification). -/
def recordOf (ref : Ref) : Nat := ref.ptr.getD 0

theorem tableLines_eq (w : World Key V Ty) (ks : List Key) (all : List Nat) (shown : List (List Char)) (more : Bool) :
    tableLines ks (ks.map (colWidth w all)) shown more =
      [ruleOf '+' '-' (ks.map (colWidth w all)), lineOf (ks.map fun k => (k.name, colWidth w all k)), ruleOf '+' '-' (ks.map (colWidth w all))] ++ shown ++
        [if more = true then ruleOf '$' '~' (ks.map (colWidth w all)) else ruleOf '+' '-' (ks.map (colWidth w all))] := by
  unfold tableLines
  rw [headLine_eq, rule_eq, rule_eq]
  simp

/-- `PrintAsTable` with keys that can be read through every reference of the container: the lines of the table of its records in the order of
the container, as many as asked for, with a torn bottom rule exactly when fewer were asked for than there are. In every world. Missing for
the full claim: references without a live record or without one of the keys (`C61_refuted`), and an amount of 0
(`C61_refuted_zero`). -/
theorem C61_printAsTable_partial {w : World Key V Ty} {refs : List Ref} {keys : List Key} (hk : keys ≠ []) (hr : ∀ ref ∈ refs, Readable w keys ref (recordOf ref))
    {amount : Nat} (ha : 0 < amount) (hne : refs ≠ []) :
    printAsTable w refs (fun _ => []) amount keys =
      some (tableOf w keys (refs.map recordOf) ((refs.map recordOf).take amount) (decide (amount < refs.length))) := by
  obtain ⟨r0, rs, rfl⟩ := List.exists_cons_of_ne_nil hne
  generalize hR : r0 :: rs = refs at *
  have hread : ∀ ref ∈ refs, ∀ k ∈ keys, ∀ old, refText w ref k old = some (textOf w (recordOf ref) k) := fun ref hm k hk old => refText_eq (hr ref hm) hk old
  obtain ⟨t, ht⟩ := widths_eq (get := refText w) (text := fun ref k => textOf w (recordOf ref) k) (rs := refs) keys hread []
  have hw : (keys.map fun k => max k.name.length ((refs.map fun r => (textOf w (recordOf r) k).length).foldr max 0)) = keys.map (colWidth w (refs.map recordOf)) := by
    refine List.map_congr_left fun k _ => ?_
    unfold colWidth
    simp only [List.foldr_cons, List.map_map]
    rfl
  rw [hw] at ht
  have hrows := rowLines_eq (get := refText w) (idText := fun _ => []) (text := fun ref k => textOf w (recordOf ref) k) (width := colWidth w (refs.map recordOf)) (ks := keys)
    (refs.take amount) (fun r hr => hread r (List.mem_of_mem_take hr)) t
  subst hR
  simp only [printAsTable, if_neg hk, Option.bind_eq_bind, Option.bind_some, ht, if_neg (Nat.pos_iff_ne_zero.mp ha), hrows]
  rw [tableLines_eq, tableOf]
  simp only [List.append_nil, List.map_take, List.map_map]
  rfl

/-- Without explicit keys the keys of the first reference's vault or set are used. -/
theorem C61_default_keys {w : World Key V Ty} {ref : Ref} {refs : List Ref} {o : Nat} (hl : alive w (recordOf ref)) (hp : ref.ptr ≠ none) (ho : ref.vlt = some o)
    (hobj : isVault w o = true ∨ isSetObj w o = true) (hk : getKeys w o ≠ []) (idOf : Ref → List Char) (amount : Nat) :
    printAsTable w (ref :: refs) idOf amount [] = printAsTable w (ref :: refs) idOf amount (getKeys w o) := by
  obtain ⟨x, hx, hv⟩ := hl
  obtain ⟨vo, hvo⟩ : ∃ vo, w.getObj o = some vo := by
    rcases hobj with h | h
    · obtain ⟨vo, h, _⟩ := isVault_iff.mp h; exact ⟨vo, h⟩
    · obtain ⟨vo, h, _⟩ := isSetObj_iff.mp h; exact ⟨vo, h⟩
  obtain ⟨r, hr⟩ := Option.ne_none_iff_exists'.mp hp
  rw [recordOf, hr, Option.getD_some] at hx
  rw [getKeys_eq hvo] at hk ⊢
  simp only [printAsTable, refKeys, hr, hx, hv, ho, hvo, if_true, if_neg hk, Option.bind_eq_bind, Option.bind_some]

/-- The same for references to records of vaults, after an ordinary history: any keys their vaults have can be printed. -/
theorem C61_vault_records_partial {home : Nat → Nat} {w : World Key V Ty} (hw : HReach Ordinary home w) {refs : List Ref} {keys : List Key} (hk : keys ≠ [])
    (hr : ∀ ref ∈ refs, ∃ r o, ref = ⟨some r, some o⟩ ∧ isVault w o = true ∧ r ∈ members w o ∧ ∀ k ∈ keys, k ∈ getKeys w o)
    {amount : Nat} (ha : 0 < amount) (hne : refs ≠ []) :
    printAsTable w refs (fun _ => []) amount keys =
      some (tableOf w keys (refs.map recordOf) ((refs.map recordOf).take amount) (decide (amount < refs.length))) := by
  obtain ⟨own, hi⟩ := reach_inv hw
  refine C61_printAsTable_partial hk (fun ref hm => ?_) ha hne
  obtain ⟨r, o, rfl, hv, hmem, hkeys⟩ := hr ref hm
  obtain ⟨vo, hvo, hs⟩ := isVault_iff.mp hv
  have ok := hi.v.vok o vo hvo hs
  rw [members_eq hvo] at hmem
  refine ⟨rfl, (hi.v.mem o vo hvo hs r hmem).2, fun k hk => ?_, o, vo, rfl, hvo, fun k hk => ?_⟩
  · have := hkeys k hk
    rw [getKeys_eq hvo] at this
    obtain ⟨c, hc⟩ := (ok.keysM k).mp this
    obtain ⟨v, h, _⟩ := (ok.cols k c hc).typed r hmem
    exact ⟨v, h⟩
  · have := hkeys k hk
    rw [getKeys_eq hvo] at this
    exact (ok.keysM k).mp this

theorem colWidth_perm (w : World Key V Ty) {l l' : List Nat} (h : l.Perm l') : colWidth w l = colWidth w l' := by
  funext k
  unfold colWidth
  exact ((h.map _).cons _).foldr_eq _

/-- `Print` of a vault or set object whose records are alive, have a value for every key, and whose indices list only its records. -/
theorem print_obj {w : World Key V Ty} {o : Nat} {vo : Obj Key V Ty} (hvo : w.getObj o = some vo) (hmemR : ∀ r ∈ vo.recs, ∃ x, w.getRec r = some x ∧ x.valid = true)
    (hcols : ∀ k ∈ vo.keysOrder, ∃ c, mget vo.cols k = some c) (hvals : ∀ r ∈ vo.recs, HasAll w vo.keysOrder r)
    (hord : ∀ k c v r, mget vo.cols k = some c → (v, r) ∈ c.ord → r ∈ vo.recs) (hkeys : vo.keysOrder ≠ [])
    {keys : List Key} (hsub : ∀ k ∈ keys, k ∈ vo.keysOrder) (env : Env) (amount : Nat) (primary : Key) (rev : Bool) :
    ∃ ks key l, ks = (if keys = [] then vo.keysOrder else keys) ∧ (if primary = Key.of [] then ks.head? = some key else key = primary) ∧ SortedList w o key rev l ∧
      (∀ r ∈ l, r ∈ vo.recs) ∧
      vaultPrint env w o (fun _ => []) amount primary rev keys =
        some (tableOf w ks vo.recs (l.take amount) (decide (amount < vo.recs.length))) := by
  have hks : ∀ k ∈ (if keys = [] then vo.keysOrder else keys), k ∈ vo.keysOrder := by
    intro k hk
    split at hk
    · exact hk
    · exact hsub k hk
  have hks0 : (if keys = [] then vo.keysOrder else keys) ≠ [] := by split <;> assumption
  generalize hE : (if keys = [] then vo.keysOrder else keys) = ks at *
  have hcol : ∀ k ∈ ks, ∃ c, mget vo.cols k = some c := fun k hk => hcols k (hks k hk)
  have hall : ∀ r ∈ vo.recs, HasAll w ks r := by
    intro r hr k hk
    exact hvals r hr k (hks k hk)
  have hc0 : vo.cols ≠ [] := by
    intro e
    obtain ⟨k, rest, rfl⟩ := List.exists_cons_of_ne_nil hks0
    obtain ⟨c, hc⟩ := hcol k (by simp)
    rw [e] at hc; cases hc
  obtain ⟨key, hkey, hkey2⟩ : ∃ key, (if primary = Key.of [] then ks.head? else some primary) = some key ∧ (if primary = Key.of [] then ks.head? = some key else key = primary) := by
    obtain ⟨k, rest, rfl⟩ := List.exists_cons_of_ne_nil hks0
    by_cases hp : primary = Key.of []
    · exact ⟨k, by rw [if_pos hp]; rfl, by rw [if_pos hp]; rfl⟩
    · exact ⟨primary, by rw [if_neg hp], by rw [if_neg hp]⟩
  have hmem : ∀ r ∈ sortedIds vo key rev none, r ∈ vo.recs := by
    intro r hr
    obtain ⟨c, v, hc, hm⟩ := sortedIds_mem hr
    exact hord key c v r hc hm
  refine ⟨ks, key, sortedIds vo key rev none, rfl, hkey2, ⟨vo, hvo, rfl⟩, hmem, ?_⟩
  have hrec : ∀ r ∈ env.perm vo.recs, ∀ k ∈ ks, ∀ old, recText w r k old = some (textOf w r k) := by
    intro r hr k hk old
    have hr' := (env.isPerm _).mem_iff.mp hr
    obtain ⟨x, hx, _⟩ := hmemR r hr'
    obtain ⟨v, hval⟩ := hall r hr' k hk
    have hval' : mget x.data k = some v := by unfold value at hval; rw [hx] at hval; exact hval
    simp only [recText, hx, Option.map_some, hval', textOf_eq hx hval']
  obtain ⟨t, ht⟩ := widths_eq (get := recText w) (text := fun r k => textOf w r k) (rs := env.perm vo.recs) ks hrec []
  have hwid : (ks.map fun k => max k.name.length (((env.perm vo.recs).map fun r => (textOf w r k).length).foldr max 0)) = ks.map (colWidth w vo.recs) := by
    rw [← colWidth_perm w (env.isPerm vo.recs)]
    rfl
  rw [hwid] at ht
  have hrows := rowLines_eq (get := refText w) (idText := fun _ => []) (text := fun ref k => textOf w (recordOf ref) k) (width := colWidth w vo.recs) (ks := ks)
    (((sortedIds vo key rev none).take amount).map fun r => (⟨some r, some o⟩ : Ref)) (fun ref hm k hk old => by
      obtain ⟨r, hr1, rfl⟩ := List.mem_map.mp hm
      have hr' := hmem r (List.mem_of_mem_take hr1)
      exact refText_eq (keys := ks) ⟨rfl, hmemR r hr', hall r hr', o, vo, rfl, hvo, hcol⟩ hk old) t
  have htake := sortedIds_take vo key rev (some amount)
  dsimp only at htake
  have hlines : vaultPrint env w o (fun _ => []) amount primary rev keys = some (tableLines ks (ks.map (colWidth w vo.recs))
      ((((sortedIds vo key rev none).take amount).map fun r => (⟨some r, some o⟩ : Ref)).map fun ref =>
        lineOf (ks.map fun k => (textOf w (recordOf ref) k, colWidth w vo.recs k)) ++ []) (decide (amount < vo.recs.length))) := by
    unfold vaultPrint
    by_cases hp : primary = Key.of []
    · rw [if_pos hp] at hkey
      simp only [hvo, if_neg hc0, if_pos hp, Option.bind_eq_bind, Option.bind_some, hE, ht, hkey, htake, hrows]
    · rw [if_neg hp] at hkey
      cases hkey
      simp only [hvo, if_neg hc0, if_neg hp, Option.bind_eq_bind, Option.bind_some, hE, ht, htake, hrows]
  rw [hlines, tableLines_eq, tableOf]
  simp only [List.append_nil, List.map_map, recordOf, Option.getD_some, Function.comp_def]

/-- `Print` of a vault after an ordinary history, with keys of the vault (or none, which means all): the table of its records, sorted by the primary
key (by the first printed key if none is given) and cut off after `amount` rows. `l` is the sorted list of `C38`. Missing for the full
claim: histories that are not ordinary, sets, keys the vault does not have. -/
theorem C61_print_partial {home : Nat → Nat} {w : World Key V Ty} (hw : HReach Ordinary home w) {o : Nat} (hv : isVault w o = true) (hkeys : getKeys w o ≠ [])
    {keys : List Key} (hsub : ∀ k ∈ keys, k ∈ getKeys w o) (env : Env) (amount : Nat) (primary : Key) (rev : Bool) :
    ∃ ks key l, ks = (if keys = [] then getKeys w o else keys) ∧ (if primary = Key.of [] then ks.head? = some key else key = primary) ∧ SortedList w o key rev l ∧
      (∀ r ∈ l, r ∈ members w o) ∧
      vaultPrint env w o (fun _ => []) amount primary rev keys =
        some (tableOf w ks (members w o) (l.take amount) (decide (amount < (members w o).length))) := by
  obtain ⟨own, hi⟩ := reach_inv hw
  obtain ⟨vo, hvo, hs⟩ := isVault_iff.mp hv
  have ok := hi.v.vok o vo hvo hs
  rw [members_eq hvo]
  rw [getKeys_eq hvo] at hkeys hsub ⊢
  refine print_obj hvo (fun r hr => (hi.v.mem o vo hvo hs r hr).2) (fun k hk => (ok.keysM k).mp hk) ?_ (fun k c v r hc hm => ((ok.cols k c hc).ordS v r hm).1) hkeys hsub env
    amount primary rev
  intro r hr k hk
  obtain ⟨c, hc⟩ := (ok.keysM k).mp hk
  obtain ⟨v, h, _⟩ := (ok.cols k c hc).typed r hr
  exact ⟨v, h⟩

/-! ### Concrete cases -/

/-- `ToStrings` of the vault of `jsonW`, records in reverse order. -/
example : vaultToStrings Env.rev jsonW 0 = some [[(kFlag, "false".toList), (kName, "x".toList)], [(kFlag, "true".toList), (kName, "Ann, Bo".toList)]] := by decide

example : ∃ order : List Nat, order.Perm (members jsonW 0) ∧ vaultToStrings Env.rev jsonW 0 = some (order.map (entry jsonW (getKeys jsonW 0))) ∧
    ∀ r ∈ members jsonW 0, HasAll jsonW (getKeys jsonW 0) r := C60_vault_defined jsonW_reach (by decide) _

example : refToStrings jsonW 0 = some [(kFlag, "true".toList), (kName, "Ann, Bo".toList)] := by decide

/-- A set with one record. -/
example : ∃ w : World Key Val VTy, HReach Ordinary (fun _ => 0) w ∧ setToStrings Env.id w 1 = some [[(kFlag, "true".toList), (kName, "Ann, Bo".toList)]] :=
  ⟨(fileRun (jsonOps ++ [.newSet, .request 0 .Equal kFlag (.bool true) (.bool true) false false none (fun _ => true) 1])).getD World.empty,
    fileRun_reach (l := jsonOps ++ [.newSet, .request 0 .Equal kFlag (.bool true) (.bool true) false false none (fun _ => true) 1]) rfl, by decide⟩

/-- A table with a torn bottom rule: `Print(false, 1, "name", true)`. -/
example : vaultPrint Env.id jsonW 0 (fun _ => []) 1 kName true [] = some ["+-------+---------+".toList, "| flag  | name    |".toList, "+-------+---------+".toList,
    "| false | x       |".toList, "$~~~~~~~$~~~~~~~~~$".toList] := by decide

/-- The hypotheses of `C61_vault_records_partial` hold. -/
example : printAsTable jsonW [⟨some 1, some 0⟩, ⟨some 0, some 0⟩] (fun _ => []) 7 [kFlag, kName] = some (tableOf jsonW [kFlag, kName] [1, 0] [1, 0] false) :=
  C61_vault_records_partial jsonW_reach (by decide) (by
    intro ref hm
    simp only [List.mem_cons, List.not_mem_nil, or_false] at hm
    rcases hm with rfl | rfl
    · exact ⟨1, 0, rfl, by decide, by decide, by decide⟩
    · exact ⟨0, 0, rfl, by decide, by decide, by decide⟩) (by decide) (by decide)

example : tableOf jsonW [kFlag, kName] [1, 0] [1, 0] false = ["+-------+---------+".toList, "| flag  | name    |".toList, "+-------+---------+".toList,
    "| false | x       |".toList, "| true  | Ann, Bo |".toList, "+-------+---------+".toList] := by decide

/-- A container with a reference to a record that has been erased meanwhile. -/
def staleOps : List (Op Key Val VTy) := jsonOps ++ [.newRef, .getRecord 0 kFlag (.bool false) 1, .eraseRef 0 1]
def staleW : World Key Val VTy := (fileRun staleOps).getD World.empty

/-- For the erased record the table shows the last text printed before, in every column; it need not fit, so the lines are not aligned. -/
theorem C61_refuted : ∃ w : World Key Val VTy, HReach Ordinary (fun _ => 0) w ∧ (∀ f ∈ [0, 1], (w.refs[f]?).isSome) ∧ refIsValid w 1 = some false ∧
    ∃ lines, printAsTable w w.refs (fun _ => []) 7 [] = some lines ∧ "| Ann, Bo | Ann, Bo |".toList ∈ lines ∧ ∃ l ∈ lines, ∃ l' ∈ lines, l.length ≠ l'.length :=
  ⟨staleW, fileRun_reach (l := staleOps) rfl, by decide, by decide, ["+------+---------+".toList, "| flag | name    |".toList, "+------+---------+".toList,
    "| true | Ann, Bo |".toList, "| Ann, Bo | Ann, Bo |".toList, "+------+---------+".toList], by decide, by decide, by decide⟩

/-- With an amount of 0 all records are printed, yet the bottom rule is torn. -/
theorem C61_refuted_zero : ∃ w : World Key Val VTy, HReach Ordinary (fun _ => 0) w ∧
    printAsTable w [⟨some 1, some 0⟩, ⟨some 0, some 0⟩] (fun _ => []) 0 [] = some (tableOf w (getKeys w 0) [1, 0] [1, 0] true) :=
  ⟨jsonW, jsonW_reach, by decide⟩

end MVault.W
