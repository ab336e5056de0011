import Verif.PropsKeys
/-
C13, C15, C16, C45, C47, C49: creating records and writing their values.
-/
set_option linter.unusedSectionVars false
set_option linter.unusedSimpArgs false
namespace MVault.W
variable {K V Ty : Type} [LinearOrder K] [LinearOrder V] [Typed V Ty] [DecidableEq Ty]

/-! ### C13 -/

/-- The value a new record is to have (specification): the last one given for the key, otherwise the current default. -/
def newValue (w : World K V Ty) (o : Nat) (ps : List (K × V)) (k : K) : Option V :=
  match lastParam ps k with | some v => some v | none => getDefault w o k

/-- A successful `CreateRecord`, after any history: exactly one record is added, it is new and valid, the reference points at
it, its value for each key is the last one given for the key and otherwise the key's current default, and no other record,
vault or set changes. -/
theorem C13_createRecord {G : World K V Ty → Op K V Ty → Prop} {w w' : World K V Ty} (hw : Reach G w) {o f : Nat} (ho : isVault w o = true)
    {ps : List (K × V)} {res : Res K} (h : createRecord w o f ps = some (w', res)) (hok : res.ok = true) :
    ∃ r, ¬ allocated w r ∧ (∀ o', r ∉ members w o') ∧ members w' o = members w o ++ [r] ∧ alive w' r ∧
      target w' f = some r ∧ through w' f = some o ∧ (∀ f', f' ≠ f → target w' f' = target w f' ∧ through w' f' = through w f') ∧
      (∀ k, value w' r k = newValue w o ps k) ∧
      (∀ r', r' ≠ r → (alive w' r' ↔ alive w r')) ∧ (∀ r', alive w r' → ∀ k, value w' r' k = value w r' k) ∧
      (∀ o', o' ≠ o → members w' o' = members w o') := by
  have hi := reach_ai hw
  obtain ⟨vo, hvo, hs⟩ := isVault_iff.mp ho
  simp only [createRecord, hvo, Option.bind_eq_bind, Option.bind_some] at h
  split at h
  · rename_i e he; cases h
    exfalso
    have : ∀ (l d : List (K × V)) (e : Res K), applyParams vo l d = .error e → e.ok = false := by
      intro l; induction l with
      | nil => intro d e h; cases h
      | cons p l ih =>
        intro d e h
        simp only [applyParams] at h
        split at h
        · cases h; rfl
        · split at h
          · exact ih _ _ h
          · cases h; rfl
    rw [this _ _ _ he] at hok; cases hok
  · rename_i data hd
    simp only [Option.bind_eq_some_iff, Prod.exists] at h
    obtain ⟨w1, out, h1, h⟩ := h
    simp only [insertRecord, hvo, Option.bind_eq_bind, Option.bind_some, Option.bind_eq_some_iff, Prod.exists] at h1
    obtain ⟨cols, clash, h2, h1⟩ := h1
    split at h1
    · cases h1; cases h; cases hok
    · cases h1
      simp only [Option.map_eq_some_iff, Prod.mk.injEq] at h
      obtain ⟨w3, h3, rfl, rfl⟩ := h
      obtain ⟨rf, hr, hl, _⟩ := setRecord_rf h3
      have hfresh : w.getRec w.nextR = none := by
        cases hx : w.getRec w.nextR with
        | none => rfl
        | some x => have := hi.recB _ _ hx; omega
      have hal : ∀ r', r' ≠ w.nextR → (mget (mput w.recs w.nextR (⟨data, true, 0, []⟩ : Rec K V)) r') = w.getRec r' := by
        intro r' hne; rw [mget_mput, if_neg (Ne.symm hne)]; rfl
      have hself : alive (({ w with recs := mput w.recs w.nextR ⟨data, true, 0, []⟩, nextR := w.nextR + 1 } : World K V Ty).putObj o
          { vo with cols := addCols cols data w.nextR, recs := vo.recs ++ [w.nextR] }) w.nextR :=
        ⟨⟨data, true, 0, []⟩, by show mget (mput w.recs w.nextR _) w.nextR = _; simp [mget_mput], rfl⟩
      have hlt : f < w.refs.length := hl
      refine ⟨w.nextR, ?_, ?_, ?_, (rf.alive _).mpr hself, ?_, ?_, ?_, ?_, ?_, ?_, ?_⟩
      · rintro ⟨x, hx⟩; rw [hfresh] at hx; cases hx
      · intro o' hm
        unfold members at hm
        split at hm
        · rename_i x hx
          have := (hi.obj o' x hx).recs _ hm; omega
        · cases hm
      · rw [rf.members, members_eq (getObj_putObj_self _ _ _), members_eq hvo]
      · simp [target, hr, hlt, World.putObj]
      · simp [through, hr, hlt, World.putObj]
      · intro f' hne
        have : w3.refs[f']? = w.refs[f']? := by rw [hr]; simp [World.putObj, List.getElem?_set, Ne.symm hne]
        simp [target, through, this]
      · intro k
        rw [rf.value hself]
        refine Eq.trans ?_ (Eq.trans (applyParams_val hd k) (by unfold newValue; rw [getDefault_eq hvo]; cases lastParam ps k <;> rfl))
        show (mget (mput w.recs w.nextR _) w.nextR).bind _ = _
        simp [mget_mput]
      · intro r' hne
        rw [rf.alive]
        unfold alive
        show (∃ x, mget (mput w.recs w.nextR _) r' = some x ∧ _) ↔ _
        rw [hal r' hne]
      · intro r' ha k
        have hne : r' ≠ w.nextR := by
          rintro rfl; obtain ⟨x, hx, _⟩ := ha; rw [hfresh] at hx; cases hx
        have hv : value (({ w with recs := mput w.recs w.nextR ⟨data, true, 0, []⟩, nextR := w.nextR + 1 } : World K V Ty).putObj o
          { vo with cols := addCols cols data w.nextR, recs := vo.recs ++ [w.nextR] }) r' k = value w r' k := by
          show (mget (mput w.recs w.nextR _) r').bind _ = _
          rw [hal r' hne]; rfl
        rw [rf.value _ k, hv]
        obtain ⟨x, hx, hxv⟩ := ha
        exact ⟨x, by show mget (mput w.recs w.nextR _) r' = _; rw [hal r' hne]; exact hx, hxv⟩
      · intro o' hne
        rw [rf.members]
        unfold members
        rw [show (({ w with recs := mput w.recs w.nextR ⟨data, true, 0, []⟩, nextR := w.nextR + 1 } : World K V Ty).putObj o
          { vo with cols := addCols cols data w.nextR, recs := vo.recs ++ [w.nextR] }).getObj o' = w.getObj o' from
          by unfold World.getObj World.putObj; simp only; rw [mget_mput, if_neg (Ne.symm hne)]]

/-- Key 1 given twice, key 2 given once, key 3 (added here) not given. -/
example : ∃ w w' : DW, demo (demoOps ++ [.addKey 0 3 4]) = some w ∧ isVault w 0 = true ∧
    createRecord w 0 2 [(1, 9), (2, 1), (1, 2)] = some (w', .good (some 1)) ∧ members w' 0 = [0, 1, 2] ∧
    value w' 2 1 = some 2 ∧ value w' 2 2 = some 1 ∧ value w' 2 3 = some 4 ∧ target w' 2 = some 2 := ⟨_, _, rfl, by decide, rfl, by decide, by decide, by decide, by decide, by decide⟩

/-- The same for `CreateRecord` without a reference: no reference changes. -/
theorem C13_createRow {G : World K V Ty → Op K V Ty → Prop} {w w' : World K V Ty} (hw : Reach G w) {o : Nat} (ho : isVault w o = true)
    {ps : List (K × V)} {res : Res K} (h : createRow w o ps = some (w', res)) (hok : res.ok = true) :
    ∃ r, ¬ allocated w r ∧ (∀ o', r ∉ members w o') ∧ members w' o = members w o ++ [r] ∧ alive w' r ∧
      (∀ f', target w' f' = target w f' ∧ through w' f' = through w f') ∧
      (∀ k, value w' r k = newValue w o ps k) ∧
      (∀ r', r' ≠ r → (alive w' r' ↔ alive w r')) ∧ (∀ r', alive w r' → ∀ k, value w' r' k = value w r' k) ∧
      (∀ o', o' ≠ o → members w' o' = members w o') := by
  have hi := reach_ai hw
  obtain ⟨vo, hvo, hs⟩ := isVault_iff.mp ho
  simp only [createRow, hvo, Option.bind_eq_bind, Option.bind_some] at h
  split at h
  · rename_i e he; cases h
    exfalso
    have : ∀ (l d : List (K × V)) (e : Res K), applyParams vo l d = .error e → e.ok = false := by
      intro l; induction l with
      | nil => intro d e h; cases h
      | cons p l ih =>
        intro d e h
        simp only [applyParams] at h
        split at h
        · cases h; rfl
        · split at h
          · exact ih _ _ h
          · cases h; rfl
    rw [this _ _ _ he] at hok; cases hok
  · rename_i data hd
    simp only [Option.bind_eq_some_iff, Prod.exists] at h
    obtain ⟨w1, out, h1, h⟩ := h
    simp only [insertRecord, hvo, Option.bind_eq_bind, Option.bind_some, Option.bind_eq_some_iff, Prod.exists] at h1
    obtain ⟨cols, clash, h2, h1⟩ := h1
    split at h1
    · cases h1; cases h; cases hok
    · cases h1
      cases h
      have hfresh : w.getRec w.nextR = none := by
        cases hx : w.getRec w.nextR with
        | none => rfl
        | some x => have := hi.recB _ _ hx; omega
      have hal : ∀ r', r' ≠ w.nextR → (mget (mput w.recs w.nextR (⟨data, true, 0, []⟩ : Rec K V)) r') = w.getRec r' := by
        intro r' hne; rw [mget_mput, if_neg (Ne.symm hne)]; rfl
      have hself : alive (({ w with recs := mput w.recs w.nextR ⟨data, true, 0, []⟩, nextR := w.nextR + 1 } : World K V Ty).putObj o
          { vo with cols := addCols cols data w.nextR, recs := vo.recs ++ [w.nextR] }) w.nextR :=
        ⟨⟨data, true, 0, []⟩, by show mget (mput w.recs w.nextR _) w.nextR = _; simp [mget_mput], rfl⟩
      refine ⟨w.nextR, ?_, ?_, ?_, hself, ?_, ?_, ?_, ?_, ?_⟩
      · rintro ⟨x, hx⟩; rw [hfresh] at hx; cases hx
      · intro o' hm
        unfold members at hm
        split at hm
        · rename_i x hx
          have := (hi.obj o' x hx).recs _ hm; omega
        · cases hm
      · rw [members_eq (getObj_putObj_self _ _ _), members_eq hvo]
      · intro f'; exact ⟨rfl, rfl⟩
      · intro k
        refine Eq.trans ?_ (Eq.trans (applyParams_val hd k) (by unfold newValue; rw [getDefault_eq hvo]; cases lastParam ps k <;> rfl))
        show (mget (mput w.recs w.nextR _) w.nextR).bind _ = _
        simp [mget_mput]
      · intro r' hne
        unfold alive
        show (∃ x, mget (mput w.recs w.nextR _) r' = some x ∧ _) ↔ _
        rw [hal r' hne]
      · intro r' ha k
        have hne : r' ≠ w.nextR := by
          rintro rfl; obtain ⟨x, hx, _⟩ := ha; rw [hfresh] at hx; cases hx
        have hv : value (({ w with recs := mput w.recs w.nextR ⟨data, true, 0, []⟩, nextR := w.nextR + 1 } : World K V Ty).putObj o
          { vo with cols := addCols cols data w.nextR, recs := vo.recs ++ [w.nextR] }) r' k = value w r' k := by
          show (mget (mput w.recs w.nextR _) r').bind _ = _
          rw [hal r' hne]; rfl
        exact hv
      · intro o' hne
        unfold members
        rw [show (({ w with recs := mput w.recs w.nextR ⟨data, true, 0, []⟩, nextR := w.nextR + 1 } : World K V Ty).putObj o
          { vo with cols := addCols cols data w.nextR, recs := vo.recs ++ [w.nextR] }).getObj o' = w.getObj o' from
          by unfold World.getObj World.putObj; simp only; rw [mget_mput, if_neg (Ne.symm hne)]]

/-- Key 1 given twice, key 2 once, key 3 (added here) not given. -/
example : ∃ w w' : DW, demo (demoOps ++ [.addKey 0 3 4]) = some w ∧ isVault w 0 = true ∧
    createRow w 0 [(1, 9), (2, 1), (1, 2)] = some (w', .good (some 1)) ∧ members w' 0 = [0, 1, 2] ∧
    value w' 2 1 = some 2 ∧ value w' 2 2 = some 1 ∧ value w' 2 3 = some 4 := ⟨_, _, rfl, by decide, rfl, by decide, by decide, by decide, by decide⟩

/-! ### C15 -/

/-- The first refused parameter and the reason (specification). -/
def firstBad (w : World K V Ty) (o : Nat) (ps : List (K × V)) : Option (Code × K) :=
  ps.findSome? fun p => (badParam w o p).map fun c => (c, p.1)

/-- Some record of the vault already holds the value the new record is to have for the key (specification). -/
def clashes (w : World K V Ty) (o : Nat) (ps : List (K × V)) (k : K) : Prop := ∃ r ∈ members w o, value w r k = newValue w o ps k

/-- A failing `CreateRecord` changes nothing at all, and says why: the first parameter with an unknown key (`WrongKey`) or a
value of the wrong type (`WrongType`); when all parameters are good, the smallest unique key (`GetUniqueKeys` is ordered) for
which some record already holds the new record's value (`UniqueKeyValueAlredyInSet`). It succeeds exactly when there is
neither. Missing for the full claim: histories with operations that are not ordinary, where it is false (`C15_refuted`). -/
theorem C15_createRecord_partial {home : Nat → Nat} {w w' : World K V Ty} (hw : HReach Ordinary home w) {o f : Nat} (ho : isVault w o = true)
    {ps : List (K × V)} {res : Res K} (h : createRecord w o f ps = some (w', res)) :
    (res.ok = false → w' = w) ∧
    (∀ c k, firstBad w o ps = some (c, k) → res = .bad c (some k)) ∧
    (firstBad w o ps = none →
      (∀ k ∈ getUniqueKeys w o, clashes w o ps k → (∀ k' ∈ getUniqueKeys w o, k' < k → ¬ clashes w o ps k') →
        res = .bad .UniqueKeyValueAlredyInSet (some k)) ∧
      ((∀ k ∈ getUniqueKeys w o, ¬ clashes w o ps k) → res = .good (ps.getLast?.map (·.1)))) := by
  obtain ⟨own, hi⟩ := reach_inv hw
  obtain ⟨vo, hvo, hs⟩ := isVault_iff.mp ho
  have ok := hi.v.vok o vo hvo hs
  have hty : ∀ k, (mget vo.tmpl k).map typeOf = getKeyType w o k := by
    intro k
    rw [getKeyType_eq hvo]
    cases hk : mget vo.cols k with
    | none => rw [ok.tmplN k hk]; rfl
    | some c => obtain ⟨v, hv, ht⟩ := ok.tmplT k c hk; rw [hv]; simp [ht]
  have hbad : ∀ p, badParam w o p = none ↔ getKeyType w o p.1 = some (typeOf p.2) := by
    intro p; unfold badParam
    cases getKeyType w o p.1 with
    | none => simp
    | some t => simp
  have hcl : ∀ data, applyParams vo ps vo.tmpl = .ok data → ∀ k, clashes w o ps k ↔ ∃ r ∈ vo.recs, cellOf w r k = mget data k := by
    intro data hd k
    have : mget data k = newValue w o ps k := Eq.trans (applyParams_val hd k) (by unfold newValue; rw [getDefault_eq hvo]; cases lastParam ps k <;> rfl)
    simp only [clashes, this, members_eq hvo]; exact Iff.rfl
  have hu : getUniqueKeys w o = vo.uniq := getUniqueKeys_eq hvo
  rw [hu]
  have hcases := applyParams_cases (vo := vo) hty ps
  have hfb : (∃ d, applyParams vo ps vo.tmpl = .ok d) ∧ firstBad w o ps = none ∨
      ∃ c k, applyParams vo ps vo.tmpl = .error (.bad c (some k)) ∧ firstBad w o ps = some (c, k) := by
    rcases hcases with ⟨pre, p, post, f1, f2, f3⟩ | ⟨f1, f2⟩
    · right
      have hpre : (pre.findSome? fun p => (badParam w o p).map fun c => (c, p.1)) = none := by
        rw [List.findSome?_eq_none_iff]
        intro q hq; rw [(hbad q).mpr (f2 q hq)]; rfl
      rcases f3 with ⟨g1, g2⟩ | ⟨t, g1, g2, g3⟩
      · refine ⟨_, _, g2, ?_⟩
        unfold firstBad; rw [f1, List.findSome?_append, hpre]
        simp [badParam, g1]
      · refine ⟨_, _, g3, ?_⟩
        unfold firstBad; rw [f1, List.findSome?_append, hpre]
        simp [badParam, g1, g2]
    · left
      refine ⟨f2, ?_⟩
      unfold firstBad
      rw [List.findSome?_eq_none_iff]
      intro q hq; rw [(hbad q).mpr (f1 q hq)]; rfl
  rcases createRecord_spec hi hvo hs h with ⟨rfl, he⟩ | ⟨data, k, rfl, hd, rfl, hk, hc, hle⟩ | ⟨data, w1, cols, hd, rfl, hno, _⟩
  · refine ⟨fun _ => rfl, ?_, ?_⟩
    · intro c k hf
      rcases hfb with ⟨_, e⟩ | ⟨c', k', e1, e2⟩
      · rw [e] at hf; cases hf
      · rw [e2] at hf; cases hf; rw [e1] at he; cases he; rfl
    · intro hf
      rcases hfb with ⟨⟨d, e⟩, _⟩ | ⟨c', k', e1, e2⟩
      · rw [e] at he; cases he
      · rw [e2] at hf; cases hf
  · have hn : firstBad w' o ps = none := by
      rcases hfb with ⟨_, e⟩ | ⟨c', k', e1, _⟩
      · exact e
      · rw [hd] at e1; cases e1
    refine ⟨fun _ => rfl, (fun c k hf => by rw [hn] at hf; cases hf), fun _ => ⟨?_, ?_⟩⟩
    · intro k' hk' hc' hmin
      rw [hcl data hd] at hc'
      rcases lt_trichotomy k k' with hlt | rfl | hlt
      · exact absurd ((hcl data hd k).mpr hc) (hmin k hk hlt)
      · rfl
      · obtain ⟨r, hr, hv⟩ := hc'
        exact absurd hv (hle k' hk' hlt r hr)
    · intro hno
      exact absurd ((hcl data hd k).mpr hc) (hno k hk)
  · have hn : firstBad w o ps = none := by
      rcases hfb with ⟨_, e⟩ | ⟨c', k', e1, _⟩
      · exact e
      · rw [hd] at e1; cases e1
    refine ⟨fun e => (by cases e), (fun c k hf => by rw [hn] at hf; cases hf), fun _ => ⟨?_, fun _ => rfl⟩⟩
    intro k' hk' hc' _
    obtain ⟨r, hr, hv⟩ := (hcl data hd k').mp hc'
    exact absurd hv (hno k' hk' r hr)

/-- The same for `CreateRecord` without a reference. -/
theorem C15_createRow_partial {home : Nat → Nat} {w w' : World K V Ty} (hw : HReach Ordinary home w) {o : Nat} (ho : isVault w o = true)
    {ps : List (K × V)} {res : Res K} (h : createRow w o ps = some (w', res)) :
    (res.ok = false → w' = w) ∧
    (∀ c k, firstBad w o ps = some (c, k) → res = .bad c (some k)) ∧
    (firstBad w o ps = none →
      (∀ k ∈ getUniqueKeys w o, clashes w o ps k → (∀ k' ∈ getUniqueKeys w o, k' < k → ¬ clashes w o ps k') →
        res = .bad .UniqueKeyValueAlredyInSet (some k)) ∧
      ((∀ k ∈ getUniqueKeys w o, ¬ clashes w o ps k) → res = .good (ps.getLast?.map (·.1)))) := by
  obtain ⟨own, hi⟩ := reach_inv hw
  obtain ⟨vo, hvo, hs⟩ := isVault_iff.mp ho
  have ok := hi.v.vok o vo hvo hs
  have hty : ∀ k, (mget vo.tmpl k).map typeOf = getKeyType w o k := by
    intro k
    rw [getKeyType_eq hvo]
    cases hk : mget vo.cols k with
    | none => rw [ok.tmplN k hk]; rfl
    | some c => obtain ⟨v, hv, ht⟩ := ok.tmplT k c hk; rw [hv]; simp [ht]
  have hbad : ∀ p, badParam w o p = none ↔ getKeyType w o p.1 = some (typeOf p.2) := by
    intro p; unfold badParam
    cases getKeyType w o p.1 with
    | none => simp
    | some t => simp
  have hcl : ∀ data, applyParams vo ps vo.tmpl = .ok data → ∀ k, clashes w o ps k ↔ ∃ r ∈ vo.recs, cellOf w r k = mget data k := by
    intro data hd k
    have : mget data k = newValue w o ps k := Eq.trans (applyParams_val hd k) (by unfold newValue; rw [getDefault_eq hvo]; cases lastParam ps k <;> rfl)
    simp only [clashes, this, members_eq hvo]; exact Iff.rfl
  have hu : getUniqueKeys w o = vo.uniq := getUniqueKeys_eq hvo
  rw [hu]
  have hcases := applyParams_cases (vo := vo) hty ps
  have hfb : (∃ d, applyParams vo ps vo.tmpl = .ok d) ∧ firstBad w o ps = none ∨
      ∃ c k, applyParams vo ps vo.tmpl = .error (.bad c (some k)) ∧ firstBad w o ps = some (c, k) := by
    rcases hcases with ⟨pre, p, post, f1, f2, f3⟩ | ⟨f1, f2⟩
    · right
      have hpre : (pre.findSome? fun p => (badParam w o p).map fun c => (c, p.1)) = none := by
        rw [List.findSome?_eq_none_iff]
        intro q hq; rw [(hbad q).mpr (f2 q hq)]; rfl
      rcases f3 with ⟨g1, g2⟩ | ⟨t, g1, g2, g3⟩
      · refine ⟨_, _, g2, ?_⟩
        unfold firstBad; rw [f1, List.findSome?_append, hpre]
        simp [badParam, g1]
      · refine ⟨_, _, g3, ?_⟩
        unfold firstBad; rw [f1, List.findSome?_append, hpre]
        simp [badParam, g1, g2]
    · left
      refine ⟨f2, ?_⟩
      unfold firstBad
      rw [List.findSome?_eq_none_iff]
      intro q hq; rw [(hbad q).mpr (f1 q hq)]; rfl
  rcases createRow_spec hi hvo hs h with ⟨rfl, he⟩ | ⟨data, k, rfl, hd, rfl, hk, hc, hle⟩ | ⟨data, w1, cols, hd, rfl, hno, _⟩
  · refine ⟨fun _ => rfl, ?_, ?_⟩
    · intro c k hf
      rcases hfb with ⟨_, e⟩ | ⟨c', k', e1, e2⟩
      · rw [e] at hf; cases hf
      · rw [e2] at hf; cases hf; rw [e1] at he; cases he; rfl
    · intro hf
      rcases hfb with ⟨⟨d, e⟩, _⟩ | ⟨c', k', e1, e2⟩
      · rw [e] at he; cases he
      · rw [e2] at hf; cases hf
  · have hn : firstBad w' o ps = none := by
      rcases hfb with ⟨_, e⟩ | ⟨c', k', e1, _⟩
      · exact e
      · rw [hd] at e1; cases e1
    refine ⟨fun _ => rfl, (fun c k hf => by rw [hn] at hf; cases hf), fun _ => ⟨?_, ?_⟩⟩
    · intro k' hk' hc' hmin
      rw [hcl data hd] at hc'
      rcases lt_trichotomy k k' with hlt | rfl | hlt
      · exact absurd ((hcl data hd k).mpr hc) (hmin k hk hlt)
      · rfl
      · obtain ⟨r, hr, hv⟩ := hc'
        exact absurd hv (hle k' hk' hlt r hr)
    · intro hno
      exact absurd ((hcl data hd k).mpr hc) (hno k hk)
  · have hn : firstBad w o ps = none := by
      rcases hfb with ⟨_, e⟩ | ⟨c', k', e1, _⟩
      · exact e
      · rw [hd] at e1; cases e1
    refine ⟨fun e => (by cases e), (fun c k hf => by rw [hn] at hf; cases hf), fun _ => ⟨?_, fun _ => rfl⟩⟩
    intro k' hk' hc' _
    obtain ⟨r, hr, hv⟩ := (hcl data hd k').mp hc'
    exact absurd hv (hno k' hk' r hr)

/-- A wrong key after a wrong type, a clash on key 2, and a success. -/
example : isVault demoW 0 = true ∧ firstBad demoW 0 [(1, 9), (2, 100), (7, 1)] = some (.WrongType, 2) ∧
    createRecord demoW 0 2 [(1, 9), (2, 100), (7, 1)] = some (demoW, .bad .WrongType (some 2)) ∧
    firstBad demoW 0 [(2, 8)] = none ∧ clashes demoW 0 [(2, 8)] 2 ∧ createRecord demoW 0 2 [(2, 8)] = some (demoW, .bad .UniqueKeyValueAlredyInSet (some 2)) ∧
    ¬ clashes demoW 0 [(2, 9)] 2 := by
  refine ⟨by decide, by decide, rfl, by decide, ⟨1, by decide, by decide⟩, rfl, ?_⟩
  rintro ⟨r, hr, hv⟩
  have : members demoW 0 = [0, 1] := by decide
  rw [this] at hr
  rcases List.mem_cons.mp hr with rfl | hr
  · revert hv; decide
  · rw [List.mem_singleton] at hr; subst hr; revert hv; decide

/-- Without the restriction to ordinary operations a failing `CreateRecord` can damage an index. Vault 1 is a copy of vault 0,
which has unique key 2; in the copy records 2 and 3 get the same value 8 for key 2 (see C37). A unique key 3 is then added to
the copy, and creating a record with the values 8 and 1 for keys 2 and 3 fails on key 3, after which `GetSortedRecords(2)` no
longer lists records 2 and 3. -/
theorem C15_refuted : ∃ (w w' w1 w2 : DW), Reach (fun _ _ => True) w ∧ isVault w 1 = true ∧
    createRecord w 1 0 [(2, 8), (3, 1)] = some (w', .bad .UniqueKeyValueAlredyInSet (some 3)) ∧
    getSorted w 1 2 false none = some w1 ∧ getSorted w' 1 2 false none = some w2 ∧ w1.refs.length = w.refs.length + 2 ∧ w2.refs.length = w'.refs.length := by
  refine ⟨_, _, _, _, anyRun_reach (l := [.newVault, .addUniqueKey 0 2 false true (fun _ _ _ => 0), .newRef, .newRef,
    .createRecord 0 0 [(2, 7)], .createRecord 0 1 [(2, 8)], .vaultCopyNew 0, .getRecord 1 2 7 0, .refSetData 0 2 8,
    .addUniqueKey 1 3 false false (fun _ i _ => i)]) rfl, ?_, rfl, rfl, rfl, ?_, ?_⟩ <;> decide

/-! ### C16 -/

/-- Nothing but indices differs. -/
structure IndexOnly (w w' : World K V Ty) : Prop where
  recs : w'.recs = w.recs
  refs : w'.refs = w.refs
  objTo : ∀ o x, w.getObj o = some x → ∃ cols, w'.getObj o = some { x with cols := cols } ∧ ∀ k, (mget cols k).map Col.sig = (mget x.cols k).map Col.sig
  objOf : ∀ o, w.getObj o = none → w'.getObj o = none

theorem IndexOnly.refl (w : World K V Ty) : IndexOnly w w := ⟨rfl, rfl, fun _ x h => ⟨x.cols, h, fun _ => rfl⟩, fun _ h => h⟩

theorem IndexOnly.trans {a b c : World K V Ty} (h1 : IndexOnly a b) (h2 : IndexOnly b c) : IndexOnly a c where
  recs := h2.recs.trans h1.recs
  refs := h2.refs.trans h1.refs
  objTo o x hx := by
    obtain ⟨c1, e1, s1⟩ := h1.objTo o x hx
    obtain ⟨c2, e2, s2⟩ := h2.objTo o _ e1
    exact ⟨c2, e2, fun k => (s2 k).trans (s1 k)⟩
  objOf o h := h2.objOf o (h1.objOf o h)

theorem IndexOnly.members {w w' : World K V Ty} (h : IndexOnly w w') (o : Nat) : members w' o = members w o := by
  cases e : w.getObj o with
  | none => simp [W.members, e, h.objOf o e]
  | some x => obtain ⟨c, e', _⟩ := h.objTo o x e; simp [W.members, e, e']

theorem setVal_sig {c c' : Col V Ty} {old new : V} {r : Nat} (h : c.setVal old new r = some c') : c'.sig = c.sig := by
  unfold Col.setVal at h
  split at h
  · cases h
  · cases h; rfl

theorem setDataIndex_only {w w' : World K V Ty} {o r : Nat} {k : K} {v : V} {res : Res K} (h : setDataIndex w o r k v = some (w', res)) :
    IndexOnly w w' ∧ (res.ok = false → w' = w) ∧ (res.ok = true → res = .good (some k) ∧ getKeyType w o k = some (typeOf v)) := by
  simp only [setDataIndex, Option.bind_eq_bind, Option.bind_eq_some_iff] at h
  obtain ⟨vo, hvo, x, hx, h⟩ := h
  split at h
  · cases h; exact ⟨.refl _, fun _ => rfl, fun e => (by cases e)⟩
  · split at h
    · cases h; exact ⟨.refl _, fun _ => rfl, fun e => (by cases e)⟩
    · rename_i c hc
      split at h
      · cases h; exact ⟨.refl _, fun _ => rfl, fun e => (by cases e)⟩
      · rename_i ht
        split at h
        · cases h; exact ⟨.refl _, fun _ => rfl, fun e => (by cases e)⟩
        · rename_i c' hc'
          cases h
          refine ⟨⟨rfl, rfl, ?_, ?_⟩, fun e => (by cases e), fun _ => ⟨rfl, ?_⟩⟩
          · intro o' y hy
            rw [getObj_putObj]
            by_cases e : o = o'
            · subst e; rw [hvo] at hy; cases hy
              refine ⟨mput vo.cols k c', by simp, fun k' => ?_⟩
              rw [mget_mput]
              by_cases e : k = k'
              · subst e; simp [hc, setVal_sig hc']
              · simp [e]
            · exact ⟨y.cols, by simp [e, hy], fun _ => rfl⟩
          · intro o' hn
            rw [getObj_putObj]
            by_cases e : o = o'
            · subst e; rw [hvo] at hn; cases hn
            · simp [e, hn]
          · rw [getKeyType_eq hvo, hc]
            simpa using ht

theorem updateDeps_only {env : Env} {w w' : World K V Ty} {r : Nat} {k : K} {v : V} (h : updateDeps env w r k v = some w') : IndexOnly w w' := by
  simp only [updateDeps, Option.bind_eq_bind, Option.bind_eq_some_iff] at h
  obtain ⟨x, _, h⟩ := h
  refine loop_inv (fun w1 => IndexOnly w w1) _ _ _ _ ?_ (.refl _) h
  intro s _ a b ha hh
  simp only [Option.bind_eq_some_iff] at hh
  obtain ⟨so, _, hh⟩ := hh
  split at hh
  · cases hh
  · simp only [Option.map_eq_some_iff, Prod.exists] at hh
    obtain ⟨b', res, h1, rfl⟩ := hh
    exact ha.trans (setDataIndex_only h1).1

/-- A failing `SetData` changes nothing, in any state. -/
theorem C16_failure {env : Env} {w w' : World K V Ty} {f : Nat} {k : K} {v : V} {res : Res K}
    (h : refSetData env w f k v = some (w', res)) (hok : res.ok = false) : w' = w := by
  simp only [refSetData, Option.bind_eq_bind, Option.bind_eq_some_iff] at h
  obtain ⟨ref, hf, h⟩ := h
  split at h
  · cases h; rfl
  · simp only [Option.bind_eq_some_iff] at h
    obtain ⟨o, _, oo, hoo, x, hx, h⟩ := h
    split at h
    · cases h; rfl
    · simp only [setDataToRecord, Option.bind_eq_bind, Option.bind_eq_some_iff, Prod.exists] at h
      obtain ⟨vo, hvo, w1, r1, h1, h⟩ := h
      split at h
      · rename_i hf; cases h; exact (setDataIndex_only h1).2.1 hf
      · rename_i hf
        split at h
        · simp only [Option.bind_eq_some_iff, Option.some.injEq, Prod.mk.injEq] at h
          obtain ⟨_, _, _, _, _, rfl⟩ := h
          exact absurd hok hf
        · cases h; exact absurd hok hf

/-- A successful `SetData` through a reference of a vault, after any history: exactly that cell of that record has the new
value, and `GetData` returns it; no other cell of any record, no membership, validity or reference changes. -/
theorem C16_setData {G : World K V Ty → Op K V Ty → Prop} {env : Env} {w w' : World K V Ty} (hw : Reach G w) {o f : Nat} (ho : isVault w o = true)
    (ht : through w f = some o) {k : K} {v : V} {res : Res K} (h : refSetData env w f k v = some (w', res)) (hok : res.ok = true) :
    ∃ r, target w f = some r ∧ alive w r ∧ getKeyType w o k = some (typeOf v) ∧ res = .good (some k) ∧
      value w' r k = some v ∧ refGetData w' f k (typeOf v) = some (.good (some k), some v) ∧
      (∀ r' k', (r', k') ≠ (r, k) → value w' r' k' = value w r' k') ∧
      (∀ o', members w' o' = members w o') ∧ (∀ r', alive w' r' ↔ alive w r') ∧ w'.refs = w.refs := by
  have hi := reach_ai hw
  obtain ⟨vo, hvo, hs⟩ := isVault_iff.mp ho
  obtain ⟨hb, _, _⟩ := (hi.obj o vo hvo).vault hs
  simp only [refSetData, Option.bind_eq_bind, Option.bind_eq_some_iff] at h
  obtain ⟨ref, hf, h⟩ := h
  rw [through_eq hf] at ht
  split at h
  · cases h; cases hok
  · rename_i r hr
    simp only [ht, hvo, Option.bind_some, Option.bind_eq_some_iff] at h
    obtain ⟨x, hx, h⟩ := h
    split at h
    · cases h; cases hok
    · rename_i hv
      simp only [setDataToRecord, hvo, Option.bind_eq_bind, Option.bind_some, Option.bind_eq_some_iff, Prod.exists] at h
      obtain ⟨w1, r1, h1, h⟩ := h
      obtain ⟨i1, _, i3⟩ := setDataIndex_only h1
      split at h
      · rename_i hf; cases h; rw [hf] at hok; cases hok
      · rename_i hf'
        simp only [Option.bind_eq_some_iff, Option.some.injEq, Prod.mk.injEq] at h
        obtain ⟨w2, h2, y, hy, rfl, rfl⟩ := h
        obtain ⟨e1, e2⟩ := i3 hok
        have i2 := i1.trans (updateDeps_only h2)
        have hxy : y = x := by
          unfold World.getRec at hx hy; rw [i2.recs, hx] at hy; cases hy; rfl
        subst hxy
        have hval : value (w2.putRec r { y with data := mput y.data k v }) r k = some v := by
          simp [value, mget_mput]
        refine ⟨r, by rw [target_eq hf, hr], ⟨y, hx, by simpa using hv⟩, e2, e1, hval, ?_, ?_, ?_, ?_, i2.refs⟩
        · obtain ⟨cols, e, hsig⟩ := i2.objTo o vo hvo
          have hk := hsig k
          rw [getKeyType_eq hvo] at e2
          cases hc : mget vo.cols k with
          | none => rw [hc] at e2; cases e2
          | some c =>
            rw [hc] at hk e2
            cases hc' : mget cols k with
            | none => rw [hc'] at hk; cases hk
            | some c' =>
              rw [hc'] at hk
              simp only [Option.map_some, Option.some.injEq, Col.sig, Prod.mk.injEq] at hk e2
              have hf2 : (w2.putRec r { y with data := mput y.data k v }).refs[f]? = some ref := by
                show w2.refs[f]? = _; rw [i2.refs]; exact hf
              have ho2 : (w2.putRec r { y with data := mput y.data k v }).getObj o = some { vo with cols := cols } := e
              have hr2 := getRec_putRec_self w2 r { y with data := mput y.data k v }
              generalize w2.putRec r { y with data := mput y.data k v } = W at hf2 ho2 hr2
              simp only [refGetData, hf2, hr, ht, ho2, hc', Option.bind_eq_bind, Option.bind_some, hr2, hv, if_false, if_true,
                hk.1, e2, mget_mput, ne_eq, not_true, Bool.true_eq_false]
        · intro r' k' hne
          unfold value
          rw [getRec_putRec]
          by_cases e : r = r'
          · subst e
            have : k ≠ k' := fun e => hne (by rw [e])
            simp [hx, mget_mput, this]
          · simp only [e, if_false]; unfold World.getRec; rw [i2.recs]
        · intro o'
          exact i2.members o'
        · intro r'
          unfold alive
          rw [getRec_putRec]
          by_cases e : r = r'
          · subst e; simp [hx]
          · simp only [e, if_false]; unfold World.getRec; rw [i2.recs]

example : ∃ w' : DW, isVault demoW 0 = true ∧ through demoW 1 = some 0 ∧ refSetData Env.id demoW 1 1 9 = some (w', .good (some 1)) ∧
    value demoW 1 1 = some 6 ∧ value w' 1 1 = some 9 ∧ value w' 0 1 = some 5 := ⟨_, by decide, by decide, rfl, by decide, by decide, by decide⟩

/-- Through a reference that `GetSortedRecords` of a set returned, `SetData` reports success and writes nothing: the record and
what `GetData` answers keep the old value. So the full claim is false, already for ordinary histories. -/
theorem C16_refuted : ∃ w w' : DW, HReach Ordinary (fun _ => 0) w ∧ target w 3 = some 0 ∧ alive w 0 ∧
    refSetData Env.id w 3 1 9 = some (w', .good (some 1)) ∧ value w 0 1 = some 5 ∧ value w' 0 1 = some 5 ∧
    refGetData w' 3 1 false = some (.good (some 1), some 5) := by
  refine ⟨_, _, demo_reach (l := demoOps ++ [.ask 0 2 (.gt 0) none (fun _ => true) 1, .getSorted 1 1 false none]) rfl, ?_, ⟨_, rfl, rfl⟩, rfl, ?_, ?_, ?_⟩ <;> decide

/-! ### C45 -/

/-- `SetData(k1, v1); ...; SetData(kn, vn)` one after the other, all succeeding (specification). -/
inductive SetAll (env : Env) (f : Nat) : World K V Ty → List (K × V) → World K V Ty → Prop
  | nil (w : World K V Ty) : SetAll env f w [] w
  | cons (w w1 w2 : World K V Ty) (k : K) (v : V) (l : List (K × V)) (res : Res K) : refSetData env w f k v = some (w1, res) → res.ok = true →
      SetAll env f w1 l w2 → SetAll env f w ((k, v) :: l) w2

/-- `SetData(params)` on a reference to a live vault or set does one `SetData` after the other; when one fails, its result is
returned and the world is the one before it: the later parameters and the failing one have no effect. When none fails the
result is a success. -/
theorem C45_setDataMany {env : Env} {w w' : World K V Ty} {f : Nat} {ps : List (K × V)} {res : Res K}
    (h : refSetDataMany env w f ps = some (w', res)) :
    (res.ok = true ∧ SetAll env f w ps w') ∨
    (res.ok = false ∧ ∃ pre k v post, ps = pre ++ (k, v) :: post ∧ SetAll env f w pre w' ∧ refSetData env w' f k v = some (w', res)) := by
  simp only [refSetDataMany, Option.bind_eq_bind, Option.bind_eq_some_iff] at h
  obtain ⟨ref, _, o, _, oo, _, h⟩ := h
  have : ∀ (l : List (K × V)) (w : World K V Ty) (r0 : Res K), r0.ok = true → refSetDataLoop env f l w r0 = some (w', res) →
      (res.ok = true ∧ SetAll env f w l w') ∨
      (res.ok = false ∧ ∃ pre k v post, l = pre ++ (k, v) :: post ∧ SetAll env f w pre w' ∧ refSetData env w' f k v = some (w', res)) := by
    intro l
    induction l with
    | nil => intro w r0 h0 h; cases h; exact .inl ⟨h0, .nil _⟩
    | cons p l ih =>
      obtain ⟨k, v⟩ := p
      intro w r0 h0 h
      simp only [refSetDataLoop, Option.bind_eq_bind, Option.bind_eq_some_iff, Prod.exists] at h
      obtain ⟨w1, r1, h1, h⟩ := h
      split at h
      · rename_i hf; cases h
        have := C16_failure h1 hf
        subst this
        exact .inr ⟨hf, [], k, v, l, rfl, .nil _, h1⟩
      · rename_i hf
        have hf : r1.ok = true := by simpa using hf
        rcases ih w1 r1 hf h with ⟨e1, e2⟩ | ⟨e1, pre, k', v', post, e2, e3, e4⟩
        · exact .inl ⟨e1, .cons _ _ _ _ _ _ _ h1 hf e2⟩
        · exact .inr ⟨e1, (k, v) :: pre, k', v', post, by rw [e2]; rfl, .cons _ _ _ _ _ _ _ h1 hf e3, e4⟩
  exact this ps w _ rfl h

example : ∃ w' : DW, refSetDataMany Env.id demoW 1 [(1, 9), (1, 100), (1, 3)] = some (w', .bad .WrongType (some 1)) ∧ value w' 1 1 = some 9 := ⟨_, rfl, by decide⟩
example : ∃ w' : DW, refSetDataMany Env.id demoW 1 [(1, 9), (1, 3)] = some (w', .good (some 1)) ∧ value w' 1 1 = some 3 := ⟨_, rfl, by decide⟩

end MVault.W
