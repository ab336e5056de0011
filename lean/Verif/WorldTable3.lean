import Verif.WorldTable2
/-
The step on the table, call by call: records.
-/
set_option linter.unusedSectionVars false
set_option linter.unusedSimpArgs false
set_option linter.unusedVariables false
namespace MVault.W
open MVault.Spec (Table Db Event Cmd)
variable {K V Ty : Type} [LinearOrder K] [LinearOrder V] [Typed V Ty] [DecidableEq Ty]
variable {home : Nat → Nat}

/-! ### Creating -/

/-- A call that adds the record `r`. -/
theorem addRow_table {env : Env} {w w' : World K V Ty} (hw : HReach Ordinary home w) {o r : Nat} {ps : List (K × V)} (ho : isVault w o = true)
    {op : Op K V Ty} {ans : Answer K} (hg : Ordinary home w op) (hout : outcome env w op = some (w', ans)) (hko : o ∉ keyOps w op)
    (hm : ∀ a, op ≠ .vaultMoveNew a) (hm' : ∀ a b, op ≠ .vaultMoveAssign a b)
    (hne : ∀ f ps, op ≠ .refSetDataMany f ps) (hwr : ∀ k, written w o k op ans = none)
    (hr : r ∉ members w o) (hmem : members w' o = members w o ++ [r]) (hnew : ∀ k, value w' r k = newValue w o ps k)
    (hold : ∀ r', alive w r' → ∀ k, value w' r' k = value w r' k) : isVault w' o = true ∧ asTable w' o = (asTable w o).addRow r ps := by
  obtain ⟨own, hi⟩ := reach_inv hw
  have hai := reach_ai hw.any
  obtain ⟨vo, hvo, hs⟩ := isVault_iff.mp ho
  have hstep : step env w op = some w' := by rw [← outcome_step, hout]; rfl
  obtain ⟨vo', hvo', hs', ks⟩ := (step_any hai hstep).same o vo hvo hs hko
  obtain ⟨ho', k1, k2, k3, k4⟩ := C12_only_key_operations hw.any hstep ho hko
  obtain ⟨own', hi'⟩ := step_inv hi hg hstep
  refine ⟨ho', ?_⟩
  apply Table.ext
  · exact k1
  · simp only [asTable, Table.addRow, k2]
  · funext k; exact k3 k
  · funext k; exact k4 k
  · funext k
    simp only [asTable, Table.addRow, k2, keyDefault_eq hvo, keyDefault_eq hvo']
    have := ks.cols k
    cases a : mget vo.cols k <;> cases b : mget vo'.cols k <;> simp_all [Col.sig]
  · funext r'; simp only [asTable, Table.addRow, hmem, List.mem_append, List.mem_singleton]
  · funext r' k
    simp only [asTable, Table.addRow, hmem, List.mem_append, List.mem_singleton]
    by_cases e : r' = r
    · subst e; simp only [or_true, if_true, hnew]; rfl
    · simp only [e, or_false, if_false]
      split
      · rename_i hr'
        refine hold r' ?_ k
        rw [members_eq hvo] at hr'
        exact (hi.v.mem o vo hvo hs r' hr').2
      · rfl
  · funext b k r'
    apply propext
    show Listed b w' o k r' ↔ _
    rw [seen_quiet hi hai hg hout ho ho' hm hm' hne hwr (fun r hr => by rw [hmem]; exact List.mem_append_left _ hr)]
    simp only [asTable, Table.addRow, hmem, k1, List.mem_append, List.mem_singleton]
    constructor
    · rintro ⟨h1 | rfl, h2, h3 | h3 | h3⟩
      · exact absurd h1 h3
      · exact absurd h2 h3
      · exact .inl h3
      · exact .inr ⟨rfl, h2⟩
      · exact absurd h2 h3
      · exact .inl h3
    · rintro (h1 | ⟨rfl, h1⟩)
      · exact ⟨.inl (listed_key hi hvo hs h1).1, (listed_key hi hvo hs h1).2, .inr (.inr h1)⟩
      · exact ⟨.inr rfl, h1, .inl hr⟩

theorem firstBad_eq (w : World K V Ty) (o : Nat) (ps : List (K × V)) : (asTable w o).firstBad ps = firstBad w o ps := rfl

theorem newValue_eq (w : World K V Ty) (o : Nat) (ps : List (K × V)) (k : K) : (asTable w o).newValue ps k = newValue w o ps k := rfl

theorem cell_in {w : World K V Ty} {o r : Nat} (h : r ∈ members w o) (k : K) : (asTable w o).cell r k = value w r k := if_pos h

theorem clash_iff {w : World K V Ty} {o : Nat} {ps : List (K × V)} {k : K} : (asTable w o).clash ps k ↔ clashes w o ps k := by
  constructor
  · rintro ⟨r, h1, h2⟩; rw [cell_in h1] at h2; exact ⟨r, h1, h2⟩
  · rintro ⟨r, h1, h2⟩; exact ⟨r, h1, by rw [cell_in h1]; exact h2⟩

/-- From the answers of a creating call to the step of the specification. -/
theorem create_step {w w' : World K V Ty} (hw : HReach Ordinary home w) {o : Nat} {ps : List (K × V)} {res : Res K} (ho : isVault w o = true)
    (h1 : res.ok = false → w' = w) (h2 : ∀ c k, firstBad w o ps = some (c, k) → res = .bad c (some k))
    (h3 : firstBad w o ps = none →
      (∀ k ∈ getUniqueKeys w o, clashes w o ps k → (∀ k' ∈ getUniqueKeys w o, k' < k → ¬ clashes w o ps k') →
        res = .bad .UniqueKeyValueAlredyInSet (some k)) ∧
      ((∀ k ∈ getUniqueKeys w o, ¬ clashes w o ps k) → res = .good (ps.getLast?.map (·.1))))
    (h4 : res.ok = true → ∃ r, (dbOf w).fresh r ∧ isVault w' o = true ∧ asTable w' o = (asTable w o).addRow r ps) :
    isVault w' o = true ∧ (asTable w o).Step (dbOf w).fresh (.create ps) (.res res) (asTable w' o) := by
  simp only [Table.Step, firstBad_eq]
  cases hf : firstBad w o ps with
  | some p =>
    obtain ⟨c, k⟩ := p
    obtain rfl := h2 c k hf
    obtain rfl := h1 rfl
    exact ⟨ho, rfl, rfl⟩
  | none =>
    obtain ⟨h5, h6⟩ := h3 hf
    by_cases hc : ∃ k ∈ getUniqueKeys w o, clashes w o ps k
    · -- the smallest clashing key
      have : ∃ k ∈ getUniqueKeys w o, clashes w o ps k ∧ ∀ k' ∈ getUniqueKeys w o, k' < k → ¬ clashes w o ps k' := by
        have key : ∀ l : List K, l.Pairwise (· < ·) → (∃ k ∈ l, clashes w o ps k) → ∃ k ∈ l, clashes w o ps k ∧ ∀ k' ∈ l, k' < k → ¬ clashes w o ps k' := by
          intro l
          induction l with
          | nil => rintro _ ⟨k, hk, _⟩; cases hk
          | cons a l ih =>
            intro hp hex
            rw [List.pairwise_cons] at hp
            by_cases ha : clashes w o ps a
            · refine ⟨a, List.mem_cons_self, ha, fun k' hk' hlt => ?_⟩
              rcases List.mem_cons.mp hk' with rfl | hk'
              · exact absurd hlt (lt_irrefl _)
              · exact absurd (hp.1 k' hk') (not_lt.mpr (le_of_lt hlt))
            · obtain ⟨k, hk, hck, hmin⟩ := ih hp.2 (by
                obtain ⟨k, hk, hck⟩ := hex
                rcases List.mem_cons.mp hk with rfl | hk
                · exact absurd hck ha
                · exact ⟨k, hk, hck⟩)
              refine ⟨k, List.mem_cons_of_mem _ hk, hck, fun k' hk' hlt => ?_⟩
              rcases List.mem_cons.mp hk' with rfl | hk'
              · exact ha
              · exact hmin k' hk' hlt
        exact key _ (C12_key_list hw.any ho).2.2.2.1 hc
      obtain ⟨k, hk, hck, hmin⟩ := this
      obtain rfl := h5 k hk hck hmin
      obtain rfl := h1 rfl
      exact ⟨ho, .inl ⟨k, hk, clash_iff.mpr hck, fun k' hk' hlt hc' => hmin k' hk' hlt (clash_iff.mp hc'), rfl, rfl⟩⟩
    · obtain rfl := h6 (fun k hk hck => hc ⟨k, hk, hck⟩)
      obtain ⟨r, a, b, c⟩ := h4 rfl
      exact ⟨b, .inr ⟨fun k hk hck => hc ⟨k, hk, clash_iff.mp hck⟩, r, a, rfl, c⟩⟩

theorem createRecord_table {env : Env} {w w' : World K V Ty} (hw : HReach Ordinary home w) {o f : Nat} {ps : List (K × V)} {res : Res K} (ho : isVault w o = true)
    (h : createRecord w o f ps = some (w', res)) :
    isVault w' o = true ∧ (asTable w o).Step (dbOf w).fresh (.create ps) (.res res) (asTable w' o) := by
  obtain ⟨h1, h2, h3⟩ := C15_createRecord_partial hw ho h
  refine create_step hw ho h1 h2 h3 fun e => ?_
  have hout : outcome env w (.createRecord o f ps) = some (w', .res res) := by simp [outcome, onVault, ho, h]
  obtain ⟨r, _, hr, hmem, _, _, _, _, hnew, _, hold, _⟩ := C13_createRecord hw.any ho h e
  exact ⟨r, dbOf_row.mpr fun o' _ => hr o', addRow_table hw ho (show Ordinary home w (.createRecord o f ps) from trivial) hout (by simp [keyOps])
    (fun _ e => by cases e) (fun _ _ e => by cases e) (fun _ _ e => by cases e) (fun _ => rfl) (hr o) hmem hnew hold⟩

theorem createRow_table {env : Env} {w w' : World K V Ty} (hw : HReach Ordinary home w) {o : Nat} {ps : List (K × V)} {res : Res K} (ho : isVault w o = true)
    (h : createRow w o ps = some (w', res)) :
    isVault w' o = true ∧ (asTable w o).Step (dbOf w).fresh (.create ps) (.res res) (asTable w' o) := by
  obtain ⟨h1, h2, h3⟩ := C15_createRow_partial hw ho h
  refine create_step hw ho h1 h2 h3 fun e => ?_
  have hout : outcome env w (.createRow o ps) = some (w', .res res) := by simp [outcome, onVault, ho, h]
  obtain ⟨r, _, hr, hmem, _, _, hnew, _, hold, _⟩ := C13_createRow hw.any ho h e
  exact ⟨r, dbOf_row.mpr fun o' _ => hr o', addRow_table hw ho (show Ordinary home w (.createRow o ps) from trivial) hout (by simp [keyOps])
    (fun _ e => by cases e) (fun _ _ e => by cases e) (fun _ _ e => by cases e) (fun _ => rfl) (hr o) hmem hnew hold⟩

/-! ### Erasing -/

theorem Erased.table {own : Nat → Nat} {w w' : World K V Ty} {o : Nat} {vo : Obj K V Ty} {l : List Nat} (h : Erased w w' o vo l) (hi : Inv own home w)
    (hi' : Inv own home w') (ho : w.getObj o = some vo) (hs : vo.isSet = false) (hl : ∀ r ∈ l, r ∈ vo.recs) :
    isVault w' o = true ∧ asTable w' o = (asTable w o).erase (· ∈ l) := by
  obtain ⟨cols, hobj, hsig⟩ := h.obj
  have hmem : ∀ r, r ∈ members w' o ↔ r ∈ members w o ∧ r ∉ l := by
    intro r; rw [members_eq hobj, members_eq ho]; simp
  refine ⟨isVault_iff.mpr ⟨_, hobj, hs⟩, ?_⟩
  apply Table.ext
  · simp only [asTable, Table.erase, getKeys_eq hobj, getKeys_eq ho]
  · simp only [asTable, Table.erase, getUniqueKeys_eq hobj, getUniqueKeys_eq ho]
  · funext k
    simp only [asTable, Table.erase, getKeyType_eq hobj, getKeyType_eq ho]
    have := hsig k
    cases a : mget vo.cols k <;> cases b : mget cols k <;> simp_all [Col.sig]
  · funext k; simp only [asTable, Table.erase, getDefault_eq hobj, getDefault_eq ho]
  · funext k
    simp only [asTable, Table.erase, getUniqueKeys_eq hobj, getUniqueKeys_eq ho, keyDefault_eq hobj, keyDefault_eq ho]
    have := hsig k
    cases a : mget vo.cols k <;> cases b : mget cols k <;> simp_all [Col.sig]
  · funext r; simp only [asTable, Table.erase, hmem]
  · funext r k
    simp only [asTable, Table.erase, hmem]
    by_cases h1 : r ∈ l
    · simp [h1]
    · by_cases h2 : r ∈ members w o
      · simp only [h1, h2, not_false_eq_true, and_self, if_true, if_false]
        rw [members_eq ho] at h2
        exact (h.recs r h1).alive.2 (hi.v.mem o vo ho hs r h2).2 k
      · simp [h2]
  · funext b k r
    apply propext
    show Listed b w' o k r ↔ _
    simp only [asTable, Table.erase]
    by_cases h1 : r ∈ l
    · simp only [h1, not_true_eq_false, false_and, iff_false]
      intro hl'
      have := (listed_key hi' hobj hs hl').1
      rw [hmem] at this
      exact this.2 h1
    · rw [h.listed hi ho hs h1 b]
      simp only [h1, not_false_eq_true, true_and]
      refine and_congr_right fun hl' => ?_
      have hr := (listed_key hi ho hs hl').1
      constructor
      · intro h2 e r0 h0 h3
        have h0' : r0 ∈ members w o := by rw [members_eq ho]; exact hl r0 h0
        exact h2 e r0 h0 (by simpa [h0', hr] using h3)
      · intro h2 e r0 h0 h3
        have h0' : r0 ∈ members w o := by rw [members_eq ho]; exact hl r0 h0
        exact h2 e r0 h0 (by simpa [h0', hr] using h3)

theorem hits_iff {own : Nat → Nat} {env : Env} {w : World K V Ty} {o : Nat} {k : K} {v : V} {vo : Obj K V Ty} {col : Col V Ty} (hi : Inv own home w)
    (ho : w.getObj o = some vo) (hs : vo.isSet = false) (hc : mget vo.cols k = some col) (r : Nat) :
    r ∈ equalRange env col v ↔ (asTable w o).hits k v r := by
  rw [equalRange_hit hi ho hs hc]
  simp only [Table.hits, asTable, Matches, Cond.holds]
  constructor
  · rintro ⟨⟨h1, _, v', h2, rfl⟩, h3⟩
    exact ⟨h1, by rw [if_pos h1]; exact h2, h3⟩
  · rintro ⟨h1, h2, h3⟩
    rw [if_pos h1] at h2
    have h1' := h1
    rw [members_eq ho] at h1'
    exact ⟨⟨h1, (hi.v.mem o vo ho hs r h1').2, v, h2, rfl⟩, h3⟩

theorem eraseRef_table {env : Env} {w w' : World K V Ty} (hw : HReach Ordinary home w) {o f : Nat} {b : Bool} (ho : isVault w o = true)
    (h : eraseRef env w o f = some (w', b)) {fresh : Nat → Prop} :
    isVault w' o = true ∧ (asTable w o).Step fresh (.eraseRow (target w f)) (.flag b) (asTable w' o) := by
  obtain ⟨own, hi⟩ := reach_inv hw
  obtain ⟨vo, hvo, hs⟩ := isVault_iff.mp ho
  obtain ⟨ref, hf, ⟨rfl, rfl, hn⟩ | ⟨r, hp, rfl, hr, hi', er⟩⟩ := eraseRef_vault hi hvo hs h
  · refine ⟨ho, .inr ⟨fun r hr hrow => hn r ?_ ?_, rfl, rfl⟩⟩
    · rw [target_eq hf] at hr; exact hr
    · have : r ∈ members w' o := hrow
      rw [members_eq hvo] at this; exact this
  · obtain ⟨h1, h2⟩ := er.table hi hi' hvo hs (by simpa using hr)
    refine ⟨h1, .inl ⟨r, by rw [target_eq hf, hp], ?_, rfl, ?_⟩⟩
    · show r ∈ members w o; rw [members_eq hvo]; exact hr
    · rw [h2]; simp only [List.mem_singleton]

theorem eraseKV_table {env : Env} {w w' : World K V Ty} (hw : HReach Ordinary home w) {o : Nat} {k : K} {v : V} {res : Res K} (ho : isVault w o = true)
    (h : eraseKV env w o k v = some (w', res)) {fresh : Nat → Prop} :
    isVault w' o = true ∧ (asTable w o).Step fresh (.eraseOne k v) (.res res) (asTable w' o) := by
  obtain ⟨own, hi⟩ := reach_inv hw
  obtain ⟨vo, hvo, hs⟩ := isVault_iff.mp ho
  simp only [Table.Step]
  rcases eraseKV_vault hi hvo hs h with ⟨rfl, hc⟩ | ⟨c, hc, hk, ⟨rfl, rfl, he⟩ | ⟨r, l, he, rfl, hr, hcell, hi', er⟩⟩
  · obtain ⟨c, h1, h2⟩ := bad_check hvo hc
    rw [h1]; exact ⟨ho, by rw [h2], rfl⟩
  · rw [good_check hvo hk (checkKey_ok hc).2]
    refine ⟨ho, .inr ⟨?_, rfl, rfl⟩⟩
    rintro ⟨r, hr⟩
    rw [← hits_iff (env := env) hi hvo hs hk, he] at hr; cases hr
  · rw [good_check hvo hk (checkKey_ok hc).2]
    obtain ⟨h1, h2⟩ := er.table hi hi' hvo hs (by simpa using hr)
    refine ⟨h1, .inl ⟨r, (hits_iff (env := env) hi hvo hs hk r).mp (by rw [he]; simp), rfl, ?_⟩⟩
    rw [h2]; simp only [List.mem_singleton]

theorem eraseManyKV_table {env : Env} {w w' : World K V Ty} (hw : HReach Ordinary home w) {o n : Nat} {k : K} {v : V} {res : Res K} (ho : isVault w o = true)
    (h : eraseManyKV env w o k v n = some (w', res)) {fresh : Nat → Prop} :
    isVault w' o = true ∧ (asTable w o).Step fresh (.eraseMany k v n) (.res res) (asTable w' o) := by
  obtain ⟨own, hi⟩ := reach_inv hw
  obtain ⟨vo, hvo, hs⟩ := isVault_iff.mp ho
  simp only [Table.Step]
  rcases eraseManyKV_vault hi hvo hs h with ⟨rfl, hc⟩ | ⟨c, hc, hk, ⟨rfl, rfl, he⟩ | ⟨hne, rfl, hi', er⟩⟩
  · obtain ⟨c, h1, h2⟩ := bad_check hvo hc
    rw [h1]; exact ⟨ho, by rw [h2], rfl⟩
  · rw [good_check hvo hk (checkKey_ok hc).2]
    refine ⟨ho, .inr ⟨?_, rfl, rfl⟩⟩
    rintro ⟨r, hr⟩
    rw [← hits_iff (env := env) hi hvo hs hk, he] at hr; cases hr
  · rw [good_check hvo hk (checkKey_ok hc).2]
    obtain ⟨hN, hall⟩ := equalRange_vault (env := env) hi hvo hs hk v
    obtain ⟨h1, h2⟩ := er.table hi hi' hvo hs (fun r hr => (hall r (List.mem_of_mem_take hr)).1)
    refine ⟨h1, .inl ⟨_, ?_, hN.sublist (List.take_sublist _ _), fun r hr => (hits_iff (env := env) hi hvo hs hk r).mp (List.mem_of_mem_take hr), ?_, ?_, rfl, h2⟩⟩
    · intro e
      rw [List.take_eq_nil_iff] at e
      rcases e with e | e
      · omega
      · exact hne e
    · rw [List.length_take]; omega
    · by_cases hl : max n 1 ≤ (equalRange env c v).length
      · left; rw [List.length_take]; omega
      · right
        intro r hr
        rw [List.take_of_length_le (by omega)]
        exact (hits_iff (env := env) hi hvo hs hk r).mpr hr

theorem dropData_table {env : Env} {w w' : World K V Ty} (hw : HReach Ordinary home w) {o : Nat} (ho : isVault w o = true)
    (h : dropData env w o = some w') {fresh : Nat → Prop} :
    isVault w' o = true ∧ (asTable w o).Step fresh .dropData .unit (asTable w' o) := by
  obtain ⟨own, hi⟩ := reach_inv hw
  obtain ⟨vo, hvo, hs⟩ := isVault_iff.mp ho
  obtain ⟨hi', er, _⟩ := dropData_spec hi hvo hs h
  obtain ⟨h1, h2⟩ := er.table hi hi' hvo hs (fun r hr => hr)
  refine ⟨h1, rfl, ?_⟩
  rw [h2]
  have : (asTable w o).row = (· ∈ vo.recs) := by funext r; show (r ∈ members w o) = _; rw [members_eq hvo]
  rw [this]

theorem emptied_table {w : World K V Ty} {o : Nat} {x : Obj K V Ty} (h : w.getObj o = some x) (h1 : x.keysOrder = []) (h2 : x.uniq = []) (h3 : x.cols = [])
    (h4 : x.tmpl = []) (h5 : x.recs = []) : asTable w o = .empty := by
  apply Table.ext
  · simp only [asTable, Table.empty, getKeys_eq h, h1]
  · funext k; simp [asTable, Table.empty, getUniqueKeys_eq h, h2]
  · funext k; simp [asTable, Table.empty, getKeyType_eq h, h3, mget]
  · funext k; simp [asTable, Table.empty, getDefault_eq h, h4, mget]
  · funext k; simp [asTable, Table.empty, getUniqueKeys_eq h, h2, keyDefault_eq h, h3, mget]
  · funext r; simp [asTable, Table.empty, members_eq h, h5]
  · funext r k; simp [asTable, Table.empty, members_eq h, h5]
  · funext b k r
    simp only [asTable, Table.empty, eq_iff_iff, iff_false]
    exact listed_none h (by simp [h3, mget])

theorem dropVault_table {env : Env} {w w' : World K V Ty} (hw : HReach Ordinary home w) {o : Nat} (ho : isVault w o = true)
    (h : dropVault env w o = some w') {fresh : Nat → Prop} :
    isVault w' o = true ∧ (asTable w o).Step fresh .dropVault .unit (asTable w' o) := by
  obtain ⟨own, hi⟩ := reach_inv hw
  obtain ⟨vo, hvo, hs⟩ := isVault_iff.mp ho
  obtain ⟨hi', hobj, _⟩ := dropVault_spec hi hvo hs h
  exact ⟨isVault_iff.mpr ⟨_, hobj, hs⟩, rfl, emptied_table hobj rfl rfl rfl rfl rfl⟩

/-! ### Searching for a value -/

theorem getRecord_table {env : Env} {w w' : World K V Ty} (hw : HReach Ordinary home w) {o f : Nat} {k : K} {v : V} {res : Res K} (ho : isVault w o = true)
    (h : getRecord env w o k v f = some (w', res)) {fresh : Nat → Prop} :
    isVault w' o = true ∧ (asTable w o).Step fresh (.find k v) (.res res) (asTable w' o) := by
  obtain ⟨own, hi⟩ := reach_inv hw
  obtain ⟨vo, hvo, hs⟩ := isVault_iff.mp ho
  have kp : Kept w w' o := step_kept (env := env) (op := .getRecord o k v f) hi trivial (by simp [step, onVault, ho, h]) ho (by simp [touched])
  refine ⟨kp.vault, kp.table, ?_⟩
  rcases getRecord_spec hi hvo hs h with ⟨rfl, hc⟩ | ⟨c, hc, hk, _, ⟨rfl, he, _⟩ | ⟨r, l, he, rfl, _, _, _⟩⟩
  · obtain ⟨c, h1, h2⟩ := bad_check hvo hc
    rw [h1, h2]
  · rw [good_check hvo hk (checkKey_ok hc).2]
    refine .inr ⟨?_, rfl⟩
    rintro ⟨r, hr⟩
    rw [← hits_iff (env := env) hi hvo hs hk, he] at hr; cases hr
  · rw [good_check hvo hk (checkKey_ok hc).2]
    exact .inl ⟨⟨r, (hits_iff (env := env) hi hvo hs hk r).mp (by rw [he]; simp)⟩, rfl⟩

theorem getRecords_table {env : Env} {w w' : World K V Ty} (hw : HReach Ordinary home w) {o n : Nat} {k : K} {v : V} {res : Res K} (ho : isVault w o = true)
    (h : getRecords env w o k v n = some (w', res)) {fresh : Nat → Prop} :
    isVault w' o = true ∧ (asTable w o).Step fresh (.find k v) (.res res) (asTable w' o) := by
  obtain ⟨own, hi⟩ := reach_inv hw
  obtain ⟨vo, hvo, hs⟩ := isVault_iff.mp ho
  have kp : Kept w w' o := step_kept (env := env) (op := .getRecords o k v n) hi trivial (by simp [step, onVault, ho, h]) ho (by simp [touched])
  refine ⟨kp.vault, kp.table, ?_⟩
  rcases getRecords_spec hi hvo hs h with ⟨rfl, hc⟩ | ⟨c, hc, hk, ⟨rfl, rfl, he⟩ | ⟨hne, rfl, _⟩⟩
  · obtain ⟨c, h1, h2⟩ := bad_check hvo hc
    rw [h1, h2]
  · rw [good_check hvo hk (checkKey_ok hc).2]
    refine .inr ⟨?_, rfl⟩
    rintro ⟨r, hr⟩
    rw [← hits_iff (env := env) hi hvo hs hk, he] at hr; cases hr
  · rw [good_check hvo hk (checkKey_ok hc).2]
    obtain ⟨r, hr⟩ := List.exists_mem_of_ne_nil _ hne
    exact .inl ⟨⟨r, (hits_iff (env := env) hi hvo hs hk r).mp hr⟩, rfl⟩

end MVault.W
