import Verif.WorldVault3
/-
CreateRecord.
-/
set_option linter.unusedSectionVars false
set_option linter.unusedSimpArgs false
namespace MVault.W
variable {K V Ty : Type} [LinearOrder K] [LinearOrder V] [Typed V Ty] [DecidableEq Ty]
variable {own home : Nat → Nat}

theorem mput_comm {A B : Type} [DecidableEq A] (m : List (A × B)) {a b : A} (x y : B) (hab : a ≠ b) (ha : ∃ v, mget m a = some v) (hb : ∃ v, mget m b = some v) :
    mput (mput m a x) b y = mput (mput m b y) a x := by
  induction m with
  | nil => obtain ⟨v, hv⟩ := ha; simp [mget] at hv
  | cons e l ih =>
    obtain ⟨k, v⟩ := e
    by_cases e1 : k = a
    · subst e1
      by_cases e2 : k = b
      · exact absurd e2 hab
      · simp [mput, e2, hab]
    · by_cases e2 : k = b
      · subst e2; simp [mput, e1, Ne.symm hab]
      · simp only [mget, e1, e2, if_false] at ha hb
        simp [mput, e1, e2, ih ha hb]

theorem eraseKeys_append (data : List (K × V)) (r : Nat) (a b : List K) (cols : List (K × Col V Ty)) :
    eraseKeys data r (a ++ b) cols = eraseKeys data r b (eraseKeys data r a cols) := by
  induction a generalizing cols with
  | nil => rfl
  | cons k l ih =>
    simp only [List.cons_append, eraseKeys]
    cases mget cols k with
    | none => exact ih _
    | some c => exact ih _

theorem eraseKeys_mput (data : List (K × V)) (r : Nat) (done : List K) (cols : List (K × Col V Ty)) {k : K} (c' : Col V Ty)
    (hk : k ∉ done) (hc : ∃ c, mget cols k = some c) :
    eraseKeys data r done (mput cols k c') = mput (eraseKeys data r done cols) k c' := by
  induction done generalizing cols with
  | nil => rfl
  | cons a l ih =>
    simp only [List.mem_cons, not_or] at hk
    simp only [eraseKeys, mget_mput, if_neg hk.1]
    cases ha : mget cols a with
    | none => exact ih _ hk.2 hc
    | some c =>
      simp only
      rw [mput_comm _ _ _ hk.1 hc ⟨c, ha⟩]
      refine ih _ hk.2 ?_
      simp only [mget_mput, if_neg (Ne.symm hk.1)]
      exact hc

/-- Adding a record to a column and erasing it gives the column back. -/
theorem add_erase {cell : Nat → Option V} {recs : List Nat} {c : Col V Ty} (h : ColOk cell recs c) {v : V} {r : Nat}
    (hm : c.multi = false) (hok : (c.add v r).2 = true) : (c.add v r).1.erase v r = c := by
  have hne : ¬ (c.multi = false ∧ hasVal c.hash v = true) := by
    intro hh; unfold Col.add at hok; rw [if_pos hh] at hok; simp at hok
  have hnh : hasVal c.hash v = false := by simpa [hm] using hne
  have hno : ∀ r', (v, r') ∉ c.ord := by
    intro r' h1
    have := h.ordS v r' h1
    have := h.hashC (h.uniq hm).1 r' this.1 v this.2
    exact (hasVal_false _ _).mp hnh r' this
  have hnh' : hasVal c.ord v = false := (hasVal_false _ _).mpr hno
  have e1 : (c.add v r).1 = { c with hash := c.hash ++ [(v, r)], ord := ordInsert c.ord v r } := by
    unfold Col.add hashEmplace ordEmplace
    simp [hnh, hnh', hm]
  rw [e1]
  unfold Col.erase
  have e2 : (c.hash ++ [(v, r)]).erase (v, r) = c.hash := by
    rw [List.erase_append_right _ ((hasVal_false _ _).mp hnh r)]; simp
  have hmem : (v, r) ∈ ordInsert c.ord v r := (mem_ordInsert _ _ _ _).mpr (.inl rfl)
  have e3 : (ordInsert c.ord v r).filter (fun e => decide (e.1 ≠ v)) = c.ord := by
    have : ∀ l : List (V × Nat), (∀ r', (v, r') ∉ l) → (ordInsert l v r).filter (fun e => decide (e.1 ≠ v)) = l := by
      intro l
      induction l with
      | nil => intro _; simp [ordInsert]
      | cons a l ih =>
        obtain ⟨v', r'⟩ := a
        intro hl
        have hv : v' ≠ v := by rintro rfl; exact hl r' (by simp)
        have hl' : ∀ r', (v, r') ∉ l := fun r' hh => hl r' (by simp [hh])
        have hfl : l.filter (fun e => decide (e.1 ≠ v)) = l := by
          rw [List.filter_eq_self]
          rintro ⟨a, b⟩ hab
          simp only [ne_eq, decide_not, Bool.not_eq_true', decide_eq_false_iff_not]
          rintro rfl; exact hl' b hab
        simp only [ordInsert]
        split
        · rw [List.filter_cons_of_neg (by simp), List.filter_cons_of_pos (by simp [hv]), hfl]
        · rw [List.filter_cons_of_pos (by simp [hv]), ih hl']
    exact this _ hno
  have e4 : (ordInsert c.ord v r).any (fun e => decide (e.1 = v ∧ e.2 ≠ r)) = false := by
    rw [List.any_eq_false]
    rintro ⟨a, b⟩ hab
    rcases (mem_ordInsert _ _ _ _).mp hab with e | e
    · cases e; simp
    · simp only [ne_eq, decide_eq_true_eq, not_and, Decidable.not_not]
      rintro rfl; exact absurd e (hno b)
  simp only [e2, hmem, if_true, e3, e4, Bool.and_false, Bool.or_false]

/-- What the loop over the unique keys does. -/
theorem addUniques_spec {cell : Nat → K → Option V} {vo : Obj K V Ty} (hvok : VOk cell vo) {data : List (K × V)} {r : Nat}
    (hdata : ∀ k c, mget vo.cols k = some c → ∃ v, mget data k = some v ∧ typeOf v = c.ty) :
    ∃ cols clash, addUniques data r vo.uniq vo.cols [] = some (cols, clash) ∧
      match clash with
      | none => (∀ k, mget cols k = (mget vo.cols k).map fun c => if k ∈ vo.uniq then (c.add (c.addVal data k) r).1 else c) ∧
          ∀ k ∈ vo.uniq, ∀ c, mget vo.cols k = some c → (c.add (c.addVal data k) r).2 = true
      | some (k, done) => eraseKeys data r done cols = vo.cols ∧ (∃ rest, vo.uniq = done ++ k :: rest) ∧
          (∀ c, mget vo.cols k = some c → (c.add (c.addVal data k) r).2 = false) ∧
          ∀ k' ∈ done, ∀ c, mget vo.cols k' = some c → (c.add (c.addVal data k') r).2 = true := by
  have hnd : vo.uniq.Nodup := hvok.uniqS.imp (fun h => ne_of_lt h)
  suffices H : ∀ rest done cols, vo.uniq = done ++ rest →
      (∀ k, mget cols k = (mget vo.cols k).map fun c => if k ∈ done then (c.add (c.addVal data k) r).1 else c) →
      eraseKeys data r done cols = vo.cols →
      (∀ k' ∈ done, ∀ c, mget vo.cols k' = some c → (c.add (c.addVal data k') r).2 = true) →
      ∃ cols' clash, addUniques data r rest cols done = some (cols', clash) ∧
      match clash with
      | none => (∀ k, mget cols' k = (mget vo.cols k).map fun c => if k ∈ vo.uniq then (c.add (c.addVal data k) r).1 else c) ∧
          ∀ k ∈ vo.uniq, ∀ c, mget vo.cols k = some c → (c.add (c.addVal data k) r).2 = true
      | some (k, done) => eraseKeys data r done cols' = vo.cols ∧ (∃ rest, vo.uniq = done ++ k :: rest) ∧
          (∀ c, mget vo.cols k = some c → (c.add (c.addVal data k) r).2 = false) ∧
          ∀ k' ∈ done, ∀ c, mget vo.cols k' = some c → (c.add (c.addVal data k') r).2 = true by
    exact H vo.uniq [] vo.cols rfl (by intro k; simp) rfl (by simp)
  intro rest
  induction rest with
  | nil =>
    intro done cols hu hc he hok
    rw [List.append_nil] at hu
    subst hu
    exact ⟨cols, none, rfl, hc, hok⟩
  | cons k rest ih =>
    intro done cols hu hc he hok
    have hku : k ∈ vo.uniq := by rw [hu]; simp
    have hkd : k ∉ done := by
      intro hm
      rw [hu, List.nodup_append] at hnd
      exact hnd.2.2 k hm k (by simp) rfl
    obtain ⟨c, hkc, hcm⟩ := (hvok.uniqM k).mp hku
    have hcolk : mget cols k = some c := by rw [hc k, hkc]; simp [hkd]
    simp only [addUniques, hcolk]
    have hcok := hvok.cols k c hkc
    obtain ⟨v, hv, hvt⟩ := hdata k c hkc
    have hval : c.addVal data k = v := by simp [Col.addVal, readOr, hv, hvt]
    have hold : ∀ c' : Col V Ty, c'.ty = c.ty → c'.oldVal data k = v := by
      intro c' h; simp [Col.oldVal, readOr, hv, h, hvt]
    rcases hadd : c.add (c.addVal data k) r with ⟨c', b⟩
    cases b with
    | false =>
      simp only
      refine ⟨cols, some (k, done), rfl, he, ⟨rest, hu⟩, ?_, hok⟩
      intro c2 hc2
      rw [hkc] at hc2; cases hc2; rw [hadd]
    | true =>
      simp only
      have hc' : c' = (c.add v r).1 := by rw [← hval, hadd]
      have hokv : (c.add v r).2 = true := by rw [← hval, hadd]
      refine ih (done ++ [k]) (mput cols k c') (by rw [hu]; simp) ?_ ?_ ?_
      · intro k'
        simp only [mget_mput, List.mem_append, List.mem_singleton]
        by_cases e : k = k'
        · subst e; simp [hkc, hadd]
        · simp [e, Ne.symm e, hc k']
      · rw [eraseKeys_append, eraseKeys_mput _ _ _ _ _ hkd ⟨c, hcolk⟩, he]
        simp only [eraseKeys, mget_mput, if_true]
        rw [hold c' (by rw [hc']; exact (Col.add_shape _ _ _).1), hc', add_erase hcok hcm hokv, mput_mput]
        exact mput_same _ _ _ hkc
      · intro k' hk' c2 hc2
        rcases List.mem_append.mp hk' with h | h
        · exact hok k' h c2 hc2
        · simp only [List.mem_singleton] at h; subst h
          rw [hkc] at hc2; cases hc2; rw [hadd]

/-- What inserting a complete record does to the vault. -/
theorem VOk.insert {cell cell' : Nat → K → Option V} {vo : Obj K V Ty} (h : VOk cell vo) {data : List (K × V)} {r : Nat} (hr : r ∉ vo.recs)
    (hdata : ∀ k c, mget vo.cols k = some c → ∃ v, mget data k = some v ∧ typeOf v = c.ty)
    (hnone : ∀ k, mget vo.cols k = none → mget data k = none)
    (hok : ∀ k c, mget vo.cols k = some c → (c.add (c.addVal data k) r).2 = true)
    (hc : ∀ r' ∈ vo.recs, ∀ k, cell' r' k = cell r' k) (hcr : ∀ k, cell' r k = mget data k)
    {cols : List (K × Col V Ty)} (hcols : ∀ k, mget cols k = (mget vo.cols k).map fun c => (c.add (c.addVal data k) r).1) :
    VOk cell' { vo with cols := cols, recs := vo.recs ++ [r] } where
  cols k e he := by
    simp only at he
    rw [hcols, Option.map_eq_some_iff] at he
    obtain ⟨c, hk, rfl⟩ := he
    obtain ⟨v, hv, hvt⟩ := hdata k c hk
    have hval : c.addVal data k = v := by simp [Col.addVal, readOr, hv, hvt]
    have hok' := hok k c hk
    rw [hval] at hok' ⊢
    exact (h.cols k c hk).add hvt hr hok' (fun r' hr' => hc r' hr' k) (by rw [hcr, hv])
  nocol r' hr' k hk := by
    simp only at hk
    rw [hcols, Option.map_eq_none_iff] at hk
    rcases List.mem_append.mp hr' with hm | hm
    · rw [hc r' hm]; exact h.nocol r' hm k hk
    · simp only [List.mem_singleton] at hm; subst hm
      rw [hcr]; exact hnone k hk
  recsN := by
    rw [List.nodup_append]
    refine ⟨h.recsN, by simp, ?_⟩
    intro a ha b hb
    simp only [List.mem_singleton] at hb
    rintro rfl; subst hb; exact hr ha
  keysN := h.keysN
  keysM k := by
    simp only [hcols, h.keysM, Option.map_eq_some_iff]
    constructor
    · rintro ⟨c, hc⟩; exact ⟨_, c, hc, rfl⟩
    · rintro ⟨_, c, hc, _⟩; exact ⟨c, hc⟩
  uniqS := h.uniqS
  uniqM k := by
    simp only [hcols, h.uniqM, Option.map_eq_some_iff]
    constructor
    · rintro ⟨c, hc, hm⟩; exact ⟨_, ⟨c, hc, rfl⟩, by rw [(Col.add_shape _ _ _).2.1]; exact hm⟩
    · rintro ⟨_, ⟨c, hc, rfl⟩, hm⟩; exact ⟨c, hc, by rw [(Col.add_shape _ _ _).2.1] at hm; exact hm⟩
  tmplN k hk := by
    simp only at hk
    rw [hcols, Option.map_eq_none_iff] at hk
    exact h.tmplN k hk
  tmplT k c hk := by
    simp only at hk
    rw [hcols, Option.map_eq_some_iff] at hk
    obtain ⟨c0, hk, rfl⟩ := hk
    rw [(Col.add_shape _ _ _).1]; exact h.tmplT k c0 hk
  base := h.base
  par := h.par

/-- The outcome of inserting a complete record into a vault. -/
theorem insertRecord_spec {w : World K V Ty} {o : Nat} {vo : Obj K V Ty} {data : List (K × V)}
    (hi : Inv own home w) (ho : w.getObj o = some vo) (hs : vo.isSet = false) (hown : own w.nextR = o)
    (hdata : ∀ k c, mget vo.cols k = some c → ∃ v, mget data k = some v ∧ typeOf v = c.ty)
    (hnone : ∀ k, mget vo.cols k = none → mget data k = none) :
    (∃ k, k ∈ vo.uniq ∧ insertRecord w o data = some (w, .error k) ∧ (∃ r ∈ vo.recs, cellOf w r k = mget data k) ∧
      ∀ k' ∈ vo.uniq, k' < k → ∀ r ∈ vo.recs, cellOf w r k' ≠ mget data k') ∨
    (∃ w' cols, insertRecord w o data = some (w', .ok w.nextR) ∧ Inv own home w' ∧
      (∀ k ∈ vo.uniq, ∀ r ∈ vo.recs, cellOf w r k ≠ mget data k) ∧
      (∀ k, mget cols k = (mget vo.cols k).map fun c => (c.add (c.addVal data k) w.nextR).1) ∧
      w' = ({ w with recs := mput w.recs w.nextR ⟨data, true, 0, []⟩, nextR := w.nextR + 1 } : World K V Ty).putObj o
        { vo with cols := cols, recs := vo.recs ++ [w.nextR] }) := by
  have hvok := hi.v.vok o vo ho hs
  have hfresh : w.getRec w.nextR = none := by
    cases hx : w.getRec w.nextR with
    | none => rfl
    | some x => have := hi.v.ltR _ _ hx; omega
  have hr : w.nextR ∉ vo.recs := by
    intro hm
    obtain ⟨_, x, hx, _⟩ := hi.v.mem o vo ho hs _ hm
    rw [hfresh] at hx; cases hx
  have hvalk : ∀ k c, mget vo.cols k = some c → ∃ v, mget data k = some v ∧ c.addVal data k = v ∧ typeOf v = c.ty := by
    intro k c hk
    obtain ⟨v, hv, hvt⟩ := hdata k c hk
    exact ⟨v, hv, by simp [Col.addVal, readOr, hv, hvt], hvt⟩
  have hclash : ∀ k c, mget vo.cols k = some c → ((c.add (c.addVal data k) w.nextR).2 = false ↔
      k ∈ vo.uniq ∧ ∃ r ∈ vo.recs, cellOf w r k = mget data k) := by
    intro k c hk
    obtain ⟨v, hv, hval, _⟩ := hvalk k c hk
    rw [(hvok.cols k c hk).add_false, hval, hv, hvok.uniqM]
    constructor
    · rintro ⟨a, b⟩; exact ⟨⟨c, hk, a⟩, b⟩
    · rintro ⟨⟨c', hc', a⟩, b⟩; rw [hk] at hc'; cases hc'; exact ⟨a, b⟩
  obtain ⟨cols, clash, hadd, hspec⟩ := addUniques_spec (r := w.nextR) hvok hdata
  cases clash with
  | some p =>
    obtain ⟨k, done⟩ := p
    obtain ⟨he, ⟨rest, hu⟩, hk, hdone⟩ := hspec
    have hku : k ∈ vo.uniq := by rw [hu]; simp
    obtain ⟨c, hkc, hcm⟩ := (hvok.uniqM k).mp hku
    refine .inl ⟨k, hku, ?_, ((hclash k c hkc).mp (hk c hkc)).2, ?_⟩
    · simp only [insertRecord, ho, hadd, Option.bind_eq_bind, Option.bind_some, he]
      have : w.putObj o { vo with cols := vo.cols } = w := by
        have : ({ vo with cols := vo.cols } : Obj K V Ty) = vo := rfl
        rw [this]; unfold World.putObj
        rw [mput_same _ _ _ (show mget w.objs o = some vo from ho)]
      rw [this]
    · intro k' hk' hlt r hrm hcell
      obtain ⟨c', hkc', hcm'⟩ := (hvok.uniqM k').mp hk'
      have hd : k' ∈ done := by
        have hsort := hvok.uniqS
        rw [hu] at hk' hsort
        rcases List.mem_append.mp hk' with h | h
        · exact h
        · rw [List.pairwise_append] at hsort
          rcases List.mem_cons.mp h with rfl | h
          · exact absurd hlt (lt_irrefl _)
          · have := (List.pairwise_cons.mp hsort.2.1).1 k' h
            exact absurd (lt_trans this hlt) (lt_irrefl _)
      have := hdone k' hd c' hkc'
      have h2 := (hclash k' c' hkc').mpr ⟨(hvok.uniqM k').mpr ⟨c', hkc', hcm'⟩, r, hrm, hcell⟩
      rw [this] at h2; cases h2
  | none =>
    obtain ⟨hcols, hall⟩ := hspec
    have hokall : ∀ k c, mget vo.cols k = some c → (c.add (c.addVal data k) w.nextR).2 = true := by
      intro k c hk
      by_contra hne
      have := (hclash k c hk).mp (by simpa using hne)
      exact hne (hall k this.1 c hk)
    have hfin : ∀ k, mget (addCols cols data w.nextR) k = (mget vo.cols k).map fun c => (c.add (c.addVal data k) w.nextR).1 := by
      intro k
      unfold addCols
      rw [mget_mmap, hcols k]
      cases hk : mget vo.cols k with
      | none => rfl
      | some c =>
        simp only [Option.map_some, Option.some.injEq]
        obtain ⟨v, hv, hval, hvt⟩ := hvalk k c hk
        by_cases hu : k ∈ vo.uniq
        · rw [if_pos hu]
          have hty : (c.add (c.addVal data k) w.nextR).1.ty = c.ty := (Col.add_shape _ _ _).1
          have hv2 : (c.add (c.addVal data k) w.nextR).1.addVal data k = v := by
            unfold Col.addVal readOr; rw [hv]; simp only [(Col.add_shape _ _ _).1, hvt, if_true]
          rw [hv2, hval]
          apply Col.add_refused
          obtain ⟨c', hc', hcm⟩ := (hvok.uniqM k).mp hu
          rw [hk] at hc'; cases hc'
          have hadd1 : (c.add v w.nextR).2 = true := by rw [← hval]; exact hokall k c hk
          unfold Col.add
          rw [if_pos]
          refine ⟨(Col.add_shape _ _ _).2.1.trans hcm, ?_⟩
          rw [hasVal_iff]
          refine ⟨w.nextR, ?_⟩
          unfold Col.add at hadd1
          split at hadd1
          · simp at hadd1
          · rename_i hn; simp only [hashEmplace, if_neg hn]; simp
        · rw [if_neg hu]
    refine .inr ⟨_, addCols cols data w.nextR, by simp only [insertRecord, ho, hadd, Option.bind_eq_bind, Option.bind_some], ?_, ?_, hfin, rfl⟩
    · have q1 := hi.q.newRec data
      have q2 : QI own home (({ w with recs := mput w.recs w.nextR ⟨data, true, 0, []⟩, nextR := w.nextR + 1 } : World K V Ty).putObj o
          { vo with cols := addCols cols data w.nextR, recs := vo.recs ++ [w.nextR] }) := q1.putVault ho hs hs hvok.base rfl rfl
      have hgr : ∀ r', (({ w with recs := mput w.recs w.nextR ⟨data, true, 0, []⟩, nextR := w.nextR + 1 } : World K V Ty).putObj o
          { vo with cols := addCols cols data w.nextR, recs := vo.recs ++ [w.nextR] }).getRec r' =
          if w.nextR = r' then some ⟨data, true, 0, []⟩ else w.getRec r' := by
        intro r'; rw [getRec_putObj, getRec_new]
      refine hi.build (o := o) ⟨?_, ?_⟩ q2 (getObj_putObj_self _ _ _) hs ?_ ?_ ?_
      · intro o' hne
        simp only [getObj_putObj, if_neg (Ne.symm hne), getObj_newRec]
        exact .refl _
      · intro r' hne
        rw [hgr, if_neg]
        · exact .refl _
        · rintro rfl; exact hne hown
      · refine hvok.insert hr hdata hnone hokall ?_ ?_ hfin
        · intro r' hr' k
          unfold cellOf
          rw [hgr, if_neg]
          rintro rfl; exact hr hr'
        · intro k; unfold cellOf; rw [hgr, if_pos rfl]; rfl
      · intro r' hr'
        rcases List.mem_append.mp hr' with hm | hm
        · obtain ⟨a, x, hx, hv⟩ := hi.v.mem o vo ho hs r' hm
          refine ⟨a, x, ?_, hv⟩
          rw [hgr, if_neg]
          · exact hx
          · rintro rfl; exact hr hm
        · simp only [List.mem_singleton] at hm; subst hm
          exact ⟨hown, _, by rw [hgr, if_pos rfl], rfl⟩
      · intro r' x hx hv hown'
        rw [hgr] at hx
        split at hx
        · rename_i e; subst e; simp
        · obtain ⟨vo1, a1, _, a3⟩ := hi.v.val r' x hx hv
          rw [hown', ho] at a1; cases a1; simp [a3]
    · intro k hk r hrm hcell
      obtain ⟨c, hkc, hcm⟩ := (hvok.uniqM k).mp hk
      have := (hclash k c hkc).mpr ⟨hk, r, hrm, hcell⟩
      rw [hokall k c hkc] at this; cases this

/-! ### Parameters -/

theorem applyParams_ok {vo : Obj K V Ty} {ps data data' : List (K × V)} (h : applyParams vo ps data = .ok data') :
    ∀ k, (mget data k = none → mget data' k = none) ∧ (∀ v, mget data k = some v → ∃ v', mget data' k = some v' ∧ typeOf v' = typeOf v) := by
  induction ps generalizing data with
  | nil => simp [applyParams] at h; subst h; intro k; exact ⟨fun h => h, fun v hv => ⟨v, hv, rfl⟩⟩
  | cons p ps ih =>
    obtain ⟨k0, v0⟩ := p
    simp only [applyParams] at h
    cases hd : mget data k0 with
    | none => rw [hd] at h; simp at h
    | some vo0 =>
      simp only [hd] at h
      split at h
      · rename_i hty
        intro k
        obtain ⟨a, b⟩ := ih h k
        simp only [mget_mput] at a b
        by_cases e : k0 = k
        · subst e
          simp only [if_true] at b
          refine ⟨fun hn => (by rw [hd] at hn; cases hn), ?_⟩
          intro v hv
          rw [hd] at hv; cases hv
          obtain ⟨v', h1, h2⟩ := b v0 rfl
          exact ⟨v', h1, h2.trans hty.symm⟩
        · simp only [if_neg e] at a b
          exact ⟨a, b⟩
      · cases h

/-- CreateRecord on a vault. -/
theorem createRecord_spec {w w' : World K V Ty} {o f : Nat} {vo : Obj K V Ty} {ps : List (K × V)} {res : Res K}
    (hi : Inv own home w) (ho : w.getObj o = some vo) (hs : vo.isSet = false) (h : createRecord w o f ps = some (w', res)) :
    (w' = w ∧ applyParams vo ps vo.tmpl = .error res) ∨
    (∃ data k, w' = w ∧ applyParams vo ps vo.tmpl = .ok data ∧ res = .bad .UniqueKeyValueAlredyInSet (some k) ∧ k ∈ vo.uniq ∧
      (∃ r ∈ vo.recs, cellOf w r k = mget data k) ∧ ∀ k' ∈ vo.uniq, k' < k → ∀ r ∈ vo.recs, cellOf w r k' ≠ mget data k') ∨
    (∃ data w1 cols, applyParams vo ps vo.tmpl = .ok data ∧ res = .good (ps.getLast?.map (·.1)) ∧
      (∀ k ∈ vo.uniq, ∀ r ∈ vo.recs, cellOf w r k ≠ mget data k) ∧
      (∀ k, mget cols k = (mget vo.cols k).map fun c => (c.add (c.addVal data k) w.nextR).1) ∧
      w1 = ({ w with recs := mput w.recs w.nextR ⟨data, true, 0, []⟩, nextR := w.nextR + 1 } : World K V Ty).putObj o
        { vo with cols := cols, recs := vo.recs ++ [w.nextR] } ∧
      RStep (fun r => if r = w.nextR then o else own r) home w1 w' ∧ Inv (fun r => if r = w.nextR then o else own r) home w' ∧
      w'.refs = w.refs.set f ⟨some w.nextR, some o⟩) := by
  have hvok := hi.v.vok o vo ho hs
  simp only [createRecord, ho, Option.bind_eq_bind, Option.bind_some] at h
  cases hp : applyParams vo ps vo.tmpl with
  | error e => simp only [hp] at h; cases h; exact .inl ⟨rfl, rfl⟩
  | ok data =>
    simp only [hp, Option.bind_eq_some_iff, Prod.exists] at h
    obtain ⟨w1, out, h1, h⟩ := h
    have hi' : Inv (fun r => if r = w.nextR then o else own r) home w := hi.own_congr (fun r hr => by simp; omega)
    have hap := applyParams_ok hp
    rcases insertRecord_spec (own := fun r => if r = w.nextR then o else own r) (data := data) hi' ho hs (by simp)
      (by
        intro k c hk
        obtain ⟨v, hv, hvt⟩ := hvok.tmplT k c hk
        obtain ⟨v', a, b⟩ := (hap k).2 v hv
        exact ⟨v', a, b.trans hvt⟩)
      (fun k hk => (hap k).1 (hvok.tmplN k hk)) with ⟨k, hku, hins, hcl, hle⟩ | ⟨w2, cols, hins, hinv, hno, hcols, hw⟩
    · rw [hins] at h1; cases h1; cases h
      exact .inr (.inl ⟨data, k, rfl, rfl, rfl, hku, hcl, hle⟩)
    · rw [hins] at h1; cases h1
      simp only [Option.map_eq_some_iff, Prod.mk.injEq] at h
      obtain ⟨w3, h3, rfl, rfl⟩ := h
      have h3' := h3
      simp only [setRecord, Option.bind_eq_bind, Option.bind_eq_some_iff] at h3
      obtain ⟨oo, hoo, old, hold, _⟩ := h3
      have hobj : w1.getObj o = some { vo with cols := cols, recs := vo.recs ++ [w.nextR] } := by
        rw [hw]; exact getObj_putObj_self _ _ _
      obtain ⟨w4, e4, st, hr⟩ := setRecord_ok (f := f) (p := some w.nextR) (o := o) hinv.r hinv.v.ltO hobj hold
        (by rintro r e; cases e
            refine ⟨⟨data, true, 0, []⟩, ?_⟩
            rw [hw, getRec_putObj, getRec_new, if_pos rfl])
        (by rintro r e; cases e; simp [hs])
      rw [h3'] at e4; cases e4
      have hrefs : w1.refs = w.refs := by rw [hw]; rfl
      rw [hrefs] at hr
      exact .inr (.inr ⟨data, w1, cols, rfl, rfl, hno, hcols, hw, st, st.inv hinv, hr⟩)

/-- CreateRecord without a reference, on a vault. -/
theorem createRow_spec {w w' : World K V Ty} {o : Nat} {vo : Obj K V Ty} {ps : List (K × V)} {res : Res K}
    (hi : Inv own home w) (ho : w.getObj o = some vo) (hs : vo.isSet = false) (h : createRow w o ps = some (w', res)) :
    (w' = w ∧ applyParams vo ps vo.tmpl = .error res) ∨
    (∃ data k, w' = w ∧ applyParams vo ps vo.tmpl = .ok data ∧ res = .bad .UniqueKeyValueAlredyInSet (some k) ∧ k ∈ vo.uniq ∧
      (∃ r ∈ vo.recs, cellOf w r k = mget data k) ∧ ∀ k' ∈ vo.uniq, k' < k → ∀ r ∈ vo.recs, cellOf w r k' ≠ mget data k') ∨
    (∃ data w1 cols, applyParams vo ps vo.tmpl = .ok data ∧ res = .good (ps.getLast?.map (·.1)) ∧
      (∀ k ∈ vo.uniq, ∀ r ∈ vo.recs, cellOf w r k ≠ mget data k) ∧
      (∀ k, mget cols k = (mget vo.cols k).map fun c => (c.add (c.addVal data k) w.nextR).1) ∧
      w1 = ({ w with recs := mput w.recs w.nextR ⟨data, true, 0, []⟩, nextR := w.nextR + 1 } : World K V Ty).putObj o
        { vo with cols := cols, recs := vo.recs ++ [w.nextR] } ∧
      RStep (fun r => if r = w.nextR then o else own r) home w1 w' ∧ Inv (fun r => if r = w.nextR then o else own r) home w' ∧
      w'.refs = w.refs) := by
  have hvok := hi.v.vok o vo ho hs
  simp only [createRow, ho, Option.bind_eq_bind, Option.bind_some] at h
  cases hp : applyParams vo ps vo.tmpl with
  | error e => simp only [hp] at h; cases h; exact .inl ⟨rfl, rfl⟩
  | ok data =>
    simp only [hp, Option.bind_eq_some_iff, Prod.exists] at h
    obtain ⟨w1, out, h1, h⟩ := h
    have hi' : Inv (fun r => if r = w.nextR then o else own r) home w := hi.own_congr (fun r hr => by simp; omega)
    have hap := applyParams_ok hp
    rcases insertRecord_spec (own := fun r => if r = w.nextR then o else own r) (data := data) hi' ho hs (by simp)
      (by
        intro k c hk
        obtain ⟨v, hv, hvt⟩ := hvok.tmplT k c hk
        obtain ⟨v', a, b⟩ := (hap k).2 v hv
        exact ⟨v', a, b.trans hvt⟩)
      (fun k hk => (hap k).1 (hvok.tmplN k hk)) with ⟨k, hku, hins, hcl, hle⟩ | ⟨w2, cols, hins, hinv, hno, hcols, hw⟩
    · rw [hins] at h1; cases h1; cases h
      exact .inr (.inl ⟨data, k, rfl, rfl, rfl, hku, hcl, hle⟩)
    · rw [hins] at h1; cases h1
      cases h
      have hrefs : w'.refs = w.refs := by rw [hw]; rfl
      exact .inr (.inr ⟨data, w', cols, rfl, rfl, hno, hcols, hw, ⟨.refl _, hinv.r⟩, hinv, hrefs⟩)

end MVault.W
