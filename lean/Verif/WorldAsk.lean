import Verif.WorldFrame
/-
Exact content of the answers of requests.
-/
set_option linter.unusedSectionVars false
set_option linter.unusedSimpArgs false
namespace MVault.W
variable {K V Ty : Type} [LinearOrder K] [LinearOrder V] [Typed V Ty] [DecidableEq Ty] {own home : Nat → Nat}

/-! ### Ranges of a sorted index -/

theorem takeWhile_filter {A : Type} (p : A → Bool) (l : List A) (h : l.Pairwise (fun a b => p b = true → p a = true)) :
    l.takeWhile p = l.filter p := by
  induction l with
  | nil => rfl
  | cons a l ih =>
    obtain ⟨h1, h2⟩ := List.pairwise_cons.mp h
    cases hp : p a with
    | true => simp [hp, ih h2]
    | false =>
      have : l.filter p = [] := by
        rw [List.filter_eq_nil_iff]; intro b hb hpb; rw [h1 b hb hpb] at hp; cases hp
      simp [hp, this]

theorem dropWhile_filter {A : Type} (p : A → Bool) (l : List A) (h : l.Pairwise (fun a b => p b = true → p a = true)) :
    l.dropWhile p = l.filter (fun a => !p a) := by
  induction l with
  | nil => rfl
  | cons a l ih =>
    obtain ⟨h1, h2⟩ := List.pairwise_cons.mp h
    cases hp : p a with
    | true => simp [hp, ih h2]
    | false =>
      have : l.filter (fun a => !p a) = l := by
        rw [List.filter_eq_self]; intro b hb
        cases hpb : p b with
        | false => rfl
        | true => rw [h1 b hb hpb] at hp; cases hp
      simp [hp, this]

theorem drop_takeWhile {A : Type} (p : A → Bool) (l : List A) : l.drop (l.takeWhile p).length = l.dropWhile p := by
  induction l with
  | nil => rfl
  | cons a l ih => cases hp : p a <;> simp [hp, ih]

theorem take_takeWhile {A : Type} (p : A → Bool) (l : List A) : l.take (l.takeWhile p).length = l.takeWhile p := by
  induction l with
  | nil => rfl
  | cons a l ih => cases hp : p a <;> simp [hp, ih]

/-- The entries between two boundaries. -/
theorem range_filter (l : List (V × Nat)) (p q : V × Nat → Bool) (hp : l.Pairwise (fun a b => p b = true → p a = true))
    (hq : l.Pairwise (fun a b => q b = true → q a = true)) (hpq : ∀ e, p e = true → q e = true) :
    iterRange l (l.takeWhile p).length (l.takeWhile q).length = some ((l.filter (fun e => !p e && q e)).map (·.2)) := by
  have hle : (l.takeWhile p).length ≤ (l.takeWhile q).length := by
    rw [takeWhile_filter p l hp, takeWhile_filter q l hq, ← List.countP_eq_length_filter, ← List.countP_eq_length_filter]
    exact List.countP_mono_left (fun e _ he => hpq e he)
  unfold iterRange
  rw [if_pos hle]
  congr 2
  have e1 : (l.drop (l.takeWhile p).length).take ((l.takeWhile q).length - (l.takeWhile p).length) =
      (l.take (l.takeWhile q).length).drop (l.takeWhile p).length := by
    rw [List.drop_take]
  rw [e1, take_takeWhile, takeWhile_filter q l hq]
  have e2 : (l.takeWhile p).length = ((l.filter q).takeWhile p).length := by
    rw [takeWhile_filter p l hp, takeWhile_filter p _ (hp.sublist List.filter_sublist), List.filter_filter]
    congr 1
    apply List.filter_congr
    intro e _
    cases hpe : p e with
    | true => simp [hpq e hpe]
    | false => simp
  rw [e2, drop_takeWhile, dropWhile_filter p _ (hp.sublist List.filter_sublist), List.filter_filter]

theorem sorted_lt {l : List (V × Nat)} (h : l.Pairwise (fun a b => a.1 ≤ b.1)) (v : V) :
    l.Pairwise (fun a b => decide (b.1 < v) = true → decide (a.1 < v) = true) :=
  h.imp (fun hab hb => by simp only [decide_eq_true_eq] at *; exact lt_of_le_of_lt hab hb)

theorem sorted_le {l : List (V × Nat)} (h : l.Pairwise (fun a b => a.1 ≤ b.1)) (v : V) :
    l.Pairwise (fun a b => decide (b.1 ≤ v) = true → decide (a.1 ≤ v) = true) :=
  h.imp (fun hab hb => by simp only [decide_eq_true_eq] at *; exact le_trans hab hb)

theorem pairwise_all {A : Type} {R : A → A → Prop} (h : ∀ a b, R a b) (l : List A) : l.Pairwise R := by
  induction l with
  | nil => exact .nil
  | cons a l ih => exact .cons (fun b _ => h a b) ih

theorem takeWhile_true {A : Type} (l : List A) : l.takeWhile (fun _ => true) = l := by
  induction l with
  | nil => rfl
  | cons a l ih => simp [ih]

theorem takeWhile_none {A : Type} (l : List A) : l.takeWhile (fun _ => false) = [] := by
  cases l <;> rfl

instance Cond.decHolds (c : Cond V) (v : V) : Decidable (c.holds v) := by cases c <;> unfold Cond.holds <;> infer_instance

/-- The C++ arguments of the `Request...` function for a condition: kind, first and second value, inclusion flags. -/
def Cond.args : Cond V → ReqType × V × V × Bool × Bool
  | .eq v => (.Equal, v, v, false, false)
  | .gt v => (.Greater, v, v, false, false)
  | .ge v => (.GreaterOrEqual, v, v, false, false)
  | .lt v => (.Less, v, v, false, false)
  | .le v => (.LessOrEqual, v, v, false, false)
  | .between a b ia ib => (.Interval, a, b, ia, ib)

theorem ask_eq (env : Env) (w : World K V Ty) (o : Nat) (k : K) (c : Cond V) (n : Option Nat) (pred : Nat → Bool) (s : Nat) :
    ask env w o k c n pred s = request env w o c.args.1 k c.args.2.1 c.args.2.2.1 c.args.2.2.2.1 c.args.2.2.2.2 n pred s := by
  cases c <;> rfl

theorem opAsk_eq (o : Nat) (k : K) (c : Cond V) (n : Option Nat) (pred : Nat → Bool) (s : Nat) :
    (Op.ask o k c n pred s : Op K V Ty) = .request o c.args.1 k c.args.2.1 c.args.2.2.1 c.args.2.2.2.1 c.args.2.2.2.2 n pred s := by
  cases c <;> rfl

/-- The type of the condition's first value. -/
def Cond.ty (c : Cond V) : Ty := typeOf c.args.2.1

theorem Cond.typed_ty {c : Cond V} {t : Ty} (h : c.typed t) : c.ty = t := by
  cases c <;> first | exact h | exact h.1

theorem Cond.typed_snd {c : Cond V} {t : Ty} (h : c.typed t) : castTo (typeOf c.args.2.1) c.args.2.2.1 = c.args.2.2.1 := by
  cases c <;> simp_all [Cond.typed, Cond.args, castTo]

/-- The scan of `RequestRecordsSet` for a condition. -/
def scan (env : Env) (col : Col V Ty) (c : Cond V) : Option (List Nat) :=
  visited env col c.args.1 c.args.2.1 c.args.2.2.1 c.args.2.2.2.1 c.args.2.2.2.2

/-- An ordered condition visits exactly the entries of the sorted index that satisfy it, in order. -/
theorem scan_ordered (env : Env) (col : Col V Ty) (hs : col.ord.Pairwise (fun a b => a.1 ≤ b.1)) (c : Cond V) (ho : c.ordered = true) :
    scan env col c = some ((col.ord.filter (fun e => decide (c.holds e.1))).map (·.2)) := by
  have hT : (col.ord.takeWhile (fun _ => true)).length = col.ord.length := by rw [takeWhile_true]
  have hF : (col.ord.takeWhile (fun _ => false)).length = 0 := by rw [takeWhile_none]; rfl
  have pT : col.ord.Pairwise (fun a b => (fun _ : V × Nat => true) b = true → (fun _ : V × Nat => true) a = true) :=
    pairwise_all (fun _ _ _ => rfl) _
  have pF : col.ord.Pairwise (fun a b => (fun _ : V × Nat => false) b = true → (fun _ : V × Nat => false) a = true) :=
    pairwise_all (fun _ _ h => by cases h) _
  cases c with
  | eq v => simp [Cond.ordered] at ho
  | gt v =>
    have := range_filter col.ord (fun e => decide (e.1 ≤ v)) (fun _ => true) (sorted_le hs v) pT (fun _ _ => rfl)
    rw [hT] at this
    change iterRange col.ord (col.ord.takeWhile (fun e => decide (e.1 ≤ v))).length col.ord.length = _
    rw [this]; congr 2
    apply List.filter_congr; intro e _; simp [Cond.holds, ← decide_not]
  | ge v =>
    have := range_filter col.ord (fun e => decide (e.1 < v)) (fun _ => true) (sorted_lt hs v) pT (fun _ _ => rfl)
    rw [hT] at this
    change iterRange col.ord (col.ord.takeWhile (fun e => decide (e.1 < v))).length col.ord.length = _
    rw [this]; congr 2
    apply List.filter_congr; intro e _; simp [Cond.holds, ← decide_not]
  | lt v =>
    have := range_filter col.ord (fun _ => false) (fun e => decide (e.1 < v)) pF (sorted_lt hs v) (fun _ h => by cases h)
    rw [hF] at this
    change iterRange col.ord 0 (col.ord.takeWhile (fun e => decide (e.1 < v))).length = _
    rw [this]; congr 2
  | le v =>
    have := range_filter col.ord (fun _ => false) (fun e => decide (e.1 ≤ v)) pF (sorted_le hs v) (fun _ h => by cases h)
    rw [hF] at this
    change iterRange col.ord 0 (col.ord.takeWhile (fun e => decide (e.1 ≤ v))).length = _
    rw [this]; congr 2
  | between a b ia ib =>
    change (if b < a ∨ (a = b ∧ (ia = false ∨ ib = false)) then iterRange col.ord col.ord.length col.ord.length
      else iterRange col.ord (if ia = true then lowerIdx col.ord a else upperIdx col.ord a)
        (if ib = true then upperIdx col.ord b else lowerIdx col.ord b)) = _
    split
    · rename_i hc
      have : (col.ord.filter (fun e => decide ((Cond.between a b ia ib).holds e.1))) = [] := by
        rw [List.filter_eq_nil_iff]
        intro e _
        intro h
        obtain ⟨h1, h2⟩ := of_decide_eq_true h
        rcases hc with hc | ⟨rfl, hc⟩
        · rcases h1 with h1 | ⟨_, h1⟩
          · rcases h2 with h2 | ⟨_, h2⟩
            · exact absurd (h1.trans h2) (not_lt_of_gt hc)
            · rw [h2] at h1; exact absurd h1 (not_lt_of_gt hc)
          · rw [h1] at h2
            rcases h2 with h2 | ⟨_, h2⟩
            · exact absurd h2 (not_lt_of_gt hc)
            · rw [h2] at hc; exact absurd hc (lt_irrefl _)
        · rcases h1 with h1 | ⟨h0, h1⟩
          · rcases h2 with h2 | ⟨_, h2⟩
            · exact absurd (h1.trans h2) (lt_irrefl _)
            · rw [h2] at h1; exact absurd h1 (lt_irrefl _)
          · rcases h2 with h2 | ⟨h3, h2⟩
            · rw [h1] at h2; exact absurd h2 (lt_irrefl _)
            · rcases hc with hc | hc
              · rw [h0] at hc; cases hc
              · rw [h3] at hc; cases hc
      rw [this]; simp [iterRange]
    · rename_i hc
      have hab : a < b ∨ (a = b ∧ ia = true ∧ ib = true) := by
        rcases lt_trichotomy a b with h | h | h
        · exact .inl h
        · right; refine ⟨h, ?_, ?_⟩
          · cases hia : ia with
            | true => rfl
            | false => exact absurd (.inr ⟨h, .inl hia⟩) hc
          · cases hib : ib with
            | true => rfl
            | false => exact absurd (.inr ⟨h, .inr hib⟩) hc
        · exact absurd (.inl h) hc
      have key : ∀ p q : V × Nat → Bool, p = (if ia = true then fun e => decide (e.1 < a) else fun e => decide (e.1 ≤ a)) →
          q = (if ib = true then fun e => decide (e.1 ≤ b) else fun e => decide (e.1 < b)) →
          iterRange col.ord (col.ord.takeWhile p).length (col.ord.takeWhile q).length =
            some ((col.ord.filter (fun e => decide ((Cond.between a b ia ib).holds e.1))).map (·.2)) := by
        rintro p q rfl rfl
        rw [range_filter]
        · congr 2
          apply List.filter_congr; intro e _
          rw [Bool.eq_iff_iff]
          have h1 : a ≤ e.1 ↔ a < e.1 ∨ e.1 = a := by rw [le_iff_lt_or_eq, @eq_comm _ a]
          have h2 : e.1 ≤ b ↔ e.1 < b ∨ e.1 = b := le_iff_lt_or_eq
          cases ia <;> cases ib <;> simp [Cond.holds, h1, h2]
        · cases ia
          · exact sorted_le hs a
          · exact sorted_lt hs a
        · cases ib
          · exact sorted_lt hs b
          · exact sorted_le hs b
        · intro e he
          cases ia <;> cases ib <;> simp at he ⊢ <;> simp at hab
          · exact lt_of_le_of_lt he hab
          · exact (lt_of_le_of_lt he hab).le
          · exact he.trans hab
          · rcases hab with hab | hab
            · exact (he.trans hab).le
            · exact hab ▸ he.le
      have h2 := key _ _ rfl rfl
      rw [← h2]
      cases ia <;> cases ib <;> simp [lowerIdx, upperIdx]

/-- Equality visits the equal range of the hash index. -/
theorem scan_eq (env : Env) (col : Col V Ty) (v : V) : scan env col (.eq v) = some (equalRange env col v) := rfl

/-- The index a condition is answered from. -/
def Cond.index (c : Cond V) (col : Col V Ty) : List (V × Nat) := if c.ordered = true then col.ord else col.hash

theorem scan_perm (env : Env) (col : Col V Ty) (hs : col.ord.Pairwise (fun a b => a.1 ≤ b.1)) (c : Cond V) :
    ∃ l, scan env col c = some l ∧ l.Perm (((c.index col).filter (fun e => decide (c.holds e.1))).map (·.2)) := by
  cases hc : c.ordered with
  | true => exact ⟨_, scan_ordered env col hs c hc, by simp [Cond.index, hc]⟩
  | false =>
    cases c with
    | eq v =>
      refine ⟨_, rfl, ?_⟩
      simp only [Cond.index, hc, Bool.false_eq_true, if_false]
      exact env.isPerm _
    | _ => simp [Cond.ordered] at hc

/-! ### Requests on a vault -/

theorem foldl_setIns_append (l acc : List Nat) (h : (acc ++ l).Nodup) : l.foldl setIns acc = acc ++ l := by
  induction l generalizing acc with
  | nil => simp
  | cons a l ih =>
    have ha : a ∉ acc := by
      intro hm
      rw [List.nodup_append] at h
      exact h.2.2 a hm a (by simp) rfl
    simp only [List.foldl_cons, setIns, if_neg ha]
    rw [ih (acc ++ [a]) (by simpa using h)]
    simp

theorem foldl_setIns_nodup {l : List Nat} (h : l.Nodup) : l.foldl setIns [] = l := by
  rw [foldl_setIns_append l [] (by simpa using h)]; rfl

theorem request_vault {env : Env} {w w' : World K V Ty} {o : Nat} {t : ReqType} {k : K} {a b : V} {ia ib : Bool} {n : Option Nat}
    {pred : Nat → Bool} {s : Nat} {res : Res K} {vo so : Obj K V Ty} (hi : Inv own home w) (ho : w.getObj o = some vo) (hos : vo.isSet = false)
    (hs : w.getObj s = some so) (his : so.isSet = true) (hh : o = home s)
    (h : request env w o t k a b ia ib n pred s = some (w', res)) :
    SP own home w w' ∧ parentOf w' s = some o ∧
    ((members w' s = [] ∧ checkKey vo k (typeOf a) = .error res) ∨
     ∃ l, res = .good (some k) ∧ requestSet env vo t k a b ia ib n pred [] = some (.ok l) ∧ members w' s = l.foldl setIns []) := by
  have hv : vaultOf o vo = some o := by simp [vaultOf, hos]
  refine ⟨request_sp hi.v hi.q.si hs his (by intro oo p h1 h2; rw [ho] at h1; cases h1; rw [hv] at h2; cases h2; exact hh) h, ?_⟩
  simp only [request, ho, hos, Option.bind_eq_bind, Option.bind_some, Bool.false_eq_true, if_false] at h
  have hne : o ≠ s := by rintro rfl; rw [ho] at hs; cases hs; rw [hos] at his; cases his
  rw [if_neg hne] at h
  simp only [Option.bind_eq_some_iff] at h
  obtain ⟨w1, h1, oo1, ho1, out, hout, h⟩ := h
  obtain ⟨sp1, ⟨so1, g1, g2, g3, g4⟩, gS⟩ := prepTarget_spec hi.q.si hs his ho hos hh hne h1
  obtain ⟨b1, hb, e1, e2⟩ := sp1.sf.objTo ho
  rw [ho1] at hb; cases hb
  have e2 := e2 hos
  have hreq : requestSet env oo1 t k a b ia ib n pred [] = requestSet env vo t k a b ia ib n pred [] := by rw [e2]; rfl
  have hck : checkKey oo1 k (typeOf a) = checkKey vo k (typeOf a) := by rw [e2]; rfl
  rw [hreq] at hout
  cases out with
  | error e =>
    cases h
    refine ⟨by rw [parentOf_eq g1, g3], .inl ⟨by rw [members_eq g1, g4], ?_⟩⟩
    unfold requestSet at hout
    split at hout
    · rename_i e' he; cases hout; exact he
    · simp at hout
  | ok l =>
    simp only [Option.map_eq_some_iff, Prod.mk.injEq] at h
    obtain ⟨w2, h2, rfl, hr⟩ := h
    have hv1 := sp1.sf.vinv hi.v
    have hp1 : vaultOf o oo1 = some o := by unfold vaultOf; rw [e1, hos]; simp
    obtain ⟨q, so2, k1, k2, k3, k4⟩ := fillTarget_sq sp1.si.s g1 g2 (by rw [g3]; simp) (by
      intro r hr
      have hout1 := hout
      rw [← hreq] at hout1
      rcases requestSet_mem hout1 hr with hr | hr
      · simp at hr
      · have := indexed_own hv1 sp1.si.s ho1 hp1 hr
        rw [← hh]; exact this) h2
    exact ⟨by rw [parentOf_eq k1, k4, g3], .inr ⟨l, hr.symm, hout, by rw [members_eq k1, k3, g4]⟩⟩

/-- Sound and sorted indices give sound and repetition free scans. -/
theorem scan_vault {env : Env} {cell : Nat → Option V} {recs : List Nat} {col : Col V Ty} (hc : ColOk cell recs col) (c : Cond V) :
    ∃ l, scan env col c = some l ∧ l.Nodup ∧ (∀ r ∈ l, r ∈ recs ∧ ∃ v, cell r = some v ∧ c.holds v) ∧
      ((c.ordered = true → col.dropO = false) → (c.ordered = false → col.dropH = false) →
        ∀ r ∈ recs, ∀ v, cell r = some v → c.holds v → r ∈ l) := by
  obtain ⟨l, h1, h2⟩ := scan_perm env col hc.sorted c
  have hN : (c.index col).Nodup := by unfold Cond.index; split; exacts [hc.ordN, hc.hashN]
  have hS : ∀ v r, (v, r) ∈ c.index col → r ∈ recs ∧ cell r = some v := by
    unfold Cond.index; split; exacts [hc.ordS, hc.hashS]
  refine ⟨l, h1, ?_, ?_, ?_⟩
  · rw [h2.nodup_iff]
    rw [List.Nodup, List.pairwise_map]
    refine ((List.Pairwise.sublist List.filter_sublist hN).imp_of_mem ?_)
    intro x y hx hy hne e
    have hx' := hS x.1 x.2 (List.mem_filter.mp hx).1
    have hy' := hS y.1 y.2 (List.mem_filter.mp hy).1
    rw [e, hy'.2] at hx'
    exact hne (Prod.ext (Option.some.inj hx'.2).symm e)
  · intro r hr
    obtain ⟨e, he, rfl⟩ := List.mem_map.mp (h2.mem_iff.mp hr)
    obtain ⟨he1, he2⟩ := List.mem_filter.mp he
    obtain ⟨a1, a2⟩ := hS e.1 e.2 he1
    exact ⟨a1, e.1, a2, of_decide_eq_true he2⟩
  · intro d1 d2 r hr v hv hh
    refine h2.mem_iff.mpr (List.mem_map.mpr ⟨(v, r), List.mem_filter.mpr ⟨?_, decide_eq_true hh⟩, rfl⟩)
    unfold Cond.index
    cases ho : c.ordered with
    | true => rw [if_pos rfl]; exact hc.ordC (d1 ho) r hr v hv
    | false => simp only [Bool.false_eq_true, if_false]; exact hc.hashC (d2 ho) r hr v hv

/-- The first `n` elements, or all. -/
def takeOpt (n : Option Nat) (l : List Nat) : List Nat := match n with | none => l | some n => l.take n

theorem takeOpt_sublist (n : Option Nat) (l : List Nat) : (takeOpt n l).Sublist l := by
  cases n with
  | none => exact List.Sublist.refl _
  | some n => exact List.take_sublist n l

/-- `ask` on a vault. -/
theorem ask_vault {env : Env} {w w' : World K V Ty} {o : Nat} {k : K} {c : Cond V} {n : Option Nat}
    {pred : Nat → Bool} {s : Nat} {res : Res K} {vo so : Obj K V Ty} (hi : Inv own home w) (ho : w.getObj o = some vo) (hos : vo.isSet = false)
    (hs : w.getObj s = some so) (his : so.isSet = true) (hh : o = home s) (ht : c.typed c.ty)
    (h : ask env w o k c n pred s = some (w', res)) :
    SP own home w w' ∧ parentOf w' s = some o ∧
    ((members w' s = [] ∧ checkKey vo k c.ty = .error res) ∨
     ∃ col l, mget vo.cols k = some col ∧ col.ty = c.ty ∧ res = .good (some k) ∧ scan env col c = some l ∧ l.Nodup ∧
       members w' s = (takeOpt n l).filter pred) := by
  rw [ask_eq] at h
  obtain ⟨sp, hp, h1 | ⟨l, hr, hl, hm⟩⟩ := request_vault hi ho hos hs his hh h
  · exact ⟨sp, hp, .inl h1⟩
  · refine ⟨sp, hp, .inr ?_⟩
    unfold requestSet at hl
    split at hl
    · cases hl
    · rename_i col hck
      obtain ⟨hc, hty⟩ := checkKey_ok hck
      rw [Cond.typed_snd ht] at hl
      obtain ⟨l0, hs0, hn0, _, _⟩ := scan_vault (env := env) ((hi.v.vok o vo ho hos).cols k col hc) c
      have hs1 := hs0
      unfold scan at hs1
      rw [hs1] at hl
      simp only [Option.map_some, Option.some.injEq, Except.ok.injEq] at hl
      change ((takeOpt n l0).filter pred).foldl setIns [] = l at hl
      have hN : ((takeOpt n l0).filter pred).Nodup := hn0.sublist (List.filter_sublist.trans (takeOpt_sublist n l0))
      rw [foldl_setIns_nodup hN] at hl
      subst hl
      rw [foldl_setIns_nodup hN] at hm
      exact ⟨col, l0, hc, hty, hr, hs0, hn0, hm⟩

/-! ### Request trees -/

/-- The condition of a leaf, VaultRequest.hpp lines 8-41. -/
def leafCond : ReqType → V → Cond V
  | .Equal, v => .eq v
  | .Greater, v => .gt v
  | .GreaterOrEqual, v => .ge v
  | .Less, v => .lt v
  | .LessOrEqual, v => .le v
  | .Interval, v => .between v v false false

theorem leafCond_args (t : ReqType) (v : V) : (leafCond t v).args = (t, v, v, false, false) := by cases t <;> rfl

theorem leafCond_typed (t : ReqType) (v : V) : (leafCond t v).typed (typeOf v) := by cases t <;> simp [leafCond, Cond.typed]

/-- A record is found by a simple condition in the index of a key. -/
def Hit (vo : Obj K V Ty) (k : K) (c : Cond V) (r : Nat) : Prop := ∃ col v, mget vo.cols k = some col ∧ (v, r) ∈ c.index col ∧ c.holds v

/-- The records a request tree finds in the indices of an object. -/
def Req.found (vo : Obj K V Ty) : Req K V → Nat → Prop
  | .leaf t k v pred, r => Hit vo k (leafCond t v) r ∧ pred r = true
  | .and a b, r => a.found vo r ∧ b.found vo r
  | .or a b, r => a.found vo r ∨ b.found vo r

/-- Specification of a request tree: which records it should give. -/
def Req.sat (w : World K V Ty) : Req K V → Nat → Prop
  | .leaf t k v pred, r => (∃ v', value w r k = some v' ∧ (leafCond t v).holds v') ∧ pred r = true
  | .and a b, r => a.sat w r ∧ b.sat w r
  | .or a b, r => a.sat w r ∨ b.sat w r

/-- All keys of the tree exist with the right type. -/
def Req.keysOk (vo : Obj K V Ty) : Req K V → Prop
  | .leaf _ k v _ => ∃ c, mget vo.cols k = some c ∧ c.ty = typeOf v
  | .and a b => a.keysOk vo ∧ b.keysOk vo
  | .or a b => a.keysOk vo ∧ b.keysOk vo

/-- The condition of the interval fast path of `And`. -/
def fastCond (t1 : ReqType) (v1 v2 : V) (t2 : ReqType) : Cond V := .between v1 v2 (decide (t1 = .GreaterOrEqual)) (decide (t2 = .LessOrEqual))

/-- Every index of the object is consistent with the records it holds. -/
def ColsOk (cell : Nat → K → Option V) (vo : Obj K V Ty) : Prop :=
  ∀ k c, mget vo.cols k = some c → ColOk (fun r => cell r k) vo.recs c

theorem requestSet_scan {env : Env} {cell : Nat → K → Option V} {vo : Obj K V Ty} (hv : ColsOk cell vo) {k : K} {c : Cond V} {pred : Nat → Bool} (ht : c.typed c.ty) :
    (∀ e, requestSet env vo c.args.1 k c.args.2.1 c.args.2.2.1 c.args.2.2.2.1 c.args.2.2.2.2 none pred [] = some (.error e) →
      ¬ ∃ col, mget vo.cols k = some col ∧ col.ty = c.ty) ∧
    (∀ l, requestSet env vo c.args.1 k c.args.2.1 c.args.2.2.1 c.args.2.2.2.1 c.args.2.2.2.2 none pred [] = some (.ok l) →
      (∃ col, mget vo.cols k = some col ∧ col.ty = c.ty) ∧ l.Nodup ∧ ∀ r, r ∈ l ↔ Hit vo k c r ∧ pred r = true) ∧
    (requestSet env vo c.args.1 k c.args.2.1 c.args.2.2.1 c.args.2.2.2.1 c.args.2.2.2.2 none pred [] ≠ none) := by
  have hck : checkKey vo k (typeOf c.args.2.1) = checkKey vo k c.ty := rfl
  unfold requestSet
  rw [hck, Cond.typed_snd ht]
  rcases checkKey_cases vo k c.ty with ⟨h1, h2⟩ | ⟨col, h1, h2, h3⟩ | ⟨col, h1, h2, h3⟩
  · rw [h1]; refine ⟨fun e _ => ?_, fun l h => by simp at h, by simp⟩
    rintro ⟨col, hc, _⟩; rw [h2] at hc; cases hc
  · rw [h3]; refine ⟨fun e _ => ?_, fun l h => by simp at h, by simp⟩
    rintro ⟨col', hc, ht'⟩; rw [h1] at hc; cases hc; exact h2 ht'
  · rw [h3]
    obtain ⟨l0, hs0, hp0⟩ := scan_perm env col (hv k col h1).sorted c
    obtain ⟨l1, hs1, hn1, _, _⟩ := scan_vault (env := env) (hv k col h1) c
    rw [hs0] at hs1; cases hs1
    unfold scan at hs0
    dsimp only
    rw [hs0]
    simp only [Option.map_some, Option.some.injEq, Except.ok.injEq, reduceCtorEq, false_implies, implies_true, true_and, ne_eq, not_false_eq_true, and_true]
    intro l hl
    have hN : (l0.filter pred).Nodup := hn1.sublist List.filter_sublist
    rw [foldl_setIns_nodup hN] at hl
    subst hl
    refine ⟨⟨col, h1, h2⟩, hN, fun r => ?_⟩
    rw [List.mem_filter, hp0.mem_iff, List.mem_map]
    constructor
    · rintro ⟨⟨e, he, rfl⟩, hpr⟩
      obtain ⟨he1, he2⟩ := List.mem_filter.mp he
      exact ⟨⟨col, e.1, h1, he1, of_decide_eq_true he2⟩, hpr⟩
    · rintro ⟨⟨col', v, hc, hm, hh⟩, hpr⟩
      rw [h1] at hc; cases hc
      exact ⟨⟨(v, r), List.mem_filter.mpr ⟨hm, decide_eq_true hh⟩, rfl⟩, hpr⟩

theorem requestSet_leaf {env : Env} {cell : Nat → K → Option V} {vo : Obj K V Ty} (hv : ColsOk cell vo) (t : ReqType) (k : K) (v : V) (pred : Nat → Bool) :
    (∀ e, requestSet env vo t k v v false false none pred [] = some (.error e) → ¬ (Req.leaf t k v pred).keysOk vo) ∧
    (∀ l, requestSet env vo t k v v false false none pred [] = some (.ok l) →
      (Req.leaf t k v pred).keysOk vo ∧ l.Nodup ∧ ∀ r, r ∈ l ↔ (Req.leaf t k v pred).found vo r) ∧
    (requestSet env vo t k v v false false none pred [] ≠ none) := by
  have hty : (leafCond t v).ty = typeOf v := by unfold Cond.ty; rw [leafCond_args]
  have := requestSet_scan (env := env) hv (k := k) (c := leafCond t v) (pred := pred) (by rw [hty]; exact leafCond_typed t v)
  rw [leafCond_args, hty] at this
  exact this

/-- The interval of the fast path is the conjunction of the two simple conditions. -/
theorem fast_hit {cell : Nat → K → Option V} {vo : Obj K V Ty} (hv : ColsOk cell vo) {t1 t2 : ReqType} {k : K} {v1 v2 : V} {r : Nat}
    (h1 : t1 = .Greater ∨ t1 = .GreaterOrEqual) (h2 : t2 = .Less) :
    Hit vo k (fastCond t1 v1 v2 t2) r ↔ Hit vo k (leafCond t1 v1) r ∧ Hit vo k (leafCond t2 v2) r := by
  subst h2
  have o1 : ∀ col : Col V Ty, (leafCond t1 v1).index col = col.ord := by
    intro col; rcases h1 with rfl | rfl <;> rfl
  have hh : ∀ v, (fastCond t1 v1 v2 .Less).holds v ↔ (leafCond t1 v1).holds v ∧ (leafCond .Less v2).holds v := by
    intro v
    rcases h1 with rfl | rfl
    · simp [fastCond, Cond.holds, leafCond]
    · have : v1 ≤ v ↔ v1 < v ∨ v = v1 := by rw [le_iff_lt_or_eq, @eq_comm _ v1]
      simp [fastCond, Cond.holds, leafCond, this]
  constructor
  · rintro ⟨col, v, hc, hm, h⟩
    obtain ⟨a, b⟩ := (hh v).mp h
    exact ⟨⟨col, v, hc, by rw [o1]; exact hm, a⟩, ⟨col, v, hc, hm, b⟩⟩
  · rintro ⟨⟨col, v, hc, hm, a⟩, ⟨col', v', hc', hm', b⟩⟩
    rw [hc] at hc'; cases hc'
    rw [o1] at hm
    have e1 := ((hv k col hc).ordS _ _ hm).2
    have e2 := ((hv k col hc).ordS v' r hm').2
    rw [e1] at e2; cases e2
    exact ⟨col, v, hc, hm, (hh v).mpr ⟨a, b⟩⟩

/-- Outcome of a request tree on a vault. -/
def EvalOk (vo : Obj K V Ty) (q : Req K V) (x : Option (Except (Res K) (List Nat))) : Prop :=
  (∀ e, x = some (.error e) → ¬ q.keysOk vo) ∧
  (∀ l, x = some (.ok l) → q.keysOk vo ∧ l.Nodup ∧ ∀ r, r ∈ l ↔ q.found vo r) ∧
  (x = none → ¬ q.keysOk vo)

/-- The generic path of `And`. -/
def andBind (x y : Option (Except (Res K) (List Nat))) : Option (Except (Res K) (List Nat)) :=
  x.bind fun ra => match ra with
    | .error e => some (.error e)
    | .ok la => y.bind fun rb => match rb with
      | .error e => some (.error e)
      | .ok lb => some (.ok (la.filter (· ∈ lb)))

theorem evalOk_and {vo : Obj K V Ty} {a b : Req K V} {x y : Option (Except (Res K) (List Nat))} (ha : EvalOk vo a x) (hb : EvalOk vo b y) :
    EvalOk vo (.and a b) (andBind x y) := by
  unfold andBind
  cases x with
  | none => exact ⟨by simp, by simp, fun _ h => ha.2.2 rfl h.1⟩
  | some ra =>
    cases ra with
    | error e => exact ⟨fun _ _ h => ha.1 e rfl h.1, by simp, by simp⟩
    | ok la =>
      cases y with
      | none => exact ⟨by simp, by simp, fun _ h => hb.2.2 rfl h.2⟩
      | some rb =>
        cases rb with
        | error e => exact ⟨fun _ _ h => hb.1 e rfl h.2, by simp, by simp⟩
        | ok lb =>
          obtain ⟨a1, a2, a3⟩ := ha.2.1 la rfl
          obtain ⟨b1, b2, b3⟩ := hb.2.1 lb rfl
          refine ⟨by simp, ?_, by simp⟩
          intro l hl
          simp only [Option.bind_some, Option.some.injEq, Except.ok.injEq] at hl
          subst hl
          refine ⟨⟨a1, b1⟩, a2.sublist List.filter_sublist, fun r => ?_⟩
          rw [List.mem_filter]
          simp only [decide_eq_true_eq, a3, b3, Req.found]

theorem evalReq_ok {env : Env} {cell : Nat → K → Option V} {vo : Obj K V Ty} (hv : ColsOk cell vo) (q : Req K V) : EvalOk vo q (evalReq env vo q) := by
  have leafOk : ∀ t k v pred, EvalOk vo (.leaf t k v pred) (requestSet env vo t k v v false false none pred []) := by
    intro t k v pred
    obtain ⟨a, b, c⟩ := requestSet_leaf (env := env) hv t k v pred
    exact ⟨a, b, fun h => absurd h c⟩
  induction q with
  | leaf t k v pred => exact leafOk t k v pred
  | or a b iha ihb =>
    simp only [evalReq, Option.bind_eq_bind]
    generalize evalReq env vo a = x at iha ⊢
    generalize evalReq env vo b = y at ihb ⊢
    cases x with
    | none => exact ⟨by simp, by simp, fun _ h => iha.2.2 rfl h.1⟩
    | some ra =>
      cases ra with
      | error e => exact ⟨fun _ _ h => iha.1 e rfl h.1, by simp, by simp⟩
      | ok la =>
        cases y with
        | none => exact ⟨by simp, by simp, fun _ h => ihb.2.2 rfl h.2⟩
        | some rb =>
          cases rb with
          | error e => exact ⟨fun _ _ h => ihb.1 e rfl h.2, by simp, by simp⟩
          | ok lb =>
            obtain ⟨a1, a2, a3⟩ := iha.2.1 la rfl
            obtain ⟨b1, b2, b3⟩ := ihb.2.1 lb rfl
            refine ⟨by simp, ?_, by simp⟩
            intro l hl
            simp only [Option.bind_some, Option.some.injEq, Except.ok.injEq] at hl
            subst hl
            refine ⟨⟨a1, b1⟩, nodup_foldl_setIns _ _ (by simp), fun r => ?_⟩
            rw [mem_foldl_setIns]
            simp [a3, b3, Req.found]
  | and a b iha ihb =>
    cases a with
    | leaf t1 k1 v1 p1 =>
      cases b with
      | leaf t2 k2 v2 p2 =>
        simp only [evalReq]
        split
        · rename_i hc
          obtain ⟨rfl, h1, h2⟩ := hc
          have h2 : t2 = .Less := by
            rcases h2 with h2 | h2
            · exact h2
            · subst h2; rcases h1 with h1 | h1 <;> cases h1
          split
          · rename_i hne
            refine ⟨by simp, by simp, ?_⟩
            rintro _ ⟨⟨c, h3, h4⟩, ⟨c', h5, h6⟩⟩
            rw [h3] at h5; cases h5
            exact hne (h4.symm.trans h6)
          · rename_i heq
            have heq : typeOf v1 = typeOf v2 := Decidable.not_not.mp heq
            have hty : (fastCond t1 v1 v2 t2).ty = typeOf v1 := rfl
            have := requestSet_scan (env := env) hv (k := k1) (c := fastCond t1 v1 v2 t2) (pred := fun r => p1 r && p2 r)
              (by rw [hty]; exact ⟨rfl, heq.symm⟩)
            rw [hty] at this
            change (∀ e, requestSet env vo .Interval k1 v1 v2 _ _ none _ [] = _ → _) ∧ (∀ l, requestSet env vo .Interval k1 v1 v2 _ _ none _ [] = _ → _) ∧ _ at this
            obtain ⟨a, b, c⟩ := this
            refine ⟨?_, ?_, fun h => absurd h c⟩
            · rintro e he ⟨⟨c, h3, h4⟩, _⟩
              exact a e he ⟨c, h3, h4⟩
            · intro l hl
              obtain ⟨⟨c, h3, h4⟩, hn, hm⟩ := b l hl
              refine ⟨⟨⟨c, h3, h4⟩, ⟨c, h3, h4.trans heq⟩⟩, hn, fun r => ?_⟩
              rw [hm, fast_hit hv h1 h2]
              simp only [Req.found, Bool.and_eq_true]
              constructor
              · rintro ⟨⟨x, y⟩, z, u⟩; exact ⟨⟨x, z⟩, ⟨y, u⟩⟩
              · rintro ⟨⟨x, z⟩, ⟨y, u⟩⟩; exact ⟨⟨x, y⟩, z, u⟩
        · exact evalOk_and (leafOk t1 k1 v1 p1) (leafOk t2 k2 v2 p2)
      | and c d => exact evalOk_and iha ihb
      | or c d => exact evalOk_and iha ihb
    | and c d => exact evalOk_and iha ihb
    | or c d => exact evalOk_and iha ihb

/-- `Request(tree)` on a vault. -/
theorem requestTree_vault {env : Env} {w w' : World K V Ty} {o : Nat} {q : Req K V} {s : Nat} {res : Res K} {vo so : Obj K V Ty}
    (hi : Inv own home w) (ho : w.getObj o = some vo) (hos : vo.isSet = false)
    (hs : w.getObj s = some so) (his : so.isSet = true) (hh : o = home s)
    (h : requestTree env w o q s = some (w', res)) :
    SP own home w w' ∧ parentOf w' s = some o ∧
    ((members w' s = [] ∧ evalReq env vo q = some (.error res)) ∨
     ∃ l, res = .good none ∧ evalReq env vo q = some (.ok l) ∧ members w' s = l) := by
  have hv : vaultOf o vo = some o := by simp [vaultOf, hos]
  refine ⟨requestTree_sp hi.v hi.q.si hs his (by intro oo p h1 h2; rw [ho] at h1; cases h1; rw [hv] at h2; cases h2; exact hh) h, ?_⟩
  simp only [requestTree, ho, hos, Option.bind_eq_bind, Option.bind_some, Bool.false_eq_true, if_false] at h
  have hne : o ≠ s := by rintro rfl; rw [ho] at hs; cases hs; rw [hos] at his; cases his
  rw [if_neg hne] at h
  simp only [Option.bind_eq_some_iff] at h
  obtain ⟨w1, h1, oo1, ho1, out, hout, h⟩ := h
  obtain ⟨sp1, ⟨so1, g1, g2, g3, g4⟩, gS⟩ := prepTarget_spec hi.q.si hs his ho hos hh hne h1
  obtain ⟨b1, hb, e1, e2⟩ := sp1.sf.objTo ho
  rw [ho1] at hb; cases hb
  have e2 := e2 hos
  have hreq : ∀ q, evalReq env oo1 q = evalReq env vo q := by
    have hr : ∀ t k v v' ia ib n pred, requestSet env oo1 t k v v' ia ib n pred [] = requestSet env vo t k v v' ia ib n pred [] := by
      intros; rw [e2]; rfl
    intro q
    induction q with
    | leaf => simp only [evalReq, hr]
    | or a b iha ihb => simp only [evalReq, iha, ihb]
    | and a b iha ihb =>
      cases a with
      | leaf => cases b with
        | leaf => simp only [evalReq, hr]
        | and c d => change andBind (evalReq env oo1 _) (evalReq env oo1 _) = andBind (evalReq env vo _) (evalReq env vo _); rw [iha, ihb]
        | or c d => change andBind (evalReq env oo1 _) (evalReq env oo1 _) = andBind (evalReq env vo _) (evalReq env vo _); rw [iha, ihb]
      | and c d => change andBind (evalReq env oo1 _) (evalReq env oo1 _) = andBind (evalReq env vo _) (evalReq env vo _); rw [iha, ihb]
      | or c d => change andBind (evalReq env oo1 _) (evalReq env oo1 _) = andBind (evalReq env vo _) (evalReq env vo _); rw [iha, ihb]
  rw [hreq] at hout
  cases out with
  | error e =>
    simp only [Option.map_eq_some_iff, Prod.mk.injEq] at h
    obtain ⟨w2, h2, rfl, rfl⟩ := h
    obtain ⟨⟨so', g1', g2', g3', g4', _⟩, gO⟩ := setClear_obj g1 h2 (by rw [g3]; simp)
    exact ⟨by rw [parentOf_eq g1', g4', g3], .inl ⟨by rw [members_eq g1', g2'], hout⟩⟩
  | ok l =>
    simp only [Option.map_eq_some_iff, Prod.mk.injEq] at h
    obtain ⟨w2, h2, rfl, hr⟩ := h
    have hv1 := sp1.sf.vinv hi.v
    have hp1 : vaultOf o oo1 = some o := by unfold vaultOf; rw [e1, hos]; simp
    have hout1 := hout
    rw [← hreq] at hout1
    obtain ⟨q, so2, k1, k2, k3, k4⟩ := fillTarget_sq sp1.si.s g1 g2 (by rw [g3]; simp) (by
      intro r hr
      have := indexed_own hv1 sp1.si.s ho1 hp1 (evalReq_mem hout1 hr)
      rw [← hh]; exact this) h2
    obtain ⟨_, hN, _⟩ := (evalReq_ok (env := env) (hi.v.vok o vo ho hos).cols _).2.1 l hout
    exact ⟨by rw [parentOf_eq k1, k4, g3], .inr ⟨l, hr.symm, hout, by rw [members_eq k1, k3, g4, foldl_setIns_nodup hN]⟩⟩

theorem found_sat {w : World K V Ty} {vo : Obj K V Ty} (hv : ColsOk (cellOf w) vo) {q : Req K V} {r : Nat} (h : q.found vo r) :
    r ∈ vo.recs ∧ q.sat w r := by
  induction q with
  | leaf t k v pred =>
    obtain ⟨⟨col, v', hc, hm, hh⟩, hp⟩ := h
    have : r ∈ vo.recs ∧ cellOf w r k = some v' := by
      unfold Cond.index at hm
      split at hm
      · exact (hv k col hc).ordS _ _ hm
      · exact (hv k col hc).hashS _ _ hm
    exact ⟨this.1, ⟨v', this.2, hh⟩, hp⟩
  | and a b iha ihb => exact ⟨(iha h.1).1, (iha h.1).2, (ihb h.2).2⟩
  | or a b iha ihb =>
    rcases h with h | h
    · exact ⟨(iha h).1, .inl (iha h).2⟩
    · exact ⟨(ihb h).1, .inr (ihb h).2⟩

end MVault.W
