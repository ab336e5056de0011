import Verif.PropsSeen
import Verif.PropsComplete
/-! **C109.** Laws of requests: expressions that mean the same give the same records; splitting by a value; limits. -/
set_option linter.unusedSectionVars false
set_option linter.unusedSimpArgs false
set_option linter.unusedVariables false
namespace MVault.W
variable {K V Ty : Type} [LinearOrder K] [LinearOrder V] [Typed V Ty] [DecidableEq Ty]

/-- Specification: the value of a request expression when every comparison in it has the truth value `f` gives it. -/
def Req.asFormula (f : ReqType → K → V → (Nat → Bool) → Prop) : Req K V → Prop
  | .leaf t k v p => f t k v p
  | .and a b => a.asFormula f ∧ b.asFormula f
  | .or a b => a.asFormula f ∨ b.asFormula f

/-- Specification: what a request expression means for a record `r` whose values are `g`. -/
def Req.meaning (g : K → Option V) (r : Nat) : Req K V → Prop
  | .leaf t k v p => (∃ x, g k = some x ∧ (leafCond t v).holds x) ∧ p r = true
  | .and a b => a.meaning g r ∧ b.meaning g r
  | .or a b => a.meaning g r ∨ b.meaning g r

/-- Specification: the comparisons of an expression, key and value. -/
def Req.comparisons : Req K V → List (K × V)
  | .leaf _ k v _ => [(k, v)]
  | .and a b => a.comparisons ++ b.comparisons
  | .or a b => a.comparisons ++ b.comparisons

theorem seen_formula {w : World K V Ty} {o r : Nat} (q : Req K V) : q.seen w o r ↔
    q.asFormula fun t k v p => (∃ v', value w r k = some v' ∧ (leafCond t v).holds v') ∧ p r = true ∧ Listed (leafCond t v).ordered w o k r := by
  induction q with
  | leaf t k v p => exact Iff.rfl
  | and a b iha ihb => exact and_congr iha ihb
  | or a b iha ihb => exact or_congr iha ihb

theorem sat_meaning {w : World K V Ty} {r : Nat} (q : Req K V) : q.sat w r ↔ q.meaning (value w r) r := by
  induction q with
  | leaf t k v p => exact Iff.rfl
  | and a b iha ihb => exact and_congr iha ihb
  | or a b iha ihb => exact or_congr iha ihb

/-- **C109.** Two request expressions that are equal as formulas of propositional logic over their comparisons give the same records,
in every state, with every order of the hash tables. -/
theorem C109_equal_formulas {home : Nat → Nat} {w wa wb : World K V Ty} (hw : HReach Ordinary home w) {ea eb : Env} {o s s' : Nat} {a b : Req K V} {ra rb : Res K}
    (hab : ∀ f, a.asFormula f ↔ b.asFormula f)
    (ho : isVault w o = true) (hs : isSetObj w s = true) (hh : home s = o) (hs' : isSetObj w s' = true) (hh' : home s' = o)
    (ha : requestTree ea w o a s = some (wa, ra)) (hb : requestTree eb w o b s' = some (wb, rb)) (oa : ra.ok = true) (ob : rb.ok = true) :
    ∀ r, r ∈ members wa s ↔ r ∈ members wb s' := by
  intro r
  rw [C78_requestTree hw ho hs hh ha oa, C78_requestTree hw ho hs' hh' hb ob, seen_formula, seen_formula, hab]

/-- Specification: wherever both expressions are answered, they give the same records. -/
def SameAnswers (V Ty : Type) [LinearOrder V] [Typed V Ty] [DecidableEq Ty] (a b : Req K V) : Prop :=
  ∀ (home : Nat → Nat) (w wa wb : World K V Ty) (ea eb : Env) (o s : Nat) (ra rb : Res K), HReach Ordinary home w → isVault w o = true → isSetObj w s = true →
    home s = o → requestTree ea w o a s = some (wa, ra) → requestTree eb w o b s = some (wb, rb) → ra.ok = true → rb.ok = true →
    ∀ r, r ∈ members wa s ↔ r ∈ members wb s

theorem same_of_formula {a b : Req K V} (h : ∀ f, a.asFormula f ↔ b.asFormula f) : SameAnswers V Ty a b :=
  fun home w wa wb ea eb o s ra rb hw ho hs hh ha hb oa ob => C109_equal_formulas hw h ho hs hh hs hh ha hb oa ob

/-- **C109.** The laws of Boolean lattices: `&&` and `||` are commutative, associative, idempotent, absorb each other and distribute over each other. -/
theorem C109_lattice_laws (a b c : Req K V) :
    SameAnswers V Ty (.and a b) (.and b a) ∧ SameAnswers V Ty (.or a b) (.or b a) ∧
    SameAnswers V Ty (.and (.and a b) c) (.and a (.and b c)) ∧ SameAnswers V Ty (.or (.or a b) c) (.or a (.or b c)) ∧
    SameAnswers V Ty (.and a a) a ∧ SameAnswers V Ty (.or a a) a ∧
    SameAnswers V Ty (.and a (.or a b)) a ∧ SameAnswers V Ty (.or a (.and a b)) a ∧
    SameAnswers V Ty (.and a (.or b c)) (.or (.and a b) (.and a c)) ∧ SameAnswers V Ty (.or a (.and b c)) (.and (.or a b) (.or a c)) := by
  refine ⟨?_, ?_, ?_, ?_, ?_, ?_, ?_, ?_, ?_, ?_⟩ <;> refine same_of_formula fun f => ?_ <;> simp only [Req.asFormula] <;> grind

/-- **C109.** An expression is answered exactly when every comparison in it names a key of the vault with the key's type; in particular it does
not matter how the comparisons are combined. -/
theorem C109_answered_iff {home : Nat → Nat} {w w' : World K V Ty} (hw : HReach Ordinary home w) {e : Env} {o s : Nat} {q : Req K V} {res : Res K}
    (ho : isVault w o = true) (hs : isSetObj w s = true) (hh : home s = o) (h : requestTree e w o q s = some (w', res)) :
    res.ok = true ↔ ∀ p ∈ q.comparisons, getKeyType w o p.1 = some (typeOf p.2) := by
  obtain ⟨own, hi⟩ := reach_inv hw
  obtain ⟨vo, hvo, hvs⟩ := isVault_iff.mp ho
  obtain ⟨so, hso, hss⟩ := isSetObj_iff.mp hs
  have hv := hi.v.vok o vo hvo hvs
  have hk : q.keysOk vo ↔ ∀ p ∈ q.comparisons, getKeyType w o p.1 = some (typeOf p.2) := by
    clear h
    induction q with
    | leaf t k v p =>
      simp only [Req.keysOk, Req.comparisons, List.mem_singleton, forall_eq, getKeyType, hvo]
      cases mget vo.cols k <;> simp
    | and a b iha ihb => simp only [Req.keysOk, Req.comparisons, List.mem_append, iha, ihb, or_imp, forall_and]
    | or a b iha ihb => simp only [Req.keysOk, Req.comparisons, List.mem_append, iha, ihb, or_imp, forall_and]
  rw [← hk]
  obtain ⟨_, _, ⟨hm, he⟩ | ⟨l, hr, he, hm⟩⟩ := requestTree_vault hi hvo hvs hso hss hh.symm h
  · have hf : res.ok = false := evalReq_fail he
    exact ⟨(fun x => by rw [hf] at x; cases x), fun x => absurd x ((evalReq_ok (env := e) hv.cols q).1 res he)⟩
  · obtain ⟨h1, _, _⟩ := (evalReq_ok (env := e) hv.cols q).2.1 l he
    exact ⟨fun _ => h1, fun _ => by rw [hr]; rfl⟩

/-- **C109.** While for the keys used no record is erased or changed that shares its value with another record (`OrdinaryApart`): two
expressions that mean the same for every record give the same records. -/
theorem C109_equal_meanings {home : Nat → Nat} {w wa wb : World K V Ty} {o : Nat} {a b : Req K V} (hw : HReach (OrdinaryApart o (a.keys ++ b.keys)) home w)
    {ea eb : Env} {s : Nat} {ra rb : Res K} (hab : ∀ g r, a.meaning g r ↔ b.meaning g r)
    (ho : isVault w o = true) (hs : isSetObj w s = true) (hh : home s = o)
    (ha : requestTree ea w o a s = some (wa, ra)) (hb : requestTree eb w o b s = some (wb, rb)) (oa : ra.ok = true) (ob : rb.ok = true) :
    ∀ r, r ∈ members wa s ↔ r ∈ members wb s := by
  have wk : ∀ {ks' : List K}, (∀ k ∈ ks', k ∈ a.keys ++ b.keys) → HReach (OrdinaryApart o ks') home w :=
    fun hk => hw.mono fun _ _ _ g => ⟨g.1, fun k h => g.2 k (hk k h)⟩
  intro r
  rw [C19_requestTree_complete_partial (wk (by simp +contextual)) ho hs hh ha oa, C19_requestTree_complete_partial (wk (by simp +contextual)) ho hs hh hb ob,
    sat_meaning, sat_meaning, hab]

/-! ### Splitting by a value, intervals, limits -/

/-- **C109.** Every value splits the listed records of its key: no record is answered both by "less" and by "greater or equal", nor by "less or
equal" and by "greater"; and both pairs together give the same records, whatever the two values are. -/
theorem C109_split {home : Nat → Nat} {w wl wg wl' wg' : World K V Ty} (hw : HReach Ordinary home w) {e1 e2 e3 e4 : Env} {o s : Nat} {k : K} {v v' : V}
    {p : Nat → Bool} {r1 r2 r3 r4 : Res K} (ho : isVault w o = true) (hs : isSetObj w s = true) (hh : home s = o)
    (hv : getKeyType w o k = some (typeOf v)) (hv' : getKeyType w o k = some (typeOf v'))
    (h1 : ask e1 w o k (.lt v) none p s = some (wl, r1)) (h2 : ask e2 w o k (.ge v) none p s = some (wg, r2))
    (h3 : ask e3 w o k (.le v') none p s = some (wl', r3)) (h4 : ask e4 w o k (.gt v') none p s = some (wg', r4)) :
    (∀ r, ¬ (r ∈ members wl s ∧ r ∈ members wg s)) ∧ (∀ r, ¬ (r ∈ members wl' s ∧ r ∈ members wg' s)) ∧
    (∀ r, r ∈ members wl s ∨ r ∈ members wg s ↔ r ∈ members wl' s ∨ r ∈ members wg' s) := by
  have k1 := (C78_request hw (c := .lt v) ho hs hh rfl hv h1).2
  have k2 := (C78_request hw (c := .ge v) ho hs hh rfl hv h2).2
  have k3 := (C78_request hw (c := .le v') ho hs hh rfl hv' h3).2
  have k4 := (C78_request hw (c := .gt v') ho hs hh rfl hv' h4).2
  simp only [k1, k2, k3, k4, Matches, Cond.holds, Cond.ordered]
  refine ⟨?_, ?_, fun r => ?_⟩
  · rintro r ⟨⟨⟨_, _, x, hx, lx⟩, _⟩, ⟨⟨_, _, y, hy, ly⟩, _⟩⟩
    rw [hx] at hy; cases hy
    exact absurd lx (not_lt.2 ly)
  · rintro r ⟨⟨⟨_, _, x, hx, lx⟩, _⟩, ⟨⟨_, _, y, hy, ly⟩, _⟩⟩
    rw [hx] at hy; cases hy
    exact absurd ly (not_lt.2 lx)
  · constructor
    · rintro (⟨⟨a, b, x, hx, _⟩, c, d⟩ | ⟨⟨a, b, x, hx, _⟩, c, d⟩)
      all_goals
        rcases le_or_gt x v' with hle | hgt
        · exact .inl ⟨⟨a, b, x, hx, hle⟩, c, d⟩
        · exact .inr ⟨⟨a, b, x, hx, hgt⟩, c, d⟩
    · rintro (⟨⟨a, b, x, hx, _⟩, c, d⟩ | ⟨⟨a, b, x, hx, _⟩, c, d⟩)
      all_goals
        rcases lt_or_ge x v with hlt | hge
        · exact .inl ⟨⟨a, b, x, hx, hlt⟩, c, d⟩
        · exact .inr ⟨⟨a, b, x, hx, hge⟩, c, d⟩

/-- Specification: the two one-sided conditions of an interval. -/
def lowerEnd {V : Type} (a : V) (incl : Bool) : Cond V := if incl = true then .ge a else .gt a
/-- Specification: see `lowerEnd`. -/
def upperEnd {V : Type} (b : V) (incl : Bool) : Cond V := if incl = true then .le b else .lt b

/-- **C109.** An interval request gives exactly the records that both one-sided requests give. -/
theorem C109_interval {home : Nat → Nat} {w w1 w2 w3 : World K V Ty} (hw : HReach Ordinary home w) {e1 e2 e3 : Env} {o s : Nat} {k : K} {a b : V} {ia ib : Bool}
    {p : Nat → Bool} {r1 r2 r3 : Res K} (ho : isVault w o = true) (hs : isSetObj w s = true) (hh : home s = o)
    (ha : getKeyType w o k = some (typeOf a)) (hb : getKeyType w o k = some (typeOf b))
    (h1 : ask e1 w o k (.between a b ia ib) none p s = some (w1, r1)) (h2 : ask e2 w o k (lowerEnd a ia) none p s = some (w2, r2))
    (h3 : ask e3 w o k (upperEnd b ib) none p s = some (w3, r3)) :
    ∀ r, r ∈ members w1 s ↔ r ∈ members w2 s ∧ r ∈ members w3 s := by
  have hab : typeOf b = typeOf a := by rw [ha] at hb; exact (Option.some.inj hb).symm
  have k1 := (C78_request hw (c := .between a b ia ib) ho hs hh ⟨rfl, hab⟩ ha h1).2
  have k2 : ∀ r, r ∈ members w2 s ↔ Matches w o k (lowerEnd a ia) r ∧ p r = true ∧ Listed true w o k r := by
    cases ia
    · exact (C78_request hw (c := .gt a) ho hs hh rfl ha h2).2
    · exact (C78_request hw (c := .ge a) ho hs hh rfl ha h2).2
  have k3 : ∀ r, r ∈ members w3 s ↔ Matches w o k (upperEnd b ib) r ∧ p r = true ∧ Listed true w o k r := by
    cases ib
    · exact (C78_request hw (c := .lt b) ho hs hh rfl hb h3).2
    · exact (C78_request hw (c := .le b) ho hs hh rfl hb h3).2
  have el : ∀ x, (lowerEnd a ia).holds x ↔ a < x ∨ (ia = true ∧ x = a) := by
    intro x; cases ia
    · simp [lowerEnd, Cond.holds]
    · simp only [lowerEnd, if_true, Cond.holds, true_and]
      rw [le_iff_lt_or_eq]
      exact or_congr Iff.rfl eq_comm
  have eu : ∀ x, (upperEnd b ib).holds x ↔ x < b ∨ (ib = true ∧ x = b) := by
    intro x; cases ib
    · simp [upperEnd, Cond.holds]
    · simp only [upperEnd, if_true, Cond.holds, true_and]
      rw [le_iff_lt_or_eq]
  intro r
  rw [k1, k2, k3]
  simp only [Matches, el, eu, Cond.ordered]
  constructor
  · rintro ⟨⟨h1, h2, x, hx, hl, hu⟩, h3, h4⟩
    exact ⟨⟨⟨h1, h2, x, hx, hl⟩, h3, h4⟩, ⟨h1, h2, x, hx, hu⟩, h3, h4⟩
  · rintro ⟨⟨⟨h1, h2, x, hx, hl⟩, h3, h4⟩, ⟨_, _, y, hy, hu⟩, _, _⟩
    rw [hx] at hy; cases hy
    exact ⟨⟨h1, h2, x, hx, hl, hu⟩, h3, h4⟩

/-- **C109.** With the same order of the hash tables, a greater limit gives all the records a smaller one gives, and no limit gives them too. -/
theorem C109_limits {home : Nat → Nat} {w w1 w2 : World K V Ty} (hw : HReach Ordinary home w) {e : Env} {o s : Nat} {k : K} {c : Cond V} {n : Nat} {m : Option Nat}
    (hnm : ∀ j, m = some j → n ≤ j) {p : Nat → Bool} {r1 r2 : Res K} (ho : isVault w o = true) (hs : isSetObj w s = true) (hh : home s = o) (ht : c.typed c.ty)
    (h1 : ask e w o k c (some n) p s = some (w1, r1)) (h2 : ask e w o k c m p s = some (w2, r2)) :
    r1 = r2 ∧ ∀ r ∈ members w1 s, r ∈ members w2 s := by
  obtain ⟨own, hi⟩ := reach_inv hw
  obtain ⟨vo, hvo, hvs⟩ := isVault_iff.mp ho
  obtain ⟨so, hso, hss⟩ := isSetObj_iff.mp hs
  obtain ⟨_, _, ⟨m1, e1⟩ | ⟨col, l, hc, t1, q1, s1, _, m1⟩⟩ := ask_vault hi hvo hvs hso hss hh.symm ht h1 <;>
    obtain ⟨_, _, ⟨m2, e2⟩ | ⟨col', l', hc', t2, q2, s2, _, m2⟩⟩ := ask_vault hi hvo hvs hso hss hh.symm ht h2
  · rw [e1] at e2; cases e2
    exact ⟨rfl, fun r hr => by rw [m1] at hr; cases hr⟩
  · exfalso; simp [checkKey, hc', t2] at e1
  · exfalso; simp [checkKey, hc, t1] at e2
  · rw [hc] at hc'; cases hc'
    rw [s1] at s2; cases s2
    refine ⟨q1.trans q2.symm, fun r hr => ?_⟩
    rw [m1] at hr
    rw [m2]
    obtain ⟨h3, h4⟩ := List.mem_filter.1 hr
    refine List.mem_filter.2 ⟨?_, h4⟩
    cases m with
    | none => exact List.mem_of_mem_take h3
    | some j => exact (List.take_prefix_take_left (hnm j rfl)).subset h3

/-! ### Instances -/

/-- Distributivity where an index has lost records (`seenW`); both sides are answered. -/
example : ∃ wa wb : DW, requestTree Env.id seenW 0 (.and (.leaf .Greater 1 3 fun _ => true) (.or (.leaf .Equal 1 8 fun _ => true) (.leaf .Less 1 9 fun _ => true))) 1 = some (wa, .good none) ∧
    requestTree Env.id seenW 0 (.or (.and (.leaf .Greater 1 3 fun _ => true) (.leaf .Equal 1 8 fun _ => true)) (.and (.leaf .Greater 1 3 fun _ => true) (.leaf .Less 1 9 fun _ => true))) 1 =
      some (wb, .good none) ∧ members wa 1 = [0] ∧ members wb 1 = [0] := ⟨_, _, rfl, rfl, by decide, by decide⟩

/-- "At most 4" and "less than 4 or equal to 4" mean the same; the history is one of `OrdinaryApart`. -/
example : ∃ wa wb : DW, requestTree Env.id apartW 0 (.leaf .LessOrEqual 1 4 fun _ => true) 1 = some (wa, .good none) ∧
    requestTree Env.id apartW 0 (.or (.leaf .Less 1 4 fun _ => true) (.leaf .Equal 1 4 fun _ => true)) 1 = some (wb, .good none) ∧
    members wa 1 = [3, 2] ∧ (∀ r, r ∈ members wa 1 ↔ r ∈ members wb 1) ∧ HReach (OrdinaryApart 0 [1, 1, 1]) (fun _ => 0) apartW := by
  have hr : HReach (OrdinaryApart 0 [1, 1, 1]) (fun _ => 0) apartW := apartW_reach.mono fun _ _ _ g => ⟨g.1, fun k hk => g.2 k (by simp at hk; simp [hk])⟩
  refine ⟨_, _, rfl, rfl, by decide, ?_, hr⟩
  refine C109_equal_meanings (a := .leaf .LessOrEqual 1 4 fun _ => true) (b := .or (.leaf .Less 1 4 fun _ => true) (.leaf .Equal 1 4 fun _ => true))
    (hw := hr) (hab := ?_) (by decide) (by decide) rfl (ea := Env.id) (eb := Env.id) rfl rfl rfl rfl
  intro g r
  simp only [Req.meaning, leafCond, Cond.holds, le_iff_lt_or_eq]
  grind

/-- The vault of `apartW` split at 5 and at 4; an interval; a limit. -/
example : ∃ w1 w2 w3 w4 w5 : DW, ask Env.id apartW 0 1 (.lt 5) none (fun _ => true) 1 = some (w1, .good (some 1)) ∧
    ask Env.id apartW 0 1 (.ge 5) none (fun _ => true) 1 = some (w2, .good (some 1)) ∧
    ask Env.id apartW 0 1 (.le 4) (some 1) (fun _ => true) 1 = some (w3, .good (some 1)) ∧
    ask Env.id apartW 0 1 (.gt 4) none (fun _ => true) 1 = some (w4, .good (some 1)) ∧
    ask Env.id apartW 0 1 (.between 4 5 true false) none (fun _ => true) 1 = some (w5, .good (some 1)) ∧
    (members w1 1).length + (members w2 1).length = (members apartW 0).length ∧ (members w3 1).length = 1 ∧ members w5 1 ≠ [] :=
  ⟨_, _, _, _, _, rfl, rfl, rfl, rfl, rfl, by decide, by decide, by decide⟩

/-- One comparison of the wrong type is enough to refuse the expression. -/
example : ∃ w' : DW, requestTree Env.id apartW 0 (.or (.leaf .Less 1 4 fun _ => true) (.leaf .Less 1 400 fun _ => true)) 1 = some (w', .bad .WrongType (some 1)) ∧
    getKeyType apartW 0 1 = some (typeOf 4) ∧ getKeyType apartW 0 1 ≠ some (typeOf 400) := ⟨_, rfl, by decide, by decide⟩

end MVault.W
