import Verif.WorldGentle5
/-
Gentle use: every call of the algebra of sets has an outcome, keeps the invariant, and does what AlgSpec.lean says.
-/
set_option linter.unusedSectionVars false
set_option linter.unusedSimpArgs false
set_option linter.unusedVariables false
namespace MVault.W
open MVault.Spec (Table Db Event Cmd SetVar State Call UpTo leaves arg GCall)
variable {K V Ty : Type} [LinearOrder K] [LinearOrder V] [Typed V Ty] [DecidableEq Ty]
variable {own home : Nat → Nat}

theorem Knows.stay {T P : Nat → Prop} {op : Op K V Ty} {w : World K V Ty} (h : Knows T P w) : Knows (markT T op w) (markP P op w w) w := by
  refine Knows.mark (Knows.less (h.more fun r h => .inl h) ?_)
  exact fun s r hs _ => .inl hs

theorem mismatch_eq (ao bo : Obj K V Ty) : ao.var.mismatch bo.var = (match ao.parent, bo.parent with
    | none, _ => some Code.ParentVaultNotValid
    | some _, none => some .OtherParentVaultNotValid
    | some p, some q => if p = q then none else some .ParentVaultNotMatch) := by
  simp only [SetVar.mismatch, Obj.var]
  cases ao.parent with
  | none => rfl
  | some p =>
    cases bo.parent with
    | none => rfl
    | some q => by_cases e : p = q <;> simp [e]

theorem opCheck_mismatch (so ao : Obj K V Ty) (s a : Nat) : setOpCheck so ao s a = match so.var.mismatch ao.var with
    | some c => some c
    | none => if s = a then some .SameVaultRecordSet else none := by
  rw [mismatch_eq]
  unfold setOpCheck
  cases h1 : so.parent with
  | none => simp
  | some p =>
    cases h2 : ao.parent with
    | none => simp
    | some q =>
      by_cases e : p = q
      · simp [e]
      · simp [e, Ne.symm e]

theorem mismatch_same {x y : SetVar K} {p : Nat} (h1 : x.vault = some p) (h2 : y.vault = some p) : x.mismatch y = none := by
  simp only [SetVar.mismatch, h1, h2, if_true]

/-- A call refused. -/
theorem change_bad {w : World K V Ty} {s a : Nat} {so ao : Obj K V Ty} (hs : w.getObj s = some so) (his : so.isSet = true) (ha : w.getObj a = some ao)
    (hai : ao.isSet = true) {c : Code} (hc : setOpCheck so ao s a = some c) (f : Table K V Ty → SetVar K → SetVar K → SetVar K) :
    (stateOf w).change s a f (.res (.bad c none)) (stateOf w) := by
  refine ⟨so.var, ao.var, var_of hs his, var_of ha hai, ?_⟩
  rw [opCheck_mismatch] at hc
  cases hm : so.var.mismatch ao.var with
  | some c' => rw [hm] at hc; cases hc; exact ⟨rfl, rfl⟩
  | none =>
    rw [hm] at hc
    dsimp only at hc ⊢
    by_cases e : s = a
    · rw [if_pos e] at hc; cases hc; rw [if_pos e]; exact ⟨rfl, rfl⟩
    · rw [if_neg e] at hc; cases hc

theorem change_good {w w' : World K V Ty} {s a p : Nat} {so ao so' : Obj K V Ty} (hi : Inv own home w) (hs : w.getObj s = some so) (his : so.isSet = true)
    (ha : w.getObj a = some ao) (hai : ao.isSet = true) (hp : so.parent = some p) (hpa : ao.parent = some p) (hne : s ≠ a) (hdb : dbOf w' = dbOf w) (hb : Beside s w w')
    (hs' : w'.getObj s = some so') (his' : so'.isSet = true) (f : Table K V Ty → SetVar K → SetVar K → SetVar K)
    (hv : so'.var = f (asTable w p) so.var ao.var) :
    (stateOf w).change s a f (.res (.good none)) (stateOf w') := by
  refine ⟨so.var, ao.var, var_of hs his, var_of ha hai, ?_⟩
  rw [mismatch_same (p := p) hp hpa]
  dsimp only
  rw [if_neg hne]
  obtain ⟨po, h1, h2, _⟩ := hi.l.up s so p hs his hp
  exact ⟨p, asTable w p, hp, dbOf_vault (vault_of_obj h1 h2), rfl, by rw [hb.put hdb hs' his', hv]⟩

theorem onSet_both {A : Type} {w : World K V Ty} {s a : Nat} (h : isSetObj w s = true ∧ isSetObj w a = true) (x : Option A) : onSet w s (onSet w a x) = x := by
  simp only [onSet, h.1, h.2, if_true]

section
variable {T P : Nat → Prop} {env : Env} {w : World K V Ty}

/-- The outcome of a call of the algebra. -/
def Goes (home : Nat → Nat) (T P : Nat → Prop) (env : Env) (w : World K V Ty) (op : Op K V Ty) : Prop :=
  ∃ w' ans, outcome env w op = some (w', ans) ∧ Good w' ∧ Knows (markT T op w') (markP P op w w') w' ∧
    (dbOf w' = dbOf w → (stateOf w).Does (gcallOf w op) ans (stateOf w'))

theorem join_goes {s a : Nat} (hi : Inv own home w) (hg : Good w) (hk : Knows T P w) (h : isSetObj w s = true ∧ isSetObj w a = true) :
    Goes home T P env w (.setJoin s a) := by
  obtain ⟨so, hs, his⟩ := isSetObj_iff.mp h.1
  obtain ⟨ao, ha, hai⟩ := isSetObj_iff.mp h.2
  unfold Goes
  simp only [outcome, onSet_both h, gcallOf, State.Does]
  rcases setJoin_turn (env := env) hi hg hs his ha hai with ⟨c, hc, e⟩ | ⟨p, w', so', l, hp, hpa, hne, e, tu, hr, hl, hgr⟩
  · exact ⟨w, _, by rw [e]; rfl, hg, hk.stay, fun _ => change_bad hs his ha hai hc _⟩
  · refine ⟨w', _, by rw [e]; rfl, tu.good, ?_, fun hdb => change_good hi hs his ha hai hp hpa hne hdb tu.beside tu.get tu.isSet _
      (plus_var hi hg hk hs his hp tu.par hr hl hgr)⟩
    refine Knows.mark (tu.knows hs his hk (fun _ h => .inl h) (fun _ h => .inl h) (fun r h h' => ?_) (fun r _ _ => .inr rfl))
    rw [hr] at h'; simp [h] at h'

theorem lost_knows {op : Op K V Ty} {w' : World K V Ty} {s : Nat} {so so' : Obj K V Ty} {l : List Nat} (hs : w.getObj s = some so) (his : so.isSet = true) (hk : Knows T P w)
    (tu : Turn own home s so so' w w') (hl : Lost l so so') (ht : takes op s) : Knows (markT T op w') (markP P op w w') w' := by
  refine Knows.mark (tu.knows hs his hk (fun _ h => .inl h) (fun _ h => .inl h) (fun r h h' => .inr ⟨s, ht, ?_, ?_⟩) (fun r h h' => ?_))
  · rw [members_eq hs]; exact h
  · rw [members_eq tu.get]; exact h'
  · exact absurd ((hl.recs r).mp h).1 h'

theorem exclude_goes {s a : Nat} (hi : Inv own home w) (hg : Good w) (hk : Knows T P w) (h : isSetObj w s = true ∧ isSetObj w a = true) :
    Goes home T P env w (.setExclude s a) := by
  obtain ⟨so, hs, his⟩ := isSetObj_iff.mp h.1
  obtain ⟨ao, ha, hai⟩ := isSetObj_iff.mp h.2
  unfold Goes
  simp only [outcome, onSet_both h, gcallOf, State.Does]
  rcases setExclude_turn (env := env) hi hg hs his ha hai with ⟨c, hc, e⟩ | ⟨p, w', so', l, hp, hpa, hne, e, tu, hl, hm⟩
  · exact ⟨w, _, by rw [e]; rfl, hg, hk.stay, fun _ => change_bad hs his ha hai hc _⟩
  · refine ⟨w', _, by rw [e]; rfl, tu.good, lost_knows hs his hk tu hl rfl, fun hdb => change_good hi hs his ha hai hp hpa hne hdb tu.beside tu.get tu.isSet _ ?_⟩
    rw [lost_var (T' := T) (P' := P) hi hg hk tu.inv tu.good hs his hp tu.get hl]
    exact minus_congr (good_lists hi hg hs his) fun r hr => by rw [hm]; exact ⟨fun x => x.2, fun x => ⟨hr, x⟩⟩

theorem intersect_goes {s a : Nat} (hi : Inv own home w) (hg : Good w) (hk : Knows T P w) (h : isSetObj w s = true ∧ isSetObj w a = true) :
    Goes home T P env w (.setIntersect s a) := by
  obtain ⟨so, hs, his⟩ := isSetObj_iff.mp h.1
  obtain ⟨ao, ha, hai⟩ := isSetObj_iff.mp h.2
  unfold Goes
  simp only [outcome, onSet_both h, gcallOf, State.Does]
  rcases setIntersect_turn (env := env) hi hg hs his ha hai with ⟨c, hc, e⟩ | ⟨p, w', so', l, hp, hpa, hne, e, tu, hl, hm⟩
  · exact ⟨w, _, by rw [e]; rfl, hg, hk.stay, fun _ => change_bad hs his ha hai hc _⟩
  · refine ⟨w', _, by rw [e]; rfl, tu.good, lost_knows hs his hk tu hl rfl, fun hdb => change_good hi hs his ha hai hp hpa hne hdb tu.beside tu.get tu.isSet _ ?_⟩
    rw [lost_var (T' := T) (P' := P) hi hg hk tu.inv tu.good hs his hp tu.get hl]
    exact minus_congr (good_lists hi hg hs his) fun r hr => by rw [hm]; exact ⟨fun x => x.2, fun x => ⟨hr, x⟩⟩

/-! ### Into a third set -/

theorem combine_bad {a b s : Nat} {ao bo so : Obj K V Ty} (ha : w.getObj a = some ao) (hai : ao.isSet = true) (hb : w.getObj b = some bo) (hbi : bo.isSet = true)
    (hs : w.getObj s = some so) (his : so.isSet = true) {c : Code} (hc : (if a = b ∨ a = s ∨ b = s then some .SameVaultRecordSet else ao.var.mismatch bo.var) = some c)
    (f : Prop → Prop → Prop) : (stateOf w).combine a b s f (.res (.bad c none)) (stateOf w) := by
  refine ⟨ao.var, bo.var, so.var, var_of ha hai, var_of hb hbi, var_of hs his, ?_⟩
  by_cases e : a = b ∨ a = s ∨ b = s
  · rw [if_pos e] at hc ⊢; cases hc; exact ⟨rfl, rfl⟩
  · rw [if_neg e] at hc ⊢; rw [hc]; exact ⟨rfl, rfl⟩

theorem combine_good {a b s p : Nat} {w' : World K V Ty} {ao bo so : Obj K V Ty} (hi : Inv own home w) (ha : w.getObj a = some ao) (hai : ao.isSet = true)
    (hb : w.getObj b = some bo) (hbi : bo.isSet = true) (hs : w.getObj s = some so) (his : so.isSet = true) (hab : ¬ (a = b ∨ a = s ∨ b = s)) (hpa : ao.parent = some p)
    (hpb : bo.parent = some p) (hdb : dbOf w' = dbOf w) {f : Prop → Prop → Prop} {T' P' : Nat → Prop}
    (hf : Filled own home T' P' s p (fun r => f (r ∈ ao.recs) (r ∈ bo.recs)) w w') :
    (stateOf w).combine a b s f (.res (.good none)) (stateOf w') := by
  refine ⟨ao.var, bo.var, so.var, var_of ha hai, var_of hb hbi, var_of hs his, ?_⟩
  rw [if_neg hab, mismatch_same (p := p) hpa hpb]
  obtain ⟨po, h1, h2, _⟩ := hi.l.up a ao p ha hai hpa
  exact ⟨p, asTable w p, hpa, dbOf_vault (vault_of_obj h1 h2), rfl, hf.put hdb⟩

theorem mismatch_cases (ao bo : Obj K V Ty) : (∃ p, ao.parent = some p ∧ bo.parent = some p) ∨
    (ao.parent = none ∧ ao.var.mismatch bo.var = some .ParentVaultNotValid) ∨
    (∃ p, ao.parent = some p ∧ bo.parent = none ∧ ao.var.mismatch bo.var = some .OtherParentVaultNotValid) ∨
    (∃ p q, ao.parent = some p ∧ bo.parent = some q ∧ p ≠ q ∧ ao.var.mismatch bo.var = some .ParentVaultNotMatch) := by
  rw [mismatch_eq]
  cases h1 : ao.parent with
  | none => simp
  | some p =>
    cases h2 : bo.parent with
    | none => simp
    | some q =>
      by_cases e : p = q
      · subst e; exact .inl ⟨p, rfl, rfl⟩
      · right; right; right; exact ⟨p, q, rfl, rfl, e, by simp [e]⟩

theorem onSet_three {A : Type} {a b s : Nat} (h : isSetObj w a = true ∧ isSetObj w b = true ∧ isSetObj w s = true) (x : Option A) :
    onSet w s (onSet w a (onSet w b x)) = x := by
  simp only [onSet, h.1, h.2.1, h.2.2, if_true]

theorem union_goes {a b s : Nat} (hi : Inv own home w) (hg : Good w) (hk : Knows T P w) (ho : Ordinary home w (.setUnion a b s))
    (h : isSetObj w a = true ∧ isSetObj w b = true ∧ isSetObj w s = true) : Goes home T P env w (.setUnion a b s) := by
  obtain ⟨ao, ha, hai⟩ := isSetObj_iff.mp h.1
  obtain ⟨bo, hb, hbi⟩ := isSetObj_iff.mp h.2.1
  obtain ⟨so, hs, his⟩ := isSetObj_iff.mp h.2.2
  unfold Goes
  simp only [outcome, onSet_three h, gcallOf, State.Does]
  have bad : ∀ c, setUnion env w a b s = some (w, .bad c none) → (if a = b ∨ a = s ∨ b = s then some .SameVaultRecordSet else ao.var.mismatch bo.var) = some c →
      ∃ w' ans, (setUnion env w a b s).map (fun x => (x.1, Answer.res x.2)) = some (w', ans) ∧ Good w' ∧ Knows (markT T (.setUnion a b s : Op K V Ty) w') (markP P (.setUnion a b s : Op K V Ty) w w') w' ∧
        (dbOf w' = dbOf w → (stateOf w).combine a b s (· ∨ ·) ans (stateOf w')) := fun c h1 h2 =>
    ⟨w, _, by rw [h1]; rfl, hg, hk.stay, fun _ => combine_bad ha hai hb hbi hs his h2 _⟩
  by_cases hab : a = b ∨ a = s ∨ b = s
  · exact bad .SameVaultRecordSet (by simp only [setUnion, ha, hb, hs, Option.bind_eq_bind, Option.bind_some, hab, if_true]) (by rw [if_pos hab])
  · rcases mismatch_cases ao bo with ⟨p, h1, h2⟩ | ⟨h1, h2⟩ | ⟨p, h1, h2, h3⟩ | ⟨p, q, h1, h2, h3, h4⟩
    · obtain ⟨w', e, f⟩ := union_turn (env := env) hi hg hk hs his ha hai hb hbi hab h1 h2 (ho ao p ha h1)
      refine ⟨w', _, by rw [e]; rfl, f.good, ?_, fun hdb => combine_good hi ha hai hb hbi hs his hab h1 h2 hdb (f := (· ∨ ·)) f⟩
      exact Knows.mark (f.knows.more fun r h => .inl h)
    · exact bad .ParentVaultNotValid (by simp only [setUnion, ha, hb, hs, Option.bind_eq_bind, Option.bind_some, hab, if_false, h1, if_true]) (by rw [if_neg hab]; exact h2)
    · exact bad .OtherParentVaultNotValid (by simp only [setUnion, ha, hb, hs, Option.bind_eq_bind, Option.bind_some, hab, if_false, h1, h2, if_true, reduceCtorEq]) (by rw [if_neg hab]; exact h3)
    · exact bad .ParentVaultNotMatch (by simp only [setUnion, ha, hb, hs, Option.bind_eq_bind, Option.bind_some, hab, if_false, h1, h2, if_true, reduceCtorEq, ne_eq, Option.some.injEq, h3, not_false_eq_true])
        (by rw [if_neg hab]; exact h4)

theorem inter_goes {a b s : Nat} (hi : Inv own home w) (hg : Good w) (hk : Knows T P w) (ho : Ordinary home w (.setIntersection a b s))
    (h : isSetObj w a = true ∧ isSetObj w b = true ∧ isSetObj w s = true) : Goes home T P env w (.setIntersection a b s) := by
  obtain ⟨ao, ha, hai⟩ := isSetObj_iff.mp h.1
  obtain ⟨bo, hb, hbi⟩ := isSetObj_iff.mp h.2.1
  obtain ⟨so, hs, his⟩ := isSetObj_iff.mp h.2.2
  unfold Goes
  simp only [outcome, onSet_three h, gcallOf, State.Does]
  have bad : ∀ c, setIntersection env w a b s = some (w, .bad c none) → (if a = b ∨ a = s ∨ b = s then some .SameVaultRecordSet else ao.var.mismatch bo.var) = some c →
      ∃ w' ans, (setIntersection env w a b s).map (fun x => (x.1, Answer.res x.2)) = some (w', ans) ∧ Good w' ∧
        Knows (markT T (.setIntersection a b s : Op K V Ty) w') (markP P (.setIntersection a b s : Op K V Ty) w w') w' ∧
        (dbOf w' = dbOf w → (stateOf w).combine a b s (· ∧ ·) ans (stateOf w')) := fun c h1 h2 =>
    ⟨w, _, by rw [h1]; rfl, hg, hk.stay, fun _ => combine_bad ha hai hb hbi hs his h2 _⟩
  by_cases hab : a = b ∨ a = s ∨ b = s
  · exact bad .SameVaultRecordSet (by simp only [setIntersection, ha, hb, hs, Option.bind_eq_bind, Option.bind_some, hab, if_true]) (by rw [if_pos hab])
  · rcases mismatch_cases ao bo with ⟨p, h1, h2⟩ | ⟨h1, h2⟩ | ⟨p, h1, h2, h3⟩ | ⟨p, q, h1, h2, h3, h4⟩
    · obtain ⟨w', e, f⟩ := intersection_turn (env := env) hi hg hk hs his ha hai hb hbi hab h1 h2 (ho ao p ha h1)
      refine ⟨w', _, by rw [e]; rfl, f.good, ?_, fun hdb => combine_good hi ha hai hb hbi hs his hab h1 h2 hdb (f := (· ∧ ·)) f⟩
      exact Knows.mark (f.knows.more fun r h => .inl h)
    · exact bad .ParentVaultNotValid (by simp only [setIntersection, ha, hb, hs, Option.bind_eq_bind, Option.bind_some, hab, if_false, h1]) (by rw [if_neg hab]; exact h2)
    · exact bad .OtherParentVaultNotValid (by simp only [setIntersection, ha, hb, hs, Option.bind_eq_bind, Option.bind_some, hab, if_false, h1, h2, if_true, reduceCtorEq]) (by rw [if_neg hab]; exact h3)
    · exact bad .ParentVaultNotMatch (by simp only [setIntersection, ha, hb, hs, Option.bind_eq_bind, Option.bind_some, hab, if_false, h1, h2, if_true, reduceCtorEq, ne_eq, Option.some.injEq, Ne.symm h3, not_false_eq_true])
        (by rw [if_neg hab]; exact h4)

/-! ### Taking records out -/

theorem source_set {w : World K V Ty} {s p : Nat} {so : Obj K V Ty} (hi : Inv own home w) (hs : w.getObj s = some so) (his : so.isSet = true) (hp : so.parent = some p) :
    (stateOf w).source s = some (p, so.var.on (asTable w p)) := by
  obtain ⟨po, hpo, hpv, _⟩ := hi.l.up s so p hs his hp
  show (match dbOf w s with | some t => some (s, t) | none => match varsOf w s with | some s => s.vault.bind fun p => (dbOf w p).map fun t => (p, s.on t) | none => none) = _
  rw [dbOf_none (by simp [isVault, hs, his]), varsOf_some hs his]
  show so.parent.bind (fun p => (dbOf w p).map fun t => (p, so.var.on t)) = _
  rw [hp, Option.bind_some, dbOf_vault (vault_of_obj hpo hpv)]; rfl

theorem put_self {s : Nat} {so : Obj K V Ty} (hs : w.getObj s = some so) (his : so.isSet = true) (p : Nat) :
    (stateOf w).put s (some (so.var.take (so.var.on (asTable w p)))) = stateOf w := by
  apply State.ext
  · rfl
  · funext t
    show (if t = s then _ else _) = _
    by_cases e : t = s
    · subst e; rw [if_pos rfl]; exact (var_of hs his).symm
    · rw [if_neg e]

/-- The set is a table of its own: `Src` in the repaired world. -/
theorem good_src {s p : Nat} {so : Obj K V Ty} (hi : Inv own home w) (hg : Good w) (hk : Knows T P w) (hs : w.getObj s = some so) (his : so.isSet = true) (hp : so.parent = some p) :
    Src w.full so p (so.var.on (asTable w p)) := by
  have hvo : vaultOf s so = some p := by simp [vaultOf, his, hp]
  obtain ⟨t, h1, h2⟩ := source_of (w := w.full) (told_inv hi) (full_deep hi hg) hs hvo
  rw [← (full_sim hi hk).state, source_set hi hs his hp] at h1
  cases h1; exact h2

theorem remove_good {w' : World K V Ty} {s p : Nat} {so so' : Obj K V Ty} {l : List Nat} (hi : Inv own home w) (hg : Good w) (hk : Knows T P w) (hs : w.getObj s = some so)
    (his : so.isSet = true) (hp : so.parent = some p) (tu : Turn own home s so so' w w') (hl : Lost l so so') (hdb : dbOf w' = dbOf w) {c : Cmd K V Ty} {none ans : Answer K}
    (q : Nat → Prop) (hq : ∀ r, so.var.row r → (r ∈ l ↔ q r))
    (h : (so.var.on (asTable w p)).Step (fun _ => False) c ans ((so.var.on (asTable w p)).erase q)) : (stateOf w).remove s c none ans (stateOf w') := by
  refine ⟨so.var, var_of hs his, ?_⟩
  rw [source_set hi hs his hp]
  refine ⟨_, h, ?_⟩
  rw [tu.beside.put hdb tu.get tu.isSet, lost_var (T' := T) (P' := P) hi hg hk tu.inv tu.good hs his hp tu.get hl]
  rw [minus_congr (good_lists hi hg hs his) hq]; rfl

theorem remove_same {s p : Nat} {so : Obj K V Ty} (hi : Inv own home w) (hs : w.getObj s = some so) (his : so.isSet = true) (hp : so.parent = some p) {c : Cmd K V Ty}
    {none ans : Answer K} (h : (so.var.on (asTable w p)).Step (fun _ => False) c ans (so.var.on (asTable w p))) : (stateOf w).remove s c none ans (stateOf w) := by
  refine ⟨so.var, var_of hs his, ?_⟩
  rw [source_set hi hs his hp]
  exact ⟨_, h, (put_self hs his p).symm⟩

theorem remove_none {s : Nat} {so : Obj K V Ty} (hs : w.getObj s = some so) (his : so.isSet = true) (hp : so.parent = none) {c : Cmd K V Ty} {ans : Answer K} :
    (stateOf w).remove s c ans ans (stateOf w) := by
  refine ⟨so.var, var_of hs his, ?_⟩
  rw [source_none hs (by simp [vaultOf, his, hp])]
  exact ⟨rfl, rfl⟩

theorem removeRef_goes {s f : Nat} (hi : Inv own home w) (hg : Good w) (hk : Knows T P w) (h : isSetObj w s = true ∧ f < w.refs.length) :
    Goes home T P env w (.setRemoveRef s f) := by
  obtain ⟨so, hs, his⟩ := isSetObj_iff.mp h.1
  obtain ⟨ref, hf⟩ := get_ref h.2
  have ht : target w f = ref.ptr := by simp [target, hf]
  unfold Goes
  simp only [outcome, onSet, h.1, if_true, gcallOf, State.Does, ht]
  obtain ⟨w', so', b, l, e, tu, hl, hm, hb⟩ := setRemoveRef_turn (env := env) hi hg hs his hf
  refine ⟨w', .flag b, by rw [e]; rfl, tu.good, lost_knows hs his hk tu hl rfl, fun hdb => ?_⟩
  cases hp : so.parent with
  | none =>
    simp only [setRemoveRef, hs, Option.bind_eq_bind, Option.bind_some, hp, if_true] at e
    cases e; exact remove_none hs his hp
  | some p =>
    by_cases hx : ∃ r ∈ so.recs, ref.ptr = some r
    · obtain ⟨r, hr, hr'⟩ := hx
      refine remove_good hi hg hk hs his hp tu hl hdb (fun t => t = r) (fun t ht => ?_) (.inl ⟨r, hr', hr, by rw [hb.mpr ⟨r, hr, hr'⟩], rfl⟩)
      rw [hm, hr', Option.some.injEq]
      exact ⟨fun x => x.2.symm, fun x => ⟨ht, x.symm⟩⟩
    · refine remove_good hi hg hk hs his hp tu hl hdb (fun t => False) (fun t ht => ?_) (.inr ⟨fun r' h1 h2 => hx ⟨r', h2, h1⟩, ?_, ?_⟩)
      · rw [hm]; exact ⟨fun x => hx ⟨t, x.1, x.2⟩, False.elim⟩
      · cases hbb : b with
        | false => rfl
        | true => exact absurd (hb.mp hbb) hx
      · apply Table.ext <;> first | rfl | (simp [Table.erase])

theorem removeKV_goes {s : Nat} {k : K} {v : V} (hi : Inv own home w) (hg : Good w) (hk : Knows T P w) (h : isSetObj w s = true) : Goes home T P env w (.setRemoveKV s k v) := by
  obtain ⟨so, hs, his⟩ := isSetObj_iff.mp h
  unfold Goes
  simp only [outcome, onSet, h, if_true, gcallOf, State.Does]
  rcases setRemoveKV_turn (env := env) (k := k) (v := v) hi hg hs his with ⟨hp, e⟩ | ⟨er, hp, hc, e⟩ | ⟨c, hp, hc, hr, e⟩ | ⟨c, r, l, w', so', hp, hc, hr, e, tu, hl⟩
  · exact ⟨w, _, by rw [e]; rfl, hg, hk.stay, fun _ => remove_none hs his hp⟩
  all_goals
    obtain ⟨p, hp⟩ := Option.ne_none_iff_exists'.mp hp
    have src := good_src hi hg hk hs his hp
    rcases src.bad k v rfl with ⟨cc, b1, b2⟩ | ⟨cc, b1, b2, b3, b4⟩
  · rw [b2] at hc; cases hc
    exact ⟨w, _, by rw [e]; rfl, hg, hk.stay, fun _ => remove_same hi hs his hp (by simp [Table.Step, b1])⟩
  · rw [b4] at hc; cases hc
  · rw [b2] at hc; cases hc
  · rw [b4] at hc; cases hc
    refine ⟨w, _, by rw [e]; rfl, hg, hk.stay, fun _ => remove_same hi hs his hp ?_⟩
    simp only [Table.Step, b1]
    refine .inr ⟨?_, trivial, trivial⟩
    rintro ⟨r, hx⟩
    rw [src.hits env b2, hr] at hx; cases hx
  · rw [b2] at hc; cases hc
  · rw [b4] at hc; cases hc
    refine ⟨w', _, by rw [e]; rfl, tu.good, lost_knows hs his hk tu hl rfl, fun hdb =>
      remove_good hi hg hk hs his hp tu hl hdb (fun t => t = r) (fun t _ => by simp) ?_⟩
    simp only [Table.Step, b1]
    exact .inl ⟨r, by rw [src.hits env b2, hr]; simp, trivial, rfl⟩

theorem removeManyKV_goes {s n : Nat} {k : K} {v : V} (hi : Inv own home w) (hg : Good w) (hk : Knows T P w) (h : isSetObj w s = true) :
    Goes home T P env w (.setRemoveManyKV s k v n) := by
  obtain ⟨so, hs, his⟩ := isSetObj_iff.mp h
  unfold Goes
  simp only [outcome, onSet, h, if_true, gcallOf, State.Does]
  rcases setRemoveManyKV_turn (env := env) (n := n) (k := k) (v := v) hi hg hs his with ⟨hp, e⟩ | ⟨er, hp, hc, e⟩ | ⟨c, hp, hc, hr, e⟩ | ⟨c, w', so', hp, hc, hr, e, tu, hl⟩
  · exact ⟨w, _, by rw [e]; rfl, hg, hk.stay, fun _ => remove_none hs his hp⟩
  all_goals
    obtain ⟨p, hp⟩ := Option.ne_none_iff_exists'.mp hp
    have src := good_src hi hg hk hs his hp
    rcases src.bad k v rfl with ⟨cc, b1, b2⟩ | ⟨cc, b1, b2, b3, b4⟩
  · rw [b2] at hc; cases hc
    exact ⟨w, _, by rw [e]; rfl, hg, hk.stay, fun _ => remove_same hi hs his hp (by simp [Table.Step, b1])⟩
  · rw [b4] at hc; cases hc
  · rw [b2] at hc; cases hc
  · rw [b4] at hc; cases hc
    refine ⟨w, _, by rw [e]; rfl, hg, hk.stay, fun _ => remove_same hi hs his hp ?_⟩
    simp only [Table.Step, b1]
    refine .inr ⟨?_, trivial, trivial⟩
    rintro ⟨r, hx⟩
    rw [src.hits env b2, hr] at hx; cases hx
  · rw [b2] at hc; cases hc
  · rw [b4] at hc; cases hc
    refine ⟨w', _, by rw [e]; rfl, tu.good, lost_knows hs his hk tu hl rfl, fun hdb =>
      remove_good hi hg hk hs his hp tu hl hdb (· ∈ (equalRange env c v).take (max n 1)) (fun t _ => Iff.rfl) ?_⟩
    simp only [Table.Step, b1]
    obtain ⟨n1, n2⟩ := good_range (env := env) (v := v) hg hs his b2
    refine .inl ⟨(equalRange env c v).take (max n 1), ?_, n1.sublist (List.take_sublist _ _), ?_, ?_, ?_, trivial, rfl⟩
    · intro e0
      rw [List.take_eq_nil_iff] at e0
      rcases e0 with e0 | e0
      · omega
      · exact hr e0
    · intro r hx; rw [src.hits env b2]; exact List.mem_of_mem_take hx
    · rw [List.length_take]; omega
    · rw [List.length_take]
      by_cases hn : max n 1 ≤ (equalRange env c v).length
      · exact .inl (by omega)
      · refine .inr fun r hx => ?_
        rw [src.hits env b2] at hx
        rw [List.take_of_length_le (by omega)]; exact hx

theorem alg_goes {op : Op K V Ty} (hi : Inv own home w) (hg : Good w) (hk : Knows T P w) (ho : Ordinary home w op) (ha : Algebra w op) : Goes home T P env w op := by
  cases op <;> simp only [Algebra] at ha
  case setJoin s a => exact join_goes hi hg hk ha
  case setExclude s a => exact exclude_goes hi hg hk ha
  case setIntersect s a => exact intersect_goes hi hg hk ha
  case setUnion a b s => exact union_goes hi hg hk ho ha
  case setIntersection a b s => exact inter_goes hi hg hk ho ha
  case setRemoveRef s f => exact removeRef_goes hi hg hk ha
  case setRemoveKV s k v => exact removeKV_goes hi hg hk ha
  case setRemoveManyKV s k v n => exact removeManyKV_goes hi hg hk ha

/-- The calls of careful use. -/
theorem allowed_goes {op : Op K V Ty} (hi : Inv own home w) (hg : Good w) (hk : Knows T P w) (ho : Ordinary home w op) (ha : Allowed w op) (hu : Untangled T P w op) :
    ∃ w' ans, outcome env w op = some (w', ans) ∧ Good w' ∧ Knows (markT T op w') (markP P op w w') w' ∧
      ((dbOf w).Step (eventOf w op) ans (dbOf w') → (stateOf w).Does (gcallOf w op) ans (stateOf w')) := by
  obtain ⟨w', ans, u', h1, h2, h3, h4, h5, h6⟩ := allowed_good (env := env) hi hg hk ⟨ho, ha⟩ (hu.reads hi ha)
  refine ⟨w', ans, h1, h5, ?_, fun hS => ?_⟩
  · refine Knows.mark (Knows.less (h6.more fun r h => .inl h) fun s r h _ => .inl h)
  · have sim := told_sim (E := Intact T P w) hi hk
    rw [sim.db, h3.db, sim.event] at hS
    have := careful_step (told_inv hi) (told_deep hi hg hk fun r h => h) (Careful.sim sim ⟨ho, ha⟩) h2 hS
    rw [← sim.call, ← sim.state, ← h3.state] at this
    have e : gcallOf w op = .base (callOf w op) := by
      cases op <;> first | rfl | (simp only [Allowed] at ha)
    rw [e]; exact this

theorem gentle_goes {op : Op K V Ty} (hi : Inv own home w) (hg : Good w) (hk : Knows T P w) (h : Gently home T P w op) :
    ∃ w' ans, outcome env w op = some (w', ans) ∧ Good w' ∧ Knows (markT T op w') (markP P op w w') w' ∧
      ((dbOf w).Step (eventOf w op) ans (dbOf w') → (stateOf w).Does (gcallOf w op) ans (stateOf w')) := by
  obtain ⟨ho, ha | ha, hu⟩ := h
  · exact allowed_goes hi hg hk ho ha hu
  · obtain ⟨w', ans, h1, h2, h3, h4⟩ := alg_goes (env := env) hi hg hk ho ha
    refine ⟨w', ans, h1, h2, h3, fun hS => h4 ?_⟩
    have e : eventOf w op = .other := by cases op <;> first | rfl | (simp only [Algebra] at ha)
    rw [e] at hS; exact hS

end
end MVault.W
