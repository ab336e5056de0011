import Verif.PropsAsk
import Verif.PropsWindow
import Verif.PropsCareful
/-
C96: one set variable used with several vaults, one after the other. A request into a set, or an assignment to it, first resets the set, which takes it out of
everything of its old vault.
-/
set_option linter.unusedSectionVars false
set_option linter.unusedSimpArgs false
set_option linter.unusedVariables false
namespace MVault.W
variable {K V Ty : Type} [LinearOrder K] [LinearOrder V] [Typed V Ty] [DecidableEq Ty]
variable {home : Nat → Nat}

/-- No reference variable got through set `s` refers to a record (specification). -/
def NoRefs (w : World K V Ty) (s : Nat) : Prop := ∀ f, through w f = some s → target w f = none

theorem NoRefs.iff {w : World K V Ty} {s : Nat} : NoRefs w s ↔ ∀ f ∈ w.refs, f.vlt = some s → f.ptr = none := by
  constructor
  · intro h f hf hv
    obtain ⟨i, hi⟩ := List.mem_iff_getElem?.mp hf
    have := h i (by simp [through, hi, hv])
    simpa [target, hi] using this
  · intro h f hf
    cases hr : w.refs[f]? with
    | none => simp [target, hr]
    | some ref =>
      simp only [through, hr, Option.bind_some] at hf
      simp only [target, hr, Option.bind_some]
      exact h ref (List.mem_of_getElem? hr) hf

/-- After a careful history: a set without vault, through which no reference refers to a record, is tied to nothing. -/
theorem detached_unused {w : World K V Ty} (hw : HReach Careful home w) {s : Nat} (hs : isSetObj w s = true) (hp : parentOf w s = none) (hr : NoRefs w s) : Unused w s := by
  obtain ⟨own, hi, hd⟩ := reach_deep hw
  obtain ⟨so, hso, his⟩ := isSetObj_iff.mp hs
  have hpar : so.parent = none := by simpa [parentOf, hso] using hp
  have sd := hd.set s so hso his
  refine ⟨fun so' h _ => ?_, fun _ _ _ => NoRefs.iff.mp hr, fun r x hx hv hm => ?_⟩
  · rw [hso] at h; cases h; exact ⟨hpar, (sd.det hpar).1⟩
  · obtain ⟨so', h1, _, h2⟩ := hd.told r x s hx hv hm
    rw [hso] at h1; cases h1
    rw [(hi.s.sets s so hso his).det hpar] at h2; cases h2

/-- A number that no object has yet, or a destroyed set. -/
theorem gone_unused {w : World K V Ty} (hw : HReach Careful home w) {s : Nat} (hs : w.getObj s = none) : Unused w s := by
  obtain ⟨own, hi, hd⟩ := reach_deep hw
  refine ⟨fun so h => (by rw [hs] at h; cases h), fun so h => (by rw [hs] at h; cases h), fun r x hx hv hm => ?_⟩
  obtain ⟨so, h, _⟩ := hd.told r x s hx hv hm
  rw [hs] at h; cases h

theorem putObj_swap {w : World K V Ty} {a b : Nat} (hne : a ≠ b) {xa xb : Obj K V Ty} (ha : w.getObj a = some xa) (hb : w.getObj b = some xb) (x y : Obj K V Ty) :
    (w.putObj a x).putObj b y = (w.putObj b y).putObj a x := by
  simp only [World.putObj, World.mk.injEq, true_and, and_true]
  exact mput_comm _ x y hne ⟨_, ha⟩ ⟨_, hb⟩

theorem loop_put {p : Nat} {X : Obj K V Ty} {f : World K V Ty → Nat → Option (World K V Ty)} (hf : ∀ w r, f (w.putObj p X) r = (f w r).map (·.putObj p X)) :
    ∀ (l : List Nat) (w : World K V Ty), loop f l (w.putObj p X) = (loop f l w).map (·.putObj p X) := by
  intro l
  induction l with
  | nil => intro w; rfl
  | cons r l ih =>
    intro w
    simp only [loop, hf]
    cases h : f w r with
    | none => rfl
    | some w1 => simp [ih]

theorem eraseDep_put (s p : Nat) (X : Obj K V Ty) (w : World K V Ty) (r : Nat) : eraseDep s (w.putObj p X) r = (eraseDep s w r).map (·.putObj p X) := by
  simp only [eraseDep, World.getRec, World.putObj, Option.map_map]
  cases mget w.recs r <;> rfl

theorem invalidate_put (p : Nat) (X : Obj K V Ty) (w : World K V Ty) (r : Nat) : invalidate (w.putObj p X) r = (invalidate w r).map (·.putObj p X) := by
  simp only [invalidate, World.getRec, World.putObj, Option.map_map]
  cases mget w.recs r with
  | none => rfl
  | some x => simp only [Option.map_some, Function.comp]; split <;> rfl

/-- Resetting a set does not see the list of sets of another vault. -/
theorem setReset_put {env : Env} {w : World K V Ty} {s p q : Nat} {so po : Obj K V Ty} (hso : w.getObj s = some so) (hq : so.parent = some q) (hqp : q ≠ p) (hqs : q ≠ s) (hps : p ≠ s)
    (hpo : w.getObj p = some po) (X : Obj K V Ty) : setReset env (w.putObj p X) s = (setReset env w s).map (·.putObj p X) := by
  have e1 : setClear env (w.putObj p X) s = (setClear env w s).map (·.putObj p X) := by
    simp only [setClear, getObj_putObj, hps, if_false, hso, Option.bind_eq_bind, Option.bind_some, hq, reduceCtorEq, loop_put (eraseDep_put s p X)]
    cases h : loop (eraseDep s) (env.perm so.recs) w with
    | none => rfl
    | some w1 =>
      have ho := loop_objs (fun _ _ _ h => eraseDep_objs h) _ h
      simp only [Option.map_some, Option.bind_some, Option.some.injEq]
      exact putObj_swap hps (by rw [getObj_of_objs ho]; exact hpo) (by rw [getObj_of_objs ho]; exact hso) _ _
  simp only [setReset, getObj_putObj, hps, if_false, hso, Option.bind_eq_bind, Option.bind_some, hq, Ne.symm hqp, e1]
  cases hqo : w.getObj q with
  | none => rfl
  | some qo =>
    simp only [Option.bind_some]
    cases h1 : setClear env w s with
    | none => rfl
    | some w1 =>
      simp only [Option.map_some, Option.bind_some]
      have o1 : (∃ so1, w1.getObj s = some so1) ∧ w1.getObj p = some po ∧ w1.getObj q = some qo := by
        simp only [setClear, hso, Option.bind_eq_bind, Option.bind_some, hq, reduceCtorEq, if_false] at h1
        obtain ⟨w0, h0, h1⟩ := Option.bind_eq_some_iff.mp h1
        rw [Option.some.injEq] at h1; subst h1
        have ho := loop_objs (fun _ _ _ h => eraseDep_objs h) _ h0
        refine ⟨⟨_, getObj_putObj_self _ _ _⟩, ?_, ?_⟩
        · rw [getObj_putObj, if_neg (Ne.symm hps), getObj_of_objs ho, hpo]
        · rw [getObj_putObj, if_neg (Ne.symm hqs), getObj_of_objs ho, hqo]
      obtain ⟨⟨so1, hso1⟩, hpo1, hqo1⟩ := o1
      simp only [dropCore, getObj_putObj, hps, if_false, hso1, Option.bind_eq_bind, Option.bind_some, loop_put (invalidate_put p X)]
      cases h2 : loop invalidate (env.perm so1.recs) w1 with
      | none => rfl
      | some w2 =>
        have ho := loop_objs (fun _ _ _ h => invalidate_objs h) _ h2
        have hp2 : w2.getObj p = some po := by rw [getObj_of_objs ho]; exact hpo1
        have hs2 : w2.getObj s = some so1 := by rw [getObj_of_objs ho]; exact hso1
        have hq2 : w2.getObj q = some qo := by rw [getObj_of_objs ho]; exact hqo1
        simp only [Option.map_some, Option.bind_some, getObj_putObj, Ne.symm hqs, hq2, Ne.symm hqp, hqs, if_true, if_false, Option.some.injEq]
        rw [putObj_swap hps hp2 hs2, putObj_swap (Ne.symm hqp) (w := w2.putObj s _) (xa := po) (xb := qo) (by simp [Ne.symm hps, hp2]) (by simp [Ne.symm hqs, hq2]),
          putObj_swap hps (w := (w2.putObj s _).putObj q _) (xa := po) (xb := _) (by simp [hqp, Ne.symm hps, hp2]) (by simp [hqs]; rfl)]

/-- The vault whose records object `o` gives: `o` itself, or the vault of the set (specification). -/
def GivesFrom (w : World K V Ty) (o p : Nat) : Prop := (isVault w o = true ∧ p = o) ∨ (isSetObj w o = true ∧ parentOf w o = some p)

theorem GivesFrom.obj {w : World K V Ty} {o p : Nat} (h : GivesFrom w o p) : ∃ oo, w.getObj o = some oo ∧ (if oo.isSet = true then oo.parent else some o) = some p := by
  rcases h with ⟨h, rfl⟩ | ⟨h, hp⟩
  · obtain ⟨oo, h1, h2⟩ := isVault_iff.mp h
    exact ⟨oo, h1, by simp [h2]⟩
  · obtain ⟨oo, h1, h2⟩ := isSetObj_iff.mp h
    exact ⟨oo, h1, by simpa [h2, parentOf, h1] using hp⟩

section
variable {own : Nat → Nat} {env : Env} {w : World K V Ty} {o p q s : Nat}

theorem prepTarget_other (hi : Inv own home w) (ho : GivesFrom w o p) (hne : o ≠ s) (hs : isSetObj w s = true) (hq : parentOf w s = some q) (hqp : q ≠ p) :
    prepTarget env w o p s = (setReset env w s).bind fun w1 => prepTarget env w1 o p s := by
  obtain ⟨so, hso, his⟩ := isSetObj_iff.mp hs
  have hsp : so.parent = some q := by simpa [parentOf, hso] using hq
  obtain ⟨qo, hqo, hqv, _⟩ := hi.l.up s so q hso his hsp
  have hqs : q ≠ s := by rintro rfl; rw [hqo] at hso; cases hso; rw [his] at hqv; cases hqv
  obtain ⟨po, hpo, hpv⟩ : ∃ po, w.getObj p = some po ∧ po.isSet = false := by
    rcases ho with ⟨h, rfl⟩ | ⟨h, hp⟩
    · exact isVault_iff.mp h
    · obtain ⟨oo, h1, h2⟩ := isSetObj_iff.mp h
      obtain ⟨po, h3, h4, _⟩ := hi.l.up o oo p h1 h2 (by simpa [parentOf, h1] using hp)
      exact ⟨po, h3, h4⟩
  have hps : p ≠ s := by rintro rfl; rw [hpo] at hso; cases hso; rw [his] at hpv; cases hpv
  simp only [prepTarget, hpo, Option.bind_eq_bind, Option.bind_some, getObj_putObj, hps, if_false, hso, hsp, Option.some.injEq, hqp,
    setReset_put hso hsp hqp hqs hps hpo]
  cases hr : setReset env w s with
  | none => rfl
  | some w1 =>
    obtain ⟨_, ⟨so', g1, g2, g3, _⟩, g4⟩ := setReset_spec hso his hi.q.si hr
    have hp1 : w1.getObj p = some po := by rw [g4 p hps, hsp, if_neg (by simpa using hqp), hpo]
    simp only [Option.map_some, Option.bind_some, hp1, getObj_putObj, hps, if_false, g1, g3, reduceCtorEq, setReset, Option.bind_eq_bind]

theorem reset_source (hi : Inv own home w) {w1 : World K V Ty} (hs : isSetObj w s = true) (hr : setReset env w s = some w1) (hne : o ≠ s) {oo : Obj K V Ty} (hoo : w.getObj o = some oo) :
    ∃ oo', w1.getObj o = some oo' ∧ oo'.isSet = oo.isSet ∧ oo'.parent = oo.parent := by
  obtain ⟨so, hso, his⟩ := isSetObj_iff.mp hs
  obtain ⟨_, _, g4⟩ := setReset_spec hso his hi.q.si hr
  rw [g4 o hne]
  split
  · exact ⟨{ oo with sets := oo.sets.filter (· ≠ s) }, by rw [hoo]; rfl, rfl, rfl⟩
  · exact ⟨_, hoo, rfl, rfl⟩

/-- After any ordinary history, a request of one vault (or of a set of it) into a set that is used with another vault is the same as `Reset` of the set followed by the request. -/
theorem C96_request_resets (hw : HReach Ordinary home w) (ho : GivesFrom w o p) (hne : o ≠ s) (hs : isSetObj w s = true) (hq : parentOf w s = some q) (hqp : q ≠ p) :
    (∀ k c n pred, ask env w o k c n pred s = (setReset env w s).bind fun w1 => ask env w1 o k c n pred s) ∧
    ∀ t, requestTree env w o t s = (setReset env w s).bind fun w1 => requestTree env w1 o t s := by
  obtain ⟨own, hi⟩ := reach_inv hw
  obtain ⟨oo, h1, h2⟩ := ho.obj
  have e := prepTarget_other (env := env) hi ho hne hs hq hqp
  have hreq : ∀ t k a b ia ib n pred, request env w o t k a b ia ib n pred s = (setReset env w s).bind fun w1 => request env w1 o t k a b ia ib n pred s := by
    intro t k a b ia ib n pred
    simp only [request, h1, Option.bind_eq_bind, Option.bind_some, h2, hne, if_false, e]
    cases hr : setReset env w s with
    | none => rfl
    | some w1 =>
      obtain ⟨oo', g1, g2, g3⟩ := reset_source hi hs hr hne h1
      simp only [Option.bind_some, g1, g2, g3, h2, hne, if_false]
  refine ⟨fun k c n pred => ?_, fun t => ?_⟩
  · cases c <;> exact hreq _ _ _ _ _ _ _ _
  · simp only [requestTree, h1, Option.bind_eq_bind, Option.bind_some, h2, hne, if_false, e]
    cases hr : setReset env w s with
    | none => rfl
    | some w1 =>
      obtain ⟨oo', g1, g2, g3⟩ := reset_source hi hs hr hne h1
      simp only [Option.bind_some, g1, g2, g3, h2, hne, if_false]

/-- The same for assignment of another set. -/
theorem C96_assign_resets (hw : HReach Ordinary home w) {a : Nat} (hne : s ≠ a) (hs : isSetObj w s = true) (ha : isSetObj w a = true) :
    setAssign env w s a = (setReset env w s).bind fun w1 => setAssign env w1 s a := by
  obtain ⟨own, hi⟩ := reach_inv hw
  obtain ⟨so, hso, his⟩ := isSetObj_iff.mp hs
  obtain ⟨ao, hao, hai⟩ := isSetObj_iff.mp ha
  simp only [setAssign, hso, hao, Option.bind_eq_bind, Option.bind_some, hne, if_false]
  cases hr : setReset env w s with
  | none => rfl
  | some w1 =>
    obtain ⟨_, ⟨so', g1, g2, g3, _⟩, _⟩ := setReset_spec hso his hi.q.si hr
    obtain ⟨ao', h1, h2, h3⟩ := reset_source hi hs hr (Ne.symm hne) hao
    simp only [Option.bind_some, g1, h1, h3, setReset, g3, Option.bind_eq_bind]

/-- Careful histories: `Reset` of a set through which no reference refers to a record always works, changes no vault, and leaves the set free: it may be used with any
vault from now on, and the history stays careful, so that all theorems about careful histories hold. -/
theorem C96_reset_frees (hw : HReach Careful home w) (hs : isSetObj w s = true) (hr : NoRefs w s) :
    ∃ w1, setReset env w s = some w1 ∧ dbOf w1 = dbOf w ∧ isSetObj w1 s = true ∧ parentOf w1 s = none ∧ members w1 s = [] ∧ NoRefs w1 s ∧
      ∀ p, HReach Careful (rehome home s p) w1 := by
  obtain ⟨own, hi, hd⟩ := reach_deep hw
  obtain ⟨so, hso, his⟩ := isSetObj_iff.mp hs
  obtain ⟨w1, so1, h1, hon, _, _, lo, hob, _, hrf, _, _⟩ := setReset_deep (env := env) hd hi.q.si hso his
  have hw1 : HReach Careful home w1 := .step w w1 env (.setReset s) hw ⟨trivial, hs⟩ (by simp [step, onSet, hs, h1])
  have hs1 : isSetObj w1 s = true := isSetObj_iff.mpr ⟨so1, lo.get, lo.isSet⟩
  have hp1 : parentOf w1 s = none := by simp [parentOf, lo.get, lo.parent]
  have hr1 : NoRefs w1 s := by rw [NoRefs.iff, hrf]; exact NoRefs.iff.mp hr
  have hdb : dbOf w1 = dbOf w := by
    have := C79_refines (env := env) (hw.mono fun _ _ _ g => g.1) (op := .setReset s) trivial (w' := w1) (ans := .unit) (by simp [outcome, onSet, hs, h1])
    exact this
  exact ⟨w1, h1, hdb, hs1, hp1, by rw [members_eq lo.get, lo.recs], hr1, fun p => .reuse w1 s p hw1 (detached_unused hw1 hs1 hp1 hr1)⟩

/-- Careful histories: a set made next, or copied from another one, may be used with any vault. -/
theorem C96_new_set (hw : HReach Careful home w) (p : Nat) : HReach Careful (rehome home w.nextO p) w := by
  refine .reuse w w.nextO p hw (gone_unused hw ?_)
  cases h : w.getObj w.nextO with
  | none => rfl
  | some x => exact absurd ((reach_ai hw.any).objB _ x h) (lt_irrefl _)

/-- Careful histories: assigning to a set, through which no reference refers to a record, a set of any vault works, gives it exactly the rows of that set, and the history goes on as a
careful one in which the set is used with that vault. -/
theorem C96_assign (hw : HReach Careful home w) {a : Nat} (hne : s ≠ a) (hs : isSetObj w s = true) (ha : isSetObj w a = true) (hp : parentOf w a = some p) (hr : NoRefs w s) :
    ∃ w', setAssign env w s a = some w' ∧ HReach Careful (rehome home s p) w' ∧ parentOf w' s = some p ∧ (∀ r, r ∈ members w' s ↔ r ∈ members w a) ∧ dbOf w' = dbOf w := by
  obtain ⟨w1, h1, hdb, hs1, _, _, _, hall⟩ := C96_reset_frees (env := env) hw hs hr
  obtain ⟨own, hi⟩ := reach_inv (hw.mono fun _ _ _ g => g.1)
  obtain ⟨ao, hao, hai⟩ := isSetObj_iff.mp ha
  obtain ⟨ao', g1, g2, g3⟩ := reset_source hi hs h1 (Ne.symm hne) hao
  have hpa : ao.parent = some p := by simpa [parentOf, hao] using hp
  have ha1 : isSetObj w1 a = true := isSetObj_iff.mpr ⟨ao', g1, by rw [g2]; exact hai⟩
  have hg : Careful (rehome home s p) w1 (.setAssign s a) := by
    refine ⟨fun ao2 p' h2 h3 => ?_, hs1, ha1⟩
    rw [g1] at h2; cases h2
    rw [g3, hpa] at h3; cases h3
    simp [rehome]
  obtain ⟨w', ans, h2, h3⟩ := C83_defined (env := env) (hall p) hg
  have hdb' : dbOf w' = dbOf w1 := C79_refines (env := env) ((hall p).mono fun _ _ _ g => g.1) hg.1 h2
  simp only [outcome, onSet, hs1, ha1, if_true] at h2
  obtain ⟨w2, h4, h5⟩ := Option.map_eq_some_iff.mp h2
  obtain ⟨rfl, _⟩ := Prod.mk.inj h5
  have hall' : setAssign env w s a = some w2 := by rw [C96_assign_resets (hw.mono fun _ _ _ g => g.1) hne hs ha, h1]; exact h4
  have nv : ∀ t, isSetObj w t = true → NotVault w t := by
    intro t ht
    obtain ⟨tt, h5, h6⟩ := isSetObj_iff.mp ht
    exact ⟨(reach_ai hw.any).objB _ tt h5, by simp [kind, h5, h6]⟩
  have hpr := setAssign_pr (reach_ai hw.any) (reach_ni hw.any) (nv s hs) hne (p := p) (by rw [pr_of hao, hpa]) hall'
  refine ⟨_, hall', h3, ?_, setAssign_mem (reach_ai hw.any) (reach_ni hw.any) (nv s hs) (nv a ha) hall', hdb'.trans hdb⟩
  simp only [pr, Option.map_eq_some_iff] at hpr
  obtain ⟨x, h5, h6⟩ := hpr
  rw [parentOf_eq h5]; exact h6

/-- Careful histories: a request of vault `p` into a set that has another vault, or none, and through which no reference refers to a record, always works; the set then
belongs to `p` and has exactly the rows of `p` that meet the condition, are accepted by the predicate and are found; no vault changes; and the history goes on as a careful one
in which the set is used with `p`. -/
theorem C96_request (hw : HReach Careful home w) (hv : isVault w p = true) (hs : isSetObj w s = true) (hq : parentOf w s ≠ some p) (hr : NoRefs w s) (k : K) (c : Cond V)
    (n : Option Nat) (pred : Nat → Bool) :
    ∃ w' res, ask env w p k c n pred s = some (w', res) ∧ HReach Careful (rehome home s p) w' ∧ parentOf w' s = some p ∧ dbOf w' = dbOf w ∧
      (n = none → c.typed c.ty → (asTable w p).ty k = some c.ty → res = .good (some k) ∧ ∀ r, r ∈ members w' s ↔
        (asTable w p).row r ∧ (∃ v, (asTable w p).cell r k = some v ∧ c.holds v) ∧ pred r = true ∧ (asTable w p).seen c.ordered k r) := by
  obtain ⟨w1, h1, hdb, hs1, hp1, _, _, hall⟩ := C96_reset_frees (env := env) hw hs hr
  have hps : p ≠ s := by
    rintro rfl
    obtain ⟨a, h2, h3⟩ := isVault_iff.mp hv
    obtain ⟨b, h4, h5⟩ := isSetObj_iff.mp hs
    rw [h2] at h4; cases h4; rw [h3] at h5; cases h5
  have e : ask env w p k c n pred s = ask env w1 p k c n pred s := by
    cases hp : parentOf w s with
    | none =>
      obtain ⟨so, hso, _⟩ := isSetObj_iff.mp hs
      have : so.parent = none := by simpa [parentOf, hso] using hp
      simp only [setReset, hso, Option.bind_eq_bind, Option.bind_some, this, Option.some.injEq] at h1
      rw [h1]
    | some q =>
      rw [(C96_request_resets (env := env) (hw.mono fun _ _ _ g => g.1) (.inl ⟨hv, rfl⟩) hps hs hp (by rintro rfl; exact hq hp)).1, h1]; rfl
  have hw1 := hall p
  have hvp : isVault w1 p = isVault w p ∧ asTable w1 p = asTable w p := by
    have := congrFun hdb p
    simp only [dbOf, hv, if_true] at this
    by_cases hv1 : isVault w1 p = true
    · simp only [hv1, if_true, Option.some.injEq] at this
      exact ⟨by rw [hv, hv1], this⟩
    · simp [hv1] at this
  have hv1 : isVault w1 p = true := by rw [hvp.1, hv]
  have hh : rehome home s p s = p := by simp [rehome]
  have hg : Careful (rehome home s p) w1 (.ask p k c n pred s) := by
    rw [opAsk_eq]
    refine ⟨fun oo p' ho hp' => ?_, .inl hv1, hs1⟩
    obtain ⟨vo, h2, h3⟩ := isVault_iff.mp hv1
    rw [h2] at ho; cases ho
    simp only [vaultOf, h3, Bool.false_eq_true, if_false, Option.some.injEq] at hp'
    rw [hh, hp']
  obtain ⟨w', ans, h2, h3⟩ := C83_defined (env := env) hw1 hg
  have hdb' : dbOf w' = dbOf w1 := by
    have := C79_refines (env := env) (hw1.mono fun _ _ _ g => g.1) hg.1 h2
    rw [opAsk_eq] at this
    exact this
  rw [opAsk_eq] at h2
  simp only [outcome, hs1, onSet, if_true] at h2
  obtain ⟨⟨w2, res⟩, h4, h5⟩ := Option.map_eq_some_iff.mp h2
  cases h5
  rw [← ask_eq] at h4
  obtain ⟨own, hi⟩ := reach_inv (hw1.mono fun _ _ _ g => g.1)
  refine ⟨_, res, by rw [e]; exact h4, h3, ?_, hdb'.trans hdb, ?_⟩
  · obtain ⟨vo, a1, a2⟩ := isVault_iff.mp hv1
    obtain ⟨so, b1, b2⟩ := isSetObj_iff.mp hs1
    rw [ask_eq] at h4
    exact (request_vault hi a1 a2 b1 b2 hh.symm h4).2.1
  · rintro rfl ht hty
    rw [← hvp.2] at hty ⊢
    exact C79_request (hw1.mono fun _ _ _ g => g.1) hv1 hs1 hh ht hty h4

end

/-! ### Examples -/

/-- The value of type `int` used in the examples. -/
def int5 : Val := .int .i32 5 (by decide)

/-- Two vaults with a key of the same name, of type `int` and `std::string`; one record each; a set. -/
def twoOps : List (Op Key Val VTy) :=
  [.newVault, .newVault, .newSet, .newRef, .addKey 0 kName int5, .addKey 1 kName (.str "x".toList), .createRow 0 [], .createRow 1 [],
   .ask 0 kName (.eq int5) none (fun _ => true) 2]
/-- The world after `twoOps`: set 2 belongs to vault 0. -/
def twoW : World Key Val VTy := (runC (fun _ => 0) World.empty (twoOps.map (Env.id, ·))).getD World.empty
theorem twoW_reach : HReach Careful (fun _ => 0) twoW := runC_reach (twoOps.map (Env.id, ·)) .init rfl

/-- The hypotheses of `C96_request`, `C96_request_resets` and `C96_reset_frees` are met: the set that belongs to vault 0 is filled from vault 1. -/
example : isVault twoW 1 = true ∧ isSetObj twoW 2 = true ∧ parentOf twoW 2 = some 0 ∧ members twoW 2 = [0] ∧
    (∃ w' : World Key Val VTy, ask Env.id twoW 1 kName (.eq (.str "x".toList)) none (fun _ => true) 2 = some (w', .good (some kName)) ∧ parentOf w' 2 = some 1 ∧ members w' 2 = [1]) :=
  ⟨by decide, by decide, by decide, by decide, _, rfl, by decide, by decide⟩

theorem twoW_norefs : NoRefs twoW 2 := by
  rw [NoRefs.iff]
  intro f hf hv
  have : f = ⟨none, none⟩ := by
    have h : twoW.refs = [⟨none, none⟩] := rfl
    rw [h] at hf
    simpa using hf
  subst this; rfl

/-- A history that uses set 2 first with vault 0 and then with vault 1 is careful. -/
example : ∃ w' : World Key Val VTy, HReach Careful (rehome (fun _ => 0) 2 1) w' ∧ members w' 2 = [1] := by
  obtain ⟨w', res, h1, h2, _⟩ := C96_request (env := Env.id) twoW_reach (p := 1) (s := 2) (by decide) (by decide) (by decide) twoW_norefs kName (.eq (.str "x".toList)) none (fun _ => true)
  refine ⟨w', h2, ?_⟩
  have e : ask Env.id twoW 1 kName (.eq (.str "x".toList)) none (fun _ => true) 2 = some (w', res) := h1
  have : (ask Env.id twoW 1 kName (.eq (.str "x".toList)) none (fun _ => true) 2).map (fun x => members x.1 2) = some [1] := by decide
  rw [e] at this
  simpa using this

/-- The reference that is left: with a reference got through the set and still at a record of its old vault, the set must not be used with another vault. The reference then works
with the tables of the set, which has the keys of the new vault: here `SetData` of a text for a record whose key has type `int` reports success, changes nothing in the record, and from
then on the set, which belongs to vault 1, finds the record of vault 0. -/
theorem C96_live_reference_refuted : ∃ w w1 w2 w3 w4 : World Key Val VTy, HReach Careful (fun _ => 0) w ∧ getSorted w 2 kName false none = some w1 ∧
    ask Env.id w1 1 kName (.eq (.str "x".toList)) none (fun _ => true) 2 = some (w2, .good (some kName)) ∧ refIsValid w2 1 = some true ∧ target w2 1 = some 0 ∧
    refSetData Env.id w2 1 kName (.str "y".toList) = some (w3, .good (some kName)) ∧ getKeyType w3 0 kName = some (.int .i32) ∧ value w3 0 kName = some int5 ∧
    setGetRecord Env.id w3 2 kName (.str "y".toList) 0 = some (w4, .good (some kName)) ∧ target w4 0 = some 0 ∧ 0 ∈ members w4 0 ∧ parentOf w4 2 = some 1 ∧ 0 ∉ members w4 1 ∧ 0 ∉ members w4 2 :=
  ⟨twoW, _, _, _, _, twoW_reach, rfl, rfl, by decide, by decide, rfl, by decide, by decide, rfl, by decide, by decide, by decide, by decide, by decide⟩

end MVault.W
