import Verif.WorldFrame
/-
C11, C14, C24, C25, C48, C54: what holds in every state reached by ordinary operations.
`HReach Ordinary home w`: `w` is reached from the empty world by any number of operations, each of which is ordinary
(WorldReach.lean lists the operations that are not), with arbitrary iteration orders of the unordered containers.
-/
set_option linter.unusedSectionVars false
set_option linter.unusedSimpArgs false
namespace MVault.W
variable {K V Ty : Type} [LinearOrder K] [LinearOrder V] [Typed V Ty] [DecidableEq Ty]

/-! ### A concrete history -/

/-- One vault (object 0) with key 1 (default 5) and unique key 2, three references, two records, two sets (objects 1, 2). -/
def demoOps : List DO :=
  [.newVault, .addKey 0 1 5, .addUniqueKey 0 2 false true (fun _ _ _ => 0), .newRef, .newRef, .newRef,
   .createRecord 0 0 [(2, 7)], .createRecord 0 1 [(1, 6), (2, 8)], .newSet, .newSet]
/-- The world after `demoOps`. -/
def demoW : DW := (demo demoOps).getD World.empty
theorem demoW_reach : HReach Ordinary (fun _ => 0) demoW := demo_reach (l := demoOps) rfl

/-! ### C11 -/

/-- In every state reached by ordinary operations a record of a vault has a value of the right type for every key of the
vault and no value for any other key. Missing for the full claim: histories with operations that are not ordinary, where it
is false (`C11_refuted`). -/
theorem C11_keys_and_types_partial {home : Nat → Nat} {w : World K V Ty} (hw : HReach Ordinary home w) {o r : Nat}
    (ho : isVault w o = true) (hr : r ∈ members w o) (k : K) :
    (∀ t, getKeyType w o k = some t → ∃ v, value w r k = some v ∧ typeOf v = t) ∧
    (getKeyType w o k = none → value w r k = none) := by
  obtain ⟨own, hi⟩ := reach_inv hw
  obtain ⟨vo, hvo, hs⟩ := isVault_iff.mp ho
  rw [members_eq hvo] at hr
  have ok := hi.v.vok o vo hvo hs
  rw [getKeyType_eq hvo]
  cases hk : mget vo.cols k with
  | none => exact ⟨by simp, fun _ => ok.nocol r hr k hk⟩
  | some c =>
    refine ⟨?_, by simp⟩
    intro t ht
    simp only [Option.map_some, Option.some.injEq] at ht
    subst ht
    exact (ok.cols k c hk).typed r hr

example : isVault demoW 0 = true ∧ 0 ∈ members demoW 0 ∧ getKeyType demoW 0 1 = some false ∧ value demoW 0 1 = some 5 := by decide

/-- `GetData` through a valid reference of a vault answers with the record's value, and otherwise with the reason.
Missing: as above. -/
theorem C11_getData_partial {home : Nat → Nat} {w : World K V Ty} (hw : HReach Ordinary home w) {o r f : Nat}
    (ho : isVault w o = true) (hr : r ∈ members w o) (hf : target w f = some r) (ht : through w f = some o) (k : K) (t : Ty) :
    ∃ res out, refGetData w f k t = some (res, out) ∧
      (getKeyType w o k = none → res = .bad .WrongKey (some k) ∧ out = none) ∧
      (∀ t', getKeyType w o k = some t' → t' ≠ t → res = .bad .WrongType (some k) ∧ out = none) ∧
      (getKeyType w o k = some t → res = .good (some k) ∧ out = value w r k ∧ out ≠ none) := by
  obtain ⟨own, hi⟩ := reach_inv hw
  obtain ⟨vo, hvo, hs⟩ := isVault_iff.mp ho
  have hr' := hr
  rw [members_eq hvo] at hr'
  obtain ⟨ref, h1, h2⟩ := target_some hf
  rw [through_eq h1] at ht
  obtain ⟨_, x, hx, hxv⟩ := hi.v.mem o vo hvo hs r hr'
  have hc := C11_keys_and_types_partial hw ho hr k
  rw [getKeyType_eq hvo] at hc ⊢
  simp only [refGetData, h1, h2, ht, hvo, hx, Option.bind_eq_bind, Option.bind_some, hxv]
  cases hk : mget vo.cols k with
  | none => exact ⟨_, _, rfl, by simp, by simp, by simp⟩
  | some c =>
    by_cases hty : c.ty = t
    · obtain ⟨v, hv, hvt⟩ := hc.1 c.ty (by rw [hk]; rfl)
      have hd : mget x.data k = some v := by simpa [value, hx] using hv
      simp only [hty, ne_eq, not_true, if_false, hd, hvt, if_pos]
      refine ⟨_, _, rfl, by simp, ?_, ?_⟩
      · intro t' e1 e2; simp at e1; exact absurd (e1.symm.trans hty) e2
      · intro _; exact ⟨rfl, by rw [hv], by simp⟩
    · simp only [ne_eq, hty, not_false_iff, if_true]
      refine ⟨_, _, rfl, by simp, by simp, ?_⟩
      intro e; simp at e; exact absurd e hty

example : target demoW 0 = some 0 ∧ through demoW 0 = some 0 ∧
    refGetData demoW 0 2 false = some (.good (some 2), some 7) := by decide

/-! ### C14 -/

/-- Two different records of a vault never hold the same value for a unique key. Missing: histories with operations that are
not ordinary; for copies of vaults it is false (`C37_refuted`). -/
theorem C14_unique_partial {home : Nat → Nat} {w : World K V Ty} (hw : HReach Ordinary home w) {o r r' : Nat} (ho : isVault w o = true)
    (hr : r ∈ members w o) (hr' : r' ∈ members w o) {k : K} (hk : k ∈ getUniqueKeys w o) (he : value w r k = value w r' k) : r = r' := by
  obtain ⟨own, hi⟩ := reach_inv hw
  obtain ⟨vo, hvo, hs⟩ := isVault_iff.mp ho
  rw [members_eq hvo] at hr hr'
  rw [getUniqueKeys_eq hvo] at hk
  have ok := hi.v.vok o vo hvo hs
  obtain ⟨c, hc, hm⟩ := (ok.uniqM k).mp hk
  exact ((ok.cols k c hc).uniq hm).2.2 r hr r' hr' he

example : 0 ∈ members demoW 0 ∧ 1 ∈ members demoW 0 ∧ 2 ∈ getUniqueKeys demoW 0 ∧ value demoW 0 2 = some 7 ∧ value demoW 1 2 = some 8 := by decide

/-! ### C24 -/

/-- Number of reference variables that point at record `r` (specification). -/
def pointers (w : World K V Ty) (r : Nat) : Nat := (w.refs.filter (fun f => decide (f.ptr = some r))).length

/-- The memory of record `r` is allocated (specification): it is one of the records that have been created and not deleted. -/
def allocated (w : World K V Ty) (r : Nat) : Prop := ∃ x, w.getRec r = some x

/-- A record is allocated exactly when it is stored in some vault or some reference points at it: references never dangle, and
no record is leaked. Missing: histories with operations that are not ordinary. -/
theorem C24_no_dangling_no_leak_partial {home : Nat → Nat} {w : World K V Ty} (hw : HReach Ordinary home w) (r : Nat) :
    allocated w r ↔ (∃ o, isVault w o = true ∧ r ∈ members w o) ∨ 0 < pointers w r := by
  obtain ⟨own, hi⟩ := reach_inv hw
  have hp : pointers w r = refCount w r := by unfold pointers refCount; rw [List.countP_eq_length_filter]
  rw [hp]
  constructor
  · rintro ⟨x, hx⟩
    cases hv : x.valid with
    | true =>
      obtain ⟨vo, h1, h2, h3⟩ := hi.v.val r x hx hv
      exact .inl ⟨own r, isVault_iff.mpr ⟨vo, h1, h2⟩, by rw [members_eq h1]; exact h3⟩
    | false => right; rw [← hi.r.cnt r x hx]; exact hi.r.inv r x hx hv
  · rintro (⟨o, ho, hr⟩ | h)
    · obtain ⟨vo, hvo, hs⟩ := isVault_iff.mp ho
      rw [members_eq hvo] at hr
      obtain ⟨_, x, hx, _⟩ := hi.v.mem o vo hvo hs r hr
      exact ⟨x, hx⟩
    · unfold refCount at h
      rw [List.countP_pos_iff] at h
      obtain ⟨f, hf, e⟩ := h
      exact hi.r.live f hf r (by simpa using e)

/-- A world where record 0 has left its vault but reference 0 still points at it, and record 1 has been freed. -/
def demoFreed : DW := (demo (demoOps ++ [.refReset 1, .eraseRef 0 0, .eraseKV 0 2 8])).getD World.empty
theorem demoFreed_reach : HReach Ordinary (fun _ => 0) demoFreed :=
  demo_reach (l := demoOps ++ [.refReset 1, .eraseRef 0 0, .eraseKV 0 2 8]) rfl
example : members demoFreed 0 = [] ∧ pointers demoFreed 0 = 1 ∧ (demoFreed.getRec 0).isSome = true ∧
    pointers demoFreed 1 = 0 ∧ (demoFreed.getRec 1).isSome = false := by decide

/-! ### C25 -/

/-- `IsValid` is always defined and answers true exactly when the record is stored in a vault. Missing: histories with
operations that are not ordinary. -/
theorem C25_valid_iff_member_partial {home : Nat → Nat} {w : World K V Ty} (hw : HReach Ordinary home w) {f : Nat} (hf : f < w.refs.length) :
    ∃ b, refIsValid w f = some b ∧
      (b = true ↔ ∃ r o, target w f = some r ∧ isVault w o = true ∧ r ∈ members w o) ∧
      ∀ o, through w f = some o → isVault w o = true → (b = true ↔ ∃ r, target w f = some r ∧ r ∈ members w o) := by
  obtain ⟨own, hi⟩ := reach_inv hw
  have hf' : w.refs[f]? = some w.refs[f] := List.getElem?_eq_getElem hf
  generalize w.refs[f] = ref at hf'
  have ht := target_eq hf'
  simp only [refIsValid, hf', Option.bind_eq_bind, Option.bind_some]
  cases hp : ref.ptr with
  | none => exact ⟨false, rfl, by simp [ht, hp], by simp [ht, hp]⟩
  | some r =>
    obtain ⟨x, hx⟩ := hi.r.live ref (mem_of_get hf') r hp
    refine ⟨x.valid, by simp [hx], ?_, ?_⟩
    · rw [ht, hp]
      constructor
      · intro hv
        obtain ⟨vo, h1, h2, h3⟩ := hi.v.val r x hx hv
        exact ⟨r, own r, rfl, isVault_iff.mpr ⟨vo, h1, h2⟩, by rw [members_eq h1]; exact h3⟩
      · rintro ⟨r', o, e, ho, hr⟩
        cases e
        obtain ⟨vo, hvo, hs⟩ := isVault_iff.mp ho
        rw [members_eq hvo] at hr
        obtain ⟨_, y, hy, hyv⟩ := hi.v.mem o vo hvo hs r hr
        rw [hx] at hy; cases hy; exact hyv
    · intro o hth ho
      rw [through_eq hf'] at hth
      obtain ⟨vo, hvo, hs⟩ := isVault_iff.mp ho
      have hown := hi.r.own ref (mem_of_get hf') r o vo hp hth hvo
      rw [hs] at hown; simp only [Bool.false_eq_true, if_false] at hown
      rw [ht, hp, members_eq hvo]
      constructor
      · intro hv
        obtain ⟨vo', h1, h2, h3⟩ := hi.v.val r x hx hv
        rw [hown, hvo] at h1; cases h1
        exact ⟨r, rfl, h3⟩
      · rintro ⟨r', e, hr⟩
        cases e
        obtain ⟨_, y, hy, hyv⟩ := hi.v.mem o vo hvo hs r hr
        rw [hx] at hy; cases hy; exact hyv

example : refIsValid demoW 0 = some true ∧ refIsValid demoFreed 0 = some false ∧ refIsValid demoFreed 1 = some false := by decide

/-! ### C48 -/

/-- In every state where the comparison is defined at all: two references are equal exactly when both are invalid or both are
valid and point at the same record, `!=` is the opposite, and the ids of two valid references are the same exactly when they
point at the same record. -/
theorem C48_reference_identity {w : World K V Ty} {f g : Nat} {a b : Bool} (hf : refIsValid w f = some a) (hg : refIsValid w g = some b) :
    refEq w f g = some (decide ((a = false ∧ b = false) ∨ (a = true ∧ b = true ∧ target w f = target w g))) ∧
    refNe w f g = some (!decide ((a = false ∧ b = false) ∨ (a = true ∧ b = true ∧ target w f = target w g))) ∧
    (a = true → b = true → (refId w f = refId w g ↔ target w f = target w g)) ∧
    (a = false → refId w f = some none) ∧ (a = true → ∃ r, refId w f = some (some r) ∧ target w f = some r) := by
  have hf0 := hf
  have hg0 := hg
  simp only [refIsValid, Option.bind_eq_bind, Option.bind_eq_some_iff] at hf hg
  obtain ⟨x, hx, hf⟩ := hf
  obtain ⟨y, hy, hg⟩ := hg
  have key : a = true → x.ptr = y.ptr → b = true := by
    intro ha e
    rw [← e] at hg
    cases hp : x.ptr with
    | none => rw [hp] at hf; cases hf; cases ha
    | some r => rw [hp] at hf hg; simp only at hf hg; rw [hg] at hf; cases hf; exact ha
  refine ⟨?_, ?_, ?_, ?_, ?_⟩
  · simp only [refEq, hx, hy, hf0, hg0, Option.bind_eq_bind, Option.bind_some, target_eq hx, target_eq hy]
    cases a with
    | false => simp
    | true =>
      simp only [if_true, Option.some.injEq]
      by_cases e : x.ptr = y.ptr
      · simp [e, key rfl e]
      · simp [e]
  · simp only [refNe, hx, hy, hf0, hg0, Option.bind_eq_bind, Option.bind_some, target_eq hx, target_eq hy]
    cases a with
    | false => simp
    | true =>
      simp only [if_true, Option.some.injEq]
      by_cases e : x.ptr = y.ptr
      · simp [e, key rfl e]
      · simp [e]
  · intro ha hb
    simp [refId, hx, hy, hf0, hg0, ha, hb, target_eq hx, target_eq hy]
  · intro ha; simp [refId, hx, hf0, ha]
  · intro ha
    cases hp : x.ptr with
    | none => rw [hp] at hf; cases hf; cases ha
    | some r => exact ⟨r, by simp [refId, hx, hf0, ha, hp], by rw [target_eq hx, hp]⟩

example : refEq demoW 0 1 = some false ∧ refEq demoW 0 0 = some true ∧ refEq demoFreed 0 1 = some true ∧ refNe demoW 0 1 = some true := by decide

/-! ### C54 -/

/-- Vaults are independent: an ordinary operation leaves every vault it is not about exactly as it was, with all its lookup
structures. Missing: operations that are not ordinary (moving a vault in use and the like). -/
theorem C54_vaults_independent_partial {home : Nat → Nat} {env : Env} {w w' : World K V Ty} {op : Op K V Ty} (hw : HReach Ordinary home w)
    (hg : Ordinary home w op) (h : step env w op = some w') {o : Nat} (ho : isVault w o = true) (hn : o ∉ touched w op) :
    SameVault w w' o ∧ ∀ r ∈ members w o, alive w' r := by
  obtain ⟨own, hi⟩ := reach_inv hw
  have hk := step_kept hi hg h ho hn
  refine ⟨hk.same, fun r hr => hk.valid r hr ?_⟩
  obtain ⟨vo, hvo, hs⟩ := isVault_iff.mp ho
  rw [members_eq hvo] at hr
  obtain ⟨_, x, hx, hxv⟩ := hi.v.mem o vo hvo hs r hr
  exact ⟨x, hx, hxv⟩

/-- Two vaults. -/
def demoTwo : DW := (demo (demoOps ++ [.newVault])).getD World.empty
example : isVault demoTwo 0 = true ∧ 0 ∉ touched demoTwo (.addKey 3 1 5) ∧ (step Env.id demoTwo (.addKey 3 1 5)).isSome = true ∧
    members demoTwo 0 = [0, 1] := by decide

end MVault.W
