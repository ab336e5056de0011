import Verif.WorldOps
/-
Lemmas about finite maps, loops and the primitive accesses of the World layer.
-/
namespace MVault.W

section Maps
variable {K V : Type} [DecidableEq K]

theorem mget_mput (m : List (K × V)) (k k' : K) (v : V) : mget (mput m k v) k' = if k = k' then some v else mget m k' := by
  induction m with
  | nil => simp [mput, mget]
  | cons e l ih =>
    obtain ⟨a, b⟩ := e
    simp only [mput]
    by_cases h : a = k
    · subst h; simp only [if_true, mget]; split <;> simp_all
    · simp only [if_neg h, mget, ih]
      by_cases h1 : a = k'
      · subst h1; simp [Ne.symm h]
      · simp [h1]

theorem mget_mdel (m : List (K × V)) (k k' : K) : mget (mdel m k) k' = if k = k' then none else mget m k' := by
  induction m with
  | nil => simp [mdel, mget]
  | cons e l ih =>
    obtain ⟨a, b⟩ := e
    unfold mdel at ih ⊢
    by_cases h : a = k
    · subst h
      have hd : decide (a ≠ a) = false := by simp
      simp only [List.filter_cons, hd, mget]
      rw [if_neg (by simp), ih]
      split <;> rfl
    · have hd : decide (a ≠ k) = true := by simp [h]
      simp only [List.filter_cons, hd, if_true, mget, ih]
      by_cases h1 : a = k'
      · subst h1; simp [Ne.symm h]
      · simp [h1]

theorem mget_mmap {W : Type} (f : K → V → W) (m : List (K × V)) (k : K) : mget (mmap f m) k = (mget m k).map (f k) := by
  induction m with
  | nil => simp [mmap, mget]
  | cons e l ih =>
    obtain ⟨a, b⟩ := e
    unfold mmap at ih ⊢
    simp only [List.map_cons, mget, ih]
    by_cases h : a = k
    · subst h; simp
    · simp [h]

theorem mput_same (m : List (K × V)) (k : K) (v : V) (h : mget m k = some v) : mput m k v = m := by
  induction m with
  | nil => simp [mget] at h
  | cons e l ih =>
    obtain ⟨a, b⟩ := e
    simp only [mget] at h
    simp only [mput]
    by_cases h1 : a = k
    · simp_all
    · simp only [if_neg h1] at h ⊢; rw [ih h]

theorem mhas_iff (m : List (K × V)) (k : K) : mhas m k = true ↔ ∃ v, mget m k = some v := by
  simp [mhas, Option.isSome_iff_exists]

theorem mhas_false (m : List (K × V)) (k : K) : mhas m k = false ↔ mget m k = none := by
  simp [mhas]

theorem mget_mem (m : List (K × V)) (k : K) (v : V) (h : mget m k = some v) : (k, v) ∈ m := by
  induction m with
  | nil => simp [mget] at h
  | cons e l ih =>
    obtain ⟨a, b⟩ := e
    simp only [mget] at h
    split at h
    · simp_all
    · exact List.mem_cons_of_mem _ (ih h)

theorem mget_of_mem (m : List (K × V)) (k : K) (v : V) (h : (k, v) ∈ m) : ∃ v', mget m k = some v' := by
  induction m with
  | nil => simp at h
  | cons e l ih =>
    obtain ⟨a, b⟩ := e
    simp only [mget]
    by_cases h1 : a = k
    · simp [h1]
    · simp only [if_neg h1]
      rcases List.mem_cons.mp h with h2 | h2
      · simp at h2; exact absurd h2.1.symm h1
      · exact ih h2

end Maps

section Prims
variable {K V Ty : Type}

@[simp] theorem getRec_putRec (w : World K V Ty) (r r' : Nat) (x : Rec K V) :
    (w.putRec r x).getRec r' = if r = r' then some x else w.getRec r' := mget_mput _ _ _ _
@[simp] theorem getRec_freeRec (w : World K V Ty) (r r' : Nat) :
    (w.freeRec r).getRec r' = if r = r' then none else w.getRec r' := mget_mdel _ _ _
@[simp] theorem getRec_putObj (w : World K V Ty) (o : Nat) (x : Obj K V Ty) (r : Nat) :
    (w.putObj o x).getRec r = w.getRec r := rfl
@[simp] theorem getObj_putObj (w : World K V Ty) (o o' : Nat) (x : Obj K V Ty) :
    (w.putObj o x).getObj o' = if o = o' then some x else w.getObj o' := mget_mput _ _ _ _
@[simp] theorem getObj_putRec (w : World K V Ty) (r : Nat) (x : Rec K V) (o : Nat) :
    (w.putRec r x).getObj o = w.getObj o := rfl
@[simp] theorem getObj_freeRec (w : World K V Ty) (r o : Nat) : (w.freeRec r).getObj o = w.getObj o := rfl
@[simp] theorem refs_putRec (w : World K V Ty) (r : Nat) (x : Rec K V) : (w.putRec r x).refs = w.refs := rfl
@[simp] theorem refs_freeRec (w : World K V Ty) (r : Nat) : (w.freeRec r).refs = w.refs := rfl
@[simp] theorem refs_putObj (w : World K V Ty) (o : Nat) (x : Obj K V Ty) : (w.putObj o x).refs = w.refs := rfl
@[simp] theorem nextR_putRec (w : World K V Ty) (r : Nat) (x : Rec K V) : (w.putRec r x).nextR = w.nextR := rfl
@[simp] theorem nextR_freeRec (w : World K V Ty) (r : Nat) : (w.freeRec r).nextR = w.nextR := rfl
@[simp] theorem nextR_putObj (w : World K V Ty) (o : Nat) (x : Obj K V Ty) : (w.putObj o x).nextR = w.nextR := rfl
@[simp] theorem nextO_putRec (w : World K V Ty) (r : Nat) (x : Rec K V) : (w.putRec r x).nextO = w.nextO := rfl
@[simp] theorem nextO_freeRec (w : World K V Ty) (r : Nat) : (w.freeRec r).nextO = w.nextO := rfl
@[simp] theorem nextO_putObj (w : World K V Ty) (o : Nat) (x : Obj K V Ty) : (w.putObj o x).nextO = w.nextO := rfl
@[simp] theorem getRec_refs (w : World K V Ty) (l : List Ref) (r : Nat) : ({ w with refs := l } : World K V Ty).getRec r = w.getRec r := rfl
@[simp] theorem getObj_refs (w : World K V Ty) (l : List Ref) (o : Nat) : ({ w with refs := l } : World K V Ty).getObj o = w.getObj o := rfl

theorem getRec_new (w : World K V Ty) (r n r' : Nat) (x : Rec K V) :
    ({ w with recs := mput w.recs r x, nextR := n } : World K V Ty).getRec r' = if r = r' then some x else w.getRec r' :=
  mget_mput _ _ _ _
theorem getObj_newRec (w : World K V Ty) (r n o : Nat) (x : Rec K V) :
    ({ w with recs := mput w.recs r x, nextR := n } : World K V Ty).getObj o = w.getObj o := rfl
theorem getObj_new (w : World K V Ty) (o n o' : Nat) (x : Obj K V Ty) :
    ({ w with objs := mput w.objs o x, nextO := n } : World K V Ty).getObj o' = if o = o' then some x else w.getObj o' :=
  mget_mput _ _ _ _
theorem getRec_newObj (w : World K V Ty) (o n r : Nat) (x : Obj K V Ty) :
    ({ w with objs := mput w.objs o x, nextO := n } : World K V Ty).getRec r = w.getRec r := rfl
theorem getObj_del (w : World K V Ty) (o o' : Nat) :
    ({ w with objs := mdel w.objs o } : World K V Ty).getObj o' = if o = o' then none else w.getObj o' := mget_mdel _ _ _
theorem getRec_del (w : World K V Ty) (o r : Nat) :
    ({ w with objs := mdel w.objs o } : World K V Ty).getRec r = w.getRec r := rfl

theorem getObj_putObj_self (w : World K V Ty) (o : Nat) (x : Obj K V Ty) : (w.putObj o x).getObj o = some x := by simp
theorem getRec_putRec_self (w : World K V Ty) (r : Nat) (x : Rec K V) : (w.putRec r x).getRec r = some x := by simp

/-- Invariant rule for loops. -/
theorem loop_inv {A B : Type} (P : B → Prop) (f : B → A → Option B) (l : List A) (b b' : B)
    (hf : ∀ a ∈ l, ∀ b b', P b → f b a = some b' → P b') (h0 : P b) (h : loop f l b = some b') : P b' := by
  induction l generalizing b with
  | nil => simp [loop] at h; subst h; exact h0
  | cons a l ih =>
    simp only [loop, Option.bind_eq_some_iff] at h
    obtain ⟨b1, h1, h2⟩ := h
    exact ih b1 (fun a ha => hf a (List.mem_cons_of_mem _ ha)) (hf a (List.mem_cons_self ..) b b1 h0 h1) h2

/-- Invariant rule for loops, with the processed part. -/
theorem loop_pre {A B : Type} (P : List A → B → Prop) (f : B → A → Option B) (l : List A) (b b' : B)
    (hf : ∀ d a e b b', l = d ++ a :: e → P d b → f b a = some b' → P (d ++ [a]) b') (h0 : P [] b) (h : loop f l b = some b') :
    P l b' := by
  suffices H : ∀ d e b, l = d ++ e → P d b → loop f e b = some b' → P l b' from H [] l b rfl h0 h
  intro d e
  induction e generalizing d with
  | nil => intro b hl hp hh; simp [loop] at hh; subst hh; simpa [hl] using hp
  | cons a e ih =>
    intro b hl hp hh
    simp only [loop, Option.bind_eq_some_iff] at hh
    obtain ⟨b1, h1, h2⟩ := hh
    exact ih (d ++ [a]) b1 (by simp [hl]) (hf d a e b b1 hl hp h1) h2

/-- Progress rule for loops. -/
theorem loop_some {A B : Type} (P : B → Prop) (f : B → A → Option B) (l : List A) (b : B)
    (hf : ∀ a ∈ l, ∀ b, P b → ∃ b', f b a = some b' ∧ P b') (h0 : P b) : ∃ b', loop f l b = some b' ∧ P b' := by
  induction l generalizing b with
  | nil => exact ⟨b, rfl, h0⟩
  | cons a l ih =>
    obtain ⟨b1, h1, p1⟩ := hf a (List.mem_cons_self ..) b h0
    obtain ⟨b2, h2, p2⟩ := ih b1 (fun a ha => hf a (List.mem_cons_of_mem _ ha)) p1
    exact ⟨b2, by simp [loop, h1, h2], p2⟩

theorem loop_append {A B : Type} (f : B → A → Option B) (l1 l2 : List A) (b : B) :
    loop f (l1 ++ l2) b = (loop f l1 b).bind (loop f l2) := by
  induction l1 generalizing b with
  | nil => simp [loop]
  | cons a l ih =>
    simp only [List.cons_append, loop]
    cases f b a with
    | none => rfl
    | some b1 => simp [ih]

theorem mem_setIns (l : List Nat) (a x : Nat) : x ∈ setIns l a ↔ x ∈ l ∨ x = a := by
  unfold setIns; split
  · constructor
    · exact Or.inl
    · rintro (h | h)
      · exact h
      · subst h; assumption
  · simp

theorem nodup_setIns (l : List Nat) (a : Nat) (h : l.Nodup) : (setIns l a).Nodup := by
  unfold setIns; split
  · exact h
  · rw [List.nodup_append]; refine ⟨h, by simp, ?_⟩
    intro x hx y hy; simp at hy; subst hy; intro hh; subst hh; contradiction

theorem mem_foldl_setIns (l acc : List Nat) (x : Nat) : x ∈ l.foldl setIns acc ↔ x ∈ acc ∨ x ∈ l := by
  induction l generalizing acc with
  | nil => simp
  | cons a l ih =>
    simp only [List.foldl_cons, ih, mem_setIns, List.mem_cons]
    constructor
    · rintro ((h | h) | h)
      · exact .inl h
      · exact .inr (.inl h)
      · exact .inr (.inr h)
    · rintro (h | h | h)
      · exact .inl (.inl h)
      · exact .inl (.inr h)
      · exact .inr h

theorem nodup_foldl_setIns (l acc : List Nat) (h : acc.Nodup) : (l.foldl setIns acc).Nodup := by
  induction l generalizing acc with
  | nil => exact h
  | cons a l ih => exact ih _ (nodup_setIns _ _ h)

@[simp] theorem mem_perm (env : Env) (l : List Nat) (a : Nat) : a ∈ env.perm l ↔ a ∈ l := (env.isPerm l).mem_iff

@[simp] theorem perm_nil (env : Env) : env.perm [] = [] := List.Perm.eq_nil (env.isPerm [])

theorem nodup_perm (env : Env) (l : List Nat) : (env.perm l).Nodup ↔ l.Nodup := (env.isPerm l).nodup_iff

end Prims
end MVault.W
