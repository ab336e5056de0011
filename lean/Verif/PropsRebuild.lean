import Verif.PropsRestore
import Verif.PropsWindow
import Verif.TableBuild
/-
C116: whatever its history, a vault is like one that was made fresh. With C114: the history leaves no trace besides the contents.
-/
set_option linter.unusedSectionVars false
set_option linter.unusedSimpArgs false
set_option linter.unusedVariables false
namespace MVault.W
open MVault.Spec (Table Db Event Cmd)
variable {K V Ty : Type} [LinearOrder K] [LinearOrder V] [Typed V Ty] [DecidableEq Ty]

/-- Specification, models no code: calls that only fill vault 0: a new key, a new unique key without a function, a new record. -/
inductive Fills : Op K V Ty → Prop
  | addKey (k d) : Fills (.addKey 0 k d)
  | addUniqueKey (k t f) : Fills (.addUniqueKey 0 k t true f)
  | createRow (ps) : Fills (.createRow 0 ps)

/-- Specification, models no code: a program that makes a vault and fills it. -/
def FreshRun (home : Nat → Nat) (env : Env) (ops : List (Op K V Ty)) (w : World K V Ty) : Prop :=
  run World.empty ((Op.newVault :: ops).map (env, ·)) = some w ∧ HReach Careful home w ∧ isVault w 0 = true

theorem filled_start (home : Nat → Nat) (env : Env) : ∃ w : World K V Ty, FreshRun home env [] w ∧ asTable w 0 = Table.empty := by
  have h : outcome env (World.empty : World K V Ty) .newVault = some (newVault World.empty, .unit) := rfl
  have hr : HReach Ordinary home (World.empty : World K V Ty) := .init
  have hs := C79_refines hr (show Ordinary home World.empty .newVault from trivial) h
  have hd : dbOf (newVault (World.empty : World K V Ty)) 0 = some Table.empty := by
    rw [hs.2]; exact Db.put_same ..
  obtain ⟨h1, h2⟩ := db_vault hd
  exact ⟨newVault World.empty, ⟨rfl, .step _ _ env .newVault .init ⟨trivial, trivial⟩ rfl, h1⟩, h2⟩

theorem run_join (l1 l2 : List (Env × Op K V Ty)) : ∀ w : World K V Ty, run w (l1 ++ l2) = (run w l1).bind fun w' => run w' l2 := by
  induction l1 with
  | nil => intro w; rfl
  | cons a l ih =>
    intro w
    obtain ⟨env, op⟩ := a
    simp only [List.cons_append, run, Option.bind_assoc]
    congr 1
    funext w'
    exact ih w'

theorem filled_next {home : Nat → Nat} {env : Env} {ops : List (Op K V Ty)} {w : World K V Ty} (h : FreshRun home env ops w) {op : Op K V Ty} (hop : Fills op) {c : Cmd K V Ty}
    (hc : eventOf w op = .on 0 c) : ∃ w' a, FreshRun home env (ops ++ [op]) w' ∧ (asTable w 0).Step (dbOf w).fresh c a (asTable w' 0) := by
  obtain ⟨h1, h2, h3⟩ := h
  have hcare : Careful home w op := by
    cases hop with
    | addKey k d => exact ⟨trivial, h3⟩
    | addUniqueKey k t f => exact ⟨trivial, h3, .inr (.inl rfl)⟩
    | createRow ps => exact ⟨trivial, h3⟩
  obtain ⟨w', a, ho, hr⟩ := C83_defined (env := env) h2 hcare
  obtain ⟨_, k2, k3, _⟩ := on_step (Careful.ordinary h2) ho hcare.1 hc
  refine ⟨w', a, ⟨?_, hr, k2⟩, k3⟩
  have hstep : step env w op = some w' := by rw [← outcome_step, ho]; rfl
  rw [← List.cons_append, List.map_append, run_join, h1]
  show run w [(env, op)] = some w'
  simp only [run, hstep, Option.bind_some]

theorem members_distinct {home : Nat → Nat} {w : World K V Ty} (hw : HReach Ordinary home w) {o : Nat} (ho : isVault w o = true) : (members w o).Nodup := by
  obtain ⟨own, hi⟩ := reach_inv hw
  obtain ⟨vo, hvo, hs⟩ := isVault_iff.mp ho
  rw [members_eq hvo]; exact (hi.v.vok o vo hvo hs).recsN

/-- The keys. -/
theorem build_keys {t : Table K V Ty} (ht : t.Sane) (hz : t.UniqZero) : ∀ post pre : List K, (pre ++ post).Nodup → (∀ k ∈ pre ++ post, k ∈ t.keys) →
    (∃ ops : List (Op K V Ty), (∀ op ∈ ops, Fills op) ∧ ops.length = pre.length ∧ ∀ home env, ∃ w', FreshRun home env ops w' ∧ t.Head (asTable w' 0) pre) →
    ∃ ops : List (Op K V Ty), (∀ op ∈ ops, Fills op) ∧ ops.length = (pre ++ post).length ∧ ∀ home env, ∃ w', FreshRun home env ops w' ∧ t.Head (asTable w' 0) (pre ++ post)
  | [], pre, _, _, h => by rw [List.append_nil]; exact h
  | k :: post, pre, hn, hk, ⟨ops, h1, h2, h3⟩ => by
    have e : pre ++ k :: post = (pre ++ [k]) ++ post := by simp
    rw [e] at hn hk ⊢
    refine build_keys ht hz post (pre ++ [k]) hn hk ?_
    have hkt : k ∈ t.keys := hk k (by simp)
    have hkp : k ∉ pre := fun hh => by
      have := (List.nodup_append.mp (List.nodup_append.mp hn).1).2.2
      exact this k hh k (by simp) rfl
    obtain ⟨ty, hty⟩ := (ht.typed k).mp hkt
    obtain ⟨d, hd, hdt⟩ := ht.dflt k ty hty
    obtain ⟨op, hop, hc⟩ : ∃ op : Op K V Ty, Fills op ∧ ∀ w, eventOf w op = .on 0 (t.keyCmd k d) := by
      unfold Table.keyCmd
      by_cases hu : t.uniq k
      · rw [if_pos hu]; exact ⟨.addUniqueKey 0 k (typeOf d) true (fun _ _ _ => d), .addUniqueKey _ _ _, fun _ => rfl⟩
      · rw [if_neg hu]; exact ⟨.addKey 0 k d, .addKey _ _, fun _ => rfl⟩
    refine ⟨ops ++ [op], ?_, by simp [h2], fun home env => ?_⟩
    · intro x hx
      rcases List.mem_append.mp hx with hx | hx
      · exact h1 x hx
      · rw [List.mem_singleton.mp hx]; exact hop
    · obtain ⟨w, f, hh⟩ := h3 home env
      obtain ⟨w', a, f', s⟩ := filled_next f hop (hc w)
      exact ⟨w', f', (hh.next hkp hkt ht (C80_wellformed (Careful.ordinary f.2.1) f.2.2) hz hd s).1⟩

/-- The records. -/
theorem build_rows {t : Table K V Ty} (ht : t.Sane) (n : Nat) : ∀ post pre : List Nat, (pre ++ post).Nodup → (∀ r ∈ pre ++ post, t.row r) →
    (∃ ops : List (Op K V Ty), (∀ op ∈ ops, Fills op) ∧ ops.length = n + pre.length ∧ ∀ home env, ∃ w', FreshRun home env ops w' ∧ ∃ m, t.Part (asTable w' 0) m pre) →
    ∃ ops : List (Op K V Ty), (∀ op ∈ ops, Fills op) ∧ ops.length = n + (pre ++ post).length ∧ ∀ home env, ∃ w', FreshRun home env ops w' ∧ ∃ m, t.Part (asTable w' 0) m (pre ++ post)
  | [], pre, _, _, h => by rw [List.append_nil]; exact h
  | r :: post, pre, hn, hk, ⟨ops, h1, h2, h3⟩ => by
    have e : pre ++ r :: post = (pre ++ [r]) ++ post := by simp
    rw [e] at hn hk ⊢
    refine build_rows ht n post (pre ++ [r]) hn hk ?_
    have hrt : t.row r := hk r (by simp)
    have hrp : r ∉ pre := fun hh => by
      have := (List.nodup_append.mp (List.nodup_append.mp hn).1).2.2
      exact this r hh r (by simp) rfl
    refine ⟨ops ++ [.createRow 0 (t.params r)], ?_, by simp [h2]; omega, fun home env => ?_⟩
    · intro x hx
      rcases List.mem_append.mp hx with hx | hx
      · exact h1 x hx
      · rw [List.mem_singleton.mp hx]; exact .createRow _
    · obtain ⟨w, f, m, hh⟩ := h3 home env
      obtain ⟨w', a, f', s⟩ := filled_next f (.createRow (t.params r)) rfl
      obtain ⟨m', h, _⟩ := hh.next ht (C80_wellformed (Careful.ordinary f.2.1) f.2.2) (fresh_row f.2.2) hrt (fun q hq => hk q (by simp [hq])) hrp s
      exact ⟨w', f', m', h⟩

/-- Whatever its history, a vault in which searches find every record has the contents of one that a short program makes: a new vault, one call for each key, one for
each record. -/
theorem C116_fresh {home : Nat → Nat} {w : World K V Ty} (hw : HReach Ordinary home w) {o : Nat} (ho : isVault w o = true) (hf : FindsAll w o) :
    ∃ ops : List (Op K V Ty), (∀ op ∈ ops, Fills op) ∧ ops.length = (getKeys w o).length + (members w o).length ∧
      ∀ home' env, ∃ w', FreshRun home' env ops w' ∧ ∃ m, Twins m w o w' 0 := by
  have ht := C80_wellformed hw ho
  have hz : (asTable w o).UniqZero := by
    obtain ⟨l, _, hr⟩ := C79_history_exists hw
    exact hr.uniqZero o _ (dbOf_vault ho)
  obtain ⟨ops, h1, h2, h3⟩ := build_keys ht hz (asTable w o).keys [] ht.nodup (fun _ h => h) ⟨[], fun _ h => (by cases h), rfl, fun home env => by
    obtain ⟨w', f, e⟩ := filled_start (K := K) (V := V) (Ty := Ty) home env
    refine ⟨w', f, ?_⟩
    rw [e]
    exact ⟨rfl, fun _ h => (by cases h), fun _ h => (by cases h), fun _ h => (by cases h), fun _ h => h⟩⟩
  obtain ⟨ops', g1, g2, g3⟩ := build_rows ht (asTable w o).keys.length (members w o) [] (members_distinct hw ho) (fun _ h => h) ⟨ops, h1, h2, fun home env => by
    obtain ⟨w', f, e⟩ := h3 home env
    exact ⟨w', f, id, e.part ht (C80_wellformed (Careful.ordinary f.2.1) f.2.2) id⟩⟩
  refine ⟨ops', g1, g2, fun home' env => ?_⟩
  obtain ⟨w', f, m, h⟩ := g3 home' env
  exact ⟨w', f, m, twins_iff.mpr (h.like ht (C80_wellformed (Careful.ordinary f.2.1) f.2.2) (fun _ => .rfl) hf)⟩

/-- So the history of a vault leaves no trace but its contents: any run of calls on it could have been made on the vault of the short program, with the same answers. -/
theorem C116_no_trace {home : Nat → Nat} {w : World K V Ty} (hw : HReach Ordinary home w) {o : Nat} (ho : isVault w o = true) (hf : FindsAll w o) :
    ∃ ops : List (Op K V Ty), (∀ op ∈ ops, Fills op) ∧ ∀ home' env, ∃ w' m, FreshRun home' env ops w' ∧
      ∀ v v' m' l, SideBySide home home' o 0 w w' m v v' m' l → (∀ x ∈ l, x.2 = x.1) ∧ Twins m' v o v' 0 := by
  obtain ⟨ops, h1, _, h2⟩ := C116_fresh hw ho hf
  refine ⟨ops, h1, fun home' env => ?_⟩
  obtain ⟨w', f, m, h⟩ := h2 home' env
  exact ⟨w', m, f, fun v v' m' l hr => C114_runs hw (Careful.ordinary f.2.1) ho f.2.2 h hr⟩

/-! ### A concrete case -/

/-- A vault with a unique key, a record that was erased, one that was written and one with the default; and the short program for it. -/
example : HReach Ordinary (fun _ => 0) twinW ∧ isVault twinW 2 = true ∧ FindsAll twinW 2 ∧ members twinW 2 = [1, 2] :=
  ⟨twinW_reach, by decide, by unfold FindsAll; decide, by decide⟩
example : ∃ ops : List (Op Nat Nat Bool), (∀ op ∈ ops, Fills op) ∧ ops.length = 4 ∧ ∀ env, ∃ w', FreshRun (fun _ => 0) env ops w' ∧ ∃ m, Twins m twinW 2 w' 0 := by
  obtain ⟨ops, h1, h2, h3⟩ := C116_fresh twinW_reach (o := 2) (by decide) (by unfold FindsAll; decide)
  exact ⟨ops, h1, h2.trans (by decide), h3 _⟩

/-- The condition on searches cannot be dropped: in `seenW` two of three records are not found under key 1, in every vault made by a short program all are. -/
theorem filled_finds {home : Nat → Nat} {env : Env} : ∀ (ops : List (Op K V Ty)) {w w' : World K V Ty}, HReach Ordinary home w → isVault w 0 = true → FindsAll w 0 →
    (∀ op ∈ ops, Fills op) → run w (ops.map (env, ·)) = some w' → FindsAll w' 0
  | [], w, w', hw, h0, hf, _, h => by
    simp only [List.map_nil, run, Option.some.injEq] at h
    exact h ▸ hf
  | op :: ops, w, w', hw, h0, hf, hop, h => by
    simp only [List.map_cons, run, Option.bind_eq_some_iff] at h
    obtain ⟨w1, h1, h2⟩ := h
    have hop1 := hop op (by simp)
    have hg : Ordinary home w op := by cases hop1 <;> trivial
    have hc : ∃ c, eventOf w op = .on 0 c ∧ ((∃ k d, c = .addKey k d) ∨ (∃ k t f, c = .addUniqueKey k t true f) ∨ ∃ ps, c = .create ps) := by
      cases hop1 with
      | addKey k d => exact ⟨_, rfl, .inl ⟨_, _, rfl⟩⟩
      | addUniqueKey k t f => exact ⟨_, rfl, .inr (.inl ⟨_, _, _, rfl⟩)⟩
      | createRow ps => exact ⟨_, rfl, .inr (.inr ⟨_, rfl⟩)⟩
    obtain ⟨c, hc, hcc⟩ := hc
    rw [← outcome_step] at h1
    obtain ⟨⟨w2, a⟩, h3, h4⟩ := Option.map_eq_some_iff.mp h1
    cases h4
    obtain ⟨_, k2, s, _⟩ := on_step hw h3 hg hc
    refine filled_finds ops (reach_outcome hw h3 hg) k2 ?_ (fun x hx => hop x (by simp [hx])) h2
    have add : ∀ {k b ty d val}, ∀ r, ((asTable w 0).addKey k b ty d val).row r → ∀ k' ∈ ((asTable w 0).addKey k b ty d val).keys, ∀ bb,
        ((asTable w 0).addKey k b ty d val).seen bb k' r := by
      intro k b ty d val r hr k' hk' bb
      simp only [Table.addKey] at hr hk' ⊢
      by_cases e : k' = k
      · rw [if_pos e]; exact hr
      · rw [if_neg e]; exact hf r hr k' (show k' ∈ (asTable w 0).keys by simpa [e] using hk') bb
    have fin : ∀ u : Table K V Ty, asTable w2 0 = u → (∀ r, u.row r → ∀ k ∈ u.keys, ∀ b, u.seen b k r) → FindsAll w2 0 := by
      rintro u rfl hu; exact hu
    refine fin _ rfl ?_
    rcases hcc with ⟨k, d, rfl⟩ | ⟨k, t, f, rfl⟩ | ⟨ps, rfl⟩
    · rcases s with ⟨_, _, e⟩ | ⟨_, _, e⟩
      · rw [e]; exact hf
      · rw [e]; exact add
    · rcases s with ⟨_, _, e⟩ | ⟨_, _, _, _, e⟩ | ⟨_, _, _, _, _, ⟨_, _, _, _, _, _, _, e⟩ | ⟨_, _, e⟩⟩
      · rw [e]; exact hf
      · rw [e]; exact hf
      · rw [e]; exact hf
      · rw [e]; exact add
    · simp only [Table.Step] at s
      split at s
      · rw [s.2]; exact hf
      · rcases s with ⟨_, _, _, _, _, e⟩ | ⟨_, x, _, _, e⟩
        · rw [e]; exact hf
        · rw [e]
          intro r hr k hk b
          rcases hr with hr | hr
          · exact .inl (hf r hr k hk b)
          · exact .inr ⟨hr, hk⟩

/-- So without the condition the claim fails: a vault some of whose records are not found is like no freshly made one. -/
theorem C116_unfound {home home' : Nat → Nat} {env : Env} {w w' : World K V Ty} {o : Nat} {ops : List (Op K V Ty)} {m : Nat → Nat} (hw : HReach Ordinary home w)
    (ho : isVault w o = true) (hop : ∀ op ∈ ops, Fills op) (h : FreshRun home' env ops w') (ht : Twins m w o w' 0) : FindsAll w o := by
  obtain ⟨h1, _, _⟩ := h
  have hr : HReach Ordinary home' (newVault (World.empty : World K V Ty)) := .step _ _ env .newVault .init trivial rfl
  have hrun : run (newVault World.empty) (ops.map (env, ·)) = some w' := h1
  obtain ⟨w0, f0, e0⟩ := filled_start (K := K) (V := V) (Ty := Ty) home' env
  have e1 : w0 = newVault World.empty := (Option.some.inj f0.1).symm
  have hfa := filled_finds ops hr (e1 ▸ f0.2.2) (fun r hr => by
    have : (asTable w0 0).row r := by rw [e1]; exact hr
    rw [e0] at this; exact this.elim) hop hrun
  intro r hr k hk b
  exact (ht.listed r hr b k).mp (hfa _ ((ht.records _).mpr ⟨r, hr, rfl⟩) k (ht.keys ▸ hk) b)

example : ¬ FindsAll seenW 0 := fun h => absurd (h 1 (by decide) 1 (by decide) true) (by decide)

end MVault.W
