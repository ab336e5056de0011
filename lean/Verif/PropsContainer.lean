import Verif.ContainerModel
/-! # Properties of the typed container (C10, C52) -/
namespace MVault.Cont
variable {K V Ty : Type} [DecidableEq K] [DecidableEq Ty]

/-- Specification: the abstract content of a container, a partial map from keys to values. -/
def specStep (m : K → Option V) : BoxOp K V → (K → Option V)
  | .add k v _ | .addSaver k v _ => fun x => if x = k then (match m k with | none => some v | some w => some w) else m x
  | .set k v _ | .setSaver k v _ => fun x => if x = k then some v else m x
  | .erase k => fun x => if x = k then none else m x
  | .clear => fun _ => none

/-- Representation invariant (helper): keys are distinct and every saver holds a value with matching type. -/
def Box.Good (τ : V → Ty) (b : Box K V Ty) : Prop :=
  (b.map Prod.fst).Nodup ∧ ∀ p ∈ b, ∃ v, p.2.ptr = some v ∧ p.2.dataType = some (τ v) ∧ p.2.funs = some (τ v)

theorem find_put (b : Box K V Ty) (k : K) (s : Saver V Ty) (x : K) :
    (b.put k s).find x = if x = k then (b.find k).map (fun _ => s) else b.find x := by
  induction b with
  | nil => simp [Box.find, Box.put]
  | cons p b ih =>
    simp only [Box.find, Box.put, List.map_cons, List.find?_cons] at ih ⊢
    by_cases h1 : p.1 = k
    · by_cases h2 : x = k
      · subst h2; simp [h1]
      · have h3 : ¬ k = x := fun h => h2 h.symm
        have h4 : ¬ p.1 = x := fun h => h2 (by rw [← h, h1])
        simp [h1, h2, h3] at ih ⊢
        exact ih
    · by_cases h2 : x = k
      · subst h2; simp [h1] at ih ⊢; exact ih
      · by_cases h3 : p.1 = x
        · simp [h1, h2, h3]
        · simp [h1, h2, h3] at ih ⊢
          exact ih

theorem find_erase (b : Box K V Ty) (k x : K) : (b.erase k).find x = if x = k then none else b.find x := by
  induction b with
  | nil => simp [Box.find, Box.erase]
  | cons p b ih =>
    simp only [Box.find, Box.erase, List.filter_cons] at ih ⊢
    by_cases h1 : p.1 = k
    · by_cases h2 : x = k
      · subst h2; simp [h1] at ih ⊢
      · have h3 : ¬ k = x := fun h => h2 h.symm
        simp [h1, h2, h3, List.find?_cons] at ih ⊢
        exact ih
    · by_cases h2 : x = k
      · subst h2; simp [h1, List.find?_cons] at ih ⊢
      · simp [h1, h2, List.find?_cons] at ih ⊢
        split
        · rfl
        · exact ih

theorem find_none (b : Box K V Ty) (k : K) : b.find k = none ↔ k ∉ b.map Prod.fst := by
  simp [Box.find]
  constructor
  · intro h x hx; exact h k x hx rfl
  · intro h a x hx e; subst e; exact h x hx

theorem find_mem {b : Box K V Ty} {k : K} {s : Saver V Ty} (h : b.find k = some s) : (k, s) ∈ b := by
  simp only [Box.find, Option.map_eq_some_iff] at h
  obtain ⟨p, hp, rfl⟩ := h
  have h1 := List.mem_of_find?_eq_some hp
  have h2 := List.find?_some hp
  simp at h2
  rw [← h2]; exact h1

/-- The abstract content of a container (what `GetData` of the right type would return). -/
def Box.content (b : Box K V Ty) (k : K) : Option V := (b.find k).bind Saver.ptr

theorem add_good (τ : V → Ty) (b : Box K V Ty) (hg : b.Good τ) (k : K) (v : V) (c : Option Nat) :
    (b.step τ (.add k v c)).Good τ ∧ (b.step τ (.add k v c)).content = specStep b.content (.add k v c) := by
  obtain ⟨hnd, hv⟩ := hg
  simp only [Box.step, Box.add]
  by_cases h : b.find k = none
  · rw [if_pos h]
    refine ⟨⟨?_, ?_⟩, ?_⟩
    · rw [List.map_cons, List.nodup_cons]; exact ⟨(find_none b k).1 h, hnd⟩
    · intro p hp
      rcases List.mem_cons.1 hp with rfl | hp
      · exact ⟨v, rfl, rfl, rfl⟩
      · exact hv p hp
    · funext x
      simp only [specStep, Box.content]
      by_cases hx : x = k
      · subst hx; rw [h]; simp [Box.find, Saver.setData]
      · have : ¬ k = x := fun e => hx e.symm
        simp [hx, Box.find, this]
  · rw [if_neg h]
    refine ⟨⟨hnd, hv⟩, ?_⟩
    funext x
    simp only [specStep, Box.content]
    by_cases hx : x = k
    · subst hx
      obtain ⟨s, hs⟩ := Option.ne_none_iff_exists'.1 h
      obtain ⟨w, hw, -⟩ := hv _ (find_mem hs)
      simp only at hw
      simp [hs, hw]
    · simp [hx]

theorem set_good (τ : V → Ty) (b : Box K V Ty) (hg : b.Good τ) (k : K) (v : V) (c : Option Nat) :
    (b.step τ (.set k v c)).Good τ ∧ (b.step τ (.set k v c)).content = specStep b.content (.set k v c) := by
  obtain ⟨hnd, hv⟩ := hg
  simp only [Box.step, Box.setData]
  cases h : b.find k with
  | none =>
    simp only [Box.add, h, if_true]
    refine ⟨⟨?_, ?_⟩, ?_⟩
    · rw [List.map_cons, List.nodup_cons]; exact ⟨(find_none b k).1 h, hnd⟩
    · intro p hp
      rcases List.mem_cons.1 hp with rfl | hp
      · exact ⟨v, rfl, rfl, rfl⟩
      · exact hv p hp
    · funext x
      simp only [specStep, Box.content]
      by_cases hx : x = k
      · subst hx; simp [Box.find, Saver.setData]
      · have : ¬ k = x := fun e => hx e.symm
        simp [hx, Box.find, this]
  | some s =>
    refine ⟨⟨?_, ?_⟩, ?_⟩
    · have : (Box.put b k (s.setData τ v c)).map Prod.fst = b.map Prod.fst := by
        simp only [Box.put, List.map_map]
        apply List.map_congr_left
        intro p _
        simp only [Function.comp]
        split <;> simp_all
      rw [this]; exact hnd
    · intro p hp
      simp only [Box.put, List.mem_map] at hp
      obtain ⟨q, hq, rfl⟩ := hp
      split
      · exact ⟨v, rfl, rfl, rfl⟩
      · exact hv q hq
    · funext x
      simp only [specStep, Box.content, find_put]
      by_cases hx : x = k
      · subst hx; simp [h, Saver.setData]
      · simp [hx]

theorem step_good (τ : V → Ty) (b : Box K V Ty) (hg : b.Good τ) (op : BoxOp K V) :
    (b.step τ op).Good τ ∧ (b.step τ op).content = specStep b.content op := by
  obtain ⟨hnd, hv⟩ := hg
  cases op with
  | add k v c => exact add_good τ b ⟨hnd, hv⟩ k v c
  | addSaver k v c => exact add_good τ b ⟨hnd, hv⟩ k v c
  | set k v c => exact set_good τ b ⟨hnd, hv⟩ k v c
  | setSaver k v c => exact set_good τ b ⟨hnd, hv⟩ k v c
  | erase k =>
    simp only [Box.step]
    refine ⟨⟨?_, ?_⟩, ?_⟩
    · exact List.Nodup.sublist (List.Sublist.map _ List.filter_sublist) hnd
    · intro p hp
      exact hv p (List.mem_filter.1 hp).1
    · funext x
      simp only [specStep, Box.content, find_erase]
      by_cases hx : x = k
      · simp [hx]
      · simp [hx]
  | clear =>
    simp only [Box.step, Box.clear]
    refine ⟨⟨by simp, by simp⟩, ?_⟩
    funext x
    simp [specStep, Box.content, Box.find]

theorem run_good (τ : V → Ty) (ops : List (BoxOp K V)) : ∀ (b : Box K V Ty), b.Good τ →
    (ops.foldl (Box.step τ) b).Good τ ∧ (ops.foldl (Box.step τ) b).content = ops.foldl specStep b.content := by
  induction ops with
  | nil => intro b h; exact ⟨h, rfl⟩
  | cons op ops ih =>
    intro b h
    obtain ⟨h1, h2⟩ := step_good τ b h op
    obtain ⟨h3, h4⟩ := ih _ h1
    exact ⟨h3, by rw [List.foldl_cons, h4, h2, List.foldl_cons]⟩

/-- **C10.** After any history of AddData, SetData, AddDataFromDataSaver, SetDataFromDataSaver (with savers that hold a value), EraseData and Clear starting from an empty container, with `m` the
map that history describes: `IsData`, `Size` and `GetData` with the right type answer according to `m`.
Partial: with a *wrong* type the code answers true instead of false (`C10_refuted_wrong_type`), although it does leave
the output untouched. -/
theorem C10_typed_container_partial (τ : V → Ty) (ops : List (BoxOp K V)) :
    let b : Box K V Ty := ops.foldl (Box.step τ) []
    let m : K → Option V := ops.foldl specStep (fun _ => none)
    (∀ k, b.isData k = (m k).isSome) ∧
    (∀ k v data, m k = some v → b.getData k (τ v) data = (true, v)) ∧
    (∀ k T data, m k = none → b.getData k T data = (false, data)) ∧
    (∀ k v T data, m k = some v → T ≠ τ v → (b.getData k T data).2 = data) ∧
    (∃ keys : List K, keys.Nodup ∧ (∀ k, k ∈ keys ↔ (m k).isSome) ∧ b.size = keys.length) := by
  intro b m
  have h0 : Box.Good τ ([] : Box K V Ty) := ⟨by simp, by simp⟩
  obtain ⟨⟨hnd, hv⟩, hc⟩ := run_good τ ops [] h0
  have hc' : b.content = m := by
    show (ops.foldl (Box.step τ) []).content = _
    rw [hc]; rfl
  have hfind : ∀ k, (b.find k = none ∧ m k = none) ∨ ∃ v c, b.find k = some ⟨some v, some (τ v), some (τ v), c⟩ ∧ m k = some v := by
    intro k
    cases h : b.find k with
    | none => left; exact ⟨rfl, by rw [← hc', Box.content, h]; rfl⟩
    | some s =>
      right
      obtain ⟨v, h1, h2, h3⟩ := hv _ (find_mem h)
      simp only at h1 h2 h3
      refine ⟨v, s.custom, ?_, by rw [← hc', Box.content, h]; exact h1⟩
      cases s
      simp only at h1 h2 h3
      simp [h1, h2, h3]
  refine ⟨?_, ?_, ?_, ?_, ?_⟩
  · intro k
    rcases hfind k with ⟨h1, h2⟩ | ⟨v, c, h1, h2⟩ <;> simp [Box.isData, h1, h2]
  · intro k v data hk
    rcases hfind k with ⟨h1, h2⟩ | ⟨w, c, h1, h2⟩
    · rw [hk] at h2; simp at h2
    · rw [hk] at h2; injection h2 with h2; subst h2
      simp [Box.getData, h1, Saver.getData]
  · intro k T data hk
    rcases hfind k with ⟨h1, h2⟩ | ⟨w, c, h1, h2⟩
    · simp [Box.getData, h1]
    · rw [hk] at h2; simp at h2
  · intro k v T data hk hT
    rcases hfind k with ⟨h1, h2⟩ | ⟨w, c, h1, h2⟩
    · rw [hk] at h2; simp at h2
    · rw [hk] at h2; injection h2 with h2; subst h2
      have : ¬ τ v = T := fun e => hT e.symm
      simp [Box.getData, h1, Saver.getData, this]
  · refine ⟨b.map Prod.fst, hnd, ?_, by simp [Box.size]⟩
    intro k
    rcases hfind k with ⟨h1, h2⟩ | ⟨v, c, h1, h2⟩
    · rw [h2]; simp only [Option.isSome_none, Bool.false_eq_true, iff_false]; exact (find_none b k).1 h1
    · rw [h2]; simp only [Option.isSome_some, iff_true]
      exact List.mem_map.2 ⟨_, find_mem h1, rfl⟩

/-- A history that reaches interesting states: overwrite, ignored add, erase. -/
example : ([BoxOp.set 1 10 none, .add 1 20 none, .set 2 30 (some 0), .setSaver 1 40 none, .addSaver 1 50 none, .erase 2] : List (BoxOp Nat Nat)).foldl specStep (fun _ => none) 1
    = some 40 := by decide

/-! ### Histories with SetDataFromString -/

/-- A call of a container: one of `BoxOp`, or `SetDataFromString`. -/
inductive BoxCall (K V : Type)
  | op (o : BoxOp K V)
  | text (k : K) (str : List Char)

/-- What a call does to the container; `none` = undefined behaviour. -/
def callStep (τ : V → Ty) (fromStr : Ty → List Char → Option V) (b : Box K V Ty) : BoxCall K V → Option (Box K V Ty)
  | .op o => some (b.step τ o)
  | .text k str => (b.setFromString fromStr k str).map Prod.snd

/-- Specification: `SetDataFromString` replaces the value of an existing key by the value its text means in the type of the value, or does nothing. -/
def specCall (τ : V → Ty) (fromStr : Ty → List Char → Option V) (m : K → Option V) : BoxCall K V → (K → Option V)
  | .op o => specStep m o
  | .text k str => fun x => if x = k then (m k).map (fun v => (fromStr (τ v) str).getD v) else m x

theorem text_good (τ : V → Ty) (fromStr : Ty → List Char → Option V) (hf : ∀ T s u, fromStr T s = some u → τ u = T) (b : Box K V Ty) (hg : b.Good τ) (k : K)
    (str : List Char) : ∃ ans b', b.setFromString fromStr k str = some (ans, b') ∧ b'.Good τ ∧
      b'.content = specCall τ fromStr b.content (.text k str) ∧ (ans = true ↔ ∃ v u, b.content k = some v ∧ fromStr (τ v) str = some u) ∧
      b'.map Prod.fst = b.map Prod.fst := by
  obtain ⟨hnd, hv⟩ := hg
  cases h : b.find k with
  | none =>
    refine ⟨false, b, by simp [Box.setFromString, h], ⟨hnd, hv⟩, ?_, ?_, rfl⟩
    · funext x
      simp only [specCall, Box.content]
      by_cases hx : x = k
      · subst hx; simp [h]
      · simp [hx]
    · simp [Box.content, h]
  | some s =>
    obtain ⟨v, h1, h2, h3⟩ := hv _ (find_mem h)
    simp only at h1 h2 h3
    have hkeys : ∀ s', (Box.put b k s').map Prod.fst = b.map Prod.fst := by
      intro s'
      simp only [Box.put, List.map_map]
      apply List.map_congr_left
      intro p _
      simp only [Function.comp]
      split <;> simp_all
    cases hfs : fromStr (τ v) str with
    | none =>
      refine ⟨false, b.put k s, by simp [Box.setFromString, h, Saver.setDataFromString, h1, h3, hfs], ⟨by rw [hkeys]; exact hnd, ?_⟩, ?_, ?_, hkeys s⟩
      · intro p hp
        simp only [Box.put, List.mem_map] at hp
        obtain ⟨q, hq, rfl⟩ := hp
        split
        · exact ⟨v, h1, h2, h3⟩
        · exact hv q hq
      · funext x
        simp only [specCall, Box.content, find_put]
        by_cases hx : x = k
        · subst hx; simp [h, h1, hfs]
        · simp [hx]
      · simp [Box.content, h, h1, hfs]
    | some u =>
      refine ⟨true, b.put k { s with ptr := some u }, by simp [Box.setFromString, h, Saver.setDataFromString, h1, h3, hfs], ⟨by rw [hkeys]; exact hnd, ?_⟩, ?_, ?_, hkeys _⟩
      · intro p hp
        simp only [Box.put, List.mem_map] at hp
        obtain ⟨q, hq, rfl⟩ := hp
        split
        · exact ⟨u, rfl, by simp only [h2, hf _ _ _ hfs], by simp only [h3, hf _ _ _ hfs]⟩
        · exact hv q hq
      · funext x
        simp only [specCall, Box.content, find_put]
        by_cases hx : x = k
        · subst hx; simp [h, h1, hfs]
        · simp [hx]
      · simp [Box.content, h, h1, hfs]

theorem calls_good (τ : V → Ty) (fromStr : Ty → List Char → Option V) (hf : ∀ T s u, fromStr T s = some u → τ u = T) (calls : List (BoxCall K V)) :
    ∀ (b : Box K V Ty), b.Good τ → ∃ b', calls.foldlM (callStep τ fromStr) b = some b' ∧ b'.Good τ ∧ b'.content = calls.foldl (specCall τ fromStr) b.content := by
  induction calls with
  | nil => intro b h; exact ⟨b, rfl, h, rfl⟩
  | cons c calls ih =>
    intro b h
    obtain ⟨b1, e1, g1, c1⟩ : ∃ b1, callStep τ fromStr b c = some b1 ∧ b1.Good τ ∧ b1.content = specCall τ fromStr b.content c := by
      cases c with
      | op o => exact ⟨_, rfl, (step_good τ b h o).1, (step_good τ b h o).2⟩
      | text k str =>
        obtain ⟨ans, b', e, g, c', _, _⟩ := text_good τ fromStr hf b h k str
        exact ⟨b', by simp [callStep, e], g, c'⟩
    obtain ⟨b', e2, g2, c2⟩ := ih b1 g1
    exact ⟨b', by simp [List.foldlM_cons, e1, e2], g2, by rw [c2, c1, List.foldl_cons]⟩

/-- **C10 with SetDataFromString.** After any history of all mutating calls, none of which is undefined, the container holds the map `m` the history describes;
`SetDataFromString` answers true exactly for a key of `m` and a text that its type reads. Partial: see `C10_typed_container_partial`. -/
theorem C10_from_string_partial (τ : V → Ty) (fromStr : Ty → List Char → Option V) (hf : ∀ T s u, fromStr T s = some u → τ u = T) (calls : List (BoxCall K V)) :
    let m : K → Option V := calls.foldl (specCall τ fromStr) (fun _ => none)
    ∃ b : Box K V Ty, calls.foldlM (callStep τ fromStr) [] = some b ∧
      (∀ k, b.isData k = (m k).isSome) ∧ (∀ k v data, m k = some v → b.getData k (τ v) data = (true, v)) ∧
      (∀ k T data, m k = none → b.getData k T data = (false, data)) ∧
      ∀ k str, ∃ ans b', b.setFromString fromStr k str = some (ans, b') ∧ b'.size = b.size ∧
        (ans = true ↔ ∃ v u, m k = some v ∧ fromStr (τ v) str = some u) := by
  intro m
  obtain ⟨b, e, ⟨hnd, hv⟩, hc⟩ := calls_good τ fromStr hf calls [] ⟨by simp, by simp⟩
  have hc' : b.content = m := by rw [hc]; rfl
  have hfind : ∀ k, (b.find k = none ∧ m k = none) ∨ ∃ v c, b.find k = some ⟨some v, some (τ v), some (τ v), c⟩ ∧ m k = some v := by
    intro k
    cases h : b.find k with
    | none => left; exact ⟨rfl, by rw [← hc', Box.content, h]; rfl⟩
    | some s =>
      right
      obtain ⟨v, h1, h2, h3⟩ := hv _ (find_mem h)
      simp only at h1 h2 h3
      refine ⟨v, s.custom, ?_, by rw [← hc', Box.content, h]; exact h1⟩
      cases s
      simp only at h1 h2 h3
      simp [h1, h2, h3]
  refine ⟨b, e, fun k => ?_, fun k v data hk => ?_, fun k T data hk => ?_, fun k str => ?_⟩
  · rcases hfind k with ⟨h1, h2⟩ | ⟨v, c, h1, h2⟩ <;> simp [Box.isData, h1, h2]
  · rcases hfind k with ⟨h1, h2⟩ | ⟨w, c, h1, h2⟩
    · rw [hk] at h2; simp at h2
    · rw [hk] at h2; injection h2 with h2; subst h2
      simp [Box.getData, h1, Saver.getData]
  · rcases hfind k with ⟨h1, h2⟩ | ⟨w, c, h1, h2⟩
    · simp [Box.getData, h1]
    · rw [hk] at h2; simp at h2
  · obtain ⟨ans, b', e1, _, _, h3, h4⟩ := text_good τ fromStr hf b ⟨hnd, hv⟩ k str
    refine ⟨ans, b', e1, ?_, by rw [← hc']; exact h3⟩
    have := congrArg List.length h4
    simpa [Box.size] using this

/-- A history with an overwritten, a refused and an unknown text. -/
example : let fromStr : Unit → List Char → Option Nat := fun _ s => if s = ['7'] then some 7 else none
    let calls : List (BoxCall Nat Nat) := [.op (.set 1 10 none), .op (.set 2 20 none), .text 1 ['7'], .text 2 ['x'], .text 3 ['7']]
    (calls.foldlM (callStep (fun _ => ()) fromStr) []).map (fun b => (b.getData 1 () 0, b.getData 2 () 0, b.getData 3 () 0)) = some ((true, 7), (true, 20), (false, 0)) := by decide

/-- Refutation of the unrestricted C10: `GetData` with a wrong type answers true. -/
theorem C10_refuted_wrong_type :
    let τ : Nat → Bool := fun n => n < 10
    ((Box.setData τ ([] : Box Nat Nat Bool) 1 3 none).getData 1 false 99) = (true, 99) := by decide

/-- **C52.** Copies of a `DataSaver` hold the same value with the same type, and `Swap` of two non-empty savers
exchanges their values, types and delete functions. -/
theorem C52_saver_copy_and_swap (τ : V → Ty) (v w : V) (c d : Option Nat) :
    let a : Saver V Ty := Saver.setData τ Saver.empty v c
    let b : Saver V Ty := Saver.setData τ Saver.empty w d
    Saver.copy a = a ∧ Saver.assign b a = a ∧ Saver.swap a b = (b, a) ∧
    (∀ T data, a.getData T data = if T = τ v then (true, v) else (false, data)) ∧
    (a.resetData.2 = c ∧ ∀ T data, a.resetData.1.getData T data = (false, data)) := by
  refine ⟨rfl, rfl, rfl, ?_, rfl, ?_⟩
  · intro T data
    by_cases h : T = τ v
    · subst h; simp [Saver.getData, Saver.setData]
    · have : ¬ τ v = T := fun e => h e.symm
      simp [Saver.getData, Saver.setData, h, this]
  · intro T data; simp [Saver.getData, Saver.resetData]

omit [DecidableEq Ty] in
/-- Finding recorded with C52: swapping with an empty saver loses the type bookkeeping: the emptied object still reports
the old type, and rendering it as a string is undefined behaviour. -/
theorem C52_swap_with_empty_keeps_stale_type (τ : V → Ty) (v : V) (toStr : V → List Char) :
    let a : Saver V Ty := Saver.setData τ Saver.empty v none
    let r := Saver.swap a (Saver.empty : Saver V Ty)
    r.2 = a ∧ r.1.ptr = none ∧ r.1.dataType = some (τ v) ∧ r.1.str toStr = none := by
  refine ⟨rfl, rfl, rfl, rfl⟩

end MVault.Cont
