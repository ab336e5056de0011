import Verif.KeyFnModel
import Verif.WorldObs
import Mathlib.Data.List.Perm.Subperm
/-
C101: `AddUniqueKey(key, function)` with a function that changes the vault.
-/
set_option linter.unusedVariables false
set_option linter.unusedSimpArgs false
namespace MVault.Kf
variable {V : Type}

/-! ### Helpers -/

theorem next_split : ∀ {l : List Nat} {r : Nat} {n : Option Nat}, next l r = some n → ∃ p q, l = p ++ r :: q ∧ r ∉ p ∧ n = q.head?
  | [], r, n, h => by simp [next] at h
  | a :: l, r, n, h => by
    unfold next at h
    split at h
    · rename_i e; subst e; exact ⟨[], l, rfl, by simp, by simpa using h.symm⟩
    · rename_i e
      obtain ⟨p, q, rfl, hp, hn⟩ := next_split h
      exact ⟨a :: p, q, rfl, by simp [hp, Ne.symm e], hn⟩

theorem next_of_mem : ∀ {l : List Nat} {r : Nat}, r ∈ l → ∃ n, next l r = some n
  | a :: l, r, h => by
    unfold next
    by_cases e : a = r
    · simp [e]
    · simp only [e, if_false]
      exact next_of_mem (by simpa [Ne.symm e] using h)

theorem next_eq {p q : List Nat} {r : Nat} (h : (p ++ r :: q).Nodup) : next (p ++ r :: q) r = some q.head? := by
  induction p with
  | nil => simp [next]
  | cons a p ih =>
    have hne : a ≠ r := by
      intro e; subst e; simp at h
    simp only [List.cons_append, next, hne, if_false]
    exact ih (by simpa using (List.nodup_cons.1 h).2)

/-- The bookkeeping of the first loop, whatever the function does: hash map, vector and counter follow the calls. -/
theorem made {Can : Nat → Nat → List Nat → List Nat → Prop} {recs0 recs : List Nat} {calls : List (Nat × V)} {m : Made V} {n : Option Nat} (h : Asks Can recs0 calls m recs n) :
    m.hash = calls.map (fun c => (c.2, c.1)) ∧ m.cached = calls.map Prod.snd ∧ m.counter = calls.length ∧ (calls.map Prod.snd).Nodup := by
  induction h with
  | start => simp
  | turn calls m recs r v recs' n h hc hv hn ih =>
    obtain ⟨h1, h2, h3, h4⟩ := ih
    refine ⟨by simp [h1], by simp [h2], by simp [h3], ?_⟩
    rw [h1] at hv
    have : v ∉ calls.map Prod.snd := by simpa [List.map_map, Function.comp_def] using hv
    simp only [List.map_append, List.map_cons, List.map_nil]
    exact List.nodup_append.2 ⟨h4, by simp, by
      intro a ha b hb e
      simp only [List.mem_singleton] at hb
      subst hb; subst e; exact this ha⟩

theorem fill_zip : ∀ (c : List V) (i : Nat) (l : List Nat), i + l.length ≤ c.length → fill c i l = some (l.zip (c.drop i))
  | c, i, [], _ => by simp [fill]
  | c, i, r :: l, h => by
    simp only [List.length_cons] at h
    have hi : i < c.length := by omega
    simp only [fill, List.getElem?_eq_getElem hi, fill_zip c (i + 1) l (by omega)]
    rw [List.drop_eq_getElem_cons hi, List.zip_cons_cons]

theorem fill_none : ∀ (c : List V) (i : Nat) (l : List Nat), c.length < i + l.length → l ≠ [] → fill c i l = none
  | c, i, [], _, h => absurd rfl h
  | c, i, r :: l, h, _ => by
    simp only [List.length_cons] at h
    by_cases hi : i < c.length
    · have : l ≠ [] := by rintro rfl; simp at h; omega
      simp only [fill, fill_none c (i + 1) l (by omega) this]
      simp [List.getElem?_eq_getElem hi]
    · simp only [fill, List.getElem?_eq_none (by omega : c.length ≤ i)]

/-- The first loop under erasures: the records asked so far that are left, then the ones from the iterator on, make up the set. -/
theorem asks_erase {Can : Nat → Nat → List Nat → List Nat → Prop} (hE : ∀ i r x y, Can i r x y → Erases i r x y) {recs0 recs : List Nat} (h0 : recs0.Nodup)
    {calls : List (Nat × V)} {m : Made V} {n : Option Nat} (h : Asks Can recs0 calls m recs n) :
    ∃ p q, recs = p ++ q ∧ n = q.head? ∧ p.Sublist (calls.map Prod.fst) ∧ (calls.map Prod.fst ++ q).Sublist recs0 := by
  induction h with
  | start => exact ⟨[], recs0, by simp⟩
  | turn calls m recs r v recs' n h hc hv hn ih =>
    obtain ⟨p, q, rfl, hq, hp, hs⟩ := ih
    obtain ⟨q', rfl⟩ : ∃ q', q = r :: q' := by
      cases q with
      | nil => simp at hq
      | cons a q => simp at hq; exact ⟨q, by rw [hq]⟩
    obtain ⟨hsub, hr⟩ := hE _ _ _ _ hc
    obtain ⟨p2, q2, rfl, hp2, rfl⟩ := next_split hn
    have hnd : (calls.map Prod.fst ++ r :: q').Nodup := hs.nodup h0
    have hnd' : (p ++ r :: q').Nodup := ((hp.append_right _)).nodup hnd
    obtain ⟨s1, s2, e, hs1, hs2⟩ := List.sublist_append_iff.1 hsub
    -- the place of `r`
    have hrp : r ∉ p := by
      intro hh; exact (List.nodup_append.1 hnd').2.2 r hh r (by simp) rfl
    have hrs1 : r ∉ s1 := fun hh => hrp (hs1.subset hh)
    have hrs2 : r ∈ s2 := by
      have : r ∈ s1 ++ s2 := by rw [← e]; simp
      exact (List.mem_append.1 this).resolve_left hrs1
    obtain ⟨t, rfl⟩ : ∃ t, s2 = r :: t := by
      cases hs2 with
      | cons a h' => exact absurd (h'.subset hrs2) ((List.nodup_cons.1 (List.nodup_append.1 hnd').2.1).1)
      | cons_cons a h' => exact ⟨_, rfl⟩
    have ht : t.Sublist q' := by simpa using hs2
    have hsplit : p2 = s1 ∧ q2 = t := by
      have := (List.append_eq_append_iff.1 e)
      rcases this with ⟨a, e1, e2⟩ | ⟨a, e1, e2⟩
      · cases a with
        | nil => simp at e1 e2; exact ⟨e1.symm, e2⟩
        | cons b a =>
          simp at e2; subst e1
          exact absurd (by simp [e2.1]) hrs1
      · cases a with
        | nil => simp at e1 e2; exact ⟨e1, e2.symm⟩
        | cons b a =>
          simp at e2; subst e1
          exact absurd (by simp [e2.1]) hp2
    obtain ⟨rfl, rfl⟩ := hsplit
    refine ⟨p2 ++ [r], q2, by simp, rfl, ?_, ?_⟩
    · simpa using (hs1.trans hp).append_right [r]
    · refine List.Sublist.trans ?_ hs
      simpa using (ht.cons_cons r)

/-! ### The theorems -/

/-- **C101.** A function that only erases records (never the one it was called with) is called for different records, in the order of the set, each in the vault when the loop
began, with the numbers 0, 1, 2, …; and when the loop is over it has been called for every record that is left. -/
theorem C101_calls {Can : Nat → Nat → List Nat → List Nat → Prop} (hE : ∀ i r x y, Can i r x y → Erases i r x y) {recs0 recs : List Nat} (h0 : recs0.Nodup)
    {calls : List (Nat × V)} {m : Made V} {n : Option Nat} (h : Asks Can recs0 calls m recs n) :
    (calls.map Prod.fst).Sublist recs0 ∧ (calls.map Prod.fst).Nodup ∧ m.counter = calls.length ∧ (n = none → ∀ r ∈ recs, r ∈ calls.map Prod.fst) := by
  obtain ⟨p, q, rfl, rfl, hp, hs⟩ := asks_erase hE h0 h
  have hsub := (List.sublist_append_left (calls.map Prod.fst) q).trans hs
  refine ⟨hsub, hsub.nodup h0, (made h).2.2.1, ?_⟩
  intro hn r hr
  have : q = [] := by simpa using hn
  subst this
  exact hp.subset (by simpa using hr)

/-- **C101.** Such a loop can always go on: for every answer of the function the answer is refused, or the next turn comes. -/
theorem C101_defined {Can : Nat → Nat → List Nat → List Nat → Prop} (hE : ∀ i r x y, Can i r x y → Erases i r x y) {recs0 recs recs' : List Nat}
    {calls : List (Nat × V)} {m : Made V} {r : Nat} (h : Asks Can recs0 calls m recs (some r)) (hc : Can m.counter r recs recs') (v : V) :
    Refuses Can m recs r v recs' ∨ ∃ n m', Asks Can recs0 (calls ++ [(r, v)]) m' recs' n := by
  by_cases hv : v ∈ m.hash.map Prod.fst
  · exact .inl ⟨hc, hv⟩
  · obtain ⟨n, hn⟩ := next_of_mem (hE _ _ _ _ hc).2
    exact .inr ⟨n, _, .turn _ _ _ _ _ _ _ h hc hv hn⟩

/-- **C101.** The function is refused exactly when it gives an answer again. -/
theorem C101_refused {Can : Nat → Nat → List Nat → List Nat → Prop} {recs0 recs recs' : List Nat} {calls : List (Nat × V)} {m : Made V} {r : Nat}
    (h : Asks Can recs0 calls m recs (some r)) (hc : Can m.counter r recs recs') (v : V) : Refuses Can m recs r v recs' ↔ ∃ r', (r', v) ∈ calls := by
  have h1 := (made h).1
  unfold Refuses
  rw [h1]
  simp [hc]

/-- **C101.** If the function erases only records it was not called for before, then after a loop to the end the second loop is defined, and every record that is left — no
other — has the value that the function gave for it: in the record, in the ordered map and in the hash map. -/
theorem C101_spares {Can : Nat → Nat → List Nat → List Nat → Prop} (hE : ∀ i r x y, Can i r x y → Erases i r x y) {recs0 recs : List Nat} (h0 : recs0.Nodup)
    {calls : List (Nat × V)} {m : Made V} (h : Asks Can recs0 calls m recs none) (hk : ∀ c ∈ calls, c.1 ∈ recs) :
    fill m.cached 0 recs = some calls ∧ recs = calls.map Prod.fst ∧ (∀ r v, (r, v) ∈ calls ↔ (v, r) ∈ m.hash) ∧ (calls.map Prod.snd).Nodup := by
  obtain ⟨p, q, rfl, hq, hp, hs⟩ := asks_erase hE h0 h
  obtain ⟨h1, h2, h3, h4⟩ := made h
  have : q = [] := by simpa using hq.symm
  subst this
  have hnd : (calls.map Prod.fst).Nodup := ((List.sublist_append_left _ _).trans hs).nodup h0
  have hpe : p = calls.map Prod.fst := by
    refine hp.eq_of_length_le ?_
    refine (List.Nodup.subperm hnd ?_).length_le
    intro a ha
    obtain ⟨c, hc, rfl⟩ := List.mem_map.1 ha
    simpa using hk c hc
  refine ⟨?_, by simpa using hpe, ?_, h4⟩
  · rw [h2, List.append_nil, hpe, fill_zip _ _ _ (by simp)]
    simp [List.zip_map', List.map_id']
  · intro r v
    rw [h1]
    simp

/-- **C101.** With a function that changes nothing the loops are those of the model of the whole vault: the second loop writes `fnValues`. -/
theorem C101_plain {U Ty : Type} [W.Typed U Ty] [DecidableEq Ty] {recs0 recs : List Nat} (h0 : recs0.Nodup) {calls : List (Nat × U)} {m : Made U} (h : Asks Leaves recs0 calls m recs none)
    (t : Ty) (f : Nat → Nat → U) (hf : ∀ i (hi : i < calls.length), calls[i].2 = W.castTo t (f i calls[i].1)) :
    recs = recs0 ∧ fill m.cached 0 recs = some (W.fnValues t f 0 recs0) := by
  have key : ∀ {calls : List (Nat × U)} {m : Made U} {recs : List Nat} {n : Option Nat}, Asks Leaves recs0 calls m recs n → recs = recs0 := by
    intro calls m recs n h
    induction h with
    | start => rfl
    | turn calls m recs r v recs' n h hc hv hn ih => exact (show recs' = recs from hc).trans ih
  have hr := key h
  have hall : ∀ {calls : List (Nat × U)} {m : Made U} {recs : List Nat} {n : Option Nat}, Asks Leaves recs0 calls m recs n → ∃ q, recs = calls.map Prod.fst ++ q ∧ n = q.head? := by
    intro calls m recs n h
    induction h with
    | start => exact ⟨recs0, by simp⟩
    | turn calls m recs r v recs' n h hc hv hn ih =>
      obtain ⟨q, e, hq⟩ := ih
      obtain ⟨q', rfl⟩ : ∃ q', q = r :: q' := by
        cases q with
        | nil => simp at hq
        | cons a q => simp at hq; exact ⟨q, by rw [hq]⟩
      have e' : recs' = recs := hc
      have hnd : recs.Nodup := (key h) ▸ h0
      rw [e', e, next_eq (by rw [← e]; exact hnd)] at hn
      exact ⟨q', by rw [e', e]; simp, by simpa using hn.symm⟩
  obtain ⟨q, e, hq⟩ := hall h
  have : q = [] := by simpa using hq.symm
  subst this
  rw [List.append_nil] at e
  refine ⟨hr, ?_⟩
  have hv : ∀ (t : Ty) (f : Nat → Nat → U) (l : List (Nat × U)) (i : Nat), (∀ j (hj : j < l.length), l[j].2 = W.castTo t (f (i + j) l[j].1)) → W.fnValues t f i (l.map Prod.fst) = l := by
    intro t f l
    induction l with
    | nil => intro i _; rfl
    | cons a l ih =>
      intro i hh
      have h0 := hh 0 (by simp)
      simp only [List.map_cons, W.fnValues]
      rw [ih (i + 1) (fun j hj => by
        have := hh (j + 1) (by simp; omega)
        simpa [Nat.add_assoc, Nat.add_comm 1 j] using this)]
      simp at h0
      rw [← h0]
  rw [← hr, e, hv t f calls 0 (by simpa using hf), (made h).2.1, fill_zip _ _ _ (by simp)]
  simp [List.zip_map', List.map_id']

/-- **C101** is false of a function that erases a record it was called for before: the new key's hash map keeps the erased record, so that looking for its value finds memory that
was given back; and if some record asked later is left, then a record has a value that the function never gave for it. -/
theorem C101_shift_refuted {Can : Nat → Nat → List Nat → List Nat → Prop} (hE : ∀ i r x y, Can i r x y → Erases i r x y) {recs0 recs : List Nat} (h0 : recs0.Nodup)
    {a b : List (Nat × V)} {c : Nat × V} {m : Made V} (h : Asks Can recs0 (a ++ c :: b) m recs none) (hc : c.1 ∉ recs) :
    (c.2, c.1) ∈ m.hash ∧ ∃ l, fill m.cached 0 recs = some l ∧ l.map Prod.fst = recs ∧ ((∃ d ∈ b, d.1 ∈ recs) → ∃ e ∈ l, e ∉ a ++ c :: b) := by
  obtain ⟨h1, h2, h3, h4⟩ := made h
  obtain ⟨p, q, rfl, hq, hp, hs⟩ := asks_erase hE h0 h
  have : q = [] := by simpa using hq.symm
  subst this
  simp only [List.append_nil] at hs hc ⊢
  refine ⟨by rw [h1]; simp, ?_⟩
  generalize hcalls : a ++ c :: b = calls at *
  have hlen : p.length ≤ m.cached.length := by rw [h2]; simpa using hp.length_le
  refine ⟨_, fill_zip _ _ _ (by simpa using hlen), by simp [List.map_fst_zip, hlen], ?_⟩
  rintro ⟨d, hd, hdr⟩
  by_contra hno
  push Not at hno
  simp only [List.drop_zero] at hno
  have hnd : (calls.map Prod.fst).Nodup := hs.nodup h0
  have hget : ∀ i (hi : i < p.length), p[i] = (calls.map Prod.fst)[i]'(by rw [h2] at hlen; simp at hlen ⊢; omega) := by
    intro i hi
    have hic : i < m.cached.length := by omega
    have hmem : (p[i], m.cached[i]) ∈ p.zip m.cached := by
      rw [List.mem_iff_getElem]
      exact ⟨i, by simp; omega, by simp⟩
    have := hno _ hmem
    obtain ⟨j, hj, e⟩ := List.mem_iff_getElem.1 this
    have e1 : (calls.map Prod.fst)[j]'(by simpa using hj) = p[i] := by simp [e]
    have e2 : (calls.map Prod.snd)[j]'(by simpa using hj) = (calls.map Prod.snd)[i]'(by rw [h2] at hic; exact hic) := by
      simp only [h2] at e
      simp [e]
    have : j = i := (List.Nodup.getElem_inj_iff h4).1 e2
    subst this
    exact e1.symm
  obtain ⟨i, hi, e⟩ := List.mem_iff_getElem.1 hdr
  obtain ⟨k, hk, ek⟩ := List.mem_iff_getElem.1 hd
  have hlc : calls.length = a.length + (b.length + 1) := by rw [← hcalls]; simp
  have e3 : (calls.map Prod.fst)[a.length + 1 + k]'(by simp; omega) = d.1 := by
    subst hcalls
    simp only [List.getElem_map]
    rw [List.getElem_append_right (by omega)]
    simp [show a.length + 1 + k - a.length = k + 1 by omega, ek]
  have e4 : i = a.length + 1 + k := by
    refine (List.Nodup.getElem_inj_iff hnd).1 (?_ : (calls.map Prod.fst)[i]'(by rw [h2] at hlen; simp at hlen ⊢; omega) = (calls.map Prod.fst)[a.length + 1 + k]'(by simp; omega))
    rw [← hget i hi, e3, e]
  have e5 : (calls.map Prod.fst)[a.length]'(by simp; omega) = c.1 := by
    subst hcalls
    simp
  exact hc (by rw [← e5, ← hget a.length (by omega)]; simp)

/-- **C101** is false of a function that erases the record it was called with: the loop cannot go on (`++` of an iterator whose element is gone). -/
theorem C101_current_refuted {recs' : List Nat} {r : Nat} (h : r ∉ recs') : next recs' r = none := by
  cases e : next recs' r with
  | none => rfl
  | some n => obtain ⟨p, q, rfl, _⟩ := next_split e; simp at h

theorem run_on {Can : Nat → Nat → List Nat → List Nat → Prop} (hC : ∀ i r x, r ∈ x → x.Nodup → Can i r x x) {f : Nat → V} (hf : Function.Injective f) {recs0 : List Nat} :
    ∀ (q pre : List Nat) {calls : List (Nat × V)} {m : Made V}, Asks Can recs0 calls m (pre ++ q) q.head? → (pre ++ q).Nodup → m.cached = (List.range m.counter).map f →
      ∃ calls' m', Asks Can recs0 calls' m' (pre ++ q) none ∧ m'.cached = (List.range (m.counter + q.length)).map f
  | [], pre, calls, m, h, hn, hv => ⟨calls, m, by simpa using h, by simpa using hv⟩
  | r :: q, pre, calls, m, h, hn, hv => by
    have hfresh : f m.counter ∉ m.hash.map Prod.fst := by
      have : m.hash.map Prod.fst = m.cached := by rw [(made h).1, (made h).2.1]; simp
      rw [this, hv]
      simp only [List.mem_map, List.mem_range, not_exists, not_and]
      intro x hx e
      exact absurd (hf e) (by omega)
    have h' := Asks.turn _ _ _ r (f m.counter) (pre ++ r :: q) q.head? (by simpa using h) (hC _ r _ (by simp) hn) hfresh (next_eq hn)
    obtain ⟨c2, m2, h2, e2⟩ := run_on hC hf q (pre ++ [r]) (by simpa using h') (by simpa using hn) (by simp [hv, List.range_succ])
    exact ⟨c2, m2, by simpa using h2, by simpa [Nat.add_assoc, Nat.add_comm 1] using e2⟩

/-- **C101** is false of a function that creates records: for every vault with records there is a place of the new record in the set with which the second loop reads behind the
end of its vector, although no answer of the function was given twice. -/
theorem C101_create_refuted {f : Nat → V} (hf : Function.Injective f) {recs0 : List Nat} (h0 : recs0.Nodup) (hn : recs0 ≠ []) {x : Nat} (hx : x ∉ recs0) :
    ∃ calls m recs, Asks Edits recs0 calls m recs none ∧ m.cached = (List.range recs0.length).map f ∧ fill m.cached 0 recs = none := by
  obtain ⟨r, q, rfl⟩ : ∃ r q, recs0 = r :: q := by
    cases recs0 with
    | nil => exact absurd rfl hn
    | cons a l => exact ⟨a, l, rfl⟩
  have hnd : (x :: r :: q).Nodup := List.nodup_cons.2 ⟨hx, h0⟩
  have hedit : Edits 0 r (r :: q) (x :: r :: q) := by
    refine ⟨?_, hnd, by simp⟩
    rw [List.filter_cons_of_neg (by simpa using hx)]
    exact List.filter_sublist
  have h1 := Asks.turn (Can := Edits) (recs0 := r :: q) [] ⟨[], [], 0⟩ (r :: q) r (f 0) (x :: r :: q) q.head? .start hedit (by simp) (next_eq (p := [x]) hnd)
  obtain ⟨c, m, h2, e2⟩ := run_on (Can := Edits) (fun i r x hr hx => ⟨List.filter_sublist, hx, hr⟩) hf q [x, r] (by simpa using h1) (by simpa using hnd) (by simp)
  refine ⟨c, m, _, h2, ?_, ?_⟩
  · rw [e2]; simp [Nat.add_comm]
  · rw [e2]
    refine fill_none _ _ _ ?_ (by simp)
    simp
    omega

/-! ### Concrete cases -/

/-- Records 4, 7, 9: called for 7, the function erases 4 (asked before). -/
theorem ex_shift : Asks Erases [4, 7, 9] [(4, "a"), (7, "b"), (9, "c")] ⟨[("a", 4), ("b", 7), ("c", 9)], ["a", "b", "c"], 3⟩ [7, 9] none :=
  .turn [(4, "a"), (7, "b")] ⟨[("a", 4), ("b", 7)], ["a", "b"], 2⟩ [7, 9] 9 "c" [7, 9] none
    (.turn [(4, "a")] ⟨[("a", 4)], ["a"], 1⟩ [4, 7, 9] 7 "b" [7, 9] (some 9)
      (.turn [] ⟨[], [], 0⟩ [4, 7, 9] 4 "a" [4, 7, 9] (some 7) .start ⟨.refl _, by simp⟩ (by simp) rfl)
      ⟨by decide, by simp⟩ (by decide) rfl)
    ⟨.refl _, by simp⟩ (by decide) rfl

/-- Record 7 then has the value given for 4, and 9 the one given for 7. -/
example : fill ["a", "b", "c"] 0 [7, 9] = some [(7, "a"), (9, "b")] := rfl
example : ∃ e ∈ [(7, "a"), (9, "b")], e ∉ [(4, "a"), (7, "b"), (9, "c")] := by
  obtain ⟨_, l, h1, _, h2⟩ := C101_shift_refuted (fun _ _ _ _ h => h) (by decide) (a := []) ex_shift (by decide)
  cases h1
  exact h2 ⟨(9, "c"), by decide, by decide⟩

/-- Called for 4, the function erases 7 (not asked yet). -/
theorem ex_spare : Asks Erases [4, 7, 9] [(4, "a"), (9, "b")] ⟨[("a", 4), ("b", 9)], ["a", "b"], 2⟩ [4, 9] none :=
  .turn [(4, "a")] ⟨[("a", 4)], ["a"], 1⟩ [4, 9] 9 "b" [4, 9] none
    (.turn [] ⟨[], [], 0⟩ [4, 7, 9] 4 "a" [4, 9] (some 9) .start ⟨by decide, by simp⟩ (by simp) rfl)
    ⟨.refl _, by simp⟩ (by decide) rfl

example : fill ["a", "b"] 0 [4, 9] = some [(4, "a"), (9, "b")] := (C101_spares (fun _ _ _ _ h => h) (by decide) ex_spare (by decide)).1
example : [4, 9].Sublist [4, 7, 9] ∧ (∀ r ∈ [4, 9], r ∈ [4, 9]) := ⟨(C101_calls (fun _ _ _ _ h => h) (by decide) ex_spare).1, (C101_calls (fun _ _ _ _ h => h) (by decide) ex_spare).2.2.2 rfl⟩
example : ∃ calls m recs, Asks Edits [4, 7] calls m recs none ∧ m.cached = (List.range 2).map (fun i => i) ∧ fill m.cached 0 recs = none :=
  C101_create_refuted (f := fun i => i) (fun _ _ h => h) (by decide) (by decide) (x := 8) (by decide)
example : Refuses Erases (⟨[("a", 4)], ["a"], 1⟩ : Made String) [4, 9] 9 "a" [4, 9] := ⟨⟨.refl _, by simp⟩, by simp⟩

/-- A function that changes nothing, on two records. -/
theorem ex_plain : Asks Leaves [4, 7] [(4, 10), (7, 12)] ⟨[(10, 4), (12, 7)], [10, 12], 2⟩ [4, 7] none :=
  .turn [(4, 10)] ⟨[(10, 4)], [10], 1⟩ [4, 7] 7 12 [4, 7] none (.turn [] ⟨[], [], 0⟩ [4, 7] 4 10 [4, 7] (some 7) .start rfl (by simp) rfl) rfl (by decide) rfl
example : fill [10, 12] 0 [4, 7] = some (W.fnValues (W.typeOf (10 : Nat)) (fun i _ => 10 + 2 * i) 0 [4, 7]) :=
  (C101_plain (by decide) ex_plain _ (fun i _ => 10 + 2 * i) (by
    intro i hi
    match i, hi with
    | 0, _ => rfl
    | 1, _ => rfl)).2

end MVault.Kf
