import Verif.VbfProps
import Verif.InterpProps

/-! # Lemmas about the nodes of a rank -/

namespace Sopht

section
variable {R α N : Type} [DecidableEq R]

theorem whereEq_concat (addr : List R) (a r : R) : whereEq (addr ++ [a]) r = whereEq addr r ++ if a = r then [addr.length] else [] := by
  unfold whereEq
  rw [List.length_append, List.length_singleton, List.range_succ, List.filter_append]
  congr 1
  · apply List.filter_congr
    intro i hi
    rw [List.mem_range] at hi
    rw [List.getElem?_append_left hi]
  · simp only [List.filter_cons, List.filter_nil, List.getElem?_concat_length, Option.some.injEq, decide_eq_true_eq]

/-- the nodes of a rank are those at the indices `np.where` finds -/
theorem nodesOf_eq (f : ℕ → N) (addr : List R) (r : R) : nodesOf addr ((List.range addr.length).map f) r = (whereEq addr r).map f := by
  induction addr using List.reverseRecOn with
  | nil => rfl
  | append_singleton l a ih =>
    rw [whereEq_concat, List.map_append, ← ih]
    unfold nodesOf
    rw [List.length_append, List.length_singleton, List.range_succ, List.map_append, List.zip_append (by simp), List.filter_append, List.map_append]
    congr 1
    simp only [List.map_cons, List.map_nil, List.zip_cons_cons, List.zip_nil_right, List.filter_cons, List.filter_nil]
    by_cases h : a = r
    · simp [h]
    · simp [h]

theorem range_map_getElem {β : Type} (l : List ℕ) (n : ℕ) (hn : n = l.length) (f g : ℕ → β) (h : ∀ j i, l[j]? = some i → f j = g i) :
    (List.range n).map f = l.map g := by
  subst hn
  apply List.ext_getElem (by simp)
  intro j h1 h2
  simp only [List.getElem_map, List.getElem_range]
  apply h
  rw [List.getElem?_eq_getElem]

end

section
variable {R α : Type} [DecidableEq R] [Ring α]

/-- node records only matter for existing nodes and components -/
theorem Stores.congr {c : VbfCfg R α} {N : ℕ} {s : Vbf R α} {h h' : NodeHist α} (hs : Stores c N s h)
    (hP : ∀ k < c.d, ∀ i < N, h.P k i = h'.P k i) (hV : ∀ k < c.d, ∀ i < N, h.V k i = h'.V k i) (hF : ∀ k < c.d, ∀ i < N, h.F k i = h'.F k i)
    (ht : h.t = h'.t) : Stores c N s h' := by
  have hl : ∀ {r : R} {j i : ℕ}, (whereEq s.addr r)[j]? = some i → i < N := by
    intro r j i h
    rw [← hs.addr.1]; exact (slot_lt h).2.2
  exact ⟨hs.addr, hs.cnt, fun k hk r j i h => (hs.pos k hk r j i h).trans (hP k hk i (hl h)),
    fun k hk r j i h => (hs.vel k hk r j i h).trans (hV k hk i (hl h)), fun k hk i hi => (hs.force k hk i hi).trans (hF k hk i hi), hs.time.trans ht⟩

/-- after an interaction a rank holds the positions and forces of its nodes -/
theorem interact_local (c : VbfCfg R α) (hord : ∀ a, SlaveSet a c.m (c.ord a)) {N : ℕ} {s : Vbf R α} {h : NodeHist α}
    (hs : Stores c N s h) (X U : LagField α) (I : R → (ℕ → α) → ℕ → α) (hX : AddrOk c N (c.addrOf X)) (hI : InterpOk c.d I)
    (hc : c.addrOf X = s.addr ∨ ∃ r ∈ c.ranks, localCount (c.addrOf X) r ≠ localCount s.addr r) {k : ℕ} (hk : k < c.d) {r : R} {j i : ℕ}
    (hij : (whereEq (c.addrOf X) r)[j]? = some i) :
    (vbfInteract c X U I s).lpos r k j = X k i ∧
    (vbfInteract c X U I s).force r k j = (nodeApply c h (.interact X U I)).F k i := by
  obtain ⟨h1, ha⟩ := interact_stores c hord hs X U I hX hI hc
  rw [← ha] at hij
  constructor
  · exact scatterLag_slot c.d (vbfInteract c X U I s).addr (hord _) X _ hk hij
  · have e : (vbfInteract c X U I s).force r k j = c.stiff * (vbfInteract c X U I s).posM r k j + c.damp * (vbfInteract c X U I s).velM r k j := rfl
    rw [e, h1.pos k hk r j i hij, h1.vel k hk r j i hij]
    rfl

end

end Sopht
