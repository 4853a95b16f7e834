import Verif.IO
import Verif.CartLemmas
import Mathlib.Data.List.Zip
import Mathlib.Tactic.Ring

/-! # Lemmas about dictionaries, slices and selections -/

namespace Sopht

/-! ## Dictionaries -/

section Dict
variable {β : Type}

theorem dget_dput (d : List (String × β)) (k k' : String) (v : β) :
    dget (dput d k v) k' = if k = k' then some v else dget d k' := by
  induction d with
  | nil => simp [dput, dget]
  | cons x d ih =>
    obtain ⟨a, b⟩ := x
    simp only [dput]
    split
    · rename_i h; subst h
      simp only [dget]
      split <;> rfl
    · rename_i h
      simp only [dget, ih]
      split
      · rename_i h2; subst h2
        rw [if_neg (fun e => h e.symm)]
      · rfl

theorem dget_append (d d' : List (String × β)) (k : String) :
    dget (d ++ d') k = (dget d k).or (dget d' k) := by
  induction d with
  | nil => simp [dget]
  | cons x d ih =>
    obtain ⟨a, b⟩ := x
    simp only [List.cons_append, dget]
    split
    · simp
    · exact ih

theorem dget_none_iff {d : List (String × β)} {k : String} : dget d k = none ↔ k ∉ d.map Prod.fst := by
  induction d with
  | nil => simp [dget]
  | cons x d ih =>
    obtain ⟨a, b⟩ := x
    simp only [dget, List.map_cons, List.mem_cons, not_or]
    split
    · rename_i h; simp [h]
    · rename_i h; rw [ih]; exact ⟨fun h2 => ⟨fun e => h e.symm, h2⟩, fun h2 => h2.2⟩

theorem dget_of_mem {d : List (String × β)} (hn : (d.map Prod.fst).Nodup) {k : String} {v : β} (h : (k, v) ∈ d) :
    dget d k = some v := by
  induction d with
  | nil => cases h
  | cons x d ih =>
    obtain ⟨a, b⟩ := x
    simp only [List.map_cons, List.nodup_cons] at hn
    simp only [dget]
    rcases List.mem_cons.1 h with h | h
    · cases h; simp
    · rw [if_neg, ih hn.2 h]
      intro e; subst e
      exact hn.1 (List.mem_map.2 ⟨_, h, rfl⟩)

theorem mem_of_dget {d : List (String × β)} {k : String} {v : β} (h : dget d k = some v) : (k, v) ∈ d := by
  induction d with
  | nil => cases h
  | cons x d ih =>
    obtain ⟨a, b⟩ := x
    simp only [dget] at h
    split at h
    · rename_i e; subst e; cases h; exact List.mem_cons_self
    · exact List.mem_cons_of_mem _ (ih h)

theorem dput_fresh {d : List (String × β)} {k : String} (v : β) (h : k ∉ d.map Prod.fst) : dput d k v = d ++ [(k, v)] := by
  induction d with
  | nil => rfl
  | cons x d ih =>
    obtain ⟨a, b⟩ := x
    simp only [List.map_cons, List.mem_cons, not_or] at h
    simp only [dput, if_neg (fun e : a = k => h.1 e.symm), ih h.2, List.cons_append]

theorem createDataset_ok {d : List (String × β)} {k : String} {v : β} (h : dget d k = none) :
    createDataset d k v = .ok (d ++ [(k, v)]) := by
  simp [createDataset, h]

theorem dget_snoc_of_none {d : List (String × β)} {k : String} {v : β} (h : dget d k = none) (k' : String) :
    dget (d ++ [(k, v)]) k' = if k = k' then some v else dget d k' := by
  rw [dget_append]
  by_cases e : k = k'
  · subst e; simp [h, dget]
  · simp [dget, e]

theorem dget_snoc_mono {d : List (String × β)} {k k' : String} {v w : β} (h : dget d k' = some w) :
    dget (d ++ [(k, v)]) k' = some w := by
  rw [dget_append, h]; rfl

end Dict

theorem compName_inj {n n' : String} {k k' : ℕ} (hk : k < 10) (hk' : k' < 10) (h : compName n k = compName n' k') :
    n = n' ∧ k = k' := by
  have h1 : (compName n k).toList = n.toList ++ ("_" ++ toString k).toList := by simp [compName, String.toList_append]
  have h2 : (compName n' k').toList = n'.toList ++ ("_" ++ toString k').toList := by simp [compName, String.toList_append]
  have h3 := congrArg String.toList h
  rw [h1, h2] at h3
  have len : ∀ j < 10, ("_" ++ toString j).toList.length = 2 := by decide
  have inj : ∀ j < 10, ∀ j' < 10, ("_" ++ toString j).toList = ("_" ++ toString j').toList → j = j' := by decide
  obtain ⟨a, b⟩ := List.append_inj' h3 (by rw [len k hk, len k' hk'])
  exact ⟨String.toList_inj.1 a, inj k hk k' hk' b⟩

/-! ## Slices -/

theorem mem_intsFrom {a b x : ℤ} : x ∈ intsFrom a b ↔ a ≤ x ∧ x < b := by
  simp only [intsFrom, List.mem_map, List.mem_range]
  constructor
  · rintro ⟨k, hk, rfl⟩; omega
  · intro h; exact ⟨(x - a).toNat, by omega, by omega⟩

theorem innerSlice_eq (n g : ℕ) : innerSlice n g = intsFrom g (g + n) := by
  unfold innerSlice
  split
  · rename_i h; subst h
    simp [irange, intsFrom]
  · rename_i h
    simp only [ioSlice]
    rw [if_neg (by omega), if_pos (by omega)]
    congr 1
    · omega
    · omega

theorem intsFrom_shift (a b s : ℤ) : intsFrom (a + s) (b + s) = (intsFrom a b).map (· + s) := by
  simp only [intsFrom, List.map_map]
  have : b + s - (a + s) = b - a := by ring
  rw [this]
  apply List.map_congr_left
  intro k _
  simp only [Function.comp]
  ring

theorem block_slice (c : ℤ) (n g : ℕ) :
    intsFrom (c * n) ((c + 1) * n) = (intsFrom g (g + n)).map fun i => c * n + i - g := by
  have := intsFrom_shift (g : ℤ) (g + n) (c * n - g)
  have e1 : (g : ℤ) + (c * n - g) = c * n := by ring
  have e2 : (g : ℤ) + n + (c * n - g) = (c + 1) * n := by ring
  rw [e1, e2] at this
  rw [this]
  apply List.map_congr_left
  intro i _
  ring

/-! ## Selections -/

section Sel
variable {I α : Type} [DecidableEq I]

theorem writeSel_map (D : I → α) (sel : List I) (F : I → α) (G : I) :
    writeSel D sel (sel.map F) G = if G ∈ sel then F G else D G := by
  unfold writeSel
  induction sel generalizing D with
  | nil => simp
  | cons x l ih =>
    simp only [List.map_cons, List.zip_cons_cons, List.foldl_cons]
    rw [ih]
    by_cases h : G ∈ l
    · simp [h]
    · by_cases e : G = x
      · subst e; simp [h]
      · simp [h, e]

theorem foldl_writeSel {R : Type} (order : List R) (sel : R → List I) (vals : R → List α) (F : I → α)
    (hv : ∀ c ∈ order, vals c = (sel c).map F) (D : I → α) (G : I) :
    order.foldl (fun D c => writeSel D (sel c) (vals c)) D G = if ∃ c ∈ order, G ∈ sel c then F G else D G := by
  induction order generalizing D with
  | nil => simp
  | cons c l ih =>
    simp only [List.foldl_cons]
    rw [ih (fun d hd => hv d (List.mem_cons_of_mem _ hd)), hv c List.mem_cons_self, writeSel_map]
    by_cases h : ∃ d ∈ l, G ∈ sel d
    · rw [if_pos h, if_pos]
      obtain ⟨d, h1, h2⟩ := h
      exact ⟨d, List.mem_cons_of_mem _ h1, h2⟩
    · rw [if_neg h]
      by_cases e : G ∈ sel c
      · rw [if_pos e, if_pos ⟨c, List.mem_cons_self, e⟩]
      · rw [if_neg e, if_neg]
        rintro ⟨d, h1, h2⟩
        rcases List.mem_cons.1 h1 with rfl | h1
        · exact e h2
        · exact h ⟨d, h1, h2⟩

end Sel

/-! ## Geometry -/

/-- What the round trip needs of the geometry: the chunk of a rank is its inner cells, in the same order, at their global
places; the chunks are exactly the dataset. -/
structure GeoOK {R I : Type} (geo : IOGeo R I) (gix : R → I → I) (gridSize : List ℕ) : Prop where
  sel : ∀ c ∈ geo.ranks, geo.fileSel c = geo.innerSel.map (gix c)
  cover : ∀ G, geo.inShape gridSize G = true ↔ ∃ c ∈ geo.ranks, G ∈ geo.fileSel c
  dimLe : geo.dim ≤ 3

theorem mem_innerSel2 {T : Cart2} {g : ℕ} {p : C2} : p ∈ (ioGeo2 T g).innerSel ↔ Inner2 T g p := by
  simp only [ioGeo2, innerSlice_eq, List.mem_flatMap, List.mem_map, mem_intsFrom, Inner2]
  constructor
  · rintro ⟨y, hy, x, hx, rfl⟩; exact ⟨hy.1, hy.2, hx.1, hx.2⟩
  · rintro ⟨a, b, c, d⟩; exact ⟨p.1, ⟨a, b⟩, p.2, ⟨c, d⟩, rfl⟩

theorem mem_innerSel3 {T : Cart3} {g : ℕ} {p : C3} : p ∈ (ioGeo3 T g).innerSel ↔ Inner3 T g p := by
  simp only [ioGeo3, innerSlice_eq, List.mem_flatMap, List.mem_map, mem_intsFrom, Inner3]
  constructor
  · rintro ⟨z, hz, y, hy, x, hx, rfl⟩; exact ⟨hz.1, hz.2, hy.1, hy.2, hx.1, hx.2⟩
  · rintro ⟨a, b, c, d, e, f⟩; exact ⟨p.1, ⟨a, b⟩, p.2.1, ⟨c, d⟩, p.2.2, ⟨e, f⟩, rfl⟩

theorem div_block {P n N : ℕ} (hN : P * n = N) {x : ℤ} (h0 : 0 ≤ x) (h1 : x < N) :
    0 ≤ x / n ∧ x / n < P ∧ x / n * n ≤ x ∧ x < (x / n + 1) * n := by
  have hn : (0 : ℤ) < n := by
    rcases Nat.eq_zero_or_pos n with h | h
    · subst h; simp at hN; omega
    · exact_mod_cast h
  refine ⟨Int.ediv_nonneg h0 hn.le, ?_, Int.ediv_mul_le _ hn.ne', ?_⟩
  · rw [Int.ediv_lt_iff_lt_mul hn]; rw [← hN] at h1; push_cast at h1; exact h1
  · have := Int.lt_ediv_add_one_mul_self x hn
    exact this

theorem geoOK2 {gy gx : ℕ} {T : Cart2} (hy : T.py * T.ny = gy) (hx : T.px * T.nx = gx) (g : ℕ) :
    GeoOK (ioGeo2 T g) (globalIx2 T g) [gy, gx] where
  sel c _ := by
    simp only [ioGeo2, innerSlice_eq]
    rw [block_slice c.1 T.ny g, block_slice c.2 T.nx g]
    rw [List.flatMap_map, List.map_flatMap]
    simp only [List.map_map]
    rfl
  cover G := by
    simp only [ioGeo2, Bool.and_eq_true, decide_eq_true_eq, List.mem_flatMap, List.mem_map, mem_intsFrom, mem_ranks2, Valid2]
    constructor
    · rintro ⟨⟨⟨h1, h2⟩, h3⟩, h4⟩
      obtain ⟨a1, a2, a3, a4⟩ := div_block hy h1 h2
      obtain ⟨b1, b2, b3, b4⟩ := div_block hx h3 h4
      exact ⟨(G.1 / T.ny, G.2 / T.nx), ⟨a1, a2, b1, b2⟩, G.1, ⟨a3, a4⟩, G.2, ⟨b3, b4⟩, rfl⟩
    · rintro ⟨c, ⟨c1, c2, c3, c4⟩, y, ⟨y1, y2⟩, x, ⟨x1, x2⟩, rfl⟩
      have e1 : (c.1 + 1) * T.ny ≤ T.py * T.ny := by
        apply Int.mul_le_mul_of_nonneg_right <;> omega
      have e2 : (c.2 + 1) * T.nx ≤ T.px * T.nx := by
        apply Int.mul_le_mul_of_nonneg_right <;> omega
      have f1 : 0 ≤ c.1 * T.ny := by positivity
      have f2 : 0 ≤ c.2 * T.nx := by positivity
      have k1 : (T.py : ℤ) * T.ny = gy := by exact_mod_cast hy
      have k2 : (T.px : ℤ) * T.nx = gx := by exact_mod_cast hx
      refine ⟨⟨⟨?_, ?_⟩, ?_⟩, ?_⟩ <;> simp only <;> omega
  dimLe := by simp [ioGeo2]

theorem geoOK3 {gz gy gx : ℕ} {T : Cart3} (hz : T.pz * T.nz = gz) (hy : T.py * T.ny = gy) (hx : T.px * T.nx = gx) (g : ℕ) :
    GeoOK (ioGeo3 T g) (globalIx3 T g) [gz, gy, gx] where
  sel c _ := by
    simp only [ioGeo3, innerSlice_eq]
    rw [block_slice c.1 T.nz g, block_slice c.2.1 T.ny g, block_slice c.2.2 T.nx g]
    simp only [List.flatMap_map, List.map_flatMap, List.map_map]
    rfl
  cover G := by
    simp only [ioGeo3, Bool.and_eq_true, decide_eq_true_eq, List.mem_flatMap, List.mem_map, mem_intsFrom, mem_ranks3, Valid3]
    constructor
    · rintro ⟨⟨⟨⟨⟨h1, h2⟩, h3⟩, h4⟩, h5⟩, h6⟩
      obtain ⟨a1, a2, a3, a4⟩ := div_block hz h1 h2
      obtain ⟨b1, b2, b3, b4⟩ := div_block hy h3 h4
      obtain ⟨d1, d2, d3, d4⟩ := div_block hx h5 h6
      exact ⟨(G.1 / T.nz, G.2.1 / T.ny, G.2.2 / T.nx), ⟨a1, a2, b1, b2, d1, d2⟩, G.1, ⟨a3, a4⟩, G.2.1, ⟨b3, b4⟩,
        G.2.2, ⟨d3, d4⟩, rfl⟩
    · rintro ⟨c, ⟨c1, c2, c3, c4, c5, c6⟩, z, ⟨z1, z2⟩, y, ⟨y1, y2⟩, x, ⟨x1, x2⟩, rfl⟩
      have e0 : (c.1 + 1) * T.nz ≤ T.pz * T.nz := by
        apply Int.mul_le_mul_of_nonneg_right <;> omega
      have e1 : (c.2.1 + 1) * T.ny ≤ T.py * T.ny := by
        apply Int.mul_le_mul_of_nonneg_right <;> omega
      have e2 : (c.2.2 + 1) * T.nx ≤ T.px * T.nx := by
        apply Int.mul_le_mul_of_nonneg_right <;> omega
      have f0 : 0 ≤ c.1 * T.nz := by positivity
      have f1 : 0 ≤ c.2.1 * T.ny := by positivity
      have f2 : 0 ≤ c.2.2 * T.nx := by positivity
      have k0 : (T.pz : ℤ) * T.nz = gz := by exact_mod_cast hz
      have k1 : (T.py : ℤ) * T.ny = gy := by exact_mod_cast hy
      have k2 : (T.px : ℤ) * T.nx = gx := by exact_mod_cast hx
      refine ⟨⟨⟨⟨⟨?_, ?_⟩, ?_⟩, ?_⟩, ?_⟩, ?_⟩ <;> simp only <;> omega
  dimLe := by simp [ioGeo3]

end Sopht
