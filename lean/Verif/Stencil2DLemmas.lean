import Verif.Stencil2D
import Verif.Ghost2DProps
import Mathlib.Tactic.Ring

/-! Specification of stencil results in terms of the global field, and helpers. -/

namespace Sopht

set_option linter.unusedSimpArgs false

/-! ## Specification -/

/-- Offsets along the axes, at most `k` cells long. -/
def Cross2 (k : ℕ) (d : C2) : Prop := (d.1 = 0 ∧ -k ≤ d.2 ∧ d.2 ≤ k) ∨ (d.2 = 0 ∧ -k ≤ d.1 ∧ d.1 ≤ k)

/-- The kernel `f` only looks at neighbours along the axes, at most `k` cells away. -/
def CrossLocal2 {ι K β : Type} (k : ℕ) (f : (ι → C2 → K) → β) : Prop :=
  ∀ u v : ι → C2 → K, (∀ i d, Cross2 k d → u i d = v i d) → f u = f v

/-- `G` is one of the outermost cells of the domain. -/
def OnEdge2 (gy gx : ℕ) (G : C2) : Prop := G.1 = 0 ∨ G.1 = gy - 1 ∨ G.2 = 0 ∨ G.2 = gx - 1

instance (gy gx : ℕ) (G : C2) : Decidable (OnEdge2 gy gx G) := by unfold OnEdge2; infer_instance

/-- Periodic continuation. -/
def contIx2 (gy gx : ℕ) (per : Bool) (G : C2) : C2 := if per then (G.1 % gy, G.2 % gx) else G

/-- The kernel applied to the global fields `F` at `G`. -/
def serialAt2 {ι K β : Type} (gy gx : ℕ) (per : Bool) (f : (ι → C2 → K) → β) (F : ι → C2 → K) (G : C2) : β :=
  f fun i d => F i (contIx2 gy gx per (G.1 + d.1, G.2 + d.2))

/-- The same with the outermost cells of a non-periodic domain set to `z`. -/
def serialZero2 {ι K β : Type} (gy gx : ℕ) (per : Bool) (z : β) (f : (ι → C2 → K) → β) (F : ι → C2 → K) (G : C2) : β :=
  if per = false ∧ OnEdge2 gy gx G then z else serialAt2 gy gx per f F G

/-- All cells the kernel reads for `G` are cells of the domain. -/
def Away2 (gy gx k : ℕ) (G : C2) : Prop := k ≤ G.1 ∧ G.1 < gy - k ∧ k ≤ G.2 ∧ G.2 < gx - k

/-! ## Axes -/

theorem pyStart_min {size o : ℤ} (h : 0 ≤ o) : pyStart size o = min o size := by unfold pyStart; rw [if_neg (by omega)]
theorem pyStart_max {size o : ℤ} (h : o < 0) : pyStart size o = max 0 (size + o) := by unfold pyStart; rw [if_pos h]

theorem inPass_full (n g k : ℕ) (i : ℤ) : inPass k (fullR n g) i ↔ k ≤ i ∧ i < n + 2 * g - k := by
  unfold inPass fullR; simp only; omega

theorem inPass_inner {n g k : ℕ} (hg : 1 ≤ g) (i : ℤ) :
    inPass k (innerR n g) i ↔ g + k ≤ i ∧ i < g + n - k := by
  unfold inPass innerR sliceR
  rw [pyStart_min (by omega), pyStart_max (by omega)]
  simp only; omega

theorem inPass_lo {n g k : ℕ} (hk : k ≤ g) (hn : k ≤ n) (i : ℤ) :
    inPass k (loR n g k) i ↔ g ≤ i ∧ i < g + k := by
  unfold inPass loR sliceR
  rw [pyStart_min (by omega), pyStart_min (by omega)]
  simp only; omega

theorem inPass_hi {n g k : ℕ} (hg : 1 ≤ g) (hk : k ≤ g) (hn : k ≤ n) (i : ℤ) :
    inPass k (hiR n g k) i ↔ g + n - k ≤ i ∧ i < g + n := by
  unfold inPass hiR sliceR
  rw [pyStart_max (by omega), pyStart_min (by omega)]
  simp only; omega

section Kernel
variable {ι K β : Type}

theorem pass2_pos {k : ℕ} {op : β → β → β} {f : (ι → C2 → K) → β} {A : ι → C2 → K} {out : C2 → β} {V : View2} {p : C2}
    (h : writes2 k V p) : pass2 k op f A out V p = op (out p) (f fun i d => A i (p.1 + d.1, p.2 + d.2)) := by
  unfold pass2; rw [if_pos h]
theorem pass2_neg {k : ℕ} {op : β → β → β} {f : (ι → C2 → K) → β} {A : ι → C2 → K} {out : C2 → β} {V : View2} {p : C2}
    (h : ¬ writes2 k V p) : pass2 k op f A out V p = out p := by
  unfold pass2; rw [if_neg h]

/-- the interior pass reads inner cells only -/
theorem interior_window {T : Cart2} {g k : ℕ} (hg : 1 ≤ g) {p d : C2} (hw : writes2 k (interiorView2 T g) p) (hd : Cross2 k d) :
    Inner2 T g (p.1 + d.1, p.2 + d.2) := by
  obtain ⟨h1, h2⟩ := hw
  unfold interiorView2 at h1 h2
  rw [inPass_inner hg] at h1 h2
  unfold Inner2; unfold Cross2 at hd
  simp only
  omega

variable {T : Cart2} {g k : ℕ}

/-- which passes compute an inner cell -/
theorem views2_at (hk1 : 1 ≤ k) (hkg : k ≤ g) (hny : k ≤ T.ny) (hnx : k ≤ T.nx) {p : C2} (hp : Inner2 T g p) :
    (writes2 k (interiorView2 T g) p ↔ (g + k ≤ p.1 ∧ p.1 < g + T.ny - k) ∧ g + k ≤ p.2 ∧ p.2 < g + T.nx - k) ∧
    (writes2 k (loR T.ny g k, innerR T.nx g) p ↔ p.1 < g + k ∧ g + k ≤ p.2 ∧ p.2 < g + T.nx - k) ∧
    (writes2 k (hiR T.ny g k, innerR T.nx g) p ↔ g + T.ny - k ≤ p.1 ∧ g + k ≤ p.2 ∧ p.2 < g + T.nx - k) ∧
    (writes2 k (fullR T.ny g, loR T.nx g k) p ↔ p.2 < g + k) ∧
    (writes2 k (fullR T.ny g, hiR T.nx g k) p ↔ g + T.nx - k ≤ p.2) := by
  have hg : 1 ≤ g := by omega
  obtain ⟨p1, p2, p3, p4⟩ := hp
  unfold writes2 interiorView2
  simp only [inPass_inner hg, inPass_lo hkg hny, inPass_lo hkg hnx, inPass_hi hg hkg hny, inPass_hi hg hkg hnx, inPass_full]
  refine ⟨?_, ?_, ?_, ?_, ?_⟩
  all_goals first | trivial | omega

/-- result of an overwriting kernel in an inner cell -/
theorem kernel2_over (hk1 : 1 ≤ k) (hkg : k ≤ g) (hny : k ≤ T.ny) (hnx : k ≤ T.nx) {f : (ι → C2 → K) → β}
    (hf : CrossLocal2 k f) {A1 A2 : ι → C2 → K} (hA : ∀ i p, Inner2 T g p → A1 i p = A2 i p) (out : C2 → β) {p : C2}
    (hp : Inner2 T g p) :
    kernel2 T g k (fun _ b => b) f A1 A2 out p = f fun i d => A2 i (p.1 + d.1, p.2 + d.2) := by
  obtain ⟨v0, v1, v2, v3, v4⟩ := views2_at hk1 hkg hny hnx hp
  obtain ⟨p1, p2, p3, p4⟩ := hp
  unfold kernel2 boundaryViews2
  simp only [List.foldl_cons, List.foldl_nil]
  by_cases h4 : writes2 k (fullR T.ny g, hiR T.nx g k) p
  · rw [pass2_pos h4]
  rw [pass2_neg h4]
  by_cases h3 : writes2 k (fullR T.ny g, loR T.nx g k) p
  · rw [pass2_pos h3]
  rw [pass2_neg h3]
  by_cases h2 : writes2 k (hiR T.ny g k, innerR T.nx g) p
  · rw [pass2_pos h2]
  rw [pass2_neg h2]
  by_cases h1 : writes2 k (loR T.ny g k, innerR T.nx g) p
  · rw [pass2_pos h1]
  rw [pass2_neg h1]
  have h0 : writes2 k (interiorView2 T g) p := by rw [v0]; rw [v1] at h1; rw [v2] at h2; rw [v3] at h3; rw [v4] at h4; omega
  rw [pass2_pos h0]
  apply hf
  intro i d hd
  exact hA i _ (interior_window (by omega) h0 hd)

/-- result of any kernel in an inner cell, on blocks that are wide enough -/
theorem kernel2_once (hk1 : 1 ≤ k) (hkg : k ≤ g) (hny : 2 * k ≤ T.ny) (hnx : 2 * k ≤ T.nx) {f : (ι → C2 → K) → β}
    (hf : CrossLocal2 k f) (op : β → β → β) {A1 A2 : ι → C2 → K} (hA : ∀ i p, Inner2 T g p → A1 i p = A2 i p) (out : C2 → β)
    {p : C2} (hp : Inner2 T g p) :
    kernel2 T g k op f A1 A2 out p = op (out p) (f fun i d => A2 i (p.1 + d.1, p.2 + d.2)) := by
  obtain ⟨v0, v1, v2, v3, v4⟩ := views2_at hk1 hkg (by omega) (by omega) hp
  obtain ⟨p1, p2, p3, p4⟩ := hp
  unfold kernel2 boundaryViews2
  simp only [List.foldl_cons, List.foldl_nil]
  by_cases h4 : writes2 k (fullR T.ny g, hiR T.nx g k) p
  · rw [pass2_pos h4, pass2_neg (by rw [v3]; rw [v4] at h4; omega), pass2_neg (by rw [v2]; rw [v4] at h4; omega),
      pass2_neg (by rw [v1]; rw [v4] at h4; omega), pass2_neg (by rw [v0]; rw [v4] at h4; omega)]
  rw [pass2_neg h4]
  by_cases h3 : writes2 k (fullR T.ny g, loR T.nx g k) p
  · rw [pass2_pos h3, pass2_neg (by rw [v2]; rw [v3] at h3; omega),
      pass2_neg (by rw [v1]; rw [v3] at h3; omega), pass2_neg (by rw [v0]; rw [v3] at h3; omega)]
  rw [pass2_neg h3]
  by_cases h2 : writes2 k (hiR T.ny g k, innerR T.nx g) p
  · rw [pass2_pos h2, pass2_neg (by rw [v1]; rw [v2] at h2; omega), pass2_neg (by rw [v0]; rw [v2] at h2; omega)]
  rw [pass2_neg h2]
  by_cases h1 : writes2 k (loR T.ny g k, innerR T.nx g) p
  · rw [pass2_pos h1, pass2_neg (by rw [v0]; rw [v1] at h1; omega)]
  rw [pass2_neg h1]
  have h0 : writes2 k (interiorView2 T g) p := by rw [v0]; rw [v1] at h1; rw [v2] at h2; rw [v3] at h3; rw [v4] at h4; omega
  rw [pass2_pos h0]
  congr 1
  apply hf
  intro i d hd
  exact hA i _ (interior_window (by omega) h0 hd)

end Kernel

/-! ## Exchange of several arrays -/

section Multi
variable {ι K : Type} [DecidableEq ι]

theorem multi2_exchSpec {T : Cart2} {g : ℕ} (hg : 1 ≤ g) (hy : g ≤ T.ny) (hx : g ≤ T.nx)
    (full : Bool) {comps : List ι} (hc : ∀ i, i ∈ comps) (w : World C2 (ι × ℤ) K) :
    ExchSpec (multiMsgs2 T g full comps) w (fun r ki => haloFlat T g full (fun c i => w c (ki.1, i)) r ki.2) := by
  refine ExchSpec.vec (comps := comps) (M := ghostMsgs2 T g full) ?_
    (F := fun k => haloFlat T g full (fun c i => w c (k, i))) (fun k _ => ghost2_exchSpec hg hy hx full _) hc
  intro m
  have e1 : multiMsgs2 T g full comps
      = allMsgs (ranks2 T) (vecPosts comps (fun c => (dirs2 full).map (gpost2 T g c))) := by
    unfold multiMsgs2
    apply allMsgs_congr
    intro r hr
    unfold vecPosts
    rw [posts2_eq hg full (mem_ranks2.1 hr)]
  have e2 : ghostMsgs2 T g full = allMsgs (ranks2 T) (fun c => (dirs2 full).map (gpost2 T g c)) := by
    unfold ghostMsgs2
    exact allMsgs_congr (fun r hr => posts2_eq hg full (mem_ranks2.1 hr))
  rw [e1, e2]
  exact mem_vecMsgs_spmd _ (ranks2 T) (dirs2 full) (gpost2 T g)
    (fun s hs r hr k _ => gpost2_mirror (mem_ranks2.1 hs) (mem_ranks2.1 hr)) m

/-- exchanging several arrays at once is exchanging each of them -/
theorem multiExchange2_eq {T : Cart2} {g : ℕ} (hg : 1 ≤ g) (hy : g ≤ T.ny) (hx : g ≤ T.nx)
    (full : Bool) {comps : List ι} (hc : ∀ i, i ∈ comps) (w : World C2 (ι × ℤ) K) {s s' : List Ev}
    (hs : Complete (multiMsgs2 T g full comps) s) (hs' : Finalised2 T g full s') (k : ι) (c : C2) (i : ℤ) :
    multiExchange2 T g full comps w s c (k, i) = exchange2 T g full (fun c i => w c (k, i)) s' c i := by
  unfold multiExchange2 exchange2
  rw [runNet_eq (multi2_exchSpec hg hy hx full hc w) hs, runNet_eq (ghost2_exchSpec hg hy hx full _) hs']

/-- inner cells keep their values at any moment -/
theorem multiExchange2_inner {T : Cart2} {g : ℕ} (hg : 1 ≤ g) (hy : g ≤ T.ny) (hx : g ≤ T.nx)
    (full : Bool) {comps : List ι} (hc : ∀ i, i ∈ comps) (w : World C2 (ι × ℤ) K) (s : List Ev) (k : ι) {c p : C2}
    (hp : Inner2 T g p) : multiExchange2 T g full comps w s c (k, flat2 T g p) = w c (k, flat2 T g p) := by
  unfold multiExchange2
  refine runNet_untouched (multi2_exchSpec hg hy hx full hc w) s c _ ?_
  intro m hm _ hi
  have e1 : multiMsgs2 T g full comps
      = allMsgs (ranks2 T) (vecPosts comps (fun c => (dirs2 full).map (gpost2 T g c))) := by
    unfold multiMsgs2
    apply allMsgs_congr
    intro r hr
    unfold vecPosts
    rw [posts2_eq hg full (mem_ranks2.1 hr)]
  rw [e1, mem_vecMsgs_spmd _ (ranks2 T) (dirs2 full) (gpost2 T g)
    (fun s hs r hr k _ => gpost2_mirror (mem_ranks2.1 hs) (mem_ranks2.1 hr))] at hm
  obtain ⟨k', -, m0, hm0, rfl⟩ := hm
  have e2 : ghostMsgs2 T g full = allMsgs (ranks2 T) (fun c => (dirs2 full).map (gpost2 T g c)) := by
    unfold ghostMsgs2
    exact allMsgs_congr (fun r hr => posts2_eq hg full (mem_ranks2.1 hr))
  rw [← e2] at hm0
  have hi' : flat2 T g p ∈ m0.recvIx := by
    simp only [List.mem_map, Prod.mk.injEq] at hi
    obtain ⟨a, ha, -, rfl⟩ := hi
    exact ha
  exact exchange2_inner_not_received hg full hm0 hp hi'

/-- along one axis: a ghost index that has an existing neighbour on a non-periodic axis lies in the domain -/
theorem axis_outside {P n g : ℕ} (hng : g ≤ n) {c i : ℤ} (hi0 : 0 ≤ i) (hi1 : i < n + 2 * g) {d : ℤ}
    (h : axisNbr P false c (zone g n i) = some d) : 0 ≤ c * n + i - g ∧ c * n + i - g < (P * n : ℕ) := by
  have hin : (g : ℤ) ≤ i - zone g n i * n ∧ i - zone g n i * n < g + n := by
    unfold zone; split
    · constructor <;> omega
    · split
      · simp; omega
      · constructor <;> omega
  have hr := axisNbr_range (P := P) (by
    rcases Nat.eq_zero_or_pos P with h0 | h0
    · subst h0; unfold axisNbr at h; rw [if_neg (by omega)] at h; simp at h
    · exact h0) h
  have hd : d = c + zone g n i := by
    unfold axisNbr at h
    split at h
    · cases h; rfl
    · simp at h
  rw [hd] at hr
  generalize zone g n i = z at *
  push_cast
  constructor <;> nlinarith

/-- a cell outside a non-periodic domain is not touched by an exchange (cells outside the blocks along one axis) -/
theorem exchange2_outside {gy gx py px : ℕ} {T : Cart2} (hT : mkCart2 gy gx py px false = .ok T)
    {g : ℕ} (hg : 1 ≤ g) (hy : g ≤ T.ny) (hx : g ≤ T.nx) (full : Bool) (w : World C2 ℤ K)
    {sched : List Ev} (hs : Finalised2 T g full sched) {c p : C2} (hc : Valid2 T c) (hp : InArr2 T g p)
    (hG : ¬ InDomain2 T (globalIx2 T g c p)) :
    exchange2 T g full w sched c (flat2 T g p) = w c (flat2 T g p) := by
  obtain ⟨-, -, -, -, hper, hY, hX⟩ := construct2_ok hT
  rw [exchange2_correct T hg hy hx full w hs hc hp]
  unfold halo2
  simp only
  split
  · rfl
  · cases hn : nbr2 T c (zone g T.ny p.1, zone g T.nx p.2) with
    | none => rfl
    | some d =>
      exfalso; apply hG
      rw [nbr2_eq_some, hper] at hn
      obtain ⟨p1, p2, p3, p4⟩ := hp
      have a := axis_outside hy p1 p2 hn.1
      have b := axis_outside hx p3 p4 hn.2
      rw [hY] at a; rw [hX] at b
      exact ⟨a.1, a.2, b.1, b.2⟩

/-- what the arrays hold after the exchange, in every cell an axis-aligned stencil can reach -/
theorem multi2_global {gy gx py px : ℕ} {per : Bool} {T : Cart2} (hT : mkCart2 gy gx py px per = .ok T)
    {g : ℕ} (hg : 1 ≤ g) (hy : g ≤ T.ny) (hx : g ≤ T.nx) (full : Bool) {comps : List ι} (hcs : ∀ i, i ∈ comps)
    {w : World C2 (ι × ℤ) K} {F : ι → C2 → K}
    (hw : ∀ i c p, Valid2 T c → Inner2 T g p → w c (i, flat2 T g p) = F i (globalIx2 T g c p))
    {s : List Ev} (hs : Complete (multiMsgs2 T g full comps) s) {c p : C2} (hc : Valid2 T c) (hp : InArr2 T g p)
    (hz : zone g T.ny p.1 = 0 ∨ zone g T.nx p.2 = 0) (i : ι)
    (hG : per = true ∨ InDomain2 T (globalIx2 T g c p) ∨ w c (i, flat2 T g p) = F i (globalIx2 T g c p)) :
    multiExchange2 T g full comps w s c (i, flat2 T g p) = F i (contIx2 gy gx per (globalIx2 T g c p)) := by
  obtain ⟨s', hs'⟩ := complete_schedule_exists (ghostMsgs2 T g full)
  rw [multiExchange2_eq hg hy hx full hcs w hs hs' i]
  cases per with
  | true =>
    rw [exchange2_global_window_periodic hT hg hy hx full (F i) _ (fun c p => hw i c p) hs' hc hp (Or.inr hz)]
    obtain ⟨e1, e2, -⟩ := construct2_ok hT
    unfold contIx2 wrap2
    rw [if_pos rfl, e1, e2]
  | false =>
    unfold contIx2
    rw [if_neg (by simp)]
    by_cases hd : InDomain2 T (globalIx2 T g c p)
    · exact exchange2_global_window hT hg hy hx full (F i) _ (fun c p => hw i c p) hs' hc hp hd (Or.inr hz)
    · rw [exchange2_outside hT hg hy hx full _ hs' hc hp hd]
      rcases hG with h | h | h
      · simp at h
      · exact absurd h hd
      · exact h

/-- cells an axis-aligned stencil reads for an inner cell -/
theorem cross_window {T : Cart2} {g k : ℕ} (hkg : k ≤ g) {p d : C2} (hp : Inner2 T g p) (hd : Cross2 k d) :
    InArr2 T g (p.1 + d.1, p.2 + d.2) ∧ (zone g T.ny (p.1 + d.1) = 0 ∨ zone g T.nx (p.2 + d.2) = 0) := by
  obtain ⟨p1, p2, p3, p4⟩ := hp
  rw [zone_zero_iff, zone_zero_iff]
  unfold Cross2 at hd
  refine ⟨?_, ?_⟩
  · unfold InArr2; simp only; omega
  · omega

theorem globalIx2_add (T : Cart2) (g : ℕ) (c p d : C2) :
    globalIx2 T g c (p.1 + d.1, p.2 + d.2) = ((globalIx2 T g c p).1 + d.1, (globalIx2 T g c p).2 + d.2) := by
  unfold globalIx2; refine Prod.ext ?_ ?_ <;> simp only <;> ring

/-- what a kernel computes from the exchanged arrays in an inner cell -/
theorem multi2_stencil {β : Type} {gy gx py px : ℕ} {per : Bool} {T : Cart2} (hT : mkCart2 gy gx py px per = .ok T)
    {g k : ℕ} (hg : 1 ≤ g) (hkg : k ≤ g) (hy : g ≤ T.ny) (hx : g ≤ T.nx) (full : Bool) {comps : List ι} (hcs : ∀ i, i ∈ comps)
    {w : World C2 (ι × ℤ) K} {F : ι → C2 → K} {f : (ι → C2 → K) → β} (hf : CrossLocal2 k f)
    (hw : ∀ i c p, Valid2 T c → Inner2 T g p → w c (i, flat2 T g p) = F i (globalIx2 T g c p))
    {s : List Ev} (hs : Complete (multiMsgs2 T g full comps) s) {c p : C2} (hc : Valid2 T c) (hp : Inner2 T g p)
    (hG : per = true ∨ Away2 gy gx k (globalIx2 T g c p) ∨
      ∀ i q, InArr2 T g q → (zone g T.ny q.1 = 0 ∨ zone g T.nx q.2 = 0) → ¬ InDomain2 T (globalIx2 T g c q) →
        w c (i, flat2 T g q) = F i (globalIx2 T g c q)) :
    (f fun i d => multiExchange2 T g full comps w s c (i, flat2 T g (p.1 + d.1, p.2 + d.2))) =
      serialAt2 gy gx per f F (globalIx2 T g c p) := by
  unfold serialAt2
  apply hf
  intro i d hd
  obtain ⟨ha, hz⟩ := cross_window hkg hp hd
  rw [← globalIx2_add]
  refine multi2_global hT hg hy hx full hcs hw hs hc ha hz i ?_
  rcases hG with h | h | h
  · exact Or.inl h
  · refine Or.inr (Or.inl ?_)
    obtain ⟨e1, e2, -⟩ := construct2_ok hT
    rw [globalIx2_add]
    obtain ⟨a1, a2, a3, a4⟩ := h
    unfold Cross2 at hd
    unfold InDomain2
    rw [e1, e2]
    simp only
    omega
  · by_cases hD : InDomain2 T (globalIx2 T g c (p.1 + d.1, p.2 + d.2))
    · exact Or.inr (Or.inl hD)
    · exact Or.inr (Or.inr (h i _ ha hz hD))

end Multi

end Sopht
