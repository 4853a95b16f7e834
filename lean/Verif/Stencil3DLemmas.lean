import Verif.Stencil3D
import Verif.Ghost3DProps
import Verif.Stencil2DLemmas

/-! Specification of 3D stencil results in terms of the global field, and helpers. -/

namespace Sopht

set_option linter.unusedSimpArgs false

/-! ## Specification -/

/-- Offsets along the axes, at most `k` cells long. -/
def Cross3 (k : ℕ) (d : C3) : Prop :=
  (d.2.1 = 0 ∧ d.2.2 = 0 ∧ -k ≤ d.1 ∧ d.1 ≤ k) ∨ (d.1 = 0 ∧ d.2.2 = 0 ∧ -k ≤ d.2.1 ∧ d.2.1 ≤ k) ∨
    (d.1 = 0 ∧ d.2.1 = 0 ∧ -k ≤ d.2.2 ∧ d.2.2 ≤ k)

/-- The kernel `f` only looks at neighbours along the axes, at most `k` cells away. -/
def CrossLocal3 {ι K β : Type} (k : ℕ) (f : (ι → C3 → K) → β) : Prop :=
  ∀ u v : ι → C3 → K, (∀ i d, Cross3 k d → u i d = v i d) → f u = f v

/-- `G` is one of the outermost cells of the domain. -/
def OnEdge3 (gz gy gx : ℕ) (G : C3) : Prop :=
  G.1 = 0 ∨ G.1 = gz - 1 ∨ G.2.1 = 0 ∨ G.2.1 = gy - 1 ∨ G.2.2 = 0 ∨ G.2.2 = gx - 1

instance (gz gy gx : ℕ) (G : C3) : Decidable (OnEdge3 gz gy gx G) := by unfold OnEdge3; infer_instance

/-- Periodic continuation. -/
def contIx3 (gz gy gx : ℕ) (per : Bool) (G : C3) : C3 := if per then (G.1 % gz, G.2.1 % gy, G.2.2 % gx) else G

/-- The kernel applied to the global fields `F` at `G`. -/
def serialAt3 {ι K β : Type} (gz gy gx : ℕ) (per : Bool) (f : (ι → C3 → K) → β) (F : ι → C3 → K) (G : C3) : β :=
  f fun i d => F i (contIx3 gz gy gx per (G.1 + d.1, G.2.1 + d.2.1, G.2.2 + d.2.2))

/-- The same with the outermost cells of a non-periodic domain set to `z`. -/
def serialZero3 {ι K β : Type} (gz gy gx : ℕ) (per : Bool) (z : β) (f : (ι → C3 → K) → β) (F : ι → C3 → K) (G : C3) : β :=
  if per = false ∧ OnEdge3 gz gy gx G then z else serialAt3 gz gy gx per f F G

/-- All cells the kernel reads for `G` are cells of the domain. -/
def Away3 (gz gy gx k : ℕ) (G : C3) : Prop :=
  (k ≤ G.1 ∧ G.1 < gz - k) ∧ (k ≤ G.2.1 ∧ G.2.1 < gy - k) ∧ k ≤ G.2.2 ∧ G.2.2 < gx - k

/-! ## Passes -/

section Kernel
variable {ι K β : Type}

theorem pass3_pos {k : ℕ} {op : β → β → β} {f : (ι → C3 → K) → β} {A : ι → C3 → K} {out : C3 → β} {V : View3} {p : C3}
    (h : writes3 k V p) : pass3 k op f A out V p = op (out p) (f fun i d => A i (shift3 p d)) := by
  unfold pass3; rw [if_pos h]
theorem pass3_neg {k : ℕ} {op : β → β → β} {f : (ι → C3 → K) → β} {A : ι → C3 → K} {out : C3 → β} {V : View3} {p : C3}
    (h : ¬ writes3 k V p) : pass3 k op f A out V p = out p := by
  unfold pass3; rw [if_neg h]

/-- the interior pass reads inner cells only (the curl's: where it is not in the outer columns) -/
theorem interior_window3 {T : Cart3} {g k : ℕ} (hg : 1 ≤ g) {isCurl : Bool} {p d : C3} (hw : writes3 k (interiorView3 T g isCurl) p)
    (hx : isCurl = true → g + k ≤ p.2.2 ∧ p.2.2 < g + T.nx - k) (hd : Cross3 k d) : Inner3 T g (shift3 p d) := by
  obtain ⟨h1, h2, h3⟩ := hw
  unfold interiorView3 at h1 h2 h3
  simp only at h1 h2 h3
  rw [inPass_inner hg] at h1 h2
  have h3' : g + k ≤ p.2.2 ∧ p.2.2 < g + T.nx - k := by
    cases isCurl with
    | true => exact hx rfl
    | false => simpa [inPass_inner hg] using h3
  unfold Inner3 shift3; unfold Cross3 at hd
  simp only
  omega

variable {T : Cart3} {g k : ℕ}

/-- which passes compute an inner cell -/
theorem views3_at (hk1 : 1 ≤ k) (hkg : k ≤ g) (hnz : k ≤ T.nz) (hny : k ≤ T.ny) (hnx : k ≤ T.nx) (isCurl : Bool) {p : C3}
    (hp : Inner3 T g p) :
    (writes3 k (interiorView3 T g isCurl) p ↔ (g + k ≤ p.1 ∧ p.1 < g + T.nz - k) ∧ (g + k ≤ p.2.1 ∧ p.2.1 < g + T.ny - k) ∧
      (isCurl = true ∨ (g + k ≤ p.2.2 ∧ p.2.2 < g + T.nx - k))) ∧
    (writes3 k (loR T.nz g k, innerR T.ny g, innerR T.nx g) p ↔ p.1 < g + k ∧ (g + k ≤ p.2.1 ∧ p.2.1 < g + T.ny - k) ∧
      g + k ≤ p.2.2 ∧ p.2.2 < g + T.nx - k) ∧
    (writes3 k (hiR T.nz g k, innerR T.ny g, innerR T.nx g) p ↔ g + T.nz - k ≤ p.1 ∧ (g + k ≤ p.2.1 ∧ p.2.1 < g + T.ny - k) ∧
      g + k ≤ p.2.2 ∧ p.2.2 < g + T.nx - k) ∧
    (writes3 k (fullR T.nz g, loR T.ny g k, innerR T.nx g) p ↔ p.2.1 < g + k ∧ g + k ≤ p.2.2 ∧ p.2.2 < g + T.nx - k) ∧
    (writes3 k (fullR T.nz g, hiR T.ny g k, innerR T.nx g) p ↔ g + T.ny - k ≤ p.2.1 ∧ g + k ≤ p.2.2 ∧ p.2.2 < g + T.nx - k) ∧
    (writes3 k (fullR T.nz g, fullR T.ny g, loR T.nx g k) p ↔ p.2.2 < g + k) ∧
    (writes3 k (fullR T.nz g, fullR T.ny g, hiR T.nx g k) p ↔ g + T.nx - k ≤ p.2.2) := by
  have hg : 1 ≤ g := by omega
  obtain ⟨p1, p2, p3, p4, p5, p6⟩ := hp
  have hi : writes3 k (interiorView3 T g isCurl) p ↔ (g + k ≤ p.1 ∧ p.1 < g + T.nz - k) ∧ (g + k ≤ p.2.1 ∧ p.2.1 < g + T.ny - k) ∧
      (isCurl = true ∨ (g + k ≤ p.2.2 ∧ p.2.2 < g + T.nx - k)) := by
    unfold writes3 interiorView3
    cases isCurl
    · simp only [inPass_inner hg, Bool.false_eq_true, if_false, false_or]
    · simp only [inPass_inner hg, if_true, true_or, inPass_full, and_true]
      constructor
      · intro h; omega
      · intro h; omega
  refine ⟨hi, ?_, ?_, ?_, ?_, ?_, ?_⟩
  all_goals
    unfold writes3
    simp only [inPass_inner hg, inPass_lo hkg hnz, inPass_lo hkg hny, inPass_lo hkg hnx, inPass_hi hg hkg hnz, inPass_hi hg hkg hny,
      inPass_hi hg hkg hnx, inPass_full]
    omega

/-- result of an overwriting kernel in an inner cell -/
theorem kernel3_over (hk1 : 1 ≤ k) (hkg : k ≤ g) (hnz : k ≤ T.nz) (hny : k ≤ T.ny) (hnx : k ≤ T.nx) (isCurl : Bool)
    {f : (ι → C3 → K) → β} (hf : CrossLocal3 k f) {A1 A2 : ι → C3 → K} (hA : ∀ i p, Inner3 T g p → A1 i p = A2 i p)
    (out : C3 → β) {p : C3} (hp : Inner3 T g p) :
    kernel3 T g k isCurl (fun _ b => b) f A1 A2 out p = f fun i d => A2 i (shift3 p d) := by
  obtain ⟨v0, v1, v2, v3, v4, v5, v6⟩ := views3_at hk1 hkg hnz hny hnx isCurl hp
  obtain ⟨p1, p2, p3, p4, p5, p6⟩ := hp
  unfold kernel3 boundaryViews3
  simp only [List.foldl_cons, List.foldl_nil]
  by_cases h6 : writes3 k (fullR T.nz g, fullR T.ny g, hiR T.nx g k) p
  · rw [pass3_pos h6]
  rw [pass3_neg h6]
  by_cases h5 : writes3 k (fullR T.nz g, fullR T.ny g, loR T.nx g k) p
  · rw [pass3_pos h5]
  rw [pass3_neg h5]
  by_cases h4 : writes3 k (fullR T.nz g, hiR T.ny g k, innerR T.nx g) p
  · rw [pass3_pos h4]
  rw [pass3_neg h4]
  by_cases h3 : writes3 k (fullR T.nz g, loR T.ny g k, innerR T.nx g) p
  · rw [pass3_pos h3]
  rw [pass3_neg h3]
  by_cases h2 : writes3 k (hiR T.nz g k, innerR T.ny g, innerR T.nx g) p
  · rw [pass3_pos h2]
  rw [pass3_neg h2]
  by_cases h1 : writes3 k (loR T.nz g k, innerR T.ny g, innerR T.nx g) p
  · rw [pass3_pos h1]
  rw [pass3_neg h1]
  rw [v1] at h1; rw [v2] at h2; rw [v3] at h3; rw [v4] at h4; rw [v5] at h5; rw [v6] at h6
  have hx : g + k ≤ p.2.2 ∧ p.2.2 < g + T.nx - k := by omega
  have h0 : writes3 k (interiorView3 T g isCurl) p := by rw [v0]; refine ⟨by omega, by omega, Or.inr hx⟩
  rw [pass3_pos h0]
  apply hf
  intro i d hd
  exact hA i _ (interior_window3 (by omega) h0 (fun _ => hx) hd)

/-- result of any kernel but the curl in an inner cell, on blocks that are wide enough -/
theorem kernel3_once (hk1 : 1 ≤ k) (hkg : k ≤ g) (hnz : 2 * k ≤ T.nz) (hny : 2 * k ≤ T.ny) (hnx : 2 * k ≤ T.nx)
    {f : (ι → C3 → K) → β} (hf : CrossLocal3 k f) (op : β → β → β) {A1 A2 : ι → C3 → K}
    (hA : ∀ i p, Inner3 T g p → A1 i p = A2 i p) (out : C3 → β) {p : C3} (hp : Inner3 T g p) :
    kernel3 T g k false op f A1 A2 out p = op (out p) (f fun i d => A2 i (shift3 p d)) := by
  obtain ⟨v0, v1, v2, v3, v4, v5, v6⟩ := views3_at hk1 hkg (by omega) (by omega) (by omega) false hp
  obtain ⟨p1, p2, p3, p4, p5, p6⟩ := hp
  simp only [Bool.false_eq_true, false_or] at v0
  unfold kernel3 boundaryViews3
  simp only [List.foldl_cons, List.foldl_nil]
  by_cases h6 : writes3 k (fullR T.nz g, fullR T.ny g, hiR T.nx g k) p
  · rw [pass3_pos h6]; rw [v6] at h6
    rw [pass3_neg (by rw [v5]; omega), pass3_neg (by rw [v4]; omega), pass3_neg (by rw [v3]; omega),
      pass3_neg (by rw [v2]; omega), pass3_neg (by rw [v1]; omega), pass3_neg (by rw [v0]; omega)]
  rw [pass3_neg h6]
  by_cases h5 : writes3 k (fullR T.nz g, fullR T.ny g, loR T.nx g k) p
  · rw [pass3_pos h5]; rw [v5] at h5
    rw [pass3_neg (by rw [v4]; omega), pass3_neg (by rw [v3]; omega),
      pass3_neg (by rw [v2]; omega), pass3_neg (by rw [v1]; omega), pass3_neg (by rw [v0]; omega)]
  rw [pass3_neg h5]
  by_cases h4 : writes3 k (fullR T.nz g, hiR T.ny g k, innerR T.nx g) p
  · rw [pass3_pos h4]; rw [v4] at h4
    rw [pass3_neg (by rw [v3]; omega),
      pass3_neg (by rw [v2]; omega), pass3_neg (by rw [v1]; omega), pass3_neg (by rw [v0]; omega)]
  rw [pass3_neg h4]
  by_cases h3 : writes3 k (fullR T.nz g, loR T.ny g k, innerR T.nx g) p
  · rw [pass3_pos h3]; rw [v3] at h3
    rw [pass3_neg (by rw [v2]; omega), pass3_neg (by rw [v1]; omega), pass3_neg (by rw [v0]; omega)]
  rw [pass3_neg h3]
  by_cases h2 : writes3 k (hiR T.nz g k, innerR T.ny g, innerR T.nx g) p
  · rw [pass3_pos h2]; rw [v2] at h2
    rw [pass3_neg (by rw [v1]; omega), pass3_neg (by rw [v0]; omega)]
  rw [pass3_neg h2]
  by_cases h1 : writes3 k (loR T.nz g k, innerR T.ny g, innerR T.nx g) p
  · rw [pass3_pos h1]; rw [v1] at h1
    rw [pass3_neg (by rw [v0]; omega)]
  rw [pass3_neg h1]
  rw [v1] at h1; rw [v2] at h2; rw [v3] at h3; rw [v4] at h4; rw [v5] at h5; rw [v6] at h6
  have h0 : writes3 k (interiorView3 T g false) p := by rw [v0]; omega
  rw [pass3_pos h0]
  congr 1
  apply hf
  intro i d hd
  exact hA i _ (interior_window3 (by omega) h0 (fun h => by simp at h) hd)

end Kernel

/-! ## Exchange of several arrays -/

section Multi
variable {ι K : Type} [DecidableEq ι]

theorem multiMsgs3_eq (T : Cart3) (g : ℕ) (full : Bool) (comps : List ι) :
    multiMsgs3 T g full comps = allMsgs (ranks3 T) (vecPosts comps (fun c => (dirs3 full).map (gpost3 T g c))) := by
  unfold multiMsgs3
  apply allMsgs_congr
  intro r hr
  unfold vecPosts
  rw [posts3_eq full (mem_ranks3.1 hr)]

theorem ghostMsgs3_eq (T : Cart3) (g : ℕ) (full : Bool) :
    ghostMsgs3 T g full = allMsgs (ranks3 T) (fun c => (dirs3 full).map (gpost3 T g c)) := by
  unfold ghostMsgs3
  exact allMsgs_congr (fun r hr => posts3_eq full (mem_ranks3.1 hr))

theorem multi3_exchSpec {T : Cart3} {g : ℕ} (hz : g ≤ T.nz) (hy : g ≤ T.ny) (hx : g ≤ T.nx)
    (full : Bool) {comps : List ι} (hc : ∀ i, i ∈ comps) (w : World C3 (ι × C3) K) :
    ExchSpec (multiMsgs3 T g full comps) w (fun r ki => haloAll3 T g full (fun c i => w c (ki.1, i)) r ki.2) := by
  refine ExchSpec.vec (comps := comps) (M := ghostMsgs3 T g full) ?_
    (F := fun k => haloAll3 T g full (fun c i => w c (k, i))) (fun k _ => ghost3_exchSpec hz hy hx full _) hc
  intro m
  rw [multiMsgs3_eq, ghostMsgs3_eq]
  exact mem_vecMsgs_spmd _ (ranks3 T) (dirs3 full) (gpost3 T g)
    (fun s hs r hr k _ => gpost3_mirror (mem_ranks3.1 hs) (mem_ranks3.1 hr)) m

/-- exchanging several arrays at once is exchanging each of them -/
theorem multiExchange3_eq {T : Cart3} {g : ℕ} (hz : g ≤ T.nz) (hy : g ≤ T.ny) (hx : g ≤ T.nx)
    (full : Bool) {comps : List ι} (hc : ∀ i, i ∈ comps) (w : World C3 (ι × C3) K) {s s' : List Ev}
    (hs : Complete (multiMsgs3 T g full comps) s) (hs' : Finalised3 T g full s') (k : ι) (c i : C3) :
    multiExchange3 T g full comps w s c (k, i) = exchange3 T g full (fun c i => w c (k, i)) s' c i := by
  unfold multiExchange3 exchange3
  rw [runNet_eq (multi3_exchSpec hz hy hx full hc w) hs, runNet_eq (ghost3_exchSpec hz hy hx full _) hs']

/-- inner cells keep their values at any moment -/
theorem multiExchange3_inner {T : Cart3} {g : ℕ} (hz : g ≤ T.nz) (hy : g ≤ T.ny) (hx : g ≤ T.nx)
    (full : Bool) {comps : List ι} (hc : ∀ i, i ∈ comps) (w : World C3 (ι × C3) K) (s : List Ev) (k : ι) {c p : C3}
    (hp : Inner3 T g p) : multiExchange3 T g full comps w s c (k, p) = w c (k, p) := by
  unfold multiExchange3
  refine runNet_untouched (multi3_exchSpec hz hy hx full hc w) s c _ ?_
  intro m hm _ hi
  rw [multiMsgs3_eq, mem_vecMsgs_spmd _ (ranks3 T) (dirs3 full) (gpost3 T g)
    (fun s hs r hr k _ => gpost3_mirror (mem_ranks3.1 hs) (mem_ranks3.1 hr))] at hm
  obtain ⟨k', -, m0, hm0, rfl⟩ := hm
  rw [← ghostMsgs3_eq] at hm0
  have hi' : p ∈ m0.recvIx := by
    simp only [List.mem_map, Prod.mk.injEq] at hi
    obtain ⟨a, ha, -, rfl⟩ := hi
    exact ha
  exact exchange3_inner_not_received full hm0 hp hi'

/-- a cell outside a non-periodic domain is not touched by an exchange -/
theorem exchange3_outside {gz gy gx pz py px : ℕ} {T : Cart3} (hT : mkCart3 gz gy gx pz py px false = .ok T)
    {g : ℕ} (hz : g ≤ T.nz) (hy : g ≤ T.ny) (hx : g ≤ T.nx) (full : Bool) (w : World C3 C3 K)
    {sched : List Ev} (hs : Finalised3 T g full sched) {c p : C3} (hc : Valid3 T c) (hp : InArr3 T g p)
    (hG : ¬ InDomain3 T (globalIx3 T g c p)) :
    exchange3 T g full w sched c p = w c p := by
  obtain ⟨-, -, -, -, -, -, hper, hZ, hY, hX⟩ := construct3_ok hT
  rw [exchange3_correct T hz hy hx full w hs hc hp]
  unfold halo3
  simp only
  split
  · rfl
  · cases hn : nbr3 T c (zone g T.nz p.1, zone g T.ny p.2.1, zone g T.nx p.2.2) with
    | none => rfl
    | some d =>
      exfalso; apply hG
      rw [nbr3_eq_some, hper] at hn
      obtain ⟨p1, p2, p3, p4, p5, p6⟩ := hp
      have a := axis_outside hz p1 p2 hn.1
      have b := axis_outside hy p3 p4 hn.2.1
      have d := axis_outside hx p5 p6 hn.2.2
      rw [hZ] at a; rw [hY] at b; rw [hX] at d
      exact ⟨a.1, a.2, b.1, b.2, d.1, d.2⟩

/-- what the arrays hold after the exchange, in every cell an axis-aligned stencil can reach -/
theorem multi3_global {gz gy gx pz py px : ℕ} {per : Bool} {T : Cart3} (hT : mkCart3 gz gy gx pz py px per = .ok T)
    {g : ℕ} (hz : g ≤ T.nz) (hy : g ≤ T.ny) (hx : g ≤ T.nx) (full : Bool) {comps : List ι} (hcs : ∀ i, i ∈ comps)
    {w : World C3 (ι × C3) K} {F : ι → C3 → K}
    (hw : ∀ i c p, Valid3 T c → Inner3 T g p → w c (i, p) = F i (globalIx3 T g c p))
    {s : List Ev} (hs : Complete (multiMsgs3 T g full comps) s) {c p : C3} (hc : Valid3 T c) (hp : InArr3 T g p)
    (hr : dirRank (zone g T.nz p.1, zone g T.ny p.2.1, zone g T.nx p.2.2) ≤ 1) (i : ι)
    (hG : per = true ∨ InDomain3 T (globalIx3 T g c p) ∨ w c (i, p) = F i (globalIx3 T g c p)) :
    multiExchange3 T g full comps w s c (i, p) = F i (contIx3 gz gy gx per (globalIx3 T g c p)) := by
  obtain ⟨s', hs'⟩ := complete_schedule_exists (ghostMsgs3 T g full)
  rw [multiExchange3_eq hz hy hx full hcs w hs hs' i]
  cases per with
  | true =>
    rw [exchange3_global_window_periodic hT hz hy hx full (F i) _ (fun c p => hw i c p) hs' hc hp (Or.inr hr)]
    obtain ⟨e1, e2, e3, -⟩ := construct3_ok hT
    unfold contIx3 wrap3
    rw [if_pos rfl, e1, e2, e3]
  | false =>
    unfold contIx3
    rw [if_neg (by simp)]
    by_cases hd : InDomain3 T (globalIx3 T g c p)
    · exact exchange3_global_window hT hz hy hx full (F i) _ (fun c p => hw i c p) hs' hc hp hd (Or.inr hr)
    · rw [exchange3_outside hT hz hy hx full _ hs' hc hp hd]
      rcases hG with h | h | h
      · simp at h
      · exact absurd h hd
      · exact h

/-- cells an axis-aligned stencil reads for an inner cell -/
theorem cross_window3 {T : Cart3} {g k : ℕ} (hkg : k ≤ g) {p d : C3} (hp : Inner3 T g p) (hd : Cross3 k d) :
    InArr3 T g (shift3 p d) ∧
      dirRank (zone g T.nz (p.1 + d.1), zone g T.ny (p.2.1 + d.2.1), zone g T.nx (p.2.2 + d.2.2)) ≤ 1 := by
  obtain ⟨p1, p2, p3, p4, p5, p6⟩ := hp
  unfold Cross3 at hd
  refine ⟨?_, ?_⟩
  · unfold InArr3 shift3; simp only; omega
  · rcases hd with ⟨h1, h2, -⟩ | ⟨h1, h2, -⟩ | ⟨h1, h2, -⟩ <;> rw [h1, h2] <;> unfold dirRank <;> simp only [add_zero]
    · rw [zone_zero_iff.2 ⟨p3, p4⟩, zone_zero_iff.2 ⟨p5, p6⟩]; split_ifs <;> simp_all
    · rw [zone_zero_iff.2 ⟨p1, p2⟩, zone_zero_iff.2 ⟨p5, p6⟩]; split_ifs <;> simp_all
    · rw [zone_zero_iff.2 ⟨p1, p2⟩, zone_zero_iff.2 ⟨p3, p4⟩]; split_ifs <;> simp_all

theorem globalIx3_shift (T : Cart3) (g : ℕ) (c p d : C3) :
    globalIx3 T g c (shift3 p d) = ((globalIx3 T g c p).1 + d.1, (globalIx3 T g c p).2.1 + d.2.1, (globalIx3 T g c p).2.2 + d.2.2) := by
  unfold globalIx3 shift3; refine Prod.ext ?_ (Prod.ext ?_ ?_) <;> simp only <;> ring

/-- what a kernel computes from the exchanged arrays in an inner cell -/
theorem multi3_stencil {β : Type} {gz gy gx pz py px : ℕ} {per : Bool} {T : Cart3} (hT : mkCart3 gz gy gx pz py px per = .ok T)
    {g k : ℕ} (hkg : k ≤ g) (hz : g ≤ T.nz) (hy : g ≤ T.ny) (hx : g ≤ T.nx) (full : Bool) {comps : List ι} (hcs : ∀ i, i ∈ comps)
    {w : World C3 (ι × C3) K} {F : ι → C3 → K} {f : (ι → C3 → K) → β} (hf : CrossLocal3 k f)
    (hw : ∀ i c p, Valid3 T c → Inner3 T g p → w c (i, p) = F i (globalIx3 T g c p))
    {s : List Ev} (hs : Complete (multiMsgs3 T g full comps) s) {c p : C3} (hc : Valid3 T c) (hp : Inner3 T g p)
    (hG : per = true ∨ Away3 gz gy gx k (globalIx3 T g c p) ∨
      ∀ i q, InArr3 T g q → dirRank (zone g T.nz q.1, zone g T.ny q.2.1, zone g T.nx q.2.2) ≤ 1 → ¬ InDomain3 T (globalIx3 T g c q) →
        w c (i, q) = F i (globalIx3 T g c q)) :
    (f fun i d => multiExchange3 T g full comps w s c (i, shift3 p d)) =
      serialAt3 gz gy gx per f F (globalIx3 T g c p) := by
  unfold serialAt3
  apply hf
  intro i d hd
  obtain ⟨ha, hr⟩ := cross_window3 hkg hp hd
  rw [← globalIx3_shift]
  refine multi3_global hT hz hy hx full hcs hw hs hc ha hr i ?_
  rcases hG with h | h | h
  · exact Or.inl h
  · refine Or.inr (Or.inl ?_)
    obtain ⟨e1, e2, e3, -⟩ := construct3_ok hT
    rw [globalIx3_shift]
    obtain ⟨⟨a1, a2⟩, ⟨a3, a4⟩, a5, a6⟩ := h
    unfold Cross3 at hd
    unfold InDomain3
    rw [e1, e2, e3]
    simp only
    omega
  · by_cases hD : InDomain3 T (globalIx3 T g c (shift3 p d))
    · exact Or.inr (Or.inl hD)
    · exact Or.inr (Or.inr (h i _ ha hr hD))

end Multi

end Sopht
