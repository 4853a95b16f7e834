import Verif.FixedBody
import Verif.RodDriver
import Verif.Dims

/-!
# The flow past a cylinder, as a function of the driver's arguments (C116)

`flow_past_cylinder_boundary_forcing_case` (examples/2d_examples/FlowPastCylinderCase/flow_past_cylinder.py, below "FPC.py"): what it computes from its arguments, what it
constructs, the loop and what it records.  Which nodes the forcing grid of the cylinder (sopht package) consists of is left open: they lie on the cylinder.  Plots, videos and the
formatting of files are left out.
-/

namespace Sopht

/-! ## The driver -/

/-- The arguments (FPC.py:12-21): `nondim_final_time`, `grid_size`, `reynolds`, `coupling_stiffness`, `coupling_damping`, `rank_distribution`. -/
structure CylArgs where
  final : ℝ
  gy : ℕ
  gx : ℕ
  re : ℝ
  stiff : ℝ
  damp : ℝ
  dist : Option (List ℕ)

namespace CylArgs

/-- `cyl_radius` (FPC.py:34) -/
noncomputable def radius (_ : CylArgs) : ℝ := 0.03
/-- `velocity_scale` (FPC.py:31) -/
def speed (_ : CylArgs) : ℝ := 1
/-- `velocity_free_stream` (FPC.py:32-33) -/
def stream (z : CylArgs) (j : Fin 2) : ℝ := if j = 0 then z.speed else 0
/-- `nu` (FPC.py:35) -/
noncomputable def nu (z : CylArgs) : ℝ := z.radius * z.speed / z.re
/-- `x_cm` (FPC.py:51) -/
noncomputable def cx (z : CylArgs) : ℝ := 2.5 * z.radius
/-- `y_cm` (FPC.py:52) -/
noncomputable def cy (z : CylArgs) : ℝ := 0.5 * z.gy / z.gx
/-- `timescale` (FPC.py:81) -/
noncomputable def timescale (z : CylArgs) : ℝ := z.radius / z.speed
/-- `final_time` (FPC.py:82) -/
noncomputable def tEnd (z : CylArgs) : ℝ := z.final * z.timescale

/-- The arguments of the flow simulator (FPC.py:38-47), given the topology `Compute_dims` returns; ghost size and penalty zone are the defaults (F2D.py:35, 83-87). -/
def sim (z : CylArgs) (py px : ℕ) : SimArgs2 := ⟨z.gy, z.gx, py, px, "navier_stokes_with_forcing", true, 2, .int 2⟩

/-- The arguments of the interactor (FPC.py:63-76): 60 nodes, master rank 0, defaults otherwise. Spacing of the nodes, order of sets and content of uninitialised buffers are
what they are. -/
def body (z : CylArgs) (lagDx : ℝ) (ord : List C2 → List C2) (junk : LagField ℝ) : Ib2 :=
  { N := 60, m := (0, 0), ord, junk, stiff := z.stiff, damp := z.damp, lagDx, shift := none, width := none, reset := false, auto := true }

end CylArgs

section
variable {T : Cart2} [NeZero T.gy] [NeZero T.gx]

/-- Simulator and interactor as constructed (FPC.py:38-76) on `n` ranks: all fields zero, time zero. -/
structure CylStart (z : CylArgs) (n py px : ℕ) (a : Ib2) (X : LagField ℝ) (S : CSt2 T Unit) : Prop where
  topo : Topology2 n z.dist (z.sim py px)
  cart : simCheck2 (z.sim py px) = .ok T
  sim : ∃ dbl0 conv0, S.sim = simInit2 T 1 0 dbl0 conv0
  ib : ibInit2 T 2 (simDx2 T 1) a X 0 = .ok (S.ib ())
  log : S.log = []

/-- The drag coefficient (FPC.py:141-148), on the master rank. -/
noncomputable def cylDrag (z : CylArgs) (S : CSt2 T Unit) : ℝ := |nodeTotal 60 ((S.ib ()).v.gforce 0)| / z.speed / z.speed / z.radius

/-- A line of the log (FPC.py:124-132): time, percentage, greatest vorticity, deviation. -/
structure CylLine where
  time : ℝ
  percent : ℝ
  vorticity : Except PyErr ℝ
  deviation : ℝ

omit [NeZero T.gy] [NeZero T.gx] in
/-- What is logged (FPC.py:124-132). -/
noncomputable def cylLine (z : CylArgs) (C : Cfg2) (m : C2) (S : CSt2 T Unit) : CylLine :=
  ⟨S.sim.time, S.sim.time / z.tEnd * 100, maxVorticity2 C S.sim, gridDeviation 2 (ranks2 T) 60 (S.ib ()).v m⟩

/-- An iteration (FPC.py:98-163) with its two timers: log lines (and plots) every `final_time / 50`, drag coefficients every quarter of the time scale. -/
noncomputable def cylLoop (z : CylArgs) (C : Cfg2) (K : Kern2) (tol : ℝ) (a : Ib2) (o : ℕ → CScheds2) (X : LagField ℝ) :
    ℕ → (CSt2 T Unit × ℝ × List CylLine) × ℝ × List (ℝ × ℝ) → ((CSt2 T Unit × ℝ × List CylLine) × ℝ × List (ℝ × ℝ)) × Option PyErr :=
  snapBody false (0.25 * z.timescale) (fun s => (s.1.sim.time / z.timescale, cylDrag z s.1)) (fun i s => fixedDt2 C tol 1 i s.1)
    (snapBody false (z.tEnd / 50) (cylLine z C a.m) (fixedDt2 C tol 1) (fixedBody2 C K tol (fun _ => a) o () X 1 z.stream))

/-- The loop ends after `N` iterations with the result `r`. -/
def CylRuns (z : CylArgs) (C : Cfg2) (K : Kern2) (tol : ℝ) (a : Ib2) (o : ℕ → CScheds2) (X : LagField ℝ) (S : CSt2 T Unit) (N : ℕ)
    (r : ((CSt2 T Unit × ℝ × List CylLine) × ℝ × List (ℝ × ℝ)) × Option PyErr) : Prop :=
  While (fun s => s.1.1.sim.time < z.tEnd) (cylLoop z C K tol a o X) 0 ((S, 0, []), 0, []) N r

end

/-! ## Specification: one global grid

A cylinder of radius 0.03 at x = 0.075, half way up a domain of length 1, in a stream of velocity 1; the viscosity is 0.03 / Re and times are in units of 0.03. -/

/-- Flow and body on one global grid after `n` iterations, from rest: each takes the stable time step, moves the clock of the interactor and lets flow and nodes `X`, which stay
where they are, interact. Order of sets, buffers and the rank of the master do not matter there. -/
noncomputable def cylRef (z : CylArgs) (K : Kern2) (tol lagDx : ℝ) (X : LagField ℝ) (n : ℕ) : RefC2 Unit :=
  cRef2 ⟨z.gy, z.gx, 1, 0.03 / z.re, 2, true⟩ K 0.1 tol
    (fun _ => { N := 60, m := (0, 0), ord := id, junk := fun _ _ => 0, stiff := z.stiff, damp := z.damp, lagDx, shift := none, width := none, reset := false, auto := true })
    (fixedProg2 () X 1 (fun j => if j = 0 then 1 else 0) n .stop) (refStart2 (1 / z.gx) (fun _ => X) (fun _ => 0) 0 (fun _ _ => 0) fun _ _ _ => 0)

/-- The log line of a global state. -/
noncomputable def refCylLine (z : CylArgs) (r : RefC2 Unit) : CylLine :=
  ⟨r.time, r.time / (0.03 * z.final) * 100, .ok (sSup {x | ∃ G, Dom2 z.gy z.gx G ∧ x = r.F.om G}), refDeviation 2 60 (r.hist ())⟩

/-- Time and drag coefficient of a global state. -/
noncomputable def refCylDrag (r : RefC2 Unit) : ℝ × ℝ := (r.time / 0.03, |∑ l ∈ Finset.range 60, (r.hist ()).F 0 l| / 0.03)

/-- Nodes on the cylinder (with a square around it would do). -/
def OnCylinder (z : CylArgs) (X : LagField ℝ) : Prop := ∀ i < 60, |X 0 i - 0.075| ≤ 0.03 ∧ |X 1 i - z.gy / z.gx / 2| ≤ 0.03

theorem CylArgs.nu_eq (z : CylArgs) : z.nu = 0.03 / z.re := by simp [CylArgs.nu, CylArgs.radius, CylArgs.speed]
theorem CylArgs.timescale_eq (z : CylArgs) : z.timescale = 0.03 := by simp [CylArgs.timescale, CylArgs.radius, CylArgs.speed]
theorem CylArgs.tEnd_eq (z : CylArgs) : z.tEnd = 0.03 * z.final := by unfold CylArgs.tEnd; rw [z.timescale_eq, mul_comm]
theorem CylArgs.drag_eq (z : CylArgs) (F : ℝ) : F / z.speed / z.speed / z.radius = F / 0.03 := by simp [CylArgs.radius, CylArgs.speed]
theorem CylArgs.on_iff (z : CylArgs) (X : LagField ℝ) : OnCylinder z X ↔ ∀ i < 60, |X 0 i - z.cx| ≤ z.radius ∧ |X 1 i - z.cy| ≤ z.radius := by
  have e1 : z.cx = 0.075 := by unfold CylArgs.cx CylArgs.radius; norm_num
  have e2 : z.cy = z.gy / z.gx / 2 := by unfold CylArgs.cy; ring
  rw [e1, e2]; rfl

/-! ## The cylinder is inside -/

theorem winCells_inside {dx : ℝ} (hdx : 0 < dx) {n : ℕ} {x : ℝ} (h1 : 2.5 * dx ≤ x) (h2 : x + 2.5 * dx < n * dx) {G : ℤ} (hG : G ∈ winCells dx (dx / 2) 2 x) :
    (1 : ℕ) ≤ G ∧ G < n - (1 : ℕ) := by
  unfold winCells cellOf at hG
  rw [Finset.mem_Ioc] at hG
  have a1 : (2 : ℤ) ≤ ⌊(x - dx / 2) / dx⌋ := by
    rw [Int.le_floor, le_div_iff₀ hdx]
    push_cast; linarith
  have a2 : ⌊(x - dx / 2) / dx⌋ < (n : ℤ) - 3 := by
    rw [Int.floor_lt, div_lt_iff₀ hdx]
    push_cast; linarith
  push_cast
  omega

theorem cylinder_inside {z : CylArgs} (hx : 56 ≤ z.gx) (hy : 6 * z.gx + 500 < 100 * z.gy) {X : LagField ℝ} (hX : OnCylinder z X) (lagDx : ℝ) (ord : List C2 → List C2)
    (junk : LagField ℝ) : Inside2 z.gy z.gx 1 (1 / z.gx) (z.body lagDx ord junk) X := by
  intro i hi G hG
  obtain ⟨q1, q2⟩ := (z.on_iff X).1 hX i hi
  rw [abs_le] at q1 q2
  have g0 : (56 : ℝ) ≤ z.gx := by exact_mod_cast hx
  have gp : (0 : ℝ) < z.gx := by linarith
  have g1 : 6 * (z.gx : ℝ) + 500 < 100 * z.gy := by exact_mod_cast hy
  have hdx : 0 < 1 / (z.gx : ℝ) := by positivity
  have hs : (z.body lagDx ord junk).sh (1 / z.gx) = 1 / z.gx / 2 := rfl
  unfold window2 at hG
  rw [hs, Finset.mem_product] at hG
  have hd : 1 / (z.gx : ℝ) * z.gx = 1 := one_div_mul_cancel gp.ne'
  have hle : 1 / (z.gx : ℝ) ≤ 1 / 56 := one_div_le_one_div_of_le (by norm_num) g0
  have hcy : z.cy = 0.5 * (z.gy * (1 / z.gx)) := by unfold CylArgs.cy; ring
  have hyy : 6 + 500 * (1 / (z.gx : ℝ)) < 100 * (z.gy * (1 / z.gx)) := by
    have := mul_lt_mul_of_pos_right g1 hdx
    have e : (6 * (z.gx : ℝ) + 500) * (1 / z.gx) = 6 * (1 / z.gx * z.gx) + 500 * (1 / z.gx) := by ring
    rw [e, hd] at this
    linarith
  have hxx : (z.gx : ℝ) * (1 / z.gx) = 1 := by rw [mul_comm]; exact hd
  simp only [CylArgs.cx, CylArgs.radius] at q1 q2
  rw [hcy] at q2
  obtain ⟨b1, b2⟩ := winCells_inside hdx (n := z.gy) (x := X 1 i) (by linarith) (by linarith) hG.1
  obtain ⟨c1, c2⟩ := winCells_inside hdx (n := z.gx) (x := X 0 i) (by linarith) (by linarith) hG.2
  exact ⟨b1, b2, c1, c2⟩

/-! ## When a timer is due -/

theorem snapshots_from {strict : Bool} {limit : ℝ} {t : ℕ → ℝ} {N : ℕ} (a : List ℕ) : ∀ (i : ℕ) (a' : List ℕ),
    (∀ j ∈ i :: a, j < N) → (∀ j ∈ i :: a', j < N) →
    (i :: a).IsChain (fun i j => i < j ∧ Due strict limit (t j - t i) ∧ ∀ k, i < k → k < j → ¬Due strict limit (t k - t i)) →
    (i :: a').IsChain (fun i j => i < j ∧ Due strict limit (t j - t i) ∧ ∀ k, i < k → k < j → ¬Due strict limit (t k - t i)) →
    (∀ j, (i :: a).getLast? = some j → ∀ k, j < k → k < N → ¬Due strict limit (t k - t j)) →
    (∀ j, (i :: a').getLast? = some j → ∀ k, j < k → k < N → ¬Due strict limit (t k - t j)) → a = a' := by
  induction a with
  | nil =>
    intro i a' _ h2 _ h4 h5 _
    cases a' with
    | nil => rfl
    | cons j b =>
      obtain ⟨⟨q1, q2, -⟩, -⟩ := List.isChain_cons_cons.1 h4
      exact absurd q2 (h5 i rfl j q1 (h2 j (by simp)))
  | cons j a ih =>
    intro i a' h1 h2 h3 h4 h5 h6
    obtain ⟨⟨q1, q2, q3⟩, r1⟩ := List.isChain_cons_cons.1 h3
    cases a' with
    | nil => exact absurd q2 (h6 i rfl j q1 (h1 j (by simp)))
    | cons j' b =>
      obtain ⟨⟨p1, p2, p3⟩, r2⟩ := List.isChain_cons_cons.1 h4
      have e : j = j' := by
        rcases lt_trichotomy j j' with hh | hh | hh
        · exact absurd q2 (p3 j q1 hh)
        · exact hh
        · exact absurd p2 (q3 j' p1 hh)
      subst e
      rw [ih j b (fun x hx => h1 x (by simp [List.mem_cons] at hx ⊢; tauto)) (fun x hx => h2 x (by simp [List.mem_cons] at hx ⊢; tauto)) r1 r2
        (fun x hx => h5 x (by rw [List.getLast?_cons_cons]; exact hx)) (fun x hx => h6 x (by rw [List.getLast?_cons_cons]; exact hx))]

/-- **C116** Times and number of iterations determine the iterations in which a timer is due. -/
theorem Snapshots.unique {strict : Bool} {limit : ℝ} {t : ℕ → ℝ} {N : ℕ} {l l' : List ℕ} (h : Snapshots strict limit t N l) (h' : Snapshots strict limit t N l') : l = l' := by
  by_cases hN : N = 0
  · subst hN
    have e : ∀ l : List ℕ, (∀ i ∈ l, i < 0) → l = [] := by
      intro l hl
      cases l with
      | nil => rfl
      | cons a b => exact absurd (hl a (by simp)) (by omega)
    rw [e l h.lt, e l' h'.lt]
  · have h1 := h.first hN
    have h2 := h'.first hN
    cases l with
    | nil => simp at h1
    | cons i a =>
      cases l' with
      | nil => simp at h2
      | cons i' a' =>
        simp only [List.head?_cons, Option.some.injEq] at h1 h2
        subst h1 h2
        rw [snapshots_from a 0 a' h.lt h'.lt h.next h'.next h.last h'.last]

/-! ## Construction -/

section
variable {T : Cart2} [NeZero T.gy] [NeZero T.gx] {z : CylArgs} {n py px : ℕ} {K : Kern2} {tol lagDx : ℝ} {ord : List C2 → List C2} {junk X : LagField ℝ} {o : ℕ → CScheds2}

omit [NeZero T.gy] [NeZero T.gx] in
theorem cyl_fit (hT : simCheck2 (z.sim py px) = .ok T) (hslab : py = 1 ∨ px = 1) (hny : 4 ≤ T.ny) (hnx : 4 ≤ T.nx) : Fit2 (z.sim py px) T :=
  ⟨hT, ⟨le_refl _, fun _ => ⟨hslab, 2, rfl⟩⟩, rfl, hny, hnx, le_trans (by change 2 ≤ 4; norm_num) hny, le_trans (by change 2 ≤ 4; norm_num) hnx⟩

/-- **C116** Simulator and interactor can be constructed. -/
theorem cylinder2_starts (hx : 56 ≤ z.gx) (hy : 6 * z.gx + 500 < 100 * z.gy) (htopo : Topology2 n z.dist (z.sim py px)) (hT : simCheck2 (z.sim py px) = .ok T)
    (hny : 4 ≤ T.ny) (hnx : 4 ≤ T.nx) (hX : OnCylinder z X) : ∃ S : CSt2 T Unit, CylStart z n py px (z.body lagDx ord junk) X S := by
  obtain ⟨hc, -⟩ := simCheck2_cart' hT
  obtain ⟨-, e2, -⟩ := construct2_ok hc
  have hgp : (0 : ℝ) < z.gx := by exact_mod_cast (by omega : 0 < z.gx)
  have hd : simDx2 T 1 = 1 / z.gx := by unfold simDx2; rw [e2]; rfl
  obtain ⟨s, hs⟩ := (ibInit2_ok_iff hc (by omega) (by omega) (dx := 1 / (z.gx : ℝ)) (by positivity) (g := 2) (k := 1) (cylinder_inside hx hy hX lagDx ord junk) 0).2 ⟨rfl, le_refl _⟩
  exact ⟨⟨simInit2 T 1 0 0 0, fun _ => s, []⟩, htopo, hT, ⟨_, _, rfl⟩, by rw [hd]; exact hs, rfl⟩

theorem CylStart.fixed (hre : 0 < z.re) (hx : 56 ≤ z.gx) (hy : 6 * z.gx + 500 < 100 * z.gy) (hslab : py = 1 ∨ px = 1) (hny : 4 ≤ T.ny) (hnx : 4 ≤ T.nx) (hX : OnCylinder z X)
    (hord : ∀ l, SlaveSet l (0, 0) (ord l)) (htol : 0 < tol) (hK : K.Local) (hK0 : ∀ r, K.upd r (fun _ _ => 0) = 0)
    (ho : ∀ n, (o n).Done T (simCfg2 (z.sim py px) T 1 z.nu 0.1).d) {S : CSt2 T Unit} (hS : CylStart z n py px (z.body lagDx ord junk) X S) :
    Fixed2 (z.sim py px) 1 z.nu 0.1 tol K (fun _ => z.body lagDx ord junk) (fun _ => X) (fun _ => 0) 0 (fun _ _ => 0) (fun _ _ _ => 0) S o () := by
  have hin := cylinder_inside hx hy hX lagDx ord junk
  have hin0 : Inside2 z.gy z.gx 0 (1 / z.gx) (z.body lagDx ord junk) X := by
    intro i hi G hG
    have := hin i hi G hG
    unfold Away2 at this ⊢
    push_cast at this ⊢; omega
  refine ⟨⟨cyl_fit hS.cart hslab hny hnx, rfl, fun _ => hord, fun _ => hin0, fun _ => hS.ib, ?_, hS.log⟩, hin, rfl, ho, one_pos, ?_, by norm_num, htol, hK, hK0⟩
  · obtain ⟨dbl0, conv0, e⟩ := hS.sim
    exact ⟨dbl0, conv0, e⟩
  · unfold CylArgs.nu CylArgs.radius CylArgs.speed
    positivity

/-! ## The run -/

/-- **C116** The driver with any of its arguments: a grid wide enough for the cylinder, any slab decomposition with blocks of at least 4 × 4 cells.  The `n`-th iteration begins at
the time `t n` of the run on one global grid.  If the loop ends it ends without exception, in the first iteration that would begin at the final time or later; the log lines and
the drag coefficients are those of the global run, in the iterations when they are due; the fields on all ranks are those of the global run. If velocities stay bounded it ends. -/
theorem cylinder2_run (hre : 0 < z.re) (hx : 56 ≤ z.gx) (hy : 6 * z.gx + 500 < 100 * z.gy) (hslab : py = 1 ∨ px = 1) (hny : 4 ≤ T.ny) (hnx : 4 ≤ T.nx) (hX : OnCylinder z X)
    (hord : ∀ l, SlaveSet l (0, 0) (ord l)) (htol : 0 < tol) (hK : K.Local) (hK0 : ∀ r, K.upd r (fun _ _ => 0) = 0)
    {C : Cfg2} (hC : C = simCfg2 (z.sim py px) T 1 z.nu 0.1) (ho : ∀ n, (o n).Done T C.d) {S : CSt2 T Unit} (hS : CylStart z n py px (z.body lagDx ord junk) X S)
    {ref : ℕ → RefC2 Unit} (href : ref = cylRef z K tol lagDx X) {t : ℕ → ℝ} (ht : t = fun n => (ref n).time) :
    (∀ N r, CylRuns z C K tol (z.body lagDx ord junk) o X S N r → (∀ i < N, t i < 0.03 * z.final) ∧ 0.03 * z.final ≤ t N ∧ ∃ S' foto data lines drags,
      r = (((S', foto, lines.map fun i => refCylLine z (ref i)), data, drags.map fun i => refCylDrag (ref i)), none) ∧
      Snapshots false (0.03 * z.final / 50) t N lines ∧ Snapshots false (0.25 * 0.03) t N drags ∧
      S'.sim.time = t N ∧ ∀ c p, Valid2 T c → Inner2 T ((2 : ℕ) : ℤ) p →
        S'.sim.prim c p = (ref N).F.om (globalIx2 T ((2 : ℕ) : ℤ) c p) ∧ ∀ j, S'.sim.vel j c p = (ref N).F.u j (globalIx2 T ((2 : ℕ) : ℤ) c p)) ∧
    ∀ V, (∀ n G, t n < 0.03 * z.final → Dom2 z.gy z.gx G → |(ref n).F.u 0 G| + |(ref n).F.u 1 G| ≤ V) →
      ∃ N ≤ ⌈0.03 * z.final / leastDt 4 0.1 tol (1 / z.gx) (0.03 / z.re) 1 V⌉₊, ∃ r, CylRuns z C K tol (z.body lagDx ord junk) o X S N r := by
  subst hC
  rw [← z.tEnd_eq, ← z.nu_eq]
  have h := hS.fixed hre hx hy hslab hny hnx hX hord htol hK hK0 ho
  obtain ⟨hT, -⟩ := simCheck2_cart' h.setup.fit.built
  obtain ⟨e1, e2, -⟩ := construct2_ok hT
  set C := simCfg2 (z.sim py px) T 1 z.nu 0.1 with hC
  set a := z.body lagDx ord junk with ha
  set st := fixedState2 C K tol (fun _ => a) o () X 1 z.stream S with hst
  have hh : ∀ n, CHolds2 z.gy z.gx C (fun _ => a) (ref n) (st n) := by
    intro n
    obtain ⟨-, q⟩ := h.run (pre := 1) (fs := z.stream) (k := .stop) (fun _ => trivial) trivial n
    have e := (same_bodies2 (A := fun _ : Unit => z.body lagDx id fun _ _ => 0) (A' := fun _ : Unit => a) (fun _ => rfl) ⟨z.gy, z.gx, 1, z.nu, 2, true⟩ K 0.1 tol T
      (fixedProg2 () X 1 z.stream n .stop) (refStart2 (1 / z.gx) (fun _ => X) (fun _ => 0) 0 (fun _ _ => 0) fun _ _ _ => 0)).1
    rw [href]
    unfold cylRef
    rw [← z.nu_eq]
    exact (congrArg (fun r => CHolds2 z.gy z.gx C (fun _ => a) r (st n)) e).mp q
  have hok : Ready2 z.gy z.gx py px T C K tol (fun _ : Unit => a) := by
    refine ⟨hT, h.setup.fit.good one_pos z.nu 0.1, h.setup.fit.dbl 1 z.nu 0.1 ?_, rfl, h.cfl, h.nu, htol, hK, hK0, fun _ => ⟨rfl, hord⟩⟩
    change "navier_stokes_with_forcing" ≠ "passive_scalar"
    simp
  have htime : ∀ n, (st n).sim.time = t n := fun n => by rw [ht]; exact (hh n).time
  have hline : ∀ n, cylLine z C a.m (st n) = refCylLine z (ref n) := by
    intro n
    have q := rodShot2_holds (R := (⟨fun _ _ _ => (), fun _ _ _ _ => (), fun _ _ _ => (), fun _ => X, fun _ _ _ => 0⟩ : Stepper Unit)) (b := ()) hok (q := (ref n, ())) (hh n)
    unfold rodShot2 refShot2 at q
    simp only [RodShot.mk.injEq] at q
    obtain ⟨q1, q2, q3, -⟩ := q
    unfold cylLine refCylLine
    rw [← z.tEnd_eq]
    rw [q1, q2]
    exact congrArg _ q3
  have hdrag : ∀ n, ((st n).sim.time / z.timescale, cylDrag z (st n)) =
      refCylDrag (ref n) := by
    intro n
    rw [htime, ht]
    unfold cylDrag refCylDrag
    rw [z.drag_eq, z.timescale_eq]
    have q : nodeTotal 60 (((st n).ib ()).v.gforce 0) = ∑ l ∈ Finset.range 60, ((ref n).hist ()).F 0 l := by
      apply Finset.sum_congr rfl
      intro l hl
      exact ((hh n).ib ()).stores.force 0 (by norm_num [Ib2.vbf]) l (Finset.mem_range.1 hl)
    rw [q]
  have hdt : ∀ n, fixedDt2 C tol 1 n (st n) = .ok ((st (n + 1)).sim.time - (st n).sim.time) := fun n => by
    obtain ⟨M, -, q, -⟩ := h.dt (fs := z.stream) one_pos n
    exact q
  have hpos : ∀ n, 0 < (st (n + 1)).sim.time - (st n).sim.time := fun n => by
    obtain ⟨M, -, -, q2, q3⟩ := h.dt (fs := z.stream) one_pos n
    have q4 : (st (n + 1)).sim.time - (st n).sim.time = _ := q2
    rw [q4]; exact q3
  set dt := fun i => (st (i + 1)).sim.time - (st i).sim.time with hdtd
  have hs1 := snapBody_states (shot := cylLine z C a.m) (it := st) (fun i => h.next i) hdt false (z.tEnd / 50)
  have hs2 := snapBody_states (shot := fun s : CSt2 T Unit × ℝ × List CylLine => (s.1.sim.time / z.timescale, cylDrag z s.1)) (dtOf := fun i s => fixedDt2 C tol 1 i s.1)
    (it := fun i => (st i, snapSeq false (z.tEnd / 50) (fun i => cylLine z C a.m (st i)) dt i)) hs1 hdt false (0.25 * z.timescale)
  have hstep : ∀ n, t (n + 1) = t n + dt n := fun n => by rw [hdtd]; simp only [htime]; ring
  refine ⟨?_, ?_⟩
  · intro N r hw
    obtain ⟨-, w2, w3, w4⟩ := hw.states (it := fun i => ((st i, snapSeq false (z.tEnd / 50) (fun i => cylLine z C a.m (st i)) dt i),
      snapSeq false (0.25 * z.timescale) (fun i => ((st i).sim.time / z.timescale, cylDrag z (st i))) dt i)) rfl hs2
    obtain ⟨lines, p1, p2, -⟩ := snapSeq_spec (strict := false) (limit := z.tEnd / 50) (t := t) (v := fun i => cylLine z C a.m (st i)) hpos hstep N
    obtain ⟨drags, d1, d2, -⟩ := snapSeq_spec (strict := false) (limit := 0.25 * z.timescale) (t := t) (v := fun i => ((st i).sim.time / z.timescale, cylDrag z (st i))) hpos hstep N
    rw [← z.timescale_eq]
    refine ⟨fun i hi => by rw [← htime]; exact w2 i (Nat.zero_le _) hi, by rw [← htime]; exact not_lt.1 w3, st N, (snapSeq false (z.tEnd / 50) (fun i => cylLine z C a.m (st i)) dt N).1, (snapSeq false (0.25 * z.timescale) (fun i => ((st i).sim.time / z.timescale, cylDrag z (st i))) dt N).1, lines, drags, ?_, p1, d1, htime N, ?_⟩
    · rw [w4]
      simp only [hline, hdrag] at p2 d2 ⊢
      rw [← p2, ← d2]
    · intro c p hc hp
      exact ⟨(hh N).sim.om c p hc (inArr_of_inner2 hp) (Or.inl hp), fun j => (hh N).sim.u j c p hc (inArr_of_inner2 hp) (Or.inl hp)⟩
  · intro V hV
    have hgp : (0 : ℝ) < z.gx := by exact_mod_cast (by omega : 0 < z.gx)
    have hdx : 0 < 1 / (z.gx : ℝ) := by positivity
    have hl : ∀ n, t n < z.tEnd → t n + leastDt 4 0.1 tol (1 / z.gx) z.nu 1 V ≤ t (n + 1) ∧ 0 < leastDt 4 0.1 tol (1 / z.gx) z.nu 1 V := by
      intro n hn
      obtain ⟨M, ⟨⟨c, p, hc, hp, hMe⟩, -⟩, -, q2, -⟩ := h.dt (fs := z.stream) one_pos n
      have hu : ∀ j, (st n).sim.vel j c p = (ref n).F.u j (globalIx2 T ((2 : ℕ) : ℤ) c p) := fun j => (hh n).sim.u j c p hc (inArr_of_inner2 hp) (Or.inl hp)
      have hMV : M ≤ V := by
        rw [hMe]
        have q := hV n _ hn ((dom2_iff hT _).2 (inner_inDomain2 hT hc hp))
        rw [← hu, ← hu] at q
        exact q
      have hM0 : 0 ≤ M := by rw [hMe]; positivity
      refine ⟨?_, leastDt_pos (by norm_num) h.cfl h.tol hdx h.nu one_pos (hM0.trans hMV)⟩
      have q4 : (st (n + 1)).sim.time - (st n).sim.time = leastDt 4 0.1 tol (1 / z.gx) z.nu 1 M := q2
      have q5 := leastDt_mono (d := 4) (nu := z.nu) h.cfl h.tol hdx (one_pos) hM0 hMV
      rw [htime, htime] at q4
      linarith
    obtain ⟨N, hN, hE, hB⟩ := clock_reaches (t := t) z.tEnd hl
    have ht0 : t 0 = 0 := by rw [ht, href]; rfl
    rw [ht0, sub_zero] at hN
    exact ⟨N, hN, _, While.of_states (it := fun i => ((st i, snapSeq false (z.tEnd / 50) (fun i => cylLine z C a.m (st i)) dt i),
      snapSeq false (0.25 * z.timescale) (fun i => ((st i).sim.time / z.timescale, cylDrag z (st i))) dt i)) (Nat.zero_le N)
      (fun i _ hi => by change (st i).sim.time < z.tEnd; rw [htime]; exact hB i hi) (fun i _ _ => hs2 i) (by change ¬ (st N).sim.time < z.tEnd; rw [htime]; exact not_lt.2 hE)⟩

/-- **C116** On two decompositions the driver reports the same: as many iterations, the same log lines and drag coefficients, the same fields in the same cells. -/
theorem cylinder2_same {T' : Cart2} [NeZero T'.gy] [NeZero T'.gx] {n' py' px' : ℕ} {ord' : List C2 → List C2} {junk' : LagField ℝ} {o' : ℕ → CScheds2}
    (hre : 0 < z.re) (hx : 56 ≤ z.gx) (hy : 6 * z.gx + 500 < 100 * z.gy) (hX : OnCylinder z X) (htol : 0 < tol) (hK : K.Local) (hK0 : ∀ r, K.upd r (fun _ _ => 0) = 0)
    (hslab : py = 1 ∨ px = 1) (hny : 4 ≤ T.ny) (hnx : 4 ≤ T.nx) (hord : ∀ l, SlaveSet l (0, 0) (ord l))
    (hslab' : py' = 1 ∨ px' = 1) (hny' : 4 ≤ T'.ny) (hnx' : 4 ≤ T'.nx) (hord' : ∀ l, SlaveSet l (0, 0) (ord' l))
    (ho : ∀ n, (o n).Done T (simCfg2 (z.sim py px) T 1 z.nu 0.1).d) (ho' : ∀ n, (o' n).Done T' (simCfg2 (z.sim py' px') T' 1 z.nu 0.1).d)
    {S : CSt2 T Unit} (hS : CylStart z n py px (z.body lagDx ord junk) X S) {S' : CSt2 T' Unit} (hS' : CylStart z n' py' px' (z.body lagDx ord' junk') X S')
    {N N' : ℕ} {r : ((CSt2 T Unit × ℝ × List CylLine) × ℝ × List (ℝ × ℝ)) × Option PyErr} {r' : ((CSt2 T' Unit × ℝ × List CylLine) × ℝ × List (ℝ × ℝ)) × Option PyErr}
    (hr : CylRuns z (simCfg2 (z.sim py px) T 1 z.nu 0.1) K tol (z.body lagDx ord junk) o X S N r)
    (hr' : CylRuns z (simCfg2 (z.sim py' px') T' 1 z.nu 0.1) K tol (z.body lagDx ord' junk') o' X S' N' r') :
    N = N' ∧ r.2 = none ∧ r'.2 = none ∧ r.1.1.2.2 = r'.1.1.2.2 ∧ r.1.2.2 = r'.1.2.2 ∧ r.1.1.1.sim.time = r'.1.1.1.sim.time ∧
      ∀ c p c' p', Valid2 T c → Inner2 T ((2 : ℕ) : ℤ) p → Valid2 T' c' → Inner2 T' ((2 : ℕ) : ℤ) p' → globalIx2 T ((2 : ℕ) : ℤ) c p = globalIx2 T' ((2 : ℕ) : ℤ) c' p' →
        r.1.1.1.sim.prim c p = r'.1.1.1.sim.prim c' p' ∧ ∀ j, r.1.1.1.sim.vel j c p = r'.1.1.1.sim.vel j c' p' := by
  obtain ⟨a1, a2, R, f, d, l, g, rfl, a3, a4, a5, a6⟩ := (cylinder2_run hre hx hy hslab hny hnx hX hord htol hK hK0 rfl ho hS rfl rfl).1 N r hr
  obtain ⟨b1, b2, R', f', d', l', g', rfl, b3, b4, b5, b6⟩ := (cylinder2_run hre hx hy hslab' hny' hnx' hX hord' htol hK hK0 rfl ho' hS' rfl rfl).1 N' r' hr'
  have e : N = N' := by
    rcases lt_trichotomy N N' with h | h | h
    · exact absurd (b1 N h) (not_lt.2 a2)
    · exact h
    · exact absurd (a1 N' h) (not_lt.2 b2)
  subst e
  obtain rfl := a3.unique b3
  obtain rfl := a4.unique b4
  refine ⟨rfl, rfl, rfl, rfl, rfl, a5.trans b5.symm, fun c p c' p' hc hp hc' hp' hg => ?_⟩
  obtain ⟨u1, u2⟩ := a6 c p hc hp
  obtain ⟨v1, v2⟩ := b6 c' p' hc' hp'
  refine ⟨?_, fun j => ?_⟩
  · exact u1.trans ((congrArg _ hg).trans v1.symm)
  · exact (u2 j).trans ((congrArg _ hg).trans (v2 j).symm)

/-- **C116** Without `rank_distribution` the driver starts on `n` ranks if `n` divides the rows of the grid with at least 4 for each rank, and the decomposition is one into slabs. -/
theorem cylinder2_default (hd : z.dist = none) (hx : 56 ≤ z.gx) (hy : 6 * z.gx + 500 < 100 * z.gy) (hn : n ∣ z.gy) (h4 : 4 * n ≤ z.gy) :
    ∃ T : Cart2, ∃ (_ : NeZero T.gy) (_ : NeZero T.gx), Topology2 n z.dist (z.sim n 1) ∧ simCheck2 (z.sim n 1) = .ok T ∧ 4 ≤ T.ny ∧ 4 ≤ T.nx ∧
      ∀ X, OnCylinder z X → ∃ S : CSt2 T Unit, CylStart z n n 1 (z.body lagDx ord junk) X S := by
  have ht : Topology2 n z.dist (z.sim n 1) := by rw [hd]; exact (topology2_default n _).2 ⟨rfl, rfl⟩
  obtain ⟨T, hT⟩ := (simCheck2_ok_iff (z.sim n 1)).2 ⟨Or.inr (Or.inr rfl), Nat.mod_eq_zero_of_dvd hn, Nat.mod_one _⟩
  obtain ⟨hc, -⟩ := simCheck2_cart' hT
  obtain ⟨e1, e2, e3, e4, -, e5, e6⟩ := construct2_ok hc
  have e1' : T.gy = z.gy := e1
  have e2' : T.gx = z.gx := e2
  have e3' : T.py = n := e3
  have e4' : T.px = 1 := e4
  have hn0 : 0 < n := Nat.pos_of_ne_zero (by rintro rfl; rw [zero_dvd_iff] at hn; omega)
  have hny : 4 ≤ T.ny := by
    rw [e3', e1'] at e5
    by_contra hlt
    have : n * T.ny ≤ n * 3 := Nat.mul_le_mul_left n (by omega)
    omega
  have hnx : 4 ≤ T.nx := by rw [e4', e2', one_mul] at e6; omega
  have i1 : NeZero T.gy := ⟨by omega⟩
  have i2 : NeZero T.gx := ⟨by omega⟩
  exact ⟨T, i1, i2, ht, hT, hny, hnx, fun X hX => cylinder2_starts hx hy ht hT hny hnx hX⟩

/-- the nodes of a circle are on the cylinder -/
example (z : CylArgs) (θ : ℕ → ℝ) : OnCylinder z fun k i => if k = 0 then z.cx + z.radius * Real.cos (θ i) else z.cy + z.radius * Real.sin (θ i) := by
  refine (z.on_iff _).2 ?_
  intro i _
  have hr : (0 : ℝ) ≤ z.radius := by unfold CylArgs.radius; norm_num
  constructor
  · simp only [if_true, add_sub_cancel_left, abs_mul, abs_of_nonneg hr]
    exact mul_le_of_le_one_right hr (Real.abs_cos_le_one _)
  · simp only [one_ne_zero, if_false, add_sub_cancel_left, abs_mul, abs_of_nonneg hr]
    exact mul_le_of_le_one_right hr (Real.abs_sin_le_one _)

/-- the driver as called (FPC.py: grid 256 × 512, Reynolds number 200) on 16 ranks -/
example (X : LagField ℝ) (hX : OnCylinder ⟨1, 256, 512, 200, -5e4, -20, none⟩ X) : ∃ T : Cart2, ∃ (_ : NeZero T.gy) (_ : NeZero T.gx), ∃ S : CSt2 T Unit,
    CylStart ⟨1, 256, 512, 200, -5e4, -20, none⟩ 16 16 1 (CylArgs.body ⟨1, 256, 512, 200, -5e4, -20, none⟩ 0.003 (fun l => l.dedup.filter (· ≠ (0, 0))) fun _ _ => 7) X S := by
  obtain ⟨T, i1, i2, -, -, -, -, h⟩ := cylinder2_default (z := ⟨1, 256, 512, 200, -5e4, -20, none⟩) (n := 16) (lagDx := 0.003) (ord := fun l => l.dedup.filter (· ≠ (0, 0)))
    (junk := fun _ _ => 7) rfl (by norm_num) (by norm_num) (by norm_num) (by norm_num)
  obtain ⟨S, hS⟩ := h X hX
  exact ⟨T, i1, i2, S, hS⟩

end

end Sopht
