import Verif.Placement2D
import Verif.BodyBudget2D

/-!
# Size and place of the grid for flows with immersed bodies, 2D (C112)

`Placement2D` compares flows with given forcings. Here the forcing comes from immersed bodies (immersed_body_flow_interaction_mpi.py:114-180), and the bodies move along.
-/

namespace Sopht
open Finset

variable {B : Type} [DecidableEq B]

/-! ## Specification -/

/-- Positions (x, y, …) moved by `s` = (rows, columns) cells of width `dx`. -/
noncomputable def movePos2 (s : C2) (dx : ℝ) (X : LagField ℝ) : LagField ℝ := fun k i => if k = 0 then X k i + s.2 * dx else if k = 1 then X k i + s.1 * dx else X k i

/-- The driver with all bodies moved: same calls in the same order, positions moved. -/
noncomputable def moveProg2 (s : C2) (dx : ℝ) : Prog2 B → Prog2 B
  | .stop => .stop
  | .interact b X U k => .interact b (movePos2 s dx X) U (moveProg2 s dx k)
  | .forces b X U k => .forces b (movePos2 s dx X) U fun f => moveProg2 s dx (k f)
  | .advance b dt k => .advance b dt (moveProg2 s dx k)
  | .flow dt fs k => .flow dt fs (moveProg2 s dx k)
  | .stableDt pre k => .stableDt pre fun dt => moveProg2 s dx (k dt)
  | .deviation b k => .deviation b fun e => moveProg2 s dx (k e)
  | .maxVort k => .maxVort fun x => moveProg2 s dx (k x)
  | .ghost k => .ghost (moveProg2 s dx k)
  | .out x k => .out x (moveProg2 s dx k)

/-- The driver does not ask for stable time steps (they depend on the largest velocity of the grid, also far away from the body). -/
def Given2 : Prog2 B → Prop
  | .stop => True
  | .interact _ _ _ k => Given2 k
  | .forces _ _ _ k => ∀ f, Given2 (k f)
  | .advance _ _ k => Given2 k
  | .flow _ _ k => Given2 k
  | .stableDt _ _ => False
  | .deviation _ k => ∀ e, Given2 (k e)
  | .maxVort k => ∀ x, Given2 (k x)
  | .ghost k => Given2 k
  | .out _ k => Given2 k

/-- Along a run of the driver, bodies are off the outermost cells when forces on them are asked for. -/
def Clear2 (P : Params2) (K : Kern2) (cfl tol : ℝ) (A : B → Ib2) : Prog2 B → RefC2 B → Prop
  | .stop, _ => True
  | .interact b X U k, r => Clear2 P K cfl tol A k (refFull2 P.dx (A b) b X U r)
  | .forces b X U k, r => Inside2 P.gy P.gx 1 P.dx (A b) X ∧
      Clear2 P K cfl tol A (k (refForceField (A b).N (refLag2 P.dx (A b) r.F.u X U (r.hist b)))) (refForces2 P.dx (A b) b X U r)
  | .advance b dt k, r => Clear2 P K cfl tol A k
      { r with hist := Function.update r.hist b { r.hist b with P := fun k i => (r.hist b).P k i + dt * (r.hist b).V k i, t := (r.hist b).t + dt } }
  | .flow dt fs k, r => Clear2 P K cfl tol A k
      { r with F := refForcing2 P K dt fs r.Φ r.F, Φ := fun _ _ => 0, time := r.time + dt, fresh := false }
  | .stableDt pre k, r => Clear2 P K cfl tol A (k (refDt2 P cfl tol r.F (.stable pre))) r
  | .deviation b k, r => Clear2 P K cfl tol A (k (refDeviation 2 (A b).N (r.hist b))) r
  | .maxVort k, r => Clear2 P K cfl tol A (k (sSup {x | ∃ G, Dom2 P.gy P.gx G ∧ x = r.F.om G})) r
  | .ghost k, r => Clear2 P K cfl tol A k { r with fresh := true }
  | .out x k, r => Clear2 P K cfl tol A k { r with log := r.log ++ [x] }

/-! ## Interpolation and spreading -/

section Nodes
variable {dx : ℝ} (hdx : dx ≠ 0) (s : C2)
include hdx

theorem winCells_moved (sh : ℝ) (w : ℕ) (x : ℝ) (n g : ℤ) : g + n ∈ winCells dx sh w (x + n * dx) ↔ g ∈ winCells dx sh w x := by
  have e : cellOf dx sh (x + n * dx) = cellOf dx sh x + n := by
    unfold cellOf
    rw [← Int.floor_add_intCast]
    congr 1
    field_simp
    ring
  unfold winCells
  rw [e, Finset.mem_Ioc, Finset.mem_Ioc]
  omega

theorem window2_moved (sh : ℝ) (w : ℕ) (x : ℝ × ℝ) (G : C2) : G + s ∈ window2 dx sh w (x.1 + s.2 * dx, x.2 + s.1 * dx) ↔ G ∈ window2 dx sh w x := by
  unfold window2
  rw [Finset.mem_product, Finset.mem_product]
  simp only [Prod.fst_add, Prod.snd_add]
  rw [winCells_moved hdx, winCells_moved hdx]

omit hdx in
theorem cellWeight2_moved (sh : ℝ) (W : ℝ → ℝ → ℝ) (x : ℝ × ℝ) (G : C2) :
    cellWeight2 dx sh W (x.1 + s.2 * dx, x.2 + s.1 * dx) (G + s) = cellWeight2 dx sh W x G := by
  unfold cellWeight2
  simp only [Prod.fst_add, Prod.snd_add]
  push_cast
  congr 1 <;> ring

theorem share2n_moved (sh : ℝ) (w : ℕ) (W : ℝ → ℝ → ℝ) (x : ℝ × ℝ) (f : ℝ) (G : C2) :
    share2n dx sh w W (G + s) ((x.1 + s.2 * dx, x.2 + s.1 * dx), f) = share2n dx sh w W G (x, f) := by
  unfold share2n
  simp only
  by_cases hG : G ∈ window2 dx sh w x
  · rw [if_pos hG, if_pos ((window2_moved hdx s sh w x G).2 hG), cellWeight2_moved]
  · rw [if_neg hG, if_neg (fun q => hG ((window2_moved hdx s sh w x G).1 q))]

theorem interp2_moved (sh : ℝ) (w : ℕ) (W : ℝ → ℝ → ℝ) {F F' : C2 → ℝ} (x : ℝ × ℝ) (h : ∀ G ∈ window2 dx sh w x, F' (G + s) = F G) :
    interp2 dx sh w W F' (x.1 + s.2 * dx, x.2 + s.1 * dx) = interp2 dx sh w W F x := by
  unfold interp2
  refine Finset.sum_nbij' (fun G => G - s) (fun G => G + s) ?_ ?_ ?_ ?_ ?_
  · intro G hG
    rw [← window2_moved hdx s, sub_add_cancel]
    exact hG
  · intro G hG
    exact (window2_moved hdx s sh w x G).2 hG
  · intro G _; exact sub_add_cancel _ _
  · intro G _; exact add_sub_cancel_right _ _
  · intro G hG
    have hG' : G - s ∈ window2 dx sh w x := by
      rw [← window2_moved hdx s, sub_add_cancel]
      exact hG
    have e := cellWeight2_moved (dx := dx) s sh W x (G - s)
    rw [sub_add_cancel] at e
    rw [← h _ hG', sub_add_cancel, e]

end Nodes

/-! ## The two runs on their global grids -/

/-- The histories of the nodes agree. -/
def SameHist (N : ℕ) (h h' : NodeHist ℝ) : Prop := (∀ k, ∀ i < N, h'.P k i = h.P k i ∧ h'.V k i = h.V k i ∧ h'.F k i = h.F k i) ∧ h'.t = h.t

section Steps
variable {P P' : Params2} {K : Kern2} {s : C2}

/-- The states of the two runs: `n` flow steps to go. -/
structure MovedC2 (P P' : Params2) (A : B → Ib2) (k m : ℕ) (s : C2) (n : ℕ) (r r' : RefC2 B) : Prop where
  F : Moved2 P.gy P.gx P'.gy P'.gx (k + 3 * n) s r.F r'.F
  Φ : ∀ j G, r'.Φ j (G + s) = r.Φ j G
  in1 : ∀ j, Within2 P.gy P.gx m (r.Φ j)
  in2 : ∀ j, Within2 P'.gy P'.gx m (r'.Φ j)
  hist : ∀ b, SameHist (A b).N (r.hist b) (r'.hist b)
  time : r'.time = r.time
  log : r'.log = r.log

theorem mismatch2_moved (hdx0 : P.dx ≠ 0) (hdx : P'.dx = P.dx) {a : Ib2} {X U : LagField ℝ} {u u' : Fin 2 → C2 → ℝ}
    (hu : ∀ j G, Away2 P.gy P.gx 1 G → Away2 P'.gy P'.gx 1 (G + s) → u' j (G + s) = u j G)
    (h1 : Inside2 P.gy P.gx 1 P.dx a X) (h2 : Inside2 P'.gy P'.gx 1 P'.dx a (movePos2 s P.dx X)) (k : ℕ) {i : ℕ} (hi : i < a.N) :
    mismatch2 P'.dx a u' (movePos2 s P.dx X) U k i = mismatch2 P.dx a u X U k i := by
  unfold mismatch2
  rw [hdx]
  congr 1
  have e0 : movePos2 s P.dx X 0 i = X 0 i + s.2 * P.dx := rfl
  have e1 : movePos2 s P.dx X 1 i = X 1 i + s.1 * P.dx := rfl
  rw [e0, e1]
  refine interp2_moved hdx0 s _ _ _ (X 0 i, X 1 i) ?_
  intro G hG
  refine hu _ G (h1 i hi G hG) ?_
  have q := h2 i hi (G + s)
  rw [hdx, e0, e1] at q
  exact q ((window2_moved hdx0 s _ _ (X 0 i, X 1 i) G).2 hG)

theorem sameHist_lag2 (hdx0 : P.dx ≠ 0) (hdx : P'.dx = P.dx) {a : Ib2} {X U : LagField ℝ} {u u' : Fin 2 → C2 → ℝ} {h h' : NodeHist ℝ}
    (hu : ∀ j G, Away2 P.gy P.gx 1 G → Away2 P'.gy P'.gx 1 (G + s) → u' j (G + s) = u j G)
    (h1 : Inside2 P.gy P.gx 1 P.dx a X) (h2 : Inside2 P'.gy P'.gx 1 P'.dx a (movePos2 s P.dx X)) (hh : SameHist a.N h h') :
    SameHist a.N (refLag2 P.dx a u X U h) (refLag2 P'.dx a u' (movePos2 s P.dx X) U h') := by
  refine ⟨fun k i hi => ?_, hh.2⟩
  obtain ⟨q, -⟩ := hh.1 k i hi
  have m := mismatch2_moved (U := U) hdx0 hdx hu h1 h2 k hi
  unfold refLag2
  simp only
  rw [q, m]
  exact ⟨rfl, rfl, rfl⟩

theorem sameHist_update {A : B → Ib2} {hs hs' : B → NodeHist ℝ} (h : ∀ b, SameHist (A b).N (hs b) (hs' b)) {b : B} {x x' : NodeHist ℝ} (hx : SameHist (A b).N x x') (c : B) :
    SameHist (A c).N (Function.update hs b x c) (Function.update hs' b x' c) := by
  by_cases hc : c = b
  · subst hc
    rw [Function.update_self, Function.update_self]
    exact hx
  · rw [Function.update_of_ne hc, Function.update_of_ne hc]
    exact h c

theorem refSpread2_moved {dx : ℝ} (hdx : dx ≠ 0) (a : Ib2) (X : LagField ℝ) {f f' : LagField ℝ} (hf : ∀ k, ∀ i < a.N, f' k i = f k i) {Φ Φ' : Fin 2 → C2 → ℝ}
    (hΦ : ∀ j G, Φ' j (G + s) = Φ j G) (j : Fin 2) (G : C2) : refSpread2 dx a (movePos2 s dx X) f' Φ' j (G + s) = refSpread2 dx a X f Φ j G := by
  unfold refSpread2
  rw [hΦ]
  congr 2
  refine List.map_congr_left fun i hi => ?_
  have e0 : movePos2 s dx X 0 i = X 0 i + s.2 * dx := rfl
  have e1 : movePos2 s dx X 1 i = X 1 i + s.1 * dx := rfl
  rw [e0, e1, hf _ i (List.mem_range.1 hi)]
  exact share2n_moved hdx s _ _ _ (X 0 i, X 1 i) _ G

theorem refForceField_same {N : ℕ} {h h' : NodeHist ℝ} (hh : SameHist N h h') : refForceField N h' = refForceField N h := by
  funext k i
  unfold refForceField
  by_cases c : k < 2 ∧ i < N
  · rw [if_pos c, if_pos c, (hh.1 k i c.2).2.2]
  · rw [if_neg c, if_neg c]

theorem refDeviation_same {d N : ℕ} {h h' : NodeHist ℝ} (hh : SameHist N h h') : refDeviation d N h' = refDeviation d N h := by
  unfold refDeviation
  congr 3
  refine List.map_congr_left fun i hi => ?_
  congr 1
  refine List.map_congr_left fun k _ => ?_
  rw [(hh.1 k i (List.mem_range.1 hi)).1]

theorem maxOm2_moved {gy gx gy' gx' k : ℕ} (hk : 1 ≤ k) (hy : 0 < gy) (hx : 0 < gx) (hy' : 0 < gy') (hx' : 0 < gx') {f f' : C2 → ℝ} (h : ∀ G, f' (G + s) = f G)
    (h1 : Within2 gy gx k f) (h2 : Within2 gy' gx' k f') : sSup {x | ∃ G, Dom2 gy' gx' G ∧ x = f' G} = sSup {x | ∃ G, Dom2 gy gx G ∧ x = f G} := by
  have z1 : f (0, 0) = 0 := h1 _ (by unfold Away2; simp only; omega)
  have z2 : f' (0, 0) = 0 := h2 _ (by unfold Away2; simp only; omega)
  congr 1
  ext x
  constructor
  · rintro ⟨G, hG, rfl⟩
    by_cases c : Dom2 gy gx (G - s)
    · exact ⟨G - s, c, by rw [← h, sub_add_cancel]⟩
    · refine ⟨(0, 0), by unfold Dom2; simp only; omega, ?_⟩
      have q := h (G - s)
      rw [sub_add_cancel] at q
      rw [z1, q]
      exact h1 _ (by unfold Dom2 at c; unfold Away2; omega)
  · rintro ⟨G, hG, rfl⟩
    by_cases c : Dom2 gy' gx' (G + s)
    · exact ⟨G + s, c, (h G).symm⟩
    · refine ⟨(0, 0), by unfold Dom2; simp only; omega, ?_⟩
      rw [z2, ← h]
      exact h2 _ (by unfold Dom2 at c; unfold Away2; omega)

/-- Any driver program. -/
theorem cRef2_moved (hK : K.Local) (hq : Quiet2 K) (hdx0 : P.dx ≠ 0) (hdx : P'.dx = P.dx) (hnu : P'.nu = P.nu) (hfs : P'.freeStream = P.freeStream) (cfl tol : ℝ) (A : B → Ib2)
    {k m : ℕ} (hk : 2 ≤ k) (hw : P.w ≤ k) (hw' : P'.w ≤ k) (hpos : 0 < P.gy ∧ 0 < P.gx ∧ 0 < P'.gy ∧ 0 < P'.gx) (p : Prog2 B) (hg : Given2 p) :
    ∀ (n : ℕ) (r r' : RefC2 B), flowSteps2 P K cfl tol A p r ≤ n → k + 3 * n + 1 ≤ m → Apart2 P K cfl tol A m p r → Apart2 P' K cfl tol A m (moveProg2 s P.dx p) r' →
      Clear2 P K cfl tol A p r → Clear2 P' K cfl tol A (moveProg2 s P.dx p) r' → MovedC2 P P' A k m s n r r' →
      MovedC2 P P' A k m s 0 (cRef2 P K cfl tol A p r) (cRef2 P' K cfl tol A (moveProg2 s P.dx p) r') := by
  have weaken : ∀ {n : ℕ} {r r' : RefC2 B}, MovedC2 P P' A k m s n r r' → MovedC2 P P' A k m s 0 r r' := fun h =>
    ⟨⟨h.F.om, h.F.in1.mono (by omega), h.F.in2.mono (by omega), h.F.u⟩, h.Φ, h.in1, h.in2, h.hist, h.time, h.log⟩
  have less : ∀ {gy gx : ℕ} {dx : ℝ} {a : Ib2} {X : LagField ℝ} {n : ℕ}, k + 3 * n + 1 ≤ m → Inside2 gy gx m dx a X → Inside2 gy gx 1 dx a X := by
    intro gy gx dx a X n hm h i hi G hG
    have q := h i hi G hG
    unfold Away2 at q ⊢
    push_cast
    omega
  induction p with
  | stop => intro n r r' _ _ _ _ _ _ h; exact weaken h
  | interact b X U c ih =>
    intro n r r' hn hm a1 a2 c1 c2 h
    have hs := sameHist_lag2 (U := U) hdx0 hdx h.F.u (less hm a1.1) (less hm a2.1) (h.hist b)
    refine ih hg n (refFull2 P.dx (A b) b X U r) (refFull2 P'.dx (A b) b (movePos2 s P.dx X) U r') hn hm a1.2 a2.2 c1 c2 ?_
    refine ⟨h.F, ?_, spread2_within a1.1 _ h.in1, spread2_within a2.1 _ h.in2, sameHist_update h.hist hs, h.time, h.log⟩
    intro j G
    unfold refFull2
    simp only
    rw [hdx]
    rw [hdx] at hs
    exact refSpread2_moved hdx0 (A b) X (fun k' i hi => (hs.1 k' i hi).2.2) h.Φ j G
  | forces b X U c ih =>
    intro n r r' hn hm a1 a2 c1 c2 h
    have hs := sameHist_lag2 (U := U) hdx0 hdx h.F.u c1.1 c2.1 (h.hist b)
    have ef := refForceField_same hs
    simp only [moveProg2, Apart2] at a2
    simp only [moveProg2, Clear2] at c2
    simp only [moveProg2, cRef2]
    rw [ef] at a2 c2 ⊢
    exact ih _ (hg _) n _ _ hn hm a1 a2 c1.2 c2.2 ⟨h.F, h.Φ, h.in1, h.in2, sameHist_update h.hist hs, h.time, h.log⟩
  | advance b dt c ih =>
    intro n r r' hn hm a1 a2 c1 c2 h
    refine ih hg n _ _ hn hm a1 a2 c1 c2 ⟨h.F, h.Φ, h.in1, h.in2, ?_, h.time, h.log⟩
    refine sameHist_update h.hist ⟨fun k' i hi => ?_, ?_⟩
    · obtain ⟨q1, q2, q3⟩ := (h.hist b).1 k' i hi
      simp only
      rw [q1, q2]
      exact ⟨rfl, rfl, q3⟩
    · simp only
      rw [(h.hist b).2]
  | flow dt fs c ih =>
    intro n r r' hn hm a1 a2 c1 c2 h
    rw [flowSteps2] at hn
    obtain ⟨n, rfl⟩ : ∃ n', n = n' + 1 := ⟨n - 1, by omega⟩
    have hF := h.F
    rw [Nat.mul_succ] at hF
    have st := step2_moved (P := P) (P' := P') (s := s) hK hq "navier_stokes_with_forcing" hdx hnu hfs dt fs (k := k + 3 * n) (by omega) (by omega) (by omega) h.Φ
      (fun j => (h.in1 j).mono (by omega)) (fun j => (h.in2 j).mono (by omega)) hF
    exact ih hg n { r with F := refForcing2 P K dt fs r.Φ r.F, Φ := fun _ _ => 0, time := r.time + dt, fresh := false }
      { r' with F := refForcing2 P' K dt fs r'.Φ r'.F, Φ := fun _ _ => 0, time := r'.time + dt, fresh := false } (by omega) (by omega) a1 a2 c1 c2
      ⟨st, fun _ _ => rfl, fun _ _ _ => rfl, fun _ _ _ => rfl, h.hist, congrArg (· + dt) h.time, h.log⟩
  | stableDt pre c ih => exact absurd hg id
  | deviation b c ih =>
    intro n r r' hn hm a1 a2 c1 c2 h
    have ed : refDeviation 2 (A b).N (r'.hist b) = _ := refDeviation_same (h.hist b)
    simp only [moveProg2, Apart2] at a2
    simp only [moveProg2, Clear2] at c2
    simp only [moveProg2, cRef2]
    rw [ed] at a2 c2 ⊢
    exact ih _ (hg _) n _ _ hn hm a1 a2 c1 c2 h
  | maxVort c ih =>
    intro n r r' hn hm a1 a2 c1 c2 h
    have ed := maxOm2_moved (by omega) hpos.1 hpos.2.1 hpos.2.2.1 hpos.2.2.2 h.F.om h.F.in1 h.F.in2
    simp only [moveProg2, Apart2] at a2
    simp only [moveProg2, Clear2] at c2
    simp only [moveProg2, cRef2]
    rw [ed] at a2 c2 ⊢
    exact ih _ (hg _) n _ _ hn hm a1 a2 c1 c2 h
  | ghost c ih => intro n r r' hn hm a1 a2 c1 c2 h; exact ih hg n _ _ hn hm a1 a2 c1 c2 ⟨h.F, h.Φ, h.in1, h.in2, h.hist, h.time, h.log⟩
  | out x c ih => intro n r r' hn hm a1 a2 c1 c2 h; exact ih hg n _ _ hn hm a1 a2 c1 c2 ⟨h.F, h.Φ, h.in1, h.in2, h.hist, h.time, congrArg (· ++ [x]) h.log⟩

end Steps

/-! ## On the ranks -/

section Ranks
variable {T T' : Cart2} [NeZero T.gy] [NeZero T.gx] [NeZero T'.gy] [NeZero T'.gx]

/-- C112: two flows with the same bodies, the same grid spacing, viscosity and free stream, on grids of possibly different sizes, decompositions and penalty zones; the second has fluid and bodies moved by `s` cells
and is driven by the same calls with the same time steps. Bodies and vorticity stay off the borders of both grids. Then the two runs print the same and reach the same time, and after them the vorticity and the
forcing of the second are those of the first moved by `s` cells, the velocities agree in the cells that are outermost in neither grid, and the forces on every node of every body are the same. -/
theorem coupled2_placement {a a' : SimArgs2} (hfs : a'.freeStream = a.freeStream) {xr xr' : ℝ} (hxr : 0 < xr) (hxr' : 0 < xr') (hdx : xr' / a'.gx = xr / a.gx) {nu cfl : ℝ} (hcfl : 0 ≤ cfl)
    {tol : ℝ} (htol : 0 < tol) {K : Kern2} (hK : K.Local) (hK0 : ∀ r, K.upd r (fun _ _ => 0) = 0) (hq : Quiet2 K)
    {A A' : B → Ib2} (hA : ∀ b, A' b = { A b with m := (A' b).m, ord := (A' b).ord, junk := (A' b).junk })
    {X0 : B → LagField ℝ} {t0 : B → ℝ} {time : ℝ} {om om' : ℝ → ℝ → ℝ} {u u' : Fin 2 → ℝ → ℝ → ℝ} (s : C2)
    {S : CSt2 T B} (h : Setup2 a xr nu cfl A X0 t0 time om u S) {S' : CSt2 T' B} (h' : Setup2 a' xr' nu cfl A' (fun b => movePos2 s (xr / a.gx) (X0 b)) t0 time om' u' S')
    {o o' : ℕ → CScheds2} (ho : ∀ n, (o n).Done T (simCfg2 a T xr nu cfl).d) (ho' : ∀ n, (o' n).Done T' (simCfg2 a' T' xr' nu cfl).d) (p : Prog2 B) (hg : Given2 p)
    {r r' : RefC2 B} (hr : r = refStart2 (xr / a.gx) X0 t0 time om u) (hr' : r' = refStart2 (xr / a.gx) (fun b => movePos2 s (xr / a.gx) (X0 b)) t0 time om' u')
    {P P' : Params2} (hP : P = ⟨a.gy, a.gx, xr, nu, widthOf a.width, a.freeStream⟩) (hP' : P' = ⟨a'.gy, a'.gx, xr', nu, widthOf a'.width, a'.freeStream⟩)
    (hp : Proper2 P K cfl tol A p r) (ht : Tracked2 T P K cfl tol A p r)
    (hp' : Proper2 P' K cfl tol A (moveProg2 s (xr / a.gx) p) r') (ht' : Tracked2 T' P' K cfl tol A (moveProg2 s (xr / a.gx) p) r')
    (k n : ℕ) (hk : 2 ≤ k) (hw : widthOf a.width ≤ k) (hw' : widthOf a'.width ≤ k) (hn : flowSteps2 P K cfl tol A p r ≤ n)
    (hom : ∀ x y, om' (x + s.2 * (xr / a.gx)) (y + s.1 * (xr / a.gx)) = om x y) (hu : ∀ j x y, u' j (x + s.2 * (xr / a.gx)) (y + s.1 * (xr / a.gx)) = u j x y)
    (in1 : Within2 a.gy a.gx (k + 3 * n) r.F.om) (in2 : Within2 a'.gy a'.gx (k + 3 * n) r'.F.om)
    (ap1 : Apart2 P K cfl tol A (k + 3 * n + 1) p r) (ap2 : Apart2 P' K cfl tol A (k + 3 * n + 1) (moveProg2 s (xr / a.gx) p) r')
    (cl1 : Clear2 P K cfl tol A p r) (cl2 : Clear2 P' K cfl tol A (moveProg2 s (xr / a.gx) p) r') :
    let out := cRun2 (simCfg2 a T xr nu cfl) K tol A o p 0 S
    let out' := cRun2 (simCfg2 a' T' xr' nu cfl) K tol A' o' (moveProg2 s (xr / a.gx) p) 0 S'
    out.2 = none ∧ out'.2 = none ∧ out'.1.sim.time = out.1.sim.time ∧ out'.1.log = out.1.log ∧
    (∀ c q c' q', Valid2 T c → Inner2 T ((2 : ℕ) : ℤ) q → Valid2 T' c' → Inner2 T' ((2 : ℕ) : ℤ) q' → globalIx2 T' ((2 : ℕ) : ℤ) c' q' = globalIx2 T ((2 : ℕ) : ℤ) c q + s →
      out'.1.sim.prim c' q' = out.1.sim.prim c q ∧ (∀ j, out'.1.sim.forcing j c' q' = out.1.sim.forcing j c q) ∧
        (Away2 a.gy a.gx 1 (globalIx2 T ((2 : ℕ) : ℤ) c q) → Away2 a'.gy a'.gx 1 (globalIx2 T' ((2 : ℕ) : ℤ) c' q') → ∀ j, out'.1.sim.vel j c' q' = out.1.sim.vel j c q)) ∧
    (∀ c' q', Valid2 T' c' → Inner2 T' ((2 : ℕ) : ℤ) q' → ¬ Dom2 a.gy a.gx (globalIx2 T' ((2 : ℕ) : ℤ) c' q' - s) → out'.1.sim.prim c' q' = 0 ∧ ∀ j, out'.1.sim.forcing j c' q' = 0) ∧
    (∀ c q, Valid2 T c → Inner2 T ((2 : ℕ) : ℤ) q → ¬ Dom2 a'.gy a'.gx (globalIx2 T ((2 : ℕ) : ℤ) c q + s) → out.1.sim.prim c q = 0 ∧ ∀ j, out.1.sim.forcing j c q = 0) ∧
    ∀ b, (∀ l < 2, ∀ i < (A b).N, (out'.1.ib b).v.gforce l i = (out.1.ib b).v.gforce l i) ∧ (out'.1.ib b).v.time = (out.1.ib b).v.time := by
  have hNA : ∀ b, (A' b).N = (A b).N := fun b => by rw [hA b]
  have hpos : 0 < P.gy ∧ 0 < P.gx ∧ 0 < P'.gy ∧ 0 < P'.gx := by
    obtain ⟨hT, -⟩ := simCheck2_cart' h.fit.built
    obtain ⟨e1, e2, -⟩ := construct2_ok hT
    obtain ⟨hT', -⟩ := simCheck2_cart' h'.fit.built
    obtain ⟨f1, f2, -⟩ := construct2_ok hT'
    subst hP hP'
    simp only
    rw [← e1, ← e2, ← f1, ← f2]
    exact ⟨Nat.pos_of_ne_zero (NeZero.ne _), Nat.pos_of_ne_zero (NeZero.ne _), Nat.pos_of_ne_zero (NeZero.ne _), Nat.pos_of_ne_zero (NeZero.ne _)⟩
  have ePdx : P.dx = xr / a.gx := by subst hP; rfl
  have ePdx' : P'.dx = xr / a.gx := by subst hP'; exact hdx
  have hdx0 : P.dx ≠ 0 := by
    rw [ePdx]
    have : 0 < a.gx := by have := hpos.2.1; subst hP; exact this
    exact (div_pos hxr (by exact_mod_cast this)).ne'
  have start : MovedC2 P P' A k (k + 3 * n + 1) s n r r' := by
    subst hr hr'
    refine ⟨⟨fun G => ?_, by subst hP; exact in1, by subst hP'; exact in2, fun j G _ _ => ?_⟩, fun _ _ => rfl, fun _ _ _ => rfl, fun _ _ _ => rfl, fun b => ⟨fun _ _ _ => ⟨rfl, rfl, rfl⟩, rfl⟩, rfl, rfl⟩
    · simp only [refStart2, fieldsFrom2, Prod.fst_add, Prod.snd_add]
      rw [← hom]
      push_cast
      congr 1 <;> ring
    · simp only [refStart2, fieldsFrom2, Prod.fst_add, Prod.snd_add]
      rw [← hu]
      push_cast
      congr 1 <;> ring
  have fin := cRef2_moved (P := P) (P' := P') (s := s) hK hq hdx0 (by rw [ePdx, ePdx']) (by subst hP hP'; rfl) (by subst hP hP'; exact hfs) cfl tol A hk (by subst hP; exact hw) (by subst hP'; exact hw') hpos p hg
    n r r' hn le_rfl ap1 (by rw [ePdx]; exact ap2) cl1 (by rw [ePdx]; exact cl2) start
  rw [ePdx] at fin
  have hind := same_bodies2 hA P' K cfl tol T' (moveProg2 s (xr / a.gx) p) r'
  have E : ∀ r0 : RefC2 B, r0 = refStart2 (xr' / a'.gx) (fun b => movePos2 s (xr / a.gx) (X0 b)) t0 time om' u' → r' = r0 := by
    intro r0 e
    rw [e, hr', hdx]
  obtain ⟨r1, r2, r3, r4, r5⟩ := coupled2_run hxr hcfl htol hK hK0 h ho p (by rw [← hP, ← hr]; exact hp) (by rw [← hP, ← hr]; exact ht)
  obtain ⟨s1, s2, s3, s4, s5⟩ := coupled2_run hxr' hcfl htol hK hK0 h' ho' (moveProg2 s (xr / a.gx) p) (by rw [← hP', ← E _ rfl]; exact hind.2.1.2 hp') (by rw [← hP', ← E _ rfl]; exact hind.2.2.2 ht')
  rw [← hP, ← hr] at r2 r3 r4 r5
  rw [← hP', ← E _ rfl, hind.1] at s2 s3 s4 s5
  generalize cRef2 P K cfl tol A p r = f at fin r2 r3 r4 r5
  generalize cRef2 P' K cfl tol A (moveProg2 s (xr / a.gx) p) r' = f' at fin s2 s3 s4 s5
  have gy1 : P.gy = a.gy := by rw [hP]
  have gx1 : P.gx = a.gx := by rw [hP]
  have gy2 : P'.gy = a'.gy := by rw [hP']
  have gx2 : P'.gx = a'.gx := by rw [hP']
  obtain ⟨m1, m2, m3, m4, m5, m6, m7⟩ := fin
  obtain ⟨n1, n2, n3, n4⟩ := m1
  rw [gy1, gx1] at n2 m3
  rw [gy2, gx2] at n3 m4
  rw [gy1, gx1, gy2, gx2] at n4
  have out0 : ∀ {gy gx k : ℕ} {G : C2}, ¬ Dom2 gy gx G → ¬ Away2 gy gx k G := by
    intro gy gx k G hG
    unfold Dom2 at hG
    unfold Away2
    omega
  intro out out'
  refine ⟨r1, s1, (s2.trans m6).trans r2.symm, (s3.trans m7).trans r3.symm, ?_, ?_, ?_, ?_⟩
  · intro c q c' q' hc hq hc' hq' hG
    obtain ⟨x1, x2⟩ := r4 c q hc hq
    obtain ⟨y1, y2⟩ := s4 c' q' hc' hq'
    refine ⟨?_, fun j => ?_, fun g1 g2 j => ?_⟩
    · refine y1.trans (Eq.trans ?_ x1.symm)
      rw [hG]
      exact n1 _
    · refine (y2 j).2.trans (Eq.trans ?_ (x2 j).2.symm)
      rw [hG]
      exact m2 j _
    · refine (y2 j).1.trans (Eq.trans ?_ (x2 j).1.symm)
      rw [hG] at g2 ⊢
      exact n4 j _ g1 g2
  · intro c' q' hc' hq' hn'
    obtain ⟨y1, y2⟩ := s4 c' q' hc' hq'
    refine ⟨y1.trans ?_, fun j => (y2 j).2.trans ?_⟩
    · have e := n1 (globalIx2 T' ((2 : ℕ) : ℤ) c' q' - s)
      rw [sub_add_cancel] at e
      rw [e]
      exact n2 _ (out0 hn')
    · have e := m2 j (globalIx2 T' ((2 : ℕ) : ℤ) c' q' - s)
      rw [sub_add_cancel] at e
      rw [e]
      exact m3 j _ (out0 hn')
  · intro c q hc hq hn'
    obtain ⟨x1, x2⟩ := r4 c q hc hq
    refine ⟨x1.trans ?_, fun j => (x2 j).2.trans ?_⟩
    · rw [← n1]
      exact n3 _ (out0 hn')
    · rw [← m2]
      exact m4 j _ (out0 hn')
  · intro b
    obtain ⟨x1, x2⟩ := r5 b
    obtain ⟨y1, y2⟩ := s5 b
    refine ⟨fun l hl i hi => (y1 l hl i (by rw [hNA]; exact hi)).trans (((m5 b).1 l i hi).2.2.trans (x1 l hl i hi).symm), y2.trans ((m5 b).2.trans x2.symm)⟩

end Ranks

/-! ## The assumptions hold -/

noncomputable def exProgP : Prog2 Unit :=
  .interact () exPosC (fun _ _ => 0) <| .advance () 0.1 <| .flow 0.1 (fun _ => 1) <| .forces () exPosC (fun _ _ => 0) fun f =>
    .interact () exPosC (fun k _ => f k 0) <| .flow 0.05 (fun _ => 1) .stop

theorem exPosP_inside : Inside2 26 32 9 1 exBody2 (movePos2 (1, 5) 1 exPosC) := by
  intro i hI G hG
  have e : G = (G - ((1, 5) : C2)) + ((1, 5) : C2) := (sub_add_cancel _ _).symm
  have e0 : movePos2 (1, 5) 1 exPosC 0 i = exPosC 0 i + (((1, 5) : C2).2 : ℝ) * 1 := rfl
  have e1 : movePos2 (1, 5) 1 exPosC 1 i = exPosC 1 i + (((1, 5) : C2).1 : ℝ) * 1 := rfl
  rw [e, e0, e1] at hG
  have q := exPosC_inside i hI _ ((window2_moved one_ne_zero (1, 5) _ _ (exPosC 0 i, exPosC 1 i) _).1 hG)
  unfold Away2 at q ⊢
  simp only [Prod.fst_sub, Prod.snd_sub] at q
  push_cast at q ⊢
  omega

theorem exOmC_within : Within2 24 24 8 (fieldsFrom2 1 exOmC fun _ _ _ => 0).om := by
  intro G hG
  unfold fieldsFrom2 exOmC
  simp only [mul_one]
  rw [if_neg]
  rintro ⟨h1, h2, h3, h4⟩
  apply hG
  have q1 : (17 / 2 : ℝ) ≤ G.2 := by linarith
  have q2 : (G.2 : ℝ) ≤ 29 / 2 := by linarith
  have q3 : (17 / 2 : ℝ) ≤ G.1 := by linarith
  have q4 : (G.1 : ℝ) ≤ 29 / 2 := by linarith
  have z1 : (8 : ℤ) ≤ G.2 := by exact_mod_cast (by linarith : (8 : ℝ) ≤ G.2)
  have z2 : G.2 ≤ (15 : ℤ) := by exact_mod_cast (by linarith : (G.2 : ℝ) ≤ 15)
  have z3 : (8 : ℤ) ≤ G.1 := by exact_mod_cast (by linarith : (8 : ℝ) ≤ G.1)
  have z4 : G.1 ≤ (15 : ℤ) := by exact_mod_cast (by linarith : (G.1 : ℝ) ≤ 15)
  unfold Away2
  push_cast
  omega

/-- The assumptions of `coupled2_placement` about grids, flow, body and driver can be met at once: 24 × 24 cells on two ranks, and 26 × 32 cells on four ranks with fluid and body moved by one row and five
columns, in both cases the body lying across a boundary between ranks. -/
theorem exPlace2 [NeZero (⟨24, 24, 1, 2, 24, 12, false⟩ : Cart2).gy] [NeZero (⟨24, 24, 1, 2, 24, 12, false⟩ : Cart2).gx]
    [NeZero (⟨26, 32, 1, 4, 26, 8, false⟩ : Cart2).gy] [NeZero (⟨26, 32, 1, 4, 26, 8, false⟩ : Cart2).gx] (K : Kern2) (nu cfl tol : ℝ) :
    let a : SimArgs2 := ⟨24, 24, 1, 2, "navier_stokes_with_forcing", true, 2, .int 2⟩
    let a' : SimArgs2 := ⟨26, 32, 1, 4, "navier_stokes_with_forcing", true, 2, .int 1⟩
    let s : C2 := (1, 5)
    let P : Params2 := ⟨a.gy, a.gx, 24, nu, widthOf a.width, a.freeStream⟩
    let P' : Params2 := ⟨a'.gy, a'.gx, 32, nu, widthOf a'.width, a'.freeStream⟩
    let om' : ℝ → ℝ → ℝ := fun x y => exOmC (x - 5) (y - 1)
    let u : Fin 2 → ℝ → ℝ → ℝ := fun _ _ _ => 0
    let A : Unit → Ib2 := fun _ => exBody2
    let r : RefC2 Unit := refStart2 ((24 : ℝ) / a.gx) (fun _ => exPosC) (fun _ => 0) 0 exOmC u
    let r' : RefC2 Unit := refStart2 ((24 : ℝ) / a.gx) (fun _ => movePos2 s ((24 : ℝ) / a.gx) exPosC) (fun _ => 0) 0 om' u
    (32 : ℝ) / a'.gx = 24 / a.gx ∧
    (∃ S : CSt2 ⟨24, 24, 1, 2, 24, 12, false⟩ Unit, Setup2 a 24 nu cfl A (fun _ => exPosC) (fun _ => 0) 0 exOmC u S) ∧
    (∃ S : CSt2 ⟨26, 32, 1, 4, 26, 8, false⟩ Unit, Setup2 a' 32 nu cfl A (fun _ => movePos2 s ((24 : ℝ) / a.gx) exPosC) (fun _ => 0) 0 om' u S) ∧
    Given2 exProgP ∧ Proper2 P K cfl tol A exProgP r ∧ Tracked2 ⟨24, 24, 1, 2, 24, 12, false⟩ P K cfl tol A exProgP r ∧
    Proper2 P' K cfl tol A (moveProg2 s ((24 : ℝ) / a.gx) exProgP) r' ∧ Tracked2 ⟨26, 32, 1, 4, 26, 8, false⟩ P' K cfl tol A (moveProg2 s ((24 : ℝ) / a.gx) exProgP) r' ∧
    widthOf a.width ≤ 2 ∧ widthOf a'.width ≤ 2 ∧ flowSteps2 P K cfl tol A exProgP r = 2 ∧
    (∀ x y, om' (x + s.2 * ((24 : ℝ) / a.gx)) (y + s.1 * ((24 : ℝ) / a.gx)) = exOmC x y) ∧
    Within2 a.gy a.gx (2 + 3 * 2) r.F.om ∧ Within2 a'.gy a'.gx (2 + 3 * 2) r'.F.om ∧ r.F.om (11, 11) ≠ 0 ∧
    Apart2 P K cfl tol A (2 + 3 * 2 + 1) exProgP r ∧ Apart2 P' K cfl tol A (2 + 3 * 2 + 1) (moveProg2 s ((24 : ℝ) / a.gx) exProgP) r' ∧
    Clear2 P K cfl tol A exProgP r ∧ Clear2 P' K cfl tol A (moveProg2 s ((24 : ℝ) / a.gx) exProgP) r' := by
  intro a a' s P P' om' u A r r'
  have hdx : P.dx = 1 := by unfold Params2.dx; norm_num [P, a]
  have hdx' : P'.dx = 1 := by unfold Params2.dx; norm_num [P', a']
  have hd1 : (24 : ℝ) / a.gx = 1 := by norm_num [a]
  have hd2 : (32 : ℝ) / a'.gx = 1 := by norm_num [a']
  have hi : ∀ k ≤ 9, Inside2 24 24 k 1 exBody2 exPosC := by
    intro k hk i hI G hG
    have := exPosC_inside i hI G hG
    unfold Away2 at this ⊢
    push_cast at this ⊢; omega
  have hi' : ∀ k ≤ 9, Inside2 26 32 k 1 exBody2 (movePos2 (1, 5) 1 exPosC) := by
    intro k hk i hI G hG
    have := exPosP_inside i hI G hG
    unfold Away2 at this ⊢
    push_cast at this ⊢; omega
  have hslave : ∀ (b : Unit) l, SlaveSet l (A b).m ((A b).ord l) := by
    intro _ l
    refine ⟨?_, ?_⟩
    · exact (List.nodup_dedup l).filter _
    · intro x; simp [A, exBody2]
  refine ⟨by rw [hd1, hd2], ?_, ?_, ?_, ?_, ?_, ?_, ?_, by decide, by decide, ?_, ?_, ?_, ?_, ?_, ?_, ?_, ?_, ?_⟩
  · have hfit : Fit2 a ⟨24, 24, 1, 2, 24, 12, false⟩ := ⟨by decide, ⟨by decide, fun _ => ⟨by decide, 2, rfl⟩⟩, rfl, by decide, by decide, by decide, by decide⟩
    obtain ⟨hT, -⟩ := simCheck2_cart' hfit.built
    have hd : simDx2 ⟨24, 24, 1, 2, 24, 12, false⟩ 24 = 1 := by unfold simDx2; norm_num
    obtain ⟨z, hz⟩ := (ibInit2_ok_iff hT (by decide) (by decide) one_pos (g := a.g) (k := 0) (a := exBody2) (X0 := exPosC) (hi 0 (by omega)) 0).2 ⟨rfl, le_refl 2⟩
    refine ⟨⟨initFrom2 ⟨24, 24, 1, 2, 24, 12, false⟩ a.g 24 0 0 0 exOmC u, fun _ => z, []⟩, hfit, rfl, hslave, ?_, ?_, ⟨_, _, rfl⟩, rfl⟩
    · intro _; rw [hd1]; exact hi 0 (by omega)
    · intro _; rw [hd]; exact hz
  · have hfit : Fit2 a' ⟨26, 32, 1, 4, 26, 8, false⟩ := ⟨by decide, ⟨by decide, fun _ => ⟨by decide, 1, rfl⟩⟩, rfl, by decide, by decide, by decide, by decide⟩
    obtain ⟨hT, -⟩ := simCheck2_cart' hfit.built
    have hd : simDx2 ⟨26, 32, 1, 4, 26, 8, false⟩ 32 = 1 := by unfold simDx2; norm_num
    obtain ⟨z, hz⟩ := (ibInit2_ok_iff hT (by decide) (by decide) one_pos (g := a'.g) (k := 0) (a := exBody2) (X0 := movePos2 (1, 5) 1 exPosC) (hi' 0 (by omega)) 0).2 ⟨rfl, le_refl 2⟩
    refine ⟨⟨initFrom2 ⟨26, 32, 1, 4, 26, 8, false⟩ a'.g 32 0 0 0 om' u, fun _ => z, []⟩, hfit, rfl, hslave, ?_, ?_, ⟨_, _, rfl⟩, rfl⟩
    · intro _; rw [hd1, hd2]; exact hi' 0 (by omega)
    · intro _; rw [hd, hd1]; exact hz
  · unfold exProgP
    simp only [Given2]
    exact fun _ => trivial
  · unfold exProgP
    simp only [Proper2, hdx]
    exact ⟨hi 1 (by omega), Or.inl rfl, hi 0 (by omega), Or.inl rfl, hi 1 (by omega), Or.inl rfl, trivial⟩
  · refine tracked2_still P K cfl tol _ (fun _ => exPosC) _ ?_ _ rfl
    unfold exProgP
    simp only [Still2]
    simp
  · unfold exProgP
    simp only [moveProg2, Proper2, hdx', hd1]
    exact ⟨hi' 1 (by omega), Or.inl rfl, hi' 0 (by omega), Or.inl rfl, hi' 1 (by omega), Or.inl rfl, trivial⟩
  · refine tracked2_still P' K cfl tol _ (fun _ => movePos2 s ((24 : ℝ) / a.gx) exPosC) _ ?_ _ rfl
    unfold exProgP
    simp only [moveProg2, Still2]
    simp
  · unfold exProgP
    simp only [flowSteps2]
  · intro x y
    simp only [om', s, hd1]
    norm_num
  · change Within2 24 24 8 (fieldsFrom2 ((24 : ℝ) / a.gx) exOmC u).om
    rw [hd1]
    exact exOmC_within
  · change Within2 26 32 8 (fieldsFrom2 ((24 : ℝ) / a.gx) om' u).om
    rw [hd1]
    intro G hG
    have q := exOmC_within (G - ((1, 5) : C2)) (by unfold Away2 at hG ⊢; simp only [Prod.fst_sub, Prod.snd_sub]; push_cast at hG ⊢; omega)
    rw [← q]
    simp only [fieldsFrom2, om', Prod.fst_sub, Prod.snd_sub]
    push_cast
    congr 1 <;> ring
  · change (fieldsFrom2 ((24 : ℝ) / a.gx) exOmC u).om (11, 11) ≠ 0
    rw [hd1]
    unfold fieldsFrom2 exOmC
    norm_num
  · unfold exProgP
    simp only [Apart2, hdx]
    exact ⟨hi 9 (by omega), hi 9 (by omega), trivial⟩
  · unfold exProgP
    simp only [moveProg2, Apart2, hdx', hd1]
    exact ⟨hi' 9 (by omega), hi' 9 (by omega), trivial⟩
  · unfold exProgP
    simp only [Clear2, hdx]
    exact ⟨hi 1 (by omega), trivial⟩
  · unfold exProgP
    simp only [moveProg2, Clear2, hdx', hd1]
    exact ⟨hi' 1 (by omega), trivial⟩

end Sopht
