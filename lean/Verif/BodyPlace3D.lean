import Verif.Placement3D
import Verif.BodyBudget3D
import Verif.BodyPlace2D

/-!
# Size and place of the grid for flows with immersed bodies, 3D (C112)

`Placement3D` compares flows with given forcings. Here the forcing comes from immersed bodies (immersed_body_flow_interaction_mpi.py:114-180), and the bodies move along.
-/

namespace Sopht
open Finset

variable {B : Type} [DecidableEq B]

/-! ## Specification -/

/-- Positions (x, y, z) moved by `s` = (z, y, x) cells of width `dx`. -/
noncomputable def movePos3 (s : C3) (dx : ℝ) (X : LagField ℝ) : LagField ℝ := fun k i => if k = 0 then X k i + s.2.2 * dx else if k = 1 then X k i + s.2.1 * dx else if k = 2 then X k i + s.1 * dx else X k i

/-- The driver with all bodies moved: same calls in the same order, positions moved. -/
noncomputable def moveProg3 (s : C3) (dx : ℝ) : Prog3 B → Prog3 B
  | .stop => .stop
  | .interact b X U k => .interact b (movePos3 s dx X) U (moveProg3 s dx k)
  | .forces b X U k => .forces b (movePos3 s dx X) U fun f => moveProg3 s dx (k f)
  | .advance b dt k => .advance b dt (moveProg3 s dx k)
  | .flow dt fs k => .flow dt fs (moveProg3 s dx k)
  | .stableDt pre k => .stableDt pre fun dt => moveProg3 s dx (k dt)
  | .deviation b k => .deviation b fun e => moveProg3 s dx (k e)
  | .maxVort k => .maxVort fun x => moveProg3 s dx (k x)
  | .divNorm k => .divNorm fun x => moveProg3 s dx (k x)
  | .ghost k => .ghost (moveProg3 s dx k)
  | .out x k => .out x (moveProg3 s dx k)

/-- The driver does not ask for stable time steps (they depend on the largest velocity of the grid, also far away from the body). -/
def Given3 : Prog3 B → Prop
  | .stop => True
  | .interact _ _ _ k => Given3 k
  | .forces _ _ _ k => ∀ f, Given3 (k f)
  | .advance _ _ k => Given3 k
  | .flow _ _ k => Given3 k
  | .stableDt _ _ => False
  | .deviation _ k => ∀ e, Given3 (k e)
  | .maxVort k => ∀ x, Given3 (k x)
  | .divNorm k => ∀ x, Given3 (k x)
  | .ghost k => Given3 k
  | .out _ k => Given3 k

/-- Along a run of the driver, bodies are off the outermost cells when forces on them are asked for. -/
def Clear3 (P : Params3) (K : Kern3) (cfl tol : ℝ) (A : B → Ib3) : Prog3 B → RefC3 B → Prop
  | .stop, _ => True
  | .interact b X U k, r => Clear3 P K cfl tol A k (refFull3 P.dx (A b) b X U r)
  | .forces b X U k, r => Inside3 P.gz P.gy P.gx 1 P.dx (A b) X ∧
      Clear3 P K cfl tol A (k (refForceField3 (A b).N (refLag3 P.dx (A b) r.F.u X U (r.hist b)))) (refForces3 P.dx (A b) b X U r)
  | .advance b dt k, r => Clear3 P K cfl tol A k
      { r with hist := Function.update r.hist b { r.hist b with P := fun k i => (r.hist b).P k i + dt * (r.hist b).V k i, t := (r.hist b).t + dt } }
  | .flow dt fs k, r => Clear3 P K cfl tol A k
      { r with F := refForcing3 P K dt fs r.Φ r.F, Φ := fun _ _ => 0, time := r.time + dt, fresh := false }
  | .stableDt pre k, r => Clear3 P K cfl tol A (k (refDt3 P cfl tol r.F (.stable pre))) r
  | .deviation b k, r => Clear3 P K cfl tol A (k (refDeviation 3 (A b).N (r.hist b))) r
  | .maxVort k, r => Clear3 P K cfl tol A (k (sSup {x | ∃ j G, Dom3 P.gz P.gy P.gx G ∧ x = r.F.om j G})) r
  | .divNorm k, r => Clear3 P K cfl tol A (k (refDiv3 P K r.F.om)) r
  | .ghost k, r => Clear3 P K cfl tol A k { r with fresh := true }
  | .out x k, r => Clear3 P K cfl tol A k { r with log := r.log ++ [x] }

/-! ## Interpolation and spreading -/

section Nodes
variable {dx : ℝ} (hdx : dx ≠ 0) (s : C3)
include hdx

theorem window3_moved (sh : ℝ) (w : ℕ) (x : ℝ × ℝ × ℝ) (G : C3) : G + s ∈ window3 dx sh w (x.1 + s.2.2 * dx, x.2.1 + s.2.1 * dx, x.2.2 + s.1 * dx) ↔ G ∈ window3 dx sh w x := by
  unfold window3
  rw [Finset.mem_product, Finset.mem_product, Finset.mem_product, Finset.mem_product]
  simp only [Prod.fst_add, Prod.snd_add]
  rw [winCells_moved hdx, winCells_moved hdx, winCells_moved hdx]

omit hdx in
theorem cellWeight3_moved (sh : ℝ) (W : ℝ → ℝ → ℝ → ℝ) (x : ℝ × ℝ × ℝ) (G : C3) :
    cellWeight3 dx sh W (x.1 + s.2.2 * dx, x.2.1 + s.2.1 * dx, x.2.2 + s.1 * dx) (G + s) = cellWeight3 dx sh W x G := by
  unfold cellWeight3
  simp only [Prod.fst_add, Prod.snd_add]
  push_cast
  congr 1 <;> ring

theorem share3n_moved (sh : ℝ) (w : ℕ) (W : ℝ → ℝ → ℝ → ℝ) (x : ℝ × ℝ × ℝ) (f : ℝ) (G : C3) :
    share3n dx sh w W (G + s) ((x.1 + s.2.2 * dx, x.2.1 + s.2.1 * dx, x.2.2 + s.1 * dx), f) = share3n dx sh w W G (x, f) := by
  unfold share3n
  simp only
  by_cases hG : G ∈ window3 dx sh w x
  · rw [if_pos hG, if_pos ((window3_moved hdx s sh w x G).2 hG), cellWeight3_moved]
  · rw [if_neg hG, if_neg (fun q => hG ((window3_moved hdx s sh w x G).1 q))]

theorem interp3_moved (sh : ℝ) (w : ℕ) (W : ℝ → ℝ → ℝ → ℝ) {F F' : C3 → ℝ} (x : ℝ × ℝ × ℝ) (h : ∀ G ∈ window3 dx sh w x, F' (G + s) = F G) :
    interp3 dx sh w W F' (x.1 + s.2.2 * dx, x.2.1 + s.2.1 * dx, x.2.2 + s.1 * dx) = interp3 dx sh w W F x := by
  unfold interp3
  refine Finset.sum_nbij' (fun G => G - s) (fun G => G + s) ?_ ?_ ?_ ?_ ?_
  · intro G hG
    rw [← window3_moved hdx s, sub_add_cancel]
    exact hG
  · intro G hG
    exact (window3_moved hdx s sh w x G).2 hG
  · intro G _; exact sub_add_cancel _ _
  · intro G _; exact add_sub_cancel_right _ _
  · intro G hG
    have hG' : G - s ∈ window3 dx sh w x := by
      rw [← window3_moved hdx s, sub_add_cancel]
      exact hG
    have e := cellWeight3_moved (dx := dx) s sh W x (G - s)
    rw [sub_add_cancel] at e
    rw [← h _ hG', sub_add_cancel, e]

end Nodes

/-! ## The two runs on their global grids -/

section Steps
variable {P P' : Params3} {K : Kern3} {s : C3}

/-- The fields a flow with forcing uses. -/
def noScalar (F : Fields3) : Fields3 := { F with sc := fun _ => 0 }

/-- The states of the two runs: `n` flow steps to go. -/
structure MovedC3 (P P' : Params3) (A : B → Ib3) (k m : ℕ) (s : C3) (n : ℕ) (r r' : RefC3 B) : Prop where
  F : Moved3 P.gz P.gy P.gx P'.gz P'.gy P'.gx (k + (3 + fltOrder P.flt) * n) s (noScalar r.F) (noScalar r'.F)
  Φ : ∀ j G, r'.Φ j (G + s) = r.Φ j G
  in1 : ∀ j, Within3 P.gz P.gy P.gx m (r.Φ j)
  in2 : ∀ j, Within3 P'.gz P'.gy P'.gx m (r'.Φ j)
  hist : ∀ b, SameHist (A b).N (r.hist b) (r'.hist b)
  time : r'.time = r.time
  log : r'.log = r.log

theorem mismatch3_moved (hdx0 : P.dx ≠ 0) (hdx : P'.dx = P.dx) {a : Ib3} {X U : LagField ℝ} {u u' : Fin 3 → C3 → ℝ}
    (hu : ∀ j G, Away3 P.gz P.gy P.gx 1 G → Away3 P'.gz P'.gy P'.gx 1 (G + s) → u' j (G + s) = u j G)
    (h1 : Inside3 P.gz P.gy P.gx 1 P.dx a X) (h2 : Inside3 P'.gz P'.gy P'.gx 1 P'.dx a (movePos3 s P.dx X)) (k : ℕ) {i : ℕ} (hi : i < a.N) :
    mismatch3 P'.dx a u' (movePos3 s P.dx X) U k i = mismatch3 P.dx a u X U k i := by
  unfold mismatch3
  rw [hdx]
  congr 1
  have e0 : movePos3 s P.dx X 0 i = X 0 i + s.2.2 * P.dx := rfl
  have e1 : movePos3 s P.dx X 1 i = X 1 i + s.2.1 * P.dx := rfl
  have e2 : movePos3 s P.dx X 2 i = X 2 i + s.1 * P.dx := rfl
  rw [e0, e1, e2]
  refine interp3_moved hdx0 s _ _ _ (X 0 i, X 1 i, X 2 i) ?_
  intro G hG
  refine hu _ G (h1 i hi G hG) ?_
  have q := h2 i hi (G + s)
  rw [hdx, e0, e1, e2] at q
  exact q ((window3_moved hdx0 s _ _ (X 0 i, X 1 i, X 2 i) G).2 hG)

theorem sameHist_lag3 (hdx0 : P.dx ≠ 0) (hdx : P'.dx = P.dx) {a : Ib3} {X U : LagField ℝ} {u u' : Fin 3 → C3 → ℝ} {h h' : NodeHist ℝ}
    (hu : ∀ j G, Away3 P.gz P.gy P.gx 1 G → Away3 P'.gz P'.gy P'.gx 1 (G + s) → u' j (G + s) = u j G)
    (h1 : Inside3 P.gz P.gy P.gx 1 P.dx a X) (h2 : Inside3 P'.gz P'.gy P'.gx 1 P'.dx a (movePos3 s P.dx X)) (hh : SameHist a.N h h') :
    SameHist a.N (refLag3 P.dx a u X U h) (refLag3 P'.dx a u' (movePos3 s P.dx X) U h') := by
  refine ⟨fun k i hi => ?_, hh.2⟩
  obtain ⟨q, -⟩ := hh.1 k i hi
  have m := mismatch3_moved (U := U) hdx0 hdx hu h1 h2 k hi
  unfold refLag3
  simp only
  rw [q, m]
  exact ⟨rfl, rfl, rfl⟩

theorem sameHist_update3 {A : B → Ib3} {hs hs' : B → NodeHist ℝ} (h : ∀ b, SameHist (A b).N (hs b) (hs' b)) {b : B} {x x' : NodeHist ℝ} (hx : SameHist (A b).N x x') (c : B) :
    SameHist (A c).N (Function.update hs b x c) (Function.update hs' b x' c) := by
  by_cases hc : c = b
  · subst hc
    rw [Function.update_self, Function.update_self]
    exact hx
  · rw [Function.update_of_ne hc, Function.update_of_ne hc]
    exact h c

theorem refSpread3_moved {dx : ℝ} (hdx : dx ≠ 0) (a : Ib3) (X : LagField ℝ) {f f' : LagField ℝ} (hf : ∀ k, ∀ i < a.N, f' k i = f k i) {Φ Φ' : Fin 3 → C3 → ℝ}
    (hΦ : ∀ j G, Φ' j (G + s) = Φ j G) (j : Fin 3) (G : C3) : refSpread3 dx a (movePos3 s dx X) f' Φ' j (G + s) = refSpread3 dx a X f Φ j G := by
  unfold refSpread3
  rw [hΦ]
  congr 2
  refine List.map_congr_left fun i hi => ?_
  have e0 : movePos3 s dx X 0 i = X 0 i + s.2.2 * dx := rfl
  have e1 : movePos3 s dx X 1 i = X 1 i + s.2.1 * dx := rfl
  have e2 : movePos3 s dx X 2 i = X 2 i + s.1 * dx := rfl
  rw [e0, e1, e2, hf _ i (List.mem_range.1 hi)]
  exact share3n_moved hdx s _ _ _ (X 0 i, X 1 i, X 2 i) _ G

theorem refForceField3_same {N : ℕ} {h h' : NodeHist ℝ} (hh : SameHist N h h') : refForceField3 N h' = refForceField3 N h := by
  funext k i
  unfold refForceField3
  by_cases c : k < 3 ∧ i < N
  · rw [if_pos c, if_pos c, (hh.1 k i c.2).2.2]
  · rw [if_neg c, if_neg c]

theorem maxOm3_moved {gz gy gx gz' gy' gx' k : ℕ} (hk : 1 ≤ k) (hp : 0 < gz ∧ 0 < gy ∧ 0 < gx) (hp' : 0 < gz' ∧ 0 < gy' ∧ 0 < gx') {f f' : Fin 3 → C3 → ℝ} (h : ∀ j G, f' j (G + s) = f j G)
    (h1 : ∀ j, Within3 gz gy gx k (f j)) (h2 : ∀ j, Within3 gz' gy' gx' k (f' j)) : sSup {x | ∃ j G, Dom3 gz' gy' gx' G ∧ x = f' j G} = sSup {x | ∃ j G, Dom3 gz gy gx G ∧ x = f j G} := by
  have z1 : ∀ j, f j (0, 0, 0) = 0 := fun j => h1 j _ (by unfold Away3; simp only; omega)
  have z2 : ∀ j, f' j (0, 0, 0) = 0 := fun j => h2 j _ (by unfold Away3; simp only; omega)
  congr 1
  ext x
  constructor
  · rintro ⟨j, G, hG, rfl⟩
    by_cases c : Dom3 gz gy gx (G - s)
    · exact ⟨j, G - s, c, by rw [← h, sub_add_cancel]⟩
    · refine ⟨j, (0, 0, 0), by unfold Dom3; simp only; omega, ?_⟩
      have q := h j (G - s)
      rw [sub_add_cancel] at q
      rw [z1, q]
      exact h1 j _ fun g => c (away3_dom g)
  · rintro ⟨j, G, hG, rfl⟩
    by_cases c : Dom3 gz' gy' gx' (G + s)
    · exact ⟨j, G + s, c, (h j G).symm⟩
    · refine ⟨j, (0, 0, 0), by unfold Dom3; simp only; omega, ?_⟩
      rw [z2, ← h]
      exact h2 j _ fun g => c (away3_dom g)

/-- The divergence kernel vanishes where the field does. -/
def QuietDiv3 (K : Kern3) : Prop := ∀ a f, (∀ j d, Cross3 1 d → f j d = 0) → K.div a f = 0

theorem serialDiv3_plain (hd : QuietDiv3 K) {gz gy gx : ℕ} (a : ℝ) {om : Fin 3 → C3 → ℝ} (h : ∀ j, Within3 gz gy gx 2 (om j)) (G : C3) :
    serialZero3 gz gy gx false 0 (K.div a) om G = K.div a (fun j d => om j (G + d)) ∧ (¬ Away3 gz gy gx 1 G → K.div a (fun j d => om j (G + d)) = 0) := by
  have z : ¬ Away3 gz gy gx 1 G → K.div a (fun j d => om j (G + d)) = 0 := by
    intro hG
    refine hd a _ fun j d hdd => h j _ fun q => hG ?_
    unfold Away3 at q ⊢
    unfold Cross3 at hdd
    simp only [Prod.fst_add, Prod.snd_add] at q
    push_cast at q hdd ⊢
    omega
  refine ⟨?_, z⟩
  unfold serialZero3
  by_cases c : false = false ∧ OnEdge3 gz gy gx G
  · rw [if_pos c, z]
    intro q
    obtain ⟨-, q'⟩ := away3_in (k := 0) q
    exact q' c.2
  · rw [if_neg c]
    rfl

theorem refDiv3_moved (hd : QuietDiv3 K) (hdx : P'.dx = P.dx) {om om' : Fin 3 → C3 → ℝ} (h : ∀ j G, om' j (G + s) = om j G)
    (h1 : ∀ j, Within3 P.gz P.gy P.gx 2 (om j)) (h2 : ∀ j, Within3 P'.gz P'.gy P'.gx 2 (om' j)) : refDiv3 P' K om' = refDiv3 P K om := by
  unfold refDiv3
  rw [hdx]
  congr 2
  refine (Finset.sum_congr rfl fun G _ => by rw [(serialDiv3_plain hd (1 / P.dx) h2 G).1]).trans (Eq.trans ?_ (Finset.sum_congr rfl fun G _ => by rw [(serialDiv3_plain hd (1 / P.dx) h1 G).1]).symm)
  have dom : ∀ {gz gy gx : ℕ} {G : C3}, ¬ Away3 gz gy gx 0 G → ¬ Away3 gz gy gx 1 G := by
    intro gz gy gx G hG q
    apply hG
    unfold Away3 at q ⊢
    push_cast at q ⊢
    omega
  refine total3_moved (s := s) (f := fun G => K.div (1 / P.dx) (fun j d => om j (G + d)) ^ 2) (f' := fun G => K.div (1 / P.dx) (fun j d => om' j (G + d)) ^ 2) (fun G => ?_) (fun G hG => ?_) fun G hG => ?_
  · congr 2
    funext j d
    rw [← h, add_right_comm]
  · simp only
    rw [(serialDiv3_plain hd (1 / P.dx) h1 G).2 (dom hG)]
    norm_num
  · simp only
    rw [(serialDiv3_plain hd (1 / P.dx) h2 G).2 (dom hG)]
    norm_num

/-- Any driver program. -/
theorem cRef3_moved (hK : K.Local) (hq : Quiet3 K) (hqd : QuietDiv3 K) (hdx0 : P.dx ≠ 0) (hdx : P'.dx = P.dx) (hnu : P'.nu = P.nu) (hflt : P'.flt = P.flt) (hfs : P'.freeStream = P.freeStream) (cfl tol : ℝ) (A : B → Ib3)
    {k m : ℕ} (hk : 2 ≤ k) (hw : P.w ≤ k) (hw' : P'.w ≤ k) (hpos : (0 < P.gz ∧ 0 < P.gy ∧ 0 < P.gx) ∧ 0 < P'.gz ∧ 0 < P'.gy ∧ 0 < P'.gx) (p : Prog3 B) (hg : Given3 p) :
    ∀ (n : ℕ) (r r' : RefC3 B), flowSteps3 P K cfl tol A p r ≤ n → k + (3 + fltOrder P.flt) * n + 1 ≤ m → Apart3 P K cfl tol A m p r → Apart3 P' K cfl tol A m (moveProg3 s P.dx p) r' →
      Clear3 P K cfl tol A p r → Clear3 P' K cfl tol A (moveProg3 s P.dx p) r' → MovedC3 P P' A k m s n r r' →
      MovedC3 P P' A k m s 0 (cRef3 P K cfl tol A p r) (cRef3 P' K cfl tol A (moveProg3 s P.dx p) r') := by
  have weaken : ∀ {n : ℕ} {r r' : RefC3 B}, MovedC3 P P' A k m s n r r' → MovedC3 P P' A k m s 0 r r' := fun h =>
    ⟨⟨h.F.sc, h.F.om, h.F.sc1.mono (by omega), h.F.sc2.mono (by omega), fun j => (h.F.in1 j).mono (by omega), fun j => (h.F.in2 j).mono (by omega), h.F.u⟩, h.Φ, h.in1, h.in2, h.hist, h.time, h.log⟩
  have less : ∀ {gz gy gx : ℕ} {dx : ℝ} {a : Ib3} {X : LagField ℝ} {n : ℕ}, k + (3 + fltOrder P.flt) * n + 1 ≤ m → Inside3 gz gy gx m dx a X → Inside3 gz gy gx 1 dx a X := by
    intro gz gy gx dx a X n hm h i hi G hG
    have q := h i hi G hG
    unfold Away3 at q ⊢
    push_cast
    omega
  induction p with
  | stop => intro n r r' _ _ _ _ _ _ h; exact weaken h
  | interact b X U c ih =>
    intro n r r' hn hm a1 a2 c1 c2 h
    have hs := sameHist_lag3 (U := U) (u := r.F.u) (u' := r'.F.u) hdx0 hdx h.F.u (less hm a1.1) (less hm a2.1) (h.hist b)
    refine ih hg n (refFull3 P.dx (A b) b X U r) (refFull3 P'.dx (A b) b (movePos3 s P.dx X) U r') hn hm a1.2 a2.2 c1 c2 ?_
    refine ⟨h.F, ?_, spread3_within a1.1 _ h.in1, spread3_within a2.1 _ h.in2, sameHist_update3 h.hist hs, h.time, h.log⟩
    intro j G
    unfold refFull3
    simp only
    rw [hdx]
    rw [hdx] at hs
    exact refSpread3_moved hdx0 (A b) X (fun k' i hi => (hs.1 k' i hi).2.2) h.Φ j G
  | forces b X U c ih =>
    intro n r r' hn hm a1 a2 c1 c2 h
    have hs := sameHist_lag3 (U := U) (u := r.F.u) (u' := r'.F.u) hdx0 hdx h.F.u c1.1 c2.1 (h.hist b)
    have ef := refForceField3_same hs
    simp only [moveProg3, Apart3] at a2
    simp only [moveProg3, Clear3] at c2
    simp only [moveProg3, cRef3]
    rw [ef] at a2 c2 ⊢
    exact ih _ (hg _) n _ _ hn hm a1 a2 c1.2 c2.2 ⟨h.F, h.Φ, h.in1, h.in2, sameHist_update3 h.hist hs, h.time, h.log⟩
  | advance b dt c ih =>
    intro n r r' hn hm a1 a2 c1 c2 h
    refine ih hg n _ _ hn hm a1 a2 c1 c2 ⟨h.F, h.Φ, h.in1, h.in2, ?_, h.time, h.log⟩
    refine sameHist_update3 h.hist ⟨fun k' i hi => ?_, ?_⟩
    · obtain ⟨q1, q2, q3⟩ := (h.hist b).1 k' i hi
      simp only
      rw [q1, q2]
      exact ⟨rfl, rfl, q3⟩
    · simp only
      rw [(h.hist b).2]
  | flow dt fs c ih =>
    intro n r r' hn hm a1 a2 c1 c2 h
    rw [flowSteps3] at hn
    obtain ⟨n, rfl⟩ : ∃ n', n = n' + 1 := ⟨n - 1, by omega⟩
    have hF := h.F
    have eN : ∀ m' : ℕ, k + (3 + fltOrder P.flt) * (m' + 1) = k + (3 + fltOrder P.flt) * m' + (3 + fltOrder P.flt) := fun m' => by ring
    rw [eN] at hF hm
    have st := step3_moved (P := P) (P' := P') (s := s) hK hq "navier_stokes_with_forcing" hdx hnu hflt hfs dt fs (k := k + (3 + fltOrder P.flt) * n) (by omega) (by omega) (by omega) h.Φ
      (fun j => (h.in1 j).mono (by omega)) (fun j => (h.in2 j).mono (by omega)) hF
    exact ih hg n { r with F := refForcing3 P K dt fs r.Φ r.F, Φ := fun _ _ => 0, time := r.time + dt, fresh := false }
      { r' with F := refForcing3 P' K dt fs r'.Φ r'.F, Φ := fun _ _ => 0, time := r'.time + dt, fresh := false } (by omega) (by omega) a1 a2 c1 c2
      ⟨st, fun _ _ => rfl, fun _ _ _ => rfl, fun _ _ _ => rfl, h.hist, congrArg (· + dt) h.time, h.log⟩
  | stableDt pre c ih => exact absurd hg id
  | deviation b c ih =>
    intro n r r' hn hm a1 a2 c1 c2 h
    have ed : refDeviation 3 (A b).N (r'.hist b) = _ := refDeviation_same (h.hist b)
    simp only [moveProg3, Apart3] at a2
    simp only [moveProg3, Clear3] at c2
    simp only [moveProg3, cRef3]
    rw [ed] at a2 c2 ⊢
    exact ih _ (hg _) n _ _ hn hm a1 a2 c1 c2 h
  | maxVort c ih =>
    intro n r r' hn hm a1 a2 c1 c2 h
    have ed : sSup {x | ∃ j G, Dom3 P'.gz P'.gy P'.gx G ∧ x = r'.F.om j G} = sSup {x | ∃ j G, Dom3 P.gz P.gy P.gx G ∧ x = r.F.om j G} :=
      maxOm3_moved (by omega) hpos.1 hpos.2 h.F.om h.F.in1 h.F.in2
    simp only [moveProg3, Apart3] at a2
    simp only [moveProg3, Clear3] at c2
    simp only [moveProg3, cRef3]
    rw [ed] at a2 c2 ⊢
    exact ih _ (hg _) n _ _ hn hm a1 a2 c1 c2 h
  | divNorm c ih =>
    intro n r r' hn hm a1 a2 c1 c2 h
    have ed : refDiv3 P' K r'.F.om = refDiv3 P K r.F.om := refDiv3_moved hqd hdx h.F.om (fun j => (h.F.in1 j).mono (by omega)) fun j => (h.F.in2 j).mono (by omega)
    simp only [moveProg3, Apart3] at a2
    simp only [moveProg3, Clear3] at c2
    simp only [moveProg3, cRef3]
    rw [ed] at a2 c2 ⊢
    exact ih _ (hg _) n _ _ hn hm a1 a2 c1 c2 h
  | ghost c ih => intro n r r' hn hm a1 a2 c1 c2 h; exact ih hg n _ _ hn hm a1 a2 c1 c2 ⟨h.F, h.Φ, h.in1, h.in2, h.hist, h.time, h.log⟩
  | out x c ih => intro n r r' hn hm a1 a2 c1 c2 h; exact ih hg n _ _ hn hm a1 a2 c1 c2 ⟨h.F, h.Φ, h.in1, h.in2, h.hist, h.time, congrArg (· ++ [x]) h.log⟩

end Steps

/-! ## On the ranks -/

section Ranks
variable {T T' : Cart3} [NeZero T.gz] [NeZero T.gy] [NeZero T.gx] [NeZero T'.gz] [NeZero T'.gy] [NeZero T'.gx]

/-- C112: two flows with the same bodies, the same grid spacing, viscosity, free stream and filter, on grids of possibly different sizes, decompositions, ghost sizes and penalty zones; the second has fluid and bodies
moved by `s` cells and is driven by the same calls with the same time steps. Bodies and vorticity stay off the borders of both grids. Then the two runs print the same (also divergence norms) and reach the same
time, and after them the vorticity and the forcing of the second are those of the first moved by `s` cells, the velocities agree in the cells that are outermost in neither grid, and the forces on every node of
every body are the same. -/
theorem coupled3_placement {a a' : SimArgs3} (hfs : a'.freeStream = a.freeStream) (hflt : filterInUse a' = filterInUse a) {xr xr' : ℝ} (hxr : 0 < xr) (hxr' : 0 < xr') (hdx : xr' / a'.gx = xr / a.gx)
    {nu cfl : ℝ} (hnu : 0 ≤ nu) (hcfl : 0 ≤ cfl) {tol : ℝ} (htol : 0 < tol) {K : Kern3} (hK : K.Local) (hKd : ∀ a, CrossLocal3 1 (K.div a)) (hK0 : ∀ r, K.upd r (fun _ _ => 0) = 0) (hq : Quiet3 K)
    (hqd : QuietDiv3 K) {A A' : B → Ib3} (hA : ∀ b, A' b = { A b with m := (A' b).m, ord := (A' b).ord, junk := (A' b).junk })
    {X0 : B → LagField ℝ} {t0 : B → ℝ} {time : ℝ} {sc sc' : ℝ → ℝ → ℝ → ℝ} {om om' u u' : Fin 3 → ℝ → ℝ → ℝ → ℝ} (s : C3)
    {S : CSt3 T B} (h : Setup3 a xr A X0 t0 time sc om u S) {S' : CSt3 T' B} (h' : Setup3 a' xr' A' (fun b => movePos3 s (xr / a.gx) (X0 b)) t0 time sc' om' u' S')
    {o o' : ℕ → CScheds3} (ho : ∀ n, (o n).Done T a.g) (ho' : ∀ n, (o' n).Done T' a'.g) (p : Prog3 B) (hg : Given3 p)
    {r r' : RefC3 B} (hr : r = refStart3 (xr / a.gx) X0 t0 time sc om u) (hr' : r' = refStart3 (xr / a.gx) (fun b => movePos3 s (xr / a.gx) (X0 b)) t0 time sc' om' u')
    (hp : Proper3 (a.pars xr nu) K cfl tol A p r) (ht : Tracked3 T (a.pars xr nu) K cfl tol A p r)
    (hp' : Proper3 (a'.pars xr' nu) K cfl tol A (moveProg3 s (xr / a.gx) p) r') (ht' : Tracked3 T' (a'.pars xr' nu) K cfl tol A (moveProg3 s (xr / a.gx) p) r')
    (k n : ℕ) (hk : 2 ≤ k) (hw : widthOf a.width ≤ k) (hw' : widthOf a'.width ≤ k) (hn : flowSteps3 (a.pars xr nu) K cfl tol A p r ≤ n)
    (hom : ∀ j x y z, om' j (x + s.2.2 * (xr / a.gx)) (y + s.2.1 * (xr / a.gx)) (z + s.1 * (xr / a.gx)) = om j x y z)
    (hu : ∀ j x y z, u' j (x + s.2.2 * (xr / a.gx)) (y + s.2.1 * (xr / a.gx)) (z + s.1 * (xr / a.gx)) = u j x y z)
    (in1 : ∀ j, Within3 a.gz a.gy a.gx (k + reach3 a * n) (r.F.om j)) (in2 : ∀ j, Within3 a'.gz a'.gy a'.gx (k + reach3 a * n) (r'.F.om j))
    (ap1 : Apart3 (a.pars xr nu) K cfl tol A (k + reach3 a * n + 1) p r) (ap2 : Apart3 (a'.pars xr' nu) K cfl tol A (k + reach3 a * n + 1) (moveProg3 s (xr / a.gx) p) r')
    (cl1 : Clear3 (a.pars xr nu) K cfl tol A p r) (cl2 : Clear3 (a'.pars xr' nu) K cfl tol A (moveProg3 s (xr / a.gx) p) r') :
    let out := cRun3 (simCfg3 a xr nu cfl) K tol A o p 0 S
    let out' := cRun3 (simCfg3 a' xr' nu cfl) K tol A' o' (moveProg3 s (xr / a.gx) p) 0 S'
    out.2 = none ∧ out'.2 = none ∧ out'.1.sim.time = out.1.sim.time ∧ out'.1.log = out.1.log ∧
    (∀ c q c' q', Valid3 T c → Inner3 T a.g q → Valid3 T' c' → Inner3 T' a'.g q' → globalIx3 T' a'.g c' q' = globalIx3 T a.g c q + s →
      ∀ j, out'.1.sim.om j c' q' = out.1.sim.om j c q ∧ out'.1.sim.forcing j c' q' = out.1.sim.forcing j c q ∧
        (Away3 a.gz a.gy a.gx 1 (globalIx3 T a.g c q) → Away3 a'.gz a'.gy a'.gx 1 (globalIx3 T' a'.g c' q') → out'.1.sim.vel j c' q' = out.1.sim.vel j c q)) ∧
    (∀ c' q', Valid3 T' c' → Inner3 T' a'.g q' → ¬ Dom3 a.gz a.gy a.gx (globalIx3 T' a'.g c' q' - s) → ∀ j, out'.1.sim.om j c' q' = 0 ∧ out'.1.sim.forcing j c' q' = 0) ∧
    (∀ c q, Valid3 T c → Inner3 T a.g q → ¬ Dom3 a'.gz a'.gy a'.gx (globalIx3 T a.g c q + s) → ∀ j, out.1.sim.om j c q = 0 ∧ out.1.sim.forcing j c q = 0) ∧
    ∀ b, (∀ l < 3, ∀ i < (A b).N, (out'.1.ib b).v.gforce l i = (out.1.ib b).v.gforce l i) ∧ (out'.1.ib b).v.time = (out.1.ib b).v.time := by
  have hNA : ∀ b, (A' b).N = (A b).N := fun b => by rw [hA b]
  have hpos : (0 < a.gz ∧ 0 < a.gy ∧ 0 < a.gx) ∧ 0 < a'.gz ∧ 0 < a'.gy ∧ 0 < a'.gx := by
    obtain ⟨hT, -⟩ := simCheck3_cart h.fit.built
    obtain ⟨e0, e1, e2, -⟩ := construct3_ok hT
    obtain ⟨hT', -⟩ := simCheck3_cart h'.fit.built
    obtain ⟨f0, f1, f2, -⟩ := construct3_ok hT'
    rw [← e0, ← e1, ← e2, ← f0, ← f1, ← f2]
    exact ⟨⟨Nat.pos_of_ne_zero (NeZero.ne _), Nat.pos_of_ne_zero (NeZero.ne _), Nat.pos_of_ne_zero (NeZero.ne _)⟩,
      Nat.pos_of_ne_zero (NeZero.ne _), Nat.pos_of_ne_zero (NeZero.ne _), Nat.pos_of_ne_zero (NeZero.ne _)⟩
  have ePdx : (a.pars xr nu).dx = xr / a.gx := rfl
  have ePdx' : (a'.pars xr' nu).dx = xr / a.gx := hdx
  have hdx0 : (a.pars xr nu).dx ≠ 0 := (div_pos hxr (by exact_mod_cast hpos.1.2.2) : 0 < xr / (a.gx : ℝ)).ne'
  have start : MovedC3 (a.pars xr nu) (a'.pars xr' nu) A k (k + reach3 a * n + 1) s n r r' := by
    subst hr hr'
    refine ⟨⟨fun _ => rfl, fun j G => ?_, fun _ _ => rfl, fun _ _ => rfl, in1, in2, fun j G _ _ => ?_⟩, fun _ _ => rfl, fun _ _ _ => rfl, fun _ _ _ => rfl, fun b => ⟨fun _ _ _ => ⟨rfl, rfl, rfl⟩, rfl⟩, rfl, rfl⟩
    · simp only [noScalar, refStart3, fieldsFrom3, atCentre3, Prod.fst_add, Prod.snd_add]
      rw [← hom]
      push_cast
      congr 1 <;> ring
    · simp only [noScalar, refStart3, fieldsFrom3, atCentre3, Prod.fst_add, Prod.snd_add]
      rw [← hu]
      push_cast
      congr 1 <;> ring
  have fin := cRef3_moved (P := a.pars xr nu) (P' := a'.pars xr' nu) (s := s) hK hq hqd hdx0 hdx rfl (congrArg filterNums hflt) hfs cfl tol A hk hw hw' hpos p hg
    n r r' hn le_rfl ap1 ap2 cl1 cl2 start
  rw [ePdx] at fin
  have hind := same_bodies3 hA (a'.pars xr' nu) K cfl tol T' (moveProg3 s (xr / a.gx) p) r'
  have E : ∀ r0 : RefC3 B, r0 = refStart3 (xr' / a'.gx) (fun b => movePos3 s (xr / a.gx) (X0 b)) t0 time sc' om' u' → r' = r0 := by
    intro r0 e
    rw [e, hr', hdx]
  obtain ⟨r1, r2, r3, r4, r5⟩ := coupled3_run hxr hnu hcfl htol hK hKd hK0 h ho p (by rw [← hr]; exact hp) (by rw [← hr]; exact ht)
  obtain ⟨s1, s2, s3, s4, s5⟩ := coupled3_run hxr' hnu hcfl htol hK hKd hK0 h' ho' (moveProg3 s (xr / a.gx) p) (by rw [← E _ rfl]; exact hind.2.1.2 hp') (by rw [← E _ rfl]; exact hind.2.2.2 ht')
  rw [← hr] at r2 r3 r4 r5
  rw [← E _ rfl, hind.1] at s2 s3 s4 s5
  generalize cRef3 (a.pars xr nu) K cfl tol A p r = f at fin r2 r3 r4 r5
  generalize cRef3 (a'.pars xr' nu) K cfl tol A (moveProg3 s (xr / a.gx) p) r' = f' at fin s2 s3 s4 s5
  obtain ⟨m1, m2, m3, m4, m5, m6, m7⟩ := fin
  obtain ⟨-, n1, -, -, n2, n3, n4⟩ := m1
  have out0 : ∀ {gz gy gx k : ℕ} {G : C3}, ¬ Dom3 gz gy gx G → ¬ Away3 gz gy gx k G := fun hG q => hG (away3_dom q)
  intro out out'
  refine ⟨r1, s1, (s2.trans m6).trans r2.symm, (s3.trans m7).trans r3.symm, ?_, ?_, ?_, ?_⟩
  · intro c q c' q' hc hq hc' hq' hG j
    obtain ⟨x1, x2, x3⟩ := r4 c q hc hq j
    obtain ⟨y1, y2, y3⟩ := s4 c' q' hc' hq' j
    refine ⟨?_, ?_, fun g1 g2 => ?_⟩
    · refine y1.trans (Eq.trans ?_ x1.symm)
      rw [hG]
      exact n1 j _
    · refine y3.trans (Eq.trans ?_ x3.symm)
      rw [hG]
      exact m2 j _
    · refine y2.trans (Eq.trans ?_ x2.symm)
      rw [hG] at g2 ⊢
      exact n4 j _ g1 g2
  · intro c' q' hc' hq' hn' j
    obtain ⟨y1, -, y3⟩ := s4 c' q' hc' hq' j
    refine ⟨y1.trans ?_, y3.trans ?_⟩
    · have e := n1 j (globalIx3 T' a'.g c' q' - s)
      rw [sub_add_cancel] at e
      exact e.trans (n2 j _ (out0 hn'))
    · have e := m2 j (globalIx3 T' a'.g c' q' - s)
      rw [sub_add_cancel] at e
      exact e.trans (m3 j _ (out0 hn'))
  · intro c q hc hq hn' j
    obtain ⟨x1, -, x3⟩ := r4 c q hc hq j
    refine ⟨x1.trans ?_, x3.trans ?_⟩
    · exact (n1 j _).symm.trans (n3 j _ (out0 hn'))
    · exact (m2 j _).symm.trans (m4 j _ (out0 hn'))
  · intro b
    obtain ⟨x1, x2⟩ := r5 b
    obtain ⟨y1, y2⟩ := s5 b
    refine ⟨fun l hl i hi => (y1 l hl i (by rw [hNA]; exact hi)).trans (((m5 b).1 l i hi).2.2.trans (x1 l hl i hi).symm), y2.trans ((m5 b).2.trans x2.symm)⟩

end Ranks

/-! ## The assumptions hold -/

/-- the divergence kernel of `sopht` -/
theorem exKern3_quietDiv : QuietDiv3 exKern3 := by
  intro a f h
  simp only [exKern3]
  repeat rw [h _ _ (by simp [Cross3])]
  simp

noncomputable def exProgQ : Prog3 Unit :=
  .interact () exPosD (fun _ _ => 0) <| .advance () 0.1 <| .flow 0.1 (fun _ => 1) <| .divNorm fun _ => .forces () exPosD (fun _ _ => 0) fun f =>
    .interact () exPosD (fun k _ => f k 0) <| .flow 0.05 (fun _ => 1) .stop

theorem exPosQ_inside : Inside3 34 36 48 13 1 exBody3 (movePos3 (1, 2, 5) 1 exPosD) := by
  intro i hI G hG
  have e : G = (G - ((1, 2, 5) : C3)) + ((1, 2, 5) : C3) := (sub_add_cancel _ _).symm
  have e0 : movePos3 (1, 2, 5) 1 exPosD 0 i = exPosD 0 i + (((1, 2, 5) : C3).2.2 : ℝ) * 1 := rfl
  have e1 : movePos3 (1, 2, 5) 1 exPosD 1 i = exPosD 1 i + (((1, 2, 5) : C3).2.1 : ℝ) * 1 := rfl
  have e2 : movePos3 (1, 2, 5) 1 exPosD 2 i = exPosD 2 i + (((1, 2, 5) : C3).1 : ℝ) * 1 := rfl
  rw [e, e0, e1, e2] at hG
  have q := exPosD_inside i hI _ ((window3_moved one_ne_zero (1, 2, 5) _ _ (exPosD 0 i, exPosD 1 i, exPosD 2 i) _).1 hG)
  unfold Away3 at q ⊢
  simp only [Prod.fst_sub, Prod.snd_sub] at q
  push_cast at q ⊢
  omega

theorem exOmD_within (j : Fin 3) : Within3 32 32 32 12 (atCentre3 1 (exOmD j)) := by
  intro G hG
  unfold atCentre3 exOmD
  simp only [mul_one]
  rw [if_neg]
  rintro ⟨h1, h2, h3, h4, h5, h6⟩
  apply hG
  have z1 : (12 : ℤ) ≤ G.2.2 := by exact_mod_cast (by linarith : (12 : ℝ) ≤ G.2.2)
  have z2 : G.2.2 ≤ (19 : ℤ) := by exact_mod_cast (by linarith : (G.2.2 : ℝ) ≤ 19)
  have z3 : (12 : ℤ) ≤ G.2.1 := by exact_mod_cast (by linarith : (12 : ℝ) ≤ G.2.1)
  have z4 : G.2.1 ≤ (19 : ℤ) := by exact_mod_cast (by linarith : (G.2.1 : ℝ) ≤ 19)
  have z5 : (12 : ℤ) ≤ G.1 := by exact_mod_cast (by linarith : (12 : ℝ) ≤ G.1)
  have z6 : G.1 ≤ (19 : ℤ) := by exact_mod_cast (by linarith : (G.1 : ℝ) ≤ 19)
  unfold Away3
  push_cast
  omega

/-- The assumptions of `coupled3_placement` about grids, flow, body and driver can be met at once: 32³ cells on two ranks along x, and 34 × 36 × 48 cells on two ranks along y with fluid and body moved by 1, 2 and 5
cells, in both cases the body lying across the boundary between the ranks, with a filter. -/
theorem exPlace3 [NeZero (⟨32, 32, 32, 1, 1, 2, 32, 32, 16, false⟩ : Cart3).gz] [NeZero (⟨32, 32, 32, 1, 1, 2, 32, 32, 16, false⟩ : Cart3).gy]
    [NeZero (⟨32, 32, 32, 1, 1, 2, 32, 32, 16, false⟩ : Cart3).gx] [NeZero (⟨34, 36, 48, 1, 2, 1, 34, 18, 48, false⟩ : Cart3).gz] [NeZero (⟨34, 36, 48, 1, 2, 1, 34, 18, 48, false⟩ : Cart3).gy]
    [NeZero (⟨34, 36, 48, 1, 2, 1, 34, 18, 48, false⟩ : Cart3).gx] (K : Kern3) (nu cfl tol : ℝ) (sc sc' : ℝ → ℝ → ℝ → ℝ) :
    let a : SimArgs3 := ⟨32, 32, 32, 1, 1, 2, "navier_stokes_with_forcing", true, none, false, 2, .int 2⟩
    let a' : SimArgs3 := ⟨34, 36, 48, 1, 2, 1, "navier_stokes_with_forcing", true, none, false, 3, .int 1⟩
    let s : C3 := (1, 2, 5)
    let om' : Fin 3 → ℝ → ℝ → ℝ → ℝ := fun j x y z => exOmD j (x - 5) (y - 2) (z - 1)
    let u : Fin 3 → ℝ → ℝ → ℝ → ℝ := fun _ _ _ _ => 0
    let A : Unit → Ib3 := fun _ => exBody3
    let r : RefC3 Unit := refStart3 ((32 : ℝ) / a.gx) (fun _ => exPosD) (fun _ => 0) 0 sc exOmD u
    let r' : RefC3 Unit := refStart3 ((32 : ℝ) / a.gx) (fun _ => movePos3 s ((32 : ℝ) / a.gx) exPosD) (fun _ => 0) 0 sc' om' u
    (48 : ℝ) / a'.gx = 32 / a.gx ∧ filterInUse a' = filterInUse a ∧
    (∃ S : CSt3 ⟨32, 32, 32, 1, 1, 2, 32, 32, 16, false⟩ Unit, Setup3 a 32 A (fun _ => exPosD) (fun _ => 0) 0 sc exOmD u S) ∧
    (∃ S : CSt3 ⟨34, 36, 48, 1, 2, 1, 34, 18, 48, false⟩ Unit, Setup3 a' 48 A (fun _ => movePos3 s ((32 : ℝ) / a.gx) exPosD) (fun _ => 0) 0 sc' om' u S) ∧
    Given3 exProgQ ∧ Proper3 (a.pars 32 nu) K cfl tol A exProgQ r ∧ Tracked3 ⟨32, 32, 32, 1, 1, 2, 32, 32, 16, false⟩ (a.pars 32 nu) K cfl tol A exProgQ r ∧
    Proper3 (a'.pars 48 nu) K cfl tol A (moveProg3 s ((32 : ℝ) / a.gx) exProgQ) r' ∧
    Tracked3 ⟨34, 36, 48, 1, 2, 1, 34, 18, 48, false⟩ (a'.pars 48 nu) K cfl tol A (moveProg3 s ((32 : ℝ) / a.gx) exProgQ) r' ∧
    widthOf a.width ≤ 2 ∧ widthOf a'.width ≤ 2 ∧ flowSteps3 (a.pars 32 nu) K cfl tol A exProgQ r = 2 ∧
    (∀ j x y z, om' j (x + s.2.2 * ((32 : ℝ) / a.gx)) (y + s.2.1 * ((32 : ℝ) / a.gx)) (z + s.1 * ((32 : ℝ) / a.gx)) = exOmD j x y z) ∧
    (∀ j, Within3 a.gz a.gy a.gx (2 + reach3 a * 2) (r.F.om j)) ∧ (∀ j, Within3 a'.gz a'.gy a'.gx (2 + reach3 a * 2) (r'.F.om j)) ∧ (∀ j, r.F.om j (15, 15, 15) ≠ 0) ∧
    Apart3 (a.pars 32 nu) K cfl tol A (2 + reach3 a * 2 + 1) exProgQ r ∧ Apart3 (a'.pars 48 nu) K cfl tol A (2 + reach3 a * 2 + 1) (moveProg3 s ((32 : ℝ) / a.gx) exProgQ) r' ∧
    Clear3 (a.pars 32 nu) K cfl tol A exProgQ r ∧ Clear3 (a'.pars 48 nu) K cfl tol A (moveProg3 s ((32 : ℝ) / a.gx) exProgQ) r' := by
  intro a a' s om' u A r r'
  have hre : 2 + reach3 a * 2 = 12 := rfl
  have hdx : (a.pars 32 nu).dx = 1 := by unfold Params3.dx; norm_num [SimArgs3.pars, a]
  have hdx' : (a'.pars 48 nu).dx = 1 := by unfold Params3.dx; norm_num [SimArgs3.pars, a']
  have hd1 : (32 : ℝ) / a.gx = 1 := by norm_num [a]
  have hd2 : (48 : ℝ) / a'.gx = 1 := by norm_num [a']
  have hi : ∀ k ≤ 13, Inside3 32 32 32 k 1 exBody3 exPosD := by
    intro k hk i hI G hG
    have := exPosD_inside i hI G hG
    unfold Away3 at this ⊢
    push_cast at this ⊢; omega
  have hi' : ∀ k ≤ 13, Inside3 34 36 48 k 1 exBody3 (movePos3 (1, 2, 5) 1 exPosD) := by
    intro k hk i hI G hG
    have := exPosQ_inside i hI G hG
    unfold Away3 at this ⊢
    push_cast at this ⊢; omega
  have hslave : ∀ (b : Unit) l, SlaveSet l (A b).m ((A b).ord l) := by
    intro _ l
    refine ⟨?_, ?_⟩
    · exact (List.nodup_dedup l).filter _
    · intro x; simp [A, exBody3]
  refine ⟨by rw [hd1, hd2], rfl, ?_, ?_, ?_, ?_, ?_, ?_, ?_, by decide, by decide, ?_, ?_, ?_, ?_, ?_, ?_, ?_, ?_, ?_⟩
  · have hfit : Fit3 a ⟨32, 32, 32, 1, 1, 2, 32, 32, 16, false⟩ := by
      refine ⟨by decide, (by intro h; cases h), fun _ => ⟨by decide, by decide, ⟨2, rfl, by decide, by decide, by decide, by decide⟩, by unfold EvenTopo3; decide, ?_⟩⟩
      intro o ty hf
      simp only [filterInUse, if_true, Option.getD_none, Option.some.injEq, Prod.mk.injEq, PyNum.int.injEq, a] at hf
      omega
    obtain ⟨hT, -⟩ := simCheck3_cart hfit.built
    have hd : simDx3 ⟨32, 32, 32, 1, 1, 2, 32, 32, 16, false⟩ 32 = 1 := by unfold simDx3; norm_num
    obtain ⟨z, hz⟩ := (ibInit3_ok_iff hT (by decide) (by decide) (by decide) one_pos (g := a.g) (k := 0) (a := exBody3) (X0 := exPosD) (hi 0 (by omega)) 0).2 ⟨rfl, le_refl 2⟩
    refine ⟨⟨initFrom3 ⟨32, 32, 32, 1, 1, 2, 32, 32, 16, false⟩ a.g 32 0 0 0 sc exOmD u, fun _ => z, []⟩, hfit, rfl, hslave, ?_, ?_, ⟨_, _, rfl⟩, rfl⟩
    · intro _; rw [hd1]; exact hi 0 (by omega)
    · intro _; rw [hd]; exact hz
  · have hfit : Fit3 a' ⟨34, 36, 48, 1, 2, 1, 34, 18, 48, false⟩ := by
      refine ⟨by decide, (by intro h; cases h), fun _ => ⟨by decide, by decide, ⟨1, rfl, by decide, by decide, by decide, by decide⟩, by unfold EvenTopo3; decide, ?_⟩⟩
      intro o ty hf
      simp only [filterInUse, if_true, Option.getD_none, Option.some.injEq, Prod.mk.injEq, PyNum.int.injEq, a'] at hf
      omega
    obtain ⟨hT, -⟩ := simCheck3_cart hfit.built
    have hd : simDx3 ⟨34, 36, 48, 1, 2, 1, 34, 18, 48, false⟩ 48 = 1 := by unfold simDx3; norm_num
    obtain ⟨z, hz⟩ := (ibInit3_ok_iff hT (by decide) (by decide) (by decide) one_pos (g := a'.g) (k := 0) (a := exBody3) (X0 := movePos3 (1, 2, 5) 1 exPosD) (hi' 0 (by omega)) 0).2 ⟨rfl, by decide⟩
    refine ⟨⟨initFrom3 ⟨34, 36, 48, 1, 2, 1, 34, 18, 48, false⟩ a'.g 48 0 0 0 sc' om' u, fun _ => z, []⟩, hfit, rfl, hslave, ?_, ?_, ⟨_, _, rfl⟩, rfl⟩
    · intro _; rw [hd1, hd2]; exact hi' 0 (by omega)
    · intro _; rw [hd, hd1]; exact hz
  · unfold exProgQ
    simp only [Given3]
    exact fun _ _ => trivial
  · unfold exProgQ
    simp only [Proper3, hdx]
    exact ⟨hi 1 (by omega), Or.inl rfl, hi 0 (by omega), Or.inl rfl, hi 1 (by omega), Or.inl rfl, trivial⟩
  · refine tracked3_still (a.pars 32 nu) K cfl tol _ (fun _ => exPosD) _ ?_ _ rfl
    unfold exProgQ
    simp only [Still3]
    simp
  · unfold exProgQ
    simp only [moveProg3, Proper3, hdx', hd1]
    exact ⟨hi' 1 (by omega), Or.inl rfl, hi' 0 (by omega), Or.inl rfl, hi' 1 (by omega), Or.inl rfl, trivial⟩
  · refine tracked3_still (a'.pars 48 nu) K cfl tol _ (fun _ => movePos3 s ((32 : ℝ) / a.gx) exPosD) _ ?_ _ rfl
    unfold exProgQ
    simp only [moveProg3, Still3]
    simp
  · unfold exProgQ
    simp only [flowSteps3]
  · intro j x y z
    simp only [om', s, hd1]
    norm_num
  · intro j
    change Within3 32 32 32 12 (atCentre3 ((32 : ℝ) / a.gx) (exOmD j))
    rw [hd1]
    exact exOmD_within j
  · intro j
    change Within3 34 36 48 12 (atCentre3 ((32 : ℝ) / a.gx) (om' j))
    rw [hd1]
    intro G hG
    have q := exOmD_within j (G - ((1, 2, 5) : C3)) (by unfold Away3 at hG ⊢; simp only [Prod.fst_sub, Prod.snd_sub]; push_cast at hG ⊢; omega)
    rw [← q]
    simp only [atCentre3, om', Prod.fst_sub, Prod.snd_sub]
    push_cast
    congr 1 <;> ring
  · intro j
    change atCentre3 ((32 : ℝ) / a.gx) (exOmD j) (15, 15, 15) ≠ 0
    rw [hd1]
    unfold atCentre3 exOmD
    norm_num
  · unfold exProgQ
    simp only [Apart3, hdx, hre]
    exact ⟨hi 13 (by omega), hi 13 (by omega), trivial⟩
  · unfold exProgQ
    simp only [moveProg3, Apart3, hdx', hd1, hre]
    exact ⟨hi' 13 (by omega), hi' 13 (by omega), trivial⟩
  · unfold exProgQ
    simp only [Clear3, hdx]
    exact ⟨hi 1 (by omega), trivial⟩
  · unfold exProgQ
    simp only [moveProg3, Clear3, hdx', hd1]
    exact ⟨hi' 1 (by omega), trivial⟩

end Sopht
