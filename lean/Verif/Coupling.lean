import Verif.Interactor3D
import Mathlib.Algebra.BigOperators.Group.List.Basic

/-! # Coupling coefficients and resolution of an interactor (C114)

`ImmersedBodyFlowInteractionMPI.__init__` (`sopht_mpi/simulator/immersed_body/immersed_body_flow_interaction_mpi.py:46-87`, below "IB.py") as every rank runs it: the master
knows the spacing of the nodes of the body, the other ranks have an `EmptyForcingGrid` (`immersed_body_forcing_grid.py:27-28`) and receive it; every rank says whether the
body is resolved as the flow is, and scales the coefficients it was given with `*=`, which in Python makes a new number if it was given a number, and changes the array in
place if it was given a NumPy array. -/

namespace Sopht

/-! ## Model -/

/-- A coefficient: a Python number, or a NumPy array (with one entry), given by where it is stored. -/
inductive Coef where
  | num (x : ℝ)
  | arr (a : ℕ)

/-- The value, with arrays as in `H`. -/
def Coef.read (H : ℕ → ℝ) : Coef → ℝ
  | .num x => x
  | .arr a => H a

/-- `coefficient *= f` (IB.py:84-87). -/
noncomputable def Coef.scale (f : ℝ) (H : ℕ → ℝ) : Coef → (ℕ → ℝ) × Coef
  | .num x => (H, .num (x * f))
  | .arr a => (Function.update H a (H a * f), .arr a)

/-- The three messages (IB.py:57-80). -/
inductive Resolution where
  | coarse
  | fine
  | good
deriving DecidableEq

/-- What is wrong: the root of the broadcast is no rank, or a number is compared with `None`. -/
inductive CouplingErr where
  | badRoot
  | noNumber

/-- What an interactor keeps (VBF.py:74-75), and what it said. -/
structure Coupling where
  stiff : Coef
  damp : Coef
  msg : Resolution

open Classical in
/-- `if max_lag_grid_dx > 2 * dx … elif max_lag_grid_dx < 0.5 * dx … else` (IB.py:56-79). -/
noncomputable def resolution (dx h : ℝ) : Resolution := if h > 2 * dx then .coarse else if h < 0.5 * dx then .fine else .good

/-- The rest of the constructor on one rank (IB.py:51-87) once `max_lag_grid_dx` was received: `None` cannot be compared with a number. -/
noncomputable def coupleRank (d : ℕ) (dx : ℝ) (stiff damp : Coef) (H : ℕ → ℝ) : Option ℝ → Except CouplingErr ((ℕ → ℝ) × Coupling)
  | none => .error .noNumber
  | some h =>
    let s := stiff.scale (h ^ (d - 1)) H
    let e := damp.scale (h ^ (d - 1)) s.1
    .ok (e.1, ⟨s.2, e.2, resolution dx h⟩)

variable {ρ : Type} [DecidableEq ρ]

/-- `mpi_construct.grid.bcast(max_lag_grid_dx, root=self.master_rank)` (IB.py:48-50): what every rank has afterwards, given what every rank passes. -/
def bcastSpacing (ranks : List ρ) (root : ρ) (v : ρ → Option ℝ) : Except CouplingErr (ρ → Option ℝ) :=
  if root ∈ ranks then .ok fun _ => v root else .error .badRoot

/-- `self.forcing_grid.get_maximum_lagrangian_grid_spacing()` on rank `c` (IB.py:47): the body is known to the master (rigid_body_flow_interaction_mpi.py:39-47), all others
have an `EmptyForcingGrid`, which returns `None` (immersed_body_forcing_grid.py:27-28). -/
def spacingOn (m : ρ) (h : ℝ) (c : ρ) : Option ℝ := if c = m then some h else none

/-- The arguments of one interactor which matter here. -/
structure CoupleArgs (ρ : Type) where
  m : ρ
  /-- greatest distance of neighbouring nodes of the body -/
  h : ℝ
  stiff : Coef
  damp : Coef

/-- The constructor on rank `c`, among `ranks`. -/
noncomputable def couple (ranks : List ρ) (d : ℕ) (dx : ℝ) (c : ρ) (q : CoupleArgs ρ) (H : ℕ → ℝ) : Except CouplingErr ((ℕ → ℝ) × Coupling) := do
  let v ← bcastSpacing ranks q.m (spacingOn q.m q.h)
  coupleRank d dx q.stiff q.damp H (v c)

/-- The driver builds interactors one after the other; here on rank `c`. -/
noncomputable def coupleAll (ranks : List ρ) (d : ℕ) (dx : ℝ) (c : ρ) : List (CoupleArgs ρ) → (ℕ → ℝ) → Except CouplingErr ((ℕ → ℝ) × List Coupling)
  | [], H => .ok (H, [])
  | q :: l, H => do
    let r ← couple ranks d dx c q H
    let r' ← coupleAll ranks d dx c l r.1
    .ok (r'.1, r.2 :: r'.2)

/-! ## Theorems -/

variable {ranks : List ρ} {d : ℕ} {dx : ℝ} {c : ρ}

theorem couple_eq {q : CoupleArgs ρ} (hm : q.m ∈ ranks) (H : ℕ → ℝ) : couple ranks d dx c q H = coupleRank d dx q.stiff q.damp H (some q.h) := by
  simp only [couple, bcastSpacing, if_pos hm, bind, Except.bind, spacingOn, if_true]

/-- **C114** The message is the same on every rank: too coarse exactly if the nodes are more than two grid spacings apart, too fine exactly if they are less than half a grid
spacing apart. -/
theorem couple_message (hdx : 0 < dx) {q : CoupleArgs ρ} (hm : q.m ∈ ranks) (H : ℕ → ℝ) : ∃ H' r, couple ranks d dx c q H = .ok (H', r) ∧
    (r.msg = .coarse ↔ 2 * dx < q.h) ∧ (r.msg = .fine ↔ q.h < dx / 2) ∧ (r.msg = .good ↔ dx / 2 ≤ q.h ∧ q.h ≤ 2 * dx) := by
  rw [couple_eq hm]
  refine ⟨_, _, rfl, ?_⟩
  simp only [resolution]
  have e : (0.5 : ℝ) * dx = dx / 2 := by norm_num; ring
  rw [e]
  by_cases h1 : 2 * dx < q.h
  · rw [if_pos h1]
    refine ⟨by simp [h1], ?_, ?_⟩
    · constructor
      · intro h; cases h
      · intro h; linarith
    · constructor
      · intro h; cases h
      · rintro ⟨-, h⟩; linarith
  · rw [if_neg h1]
    by_cases h2 : q.h < dx / 2
    · rw [if_pos h2]
      refine ⟨by simp [h1], by simp [h2], ?_⟩
      constructor
      · intro h; cases h
      · rintro ⟨h, -⟩; linarith
    · rw [if_neg h2]
      exact ⟨by simp [h1], by simp [h2], by simp only [true_iff]; exact ⟨not_lt.1 h2, not_lt.1 h1⟩⟩

/-- **C114** Coefficients given as numbers: any number of interactors can be built from them, on every rank with the same result, each with its own two numbers times the spacing
of its own nodes to the power of dimension minus one. -/
theorem couple_numbers (l : List (CoupleArgs ρ)) (s e : CoupleArgs ρ → ℝ) (hl : ∀ q ∈ l, q.m ∈ ranks ∧ q.stiff = .num (s q) ∧ q.damp = .num (e q)) (H : ℕ → ℝ) :
    ∃ rs, coupleAll ranks d dx c l H = .ok (H, rs) ∧
      List.Forall₂ (fun q r => r.stiff = .num (s q * q.h ^ (d - 1)) ∧ r.damp = .num (e q * q.h ^ (d - 1)) ∧ r.msg = resolution dx q.h) l rs := by
  induction l with
  | nil => exact ⟨[], rfl, .nil⟩
  | cons q l ih =>
    obtain ⟨rs, h1, h2⟩ := ih fun q' hq => hl q' (List.mem_cons_of_mem _ hq)
    obtain ⟨hm, e1, e2⟩ := hl q List.mem_cons_self
    refine ⟨⟨.num (s q * q.h ^ (d - 1)), .num (e q * q.h ^ (d - 1)), resolution dx q.h⟩ :: rs, ?_, .cons ⟨rfl, rfl, rfl⟩ h2⟩
    simp only [coupleAll, couple_eq hm, e1, e2, coupleRank, Coef.scale, bind, Except.bind, h1]

/-- **C114** A master which is no rank of the grid: every rank raises. -/
theorem couple_no_master {q : CoupleArgs ρ} (hm : q.m ∉ ranks) (H : ℕ → ℝ) : couple ranks d dx c q H = .error .badRoot := by
  simp only [couple, bcastSpacing, if_neg hm, bind, Except.bind]

/-- **C114** Coefficients given as NumPy arrays, the same two for all interactors: the arrays of the caller are changed, and every interactor, the earlier ones included, ends up
with the scale factors of all of them. -/
theorem couple_shared_arrays {a b : ℕ} (hab : a ≠ b) (l : List (CoupleArgs ρ)) (hl : ∀ q ∈ l, q.m ∈ ranks ∧ q.stiff = .arr a ∧ q.damp = .arr b) (H : ℕ → ℝ) :
    ∃ H' rs, coupleAll ranks d dx c l H = .ok (H', rs) ∧ rs.length = l.length ∧
      H' a = H a * (l.map fun q => q.h ^ (d - 1)).prod ∧ H' b = H b * (l.map fun q => q.h ^ (d - 1)).prod ∧
      ∀ r ∈ rs, r.stiff.read H' = H a * (l.map fun q => q.h ^ (d - 1)).prod ∧ r.damp.read H' = H b * (l.map fun q => q.h ^ (d - 1)).prod := by
  have key : ∃ H' rs, coupleAll ranks d dx c l H = .ok (H', rs) ∧ rs.length = l.length ∧
      H' a = H a * (l.map fun q => q.h ^ (d - 1)).prod ∧ H' b = H b * (l.map fun q => q.h ^ (d - 1)).prod ∧ ∀ r ∈ rs, r.stiff = .arr a ∧ r.damp = .arr b := by
    induction l generalizing H with
    | nil => exact ⟨H, [], rfl, rfl, by simp, by simp, by simp⟩
    | cons q l ih =>
      obtain ⟨hm, e1, e2⟩ := hl q List.mem_cons_self
      obtain ⟨H', rs, h1, h2, h3, h4, h5⟩ := ih (fun q' hq => hl q' (List.mem_cons_of_mem _ hq))
        (Function.update (Function.update H a (H a * q.h ^ (d - 1))) b (H b * q.h ^ (d - 1)))
      refine ⟨H', ⟨.arr a, .arr b, resolution dx q.h⟩ :: rs, ?_, by simp [h2], ?_, ?_, ?_⟩
      · simp only [coupleAll, couple_eq hm, e1, e2, coupleRank, Coef.scale, bind, Except.bind]
        rw [Function.update_of_ne hab.symm, h1]
      · rw [h3, Function.update_of_ne hab, Function.update_self, List.map_cons, List.prod_cons]; ring
      · rw [h4, Function.update_self, List.map_cons, List.prod_cons]; ring
      · intro r hr
        rcases List.mem_cons.1 hr with rfl | hr
        · exact ⟨rfl, rfl⟩
        · exact h5 r hr
  obtain ⟨H', rs, h1, h2, h3, h4, h5⟩ := key
  refine ⟨H', rs, h1, h2, h3, h4, fun r hr => ?_⟩
  obtain ⟨e1, e2⟩ := h5 r hr
  rw [e1, e2]
  exact ⟨h3, h4⟩

/-- **C114** The same array for both coefficients: it is scaled twice. -/
theorem couple_one_array {q : CoupleArgs ρ} {a : ℕ} (hm : q.m ∈ ranks) (h1 : q.stiff = .arr a) (h2 : q.damp = .arr a) (H : ℕ → ℝ) : ∃ H' r,
    couple ranks d dx c q H = .ok (H', r) ∧ r.stiff.read H' = H a * (q.h ^ (d - 1)) ^ 2 ∧ r.damp.read H' = H a * (q.h ^ (d - 1)) ^ 2 := by
  rw [couple_eq hm, h1, h2]
  refine ⟨_, _, rfl, ?_, ?_⟩ <;> simp [Coef.scale, Coef.read, pow_two, mul_assoc]

omit [DecidableEq ρ] in
/-- **C114** What the forcing of `Interactor2D` and `Interactor3D` is given are these numbers. -/
theorem couple_used (T : Cart2) (T' : Cart3) (a : Ib2) (a' : Ib3) (h h' : ℕ → ℝ) (ranks : List ρ) (m c : ρ) [DecidableEq ρ] (hm : m ∈ ranks) :
    (∃ H r, couple ranks 2 dx c ⟨m, a.lagDx, .num a.stiff, .num a.damp⟩ h = .ok (H, r) ∧ (a.vbf T dx).stiff = r.stiff.read H ∧ (a.vbf T dx).damp = r.damp.read H) ∧
    ∃ H r, couple ranks 3 dx c ⟨m, a'.lagDx, .num a'.stiff, .num a'.damp⟩ h' = .ok (H, r) ∧ (a'.vbf T' dx).stiff = r.stiff.read H ∧ (a'.vbf T' dx).damp = r.damp.read H := by
  rw [couple_eq hm, couple_eq hm]
  exact ⟨⟨_, _, rfl, rfl, rfl⟩, _, _, rfl, rfl, rfl⟩

/-! ## Examples -/

/-- Two bodies in 3D on four ranks, built from numbers: each has its own coefficients. -/
example (c : ℕ) (H : ℕ → ℝ) : ∃ r1 r2, coupleAll [0, 1, 2, 3] 3 0.1 c [⟨0, 0.5, .num 8, .num 4⟩, ⟨2, 0.25, .num 16, .num 32⟩] H = .ok (H, [r1, r2]) ∧
    r1.stiff = .num 2 ∧ r1.damp = .num 1 ∧ r1.msg = .coarse ∧ r2.stiff = .num 1 ∧ r2.damp = .num 2 ∧ r2.msg = .coarse := by
  refine ⟨_, _, rfl, ?_⟩
  simp only [Coef.scale, resolution]
  norm_num

/-- Two bodies built from the same arrays: the first one's stiffness is changed when the second one is built. -/
example (c : ℕ) : ∃ H' rs, coupleAll [0, 1, 2, 3] 2 0.1 c [⟨0, 0.5, .arr 0, .arr 1⟩, ⟨0, 0.25, .arr 0, .arr 1⟩] (fun a => if a = 0 then 8 else 16) = .ok (H', rs) ∧
    H' 0 = 1 ∧ ∀ r ∈ rs, r.stiff.read H' = 1 ∧ r.damp.read H' = 2 := by
  obtain ⟨H', rs, h1, -, h3, -, h5⟩ := couple_shared_arrays (d := 2) (dx := 0.1) (c := c) (ranks := [0, 1, 2, 3]) (a := 0) (b := 1) (by decide)
    [⟨0, 0.5, .arr 0, .arr 1⟩, ⟨0, 0.25, .arr 0, .arr 1⟩] (by simp) (fun a => if a = 0 then 8 else 16)
  refine ⟨H', rs, h1, ?_, fun r hr => ?_⟩
  · rw [h3]; norm_num
  · obtain ⟨e1, e2⟩ := h5 r hr
    rw [e1, e2]
    norm_num

end Sopht
