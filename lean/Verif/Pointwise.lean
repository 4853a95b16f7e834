import Verif.Ghost2DProps
import Verif.Ghost3DProps
import Verif.SimLemmas
import Verif.FilterProps

/-!
# Pointwise kernels: Brinkmann penalisation and characteristic functions; C79

Models `gen_brinkmann_penalise_pyst_mpi_kernel_2d/3d` (`stencil_ops_2d/brinkmann_penalise_mpi_2d.py:7-20`, `stencil_ops_3d/brinkmann_penalise_mpi_3d.py:7-19`) and
`gen_char_func_from_level_set_via_sine_heaviside_pyst_mpi_kernel_2d/3d` (`char_func_from_level_set_mpi_2d.py:8-29`, `char_func_from_level_set_mpi_3d.py:8-28`): kernels
of the `sopht` package with support 0 which are handed on unchanged, without a check of the ghost size and without ghost exchange.  What they compute in one cell is a
parameter.
-/

namespace Sopht

set_option linter.unusedSectionVars false

section Model
variable {R I : Type}

/-- A kernel of support 0 on the local arrays, ghost cells included: in each cell it sees the values of its inputs in that cell. -/
def pointwise {m : ℕ} (f : (Fin m → ℝ) → ℝ) (ins : Fin m → World R I ℝ) : World R I ℝ := fun c p => f fun j => ins j c p

/-- `brinkmann_penalise(penalised_field, penalty_factor, char_field, penalty_field, field)`, scalar: `f` of characteristic function, penalty value and field value. -/
def brinkmann (f : ℝ → ℝ → ℝ → ℝ) (chi pen u : World R I ℝ) : World R I ℝ := pointwise (fun v : Fin 3 → ℝ => f (v 0) (v 1) (v 2)) ![chi, pen, u]

/-- `field_type="vector"`: the scalar kernel for each component, with the same characteristic function. -/
def brinkmannVec {d : ℕ} (f : ℝ → ℝ → ℝ → ℝ) (chi : World R I ℝ) (pen u : Fin d → World R I ℝ) : Fin d → World R I ℝ := fun k => brinkmann f chi (pen k) (u k)

/-- `char_func_from_level_set_via_sine_heaviside(char_func_field, level_set_field)`. -/
def charFunc (f : ℝ → ℝ) (phi : World R I ℝ) : World R I ℝ := pointwise (fun v : Fin 1 → ℝ => f (v 0)) ![phi]

end Model

section Two
variable {T : Cart2}

/-- The kernel gives in every inner cell of every rank what it gives on the undivided grid. -/
theorem pointwise2_serial {m : ℕ} (f : (Fin m → ℝ) → ℝ) (g : ℕ) {F : Fin m → C2 → ℝ} {ins : Fin m → World C2 C2 ℝ} (h : ∀ j, Blocks2 T g (F j) (ins j)) :
    Blocks2 T g (fun G => f fun j => F j G) (pointwise f ins) := by
  intro c p hc hp
  unfold pointwise
  congr 1
  funext j
  exact h j c p hc hp

theorem halo2_pointwise {m : ℕ} (g : ℕ) (full : Bool) (f : (Fin m → ℝ) → ℝ) (ins : Fin m → World C2 C2 ℝ) (c p : C2) :
    halo2 T g full (pointwise f ins) c p = f fun j => halo2 T g full (ins j) c p := by
  unfold halo2 pointwise
  dsimp only
  split_ifs
  · rfl
  · cases nbr2 T c (zone g T.ny p.1, zone g T.nx p.2) <;> rfl

/-- Applying the kernel to arrays with exchanged ghost cells is the same as applying it first and exchanging the ghost cells of the result: where the inputs' ghost cells
are up to date, so are those of the result, and no exchange is needed after it. -/
theorem pointwise2_exchange {m : ℕ} {g : ℕ} (hg : 1 ≤ g) (hy : g ≤ T.ny) (hx : g ≤ T.nx) (full : Bool) (f : (Fin m → ℝ) → ℝ) (ins : Fin m → World C2 ℤ ℝ)
    {s : Fin m → List Ev} (hs : ∀ j, Finalised2 T g full (s j)) {s' : List Ev} (hs' : Finalised2 T g full s') {c p : C2} (hc : Valid2 T c) (hp : InArr2 T g p) :
    exchange2 T g full (pointwise f ins) s' c (flat2 T g p) = pointwise f (fun j => exchange2 T g full (ins j) (s j)) c (flat2 T g p) := by
  rw [exchange2_correct T hg hy hx full _ hs' hc hp]
  refine (halo2_pointwise g full f (fun j d q => ins j d (flat2 T g q)) c p).trans ?_
  unfold pointwise
  congr 1
  funext j
  exact (exchange2_correct T hg hy hx full _ (hs j) hc hp).symm

/-- **C79** (2D) Brinkmann penalisation of a scalar or vector field. -/
theorem brinkmann2_serial (f : ℝ → ℝ → ℝ → ℝ) (g : ℕ) {chi pen u : C2 → ℝ} {wc wp wu : World C2 C2 ℝ} (h1 : Blocks2 T g chi wc) (h2 : Blocks2 T g pen wp)
    (h3 : Blocks2 T g u wu) : Blocks2 T g (fun G => f (chi G) (pen G) (u G)) (brinkmann f wc wp wu) := by
  intro c p hc hp
  change f (wc c p) (wp c p) (wu c p) = _
  rw [h1 c p hc hp, h2 c p hc hp, h3 c p hc hp]

/-- **C79** (2D) -/
theorem brinkmannVec2_serial (f : ℝ → ℝ → ℝ → ℝ) (g : ℕ) {chi : C2 → ℝ} {pen u : Fin 2 → C2 → ℝ} {wc : World C2 C2 ℝ} {wp wu : Fin 2 → World C2 C2 ℝ}
    (h1 : Blocks2 T g chi wc) (h2 : ∀ k, Blocks2 T g (pen k) (wp k)) (h3 : ∀ k, Blocks2 T g (u k) (wu k)) (k : Fin 2) :
    Blocks2 T g (fun G => f (chi G) (pen k G) (u k G)) (brinkmannVec f wc wp wu k) := brinkmann2_serial f g h1 (h2 k) (h3 k)

/-- **C79** (2D) Characteristic function of a level set. -/
theorem charFunc2_serial (f : ℝ → ℝ) (g : ℕ) {phi : C2 → ℝ} {w : World C2 C2 ℝ} (h : Blocks2 T g phi w) : Blocks2 T g (fun G => f (phi G)) (charFunc f w) := by
  intro c p hc hp
  change f (w c p) = _
  rw [h c p hc hp]

end Two

section Three
variable {T : Cart3}

/-- 3D version of `pointwise2_serial`. -/
theorem pointwise3_serial {m : ℕ} (f : (Fin m → ℝ) → ℝ) (g : ℕ) {F : Fin m → C3 → ℝ} {ins : Fin m → World C3 C3 ℝ} (h : ∀ j, Holds3 T g (F j) (ins j)) :
    Holds3 T g (fun G => f fun j => F j G) (pointwise f ins) := by
  intro c p hc hp
  unfold pointwise
  congr 1
  funext j
  exact h j c p hc hp

theorem halo3_pointwise {m : ℕ} (g : ℕ) (full : Bool) (f : (Fin m → ℝ) → ℝ) (ins : Fin m → World C3 C3 ℝ) (c p : C3) :
    halo3 T g full (pointwise f ins) c p = f fun j => halo3 T g full (ins j) c p := by
  unfold halo3 pointwise
  dsimp only
  split_ifs
  · rfl
  · cases nbr3 T c (zone g T.nz p.1, zone g T.ny p.2.1, zone g T.nx p.2.2) <;> rfl

/-- 3D version of `pointwise2_exchange`. -/
theorem pointwise3_exchange {m : ℕ} {g : ℕ} (hz : g ≤ T.nz) (hy : g ≤ T.ny) (hx : g ≤ T.nx) (full : Bool) (f : (Fin m → ℝ) → ℝ) (ins : Fin m → World C3 C3 ℝ)
    {s : Fin m → List Ev} (hs : ∀ j, Finalised3 T g full (s j)) {s' : List Ev} (hs' : Finalised3 T g full s') {c p : C3} (hc : Valid3 T c) (hp : InArr3 T g p) :
    exchange3 T g full (pointwise f ins) s' c p = pointwise f (fun j => exchange3 T g full (ins j) (s j)) c p := by
  rw [exchange3_correct T hz hy hx full _ hs' hc hp]
  refine (halo3_pointwise g full f ins c p).trans ?_
  unfold pointwise
  congr 1
  funext j
  exact (exchange3_correct T hz hy hx full _ (hs j) hc hp).symm

/-- **C79** (3D) -/
theorem brinkmann3_serial (f : ℝ → ℝ → ℝ → ℝ) (g : ℕ) {chi pen u : C3 → ℝ} {wc wp wu : World C3 C3 ℝ} (h1 : Holds3 T g chi wc) (h2 : Holds3 T g pen wp)
    (h3 : Holds3 T g u wu) : Holds3 T g (fun G => f (chi G) (pen G) (u G)) (brinkmann f wc wp wu) := by
  intro c p hc hp
  change f (wc c p) (wp c p) (wu c p) = _
  rw [h1 c p hc hp, h2 c p hc hp, h3 c p hc hp]

/-- **C79** (3D) -/
theorem brinkmannVec3_serial (f : ℝ → ℝ → ℝ → ℝ) (g : ℕ) {chi : C3 → ℝ} {pen u : Fin 3 → C3 → ℝ} {wc : World C3 C3 ℝ} {wp wu : Fin 3 → World C3 C3 ℝ}
    (h1 : Holds3 T g chi wc) (h2 : ∀ k, Holds3 T g (pen k) (wp k)) (h3 : ∀ k, Holds3 T g (u k) (wu k)) (k : Fin 3) :
    Holds3 T g (fun G => f (chi G) (pen k G) (u k G)) (brinkmannVec f wc wp wu k) := brinkmann3_serial f g h1 (h2 k) (h3 k)

/-- **C79** (3D) -/
theorem charFunc3_serial (f : ℝ → ℝ) (g : ℕ) {phi : C3 → ℝ} {w : World C3 C3 ℝ} (h : Holds3 T g phi w) : Holds3 T g (fun G => f (phi G)) (charFunc f w) := by
  intro c p hc hp
  change f (w c p) = _
  rw [h c p hc hp]

/-- non-vacuity: fields that exist -/
example (g : ℕ) (chi pen u : C2 → ℝ) (T2 : Cart2) : ∃ wc wp wu : World C2 C2 ℝ, Blocks2 T2 g chi wc ∧ Blocks2 T2 g pen wp ∧ Blocks2 T2 g u wu :=
  ⟨fun c p => chi (globalIx2 T2 g c p), fun c p => pen (globalIx2 T2 g c p), fun c p => u (globalIx2 T2 g c p), fun _ _ _ _ => rfl, fun _ _ _ _ => rfl,
    fun _ _ _ _ => rfl⟩

end Three

end Sopht
