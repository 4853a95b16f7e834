import Verif.Sim3DProps
import Verif.Sim2DGlobalLemmas

/-! What one 3D simulator step does, in terms of the global fields: specification and helpers. -/

namespace Sopht

set_option linter.unusedSimpArgs false

/-! ## Specification: one step on the global fields -/

/-- The cells of the global grid. -/
def Dom3 (gz gy gx : ℕ) (G : C3) : Prop := 0 ≤ G.1 ∧ G.1 < gz ∧ 0 ≤ G.2.1 ∧ G.2.1 < gy ∧ 0 ≤ G.2.2 ∧ G.2.2 < gx

instance (gz gy gx : ℕ) (G : C3) : Decidable (Dom3 gz gy gx G) := by unfold Dom3; infer_instance

/-- The numbers a step depends on. `flt`: order and type of the filter, if any. -/
structure Params3 where
  gz : ℕ
  gy : ℕ
  gx : ℕ
  xr : ℝ
  nu : ℝ
  w : ℕ
  freeStream : Bool
  flt : Option (ℕ × String)

/-- Grid spacing. -/
noncomputable def Params3.dx (P : Params3) : ℝ := P.xr / P.gx

/-- Fields on the global grid, continued beyond its sides: passive scalar, vorticity (or passive vector), velocity. -/
structure Fields3 where
  sc : C3 → ℝ
  om : Fin 3 → C3 → ℝ
  u : Fin 3 → C3 → ℝ

/-- Advection: the flux is added in the cells of the domain. -/
noncomputable def refAdv3 (P : Params3) (K : Kern3) (dt : ℝ) (u : Fin 3 → C3 → ℝ) (f : C3 → ℝ) : C3 → ℝ := fun G =>
  if Dom3 P.gz P.gy P.gx G then f G + K.adv (-(dt / P.dx)) (fun i d => match i with
    | none => f (G.1 + d.1, G.2.1 + d.2.1, G.2.2 + d.2.2)
    | some j => u j (G.1 + d.1, G.2.1 + d.2.1, G.2.2 + d.2.2)) else f G

/-- Diffusion: the flux is added in the cells of the domain other than the outermost ones. -/
noncomputable def refDiff3 (P : Params3) (K : Kern3) (dt : ℝ) (f : C3 → ℝ) : C3 → ℝ := fun G =>
  if Dom3 P.gz P.gy P.gx G ∧ ¬ OnEdge3 P.gz P.gy P.gx G then
    f G + K.diff (P.nu * dt / P.dx / P.dx) (fun _ d => f (G.1 + d.1, G.2.1 + d.2.1, G.2.2 + d.2.2)) else f G

/-- Component `j` of a triple. -/
def comp3 (t : ℝ × ℝ × ℝ) : Fin 3 → ℝ := ![t.1, t.2.1, t.2.2]

/-- Cross product of two vector fields. -/
def crossF (u v : Fin 3 → C3 → ℝ) : Fin 3 → C3 → ℝ :=
  ![fun G => u 1 G * v 2 G - u 2 G * v 1 G, fun G => u 2 G * v 0 G - u 0 G * v 2 G, fun G => u 0 G * v 1 G - u 1 G * v 0 G]

/-- Vorticity update: the curl of `f` is added in the cells of the domain. -/
noncomputable def refUpd3 (P : Params3) (K : Kern3) (dt : ℝ) (f om : Fin 3 → C3 → ℝ) : Fin 3 → C3 → ℝ := fun j G =>
  if Dom3 P.gz P.gy P.gx G then
    om j G + comp3 (K.upd (dt / (2 * P.dx)) (fun i d => f i (G.1 + d.1, G.2.1 + d.2.1, G.2.2 + d.2.2))) j else om j G

/-- Filter of one component, boundary zone of one cell. -/
noncomputable def refFilter3 (P : Params3) (f : C3 → ℝ) : C3 → ℝ := match P.flt with
  | none => f
  | some (order, ty) => if ty = "multiplicative" then serialMultiplicative P.gz P.gy P.gx 1 false order f
      else serialConvolution P.gz P.gy P.gx 1 false order f

/-- Velocity from vorticity: curl of the free-space vector potential, zero in the outermost cells and outside. -/
noncomputable def refVel3 (P : Params3) (K : Kern3) (om : Fin 3 → C3 → ℝ) : Fin 3 → C3 → ℝ := fun j G =>
  if Dom3 P.gz P.gy P.gx G ∧ ¬ OnEdge3 P.gz P.gy P.gx G then
    comp3 (K.curl (0.5 / P.dx) (fun i d => freeSolution3 P.gz P.gy P.gx P.dx (om i) (G.1 + d.1, G.2.1 + d.2.1, G.2.2 + d.2.2))) j else 0

/-- Free stream, added everywhere. -/
def refFree3 (P : Params3) (fs : Fin 3 → ℝ) (u : Fin 3 → C3 → ℝ) : Fin 3 → C3 → ℝ := fun j G => if P.freeStream then u j G + fs j else u j G

/-- One passive scalar step. -/
noncomputable def refScalar3 (P : Params3) (K : Kern3) (dt : ℝ) (F : Fields3) : Fields3 :=
  { F with sc := refDiff3 P K dt (refAdv3 P K dt F.u F.sc) }

/-- One passive vector step. -/
noncomputable def refVector3 (P : Params3) (K : Kern3) (dt : ℝ) (F : Fields3) : Fields3 :=
  { F with om := fun j => refDiff3 P K dt (refAdv3 P K dt F.u (F.om j)) }

/-- Vorticity after one Navier-Stokes step: curl of u × ω, diffusion, filter, penalisation. -/
noncomputable def refVort3 (P : Params3) (K : Kern3) (dt : ℝ) (F : Fields3) : Fin 3 → C3 → ℝ := fun j =>
  serialPen3 false P.gz P.gy P.gx P.w (refFilter3 P (refDiff3 P K dt (refUpd3 P K dt (crossF F.u F.om) F.om j)))

/-- One Navier-Stokes step. -/
noncomputable def refNS3 (P : Params3) (K : Kern3) (dt : ℝ) (fs : Fin 3 → ℝ) (F : Fields3) : Fields3 :=
  { F with om := refVort3 P K dt F, u := refFree3 P fs (refVel3 P K (refVort3 P K dt F)) }

/-- One Navier-Stokes step with forcing `Φ`. -/
noncomputable def refForcing3 (P : Params3) (K : Kern3) (dt : ℝ) (fs : Fin 3 → ℝ) (Φ : Fin 3 → C3 → ℝ) (F : Fields3) : Fields3 :=
  refNS3 P K dt fs { F with om := refUpd3 P K dt Φ F.om }

/-- The kernels look at neighbours along the axes: at most 1 cell away, advection 2. -/
structure Kern3.Local (K : Kern3) : Prop where
  diff : ∀ a, CrossLocal3 1 (K.diff a)
  adv : ∀ a, CrossLocal3 2 (K.adv a)
  curl : ∀ a, CrossLocal3 1 (K.curl a)
  upd : ∀ a, CrossLocal3 1 (K.upd a)

/-- A cell a stencil of an inner cell can reach beyond a side of the domain: a ghost cell outside the domain, in the ghost layer along one axis only. -/
def FaceOut3 (T : Cart3) (g : ℕ) (c p : C3) : Prop :=
  dirRank (zone g T.nz p.1, zone g T.ny p.2.1, zone g T.nx p.2.2) ≤ 1 ∧ ¬ InDomain3 T (globalIx3 T g c p)

/-- The ranks hold `F`: in inner cells, and in the face ghost cells beyond the sides of the domain. -/
def HoldsX3 (T : Cart3) (g : ℕ) (F : C3 → ℝ) (v : World C3 C3 ℝ) : Prop :=
  ∀ c p, Valid3 T c → InArr3 T g p → (Inner3 T g p ∨ FaceOut3 T g c p) → v c p = F (globalIx3 T g c p)

/-! ## Helpers -/

variable {gz gy gx pz py px : ℕ} {T : Cart3}

theorem inArr_of_inner3 {g : ℕ} {p : C3} (h : Inner3 T g p) : InArr3 T g p := by
  obtain ⟨h1, h2, h3, h4, h5, h6⟩ := h
  exact ⟨by omega, by omega, by omega, by omega, by omega, by omega⟩

theorem dom3_iff (hT : mkCart3 gz gy gx pz py px false = .ok T) (G : C3) : Dom3 gz gy gx G ↔ InDomain3 T G := by
  obtain ⟨e0, e1, e2, -⟩ := construct3_ok hT
  unfold Dom3 InDomain3
  rw [e0, e1, e2]

theorem holdsX3_holds {g : ℕ} {F : C3 → ℝ} {v : World C3 C3 ℝ} (h : HoldsX3 T g F v) : Holds3 T g F v :=
  fun c p hc hp => h c p hc (inArr_of_inner3 hp) (Or.inl hp)

theorem dirRank_le_one {s : C3} (h : dirRank s ≤ 1) : (s.2.1 = 0 ∧ s.2.2 = 0) ∨ (s.1 = 0 ∧ s.2.2 = 0) ∨ (s.1 = 0 ∧ s.2.1 = 0) := by
  unfold dirRank at h
  split_ifs at h with h1 h2 h3 h3 h2 h3 h3 <;> first | omega | (push Not at *; tauto)

/-- cells of the array outside the domain lie beyond the physical boundary along some axis -/
theorem outside_beyond3 (hT : mkCart3 gz gy gx pz py px false = .ok T) {g : ℕ} (hz : g ≤ T.nz) (hy : g ≤ T.ny) (hx : g ≤ T.nx) {c p : C3}
    (hc : Valid3 T c) (hp : InArr3 T g p) (hD : ¬ InDomain3 T (globalIx3 T g c p)) :
    (c.1 = 0 ∧ p.1 < g) ∨ (c.1 = T.pz - 1 ∧ g + T.nz ≤ p.1) ∨ (c.2.1 = 0 ∧ p.2.1 < g) ∨ (c.2.1 = T.py - 1 ∧ g + T.ny ≤ p.2.1) ∨
    (c.2.2 = 0 ∧ p.2.2 < g) ∨ (c.2.2 = T.px - 1 ∧ g + T.nx ≤ p.2.2) := by
  obtain ⟨-, -, -, -, -, -, hper, hZ, hY, hX⟩ := construct3_ok hT
  obtain ⟨c1, c2, c3, c4, c5, c6⟩ := hc
  obtain ⟨p1, p2, p3, p4, p5, p6⟩ := hp
  rcases axis_beyond hz c1 c2 p1 p2 with a | a | a
  · rcases axis_beyond hy c3 c4 p3 p4 with b | b | b
    · rcases axis_beyond hx c5 c6 p5 p6 with d | d | d
      · exfalso; apply hD; rw [hZ] at a; rw [hY] at b; rw [hX] at d; exact ⟨a.1, a.2, b.1, b.2, d.1, d.2⟩
      · exact Or.inr (Or.inr (Or.inr (Or.inr (Or.inl d))))
      · exact Or.inr (Or.inr (Or.inr (Or.inr (Or.inr d))))
    · exact Or.inr (Or.inr (Or.inl b))
    · exact Or.inr (Or.inr (Or.inr (Or.inl b)))
  · exact Or.inl a
  · exact Or.inr (Or.inl a)

/-- the boundary zeroing sets the ghost cells beyond the physical boundary -/
theorem zeroSides3_outside {β : Type} (hT : mkCart3 gz gy gx pz py px false = .ok T) {g : ℕ} (hz : g ≤ T.nz) (hy : g ≤ T.ny) (hx : g ≤ T.nx)
    (h1z : 1 ≤ T.nz) (h1y : 1 ≤ T.ny) (h1x : 1 ≤ T.nx) (z : β) (out : C3 → β)
    {c p : C3} (hc : Valid3 T c) (hp : InArr3 T g p) (hD : ¬ InDomain3 T (globalIx3 T g c p)) : zeroSides3 T g z c out p = z := by
  have hb := outside_beyond3 hT hz hy hx hc hp hD
  obtain ⟨-, -, -, -, -, -, hper, -⟩ := construct3_ok hT
  obtain ⟨n1, n2, n3, n4, n5, n6⟩ := nbrNone3 hc
  rw [hper] at n1 n2 n3 n4 n5 n6
  simp only [true_and] at n1 n2 n3 n4 n5 n6
  obtain ⟨p1, p2, p3, p4, p5, p6⟩ := hp
  unfold zeroSides3 sliceR
  rw [pyStart_min (size := T.nx + 2 * g) (o := 0) le_rfl, pyStart_min (size := T.ny + 2 * g) (o := 0) le_rfl,
    pyStart_min (size := T.nz + 2 * g) (o := 0) le_rfl,
    pyStart_min (size := T.nx + 2 * g) (o := g + 1) (by omega), pyStart_min (size := T.ny + 2 * g) (o := g + 1) (by omega),
    pyStart_min (size := T.nz + 2 * g) (o := g + 1) (by omega),
    pyStart_max (size := T.nx + 2 * g) (o := -g - 1) (by omega), pyStart_max (size := T.ny + 2 * g) (o := -g - 1) (by omega),
    pyStart_max (size := T.nz + 2 * g) (o := -g - 1) (by omega)]
  simp only [ite_apply, n1, n2, n3, n4, n5, n6]
  have hset : ∀ (A B : Prop) [Decidable A] [Decidable B] (o : β), (if A then (if B then z else o) else o) = if A ∧ B then z else o := by
    intro A B _ _ o; by_cases hA : A <;> by_cases hB : B <;> simp [hA, hB]
  have hor : ∀ (A B : Prop) [Decidable A] [Decidable B] (o : β), (if A then z else if B then z else o) = if A ∨ B then z else o := by
    intro A B _ _ o; by_cases hA : A <;> by_cases hB : B <;> simp [hA, hB]
  simp only [hset]
  simp only [hor]
  rw [if_pos]
  rcases hb with h | h | h | h | h | h
  · omega
  · omega
  · omega
  · omega
  · omega
  · omega

/-- The numbers of a simulator on a `gz × gy × gx` grid. -/
def Cfg3.params (C : Cfg3) (gz gy gx : ℕ) : Params3 := ⟨gz, gy, gx, C.xr, C.nu, C.w, C.freeStream, C.flt⟩

theorem params3_dx (hT : mkCart3 gz gy gx pz py px false = .ok T) (C : Cfg3) : simDx3 T C.xr = (C.params gz gy gx).dx := by
  obtain ⟨-, -, e2, -⟩ := construct3_ok hT
  unfold simDx3 Params3.dx Cfg3.params
  rw [e2]

/-- an exchange leaves cells outside a non-periodic domain alone -/
theorem multi3_outside {ι : Type} [DecidableEq ι] (hT : mkCart3 gz gy gx pz py px false = .ok T) {g : ℕ} (hz : g ≤ T.nz) (hy : g ≤ T.ny) (hx : g ≤ T.nx)
    (full : Bool) {comps : List ι} (hcs : ∀ i, i ∈ comps) (w : World C3 (ι × C3) ℝ) {s : List Ev} (hs : Complete (multiMsgs3 T g full comps) s)
    {c p : C3} (hc : Valid3 T c) (hp : InArr3 T g p) (hD : ¬ InDomain3 T (globalIx3 T g c p)) (i : ι) :
    multiExchange3 T g full comps w s c (i, p) = w c (i, p) := by
  obtain ⟨s', hs'⟩ := complete_schedule_exists (ghostMsgs3 T g full)
  rw [multiExchange3_eq hz hy hx full hcs w hs hs' i, exchange3_outside hT hz hy hx full _ hs' hc hp hD]

theorem contIx3_false (gz gy gx : ℕ) (G : C3) : contIx3 gz gy gx false G = G := rfl

/-- exchanged arrays still hold what they held -/
theorem multi3_holdsX {ι : Type} [DecidableEq ι] (hT : mkCart3 gz gy gx pz py px false = .ok T) {g : ℕ} (hz : g ≤ T.nz) (hy : g ≤ T.ny) (hx : g ≤ T.nx)
    (full : Bool) {comps : List ι} (hcs : ∀ i, i ∈ comps) (w : World C3 (ι × C3) ℝ) {s : List Ev} (hs : Complete (multiMsgs3 T g full comps) s)
    {F : C3 → ℝ} (i : ι) (h : HoldsX3 T g F (fun c p => w c (i, p))) : HoldsX3 T g F (fun c p => multiExchange3 T g full comps w s c (i, p)) := by
  intro c p hc ha hp
  rcases hp with hp | hp
  · simp only
    rw [multiExchange3_inner hz hy hx full hcs _ _ _ hp]
    exact h c p hc ha (Or.inl hp)
  · simp only
    rw [multi3_outside hT hz hy hx full hcs _ hs hc ha hp.2]
    exact h c p hc ha (Or.inr hp)

/-- an accumulating kernel whose boundary increments vanish at a ghost cell leaves that cell -/
theorem kernel3_add_zero {ι K β : Type} [AddZeroClass β] {g k : ℕ} (hg : 1 ≤ g) {f : (ι → C3 → K) → β} {A1 A2 : ι → C3 → K} (out : C3 → β) {p : C3}
    (hp : ¬ Inner3 T g p) (h : ∀ V ∈ boundaryViews3 T g k, writes3 k V p → (f fun i d => A2 i (shift3 p d)) = 0) :
    kernel3 T g k false (fun a b => a + b) f A1 A2 out p = out p := by
  have h0 : ¬ writes3 k (interiorView3 T g false) p := by
    intro hw
    apply hp
    unfold writes3 interiorView3 at hw
    simp only [inPass_inner hg, Bool.false_eq_true, if_false] at hw
    exact ⟨by omega, by omega, by omega, by omega, by omega, by omega⟩
  have hpass : ∀ V ∈ boundaryViews3 T g k, ∀ o : C3 → β, pass3 k (fun a b => a + b) f A2 o V p = o p := by
    intro V hV o
    by_cases hw : writes3 k V p
    · rw [pass3_pos hw, h V hV hw, add_zero]
    · rw [pass3_neg hw]
  unfold kernel3
  have hfold : ∀ (L : List View3), (∀ V ∈ L, V ∈ boundaryViews3 T g k) → ∀ o : C3 → β, L.foldl (pass3 k (fun a b => a + b) f A2) o p = o p := by
    intro L
    induction L with
    | nil => intro _ o; rfl
    | cons V L ih =>
      intro hL o
      rw [List.foldl_cons, ih (fun V' hV' => hL V' (List.mem_cons_of_mem _ hV')), hpass V (hL V List.mem_cons_self)]
  rw [hfold _ (fun V hV => hV), pass3_neg h0]

/-- if the ghost layer is as wide as the stencil, the passes write inner cells only -/
theorem writes3_inner {g : ℕ} (hg : 1 ≤ g) (hz : g ≤ T.nz) (hy : g ≤ T.ny) (hx : g ≤ T.nx) {V : View3} (hV : V ∈ boundaryViews3 T g g) {p : C3}
    (hw : writes3 g V p) : Inner3 T g p := by
  unfold boundaryViews3 at hV
  simp only [List.mem_cons, List.not_mem_nil, or_false] at hV
  rcases hV with rfl | rfl | rfl | rfl | rfl | rfl <;> unfold writes3 at hw <;>
    simp only [inPass_inner hg, inPass_lo le_rfl hz, inPass_lo le_rfl hy, inPass_lo le_rfl hx, inPass_hi hg le_rfl hz,
      inPass_hi hg le_rfl hy, inPass_hi hg le_rfl hx, inPass_full] at hw <;>
    exact ⟨by omega, by omega, by omega, by omega, by omega, by omega⟩

/-- passes of a kernel with reach 1 read cells of the array -/
theorem writes3_window {g : ℕ} (hg : 1 ≤ g) (hz : 1 ≤ T.nz) (hy : 1 ≤ T.ny) (hx : 1 ≤ T.nx) {V : View3} (hV : V ∈ boundaryViews3 T g 1) {p d : C3}
    (hw : writes3 1 V p) (hd : Cross3 1 d) : InArr3 T g (shift3 p d) := by
  unfold boundaryViews3 at hV
  unfold Cross3 at hd
  unfold InArr3 shift3
  simp only [List.mem_cons, List.not_mem_nil, or_false] at hV
  rcases hV with rfl | rfl | rfl | rfl | rfl | rfl <;> unfold writes3 at hw <;>
    simp only [inPass_inner hg, inPass_lo hg hz, inPass_lo hg hy, inPass_lo hg hx, inPass_hi hg hg hz,
      inPass_hi hg hg hy, inPass_hi hg hg hx, inPass_full] at hw <;>
    (simp only; omega)

/-! ## The calls of a step -/

/-- one advection step -/
theorem advStep3_holds (hT : mkCart3 gz gy gx pz py px false = .ok T) (hz : 4 ≤ T.nz) (hy : 4 ≤ T.ny) (hx : 4 ≤ T.nx) (full : Bool)
    {P : Params3} (hP : P.gz = gz ∧ P.gy = gy ∧ P.gx = gx) {K : Kern3} (hK : K.Local) {dt : ℝ} {q : ℝ} (hq : q = dt / P.dx)
    {sch : Sched3} (hs : Complete (multiMsgs3 T 2 full [none, some (0 : Fin 3), some 1, some 2]) sch.2)
    {F : C3 → ℝ} {V : Fin 3 → C3 → ℝ} {vel : World C3 (Fin 3 × C3) ℝ} {st : StepState C3 C3 ℝ} (hF : HoldsX3 T 2 F st.field)
    (hV : ∀ j, HoldsX3 T 2 (V j) (fun c p => vel c (j, p))) :
    HoldsX3 T 2 (refAdv3 P K dt V F) (advectionStep3 T 2 full K.adv q sch.1 sch.2 vel st).2.field ∧
    ∀ j, HoldsX3 T 2 (V j) (fun c p => (advectionStep3 T 2 full K.adv q sch.1 sch.2 vel st).1 c (j, p)) := by
  constructor
  · intro c p hc ha hp
    rcases hp with hp | hp
    · rw [advectionStep3_global (F := F) (V := V) hT le_rfl (by omega) (by omega) (by omega) hz hy hx full q (hK.adv _) vel st
        (fun c p hc hp => hF c p hc (inArr_of_inner3 hp) (Or.inl hp)) (fun c p hc hp j => hV j c p hc (inArr_of_inner3 hp) (Or.inl hp)) sch.1 hs hc hp
        (Or.inr (Or.inr fun q h1 h2 h3 => ⟨hF c q hc h1 (Or.inr ⟨h2, h3⟩), fun j => hV j c q hc h1 (Or.inr ⟨h2, h3⟩)⟩))]
      have hd : Dom3 P.gz P.gy P.gx (globalIx3 T ((2 : ℕ) : ℤ) c p) := by
        rw [hP.1, hP.2.1, hP.2.2]; exact (dom3_iff hT _).2 (inner_inDomain3 hT hc hp)
      unfold refAdv3
      rw [if_pos hd, hq]
      unfold serialAt3
      simp only [contIx3_false]
      congr 2
      funext i d
      cases i <;> rfl
    · have hd : ¬ Dom3 P.gz P.gy P.gx (globalIx3 T ((2 : ℕ) : ℤ) c p) := by
        rw [hP.1, hP.2.1, hP.2.2]; exact fun h => hp.2 ((dom3_iff hT _).1 h)
      unfold refAdv3
      rw [if_neg hd]
      unfold advectionStep3 addFlux3 stencilAdd3 stencil3
      simp only
      have hin : ¬ Inner3 T ((2 : ℕ) : ℤ) p := fun h => hp.2 (inner_inDomain3 hT hc h)
      rw [kernel3_add_zero (by omega) _ hin, multi3_outside hT (by omega) (by omega) (by omega) full mem_advComps3 _ hs hc ha hp.2]
      · simp only
        rw [hF c p hc ha (Or.inr hp), add_zero]
      · intro V' hV' hw
        exact absurd (writes3_inner (by omega) (by omega) (by omega) (by omega) hV' hw) hin
  · intro j
    unfold advectionStep3
    simp only
    exact multi3_holdsX hT (by omega) (by omega) (by omega) full mem_advComps3 _ hs (some j) (hV j)

/-- one diffusion step, inner cells -/
theorem diffStep3_inner (hT : mkCart3 gz gy gx pz py px false = .ok T) {g : ℕ} (hg : 1 ≤ g) (hz : g ≤ T.nz) (hy : g ≤ T.ny) (hx : g ≤ T.nx) (full : Bool)
    {P : Params3} (hP : P.gz = gz ∧ P.gy = gy ∧ P.gx = gx) {K : Kern3} (hK : K.Local) {dt q : ℝ} (hq : q = P.nu * dt / P.dx / P.dx)
    {sch : Sched3} (hs : Complete (multiMsgs3 T g full [()]) sch.2) {F : C3 → ℝ} {st : StepState C3 C3 ℝ} (hF : Holds3 T g F st.field) :
    Holds3 T g (refDiff3 P K dt F) (diffusionStep3 T g full (K.diff q) sch.1 sch.2 st).field := by
  intro c p hc hp
  rw [diffusionStep3_global (F := F) hT hg hz hy hx full (hK.diff _) st hF sch.1 hs hc hp]
  have hd : Dom3 P.gz P.gy P.gx (globalIx3 T g c p) := by
    rw [hP.1, hP.2.1, hP.2.2]; exact (dom3_iff hT _).2 (inner_inDomain3 hT hc hp)
  unfold serialDiffusion3 serialZero3 serialAt3 refDiff3
  rw [hP.1, hP.2.1, hP.2.2] at *
  simp only [contIx3_false, true_and]
  by_cases he : OnEdge3 gz gy gx (globalIx3 T g c p)
  · rw [if_pos he, add_zero, if_neg (fun h => h.2 he)]
  · rw [if_neg he, if_pos ⟨hd, he⟩, hq]

/-- one diffusion step, also beyond the sides -/
theorem diffStep3_holdsX (hT : mkCart3 gz gy gx pz py px false = .ok T) {g : ℕ} (hg : 1 ≤ g) (hz : g ≤ T.nz) (hy : g ≤ T.ny) (hx : g ≤ T.nx) (full : Bool)
    {P : Params3} (hP : P.gz = gz ∧ P.gy = gy ∧ P.gx = gx) {K : Kern3} (hK : K.Local) {dt q : ℝ} (hq : q = P.nu * dt / P.dx / P.dx)
    {sch : Sched3} (hs : Complete (multiMsgs3 T g full [()]) sch.2) {F : C3 → ℝ} {st : StepState C3 C3 ℝ} (hF : HoldsX3 T g F st.field) :
    HoldsX3 T g (refDiff3 P K dt F) (diffusionStep3 T g full (K.diff q) sch.1 sch.2 st).field := by
  intro c p hc ha hp
  rcases hp with hp | hp
  · exact diffStep3_inner hT hg hz hy hx full hP hK hq hs (holdsX3_holds hF) c p hc hp
  · have hd : ¬ Dom3 P.gz P.gy P.gx (globalIx3 T g c p) := by
      rw [hP.1, hP.2.1, hP.2.2]; exact fun h => hp.2 ((dom3_iff hT _).1 h)
    unfold refDiff3
    rw [if_neg (fun h => hd h.1)]
    unfold diffusionStep3 addFlux3 stencilZero3
    simp only
    rw [zeroSides3_outside hT hz hy hx (by omega) (by omega) (by omega) _ _ hc ha hp.2,
      multi3_outside hT hz hy hx full (by simp) _ hs hc ha hp.2, add_zero]
    exact hF c p hc ha (Or.inr hp)

theorem diffVec3_field (T : Cart3) (g : ℕ) (full : Bool) (f : (Unit → C3 → ℝ) → ℝ) (sch : Fin 3 → Sched3) (st : VecStepState ℝ) (i : Fin 3) :
    ∃ fl, (diffusionVecStep3 T g full f sch st).field i = (diffusionStep3 T g full f (sch i).1 (sch i).2 ⟨st.field i, fl⟩).field := by
  unfold diffusionVecStep3
  simp only [List.foldl_cons, List.foldl_nil]
  match i with
  | 0 => exact ⟨st.flux, by simp [Function.update]⟩
  | 1 => exact ⟨_, by simp [Function.update]; rfl⟩
  | 2 => exact ⟨_, by simp [Function.update]; rfl⟩

end Sopht
