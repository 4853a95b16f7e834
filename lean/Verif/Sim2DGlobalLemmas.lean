import Verif.Sim2DProps

/-! What one 2D simulator step does, in terms of the global fields: specification and helpers. -/

namespace Sopht

set_option linter.unusedSimpArgs false

/-! ## Specification: one step on the global fields -/

/-- The cells of the global grid. -/
def Dom2 (gy gx : ℕ) (G : C2) : Prop := 0 ≤ G.1 ∧ G.1 < gy ∧ 0 ≤ G.2 ∧ G.2 < gx

instance (gy gx : ℕ) (G : C2) : Decidable (Dom2 gy gx G) := by unfold Dom2; infer_instance

/-- The numbers a step depends on. -/
structure Params2 where
  gy : ℕ
  gx : ℕ
  xr : ℝ
  nu : ℝ
  w : ℕ
  freeStream : Bool

/-- Grid spacing. -/
noncomputable def Params2.dx (P : Params2) : ℝ := P.xr / P.gx

/-- Fields on the global grid, continued beyond its sides. -/
structure Fields2 where
  om : C2 → ℝ
  u : Fin 2 → C2 → ℝ

/-- Advection: the flux is added in the cells of the domain. -/
noncomputable def refAdv2 (P : Params2) (K : Kern2) (dt : ℝ) (u : Fin 2 → C2 → ℝ) (om : C2 → ℝ) : C2 → ℝ := fun G =>
  if Dom2 P.gy P.gx G then om G + K.adv (-(dt / P.dx)) (fun i d => match i with
    | none => om (G.1 + d.1, G.2 + d.2)
    | some j => u j (G.1 + d.1, G.2 + d.2)) else om G

/-- Diffusion: the flux is added in the cells of the domain other than the outermost ones. -/
noncomputable def refDiff2 (P : Params2) (K : Kern2) (dt : ℝ) (om : C2 → ℝ) : C2 → ℝ := fun G =>
  if Dom2 P.gy P.gx G ∧ ¬ OnEdge2 P.gy P.gx G then om G + K.diff (P.nu * dt / P.dx / P.dx) (fun _ d => om (G.1 + d.1, G.2 + d.2)) else om G

/-- Velocity from vorticity: curl of the free-space stream function, zero in the outermost cells and outside. -/
noncomputable def refVel2 (P : Params2) (K : Kern2) (om : C2 → ℝ) (G : C2) : ℝ × ℝ :=
  if Dom2 P.gy P.gx G ∧ ¬ OnEdge2 P.gy P.gx G then
    K.curl (0.5 / P.dx) (fun _ d => freeSolution2 P.gy P.gx P.dx om (G.1 + d.1, G.2 + d.2)) else (0, 0)

/-- Free stream, added everywhere. -/
def refFree2 (P : Params2) (fs : Fin 2 → ℝ) (u : Fin 2 → C2 → ℝ) : Fin 2 → C2 → ℝ := fun j G => if P.freeStream then u j G + fs j else u j G

/-- Forcing: its curl is added in the cells of the domain. -/
noncomputable def refForce2 (P : Params2) (K : Kern2) (dt : ℝ) (Φ : Fin 2 → C2 → ℝ) (om : C2 → ℝ) : C2 → ℝ := fun G =>
  if Dom2 P.gy P.gx G then om G + K.upd (dt / (2 * P.dx)) (fun j d => Φ j (G.1 + d.1, G.2 + d.2)) else om G

/-- One passive scalar step. -/
noncomputable def refScalar2 (P : Params2) (K : Kern2) (dt : ℝ) (F : Fields2) : Fields2 :=
  { om := refDiff2 P K dt (refAdv2 P K dt F.u F.om), u := F.u }

/-- One Navier-Stokes step. -/
noncomputable def refNS2 (P : Params2) (K : Kern2) (dt : ℝ) (fs : Fin 2 → ℝ) (F : Fields2) : Fields2 :=
  let om := serialPen2 false P.gy P.gx P.w (refDiff2 P K dt (refAdv2 P K dt F.u F.om))
  { om, u := refFree2 P fs ![fun G => (refVel2 P K om G).1, fun G => (refVel2 P K om G).2] }

/-- One Navier-Stokes step with forcing `Φ`. -/
noncomputable def refForcing2 (P : Params2) (K : Kern2) (dt : ℝ) (fs : Fin 2 → ℝ) (Φ : Fin 2 → C2 → ℝ) (F : Fields2) : Fields2 :=
  refNS2 P K dt fs { F with om := refForce2 P K dt Φ F.om }

/-- The kernels look at neighbours along the axes: at most 1 cell away, advection 2. -/
structure Kern2.Local (K : Kern2) : Prop where
  diff : ∀ a, CrossLocal2 1 (K.diff a)
  adv : ∀ a, CrossLocal2 2 (K.adv a)
  curl : ∀ a, CrossLocal2 1 (K.curl a)
  upd : ∀ a, CrossLocal2 1 (K.upd a)

/-- The ranks hold `F`: in inner cells, and in the ghost cells beyond the sides of the domain. -/
def HoldsX2 (T : Cart2) (g : ℕ) (F : C2 → ℝ) (v : World C2 C2 ℝ) : Prop :=
  ∀ c p, Valid2 T c → InArr2 T g p → (Inner2 T g p ∨ ((zone g T.ny p.1 = 0 ∨ zone g T.nx p.2 = 0) ∧ ¬ InDomain2 T (globalIx2 T g c p))) →
    v c p = F (globalIx2 T g c p)

/-! ## Helpers -/

variable {gy gx py px : ℕ} {T : Cart2}

theorem inArr_of_inner2 {g : ℕ} {p : C2} (h : Inner2 T g p) : InArr2 T g p := by
  obtain ⟨h1, h2, h3, h4⟩ := h
  exact ⟨by omega, by omega, by omega, by omega⟩

theorem unflat2_flat2 {g : ℕ} {p : C2} (h : InArr2 T g p) : unflat2 T g (flat2 T g p) = p := by
  have h4 : p.2 < cols2 T g := by unfold cols2; have := h.2.2.2; omega
  have := flat2_div (T := T) (g := g) (p := p) (by have := h.2.2.1; omega) h4
  unfold unflat2
  rw [this.1, this.2]

theorem toFlat2_flat {g : ℕ} {p : C2} (h : InArr2 T g p) (v : World C2 C2 ℝ) (c : C2) : toFlat2 T g v c (flat2 T g p) = v c p := by
  unfold toFlat2; rw [unflat2_flat2 h]

theorem dom2_iff (hT : mkCart2 gy gx py px false = .ok T) (G : C2) : Dom2 gy gx G ↔ InDomain2 T G := by
  obtain ⟨e1, e2, -⟩ := construct2_ok hT
  unfold Dom2 InDomain2
  rw [e1, e2]

theorem holdsX2_ext (hT : mkCart2 gy gx py px false = .ok T) {g : ℕ} {F : C2 → ℝ} {v : World C2 C2 ℝ} (h : HoldsX2 T g F v) :
    HoldsExt2 T g F (toFlat2 T g v) := by
  intro c p hc hp
  rcases hp with hp | ⟨-, ha, hz, hD⟩
  · rw [toFlat2_flat (inArr_of_inner2 hp)]; exact h c p hc (inArr_of_inner2 hp) (Or.inl hp)
  · rw [toFlat2_flat ha]; exact h c p hc ha (Or.inr ⟨hz, hD⟩)

theorem holdsX2_of_ext (hT : mkCart2 gy gx py px false = .ok T) {g : ℕ} {F : C2 → ℝ} {v : World C2 ℤ ℝ} (h : HoldsExt2 T g F v) :
    HoldsX2 T g F (ofFlat2 T g v) := by
  obtain ⟨-, -, -, -, hper, -⟩ := construct2_ok hT
  intro c p hc ha hp
  rcases hp with hp | ⟨hz, hD⟩
  · exact h c p hc (Or.inl hp)
  · exact h c p hc (Or.inr ⟨hper, ha, hz, hD⟩)

theorem holdsX2_blocks {g : ℕ} {F : C2 → ℝ} {v : World C2 C2 ℝ} (h : HoldsX2 T g F v) : Blocks2 T g F v :=
  fun c p hc hp => h c p hc (inArr_of_inner2 hp) (Or.inl hp)

/-- an index of a block that is outside the domain along its axis lies beyond the physical boundary -/
theorem axis_beyond {P n g : ℕ} (hng : g ≤ n) {c i : ℤ} (c0 : 0 ≤ c) (c1 : c < P) (i0 : 0 ≤ i) (i1 : i < n + 2 * g) :
    (0 ≤ c * n + i - g ∧ c * n + i - g < (P * n : ℕ)) ∨ (c = 0 ∧ i < g) ∨ (c = P - 1 ∧ g + n ≤ i) := by
  by_cases h1 : c * n + i - g < 0
  · right; left
    by_cases hc : c = 0
    · subst hc; exact ⟨rfl, by linarith⟩
    · exfalso
      have : 1 ≤ c := by omega
      have : (n : ℤ) ≤ c * n := by nlinarith
      omega
  · by_cases h2 : c * n + i - g < (P * n : ℕ)
    · left; exact ⟨by omega, h2⟩
    · right; right
      push_cast at h2
      by_cases hc : c = P - 1
      · refine ⟨hc, ?_⟩
        subst hc
        have : ((P : ℤ) - 1) * n = P * n - n := by ring
        omega
      · exfalso
        have : c ≤ P - 2 := by omega
        have : c * n ≤ (P - 2) * n := by nlinarith
        have : ((P : ℤ) - 2) * n = P * n - 2 * n := by ring
        omega

/-- cells of the array outside the domain lie beyond the physical boundary along some axis -/
theorem outside_beyond2 (hT : mkCart2 gy gx py px false = .ok T) {g : ℕ} (hy : g ≤ T.ny) (hx : g ≤ T.nx) {c p : C2} (hc : Valid2 T c)
    (hp : InArr2 T g p) (hD : ¬ InDomain2 T (globalIx2 T g c p)) :
    (c.1 = 0 ∧ p.1 < g) ∨ (c.1 = T.py - 1 ∧ g + T.ny ≤ p.1) ∨ (c.2 = 0 ∧ p.2 < g) ∨ (c.2 = T.px - 1 ∧ g + T.nx ≤ p.2) := by
  obtain ⟨-, -, -, -, hper, hY, hX⟩ := construct2_ok hT
  obtain ⟨c1, c2, c3, c4⟩ := hc
  obtain ⟨p1, p2, p3, p4⟩ := hp
  rcases axis_beyond hy c1 c2 p1 p2 with a | a | a
  · rcases axis_beyond hx c3 c4 p3 p4 with b | b | b
    · exfalso; apply hD; rw [hY] at a; rw [hX] at b; exact ⟨a.1, a.2, b.1, b.2⟩
    · exact Or.inr (Or.inr (Or.inl b))
    · exact Or.inr (Or.inr (Or.inr b))
  · exact Or.inl a
  · exact Or.inr (Or.inl a)

/-- the boundary zeroing sets the ghost cells beyond the physical boundary -/
theorem zeroSides2_outside {β : Type} (hT : mkCart2 gy gx py px false = .ok T) {g : ℕ} (hg : 1 ≤ g) (hy : g ≤ T.ny) (hx : g ≤ T.nx) (z : β) (out : C2 → β)
    {c p : C2} (hc : Valid2 T c) (hp : InArr2 T g p) (hD : ¬ InDomain2 T (globalIx2 T g c p)) : zeroSides2 T g z c out p = z := by
  have hb := outside_beyond2 hT hy hx hc hp hD
  obtain ⟨-, -, -, -, hper, -⟩ := construct2_ok hT
  obtain ⟨n1, n2, n3, n4⟩ := nbrNone2 hc
  rw [hper] at n1 n2 n3 n4
  simp only [true_and] at n1 n2 n3 n4
  obtain ⟨p1, p2, p3, p4⟩ := hp
  unfold zeroSides2 sliceR
  rw [pyStart_min (size := T.nx + 2 * g) (o := 0) le_rfl, pyStart_min (size := T.ny + 2 * g) (o := 0) le_rfl,
    pyStart_min (size := T.nx + 2 * g) (o := g + 1) (by omega), pyStart_min (size := T.ny + 2 * g) (o := g + 1) (by omega),
    pyStart_max (size := T.nx + 2 * g) (o := -g - 1) (by omega), pyStart_max (size := T.ny + 2 * g) (o := -g - 1) (by omega)]
  simp only [ite_apply, n1, n2, n3, n4]
  have hset : ∀ (A B : Prop) [Decidable A] [Decidable B] (o : β), (if A then (if B then z else o) else o) = if A ∧ B then z else o := by
    intro A B _ _ o; by_cases hA : A <;> by_cases hB : B <;> simp [hA, hB]
  have hor : ∀ (A B : Prop) [Decidable A] [Decidable B] (o : β), (if A then z else if B then z else o) = if A ∨ B then z else o := by
    intro A B _ _ o; by_cases hA : A <;> by_cases hB : B <;> simp [hA, hB]
  simp only [hset]
  simp only [hor]
  rw [if_pos]
  omega

/-- The numbers of a simulator on a `gy × gx` grid. -/
def Cfg2.params (C : Cfg2) (gy gx : ℕ) : Params2 := ⟨gy, gx, C.xr, C.nu, C.w, C.freeStream⟩

theorem params_dx (hT : mkCart2 gy gx py px false = .ok T) (C : Cfg2) : simDx2 T C.xr = (C.params gy gx).dx := by
  obtain ⟨-, e2, -⟩ := construct2_ok hT
  unfold simDx2 Params2.dx Cfg2.params
  rw [e2]

/-- an exchange leaves cells outside a non-periodic domain alone -/
theorem multi2_outside {ι : Type} [DecidableEq ι] (hT : mkCart2 gy gx py px false = .ok T) {g : ℕ} (hg : 1 ≤ g) (hy : g ≤ T.ny) (hx : g ≤ T.nx)
    (full : Bool) {comps : List ι} (hcs : ∀ i, i ∈ comps) (w : World C2 (ι × ℤ) ℝ) {s : List Ev} (hs : Complete (multiMsgs2 T g full comps) s)
    {c p : C2} (hc : Valid2 T c) (hp : InArr2 T g p) (hD : ¬ InDomain2 T (globalIx2 T g c p)) (i : ι) :
    multiExchange2 T g full comps w s c (i, flat2 T g p) = w c (i, flat2 T g p) := by
  obtain ⟨s', hs'⟩ := complete_schedule_exists (ghostMsgs2 T g full)
  rw [multiExchange2_eq hg hy hx full hcs w hs hs' i, exchange2_outside hT hg hy hx full _ hs' hc hp hD]

theorem contIx2_false (gy gx : ℕ) (G : C2) : contIx2 gy gx false G = G := rfl

theorem refAdv2_eq (P : Params2) (K : Kern2) (dt : ℝ) (u : Fin 2 → C2 → ℝ) (om : C2 → ℝ) :
    refAdv2 P K dt u om = serialAdvection2 P.gy P.gx false (K.adv (-(dt / P.dx))) u om := by
  funext G
  unfold refAdv2 serialAdvection2 serialAt2 Dom2
  simp only [Bool.false_eq_true, false_or, contIx2_false]
  congr 3
  funext i d
  cases i <;> rfl

/-- `advection_timestep` -/
theorem callAdv2_holds (hT : mkCart2 gy gx py px false = .ok T) {C : Cfg2} (hg : C.g = 2) (hy : 4 ≤ T.ny) (hx : 4 ≤ T.nx)
    {K : Kern2} (hK : K.Local) {sch : Sched2} (hs : Complete (multiMsgs2 T 2 false [none, some (0 : Fin 2), some 1]) sch.2) (dt : ℝ)
    {S : Sim2 T} {F : Fields2} (ho : HoldsX2 T 2 F.om S.prim) (hu : ∀ j, HoldsX2 T 2 (F.u j) (S.vel j)) :
    HoldsX2 T 2 (refAdv2 (C.params gy gx) K dt F.u F.om) (callAdv2 C K sch dt S).prim ∧
    ∀ j, HoldsX2 T 2 (F.u j) ((callAdv2 C K sch dt S).vel j) := by
  rw [refAdv2_eq, ← params_dx hT]
  unfold callAdv2
  simp only [hg]
  constructor
  · exact holdsX2_of_ext hT (advectionStep2_holds hT hy hx false _ (hK.adv _) _ _ (holdsX2_ext hT ho) (fun j => holdsX2_ext hT (hu j)) sch.1 hs)
  · intro j c p hc ha hp
    unfold ofFlat2 advectionStep2
    simp only
    rcases hp with hp | ⟨hz, hD⟩
    · rw [multiExchange2_inner (by omega) (by omega) (by omega) false mem_advComps2 _ _ _ hp]
      simp only
      rw [toFlat2_flat ha]
      exact hu j c p hc ha (Or.inl hp)
    · rw [multi2_outside hT (by omega) (by omega) (by omega) false mem_advComps2 _ hs hc ha hD]
      simp only
      rw [toFlat2_flat ha]
      exact hu j c p hc ha (Or.inr ⟨hz, hD⟩)

/-- `diffusion_timestep` -/
theorem callDiff2_holds (hT : mkCart2 gy gx py px false = .ok T) {C : Cfg2} (hg : C.g = 2) (hy : 4 ≤ T.ny) (hx : 4 ≤ T.nx)
    {K : Kern2} (hK : K.Local) {sch : Sched2} (hs : Complete (multiMsgs2 T 2 false [()]) sch.2) (dt : ℝ)
    {S : Sim2 T} {om : C2 → ℝ} (ho : HoldsX2 T 2 om S.prim) :
    HoldsX2 T 2 (refDiff2 (C.params gy gx) K dt om) (callDiff2 C K sch dt S).prim := by
  intro c p hc ha hp
  unfold callDiff2 refDiff2
  simp only [hg]
  unfold ofFlat2
  have hcs : ∀ i : Unit, i ∈ [()] := by simp
  rw [← params_dx hT]
  rcases hp with hp | ⟨hz, hD⟩
  · rw [diffusionStep2_global (F := om) hT (by omega) (by omega) (by omega) false (hK.diff _) _ ?_ sch.1 hs hc hp]
    · unfold serialDiffusion2 serialZero2 serialAt2
      simp only [contIx2_false, true_and]
      have hd : Dom2 gy gx (globalIx2 T ((2 : ℕ) : ℤ) c p) := (dom2_iff hT _).2 (inner_inDomain2 hT hc hp)
      by_cases he : OnEdge2 gy gx (globalIx2 T ((2 : ℕ) : ℤ) c p)
      · rw [if_pos he, add_zero]
        exact (if_neg fun h => h.2 he).symm
      · rw [if_neg he]
        exact (if_pos ⟨hd, he⟩).symm
    · intro c p hc hp
      simp only
      rw [toFlat2_flat (inArr_of_inner2 hp)]
      exact ho c p hc (inArr_of_inner2 hp) (Or.inl hp)
  · rw [if_neg (fun h => hD ((dom2_iff hT _).1 h.1))]
    unfold diffusionStep2 addFlux2 stencilZero2
    simp only
    rw [unflat2_flat2 ha, zeroSides2_outside hT (by omega) (by omega) (by omega) _ _ hc ha hD,
      multi2_outside hT (by omega) (by omega) (by omega) false hcs _ hs hc ha hD, add_zero]
    simp only
    rw [toFlat2_flat ha]
    exact ho c p hc ha (Or.inr ⟨hz, hD⟩)

/-- ghost cells beyond a side belong to the cells the penalisation theorem speaks about -/
theorem ownedCell2_of_outside (hT : mkCart2 gy gx py px false = .ok T) {g : ℕ} (hy : g ≤ T.ny) (hx : g ≤ T.nx) {c p : C2} (hc : Valid2 T c)
    (hp : InArr2 T g p) (hz : zone g T.ny p.1 = 0 ∨ zone g T.nx p.2 = 0) (hD : ¬ InDomain2 T (globalIx2 T g c p)) : OwnedCell2 T g c p := by
  have hb := outside_beyond2 hT hy hx hc hp hD
  obtain ⟨-, -, -, -, hper, -⟩ := construct2_ok hT
  obtain ⟨p1, p2, p3, p4⟩ := hp
  rw [zone_zero_iff, zone_zero_iff] at hz
  unfold OwnedCell2 OwnedAxis
  rw [hper]
  simp only [true_and]
  omega

/-- `penalise_field_towards_boundary` -/
theorem callPen2_holds (hT : mkCart2 gy gx py px false = .ok T) {C : Cfg2} (hg : C.g = 2) (hy : 4 ≤ T.ny) (hx : 4 ≤ T.nx)
    (hwy : C.w ≤ T.ny) (hwx : C.w ≤ T.nx) (hxr : 0 < C.xr) {S : Sim2 T} {om : C2 → ℝ} (ho : HoldsX2 T 2 om S.prim) :
    (callPen2 C S).2 = none ∧ (callPen2 C S).1 = { S with prim := (callPen2 C S).1.prim } ∧
      HoldsX2 T 2 (serialPen2 false gy gx C.w om) (callPen2 C S).1.prim := by
  obtain ⟨e1, e2, -, -, hper, hY, hX⟩ := construct2_ok hT
  have hgx : 0 < T.px → simDx2 T C.xr ≠ 0 := by
    intro h
    unfold simDx2
    have : 0 < T.gx := by rw [← hX]; exact Nat.mul_pos h (by omega)
    have : (0 : ℝ) < T.gx := by exact_mod_cast this
    positivity
  have key : ∀ c, Valid2 T c → ∃ out, penalise2 T C.g C.w (simDx2 T C.xr) (position2 T C.g C.xr c 0) (position2 T C.g C.xr c 1) c (S.prim c) = .ok out ∧
      ∀ p, InArr2 T ((2 : ℕ) : ℤ) p → (Inner2 T ((2 : ℕ) : ℤ) p ∨ ((zone (2 : ℕ) T.ny p.1 = 0 ∨ zone (2 : ℕ) T.nx p.2 = 0) ∧
        ¬ InDomain2 T (globalIx2 T ((2 : ℕ) : ℤ) c p))) → out p = serialPen2 false gy gx C.w om (globalIx2 T ((2 : ℕ) : ℤ) c p) := by
    intro c hc
    rw [hg]
    obtain ⟨out, h1, h2⟩ := penalise2_global (w := C.w) hT (show 1 ≤ 2 by omega) hwy hwx (hgx (by have := hc.2.2.1; have := hc.2.2.2; omega)) _ _ hc
      (position2_gridX T 2 C.xr c) (fun p hp => ho c p hc (inArr_of_inner2 hp) (Or.inl hp))
    refine ⟨out, h1, ?_⟩
    intro p ha hp
    rcases hp with hp | ⟨hz, hD⟩
    · exact h2 p (Or.inl hp)
    · by_cases hw : 1 ≤ C.w
      · exact h2 p (Or.inr ⟨hw, ownedCell2_of_outside hT (by omega) (by omega) hc ha hz hD⟩)
      · have hw0 : C.w = 0 := by omega
        rw [hw0] at h1 ⊢
        cases h1
        unfold serialPen2 serialPen1
        simp only [or_true, if_true]
        exact ho c p hc ha (Or.inr ⟨hz, hD⟩)
  have hnone : ((ranks2 T).findSome? fun c => errOf (penalise2 T C.g C.w (simDx2 T C.xr) (position2 T C.g C.xr c 0) (position2 T C.g C.xr c 1) c (S.prim c))) = none := by
    rw [List.findSome?_eq_none_iff]
    intro c hc
    obtain ⟨out, h1, -⟩ := key c (mem_ranks2.1 hc)
    rw [h1]; rfl
  have hpen : callPen2 C S = ({ S with prim := fun c => okOr (S.prim c) (penalise2 T C.g C.w (simDx2 T C.xr) (position2 T C.g C.xr c 0) (position2 T C.g C.xr c 1) c (S.prim c)) }, none) := by
    unfold callPen2
    dsimp only
    rw [hnone]
  rw [hpen]
  refine ⟨rfl, rfl, ?_⟩
  intro c p hc ha hp
  obtain ⟨out, h1, h2⟩ := key c hc
  simp only
  rw [h1]
  exact h2 p ha hp

/-- `curl` -/
theorem callCurl2_holds (hT : mkCart2 gy gx py px false = .ok T) {C : Cfg2} (hg : C.g = 2) (hy : 4 ≤ T.ny) (hx : 4 ≤ T.nx)
    {K : Kern2} (hK : K.Local) {sch : Sched2} (hs : Complete (multiMsgs2 T 2 false [()]) sch.2)
    {S : Sim2 T} {om : C2 → ℝ} (hst : Blocks2 T 2 (freeSolution2 gy gx (C.params gy gx).dx om) S.stream) (j : Fin 2) :
    HoldsX2 T 2 ((![fun G => (refVel2 (C.params gy gx) K om G).1, fun G => (refVel2 (C.params gy gx) K om G).2] : Fin 2 → C2 → ℝ) j)
      ((callCurl2 C K sch S).vel j) := by
  have hcs : ∀ i : Unit, i ∈ [()] := by simp
  have key : ∀ c p, Valid2 T c → InArr2 T ((2 : ℕ) : ℤ) p → (Inner2 T ((2 : ℕ) : ℤ) p ∨ ((zone (2 : ℕ) T.ny p.1 = 0 ∨ zone (2 : ℕ) T.nx p.2 = 0) ∧
        ¬ InDomain2 T (globalIx2 T ((2 : ℕ) : ℤ) c p))) →
      stencilZero2 T 2 false [()] 1 ((0, 0) : ℝ × ℝ) (K.curl (0.5 / simDx2 T C.xr)) (fun c (i : Unit × ℤ) => toFlat2 T 2 S.stream c i.2) sch.1 sch.2
        (fun c p => (S.vel 0 c p, S.vel 1 c p)) c p = refVel2 (C.params gy gx) K om (globalIx2 T ((2 : ℕ) : ℤ) c p) := by
    intro c p hc ha hp
    unfold refVel2
    rw [← params_dx hT]
    rcases hp with hp | ⟨hz, hD⟩
    · rw [stencilZero2_global (F := fun _ => freeSolution2 gy gx (C.params gy gx).dx om) hT (by omega) (by omega) (by omega) false hcs (hK.curl _) _ ?_ sch.1 hs _ hc hp]
      · unfold serialZero2 serialAt2
        simp only [contIx2_false, true_and]
        have hd : Dom2 gy gx (globalIx2 T ((2 : ℕ) : ℤ) c p) := (dom2_iff hT _).2 (inner_inDomain2 hT hc hp)
        by_cases he : OnEdge2 gy gx (globalIx2 T ((2 : ℕ) : ℤ) c p)
        · rw [if_pos he]
          exact (if_neg fun h => h.2 he).symm
        · rw [if_neg he, params_dx hT]
          exact (if_pos ⟨hd, he⟩).symm
      · intro i c p hc hp
        simp only
        rw [toFlat2_flat (inArr_of_inner2 hp)]
        exact hst c p hc hp
    · rw [if_neg (fun h => hD ((dom2_iff hT _).1 h.1))]
      unfold stencilZero2
      rw [zeroSides2_outside hT (by omega) (by omega) (by omega) _ _ hc ha hD]
  intro c p hc ha hp
  unfold callCurl2
  simp only [hg]
  match j with
  | 0 => exact congrArg Prod.fst (key c p hc ha hp)
  | 1 => exact congrArg Prod.snd (key c p hc ha hp)

/-- `update_velocity_with_free_stream` -/
theorem freeStream2_holds {C : Cfg2} {S : Sim2 T} {u : Fin 2 → C2 → ℝ} (hu : ∀ j, HoldsX2 T 2 (u j) (S.vel j)) (fs : Fin 2 → ℝ) (j : Fin 2) :
    HoldsX2 T 2 (refFree2 (C.params gy gx) fs u j) ((freeStream2 C fs S).vel j) := by
  intro c p hc ha hp
  unfold freeStream2 refFree2 Cfg2.params
  simp only
  by_cases h : C.freeStream = true
  · rw [if_pos h, if_pos h]
    simp only
    rw [hu j c p hc ha hp]
  · rw [if_neg h, if_neg h]
    exact hu j c p hc ha hp

end Sopht
