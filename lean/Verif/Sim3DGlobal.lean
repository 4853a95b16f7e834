import Verif.Sim3DGlobalLemmas

/-! # One time step of a 3D simulation on the global fields (C66) -/

namespace Sopht

set_option linter.unusedSimpArgs false

variable {gz gy gx pz py px : ℕ} {T : Cart3}

/-! ## Triples -/

theorem unzip3_comp (u : C3 → C3 → ℝ × ℝ × ℝ) (j : Fin 3) (c p : C3) : unzip3 u j c p = comp3 (u c p) j := by
  match j with
  | 0 => rfl
  | 1 => rfl
  | 2 => rfl

theorem comp3_zip (v : Fin 3 → World C3 C3 ℝ) (j : Fin 3) (c p : C3) : comp3 (zip3 v c p) j = v j c p := by
  match j with
  | 0 => rfl
  | 1 => rfl
  | 2 => rfl

theorem comp3_add (a b : ℝ × ℝ × ℝ) (j : Fin 3) : comp3 (a + b) j = comp3 a j + comp3 b j := by
  match j with
  | 0 => rfl
  | 1 => rfl
  | 2 => rfl

theorem comp3_zero (j : Fin 3) : comp3 0 j = 0 := by
  match j with
  | 0 => rfl
  | 1 => rfl
  | 2 => rfl

theorem mem_fin3 (i : Fin 3) : i ∈ ([0, 1, 2] : List (Fin 3)) := by
  match i with
  | 0 => simp
  | 1 => simp
  | 2 => simp

/-! ## Vorticity update -/

/-- `update_vorticity_from_velocity_forcing`, inner cells -/
theorem callUpd3_inner (hT : mkCart3 gz gy gx pz py px false = .ok T) {C : Cfg3} (hg : 1 ≤ C.g) (hz : C.g ≤ T.nz) (hy : C.g ≤ T.ny) (hx : C.g ≤ T.nx)
    (h2z : 2 ≤ T.nz) (h2y : 2 ≤ T.ny) (h2x : 2 ≤ T.nx) {K : Kern3} (hK : K.Local) {sch : Sched3}
    (hs : Complete (multiMsgs3 T C.g C.full ([0, 1, 2] : List (Fin 3))) sch.2) (dt : ℝ)
    {om f : Fin 3 → World C3 C3 ℝ} {Om Φ : Fin 3 → C3 → ℝ} (ho : ∀ j, Holds3 T C.g (Om j) (om j)) (hf : ∀ j, HoldsX3 T C.g (Φ j) (f j)) (j : Fin 3) :
    Holds3 T C.g (refUpd3 (C.params gz gy gx) K dt Φ Om j) ((callUpd3 (T := T) C K sch dt om f).1 j) := by
  intro c p hc hp
  unfold callUpd3 refUpd3
  dsimp only
  rw [unzip3_comp, stencilAdd3_global (F := Φ) hT le_rfl hg hz hy hx (by omega) (by omega) (by omega) C.full mem_fin3 (hK.upd _)
    (fun i c p hc hp => hf i c p hc (inArr_of_inner3 hp) (Or.inl hp)) sch.1 hs _ hc hp
    (Or.inr (Or.inr fun i q h1 h2 h3 => hf i c q hc h1 (Or.inr ⟨h2, h3⟩))), comp3_add, comp3_zip, ho j c p hc hp, ← params3_dx hT C]
  have hd : Dom3 gz gy gx (globalIx3 T C.g c p) := (dom3_iff hT _).2 (inner_inDomain3 hT hc hp)
  exact (if_pos hd).symm

/-- The forcing stays clear of the boundary: it is zero in the outermost cells of the domain and outside. -/
def Confined3 (gz gy gx : ℕ) (Φ : Fin 3 → C3 → ℝ) : Prop := ∀ j G, ¬ Away3 gz gy gx 1 G → Φ j G = 0

/-- The ranks hold the forcing: inner cells and all cells outside the domain. -/
def HoldsForce3 (T : Cart3) (g : ℕ) (Φ : Fin 3 → C3 → ℝ) (v : Fin 3 → World C3 C3 ℝ) : Prop :=
  ∀ j c p, Valid3 T c → InArr3 T g p → (Inner3 T g p ∨ ¬ InDomain3 T (globalIx3 T g c p)) → v j c p = Φ j (globalIx3 T g c p)

/-- next to a face ghost cell outside the domain, cells of the domain are inner cells -/
theorem next_inner3 (hT : mkCart3 gz gy gx pz py px false = .ok T) {g : ℕ} (hg : 1 ≤ g) (hz : g ≤ T.nz) (hy : g ≤ T.ny) (hx : g ≤ T.nx)
    {c p d : C3} (hc : Valid3 T c) (hp : InArr3 T g p) (hF : FaceOut3 T g c p) (hd : Cross3 1 d)
    (hD : InDomain3 T (globalIx3 T g c (shift3 p d))) : Inner3 T g (shift3 p d) := by
  have hb := outside_beyond3 hT hz hy hx hc hp hF.2
  have hr := dirRank_le_one hF.1
  obtain ⟨-, -, -, -, -, -, -, hZ, hY, hX⟩ := construct3_ok hT
  simp only [zone_zero_iff] at hr
  obtain ⟨p1, p2, p3, p4, p5, p6⟩ := hp
  obtain ⟨c1, c2, c3, c4, c5, c6⟩ := hc
  unfold Cross3 at hd
  obtain ⟨d1, d2, d3, d4, d5, d6⟩ := hD
  unfold globalIx3 shift3 at d1 d2 d3 d4 d5 d6
  simp only at d1 d2 d3 d4 d5 d6
  rw [← hZ] at d2; rw [← hY] at d4; rw [← hX] at d6
  push_cast at d2 d4 d6
  have key : ∀ (n P : ℕ) (c p d : ℤ), g ≤ n → (c = 0 ∧ p < g ∨ c = P - 1 ∧ g + n ≤ p) → -1 ≤ d → d ≤ 1 → 0 ≤ c * n + (p + d - g) → c * n + (p + d - g) < P * n →
      g ≤ p + d ∧ p + d < g + n := by
    intro n P c p d hn h1 h2 h3 h4 h5
    rcases h1 with ⟨rfl, h⟩ | ⟨rfl, h⟩
    · constructor
      · omega
      · omega
    · have e : ((P : ℤ) - 1) * n = P * n - n := by ring
      rw [e] at h4 h5
      constructor
      · omega
      · omega
  unfold Inner3 shift3
  simp only
  have k1 := fun h => key T.nz T.pz c.1 p.1 d.1 hz h
  have k2 := fun h => key T.ny T.py c.2.1 p.2.1 d.2.1 hy h
  have k3 := fun h => key T.nx T.px c.2.2 p.2.2 d.2.2 hx h
  obtain ⟨n1, n2, n3⟩ : (-1 ≤ d.1 ∧ d.1 ≤ 1) ∧ (-1 ≤ d.2.1 ∧ d.2.1 ≤ 1) ∧ (-1 ≤ d.2.2 ∧ d.2.2 ≤ 1) := by
    clear k1 k2 k3 key d1 d2 d3 d4 d5 d6 hb hr
    rcases hd with h | h | h
    · omega
    · omega
    · omega
  have hb' : (g ≤ p.1 + d.1 ∧ p.1 + d.1 < g + T.nz ∧ ¬ (g ≤ p.1 ∧ p.1 < g + T.nz)) ∨ (g ≤ p.2.1 + d.2.1 ∧ p.2.1 + d.2.1 < g + T.ny ∧ ¬ (g ≤ p.2.1 ∧ p.2.1 < g + T.ny)) ∨
      (g ≤ p.2.2 + d.2.2 ∧ p.2.2 + d.2.2 < g + T.nx ∧ ¬ (g ≤ p.2.2 ∧ p.2.2 < g + T.nx)) := by
    rcases hb with h | h | h | h | h | h
    · have k := k1 (Or.inl h) n1.1 n1.2 (by linarith) (by linarith)
      exact Or.inl ⟨k.1, k.2, fun h' => absurd h'.1 (by linarith [h.2])⟩
    · have k := k1 (Or.inr h) n1.1 n1.2 (by linarith) (by linarith)
      exact Or.inl ⟨k.1, k.2, fun h' => absurd h'.2 (by linarith [h.2])⟩
    · have k := k2 (Or.inl h) n2.1 n2.2 (by linarith) (by linarith)
      exact Or.inr (Or.inl ⟨k.1, k.2, fun h' => absurd h'.1 (by linarith [h.2])⟩)
    · have k := k2 (Or.inr h) n2.1 n2.2 (by linarith) (by linarith)
      exact Or.inr (Or.inl ⟨k.1, k.2, fun h' => absurd h'.2 (by linarith [h.2])⟩)
    · have k := k3 (Or.inl h) n3.1 n3.2 (by linarith) (by linarith)
      exact Or.inr (Or.inr ⟨k.1, k.2, fun h' => absurd h'.1 (by linarith [h.2])⟩)
    · have k := k3 (Or.inr h) n3.1 n3.2 (by linarith) (by linarith)
      exact Or.inr (Or.inr ⟨k.1, k.2, fun h' => absurd h'.2 (by linarith [h.2])⟩)
  clear k1 k2 k3 key d1 d2 d3 d4 d5 d6 hb
  rcases hb' with ⟨u1, u2, u3⟩ | ⟨u1, u2, u3⟩ | ⟨u1, u2, u3⟩
  · have e : d.2.1 = 0 ∧ d.2.2 = 0 := by
      rcases hd with ⟨x1, x2, -⟩ | ⟨x1, -⟩ | ⟨x1, -⟩
      · exact ⟨x1, x2⟩
      · exact absurd ⟨by linarith, by linarith⟩ u3
      · exact absurd ⟨by linarith, by linarith⟩ u3
    rcases hr with ⟨y1, y2⟩ | ⟨y1, -⟩ | ⟨y1, -⟩
    · rw [e.1, e.2, add_zero, add_zero]; exact ⟨u1, u2, y1.1, y1.2, y2.1, y2.2⟩
    · exact absurd y1 u3
    · exact absurd y1 u3
  · have e : d.1 = 0 ∧ d.2.2 = 0 := by
      rcases hd with ⟨x1, -⟩ | ⟨x1, x2, -⟩ | ⟨-, x1, -⟩
      · exact absurd ⟨by linarith, by linarith⟩ u3
      · exact ⟨x1, x2⟩
      · exact absurd ⟨by linarith, by linarith⟩ u3
    rcases hr with ⟨y1, -⟩ | ⟨y1, y2⟩ | ⟨-, y1⟩
    · exact absurd y1 u3
    · rw [e.1, e.2, add_zero, add_zero]; exact ⟨y1.1, y1.2, u1, u2, y2.1, y2.2⟩
    · exact absurd y1 u3
  · have e : d.1 = 0 ∧ d.2.1 = 0 := by
      rcases hd with ⟨-, x1, -⟩ | ⟨-, x1, -⟩ | ⟨x1, x2, -⟩
      · exact absurd ⟨by linarith, by linarith⟩ u3
      · exact absurd ⟨by linarith, by linarith⟩ u3
      · exact ⟨x1, x2⟩
    rcases hr with ⟨-, y1⟩ | ⟨-, y1⟩ | ⟨y1, y2⟩
    · exact absurd y1 u3
    · exact absurd y1 u3
    · rw [e.1, e.2, add_zero, add_zero]; exact ⟨y1.1, y1.2, y2.1, y2.2, u1, u2⟩

/-- `update_vorticity_from_velocity_forcing` with a confined forcing, also beyond the sides -/
theorem callUpd3_holdsX (hT : mkCart3 gz gy gx pz py px false = .ok T) {C : Cfg3} (hg : 1 ≤ C.g) (hz : C.g ≤ T.nz) (hy : C.g ≤ T.ny) (hx : C.g ≤ T.nx)
    (h2z : 2 ≤ T.nz) (h2y : 2 ≤ T.ny) (h2x : 2 ≤ T.nx) {K : Kern3} (hK : K.Local) (hK0 : ∀ a, K.upd a (fun _ _ => 0) = 0) {sch : Sched3}
    (hs : Complete (multiMsgs3 T C.g C.full ([0, 1, 2] : List (Fin 3))) sch.2) (dt : ℝ)
    {om f : Fin 3 → World C3 C3 ℝ} {Om Φ : Fin 3 → C3 → ℝ} (ho : ∀ j, HoldsX3 T C.g (Om j) (om j)) (hf : HoldsForce3 T C.g Φ f)
    (hc0 : Confined3 gz gy gx Φ) (j : Fin 3) :
    HoldsX3 T C.g (refUpd3 (C.params gz gy gx) K dt Φ Om j) ((callUpd3 (T := T) C K sch dt om f).1 j) := by
  obtain ⟨e0, e1, e2, -⟩ := construct3_ok hT
  intro c p hc ha hp
  rcases hp with hp | hp
  · exact callUpd3_inner hT hg hz hy hx h2z h2y h2x hK hs dt (fun j => holdsX3_holds (ho j))
      (fun j c p hc ha hp => hf j c p hc ha (hp.imp id fun h => h.2)) j c p hc hp
  · have hno : ¬ Dom3 gz gy gx (globalIx3 T C.g c p) := fun h => hp.2 ((dom3_iff hT _).1 h)
    unfold refUpd3
    refine Eq.trans (b := Om j (globalIx3 T C.g c p)) ?_ (if_neg hno).symm
    unfold callUpd3 stencilAdd3 stencil3
    dsimp only
    rw [unzip3_comp]
    have hin : ¬ Inner3 T C.g p := fun h => hp.2 (inner_inDomain3 hT hc h)
    rw [kernel3_add_zero hg _ hin, comp3_zip, ho j c p hc ha (Or.inr hp)]
    intro V hV hw
    refine (hK.upd _ _ (fun _ _ => 0) ?_).trans (hK0 _)
    intro i d hd
    have hq := writes3_window hg (by omega) (by omega) (by omega) hV hw hd
    by_cases hD' : InDomain3 T (globalIx3 T C.g c (shift3 p d))
    · have hI := next_inner3 hT hg hz hy hx hc ha hp hd hD'
      rw [multiExchange3_inner hz hy hx C.full mem_fin3 _ _ _ hI]
      refine (hf i c _ hc hq (Or.inl hI)).trans ?_
      apply hc0
      intro haw
      apply hp.2
      obtain ⟨⟨a1, a2⟩, ⟨a3, a4⟩, a5, a6⟩ := haw
      unfold Cross3 at hd
      unfold InDomain3
      rw [e0, e1, e2]
      unfold globalIx3 shift3 at a1 a2 a3 a4 a5 a6
      unfold globalIx3
      simp only at a1 a2 a3 a4 a5 a6 ⊢
      omega
    · rw [multi3_outside hT hz hy hx C.full mem_fin3 _ hs hc hq hD']
      refine (hf i c _ hc hq (Or.inr hD')).trans ?_
      apply hc0
      intro haw
      apply hD'
      obtain ⟨⟨a1, a2⟩, ⟨a3, a4⟩, a5, a6⟩ := haw
      unfold InDomain3
      rw [e0, e1, e2]
      omega

/-- `elementwise_cross_product` -/
theorem cross3_holdsX {g : ℕ} {u v : Fin 3 → World C3 C3 ℝ} {U V : Fin 3 → C3 → ℝ} (hu : ∀ j, HoldsX3 T g (U j) (u j)) (hv : ∀ j, HoldsX3 T g (V j) (v j))
    (j : Fin 3) : HoldsX3 T g (crossF U V j) (cross3 u v j) := by
  intro c p hc ha hp
  have h1 := fun j => hu j c p hc ha hp
  have h2 := fun j => hv j c p hc ha hp
  match j with
  | 0 =>
    show u 1 c p * v 2 c p - u 2 c p * v 1 c p = U 1 (globalIx3 T g c p) * V 2 (globalIx3 T g c p) - U 2 (globalIx3 T g c p) * V 1 (globalIx3 T g c p)
    rw [h1, h1, h2, h2]
  | 1 =>
    show u 2 c p * v 0 c p - u 0 c p * v 2 c p = U 2 (globalIx3 T g c p) * V 0 (globalIx3 T g c p) - U 0 (globalIx3 T g c p) * V 2 (globalIx3 T g c p)
    rw [h1, h1, h2, h2]
  | 2 =>
    show u 0 c p * v 1 c p - u 1 c p * v 0 c p = U 0 (globalIx3 T g c p) * V 1 (globalIx3 T g c p) - U 1 (globalIx3 T g c p) * V 0 (globalIx3 T g c p)
    rw [h1, h1, h2, h2]

/-! ## Advection and diffusion -/

/-- `self.diffusion_timestep(vector_field=...)`, inner cells -/
theorem callDiffV3_inner (hT : mkCart3 gz gy gx pz py px false = .ok T) {C : Cfg3} (hg : 1 ≤ C.g) (hz : C.g ≤ T.nz) (hy : C.g ≤ T.ny) (hx : C.g ≤ T.nx)
    {K : Kern3} (hK : K.Local) {sch : Scheds3} (hs : ∀ i, Complete (multiMsgs3 T C.g C.full [()]) (sch.diff i).2) (dt : ℝ)
    {S : Sim3 T} {Om : Fin 3 → C3 → ℝ} (ho : ∀ j, Holds3 T C.g (Om j) (S.om j)) (j : Fin 3) :
    Holds3 T C.g (refDiff3 (C.params gz gy gx) K dt (Om j)) ((callDiffV3 C K sch dt S).om j) := by
  unfold callDiffV3
  dsimp only
  obtain ⟨fl, hfl⟩ := diffVec3_field T C.g C.full (K.diff (C.nu * dt / simDx3 T C.xr / simDx3 T C.xr)) sch.diff ⟨S.om, S.buf⟩ j
  rw [hfl]
  exact diffStep3_inner hT hg hz hy hx C.full ⟨rfl, rfl, rfl⟩ hK (by rw [params3_dx hT C]; rfl) (hs j) (ho j)

/-- `self.diffusion_timestep(vector_field=...)`, also beyond the sides -/
theorem callDiffV3_holdsX (hT : mkCart3 gz gy gx pz py px false = .ok T) {C : Cfg3} (hg : 1 ≤ C.g) (hz : C.g ≤ T.nz) (hy : C.g ≤ T.ny) (hx : C.g ≤ T.nx)
    {K : Kern3} (hK : K.Local) {sch : Scheds3} (hs : ∀ i, Complete (multiMsgs3 T C.g C.full [()]) (sch.diff i).2) (dt : ℝ)
    {S : Sim3 T} {Om : Fin 3 → C3 → ℝ} (ho : ∀ j, HoldsX3 T C.g (Om j) (S.om j)) (j : Fin 3) :
    HoldsX3 T C.g (refDiff3 (C.params gz gy gx) K dt (Om j)) ((callDiffV3 C K sch dt S).om j) := by
  unfold callDiffV3
  dsimp only
  obtain ⟨fl, hfl⟩ := diffVec3_field T C.g C.full (K.diff (C.nu * dt / simDx3 T C.xr / simDx3 T C.xr)) sch.diff ⟨S.om, S.buf⟩ j
  rw [hfl]
  exact diffStep3_holdsX hT hg hz hy hx C.full ⟨rfl, rfl, rfl⟩ hK (by rw [params3_dx hT C]; rfl) (hs j) (ho j)

/-- passive scalar -/
theorem scalarStep3_holds (hT : mkCart3 gz gy gx pz py px false = .ok T) {C : Cfg3} (hg : C.g = 2) (hz : 4 ≤ T.nz) (hy : 4 ≤ T.ny) (hx : 4 ≤ T.nx)
    {K : Kern3} (hK : K.Local) {sch : Scheds3} (hs1 : Complete (multiMsgs3 T C.g C.full [none, some (0 : Fin 3), some 1, some 2]) (sch.adv 0).2)
    (hs2 : Complete (multiMsgs3 T C.g C.full [()]) (sch.diff 0).2) (dt : ℝ) {S : Sim3 T} {F : Fields3}
    (ho : HoldsX3 T C.g F.sc S.sc) (hu : ∀ j, HoldsX3 T C.g (F.u j) (S.vel j)) :
    HoldsX3 T C.g (refScalar3 (C.params gz gy gx) K dt F).sc (scalarStep3 C K sch dt S).sc ∧
    ∀ j, HoldsX3 T C.g (F.u j) ((scalarStep3 C K sch dt S).vel j) := by
  unfold scalarStep3 refScalar3
  dsimp only
  rw [hg] at *
  obtain ⟨a1, a2⟩ := advStep3_holds (P := C.params gz gy gx) hT hz hy hx C.full ⟨rfl, rfl, rfl⟩ hK (dt := dt) (q := dt / simDx3 T C.xr)
    (by rw [params3_dx hT C]) hs1 (F := F.sc) (V := F.u) (vel := asFam S.vel) (st := ⟨S.sc, S.buf⟩) ho hu
  exact ⟨diffStep3_holdsX hT (by omega) (by omega) (by omega) (by omega) C.full ⟨rfl, rfl, rfl⟩ hK (by rw [params3_dx hT C]; rfl) hs2 a1, a2⟩

/-- `self.advection_timestep(vector_field=...)` -/
theorem callAdvV3_holds (hT : mkCart3 gz gy gx pz py px false = .ok T) {C : Cfg3} (hg : C.g = 2) (hz : 4 ≤ T.nz) (hy : 4 ≤ T.ny) (hx : 4 ≤ T.nx)
    {K : Kern3} (hK : K.Local) {sch : Scheds3} (hs : ∀ i, Complete (multiMsgs3 T C.g C.full [none, some (0 : Fin 3), some 1, some 2]) (sch.adv i).2)
    (dt : ℝ) {S : Sim3 T} {Om U : Fin 3 → C3 → ℝ} (ho : ∀ j, HoldsX3 T C.g (Om j) (S.om j)) (hu : ∀ j, HoldsX3 T C.g (U j) (S.vel j)) (j : Fin 3) :
    HoldsX3 T C.g (refAdv3 (C.params gz gy gx) K dt U (Om j)) ((callAdvV3 C K sch dt S).om j) ∧
    HoldsX3 T C.g (U j) ((callAdvV3 C K sch dt S).vel j) := by
  unfold callAdvV3 advectionVecStep3
  dsimp only [List.foldl_cons, List.foldl_nil]
  rw [hg] at *
  have step : ∀ (i : Fin 3) (vel : World C3 (Fin 3 × C3) ℝ) (st : VecStepState ℝ), HoldsX3 T 2 (Om i) (st.field i) → (∀ j, HoldsX3 T 2 (U j) (fun c p => vel c (j, p))) → _ := fun i vel st h1 h2 =>
    advStep3_holds (P := C.params gz gy gx) hT hz hy hx C.full ⟨rfl, rfl, rfl⟩ hK (dt := dt) (q := dt / simDx3 T C.xr)
      (by rw [params3_dx hT C]) (hs i) (F := Om i) (V := U) (vel := vel) (st := ⟨st.field i, st.flux⟩) h1 h2
  have s0 := step 0 (asFam S.vel) ⟨S.om, S.buf⟩ (ho 0) hu
  set r0 := advectionStep3 T 2 C.full K.adv (dt / simDx3 T C.xr) (sch.adv 0).1 (sch.adv 0).2 (asFam S.vel) ⟨S.om 0, S.buf⟩ with hr0
  have s1 := step 1 r0.1 ⟨Function.update S.om 0 r0.2.field, r0.2.flux⟩ (by simpa [Function.update] using ho 1) s0.2
  set r1 := advectionStep3 T 2 C.full K.adv (dt / simDx3 T C.xr) (sch.adv 1).1 (sch.adv 1).2 r0.1 ⟨Function.update S.om 0 r0.2.field 1, r0.2.flux⟩ with hr1
  have s2 := step 2 r1.1 ⟨Function.update (Function.update S.om 0 r0.2.field) 1 r1.2.field, r1.2.flux⟩ (by simpa [Function.update] using ho 2) s1.2
  refine ⟨?_, s2.2 j⟩
  match j with
  | 0 => simpa [Function.update] using s0.1
  | 1 => simpa [Function.update] using s1.1
  | 2 => simpa [Function.update] using s2.1

/-- passive vector -/
theorem vectorStep3_holds (hT : mkCart3 gz gy gx pz py px false = .ok T) {C : Cfg3} (hg : C.g = 2) (hz : 4 ≤ T.nz) (hy : 4 ≤ T.ny) (hx : 4 ≤ T.nx)
    {K : Kern3} (hK : K.Local) {sch : Scheds3} (hs1 : ∀ i, Complete (multiMsgs3 T C.g C.full [none, some (0 : Fin 3), some 1, some 2]) (sch.adv i).2)
    (hs2 : ∀ i, Complete (multiMsgs3 T C.g C.full [()]) (sch.diff i).2) (dt : ℝ) {S : Sim3 T} {F : Fields3}
    (ho : ∀ j, HoldsX3 T C.g (F.om j) (S.om j)) (hu : ∀ j, HoldsX3 T C.g (F.u j) (S.vel j)) (j : Fin 3) :
    HoldsX3 T C.g ((refVector3 (C.params gz gy gx) K dt F).om j) ((vectorStep3 C K sch dt S).om j) ∧
    HoldsX3 T C.g (F.u j) ((vectorStep3 C K sch dt S).vel j) := by
  have a := callAdvV3_holds hT hg hz hy hx hK hs1 dt ho hu
  exact ⟨callDiffV3_holdsX hT (by omega) (by omega) (by omega) (by omega) hK hs2 dt (fun j => (a j).1) j, (a j).2⟩

/-! ## The rest of a Navier-Stokes step -/

/-- `self.filter_vector_field(...)` -/
theorem callFilter3_inner (hT : mkCart3 gz gy gx pz py px false = .ok T) {C : Cfg3} (hg : 1 ≤ C.g) (hz : C.g ≤ T.nz) (hy : C.g ≤ T.ny) (hx : C.g ≤ T.nx)
    (hflt : ∀ order ty, C.flt = some (order, ty) → 1 ≤ order) {sch : Scheds3} (hs : ∀ i a k, Complete (multiMsgs3 T C.g C.full [()]) (sch.flt i a k).2)
    {S : Sim3 T} {Om : Fin 3 → C3 → ℝ} (ho : ∀ j, Holds3 T C.g (Om j) (S.om j)) (j : Fin 3) :
    Holds3 T C.g (refFilter3 (C.params gz gy gx) (Om j)) ((callFilter3 C sch S).om j) := by
  have hS : FilterSetup gz gy gx pz py px false T C.g 1 := ⟨hT, hg, le_rfl, hz, hy, hx, by omega, by omega, by omega⟩
  unfold callFilter3 refFilter3 Cfg3.params
  dsimp only
  cases hf : C.flt with
  | none => exact ho j
  | some ot =>
    obtain ⟨order, ty⟩ := ot
    have h1 := hflt order ty hf
    dsimp only
    refine vectorFilter_componentwise (R := fun F => if ty = "multiplicative" then serialMultiplicative gz gy gx 1 false order F
      else serialConvolution gz gy gx 1 false order F) ?_ ho _ j
    intro i F v b hv
    unfold scalarFilter3
    by_cases ht : ty = "multiplicative"
    · rw [if_pos ht]
      simp only [if_pos ht]
      exact multiplicativeFilter_global hS C.full h1 (hs i 0) hv b
    · rw [if_neg ht]
      simp only [if_neg ht]
      exact convolutionFilter_global hS C.full h1 (hs i) hv b

/-- ghost cells beyond a face belong to the cells the penalisation theorem speaks about -/
theorem ownedCell3_of_faceOut (hT : mkCart3 gz gy gx pz py px false = .ok T) {g : ℕ} (hz : g ≤ T.nz) (hy : g ≤ T.ny) (hx : g ≤ T.nx) {c p : C3}
    (hc : Valid3 T c) (hp : InArr3 T g p) (hF : FaceOut3 T g c p) : OwnedCell3 T g c p := by
  have hb := outside_beyond3 hT hz hy hx hc hp hF.2
  have hr := dirRank_le_one hF.1
  obtain ⟨-, -, -, -, -, -, hper, -⟩ := construct3_ok hT
  simp only [zone_zero_iff] at hr
  obtain ⟨p1, p2, p3, p4, p5, p6⟩ := hp
  unfold OwnedCell3 OwnedAxis
  rw [hper]
  simp only [true_and]
  omega

/-- `penalise_field_towards_boundary` -/
theorem callPen3_holds (hT : mkCart3 gz gy gx pz py px false = .ok T) {C : Cfg3} (hg : 1 ≤ C.g) (hz : C.g ≤ T.nz) (hy : C.g ≤ T.ny) (hx : C.g ≤ T.nx)
    (h1w : 1 ≤ C.w) (hwz : C.w ≤ T.nz) (hwy : C.w ≤ T.ny) (hwx : C.w ≤ T.nx) (hxr : 0 < C.xr) {S : Sim3 T} {Om : Fin 3 → C3 → ℝ}
    (ho : ∀ j, Holds3 T C.g (Om j) (S.om j)) :
    (callPen3 C S).2 = none ∧ (callPen3 C S).1 = { S with om := (callPen3 C S).1.om } ∧
      ∀ j, HoldsX3 T C.g (serialPen3 false gz gy gx C.w (Om j)) ((callPen3 C S).1.om j) := by
  obtain ⟨e0, e1, e2, -, -, -, hper, hZ, hY, hX⟩ := construct3_ok hT
  have hgx : 0 < T.px → simDx3 T C.xr ≠ 0 := by
    intro h
    unfold simDx3
    have : 0 < T.gx := by rw [← hX]; exact Nat.mul_pos h (by omega)
    have : (0 : ℝ) < T.gx := by exact_mod_cast this
    positivity
  have key : ∀ c, Valid3 T c → ∃ out : Fin 3 → C3 → ℝ, penaliseVec3 T C.g C.w (simDx3 T C.xr) (position3 T C.g C.xr c 0) (position3 T C.g C.xr c 1)
      (position3 T C.g C.xr c 2) c (fun j => S.om j c) = .ok out ∧
      ∀ j p, InArr3 T C.g p → (Inner3 T C.g p ∨ FaceOut3 T C.g c p) → out j p = serialPen3 false gz gy gx C.w (Om j) (globalIx3 T C.g c p) := by
    intro c hc
    have one : ∀ j, ∃ out, penalise3 T C.g C.w (simDx3 T C.xr) (position3 T C.g C.xr c 0) (position3 T C.g C.xr c 1) (position3 T C.g C.xr c 2) c (S.om j c) = .ok out ∧
        ∀ p, (Inner3 T C.g p ∨ (1 ≤ C.w ∧ OwnedCell3 T C.g c p)) → out p = serialPen3 false gz gy gx C.w (Om j) (globalIx3 T C.g c p) := fun j =>
      penalise3_global (w := C.w) hT hg hwz hwy hwx (hgx (by have := hc.2.2.2.2.1; have := hc.2.2.2.2.2; omega)) _ _ _ hc
        (position3_gridX T C.g C.xr c) (fun p hp => ho j c p hc hp)
    obtain ⟨o0, a0, b0⟩ := one 0
    obtain ⟨o1, a1, b1⟩ := one 1
    obtain ⟨o2, a2, b2⟩ := one 2
    refine ⟨fun i => if i = 0 then o0 else if i = 1 then o1 else o2, ?_, ?_⟩
    · unfold penaliseVec3
      rw [a0, a1, a2]; rfl
    · intro j p ha hp
      have hp' : Inner3 T C.g p ∨ (1 ≤ C.w ∧ OwnedCell3 T C.g c p) := hp.imp id fun h => ⟨h1w, ownedCell3_of_faceOut hT hz hy hx hc ha h⟩
      match j with
      | 0 => exact b0 p hp'
      | 1 => exact b1 p hp'
      | 2 => exact b2 p hp'
  have hnone : ((ranks3 T).findSome? fun c => errOf (penaliseVec3 T C.g C.w (simDx3 T C.xr) (position3 T C.g C.xr c 0) (position3 T C.g C.xr c 1)
      (position3 T C.g C.xr c 2) c (fun j => S.om j c))) = none := by
    rw [List.findSome?_eq_none_iff]
    intro c hc
    obtain ⟨out, h1, -⟩ := key c (mem_ranks3.1 hc)
    rw [h1]; rfl
  have hpen : callPen3 C S = ({ S with om := fun j c => okOr (fun j => S.om j c) (penaliseVec3 T C.g C.w (simDx3 T C.xr) (position3 T C.g C.xr c 0)
      (position3 T C.g C.xr c 1) (position3 T C.g C.xr c 2) c (fun j => S.om j c)) j }, none) := by
    unfold callPen3
    dsimp only
    rw [hnone]
  rw [hpen]
  refine ⟨rfl, rfl, ?_⟩
  intro j c p hc ha hp
  obtain ⟨out, h1, h2⟩ := key c hc
  dsimp only
  rw [h1]
  exact h2 j p ha hp

/-- `curl` -/
theorem callCurl3_holds (hT : mkCart3 gz gy gx pz py px false = .ok T) {C : Cfg3} (hg : 1 ≤ C.g) (hz : C.g ≤ T.nz) (hy : C.g ≤ T.ny) (hx : C.g ≤ T.nx)
    {K : Kern3} (hK : K.Local) {sch : Sched3} (hs : Complete (multiMsgs3 T C.g C.full ([0, 1, 2] : List (Fin 3))) sch.2)
    {S : Sim3 T} {Om : Fin 3 → C3 → ℝ} (hst : ∀ j, Holds3 T C.g (freeSolution3 gz gy gx (C.params gz gy gx).dx (Om j)) (S.stream j)) (j : Fin 3) :
    HoldsX3 T C.g (refVel3 (C.params gz gy gx) K Om j) ((callCurl3 C K sch S).vel j) := by
  intro c p hc ha hp
  unfold callCurl3 refVel3
  dsimp only
  rw [unzip3_comp, ← params3_dx hT]
  rcases hp with hp | hp
  · have hd : Dom3 gz gy gx (globalIx3 T C.g c p) := (dom3_iff hT _).2 (inner_inDomain3 hT hc hp)
    rw [stencilZero3_global (F := fun i => freeSolution3 gz gy gx (C.params gz gy gx).dx (Om i)) hT hg hz hy hx C.full mem_fin3 true (hK.curl _) _
      (fun i c p hc hp => hst i c p hc hp) sch.1 hs _ hc hp]
    unfold serialZero3 serialAt3
    simp only [contIx3_false, true_and]
    by_cases he : OnEdge3 gz gy gx (globalIx3 T C.g c p)
    · rw [if_pos he]
      exact (comp3_zero j).trans (if_neg fun h => h.2 he).symm
    · rw [if_neg he, params3_dx hT]
      exact (if_pos ⟨hd, he⟩).symm
  · have hno : ¬ (Dom3 gz gy gx (globalIx3 T C.g c p) ∧ ¬ OnEdge3 gz gy gx (globalIx3 T C.g c p)) := fun h => hp.2 ((dom3_iff hT _).1 h.1)
    unfold stencilZero3
    rw [zeroSides3_outside hT hz hy hx (by omega) (by omega) (by omega) _ _ hc ha hp.2]
    exact (comp3_zero j).trans (if_neg hno).symm

/-- `update_velocity_with_free_stream` -/
theorem freeStream3_holds {C : Cfg3} {S : Sim3 T} {u : Fin 3 → C3 → ℝ} (hu : ∀ j, HoldsX3 T C.g (u j) (S.vel j)) (fs : Fin 3 → ℝ) (j : Fin 3) :
    HoldsX3 T C.g (refFree3 (C.params gz gy gx) fs u j) ((freeStream3 C fs S).vel j) := by
  intro c p hc ha hp
  unfold freeStream3 refFree3 Cfg3.params
  simp only
  by_cases h : C.freeStream = true
  · rw [if_pos h, if_pos h]
    simp only
    rw [hu j c p hc ha hp]
  · rw [if_neg h, if_neg h]
    exact hu j c p hc ha hp

/-! ## One step -/

/-- All messages of a step are delivered. -/
structure Scheds3.Done (T : Cart3) (g : ℕ) (full : Bool) (sch : Scheds3) : Prop where
  force : Complete (multiMsgs3 T g full ([0, 1, 2] : List (Fin 3))) sch.force.2
  upd : Complete (multiMsgs3 T g full ([0, 1, 2] : List (Fin 3))) sch.upd.2
  adv : ∀ i, Complete (multiMsgs3 T g full [none, some (0 : Fin 3), some 1, some 2]) (sch.adv i).2
  diff : ∀ i, Complete (multiMsgs3 T g full [()]) (sch.diff i).2
  flt : ∀ i a k, Complete (multiMsgs3 T g full [()]) (sch.flt i a k).2
  solve : ∀ i, Complete (toMsgs3 T g) (sch.solve i).1 ∧ Complete (fromMsgs3 T g) (sch.solve i).2
  curl : Complete (multiMsgs3 T g full ([0, 1, 2] : List (Fin 3))) sch.curl.2

/-- A usable Navier-Stokes simulator on blocks that are not too thin: at least 2 cells, the ghost layer and the penalty zone per rank and axis, a penalty zone of at
least one cell, along every axis one rank or an even number of ranks, a filter of order at least 1. -/
structure Good3 (T : Cart3) (C : Cfg3) : Prop where
  g : 1 ≤ C.g
  gz : C.g ≤ T.nz
  gy : C.g ≤ T.ny
  gx : C.g ≤ T.nx
  nz : 2 ≤ T.nz
  ny : 2 ≤ T.ny
  nx : 2 ≤ T.nx
  w : 1 ≤ C.w
  wz : C.w ≤ T.nz
  wy : C.w ≤ T.ny
  wx : C.w ≤ T.nx
  even : EvenTopo3 T
  flt : ∀ order ty, C.flt = some (order, ty) → 1 ≤ order

variable [NeZero T.gz] [NeZero T.gy] [NeZero T.gx]

/-- The ranks hold the fields `F`, and the Poisson solver its Green's function. -/
structure SimHolds3 (C : Cfg3) (F : Fields3) (S : Sim3 T) : Prop where
  sc : HoldsX3 T C.g F.sc S.sc
  om : ∀ j, HoldsX3 T C.g (F.om j) (S.om j)
  u : ∀ j, HoldsX3 T C.g (F.u j) (S.vel j)
  green : ∃ dbl0 conv0, S.solver.green = (solverInit3 T C.xr dbl0 conv0).green

omit [NeZero T.gz] [NeZero T.gy] [NeZero T.gx] in
theorem callFilter3_rest (C : Cfg3) (sch : Scheds3) (S : Sim3 T) :
    (callFilter3 C sch S).sc = S.sc ∧ (callFilter3 C sch S).vel = S.vel ∧ (callFilter3 C sch S).solver = S.solver := by
  unfold callFilter3
  split
  · exact ⟨rfl, rfl, rfl⟩
  · exact ⟨rfl, rfl, rfl⟩

theorem vectorSolve3_green (g : ℕ) (st : Solver3 T) (sol rhs : Fin 3 → World C3 C3 ℝ) (s : Fin 3 → List Ev × List Ev) :
    (vectorSolve3 T g st sol rhs s).1.green = st.green := by
  rfl

/-- the Poisson solve -/
theorem callSolve3_holds (hT : mkCart3 gz gy gx pz py px false = .ok T) {C : Cfg3} (hE : EvenTopo3 T) (hxr : 0 < C.xr) {s : Fin 3 → List Ev × List Ev}
    (hs : ∀ i, Complete (toMsgs3 T C.g) (s i).1 ∧ Complete (fromMsgs3 T C.g) (s i).2) {S : Sim3 T} {Om : Fin 3 → C3 → ℝ}
    (ho : ∀ j, Holds3 T C.g (Om j) (S.om j)) (hgr : ∃ dbl0 conv0, S.solver.green = (solverInit3 T C.xr dbl0 conv0).green) :
    (callSolve3 C s S).2 = none ∧
    (callSolve3 C s S).1 = { S with solver := (callSolve3 C s S).1.solver, stream := (callSolve3 C s S).1.stream } ∧
    (callSolve3 C s S).1.solver.green = S.solver.green ∧
    ∀ j, Holds3 T C.g (freeSolution3 gz gy gx (C.params gz gy gx).dx (Om j)) ((callSolve3 C s S).1.stream j) := by
  have n1 : ((ranks3 T).findSome? fun c => errOf (toPosts3 T C.g (distDims3 T) c)) = none := by
    rw [List.findSome?_eq_none_iff]
    intro c hc
    obtain ⟨⟨l, hl⟩, -⟩ := doubling3_no_error hE C.g (mem_ranks3.1 hc)
    rw [hl]; rfl
  have n2 : ((ranks3 T).findSome? fun c => errOf (fromPosts3 T C.g (distDims3 T) c)) = none := by
    rw [List.findSome?_eq_none_iff]
    intro c hc
    obtain ⟨-, ⟨l, hl⟩⟩ := doubling3_no_error hE C.g (mem_ranks3.1 hc)
    rw [hl]; rfl
  have hsv : callSolve3 C s S = ({ S with solver := (vectorSolve3 T C.g S.solver S.stream S.om s).1, stream := (vectorSolve3 T C.g S.solver S.stream S.om s).2 }, none) := by
    unfold callSolve3
    rw [n1]
    dsimp only
    rw [n2]
  rw [hsv]
  refine ⟨rfl, rfl, vectorSolve3_green C.g _ _ _ _, ?_⟩
  intro j c p hc hp
  obtain ⟨dbl0, conv0, hgr⟩ := hgr
  exact vectorSolve3_correct hT hE C.g hxr hgr Om S.stream S.om (fun a c hc p hp => ho a c p hc hp) (fun a => (hs a).1) (fun a => (hs a).2) j hc hp

/-- a Navier-Stokes step -/
theorem nsStep3_holds (hT : mkCart3 gz gy gx pz py px false = .ok T) {C : Cfg3} (hC : Good3 T C) (hxr : 0 < C.xr) {K : Kern3} (hK : K.Local)
    {sch : Scheds3} (hs : sch.Done T C.g C.full) (dt : ℝ) (fs : Fin 3 → ℝ) {F : Fields3} {S : Sim3 T} (h : SimHolds3 C F S) :
    (nsStep3 C K sch dt fs S).2 = none ∧ SimHolds3 C (refNS3 (C.params gz gy gx) K dt fs F) (nsStep3 C K sch dt fs S).1 := by
  have hcr := cross3_holdsX h.u h.om
  have hu := callUpd3_inner hT hC.g hC.gz hC.gy hC.gx hC.nz hC.ny hC.nx hK hs.upd dt (fun j => holdsX3_holds (h.om j)) hcr
  set S0 : Sim3 T := { S with om := (callUpd3 (T := T) C K sch.upd dt S.om (cross3 S.vel S.om)).1, bufV := (callUpd3 (T := T) C K sch.upd dt S.om (cross3 S.vel S.om)).2 } with hS0
  have hd := callDiffV3_inner (S := S0) hT hC.g hC.gz hC.gy hC.gx hK hs.diff dt hu
  have hf := callFilter3_inner hT hC.g hC.gz hC.gy hC.gx hC.flt hs.flt hd
  have hv : ∀ j, Holds3 T C.g (refFilter3 (C.params gz gy gx) (refDiff3 (C.params gz gy gx) K dt (refUpd3 (C.params gz gy gx) K dt (crossF F.u F.om) F.om j)))
      ((vorticityStep3 C K sch dt S).om j) := hf
  have hrest : (vorticityStep3 C K sch dt S).sc = S.sc ∧ (vorticityStep3 C K sch dt S).solver = S.solver := by
    unfold vorticityStep3
    dsimp only
    obtain ⟨f1, -, f3⟩ := callFilter3_rest C sch (callDiffV3 C K sch dt { S with om := (callUpd3 (T := T) C K sch.upd dt S.om (cross3 S.vel S.om)).1, bufV := (callUpd3 (T := T) C K sch.upd dt S.om (cross3 S.vel S.om)).2 })
    exact ⟨f1, f3⟩
  unfold nsStep3 flowVelocity3
  generalize vorticityStep3 C K sch dt S = S1 at hv hrest
  obtain ⟨b1, b2, b3⟩ := callPen3_holds hT hC.g hC.gz hC.gy hC.gx hC.w hC.wz hC.wy hC.wx hxr hv
  have hS2 : (callPen3 C S1).1.sc = S.sc ∧ (callPen3 C S1).1.solver = S.solver := by rw [b2]; exact hrest
  generalize callPen3 C S1 = r at b1 b3 hS2
  obtain ⟨S2, o2⟩ := r
  simp only at b1 b3 hS2
  subst b1
  simp only [Out3.andThen]
  obtain ⟨g1, g2, g3, g4⟩ := callSolve3_holds hT hC.even hxr hs.solve (S := S2) (fun j => holdsX3_holds (b3 j)) (by rw [hS2.2]; exact h.green)
  have hS3 : (callSolve3 C sch.solve S2).1.sc = S.sc ∧ (callSolve3 C sch.solve S2).1.om = S2.om := by rw [g2]; exact ⟨hS2.1, rfl⟩
  rw [hS2.2] at g3
  generalize callSolve3 C sch.solve S2 = r at g1 g3 g4 hS3
  obtain ⟨S3, o3⟩ := r
  simp only at g1 g3 g4 hS3
  subst g1
  have hcu := callCurl3_holds hT hC.g hC.gz hC.gy hC.gx hK hs.curl g4
  have hfr := fun j => freeStream3_holds (gz := gz) (gy := gy) (gx := gx) hcu fs j
  have hsame : (freeStream3 C fs (callCurl3 C K sch.curl S3)).sc = S3.sc ∧ (freeStream3 C fs (callCurl3 C K sch.curl S3)).om = S3.om ∧
      (freeStream3 C fs (callCurl3 C K sch.curl S3)).solver = S3.solver := by
    unfold freeStream3
    split
    · exact ⟨rfl, rfl, rfl⟩
    · exact ⟨rfl, rfl, rfl⟩
  dsimp only
  refine ⟨rfl, ⟨?_, ?_, hfr, ?_⟩⟩
  · rw [hsame.1, hS3.1]; exact h.sc
  · intro j; rw [hsame.2.1, hS3.2]; exact b3 j
  · rw [hsame.2.2, g3]; exact h.green

/-- a step with forcing -/
theorem nsForcingStep3_holds (hT : mkCart3 gz gy gx pz py px false = .ok T) {C : Cfg3} (hC : Good3 T C) (hxr : 0 < C.xr) {K : Kern3} (hK : K.Local)
    (hK0 : ∀ a, K.upd a (fun _ _ => 0) = 0) {sch : Scheds3} (hs : sch.Done T C.g C.full) (dt : ℝ) (fs : Fin 3 → ℝ) {F : Fields3} {S : Sim3 T}
    (h : SimHolds3 C F S) {Φ : Fin 3 → C3 → ℝ} (hΦ : HoldsForce3 T C.g Φ S.forcing) (hc0 : Confined3 gz gy gx Φ) :
    (nsForcingStep3 C K sch dt fs S).2 = none ∧ SimHolds3 C (refForcing3 (C.params gz gy gx) K dt fs Φ F) (nsForcingStep3 C K sch dt fs S).1 := by
  have hu := callUpd3_holdsX hT hC.g hC.gz hC.gy hC.gx hC.nz hC.ny hC.nx hK hK0 hs.force dt h.om hΦ hc0
  have h2 : SimHolds3 C { F with om := refUpd3 (C.params gz gy gx) K dt Φ F.om } { S with om := (callUpd3 (T := T) C K sch.force dt S.om S.forcing).1, forcing := (callUpd3 (T := T) C K sch.force dt S.om S.forcing).2 } := ⟨h.sc, hu, h.u, h.green⟩
  obtain ⟨n1, n2⟩ := nsStep3_holds hT hC hxr hK hs dt fs h2
  unfold nsForcingStep3
  dsimp only
  unfold Out3.andThen
  rw [n1]
  exact ⟨rfl, ⟨n2.sc, n2.om, n2.u, n2.green⟩⟩

end Sopht
