import Verif.Sim2DGlobalLemmas

/-! # 2D simulations do not depend on the decomposition (C65) -/

namespace Sopht

set_option linter.unusedSimpArgs false

variable {gy gx py px : ℕ} {T : Cart2}

/-- an accumulating kernel whose boundary increments vanish at a ghost cell leaves that cell -/
theorem kernel2_add_zero {ι : Type} {g k : ℕ} (hg : 1 ≤ g) {f : (ι → C2 → ℝ) → ℝ} {A1 A2 : ι → C2 → ℝ} (out : C2 → ℝ) {p : C2} (hp : ¬ Inner2 T g p)
    (h : ∀ V ∈ boundaryViews2 T g k, writes2 k V p → (f fun i d => A2 i (p.1 + d.1, p.2 + d.2)) = 0) :
    kernel2 T g k (fun a b => a + b) f A1 A2 out p = out p := by
  have h0 : ¬ writes2 k (interiorView2 T g) p := by
    intro hw
    apply hp
    unfold writes2 interiorView2 at hw
    simp only [inPass_inner hg] at hw
    exact ⟨by omega, by omega, by omega, by omega⟩
  have hpass : ∀ V ∈ boundaryViews2 T g k, ∀ o : C2 → ℝ, pass2 k (fun a b => a + b) f A2 o V p = o p := by
    intro V hV o
    by_cases hw : writes2 k V p
    · rw [pass2_pos hw, h V hV hw, add_zero]
    · rw [pass2_neg hw]
  unfold kernel2
  have hfold : ∀ (L : List View2), (∀ V ∈ L, V ∈ boundaryViews2 T g k) → ∀ o : C2 → ℝ, L.foldl (pass2 k (fun a b => a + b) f A2) o p = o p := by
    intro L
    induction L with
    | nil => intro _ o; rfl
    | cons V L ih =>
      intro hL o
      rw [List.foldl_cons, ih (fun V' hV' => hL V' (List.mem_cons_of_mem _ hV')), hpass V (hL V List.mem_cons_self)]
  rw [hfold _ (fun V hV => hV), pass2_neg h0]

/-- The forcing stays clear of the boundary: it is zero in the outermost cells of the domain and outside. -/
def Confined2 (gy gx : ℕ) (Φ : Fin 2 → C2 → ℝ) : Prop := ∀ j G, ¬ Away2 gy gx 1 G → Φ j G = 0

/-- The ranks hold the forcing: inner cells and all cells outside the domain. -/
def HoldsForce2 (T : Cart2) (g : ℕ) (Φ : Fin 2 → C2 → ℝ) (v : Fin 2 → World C2 C2 ℝ) : Prop :=
  ∀ j c p, Valid2 T c → InArr2 T g p → (Inner2 T g p ∨ ¬ InDomain2 T (globalIx2 T g c p)) → v j c p = Φ j (globalIx2 T g c p)

/-- `update_vorticity_from_velocity_forcing` -/
theorem callUpd2_holds (hT : mkCart2 gy gx py px false = .ok T) {C : Cfg2} (hg : C.g = 2) (hy : 4 ≤ T.ny) (hx : 4 ≤ T.nx)
    (hslab : T.py = 1 ∨ T.px = 1)
    {K : Kern2} (hK : K.Local) (hK0 : ∀ a, K.upd a (fun _ _ => 0) = 0) {sch : Sched2} (hs : Complete (multiMsgs2 T 2 false ([0, 1] : List (Fin 2))) sch.2) (dt : ℝ)
    {S : Sim2 T} {om : C2 → ℝ} (ho : HoldsX2 T 2 om S.prim) {Φ : Fin 2 → C2 → ℝ} (hΦ : HoldsForce2 T 2 Φ S.forcing) (hc0 : Confined2 gy gx Φ) :
    HoldsX2 T 2 (refForce2 (C.params gy gx) K dt Φ om) (callUpd2 C K sch dt S).prim := by
  obtain ⟨e1, e2, -, -, hper, hY, hX⟩ := construct2_ok hT
  have hcs : ∀ i : Fin 2, i ∈ ([0, 1] : List (Fin 2)) := by intro i; match i with
    | 0 => simp
    | 1 => simp
  have hw : ∀ (i : Fin 2) c p, Valid2 T c → Inner2 T ((2 : ℕ) : ℤ) p →
      toFlat2 T 2 (S.forcing i) c (flat2 T 2 p) = Φ i (globalIx2 T ((2 : ℕ) : ℤ) c p) := by
    intro i c p hc hp
    rw [toFlat2_flat (inArr_of_inner2 hp)]
    exact hΦ i c p hc (inArr_of_inner2 hp) (Or.inl hp)
  intro c p hc ha hp
  unfold callUpd2 refForce2
  simp only [hg]
  rw [← params_dx hT]
  rcases hp with hp | ⟨hz, hD⟩
  · rw [stencilAdd2_global (F := Φ) hT (by omega) (by omega) (by omega) (by omega) (by omega) (by omega) false hcs (hK.upd _) hw sch.1 hs _ hc hp]
    · have hd : Dom2 gy gx (globalIx2 T ((2 : ℕ) : ℤ) c p) := (dom2_iff hT _).2 (inner_inDomain2 hT hc hp)
      rw [ho c p hc ha (Or.inl hp)]
      exact (if_pos hd).symm
    · refine Or.inr (Or.inr ?_)
      intro i q h1 h2 h3
      simp only
      rw [toFlat2_flat h1]
      exact hΦ i c q hc h1 (Or.inr h3)
  · have hno : ¬ Dom2 (C.params gy gx).gy (C.params gy gx).gx (globalIx2 T ((2 : ℕ) : ℤ) c p) := fun h => hD ((dom2_iff hT _).1 h)
    rw [if_neg hno]
    unfold stencilAdd2 stencil2
    have hin : ¬ Inner2 T ((2 : ℕ) : ℤ) p := fun h => hD (inner_inDomain2 hT hc h)
    rw [kernel2_add_zero (by omega) _ hin, ho c p hc ha (Or.inr ⟨hz, hD⟩)]
    intro V hV hwr
    refine (hK.upd _ _ (fun _ _ => 0) ?_).trans (hK0 _)
    intro i d hd
    have hq : InArr2 T ((2 : ℕ) : ℤ) (p.1 + d.1, p.2 + d.2) := by
      unfold boundaryViews2 at hV
      simp only [List.mem_cons, List.not_mem_nil, or_false] at hV
      unfold Cross2 at hd
      unfold InArr2
      simp only
      rcases hV with rfl | rfl | rfl | rfl <;> unfold writes2 at hwr <;>
        simp only [inPass_inner (show 1 ≤ 2 by omega), inPass_lo (show 1 ≤ 2 by omega) (show 1 ≤ T.ny by omega), inPass_lo (show 1 ≤ 2 by omega) (show 1 ≤ T.nx by omega),
          inPass_hi (show 1 ≤ 2 by omega) (show 1 ≤ 2 by omega) (show 1 ≤ T.ny by omega), inPass_hi (show 1 ≤ 2 by omega) (show 1 ≤ 2 by omega) (show 1 ≤ T.nx by omega),
          inPass_full] at hwr <;> omega
    by_cases hD' : InDomain2 T (globalIx2 T ((2 : ℕ) : ℤ) c (p.1 + d.1, p.2 + d.2))
    · have hz' : zone ((2 : ℕ) : ℤ) T.ny (p.1 + d.1) = 0 ∨ zone ((2 : ℕ) : ℤ) T.nx (p.2 + d.2) = 0 := by
        rw [zone_zero_iff, zone_zero_iff]
        obtain ⟨c1, c2, c3, c4⟩ := hc
        rcases hslab with h1 | h1
        · left
          have hc1 : c.1 = 0 := by omega
          have hgy : T.gy = T.ny := by rw [← hY, h1, one_mul]
          obtain ⟨d1, d2, -, -⟩ := hD'
          unfold globalIx2 at d1 d2
          simp only [hc1, zero_mul] at d1 d2
          omega
        · right
          have hc1 : c.2 = 0 := by omega
          have hgx : T.gx = T.nx := by rw [← hX, h1, one_mul]
          obtain ⟨-, -, d1, d2⟩ := hD'
          unfold globalIx2 at d1 d2
          simp only [hc1, zero_mul] at d1 d2
          omega
      rw [multi2_global (F := Φ) hT (by omega) (by omega) (by omega) false hcs hw hs hc hq hz' i (Or.inr (Or.inl hD')), contIx2_false]
      apply hc0
      rw [globalIx2_add]
      intro haw
      apply hD
      obtain ⟨a1, a2, a3, a4⟩ := haw
      unfold Cross2 at hd
      unfold InDomain2
      rw [e1, e2]
      simp only at a1 a2 a3 a4
      omega
    · rw [multi2_outside hT (by omega) (by omega) (by omega) false hcs _ hs hc hq hD']
      simp only
      rw [toFlat2_flat hq, hΦ i c _ hc hq (Or.inr hD')]
      apply hc0
      intro haw
      apply hD'
      obtain ⟨a1, a2, a3, a4⟩ := haw
      unfold InDomain2
      rw [e1, e2]
      omega

/-! ## One step -/

/-- All messages of a step are delivered. -/
structure Scheds2.Done (T : Cart2) (d : Fin 2) (sch : Scheds2) : Prop where
  upd : Complete (multiMsgs2 T 2 false ([0, 1] : List (Fin 2))) sch.upd.2
  adv : Complete (multiMsgs2 T 2 false [none, some (0 : Fin 2), some 1]) sch.adv.2
  diff : Complete (multiMsgs2 T 2 false [()]) sch.diff.2
  toDbl : Complete (toMsgs2 T 2 d) sch.toDbl
  fromDbl : Complete (fromMsgs2 T 2 d) sch.fromDbl
  curl : Complete (multiMsgs2 T 2 false [()]) sch.curl.2

/-- A usable simulator on blocks that are not too thin: default ghost size 2, at least 4 cells and at least the penalty zone per rank and axis. -/
structure Good2 (gy gx : ℕ) (T : Cart2) (C : Cfg2) : Prop where
  g : C.g = 2
  ny : 4 ≤ T.ny
  nx : 4 ≤ T.nx
  wy : C.w ≤ T.ny
  wx : C.w ≤ T.nx
  xr : 0 < C.xr
  attrs : ∀ n ∈ used2 C.flowType, n ∈ C.attrs

variable [NeZero T.gy] [NeZero T.gx]

/-- The ranks hold the fields `F`, and the Poisson solver its Green's function. -/
structure SimHolds2 (C : Cfg2) (F : Fields2) (S : Sim2 T) : Prop where
  om : HoldsX2 T 2 F.om S.prim
  u : ∀ j, HoldsX2 T 2 (F.u j) (S.vel j)
  green : ∃ dbl0 conv0, S.solver.green = (solverInit2 T C.xr dbl0 conv0).green

omit [NeZero T.gy] [NeZero T.gx] in
theorem useAttr2_ok {C : Cfg2} {n : String} {S : Sim2 T} {f : Sim2 T → Out2 T} (h : n ∈ C.attrs) : useAttr2 C n S f = f S := by
  unfold useAttr2; rw [if_pos h]

/-- advection and diffusion -/
theorem advDiffStep2_holds (hT : mkCart2 gy gx py px false = .ok T) {C : Cfg2} (hC : Good2 gy gx T C) {K : Kern2} (hK : K.Local)
    (h1 : "advection_timestep" ∈ C.attrs) (h2 : "diffusion_timestep" ∈ C.attrs) {sch : Scheds2} {d : Fin 2} (hs : sch.Done T d) (dt : ℝ)
    {F : Fields2} {S : Sim2 T} (h : SimHolds2 C F S) :
    (advDiffStep2 C K sch dt S).2 = none ∧ SimHolds2 C (refScalar2 (C.params gy gx) K dt F) (advDiffStep2 C K sch dt S).1 ∧
    (advDiffStep2 C K sch dt S).1.time = S.time ∧ (advDiffStep2 C K sch dt S).1.forcing = S.forcing := by
  unfold advDiffStep2
  rw [useAttr2_ok h1]
  simp only [Out2.andThen]
  rw [useAttr2_ok h2]
  obtain ⟨a1, a2⟩ := callAdv2_holds hT hC.g hC.ny hC.nx hK hs.adv dt h.om h.u
  have a3 := callDiff2_holds hT hC.g hC.ny hC.nx hK hs.diff dt a1
  exact ⟨rfl, ⟨a3, a2, h.green⟩, rfl, rfl⟩

/-- a Navier-Stokes step -/
theorem nsStep2_holds (hT : mkCart2 gy gx py px false = .ok T) {C : Cfg2} (hC : Good2 gy gx T C) {gn : PyNum} (hd : doublingInit2 gn T = .ok C.d)
    {K : Kern2} (hK : K.Local) (hft : C.flowType ≠ "passive_scalar") {sch : Scheds2} (hs : sch.Done T C.d) (dt : ℝ) (fs : Fin 2 → ℝ)
    {F : Fields2} {S : Sim2 T} (h : SimHolds2 C F S) :
    (nsStep2 C K sch dt fs S).2 = none ∧ SimHolds2 C (refNS2 (C.params gy gx) K dt fs F) (nsStep2 C K sch dt fs S).1 ∧
    (nsStep2 C K sch dt fs S).1.time = S.time := by
  obtain ⟨e1, e2, -⟩ := construct2_ok hT
  have hat := hC.attrs
  unfold used2 at hat
  rw [if_neg hft] at hat
  simp only [List.cons_append, List.mem_cons, forall_eq_or_imp] at hat
  obtain ⟨t1, t2, t3, t4, t5, t6, -⟩ := hat
  obtain ⟨a1, a2, a3, a4⟩ := advDiffStep2_holds hT hC hK t1 t2 hs dt h
  unfold nsStep2
  generalize advDiffStep2 C K sch dt S = r at a1 a2 a3
  obtain ⟨S1, o1⟩ := r
  simp only at a1 a2 a3
  subst a1
  obtain ⟨b1, b2, b3⟩ := callPen2_holds hT hC.g hC.ny hC.nx hC.wy hC.wx hC.xr a2.om
  have hv : velFromVort2 C K sch S1 = (callCurl2 C K sch.curl (callSolve2 C sch.toDbl sch.fromDbl (callPen2 C S1).1), none) := by
    unfold velFromVort2
    rw [useAttr2_ok t3]
    simp only [Out2.andThen]
    rw [b1]
    simp only [useAttr2_ok t4, useAttr2_ok t5]
  simp only [Out2.andThen]
  rw [hv]
  simp only
  rw [useAttr2_ok t6]
  simp only
  obtain ⟨dbl0, conv0, hgr⟩ := a2.green
  have hgr' : (callPen2 C S1).1.solver.green = (solverInit2 T C.xr dbl0 conv0).green := by rw [b2]; exact hgr
  have hst : Blocks2 T 2 (freeSolution2 gy gx (C.params gy gx).dx (serialPen2 false gy gx C.w (refDiff2 (C.params gy gx) K dt (refAdv2 (C.params gy gx) K dt F.u F.om))))
      (callSolve2 C sch.toDbl sch.fromDbl (callPen2 C S1).1).stream := by
    intro c p hc hp
    unfold callSolve2
    simp only [hC.g]
    have := (solve2_correct hT hd (Or.inl rfl) 2 hC.xr hgr'
      (serialPen2 false gy gx C.w (refDiff2 (C.params gy gx) K dt (refAdv2 (C.params gy gx) K dt F.u F.om))) (callPen2 C S1).1.stream
      (callPen2 C S1).1.prim (fun c hc p hp => b3 c p hc (inArr_of_inner2 hp) (Or.inl hp)) hs.toDbl hs.fromDbl (p := p) hc).1 hp
    exact this
  refine ⟨trivial, ⟨?_, ?_, dbl0, conv0, ?_⟩, ?_⟩
  · have : (freeStream2 C fs (callCurl2 C K sch.curl (callSolve2 C sch.toDbl sch.fromDbl (callPen2 C S1).1))).prim = (callPen2 C S1).1.prim := by
      unfold freeStream2; split <;> rfl
    rw [this]
    exact b3
  · exact freeStream2_holds (fun j => callCurl2_holds hT hC.g hC.ny hC.nx hK hs.curl hst j) fs
  · rw [← hgr']
    unfold freeStream2; split <;> rfl
  · rw [← a3]
    have : (callPen2 C S1).1.time = S1.time := callPen2_time C S1
    rw [← this]
    unfold freeStream2; split <;> rfl

/-- a step with forcing -/
theorem nsForcingStep2_holds (hT : mkCart2 gy gx py px false = .ok T) {C : Cfg2} (hC : Good2 gy gx T C) {gn : PyNum} (hd : doublingInit2 gn T = .ok C.d)
    {K : Kern2} (hK : K.Local) (hK0 : ∀ a, K.upd a (fun _ _ => 0) = 0) (hft : C.flowType = "navier_stokes_with_forcing") {sch : Scheds2} (hs : sch.Done T C.d)
    (dt : ℝ) (fs : Fin 2 → ℝ) {F : Fields2} {S : Sim2 T} (h : SimHolds2 C F S) {Φ : Fin 2 → C2 → ℝ} (hΦ : HoldsForce2 T 2 Φ S.forcing)
    (hc0 : Confined2 gy gx Φ) :
    (nsForcingStep2 C K sch dt fs S).2 = none ∧ SimHolds2 C (refForcing2 (C.params gy gx) K dt fs Φ F) (nsForcingStep2 C K sch dt fs S).1 ∧
    (nsForcingStep2 C K sch dt fs S).1.time = S.time ∧ (nsForcingStep2 C K sch dt fs S).1.forcing = fun _ _ _ => 0 := by
  have hat := hC.attrs
  unfold used2 at hat
  rw [hft] at hat
  simp only [String.reduceEq, if_false, if_true, List.cons_append, List.nil_append, List.mem_cons, List.not_mem_nil, or_false, forall_eq_or_imp,
    forall_eq] at hat
  obtain ⟨-, -, -, -, -, -, t7, t8⟩ := hat
  have hslab : T.py = 1 ∨ T.px = 1 := by
    rcases doublingInit2_ok hd with ⟨-, h⟩ | ⟨-, h⟩
    · exact Or.inr h
    · exact Or.inl h
  have u1 := callUpd2_holds hT hC.g hC.ny hC.nx hslab hK hK0 hs.upd dt h.om hΦ hc0
  have u2 : SimHolds2 C { F with om := refForce2 (C.params gy gx) K dt Φ F.om } (callUpd2 C K sch.upd dt S) := ⟨u1, h.u, h.green⟩
  obtain ⟨n1, n2, n3⟩ := nsStep2_holds hT hC hd hK (by rw [hft]; simp) hs dt fs u2
  unfold nsForcingStep2
  rw [useAttr2_ok t7]
  simp only [Out2.andThen]
  rw [n1]
  simp only [useAttr2_ok t8]
  exact ⟨trivial, ⟨n2.om, n2.u, n2.green⟩, n3, trivial⟩

end Sopht
