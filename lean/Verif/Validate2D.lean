import Verif.Snapshots
import Verif.FileNames
import Verif.Norms
import Verif.Analytic
import Verif.Plotter

/-!
# The Lamb–Oseen driver, end to end

examples/2d_examples/LambOseenVortexCase/lamb_oseen_vortex.py, all of `lamb_oseen_vortex_flow_case` but the video made of the files at the end (`os.system`).
The constants at its top are arguments here.  Titles `f"Vorticity, time: {flow_sim.time:.2f}"` are an arbitrary function of the time.  Where a cell centre is the centre of the
vortex, `compute_lamb_oseen_velocity` has `0 / 0`: NumPy's nan, 0 in the model.
-/

namespace Sopht

/-- Arguments and constants of the driver (lamb_oseen_vortex.py:11, 21-32, 57), and of the simulator (`CFL`, the tolerance of the precision). -/
structure LambArgs where
  gy : ℕ
  gx : ℕ
  py : ℕ
  px : ℕ
  xr : ℝ
  nu : ℝ
  cfl : ℝ
  tol : ℝ
  x0 : ℝ
  y0 : ℝ
  tStart : ℝ
  tEnd : ℝ
  gamma : ℝ
  fs : Fin 2 → ℝ

/-- The arguments of the constructor (lamb_oseen_vortex.py:35-44): default ghost size and penalty zone. -/
def LambArgs.sim (L : LambArgs) : SimArgs2 := ⟨L.gy, L.gx, L.py, L.px, "navier_stokes", true, 2, .int 2⟩

/-- `vorticity_field[...] = compute_lamb_oseen_vorticity(..., t=t_start)` (lamb_oseen_vortex.py:47-56). -/
noncomputable def LambArgs.om0 (L : LambArgs) (x y : ℝ) : ℝ := lambOseenVorticity x y L.x0 L.y0 L.nu L.gamma L.tStart

/-- `velocity_field[...] = compute_lamb_oseen_velocity(..., t=t_end)` (lamb_oseen_vortex.py:58-67): at `t_end`, and without the free stream. -/
noncomputable def LambArgs.u0 (L : LambArgs) (j : Fin 2) (x y : ℝ) : ℝ :=
  ![(lambOseenVelocity x y L.x0 L.y0 L.nu L.gamma L.tEnd).1, (lambOseenVelocity x y L.x0 L.y0 L.nu L.gamma L.tEnd).2] j

/-- `foto_timer_limit` (lamb_oseen_vortex.py:71). -/
noncomputable def LambArgs.limit (L : LambArgs) : ℝ := (L.tEnd - L.tStart) / 25

/-- `x_cm_final`, `y_cm_final` (lamb_oseen_vortex.py:124-126), `t` the time at the end. -/
noncomputable def LambArgs.centre (L : LambArgs) (t : ℝ) : ℝ × ℝ := (L.x0 + L.fs 0 * (t - L.tStart), L.y0 + L.fs 1 * (t - L.tStart))

/-- `final_analytical_vorticity_field` (lamb_oseen_vortex.py:127-136). -/
noncomputable def LambArgs.omEnd (L : LambArgs) (t x y : ℝ) : ℝ := lambOseenVorticity x y (L.centre t).1 (L.centre t).2 L.nu L.gamma t

/-- `final_analytical_velocity_field` (lamb_oseen_vortex.py:156-165). -/
noncomputable def LambArgs.uEnd (L : LambArgs) (t : ℝ) (j : Fin 2) (x y : ℝ) : ℝ :=
  ![(lambOseenVelocity x y (L.centre t).1 (L.centre t).2 L.nu L.gamma t).1, (lambOseenVelocity x y (L.centre t).1 (L.centre t).2 L.nu L.gamma t).2] j

/-- What the driver logs: time and `max_vort` of each snapshot (lamb_oseen_vortex.py:101-105), the centre, and the errors (lamb_oseen_vortex.py:149-151, 180-181). -/
structure LambOut where
  log : List (ℝ × Except PyErr ℝ)
  time : ℝ
  centre : ℝ × ℝ
  vortL2 : ℝ
  vortLinf : ℝ
  velL2 : ℝ
  velLinf : ℝ

/-- name of the file of a snapshot (lamb_oseen_vortex.py:96-98) -/
noncomputable def lambFile (time : ℝ) : String := String.ofList (fileName "snap_".toList ".png".toList 4 time)

section
variable {T : Cart2}

/-- A snapshot (lamb_oseen_vortex.py:83-105): what it asks of the plotter, and what it logs. -/
noncomputable def lambShot (C : Cfg2) (title : ℝ → String) (S : Sim2 T) : (ℝ × Except PyErr ℝ) × List (PlotCall ℝ Unit) :=
  ((S.time, maxVorticity2 C S),
   [.setTitle (title S.time),
    .contourf ![toFlat2 T C.g S.prim, toFlat2 T C.g fun c => position2 T C.g C.xr c 0, toFlat2 T C.g fun c => position2 T C.g C.xr c 1],
    .savefig (lambFile S.time),
    .clearfig])

variable [NeZero T.gy] [NeZero T.gx]

/-- What an iteration does (lamb_oseen_vortex.py:107-108). -/
def LambArgs.step (L : LambArgs) (o : ℕ → Scheds2) (i : ℕ) : StepIn2 := ⟨.stable 1, L.fs, fun _ _ _ => 0, o i⟩

/-- The time loop (lamb_oseen_vortex.py:81-111). -/
noncomputable def lambBody (L : LambArgs) (K : Kern2) (title : ℝ → String) (o : ℕ → Scheds2) :
    ℕ → Sim2 T × ℝ × List ((ℝ × Except PyErr ℝ) × List (PlotCall ℝ Unit)) → (Sim2 T × ℝ × List ((ℝ × Except PyErr ℝ) × List (PlotCall ℝ Unit))) × Option PyErr :=
  let C := simCfg2 L.sim T L.xr L.nu L.cfl
  snapBody false L.limit (lambShot C title) (fun i S => (pickDt2 C L.tol S (L.step o i).rule).2) (loopBody2 C K L.tol (L.step o))

/-- After the loop (lamb_oseen_vortex.py:122-181): errors of the vorticity, the velocity computed anew (without the free stream), its errors. -/
noncomputable def lambEnd (L : LambArgs) (K : Kern2) (sch : Scheds2) (log : List (ℝ × Except PyErr ℝ)) (S : Sim2 T) : Except PyErr LambOut := do
  let C := simCfg2 L.sim T L.xr L.nu L.cfl
  let vortL2 ← l2Error2 T C.g C.xr [()] (fun _ => S.prim) fun _ => L.omEnd S.time
  let vortLinf ← linfError2 T C.g C.xr [()] (fun _ => S.prim) fun _ => L.omEnd S.time
  let r := velFromVort2 C K sch S
  match r.2 with
  | some e => .error e
  | none =>
    let velL2 ← l2Error2 T C.g C.xr [0, 1] r.1.vel (L.uEnd S.time)
    let velLinf ← linfError2 T C.g C.xr [0, 1] r.1.vel (L.uEnd S.time)
    .ok ⟨log, S.time, L.centre S.time, vortL2, vortLinf, velL2, velLinf⟩

/-- The driver comes to an end: with an exception, or with what it logged and what it asked of the plotter.  `dbl0`, `conv0`: contents of fresh arrays. -/
inductive LambRun (L : LambArgs) (T : Cart2) [NeZero T.gy] [NeZero T.gx] (K : Kern2) (title : ℝ → String) (o : ℕ → Scheds2) (dbl0 : World C2 C2 ℝ) (conv0 : Dbl2 T → ℂ) :
    Except PyErr (LambOut × List (PlotCall ℝ Unit)) → Prop
  | fail {N s e} (h : While (fun s => s.1.time < L.tEnd) (lambBody L K title o) 0 (initFrom2 T 2 L.xr L.tStart dbl0 conv0 L.om0 L.u0, 0, []) N (s, some e)) : LambRun L T K title o dbl0 conv0 (.error e)
  | done {N S timer shots} (h : While (fun s => s.1.time < L.tEnd) (lambBody L K title o) 0 (initFrom2 T 2 L.xr L.tStart dbl0 conv0 L.om0 L.u0, 0, []) N ((S, timer, shots), none)) :
      LambRun L T K title o dbl0 conv0 ((lambEnd L K (o N) (shots.map Prod.fst) S).map fun out => (out, shots.flatMap Prod.snd))

end

/-! ## Specification: the same on the global grid -/

/-- Fields and time after `n` iterations on the global grid. -/
noncomputable def LambArgs.ref (L : LambArgs) (K : Kern2) (n : ℕ) : Fields2 × ℝ :=
  refRun2 "navier_stokes" ⟨L.gy, L.gx, L.xr, L.nu, 2, true⟩ K L.cfl L.tol (List.replicate n ⟨.stable 1, L.fs, fun _ _ => 0⟩)
    (fieldsFrom2 (L.xr / L.gx) (fun x y => lambOseenVorticity x y L.x0 L.y0 L.nu L.gamma L.tStart)
      (fun j x y => ![(lambOseenVelocity x y L.x0 L.y0 L.nu L.gamma L.tEnd).1, (lambOseenVelocity x y L.x0 L.y0 L.nu L.gamma L.tEnd).2] j), L.tStart)

/-- The largest value in the cells of the grid. -/
noncomputable def maxCell2 (gy gx : ℕ) (f : C2 → ℝ) : ℝ := sSup {x | ∃ G, Dom2 gy gx G ∧ x = f G}

/-- velocity of the vorticity `om`, which is taken to zero at the walls before -/
noncomputable def LambArgs.vel (L : LambArgs) (K : Kern2) (om : C2 → ℝ) (j : Fin 2) (G : C2) : ℝ :=
  ![(refVel2 ⟨L.gy, L.gx, L.xr, L.nu, 2, true⟩ K (serialPen2 false L.gy L.gx 2 om) G).1, (refVel2 ⟨L.gy, L.gx, L.xr, L.nu, 2, true⟩ K (serialPen2 false L.gy L.gx 2 om) G).2] j

/-- The iterations with a snapshot. -/
noncomputable def LambArgs.idx (L : LambArgs) (K : Kern2) (N : ℕ) : List ℕ := (snapSeq false L.limit (fun n => n) (fun n => (L.ref K (n + 1)).2 - (L.ref K n).2) N).2

/-- What is logged if the loop takes `N` iterations, of which those in `idx` make a snapshot. -/
noncomputable def LambArgs.expected (L : LambArgs) (K : Kern2) (N : ℕ) (idx : List ℕ) : LambOut :=
  let F := (L.ref K N).1
  let t := (L.ref K N).2
  let dx := L.xr / L.gx
  let cx := L.x0 + L.fs 0 * (t - L.tStart)
  let cy := L.y0 + L.fs 1 * (t - L.tStart)
  let om := fun x y => lambOseenVorticity x y cx cy L.nu L.gamma t
  let u := fun x y => (lambOseenVelocity x y cx cy L.nu L.gamma t).1
  let v := fun x y => (lambOseenVelocity x y cx cy L.nu L.gamma t).2
  { log := idx.map fun n => ((L.ref K n).2, .ok (maxCell2 L.gy L.gx (L.ref K n).1.om))
    time := t
    centre := (cx, cy)
    vortL2 := Real.sqrt (∑ G ∈ Finset.Ico (0 : ℤ) L.gy ×ˢ Finset.Ico (0 : ℤ) L.gx, errAt2 dx F.om om G ^ 2 * dx ^ 2)
    vortLinf := maxCell2 L.gy L.gx (errAt2 dx F.om om)
    velL2 := Real.sqrt (∑ G ∈ Finset.Ico (0 : ℤ) L.gy ×ˢ Finset.Ico (0 : ℤ) L.gx,
      (errAt2 dx (L.vel K F.om 0) u G ^ 2 + errAt2 dx (L.vel K F.om 1) v G ^ 2) * dx ^ 2)
    velLinf := max (maxCell2 L.gy L.gx (errAt2 dx (L.vel K F.om 0) u)) (maxCell2 L.gy L.gx (errAt2 dx (L.vel K F.om 1) v)) }

/-- The picture of a field on the grid, with cell centres as coordinates. -/
noncomputable def picture (T : Cart2) (dx : ℝ) (F : C2 → ℝ) : Contour T ℝ := ⟨fun i j => F (i, j), fun _ j => (j + 1 / 2) * dx, fun i _ => (i + 1 / 2) * dx⟩

/-- The files written: one for each snapshot, with the vorticity at its time, title and one colour bar. -/
noncomputable def LambArgs.files (L : LambArgs) (T : Cart2) (K : Kern2) (title : ℝ → String) (idx : List ℕ) : List (String × Shown T ℝ Unit) :=
  idx.map fun n => (String.ofList (fileName "snap_".toList ".png".toList 4 (L.ref K n).2), ⟨title (L.ref K n).2, [.contour (picture T (L.xr / L.gx) (L.ref K n).1.om)], [picture T (L.xr / L.gx) (L.ref K n).1.om]⟩)

/-! ## Lemmas -/

theorem maxCell2_greatest {gy gx : ℕ} (hy : 0 < gy) (hx : 0 < gx) (f : C2 → ℝ) : IsGreatest {x | ∃ G, Dom2 gy gx G ∧ x = f G} (maxCell2 gy gx f) := by
  have hfin : {x | ∃ G, Dom2 gy gx G ∧ x = f G}.Finite := by
    have : {x | ∃ G, Dom2 gy gx G ∧ x = f G} ⊆ f '' (Set.Icc (0 : ℤ) gy ×ˢ Set.Icc (0 : ℤ) gx) := by
      rintro x ⟨G, hG, rfl⟩
      exact ⟨G, ⟨⟨hG.1, le_of_lt hG.2.1⟩, hG.2.2.1, le_of_lt hG.2.2.2⟩, rfl⟩
    exact Set.Finite.subset (Set.Finite.image _ ((Set.finite_Icc _ _).prod (Set.finite_Icc _ _))) this
  exact ⟨Set.Nonempty.csSup_mem ⟨_, (0, 0), ⟨by simp, by simpa using hy, by simp, by simpa using hx⟩, rfl⟩ hfin, fun x hx => le_csSup hfin.bddAbove hx⟩

theorem snapSeq_map {V W : Type} (strict : Bool) (limit : ℝ) (v : ℕ → V) (f : V → W) (dt : ℕ → ℝ) (n : ℕ) :
    snapSeq strict limit (fun i => f (v i)) dt n = ((snapSeq strict limit v dt n).1, (snapSeq strict limit v dt n).2.map f) := by
  induction n with
  | zero => rfl
  | succ n ih =>
    have h1 := congrArg Prod.fst ih
    have h2 := congrArg Prod.snd ih
    dsimp only at h1 h2
    by_cases hd : Due strict limit (snapSeq strict limit v dt n).1 ∨ (snapSeq strict limit v dt n).1 = 0
    · have hd' : Due strict limit (snapSeq strict limit (fun i => f (v i)) dt n).1 ∨ (snapSeq strict limit (fun i => f (v i)) dt n).1 = 0 := by rw [h1]; exact hd
      simp only [snapSeq, if_pos hd, if_pos hd', h2, List.map_append, List.map_cons, List.map_nil]
    · have hd' : ¬(Due strict limit (snapSeq strict limit (fun i => f (v i)) dt n).1 ∨ (snapSeq strict limit (fun i => f (v i)) dt n).1 = 0) := by rw [h1]; exact hd
      simp only [snapSeq, if_neg hd, if_neg hd', h1, h2]

section
variable {T : Cart2} [NeZero T.gy] [NeZero T.gx] {gy gx py px : ℕ}

/-- `compute_velocity_from_vorticity` on its own -/
theorem velFromVort2_holds (hT : mkCart2 gy gx py px false = .ok T) {C : Cfg2} (hC : Good2 gy gx T C) {gn : PyNum} (hd : doublingInit2 gn T = .ok C.d)
    {K : Kern2} (hK : K.Local) (hft : C.flowType ≠ "passive_scalar") {sch : Scheds2} (hs : sch.Done T C.d) {F : Fields2} {S : Sim2 T} (h : SimHolds2 C F S) :
    (velFromVort2 C K sch S).2 = none ∧ SimHolds2 C { om := serialPen2 false gy gx C.w F.om, u := ![fun G => (refVel2 (C.params gy gx) K (serialPen2 false gy gx C.w F.om) G).1,
      fun G => (refVel2 (C.params gy gx) K (serialPen2 false gy gx C.w F.om) G).2] } (velFromVort2 C K sch S).1 ∧ (velFromVort2 C K sch S).1.time = S.time := by
  have hat := hC.attrs
  unfold used2 at hat
  rw [if_neg hft] at hat
  simp only [List.cons_append, List.mem_cons, forall_eq_or_imp] at hat
  obtain ⟨t1, t2, t3, t4, t5, t6, -⟩ := hat
  obtain ⟨b1, b2, b3⟩ := callPen2_holds hT hC.g hC.ny hC.nx hC.wy hC.wx hC.xr h.om
  have hv : velFromVort2 C K sch S = (callCurl2 C K sch.curl (callSolve2 C sch.toDbl sch.fromDbl (callPen2 C S).1), none) := by
    unfold velFromVort2
    rw [useAttr2_ok t3]
    simp only [Out2.andThen]
    rw [b1]
    simp only [useAttr2_ok t4, useAttr2_ok t5]
  obtain ⟨dbl0, conv0, hgr⟩ := h.green
  have hgr' : (callPen2 C S).1.solver.green = (solverInit2 T C.xr dbl0 conv0).green := by rw [b2]; exact hgr
  have hst : Blocks2 T 2 (freeSolution2 gy gx (C.params gy gx).dx (serialPen2 false gy gx C.w F.om)) (callSolve2 C sch.toDbl sch.fromDbl (callPen2 C S).1).stream := by
    intro c p hc hp
    unfold callSolve2
    simp only [hC.g]
    exact (solve2_correct hT hd (Or.inl rfl) 2 hC.xr hgr' (serialPen2 false gy gx C.w F.om) (callPen2 C S).1.stream (callPen2 C S).1.prim
      (fun c hc p hp => b3 c p hc (inArr_of_inner2 hp) (Or.inl hp)) hs.toDbl hs.fromDbl (p := p) hc).1 hp
  rw [hv]
  exact ⟨rfl, ⟨b3, fun j => callCurl2_holds hT hC.g hC.ny hC.nx hK hs.curl hst j, dbl0, conv0, hgr'⟩, callPen2_time C S⟩

/-- What is assumed of the driver: the constants make sense, the simulator can be constructed and run on `T` (`Fit2`), kernels are local, all messages are delivered. -/
structure LambFit (L : LambArgs) (T : Cart2) (K : Kern2) (o : ℕ → Scheds2) : Prop where
  fit : Fit2 L.sim T
  xr : 0 < L.xr
  nu : 0 ≤ L.nu
  cfl : 0 < L.cfl
  tol : 0 < L.tol
  kern : K.Local
  zero : ∀ r, K.upd r (fun _ _ => 0) = 0
  sched : ∀ n, (o n).Done T (simCfg2 L.sim T L.xr L.nu L.cfl).d

variable {L : LambArgs} {K : Kern2} {title : ℝ → String} {o : ℕ → Scheds2} {dbl0 : World C2 C2 ℝ} {conv0 : Dbl2 T → ℂ}

/-- the state before iteration `n` -/
noncomputable def lambState (L : LambArgs) (T : Cart2) [NeZero T.gy] [NeZero T.gx] (K : Kern2) (o : ℕ → Scheds2) (dbl0 : World C2 C2 ℝ) (conv0 : Dbl2 T → ℂ) (n : ℕ) : Sim2 T :=
  loopState2 (simCfg2 L.sim T L.xr L.nu L.cfl) K L.tol (L.step o) (initFrom2 T 2 L.xr L.tStart dbl0 conv0 L.om0 L.u0) n

omit [NeZero T.gy] [NeZero T.gx] in
theorem LambFit.means (h : LambFit L T K o) (n : ℕ) : Means2 L.gy L.gx T (simCfg2 L.sim T L.xr L.nu L.cfl) (L.step o n) ⟨.stable 1, L.fs, fun _ _ => 0⟩ :=
  ⟨rfl, rfl, h.sched n, fun hf => absurd hf (by simp [simCfg2, LambArgs.sim])⟩

omit [NeZero T.gy] [NeZero T.gx] in
theorem LambArgs.range_map (L : LambArgs) (n : ℕ) : (List.range n).map (fun _ => (⟨.stable 1, L.fs, fun _ _ => 0⟩ : StepSpec2)) = List.replicate n ⟨.stable 1, L.fs, fun _ _ => 0⟩ := by
  rw [List.map_const', List.length_range]

/-- the state before iteration `n` is that on the global grid -/
theorem LambFit.holds (h : LambFit L T K o) (n : ℕ) :
    SimHolds2 (simCfg2 L.sim T L.xr L.nu L.cfl) (L.ref K n).1 (lambState L T K o dbl0 conv0 n) ∧ (lambState L T K o dbl0 conv0 n).time = (L.ref K n).2 := by
  obtain ⟨hT, hft⟩ := simCheck2_cart' h.fit.built
  have hinit := initFrom2_holds hT (simCfg2 L.sim T L.xr L.nu L.cfl) L.tStart dbl0 conv0 L.om0 L.u0
  obtain ⟨-, r2, r3⟩ := simLoop2_holds hT (h.fit.good h.xr L.nu L.cfl) (h.fit.dbl L.xr L.nu L.cfl) hft h.cfl.le h.tol h.kern h.zero (prefix_means2 h.means n) hinit
  rw [L.range_map] at r2 r3
  exact ⟨r2, r3⟩

/-- one more iteration -/
theorem LambFit.next (h : LambFit L T K o) (n : ℕ) :
    loopBody2 (simCfg2 L.sim T L.xr L.nu L.cfl) K L.tol (L.step o) n (lambState L T K o dbl0 conv0 n) = (lambState L T K o dbl0 conv0 (n + 1), none) ∧
    (pickDt2 (simCfg2 L.sim T L.xr L.nu L.cfl) L.tol (lambState L T K o dbl0 conv0 n) (L.step o n).rule).2 = .ok ((L.ref K (n + 1)).2 - (L.ref K n).2) ∧
    (L.ref K n).2 < (L.ref K (n + 1)).2 := by
  obtain ⟨q1, q2, -⟩ := loop2_dt h.fit h.xr h.nu h.cfl h.tol h.kern h.zero L.tStart dbl0 conv0 L.om0 L.u0 h.means one_pos (fun _ => rfl) n
  have e := fun n => (h.holds (dbl0 := dbl0) (conv0 := conv0) n).2
  refine ⟨(loop2_states h.fit h.xr L.nu h.cfl.le h.tol h.kern h.zero L.tStart dbl0 conv0 L.om0 L.u0 h.means n).1, ?_, ?_⟩
  · rw [← e, ← e]; exact q1
  · rw [← e, ← e]; exact q2

/-- The loop: `N` iterations, or none. -/
theorem LambFit.loop (h : LambFit L T K o) {N : ℕ} {r : (Sim2 T × ℝ × List ((ℝ × Except PyErr ℝ) × List (PlotCall ℝ Unit))) × Option PyErr} :
    let st := lambState L T K o dbl0 conv0
    While (fun s => s.1.time < L.tEnd) (lambBody L K title o) 0 (initFrom2 T 2 L.xr L.tStart dbl0 conv0 L.om0 L.u0, 0, []) N r ↔
      (∀ i < N, (L.ref K i).2 < L.tEnd) ∧ L.tEnd ≤ (L.ref K N).2 ∧ r = ((st N,
        (snapSeq false L.limit (fun n => n) (fun n => (L.ref K (n + 1)).2 - (L.ref K n).2) N).1, (L.idx K N).map fun n => lambShot (simCfg2 L.sim T L.xr L.nu L.cfl) title (st n)), none) := by
  intro st
  have e : ∀ n, (st n).time = (L.ref K n).2 := fun n => (h.holds n).2
  have h1 := snapBody_states (shot := lambShot (simCfg2 L.sim T L.xr L.nu L.cfl) title)
    (dtOf := fun i S => (pickDt2 (simCfg2 L.sim T L.xr L.nu L.cfl) L.tol S (L.step o i).rule).2) (dt := fun n => (L.ref K (n + 1)).2 - (L.ref K n).2) (it := st) (fun i => (h.next i).1) (fun i => (h.next i).2.1) false L.limit
  have h2 := fun n => snapSeq_map false L.limit (fun n => n) (fun n => lambShot (simCfg2 L.sim T L.xr L.nu L.cfl) title (st n)) (fun n => (L.ref K (n + 1)).2 - (L.ref K n).2) n
  have h3 : ∀ n, (st n, (snapSeq false L.limit (fun n => n) (fun n => (L.ref K (n + 1)).2 - (L.ref K n).2) n).1, (L.idx K n).map fun n => lambShot (simCfg2 L.sim T L.xr L.nu L.cfl) title (st n)) =
    (st n, snapSeq false L.limit (fun n => lambShot (simCfg2 L.sim T L.xr L.nu L.cfl) title (st n)) (fun n => (L.ref K (n + 1)).2 - (L.ref K n).2) n) := fun n => by
    rw [h2]; rfl
  rw [h3]
  constructor
  · intro hw
    obtain ⟨-, w2, w3, w4⟩ := hw.states (it := fun i => (st i, snapSeq false L.limit (fun n => lambShot (simCfg2 L.sim T L.xr L.nu L.cfl) title (st n))
      (fun n => (L.ref K (n + 1)).2 - (L.ref K n).2) i)) rfl h1
    refine ⟨fun i hi => ?_, ?_, w4⟩
    · rw [← e]; exact w2 i (Nat.zero_le _) hi
    · rw [← e]; exact not_lt.1 w3
  · rintro ⟨w2, w3, rfl⟩
    exact While.of_states (it := fun i => (st i, snapSeq false L.limit (fun n => lambShot (simCfg2 L.sim T L.xr L.nu L.cfl) title (st n))
      (fun n => (L.ref K (n + 1)).2 - (L.ref K n).2) i)) (Nat.zero_le N) (fun i _ hi => by change (st i).time < _; rw [e]; exact w2 i hi) (fun i _ _ => h1 i)
      (by change ¬(st N).time < _; rw [e]; exact not_lt.2 w3)

/-- what a snapshot logs -/
theorem LambFit.log (h : LambFit L T K o) (n : ℕ) :
    (lambShot (simCfg2 L.sim T L.xr L.nu L.cfl) title (lambState L T K o dbl0 conv0 n)).1 = ((L.ref K n).2, .ok (maxCell2 L.gy L.gx (L.ref K n).1.om)) := by
  obtain ⟨hT, hft⟩ := simCheck2_cart' h.fit.built
  obtain ⟨e1, e2, -⟩ := construct2_ok hT
  have hgy0 : 0 < L.gy := by have := Nat.pos_of_ne_zero (NeZero.ne T.gy); rw [e1] at this; exact this
  have hgx0 : 0 < L.gx := by have := Nat.pos_of_ne_zero (NeZero.ne T.gx); rw [e2] at this; exact this
  obtain ⟨r1, r2⟩ := h.holds (dbl0 := dbl0) (conv0 := conv0) n
  have hM := maxCell2_greatest hgy0 hgx0 (L.ref K n).1.om
  have hset : {x | ∃ G, Dom2 L.gy L.gx G ∧ x = (L.ref K n).1.om G} = {x | ∃ G, InDomain2 T G ∧ x = (L.ref K n).1.om G} := by
    ext x
    exact ⟨fun ⟨G, hG, hx⟩ => ⟨G, (dom2_iff hT G).1 hG, hx⟩, fun ⟨G, hG, hx⟩ => ⟨G, (dom2_iff hT G).2 hG, hx⟩⟩
  rw [hset] at hM
  refine Prod.ext r2 ?_
  exact maxVorticity2_global hT (simCfg2 L.sim T L.xr L.nu L.cfl) (by change 1 ≤ 2; omega) (by simp [simCfg2, LambArgs.sim]) _ (holdsX2_blocks r1.om) hM

/-- the errors -/
theorem LambFit.end_ (h : LambFit L T K o) (N : ℕ) (idx : List ℕ) :
    lambEnd L K (o N) (idx.map fun n => ((L.ref K n).2, .ok (maxCell2 L.gy L.gx (L.ref K n).1.om))) (lambState L T K o dbl0 conv0 N) = .ok (L.expected K N idx) := by
  obtain ⟨hT, hft⟩ := simCheck2_cart' h.fit.built
  obtain ⟨e1, e2, -⟩ := construct2_ok hT
  have hgy0 : 0 < L.gy := by have := Nat.pos_of_ne_zero (NeZero.ne T.gy); rw [e1] at this; exact this
  have hgx0 : 0 < L.gx := by have := Nat.pos_of_ne_zero (NeZero.ne T.gx); rw [e2] at this; exact this
  obtain ⟨r1, r2⟩ := h.holds (dbl0 := dbl0) (conv0 := conv0) N
  obtain ⟨gn, hd⟩ := h.fit.dbl L.xr L.nu L.cfl (by simp [simCfg2, LambArgs.sim])
  obtain ⟨v1, v2, v3⟩ := velFromVort2_holds hT (h.fit.good h.xr L.nu L.cfl) hd h.kern (by simp [simCfg2, LambArgs.sim]) (h.sched N) r1
  set S := lambState L T K o dbl0 conv0 N with hS
  set C := simCfg2 L.sim T L.xr L.nu L.cfl with hC
  have hu : ∀ j c p, Valid2 T c → Inner2 T ((2 : ℕ) : ℤ) p → (velFromVort2 C K (o N) S).1.vel j c p = L.vel K (L.ref K N).1.om j (globalIx2 T ((2 : ℕ) : ℤ) c p) := by
    intro j c p hc hp
    rw [v2.u j c p hc (inArr_of_inner2 hp) (Or.inl hp)]
    fin_cases j <;> rfl
  have a1 := l2Error2_global hT ⟨hgy0, hgx0⟩ (g := 2) (by omega) L.xr [()] (w := fun _ => S.prim) (F := fun _ => (L.ref K N).1.om)
    (fun _ _ c p hc hp => r1.om c p hc (inArr_of_inner2 hp) (Or.inl hp)) fun _ => L.omEnd S.time
  obtain ⟨m, a2, a3⟩ := linfError2_global hT ⟨hgy0, hgx0⟩ (g := 2) (by omega) L.xr (cs := [()]) (by simp) (w := fun _ => S.prim) (F := fun _ => (L.ref K N).1.om)
    (fun _ _ c p hc hp => r1.om c p hc (inArr_of_inner2 hp) (Or.inl hp)) fun _ => L.omEnd S.time
  have b1 := l2Error2_global hT ⟨hgy0, hgx0⟩ (g := 2) (by omega) L.xr ([0, 1] : List (Fin 2)) (w := (velFromVort2 C K (o N) S).1.vel) (F := L.vel K (L.ref K N).1.om)
    (fun j _ c p hc hp => hu j c p hc hp) (L.uEnd S.time)
  obtain ⟨m', b2, b3⟩ := linfError2_global hT ⟨hgy0, hgx0⟩ (g := 2) (by omega) L.xr (cs := ([0, 1] : List (Fin 2))) (by simp) (w := (velFromVort2 C K (o N) S).1.vel)
    (F := L.vel K (L.ref K N).1.om) (fun j _ c p hc hp => hu j c p hc hp) (L.uEnd S.time)
  have c1 : m = maxCell2 L.gy L.gx (errAt2 (L.xr / L.gx) (L.ref K N).1.om (L.omEnd S.time)) := by
    refine a3.unique ⟨?_, ?_⟩
    · obtain ⟨G, hG, e⟩ := (maxCell2_greatest hgy0 hgx0 (errAt2 (L.xr / L.gx) (L.ref K N).1.om (L.omEnd S.time))).1
      exact ⟨(), by simp, G, (dom2_iff hT G).1 hG, e⟩
    · rintro x ⟨-, -, G, hG, rfl⟩
      exact (maxCell2_greatest hgy0 hgx0 (errAt2 (L.xr / L.gx) (L.ref K N).1.om (L.omEnd S.time))).2 ⟨G, (dom2_iff hT G).2 hG, rfl⟩
  have c2 : m' = max (maxCell2 L.gy L.gx (errAt2 (L.xr / L.gx) (L.vel K (L.ref K N).1.om 0) (L.uEnd S.time 0)))
      (maxCell2 L.gy L.gx (errAt2 (L.xr / L.gx) (L.vel K (L.ref K N).1.om 1) (L.uEnd S.time 1))) := by
    have g0 := maxCell2_greatest hgy0 hgx0 (errAt2 (L.xr / L.gx) (L.vel K (L.ref K N).1.om 0) (L.uEnd S.time 0))
    have g1 := maxCell2_greatest hgy0 hgx0 (errAt2 (L.xr / L.gx) (L.vel K (L.ref K N).1.om 1) (L.uEnd S.time 1))
    refine b3.unique ⟨?_, ?_⟩
    · rcases max_choice (maxCell2 L.gy L.gx (errAt2 (L.xr / L.gx) (L.vel K (L.ref K N).1.om 0) (L.uEnd S.time 0)))
        (maxCell2 L.gy L.gx (errAt2 (L.xr / L.gx) (L.vel K (L.ref K N).1.om 1) (L.uEnd S.time 1))) with e | e <;> rw [e]
      · obtain ⟨G, hG, e⟩ := g0.1
        exact ⟨0, by simp, G, (dom2_iff hT G).1 hG, e⟩
      · obtain ⟨G, hG, e⟩ := g1.1
        exact ⟨1, by simp, G, (dom2_iff hT G).1 hG, e⟩
    · rintro x ⟨j, hj, G, hG, rfl⟩
      simp only [List.mem_cons, List.not_mem_nil, or_false] at hj
      rcases hj with rfl | rfl
      · exact le_max_of_le_left (g0.2 ⟨G, (dom2_iff hT G).2 hG, rfl⟩)
      · exact le_max_of_le_right (g1.2 ⟨G, (dom2_iff hT G).2 hG, rfl⟩)
  unfold lambEnd
  simp only [bind, Except.bind]
  rw [show l2Error2 T (simCfg2 L.sim T L.xr L.nu L.cfl).g (simCfg2 L.sim T L.xr L.nu L.cfl).xr [()] (fun _ => S.prim) (fun _ => L.omEnd S.time) = _ from a1,
    show linfError2 T (simCfg2 L.sim T L.xr L.nu L.cfl).g (simCfg2 L.sim T L.xr L.nu L.cfl).xr [()] (fun _ => S.prim) (fun _ => L.omEnd S.time) = _ from a2]
  dsimp only
  rw [v1]
  dsimp only
  rw [show l2Error2 T (simCfg2 L.sim T L.xr L.nu L.cfl).g (simCfg2 L.sim T L.xr L.nu L.cfl).xr [0, 1] (velFromVort2 C K (o N) S).1.vel (L.uEnd S.time) = _ from b1,
    show linfError2 T (simCfg2 L.sim T L.xr L.nu L.cfl).g (simCfg2 L.sim T L.xr L.nu L.cfl).xr [0, 1] (velFromVort2 C K (o N) S).1.vel (L.uEnd S.time) = _ from b2]
  dsimp only
  rw [c1, c2, r2]
  unfold LambArgs.expected LambArgs.centre
  simp only [List.map_cons, List.map_nil, List.sum_cons, List.sum_nil, add_zero]
  rfl

/-- A driver that comes to an end does so without exception, after the first `N` iterations that take the time to `tEnd`, and logs what is expected. -/
theorem LambFit.run (h : LambFit L T K o) {r : Except PyErr (LambOut × List (PlotCall ℝ Unit))} :
    LambRun L T K title o dbl0 conv0 r ↔ ∃ N, (∀ i < N, (L.ref K i).2 < L.tEnd) ∧ L.tEnd ≤ (L.ref K N).2 ∧
      r = .ok (L.expected K N (L.idx K N), (L.idx K N).flatMap fun n => (lambShot (simCfg2 L.sim T L.xr L.nu L.cfl) title (lambState L T K o dbl0 conv0 n)).2) := by
  have hlog : ∀ N, ((L.idx K N).map fun n => lambShot (simCfg2 L.sim T L.xr L.nu L.cfl) title (lambState L T K o dbl0 conv0 n)).map Prod.fst =
      (L.idx K N).map fun n => ((L.ref K n).2, .ok (maxCell2 L.gy L.gx (L.ref K n).1.om)) := fun N => by
    rw [List.map_map]
    exact List.map_congr_left fun n _ => h.log n
  have hpl : ∀ N, ((L.idx K N).map fun n => lambShot (simCfg2 L.sim T L.xr L.nu L.cfl) title (lambState L T K o dbl0 conv0 n)).flatMap Prod.snd =
      (L.idx K N).flatMap fun n => (lambShot (simCfg2 L.sim T L.xr L.nu L.cfl) title (lambState L T K o dbl0 conv0 n)).2 := fun N => List.flatMap_map ..
  constructor
  · intro hr
    cases hr with
    | fail hw =>
      obtain ⟨-, -, w⟩ := h.loop.1 hw
      cases w
    | @done N S timer shots hw =>
      obtain ⟨w1, w2, w3⟩ := h.loop.1 hw
      obtain ⟨w4, -⟩ := Prod.mk.inj w3
      obtain ⟨rfl, w5⟩ := Prod.mk.inj w4
      obtain ⟨-, rfl⟩ := Prod.mk.inj w5
      refine ⟨N, w1, w2, ?_⟩
      rw [hlog, hpl, h.end_]
      rfl
  · rintro ⟨N, w1, w2, rfl⟩
    have := LambRun.done (h.loop (title := title) (dbl0 := dbl0) (conv0 := conv0) |>.2 ⟨w1, w2, rfl⟩)
    rw [hlog, hpl, h.end_] at this
    exact this

/-! ## The files -/

omit [NeZero T.gy] [NeZero T.gx] in
/-- what the master sees of a field -/
theorem wholeField_blocks (hT : mkCart2 gy gx py px false = .ok T) {F : C2 → ℝ} {w : World C2 C2 ℝ} (h : Blocks2 T 2 F w) (i : Fin T.gy) (j : Fin T.gx) :
    wholeField T 2 (toFlat2 T 2 w) i j = F (i, j) := by
  obtain ⟨-, -, -, -, -, hY, hX⟩ := construct2_ok hT
  have hi := i.2
  have hj := j.2
  have hny : 0 < T.ny := by rcases Nat.eq_zero_or_pos T.ny with h | h; · rw [h] at hY; omega
                            · exact h
  have hnx : 0 < T.nx := by rcases Nat.eq_zero_or_pos T.nx with h | h; · rw [h] at hX; omega
                            · exact h
  have hY' : (T.py : ℤ) * T.ny = T.gy := by exact_mod_cast hY
  have hX' : (T.px : ℤ) * T.nx = T.gx := by exact_mod_cast hX
  have hny' : (0 : ℤ) < T.ny := by exact_mod_cast hny
  have hnx' : (0 : ℤ) < T.nx := by exact_mod_cast hnx
  have ei := Int.mul_ediv_add_emod (i : ℤ) T.ny
  have ej := Int.mul_ediv_add_emod (j : ℤ) T.nx
  have bi := Int.emod_lt_of_pos (i : ℤ) hny'
  have bj := Int.emod_lt_of_pos (j : ℤ) hnx'
  have ni := Int.emod_nonneg (i : ℤ) hny'.ne'
  have nj := Int.emod_nonneg (j : ℤ) hnx'.ne'
  have hc : Valid2 T ((i : ℤ) / T.ny, (j : ℤ) / T.nx) := by
    refine ⟨Int.ediv_nonneg (by omega) hny'.le, ?_, Int.ediv_nonneg (by omega) hnx'.le, ?_⟩
    · exact Int.ediv_lt_of_lt_mul hny' (by rw [hY']; exact_mod_cast hi)
    · exact Int.ediv_lt_of_lt_mul hnx' (by rw [hX']; exact_mod_cast hj)
  have hp : Inner2 T ((2 : ℕ) : ℤ) (((2 : ℕ) : ℤ) + (i : ℤ) % T.ny, ((2 : ℕ) : ℤ) + (j : ℤ) % T.nx) := by
    refine ⟨?_, ?_, ?_, ?_⟩ <;> simp only <;> omega
  unfold wholeField toFlat2
  rw [unflat2_flat2 (inArr_of_inner2 hp), h _ _ hc hp]
  congr 1
  unfold globalIx2
  refine Prod.ext ?_ ?_ <;> simp only <;> linarith

/-- the calls of a snapshot: title, fields, file name -/
def snapCalls (s : String × (Fin 3 → World C2 ℤ ℝ) × String) : List (PlotCall ℝ Unit) := [.setTitle s.1, .contourf s.2.1, .savefig s.2.2, .clearfig]

theorem snapCalls_frames (l : List (String × (Fin 3 → World C2 ℤ ℝ) × String)) :
    frames (l.flatMap snapCalls) = (l.map fun s => [.setTitle s.1, .contourf s.2.1, .savefig s.2.2], []) := by
  induction l using List.reverseRecOn with
  | nil => rfl
  | append_singleton l s ih =>
    rw [List.flatMap_append, List.flatMap_singleton, List.map_append]
    have e : l.flatMap snapCalls ++ snapCalls s = l.flatMap snapCalls ++ [.setTitle s.1] ++ [.contourf s.2.1] ++ [.savefig s.2.2] ++ [.clearfig] := by simp [snapCalls]
    rw [e]
    rw [frames_snoc, frames_snoc, frames_snoc, frames_snoc, ih]
    simp [IsClear]

omit [NeZero T.gy] [NeZero T.gx] in
theorem quiet_snoc {g : ℕ} {l : List (PlotCall ℝ Unit)} {c : PlotCall ℝ Unit} (h : Quiet T g l) (hc : raisesAfter T g l c = none) : Quiet T g (l ++ [c]) := by
  intro i c' hi
  by_cases hlt : i < l.length
  · rw [List.getElem?_append_left hlt] at hi
    rw [List.take_append_of_le_length hlt.le]
    exact h i c' hi
  · have hi' : i = l.length := by
      have := (List.getElem?_eq_some_iff.1 hi).1
      simp at this; omega
    subst hi'
    simp only [List.getElem?_concat_length, Option.some.injEq] at hi
    rw [List.take_left', ← hi]
    · exact hc
    · rfl

omit [NeZero T.gy] [NeZero T.gx] in
theorem snapCalls_quiet (hy : 2 ≤ T.gy) (hx : 2 ≤ T.gx) {g : ℕ} (l : List (String × (Fin 3 → World C2 ℤ ℝ) × String)) : Quiet T g (l.flatMap snapCalls) := by
  induction l using List.reverseRecOn with
  | nil => intro i c hi; simp at hi
  | append_singleton l s ih =>
    rw [List.flatMap_append, List.flatMap_singleton]
    have e : l.flatMap snapCalls ++ snapCalls s = l.flatMap snapCalls ++ [.setTitle s.1] ++ [.contourf s.2.1] ++ [.savefig s.2.2] ++ [.clearfig] := by simp [snapCalls]
    rw [e]
    refine quiet_snoc (quiet_snoc (quiet_snoc (quiet_snoc ih rfl) ?_) rfl) ?_
    · simp only [raisesAfter]
      rw [if_neg (by omega)]
    · simp only [raisesAfter]
      rw [if_neg (by simp [contourOf])]

omit [NeZero T.gy] [NeZero T.gx] in
theorem snapCalls_files {g : ℕ} {m : C2} (t : String) (l : List (String × (Fin 3 → World C2 ℤ ℝ) × String)) :
    (List.range (l.flatMap snapCalls).length).filterMap (savedBy T g m t (l.flatMap snapCalls)) =
      l.map fun s => (s.2.2, ⟨s.1, [.contour ⟨wholeField T g (s.2.1 0), wholeField T g (s.2.1 1), wholeField T g (s.2.1 2)⟩],
        [⟨wholeField T g (s.2.1 0), wholeField T g (s.2.1 1), wholeField T g (s.2.1 2)⟩]⟩) := by
  induction l using List.reverseRecOn with
  | nil => rfl
  | append_singleton l s ih =>
    rw [List.flatMap_append, List.flatMap_singleton, List.map_append, ← ih]
    have e : l.flatMap snapCalls ++ snapCalls s = l.flatMap snapCalls ++ [.setTitle s.1] ++ [.contourf s.2.1] ++ [.savefig s.2.2] ++ [.clearfig] := by simp [snapCalls]
    rw [e]
    simp only [savedBy_snoc, savedBy_last, Option.toList_none, List.append_nil, Option.toList_some, List.map_cons, List.map_nil]
    congr 2
    refine Prod.ext rfl ?_
    have hf : frames (l.flatMap snapCalls ++ [.setTitle s.1] ++ [.contourf s.2.1]) = (l.map fun s => [.setTitle s.1, .contourf s.2.1, .savefig s.2.2], [.setTitle s.1, .contourf s.2.1]) := by
      rw [frames_snoc, frames_snoc, snapCalls_frames]
      simp [IsClear]
    unfold shownAfter
    rw [hf]
    have hb : (l.map fun s => ([.setTitle s.1, .contourf s.2.1, .savefig s.2.2] : List (PlotCall ℝ Unit))).flatMap (fun f => (f.filterMap (contourOf T g)).dropLast) = [] := by
      rw [List.flatMap_eq_nil_iff]
      intro f hf
      obtain ⟨s, -, rfl⟩ := List.mem_map.1 hf
      rfl
    dsimp only
    rw [hb]
    rfl

/-- the pictures show the vorticity on the global grid -/
theorem LambFit.shots (h : LambFit L T K o) (idx : List ℕ) {m : C2} (t : String) :
    let l := idx.flatMap fun n => (lambShot (simCfg2 L.sim T L.xr L.nu L.cfl) title (lambState L T K o dbl0 conv0 n)).2
    Quiet T 2 l ∧ (List.range l.length).filterMap (savedBy T 2 m t l) = L.files T K title idx := by
  intro l
  obtain ⟨hT, -⟩ := simCheck2_cart' h.fit.built
  obtain ⟨e1, e2, -, -, -, hY, hX⟩ := construct2_ok hT
  have h1 := h.fit.ny
  have h2 := h.fit.nx
  have n1 := NeZero.ne T.gy
  have n2 := NeZero.ne T.gx
  have hpy : 0 < T.py := by rcases Nat.eq_zero_or_pos T.py with q | q; · rw [q] at hY; omega
                            · exact q
  have hpx : 0 < T.px := by rcases Nat.eq_zero_or_pos T.px with q | q; · rw [q] at hX; omega
                            · exact q
  set s : ℕ → String × (Fin 3 → World C2 ℤ ℝ) × String := fun n => (title (lambState L T K o dbl0 conv0 n).time,
    ![toFlat2 T 2 (lambState L T K o dbl0 conv0 n).prim, toFlat2 T 2 fun c => position2 T 2 L.xr c 0, toFlat2 T 2 fun c => position2 T 2 L.xr c 1],
    lambFile (lambState L T K o dbl0 conv0 n).time) with hs
  have hl : l = (idx.map s).flatMap snapCalls := by rw [List.flatMap_map]; rfl
  rw [hl]
  refine ⟨snapCalls_quiet (by nlinarith) (by nlinarith) _, ?_⟩
  rw [snapCalls_files, List.map_map]
  refine List.map_congr_left fun n _ => ?_
  obtain ⟨r1, r2⟩ := h.holds (dbl0 := dbl0) (conv0 := conv0) n
  have hpos : ∀ (a : Fin 2) (f : C2 → ℝ), (∀ c p, InArr2 T ((2 : ℕ) : ℤ) p → position2 T 2 L.xr c a p = f (globalIx2 T ((2 : ℕ) : ℤ) c p)) →
      Blocks2 T 2 f (fun c => position2 T 2 L.xr c a) := fun a f hf c p _ hp => hf c p (inArr_of_inner2 hp)
  have p0 := hpos 0 (fun G => (G.2 + 1 / 2) * (L.xr / L.gx)) fun c p hp => by rw [(position2_cells T 2 L.xr c hp).1, e2]; rfl
  have p1 := hpos 1 (fun G => (G.1 + 1 / 2) * (L.xr / L.gx)) fun c p hp => by rw [(position2_cells T 2 L.xr c hp).2, e2]; rfl
  have key : (⟨wholeField T 2 ((s n).2.1 0), wholeField T 2 ((s n).2.1 1), wholeField T 2 ((s n).2.1 2)⟩ : Contour T ℝ) = picture T (L.xr / L.gx) (L.ref K n).1.om := by
    unfold picture
    congr 1
    · funext i j; exact wholeField_blocks hT (holdsX2_blocks r1.om) i j
    · funext i j
      refine (wholeField_blocks hT p0 i j).trans ?_
      simp
    · funext i j
      refine (wholeField_blocks hT p1 i j).trans ?_
      simp
  simp only [Function.comp_apply, key]
  simp only [hs, r2]
  rfl

/-! ## What a user can rely on -/

/-- C108 (2D): if the velocities on the global grid stay bounded until `tEnd`, the driver comes to an end on every decomposition, under every schedule of the messages and
whatever was in fresh arrays.  It raises nothing; it logs – the times and the largest vorticities at the snapshots, the centre, the errors of vorticity and velocity – what the
run on the global grid gives; and the master has then written the pictures of the vorticity on the whole grid. -/
theorem lambOseen_report (h : LambFit L T K o) {V : ℝ} (hV : ∀ n G, (L.ref K n).2 < L.tEnd → Dom2 L.gy L.gx G → |(L.ref K n).1.u 0 G| + |(L.ref K n).1.u 1 G| ≤ V)
    (title : ℝ → String) (dbl0 : World C2 C2 ℝ) (conv0 : Dbl2 T → ℂ) (buffered : Bool) {m : C2} {order : List C2} (hm : Valid2 T m) (ho : SlaveOrder2 T m order) :
    ∃ N idx plots, LambRun L T K title o dbl0 conv0 (.ok (L.expected K N idx, plots)) ∧
      (∀ r, LambRun L T K title o dbl0 conv0 r → r = .ok (L.expected K N idx, plots)) ∧
      Snapshots false ((L.tEnd - L.tStart) / 25) (fun n => (L.ref K n).2) N idx ∧ (∀ n < N, (L.ref K n).2 < L.tEnd) ∧ L.tEnd ≤ (L.ref K N).2 ∧
      ∃ out, Computes buffered (ranks2 T) (plotProgs T 2 m order plots) (fun _ => plotInit T (title L.tStart)) out ∧ (out m).files = L.files T K title idx ∧
        ∀ r ∈ ranks2 T, (out r).err = none ∧ (r ≠ m → (out r).files = []) := by
  obtain ⟨hT, -⟩ := simCheck2_cart' h.fit.built
  have hV' : ∀ n c p, (loopState2 (simCfg2 L.sim T L.xr L.nu L.cfl) K L.tol (L.step o) (initFrom2 T L.sim.g L.xr L.tStart dbl0 conv0 L.om0 L.u0) n).time < L.tEnd → Valid2 T c →
      Inner2 T ((2 : ℕ) : ℤ) p →
      |(loopState2 (simCfg2 L.sim T L.xr L.nu L.cfl) K L.tol (L.step o) (initFrom2 T L.sim.g L.xr L.tStart dbl0 conv0 L.om0 L.u0) n).vel 0 c p| +
      |(loopState2 (simCfg2 L.sim T L.xr L.nu L.cfl) K L.tol (L.step o) (initFrom2 T L.sim.g L.xr L.tStart dbl0 conv0 L.om0 L.u0) n).vel 1 c p| ≤ V := by
    intro n c p hn hc hp
    obtain ⟨r1, r2⟩ := h.holds (dbl0 := dbl0) (conv0 := conv0) n
    have hn' : (lambState L T K o dbl0 conv0 n).time < L.tEnd := hn
    rw [r2] at hn'
    have q := hV n _ hn' ((dom2_iff hT _).2 (inner_inDomain2 hT hc hp))
    rw [← r1.u 0 c p hc (inArr_of_inner2 hp) (Or.inl hp), ← r1.u 1 c p hc (inArr_of_inner2 hp) (Or.inl hp)] at q
    exact q
  obtain ⟨N, S, w, -⟩ := timeLoop2_ends h.fit h.xr h.nu h.cfl h.tol h.kern h.zero L.tStart dbl0 conv0 L.om0 L.u0 h.means one_pos (fun _ => rfl) L.tEnd hV'
  obtain ⟨-, w2, w3, -⟩ := w.states (it := lambState L T K o dbl0 conv0) rfl fun i => (h.next i).1
  have e : ∀ n, (lambState L T K o dbl0 conv0 n).time = (L.ref K n).2 := fun n => (h.holds n).2
  have w2' : ∀ n < N, (L.ref K n).2 < L.tEnd := fun n hn => by rw [← e]; exact w2 n (Nat.zero_le _) hn
  have w3' : L.tEnd ≤ (L.ref K N).2 := by rw [← e]; exact not_lt.1 w3
  have hpos : ∀ n, 0 < (L.ref K (n + 1)).2 - (L.ref K n).2 := fun n => sub_pos.2 (h.next (dbl0 := dbl0) (conv0 := conv0) n).2.2
  obtain ⟨idx, i1, i2, -⟩ := snapSeq_spec (strict := false) (limit := L.limit) (t := fun n => (L.ref K n).2) (v := fun n => n) hpos (fun n => by ring) N
  have i3 : L.idx K N = idx := by unfold LambArgs.idx; rw [i2, List.map_id']
  obtain ⟨q1, q2⟩ := h.shots (title := title) (dbl0 := dbl0) (conv0 := conv0) (m := m) idx (title L.tStart)
  obtain ⟨out, o1, o2, o3⟩ := plotter_files hT buffered hm ho (title L.tStart) _ q1
  refine ⟨N, idx, _, h.run.2 ⟨N, w2', w3', by rw [i3]⟩, fun r hr => ?_, i1, w2', w3', out, o1, o2.trans q2, o3⟩
  obtain ⟨N', v2, v3, rfl⟩ := h.run.1 hr
  have hN : N' = N := by
    rcases lt_trichotomy N' N with q | q | q
    · linarith [w2' N' q]
    · exact q
    · linarith [v2 N q]
  rw [hN, i3]

/-- C108 (2D): the log of the driver is the same on every decomposition and under every schedule of the messages. -/
theorem lambOseen_same {L L' : LambArgs} (hL : L' = { L with py := L'.py, px := L'.px }) {T T' : Cart2} [NeZero T.gy] [NeZero T.gx] [NeZero T'.gy] [NeZero T'.gx] {K : Kern2}
    {o o' : ℕ → Scheds2} (h : LambFit L T K o) (h' : LambFit L' T' K o') {title : ℝ → String} {dbl0 dbl0' : World C2 C2 ℝ} {conv0 : Dbl2 T → ℂ} {conv0' : Dbl2 T' → ℂ}
    {r : Except PyErr (LambOut × List (PlotCall ℝ Unit))} (hr : LambRun L T K title o dbl0 conv0 r) :
    ∃ out plots plots', r = .ok (out, plots) ∧ LambRun L' T' K title o' dbl0' conv0' (.ok (out, plots')) := by
  obtain ⟨N, w1, w2, rfl⟩ := h.run.1 hr
  have e1 : ∀ n, L'.ref K n = L.ref K n := fun n => by rw [hL]; rfl
  have e2 : L'.tEnd = L.tEnd := by rw [hL]
  have e3 : L'.idx K N = L.idx K N := by
    unfold LambArgs.idx
    simp only [e1]
    rw [hL]; rfl
  refine ⟨_, _, (L'.idx K N).flatMap fun n => (lambShot (simCfg2 L'.sim T' L'.xr L'.nu L'.cfl) title (lambState L' T' K o' dbl0' conv0' n)).2, rfl,
    h'.run.2 ⟨N, fun i hi => ?_, ?_, ?_⟩⟩
  · rw [e1, e2]; exact w1 i hi
  · rw [e1, e2]; exact w2
  · rw [e3]
    congr 2
    rw [hL]; rfl

end

/-! ## The hypotheses can be met -/

/-- a kernel of diffusion and advection, with a curl that gives no velocity: then the free stream carries the vortex -/
noncomputable def driftKern2 : Kern2 := { upKern2 with curl := fun _ _ => (0, 0) }

/-- the constants of the example on a 16 × 8 grid and 1 × 2 ranks -/
noncomputable def exLamb : LambArgs := ⟨16, 8, 1, 2, 1, 0.001, 0.1, 0.001, 0.3, 0.3, 1, 1.4, 4 * Real.pi * 0.001, fun _ => 1⟩

theorem exLamb_fit : ∃ o, LambFit exLamb ⟨16, 8, 1, 2, 16, 4, false⟩ driftKern2 o := by
  obtain ⟨sch, hs⟩ := scheds2_exist ⟨16, 8, 1, 2, 16, 4, false⟩ (simCfg2 exLamb.sim ⟨16, 8, 1, 2, 16, 4, false⟩ exLamb.xr exLamb.nu exLamb.cfl).d
  refine ⟨fun _ => sch, ⟨by decide, ⟨by decide, fun _ => ⟨by decide, 2, rfl⟩⟩, rfl, by decide, by decide, by decide, by decide⟩, ?_, ?_, ?_, ?_, ?_, ?_, fun _ => hs⟩
  · norm_num [exLamb]
  · norm_num [exLamb]
  · norm_num [exLamb]
  · norm_num [exLamb]
  · constructor <;> intro a A B h <;> simp only [driftKern2, upKern2] <;> (repeat rw [h _ _ (by simp [Cross2])])
  · intro r; simp [driftKern2, upKern2]

theorem exLamb_bounded : ∃ V, ∀ n G, (exLamb.ref driftKern2 n).2 < exLamb.tEnd → Dom2 exLamb.gy exLamb.gx G →
    |(exLamb.ref driftKern2 n).1.u 0 G| + |(exLamb.ref driftKern2 n).1.u 1 G| ≤ V := by
  refine ⟨max (maxVel2 exLamb.gy exLamb.gx (exLamb.ref driftKern2 0).1.u) 2, fun n G _ hG => ?_⟩
  cases n with
  | zero => exact le_max_of_le_left ((maxVel2_greatest (by decide) (by decide) _).2 ⟨G, hG, rfl⟩)
  | succ n =>
    refine le_max_of_le_right (le_of_eq ?_)
    unfold LambArgs.ref
    rw [List.replicate_succ', refRun2_snoc]
    simp only [refStep2, if_true, refNS2, refFree2, refVel2, driftKern2, exLamb]
    simp only [Matrix.cons_val_zero, Matrix.cons_val_one]
    have hz : ∀ (p : Prop) (i : Decidable p), @ite (ℝ × ℝ) p i (0, 0) (0, 0) = (0, 0) := fun p i => by cases i <;> rfl
    erw [hz]
    norm_num

/-- the driver of the example ends, and logs the centre (0.3, 0.3) moved by the free stream -/
example : ∃ o out plots, haveI : NeZero (Cart2.mk 16 8 1 2 16 4 false).gy := ⟨by decide⟩
    haveI : NeZero (Cart2.mk 16 8 1 2 16 4 false).gx := ⟨by decide⟩
    LambRun exLamb ⟨16, 8, 1, 2, 16, 4, false⟩ driftKern2 (fun _ => "") o (fun _ _ => 0) (fun _ => 0) (.ok (out, plots)) ∧ 1.4 ≤ out.time ∧
      out.centre = (0.3 + (out.time - 1), 0.3 + (out.time - 1)) := by
  haveI : NeZero (Cart2.mk 16 8 1 2 16 4 false).gy := ⟨by decide⟩
  haveI : NeZero (Cart2.mk 16 8 1 2 16 4 false).gx := ⟨by decide⟩
  obtain ⟨o, h⟩ := exLamb_fit
  obtain ⟨V, hV⟩ := exLamb_bounded
  obtain ⟨order, ho⟩ := slaveOrder2_exists ⟨16, 8, 1, 2, 16, 4, false⟩ (0, 0)
  obtain ⟨N, idx, plots, h1, -, -, -, h2, -⟩ := lambOseen_report h hV (fun _ => "") (fun _ _ => 0) (fun _ => 0) false (m := (0, 0)) (by unfold Valid2; decide) ho
  refine ⟨o, _, plots, h1, h2, ?_⟩
  simp [LambArgs.expected, exLamb]

end Sopht
