import Verif.Symmetry3D

/-!
# Mirror images and exchange of the axes, 3D: on the ranks

No new code is modelled; the theorems are about `simLoop3` (`Sim3D`) through `sim3_run` (`Sim3DRun`).
-/

namespace Sopht
open Finset

section Ranks
variable {T T' : Cart3} [NeZero T.gz] [NeZero T.gy] [NeZero T.gx] [NeZero T'.gz] [NeZero T'.gy] [NeZero T'.gx]

omit [NeZero T'.gz] [NeZero T'.gy] [NeZero T'.gx] in
theorem fit3_pos {a : SimArgs3} (h : Fit3 a T) : a.gz ≠ 0 ∧ a.gy ≠ 0 ∧ a.gx ≠ 0 := by
  obtain ⟨hT, -⟩ := simCheck3_cart h.built
  obtain ⟨e0, e1, e2, -⟩ := construct3_ok hT
  rw [← e0, ← e1, ← e2]
  exact ⟨NeZero.ne _, NeZero.ne _, NeZero.ne _⟩

/-- A symmetry of the run on the global grid is one of the simulation on the ranks. -/
theorem sim3_image {σ : Sym3} {a a' : SimArgs3} (hft : a'.flowType = a.flowType) (h : Fit3 a T) (h' : Fit3 a' T') {xr xr' : ℝ} (hxr : 0 < xr) (hxr' : 0 < xr')
    {nu : ℝ} (hnu : 0 ≤ nu) {cfl : ℝ} (hcfl : 0 ≤ cfl) {tol : ℝ} (htol : 0 < tol) {K : Kern3} (hK : K.Local) (hu : CentralCurl3 K.upd)
    (hp : σ.Passive K (argParams3 a xr nu) (argParams3 a' xr' nu)) (hf : isNS a.flowType = true → σ.Flow K (argParams3 a xr nu) (argParams3 a' xr' nu))
    (time : ℝ) (dbl0 dbl0' : World C3 C3 ℝ) (conv0 : Dbl3 T → ℂ) (conv0' : Dbl3 T' → ℂ) (sc sc' : ℝ → ℝ → ℝ → ℝ) (om om' u u' : Fin 3 → ℝ → ℝ → ℝ → ℝ)
    (hinit : fieldsFrom3 (xr' / a'.gx) sc' om' u' = σ.fields (fieldsFrom3 (xr / a.gx) sc om u)) {xs xs' : List StepIn3} {ys ys' : List StepSpec3} (hys : ys' = ys.map σ.step)
    (hxy : List.Forall₂ (Means3 a.gz a.gy a.gx T (simCfg3 a xr nu cfl)) xs ys)
    (hxy' : List.Forall₂ (Means3 a'.gz a'.gy a'.gx T' (simCfg3 a' xr' nu cfl)) xs' ys') :
    let out := simLoop3 (simCfg3 a xr nu cfl) K tol xs (initFrom3 T a.g xr time dbl0 conv0 sc om u)
    let out' := simLoop3 (simCfg3 a' xr' nu cfl) K tol xs' (initFrom3 T' a'.g xr' time dbl0' conv0' sc' om' u')
    out.2 = none ∧ out'.2 = none ∧ out'.1.time = out.1.time ∧
    ∀ c p c' p', Valid3 T c → Inner3 T a.g p → Valid3 T' c' → Inner3 T' a'.g p' → σ.cell (globalIx3 T' a'.g c' p') = globalIx3 T a.g c p →
      out'.1.sc c' p' = out.1.sc c p ∧ ∀ j, out'.1.om j c' p' = σ.s * σ.t j * out.1.om (σ.perm j) c p ∧ out'.1.vel j c' p' = σ.t j * out.1.vel (σ.perm j) c p := by
  have hK0 : ∀ r, K.upd r (fun _ _ => 0) = 0 := fun r => by rw [hu]; simp
  obtain ⟨r1, r2, r3⟩ := sim3_run h hxr hnu hcfl htol hK hK0 time dbl0 conv0 sc om u hxy
  obtain ⟨s1, s2, s3⟩ := sim3_run h' hxr' hnu hcfl htol hK hK0 time dbl0' conv0' sc' om' u' hxy'
  have e := sym3_run (σ := σ) hp hf cfl tol ys (fieldsFrom3 (xr / a.gx) sc om u) time
  rw [← hinit, ← hys] at e
  unfold argParams3 at e
  rw [hft, e] at s2 s3
  intro out out'
  refine ⟨r1, s1, s2.trans r2.symm, ?_⟩
  intro c p c' p' hc hp hc' hp' hG
  obtain ⟨q1, q2⟩ := r3 c p hc hp
  obtain ⟨t1, t2⟩ := s3 c' p' hc' hp'
  refine ⟨?_, fun j => ⟨?_, ?_⟩⟩
  · rw [t1, q1, ← hG]; rfl
  · rw [(t2 j).1, (q2 (σ.perm j)).1, ← hG]; rfl
  · rw [(t2 j).2, (q2 (σ.perm j)).2, ← hG]; rfl

/-- A coordinate, seen in the mirror at the middle of `[0, L]` if `b`. -/
def mirrorAt (b : Bool) (L x : ℝ) : ℝ := if b then L - x else x

/-- A function of x, y, z, seen in the mirrors. -/
def mirrorFun3 (b : Fin 3 → Bool) (xr yr zr : ℝ) (f : ℝ → ℝ → ℝ → ℝ) : ℝ → ℝ → ℝ → ℝ := fun x y z => f (mirrorAt (b 0) xr x) (mirrorAt (b 1) yr y) (mirrorAt (b 2) zr z)

/-- The iteration of the mirrored simulation: the free stream and the forcing change their components along the mirrored axes. -/
def mirrorStep3 (b : Fin 3 → Bool) (gz gy gx : ℕ) (y : StepSpec3) : StepSpec3 :=
  { rule := y.rule, fs := fun j => flipS (b j) * y.fs j, Φ := fun j G => flipS (b j) * y.Φ j (mirrorCell3 b gz gy gx G) }

/-- Sign of the advected vector field: the vorticity is a pseudovector. -/
noncomputable def mirrorSign3 (flowType : String) (b : Fin 3 → Bool) : ℝ := if isNS flowType then mirrorDet b else 1

theorem mirrorDet_cases (b : Fin 3 → Bool) : mirrorDet b = 1 ∨ mirrorDet b = -1 := by
  unfold mirrorDet
  rcases flipS_cases (b 0) with h0 | h0 <;> rcases flipS_cases (b 1) with h1 | h1 <;> rcases flipS_cases (b 2) with h2 | h2 <;> rw [h0, h1, h2] <;> norm_num

theorem mirror_centre (b : Bool) {n : ℕ} {L dx : ℝ} (h : L = n * dx) (i : ℤ) : mirrorAt b L (((i : ℝ) + 1 / 2) * dx) = ((flip1 b n i : ℝ) + 1 / 2) * dx := by
  unfold mirrorAt flip1
  cases b
  · rfl
  · simp only [if_true, h]
    push_cast
    ring

/-- C95: a simulation seen in mirrors at the middle of any of the axes (`b i`: axis `i`, 0 is x), on any other decomposition, is the simulation of the mirror image: the
same time, the same scalar in the mirrored cell, the component of the velocity along a mirrored axis with the opposite sign, the vorticity as a pseudovector.  All flow
types, with the filter and without. -/
theorem sim3_mirror (b : Fin 3 → Bool) {a a' : SimArgs3} (hsame : a' = { a with pz := a'.pz, py := a'.py, px := a'.px }) (h : Fit3 a T) (h' : Fit3 a' T')
    (hw : isNS a.flowType = true → 2 * widthOf a.width ≤ a.gz ∧ 2 * widthOf a.width ≤ a.gy ∧ 2 * widthOf a.width ≤ a.gx)
    {xr yr zr : ℝ} (hxr : 0 < xr) (hyr : yr = xr * (a.gy / a.gx)) (hzr : zr = xr * (a.gz / a.gx))
    {nu : ℝ} (hnu : 0 ≤ nu) {cfl : ℝ} (hcfl : 0 ≤ cfl) {tol : ℝ} (htol : 0 < tol)
    {K : Kern3} (hK : K.Local) (hd : SevenPoint K.diff) (ha : OneDim3 K.adv) (hu : CentralCurl3 K.upd) (hc : CentralCurl3 K.curl)
    (time : ℝ) (dbl0 dbl0' : World C3 C3 ℝ) (conv0 : Dbl3 T → ℂ) (conv0' : Dbl3 T' → ℂ) (sc : ℝ → ℝ → ℝ → ℝ) (om u : Fin 3 → ℝ → ℝ → ℝ → ℝ)
    {xs xs' : List StepIn3} {ys : List StepSpec3} (hxy : List.Forall₂ (Means3 a.gz a.gy a.gx T (simCfg3 a xr nu cfl)) xs ys)
    (hxy' : List.Forall₂ (Means3 a'.gz a'.gy a'.gx T' (simCfg3 a' xr nu cfl)) xs' (ys.map (mirrorStep3 b a.gz a.gy a.gx))) :
    let out := simLoop3 (simCfg3 a xr nu cfl) K tol xs (initFrom3 T a.g xr time dbl0 conv0 sc om u)
    let out' := simLoop3 (simCfg3 a' xr nu cfl) K tol xs' (initFrom3 T' a'.g xr time dbl0' conv0' (mirrorFun3 b xr yr zr sc)
      (fun j x y z => mirrorSign3 a.flowType b * flipS (b j) * mirrorFun3 b xr yr zr (om j) x y z) fun j x y z => flipS (b j) * mirrorFun3 b xr yr zr (u j) x y z)
    out.2 = none ∧ out'.2 = none ∧ out'.1.time = out.1.time ∧
    ∀ c p c' p', Valid3 T c → Inner3 T a.g p → Valid3 T' c' → Inner3 T' a'.g p' → globalIx3 T a.g c p = mirrorCell3 b a.gz a.gy a.gx (globalIx3 T' a'.g c' p') →
      out'.1.sc c' p' = out.1.sc c p ∧
      ∀ j, out'.1.om j c' p' = mirrorSign3 a.flowType b * flipS (b j) * out.1.om j c p ∧ out'.1.vel j c' p' = flipS (b j) * out.1.vel j c p := by
  obtain ⟨n0, n1, n2⟩ := fit3_pos h
  have m2 : (a.gx : ℝ) ≠ 0 := by exact_mod_cast n2
  have hs : mirrorSign3 a.flowType b = 1 ∨ mirrorSign3 a.flowType b = -1 := by
    unfold mirrorSign3
    split
    · exact mirrorDet_cases b
    · exact Or.inl rfl
  have hpar : argParams3 a' xr nu = argParams3 a xr nu := by rw [hsame]; rfl
  have hft : a'.flowType = a.flowType := by rw [hsame]
  have hgx : a'.gx = a.gx := by rw [hsame]
  have hinit : fieldsFrom3 (xr / a'.gx) (mirrorFun3 b xr yr zr sc) (fun j x y z => mirrorSign3 a.flowType b * flipS (b j) * mirrorFun3 b xr yr zr (om j) x y z)
      (fun j x y z => flipS (b j) * mirrorFun3 b xr yr zr (u j) x y z) =
      (mir3 b a.gz a.gy a.gx (mirrorSign3 a.flowType b)).fields (fieldsFrom3 (xr / a.gx) sc om u) := by
    rw [hgx]
    have e0 := fun i => mirror_centre (b 0) (n := a.gx) (L := xr) (dx := xr / a.gx) (by field_simp) i
    have e1 := fun i => mirror_centre (b 1) (n := a.gy) (L := yr) (dx := xr / a.gx) (by rw [hyr]; field_simp) i
    have e2 := fun i => mirror_centre (b 2) (n := a.gz) (L := zr) (dx := xr / a.gx) (by rw [hzr]; field_simp) i
    unfold Sym3.fields Sym3.axial Sym3.vec mir3 fieldsFrom3
    simp only
    congr 1
    · funext G
      simp only [atCentre3, mirrorFun3, mirrorCell3, e0, e1, e2]
    · funext j G
      simp only [atCentre3, mirrorFun3, mirrorCell3, e0, e1, e2, id]
    · funext j G
      simp only [atCentre3, mirrorFun3, mirrorCell3, e0, e1, e2, id]
  intro out out'
  obtain ⟨r1, r2, r3, r4⟩ := sim3_image (σ := mir3 b a.gz a.gy a.gx (mirrorSign3 a.flowType b)) hft h h' hxr hxr hnu hcfl htol hK hu
    (by rw [hpar]; exact mir3_passive (P := argParams3 a xr nu) hd ha hs b)
    (fun hf => by
      rw [hpar, show mirrorSign3 a.flowType b = mirrorDet b from if_pos hf]
      exact mir3_flow (P := argParams3 a xr nu) hu hc b (hw hf)) time dbl0 dbl0' conv0 conv0' sc _ om _ u _ hinit (ys := ys) rfl hxy hxy'
  exact ⟨r1, r2, r3, fun c p c' p' hc hp hc' hp' hG => r4 c p c' p' hc hp hc' hp' hG.symm⟩

/-- The iterations with two axes exchanged. -/
def swapXYStep3 (y : StepSpec3) : StepSpec3 :=
  { rule := y.rule
    fs := ![y.fs 1, y.fs 0, y.fs 2]
    Φ := ![fun G => y.Φ 1 (G.1, G.2.2, G.2.1), fun G => y.Φ 0 (G.1, G.2.2, G.2.1), fun G => y.Φ 2 (G.1, G.2.2, G.2.1)] }

def swapYZStep3 (y : StepSpec3) : StepSpec3 :=
  { rule := y.rule
    fs := ![y.fs 0, y.fs 2, y.fs 1]
    Φ := ![fun G => y.Φ 0 (G.2.1, G.1, G.2.2), fun G => y.Φ 2 (G.2.1, G.1, G.2.2), fun G => y.Φ 1 (G.2.1, G.1, G.2.2)] }

theorem swapXY3_step (s : ℝ) : (swapXY3 s).step = swapXYStep3 := by
  funext y
  unfold Sym3.step swapXYStep3 Sym3.vec swapXY3
  congr 1
  · funext j; fin_cases j <;> simp
  · funext j G; fin_cases j <;> simp

theorem swapYZ3_step (s : ℝ) : (swapYZ3 s).step = swapYZStep3 := by
  funext y
  unfold Sym3.step swapYZStep3 Sym3.vec swapYZ3
  congr 1
  · funext j; fin_cases j <;> simp
  · funext j G; fin_cases j <;> simp

/-- Sign of the advected vector field when two axes are exchanged. -/
noncomputable def swapSign3 (flowType : String) : ℝ := if isNS flowType then -1 else 1

theorem swapSign3_cases (ft : String) : swapSign3 ft = 1 ∨ swapSign3 ft = -1 := by
  unfold swapSign3
  split
  · exact Or.inr rfl
  · exact Or.inl rfl

/-- C95: a simulation with x and y exchanged (grid, fields, free stream, forcing; `x_range` such that the cells have the same size), on any decomposition, is the simulation
with x and y exchanged – for a flow: if no filter is used. -/
theorem sim3_swap_xy {a a' : SimArgs3} (hsame : a' = { a with gy := a.gx, gx := a.gy, pz := a'.pz, py := a'.py, px := a'.px }) (h : Fit3 a T) (h' : Fit3 a' T')
    (hflt : isNS a.flowType = true → filterInUse a = none)
    {xr xr' : ℝ} (hxr : 0 < xr) (hxr' : xr' = xr * (a.gy / a.gx)) {nu : ℝ} (hnu : 0 ≤ nu) {cfl : ℝ} (hcfl : 0 ≤ cfl) {tol : ℝ} (htol : 0 < tol)
    {K : Kern3} (hK : K.Local) (hd : SevenPoint K.diff) (ha : OneDim3 K.adv) (hu : CentralCurl3 K.upd) (hc : CentralCurl3 K.curl)
    (time : ℝ) (dbl0 dbl0' : World C3 C3 ℝ) (conv0 : Dbl3 T → ℂ) (conv0' : Dbl3 T' → ℂ) (sc : ℝ → ℝ → ℝ → ℝ) (om u : Fin 3 → ℝ → ℝ → ℝ → ℝ)
    {xs xs' : List StepIn3} {ys : List StepSpec3} (hxy : List.Forall₂ (Means3 a.gz a.gy a.gx T (simCfg3 a xr nu cfl)) xs ys)
    (hxy' : List.Forall₂ (Means3 a'.gz a'.gy a'.gx T' (simCfg3 a' xr' nu cfl)) xs' (ys.map swapXYStep3)) :
    let s := swapSign3 a.flowType
    let out := simLoop3 (simCfg3 a xr nu cfl) K tol xs (initFrom3 T a.g xr time dbl0 conv0 sc om u)
    let out' := simLoop3 (simCfg3 a' xr' nu cfl) K tol xs' (initFrom3 T' a'.g xr' time dbl0' conv0' (fun x y z => sc y x z)
      ![fun x y z => s * om 1 y x z, fun x y z => s * om 0 y x z, fun x y z => s * om 2 y x z] ![fun x y z => u 1 y x z, fun x y z => u 0 y x z, fun x y z => u 2 y x z])
    out.2 = none ∧ out'.2 = none ∧ out'.1.time = out.1.time ∧
    ∀ c p c' p', Valid3 T c → Inner3 T a.g p → Valid3 T' c' → Inner3 T' a'.g p' →
      (globalIx3 T' a'.g c' p').1 = (globalIx3 T a.g c p).1 → (globalIx3 T' a'.g c' p').2.1 = (globalIx3 T a.g c p).2.2 →
      (globalIx3 T' a'.g c' p').2.2 = (globalIx3 T a.g c p).2.1 →
      out'.1.sc c' p' = out.1.sc c p ∧
      (out'.1.om 0 c' p' = s * out.1.om 1 c p ∧ out'.1.om 1 c' p' = s * out.1.om 0 c p ∧ out'.1.om 2 c' p' = s * out.1.om 2 c p) ∧
      out'.1.vel 0 c' p' = out.1.vel 1 c p ∧ out'.1.vel 1 c' p' = out.1.vel 0 c p ∧ out'.1.vel 2 c' p' = out.1.vel 2 c p := by
  obtain ⟨n0, n1, n2⟩ := fit3_pos h
  have m1 : (0 : ℝ) < a.gy := by exact_mod_cast Nat.pos_of_ne_zero n1
  have m2 : (0 : ℝ) < a.gx := by exact_mod_cast Nat.pos_of_ne_zero n2
  have hpar : argParams3 a' xr' nu = (argParams3 a xr nu).swapXY := by rw [hsame, hxr']; rfl
  have hft : a'.flowType = a.flowType := by rw [hsame]
  have hgx : a'.gx = a.gy := by rw [hsame]
  have hxr1 : 0 < xr' := by rw [hxr']; positivity
  intro s out out'
  have hinit : fieldsFrom3 (xr' / a'.gx) (fun x y z => sc y x z) ![fun x y z => s * om 1 y x z, fun x y z => s * om 0 y x z, fun x y z => s * om 2 y x z]
      ![fun x y z => u 1 y x z, fun x y z => u 0 y x z, fun x y z => u 2 y x z] = (swapXY3 s).fields (fieldsFrom3 (xr / a.gx) sc om u) := by
    have hx : xr' / a.gy = xr / a.gx := by
      rw [hxr']
      field_simp
    rw [hgx, hx]
    unfold Sym3.fields Sym3.axial Sym3.vec swapXY3 fieldsFrom3
    simp only
    congr 1
    · funext j G
      fin_cases j <;> simp [atCentre3]
    · funext j G
      fin_cases j <;> simp [atCentre3]
  obtain ⟨r1, r2, r3, r4⟩ := sim3_image (σ := swapXY3 s) hft h h' hxr hxr1 hnu hcfl htol hK hu
    (by rw [hpar]; exact swapXY3_passive (P := argParams3 a xr nu) hd ha (swapSign3_cases _) n1)
    (fun hf => by
      rw [hpar, show s = -1 from if_pos hf]
      exact swapXY3_flow (P := argParams3 a xr nu) hu hc n1 (by unfold argParams3; simp only; rw [hflt hf]; rfl))
    time dbl0 dbl0' conv0 conv0' sc _ om _ u _ hinit (ys := ys) (by rw [swapXY3_step]) hxy hxy'
  refine ⟨r1, r2, r3, fun c p c' p' hc hp hc' hp' g0 g1 g2 => ?_⟩
  obtain ⟨q1, q2⟩ := r4 c p c' p' hc hp hc' hp' (Prod.ext g0 (Prod.ext g2 g1))
  have q20 := q2 0
  have q21 := q2 1
  have q22 := q2 2
  simp only [swapXY3, Matrix.cons_val_zero, Matrix.cons_val_one, Matrix.cons_val, mul_one, one_mul] at q20 q21 q22
  exact ⟨q1, ⟨q20.1, q21.1, q22.1⟩, q20.2, q21.2, q22.2⟩

/-- C95: the same for y and z. -/
theorem sim3_swap_yz {a a' : SimArgs3} (hsame : a' = { a with gz := a.gy, gy := a.gz, pz := a'.pz, py := a'.py, px := a'.px }) (h : Fit3 a T) (h' : Fit3 a' T')
    (hflt : isNS a.flowType = true → filterInUse a = none)
    {xr : ℝ} (hxr : 0 < xr) {nu : ℝ} (hnu : 0 ≤ nu) {cfl : ℝ} (hcfl : 0 ≤ cfl) {tol : ℝ} (htol : 0 < tol)
    {K : Kern3} (hK : K.Local) (hd : SevenPoint K.diff) (ha : OneDim3 K.adv) (hu : CentralCurl3 K.upd) (hc : CentralCurl3 K.curl)
    (time : ℝ) (dbl0 dbl0' : World C3 C3 ℝ) (conv0 : Dbl3 T → ℂ) (conv0' : Dbl3 T' → ℂ) (sc : ℝ → ℝ → ℝ → ℝ) (om u : Fin 3 → ℝ → ℝ → ℝ → ℝ)
    {xs xs' : List StepIn3} {ys : List StepSpec3} (hxy : List.Forall₂ (Means3 a.gz a.gy a.gx T (simCfg3 a xr nu cfl)) xs ys)
    (hxy' : List.Forall₂ (Means3 a'.gz a'.gy a'.gx T' (simCfg3 a' xr nu cfl)) xs' (ys.map swapYZStep3)) :
    let s := swapSign3 a.flowType
    let out := simLoop3 (simCfg3 a xr nu cfl) K tol xs (initFrom3 T a.g xr time dbl0 conv0 sc om u)
    let out' := simLoop3 (simCfg3 a' xr nu cfl) K tol xs' (initFrom3 T' a'.g xr time dbl0' conv0' (fun x y z => sc x z y)
      ![fun x y z => s * om 0 x z y, fun x y z => s * om 2 x z y, fun x y z => s * om 1 x z y] ![fun x y z => u 0 x z y, fun x y z => u 2 x z y, fun x y z => u 1 x z y])
    out.2 = none ∧ out'.2 = none ∧ out'.1.time = out.1.time ∧
    ∀ c p c' p', Valid3 T c → Inner3 T a.g p → Valid3 T' c' → Inner3 T' a'.g p' →
      (globalIx3 T' a'.g c' p').1 = (globalIx3 T a.g c p).2.1 → (globalIx3 T' a'.g c' p').2.1 = (globalIx3 T a.g c p).1 →
      (globalIx3 T' a'.g c' p').2.2 = (globalIx3 T a.g c p).2.2 →
      out'.1.sc c' p' = out.1.sc c p ∧
      (out'.1.om 0 c' p' = s * out.1.om 0 c p ∧ out'.1.om 1 c' p' = s * out.1.om 2 c p ∧ out'.1.om 2 c' p' = s * out.1.om 1 c p) ∧
      out'.1.vel 0 c' p' = out.1.vel 0 c p ∧ out'.1.vel 1 c' p' = out.1.vel 2 c p ∧ out'.1.vel 2 c' p' = out.1.vel 1 c p := by
  have hpar : argParams3 a' xr nu = (argParams3 a xr nu).swapYZ := by rw [hsame]; rfl
  have hft : a'.flowType = a.flowType := by rw [hsame]
  have hgx : a'.gx = a.gx := by rw [hsame]
  intro s out out'
  have hinit : fieldsFrom3 (xr / a'.gx) (fun x y z => sc x z y) ![fun x y z => s * om 0 x z y, fun x y z => s * om 2 x z y, fun x y z => s * om 1 x z y]
      ![fun x y z => u 0 x z y, fun x y z => u 2 x z y, fun x y z => u 1 x z y] = (swapYZ3 s).fields (fieldsFrom3 (xr / a.gx) sc om u) := by
    rw [hgx]
    unfold Sym3.fields Sym3.axial Sym3.vec swapYZ3 fieldsFrom3
    simp only
    congr 1
    · funext j G
      fin_cases j <;> simp [atCentre3]
    · funext j G
      fin_cases j <;> simp [atCentre3]
  obtain ⟨r1, r2, r3, r4⟩ := sim3_image (σ := swapYZ3 s) hft h h' hxr hxr hnu hcfl htol hK hu
    (by rw [hpar]; exact swapYZ3_passive (P := argParams3 a xr nu) hd ha (swapSign3_cases _))
    (fun hf => by
      rw [hpar, show s = -1 from if_pos hf]
      exact swapYZ3_flow (P := argParams3 a xr nu) hu hc (by unfold argParams3; simp only; rw [hflt hf]; rfl))
    time dbl0 dbl0' conv0 conv0' sc _ om _ u _ hinit (ys := ys) (by rw [swapYZ3_step]) hxy hxy'
  refine ⟨r1, r2, r3, fun c p c' p' hc hp hc' hp' g0 g1 g2 => ?_⟩
  obtain ⟨q1, q2⟩ := r4 c p c' p' hc hp hc' hp' (Prod.ext g1 (Prod.ext g0 g2))
  have q20 := q2 0
  have q21 := q2 1
  have q22 := q2 2
  simp only [swapYZ3, Matrix.cons_val_zero, Matrix.cons_val_one, Matrix.cons_val, mul_one, one_mul] at q20 q21 q22
  exact ⟨q1, ⟨q20.1, q21.1, q22.1⟩, q20.2, q21.2, q22.2⟩

end Ranks

/-! ## The filter prefers axes -/

/-- C95 needs the exclusion of the filter: filtering (order 1, `multiplicative`, on a grid of 4 × 4 × 4 cells) a field and its image with x and y exchanged gives different values. -/
theorem filter_prefers_axes : ∃ f : C3 → ℝ, serialMultiplicative 4 4 4 1 false 1 (fun G => f (G.1, G.2.2, G.2.1)) (1, 1, 1) ≠
    serialMultiplicative 4 4 4 1 false 1 f (1, 1, 1) := by
  refine ⟨fun G => if G = (1, 1, 0) then 1 else 0, ?_⟩
  unfold serialMultiplicative serialLap
  simp [Away3, contIx3, axisStep]

/-! ## Examples -/

/-- the kernels of `Conserve3D` (third order upwind advection) use one scheme along the three axes -/
example : OneDim3 exKern3.adv := by
  refine ⟨fun w v => upwind3 ((v 0 + v 1) / 2) (w (-1)) (w 0) (w 1) (w 2) - upwind3 ((v (-1) + v 0) / 2) (w (-2)) (w (-1)) (w 0) (w 1), fun _ _ => ?_, ?_, ?_⟩
  · have e0 : (0 : C3) = (0, 0, 0) := rfl
    have e1 : axisStep 0 = (0, 0, 1) := rfl
    have e2 : axisStep 1 = (0, 1, 0) := rfl
    have e3 : axisStep 2 = (1, 0, 0) := rfl
    simp only [exKern3, Fin.sum_univ_three, e1, e2, e3, e0, Prod.neg_mk, neg_zero, Prod.smul_mk, smul_eq_mul, mul_zero, mul_one, zsmul_eq_mul, nsmul_eq_mul, Nat.cast_ofNat]
    rfl
  · intro w v
    have hu : ∀ v a b c d : ℝ, upwind3 (-v) d c b a = -upwind3 v a b c d := by
      intro v a b c d
      unfold upwind3
      rcases lt_trichotomy v 0 with h | h | h
      · rw [if_pos (by linarith), if_neg (by linarith)]; ring
      · subst h; simp
      · rw [if_neg (by linarith), if_pos (by linarith)]; ring
    have e1 := hu ((v (-1) + v 0) / 2) (w (-2)) (w (-1)) (w 0) (w 1)
    have e2 := hu ((v 0 + v 1) / 2) (w (-1)) (w 0) (w 1) (w 2)
    simp only [neg_neg, neg_zero]
    rw [show (-v 0 + -v (-1)) / 2 = -((v (-1) + v 0) / 2) by ring, show (-v 1 + -v 0) / 2 = -((v 0 + v 1) / 2) by ring, e1, e2]
    ring
  · intro w v
    have hu : ∀ v a b c d : ℝ, upwind3 v (-a) (-b) (-c) (-d) = -upwind3 v a b c d := by
      intro v a b c d
      unfold upwind3
      split <;> ring
    simp only [hu]
    ring

/-- a flow without filter on a grid of 8 × 8 × 4 cells on 2 × 2 × 1 ranks and its image with x and y exchanged on 2 × 1 × 1 -/
example : Fit3 ⟨8, 8, 4, 2, 2, 1, "navier_stokes_with_forcing", false, none, true, 1, .int 2⟩ ⟨8, 8, 4, 2, 2, 1, 4, 4, 4, false⟩ ∧
    Fit3 ⟨8, 4, 8, 2, 1, 1, "navier_stokes_with_forcing", false, none, true, 1, .int 2⟩ ⟨8, 4, 8, 2, 1, 1, 4, 4, 8, false⟩ ∧
    filterInUse ⟨8, 8, 4, 2, 2, 1, "navier_stokes_with_forcing", false, none, true, 1, .int 2⟩ = none := by
  refine ⟨⟨by decide, (by intro h; cases h), fun _ => ⟨by decide, by decide, ⟨2, rfl, by decide, by decide, by decide, by decide⟩, by unfold EvenTopo3; decide, ?_⟩⟩,
    ⟨by decide, (by intro h; cases h), fun _ => ⟨by decide, by decide, ⟨2, rfl, by decide, by decide, by decide, by decide⟩, by unfold EvenTopo3; decide, ?_⟩⟩, rfl⟩
  all_goals
    intro o ty hf
    simp [filterInUse] at hf

/-- a vortex along z, seen in a mirror across x, turns the other way; seen in mirrors across x and y it turns the same way -/
example : mirrorSign3 "navier_stokes" ![true, false, false] * flipS ((![true, false, false] : Fin 3 → Bool) 2) = -1 ∧
    mirrorSign3 "navier_stokes" ![true, true, false] * flipS ((![true, true, false] : Fin 3 → Bool) 2) = 1 := by
  have h : isNS "navier_stokes" = true := by decide
  simp [mirrorSign3, h, mirrorDet, flipS]

end Sopht
