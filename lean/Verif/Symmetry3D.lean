import Verif.Conserve3DProps
import Verif.Symmetry2D

/-!
# Mirror images and exchange of the axes, 3D: symmetries of the run on the global grid

No new code is modelled; see `Symmetry2D`.  The Laplacian filter is symmetric under mirrors, but its three directions do not commute next to the boundary
(`filter_prefers_axes` in `Symmetry3DProps`): exchanging axes is a symmetry of simulations without filter.
-/

namespace Sopht
open Finset

/-- Advection by one and the same one-dimensional scheme along the three axes, which does not prefer a direction and changes the sign of its result with that of the advected
field. -/
def OneDim3 (k : ℝ → (Option (Fin 3) → C3 → ℝ) → ℝ) : Prop :=
  ∃ φ : (ℤ → ℝ) → (ℤ → ℝ) → ℝ,
    (∀ a f, k a f = a * (φ (fun n => f none (0, 0, n)) (fun n => f (some 0) (0, 0, n)) + φ (fun n => f none (0, n, 0)) (fun n => f (some 1) (0, n, 0)) +
      φ (fun n => f none (n, 0, 0)) fun n => f (some 2) (n, 0, 0))) ∧
    (∀ w v, φ (fun n => w (-n)) (fun n => -v (-n)) = φ w v) ∧ ∀ w v, φ (fun n => -w n) v = -φ w v

/-- A map of cells and what it does to fields: component `j` of a vector is `t j` times component `perm j` of the original, the vorticity gets the additional sign `s`. -/
structure Sym3 where
  cell : C3 → C3
  lin : C3 → C3
  s : ℝ
  perm : Fin 3 → Fin 3
  t : Fin 3 → ℝ

/-- The image of a vector, a pseudovector, fields, an iteration. -/
def Sym3.vec (σ : Sym3) (u : Fin 3 → C3 → ℝ) : Fin 3 → C3 → ℝ := fun j G => σ.t j * u (σ.perm j) (σ.cell G)
def Sym3.axial (σ : Sym3) (u : Fin 3 → C3 → ℝ) : Fin 3 → C3 → ℝ := fun j G => σ.s * σ.t j * u (σ.perm j) (σ.cell G)
def Sym3.fields (σ : Sym3) (F : Fields3) : Fields3 := { sc := fun G => F.sc (σ.cell G), om := σ.axial F.om, u := σ.vec F.u }
def Sym3.step (σ : Sym3) (y : StepSpec3) : StepSpec3 := { rule := y.rule, fs := fun j => σ.t j * y.fs (σ.perm j), Φ := σ.vec y.Φ }

/-- What makes it a symmetry of the passive steps from parameters `P` to `P'`. -/
structure Sym3.Passive (σ : Sym3) (K : Kern3) (P P' : Params3) : Prop where
  s : σ.s = 1 ∨ σ.s = -1
  t : ∀ j, σ.t j = 1 ∨ σ.t j = -1
  add : ∀ G d : C3, σ.cell (G.1 + d.1, G.2.1 + d.2.1, G.2.2 + d.2.2) = ((σ.cell G).1 + (σ.lin d).1, (σ.cell G).2.1 + (σ.lin d).2.1, (σ.cell G).2.2 + (σ.lin d).2.2)
  onto : ∀ G, ∃ G', σ.cell G' = G
  dom : ∀ G, Dom3 P'.gz P'.gy P'.gx G ↔ Dom3 P.gz P.gy P.gx (σ.cell G)
  edge : ∀ G, OnEdge3 P'.gz P'.gy P'.gx G ↔ OnEdge3 P.gz P.gy P.gx (σ.cell G)
  dx : P'.dx = P.dx
  nu : P'.nu = P.nu
  fs : P'.freeStream = P.freeStream
  abs : ∀ v : Fin 3 → ℝ, |σ.t 0 * v (σ.perm 0)| + |σ.t 1 * v (σ.perm 1)| + |σ.t 2 * v (σ.perm 2)| = |v 0| + |v 1| + |v 2|
  adv : ∀ a e f f', e = 1 ∨ e = -1 → (∀ d, f' none d = e * f none (σ.lin d)) → (∀ j d, f' (some j) d = σ.t j * f (some (σ.perm j)) (σ.lin d)) →
    K.adv a f' = e * K.adv a f
  diff : ∀ a e f f', (∀ d, f' () d = e * f () (σ.lin d)) → K.diff a f' = e * K.diff a f

/-- … and of the Navier-Stokes step. -/
structure Sym3.Flow (σ : Sym3) (K : Kern3) (P P' : Params3) : Prop where
  upd : ∀ a f f', (∀ j d, f' j d = σ.t j * f (σ.perm j) (σ.lin d)) → ∀ j, comp3 (K.upd a f') j = σ.s * σ.t j * comp3 (K.upd a f) (σ.perm j)
  curl : ∀ a f f', (∀ j d, f' j d = σ.s * σ.t j * f (σ.perm j) (σ.lin d)) → ∀ j, comp3 (K.curl a f') j = σ.t j * comp3 (K.curl a f) (σ.perm j)
  cross : ∀ u om, crossF (σ.vec u) (σ.axial om) = σ.vec (crossF u om)
  solve : ∀ f G, freeSolution3 P'.gz P'.gy P'.gx P'.dx (fun G => f (σ.cell G)) G = freeSolution3 P.gz P.gy P.gx P.dx f (σ.cell G)
  pen : ∀ f G, serialPen3 false P'.gz P'.gy P'.gx P'.w (fun G => f (σ.cell G)) G = serialPen3 false P.gz P.gy P.gx P.w f (σ.cell G)
  flt : ∀ f G, refFilter3 P' (fun G => f (σ.cell G)) G = refFilter3 P f (σ.cell G)

/-! ## Scaling -/

theorem serialPen3_scale (gz gy gx w : ℕ) (s : ℝ) (F : C3 → ℝ) (G : C3) : serialPen3 false gz gy gx w (fun G => s * F G) G = s * serialPen3 false gz gy gx w F G := by
  unfold serialPen3
  simp only [serialPen1_scale]

theorem freeSolution3_scale (gz gy gx : ℕ) (dx s : ℝ) (F : C3 → ℝ) (G : C3) : freeSolution3 gz gy gx dx (fun G => s * F G) G = s * freeSolution3 gz gy gx dx F G := by
  unfold freeSolution3
  simp only [Finset.mul_sum]
  refine Finset.sum_congr rfl fun k _ => Finset.sum_congr rfl fun i _ => Finset.sum_congr rfl fun j _ => ?_
  ring

theorem serialLap_scale (gz gy gx bw : ℕ) (a : Fin 3) (s : ℝ) (F : C3 → ℝ) : serialLap gz gy gx bw false a (fun G => s * F G) = fun G => s * serialLap gz gy gx bw false a F G := by
  funext G
  unfold serialLap
  split
  · rw [mul_zero]
  · ring

/-- A map that commutes with the filters of the three directions commutes with the filter. -/
theorem refFilter3_commute {P P' : Params3} (hf : P'.flt = P.flt) (ψ : (C3 → ℝ) → C3 → ℝ) (hsub : ∀ f g : C3 → ℝ, ψ (f - g) = ψ f - ψ g)
    (h : ∀ a f, serialLap P'.gz P'.gy P'.gx 1 false a (ψ f) = ψ (serialLap P.gz P.gy P.gx 1 false a f)) (f : C3 → ℝ) : refFilter3 P' (ψ f) = ψ (refFilter3 P f) := by
  have hit : ∀ (L L' : (C3 → ℝ) → C3 → ℝ), (∀ f, L' (ψ f) = ψ (L f)) → ∀ (p : ℕ) f, L'^[p] (ψ f) = ψ (L^[p] f) := by
    intro L L' hL p
    induction p with
    | zero => intro f; rfl
    | succ p ih => intro f; rw [Function.iterate_succ_apply, Function.iterate_succ_apply, hL, ih]
  have hconv : ∀ p a f, serialConvDir P'.gz P'.gy P'.gx 1 false p a (ψ f) = ψ (serialConvDir P.gz P.gy P.gx 1 false p a f) := by
    intro p a f
    have : serialConvDir P'.gz P'.gy P'.gx 1 false p a (ψ f) = ψ f - (serialLap P'.gz P'.gy P'.gx 1 false a)^[p] (ψ f) := rfl
    rw [this, hit _ _ (h a), ← hsub]
    rfl
  unfold refFilter3
  rw [hf]
  split
  · rfl
  · rename_i p ty _
    split
    · have : serialMultiplicative P'.gz P'.gy P'.gx 1 false p (ψ f) = ψ f - (fun F => serialLap P'.gz P'.gy P'.gx 1 false 2
          (serialLap P'.gz P'.gy P'.gx 1 false 1 (serialLap P'.gz P'.gy P'.gx 1 false 0 F)))^[p] (ψ f) := rfl
      rw [this, hit (fun F => serialLap P.gz P.gy P.gx 1 false 2 (serialLap P.gz P.gy P.gx 1 false 1 (serialLap P.gz P.gy P.gx 1 false 0 F))) _
        (fun f => by rw [h, h, h]), ← hsub]
      rfl
    · unfold serialConvolution
      rw [hconv, hconv, hconv]

theorem refFilter3_scale (P : Params3) (s : ℝ) (f : C3 → ℝ) : refFilter3 P (fun G => s * f G) = fun G => s * refFilter3 P f G :=
  refFilter3_commute rfl (fun f G => s * f G) (fun f g => by funext G; simp only [Pi.sub_apply]; ring) (fun a f => serialLap_scale _ _ _ _ a s f) f

section
variable {σ : Sym3} {K : Kern3} {P P' : Params3}

theorem Sym3.Passive.maxVel (h : σ.Passive K P P') (u : Fin 3 → C3 → ℝ) : maxVel3 P'.gz P'.gy P'.gx (σ.vec u) = maxVel3 P.gz P.gy P.gx u := by
  unfold maxVel3
  congr 1
  ext x
  constructor
  · rintro ⟨G, hG, rfl⟩
    exact ⟨σ.cell G, (h.dom G).1 hG, h.abs fun j => u j (σ.cell G)⟩
  · rintro ⟨G, hG, rfl⟩
    obtain ⟨G', rfl⟩ := h.onto G
    exact ⟨G', (h.dom G').2 hG, (h.abs fun j => u j (σ.cell G')).symm⟩

theorem Sym3.Passive.dt (h : σ.Passive K P P') (cfl tol : ℝ) (F : Fields3) (r : DtRule) : refDt3 P' cfl tol (σ.fields F) r = refDt3 P cfl tol F r := by
  cases r with
  | fixed dt => rfl
  | stable pre =>
    unfold refDt3
    have := h.maxVel F.u
    simp only [Sym3.fields, this, h.dx, h.nu]

theorem Sym3.Passive.adv' (h : σ.Passive K P P') {e : ℝ} (he : e = 1 ∨ e = -1) (dt : ℝ) (u : Fin 3 → C3 → ℝ) (f : C3 → ℝ) :
    refAdv3 P' K dt (σ.vec u) (fun G => e * f (σ.cell G)) = fun G => e * refAdv3 P K dt u f (σ.cell G) := by
  funext G
  unfold refAdv3
  simp only [h.dom G, h.dx]
  split
  · rw [mul_add]
    congr 1
    apply h.adv _ _ _ _ he
    · intro d
      simp only [h.add G d]
    · intro j d
      simp only [Sym3.vec, h.add G d]
  · rfl

theorem Sym3.Passive.diff' (h : σ.Passive K P P') (e dt : ℝ) (f : C3 → ℝ) :
    refDiff3 P' K dt (fun G => e * f (σ.cell G)) = fun G => e * refDiff3 P K dt f (σ.cell G) := by
  funext G
  unfold refDiff3
  simp only [h.dom G, h.edge G, h.dx, h.nu]
  split
  · rw [mul_add]
    congr 1
    apply h.diff
    intro d
    simp only [h.add G d]
  · rfl

theorem Sym3.Passive.scalar (h : σ.Passive K P P') (dt : ℝ) (F : Fields3) : refScalar3 P' K dt (σ.fields F) = σ.fields (refScalar3 P K dt F) := by
  unfold refScalar3 Sym3.fields
  have e1 := h.adv' (Or.inl rfl) dt F.u F.sc
  have e2 := h.diff' 1 dt (refAdv3 P K dt F.u F.sc)
  simp only [one_mul] at e1 e2
  simp only [e1, e2]

theorem Sym3.Passive.sign (h : σ.Passive K P P') (j : Fin 3) : σ.s * σ.t j = 1 ∨ σ.s * σ.t j = -1 := by
  rcases h.s with h1 | h1 <;> rcases h.t j with h2 | h2 <;> rw [h1, h2] <;> norm_num

theorem Sym3.Passive.vector (h : σ.Passive K P P') (dt : ℝ) (F : Fields3) : refVector3 P' K dt (σ.fields F) = σ.fields (refVector3 P K dt F) := by
  unfold refVector3 Sym3.fields
  simp only
  congr 1
  funext j
  unfold Sym3.axial
  rw [h.adv' (h.sign j) dt F.u (F.om (σ.perm j)), h.diff']

theorem Sym3.Flow.updf (h : σ.Passive K P P') (hf : σ.Flow K P P') (dt : ℝ) (f om : Fin 3 → C3 → ℝ) :
    refUpd3 P' K dt (σ.vec f) (σ.axial om) = σ.axial (refUpd3 P K dt f om) := by
  funext j G
  unfold refUpd3
  unfold Sym3.axial
  simp only [h.dom G, h.dx]
  split
  · rw [mul_add]
    congr 1
    apply hf.upd
    intro i d
    simp only [Sym3.vec, h.add G d]
  · rfl

theorem Sym3.Flow.vort (h : σ.Passive K P P') (hf : σ.Flow K P P') (dt : ℝ) (F : Fields3) : refVort3 P' K dt (σ.fields F) = σ.axial (refVort3 P K dt F) := by
  funext j G
  unfold refVort3
  simp only [Sym3.fields]
  rw [hf.cross, Sym3.Flow.updf h hf]
  unfold Sym3.axial
  rw [h.diff', refFilter3_scale]
  have e : refFilter3 P' (fun G => refDiff3 P K dt (refUpd3 P K dt (crossF F.u F.om) F.om (σ.perm j)) (σ.cell G)) =
      fun G => refFilter3 P (refDiff3 P K dt (refUpd3 P K dt (crossF F.u F.om) F.om (σ.perm j))) (σ.cell G) := by
    funext G
    exact hf.flt _ G
  rw [e, serialPen3_scale, hf.pen]

theorem Sym3.Flow.vel (h : σ.Passive K P P') (hf : σ.Flow K P P') (om : Fin 3 → C3 → ℝ) : refVel3 P' K (σ.axial om) = σ.vec (refVel3 P K om) := by
  funext j G
  unfold Sym3.vec refVel3
  simp only [h.dom G, h.edge G, h.dx]
  split
  · apply hf.curl
    intro i d
    have q := hf.solve (om (σ.perm i)) (G.1 + d.1, G.2.1 + d.2.1, G.2.2 + d.2.2)
    rw [h.dx, h.add G d] at q
    have e : σ.axial om i = fun G => σ.s * σ.t i * om (σ.perm i) (σ.cell G) := rfl
    rw [e, freeSolution3_scale, q]
  · rw [mul_zero]

theorem Sym3.Flow.ns (h : σ.Passive K P P') (hf : σ.Flow K P P') (dt : ℝ) (fs : Fin 3 → ℝ) (F : Fields3) :
    refNS3 P' K dt (fun j => σ.t j * fs (σ.perm j)) (σ.fields F) = σ.fields (refNS3 P K dt fs F) := by
  unfold refNS3
  rw [Sym3.Flow.vort h hf, Sym3.Flow.vel h hf]
  unfold Sym3.fields
  simp only
  congr 1
  funext j G
  unfold refFree3 Sym3.vec
  simp only [h.fs]
  split
  · ring
  · rfl

/-- The image of the run is the run of the image. -/
theorem sym3_run (h : σ.Passive K P P') {ft : String} (hf : isNS ft = true → σ.Flow K P P') (cfl tol : ℝ) (ys : List StepSpec3) (F : Fields3) (time : ℝ) :
    refRun3 ft P' K cfl tol (ys.map σ.step) (σ.fields F, time) =
      (σ.fields (refRun3 ft P K cfl tol ys (F, time)).1, (refRun3 ft P K cfl tol ys (F, time)).2) := by
  induction ys generalizing F time with
  | nil => rfl
  | cons y ys ih =>
    simp only [List.map_cons, refRun3]
    have hdt : refDt3 P' cfl tol (σ.fields F) (σ.step y).rule = refDt3 P cfl tol F y.rule := h.dt cfl tol F y.rule
    have e : refStep3 ft P' K (refDt3 P' cfl tol (σ.fields F) (σ.step y).rule) (σ.step y).fs (σ.step y).Φ (σ.fields F) =
        σ.fields (refStep3 ft P K (refDt3 P cfl tol F y.rule) y.fs y.Φ F) := by
      rw [hdt]
      unfold refStep3
      split
      · rename_i e
        exact Sym3.Flow.ns h (hf (by rw [e]; decide)) _ _ _
      · split
        · rename_i e
          have hf := hf (by rw [e]; decide)
          unfold refForcing3
          have e1 := Sym3.Flow.updf h hf (refDt3 P cfl tol F y.rule) y.Φ F.om
          have e2 := Sym3.Flow.ns h hf (refDt3 P cfl tol F y.rule) y.fs { F with om := refUpd3 P K (refDt3 P cfl tol F y.rule) y.Φ F.om }
          rw [← e2]
          unfold Sym3.fields
          simp only [Sym3.step, e1]
        · split
          · exact h.vector _ _
          · exact h.scalar _ _
    rw [e, hdt]
    exact ih _ _

end

/-! ## Mirrors -/

/-- Index `i` of an axis with `n` cells, seen in a mirror if `b`. -/
def flip1 (b : Bool) (n : ℕ) (i : ℤ) : ℤ := if b then n - 1 - i else i
/-- An offset, seen in a mirror if `b`. -/
def flipD (b : Bool) (i : ℤ) : ℤ := if b then -i else i
/-- A component along an axis, seen in a mirror if `b`. -/
def flipS (b : Bool) : ℝ := if b then -1 else 1

theorem flip1_add (b : Bool) (n : ℕ) (i d : ℤ) : flip1 b n (i + d) = flip1 b n i + flipD b d := by
  unfold flip1 flipD
  split <;> ring

theorem flip1_flip1 (b : Bool) (n : ℕ) (i : ℤ) : flip1 b n (flip1 b n i) = i := by
  unfold flip1
  split <;> ring

theorem flipS_cases (b : Bool) : flipS b = 1 ∨ flipS b = -1 := by
  cases b
  · exact Or.inl rfl
  · exact Or.inr rfl

theorem serialPen1_flip (b : Bool) {N w : ℕ} (hw : b = true → 2 * w ≤ N) (U : ℤ → ℝ) (j : ℤ) :
    serialPen1 false N w (fun j => U (flip1 b N j)) j = serialPen1 false N w U (flip1 b N j) := by
  unfold flip1
  cases b
  · rfl
  · exact serialPen1_mirror false (hw rfl) U j

theorem sum_range_flip (b : Bool) (n : ℕ) (f : ℤ → ℝ) : ∑ j ∈ range n, f (flip1 b n (j : ℕ)) = ∑ j ∈ range n, f (j : ℕ) := by
  unfold flip1
  cases b
  · rfl
  · exact sum_range_mirror n f

theorem abs_flip (b : Bool) (n : ℕ) (i j : ℤ) : |flip1 b n i - flip1 b n j| = |i - j| := by
  unfold flip1
  cases b
  · rfl
  · simp only [if_true]
    rw [show (n : ℤ) - 1 - i - (n - 1 - j) = -(i - j) by ring, abs_neg]

/-- The cell in the mirrors at the middle of the axes `i` with `b i` (0 is x). -/
def mirrorCell3 (b : Fin 3 → Bool) (gz gy gx : ℕ) (G : C3) : C3 := (flip1 (b 2) gz G.1, flip1 (b 1) gy G.2.1, flip1 (b 0) gx G.2.2)

/-- The mirrors; `s` is the sign of the advected vector. -/
def mir3 (b : Fin 3 → Bool) (gz gy gx : ℕ) (s : ℝ) : Sym3 :=
  { cell := mirrorCell3 b gz gy gx, lin := fun d => (flipD (b 2) d.1, flipD (b 1) d.2.1, flipD (b 0) d.2.2), s, perm := id, t := fun j => flipS (b j) }

theorem flip1_lt (b : Bool) (n : ℕ) (i : ℤ) : (0 ≤ flip1 b n i ∧ flip1 b n i < n ↔ 0 ≤ i ∧ i < n) ∧ (flip1 b n i = 0 ∨ flip1 b n i = n - 1 ↔ i = 0 ∨ i = n - 1) ∧
    ∀ k : ℕ, (k : ℤ) ≤ flip1 b n i ∧ flip1 b n i < n - k ↔ (k : ℤ) ≤ i ∧ i < n - k := by
  unfold flip1
  cases b
  · simp
  · simp only [if_true]
    refine ⟨by omega, by omega, fun k => by omega⟩

theorem mirror_away (b : Fin 3 → Bool) (gz gy gx k : ℕ) (G : C3) : Away3 gz gy gx k (mirrorCell3 b gz gy gx G) ↔ Away3 gz gy gx k G := by
  unfold Away3 mirrorCell3
  exact and_congr ((flip1_lt (b 2) gz G.1).2.2 k) (and_congr ((flip1_lt (b 1) gy G.2.1).2.2 k) ((flip1_lt (b 0) gx G.2.2).2.2 k))

theorem phi_flip {φ : (ℤ → ℝ) → (ℤ → ℝ) → ℝ} (hm : ∀ w v, φ (fun n => w (-n)) (fun n => -v (-n)) = φ w v) (h : ∀ w v, φ (fun n => -w n) v = -φ w v)
    {e : ℝ} (he : e = 1 ∨ e = -1) (b : Bool) (w v : ℤ → ℝ) : φ (fun n => e * w (flipD b n)) (fun n => flipS b * v (flipD b n)) = e * φ w v := by
  cases b
  · simp only [flipD, flipS, Bool.false_eq_true, if_false, one_mul]
    exact phi_sign h he w v
  · simp only [flipD, flipS, if_true]
    exact phi_mirror hm h he w v

theorem flipD_zero (b : Bool) : flipD b 0 = 0 := by cases b <;> rfl

theorem mirror_dom (b : Fin 3 → Bool) (gz gy gx : ℕ) (G : C3) : Dom3 gz gy gx (mirrorCell3 b gz gy gx G) ↔ Dom3 gz gy gx G := by
  have h1 := (flip1_lt (b 2) gz G.1).1
  have h2 := (flip1_lt (b 1) gy G.2.1).1
  have h3 := (flip1_lt (b 0) gx G.2.2).1
  simp only [Dom3, mirrorCell3]
  rw [← and_assoc, h1, and_assoc, ← and_assoc (a := 0 ≤ flip1 (b 1) gy G.2.1), h2, and_assoc, h3]

theorem mirror_edge (b : Fin 3 → Bool) (gz gy gx : ℕ) (G : C3) : OnEdge3 gz gy gx (mirrorCell3 b gz gy gx G) ↔ OnEdge3 gz gy gx G := by
  have h1 := (flip1_lt (b 2) gz G.1).2.1
  have h2 := (flip1_lt (b 1) gy G.2.1).2.1
  have h3 := (flip1_lt (b 0) gx G.2.2).2.1
  simp only [OnEdge3, mirrorCell3]
  rw [← or_assoc, h1, or_assoc, ← or_assoc (a := flip1 (b 1) gy G.2.1 = 0), h2, or_assoc, h3]

theorem mirror_abs (b : Fin 3 → Bool) (v : Fin 3 → ℝ) (j : Fin 3) : |flipS (b j) * v j| = |v j| := by
  rcases flipS_cases (b j) with h | h <;> rw [h] <;> simp

theorem mirror_diff {k : ℝ → (Unit → C3 → ℝ) → ℝ} (hd : SevenPoint k) (b : Fin 3 → Bool) (a e : ℝ) (f f' : Unit → C3 → ℝ)
    (h1 : ∀ d : C3, f' () d = e * f () (flipD (b 2) d.1, flipD (b 1) d.2.1, flipD (b 0) d.2.2)) : k a f' = e * k a f := by
  rw [hd, hd]
  simp only [h1, flipD_zero]
  generalize b 0 = b0
  generalize b 1 = b1
  generalize b 2 = b2
  cases b0 <;> cases b1 <;> cases b2 <;> simp only [flipD, if_true, Bool.false_eq_true, if_false, neg_neg] <;> ring

theorem mir3_passive {K : Kern3} (hd : SevenPoint K.diff) (ha : OneDim3 K.adv) {s : ℝ} (hs : s = 1 ∨ s = -1) (b : Fin 3 → Bool) (P : Params3) :
    (mir3 b P.gz P.gy P.gx s).Passive K P P where
  s := hs
  t := fun j => flipS_cases (b j)
  add := by
    intro G d
    simp only [mir3, mirrorCell3, flip1_add]
  onto := fun G => ⟨mirrorCell3 b P.gz P.gy P.gx G, by simp only [mir3, mirrorCell3, flip1_flip1]⟩
  dom := fun G => (mirror_dom b P.gz P.gy P.gx G).symm
  edge := fun G => (mirror_edge b P.gz P.gy P.gx G).symm
  dx := rfl
  nu := rfl
  fs := rfl
  abs := fun v => by simp only [mir3, id, mirror_abs]
  adv := by
    intro a e f f' he h1 h2
    obtain ⟨φ, q, hm, hn⟩ := ha
    rw [q, q]
    simp only [h1, h2, mir3, flipD_zero, id]
    have q0 := phi_flip hm hn he (b 0) (fun n => f none (0, 0, n)) fun n => f (some 0) (0, 0, n)
    have q1 := phi_flip hm hn he (b 1) (fun n => f none (0, n, 0)) fun n => f (some 1) (0, n, 0)
    have q2 := phi_flip hm hn he (b 2) (fun n => f none (n, 0, 0)) fun n => f (some 2) (n, 0, 0)
    simp only [q0, q1, q2]
    ring
  diff := fun a e f f' h => mirror_diff hd b a e f f' h

/-- Sign of a pseudovector in the mirrors. -/
def mirrorDet (b : Fin 3 → Bool) : ℝ := flipS (b 0) * flipS (b 1) * flipS (b 2)

theorem flip_axisStep (b : Fin 3 → Bool) (a : Fin 3) :
    ((flipD (b 2) (axisStep a).1, flipD (b 1) (axisStep a).2.1, flipD (b 0) (axisStep a).2.2) : C3) = axisStep a ∨
      ((flipD (b 2) (axisStep a).1, flipD (b 1) (axisStep a).2.1, flipD (b 0) (axisStep a).2.2) : C3) = -axisStep a := by
  generalize b 0 = b0
  generalize b 1 = b1
  generalize b 2 = b2
  revert a b0 b1 b2
  decide

theorem mirrorCell3_add (b : Fin 3 → Bool) (gz gy gx : ℕ) (G d : C3) :
    mirrorCell3 b gz gy gx (G + d) = mirrorCell3 b gz gy gx G + (flipD (b 2) d.1, flipD (b 1) d.2.1, flipD (b 0) d.2.2) := by
  simp only [mirrorCell3, Prod.fst_add, Prod.snd_add, flip1_add, Prod.mk_add_mk]

theorem mirrorCell3_sub (b : Fin 3 → Bool) (gz gy gx : ℕ) (G d : C3) :
    mirrorCell3 b gz gy gx (G - d) = mirrorCell3 b gz gy gx G - (flipD (b 2) d.1, flipD (b 1) d.2.1, flipD (b 0) d.2.2) := by
  have h : ∀ (b : Bool) (i : ℤ), flipD b (-i) = -flipD b i := by
    intro b i
    cases b <;> rfl
  rw [sub_eq_add_neg, mirrorCell3_add, sub_eq_add_neg]
  simp only [Prod.fst_neg, Prod.snd_neg, h, Prod.neg_mk]

theorem mirror_lap (b : Fin 3 → Bool) (gz gy gx : ℕ) (a : Fin 3) (f : C3 → ℝ) :
    serialLap gz gy gx 1 false a (fun G => f (mirrorCell3 b gz gy gx G)) = fun G => serialLap gz gy gx 1 false a f (mirrorCell3 b gz gy gx G) := by
  funext G
  unfold serialLap
  simp only [contIx3, Bool.false_eq_true, if_false, mirrorCell3_add, mirrorCell3_sub]
  by_cases hA : Away3 gz gy gx 1 G
  · have hB := (mirror_away b gz gy gx 1 G).2 hA
    rw [if_neg (fun h => h.2 hA), if_neg (fun h => h.2 hB)]
    rcases flip_axisStep b a with h | h
    · rw [h]
    · rw [h, ← sub_eq_add_neg, sub_neg_eq_add, sub_right_comm]
  · have hB := fun h => hA ((mirror_away b gz gy gx 1 G).1 h)
    rw [if_pos ⟨rfl, hA⟩, if_pos ⟨rfl, hB⟩]

theorem mir3_curl {k : ℝ → (Fin 3 → C3 → ℝ) → ℝ × ℝ × ℝ} (hu : CentralCurl3 k) (b : Fin 3 → Bool) (a c : ℝ) (f f' : Fin 3 → C3 → ℝ)
    (h : ∀ j d, f' j d = c * flipS (b j) * f j (flipD (b 2) d.1, flipD (b 1) d.2.1, flipD (b 0) d.2.2)) (j : Fin 3) :
    comp3 (k a f') j = c * mirrorDet b * flipS (b j) * comp3 (k a f) j := by
  rw [hu, hu]
  simp only [h, flipD_zero, mirrorDet, comp3]
  fin_cases j <;> simp only [Fin.zero_eta, Fin.mk_one, Fin.reduceFinMk, Matrix.cons_val_zero, Matrix.cons_val_one, Matrix.cons_val] <;>
    generalize b 0 = b0 <;> generalize b 1 = b1 <;> generalize b 2 = b2 <;> cases b0 <;> cases b1 <;> cases b2 <;>
    simp only [flipD, flipS, if_true, Bool.false_eq_true, if_false, neg_neg] <;> ring

theorem mirrorDet_sq (b : Fin 3 → Bool) : mirrorDet b * mirrorDet b = 1 := by
  unfold mirrorDet
  rcases flipS_cases (b 0) with h0 | h0 <;> rcases flipS_cases (b 1) with h1 | h1 <;> rcases flipS_cases (b 2) with h2 | h2 <;> rw [h0, h1, h2] <;> norm_num

theorem mir3_cross (b : Fin 3 → Bool) (gz gy gx : ℕ) (u om : Fin 3 → C3 → ℝ) :
    crossF ((mir3 b gz gy gx (mirrorDet b)).vec u) ((mir3 b gz gy gx (mirrorDet b)).axial om) = (mir3 b gz gy gx (mirrorDet b)).vec (crossF u om) := by
  funext j G
  simp only [Sym3.vec, Sym3.axial, mir3, id, mirrorDet, crossF]
  fin_cases j <;> simp only [Fin.zero_eta, Fin.mk_one, Fin.reduceFinMk, Matrix.cons_val_zero, Matrix.cons_val_one, Matrix.cons_val] <;>
    generalize b 0 = b0 <;> generalize b 1 = b1 <;> generalize b 2 = b2 <;> cases b0 <;> cases b1 <;> cases b2 <;>
    simp only [flipS, if_true, Bool.false_eq_true, if_false] <;> ring

theorem mir3_solve (b : Fin 3 → Bool) (P : Params3) (f : C3 → ℝ) (G : C3) :
    freeSolution3 P.gz P.gy P.gx P.dx (fun G => f (mirrorCell3 b P.gz P.gy P.gx G)) G = freeSolution3 P.gz P.gy P.gx P.dx f (mirrorCell3 b P.gz P.gy P.gx G) := by
  unfold freeSolution3
  simp only [mirrorCell3]
  rw [← sum_range_flip (b 2) P.gz fun k => ∑ i ∈ range P.gy, ∑ j ∈ range P.gx,
    f (k, (i : ℤ), (j : ℤ)) * greens3 P.dx |flip1 (b 2) P.gz G.1 - k| |flip1 (b 1) P.gy G.2.1 - i| |flip1 (b 0) P.gx G.2.2 - j| * P.dx ^ 3]
  refine Finset.sum_congr rfl fun k _ => ?_
  rw [← sum_range_flip (b 1) P.gy fun i => ∑ j ∈ range P.gx, f (flip1 (b 2) P.gz k, i, (j : ℤ)) * greens3 P.dx |flip1 (b 2) P.gz G.1 - flip1 (b 2) P.gz k|
    |flip1 (b 1) P.gy G.2.1 - i| |flip1 (b 0) P.gx G.2.2 - j| * P.dx ^ 3]
  refine Finset.sum_congr rfl fun i _ => ?_
  rw [← sum_range_flip (b 0) P.gx fun j => f (flip1 (b 2) P.gz k, flip1 (b 1) P.gy i, j) * greens3 P.dx |flip1 (b 2) P.gz G.1 - flip1 (b 2) P.gz k|
    |flip1 (b 1) P.gy G.2.1 - flip1 (b 1) P.gy i| |flip1 (b 0) P.gx G.2.2 - j| * P.dx ^ 3]
  refine Finset.sum_congr rfl fun j _ => ?_
  rw [abs_flip, abs_flip, abs_flip]

theorem mir3_pen (b : Fin 3 → Bool) {P : Params3} (hw : 2 * P.w ≤ P.gz ∧ 2 * P.w ≤ P.gy ∧ 2 * P.w ≤ P.gx) (f : C3 → ℝ) (G : C3) :
    serialPen3 false P.gz P.gy P.gx P.w (fun G => f (mirrorCell3 b P.gz P.gy P.gx G)) G = serialPen3 false P.gz P.gy P.gx P.w f (mirrorCell3 b P.gz P.gy P.gx G) := by
  unfold serialPen3
  simp only [mirrorCell3]
  have e0 := fun k i => serialPen1_flip (b 0) (N := P.gx) (w := P.w) (fun _ => hw.2.2) (fun j => f (k, i, j)) G.2.2
  simp only [e0]
  have e1 := fun k => serialPen1_flip (b 1) (N := P.gy) (w := P.w) (fun _ => hw.2.1) (fun i => serialPen1 false P.gx P.w (fun j => f (k, i, j)) (flip1 (b 0) P.gx G.2.2)) G.2.1
  simp only [e1]
  exact serialPen1_flip (b 2) (N := P.gz) (w := P.w) (fun _ => hw.1)
    (fun k => serialPen1 false P.gy P.w (fun i => serialPen1 false P.gx P.w (fun j => f (k, i, j)) (flip1 (b 0) P.gx G.2.2)) (flip1 (b 1) P.gy G.2.1)) G.1

theorem mir3_flow {K : Kern3} (hu : CentralCurl3 K.upd) (hc : CentralCurl3 K.curl) (b : Fin 3 → Bool) {P : Params3}
    (hw : 2 * P.w ≤ P.gz ∧ 2 * P.w ≤ P.gy ∧ 2 * P.w ≤ P.gx) : (mir3 b P.gz P.gy P.gx (mirrorDet b)).Flow K P P where
  upd := by
    intro a f f' h j
    have e := mir3_curl hu b a 1 f f' (fun j d => by rw [one_mul]; exact h j d) j
    rw [one_mul] at e
    exact e
  curl := by
    intro a f f' h j
    have e := mir3_curl hc b a (mirrorDet b) f f' h j
    rw [mirrorDet_sq, one_mul] at e
    exact e
  cross := mir3_cross b P.gz P.gy P.gx
  solve := mir3_solve b P
  pen := mir3_pen b hw
  flt := fun f G => congrFun (refFilter3_commute (P := P) (P' := P) rfl (fun f G => f (mirrorCell3 b P.gz P.gy P.gx G)) (fun _ _ => rfl)
    (fun a f => mirror_lap b P.gz P.gy P.gx a f) f) G

/-! ## Exchange of two axes -/

theorem greens3_swap_xy (dx : ℝ) (a b c : ℤ) : greens3 dx a b c = greens3 dx a c b := by
  unfold greens3
  rw [add_comm (((c : ℝ) * dx) ^ 2)]
  exact if_congr (and_congr Iff.rfl and_comm) rfl rfl

theorem greens3_swap_yz (dx : ℝ) (a b c : ℤ) : greens3 dx a b c = greens3 dx b a c := by
  unfold greens3
  rw [add_right_comm]
  exact if_congr and_left_comm rfl rfl

/-- Exchange of x and y. -/
def swapXY3 (s : ℝ) : Sym3 := { cell := fun G => (G.1, G.2.2, G.2.1), lin := fun d => (d.1, d.2.2, d.2.1), s, perm := ![1, 0, 2], t := fun _ => 1 }
/-- Exchange of y and z. -/
def swapYZ3 (s : ℝ) : Sym3 := { cell := fun G => (G.2.1, G.1, G.2.2), lin := fun d => (d.2.1, d.1, d.2.2), s, perm := ![0, 2, 1], t := fun _ => 1 }

/-- The parameters with x and y exchanged, same cell size. -/
noncomputable def Params3.swapXY (P : Params3) : Params3 := { P with gy := P.gx, gx := P.gy, xr := P.xr * (P.gy / P.gx) }
/-- The parameters with y and z exchanged. -/
def Params3.swapYZ (P : Params3) : Params3 := { P with gz := P.gy, gy := P.gz }

theorem Params3.swapXY_dx {P : Params3} (h : P.gy ≠ 0) : P.swapXY.dx = P.dx := by
  unfold Params3.swapXY Params3.dx
  simp only
  have : (P.gy : ℝ) ≠ 0 := by exact_mod_cast h
  field_simp

theorem swapXY3_passive {K : Kern3} (hd : SevenPoint K.diff) (ha : OneDim3 K.adv) {s : ℝ} (hs : s = 1 ∨ s = -1) {P : Params3} (hP : P.gy ≠ 0) :
    (swapXY3 s).Passive K P P.swapXY where
  s := hs
  t := fun _ => Or.inl rfl
  add := fun _ _ => rfl
  onto := fun G => ⟨(G.1, G.2.2, G.2.1), rfl⟩
  dom := by
    intro G
    simp only [swapXY3, Dom3, Params3.swapXY]
    omega
  edge := by
    intro G
    simp only [swapXY3, OnEdge3, Params3.swapXY]
    omega
  dx := Params3.swapXY_dx hP
  nu := rfl
  fs := rfl
  abs := by
    intro v
    simp only [swapXY3, Matrix.cons_val_zero, Matrix.cons_val_one, Matrix.cons_val, one_mul]
    ring
  adv := by
    intro a e f f' he h1 h2
    obtain ⟨φ, q, hm, hn⟩ := ha
    rw [q, q]
    simp only [h1, h2, swapXY3, Matrix.cons_val_zero, Matrix.cons_val_one, Matrix.cons_val, one_mul]
    have q0 := phi_sign hn he (fun n => f none (0, 0, n)) fun n => f (some 0) (0, 0, n)
    have q1 := phi_sign hn he (fun n => f none (0, n, 0)) fun n => f (some 1) (0, n, 0)
    have q2 := phi_sign hn he (fun n => f none (n, 0, 0)) fun n => f (some 2) (n, 0, 0)
    simp only [q0, q1, q2]
    ring
  diff := by
    intro a e f f' h1
    rw [hd, hd]
    simp only [h1, swapXY3]
    ring

theorem swapYZ3_passive {K : Kern3} (hd : SevenPoint K.diff) (ha : OneDim3 K.adv) {s : ℝ} (hs : s = 1 ∨ s = -1) (P : Params3) : (swapYZ3 s).Passive K P P.swapYZ where
  s := hs
  t := fun _ => Or.inl rfl
  add := fun _ _ => rfl
  onto := fun G => ⟨(G.2.1, G.1, G.2.2), rfl⟩
  dom := by
    intro G
    simp only [swapYZ3, Dom3, Params3.swapYZ]
    omega
  edge := by
    intro G
    simp only [swapYZ3, OnEdge3, Params3.swapYZ]
    omega
  dx := rfl
  nu := rfl
  fs := rfl
  abs := by
    intro v
    simp only [swapYZ3, Matrix.cons_val_zero, Matrix.cons_val_one, Matrix.cons_val, one_mul]
    ring
  adv := by
    intro a e f f' he h1 h2
    obtain ⟨φ, q, hm, hn⟩ := ha
    rw [q, q]
    simp only [h1, h2, swapYZ3, Matrix.cons_val_zero, Matrix.cons_val_one, Matrix.cons_val, one_mul]
    have q0 := phi_sign hn he (fun n => f none (0, 0, n)) fun n => f (some 0) (0, 0, n)
    have q1 := phi_sign hn he (fun n => f none (0, n, 0)) fun n => f (some 1) (0, n, 0)
    have q2 := phi_sign hn he (fun n => f none (n, 0, 0)) fun n => f (some 2) (n, 0, 0)
    simp only [q0, q1, q2]
    ring
  diff := by
    intro a e f f' h1
    rw [hd, hd]
    simp only [h1, swapYZ3]
    ring

theorem swapXY3_flow {K : Kern3} (hu : CentralCurl3 K.upd) (hc : CentralCurl3 K.curl) {P : Params3} (hP : P.gy ≠ 0) (hf : P.flt = none) :
    (swapXY3 (-1)).Flow K P P.swapXY where
  upd := by
    intro a f f' h j
    rw [hu, hu]
    simp only [h, swapXY3, comp3]
    fin_cases j <;> simp only [Fin.zero_eta, Fin.mk_one, Fin.reduceFinMk, Matrix.cons_val_zero, Matrix.cons_val_one, Matrix.cons_val] <;> ring
  curl := by
    intro a f f' h j
    rw [hc, hc]
    simp only [h, swapXY3, comp3]
    fin_cases j <;> simp only [Fin.zero_eta, Fin.mk_one, Fin.reduceFinMk, Matrix.cons_val_zero, Matrix.cons_val_one, Matrix.cons_val] <;> ring
  cross := by
    intro u om
    funext j G
    simp only [Sym3.vec, Sym3.axial, swapXY3, crossF]
    fin_cases j <;> simp only [Fin.zero_eta, Fin.mk_one, Fin.reduceFinMk, Matrix.cons_val_zero, Matrix.cons_val_one, Matrix.cons_val] <;> ring
  solve := by
    intro f G
    rw [Params3.swapXY_dx hP]
    unfold freeSolution3
    simp only [swapXY3, Params3.swapXY]
    refine Finset.sum_congr rfl fun k _ => ?_
    rw [Finset.sum_comm]
    refine Finset.sum_congr rfl fun i _ => Finset.sum_congr rfl fun j _ => ?_
    rw [greens3_swap_xy]
  pen := by
    intro f G
    obtain ⟨c, k, h⟩ := serialPen1_form false P.gx P.w
    obtain ⟨c', k', h'⟩ := serialPen1_form false P.gy P.w
    obtain ⟨c'', k'', h''⟩ := serialPen1_form false P.gz P.w
    unfold serialPen3
    simp only [swapXY3, Params3.swapXY, h, h', h'']
    ring
  flt := by
    intro f G
    unfold refFilter3
    have : P.swapXY.flt = none := hf
    rw [this, hf]

theorem swapYZ3_flow {K : Kern3} (hu : CentralCurl3 K.upd) (hc : CentralCurl3 K.curl) {P : Params3} (hf : P.flt = none) : (swapYZ3 (-1)).Flow K P P.swapYZ where
  upd := by
    intro a f f' h j
    rw [hu, hu]
    simp only [h, swapYZ3, comp3]
    fin_cases j <;> simp only [Fin.zero_eta, Fin.mk_one, Fin.reduceFinMk, Matrix.cons_val_zero, Matrix.cons_val_one, Matrix.cons_val] <;> ring
  curl := by
    intro a f f' h j
    rw [hc, hc]
    simp only [h, swapYZ3, comp3]
    fin_cases j <;> simp only [Fin.zero_eta, Fin.mk_one, Fin.reduceFinMk, Matrix.cons_val_zero, Matrix.cons_val_one, Matrix.cons_val] <;> ring
  cross := by
    intro u om
    funext j G
    simp only [Sym3.vec, Sym3.axial, swapYZ3, crossF]
    fin_cases j <;> simp only [Fin.zero_eta, Fin.mk_one, Fin.reduceFinMk, Matrix.cons_val_zero, Matrix.cons_val_one, Matrix.cons_val] <;> ring
  solve := by
    intro f G
    have : P.swapYZ.dx = P.dx := rfl
    rw [this]
    unfold freeSolution3
    simp only [swapYZ3, Params3.swapYZ]
    rw [Finset.sum_comm]
    refine Finset.sum_congr rfl fun k _ => Finset.sum_congr rfl fun i _ => Finset.sum_congr rfl fun j _ => ?_
    rw [greens3_swap_yz]
  pen := by
    intro f G
    obtain ⟨c, k, h⟩ := serialPen1_form false P.gx P.w
    obtain ⟨c', k', h'⟩ := serialPen1_form false P.gy P.w
    obtain ⟨c'', k'', h''⟩ := serialPen1_form false P.gz P.w
    unfold serialPen3
    simp only [swapYZ3, Params3.swapYZ, h, h', h'']
    ring
  flt := by
    intro f G
    unfold refFilter3
    have : P.swapYZ.flt = none := hf
    rw [this, hf]

end Sopht
