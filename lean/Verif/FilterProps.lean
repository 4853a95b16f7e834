import Verif.Filter
import Verif.PenaliseProps

/-! # Properties of the Laplacian filter (C40) -/

namespace Sopht

set_option linter.unusedSimpArgs false

/-! ## Specification -/

section Spec
variable {K : Type} [Field K]

/-- The one dimensional filter along axis `a` applied to a global field (continued periodically on a periodic domain):
`(2 F(G) - F(G + e) - F(G - e)) / 4`. On a non-periodic domain the `bw` outermost layers are zero. -/
noncomputable def serialLap (gz gy gx bw : ℕ) (per : Bool) (a : Fin 3) (F : C3 → K) (G : C3) : K :=
  open Classical in
  if per = false ∧ ¬ Away3 gz gy gx bw G then 0
  else (2 * F (contIx3 gz gy gx per G) - F (contIx3 gz gy gx per (G + axisStep a)) - F (contIx3 gz gy gx per (G - axisStep a))) / 4

/-- Multiplicative filter of order `p`: `F - (Lz Ly Lx)^p F`. -/
noncomputable def serialMultiplicative (gz gy gx bw : ℕ) (per : Bool) (p : ℕ) (F : C3 → K) : C3 → K := fun G =>
  F G - ((fun F => serialLap gz gy gx bw per 2 (serialLap gz gy gx bw per 1 (serialLap gz gy gx bw per 0 F)))^[p] F) G

/-- One direction of the convolution filter of order `p`: `F - La^p F`. -/
noncomputable def serialConvDir (gz gy gx bw : ℕ) (per : Bool) (p : ℕ) (a : Fin 3) (F : C3 → K) : C3 → K := fun G =>
  F G - ((serialLap gz gy gx bw per a)^[p] F) G

/-- Convolution filter: the three directions one after the other. -/
noncomputable def serialConvolution (gz gy gx bw : ℕ) (per : Bool) (p : ℕ) (F : C3 → K) : C3 → K :=
  serialConvDir gz gy gx bw per p 2 (serialConvDir gz gy gx bw per p 1 (serialConvDir gz gy gx bw per p 0 F))

end Spec

/-! ## Validation -/

/-- C40: the generator accepts exactly: order a non-negative integer, zone width a positive integer, ghost size at least 1, a known filter type and a
known field type; everything else raises ValueError. -/
theorem filterCheck_ok_iff (a : FilterArgs) :
    (filterCheck a = .ok () ↔ (∃ n : ℕ, a.order = .int n) ∧ (∃ n : ℕ, a.width = .int (n + 1)) ∧ 1 ≤ a.ghost ∧
      (a.filterType = "multiplicative" ∨ a.filterType = "convolution") ∧ (a.fieldType = "scalar" ∨ a.fieldType = "vector")) ∧
    (filterCheck a ≠ .ok () → filterCheck a = .error .valueError) := by
  have ho : (a.order.neg || !a.order.isInt) = false ↔ ∃ n : ℕ, a.order = .int n := by
    cases a.order with
    | int v =>
      simp only [PyNum.neg, PyNum.isInt, Bool.not_true, Bool.or_false, decide_eq_false_iff_not, not_lt, PyNum.int.injEq]
      exact ⟨fun h => ⟨v.toNat, by omega⟩, fun ⟨n, hn⟩ => by omega⟩
    | float n d => simp [PyNum.isInt]
  have hw : (a.width.nonpos || !a.width.isInt) = false ↔ ∃ n : ℕ, a.width = .int (n + 1) := by
    cases a.width with
    | int v =>
      simp only [PyNum.nonpos, PyNum.isInt, Bool.not_true, Bool.or_false, decide_eq_false_iff_not, not_le, PyNum.int.injEq]
      exact ⟨fun h => ⟨(v - 1).toNat, by omega⟩, fun ⟨n, hn⟩ => by omega⟩
    | float n d => simp [PyNum.isInt]
  rw [← ho, ← hw]
  unfold filterCheck checkSupport
  by_cases h1 : (a.order.neg || !a.order.isInt) = true
  · simp [h1, bind, Except.bind]
  · by_cases h2 : (a.width.nonpos || !a.width.isInt) = true
    · simp [h1, h2, bind, Except.bind]
    · by_cases h3 : a.ghost < 1
      · simp [h1, h2, h3, bind, Except.bind, pure, Except.pure]
      · have h3' : 1 ≤ a.ghost := by omega
        by_cases h4 : a.filterType = "multiplicative" ∨ a.filterType = "convolution"
        · by_cases h5 : a.fieldType = "scalar" ∨ a.fieldType = "vector"
          · simp [h1, h2, h3, h4, h5, h3', bind, Except.bind, pure, Except.pure]
          · simp [h1, h2, h3, h4, h5, h3', bind, Except.bind, pure, Except.pure]
        · simp [h1, h2, h3, h4, h3', bind, Except.bind, pure, Except.pure]

/-- the simulators' default arguments are accepted -/
example : filterCheck ⟨.int 2, .int 1, 2, "multiplicative", "vector"⟩ = .ok () :=
  (filterCheck_ok_iff _).1.2 ⟨⟨2, rfl⟩, ⟨0, rfl⟩, by decide, by decide, by decide⟩

/-! ## One pass -/

section
variable {K : Type} [Field K]

theorem axis_zone {P n g bw : ℕ} (hb : bw ≤ n) {c i : ℤ} (h0 : 0 ≤ c) (h1 : c < P) (i0 : g ≤ i) (i1 : i < g + n) :
    ((bw : ℤ) ≤ c * n + i - g ↔ ¬ (c = 0 ∧ i < g + bw)) ∧
    (c * n + i - g < (P * n : ℕ) - bw ↔ ¬ (c = P - 1 ∧ g + n - bw ≤ i)) := by
  push_cast
  have b1 : c = 0 → c * n = 0 := by rintro rfl; ring
  have b2 : c = P - 1 → c * n + n = (P : ℤ) * n := by rintro rfl; push_cast; ring
  have b3 : c ≠ 0 → (n : ℤ) ≤ c * n := by intro h; have : 1 ≤ c := by omega
                                          nlinarith
  have b4 : c ≠ P - 1 → c * n + 2 * n ≤ (P : ℤ) * n := by
    intro h; have : c ≤ P - 2 := by omega
    nlinarith
  generalize (P : ℤ) * n = N at *
  generalize c * (n : ℤ) = b at *
  constructor
  · by_cases h : c = 0
    · have := b1 h; omega
    · have := b3 h; omega
  · by_cases h : c = P - 1
    · have := b2 h; omega
    · have := b4 h; omega

/-- clearing the boundary zone on the ranks clears the boundary zone of the domain, if blocks are at least as wide as the zone -/
theorem clearSides3_inner {gz gy gx pz py px : ℕ} {per : Bool} {T : Cart3} (hT : mkCart3 gz gy gx pz py px per = .ok T) {g bw : ℕ} (hg : 1 ≤ g)
    (hbz : bw ≤ T.nz) (hby : bw ≤ T.ny) (hbx : bw ≤ T.nx)
    (out : C3 → K) {c p : C3} (hc : Valid3 T c) (hp : Inner3 T g p) :
    (per = false ∧ ¬ Away3 gz gy gx bw (globalIx3 T g c p) → clearSides3 T g bw c out p = 0) ∧
    (¬ (per = false ∧ ¬ Away3 gz gy gx bw (globalIx3 T g c p)) → clearSides3 T g bw c out p = out p) := by
  obtain ⟨e0, e1, e2, -, -, -, hper, hZ, hY, hX⟩ := construct3_ok hT
  obtain ⟨n1, n2, n3, n4, n5, n6⟩ := nbrNone3 hc
  rw [hper] at n1 n2 n3 n4 n5 n6
  obtain ⟨b1, b2, c1, c2, c3, c4⟩ := hc
  obtain ⟨q1, q2, p1, p2, p3, p4⟩ := hp
  have ez := axis_zone hbz b1 b2 q1 q2
  have ey := axis_zone hby c1 c2 p1 p2
  have ex := axis_zone hbx c3 c4 p3 p4
  rw [hZ, e0] at ez
  rw [hY, e1] at ey
  rw [hX, e2] at ex
  have hA : ¬ Away3 gz gy gx bw (globalIx3 T g c p) ↔ (c.1 = 0 ∧ p.1 < g + bw) ∨ (c.1 = T.pz - 1 ∧ g + T.nz - bw ≤ p.1) ∨
      (c.2.1 = 0 ∧ p.2.1 < g + bw) ∨ (c.2.1 = T.py - 1 ∧ g + T.ny - bw ≤ p.2.1) ∨
      (c.2.2 = 0 ∧ p.2.2 < g + bw) ∨ (c.2.2 = T.px - 1 ∧ g + T.nx - bw ≤ p.2.2) := by
    unfold Away3 globalIx3
    simp only
    rw [ez.1, ez.2, ey.1, ey.2, ex.1, ex.2]
    omega
  have a1 : (min 0 ((T.nx : ℤ) + 2 * g) ≤ p.2.2 ∧ p.2.2 < min ((g : ℤ) + bw) (T.nx + 2 * g)) ↔ p.2.2 < g + bw := by omega
  have a2 : (max 0 ((T.nx : ℤ) + 2 * g + (-g - bw)) ≤ p.2.2 ∧ p.2.2 < T.nx + 2 * g) ↔ g + T.nx - bw ≤ p.2.2 := by omega
  have a3 : (min 0 ((T.ny : ℤ) + 2 * g) ≤ p.2.1 ∧ p.2.1 < min ((g : ℤ) + bw) (T.ny + 2 * g)) ↔ p.2.1 < g + bw := by omega
  have a4 : (max 0 ((T.ny : ℤ) + 2 * g + (-g - bw)) ≤ p.2.1 ∧ p.2.1 < T.ny + 2 * g) ↔ g + T.ny - bw ≤ p.2.1 := by omega
  have a5 : (min 0 ((T.nz : ℤ) + 2 * g) ≤ p.1 ∧ p.1 < min ((g : ℤ) + bw) (T.nz + 2 * g)) ↔ p.1 < g + bw := by omega
  have a6 : (max 0 ((T.nz : ℤ) + 2 * g + (-g - bw)) ≤ p.1 ∧ p.1 < T.nz + 2 * g) ↔ g + T.nz - bw ≤ p.1 := by omega
  have hset : ∀ (A B : Prop) [Decidable A] [Decidable B] (o : K), (if A then (if B then 0 else o) else o) = if A ∧ B then 0 else o := by
    intro A B _ _ o; by_cases hA : A <;> by_cases hB : B <;> simp [hA, hB]
  have hor : ∀ (A B : Prop) [Decidable A] [Decidable B] (o : K), (if A then 0 else if B then 0 else o) = if A ∨ B then 0 else o := by
    intro A B _ _ o; by_cases hA : A <;> by_cases hB : B <;> simp [hA, hB]
  rw [hA]
  unfold clearSides3 sliceR
  rw [pyStart_min (size := T.nx + 2 * g) (o := 0) le_rfl, pyStart_min (size := T.ny + 2 * g) (o := 0) le_rfl,
    pyStart_min (size := T.nz + 2 * g) (o := 0) le_rfl,
    pyStart_min (size := T.nx + 2 * g) (o := g + bw) (by omega), pyStart_min (size := T.ny + 2 * g) (o := g + bw) (by omega),
    pyStart_min (size := T.nz + 2 * g) (o := g + bw) (by omega),
    pyStart_max (size := T.nx + 2 * g) (o := -g - bw) (by omega), pyStart_max (size := T.ny + 2 * g) (o := -g - bw) (by omega),
    pyStart_max (size := T.nz + 2 * g) (o := -g - bw) (by omega)]
  simp only
  simp only [ite_apply, a1, a2, a3, a4, a5, a6, n1, n2, n3, n4, n5, n6]
  simp only [hset]
  simp only [hor]
  clear hA n1 n2 n3 n4 n5 n6 a1 a2 a3 a4 a5 a6 hset hor ez ey ex
  cases per
  · simp only [true_and]
    refine ⟨fun h => if_pos (by omega), fun h => if_neg (by omega)⟩
  · simp

theorem lapFilter_local (a : Fin 3) : CrossLocal3 1 (lapFilter (K := K) a) := by
  intro u v h
  unfold lapFilter axisStep
  have h0 := h () (0, 0, 0) (by simp [Cross3])
  have h1 := h () (0, 0, 1) (by simp [Cross3])
  have h2 := h () (0, 0, -1) (by simp [Cross3])
  have h3 := h () (0, 1, 0) (by simp [Cross3])
  have h4 := h () (0, -1, 0) (by simp [Cross3])
  have h5 := h () (1, 0, 0) (by simp [Cross3])
  have h6 := h () (-1, 0, 0) (by simp [Cross3])
  match a with
  | 0 => simp [h0, h1, h2]
  | 1 => simp [h0, h3, h4]
  | 2 => simp [h0, h5, h6]

theorem lapFilter_serial (gz gy gx : ℕ) (per : Bool) (a : Fin 3) (F : C3 → K) (G : C3) :
    serialAt3 gz gy gx per (lapFilter a) (fun _ => F) G =
      (2 * F (contIx3 gz gy gx per G) - F (contIx3 gz gy gx per (G + axisStep a)) - F (contIx3 gz gy gx per (G - axisStep a))) / 4 := by
  unfold serialAt3 lapFilter
  simp only
  rw [show (G.1 + (axisStep a).1, G.2.1 + (axisStep a).2.1, G.2.2 + (axisStep a).2.2) = G + axisStep a from rfl]
  rw [show (G.1 + -(axisStep a).1, G.2.1 + -(axisStep a).2.1, G.2.2 + -(axisStep a).2.2) = G - axisStep a by
    refine Prod.ext ?_ (Prod.ext ?_ ?_) <;> simp [sub_eq_add_neg]]
  rw [show (G.1 + 0, G.2.1 + 0, G.2.2 + 0) = G by refine Prod.ext ?_ (Prod.ext ?_ ?_) <;> simp]
  ring

/-- The inner cells of all ranks hold the global field `F`. -/
def Holds3 (T : Cart3) (g : ℕ) (F : C3 → K) (v : C3 → C3 → K) : Prop :=
  ∀ c p, Valid3 T c → Inner3 T g p → v c p = F (globalIx3 T g c p)

/-- What the theorems below assume about decomposition, ghost size and zone width. -/
structure FilterSetup (gz gy gx pz py px : ℕ) (per : Bool) (T : Cart3) (g bw : ℕ) : Prop where
  cart : mkCart3 gz gy gx pz py px per = .ok T
  ghost : 1 ≤ g
  width : 1 ≤ bw
  gz_le : g ≤ T.nz
  gy_le : g ≤ T.ny
  gx_le : g ≤ T.nx
  bz_le : bw ≤ T.nz
  by_le : bw ≤ T.ny
  bx_le : bw ≤ T.nx

theorem away3_one {gz gy gx bw : ℕ} (hw : 1 ≤ bw) {G : C3} (h : Away3 gz gy gx bw G) : Away3 gz gy gx 1 G := by
  unfold Away3 at *; omega

theorem filterPass_holds {gz gy gx pz py px : ℕ} {per : Bool} {T : Cart3} {g bw : ℕ} (hS : FilterSetup gz gy gx pz py px per T g bw)
    (full : Bool) (a : Fin 3) {sch : Sched3} (hs : Complete (multiMsgs3 T g full [()]) sch.2) {F : C3 → K} {b : FilterBufs K}
    (hb : Holds3 T g F b.fieldBuf) :
    Holds3 T g (serialLap gz gy gx bw per a F) (filterPass T g bw full a sch b).fieldBuf ∧
    Holds3 T g (serialLap gz gy gx bw per a F) (filterPass T g bw full a sch b).flux := by
  have key : Holds3 T g (serialLap gz gy gx bw per a F) (filterPass T g bw full a sch b).flux := by
    intro c p hc hp
    unfold filterPass serialLap
    simp only
    obtain ⟨k1, k2⟩ := clearSides3_inner hS.cart hS.ghost hS.bz_le hS.by_le hS.bx_le
      (stencil3 T g full [()] 1 false (fun _ n => n) (lapFilter a) (fun c i => b.fieldBuf c i.2) sch.1 sch.2 b.flux c) hc hp
    by_cases h : per = false ∧ ¬ Away3 gz gy gx bw (globalIx3 T g c p)
    · rw [k1 h, if_pos h]
    · rw [k2 h, if_neg h]
      rw [stencil3_over_global (F := fun _ => F) hS.cart le_rfl hS.ghost hS.gz_le hS.gy_le hS.gx_le full (by simp) false (lapFilter_local a)
        (fun _ c p hc hp => hb c p hc hp) sch.1 hs _ hc hp ?_, lapFilter_serial]
      cases per with
      | true => exact Or.inl rfl
      | false => exact Or.inr (away3_one hS.width (by by_contra h'; exact h ⟨rfl, h'⟩))
  exact ⟨key, key⟩

/-! ## The filters -/

/-- C40: the multiplicative filter of order `p ≥ 1` leaves `F - (Lz Ly Lx)^p F` in the inner cells, whatever the buffers held before and
however the messages moved. -/
theorem multiplicativeFilter_global {gz gy gx pz py px : ℕ} {per : Bool} {T : Cart3} {g bw : ℕ} (hS : FilterSetup gz gy gx pz py px per T g bw)
    (full : Bool) {p : ℕ} (hp : 1 ≤ p) {sch : ℕ → Sched3} (hs : ∀ i, Complete (multiMsgs3 T g full [()]) (sch i).2) {F : C3 → K}
    {v : World C3 C3 K} (hv : Holds3 T g F v) (b : FilterBufs K) :
    Holds3 T g (serialMultiplicative gz gy gx bw per p F) (multiplicativeFilter T g bw full p sch v b).1 := by
  have run : ∀ (n : ℕ) (b0 : FilterBufs K), Holds3 T g F b0.fieldBuf →
      let b1 := (List.range n).foldl (fun b i => filterPass T g bw full 2 (sch (3 * i + 2))
        (filterPass T g bw full 1 (sch (3 * i + 1)) (filterPass T g bw full 0 (sch (3 * i)) b))) b0
      let F1 := (fun F => serialLap gz gy gx bw per 2 (serialLap gz gy gx bw per 1 (serialLap gz gy gx bw per 0 F)))^[n] F
      Holds3 T g F1 b1.fieldBuf ∧ (1 ≤ n → Holds3 T g F1 b1.flux) := by
    intro n
    induction n with
    | zero => intro b0 h; exact ⟨h, fun h => absurd h (by omega)⟩
    | succ n ih =>
      intro b0 h
      have := (ih b0 h).1
      simp only [List.range_succ, List.foldl_append, List.foldl_cons, List.foldl_nil, Function.iterate_succ', Function.comp_apply]
      have h1 := (filterPass_holds hS full 0 (hs (3 * n)) this).1
      have h2 := (filterPass_holds hS full 1 (hs (3 * n + 1)) h1).1
      have h3 := filterPass_holds hS full 2 (hs (3 * n + 2)) h2
      exact ⟨h3.1, fun _ => h3.2⟩
  intro c q hc hq
  unfold multiplicativeFilter saxpbyFilter serialMultiplicative
  simp only
  have := (run p ⟨v, fun c => clearSides3 T g bw c (b.flux c)⟩ hv).2 hp c q hc hq
  rw [this, hv c q hc hq]
  ring

theorem convolutionDir_holds {gz gy gx pz py px : ℕ} {per : Bool} {T : Cart3} {g bw : ℕ} (hS : FilterSetup gz gy gx pz py px per T g bw)
    (full : Bool) {p : ℕ} (hp : 1 ≤ p) (a : Fin 3) {sch : ℕ → Sched3} (hs : ∀ i, Complete (multiMsgs3 T g full [()]) (sch i).2) {F : C3 → K}
    {v : World C3 C3 K} (hv : Holds3 T g F v) (b : FilterBufs K) :
    Holds3 T g (serialConvDir gz gy gx bw per p a F) (convolutionDir T g bw full p a sch v b).1 := by
  have run : ∀ (n : ℕ) (b0 : FilterBufs K), Holds3 T g F b0.fieldBuf →
      let b1 := (List.range n).foldl (fun b i => filterPass T g bw full a (sch i) b) b0
      let F1 := (serialLap gz gy gx bw per a)^[n] F
      Holds3 T g F1 b1.fieldBuf ∧ (1 ≤ n → Holds3 T g F1 b1.flux) := by
    intro n
    induction n with
    | zero => intro b0 h; exact ⟨h, fun h => absurd h (by omega)⟩
    | succ n ih =>
      intro b0 h
      have := (ih b0 h).1
      simp only [List.range_succ, List.foldl_append, List.foldl_cons, List.foldl_nil, Function.iterate_succ', Function.comp_apply]
      have h3 := filterPass_holds hS full a (hs n) this
      exact ⟨h3.1, fun _ => h3.2⟩
  intro c q hc hq
  unfold convolutionDir saxpbyFilter serialConvDir
  simp only
  have := (run p ⟨v, b.flux⟩ hv).2 hp c q hc hq
  rw [this, hv c q hc hq]
  ring

/-- C40: the convolution filter of order `p ≥ 1` applies `1 - La^p` along x, then y, then z. -/
theorem convolutionFilter_global {gz gy gx pz py px : ℕ} {per : Bool} {T : Cart3} {g bw : ℕ} (hS : FilterSetup gz gy gx pz py px per T g bw)
    (full : Bool) {p : ℕ} (hp : 1 ≤ p) {sch : Fin 3 → ℕ → Sched3} (hs : ∀ a i, Complete (multiMsgs3 T g full [()]) (sch a i).2) {F : C3 → K}
    {v : World C3 C3 K} (hv : Holds3 T g F v) (b : FilterBufs K) :
    Holds3 T g (serialConvolution gz gy gx bw per p F) (convolutionFilter T g bw full p sch v b).1 := by
  unfold convolutionFilter serialConvolution
  simp only
  exact convolutionDir_holds hS full hp 2 (hs 2) (convolutionDir_holds hS full hp 1 (hs 1) (convolutionDir_holds hS full hp 0 (hs 0) hv _) _) _

/-- C40: the vector filters apply the scalar filter to each component although the components share the buffers (`flt` is one of the two
filters above; `R` what it does to the global field). -/
theorem vectorFilter_componentwise {S : Type} {T : Cart3} {g : ℕ}
    {flt : S → World C3 C3 K → FilterBufs K → World C3 C3 K × FilterBufs K} {R : (C3 → K) → C3 → K} {sch : Fin 3 → S}
    (hflt : ∀ i F v b, Holds3 T g F v → Holds3 T g (R F) (flt (sch i) v b).1)
    {F : Fin 3 → C3 → K} {v : Fin 3 → World C3 C3 K} (hv : ∀ i, Holds3 T g (F i) (v i)) (b : FilterBufs K) (i : Fin 3) :
    Holds3 T g (R (F i)) ((vectorFilter flt sch v b).1 i) := by
  unfold vectorFilter
  simp only
  match i with
  | 0 => exact hflt 0 _ _ _ (hv 0)
  | 1 => exact hflt 1 _ _ _ (hv 1)
  | 2 => exact hflt 2 _ _ _ (hv 2)

/-- C40, the vector filter the simulators use: multiplicative filter on three components. -/
theorem vectorMultiplicative_global {gz gy gx pz py px : ℕ} {per : Bool} {T : Cart3} {g bw : ℕ} (hS : FilterSetup gz gy gx pz py px per T g bw)
    (full : Bool) {p : ℕ} (hp : 1 ≤ p) {sch : Fin 3 → ℕ → Sched3} (hs : ∀ a i, Complete (multiMsgs3 T g full [()]) (sch a i).2)
    {F : Fin 3 → C3 → K} {v : Fin 3 → World C3 C3 K} (hv : ∀ i, Holds3 T g (F i) (v i)) (b : FilterBufs K) (i : Fin 3) :
    Holds3 T g (serialMultiplicative gz gy gx bw per p (F i))
      ((vectorFilter (fun s v b => multiplicativeFilter T g bw full p s v b) sch v b).1 i) :=
  vectorFilter_componentwise (fun i _ _ b h => multiplicativeFilter_global hS full hp (hs i) h b) hv b i

/-- non-vacuity: a decomposed periodic and a decomposed non-periodic domain with ghost size 2, order 2; complete schedules exist -/
example : (∃ T, FilterSetup 8 4 4 2 1 2 true T 2 1) ∧ (∃ T, FilterSetup 8 4 4 2 1 2 false T 2 2) ∧
    ∀ (T : Cart3) (g : ℕ) (full : Bool), ∃ sch : ℕ → Sched3, ∀ i, Complete (multiMsgs3 T g full [()]) (sch i).2 := by
  refine ⟨⟨⟨8, 4, 4, 2, 1, 2, 4, 4, 2, true⟩, rfl, ?_, ?_, ?_, ?_, ?_, ?_, ?_, ?_⟩,
    ⟨⟨8, 4, 4, 2, 1, 2, 4, 4, 2, false⟩, rfl, ?_, ?_, ?_, ?_, ?_, ?_, ?_, ?_⟩, ?_⟩
  all_goals first | decide | skip
  intro T g full
  obtain ⟨s, hs⟩ := complete_schedule_exists (multiMsgs3 T g full [()])
  exact ⟨fun _ => (fun _ => [], s), fun _ => hs⟩

/-! ## What the filter does -/

/-- C40: a field that is constant passes the filter unchanged (periodic domain): the filter only removes variation. -/
theorem serialMultiplicative_const [CharZero K] (gz gy gx bw : ℕ) {p : ℕ} (hp : 1 ≤ p) (k : K) (G : C3) :
    serialMultiplicative gz gy gx bw true p (fun _ => k) G = k := by
  have h : ∀ (a : Fin 3) (k : K), serialLap gz gy gx bw true a (fun _ => k) = fun _ => (0 : K) := by
    intro a k; funext G; unfold serialLap; rw [if_neg (by simp)]; ring
  obtain ⟨n, rfl⟩ : ∃ n, p = n + 1 := ⟨p - 1, by omega⟩
  unfold serialMultiplicative
  rw [Function.iterate_succ_apply, h, h, h]
  have : ∀ n : ℕ, (fun F => serialLap gz gy gx bw true 2 (serialLap gz gy gx bw true 1 (serialLap gz gy gx bw true 0 F)))^[n] (fun _ => (0 : K))
      = fun _ => 0 := by
    intro n
    induction n with
    | zero => rfl
    | succ n ih => rw [Function.iterate_succ_apply', ih, h, h, h]
  rw [this]
  simp

/-- C40: in the zeroed boundary zone of a non-periodic domain the filter changes nothing. -/
theorem serialMultiplicative_zone {gz gy gx bw : ℕ} {p : ℕ} (hp : 1 ≤ p) (F : C3 → K) {G : C3} (h : ¬ Away3 gz gy gx bw G) :
    serialMultiplicative gz gy gx bw false p F G = F G := by
  obtain ⟨n, rfl⟩ : ∃ n, p = n + 1 := ⟨p - 1, by omega⟩
  unfold serialMultiplicative
  rw [Function.iterate_succ_apply']
  unfold serialLap
  rw [if_pos ⟨rfl, h⟩, sub_zero]

/-- C40: order 0 does not switch the filter off: what the flux buffer happened to hold (outside the boundary zone) is subtracted from
the field. -/
theorem multiplicativeFilter_order_zero {gz gy gx pz py px : ℕ} {per : Bool} {T : Cart3} {g bw : ℕ}
    (hS : FilterSetup gz gy gx pz py px per T g bw) (full : Bool) (sch : ℕ → Sched3) (v : World C3 C3 K) (b : FilterBufs K)
    {c q : C3} (hc : Valid3 T c) (hq : Inner3 T g q) (hA : per = true ∨ Away3 gz gy gx bw (globalIx3 T g c q)) :
    (multiplicativeFilter T g bw full 0 sch v b).1 c q = v c q - b.flux c q := by
  unfold multiplicativeFilter saxpbyFilter
  simp only [List.range_zero, List.foldl_nil]
  rw [(clearSides3_inner hS.cart hS.ghost hS.bz_le hS.by_le hS.bx_le (b.flux c) hc hq).2]
  · ring
  · rintro ⟨h1, h2⟩
    rcases hA with h | h
    · rw [h1] at h; simp at h
    · exact h2 h

/-- C40: for the convolution filter order 0 subtracts the flux buffer three times. -/
theorem convolutionFilter_order_zero {gz gy gx pz py px : ℕ} {per : Bool} {T : Cart3} {g bw : ℕ}
    (hS : FilterSetup gz gy gx pz py px per T g bw) (full : Bool) (sch : Fin 3 → ℕ → Sched3) (v : World C3 C3 K) (b : FilterBufs K)
    {c q : C3} (hc : Valid3 T c) (hq : Inner3 T g q) (hA : per = true ∨ Away3 gz gy gx bw (globalIx3 T g c q)) :
    (convolutionFilter T g bw full 0 sch v b).1 c q = v c q - 3 * b.flux c q := by
  unfold convolutionFilter convolutionDir saxpbyFilter
  simp only [List.range_zero, List.foldl_nil]
  rw [(clearSides3_inner hS.cart hS.ghost hS.bz_le hS.by_le hS.bx_le (b.flux c) hc hq).2]
  · ring
  · rintro ⟨h1, h2⟩
    rcases hA with h | h
    · rw [h1] at h; simp at h
    · exact h2 h

end

end Sopht
