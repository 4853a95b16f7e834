import Verif.GhostSum
import Verif.GhostSumAxis
import Verif.Spec

/-! Helper lemmas for the ghost sum. -/

namespace Sopht

set_option linter.unusedSimpArgs false

variable {α : Type} [Semiring α]

/-- the arrays of all ranks as a function of (cy, iy, cx, ix) -/
abbrev Fn2 (α : Type) := ℤ → ℤ → ℤ → ℤ → α

structure Agree2 (T : Cart2) (g : ℕ) (w : C2 → GS2 α) (H : Fn2 α) : Prop where
  A : ∀ c p, Valid2 T c → InArr2 T g p → (w c).A p = H c.1 p.1 c.2 p.2
  row : ∀ c, Valid2 T c → (w c).row = fun _ => 0
  col : ∀ c, Valid2 T c → (w c).col = fun _ => 0

theorem opP_apply2 (P : ℕ) (per : Bool) (n g : ℕ) (H : Fn2 α) (cy iy cx ix : ℤ) :
    opP P per n g H cy iy cx ix = H cy iy cx ix + (if (g : ℤ) ≤ iy ∧ iy < 2 * g then
      (match axisNbr P per cy (-1) with | some b => H b (iy + n) cx ix | none => 0) else 0) := by
  unfold opP axP
  simp only [Pi.add_apply]
  congr 1
  split
  · cases axisNbr P per cy (-1) <;> rfl
  · rfl

theorem opM_apply2 (P : ℕ) (per : Bool) (n g : ℕ) (H : Fn2 α) (cy iy cx ix : ℤ) :
    opM P per n g H cy iy cx ix = H cy iy cx ix + (if (n : ℤ) ≤ iy ∧ iy < n + g then
      (match axisNbr P per cy 1 with | some b => H b (iy - n) cx ix | none => 0) else 0) := by
  unfold opM axM
  simp only [Pi.add_apply]
  congr 1
  split
  · cases axisNbr P per cy 1 <;> rfl
  · rfl

theorem nbrY_valid {T : Cart2} {c : C2} (hc : Valid2 T c) {s d : ℤ} (h : axisNbr T.py T.per c.1 s = some d) :
    Valid2 T (d, c.2) := by
  have := axisNbr_range hc.pos.1 h
  exact ⟨this.1, this.2, hc.2.2.1, hc.2.2.2⟩

theorem nbrX_valid {T : Cart2} {c : C2} (hc : Valid2 T c) {s d : ℤ} (h : axisNbr T.px T.per c.2 s = some d) :
    Valid2 T (c.1, d) := by
  have := axisNbr_range hc.pos.2 h
  exact ⟨hc.1, hc.2.1, this.1, this.2⟩

theorem colPay_eq (T : Cart2) (g : ℕ) (o : ℤ) (A : C2 → α) {i j : ℤ} (h0 : 0 ≤ o + j) (h1 : o + j < cols2 T g) :
    colPay T g o A (i, j) = A (i, o + j) := by
  unfold colPay
  have e : o + i * cols2 T g + j = (o + j) + cols2 T g * i := by ring
  simp only [e]
  congr 1
  rw [Int.add_mul_ediv_left _ _ (by omega), Int.add_mul_emod_self_left, Int.ediv_eq_zero_of_lt h0 h1,
    Int.emod_eq_of_lt h0 h1]
  simp

theorem phase2_0 {T : Cart2} {g : ℕ} {w : C2 → GS2 α} {H : Fn2 α} (h : Agree2 T g w H) :
    Agree2 T g (syncPhase (gsPhase2 T g 0) w) (opP T.py T.per T.ny g H) := by
  refine ⟨?_, ?_, ?_⟩
  · intro c p hc hp
    obtain ⟨p0, p1, p2, p3⟩ := hp
    rw [opP_apply2]
    unfold syncPhase gsPhase2 prevY2
    simp only [addRows]
    cases hn : axisNbr T.py T.per c.1 (-1) with
    | none =>
      simp only [Option.map_none, recvInto, h.row c hc]
      rw [h.A c p hc ⟨p0, p1, p2, p3⟩]
      split <;> simp
    | some b =>
      simp only [Option.map_some, recvInto, rowPay]
      rw [h.A c p hc ⟨p0, p1, p2, p3⟩]
      have hb := nbrY_valid hc hn
      by_cases hr : (g : ℤ) ≤ p.1 ∧ p.1 < 2 * g
      · rw [if_pos ⟨by omega, by unfold cols2; omega⟩, if_pos hr, h.A (b, c.2) _ hb]
        · simp only [rows2]
          rw [show (T.ny : ℤ) + 2 * g - g + (p.1 - g) = p.1 + T.ny by ring]
        · simp only [rows2, InArr2]; omega
      · rw [if_neg (by omega), if_neg hr, add_zero]
  · intro c hc
    unfold syncPhase gsPhase2
    simp
  · intro c hc
    exact h.col c hc

theorem phase2_2 {T : Cart2} {g : ℕ} {w : C2 → GS2 α} {H : Fn2 α} (h : Agree2 T g w H) :
    Agree2 T g (syncPhase (gsPhase2 T g 2) w) (opM T.py T.per T.ny g H) := by
  refine ⟨?_, ?_, ?_⟩
  · intro c p hc hp
    obtain ⟨p0, p1, p2, p3⟩ := hp
    rw [opM_apply2]
    unfold syncPhase gsPhase2 nextY2
    simp only [addRows]
    cases hn : axisNbr T.py T.per c.1 1 with
    | none =>
      simp only [Option.map_none, recvInto, h.row c hc]
      rw [h.A c p hc ⟨p0, p1, p2, p3⟩]
      split <;> simp
    | some b =>
      simp only [Option.map_some, recvInto, rowPay]
      rw [h.A c p hc ⟨p0, p1, p2, p3⟩]
      have hb := nbrY_valid hc hn
      by_cases hr : (T.ny : ℤ) ≤ p.1 ∧ p.1 < T.ny + g
      · rw [if_pos ⟨by unfold rows2; omega, by unfold cols2; omega⟩, if_pos hr, h.A (b, c.2) _ hb]
        · simp only [rows2]
          rw [show (0 : ℤ) + (p.1 - (T.ny + 2 * g - 2 * g)) = p.1 - T.ny by ring]
        · simp only [rows2, InArr2]; omega
      · rw [if_neg (by unfold rows2; omega), if_neg hr, add_zero]
  · intro c hc
    unfold syncPhase gsPhase2
    simp
  · intro c hc
    exact h.col c hc

theorem phase2_1 {T : Cart2} {g : ℕ} {w : C2 → GS2 α} {H : Fn2 α} (h : Agree2 T g w H) :
    Agree2 T g (syncPhase (gsPhase2 T g 1) w) (fun cy iy => opP T.px T.per T.nx g (H cy iy)) := by
  refine ⟨?_, ?_, ?_⟩
  · intro c p hc hp
    obtain ⟨p0, p1, p2, p3⟩ := hp
    unfold opP axP
    unfold syncPhase gsPhase2 prevX2
    simp only [addCols]
    cases hn : axisNbr T.px T.per c.2 (-1) with
    | none =>
      simp only [Option.map_none, recvInto, h.col c hc]
      rw [h.A c p hc ⟨p0, p1, p2, p3⟩]
      split <;> simp
    | some b =>
      simp only [Option.map_some, recvInto]
      rw [h.A c p hc ⟨p0, p1, p2, p3⟩]
      have hb := nbrX_valid hc hn
      by_cases hr : (g : ℤ) ≤ p.2 ∧ p.2 < 2 * g
      · rw [if_pos ⟨by unfold rows2; omega, by omega⟩, if_pos hr, colPay_eq _ _ _ _ (by unfold cols2; omega)
          (by unfold cols2; omega), h.A (c.1, b) _ hb]
        · simp only [cols2]
          rw [show (T.nx : ℤ) + 2 * g - g + (p.2 - g) = p.2 + T.nx by ring]
        · simp only [cols2, InArr2]; omega
      · rw [if_neg (by omega), if_neg hr, add_zero]
  · intro c hc
    exact h.row c hc
  · intro c hc
    unfold syncPhase gsPhase2
    simp

theorem phase2_3 {T : Cart2} {g : ℕ} {w : C2 → GS2 α} {H : Fn2 α} (h : Agree2 T g w H) :
    Agree2 T g (syncPhase (gsPhase2 T g 3) w) (fun cy iy => opM T.px T.per T.nx g (H cy iy)) := by
  refine ⟨?_, ?_, ?_⟩
  · intro c p hc hp
    obtain ⟨p0, p1, p2, p3⟩ := hp
    unfold opM axM
    unfold syncPhase gsPhase2 nextX2
    simp only [addCols]
    cases hn : axisNbr T.px T.per c.2 1 with
    | none =>
      simp only [Option.map_none, recvInto, h.col c hc]
      rw [h.A c p hc ⟨p0, p1, p2, p3⟩]
      split <;> simp
    | some b =>
      simp only [Option.map_some, recvInto]
      rw [h.A c p hc ⟨p0, p1, p2, p3⟩]
      have hb := nbrX_valid hc hn
      by_cases hr : (T.nx : ℤ) ≤ p.2 ∧ p.2 < T.nx + g
      · rw [if_pos ⟨by unfold rows2; omega, by unfold cols2; omega⟩, if_pos hr, colPay_eq _ _ _ _ (by unfold cols2; omega)
          (by unfold cols2; omega), h.A (c.1, b) _ hb]
        · simp only [cols2]
          rw [show (0 : ℤ) + (p.2 - (T.nx + 2 * g - 2 * g)) = p.2 - T.nx by ring]
        · simp only [cols2, InArr2]; omega
      · rw [if_neg (by unfold cols2; omega), if_neg hr, add_zero]
  · intro c hc
    exact h.row c hc
  · intro c hc
    unfold syncPhase gsPhase2
    simp

/-- one axis completely: receive from previous, then from next -/
def opB {M : Type} [AddCommMonoid M] (P : ℕ) (per : Bool) (n g : ℕ) (h : ℤ → ℤ → M) : ℤ → ℤ → M :=
  opM P per n g (opP P per n g h)

theorem run2_agree {T : Cart2} {g : ℕ} {w : C2 → GS2 α} {H : Fn2 α} (h : Agree2 T g w H) :
    Agree2 T g (syncRun (gsPhase2 T g) w 4)
      (fun cy iy => opB T.px T.per T.nx g (opB T.py T.per T.ny g H cy iy)) := by
  have h4 := phase2_3 (phase2_2 (phase2_1 (phase2_0 h)))
  have e := opM_map T.py T.per T.ny g (opP T.px T.per T.nx g : (ℤ → ℤ → α) → _) (opP_zero _ _ _ _) (opP_add _ _ _ _)
    (opP T.py T.per T.ny g H)
  rw [e] at h4
  exact h4

/-- world before the call as a function -/
def fn2 (w : C2 → GS2 α) : Fn2 α := fun cy iy cx ix => (w (cy, cx)).A (iy, ix)

theorem agree2_init (T : Cart2) (g : ℕ) (w : C2 → GS2 α)
    (hb : ∀ c, Valid2 T c → (w c).row = (fun _ => 0) ∧ (w c).col = fun _ => 0) : Agree2 T g w (fn2 w) :=
  ⟨fun _ _ _ _ => rfl, fun c hc => (hb c hc).1, fun c hc => (hb c hc).2⟩

/-! ### 3D -/

abbrev Fn3 (α : Type) := ℤ → ℤ → ℤ → ℤ → ℤ → ℤ → α

structure Agree3 (T : Cart3) (g : ℕ) (w : C3 → GS3 α) (H : Fn3 α) : Prop where
  A : ∀ c p, Valid3 T c → InArr3 T g p → (w c).A p = H c.1 p.1 c.2.1 p.2.1 c.2.2 p.2.2
  bz : ∀ c, Valid3 T c → (w c).bz = fun _ => 0
  by' : ∀ c, Valid3 T c → (w c).by' = fun _ => 0
  bx : ∀ c, Valid3 T c → (w c).bx = fun _ => 0

theorem opP_apply4 (P : ℕ) (per : Bool) (n g : ℕ) (H : Fn3 α) (cz iz cy iy cx ix : ℤ) :
    opP P per n g H cz iz cy iy cx ix = H cz iz cy iy cx ix + (if (g : ℤ) ≤ iz ∧ iz < 2 * g then
      (match axisNbr P per cz (-1) with | some b => H b (iz + n) cy iy cx ix | none => 0) else 0) := by
  unfold opP axP
  simp only [Pi.add_apply]
  congr 1
  split
  · cases axisNbr P per cz (-1) <;> rfl
  · rfl

theorem opM_apply4 (P : ℕ) (per : Bool) (n g : ℕ) (H : Fn3 α) (cz iz cy iy cx ix : ℤ) :
    opM P per n g H cz iz cy iy cx ix = H cz iz cy iy cx ix + (if (n : ℤ) ≤ iz ∧ iz < n + g then
      (match axisNbr P per cz 1 with | some b => H b (iz - n) cy iy cx ix | none => 0) else 0) := by
  unfold opM axM
  simp only [Pi.add_apply]
  congr 1
  split
  · cases axisNbr P per cz 1 <;> rfl
  · rfl

theorem nbrZ_valid3 {T : Cart3} {c : C3} (hc : Valid3 T c) {s d : ℤ} (h : axisNbr T.pz T.per c.1 s = some d) :
    Valid3 T (d, c.2.1, c.2.2) := by
  have := axisNbr_range hc.pos.1 h
  obtain ⟨h1, h2, h3, h4, h5, h6⟩ := hc
  exact ⟨this.1, this.2, h3, h4, h5, h6⟩
theorem nbrY_valid3 {T : Cart3} {c : C3} (hc : Valid3 T c) {s d : ℤ} (h : axisNbr T.py T.per c.2.1 s = some d) :
    Valid3 T (c.1, d, c.2.2) := by
  have := axisNbr_range hc.pos.2.1 h
  obtain ⟨h1, h2, h3, h4, h5, h6⟩ := hc
  exact ⟨h1, h2, this.1, this.2, h5, h6⟩
theorem nbrX_valid3 {T : Cart3} {c : C3} (hc : Valid3 T c) {s d : ℤ} (h : axisNbr T.px T.per c.2.2 s = some d) :
    Valid3 T (c.1, c.2.1, d) := by
  have := axisNbr_range hc.pos.2.2 h
  obtain ⟨h1, h2, h3, h4, h5, h6⟩ := hc
  exact ⟨h1, h2, h3, h4, this.1, this.2⟩

theorem phase3_0 {T : Cart3} {g : ℕ} {w : C3 → GS3 α} {H : Fn3 α} (h : Agree3 T g w H) :
    Agree3 T g (syncPhase (gsPhase3 T g 0) w) (opP T.pz T.per T.nz g H) := by
  refine ⟨?_, fun c hc => by unfold syncPhase gsPhase3; simp, fun c hc => h.by' c hc, fun c hc => h.bx c hc⟩
  intro c p hc hp
  obtain ⟨p0, p1, p2, p3, p4, p5⟩ := hp
  rw [opP_apply4]
  unfold syncPhase gsPhase3 prevZ3
  simp only [addZ]
  cases hn : axisNbr T.pz T.per c.1 (-1) with
  | none =>
    simp only [Option.map_none, recvInto, h.bz c hc]
    rw [h.A c p hc ⟨p0, p1, p2, p3, p4, p5⟩]
    split <;> simp
  | some b =>
    simp only [Option.map_some, recvInto, subPay]
    rw [h.A c p hc ⟨p0, p1, p2, p3, p4, p5⟩]
    have hb := nbrZ_valid3 hc hn
    by_cases hr : (g : ℤ) ≤ p.1 ∧ p.1 < 2 * g
    · rw [if_pos ⟨by omega, by unfold ext; omega⟩, if_pos hr, h.A _ _ hb]
      · simp only [ext]
        rw [show (T.nz : ℤ) + 2 * g - g + (p.1 - g) = p.1 + T.nz by ring, zero_add, zero_add]
      · simp only [ext, InArr3]; omega
    · rw [if_neg (by omega), if_neg hr, add_zero]

theorem phase3_3 {T : Cart3} {g : ℕ} {w : C3 → GS3 α} {H : Fn3 α} (h : Agree3 T g w H) :
    Agree3 T g (syncPhase (gsPhase3 T g 3) w) (opM T.pz T.per T.nz g H) := by
  refine ⟨?_, fun c hc => by unfold syncPhase gsPhase3; simp, fun c hc => h.by' c hc, fun c hc => h.bx c hc⟩
  intro c p hc hp
  obtain ⟨p0, p1, p2, p3, p4, p5⟩ := hp
  rw [opM_apply4]
  unfold syncPhase gsPhase3 nextZ3
  simp only [addZ]
  cases hn : axisNbr T.pz T.per c.1 1 with
  | none =>
    simp only [Option.map_none, recvInto, h.bz c hc]
    rw [h.A c p hc ⟨p0, p1, p2, p3, p4, p5⟩]
    split <;> simp
  | some b =>
    simp only [Option.map_some, recvInto, subPay]
    rw [h.A c p hc ⟨p0, p1, p2, p3, p4, p5⟩]
    have hb := nbrZ_valid3 hc hn
    by_cases hr : (T.nz : ℤ) ≤ p.1 ∧ p.1 < T.nz + g
    · rw [if_pos ⟨by unfold ext; omega, by unfold ext; omega⟩, if_pos hr, h.A _ _ hb]
      · simp only [ext]
        rw [show (0 : ℤ) + (p.1 - (T.nz + 2 * g - 2 * g)) = p.1 - T.nz by ring, zero_add, zero_add]
      · simp only [ext, InArr3]; omega
    · rw [if_neg (by unfold ext; omega), if_neg hr, add_zero]

theorem phase3_1 {T : Cart3} {g : ℕ} {w : C3 → GS3 α} {H : Fn3 α} (h : Agree3 T g w H) :
    Agree3 T g (syncPhase (gsPhase3 T g 1) w) (fun cz iz => opP T.py T.per T.ny g (H cz iz)) := by
  refine ⟨?_, fun c hc => h.bz c hc, fun c hc => by unfold syncPhase gsPhase3; simp, fun c hc => h.bx c hc⟩
  intro c p hc hp
  obtain ⟨p0, p1, p2, p3, p4, p5⟩ := hp
  rw [opP_apply2]
  unfold syncPhase gsPhase3 prevY3
  simp only [addY]
  cases hn : axisNbr T.py T.per c.2.1 (-1) with
  | none =>
    simp only [Option.map_none, recvInto, h.by' c hc]
    rw [h.A c p hc ⟨p0, p1, p2, p3, p4, p5⟩]
    split <;> simp
  | some b =>
    simp only [Option.map_some, recvInto, subPay]
    rw [h.A c p hc ⟨p0, p1, p2, p3, p4, p5⟩]
    have hb := nbrY_valid3 hc hn
    by_cases hr : (g : ℤ) ≤ p.2.1 ∧ p.2.1 < 2 * g
    · rw [if_pos ⟨by unfold ext; omega, by omega, by unfold ext; omega⟩, if_pos hr, h.A _ _ hb]
      · simp only [ext]
        rw [show (T.ny : ℤ) + 2 * g - g + (p.2.1 - g) = p.2.1 + T.ny by ring, zero_add, zero_add]
      · simp only [ext, InArr3]; omega
    · rw [if_neg (by omega), if_neg hr, add_zero]

theorem phase3_4 {T : Cart3} {g : ℕ} {w : C3 → GS3 α} {H : Fn3 α} (h : Agree3 T g w H) :
    Agree3 T g (syncPhase (gsPhase3 T g 4) w) (fun cz iz => opM T.py T.per T.ny g (H cz iz)) := by
  refine ⟨?_, fun c hc => h.bz c hc, fun c hc => by unfold syncPhase gsPhase3; simp, fun c hc => h.bx c hc⟩
  intro c p hc hp
  obtain ⟨p0, p1, p2, p3, p4, p5⟩ := hp
  rw [opM_apply2]
  unfold syncPhase gsPhase3 nextY3
  simp only [addY]
  cases hn : axisNbr T.py T.per c.2.1 1 with
  | none =>
    simp only [Option.map_none, recvInto, h.by' c hc]
    rw [h.A c p hc ⟨p0, p1, p2, p3, p4, p5⟩]
    split <;> simp
  | some b =>
    simp only [Option.map_some, recvInto, subPay]
    rw [h.A c p hc ⟨p0, p1, p2, p3, p4, p5⟩]
    have hb := nbrY_valid3 hc hn
    by_cases hr : (T.ny : ℤ) ≤ p.2.1 ∧ p.2.1 < T.ny + g
    · rw [if_pos ⟨by unfold ext; omega, by unfold ext; omega, by unfold ext; omega⟩, if_pos hr, h.A _ _ hb]
      · simp only [ext]
        rw [show (0 : ℤ) + (p.2.1 - (T.ny + 2 * g - 2 * g)) = p.2.1 - T.ny by ring, zero_add, zero_add]
      · simp only [ext, InArr3]; omega
    · rw [if_neg (by unfold ext; omega), if_neg hr, add_zero]

theorem phase3_2 {T : Cart3} {g : ℕ} {w : C3 → GS3 α} {H : Fn3 α} (h : Agree3 T g w H) :
    Agree3 T g (syncPhase (gsPhase3 T g 2) w) (fun cz iz cy iy => opP T.px T.per T.nx g (H cz iz cy iy)) := by
  refine ⟨?_, fun c hc => h.bz c hc, fun c hc => h.by' c hc, fun c hc => by unfold syncPhase gsPhase3; simp⟩
  intro c p hc hp
  obtain ⟨p0, p1, p2, p3, p4, p5⟩ := hp
  unfold opP axP
  unfold syncPhase gsPhase3 prevX3
  simp only [addX]
  cases hn : axisNbr T.px T.per c.2.2 (-1) with
  | none =>
    simp only [Option.map_none, recvInto, h.bx c hc]
    rw [h.A c p hc ⟨p0, p1, p2, p3, p4, p5⟩]
    split <;> simp
  | some b =>
    simp only [Option.map_some, recvInto, subPay]
    rw [h.A c p hc ⟨p0, p1, p2, p3, p4, p5⟩]
    have hb := nbrX_valid3 hc hn
    by_cases hr : (g : ℤ) ≤ p.2.2 ∧ p.2.2 < 2 * g
    · rw [if_pos ⟨by unfold ext; omega, by unfold ext; omega, by omega⟩, if_pos hr, h.A _ _ hb]
      · simp only [ext]
        rw [show (T.nx : ℤ) + 2 * g - g + (p.2.2 - g) = p.2.2 + T.nx by ring, zero_add, zero_add]
      · simp only [ext, InArr3]; omega
    · rw [if_neg (by omega), if_neg hr, add_zero]

theorem phase3_5 {T : Cart3} {g : ℕ} {w : C3 → GS3 α} {H : Fn3 α} (h : Agree3 T g w H) :
    Agree3 T g (syncPhase (gsPhase3 T g 5) w) (fun cz iz cy iy => opM T.px T.per T.nx g (H cz iz cy iy)) := by
  refine ⟨?_, fun c hc => h.bz c hc, fun c hc => h.by' c hc, fun c hc => by unfold syncPhase gsPhase3; simp⟩
  intro c p hc hp
  obtain ⟨p0, p1, p2, p3, p4, p5⟩ := hp
  unfold opM axM
  unfold syncPhase gsPhase3 nextX3
  simp only [addX]
  cases hn : axisNbr T.px T.per c.2.2 1 with
  | none =>
    simp only [Option.map_none, recvInto, h.bx c hc]
    rw [h.A c p hc ⟨p0, p1, p2, p3, p4, p5⟩]
    split <;> simp
  | some b =>
    simp only [Option.map_some, recvInto, subPay]
    rw [h.A c p hc ⟨p0, p1, p2, p3, p4, p5⟩]
    have hb := nbrX_valid3 hc hn
    by_cases hr : (T.nx : ℤ) ≤ p.2.2 ∧ p.2.2 < T.nx + g
    · rw [if_pos ⟨by unfold ext; omega, by unfold ext; omega, by unfold ext; omega⟩, if_pos hr, h.A _ _ hb]
      · simp only [ext]
        rw [show (0 : ℤ) + (p.2.2 - (T.nx + 2 * g - 2 * g)) = p.2.2 - T.nx by ring, zero_add, zero_add]
      · simp only [ext, InArr3]; omega
    · rw [if_neg (by unfold ext; omega), if_neg hr, add_zero]

theorem run3_agree {T : Cart3} {g : ℕ} {w : C3 → GS3 α} {H : Fn3 α} (h : Agree3 T g w H) :
    Agree3 T g (syncRun (gsPhase3 T g) w 6)
      (fun cz iz cy iy => opB T.px T.per T.nx g (opB T.py T.per T.ny g (opB T.pz T.per T.nz g H cz iz) cy iy)) := by
  have h6 := phase3_5 (phase3_4 (phase3_3 (phase3_2 (phase3_1 (phase3_0 h)))))
  -- Z− past X+ and Y+
  have e1 := opM_map T.pz T.per T.nz g
    (fun (x : ℤ → ℤ → ℤ → ℤ → α) cy iy => opP T.px T.per T.nx g (opP T.py T.per T.ny g x cy iy))
    (by rw [opP_zero]; funext cy iy; exact opP_zero _ _ _ _)
    (by intro x y; rw [opP_add]; funext cy iy; exact opP_add _ _ _ _ _ _)
    (opP T.pz T.per T.nz g H)
  rw [e1] at h6
  -- Y− past X+
  have e2 : ∀ x : ℤ → ℤ → ℤ → ℤ → α,
      opM T.py T.per T.ny g (fun cy iy => opP T.px T.per T.nx g (opP T.py T.per T.ny g x cy iy)) =
        fun cy iy => opP T.px T.per T.nx g (opM T.py T.per T.ny g (opP T.py T.per T.ny g x) cy iy) := by
    intro x
    exact opM_map T.py T.per T.ny g (opP T.px T.per T.nx g : (ℤ → ℤ → α) → _) (opP_zero _ _ _ _) (opP_add _ _ _ _)
      (opP T.py T.per T.ny g x)
  simp only [e2] at h6
  exact h6

/-- world before the call as a function -/
def fn3 (w : C3 → GS3 α) : Fn3 α := fun cz iz cy iy cx ix => (w (cz, cy, cx)).A (iz, iy, ix)

theorem agree3_init (T : Cart3) (g : ℕ) (w : C3 → GS3 α)
    (hb : ∀ c, Valid3 T c → (w c).bz = (fun _ => 0) ∧ (w c).by' = (fun _ => 0) ∧ (w c).bx = fun _ => 0) :
    Agree3 T g w (fn3 w) :=
  ⟨fun _ _ _ _ => rfl, fun c hc => (hb c hc).1, fun c hc => (hb c hc).2.1, fun c hc => (hb c hc).2.2⟩

theorem clear2_inner {T : Cart2} {g : ℕ} {A : C2 → α} {p : C2} (h : Inner2 T g p) : clearGhosts2 T g A p = A p := by
  obtain ⟨h1, h2, h3, h4⟩ := h
  unfold clearGhosts2 rows2 cols2
  simp only
  rw [if_neg (by omega), if_neg (by omega), if_neg (by omega), if_neg (by omega)]

theorem clear2_ghost {T : Cart2} {g : ℕ} {A : C2 → α} {p : C2} (h : ¬ Inner2 T g p) : clearGhosts2 T g A p = 0 := by
  unfold Inner2 at h
  unfold clearGhosts2 rows2 cols2
  simp only
  split
  · simp
  · split
    · simp
    · split
      · simp
      · rw [if_pos (by omega)]; simp

theorem clear3_inner {T : Cart3} {g : ℕ} {A : C3 → α} {p : C3} (h : Inner3 T g p) : clearGhosts3 T g A p = A p := by
  obtain ⟨h1, h2, h3, h4, h5, h6⟩ := h
  unfold clearGhosts3 ext
  simp only
  rw [if_neg (by omega), if_neg (by omega), if_neg (by omega), if_neg (by omega), if_neg (by omega), if_neg (by omega)]

theorem clear3_ghost {T : Cart3} {g : ℕ} {A : C3 → α} {p : C3} (h : ¬ Inner3 T g p) : clearGhosts3 T g A p = 0 := by
  unfold Inner3 at h
  unfold clearGhosts3 ext
  simp only
  split
  · simp
  · split
    · simp
    · split
      · simp
      · split
        · simp
        · split
          · simp
          · rw [if_pos (by omega)]; simp

end Sopht
