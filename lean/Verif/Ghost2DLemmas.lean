import Verif.Ghost2D
import Verif.GhostAxis
import Verif.MsgLemmas
import Mathlib.Tactic.FinCases

/-! Helper lemmas for the 2D ghost exchange. -/

namespace Sopht

/-- rectangle of displacements in type-map order -/
def rect (cy cx : ℕ) : List C2 := (irange cy).flatMap fun r => (irange cx).map fun c => (r, c)

theorem mem_rect {cy cx : ℕ} {p : C2} : p ∈ rect cy cx ↔ 0 ≤ p.1 ∧ p.1 < cy ∧ 0 ≤ p.2 ∧ p.2 < cx := by
  unfold rect
  simp only [List.mem_flatMap, List.mem_map, mem_irange]
  constructor
  · rintro ⟨a, ha, b, hb, rfl⟩; simp; omega
  · intro h; exact ⟨p.1, by omega, p.2, by omega, rfl⟩

theorem vecIx_eq (o : ℤ) (cy cx : ℕ) (st : ℤ) :
    vecIx o cy cx st = (rect cy cx).map fun p => o + p.1 * st + p.2 := by
  unfold vecIx rect
  rw [List.map_flatMap]
  congr 1
  funext r
  rw [List.map_map]
  rfl

theorem vecIx_shift (a b : ℤ) (cy cx : ℕ) (st : ℤ) :
    vecIx (a * st + b) cy cx st = (rect cy cx).map fun p => (a + p.1) * st + (b + p.2) := by
  rw [vecIx_eq]
  apply List.map_congr_left
  intro p _
  ring

/-- The generic message in direction `s`. -/
def gpost2 (T : Cart2) (g : ℕ) (c s : C2) : Post C2 ℤ :=
  ⟨nbr2 T c s,
   (rect (axCnt T.ny g s.1) (axCnt T.nx g s.2)).map fun p =>
      flat2 T g (axSend T.ny g s.1 + p.1, axSend T.nx g s.2 + p.2),
   nbr2 T c (-s.1, -s.2),
   (rect (axCnt T.ny g s.1) (axCnt T.nx g s.2)).map fun p =>
      flat2 T g (axRecv T.ny g s.1 + p.1, axRecv T.nx g s.2 + p.2)⟩

def dirs2 (full : Bool) : List C2 :=
  if full then [(-1, 0), (1, 0), (0, -1), (0, 1), (-1, -1), (1, 1), (-1, 1), (1, -1)]
  else [(-1, 0), (1, 0), (0, -1), (0, 1)]

theorem bufIx_eq {T : Cart2} {g : ℕ} {o a b : ℤ} {cy cx : ℕ}
    (h : pyStart (rows2 T g * cols2 T g) o = a * cols2 T g + b) :
    bufIx T g o cy cx = (rect cy cx).map fun p => flat2 T g (a + p.1, b + p.2) := by
  unfold bufIx
  rw [h]
  exact vecIx_shift a b cy cx _

section
variable {T : Cart2} {g : ℕ}

theorem pyStart_nonneg {size o : ℤ} (h0 : 0 ≤ o) (h1 : o ≤ size) : pyStart size o = o := by
  unfold pyStart
  rw [if_neg (by omega)]; omega

theorem pyStart_neg {size o : ℤ} (h0 : o < 0) (h1 : 0 ≤ size + o) : pyStart size o = size + o := by
  unfold pyStart
  rw [if_pos h0]; omega

variable (hg : 1 ≤ g)
include hg

/-- The four edge messages as written in the code are the generic messages of the four axis directions. -/
theorem edgePosts2_eq {c : C2} (hc : Valid2 T c) :
    edgePosts2 T g c = [(-1, 0), (1, 0), (0, -1), (0, 1)].map (gpost2 T g c) := by
  have hg' : (1 : ℤ) ≤ g := by exact_mod_cast hg
  have hny : (0 : ℤ) ≤ T.ny := Int.natCast_nonneg _
  have hnx : (0 : ℤ) ≤ T.nx := Int.natCast_nonneg _
  have m1 : (0 : ℤ) ≤ T.ny * T.nx := mul_nonneg hny hnx
  have m2 : (0 : ℤ) ≤ T.ny * g := mul_nonneg hny (by omega)
  have m3 : (0 : ℤ) ≤ (g : ℤ) * T.nx := mul_nonneg (by omega) hnx
  have m4 : (g : ℤ) ≤ g * g := by nlinarith
  simp only [edgePosts2, List.map_cons, List.map_nil, rowBuf, colBuf]
  rw [prevY2_eq hc, nextY2_eq hc, prevX2_eq hc, nextX2_eq hc]
  have e1 : pyStart (rows2 T g * cols2 T g) (g * cols2 T g + g) = g * cols2 T g + g := by
    apply pyStart_nonneg <;> (try simp only [cols2, rows2])
    · nlinarith
    · nlinarith
  have e2 : pyStart (rows2 T g * cols2 T g) (-(g * cols2 T g) + g) = (g + T.ny) * cols2 T g + g := by
    rw [pyStart_neg] <;> (try simp only [cols2, rows2])
    · ring
    · nlinarith
    · nlinarith
  have e3 : pyStart (rows2 T g * cols2 T g) (-2 * (g * cols2 T g) + g) = T.ny * cols2 T g + g := by
    rw [pyStart_neg] <;> (try simp only [cols2, rows2])
    · ring
    · nlinarith
    · nlinarith
  have e4 : pyStart (rows2 T g * cols2 T g) g = 0 * cols2 T g + g := by
    rw [pyStart_nonneg] <;> (try simp only [cols2, rows2])
    · ring
    · omega
    · nlinarith
  have e5 : pyStart (rows2 T g * cols2 T g) (g * cols2 T g + cols2 T g - g) = g * cols2 T g + (g + T.nx) := by
    rw [pyStart_nonneg] <;> (try simp only [cols2, rows2])
    · ring
    · nlinarith
    · nlinarith
  have e6 : pyStart (rows2 T g * cols2 T g) (g * cols2 T g + cols2 T g - 2 * g) = g * cols2 T g + T.nx := by
    rw [pyStart_nonneg] <;> (try simp only [cols2, rows2])
    · ring
    · nlinarith
    · nlinarith
  have e7 : pyStart (rows2 T g * cols2 T g) (g * cols2 T g) = g * cols2 T g + 0 := by
    rw [pyStart_nonneg] <;> (try simp only [cols2, rows2])
    · ring
    · nlinarith
    · nlinarith
  rw [bufIx_eq e1, bufIx_eq e1, bufIx_eq e2, bufIx_eq e3, bufIx_eq e4, bufIx_eq e5, bufIx_eq e6, bufIx_eq e7]
  simp only [gpost2, axSend, axRecv, axCnt]
  norm_num

theorem vertexPosts2_eq (c : C2) :
    vertexPosts2 T g c = [(-1, -1), (1, 1), (-1, 1), (1, -1)].map (gpost2 T g c) := by
  have hg' : (1 : ℤ) ≤ g := by exact_mod_cast hg
  have hny : (0 : ℤ) ≤ T.ny := Int.natCast_nonneg _
  have hnx : (0 : ℤ) ≤ T.nx := Int.natCast_nonneg _
  have m1 : (0 : ℤ) ≤ T.ny * T.nx := mul_nonneg hny hnx
  have m2 : (0 : ℤ) ≤ T.ny * g := mul_nonneg hny (by omega)
  have m3 : (0 : ℤ) ≤ (g : ℤ) * T.nx := mul_nonneg (by omega) hnx
  have m3' : (0 : ℤ) ≤ ((g : ℤ) - 1) * T.nx := mul_nonneg (by omega) hnx
  have m4 : (g : ℤ) ≤ g * g := by nlinarith
  simp only [vertexPosts2, List.map_cons, List.map_nil, cornerBuf, diag2_eq]
  have e1 : pyStart (rows2 T g * cols2 T g) (g * cols2 T g + g) = g * cols2 T g + g := by
    apply pyStart_nonneg <;> (try simp only [cols2, rows2])
    · nlinarith
    · nlinarith
  have e2 : pyStart (rows2 T g * cols2 T g) (-(g - 1) * cols2 T g - g) = (g + T.ny) * cols2 T g + (g + T.nx) := by
    rw [pyStart_neg] <;> (try simp only [cols2, rows2])
    · ring
    · nlinarith
    · nlinarith
  have e3 : pyStart (rows2 T g * cols2 T g) (-(2 * g - 1) * cols2 T g - 2 * g) = T.ny * cols2 T g + T.nx := by
    rw [pyStart_neg] <;> (try simp only [cols2, rows2])
    · ring
    · nlinarith
    · nlinarith
  have e4 : pyStart (rows2 T g * cols2 T g) 0 = 0 * cols2 T g + 0 := by
    rw [pyStart_nonneg] <;> (try simp only [cols2, rows2])
    · ring
    · omega
    · nlinarith
  have e5 : pyStart (rows2 T g * cols2 T g) (g * cols2 T g + cols2 T g - 2 * g) = g * cols2 T g + T.nx := by
    rw [pyStart_nonneg] <;> (try simp only [cols2, rows2])
    · ring
    · nlinarith
    · nlinarith
  have e6 : pyStart (rows2 T g * cols2 T g) (-(g * cols2 T g)) = (g + T.ny) * cols2 T g + 0 := by
    rw [pyStart_neg] <;> (try simp only [cols2, rows2])
    · ring
    · nlinarith
    · nlinarith
  have e7 : pyStart (rows2 T g * cols2 T g) (-2 * (g * cols2 T g) + g) = T.ny * cols2 T g + g := by
    rw [pyStart_neg] <;> (try simp only [cols2, rows2])
    · ring
    · nlinarith
    · nlinarith
  have e8 : pyStart (rows2 T g * cols2 T g) (cols2 T g - g) = 0 * cols2 T g + (g + T.nx) := by
    rw [pyStart_nonneg] <;> (try simp only [cols2, rows2])
    · ring
    · nlinarith
    · nlinarith
  rw [bufIx_eq e1, bufIx_eq e2, bufIx_eq e3, bufIx_eq e4, bufIx_eq e5, bufIx_eq e6, bufIx_eq e7, bufIx_eq e8]
  simp only [gpost2, axSend, axRecv, axCnt]
  norm_num

theorem posts2_eq (full : Bool) {c : C2} (hc : Valid2 T c) :
    posts2 T g full c = (dirs2 full).map (gpost2 T g c) := by
  unfold posts2 dirs2
  cases full
  · simp only [Bool.false_eq_true, if_false]
    exact edgePosts2_eq hg hc
  · simp only [if_true]
    rw [edgePosts2_eq hg hc, vertexPosts2_eq hg c, ← List.map_append]
    rfl

end

theorem dirs2_spec {full : Bool} {s : C2} :
    s ∈ dirs2 full ↔ Dir1 s.1 ∧ Dir1 s.2 ∧ s ≠ (0, 0) ∧ (full = false → s.1 = 0 ∨ s.2 = 0) := by
  obtain ⟨a, b⟩ := s
  unfold dirs2 Dir1
  cases full
  · simp only [Bool.false_eq_true, if_false, List.mem_cons, Prod.mk.injEq, List.not_mem_nil, or_false, ne_eq,
      forall_const]
    omega
  · simp only [if_true, List.mem_cons, Prod.mk.injEq, List.not_mem_nil, or_false, ne_eq,
      Bool.true_eq_false, false_imp_iff, and_true]
    omega

theorem matched_congr {R ι : Type} [DecidableEq R] {p q : R → List (Post R ι)} {s r : R}
    (hs : p s = q s) (hr : p r = q r) : matched p s r = matched q s r := by
  unfold matched sendsTo recvsOf; rw [hs, hr]

theorem allMsgs_congr {R ι : Type} [DecidableEq R] {ranks : List R} {p q : R → List (Post R ι)}
    (h : ∀ r ∈ ranks, p r = q r) : allMsgs ranks p = allMsgs ranks q := by
  unfold allMsgs
  apply List.flatMap_congr
  intro s hs
  apply List.flatMap_congr
  intro r hr
  exact matched_congr (h s hs) (h r hr)

theorem allMatched_congr {R ι : Type} [DecidableEq R] {ranks : List R} {p q : R → List (Post R ι)}
    (h : ∀ r ∈ ranks, p r = q r) (hq : AllMatched ranks q) : AllMatched ranks p := by
  refine ⟨?_, ?_⟩
  · intro s hs x hx
    rw [h s hs] at hx
    exact hq.1 s hs x hx
  · intro s hs r hr
    have := hq.2 s hs r hr
    unfold sendsTo recvsOf at *
    rw [h s hs, h r hr]; exact this

theorem gpost2_mirror {T : Cart2} {g : ℕ} {s r k : C2} (hs : Valid2 T s) (hr : Valid2 T r) :
    (gpost2 T g s k).sendTo = some r ↔ (gpost2 T g r k).recvFrom = some s := by
  exact nbr2_symm hs hr

theorem mem_ghostMsgs2 {T : Cart2} {g : ℕ} (hg : 1 ≤ g) {full : Bool} {m : Msg C2 ℤ} :
    m ∈ ghostMsgs2 T g full ↔ ∃ s r k, Valid2 T s ∧ Valid2 T r ∧ k ∈ dirs2 full ∧ nbr2 T s k = some r ∧
      m = ⟨s, r, (gpost2 T g s k).sendIx, (gpost2 T g r k).recvIx⟩ := by
  unfold ghostMsgs2
  rw [allMsgs_congr (q := fun c => (dirs2 full).map (gpost2 T g c))
    (fun r hr => posts2_eq hg full (mem_ranks2.1 hr))]
  rw [mem_allMsgs_spmd (ranks2 T) (dirs2 full) (gpost2 T g)
    (fun s hs r hr k _ => gpost2_mirror (mem_ranks2.1 hs) (mem_ranks2.1 hr))]
  constructor
  · rintro ⟨s, hs, r, hr, k, hk, h, rfl⟩
    exact ⟨s, r, k, mem_ranks2.1 hs, mem_ranks2.1 hr, hk, h, rfl⟩
  · rintro ⟨s, r, k, hs, hr, hk, h, rfl⟩
    exact ⟨s, mem_ranks2.2 hs, r, mem_ranks2.2 hr, k, hk, h, rfl⟩

theorem flat2_div {T : Cart2} {g : ℕ} {p : C2} (h0 : 0 ≤ p.2) (h1 : p.2 < cols2 T g) :
    flat2 T g p / cols2 T g = p.1 ∧ flat2 T g p % cols2 T g = p.2 := by
  have hp : 0 < cols2 T g := by omega
  unfold flat2
  constructor
  · rw [add_comm, Int.add_mul_ediv_right _ _ hp.ne', Int.ediv_eq_zero_of_lt h0 h1]; omega
  · rw [add_comm, Int.add_mul_emod_self_right, Int.emod_eq_of_lt h0 h1]

theorem flat2_inj {T : Cart2} {g : ℕ} {p q : C2} (h0 : 0 ≤ p.2) (h1 : p.2 < cols2 T g)
    (h2 : 0 ≤ q.2) (h3 : q.2 < cols2 T g) (h : flat2 T g p = flat2 T g q) : p = q := by
  have a := flat2_div h0 h1
  have b := flat2_div h2 h3
  rw [h] at a
  exact Prod.ext (a.1.symm.trans b.1) (a.2.symm.trans b.2)

/-- view a raveled array as a 2D array -/
def as2D {α : Type} (T : Cart2) (g : ℕ) (A : ℤ → α) (p : C2) : α := A (flat2 T g p)

open Classical in
/-- the final arrays, raveled -/
noncomputable def haloFlat {α : Type} (T : Cart2) (g : ℕ) (full : Bool) (w : World C2 ℤ α) : World C2 ℤ α :=
  fun c i =>
    if Valid2 T c ∧ 0 ≤ i ∧ i < rows2 T g * cols2 T g then
      halo2 T g full (fun d => as2D T g (w d)) c (i / cols2 T g, i % cols2 T g)
    else w c i

theorem haloFlat_at {α : Type} {T : Cart2} {g : ℕ} {full : Bool} {w : World C2 ℤ α} {c p : C2}
    (hc : Valid2 T c) (hp : InArr2 T g p) :
    haloFlat T g full w c (flat2 T g p) = halo2 T g full (fun d => as2D T g (w d)) c p := by
  obtain ⟨a1, a2, a3, a4⟩ := hp
  have hw : p.2 < cols2 T g := a4
  have hd := flat2_div (T := T) (g := g) a3 hw
  have hr : 0 ≤ flat2 T g p ∧ flat2 T g p < rows2 T g * cols2 T g := by
    have hh : p.1 < rows2 T g := a2
    unfold flat2
    constructor <;> nlinarith
  unfold haloFlat
  rw [if_pos ⟨hc, hr.1, hr.2⟩, hd.1, hd.2]

theorem ghost2_exchSpec {α : Type} {T : Cart2} {g : ℕ} (hg : 1 ≤ g) (hy : g ≤ T.ny) (hx : g ≤ T.nx)
    (full : Bool) (w : World C2 ℤ α) :
    ExchSpec (ghostMsgs2 T g full) w (haloFlat T g full w) := by
  refine ⟨?_, ?_, ?_, ?_⟩
  · intro m hm
    rw [mem_ghostMsgs2 hg] at hm
    obtain ⟨s, r, k, -, -, -, -, rfl⟩ := hm
    simp [gpost2]
  · intro m hm p hp
    rw [mem_ghostMsgs2 hg] at hm
    obtain ⟨s, r, k, hs, hr, hk, hnb, rfl⟩ := hm
    simp only [gpost2] at hp
    rw [List.zip_map', List.mem_map] at hp
    obtain ⟨q, hq, rfl⟩ := hp
    rw [mem_rect] at hq
    rw [dirs2_spec] at hk
    obtain ⟨k1, k2, k3, k4⟩ := hk
    have ry := axRecv_range k1 hq.1 hq.2.1
    have rx := axRecv_range k2 hq.2.2.1 hq.2.2.2
    have zy := axRecv_zone k1 hq.1 hq.2.1
    have zx := axRecv_zone k2 hq.2.2.1 hq.2.2.2
    simp only
    rw [haloFlat_at hr ⟨ry.1, ry.2, rx.1, rx.2⟩]
    unfold halo2
    simp only [zy, zx]
    rw [if_neg]
    · rw [nbr2_symm hs hr] at hnb
      rw [hnb]
      simp only [as2D]
      rw [axSend_eq k1, axSend_eq k2]
      congr 2
      refine Prod.ext ?_ ?_ <;> simp only <;> ring
    · rintro (h | ⟨h1, h2, h3⟩)
      · apply k3
        simp only [Prod.mk.injEq, neg_eq_zero] at h
        exact Prod.ext h.1 h.2
      · rcases k4 h1 with h | h
        · apply h2; rw [h]; rfl
        · apply h3; rw [h]; rfl
  · intro r i hno
    by_cases hc : Valid2 T r ∧ 0 ≤ i ∧ i < rows2 T g * cols2 T g
    · obtain ⟨hr, h0, h1⟩ := hc
      have hcp : 0 < cols2 T g := by unfold cols2; omega
      have e := Int.mul_ediv_add_emod i (cols2 T g)
      have m0 := Int.emod_nonneg i hcp.ne'
      have m1 := Int.emod_lt_of_pos i hcp
      have d0 := Int.ediv_nonneg h0 hcp.le
      have d1 : i / cols2 T g < rows2 T g := Int.ediv_lt_of_lt_mul hcp h1
      set p : C2 := (i / cols2 T g, i % cols2 T g) with hp
      have hi : i = flat2 T g p := by
        unfold flat2; rw [hp]; simp only; rw [mul_comm]; omega
      have hin : InArr2 T g p := ⟨d0, d1, m0, m1⟩
      rw [hi, haloFlat_at hr hin]
      unfold halo2
      simp only
      split
      · rfl
      · rename_i hcond
        cases hn : nbr2 T r (zone g T.ny p.1, zone g T.nx p.2) with
        | none => rfl
        | some d =>
          exfalso
          have hd : Valid2 T d := nbr2_valid hr.pos.1 hr.pos.2 hn
          have hn' := (nbr2_symm hr hd).1 hn
          simp only [not_or, not_and, ne_eq] at hcond
          have z1 := zone_dir g T.ny p.1
          have z2 := zone_dir g T.nx p.2
          have c1 := axRecv_cover (g := g) (n := T.ny) hin.1 hin.2.1
          have c2 := axRecv_cover (g := g) (n := T.nx) hin.2.2.1 hin.2.2.2
          have hk : ((-zone g T.ny p.1, -zone g T.nx p.2) : C2) ∈ dirs2 full := by
            rw [dirs2_spec]
            unfold Dir1 at *
            refine ⟨by simp only; omega, by simp only; omega, ?_, ?_⟩
            · intro h
              apply hcond.1
              simp only [Prod.mk.injEq, neg_eq_zero] at h
              exact Prod.ext h.1 h.2
            · intro hf
              have := hcond.2 hf
              by_cases h : zone g T.ny p.1 = 0
              · left; simp [h]
              · right
                have := this h
                simp only [not_not] at this
                simp [this]
          refine hno _ ((mem_ghostMsgs2 hg).2 ⟨d, r, _, hd, hr, hk, hn', rfl⟩) rfl ?_
          simp only [gpost2, List.mem_map]
          refine ⟨(p.1 - axRecv T.ny g (-zone g T.ny p.1), p.2 - axRecv T.nx g (-zone g T.nx p.2)), ?_, ?_⟩
          · rw [mem_rect]
            exact ⟨c1.1, c1.2, c2.1, c2.2⟩
          · rw [hi]
            congr 1
            refine Prod.ext ?_ ?_ <;> simp only <;> ring
    · unfold haloFlat
      rw [if_neg hc]
  · intro m hm i hi m' hm' hd hi'
    rw [mem_ghostMsgs2 hg] at hm hm'
    obtain ⟨s, r, k, hs, hr, hk, hnb, rfl⟩ := hm
    obtain ⟨s', r', k', hs', hr', hk', hnb', rfl⟩ := hm'
    simp only [gpost2, List.mem_map] at hi hi'
    obtain ⟨q, hq, rfl⟩ := hi
    obtain ⟨q', hq', he⟩ := hi'
    rw [mem_rect] at hq hq'
    rw [dirs2_spec] at hk hk'
    obtain ⟨k1, k2, k3, k4⟩ := hk
    obtain ⟨k1', k2', k3', k4'⟩ := hk'
    have sx := axSend_range k2 hq.2.2.1 hq.2.2.2
    have rx := axRecv_range k2' hq'.2.2.1 hq'.2.2.2
    have := flat2_inj (T := T) (g := g) rx.1 rx.2 sx.1 sx.2 he
    simp only [Prod.mk.injEq] at this
    have zy := axRecv_zone k1' hq'.1 hq'.2.1
    have zx := axRecv_zone k2' hq'.2.2.1 hq'.2.2.2
    rw [this.1, axSend_zone hy k1 hq.1 hq.2.1] at zy
    rw [this.2, axSend_zone hx k2 hq.2.2.1 hq.2.2.2] at zx
    apply k3'
    exact Prod.ext (by simp only; omega) (by simp only; omega)

end Sopht
