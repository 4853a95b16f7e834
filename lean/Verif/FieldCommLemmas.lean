import Verif.FieldComm
import Verif.Ghost3DLemmas
import Verif.CartProps

/-! Helper lemmas for scatter and gather. -/

namespace Sopht

theorem pyStart_id {size : ℕ} {a : ℤ} (h0 : 0 ≤ a) (h1 : a ≤ size) : pyStart size a = a := by
  unfold pyStart; rw [if_neg (by omega)]; omega

theorem innerAxis_eq (g n : ℕ) : innerAxis g n = (irange n).map fun k => (g : ℤ) + k := by
  unfold innerAxis
  split
  · rename_i h; subst h; simp
  · rename_i h
    unfold pySlice
    have h1 : pyStart ((n + 2 * g : ℕ) : ℤ) (g : ℤ) = g := pyStart_id (by omega) (by push_cast; omega)
    have h2 : pyStart ((n + 2 * g : ℕ) : ℤ) (-(g : ℤ)) = n + g := by
      unfold pyStart; rw [if_pos (by omega)]; push_cast; omega
    rw [h1, h2]
    congr 2
    omega

theorem pySlice_chunk {G P n : ℕ} {c : ℤ} (hG : P * n = G) (h0 : 0 ≤ c) (h1 : c < P) :
    pySlice G (c * n) ((c + 1) * n) = (irange n).map fun k => c * n + k := by
  have hn : (0 : ℤ) ≤ n := Int.natCast_nonneg _
  have hG' : (P : ℤ) * n = G := by exact_mod_cast hG
  unfold pySlice
  rw [pyStart_id (by nlinarith) (by nlinarith), pyStart_id (by nlinarith) (by nlinarith)]
  congr 2
  have : (c + 1) * (n : ℤ) - c * n = n := by ring
  rw [this]; simp

section Generic
variable {ι α R : Type} [DecidableEq ι] [DecidableEq R]

/-- a sequence of writes all of which agree with a target -/
theorem foldl_unpack_agree {β : Type} (order : List β) (ix : β → List ι) (vals : β → List α) (A F : ι → α)
    (hl : ∀ r ∈ order, (ix r).length = (vals r).length)
    (hF : ∀ r ∈ order, ∀ p ∈ (ix r).zip (vals r), F p.1 = p.2) (i : ι)
    (hi : (∃ r ∈ order, i ∈ ix r) ∨ A i = F i) :
    order.foldl (fun A r => unpack A (ix r) (vals r)) A i = F i := by
  induction order generalizing A with
  | nil =>
    rcases hi with ⟨r, hr, -⟩ | h
    · cases hr
    · exact h
  | cons a t ih =>
    rw [List.foldl_cons]
    refine ih _ (fun r hr => hl r (by simp [hr])) (fun r hr => hF r (by simp [hr])) ?_
    by_cases hia : i ∈ ix a
    · right
      exact unpack_agree A F _ _ i (hl a (by simp)) (hF a (by simp)) hia
    · rcases hi with ⟨r, hr, hir⟩ | h
      · rcases List.mem_cons.1 hr with rfl | hr
        · exact absurd hir hia
        · exact Or.inl ⟨r, hr, hir⟩
      · right; rw [unpack_of_notMem _ _ _ _ hia]; exact h

/-- writes to different ranks do not interfere -/
theorem foldl_setRank (order : List R) (f : R → (ι → α) → (ι → α)) (w : World R ι α) (hn : order.Nodup) (r : R) :
    order.foldl (fun w r => setRank w r (f r (w r))) w r = if r ∈ order then f r (w r) else w r := by
  induction order generalizing w with
  | nil => simp
  | cons a t ih =>
    rw [List.foldl_cons, ih _ (List.nodup_cons.1 hn).2]
    have ha := (List.nodup_cons.1 hn).1
    by_cases hra : r = a
    · subst hra
      simp [ha, setRank]
    · simp [setRank, Function.update, hra]

end Generic

section D2
variable {T : Cart2} {g : ℕ}

theorem innerIx2_eq : innerIx2 T g = (rect T.ny T.nx).map fun p => flat2 T g (g + p.1, g + p.2) := by
  unfold innerIx2 rect
  rw [innerAxis_eq, innerAxis_eq, List.map_flatMap, List.flatMap_map]
  congr 1; funext a
  rw [List.map_map, List.map_map]; rfl

theorem slaveBuf2_eq : slaveBuf2 T g = (rect T.ny T.nx).map fun p => flat2 T g (g + p.1, g + p.2) := by
  unfold slaveBuf2 subFlat2 rect
  rw [List.map_flatMap]
  congr 1; funext a
  rw [List.map_map]; rfl

theorem chunkIx2_eq {c : C2} (hY : T.py * T.ny = T.gy) (hX : T.px * T.nx = T.gx) (hc : Valid2 T c) :
    chunkIx2 T c = (rect T.ny T.nx).map fun p => gflat2 T (c.1 * T.ny + p.1, c.2 * T.nx + p.2) := by
  unfold chunkIx2 rect
  rw [pySlice_chunk hY hc.1 hc.2.1, pySlice_chunk hX hc.2.2.1 hc.2.2.2, List.map_flatMap, List.flatMap_map]
  congr 1; funext a
  rw [List.map_map, List.map_map]; rfl

theorem masterBuf2_eq {c : C2} (hY : T.py * T.ny = T.gy) (hX : T.px * T.nx = T.gx) (hc : Valid2 T c) :
    masterBuf2 T c = (rect T.ny T.nx).map fun p => gflat2 T (c.1 * T.ny + p.1, c.2 * T.nx + p.2) := by
  obtain ⟨h1, h2, h3, h4⟩ := hc
  have hY' : (T.py : ℤ) * T.ny = T.gy := by exact_mod_cast hY
  have hX' : (T.px : ℤ) * T.nx = T.gx := by exact_mod_cast hX
  have hny : (0 : ℤ) ≤ T.ny := Int.natCast_nonneg _
  have hnx : (0 : ℤ) ≤ T.nx := Int.natCast_nonneg _
  have hgx : (0 : ℤ) ≤ T.gx := Int.natCast_nonneg _
  have a0 : 0 ≤ c.1 * T.ny := mul_nonneg h1 hny
  have a1 : c.1 * T.ny + T.ny ≤ T.gy := by nlinarith
  have b0 : 0 ≤ c.2 * T.nx := mul_nonneg h3 hnx
  have b1 : c.2 * T.nx + T.nx ≤ T.gx := by nlinarith
  rcases Nat.eq_zero_or_pos T.ny with hz | hpos
  · simp [masterBuf2, subFlat2, rect, hz, irange]
  have hp : pyStart ((T.gy * T.gx : ℕ) : ℤ) (c.1 * T.ny * T.gx + c.2 * T.nx) = c.1 * T.ny * T.gx + c.2 * T.nx := by
    apply pyStart_id
    · exact add_nonneg (mul_nonneg a0 hgx) b0
    · push_cast
      have : c.1 * T.ny + 1 ≤ T.gy := by omega
      nlinarith
  unfold masterBuf2 subFlat2 rect
  rw [hp, List.map_flatMap, List.map_flatMap]
  congr 1; funext a
  rw [List.map_map, List.map_map]
  apply List.map_congr_left
  intro b _
  simp only [Function.comp, gflat2]
  ring

end D2

section D3
variable {T : Cart3} {g : ℕ}

theorem innerIx3_eq : innerIx3 T g = (box T.nz T.ny T.nx).map fun p => ((g : ℤ) + p.1, (g : ℤ) + p.2.1, (g : ℤ) + p.2.2) := by
  unfold innerIx3 box
  simp only [innerAxis_eq, List.map_flatMap, List.flatMap_map, List.map_map]
  rfl

theorem slaveBuf3_eq : slaveBuf3 T g = (box T.nz T.ny T.nx).map fun p => ((g : ℤ) + p.1, (g : ℤ) + p.2.1, (g : ℤ) + p.2.2) := by
  unfold slaveBuf3
  rw [subIx_eq]

theorem chunkIx3_eq {c : C3} (hZ : T.pz * T.nz = T.gz) (hY : T.py * T.ny = T.gy) (hX : T.px * T.nx = T.gx)
    (hc : Valid3 T c) :
    chunkIx3 T c = (box T.nz T.ny T.nx).map fun p =>
      gflat3 T (c.1 * T.nz + p.1, c.2.1 * T.ny + p.2.1, c.2.2 * T.nx + p.2.2) := by
  unfold chunkIx3 box
  rw [pySlice_chunk hZ hc.1 hc.2.1, pySlice_chunk hY hc.2.2.1 hc.2.2.2.1, pySlice_chunk hX hc.2.2.2.2.1 hc.2.2.2.2.2]
  simp only [List.map_flatMap, List.flatMap_map, List.map_map]
  rfl

theorem masterBuf3_eq {c : C3} (hZ : T.pz * T.nz = T.gz) (hY : T.py * T.ny = T.gy) (hX : T.px * T.nx = T.gx)
    (hc : Valid3 T c) :
    masterBuf3 T c = (box T.nz T.ny T.nx).map fun p =>
      gflat3 T (c.1 * T.nz + p.1, c.2.1 * T.ny + p.2.1, c.2.2 * T.nx + p.2.2) := by
  obtain ⟨h1, h2, h3, h4, h5, h6⟩ := hc
  have hZ' : (T.pz : ℤ) * T.nz = T.gz := by exact_mod_cast hZ
  have hY' : (T.py : ℤ) * T.ny = T.gy := by exact_mod_cast hY
  have hX' : (T.px : ℤ) * T.nx = T.gx := by exact_mod_cast hX
  have hnz : (0 : ℤ) ≤ T.nz := Int.natCast_nonneg _
  have hny : (0 : ℤ) ≤ T.ny := Int.natCast_nonneg _
  have hnx : (0 : ℤ) ≤ T.nx := Int.natCast_nonneg _
  have hgy : (0 : ℤ) ≤ T.gy := Int.natCast_nonneg _
  have hgx : (0 : ℤ) ≤ T.gx := Int.natCast_nonneg _
  have a0 : 0 ≤ c.1 * T.nz := mul_nonneg h1 hnz
  have a1 : c.1 * T.nz + T.nz ≤ T.gz := by nlinarith
  have b0 : 0 ≤ c.2.1 * T.ny := mul_nonneg h3 hny
  have b1 : c.2.1 * T.ny + T.ny ≤ T.gy := by nlinarith
  have d0 : 0 ≤ c.2.2 * T.nx := mul_nonneg h5 hnx
  have d1 : c.2.2 * T.nx + T.nx ≤ T.gx := by nlinarith
  rcases Nat.eq_zero_or_pos T.nz with hz | hpos
  · simp [masterBuf3, subIx, box, hz, irange]
  rcases Nat.eq_zero_or_pos T.ny with hz | hpos'
  · simp [masterBuf3, subIx, box, hz, irange]
  have hp : pyStart ((T.gz * T.gy * T.gx : ℕ) : ℤ) ((c.1 * T.nz * T.gy + c.2.1 * T.ny) * T.gx + c.2.2 * T.nx)
      = (c.1 * T.nz * T.gy + c.2.1 * T.ny) * T.gx + c.2.2 * T.nx := by
    have u0 : 0 ≤ c.1 * T.nz * T.gy + c.2.1 * T.ny := add_nonneg (mul_nonneg a0 hgy) b0
    have u1 : c.1 * T.nz * T.gy + c.2.1 * T.ny + 1 ≤ T.gz * T.gy := by
      have : c.1 * T.nz + 1 ≤ T.gz := by omega
      have : c.2.1 * T.ny + 1 ≤ T.gy := by omega
      nlinarith
    apply pyStart_id
    · exact add_nonneg (mul_nonneg u0 hgx) d0
    · push_cast
      nlinarith
  unfold masterBuf3
  rw [hp, subIx_eq, List.map_map]
  apply List.map_congr_left
  intro b _
  simp only [Function.comp, gflat3]
  ring

end D3
end Sopht
