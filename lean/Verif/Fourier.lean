import Mathlib.Analysis.SpecialFunctions.Complex.CircleAddChar
import Mathlib.NumberTheory.LegendreSymbol.AddCharacter
import Mathlib.Analysis.Complex.Basic
import Mathlib.Algebra.BigOperators.Ring.Finset

/-!
# Discrete Fourier transform

What `mpi4py_fft.PFFT` computes (trusted; `sopht_mpi/numeric/eulerian_grid_ops/poisson_solver_2d/fft_mpi_2d.py:33-47`,
`poisson_solver_3d/fft_mpi_3d.py`): the unnormalised forward transform and the normalised backward transform of the *global*
array, whatever the distribution over the ranks.  An `N × M` array is a function on `ZMod N × ZMod M`.
The real transforms store half of the spectrum only; here the full spectrum is kept (for real input the other half is its mirror
image), and the real backward transform is the real part of the complex one.

The convolution theorem is proved, not assumed.
-/

namespace Sopht

open Finset

/-- A family of characters `e k` of a finite group `A`, indexed by `A`: in one dimension
`e k x = exp (2 π i k x / N)` (`zmodKernel`). -/
structure FourierKernel (A : Type) [AddCommGroup A] [Fintype A] [DecidableEq A] where
  e : A → A → ℂ
  add : ∀ k x y, e k (x + y) = e k x * e k y
  orth : ∀ x, ∑ k, e k x = if x = 0 then (Fintype.card A : ℂ) else 0

section Generic
variable {A : Type} [AddCommGroup A] [Fintype A] [DecidableEq A] (K : FourierKernel A)

/-- `fft.forward(..., normalize=False)` (fft_mpi_2d.py:33-38). -/
noncomputable def dft (a : A → ℂ) (k : A) : ℂ := ∑ x, a x * K.e k (-x)

/-- `fft.backward(..., normalize=True)` (fft_mpi_2d.py:40-47). -/
noncomputable def idft (X : A → ℂ) (x : A) : ℂ := (∑ k, X k * K.e k x) / Fintype.card A

/-- Convolution theorem: transforming back the product of two spectra gives the circular convolution. -/
theorem idft_mul (a b : A → ℂ) (x : A) :
    idft K (fun k => dft K a k * dft K b k) x = ∑ y, a y * b (x - y) := by
  have hc : (Fintype.card A : ℂ) ≠ 0 := by
    have : 0 < Fintype.card A := Fintype.card_pos_iff.2 ⟨0⟩
    exact_mod_cast this.ne'
  unfold idft
  rw [div_eq_iff hc]
  have h1 : ∀ k, dft K a k * dft K b k * K.e k x = ∑ y, ∑ z, a y * b z * K.e k (x - y - z) := by
    intro k
    unfold dft
    rw [sum_mul_sum, sum_mul]
    refine sum_congr rfl fun y _ => ?_
    rw [sum_mul]
    refine sum_congr rfl fun z _ => ?_
    have : x - y - z = -y + (-z + x) := by abel
    rw [this, K.add, K.add]
    ring
  simp only [h1]
  rw [sum_comm, sum_mul]
  refine sum_congr rfl fun y _ => ?_
  rw [sum_comm]
  have h2 : ∀ z, ∑ k, a y * b z * K.e k (x - y - z) = if z = x - y then a y * b z * Fintype.card A else 0 := by
    intro z
    rw [← mul_sum, K.orth]
    by_cases h : z = x - y
    · subst h; simp
    · rw [if_neg h, if_neg (fun e => h (sub_eq_zero.1 e).symm), mul_zero]
  simp only [h2]
  rw [sum_ite_eq' univ (x - y)]
  simp

/-- The inverse transform undoes the transform. -/
theorem idft_dft (a : A → ℂ) (x : A) : idft K (dft K a) x = a x := by
  have hc : (Fintype.card A : ℂ) ≠ 0 := by
    have : 0 < Fintype.card A := Fintype.card_pos_iff.2 ⟨0⟩
    exact_mod_cast this.ne'
  unfold idft
  rw [div_eq_iff hc]
  have h1 : ∀ k, dft K a k * K.e k x = ∑ y, a y * K.e k (x - y) := by
    intro k
    unfold dft
    rw [sum_mul]
    refine sum_congr rfl fun y _ => ?_
    have : x - y = -y + x := by abel
    rw [this, K.add]; ring
  simp only [h1]
  rw [sum_comm]
  have h2 : ∀ y, ∑ k, a y * K.e k (x - y) = if y = x then a y * Fintype.card A else 0 := by
    intro y
    rw [← mul_sum, K.orth]
    by_cases h : y = x
    · subst h; simp
    · rw [if_neg h, if_neg (fun e => h (sub_eq_zero.1 e).symm), mul_zero]
  simp only [h2]
  rw [sum_ite_eq' univ x]
  simp

end Generic

/-- One dimension: `e k x = exp (2 π i k x / N)` (see `zmodKernel_e`). -/
noncomputable def zmodKernel (N : ℕ) [NeZero N] : FourierKernel (ZMod N) where
  e k x := ZMod.stdAddChar (k * x)
  add k x y := by rw [mul_add, AddChar.map_add_eq_mul]
  orth x := by
    have := AddChar.sum_mulShift x (ZMod.isPrimitive_stdAddChar N)
    rw [this, ZMod.card]
    split <;> simp

theorem zmodKernel_e (N : ℕ) [NeZero N] (k x : ℤ) :
    (zmodKernel N).e k x = Complex.exp (2 * Real.pi * Complex.I * (k * x : ℤ) / N) := by
  show ZMod.stdAddChar ((k : ZMod N) * (x : ZMod N)) = _
  rw [← Int.cast_mul, ZMod.stdAddChar_coe]

/-- The transform of a two-dimensional array is taken along both axes. -/
noncomputable def FourierKernel.prod {A B : Type} [AddCommGroup A] [Fintype A] [DecidableEq A] [AddCommGroup B] [Fintype B]
    [DecidableEq B] (K : FourierKernel A) (L : FourierKernel B) : FourierKernel (A × B) where
  e k x := K.e k.1 x.1 * L.e k.2 x.2
  add k x y := by simp only [Prod.fst_add, Prod.snd_add, K.add, L.add]; ring
  orth x := by
    rw [Fintype.sum_prod_type]
    simp only [← mul_sum, ← sum_mul]
    rw [K.orth, L.orth]
    by_cases h1 : x.1 = 0 <;> by_cases h2 : x.2 = 0 <;> simp [h1, h2, Prod.ext_iff, Fintype.card_prod]

/-- Summing over `ZMod N` is summing over the indices `0, …, N - 1`. -/
theorem sum_zmod {M : Type} [AddCommMonoid M] (N : ℕ) [NeZero N] (f : ZMod N → M) :
    ∑ x, f x = ∑ i ∈ range N, f (i : ZMod N) := by
  refine Finset.sum_nbij' (fun x => x.val) (fun i => (i : ZMod N)) ?_ ?_ ?_ ?_ ?_
  · intro x _; rw [mem_range]; exact ZMod.val_lt x
  · intro i _; exact mem_univ _
  · intro x _; exact ZMod.natCast_zmod_val x
  · intro i hi; exact ZMod.val_cast_of_lt (mem_range.1 hi)
  · intro x _; rw [ZMod.natCast_zmod_val]

end Sopht
