import Verif.IOEul
import Verif.CartProps
import Mathlib.Tactic.NormNum

/-!
# C47: Eulerian checkpoints

`eul_roundtrip2`, `eul_roundtrip3`: save on one decomposition, load on the same or on any other decomposition (other number of
ranks, other ghost size) of the same global grid.
-/

namespace Sopht

section
variable {R I α τ : Type} [DecidableEq I]

theorem allclose_self (l : List ℚ) : allclose l l = true := by
  unfold allclose
  simp only [decide_eq_true_eq]
  refine ⟨trivial, ?_⟩
  rw [List.all_eq_true]
  intro x hx
  rw [List.zip_eq_zipWith, List.zipWith_self, List.mem_map] at hx
  obtain ⟨a, _, rfl⟩ := hx
  simp only [sub_self, abs_zero, decide_eq_true_eq]
  positivity

/-- Generic form of the round trip. -/
theorem eul_roundtrip [Zero α] {geo geo' : IOGeo R I} {gix gix' : R → I → I} {gs : List ℕ} (hg : GeoOK geo gix gs)
    (hg' : GeoOK geo' gix' gs) (hin : geo'.inShape = geo.inShape) (hdim : geo'.dim = geo.dim)
    {origin dx : List ℚ} {fields fields' : List (String × ℕ)}
    (hn : (fields.map Prod.fst).Nodup) (hn' : (fields'.map Prod.fst).Nodup) (hr' : (fields'.map Prod.snd).Nodup)
    {hreg hreg' h h' : Heap R I α}
    {io io' : MPIIO}
    (hadd : addEulerian geo hreg (defineEulerianGrid {} origin dx gs) fields = (io, .ok ()))
    (hadd' : addEulerian geo' hreg' (defineEulerianGrid {} origin dx gs) fields' = (io', .ok ()))
    (hsub : ∀ x' ∈ fields', ∃ x ∈ fields, x.1 = x'.1 ∧
      ((hreg.eul x.2).shape = geo.localShape ↔ (hreg'.eul x'.2).shape = geo'.localShape))
    (F : String → ℕ → I → α)
    (hF : ∀ x ∈ fields, ∀ k < ncomp geo (hreg.eul x.2), ∀ c ∈ geo.ranks, ∀ p ∈ geo.innerSel,
      (h.eul x.2).comp k c p = F x.1 k (gix c p))
    {order : String → List R} (ho : ∀ s c, c ∈ order s ↔ c ∈ geo.ranks) (t : τ) :
    ∃ file, save geo order h io t = .ok file ∧ ∃ h'', load geo' file io' h' = (h'', .ok t) ∧ h''.lag = h'.lag ∧
      (∀ r, r ∉ fields'.map Prod.snd → h''.eul r = h'.eul r) ∧
      ∀ x ∈ fields', ∀ k < ncomp geo' (hreg'.eul x.2),
        Loaded geo' gix' (F x.1 k) ((h'.eul x.2).comp k) ((h''.eul x.2).comp k) := by
  obtain ⟨a1, a2, a3, a4, a5, a6, a7, a8, a9, _, _, _⟩ := addEulerian_ok fields hn (by simp [defineEulerianGrid]) hadd
  obtain ⟨b1, b2, b3, b4, b5, b6, b7, b8, b9, _, _, _⟩ := addEulerian_ok fields' hn' (by simp [defineEulerianGrid]) hadd'
  simp only [defineEulerianGrid, List.nil_append] at a1 a4 a5 a6 a7 a8 a9 b1 b4 b5 b6 b7 b8 b9
  -- the saved file
  obtain ⟨grp, g1, g2, g3⟩ := saveEulFields_ok (geo := geo) (gix := gix) (io := io) (by rw [a6]; exact hg) ho
    (h := h) (F := F) fields hn (by
      intro x hx
      refine ⟨_, a2 x hx, ?_⟩
      intro k hk
      apply hF x hx k
      unfold ncomp
      split
      · rename_i c; rw [if_pos c] at hk; exact hk
      · rename_i c; rw [if_neg c] at hk; exact hk)
    ⟨[], [], io.origin, io.dx, io.gridSize⟩ (by simp [dget]) (by simp [dget])
  by_cases hempty : fields = []
  · -- no field saved, hence none loaded
    have h0 : fields' = [] := by
      rcases fields' with _ | ⟨x, l⟩
      · rfl
      · obtain ⟨y, hy, _⟩ := hsub x List.mem_cons_self
        subst hempty; cases hy
    refine ⟨⟨t, none, []⟩, ?_, h', ?_, rfl, fun _ _ => rfl, by simp [h0]⟩
    · unfold save
      simp [a1, a9, hempty, saveLagGrids, bind, Except.bind, pure, Except.pure]
    · unfold load
      simp [b1, b8, h0]
  · have hst : ∀ x ∈ fields', ∃ ty, dget io'.eulTypes x.1 = some ty ∧ Stored geo' gs grp (F x.1) x.1 ty := by
      intro x' hx'
      obtain ⟨x, hx, e1, e2⟩ := hsub x' hx'
      refine ⟨_, b2 x' hx', ?_⟩
      have := g3 x hx _ (a2 x hx)
      rw [a6, e1] at this
      by_cases c : (hreg.eul x.2).shape = geo.localShape
      · rw [if_pos c] at this; rw [if_pos (e2.1 c)]
        obtain ⟨d, d1, d2, d3⟩ := this
        exact ⟨d, d1, d2, by rw [hin]; exact d3⟩
      · rw [if_neg c] at this; rw [if_neg (fun hc => c (e2.2 hc))]
        intro k hk
        obtain ⟨d, d1, d2, d3⟩ := this k (by rw [← hdim]; exact hk)
        exact ⟨d, d1, d2, by rw [hin]; exact d3⟩
    obtain ⟨h'', l1, l2, l3, l4, l5⟩ := loadEulFields_ok hg' (io := io') (F := F) fields' hr' hst h'
    refine ⟨⟨t, some grp, []⟩, ?_, h'', ?_, l2, l4, ?_⟩
    · unfold save
      rw [a1, a9]
      simp [a7, hempty, g1, saveLagGrids, bind, Except.bind, pure, Except.pure]
    · obtain ⟨_, _, p1, p2, p3⟩ := g2
      simp only at p1 p2 p3
      unfold load
      by_cases h0 : fields' = []
      · subst h0
        simp only [loadEulFields, Prod.mk.injEq, and_true] at l1
        subst l1
        simp [b1, b8]
      · simp only [b1, b7, b8, h0, if_false, l1, Bool.true_eq_false, if_true]
        rw [p1, p2, p3, a4, a5, a6, b4, b5, b6]
        simp [allclose_self]
    · intro x hx k hk
      refine (l5 x hx _ (b2 x hx)).1 k ?_
      unfold ncomp at hk
      split at hk
      · rename_i c; rw [if_pos c]; exact hk
      · rename_i c; rw [if_neg c]; exact hk

end

/-! ## 2D -/

section
variable {α τ : Type} [Zero α]
variable {gy gx py px py' px' : ℕ} {per per' : Bool} {T T' : Cart2}

/-- C47, 2D.  Fields registered on decomposition `T` (ghost size `g`) are saved; they are loaded by a class set up on decomposition `T'` (ghost
size `g'`) of the same global grid, into arrays `fields'` registered under names that were saved, as scalar or vector like the saved ones.
Whatever the order in which the ranks write, `save` and `load` succeed, the time comes back, every inner cell of every rank of `T'` holds the value
the saved global field `F` has there, and nothing else changes (ghost cells, other arrays). With `T' = T`, `g' = g` this is the plain round trip. -/
theorem eul_roundtrip2 (hT : mkCart2 gy gx py px per = .ok T) (hT' : mkCart2 gy gx py' px' per' = .ok T') (g g' : ℕ)
    {origin dx : List ℚ} {fields fields' : List (String × ℕ)}
    (hn : (fields.map Prod.fst).Nodup) (hn' : (fields'.map Prod.fst).Nodup) (hr' : (fields'.map Prod.snd).Nodup)
    {hreg hreg' h h' : Heap C2 C2 α} {io io' : MPIIO}
    (hadd : addEulerian (ioGeo2 T g) hreg (defineEulerianGrid {} origin dx [gy, gx]) fields = (io, .ok ()))
    (hadd' : addEulerian (ioGeo2 T' g') hreg' (defineEulerianGrid {} origin dx [gy, gx]) fields' = (io', .ok ()))
    (hsub : ∀ x' ∈ fields', ∃ x ∈ fields, x.1 = x'.1 ∧
      ((hreg.eul x.2).shape = [T.ny + 2 * g, T.nx + 2 * g] ↔ (hreg'.eul x'.2).shape = [T'.ny + 2 * g', T'.nx + 2 * g']))
    (F : String → ℕ → C2 → α)
    (hF : ∀ x ∈ fields, ∀ k < ncomp (ioGeo2 T g) (hreg.eul x.2), ∀ c p, Valid2 T c → Inner2 T g p →
      (h.eul x.2).comp k c p = F x.1 k (globalIx2 T g c p))
    {order : String → List C2} (ho : ∀ s c, c ∈ order s ↔ Valid2 T c) (t : τ) :
    ∃ file, save (ioGeo2 T g) order h io t = .ok file ∧ ∃ h'', load (ioGeo2 T' g') file io' h' = (h'', .ok t) ∧
      h''.lag = h'.lag ∧ (∀ r, r ∉ fields'.map Prod.snd → h''.eul r = h'.eul r) ∧
      ∀ x ∈ fields', ∀ k < ncomp (ioGeo2 T' g') (hreg'.eul x.2), ∀ c p, Valid2 T' c →
        (Inner2 T' g' p → (h''.eul x.2).comp k c p = F x.1 k (globalIx2 T' g' c p)) ∧
        (¬ Inner2 T' g' p → (h''.eul x.2).comp k c p = (h'.eul x.2).comp k c p) := by
  obtain ⟨e1, e2, _, _, _, e6, e7⟩ := construct2_ok hT
  obtain ⟨e1', e2', _, _, _, e6', e7'⟩ := construct2_ok hT'
  have G := geoOK2 (T := T) (gy := gy) (gx := gx) (by rw [e6, e1]) (by rw [e7, e2]) g
  have G' := geoOK2 (T := T') (gy := gy) (gx := gx) (by rw [e6', e1']) (by rw [e7', e2']) g'
  obtain ⟨file, f1, h'', f2, f3, f4, f5⟩ := eul_roundtrip G G' rfl rfl hn hn' hr' (h := h) (h' := h') hadd hadd' hsub F
    (fun x hx k hk c hc p hp => hF x hx k hk c p (mem_ranks2.1 hc) (mem_innerSel2.1 hp))
    (order := order) (fun s c => (ho s c).trans mem_ranks2.symm) t
  refine ⟨file, f1, h'', f2, f3, f4, ?_⟩
  intro x hx k hk c p hc
  have := f5 x hx k hk c (mem_ranks2.2 hc) p
  rw [mem_innerSel2] at this
  exact this

end

/-! ## 3D -/

section
variable {α τ : Type} [Zero α]
variable {gz gy gx pz py px pz' py' px' : ℕ} {per per' : Bool} {T T' : Cart3}

/-- C47, 3D: see `eul_roundtrip2`. -/
theorem eul_roundtrip3 (hT : mkCart3 gz gy gx pz py px per = .ok T) (hT' : mkCart3 gz gy gx pz' py' px' per' = .ok T') (g g' : ℕ)
    {origin dx : List ℚ} {fields fields' : List (String × ℕ)}
    (hn : (fields.map Prod.fst).Nodup) (hn' : (fields'.map Prod.fst).Nodup) (hr' : (fields'.map Prod.snd).Nodup)
    {hreg hreg' h h' : Heap C3 C3 α} {io io' : MPIIO}
    (hadd : addEulerian (ioGeo3 T g) hreg (defineEulerianGrid {} origin dx [gz, gy, gx]) fields = (io, .ok ()))
    (hadd' : addEulerian (ioGeo3 T' g') hreg' (defineEulerianGrid {} origin dx [gz, gy, gx]) fields' = (io', .ok ()))
    (hsub : ∀ x' ∈ fields', ∃ x ∈ fields, x.1 = x'.1 ∧
      ((hreg.eul x.2).shape = [T.nz + 2 * g, T.ny + 2 * g, T.nx + 2 * g] ↔
        (hreg'.eul x'.2).shape = [T'.nz + 2 * g', T'.ny + 2 * g', T'.nx + 2 * g']))
    (F : String → ℕ → C3 → α)
    (hF : ∀ x ∈ fields, ∀ k < ncomp (ioGeo3 T g) (hreg.eul x.2), ∀ c p, Valid3 T c → Inner3 T g p →
      (h.eul x.2).comp k c p = F x.1 k (globalIx3 T g c p))
    {order : String → List C3} (ho : ∀ s c, c ∈ order s ↔ Valid3 T c) (t : τ) :
    ∃ file, save (ioGeo3 T g) order h io t = .ok file ∧ ∃ h'', load (ioGeo3 T' g') file io' h' = (h'', .ok t) ∧
      h''.lag = h'.lag ∧ (∀ r, r ∉ fields'.map Prod.snd → h''.eul r = h'.eul r) ∧
      ∀ x ∈ fields', ∀ k < ncomp (ioGeo3 T' g') (hreg'.eul x.2), ∀ c p, Valid3 T' c →
        (Inner3 T' g' p → (h''.eul x.2).comp k c p = F x.1 k (globalIx3 T' g' c p)) ∧
        (¬ Inner3 T' g' p → (h''.eul x.2).comp k c p = (h'.eul x.2).comp k c p) := by
  obtain ⟨e1, e2, e3, _, _, _, _, e6, e7, e8⟩ := construct3_ok hT
  obtain ⟨e1', e2', e3', _, _, _, _, e6', e7', e8'⟩ := construct3_ok hT'
  have G := geoOK3 (T := T) (gz := gz) (gy := gy) (gx := gx) (by rw [e6, e1]) (by rw [e7, e2]) (by rw [e8, e3]) g
  have G' := geoOK3 (T := T') (gz := gz) (gy := gy) (gx := gx) (by rw [e6', e1']) (by rw [e7', e2']) (by rw [e8', e3']) g'
  obtain ⟨file, f1, h'', f2, f3, f4, f5⟩ := eul_roundtrip G G' rfl rfl hn hn' hr' (h := h) (h' := h') hadd hadd' hsub F
    (fun x hx k hk c hc p hp => hF x hx k hk c p (mem_ranks3.1 hc) (mem_innerSel3.1 hp))
    (order := order) (fun s c => (ho s c).trans mem_ranks3.symm) t
  refine ⟨file, f1, h'', f2, f3, f4, ?_⟩
  intro x hx k hk c p hc
  have := f5 x hx k hk c (mem_ranks3.2 hc) p
  rw [mem_innerSel3] at this
  exact this

end

/-! ## Refusals -/

section
variable {R I α τ : Type} [DecidableEq I]

/-- C47: registration raises ValueError, and only that, exactly when the shape is neither that of a scalar nor that of a vector field. -/
theorem addEulField_error_iff (geo : IOGeo R I) (h : Heap R I α) (io : MPIIO) (name : String) (ref : ℕ) :
    (∃ e, (addEulField geo h io name ref).2 = .error e) ↔
      (h.eul ref).shape ≠ geo.localShape ∧ (h.eul ref).shape ≠ geo.dim :: geo.localShape := by
  unfold addEulField
  by_cases c1 : (h.eul ref).shape = geo.localShape
  · simp [c1]
  · by_cases c2 : (h.eul ref).shape = geo.dim :: geo.localShape
    · have c3 : ¬ (geo.dim :: geo.localShape = geo.localShape) := by rw [← c2]; exact c1
      simp [c2]
    · simp [c1, c2]

/-- C47: registering before the grid is defined is refused and changes nothing. -/
theorem addEulerian_undefined (geo : IOGeo R I) (h : Heap R I α) (io : MPIIO) (hio : io.eulDefined = false) (fields) :
    addEulerian geo h io fields = (io, .error .assertionError) := by
  unfold addEulerian; simp [hio]

/-- C47: a load that returns has compared origin, spacing and grid size with those in the file, up to a relative error of 1e-7. -/
theorem load_ok_params {geo : IOGeo R I} {file : H5 τ I α} {io : MPIIO} {h h' : Heap R I α} {t : τ}
    (hne : io.eulFields ≠ []) (hl : load geo file io h = (h', .ok t)) :
    t = file.time ∧ ∃ grp, file.eul = some grp ∧ allclose io.origin grp.origin = true ∧ allclose io.dx grp.dx = true ∧
      allclose (io.gridSize.map fun n : ℕ => (n : ℚ)) (grp.gridSize.map fun n : ℕ => (n : ℚ)) = true := by
  unfold load at hl
  simp only [hne, if_false] at hl
  by_cases hdef : io.eulDefined = false
  · simp [hdef] at hl
  · simp only [hdef, if_false] at hl
    rcases hf : loadEulFields geo file.eul io io.eulFields h with ⟨h1, r1⟩
    rw [hf] at hl
    cases r1 with
    | error e => simp at hl
    | ok u =>
      cases u
      simp only at hl
      cases hgrp : file.eul with
      | none => rw [hgrp] at hl; simp at hl
      | some grp =>
        rw [hgrp] at hl
        simp only at hl
        by_cases hp : allclose io.origin grp.origin = true ∧ allclose io.dx grp.dx = true ∧
            allclose (io.gridSize.map fun n : ℕ => (n : ℚ)) (grp.gridSize.map fun n : ℕ => (n : ℚ)) = true
        · rw [if_pos hp] at hl
          refine ⟨?_, grp, rfl, hp⟩
          simp only [Bool.true_eq_false, if_false] at hl
          split at hl
          · simp only [Prod.mk.injEq, Except.ok.injEq] at hl; exact hl.2.symm
          · split at hl
            · simp at hl
            · simp only [Prod.mk.injEq, Except.ok.injEq] at hl; exact hl.2.symm
        · rw [if_neg hp] at hl
          simp at hl

theorem allclose_nat {a b : List ℕ} (h : allclose (a.map fun n : ℕ => (n : ℚ)) (b.map fun n : ℕ => (n : ℚ)) = true)
    (hb : ∀ n ∈ b, n < 10000000) : a = b := by
  unfold allclose at h
  simp only [decide_eq_true_eq, List.length_map] at h
  obtain ⟨hl, h⟩ := h
  induction a generalizing b with
  | nil => cases b with
    | nil => rfl
    | cons _ _ => simp at hl
  | cons x a ih =>
    cases b with
    | nil => simp at hl
    | cons y b =>
      simp only [List.map_cons, List.zip_cons_cons, List.all_cons, Bool.and_eq_true, decide_eq_true_eq] at h
      have hy := hb y List.mem_cons_self
      have h2 := ih (fun n hn => hb n (List.mem_cons_of_mem _ hn)) (by simpa using hl) h.2
      rw [h2]
      congr 1
      have h1 := h.1
      rw [abs_of_nonneg (by positivity : (0 : ℚ) ≤ (y : ℚ))] at h1
      have h3 : |(x : ℚ) - y| < 1 := by
        refine lt_of_le_of_lt h1 ?_
        have : (y : ℚ) < 10000000 := by exact_mod_cast hy
        linarith
      have h4 : |(x : ℤ) - y| < 1 := by exact_mod_cast h3
      rw [abs_lt] at h4
      omega

/-- C47: a file of another grid size (below 10⁷ cells per axis) is never loaded without an exception. -/
theorem load_grid_mismatch {geo : IOGeo R I} {file : H5 τ I α} {io : MPIIO} {h : Heap R I α} (hne : io.eulFields ≠ [])
    {grp : EGroup I α} (hf : file.eul = some grp) (hsmall : ∀ n ∈ grp.gridSize, n < 10000000) (hgs : io.gridSize ≠ grp.gridSize) :
    ∃ e, (load geo file io h).2 = .error e := by
  rcases hl : load geo file io h with ⟨h', r⟩
  cases r with
  | error e => exact ⟨e, rfl⟩
  | ok t =>
    obtain ⟨_, grp', g1, _, _, g4⟩ := load_ok_params hne hl
    rw [hf] at g1
    cases g1
    exact absurd (allclose_nat g4 hsmall) hgs

/-- C47: what the refusal does *not* do. The fields are read before the parameters are compared: when only the comparison fails, the arrays have already
been overwritten with the contents of the file. -/
theorem load_refused_overwrites {geo : IOGeo R I} {gix : R → I → I} {gs : List ℕ} (hg : GeoOK geo gix gs) {grp : EGroup I α} {file : H5 τ I α}
    (hfile : file.eul = some grp) {io : MPIIO} (hdef : io.eulDefined = true) (hne : io.eulFields ≠ [])
    {F : String → ℕ → I → α} (hrefs : (io.eulFields.map Prod.snd).Nodup)
    (hst : ∀ x ∈ io.eulFields, ∃ ty, dget io.eulTypes x.1 = some ty ∧ Stored geo gs grp (F x.1) x.1 ty)
    (hmis : allclose io.origin grp.origin = false) (h : Heap R I α) :
    ∃ h', load geo file io h = (h', .error .assertionError) ∧
      ∀ x ∈ io.eulFields, ∀ ty, dget io.eulTypes x.1 = some ty → ∀ k < tcomp geo ty, ∀ c ∈ geo.ranks, ∀ p ∈ geo.innerSel,
        (h'.eul x.2).comp k c p = F x.1 k (gix c p) := by
  obtain ⟨h', l1, _, _, _, l5⟩ := loadEulFields_ok hg (io := io) (F := F) io.eulFields hrefs hst h
  refine ⟨h', ?_, fun x hx ty hty k hk c hc p hp => ((l5 x hx ty hty).1 k hk c hc p).1 hp⟩
  unfold load
  simp only [hne, if_false, hdef, hfile, l1, hmis, Bool.true_eq_false, Bool.false_eq_true, false_and]

/-- C47: a failed registration leaves a trap. The field stays registered without a type, so a program that catches the ValueError and goes on cannot
save: `save` raises KeyError. -/
theorem save_after_failed_add [Zero α] (geo : IOGeo R I) (hreg h : Heap R I α) (origin dx : List ℚ) (gs : List ℕ)
    (name : String) (ref : ℕ)
    (h1 : (hreg.eul ref).shape ≠ geo.localShape) (h2 : (hreg.eul ref).shape ≠ geo.dim :: geo.localShape)
    (order : String → List R) (t : τ) :
    ∃ io, addEulerian geo hreg (defineEulerianGrid {} origin dx gs) [(name, ref)] = (io, .error .valueError) ∧
      save geo order h io t = .error .keyError := by
  refine ⟨{ defineEulerianGrid {} origin dx gs with eulFields := [(name, ref)] }, ?_, ?_⟩
  · simp [addEulerian, defineEulerianGrid, addEulField, h1, h2, dput]
  · simp [save, defineEulerianGrid, saveEulFields, dget, bind, Except.bind]

end

/-! ## Non-vacuity: saved by two ranks with ghost size 1, loaded by one rank without ghost cells -/

section Example

def exHeapA : Heap C2 C2 ℤ where
  eul r := if r = 0 then ⟨[4, 4], fun _ c p => 10 * (c.1 * 2 + p.1 - 1) + (c.2 * 2 + p.2 - 1)⟩ else ⟨[2, 4, 4], fun k c p =>
    100 * (k + 1) + 10 * (c.1 * 2 + p.1 - 1) + (c.2 * 2 + p.2 - 1)⟩
  lag _ := ⟨[], fun _ => 0⟩

def exHeapB : Heap C2 C2 ℤ where
  eul r := if r = 0 then ⟨[4, 2], fun _ _ _ => 7⟩ else ⟨[2, 4, 2], fun _ _ _ => 7⟩
  lag _ := ⟨[], fun _ => 0⟩

/-- The topologies and the registrations of `eul_roundtrip2` exist: a 4 × 2 grid on two ranks with ghost size 1 (saved) and on one rank with ghost
size 0 (loaded), a scalar and a vector field. -/
example : ∃ T T' io io', mkCart2 4 2 2 1 false = .ok T ∧ mkCart2 4 2 1 1 false = .ok T' ∧
    addEulerian (ioGeo2 T 1) exHeapA (defineEulerianGrid {} [0, 0] [1, 1] [4, 2]) [("w", 0), ("u", 1)] = (io, .ok ()) ∧
    addEulerian (ioGeo2 T' 0) exHeapB (defineEulerianGrid {} [0, 0] [1, 1] [4, 2]) [("u", 1), ("w", 0)] = (io', .ok ()) ∧
    io.eulTypes = [("w", FType.scalar), ("u", FType.vector)] :=
  ⟨_, _, _, _, rfl, rfl, rfl, rfl, rfl⟩

/-- `eul_roundtrip2` applied to them: all its hypotheses hold, and one cell of the vector field spelled out. -/
example : ∃ T T' io io' file h'', mkCart2 4 2 2 1 false = .ok T ∧ mkCart2 4 2 1 1 false = .ok T' ∧
    save (ioGeo2 T 1) (fun _ => ranks2 T) exHeapA io (1 / 2 : ℚ) = .ok file ∧
    load (ioGeo2 T' 0) file io' exHeapB = (h'', .ok (1 / 2 : ℚ)) ∧
    (h''.eul 1).comp 1 (0, 0) (3, 1) = 231 ∧ (exHeapA.eul 1).comp 1 (1, 0) (2, 2) = 231 := by
  obtain ⟨file, h1, h'', h2, _, _, h5⟩ := eul_roundtrip2 (gy := 4) (gx := 2) (py := 2) (px := 1) (py' := 1) (px' := 1)
    (per := false) (per' := false) (T := ⟨4, 2, 2, 1, 2, 2, false⟩) (T' := ⟨4, 2, 1, 1, 4, 2, false⟩) rfl rfl 1 0
    (origin := [0, 0]) (dx := [1, 1]) (fields := [("w", 0), ("u", 1)]) (fields' := [("u", 1), ("w", 0)])
    (by decide) (by decide) (by decide) (hreg := exHeapA) (hreg' := exHeapB) (h := exHeapA) (h' := exHeapB) rfl rfl
    (by decide)
    (fun s k G => if s = "w" then 10 * G.1 + G.2 else 100 * (k + 1) + 10 * G.1 + G.2)
    (by
      intro x hx k _ c p _ _
      simp only [List.mem_cons, List.not_mem_nil, or_false] at hx
      rcases hx with rfl | rfl <;> simp [exHeapA, globalIx2])
    (order := fun _ => ranks2 ⟨4, 2, 2, 1, 2, 2, false⟩) (fun _ _ => mem_ranks2) (1 / 2 : ℚ)
  refine ⟨_, _, _, _, file, h'', rfl, rfl, h1, h2, ?_, by decide⟩
  have := (h5 ("u", 1) (by simp) 1 (by decide) (0, 0) (3, 1) (by unfold Valid2; decide)).1 (by unfold Inner2; decide)
  rw [this]
  decide

end Example

end Sopht
