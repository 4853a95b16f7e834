import Verif.Xdmf
import Verif.IOLagProps
import Mathlib.Data.List.Dedup

/-!
# C81: the XDMF files describe the HDF5 file
-/

namespace Sopht

section
variable {R I α τ : Type}

/-! ## Specification -/

/-- The datasets of a HDF5 file, by path: the shape of the dataset, `none` if there is none (the leading axis of length one of an Eulerian dataset, left out in
`EDSet`, is put back, mpi_io.py:317). -/
def H5.shapeAt (f : H5 τ I α) : List String → Option (List ℕ)
  | ["Eulerian", "Scalar", n] => f.eul.bind fun g => (dget g.scalars n).map fun d => 1 :: d.shape
  | ["Eulerian", "Vector", n] => f.eul.bind fun g => (dget g.vectors n).map fun d => 1 :: d.shape
  | ["Lagrangian", g, "Grid"] => (dget f.lag g).map fun G => G.grid.shape
  | ["Lagrangian", g, "Connection"] => (dget f.lag g).bind fun G => G.connection.map fun l => [l.length]
  | ["Lagrangian", g, "Scalar", n] => (dget f.lag g).bind fun G => (dget G.scalars n).map fun d => d.shape
  | ["Lagrangian", g, "Vector", n] => (dget f.lag g).bind fun G => (dget G.vectors n).map fun d => d.shape
  | _ => none

/-! ## Adding datasets one by one -/

/-- `b` is `a` with the listed datasets added, each of which was new. -/
def Adds (a b : List String → Option (List ℕ)) : List (List String × List ℕ) → Prop
  | [] => b = a
  | x :: l => a x.1 = none ∧ Adds (Function.update a x.1 (some x.2)) b l

theorem Adds.append {a b c : List String → Option (List ℕ)} {l m : List (List String × List ℕ)} (h1 : Adds a b l) (h2 : Adds b c m) : Adds a c (l ++ m) := by
  induction l generalizing a with
  | nil => simp only [Adds] at h1; subst h1; exact h2
  | cons x l ih => exact ⟨h1.1, ih h1.2⟩

theorem Adds.spec {a b : List String → Option (List ℕ)} {l : List (List String × List ℕ)} (h : Adds a b l) :
    (∀ p s, a p = some s → b p = some s) ∧ (∀ x ∈ l, a x.1 = none ∧ b x.1 = some x.2) ∧ (l.map (·.1)).Nodup ∧
    (∀ p s, b p = some s → a p = some s ∨ p ∈ l.map (·.1)) := by
  induction l generalizing a with
  | nil => simp only [Adds] at h; subst h; simp
  | cons x l ih =>
    obtain ⟨h0, h⟩ := h
    obtain ⟨i1, i2, i3, i4⟩ := ih h
    refine ⟨?_, ?_, ?_, ?_⟩
    · intro p s hp
      apply i1
      rw [Function.update_of_ne, hp]
      rintro rfl; rw [h0] at hp; cases hp
    · intro y hy
      rcases List.mem_cons.1 hy with rfl | hy
      · exact ⟨h0, i1 _ _ (Function.update_self ..)⟩
      · obtain ⟨j1, j2⟩ := i2 y hy
        refine ⟨?_, j2⟩
        rw [Function.update_apply] at j1
        split at j1
        · cases j1
        · exact j1
    · rw [List.map_cons, List.nodup_cons]
      refine ⟨?_, i3⟩
      intro hm
      obtain ⟨y, hy, e⟩ := List.mem_map.1 hm
      have := (i2 y hy).1
      rw [e, Function.update_self] at this
      cases this
    · intro p s hp
      rcases i4 p s hp with h | h
      · rw [Function.update_apply] at h
        split at h
        · rename_i e; right; rw [e]; exact List.mem_cons_self
        · exact Or.inl h
      · exact Or.inr (List.mem_cons_of_mem _ h)

/-! ## Eulerian -/

/-- The datasets of the Eulerian group. -/
def eulAt (g : EGroup I α) : List String → Option (List ℕ)
  | ["Eulerian", "Scalar", n] => (dget g.scalars n).map fun d => 1 :: d.shape
  | ["Eulerian", "Vector", n] => (dget g.vectors n).map fun d => 1 :: d.shape
  | _ => none

theorem eulAt_scalar (g : EGroup I α) {s : List (String × EDSet I α)} {name : String} {d : EDSet I α} (h : createDataset g.scalars name d = .ok s) :
    Adds (eulAt g) (eulAt { g with scalars := s }) [(["Eulerian", "Scalar", name], 1 :: d.shape)] := by
  unfold createDataset at h
  cases hd : dget g.scalars name with
  | some _ => rw [hd] at h; cases h
  | none =>
    rw [hd] at h
    cases h
    refine ⟨by simp [eulAt, hd], ?_⟩
    funext p
    by_cases hp : p = ["Eulerian", "Scalar", name]
    · subst hp
      simp [eulAt, dget_snoc_of_none hd]
    · rw [Function.update_of_ne hp]
      unfold eulAt
      split
      · rename_i n
        rw [dget_snoc_of_none hd, if_neg]
        rintro rfl; exact hp rfl
      · rfl
      · rfl

theorem eulAt_vector (g : EGroup I α) {s : List (String × EDSet I α)} {name : String} {d : EDSet I α} (h : createDataset g.vectors name d = .ok s) :
    Adds (eulAt g) (eulAt { g with vectors := s }) [(["Eulerian", "Vector", name], 1 :: d.shape)] := by
  unfold createDataset at h
  cases hd : dget g.vectors name with
  | some _ => rw [hd] at h; cases h
  | none =>
    rw [hd] at h
    cases h
    refine ⟨by simp [eulAt, hd], ?_⟩
    funext p
    by_cases hp : p = ["Eulerian", "Vector", name]
    · subst hp
      simp [eulAt, dget_snoc_of_none hd]
    · rw [Function.update_of_ne hp]
      unfold eulAt
      split
      · rfl
      · rename_i n
        rw [dget_snoc_of_none hd, if_neg]
        rintro rfl; exact hp rfl
      · rfl

variable [DecidableEq I] [Zero α]

theorem writeDataset_shape {geo : IOGeo R I} {gs : List ℕ} {order : List R} {f : R → I → α} {d : EDSet I α} (h : writeDataset geo gs order f = .ok d) :
    d.shape = gs := by
  unfold writeDataset at h
  split at h
  · cases h; rfl
  · cases h

theorem saveVector_adds (geo : IOGeo R I) (gs : List ℕ) (order : String → List R) (name : String) (f : ℕ → R → I → α) (ks : List ℕ) :
    ∀ {grp grp' : EGroup I α}, saveVector geo gs order name f grp ks = .ok grp' →
      Adds (eulAt grp) (eulAt grp') (ks.map fun k => (["Eulerian", "Vector", compName name k], 1 :: gs)) := by
  induction ks with
  | nil =>
    intro grp grp' h
    simp only [saveVector, Except.ok.injEq] at h
    subst h
    rfl
  | cons k ks ih =>
    intro grp grp' h
    simp only [saveVector, bind, Except.bind] at h
    split at h
    · cases h
    · rename_i d hd
      split at h
      · cases h
      · rename_i v hv
        have h1 := eulAt_vector grp hv
        rw [writeDataset_shape hd] at h1
        exact h1.append (ih h)

theorem saveEulFields_adds (geo : IOGeo R I) (order : String → List R) (h : Heap R I α) (io : MPIIO) (fs : List (String × ℕ)) :
    ∀ {grp grp' : EGroup I α}, saveEulFields geo order h io fs grp = .ok grp' →
      ∃ l, xdmfEulItems geo.dim io fs = .ok l ∧ (∀ it ∈ l, it.dims = padTo3 geo.dim 1 io.gridSize ∧ it.atype = .scalar ∧ it.path.getLast? = some it.name) ∧
        Adds (eulAt grp) (eulAt grp') (l.map fun it => (it.path, 1 :: io.gridSize)) := by
  induction fs with
  | nil =>
    intro grp grp' h
    simp only [saveEulFields, Except.ok.injEq] at h
    subst h
    exact ⟨[], rfl, by simp, rfl⟩
  | cons x fs ih =>
    obtain ⟨name, ref⟩ := x
    intro grp grp' h
    unfold saveEulFields at h
    unfold xdmfEulItems
    cases ht : dget io.eulTypes name with
    | none => rw [ht] at h; cases h
    | some ty =>
      rw [ht] at h
      cases ty with
      | scalar =>
        simp only [bind, Except.bind] at h
        split at h
        · cases h
        · rename_i d hd
          split at h
          · cases h
          · rename_i s hs
            obtain ⟨l, l1, l2, l3⟩ := ih h
            have h1 := eulAt_scalar grp hs
            rw [writeDataset_shape hd] at h1
            refine ⟨⟨name, .scalar, padTo3 geo.dim 1 io.gridSize, ["Eulerian", "Scalar", name]⟩ :: l, by simp only [l1, bind, Except.bind], ?_, h1.append l3⟩
            intro it hit
            rcases List.mem_cons.1 hit with rfl | hit
            · exact ⟨rfl, rfl, rfl⟩
            · exact l2 it hit
      | vector =>
        simp only [bind, Except.bind] at h
        split at h
        · cases h
        · rename_i g hg
          obtain ⟨l, l1, l2, l3⟩ := ih h
          have h1 := saveVector_adds geo io.gridSize order name _ _ hg
          refine ⟨_, by simp only [l1, bind, Except.bind]; rfl, ?_, ?_⟩
          · intro it hit
            rcases List.mem_append.1 hit with hit | hit
            · obtain ⟨k, -, rfl⟩ := List.mem_map.1 hit
              exact ⟨rfl, rfl, rfl⟩
            · exact l2 it hit
          · rw [List.map_append, List.map_map]
            exact h1.append l3

/-- **C81** Whenever `save` succeeds and there are Eulerian fields, the Eulerian XDMF file can be generated and lists every Eulerian dataset of the HDF5 file exactly
once, under its name and with the dimensions of the topology; these are the dimensions of the dataset in 2D, and in 3D those of the dataset without its leading
axis of length one. -/
theorem xdmfEul_describes {geo : IOGeo R I} {order : String → List R} {h : Heap R I α} {io : MPIIO} {t : τ} {f : H5 τ I α} (hs : save geo order h io t = .ok f)
    (hd : io.eulDefined = true) (hne : io.eulFields ≠ []) :
    ∃ x, xdmfEul geo.dim io t = .ok x ∧ x.time = f.time ∧ (x.items.map (·.path)).Nodup ∧
      (∀ it ∈ x.items, it.dims = x.topo ∧ it.path.getLast? = some it.name ∧
        f.shapeAt it.path = some (if geo.dim = 3 then 1 :: it.dims else it.dims)) ∧
      (∀ p s, f.shapeAt p = some s → p.head? = some "Eulerian" → ∃ it ∈ x.items, it.path = p) := by
  unfold save at hs
  simp only [hd, hne, ne_eq, not_false_eq_true, and_self, if_true, bind, Except.bind, pure, Except.pure] at hs
  split at hs
  · cases hs
  · rename_i g hg
    split at hg
    · cases hg
    · rename_i grp hgrp
      split at hs
      · cases hs
      · rename_i lag hlag
        cases hg
        cases hs
        obtain ⟨l, l1, l2, l3⟩ := saveEulFields_adds geo order h io _ hgrp
        obtain ⟨-, a2, a3, a4⟩ := l3.spec
        have key : ∀ p, p.head? = some "Eulerian" → (⟨t, some grp, lag⟩ : H5 τ I α).shapeAt p = eulAt grp p := by
          intro p hp
          unfold H5.shapeAt
          split
          · rfl
          · rfl
          · simp at hp
          · simp at hp
          · simp at hp
          · simp at hp
          · rename_i h1 h2 h3 h4 h5 h6
            unfold eulAt
            split
            · exact absurd rfl (h1 _)
            · exact absurd rfl (h2 _)
            · rfl
        have hpath : ∀ it ∈ l, it.path.head? = some "Eulerian" := by
          intro it hit
          have := (a2 _ (List.mem_map.2 ⟨it, hit, rfl⟩)).2
          dsimp only at this
          unfold eulAt at this
          split at this
          · rename_i e; rw [e]; rfl
          · rename_i e; rw [e]; rfl
          · cases this
        refine ⟨⟨t, padTo3 geo.dim 1 io.gridSize, geo.dim, padTo3 geo.dim 0 io.origin, padTo3 geo.dim 0 io.dx, l⟩, ?_, rfl, ?_, ?_, ?_⟩
        · unfold xdmfEul
          rw [l1]; rfl
        · rw [List.map_map] at a3
          exact a3
        · intro it hit
          obtain ⟨b1, -, b3⟩ := l2 it hit
          refine ⟨b1, b3, ?_⟩
          rw [key _ (hpath it hit), (a2 _ (List.mem_map.2 ⟨it, hit, rfl⟩)).2, b1]
          unfold padTo3
          split <;> rfl
        · intro p s hp hh
          rw [key p hh] at hp
          rcases a4 p s hp with h | h
          · exfalso
            unfold eulAt at h
            split at h <;> simp [dget] at h
          · rw [List.map_map] at h
            obtain ⟨it, hit, e⟩ := List.mem_map.1 h
            exact ⟨it, hit, e⟩

/-- **C81** Origin and spacing: in 3D as many values as declared; in 2D one more than declared (a zero is put in front, the declared dimension stays 2). -/
theorem xdmfEul_params {dim : ℕ} {io : MPIIO} {t : τ} {x : XEul τ} (h : xdmfEul dim io t = .ok x) (ho : io.origin.length = dim) (hx : io.dx.length = dim) :
    (dim = 3 → x.origin = io.origin ∧ x.spacing = io.dx ∧ x.paramDims = x.origin.length) ∧
    (dim = 2 → x.origin = 0 :: io.origin ∧ x.spacing = 0 :: io.dx ∧ x.paramDims + 1 = x.origin.length ∧ x.paramDims + 1 = x.spacing.length) := by
  unfold xdmfEul at h
  simp only [bind, Except.bind] at h
  split at h
  · cases h
  · cases h
    constructor
    · rintro rfl
      exact ⟨rfl, rfl, ho.symm⟩
    · rintro rfl
      exact ⟨rfl, rfl, by change 2 + 1 = (0 :: io.origin).length; rw [List.length_cons, ho], by change 2 + 1 = (0 :: io.dx).length; rw [List.length_cons, hx]⟩

/-! ## Lagrangian -/

omit [DecidableEq I] [Zero α]

/-- The field datasets of the group of a grid, path relative to the group. -/
def lagAt (g : LGroup α) : List String → Option (List ℕ)
  | ["Scalar", n] => (dget g.scalars n).map fun d => d.shape
  | ["Vector", n] => (dget g.vectors n).map fun d => d.shape
  | _ => none

theorem lagAt_scalar (g : LGroup α) {s : List (String × LArr α)} {name : String} {d : LArr α} (h : createDataset g.scalars name d = .ok s) :
    Adds (lagAt g) (lagAt { g with scalars := s }) [(["Scalar", name], d.shape)] := by
  unfold createDataset at h
  cases hd : dget g.scalars name with
  | some _ => rw [hd] at h; cases h
  | none =>
    rw [hd] at h
    cases h
    refine ⟨by simp [lagAt, hd], ?_⟩
    funext p
    by_cases hp : p = ["Scalar", name]
    · subst hp
      simp [lagAt, dget_snoc_of_none hd]
    · rw [Function.update_of_ne hp]
      unfold lagAt
      split
      · rename_i n
        rw [dget_snoc_of_none hd, if_neg]
        rintro rfl; exact hp rfl
      · rfl
      · rfl

theorem lagAt_vector (g : LGroup α) {s : List (String × LArr α)} {name : String} {d : LArr α} (h : createDataset g.vectors name d = .ok s) :
    Adds (lagAt g) (lagAt { g with vectors := s }) [(["Vector", name], d.shape)] := by
  unfold createDataset at h
  cases hd : dget g.vectors name with
  | some _ => rw [hd] at h; cases h
  | none =>
    rw [hd] at h
    cases h
    refine ⟨by simp [lagAt, hd], ?_⟩
    funext p
    by_cases hp : p = ["Vector", name]
    · subst hp
      simp [lagAt, dget_snoc_of_none hd]
    · rw [Function.update_of_ne hp]
      unfold lagAt
      split
      · rfl
      · rename_i n
        rw [dget_snoc_of_none hd, if_neg]
        rintro rfl; exact hp rfl
      · rfl

theorem writeAll_shape {shape : List ℕ} {a d : LArr α} (h : writeAll shape a = .ok d) : d = a ∧ d.shape = shape := by
  unfold writeAll at h
  split at h
  · rename_i e; cases h; exact ⟨rfl, e⟩
  · cases h

theorem saveLagFields_adds (dim N : ℕ) (h : Heap R I α) (io : MPIIO) (gname : String) (fs : List String) :
    ∀ {grp grp' : LGroup α}, saveLagFields dim N h io fs grp = .ok grp' → grp'.grid = grp.grid ∧ grp'.connection = grp.connection ∧
      ∃ l, xdmfLagItems io gname [N, dim] fs = .ok l ∧ (∀ it ∈ l, ∃ ty, it.path = ["Lagrangian", gname, ty, it.name]) ∧
        Adds (lagAt grp) (lagAt grp') (l.map fun it => (it.path.drop 2, it.dims)) := by
  induction fs with
  | nil =>
    intro grp grp' h
    simp only [saveLagFields, Except.ok.injEq] at h
    subst h
    exact ⟨rfl, rfl, [], rfl, by simp, rfl⟩
  | cons name fs ih =>
    intro grp grp' hh
    unfold saveLagFields at hh
    unfold xdmfLagItems
    cases hf : dget io.lagFields name with
    | none => rw [hf] at hh; cases hh
    | some ref =>
      cases ht : dget io.lagTypes name with
      | none => rw [hf, ht] at hh; cases hh
      | some ty =>
        rw [hf, ht] at hh
        cases ty with
        | scalar =>
          simp only [bind, Except.bind] at hh
          split at hh
          · cases hh
          · rename_i d hd
            split at hh
            · cases hh
            · rename_i s hs
              obtain ⟨e1, e2, l, l1, l2, l3⟩ := ih hh
              have h1 := lagAt_scalar grp hs
              rw [(writeAll_shape hd).2] at h1
              refine ⟨e1, e2, ⟨name, .scalar, [N], ["Lagrangian", gname, "Scalar", name]⟩ :: l, by simp only [l1, bind, Except.bind]; rfl, ?_, h1.append l3⟩
              intro it hit
              rcases List.mem_cons.1 hit with rfl | hit
              · exact ⟨_, rfl⟩
              · exact l2 it hit
        | vector =>
          simp only [bind, Except.bind] at hh
          split at hh
          · cases hh
          · rename_i d hd
            split at hh
            · cases hh
            · rename_i s hs
              obtain ⟨e1, e2, l, l1, l2, l3⟩ := ih hh
              have h1 := lagAt_vector grp hs
              rw [(writeAll_shape hd).2] at h1
              refine ⟨e1, e2, ⟨name, .vector, [N, dim], ["Lagrangian", gname, "Vector", name]⟩ :: l, by simp only [l1, bind, Except.bind], ?_, h1.append l3⟩
              intro it hit
              rcases List.mem_cons.1 hit with rfl | hit
              · exact ⟨_, rfl⟩
              · exact l2 it hit

theorem saveLagGrids_spec (dim : ℕ) (h : Heap R I α) (io : MPIIO) (gs : List (String × ℕ)) : ∀ {out out' : List (String × LGroup α)},
    saveLagGrids dim h io gs out = .ok out' → (∀ s g, dget out s = some g → dget out' s = some g) ∧
    ∀ q ∈ gs, ∃ N fields grp, dget io.lagOn q.1 = some fields ∧ (h.lag q.2).shape = [dim, N] ∧ dget out' q.1 = some grp ∧
      (∀ l, dget io.lagConn q.1 = some l → l.length = N) ∧
      saveLagFields dim N h io fields ⟨(h.lag q.2).transpose, dget io.lagConn q.1, [], []⟩ = .ok grp := by
  induction gs with
  | nil =>
    intro out out' hh
    simp only [saveLagGrids, Except.ok.injEq] at hh
    subst hh
    exact ⟨fun _ _ h => h, by simp⟩
  | cons x gs ih =>
    obtain ⟨name, ref⟩ := x
    intro out out' hh
    unfold saveLagGrids at hh
    cases hN : dget io.lagNum name with
    | none => rw [hN] at hh; cases hh
    | some N =>
      cases hF : dget io.lagOn name with
      | none => rw [hN, hF] at hh; cases hh
      | some fields =>
        rw [hN, hF] at hh
        simp only [bind, Except.bind] at hh
        split at hh
        · cases hh
        · rename_i g hg
          split at hh
          · cases hh
          · rename_i c hc
            split at hh
            · cases hh
            · rename_i grp hgrp
              split at hh
              · cases hh
              · rename_i out1 ho
                obtain ⟨j1, j2⟩ := ih hh
                unfold createDataset at ho
                cases hd : dget out name with
                | some _ => rw [hd] at ho; cases ho
                | none =>
                  rw [hd] at ho
                  cases ho
                  obtain ⟨w1, w2⟩ := writeAll_shape hg
                  have hcc : c = dget io.lagConn name ∧ ∀ l, dget io.lagConn name = some l → l.length = N := by
                    unfold writeConn at hc
                    split at hc
                    · rename_i e; cases hc; exact ⟨e.symm, fun l hl => by rw [e] at hl; cases hl⟩
                    · rename_i l e
                      split at hc
                      · rename_i hl
                        cases hc
                        exact ⟨e.symm, fun l' hl' => by rw [e] at hl'; cases hl'; exact hl⟩
                      · cases hc
                  refine ⟨fun s g' hs => j1 _ _ (dget_snoc_mono hs), ?_⟩
                  intro q hq
                  rcases List.mem_cons.1 hq with rfl | hq
                  · refine ⟨N, fields, grp, hF, ?_, j1 _ _ (by rw [dget_snoc_of_none hd, if_pos rfl]), hcc.2, ?_⟩
                    · rw [w1] at w2
                      have := congrArg List.reverse w2
                      simpa [LArr.transpose] using this
                    · rw [← hcc.1, ← w1]; exact hgrp
                  · exact j2 q hq

variable [DecidableEq I] [Zero α]

/-- **C81** Whenever `save` succeeds, the XDMF file which the master of a Lagrangian grid generates for it lists the grid's datasets - positions, connection and every
field, each once - with the shapes they have in the HDF5 file (the connection with an extra leading 1). -/
theorem xdmfLag_describes {geo : IOGeo R I} {order : String → List R} {h : Heap R I α} {io : MPIIO} {t : τ} {f : H5 τ I α} (hs : save geo order h io t = .ok f)
    {name : String} {ref : ℕ} (hg : (name, ref) ∈ io.lagGrids) {shapeOf : ℕ → List ℕ} (hsh : shapeOf ref = (h.lag ref).shape) :
    ∃ x N, xdmfLag geo.dim io shapeOf t name ref = .ok x ∧ x.time = f.time ∧ x.numElems = N ∧
      x.grid.1 = [N, geo.dim] ∧ f.shapeAt x.grid.2 = some x.grid.1 ∧
      (∀ d p, x.polyline = some (d, p) → d = [1, N] ∧ f.shapeAt p = some [N]) ∧
      (x.items.map (·.path)).Nodup ∧
      (∀ it ∈ x.items, f.shapeAt it.path = some it.dims ∧ it.path.getLast? = some it.name) ∧
      (∀ p s, f.shapeAt p = some s → p.take 2 = ["Lagrangian", name] →
        p = x.grid.2 ∨ (∃ d, x.polyline = some (d, p)) ∨ ∃ it ∈ x.items, it.path = p) := by
  have hlag : saveLagGrids geo.dim h io io.lagGrids [] = .ok f.lag ∧ f.time = t := by
    unfold save at hs
    simp only [bind, Except.bind] at hs
    split at hs
    · cases hs
    · split at hs
      · cases hs
      · rename_i hl
        cases hs
        exact ⟨hl, rfl⟩
  obtain ⟨hlag, ht⟩ := hlag
  obtain ⟨-, h2⟩ := saveLagGrids_spec geo.dim h io _ hlag
  obtain ⟨N, fields, grp, b1, b2, b3, b4, b5⟩ := h2 _ hg
  dsimp only at b1 b2 b3 b4 b5
  obtain ⟨e1, e2, l, l1, l2, l3⟩ := saveLagFields_adds geo.dim N h io name _ b5
  obtain ⟨-, a2, a3, a4⟩ := l3.spec
  dsimp only at e1 e2
  have hgrid : grp.grid.shape = [N, geo.dim] := by rw [e1]; simp [LArr.transpose, b2]
  refine ⟨⟨t, (dget io.lagConn name).map fun _ => ([1, N], ["Lagrangian", name, "Connection"]), N, if geo.dim = 3 then "XYZ" else "XY",
    ([N, geo.dim], ["Lagrangian", name, "Grid"]), l⟩, N, ?_, ht.symm, rfl, rfl, ?_, ?_, ?_, ?_, ?_⟩
  · unfold xdmfLag
    rw [hsh, b2, b1]
    simp only [List.reverse_cons, List.reverse_nil, List.nil_append, List.cons_append, l1, bind, Except.bind]
    rfl
  · change ((dget f.lag name).map fun G => G.grid.shape) = _
    rw [b3]
    exact congrArg some hgrid
  · intro d p hp
    cases hc : dget io.lagConn name with
    | none => rw [hc] at hp; cases hp
    | some c =>
      rw [hc] at hp
      simp only [Option.map_some, Option.some.injEq, Prod.mk.injEq] at hp
      obtain ⟨rfl, rfl⟩ := hp
      refine ⟨rfl, ?_⟩
      change ((dget f.lag name).bind fun G => G.connection.map fun l => [l.length]) = _
      rw [b3]
      change grp.connection.map _ = _
      rw [e2, hc]
      change some [c.length] = _
      rw [b4 c hc]
  · rw [List.map_map] at a3
    rw [List.Nodup, List.pairwise_map] at a3 ⊢
    refine a3.imp fun {a b} hab he => hab ?_
    change a.path.drop 2 = b.path.drop 2
    rw [he]
  · intro it hit
    obtain ⟨ty, hp⟩ := l2 it hit
    have := (a2 _ (List.mem_map.2 ⟨it, hit, rfl⟩)).2
    dsimp only at this
    rw [hp] at this ⊢
    refine ⟨?_, rfl⟩
    rw [← this]
    change lagAt grp [ty, it.name] = some it.dims at this
    unfold lagAt at this
    split at this
    · rename_i e
      simp only [List.cons.injEq, and_true] at e
      obtain ⟨rfl, rfl⟩ := e
      change ((dget f.lag name).bind fun G => (dget G.scalars it.name).map fun d => d.shape) = _
      rw [b3]; rfl
    · rename_i e
      simp only [List.cons.injEq, and_true] at e
      obtain ⟨rfl, rfl⟩ := e
      change ((dget f.lag name).bind fun G => (dget G.vectors it.name).map fun d => d.shape) = _
      rw [b3]; rfl
    · cases this
  · intro p s hp hh
    have field : ∀ q, p = "Lagrangian" :: name :: q → lagAt grp q = some s → ∃ it ∈ l, it.path = p := by
      intro q hq hl
      rcases a4 q s hl with h | h
      · exfalso
        unfold lagAt at h
        split at h <;> simp [dget] at h
      · rw [List.map_map] at h
        obtain ⟨it, hit, e⟩ := List.mem_map.1 h
        refine ⟨it, hit, ?_⟩
        obtain ⟨ty, hp⟩ := l2 it hit
        have e : it.path.drop 2 = q := e
        rw [hq, ← e, hp]; rfl
    unfold H5.shapeAt at hp
    split at hp
    · simp at hh
    · simp at hh
    · simp only [List.take_succ_cons, List.take_zero, List.cons.injEq, true_and, and_true] at hh
      left; rw [hh]
    · simp only [List.take_succ_cons, List.take_zero, List.cons.injEq, true_and, and_true] at hh
      right; left
      rw [hh, b3] at hp
      change grp.connection.map _ = _ at hp
      rw [e2] at hp
      cases hc : dget io.lagConn name with
      | none => rw [hc] at hp; cases hp
      | some c => exact ⟨[1, N], by simp [hh]⟩
    · simp only [List.take_succ_cons, List.take_zero, List.cons.injEq, true_and, and_true] at hh
      rw [hh, b3] at hp
      exact Or.inr (Or.inr (field ["Scalar", _] (by rw [hh]) hp))
    · simp only [List.take_succ_cons, List.take_zero, List.cons.injEq, true_and, and_true] at hh
      rw [hh, b3] at hp
      exact Or.inr (Or.inr (field ["Vector", _] (by rw [hh]) hp))
    · cases hp


/-! ## Which description ends up in which file -/

/-- `W` is one possible order of the file writes of all ranks; `L r` are the writes of rank `r`, in its order. -/
def Interleaves {β : Type} (L : ℤ → List β) (W : List (ℤ × β)) : Prop := ∀ r, (W.filter fun w => w.1 = r).map Prod.snd = L r

/-- What a file contains after the writes `W`. -/
def lastWrite {β : Type} (W : List (ℤ × (List Char × β))) (file : List Char) : Option β := (W.reverse.find? fun w => w.2.1 = file).map fun w => w.2.2

omit [DecidableEq I] [Zero α]

theorem lastWrite_pred {β : Type} {W V : List (ℤ × (List Char × β))} {file : List Char} {P : β → Prop} (he : ∃ w ∈ V, w.2.1 = file)
    (ha : ∀ w ∈ V, w.2.1 = file → P w.2.2) : ∃ x, lastWrite (W ++ V) file = some x ∧ P x := by
  unfold lastWrite
  rw [List.reverse_append, List.find?_append]
  cases hf : V.reverse.find? fun w => decide (w.2.1 = file) with
  | none =>
    obtain ⟨w, hw, e⟩ := he
    have := List.find?_eq_none.1 hf w (List.mem_reverse.2 hw)
    simp [e] at this
  | some w =>
    have h1 := List.find?_some hf
    have h2 := List.mem_of_find?_eq_some hf
    simp only [decide_eq_true_eq] at h1
    exact ⟨w.2.2, by simp only [Option.some_or, Option.map_some], ha w (List.mem_reverse.1 h2) h1⟩

theorem lastWrite_append {β : Type} {W V : List (ℤ × (List Char × β))} {file : List Char} {x : β} (he : ∃ w ∈ V, w.2.1 = file)
    (ha : ∀ w ∈ V, w.2.1 = file → w.2.2 = x) : lastWrite (W ++ V) file = some x := by
  obtain ⟨y, hy, e⟩ := lastWrite_pred (W := W) (P := fun y => y = x) he ha
  rw [hy, e]

theorem lastWrite_const {β : Type} {V : List (ℤ × (List Char × β))} {file : List Char} {x : β} (he : ∃ w ∈ V, w.2.1 = file)
    (ha : ∀ w ∈ V, w.2.1 = file → w.2.2 = x) : lastWrite V file = some x := lastWrite_append (W := []) he ha

theorem Interleaves.mem {β : Type} {L : ℤ → List β} {W : List (ℤ × β)} (h : Interleaves L W) {w : ℤ × β} : w ∈ W ↔ w.2 ∈ L w.1 := by
  rw [← h w.1, List.mem_map]
  constructor
  · intro hw
    exact ⟨w, List.mem_filter.2 ⟨hw, by simp⟩, rfl⟩
  · rintro ⟨v, hv, e⟩
    obtain ⟨hv, e1⟩ := List.mem_filter.1 hv
    simp only [decide_eq_true_eq] at e1
    rwa [← Prod.ext (x := v) (y := w) e1 e]

/-! ### File names -/

theorem pyReplace_mono (old n1 n2 : List Char) (hl : n1.length ≤ n2.length) (s : List Char) : (pyReplace old n1 s).length ≤ (pyReplace old n2 s).length := by
  induction hk : s.length using Nat.strong_induction_on generalizing s with
  | _ n ih =>
    cases s with
    | nil => rw [pyReplace, pyReplace]
    | cons c s =>
      rw [pyReplace, pyReplace]
      split
      · rename_i h
        have h1 : 0 < old.length := List.length_pos_iff.2 h.2
        have := ih _ (by simp only [List.length_drop, List.length_cons] at *; omega) ((c :: s).drop old.length) rfl
        simp only [List.length_append]
        omega
      · simp only [List.length_cons] at *
        have := ih s.length (by omega) s rfl
        omega

theorem pyReplace_inj_len (old n1 n2 : List Char) (hold : old ≠ []) (s : List Char) (hi : old <:+: s) (e : pyReplace old n1 s = pyReplace old n2 s) :
    n1.length ≤ n2.length := by
  by_contra hc
  push Not at hc
  have : (pyReplace old n2 s).length < (pyReplace old n1 s).length := by
    clear e
    induction s with
    | nil => simp at hi; exact absurd hi hold
    | cons c s ih =>
      rw [pyReplace, pyReplace]
      split
      · have := pyReplace_mono old n2 n1 hc.le ((c :: s).drop old.length)
        simp only [List.length_append]
        omega
      · rename_i hp
        rcases List.infix_cons_iff.1 hi with h | h
        · exact absurd ⟨List.isPrefixOf_iff_prefix.2 h, hold⟩ hp
        · have := ih h
          simp only [List.length_cons]
          omega
  rw [e] at this
  omega

theorem pyReplace_inj (old n1 n2 : List Char) (hold : old ≠ []) (s : List Char) (hi : old <:+: s) (e : pyReplace old n1 s = pyReplace old n2 s) : n1 = n2 := by
  have hl : n1.length = n2.length := le_antisymm (pyReplace_inj_len old n1 n2 hold s hi e) (pyReplace_inj_len old n2 n1 hold s hi e.symm)
  induction s with
  | nil => simp at hi; exact absurd hi hold
  | cons c s ih =>
    rw [pyReplace, pyReplace] at e
    split at e
    · exact (List.append_inj e hl).1
    · rename_i hp
      rcases List.infix_cons_iff.1 hi with h | h
      · exact absurd ⟨List.isPrefixOf_iff_prefix.2 h, hold⟩ hp
      · exact ih h (List.cons.inj e).2

/-- **C81** Files of different grids have different names (when the HDF5 file name contains `.h5`). -/
theorem xdmfName_inj {h5 : List Char} (hh : ".h5".toList <:+: h5) {a b : String} : xdmfName h5 a = xdmfName h5 b ↔ a = b := by
  refine ⟨fun e => ?_, fun e => by rw [e]⟩
  have h1 := pyReplace_inj ".h5".toList _ _ (by decide) h5 hh e
  rw [String.toList_append, String.toList_append, String.toList_append, String.toList_append] at h1
  have h2 := List.append_cancel_right h1
  have h3 := List.append_cancel_left h2
  exact String.toList_injective h3

/-! ### The writes of a rank -/

theorem xdmfLagAll_mem {dim : ℕ} {io : MPIIO} {shapeOf : ℕ → List ℕ} {h5 : List Char} {t : τ} (gs : List (String × ℕ)) {l : List (List Char × XFile τ)}
    (h : xdmfLagAll dim io shapeOf h5 t gs = .ok l) (w : List Char × XFile τ) :
    w ∈ l ↔ ∃ q ∈ gs, ∃ x, xdmfLag dim io shapeOf t q.1 q.2 = .ok x ∧ w = (xdmfName h5 q.1, .lag x) := by
  induction gs generalizing l with
  | nil => simp only [xdmfLagAll, Except.ok.injEq] at h; subst h; simp
  | cons q gs ih =>
    obtain ⟨name, ref⟩ := q
    simp only [xdmfLagAll, bind, Except.bind] at h
    split at h
    · cases h
    · rename_i x hx
      split at h
      · cases h
      · rename_i l' hl
        cases h
        rw [List.mem_cons, ih hl]
        constructor
        · rintro (rfl | ⟨q, hq, x, h1, h2⟩)
          · exact ⟨_, List.mem_cons_self, x, hx, rfl⟩
          · exact ⟨q, List.mem_cons_of_mem _ hq, x, h1, h2⟩
        · rintro ⟨q, hq, x', h1, h2⟩
          rcases List.mem_cons.1 hq with rfl | hq
          · left
            rw [hx] at h1
            cases h1
            exact h2
          · exact Or.inr ⟨q, hq, x', h1, h2⟩

theorem xdmfLagAll_each {dim : ℕ} {io : MPIIO} {shapeOf : ℕ → List ℕ} {h5 : List Char} {t : τ} (gs : List (String × ℕ)) {l : List (List Char × XFile τ)}
    (h : xdmfLagAll dim io shapeOf h5 t gs = .ok l) : ∀ q ∈ gs, ∃ x, xdmfLag dim io shapeOf t q.1 q.2 = .ok x := by
  induction gs generalizing l with
  | nil => simp
  | cons q gs ih =>
    obtain ⟨name, ref⟩ := q
    simp only [xdmfLagAll, bind, Except.bind] at h
    split at h
    · cases h
    · rename_i x hx
      split at h
      · cases h
      · rename_i l' hl
        intro q hq
        rcases List.mem_cons.1 hq with rfl | hq
        · exact ⟨x, hx⟩
        · exact ih hl q hq

theorem mapM_const {β γ : Type} (a : Except PyErr γ) (l : List β) : l.mapM (fun _ => a) =
    if l = [] then .ok [] else a.map fun y => List.replicate l.length y := by
  induction l with
  | nil => rfl
  | cons x l ih =>
    rw [List.mapM_cons, ih]
    cases a with
    | error e => rfl
    | ok y =>
      by_cases hl : l = []
      · subst hl; rfl
      · simp only [hl, if_false, reduceCtorEq]
        rfl

/-- The writes of a rank: the Eulerian file by rank 0, and all Lagrangian files by every master. -/
theorem xdmfWrites_mem {dim : ℕ} {io : MPIIO} {shapeOf : ℤ → ℕ → List ℕ} {h5 : List Char} {t : τ} {r : ℤ} {l : List (List Char × XFile τ)}
    (h : xdmfWrites dim io shapeOf h5 t r = .ok l) (w : List Char × XFile τ) :
    w ∈ l ↔ ((r = 0 ∧ io.eulDefined = true ∧ io.eulFields ≠ []) ∧ ∃ x, xdmfEul dim io t = .ok x ∧ w = (xdmfName h5 "eulerian", .eul x)) ∨
      ((∃ q ∈ io.lagGrids, dget io.lagMaster q.1 = some r) ∧
        ∃ q ∈ io.lagGrids, ∃ x, xdmfLag dim io (shapeOf r) t q.1 q.2 = .ok x ∧ w = (xdmfName h5 q.1, .lag x)) := by
  unfold xdmfWrites at h
  simp only [mapM_const, bind, Except.bind] at h
  split at h
  · cases h
  · rename_i e he
    have he' : w ∈ e ↔ ((r = 0 ∧ io.eulDefined = true ∧ io.eulFields ≠ []) ∧ ∃ x, xdmfEul dim io t = .ok x ∧ w = (xdmfName h5 "eulerian", .eul x)) := by
      split at he
      · rename_i hc
        split at he
        · cases he
        · rename_i x hx
          cases he
          simp only [hx, Except.ok.injEq, exists_eq_left', List.mem_singleton]
          exact ⟨fun h => ⟨hc, h⟩, fun h => h.2⟩
      · rename_i hc
        cases he
        simp only [List.not_mem_nil, false_iff]
        exact fun h => hc h.1
    have hm : (io.lagGrids.filter fun q => decide (dget io.lagMaster q.1 = some r)) = [] ↔ ¬ ∃ q ∈ io.lagGrids, dget io.lagMaster q.1 = some r := by
      rw [List.filter_eq_nil_iff]
      simp
    split at h
    · cases h
    · rename_i ls hls
      cases h
      rw [List.mem_append, he']
      refine or_congr Iff.rfl ?_
      split at hls
      · rename_i h0
        cases hls
        have := hm.1 h0
        simp [this]
      · rename_i h0
        rw [hm, not_not] at h0
        cases ha : xdmfLagAll dim io (shapeOf r) h5 t io.lagGrids with
        | error e => rw [ha] at hls; cases hls
        | ok y =>
          rw [ha] at hls
          cases hls
          rw [← xdmfLagAll_mem _ ha w, List.mem_flatten]
          constructor
          · rintro ⟨l', h1, h2⟩
            rw [List.mem_replicate] at h1
            exact ⟨h0, h1.2 ▸ h2⟩
          · rintro ⟨_, h2⟩
            refine ⟨y, List.mem_replicate.2 ⟨?_, rfl⟩, h2⟩
            rw [Ne, List.length_eq_zero_iff, hm, not_not]
            exact h0

theorem xdmfWrites_split {dim : ℕ} {io : MPIIO} {shapeOf : ℤ → ℕ → List ℕ} {h5 : List Char} {t : τ} {r : ℤ} {l : List (List Char × XFile τ)}
    (h : xdmfWrites dim io shapeOf h5 t r = .ok l) : ∃ e ls, l = e ++ ls ∧ (∀ w ∈ ls, ∃ x, w.2 = XFile.lag x) ∧
      ((∃ q ∈ io.lagGrids, dget io.lagMaster q.1 = some r) → ∀ q ∈ io.lagGrids, ∃ x, (xdmfName h5 q.1, XFile.lag x) ∈ ls) := by
  unfold xdmfWrites at h
  simp only [mapM_const, bind, Except.bind] at h
  split at h
  · cases h
  · rename_i e he
    split at h
    · cases h
    · rename_i ls hls
      cases h
      refine ⟨e, ls.flatten, rfl, ?_⟩
      split at hls
      · rename_i h0
        cases hls
        rw [List.filter_eq_nil_iff] at h0
        refine ⟨by simp, ?_⟩
        rintro ⟨q, hq, hr⟩
        exact absurd (by simpa using hr) (h0 _ hq)
      · rename_i h0
        cases ha : xdmfLagAll dim io (shapeOf r) h5 t io.lagGrids with
        | error e => rw [ha] at hls; cases hls
        | ok y =>
          rw [ha] at hls
          cases hls
          have hmem : ∀ w, w ∈ (List.replicate (List.filter (fun q => decide (dget io.lagMaster q.1 = some r)) io.lagGrids).length y).flatten ↔ w ∈ y := by
            intro w
            rw [List.mem_flatten]
            constructor
            · rintro ⟨l', h1, h2⟩
              rw [List.mem_replicate] at h1
              exact h1.2 ▸ h2
            · intro h2
              exact ⟨y, List.mem_replicate.2 ⟨by rwa [Ne, List.length_eq_zero_iff], rfl⟩, h2⟩
          constructor
          · intro w hw
            obtain ⟨q, -, x, -, hx⟩ := (xdmfLagAll_mem _ ha w).1 ((hmem w).1 hw)
            exact ⟨x, by rw [hx]⟩
          · intro _ q hq
            obtain ⟨x, hx⟩ := xdmfLagAll_each _ ha q hq
            exact ⟨x, (hmem _).2 ((xdmfLagAll_mem _ ha _).2 ⟨q, hq, x, hx, rfl⟩)⟩

/-- **C81** When all Lagrangian grids have the same master, no grid is named "eulerian" and the HDF5 file name contains `.h5`, then in whatever order the ranks write,
the Eulerian XDMF file ends up with the Eulerian description and the file of every grid with the description of that grid by its master. -/
theorem xdmf_files {dim : ℕ} {io : MPIIO} {shapeOf : ℤ → ℕ → List ℕ} {h5 : List Char} {t : τ} (hh : ".h5".toList <:+: h5)
    {m : ℤ} (hm : ∀ q ∈ io.lagGrids, dget io.lagMaster q.1 = some m) (hnd : (io.lagGrids.map Prod.fst).Nodup) (hE : "eulerian" ∉ io.lagGrids.map Prod.fst)
    {L : ℤ → List (List Char × XFile τ)} (hL : ∀ r, xdmfWrites dim io shapeOf h5 t r = .ok (L r)) {W : List (ℤ × (List Char × XFile τ))} (hW : Interleaves L W) :
    (io.eulDefined = true → io.eulFields ≠ [] → ∃ x, xdmfEul dim io t = .ok x ∧ lastWrite W (xdmfName h5 "eulerian") = some (.eul x)) ∧
    (∀ name ref, (name, ref) ∈ io.lagGrids → ∃ x, xdmfLag dim io (shapeOf m) t name ref = .ok x ∧ lastWrite W (xdmfName h5 name) = some (.lag x)) := by
  constructor
  · intro hd hf
    cases hx : xdmfEul dim io t with
    | error e =>
      have := hL 0
      simp [xdmfWrites, hd, hf, hx, bind, Except.bind] at this
    | ok x =>
      refine ⟨x, rfl, lastWrite_const ⟨(0, (xdmfName h5 "eulerian", .eul x)), hW.mem.2 ?_, rfl⟩ ?_⟩
      · exact (xdmfWrites_mem (hL 0) _).2 (Or.inl ⟨⟨rfl, hd, hf⟩, x, hx, rfl⟩)
      · intro w hw e
        rcases (xdmfWrites_mem (hL w.1) _).1 (hW.mem.1 hw) with ⟨_, x', h1, h2⟩ | ⟨_, q, hq, x', h1, h2⟩
        · rw [hx] at h1
          cases h1
          rw [h2]
        · rw [h2] at e
          have := (xdmfName_inj hh).1 e
          exact absurd (List.mem_map.2 ⟨q, hq, this⟩) hE
  · intro name ref hg
    have hmm : ∃ q ∈ io.lagGrids, dget io.lagMaster q.1 = some m := ⟨_, hg, hm _ hg⟩
    have hok : ∃ x, xdmfLag dim io (shapeOf m) t name ref = .ok x := by
      have h1 := hL m
      unfold xdmfWrites at h1
      simp only [mapM_const, bind, Except.bind] at h1
      split at h1
      · cases h1
      · split at h1
        · cases h1
        · rename_i ls hls
          split at hls
          · rename_i h0
            rw [List.filter_eq_nil_iff] at h0
            exact absurd (by simpa using hm _ hg) (h0 _ hg)
          · cases ha : xdmfLagAll dim io (shapeOf m) h5 t io.lagGrids with
            | error e => rw [ha] at hls; cases hls
            | ok y => exact xdmfLagAll_each _ ha _ hg
    obtain ⟨x, hx⟩ := hok
    refine ⟨x, hx, lastWrite_const ⟨(m, (xdmfName h5 name, .lag x)), hW.mem.2 ?_, rfl⟩ ?_⟩
    · exact (xdmfWrites_mem (hL m) _).2 (Or.inr ⟨hmm, _, hg, x, hx, rfl⟩)
    · intro w hw e
      rcases (xdmfWrites_mem (hL w.1) _).1 (hW.mem.1 hw) with ⟨_, x', h1, h2⟩ | ⟨⟨q0, hq0, hr⟩, q, hq, x', h1, h2⟩
      · rw [h2] at e
        have := (xdmfName_inj hh).1 e
        exact absurd (List.mem_map.2 ⟨_, hg, this.symm⟩) hE
      · rw [h2] at e
        have e1 : q.1 = name := (xdmfName_inj hh).1 e
        have e2 : q.2 = ref := by
          have a1 := dget_of_mem hnd (k := q.1) (v := q.2) hq
          have a2 := dget_of_mem hnd hg
          rw [e1, a2] at a1
          cases a1; rfl
        have e3 : w.1 = m := by
          rw [hm _ hq0] at hr
          cases hr; rfl
        rw [e3, e1, e2, hx] at h1
        cases h1
        rw [h2]

theorem xdmfLagItems_size {io : MPIIO} {g : String} {size size' : List ℕ} (fs : List String) {l : List XItem} (h : xdmfLagItems io g size fs = .ok l) :
    ∃ l', xdmfLagItems io g size' fs = .ok l' := by
  induction fs generalizing l with
  | nil => exact ⟨[], rfl⟩
  | cons n fs ih =>
    unfold xdmfLagItems at h ⊢
    cases ht : dget io.lagTypes n with
    | none => rw [ht] at h; cases h
    | some ty =>
      rw [ht] at h
      cases ty <;>
      · simp only [bind, Except.bind] at h ⊢
        split at h
        · cases h
        · rename_i l1 h1
          obtain ⟨l2, h2⟩ := ih h1
          rw [h2]
          exact ⟨_, rfl⟩

theorem xdmfLag_anyShape {dim : ℕ} {io : MPIIO} {shapeOf shapeOf' : ℕ → List ℕ} {t : τ} {name : String} {ref : ℕ} {x : XLag τ}
    (h : xdmfLag dim io shapeOf t name ref = .ok x) :
    ∃ x', xdmfLag dim io shapeOf' t name ref = .ok x' ∧ x'.grid = ((shapeOf' ref).reverse, ["Lagrangian", name, "Grid"]) := by
  unfold xdmfLag at h ⊢
  cases hf : dget io.lagOn name with
  | none => rw [hf] at h; cases h
  | some fs =>
    rw [hf] at h
    simp only [bind, Except.bind] at h ⊢
    split at h
    · cases h
    · rename_i l1 h1
      obtain ⟨l2, h2⟩ := xdmfLagItems_size (size' := (shapeOf' ref).reverse) fs h1
      rw [h2]
      exact ⟨_, rfl, rfl⟩

theorem xdmfLagAll_ok {dim : ℕ} {io : MPIIO} {shapeOf : ℕ → List ℕ} {h5 : List Char} {t : τ} (gs : List (String × ℕ))
    (h : ∀ q ∈ gs, ∃ x, xdmfLag dim io shapeOf t q.1 q.2 = .ok x) : ∃ l, xdmfLagAll dim io shapeOf h5 t gs = .ok l := by
  induction gs with
  | nil => exact ⟨[], rfl⟩
  | cons q gs ih =>
    obtain ⟨name, ref⟩ := q
    obtain ⟨x, hx⟩ := h _ List.mem_cons_self
    obtain ⟨l, hl⟩ := ih fun q hq => h q (List.mem_cons_of_mem _ hq)
    exact ⟨(xdmfName h5 name, .lag x) :: l, by simp only [xdmfLagAll, hx, hl, bind, Except.bind]⟩

variable [DecidableEq I] [Zero α]

/-- **C81** When writing the HDF5 file succeeds, generating the XDMF files succeeds on every rank, whatever the shapes of its own arrays. -/
theorem xdmfWrites_ok {geo : IOGeo R I} {order : String → List R} {h : Heap R I α} {io : MPIIO} {t : τ} {f : H5 τ I α} (hs : save geo order h io t = .ok f)
    (shapeOf : ℤ → ℕ → List ℕ) (h5 : List Char) (r : ℤ) : ∃ l, xdmfWrites geo.dim io shapeOf h5 t r = .ok l := by
  have hlag : ∃ l, xdmfLagAll geo.dim io (shapeOf r) h5 t io.lagGrids = .ok l := by
    apply xdmfLagAll_ok
    rintro ⟨name, ref⟩ hq
    obtain ⟨x, N, hx, -⟩ := xdmfLag_describes hs hq (shapeOf := fun r => (h.lag r).shape) rfl
    obtain ⟨x', hx', -⟩ := xdmfLag_anyShape (shapeOf' := shapeOf r) hx
    exact ⟨x', hx'⟩
  obtain ⟨l, hl⟩ := hlag
  unfold xdmfWrites
  simp only [mapM_const, hl, bind, Except.bind, pure, Except.pure]
  by_cases hc : r = 0 ∧ io.eulDefined = true ∧ io.eulFields ≠ []
  · obtain ⟨x, hx, -⟩ := xdmfEul_describes hs hc.2.1 hc.2.2
    rw [if_pos hc, hx]
    dsimp only
    split
    · rename_i h1; split at h1 <;> cases h1
    · exact ⟨_, rfl⟩
  · rw [if_neg hc]
    dsimp only
    split
    · rename_i h1; split at h1 <;> cases h1
    · exact ⟨_, rfl⟩

/-- **C81** With two masters the description of a grid can be wrong: every master writes the files of *all* grids from the shapes of its own arrays, and if the master
of another grid comes last, the file of grid `A` describes the array that this other rank holds. -/
theorem xdmf_two_masters {geo : IOGeo R I} {order : String → List R} {h : Heap R I α} {io : MPIIO} {t : τ} {f : H5 τ I α} (hs : save geo order h io t = .ok f)
    {shapeOf : ℤ → ℕ → List ℕ} {h5 : List Char} (hh : ".h5".toList <:+: h5) (hnd : (io.lagGrids.map Prod.fst).Nodup)
    {A B : String} {refA refB : ℕ} (hA : (A, refA) ∈ io.lagGrids) (hB : (B, refB) ∈ io.lagGrids) {mB : ℤ} (hmB : dget io.lagMaster B = some mB)
    (hA' : A ≠ "eulerian") (hne : shapeOf mB refA ≠ (h.lag refA).shape) :
    ∃ L W x, (∀ r, xdmfWrites geo.dim io shapeOf h5 t r = .ok (L r)) ∧ Interleaves L W ∧ lastWrite W (xdmfName h5 A) = some (.lag x) ∧
      x.grid.2 = ["Lagrangian", A, "Grid"] ∧ f.shapeAt x.grid.2 ≠ some x.grid.1 := by
  choose L hL using xdmfWrites_ok hs shapeOf h5
  obtain ⟨x0, N, hx0, -, -, hg1, hg2, -⟩ := xdmfLag_describes hs hA (shapeOf := fun r => (h.lag r).shape) rfl
  obtain ⟨x0', hx0', hgr⟩ := xdmfLag_anyShape (shapeOf' := fun r => (h.lag r).shape) hx0
  rw [hx0] at hx0'
  cases hx0'
  obtain ⟨x, hx, hxg⟩ := xdmfLag_anyShape (shapeOf' := shapeOf mB) hx0
  let S : List ℤ := ((0 :: io.lagGrids.filterMap fun q => dget io.lagMaster q.1).dedup).filter fun r => r ≠ mB
  let pre : List (ℤ × (List Char × XFile τ)) := S.flatMap fun r => (L r).map fun w => (r, w)
  have hfil : ∀ (r s : ℤ) (l : List (List Char × XFile τ)), (((l.map fun w => (r, w)).filter fun w => decide (w.1 = s)).map Prod.snd) = if r = s then l else [] := by
    intro r s l
    by_cases e : r = s
    · rw [if_pos e, List.filter_eq_self.2, List.map_map]
      · exact List.map_id l
      · intro w hw
        obtain ⟨v, -, rfl⟩ := List.mem_map.1 hw
        simpa using e
    · rw [if_neg e, List.filter_eq_nil_iff.2]
      · rfl
      · intro w hw
        obtain ⟨v, -, rfl⟩ := List.mem_map.1 hw
        simpa using e
  have hpre : ∀ (s : ℤ) (S : List ℤ), S.Nodup → (((S.flatMap fun r => (L r).map fun w => (r, w)).filter fun w => decide (w.1 = s)).map Prod.snd) = if s ∈ S then L s else [] := by
    intro s S hS
    induction S with
    | nil => rfl
    | cons a S ih =>
      rw [List.nodup_cons] at hS
      rw [List.flatMap_cons, List.filter_append, List.map_append, ih hS.2, hfil]
      by_cases e : a = s
      · subst e
        simp [hS.1]
      · have : ¬ s = a := fun h => e h.symm
        simp [e, this]
  refine ⟨L, pre ++ (L mB).map fun w => (mB, w), x, hL, ?_, ?_, by rw [hxg], ?_⟩
  · intro r
    rw [List.filter_append, List.map_append, hpre r S ((List.nodup_dedup _).filter _), hfil]
    by_cases e : mB = r
    · subst e
      have : mB ∉ S := by simp [S]
      rw [if_neg this, if_pos rfl]; rfl
    · rw [if_neg e]
      by_cases hr : r ∈ S
      · rw [if_pos hr, List.append_nil]
      · rw [if_neg hr]
        symm
        rw [List.append_nil]
        refine List.eq_nil_iff_forall_not_mem.2 fun w hw => hr ?_
        rw [List.mem_filter]
        refine ⟨List.mem_dedup.2 ?_, by simpa using fun h => e h.symm⟩
        rcases (xdmfWrites_mem (hL r) w).1 hw with ⟨⟨h0, -⟩, -⟩ | ⟨⟨q, hq, hq'⟩, -⟩
        · rw [h0]; exact List.mem_cons_self
        · exact List.mem_cons_of_mem _ (List.mem_filterMap.2 ⟨q, hq, hq'⟩)
  · apply lastWrite_append
    · exact ⟨_, List.mem_map.2 ⟨_, (xdmfWrites_mem (hL mB) (xdmfName h5 A, .lag x)).2 (Or.inr ⟨⟨_, hB, hmB⟩, _, hA, x, hx, rfl⟩), rfl⟩, rfl⟩
    · intro w hw e
      obtain ⟨v, hv, rfl⟩ := List.mem_map.1 hw
      dsimp only at e ⊢
      rcases (xdmfWrites_mem (hL mB) v).1 hv with ⟨-, x', h1, h2⟩ | ⟨-, q, hq, x', h1, h2⟩
      · rw [h2] at e
        exact absurd ((xdmfName_inj hh).1 e).symm hA'
      · rw [h2] at e
        have e1 : q.1 = A := (xdmfName_inj hh).1 e
        have e2 : q.2 = refA := by
          have a1 := dget_of_mem hnd (k := q.1) (v := q.2) hq
          have a2 := dget_of_mem hnd hA
          rw [e1, a2] at a1
          cases a1; rfl
        rw [e1, e2, hx] at h1
        cases h1
        rw [h2]
  · rw [hxg]
    rw [hgr] at hg2
    change f.shapeAt ["Lagrangian", A, "Grid"] = _ at hg2
    change f.shapeAt ["Lagrangian", A, "Grid"] ≠ _
    rw [hg2]
    simp only [ne_eq, Option.some.injEq, List.reverse_inj]
    exact fun e => hne e.symm

/-- **C81** A grid named "eulerian" (with master 0) takes over the file of the Eulerian fields. -/
theorem xdmf_grid_named_eulerian {geo : IOGeo R I} {order : String → List R} {h : Heap R I α} {io : MPIIO} {t : τ} {f : H5 τ I α} (hs : save geo order h io t = .ok f)
    {shapeOf : ℤ → ℕ → List ℕ} {h5 : List Char} (hm : ∀ q ∈ io.lagGrids, dget io.lagMaster q.1 = some 0) (hE : "eulerian" ∈ io.lagGrids.map Prod.fst)
    {L : ℤ → List (List Char × XFile τ)} (hL : ∀ r, xdmfWrites geo.dim io shapeOf h5 t r = .ok (L r)) {W : List (ℤ × (List Char × XFile τ))} (hW : Interleaves L W) :
    ∃ x, lastWrite W (xdmfName h5 "eulerian") = some (.lag x) := by
  obtain ⟨⟨nm, ref⟩, hq, hnm⟩ := List.mem_map.1 hE
  dsimp only at hnm
  subst hnm
  have hall : ∀ w ∈ W, w.1 = 0 := by
    intro w hw
    rcases (xdmfWrites_mem (hL w.1) _).1 (hW.mem.1 hw) with ⟨h0, -⟩ | ⟨⟨q, hq, hr⟩, -⟩
    · exact h0.1
    · rw [hm q hq] at hr
      exact (Option.some.inj hr).symm
  have hW0 : W.map Prod.snd = L 0 := by
    rw [← hW 0, List.filter_eq_self.2]
    intro w hw
    simpa using hall w hw
  obtain ⟨e, ls, hl, h1, h2⟩ := xdmfWrites_split (hL 0)
  obtain ⟨x, hx⟩ := h2 ⟨_, hq, hm _ hq⟩ _ hq
  rw [hl] at hW0
  obtain ⟨W1, W2, rfl, -, hW2⟩ := List.map_eq_append_iff.1 hW0
  obtain ⟨c, hc, x', hx'⟩ := lastWrite_pred (W := W1) (V := W2) (file := xdmfName h5 "eulerian") (P := fun c => ∃ x, c = XFile.lag x) (by
    rw [← hW2] at hx
    obtain ⟨w, hw, e⟩ := List.mem_map.1 hx
    exact ⟨w, hw, by rw [e]⟩) (by
    intro w hw _
    exact h1 _ (by rw [← hW2]; exact List.mem_map.2 ⟨w, hw, rfl⟩))
  exact ⟨x', by rw [hc, hx']⟩

end

/-! ## Non-vacuity -/

section Example

/-- One rank, no Eulerian grid. -/
def exXGeo : IOGeo C2 C2 := ioGeo2 ⟨4, 4, 1, 1, 4, 4, false⟩ 1

/-- What two ranks see: rank 0 owns the array of grid "a", rank 1 the array of grid "b"; elsewhere the arrays are empty. -/
def exShapes (r : ℤ) (ref : ℕ) : List ℕ :=
  if (ref = 0 ∨ ref = 3) ∧ r ≠ (if ref = 0 then 0 else 1) then [2, 0] else (exLagHeap.lag ref).shape

/-- Two grids with masters 0 and 1. -/
def exXIo : MPIIO := (lagRegister 2 exLagHeap {} exLagRegs).1

/-- Two grids on rank 0. -/
def exXIo0 : MPIIO := (lagRegister 2 exLagHeap {} [⟨0, 0, "a", true, [("s", 1), ("v", 2)]⟩, ⟨0, 3, "b", false, [("q", 4)]⟩]).1

theorem exXIo_grids : exXIo.lagGrids = [("a", 0), ("b", 3)] := rfl

theorem exXIo0_grids : exXIo0.lagGrids = [("a", 0), ("b", 3)] := rfl

/-- The hypotheses of `xdmfLag_describes` and `xdmf_two_masters` hold for `exXIo`. -/
example : (∃ f, save exXGeo (fun _ => []) exLagHeap exXIo (0 : ℕ) = .ok f) ∧
    ("a", 0) ∈ exXIo.lagGrids ∧ ("b", 3) ∈ exXIo.lagGrids ∧ dget exXIo.lagMaster "b" = some 1 ∧ (exXIo.lagGrids.map Prod.fst).Nodup ∧
    exShapes 1 0 ≠ (exLagHeap.lag 0).shape ∧ ".h5".toList <:+: "sim_0001.h5".toList := by
  rw [exXIo_grids]
  exact ⟨⟨_, rfl⟩, by simp, by simp, rfl, by decide, by decide, ⟨"sim_0001".toList, [], by decide⟩⟩

/-- A run that meets the hypotheses of `xdmf_files`: both grids on rank 0. -/
example : (∃ f, save exXGeo (fun _ => []) exLagHeap exXIo0 (0 : ℕ) = .ok f) ∧ (∀ q ∈ exXIo0.lagGrids, dget exXIo0.lagMaster q.1 = some 0) ∧
    (exXIo0.lagGrids.map Prod.fst).Nodup ∧ "eulerian" ∉ exXIo0.lagGrids.map Prod.fst := by
  rw [exXIo0_grids]
  refine ⟨⟨_, rfl⟩, ?_, by decide, by decide⟩
  intro q hq
  simp only [List.mem_cons, List.not_mem_nil, or_false] at hq
  rcases hq with rfl | rfl <;> rfl

end Example

end Sopht
