import Verif.IOLemmas

/-! # The Eulerian half of save and load, for any geometry -/

namespace Sopht

section
variable {R I α : Type} [DecidableEq I]

/-- Number of components of a registered array, read off its shape: one for a scalar field, `dim` for a vector field. -/
def ncomp (geo : IOGeo R I) (a : EArr R I α) : ℕ := if a.shape = geo.localShape then 1 else geo.dim

/-- Dataset `d` contains the global field `F`. -/
def DHolds (geo : IOGeo R I) (gridSize : List ℕ) (d : EDSet I α) (F : I → α) : Prop :=
  d.shape = gridSize ∧ ∀ G, geo.inShape gridSize G = true → d.elt G = F G

theorem all_inShape {geo : IOGeo R I} {gix : R → I → I} {gs : List ℕ} (hg : GeoOK geo gix gs) :
    (geo.ranks.all fun c => (geo.fileSel c).all (geo.inShape gs)) = true := by
  rw [List.all_eq_true]
  intro c hc
  rw [List.all_eq_true]
  intro G hG
  exact (hg.cover G).2 ⟨c, hc, hG⟩

theorem writeDataset_ok [Zero α] {geo : IOGeo R I} {gix : R → I → I} {gs : List ℕ} (hg : GeoOK geo gix gs)
    {order : List R} (ho : ∀ c, c ∈ order ↔ c ∈ geo.ranks) {f : R → I → α} {F : I → α}
    (hf : ∀ c ∈ geo.ranks, ∀ p ∈ geo.innerSel, f c p = F (gix c p)) :
    ∃ d, writeDataset geo gs order f = .ok d ∧ DHolds geo gs d F := by
  unfold writeDataset
  rw [if_pos (all_inShape hg)]
  refine ⟨_, rfl, rfl, ?_⟩
  intro G hG
  simp only
  rw [foldl_writeSel order geo.fileSel (fun c => geo.innerSel.map (f c)) F]
  · rw [if_pos]
    obtain ⟨c, h1, h2⟩ := (hg.cover G).1 hG
    exact ⟨c, (ho c).2 h1, h2⟩
  · intro c hc
    rw [hg.sel c ((ho c).1 hc), List.map_map]
    apply List.map_congr_left
    intro p hp
    exact hf c ((ho c).1 hc) p hp

/-- What a file group must contain for field `name` of type `ty`. -/
def Stored (geo : IOGeo R I) (gs : List ℕ) (grp : EGroup I α) (F : ℕ → I → α) (name : String) (ty : FType) : Prop :=
  match ty with
  | .scalar => ∃ d, dget grp.scalars name = some d ∧ DHolds geo gs d (F 0)
  | .vector => ∀ k < geo.dim, ∃ d, dget grp.vectors (compName name k) = some d ∧ DHolds geo gs d (F k)

/-- Everything that is in `a` is in `b`. -/
def GrpLE (a b : EGroup I α) : Prop :=
  (∀ s d, dget a.scalars s = some d → dget b.scalars s = some d) ∧
  (∀ s d, dget a.vectors s = some d → dget b.vectors s = some d) ∧
  b.origin = a.origin ∧ b.dx = a.dx ∧ b.gridSize = a.gridSize

theorem GrpLE.refl (a : EGroup I α) : GrpLE a a := ⟨fun _ _ h => h, fun _ _ h => h, rfl, rfl, rfl⟩

theorem GrpLE.trans {a b c : EGroup I α} (h : GrpLE a b) (h' : GrpLE b c) : GrpLE a c :=
  ⟨fun s d x => h'.1 s d (h.1 s d x), fun s d x => h'.2.1 s d (h.2.1 s d x), h'.2.2.1.trans h.2.2.1,
    h'.2.2.2.1.trans h.2.2.2.1, h'.2.2.2.2.trans h.2.2.2.2⟩

theorem Stored.mono {geo : IOGeo R I} {gs : List ℕ} {a b : EGroup I α} (hab : GrpLE a b) {F : ℕ → I → α} {name : String}
    {ty : FType} (h : Stored geo gs a F name ty) : Stored geo gs b F name ty := by
  cases ty with
  | scalar =>
    obtain ⟨d, h1, h2⟩ := h
    exact ⟨d, hab.1 _ _ h1, h2⟩
  | vector =>
    intro k hk
    obtain ⟨d, h1, h2⟩ := h k hk
    exact ⟨d, hab.2.1 _ _ h1, h2⟩

theorem saveVector_ok [Zero α] {geo : IOGeo R I} {gix : R → I → I} {gs : List ℕ} (hg : GeoOK geo gix gs)
    {order : String → List R} (ho : ∀ s c, c ∈ order s ↔ c ∈ geo.ranks) {name : String} {f : ℕ → R → I → α} {F : ℕ → I → α}
    (ks : List ℕ) (hks : ks.Nodup) (hlt : ∀ k ∈ ks, k < geo.dim)
    (hf : ∀ k ∈ ks, ∀ c ∈ geo.ranks, ∀ p ∈ geo.innerSel, f k c p = F k (gix c p))
    (grp : EGroup I α) (hfresh : ∀ k ∈ ks, dget grp.vectors (compName name k) = none) :
    ∃ grp', saveVector geo gs order name f grp ks = .ok grp' ∧ GrpLE grp grp' ∧ grp'.scalars = grp.scalars ∧
      (∀ k ∈ ks, ∃ d, dget grp'.vectors (compName name k) = some d ∧ DHolds geo gs d (F k)) ∧
      (∀ s, (∀ k ∈ ks, s ≠ compName name k) → dget grp'.vectors s = dget grp.vectors s) := by
  induction ks generalizing grp with
  | nil => exact ⟨grp, rfl, GrpLE.refl _, rfl, by simp, fun _ _ => rfl⟩
  | cons k ks ih =>
    have hd := hg.dimLe
    obtain ⟨d, hd1, hd2⟩ := writeDataset_ok hg (ho (compName name k)) (hf k List.mem_cons_self)
    have hnone := hfresh k List.mem_cons_self
    simp only [List.nodup_cons] at hks
    obtain ⟨grp', h1, h2, h3, h4, h5⟩ := ih hks.2 (fun j hj => hlt j (List.mem_cons_of_mem _ hj))
      (fun j hj => hf j (List.mem_cons_of_mem _ hj))
      { grp with vectors := grp.vectors ++ [(compName name k, d)] } (by
        intro j hj
        simp only
        rw [dget_snoc_of_none hnone, if_neg, hfresh j (List.mem_cons_of_mem _ hj)]
        intro e
        have := compName_inj (by have := hlt k List.mem_cons_self; omega)
          (by have := hlt j (List.mem_cons_of_mem _ hj); omega) e
        exact hks.1 (this.2 ▸ hj))
    refine ⟨grp', ?_, ?_, h3, ?_, ?_⟩
    · simp only [saveVector, hd1, bind, Except.bind, createDataset_ok hnone]
      exact h1
    · exact GrpLE.trans (b := { grp with vectors := grp.vectors ++ [(compName name k, d)] })
        ⟨fun _ _ h => h, fun _ _ h => dget_snoc_mono h, rfl, rfl, rfl⟩ h2
    · intro j hj
      rcases List.mem_cons.1 hj with rfl | hj
      · refine ⟨d, h2.2.1 _ _ ?_, hd2⟩
        simp only
        rw [dget_snoc_of_none hnone, if_pos rfl]
      · exact h4 j hj
    · intro s hs
      rw [h5 s (fun j hj => hs j (List.mem_cons_of_mem _ hj))]
      simp only
      rw [dget_snoc_of_none hnone, if_neg (fun e => hs k List.mem_cons_self e.symm)]

/-- Number of components of a field of a given type. -/
def tcomp (geo : IOGeo R I) : FType → ℕ
  | .scalar => 1
  | .vector => geo.dim

theorem saveEulFields_ok [Zero α] {geo : IOGeo R I} {gix : R → I → I} {io : MPIIO} (hg : GeoOK geo gix io.gridSize)
    {order : String → List R} (ho : ∀ s c, c ∈ order s ↔ c ∈ geo.ranks) {h : Heap R I α} {F : String → ℕ → I → α}
    (fs : List (String × ℕ)) (hfs : (fs.map Prod.fst).Nodup)
    (hty : ∀ x ∈ fs, ∃ ty, dget io.eulTypes x.1 = some ty ∧
      ∀ k < tcomp geo ty, ∀ c ∈ geo.ranks, ∀ p ∈ geo.innerSel, (h.eul x.2).comp k c p = F x.1 k (gix c p))
    (grp : EGroup I α)
    (hs : ∀ x ∈ fs, dget grp.scalars x.1 = none) (hv : ∀ x ∈ fs, ∀ k < geo.dim, dget grp.vectors (compName x.1 k) = none) :
    ∃ grp', saveEulFields geo order h io fs grp = .ok grp' ∧ GrpLE grp grp' ∧
      ∀ x ∈ fs, ∀ ty, dget io.eulTypes x.1 = some ty → Stored geo io.gridSize grp' (F x.1) x.1 ty := by
  induction fs generalizing grp with
  | nil => exact ⟨grp, rfl, GrpLE.refl _, by simp⟩
  | cons x fs ih =>
    obtain ⟨name, ref⟩ := x
    simp only [List.map_cons, List.nodup_cons] at hfs
    have hne : ∀ y ∈ fs, y.1 ≠ name := fun y hy e => hfs.1 (List.mem_map.2 ⟨y, hy, e⟩)
    obtain ⟨ty, hty1, hty2⟩ := hty _ List.mem_cons_self
    have hsub : ∀ y ∈ fs, ∃ ty, dget io.eulTypes y.1 = some ty ∧
      ∀ k < tcomp geo ty, ∀ c ∈ geo.ranks, ∀ p ∈ geo.innerSel, (h.eul y.2).comp k c p = F y.1 k (gix c p) :=
      fun y hy => hty y (List.mem_cons_of_mem _ hy)
    have hdim := hg.dimLe
    cases ty with
    | scalar =>
      obtain ⟨d, hd1, hd2⟩ := writeDataset_ok hg (ho name) (hty2 0 (by simp [tcomp]))
      have hnone := hs _ List.mem_cons_self
      simp only at hnone hty1 hd1
      obtain ⟨grp', h1, h2, h3⟩ := ih hfs.2 hsub { grp with scalars := grp.scalars ++ [(name, d)] }
        (by
          intro y hy
          simp only
          rw [dget_snoc_of_none hnone, if_neg (fun e => hne y hy e.symm), hs y (List.mem_cons_of_mem _ hy)])
        (fun y hy => hv y (List.mem_cons_of_mem _ hy))
      refine ⟨grp', ?_, GrpLE.trans (b := { grp with scalars := grp.scalars ++ [(name, d)] })
        ⟨fun _ _ h => dget_snoc_mono h, fun _ _ h => h, rfl, rfl, rfl⟩ h2, ?_⟩
      · simp only [saveEulFields, hty1, hd1, bind, Except.bind, createDataset_ok hnone]
        exact h1
      · intro y hy ty hy2
        rcases List.mem_cons.1 hy with rfl | hy
        · simp only at hy2 ⊢
          rw [hty1] at hy2
          cases hy2
          refine ⟨d, h2.1 _ _ ?_, hd2⟩
          simp only
          rw [dget_snoc_of_none hnone, if_pos rfl]
        · exact h3 y hy ty hy2
    | vector =>
      simp only at hty1
      obtain ⟨grp1, g1, g2, g3, g4, g5⟩ := saveVector_ok hg ho (name := name) (f := (h.eul ref).comp) (F := F name)
        (List.range geo.dim) List.nodup_range (fun k hk => List.mem_range.1 hk)
        (fun k hk => hty2 k (List.mem_range.1 hk)) grp
        (fun k hk => hv _ List.mem_cons_self k (List.mem_range.1 hk))
      obtain ⟨grp', h1, h2, h3⟩ := ih hfs.2 hsub grp1
        (by intro y hy; rw [g3]; exact hs y (List.mem_cons_of_mem _ hy))
        (by
          intro y hy k hk
          rw [g5, hv y (List.mem_cons_of_mem _ hy) k hk]
          intro j hj e
          have hj := List.mem_range.1 hj
          exact hne y hy (compName_inj (by omega) (by omega) e).1)
      refine ⟨grp', ?_, GrpLE.trans g2 h2, ?_⟩
      · simp only [saveEulFields, hty1, g1, bind, Except.bind]
        exact h1
      · intro y hy ty hy2
        rcases List.mem_cons.1 hy with rfl | hy
        · simp only at hy2 ⊢
          rw [hty1] at hy2
          cases hy2
          intro k hk
          obtain ⟨d, e1, e2⟩ := g4 k (List.mem_range.2 hk)
          exact ⟨d, h2.2.1 _ _ e1, e2⟩
        · exact h3 y hy ty hy2

/-! ## load -/

/-- The array `b` is `a` with the inner cells of component `k` replaced by the global field `F`. -/
def Loaded (geo : IOGeo R I) (gix : R → I → I) (F : I → α) (a b : R → I → α) : Prop :=
  ∀ c ∈ geo.ranks, ∀ p, (p ∈ geo.innerSel → b c p = F (gix c p)) ∧ (p ∉ geo.innerSel → b c p = a c p)

theorem readDataset_ok {geo : IOGeo R I} {gix : R → I → I} {gs : List ℕ} (hg : GeoOK geo gix gs) {d : EDSet I α} {F : I → α}
    (hd : DHolds geo gs d F) (k : ℕ) (a : EArr R I α) :
    ∃ b, readDataset geo d k a = .ok b ∧ b.shape = a.shape ∧ Loaded geo gix F (a.comp k) (b.comp k) ∧
      ∀ j ≠ k, b.comp j = a.comp j := by
  unfold readDataset
  rw [hd.1, if_pos (all_inShape hg)]
  refine ⟨_, rfl, rfl, ?_, ?_⟩
  · intro c hc p
    simp only [Function.update_self]
    have hm : (geo.fileSel c).map d.elt = geo.innerSel.map fun p => F (gix c p) := by
      rw [hg.sel c hc, List.map_map]
      apply List.map_congr_left
      intro q hq
      apply hd.2
      rw [hg.cover]
      exact ⟨c, hc, by rw [hg.sel c hc]; exact List.mem_map.2 ⟨q, hq, rfl⟩⟩
    rw [hm, writeSel_map]
    exact ⟨fun h => if_pos h, fun h => if_neg h⟩
  · intro j hj
    simp only
    rw [Function.update_of_ne hj]

theorem loadVector_ok {geo : IOGeo R I} {gix : R → I → I} {gs : List ℕ} (hg : GeoOK geo gix gs) {grp : EGroup I α}
    {name : String} {F : ℕ → I → α} (ks : List ℕ) (hks : ks.Nodup)
    (hst : ∀ k ∈ ks, ∃ d, dget grp.vectors (compName name k) = some d ∧ DHolds geo gs d (F k)) (a : EArr R I α) :
    ∃ b, loadVector geo grp name a ks = (b, .ok ()) ∧ b.shape = a.shape ∧
      (∀ k ∈ ks, Loaded geo gix (F k) (a.comp k) (b.comp k)) ∧ ∀ j ∉ ks, b.comp j = a.comp j := by
  induction ks generalizing a with
  | nil => exact ⟨a, rfl, rfl, by simp, fun _ _ => rfl⟩
  | cons k ks ih =>
    simp only [List.nodup_cons] at hks
    obtain ⟨d, hd1, hd2⟩ := hst k List.mem_cons_self
    obtain ⟨b, b1, b2, b3, b4⟩ := readDataset_ok hg hd2 k a
    obtain ⟨e, e1, e2, e3, e4⟩ := ih hks.2 (fun j hj => hst j (List.mem_cons_of_mem _ hj)) b
    refine ⟨e, ?_, e2.trans b2, ?_, ?_⟩
    · simp only [loadVector, hd1, b1]
      exact e1
    · intro j hj
      rcases List.mem_cons.1 hj with rfl | hj
      · rw [e4 j hks.1]; exact b3
      · have hne : j ≠ k := fun h => hks.1 (h ▸ hj)
        have := e3 j hj
        rw [b4 j hne] at this
        exact this
    · intro j hj
      simp only [List.mem_cons, not_or] at hj
      rw [e4 j hj.2, b4 j hj.1]

theorem loadEulFields_ok {geo : IOGeo R I} {gix : R → I → I} {gs : List ℕ} (hg : GeoOK geo gix gs) {grp : EGroup I α}
    {io : MPIIO} {F : String → ℕ → I → α} (fs : List (String × ℕ)) (hrefs : (fs.map Prod.snd).Nodup)
    (hst : ∀ x ∈ fs, ∃ ty, dget io.eulTypes x.1 = some ty ∧ Stored geo gs grp (F x.1) x.1 ty) (h : Heap R I α) :
    ∃ h', loadEulFields geo (some grp) io fs h = (h', .ok ()) ∧ h'.lag = h.lag ∧
      (∀ r, (h'.eul r).shape = (h.eul r).shape) ∧ (∀ r, r ∉ fs.map Prod.snd → h'.eul r = h.eul r) ∧
      ∀ x ∈ fs, ∀ ty, dget io.eulTypes x.1 = some ty →
        (∀ k < tcomp geo ty, Loaded geo gix (F x.1 k) ((h.eul x.2).comp k) ((h'.eul x.2).comp k)) ∧
        (∀ k, tcomp geo ty ≤ k → (h'.eul x.2).comp k = (h.eul x.2).comp k) := by
  induction fs generalizing h with
  | nil => exact ⟨h, rfl, rfl, fun _ => rfl, fun _ _ => rfl, by simp⟩
  | cons x fs ih =>
    obtain ⟨name, ref⟩ := x
    simp only [List.map_cons, List.nodup_cons] at hrefs
    obtain ⟨ty, hty, hsto⟩ := hst _ List.mem_cons_self
    simp only at hty
    have hsub := fun y hy => hst y (List.mem_cons_of_mem (name, ref) hy)
    -- the array of this field after its turn of the loop
    have key : ∃ b : EArr R I α, loadEulFields geo (some grp) io ((name, ref) :: fs) h =
          loadEulFields geo (some grp) io fs { h with eul := Function.update h.eul ref b } ∧ b.shape = (h.eul ref).shape ∧
        (∀ k < tcomp geo ty, Loaded geo gix (F name k) ((h.eul ref).comp k) (b.comp k)) ∧
        (∀ k, tcomp geo ty ≤ k → b.comp k = (h.eul ref).comp k) := by
      cases ty with
      | scalar =>
        obtain ⟨d, hd1, hd2⟩ := hsto
        simp only at hd1
        obtain ⟨b, b1, b2, b3, b4⟩ := readDataset_ok hg hd2 0 (h.eul ref)
        refine ⟨b, ?_, b2, ?_, ?_⟩
        · simp only [loadEulFields, hty, Option.bind_some, hd1, b1]
        · intro k hk
          simp only [tcomp] at hk
          obtain rfl : k = 0 := by omega
          exact b3
        · intro k hk
          simp only [tcomp] at hk
          exact b4 k (by omega)
      | vector =>
        obtain ⟨b, b1, b2, b3, b4⟩ := loadVector_ok hg (List.range geo.dim) List.nodup_range
          (fun k hk => hsto k (List.mem_range.1 hk)) (h.eul ref)
        simp only at b1
        refine ⟨b, ?_, b2, fun k hk => b3 k (List.mem_range.2 hk), ?_⟩
        · simp only [loadEulFields, hty, b1]
        · intro k hk
          exact b4 k (fun hm => absurd (List.mem_range.1 hm) (by simp only [tcomp] at hk; omega))
    obtain ⟨b, kb, kshape, kl, ku⟩ := key
    obtain ⟨h', i1, i2, i3, i4, i5⟩ := ih hrefs.2 hsub { h with eul := Function.update h.eul ref b }
    refine ⟨h', kb.trans i1, i2, ?_, ?_, ?_⟩
    · intro r
      rw [i3 r]
      by_cases e : r = ref
      · subst e; simpa using kshape
      · simp [e]
    · intro r hr
      simp only [List.map_cons, List.mem_cons, not_or] at hr
      rw [i4 r hr.2]
      simp [hr.1]
    · intro y hy ty' hy2
      rcases List.mem_cons.1 hy with rfl | hy
      · simp only at hy2 ⊢
        rw [hty] at hy2
        cases hy2
        have := i4 ref hrefs.1
        simp only [Function.update_self] at this
        rw [this]
        exact ⟨kl, ku⟩
      · have hne : y.2 ≠ ref := fun e => hrefs.1 (List.mem_map.2 ⟨y, hy, e⟩)
        have := i5 y hy ty' hy2
        simp only [Function.update_of_ne hne] at this
        exact this

/-! ## Registration -/

theorem addEulerian_ok {geo : IOGeo R I} {h : Heap R I α} (fs : List (String × ℕ)) (hfs : (fs.map Prod.fst).Nodup)
    {io io' : MPIIO} (hfresh : ∀ x ∈ fs, x.1 ∉ io.eulFields.map Prod.fst)
    (hadd : addEulerian geo h io fs = (io', .ok ())) :
    io'.eulFields = io.eulFields ++ fs ∧
      (∀ x ∈ fs, dget io'.eulTypes x.1 =
        some (if (h.eul x.2).shape = geo.localShape then .scalar else .vector)) ∧
      (∀ s, s ∉ fs.map Prod.fst → dget io'.eulTypes s = dget io.eulTypes s) ∧
      io'.origin = io.origin ∧ io'.dx = io.dx ∧ io'.gridSize = io.gridSize ∧ io'.eulDefined = io.eulDefined ∧
      io'.lagFields = io.lagFields ∧ io'.lagGrids = io.lagGrids ∧ io'.lagTypes = io.lagTypes ∧ io'.lagOn = io.lagOn ∧
      io'.lagNum = io.lagNum := by
  induction fs generalizing io with
  | nil =>
    unfold addEulerian at hadd
    split at hadd
    · simp at hadd
    · simp only [Prod.mk.injEq, and_true] at hadd
      subst hadd
      simp
  | cons x fs ih =>
    obtain ⟨name, ref⟩ := x
    simp only [List.map_cons, List.nodup_cons] at hfs
    unfold addEulerian at hadd
    split at hadd
    · simp at hadd
    · rename_i hdef
      have hnew := hfresh _ List.mem_cons_self
      simp only at hnew
      -- the state after this field
      have key : ∀ io1 : MPIIO, ∀ ty : FType, ty = (if (h.eul ref).shape = geo.localShape then .scalar else .vector) →
          io1 = { io with eulFields := dput io.eulFields name ref, eulTypes := dput io.eulTypes name ty } →
          addEulerian geo h io1 fs = (io', .ok ()) →
          io'.eulFields = io.eulFields ++ ((name, ref) :: fs) ∧
          (∀ x ∈ (name, ref) :: fs, dget io'.eulTypes x.1 =
            some (if (h.eul x.2).shape = geo.localShape then .scalar else .vector)) ∧
          (∀ s, s ∉ ((name, ref) :: fs).map Prod.fst → dget io'.eulTypes s = dget io.eulTypes s) ∧
          io'.origin = io.origin ∧ io'.dx = io.dx ∧ io'.gridSize = io.gridSize ∧ io'.eulDefined = io.eulDefined ∧
          io'.lagFields = io.lagFields ∧ io'.lagGrids = io.lagGrids ∧ io'.lagTypes = io.lagTypes ∧ io'.lagOn = io.lagOn ∧
          io'.lagNum = io.lagNum := by
        intro io1 ty hty hio1 hrun
        have hap : io1.eulFields = io.eulFields ++ [(name, ref)] := by
          rw [hio1]; exact dput_fresh ref hnew
        obtain ⟨j1, j2, j3, j4⟩ := ih hfs.2 (io := io1) (by
          intro y hy
          rw [hap]
          simp only [List.map_append, List.map_cons, List.map_nil, List.mem_append, List.mem_singleton, not_or]
          exact ⟨hfresh y (List.mem_cons_of_mem _ hy), fun e => hfs.1 (List.mem_map.2 ⟨y, hy, e⟩)⟩) hrun
        refine ⟨by rw [j1, hap]; simp, ?_, ?_, by rw [hio1] at j4; exact j4⟩
        · intro y hy
          rcases List.mem_cons.1 hy with rfl | hy
          · simp only
            rw [j3 name hfs.1, hio1]
            simp only
            rw [dget_dput, if_pos rfl, hty]
          · exact j2 y hy
        · intro s hs
          simp only [List.map_cons, List.mem_cons, not_or] at hs
          rw [j3 s hs.2, hio1]
          simp only
          rw [dget_dput, if_neg (fun e => hs.1 e.symm)]
      unfold addEulField at hadd
      by_cases c1 : (h.eul ref).shape = geo.localShape
      · simp only [c1, if_true] at hadd
        exact key _ .scalar (by rw [if_pos c1]) rfl hadd
      · by_cases c2 : (h.eul ref).shape = geo.dim :: geo.localShape
        · have c3 : ¬ (geo.dim :: geo.localShape = geo.localShape) := by rw [← c2]; exact c1
          simp only [c2, if_neg c3, if_true] at hadd
          exact key _ .vector (by rw [if_neg c1]) rfl hadd
        · simp only [if_neg c1, if_neg c2] at hadd
          simp at hadd

end

end Sopht
