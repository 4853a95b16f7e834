import Verif.IOProps

/-!
# C48: Lagrangian checkpoints
-/

namespace Sopht

section
variable {R I α τ : Type}

/-- One call `add_as_lagrangian_fields_for_io(master, grid, name, connect, **fields)` with an explicit grid name. -/
structure LagReg where
  master : ℤ
  gridRef : ℕ
  name : String
  connect : Bool
  fields : List (String × ℕ)

/-- A sequence of such calls; stops at the first exception. -/
def lagRegister (dim : ℕ) (h : Heap R I α) (io : MPIIO) : List LagReg → MPIIO × Except PyErr Unit
  | [] => (io, .ok ())
  | r :: rest =>
    match addLagrangian dim h io r.master r.gridRef (some r.name) r.connect r.fields with
    | (io, .ok ()) => lagRegister dim h io rest
    | (io, .error e) => (io, .error e)

/-- The array has the shape of a field on a grid with `N` nodes: `(N,)` or `(dim, N)`. -/
def FieldShape (dim N : ℕ) (a : LArr α) : Prop := a.shape = [N] ∨ a.shape = [dim, N]

/-- What the field loop of a registration leaves behind. -/
def LagPost (h : Heap R I α) (grid : String) (N : ℕ) (io io' : MPIIO) (pre : List String) (fs : List (String × ℕ)) : Prop :=
  io'.lagGrids = io.lagGrids ∧ io'.lagNum = io.lagNum ∧ io'.eulFields = io.eulFields ∧ io'.lagConn = io.lagConn ∧
      dget io'.lagOn grid = some (pre ++ fs.map Prod.fst) ∧ (∀ s ≠ grid, dget io'.lagOn s = dget io.lagOn s) ∧
      (∀ x ∈ fs, dget io'.lagFields x.1 = some x.2 ∧
        dget io'.lagTypes x.1 = some (if (h.lag x.2).shape.head? = some N then .scalar else .vector)) ∧
      (∀ s, s ∉ fs.map Prod.fst → dget io'.lagFields s = dget io.lagFields s ∧ dget io'.lagTypes s = dget io.lagTypes s) ∧
      (fs ≠ [] → io'.lagFields ≠ []) ∧ (io.lagFields ≠ [] → io'.lagFields ≠ []) ∧ io'.eulDefined = io.eulDefined

theorem addLagFields_ok {h : Heap R I α} {grid : String} {gs : List ℕ} {N : ℕ} (fs : List (String × ℕ))
    (hn : (fs.map Prod.fst).Nodup) {io io' : MPIIO} {pre : List String} (hpre : dget io.lagOn grid = some pre)
    (hrun : addLagFields h grid gs N io fs = (io', .ok ())) : LagPost h grid N io io' pre fs := by
  induction fs generalizing io pre with
  | nil =>
    simp only [addLagFields, Prod.mk.injEq, and_true] at hrun
    subst hrun
    simp [LagPost, hpre]
  | cons x fs ih =>
    obtain ⟨name, ref⟩ := x
    simp only [List.map_cons, List.nodup_cons] at hn
    have key : ∀ ty : FType, ty = (if (h.lag ref).shape.head? = some N then .scalar else .vector) → ∀ io1 : MPIIO,
        io1 = { io with lagFields := dput io.lagFields name ref
                        lagOn := dput io.lagOn grid (((dget io.lagOn grid).getD []) ++ [name])
                        lagTypes := dput io.lagTypes name ty } →
        addLagFields h grid gs N io1 fs = (io', .ok ()) → LagPost h grid N io io' pre ((name, ref) :: fs) := by
      intro ty hty io1 hio1 hr
      have hpre1 : dget io1.lagOn grid = some (pre ++ [name]) := by
        rw [hio1]; simp only; rw [dget_dput, if_pos rfl, hpre]; rfl
      obtain ⟨a1, a2, a3, a3', a4, a5, a6, a7, _, a8, a9⟩ := ih hn.2 hpre1 hr
      have hne : io1.lagFields ≠ [] := by
        intro e
        have : dget io1.lagFields name = some ref := by rw [hio1]; simp only; rw [dget_dput, if_pos rfl]
        rw [e] at this; simp [dget] at this
      refine ⟨by rw [a1, hio1], by rw [a2, hio1], by rw [a3, hio1], by rw [a3', hio1], by rw [a4]; simp, ?_, ?_, ?_, fun _ => a8 hne,
        fun _ => a8 hne, by rw [a9, hio1]⟩
      · intro s hs
        rw [a5 s hs, hio1]; simp only; rw [dget_dput, if_neg (fun e => hs e.symm)]
      · intro y hy
        rcases List.mem_cons.1 hy with rfl | hy
        · obtain ⟨b1, b2⟩ := a7 name hn.1
          simp only
          rw [b1, b2, hio1]
          simp only
          rw [dget_dput, if_pos rfl, dget_dput, if_pos rfl, hty]
          exact ⟨rfl, rfl⟩
        · exact a6 y hy
      · intro s hs
        simp only [List.map_cons, List.mem_cons, not_or] at hs
        obtain ⟨b1, b2⟩ := a7 s hs.2
        rw [b1, b2, hio1]
        simp only
        rw [dget_dput, if_neg (fun e => hs.1 e.symm), dget_dput, if_neg (fun e => hs.1 e.symm)]
        exact ⟨rfl, rfl⟩
    simp only [addLagFields] at hrun
    by_cases c1 : (h.lag ref).shape.head? = some N
    · rw [if_pos c1] at hrun
      exact key .scalar (by rw [if_pos c1]) _ rfl hrun
    · rw [if_neg c1] at hrun
      by_cases c2 : (h.lag ref).shape = gs
      · rw [if_pos c2] at hrun
        exact key .vector (by rw [if_neg c1]) _ rfl hrun
      · rw [if_neg c2] at hrun
        simp at hrun

/-- What the class knows about a registered grid. -/
def Known (dim : ℕ) (h : Heap R I α) (io : MPIIO) (r : LagReg) : Prop :=
  ∃ N, (h.lag r.gridRef).shape = [dim, N] ∧ dget io.lagNum r.name = some N ∧ dget io.lagOn r.name = some (r.fields.map Prod.fst) ∧
    ∀ x ∈ r.fields, dget io.lagFields x.1 = some x.2 ∧
      dget io.lagTypes x.1 = some (if (h.lag x.2).shape.head? = some N then .scalar else .vector)

/-- The connection of a registered grid, if it has one, has an entry for each node. -/
def ConnOk (dim : ℕ) (h : Heap R I α) (io : MPIIO) (r : LagReg) : Prop :=
  ∀ N, (h.lag r.gridRef).shape = [dim, N] → ∀ l, dget io.lagConn r.name = some l → l.length = N

theorem writeConn_ok {N : ℕ} {c : Option (List ℕ)} (h : ∀ l, c = some l → l.length = N) : writeConn N c = .ok c := by
  cases c with
  | none => rfl
  | some l => simp [writeConn, h l rfl]

theorem lagRegister_conn {dim : ℕ} {h : Heap R I α} (regs done : List LagReg) (hnames : ((done ++ regs).map LagReg.name).Nodup)
    (hfields : ∀ r ∈ regs, (r.fields.map Prod.fst).Nodup) {io io' : MPIIO} (hdone : ∀ r ∈ done, ConnOk dim h io r)
    (hnew : ∀ r ∈ regs, dget io.lagConn r.name = none) (hrun : lagRegister dim h io regs = (io', .ok ())) : ∀ r ∈ done ++ regs, ConnOk dim h io' r := by
  induction regs generalizing done io with
  | nil =>
    simp only [lagRegister, Prod.mk.injEq, and_true] at hrun
    subst hrun
    simpa using hdone
  | cons r regs ih =>
    simp only [lagRegister] at hrun
    rcases hr : addLagrangian dim h io r.master r.gridRef (some r.name) r.connect r.fields with ⟨io1, e1⟩
    rw [hr] at hrun
    cases e1 with
    | error e => simp at hrun
    | ok u =>
      cases u
      simp only at hrun
      unfold addLagrangian at hr
      split at hr
      · rename_i d N hsh
        by_cases hd : d = dim
        · subst hd
          simp only [ne_eq, not_true_eq_false, if_false] at hr
          obtain ⟨-, -, -, a4, -⟩ := addLagFields_ok r.fields (hfields r List.mem_cons_self) (pre := []) (by simp only; rw [dget_dput, if_pos rfl]) hr
          simp only at a4
          have hnd : ∀ q ∈ done ++ regs, q.name ≠ r.name := by
            intro q hq e
            rw [List.map_append, List.map_cons, List.nodup_append, List.nodup_cons] at hnames
            rcases List.mem_append.1 hq with hq | hq
            · exact hnames.2.2 q.name (List.mem_map.2 ⟨q, hq, rfl⟩) r.name List.mem_cons_self e
            · exact hnames.2.1.1 (List.mem_map.2 ⟨q, hq, e⟩)
          have hconn : ∀ s, dget io1.lagConn s = if s = r.name then (if r.connect then some (List.range N) else dget io.lagConn s) else dget io.lagConn s := by
            intro s
            rw [a4]
            by_cases hc : r.connect = true
            · simp only [hc, if_true, dget_dput]
              by_cases e : s = r.name
              · rw [if_pos e.symm, if_pos e]
              · rw [if_neg (fun h => e h.symm), if_neg e]
            · simp [hc]
          have := ih (done ++ [r]) (io := io1) (by simpa using hnames) (fun q hq => hfields q (List.mem_cons_of_mem _ hq)) ?_ ?_ hrun
          · simpa using this
          · intro q hq M hM l hl
            rw [hconn] at hl
            rcases List.mem_append.1 hq with hq | hq
            · rw [if_neg (hnd q (List.mem_append_left _ hq))] at hl
              exact hdone q hq M hM l hl
            · simp only [List.mem_singleton] at hq
              subst hq
              rw [if_pos rfl] at hl
              rw [hsh] at hM
              have e : N = M := by simpa using hM
              by_cases hc : q.connect = true
              · rw [if_pos hc] at hl
                cases hl
                rw [List.length_range, e]
              · rw [if_neg hc, hnew q List.mem_cons_self] at hl
                cases hl
          · intro q hq
            rw [hconn, if_neg (hnd q (List.mem_append_right _ hq))]
            exact hnew q (List.mem_cons_of_mem _ hq)
        · simp [hd] at hr
      · simp at hr

theorem lagRegister_ok {dim : ℕ} {h : Heap R I α} (regs done : List LagReg)
    (hnames : ((done ++ regs).map LagReg.name).Nodup)
    (hfields : ((done ++ regs).flatMap fun r => r.fields.map Prod.fst).Nodup)
    {io io' : MPIIO} (hgrids : io.lagGrids = done.map fun r => (r.name, r.gridRef))
    (hknown : ∀ r ∈ done, Known dim h io r)
    (hne : (∃ r ∈ done, r.fields ≠ []) → io.lagFields ≠ [])
    (hrun : lagRegister dim h io regs = (io', .ok ())) :
    io'.lagGrids = (done ++ regs).map (fun r => (r.name, r.gridRef)) ∧ (∀ r ∈ done ++ regs, Known dim h io' r) ∧
      ((∃ r ∈ done ++ regs, r.fields ≠ []) → io'.lagFields ≠ []) ∧ io'.eulFields = io.eulFields ∧ io'.eulDefined = io.eulDefined := by
  induction regs generalizing done io with
  | nil =>
    simp only [lagRegister, Prod.mk.injEq, and_true] at hrun
    subst hrun
    simp only [List.append_nil]
    exact ⟨hgrids, hknown, hne, trivial, trivial⟩
  | cons r regs ih =>
    simp only [lagRegister] at hrun
    rcases hr : addLagrangian dim h io r.master r.gridRef (some r.name) r.connect r.fields with ⟨io1, e1⟩
    rw [hr] at hrun
    cases e1 with
    | error e => simp at hrun
    | ok u =>
      cases u
      simp only at hrun
      -- analyse the call
      unfold addLagrangian at hr
      split at hr
      · rename_i d N hsh
        by_cases hd : d = dim
        · subst hd
          simp only [ne_eq, not_true_eq_false, if_false] at hr
          have hfr : (r.fields.map Prod.fst).Nodup := by
            rw [List.flatMap_append, List.nodup_append] at hfields
            have := hfields.2.1
            rw [List.flatMap_cons, List.nodup_append] at this
            exact this.1
          obtain ⟨a1, a2, a3, _, a4, a5, a6, a7, a8, a9, a10⟩ := addLagFields_ok r.fields hfr (pre := [])
            (by simp only; rw [dget_dput, if_pos rfl]) hr
          simp only at a1 a2 a3 a5 a7 a9 a10
          have hnew : r.name ∉ done.map LagReg.name := by
            rw [List.map_append, List.nodup_append] at hnames
            intro hm
            exact hnames.2.2 _ hm _ (by simp) rfl
          have hdisj : ∀ q ∈ done, ∀ x ∈ q.fields, x.1 ∉ r.fields.map Prod.fst := by
            rw [List.flatMap_append, List.nodup_append] at hfields
            intro q hq x hx hm
            refine hfields.2.2 x.1 (List.mem_flatMap.2 ⟨q, hq, List.mem_map.2 ⟨x, hx, rfl⟩⟩) x.1 ?_ rfl
            rw [List.flatMap_cons]
            exact List.mem_append_left _ hm
          have := ih (done ++ [r]) (io := io1) (by simpa using hnames) (by simpa using hfields) ?_ ?_ ?_ hrun
          · obtain ⟨t1, t2, t3, t4, t5⟩ := this
            refine ⟨by simpa using t1, by simpa using t2, by simpa using t3, t4.trans a3, t5.trans a10⟩
          · rw [a1, hgrids]
            rw [dput_fresh]
            · simp
            · rw [List.map_map]
              exact hnew
          · intro q hq
            rcases List.mem_append.1 hq with hq | hq
            · obtain ⟨M, m1, m2, m3, m4⟩ := hknown q hq
              have hqn : q.name ≠ r.name := fun e => hnew (List.mem_map.2 ⟨q, hq, e⟩)
              refine ⟨M, m1, ?_, ?_, ?_⟩
              · rw [a2, dget_dput, if_neg (fun e => hqn e.symm)]; exact m2
              · rw [a5 _ hqn, dget_dput, if_neg (fun e => hqn e.symm)]; exact m3
              · intro x hx
                obtain ⟨b1, b2⟩ := a7 x.1 (hdisj q hq x hx)
                rw [b1, b2]
                exact m4 x hx
            · simp only [List.mem_singleton] at hq
              subst hq
              refine ⟨N, hsh, ?_, by simpa using a4, a6⟩
              rw [a2, dget_dput, if_pos rfl]
          · rintro ⟨q, hq, hqf⟩
            rcases List.mem_append.1 hq with hq | hq
            · exact a9 (hne ⟨q, hq, hqf⟩)
            · simp only [List.mem_singleton] at hq
              subst hq
              exact a8 hqf
        · simp [hd] at hr
      · simp at hr

/-! ## save -/

/-- Dataset of a field in the group of its grid. -/
def LStored (grp : LGroup α) (name : String) (ty : FType) (a : LArr α) : Prop :=
  match ty with
  | .scalar => dget grp.scalars name = some a
  | .vector => dget grp.vectors name = some a.transpose

theorem saveLagFields_ok {dim N : ℕ} {h : Heap R I α} {io : MPIIO} (fs : List (String × ℕ)) (hn : (fs.map Prod.fst).Nodup)
    (hk : ∀ x ∈ fs, dget io.lagFields x.1 = some x.2 ∧
      ((dget io.lagTypes x.1 = some .scalar ∧ (h.lag x.2).shape = [N]) ∨
       (dget io.lagTypes x.1 = some .vector ∧ (h.lag x.2).shape = [dim, N])))
    (grp : LGroup α) (hs : ∀ x ∈ fs, dget grp.scalars x.1 = none ∧ dget grp.vectors x.1 = none) :
    ∃ grp', saveLagFields dim N h io (fs.map Prod.fst) grp = .ok grp' ∧ grp'.grid = grp.grid ∧
      (∀ s d, dget grp.scalars s = some d → dget grp'.scalars s = some d) ∧
      (∀ s d, dget grp.vectors s = some d → dget grp'.vectors s = some d) ∧
      ∀ x ∈ fs, ∀ ty, dget io.lagTypes x.1 = some ty → LStored grp' x.1 ty (h.lag x.2) := by
  induction fs generalizing grp with
  | nil => exact ⟨grp, rfl, rfl, fun _ _ h => h, fun _ _ h => h, by simp⟩
  | cons x fs ih =>
    obtain ⟨name, ref⟩ := x
    simp only [List.map_cons, List.nodup_cons] at hn
    have hne : ∀ y ∈ fs, name ≠ y.1 := fun y hy e => hn.1 (List.mem_map.2 ⟨y, hy, e.symm⟩)
    obtain ⟨k1, k2⟩ := hk _ List.mem_cons_self
    obtain ⟨s1, s2⟩ := hs _ List.mem_cons_self
    simp only at k1 k2 s1 s2
    rcases k2 with ⟨k2, k3⟩ | ⟨k2, k3⟩
    · obtain ⟨grp', g1, g2, g3, g4, g5⟩ := ih hn.2 (fun y hy => hk y (List.mem_cons_of_mem _ hy))
        { grp with scalars := grp.scalars ++ [(name, h.lag ref)] } (by
          intro y hy
          obtain ⟨q1, q2⟩ := hs y (List.mem_cons_of_mem _ hy)
          simp only
          rw [dget_snoc_of_none s1, if_neg (hne y hy)]
          exact ⟨q1, q2⟩)
      refine ⟨grp', ?_, g2, fun s d hd => g3 s d (dget_snoc_mono hd), g4, ?_⟩
      · simp only [List.map_cons, saveLagFields, k1, k2, writeAll, k3, if_true, bind, Except.bind, createDataset_ok s1]
        exact g1
      · intro y hy ty hty
        rcases List.mem_cons.1 hy with rfl | hy
        · simp only at hty ⊢
          rw [k2] at hty; cases hty
          refine g3 _ _ ?_
          simp only
          rw [dget_snoc_of_none s1, if_pos rfl]
        · exact g5 y hy ty hty
    · obtain ⟨grp', g1, g2, g3, g4, g5⟩ := ih hn.2 (fun y hy => hk y (List.mem_cons_of_mem _ hy))
        { grp with vectors := grp.vectors ++ [(name, (h.lag ref).transpose)] } (by
          intro y hy
          obtain ⟨q1, q2⟩ := hs y (List.mem_cons_of_mem _ hy)
          simp only
          rw [dget_snoc_of_none s2, if_neg (hne y hy)]
          exact ⟨q1, q2⟩)
      refine ⟨grp', ?_, g2, g3, fun s d hd => g4 s d (dget_snoc_mono hd), ?_⟩
      · have ht : (h.lag ref).transpose.shape = [N, dim] := by simp [LArr.transpose, k3]
        simp only [List.map_cons, saveLagFields, k1, k2, writeAll, ht, if_true, bind, Except.bind, createDataset_ok s2]
        exact g1
      · intro y hy ty hty
        rcases List.mem_cons.1 hy with rfl | hy
        · simp only at hty ⊢
          rw [k2] at hty; cases hty
          refine g4 _ _ ?_
          simp only
          rw [dget_snoc_of_none s2, if_pos rfl]
        · exact g5 y hy ty hty

/-- The group of grid `r` in the file has its grid positions and its fields, as they are in `h`. -/
def GStored (h : Heap R I α) (io : MPIIO) (out : List (String × LGroup α)) (r : LagReg) : Prop :=
  ∃ grp, dget out r.name = some grp ∧ grp.grid = (h.lag r.gridRef).transpose ∧
    ∀ x ∈ r.fields, ∀ ty, dget io.lagTypes x.1 = some ty → LStored grp x.1 ty (h.lag x.2)

theorem saveLagGrids_ok {dim : ℕ} {h : Heap R I α} {io : MPIIO} (regs : List LagReg) (hnames : (regs.map LagReg.name).Nodup)
    (hfn : ∀ r ∈ regs, (r.fields.map Prod.fst).Nodup)
    (hk : ∀ r ∈ regs, Known dim h io r) (hcn : ∀ r ∈ regs, ConnOk dim h io r)
    (hshape : ∀ r ∈ regs, ∀ N, (h.lag r.gridRef).shape = [dim, N] → ∀ x ∈ r.fields, FieldShape dim N (h.lag x.2) ∧
      ((h.lag x.2).shape = [dim, N] → N ≠ dim))
    (out : List (String × LGroup α)) (hout : ∀ r ∈ regs, dget out r.name = none) :
    ∃ out', saveLagGrids dim h io (regs.map fun r => (r.name, r.gridRef)) out = .ok out' ∧
      (∀ s g, dget out s = some g → dget out' s = some g) ∧ ∀ r ∈ regs, GStored h io out' r := by
  induction regs generalizing out with
  | nil => exact ⟨out, rfl, fun _ _ h => h, by simp⟩
  | cons r regs ih =>
    simp only [List.map_cons, List.nodup_cons] at hnames
    obtain ⟨N, m1, m2, m3, m4⟩ := hk r List.mem_cons_self
    have hnone := hout r List.mem_cons_self
    have hgr : (h.lag r.gridRef).transpose.shape = [N, dim] := by simp [LArr.transpose, m1]
    obtain ⟨grp, g1, g2, g3, g4, g5⟩ := saveLagFields_ok (dim := dim) (N := N) (h := h) (io := io) r.fields
      (hfn r List.mem_cons_self) (by
        intro x hx
        obtain ⟨p1, p2⟩ := m4 x hx
        refine ⟨p1, ?_⟩
        obtain ⟨q1, q2⟩ := hshape r List.mem_cons_self N m1 x hx
        rcases q1 with q1 | q1
        · left; rw [p2, q1]; simp
        · right; rw [p2, q1]
          have := q2 q1
          simp only [List.head?_cons, Option.some.injEq, and_true]
          rw [if_neg (fun e => this e.symm)])
      ⟨(h.lag r.gridRef).transpose, dget io.lagConn r.name, [], []⟩ (by simp [dget])
    obtain ⟨out', o1, o2, o3⟩ := ih hnames.2 (fun q hq => hfn q (List.mem_cons_of_mem _ hq))
      (fun q hq => hk q (List.mem_cons_of_mem _ hq)) (fun q hq => hcn q (List.mem_cons_of_mem _ hq)) (fun q hq => hshape q (List.mem_cons_of_mem _ hq))
      (out ++ [(r.name, grp)]) (by
        intro q hq
        rw [dget_snoc_of_none hnone, if_neg (fun e => hnames.1 (List.mem_map.2 ⟨q, hq, e.symm⟩))]
        exact hout q (List.mem_cons_of_mem _ hq))
    refine ⟨out', ?_, fun s g hg => o2 s g (dget_snoc_mono hg), ?_⟩
    · simp only [List.map_cons, saveLagGrids, m2, m3, writeAll, hgr, if_true, bind, Except.bind, writeConn_ok (hcn r List.mem_cons_self N m1), g1, createDataset_ok hnone]
      exact o1
    · intro q hq
      rcases List.mem_cons.1 hq with rfl | hq
      · refine ⟨grp, o2 _ _ ?_, by rw [g2], g5⟩
        rw [dget_snoc_of_none hnone, if_pos rfl]
      · exact o3 q hq

/-! ## load -/

theorem transpose_transpose (a : LArr α) : a.transpose.transpose = a := by
  cases a; simp [LArr.transpose]

/-- `h'` is `h` with the arrays `refs` replaced by those of `hs`. -/
def Restored (hs h h' : Heap R I α) (refs : List ℕ) : Prop :=
  h'.eul = h.eul ∧ (∀ r ∈ refs, h'.lag r = hs.lag r) ∧ ∀ r, r ∉ refs → h'.lag r = h.lag r

theorem restored_step {hs h : Heap R I α} {refs : List ℕ} {ref : ℕ} {h' : Heap R I α}
    (h2 : Restored hs { h with lag := Function.update h.lag ref (hs.lag ref) } h' refs) : Restored hs h h' (ref :: refs) := by
  obtain ⟨a, b, c⟩ := h2
  refine ⟨a, ?_, ?_⟩
  · intro r hr
    by_cases hm : r ∈ refs
    · exact b r hm
    · rcases List.mem_cons.1 hr with rfl | hr
      · rw [c r hm]; simp
      · exact absurd hr hm
  · intro r hr
    simp only [List.mem_cons, not_or] at hr
    rw [c r hr.2]; simp [hr.1]

theorem Restored.shape {hs h h' : Heap R I α} {refs : List ℕ} (hr : Restored hs h h' refs)
    (hsh : ∀ r, (h.lag r).shape = (hs.lag r).shape) (r : ℕ) : (h'.lag r).shape = (hs.lag r).shape := by
  by_cases hm : r ∈ refs
  · rw [hr.2.1 r hm]
  · rw [hr.2.2 r hm, hsh]

theorem loadLagFields_ok {hs : Heap R I α} {io : MPIIO} {grp : LGroup α} (fs : List (String × ℕ))
    (hk : ∀ x ∈ fs, dget io.lagFields x.1 = some x.2 ∧ ∃ ty, dget io.lagTypes x.1 = some ty ∧ LStored grp x.1 ty (hs.lag x.2))
    (h : Heap R I α) (hsh : ∀ r, (h.lag r).shape = (hs.lag r).shape) :
    ∃ h', loadLagFields grp io (fs.map Prod.fst) h = (h', .ok ()) ∧ Restored hs h h' (fs.map Prod.snd) := by
  induction fs generalizing h with
  | nil => exact ⟨h, rfl, rfl, by simp, fun _ _ => rfl⟩
  | cons x fs ih =>
    obtain ⟨name, ref⟩ := x
    obtain ⟨k1, ty, k2, k3⟩ := hk _ List.mem_cons_self
    simp only at k1 k2 k3
    obtain ⟨h', i1, i2⟩ := ih (fun y hy => hk y (List.mem_cons_of_mem _ hy))
      { h with lag := Function.update h.lag ref (hs.lag ref) } (by
        intro r
        by_cases e : r = ref
        · subst e; simp
        · simpa [e] using hsh r)
    refine ⟨h', ?_, restored_step i2⟩
    cases ty with
    | scalar =>
      simp only [LStored] at k3
      simp only [List.map_cons, loadLagFields, k1, k2, k3, assignAll, hsh ref, if_true]
      exact i1
    | vector =>
      simp only [LStored] at k3
      simp only [List.map_cons, loadLagFields, k1, k2, k3, transpose_transpose, assignAll, hsh ref, if_true]
      exact i1

theorem loadLagGrids_ok {hs : Heap R I α} {io : MPIIO} {file : List (String × LGroup α)} (regs : List LagReg)
    (hst : ∀ r ∈ regs, GStored hs io file r)
    (hk : ∀ r ∈ regs, dget io.lagOn r.name = some (r.fields.map Prod.fst) ∧
      ∀ x ∈ r.fields, dget io.lagFields x.1 = some x.2 ∧ ∃ ty, dget io.lagTypes x.1 = some ty)
    (h : Heap R I α) (hsh : ∀ r, (h.lag r).shape = (hs.lag r).shape) :
    ∃ h', loadLagGrids file io (regs.map fun r => (r.name, r.gridRef)) h = (h', .ok ()) ∧
      Restored hs h h' (regs.flatMap fun r => r.gridRef :: r.fields.map Prod.snd) := by
  induction regs generalizing h with
  | nil => exact ⟨h, rfl, rfl, by simp, fun _ _ => rfl⟩
  | cons r regs ih =>
    obtain ⟨grp, g1, g2, g3⟩ := hst r List.mem_cons_self
    obtain ⟨k1, k2⟩ := hk r List.mem_cons_self
    obtain ⟨h1, l1, l2⟩ := loadLagFields_ok (hs := hs) (io := io) (grp := grp) r.fields (by
        intro x hx
        obtain ⟨a, ty, b⟩ := k2 x hx
        exact ⟨a, ty, b, g3 x hx ty b⟩)
      { h with lag := Function.update h.lag r.gridRef (hs.lag r.gridRef) } (by
        intro q
        by_cases e : q = r.gridRef
        · subst e; simp
        · simpa [e] using hsh q)
    have l3 := restored_step l2
    obtain ⟨h', i1, i2, i3, i4⟩ := ih (fun q hq => hst q (List.mem_cons_of_mem _ hq)) (fun q hq => hk q (List.mem_cons_of_mem _ hq)) h1
      (l3.shape hsh)
    refine ⟨h', ?_, i2.trans l3.1, ?_, ?_⟩
    · simp only [List.map_cons, loadLagGrids, g1, k1, g2, transpose_transpose, assignAll, hsh r.gridRef, if_true, l1]
      exact i1
    · intro q hq
      by_cases hm : q ∈ regs.flatMap fun r => r.gridRef :: r.fields.map Prod.snd
      · exact i3 q hm
      · rw [i4 q hm]
        simp only [List.flatMap_cons, List.mem_append] at hq
        rcases hq with hq | hq
        · exact l3.2.1 q hq
        · exact absurd hq hm
    · intro q hq
      simp only [List.flatMap_cons, List.mem_append, not_or] at hq
      rw [i4 q hq.2, l3.2.2 q hq.1]

/-! ## C48 -/

/-- C48: any sequence of registrations that succeeded, with distinct grid names and field names that are distinct also across grids, every
field of shape `(N,)` or `(dim, N)` on a grid of `N` nodes with `N ≠ dim` if it has a vector field, at least one field. Then the
arrays as they were when `save` was called are what `load` puts back, whatever they contained in between: grid positions and
fields of every grid, and the time. -/
theorem lag_roundtrip [DecidableEq I] [Zero α] (geo : IOGeo R I) {hreg hs h : Heap R I α}
    (hshs : ∀ r, (hs.lag r).shape = (hreg.lag r).shape) (hsh : ∀ r, (h.lag r).shape = (hreg.lag r).shape)
    (regs : List LagReg) (hnames : (regs.map LagReg.name).Nodup)
    (hfields : (regs.flatMap fun r => r.fields.map Prod.fst).Nodup)
    (hshape : ∀ r ∈ regs, ∀ N, (hreg.lag r.gridRef).shape = [geo.dim, N] → ∀ x ∈ r.fields,
      FieldShape geo.dim N (hreg.lag x.2) ∧ ((hreg.lag x.2).shape = [geo.dim, N] → N ≠ geo.dim))
    (hsome : ∃ r ∈ regs, r.fields ≠ [])
    {io : MPIIO} (hreg_ok : lagRegister geo.dim hreg {} regs = (io, .ok ())) (order : String → List R) (t : τ) :
    ∃ file, save geo order hs io t = .ok file ∧ ∃ h', load geo file io h = (h', .ok t) ∧ h'.eul = h.eul ∧
      (∀ r ∈ regs, h'.lag r.gridRef = hs.lag r.gridRef ∧ ∀ x ∈ r.fields, h'.lag x.2 = hs.lag x.2) ∧
      ∀ q, (∀ r ∈ regs, q ≠ r.gridRef ∧ ∀ x ∈ r.fields, q ≠ x.2) → h'.lag q = h.lag q := by
  obtain ⟨a1, a2, a3, a4, a5⟩ := lagRegister_ok (dim := geo.dim) (h := hreg) regs [] (by simpa using hnames) (by simpa using hfields)
    (io := {}) rfl (by simp) (by simp) hreg_ok
  simp only [List.nil_append] at a1 a2 a3 a4
  have hknown : ∀ r ∈ regs, Known geo.dim hs io r := by
    intro r hr
    obtain ⟨N, m1, m2, m3, m4⟩ := a2 r hr
    refine ⟨N, by rw [hshs]; exact m1, m2, m3, ?_⟩
    intro x hx
    rw [hshs]
    exact m4 x hx
  have hfn : ∀ r ∈ regs, (r.fields.map Prod.fst).Nodup := by
    exact (List.pairwise_flatMap.1 hfields).1
  obtain ⟨out, o1, _, o3⟩ := saveLagGrids_ok (dim := geo.dim) (h := hs) (io := io) regs hnames hfn hknown (by
    intro r hr N hN l hl
    rw [hshs] at hN
    exact lagRegister_conn (dim := geo.dim) (h := hreg) regs [] (by simpa using hnames) hfn (io := {}) (by simp) (by simp [dget]) hreg_ok r (by simpa using hr) N hN l hl) (by
    intro r hr N hN x hx
    rw [hshs] at hN
    have := hshape r hr N hN x hx
    unfold FieldShape at this ⊢
    rw [hshs]
    exact this) [] (by simp [dget])
  obtain ⟨h', l1, l2, l3, l4⟩ := loadLagGrids_ok (hs := hs) (io := io) (file := out) regs o3 (by
    intro r hr
    obtain ⟨N, m1, m2, m3, m4⟩ := hknown r hr
    exact ⟨m3, fun x hx => ⟨(m4 x hx).1, _, (m4 x hx).2⟩⟩) h (fun r => by rw [hsh, hshs])
  refine ⟨⟨t, none, out⟩, ?_, h', ?_, l2, ?_, ?_⟩
  · unfold save
    rw [a1, a4]
    simp [o1, bind, Except.bind, pure, Except.pure]
  · unfold load
    simp only [a4, a1, if_true, a3 hsome, if_false, l1]
  · intro r hr
    refine ⟨l3 _ (List.mem_flatMap.2 ⟨r, hr, List.mem_cons_self⟩), ?_⟩
    intro x hx
    exact l3 _ (List.mem_flatMap.2 ⟨r, hr, List.mem_cons_of_mem _ (List.mem_map.2 ⟨x, hx, rfl⟩)⟩)
  · intro q hq
    apply l4
    intro hm
    obtain ⟨r, hr, hm⟩ := List.mem_flatMap.1 hm
    rcases List.mem_cons.1 hm with e | hm
    · exact (hq r hr).1 e
    · obtain ⟨x, hx, e⟩ := List.mem_map.1 hm
      exact (hq r hr).2 x hx e.symm

end

/-! ## What goes wrong -/

section
variable {R I α τ : Type} [DecidableEq I]

/-- C48: the registry of fields is keyed by the field name alone. Two grids `A ≠ B` with the same number of nodes carry fields of the same name `f`
(arrays `r1`, `r2`): `save` succeeds and stores the array of `B` under both grids, and `load` never writes the array of `A`. -/
theorem lag_shared_name [Zero α] (geo : IOGeo R I) {h h2 : Heap R I α} {A B f : String} (hAB : A ≠ B) {gA gB r1 r2 N : ℕ} (hr : r1 ≠ r2)
    (hg : r1 ≠ gA ∧ r1 ≠ gB) (hA : (h.lag gA).shape = [geo.dim, N]) (hB : (h.lag gB).shape = [geo.dim, N])
    (h1s : (h.lag r1).shape = [N]) (h2s : (h.lag r2).shape = [N]) (hsh : ∀ r, (h2.lag r).shape = (h.lag r).shape)
    (order : String → List R) (t : τ) :
    ∃ io, lagRegister geo.dim h {} [⟨0, gA, A, false, [(f, r1)]⟩, ⟨0, gB, B, false, [(f, r2)]⟩] = (io, .ok ()) ∧
    ∃ file grp, save geo order h io t = .ok file ∧ dget file.lag A = some grp ∧ dget grp.scalars f = some (h.lag r2) ∧
      (load geo file io h2).2 = .ok t ∧ (load geo file io h2).1.lag r1 = h2.lag r1 := by
  have hBA : B ≠ A := fun e => hAB e.symm
  refine ⟨{ lagFields := [(f, r2)], lagTypes := [(f, .scalar)], lagGrids := [(A, gA), (B, gB)], lagOn := [(A, [f]), (B, [f])]
            lagMaster := [(A, 0), (B, 0)], lagNum := [(A, N), (B, N)] }, ?_, ?_⟩
  · simp [lagRegister, addLagrangian, hA, hB, addLagFields, h1s, h2s, dput, dget, hAB]
  · refine ⟨⟨t, none, [(A, ⟨(h.lag gA).transpose, none, [(f, h.lag r2)], []⟩), (B, ⟨(h.lag gB).transpose, none, [(f, h.lag r2)], []⟩)]⟩,
      ⟨(h.lag gA).transpose, none, [(f, h.lag r2)], []⟩, ?_, ?_, ?_, ?_⟩
    · simp [save, saveLagGrids, writeConn, saveLagFields, dget, hAB, writeAll, LArr.transpose, hA, hB, h2s, createDataset, bind, Except.bind,
        pure, Except.pure]
    · simp [dget]
    · simp [dget]
    · obtain ⟨h', l1, l2, l3, l4⟩ := loadLagGrids_ok (hs := h) (R := R) (I := I)
        (io := { lagFields := [(f, r2)], lagTypes := [(f, .scalar)], lagGrids := [(A, gA), (B, gB)], lagOn := [(A, [f]), (B, [f])]
                 lagMaster := [(A, 0), (B, 0)], lagNum := [(A, N), (B, N)] })
        (file := [(A, ⟨(h.lag gA).transpose, none, [(f, h.lag r2)], []⟩), (B, ⟨(h.lag gB).transpose, none, [(f, h.lag r2)], []⟩)])
        [⟨0, gA, A, false, [(f, r2)]⟩, ⟨0, gB, B, false, [(f, r2)]⟩]
        (by simp [GStored, dget, hAB, LStored]) (by simp [dget, hAB]) h2 hsh
      simp only [load, if_true]
      simp only [List.map_cons, List.map_nil] at l1
      rw [l1]
      have hl : h'.lag r1 = h2.lag r1 := l4 r1 (by simp [hr, hg])
      simpa using hl


/-- C48: a vector field on a grid with as many nodes as dimensions is classified as a scalar field (the first axis is compared with the number of
nodes first); registration succeeds and every later `save` raises TypeError. -/
theorem lag_square_vector [Zero α] (geo : IOGeo R I) {h hs : Heap R I α} {g r : ℕ} {name f : String}
    (hg : (h.lag g).shape = [geo.dim, geo.dim]) (hf : (h.lag r).shape = [geo.dim, geo.dim])
    (hsh : ∀ q, (hs.lag q).shape = (h.lag q).shape) (order : String → List R) (t : τ) :
    ∃ io, lagRegister geo.dim h {} [⟨0, g, name, false, [(f, r)]⟩] = (io, .ok ()) ∧ dget io.lagTypes f = some .scalar ∧
      save geo order hs io t = .error .typeError := by
  have e1 : (hs.lag g).shape = [geo.dim, geo.dim] := by rw [hsh, hg]
  have e2 : (hs.lag r).shape = [geo.dim, geo.dim] := by rw [hsh, hf]
  refine ⟨{ lagFields := [(f, r)], lagTypes := [(f, .scalar)], lagGrids := [(name, g)], lagOn := [(name, [f])]
            lagMaster := [(name, 0)], lagNum := [(name, geo.dim)] }, ?_, ?_, ?_⟩
  · simp [lagRegister, addLagrangian, hg, addLagFields, hf, dput, dget]
  · simp [dget]
  · simp [save, saveLagGrids, writeConn, saveLagFields, dget, writeAll, LArr.transpose, e1, e2, bind, Except.bind, pure, Except.pure]

/-- C48: the default grid name can be taken already: after registering a grid under the name `Lagrangian_grid_0`, registering one without a
name replaces it, and the first grid is no longer saved. -/
theorem lag_default_name_collision {dim : ℕ} {h : Heap R I α} {g1 g2 N1 N2 : ℕ} (h1 : (h.lag g1).shape = [dim, N1])
    (h2 : (h.lag g2).shape = [dim, N2]) :
    ∃ io io', addLagrangian dim h {} 0 g1 (some "Lagrangian_grid_0") false [] = (io, .ok ()) ∧
      addLagrangian dim h io 0 g2 none false [] = (io', .ok ()) ∧ io'.lagGrids = [("Lagrangian_grid_0", g2)] := by
  refine ⟨{ lagGrids := [("Lagrangian_grid_0", g1)], lagOn := [("Lagrangian_grid_0", [])]
            lagMaster := [("Lagrangian_grid_0", 0)], lagNum := [("Lagrangian_grid_0", N1)] },
          { lagGrids := [("Lagrangian_grid_0", g2)], lagOn := [("Lagrangian_grid_0", [])], lagCount := 1
            lagMaster := [("Lagrangian_grid_0", 0)], lagNum := [("Lagrangian_grid_0", N2)] }, ?_, ?_, rfl⟩
  · simp [addLagrangian, h1, addLagFields, dput]
  · have e : "Lagrangian_grid_" ++ toString 0 = "Lagrangian_grid_0" := by decide
    simp only [addLagrangian, h2, ne_eq, not_true_eq_false, if_false, addLagFields, e]
    simp [dput]

/-- C48: without a registered Lagrangian field `load` restores no Lagrangian grid, although `save` writes it. -/
theorem lag_grid_only_not_loaded (geo : IOGeo R I) (file : H5 τ I α) (io : MPIIO) (he : io.eulFields = []) (hl : io.lagFields = [])
    (h : Heap R I α) : load geo file io h = (h, .ok file.time) := by
  simp [load, he, hl]

/-- C48: a grid must be a `(dim, N)` array, otherwise the call is refused and nothing is registered. -/
theorem addLagrangian_refuses {dim : ℕ} {h : Heap R I α} {io : MPIIO} {m : ℤ} {g : ℕ} {nm : Option String} {cn : Bool}
    {fs : List (String × ℕ)} (hbad : ¬ ∃ N, (h.lag g).shape = [dim, N]) :
    addLagrangian dim h io m g nm cn fs = (io, .error .assertionError) := by
  unfold addLagrangian
  split
  · rename_i d N e
    have : d ≠ dim := by rintro rfl; exact hbad ⟨N, e⟩
    simp [this]
  · rfl

/-! ## CosseratRodMPIIO -/

/-- Registering the rod as `CosseratRodMPIIO.__init__` does (mpi_io.py:769-782): element positions (`posRef`) and radius (`radRef`). -/
def rodRegs (master : ℤ) (posRef radRef : ℕ) : List LagReg := [⟨master, posRef, "rod", true, [("scalar_3d", radRef)]⟩]

/-- C48: what a saved rod file contains: for each element the midpoint of its two nodes at the time of the call, stored node by node, and the
radii. This does not depend on what `rod_element_position` contained before. -/
theorem rodSave_content {K : Type} [Field K] (geo : IOGeo R I) {hreg h : Heap R I K} {posRef radRef n : ℕ} (hne : posRef ≠ radRef)
    (hp : (hreg.lag posRef).shape = [geo.dim, n]) (hr : (hreg.lag radRef).shape = [n]) (hr' : (h.lag radRef).shape = [n])
    {io : MPIIO} (master : ℤ) (hreg_ok : lagRegister geo.dim hreg {} (rodRegs master posRef radRef) = (io, .ok ()))
    (order : String → List R) (nodes : ℕ → ℕ → K) (t : τ) :
    ∃ file grp, (rodSave geo order h io posRef n nodes t).2 = .ok file ∧ dget file.lag "rod" = some grp ∧
      grp.connection = some (List.range n) ∧ grp.scalars = [("scalar_3d", h.lag radRef)] ∧ grp.grid.shape = [n, geo.dim] ∧
      ∀ i e, grp.grid.elt [e, i] = 1 / 2 * (nodes i (e + 1) + nodes i e) := by
  have hio : io = { lagFields := [("scalar_3d", radRef)], lagTypes := [("scalar_3d", .scalar)], lagGrids := [("rod", posRef)]
                    lagOn := [("rod", ["scalar_3d"])], lagMaster := [("rod", master)], lagNum := [("rod", n)]
                    lagConn := [("rod", List.range n)] } := by
    simp [rodRegs, lagRegister, addLagrangian, hp, addLagFields, hr, dput, dget] at hreg_ok
    exact hreg_ok.symm
  subst hio
  refine ⟨⟨t, none, [("rod", ⟨(rodElementPosition geo.dim n nodes).transpose, some (List.range n), [("scalar_3d", h.lag radRef)], []⟩)]⟩,
    ⟨(rodElementPosition geo.dim n nodes).transpose, some (List.range n), [("scalar_3d", h.lag radRef)], []⟩, ?_, ?_, rfl, rfl, ?_, ?_⟩
  · have e1 : radRef ≠ posRef := fun e => hne e.symm
    simp [rodSave, save, saveLagGrids, writeConn, saveLagFields, dget, writeAll, LArr.transpose, rodElementPosition, e1, hr', createDataset, bind, Except.bind,
      pure, Except.pure]
  · simp [dget]
  · simp [LArr.transpose, rodElementPosition]
  · intro i e
    simp [LArr.transpose, rodElementPosition]

/-- C48: loading a rod file does not restore the rod. The class reads the element positions into its own array only, and the next `save` recomputes
them from the node positions the rod has: the file depends on nothing that was loaded except the radii. -/
theorem rod_load_not_restoring {K : Type} [Field K] (geo : IOGeo R I) (order : String → List R) (io : MPIIO) (posRef n : ℕ)
    (nodes : ℕ → ℕ → K) (t : τ) {h h' : Heap R I K} (he : h'.eul = h.eul) (hl : ∀ r ≠ posRef, h'.lag r = h.lag r) :
    (rodSave geo order h' io posRef n nodes t).2 = (rodSave geo order h io posRef n nodes t).2 := by
  have : ({ h' with lag := Function.update h'.lag posRef (rodElementPosition geo.dim n nodes) } : Heap R I K) =
      { h with lag := Function.update h.lag posRef (rodElementPosition geo.dim n nodes) } := by
    congr 1
    funext r
    by_cases e : r = posRef
    · subst e; simp
    · simp [e, hl r e]
  simp only [rodSave, this]

end

/-! ## XDMF names -/

theorem pyReplace_length (old new : List Char) (s : List Char) (hlen : old.length ≤ new.length) :
    s.length ≤ (pyReplace old new s).length := by
  induction hk : s.length using Nat.strong_induction_on generalizing s with
  | _ n ih =>
    cases s with
    | nil => simp at hk; omega
    | cons c s =>
      rw [pyReplace]
      split
      · rename_i h
        have h1 : 0 < old.length := List.length_pos_iff.2 h.2
        have h2 := List.IsPrefix.length_le (List.isPrefixOf_iff_prefix.1 h.1)
        have := ih _ (by simp only [List.length_drop, List.length_cons] at *; omega) ((c :: s).drop old.length) rfl
        simp only [List.length_append, List.length_drop, List.length_cons] at *
        omega
      · simp only [List.length_cons] at *
        have := ih s.length (by omega) s rfl
        omega

theorem pyReplace_fresh (old new : List Char) (s : List Char) (h : ¬ old <:+: s) : pyReplace old new s = s := by
  induction s with
  | nil => rw [pyReplace]
  | cons c s ih =>
    rw [pyReplace, if_neg, ih]
    · intro hi; exact h (hi.trans (List.suffix_cons c s).isInfix)
    · rintro ⟨hp, _⟩
      exact h (List.isPrefixOf_iff_prefix.1 hp).isInfix

theorem pyReplace_grows (old new : List Char) (hold : old ≠ []) (hlen : old.length < new.length) (s : List Char) (h : old <:+: s) :
    s.length < (pyReplace old new s).length := by
  induction s with
  | nil => simp at h; exact absurd h hold
  | cons c s ih =>
    rw [pyReplace]
    split
    · rename_i hp
      have h2 := List.IsPrefix.length_le (List.isPrefixOf_iff_prefix.1 hp.1)
      have := pyReplace_length old new ((c :: s).drop old.length) hlen.le
      simp only [List.length_append, List.length_drop, List.length_cons] at *
      omega
    · rename_i hp
      rcases List.infix_cons_iff.1 h with h | h
      · exact absurd ⟨List.isPrefixOf_iff_prefix.2 h, hold⟩ hp
      · have := ih h
        simp only [List.length_cons]
        omega

/-- C64: the XDMF description goes to a file of another name exactly when the HDF5 file name contains `.h5`; otherwise it is written over the HDF5 file itself. -/
theorem xdmfName_ne_iff (h5 : List Char) (tail : String) : xdmfName h5 tail ≠ h5 ↔ ".h5".toList <:+: h5 := by
  constructor
  · intro h
    by_contra hc
    exact h (pyReplace_fresh _ _ _ hc)
  · intro h e
    have := pyReplace_grows ".h5".toList (("_" ++ tail ++ ".xmf").toList) (by decide) (by
      simp only [String.toList_append, List.length_append]
      have h1 : ".h5".toList.length = 3 := by decide
      have h2 : "_".toList.length = 1 := by decide
      have h3 : ".xmf".toList.length = 4 := by decide
      omega) h5 h
    unfold xdmfName at e
    rw [e] at this
    omega

/-! ## Non-vacuity -/

section Example

def exLagHeap : Heap C2 C2 ℤ where
  eul _ := ⟨[], fun _ _ _ => 0⟩
  lag r := match r with
    | 0 => ⟨[2, 3], fun ix => (ix.headD 0 : ℤ) * 10 + (ix.getD 1 0 : ℤ)⟩
    | 1 => ⟨[3], fun ix => 100 + (ix.headD 0 : ℤ)⟩
    | 2 => ⟨[2, 3], fun ix => 200 + (ix.headD 0 : ℤ) * 10 + (ix.getD 1 0 : ℤ)⟩
    | 3 => ⟨[2, 4], fun ix => 300 + (ix.headD 0 : ℤ) * 10 + (ix.getD 1 0 : ℤ)⟩
    | _ => ⟨[4], fun ix => 400 + (ix.headD 0 : ℤ)⟩

def exLagRegs : List LagReg := [⟨0, 0, "a", true, [("s", 1), ("v", 2)]⟩, ⟨1, 3, "b", false, [("q", 4)]⟩]

/-- The hypotheses of `lag_roundtrip` hold for two grids (3 and 4 nodes), a scalar and a vector field on one, a scalar field on the other. -/
example : (∃ io, lagRegister 2 exLagHeap {} exLagRegs = (io, .ok ())) ∧ (exLagRegs.map LagReg.name).Nodup ∧
    (exLagRegs.flatMap fun r => r.fields.map Prod.fst).Nodup ∧ (∃ r ∈ exLagRegs, r.fields ≠ []) ∧
    (∀ r ∈ exLagRegs, ∀ N, (exLagHeap.lag r.gridRef).shape = [2, N] → ∀ x ∈ r.fields,
      FieldShape 2 N (exLagHeap.lag x.2) ∧ ((exLagHeap.lag x.2).shape = [2, N] → N ≠ 2)) := by
  refine ⟨⟨_, rfl⟩, by decide, by decide, by decide, ?_⟩
  intro r hr N hN x hx
  simp only [exLagRegs, List.mem_cons, List.not_mem_nil, or_false] at hr
  rcases hr with rfl | rfl
  · simp [exLagHeap] at hN
    subst hN
    simp only [List.mem_cons, List.not_mem_nil, or_false] at hx
    rcases hx with rfl | rfl <;> simp [exLagHeap, FieldShape]
  · simp [exLagHeap] at hN
    subst hN
    simp only [List.mem_cons, List.not_mem_nil, or_false] at hx
    subst hx
    simp [exLagHeap, FieldShape]

/-- `rodRegs` registers successfully for a rod with 4 elements. -/
example : ∃ io, lagRegister 2 exLagHeap {} (rodRegs 0 3 4) = (io, .ok ()) := ⟨_, rfl⟩

end Example

end Sopht
