import Verif.FileNames
import Mathlib.Data.List.Dedup
import Mathlib.Data.List.Infix
import Mathlib.Order.Monotone.Basic
import Mathlib.Tactic.IntervalCases

/-!
# Checkpoints and crashes

The freely rotating rod example writes at each checkpoint the flow, the rod, the mismatch fields of the body and the state of the rod solver, one after the other, and with
`--restart` reads the latest of them (examples/3d_examples/FlowPastFreelyRotatingRodCase/flow_past_freely_rotating_rod_case.py:212-228 and 268-292).

A file is rewritten by emptying it and then filling it (h5py's mode `"w"`, mpi_io.py:291; `np.savez` in `ea.save_state`), so a crash leaves it empty, half written – in
either case unreadable – or complete.  The other files (`.xmf`) have no `h5` in their name and are left out.  What is in a file is abstract (its time, and data of type `α`):
that reading gives what was written is C21–C24, that a run resumed from it continues as if not interrupted is C84.
-/

namespace Sopht

/-- A file: unreadable, or with a time and data. -/
inductive File (α : Type) where
  | torn
  | good (time : ℝ) (data : α)

/-- The directories a run writes in: the current one and `restart_data`; files with name and content, the one written last first (it hides earlier ones of the same name). -/
structure Disk (α : Type) where
  cwd : List (List Char × File α)
  sub : List (List Char × File α)

/-- What a checkpoint consists of: flow, rod, mismatch fields, state of the rod solver. -/
structure SaveParts (α : Type) where
  flow : α
  rod : α
  grid : α
  body : α

variable {α : Type}

/-- One of the steps in which files are written. -/
inductive DiskEv (α : Type) where
  | cwd (name : List Char) (f : File α)
  | sub (name : List Char) (f : File α)

def Disk.apply (D : Disk α) : DiskEv α → Disk α
  | .cwd n f => { D with cwd := (n, f) :: D.cwd }
  | .sub n f => { D with sub := (n, f) :: D.sub }

def Disk.run (D : Disk α) (evs : List (DiskEv α)) : Disk α := evs.foldl Disk.apply D

/-- `"flow_" + str("%0.5d" % (flow_sim.time * 100)) + ".h5"` (flow_past_freely_rotating_rod_case.py:272). -/
noncomputable def flowFile (time : ℝ) : List Char := fileName "flow_".toList ".h5".toList 5 time
/-- flow_past_freely_rotating_rod_case.py:277 -/
noncomputable def rodFile (time : ℝ) : List Char := fileName "rod_".toList ".h5".toList 5 time
/-- flow_past_freely_rotating_rod_case.py:282-284 -/
noncomputable def gridFile (time : ℝ) : List Char := fileName "forcing_grid_".toList ".h5".toList 5 time
/-- the file of `ea.save_state` for the only rod of the example -/
def bodyFile : List Char := "system_0.npz".toList

/-- A checkpoint (flow_past_freely_rotating_rod_case.py:268-292): the four files in turn, each emptied and filled. -/
noncomputable def saveEvs (time : ℝ) (P : SaveParts α) : List (DiskEv α) :=
  [.cwd (flowFile time) .torn, .cwd (flowFile time) (.good time P.flow), .cwd (rodFile time) .torn, .cwd (rodFile time) (.good time P.rod),
   .sub (gridFile time) .torn, .sub (gridFile time) (.good time P.grid), .sub bodyFile .torn, .sub bodyFile (.good time P.body)]

/-- All a run writes. -/
noncomputable def runEvs (saves : List (ℝ × SaveParts α)) : List (DiskEv α) := saves.flatMap fun s => saveEvs s.1 s.2

/-- Exceptions of a restart. -/
inductive RestartErr where
  | valueError | osError | assertionError
  deriving DecidableEq, Repr

/-- Opening a file and reading it. -/
def loadFile (dir : List (List Char × File α)) (name : List Char) : Except RestartErr (ℝ × α) :=
  match dir.find? fun e => e.1 = name with
  | some (_, .good t d) => .ok (t, d)
  | _ => .error .osError

/-- `"flow" in filename and "h5" in filename` (flow_past_freely_rotating_rod_case.py:216) -/
def FlowName (name : List Char) : Prop := "flow".toList <:+: name ∧ "h5".toList <:+: name

instance (name : List Char) : Decidable (FlowName name) := inferInstanceAs (Decidable (_ ∧ _))

/-- `[int(filename.split("_")[-1].split(".")[0]) for filename in ...]`; `none`: an exception -/
def numbersOf : List (List Char) → Option (List ℕ)
  | [] => some []
  | n :: ns => match numberOf n, numbersOf ns with
    | some m, some ms => some (m :: ms)
    | _, _ => none

open Classical in
/-- Restarting (flow_past_freely_rotating_rod_case.py:212-228): the number of the latest flow file, the four parts, and the check that flow and rod solver are at the same time.
`ea.load_state` and the assertion are on the master rank only. -/
noncomputable def restart (D : Disk α) : Except RestartErr (ℝ × SaveParts α) :=
  match numbersOf ((D.cwd.map Prod.fst).dedup.filter (FlowName ·)) with
  | none => .error .valueError
  | some nums => match nums.max? with
    | none => .error .valueError
    | some latest => do
      let flow ← loadFile D.cwd ("flow_".toList ++ formatD 5 latest ++ ".h5".toList)
      let rod ← loadFile D.cwd ("rod_".toList ++ formatD 5 latest ++ ".h5".toList)
      let grid ← loadFile D.sub ("forcing_grid_".toList ++ formatD 5 latest ++ ".h5".toList)
      let body ← loadFile D.sub bodyFile
      if flow.1 = body.1 then .ok (flow.1, ⟨flow.2, rod.2, grid.2, body.2⟩) else .error .assertionError

/-! ## Names -/

/-- a flow file with a number -/
def flowNum (m : ℕ) : List Char := "flow_".toList ++ formatD 5 m ++ ".h5".toList

theorem stamp_floor (w : ℕ) {t : ℝ} (h : 0 ≤ t) : stamp w t = formatD w (⌊t * 100⌋₊ : ℕ) := by
  unfold stamp pyTrunc
  rw [if_pos (by positivity), ← Int.natCast_floor_eq_floor (by positivity)]

theorem flowFile_num {t : ℝ} (h : 0 ≤ t) : flowFile t = flowNum ⌊t * 100⌋₊ := by
  unfold flowFile fileName flowNum
  rw [stamp_floor 5 h]

theorem rodFile_num {t : ℝ} (h : 0 ≤ t) : rodFile t = "rod_".toList ++ formatD 5 (⌊t * 100⌋₊ : ℕ) ++ ".h5".toList := by
  unfold rodFile fileName
  rw [stamp_floor 5 h]

theorem gridFile_num {t : ℝ} (h : 0 ≤ t) : gridFile t = "forcing_grid_".toList ++ formatD 5 (⌊t * 100⌋₊ : ℕ) ++ ".h5".toList := by
  unfold gridFile fileName
  rw [stamp_floor 5 h]

theorem formatD_inj {w m n : ℕ} (h : formatD w m = formatD w n) : m = n := by
  have := congrArg parseInt h
  rw [parse_format, parse_format] at this
  exact Option.some.inj this

theorem flowNum_inj {m n : ℕ} (h : flowNum m = flowNum n) : m = n :=
  formatD_inj (List.append_cancel_left (List.append_cancel_right h))

theorem numberOf_flowNum (m : ℕ) : numberOf (flowNum m) = some m := by
  have h := numberOf_name "flow".toList "h5".toList (by decide) 5 (time := (m : ℝ) / 100) (by positivity)
  have e : fileName ("flow".toList ++ ['_']) ('.' :: "h5".toList) 5 ((m : ℝ) / 100) = flowNum m := by
    unfold fileName flowNum
    rw [stamp_floor 5 (by positivity), div_mul_cancel₀ _ (by norm_num), Nat.floor_natCast]
    rfl
  rw [e, div_mul_cancel₀ _ (by norm_num), Nat.floor_natCast] at h
  exact h

theorem flowName_flowNum (m : ℕ) : FlowName (flowNum m) := by
  refine ⟨⟨[], '_' :: (formatD 5 m ++ ".h5".toList), ?_⟩, ⟨"flow_".toList ++ formatD 5 m ++ ['.'], [], ?_⟩⟩
  · simp [flowNum]
  · simp [flowNum]

theorem not_flowName_rod {t : ℝ} (h : 0 ≤ t) : ¬FlowName (rodFile t) := by
  rintro ⟨h1, -⟩
  have hw : 'w' ∈ rodFile t := h1.subset (by decide)
  rw [rodFile_num h] at hw
  rcases List.mem_append.1 hw with hw | hw
  · rcases List.mem_append.1 hw with hw | hw
    · revert hw; decide
    · have := format_digits 5 _ _ hw
      revert this; decide
  · revert hw; decide

/-! ## What a restart reads -/

theorem restart_ok {D : Disk α} {x : ℝ × SaveParts α} (h : restart D = .ok x) :
    ∃ nums latest, numbersOf ((D.cwd.map Prod.fst).dedup.filter (FlowName ·)) = some nums ∧ nums.max? = some latest ∧
      loadFile D.cwd (flowNum latest) = .ok (x.1, x.2.flow) ∧ (∃ t, loadFile D.cwd ("rod_".toList ++ formatD 5 latest ++ ".h5".toList) = .ok (t, x.2.rod)) ∧
      (∃ t, loadFile D.sub ("forcing_grid_".toList ++ formatD 5 latest ++ ".h5".toList) = .ok (t, x.2.grid)) ∧ loadFile D.sub bodyFile = .ok (x.1, x.2.body) := by
  unfold restart at h
  cases hn : numbersOf ((D.cwd.map Prod.fst).dedup.filter (FlowName ·)) with
  | none => rw [hn] at h; cases h
  | some nums =>
    rw [hn] at h
    cases hm : nums.max? with
    | none => simp only [hm] at h; cases h
    | some latest =>
      simp only [hm, bind, Except.bind] at h
      cases h1 : loadFile D.cwd ("flow_".toList ++ formatD 5 latest ++ ".h5".toList) with
      | error e => rw [h1] at h; cases h
      | ok f =>
      cases h2 : loadFile D.cwd ("rod_".toList ++ formatD 5 latest ++ ".h5".toList) with
      | error e => rw [h1, h2] at h; cases h
      | ok r =>
      cases h3 : loadFile D.sub ("forcing_grid_".toList ++ formatD 5 latest ++ ".h5".toList) with
      | error e => rw [h1, h2, h3] at h; cases h
      | ok g =>
      cases h4 : loadFile D.sub bodyFile with
      | error e => rw [h1, h2, h3, h4] at h; cases h
      | ok b =>
      simp only [h1, h2, h3, h4] at h
      by_cases e : f.1 = b.1
      · rw [if_pos e] at h
        cases h
        refine ⟨nums, latest, rfl, hm, h1, ⟨_, h2⟩, ⟨_, h3⟩, ?_⟩
        simp only [e]
      · rw [if_neg e] at h; cases h

theorem restart_of {D : Disk α} {t : ℝ} {P : SaveParts α} {nums : List ℕ} {latest : ℕ} (h1 : numbersOf ((D.cwd.map Prod.fst).dedup.filter (FlowName ·)) = some nums)
    (h2 : nums.max? = some latest) (h3 : loadFile D.cwd (flowNum latest) = .ok (t, P.flow)) {tr tg : ℝ}
    (h4 : loadFile D.cwd ("rod_".toList ++ formatD 5 latest ++ ".h5".toList) = .ok (tr, P.rod))
    (h5 : loadFile D.sub ("forcing_grid_".toList ++ formatD 5 latest ++ ".h5".toList) = .ok (tg, P.grid)) (h6 : loadFile D.sub bodyFile = .ok (t, P.body)) :
    restart D = .ok (t, P) := by
  unfold flowNum at h3
  unfold restart
  simp only [h1, h2, bind, Except.bind, h3, h4, h5, h6, if_true]

theorem mem_numbersOf {l : List (List Char)} {nums : List ℕ} (h : numbersOf l = some nums) {m : ℕ} : m ∈ nums ↔ ∃ n ∈ l, numberOf n = some m := by
  induction l generalizing nums with
  | nil => simp only [numbersOf, Option.some.injEq] at h; subst h; simp
  | cons a l ih =>
    simp only [numbersOf] at h
    cases h1 : numberOf a with
    | none => rw [h1] at h; cases h
    | some k =>
      cases h2 : numbersOf l with
      | none => rw [h1, h2] at h; cases h
      | some ks =>
        rw [h1, h2] at h
        cases h
        rw [List.mem_cons, ih h2]
        constructor
        · rintro (rfl | ⟨n, hn, he⟩)
          · exact ⟨a, by simp, h1⟩
          · exact ⟨n, List.mem_cons_of_mem _ hn, he⟩
        · rintro ⟨n, hn, he⟩
          rcases List.mem_cons.1 hn with rfl | hn
          · rw [h1] at he; exact Or.inl (Option.some.inj he).symm
          · exact Or.inr ⟨n, hn, he⟩

theorem numbersOf_some {l : List (List Char)} (h : ∀ n ∈ l, ∃ m, numberOf n = some m) : ∃ nums, numbersOf l = some nums := by
  induction l with
  | nil => exact ⟨[], rfl⟩
  | cons a l ih =>
    obtain ⟨m, hm⟩ := h a (by simp)
    obtain ⟨ms, hms⟩ := ih fun n hn => h n (List.mem_cons_of_mem _ hn)
    exact ⟨m :: ms, by simp only [numbersOf, hm, hms]⟩

theorem loadFile_cons_ne {dir : List (List Char × File α)} {e : List Char × File α} {n : List Char} (h : e.1 ≠ n) : loadFile (e :: dir) n = loadFile dir n := by
  unfold loadFile
  rw [List.find?_cons_of_neg (by simpa using h)]

theorem loadFile_cons_good {dir : List (List Char × File α)} {n : List Char} {t : ℝ} {d : α} : loadFile ((n, .good t d) :: dir) n = .ok (t, d) := by
  unfold loadFile
  rw [List.find?_cons_of_pos (by simp)]

theorem loadFile_cons_torn {dir : List (List Char × File α)} {n : List Char} : loadFile ((n, .torn) :: dir) n = .error .osError := by
  unfold loadFile
  rw [List.find?_cons_of_pos (by simp)]

theorem loadFile_ok {dir : List (List Char × File α)} {n : List Char} {x : ℝ × α} (h : loadFile dir n = .ok x) : (n, File.good x.1 x.2) ∈ dir := by
  unfold loadFile at h
  split at h
  · rename_i t d he
    cases h
    have h1 := List.mem_of_find?_eq_some he
    have h2 := List.find?_some he
    simp only [decide_eq_true_eq] at h2
    subst h2
    exact h1
  · cases h

/-! ## Runs -/

/-- Flow files carry the number of their time (as every run of the example writes them). -/
def Named (D : Disk α) : Prop := ∀ m t d, (flowNum m, File.good t d) ∈ D.cwd → m = ⌊t * 100⌋₊

theorem runEvs_take (saves : List (ℝ × SaveParts α)) (k : ℕ) {r : ℕ} (hr : r ≤ 8) {s : ℝ × SaveParts α} (hs : saves[k]? = some s) :
    (runEvs saves).take (8 * k + r) = runEvs (saves.take k) ++ (saveEvs s.1 s.2).take r := by
  induction k generalizing saves with
  | zero =>
    cases saves with
    | nil => simp at hs
    | cons a l =>
      have : a = s := by simpa using hs
      subst this
      simp only [runEvs, List.flatMap_cons, Nat.mul_zero, Nat.zero_add, List.take_zero, List.flatMap_nil, List.nil_append]
      rw [List.take_append_of_le_length (by simpa [saveEvs] using hr)]
  | succ k ih =>
    cases saves with
    | nil => simp at hs
    | cons a l =>
      have e : 8 * (k + 1) + r = (saveEvs a.1 a.2).length + (8 * k + r) := by simp [saveEvs]; omega
      simp only [runEvs, List.flatMap_cons, List.take_succ_cons, List.append_assoc]
      rw [e, List.take_length_add_append]
      congr 1
      exact ih l (by simpa using hs)

theorem Disk.run_append (D : Disk α) (a b : List (DiskEv α)) : D.run (a ++ b) = (D.run a).run b := List.foldl_append ..

/-- everything a checkpoint leaves -/
theorem Disk.run_save (D : Disk α) (t : ℝ) (P : SaveParts α) : D.run (saveEvs t P) =
    ⟨(rodFile t, .good t P.rod) :: (rodFile t, .torn) :: (flowFile t, .good t P.flow) :: (flowFile t, .torn) :: D.cwd,
     (bodyFile, .good t P.body) :: (bodyFile, .torn) :: (gridFile t, .good t P.grid) :: (gridFile t, .torn) :: D.sub⟩ := rfl

theorem rod_ne_flow {t : ℝ} (h : 0 ≤ t) (m : ℕ) : rodFile t ≠ flowNum m := fun e => not_flowName_rod h (e ▸ flowName_flowNum m)

theorem Named.evs {D : Disk α} (hD : Named D) {t : ℝ} (ht : 0 ≤ t) (P : SaveParts α) (r : ℕ) : Named (D.run ((saveEvs t P).take r)) := by
  have key : ∀ m τ d, (flowNum m, File.good τ d) ∈ (D.run (saveEvs t P)).cwd → m = ⌊τ * 100⌋₊ := by
    intro m τ d hm
    rw [Disk.run_save] at hm
    simp only [List.mem_cons, Prod.mk.injEq, reduceCtorEq, and_false, false_or] at hm
    rcases hm with ⟨e, -⟩ | ⟨e, e2⟩ | hm
    · exact absurd e.symm (rod_ne_flow ht m)
    · rw [flowFile_num ht] at e
      rw [flowNum_inj e]
      cases e2; rfl
    · exact hD m τ d hm
  intro m τ d hm
  refine key m τ d ?_
  -- what a part of the steps leaves, all of them leave
  have hsub : ∀ (l : List (DiskEv α)) (D : Disk α) e, e ∈ D.cwd → e ∈ (D.run l).cwd := by
    intro l
    induction l with
    | nil => intro D e he; exact he
    | cons a l ih =>
      intro D e he
      refine ih _ e ?_
      cases a with
      | cwd n f => exact List.mem_cons_of_mem _ he
      | sub n f => exact he
  have e : D.run (saveEvs t P) = (D.run ((saveEvs t P).take r)).run ((saveEvs t P).drop r) := by rw [← Disk.run_append, List.take_append_drop]
  rw [e]
  exact hsub _ _ _ hm

theorem Named.runs {D : Disk α} (hD : Named D) {saves : List (ℝ × SaveParts α)} (ht : ∀ s ∈ saves, 0 ≤ s.1) : Named (D.run (runEvs saves)) := by
  induction saves generalizing D with
  | nil => exact hD
  | cons a l ih =>
    have e : runEvs (a :: l) = saveEvs a.1 a.2 ++ runEvs l := rfl
    rw [e, Disk.run_append]
    have h1 := hD.evs (ht a (by simp)) a.2 8
    exact ih (by simpa [saveEvs] using h1) fun s hs => ht s (List.mem_cons_of_mem _ hs)

theorem latest_ge {D : Disk α} {nums : List ℕ} (h1 : numbersOf ((D.cwd.map Prod.fst).dedup.filter (FlowName ·)) = some nums) {latest : ℕ} (h2 : nums.max? = some latest)
    {m : ℕ} {f : File α} (hm : (flowNum m, f) ∈ D.cwd) : m ≤ latest := by
  have : m ∈ nums := (mem_numbersOf h1).2 ⟨flowNum m, by
    rw [List.mem_filter, List.mem_dedup]
    exact ⟨List.mem_map.2 ⟨_, hm, rfl⟩, by simpa using flowName_flowNum m⟩, numberOf_flowNum m⟩
  exact (List.max?_eq_some_iff.1 h2).2 m this

theorem grid_ne_body (t : ℝ) : gridFile t ≠ bodyFile := by
  intro e
  have : 'f' ∈ bodyFile := by
    rw [← e]
    unfold gridFile fileName
    simp
  revert this
  decide

/-- a restart from a complete checkpoint followed by a part of the next one -/
theorem restart_core {D : Disk α} (hD : Named D) {tA tB : ℝ} (hA : 0 ≤ tA) (hAB : tA < tB) {PA PB : SaveParts α} {r : ℕ} (hr : r < 8) {x : ℝ × SaveParts α}
    (h : restart ((D.run (saveEvs tA PA)).run ((saveEvs tB PB).take r)) = .ok x) : r = 0 ∧ x = (tA, PA) := by
  have hB : 0 ≤ tB := hA.trans hAB.le
  have hN : Named ((D.run (saveEvs tA PA)).run ((saveEvs tB PB).take r)) := by
    have h1 := hD.evs hA PA 8
    exact Named.evs (by simpa [saveEvs] using h1) hB PB r
  obtain ⟨nums, latest, e1, e2, e3, ⟨tr, e4⟩, ⟨tg, e5⟩, e6⟩ := restart_ok h
  -- the rod solver's state is that of the complete checkpoint
  have hbody : loadFile ((D.run (saveEvs tA PA)).run ((saveEvs tB PB).take r)).sub bodyFile = .ok (tA, PA.body) ∨
      loadFile ((D.run (saveEvs tA PA)).run ((saveEvs tB PB).take r)).sub bodyFile = .error .osError := by
    rw [Disk.run_save]
    interval_cases r <;> simp only [saveEvs, List.take_succ_cons, List.take_zero, Disk.run, List.foldl_cons, List.foldl_nil, Disk.apply] <;>
      first
      | exact Or.inl loadFile_cons_good
      | exact Or.inr loadFile_cons_torn
      | (left; rw [loadFile_cons_ne (grid_ne_body tB)]; exact loadFile_cons_good)
      | (left; rw [loadFile_cons_ne (grid_ne_body tB), loadFile_cons_ne (grid_ne_body tB)]; exact loadFile_cons_good)
  have hx : x.1 = tA ∧ x.2.body = PA.body := by
    rcases hbody with hb | hb
    · rw [hb] at e6
      have := Except.ok.inj e6
      exact ⟨(congrArg Prod.fst this).symm, (congrArg Prod.snd this).symm⟩
    · rw [hb] at e6; cases e6
  -- so the flow file read has the time of the complete checkpoint, hence its number
  have hlat : latest = ⌊tA * 100⌋₊ := by
    have := hN latest x.1 x.2.flow (loadFile_ok e3)
    rw [hx.1] at this; exact this
  have hAB' : ⌊tA * 100⌋₊ ≤ ⌊tB * 100⌋₊ := Nat.floor_mono (by linarith)
  have hr0 : r = 0 := by
    by_contra hne
    -- the next flow file is listed, so it has the same number
    have hlist : ∃ f, (flowNum ⌊tB * 100⌋₊, f) ∈ ((D.run (saveEvs tA PA)).run ((saveEvs tB PB).take r)).cwd := by
      rw [Disk.run_save, ← flowFile_num hB]
      refine ⟨.torn, ?_⟩
      interval_cases r <;> simp_all [saveEvs, Disk.run, Disk.apply]
    obtain ⟨f, hf⟩ := hlist
    have hge := latest_ge e1 e2 hf
    have heq : ⌊tA * 100⌋₊ = ⌊tB * 100⌋₊ := by omega
    rw [hlat, heq, ← flowFile_num hB] at e3
    have hrf := rod_ne_flow hB ⌊tB * 100⌋₊
    rw [← flowFile_num hB] at hrf
    have hbad : loadFile ((D.run (saveEvs tA PA)).run ((saveEvs tB PB).take r)).cwd (flowFile tB) = .ok (tB, PB.flow) ∨
        loadFile ((D.run (saveEvs tA PA)).run ((saveEvs tB PB).take r)).cwd (flowFile tB) = .error .osError := by
      rw [Disk.run_save]
      interval_cases r <;> simp only [saveEvs, List.take_succ_cons, List.take_zero, Disk.run, List.foldl_cons, List.foldl_nil, Disk.apply] <;>
        first
        | exact absurd rfl hne
        | exact Or.inl loadFile_cons_good
        | exact Or.inr loadFile_cons_torn
        | (left; rw [loadFile_cons_ne hrf]; exact loadFile_cons_good)
        | (left; rw [loadFile_cons_ne hrf, loadFile_cons_ne hrf]; exact loadFile_cons_good)
    rcases hbad with hb | hb
    · rw [hb] at e3
      have := congrArg Prod.fst (Except.ok.inj e3)
      rw [hx.1] at this
      exact absurd this hAB.ne'
    · rw [hb] at e3; cases e3
  subst hr0
  refine ⟨rfl, ?_⟩
  have e0 : (D.run (saveEvs tA PA)).run ((saveEvs tB PB).take 0) = D.run (saveEvs tA PA) := rfl
  rw [e0, Disk.run_save] at e3 e4 e5
  simp only at e3 e4 e5
  rw [hlat] at e3 e4 e5
  rw [← rodFile_num hA, loadFile_cons_good] at e4
  rw [← gridFile_num hA, loadFile_cons_ne (grid_ne_body tA).symm, loadFile_cons_ne (grid_ne_body tA).symm, loadFile_cons_good] at e5
  have hrf := rod_ne_flow hA ⌊tA * 100⌋₊
  rw [loadFile_cons_ne hrf, loadFile_cons_ne hrf, ← flowFile_num hA, loadFile_cons_good] at e3
  have f3 := congrArg Prod.snd (Except.ok.inj e3)
  have f4 := congrArg Prod.snd (Except.ok.inj e4)
  have f5 := congrArg Prod.snd (Except.ok.inj e5)
  obtain ⟨t, ⟨a, b, c, d⟩⟩ := x
  simp only at hx f3 f4 f5
  rw [hx.1, ← f3, ← f4, ← f5, hx.2]

/-- the steps of a run up to a crash -/
theorem crash_split (saves : List (ℝ × SaveParts α)) {n : ℕ} (hn : n ≤ (runEvs saves).length) :
    ∃ k r, n = 8 * k + r ∧ r < 8 ∧ (r ≠ 0 → ∃ s, saves[k]? = some s) ∧ k ≤ saves.length ∧
      ∀ s, (r ≠ 0 → saves[k]? = some s) → (runEvs saves).take n = runEvs (saves.take k) ++ (saveEvs s.1 s.2).take r := by
  have hlen : (runEvs saves).length = 8 * saves.length := by
    clear hn
    induction saves with
    | nil => rfl
    | cons a l ih =>
      have e : runEvs (a :: l) = saveEvs a.1 a.2 ++ runEvs l := rfl
      rw [e, List.length_append, ih]
      simp [saveEvs]; ring
  rw [hlen] at hn
  refine ⟨n / 8, n % 8, by omega, by omega, fun h => ?_, by omega, fun s hs => ?_⟩
  · have : n / 8 < saves.length := by omega
    exact ⟨_, List.getElem?_eq_getElem this⟩
  · by_cases hr : n % 8 = 0
    · rw [hr, List.take_zero, List.append_nil]
      by_cases hk : n / 8 < saves.length
      · have := runEvs_take saves (n / 8) (Nat.zero_le 8) (List.getElem?_eq_getElem hk)
        rw [List.take_zero, List.append_nil] at this
        rw [← this]; congr 1; omega
      · rw [List.take_of_length_le (by omega), List.take_of_length_le (by omega)]
    · have := runEvs_take saves (n / 8) (r := n % 8) (by omega) (hs hr)
      rw [← this]; congr 1; omega

/-- C99: whatever is left of earlier runs in the directory, and wherever a run is interrupted after its first checkpoint: a restart that succeeds resumes one of the checkpoints
of this run with all its parts – the last complete one – and it succeeds only if no further checkpoint had been begun. -/
theorem restart_sound {D : Disk α} (hD : Named D) {saves : List (ℝ × SaveParts α)} (h0 : ∀ s ∈ saves, 0 ≤ s.1) (hinc : saves.Pairwise fun s s' => s.1 < s'.1)
    {n : ℕ} (hn : n ≤ (runEvs saves).length) (h8 : 8 ≤ n) {x : ℝ × SaveParts α} (h : restart (D.run ((runEvs saves).take n)) = .ok x) :
    ∃ k, n = 8 * (k + 1) ∧ saves[k]? = some x := by
  obtain ⟨k, r, hkr, hr, hex, hkl, htake⟩ := crash_split saves hn
  have hk : k ≠ 0 := by omega
  obtain ⟨j, rfl⟩ := Nat.exists_eq_succ_of_ne_zero hk
  have hj : j < saves.length := by omega
  have hA := List.getElem?_eq_getElem hj
  set A := saves[j]
  have hA0 : 0 ≤ A.1 := h0 A (List.getElem_mem hj)
  have etake : saves.take (j + 1) = saves.take j ++ [A] := by rw [List.take_add_one, hA]; rfl
  have hD1 : Named (D.run (runEvs (saves.take j))) := hD.runs fun s hs => h0 s (List.mem_of_mem_take hs)
  have erun : ∀ l, D.run (runEvs (saves.take (j + 1)) ++ l) = ((D.run (runEvs (saves.take j))).run (saveEvs A.1 A.2)).run l := by
    intro l
    have e : runEvs (saves.take j ++ [A]) = runEvs (saves.take j) ++ saveEvs A.1 A.2 := by simp [runEvs]
    rw [etake, e, Disk.run_append, Disk.run_append]
  by_cases hr0 : r = 0
  · have ht := htake (A.1 + 1, A.2) fun hh => absurd hr0 hh
    rw [ht, erun] at h
    obtain ⟨-, e⟩ := restart_core hD1 hA0 (by simp) hr h
    exact ⟨j, by omega, by rw [hA, e]⟩
  · obtain ⟨B, hB⟩ := hex hr0
    have ht := htake B fun _ => hB
    rw [ht, erun] at h
    have hjl : j + 1 < saves.length := by
      by_contra hc
      rw [List.getElem?_eq_none (by omega)] at hB; cases hB
    have hBe : saves[j + 1] = B := by rw [List.getElem?_eq_getElem hjl] at hB; exact Option.some.inj hB
    have hlt : A.1 < B.1 := by rw [← hBe]; exact List.pairwise_iff_getElem.1 hinc j (j + 1) hj hjl (by omega)
    obtain ⟨e, -⟩ := restart_core hD1 hA0 hlt hr h
    exact absurd e hr0

/-- A directory without flow files, and without a state of the rod solver. -/
structure FreshDisk (D : Disk α) : Prop where
  flow : ∀ e ∈ D.cwd, ¬FlowName e.1
  body : ∀ e ∈ D.sub, e.1 ≠ bodyFile

theorem FreshDisk.named {D : Disk α} (h : FreshDisk D) : Named D := fun m _ _ hm => absurd (flowName_flowNum m) (h.flow _ hm)

/-- the flow files of a run in a fresh directory -/
theorem fresh_names {D : Disk α} (hD : FreshDisk D) {saves : List (ℝ × SaveParts α)} (h0 : ∀ s ∈ saves, 0 ≤ s.1) :
    ∀ e ∈ (D.run (runEvs saves)).cwd, FlowName e.1 → ∃ s ∈ saves, e.1 = flowNum ⌊s.1 * 100⌋₊ := by
  have key : ∀ (saves : List (ℝ × SaveParts α)) (D : Disk α), (∀ s ∈ saves, 0 ≤ s.1) → ∀ e ∈ (D.run (runEvs saves)).cwd, FlowName e.1 →
      (∃ s ∈ saves, e.1 = flowNum ⌊s.1 * 100⌋₊) ∨ e ∈ D.cwd := by
    intro saves
    induction saves with
    | nil => intro D _ e he _; exact Or.inr he
    | cons a l ih =>
      intro D ha e he hf
      have ea : runEvs (a :: l) = saveEvs a.1 a.2 ++ runEvs l := rfl
      rw [ea, Disk.run_append] at he
      rcases ih _ (fun s hs => ha s (List.mem_cons_of_mem _ hs)) e he hf with ⟨s, hs, h⟩ | h
      · exact Or.inl ⟨s, List.mem_cons_of_mem _ hs, h⟩
      · rw [Disk.run_save] at h
        have ha0 := ha a (by simp)
        simp only [List.mem_cons] at h
        rcases h with h | h | h | h | h
        · rw [h] at hf; exact absurd hf (not_flowName_rod ha0)
        · rw [h] at hf; exact absurd hf (not_flowName_rod ha0)
        · exact Or.inl ⟨a, by simp, by rw [h, flowFile_num ha0]⟩
        · exact Or.inl ⟨a, by simp, by rw [h, flowFile_num ha0]⟩
        · exact Or.inr h
  intro e he hf
  rcases key saves D h0 e he hf with h | h
  · exact h
  · exact absurd hf (hD.flow e h)

/-- C99: a run begun in a fresh directory and interrupted anywhere can be restarted exactly if it was interrupted between checkpoints (or at the end), and then resumes the last one. -/
theorem restart_iff {D : Disk α} (hD : FreshDisk D) {saves : List (ℝ × SaveParts α)} (h0 : ∀ s ∈ saves, 0 ≤ s.1) (hinc : saves.Pairwise fun s s' => s.1 < s'.1)
    {n : ℕ} (hn : n ≤ (runEvs saves).length) (x : ℝ × SaveParts α) :
    restart (D.run ((runEvs saves).take n)) = .ok x ↔ ∃ k, n = 8 * (k + 1) ∧ saves[k]? = some x := by
  constructor
  · intro h
    by_cases h8 : 8 ≤ n
    · exact restart_sound hD.named h0 hinc hn h8 h
    · exfalso
      obtain ⟨k, r, hkr, hr, hex, hkl, htake⟩ := crash_split saves hn
      have hk : k = 0 := by omega
      subst hk
      obtain ⟨nums, latest, e1, e2, -, -, -, e6⟩ := restart_ok h
      have hnone : ∀ y, loadFile D.sub bodyFile ≠ .ok y := fun y hy => hD.body _ (loadFile_ok hy) rfl
      by_cases hr0 : r = 0
      · have hn0 : n = 0 := by omega
        subst hn0
        exact hnone _ e6
      · obtain ⟨B, hB⟩ := hex hr0
        rw [htake B fun _ => hB] at e6
        simp only [List.take_zero, runEvs, List.flatMap_nil, List.nil_append] at e6
        interval_cases r
        case «0» => exact hr0 rfl
        all_goals
          simp only [saveEvs, List.take_succ_cons, List.take_zero, Disk.run, List.foldl_cons, List.foldl_nil, Disk.apply] at e6
        · exact hnone _ e6
        · exact hnone _ e6
        · exact hnone _ e6
        · exact hnone _ e6
        · rw [loadFile_cons_ne (grid_ne_body B.1)] at e6; exact hnone _ e6
        · rw [loadFile_cons_ne (grid_ne_body B.1), loadFile_cons_ne (grid_ne_body B.1)] at e6; exact hnone _ e6
        · rw [loadFile_cons_torn] at e6; cases e6
  · rintro ⟨k, rfl, hx⟩
    have hkl : k < saves.length := by
      by_contra hc
      rw [List.getElem?_eq_none (by omega)] at hx; cases hx
    have hxe : saves[k] = x := by rw [List.getElem?_eq_getElem hkl] at hx; exact Option.some.inj hx
    have htake : (runEvs saves).take (8 * (k + 1)) = runEvs (saves.take k) ++ saveEvs x.1 x.2 := by
      have := runEvs_take saves k (r := 8) le_rfl hx
      rw [List.take_of_length_le (l := saveEvs x.1 x.2) (by simp [saveEvs])] at this
      rw [← this]; congr 1
    have htake' : runEvs (saves.take (k + 1)) = runEvs (saves.take k) ++ saveEvs x.1 x.2 := by
      rw [List.take_add_one, hx]; simp [runEvs]
    have hx0 : 0 ≤ x.1 := by rw [← hxe]; exact h0 _ (List.getElem_mem hkl)
    have hnames := fresh_names hD (saves := saves.take (k + 1)) fun s hs => h0 s (List.mem_of_mem_take hs)
    rw [htake, ← htake']
    obtain ⟨nums, hnums⟩ := numbersOf_some (l := ((D.run (runEvs (saves.take (k + 1)))).cwd.map Prod.fst).dedup.filter (FlowName ·)) fun n hn => by
      rw [List.mem_filter, List.mem_dedup] at hn
      obtain ⟨e, he, rfl⟩ := List.mem_map.1 hn.1
      obtain ⟨s, -, hs⟩ := hnames e he (by simpa using hn.2)
      exact ⟨_, by rw [hs, numberOf_flowNum]⟩
    have hmax : nums.max? = some ⌊x.1 * 100⌋₊ := by
      rw [List.max?_eq_some_iff]
      constructor
      · refine (mem_numbersOf hnums).2 ⟨flowNum ⌊x.1 * 100⌋₊, ?_, numberOf_flowNum _⟩
        rw [List.mem_filter, List.mem_dedup]
        refine ⟨List.mem_map.2 ⟨(flowNum ⌊x.1 * 100⌋₊, .torn), ?_, rfl⟩, by simpa using flowName_flowNum _⟩
        rw [htake', Disk.run_append, Disk.run_save, ← flowFile_num hx0]
        simp
      · intro m hm
        obtain ⟨nm, hnm, hnum⟩ := (mem_numbersOf hnums).1 hm
        rw [List.mem_filter, List.mem_dedup] at hnm
        obtain ⟨e, he, rfl⟩ := List.mem_map.1 hnm.1
        obtain ⟨s, hs, hse⟩ := hnames e he (by simpa using hnm.2)
        rw [hse, numberOf_flowNum] at hnum
        have hm' : m = ⌊s.1 * 100⌋₊ := (Option.some.inj hnum).symm
        rw [hm']
        refine Nat.floor_mono (mul_le_mul_of_nonneg_right ?_ (by norm_num))
        obtain ⟨i, hi, hie⟩ := List.getElem_of_mem hs
        rw [List.length_take] at hi
        rw [List.getElem_take] at hie
        rw [← hie, ← hxe]
        rcases Nat.lt_or_ge i k with hik | hik
        · exact (List.pairwise_iff_getElem.1 hinc i k (by omega) hkl hik).le
        · have : i = k := by omega
          subst this; exact le_rfl
    have hrf := rod_ne_flow hx0 ⌊x.1 * 100⌋₊
    obtain ⟨t, P⟩ := x
    refine restart_of hnums hmax ?_ (tr := t) ?_ (tg := t) ?_ ?_
    all_goals rw [htake', Disk.run_append, Disk.run_save]
    · dsimp only at hrf ⊢
      rw [loadFile_cons_ne hrf, loadFile_cons_ne hrf, ← flowFile_num hx0, loadFile_cons_good]
    · rw [← rodFile_num hx0, loadFile_cons_good]
    · rw [← gridFile_num hx0, loadFile_cons_ne (grid_ne_body t).symm, loadFile_cons_ne (grid_ne_body t).symm, loadFile_cons_good]
    · rw [loadFile_cons_good]

/-- C99 (negative): the state of the rod solver is overwritten in place.  A crash while it is being written destroys the only one: no deletion of files of the current
directory makes a restart possible, although all earlier checkpoints were complete. -/
theorem crash_loses_all {D : Disk α} {saves : List (ℝ × SaveParts α)} {k : ℕ} {s : ℝ × SaveParts α} (hs : saves[k]? = some s) (cwd' : List (List Char × File α)) :
    ∀ x, restart { D.run ((runEvs saves).take (8 * k + 7)) with
      cwd := cwd' } ≠ .ok x := by
  intro x h
  obtain ⟨nums, latest, -, -, -, -, -, e6⟩ := restart_ok h
  rw [runEvs_take saves k (by omega) hs, Disk.run_append] at e6
  simp only [saveEvs, List.take_succ_cons, List.take_zero, Disk.run, List.foldl_cons, List.foldl_nil, Disk.apply] at e6
  rw [loadFile_cons_torn] at e6
  cases e6

/-- C99 (negative): files of an earlier, longer run in the directory make every restart of a new run fail, also between checkpoints. -/
theorem stale_blocks {D : Disk α} (hD : Named D) {tOld : ℝ} {f : File α} (hold : (flowNum ⌊tOld * 100⌋₊, f) ∈ D.cwd) {saves : List (ℝ × SaveParts α)} (h0 : ∀ s ∈ saves, 0 ≤ s.1)
    (hinc : saves.Pairwise fun s s' => s.1 < s'.1) (hlate : ∀ s ∈ saves, s.1 + 0.01 ≤ tOld) {n : ℕ} (hn : n ≤ (runEvs saves).length) (h8 : 8 ≤ n) :
    ∀ x, restart (D.run ((runEvs saves).take n)) ≠ .ok x := by
  intro x h
  obtain ⟨k, hk, hx⟩ := restart_sound hD h0 hinc hn h8 h
  have hmem : x ∈ saves := List.mem_of_getElem? hx
  obtain ⟨nums, latest, e1, e2, e3, -, -, -⟩ := restart_ok h
  have hsub : ∀ (l : List (DiskEv α)) (D : Disk α) e, e ∈ D.cwd → e ∈ (D.run l).cwd := by
    intro l
    induction l with
    | nil => intro D e he; exact he
    | cons a l ih =>
      intro D e he
      refine ih _ e ?_
      cases a with
      | cwd n f => exact List.mem_cons_of_mem _ he
      | sub n f => exact he
  have hge := latest_ge e1 e2 (hsub _ _ _ hold)
  have hN : Named (D.run ((runEvs saves).take n)) := by
    have : (runEvs saves).take n = runEvs (saves.take (k + 1)) := by
      rw [hk]
      have := runEvs_take saves k (r := 8) le_rfl hx
      rw [List.take_of_length_le (l := saveEvs x.1 x.2) (by simp [saveEvs])] at this
      rw [List.take_add_one, hx]
      simp only [runEvs, List.flatMap_append, Option.toList_some, List.flatMap_cons, List.flatMap_nil, List.append_nil] at this ⊢
      rw [← this]; congr 1
    rw [this]
    exact hD.runs fun s hs => h0 s (List.mem_of_mem_take hs)
  have hlat := hN latest x.1 x.2.flow (loadFile_ok e3)
  have h1 : ⌊x.1 * 100⌋₊ + 1 ≤ ⌊tOld * 100⌋₊ := by
    refine Nat.le_floor ?_
    have h2 := Nat.floor_le (show 0 ≤ x.1 * 100 from mul_nonneg (h0 x hmem) (by norm_num))
    have := hlate x hmem
    push_cast; linarith
  omega

/-- an empty directory; a run with checkpoints at times 0, 0.5 and 0.505 (these two share their file names), interrupted after the second -/
example (a b c : SaveParts α) : restart ((⟨[], []⟩ : Disk α).run ((runEvs [(0, a), (0.5, b), (0.505, c)]).take 16)) = .ok (0.5, b) :=
  (restart_iff (D := ⟨[], []⟩) ⟨by simp, by simp⟩ (by simp; norm_num) (by simp; norm_num) (by simp [runEvs, saveEvs]) (0.5, b)).2 ⟨1, rfl, rfl⟩

end Sopht
