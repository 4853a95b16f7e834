import Verif.Logger

/-! # C49, C50: loggers -/

namespace Sopht

/-- Every second element: positions 1, 3, 5, … -/
def everySecond {H : Type} : List H → List H
  | _ :: b :: l => b :: everySecond l
  | _ => []

theorem iterRemove_eq {H : Type} [DecidableEq H] (l pre : List H) (hn : (pre ++ l).Nodup) :
    iterRemove pre.length (pre ++ l) = pre ++ everySecond l := by
  induction hk : l.length using Nat.strong_induction_on generalizing l pre with
  | _ n ih =>
    match l with
    | [] => rw [iterRemove]; simp [everySecond]
    | [a] =>
      rw [iterRemove, dif_pos (by simp)]
      have ha : a ∉ pre := by
        rw [List.nodup_append] at hn
        intro h; exact hn.2.2 a h a (by simp) rfl
      simp only [List.getElem_append_right (Nat.le_refl _), Nat.sub_self, List.getElem_cons_zero]
      rw [List.erase_append_right _ ha]
      simp only [List.erase_cons_head, List.append_nil]
      rw [iterRemove, dif_neg (by omega)]
      simp [everySecond]
    | a :: b :: l =>
      rw [iterRemove, dif_pos (by simp)]
      have ha : a ∉ pre := by
        rw [List.nodup_append] at hn
        intro h; exact hn.2.2 a h a (by simp) rfl
      simp only [List.getElem_append_right (Nat.le_refl _), Nat.sub_self, List.getElem_cons_zero]
      rw [List.erase_append_right _ ha]
      simp only [List.erase_cons_head]
      have hn2 : (pre ++ [b] ++ l).Nodup := by
        have h1 : (pre ++ b :: l).Nodup := by
          apply List.Nodup.sublist _ hn
          exact List.Sublist.append_left (List.sublist_cons_self a _) pre
        simpa using h1
      have := ih l.length (by simp only [List.length_cons] at hk; omega) l (pre ++ [b]) hn2 rfl
      simp only [List.length_append, List.length_cons, List.length_nil, Nat.zero_add, List.append_assoc, List.cons_append, List.nil_append] at this
      rw [this]
      simp [everySecond]

/-- The handlers of a registry entry are different objects, numbered below `fresh`. -/
def LoggerWF (L : PyLogger) : Prop := (L.handlers.map Handler.id).Nodup ∧ ∀ h ∈ L.handlers, h.id < L.fresh

theorem LoggerWF.nodup {L : PyLogger} (h : LoggerWF L) : L.handlers.Nodup :=
  List.Pairwise.of_map Handler.id (fun _ _ hab e => hab (congrArg _ e)) h.1

theorem everySecond_sublist {H : Type} : ∀ l : List H, (everySecond l).Sublist l
  | [] => by simp [everySecond]
  | [_] => by simp [everySecond]
  | a :: b :: l => by
    simp only [everySecond]
    exact ((everySecond_sublist l).cons_cons b).cons a

theorem everySecond_length {H : Type} : ∀ l : List H, (everySecond l).length = l.length / 2
  | [] => by simp [everySecond]
  | [_] => by simp [everySecond]
  | a :: b :: l => by
    simp only [everySecond, List.length_cons, everySecond_length l]
    omega

/-- C50: what `remove_and_close_all_handlers` leaves: every second handler, in the old order. -/
theorem close_leaves_every_second {L : PyLogger} (hL : LoggerWF L) :
    (removeAndCloseAll L).handlers = everySecond L.handlers := by
  have := iterRemove_eq L.handlers [] (by simpa using hL.nodup)
  simpa [removeAndCloseAll] using this

/-- C50: half of the handlers (rounded down) stay attached; none stays exactly when there was at most one. -/
theorem close_leaves_count {L : PyLogger} (hL : LoggerWF L) :
    (removeAndCloseAll L).handlers.length = L.handlers.length / 2 ∧
      ((removeAndCloseAll L).handlers = [] ↔ L.handlers.length ≤ 1) := by
  have h := close_leaves_every_second hL
  have h2 := everySecond_length L.handlers
  refine ⟨by rw [h, h2], ?_⟩
  rw [← List.length_eq_zero_iff, h, h2]
  omega

theorem close_wf {L : PyLogger} (hL : LoggerWF L) : LoggerWF (removeAndCloseAll L) := by
  have h := close_leaves_every_second hL
  have hs := everySecond_sublist L.handlers
  refine ⟨?_, ?_⟩
  · rw [h]; exact hL.1.sublist (hs.map _)
  · intro x hx
    rw [h] at hx
    exact hL.2 x (hs.subset hx)

theorem snoc_wf {L : PyLogger} (hL : LoggerWF L) (x : Handler) (hx : x.id = L.fresh) (lv : ℕ) :
    LoggerWF { level := lv, handlers := L.handlers ++ [x], fresh := L.fresh + 1 } := by
  refine ⟨?_, ?_⟩
  · simp only [List.map_append, List.map_cons, List.map_nil]
    rw [List.nodup_append]
    refine ⟨hL.1, by simp, ?_⟩
    intro a ha b hb
    obtain ⟨y, hy, rfl⟩ := List.mem_map.1 ha
    simp only [List.mem_singleton] at hb
    have := hL.2 y hy
    omega
  · intro y hy
    rcases List.mem_append.1 hy with hy | hy
    · have := hL.2 y hy; simp only; omega
    · simp only [List.mem_singleton] at hy; subst hy; simp only; omega

theorem newLogger_wf {L : PyLogger} (hL : LoggerWF L) (rank level : ℕ) (echo : List ℕ) (a b : Bool) :
    LoggerWF (newLogger rank L level echo a b).1 := by
  have h1 : LoggerWF { L with level := level } := hL
  exact snoc_wf (close_wf h1) ⟨_, .console, level, a, b⟩ rfl level

theorem logStep_wf {rank : ℕ} {s : PyLogger × Option MPILoggerObj} (h : LoggerWF s.1) (op : LogOp) : LoggerWF (logStep rank s op).1 := by
  cases op with
  | new level echo a b => exact newLogger_wf h rank level echo a b
  | enable f =>
    simp only [logStep]
    split
    · exact snoc_wf h ⟨_, _, _, _, _⟩ rfl s.1.level
    · exact h
  | close => exact close_wf h

/-- The hypothesis `LoggerWF` of the theorems above holds after every history of operations. -/
theorem logRun_wf (rank : ℕ) (ops : List LogOp) : LoggerWF (logRun rank ops).1 := by
  unfold logRun
  have base : LoggerWF (logStep rank ({}, none) (.new 20 [0] false false)).1 :=
    logStep_wf (s := ({}, none)) ⟨by simp, by simp⟩ _
  revert base
  generalize logStep rank ({}, none) (.new 20 [0] false false) = s
  induction ops generalizing s with
  | nil => intro h; exact h
  | cons op ops ih => intro h; exact ih _ (logStep_wf h op)

/-! ## C49 -/

/-- C49: a message sent to an `MPILogger` right after its construction, with or without log files enabled since, is written somewhere on rank
`rank` iff `echo_rank` is empty or contains the rank, and the severity reaches the level. -/
theorem echo_iff (rank : ℕ) (L : PyLogger) (level sev : ℕ) (echo : List ℕ) (a b : Bool) :
    logTo (newLogger rank L level echo a b).1 (newLogger rank L level echo a b).2 sev ≠ [] ↔
      (echo = [] ∨ rank ∈ echo) ∧ level ≤ sev := by
  unfold logTo newLogger removeAndCloseAll
  simp only
  by_cases hv : echo = [] ∨ rank ∈ echo
  · have e : (if echo.length = 0 then true else decide (rank ∈ echo)) = true := by
      rcases hv with rfl | hv
      · simp
      · split
        · rfl
        · simpa using hv
    rw [if_pos e]
    by_cases hs : level ≤ sev
    · rw [if_pos hs, List.filter_append]
      simp [hv, hs]
    · rw [if_neg hs]; simp [hs]
  · have e : (if echo.length = 0 then true else decide (rank ∈ echo)) = false := by
      simp only [not_or] at hv
      rw [if_neg (by simpa [List.length_eq_zero_iff] using hv.1)]
      simpa using hv.2
    rw [if_neg (by rw [e]; simp)]
    simp [hv]

/-- C49: and a rank that is not to echo writes nothing, at any later time, whatever handlers are attached. -/
theorem silent_rank (rank : ℕ) (L L' : PyLogger) (level sev : ℕ) (echo : List ℕ) (a b : Bool) (he : echo ≠ []) (hr : rank ∉ echo) :
    logTo L' (newLogger rank L level echo a b).2 sev = [] := by
  unfold logTo newLogger
  simp [he, hr]

/-- C49: the messages of an echoing rank reach the console exactly once as long as no log file was ever enabled, however many loggers were made. -/
theorem console_once (rank : ℕ) (ops : List LogOp) (hops : ∀ op ∈ ops, ∃ level echo a b, op = .new level echo a b) :
    ∃ x o, (logRun rank ops).1.handlers = [x] ∧ (logRun rank ops).2 = some o ∧ x.dest = .console ∧ x.level = o.level ∧
      (logRun rank ops).1.level = o.level := by
  have key : ∀ (ops : List LogOp) (s : PyLogger × Option MPILoggerObj), (∀ op ∈ ops, ∃ level echo a b, op = .new level echo a b) →
      (∃ x o, s.1.handlers = [x] ∧ s.2 = some o ∧ x.dest = .console ∧ x.level = o.level ∧ s.1.level = o.level) →
      ∃ x o, (ops.foldl (logStep rank) s).1.handlers = [x] ∧ (ops.foldl (logStep rank) s).2 = some o ∧ x.dest = .console ∧
        x.level = o.level ∧ (ops.foldl (logStep rank) s).1.level = o.level := by
    intro ops
    induction ops with
    | nil => intro s _ h; exact h
    | cons op ops ih =>
      intro s hall h
      apply ih _ (fun o ho => hall o (List.mem_cons_of_mem _ ho))
      obtain ⟨level, echo, a, b, rfl⟩ := hall op List.mem_cons_self
      obtain ⟨x, o, h1, _⟩ := h
      refine ⟨⟨s.1.fresh, .console, level, a, b⟩, _, ?_, rfl, rfl, rfl, rfl⟩
      simp only [logStep, newLogger, removeAndCloseAll, h1]
      have : iterRemove 0 [x] = [] := by
        rw [iterRemove, dif_pos (by simp)]
        simp only [List.getElem_cons_zero, List.erase_cons_head]
        rw [iterRemove, dif_neg (by simp)]
      simp [this]
  exact key ops _ hops ⟨⟨0, .console, 20, false, false⟩, _, by
    simp only [logStep, newLogger, removeAndCloseAll]
    rw [iterRemove, dif_neg (by simp)]; rfl, rfl, rfl, rfl, rfl⟩

/-! ## C50: consequences -/

theorem run_files (rank : ℕ) (f : String) (l1 l2 : ℕ) (e1 e2 : List ℕ) (a1 b1 a2 b2 : Bool) :
    (logRun rank [.new l1 e1 a1 b1, .enable f, .new l2 e2 a2 b2]).1.handlers =
      [⟨2, .file (f ++ ".log"), l1, a1, b1⟩, ⟨3, .console, l2, a2, b2⟩] := by
  have s0 : iterRemove 0 ([] : List Handler) = [] := by rw [iterRemove, dif_neg (by simp)]
  have s1 : ∀ x : Handler, iterRemove 0 [x] = [] := by
    intro x
    have := iterRemove_eq [x] [] (by simp)
    simpa [everySecond] using this
  have s2 : ∀ x y : Handler, x ≠ y → iterRemove 0 [x, y] = [y] := by
    intro x y hxy
    have := iterRemove_eq [x, y] [] (by simp [hxy])
    simpa [everySecond] using this
  simp only [logRun, logStep, newLogger, removeAndCloseAll, enableLogfile, List.foldl_cons, List.foldl_nil, s0, s1, List.nil_append,
    List.cons_append]
  rw [s2 _ _ (by simp)]
  rfl

/-- C50: making a second logger does not detach the log file of the first: everything the second one prints still goes to the old log file. -/
theorem stale_logfile (rank : ℕ) (f : String) (l1 l2 sev : ℕ) (e1 e2 : List ℕ) (a1 b1 a2 b2 : Bool) (hv : e2 = [] ∨ rank ∈ e2)
    (hs : l1 ≤ sev ∧ l2 ≤ sev) :
    ∃ o, (logRun rank [.new l1 e1 a1 b1, .enable f, .new l2 e2 a2 b2]).2 = some o ∧
      logTo (logRun rank [.new l1 e1 a1 b1, .enable f, .new l2 e2 a2 b2]).1 o sev = [.file (f ++ ".log"), .console] := by
  have hh := run_files rank f l1 l2 e1 e2 a1 b1 a2 b2
  refine ⟨(newLogger rank (logRun rank [.new l1 e1 a1 b1, .enable f]).1 l2 e2 a2 b2).2, rfl, ?_⟩
  unfold logTo
  rw [hh]
  have e : (newLogger rank (logRun rank [.new l1 e1 a1 b1, .enable f]).1 l2 e2 a2 b2).2.verbose = true := by
    unfold newLogger
    rcases hv with rfl | hv
    · simp
    · simp only
      split
      · rfl
      · simpa using hv
  have e2 : (logRun rank [.new l1 e1 a1 b1, .enable f, .new l2 e2 a2 b2]).1.level = l2 := rfl
  rw [if_pos e, e2, if_pos hs.2]
  simp [hs]

/-- C50: with log files the leftover handlers also duplicate console output: after two loggers with a log file each, a third one prints every line
to the console twice. -/
theorem duplicate_console (rank : ℕ) (f1 f2 : String) (l : ℕ) :
    (logRun rank [.new l [] false false, .enable f1, .new l [] false false, .enable f2, .new l [] false false]).1.handlers.map Handler.dest =
      [.console, .console] := by
  have hh := run_files rank f1 l l [] [] false false false false
  have e : logRun rank [.new l [] false false, .enable f1, .new l [] false false, .enable f2, .new l [] false false] =
      List.foldl (logStep rank) (logRun rank [.new l [] false false, .enable f1, .new l [] false false])
        [.enable f2, .new l [] false false] := by
    simp [logRun]
  rw [e]
  have wf := logRun_wf rank [.new l [] false false, .enable f1, .new l [] false false, .enable f2]
  have hc := close_leaves_every_second wf
  simp only [List.foldl_cons, List.foldl_nil]
  have e3 : logStep rank (logRun rank [.new l [] false false, .enable f1, .new l [] false false]) (.enable f2) =
      logRun rank [.new l [] false false, .enable f1, .new l [] false false, .enable f2] := by simp [logRun]
  have e4 : (logRun rank [.new l [] false false, .enable f1, .new l [] false false, .enable f2]).1.handlers.map Handler.dest =
      [.file (f1 ++ ".log"), .console, .file (f2 ++ ".log")] := by
    rw [← e3]
    have : (logRun rank [.new l [] false false, .enable f1, .new l [] false false]).2 =
      some (newLogger rank (logRun rank [.new l [] false false, .enable f1]).1 l [] false false).2 := rfl
    simp only [logStep, this, enableLogfile, hh, List.map_append, List.map_cons, List.map_nil, List.cons_append, List.nil_append]
  rw [e3]
  have e5 : ∀ s : PyLogger × Option MPILoggerObj, (logStep rank s (.new l [] false false)).1.handlers.map Handler.dest =
      (removeAndCloseAll s.1).handlers.map Handler.dest ++ [.console] := by
    intro s
    simp [logStep, newLogger, removeAndCloseAll]
  rw [e5, hc]
  have e6 : ∀ l : List Handler, (everySecond l).map Handler.dest = everySecond (l.map Handler.dest) := by
    intro l
    induction hk : l.length using Nat.strong_induction_on generalizing l with
    | _ n ih =>
      match l with
      | [] => rfl
      | [_] => rfl
      | a :: b :: l =>
        simp only [everySecond, List.map_cons]
        rw [ih l.length (by simp only [List.length_cons] at hk; omega) l rfl]
  rw [e6, e4]
  rfl

/-- C49: the level lives in the shared object: the level of the logger made last decides for all earlier `MPILogger` objects of the rank. -/
theorem level_shared (rank : ℕ) (L : PyLogger) (o : MPILoggerObj) (level sev : ℕ) (echo : List ℕ) (a b : Bool) (hlow : sev < level) :
    logTo (newLogger rank L level echo a b).1 o sev = [] := by
  unfold logTo newLogger removeAndCloseAll
  simp only
  split
  · rw [if_neg (by omega)]
  · rfl

/-- C49: each line ends with the message as given, whatever the format. -/
theorem formatLine_suffix (a b : Bool) (name lv msg : List Char) : msg <:+ formatLine a b name lv msg := by
  cases a <;> cases b <;> simp only [formatLine]
  · exact List.suffix_refl _
  all_goals exact List.suffix_append _ _

/-- C49: a line names the rank exactly if `with_rank` was asked for and the level exactly if `with_level` was: otherwise it does not depend on them. -/
theorem formatLine_says (a b : Bool) (name lv msg : List Char) :
    (a = true → name <:+: formatLine a b name lv msg) ∧ (b = true → lv <:+: formatLine a b name lv msg) ∧
      (a = false → ∀ name', formatLine a b name' lv msg = formatLine a b name lv msg) ∧
      (b = false → ∀ lv', formatLine a b name lv' msg = formatLine a b name lv msg) := by
  refine ⟨?_, ?_, ?_, ?_⟩
  · rintro rfl
    cases b <;> simp only [formatLine]
    · exact ⟨"(".toList, List.replicate (7 - name.length) ' ' ++ (") :: ".toList ++ msg), by simp only [List.append_assoc]⟩
    · exact ⟨"[ ".toList ++ (lv ++ (List.replicate (7 - lv.length) ' ' ++ " ] (".toList)), List.replicate (7 - name.length) ' ' ++ (") :: ".toList ++ msg),
        by simp only [List.append_assoc]⟩
  · rintro rfl
    cases a <;> simp only [formatLine]
    · exact ⟨"[ ".toList, List.replicate (7 - lv.length) ' ' ++ (" ]  ".toList ++ msg), by simp only [List.append_assoc]⟩
    · exact ⟨"[ ".toList, List.replicate (7 - lv.length) ' ' ++ (" ] (".toList ++ (name ++ (List.replicate (7 - name.length) ' ' ++ (") :: ".toList ++ msg)))),
        by simp only [List.append_assoc]⟩
  · rintro rfl name'
    cases b <;> rfl
  · rintro rfl lv'
    cases a <;> rfl

/-! Non-vacuity: an echoing and a silent rank, and a leftover. -/
example : logTo (newLogger 1 {} 20 [1] true false).1 (newLogger 1 {} 20 [1] true false).2 30 ≠ [] :=
  (echo_iff 1 {} 20 30 [1] true false).2 ⟨Or.inr (by simp), by omega⟩
example : logTo (newLogger 0 {} 20 [1] true false).1 (newLogger 0 {} 20 [1] true false).2 30 = [] :=
  silent_rank 0 {} _ 20 30 [1] true false (by simp) (by simp)
example : (removeAndCloseAll (logRun 0 [.new 20 [] true true, .enable "a", .enable "b"]).1).handlers.length = 1 := by
  rw [(close_leaves_count (logRun_wf _ _)).1]
  have s1 : ∀ x : Handler, iterRemove 0 [x] = [] := by
    intro x
    have := iterRemove_eq [x] [] (by simp)
    simpa [everySecond] using this
  have s0 : iterRemove 0 ([] : List Handler) = [] := by rw [iterRemove, dif_neg (by simp)]
  simp [logRun, logStep, newLogger, removeAndCloseAll, enableLogfile, s0, s1]

end Sopht
