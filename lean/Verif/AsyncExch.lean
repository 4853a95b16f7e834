import Verif.AsyncProps
import Verif.MsgLemmas

/-!
# One exchange with the computations around it, run by ranks at their own speed

The rank program of one kernel call: local work, `Isend`/`Irecv` for every posted pair, work done while the messages are in flight, `Waitall`
(e.g. diffusion_flux_mpi_2d.py:43-67: `exchange_scalar_field_init`, interior stencil, `exchange_finalise`).  The executions of `Verif.Async` of this program are related to the
model of an exchange in `Verif.Msg`, in which all ranks have posted everything before the first message moves.
-/

namespace Sopht

variable {R ι α O : Type} [DecidableEq R] [DecidableEq ι]

/-- What posting one pair does (`Post`; `PROC_NULL` posts nothing). A rank holds the arrays that are exchanged and private data `O`. -/
def postIns (p : Post R ι) : List (AIns R ((ι → α) × O) (List α)) :=
  (match p.sendTo with
    | some d => [.isend d fun S => p.sendIx.map S.1]
    | none => []) ++
  (match p.recvFrom with
    | some s => [.irecv s fun vals S => (unpack S.1 p.recvIx vals, S.2)]
    | none => [])

/-- The work done while the messages are in flight reads all data of the rank and writes private data only. -/
def midIns (mid : (ι → α) → O → O) : AIns R ((ι → α) × O) (List α) := .loc fun S => (S.1, mid S.1 S.2)

/-- The rank program. -/
def exchProg (ranks : List R) (pre : R → (ι → α) × O → (ι → α) × O) (posts : R → List (Post R ι)) (mid : R → (ι → α) → O → O) (c : R) :
    List (AIns R ((ι → α) × O) (List α)) :=
  if c ∈ ranks then .loc (pre c) :: ((posts c).flatMap postIns ++ [midIns (mid c), .waitall]) else []

/-- The sends to `r` in a program, as they look when posted. -/
def sendSlots {S M : Type} (r : R) : List (AIns R S M) → List (Slot S M)
  | [] => []
  | .isend d rd :: l => if d = r then .unread rd :: sendSlots r l else sendSlots r l
  | _ :: l => sendSlots r l

/-- The receives from `s` in a program. -/
def recvWrs {S M : Type} (s : R) : List (AIns R S M) → List (M → S → S)
  | [] => []
  | .irecv s' wr :: l => if s' = s then wr :: recvWrs s l else recvWrs s l
  | _ :: l => recvWrs s l

section
variable {S M : Type}

theorem sendSlots_append (r : R) (l m : List (AIns R S M)) : sendSlots r (l ++ m) = sendSlots r l ++ sendSlots r m := by
  induction l with
  | nil => rfl
  | cons x l ih =>
    cases x <;> simp only [List.cons_append, sendSlots, ih]
    split <;> rfl

theorem recvWrs_append (s : R) (l m : List (AIns R S M)) : recvWrs s (l ++ m) = recvWrs s l ++ recvWrs s m := by
  induction l with
  | nil => rfl
  | cons x l ih =>
    cases x <;> simp only [List.cons_append, recvWrs, ih]
    split <;> rfl

theorem sendSlots_length (r : R) (l : List (AIns R S M)) : (sendSlots r l).length = nSends r l := by
  induction l with
  | nil => rfl
  | cons x l ih =>
    cases x <;> simp only [sendSlots, nSends, ih]
    split <;> simp [ih]

theorem recvWrs_length (s : R) (l : List (AIns R S M)) : (recvWrs s l).length = nRecvs s l := by
  induction l with
  | nil => rfl
  | cons x l ih =>
    cases x <;> simp only [recvWrs, nRecvs, ih]
    split <;> simp [ih]

end

/-- What a message looks like as a posted send. -/
def rdOf (ix : List ι) : Slot ((ι → α) × O) (List α) := .unread fun S => ix.map S.1

/-- What a message looks like as a posted receive. -/
def wrOf (ix : List ι) : List α → (ι → α) × O → (ι → α) × O := fun vals S => (unpack S.1 ix vals, S.2)

omit [DecidableEq ι] in
theorem sendSlots_posts [DecidableEq ι] (l : List (Post R ι)) (r : R) :
    sendSlots r (l.flatMap (postIns (α := α) (O := O))) = (l.filterMap fun p => if p.sendTo = some r then some p.sendIx else none).map rdOf := by
  induction l with
  | nil => rfl
  | cons p l ih =>
    rw [List.flatMap_cons, sendSlots_append, ih, List.filterMap_cons]
    obtain ⟨a, b, c, d⟩ := p
    cases a with
    | none => cases c <;> simp [postIns, sendSlots]
    | some d' =>
      by_cases e : d' = r
      · subst e; cases c <;> simp [postIns, sendSlots, rdOf]
      · cases c <;> simp [postIns, sendSlots, e]

theorem recvWrs_posts (l : List (Post R ι)) (s : R) :
    recvWrs s (l.flatMap (postIns (α := α) (O := O))) = (l.filterMap fun p => if p.recvFrom = some s then some p.recvIx else none).map wrOf := by
  induction l with
  | nil => rfl
  | cons p l ih =>
    rw [List.flatMap_cons, recvWrs_append, ih, List.filterMap_cons]
    obtain ⟨a, b, c, d⟩ := p
    cases c with
    | none => cases a <;> simp [postIns, recvWrs]
    | some d' =>
      by_cases e : d' = s
      · subst e; cases a <;> simp [postIns, recvWrs, wrOf, Function.comp_def] <;> rfl
      · cases a <;> simp [postIns, recvWrs, e]

theorem sendSlots_prog (ranks : List R) (pre : R → (ι → α) × O → (ι → α) × O) (posts : R → List (Post R ι)) (mid : R → (ι → α) → O → O) (s r : R) :
    sendSlots r (exchProg ranks pre posts mid s) = if s ∈ ranks then (sendsTo posts s r).map rdOf else [] := by
  unfold exchProg
  split
  · simp only [sendSlots, sendSlots_append, midIns, List.append_nil]
    exact sendSlots_posts (posts s) r
  · rfl

theorem recvWrs_prog (ranks : List R) (pre : R → (ι → α) × O → (ι → α) × O) (posts : R → List (Post R ι)) (mid : R → (ι → α) → O → O) (s r : R) :
    recvWrs s (exchProg ranks pre posts mid r) = if r ∈ ranks then (recvsOf posts r s).map wrOf else [] := by
  unfold exchProg
  split
  · simp only [recvWrs, recvWrs_append, midIns, List.append_nil]
    exact recvWrs_posts (posts r) s
  · rfl

theorem sendsTo_outside {ranks : List R} {posts : R → List (Post R ι)} (hm : AllMatched ranks posts) {s r : R} (hs : s ∈ ranks) (hr : r ∉ ranks) : sendsTo posts s r = [] := by
  unfold sendsTo
  rw [List.filterMap_eq_nil_iff]
  intro p hp
  rw [if_neg]
  intro e
  exact hr ((hm.1 s hs p hp).1 r e)

theorem recvsOf_outside {ranks : List R} {posts : R → List (Post R ι)} (hm : AllMatched ranks posts) {s r : R} (hr : r ∈ ranks) (hs : s ∉ ranks) : recvsOf posts r s = [] := by
  unfold recvsOf
  rw [List.filterMap_eq_nil_iff]
  intro p hp
  rw [if_neg]
  intro e
  exact hs ((hm.1 r hr p hp).2 s e)

/-- The program is a layer. -/
theorem exchProg_layer {ranks : List R} {posts : R → List (Post R ι)} (hm : AllMatched ranks posts) (pre : R → (ι → α) × O → (ι → α) × O) (mid : R → (ι → α) → O → O) :
    Layer (exchProg ranks pre posts mid) := by
  constructor
  · intro r
    unfold exchProg
    split
    · right
      exact ⟨.loc (pre r) :: ((posts r).flatMap postIns ++ [midIns (mid r)]), [], by simp, by intro x hx; cases hx⟩
    · left; intro x hx; cases hx
  · intro s r
    rw [← sendSlots_length, ← recvWrs_length, sendSlots_prog, recvWrs_prog]
    by_cases hs : s ∈ ranks <;> by_cases hr : r ∈ ranks
    · rw [if_pos hs, if_pos hr, List.length_map, List.length_map]
      have := congrArg List.length (hm.2 s hs r hr)
      simpa using this
    · rw [if_pos hs, if_neg hr, sendsTo_outside hm hs hr]; rfl
    · rw [if_neg hs, if_pos hr, recvsOf_outside hm hr hs]; rfl
    · rw [if_neg hs, if_neg hr]; rfl

omit [DecidableEq ι] in
theorem postIns_kind [DecidableEq ι] (l : List (Post R ι)) : ∀ x ∈ l.flatMap (postIns (α := α) (O := O)), (∃ d rd, x = .isend d rd) ∨ ∃ s wr, x = .irecv s wr := by
  intro x hx
  obtain ⟨p, -, hx⟩ := List.mem_flatMap.1 hx
  obtain ⟨a, b, c, d⟩ := p
  unfold postIns at hx
  rcases List.mem_append.1 hx with hx | hx
  · cases a with
    | none => simp at hx
    | some d' => left; simp at hx; exact ⟨_, _, hx⟩
  · cases c with
    | none => simp at hx
    | some d' => right; simp at hx; exact ⟨_, _, hx⟩

theorem exchProg_flat (ranks : List R) (posts : R → List (Post R ι)) (pre : R → (ι → α) × O → (ι → α) × O) (mid : R → (ι → α) → O → O) :
    Flat (exchProg ranks pre posts mid) := by
  intro r
  unfold exchProg
  split
  · right
    refine ⟨.loc (pre r) :: ((posts r).flatMap postIns ++ [midIns (mid r)]), [], by simp, ?_, by intro x hx; cases hx⟩
    intro x hx
    simp only [List.mem_cons, List.mem_append, List.not_mem_nil, or_false] at hx
    rcases hx with rfl | hx | rfl
    · simp
    · rcases postIns_kind _ x hx with ⟨d, rd, rfl⟩ | ⟨s, wr, rfl⟩ <;> simp
    · simp [midIns]
  · left; intro x hx; cases hx

/-! ## Numbering of the messages -/

omit [DecidableEq ι] in
/-- A number for every message: position in `allMsgs` of the `j`-th message from `s` to `r`. -/
theorem exists_key {ranks : List R} (hn : ranks.Nodup) (posts : R → List (Post R ι)) : ∃ key : R → R → ℕ → ℕ,
    (∀ s ∈ ranks, ∀ r ∈ ranks, ∀ j m, (matched posts s r)[j]? = some m → (allMsgs ranks posts)[key s r j]? = some m) ∧
    (∀ s ∈ ranks, ∀ r ∈ ranks, ∀ s' ∈ ranks, ∀ r' ∈ ranks, ∀ j < (matched posts s r).length, ∀ j' < (matched posts s' r').length,
      key s r j = key s' r' j' → s = s' ∧ r = r' ∧ j = j') ∧
    (∀ k < (allMsgs ranks posts).length, ∃ s ∈ ranks, ∃ r ∈ ranks, ∃ j < (matched posts s r).length, key s r j = k) := by
  classical
  let K : List (R × R × ℕ) := ranks.flatMap fun s => ranks.flatMap fun r => (List.range (matched posts s r).length).map fun j => (s, r, j)
  have hK : ∀ x : R × R × ℕ, x ∈ K ↔ x.1 ∈ ranks ∧ x.2.1 ∈ ranks ∧ x.2.2 < (matched posts x.1 x.2.1).length := by
    rintro ⟨s, r, j⟩
    simp only [K, List.mem_flatMap, List.mem_map, List.mem_range, Prod.mk.injEq]
    constructor
    · rintro ⟨s', hs, r', hr, j', hj, rfl, rfl, rfl⟩
      exact ⟨hs, hr, hj⟩
    · rintro ⟨hs, hr, hj⟩
      exact ⟨s, hs, r, hr, j, hj, rfl, rfl, rfl⟩
  have hnd : K.Nodup := by
    rw [List.nodup_flatMap]
    constructor
    · intro s _
      rw [List.nodup_flatMap]
      constructor
      · intro r _
        refine List.Nodup.map ?_ List.nodup_range
        intro a b h
        simpa using h
      · refine hn.imp fun {a b} hab => ?_
        intro x hx hy
        obtain ⟨_, _, rfl⟩ := List.mem_map.1 hx
        obtain ⟨_, _, e⟩ := List.mem_map.1 hy
        simp only [Prod.mk.injEq, true_and] at e
        exact hab e.1.symm
    · refine hn.imp fun {a b} hab => ?_
      intro x hx hy
      obtain ⟨_, _, h1⟩ := List.mem_flatMap.1 hx
      obtain ⟨_, _, rfl⟩ := List.mem_map.1 h1
      obtain ⟨_, _, h2⟩ := List.mem_flatMap.1 hy
      obtain ⟨_, _, e⟩ := List.mem_map.1 h2
      simp only [Prod.mk.injEq] at e
      exact hab e.1.symm
  have hmap : (allMsgs ranks posts).map some = K.map fun x => (matched posts x.1 x.2.1)[x.2.2]? := by
    simp only [allMsgs, K, List.map_flatMap, List.map_map]
    congr 1
    funext s
    congr 1
    funext r
    refine List.ext_getElem (by simp) ?_
    intro i h1 h2
    simp
  have hget : ∀ i : ℕ, ((allMsgs ranks posts)[i]?).map some = (K[i]?).map fun (x : R × R × ℕ) => (matched posts x.1 x.2.1)[x.2.2]? := by
    intro i
    rw [← List.getElem?_map, ← List.getElem?_map, hmap]
  have hlen : (allMsgs ranks posts).length = K.length := by
    have := congrArg List.length hmap
    simpa using this
  refine ⟨fun s r j => K.idxOf (s, r, j), ?_, ?_, ?_⟩
  · intro s hs r hr j m hj
    have hm : (s, r, j) ∈ K := (hK _).2 ⟨hs, hr, (List.getElem?_eq_some_iff.1 hj).1⟩
    have h1 := List.idxOf_lt_length_of_mem hm
    have := hget (K.idxOf (s, r, j))
    rw [List.getElem?_eq_getElem h1, List.getElem_idxOf h1] at this
    simp only [Option.map_some, hj] at this
    rw [Option.map_eq_some_iff] at this
    obtain ⟨m', e1, e2⟩ := this
    rw [e1, e2]
  · intro s hs r hr s' hs' r' hr' j hj j' hj' e
    have h1 : (s, r, j) ∈ K := (hK _).2 ⟨hs, hr, hj⟩
    have h2 : (s', r', j') ∈ K := (hK _).2 ⟨hs', hr', hj'⟩
    have l1 := List.idxOf_lt_length_of_mem h1
    have l2 := List.idxOf_lt_length_of_mem h2
    have e1 := List.getElem_idxOf l1
    have e2 := List.getElem_idxOf l2
    dsimp only at e
    have : (s, r, j) = (s', r', j') := by
      rw [← e1, ← e2]
      congr 1
    simpa using this
  · intro k hk
    rw [hlen] at hk
    have hm := List.getElem_mem hk
    obtain ⟨h1, h2, h3⟩ := (hK _).1 hm
    refine ⟨_, h1, _, h2, _, h3, ?_⟩
    exact hnd.idxOf_getElem k hk

/-! ## Simulation -/

/-- All sends from `s` to `r` which are not done, posted or not. -/
def futOut {S M : Type} (C : AConf R S M) (s r : R) : List (Slot S M) := C.out s r ++ sendSlots r (C.prog s)

/-- All receives of `r` for messages of `s` which are not done, posted or not. -/
def futIn {S M : Type} (C : AConf R S M) (s r : R) : List (M → S → S) := C.inn s r ++ recvWrs s (C.prog r)

/-- State of the network after the events. -/
def netAfter (M : List (Msg R ι)) (w : World R ι α) (evs : List Ev) : Net R ι α := evs.foldl (evStep M) ⟨w, fun _ => none⟩

/-- A send that is not done belongs to message `m`; `net` is what is in the network for it. -/
def SlotOk (m : Msg R ι) (net : Option (List α)) (picked : Prop) : Slot ((ι → α) × O) (List α) → Prop
  | .unread rd => ∀ S, rd S = m.sendIx.map S.1
  | .taken v => net = some v ∧ picked

/-- How far rank `c` is. -/
inductive Stage (Ms : List (Msg R ι)) (posts : R → List (Post R ι)) (pre : R → (ι → α) × O → (ι → α) × O) (mid : R → (ι → α) → O → O) (w : R → (ι → α) × O)
    (C : AConf R ((ι → α) × O) (List α)) (N : World R ι α) (c : R) : Prop
  | before (hp : C.prog c = .loc (pre c) :: ((posts c).flatMap postIns ++ [midIns (mid c), .waitall])) (hs : C.st c = w c) (ho : ∀ d, C.out c d = [])
      (hi : ∀ s, C.inn s c = []) (hN : N c = (pre c (w c)).1)
  | posting (l : List (AIns R ((ι → α) × O) (List α))) (hp : C.prog c = l ++ [midIns (mid c), .waitall])
      (hl : ∀ x ∈ l, (∃ d rd, x = .isend d rd) ∨ ∃ s wr, x = .irecv s wr) (hs : C.st c = (N c, (pre c (w c)).2))
  | waiting (hp : C.prog c = [.waitall] ∨ C.prog c = [])
      (hs : ∃ s1, C.st c = (N c, mid c (runNet Ms (fun r => (pre r (w r)).1) s1 c) (pre c (w c)).2))

/-- Relation between an execution and the exchange in which all ranks start together. -/
structure ExSim (ranks : List R) (posts : R → List (Post R ι)) (pre : R → (ι → α) × O → (ι → α) × O) (mid : R → (ι → α) → O → O) (w : R → (ι → α) × O)
    (key : R → R → ℕ → ℕ) (C : AConf R ((ι → α) × O) (List α)) (evs : List Ev) (ids : R → R → List ℕ) : Prop where
  stage : ∀ c ∈ ranks, Stage (allMsgs ranks posts) posts pre mid w C (netAfter (allMsgs ranks posts) (fun r => (pre r (w r)).1) evs).w c
  outside : ∀ c ∉ ranks, C.prog c = [] ∧ C.st c = w c
  inside : ∀ s r, ¬ (s ∈ ranks ∧ r ∈ ranks) → ids s r = []
  nodup : ∀ s r, (ids s r).Nodup
  lenOut : ∀ s r, (futOut C s r).length = (ids s r).length
  lenIn : ∀ s r, (futIn C s r).length = (ids s r).length
  slots : ∀ s r (i : ℕ) j x, (ids s r)[i]? = some j → (futOut C s r)[i]? = some x → ∃ m, (matched posts s r)[j]? = some m ∧
    SlotOk m ((netAfter (allMsgs ranks posts) (fun r => (pre r (w r)).1) evs).net (key s r j)) (Ev.pick (key s r j) ∈ evs) x
  wrs : ∀ s r (i : ℕ) j wr, (ids s r)[i]? = some j → (futIn C s r)[i]? = some wr → ∃ m, (matched posts s r)[j]? = some m ∧ ∀ v S, wr v S = (unpack S.1 m.recvIx v, S.2)
  landed : ∀ s ∈ ranks, ∀ r ∈ ranks, ∀ j < (matched posts s r).length, j ∈ ids s r ∨ ∃ a b c, evs = a ++ Ev.pick (key s r j) :: b ++ Ev.land (key s r j) :: c

theorem netAfter_snoc (M : List (Msg R ι)) (w : World R ι α) (evs : List Ev) (e : Ev) : netAfter M w (evs ++ [e]) = evStep M (netAfter M w evs) e := by
  unfold netAfter
  rw [List.foldl_append]
  rfl

theorem ExSim.start {ranks : List R} {posts : R → List (Post R ι)} (hm : AllMatched ranks posts) (pre : R → (ι → α) × O → (ι → α) × O) (mid : R → (ι → α) → O → O)
    (w : R → (ι → α) × O) (key : R → R → ℕ → ℕ) :
    ExSim ranks posts pre mid w key (AConf.start (exchProg ranks pre posts mid) w) []
      (fun s r => if s ∈ ranks ∧ r ∈ ranks then List.range (matched posts s r).length else []) := by
  have hlen : ∀ s ∈ ranks, ∀ r ∈ ranks, (sendsTo posts s r).length = (recvsOf posts r s).length := by
    intro s hs r hr
    simpa using congrArg List.length (hm.2 s hs r hr)
  have hml : ∀ s ∈ ranks, ∀ r ∈ ranks, (matched posts s r).length = (sendsTo posts s r).length := by
    intro s hs r hr
    unfold matched
    rw [List.length_map, List.length_zip, ← hlen s hs r hr, min_self]
  have hmget : ∀ s r (j : ℕ) m, (matched posts s r)[j]? = some m → (sendsTo posts s r)[j]? = some m.sendIx ∧ (recvsOf posts r s)[j]? = some m.recvIx := by
    intro s r j m hj
    unfold matched at hj
    rw [List.getElem?_map, Option.map_eq_some_iff] at hj
    obtain ⟨x, hx, rfl⟩ := hj
    rw [List.getElem?_zip_eq_some] at hx
    exact hx
  have hO : ∀ s r, futOut (AConf.start (exchProg ranks pre posts mid) w) s r = if s ∈ ranks ∧ r ∈ ranks then (sendsTo posts s r).map rdOf else [] := by
    intro s r
    change [] ++ sendSlots r (exchProg ranks pre posts mid s) = _
    rw [List.nil_append, sendSlots_prog]
    by_cases hs : s ∈ ranks <;> by_cases hr : r ∈ ranks <;> simp [hs, hr]
    exact sendsTo_outside hm hs hr
  have hI : ∀ s r, futIn (AConf.start (exchProg ranks pre posts mid) w) s r = if s ∈ ranks ∧ r ∈ ranks then (recvsOf posts r s).map wrOf else [] := by
    intro s r
    change [] ++ recvWrs s (exchProg ranks pre posts mid r) = _
    rw [List.nil_append, recvWrs_prog]
    by_cases hs : s ∈ ranks <;> by_cases hr : r ∈ ranks <;> simp [hs, hr]
    exact recvsOf_outside hm hr hs
  refine ⟨?_, ?_, ?_, ?_, ?_, ?_, ?_, ?_, ?_⟩
  · intro c hc
    refine .before ?_ rfl (fun _ => rfl) (fun _ => rfl) rfl
    change exchProg ranks pre posts mid c = _
    unfold exchProg
    rw [if_pos hc]
  · intro c hc
    refine ⟨?_, rfl⟩
    change exchProg ranks pre posts mid c = _
    unfold exchProg
    rw [if_neg hc]
  · intro s r h
    rw [if_neg h]
  · intro s r
    split
    · exact List.nodup_range
    · exact List.nodup_nil
  · intro s r
    rw [hO]
    split
    · rename_i h
      rw [List.length_map, List.length_range, hml s h.1 r h.2]
    · rfl
  · intro s r
    rw [hI]
    split
    · rename_i h
      rw [List.length_map, List.length_range, hml s h.1 r h.2, hlen s h.1 r h.2]
    · rfl
  · intro s r i j x hij hx
    rw [hO] at hx
    split at hx
    · rename_i h
      rw [if_pos h, List.getElem?_eq_some_iff] at hij
      obtain ⟨hi, e⟩ := hij
      rw [List.getElem_range] at e
      rw [List.length_range] at hi
      subst e
      refine ⟨(matched posts s r)[i], List.getElem?_eq_getElem hi, ?_⟩
      have h1 := (hmget s r i _ (List.getElem?_eq_getElem hi)).1
      rw [List.getElem?_map, h1] at hx
      simp only [Option.map_some, Option.some.injEq] at hx
      subst hx
      intro S
      rfl
    · simp at hx
  · intro s r i j wr hij hx
    rw [hI] at hx
    split at hx
    · rename_i h
      rw [if_pos h, List.getElem?_eq_some_iff] at hij
      obtain ⟨hi, e⟩ := hij
      rw [List.getElem_range] at e
      rw [List.length_range] at hi
      subst e
      refine ⟨(matched posts s r)[i], List.getElem?_eq_getElem hi, ?_⟩
      have h1 := (hmget s r i _ (List.getElem?_eq_getElem hi)).2
      rw [List.getElem?_map, h1] at hx
      simp only [Option.map_some, Option.some.injEq] at hx
      subst hx
      intro v S
      rfl
    · simp at hx
  · intro s hs r hr j hj
    left
    rw [if_pos ⟨hs, hr⟩]
    exact List.mem_range.2 hj

section
variable {ranks : List R} {posts : R → List (Post R ι)} {pre : R → (ι → α) × O → (ι → α) × O} {mid : R → (ι → α) → O → O} {w : R → (ι → α) × O}
  {key : R → R → ℕ → ℕ} {C C' : AConf R ((ι → α) × O) (List α)} {evs : List Ev} {ids : R → R → List ℕ}

theorem Stage.congr {Ms : List (Msg R ι)} {N N' : World R ι α} {c : R} (h : Stage Ms posts pre mid w C N c) (h1 : C'.prog c = C.prog c) (h2 : C'.st c = C.st c)
    (h3 : ∀ d, C'.out c d = C.out c d) (h4 : ∀ s, C'.inn s c = C.inn s c) (h5 : N' c = N c) : Stage Ms posts pre mid w C' N' c := by
  cases h with
  | before hp hs ho hi hN => exact .before (by rw [h1, hp]) (by rw [h2, hs]) (fun d => by rw [h3, ho]) (fun s => by rw [h4, hi]) (by rw [h5, hN])
  | posting l hp hl hs => exact .posting l (by rw [h1, hp]) hl (by rw [h2, h5, hs])
  | waiting hp hs => exact .waiting (by rw [h1]; exact hp) (by rw [h2, h5]; exact hs)

theorem ExSim.rank (h : ExSim ranks posts pre mid w key C evs ids) {a : R} (ha : a ∈ ranks) (hO : ∀ s r, futOut C' s r = futOut C s r)
    (hI : ∀ s r, futIn C' s r = futIn C s r)
    (hoth : ∀ c, c ≠ a → C'.prog c = C.prog c ∧ C'.st c = C.st c ∧ (∀ d, C'.out c d = C.out c d) ∧ ∀ s, C'.inn s c = C.inn s c)
    (hst : Stage (allMsgs ranks posts) posts pre mid w C' (netAfter (allMsgs ranks posts) (fun r => (pre r (w r)).1) evs).w a) :
    ExSim ranks posts pre mid w key C' evs ids := by
  refine ⟨?_, ?_, h.inside, h.nodup, ?_, ?_, ?_, ?_, h.landed⟩
  · intro c hc
    by_cases e : c = a
    · rw [e]; exact hst
    · obtain ⟨e1, e2, e3, e4⟩ := hoth c e
      exact (h.stage c hc).congr e1 e2 e3 e4 rfl
  · intro c hc
    have e : c ≠ a := by rintro rfl; exact hc ha
    obtain ⟨e1, e2, -⟩ := hoth c e
    rw [e1, e2]
    exact h.outside c hc
  · intro s r; rw [hO]; exact h.lenOut s r
  · intro s r; rw [hI]; exact h.lenIn s r
  · intro s r i j x; rw [hO]; exact h.slots s r i j x
  · intro s r i j x; rw [hI]; exact h.wrs s r i j x

theorem ExSim.mem_ranks (h : ExSim ranks posts pre mid w key C evs ids) {a : R} {x : AIns R ((ι → α) × O) (List α)} {l : List (AIns R ((ι → α) × O) (List α))}
    (hp : C.prog a = x :: l) : a ∈ ranks := by
  by_contra hc
  rw [(h.outside a hc).1] at hp
  cases hp

/-- The numbering of the messages has the properties of `exists_key`. -/
structure GoodKey (ranks : List R) (posts : R → List (Post R ι)) (key : R → R → ℕ → ℕ) : Prop where
  get : ∀ s ∈ ranks, ∀ r ∈ ranks, ∀ j m, (matched posts s r)[j]? = some m → (allMsgs ranks posts)[key s r j]? = some m
  inj : ∀ s ∈ ranks, ∀ r ∈ ranks, ∀ s' ∈ ranks, ∀ r' ∈ ranks, ∀ j < (matched posts s r).length, ∀ j' < (matched posts s' r').length,
      key s r j = key s' r' j' → s = s' ∧ r = r' ∧ j = j'
  surj : ∀ k < (allMsgs ranks posts).length, ∃ s ∈ ranks, ∃ r ∈ ranks, ∃ j < (matched posts s r).length, key s r j = k

omit [DecidableEq ι] in
theorem matched_ends {s r : R} {j : ℕ} {m : Msg R ι} (h : (matched posts s r)[j]? = some m) : m.src = s ∧ m.dst = r := by
  unfold matched at h
  rw [List.getElem?_map, Option.map_eq_some_iff] at h
  obtain ⟨x, -, rfl⟩ := h
  exact ⟨rfl, rfl⟩

theorem ExSim.step (hk : GoodKey ranks posts key) (h : ExSim ranks posts pre mid w key C evs ids) {b : Bool} (st : AStep b C C') :
    ∃ evs' ids', ExSim ranks posts pre mid w key C' evs' ids' := by
  cases st with
  | loc a f rest hp =>
    have ha := h.mem_ranks hp
    refine ⟨evs, ids, h.rank ha ?_ ?_ ?_ ?_⟩
    · intro s r
      unfold futOut
      by_cases e : s = a
      · subst e; simp only [Function.update_self, hp, sendSlots]
      · simp only [Function.update_of_ne e]
    · intro s r
      unfold futIn
      by_cases e : r = a
      · subst e; simp only [Function.update_self, hp, recvWrs]
      · simp only [Function.update_of_ne e]
    · intro c hc
      simp only [Function.update_of_ne hc]
      exact ⟨trivial, trivial, fun _ => trivial, fun _ => trivial⟩
    · cases h.stage a ha with
      | before hp' hs ho hi hN =>
        rw [hp, List.cons.injEq, AIns.loc.injEq] at hp'
        obtain ⟨rfl, rfl⟩ := hp'
        refine .posting _ (by simp) (postIns_kind (posts a)) ?_
        simp only [Function.update_self]
        rw [hs, hN]
      | posting l hp' hl hs =>
        cases l with
        | nil =>
          rw [hp, List.nil_append, midIns, List.cons.injEq, AIns.loc.injEq] at hp'
          obtain ⟨rfl, rfl⟩ := hp'
          refine .waiting (Or.inl (by simp)) ⟨evs, ?_⟩
          simp only [Function.update_self]
          rw [hs]
          rfl
        | cons x l =>
          rw [hp, List.cons_append, List.cons.injEq] at hp'
          obtain ⟨rfl, -⟩ := hp'
          rcases hl _ List.mem_cons_self with ⟨_, _, e⟩ | ⟨_, _, e⟩ <;> cases e
      | waiting hp' hs =>
        rw [hp] at hp'
        rcases hp' with e | e <;> cases e
  | isend a d rd rest hp =>
    have ha := h.mem_ranks hp
    refine ⟨evs, ids, h.rank ha ?_ ?_ ?_ ?_⟩
    · intro s r
      unfold futOut
      dsimp only
      by_cases e : s = a
      · subst e
        rw [Function.update_self, hp]
        by_cases e' : r = d
        · subst e'
          rw [upd2_same]
          simp [sendSlots]
        · rw [upd2_ne _ _ (fun h => e' h.2)]
          simp [sendSlots, Ne.symm e']
      · rw [Function.update_of_ne e, upd2_ne _ _ (fun h => e h.1)]
    · intro s r
      unfold futIn
      by_cases e : r = a
      · subst e; simp only [Function.update_self, hp, recvWrs]
      · simp only [Function.update_of_ne e]
    · intro c hc
      simp only [Function.update_of_ne hc]
      exact ⟨trivial, trivial, fun _ => by rw [upd2_ne _ _ (fun h => hc h.1)], fun _ => trivial⟩
    · cases h.stage a ha with
      | before hp' hs ho hi hN =>
        rw [hp, List.cons.injEq] at hp'
        cases hp'.1
      | posting l hp' hl hs =>
        cases l with
        | nil =>
          rw [hp, List.nil_append, midIns, List.cons.injEq] at hp'
          cases hp'.1
        | cons x l =>
          rw [hp, List.cons_append, List.cons.injEq] at hp'
          obtain ⟨rfl, rfl⟩ := hp'
          exact .posting l (by simp) (fun x hx => hl x (List.mem_cons_of_mem _ hx)) hs
      | waiting hp' hs =>
        rw [hp] at hp'
        rcases hp' with e | e <;> cases e
  | irecv a s0 wr rest hp =>
    have ha := h.mem_ranks hp
    refine ⟨evs, ids, h.rank ha ?_ ?_ ?_ ?_⟩
    · intro s r
      unfold futOut
      by_cases e : s = a
      · subst e; simp only [Function.update_self, hp, sendSlots]
      · simp only [Function.update_of_ne e]
    · intro s r
      unfold futIn
      dsimp only
      by_cases e : r = a
      · subst e
        rw [Function.update_self, hp]
        by_cases e' : s = s0
        · subst e'
          rw [upd2_same]
          simp [recvWrs]
        · rw [upd2_ne _ _ (fun h => e' h.1)]
          simp [recvWrs, Ne.symm e']
      · rw [Function.update_of_ne e, upd2_ne _ _ (fun h => e h.2)]
    · intro c hc
      simp only [Function.update_of_ne hc]
      exact ⟨trivial, trivial, fun _ => trivial, fun _ => by rw [upd2_ne _ _ (fun h => hc h.2)]⟩
    · cases h.stage a ha with
      | before hp' hs ho hi hN =>
        rw [hp, List.cons.injEq] at hp'
        cases hp'.1
      | posting l hp' hl hs =>
        cases l with
        | nil =>
          rw [hp, List.nil_append, midIns, List.cons.injEq] at hp'
          cases hp'.1
        | cons x l =>
          rw [hp, List.cons_append, List.cons.injEq] at hp'
          obtain ⟨rfl, rfl⟩ := hp'
          exact .posting l (by simp) (fun x hx => hl x (List.mem_cons_of_mem _ hx)) hs
      | waiting hp' hs =>
        rw [hp] at hp'
        rcases hp' with e | e <;> cases e
  | waitall a rest hp hs0 hr0 =>
    have ha := h.mem_ranks hp
    refine ⟨evs, ids, h.rank ha ?_ ?_ ?_ ?_⟩
    · intro s r
      unfold futOut
      by_cases e : s = a
      · subst e; simp only [Function.update_self, hp, sendSlots]
      · simp only [Function.update_of_ne e]
    · intro s r
      unfold futIn
      by_cases e : r = a
      · subst e; simp only [Function.update_self, hp, recvWrs]
      · simp only [Function.update_of_ne e]
    · intro c hc
      simp only [Function.update_of_ne hc]
      exact ⟨trivial, trivial, fun _ => trivial, fun _ => trivial⟩
    · cases h.stage a ha with
      | before hp' hs ho hi hN =>
        rw [hp, List.cons.injEq] at hp'
        cases hp'.1
      | posting l hp' hl hs =>
        cases l with
        | nil =>
          rw [hp, List.nil_append, midIns, List.cons.injEq] at hp'
          cases hp'.1
        | cons x l =>
          rw [hp, List.cons_append, List.cons.injEq] at hp'
          obtain ⟨rfl, -⟩ := hp'
          rcases hl _ List.mem_cons_self with ⟨_, _, e⟩ | ⟨_, _, e⟩ <;> cases e
      | waiting hp' hs =>
        rw [hp] at hp'
        rcases hp' with e | e
        · rw [List.cons.injEq] at e
          exact .waiting (Or.inr (by simp [e.2])) hs
        · cases e
  | pick s r i rd hi hb =>
    have hlt := (List.getElem?_eq_some_iff.1 hi).1
    have hfo : (futOut C s r)[i]? = some (.unread rd) := by
      unfold futOut
      rw [List.getElem?_append_left hlt, hi]
    have hlt' : i < (ids s r).length := by
      rw [← h.lenOut]
      exact (List.getElem?_eq_some_iff.1 hfo).1
    obtain ⟨j, hj⟩ : ∃ j, (ids s r)[i]? = some j := ⟨_, List.getElem?_eq_getElem hlt'⟩
    have hsr : s ∈ ranks ∧ r ∈ ranks := by
      by_contra hc
      rw [h.inside s r hc] at hlt'
      simp at hlt'
    obtain ⟨m, hm, hrd⟩ := h.slots s r i j _ hj hfo
    have hrd : ∀ S, rd S = m.sendIx.map S.1 := hrd
    have hmk := hk.get s hsr.1 r hsr.2 j m hm
    have hjl := (List.getElem?_eq_some_iff.1 hm).1
    have hsrc := (matched_ends hm).1
    have hN : netAfter (allMsgs ranks posts) (fun r => (pre r (w r)).1) (evs ++ [.pick (key s r j)]) =
        { netAfter (allMsgs ranks posts) (fun r => (pre r (w r)).1) evs with
          net := Function.update (netAfter (allMsgs ranks posts) (fun r => (pre r (w r)).1) evs).net (key s r j)
            (some (m.sendIx.map ((netAfter (allMsgs ranks posts) (fun r => (pre r (w r)).1) evs).w s))) } := by
      rw [netAfter_snoc]
      unfold evStep
      dsimp only
      rw [hmk]
      dsimp only
      rw [hsrc]
    have hval : rd (C.st s) = m.sendIx.map ((netAfter (allMsgs ranks posts) (fun r => (pre r (w r)).1) evs).w s) := by
      rw [hrd]
      congr 1
      cases h.stage s hsr.1 with
      | before hp' hs ho hi' hN =>
        rw [ho r] at hi
        simp at hi
      | posting l hp' hl hs => rw [hs]
      | waiting hp' hs => obtain ⟨s1, e⟩ := hs; rw [e]
    have hfo' : ∀ s' r', futOut { C with out := upd2 C.out s r ((C.out s r).set i (.taken (rd (C.st s)))) } s' r' =
        if s' = s ∧ r' = r then (futOut C s r).set i (.taken (rd (C.st s))) else futOut C s' r' := by
      intro s' r'
      unfold futOut
      dsimp only
      rw [upd2_apply]
      split
      · rename_i e; obtain ⟨rfl, rfl⟩ := e
        rw [List.set_append_left _ _ hlt]
      · rfl
    refine ⟨evs ++ [.pick (key s r j)], ids, ?_, h.outside, h.inside, h.nodup, ?_, h.lenIn, ?_, h.wrs, ?_⟩
    · intro c hc
      rw [hN]
      by_cases e : c = s
      · subst e
        cases h.stage c hc with
        | before hp' hs ho hi' hN =>
          rw [ho r] at hi
          simp at hi
        | posting l hp' hl hs => exact .posting l hp' hl hs
        | waiting hp' hs => exact .waiting hp' hs
      · exact (h.stage c hc).congr rfl rfl (fun d => upd2_ne _ _ (fun h => e h.1)) (fun _ => rfl) rfl
    · intro s' r'
      rw [hfo']
      split
      · rename_i e; obtain ⟨rfl, rfl⟩ := e
        rw [List.length_set]; exact h.lenOut _ _
      · exact h.lenOut _ _
    · intro s' r' i' j' x hj' hx
      rw [hfo'] at hx
      have hsr' : s' ∈ ranks ∧ r' ∈ ranks := by
        by_contra hc
        rw [h.inside s' r' hc] at hj'
        simp at hj'
      have old : (futOut C s' r')[i']? = some x → ¬ (s' = s ∧ r' = r ∧ i' = i) → ∃ m, (matched posts s' r')[j']? = some m ∧
          SlotOk m ((netAfter (allMsgs ranks posts) (fun r => (pre r (w r)).1) (evs ++ [.pick (key s r j)])).net (key s' r' j'))
            (Ev.pick (key s' r' j') ∈ evs ++ [.pick (key s r j)]) x := by
        intro hx hne
        obtain ⟨m', hm', hx'⟩ := h.slots s' r' i' j' x hj' hx
        refine ⟨m', hm', ?_⟩
        cases x with
        | unread rd' => exact hx'
        | taken v =>
          refine ⟨?_, List.mem_append_left _ hx'.2⟩
          rw [hN]
          dsimp only
          rw [Function.update_of_ne, hx'.1]
          intro e
          obtain ⟨rfl, rfl, rfl⟩ := hk.inj s' hsr'.1 r' hsr'.2 s hsr.1 r hsr.2 j' (List.getElem?_eq_some_iff.1 hm').1 j hjl e
          have := (h.nodup s' r').getElem_inj_iff (i := i') (j := i) (hi := (List.getElem?_eq_some_iff.1 hj').1) (hj := hlt')
          rw [(List.getElem?_eq_some_iff.1 hj').2, (List.getElem?_eq_some_iff.1 hj).2] at this
          exact hne ⟨rfl, rfl, this.1 rfl⟩
      split at hx
      · rename_i e; obtain ⟨rfl, rfl⟩ := e
        rw [List.getElem?_set] at hx
        split at hx
        · rename_i e
          subst e
          rw [hj] at hj'
          cases hj'
          split at hx
          · cases hx
            refine ⟨m, hm, ?_, by simp⟩
            rw [hN]
            dsimp only
            rw [Function.update_self, hval]
          · cases hx
        · rename_i e
          exact old hx (fun h => e h.2.2.symm)
      · rename_i e
        exact old hx (fun h => e ⟨h.1, h.2.1⟩)
    · intro s' hs' r' hr' j' hj'
      rcases h.landed s' hs' r' hr' j' hj' with h1 | ⟨x, y, z, e⟩
      · exact Or.inl h1
      · right
        refine ⟨x, y, z ++ [.pick (key s r j)], ?_⟩
        rw [e]
        simp
  | land s r i v wr hi hi' =>
    have hlt := (List.getElem?_eq_some_iff.1 hi).1
    have hlt2 := (List.getElem?_eq_some_iff.1 hi').1
    have hfo : (futOut C s r)[i]? = some (.taken v) := by
      unfold futOut
      rw [List.getElem?_append_left hlt, hi]
    have hfi : (futIn C s r)[i]? = some wr := by
      unfold futIn
      rw [List.getElem?_append_left hlt2, hi']
    have hlt' : i < (ids s r).length := by
      rw [← h.lenOut]
      exact (List.getElem?_eq_some_iff.1 hfo).1
    obtain ⟨j, hj⟩ : ∃ j, (ids s r)[i]? = some j := ⟨_, List.getElem?_eq_getElem hlt'⟩
    have hsr : s ∈ ranks ∧ r ∈ ranks := by
      by_contra hc
      rw [h.inside s r hc] at hlt'
      simp at hlt'
    obtain ⟨m, hm, hnet, hpick⟩ := h.slots s r i j _ hj hfo
    obtain ⟨m2, hm2, hwr⟩ := h.wrs s r i j _ hj hfi
    rw [hm] at hm2
    cases hm2
    have hmk := hk.get s hsr.1 r hsr.2 j m hm
    have hjl := (List.getElem?_eq_some_iff.1 hm).1
    have hdst := (matched_ends hm).2
    have hN : netAfter (allMsgs ranks posts) (fun r => (pre r (w r)).1) (evs ++ [.land (key s r j)]) =
        { netAfter (allMsgs ranks posts) (fun r => (pre r (w r)).1) evs with
          w := setRank (netAfter (allMsgs ranks posts) (fun r => (pre r (w r)).1) evs).w r
            (unpack ((netAfter (allMsgs ranks posts) (fun r => (pre r (w r)).1) evs).w r) m.recvIx v) } := by
      rw [netAfter_snoc]
      unfold evStep
      dsimp only
      rw [hmk, hnet]
      dsimp only
      rw [hdst]
    have hfo' : ∀ s' r', futOut { C with
        st := Function.update C.st r (wr v (C.st r))
        out := upd2 C.out s r ((C.out s r).eraseIdx i)
        inn := upd2 C.inn s r ((C.inn s r).eraseIdx i) } s' r' =
        if s' = s ∧ r' = r then (futOut C s r).eraseIdx i else futOut C s' r' := by
      intro s' r'
      unfold futOut
      dsimp only
      rw [upd2_apply]
      split
      · rename_i e; obtain ⟨rfl, rfl⟩ := e
        rw [List.eraseIdx_append_of_lt_length hlt]
      · rfl
    have hfi' : ∀ s' r', futIn { C with
        st := Function.update C.st r (wr v (C.st r))
        out := upd2 C.out s r ((C.out s r).eraseIdx i)
        inn := upd2 C.inn s r ((C.inn s r).eraseIdx i) } s' r' =
        if s' = s ∧ r' = r then (futIn C s r).eraseIdx i else futIn C s' r' := by
      intro s' r'
      unfold futIn
      dsimp only
      rw [upd2_apply]
      split
      · rename_i e; obtain ⟨rfl, rfl⟩ := e
        rw [List.eraseIdx_append_of_lt_length hlt2]
      · rfl
    have herase : ∀ {β : Type} {l : List β} {i' : ℕ} {x : β}, (l.eraseIdx i)[i']? = some x → ∃ i'', l[i'']? = some x ∧ i'' = if i' < i then i' else i' + 1 := by
      intro β l i' x hx
      rw [List.getElem?_eraseIdx] at hx
      split at hx
      · rename_i e; exact ⟨i', hx, by rw [if_pos e]⟩
      · rename_i e; exact ⟨i' + 1, hx, by rw [if_neg e]⟩
    refine ⟨evs ++ [.land (key s r j)], upd2 ids s r ((ids s r).eraseIdx i), ?_, ?_, ?_, ?_, ?_, ?_, ?_, ?_, ?_⟩
    · intro c hc
      rw [hN]
      by_cases e : c = r
      · subst e
        have hsr : setRank (netAfter (allMsgs ranks posts) (fun r => (pre r (w r)).1) evs).w c
            (unpack ((netAfter (allMsgs ranks posts) (fun r => (pre r (w r)).1) evs).w c) m.recvIx v) c =
            unpack ((netAfter (allMsgs ranks posts) (fun r => (pre r (w r)).1) evs).w c) m.recvIx v := by
          unfold setRank
          rw [Function.update_self]
        cases h.stage c hc with
        | before hp' hs ho hi'' hN =>
          rw [hi'' s] at hi'
          simp at hi'
        | posting l hp' hl hs =>
          refine .posting l hp' hl ?_
          dsimp only
          rw [hsr, Function.update_self, hwr, hs]
        | waiting hp' hs =>
          obtain ⟨s1, e⟩ := hs
          refine .waiting hp' ⟨s1, ?_⟩
          dsimp only
          rw [hsr, Function.update_self, hwr, e]
      · cases h.stage c hc with
        | before hp' hs ho hi'' hN' =>
          have hcs : c ≠ s := by
            rintro rfl
            rw [ho r] at hi
            simp at hi
          refine .before hp' ?_ ?_ ?_ ?_
          · simp only [Function.update_of_ne e]; exact hs
          · intro d
            dsimp only
            rw [upd2_ne _ _ (fun h => hcs h.1)]; exact ho d
          · intro s'
            dsimp only
            rw [upd2_ne _ _ (fun h => e h.2)]; exact hi'' s'
          · dsimp only
            unfold setRank
            rw [Function.update_of_ne e]; exact hN'
        | posting l hp' hl hs =>
          refine .posting l hp' hl ?_
          dsimp only
          unfold setRank
          simp only [Function.update_of_ne e]; exact hs
        | waiting hp' hs =>
          obtain ⟨s1, e1⟩ := hs
          refine .waiting hp' ⟨s1, ?_⟩
          dsimp only
          unfold setRank
          simp only [Function.update_of_ne e]; exact e1
    · intro c hc
      have e : c ≠ r := by rintro rfl; exact hc hsr.2
      simp only [Function.update_of_ne e]
      exact h.outside c hc
    · intro s' r' hc
      rw [upd2_ne]
      · exact h.inside s' r' hc
      · rintro ⟨rfl, rfl⟩; exact hc hsr
    · intro s' r'
      rw [upd2_apply]
      split
      · exact (h.nodup s r).sublist (List.eraseIdx_sublist _ _)
      · exact h.nodup s' r'
    · intro s' r'
      rw [hfo', upd2_apply]
      split
      · rw [List.length_eraseIdx, List.length_eraseIdx, h.lenOut]
      · exact h.lenOut _ _
    · intro s' r'
      rw [hfi', upd2_apply]
      split
      · rw [List.length_eraseIdx, List.length_eraseIdx, h.lenIn]
      · exact h.lenIn _ _
    · intro s' r' i' j' x hj' hx
      rw [hfo'] at hx
      rw [upd2_apply] at hj'
      have key' : ∃ i'' : ℕ, (ids s' r')[i'']? = some j' ∧ (futOut C s' r')[i'']? = some x := by
        split at hx
        · rename_i e
          rw [if_pos e] at hj'
          obtain ⟨rfl, rfl⟩ := e
          obtain ⟨i1, g1, e1⟩ := herase hj'
          obtain ⟨i2, g2, e2⟩ := herase hx
          refine ⟨i1, g1, ?_⟩
          rw [e1, ← e2]; exact g2
        · rename_i e
          rw [if_neg e] at hj'
          exact ⟨i', hj', hx⟩
      obtain ⟨i'', g1, g2⟩ := key'
      obtain ⟨m', hm', hx'⟩ := h.slots s' r' i'' j' x g1 g2
      refine ⟨m', hm', ?_⟩
      cases x with
      | unread rd' => exact hx'
      | taken v' =>
        refine ⟨?_, List.mem_append_left _ hx'.2⟩
        rw [hN]
        exact hx'.1
    · intro s' r' i' j' x hj' hx
      rw [hfi'] at hx
      rw [upd2_apply] at hj'
      have key' : ∃ i'' : ℕ, (ids s' r')[i'']? = some j' ∧ (futIn C s' r')[i'']? = some x := by
        split at hx
        · rename_i e
          rw [if_pos e] at hj'
          obtain ⟨rfl, rfl⟩ := e
          obtain ⟨i1, g1, e1⟩ := herase hj'
          obtain ⟨i2, g2, e2⟩ := herase hx
          refine ⟨i1, g1, ?_⟩
          rw [e1, ← e2]; exact g2
        · rename_i e
          rw [if_neg e] at hj'
          exact ⟨i', hj', hx⟩
      obtain ⟨i'', g1, g2⟩ := key'
      exact h.wrs s' r' i'' j' x g1 g2
    · intro s' hs' r' hr' j' hj'
      rcases h.landed s' hs' r' hr' j' hj' with h1 | ⟨x, y, z, e⟩
      · rw [upd2_apply]
        split
        · rename_i e; obtain ⟨rfl, rfl⟩ := e
          by_cases hjj : j' = j
          · subst hjj
            right
            obtain ⟨x, y, e⟩ := List.append_of_mem hpick
            exact ⟨x, y, [], by rw [e]⟩
          · left
            rw [List.mem_eraseIdx_iff_getElem?]
            obtain ⟨i'', g⟩ := List.mem_iff_getElem?.1 h1
            refine ⟨i'', ?_, g⟩
            rintro rfl
            rw [hj] at g
            cases g
            exact hjj rfl
        · exact Or.inl h1
      · right
        refine ⟨x, y, z ++ [.land (key s r j)], ?_⟩
        rw [e]
        simp

/-- **C82** One exchange run by ranks at their own speed, `pre` done before and `mid` done while messages are in flight: the exchanged arrays end up as after a complete
schedule of the exchange in which all ranks start together, and `mid` saw the arrays after some events of that exchange. -/
theorem exch_exec (hn : ranks.Nodup) (hm : AllMatched ranks posts) {b : Bool} {w' : R → (ι → α) × O}
    (h : AExec b (exchProg ranks pre posts mid) w w') :
    ∃ (s1 : R → List Ev) (s : List Ev), Complete (allMsgs ranks posts) s ∧
      (∀ c ∈ ranks, w' c = (runNet (allMsgs ranks posts) (fun r => (pre r (w r)).1) s c,
        mid c (runNet (allMsgs ranks posts) (fun r => (pre r (w r)).1) (s1 c) c) (pre c (w c)).2)) ∧
      ∀ c ∉ ranks, w' c = w c := by
  obtain ⟨key, k1, k2, k3⟩ := exists_key hn posts
  have hk : GoodKey ranks posts key := ⟨k1, k2, k3⟩
  obtain ⟨n, C, hr, hd, hst⟩ := h
  have hL := (LInv.start (exchProg_layer hm pre mid) w).run hr
  have hsim : ∃ evs ids, ExSim ranks posts pre mid w key C evs ids := by
    have h0 := ExSim.start hm pre mid w key
    generalize hA : AConf.start (exchProg ranks pre posts mid) w = A at hr h0
    clear hL hd hst
    induction hr with
    | refl => exact ⟨_, _, h0⟩
    | tail _ s ih =>
      obtain ⟨evs, ids, hs⟩ := ih hA h0
      exact hs.step hk s
  obtain ⟨evs, ids, hs⟩ := hsim
  have hids : ∀ s r, ids s r = [] := by
    intro s r
    have h1 := hs.lenIn s r
    unfold futIn at h1
    rw [hd r, (hL.fin r (hd r)).2 s] at h1
    exact List.length_eq_zero_iff.1 h1.symm
  have hst' : ∀ c ∈ ranks, ∃ s1, w' c = (runNet (allMsgs ranks posts) (fun r => (pre r (w r)).1) evs c,
        mid c (runNet (allMsgs ranks posts) (fun r => (pre r (w r)).1) s1 c) (pre c (w c)).2) := by
    intro c hc
    cases hs.stage c hc with
    | before hp => rw [hd c] at hp; cases hp
    | posting l hp =>
      rw [hd c] at hp
      exact absurd hp (by simp)
    | waiting hp he =>
      obtain ⟨s1, e⟩ := he
      exact ⟨s1, by rw [← hst, e]; rfl⟩
  choose! s1 hs1 using hst'
  refine ⟨s1, evs, ?_, hs1, ?_⟩
  · intro k hkl
    obtain ⟨s, hs', r, hr', j, hj, rfl⟩ := k3 k hkl
    rcases hs.landed s hs' r hr' j hj with h1 | h1
    · rw [hids] at h1
      cases h1
    · exact h1
  · intro c hc
    rw [← hst]
    exact (hs.outside c hc).2

end

end Sopht
