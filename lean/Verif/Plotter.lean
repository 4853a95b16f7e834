import Verif.CommProgsProps

/-!
# `MPIPlotter2D` (C89)

Models `MPIPlotter2D` (`sopht_mpi/utils/mpi_utils_2d.py:715-841`): every rank has its own figure; `contourf` gathers on the master and draws on every rank; `scatter`,
`plot`, `savefig` act on the master only; `clearfig` on every rank.  Of matplotlib we assume: `contourf` copies the data it draws and raises `TypeError` on a grid with
fewer than two rows or columns; `Axes.cla` removes everything drawn in the axes and the title, but no colour bar, which has its own axes; `Colorbar.remove` removes that
colour bar.  Levels, colour map, style and aspect ratio are left out, or part of the data `β` of a call.  Every rank makes the same calls.
-/

namespace Sopht

section Model

/-- A filled contour: node coordinates and values on the global grid. -/
structure Contour (T : Cart2) (α : Type) where
  field : Fin T.gy → Fin T.gx → α
  x : Fin T.gy → Fin T.gx → α
  y : Fin T.gy → Fin T.gx → α

/-- What is drawn in the axes. -/
inductive Artist (T : Cart2) (α β : Type) where
  | contour (c : Contour T α)
  | scatter (d : β)
  | line (d : β)

/-- What is to be seen in a figure: title, artists of the axes, and for each colour bar the contour it belongs to. -/
structure Shown (T : Cart2) (α β : Type) where
  title : String
  artists : List (Artist T α β)
  bars : List (Contour T α)

/-- The attribute `self.cbar`: `__init__` does not set it (mpi_utils_2d.py:731-757). -/
inductive CbarAttr where
  | unset
  | none
  | bar (id : ℕ)
  deriving DecidableEq

/-- A rank's plotter. `io`: the buffers `field_io`, `x_grid_io`, `y_grid_io`; colour bars have identities, `next` is the next one; `err`: the exception raised, after which
the rank does nothing. -/
structure PlotSt (T : Cart2) (α β : Type) where
  io : Fin 3 → ℤ → α
  title : String
  artists : List (Artist T α β)
  bars : List (ℕ × Contour T α)
  next : ℕ
  cbar : CbarAttr
  files : List (String × Shown T α β)
  err : Option PyErr

/-- A call. The arguments of `contourf` are the local arrays of the ranks (field, x, y); `scatter` and `plot` may be given other data on each rank; `setTitle` is
`plotter.ax.set_title`. -/
inductive PlotCall (α β : Type) where
  | contourf (a : Fin 3 → World C2 ℤ α)
  | scatter (d : C2 → β)
  | plot (d : C2 → β)
  | savefig (file : String)
  | clearfig
  | setTitle (t : String)

variable {α β : Type} [Zero α] (T : Cart2) (g : ℕ) (m : C2) (order : List C2)

/-- `MPIPlotter2D.__init__` (mpi_utils_2d.py:731-757, 770-779). -/
def plotInit (title : String) : PlotSt T α β :=
  { io := fun _ _ => 0, title := title, artists := [], bars := [], next := 0, cbar := .unset, files := [], err := none }

/-- A rank which has raised an exception does nothing. -/
def unlessErr (f : PlotSt T α β → PlotSt T α β) (s : PlotSt T α β) : PlotSt T α β := if s.err.isSome then s else f s

/-- `self.gather_local_scalar_field(buffer k, a)` on rank `r` (mpi_utils_2d.py:470-508, 801-803). -/
def plotGather (k : Fin 3) (a : World C2 ℤ α) (r : C2) : List (Ins C2 (PlotSt T α β) (List α)) :=
  if r = m then
    .loc (fun s => { s with io := Function.update s.io k (unpack (s.io k) (chunkIx2 T m) ((innerIx2 T g).map (a m))) }) ::
      order.map fun q => .recv q fun v s => { s with io := Function.update s.io k (unpack (s.io k) (masterBuf2 T q) v) }
  else [.send m fun _ => (slaveBuf2 T g).map (a r)]

/-- The arrays in the buffers. -/
def buffered2 (io : Fin 3 → ℤ → α) : Contour T α :=
  ⟨fun i j => io 0 (gflat2 T (i, j)), fun i j => io 1 (gflat2 T (i, j)), fun i j => io 2 (gflat2 T (i, j))⟩

/-- `self.ax.contourf(...)` and `self.cbar = self.fig.colorbar(...)` (mpi_utils_2d.py:804-813). -/
def drawContour (s : PlotSt T α β) : PlotSt T α β :=
  if T.gy < 2 ∨ T.gx < 2 then { s with err := some .typeError }
  else { s with
    artists := s.artists ++ [.contour (buffered2 T s.io)]
    bars := s.bars ++ [(s.next, buffered2 T s.io)]
    next := s.next + 1
    cbar := .bar s.next }

/-- What `savefig` writes. -/
def look (s : PlotSt T α β) : Shown T α β := ⟨s.title, s.artists, s.bars.map Prod.snd⟩

/-- `clearfig` (mpi_utils_2d.py:836-841). -/
def clearFig (s : PlotSt T α β) : PlotSt T α β :=
  let s := { s with title := "", artists := [] }
  match s.cbar with
  | .unset => { s with err := some .attributeError }
  | .none => s
  | .bar id => { s with bars := s.bars.filter fun b => b.1 ≠ id, cbar := .none }

/-- The local part of a call on rank `r`; `execute_only_on_master` is mpi_utils_2d.py:759-768. -/
def plotLocal (r : C2) : PlotCall α β → PlotSt T α β → PlotSt T α β
  | .contourf _, s => drawContour T s
  | .scatter d, s => if r = m then { s with artists := s.artists ++ [.scatter (d r)] } else s
  | .plot d, s => if r = m then { s with artists := s.artists ++ [.line (d r)] } else s
  | .savefig n, s => if r = m then { s with files := s.files ++ [(n, look T s)] } else s
  | .clearfig, s => clearFig T s
  | .setTitle t, s => { s with title := t }

/-- What rank `r` executes in a call. -/
def plotProg (c : PlotCall α β) (r : C2) : List (Ins C2 (PlotSt T α β) (List α)) :=
  (match c with
    | .contourf a => plotGather T g m order 0 (a 0) r ++ plotGather T g m order 1 (a 1) r ++ plotGather T g m order 2 (a 2) r
    | _ => []) ++ [.loc (unlessErr T (plotLocal T m r c))]

/-- What rank `r` executes in a sequence of calls. -/
def plotProgs (l : List (PlotCall α β)) (r : C2) : List (Ins C2 (PlotSt T α β) (List α)) := l.flatMap fun c => plotProg T g m order c r

end Model

/-! ## Specification -/

section Spec
variable {α β : Type} (T : Cart2) (g : ℕ) (m : C2)

/-- The global field made of the inner cells of all ranks: cell `(i, j)` belongs to rank `(i / ny, j / nx)`. -/
def wholeField (a : World C2 ℤ α) (i : Fin T.gy) (j : Fin T.gx) : α :=
  a ((i : ℤ) / T.ny, (j : ℤ) / T.nx) (flat2 T g (g + (i : ℤ) % T.ny, g + (j : ℤ) % T.nx))

/-- The contour a call draws, if it draws one. -/
def contourOf : PlotCall α β → Option (Contour T α)
  | .contourf a => some ⟨wholeField T g (a 0), wholeField T g (a 1), wholeField T g (a 2)⟩
  | _ => none

/-- What a call draws on the master. -/
def artistOf : PlotCall α β → Option (Artist T α β)
  | .contourf a => some (.contour ⟨wholeField T g (a 0), wholeField T g (a 1), wholeField T g (a 2)⟩)
  | .scatter d => some (.scatter (d m))
  | .plot d => some (.line (d m))
  | _ => none

/-- The title a call sets. -/
def titleOf : PlotCall α β → Option String
  | .setTitle t => some t
  | _ => none

def IsClear : PlotCall α β → Bool
  | .clearfig => true
  | _ => false

/-- The calls cut at the `clearfig` calls: the finished frames and the current one. -/
def frames (l : List (PlotCall α β)) : List (List (PlotCall α β)) × List (PlotCall α β) :=
  l.foldl (fun p c => if IsClear c then (p.1 ++ [p.2], []) else (p.1, p.2 ++ [c])) ([], [])

/-- What the master's figure shows after calls `l` on a plotter made with title `t`: what was drawn in the current frame, with the title set last in it (the constructor's
title only in the first frame), the colour bars of the contours of the current frame, and from each earlier frame all colour bars but the last. -/
def shownAfter (t : String) (l : List (PlotCall α β)) : Shown T α β :=
  { title := ((frames l).2.filterMap titleOf).getLast?.getD (if (frames l).1 = [] then t else "")
    artists := (frames l).2.filterMap (artistOf T g m)
    bars := ((frames l).1.flatMap fun f => (f.filterMap (contourOf T g)).dropLast) ++ (frames l).2.filterMap (contourOf T g) }

/-- The file call number `i` writes. -/
def savedBy (t : String) (l : List (PlotCall α β)) (i : ℕ) : Option (String × Shown T α β) :=
  match l[i]? with
  | some (.savefig n) => some (n, shownAfter T g m t (l.take i))
  | _ => none

/-- The exception call `c` raises after the calls `l`. -/
def raisesAfter (l : List (PlotCall α β)) (c : PlotCall α β) : Option PyErr :=
  match c with
  | .clearfig => if l.all fun c' => (contourOf T g c').isNone then some .attributeError else none
  | .contourf _ => if T.gy < 2 ∨ T.gx < 2 then some .typeError else none
  | _ => none

/-- No call of `l` raises. -/
def Quiet (l : List (PlotCall α β)) : Prop := ∀ (i : ℕ) (c : PlotCall α β), l[i]? = some c → raisesAfter T g (l.take i) c = none

end Spec

/-! ## Proofs -/

section Props
variable {α β : Type} [Zero α] {T : Cart2} {g : ℕ} {m : C2} {order : List C2}

omit [Zero α] in
theorem frames_snoc (l : List (PlotCall α β)) (c : PlotCall α β) :
    frames (l ++ [c]) = if IsClear c then ((frames l).1 ++ [(frames l).2], []) else ((frames l).1, (frames l).2 ++ [c]) := by
  unfold frames
  rw [List.foldl_append]
  rfl

def plotItems (T : Cart2) (g : ℕ) (m : C2) (order : List C2) (c : PlotCall α β) : List (Item C2 (PlotSt T α β) (List α)) :=
  (match c with
    | .contourf a => gi 0 (a 0) ++ gi 1 (a 1) ++ gi 2 (a 2)
    | _ => []) ++ allLoc (ranks2 T) fun r => unlessErr T (plotLocal T m r c)
where
  gi (k : Fin 3) (a : World C2 ℤ α) : List (Item C2 (PlotSt T α β) (List α)) :=
    gatherSeq m order (fun s => { s with io := Function.update s.io k (unpack (s.io k) (chunkIx2 T m) ((innerIx2 T g).map (a m))) })
      (fun q _ => (slaveBuf2 T g).map (a q)) fun q v s => { s with io := Function.update s.io k (unpack (s.io k) (masterBuf2 T q) v) }

omit [Zero α] in
theorem plotGi_parts (hm : Valid2 T m) (ho : SlaveOrder2 T m order) (k : Fin 3) (a : World C2 ℤ α) :
    Parts (ranks2 T) (plotGather (β := β) T g m order k a) (plotItems.gi T g m order k a) := by
  refine gatherSeq_parts ho.1 ho.not_mem (mem_ranks2.2 hm) (fun q hq => mem_ranks2.2 ((ho.2 q).1 hq).1) _ _ _ fun r hr => ?_
  unfold plotGather
  by_cases e : r = m
  · subst e; rw [if_pos rfl, if_neg ho.not_mem, if_pos rfl]; rfl
  · rw [if_neg e, if_neg e, if_pos ((ho.2 r).2 ⟨mem_ranks2.1 hr, e⟩)]; rfl

theorem plotItems_parts (hm : Valid2 T m) (ho : SlaveOrder2 T m order) (c : PlotCall α β) :
    Parts (ranks2 T) (plotProg T g m order c) (plotItems T g m order c) := by
  have hl : Parts (ranks2 T) (fun r => [.loc (unlessErr T (plotLocal T m r c))]) (allLoc (ranks2 T) fun r => unlessErr T (plotLocal T m r c) : List (Item C2 (PlotSt T α β) (List α))) :=
    allLoc_parts (ranks2_nodup T) _
  cases c with
  | contourf a => exact (((plotGi_parts hm ho 0 (a 0)).append (plotGi_parts hm ho 1 (a 1))).append (plotGi_parts hm ho 2 (a 2))).append hl
  | _ => exact (Parts.nil _).append hl

theorem plotAll_parts (hm : Valid2 T m) (ho : SlaveOrder2 T m order) (l : List (PlotCall α β)) :
    Parts (ranks2 T) (plotProgs T g m order l) (l.flatMap (plotItems T g m order)) := by
  induction l with
  | nil => exact Parts.nil _
  | cons c l ih => exact (plotItems_parts hm ho c).append ih

omit [Zero α] in
theorem exec_plotGi (ho : SlaveOrder2 T m order) (k : Fin 3) (a : World C2 ℤ α) (w : C2 → PlotSt T α β) :
    execAll (ranks2 T) (plotItems.gi T g m order k a) w = Function.update w m
      { w m with io := Function.update (w m).io k (gather2 T g m order a ((w m).io k)) } := by
  unfold plotItems.gi
  rw [exec_gatherSeq _ ho.not_mem]
  congr 1
  have : ∀ (l : List C2) (s : PlotSt T α β), l.foldl (fun s q => { s with io := Function.update s.io k (unpack (s.io k) (masterBuf2 T q) ((slaveBuf2 T g).map (a q))) }) s =
      { s with io := Function.update s.io k (l.foldl (fun A q => unpack A (masterBuf2 T q) ((slaveBuf2 T g).map (a q))) (s.io k)) } := by
    intro l
    induction l with
    | nil => intro s; simp
    | cons q l ih => intro s; rw [List.foldl_cons, ih]; simp
  rw [this]
  simp [gather2]

omit [Zero α] in
theorem gather2_whole {gy gx py px : ℕ} {per : Bool} (hT : mkCart2 gy gx py px per = .ok T) (hm : Valid2 T m) (ho : SlaveOrder2 T m order) (a : World C2 ℤ α)
    (A : ℤ → α) (i : Fin T.gy) (j : Fin T.gx) : gather2 T g m order a A (gflat2 T (i, j)) = wholeField T g a i j := by
  obtain ⟨-, -, -, -, -, hY, hX⟩ := construct2_ok hT
  have hi := i.2
  have hj := j.2
  have hny : 0 < T.ny := by rcases Nat.eq_zero_or_pos T.ny with h | h; · rw [h] at hY; omega
                            · exact h
  have hnx : 0 < T.nx := by rcases Nat.eq_zero_or_pos T.nx with h | h; · rw [h] at hX; omega
                            · exact h
  have hY' : (T.py : ℤ) * T.ny = T.gy := by exact_mod_cast hY
  have hX' : (T.px : ℤ) * T.nx = T.gx := by exact_mod_cast hX
  have hny' : (0 : ℤ) < T.ny := by exact_mod_cast hny
  have hnx' : (0 : ℤ) < T.nx := by exact_mod_cast hnx
  have hi' : (i : ℤ) < T.gy := by exact_mod_cast hi
  have hj' : (j : ℤ) < T.gx := by exact_mod_cast hj
  have ei := Int.mul_ediv_add_emod (i : ℤ) T.ny
  have ej := Int.mul_ediv_add_emod (j : ℤ) T.nx
  have bi := Int.emod_lt_of_pos (i : ℤ) hny'
  have bj := Int.emod_lt_of_pos (j : ℤ) hnx'
  have ni := Int.emod_nonneg (i : ℤ) hny'.ne'
  have nj := Int.emod_nonneg (j : ℤ) hnx'.ne'
  have hc : Valid2 T ((i : ℤ) / T.ny, (j : ℤ) / T.nx) := by
    refine ⟨Int.ediv_nonneg (by omega) hny'.le, ?_, Int.ediv_nonneg (by omega) hnx'.le, ?_⟩
    · exact Int.ediv_lt_of_lt_mul hny' (by rw [hY']; exact hi')
    · exact Int.ediv_lt_of_lt_mul hnx' (by rw [hX']; exact hj')
  have hG : InBlock2 T ((i : ℤ) / T.ny, (j : ℤ) / T.nx) ((i : ℤ), (j : ℤ)) := by
    refine ⟨?_, ?_, ?_, ?_⟩ <;> simp only <;> nlinarith
  rw [gather2_correct hT g hm ho a A hc hG]
  unfold wholeField
  congr 2
  refine Prod.ext ?_ ?_ <;> simp only <;> nlinarith

/-- What holds after the calls `l`. -/
structure PlotInv (T : Cart2) (g : ℕ) (m : C2) (t : String) (l : List (PlotCall α β)) (w : C2 → PlotSt T α β) : Prop where
  noErr : ∀ r ∈ ranks2 T, (w r).err = none
  unset : ∀ r ∈ ranks2 T, (w r).cbar = .unset ↔ l.all fun c => (contourOf T g c).isNone
  others : ∀ r ∈ ranks2 T, r ≠ m → (w r).files = []
  shown : look T (w m) = shownAfter T g m t l
  fresh : ∀ b ∈ (w m).bars, b.1 < (w m).next
  last : ∀ c, ((frames l).2.filterMap (contourOf T g)).getLast? = some c → ∃ B id, (w m).bars = B ++ [(id, c)] ∧ (w m).cbar = .bar id ∧ ∀ b ∈ B, b.1 < id
  noBar : (frames l).2.filterMap (contourOf T g) = [] → (w m).cbar = .unset ∨ (w m).cbar = .none
  files : (w m).files = (List.range l.length).filterMap (savedBy T g m t l)


omit [Zero α] in
theorem exec_local (c : PlotCall α β) (w : C2 → PlotSt T α β) {r : C2} (hr : r ∈ ranks2 T) :
    execAll (ranks2 T) (allLoc (ranks2 T) fun r => unlessErr T (plotLocal T m r c) : List (Item C2 (PlotSt T α β) (List α))) w r = unlessErr T (plotLocal T m r c) (w r) := by
  rw [exec_allLoc (ranks2_nodup T)]
  exact if_pos hr

omit [Zero α] in
/-- The other calls do not communicate. -/
theorem exec_quietCall {c : PlotCall α β} (hc : contourOf T g c = none) (w : C2 → PlotSt T α β) {r : C2} (hr : r ∈ ranks2 T) :
    execAll (ranks2 T) (plotItems T g m order c) w r = unlessErr T (plotLocal T m r c) (w r) := by
  cases c with
  | contourf a => exact absurd hc (by simp [contourOf])
  | _ => exact exec_local _ w hr

omit [Zero α] in
/-- `contourf`: the master draws the whole fields. -/
theorem exec_contourf {gy gx py px : ℕ} {per : Bool} (hT : mkCart2 gy gx py px per = .ok T) (hm : Valid2 T m) (ho : SlaveOrder2 T m order) (a : Fin 3 → World C2 ℤ α)
    (w : C2 → PlotSt T α β) {r : C2} (hr : r ∈ ranks2 T) :
    ∃ io, (r = m → buffered2 T io = ⟨wholeField T g (a 0), wholeField T g (a 1), wholeField T g (a 2)⟩) ∧
      execAll (ranks2 T) (plotItems T g m order (.contourf a)) w r = unlessErr T (drawContour T) { w r with io := io } := by
  unfold plotItems
  rw [execAll_append, execAll_append, execAll_append, exec_local _ _ hr, exec_plotGi ho, exec_plotGi ho, exec_plotGi ho]
  by_cases e : r = m
  · subst e
    simp only [Function.update_self]
    refine ⟨_, fun _ => ?_, rfl⟩
    unfold buffered2
    congr 1
    · funext i j
      rw [Function.update_of_ne (by decide), Function.update_of_ne (by decide), Function.update_self]
      exact gather2_whole hT hm ho _ _ i j
    · funext i j
      rw [Function.update_of_ne (by decide), Function.update_self]
      exact gather2_whole hT hm ho _ _ i j
    · funext i j
      rw [Function.update_self]
      exact gather2_whole hT hm ho _ _ i j
  · simp only [Function.update_of_ne e]
    exact ⟨(w r).io, fun h => absurd h e, rfl⟩

theorem savedBy_snoc (t : String) (l : List (PlotCall α β)) (c : PlotCall α β) :
    (List.range (l ++ [c]).length).filterMap (savedBy T g m t (l ++ [c])) =
      (List.range l.length).filterMap (savedBy T g m t l) ++ (savedBy T g m t (l ++ [c]) l.length).toList := by
  rw [List.length_append, List.length_singleton, List.range_succ, List.filterMap_append]
  congr 1
  · apply List.filterMap_congr
    intro i hi
    have hi := List.mem_range.1 hi
    unfold savedBy
    rw [List.getElem?_append_left hi, List.take_append_of_le_length hi.le]

theorem savedBy_last (t : String) (l : List (PlotCall α β)) (c : PlotCall α β) :
    savedBy T g m t (l ++ [c]) l.length = match c with
      | .savefig n => some (n, shownAfter T g m t l)
      | _ => none := by
  unfold savedBy
  simp only [List.getElem?_concat_length, List.take_left']
  cases c <;> rfl


theorem plotInv_init (t : String) : PlotInv (α := α) (β := β) T g m t [] fun _ => plotInit T t where
  noErr _ _ := rfl
  unset _ _ := by simp [plotInit]
  others _ _ _ := rfl
  shown := by simp [look, plotInit, shownAfter, frames]
  fresh := by simp [plotInit]
  last := by simp [frames]
  noBar _ := Or.inl rfl
  files := rfl

/-- Calls which neither draw a contour nor clear the figure. -/
theorem plotInv_light (hm : Valid2 T m) {t : String} {l : List (PlotCall α β)} {w : C2 → PlotSt T α β} (h : PlotInv T g m t l w) {c : PlotCall α β}
    (h1 : contourOf T g c = none) (h2 : IsClear c = false)
    (h3 : ∀ r s, (plotLocal T m r c s).err = s.err ∧ (plotLocal T m r c s).cbar = s.cbar ∧ (plotLocal T m r c s).bars = s.bars ∧ (plotLocal T m r c s).next = s.next)
    (h4 : ∀ r s, r ≠ m → (plotLocal T m r c s).files = s.files)
    (h5 : ∀ s, (plotLocal T m m c s).artists = s.artists ++ (artistOf T g m c).toList ∧ (plotLocal T m m c s).title = (titleOf c).getD s.title ∧
      (plotLocal T m m c s).files = s.files ++ match c with
        | .savefig n => [(n, look T s)]
        | _ => []) : PlotInv T g m t (l ++ [c]) (execAll (ranks2 T) (plotItems T g m order c) w) := by
  have hmr : m ∈ ranks2 T := mem_ranks2.2 hm
  have ex : ∀ r ∈ ranks2 T, execAll (ranks2 T) (plotItems T g m order c) w r = plotLocal T m r c (w r) := by
    intro r hr
    rw [exec_quietCall h1 w hr]
    unfold unlessErr
    rw [h.noErr r hr]
    rfl
  have fr : frames (l ++ [c]) = ((frames l).1, (frames l).2 ++ [c]) := by rw [frames_snoc, h2]; rfl
  have hcur : (frames (l ++ [c])).2.filterMap (contourOf T g) = (frames l).2.filterMap (contourOf T g) := by
    rw [fr, List.filterMap_append]; simp [h1]
  have hsh := h.shown
  unfold look shownAfter at hsh
  injection hsh with s1 s2 s3
  refine ⟨fun r hr => ?_, fun r hr => ?_, fun r hr hrm => ?_, ?_, ?_, ?_, ?_, ?_⟩
  · rw [ex r hr, (h3 r _).1]; exact h.noErr r hr
  · rw [ex r hr, (h3 r _).2.1, h.unset r hr, List.all_append]; simp [h1]
  · rw [ex r hr, h4 r _ hrm]; exact h.others r hr hrm
  · rw [ex m hmr]
    unfold look shownAfter
    rw [hcur, fr, (h3 m _).2.2.1, s3, (h5 _).1, s2, (h5 _).2.1, s1]
    congr 1
    · rw [List.filterMap_append]
      cases e : titleOf c <;> simp [e]
    · rw [List.filterMap_append]
      cases e : artistOf T g m c <;> simp [e]
  · rw [ex m hmr, (h3 m _).2.2.1, (h3 m _).2.2.2]; exact h.fresh
  · rw [hcur, ex m hmr, (h3 m _).2.2.1, (h3 m _).2.1]; exact h.last
  · rw [hcur, ex m hmr, (h3 m _).2.1]; exact h.noBar
  · rw [savedBy_snoc, savedBy_last, ex m hmr, (h5 _).2.2, ← h.files, h.shown]
    cases c <;> rfl

theorem plotInv_step {gy gx py px : ℕ} {per : Bool} (hT : mkCart2 gy gx py px per = .ok T) (hm : Valid2 T m) (ho : SlaveOrder2 T m order) {t : String}
    {l : List (PlotCall α β)} {w : C2 → PlotSt T α β} (h : PlotInv T g m t l w) {c : PlotCall α β} (hc : raisesAfter T g l c = none) :
    PlotInv T g m t (l ++ [c]) (execAll (ranks2 T) (plotItems T g m order c) w) := by
  have hmr : m ∈ ranks2 T := mem_ranks2.2 hm
  have run : ∀ r ∈ ranks2 T, ∀ f : PlotSt T α β → PlotSt T α β, unlessErr T f (w r) = f (w r) := by
    intro r hr f
    unfold unlessErr
    rw [h.noErr r hr]
    rfl
  have hall : (l ++ [c]).all (fun c => (contourOf T g c).isNone) = (l.all (fun c => (contourOf T g c).isNone) && (contourOf T g c).isNone) := by
    rw [List.all_append]; simp
  have hsh := h.shown
  unfold look shownAfter at hsh
  injection hsh with s1 s2 s3
  cases c with
  | contourf a =>
    have hg : ¬ (T.gy < 2 ∨ T.gx < 2) := by
      intro hlt
      simp only [raisesAfter, hlt, if_true] at hc
      cases hc
    have ex : ∀ r ∈ ranks2 T, ∃ io, (r = m → buffered2 T io = ⟨wholeField T g (a 0), wholeField T g (a 1), wholeField T g (a 2)⟩) ∧
        execAll (ranks2 T) (plotItems T g m order (.contourf a)) w r =
          { w r with
            io := io
            artists := (w r).artists ++ [.contour (buffered2 T io)]
            bars := (w r).bars ++ [((w r).next, buffered2 T io)]
            next := (w r).next + 1
            cbar := .bar (w r).next } := by
      intro r hr
      obtain ⟨io, h1, h2⟩ := exec_contourf (g := g) hT hm ho a w hr
      refine ⟨io, h1, h2.trans ?_⟩
      unfold unlessErr drawContour
      rw [if_neg (by simp [h.noErr r hr]), if_neg hg]
    obtain ⟨io, h1, h2⟩ := ex m hmr
    have h1 := h1 rfl
    have fr : frames (l ++ [PlotCall.contourf (β := β) a]) = ((frames l).1, (frames l).2 ++ [.contourf a]) := by rw [frames_snoc]; rfl
    have hcur : (frames (l ++ [PlotCall.contourf (β := β) a])).2.filterMap (contourOf T g) =
        (frames l).2.filterMap (contourOf T g) ++ [⟨wholeField T g (a 0), wholeField T g (a 1), wholeField T g (a 2)⟩] := by
      rw [fr, List.filterMap_append]; rfl
    refine ⟨fun r hr => ?_, fun r hr => ?_, fun r hr hrm => ?_, ?_, ?_, ?_, ?_, ?_⟩
    · obtain ⟨_, -, e⟩ := ex r hr
      rw [e]; exact h.noErr r hr
    · obtain ⟨_, -, e⟩ := ex r hr
      rw [e, hall]; simp [contourOf]
    · obtain ⟨_, -, e⟩ := ex r hr
      rw [e]; exact h.others r hr hrm
    · rw [h2]
      unfold look shownAfter
      rw [hcur, fr, h1]
      simp only [List.filterMap_append, List.map_append, ← s1, s2, s3]
      simp [titleOf, artistOf, s1]
    · rw [h2]
      intro b hb
      rcases List.mem_append.1 hb with hb | hb
      · exact Nat.lt_succ_of_lt (h.fresh b hb)
      · rw [List.mem_singleton.1 hb]; exact Nat.lt_succ_self _
    · intro c' hc'
      rw [hcur, List.getLast?_concat] at hc'
      rw [h2]
      refine ⟨(w m).bars, (w m).next, ?_, rfl, h.fresh⟩
      rw [h1, Option.some.inj hc']
    · intro h0
      rw [hcur] at h0
      simp at h0
    · rw [savedBy_snoc, savedBy_last, h2]
      simpa using h.files
  | clearfig =>
    have hset : ¬ (l.all fun c => (contourOf T g c).isNone) := by
      intro hlt
      simp only [raisesAfter, hlt, if_true] at hc
      cases hc
    have ex : ∀ r ∈ ranks2 T, execAll (ranks2 T) (plotItems T g m order .clearfig) w r = clearFig T (w r) := fun r hr =>
      (exec_quietCall (g := g) rfl w hr).trans (run r hr _)
    have hset' : ∀ r ∈ ranks2 T, (w r).cbar ≠ .unset := fun r hr e => hset ((h.unset r hr).1 e)
    have fr : frames (l ++ [PlotCall.clearfig (α := α) (β := β)]) = ((frames l).1 ++ [(frames l).2], []) := by rw [frames_snoc]; rfl
    have cases3 : ∀ r ∈ ranks2 T, (w r).cbar = .none ∧ clearFig T (w r) = { w r with title := "", artists := [] } ∨ ∃ id, (w r).cbar = .bar id ∧
        clearFig T (w r) = { w r with title := "", artists := [], bars := (w r).bars.filter (fun b => b.1 ≠ id), cbar := .none } := by
      intro r hr
      have := hset' r hr
      unfold clearFig
      cases e : (w r).cbar with
      | unset => exact absurd e this
      | none => left; exact ⟨rfl, by simp only [e]⟩
      | bar id => right; exact ⟨id, rfl, by simp only [e]⟩
    have hcb : ∀ r ∈ ranks2 T, (clearFig T (w r)).cbar = .none := by
      intro r hr
      rcases cases3 r hr with ⟨e, h2⟩ | ⟨id, e, h2⟩
      · rw [h2]; exact e
      · rw [h2]
    refine ⟨fun r hr => ?_, fun r hr => ?_, fun r hr hrm => ?_, ?_, ?_, ?_, ?_, ?_⟩
    · rw [ex r hr]
      rcases cases3 r hr with ⟨e, h2⟩ | ⟨id, e, h2⟩ <;> rw [h2] <;> exact h.noErr r hr
    · rw [ex r hr, hcb r hr, hall]
      simp only [Bool.and_eq_true]
      exact ⟨fun h => by simp at h, fun h => absurd h.1 hset⟩
    · rw [ex r hr]
      rcases cases3 r hr with ⟨e, h2⟩ | ⟨id, e, h2⟩ <;> rw [h2] <;> exact h.others r hr hrm
    · rw [ex m hmr]
      have hbars : ((clearFig T (w m)).bars.map Prod.snd) = ((frames l).1.flatMap fun f => (f.filterMap (contourOf T g)).dropLast) ++
          ((frames l).2.filterMap (contourOf T g)).dropLast := by
        cases hl : ((frames l).2.filterMap (contourOf T g)).getLast? with
        | none =>
          have h0 := List.getLast?_eq_none_iff.1 hl
          have e : (w m).cbar = .none := (h.noBar h0).resolve_left (hset' m hmr)
          rcases cases3 m hmr with ⟨-, h2⟩ | ⟨id, e', -⟩
          · rw [h2]
            change (w m).bars.map Prod.snd = _
            rw [s3, h0]
            rfl
          · rw [e] at e'; cases e'
        | some c' =>
          obtain ⟨B, id, hB, hid, hlt⟩ := h.last c' hl
          rcases cases3 m hmr with ⟨e', -⟩ | ⟨id', e', h2⟩
          · rw [hid] at e'; cases e'
          · rw [hid] at e'
            injection e' with e'
            subst e'
            rw [h2]
            change List.map Prod.snd ((w m).bars.filter _) = _
            have hfil : (w m).bars.filter (fun b => b.1 ≠ id) = B := by
              rw [hB, List.filter_append, List.filter_eq_self.2 fun b hb => by simpa using (hlt b hb).ne]
              simp
            rw [hfil]
            rw [hB, List.map_append] at s3
            have hne : (frames l).2.filterMap (contourOf T g) ≠ [] := by
              intro h0
              rw [h0] at hl
              cases hl
            have := congrArg List.dropLast s3
            rw [List.dropLast_append_of_ne_nil hne] at this
            simpa using this
      unfold look shownAfter
      rw [fr, hbars]
      have ht : (clearFig T (w m)).title = "" ∧ (clearFig T (w m)).artists = [] := by
        rcases cases3 m hmr with ⟨e, h2⟩ | ⟨id, e, h2⟩ <;> rw [h2] <;> exact ⟨rfl, rfl⟩
      rw [ht.1, ht.2]
      simp
    · rw [ex m hmr]
      rcases cases3 m hmr with ⟨e, h2⟩ | ⟨id, e, h2⟩
      · rw [h2]; exact h.fresh
      · rw [h2]; exact fun b hb => h.fresh b (List.mem_filter.1 hb).1
    · intro c' hc'
      rw [fr] at hc'
      cases hc'
    · intro _
      rw [ex m hmr]
      exact Or.inr (hcb m hmr)
    · rw [savedBy_snoc, savedBy_last, ex m hmr]
      rcases cases3 m hmr with ⟨e, h2⟩ | ⟨id, e, h2⟩ <;> rw [h2] <;> simpa using h.files
  | scatter d =>
    refine plotInv_light hm h rfl rfl (fun r s => ?_) (fun r s hr => ?_) fun s => ?_
    · simp only [plotLocal]; split <;> exact ⟨rfl, rfl, rfl, rfl⟩
    · simp only [plotLocal, if_neg hr]
    · simp only [plotLocal, if_true]; exact ⟨rfl, rfl, (List.append_nil _).symm⟩
  | plot d =>
    refine plotInv_light hm h rfl rfl (fun r s => ?_) (fun r s hr => ?_) fun s => ?_
    · simp only [plotLocal]; split <;> exact ⟨rfl, rfl, rfl, rfl⟩
    · simp only [plotLocal, if_neg hr]
    · simp only [plotLocal, if_true]; exact ⟨rfl, rfl, (List.append_nil _).symm⟩
  | savefig n =>
    refine plotInv_light hm h rfl rfl (fun r s => ?_) (fun r s hr => ?_) fun s => ?_
    · simp only [plotLocal]; split <;> exact ⟨rfl, rfl, rfl, rfl⟩
    · simp only [plotLocal, if_neg hr]
    · simp only [plotLocal, if_true]; exact ⟨(List.append_nil _).symm, rfl, trivial⟩
  | setTitle t' =>
    exact plotInv_light hm h rfl rfl (fun r s => ⟨rfl, rfl, rfl, rfl⟩) (fun r s hr => rfl) fun s => ⟨(List.append_nil _).symm, rfl, (List.append_nil _).symm⟩

theorem Quiet.snoc {l : List (PlotCall α β)} {c : PlotCall α β} (h : Quiet T g (l ++ [c])) : Quiet T g l ∧ raisesAfter T g l c = none := by
  constructor
  · intro i c' hi
    have hlt : i < l.length := (List.getElem?_eq_some_iff.1 hi).1
    have := h i c' (by rw [List.getElem?_append_left hlt]; exact hi)
    rwa [List.take_append_of_le_length hlt.le] at this
  · have := h l.length c (by simp)
    simpa using this

theorem plotInv_all {gy gx py px : ℕ} {per : Bool} (hT : mkCart2 gy gx py px per = .ok T) (hm : Valid2 T m) (ho : SlaveOrder2 T m order) (t : String)
    (l : List (PlotCall α β)) (hq : Quiet T g l) : PlotInv T g m t l (execAll (ranks2 T) (l.flatMap (plotItems T g m order)) fun _ => plotInit T t) := by
  induction l using List.reverseRecOn with
  | nil => exact plotInv_init t
  | append_singleton l c ih =>
    rw [List.flatMap_append, List.flatMap_singleton, execAll_append]
    exact plotInv_step hT hm ho (ih hq.snoc.1) hq.snoc.2

/-- **C89** A plotter used in the same way on all ranks, with no call raising: under every schedule all ranks get through, and then the master has written, for each `savefig`
in turn, a file that shows what was drawn since the last `clearfig`, each contour being that of the whole fields at the time of the call (`shownAfter`); no other rank has
written anything. -/
theorem plotter_files {gy gx py px : ℕ} {per : Bool} (hT : mkCart2 gy gx py px per = .ok T) (buffered : Bool) (hm : Valid2 T m) (ho : SlaveOrder2 T m order) (t : String)
    (l : List (PlotCall α β)) (hq : Quiet T g l) :
    ∃ out, Computes buffered (ranks2 T) (plotProgs T g m order l) (fun _ => plotInit T t) out ∧
      (out m).files = (List.range l.length).filterMap (savedBy T g m t l) ∧ ∀ r ∈ ranks2 T, (out r).err = none ∧ (r ≠ m → (out r).files = []) :=
  have h := plotInv_all hT hm ho t l hq
  ⟨_, (plotAll_parts hm ho l).computes buffered _, h.files, fun r hr => ⟨h.noErr r hr, h.others r hr⟩⟩

/-- **C89, negative part** The first call that can raise does so on every rank: `clearfig` raises `AttributeError` if `contourf` was never called before, `contourf` raises
`TypeError` on a grid with fewer than two rows or columns; the communication of that call is complete by then. -/
theorem plotter_raises {gy gx py px : ℕ} {per : Bool} (hT : mkCart2 gy gx py px per = .ok T) (buffered : Bool) (hm : Valid2 T m) (ho : SlaveOrder2 T m order) (t : String)
    (l : List (PlotCall α β)) (hq : Quiet T g l) (c : PlotCall α β) {e : PyErr} (hc : raisesAfter T g l c = some e) :
    ∃ out, Computes buffered (ranks2 T) (plotProgs T g m order (l ++ [c])) (fun _ => plotInit T t) out ∧ ∀ r ∈ ranks2 T, (out r).err = some e := by
  have h := plotInv_all (g := g) hT hm ho t l hq
  refine ⟨_, (plotAll_parts hm ho (l ++ [c])).computes buffered _, fun r hr => ?_⟩
  rw [List.flatMap_append, List.flatMap_singleton, execAll_append]
  cases c with
  | contourf a =>
    obtain ⟨io, -, h2⟩ := exec_contourf (g := g) hT hm ho a (execAll (ranks2 T) (l.flatMap (plotItems T g m order)) fun _ => plotInit T t) hr
    rw [h2]
    simp only [raisesAfter] at hc
    unfold unlessErr drawContour
    by_cases hg : T.gy < 2 ∨ T.gx < 2
    · rw [if_pos hg] at hc
      rw [if_neg (by simp [h.noErr r hr]), if_pos hg]
      exact hc
    · rw [if_neg hg] at hc
      cases hc
  | clearfig =>
    rw [exec_quietCall (g := g) (m := m) (order := order) (c := PlotCall.clearfig) rfl _ hr]
    simp only [raisesAfter] at hc
    split at hc
    · rename_i hg
      unfold unlessErr plotLocal clearFig
      rw [if_neg (by simp [h.noErr r hr])]
      simp only [(h.unset r hr).2 hg]
      exact hc
    · cases hc
  | _ => cases hc

/-- One `contourf` before each `clearfig`, none after the other: then a saved file has no colour bar of an earlier frame. -/
theorem shownAfter_tidy (t : String) (l : List (PlotCall α β)) (h : ∀ f ∈ (frames l).1, (f.filterMap (contourOf T g)).length ≤ 1) :
    (shownAfter T g m t l).bars = (frames l).2.filterMap (contourOf T g) := by
  unfold shownAfter
  have : (frames l).1.flatMap (fun f => (f.filterMap (contourOf T g)).dropLast) = [] := by
    rw [List.flatMap_eq_nil_iff]
    intro f hf
    apply List.eq_nil_of_length_eq_zero
    rw [List.length_dropLast]
    have := h f hf
    omega
  simp only [this, List.nil_append]


omit [Zero α] in
/-- Negative: two contours in one frame leave a colour bar behind, which is in every file saved later, although the contour it belongs to is not. -/
theorem stale_bar (t : String) (a b : Fin 3 → World C2 ℤ α) (l : List (PlotCall α β)) (h : ∀ c ∈ l, IsClear c = false) :
    ⟨wholeField T g (a 0), wholeField T g (a 1), wholeField T g (a 2)⟩ ∈ (shownAfter T g m t ([PlotCall.contourf a, .contourf b, .clearfig] ++ l)).bars ∧
      (shownAfter T g m t ([PlotCall.contourf a, .contourf b, .clearfig] ++ l)).artists = l.filterMap (artistOf T g m) := by
  have hf : ∀ (l : List (PlotCall α β)) (p : List (List (PlotCall α β)) × List (PlotCall α β)), (∀ c ∈ l, IsClear c = false) →
      l.foldl (fun p c => if IsClear c then (p.1 ++ [p.2], []) else (p.1, p.2 ++ [c])) p = (p.1, p.2 ++ l) := by
    intro l
    induction l with
    | nil => intro p _; simp
    | cons c l ih =>
      intro p h
      rw [List.foldl_cons, h c List.mem_cons_self, ih _ fun c' hc' => h c' (List.mem_cons_of_mem _ hc')]
      simp
  have : frames ([PlotCall.contourf a, .contourf b, .clearfig] ++ l) = ([[.contourf a, .contourf b]], l) := by
    unfold frames
    rw [List.foldl_append, hf l _ h]
    rfl
  unfold shownAfter
  rw [this]
  simp [contourOf]

omit [Zero α] in
/-- Negative: the title given to the constructor is not in the files saved after the first `clearfig`, unless it is set again. -/
theorem title_lost (t : String) (l l' : List (PlotCall α β)) (h : ∀ c ∈ l', IsClear c = false ∧ titleOf c = none) :
    (shownAfter T g m t (l ++ [.clearfig] ++ l')).title = "" := by
  have key : ∀ l' : List (PlotCall α β), (∀ c ∈ l', IsClear c = false ∧ titleOf c = none) →
      (frames (l ++ [.clearfig] ++ l')).1 ≠ [] ∧ (frames (l ++ [.clearfig] ++ l')).2.filterMap titleOf = [] := by
    intro l'
    induction l' using List.reverseRecOn with
    | nil => intro _; rw [List.append_nil, frames_snoc]; simp [IsClear]
    | append_singleton l' c ih =>
      intro h
      have hc := h c (by simp)
      obtain ⟨i1, i2⟩ := ih fun c' hc' => h c' (List.mem_append_left _ hc')
      rw [← List.append_assoc, frames_snoc, hc.1]
      refine ⟨i1, ?_⟩
      change List.filterMap titleOf (_ ++ [c]) = []
      rw [List.filterMap_append, i2]
      simp [hc.2]
  obtain ⟨k1, k2⟩ := key l' h
  unfold shownAfter
  simp only [k2, k1, if_false]
  rfl

/-- As in the Lamb–Oseen example: two frames, each with title, contour and file. -/
def exPlot (a b : Fin 3 → World C2 ℤ ℤ) : List (PlotCall ℤ ℕ) :=
  [.setTitle "t = 0", .contourf a, .savefig "snap_0.png", .clearfig, .setTitle "t = 1", .contourf b, .scatter fun _ => 7, .savefig "snap_1.png", .clearfig]

def exPlotT : Cart2 := ⟨4, 6, 2, 3, 2, 2, false⟩

theorem exPlot_quiet (a b : Fin 3 → World C2 ℤ ℤ) : Quiet exPlotT 2 (exPlot a b) := by
  intro i c hi
  have h9 : i < 9 := (List.getElem?_eq_some_iff.1 hi).1
  have hcase : i = 0 ∨ i = 1 ∨ i = 2 ∨ i = 3 ∨ i = 4 ∨ i = 5 ∨ i = 6 ∨ i = 7 ∨ i = 8 := by omega
  rcases hcase with rfl | rfl | rfl | rfl | rfl | rfl | rfl | rfl | rfl <;> (cases Option.some.inj hi; rfl)

/-- Six ranks: they all get through, and the master writes the two files, each with one contour of the whole 4 × 6 field and its colour bar. -/
example (a b : Fin 3 → World C2 ℤ ℤ) (order : List C2) (ho : SlaveOrder2 exPlotT (0, 0) order) :
    ∃ out, Computes false (ranks2 exPlotT) (plotProgs exPlotT 2 (0, 0) order (exPlot a b)) (fun _ => plotInit exPlotT "title") out ∧
      (out (0, 0)).files =
        [("snap_0.png", ⟨"t = 0", [.contour ⟨wholeField exPlotT 2 (a 0), wholeField exPlotT 2 (a 1), wholeField exPlotT 2 (a 2)⟩],
            [⟨wholeField exPlotT 2 (a 0), wholeField exPlotT 2 (a 1), wholeField exPlotT 2 (a 2)⟩]⟩),
          ("snap_1.png", ⟨"t = 1", [.contour ⟨wholeField exPlotT 2 (b 0), wholeField exPlotT 2 (b 1), wholeField exPlotT 2 (b 2)⟩, .scatter 7],
            [⟨wholeField exPlotT 2 (b 0), wholeField exPlotT 2 (b 1), wholeField exPlotT 2 (b 2)⟩]⟩)] := by
  obtain ⟨out, h1, h2, -⟩ := plotter_files (T := exPlotT) (g := 2) (show mkCart2 4 6 2 3 false = .ok exPlotT by rfl) false (by unfold Valid2; decide) ho "title" (exPlot a b) (exPlot_quiet a b)
  exact ⟨out, h1, h2⟩

/-- A plotter that only draws lines, as in the 3D sphere example, cannot be cleared. -/
example (d : C2 → ℕ) : raisesAfter (α := ℤ) exPlotT 2 [.plot d, .savefig "drag.png"] .clearfig = some .attributeError := rfl

end Props

end Sopht
