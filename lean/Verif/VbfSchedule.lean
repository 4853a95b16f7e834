import Verif.CommProgsProps
import Verif.VbfProps

/-!
# The virtual boundary forcing under every schedule (C73)

Each rank runs its own program, chosen by what the rank itself holds; the result is the one of `Verif.Vbf`, for every order of the steps and every
decision about buffering.
-/

namespace Sopht

section
variable {R S M : Type} [DecidableEq R]

theorem Parts.congr {ranks : List R} {p q : R → List (Ins R S M)} {L : List (Item R S M)} (h : Parts ranks p L) (e : ∀ r ∈ ranks, q r = p r) :
    Parts ranks q L := ⟨h.wf, h.fresh, fun r hr => by rw [e r hr, h.prog r hr]⟩

theorem loc_parts {ranks : List R} {m : R} (hm : m ∈ ranks) (f : S → S) :
    Parts ranks (fun r => if r = m then [.loc f] else []) ([.loc m f] : List (Item R S M)) := by
  refine ⟨?_, ?_, fun r _ => by simp [proj, Item.ins]⟩
  · intro x hx; rw [List.mem_singleton.1 hx]; exact hm
  · intro x hx; rw [List.mem_singleton.1 hx]; rfl

theorem coll_parts {ranks : List R} (hne : ranks ≠ []) (f : R → (R → S) → S) : Parts ranks (fun r => [.coll (f r)]) ([.coll f] : List (Item R S M)) := by
  refine ⟨?_, ?_, fun r _ => by simp [proj, Item.ins]⟩
  · intro x hx; rw [List.mem_singleton.1 hx]; exact hne
  · intro x hx; rw [List.mem_singleton.1 hx]; rfl

end

section Vbf
variable {R α : Type} [DecidableEq R] [Ring α]

theorem gatherLag_congr (d : ℕ) {addr ranks : List R} {m : R} {order : List R} (hm : m ∈ ranks) (ha : ∀ r ∈ addr, r ∈ ranks) (ho : SlaveSet addr m order)
    {u v : R → LagField α} (h : ∀ r ∈ ranks, u r = v r) (junk G : LagField α) :
    gatherLag d addr m order u junk G = gatherLag d addr m order v junk G := by
  unfold gatherLag
  rw [h m hm]
  have : ∀ (l : List R), (∀ r ∈ l, r ∈ ranks) → ∀ G0 : LagField α,
      l.foldl (fun G r => setCols d (whereEq addr r) (fillLag d (whereEq addr r).length (ravelLag d (localCount addr r) (u r)) junk) G) G0 =
      l.foldl (fun G r => setCols d (whereEq addr r) (fillLag d (whereEq addr r).length (ravelLag d (localCount addr r) (v r)) junk) G) G0 := by
    intro l
    induction l with
    | nil => intro _ _; rfl
    | cons q l ih =>
      intro hl G0
      rw [List.foldl_cons, List.foldl_cons, h q (hl q List.mem_cons_self)]
      exact ih (fun r hr => hl r (List.mem_cons_of_mem _ hr)) _
  exact this order (fun r hr => ha r ((ho.2 r).1 hr).1) _

/-- What the configuration must satisfy: the communicator lists its ranks once, the master is one of them, `slave_ranks_containing_lag_nodes` is the set of other ranks
with nodes. -/
structure CfgOk (c : VbfCfg R α) : Prop where
  nodup : c.ranks.Nodup
  master : c.m ∈ c.ranks
  ord : ∀ a, SlaveSet a c.m (c.ord a)

variable {c : VbfCfg R α} {s : Vbf R α} {w : R → VbfLoc R α}

theorem ne_nil_of_master (hc : CfgOk c) : c.ranks ≠ [] := List.ne_nil_of_mem hc.master

theorem holds_gatherPos (hc : CfgOk c) {addr : List R} (ha : ∀ r ∈ addr, r ∈ c.ranks) (h : HoldsVbf c s w) :
    HoldsVbf c { s with gposM := gatherLag c.d addr c.m (c.ord addr) s.posM c.junk s.gposM }
      (execAll c.ranks (gatherLagItems c.d addr c.m (c.ord addr) c.junk VbfLoc.posM fun f s => { s with gposM := f s.gposM }) w) := by
  rw [exec_gatherLagItems (hc.ord addr) c.d c.junk _ ⟨fun _ => rfl, fun _ _ _ => rfl⟩]
  constructor
  case gposM =>
    rw [Function.update_self, ← h.gposM]
    exact gatherLag_congr _ hc.master ha (hc.ord addr) h.posM _ _
  case gvelM => rw [Function.update_self]; exact h.gvelM
  case gforce => rw [Function.update_self]; exact h.gforce
  all_goals
    intro r hr
    by_cases e : r = c.m
    · subst e; rw [Function.update_self]
      first | exact h.addr _ hr | exact h.cnt _ hr | exact h.posM _ hr | exact h.velM _ hr | exact h.force _ hr | exact h.lpos _ hr | exact h.lvel _ hr
    · rw [Function.update_of_ne e]
      first | exact h.addr _ hr | exact h.cnt _ hr | exact h.posM _ hr | exact h.velM _ hr | exact h.force _ hr | exact h.lpos _ hr | exact h.lvel _ hr

theorem holds_gatherVel (hc : CfgOk c) {addr : List R} (ha : ∀ r ∈ addr, r ∈ c.ranks) (h : HoldsVbf c s w) :
    HoldsVbf c { s with gvelM := gatherLag c.d addr c.m (c.ord addr) s.velM c.junk s.gvelM }
      (execAll c.ranks (gatherLagItems c.d addr c.m (c.ord addr) c.junk VbfLoc.velM fun f s => { s with gvelM := f s.gvelM }) w) := by
  rw [exec_gatherLagItems (hc.ord addr) c.d c.junk _ ⟨fun _ => rfl, fun _ _ _ => rfl⟩]
  constructor
  case gposM => rw [Function.update_self]; exact h.gposM
  case gvelM =>
    rw [Function.update_self, ← h.gvelM]
    exact gatherLag_congr _ hc.master ha (hc.ord addr) h.velM _ _
  case gforce => rw [Function.update_self]; exact h.gforce
  all_goals
    intro r hr
    by_cases e : r = c.m
    · subst e; rw [Function.update_self]
      first | exact h.addr _ hr | exact h.cnt _ hr | exact h.posM _ hr | exact h.velM _ hr | exact h.force _ hr | exact h.lpos _ hr | exact h.lvel _ hr
    · rw [Function.update_of_ne e]
      first | exact h.addr _ hr | exact h.cnt _ hr | exact h.posM _ hr | exact h.velM _ hr | exact h.force _ hr | exact h.lpos _ hr | exact h.lvel _ hr

theorem holds_gatherForce (hc : CfgOk c) {addr : List R} (ha : ∀ r ∈ addr, r ∈ c.ranks) (h : HoldsVbf c s w) :
    HoldsVbf c { s with gforce := gatherLag c.d addr c.m (c.ord addr) s.force c.junk s.gforce }
      (execAll c.ranks (gatherLagItems c.d addr c.m (c.ord addr) c.junk VbfLoc.force fun f s => { s with gforce := f s.gforce }) w) := by
  rw [exec_gatherLagItems (hc.ord addr) c.d c.junk _ ⟨fun _ => rfl, fun _ _ _ => rfl⟩]
  constructor
  case gposM => rw [Function.update_self]; exact h.gposM
  case gvelM => rw [Function.update_self]; exact h.gvelM
  case gforce =>
    rw [Function.update_self, ← h.gforce]
    exact gatherLag_congr _ hc.master ha (hc.ord addr) h.force _ _
  all_goals
    intro r hr
    by_cases e : r = c.m
    · subst e; rw [Function.update_self]
      first | exact h.addr _ hr | exact h.cnt _ hr | exact h.posM _ hr | exact h.velM _ hr | exact h.force _ hr | exact h.lpos _ hr | exact h.lvel _ hr
    · rw [Function.update_of_ne e]
      first | exact h.addr _ hr | exact h.cnt _ hr | exact h.posM _ hr | exact h.velM _ hr | exact h.force _ hr | exact h.lpos _ hr | exact h.lvel _ hr

theorem holds_scatterPos (hc : CfgOk c) (addr : List R) (h : HoldsVbf c s w) :
    HoldsVbf c { s with posM := scatterLag c.d addr c.m (c.ord addr) s.gposM s.posM }
      (execAll c.ranks (scatterLagItems c.d addr c.m (c.ord addr) VbfLoc.gposM fun f s => { s with posM := f s.posM }) w) := by
  rw [exec_scatterLagItems (hc.ord addr) c.d (by exact ⟨fun _ => rfl, fun _ _ _ => rfl⟩) (by intros; rfl)]
  refine ⟨h.addr, h.cnt, fun r hr => ?_, h.velM, h.force, h.lpos, h.lvel, h.gposM, h.gvelM, h.gforce⟩
  simp only
  rw [h.gposM, h.posM r hr]
  exact (scatterLag_local _ _ _ _ _ _ _).symm

theorem holds_scatterVel (hc : CfgOk c) (addr : List R) (h : HoldsVbf c s w) :
    HoldsVbf c { s with velM := scatterLag c.d addr c.m (c.ord addr) s.gvelM s.velM }
      (execAll c.ranks (scatterLagItems c.d addr c.m (c.ord addr) VbfLoc.gvelM fun f s => { s with velM := f s.velM }) w) := by
  rw [exec_scatterLagItems (hc.ord addr) c.d (by exact ⟨fun _ => rfl, fun _ _ _ => rfl⟩) (by intros; rfl)]
  refine ⟨h.addr, h.cnt, h.posM, fun r hr => ?_, h.force, h.lpos, h.lvel, h.gposM, h.gvelM, h.gforce⟩
  simp only
  rw [h.gvelM, h.velM r hr]
  exact (scatterLag_local _ _ _ _ _ _ _).symm

theorem holds_scatterX (hc : CfgOk c) (addr : List R) (X : LagField α) (h : HoldsVbf c s w) :
    HoldsVbf c { s with lpos := scatterLag c.d addr c.m (c.ord addr) X s.lpos }
      (execAll c.ranks (scatterLagItems c.d addr c.m (c.ord addr) (fun _ => X) fun f s => { s with lpos := f s.lpos }) w) := by
  rw [exec_scatterLagItems (hc.ord addr) c.d (by exact ⟨fun _ => rfl, fun _ _ _ => rfl⟩) (by intros; rfl)]
  refine ⟨h.addr, h.cnt, h.posM, h.velM, h.force, fun r hr => ?_, h.lvel, h.gposM, h.gvelM, h.gforce⟩
  simp only
  rw [h.lpos r hr]
  exact (scatterLag_local _ _ _ _ _ _ _).symm

theorem holds_scatterU (hc : CfgOk c) (addr : List R) (U : LagField α) (h : HoldsVbf c s w) :
    HoldsVbf c { s with lvel := scatterLag c.d addr c.m (c.ord addr) U s.lvel }
      (execAll c.ranks (scatterLagItems c.d addr c.m (c.ord addr) (fun _ => U) fun f s => { s with lvel := f s.lvel }) w) := by
  rw [exec_scatterLagItems (hc.ord addr) c.d (by exact ⟨fun _ => rfl, fun _ _ _ => rfl⟩) (by intros; rfl)]
  refine ⟨h.addr, h.cnt, h.posM, h.velM, h.force, h.lpos, fun r hr => ?_, h.gposM, h.gvelM, h.gforce⟩
  simp only
  rw [h.lvel r hr]
  exact (scatterLag_local _ _ _ _ _ _ _).symm

/-- the sequence of the first half -/
def firstItems (c : VbfCfg R α) (addr : List R) (X : LagField α) : List (Item R (VbfLoc R α) (List α)) :=
  gatherLagItems c.d addr c.m (c.ord addr) c.junk VbfLoc.posM (fun f s => { s with gposM := f s.gposM }) ++
  gatherLagItems c.d addr c.m (c.ord addr) c.junk VbfLoc.velM (fun f s => { s with gvelM := f s.gvelM }) ++
  [.loc c.m fun s => { s with box := c.addrOf X }] ++
  ([.coll (bcastStep c)] ++ [.coll (reduceStep c)])

theorem firstItems_parts (hc : CfgOk c) {addr : List R} (ha : ∀ r ∈ addr, r ∈ c.ranks) (X : LagField α) :
    Parts c.ranks (updateProg1 c addr X) (firstItems c addr X) :=
  ((((gatherLagItems_parts hc.master ha (hc.ord addr) _ _ _ _).append (gatherLagItems_parts hc.master ha (hc.ord addr) _ _ _ _)).append
    (loc_parts hc.master _)).append ((coll_parts (ne_nil_of_master hc) _).append (coll_parts (ne_nil_of_master hc) _)))

/-- What `update_buffers` has done before it looks at the flag. -/
def vbfFirst (c : VbfCfg R α) (X : LagField α) (s : Vbf R α) : Vbf R α :=
  { s with
    gposM := gatherLag c.d s.addr c.m (c.ord s.addr) s.posM c.junk s.gposM
    gvelM := gatherLag c.d s.addr c.m (c.ord s.addr) s.velM c.junk s.gvelM
    addr := c.addrOf X }

theorem exec_first (hc : CfgOk c) (ha : ∀ r ∈ s.addr, r ∈ c.ranks) (h : HoldsVbf c s w) (X : LagField α) :
    HoldsVbf c (vbfFirst c X s) (execAll c.ranks (firstItems c s.addr X) w) ∧
      ∀ r ∈ c.ranks, (execAll c.ranks (firstItems c s.addr X) w r).flag = c.ranks.any fun q => decide (s.cnt q ≠ localCount (c.addrOf X) q) := by
  have h2 := holds_gatherVel hc ha (holds_gatherPos hc ha h)
  unfold firstItems
  simp only [execAll_append]
  generalize execAll c.ranks _ (execAll c.ranks _ w) = u at h2 ⊢
  generalize hv : execAll c.ranks [Item.loc c.m fun s : VbfLoc R α => { s with box := c.addrOf X }] u = v
  have hv' : v = Function.update u c.m { u c.m with box := c.addrOf X } := hv.symm
  have hbox : (v c.m).box = c.addrOf X := by rw [hv', Function.update_self]
  have hcnt : ∀ r ∈ c.ranks, (v r).cnt = s.cnt r := by
    intro r hr
    rw [hv']
    by_cases e : r = c.m
    · subst e; rw [Function.update_self]; exact h2.cnt _ hr
    · rw [Function.update_of_ne e]; exact h2.cnt _ hr
  have e : ∀ r ∈ c.ranks, execAll c.ranks ([.coll (reduceStep c)] : List (Item R (VbfLoc R α) (List α)))
      (execAll c.ranks ([.coll (bcastStep c)] : List (Item R (VbfLoc R α) (List α))) v) r =
      { v r with
        addr := c.addrOf X
        flag := c.ranks.any fun q => decide (s.cnt q ≠ localCount (c.addrOf X) q) } := by
    intro r hr
    have : (c.ranks.any fun q => decide ((if q ∈ c.ranks then { v q with addr := c.addrOf X } else v q).cnt ≠
        localCount (if q ∈ c.ranks then { v q with addr := c.addrOf X } else v q).addr q)) =
        c.ranks.any fun q => decide (s.cnt q ≠ localCount (c.addrOf X) q) := by
      rw [Bool.eq_iff_iff]
      simp only [List.any_eq_true]
      constructor
      · rintro ⟨q, hq, h⟩; refine ⟨q, hq, ?_⟩; simpa [if_pos hq, hcnt q hq] using h
      · rintro ⟨q, hq, h⟩; refine ⟨q, hq, ?_⟩; simpa [if_pos hq, hcnt q hq] using h
    simp only [execAll, List.cons_append, List.nil_append, List.foldl_cons, List.foldl_nil, Item.run, bcastStep, reduceStep, hbox, if_pos hr]
    rw [this]
  constructor
  · have hm := hc.master
    constructor
    case gposM =>
      rw [e _ hm, hv', Function.update_self]; exact h2.gposM
    case gvelM =>
      rw [e _ hm, hv', Function.update_self]; exact h2.gvelM
    case gforce =>
      rw [e _ hm, hv', Function.update_self]; exact h2.gforce
    case addr =>
      intro r hr; rw [e r hr]; rfl
    case cnt =>
      intro r hr; rw [e r hr]; exact hcnt r hr
    all_goals
      intro r hr
      rw [e r hr, hv']
      by_cases e : r = c.m
      · subst e; rw [Function.update_self]
        first | exact h2.posM _ hr | exact h2.velM _ hr | exact h2.force _ hr | exact h2.lpos _ hr | exact h2.lvel _ hr
      · rw [Function.update_of_ne e]
        first | exact h2.posM _ hr | exact h2.velM _ hr | exact h2.force _ hr | exact h2.lpos _ hr | exact h2.lvel _ hr
  · intro r hr
    rw [e r hr]

/-- the reset of the local buffers on every rank -/
def resetLoc (addr : List R) (r : R) (s : VbfLoc R α) : VbfLoc R α :=
  { s with
    cnt := localCount addr r, posM := fun _ _ => 0, velM := fun _ _ => 0
    force := fun _ _ => 0, lpos := fun _ _ => 0, lvel := fun _ _ => 0 }

def forceLoc (c : VbfCfg R α) (I : R → (ℕ → α) → ℕ → α) (r : R) (s : VbfLoc R α) : VbfLoc R α :=
  { s with
    velM := fun k j => I r (fun k' => s.lpos k' j) k - s.lvel k j
    force := fun k j => c.stiff * s.posM k j + c.damp * (I r (fun k' => s.lpos k' j) k - s.lvel k j) }

theorem holds_reset (hc : CfgOk c) (addr : List R) (h : HoldsVbf c s w) :
    HoldsVbf c
      { s with
        cnt := fun r => localCount addr r, posM := fun _ _ _ => 0, velM := fun _ _ _ => 0
        force := fun _ _ _ => 0, lpos := fun _ _ _ => 0, lvel := fun _ _ _ => 0 }
      (execAll c.ranks (allLoc c.ranks (resetLoc addr) : List (Item R (VbfLoc R α) (List α))) w) := by
  rw [exec_allLoc hc.nodup]
  constructor
  case gposM => simp only [if_pos hc.master]; exact h.gposM
  case gvelM => simp only [if_pos hc.master]; exact h.gvelM
  case gforce => simp only [if_pos hc.master]; exact h.gforce
  case addr => intro r hr; simp only [if_pos hr]; exact h.addr r hr
  all_goals
    intro r hr
    simp only [if_pos hr]
    rfl

theorem holds_force (hc : CfgOk c) (I : R → (ℕ → α) → ℕ → α) (h : HoldsVbf c s w) :
    HoldsVbf c
      { s with
        velM := fun r k j => I r (fun k' => s.lpos r k' j) k - s.lvel r k j
        force := fun r k j => c.stiff * s.posM r k j + c.damp * (I r (fun k' => s.lpos r k' j) k - s.lvel r k j) }
      (execAll c.ranks (allLoc c.ranks (forceLoc c I) : List (Item R (VbfLoc R α) (List α))) w) := by
  rw [exec_allLoc hc.nodup]
  constructor
  case gposM => simp only [if_pos hc.master]; exact h.gposM
  case gvelM => simp only [if_pos hc.master]; exact h.gvelM
  case gforce => simp only [if_pos hc.master]; exact h.gforce
  case addr => intro r hr; simp only [if_pos hr]; exact h.addr r hr
  case cnt => intro r hr; simp only [if_pos hr]; exact h.cnt r hr
  case posM => intro r hr; simp only [if_pos hr]; exact h.posM r hr
  case lpos => intro r hr; simp only [if_pos hr]; exact h.lpos r hr
  case lvel => intro r hr; simp only [if_pos hr]; exact h.lvel r hr
  case velM => intro r hr; simp only [if_pos hr, forceLoc, h.lpos r hr, h.lvel r hr]
  case force => intro r hr; simp only [if_pos hr, forceLoc, h.lpos r hr, h.lvel r hr, h.posM r hr]

def secondItems (c : VbfCfg R α) (addr : List R) (flag : Bool) : List (Item R (VbfLoc R α) (List α)) :=
  if flag then
    allLoc c.ranks (resetLoc addr) ++
    (scatterLagItems c.d addr c.m (c.ord addr) VbfLoc.gposM (fun f s => { s with posM := f s.posM }) ++
     scatterLagItems c.d addr c.m (c.ord addr) VbfLoc.gvelM (fun f s => { s with velM := f s.velM }))
  else []

def thirdItems (c : VbfCfg R α) (addr : List R) (X U : LagField α) (I : R → (ℕ → α) → ℕ → α) : List (Item R (VbfLoc R α) (List α)) :=
  scatterLagItems c.d addr c.m (c.ord addr) (fun _ => X) (fun f s => { s with lpos := f s.lpos }) ++
  scatterLagItems c.d addr c.m (c.ord addr) (fun _ => U) (fun f s => { s with lvel := f s.lvel }) ++
  (allLoc c.ranks (forceLoc c I) ++
    gatherLagItems c.d addr c.m (c.ord addr) c.junk VbfLoc.force (fun f s => { s with gforce := f s.gforce }))

theorem secondItems_parts (hc : CfgOk c) {addr : List R} (ha : ∀ r ∈ addr, r ∈ c.ranks) (flag : Bool) :
    Parts c.ranks (updateProg2 c addr flag) (secondItems c addr flag) := by
  cases flag
  · exact Parts.nil _
  · exact (allLoc_parts hc.nodup _).append
      ((scatterLagItems_parts hc.master ha (hc.ord addr) _ _ _).append (scatterLagItems_parts hc.master ha (hc.ord addr) _ _ _))

theorem thirdItems_parts (hc : CfgOk c) {addr : List R} (ha : ∀ r ∈ addr, r ∈ c.ranks) (X U : LagField α) (I : R → (ℕ → α) → ℕ → α) :
    Parts c.ranks (interactProg2 c addr X U I) (thirdItems c addr X U I) :=
  ((scatterLagItems_parts hc.master ha (hc.ord addr) _ _ _).append (scatterLagItems_parts hc.master ha (hc.ord addr) _ _ _)).append
    ((allLoc_parts hc.nodup (forceLoc c I)).append
      (gatherLagItems_parts hc.master ha (hc.ord addr) c.d c.junk VbfLoc.force fun f s => { s with gforce := f s.gforce }))

theorem exec_second (hc : CfgOk c) {X : LagField α} (h : HoldsVbf c (vbfFirst c X s) w) :
    HoldsVbf c (vbfUpdateBuffers c X s)
      (execAll c.ranks (secondItems c (c.addrOf X) (c.ranks.any fun q => decide (s.cnt q ≠ localCount (c.addrOf X) q))) w) := by
  unfold vbfUpdateBuffers secondItems
  dsimp only
  split
  · rw [execAll_append, execAll_append]
    exact holds_scatterVel hc (c.addrOf X) (holds_scatterPos hc (c.addrOf X) (holds_reset hc (c.addrOf X) h))
  · exact h

theorem vbfUpdateBuffers_addr (c : VbfCfg R α) (X : LagField α) (s : Vbf R α) : (vbfUpdateBuffers c X s).addr = c.addrOf X := by
  unfold vbfUpdateBuffers
  dsimp only
  split <;> rfl

theorem exec_third (hc : CfgOk c) {X : LagField α} (hX : ∀ r ∈ c.addrOf X, r ∈ c.ranks) (U : LagField α) (I : R → (ℕ → α) → ℕ → α)
    (h : HoldsVbf c (vbfUpdateBuffers c X s) w) :
    HoldsVbf c (vbfInteract c X U I s) (execAll c.ranks (thirdItems c (c.addrOf X) X U I) w) := by
  rw [← vbfUpdateBuffers_addr c X s] at hX ⊢
  unfold vbfInteract thirdItems
  simp only [execAll_append]
  exact holds_gatherForce hc hX (holds_force hc I (holds_scatterU hc _ U (holds_scatterX hc _ X h)))

/-- C73: `compute_interaction_force_on_lag_grid` called by all ranks: every rank follows the mapping and the flag which it holds itself, no run gets stuck,
all runs end, and when all ranks have returned they hold the state of `vbfInteract`, whatever the order of steps and the buffering. -/
theorem vbfInteract_schedule (buffered : Bool) (hc : CfgOk c) (ha : ∀ r ∈ s.addr, r ∈ c.ranks) {X : LagField α} (hX : ∀ r ∈ c.addrOf X, r ∈ c.ranks)
    (U : LagField α) (I : R → (ℕ → α) → ℕ → α) (h : HoldsVbf c s w) :
    ∃ out, CallComputes buffered c (.interact X U I) w out ∧ HoldsVbf c (vbfInteract c X U I s) out := by
  obtain ⟨h1, hf⟩ := exec_first hc ha h X
  refine ⟨_, .interact X U I w _ _
    (((firstItems_parts hc ha X).congr (q := fun r => firstHalf c X (w r) r) fun r hr => ?_).computes buffered w)
    ((((secondItems_parts hc hX (c.ranks.any fun q => decide (s.cnt q ≠ localCount (c.addrOf X) q))).append (thirdItems_parts hc hX X U I)).congr
      (q := fun r => secondHalf c X U I (execAll c.ranks (firstItems c s.addr X) w r) r) fun r hr => ?_).computes buffered _), ?_⟩
  · rw [firstHalf, h.addr r hr]
  · rw [secondHalf, h1.addr r hr, hf r hr]; rfl
  · rw [execAll_append]
    exact exec_third hc hX U I (exec_second hc h1)

theorem vbfStep_schedule (buffered : Bool) (hc : CfgOk c) (dt : α) (h : HoldsVbf c s w) :
    ∃ out, CallComputes buffered c (.step dt) w out ∧ HoldsVbf c (vbfStep dt s) out := by
  refine ⟨_, .step dt w _ ((allLoc_parts hc.nodup (fun _ (s : VbfLoc R α) => { s with posM := fun k j => s.posM k j + dt * s.velM k j })).computes buffered w), ?_⟩
  rw [exec_allLoc hc.nodup]
  constructor
  case gposM => simp only [if_pos hc.master]; exact h.gposM
  case gvelM => simp only [if_pos hc.master]; exact h.gvelM
  case gforce => simp only [if_pos hc.master]; exact h.gforce
  case addr => intro r hr; simp only [if_pos hr]; exact h.addr r hr
  case cnt => intro r hr; simp only [if_pos hr]; exact h.cnt r hr
  case posM => intro r hr; simp only [if_pos hr, vbfStep, h.posM r hr, h.velM r hr]
  case velM => intro r hr; simp only [if_pos hr]; exact h.velM r hr
  case lpos => intro r hr; simp only [if_pos hr]; exact h.lpos r hr
  case lvel => intro r hr; simp only [if_pos hr]; exact h.lvel r hr
  case force => intro r hr; simp only [if_pos hr]; exact h.force r hr

/-- All positions of a history map to ranks of the communicator. -/
def OpsOk (c : VbfCfg R α) (ops : List (VbfOp R α)) : Prop := ∀ X U I, VbfOp.interact X U I ∈ ops → ∀ r ∈ c.addrOf X, r ∈ c.ranks

/-- C73 (histories): any sequence of interaction and time-step calls. -/
theorem vbfRun_schedule (buffered : Bool) (hc : CfgOk c) : ∀ (ops : List (VbfOp R α)) (s : Vbf R α) (w : R → VbfLoc R α),
    (∀ r ∈ s.addr, r ∈ c.ranks) → OpsOk c ops → HoldsVbf c s w → ∃ out, CallsCompute buffered c ops w out ∧ HoldsVbf c (vbfRun c s ops) out
  | [], s, w, _, _, h => ⟨w, .nil w, h⟩
  | .step dt :: ops, s, w, ha, hops, h => by
    obtain ⟨w1, h1, h2⟩ := vbfStep_schedule buffered hc dt h
    obtain ⟨out, h3, h4⟩ := vbfRun_schedule buffered hc ops (vbfStep dt s) w1 ha (fun X U I hm => hops X U I (List.mem_cons_of_mem _ hm)) h2
    exact ⟨out, .cons h1 h3, h4⟩
  | .interact X U I :: ops, s, w, ha, hops, h => by
    have hX := hops X U I List.mem_cons_self
    obtain ⟨w1, h1, h2⟩ := vbfInteract_schedule buffered hc ha hX U I h
    obtain ⟨out, h3, h4⟩ := vbfRun_schedule buffered hc ops (vbfInteract c X U I s) w1
      (by have e : (vbfInteract c X U I s).addr = c.addrOf X := vbfUpdateBuffers_addr c X s
          rw [e]; exact hX)
      (fun X U I hm => hops X U I (List.mem_cons_of_mem _ hm)) h2
    exact ⟨out, .cons h1 h3, h4⟩

/-- Local state of a rank after construction; `addr` came with a broadcast. -/
def locInit (c : VbfCfg R α) (X0 : LagField α) (r : R) : VbfLoc R α where
  addr := c.addrOf X0
  box := c.addrOf X0
  cnt := localCount (c.addrOf X0) r
  flag := false
  posM := fun _ _ => 0
  velM := fun _ _ => 0
  force := fun _ _ => 0
  lpos := fun _ _ => 0
  lvel := fun _ _ => 0
  gposM := fun _ _ => 0
  gvelM := fun _ _ => 0
  gforce := fun _ _ => 0

theorem locInit_holds (c : VbfCfg R α) (X0 : LagField α) (t0 : α) : HoldsVbf c (vbfInit c X0 t0) (locInit c X0) :=
  ⟨fun _ _ => rfl, fun _ _ => rfl, fun _ _ => rfl, fun _ _ => rfl, fun _ _ => rfl, fun _ _ => rfl, fun _ _ => rfl, rfl, rfl, rfl⟩

theorem CountsReveal.ops {N : ℕ} : ∀ {ops : List (VbfOp R α)} {a : List R}, CountsReveal c N a ops → OpsOk c ops
  | [], _, _ => fun _ _ _ h => by simp at h
  | .step _ :: ops, a, h => fun X U I hm => by
    rcases List.mem_cons.1 hm with e | hm
    · cases e
    · exact CountsReveal.ops (ops := ops) (a := a) h X U I hm
  | .interact X' _ I' :: ops, a, h => fun X U I hm => by
    rcases List.mem_cons.1 hm with e | hm
    · cases e; exact h.1.2
    · exact CountsReveal.ops h.2.2.2 X U I hm

/-- C73: the force which the master holds after any history (ending in an interaction; every remapping leaves the nodes where they are or changes some rank's
node count), executed by the ranks in any order of steps: the law of C18 for every node. -/
theorem vbf_force_schedule (buffered : Bool) (hc : CfgOk c) {N : ℕ} (X0 : LagField α) (h0 : AddrOk c N (c.addrOf X0)) (ops : List (VbfOp R α))
    (X U : LagField α) (I : R → (ℕ → α) → ℕ → α) (hg : CountsReveal c N (c.addrOf X0) (ops ++ [.interact X U I])) :
    ∃ out, CallsCompute buffered c (ops ++ [.interact X U I]) (locInit c X0) out ∧
      ∀ k < c.d, ∀ i < N, (out c.m).gforce k i =
        c.stiff * (ops.foldl (nodeApply c) (nodeInit 0)).P k i + c.damp * (flowAt c.addrOf X I k i - U k i) := by
  obtain ⟨out, h1, h2⟩ := vbfRun_schedule buffered hc _ (vbfInit c X0 0) (locInit c X0) h0.2 hg.ops (locInit_holds c X0 0)
  refine ⟨out, h1, fun k hk i hi => ?_⟩
  rw [h2.gforce]
  exact vbf_force_law c hc.ord X0 0 h0 ops X U I hg hk hi

/-- non-vacuity: two ranks, node 0 moves to the rank of node 1, so the buffers are redistributed; the force on node 0 is the one it accumulated -/
example : ∃ out, CallsCompute false swapCfg
    [.interact (fun _ i => i) (fun _ _ => 0) (fun _ x _ => if x 0 = 0 then 5 else 7), .step 1,
     .interact (fun _ _ => 1) (fun _ _ => 0) (fun _ _ _ => 0)] (locInit swapCfg fun _ i => i) out ∧ (out 0).gforce 0 0 = 5 := by
  have hc : CfgOk swapCfg := ⟨by decide, by decide, fun a => ⟨List.nodup_dedup _, by intro r; simp [swapCfg]⟩⟩
  obtain ⟨out, h1, h2⟩ := vbf_force_schedule (N := 2) false hc (fun _ i => i) ⟨rfl, by decide⟩
    [.interact (fun _ i => i) (fun _ _ => 0) (fun _ x _ => if x 0 = 0 then 5 else 7), .step 1] (fun _ _ => 1) (fun _ _ => 0) (fun _ _ _ => 0)
    ⟨⟨rfl, by decide⟩, by intro r x y k h; simp only [h 0 (by decide)], Or.inl (by decide), ⟨rfl, by decide⟩, by intro r x y k h; rfl,
      Or.inr ⟨0, by decide, by decide⟩, trivial⟩
  refine ⟨out, h1, (h2 0 (by decide) 0 (by decide)).trans (by decide)⟩

end Vbf
end Sopht
