import Verif.ChoreoProps
import Verif.CommProgs
import Verif.FieldCommProps
import Verif.LagrangianProps

/-! # Scatter, gather and the Lagrangian half of an interaction under every schedule (C72, C73) -/

namespace Sopht

section Gen
variable {R S M : Type} [DecidableEq R]

/-- The programs are the parts of the sequence `L`. -/
structure Parts (ranks : List R) (prog : R → List (Ins R S M)) (L : List (Item R S M)) : Prop where
  wf : ∀ x ∈ L, x.Wf ranks
  fresh : Fresh L
  prog : ∀ r ∈ ranks, prog r = proj r L

theorem Parts.append {ranks : List R} {p q : R → List (Ins R S M)} {L L' : List (Item R S M)} (h : Parts ranks p L) (h' : Parts ranks q L') :
    Parts ranks (fun r => p r ++ q r) (L ++ L') :=
  ⟨fun x hx => (List.mem_append.1 hx).elim (h.wf x) (h'.wf x), fun x hx => (List.mem_append.1 hx).elim (h.fresh x) (h'.fresh x),
    fun r hr => by rw [proj_append, h.prog r hr, h'.prog r hr]⟩

theorem Parts.nil (ranks : List R) : Parts ranks (fun _ => ([] : List (Ins R S M))) [] :=
  ⟨by simp, by intro x hx; simp at hx, fun _ _ => rfl⟩

theorem Parts.computes {ranks : List R} {p : R → List (Ins R S M)} {L : List (Item R S M)} (h : Parts ranks p L) (buffered : Bool) (w : R → S) :
    Computes buffered ranks p w (execAll ranks L w) := computes_of_sequence buffered L h.wf h.fresh p h.prog w

def gatherSeq (m : R) (order : List R) (own : S → S) (take : R → S → M) (put : R → M → S → S) : List (Item R S M) :=
  .loc m own :: order.map fun q => .msg q m (take q) (put q)

def scatterSeq (m : R) (order : List R) (own : S → S) (val : R → S → M) (put : R → M → S → S) : List (Item R S M) :=
  .loc m own :: order.map fun q => .msg m q (val q) (put q)

theorem flatMap_one {A : Type} {r : R} (a : R → A) : ∀ {l : List R}, l.Nodup → l.flatMap (fun q => if r = q then [a q] else []) = if r ∈ l then [a r] else []
  | [], _ => rfl
  | q :: l, h => by
    rw [List.flatMap_cons, flatMap_one a (List.nodup_cons.1 h).2]
    by_cases e : r = q
    · subst e
      rw [if_pos rfl, if_neg (List.nodup_cons.1 h).1, if_pos List.mem_cons_self]; rfl
    · rw [if_neg e, List.nil_append]
      simp [e]

theorem flatMap_each {A B : Type} (l : List A) (f : A → B) : l.flatMap (fun q => [f q]) = l.map f := by
  induction l with
  | nil => rfl
  | cons a l ih => rw [List.flatMap_cons, ih]; rfl

theorem proj_map (r : R) {A : Type} (l : List A) (f : A → Item R S M) : proj r (l.map f) = l.flatMap fun q => (f q).ins r := by
  simp [proj, List.flatMap_map]

theorem proj_gatherSeq {m : R} {order : List R} (hn : order.Nodup) (hm : m ∉ order) (own : S → S) (take : R → S → M) (put : R → M → S → S) (r : R) :
    proj r (gatherSeq m order own take put) = (if r ∈ order then [.send m (take r)] else []) ++
      if r = m then .loc own :: order.map (fun q => .recv q (put q)) else [] := by
  rw [gatherSeq, proj_cons, proj_map]
  by_cases e : r = m
  · subst e
    rw [if_neg hm, if_pos rfl]
    simp only [Item.ins, if_true, List.cons_append, List.nil_append, List.cons.injEq, true_and]
    have : order.flatMap (fun q => if r = q then [Ins.send r (take q)] else [.recv q (put q)]) = order.flatMap fun q => [Ins.recv q (put q)] := by
      apply List.flatMap_congr
      intro q hq
      rw [if_neg (by rintro rfl; exact hm hq)]
    rw [this]
    exact flatMap_each _ _
  · rw [if_neg e, List.append_nil]
    simp only [Item.ins, e, if_false, List.nil_append]
    exact flatMap_one (fun q => Ins.send m (take q)) hn

theorem proj_scatterSeq {m : R} {order : List R} (hn : order.Nodup) (hm : m ∉ order) (own : S → S) (val : R → S → M) (put : R → M → S → S) (r : R) :
    proj r (scatterSeq m order own val put) = (if r = m then .loc own :: order.map (fun q => .send q (val q)) else []) ++
      if r ∈ order then [.recv m (put r)] else [] := by
  rw [scatterSeq, proj_cons, proj_map]
  by_cases e : r = m
  · subst e
    rw [if_neg hm, if_pos rfl]
    simp only [Item.ins, if_true, List.cons_append, List.nil_append, List.append_nil, List.cons.injEq, true_and]
    exact flatMap_each _ _
  · rw [if_neg e]
    simp only [Item.ins, e, if_false, List.nil_append]
    exact flatMap_one (fun q => Ins.recv m (put q)) hn

theorem gatherSeq_parts {ranks : List R} {m : R} {order : List R} (hn : order.Nodup) (hm : m ∉ order) (hmr : m ∈ ranks) (hr : ∀ q ∈ order, q ∈ ranks)
    (own : S → S) (take : R → S → M) (put : R → M → S → S) {prog : R → List (Ins R S M)}
    (hp : ∀ r ∈ ranks, prog r = (if r ∈ order then [.send m (take r)] else []) ++
      if r = m then .loc own :: order.map (fun q => .recv q (put q)) else []) : Parts ranks prog (gatherSeq m order own take put) := by
  refine ⟨?_, ?_, fun r h => by rw [hp r h, proj_gatherSeq hn hm]⟩
  · intro x hx
    rcases List.mem_cons.1 hx with rfl | hx
    · exact hmr
    · obtain ⟨q, hq, rfl⟩ := List.mem_map.1 hx
      exact ⟨hr q hq, hmr, by rintro rfl; exact hm hq⟩
  · intro x hx
    rcases List.mem_cons.1 hx with rfl | hx
    · rfl
    · obtain ⟨q, hq, rfl⟩ := List.mem_map.1 hx; rfl

theorem scatterSeq_parts {ranks : List R} {m : R} {order : List R} (hn : order.Nodup) (hm : m ∉ order) (hmr : m ∈ ranks) (hr : ∀ q ∈ order, q ∈ ranks)
    (own : S → S) (val : R → S → M) (put : R → M → S → S) {prog : R → List (Ins R S M)}
    (hp : ∀ r ∈ ranks, prog r = (if r = m then .loc own :: order.map (fun q => .send q (val q)) else []) ++
      if r ∈ order then [.recv m (put r)] else []) : Parts ranks prog (scatterSeq m order own val put) := by
  refine ⟨?_, ?_, fun r h => by rw [hp r h, proj_scatterSeq hn hm]⟩
  · intro x hx
    rcases List.mem_cons.1 hx with rfl | hx
    · exact hmr
    · obtain ⟨q, hq, rfl⟩ := List.mem_map.1 hx
      exact ⟨hmr, hr q hq, by rintro rfl; exact hm hq⟩
  · intro x hx
    rcases List.mem_cons.1 hx with rfl | hx
    · rfl
    · obtain ⟨q, hq, rfl⟩ := List.mem_map.1 hx; rfl

theorem exec_gatherSeq (ranks : List R) {m : R} {order : List R} (hm : m ∉ order) (own : S → S) (take : R → S → M) (put : R → M → S → S) (w : R → S) :
    execAll ranks (gatherSeq m order own take put) w = Function.update w m (order.foldl (fun s q => put q (take q (w q)) s) (own (w m))) := by
  rw [gatherSeq, execAll_cons]
  simp only [Item.run]
  generalize own (w m) = s0
  induction order generalizing s0 with
  | nil => rfl
  | cons q l ih =>
    have hq : q ≠ m := by rintro rfl; exact hm List.mem_cons_self
    rw [List.map_cons, execAll_cons]
    simp only [Item.run, Function.update_self, Function.update_of_ne hq, Function.update_idem, List.foldl_cons]
    exact ih (fun h => hm (List.mem_cons_of_mem _ h)) _

theorem exec_scatterSeq (ranks : List R) {m : R} {order : List R} (hn : order.Nodup) (hm : m ∉ order) (own : S → S) (val : R → S → M)
    (put : R → M → S → S) (w : R → S) :
    execAll ranks (scatterSeq m order own val put) w =
      fun r => if r = m then own (w m) else if r ∈ order then put r (val r (own (w m))) (w r) else w r := by
  rw [scatterSeq, execAll_cons]
  simp only [Item.run]
  have key : ∀ (l : List R) (u : R → S), l.Nodup → m ∉ l → execAll ranks (l.map fun q => Item.msg m q (val q) (put q)) u =
      fun r => if r ∈ l then put r (val r (u m)) (u r) else u r := by
    intro l
    induction l with
    | nil => intro u _ _; rfl
    | cons q l ih =>
      intro u h1 h2
      have hq : q ≠ m := by rintro rfl; exact h2 List.mem_cons_self
      rw [List.map_cons, execAll_cons, ih _ (List.nodup_cons.1 h1).2 (fun h => h2 (List.mem_cons_of_mem _ h))]
      funext r
      simp only [Item.run, Function.update_of_ne (Ne.symm hq)]
      by_cases e : r = q
      · subst e
        simp [(List.nodup_cons.1 h1).1]
      · simp [e, Function.update_of_ne e]
  rw [key order _ hn hm]
  funext r
  by_cases e : r = m
  · subst e; simp [hm]
  · simp [e, Function.update_of_ne e]

/-- local work on every rank -/
def allLoc (ranks : List R) (f : R → S → S) : List (Item R S M) := ranks.map fun r => .loc r (f r)

theorem allLoc_parts {ranks : List R} (hn : ranks.Nodup) (f : R → S → S) :
    Parts ranks (fun r => [.loc (f r)]) (allLoc ranks f : List (Item R S M)) := by
  refine ⟨?_, ?_, fun r h => ?_⟩
  · intro x hx
    obtain ⟨q, hq, rfl⟩ := List.mem_map.1 hx; exact hq
  · intro x hx
    obtain ⟨q, hq, rfl⟩ := List.mem_map.1 hx; rfl
  · rw [allLoc, proj_map]
    simp only [Item.ins]
    rw [flatMap_one (fun q => Ins.loc (f q)) hn, if_pos h]

theorem exec_allLoc {ranks : List R} (hn : ranks.Nodup) (f : R → S → S) (w : R → S) :
    execAll ranks (allLoc ranks f : List (Item R S M)) w = fun r => if r ∈ ranks then f r (w r) else w r := by
  have key : ∀ (l : List R) (u : R → S), l.Nodup → execAll ranks (l.map fun q => (Item.loc q (f q) : Item R S M)) u =
      fun r => if r ∈ l then f r (u r) else u r := by
    intro l
    induction l with
    | nil => intro u _; rfl
    | cons q l ih =>
      intro u h1
      rw [List.map_cons, execAll_cons, ih _ (List.nodup_cons.1 h1).2]
      funext r
      simp only [Item.run]
      by_cases e : r = q
      · subst e
        simp [(List.nodup_cons.1 h1).1]
      · simp [e, Function.update_of_ne e]
  exact key ranks w hn

end Gen

/-! ## Fields -/

section Field
variable {K α : Type} [DecidableEq K]

theorem foldl_glob {R I : Type} (k : K) (P : R → List ℤ) (v : R → List α) (order : List R) (s : FieldSt K I α) :
    order.foldl (fun s q => { s with glob := Function.update s.glob k (unpack (s.glob k) (P q) (v q)) }) s =
      { s with glob := Function.update s.glob k (order.foldl (fun A q => unpack A (P q) (v q)) (s.glob k)) } := by
  induction order generalizing s with
  | nil => simp
  | cons q l ih => rw [List.foldl_cons, ih]; simp

section D2
variable {T : Cart2} {g : ℕ}

def gatherItems2 (T : Cart2) (g : ℕ) (m : C2) (order : List C2) (k : K) : List (Item C2 (FieldSt K ℤ α) (List α)) :=
  gatherSeq m order (fun s => { s with glob := Function.update s.glob k (unpack (s.glob k) (chunkIx2 T m) ((innerIx2 T g).map (s.loc k))) })
    (fun _ s => (slaveBuf2 T g).map (s.loc k)) (fun q v s => { s with glob := Function.update s.glob k (unpack (s.glob k) (masterBuf2 T q) v) })

def scatterItems2 (T : Cart2) (g : ℕ) (m : C2) (order : List C2) (k : K) : List (Item C2 (FieldSt K ℤ α) (List α)) :=
  scatterSeq m order (fun s => { s with loc := Function.update s.loc k (unpack (s.loc k) (innerIx2 T g) ((chunkIx2 T m).map (s.glob k))) })
    (fun q s => (masterBuf2 T q).map (s.glob k)) (fun _ v s => { s with loc := Function.update s.loc k (unpack (s.loc k) (slaveBuf2 T g) v) })

theorem SlaveOrder2.not_mem {m : C2} {order : List C2} (ho : SlaveOrder2 T m order) : m ∉ order := fun h => ((ho.2 m).1 h).2 rfl

theorem gatherItems2_parts {m : C2} (hm : Valid2 T m) {order : List C2} (ho : SlaveOrder2 T m order) (k : K) :
    Parts (ranks2 T) (gatherProg2 T g m order k) (gatherItems2 (α := α) T g m order k) := by
  refine gatherSeq_parts ho.1 ho.not_mem (mem_ranks2.2 hm) (fun q hq => mem_ranks2.2 ((ho.2 q).1 hq).1) _ _ _ fun r hr => ?_
  unfold gatherProg2
  by_cases e : r = m
  · subst e; rw [if_pos rfl, if_neg ho.not_mem, if_pos rfl]; rfl
  · rw [if_neg e, if_neg e, if_pos ((ho.2 r).2 ⟨mem_ranks2.1 hr, e⟩)]; rfl

theorem scatterItems2_parts {m : C2} (hm : Valid2 T m) {order : List C2} (ho : SlaveOrder2 T m order) (k : K) :
    Parts (ranks2 T) (scatterProg2 T g m order k) (scatterItems2 (α := α) T g m order k) := by
  refine scatterSeq_parts ho.1 ho.not_mem (mem_ranks2.2 hm) (fun q hq => mem_ranks2.2 ((ho.2 q).1 hq).1) _ _ _ fun r hr => ?_
  unfold scatterProg2
  by_cases e : r = m
  · subst e; rw [if_pos rfl, if_neg ho.not_mem, if_pos rfl, List.append_nil]
  · rw [if_neg e, if_neg e, if_pos ((ho.2 r).2 ⟨mem_ranks2.1 hr, e⟩)]; rfl

theorem exec_gatherItems2 {m : C2} {order : List C2} (ho : SlaveOrder2 T m order) (k : K) (w : C2 → FieldSt K ℤ α) :
    execAll (ranks2 T) (gatherItems2 T g m order k) w = Function.update w m
      { w m with glob := Function.update (w m).glob k (gather2 T g m order (fun c => (w c).loc k) ((w m).glob k)) } := by
  unfold gatherItems2
  rw [exec_gatherSeq _ ho.not_mem, foldl_glob k (masterBuf2 T) (fun q => (slaveBuf2 T g).map ((w q).loc k))]
  simp [gather2]

theorem scatter2_at {m : C2} {order : List C2} (ho : SlaveOrder2 T m order) (Gf : ℤ → α) (w : World C2 ℤ α) (r : C2) :
    scatter2 T g m order Gf w r = if r = m then unpack (w m) (innerIx2 T g) ((chunkIx2 T m).map Gf)
      else if r ∈ order then unpack (w r) (slaveBuf2 T g) ((masterBuf2 T r).map Gf) else w r := by
  have := congrFun (exec_scatterSeq (ranks2 T) ho.1 ho.not_mem (fun A : ℤ → α => unpack A (innerIx2 T g) ((chunkIx2 T m).map Gf))
    (fun q _ => (masterBuf2 T q).map Gf) (fun _ v A => unpack A (slaveBuf2 T g) v) w) r
  refine Eq.trans (Eq.trans ?_ this) (by split_ifs <;> rfl)
  rw [scatterSeq, execAll_cons]
  unfold scatter2 execAll
  rw [List.foldl_map]
  rfl

theorem exec_scatterItems2 {m : C2} {order : List C2} (ho : SlaveOrder2 T m order) (k : K) (w : C2 → FieldSt K ℤ α) {r : C2} (hr : Valid2 T r) :
    execAll (ranks2 T) (scatterItems2 T g m order k) w r =
      { w r with loc := Function.update (w r).loc k (scatter2 T g m order ((w m).glob k) (fun c => (w c).loc k) r) } := by
  unfold scatterItems2
  rw [exec_scatterSeq _ ho.1 ho.not_mem, scatter2_at ho]
  by_cases e : r = m
  · subst e; simp
  · have := (ho.2 r).2 ⟨hr, e⟩
    simp [e, this]

theorem gi2_same {m : C2} {order : List C2} (ho : SlaveOrder2 T m order) (k : K) (w : C2 → FieldSt K ℤ α) :
    (execAll (ranks2 T) (gatherItems2 T g m order k) w m).glob k = gather2 T g m order (fun c => (w c).loc k) ((w m).glob k) := by
  rw [exec_gatherItems2 ho, Function.update_self]
  exact Function.update_self _ _ _

theorem gi2_other {m : C2} {order : List C2} (ho : SlaveOrder2 T m order) {k k' : K} (h : k' ≠ k) (w : C2 → FieldSt K ℤ α) :
    (execAll (ranks2 T) (gatherItems2 T g m order k) w m).glob k' = (w m).glob k' := by
  rw [exec_gatherItems2 ho, Function.update_self]
  exact Function.update_of_ne h _ _

theorem gi2_loc {m : C2} {order : List C2} (ho : SlaveOrder2 T m order) (k : K) (w : C2 → FieldSt K ℤ α) (r : C2) :
    (execAll (ranks2 T) (gatherItems2 T g m order k) w r).loc = (w r).loc := by
  rw [exec_gatherItems2 ho]
  by_cases e : r = m
  · subst e; rw [Function.update_self]
  · rw [Function.update_of_ne e]

theorem gi2_rest {m : C2} {order : List C2} (ho : SlaveOrder2 T m order) (k : K) (w : C2 → FieldSt K ℤ α) {r : C2} (h : r ≠ m) :
    execAll (ranks2 T) (gatherItems2 T g m order k) w r = w r := by
  rw [exec_gatherItems2 ho, Function.update_of_ne h]

theorem si2_same {m : C2} {order : List C2} (ho : SlaveOrder2 T m order) (k : K) (w : C2 → FieldSt K ℤ α) {r : C2} (hr : Valid2 T r) :
    (execAll (ranks2 T) (scatterItems2 T g m order k) w r).loc k = scatter2 T g m order ((w m).glob k) (fun c => (w c).loc k) r := by
  rw [exec_scatterItems2 ho k w hr]
  exact Function.update_self _ _ _

theorem si2_other {m : C2} {order : List C2} (ho : SlaveOrder2 T m order) {k k' : K} (h : k' ≠ k) (w : C2 → FieldSt K ℤ α) {r : C2} (hr : Valid2 T r) :
    (execAll (ranks2 T) (scatterItems2 T g m order k) w r).loc k' = (w r).loc k' := by
  rw [exec_scatterItems2 ho k w hr]
  exact Function.update_of_ne h _ _

theorem si2_glob {m : C2} {order : List C2} (ho : SlaveOrder2 T m order) (k : K) (w : C2 → FieldSt K ℤ α) {r : C2} (hr : Valid2 T r) :
    (execAll (ranks2 T) (scatterItems2 T g m order k) w r).glob = (w r).glob := by
  rw [exec_scatterItems2 ho k w hr]

/-- C72 (2D, gather of one component): whatever the order of steps and the buffering, `gather_local_scalar_field` returns on every rank, no run gets stuck, and then
the master's global field holds the inner values of the owners; nothing else has changed. -/
theorem gather2_schedule {gy gx py px : ℕ} {per : Bool} (hT : mkCart2 gy gx py px per = .ok T) (g : ℕ) (buffered : Bool) {m : C2} (hm : Valid2 T m)
    {order : List C2} (ho : SlaveOrder2 T m order) (k : K) (w : C2 → FieldSt K ℤ α) :
    ∃ out, Computes buffered (ranks2 T) (gatherProg2 T g m order k) w out ∧
      (∀ c G : C2, Valid2 T c → InBlock2 T c G →
        (out m).glob k (gflat2 T G) = (w c).loc k (flat2 T g (G.1 - c.1 * T.ny + g, G.2 - c.2 * T.nx + g))) ∧
      (∀ k', k' ≠ k → (out m).glob k' = (w m).glob k') ∧ (∀ r, (out r).loc = (w r).loc) ∧ ∀ r, r ≠ m → out r = w r := by
  refine ⟨_, (gatherItems2_parts hm ho k).computes buffered w, fun c G hc hG => ?_, fun k' h => gi2_other ho h w, gi2_loc ho k w,
    fun r h => gi2_rest ho k w h⟩
  rw [gi2_same ho]
  exact gather2_correct hT g hm ho _ _ hc hG

/-- C72 (2D, scatter of one component). -/
theorem scatter2_schedule {gy gx py px : ℕ} {per : Bool} (hT : mkCart2 gy gx py px per = .ok T) (g : ℕ) (buffered : Bool) {m : C2} (hm : Valid2 T m)
    {order : List C2} (ho : SlaveOrder2 T m order) (k : K) (w : C2 → FieldSt K ℤ α) :
    ∃ out, Computes buffered (ranks2 T) (scatterProg2 T g m order k) w out ∧
      ∀ r, Valid2 T r → (out r).glob = (w r).glob ∧ (∀ k', k' ≠ k → (out r).loc k' = (w r).loc k') ∧
        ∀ p, InArr2 T g p →
          (Inner2 T g p → (out r).loc k (flat2 T g p) = (w m).glob k (gflat2 T (globalIx2 T g r p))) ∧
          (¬ Inner2 T g p → (out r).loc k (flat2 T g p) = (w r).loc k (flat2 T g p)) := by
  refine ⟨_, (scatterItems2_parts hm ho k).computes buffered w, fun r hr =>
    ⟨si2_glob ho k w hr, fun k' h => si2_other ho h w hr, fun p hp => ?_⟩⟩
  rw [si2_same ho k w hr]
  exact scatter2_correct hT g hm ho _ (fun c => (w c).loc k) hr hp

/-- C72 (2D, `gather_local_vector_field`). -/
theorem gatherVec2_schedule {gy gx py px : ℕ} {per : Bool} (hT : mkCart2 gy gx py px per = .ok T) (g : ℕ) (buffered : Bool) {m : C2} (hm : Valid2 T m)
    {order : List C2} (ho : SlaveOrder2 T m order) (w : C2 → FieldSt (Fin 2) ℤ α) :
    ∃ out, Computes buffered (ranks2 T) (gatherVecProg2 T g m order) w out ∧
      (∀ (k : Fin 2) (c G : C2), Valid2 T c → InBlock2 T c G →
        (out m).glob k (gflat2 T G) = (w c).loc k (flat2 T g (G.1 - c.1 * T.ny + g, G.2 - c.2 * T.nx + g))) ∧
      (∀ r, (out r).loc = (w r).loc) ∧ ∀ r, r ≠ m → out r = w r := by
  refine ⟨_, ((gatherItems2_parts hm ho 0).append (gatherItems2_parts hm ho 1)).computes buffered w, fun k c G hc hG => ?_,
    fun r => by rw [execAll_append, gi2_loc ho, gi2_loc ho], fun r h => by rw [execAll_append, gi2_rest ho _ _ h, gi2_rest ho _ _ h]⟩
  rw [execAll_append]
  match k with
  | 0 =>
    rw [gi2_other ho (by decide), gi2_same ho]
    exact gather2_correct hT g hm ho _ _ hc hG
  | 1 =>
    rw [gi2_same ho, gather2_correct hT g hm ho _ _ hc hG, gi2_loc ho]

/-- C72 (2D, `scatter_global_vector_field`). -/
theorem scatterVec2_schedule {gy gx py px : ℕ} {per : Bool} (hT : mkCart2 gy gx py px per = .ok T) (g : ℕ) (buffered : Bool) {m : C2} (hm : Valid2 T m)
    {order : List C2} (ho : SlaveOrder2 T m order) (w : C2 → FieldSt (Fin 2) ℤ α) :
    ∃ out, Computes buffered (ranks2 T) (scatterVecProg2 T g m order) w out ∧
      ∀ r, Valid2 T r → (out r).glob = (w r).glob ∧ ∀ (k : Fin 2) p, InArr2 T g p →
          (Inner2 T g p → (out r).loc k (flat2 T g p) = (w m).glob k (gflat2 T (globalIx2 T g r p))) ∧
          (¬ Inner2 T g p → (out r).loc k (flat2 T g p) = (w r).loc k (flat2 T g p)) := by
  refine ⟨_, ((scatterItems2_parts hm ho 0).append (scatterItems2_parts hm ho 1)).computes buffered w, fun r hr =>
    ⟨by rw [execAll_append, si2_glob ho _ _ hr, si2_glob ho _ _ hr], fun k p hp => ?_⟩⟩
  rw [execAll_append]
  match k with
  | 0 =>
    rw [si2_other ho (by decide) _ hr, si2_same ho _ _ hr]
    exact scatter2_correct hT g hm ho _ (fun c => (w c).loc 0) hr hp
  | 1 =>
    rw [si2_same ho _ _ hr, si2_glob ho _ _ hm]
    have := scatter2_correct hT g hm ho ((w m).glob 1)
      (fun c => (execAll (ranks2 T) (scatterItems2 T g m order (0 : Fin 2)) w c).loc 1) hr hp
    rw [si2_other ho (by decide) _ hr] at this
    exact this

end D2

section D3
variable {T : Cart3} {g : ℕ}

def gatherItems3 (T : Cart3) (g : ℕ) (m : C3) (order : List C3) (k : K) : List (Item C3 (FieldSt K C3 α) (List α)) :=
  gatherSeq m order (fun s => { s with glob := Function.update s.glob k (unpack (s.glob k) (chunkIx3 T m) ((innerIx3 T g).map (s.loc k))) })
    (fun _ s => (slaveBuf3 T g).map (s.loc k)) (fun q v s => { s with glob := Function.update s.glob k (unpack (s.glob k) (masterBuf3 T q) v) })

def scatterItems3 (T : Cart3) (g : ℕ) (m : C3) (order : List C3) (k : K) : List (Item C3 (FieldSt K C3 α) (List α)) :=
  scatterSeq m order (fun s => { s with loc := Function.update s.loc k (unpack (s.loc k) (innerIx3 T g) ((chunkIx3 T m).map (s.glob k))) })
    (fun q s => (masterBuf3 T q).map (s.glob k)) (fun _ v s => { s with loc := Function.update s.loc k (unpack (s.loc k) (slaveBuf3 T g) v) })

theorem SlaveOrder3.not_mem {m : C3} {order : List C3} (ho : SlaveOrder3 T m order) : m ∉ order := fun h => ((ho.2 m).1 h).2 rfl

theorem gatherItems3_parts {m : C3} (hm : Valid3 T m) {order : List C3} (ho : SlaveOrder3 T m order) (k : K) :
    Parts (ranks3 T) (gatherProg3 T g m order k) (gatherItems3 (α := α) T g m order k) := by
  refine gatherSeq_parts ho.1 ho.not_mem (mem_ranks3.2 hm) (fun q hq => mem_ranks3.2 ((ho.2 q).1 hq).1) _ _ _ fun r hr => ?_
  unfold gatherProg3
  by_cases e : r = m
  · subst e; rw [if_pos rfl, if_neg ho.not_mem, if_pos rfl]; rfl
  · rw [if_neg e, if_neg e, if_pos ((ho.2 r).2 ⟨mem_ranks3.1 hr, e⟩)]; rfl

theorem scatterItems3_parts {m : C3} (hm : Valid3 T m) {order : List C3} (ho : SlaveOrder3 T m order) (k : K) :
    Parts (ranks3 T) (scatterProg3 T g m order k) (scatterItems3 (α := α) T g m order k) := by
  refine scatterSeq_parts ho.1 ho.not_mem (mem_ranks3.2 hm) (fun q hq => mem_ranks3.2 ((ho.2 q).1 hq).1) _ _ _ fun r hr => ?_
  unfold scatterProg3
  by_cases e : r = m
  · subst e; rw [if_pos rfl, if_neg ho.not_mem, if_pos rfl, List.append_nil]
  · rw [if_neg e, if_neg e, if_pos ((ho.2 r).2 ⟨mem_ranks3.1 hr, e⟩)]; rfl

theorem exec_gatherItems3 {m : C3} {order : List C3} (ho : SlaveOrder3 T m order) (k : K) (w : C3 → FieldSt K C3 α) :
    execAll (ranks3 T) (gatherItems3 T g m order k) w = Function.update w m
      { w m with glob := Function.update (w m).glob k (gather3 T g m order (fun c => (w c).loc k) ((w m).glob k)) } := by
  unfold gatherItems3
  rw [exec_gatherSeq _ ho.not_mem, foldl_glob k (masterBuf3 T) (fun q => (slaveBuf3 T g).map ((w q).loc k))]
  simp [gather3]

theorem scatter3_at {m : C3} {order : List C3} (ho : SlaveOrder3 T m order) (Gf : ℤ → α) (w : World C3 C3 α) (r : C3) :
    scatter3 T g m order Gf w r = if r = m then unpack (w m) (innerIx3 T g) ((chunkIx3 T m).map Gf)
      else if r ∈ order then unpack (w r) (slaveBuf3 T g) ((masterBuf3 T r).map Gf) else w r := by
  have := congrFun (exec_scatterSeq (ranks3 T) ho.1 ho.not_mem (fun A : C3 → α => unpack A (innerIx3 T g) ((chunkIx3 T m).map Gf))
    (fun q _ => (masterBuf3 T q).map Gf) (fun _ v A => unpack A (slaveBuf3 T g) v) w) r
  refine Eq.trans (Eq.trans ?_ this) (by split_ifs <;> rfl)
  rw [scatterSeq, execAll_cons]
  unfold scatter3 execAll
  rw [List.foldl_map]
  rfl

theorem exec_scatterItems3 {m : C3} {order : List C3} (ho : SlaveOrder3 T m order) (k : K) (w : C3 → FieldSt K C3 α) {r : C3} (hr : Valid3 T r) :
    execAll (ranks3 T) (scatterItems3 T g m order k) w r =
      { w r with loc := Function.update (w r).loc k (scatter3 T g m order ((w m).glob k) (fun c => (w c).loc k) r) } := by
  unfold scatterItems3
  rw [exec_scatterSeq _ ho.1 ho.not_mem, scatter3_at ho]
  by_cases e : r = m
  · subst e; simp
  · have := (ho.2 r).2 ⟨hr, e⟩
    simp [e, this]

theorem gi3_same {m : C3} {order : List C3} (ho : SlaveOrder3 T m order) (k : K) (w : C3 → FieldSt K C3 α) :
    (execAll (ranks3 T) (gatherItems3 T g m order k) w m).glob k = gather3 T g m order (fun c => (w c).loc k) ((w m).glob k) := by
  rw [exec_gatherItems3 ho, Function.update_self]
  exact Function.update_self _ _ _

theorem gi3_other {m : C3} {order : List C3} (ho : SlaveOrder3 T m order) {k k' : K} (h : k' ≠ k) (w : C3 → FieldSt K C3 α) :
    (execAll (ranks3 T) (gatherItems3 T g m order k) w m).glob k' = (w m).glob k' := by
  rw [exec_gatherItems3 ho, Function.update_self]
  exact Function.update_of_ne h _ _

theorem gi3_loc {m : C3} {order : List C3} (ho : SlaveOrder3 T m order) (k : K) (w : C3 → FieldSt K C3 α) (r : C3) :
    (execAll (ranks3 T) (gatherItems3 T g m order k) w r).loc = (w r).loc := by
  rw [exec_gatherItems3 ho]
  by_cases e : r = m
  · subst e; rw [Function.update_self]
  · rw [Function.update_of_ne e]

theorem gi3_rest {m : C3} {order : List C3} (ho : SlaveOrder3 T m order) (k : K) (w : C3 → FieldSt K C3 α) {r : C3} (h : r ≠ m) :
    execAll (ranks3 T) (gatherItems3 T g m order k) w r = w r := by
  rw [exec_gatherItems3 ho, Function.update_of_ne h]

theorem si3_same {m : C3} {order : List C3} (ho : SlaveOrder3 T m order) (k : K) (w : C3 → FieldSt K C3 α) {r : C3} (hr : Valid3 T r) :
    (execAll (ranks3 T) (scatterItems3 T g m order k) w r).loc k = scatter3 T g m order ((w m).glob k) (fun c => (w c).loc k) r := by
  rw [exec_scatterItems3 ho k w hr]
  exact Function.update_self _ _ _

theorem si3_other {m : C3} {order : List C3} (ho : SlaveOrder3 T m order) {k k' : K} (h : k' ≠ k) (w : C3 → FieldSt K C3 α) {r : C3} (hr : Valid3 T r) :
    (execAll (ranks3 T) (scatterItems3 T g m order k) w r).loc k' = (w r).loc k' := by
  rw [exec_scatterItems3 ho k w hr]
  exact Function.update_of_ne h _ _

theorem si3_glob {m : C3} {order : List C3} (ho : SlaveOrder3 T m order) (k : K) (w : C3 → FieldSt K C3 α) {r : C3} (hr : Valid3 T r) :
    (execAll (ranks3 T) (scatterItems3 T g m order k) w r).glob = (w r).glob := by
  rw [exec_scatterItems3 ho k w hr]

/-- C72 (3D, gather of one component): whatever the order of steps and the buffering, `gather_local_scalar_field` returns on every rank, no run gets stuck, and then
the master's global field holds the inner values of the owners; nothing else has changed. -/
theorem gather3_schedule {gz gy gx pz py px : ℕ} {per : Bool} (hT : mkCart3 gz gy gx pz py px per = .ok T) (g : ℕ) (buffered : Bool) {m : C3} (hm : Valid3 T m)
    {order : List C3} (ho : SlaveOrder3 T m order) (k : K) (w : C3 → FieldSt K C3 α) :
    ∃ out, Computes buffered (ranks3 T) (gatherProg3 T g m order k) w out ∧
      (∀ c G : C3, Valid3 T c → InBlock3 T c G →
        (out m).glob k (gflat3 T G) = (w c).loc k (G.1 - c.1 * T.nz + g, G.2.1 - c.2.1 * T.ny + g, G.2.2 - c.2.2 * T.nx + g)) ∧
      (∀ k', k' ≠ k → (out m).glob k' = (w m).glob k') ∧ (∀ r, (out r).loc = (w r).loc) ∧ ∀ r, r ≠ m → out r = w r := by
  refine ⟨_, (gatherItems3_parts hm ho k).computes buffered w, fun c G hc hG => ?_, fun k' h => gi3_other ho h w, gi3_loc ho k w,
    fun r h => gi3_rest ho k w h⟩
  rw [gi3_same ho]
  exact gather3_correct hT g hm ho _ _ hc hG

/-- C72 (3D, scatter of one component). -/
theorem scatter3_schedule {gz gy gx pz py px : ℕ} {per : Bool} (hT : mkCart3 gz gy gx pz py px per = .ok T) (g : ℕ) (buffered : Bool) {m : C3} (hm : Valid3 T m)
    {order : List C3} (ho : SlaveOrder3 T m order) (k : K) (w : C3 → FieldSt K C3 α) :
    ∃ out, Computes buffered (ranks3 T) (scatterProg3 T g m order k) w out ∧
      ∀ r, Valid3 T r → (out r).glob = (w r).glob ∧ (∀ k', k' ≠ k → (out r).loc k' = (w r).loc k') ∧
        ∀ p : C3,
          (Inner3 T g p → (out r).loc k p = (w m).glob k (gflat3 T (globalIx3 T g r p))) ∧
          (¬ Inner3 T g p → (out r).loc k p = (w r).loc k p) := by
  refine ⟨_, (scatterItems3_parts hm ho k).computes buffered w, fun r hr =>
    ⟨si3_glob ho k w hr, fun k' h => si3_other ho h w hr, fun p => ?_⟩⟩
  rw [si3_same ho k w hr]
  exact scatter3_correct hT g hm ho _ (fun c => (w c).loc k) hr

/-- C72 (3D, `gather_local_vector_field`). -/
theorem gatherVec3_schedule {gz gy gx pz py px : ℕ} {per : Bool} (hT : mkCart3 gz gy gx pz py px per = .ok T) (g : ℕ) (buffered : Bool) {m : C3} (hm : Valid3 T m)
    {order : List C3} (ho : SlaveOrder3 T m order) (w : C3 → FieldSt (Fin 3) C3 α) :
    ∃ out, Computes buffered (ranks3 T) (gatherVecProg3 T g m order) w out ∧
      (∀ (k : Fin 3) (c G : C3), Valid3 T c → InBlock3 T c G →
        (out m).glob k (gflat3 T G) = (w c).loc k (G.1 - c.1 * T.nz + g, G.2.1 - c.2.1 * T.ny + g, G.2.2 - c.2.2 * T.nx + g)) ∧
      (∀ r, (out r).loc = (w r).loc) ∧ ∀ r, r ≠ m → out r = w r := by
  refine ⟨_, (((gatherItems3_parts hm ho 0).append (gatherItems3_parts hm ho 1)).append (gatherItems3_parts hm ho 2)).computes buffered w, fun k c G hc hG => ?_,
    fun r => by rw [execAll_append, execAll_append, gi3_loc ho, gi3_loc ho, gi3_loc ho], fun r h => by rw [execAll_append, execAll_append, gi3_rest ho _ _ h, gi3_rest ho _ _ h, gi3_rest ho _ _ h]⟩
  rw [execAll_append, execAll_append]
  match k with
  | 0 =>
    rw [gi3_other ho (by decide), gi3_other ho (by decide), gi3_same ho]
    exact gather3_correct hT g hm ho _ _ hc hG
  | 1 =>
    rw [gi3_other ho (by decide), gi3_same ho, gather3_correct hT g hm ho _ _ hc hG, gi3_loc ho]
  | 2 =>
    rw [gi3_same ho, gather3_correct hT g hm ho _ _ hc hG, gi3_loc ho, gi3_loc ho]

/-- C72 (3D, `scatter_global_vector_field`). -/
theorem scatterVec3_schedule {gz gy gx pz py px : ℕ} {per : Bool} (hT : mkCart3 gz gy gx pz py px per = .ok T) (g : ℕ) (buffered : Bool) {m : C3} (hm : Valid3 T m)
    {order : List C3} (ho : SlaveOrder3 T m order) (w : C3 → FieldSt (Fin 3) C3 α) :
    ∃ out, Computes buffered (ranks3 T) (scatterVecProg3 T g m order) w out ∧
      ∀ r, Valid3 T r → (out r).glob = (w r).glob ∧ ∀ (k : Fin 3) (p : C3),
          (Inner3 T g p → (out r).loc k p = (w m).glob k (gflat3 T (globalIx3 T g r p))) ∧
          (¬ Inner3 T g p → (out r).loc k p = (w r).loc k p) := by
  refine ⟨_, (((scatterItems3_parts hm ho 0).append (scatterItems3_parts hm ho 1)).append (scatterItems3_parts hm ho 2)).computes buffered w, fun r hr =>
    ⟨by rw [execAll_append, execAll_append, si3_glob ho _ _ hr, si3_glob ho _ _ hr, si3_glob ho _ _ hr], fun k p => ?_⟩⟩
  rw [execAll_append, execAll_append]
  match k with
  | 0 =>
    rw [si3_other ho (by decide) _ hr, si3_other ho (by decide) _ hr, si3_same ho _ _ hr]
    exact scatter3_correct hT g hm ho _ (fun c => (w c).loc 0) hr
  | 1 =>
    rw [si3_other ho (by decide) _ hr, si3_same ho _ _ hr, si3_glob ho _ _ hm]
    have := scatter3_correct hT g hm ho ((w m).glob 1)
      (fun c => (execAll (ranks3 T) (scatterItems3 T g m order (0 : Fin 3)) w c).loc 1) (p := p) hr
    rw [si3_other ho (by decide) _ hr] at this
    exact this
  | 2 =>
    rw [si3_same ho _ _ hr, si3_glob ho _ _ hm, si3_glob ho _ _ hm]
    have := scatter3_correct hT g hm ho ((w m).glob 2)
      (fun c => (execAll (ranks3 T) (scatterItems3 T g m order (1 : Fin 3))
        (execAll (ranks3 T) (scatterItems3 T g m order (0 : Fin 3)) w) c).loc 2) (p := p) hr
    rw [si3_other ho (by decide) _ hr, si3_other ho (by decide) _ hr] at this
    exact this

end D3

end Field
/-! ## Lagrangian fields -/

section Lag
variable {R S α : Type} [DecidableEq R]

/-- `upd` updates one component of the state. -/
structure Upd (upd : (LagField α → LagField α) → S → S) : Prop where
  id : ∀ s, upd (fun x => x) s = s
  comp : ∀ f g s, upd f (upd g s) = upd (fun x => f (g x)) s

def gatherLagItems (d : ℕ) (addr : List R) (m : R) (order : List R) (junk : LagField α) (get : S → LagField α)
    (upd : (LagField α → LagField α) → S → S) : List (Item R S (List α)) :=
  gatherSeq m order (fun s => upd (setCols d (whereEq addr m) (get s)) s) (fun q s => ravelLag d (localCount addr q) (get s))
    (fun q v s => upd (setCols d (whereEq addr q) (fillLag d (whereEq addr q).length v junk)) s)

def scatterLagItems (d : ℕ) (addr : List R) (m : R) (order : List R) (get : S → LagField α)
    (upd : (LagField α → LagField α) → S → S) : List (Item R S (List α)) :=
  scatterSeq m order
    (fun s => upd (fun l k j => if k < d ∧ j < localCount addr m then cols (whereEq addr m) (get s) k j else l k j) s)
    (fun q s => ravelLag d (whereEq addr q).length (cols (whereEq addr q) (get s)))
    (fun q v s => upd (fillLag d (localCount addr q) v) s)

theorem SlaveSet.not_mem {addr : List R} {m : R} {order : List R} (ho : SlaveSet addr m order) : m ∉ order := fun h => ((ho.2 m).1 h).2 rfl

theorem gatherLagItems_parts {ranks addr : List R} {m : R} {order : List R} (hm : m ∈ ranks) (ha : ∀ r ∈ addr, r ∈ ranks) (ho : SlaveSet addr m order)
    (d : ℕ) (junk : LagField α) (get : S → LagField α) (upd : (LagField α → LagField α) → S → S) :
    Parts ranks (gatherLagProg d addr m order junk get upd) (gatherLagItems d addr m order junk get upd) :=
  gatherSeq_parts ho.1 ho.not_mem hm (fun q hq => ha q ((ho.2 q).1 hq).1) _ _ _ fun _ _ => rfl

theorem scatterLagItems_parts {ranks addr : List R} {m : R} {order : List R} (hm : m ∈ ranks) (ha : ∀ r ∈ addr, r ∈ ranks) (ho : SlaveSet addr m order)
    (d : ℕ) (get : S → LagField α) (upd : (LagField α → LagField α) → S → S) :
    Parts ranks (scatterLagProg d addr m order get upd) (scatterLagItems d addr m order get upd) :=
  scatterSeq_parts ho.1 ho.not_mem hm (fun q hq => ha q ((ho.2 q).1 hq).1) _ _ _ fun _ _ => rfl

theorem exec_gatherLagItems {ranks addr : List R} {m : R} {order : List R} (ho : SlaveSet addr m order) (d : ℕ) (junk : LagField α)
    (get : S → LagField α) {upd : (LagField α → LagField α) → S → S} (hu : Upd upd) (w : R → S) :
    execAll ranks (gatherLagItems d addr m order junk get upd) w =
      Function.update w m (upd (gatherLag d addr m order (fun r => get (w r)) junk) (w m)) := by
  unfold gatherLagItems
  rw [exec_gatherSeq _ ho.not_mem]
  congr 1
  have key : ∀ (l : List R) (f : LagField α → LagField α) (s : S),
      l.foldl (fun s q => upd (setCols d (whereEq addr q) (fillLag d (whereEq addr q).length (ravelLag d (localCount addr q) (get (w q))) junk)) s) (upd f s) =
        upd (fun G => l.foldl (fun G r => setCols d (whereEq addr r)
          (fillLag d (whereEq addr r).length (ravelLag d (localCount addr r) (get (w r))) junk) G) (f G)) s := by
    intro l
    induction l with
    | nil => intro f s; rfl
    | cons q l ih => intro f s; rw [List.foldl_cons, hu.comp, ih]; rfl
  exact key order _ _

theorem scatterLag_local (d : ℕ) (addr : List R) (m : R) (order : List R) (G : LagField α) (loc : R → LagField α) (r : R) :
    scatterLag d addr m order G loc r = scatterLag d addr m order G (fun _ => loc r) r := by
  unfold scatterLag
  split_ifs with h
  · subst h; rfl
  · rfl
  · rfl

theorem exec_scatterLagItems {ranks addr : List R} {m : R} {order : List R} (ho : SlaveSet addr m order) (d : ℕ)
    {get : S → LagField α} {upd : (LagField α → LagField α) → S → S} (hu : Upd upd) (hg : ∀ f s, get (upd f s) = get s) (w : R → S) :
    execAll ranks (scatterLagItems d addr m order get upd) w =
      fun r => upd (fun l => scatterLag d addr m order (get (w m)) (fun _ => l) r) (w r) := by
  unfold scatterLagItems
  rw [exec_scatterSeq _ ho.1 ho.not_mem]
  funext r
  unfold scatterLag
  split_ifs with h h'
  · subst h; rfl
  · rw [hg]
  · exact (hu.id _).symm

/-- State of a rank with a local and a global Lagrangian field. -/
theorem upd_snd : Upd (fun (f : LagField α → LagField α) (s : LagField α × LagField α) => (s.1, f s.2)) := ⟨fun _ => rfl, fun _ _ _ => rfl⟩
theorem upd_fst : Upd (fun (f : LagField α → LagField α) (s : LagField α × LagField α) => (f s.1, s.2)) := ⟨fun _ => rfl, fun _ _ _ => rfl⟩

/-- C72 (Lagrangian `gather_local_field`; local states are pairs of the local and the global field). -/
theorem gatherLag_schedule (buffered : Bool) (d : ℕ) {ranks addr : List R} {m : R} (hm : m ∈ ranks) (ha : ∀ r ∈ addr, r ∈ ranks) {order : List R}
    (ho : SlaveSet addr m order) (junk : LagField α) (w : R → LagField α × LagField α) :
    ∃ out, Computes buffered ranks (gatherLagProg d addr m order junk Prod.fst fun f s => (s.1, f s.2)) w out ∧
      (∀ (r : R) (i j k : ℕ), k < d → (whereEq addr r)[j]? = some i → (out m).2 k i = (w r).1 k j) ∧
      (∀ r, (out r).1 = (w r).1) ∧ ∀ r, r ≠ m → out r = w r := by
  refine ⟨_, (gatherLagItems_parts hm ha ho d junk _ _).computes buffered w, ?_⟩
  rw [exec_gatherLagItems ho d junk Prod.fst upd_snd]
  refine ⟨fun r i j k hk hij => ?_, fun r => ?_, fun r h => Function.update_of_ne h _ _⟩
  · rw [Function.update_self]
    exact gatherLag_correct d addr ho (fun r => (w r).1) junk _ hk hij
  · by_cases e : r = m
    · subst e; rw [Function.update_self]
    · rw [Function.update_of_ne e]

/-- C72 (Lagrangian `scatter_global_field`). -/
theorem scatterLag_schedule (buffered : Bool) (d : ℕ) {ranks addr : List R} {m : R} (hm : m ∈ ranks) (ha : ∀ r ∈ addr, r ∈ ranks) {order : List R}
    (ho : SlaveSet addr m order) (w : R → LagField α × LagField α) :
    ∃ out, Computes buffered ranks (scatterLagProg d addr m order Prod.snd fun f s => (f s.1, s.2)) w out ∧
      (∀ (r : R) (k j : ℕ), k < d → j < localCount addr r →
        ∃ i, (whereEq addr r)[j]? = some i ∧ addr[i]? = some r ∧ (out r).1 k j = (w m).2 k i) ∧
      ∀ r, (out r).2 = (w r).2 := by
  refine ⟨_, (scatterLagItems_parts hm ha ho d _ _).computes buffered w, ?_⟩
  rw [exec_scatterLagItems ho d upd_fst (fun _ _ => rfl)]
  exact ⟨fun r k j hk hj => scatterLag_correct d addr ho (w m).2 (fun _ => (w r).1) r hk hj, fun r => rfl⟩

/-! ## Examples: the hypotheses are met, and programs that do not fit together do hang -/

/-- non-vacuity: gather on a 2 × 1 process grid without buffering -/
example : ∃ out, Computes false (ranks2 (⟨4, 2, 2, 1, 2, 2, true⟩ : Cart2)) (gatherVecProg2 ⟨4, 2, 2, 1, 2, 2, true⟩ 1 (0, 0) [(1, 0)])
    (fun c => (⟨fun k i => 100 * k + 10 * c.1.toNat + i.toNat, fun _ _ => 0⟩ : FieldSt (Fin 2) ℤ ℕ)) out ∧
    (out (0, 0)).glob 1 (gflat2 ⟨4, 2, 2, 1, 2, 2, true⟩ (3, 1)) = 100 + 10 + 10 := by
  obtain ⟨out, h1, h2, -⟩ := gatherVec2_schedule (T := ⟨4, 2, 2, 1, 2, 2, true⟩) (gy := 4) (gx := 2) (py := 2) (px := 1) (per := true) (by decide) 1 false
    (m := (0, 0)) (by unfold Valid2; decide) (order := [(1, 0)])
    ⟨by decide, by
      intro r
      simp only [List.mem_singleton, Valid2]
      constructor
      · rintro rfl; decide
      · rintro ⟨h, hn⟩
        have : r.1 ≠ 0 ∨ r.2 ≠ 0 := by
          by_contra hh; push Not at hh; exact hn (Prod.ext hh.1 hh.2)
        refine Prod.ext ?_ ?_ <;> simp only <;> omega⟩
    (fun c => (⟨fun k i => 100 * k + 10 * c.1.toNat + i.toNat, fun _ _ => 0⟩ : FieldSt (Fin 2) ℤ ℕ))
  refine ⟨out, h1, ?_⟩
  rw [h2 1 (1, 0) (3, 1) (by unfold Valid2; decide) (by unfold InBlock2; decide)]
  decide

/-- Two ranks which both send first: without buffering nothing can happen and nobody has returned, so no result is computed. -/
theorem crossing_sends_hang (w out : Bool → ℕ) :
    ¬ Computes false [false, true] (fun r : Bool => [Ins.send (!r) (fun s : ℕ => s), Ins.recv (!r) (fun v _ => v)]) w out := by
  intro h
  obtain ⟨h1, -⟩ := h.2 0 _ (PRun.refl _)
  obtain ⟨C', hs⟩ := h1 (by intro hd; simpa [BConf.start] using hd false (by simp))
  cases hs with
  | loc a f rest ha hp => simp [BConf.start] at hp
  | sendBuffered a b val rest hb => simp at hb
  | rendezvous a b val put ra rb ha hb hab hp hq => simp [BConf.start] at hq
  | recvBuffered a b put rest v vs hb hq hc => simp [BConf.start] at hc
  | coll f rest hne hp => have := hp false (by simp); simp [BConf.start] at this

end Lag
end Sopht
