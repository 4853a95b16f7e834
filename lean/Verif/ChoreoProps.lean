import Verif.Choreo
import Mathlib.Data.List.Pairwise
import Mathlib.Algebra.BigOperators.Group.List.Basic
import Mathlib.Tactic.Linarith

/-!
# Programs cut from one global sequence of messages

If the programs of the ranks are the parts of one global sequence of messages, local steps and collectives (each rank doing its part of every
item, in the order of the sequence), no execution gets stuck and all end in the state of the sequence executed item by item.
-/

namespace Sopht

variable {R S M : Type} [DecidableEq R]

/-- An item of a global sequence; `half` is a message which was copied away and not yet received. -/
inductive Item (R S M : Type) where
  | loc (r : R) (f : S → S)
  | msg (s d : R) (val : S → M) (put : M → S → S)
  | half (s d : R) (v : M) (put : M → S → S)
  | coll (f : R → (R → S) → S)

/-- The part of rank `r`. -/
def Item.ins (r : R) : Item R S M → List (Ins R S M)
  | .loc r' f => if r = r' then [.loc f] else []
  | .msg s d val put => if r = s then [.send d val] else if r = d then [.recv s put] else []
  | .half s d _ put => if r = d then [.recv s put] else []
  | .coll f => [.coll (f r)]

/-- The program of rank `r`. -/
def proj (r : R) (L : List (Item R S M)) : List (Ins R S M) := L.flatMap (Item.ins r)

/-- One item executed at once. -/
def Item.run (ranks : List R) (w : R → S) : Item R S M → R → S
  | .loc r f => Function.update w r (f (w r))
  | .msg s d val put => Function.update w d (put (val (w s)) (w d))
  | .half _ d v put => Function.update w d (put v (w d))
  | .coll f => fun r => if r ∈ ranks then f r w else w r

/-- The sequence executed item by item. -/
def execAll (ranks : List R) (L : List (Item R S M)) (w : R → S) : R → S := L.foldl (Item.run ranks) w

/-- Only ranks of the communicator, no message to oneself. -/
def Item.Wf (ranks : List R) : Item R S M → Prop
  | .loc r _ => r ∈ ranks
  | .msg s d _ _ => s ∈ ranks ∧ d ∈ ranks ∧ s ≠ d
  | .half s d _ _ => s ∈ ranks ∧ d ∈ ranks ∧ s ≠ d
  | .coll _ => ranks ≠ []

def Item.flying (a b : R) : Item R S M → Option M
  | .half s d v _ => if s = a ∧ d = b then some v else none
  | _ => none

/-- source of a message in flight -/
def Item.src : Item R S M → Option R
  | .half s _ _ _ => some s
  | _ => none

def inflight (a b : R) (L : List (Item R S M)) : List M := L.filterMap (Item.flying a b)

/-- Items before a message in flight do not concern its sender. -/
def Ordered (L : List (Item R S M)) : Prop := L.Pairwise fun i j => ∀ s, j.src = some s → i.ins s = []

/-- number of calls left -/
def Item.weight : Item R S M → ℕ
  | .msg _ _ _ _ => 2
  | _ => 1

theorem proj_append (r : R) (L L' : List (Item R S M)) : proj r (L ++ L') = proj r L ++ proj r L' := by simp [proj]

theorem proj_cons (r : R) (x : Item R S M) (L : List (Item R S M)) : proj r (x :: L) = x.ins r ++ proj r L := by simp [proj]

theorem proj_nil_of (r : R) (L : List (Item R S M)) (h : ∀ y ∈ L, y.ins r = []) : proj r L = [] := by
  simpa [proj] using h

theorem inflight_append (a b : R) (L L' : List (Item R S M)) : inflight a b (L ++ L') = inflight a b L ++ inflight a b L' := by
  simp [inflight]

theorem inflight_cons (a b : R) (x : Item R S M) (L : List (Item R S M)) :
    inflight a b (x :: L) = (x.flying a b).toList ++ inflight a b L := by
  unfold inflight
  rw [List.filterMap_cons]
  cases x.flying a b <;> rfl

theorem Item.ins_length (r : R) (x : Item R S M) : (x.ins r).length ≤ 1 := by
  cases x <;> simp only [Item.ins] <;> (try split_ifs) <;> simp

/-- the first item which concerns rank `r` -/
theorem proj_split {r : R} {i : Ins R S M} {rest : List (Ins R S M)} : ∀ {L : List (Item R S M)}, proj r L = i :: rest →
    ∃ pre x post, L = pre ++ x :: post ∧ (∀ y ∈ pre, y.ins r = []) ∧ x.ins r = [i] ∧ proj r post = rest
  | [], h => by simp [proj] at h
  | x :: L, h => by
    rw [proj_cons] at h
    by_cases hx : x.ins r = []
    · rw [hx, List.nil_append] at h
      obtain ⟨pre, y, post, h1, h2, h3, h4⟩ := proj_split h
      refine ⟨x :: pre, y, post, by rw [h1]; rfl, ?_, h3, h4⟩
      intro z hz
      rcases List.mem_cons.1 hz with rfl | hz
      · exact hx
      · exact h2 z hz
    · refine ⟨[], x, L, rfl, by simp, ?_⟩
      have hl := Item.ins_length r x
      match hxi : x.ins r with
      | [] => exact absurd hxi hx
      | [j] =>
        rw [hxi] at h
        simp only [List.cons_append, List.nil_append, List.cons.injEq] at h
        exact ⟨by rw [h.1], h.2⟩
      | _ :: _ :: _ => rw [hxi] at hl; simp at hl

theorem Item.run_other {ranks : List R} {x : Item R S M} {r : R} (h : x.ins r = []) (w : R → S) : x.run ranks w r = w r := by
  cases x with
  | loc r' f =>
    simp only [Item.ins] at h
    split_ifs at h with h1
    simp only [Item.run]; rw [Function.update_of_ne h1]
  | msg s d val put =>
    simp only [Item.ins] at h
    split_ifs at h with h1 h2
    simp only [Item.run]; rw [Function.update_of_ne h2]
  | half s d v put =>
    simp only [Item.ins] at h
    split_ifs at h with h1
    simp only [Item.run]; rw [Function.update_of_ne h1]
  | coll f => simp [Item.ins] at h

theorem Item.run_update {ranks : List R} {x : Item R S M} {r : R} (h : x.ins r = []) (w : R → S) (v : S) :
    x.run ranks (Function.update w r v) = Function.update (x.run ranks w) r v := by
  cases x with
  | loc r' f =>
    simp only [Item.ins] at h
    split_ifs at h with h1
    simp only [Item.run]
    rw [Function.update_of_ne (Ne.symm h1), Function.update_comm h1]
  | msg s d val put =>
    simp only [Item.ins] at h
    split_ifs at h with h1 h2
    simp only [Item.run]
    rw [Function.update_of_ne (Ne.symm h1), Function.update_of_ne (Ne.symm h2), Function.update_comm h2]
  | half s d u put =>
    simp only [Item.ins] at h
    split_ifs at h with h1
    simp only [Item.run]
    rw [Function.update_of_ne (Ne.symm h1), Function.update_comm h1]
  | coll f => simp [Item.ins] at h

theorem execAll_cons (ranks : List R) (x : Item R S M) (L : List (Item R S M)) (w : R → S) :
    execAll ranks (x :: L) w = execAll ranks L (x.run ranks w) := rfl

theorem execAll_append (ranks : List R) (L L' : List (Item R S M)) (w : R → S) :
    execAll ranks (L ++ L') w = execAll ranks L' (execAll ranks L w) := by simp [execAll]

theorem execAll_other {ranks : List R} {r : R} : ∀ {L : List (Item R S M)} (_ : ∀ y ∈ L, y.ins r = []) (w : R → S), execAll ranks L w r = w r
  | [], _, _ => rfl
  | x :: L, h, w => by
    rw [execAll_cons, execAll_other (fun y hy => h y (List.mem_cons_of_mem _ hy)), Item.run_other (h x List.mem_cons_self)]

theorem execAll_update {ranks : List R} {r : R} : ∀ {L : List (Item R S M)} (_ : ∀ y ∈ L, y.ins r = []) (w : R → S) (v : S),
    execAll ranks L (Function.update w r v) = Function.update (execAll ranks L w) r v
  | [], _, _, _ => rfl
  | x :: L, h, w, v => by
    rw [execAll_cons, Item.run_update (h x List.mem_cons_self), execAll_update (fun y hy => h y (List.mem_cons_of_mem _ hy)), execAll_cons]

/-- `C` is what is left of a global sequence ending in `out`. -/
structure Cut (ranks : List R) (out : R → S) (L : List (Item R S M)) (C : BConf R S M) : Prop where
  prog : ∀ r ∈ ranks, C.prog r = proj r L
  chan : ∀ a b, C.chan a b = inflight a b L
  wf : ∀ x ∈ L, x.Wf ranks
  ord : Ordered L
  out : execAll ranks L C.st = out

def totalWeight (L : List (Item R S M)) : ℕ := (L.map Item.weight).sum

theorem Ordered.remove {pre post : List (Item R S M)} {x : Item R S M} (h : Ordered (pre ++ x :: post)) : Ordered (pre ++ post) :=
  List.Pairwise.sublist (List.Sublist.append_left (List.sublist_cons_self x post) pre) h

theorem Ordered.half_before {pre post : List (Item R S M)} {x y : Item R S M} {s : R} (h : Ordered (pre ++ x :: post)) (hy : y ∈ post)
    (hs : y.src = some s) : x.ins s = [] := by
  have := (List.pairwise_append.1 h).2.1
  exact (List.pairwise_cons.1 this).1 y hy s hs

theorem Ordered.pre_before {pre post : List (Item R S M)} {x y : Item R S M} {s : R} (h : Ordered (pre ++ x :: post)) (hy : y ∈ pre)
    (hs : x.src = some s) : y.ins s = [] :=
  (List.pairwise_append.1 h).2.2 y hy x List.mem_cons_self s hs

theorem wf_remove {ranks : List R} {pre post : List (Item R S M)} {x : Item R S M} (h : ∀ y ∈ pre ++ x :: post, y.Wf ranks) :
    ∀ y ∈ pre ++ post, y.Wf ranks := by
  intro y hy
  apply h
  rcases List.mem_append.1 hy with hy | hy
  · exact List.mem_append_left _ hy
  · exact List.mem_append_right _ (List.mem_cons_of_mem _ hy)

theorem Item.flying_src {a b : R} {x : Item R S M} {v : M} (h : x.flying a b = some v) : x.src = some a := by
  match x, h with
  | .half s d u put, h =>
    simp only [Item.flying] at h
    split_ifs at h with h1
    rw [Item.src, h1.1]

theorem inflight_nil_of {a b : R} {L : List (Item R S M)} (h : ∀ y ∈ L, y.src ≠ some a) : inflight a b L = [] := by
  rw [inflight, List.filterMap_eq_nil_iff]
  intro y hy
  match hf : y.flying a b with
  | none => rfl
  | some v => exact absurd (Item.flying_src hf) (h y hy)

/-- after an item which concerns `a` there is no message in flight from `a` -/
theorem Ordered.inflight_post {pre post : List (Item R S M)} {x : Item R S M} {a b : R} (h : Ordered (pre ++ x :: post)) (hx : x.ins a ≠ []) :
    inflight a b post = [] :=
  inflight_nil_of fun _ hy hs => hx (h.half_before hy hs)

/-- an item which only concerns one rank, `a`, is the first for it: doing it now is the same -/
theorem execAll_take {ranks : List R} {pre post : List (Item R S M)} {x : Item R S M} {a : R} {f : S → S} (hpre : ∀ y ∈ pre, y.ins a = [])
    (hx : ∀ w : R → S, x.run ranks w = Function.update w a (f (w a))) (w : R → S) :
    execAll ranks (pre ++ x :: post) w = execAll ranks (pre ++ post) (Function.update w a (f (w a))) := by
  rw [execAll_append, execAll_append, execAll_cons, hx, execAll_update hpre, execAll_other hpre]

theorem Cut.step {ranks : List R} {buffered : Bool} {out : R → S} {L : List (Item R S M)} {C C' : BConf R S M} (h : Cut ranks out L C)
    (hs : PStep buffered ranks C C') : ∃ L', Cut ranks out L' C' ∧ totalWeight L' < totalWeight L := by
  cases hs with
  | loc a f rest ha hp =>
    rw [h.prog a ha] at hp
    obtain ⟨pre, x, post, rfl, h2, h3, h4⟩ := proj_split hp
    have hx : x = .loc a f := by
      cases x with
      | loc r' f' =>
        simp only [Item.ins] at h3
        split_ifs at h3 with e
        simp only [List.cons.injEq, Ins.loc.injEq, and_true] at h3
        rw [e, h3]
      | msg s d val put => simp only [Item.ins] at h3; split_ifs at h3 <;> simp at h3
      | half s d v put => simp only [Item.ins] at h3; split_ifs at h3; simp at h3
      | coll f' => simp [Item.ins] at h3
    subst hx
    refine ⟨pre ++ post, ⟨?_, ?_, wf_remove h.wf, h.ord.remove, ?_⟩, ?_⟩
    · intro r hr
      by_cases e : r = a
      · subst e
        simp only [Function.update_self]
        rw [proj_append, proj_nil_of _ _ h2, h4]; rfl
      · simp only [Function.update_of_ne e]
        rw [h.prog r hr, proj_append, proj_append, proj_cons]
        simp [Item.ins, e]
    · intro p q
      rw [h.chan, inflight_append, inflight_append, inflight_cons]
      simp [Item.flying]
    · rw [← h.out]
      exact (execAll_take h2 (fun _ => rfl) _).symm
    · simp [totalWeight, Item.weight]
  | sendBuffered a b val rest hb ha hp =>
    rw [h.prog a ha] at hp
    obtain ⟨pre, x, post, rfl, h2, h3, h4⟩ := proj_split hp
    have hx : ∃ put, x = .msg a b val put := by
      cases x with
      | loc r' f' => simp only [Item.ins] at h3; split_ifs at h3; simp at h3
      | msg s d val' put =>
        simp only [Item.ins] at h3
        split_ifs at h3 with e e2
        · simp only [List.cons.injEq, Ins.send.injEq, and_true] at h3
          exact ⟨put, by rw [e, h3.1, h3.2]⟩
        · simp at h3
      | half s d v put => simp only [Item.ins] at h3; split_ifs at h3; simp at h3
      | coll f' => simp [Item.ins] at h3
    obtain ⟨put, rfl⟩ := hx
    have hw := h.wf (.msg a b val put) (by simp)
    obtain ⟨w1, w2, w3⟩ := hw
    refine ⟨pre ++ .half a b (val (C.st a)) put :: post, ⟨?_, ?_, ?_, ?_, ?_⟩, ?_⟩
    · intro r hr
      by_cases e : r = a
      · subst e
        simp only [Function.update_self]
        rw [proj_append, proj_cons, proj_nil_of _ _ h2, h4]
        simp [Item.ins, w3]
      · simp only [Function.update_of_ne e]
        rw [h.prog r hr, proj_append, proj_append, proj_cons, proj_cons]
        simp [Item.ins, e]
    · intro p q
      by_cases e : p = a
      · subst e
        by_cases e2 : q = b
        · subst e2
          simp only [Function.update_self]
          rw [h.chan, inflight_append, inflight_append]
          have := h.ord.inflight_post (a := p) (b := q) (by simp [Item.ins])
          rw [inflight_cons, inflight_cons, this]
          simp [Item.flying]
        · simp only [Function.update_self, Function.update_of_ne e2]
          rw [h.chan, inflight_append, inflight_append]
          simp [inflight_cons, Item.flying, Ne.symm e2]
      · simp only [Function.update_of_ne e]
        rw [h.chan, inflight_append, inflight_append]
        simp [inflight_cons, Item.flying, Ne.symm e]
    · intro y hy
      rcases List.mem_append.1 hy with hy | hy
      · exact h.wf y (List.mem_append_left _ hy)
      · rcases List.mem_cons.1 hy with rfl | hy
        · exact ⟨w1, w2, w3⟩
        · exact h.wf y (List.mem_append_right _ (List.mem_cons_of_mem _ hy))
    · have ho := h.ord
      unfold Ordered at ho ⊢
      rw [List.pairwise_append] at ho ⊢
      obtain ⟨o1, o2, o3⟩ := ho
      rw [List.pairwise_cons] at o2 ⊢
      refine ⟨o1, ⟨?_, o2.2⟩, ?_⟩
      · intro y hy s hs
        have := o2.1 y hy s hs
        simp only [Item.ins] at this ⊢
        split_ifs at this with e1 e2
        rw [if_neg e2]
      · intro y hy z hz s hs
        rcases List.mem_cons.1 hz with rfl | hz
        · simp only [Item.src, Option.some.injEq] at hs
          subst hs; exact h2 y hy
        · exact o3 y hy z (List.mem_cons_of_mem _ hz) s hs
    · rw [← h.out, execAll_append, execAll_append, execAll_cons, execAll_cons]
      simp only [Item.run]
      rw [execAll_other h2]
    · simp [totalWeight, Item.weight]
  | rendezvous a b val put ra rb ha hb hab hp hq hc =>
    rw [h.prog a ha] at hp
    obtain ⟨pre, x, post, rfl, h2, h3, h4⟩ := proj_split hp
    have hx : ∃ put', x = .msg a b val put' := by
      cases x with
      | loc r' f' => simp only [Item.ins] at h3; split_ifs at h3; simp at h3
      | msg s d val' put =>
        simp only [Item.ins] at h3
        split_ifs at h3 with e e2
        · simp only [List.cons.injEq, Ins.send.injEq, and_true] at h3
          exact ⟨put, by rw [e, h3.1, h3.2]⟩
        · simp at h3
      | half s d v put => simp only [Item.ins] at h3; split_ifs at h3; simp at h3
      | coll f' => simp [Item.ins] at h3
    obtain ⟨put', rfl⟩ := hx
    -- what `b` does first is this message: everything before does not concern `a`, and nothing is in flight from `a` to `b`
    have hpre : ∀ y ∈ pre, y.ins b = [] := by
      by_contra hcon
      push Not at hcon
      have hb' := h.prog b hb
      rw [hq] at hb'
      obtain ⟨pre', x', post', e1, e2, e3, e4⟩ := proj_split hb'.symm
      -- x' lies in pre
      have hx' : x' ∈ pre := by
        rcases List.append_eq_append_iff.1 e1 with ⟨l, hl1, hl2⟩ | ⟨l, hl1, hl2⟩
        · exfalso
          obtain ⟨y, hy, hy2⟩ := hcon
          exact hy2 (e2 y (by rw [hl1]; exact List.mem_append_left _ hy))
        · cases l with
          | nil =>
            exfalso
            obtain ⟨y, hy, hy2⟩ := hcon
            rw [List.append_nil] at hl1
            exact hy2 (e2 y (hl1 ▸ hy))
          | cons z l =>
            simp only [List.cons_append, List.cons.injEq] at hl2
            rw [hl1, hl2.1]; simp
      have ha' := h2 x' hx'
      cases x' with
      | loc r' f' => simp only [Item.ins] at e3; split_ifs at e3; simp at e3
      | msg s d val' put2 =>
        simp only [Item.ins] at e3 ha'
        split_ifs at e3 with c1 c2
        · simp at e3
        · simp only [List.cons.injEq, Ins.recv.injEq, and_true] at e3
          rw [e3.1] at ha'
          simp at ha'
      | half s d v put2 =>
        simp only [Item.ins] at e3
        split_ifs at e3 with c1
        simp only [List.cons.injEq, Ins.recv.injEq, and_true] at e3
        rw [h.chan] at hc
        unfold inflight at hc
        rw [List.filterMap_eq_nil_iff] at hc
        have := hc (.half s d v put2) (List.mem_append_left _ hx')
        rw [c1, e3.1] at this
        simp [Item.flying] at this
      | coll f' => simp [Item.ins] at e3
    have hqb := h.prog b hb
    rw [hq, proj_append, proj_nil_of _ _ hpre, proj_cons] at hqb
    simp only [Item.ins, if_neg (Ne.symm hab), if_true, List.nil_append, List.cons_append, List.cons.injEq, Ins.recv.injEq, true_and] at hqb
    obtain ⟨rfl, rfl⟩ := hqb
    refine ⟨pre ++ post, ⟨?_, ?_, wf_remove h.wf, h.ord.remove, ?_⟩, ?_⟩
    · intro r hr
      by_cases e : r = b
      · subst e
        simp only [Function.update_self]
        rw [proj_append, proj_nil_of _ _ hpre]; rfl
      · simp only [Function.update_of_ne e]
        by_cases e2 : r = a
        · subst e2
          simp only [Function.update_self]
          rw [proj_append, proj_nil_of _ _ h2, h4]; rfl
        · simp only [Function.update_of_ne e2]
          rw [h.prog r hr, proj_append, proj_append, proj_cons]
          simp [Item.ins, e, e2]
    · intro p q
      rw [h.chan, inflight_append, inflight_append, inflight_cons]
      simp [Item.flying]
    · rw [← h.out, execAll_append, execAll_append, execAll_cons]
      simp only [Item.run]
      rw [execAll_update hpre, execAll_other hpre, execAll_other h2]
    · simp [totalWeight, Item.weight]
  | recvBuffered a b put rest v vs hb hq hc =>
    rw [h.prog b hb] at hq
    obtain ⟨pre, x, post, rfl, h2, h3, h4⟩ := proj_split hq
    have hno : inflight a b pre = [] := by
      rw [inflight, List.filterMap_eq_nil_iff]
      intro y hy
      match hf : y.flying a b with
      | none => rfl
      | some u =>
        have := h2 y hy
        match y, hf, this with
        | .half s d u' put', hf, this =>
          simp only [Item.flying] at hf
          split_ifs at hf with c1
          rw [Item.ins, if_pos c1.2.symm] at this
          simp at this
    have hx : ∃ u, x = .half a b u put := by
      cases x with
      | loc r' f' => simp only [Item.ins] at h3; split_ifs at h3; simp at h3
      | msg s d val' put2 =>
        exfalso
        simp only [Item.ins] at h3
        split_ifs at h3 with c1 c2
        · simp at h3
        · simp only [List.cons.injEq, Ins.recv.injEq, and_true] at h3
          have hp := h.ord.inflight_post (a := a) (b := b) (by rw [← h3.1]; simp [Item.ins])
          rw [h.chan, inflight_append, hno] at hc
          rw [inflight_cons, hp] at hc
          simp [Item.flying] at hc
      | half s d u put2 =>
        simp only [Item.ins] at h3
        split_ifs at h3 with c1
        simp only [List.cons.injEq, Ins.recv.injEq, and_true] at h3
        exact ⟨u, by rw [c1, h3.1, h3.2]⟩
      | coll f' => simp [Item.ins] at h3
    obtain ⟨u, rfl⟩ := hx
    have hc' := h.chan a b
    rw [hc, inflight_append, hno] at hc'
    have e5 : u = v ∧ inflight a b post = vs := by
      rw [inflight_cons] at hc'
      simp only [Item.flying, and_self, if_true, List.nil_append, Option.toList_some, List.cons_append, List.cons.injEq] at hc'
      exact ⟨hc'.1.symm, hc'.2.symm⟩
    obtain ⟨rfl, e6⟩ := e5
    refine ⟨pre ++ post, ⟨?_, ?_, wf_remove h.wf, h.ord.remove, ?_⟩, ?_⟩
    · intro r hr
      by_cases e : r = b
      · subst e
        simp only [Function.update_self]
        rw [proj_append, proj_nil_of _ _ h2, h4]; rfl
      · simp only [Function.update_of_ne e]
        rw [h.prog r hr, proj_append, proj_append, proj_cons]
        simp [Item.ins, e]
    · intro p q
      by_cases e : p = a
      · subst e
        by_cases e2 : q = b
        · subst e2
          simp only [Function.update_self]
          rw [inflight_append, hno, e6]; rfl
        · simp only [Function.update_self, Function.update_of_ne e2]
          rw [h.chan, inflight_append, inflight_append]
          simp [inflight_cons, Item.flying, Ne.symm e2]
      · simp only [Function.update_of_ne e]
        rw [h.chan, inflight_append, inflight_append]
        simp [inflight_cons, Item.flying, Ne.symm e]
    · rw [← h.out]
      exact (execAll_take (f := put u) h2 (fun _ => rfl) _).symm
    · simp [totalWeight, Item.weight]
  | coll f rest hne hp =>
    match L, h with
    | [], h =>
      obtain ⟨r, hr⟩ := List.exists_mem_of_ne_nil _ hne
      have := hp r hr
      rw [h.prog r hr] at this
      simp [proj] at this
    | x :: L, h =>
      have hx : ∃ f', x = .coll f' := by
        have hw := h.wf x List.mem_cons_self
        cases x with
        | loc r' f' =>
          have := hp r' hw
          rw [h.prog _ hw, proj_cons] at this
          simp [Item.ins] at this
        | msg s d val' put2 =>
          have := hp s hw.1
          rw [h.prog _ hw.1, proj_cons] at this
          simp [Item.ins] at this
        | half s d u put2 =>
          have := hp d hw.2.1
          rw [h.prog _ hw.2.1, proj_cons] at this
          simp [Item.ins] at this
        | coll f' => exact ⟨f', rfl⟩
      obtain ⟨f', rfl⟩ := hx
      have hf : ∀ r ∈ ranks, f' r = f r ∧ proj r L = rest r := by
        intro r hr
        have := hp r hr
        rw [h.prog r hr, proj_cons] at this
        simpa [Item.ins] using this
      refine ⟨L, ⟨?_, ?_, fun y hy => h.wf y (List.mem_cons_of_mem _ hy), (List.pairwise_cons.1 h.ord).2, ?_⟩, ?_⟩
      · intro r hr
        simp only [hr, if_true]
        exact (hf r hr).2.symm
      · intro p q
        rw [h.chan, inflight_cons]
        simp [Item.flying]
      · rw [← h.out, execAll_cons]
        congr 1
        funext r
        simp only [Item.run]
        split_ifs with hr
        · rw [(hf r hr).1]
        · rfl
      · simp [totalWeight, Item.weight]

theorem Cut.progress {ranks : List R} {buffered : Bool} {out : R → S} {L : List (Item R S M)} {C : BConf R S M} (h : Cut ranks out L C)
    (hn : ¬ C.Done ranks) : ∃ C', PStep buffered ranks C C' := by
  match L, h with
  | [], h => exact absurd (fun r hr => by rw [h.prog r hr]; rfl) hn
  | x :: L, h =>
    have hw := h.wf x List.mem_cons_self
    have hp : ∀ r ∈ ranks, C.prog r = x.ins r ++ proj r L := fun r hr => by rw [h.prog r hr, proj_cons]
    cases x with
    | loc r f => exact ⟨_, .loc C r f (proj r L) hw (by rw [hp r hw]; simp [Item.ins])⟩
    | msg s d val put =>
      refine ⟨_, .rendezvous C s d val put (proj s L) (proj d L) hw.1 hw.2.1 hw.2.2 (by rw [hp s hw.1]; simp [Item.ins])
        (by rw [hp d hw.2.1]; simp [Item.ins, hw.2.2.symm]) ?_⟩
      have hp := Ordered.inflight_post (pre := []) (a := s) (b := d) h.ord (by simp [Item.ins])
      rw [h.chan, inflight_cons, hp]
      simp [Item.flying]
    | half s d v put =>
      refine ⟨_, .recvBuffered C s d put (proj d L) v (inflight s d L) hw.2.1 (by rw [hp d hw.2.1]; simp [Item.ins]) ?_⟩
      rw [h.chan, inflight_cons]
      simp [Item.flying]
    | coll f => exact ⟨_, .coll C f (fun r => proj r L) hw (fun r hr => by rw [hp r hr]; simp [Item.ins])⟩

theorem Cut.done {ranks : List R} {out : R → S} {L : List (Item R S M)} {C : BConf R S M} (h : Cut ranks out L C) (hd : C.Done ranks) :
    C.st = out ∧ ∀ a b, C.chan a b = [] := by
  match L, h with
  | [], h => exact ⟨h.out, fun a b => by rw [h.chan]; rfl⟩
  | x :: L, h =>
    exfalso
    have hw := h.wf x List.mem_cons_self
    have hp : ∀ r ∈ ranks, x.ins r = [] := fun r hr => by
      have := h.prog r hr
      rw [hd r hr, proj_cons] at this
      exact (List.append_eq_nil_iff.1 this.symm).1
    cases x with
    | loc r f => have := hp r hw; simp [Item.ins] at this
    | msg s d val put => have := hp s hw.1; simp [Item.ins] at this
    | half s d v put => have := hp d hw.2.1; simp [Item.ins] at this
    | coll f =>
      obtain ⟨r, hr⟩ := List.exists_mem_of_ne_nil _ hw
      have := hp r hr
      simp [Item.ins] at this

/-- A sequence without messages in flight. -/
def Fresh (L : List (Item R S M)) : Prop := ∀ x ∈ L, x.src = none

theorem Fresh.ordered {L : List (Item R S M)} (h : Fresh L) : Ordered L := by
  unfold Ordered
  rw [List.pairwise_iff_forall_sublist]
  intro a b hab s hs
  have hb : b ∈ L := hab.subset (by simp)
  rw [h b hb] at hs
  exact absurd hs (by simp)

/-- Programs which are the parts of one global sequence compute what the sequence computes, under every schedule. -/
theorem computes_of_sequence {ranks : List R} (buffered : Bool) (L : List (Item R S M)) (hwf : ∀ x ∈ L, x.Wf ranks) (hfr : Fresh L)
    (prog : R → List (Ins R S M)) (hprog : ∀ r ∈ ranks, prog r = proj r L) (w : R → S) :
    Computes buffered ranks prog w (execAll ranks L w) := by
  have h0 : Cut ranks (execAll ranks L w) L (BConf.start prog w) := by
    refine ⟨hprog, fun a b => ?_, hwf, hfr.ordered, rfl⟩
    exact (inflight_nil_of fun y hy => by rw [hfr y hy]; simp).symm
  have hrun : ∀ n C, PRun buffered ranks n (BConf.start prog w) C → ∃ L', Cut ranks (execAll ranks L w) L' C ∧ totalWeight L' + n ≤ totalWeight L := by
    intro n C hC
    generalize hB : BConf.start prog w = B at hC
    induction hC with
    | refl => subst hB; exact ⟨L, h0, by omega⟩
    | tail _ s ih =>
      obtain ⟨L', i1, i2⟩ := ih hB
      obtain ⟨L'', j1, j2⟩ := i1.step s
      exact ⟨L'', j1, by omega⟩
  refine ⟨⟨totalWeight L, fun n C hC => ?_⟩, fun n C hC => ?_⟩
  · obtain ⟨L', _, h2⟩ := hrun n C hC; omega
  · obtain ⟨L', h1, _⟩ := hrun n C hC
    refine ⟨h1.progress, fun hd => ?_⟩
    have := h1.done hd
    exact ⟨fun r _ => by rw [this.1], this.2⟩

end Sopht
