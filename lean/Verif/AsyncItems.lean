import Verif.AsyncDyn
import Verif.CommProgsProps

/-!
# Blocking calls among ranks running at their own speed

A blocking `Send` is an `Isend` followed by waiting for it, a blocking `Recv` an `Irecv` followed by waiting for it; a rank which does one of these has no other requests open.
Programs of blocking calls which are the parts of one global sequence of messages (`Verif.ChoreoProps`) are then sequences of layers of one message each.
-/

namespace Sopht

variable {R S M : Type} [DecidableEq R]

/-- A blocking call as non-blocking calls (collective calls are modelled by `collLayer`). -/
def Ins.async : Ins R S M → List (AIns R S M)
  | .loc f => [.loc f]
  | .send d val => [.isend d val, .waitall]
  | .recv s put => [.irecv s put, .waitall]
  | .coll _ => []

/-- A program of blocking calls as non-blocking calls. -/
def asyncProg (l : List (Ins R S M)) : List (AIns R S M) := l.flatMap Ins.async

/-- A local step or a message between two different ranks. -/
def Item.Plain (ranks : List R) : Item R S M → Prop
  | .loc r _ => r ∈ ranks
  | .msg s d _ _ => s ∈ ranks ∧ d ∈ ranks ∧ s ≠ d
  | .half _ _ _ _ => False
  | .coll _ => False

/-- What the ranks do in one item of a sequence. -/
def itemLayer (x : Item R S M) (r : R) : List (AIns R S M) := asyncProg (x.ins r)

theorem asyncProg_append (l m : List (Ins R S M)) : asyncProg (l ++ m) = asyncProg l ++ asyncProg m := by simp [asyncProg]

theorem layersProg_items (L : List (Item R S M)) (r : R) : layersProg (L.map itemLayer) r = asyncProg (proj r L) := by
  induction L with
  | nil => rfl
  | cons x L ih => rw [proj_cons, asyncProg_append, ← ih]; rfl

theorem itemLayer_msg {s d : R} {val : S → M} {put : M → S → S} (r : R) :
    itemLayer (.msg s d val put) r = if r = s then [.isend d val, .waitall] else if r = d then [.irecv s put, .waitall] else [] := by
  change asyncProg (if r = s then [.send d val] else if r = d then [.recv s put] else []) = _
  split
  · rfl
  · split <;> rfl

theorem itemLayer_loc {r' : R} {f : S → S} (r : R) : itemLayer (.loc r' f : Item R S M) r = if r = r' then [.loc f] else [] := by
  change asyncProg (if r = r' then [.loc f] else []) = _
  split <;> rfl

theorem itemLayer_piece {ranks : List R} {x : Item R S M} (h : x.Plain ranks) : Piece ranks (itemLayer x) := by
  cases x with
  | half => exact h.elim
  | coll => exact h.elim
  | loc r' f =>
    have hr : r' ∈ ranks := h
    refine ⟨⟨?_, ?_⟩, ?_, ?_, ?_⟩
    · intro r; left; rw [itemLayer_loc]; split
      · intro x hx; exact ⟨_, List.mem_singleton.1 hx⟩
      · intro x hx; cases hx
    · intro s r; rw [itemLayer_loc, itemLayer_loc]; split <;> split <;> rfl
    · intro r; left; rw [itemLayer_loc]; split
      · intro x hx; exact ⟨_, List.mem_singleton.1 hx⟩
      · intro x hx; cases hx
    · intro a ha; rw [itemLayer_loc, if_neg]; rintro rfl; exact ha hr
    · intro a d rd hd; rw [itemLayer_loc] at hd; split at hd
      · simp at hd
      · cases hd
  | msg s d val put =>
    obtain ⟨hs, hd, hsd⟩ := h
    refine ⟨⟨?_, ?_⟩, ?_, ?_, ?_⟩
    · intro r; rw [itemLayer_msg]; split
      · right; exact ⟨[_], [], rfl, by intro x hx; cases hx⟩
      · split
        · right; exact ⟨[_], [], rfl, by intro x hx; cases hx⟩
        · left; intro x hx; cases hx
    · intro a c
      rw [itemLayer_msg, itemLayer_msg]
      by_cases e1 : a = s <;> by_cases e2 : c = d
      · subst e1 e2; simp [nSends, nRecvs, Ne.symm hsd]
      · subst e1
        have e3 : d ≠ c := fun h => e2 h.symm
        by_cases e4 : c = a
        · subst e4; simp [nSends, nRecvs, e3]
        · simp [nSends, nRecvs, e2, e3, e4]
      · subst e2
        have e3 : s ≠ a := fun h => e1 h.symm
        by_cases e4 : a = c
        · subst e4; simp [nSends, nRecvs, e1, e3]
        · simp [nSends, nRecvs, e1, e3, e4, Ne.symm hsd]
      · have e3 : d ≠ c := fun h => e2 h.symm
        have e4 : s ≠ a := fun h => e1 h.symm
        rw [if_neg e1, if_neg e2]
        split <;> split <;> simp [nSends, nRecvs, e3, e4]
    · intro r; rw [itemLayer_msg]; split
      · right; exact ⟨[_], [], rfl, by simp, by intro x hx; cases hx⟩
      · split
        · right; exact ⟨[_], [], rfl, by simp, by intro x hx; cases hx⟩
        · left; intro x hx; cases hx
    · intro a ha; rw [itemLayer_msg, if_neg, if_neg]
      · rintro rfl; exact ha hd
      · rintro rfl; exact ha hs
    · intro a d' rd h'
      rw [itemLayer_msg] at h'
      split at h'
      · simp only [List.mem_cons, AIns.isend.injEq, reduceCtorEq, List.not_mem_nil, or_false] at h'
        rw [h'.1]; exact hd
      · split at h'
        · simp at h'
        · cases h'

/-- What holds while one message is sent and received. -/
structure MsgInv (w : R → S) (s d : R) (val : S → M) (put : M → S → S) (C : AConf R S M) : Prop where
  others : ∀ a, a ≠ s → a ≠ d → C.prog a = []
  st : ∀ a, a ≠ d → C.st a = w a
  out : ∀ x y, ¬ (x = s ∧ y = d) → C.out x y = []
  inn : ∀ x y, ¬ (x = s ∧ y = d) → C.inn x y = []
  phase : (C.st d = w d ∧
      ((C.prog s = [.isend d val, .waitall] ∧ C.out s d = []) ∨ (C.prog s = [.waitall] ∧ C.out s d = [.unread val]) ∨
        ((C.prog s = [.waitall] ∨ C.prog s = []) ∧ C.out s d = [.taken (val (w s))])) ∧
      ((C.prog d = [.irecv s put, .waitall] ∧ C.inn s d = []) ∨ (C.prog d = [.waitall] ∧ C.inn s d = [put]))) ∨
    (C.st d = put (val (w s)) (w d) ∧ C.out s d = [] ∧ C.inn s d = [] ∧ (C.prog s = [.waitall] ∨ C.prog s = []) ∧ (C.prog d = [.waitall] ∨ C.prog d = []))

theorem MsgInv.step {w : R → S} {s d : R} (hsd : s ≠ d) {val : S → M} {put : M → S → S} {b : Bool} {C C' : AConf R S M} (h : MsgInv w s d val put C) (st : AStep b C C') :
    MsgInv w s d val put C' := by
  obtain ⟨h1, h2, h3, h4, h5⟩ := h
  have hds : d ≠ s := fun e => hsd e.symm
  cases st with
  | loc a f rest hp =>
    exfalso
    by_cases e1 : a = s
    · subst e1
      rcases h5 with ⟨-, ⟨e, -⟩ | ⟨e, -⟩ | ⟨e | e, -⟩, -⟩ | ⟨-, -, -, e | e, -⟩ <;> rw [e] at hp <;> simp at hp
    · by_cases e2 : a = d
      · subst e2
        rcases h5 with ⟨-, -, ⟨e, -⟩ | ⟨e, -⟩⟩ | ⟨-, -, -, -, e | e⟩ <;> rw [e] at hp <;> simp at hp
      · rw [h1 a e1 e2] at hp; cases hp
  | isend a d' rd rest hp =>
    have e1 : a = s := by
      by_contra e1
      by_cases e2 : a = d
      · subst e2
        rcases h5 with ⟨-, -, ⟨e, -⟩ | ⟨e, -⟩⟩ | ⟨-, -, -, -, e | e⟩ <;> rw [e] at hp <;> simp at hp
      · rw [h1 a e1 e2] at hp; cases hp
    subst e1
    rcases h5 with ⟨g1, ⟨e, eo⟩ | ⟨e, -⟩ | ⟨e | e, -⟩, g3⟩ | ⟨-, -, -, e | e, -⟩ <;> rw [e] at hp <;> simp at hp
    obtain ⟨⟨rfl, rfl⟩, rfl⟩ := hp
    refine ⟨?_, h2, ?_, h4, Or.inl ⟨g1, Or.inr (Or.inl ⟨?_, ?_⟩), ?_⟩⟩
    · intro x hx hx'; dsimp only; rw [Function.update_of_ne hx]; exact h1 x hx hx'
    · intro x y hxy; dsimp only; rw [upd2_ne _ _ hxy]; exact h3 x y hxy
    · dsimp only; rw [Function.update_self]
    · dsimp only; rw [upd2_same, eo]; rfl
    · dsimp only; rw [Function.update_of_ne hds]; exact g3
  | irecv a s' wr rest hp =>
    have e1 : a = d := by
      by_contra e1
      by_cases e2 : a = s
      · subst e2
        rcases h5 with ⟨-, ⟨e, -⟩ | ⟨e, -⟩ | ⟨e | e, -⟩, -⟩ | ⟨-, -, -, e | e, -⟩ <;> rw [e] at hp <;> simp at hp
      · rw [h1 a e2 e1] at hp; cases hp
    subst e1
    rcases h5 with ⟨g1, g2, ⟨e, eo⟩ | ⟨e, -⟩⟩ | ⟨-, -, -, -, e | e⟩ <;> rw [e] at hp <;> simp at hp
    obtain ⟨⟨rfl, rfl⟩, rfl⟩ := hp
    refine ⟨?_, h2, h3, ?_, Or.inl ⟨g1, ?_, Or.inr ⟨?_, ?_⟩⟩⟩
    · intro x hx hx'; dsimp only; rw [Function.update_of_ne hx']; exact h1 x hx hx'
    · intro x y hxy; dsimp only; rw [upd2_ne _ _ hxy]; exact h4 x y hxy
    · dsimp only; rw [Function.update_of_ne hsd]; exact g2
    · dsimp only; rw [Function.update_self]
    · dsimp only; rw [upd2_same, eo]; rfl
  | waitall a rest hp hs hr =>
    by_cases e1 : a = s
    · subst e1
      refine ⟨?_, h2, h3, h4, ?_⟩
      · intro x hx hx'; dsimp only; rw [Function.update_of_ne hx]; exact h1 x hx hx'
      · dsimp only
        rw [Function.update_self, Function.update_of_ne hds]
        rcases h5 with ⟨g1, ⟨e, eo⟩ | ⟨e, eo⟩ | ⟨e | e, eo⟩, g3⟩ | ⟨g1, g2, g3, e | e, g4⟩ <;> rw [e] at hp <;> simp at hp
        · exfalso
          obtain ⟨v, hv⟩ := hs d (.unread val) (by rw [eo]; simp)
          cases hv
        · exact Or.inl ⟨g1, Or.inr (Or.inr ⟨Or.inr hp, eo⟩), g3⟩
        · exact Or.inr ⟨g1, g2, g3, Or.inr hp, g4⟩
    · by_cases e2 : a = d
      · subst e2
        refine ⟨?_, h2, h3, h4, ?_⟩
        · intro x hx hx'; dsimp only; rw [Function.update_of_ne hx']; exact h1 x hx hx'
        · dsimp only
          rw [Function.update_self, Function.update_of_ne hsd]
          rcases h5 with ⟨g1, g2, ⟨e, eo⟩ | ⟨e, eo⟩⟩ | ⟨g1, g2, g3, g4, e | e⟩ <;> rw [e] at hp <;> simp at hp
          · exfalso
            rw [hr s] at eo
            cases eo
          · exact Or.inr ⟨g1, g2, g3, g4, Or.inr hp⟩
      · rw [h1 a e1 e2] at hp; cases hp
  | pick x y i rd hi hb =>
    have hxy : x = s ∧ y = d := by
      by_contra hc
      rw [h3 x y hc] at hi
      simp at hi
    obtain ⟨rfl, rfl⟩ := hxy
    rcases h5 with ⟨g1, ⟨e, eo⟩ | ⟨e, eo⟩ | ⟨e, eo⟩, g3⟩ | ⟨g1, g2, -⟩
    · rw [eo] at hi; simp at hi
    · have hi0 : i = 0 := by
        rw [eo] at hi
        cases i with
        | zero => rfl
        | succ i => simp at hi
      subst hi0
      rw [eo] at hi
      simp only [List.getElem?_cons_zero, Option.some.injEq, Slot.unread.injEq] at hi
      subst hi
      refine ⟨h1, h2, ?_, h4, Or.inl ⟨g1, Or.inr (Or.inr ⟨Or.inl e, ?_⟩), g3⟩⟩
      · intro x' y' hxy; dsimp only; rw [upd2_ne _ _ hxy]; exact h3 x' y' hxy
      · dsimp only; rw [upd2_same, eo, h2 x hsd]; rfl
    · rw [eo] at hi
      cases i <;> simp at hi
    · rw [g2] at hi; simp at hi
  | land x y i v wr hi hi' =>
    have hxy : x = s ∧ y = d := by
      by_contra hc
      rw [h3 x y hc] at hi
      simp at hi
    obtain ⟨rfl, rfl⟩ := hxy
    have hi0 : i = 0 ∧ C.out x y = [.taken v] := by
      rcases h5 with ⟨g1, ⟨e, eo⟩ | ⟨e, eo⟩ | ⟨e, eo⟩, g3⟩ | ⟨g1, g2, -⟩
      · rw [eo] at hi; simp at hi
      · rw [eo] at hi; cases i <;> simp at hi
      · rw [eo] at hi
        cases i with
        | zero => simp only [List.getElem?_cons_zero, Option.some.injEq, Slot.taken.injEq] at hi; exact ⟨rfl, by rw [eo, hi]⟩
        | succ i => simp at hi
      · rw [g2] at hi; simp at hi
    obtain ⟨rfl, eo⟩ := hi0
    rcases h5 with ⟨g1, ⟨e, eo'⟩ | ⟨e, eo'⟩ | ⟨e, eo'⟩, ⟨p, ei⟩ | ⟨p, ei⟩⟩ | ⟨g1, g2, -⟩
    · rw [ei] at hi'; simp at hi'
    · rw [eo'] at eo; cases eo
    · rw [ei] at hi'; simp at hi'
    · rw [eo'] at eo; cases eo
    · rw [ei] at hi'; simp at hi'
    · rw [eo'] at eo
      simp only [List.cons.injEq, Slot.taken.injEq, and_true] at eo
      rw [ei] at hi'
      simp only [List.getElem?_cons_zero, Option.some.injEq] at hi'
      subst eo hi'
      refine ⟨h1, ?_, ?_, ?_, Or.inr ⟨?_, ?_, ?_, e, Or.inl p⟩⟩
      · intro a ha; dsimp only; rw [Function.update_of_ne ha]; exact h2 a ha
      · intro x' y' hxy; dsimp only; rw [upd2_ne _ _ hxy]; exact h3 x' y' hxy
      · intro x' y' hxy; dsimp only; rw [upd2_ne _ _ hxy]; exact h4 x' y' hxy
      · dsimp only; rw [Function.update_self, g1]
      · dsimp only; rw [upd2_same, eo']; rfl
      · dsimp only; rw [upd2_same, ei]; rfl
    · rw [g2] at eo; cases eo

/-- **C85** One blocking message: the receiver ends up with what the sender had. -/
theorem itemLayer_exec {ranks : List R} {x : Item R S M} (hx : x.Plain ranks) {b : Bool} {w w' : R → S} (h : AExec b (itemLayer x) w w') : w' = x.run ranks w := by
  cases x with
  | half => exact hx.elim
  | coll => exact hx.elim
  | loc r f =>
    have e : (itemLayer (.loc r f) : R → List (AIns R S M)) = locLayer [r] fun _ => f := by
      funext c
      rw [itemLayer_loc]
      unfold locLayer
      simp only [List.mem_singleton]
    rw [e] at h
    obtain ⟨h1, h2⟩ := locLayer_exec h
    funext c
    by_cases e : c = r
    · subst e; rw [h1 c (by simp)]; simp [Item.run]
    · rw [h2 c (by simpa using e)]; simp [Item.run, Function.update_of_ne e]
  | msg s d val put =>
    obtain ⟨hs, hd, hsd⟩ := hx
    obtain ⟨n, C, hr, hdone, hst⟩ := h
    have key : ∀ {n : ℕ} {A C : AConf R S M}, ARun b n A C → MsgInv w s d val put A → MsgInv w s d val put C := by
      intro n A C hr
      induction hr with
      | refl => exact id
      | tail _ st ih => exact fun hA => (ih hA).step hsd st
    have hI := key hr ⟨fun a h1 h2 => by change itemLayer _ a = []; rw [itemLayer_msg, if_neg h1, if_neg h2], fun _ _ => rfl, fun _ _ _ => rfl, fun _ _ _ => rfl,
      Or.inl ⟨rfl, Or.inl ⟨by change itemLayer _ s = _; rw [itemLayer_msg, if_pos rfl], rfl⟩,
        Or.inl ⟨by change itemLayer _ d = _; rw [itemLayer_msg, if_neg (Ne.symm hsd), if_pos rfl], rfl⟩⟩⟩
    rw [← hst]
    funext a
    change C.st a = Function.update w d (put (val (w s)) (w d)) a
    by_cases e : a = d
    · subst e
      rw [Function.update_self]
      rcases hI.phase with ⟨-, -, ⟨e, -⟩ | ⟨e, -⟩⟩ | ⟨g, -⟩
      · rw [hdone] at e; cases e
      · rw [hdone] at e; cases e
      · exact g
    · rw [Function.update_of_ne e]; exact hI.st a e

theorem items_exec {ranks : List R} {L : List (Item R S M)} (hL : ∀ x ∈ L, x.Plain ranks) {b : Bool} {w w' : R → S} (h : ExecSeq b (L.map itemLayer) w w') :
    w' = execAll ranks L w := by
  induction L generalizing w with
  | nil => exact h
  | cons x L ih =>
    obtain ⟨w1, h1, h2⟩ := h
    have e := itemLayer_exec (hL x List.mem_cons_self) h1
    subst e
    exact ih (fun y hy => hL y (List.mem_cons_of_mem _ hy)) h2

/-- Neither message in flight nor collective call. -/
def Item.P2P : Item R S M → Prop
  | .loc _ _ => True
  | .msg _ _ _ _ => True
  | _ => False

omit [DecidableEq R] in
theorem plain_of {ranks : List R} {x : Item R S M} (h : x.Wf ranks) (h' : x.P2P) : x.Plain ranks := by
  cases x with
  | loc => exact h
  | msg => exact h
  | half => exact h'.elim
  | coll => exact h'.elim

end Sopht
