import Verif.AsyncItems

/-!
# Programs which work on a part of the state of a rank

A communicator, a forcing object and the flow simulator each work on their own part of what a rank holds, and send messages of their own kind.  Here a program for one part
becomes a program for the whole state.
-/

namespace Sopht

variable {R S A M N : Type}

/-- Messages of kind `M` among messages of kind `N`. -/
structure Emb (M N : Type) where
  inj : M → N
  out : N → M
  out_inj : ∀ m, out (inj m) = m

/-- All messages. -/
def Emb.all : Emb M M := ⟨fun m => m, fun m => m, fun _ => rfl⟩

/-- The whole state. -/
def Part.whole : Part S S := ⟨fun s => s, fun _ s => s, fun _ _ => rfl, fun _ => rfl, fun _ _ _ => rfl⟩

/-- A part of a part. -/
def Part.comp {B : Type} (L : Part S A) (K : Part A B) : Part S B :=
  ⟨fun s => K.get (L.get s), fun s b => L.put s (K.put (L.get s) b), fun s b => by rw [L.get_put, K.get_put], fun s => by rw [K.put_get, L.put_get],
    fun s b b' => by rw [L.get_put, L.put_put, K.put_put]⟩

/-- One instruction for the part `L` with messages of kind `e`. -/
def AIns.lift (L : Part S A) (e : Emb M N) : AIns R A M → AIns R S N
  | .loc f => .loc fun s => L.put s (f (L.get s))
  | .isend d rd => .isend d fun s => e.inj (rd (L.get s))
  | .irecv a wr => .irecv a fun v s => L.put s (wr (e.out v) (L.get s))
  | .waitall => .waitall

/-- A program for the part `L`. -/
def liftProg (L : Part S A) (e : Emb M N) (l : List (AIns R A M)) : List (AIns R S N) := l.map (AIns.lift L e)

/-- … of every rank. -/
def liftPiece (L : Part S A) (e : Emb M N) (P : R → List (AIns R A M)) (r : R) : List (AIns R S N) := liftProg L e (P r)

theorem liftProg_append (L : Part S A) (e : Emb M N) (l m : List (AIns R A M)) : liftProg L e (l ++ m) = liftProg L e l ++ liftProg L e m := List.map_append

theorem layersProg_lift (L : Part S A) (e : Emb M N) (Ps : List (R → List (AIns R A M))) (r : R) :
    layersProg (Ps.map (liftPiece L e)) r = liftProg L e (layersProg Ps r) := by
  unfold layersProg
  induction Ps with
  | nil => rfl
  | cons P Ps ih => rw [List.map_cons, List.flatMap_cons, ih, List.flatMap_cons, liftProg_append]; rfl

theorem layersProg_append (Ps Qs : List (R → List (AIns R S M))) (r : R) : layersProg (Ps ++ Qs) r = layersProg Ps r ++ layersProg Qs r := by
  unfold layersProg
  rw [List.flatMap_append]

theorem lift_locOnly {L : Part S A} {e : Emb M N} {l : List (AIns R A M)} (h : LocOnly l) : LocOnly (liftProg L e l) := by
  intro x hx
  obtain ⟨y, hy, rfl⟩ := List.mem_map.1 hx
  obtain ⟨f, rfl⟩ := h y hy
  exact ⟨_, rfl⟩

variable [DecidableEq R]

theorem lift_nSends (L : Part S A) (e : Emb M N) (d : R) (l : List (AIns R A M)) : nSends d (liftProg L e l) = nSends d l := by
  induction l with
  | nil => rfl
  | cons x l ih =>
    unfold liftProg at ih ⊢
    rw [List.map_cons]
    cases x <;> simp only [AIns.lift, nSends, ih]

theorem lift_nRecvs (L : Part S A) (e : Emb M N) (d : R) (l : List (AIns R A M)) : nRecvs d (liftProg L e l) = nRecvs d l := by
  induction l with
  | nil => rfl
  | cons x l ih =>
    unfold liftProg at ih ⊢
    rw [List.map_cons]
    cases x <;> simp only [AIns.lift, nRecvs, ih]

theorem liftPiece_piece (L : Part S A) (e : Emb M N) {ranks : List R} {P : R → List (AIns R A M)} (h : Piece ranks P) : Piece ranks (liftPiece L e P) := by
  refine ⟨⟨?_, ?_⟩, ?_, ?_, ?_⟩
  · intro r
    rcases h.layer.ends r with h | ⟨l, t, h, ht⟩
    · exact Or.inl (lift_locOnly h)
    · right
      exact ⟨liftProg L e l, liftProg L e t, by unfold liftPiece; rw [h, liftProg_append]; rfl, lift_locOnly ht⟩
  · intro s r
    unfold liftPiece
    rw [lift_nSends, lift_nRecvs]
    exact h.layer.balanced s r
  · intro r
    rcases h.flat r with h | ⟨l, t, h, hl, ht⟩
    · exact Or.inl (lift_locOnly h)
    · right
      refine ⟨liftProg L e l, liftProg L e t, by unfold liftPiece; rw [h, liftProg_append]; rfl, ?_, lift_locOnly ht⟩
      intro x hx
      obtain ⟨y, hy, rfl⟩ := List.mem_map.1 hx
      have := hl y hy
      cases y <;> simp [AIns.lift] at this ⊢
  · intro a ha
    unfold liftPiece
    rw [h.empty a ha]; rfl
  · intro a d rd hd
    obtain ⟨y, hy, e⟩ := List.mem_map.1 hd
    cases y with
    | isend d' rd' =>
      simp only [AIns.lift, AIns.isend.injEq] at e
      rw [← e.1]
      exact h.dest a d' rd' hy
    | loc => cases e
    | irecv => cases e
    | waitall => cases e

/-- A program for a part does to the part what it does by itself, and nothing else. -/
theorem liftPiece_exec {L : Part S A} {e : Emb M N} {P : R → List (AIns R A M)} {b : Bool} {w w' : R → S} (h : AExec b (liftPiece L e P) w w') :
    AExec b P (fun r => L.get (w r)) (fun r => L.get (w' r)) ∧ ∀ r, w' r = L.put (w r) (L.get (w' r)) := by
  have hP : ∀ r, List.Forall₂ (InsRel (fun s a => s = L.put (w r) a) (fun n m => n = e.inj m)) (liftPiece L e P r) (P r) := by
    intro r
    unfold liftPiece liftProg
    induction P r with
    | nil => exact .nil
    | cons x l ih =>
      refine .cons ?_ ih
      cases x with
      | loc f =>
        intro s a hs
        rw [hs]; dsimp only; rw [L.get_put, L.put_put]
      | isend d rd =>
        refine ⟨rfl, ?_⟩
        intro s a hs
        rw [hs]; dsimp only; rw [L.get_put]
      | irecv d wr =>
        refine ⟨rfl, ?_⟩
        intro v v' s a hv hs
        rw [hs, hv]; dsimp only; rw [L.get_put, L.put_put, e.out_inj]
      | waitall => trivial
  obtain ⟨v', hv, hr⟩ := h.sim (v := fun r => L.get (w r)) hP (fun r => (L.put_get _).symm)
  have e1 : (fun r => L.get (w' r)) = v' := by
    funext r
    rw [hr r, L.get_put]
  rw [e1]
  refine ⟨hv, fun r => ?_⟩
  rw [congrFun e1 r]; exact hr r

theorem liftPieces_exec {L : Part S A} {e : Emb M N} {Ps : List (R → List (AIns R A M))} {b : Bool} {w w' : R → S} (h : ExecSeq b (Ps.map (liftPiece L e)) w w') :
    ExecSeq b Ps (fun r => L.get (w r)) (fun r => L.get (w' r)) ∧ ∀ r, w' r = L.put (w r) (L.get (w' r)) := by
  induction Ps generalizing w with
  | nil =>
    have e1 : w' = w := h
    subst e1
    exact ⟨rfl, fun r => (L.put_get _).symm⟩
  | cons P Ps ih =>
    obtain ⟨w1, h1, h2⟩ := h
    obtain ⟨a1, a2⟩ := liftPiece_exec h1
    obtain ⟨b1, b2⟩ := ih h2
    refine ⟨⟨_, a1, b1⟩, fun r => ?_⟩
    rw [b2 r, L.get_put]
    rw [a2 r, L.put_put]

theorem liftPieces_pieces (L : Part S A) (e : Emb M N) {ranks : List R} {Ps : List (R → List (AIns R A M))} (h : ∀ P ∈ Ps, Piece ranks P) :
    ∀ P ∈ Ps.map (liftPiece L e), Piece ranks P := by
  intro P hP
  obtain ⟨Q, hQ, rfl⟩ := List.mem_map.1 hP
  exact liftPiece_piece L e (h Q hQ)

/-! ## One step of a blocking neighbour exchange

Every rank sends to at most one rank and then receives from at most one. -/

section Phase
variable (dst src : R → Option R) (pay : A → M) (app : A → Option M → A)

/-- What a rank does in a step `Send(dest)`, `Recv(source)`, use the buffer. -/
def phaseProg (r : R) : List (Ins R A M) :=
  (match dst r with
    | some d => [.send d pay]
    | none => []) ++
  (match src r with
    | some s => [.recv s fun m l => app l (some m)]
    | none => [.loc fun l => app l none])

/-- The messages in the order of their senders. -/
def phaseMsgs (ord : List R) : List (Item R A M) := ord.filterMap fun a => (dst a).map fun d => .msg a d pay fun m l => app l (some m)

/-- The whole step. -/
def phaseItems (ord ranks : List R) : List (Item R A M) :=
  phaseMsgs dst pay app ord ++ (ranks.filter fun r => (src r).isNone).map fun r => .loc r fun l => app l none

theorem phaseMsgs_exec (ranks : List R) : ∀ (ord : List R) (w : R → A), (∀ a ∈ ord, ∀ c ∈ ord, ∀ d, dst a = some d → dst c = some d → a = c) →
    ord.Nodup → ord.Pairwise (fun a c => dst a ≠ some c) →
    (∀ a ∈ ord, ∀ d, dst a = some d → execAll ranks (phaseMsgs dst pay app ord) w d = app (w d) (some (pay (w a)))) ∧
    ∀ d, (∀ a ∈ ord, dst a ≠ some d) → execAll ranks (phaseMsgs dst pay app ord) w d = w d := by
  intro ord
  induction ord with
  | nil => intro w _ _ _; exact ⟨fun a ha => by simp at ha, fun d _ => rfl⟩
  | cons x l ih =>
    intro w hi hn hp
    have hn' := List.nodup_cons.1 hn
    have hp' := List.pairwise_cons.1 hp
    have hi' : ∀ a ∈ l, ∀ c ∈ l, ∀ d, dst a = some d → dst c = some d → a = c := fun a ha c hc => hi a (List.mem_cons_of_mem _ ha) c (List.mem_cons_of_mem _ hc)
    cases hx : dst x with
    | none =>
      have e : phaseMsgs dst pay app (x :: l) = phaseMsgs dst pay app l := by
        unfold phaseMsgs
        rw [List.filterMap_cons, hx]; rfl
      rw [e]
      obtain ⟨i1, i2⟩ := ih w hi' hn'.2 hp'.2
      refine ⟨?_, fun d hd => i2 d fun a ha => hd a (List.mem_cons_of_mem _ ha)⟩
      intro a ha d had
      rcases List.mem_cons.1 ha with rfl | ha
      · rw [hx] at had; cases had
      · exact i1 a ha d had
    | some y =>
      have e : phaseMsgs dst pay app (x :: l) = .msg x y pay (fun m l => app l (some m)) :: phaseMsgs dst pay app l := by
        unfold phaseMsgs
        rw [List.filterMap_cons, hx]; rfl
      rw [e, execAll_cons]
      have hw1 : Item.run ranks w (.msg x y pay fun m l => app l (some m)) = Function.update w y (app (w y) (some (pay (w x)))) := rfl
      rw [hw1]
      obtain ⟨i1, i2⟩ := ih (Function.update w y (app (w y) (some (pay (w x))))) hi' hn'.2 hp'.2
      have hl : ∀ a ∈ l, dst a ≠ some y := by
        intro a ha hc
        have := hi x List.mem_cons_self a (List.mem_cons_of_mem _ ha) y hx hc
        subst this
        exact hn'.1 ha
      constructor
      · intro a ha d had
        rcases List.mem_cons.1 ha with rfl | ha
        · rw [hx] at had
          obtain rfl := Option.some.inj had
          rw [i2 y hl, Function.update_self]
        · have hay : a ≠ y := by
            rintro rfl
            exact hp'.1 a ha hx
          have hdy : d ≠ y := by
            rintro rfl
            exact hl a ha had
          rw [i1 a ha d had, Function.update_of_ne hay, Function.update_of_ne hdy]
      · intro d hd
        have hdy : d ≠ y := by
          rintro rfl
          exact hd x List.mem_cons_self hx
        rw [i2 d (fun a ha => hd a (List.mem_cons_of_mem _ ha)), Function.update_of_ne hdy]

/-- The neighbours of the ranks fit together, and `ord` lists the ranks so that each sends before it receives. -/
structure PhaseOk (ord ranks : List R) : Prop where
  nodup : ranks.Nodup
  perm : ∀ r, r ∈ ord ↔ r ∈ ranks
  ordNodup : ord.Nodup
  sends : ∀ r ∈ ranks, ∀ d, dst r = some d ↔ (d ∈ ranks ∧ src d = some r)
  recvs : ∀ r ∈ ranks, ∀ s, src r = some s → s ∈ ranks
  self : ∀ r ∈ ranks, dst r ≠ some r
  first : ord.Pairwise fun a c => dst a ≠ some c

variable {dst src}

theorem PhaseOk.inj {ord ranks : List R} (h : PhaseOk dst src ord ranks) : ∀ a ∈ ord, ∀ c ∈ ord, ∀ d, dst a = some d → dst c = some d → a = c := by
  intro a ha c hc d h1 h2
  have e1 := ((h.sends a ((h.perm a).1 ha) d).1 h1).2
  have e2 := ((h.sends c ((h.perm c).1 hc) d).1 h2).2
  rw [e1] at e2
  exact Option.some.inj e2

/-- Every rank ends with what its neighbour had at the beginning. -/
theorem phaseItems_exec {ord ranks : List R} (h : PhaseOk dst src ord ranks) (w : R → A) (r : R) (hr : r ∈ ranks) :
    execAll ranks (phaseItems dst src pay app ord ranks) w r = app (w r) ((src r).map fun s => pay (w s)) := by
  unfold phaseItems
  rw [execAll_append]
  obtain ⟨m1, m2⟩ := phaseMsgs_exec dst pay app ranks ord w h.inj h.ordNodup h.first
  generalize execAll ranks (phaseMsgs dst pay app ord) w = u at m1 m2
  have key : ∀ (l : List R) (u : R → A), l.Nodup → execAll ranks (l.map fun r => (.loc r fun l => app l none : Item R A M)) u r =
      if r ∈ l then app (u r) none else u r := by
    intro l
    induction l with
    | nil => intro u _; rfl
    | cons x l ih =>
      intro u hn
      have hn' := List.nodup_cons.1 hn
      rw [List.map_cons, execAll_cons, ih _ hn'.2]
      change (if r ∈ l then app (Function.update u x (app (u x) none) r) none else Function.update u x (app (u x) none) r) = _
      by_cases e : r = x
      · subst e
        rw [if_neg hn'.1, Function.update_self, if_pos List.mem_cons_self]
      · rw [Function.update_of_ne e]
        simp [e]
  rw [key _ _ (h.nodup.filter _)]
  cases hs : src r with
  | none =>
    rw [if_pos (by simp [hr, hs]), m2 r]
    · rfl
    · intro a ha had
      have := ((h.sends a ((h.perm a).1 ha) r).1 had).2
      rw [hs] at this; cases this
  | some s =>
    rw [if_neg (by simp [hs])]
    have hsr := h.recvs r hr s hs
    exact m1 s ((h.perm s).2 hsr) r ((h.sends s hsr r).2 ⟨hr, hs⟩)

theorem phaseItems_plain {ord ranks : List R} (h : PhaseOk dst src ord ranks) : ∀ x ∈ phaseItems dst src pay app ord ranks, x.Plain ranks := by
  intro x hx
  unfold phaseItems at hx
  rcases List.mem_append.1 hx with hx | hx
  · unfold phaseMsgs at hx
    rw [List.mem_filterMap] at hx
    obtain ⟨a, ha, hx⟩ := hx
    rw [Option.map_eq_some_iff] at hx
    obtain ⟨d, hd, rfl⟩ := hx
    have har := (h.perm a).1 ha
    refine ⟨har, ((h.sends a har d).1 hd).1, ?_⟩
    rintro rfl
    exact h.self a har hd
  · obtain ⟨r, hr, rfl⟩ := List.mem_map.1 hx
    exact (List.mem_filter.1 hr).1

theorem phaseItems_proj {ord ranks : List R} (h : PhaseOk dst src ord ranks) {r : R} (hr : r ∈ ranks) :
    proj r (phaseItems dst src pay app ord ranks) = phaseProg dst src pay app r := by
  have hloc : ∀ l : List R, l.Nodup → proj r (l.map fun r => (.loc r fun l => app l none : Item R A M)) = if r ∈ l then [.loc fun l => app l none] else [] := by
    intro l
    induction l with
    | nil => intro _; rfl
    | cons x l ih =>
      intro hn
      have hn' := List.nodup_cons.1 hn
      rw [List.map_cons, proj_cons, ih hn'.2]
      change (if r = x then [Ins.loc fun l => app l none] else []) ++ _ = _
      by_cases e : r = x
      · subst e; simp [hn'.1]
      · simp [e]
  -- no message to `r` from a list of ranks
  have hnone : ∀ l : List R, r ∉ l → (∀ a ∈ l, dst a ≠ some r) → proj r (phaseMsgs dst pay app l) = [] := by
    intro l hl hd
    apply proj_nil_of
    intro y hy
    unfold phaseMsgs at hy
    rw [List.mem_filterMap] at hy
    obtain ⟨a, ha, hy⟩ := hy
    rw [Option.map_eq_some_iff] at hy
    obtain ⟨d, hd', rfl⟩ := hy
    change (if r = a then [Ins.send d pay] else if r = d then [Ins.recv a fun m l => app l (some m)] else []) = []
    rw [if_neg, if_neg]
    · rintro rfl; exact hd a ha hd'
    · rintro rfl; exact hl ha
  have hsplit : ∀ l l' : List R, phaseMsgs dst pay app (l ++ l') = phaseMsgs dst pay app l ++ phaseMsgs dst pay app l' := by
    intro l l'; unfold phaseMsgs; rw [List.filterMap_append]
  have hcons : ∀ (a : R) (l : List R), proj r (phaseMsgs dst pay app (a :: l)) = (match dst a with
      | some d => if r = a then [Ins.send d pay] else if r = d then [Ins.recv a fun m l => app l (some m)] else []
      | none => []) ++ proj r (phaseMsgs dst pay app l) := by
    intro a l
    cases hd : dst a with
    | none => unfold phaseMsgs; rw [List.filterMap_cons, hd]; rfl
    | some d => unfold phaseMsgs; rw [List.filterMap_cons, hd]; rfl
  -- receives of `r` in a list without `r`
  have hrecv : ∀ l : List R, r ∉ l → l.Nodup → (∀ a ∈ l, a ∈ ranks) → proj r (phaseMsgs dst pay app l) = (match src r with
      | some s => if s ∈ l then [Ins.recv s fun m l => app l (some m)] else []
      | none => []) := by
    intro l
    induction l with
    | nil => intro _ _ _; cases src r <;> rfl
    | cons a l ih =>
      intro hr' hn hl
      have hn' := List.nodup_cons.1 hn
      rw [hcons, ih (fun h => hr' (List.mem_cons_of_mem _ h)) hn'.2 (fun b hb => hl b (List.mem_cons_of_mem _ hb))]
      have har := hl a List.mem_cons_self
      have hra : r ≠ a := fun e => hr' (e ▸ List.mem_cons_self)
      cases hs : src r with
      | none =>
        cases hd : dst a with
        | none => rfl
        | some d =>
          have : r ≠ d := by
            rintro rfl
            have := ((h.sends a har r).1 hd).2
            rw [hs] at this; cases this
          simp [hra, this]
      | some s =>
        dsimp only
        by_cases e : s = a
        · subst e
          rw [(h.sends s har r).2 ⟨hr, hs⟩]
          simp [hra, hn'.1]
        · cases hd : dst a with
          | none => simp [e]
          | some d =>
            have : r ≠ d := by
              rintro rfl
              have := ((h.sends a har r).1 hd).2
              rw [hs] at this
              exact e (Option.some.inj this)
            simp [hra, this, e]
  unfold phaseItems phaseProg
  rw [proj_append, hloc _ (h.nodup.filter _)]
  obtain ⟨l, l', hll⟩ := List.append_of_mem ((h.perm r).2 hr)
  have hnd := h.ordNodup
  rw [hll, List.nodup_append] at hnd
  have hfirst := h.first
  rw [hll, List.pairwise_append] at hfirst
  have hrl : r ∉ l := fun hm => hnd.2.2 r hm r List.mem_cons_self rfl
  have hnd' := List.nodup_cons.1 hnd.2.1
  rw [hll, hsplit, proj_append, hnone l hrl (fun a ha => hfirst.2.2 a ha r List.mem_cons_self), hcons,
    hrecv l' hnd'.1 hnd'.2 (fun a ha => (h.perm a).1 (by rw [hll]; simp [ha]))]
  have hsnd : (match dst r with
      | some d => if r = r then [Ins.send d pay] else if r = d then [Ins.recv r fun m l => app l (some m)] else []
      | none => []) = (match dst r with
      | some d => [(.send d pay : Ins R A M)]
      | none => []) := by
    cases dst r <;> simp
  rw [hsnd, List.nil_append, List.append_assoc]
  congr 1
  cases hs : src r with
  | none => simp [hr, hs]
  | some s =>
    have hsr := h.recvs r hr s hs
    have hd := (h.sends s hsr r).2 ⟨hr, hs⟩
    have hsl : s ∈ l' := by
      have hso := (h.perm s).2 hsr
      rw [hll] at hso
      rcases List.mem_append.1 hso with hm | hm
      · exact absurd hd (hfirst.2.2 s hm r List.mem_cons_self)
      · rcases List.mem_cons.1 hm with rfl | hm
        · exact absurd hd (h.self s hr)
        · exact hm
    simp [hsl, hs]

end Phase

end Sopht
