import Verif.AsyncExch

/-!
# Programs made of layers

A rank program is a sequence of layers: exchanges with the computations around them, collective operations, local computations.  Here: what the layers do when
the ranks run them at their own speed, and what a sequence of layers does.
-/

namespace Sopht

variable {R S S' M M' : Type} [DecidableEq R]

/-! ## Sequences of layers -/

/-- One layer after the other. -/
def layersProg (Ls : List (R → List (AIns R S M))) (c : R) : List (AIns R S M) := Ls.flatMap fun L => L c

/-- What happens when every rank waits for all others between two layers. -/
def ExecSeq (b : Bool) : List (R → List (AIns R S M)) → (R → S) → (R → S) → Prop
  | [], w, w' => w' = w
  | L :: Ls, w, w' => ∃ w1, AExec b L w w1 ∧ ExecSeq b Ls w1 w'

theorem exec_nil {b : Bool} {w w' : R → S} (h : AExec b (fun _ => [] : R → List (AIns R S M)) w w') : w' = w := by
  obtain ⟨n, C, hr, -, hst⟩ := h
  have key : ∀ {n : ℕ} {A C : AConf R S M}, ARun b n A C → (∀ r, A.prog r = []) → (∀ s r, A.out s r = []) → (∀ r, C.prog r = []) ∧ (∀ s r, C.out s r = []) ∧ C.st = A.st := by
    intro n A C hr h1 h2
    induction hr with
    | refl => exact ⟨h1, h2, rfl⟩
    | tail _ s ih =>
      obtain ⟨i1, i2, i3⟩ := ih h1 h2
      cases s with
      | loc a f rest hp => rw [i1] at hp; cases hp
      | isend a d rd rest hp => rw [i1] at hp; cases hp
      | irecv a s0 wr rest hp => rw [i1] at hp; cases hp
      | waitall a rest hp => rw [i1] at hp; cases hp
      | pick s r i rd hi => rw [i2] at hi; simp at hi
      | land s r i v wr hi => rw [i2] at hi; simp at hi
  rw [← hst, (key hr (fun _ => rfl) (fun _ _ => rfl)).2.2]
  rfl

/-- **C82** Ranks that run through a sequence of layers at their own speed end up as if all of them had finished each layer before any of them started the next. -/
theorem layers_exec {b : Bool} {Ls : List (R → List (AIns R S M))} (hL : ∀ L ∈ Ls, Layer L) {w w' : R → S} (h : AExec b (layersProg Ls) w w') : ExecSeq b Ls w w' := by
  induction Ls generalizing w with
  | nil => exact exec_nil h
  | cons L Ls ih =>
    obtain ⟨w1, h1, h2⟩ := exec_append (P2 := layersProg Ls) (hL L List.mem_cons_self) h
    exact ⟨w1, h1, ih (fun L' h' => hL L' (List.mem_cons_of_mem _ h')) h2⟩

/-- **C82** No execution of a sequence of layers gets stuck. -/
theorem layers_noStuck {b : Bool} {Ls : List (R → List (AIns R S M))} (hL : ∀ L ∈ Ls, Layer L ∧ Flat L) : NoStuck b (layersProg Ls) := by
  induction Ls with
  | nil => exact noStuck_nil b
  | cons L Ls ih =>
    exact noStuck_append (P2 := layersProg Ls) (hL L List.mem_cons_self).1 (hL L List.mem_cons_self).2 (ih fun L' h' => hL L' (List.mem_cons_of_mem _ h'))

theorem execSeq_append {b : Bool} {Ls Ls' : List (R → List (AIns R S M))} {w w' : R → S} (h : ExecSeq b (Ls ++ Ls') w w') :
    ∃ w1, ExecSeq b Ls w w1 ∧ ExecSeq b Ls' w1 w' := by
  induction Ls generalizing w with
  | nil => exact ⟨w, rfl, h⟩
  | cons L Ls ih =>
    obtain ⟨w1, h1, h2⟩ := h
    obtain ⟨w2, h3, h4⟩ := ih h2
    exact ⟨w2, ⟨w1, h1, h3⟩, h4⟩

/-! ## Local computations -/

/-- A local computation on every rank. -/
def locLayer (ranks : List R) (f : R → S → S) (c : R) : List (AIns R S M) := if c ∈ ranks then [.loc (f c)] else []

theorem locLayer_layer (ranks : List R) (f : R → S → S) : Layer (locLayer ranks f : R → List (AIns R S M)) := by
  constructor
  · intro r
    left
    unfold locLayer
    split
    · intro x hx
      exact ⟨_, List.mem_singleton.1 hx⟩
    · intro x hx; cases hx
  · intro s r
    have h1 : nSends r (locLayer ranks f s : List (AIns R S M)) = 0 := by unfold locLayer; split <;> rfl
    have h2 : nRecvs s (locLayer ranks f r : List (AIns R S M)) = 0 := by unfold locLayer; split <;> rfl
    rw [h1, h2]

theorem locLayer_flat (ranks : List R) (f : R → S → S) : Flat (locLayer ranks f : R → List (AIns R S M)) := by
  intro r
  left
  unfold locLayer
  split
  · intro x hx
    exact ⟨_, List.mem_singleton.1 hx⟩
  · intro x hx; cases hx

theorem locLayer_exec {b : Bool} {ranks : List R} {f : R → S → S} {w w' : R → S} (h : AExec b (locLayer ranks f : R → List (AIns R S M)) w w') :
    (∀ c ∈ ranks, w' c = f c (w c)) ∧ ∀ c ∉ ranks, w' c = w c := by
  obtain ⟨n, C, hr, hd, hst⟩ := h
  have key : ∀ {n : ℕ} {A C : AConf R S M}, ARun b n A C → (∀ s r, A.out s r = []) →
      (∀ c, (A.prog c = locLayer ranks f c ∧ A.st c = w c) ∨ (A.prog c = [] ∧ c ∈ ranks ∧ A.st c = f c (w c))) →
      (∀ s r, C.out s r = []) ∧ (∀ c, (C.prog c = locLayer ranks f c ∧ C.st c = w c) ∨ (C.prog c = [] ∧ c ∈ ranks ∧ C.st c = f c (w c))) := by
    intro n A C hr h1 h2
    induction hr with
    | refl => exact ⟨h1, h2⟩
    | tail _ s ih =>
      obtain ⟨i1, i2⟩ := ih h1 h2
      have only : ∀ {D : AConf R S M} {a : R} {x : AIns R S M} {rest : List (AIns R S M)},
          (D.prog a = locLayer ranks f a ∧ D.st a = w a ∨ D.prog a = [] ∧ a ∈ ranks ∧ D.st a = f a (w a)) → D.prog a = x :: rest →
          a ∈ ranks ∧ x = .loc (f a) ∧ rest = [] ∧ D.st a = w a := by
        intro D a x rest h hp
        rcases h with ⟨e, e'⟩ | ⟨e, -⟩
        · rw [e] at hp
          unfold locLayer at hp
          split at hp
          · rename_i hc
            rw [List.cons.injEq] at hp
            exact ⟨hc, hp.1.symm, hp.2.symm, e'⟩
          · cases hp
        · rw [e] at hp; cases hp
      cases s with
      | loc a g rest hp =>
        refine ⟨i1, fun c => ?_⟩
        by_cases e : c = a
        · subst e
          obtain ⟨o1, o2, o3, o4⟩ := only (i2 c) hp
          cases o2
          right
          dsimp only
          rw [Function.update_self, Function.update_self, o4]
          exact ⟨o3, o1, rfl⟩
        · dsimp only
          rw [Function.update_of_ne e, Function.update_of_ne e]
          exact i2 c
      | isend a d rd rest hp => obtain ⟨-, o2, -⟩ := only (i2 a) hp; cases o2
      | irecv a s0 wr rest hp => obtain ⟨-, o2, -⟩ := only (i2 a) hp; cases o2
      | waitall a rest hp => obtain ⟨-, o2, -⟩ := only (i2 a) hp; cases o2
      | pick s r i rd hi => rw [i1] at hi; simp at hi
      | land s r i v wr hi => rw [i1] at hi; simp at hi
  have := (key hr (fun _ _ => rfl) (fun c => Or.inl ⟨rfl, rfl⟩)).2
  rw [← hst]
  constructor
  · intro c hc
    rcases this c with ⟨e, -⟩ | ⟨-, -, e⟩
    · rw [hd c] at e
      unfold locLayer at e
      rw [if_pos hc] at e
      cases e
    · exact e
  · intro c hc
    rcases this c with ⟨-, e⟩ | ⟨-, e, -⟩
    · exact e
    · exact absurd e hc

/-! ## Programs that do the same on other representations of the state -/

/-- Two instructions of rank `c` do the same on related states, with related payloads. -/
def InsRel (ρ : S → S' → Prop) (π : M → M' → Prop) : AIns R S M → AIns R S' M' → Prop
  | .loc f, .loc f' => ∀ s s', ρ s s' → ρ (f s) (f' s')
  | .isend d rd, .isend d' rd' => d = d' ∧ ∀ s s', ρ s s' → π (rd s) (rd' s')
  | .irecv d wr, .irecv d' wr' => d = d' ∧ ∀ v v' s s', π v v' → ρ s s' → ρ (wr v s) (wr' v' s')
  | .waitall, .waitall => True
  | _, _ => False

/-- Two posted sends of a rank are related. -/
def SlotRel (ρ : S → S' → Prop) (π : M → M' → Prop) : Slot S M → Slot S' M' → Prop
  | .unread rd, .unread rd' => ∀ s s', ρ s s' → π (rd s) (rd' s')
  | .taken v, .taken v' => π v v'
  | _, _ => False

/-- Related configurations. -/
structure ConfRel (ρ : R → S → S' → Prop) (π : M → M' → Prop) (C : AConf R S M) (D : AConf R S' M') : Prop where
  prog : ∀ r, List.Forall₂ (InsRel (ρ r) π) (C.prog r) (D.prog r)
  st : ∀ r, ρ r (C.st r) (D.st r)
  out : ∀ s r, List.Forall₂ (SlotRel (ρ s) π) (C.out s r) (D.out s r)
  inn : ∀ s r, List.Forall₂ (fun wr wr' => ∀ v v' a a', π v v' → ρ r a a' → ρ r (wr v a) (wr' v' a')) (C.inn s r) (D.inn s r)

theorem forall2_get {A B : Type} {P : A → B → Prop} {l : List A} {m : List B} (h : List.Forall₂ P l m) {i : ℕ} {x : A} (hi : l[i]? = some x) :
    ∃ y, m[i]? = some y ∧ P x y := by
  induction h generalizing i with
  | nil => simp at hi
  | cons hx _ ih =>
    cases i with
    | zero => simp only [List.getElem?_cons_zero, Option.some.injEq] at hi; subst hi; exact ⟨_, by simp, hx⟩
    | succ i => simp only [List.getElem?_cons_succ] at hi ⊢; exact ih hi

theorem forall2_set {A B : Type} {P : A → B → Prop} {l : List A} {m : List B} (h : List.Forall₂ P l m) (i : ℕ) {x : A} {y : B} (hxy : P x y) :
    List.Forall₂ P (l.set i x) (m.set i y) := by
  induction h generalizing i with
  | nil => exact .nil
  | cons hx ht ih =>
    cases i with
    | zero => exact .cons hxy ht
    | succ i => exact .cons hx (ih i)

theorem forall2_erase {A B : Type} {P : A → B → Prop} {l : List A} {m : List B} (h : List.Forall₂ P l m) (i : ℕ) :
    List.Forall₂ P (l.eraseIdx i) (m.eraseIdx i) := by
  induction h generalizing i with
  | nil => exact .nil
  | cons hx ht ih =>
    cases i with
    | zero => exact ht
    | succ i => exact .cons hx (ih i)

theorem ConfRel.step {ρ : R → S → S' → Prop} {π : M → M' → Prop} {b : Bool} {C C' : AConf R S M} {D : AConf R S' M'} (h : ConfRel ρ π C D) (s : AStep b C C') :
    ∃ D', AStep b D D' ∧ ConfRel ρ π C' D' := by
  have hprog : ∀ {a : R} {x : AIns R S M} {rest : List (AIns R S M)}, C.prog a = x :: rest → ∃ y rest', D.prog a = y :: rest' ∧ InsRel (ρ a) π x y ∧
      ∀ r, List.Forall₂ (InsRel (ρ r) π) (Function.update C.prog a rest r) (Function.update D.prog a rest' r) := by
    intro a x rest hp
    have := h.prog a
    rw [hp] at this
    obtain ⟨y, rest', h1, h2, e⟩ := List.forall₂_cons_left_iff.1 this
    refine ⟨y, rest', e, h1, fun r => ?_⟩
    by_cases er : r = a
    · subst er; rw [Function.update_self, Function.update_self]; exact h2
    · rw [Function.update_of_ne er, Function.update_of_ne er]; exact h.prog r
  cases s with
  | loc a f rest hp =>
    obtain ⟨y, rest', e, hy, hr⟩ := hprog hp
    cases y with
    | loc f' =>
      refine ⟨_, .loc D a f' rest' e, hr, fun r => ?_, h.out, h.inn⟩
      by_cases er : r = a
      · subst er; dsimp only; rw [Function.update_self, Function.update_self]; exact hy _ _ (h.st r)
      · dsimp only; rw [Function.update_of_ne er, Function.update_of_ne er]; exact h.st r
    | isend d rd => exact hy.elim
    | irecv d wr => exact hy.elim
    | waitall => exact hy.elim
  | isend a d rd rest hp =>
    obtain ⟨y, rest', e, hy, hr⟩ := hprog hp
    cases y with
    | loc f' => exact hy.elim
    | isend d' rd' =>
      obtain ⟨rfl, hy⟩ := hy
      refine ⟨_, .isend D a d rd' rest' e, hr, h.st, fun s r => ?_, h.inn⟩
      dsimp only
      rw [upd2_apply, upd2_apply]
      split
      · rename_i ee; obtain ⟨rfl, rfl⟩ := ee
        exact List.rel_append (h.out _ _) (.cons hy .nil)
      · exact h.out s r
    | irecv d wr => exact hy.elim
    | waitall => exact hy.elim
  | irecv a d wr rest hp =>
    obtain ⟨y, rest', e, hy, hr⟩ := hprog hp
    cases y with
    | loc f' => exact hy.elim
    | isend d' rd' => exact hy.elim
    | irecv d' wr' =>
      obtain ⟨rfl, hy⟩ := hy
      refine ⟨_, .irecv D a d wr' rest' e, hr, h.st, h.out, fun s r => ?_⟩
      dsimp only
      rw [upd2_apply, upd2_apply]
      split
      · rename_i ee; obtain ⟨rfl, rfl⟩ := ee
        exact List.rel_append (h.inn _ _) (.cons hy .nil)
      · exact h.inn s r
    | waitall => exact hy.elim
  | waitall a rest hp hs hi =>
    obtain ⟨y, rest', e, hy, hr⟩ := hprog hp
    cases y with
    | loc f' => exact hy.elim
    | isend d' rd' => exact hy.elim
    | irecv d wr => exact hy.elim
    | waitall =>
      refine ⟨_, .waitall D a rest' e ?_ ?_, hr, h.st, h.out, h.inn⟩
      · intro d x hx
        obtain ⟨i, hi⟩ := List.mem_iff_getElem?.1 hx
        obtain ⟨y, hy, hyx⟩ := forall2_get (h.out a d).flip hi
        obtain ⟨v, rfl⟩ := hs d y (List.mem_of_getElem? hy)
        cases x with
        | unread rd => exact hyx.elim
        | taken v' => exact ⟨v', rfl⟩
      · intro s
        have := h.inn s a
        rw [hi s] at this
        exact List.forall₂_nil_left_iff.1 this
  | pick s r i rd hi hb =>
    obtain ⟨y, hy, hyx⟩ := forall2_get (h.out s r) hi
    cases y with
    | taken v => exact hyx.elim
    | unread rd' =>
      refine ⟨_, .pick D s r i rd' hy (by rwa [← (h.inn s r).length_eq]), h.prog, h.st, fun s' r' => ?_, h.inn⟩
      dsimp only
      rw [upd2_apply, upd2_apply]
      split
      · rename_i ee; obtain ⟨rfl, rfl⟩ := ee
        exact forall2_set (h.out _ _) i (hyx _ _ (h.st s'))
      · exact h.out s' r'
  | land s r i v wr hi hi' =>
    obtain ⟨y, hy, hyx⟩ := forall2_get (h.out s r) hi
    obtain ⟨wr', hw, hww⟩ := forall2_get (h.inn s r) hi'
    cases y with
    | unread rd => exact hyx.elim
    | taken v' =>
      refine ⟨_, .land D s r i v' wr' hy hw, h.prog, fun r' => ?_, fun s' r' => ?_, fun s' r' => ?_⟩
      · dsimp only
        by_cases er : r' = r
        · subst er; rw [Function.update_self, Function.update_self]; exact hww _ _ _ _ hyx (h.st r')
        · rw [Function.update_of_ne er, Function.update_of_ne er]; exact h.st r'
      · dsimp only
        rw [upd2_apply, upd2_apply]
        split
        · rename_i ee; obtain ⟨rfl, rfl⟩ := ee
          exact forall2_erase (h.out _ _) i
        · exact h.out s' r'
      · dsimp only
        rw [upd2_apply, upd2_apply]
        split
        · rename_i ee; obtain ⟨rfl, rfl⟩ := ee
          exact forall2_erase (h.inn _ _) i
        · exact h.inn s' r'

theorem AExec.sim {ρ : R → S → S' → Prop} {π : M → M' → Prop} {b : Bool} {P : R → List (AIns R S M)} {Q : R → List (AIns R S' M')}
    (hPQ : ∀ r, List.Forall₂ (InsRel (ρ r) π) (P r) (Q r)) {w w' : R → S} {v : R → S'} (hv : ∀ r, ρ r (w r) (v r)) (h : AExec b P w w') :
    ∃ v', AExec b Q v v' ∧ ∀ r, ρ r (w' r) (v' r) := by
  obtain ⟨n, C, hr, hd, hst⟩ := h
  have h0 : ConfRel ρ π (AConf.start P w) (AConf.start Q v) := ⟨hPQ, hv, fun _ _ => .nil, fun _ _ => .nil⟩
  have key : ∀ {n : ℕ} {A C : AConf R S M}, ARun b n A C → ∀ {D}, ConfRel ρ π A D → ∃ D', ARun b n D D' ∧ ConfRel ρ π C D' := by
    intro n A C hr
    induction hr with
    | refl => exact fun {D} h => ⟨D, .refl D, h⟩
    | tail _ s ih =>
      intro D h
      obtain ⟨D1, r1, c1⟩ := ih h
      obtain ⟨D2, s2, c2⟩ := c1.step s
      exact ⟨D2, .tail r1 s2, c2⟩
  obtain ⟨D', r', c'⟩ := key hr h0
  refine ⟨D'.st, ⟨n, D', r', fun r => ?_, rfl⟩, fun r => ?_⟩
  · have := c'.prog r
    rw [hd r] at this
    exact List.forall₂_nil_left_iff.1 this
  · rw [← hst]; exact c'.st r

/-! ## Exchanges of some of the arrays of a rank -/

/-- The part of the state of a rank that an exchange works on. -/
structure Part (S A : Type) where
  get : S → A
  put : S → A → S
  get_put : ∀ s a, get (put s a) = a
  put_get : ∀ s, put s (get s) = s
  put_put : ∀ s a a', put (put s a) a' = put s a'

section
variable {ι α : Type} [DecidableEq ι]

/-- What posting one pair does. -/
def postInsOf (L : Part S (ι → α)) (p : Post R ι) : List (AIns R S (List α)) :=
  (match p.sendTo with
    | some d => [.isend d fun s => p.sendIx.map (L.get s)]
    | none => []) ++
  (match p.recvFrom with
    | some d => [.irecv d fun vals s => L.put s (unpack (L.get s) p.recvIx vals)]
    | none => [])

/-- Local work, `Isend`/`Irecv` for every posted pair, work done while the messages are in flight, `Waitall`. -/
def exchLayer (ranks : List R) (L : Part S (ι → α)) (pre : R → S → S) (posts : R → List (Post R ι)) (mid : R → S → S) (c : R) : List (AIns R S (List α)) :=
  if c ∈ ranks then .loc (pre c) :: ((posts c).flatMap (postInsOf L) ++ [.loc (mid c), .waitall]) else []

/-- The same on pairs of arrays and private data. -/
def preOf (L : Part S (ι → α)) (pre : S → S) (x : (ι → α) × S) : (ι → α) × S := (L.get (pre (L.put x.2 x.1)), pre (L.put x.2 x.1))

theorem exchLayer_rel (ranks : List R) (L : Part S (ι → α)) (pre : R → S → S) (posts : R → List (Post R ι)) (mid : R → S → S) (hmid : ∀ c s, L.get (mid c s) = L.get s) (c : R) :
    List.Forall₂ (InsRel (fun s x => s = L.put x.2 x.1) (fun v v' => v = v')) (exchLayer ranks L pre posts mid c)
      (exchProg ranks (fun c => preOf L (pre c)) posts (fun c a s => mid c (L.put s a)) c) := by
  unfold exchLayer exchProg
  split
  · refine .cons ?_ (List.rel_append ?_ (.cons ?_ (.cons ?_ .nil)))
    · rintro s x rfl
      exact (L.put_get _).symm
    · induction posts c with
      | nil => exact .nil
      | cons p l ih =>
        rw [List.flatMap_cons, List.flatMap_cons]
        refine List.rel_append ?_ ih
        obtain ⟨a, b, d, e⟩ := p
        unfold postInsOf postIns
        refine List.rel_append ?_ ?_
        · cases a with
          | none => exact .nil
          | some a =>
            refine .cons ⟨rfl, ?_⟩ .nil
            rintro s x rfl
            dsimp only
            rw [L.get_put]
        · cases d with
          | none => exact .nil
          | some d =>
            refine .cons ⟨rfl, ?_⟩ .nil
            rintro v v' s x rfl rfl
            dsimp only
            rw [L.get_put, L.put_put]
    · rintro s x rfl
      dsimp only
      conv_lhs => rw [← L.put_get (mid c (L.put x.2 x.1)), hmid, L.get_put]
    · trivial
  · exact .nil

theorem nSends_rel {ρ : S → S' → Prop} {π : M → M' → Prop} {l : List (AIns R S M)} {m : List (AIns R S' M')} (h : List.Forall₂ (InsRel ρ π) l m) (d : R) :
    nSends d l = nSends d m := by
  induction h with
  | nil => rfl
  | @cons x y l m hx _ ih =>
    cases x <;> cases y <;> first | exact hx.elim | (simp only [nSends, ih]; done) | (obtain ⟨rfl, -⟩ := hx; simp only [nSends, ih])

theorem nRecvs_rel {ρ : S → S' → Prop} {π : M → M' → Prop} {l : List (AIns R S M)} {m : List (AIns R S' M')} (h : List.Forall₂ (InsRel ρ π) l m) (d : R) :
    nRecvs d l = nRecvs d m := by
  induction h with
  | nil => rfl
  | @cons x y l m hx _ ih =>
    cases x <;> cases y <;> first | exact hx.elim | (simp only [nRecvs, ih]; done) | (obtain ⟨rfl, -⟩ := hx; simp only [nRecvs, ih])

omit [DecidableEq ι] in
theorem postInsOf_kind (L : Part S (ι → α)) [DecidableEq ι] (l : List (Post R ι)) :
    ∀ x ∈ l.flatMap (postInsOf L), (∃ d rd, x = .isend d rd) ∨ ∃ s wr, x = .irecv s wr := by
  intro x hx
  obtain ⟨p, -, hx⟩ := List.mem_flatMap.1 hx
  obtain ⟨a, b, c, d⟩ := p
  unfold postInsOf at hx
  rcases List.mem_append.1 hx with hx | hx
  · cases a with
    | none => simp at hx
    | some d' => left; simp at hx; exact ⟨_, _, hx⟩
  · cases c with
    | none => simp at hx
    | some d' => right; simp at hx; exact ⟨_, _, hx⟩

theorem exchLayer_ends (ranks : List R) (L : Part S (ι → α)) (pre : R → S → S) (posts : R → List (Post R ι)) (mid : R → S → S) : Flat (exchLayer ranks L pre posts mid) := by
  intro r
  unfold exchLayer
  split
  · right
    refine ⟨.loc (pre r) :: ((posts r).flatMap (postInsOf L) ++ [.loc (mid r)]), [], by simp, ?_, by intro x hx; cases hx⟩
    intro x hx
    simp only [List.mem_cons, List.mem_append, List.not_mem_nil, or_false] at hx
    rcases hx with rfl | hx | rfl
    · simp
    · rcases postInsOf_kind L _ x hx with ⟨d, rd, rfl⟩ | ⟨s, wr, rfl⟩ <;> simp
    · simp
  · left; intro x hx; cases hx

theorem exchLayer_nSends (ranks : List R) (L : Part S (ι → α)) (pre : R → S → S) (posts : R → List (Post R ι)) (mid : R → S → S) (s r : R) :
    nSends r (exchLayer ranks L pre posts mid s) = nSends r (exchLayer ranks L pre posts (fun _ s => s) s) ∧
    nRecvs r (exchLayer ranks L pre posts mid s) = nRecvs r (exchLayer ranks L pre posts (fun _ s => s) s) := by
  have key : ∀ l : List (AIns R S (List α)), nSends r (l ++ [.loc (mid s), .waitall]) = nSends r (l ++ [.loc (fun s => s), .waitall]) ∧
      nRecvs r (l ++ [.loc (mid s), .waitall]) = nRecvs r (l ++ [.loc (fun s => s), .waitall]) := by
    intro l
    induction l with
    | nil => exact ⟨rfl, rfl⟩
    | cons x l ih => obtain ⟨i1, i2⟩ := ih; cases x <;> simp only [List.cons_append, nSends, nRecvs, i1, i2] <;> exact ⟨trivial, trivial⟩
  unfold exchLayer
  split
  · exact key (.loc (pre s) :: (posts s).flatMap (postInsOf L))
  · exact ⟨rfl, rfl⟩

theorem exchLayer_layer {ranks : List R} (L : Part S (ι → α)) (pre : R → S → S) {posts : R → List (Post R ι)} (hm : AllMatched ranks posts) (mid : R → S → S) :
    Layer (exchLayer ranks L pre posts mid) := by
  constructor
  · intro r
    rcases exchLayer_ends ranks L pre posts mid r with h | ⟨l, t, h1, -, h2⟩
    · exact Or.inl h
    · exact Or.inr ⟨l, t, h1, h2⟩
  · intro s r
    rw [(exchLayer_nSends ranks L pre posts mid s r).1, (exchLayer_nSends ranks L pre posts mid r s).2]
    have hrel := exchLayer_rel ranks L pre posts (fun _ s => s) (fun _ _ => rfl)
    rw [nSends_rel (hrel s), nRecvs_rel (hrel r)]
    exact (exchProg_layer hm _ _).balanced s r

/-- **C82** One exchange run by ranks at their own speed: the exchanged arrays end up as after a complete schedule of the exchange, and the work done while messages are in
flight saw the arrays after some events of it. -/
theorem exchLayer_exec {ranks : List R} (hn : ranks.Nodup) (L : Part S (ι → α)) (pre : R → S → S) {posts : R → List (Post R ι)} (hm : AllMatched ranks posts) {mid : R → S → S}
    (hmid : ∀ c s, L.get (mid c s) = L.get s) {b : Bool} {w w' : R → S} (h : AExec b (exchLayer ranks L pre posts mid) w w') :
    ∃ (s1 : R → List Ev) (s : List Ev), Complete (allMsgs ranks posts) s ∧
      (∀ c ∈ ranks, w' c = L.put (mid c (L.put (pre c (w c)) (runNet (allMsgs ranks posts) (fun r => L.get (pre r (w r))) (s1 c) c)))
        (runNet (allMsgs ranks posts) (fun r => L.get (pre r (w r))) s c)) ∧
      ∀ c ∉ ranks, w' c = w c := by
  obtain ⟨v', hv, hrel⟩ := h.sim (ρ := fun _ s x => s = L.put x.2 x.1) (v := fun c => (L.get (w c), w c)) (exchLayer_rel ranks L pre posts mid hmid)
    (fun r => (L.put_get _).symm)
  obtain ⟨s1, s, hc, hin, hout⟩ := exch_exec hn hm hv
  refine ⟨s1, s, hc, fun c hcr => ?_, fun c hcr => ?_⟩
  · rw [hrel c, hin c hcr]
    simp only [preOf, L.put_get]
  · rw [hrel c, hout c hcr]
    exact L.put_get _

end

end Sopht
