import Verif.AsyncColl

/-!
# Rank programs which depend on what the rank has computed and received

The number and the partners of the messages of an immersed body depend on the node mapping, which a rank receives from the master while the program runs; a driver
chooses what to do next from what it was told.  Here a rank runs a program of blocks: which block comes next is decided from the local state of the rank at that
moment, by the rank alone.  Ranks run at their own speed, messages as in `Verif.Async`.
-/

namespace Sopht

variable {R S M : Type}

/-- Program of a rank: a block of instructions which depends on the local state, then the rest, which may depend on it as well. -/
inductive RProg (R S M : Type) where
  | stop
  | blk (l : S → List (AIns R S M)) (k : S → RProg R S M)

/-- State of all ranks and of the MPI library, with the rest of the program of each rank. -/
structure DConf (R S M : Type) where
  cf : AConf R S M
  code : R → RProg R S M

variable [DecidableEq R]

/-- One step: of a rank or the library within a block, or a rank goes on to its next block. -/
inductive DStep (b : Bool) : DConf R S M → DConf R S M → Prop
  | ins (C C' : AConf R S M) (code : R → RProg R S M) (s : AStep b C C') : DStep b ⟨C, code⟩ ⟨C', code⟩
  | load (C : AConf R S M) (code : R → RProg R S M) (a : R) (l : S → List (AIns R S M)) (k : S → RProg R S M) (hc : code a = .blk l k) (hp : C.prog a = []) :
      DStep b ⟨C, code⟩ ⟨{ C with prog := Function.update C.prog a (l (C.st a)) }, Function.update code a (k (C.st a))⟩

/-- All ranks start with local states `w`. -/
def DConf.start (code : R → RProg R S M) (w : R → S) : DConf R S M := ⟨AConf.start (fun _ => []) w, code⟩

/-- Every rank has returned. -/
def DConf.Done (X : DConf R S M) : Prop := ∀ r, X.cf.prog r = [] ∧ X.code r = .stop

/-- Total correctness under every schedule: whatever is done from here on, nobody gets stuck, there is an end, and when all ranks have returned the local
states satisfy `Post`. -/
inductive Fine (b : Bool) (Post : (R → S) → Prop) : DConf R S M → Prop
  | mk {X : DConf R S M} (post : X.Done → Post X.cf.st) (go : ¬ X.Done → ∃ Y, DStep b X Y) (next : ∀ Y, DStep b X Y → Fine b Post Y) : Fine b Post X

/-- Any number of steps. -/
inductive DStar (b : Bool) : DConf R S M → DConf R S M → Prop
  | refl (X : DConf R S M) : DStar b X X
  | tail {X Y Z : DConf R S M} (h : DStar b X Y) (s : DStep b Y Z) : DStar b X Z

theorem Fine.star {b : Bool} {Post : (R → S) → Prop} {X Y : DConf R S M} (h : Fine b Post X) (s : DStar b X Y) : Fine b Post Y := by
  induction s with
  | refl => exact h
  | tail _ s ih => obtain ⟨-, -, n⟩ := ih; exact n _ s

theorem Fine.mono {b : Bool} {Post Post' : (R → S) → Prop} {X : DConf R S M} (h : Fine b Post X) (hp : ∀ w, Post w → Post' w) : Fine b Post' X := by
  induction h with
  | mk p g _ ih => exact .mk (fun hd => hp _ (p hd)) g ih

/-- **C85** Nobody gets stuck. -/
theorem Fine.noStuck {b : Bool} {Post : (R → S) → Prop} {X Y : DConf R S M} (h : Fine b Post X) (s : DStar b X Y) (hd : ¬ Y.Done) : ∃ Z, DStep b Y Z := by
  obtain ⟨-, g, -⟩ := h.star s
  exact g hd

/-- **C85** When all ranks have returned, the local states are as they should be. -/
theorem Fine.result {b : Bool} {Post : (R → S) → Prop} {X Y : DConf R S M} (h : Fine b Post X) (s : DStar b X Y) (hd : Y.Done) : Post Y.cf.st := by
  obtain ⟨p, -, -⟩ := h.star s
  exact p hd

/-- **C85** There is no endless run. -/
theorem Fine.ends {b : Bool} {Post : (R → S) → Prop} {X : DConf R S M} (h : Fine b Post X) (f : ℕ → DConf R S M) (h0 : f 0 = X) : ¬ ∀ n, DStep b (f n) (f (n + 1)) := by
  induction h generalizing f with
  | mk _ _ _ ih =>
    intro hf
    subst h0
    exact ih (f 1) (hf 0) (fun n => f (n + 1)) rfl (fun n => hf (n + 1))

/-- **C85** … and one run to the end exists. -/
theorem Fine.exists_end {b : Bool} {Post : (R → S) → Prop} {X : DConf R S M} (h : Fine b Post X) : ∃ Y, DStar b X Y ∧ Y.Done := by
  induction h with
  | @mk X _ g _ ih =>
    by_cases hd : X.Done
    · exact ⟨X, .refl X, hd⟩
    · obtain ⟨Y, hY⟩ := g hd
      obtain ⟨Z, hZ, hZd⟩ := ih Y hY
      refine ⟨Z, ?_, hZd⟩
      have : ∀ {A B : DConf R S M}, DStar b A B → ∀ {W}, DStep b W A → DStar b W B := by
        intro A B hAB
        induction hAB with
        | refl => exact fun {W} s => .tail (.refl W) s
        | tail _ s ih => exact fun {W} s0 => .tail (ih s0) s
      exact this hZ hY

/-! ## Rounds -/

/-- Rank with program `c` in state `s` runs the block `P` and goes on with `c'`, or does nothing in this round. -/
def Advance (c : RProg R S M) (s : S) (P : List (AIns R S M)) (c' : RProg R S M) : Prop :=
  (∃ l k, c = .blk l k ∧ P = l s ∧ c' = k s) ∨ (P = [] ∧ c' = c)

/-- What must be shown about programs which agree on the messages: if all ranks begin a round together in states `w`, their blocks form pieces `Ls`, whatever these
compute the programs agree on the next round, and in the end `Post` holds. -/
inductive Rounds (b : Bool) (ranks : List R) (Post : (R → S) → Prop) : (R → RProg R S M) → (R → S) → Prop
  | stop {code : R → RProg R S M} {w : R → S} (h : ∀ r, code r = .stop) (hp : Post w) : Rounds b ranks Post code w
  | round {code : R → RProg R S M} {w : R → S} (Ls : List (R → List (AIns R S M))) (code' : R → RProg R S M) (hL : ∀ L ∈ Ls, Piece ranks L)
      (h : ∀ r, Advance (code r) (w r) (layersProg Ls r) (code' r)) (next : ∀ w', ExecSeq b Ls w w' → Rounds b ranks Post code' w') : Rounds b ranks Post code w

theorem nSends_append (d : R) (l m : List (AIns R S M)) : nSends d (l ++ m) = nSends d l + nSends d m := by
  induction l with
  | nil => simp [nSends]
  | cons x l ih => cases x <;> simp only [List.cons_append, nSends, ih] <;> omega

theorem nRecvs_append (d : R) (l m : List (AIns R S M)) : nRecvs d (l ++ m) = nRecvs d l + nRecvs d m := by
  induction l with
  | nil => simp [nRecvs]
  | cons x l ih => cases x <;> simp only [List.cons_append, nRecvs, ih] <;> omega

omit [DecidableEq R] in
theorem LocOnly.append {l m : List (AIns R S M)} (h : LocOnly l) (h' : LocOnly m) : LocOnly (l ++ m) :=
  fun x hx => (List.mem_append.1 hx).elim (h x) (h' x)

theorem Layer.append {P Q : R → List (AIns R S M)} (h : Layer P) (h' : Layer Q) : Layer fun r => P r ++ Q r := by
  constructor
  · intro r
    rcases h'.ends r with e | ⟨l, t, e, ht⟩
    · rcases h.ends r with e' | ⟨l, t, e', ht⟩
      · exact Or.inl (e'.append e)
      · exact Or.inr ⟨l, t ++ Q r, by rw [e']; simp, ht.append e⟩
    · exact Or.inr ⟨P r ++ l, t, by rw [e]; simp, ht⟩
  · intro s r
    rw [nSends_append, nRecvs_append, h.balanced, h'.balanced]

theorem layers_layer {Ls : List (R → List (AIns R S M))} (h : ∀ L ∈ Ls, Layer L) : Layer (layersProg Ls) := by
  induction Ls with
  | nil =>
    constructor
    · intro r; left; intro x hx; cases hx
    · intro s r; rfl
  | cons L Ls ih =>
    exact (h L List.mem_cons_self).append (ih fun L' h' => h L' (List.mem_cons_of_mem _ h'))

/-- A rank which has finished a layer keeps its state. -/
theorem fin_keeps {b : Bool} {n : ℕ} {D D' : AConf R S M} (hi : LInv D) (h : ARun b n D D') {a : R} (ha : D.prog a = []) : D'.prog a = [] ∧ D'.st a = D.st a := by
  induction h with
  | refl => exact ⟨ha, rfl⟩
  | tail r s ih =>
    obtain ⟨i1, i2⟩ := ih hi ha
    have hj := hi.run r
    cases s with
    | loc a' f rest hp =>
      have : a ≠ a' := by rintro rfl; rw [i1] at hp; cases hp
      exact ⟨by simpa [Function.update_of_ne this] using i1, by simpa [Function.update_of_ne this] using i2⟩
    | isend a' d rd rest hp =>
      have : a ≠ a' := by rintro rfl; rw [i1] at hp; cases hp
      exact ⟨by simpa [Function.update_of_ne this] using i1, i2⟩
    | irecv a' d rd rest hp =>
      have : a ≠ a' := by rintro rfl; rw [i1] at hp; cases hp
      exact ⟨by simpa [Function.update_of_ne this] using i1, i2⟩
    | waitall a' rest hp =>
      have : a ≠ a' := by rintro rfl; rw [i1] at hp; cases hp
      exact ⟨by simpa [Function.update_of_ne this] using i1, i2⟩
    | pick => exact ⟨i1, i2⟩
    | land s' r' i v wr h1 h2 =>
      have : a ≠ r' := by
        rintro rfl
        rw [(hj.fin a i1).2 s'] at h2
        simp at h2
      exact ⟨i1, by simpa [Function.update_of_ne this] using i2⟩

/-- A piece of run can be finished. -/
theorem run_finish {b : Bool} {P : R → List (AIns R S M)} {w : R → S} (hs : NoStuck b P) {N : ℕ} (hN : ∀ n C, ARun b n (AConf.start P w) C → n ≤ N)
    {n : ℕ} {D : AConf R S M} (h : ARun b n (AConf.start P w) D) : ∃ m E, ARun b m D E ∧ E.Done ∧ AExec b P w E.st := by
  have key : ∀ k n D, N - n = k → ARun b n (AConf.start P w) D → ∃ m E, ARun b m D E ∧ E.Done ∧ AExec b P w E.st := by
    intro k
    induction k with
    | zero =>
      intro n D hk h
      by_cases hd : D.Done
      · exact ⟨0, D, .refl D, hd, n, D, h, hd, rfl⟩
      · obtain ⟨D', s⟩ := hs w n D h hd
        have := hN _ _ (ARun.tail h s)
        have := hN _ _ h
        omega
    | succ k ih =>
      intro n D hk h
      by_cases hd : D.Done
      · exact ⟨0, D, .refl D, hd, n, D, h, hd, rfl⟩
      · obtain ⟨D', s⟩ := hs w n D h hd
        obtain ⟨m, E, r, hE⟩ := ih (n + 1) D' (by omega) (.tail h s)
        refine ⟨m + 1, E, ?_, hE⟩
        clear hE ih
        induction r with
        | refl => exact .tail (.refl _) s
        | tail _ s' ih' => exact .tail (ih' (by assumption)) s'
  exact key _ n D rfl h

/-- `X` is a state in which the ranks `U` have not yet gone on to the block they will run next, `Y` the same with that done. -/
structure Norm (w : R → S) (U : Finset R) (X Y : DConf R S M) : Prop where
  st : X.cf.st = Y.cf.st
  out : X.cf.out = Y.cf.out
  inn : X.cf.inn = Y.cf.inn
  same : ∀ a ∉ U, X.cf.prog a = Y.cf.prog a ∧ X.code a = Y.code a
  late : ∀ a ∈ U, X.cf.prog a = [] ∧ X.cf.st a = w a ∧ (∀ s, X.cf.inn s a = []) ∧ ∃ l k, X.code a = .blk l k ∧ Y.cf.prog a = l (w a) ∧ Y.code a = k (w a)

theorem norm_fine {b : Bool} {Post : (R → S) → Prop} {w : R → S} {Y : DConf R S M} (hY : Fine b Post Y) : ∀ {U : Finset R} {X : DConf R S M}, Norm w U X Y → Fine b Post X := by
  induction hY with
  | mk post go next ihY =>
    rename_i Y
    intro U
    induction U using Finset.strongInduction with
    | H U ihU =>
      intro X hn
      have hE : U = ∅ → X = Y := by
        rintro rfl
        obtain ⟨⟨p, q, o, i⟩, c⟩ := X
        obtain ⟨⟨p', q', o', i'⟩, c'⟩ := Y
        obtain ⟨h1, h2, h3, h4, -⟩ := hn
        dsimp only at h1 h2 h3 h4
        subst h1 h2 h3
        have e1 : p = p' := funext fun a => (h4 a (by simp)).1
        have e2 : c = c' := funext fun a => (h4 a (by simp)).2
        rw [e1, e2]
      have hmem : ∀ a ∈ U, ¬ X.Done := by
        intro a ha hd
        obtain ⟨-, -, -, l, k, h, -⟩ := hn.late a ha
        rw [(hd a).2] at h
        cases h
      constructor
      · intro hd
        have : U = ∅ := Finset.eq_empty_of_forall_notMem fun a ha => hmem a ha hd
        rw [hE this]
        exact post (hE this ▸ hd)
      · intro hd
        by_cases hU : U = ∅
        · rw [hE hU]; exact go (hE hU ▸ hd)
        · obtain ⟨a, ha⟩ := Finset.nonempty_iff_ne_empty.2 hU
          obtain ⟨h1, -, -, l, k, h2, -⟩ := hn.late a ha
          exact ⟨_, .load X.cf X.code a l k h2 h1⟩
      · intro X' hs
        obtain ⟨C, code⟩ := X
        obtain ⟨D, code'⟩ := Y
        obtain ⟨est, eout, einn, hsame, hlate⟩ := hn
        dsimp only at est eout einn hsame hlate
        cases hs with
        | load _ _ a l k hc hp =>
          by_cases ha : a ∈ U
          · refine ihU (U.erase a) (Finset.erase_ssubset ha) (X := ⟨{ C with prog := Function.update C.prog a (l (C.st a)) }, Function.update code a (k (C.st a))⟩) ⟨est, eout, einn, ?_, ?_⟩
            · intro x hx
              by_cases e : x = a
              · subst e
                obtain ⟨-, h2, -, l', k', h3, h4, h5⟩ := hlate x ha
                rw [hc] at h3
                cases h3
                dsimp only
                rw [Function.update_self, Function.update_self, h4, h5, h2]
                exact ⟨rfl, rfl⟩
              · dsimp only
                rw [Function.update_of_ne e, Function.update_of_ne e]
                exact hsame x fun h => hx (Finset.mem_erase.2 ⟨e, h⟩)
            · intro x hx
              obtain ⟨e, hxU⟩ := Finset.mem_erase.1 hx
              dsimp only
              rw [Function.update_of_ne e, Function.update_of_ne e]
              exact hlate x hxU
          · obtain ⟨e1, e2⟩ := hsame a ha
            refine ihY _ (.load D code' a l k (by rw [← e2]; exact hc) (by rw [← e1]; exact hp)) (U := U) ⟨est, eout, einn, ?_, ?_⟩
            · intro x hx
              dsimp only
              by_cases e : x = a
              · subst e
                rw [Function.update_self, Function.update_self, Function.update_self, Function.update_self, est]
                exact ⟨rfl, rfl⟩
              · rw [Function.update_of_ne e, Function.update_of_ne e, Function.update_of_ne e, Function.update_of_ne e]
                exact hsame x hx
            · intro x hx
              have e : x ≠ a := by rintro rfl; exact ha hx
              dsimp only
              rw [Function.update_of_ne e, Function.update_of_ne e, Function.update_of_ne e, Function.update_of_ne e]
              exact hlate x hx
        | ins _ C' _ s =>
          have hact : ∀ {a : R} {x : AIns R S M} {rest : List (AIns R S M)}, C.prog a = x :: rest → a ∉ U := by
            intro a x rest hp ha
            rw [(hlate a ha).1] at hp
            cases hp
          have hprog : ∀ {a : R} {rest : List (AIns R S M)}, a ∉ U → ∀ x ∉ U, Function.update C.prog a rest x = Function.update D.prog a rest x ∧ code x = code' x := by
            intro a rest ha x hx
            by_cases e : x = a
            · subst e; rw [Function.update_self, Function.update_self]; exact ⟨rfl, (hsame x hx).2⟩
            · rw [Function.update_of_ne e, Function.update_of_ne e]; exact hsame x hx
          cases s with
          | loc a f rest hp =>
            have ha := hact hp
            refine ihY _ (.ins D _ code' (.loc D a f rest (by rw [← (hsame a ha).1]; exact hp))) (U := U) ⟨?_, eout, einn, hprog ha, ?_⟩
            · dsimp only; rw [est]
            · intro x hx
              have e : x ≠ a := by rintro rfl; exact ha hx
              dsimp only
              rw [Function.update_of_ne e, Function.update_of_ne e, Function.update_of_ne e]
              exact hlate x hx
          | isend a d rd rest hp =>
            have ha := hact hp
            refine ihY _ (.ins D _ code' (.isend D a d rd rest (by rw [← (hsame a ha).1]; exact hp))) (U := U) ⟨est, ?_, einn, hprog ha, ?_⟩
            · dsimp only; rw [eout]
            · intro x hx
              have e : x ≠ a := by rintro rfl; exact ha hx
              dsimp only
              rw [Function.update_of_ne e, Function.update_of_ne e]
              exact hlate x hx
          | irecv a d wr rest hp =>
            have ha := hact hp
            refine ihY _ (.ins D _ code' (.irecv D a d wr rest (by rw [← (hsame a ha).1]; exact hp))) (U := U) ⟨est, eout, ?_, hprog ha, ?_⟩
            · dsimp only; rw [einn]
            · intro x hx
              have e : x ≠ a := by rintro rfl; exact ha hx
              dsimp only
              rw [Function.update_of_ne e, Function.update_of_ne e]
              obtain ⟨h1, h2, h3, h4⟩ := hlate x hx
              refine ⟨h1, h2, fun s => ?_, h4⟩
              rw [upd2_ne _ _ (fun h => e h.2)]
              exact h3 s
          | waitall a rest hp h1 h2 =>
            have ha := hact hp
            refine ihY _ (.ins D _ code' (.waitall D a rest (by rw [← (hsame a ha).1]; exact hp) (by rw [← eout]; exact h1) (by rw [← einn]; exact h2))) (U := U)
              ⟨est, eout, einn, hprog ha, ?_⟩
            intro x hx
            have e : x ≠ a := by rintro rfl; exact ha hx
            dsimp only
            rw [Function.update_of_ne e, Function.update_of_ne e]
            exact hlate x hx
          | pick s r i rd h1 h2 =>
            refine ihY _ (.ins D _ code' (.pick D s r i rd (by rw [← eout]; exact h1) (by rw [← einn]; exact h2))) (U := U) ⟨est, ?_, einn, hsame, hlate⟩
            dsimp only
            rw [eout, est]
          | land s r i v wr h1 h2 =>
            have hr : r ∉ U := by
              intro hr
              rw [(hlate r hr).2.2.1 s] at h2
              simp at h2
            refine ihY _ (.ins D _ code' (.land D s r i v wr (by rw [← eout]; exact h1) (by rw [← einn]; exact h2))) (U := U) ⟨?_, ?_, ?_, hsame, ?_⟩
            · dsimp only; rw [est]
            · dsimp only; rw [eout]
            · dsimp only; rw [einn]
            · intro x hx
              have e : x ≠ r := by rintro rfl; exact hr hx
              obtain ⟨h1, h2, h3, h4⟩ := hlate x hx
              dsimp only
              rw [Function.update_of_ne e]
              refine ⟨h1, h2, fun s' => ?_, h4⟩
              rw [upd2_ne _ _ (fun h => e h.2)]
              exact h3 s'

/-- `C` is what `D1` of a round and some run of the rest of the programs, started from any final states that agree with `D1`, make up together. -/
def RoundInv (b : Bool) (code' : R → RProg R S M) (D1 C : AConf R S M) (cd : R → RProg R S M) : Prop :=
  ∀ w', Agrees D1 w' → ∃ D2, DStar b (DConf.start code' w') ⟨D2, cd⟩ ∧ Split (fun _ => []) w' C D1 D2

theorem split_done {w' : R → S} {C D1 D2 : AConf R S M} (hi : LInv D1) (hd1 : D1.Done) (hS : Split (fun _ => []) w' C D1 D2) : C = D2 := by
  have hout : ∀ s r, D1.out s r = [] := by
    intro s r
    have := hi.cnt s r
    rw [hd1 s, hd1 r, (hi.fin r (hd1 r)).2 s] at this
    simp only [nSends, nRecvs, List.length_nil] at this
    exact List.length_eq_zero_iff.1 (by omega)
  obtain ⟨p, q, o, i⟩ := C
  obtain ⟨p', q', o', i'⟩ := D2
  congr 1
  · funext a; exact (hS.late a (hd1 a)).1
  · funext a; exact (hS.late a (hd1 a)).2
  · funext s r; have := hS.out s r; rw [hout] at this; exact this
  · funext s r; have := hS.inn s r; rw [(hi.fin r (hd1 r)).2 s] at this; exact this

theorem round_fine {b : Bool} {Post : (R → S) → Prop} {P : R → List (AIns R S M)} {w : R → S} (hL : Layer P) (hs : NoStuck b P) {N : ℕ}
    (hN : ∀ n C, ARun b n (AConf.start P w) C → n ≤ N) {code' : R → RProg R S M} (hnext : ∀ w', AExec b P w w' → Fine b Post (DConf.start code' w')) :
    ∀ k n D1, N - n = k → ARun b n (AConf.start P w) D1 → ∀ C cd, RoundInv b code' D1 C cd → Fine b Post ⟨C, cd⟩ := by
  intro k
  induction k using Nat.strong_induction_on with
  | _ k ihk =>
    intro n D1 hk hr C cd hinv
    have hi := (LInv.start hL w).run hr
    obtain ⟨m, E, hE, hEd, hex⟩ := run_finish hs hN hr
    have hag : Agrees D1 E.st := fun a ha => (fin_keeps hi hE ha).2
    obtain ⟨D2, hstar, hsp⟩ := hinv E.st hag
    have hf := (hnext E.st hex).star hstar
    generalize hX : (⟨D2, cd⟩ : DConf R S M) = X at hf
    clear hstar
    induction hf generalizing D2 C cd with
    | mk post go next ihf =>
      subst hX
      have hdone : (⟨C, cd⟩ : DConf R S M).Done → D1.Done := by
        intro hd a
        by_contra ha
        have := (hsp.early a ha).1
        rw [(hd a).1, List.append_nil] at this
        exact ha this.symm
      constructor
      · intro hd
        have := split_done hi (hdone hd) hsp
        subst this
        exact post hd
      · intro hd
        by_cases hd1 : D1.Done
        · have := split_done hi hd1 hsp
          subst this
          exact go hd
        · obtain ⟨D1', s⟩ := hs w n D1 hr hd1
          obtain ⟨C', s'⟩ := lift_first hsp s
          exact ⟨_, .ins C C' cd s'⟩
      · intro Y hY
        cases hY with
        | ins _ C' _ s =>
          rcases split_step hi hsp s with ⟨D1', s1, h2⟩ | h2
          · have hlt := hN _ _ (ARun.tail hr s1)
            refine ihk (N - (n + 1)) (by omega) (n + 1) D1' rfl (.tail hr s1) C' cd ?_
            intro w' hw'
            obtain ⟨hw, h3⟩ := h2 w' hw'
            obtain ⟨D, hD, hS⟩ := hinv w' hw
            exact ⟨D, hD, h3 D hS⟩
          · obtain ⟨D2', s2, hS2⟩ := h2 _ D2 hsp
            refine ihf ⟨D2', cd⟩ (.ins D2 D2' cd s2) C' cd ?_ D2' hS2 rfl
            intro w' hw'
            obtain ⟨D, hD, hS⟩ := hinv w' hw'
            obtain ⟨D', sD, hS'⟩ := h2 w' D hS
            exact ⟨D', .tail hD (.ins D D' cd sD), hS'⟩
        | load _ _ a l kk hc hp =>
          have ha : D1.prog a = [] := by
            by_contra ha
            have := (hsp.early a ha).1
            rw [hp, List.append_nil] at this
            exact ha this.symm
          have hgo : ∀ w' D, Split (fun _ => []) w' C D1 D → DStep b ⟨D, cd⟩ ⟨{ D with prog := Function.update D.prog a (l (C.st a)) }, Function.update cd a (kk (C.st a))⟩ ∧
              Split (fun _ => []) w' { C with prog := Function.update C.prog a (l (C.st a)) } D1 { D with prog := Function.update D.prog a (l (C.st a)) } := by
            intro w' D hS
            obtain ⟨e1, e2⟩ := hS.late a ha
            constructor
            · have := DStep.load (b := b) D cd a l kk hc (by rw [← e1]; exact hp)
              rw [e2]
              exact this
            · refine ⟨?_, ?_, hS.out, hS.inn⟩
              · intro x hx
                have e : x ≠ a := by rintro rfl; exact hx ha
                dsimp only
                rw [Function.update_of_ne e, Function.update_of_ne e]
                exact hS.early x hx
              · intro x hx
                dsimp only
                by_cases e : x = a
                · subst e; rw [Function.update_self, Function.update_self]; exact ⟨rfl, e2⟩
                · rw [Function.update_of_ne e, Function.update_of_ne e]; exact hS.late x hx
          obtain ⟨s2, hS2⟩ := hgo _ D2 hsp
          refine ihf _ s2 _ _ ?_ _ hS2 rfl
          intro w' hw'
          obtain ⟨D, hD, hS⟩ := hinv w' hw'
          obtain ⟨s3, hS3⟩ := hgo _ D hS
          exact ⟨_, .tail hD s3, hS3⟩

/-- **C85** Programs which agree on the messages when all ranks go from round to round together: run at their own speed, by ranks which decide what to do next from their
own local states alone, they get stuck nowhere, come to an end, and compute the same. -/
theorem rounds_sound {b : Bool} {ranks : List R} {Post : (R → S) → Prop} {code : R → RProg R S M} {w : R → S} (h0 : ∀ r ∉ ranks, code r = .stop)
    (h : Rounds b ranks Post code w) : Fine b Post (DConf.start code w) := by
  induction h with
  | stop hc hp =>
    rename_i code w
    constructor
    · exact fun _ => hp
    · intro hd
      exact absurd (fun r => ⟨rfl, hc r⟩) hd
    · intro Y hY
      generalize hX : DConf.start code w = X at hY
      cases hY with
      | ins C C' cd s =>
        unfold DConf.start at hX
        cases hX
        exfalso
        cases s with
        | loc a f rest hp => cases hp
        | isend a d rd rest hp => cases hp
        | irecv a d wr rest hp => cases hp
        | waitall a rest hp => cases hp
        | pick s r i rd h1 => simp [AConf.start] at h1
        | land s r i v wr h1 => simp [AConf.start] at h1
      | load C cd a l k hca hp =>
        unfold DConf.start at hX
        cases hX
        rw [hc a] at hca
        cases hca
  | round Ls code' hL h next ih =>
    rename_i code w
    have hLay := layers_layer fun L hl => (hL L hl).layer
    obtain ⟨hs, N, hN⟩ := pieces_terminate hL b
    have h0' : ∀ r ∉ ranks, code' r = .stop := by
      intro r hr
      rcases h r with ⟨l, k, e, -⟩ | ⟨-, e⟩
      · rw [h0 r hr] at e; cases e
      · rw [e, h0 r hr]
    have hY : Fine b Post ⟨AConf.start (layersProg Ls) w, code'⟩ := by
      refine round_fine hLay hs (fun n C => hN w n C) (code' := code') (fun w' hw' => ih w' (layers_exec (fun L hl => (hL L hl).layer) hw') h0') _ 0 _ rfl (.refl _) _ _ ?_
      intro w' hw'
      refine ⟨_, .refl _, ?_, ?_, fun _ _ => rfl, fun _ _ => rfl⟩
      · intro a ha
        exact ⟨by simp [AConf.start], rfl, rfl, rfl, fun _ => rfl, fun _ => rfl⟩
      · intro a ha
        exact ⟨ha, (hw' a ha).symm⟩
    classical
    refine norm_fine hY (w := w) (U := ranks.toFinset.filter fun r => ∃ l k, code r = .blk l k ∧ layersProg Ls r = l (w r) ∧ code' r = k (w r)) ⟨rfl, rfl, rfl, ?_, ?_⟩
    · intro a ha
      rw [Finset.mem_filter, List.mem_toFinset] at ha
      rcases h a with ⟨l, k, e1, e2, e3⟩ | ⟨e1, e2⟩
      · by_cases har : a ∈ ranks
        · exact absurd ⟨har, l, k, e1, e2, e3⟩ ha
        · rw [h0 a har] at e1; cases e1
      · exact ⟨e1.symm, e2.symm⟩
    · intro a ha
      obtain ⟨-, l, k, e1, e2, e3⟩ := Finset.mem_filter.1 ha
      exact ⟨rfl, rfl, fun _ => rfl, l, k, e1, e2, e3⟩

end Sopht
