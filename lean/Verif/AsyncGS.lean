import Verif.AsyncVbf
import Verif.GhostSumProps
import Mathlib.Data.List.Sort

/-!
# The ghost sum run by ranks at their own speed

`ghost_sum` (`EulerianLagrangianGridCommunicatorMPI2D.py:563-646`, `EulerianLagrangianGridCommunicatorMPI3D.py:677-792`, both in
`sopht_mpi/numeric/immersed_boundary_ops/`) as a program of blocking calls of one rank among ranks which may be anywhere else in their own programs.
-/

namespace Sopht

/-! ## Blocks of all ranks -/

section
variable {R S M : Type} [DecidableEq R]

/-- The ranks `ranks` run the programs `code`; there are no others. -/
def onRanks (ranks : List R) (code : R → RProg R S M) (r : R) : RProg R S M := if r ∈ ranks then code r else .stop

/-- Instructions which do not depend on the state, then the rest. -/
def RProg.run (l : List (AIns R S M)) (k : RProg R S M) : RProg R S M := .blk (fun _ => l) fun _ => k

/-- The rest depends on what the rank holds now. -/
def RProg.read (k : S → RProg R S M) : RProg R S M := .blk (fun _ => []) k

theorem onRanks_congr {ranks : List R} {code code' : R → RProg R S M} (h : ∀ r ∈ ranks, code r = code' r) : onRanks ranks code = onRanks ranks code' := by
  funext r
  unfold onRanks
  split
  · rename_i hr; exact h r hr
  · rfl

theorem Rounds.blk {b : Bool} {ranks : List R} {Post : (R → S) → Prop} {l : R → S → List (AIns R S M)} {k : R → S → RProg R S M} {w : R → S}
    (Ls : List (R → List (AIns R S M))) (hL : ∀ L ∈ Ls, Piece ranks L) (hprog : ∀ r ∈ ranks, layersProg Ls r = l r (w r))
    (next : ∀ w', ExecSeq b Ls w w' → Rounds b ranks Post (onRanks ranks fun r => k r (w r)) w') : Rounds b ranks Post (onRanks ranks fun r => .blk (l r) (k r)) w := by
  refine .round Ls _ hL ?_ next
  intro r
  unfold onRanks
  by_cases hr : r ∈ ranks
  · rw [if_pos hr, if_pos hr]
    exact Or.inl ⟨_, _, rfl, hprog r hr, rfl⟩
  · rw [if_neg hr, if_neg hr]
    exact Or.inr ⟨layersProg_outside hL hr, rfl⟩

theorem Rounds.run {b : Bool} {ranks : List R} {Post : (R → S) → Prop} {l : R → List (AIns R S M)} {k : R → RProg R S M} {w : R → S}
    (Ls : List (R → List (AIns R S M))) (hL : ∀ L ∈ Ls, Piece ranks L) (hprog : ∀ r ∈ ranks, layersProg Ls r = l r)
    (next : ∀ w', ExecSeq b Ls w w' → Rounds b ranks Post (onRanks ranks k) w') : Rounds b ranks Post (onRanks ranks fun r => RProg.run (l r) (k r)) w :=
  Rounds.blk Ls hL hprog next

theorem Rounds.read {b : Bool} {ranks : List R} {Post : (R → S) → Prop} {k : R → S → RProg R S M} {w : R → S}
    (next : Rounds b ranks Post (onRanks ranks fun r => k r (w r)) w) : Rounds b ranks Post (onRanks ranks fun r => RProg.read (k r)) w :=
  Rounds.blk (l := fun _ _ => []) [] (by intro L hL; cases hL) (fun _ _ => rfl) fun w' hw => by
    have : w' = w := hw
    subst this
    exact next

end

section
variable {R L M : Type} [DecidableEq R]

/-- The phases of a blocking neighbour exchange, as rank `r` runs them. -/
def phasesProg (ph : ℕ → Phase R L M) (K : ℕ) (r : R) : List (Ins R L M) := (List.range K).flatMap fun k => phaseProg (ph k).dst (ph k).src (ph k).pay (ph k).app r

/-- The ranks, the ones with small numbers first. -/
def byNumber (num : R → ℕ) (ranks : List R) : List R := ranks.insertionSort fun a b => num a ≤ num b

/-- All messages of the phases. -/
def phasesItems (ranks : List R) (ph : ℕ → Phase R L M) (num : ℕ → R → ℕ) (K : ℕ) : List (Item R L M) :=
  (List.range K).flatMap fun k => phaseItems (ph k).dst (ph k).src (ph k).pay (ph k).app (byNumber (num k) ranks) ranks

theorem phaseOk_of {ranks : List R} (hn : ranks.Nodup) {K : ℕ} {ph : ℕ → Phase R L M} (hp : Paired ranks K ph) {num : ℕ → R → ℕ}
    (hnum : ∀ k < K, ∀ a ∈ ranks, ∀ d, (ph k).dst a = some d → num k d < num k a) {k : ℕ} (hk : k < K) :
    PhaseOk (ph k).dst (ph k).src (byNumber (num k) ranks) ranks := by
  have hmem : ∀ r, r ∈ byNumber (num k) ranks ↔ r ∈ ranks := fun r => List.mem_insertionSort _
  refine ⟨hn, hmem, ?_, ?_, hp.srcIn k hk, ?_, ?_⟩
  · exact (List.perm_insertionSort _ ranks).nodup_iff.2 hn
  · intro r hr d
    constructor
    · intro h
      have hd := hp.dstIn k hk r hr d h
      exact ⟨hd, (hp.pair k hk r hr d hd).1 h⟩
    · rintro ⟨hd, h⟩
      exact (hp.pair k hk r hr d hd).2 h
  · intro r hr h
    have := hnum k hk r hr r h
    omega
  · haveI : Std.Total (fun a b : R => num k a ≤ num k b) := ⟨fun a b => le_total _ _⟩
    haveI : IsTrans R (fun a b : R => num k a ≤ num k b) := ⟨fun a b c h h' => le_trans h h'⟩
    have hs : (byNumber (num k) ranks).Pairwise fun a b => num k a ≤ num k b := List.pairwise_insertionSort _ ranks
    refine hs.imp_of_mem ?_
    intro a c ha _ hle he
    have := hnum k hk a ((hmem a).1 ha) c he
    omega

theorem phases_parts {ranks : List R} (hn : ranks.Nodup) {K : ℕ} {ph : ℕ → Phase R L M} (hp : Paired ranks K ph) {num : ℕ → R → ℕ}
    (hnum : ∀ k < K, ∀ a ∈ ranks, ∀ d, (ph k).dst a = some d → num k d < num k a) : PParts ranks (phasesProg ph K) (phasesItems ranks ph num K) := by
  constructor
  · intro x hx
    obtain ⟨k, hk, hx⟩ := List.mem_flatMap.1 hx
    exact phaseItems_plain _ _ (phaseOk_of hn hp hnum (List.mem_range.1 hk)) x hx
  · intro r hr
    unfold phasesProg phasesItems
    have : ∀ l : List ℕ, (∀ k ∈ l, k < K) → (l.flatMap fun k => phaseProg (ph k).dst (ph k).src (ph k).pay (ph k).app r) =
        proj r (l.flatMap fun k => phaseItems (ph k).dst (ph k).src (ph k).pay (ph k).app (byNumber (num k) ranks) ranks) := by
      intro l
      induction l with
      | nil => intro _; rfl
      | cons k l ih =>
        intro h
        rw [List.flatMap_cons, List.flatMap_cons, proj_append, ih fun k' h' => h k' (List.mem_cons_of_mem _ h'),
          phaseItems_proj _ _ (phaseOk_of hn hp hnum (h k List.mem_cons_self)) hr]
    exact this _ fun k hk => List.mem_range.1 hk

theorem phases_exec {ranks : List R} (hn : ranks.Nodup) {ph : ℕ → Phase R L M} {num : ℕ → R → ℕ} (w : R → L) {v : R → L} (hv : ∀ r ∈ ranks, w r = v r) :
    ∀ {K : ℕ}, Paired ranks K ph → (∀ k < K, ∀ a ∈ ranks, ∀ d, (ph k).dst a = some d → num k d < num k a) →
    ∀ r ∈ ranks, execAll ranks (phasesItems ranks ph num K) w r = syncRun ph v K r := by
  intro K
  induction K with
  | zero => intro _ _ r hr; exact hv r hr
  | succ K ih =>
    intro hp hnum r hr
    have hp' : Paired ranks K ph := ⟨fun k hk => hp.pair k (by omega), fun k hk => hp.dstIn k (by omega), fun k hk => hp.srcIn k (by omega)⟩
    have ih := ih hp' fun k hk => hnum k (by omega)
    unfold phasesItems
    rw [List.range_succ, List.flatMap_append, execAll_append, List.flatMap_singleton,
      phaseItems_exec _ _ (phaseOk_of hn hp hnum (Nat.lt_succ_self K)) _ r hr]
    change (ph K).app (execAll ranks (phasesItems ranks ph num K) w r) (((ph K).src r).map fun s => (ph K).pay (execAll ranks (phasesItems ranks ph num K) w s)) =
      (ph K).app (syncRun ph v K r) (((ph K).src r).map fun a => (ph K).pay (syncRun ph v K a))
    rw [ih r hr]
    cases hs : (ph K).src r with
    | none => rfl
    | some s =>
      have hsr := hp.srcIn K (Nat.lt_succ_self K) r hr s hs
      simp only [Option.map_some, ih s hsr]

end

/-! ## 2D -/

section
variable {T : Cart2}

/-- `ghost_sum` of rank `r` (2D:563-652). -/
noncomputable def gsProg2 (T : Cart2) (g : ℕ) (r : C2) : List (Ins C2 (GS2 ℝ) (C2 → ℝ)) :=
  phasesProg (gsPhase2 T g) 4 r ++ [.loc fun l => { l with A := clearGhosts2 T g l.A }]

/-- A numbering of the ranks along which the messages of a phase go down. -/
def gsNum2 (T : Cart2) (k : ℕ) (c : C2) : ℕ := match k with
  | 0 => (T.py - c.1).toNat
  | 1 => (T.px - c.2).toNat
  | 2 => c.1.toNat
  | _ => c.2.toNat

theorem gsNum2_lt (hper : T.per = false) (g : ℕ) : ∀ k < 4, ∀ a ∈ ranks2 T, ∀ d, (gsPhase2 (α := ℝ) T g k).dst a = some d → gsNum2 T k d < gsNum2 T k a := by
  intro k hk a ha b h
  rw [mem_ranks2] at ha
  obtain ⟨h0, h1, h2, h3⟩ := id ha
  interval_cases k <;> simp only [gsPhase2, gsNum2] at h ⊢
  · rw [nextY2_eq ha, nbr2_eq_some, hper] at h
    have := axisNbr_np h.1
    simp only at this; omega
  · rw [nextX2_eq ha, nbr2_eq_some, hper] at h
    have := axisNbr_np h.2
    simp only at this; omega
  · rw [prevY2_eq ha, nbr2_eq_some, hper] at h
    have := axisNbr_np h.1
    have := axisNbr_range (by omega) h.1
    simp only at *; omega
  · rw [prevX2_eq ha, nbr2_eq_some, hper] at h
    have := axisNbr_np h.2
    have := axisNbr_range (by omega) h.2
    simp only at *; omega

/-- The messages of one `ghost_sum`. -/
noncomputable def gsItems2 (T : Cart2) (g : ℕ) : List (Item C2 (GS2 ℝ) (C2 → ℝ)) :=
  phasesItems (ranks2 T) (gsPhase2 T g) (gsNum2 T) 4 ++ allLoc (ranks2 T) fun _ l => { l with A := clearGhosts2 T g l.A }

theorem gsItems2_parts (hper : T.per = false) (g : ℕ) : PParts (ranks2 T) (gsProg2 T g) (gsItems2 T g) :=
  (phases_parts (ranks2_nodup T) (gs2_paired T g) (gsNum2_lt hper g)).append ((allLoc_parts (ranks2_nodup T) _).plain (allLoc_p2p _ _))

/-- The ghost sum with all ranks at their own speed gives what the lock-step model gives. -/
theorem gsItems2_exec (hper : T.per = false) (g : ℕ) (w : C2 → GS2 ℝ) {v : C2 → GS2 ℝ} (hv : ∀ r ∈ ranks2 T, w r = v r) (r : C2) (hr : r ∈ ranks2 T) :
    execAll (ranks2 T) (gsItems2 T g) w r = ghostSum2 T g v r := by
  unfold gsItems2
  rw [execAll_append, exec_allLoc (ranks2_nodup T)]
  dsimp only
  rw [if_pos hr, phases_exec (ranks2_nodup T) w hv (gs2_paired T g) (gsNum2_lt hper g) r hr]
  rfl

end

/-! ## 3D -/

section
variable {T : Cart3}

/-- `ghost_sum` of rank `r` (3D:677-792). -/
noncomputable def gsProg3 (T : Cart3) (g : ℕ) (r : C3) : List (Ins C3 (GS3 ℝ) (C3 → ℝ)) :=
  phasesProg (gsPhase3 T g) 6 r ++ [.loc fun l => { l with A := clearGhosts3 T g l.A }]

/-- A numbering of the ranks along which the messages of a phase go down. -/
def gsNum3 (T : Cart3) (k : ℕ) (c : C3) : ℕ := match k with
  | 0 => (T.pz - c.1).toNat
  | 1 => (T.py - c.2.1).toNat
  | 2 => (T.px - c.2.2).toNat
  | 3 => c.1.toNat
  | 4 => c.2.1.toNat
  | _ => c.2.2.toNat

theorem gsNum3_lt (hper : T.per = false) (g : ℕ) : ∀ k < 6, ∀ a ∈ ranks3 T, ∀ d, (gsPhase3 (α := ℝ) T g k).dst a = some d → gsNum3 T k d < gsNum3 T k a := by
  intro k hk a ha b h
  rw [mem_ranks3] at ha
  obtain ⟨h0, h1, h2, h3, h4, h5⟩ := id ha
  interval_cases k <;> simp only [gsPhase3, gsNum3] at h ⊢
  · rw [nextZ3_eq ha, nbr3_eq_some, hper] at h
    have := axisNbr_np h.1
    simp only at this; omega
  · rw [nextY3_eq ha, nbr3_eq_some, hper] at h
    have := axisNbr_np h.2.1
    simp only at this; omega
  · rw [nextX3_eq ha, nbr3_eq_some, hper] at h
    have := axisNbr_np h.2.2
    simp only at this; omega
  · rw [prevZ3_eq ha, nbr3_eq_some, hper] at h
    have := axisNbr_np h.1
    have := axisNbr_range (by omega) h.1
    simp only at *; omega
  · rw [prevY3_eq ha, nbr3_eq_some, hper] at h
    have := axisNbr_np h.2.1
    have := axisNbr_range (by omega) h.2.1
    simp only at *; omega
  · rw [prevX3_eq ha, nbr3_eq_some, hper] at h
    have := axisNbr_np h.2.2
    have := axisNbr_range (by omega) h.2.2
    simp only at *; omega

/-- The messages of one `ghost_sum`. -/
noncomputable def gsItems3 (T : Cart3) (g : ℕ) : List (Item C3 (GS3 ℝ) (C3 → ℝ)) :=
  phasesItems (ranks3 T) (gsPhase3 T g) (gsNum3 T) 6 ++ allLoc (ranks3 T) fun _ l => { l with A := clearGhosts3 T g l.A }

theorem gsItems3_parts (hper : T.per = false) (g : ℕ) : PParts (ranks3 T) (gsProg3 T g) (gsItems3 T g) :=
  (phases_parts (ranks3_nodup T) (gs3_paired T g) (gsNum3_lt hper g)).append ((allLoc_parts (ranks3_nodup T) _).plain (allLoc_p2p _ _))

/-- The ghost sum with all ranks at their own speed gives what the lock-step model gives. -/
theorem gsItems3_exec (hper : T.per = false) (g : ℕ) (w : C3 → GS3 ℝ) {v : C3 → GS3 ℝ} (hv : ∀ r ∈ ranks3 T, w r = v r) (r : C3) (hr : r ∈ ranks3 T) :
    execAll (ranks3 T) (gsItems3 T g) w r = ghostSum3 T g v r := by
  unfold gsItems3
  rw [execAll_append, exec_allLoc (ranks3_nodup T)]
  dsimp only
  rw [if_pos hr, phases_exec (ranks3_nodup T) w hv (gs3_paired T g) (gsNum3_lt hper g) r hr]
  rfl

end

end Sopht
