import Verif.AsyncLayers

/-!
# Collective operations as layers

A collective operation (`allreduce`, the transposes of the distributed FFT, …) in which the ranks depend on each other: rank `c` sends a packet to every rank `d` with
`dest c d` and receives one from every rank `s` with `dest s c`.  `dest` all: nobody finishes before everybody has started.
-/

namespace Sopht

variable {R S α : Type} [DecidableEq R]

/-- Local work, packets out and in, `Waitall`. The packets received are kept in the part `mb` of the state. -/
def collLayer (ranks : List R) (mb : Part S (R → List α)) (pre : R → S → S) (dest : R → R → Bool) (rd : R → R → S → List α) (c : R) : List (AIns R S (List α)) :=
  if c ∈ ranks then
    .loc (pre c) :: (ranks.flatMap (fun d =>
      (if dest c d then [.isend d (rd c d)] else []) ++
      (if dest d c then [.irecv d fun v s => mb.put s (Function.update (mb.get s) d v)] else [])) ++ [.loc fun s => s, .waitall])
  else []

/-- The same as posted pairs: element `.inl d` of the array of a rank is its packet for `d`, element `.inr s` the packet of `s`. -/
def collPosts (ranks : List R) (dest : R → R → Bool) (c : R) : List (Post R (R ⊕ R)) :=
  ranks.map fun d => ⟨if dest c d then some d else none, [.inl d], if dest d c then some d else none, [.inr d]⟩

theorem collPosts_sends {ranks : List R} (hn : ranks.Nodup) (dest : R → R → Bool) (s r : R) :
    sendsTo (collPosts ranks dest) s r = if r ∈ ranks ∧ dest s r = true then [[.inl r]] else [] := by
  unfold sendsTo collPosts
  rw [List.filterMap_map]
  induction ranks with
  | nil => simp
  | cons x l ih =>
    have hx := List.nodup_cons.1 hn
    rw [List.filterMap_cons]
    dsimp only [Function.comp_apply]
    rw [ih hx.2]
    by_cases e : x = r
    · subst e
      cases hd : dest s x <;> simp [hx.1]
    · have e' : r ≠ x := fun h => e h.symm
      cases hd : dest s x <;> simp [e, e']

theorem collPosts_recvs {ranks : List R} (hn : ranks.Nodup) (dest : R → R → Bool) (r s : R) :
    recvsOf (collPosts ranks dest) r s = if s ∈ ranks ∧ dest s r = true then [[.inr s]] else [] := by
  unfold recvsOf collPosts
  rw [List.filterMap_map]
  induction ranks with
  | nil => simp
  | cons x l ih =>
    have hx := List.nodup_cons.1 hn
    rw [List.filterMap_cons]
    dsimp only [Function.comp_apply]
    rw [ih hx.2]
    by_cases e : x = s
    · subst e
      cases hd : dest x r <;> simp [hx.1]
    · have e' : s ≠ x := fun h => e h.symm
      cases hd : dest x r <;> simp [e, e']

theorem collPosts_matched {ranks : List R} (hn : ranks.Nodup) (dest : R → R → Bool) : AllMatched ranks (collPosts ranks dest) := by
  constructor
  · intro s hs p hp
    obtain ⟨d, hd, rfl⟩ := List.mem_map.1 hp
    dsimp only
    constructor
    · intro r hr
      split at hr
      · cases hr; exact hd
      · cases hr
    · intro r hr
      split at hr
      · cases hr; exact hd
      · cases hr
  · intro s hs r hr
    rw [collPosts_sends hn, collPosts_recvs hn]
    cases h : dest s r <;> simp [hs, hr]

theorem mem_collMsgs {ranks : List R} (hn : ranks.Nodup) (dest : R → R → Bool) (m : Msg R (R ⊕ R)) :
    m ∈ allMsgs ranks (collPosts ranks dest) ↔ ∃ s ∈ ranks, ∃ r ∈ ranks, dest s r = true ∧ m = ⟨s, r, [.inl r], [.inr s]⟩ := by
  unfold allMsgs
  simp only [List.mem_flatMap]
  constructor
  · rintro ⟨s, hs, r, hr, hm⟩
    unfold matched at hm
    rw [collPosts_sends hn, collPosts_recvs hn] at hm
    cases hd : dest s r
    · simp [hd] at hm
    · simp only [hr, hd, and_self, if_true, hs, List.zip_cons_cons, List.zip_nil_right, List.map_cons, List.map_nil, List.mem_singleton] at hm
      exact ⟨s, hs, r, hr, hd, hm⟩
  · rintro ⟨s, hs, r, hr, hd, rfl⟩
    refine ⟨s, hs, r, hr, ?_⟩
    unfold matched
    rw [collPosts_sends hn, collPosts_recvs hn]
    simp [hr, hd, hs]

theorem coll_runNet {ranks : List R} (hn : ranks.Nodup) (dest : R → R → Bool) (w0 : World R (R ⊕ R) α) {sched : List Ev}
    (hc : Complete (allMsgs ranks (collPosts ranks dest)) sched) (c : R) (i : R ⊕ R) :
    runNet (allMsgs ranks (collPosts ranks dest)) w0 sched c i =
      match i with
      | .inl d => w0 c (.inl d)
      | .inr s => if s ∈ ranks ∧ c ∈ ranks ∧ dest s c = true then w0 s (.inl c) else w0 c (.inr s) := by
  have hS : ExchSpec (allMsgs ranks (collPosts ranks dest)) w0 (fun c i => match i with
      | .inl d => w0 c (.inl d)
      | .inr s => if s ∈ ranks ∧ c ∈ ranks ∧ dest s c = true then w0 s (.inl c) else w0 c (.inr s)) := by
    constructor
    · intro m hm
      obtain ⟨s, hs, r, hr, hd, rfl⟩ := (mem_collMsgs hn dest m).1 hm
      rfl
    · intro m hm p hp
      obtain ⟨s, hs, r, hr, hd, rfl⟩ := (mem_collMsgs hn dest m).1 hm
      simp only [List.zip_cons_cons, List.zip_nil_right, List.mem_singleton] at hp
      subst hp
      dsimp only
      rw [if_pos ⟨hs, hr, hd⟩]
    · intro r i h
      cases i with
      | inl d => rfl
      | inr s =>
        dsimp only
        rw [if_neg]
        rintro ⟨hs, hr, hd⟩
        exact h _ ((mem_collMsgs hn dest _).2 ⟨s, hs, r, hr, hd, rfl⟩) rfl (by simp)
    · intro m hm i hi m' hm' _
      obtain ⟨s, hs, r, hr, hd, rfl⟩ := (mem_collMsgs hn dest m).1 hm
      obtain ⟨s', hs', r', hr', hd', rfl⟩ := (mem_collMsgs hn dest m').1 hm'
      simp only [List.mem_singleton] at hi
      subst hi
      simp
  rw [runNet_eq hS hc]

theorem collLayer_rel (ranks : List R) (mb : Part S (R → List α)) (pre : R → S → S) (dest : R → R → Bool) (rd : R → R → S → List α)
    (hrd : ∀ c d s m, rd c d (mb.put s m) = rd c d s) (c : R) :
    List.Forall₂ (InsRel (fun s (x : (R ⊕ R → List α) × S) => s = mb.put x.2 (fun r => x.1 (.inr r)) ∧ ∀ d, x.1 (.inl d) = rd c d s) (fun v v' => v' = [v]))
      (collLayer ranks mb pre dest rd c)
      (exchProg ranks (fun c x => (Sum.elim (fun d => rd c d (pre c (mb.put x.2 fun r => x.1 (.inr r)))) (mb.get (pre c (mb.put x.2 fun r => x.1 (.inr r)))),
        pre c (mb.put x.2 fun r => x.1 (.inr r)))) (collPosts ranks dest) (fun _ _ s => s) c) := by
  unfold collLayer exchProg
  split
  · refine .cons ?_ (List.rel_append ?_ (.cons ?_ (.cons ?_ .nil)))
    · rintro s x ⟨rfl, -⟩
      exact ⟨(mb.put_get _).symm, fun _ => rfl⟩
    · have key : ∀ l : List R, List.Forall₂ (InsRel (fun s (x : (R ⊕ R → List α) × S) => s = mb.put x.2 (fun r => x.1 (.inr r)) ∧ ∀ d, x.1 (.inl d) = rd c d s) (fun v v' => v' = [v]))
          (l.flatMap (fun d => (if dest c d then [.isend d (rd c d)] else []) ++
            (if dest d c then [.irecv d fun v s => mb.put s (Function.update (mb.get s) d v)] else [])))
          ((l.map fun d => (⟨if dest c d then some d else none, [.inl d], if dest d c then some d else none, [.inr d]⟩ : Post R (R ⊕ R))).flatMap postIns) := by
        intro l
        induction l with
        | nil => exact .nil
        | cons d l ih =>
          rw [List.flatMap_cons, List.map_cons, List.flatMap_cons]
          refine List.rel_append ?_ ih
          unfold postIns
          refine List.rel_append ?_ ?_
          · cases hd : dest c d
            · exact .nil
            · refine .cons ⟨rfl, ?_⟩ .nil
              rintro s x ⟨-, h⟩
              simp [h]
          · cases hd : dest d c
            · exact .nil
            · refine .cons ⟨rfl, ?_⟩ .nil
              rintro v v' s x rfl ⟨rfl, h⟩
              have hu : ∀ r, unpack x.1 [.inr d] [v] r = Function.update x.1 (.inr d) v r := fun r => rfl
              constructor
              · dsimp only
                rw [mb.get_put, mb.put_put]
                congr 1
                funext r
                rw [hu]
                by_cases e : r = d
                · subst e; simp
                · have : (Sum.inr r : R ⊕ R) ≠ .inr d := by simpa using e
                  rw [Function.update_of_ne e, Function.update_of_ne this]
              · intro d'
                dsimp only
                have : (Sum.inl d' : R ⊕ R) ≠ .inr d := by simp
                rw [hu, Function.update_of_ne this, h d', hrd, hrd, hrd]
      exact key ranks
    · rintro s x ⟨h1, h2⟩
      exact ⟨h1, h2⟩
    · trivial
  · exact .nil

theorem collLayer_flat (ranks : List R) (mb : Part S (R → List α)) (pre : R → S → S) (dest : R → R → Bool) (rd : R → R → S → List α) :
    Flat (collLayer ranks mb pre dest rd) := by
  intro r
  unfold collLayer
  split
  · right
    refine ⟨.loc (pre r) :: (ranks.flatMap (fun d =>
      (if dest r d then [.isend d (rd r d)] else []) ++
      (if dest d r then [.irecv d fun v s => mb.put s (Function.update (mb.get s) d v)] else [])) ++ [.loc fun s => s]), [], by simp, ?_, by intro x hx; cases hx⟩
    intro x hx
    simp only [List.mem_cons, List.mem_append, List.mem_flatMap, List.not_mem_nil, or_false] at hx
    rcases hx with rfl | ⟨d, -, hx | hx⟩ | rfl
    · simp
    · split at hx
      · rw [List.mem_singleton.1 hx]; simp
      · cases hx
    · split at hx
      · rw [List.mem_singleton.1 hx]; simp
      · cases hx
    · simp
  · left; intro x hx; cases hx

theorem collLayer_layer {ranks : List R} (hn : ranks.Nodup) (mb : Part S (R → List α)) (pre : R → S → S) (dest : R → R → Bool) (rd : R → R → S → List α)
    (hrd : ∀ c d s m, rd c d (mb.put s m) = rd c d s) : Layer (collLayer ranks mb pre dest rd) := by
  constructor
  · intro r
    rcases collLayer_flat ranks mb pre dest rd r with h | ⟨l, t, h1, -, h2⟩
    · exact Or.inl h
    · exact Or.inr ⟨l, t, h1, h2⟩
  · intro s r
    rw [nSends_rel (collLayer_rel ranks mb pre dest rd hrd s), nRecvs_rel (collLayer_rel ranks mb pre dest rd hrd r)]
    exact (exchProg_layer (collPosts_matched hn dest) _ _).balanced s r

/-- **C82** A collective operation run by ranks at their own speed: every rank ends up with the packets meant for it. -/
theorem collLayer_exec {ranks : List R} (hn : ranks.Nodup) (mb : Part S (R → List α)) (pre : R → S → S) (dest : R → R → Bool) (rd : R → R → S → List α)
    (hrd : ∀ c d s m, rd c d (mb.put s m) = rd c d s) {b : Bool} {w w' : R → S} (h : AExec b (collLayer ranks mb pre dest rd) w w') :
    (∀ c ∈ ranks, w' c = mb.put (pre c (w c)) fun s => if s ∈ ranks ∧ dest s c = true then rd s c (pre s (w s)) else mb.get (pre c (w c)) s) ∧
    ∀ c ∉ ranks, w' c = w c := by
  obtain ⟨v', hv, hrel⟩ := h.sim (v := fun c => (Sum.elim (fun d => rd c d (w c)) (mb.get (w c)), w c)) (collLayer_rel ranks mb pre dest rd hrd)
    (fun r => ⟨(mb.put_get _).symm, fun _ => rfl⟩)
  obtain ⟨s1, s, hc, hin, hout⟩ := exch_exec hn (collPosts_matched hn dest) hv
  refine ⟨fun c hcr => ?_, fun c hcr => ?_⟩
  · rw [(hrel c).1, hin c hcr]
    have : ∀ r, mb.put (w r) (mb.get (w r)) = w r := fun r => mb.put_get _
    simp only [Sum.elim_inr, this]
    congr 1
    funext s'
    rw [coll_runNet hn dest _ hc]
    simp only [Sum.elim_inl, Sum.elim_inr, hcr, true_and]
  · rw [(hrel c).1, hout c hcr]
    exact mb.put_get _

/-! ## Everything a layer must satisfy -/

/-- A communication-closed piece of program of the ranks `ranks`: one `Waitall`, messages among these ranks only. -/
structure Piece {M : Type} (ranks : List R) (L : R → List (AIns R S M)) : Prop where
  layer : Layer L
  flat : Flat L
  empty : ∀ a ∉ ranks, L a = []
  dest : ∀ a d rd, AIns.isend d rd ∈ L a → d ∈ ranks

theorem locLayer_piece {M : Type} (ranks : List R) (f : R → S → S) : Piece ranks (locLayer ranks f : R → List (AIns R S M)) := by
  refine ⟨locLayer_layer ranks f, locLayer_flat ranks f, ?_, ?_⟩
  · intro a ha; unfold locLayer; rw [if_neg ha]
  · intro a d rd h
    unfold locLayer at h
    split at h
    · simp at h
    · cases h

theorem exchLayer_piece {ι : Type} [DecidableEq ι] {ranks : List R} (L : Part S (ι → α)) (pre : R → S → S) {posts : R → List (Post R ι)} (hm : AllMatched ranks posts) (mid : R → S → S) :
    Piece ranks (exchLayer ranks L pre posts mid) := by
  refine ⟨exchLayer_layer L pre hm mid, exchLayer_ends ranks L pre posts mid, ?_, ?_⟩
  · intro a ha; unfold exchLayer; rw [if_neg ha]
  · intro a d rd h
    unfold exchLayer at h
    split at h
    · rename_i ha
      simp only [List.mem_cons, List.mem_append, List.mem_flatMap, List.not_mem_nil, or_false, reduceCtorEq, false_or] at h
      obtain ⟨p, hp, h⟩ := h
      refine (hm.1 a ha p hp).1 d ?_
      unfold postInsOf at h
      rcases List.mem_append.1 h with h | h
      · split at h
        · rename_i e
          rw [e]
          simp only [List.mem_singleton, AIns.isend.injEq] at h
          rw [h.1]
        · cases h
      · split at h
        · simp at h
        · cases h
    · cases h

theorem collLayer_piece {ranks : List R} (hn : ranks.Nodup) (mb : Part S (R → List α)) (pre : R → S → S) (dest : R → R → Bool) (rd : R → R → S → List α)
    (hrd : ∀ c d s m, rd c d (mb.put s m) = rd c d s) : Piece ranks (collLayer ranks mb pre dest rd) := by
  refine ⟨collLayer_layer hn mb pre dest rd hrd, collLayer_flat ranks mb pre dest rd, ?_, ?_⟩
  · intro a ha; unfold collLayer; rw [if_neg ha]
  · intro a d rd h
    unfold collLayer at h
    split at h
    · simp only [List.mem_cons, List.mem_append, List.mem_flatMap, List.not_mem_nil, or_false, reduceCtorEq, false_or] at h
      obtain ⟨d', hd', h | h⟩ := h
      · split at h
        · simp only [List.mem_singleton, AIns.isend.injEq] at h
          rw [h.1]; exact hd'
        · cases h
      · split at h
        · simp at h
        · cases h
    · cases h

/-- **C82** Every run of a program made of such pieces can be continued until all ranks have returned, and no run is longer than a number fixed in advance. -/
theorem pieces_terminate {M : Type} {ranks : List R} {Ls : List (R → List (AIns R S M))} (h : ∀ L ∈ Ls, Piece ranks L) (b : Bool) :
    NoStuck b (layersProg Ls) ∧ ∃ N, ∀ w n C, ARun b n (AConf.start (layersProg Ls) w) C → n ≤ N := by
  refine ⟨layers_noStuck fun L hL => ⟨(h L hL).layer, (h L hL).flat⟩, _, fun w n C hr => run_bound (F := ranks.toFinset) ?_ ?_ hr⟩
  · intro a ha
    rw [List.mem_toFinset] at ha
    unfold layersProg
    rw [List.flatMap_eq_nil_iff]
    exact fun L hL => (h L hL).empty a ha
  · intro a d rd hd
    rw [List.mem_toFinset]
    obtain ⟨L, hL, hd⟩ := List.mem_flatMap.1 hd
    exact (h L hL).dest a d rd hd

/-- **C82** … so an execution exists. -/
theorem pieces_exec_exists {M : Type} {ranks : List R} {Ls : List (R → List (AIns R S M))} (h : ∀ L ∈ Ls, Piece ranks L) (b : Bool) (w : R → S) :
    ∃ w', AExec b (layersProg Ls) w w' := by
  obtain ⟨hs, N, hN⟩ := pieces_terminate h b
  by_contra hc
  have key : ∀ n, ∃ C, ARun b n (AConf.start (layersProg Ls) w) C := by
    intro n
    induction n with
    | zero => exact ⟨_, .refl _⟩
    | succ n ih =>
      obtain ⟨C, hC⟩ := ih
      have : ¬ C.Done := fun hd => hc ⟨C.st, n, C, hC, hd, rfl⟩
      obtain ⟨C', hC'⟩ := hs w n C hC this
      exact ⟨C', .tail hC hC'⟩
  obtain ⟨C, hC⟩ := key (N + 1)
  exact absurd (hN w _ C hC) (by omega)

end Sopht
