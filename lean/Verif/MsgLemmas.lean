import Verif.Msg
import Mathlib.Tactic.Tauto

/-! Helper lemmas about the message model of `Verif.Msg`. -/

namespace Sopht

section Matching
variable {R ι K : Type} [DecidableEq R]

theorem filterMap_if_map {A B C : Type} (l : List A) (f : A → B) (q : B → Prop) [DecidablePred q] (h : B → C) :
    (l.map f).filterMap (fun b => if q b then some (h b) else none)
      = (l.filter (fun a => decide (q (f a)))).map (fun a => h (f a)) := by
  induction l with
  | nil => rfl
  | cons a t ih =>
    by_cases hq : q (f a) <;> simp [hq, ih]

/-- In an SPMD exchange whose k-th send `s → r` is mirrored by the k-th receive at `r`, messages pair equal keys. -/
theorem matched_spmd (ks : List K) (post : R → K → Post R ι) (s r : R)
    (h : ∀ k ∈ ks, (post s k).sendTo = some r ↔ (post r k).recvFrom = some s) :
    matched (fun c => ks.map (post c)) s r
      = (ks.filter (fun k => decide ((post s k).sendTo = some r))).map
          (fun k => ⟨s, r, (post s k).sendIx, (post r k).recvIx⟩) := by
  unfold matched sendsTo recvsOf
  rw [filterMap_if_map ks (post s) (fun p => p.sendTo = some r) (fun p => p.sendIx),
    filterMap_if_map ks (post r) (fun p => p.recvFrom = some s) (fun p => p.recvIx)]
  have : ks.filter (fun k => decide ((post r k).recvFrom = some s))
      = ks.filter (fun k => decide ((post s k).sendTo = some r)) := by
    apply List.filter_congr
    intro k hk
    simp [h k hk]
  rw [this, List.zip_map', List.map_map]
  rfl

theorem mem_allMsgs_spmd (ranks : List R) (ks : List K) (post : R → K → Post R ι)
    (h : ∀ s ∈ ranks, ∀ r ∈ ranks, ∀ k ∈ ks, (post s k).sendTo = some r ↔ (post r k).recvFrom = some s)
    (m : Msg R ι) :
    m ∈ allMsgs ranks (fun c => ks.map (post c)) ↔
      ∃ s ∈ ranks, ∃ r ∈ ranks, ∃ k ∈ ks, (post s k).sendTo = some r ∧
        m = ⟨s, r, (post s k).sendIx, (post r k).recvIx⟩ := by
  unfold allMsgs
  simp only [List.mem_flatMap]
  constructor
  · rintro ⟨s, hs, r, hr, hm⟩
    rw [matched_spmd ks post s r (h s hs r hr)] at hm
    simp only [List.mem_map, List.mem_filter, decide_eq_true_eq] at hm
    obtain ⟨k, ⟨hk, hk'⟩, rfl⟩ := hm
    exact ⟨s, hs, r, hr, k, hk, hk', rfl⟩
  · rintro ⟨s, hs, r, hr, k, hk, hk', rfl⟩
    refine ⟨s, hs, r, hr, ?_⟩
    rw [matched_spmd ks post s r (h s hs r hr)]
    simp only [List.mem_map, List.mem_filter, decide_eq_true_eq]
    exact ⟨k, ⟨hk, hk'⟩, rfl⟩

theorem allMatched_spmd (ranks : List R) (ks : List K) (post : R → K → Post R ι)
    (hv : ∀ s ∈ ranks, ∀ k ∈ ks, (∀ r, (post s k).sendTo = some r → r ∈ ranks) ∧
      (∀ r, (post s k).recvFrom = some r → r ∈ ranks))
    (h : ∀ s ∈ ranks, ∀ r ∈ ranks, ∀ k ∈ ks, (post s k).sendTo = some r ↔ (post r k).recvFrom = some s)
    (hl : ∀ s ∈ ranks, ∀ r ∈ ranks, ∀ k ∈ ks, (post s k).sendTo = some r →
      (post s k).sendIx.length = (post r k).recvIx.length) :
    AllMatched ranks (fun c => ks.map (post c)) := by
  refine ⟨?_, ?_⟩
  · intro s hs p hp
    obtain ⟨k, hk, rfl⟩ := List.mem_map.1 hp
    exact hv s hs k hk
  · intro s hs r hr
    unfold sendsTo recvsOf
    rw [filterMap_if_map ks (post s) (fun p => p.sendTo = some r) (fun p => p.sendIx),
      filterMap_if_map ks (post r) (fun p => p.recvFrom = some s) (fun p => p.recvIx)]
    have : ks.filter (fun k => decide ((post r k).recvFrom = some s))
        = ks.filter (fun k => decide ((post s k).sendTo = some r)) := by
      apply List.filter_congr
      intro k hk
      simp [h s hs r hr k hk]
    rw [this, List.map_map, List.map_map]
    apply List.map_congr_left
    intro k hk
    simp only [List.mem_filter, decide_eq_true_eq] at hk
    exact hl s hs r hr k hk.1 hk.2

theorem vecPosts_eq {κ : Type} (comps : List κ) (ks : List K) (post : R → K → Post R ι) (c : R) :
    vecPosts comps (fun c => ks.map (post c)) c
      = (comps.flatMap fun k => ks.map fun d => (k, d)).map (fun kd => Post.tag kd.1 (post c kd.2)) := by
  unfold vecPosts
  rw [List.map_flatMap]
  congr 1
  funext k
  rw [List.map_map, List.map_map]
  rfl

theorem mem_vecMsgs_spmd {κ : Type} (comps : List κ) (ranks : List R) (ks : List K) (post : R → K → Post R ι)
    (h : ∀ s ∈ ranks, ∀ r ∈ ranks, ∀ k ∈ ks, (post s k).sendTo = some r ↔ (post r k).recvFrom = some s)
    (m : Msg R (κ × ι)) :
    m ∈ allMsgs ranks (vecPosts comps (fun c => ks.map (post c))) ↔
      ∃ k ∈ comps, ∃ m0 ∈ allMsgs ranks (fun c => ks.map (post c)),
        m = ⟨m0.src, m0.dst, m0.sendIx.map (fun i => (k, i)), m0.recvIx.map (fun i => (k, i))⟩ := by
  have e : vecPosts comps (fun c => ks.map (post c)) = fun c =>
      (comps.flatMap fun k => ks.map fun d => (k, d)).map (fun kd => Post.tag kd.1 (post c kd.2)) := by
    funext c; exact vecPosts_eq comps ks post c
  rw [e, mem_allMsgs_spmd ranks (comps.flatMap fun k => ks.map fun d => (k, d))
    (fun c kd => Post.tag kd.1 (post c kd.2))]
  · constructor
    · rintro ⟨s, hs, r, hr, ⟨k, d⟩, hk, hst, rfl⟩
      simp only [List.mem_flatMap, List.mem_map, Prod.mk.injEq] at hk
      obtain ⟨k', hk', d', hd', rfl, rfl⟩ := hk
      exact ⟨k', hk', ⟨s, r, (post s d').sendIx, (post r d').recvIx⟩,
        (mem_allMsgs_spmd ranks ks post h _).2 ⟨s, hs, r, hr, d', hd', hst, rfl⟩, rfl⟩
    · rintro ⟨k, hk, m0, hm0, rfl⟩
      rw [mem_allMsgs_spmd ranks ks post h] at hm0
      obtain ⟨s, hs, r, hr, d, hd, hst, rfl⟩ := hm0
      refine ⟨s, hs, r, hr, (k, d), ?_, hst, rfl⟩
      simp only [List.mem_flatMap, List.mem_map, Prod.mk.injEq]
      exact ⟨k, hk, d, hd, rfl, rfl⟩
  · rintro s hs r hr ⟨k, d⟩ hk
    simp only [List.mem_flatMap, List.mem_map, Prod.mk.injEq] at hk
    obtain ⟨k', hk', d', hd', rfl, rfl⟩ := hk
    exact h s hs r hr d' hd'

end Matching

section Async
variable {R ι α : Type} [DecidableEq R] [DecidableEq ι]

theorem unpack_nil (A : ι → α) (vals : List α) : unpack A [] vals = A := rfl

/-- A cell that no received element is written to keeps its value. -/
theorem unpack_of_notMem (A : ι → α) (ix : List ι) (vals : List α) (i : ι) (h : i ∉ ix) :
    unpack A ix vals i = A i := by
  unfold unpack
  induction ix generalizing A vals with
  | nil => rfl
  | cons a t ih =>
    cases vals with
    | nil => rfl
    | cons v vs =>
      simp only [List.zip_cons_cons, List.foldl_cons]
      rw [ih]
      · simp only [List.mem_cons, not_or] at h
        simp [Function.update, h.1]
      · simp only [List.mem_cons, not_or] at h
        exact h.2

/-- If every pair (index, value) agrees with a target `F`, each written cell ends as in `F`. -/
theorem unpack_agree (A F : ι → α) (ix : List ι) (vals : List α) (i : ι)
    (hl : ix.length = vals.length)
    (hF : ∀ p ∈ ix.zip vals, F p.1 = p.2) (hi : i ∈ ix) :
    unpack A ix vals i = F i := by
  unfold unpack
  induction ix generalizing A vals with
  | nil => simp at hi
  | cons a t ih =>
    cases vals with
    | nil => simp at hl
    | cons v vs =>
      simp only [List.zip_cons_cons, List.foldl_cons]
      by_cases hit : i ∈ t
      · exact ih _ vs (by simpa using hl) (fun p hp => hF p (by simp [hp])) hit
      · have hia : i = a := by
          rcases List.mem_cons.1 hi with h | h
          · exact h
          · exact absurd h hit
        subst hia
        have := unpack_of_notMem (Function.update A i v) t vs i hit
        unfold unpack at this
        rw [this]
        have := hF (i, v) (by simp)
        simp at this
        simp [this]

/-- What the final arrays `F` must satisfy for the exchange of `M` started from `w0`. -/
structure ExchSpec (M : List (Msg R ι)) (w0 F : World R ι α) : Prop where
  /-- same number of elements on both sides -/
  len : ∀ m ∈ M, m.sendIx.length = m.recvIx.length
  /-- each received element has the sent value -/
  recv : ∀ m ∈ M, ∀ p ∈ m.sendIx.zip m.recvIx, F m.dst p.2 = w0 m.src p.1
  /-- everything else is as before -/
  keep : ∀ r i, (∀ m ∈ M, m.dst = r → i ∉ m.recvIx) → F r i = w0 r i
  /-- sent cells are never received cells -/
  disj : ∀ m ∈ M, ∀ i ∈ m.sendIx, ∀ m' ∈ M, m'.dst = m.src → i ∉ m'.recvIx

private structure Inv (M : List (Msg R ι)) (w0 F : World R ι α) (done : ℕ → Prop) (picked : ℕ → Prop)
    (st : Net R ι α) : Prop where
  two : ∀ r i, st.w r i = w0 r i ∨ st.w r i = F r i
  out : ∀ r i, (∀ m ∈ M, m.dst = r → i ∉ m.recvIx) → st.w r i = w0 r i
  net : ∀ k vals, st.net k = some vals → ∃ m, M[k]? = some m ∧ vals = m.sendIx.map (w0 m.src)
  pick : ∀ k, picked k → k < M.length → ∃ vals, st.net k = some vals
  land : ∀ k m, done k → M[k]? = some m → ∀ i ∈ m.recvIx, st.w m.dst i = F m.dst i

private theorem inv_step {M : List (Msg R ι)} {w0 F : World R ι α} (hS : ExchSpec M w0 F)
    {done picked : ℕ → Prop} {st : Net R ι α} (hI : Inv M w0 F done picked st) (e : Ev) :
    Inv M w0 F (fun k => done k ∨ (e = Ev.land k ∧ picked k))
      (fun k => picked k ∨ e = Ev.pick k) (evStep M st e) := by
  cases e with
  | pick k =>
    cases hk : M[k]? with
    | none =>
      have hst : evStep M st (Ev.pick k) = st := by simp [evStep, hk]
      rw [hst]
      refine ⟨hI.two, hI.out, hI.net, ?_, ?_⟩
      · rintro k' (h | h) hlt
        · exact hI.pick k' h hlt
        · cases h
          rw [List.getElem?_eq_none_iff] at hk
          omega
      · rintro k' m (h | ⟨h, _⟩) hm
        · exact hI.land k' m h hm
        · cases h
    | some m =>
      have hst : evStep M st (Ev.pick k)
          = { st with net := Function.update st.net k (some (m.sendIx.map (st.w m.src))) } := by
        simp [evStep, hk]
      rw [hst]
      have hmM : m ∈ M := List.mem_of_getElem? hk
      refine ⟨hI.two, hI.out, ?_, ?_, ?_⟩
      · intro k' vals hv
        by_cases hkk : k' = k
        · subst hkk
          simp only [Function.update_self, Option.some.injEq] at hv
          refine ⟨m, hk, ?_⟩
          rw [← hv]
          apply List.map_congr_left
          intro i hi
          exact hI.out m.src i (fun m' hm' hd => hS.disj m hmM i hi m' hm' hd)
        · simp only [Function.update_of_ne hkk] at hv
          exact hI.net k' vals hv
      · rintro k' (h | h) hlt
        · by_cases hkk : k' = k
          · subst hkk; simp
          · simp only [Function.update_of_ne hkk]
            exact hI.pick k' h hlt
        · cases h
          simp
      · rintro k' m' (h | ⟨h, _⟩) hm
        · exact hI.land k' m' h hm
        · cases h
  | land k =>
    cases hk : M[k]? with
    | none =>
      have hst : evStep M st (Ev.land k) = st := by simp [evStep, hk]
      rw [hst]
      refine ⟨hI.two, hI.out, hI.net, ?_, ?_⟩
      · rintro k' (h | h) hlt
        · exact hI.pick k' h hlt
        · cases h
      · rintro k' m (h | ⟨h, _⟩) hm
        · exact hI.land k' m h hm
        · cases h
          rw [hk] at hm; cases hm
    | some m =>
      have hmM : m ∈ M := List.mem_of_getElem? hk
      cases hn : st.net k with
      | none =>
        have hst : evStep M st (Ev.land k) = st := by simp [evStep, hk, hn]
        rw [hst]
        refine ⟨hI.two, hI.out, hI.net, ?_, ?_⟩
        · rintro k' (h | h) hlt
          · exact hI.pick k' h hlt
          · cases h
        · rintro k' m' (h | ⟨h, hp⟩) hm
          · exact hI.land k' m' h hm
          · cases h
            have hlt : k < M.length := by
              by_contra hc
              rw [List.getElem?_eq_none_iff.2 (by omega)] at hm; cases hm
            obtain ⟨vals, hv⟩ := hI.pick k hp hlt
            rw [hn] at hv; cases hv
      | some vals =>
        obtain ⟨m1, hm1, hvals⟩ := hI.net k vals hn
        rw [hk] at hm1
        cases hm1
        have hst : evStep M st (Ev.land k)
            = { st with w := setRank st.w m.dst (unpack (st.w m.dst) m.recvIx vals) } := by
          simp [evStep, hk, hn]
        rw [hst]
        have hlen : m.recvIx.length = vals.length := by
          rw [hvals, List.length_map, hS.len m hmM]
        have hag : ∀ p ∈ m.recvIx.zip vals, F m.dst p.1 = p.2 := by
          intro p hp
          rw [hvals] at hp
          obtain ⟨j, hj, rfl⟩ := List.getElem_of_mem hp
          simp only [List.getElem_zip, List.getElem_map]
          have hj1 : j < m.recvIx.length := by
            simp only [List.length_zip, List.length_map] at hj; omega
          have hj2 : j < m.sendIx.length := by
            simp only [List.length_zip, List.length_map] at hj; omega
          have : (m.sendIx[j], m.recvIx[j]) ∈ m.sendIx.zip m.recvIx := by
            have hz : (m.sendIx.zip m.recvIx)[j]'(by simp; omega) = (m.sendIx[j], m.recvIx[j]) := by
              simp [List.getElem_zip]
            rw [← hz]; exact List.getElem_mem _
          exact hS.recv m hmM _ this
        have hval : ∀ r i, setRank st.w m.dst (unpack (st.w m.dst) m.recvIx vals) r i
            = if r = m.dst ∧ i ∈ m.recvIx then F r i else st.w r i := by
          intro r i
          by_cases hr : r = m.dst
          · subst hr
            simp only [setRank, Function.update_self, true_and]
            by_cases hi : i ∈ m.recvIx
            · rw [if_pos hi, unpack_agree (st.w m.dst) (F m.dst) m.recvIx vals i hlen hag hi]
            · rw [if_neg hi, unpack_of_notMem _ _ _ _ hi]
          · simp [setRank, hr]
        refine ⟨?_, ?_, hI.net, ?_, ?_⟩
        · intro r i
          simp only [hval]
          split
          · right; rfl
          · exact hI.two r i
        · intro r i h
          simp only [hval]
          split
          · rename_i hc
            exact absurd hc.2 (h m hmM hc.1.symm)
          · exact hI.out r i h
        · rintro k' (h | h) hlt
          · exact hI.pick k' h hlt
          · cases h
        · rintro k' m' hd hm i hi
          simp only [hval]
          split
          · rfl
          · rename_i hc
            rcases hd with h | ⟨h, _⟩
            · exact hI.land k' m' h hm i hi
            · cases h
              rw [hk] at hm; cases hm
              exact absurd ⟨rfl, hi⟩ hc

private theorem inv_run {M : List (Msg R ι)} {w0 F : World R ι α} (hS : ExchSpec M w0 F) (l : List Ev) :
    ∀ {done picked : ℕ → Prop} {st : Net R ι α}, Inv M w0 F done picked st →
    Inv M w0 F (fun k => done k ∨ (∃ a c, l = a ++ Ev.land k :: c ∧ (picked k ∨ Ev.pick k ∈ a)))
      (fun k => picked k ∨ Ev.pick k ∈ l) (l.foldl (evStep M) st) := by
  induction l with
  | nil =>
    intro done picked st h
    refine ⟨h.two, h.out, h.net, ?_, ?_⟩
    · rintro k (hk | hk) hlt
      · exact h.pick k hk hlt
      · simp at hk
    · rintro k m (hk | ⟨a, c, hc, _⟩) hm
      · exact h.land k m hk hm
      · simp at hc
  | cons e t ih =>
    intro done picked st h
    have h1 := ih (inv_step hS h e)
    simp only [List.foldl_cons]
    refine ⟨h1.two, h1.out, h1.net, ?_, ?_⟩
    · intro k hk hlt
      apply h1.pick k _ hlt
      rcases hk with hk | hk
      · exact Or.inl (Or.inl hk)
      · rcases List.mem_cons.1 hk with hk | hk
        · exact Or.inl (Or.inr hk.symm)
        · exact Or.inr hk
    · intro k m hk hm
      apply h1.land k m _ hm
      rcases hk with hk | ⟨a, c, hc, hp⟩
      · exact Or.inl (Or.inl hk)
      · cases a with
        | nil =>
          simp only [List.nil_append, List.cons.injEq] at hc
          simp only [List.not_mem_nil, or_false] at hp
          exact Or.inl (Or.inr ⟨hc.1, hp⟩)
        | cons b a' =>
          simp only [List.cons_append, List.cons.injEq] at hc
          refine Or.inr ⟨a', c, hc.2, ?_⟩
          rcases hp with hp | hp
          · exact Or.inl (Or.inl hp)
          · rcases List.mem_cons.1 hp with hp | hp
            · exact Or.inl (Or.inr (by rw [hc.1, hp]))
            · exact Or.inr hp

/-- **Schedule independence.** Whatever the order in which messages progress, once all have completed the arrays
are `F`. -/
theorem runNet_eq {M : List (Msg R ι)} {w0 F : World R ι α} (hS : ExchSpec M w0 F)
    {sched : List Ev} (hc : Complete M sched) : runNet M w0 sched = F := by
  have h0 : Inv M w0 F (fun _ => False) (fun _ => False) (⟨w0, fun _ => none⟩ : Net R ι α) := by
    refine ⟨fun r i => Or.inl rfl, fun r i _ => rfl, ?_, ?_, ?_⟩
    · intro k vals h; cases h
    · intro k h; cases h
    · intro k m h; cases h
  have h1 := inv_run hS sched h0
  funext r i
  change (sched.foldl (evStep M) ⟨w0, fun _ => none⟩).w r i = F r i
  by_cases hex : ∃ m ∈ M, m.dst = r ∧ i ∈ m.recvIx
  · obtain ⟨m, hm, rfl, hi⟩ := hex
    obtain ⟨k, hk, rfl⟩ := List.getElem_of_mem hm
    obtain ⟨a, b, c, hs⟩ := hc k hk
    refine h1.land k M[k] (Or.inr ⟨a ++ Ev.pick k :: b, c, ?_, ?_⟩) (List.getElem?_eq_getElem hk) i hi
    · simp [hs]
    · right; simp
  · have hno : ∀ m ∈ M, m.dst = r → i ∉ m.recvIx := by
      intro m hm hd hi; exact hex ⟨m, hm, hd, hi⟩
    rw [h1.out r i hno, hS.keep r i hno]

/-- Lifting a scalar exchange specification to a vector field whose components are exchanged one after the other. -/
theorem ExchSpec.vec {κ : Type} {comps : List κ} {M : List (Msg R ι)} {MV : List (Msg R (κ × ι))}
    (hM : ∀ m, m ∈ MV ↔ ∃ k ∈ comps, ∃ m0 ∈ M,
      m = ⟨m0.src, m0.dst, m0.sendIx.map (fun i => (k, i)), m0.recvIx.map (fun i => (k, i))⟩)
    {w : World R (κ × ι) α} {F : κ → World R ι α}
    (hS : ∀ k ∈ comps, ExchSpec M (fun r i => w r (k, i)) (F k))
    (hk : ∀ k, k ∈ comps) :
    ExchSpec MV w (fun r ki => F ki.1 r ki.2) := by
  refine ⟨?_, ?_, ?_, ?_⟩
  · intro m hm
    obtain ⟨k, hkc, m0, hm0, rfl⟩ := (hM m).1 hm
    simpa using (hS k hkc).len m0 hm0
  · intro m hm p hp
    obtain ⟨k, hkc, m0, hm0, rfl⟩ := (hM m).1 hm
    simp only [List.zip_map, List.mem_map] at hp
    obtain ⟨q, hq, rfl⟩ := hp
    exact (hS k hkc).recv m0 hm0 q hq
  · rintro r ⟨k, i⟩ hno
    refine (hS k (hk k)).keep r i ?_
    intro m0 hm0 hd hi
    refine hno _ ((hM _).2 ⟨k, hk k, m0, hm0, rfl⟩) hd ?_
    simp [hi]
  · intro m hm ki hi m' hm' hd hi'
    obtain ⟨k, hkc, m0, hm0, rfl⟩ := (hM m).1 hm
    obtain ⟨k', hkc', m0', hm0', rfl⟩ := (hM m').1 hm'
    simp only [List.mem_map] at hi hi'
    obtain ⟨i, hi, rfl⟩ := hi
    obtain ⟨i', hi', he⟩ := hi'
    simp only [Prod.mk.injEq] at he
    obtain ⟨rfl, rfl⟩ := he
    exact (hS k' hkc).disj m0 hm0 i' hi m0' hm0' hd hi'

/-- At every moment of the exchange, cells that receive nothing are untouched. -/
theorem runNet_untouched {M : List (Msg R ι)} {w0 F : World R ι α} (hS : ExchSpec M w0 F)
    (sched : List Ev) (r : R) (i : ι) (h : ∀ m ∈ M, m.dst = r → i ∉ m.recvIx) :
    runNet M w0 sched r i = w0 r i := by
  have h0 : Inv M w0 F (fun _ => False) (fun _ => False) (⟨w0, fun _ => none⟩ : Net R ι α) := by
    refine ⟨fun r i => Or.inl rfl, fun r i _ => rfl, ?_, ?_, ?_⟩
    · intro k vals h; cases h
    · intro k h; cases h
    · intro k m h; cases h
  exact (inv_run hS sched h0).out r i h

end Async
end Sopht
