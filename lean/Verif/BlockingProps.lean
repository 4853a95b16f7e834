import Verif.Blocking
import Mathlib.Data.List.Perm.Basic
import Mathlib.Data.List.Sort
import Mathlib.Tactic.Linarith
import Mathlib.Algebra.BigOperators.Group.List.Basic

/-! Every execution of a blocking phase program computes the lock-step result; progress and termination. -/

namespace Sopht

variable {R L M : Type} [DecidableEq R]

theorem eq_of_sorted_mem {l1 l2 : List ℕ} (h1 : l1.Pairwise (· < ·)) (h2 : l2.Pairwise (· < ·))
    (h : ∀ x, x ∈ l1 ↔ x ∈ l2) : l1 = l2 := by
  have n1 : l1.Nodup := h1.imp (fun h => ne_of_lt h)
  have n2 : l2.Nodup := h2.imp (fun h => ne_of_lt h)
  exact List.Perm.eq_of_pairwise (le := (· < ·)) (fun a b _ _ h h' => absurd h (by omega)) h1 h2
    ((List.perm_ext_iff_of_nodup n1 n2).2 h)

theorem range_filter_sorted (K : ℕ) (p : ℕ → Bool) : ((List.range K).filter p).Pairwise (· < ·) :=
  List.Pairwise.filter _ List.pairwise_lt_range

theorem filter_snoc {K k : ℕ} {p q : ℕ → Bool} (hk : k < K) (hq : ∀ i < K, (q i = true ↔ (p i = true ∨ i = k)))
    (hp : ∀ i < K, p i = true → i < k) : (List.range K).filter q = (List.range K).filter p ++ [k] := by
  apply eq_of_sorted_mem (range_filter_sorted _ _)
  · rw [List.pairwise_append]
    refine ⟨range_filter_sorted _ _, List.pairwise_singleton _ _, ?_⟩
    intro a ha b hb
    simp only [List.mem_filter, List.mem_range, List.mem_singleton] at ha hb
    subst hb; exact hp a ha.1 ha.2
  · intro x
    simp only [List.mem_filter, List.mem_range, List.mem_append, List.mem_singleton]
    constructor
    · rintro ⟨h1, h2⟩
      rcases (hq x h1).1 h2 with h | h
      · exact Or.inl ⟨h1, h⟩
      · exact Or.inr h
    · rintro (⟨h1, h2⟩ | rfl)
      · exact ⟨h1, (hq x h1).2 (Or.inl h2)⟩
      · exact ⟨hk, (hq x hk).2 (Or.inr rfl)⟩

theorem filter_cons_head {K k : ℕ} {p q : ℕ → Bool} (hk : k < K) (hq : ∀ i < K, (p i = true ↔ (q i = true ∨ i = k)))
    (hp : ∀ i < K, q i = true → k < i) : (List.range K).filter p = k :: (List.range K).filter q := by
  apply eq_of_sorted_mem (range_filter_sorted _ _)
  · rw [List.pairwise_cons]
    refine ⟨?_, range_filter_sorted _ _⟩
    intro a ha
    simp only [List.mem_filter, List.mem_range] at ha
    exact hp a ha.1 ha.2
  · intro x
    simp only [List.mem_filter, List.mem_range, List.mem_cons]
    constructor
    · rintro ⟨h1, h2⟩
      rcases (hq x h1).1 h2 with h | h
      · exact Or.inr ⟨h1, h⟩
      · exact Or.inl h
    · rintro (rfl | ⟨h1, h2⟩)
      · exact ⟨hk, (hq x hk).2 (Or.inr rfl)⟩
      · exact ⟨h1, (hq x h1).2 (Or.inl h2)⟩

/-- phases whose message from `a` to `b` is under way -/
def under (K : ℕ) (ph : ℕ → Phase R L M) (pc : R → ℕ) (a b : R) (k : ℕ) : Bool :=
  decide ((ph k).dst a = some b) && decide (2 * k < pc a) && decide (pc b ≤ 2 * k + 1)

theorem under_iff (K : ℕ) (ph : ℕ → Phase R L M) (pc : R → ℕ) (a b : R) (k : ℕ) :
    under K ph pc a b k = true ↔ (ph k).dst a = some b ∧ 2 * k < pc a ∧ pc b ≤ 2 * k + 1 := by
  unfold under; simp [and_assoc]

/-- the invariant -/
structure BInv (ranks : List R) (K : ℕ) (ph : ℕ → Phase R L M) (w : R → L) (C : Conf R L M) : Prop where
  le : ∀ c, C.pc c ≤ 2 * K
  loc : ∀ c, C.loc c = syncRun ph w (C.pc c / 2) c
  chan : ∀ a b, C.chan a b =
    ((List.range K).filter (under K ph C.pc a b)).map fun k => (ph k).pay (syncRun ph w k a)
  out : ∀ c, c ∉ ranks → C.pc c = 0
  caus : ∀ a ∈ ranks, ∀ b k, k < K → (ph k).dst a = some b → 2 * k + 1 < C.pc b → 2 * k < C.pc a

theorem binv_start (ranks : List R) (K : ℕ) (ph : ℕ → Phase R L M) (w : R → L) : BInv ranks K ph w (Conf.start w) := by
  refine ⟨fun c => Nat.zero_le _, fun c => by simp [Conf.start, syncRun], fun a b => ?_, fun _ _ => rfl, ?_⟩
  · have : (List.range K).filter (under K ph (Conf.start w : Conf R L M).pc a b) = [] := by
      rw [List.filter_eq_nil_iff]
      intro k _ h
      have := ((under_iff _ _ _ _ _ _).1 h).2.1
      simp [Conf.start] at this
    rw [this]; rfl
  · intro a _ b k _ _ h
    simp [Conf.start] at h

/-- Pairing of sends and receives within every phase; partners are ranks. -/
structure Paired (ranks : List R) (K : ℕ) (ph : ℕ → Phase R L M) : Prop where
  pair : ∀ k < K, ∀ a ∈ ranks, ∀ b ∈ ranks, ((ph k).dst a = some b ↔ (ph k).src b = some a)
  dstIn : ∀ k < K, ∀ a ∈ ranks, ∀ b, (ph k).dst a = some b → b ∈ ranks
  srcIn : ∀ k < K, ∀ b ∈ ranks, ∀ a, (ph k).src b = some a → a ∈ ranks

theorem filter_congr_range {K : ℕ} {p q : ℕ → Bool} (h : ∀ k < K, (p k = true ↔ q k = true)) :
    (List.range K).filter p = (List.range K).filter q := by
  apply List.filter_congr
  intro k hk
  have := h k (List.mem_range.1 hk)
  cases hp : p k <;> cases hq : q k <;> simp_all

/-- the effect of advancing the sender on what is under way -/
theorem under_send {ranks : List R} {K : ℕ} {ph : ℕ → Phase R L M} {w : R → L} {C : Conf R L M} (h : BInv ranks K ph w C)
    {a : R} {k : ℕ} (ha : a ∈ ranks) (hk : k < K) (hp : C.pc a = 2 * k) (x y : R) :
    (List.range K).filter (under K ph (Function.update C.pc a (2 * k + 1)) x y) =
      if x = a ∧ (ph k).dst a = some y then (List.range K).filter (under K ph C.pc x y) ++ [k]
      else (List.range K).filter (under K ph C.pc x y) := by
  have hu : ∀ z, Function.update C.pc a (2 * k + 1) z = if z = a then 2 * k + 1 else C.pc z := by
    intro z; by_cases hz : z = a
    · subst hz; simp
    · simp [Function.update_of_ne hz, hz]
  split
  · rename_i hc
    obtain ⟨rfl, hd⟩ := hc
    apply filter_snoc hk
    · intro i hi
      rw [under_iff, under_iff, hu, hu, if_pos rfl]
      constructor
      · rintro ⟨h1, h2, h3⟩
        by_cases hik : i = k
        · exact Or.inr hik
        · refine Or.inl ⟨h1, by omega, ?_⟩
          split at h3 <;> rename_i hy
          · rw [hy]; omega
          · exact h3
      · rintro (⟨h1, h2, h3⟩ | rfl)
        · refine ⟨h1, by omega, ?_⟩
          split <;> rename_i hy
          · rw [hy] at h3; omega
          · exact h3
        · refine ⟨hd, by omega, ?_⟩
          split <;> rename_i hy
          · omega
          · by_contra hn
            have := h.caus x ha y i hi hd (by omega)
            omega
    · intro i hi h1
      have := ((under_iff _ _ _ _ _ _).1 h1).2.1
      omega
  · rename_i hc
    apply filter_congr_range
    intro i hi
    rw [under_iff, under_iff, hu, hu]
    by_cases hx : x = a
    · subst hx
      rw [if_pos rfl]
      have hd : ¬ (ph k).dst x = some y := fun hh => hc ⟨rfl, hh⟩
      constructor
      · rintro ⟨h1, h2, h3⟩
        have : i ≠ k := by rintro rfl; exact hd h1
        refine ⟨h1, by omega, ?_⟩
        split at h3 <;> rename_i hy
        · rw [hy]; omega
        · exact h3
      · rintro ⟨h1, h2, h3⟩
        refine ⟨h1, by omega, ?_⟩
        split <;> rename_i hy
        · rw [hy] at h3; omega
        · exact h3
    · rw [if_neg hx]
      split <;> rename_i hy
      · rw [hy, hp]
        constructor
        · rintro ⟨h1, h2, h3⟩; exact ⟨h1, h2, by omega⟩
        · rintro ⟨h1, h2, h3⟩; exact ⟨h1, h2, by omega⟩
      · exact Iff.rfl

/-- the effect of advancing the receiver on what is under way -/
theorem under_recv {ranks : List R} {K : ℕ} {ph : ℕ → Phase R L M} (hpair : Paired ranks K ph) {pc : R → ℕ}
    (hout : ∀ c, c ∉ ranks → pc c = 0) {b : R} {k : ℕ}
    (hb : b ∈ ranks) (hk : k < K) (hq : pc b = 2 * k + 1) (x y : R) (hsent : (ph k).src b = some x → 2 * k < pc x) :
    (List.range K).filter (under K ph pc x y) =
      if y = b ∧ (ph k).src b = some x then k :: (List.range K).filter (under K ph (Function.update pc b (2 * k + 2)) x y)
      else (List.range K).filter (under K ph (Function.update pc b (2 * k + 2)) x y) := by
  have hu : ∀ z, Function.update pc b (2 * k + 2) z = if z = b then 2 * k + 2 else pc z := by
    intro z; by_cases hz : z = b
    · subst hz; simp
    · simp [Function.update_of_ne hz, hz]
  split
  · rename_i hc
    obtain ⟨rfl, hs⟩ := hc
    apply filter_cons_head hk
    · intro i hi
      rw [under_iff, under_iff, hu, hu, if_pos rfl]
      constructor
      · rintro ⟨h1, h2, h3⟩
        by_cases hik : i = k
        · exact Or.inr hik
        · refine Or.inl ⟨h1, ?_, by omega⟩
          split <;> rename_i hy
          · rw [hy] at h2; omega
          · exact h2
      · rintro (⟨h1, h2, h3⟩ | rfl)
        · refine ⟨h1, ?_, by omega⟩
          split at h2 <;> rename_i hy
          · rw [hy]; omega
          · exact h2
        · exact ⟨(hpair.pair i hi x (hpair.srcIn i hi y hb x hs) y hb).2 hs, hsent hs, by omega⟩
    · intro i hi h1
      have h2 := (under_iff _ _ _ _ _ _).1 h1
      have := h2.2.2
      rw [hu, if_pos rfl] at this
      omega
  · rename_i hc
    apply filter_congr_range
    intro i hi
    rw [under_iff, under_iff, hu, hu]
    by_cases hy : y = b
    · subst hy
      rw [if_pos rfl]
      have hd : x ∈ ranks → ¬ (ph k).dst x = some y := fun hx hh => hc ⟨rfl, (hpair.pair k hk x hx y hb).1 hh⟩
      constructor
      · rintro ⟨h1, h2, h3⟩
        have hxr : x ∈ ranks := by
          by_contra hx
          have := hout x hx
          omega
        have : i ≠ k := by rintro rfl; exact hd hxr h1
        refine ⟨h1, ?_, by omega⟩
        split <;> rename_i hx
        · rw [hx] at h2; omega
        · exact h2
      · rintro ⟨h1, h2, h3⟩
        refine ⟨h1, ?_, by omega⟩
        split at h2 <;> rename_i hx
        · rw [hx]; omega
        · exact h2
    · rw [if_neg hy]
      split <;> rename_i hx
      · rw [hx, hq]
        constructor
        · rintro ⟨h1, h2, h3⟩; exact ⟨h1, by omega, h3⟩
        · rintro ⟨h1, h2, h3⟩; exact ⟨h1, by omega, h3⟩
      · exact Iff.rfl

theorem upd_apply {A : Type} (f : R → A) (a : R) (v : A) (z : R) :
    Function.update f a v z = if z = a then v else f z := by
  by_cases hz : z = a
  · subst hz; simp
  · simp [Function.update_of_ne hz, hz]

theorem binv_step {buffered : Bool} {ranks : List R} {K : ℕ} {ph : ℕ → Phase R L M} (hpair : Paired ranks K ph) {w : R → L}
    {C C' : Conf R L M} (h : BInv ranks K ph w C) (s : BStep buffered ranks K ph C C') : BInv ranks K ph w C' := by
  cases s with
  | sendNull a k ha hk hp hd =>
    refine ⟨?_, ?_, ?_, ?_, ?_⟩
    · intro c
      simp only [upd_apply]
      split
      · omega
      · exact h.le c
    · intro c
      simp only [upd_apply]
      split <;> rename_i hc
      · rw [h.loc c, hc, hp]; congr 1; omega
      · exact h.loc c
    · intro x y
      simp only
      rw [under_send h ha hk hp, if_neg (by rintro ⟨-, e⟩; rw [hd] at e; cases e)]
      exact h.chan x y
    · intro c hc0
      simp only [upd_apply]
      rw [if_neg (by rintro rfl; exact hc0 ha)]; exact h.out c hc0
    · intro x hxr y i hi hxy hlt
      simp only [upd_apply] at hlt ⊢
      have hlt' : 2 * i + 1 < C.pc y := by
        split at hlt <;> rename_i hy
        · rw [hy, hp]; omega
        · exact hlt
      have := h.caus x hxr y i hi hxy hlt'
      split <;> rename_i hx
      · rw [hx, hp] at this; omega
      · exact this
  | sendBuffered a b k hb ha hk hp hd =>
    refine ⟨?_, ?_, ?_, ?_, ?_⟩
    · intro c
      simp only [upd_apply]
      split
      · omega
      · exact h.le c
    · intro c
      simp only [upd_apply]
      split <;> rename_i hc
      · rw [h.loc c, hc, hp]; congr 1; omega
      · exact h.loc c
    · intro x y
      simp only
      rw [under_send h ha hk hp, upd_apply]
      by_cases hx : x = a
      · subst hx
        rw [if_pos rfl, upd_apply]
        by_cases hy : y = b
        · subst hy
          rw [if_pos rfl, if_pos ⟨rfl, hd⟩, List.map_append, h.chan x y, h.loc x, hp]
          simp
        · rw [if_neg hy, if_neg (by rintro ⟨-, e⟩; rw [hd] at e; exact hy (Option.some.inj e).symm)]
          exact h.chan x y
      · rw [if_neg hx, if_neg (fun e => hx e.1)]
        exact h.chan x y
    · intro c hc0
      simp only [upd_apply]
      rw [if_neg (by rintro rfl; exact hc0 ha)]; exact h.out c hc0
    · intro x hxr y i hi hxy hlt
      simp only [upd_apply] at hlt ⊢
      have hlt' : 2 * i + 1 < C.pc y := by
        split at hlt <;> rename_i hy
        · rw [hy, hp]; omega
        · exact hlt
      have := h.caus x hxr y i hi hxy hlt'
      split <;> rename_i hx
      · rw [hx, hp] at this; omega
      · exact this
  | rendezvous a b k k' hab ha hb hk hk' hp hd hq hs hc =>
    -- the phases agree
    have hd' : (ph k').dst a = some b := (hpair.pair k' hk' a ha b hb).2 hs
    have hkk : k = k' := by
      rcases Nat.lt_trichotomy k k' with hlt | he | hgt
      · have := h.caus a ha b k hk hd (by omega)
        omega
      · exact he
      · exfalso
        have h1 := h.chan a b
        rw [hc] at h1
        have : k' ∈ (List.range K).filter (under K ph C.pc a b) := by
          rw [List.mem_filter, List.mem_range, under_iff]
          exact ⟨hk', hd', by omega, by omega⟩
        have h2 : (List.range K).filter (under K ph C.pc a b) = [] := List.map_eq_nil_iff.1 h1.symm
        rw [h2] at this
        simp at this
    subst hkk
    -- first the send, then the receive
    have hpcb : Function.update C.pc a (2 * k + 1) b = 2 * k + 1 := by
      rw [upd_apply, if_neg (Ne.symm hab)]; exact hq
    have hout' : ∀ c, c ∉ ranks → Function.update C.pc a (2 * k + 1) c = 0 := by
      intro c hc0
      rw [upd_apply, if_neg (by rintro rfl; exact hc0 ha)]
      exact h.out c hc0
    refine ⟨?_, ?_, ?_, ?_, ?_⟩
    · intro c
      simp only [upd_apply]
      split
      · omega
      · split
        · omega
        · exact h.le c
    · intro c
      simp only [upd_apply]
      split <;> rename_i hc
      · rw [hc, show (2 * k + 2) / 2 = k + 1 by omega, h.loc b, h.loc a, hp, hq]
        rw [show (2 * k + 1) / 2 = k by omega, show 2 * k / 2 = k by omega]
        rw [show syncRun ph w (k + 1) b = syncPhase (ph k) (syncRun ph w k) b from rfl]
        unfold syncPhase
        rw [hs]; rfl
      · split <;> rename_i hc2
        · rw [h.loc c, hc2, hp]; congr 1; omega
        · exact h.loc c
    · intro x y
      simp only
      have e1 := under_send h ha hk hp x y
      have e2 := under_recv hpair hout' hb hk hpcb x y (by
        intro hx
        rw [hs] at hx
        have := Option.some.inj hx
        rw [upd_apply, if_pos this.symm]; omega)
      have hiff : (x = a ∧ (ph k).dst a = some y) ↔ (y = b ∧ (ph k).src b = some x) := by
        constructor
        · rintro ⟨rfl, e⟩
          rw [hd] at e
          exact ⟨(Option.some.inj e).symm, hs⟩
        · rintro ⟨rfl, e⟩
          rw [hs] at e
          exact ⟨(Option.some.inj e).symm, hd⟩
      rw [e1] at e2
      by_cases hcase : x = a ∧ (ph k).dst a = some y
      · rw [if_pos hcase, if_pos (hiff.1 hcase)] at e2
        have hcb := hiff.1 hcase
        obtain ⟨rfl, -⟩ := hcase
        obtain ⟨rfl, -⟩ := hcb
        have hnil : (List.range K).filter (under K ph C.pc x y) = [] := by
          have h1 := h.chan x y
          rw [hc] at h1
          exact List.map_eq_nil_iff.1 h1.symm
        rw [hnil] at e2
        simp only [List.nil_append, List.cons.injEq, true_and] at e2
        rw [← e2, hc]; rfl
      · rw [if_neg hcase, if_neg (fun e => hcase (hiff.2 e))] at e2
        rw [← e2]; exact h.chan x y
    · intro c hc0
      simp only [upd_apply]
      rw [if_neg (by rintro rfl; exact hc0 hb), if_neg (by rintro rfl; exact hc0 ha)]; exact h.out c hc0
    · intro x hxr y i hi hxy hlt
      simp only [upd_apply] at hlt ⊢
      by_cases hib : i = k ∧ y = b
      · obtain ⟨rfl, rfl⟩ := hib
        have : x = a := by
          have := (hpair.pair i hi x hxr y hb).1 hxy
          rw [hs] at this
          exact (Option.some.inj this).symm
        subst this
        rw [if_neg hab, if_pos rfl]; omega
      · have hlt' : 2 * i + 1 < C.pc y := by
          split at hlt <;> rename_i hy
          · have : i ≠ k := fun e => hib ⟨e, hy⟩
            rw [hy, hq]; omega
          · split at hlt <;> rename_i hy2
            · rw [hy2, hp]; omega
            · exact hlt
        have := h.caus x hxr y i hi hxy hlt'
        split <;> rename_i hx
        · rw [hx, hq] at this; omega
        · split <;> rename_i hx2
          · rw [hx2, hp] at this; omega
          · exact this
  | recvNull b k hb hk hq hs =>
    refine ⟨?_, ?_, ?_, ?_, ?_⟩
    · intro c
      simp only [upd_apply]
      split
      · omega
      · exact h.le c
    · intro c
      simp only [upd_apply]
      split <;> rename_i hc
      · rw [hc, show (2 * k + 2) / 2 = k + 1 by omega, h.loc b, hq, show (2 * k + 1) / 2 = k by omega]
        rw [show syncRun ph w (k + 1) b = syncPhase (ph k) (syncRun ph w k) b from rfl]
        unfold syncPhase
        rw [hs]; rfl
      · exact h.loc c
    · intro x y
      simp only
      have e2 := under_recv hpair h.out hb hk hq x y (by intro e; rw [hs] at e; cases e)
      rw [if_neg (by rintro ⟨-, e⟩; rw [hs] at e; cases e)] at e2
      rw [← e2]; exact h.chan x y
    · intro c hc0
      simp only [upd_apply]
      rw [if_neg (by rintro rfl; exact hc0 hb)]; exact h.out c hc0
    · intro x hxr y i hi hxy hlt
      simp only [upd_apply] at hlt ⊢
      have hlt' : 2 * i + 1 < C.pc y := by
        split at hlt <;> rename_i hy
        · have : i ≠ k := by
            rintro rfl
            have := (hpair.pair i hi x hxr y (hy ▸ hb)).1 hxy
            rw [hy, hs] at this; cases this
          rw [hy, hq]; omega
        · exact hlt
      have := h.caus x hxr y i hi hxy hlt'
      split <;> rename_i hx
      · rw [hx, hq] at this; omega
      · exact this
  | recvBuffered a b k v rest hb hk hq hs hc =>
    have hd : (ph k).dst a = some b := (hpair.pair k hk a (hpair.srcIn k hk b hb a hs) b hb).2 hs
    have hch := h.chan a b
    rw [hc] at hch
    -- the message of phase k has been sent
    have hsent : 2 * k < C.pc a := by
      have hne : (List.range K).filter (under K ph C.pc a b) ≠ [] := by
        intro e; rw [e] at hch; simp at hch
      obtain ⟨i, hi⟩ := List.exists_mem_of_ne_nil _ hne
      rw [List.mem_filter, List.mem_range, under_iff] at hi
      omega
    have e2 := under_recv hpair h.out hb hk hq a b (fun _ => hsent)
    rw [if_pos ⟨rfl, hs⟩] at e2
    rw [e2, List.map_cons] at hch
    obtain ⟨hv, hrest⟩ := List.cons.inj hch
    refine ⟨?_, ?_, ?_, ?_, ?_⟩
    · intro c
      simp only [upd_apply]
      split
      · omega
      · exact h.le c
    · intro c
      simp only [upd_apply]
      split <;> rename_i hcc
      · rw [hcc, show (2 * k + 2) / 2 = k + 1 by omega, h.loc b, hq, show (2 * k + 1) / 2 = k by omega, hv]
        rw [show syncRun ph w (k + 1) b = syncPhase (ph k) (syncRun ph w k) b from rfl]
        unfold syncPhase
        rw [hs]; rfl
      · exact h.loc c
    · intro x y
      simp only [upd_apply]
      by_cases hx : x = a
      · subst hx
        rw [if_pos rfl]
        simp only [upd_apply]
        by_cases hy : y = b
        · subst hy
          rw [if_pos rfl]; exact hrest
        · rw [if_neg hy]
          have e3 := under_recv hpair h.out hb hk hq x y (fun _ => hsent)
          rw [if_neg (fun e => hy e.1)] at e3
          rw [h.chan x y, e3]
      · rw [if_neg hx]
        have e3 := under_recv hpair h.out hb hk hq x y (by
          intro e; rw [hs] at e; exact absurd (Option.some.inj e).symm hx)
        rw [if_neg (by rintro ⟨-, e⟩; rw [hs] at e; exact hx (Option.some.inj e).symm)] at e3
        rw [h.chan x y, e3]
    · intro c hc0
      simp only [upd_apply]
      rw [if_neg (by rintro rfl; exact hc0 hb)]; exact h.out c hc0
    · intro x hxr y i hi hxy hlt
      simp only [upd_apply] at hlt ⊢
      by_cases hib : i = k ∧ y = b
      · obtain ⟨rfl, rfl⟩ := hib
        have : x = a := by
          have := (hpair.pair i hi x hxr y hb).1 hxy
          rw [hs] at this
          exact (Option.some.inj this).symm
        subst this
        split
        · omega
        · exact hsent
      · have hlt' : 2 * i + 1 < C.pc y := by
          split at hlt <;> rename_i hy
          · have : i ≠ k := fun e => hib ⟨e, hy⟩
            rw [hy, hq]; omega
          · exact hlt
        have := h.caus x hxr y i hi hxy hlt'
        split <;> rename_i hx
        · rw [hx, hq] at this; omega
        · exact this

theorem binv_run {buffered : Bool} {ranks : List R} {K : ℕ} {ph : ℕ → Phase R L M} (hpair : Paired ranks K ph) {w : R → L}
    {n : ℕ} {C : Conf R L M} (r : BRun buffered ranks K ph n (Conf.start w) C) : BInv ranks K ph w C := by
  generalize hA : Conf.start w = A at r
  induction r with
  | refl C => subst hA; exact binv_start ranks K ph w
  | tail h s ih => exact binv_step hpair (ih hA) s

/-- Whatever the interleaving and buffering, a rank that has returned holds the lock-step result. -/
theorem blocking_deterministic {buffered : Bool} {ranks : List R} {K : ℕ} {ph : ℕ → Phase R L M} (hpair : Paired ranks K ph)
    {w : R → L} {n : ℕ} {C : Conf R L M} (r : BRun buffered ranks K ph n (Conf.start w) C) {c : R} (hc : C.doneAt K c) :
    C.loc c = syncRun ph w K c := by
  have h := (binv_run hpair r).loc c
  unfold Conf.doneAt at hc
  rw [h, hc]
  congr 1; omega

theorem sum_update_lt {ranks : List R} (hn : ranks.Nodup) {f : R → ℕ} {a : R} (ha : a ∈ ranks) (v : ℕ) (hv : f a + 1 = v) :
    (ranks.map (Function.update f a v)).sum = (ranks.map f).sum + 1 := by
  induction ranks with
  | nil => simp at ha
  | cons x t ih =>
    rw [List.nodup_cons] at hn
    simp only [List.map_cons, List.sum_cons]
    by_cases hx : x = a
    · subst hx
      have : t.map (Function.update f x v) = t.map f := by
        apply List.map_congr_left
        intro y hy
        rw [upd_apply, if_neg]; rintro rfl; exact hn.1 hy
      rw [this, upd_apply, if_pos rfl]; omega
    · rw [upd_apply, if_neg hx, ih hn.2 (by
        rcases List.mem_cons.1 ha with h | h
        · exact absurd h.symm hx
        · exact h)]
      omega

theorem bstep_measure {buffered : Bool} {ranks : List R} (hn : ranks.Nodup) {K : ℕ} {ph : ℕ → Phase R L M} {C C' : Conf R L M}
    (s : BStep buffered ranks K ph C C') : (ranks.map C.pc).sum + 1 ≤ (ranks.map C'.pc).sum := by
  cases s with
  | sendNull a k ha hk hp hd => simp only; rw [sum_update_lt hn ha _ (by omega)]
  | sendBuffered a b k hb ha hk hp hd => simp only; rw [sum_update_lt hn ha _ (by omega)]
  | rendezvous a b k k' hab ha hb hk hk' hp hd hq hs hc =>
    simp only
    rw [sum_update_lt hn hb _ (by rw [upd_apply, if_neg (Ne.symm hab)]; omega), sum_update_lt hn ha _ (by omega)]
    omega
  | recvNull b k hb hk hq hs => simp only; rw [sum_update_lt hn hb _ (by omega)]
  | recvBuffered a b k v rest hb hk hq hs hc => simp only; rw [sum_update_lt hn hb _ (by omega)]

/-- No execution takes more than `2 K` steps per rank. -/
theorem blocking_terminates {buffered : Bool} {ranks : List R} (hn : ranks.Nodup) {K : ℕ} {ph : ℕ → Phase R L M}
    (hpair : Paired ranks K ph) {w : R → L} {n : ℕ} {C : Conf R L M} (r : BRun buffered ranks K ph n (Conf.start w) C) :
    n ≤ 2 * K * ranks.length := by
  have hle : (ranks.map C.pc).sum ≤ 2 * K * ranks.length := by
    have h := (binv_run hpair r).le
    clear r hn hpair
    induction ranks with
    | nil => simp
    | cons x t ih =>
      simp only [List.map_cons, List.sum_cons, List.length_cons]
      have := h x
      nlinarith
  have hge : n ≤ (ranks.map C.pc).sum := by
    clear hle
    generalize hA : Conf.start w = A at r
    induction r with
    | refl C => exact Nat.zero_le _
    | tail h s ih =>
      have := bstep_measure hn s
      have := ih hA
      omega
  omega

/-- **Progress** without any buffering: if within each phase the sends follow no cycle (`height` decreases), then as long as
some rank has not returned, some step is possible. -/
theorem blocking_progress {buffered : Bool} {ranks : List R} {K : ℕ} {ph : ℕ → Phase R L M} (hpair : Paired ranks K ph)
    (height : ℕ → R → ℕ) (hh : ∀ k < K, ∀ a ∈ ranks, ∀ b, (ph k).dst a = some b → height k b < height k a)
    {w : R → L} {n : ℕ} {C : Conf R L M} (r : BRun buffered ranks K ph n (Conf.start w) C)
    (hnot : ∃ c ∈ ranks, ¬ C.doneAt K c) : ∃ C', BStep buffered ranks K ph C C' := by
  have inv := binv_run hpair r
  unfold Conf.doneAt at hnot
  -- the least phase
  have hex : ∃ k, ∃ c ∈ ranks, C.pc c / 2 = k ∧ C.pc c < 2 * K := by
    obtain ⟨c, hc, hne⟩ := hnot
    have := inv.le c
    exact ⟨_, c, hc, rfl, by omega⟩
  classical
  let k := Nat.find hex
  obtain ⟨c, hc, hck, hcK⟩ : ∃ c ∈ ranks, C.pc c / 2 = k ∧ C.pc c < 2 * K := Nat.find_spec hex
  have hmin : ∀ b ∈ ranks, k ≤ C.pc b / 2 := by
    intro b hb
    by_cases hbK : C.pc b < 2 * K
    · exact Nat.find_min' hex ⟨b, hb, rfl, hbK⟩
    · omega
  have hk : k < K := by omega
  by_cases hrecv : ∃ b ∈ ranks, C.pc b = 2 * k + 1
  · -- some rank waits in Recv of the least phase
    obtain ⟨b, hb, hq⟩ := hrecv
    cases hs : (ph k).src b with
    | none => exact ⟨_, .recvNull C b k hb hk hq hs⟩
    | some a =>
      have ha : a ∈ ranks := hpair.srcIn k hk b hb a hs
      have hd : (ph k).dst a = some b := (hpair.pair k hk a ha b hb).2 hs
      have := hmin a ha
      by_cases hsent : 2 * k < C.pc a
      · have e := under_recv hpair inv.out hb hk hq a b (fun _ => hsent)
        rw [if_pos ⟨rfl, hs⟩] at e
        have hch := inv.chan a b
        rw [e, List.map_cons] at hch
        exact ⟨_, .recvBuffered C a b k _ _ hb hk hq hs hch⟩
      · have hpa : C.pc a = 2 * k := by omega
        have hab : a ≠ b := by rintro rfl; omega
        have hch : C.chan a b = [] := by
          rw [inv.chan a b, List.map_eq_nil_iff, List.filter_eq_nil_iff]
          intro i hi hu
          rw [under_iff] at hu
          omega
        exact ⟨_, .rendezvous C a b k k hab ha hb hk hk hpa hd hq hs hch⟩
  · -- all ranks of the least phase are about to send: take the one of least height
    have hsend : ∃ h, ∃ a ∈ ranks, C.pc a = 2 * k ∧ height k a = h := by
      refine ⟨_, c, hc, ?_, rfl⟩
      by_contra hne
      exact hrecv ⟨c, hc, by omega⟩
    obtain ⟨a, ha, hpa, hha⟩ := Nat.find_spec hsend
    cases hd : (ph k).dst a with
    | none => exact ⟨_, .sendNull C a k ha hk hpa hd⟩
    | some b =>
      exfalso
      have hb : b ∈ ranks := hpair.dstIn k hk a ha b hd
      have h1 := hmin b hb
      have h2 : ¬ 2 * k + 1 < C.pc b := fun hlt => by
        have := inv.caus a ha b k hk hd hlt
        omega
      have h3 : C.pc b = 2 * k := by
        by_contra hne
        exact hrecv ⟨b, hb, by omega⟩
      have := Nat.find_min' hsend ⟨b, hb, h3, rfl⟩
      have := hh k hk a ha b hd
      omega

/-- Progress with buffering: for any topology. -/
theorem blocking_progress_buffered {ranks : List R} {K : ℕ} {ph : ℕ → Phase R L M} (hpair : Paired ranks K ph)
    {w : R → L} {n : ℕ} {C : Conf R L M} (r : BRun true ranks K ph n (Conf.start w) C)
    (hnot : ∃ c ∈ ranks, ¬ C.doneAt K c) : ∃ C', BStep true ranks K ph C C' := by
  have inv := binv_run hpair r
  unfold Conf.doneAt at hnot
  by_cases hs : ∃ a ∈ ranks, ∃ k < K, C.pc a = 2 * k
  · obtain ⟨a, ha, k, hk, hp⟩ := hs
    cases hd : (ph k).dst a with
    | none => exact ⟨_, .sendNull C a k ha hk hp hd⟩
    | some b => exact ⟨_, .sendBuffered C a b k rfl ha hk hp hd⟩
  · -- everybody not finished is in Recv; take the least phase
    have hex : ∃ k, ∃ c ∈ ranks, C.pc c / 2 = k ∧ C.pc c < 2 * K := by
      obtain ⟨c, hc, hne⟩ := hnot
      have := inv.le c
      exact ⟨_, c, hc, rfl, by omega⟩
    classical
    obtain ⟨b, hb, hbk, hbK⟩ := Nat.find_spec hex
    set k := Nat.find hex with hkdef
    have hk : k < K := by omega
    have hq : C.pc b = 2 * k + 1 := by
      by_contra hne
      exact hs ⟨b, hb, k, hk, by omega⟩
    cases hsrc : (ph k).src b with
    | none => exact ⟨_, .recvNull C b k hb hk hq hsrc⟩
    | some a =>
      have ha : a ∈ ranks := hpair.srcIn k hk b hb a hsrc
      have hsent : 2 * k < C.pc a := by
        by_cases haK : C.pc a < 2 * K
        · have h1 : k ≤ C.pc a / 2 := Nat.find_min' hex ⟨a, ha, rfl, haK⟩
          by_contra hne
          exact hs ⟨a, ha, k, hk, by omega⟩
        · omega
      have e := under_recv hpair inv.out hb hk hq a b (fun _ => hsent)
      rw [if_pos ⟨rfl, hsrc⟩] at e
      have hch := inv.chan a b
      rw [e, List.map_cons] at hch
      exact ⟨_, .recvBuffered C a b k _ _ hb hk hq hsrc hch⟩

/-- If in the first phase every rank has somebody to send to, an unbuffered run cannot even start: nobody ever receives. -/
theorem blocking_deadlock {ranks : List R} {K : ℕ} {ph : ℕ → Phase R L M} (w : R → L)
    (hd : ∀ a ∈ ranks, ∃ b, (ph 0).dst a = some b) : ¬ ∃ C', BStep false ranks K ph (Conf.start w) C' := by
  rintro ⟨C', s⟩
  cases s with
  | sendNull a k ha hk hp hd' =>
    have : k = 0 := by simp [Conf.start] at hp; omega
    subst this
    obtain ⟨b, hb⟩ := hd a ha
    rw [hb] at hd'; cases hd'
  | sendBuffered a b k hb ha hk hp hd' => cases hb
  | rendezvous a b k k' hab ha hb hk hk' hp hd' hq hs hc => simp [Conf.start] at hq
  | recvNull b k hb hk hq hs => simp [Conf.start] at hq
  | recvBuffered a b k v rest hb hk hq hs hc => simp [Conf.start] at hq

end Sopht
