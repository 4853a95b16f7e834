import Verif.Doubling
import Verif.MsgLemmas
import Verif.Ghost2DLemmas
import Verif.Ghost3DLemmas

/-! Lemmas for the domain doubling communicators. -/

namespace Sopht

section Fan
variable {R K ι : Type} [DecidableEq R] [DecidableEq K]

theorem filterMap_key (ks : List K) (hn : ks.Nodup) (k0 : K) (hk : k0 ∈ ks) (d : Option R) (r : R) (x : List ι) :
    (ks.filterMap fun k => if (if k0 = k then d else none) = some r then some x else none)
      = if d = some r then [x] else [] := by
  induction ks with
  | nil => simp at hk
  | cons a t ih =>
    rw [List.nodup_cons] at hn
    by_cases e : k0 = a
    · subst e
      have : (t.filterMap fun k => if (if k0 = k then d else none) = some r then some x else none) = [] := by
        rw [List.filterMap_eq_nil_iff]
        intro k hkt
        have : k0 ≠ k := fun h => hn.1 (h ▸ hkt)
        simp [this]
      rw [List.filterMap_cons]
      by_cases h : d = some r <;> simp [h]
      exact fun a ha e => hn.1 (e ▸ ha)
    · have hk' : k0 ∈ t := by
        rcases List.mem_cons.1 hk with h | h
        · exact absurd h e
        · exact h
      rw [List.filterMap_cons]
      simp only [e, if_false, reduceCtorEq]
      exact ih hn.2 hk'

/-- The keyed form of an exchange in which each rank sends one message and receives one for each key. -/
def fanInPost (key : R → K) (dest : R → Option R) (sIx : List ι) (src : R → K → Option R) (rIx : K → List ι) (c : R) (k : K) :
    Post R ι := ⟨if key c = k then dest c else none, sIx, src c k, rIx k⟩

/-- The keyed form of an exchange in which each rank sends one message for each key and receives one. -/
def fanOutPost (key : R → K) (src : R → Option R) (rIx : List ι) (dst : R → K → Option R) (sIx : K → List ι) (c : R) (k : K) :
    Post R ι := ⟨dst c k, sIx k, if key c = k then src c else none, rIx⟩

/-- literal form of `fanInPost` -/
def fanInList (ks : List K) (dest : R → Option R) (sIx : List ι) (src : R → K → Option R) (rIx : K → List ι) (c : R) :
    List (Post R ι) := ⟨dest c, sIx, none, []⟩ :: ks.map fun k => ⟨none, [], src c k, rIx k⟩

/-- literal form of `fanOutPost` -/
def fanOutList (ks : List K) (src : R → Option R) (rIx : List ι) (dst : R → K → Option R) (sIx : K → List ι) (c : R) :
    List (Post R ι) := (ks.map fun k => ⟨dst c k, sIx k, none, []⟩) ++ [⟨none, [], src c, rIx⟩]

theorem filterMap_none {A B : Type} (l : List A) : l.filterMap (fun _ => (none : Option B)) = [] := by
  rw [List.filterMap_eq_nil_iff]; intros; rfl

theorem fanIn_sends (ks : List K) (hn : ks.Nodup) (key : R → K) (hk : ∀ c, key c ∈ ks) (dest : R → Option R) (sIx : List ι)
    (src : R → K → Option R) (rIx : K → List ι) (s r : R) :
    sendsTo (fanInList ks dest sIx src rIx) s r
      = sendsTo (fun c => ks.map (fanInPost key dest sIx src rIx c)) s r := by
  unfold sendsTo fanInList
  rw [List.filterMap_map]
  have h := filterMap_key (R := R) ks hn (key s) (hk s) (dest s) r sIx
  refine Eq.trans ?_ h.symm
  rw [List.filterMap_cons, List.filterMap_map]
  have : ((fun p : Post R ι => if p.sendTo = some r then some p.sendIx else none) ∘ fun k => (⟨none, [], src s k, rIx k⟩ : Post R ι))
      = fun _ => none := by funext k; simp
  rw [this, filterMap_none]
  by_cases e : dest s = some r <;> simp [e]

theorem fanIn_recvs (ks : List K) (key : R → K) (dest : R → Option R) (sIx : List ι)
    (src : R → K → Option R) (rIx : K → List ι) (s r : R) :
    recvsOf (fanInList ks dest sIx src rIx) s r
      = recvsOf (fun c => ks.map (fanInPost key dest sIx src rIx c)) s r := by
  unfold recvsOf fanInList
  rw [List.filterMap_cons]
  simp only [reduceCtorEq, if_false]
  rw [List.filterMap_map, List.filterMap_map]
  rfl

theorem fanOut_recvs (ks : List K) (hn : ks.Nodup) (key : R → K) (hk : ∀ c, key c ∈ ks) (src : R → Option R) (rIx : List ι)
    (dst : R → K → Option R) (sIx : K → List ι) (s r : R) :
    recvsOf (fanOutList ks src rIx dst sIx) s r
      = recvsOf (fun c => ks.map (fanOutPost key src rIx dst sIx c)) s r := by
  unfold recvsOf fanOutList
  rw [List.filterMap_map]
  have h := filterMap_key (R := R) ks hn (key s) (hk s) (src s) r rIx
  refine Eq.trans ?_ h.symm
  rw [List.filterMap_append, List.filterMap_map]
  have : ((fun p : Post R ι => if p.recvFrom = some r then some p.recvIx else none) ∘ fun k => (⟨dst s k, sIx k, none, []⟩ : Post R ι))
      = fun _ => none := by funext k; simp
  rw [this, filterMap_none]
  by_cases e : src s = some r <;> simp [e]

theorem fanOut_sends (ks : List K) (key : R → K) (src : R → Option R) (rIx : List ι)
    (dst : R → K → Option R) (sIx : K → List ι) (s r : R) :
    sendsTo (fanOutList ks src rIx dst sIx) s r
      = sendsTo (fun c => ks.map (fanOutPost key src rIx dst sIx c)) s r := by
  unfold sendsTo fanOutList
  rw [List.filterMap_append, List.filterMap_map, List.filterMap_map]
  simp
  rfl

theorem allMsgs_congr' {ranks : List R} {p q : R → List (Post R ι)}
    (hs : ∀ s r, sendsTo p s r = sendsTo q s r) (hr : ∀ s r, recvsOf p s r = recvsOf q s r) :
    allMsgs ranks p = allMsgs ranks q := by
  unfold allMsgs matched
  simp only [hs, hr]

/-- Messages of the fan-in exchange. -/
theorem mem_fanIn {ranks : List R} {ks : List K} (hn : ks.Nodup) {key : R → K} (hk : ∀ c, key c ∈ ks) {dest : R → Option R}
    {sIx : List ι} {src : R → K → Option R} {rIx : K → List ι}
    (mir : ∀ s ∈ ranks, ∀ r ∈ ranks, ∀ k ∈ ks, (key s = k ∧ dest s = some r) ↔ src r k = some s) (m : Msg R ι) :
    m ∈ allMsgs ranks (fanInList ks dest sIx src rIx) ↔
      ∃ s ∈ ranks, ∃ r ∈ ranks, dest s = some r ∧ m = ⟨s, r, sIx, rIx (key s)⟩ := by
  rw [allMsgs_congr' (fanIn_sends ks hn key hk dest sIx src rIx) (fanIn_recvs ks key dest sIx src rIx),
    mem_allMsgs_spmd]
  · constructor
    · rintro ⟨s, hs, r, hr, k, hkk, h, rfl⟩
      simp only [fanInPost] at h ⊢
      by_cases e : key s = k
      · subst e; simp at h; exact ⟨s, hs, r, hr, h, rfl⟩
      · simp [e] at h
    · rintro ⟨s, hs, r, hr, h, rfl⟩
      exact ⟨s, hs, r, hr, key s, hk s, by simp [fanInPost, h], rfl⟩
  · intro s hs r hr k hkk
    rw [← show _ ↔ (fanInPost key dest sIx src rIx r k).recvFrom = some s from mir s hs r hr k hkk]
    simp only [fanInPost]
    by_cases e : key s = k <;> simp [e]

/-- Messages of the fan-out exchange. -/
theorem mem_fanOut {ranks : List R} {ks : List K} (hn : ks.Nodup) {key : R → K} (hk : ∀ c, key c ∈ ks) {src : R → Option R}
    {rIx : List ι} {dst : R → K → Option R} {sIx : K → List ι}
    (mir : ∀ s ∈ ranks, ∀ r ∈ ranks, ∀ k ∈ ks, (key s = k ∧ src s = some r) ↔ dst r k = some s) (m : Msg R ι) :
    m ∈ allMsgs ranks (fanOutList ks src rIx dst sIx) ↔
      ∃ s ∈ ranks, ∃ r ∈ ranks, src s = some r ∧ m = ⟨r, s, sIx (key s), rIx⟩ := by
  rw [allMsgs_congr' (fanOut_sends ks key src rIx dst sIx) (fanOut_recvs ks hn key hk src rIx dst sIx),
    mem_allMsgs_spmd]
  · constructor
    · rintro ⟨r, hr, s, hs, k, hkk, h, rfl⟩
      have := (mir s hs r hr k hkk).2 h
      obtain ⟨e, h'⟩ := this
      subst e
      exact ⟨s, hs, r, hr, h', rfl⟩
    · rintro ⟨s, hs, r, hr, h, rfl⟩
      exact ⟨r, hr, s, hs, key s, hk s, (mir s hs r hr _ (hk s)).1 ⟨rfl, h⟩, rfl⟩
  · intro r hr s hs k hkk
    rw [show (fanOutPost key src rIx dst sIx r k).sendTo = some s ↔ _ from (mir s hs r hr k hkk).symm]
    simp only [fanOutPost]
    by_cases e : key s = k <;> simp [e]

theorem allMatched_fanIn {ranks : List R} {ks : List K} (hn : ks.Nodup) {key : R → K} (hk : ∀ c, key c ∈ ks) {dest : R → Option R}
    {sIx : List ι} {src : R → K → Option R} {rIx : K → List ι}
    (mir : ∀ s ∈ ranks, ∀ r ∈ ranks, ∀ k ∈ ks, (key s = k ∧ dest s = some r) ↔ src r k = some s)
    (hd : ∀ s ∈ ranks, ∀ r, dest s = some r → r ∈ ranks) (hsrc : ∀ s ∈ ranks, ∀ k ∈ ks, ∀ r, src s k = some r → r ∈ ranks)
    (hl : ∀ k, sIx.length = (rIx k).length) :
    AllMatched ranks (fanInList ks dest sIx src rIx) := by
  refine ⟨?_, ?_⟩
  · intro s hs p hp
    simp only [fanInList, List.mem_cons, List.mem_map] at hp
    rcases hp with rfl | ⟨k, hkk, rfl⟩
    · exact ⟨hd s hs, by simp⟩
    · exact ⟨by simp, hsrc s hs k hkk⟩
  · intro s hs r hr
    rw [fanIn_sends ks hn key hk, fanIn_recvs ks key]
    refine (allMatched_spmd ranks ks _ ?_ ?_ ?_).2 s hs r hr
    · intro s hs k hkk
      refine ⟨?_, hsrc s hs k hkk⟩
      intro r h
      simp only [fanInPost] at h
      split at h
      · exact hd s hs r h
      · simp at h
    · intro s hs r hr k hkk
      rw [← show _ ↔ (fanInPost key dest sIx src rIx r k).recvFrom = some s from mir s hs r hr k hkk]
      simp only [fanInPost]
      by_cases e : key s = k <;> simp [e]
    · intros; exact hl _

theorem allMatched_fanOut {ranks : List R} {ks : List K} (hn : ks.Nodup) {key : R → K} (hk : ∀ c, key c ∈ ks) {src : R → Option R}
    {rIx : List ι} {dst : R → K → Option R} {sIx : K → List ι}
    (mir : ∀ s ∈ ranks, ∀ r ∈ ranks, ∀ k ∈ ks, (key s = k ∧ src s = some r) ↔ dst r k = some s)
    (hd : ∀ s ∈ ranks, ∀ r, src s = some r → r ∈ ranks) (hsrc : ∀ s ∈ ranks, ∀ k ∈ ks, ∀ r, dst s k = some r → r ∈ ranks)
    (hl : ∀ k, (sIx k).length = rIx.length) :
    AllMatched ranks (fanOutList ks src rIx dst sIx) := by
  refine ⟨?_, ?_⟩
  · intro s hs p hp
    simp only [fanOutList, List.mem_append, List.mem_singleton, List.mem_map] at hp
    rcases hp with ⟨k, hkk, rfl⟩ | rfl
    · exact ⟨hsrc s hs k hkk, by simp⟩
    · exact ⟨by simp, hd s hs⟩
  · intro s hs r hr
    rw [fanOut_sends ks key, fanOut_recvs ks hn key hk]
    refine (allMatched_spmd ranks ks _ ?_ ?_ ?_).2 s hs r hr
    · intro s hs k hkk
      refine ⟨hsrc s hs k hkk, ?_⟩
      intro r h
      simp only [fanOutPost] at h
      split at h
      · exact hd s hs r h
      · simp at h
    · intro r hr s hs k hkk
      rw [show (fanOutPost key src rIx dst sIx r k).sendTo = some s ↔ _ from (mir s hs r hr k hkk).symm]
      simp only [fanOutPost]
      by_cases e : key s = k <;> simp [e]
    · intros; exact hl _

end Fan

/-! ### Axis arithmetic -/

theorem half_src {P : ℕ} {per : Bool} {c : ℤ} (h0 : 0 ≤ c) (h1 : c < P) :
    axisNbr P per c (-(c / 2 + c % 2)) = some (c / 2) := by
  unfold axisNbr
  rw [if_pos (by omega)]
  congr 1; omega

theorem half_dst {P : ℕ} {per : Bool} (hp : per = false ∨ P % 2 = 0) {c k : ℤ} (h0 : 0 ≤ c) (h1 : 2 * c < P)
    (hk : k = 0 ∨ k = 1) :
    axisNbr P per c (c + k) = if 2 * c + k < P then some (2 * c + k) else none := by
  unfold axisNbr
  by_cases h : 2 * c + k < P
  · rw [if_pos (by omega), if_pos h]; congr 1; omega
  · rw [if_neg (by omega), if_neg h]
    rcases hp with rfl | hp
    · rfl
    · omega

/-- A cell of the doubled domain: global index, owner and position in the owner's block. -/
theorem dbl_axis {P n : ℕ} {s r k b : ℤ} (hs : s = 2 * r + k) (hb0 : 0 ≤ b) (hb1 : b < n) :
    (r * (2 * n) + (n * k + b)) / n = s ∧ (r * (2 * n) + (n * k + b)) % n = b := by
  have e : r * (2 * n) + (n * k + b) = b + s * n := by subst hs; ring
  have hn : (n : ℤ) ≠ 0 := by omega
  rw [e]
  constructor
  · rw [Int.add_mul_ediv_right _ _ hn, Int.ediv_eq_zero_of_lt hb0 hb1]; omega
  · rw [Int.add_mul_emod_self_right, Int.emod_eq_of_lt hb0 hb1]

theorem dbl_axis_inv {n : ℕ} {r q : ℤ} (h0 : 0 ≤ q) (h1 : q < 2 * n) :
    (r * (2 * n) + q) / n = 2 * r + q / n ∧ (r * (2 * n) + q) % n = q % n ∧ 0 ≤ q / n ∧ q / n ≤ 1 ∧
      (n : ℤ) * (q / n) + q % n = q ∧ 0 ≤ q % n ∧ q % n < n := by
  have hn : (0 : ℤ) < n := by omega
  have e : r * (2 * n) + q = q + (2 * r) * n := by ring
  rw [e, Int.add_mul_ediv_right _ _ hn.ne', Int.add_mul_emod_self_right]
  refine ⟨by ring, rfl, Int.ediv_nonneg h0 hn.le, ?_, Int.mul_ediv_add_emod q n, Int.emod_nonneg _ hn.ne', Int.emod_lt_of_pos _ hn⟩
  have : q / n < 2 := Int.ediv_lt_of_lt_mul hn (by linarith)
  omega

theorem subIx2_eq (s : ℕ × ℕ) (st : C2) :
    subIx2 s st = (rect s.1 s.2).map fun p => (st.1 + p.1, st.2 + p.2) := by
  unfold subIx2 rect
  rw [List.map_flatMap]
  congr 1; funext a
  rw [List.map_map]; rfl

/-! ### 2D -/

section D2
variable {T : Cart2} {α : Type}

theorem h10 : ((1 : Fin 2) = 0) = False := by decide

/-- What the checks of `__init__` establish. -/
theorem doublingInit2_ok {g : PyNum} {d : Fin 2} (h : doublingInit2 g T = .ok d) :
    (d = 0 ∧ T.px = 1) ∨ (d = 1 ∧ T.py = 1) := by
  unfold doublingInit2 at h
  split at h
  · cases h
  · by_cases hy : T.py = 1 <;> by_cases hx : T.px = 1
    · simp [distDims2, hy, hx] at h; left; exact ⟨h.symm, hx⟩
    · simp [distDims2, hy, hx] at h; right; exact ⟨h.symm, hy⟩
    · simp [distDims2, hy, hx] at h; left; exact ⟨h.symm, hx⟩
    · simp [distDims2, hy, hx] at h

/-- destination of the only send -/
def tDest2 (T : Cart2) (d : Fin 2) (c : C2) : Option C2 := shiftSrc2 T d c (at2 d c / 2 + at2 d c % 2)
/-- source of the receive of half `k` -/
def tSrc2 (T : Cart2) (d : Fin 2) (c : C2) (k : ℤ) : Option C2 :=
  if 2 * at2 d c < topo2 T d then shiftDst2 T d c (at2 d c + k) else none
/-- half `k` of the doubled array -/
def tBuf2 (T : Cart2) (d : Fin 2) (k : ℤ) : List (C2 ⊕ C2) := (subIx2 (T.ny, T.nx) (put2 d (0, 0) (size2 T d * k))).map .inr

theorem tBuf2_zero (d : Fin 2) : tBuf2 T d 0 = firstBuf2 T := by
  unfold tBuf2 firstBuf2 put2; split <;> simp
theorem tBuf2_one (d : Fin 2) : tBuf2 T d 1 = secondBuf2 T d := by
  unfold tBuf2 secondBuf2; simp

theorem toPosts2_sends (g : ℕ) (d : Fin 2) (s r : C2) :
    sendsTo (toPosts2 T g d) s r = sendsTo (fanInList ([0, 1] : List ℤ) (tDest2 T d) (actualBuf2 T g) (tSrc2 T d) (tBuf2 T d)) s r := by
  unfold sendsTo toPosts2 fanInList
  by_cases h : 2 * at2 d s < topo2 T d <;> simp [h, tDest2, List.filterMap_cons]

theorem toPosts2_recvs (g : ℕ) (d : Fin 2) (s r : C2) :
    recvsOf (toPosts2 T g d) s r = recvsOf (fanInList ([0, 1] : List ℤ) (tDest2 T d) (actualBuf2 T g) (tSrc2 T d) (tBuf2 T d)) s r := by
  unfold recvsOf toPosts2 fanInList
  have e0 : 2 * at2 d s - at2 d s = at2 d s + 0 := by ring
  have e1 : 2 * at2 d s + 1 - at2 d s = at2 d s + 1 := by ring
  by_cases h : 2 * at2 d s < topo2 T d <;> simp [h, tSrc2, tBuf2_zero, tBuf2_one, e1, e0, List.filterMap_cons]

theorem fromPosts2_recvs (g : ℕ) (d : Fin 2) (s r : C2) :
    recvsOf (fromPosts2 T g d) s r = recvsOf (fanOutList ([0, 1] : List ℤ) (tDest2 T d) (actualBuf2 T g) (tSrc2 T d) (tBuf2 T d)) s r := by
  unfold recvsOf fromPosts2 fanOutList
  by_cases h : 2 * at2 d s < topo2 T d <;> simp [h, tDest2, List.filterMap_cons]

theorem fromPosts2_sends (g : ℕ) (d : Fin 2) (s r : C2) :
    sendsTo (fromPosts2 T g d) s r = sendsTo (fanOutList ([0, 1] : List ℤ) (tDest2 T d) (actualBuf2 T g) (tSrc2 T d) (tBuf2 T d)) s r := by
  unfold sendsTo fromPosts2 fanOutList
  have e0 : 2 * at2 d s - at2 d s = at2 d s + 0 := by ring
  have e1 : 2 * at2 d s + 1 - at2 d s = at2 d s + 1 := by ring
  by_cases h : 2 * at2 d s < topo2 T d <;> simp [h, tSrc2, tBuf2_zero, tBuf2_one, e1, e0, List.filterMap_cons]

/-- hypotheses under which the communicator works: slab along `d`; not periodic or an even number of slabs -/
def SlabOK (T : Cart2) (d : Fin 2) : Prop :=
  ((d = 0 ∧ T.px = 1) ∨ (d = 1 ∧ T.py = 1)) ∧ (T.per = false ∨ topo2 T d % 2 = 0)

theorem tDest2_eq {d : Fin 2} (h : SlabOK T d) {c : C2} (hc : Valid2 T c) :
    tDest2 T d c = some (c.1 / 2, c.2 / 2) := by
  obtain ⟨⟨rfl, hx⟩ | ⟨rfl, hy⟩, -⟩ := h
  · obtain ⟨h1, h2, h3, h4⟩ := hc
    simp only [tDest2, shiftSrc2, at2, topo2, if_true]
    rw [half_src h1 h2]
    simp only [Option.map_some, put2, if_true]
    congr 2; omega
  · obtain ⟨h1, h2, h3, h4⟩ := hc
    simp only [tDest2, shiftSrc2, at2, topo2, h10, if_false]
    rw [half_src h3 h4]
    simp only [Option.map_some, put2, h10, if_false]
    congr 2; omega

theorem mirror2 {d : Fin 2} (h : SlabOK T d) {s r : C2} (hs : Valid2 T s) (hr : Valid2 T r) {k : ℤ} (hk : k ∈ ([0, 1] : List ℤ)) :
    (at2 d s % 2 = k ∧ tDest2 T d s = some r) ↔ tSrc2 T d r k = some s := by
  rw [tDest2_eq h hs]
  have hk' : k = 0 ∨ k = 1 := by simpa using hk
  obtain ⟨s1, s2⟩ := s
  obtain ⟨r1, r2⟩ := r
  obtain ⟨h1, h2, h3, h4⟩ := hs
  obtain ⟨g1, g2, g3, g4⟩ := hr
  simp only at h1 h2 h3 h4 g1 g2 g3 g4
  obtain ⟨⟨rfl, hx⟩ | ⟨rfl, hy⟩, hp⟩ := h
  · simp only [topo2, if_true] at hp
    simp only [tSrc2, at2, topo2, if_true, shiftDst2]
    by_cases hl : 2 * r1 < T.py
    · rw [if_pos hl, half_dst hp g1 hl hk']
      by_cases hq : 2 * r1 + k < T.py
      · rw [if_pos hq]
        simp only [Option.map_some, put2, if_true, Option.some.injEq, Prod.mk.injEq]
        omega
      · rw [if_neg hq]
        simp only [Option.map_none, Option.some.injEq, Prod.mk.injEq, reduceCtorEq, iff_false]
        omega
    · rw [if_neg hl]
      simp only [Option.some.injEq, Prod.mk.injEq, reduceCtorEq, iff_false]
      omega
  · simp only [topo2, h10, if_false] at hp
    simp only [tSrc2, at2, topo2, h10, if_false, shiftDst2]
    by_cases hl : 2 * r2 < T.px
    · rw [if_pos hl, half_dst hp g3 hl hk']
      by_cases hq : 2 * r2 + k < T.px
      · rw [if_pos hq]
        simp only [Option.map_some, put2, h10, if_false, Option.some.injEq, Prod.mk.injEq]
        omega
      · rw [if_neg hq]
        simp only [Option.map_none, Option.some.injEq, Prod.mk.injEq, reduceCtorEq, iff_false]
        omega
    · rw [if_neg hl]
      simp only [Option.some.injEq, Prod.mk.injEq, reduceCtorEq, iff_false]
      omega

theorem tBuf2_eq {d : Fin 2} (h : SlabOK T d) {s r : C2} (hs : Valid2 T s) (hr : Valid2 T r) (e : tDest2 T d s = some r) :
    tBuf2 T d (at2 d s % 2)
      = (rect T.ny T.nx).map fun b => (.inr (T.ny * (s.1 % 2) + b.1, T.nx * (s.2 % 2) + b.2) : C2 ⊕ C2) := by
  obtain ⟨h1, h2, h3, h4⟩ := hs
  unfold tBuf2
  rw [subIx2_eq, List.map_map]
  apply List.map_congr_left
  intro b _
  simp only [Function.comp]
  obtain ⟨⟨rfl, hx⟩ | ⟨rfl, hy⟩, -⟩ := h
  · have : s.2 % 2 = 0 := by omega
    simp [put2, size2, at2, this]
  · have : s.1 % 2 = 0 := by omega
    simp [put2, size2, at2, this]

theorem mem_toMsgs2 {g : ℕ} {d : Fin 2} (h : SlabOK T d) (m : Msg C2 (C2 ⊕ C2)) :
    m ∈ toMsgs2 T g d ↔ ∃ s, Valid2 T s ∧ Valid2 T (s.1 / 2, s.2 / 2) ∧
      m = ⟨s, (s.1 / 2, s.2 / 2), (rect T.ny T.nx).map (fun b => .inl ((g : ℤ) + b.1, (g : ℤ) + b.2)),
        (rect T.ny T.nx).map fun b => .inr (T.ny * (s.1 % 2) + b.1, T.nx * (s.2 % 2) + b.2)⟩ := by
  unfold toMsgs2
  rw [allMsgs_congr' (toPosts2_sends g d) (toPosts2_recvs g d),
    mem_fanIn (by decide) (key := fun c => at2 d c % 2) (fun c => by
      have : at2 d c % 2 = 0 ∨ at2 d c % 2 = 1 := by omega
      simpa using this)
      (fun s hs r hr k hk => mirror2 h (mem_ranks2.1 hs) (mem_ranks2.1 hr) hk)]
  have ea : actualBuf2 T g = (rect T.ny T.nx).map (fun b => .inl ((g : ℤ) + b.1, (g : ℤ) + b.2)) := by
    unfold actualBuf2; rw [subIx2_eq, List.map_map]; rfl
  constructor
  · rintro ⟨s, hs, r, hr, e, rfl⟩
    rw [mem_ranks2] at hs hr
    have e' := e
    rw [tDest2_eq h hs, Option.some.injEq] at e'
    rw [tBuf2_eq h hs hr e, ea]
    subst e'
    exact ⟨s, hs, hr, rfl⟩
  · rintro ⟨s, hs, hr, rfl⟩
    refine ⟨s, mem_ranks2.2 hs, _, mem_ranks2.2 hr, tDest2_eq h hs, ?_⟩
    rw [tBuf2_eq h hs hr (tDest2_eq h hs), ea]

theorem mem_fromMsgs2 {g : ℕ} {d : Fin 2} (h : SlabOK T d) (m : Msg C2 (C2 ⊕ C2)) :
    m ∈ fromMsgs2 T g d ↔ ∃ s, Valid2 T s ∧ Valid2 T (s.1 / 2, s.2 / 2) ∧
      m = ⟨(s.1 / 2, s.2 / 2), s, (rect T.ny T.nx).map (fun b => .inr (T.ny * (s.1 % 2) + b.1, T.nx * (s.2 % 2) + b.2)),
        (rect T.ny T.nx).map (fun b => .inl ((g : ℤ) + b.1, (g : ℤ) + b.2))⟩ := by
  unfold fromMsgs2
  rw [allMsgs_congr' (fromPosts2_sends g d) (fromPosts2_recvs g d),
    mem_fanOut (by decide) (key := fun c => at2 d c % 2) (fun c => by
      have : at2 d c % 2 = 0 ∨ at2 d c % 2 = 1 := by omega
      simpa using this)
      (fun s hs r hr k hk => mirror2 h (mem_ranks2.1 hs) (mem_ranks2.1 hr) hk)]
  have ea : actualBuf2 T g = (rect T.ny T.nx).map (fun b => .inl ((g : ℤ) + b.1, (g : ℤ) + b.2)) := by
    unfold actualBuf2; rw [subIx2_eq, List.map_map]; rfl
  constructor
  · rintro ⟨s, hs, r, hr, e, rfl⟩
    rw [mem_ranks2] at hs hr
    have e' := e
    rw [tDest2_eq h hs, Option.some.injEq] at e'
    rw [tBuf2_eq h hs hr e, ea]
    subst e'
    exact ⟨s, hs, hr, rfl⟩
  · rintro ⟨s, hs, hr, rfl⟩
    refine ⟨s, mem_ranks2.2 hs, _, mem_ranks2.2 hr, tDest2_eq h hs, ?_⟩
    rw [tBuf2_eq h hs hr (tDest2_eq h hs), ea]

end D2
end Sopht
