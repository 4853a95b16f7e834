import Verif.DoublingLemmas
import Verif.DoublingProps
import Verif.Ghost3DProps

/-!
# Domain doubling in 3D: properties C44, C45
-/

namespace Sopht

/-- `q` is an element of the local array of the doubled domain. -/
def InDbl3 (T : Cart3) (q : C3) : Prop :=
  0 ≤ q.1 ∧ q.1 < 2 * T.nz ∧ 0 ≤ q.2.1 ∧ q.2.1 < 2 * T.ny ∧ 0 ≤ q.2.2 ∧ q.2.2 < 2 * T.nx

/-- Global index, in the doubled domain, of element `q` of the local doubled array of rank `c`. -/
def dblIx3 (T : Cart3) (c q : C3) : C3 :=
  (c.1 * (2 * T.nz) + q.1, c.2.1 * (2 * T.ny) + q.2.1, c.2.2 * (2 * T.nx) + q.2.2)

/-- The rank counts the 3D communicator can handle: 1 or even along every axis. -/
def EvenTopo3 (T : Cart3) : Prop :=
  (T.pz = 1 ∨ T.pz % 2 = 0) ∧ (T.py = 1 ∨ T.py % 2 = 0) ∧ (T.px = 1 ∨ T.px % 2 = 0)

section D3
variable {T : Cart3} {α : Type} {gz gy gx pz py px : ℕ} {per : Bool}

theorem mapM_ok {A B : Type} {l : List A} {f : A → Except PyErr B} {h : A → B} (hf : ∀ x ∈ l, f x = .ok (h x)) :
    l.mapM f = .ok (l.map h) := by
  induction l with
  | nil => rfl
  | cons a t ih =>
    rw [List.mapM_cons, hf a (by simp), ih (fun x hx => hf x (by simp [hx]))]
    rfl

theorem mapM_err {A B : Type} {l : List A} {f : A → Except PyErr B} {e : PyErr} (hf : ∀ x ∈ l, f x = .error e ∨ ∃ b, f x = .ok b)
    {x : A} (hx : x ∈ l) (hxe : f x = .error e) : l.mapM f = .error e := by
  induction l with
  | nil => simp at hx
  | cons a t ih =>
    rw [List.mapM_cons]
    rcases hf a (by simp) with h | ⟨b, h⟩
    · rw [h]; rfl
    · rw [h]
      have : x ∈ t := by
        rcases List.mem_cons.1 hx with h' | h'
        · subst h'; rw [h] at hxe; cases hxe
        · exact h'
      rw [ih (fun y hy => hf y (by simp [hy])) this]
      rfl

theorem mem_distDims3 (T : Cart3) :
    ((0 : Fin 3) ∈ distDims3 T ↔ T.pz ≠ 1) ∧ ((1 : Fin 3) ∈ distDims3 T ↔ T.py ≠ 1) ∧ ((2 : Fin 3) ∈ distDims3 T ↔ T.px ≠ 1) := by
  unfold distDims3
  by_cases h : T.pz * T.py * T.px = 1
  · have hx : T.px = 1 := Nat.eq_one_of_mul_eq_one_left h
    have hzy : T.pz * T.py = 1 := Nat.eq_one_of_mul_eq_one_right h
    have hy : T.py = 1 := Nat.eq_one_of_mul_eq_one_left hzy
    have hz : T.pz = 1 := Nat.eq_one_of_mul_eq_one_right hzy
    simp [hx, hy, hz]
  · rw [if_neg h]
    by_cases hz : T.pz = 1 <;> by_cases hy : T.py = 1 <;> by_cases hx : T.px = 1 <;> simp [hx, hy, hz]

theorem mem_axisOffs {dd : List (Fin 3)} {a : Fin 3} {k : ℤ} : k ∈ axisOffs dd a ↔ k = 0 ∨ (a ∈ dd ∧ k = 1) := by
  unfold axisOffs
  by_cases h : a ∈ dd <;> simp [h]

theorem mem_offsets3 {dd : List (Fin 3)} {k : C3} :
    k ∈ offsets3 dd ↔ k.1 ∈ axisOffs dd 0 ∧ k.2.1 ∈ axisOffs dd 1 ∧ k.2.2 ∈ axisOffs dd 2 := by
  obtain ⟨a, b, c⟩ := k
  simp only [offsets3, List.mem_flatMap, List.mem_map, Prod.mk.injEq]
  constructor
  · rintro ⟨a', ha, b', hb, c', hc, rfl, rfl, rfl⟩; exact ⟨ha, hb, hc⟩
  · rintro ⟨ha, hb, hc⟩; exact ⟨a, ha, b, hb, c, hc, rfl, rfl, rfl⟩

theorem offsets3_nodup (dd : List (Fin 3)) : (offsets3 dd).Nodup := by
  unfold offsets3 axisOffs
  by_cases h0 : (0 : Fin 3) ∈ dd <;> by_cases h1 : (1 : Fin 3) ∈ dd <;> by_cases h2 : (2 : Fin 3) ∈ dd <;>
    simp only [h0, h1, h2, if_true, if_false] <;> decide

/-- the part of the doubled block a rank's data goes to -/
def key3 (T : Cart3) (c : C3) : C3 :=
  (if T.pz = 1 then 0 else c.1 % 2, if T.py = 1 then 0 else c.2.1 % 2, if T.px = 1 then 0 else c.2.2 % 2)

theorem key3_mem (c : C3) : key3 T c ∈ offsets3 (distDims3 T) := by
  rw [mem_offsets3]
  obtain ⟨d0, d1, d2⟩ := mem_distDims3 T
  simp only [mem_axisOffs, d0, d1, d2, key3]
  refine ⟨?_, ?_, ?_⟩ <;> split <;> simp_all <;> omega

theorem key3_eq {c : C3} (hc : Valid3 T c) : key3 T c = (c.1 % 2, c.2.1 % 2, c.2.2 % 2) := by
  obtain ⟨h1, h2, h3, h4, h5, h6⟩ := hc
  unfold key3
  refine Prod.ext ?_ (Prod.ext ?_ ?_) <;> simp only <;> split <;> omega

theorem half_valid3 {c : C3} (hc : Valid3 T c) : Valid3 T (c.1 / 2, c.2.1 / 2, c.2.2 / 2) := by
  obtain ⟨h1, h2, h3, h4, h5, h6⟩ := hc
  refine ⟨?_, ?_, ?_, ?_, ?_, ?_⟩ <;> simp only <;> omega

theorem cartRank3_ok {c : C3} (hc : Valid3 T c) : cartRank3 T c = .ok c := by
  unfold cartRank3
  split
  · obtain ⟨h1, h2, h3, h4, h5, h6⟩ := hc
    rw [Int.emod_eq_of_lt h1 h2, Int.emod_eq_of_lt h3 h4, Int.emod_eq_of_lt h5 h6]
  · exact if_pos hc

/-- destination of the send -/
def tDest3 (c : C3) : Option C3 := some (c.1 / 2, c.2.1 / 2, c.2.2 / 2)
/-- source of the receive of part `k` -/
def tSrc3 (T : Cart3) (c k : C3) : Option C3 :=
  if lowerHalf3 T c then some (2 * c.1 + k.1, 2 * c.2.1 + k.2.1, 2 * c.2.2 + k.2.2) else none

theorem pairCoord3_ok (hE : EvenTopo3 T) {c k : C3} (hc : Valid3 T c) (hl : lowerHalf3 T c) (hk : k ∈ offsets3 (distDims3 T)) :
    pairCoord3 (distDims3 T) c k = (2 * c.1 + k.1, 2 * c.2.1 + k.2.1, 2 * c.2.2 + k.2.2) ∧
      Valid3 T (2 * c.1 + k.1, 2 * c.2.1 + k.2.1, 2 * c.2.2 + k.2.2) := by
  rw [mem_offsets3] at hk
  obtain ⟨d0, d1, d2⟩ := mem_distDims3 T
  simp only [mem_axisOffs, d0, d1, d2] at hk
  obtain ⟨h1, h2, h3, h4, h5, h6⟩ := hc
  obtain ⟨l1, l2, l3⟩ := hl
  obtain ⟨e1, e2, e3⟩ := hE
  obtain ⟨k1, k2, k3⟩ := hk
  constructor
  · unfold pairCoord3
    simp only [d0, d1, d2]
    refine Prod.ext ?_ (Prod.ext ?_ ?_) <;> simp only <;> split <;> omega
  · refine ⟨?_, ?_, ?_, ?_, ?_, ?_⟩ <;> simp only <;> omega

theorem toPosts3_ok (hE : EvenTopo3 T) (g : ℕ) {c : C3} (hc : Valid3 T c) :
    toPosts3 T g (distDims3 T) c = .ok (⟨tDest3 c, actualBuf3 T g, none, []⟩ ::
      if lowerHalf3 T c then (offsets3 (distDims3 T)).map fun k => ⟨none, [], tSrc3 T c k, partBuf3 T k⟩ else []) := by
  unfold toPosts3
  rw [cartRank3_ok (half_valid3 hc)]
  simp only
  by_cases hl : lowerHalf3 T c
  · simp only [hl, if_true]
    rw [mapM_ok (h := fun k => ⟨none, [], tSrc3 T c k, partBuf3 T k⟩)]
    · rfl
    · intro k hk
      obtain ⟨h1, h2⟩ := pairCoord3_ok hE hc hl hk
      rw [h1, cartRank3_ok h2]
      simp [tSrc3, hl, Except.map]
  · simp only [hl, if_false]
    rfl

theorem fromPosts3_ok (hE : EvenTopo3 T) (g : ℕ) {c : C3} (hc : Valid3 T c) :
    fromPosts3 T g (distDims3 T) c = .ok (
      (if lowerHalf3 T c then (offsets3 (distDims3 T)).map fun k => ⟨tSrc3 T c k, partBuf3 T k, none, []⟩ else []) ++
        [⟨none, [], tDest3 c, actualBuf3 T g⟩]) := by
  unfold fromPosts3
  rw [cartRank3_ok (half_valid3 hc)]
  by_cases hl : lowerHalf3 T c
  · simp only [hl, if_true]
    rw [mapM_ok (h := fun k => ⟨tSrc3 T c k, partBuf3 T k, none, []⟩)]
    · rfl
    · intro k hk
      obtain ⟨h1, h2⟩ := pairCoord3_ok hE hc hl hk
      rw [h1, cartRank3_ok h2]
      simp [tSrc3, hl, Except.map]
  · simp only [hl, if_false]
    rfl

/-- the posts, with the ranks outside the topology patched -/
theorem allMsgs_congr_ranks {R ι : Type} [DecidableEq R] {ranks : List R} {p q : R → List (Post R ι)}
    (hs : ∀ s ∈ ranks, ∀ r, sendsTo p s r = sendsTo q s r) (hr : ∀ s ∈ ranks, ∀ r, recvsOf p s r = recvsOf q s r) :
    allMsgs ranks p = allMsgs ranks q := by
  unfold allMsgs
  apply List.flatMap_congr
  intro s hs'
  apply List.flatMap_congr
  intro r hr'
  unfold matched
  rw [hs s hs', hr r hr']

theorem toPosts3_sends (hE : EvenTopo3 T) (g : ℕ) {s : C3} (hs : Valid3 T s) (r : C3) :
    sendsTo (fun c => okPosts (toPosts3 T g (distDims3 T) c)) s r
      = sendsTo (fanInList (offsets3 (distDims3 T)) tDest3 (actualBuf3 T g) (tSrc3 T) (partBuf3 T)) s r := by
  unfold sendsTo fanInList
  simp only [toPosts3_ok hE g hs, okPosts]
  rw [List.filterMap_cons, List.filterMap_cons]
  by_cases hl : lowerHalf3 T s
  · simp only [hl, if_true]
  · simp only [hl, if_false, List.filterMap_map]
    have : ((fun p : Post C3 (C3 ⊕ C3) => if p.sendTo = some r then some p.sendIx else none) ∘
        fun k => (⟨none, [], tSrc3 T s k, partBuf3 T k⟩ : Post C3 (C3 ⊕ C3))) = fun _ => none := by funext k; simp
    rw [this, filterMap_none]; rfl

theorem toPosts3_recvs (hE : EvenTopo3 T) (g : ℕ) {s : C3} (hs : Valid3 T s) (r : C3) :
    recvsOf (fun c => okPosts (toPosts3 T g (distDims3 T) c)) s r
      = recvsOf (fanInList (offsets3 (distDims3 T)) tDest3 (actualBuf3 T g) (tSrc3 T) (partBuf3 T)) s r := by
  unfold recvsOf fanInList
  simp only [toPosts3_ok hE g hs, okPosts]
  rw [List.filterMap_cons, List.filterMap_cons]
  by_cases hl : lowerHalf3 T s
  · simp only [hl, if_true]
  · simp only [hl, if_false, List.filterMap_map]
    have : ((fun p : Post C3 (C3 ⊕ C3) => if p.recvFrom = some r then some p.recvIx else none) ∘
        fun k => (⟨none, [], tSrc3 T s k, partBuf3 T k⟩ : Post C3 (C3 ⊕ C3))) = fun _ => none := by
      funext k; simp [tSrc3, hl]
    rw [this, filterMap_none]; rfl

theorem fromPosts3_sends (hE : EvenTopo3 T) (g : ℕ) {s : C3} (hs : Valid3 T s) (r : C3) :
    sendsTo (fun c => okPosts (fromPosts3 T g (distDims3 T) c)) s r
      = sendsTo (fanOutList (offsets3 (distDims3 T)) tDest3 (actualBuf3 T g) (tSrc3 T) (partBuf3 T)) s r := by
  unfold sendsTo fanOutList
  simp only [fromPosts3_ok hE g hs, okPosts]
  rw [List.filterMap_append, List.filterMap_append]
  by_cases hl : lowerHalf3 T s
  · simp only [hl, if_true]
  · simp only [hl, if_false, List.filterMap_map]
    have : ((fun p : Post C3 (C3 ⊕ C3) => if p.sendTo = some r then some p.sendIx else none) ∘
        fun k => (⟨tSrc3 T s k, partBuf3 T k, none, []⟩ : Post C3 (C3 ⊕ C3))) = fun _ => none := by
      funext k; simp [tSrc3, hl]
    rw [this, filterMap_none]; rfl

theorem fromPosts3_recvs (hE : EvenTopo3 T) (g : ℕ) {s : C3} (hs : Valid3 T s) (r : C3) :
    recvsOf (fun c => okPosts (fromPosts3 T g (distDims3 T) c)) s r
      = recvsOf (fanOutList (offsets3 (distDims3 T)) tDest3 (actualBuf3 T g) (tSrc3 T) (partBuf3 T)) s r := by
  unfold recvsOf fanOutList
  simp only [fromPosts3_ok hE g hs, okPosts]
  rw [List.filterMap_append, List.filterMap_append]
  by_cases hl : lowerHalf3 T s
  · simp only [hl, if_true]
  · simp only [hl, if_false, List.filterMap_map]
    have : ((fun p : Post C3 (C3 ⊕ C3) => if p.recvFrom = some r then some p.recvIx else none) ∘
        fun k => (⟨tSrc3 T s k, partBuf3 T k, none, []⟩ : Post C3 (C3 ⊕ C3))) = fun _ => none := by funext k; simp
    rw [this, filterMap_none]; rfl

theorem mirror3 (hE : EvenTopo3 T) {s r k : C3} (hs : Valid3 T s) (hr : Valid3 T r) (hk : k ∈ offsets3 (distDims3 T)) :
    (key3 T s = k ∧ tDest3 s = some r) ↔ tSrc3 T r k = some s := by
  rw [key3_eq hs]
  rw [mem_offsets3] at hk
  obtain ⟨d0, d1, d2⟩ := mem_distDims3 T
  simp only [mem_axisOffs, d0, d1, d2] at hk
  obtain ⟨h1, h2, h3, h4, h5, h6⟩ := hs
  obtain ⟨g1, g2, g3, g4, g5, g6⟩ := hr
  obtain ⟨k1, k2, k3⟩ := hk
  obtain ⟨s1, s2, s3⟩ := s
  obtain ⟨r1, r2, r3⟩ := r
  obtain ⟨a1, a2, a3⟩ := k
  simp only at *
  unfold tSrc3 tDest3
  by_cases hl : lowerHalf3 T (r1, r2, r3)
  · rw [if_pos hl]
    simp only [Option.some.injEq, Prod.mk.injEq]
    omega
  · rw [if_neg hl]
    simp only [Option.some.injEq, Prod.mk.injEq, reduceCtorEq, iff_false]
    rintro ⟨-, rfl, rfl, rfl⟩
    apply hl
    unfold lowerHalf3
    simp only
    omega

theorem actualBuf3_eq (g : ℕ) :
    actualBuf3 T g = (box T.nz T.ny T.nx).map (fun b => .inl ((g : ℤ) + b.1, (g : ℤ) + b.2.1, (g : ℤ) + b.2.2)) := by
  unfold actualBuf3; rw [subIx_eq, List.map_map]; rfl

theorem partBuf3_eq (o : C3) :
    partBuf3 T o = (box T.nz T.ny T.nx).map
      (fun b => .inr (T.nz * o.1 + b.1, T.ny * o.2.1 + b.2.1, T.nx * o.2.2 + b.2.2)) := by
  unfold partBuf3; rw [subIx_eq, List.map_map]; rfl

theorem mem_toMsgs3 (hE : EvenTopo3 T) {g : ℕ} (m : Msg C3 (C3 ⊕ C3)) :
    m ∈ toMsgs3 T g ↔ ∃ s, Valid3 T s ∧
      m = ⟨s, (s.1 / 2, s.2.1 / 2, s.2.2 / 2),
        (box T.nz T.ny T.nx).map (fun b => .inl ((g : ℤ) + b.1, (g : ℤ) + b.2.1, (g : ℤ) + b.2.2)),
        (box T.nz T.ny T.nx).map fun b =>
          .inr (T.nz * (s.1 % 2) + b.1, T.ny * (s.2.1 % 2) + b.2.1, T.nx * (s.2.2 % 2) + b.2.2)⟩ := by
  unfold toMsgs3
  rw [allMsgs_congr_ranks (fun s hs r => toPosts3_sends hE g (mem_ranks3.1 hs) r)
      (fun s hs r => toPosts3_recvs hE g (mem_ranks3.1 hs) r),
    mem_fanIn (offsets3_nodup _) (key := key3 T) key3_mem
      (fun s hs r hr k hk => mirror3 hE (mem_ranks3.1 hs) (mem_ranks3.1 hr) hk)]
  constructor
  · rintro ⟨s, hs, r, hr, e, rfl⟩
    rw [mem_ranks3] at hs
    simp only [tDest3, Option.some.injEq] at e
    subst e
    refine ⟨s, hs, ?_⟩
    rw [key3_eq hs, actualBuf3_eq, partBuf3_eq]
  · rintro ⟨s, hs, rfl⟩
    refine ⟨s, mem_ranks3.2 hs, _, mem_ranks3.2 (half_valid3 hs), rfl, ?_⟩
    rw [key3_eq hs, actualBuf3_eq, partBuf3_eq]

theorem mem_fromMsgs3 (hE : EvenTopo3 T) {g : ℕ} (m : Msg C3 (C3 ⊕ C3)) :
    m ∈ fromMsgs3 T g ↔ ∃ s, Valid3 T s ∧
      m = ⟨(s.1 / 2, s.2.1 / 2, s.2.2 / 2), s,
        (box T.nz T.ny T.nx).map (fun b =>
          .inr (T.nz * (s.1 % 2) + b.1, T.ny * (s.2.1 % 2) + b.2.1, T.nx * (s.2.2 % 2) + b.2.2)),
        (box T.nz T.ny T.nx).map (fun b => .inl ((g : ℤ) + b.1, (g : ℤ) + b.2.1, (g : ℤ) + b.2.2))⟩ := by
  unfold fromMsgs3
  rw [allMsgs_congr_ranks (fun s hs r => fromPosts3_sends hE g (mem_ranks3.1 hs) r)
      (fun s hs r => fromPosts3_recvs hE g (mem_ranks3.1 hs) r),
    mem_fanOut (offsets3_nodup _) (key := key3 T) key3_mem
      (fun s hs r hr k hk => mirror3 hE (mem_ranks3.1 hs) (mem_ranks3.1 hr) hk)]
  constructor
  · rintro ⟨s, hs, r, hr, e, rfl⟩
    rw [mem_ranks3] at hs
    simp only [tDest3, Option.some.injEq] at e
    subst e
    refine ⟨s, hs, ?_⟩
    rw [key3_eq hs, actualBuf3_eq, partBuf3_eq]
  · rintro ⟨s, hs, rfl⟩
    refine ⟨s, mem_ranks3.2 hs, _, mem_ranks3.2 (half_valid3 hs), rfl, ?_⟩
    rw [key3_eq hs, actualBuf3_eq, partBuf3_eq]

open Classical in
/-- contents of both arrays after `copy_to_doubled_domain` -/
noncomputable def toTarget3 (T : Cart3) (g : ℕ) (w : World C3 (C3 ⊕ C3) α) : World C3 (C3 ⊕ C3) α
  | c, .inl p => w c (.inl p)
  | c, .inr q =>
    if Valid3 T c ∧ InDbl3 T q ∧ InDomain3 T (dblIx3 T c q) then
      w ((dblIx3 T c q).1 / T.nz, (dblIx3 T c q).2.1 / T.ny, (dblIx3 T c q).2.2 / T.nx)
        (.inl ((g : ℤ) + (dblIx3 T c q).1 % T.nz, (g : ℤ) + (dblIx3 T c q).2.1 % T.ny, (g : ℤ) + (dblIx3 T c q).2.2 % T.nx))
    else w c (.inr q)

open Classical in
/-- contents of both arrays after `copy_from_doubled_domain` -/
noncomputable def fromTarget3 (T : Cart3) (g : ℕ) (w : World C3 (C3 ⊕ C3) α) : World C3 (C3 ⊕ C3) α
  | c, .inr q => w c (.inr q)
  | c, .inl p =>
    if Valid3 T c ∧ Inner3 T g p then
      w (c.1 / 2, c.2.1 / 2, c.2.2 / 2)
        (.inr (T.nz * (c.1 % 2) + (p.1 - g), T.ny * (c.2.1 % 2) + (p.2.1 - g), T.nx * (c.2.2 % 2) + (p.2.2 - g)))
    else w c (.inl p)

theorem half_block (n : ℕ) (s b : ℤ) : s / 2 * (2 * (n : ℤ)) + (n * (s % 2) + b) = s * n + b := by
  have := Int.mul_ediv_add_emod s 2
  calc _ = (2 * (s / 2) + s % 2) * n + b := by ring
    _ = _ := by rw [this]

theorem half_range {n : ℕ} {s b : ℤ} (h0 : 0 ≤ b) (h1 : b < n) :
    0 ≤ (n : ℤ) * (s % 2) + b ∧ (n : ℤ) * (s % 2) + b < 2 * n := by
  have k : s % 2 = 0 ∨ s % 2 = 1 := by omega
  rcases k with k | k <;> rw [k] <;> omega

theorem toSpec3 (hE : EvenTopo3 T) {g : ℕ} (hZ : T.pz * T.nz = T.gz) (hY : T.py * T.ny = T.gy) (hX : T.px * T.nx = T.gx)
    (w : World C3 (C3 ⊕ C3) α) : ExchSpec (toMsgs3 T g) w (toTarget3 T g w) := by
  refine ⟨?_, ?_, ?_, ?_⟩
  · intro m hm
    obtain ⟨s, -, rfl⟩ := (mem_toMsgs3 hE m).1 hm
    simp
  · intro m hm p hp
    obtain ⟨s, hs, rfl⟩ := (mem_toMsgs3 hE m).1 hm
    simp only at hp ⊢
    rw [List.zip_map', List.mem_map] at hp
    obtain ⟨b, hb, rfl⟩ := hp
    rw [mem_box] at hb
    obtain ⟨b1, b2, b3, b4, b5, b6⟩ := hb
    have a1 := dbl_axis (P := T.pz) (n := T.nz) (s := s.1) (r := s.1 / 2) (k := s.1 % 2) (b := b.1) (by omega) b1 b2
    have a2 := dbl_axis (P := T.py) (n := T.ny) (s := s.2.1) (r := s.2.1 / 2) (k := s.2.1 % 2) (b := b.2.1) (by omega) b3 b4
    have a3 := dbl_axis (P := T.px) (n := T.nx) (s := s.2.2) (r := s.2.2 / 2) (k := s.2.2 % 2) (b := b.2.2) (by omega) b5 b6
    have hr := half_valid3 hs
    obtain ⟨s1, s2, s3, s4, s5, s6⟩ := hs
    have l1 := block_lt hZ s2 b2
    have l2 := block_lt hY s4 b4
    have l3 := block_lt hX s6 b6
    have p1 : 0 ≤ s.1 * T.nz := mul_nonneg s1 (by omega)
    have p2 : 0 ≤ s.2.1 * T.ny := mul_nonneg s3 (by omega)
    have p3 : 0 ≤ s.2.2 * T.nx := mul_nonneg s5 (by omega)
    have r1 := half_range (s := s.1) b1 b2
    have r2 := half_range (s := s.2.1) b3 b4
    have r3 := half_range (s := s.2.2) b5 b6
    simp only [toTarget3]
    rw [if_pos]
    · simp only [dblIx3]
      rw [a1.1, a1.2, a2.1, a2.2, a3.1, a3.2]
    · refine ⟨hr, ⟨r1.1, r1.2, r2.1, r2.2, r3.1, r3.2⟩, ?_⟩
      simp only [InDomain3, dblIx3]
      rw [half_block, half_block, half_block]
      omega
  · intro c i hno
    cases i with
    | inl p => rfl
    | inr q =>
      simp only [toTarget3]
      split
      · rename_i hq
        exfalso
        obtain ⟨⟨c1, c2, c3, c4, c5, c6⟩, ⟨q1, q2, q3, q4, q5, q6⟩, hG1, hG2, hG3, hG4, hG5, hG6⟩ := hq
        simp only [dblIx3] at hG1 hG2 hG3 hG4 hG5 hG6
        obtain ⟨t1, t2, t3, t4, t5, t6, t7⟩ := dbl_axis_inv (r := c.1) q1 q2
        obtain ⟨u1, u2, u3, u4, u5, u6, u7⟩ := dbl_axis_inv (r := c.2.1) q3 q4
        obtain ⟨v1, v2, v3, v4, v5, v6, v7⟩ := dbl_axis_inv (r := c.2.2) q5 q6
        have hnz : (0 : ℤ) < T.nz := by omega
        have hny : (0 : ℤ) < T.ny := by omega
        have hnx : (0 : ℤ) < T.nx := by omega
        have s0 : 2 * c.1 + q.1 / T.nz < T.pz := by
          rw [← t1]; apply Int.ediv_lt_of_lt_mul hnz
          rw [← hZ] at hG2; push_cast at hG2; exact hG2
        have s1 : 2 * c.2.1 + q.2.1 / T.ny < T.py := by
          rw [← u1]; apply Int.ediv_lt_of_lt_mul hny
          rw [← hY] at hG4; push_cast at hG4; exact hG4
        have s2 : 2 * c.2.2 + q.2.2 / T.nx < T.px := by
          rw [← v1]; apply Int.ediv_lt_of_lt_mul hnx
          rw [← hX] at hG6; push_cast at hG6; exact hG6
        have m := (mem_toMsgs3 (g := g) hE ⟨(2 * c.1 + q.1 / T.nz, 2 * c.2.1 + q.2.1 / T.ny, 2 * c.2.2 + q.2.2 / T.nx), c, _, _⟩).2
          ⟨(2 * c.1 + q.1 / T.nz, 2 * c.2.1 + q.2.1 / T.ny, 2 * c.2.2 + q.2.2 / T.nx),
            ⟨by simp only; omega, s0, by simp only; omega, s1, by simp only; omega, s2⟩,
            by
              congr 1
              refine Prod.ext ?_ (Prod.ext ?_ ?_) <;> simp only <;> omega⟩
        refine hno _ m rfl ?_
        simp only
        rw [List.mem_map]
        refine ⟨(q.1 % T.nz, q.2.1 % T.ny, q.2.2 % T.nx), ?_, ?_⟩
        · rw [mem_box]; exact ⟨t6, t7, u6, u7, v6, v7⟩
        · have w0 : (2 * c.1 + q.1 / T.nz) % 2 = q.1 / T.nz := by omega
          have w1 : (2 * c.2.1 + q.2.1 / T.ny) % 2 = q.2.1 / T.ny := by omega
          have w2 : (2 * c.2.2 + q.2.2 / T.nx) % 2 = q.2.2 / T.nx := by omega
          simp only
          rw [w0, w1, w2, t5, u5, v5]
      · rfl
  · intro m hm i hi m' hm' hsd hi'
    obtain ⟨s, hs, rfl⟩ := (mem_toMsgs3 hE m).1 hm
    obtain ⟨s', hs', rfl⟩ := (mem_toMsgs3 hE m').1 hm'
    simp only [List.mem_map] at hi hi'
    obtain ⟨_, _, rfl⟩ := hi
    obtain ⟨_, _, e⟩ := hi'
    cases e

theorem fromSpec3 (hE : EvenTopo3 T) {g : ℕ} (w : World C3 (C3 ⊕ C3) α) :
    ExchSpec (fromMsgs3 T g) w (fromTarget3 T g w) := by
  refine ⟨?_, ?_, ?_, ?_⟩
  · intro m hm
    obtain ⟨s, -, rfl⟩ := (mem_fromMsgs3 hE m).1 hm
    simp
  · intro m hm p hp
    obtain ⟨s, hs, rfl⟩ := (mem_fromMsgs3 hE m).1 hm
    simp only at hp ⊢
    rw [List.zip_map', List.mem_map] at hp
    obtain ⟨b, hb, rfl⟩ := hp
    rw [mem_box] at hb
    simp only [fromTarget3]
    rw [if_pos ⟨hs, by simp only [Inner3]; omega⟩]
    congr 2
    refine Prod.ext ?_ (Prod.ext ?_ ?_) <;> simp only <;> ring
  · intro c i hno
    cases i with
    | inr q => rfl
    | inl p =>
      simp only [fromTarget3]
      split
      · rename_i hq
        exfalso
        obtain ⟨hc, hi1, hi2, hi3, hi4, hi5, hi6⟩ := hq
        refine hno _ ((mem_fromMsgs3 (g := g) hE _).2 ⟨c, hc, rfl⟩) rfl ?_
        simp only [List.mem_map]
        refine ⟨(p.1 - g, p.2.1 - g, p.2.2 - g), ?_, ?_⟩
        · rw [mem_box]; simp only; omega
        · congr 1
          refine Prod.ext ?_ (Prod.ext ?_ ?_) <;> simp only <;> ring
      · rfl
  · intro m hm i hi m' hm' hsd hi'
    obtain ⟨s, hs, rfl⟩ := (mem_fromMsgs3 hE m).1 hm
    obtain ⟨s', hs', rfl⟩ := (mem_fromMsgs3 hE m').1 hm'
    simp only [List.mem_map] at hi hi'
    obtain ⟨_, _, rfl⟩ := hi
    obtain ⟨_, _, e⟩ := hi'
    cases e

/-! ### C45 -/

/-- C45: for an integer ghost size the 3D communicator raises ValueError exactly when all three axes are distributed. -/
theorem doublingInit3_valueError_iff (g : ℤ) (T : Cart3) :
    doublingInit3 (.int g) T = .error .valueError ↔ T.pz ≠ 1 ∧ T.py ≠ 1 ∧ T.px ≠ 1 := by
  unfold doublingInit3 fieldCommCheck distDims3
  by_cases hz : T.pz = 1 <;> by_cases hy : T.py = 1 <;> by_cases hx : T.px = 1 <;> simp [PyNum.isInt, hy, hx, hz]

/-- C45: otherwise construction succeeds. -/
theorem doublingInit3_accepts (g : ℤ) (T : Cart3) (h : T.pz = 1 ∨ T.py = 1 ∨ T.px = 1) :
    ∃ dd, doublingInit3 (.int g) T = .ok dd ∧ ((0 : Fin 3) ∈ dd ↔ T.pz ≠ 1) ∧ ((1 : Fin 3) ∈ dd ↔ T.py ≠ 1) ∧
      ((2 : Fin 3) ∈ dd ↔ T.px ≠ 1) := by
  refine ⟨distDims3 T, ?_, mem_distDims3 T⟩
  unfold doublingInit3 fieldCommCheck distDims3
  by_cases hz : T.pz = 1 <;> by_cases hy : T.py = 1 <;> by_cases hx : T.px = 1 <;> simp [PyNum.isInt, hy, hx, hz]
  omega

example : doublingInit3 (.int 2) ⟨8, 8, 8, 2, 2, 2, 4, 4, 4, false⟩ = .error .valueError ∧
    doublingInit3 (.int 2) ⟨8, 8, 8, 2, 1, 4, 4, 8, 2, false⟩ = .ok [0, 2] := by decide

/-! ### C44 -/

/-- C44: with one or an even number of ranks along every axis no call of `Get_cart_rank` fails. -/
theorem doubling3_no_error (hE : EvenTopo3 T) (g : ℕ) {c : C3} (hc : Valid3 T c) :
    (∃ l, toPosts3 T g (distDims3 T) c = .ok l) ∧ (∃ l, fromPosts3 T g (distDims3 T) c = .ok l) :=
  ⟨⟨_, toPosts3_ok hE g hc⟩, ⟨_, fromPosts3_ok hE g hc⟩⟩

/-- C44: ... and no copy can hang or be truncated. -/
theorem doubling3_matched (hE : EvenTopo3 T) (g : ℕ) :
    AllMatched (ranks3 T) (fun c => okPosts (toPosts3 T g (distDims3 T) c)) ∧
    AllMatched (ranks3 T) (fun c => okPosts (fromPosts3 T g (distDims3 T) c)) := by
  have mir : ∀ s ∈ ranks3 T, ∀ r ∈ ranks3 T, ∀ k ∈ offsets3 (distDims3 T), (key3 T s = k ∧ tDest3 s = some r) ↔
      tSrc3 T r k = some s := fun s hs r hr k hk => mirror3 hE (mem_ranks3.1 hs) (mem_ranks3.1 hr) hk
  have hdst : ∀ s ∈ ranks3 T, ∀ r, tDest3 s = some r → r ∈ ranks3 T := by
    intro s hs r e
    rw [mem_ranks3] at *
    simp only [tDest3, Option.some.injEq] at e
    exact e ▸ half_valid3 hs
  have hsrc : ∀ s ∈ ranks3 T, ∀ k ∈ offsets3 (distDims3 T), ∀ r, tSrc3 T s k = some r → r ∈ ranks3 T := by
    intro s hs k hk r e
    rw [mem_ranks3] at *
    unfold tSrc3 at e
    split at e
    · rename_i hl
      rw [Option.some.injEq] at e
      exact e ▸ (pairCoord3_ok hE hs hl hk).2
    · simp at e
  constructor
  · have := allMatched_fanIn (ι := C3 ⊕ C3) (ranks := ranks3 T) (offsets3_nodup _) key3_mem mir hdst hsrc
      (sIx := actualBuf3 T g) (rIx := partBuf3 T) (fun k => by simp [actualBuf3_eq, partBuf3_eq])
    refine ⟨?_, ?_⟩
    · intro s hs p hp
      simp only [toPosts3_ok hE g (mem_ranks3.1 hs), okPosts, List.mem_cons] at hp
      rcases hp with rfl | hp
      · exact ⟨hdst s hs, by simp⟩
      · split at hp
        · rw [List.mem_map] at hp
          obtain ⟨k, hk, rfl⟩ := hp
          exact ⟨by simp, hsrc s hs k hk⟩
        · simp at hp
    · intro s hs r hr
      rw [toPosts3_sends hE g (mem_ranks3.1 hs), toPosts3_recvs hE g (mem_ranks3.1 hr)]
      exact this.2 s hs r hr
  · have := allMatched_fanOut (ι := C3 ⊕ C3) (ranks := ranks3 T) (offsets3_nodup _) key3_mem mir hdst hsrc
      (rIx := actualBuf3 T g) (sIx := partBuf3 T) (fun k => by simp [actualBuf3_eq, partBuf3_eq])
    refine ⟨?_, ?_⟩
    · intro s hs p hp
      simp only [fromPosts3_ok hE g (mem_ranks3.1 hs), okPosts, List.mem_append, List.mem_singleton] at hp
      rcases hp with hp | rfl
      · split at hp
        · rw [List.mem_map] at hp
          obtain ⟨k, hk, rfl⟩ := hp
          exact ⟨hsrc s hs k hk, by simp⟩
        · simp at hp
      · exact ⟨by simp, hdst s hs⟩
    · intro s hs r hr
      rw [fromPosts3_sends hE g (mem_ranks3.1 hs), fromPosts3_recvs hE g (mem_ranks3.1 hr)]
      exact this.2 s hs r hr

/-- C44: with one or an even number of ranks along every axis, `copy_to_doubled_domain` puts the global field into the lower
octant of the doubled domain and leaves the rest as it was. -/
theorem copyTo3_correct (hT : mkCart3 gz gy gx pz py px per = .ok T) (hE : EvenTopo3 T) (g : ℕ) (F : C3 → α)
    (f D : World C3 C3 α) (hf : ∀ c, Valid3 T c → ∀ p, Inner3 T g p → f c p = F (globalIx3 T g c p))
    {sched : List Ev} (hs : Complete (toMsgs3 T g) sched) {c q : C3} (hc : Valid3 T c) (hq : InDbl3 T q) :
    (InDomain3 T (dblIx3 T c q) → copyTo3 T g f D sched c q = F (dblIx3 T c q)) ∧
    (¬ InDomain3 T (dblIx3 T c q) → copyTo3 T g f D sched c q = D c q) := by
  obtain ⟨-, -, -, -, -, -, -, hZ, hY, hX⟩ := construct3_ok hT
  unfold copyTo3
  rw [runNet_eq (toSpec3 hE hZ hY hX _) hs]
  simp only [toTarget3]
  constructor
  · intro hG
    rw [if_pos ⟨hc, hq, hG⟩]
    simp only [joinW, Sum.elim_inl]
    obtain ⟨g1, g2, g3, g4, g5, g6⟩ := hG
    obtain ⟨q1, q2, q3, q4, q5, q6⟩ := hq
    have hnz : (0 : ℤ) < T.nz := by omega
    have hny : (0 : ℤ) < T.ny := by omega
    have hnx : (0 : ℤ) < T.nx := by omega
    rw [← hZ] at g2
    rw [← hY] at g4
    rw [← hX] at g6
    push_cast at g2 g4 g6
    have m1 := Int.emod_nonneg (dblIx3 T c q).1 hnz.ne'
    have m2 := Int.emod_lt_of_pos (dblIx3 T c q).1 hnz
    have m3 := Int.emod_nonneg (dblIx3 T c q).2.1 hny.ne'
    have m4 := Int.emod_lt_of_pos (dblIx3 T c q).2.1 hny
    have m5 := Int.emod_nonneg (dblIx3 T c q).2.2 hnx.ne'
    have m6 := Int.emod_lt_of_pos (dblIx3 T c q).2.2 hnx
    rw [hf]
    · congr 1
      have d1 := Int.mul_ediv_add_emod (dblIx3 T c q).1 T.nz
      have d2 := Int.mul_ediv_add_emod (dblIx3 T c q).2.1 T.ny
      have d3 := Int.mul_ediv_add_emod (dblIx3 T c q).2.2 T.nx
      unfold globalIx3
      refine Prod.ext ?_ (Prod.ext ?_ ?_) <;> simp only
      · linarith [mul_comm ((dblIx3 T c q).1 / (T.nz : ℤ)) T.nz]
      · linarith [mul_comm ((dblIx3 T c q).2.1 / (T.ny : ℤ)) T.ny]
      · linarith [mul_comm ((dblIx3 T c q).2.2 / (T.nx : ℤ)) T.nx]
    · exact ⟨Int.ediv_nonneg g1 hnz.le, Int.ediv_lt_of_lt_mul hnz g2, Int.ediv_nonneg g3 hny.le, Int.ediv_lt_of_lt_mul hny g4,
        Int.ediv_nonneg g5 hnx.le, Int.ediv_lt_of_lt_mul hnx g6⟩
    · simp only [Inner3]; omega
  · intro hG
    rw [if_neg (fun hh => hG hh.2.2)]
    rfl

/-- C44: copying into a zeroed doubled domain zero-pads. -/
theorem copyTo3_zero_pads [Zero α] (hT : mkCart3 gz gy gx pz py px per = .ok T) (hE : EvenTopo3 T) (g : ℕ) (F : C3 → α)
    (f : World C3 C3 α) (hf : ∀ c, Valid3 T c → ∀ p, Inner3 T g p → f c p = F (globalIx3 T g c p))
    {sched : List Ev} (hs : Complete (toMsgs3 T g) sched) {c q : C3} (hc : Valid3 T c) (hq : InDbl3 T q) :
    copyTo3 T g f (fun _ _ => 0) sched c q
      = if (dblIx3 T c q).1 < gz ∧ (dblIx3 T c q).2.1 < gy ∧ (dblIx3 T c q).2.2 < gx then F (dblIx3 T c q) else 0 := by
  obtain ⟨e0, e1, e2, -⟩ := construct3_ok hT
  have := copyTo3_correct hT hE g F f (fun _ _ => 0) hf hs hc hq
  have p1 : 0 ≤ (dblIx3 T c q).1 := add_nonneg (mul_nonneg hc.1 (by omega)) hq.1
  have p2 : 0 ≤ (dblIx3 T c q).2.1 := add_nonneg (mul_nonneg hc.2.2.1 (by omega)) hq.2.2.1
  have p3 : 0 ≤ (dblIx3 T c q).2.2 := add_nonneg (mul_nonneg hc.2.2.2.2.1 (by omega)) hq.2.2.2.2.1
  by_cases hG : (dblIx3 T c q).1 < gz ∧ (dblIx3 T c q).2.1 < gy ∧ (dblIx3 T c q).2.2 < gx
  · rw [if_pos hG]
    exact this.1 ⟨p1, by rw [e0]; exact hG.1, p2, by rw [e1]; exact hG.2.1, p3, by rw [e2]; exact hG.2.2⟩
  · rw [if_neg hG]
    exact this.2 (fun h => hG ⟨by rw [← e0]; exact h.2.1, by rw [← e1]; exact h.2.2.2.1, by rw [← e2]; exact h.2.2.2.2.2⟩)

/-- C44: `copy_from_doubled_domain` brings the value of every global cell back to the inner cells of its owner and leaves the
ghost cells alone. -/
theorem copyFrom3_correct (hE : EvenTopo3 T) (g : ℕ) (H : C3 → α) (D f : World C3 C3 α)
    (hD : ∀ c, Valid3 T c → ∀ q, InDbl3 T q → D c q = H (dblIx3 T c q))
    {sched : List Ev} (hs : Complete (fromMsgs3 T g) sched) {c p : C3} (hc : Valid3 T c) :
    (Inner3 T g p → copyFrom3 T g D f sched c p = H (globalIx3 T g c p)) ∧
    (¬ Inner3 T g p → copyFrom3 T g D f sched c p = f c p) := by
  unfold copyFrom3
  rw [runNet_eq (fromSpec3 hE _) hs]
  simp only [fromTarget3]
  constructor
  · intro hI
    rw [if_pos ⟨hc, hI⟩]
    simp only [joinW, Sum.elim_inr]
    obtain ⟨i1, i2, i3, i4, i5, i6⟩ := hI
    rw [hD _ (half_valid3 hc)]
    · congr 1
      unfold globalIx3 dblIx3
      simp only [half_block]
      refine Prod.ext ?_ (Prod.ext ?_ ?_) <;> simp only <;> ring
    · have r1 := half_range (s := c.1) (n := T.nz) (b := p.1 - g) (by omega) (by omega)
      have r2 := half_range (s := c.2.1) (n := T.ny) (b := p.2.1 - g) (by omega) (by omega)
      have r3 := half_range (s := c.2.2) (n := T.nx) (b := p.2.2 - g) (by omega) (by omega)
      exact ⟨r1.1, r1.2, r2.1, r2.2, r3.1, r3.2⟩
  · intro hI
    rw [if_neg (fun hh => hI hh.2)]
    rfl

/-- C44: copying to the doubled domain and back restores every inner cell of every rank. -/
theorem doubling3_roundtrip (hT : mkCart3 gz gy gx pz py px per = .ok T) (hE : EvenTopo3 T) (g : ℕ) (f D f' : World C3 C3 α)
    {s1 s2 : List Ev} (h1 : Complete (toMsgs3 T g) s1) (h2 : Complete (fromMsgs3 T g) s2)
    {c p : C3} (hc : Valid3 T c) (hI : Inner3 T g p) :
    copyFrom3 T g (copyTo3 T g f D s1) f' s2 c p = f c p := by
  obtain ⟨-, -, -, -, -, -, -, hZ, hY, hX⟩ := construct3_ok hT
  unfold copyFrom3
  rw [runNet_eq (fromSpec3 hE _) h2]
  simp only [fromTarget3]
  rw [if_pos ⟨hc, hI⟩]
  simp only [joinW, Sum.elim_inr, copyTo3]
  rw [runNet_eq (toSpec3 hE hZ hY hX _) h1]
  simp only [toTarget3]
  obtain ⟨i1, i2, i3, i4, i5, i6⟩ := hI
  have hh := half_valid3 hc
  obtain ⟨c1, c2, c3, c4, c5, c6⟩ := hc
  have a1 := dbl_axis (P := T.pz) (n := T.nz) (s := c.1) (r := c.1 / 2) (k := c.1 % 2) (b := p.1 - g) (by omega) (by omega) (by omega)
  have a2 := dbl_axis (P := T.py) (n := T.ny) (s := c.2.1) (r := c.2.1 / 2) (k := c.2.1 % 2) (b := p.2.1 - g) (by omega) (by omega) (by omega)
  have a3 := dbl_axis (P := T.px) (n := T.nx) (s := c.2.2) (r := c.2.2 / 2) (k := c.2.2 % 2) (b := p.2.2 - g) (by omega) (by omega) (by omega)
  have l1 := block_lt hZ c2 (b := p.1 - g) (by omega)
  have l2 := block_lt hY c4 (b := p.2.1 - g) (by omega)
  have l3 := block_lt hX c6 (b := p.2.2 - g) (by omega)
  have p1 : 0 ≤ c.1 * T.nz := mul_nonneg c1 (by omega)
  have p2 : 0 ≤ c.2.1 * T.ny := mul_nonneg c3 (by omega)
  have p3 : 0 ≤ c.2.2 * T.nx := mul_nonneg c5 (by omega)
  rw [if_pos]
  · simp only [dblIx3]
    rw [a1.1, a1.2, a2.1, a2.2, a3.1, a3.2]
    simp [joinW]
  · refine ⟨hh, ?_, ?_⟩
    · have r1 := half_range (s := c.1) (n := T.nz) (b := p.1 - g) (by omega) (by omega)
      have r2 := half_range (s := c.2.1) (n := T.ny) (b := p.2.1 - g) (by omega) (by omega)
      have r3 := half_range (s := c.2.2) (n := T.nx) (b := p.2.2 - g) (by omega) (by omega)
      exact ⟨r1.1, r1.2, r2.1, r2.2, r3.1, r3.2⟩
    · simp only [InDomain3, dblIx3]
      rw [half_block, half_block, half_block]
      omega

/-- C44: on a non-periodic communicator some rank asks for a rank outside the topology, an MPI error, exactly when an axis has
an odd number of ranks above one. -/
theorem copyTo3_error_iff (hper : T.per = false) (hz : 0 < T.pz) (hy : 0 < T.py) (hx : 0 < T.px) (g : ℕ) :
    (∃ c, Valid3 T c ∧ toPosts3 T g (distDims3 T) c = .error .mpiError) ↔
      (T.pz ≠ 1 ∧ T.pz % 2 = 1) ∨ (T.py ≠ 1 ∧ T.py % 2 = 1) ∨ (T.px ≠ 1 ∧ T.px % 2 = 1) := by
  constructor
  · rintro ⟨c, hc, he⟩
    by_contra hno
    have hE : EvenTopo3 T := by unfold EvenTopo3; omega
    rw [toPosts3_ok hE g hc] at he
    cases he
  · intro hodd
    obtain ⟨d0, d1, d2⟩ := mem_distDims3 T
    have main : ∀ c k : C3, Valid3 T c → lowerHalf3 T c → k ∈ offsets3 (distDims3 T) →
        ¬ Valid3 T (pairCoord3 (distDims3 T) c k) → toPosts3 T g (distDims3 T) c = .error .mpiError := by
      intro c k hc hl hk hbad
      unfold toPosts3
      rw [cartRank3_ok (half_valid3 hc)]
      simp only [hl, if_true]
      rw [mapM_err (e := .mpiError) (x := k) _ hk]
      · unfold cartRank3
        rw [hper]
        simp only [Bool.false_eq_true, if_false]
        unfold Valid3 at hbad
        rw [if_neg hbad]; rfl
      · intro o _
        unfold cartRank3
        rw [hper]
        simp only [Bool.false_eq_true, if_false]
        split
        · right; exact ⟨_, rfl⟩
        · left; rfl
    rcases hodd with ⟨h1, h2⟩ | ⟨h1, h2⟩ | ⟨h1, h2⟩
    · have hv : Valid3 T (((T.pz / 2 : ℕ) : ℤ), 0, 0) := by refine ⟨?_, ?_, ?_, ?_, ?_, ?_⟩ <;> simp only <;> omega
      refine ⟨_, hv, main _ (1, 0, 0) hv ?_ ?_ ?_⟩
      · unfold lowerHalf3; simp only; omega
      · rw [mem_offsets3]; simp [mem_axisOffs, d0, h1]
      · unfold pairCoord3 Valid3; simp only [d0, h1, ne_eq, not_false_eq_true, if_true]; omega
    · have hv : Valid3 T (0, ((T.py / 2 : ℕ) : ℤ), 0) := by refine ⟨?_, ?_, ?_, ?_, ?_, ?_⟩ <;> simp only <;> omega
      refine ⟨_, hv, main _ (0, 1, 0) hv ?_ ?_ ?_⟩
      · unfold lowerHalf3; simp only; omega
      · rw [mem_offsets3]; simp [mem_axisOffs, d1, h1]
      · unfold pairCoord3 Valid3; simp only [d1, h1, ne_eq, not_false_eq_true, if_true]; omega
    · have hv : Valid3 T (0, 0, ((T.px / 2 : ℕ) : ℤ)) := by refine ⟨?_, ?_, ?_, ?_, ?_, ?_⟩ <;> simp only <;> omega
      refine ⟨_, hv, main _ (0, 0, 1) hv ?_ ?_ ?_⟩
      · unfold lowerHalf3; simp only; omega
      · rw [mem_offsets3]; simp [mem_axisOffs, d2, h1]
      · unfold pairCoord3 Valid3; simp only [d2, h1, ne_eq, not_false_eq_true, if_true]; omega

/-- C44 against C42: three slabs work in 2D and fail in 3D. -/
theorem three_slabs_2D_ok_3D_error (g : ℕ) :
    AllMatched (ranks2 ⟨6, 2, 3, 1, 2, 2, false⟩) (toPosts2 ⟨6, 2, 3, 1, 2, 2, false⟩ g 0) ∧
    ∃ c, Valid3 ⟨6, 2, 2, 3, 1, 1, 2, 2, 2, false⟩ c ∧
      toPosts3 ⟨6, 2, 2, 3, 1, 1, 2, 2, 2, false⟩ g (distDims3 ⟨6, 2, 2, 3, 1, 1, 2, 2, 2, false⟩) c = .error .mpiError :=
  ⟨(doubling2_matched (gn := .int 0) (T := ⟨6, 2, 3, 1, 2, 2, false⟩) (by decide) (Or.inl rfl) g).1,
   (copyTo3_error_iff (T := ⟨6, 2, 2, 3, 1, 1, 2, 2, 2, false⟩) rfl (by decide) (by decide) (by decide) g).2 (Or.inl (by decide))⟩

/-- non-vacuity: a 2 × 1 × 2 pencil decomposition -/
example : let T : Cart3 := ⟨2, 2, 2, 2, 1, 2, 1, 2, 1, false⟩
    mkCart3 2 2 2 2 1 2 false = .ok T ∧ EvenTopo3 T ∧ (toMsgs3 T 0).length = 4 ∧
    copyTo3 T 0 (fun c p => 100 * c.1 + 10 * c.2.2 + p.2.1) (fun _ _ => 0)
      [.pick 0, .pick 1, .pick 2, .land 2, .pick 3, .land 3, .land 0, .land 1] (0, 0, 0) (1, 1, 1) = 111 := by
  refine ⟨by decide, ?_, by decide, by decide⟩
  unfold EvenTopo3; decide

end D3
end Sopht
