import Verif.AsyncSim2D

/-! # Simulations run by ranks at their own speed (C82) -/

namespace Sopht

set_option linter.unusedSimpArgs false

/-! ## General -/

section
variable {R ι α : Type} [DecidableEq R] [DecidableEq ι]

omit [DecidableEq ι] in
theorem vecPosts_sends {κ : Type} (comps : List κ) (posts : R → List (Post R ι)) (s r : R) :
    sendsTo (vecPosts comps posts) s r = comps.flatMap fun k => (sendsTo posts s r).map fun l => l.map fun i => (k, i) := by
  unfold sendsTo vecPosts
  rw [List.filterMap_flatMap]
  congr 1
  funext k
  rw [List.filterMap_map, List.map_filterMap]
  congr 1
  funext p
  simp only [Function.comp_apply, Post.tag]
  split <;> simp [*]

omit [DecidableEq ι] in
theorem vecPosts_recvs {κ : Type} (comps : List κ) (posts : R → List (Post R ι)) (s r : R) :
    recvsOf (vecPosts comps posts) r s = comps.flatMap fun k => (recvsOf posts r s).map fun l => l.map fun i => (k, i) := by
  unfold recvsOf vecPosts
  rw [List.filterMap_flatMap]
  congr 1
  funext k
  rw [List.filterMap_map, List.map_filterMap]
  congr 1
  funext p
  simp only [Function.comp_apply, Post.tag]
  split <;> simp [*]

omit [DecidableEq ι] in
/-- several arrays exchanged one after the other: messages still match -/
theorem AllMatched.vec {κ : Type} (comps : List κ) {ranks : List R} {posts : R → List (Post R ι)} (h : AllMatched ranks posts) : AllMatched ranks (vecPosts comps posts) := by
  constructor
  · intro s hs p hp
    obtain ⟨k, -, hp⟩ := List.mem_flatMap.1 hp
    obtain ⟨q, hq, rfl⟩ := List.mem_map.1 hp
    exact h.1 s hs q hq
  · intro s hs r hr
    rw [vecPosts_sends, vecPosts_recvs, List.map_flatMap, List.map_flatMap]
    congr 1
    funext k
    have := h.2 s hs r hr
    simpa [List.map_map, Function.comp_def] using this

/-- what the ranks hold after an exchange depends on what the ranks held -/
theorem runNet_congr {ranks : List R} (posts : R → List (Post R ι)) {w w' : World R ι α} (h : ∀ r ∈ ranks, w r = w' r) (s : List Ev) :
    ∀ r ∈ ranks, runNet (allMsgs ranks posts) w s r = runNet (allMsgs ranks posts) w' s r := by
  have hm : ∀ (k : ℕ) (m : Msg R ι), (allMsgs ranks posts)[k]? = some m → m.src ∈ ranks ∧ m.dst ∈ ranks := by
    intro k m hk
    have := List.mem_of_getElem? hk
    unfold allMsgs matched at this
    simp only [List.mem_flatMap, List.mem_map] at this
    obtain ⟨s, hs, r, hr, x, -, rfl⟩ := this
    exact ⟨hs, hr⟩
  have key : ∀ (s : List Ev) (A B : Net R ι α), (∀ r ∈ ranks, A.w r = B.w r) → A.net = B.net →
      (∀ r ∈ ranks, (s.foldl (evStep (allMsgs ranks posts)) A).w r = (s.foldl (evStep (allMsgs ranks posts)) B).w r) := by
    intro s
    induction s with
    | nil => intro A B h _; exact h
    | cons e s ih =>
      intro A B hw hn
      rw [List.foldl_cons, List.foldl_cons]
      have both : (∀ r ∈ ranks, (evStep (allMsgs ranks posts) A e).w r = (evStep (allMsgs ranks posts) B e).w r) ∧
          (evStep (allMsgs ranks posts) A e).net = (evStep (allMsgs ranks posts) B e).net := by
        cases e with
        | pick k =>
          unfold evStep
          dsimp only
          split
          · rename_i m hk
            exact ⟨hw, by dsimp only; rw [hn, hw _ (hm k m hk).1]⟩
          · exact ⟨hw, hn⟩
        | land k =>
          unfold evStep
          dsimp only
          rw [hn]
          split
          · rename_i m vals hk hv
            refine ⟨fun r hr => ?_, by first | rfl | exact hn⟩
            dsimp only
            unfold setRank
            by_cases er : r = m.dst
            · subst er; rw [Function.update_self, Function.update_self, hw _ hr]
            · rw [Function.update_of_ne er, Function.update_of_ne er, hw _ hr]
          · exact ⟨hw, hn⟩
      exact ih _ _ both.1 both.2
  exact key s ⟨w, fun _ => none⟩ ⟨w', fun _ => none⟩ h rfl

end

variable {T : Cart2}

/-- The ranks hold the state `S`, and `dt`. -/
structure Rep2 (S : Sim2 T) (dt : ℝ) (w : C2 → Rk2 T) : Prop where
  prim : ∀ c ∈ ranks2 T, (w c).prim = S.prim c
  vel : ∀ c ∈ ranks2 T, ∀ j, (w c).vel j = S.vel j c
  buf : ∀ c ∈ ranks2 T, (w c).buf = S.buf c
  stream : ∀ c ∈ ranks2 T, (w c).stream = S.stream c
  forcing : ∀ c ∈ ranks2 T, ∀ j, (w c).forcing j = S.forcing j c
  time : ∀ c ∈ ranks2 T, (w c).time = S.time
  dbl : ∀ c ∈ ranks2 T, (w c).dbl = S.solver.dbl c
  four : ∀ c ∈ ranks2 T, (w c).four = S.solver.four
  conv : ∀ c ∈ ranks2 T, (w c).conv = S.solver.conv
  green : ∀ c ∈ ranks2 T, (w c).green = S.solver.green
  dt : ∀ c ∈ ranks2 T, (w c).dt = dt

variable {b : Bool} {S : Sim2 T} {dt : ℝ} {w w' : C2 → Rk2 T} {C : Cfg2} {K : Kern2}

/-- closes the parts of the state that a piece leaves alone -/
macro "rest2 " h:term:max ", " c:term:max ", " hc:term:max : tactic =>
  `(tactic| try (first | exact ($h).prim $c $hc | exact ($h).vel $c $hc | exact ($h).buf $c $hc | exact ($h).stream $c $hc | exact ($h).forcing $c $hc | exact ($h).time $c $hc |
    exact ($h).dbl $c $hc | exact ($h).four $c $hc | exact ($h).conv $c $hc | exact ($h).green $c $hc | exact ($h).dt $c $hc))

theorem diffPiece2_exec (hg : 1 ≤ C.g) (hR : Rep2 S dt w) (h : ExecSeq b (diffPiece2 C K) w w') :
    ∃ sch : Sched2, Complete (multiMsgs2 T C.g false [()]) sch.2 ∧ Rep2 (callDiff2 C K sch dt S) dt w' := by
  obtain ⟨w1, h1, w2, h2, rfl⟩ := h
  obtain ⟨s1, s, hc, hin, -⟩ := exchLayer_exec (ranks2_nodup T) partU2 _ ((ghost2_all_matched T hg false).vec [()]) (by intro c s; rfl) h1
  have hl := (locLayer_exec h2).1
  refine ⟨(s1, s), hc, ?_⟩
  have hA : ∀ (e : List Ev), ∀ c ∈ ranks2 T, runNet (allMsgs (ranks2 T) (vecPosts [()] (posts2 T C.g false)))
      (fun r i => (w r).prim (unflat2 T C.g i.2)) e c = runNet (multiMsgs2 T C.g false [()]) (fun r i => toFlat2 T C.g S.prim r i.2) e c := by
    intro e
    refine runNet_congr _ (fun r hr => ?_) e
    rw [hR.prim r hr]
    rfl
  have hw : ∀ c ∈ ranks2 T, w' c = _ := fun c hc => (hl c hc).trans (by rw [hin c hc])
  constructor <;> intro c hc <;> rw [hw c hc] <;> dsimp only [partU2, callDiff2, diffusionStep2] <;> rest2 hR, c, hc
  · rw [hA s c hc, hA (s1 c) c hc, hR.dt c hc, hR.buf c hc]
    rfl
  · rw [hA s c hc, hA (s1 c) c hc, hR.dt c hc, hR.buf c hc]
    rfl

theorem advPiece2_exec (hg : 1 ≤ C.g) (hR : Rep2 S dt w) (h : ExecSeq b (advPiece2 C K) w w') :
    ∃ sch : Sched2, Complete (multiMsgs2 T C.g false [none, some (0 : Fin 2), some 1]) sch.2 ∧ Rep2 (callAdv2 C K sch dt S) dt w' := by
  obtain ⟨w1, h1, w2, h2, rfl⟩ := h
  obtain ⟨s1, s, hc, hin, -⟩ := exchLayer_exec (ranks2_nodup T) partA2 _ ((ghost2_all_matched T hg false).vec [none, some (0 : Fin 2), some 1]) (by intro c s; rfl) h1
  have hl := (locLayer_exec h2).1
  refine ⟨(s1, s), hc, ?_⟩
  have hA : ∀ (e : List Ev), ∀ c ∈ ranks2 T, runNet (allMsgs (ranks2 T) (vecPosts [none, some (0 : Fin 2), some 1] (posts2 T C.g false)))
      (fun r => advArrays2 T C.g (w r).prim (w r).vel) e c =
      runNet (multiMsgs2 T C.g false [none, some (0 : Fin 2), some 1]) (fun r => advArrays2 T C.g (S.prim r) fun j => S.vel j r) e c := by
    intro e
    refine runNet_congr _ (fun r hr => ?_) e
    rw [hR.prim r hr, funext (hR.vel r hr)]
  have hw : ∀ c ∈ ranks2 T, w' c = _ := fun c hc => (hl c hc).trans (by rw [hin c hc])
  constructor <;> intro c hc <;> rw [hw c hc] <;> dsimp only [partA2, callAdv2, advectionStep2] <;> rest2 hR, c, hc
  · rw [hA s c hc, hA (s1 c) c hc, hR.dt c hc]
    rfl
  · intro j
    rw [hA s c hc]
    rfl
  · rw [hA s c hc, hA (s1 c) c hc, hR.dt c hc]
    rfl

theorem curlPiece2_exec (hg : 1 ≤ C.g) (hR : Rep2 S dt w) (h : ExecSeq b (curlPiece2 C K) w w') :
    ∃ sch : Sched2, Complete (multiMsgs2 T C.g false [()]) sch.2 ∧ Rep2 (callCurl2 C K sch S) dt w' := by
  obtain ⟨w1, h1, w2, h2, rfl⟩ := h
  obtain ⟨s1, s, hc, hin, -⟩ := exchLayer_exec (ranks2_nodup T) partU2 _ ((ghost2_all_matched T hg false).vec [()]) (by intro c s; rfl) h1
  have hl := (locLayer_exec h2).1
  refine ⟨(s1, s), hc, ?_⟩
  have hA : ∀ (e : List Ev), ∀ c ∈ ranks2 T, runNet (allMsgs (ranks2 T) (vecPosts [()] (posts2 T C.g false)))
      (fun r i => (w r).stream (unflat2 T C.g i.2)) e c = runNet (multiMsgs2 T C.g false [()]) (fun r i => toFlat2 T C.g S.stream r i.2) e c := by
    intro e
    refine runNet_congr _ (fun r hr => ?_) e
    rw [hR.stream r hr]
    rfl
  have hw : ∀ c ∈ ranks2 T, w' c = _ := fun c hc => (hl c hc).trans (by rw [hin c hc])
  constructor <;> intro c hc <;> rw [hw c hc] <;> dsimp only [partU2, callCurl2] <;> rest2 hR, c, hc
  · intro j
    rw [hA s c hc, hA (s1 c) c hc, hR.vel c hc, hR.vel c hc]
    fin_cases j <;> rfl
  · rw [hA s c hc]
    rfl

theorem updPiece2_exec (hg : 1 ≤ C.g) (hR : Rep2 S dt w) (h : ExecSeq b (updPiece2 C K) w w') :
    ∃ sch : Sched2, Complete (multiMsgs2 T C.g false ([0, 1] : List (Fin 2))) sch.2 ∧ Rep2 (callUpd2 C K sch dt S) dt w' := by
  obtain ⟨w1, h1, w2, h2, rfl⟩ := h
  obtain ⟨s1, s, hc, hin, -⟩ := exchLayer_exec (ranks2_nodup T) partF2 _ ((ghost2_all_matched T hg false).vec ([0, 1] : List (Fin 2))) (by intro c s; rfl) h1
  have hl := (locLayer_exec h2).1
  refine ⟨(s1, s), hc, ?_⟩
  have hA : ∀ (e : List Ev), ∀ c ∈ ranks2 T, runNet (allMsgs (ranks2 T) (vecPosts ([0, 1] : List (Fin 2)) (posts2 T C.g false)))
      (fun r i => (w r).forcing i.1 (unflat2 T C.g i.2)) e c = runNet (multiMsgs2 T C.g false ([0, 1] : List (Fin 2))) (fun r i => toFlat2 T C.g (S.forcing i.1) r i.2) e c := by
    intro e
    refine runNet_congr _ (fun r hr => ?_) e
    funext i
    rw [hR.forcing r hr]
    rfl
  have hw : ∀ c ∈ ranks2 T, w' c = _ := fun c hc => (hl c hc).trans (by rw [hin c hc])
  constructor <;> intro c hc <;> rw [hw c hc] <;> dsimp only [partF2, callUpd2] <;> rest2 hR, c, hc
  · rw [hA s c hc, hA (s1 c) c hc, hR.dt c hc, hR.prim c hc]
    rfl
  · intro j
    rw [hA s c hc]
    rfl

theorem penPiece2_exec (hR : Rep2 S dt w) (h : ExecSeq b (penPiece2 C) w w') (hok : (callPen2 C S).2 = none) : Rep2 (callPen2 C S).1 dt w' := by
  obtain ⟨w1, h1, rfl⟩ := h
  have hl := (locLayer_exec h1).1
  unfold callPen2 at hok ⊢
  dsimp only at hok ⊢
  split at hok
  · cases hok
  · constructor <;> intro c hc <;> rw [hl c hc] <;> dsimp only <;> rest2 hR, c, hc
    rw [hR.prim c hc]

theorem freePiece2_exec (hR : Rep2 S dt w) (fs : Fin 2 → ℝ) (h : ExecSeq b (freePiece2 C fs) w w') : Rep2 (freeStream2 C fs S) dt w' := by
  obtain ⟨w1, h1, rfl⟩ := h
  have hl := (locLayer_exec h1).1
  unfold freeStream2
  split
  · rename_i hf
    constructor <;> intro c hc <;> rw [hl c hc] <;> (try dsimp only) <;> rw [if_pos hf] <;> (try dsimp only) <;> rest2 hR, c, hc
    intro j
    rw [hR.vel c hc]
  · rename_i hf
    constructor <;> intro c hc <;> rw [hl c hc] <;> rw [if_neg hf] <;> rest2 hR, c, hc

/-- a block survives being sent as a packet -/
theorem decBlk2_enc (D : C2 → ℝ) {q : C2} (h1 : 0 ≤ q.1) (h2 : q.1 < 2 * T.ny) (h3 : 0 ≤ q.2) (h4 : q.2 < 2 * T.nx) : decBlk2 T (encBlk2 T D) q = D q := by
  unfold decBlk2 encBlk2 subIx2
  obtain ⟨y, hy⟩ := Int.eq_ofNat_of_zero_le h1
  obtain ⟨x, hx⟩ := Int.eq_ofNat_of_zero_le h3
  obtain ⟨q1, q2⟩ := q
  dsimp only at *
  subst hy hx
  have e : ((y : ℤ) * (2 * T.nx) + x).toNat = y * (2 * T.nx) + x := by
    rw [show ((y : ℤ) * (2 * T.nx) + x) = ((y * (2 * T.nx) + x : ℕ) : ℤ) by push_cast; ring]
    exact Int.toNat_natCast _
  rw [e]
  have hy : y < 2 * T.ny := by exact_mod_cast h2
  have hx : x < 2 * T.nx := by exact_mod_cast h4
  have key : ∀ (n m : ℕ) (f : ℤ → ℤ → C2), y < n → x < m → ((irange n).flatMap fun a => (irange m).map fun c => f a c)[y * m + x]? = some (f y x) := by
    intro n m f hn hm
    unfold irange
    rw [List.flatMap_map]
    simp only [List.map_map]
    clear e h1 h2 h3 h4 hy hx
    induction n generalizing y f with
    | zero => omega
    | succ n ih =>
      rw [List.range_succ_eq_map, List.flatMap_cons, List.flatMap_map]
      cases y with
      | zero =>
        rw [List.getElem?_append_left (by simpa using hm)]
        simp [hm]
      | succ y =>
        rw [List.getElem?_append_right (by simp; nlinarith)]
        have := ih y (fun a c => f (a + 1) c) (by omega)
        simp only [List.length_map, List.length_range]
        rw [show (y + 1) * m + x - m = y * m + x by rw [Nat.add_mul]; omega]
        simpa [Function.comp_def] using this
  rw [List.getD_eq_getElem?_getD, List.getElem?_map, key _ _ (fun a c => ((0 : ℤ) + a, (0 : ℤ) + c)) hy hx]
  simp

theorem asm2_congr [NeZero T.gy] [NeZero T.gx] (hY : T.gy = T.py * T.ny) (hX : T.gx = T.px * T.nx) {D D' : World C2 C2 ℝ}
    (h : ∀ c ∈ ranks2 T, ∀ q : C2, 0 ≤ q.1 → q.1 < 2 * T.ny → 0 ≤ q.2 → q.2 < 2 * T.nx → D c q = D' c q) (x : Dbl2 T) : asm2 T D x = asm2 T D' x := by
  have n1 : T.gy ≠ 0 := NeZero.ne _
  have n2 : T.gx ≠ 0 := NeZero.ne _
  have hy : 0 < T.ny := Nat.pos_of_ne_zero (by rintro e; rw [e] at hY; omega)
  have hx : 0 < T.nx := Nat.pos_of_ne_zero (by rintro e; rw [e] at hX; omega)
  haveI : NeZero (2 * T.gy) := ⟨by omega⟩
  haveI : NeZero (2 * T.gx) := ⟨by omega⟩
  have l1 := ZMod.val_lt x.1
  have l2 := ZMod.val_lt x.2
  unfold asm2
  apply h
  · rw [mem_ranks2]
    refine ⟨by positivity, ?_, by positivity, ?_⟩
    · dsimp only
      rw [Int.ediv_lt_iff_lt_mul (by positivity)]
      calc (x.1.val : ℤ) < ((2 * T.gy : ℕ) : ℤ) := by exact_mod_cast l1
        _ = (T.py : ℤ) * (2 * T.ny) := by rw [hY]; push_cast; ring
    · dsimp only
      rw [Int.ediv_lt_iff_lt_mul (by positivity)]
      calc (x.2.val : ℤ) < ((2 * T.gx : ℕ) : ℤ) := by exact_mod_cast l2
        _ = (T.px : ℤ) * (2 * T.nx) := by rw [hX]; push_cast; ring
  · exact Int.emod_nonneg _ (by positivity)
  · exact Int.emod_lt_of_pos _ (by positivity)
  · exact Int.emod_nonneg _ (by positivity)
  · exact Int.emod_lt_of_pos _ (by positivity)

theorem solvePiece2_exec [NeZero T.gy] [NeZero T.gx] {gy gx py px : ℕ} (hT : mkCart2 gy gx py px false = .ok T) {gn : PyNum} (hd : doublingInit2 gn T = .ok C.d)
    (hR : Rep2 S dt w) (h : ExecSeq b (solvePiece2 C) w w') :
    ∃ s1 s2 : List Ev, Complete (toMsgs2 T C.g C.d) s1 ∧ Complete (fromMsgs2 T C.g C.d) s2 ∧ Rep2 (callSolve2 C s1 s2 S) dt w' := by
  obtain ⟨-, -, -, -, hper, hY, hX⟩ := construct2_ok hT
  obtain ⟨m1, m2⟩ := doubling2_matched hd (Or.inl hper) C.g
  obtain ⟨w1, h1, w2, h2, w3, h3, w4, h4, w5, h5, rfl⟩ := h
  obtain ⟨e1, s1, c1, i1, -⟩ := exchLayer_exec (ranks2_nodup T) partD2 _ m1 (by intro c s; rfl) h1
  have i2 := (collLayer_exec (ranks2_nodup T) partM2 _ _ _ (by intro c d s m; rfl) h2).1
  have i3 := (locLayer_exec h3).1
  obtain ⟨e2, s2, c2, i4, -⟩ := exchLayer_exec (ranks2_nodup T) partD2 _ m2 (by intro c s; rfl) h4
  have i5 := (locLayer_exec h5).1
  refine ⟨s1, s2, c1, c2, ?_⟩
  have hA : ∀ c ∈ ranks2 T, runNet (allMsgs (ranks2 T) (toPosts2 T C.g C.d)) (fun r => Sum.elim (w r).prim fun _ => 0) s1 c =
      runNet (toMsgs2 T C.g C.d) (joinW S.prim fun _ _ => 0) s1 c := by
    refine runNet_congr _ (fun r hr => ?_) s1
    rw [hR.prim r hr]
    rfl
  have r1 : Rep2 S dt w1 := by
    constructor <;> intro c hc <;> rw [i1 c hc] <;> dsimp only [partD2] <;> rest2 hR, c, hc
  have d1 : ∀ c ∈ ranks2 T, (fun q => (w1 c).wD (.inr q)) = copyTo2 T C.g C.d S.prim (fun _ _ => 0) s1 c := by
    intro c hc
    rw [i1 c hc]
    dsimp only [partD2]
    rw [hA c hc]
    rfl
  have r2 : Rep2 { S with solver := { S.solver with dbl := copyTo2 T C.g C.d S.prim (fun _ _ => 0) s1 } } dt w2 := by
    constructor <;> intro c hc <;> rw [i2 c hc] <;> dsimp only [partM2] <;> rest2 r1, c, hc
    exact d1 c hc
  have d2 : ∀ c ∈ ranks2 T, ∀ r ∈ ranks2 T, (w2 c).mb r = encBlk2 T (copyTo2 T C.g C.d S.prim (fun _ _ => 0) s1 r) := by
    intro c hc r hr
    rw [i2 c hc]
    dsimp only [partM2]
    rw [if_pos ⟨hr, rfl⟩, d1 r hr]
  have hasm : ∀ c ∈ ranks2 T, (fun x => ((asm2 T (fun r => decBlk2 T ((w2 c).mb r)) x : ℝ) : ℂ)) =
      fun x => ((asm2 T (copyTo2 T C.g C.d S.prim (fun _ _ => 0) s1) x : ℝ) : ℂ) := by
    intro c hc
    funext x
    rw [asm2_congr hY.symm hX.symm (D' := copyTo2 T C.g C.d S.prim (fun _ _ => 0) s1)]
    intro r hr q q1 q2 q3 q4
    rw [d2 c hc r hr, decBlk2_enc _ q1 q2 q3 q4]
  have r3 : Rep2 { S with solver := (callSolve2 C s1 s2 S).solver } dt w3 := by
    constructor <;> intro c hc <;> rw [i3 c hc] <;> dsimp only [callSolve2, solve2] <;> rest2 r2, c, hc
    · rw [hasm c hc, r2.green c hc]
    · rw [hasm c hc]
    · rw [hasm c hc, r2.green c hc]
  have hB : ∀ c ∈ ranks2 T, runNet (allMsgs (ranks2 T) (fromPosts2 T C.g C.d)) (fun r => Sum.elim (w3 r).stream (w3 r).dbl) s2 c =
      runNet (fromMsgs2 T C.g C.d) (joinW S.stream (callSolve2 C s1 s2 S).solver.dbl) s2 c := by
    refine runNet_congr _ (fun r hr => ?_) s2
    rw [r3.stream r hr, r3.dbl r hr]
    rfl
  have hw : ∀ c ∈ ranks2 T, w' c = _ := fun c hc => (i5 c hc).trans (by rw [i4 c hc])
  constructor <;> intro c hc <;> rw [hw c hc] <;> dsimp only [partD2] <;> rest2 r3, c, hc
  rw [hB c hc]
  rfl

/-! ## The time step -/

theorem allreduce_congr {R : Type} (op : ℝ → ℝ → ℝ) {rs : List R} {x y : R → Except PyErr ℝ} (h : ∀ r ∈ rs, x r = y r) : allreduce op rs x = allreduce op rs y := by
  have : rs.mapM x = rs.mapM y := by
    induction rs with
    | nil => rfl
    | cons a l ih =>
      rw [List.mapM_cons, List.mapM_cons, h a List.mem_cons_self, ih fun r hr => h r (List.mem_cons_of_mem _ hr)]
  unfold allreduce
  rw [this]

theorem allreduce_okOr {R : Type} (op : ℝ → ℝ → ℝ) {rs : List R} {x : R → Except PyErr ℝ} {v : ℝ} (h : allreduce op rs x = .ok v) :
    allreduce op rs (fun r => .ok (okOr 0 (x r))) = .ok v := by
  rw [← h]
  apply allreduce_congr
  have : ∀ (l : List R) (vs : List ℝ), l.mapM x = .ok vs → ∀ r ∈ l, (Except.ok (okOr 0 (x r)) : Except PyErr ℝ) = x r := by
    intro l
    induction l with
    | nil => intro _ _ r hr; cases hr
    | cons a l ih =>
      intro vs hv r hr
      rw [List.mapM_cons] at hv
      cases ha : x a with
      | error e => rw [ha] at hv; cases hv
      | ok va =>
        rw [ha] at hv
        cases hl : l.mapM x with
        | error e => rw [hl] at hv; cases hv
        | ok vl =>
          rcases List.mem_cons.1 hr with rfl | hr
          · rw [ha]; rfl
          · exact ih vl hl r hr
  unfold allreduce at h
  cases hm : rs.mapM x with
  | error e => rw [hm] at h; cases h
  | ok vs => exact this rs vs hm

theorem dtPiece2_exec (tol : ℝ) {rule : DtRule} {dt0 : ℝ} (hR : Rep2 S dt0 w) (h : ExecSeq b (dtPiece2 C tol rule) w w') {dt : ℝ} (hok : (pickDt2 C tol S rule).2 = .ok dt) :
    Rep2 (pickDt2 C tol S rule).1 dt w' := by
  cases rule with
  | fixed d =>
    obtain ⟨w1, h1, rfl⟩ := h
    have hl := (locLayer_exec h1).1
    cases hok
    constructor <;> intro c hc <;> rw [hl c hc] <;> dsimp only [pickDt2] <;> rest2 hR, c, hc
  | stable pre =>
    obtain ⟨w1, h1, w2, h2, rfl⟩ := h
    have i1 := (collLayer_exec (ranks2_nodup T) partM2 _ _ _ (by intro c d s m; rfl) h1).1
    have i2 := (locLayer_exec h2).1
    have hw : ∀ c ∈ ranks2 T, w' c = _ := fun c hc => (i2 c hc).trans (by rw [i1 c hc])
    constructor <;> intro c hc <;> rw [hw c hc] <;> dsimp only [partM2, pickDt2, stableDt2] <;> rest2 hR, c, hc
    · rw [hR.vel c hc, hR.vel c hc]
    · dsimp only [pickDt2, stableDt2] at hok
      cases hv : allreduce min (ranks2 T) (fun c => do
          let m ← amax (innerElems2 T C.g fun p => |S.vel 0 c p| + |S.vel 1 c p|)
          .ok (minInf (C.cfl * simDx2 T C.xr / (m + tol)) (divInf (0.9 * simDx2 T C.xr ^ 2 / (2 * 2)) C.nu))) with
      | error e => rw [hv] at hok; cases hok
      | ok v =>
        rw [hv] at hok
        cases hok
        have hv' := allreduce_okOr min hv
        rw [allreduce_congr min (y := fun c => Except.ok (okOr 0 (do
          let m ← amax (innerElems2 T C.g fun p => |S.vel 0 c p| + |S.vel 1 c p|)
          .ok (minInf (C.cfl * simDx2 T C.xr / (m + tol)) (divInf (0.9 * simDx2 T C.xr ^ 2 / (2 * 2)) C.nu))))), hv']
        · rfl
        · intro r hr
          rw [if_pos ⟨hr, rfl⟩, hR.vel r hr, hR.vel r hr]
          rfl

variable [NeZero T.gy] [NeZero T.gx] {gy gx py px : ℕ}

/-- a Navier-Stokes step of a usable simulator, spelled out -/
theorem nsStep2_eq (hC : Good2 gy gx T C) (hft : C.flowType ≠ "passive_scalar") (sch : Scheds2) (fs : Fin 2 → ℝ)
    (hok : (callPen2 C (callDiff2 C K sch.diff dt (callAdv2 C K sch.adv dt S))).2 = none) :
    nsStep2 C K sch dt fs S = (freeStream2 C fs (callCurl2 C K sch.curl (callSolve2 C sch.toDbl sch.fromDbl
      (callPen2 C (callDiff2 C K sch.diff dt (callAdv2 C K sch.adv dt S))).1)), none) := by
  have hat := hC.attrs
  unfold used2 at hat
  rw [if_neg hft] at hat
  simp only [List.cons_append, List.mem_cons, forall_eq_or_imp] at hat
  obtain ⟨t1, t2, t3, t4, t5, t6, -⟩ := hat
  unfold nsStep2 advDiffStep2 velFromVort2
  simp only [useAttr2_ok t1, useAttr2_ok t2, useAttr2_ok t3, useAttr2_ok t4, useAttr2_ok t5, useAttr2_ok t6, Out2.andThen, hok]

theorem nsPiece2_exec (hT : mkCart2 gy gx py px false = .ok T) (hC : Good2 gy gx T C) {gn : PyNum} (hd : doublingInit2 gn T = .ok C.d) (hft : C.flowType ≠ "passive_scalar")
    (hK : K.Local) {F : Fields2} (hS : SimHolds2 C F S) (hR : Rep2 S dt w) (fs : Fin 2 → ℝ) (h : ExecSeq b (nsPiece2 C K fs) w w') (su : Sched2)
    (hsu : Complete (multiMsgs2 T 2 false ([0, 1] : List (Fin 2))) su.2) :
    ∃ sch : Scheds2, sch.Done T C.d ∧ sch.upd = su ∧ Rep2 (nsStep2 C K sch dt fs S).1 dt w' := by
  have hg : 1 ≤ C.g := by rw [hC.g]; omega
  unfold nsPiece2 at h
  obtain ⟨w6, h, h7⟩ := execSeq_append h
  obtain ⟨w2, h, h6⟩ := execSeq_append h
  obtain ⟨w1, h1, h2⟩ := execSeq_append h
  clear h
  obtain ⟨w5, h, h5⟩ := execSeq_append h6
  obtain ⟨w3, h3, h4⟩ := execSeq_append h
  clear h h6
  obtain ⟨sa, ca, r1⟩ := advPiece2_exec hg hR h1
  obtain ⟨sd, cd, r2⟩ := diffPiece2_exec hg r1 h2
  rw [hC.g] at ca cd
  obtain ⟨a1, a2⟩ := callAdv2_holds hT hC.g hC.ny hC.nx hK ca dt hS.om hS.u
  have a3 := callDiff2_holds hT hC.g hC.ny hC.nx hK cd dt a1
  obtain ⟨hok, -, -⟩ := callPen2_holds hT hC.g hC.ny hC.nx hC.wy hC.wx hC.xr a3
  have r3 := penPiece2_exec r2 h3 hok
  obtain ⟨s1, s2, c1, c2, r4⟩ := solvePiece2_exec hT hd r3 h4
  obtain ⟨sc, cc, r5⟩ := curlPiece2_exec hg r4 h5
  rw [hC.g] at c1 c2 cc
  refine ⟨⟨su, sa, sd, s1, s2, sc⟩, ⟨hsu, ca, cd, c1, c2, cc⟩, rfl, ?_⟩
  have e := nsStep2_eq (K := K) (dt := dt) (S := S) hC hft ⟨su, sa, sd, s1, s2, sc⟩ fs hok
  rw [e]
  exact freePiece2_exec r5 fs h7

theorem flowPiece2_exec (hT : mkCart2 gy gx py px false = .ok T) (hC : Good2 gy gx T C) (hd : C.flowType ≠ "passive_scalar" → ∃ gn, doublingInit2 gn T = .ok C.d)
    (hft : C.flowType ∈ flowTypes2) (hK : K.Local) (hK0 : ∀ a, K.upd a (fun _ _ => 0) = 0) {F : Fields2} (hS : SimHolds2 C F S) (hR : Rep2 S dt w) (fs : Fin 2 → ℝ)
    {Φ : Fin 2 → C2 → ℝ} (hΦ : C.flowType = "navier_stokes_with_forcing" → HoldsForce2 T 2 Φ S.forcing ∧ Confined2 gy gx Φ)
    (h : ExecSeq b (flowPiece2 C K fs) w w') : ∃ sch : Scheds2, sch.Done T C.d ∧ Rep2 (flowStep2 C K sch dt fs S).1 dt w' := by
  have hg : 1 ≤ C.g := by rw [hC.g]; omega
  obtain ⟨sd, hsd⟩ := scheds2_exist T C.d
  unfold flowStep2
  unfold flowPiece2 at h
  simp only [flowTypes2, List.mem_cons, List.not_mem_nil, or_false] at hft
  rcases hft with h1 | h1 | h1
  · have n1 : C.flowType ≠ "navier_stokes" := by rw [h1]; simp
    have n2 : C.flowType ≠ "navier_stokes_with_forcing" := by rw [h1]; simp
    simp only [if_neg n1, if_neg n2] at h ⊢
    obtain ⟨w1, h1', h2'⟩ := execSeq_append h
    obtain ⟨sa, ca, r1⟩ := advPiece2_exec hg hR h1'
    obtain ⟨sf, cf, r2⟩ := diffPiece2_exec hg r1 h2'
    rw [hC.g] at ca cf
    refine ⟨{ sd with adv := sa, diff := sf }, ⟨hsd.upd, ca, cf, hsd.toDbl, hsd.fromDbl, hsd.curl⟩, ?_⟩
    have hat := hC.attrs
    unfold used2 at hat
    rw [if_pos h1] at hat
    unfold advDiffStep2
    rw [useAttr2_ok (hat _ (by simp))]
    simp only [Out2.andThen]
    rw [useAttr2_ok (hat _ (by simp))]
    exact r2
  · simp only [if_pos h1] at h ⊢
    have n1 : C.flowType ≠ "passive_scalar" := by rw [h1]; simp
    obtain ⟨gn, hd⟩ := hd n1
    obtain ⟨sch, hs, -, r⟩ := nsPiece2_exec hT hC hd n1 hK hS hR fs h sd.upd hsd.upd
    exact ⟨sch, hs, r⟩
  · have n1 : C.flowType ≠ "passive_scalar" := by rw [h1]; simp
    have n2 : C.flowType ≠ "navier_stokes" := by rw [h1]; simp
    simp only [if_neg n2, if_pos h1] at h ⊢
    obtain ⟨gn, hd⟩ := hd n1
    obtain ⟨f1, f2⟩ := hΦ h1
    obtain ⟨w2, h, h3⟩ := execSeq_append h
    obtain ⟨w1, h1', h2⟩ := execSeq_append h
    obtain ⟨su, cu, r1⟩ := updPiece2_exec hg hR h1'
    rw [hC.g] at cu
    have hat := hC.attrs
    unfold used2 at hat
    rw [h1] at hat
    simp only [String.reduceEq, if_false, if_true, List.cons_append, List.nil_append, List.mem_cons, List.not_mem_nil, or_false, forall_eq_or_imp,
      forall_eq] at hat
    obtain ⟨-, -, -, -, -, -, t7, t8⟩ := hat
    have hslab : T.py = 1 ∨ T.px = 1 := by
      rcases doublingInit2_ok hd with ⟨-, h⟩ | ⟨-, h⟩
      · exact Or.inr h
      · exact Or.inl h
    have u1 := callUpd2_holds hT hC.g hC.ny hC.nx hslab hK hK0 cu dt hS.om f1 f2
    have u2 : SimHolds2 C { F with om := refForce2 (C.params gy gx) K dt Φ F.om } (callUpd2 C K su dt S) := ⟨u1, hS.u, hS.green⟩
    obtain ⟨sch, hs, rfl, r2⟩ := nsPiece2_exec hT hC hd n1 hK u2 r1 fs h2 su cu
    obtain ⟨n3, -, -⟩ := nsStep2_holds hT hC hd hK n1 hs dt fs u2
    refine ⟨sch, hs, ?_⟩
    unfold nsForcingStep2
    rw [useAttr2_ok t7]
    simp only [Out2.andThen]
    rw [n3]
    simp only [useAttr2_ok t8]
    obtain ⟨w3, h3, rfl⟩ := h3
    have hl := (locLayer_exec h3).1
    constructor <;> intro c hc <;> rw [hl c hc] <;> dsimp only <;> rest2 r2, c, hc
    intro j; rfl

/-- The iteration of a driver with message schedules added. -/
def AIter2.withScheds (x : AIter2) (sch : Scheds2) : StepIn2 := ⟨x.rule, x.fs, x.force, sch⟩

theorem iterPiece2_exec (hT : mkCart2 gy gx py px false = .ok T) (hC : Good2 gy gx T C) (hd : C.flowType ≠ "passive_scalar" → ∃ gn, doublingInit2 gn T = .ok C.d)
    (hft : C.flowType ∈ flowTypes2) (hcfl : 0 ≤ C.cfl) {tol : ℝ} (htol : 0 < tol) (hK : K.Local) (hK0 : ∀ a, K.upd a (fun _ _ => 0) = 0) {F : Fields2} (hS : SimHolds2 C F S)
    {dt0 : ℝ} (hR : Rep2 S dt0 w) (x : AIter2) {Φ : Fin 2 → C2 → ℝ} (hΦ : C.flowType = "navier_stokes_with_forcing" → HoldsForce2 T 2 Φ x.force ∧ Confined2 gy gx Φ)
    (h : ExecSeq b (iterPiece2 C K tol x.rule x.fs x.force) w w') :
    ∃ sch : Scheds2, sch.Done T C.d ∧ ∃ dt, Rep2 (iterate2 C K (x.withScheds sch) (pickDt2 C tol S x.rule)).1 dt w' := by
  obtain ⟨w3, h, h4⟩ := execSeq_append h
  obtain ⟨w2, h, h3⟩ := execSeq_append h
  obtain ⟨w1, h1, h2⟩ := execSeq_append h
  obtain ⟨d1, d2, -⟩ := pickDt2_holds hT hC hcfl htol hS x.rule
  have r1 := dtPiece2_exec tol hR h1 d1
  obtain ⟨v, h2, rfl⟩ := h2
  have l2 := (locLayer_exec h2).1
  have r2 : Rep2 { (pickDt2 C tol S x.rule).1 with forcing := x.force } (refDt2 (C.params gy gx) C.cfl tol F x.rule) w2 := by
    constructor <;> intro c hc <;> rw [l2 c hc] <;> dsimp only <;> rest2 r1, c, hc
    intro j; rfl
  have s2 : SimHolds2 C F { (pickDt2 C tol S x.rule).1 with forcing := x.force } := ⟨d2.om, d2.u, d2.green⟩
  obtain ⟨sch, hs, r3⟩ := flowPiece2_exec hT hC hd hft hK hK0 s2 r2 x.fs hΦ h3
  refine ⟨sch, hs, refDt2 (C.params gy gx) C.cfl tol F x.rule, ?_⟩
  have hm : Means2 gy gx T C (x.withScheds sch) ⟨x.rule, x.fs, Φ⟩ := ⟨rfl, rfl, hs, hΦ⟩
  have ok := (iterate2_holds hT hC hd hft hK hK0 hm d1 d2).1
  obtain ⟨v, h4, rfl⟩ := h4
  have l4 := (locLayer_exec h4).1
  unfold iterate2 at ok ⊢
  rw [d1] at ok ⊢
  simp only at ok ⊢
  unfold timeStep2 Out2.andThen at ok ⊢
  dsimp only [AIter2.withScheds] at ok ⊢
  cases e : (flowStep2 C K sch (refDt2 (C.params gy gx) C.cfl tol F x.rule) x.fs { (pickDt2 C tol S x.rule).1 with forcing := x.force }).2 with
  | some er => rw [e] at ok; cases ok
  | none =>
    simp only
    constructor <;> intro c hc <;> rw [l4 c hc] <;> dsimp only <;> rest2 r3, c, hc
    rw [r3.time c hc, r3.dt c hc]

/-! ## Simulations -/

/-- The driver loop `xs` on the ranks is the loop `ys` on the global grid: same rules for `dt`, same free stream, and, if there is forcing, the ranks write its values and it
vanishes in the outermost cells. -/
structure Drives2 (gy gx : ℕ) (T : Cart2) (C : Cfg2) (x : AIter2) (y : StepSpec2) : Prop where
  rule : x.rule = y.rule
  fs : x.fs = y.fs
  force : C.flowType = "navier_stokes_with_forcing" → HoldsForce2 T 2 y.Φ x.force ∧ Confined2 gy gx y.Φ

/-- **C82** A driver loop run by ranks at their own speed ends in a state of the lock-step model, for some message schedules. -/
theorem simLoop2_async (hT : mkCart2 gy gx py px false = .ok T) (hC : Good2 gy gx T C) (hd : C.flowType ≠ "passive_scalar" → ∃ gn, doublingInit2 gn T = .ok C.d)
    (hft : C.flowType ∈ flowTypes2) (hcfl : 0 ≤ C.cfl) {tol : ℝ} (htol : 0 < tol) (hK : K.Local) (hK0 : ∀ a, K.upd a (fun _ _ => 0) = 0)
    {xs : List AIter2} {ys : List StepSpec2} (hxy : List.Forall₂ (Drives2 gy gx T C) xs ys) {F : Fields2} (hS : SimHolds2 C F S) {dt0 : ℝ} (hR : Rep2 S dt0 w)
    (h : ExecSeq b (simPieces2 C K tol xs) w w') :
    ∃ zs : List StepIn2, List.Forall₂ (Means2 gy gx T C) zs ys ∧ (∃ schs, zs = List.zipWith AIter2.withScheds xs schs) ∧ ∃ dt, Rep2 (simLoop2 C K tol zs S).1 dt w' := by
  induction hxy generalizing F S dt0 w with
  | nil => exact ⟨[], .nil, ⟨[], rfl⟩, dt0, by rw [show w' = w from h]; exact hR⟩
  | @cons x y xs ys hxy _ ih =>
    obtain ⟨w1, h1, h2⟩ := execSeq_append h
    obtain ⟨sch, hs, dt, r⟩ := iterPiece2_exec hT hC hd hft hcfl htol hK hK0 hS hR x hxy.force h1
    have hm : Means2 gy gx T C (x.withScheds sch) y := ⟨hxy.rule, hxy.fs, hs, hxy.force⟩
    obtain ⟨d1, d2, -⟩ := pickDt2_holds hT hC hcfl htol hS x.rule
    obtain ⟨i1, i2, -⟩ := iterate2_holds hT hC hd hft hK hK0 hm d1 d2
    obtain ⟨zs, hz, ⟨schs, hzs⟩, dt', r'⟩ := ih i2 r h2
    refine ⟨x.withScheds sch :: zs, .cons hm hz, ⟨sch :: schs, by rw [hzs]; rfl⟩, dt', ?_⟩
    unfold simLoop2 Out2.andThen
    change Rep2 (match (iterate2 C K (x.withScheds sch) (pickDt2 C tol S x.rule)).2 with
      | some e => ((iterate2 C K (x.withScheds sch) (pickDt2 C tol S x.rule)).1, some e)
      | none => simLoop2 C K tol zs (iterate2 C K (x.withScheds sch) (pickDt2 C tol S x.rule)).1).1 dt' w'
    rw [i1]
    exact r'

theorem simPieces2_pieces (hT : mkCart2 gy gx py px false = .ok T) (hg : 1 ≤ C.g) (hd : C.flowType ≠ "passive_scalar" → ∃ gn, doublingInit2 gn T = .ok C.d)
    (hft : C.flowType ∈ flowTypes2) (tol : ℝ) (xs : List AIter2) : ∀ L ∈ simPieces2 (T := T) C K tol xs, Piece (ranks2 T) L := by
  obtain ⟨-, -, -, -, hper, -⟩ := construct2_ok hT
  have hm {κ : Type} (comps : List κ) : AllMatched (ranks2 T) (vecPosts comps (posts2 T C.g false)) := (ghost2_all_matched T hg false).vec comps
  have hadv : ∀ L ∈ advPiece2 (T := T) C K, Piece (ranks2 T) L := by
    intro L hL
    simp only [advPiece2, List.mem_cons, List.not_mem_nil, or_false] at hL
    rcases hL with rfl | rfl
    · exact exchLayer_piece _ _ (hm _) _
    · exact locLayer_piece _ _
  have hdiff : ∀ L ∈ diffPiece2 (T := T) C K, Piece (ranks2 T) L := by
    intro L hL
    simp only [diffPiece2, List.mem_cons, List.not_mem_nil, or_false] at hL
    rcases hL with rfl | rfl
    · exact exchLayer_piece _ _ (hm _) _
    · exact locLayer_piece _ _
  have hcurl : ∀ L ∈ curlPiece2 (T := T) C K, Piece (ranks2 T) L := by
    intro L hL
    simp only [curlPiece2, List.mem_cons, List.not_mem_nil, or_false] at hL
    rcases hL with rfl | rfl
    · exact exchLayer_piece _ _ (hm _) _
    · exact locLayer_piece _ _
  have hupd : ∀ L ∈ updPiece2 (T := T) C K, Piece (ranks2 T) L := by
    intro L hL
    simp only [updPiece2, List.mem_cons, List.not_mem_nil, or_false] at hL
    rcases hL with rfl | rfl
    · exact exchLayer_piece _ _ (hm _) _
    · exact locLayer_piece _ _
  have hpen : ∀ L ∈ penPiece2 (T := T) C, Piece (ranks2 T) L := by
    intro L hL
    simp only [penPiece2, List.mem_cons, List.not_mem_nil, or_false] at hL
    rw [hL]; exact locLayer_piece _ _
  have hfree : ∀ fs, ∀ L ∈ freePiece2 (T := T) C fs, Piece (ranks2 T) L := by
    intro fs L hL
    simp only [freePiece2, List.mem_cons, List.not_mem_nil, or_false] at hL
    rw [hL]; exact locLayer_piece _ _
  have hsolve : C.flowType ≠ "passive_scalar" → ∀ L ∈ solvePiece2 (T := T) C, Piece (ranks2 T) L := by
    intro hn L hL
    obtain ⟨gn, hd⟩ := hd hn
    obtain ⟨m1, m2⟩ := doubling2_matched hd (Or.inl hper) C.g
    simp only [solvePiece2, List.mem_cons, List.not_mem_nil, or_false] at hL
    rcases hL with rfl | rfl | rfl | rfl | rfl
    · exact exchLayer_piece _ _ m1 _
    · exact collLayer_piece (ranks2_nodup T) _ _ _ _ (by intro c d s m; rfl)
    · exact locLayer_piece _ _
    · exact exchLayer_piece _ _ m2 _
    · exact locLayer_piece _ _
  have hns : C.flowType ≠ "passive_scalar" → ∀ fs, ∀ L ∈ nsPiece2 (T := T) C K fs, Piece (ranks2 T) L := by
    intro hn fs L hL
    unfold nsPiece2 at hL
    simp only [List.mem_append] at hL
    rcases hL with ((h | h) | ((h | h) | h)) | h
    · exact hadv L h
    · exact hdiff L h
    · exact hpen L h
    · exact hsolve hn L h
    · exact hcurl L h
    · exact hfree fs L h
  have hflow : ∀ fs, ∀ L ∈ flowPiece2 (T := T) C K fs, Piece (ranks2 T) L := by
    intro fs L hL
    unfold flowPiece2 at hL
    split at hL
    · rename_i e; exact hns (by rw [e]; simp) fs L hL
    · split at hL
      · rename_i e
        simp only [List.mem_append, List.mem_cons, List.not_mem_nil, or_false] at hL
        rcases hL with (h | h) | rfl
        · exact hupd L h
        · exact hns (by rw [e]; simp) fs L h
        · exact locLayer_piece _ _
      · rcases List.mem_append.1 hL with h | h
        · exact hadv L h
        · exact hdiff L h
  have hdt : ∀ rule, ∀ L ∈ dtPiece2 (T := T) C tol rule, Piece (ranks2 T) L := by
    intro rule L hL
    cases rule with
    | fixed dt =>
      simp only [dtPiece2, List.mem_cons, List.not_mem_nil, or_false] at hL
      rw [hL]; exact locLayer_piece _ _
    | stable pre =>
      simp only [dtPiece2, List.mem_cons, List.not_mem_nil, or_false] at hL
      rcases hL with rfl | rfl
      · exact collLayer_piece (ranks2_nodup T) _ _ _ _ (by intro c d s m; rfl)
      · exact locLayer_piece _ _
  intro L hL
  obtain ⟨x, -, hL⟩ := List.mem_flatMap.1 hL
  unfold iterPiece2 at hL
  simp only [List.mem_append, List.mem_cons, List.not_mem_nil, or_false] at hL
  rcases hL with ((h | rfl) | h) | rfl
  · exact hdt _ L h
  · exact locLayer_piece _ _
  · exact hflow _ L h
  · exact locLayer_piece _ _

/-- The rank states in which a simulation starts: the fields of the initial state, anything in exchange buffers, mailboxes and the variable `dt`. -/
def Starts2 (S : Sim2 T) (w : C2 → Rk2 T) : Prop := ∃ dt, Rep2 S dt w

/-- **C82** A simulation (constructor, initialisation from the coordinates, any number of iterations with given or stable time steps, every flow type) whose ranks are
synchronised by nothing but their messages: it cannot get stuck, it cannot run forever, and when all ranks have returned, every inner cell of every rank holds the value
of the run on the global grid; MPI may buffer messages or not. -/
theorem sim2_async {a : SimArgs2} (h : Fit2 a T) {xr : ℝ} (hxr : 0 < xr) (nu : ℝ) {cfl : ℝ} (hcfl : 0 ≤ cfl) {tol : ℝ} (htol : 0 < tol)
    {K : Kern2} (hK : K.Local) (hK0 : ∀ r, K.upd r (fun _ _ => 0) = 0) (time : ℝ) (dbl0 : World C2 C2 ℝ) (conv0 : Dbl2 T → ℂ)
    (om : ℝ → ℝ → ℝ) (u : Fin 2 → ℝ → ℝ → ℝ) {xs : List AIter2} {ys : List StepSpec2}
    (hxy : List.Forall₂ (Drives2 a.gy a.gx T (simCfg2 a T xr nu cfl)) xs ys) (b : Bool) {w : C2 → Rk2 T} (hw : Starts2 (initFrom2 T a.g xr time dbl0 conv0 om u) w) :
    let prog := simProg2 (T := T) (simCfg2 a T xr nu cfl) K tol xs
    let ref := refRun2 a.flowType ⟨a.gy, a.gx, xr, nu, widthOf a.width, a.freeStream⟩ K cfl tol ys (fieldsFrom2 (xr / a.gx) om u, time)
    NoStuck b prog ∧ (∃ N, ∀ w n D, ARun b n (AConf.start prog w) D → n ≤ N) ∧ (∃ w', AExec b prog w w') ∧
    ∀ w', AExec b prog w w' → ∀ c, Valid2 T c → (w' c).time = ref.2 ∧ ∀ p, Inner2 T ((2 : ℕ) : ℤ) p →
      (w' c).prim p = ref.1.om (globalIx2 T ((2 : ℕ) : ℤ) c p) ∧ ∀ j, (w' c).vel j p = ref.1.u j (globalIx2 T ((2 : ℕ) : ℤ) c p) := by
  obtain ⟨hT, hft⟩ := simCheck2_cart' h.built
  have hC := h.good hxr nu cfl
  have hd := h.dbl xr nu cfl
  have hp := simPieces2_pieces (K := K) hT (by rw [hC.g]; omega) hd hft tol xs
  obtain ⟨t1, t2⟩ := pieces_terminate hp b
  refine ⟨t1, t2, pieces_exec_exists hp b w, fun w' hw' c hc => ?_⟩
  have hseq := layers_exec (fun L hL => (hp L hL).layer) hw'
  obtain ⟨dt0, hR⟩ := hw
  rw [h.g] at hR
  have hinit := initFrom2_holds hT (simCfg2 a T xr nu cfl) time dbl0 conv0 om u
  obtain ⟨zs, hz, -, dt, r⟩ := simLoop2_async hT hC hd hft hcfl htol hK hK0 hxy hinit hR hseq
  obtain ⟨r1, r2, r3⟩ := sim2_run h hxr nu hcfl htol hK hK0 time dbl0 conv0 om u hz
  rw [h.g] at r1 r2 r3
  refine ⟨(r.time c (mem_ranks2.2 hc)).trans r2, fun p hp => ?_⟩
  obtain ⟨q1, q2⟩ := r3 c p hc hp
  exact ⟨by rw [r.prim c (mem_ranks2.2 hc)]; exact q1, fun j => by rw [r.vel c (mem_ranks2.2 hc)]; exact q2 j⟩

/-! ## The hypotheses can be met -/

/-- every initial state can be held by ranks -/
example (S : Sim2 T) : ∃ w, Starts2 S w :=
  ⟨fun c => ⟨S.prim c, fun j => S.vel j c, S.buf c, S.stream c, fun j => S.forcing j c, S.time, S.solver.dbl c, S.solver.four, S.solver.conv, S.solver.green, 0,
    fun _ => 7, fun _ => 0, fun _ => 0, fun _ => 0, fun _ => []⟩, 0, by constructor <;> intros <;> rfl⟩

/-- a driver iteration with stable `dt`, free stream and forcing in one cell of a 16×8 grid -/
example (T : Cart2) (C : Cfg2) : ∃ x y, Drives2 16 8 T C x y ∧ y.Φ 0 (5, 4) = 3 ∧ y.rule = .stable 0.5 :=
  ⟨⟨.stable 0.5, ![1, 0], fun j c p => if j = 0 ∧ globalIx2 T ((2 : ℕ) : ℤ) c p = (5, 4) then 3 else 0⟩,
    ⟨.stable 0.5, ![1, 0], fun j G => if j = 0 ∧ G = (5, 4) then 3 else 0⟩,
    ⟨rfl, rfl, fun _ => ⟨fun _ _ _ _ _ _ => rfl, by
      intro j G h
      dsimp only
      split
      · rename_i h'
        exfalso; apply h
        rw [h'.2]; simp [Away2]
      · rfl⟩⟩, by simp, rfl⟩

/-- what the theorem excludes can happen: a rank that waits for a message nobody sends -/
example (b : Bool) : ¬ NoStuck b (fun r : Bool => (if r then [.irecv false fun v _ => v, .waitall] else [] : List (AIns Bool ℕ ℕ))) := by
  intro h
  obtain ⟨C', hs⟩ := h (fun _ => 0) 1 _ (.tail (.refl _) (.irecv _ true false (fun v _ => v) [.waitall] rfl)) (by
    intro h
    have := h true
    simp [AConf.start] at this)
  cases hs with
  | loc a f rest hp => cases a <;> simp [AConf.start] at hp
  | isend a d rd rest hp => cases a <;> simp [AConf.start] at hp
  | irecv a s wr rest hp => cases a <;> simp [AConf.start] at hp
  | waitall a rest hp hs hr =>
    cases a
    · simp [AConf.start] at hp
    · have := hr false
      simp [AConf.start, upd2] at this
  | pick s r i rd h hb => simp [AConf.start] at h
  | land s r i v wr h h' => simp [AConf.start] at h

end Sopht
