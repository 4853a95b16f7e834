import Mathlib.Data.Real.Archimedean
import Mathlib.Algebra.Order.Floor.Ring
import Mathlib.Data.List.Lex
import Mathlib.Tactic.Linarith
import Mathlib.Tactic.Positivity
import Mathlib.Tactic.Push

/-!
# Names of the files a driver writes

`"snap_" + str("%0.4d" % (flow_sim.time * 100)) + ".png"` (examples/2d_examples/LambOseenVortexCase/lamb_oseen_vortex.py:97, flow_past_cylinder.py, flow_past_rod.py),
`"sopht_" + str("%0.4d" % (flow_sim.time * 100)) + ".h5"` (3D examples), `"flow_" + str("%0.5d" % (flow_sim.time * 100)) + ".h5"`
(examples/3d_examples/FlowPastFreelyRotatingRodCase/flow_past_freely_rotating_rod_case.py:272), and reading the number back,
`int(filename.split("_")[-1].split(".")[0])` (same file, 216-217).
-/

namespace Sopht

/-- The decimal digit `d` (`d < 10`). -/
def digit (d : ℕ) : Char := Char.ofNat (48 + d)

/-- The decimal digits of a number. -/
def decimal (n : ℕ) : List Char := if n < 10 then [digit n] else decimal (n / 10) ++ [digit (n % 10)]
termination_by n

/-- `int(x)` of a float: the fraction is cut off. -/
noncomputable def pyTrunc (x : ℝ) : ℤ := if 0 ≤ x then ⌊x⌋ else ⌈x⌉

/-- `"%0.<w>d" % z`: sign, then at least `w` digits, zeros first. -/
def formatD (w : ℕ) (z : ℤ) : List Char :=
  (if z < 0 then ['-'] else []) ++ (List.replicate (w - (decimal z.natAbs).length) '0' ++ decimal z.natAbs)

/-- The number in the name of the file written at `time`: `"%0.<w>d" % (time * 100)`. -/
noncomputable def stamp (w : ℕ) (time : ℝ) : List Char := formatD w (pyTrunc (time * 100))

/-- `prefix + stamp + suffix`. -/
noncomputable def fileName (pre suf : List Char) (w : ℕ) (time : ℝ) : List Char := pre ++ stamp w time ++ suf

/-- `str.split(sep)`. -/
def splitOn (sep : Char) : List Char → List (List Char)
  | [] => [[]]
  | c :: cs =>
    if c = sep then [] :: splitOn sep cs
    else match splitOn sep cs with
      | [] => [[c]]
      | l :: ls => (c :: l) :: ls

/-- `int(s)` of a string of decimal digits; everything else – Python also accepts white space around it, a sign and underscores – is an error here. -/
def parseInt (s : List Char) : Option ℕ :=
  if s ≠ [] ∧ ∀ c ∈ s, 48 ≤ c.toNat ∧ c.toNat ≤ 57 then some (s.foldl (fun n c => 10 * n + (c.toNat - 48)) 0) else none

/-- `int(filename.split("_")[-1].split(".")[0])` (flow_past_freely_rotating_rod_case.py:217). -/
def numberOf (name : List Char) : Option ℕ := parseInt ((splitOn '.' ((splitOn '_' name).getLastD [])).headD [])

/-! ## Digits -/

theorem digit_toNat {d : ℕ} (h : d < 10) : (digit d).toNat = 48 + d := by
  have : ∀ d < 10, (digit d).toNat = 48 + d := by decide
  exact this d h

theorem decimal_lt {n : ℕ} (h : n < 10) : decimal n = [digit n] := by rw [decimal, if_pos h]
theorem decimal_ge {n : ℕ} (h : ¬n < 10) : decimal n = decimal (n / 10) ++ [digit (n % 10)] := by rw [decimal, if_neg h]

theorem decimal_digits (n : ℕ) : ∀ c ∈ decimal n, 48 ≤ c.toNat ∧ c.toNat ≤ 57 := by
  induction n using Nat.strong_induction_on with
  | _ n ih =>
    intro c hc
    by_cases h : n < 10
    · rw [decimal_lt h, List.mem_singleton] at hc
      rw [hc, digit_toNat h]; omega
    · rw [decimal_ge h, List.mem_append, List.mem_singleton] at hc
      rcases hc with hc | hc
      · exact ih (n / 10) (by omega) c hc
      · rw [hc, digit_toNat (by omega)]; omega

theorem decimal_ne_nil (n : ℕ) : decimal n ≠ [] := by
  by_cases h : n < 10
  · rw [decimal_lt h]; simp
  · rw [decimal_ge h]; simp

theorem decimal_value (n : ℕ) : (decimal n).foldl (fun n c => 10 * n + (c.toNat - 48)) 0 = n := by
  induction n using Nat.strong_induction_on with
  | _ n ih =>
    by_cases h : n < 10
    · rw [decimal_lt h]; simp [digit_toNat h]
    · rw [decimal_ge h, List.foldl_append, ih (n / 10) (by omega)]
      simp only [List.foldl_cons, List.foldl_nil]
      rw [digit_toNat (by omega)]; omega

theorem foldl_zeros (k : ℕ) : (List.replicate k '0').foldl (fun n c => 10 * n + (c.toNat - 48)) 0 = 0 := by
  induction k with
  | zero => rfl
  | succ k ih => rw [List.replicate_succ, List.foldl_cons]; exact ih

/-- what `formatD` wrote, `int` reads -/
theorem parse_format (w n : ℕ) : parseInt (formatD w n) = some n := by
  have e : formatD w n = List.replicate (w - (decimal n).length) '0' ++ decimal n := by simp [formatD]
  unfold parseInt
  rw [e, if_pos]
  · rw [List.foldl_append, foldl_zeros, decimal_value]
  · refine ⟨by simp [decimal_ne_nil], fun c hc => ?_⟩
    rcases List.mem_append.1 hc with h | h
    · rw [(List.mem_replicate.1 h).2]; decide
    · exact decimal_digits n c h

theorem format_digits (w n : ℕ) : ∀ c ∈ formatD w n, 48 ≤ c.toNat ∧ c.toNat ≤ 57 := by
  have e : formatD w n = List.replicate (w - (decimal n).length) '0' ++ decimal n := by simp [formatD]
  intro c hc
  rw [e] at hc
  rcases List.mem_append.1 hc with h | h
  · rw [(List.mem_replicate.1 h).2]; decide
  · exact decimal_digits n c h

/-! ## `split` -/

theorem splitOn_ne_nil (sep : Char) (l : List Char) : splitOn sep l ≠ [] := by
  cases l with
  | nil => simp [splitOn]
  | cons c cs =>
    unfold splitOn
    split
    · simp
    · split <;> simp

/-- the part after the last separator -/
theorem splitOn_last (sep : Char) (l r : List Char) (h : sep ∉ r) : (splitOn sep (l ++ sep :: r)).getLastD [] = r := by
  have base : ∀ r : List Char, sep ∉ r → splitOn sep r = [r] := by
    intro r
    induction r with
    | nil => intro _; rfl
    | cons c cs ih =>
      intro h
      have h1 : c ≠ sep := fun e => h (by simp [e])
      have h2 : sep ∉ cs := fun e => h (List.mem_cons_of_mem _ e)
      simp only [splitOn, if_neg h1, ih h2]
  induction l with
  | nil => simp [splitOn, base r h]
  | cons c cs ih =>
    simp only [List.cons_append, splitOn]
    split
    · have := splitOn_ne_nil sep (cs ++ sep :: r)
      obtain ⟨a, as, e⟩ := List.exists_cons_of_ne_nil this
      rw [e] at ih ⊢
      rw [List.getLastD_cons]
      rw [List.getLastD_cons] at ih ⊢
      exact ih
    · have hs := splitOn_ne_nil sep (cs ++ sep :: r)
      -- at least two parts, so the last one is untouched
      have h2 : ∃ a b bs, splitOn sep (cs ++ sep :: r) = a :: b :: bs := by
        clear ih hs
        induction cs with
        | nil =>
          obtain ⟨a, as, e⟩ := List.exists_cons_of_ne_nil (splitOn_ne_nil sep r)
          exact ⟨[], a, as, by simp [splitOn, e]⟩
        | cons d ds ih =>
          obtain ⟨a, b, bs, e⟩ := ih
          simp only [List.cons_append, splitOn, e]
          split
          · exact ⟨_, _, _, rfl⟩
          · exact ⟨_, _, _, rfl⟩
      obtain ⟨a, b, bs, e⟩ := h2
      rw [e] at ih ⊢
      rw [List.getLastD_cons, List.getLastD_cons] at ih ⊢
      exact ih

/-- the part before the first separator -/
theorem splitOn_head (sep : Char) (l r : List Char) (h : sep ∉ l) : (splitOn sep (l ++ sep :: r)).headD [] = l := by
  induction l with
  | nil => simp [splitOn]
  | cons c cs ih =>
    have h1 : c ≠ sep := fun e => h (by simp [e])
    have h2 : sep ∉ cs := fun e => h (List.mem_cons_of_mem _ e)
    obtain ⟨a, as, e⟩ := List.exists_cons_of_ne_nil (splitOn_ne_nil sep (cs ++ sep :: r))
    have := ih h2
    rw [e] at this
    simp only [List.cons_append, splitOn, if_neg h1, e]
    simpa using this

/-- C98: the number in a name `…_<number>.<suffix>` written at `time ≥ 0` is read back: hundredths of time, cut off. -/
theorem numberOf_name (pre suf : List Char) (hsuf : '_' ∉ suf) (w : ℕ) {time : ℝ} (h : 0 ≤ time) :
    numberOf (fileName (pre ++ ['_']) ('.' :: suf) w time) = some ⌊time * 100⌋₊ := by
  have e : stamp w time = formatD w (⌊time * 100⌋₊ : ℤ) := by
    unfold stamp pyTrunc
    rw [if_pos (by positivity), Int.natCast_floor_eq_floor (by positivity)]
  have hd := format_digits w ⌊time * 100⌋₊
  have n1 : '_' ∉ formatD w (⌊time * 100⌋₊ : ℤ) := fun hc => by have := hd _ hc; revert this; decide
  have n2 : '.' ∉ formatD w (⌊time * 100⌋₊ : ℤ) := fun hc => by have := hd _ hc; revert this; decide
  unfold numberOf fileName
  rw [e]
  have e2 : pre ++ ['_'] ++ formatD w (⌊time * 100⌋₊ : ℤ) ++ '.' :: suf = pre ++ '_' :: (formatD w (⌊time * 100⌋₊ : ℤ) ++ '.' :: suf) := by simp
  rw [e2, splitOn_last, splitOn_head _ _ _ n2, parse_format]
  intro hc
  rcases List.mem_append.1 hc with hc | hc
  · exact n1 hc
  · rcases List.mem_cons.1 hc with hc | hc
    · revert hc; decide
    · exact hsuf hc

/-- times at least a hundredth apart have different numbers, in the order of time -/
theorem stamp_number_lt {s t : ℝ} (h : s + 0.01 ≤ t) : pyTrunc (s * 100) < pyTrunc (t * 100) ∨ (s < 0 ∧ pyTrunc (s * 100) ≤ pyTrunc (t * 100)) := by
  by_cases hs : 0 ≤ s
  · left
    have ht : 0 ≤ t := by linarith
    unfold pyTrunc
    rw [if_pos (by positivity), if_pos (by positivity)]
    have h1 : s * 100 + 1 ≤ t * 100 := by linarith
    have h2 := Int.floor_le (s * 100)
    have h3 : ⌊s * 100⌋ + 1 ≤ ⌊t * 100⌋ := Int.le_floor.2 (by push_cast; linarith)
    omega
  · right
    refine ⟨not_le.1 hs, ?_⟩
    unfold pyTrunc
    rw [if_neg (by push Not at hs ⊢; linarith)]
    split
    · rename_i ht
      have : ⌈s * 100⌉ ≤ 0 := Int.ceil_le.2 (by push_cast; push Not at hs; linarith)
      have := Int.floor_nonneg.2 ht
      omega
    · exact Int.ceil_mono (by linarith)

/-- C98: files written at times at least a hundredth apart have different names: none is overwritten. -/
theorem fileName_injective (pre suf : List Char) (w : ℕ) {s t : ℝ} (hs : 0 ≤ s) (h : s + 0.01 ≤ t) : fileName pre suf w s ≠ fileName pre suf w t := by
  intro e
  have ht : 0 ≤ t := by linarith
  have hlt := (stamp_number_lt h).resolve_right fun hh => absurd hh.1 (not_lt.2 hs)
  have e1 : stamp w s = stamp w t := List.append_cancel_left (List.append_cancel_right e)
  unfold stamp at e1
  have f : ∀ x : ℝ, 0 ≤ x → pyTrunc (x * 100) = ((pyTrunc (x * 100)).toNat : ℤ) := by
    intro x hx
    unfold pyTrunc
    rw [if_pos (by positivity), Int.toNat_of_nonneg (Int.floor_nonneg.2 (by positivity))]
  rw [f s hs, f t ht] at e1 hlt
  have := congrArg parseInt e1
  rw [parse_format, parse_format] at this
  have := Option.some.inj this
  omega

/-- … and times less than that apart may share one: the later file replaces the earlier one. -/
theorem fileName_collision : fileName "snap_".toList ".png".toList 4 0.5 = fileName "snap_".toList ".png".toList 4 0.509 := by
  unfold fileName stamp pyTrunc
  rw [if_pos (by norm_num), if_pos (by norm_num)]
  have h1 : ⌊(0.5 : ℝ) * 100⌋ = 50 := Int.floor_eq_iff.2 ⟨by norm_num, by norm_num⟩
  have h2 : ⌊(0.509 : ℝ) * 100⌋ = 50 := Int.floor_eq_iff.2 ⟨by norm_num, by norm_num⟩
  rw [h1, h2]

/-! ## Order of the names -/

/-- Order of file names, character by character (shell patterns – `ffmpeg -pattern_type glob` – sort by it). -/
def NameLt (a b : List Char) : Prop := List.Lex (fun c d : Char => c.toNat < d.toNat) a b

/-- `w` digits -/
def fixed : ℕ → ℕ → List Char
  | 0, _ => []
  | w + 1, n => fixed w (n / 10) ++ [digit (n % 10)]

theorem fixed_length (w n : ℕ) : (fixed w n).length = w := by
  induction w generalizing n with
  | zero => rfl
  | succ w ih => simp [fixed, ih]

theorem fixed_zero (w : ℕ) : fixed w 0 = List.replicate w '0' := by
  induction w with
  | zero => rfl
  | succ w ih =>
    have : digit (0 % 10) = '0' := by decide
    rw [fixed, Nat.zero_div, ih, this, List.replicate_succ']

theorem format_fixed {w : ℕ} (hw : w ≠ 0) {n : ℕ} (h : n < 10 ^ w) : formatD w n = fixed w n := by
  have e : ∀ w n : ℕ, formatD w (n : ℤ) = List.replicate (w - (decimal n).length) '0' ++ decimal n := fun w n => by simp [formatD]
  rw [e]
  induction w generalizing n with
  | zero => exact absurd rfl hw
  | succ w ih =>
    by_cases h10 : n < 10
    · rw [decimal_lt h10]
      have : n / 10 = 0 := by omega
      have h2 : n % 10 = n := by omega
      rw [fixed, this, fixed_zero, h2]
      simp
    · have hw0 : w ≠ 0 := by
        rintro rfl
        simp at h; omega
      have hn : n / 10 < 10 ^ w := by rw [pow_succ] at h; omega
      rw [decimal_ge h10, fixed, ← ih hw0 hn, ← List.append_assoc]
      congr 3
      simp only [List.length_append, List.length_singleton]
      omega

theorem lex_append {r : Char → Char → Prop} {a b : List Char} (h : List.Lex r a b) (hl : a.length = b.length) (c d : List Char) : List.Lex r (a ++ c) (b ++ d) := by
  induction h with
  | nil => simp at hl
  | cons _ ih => exact List.Lex.cons (ih (by simpa using hl))
  | rel h => exact List.Lex.rel h

theorem lex_prefix {r : Char → Char → Prop} (a : List Char) {c d : List Char} (h : List.Lex r c d) : List.Lex r (a ++ c) (a ++ d) := by
  induction a with
  | nil => exact h
  | cons _ _ ih => exact List.Lex.cons ih

theorem fixed_lt {w m n : ℕ} (hn : n < 10 ^ w) (h : m < n) : NameLt (fixed w m) (fixed w n) := by
  induction w generalizing m n with
  | zero => simp at hn; omega
  | succ w ih =>
    simp only [fixed]
    have hn' : n / 10 < 10 ^ w := by rw [pow_succ] at hn; omega
    by_cases hq : m / 10 < n / 10
    · exact lex_append (ih hn' hq) (by rw [fixed_length, fixed_length]) _ _
    · have : m / 10 = n / 10 := by omega
      rw [this]
      refine lex_prefix _ (List.Lex.rel ?_)
      rw [digit_toNat (by omega), digit_toNat (by omega)]
      omega

/-- C98: while the number fits its `w` digits, names sort in the order of time: the video shows the snapshots in order. -/
theorem fileName_sorted (pre suf : List Char) {w : ℕ} (hw : w ≠ 0) {s t : ℝ} (hs : 0 ≤ s) (h : s + 0.01 ≤ t) (ht : t * 100 < 10 ^ w) :
    NameLt (fileName pre suf w s) (fileName pre suf w t) := by
  have ht0 : 0 ≤ t := by linarith
  have e : ∀ x : ℝ, 0 ≤ x → stamp w x = formatD w (⌊x * 100⌋₊ : ℤ) := by
    intro x hx
    unfold stamp pyTrunc
    rw [if_pos (by positivity), Int.natCast_floor_eq_floor (by positivity)]
  have hlt : ⌊s * 100⌋₊ < ⌊t * 100⌋₊ := by
    have h1 : ⌊s * 100⌋₊ + 1 ≤ ⌊t * 100⌋₊ := by
      refine Nat.le_floor ?_
      have := Nat.floor_le (show 0 ≤ s * 100 by positivity)
      push_cast; linarith
    omega
  have hb : ⌊t * 100⌋₊ < 10 ^ w := by
    rw [Nat.floor_lt (by positivity)]
    push_cast; exact ht
  unfold NameLt fileName
  rw [List.append_assoc, List.append_assoc]
  refine lex_prefix _ ?_
  rw [e s hs, e t ht0, format_fixed hw (hlt.trans hb), format_fixed hw hb]
  exact lex_append (fixed_lt hb hlt) (by rw [fixed_length, fixed_length]) _ _

/-- … and not beyond: with `%0.4d` the snapshot of time 100 sorts before the one of time 99.99. -/
theorem fileName_unsorted : NameLt (fileName "snap_".toList ".png".toList 4 100) (fileName "snap_".toList ".png".toList 4 99.99) := by
  unfold NameLt fileName stamp pyTrunc
  rw [if_pos (by norm_num), if_pos (by norm_num)]
  have h1 : ⌊(100 : ℝ) * 100⌋ = 10000 := Int.floor_eq_iff.2 ⟨by norm_num, by norm_num⟩
  have h2 : ⌊(99.99 : ℝ) * 100⌋ = 9999 := Int.floor_eq_iff.2 ⟨by norm_num, by norm_num⟩
  rw [h1, h2, List.append_assoc, List.append_assoc]
  refine lex_prefix _ ?_
  have e1 : formatD 4 10000 = ['1', '0', '0', '0', '0'] := by
    have : decimal 10000 = ['1', '0', '0', '0', '0'] := by
      rw [decimal_ge (by norm_num), decimal_ge (by norm_num), decimal_ge (by norm_num), decimal_ge (by norm_num), decimal_lt (by norm_num)]
      decide
    simp [formatD, this]
  have e2 : formatD 4 9999 = ['9', '9', '9', '9'] := by
    have : decimal 9999 = ['9', '9', '9', '9'] := by
      rw [decimal_ge (by norm_num), decimal_ge (by norm_num), decimal_ge (by norm_num), decimal_lt (by norm_num)]
      decide
    simp [formatD, this]
  rw [e1, e2]
  exact List.Lex.rel (by decide)

/-- `time = 0.5` -/
example : stamp 4 0.5 = "0050".toList := by
  unfold stamp pyTrunc
  rw [if_pos (by norm_num)]
  have h1 : ⌊(0.5 : ℝ) * 100⌋ = 50 := Int.floor_eq_iff.2 ⟨by norm_num, by norm_num⟩
  have : decimal 50 = ['5', '0'] := by
    rw [decimal_ge (by norm_num), decimal_lt (by norm_num)]
    decide
  rw [h1]
  simp [formatD, this]

end Sopht
