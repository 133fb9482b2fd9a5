import Verif.Den.Model
import Mathlib.Tactic.Linarith
import Mathlib.Tactic.FieldSimp
import Mathlib.Tactic.NormNum.GCD
import Mathlib.Tactic.FinCases

/-! # Formatting and parsing of density files: lemmas -/

namespace Cryspy.Den

open Text

/-! ### numbers -/

theorem intStr_sign (n : ℤ) : ∃ sg neg, SignOf sg neg ∧ intStr n = sg ++ natStr n.natAbs ∧ (if neg then -(n.natAbs : ℤ) else n.natAbs) = n ∧
    (neg = true ↔ n < 0) ∧ (sg = if n < 0 then ['-'] else []) := by
  unfold intStr
  by_cases h : n < 0
  · refine ⟨['-'], true, Or.inl ⟨rfl, rfl⟩, ?_, ?_, ?_, ?_⟩
    · simp [h]
    · rw [if_pos rfl]; omega
    · simp [h]
    · simp [h]
  · refine ⟨[], false, Or.inr (Or.inl ⟨rfl, rfl⟩), ?_, ?_, ?_, ?_⟩
    · simp [h]
    · rw [if_neg (by decide)]; omega
    · simp [h]
    · simp [h]

/-- a text without blanks, not empty -/
def Word (s : Str) : Prop := s ≠ [] ∧ ∀ c ∈ s, c.isWhitespace = false

theorem natStr_word (n : ℕ) : Word (natStr n) := ⟨natStr_ne_nil n, fun c hc => isDigit_ws (natStr_digits n c hc)⟩

theorem intStr_word (n : ℤ) : Word (intStr n) := by
  unfold intStr
  split
  · refine ⟨by simp, fun c hc => ?_⟩
    rcases List.mem_cons.1 hc with rfl | hc
    · decide
    · exact (natStr_word _).2 c hc
  · exact natStr_word _

theorem parseInt_intStr (n : ℤ) : parseInt (intStr n) = some n := by
  obtain ⟨sg, neg, hs, e, hv, -, -⟩ := intStr_sign n
  unfold parseInt
  rw [strip_none (intStr_word n).2, e]
  have := splitSign_eq hs (natStr_ne_nil n.natAbs) (natStr_digits _) []
  rw [List.append_nil, List.append_nil] at this
  simp only [this]
  rw [if_pos (isDigits_iff.2 ⟨natStr_ne_nil _, natStr_digits _⟩), natVal_natStr]
  simp only [hv]

theorem parseInt_natStr (n : ℕ) : parseInt (natStr n) = some (n : ℤ) := by
  rw [← intStr_nat]; exact parseInt_intStr n

theorem zeroPad_eq (d n : ℕ) : zeroPad d n = padded d n := rfl

/-- the value of a number written with `d` decimals -/
def kept (d : ℕ) (q : ℚ) : ℚ := (rint (q * 10 ^ d) : ℚ) / 10 ^ d

theorem rint_nonpos {q : ℚ} (h : q < 0) : rint q ≤ 0 := by
  have := rint_spec q
  rw [abs_le] at this
  have h1 : ((rint q : ℤ) : ℚ) < 1 := by linarith [this.2]
  have h2 : rint q < 1 := by exact_mod_cast h1
  omega

theorem rint_nonneg {q : ℚ} (h : 0 ≤ q) : 0 ≤ rint q := by
  have := rint_spec q
  rw [abs_le] at this
  have h1 : (-1 : ℚ) < ((rint q : ℤ) : ℚ) := by linarith [this.1]
  have h2 : -1 < rint q := by exact_mod_cast h1
  omega

theorem fixedStr_word (d : ℕ) (q : ℚ) : Word (fixedStr d q) := by
  unfold fixedStr
  refine ⟨by simp, fun c hc => ?_⟩
  simp only [List.mem_append, List.mem_cons] at hc
  rcases hc with (hc | hc) | rfl | hc
  · split at hc
    · simp at hc; subst hc; decide
    · cases hc
  · exact isDigit_ws (natStr_digits _ c hc)
  · decide
  · exact isDigit_ws (padded_digits _ _ c hc)

theorem parseFlt_fixedStr {d : ℕ} (hd : 0 < d) (q : ℚ) : parseFlt (fixedStr d q) = some (kept d q) := by
  unfold parseFlt fixedStr
  dsimp only
  set n := (rint (q * 10 ^ d)).natAbs with hn
  have hp : 0 < 10 ^ d := by positivity
  have hval : natVal (natStr (n / 10 ^ d) ++ zeroPad d (n % 10 ^ d)) = n := by
    rw [natVal_append, natVal_natStr, zeroPad_eq, padded_val, padded_length hd (Nat.mod_lt _ hp)]
    exact Nat.div_add_mod n _
  have hlen : (zeroPad d (n % 10 ^ d)).length = d := padded_length hd (Nat.mod_lt _ hp)
  have hzp : ∀ c ∈ zeroPad d (n % 10 ^ d), c.isDigit = true := padded_digits _ _
  have h10 : (0 : ℚ) < 10 ^ d := by positivity
  by_cases hq : q < 0
  · rw [if_pos hq, parseFloat_point id (Or.inl ⟨rfl, rfl⟩) (natStr_digits _) (hzp) (by simp [natStr_ne_nil])]
    rw [hval, hlen]
    simp only [if_true, id, kept]
    have : rint (q * 10 ^ d) ≤ 0 := rint_nonpos (by nlinarith)
    have e : (n : ℚ) = -(rint (q * 10 ^ d) : ℚ) := by
      have : (n : ℤ) = -rint (q * 10 ^ d) := by omega
      exact_mod_cast this
    rw [e]; congr 1; ring
  · rw [if_neg hq, parseFloat_point id (Or.inr (Or.inl ⟨rfl, rfl⟩)) (natStr_digits _) (hzp) (by simp [natStr_ne_nil])]
    rw [hval, hlen]
    simp only [Bool.false_eq_true, if_false, id, kept]
    have : 0 ≤ rint (q * 10 ^ d) := rint_nonneg (by have := not_lt.1 hq; positivity)
    have e : (n : ℚ) = (rint (q * 10 ^ d) : ℚ) := by
      have : (n : ℤ) = rint (q * 10 ^ d) := by omega
      exact_mod_cast this
    rw [e]

theorem natStr_length {n d : ℕ} (hd : 0 < d) (h : n < 10 ^ d) : (natStr n).length ≤ d :=
  (Nat.length_toDigits_le_iff (by norm_num) hd).2 h

/-- the length of a number below `10^k` in absolute value -/
theorem fixedStr_length {d k : ℕ} (hd : 0 < d) (hk : 0 < k) {q : ℚ} (h : |q| ≤ 10 ^ k - 1) :
    (fixedStr d q).length ≤ (if q < 0 then 1 else 0) + k + 1 + d := by
  unfold fixedStr
  dsimp only
  set n := (rint (q * 10 ^ d)).natAbs with hn
  have hp : 0 < 10 ^ d := by positivity
  have hlt : n < 10 ^ k * 10 ^ d := by
    have h1 := rint_spec (q * 10 ^ d)
    have h2 : |((rint (q * 10 ^ d) : ℤ) : ℚ)| < 10 ^ k * 10 ^ d := by
      have h3 : |q * 10 ^ d| ≤ (10 ^ k - 1) * 10 ^ d := by
        rw [abs_mul, abs_of_pos (by positivity : (0 : ℚ) < 10 ^ d)]
        exact mul_le_mul_of_nonneg_right h (by positivity)
      have h4 : (1 : ℚ) ≤ 10 ^ d := one_le_pow₀ (by norm_num)
      have h5 : |((rint (q * 10 ^ d) : ℤ) : ℚ)| ≤ |q * 10 ^ d| + 1 / 2 := by
        have := abs_sub_abs_le_abs_sub ((rint (q * 10 ^ d) : ℤ) : ℚ) (q * 10 ^ d)
        linarith
      nlinarith
    have h6 : ((n : ℕ) : ℚ) = |((rint (q * 10 ^ d) : ℤ) : ℚ)| := by
      rw [hn]; exact Nat.cast_natAbs _ |>.trans (by push_cast; rfl)
    rw [← h6] at h2
    exact_mod_cast h2
  have hdiv : n / 10 ^ d < 10 ^ k := by rw [Nat.div_lt_iff_lt_mul hp]; exact hlt
  have l1 := natStr_length hk hdiv
  have l2 : (zeroPad d (n % 10 ^ d)).length = d := padded_length hd (Nat.mod_lt _ hp)
  simp only [List.length_append, List.length_cons, l2]
  split
  · simp; omega
  · simp; omega

theorem intStr_length {n : ℤ} {k : ℕ} (hk : 0 < k) (h : |n| < 10 ^ k) : (intStr n).length ≤ (if n < 0 then 1 else 0) + k := by
  have : n.natAbs < 10 ^ k := by
    zify; exact h
  have := natStr_length hk this
  unfold intStr
  split <;> simp <;> omega

/-! ### fields -/

/-- blanks and a word -/
def txt (f : ℕ × Str) : Str := List.replicate f.1 ' ' ++ f.2

theorem words_blanks (k : ℕ) (s : Str) : words (List.replicate k ' ' ++ s) = words s := by
  induction k with
  | zero => rfl
  | succ k ih => rw [List.replicate_succ, List.cons_append, words_space, ih]

/-- the words of a line of fields -/
theorem words_fields (fs : List (ℕ × Str)) (hw : ∀ f ∈ fs, Word f.2) (hk : ∀ f ∈ fs.tail, 0 < f.1) (e : Str) (he : e = [] ∨ e = ['\n']) :
    words (fs.flatMap txt ++ e) = fs.map (·.2) := by
  induction fs with
  | nil => rcases he with rfl | rfl <;> simp [words]
  | cons f fs ih =>
    have hf := hw f (by simp)
    have htail : words (fs.flatMap txt ++ e) = fs.map (·.2) :=
      ih (fun g hg => hw g (by simp [hg])) (fun g hg => hk g (List.mem_of_mem_tail hg))
    rw [List.flatMap_cons, List.append_assoc]
    unfold txt at *
    rw [List.append_assoc, words_blanks, words_word _ _ hf.1 hf.2, htail, List.map_cons]
    cases fs with
    | nil => rcases he with rfl | rfl <;> simp
    | cons g gs =>
      right
      have := hk g (by simp)
      obtain ⟨k, hk'⟩ := Nat.exists_eq_succ_of_ne_zero (Nat.pos_iff_ne_zero.1 this)
      refine ⟨' ', List.replicate k ' ' ++ g.2 ++ (gs.flatMap (fun f => List.replicate f.1 ' ' ++ f.2) ++ e), ?_, rfl⟩
      rw [List.flatMap_cons, hk']
      simp [List.replicate_succ]

theorem fmt_txt (w : ℕ) (s : Str) : padLeft w s = txt (w - s.length, s) := rfl

/-- a blank before a field -/
theorem sp_txt (f : ℕ × Str) : ' ' :: txt f = txt (f.1 + 1, f.2) := by simp [txt, List.replicate_succ]

/-- the effect of `replace("-", " -")` on a number -/
theorem replace_num {sg s : Str} (hs : sg = ['-'] ∨ sg = []) (h : '-' ∉ s) (k : ℕ) :
    replaceChar '-' [' ', '-'] (txt (k, sg ++ s)) = txt (k + sg.length, sg ++ s) := by
  have hb : ∀ k, replaceChar '-' [' ', '-'] (List.replicate k ' ') = List.replicate k ' ' := fun k =>
    replaceChar_none fun h => by have := (List.mem_replicate.1 h).2; revert this; decide
  rcases hs with rfl | rfl
  · simp only [txt, replaceChar_append, hb, List.length_singleton, List.singleton_append, replaceChar_cons_self, replaceChar_none h]
    rw [List.replicate_succ']
    simp
  · simp [txt, replaceChar_append, hb, replaceChar_none h]

theorem replace_fields (fs : List (ℕ × Str × Str)) (h : ∀ f ∈ fs, (f.2.1 = ['-'] ∨ f.2.1 = []) ∧ '-' ∉ f.2.2) :
    replaceChar '-' [' ', '-'] (fs.flatMap fun f => txt (f.1, f.2.1 ++ f.2.2)) =
      fs.flatMap fun f => txt (f.1 + f.2.1.length, f.2.1 ++ f.2.2) := by
  induction fs with
  | nil => rfl
  | cons f fs ih =>
    rw [List.flatMap_cons, List.flatMap_cons, replaceChar_append, ih fun g hg => h g (by simp [hg])]
    obtain ⟨h1, h2⟩ := h f (by simp)
    rw [replace_num h1 h2]

/-! ### the shift of an element -/

theorem kept_near (d : ℕ) (q : ℚ) : |kept d q - q| ≤ 1 / 2 / 10 ^ d := by
  have h10 : (0 : ℚ) < 10 ^ d := by positivity
  have e : kept d q - q = ((rint (q * 10 ^ d) : ℚ) - q * 10 ^ d) / 10 ^ d := by unfold kept; field_simp
  rw [e, abs_div, abs_of_pos h10]
  exact div_le_div_of_nonneg_right (rint_spec _) h10.le

theorem rint_near {q : ℚ} {n : ℤ} (h : |q - n| < 1 / 2) : rint q = n := by
  have h1 := rint_spec q
  rw [abs_le] at h1
  rw [abs_lt] at h
  have h3 : ((rint q : ℤ) : ℚ) - n < 1 := by linarith
  have h4 : (-1 : ℚ) < ((rint q : ℤ) : ℚ) - n := by linarith
  have h5 : rint q - n < 1 := by exact_mod_cast h3
  have h6 : -1 < rint q - n := by exact_mod_cast h4
  omega

theorem rint_kept {d : ℕ} (hd : 2 ≤ d) {n : ℤ} {q : ℚ} (h : 48 * q = n) : rint (48 * kept d q) = n := by
  apply rint_near
  have := kept_near d q
  have e : 48 * kept d q - n = 48 * (kept d q - q) := by rw [← h]; ring
  have h10 : (10 : ℚ) ^ 2 ≤ 10 ^ d := pow_le_pow_right₀ (by norm_num) hd
  rw [e, abs_mul, abs_of_pos (by norm_num)]
  calc 48 * |kept d q - q| ≤ 48 * (1 / 2 / 10 ^ d) := by linarith
    _ ≤ 48 * (1 / 2 / 10 ^ 2) := by gcongr
    _ < 1 / 2 := by norm_num

theorem kept_int (d : ℕ) (n : ℤ) : kept d (n : ℚ) = n := by
  have h10 : (0 : ℚ) < 10 ^ d := by positivity
  have : (n : ℚ) * 10 ^ d = ((n * 10 ^ d : ℤ) : ℚ) := by push_cast; rfl
  unfold kept
  rw [this, rint_int]
  push_cast
  field_simp

/-- the greatest common divisor the code divides by -/
def gcd4 (n : Fin 3 → ℤ) (m : ℕ) : ℕ := Nat.gcd (Nat.gcd (Int.gcd (n 0) (n 1)) (n 2).natAbs) m

theorem gcd4_dvd (n : Fin 3 → ℤ) (m : ℕ) : (∀ i, (gcd4 n m : ℤ) ∣ n i) ∧ gcd4 n m ∣ m := by
  have h1 := Nat.gcd_dvd_left (Nat.gcd (Int.gcd (n 0) (n 1)) (n 2).natAbs) m
  have h2 := Nat.gcd_dvd_left (Int.gcd (n 0) (n 1)) (n 2).natAbs
  refine ⟨fun i => ?_, Nat.gcd_dvd_right _ _⟩
  fin_cases i
  · exact (Int.natCast_dvd_natCast.2 (h1.trans h2)).trans (Int.gcd_dvd_left _ _)
  · exact (Int.natCast_dvd_natCast.2 (h1.trans h2)).trans (Int.gcd_dvd_right _ _)
  · exact Int.natCast_dvd.2 (h1.trans (Nat.gcd_dvd_right _ _))

theorem gcd4_mul (n : Fin 3 → ℤ) (m k : ℕ) : gcd4 (fun i => n i * k) (m * k) = gcd4 n m * k := by
  unfold gcd4
  rw [Int.gcd_mul_right, Int.natAbs_mul, Int.natAbs_natCast, Nat.gcd_mul_right, Nat.gcd_mul_right]

theorem numDen_kept {d : ℕ} (hd : 2 ≤ d) {N : Fin 3 → ℤ} {x : Fin 3 → ℚ} (h : ∀ i, 48 * x i = N i) :
    numDen (kept d (x 0)) (kept d (x 1)) (kept d (x 2)) = (fun i => N i / (gcd4 N 48 : ℤ), (48 : ℤ) / (gcd4 N 48 : ℤ)) := by
  unfold numDen
  rw [rint_kept hd (h 0), rint_kept hd (h 1), rint_kept hd (h 2)]
  have e : (![N 0, N 1, N 2] : Fin 3 → ℤ) = N := by funext i; fin_cases i <;> rfl
  dsimp only
  rw [e]; rfl

/-! ### lines -/

theorem readLines_line (s : Str) (h : '\n' ∉ s) (t : Str) : readLines (s ++ '\n' :: t) = (s ++ ['\n']) :: readLines t := by
  induction s with
  | nil => simp [readLines]
  | cons c s ih =>
    have hc : c ≠ '\n' := fun e => h (by simp [e])
    have := ih fun hm => h (by simp [hm])
    rw [List.cons_append, readLines, if_neg hc, this]
    rfl

theorem readLines_last (s : Str) (h : '\n' ∉ s) (h0 : s ≠ []) : readLines s = [s] := by
  induction s with
  | nil => exact absurd rfl h0
  | cons c s ih =>
    have hc : c ≠ '\n' := fun e => h (by simp [e])
    rw [readLines, if_neg hc]
    cases s with
    | nil => rfl
    | cons d s => rw [ih (fun hm => h (by simp [hm])) (by simp)]

/-- the lines of a text: all but the last end with a newline -/
def ended : List Str → List Str
  | [] => []
  | [s] => [s]
  | s :: t => (s ++ ['\n']) :: ended t

theorem readLines_join (l : List Str) (h : ∀ s ∈ l, '\n' ∉ s ∧ s ≠ []) : readLines (joinNl l) = ended l := by
  induction l with
  | nil => rfl
  | cons s t ih =>
    cases t with
    | nil => exact readLines_last s (h s (by simp)).1 (h s (by simp)).2
    | cons u t =>
      have := ih fun v hv => h v (by simp [hv])
      rw [show joinNl (s :: u :: t) = s ++ '\n' :: joinNl (u :: t) from rfl, readLines_line s (h s (by simp)).1, this]
      rfl

/-- each line of the list, with an ending that is empty or a newline -/
theorem ended_spec (l : List Str) : List.Forall₂ (fun s e => e = s ∨ e = s ++ ['\n']) l (ended l) := by
  induction l with
  | nil => exact .nil
  | cons s t ih =>
    cases t with
    | nil => exact .cons (Or.inl rfl) .nil
    | cons u t => exact .cons (Or.inr rfl) ih

theorem ended_not_last (l : List Str) (i : ℕ) (h : i + 1 < l.length) : (ended l)[i]? = (l[i]?).map (· ++ ['\n']) := by
  induction l generalizing i with
  | nil => simp at h
  | cons s t ih =>
    cases t with
    | nil => simp at h
    | cons u t =>
      cases i with
      | zero => rfl
      | succ i =>
        rw [show ended (s :: u :: t) = (s ++ ['\n']) :: ended (u :: t) from rfl, List.getElem?_cons_succ, List.getElem?_cons_succ]
        exact ih i (by simpa using h)

end Cryspy.Den
