import Verif.Text.ValueProps

/-!
# C07 in double precision

The writing and reading of `value(error)mark` in any arithmetic that rounds with relative error `2^-53` and keeps integers up to `2^53`:
at most one unit of the last digit is lost.
-/

namespace Cryspy.Text

/-- Rounding to 53 significant bits: what is used about it. -/
structure Rounds (fl : ℚ → ℚ) : Prop where
  err : ∀ x, |fl x - x| ≤ |x| / 2 ^ 53
  int : ∀ n : ℤ, |n| ≤ 2 ^ 53 → fl n = n

/-- the identity is such a rounding -/
theorem rounds_id : Rounds id := ⟨fun x => by simp; positivity, fun _ _ => rfl⟩

theorem rint_near {q : ℚ} {n : ℤ} (h : q = n) : rint q = n := by rw [h, rint_int]

/-- double precision is such a rounding -/
theorem rounds_fl64 : Rounds fl64 := by
  have base : ∀ q : ℚ, q ≠ 0 → ∀ u : ℚ, 0 < u → u ≤ |q| / 2 ^ 52 → |(rint (q / u) : ℚ) * u - q| ≤ |q| / 2 ^ 53 := by
    intro q _ u hu hle
    have h := rint_spec (q / u)
    have e : (rint (q / u) : ℚ) * u - q = ((rint (q / u) : ℚ) - q / u) * u := by field_simp
    rw [e, abs_mul, abs_of_pos hu]
    calc _ ≤ 1 / 2 * u := mul_le_mul_of_nonneg_right h hu.le
      _ ≤ 1 / 2 * (|q| / 2 ^ 52) := by linarith
      _ = _ := by ring
  have habs : ∀ q : ℚ, |q| = (q.num.natAbs : ℚ) / q.den := by
    intro q
    conv_lhs => rw [← Rat.num_div_den q]
    rw [abs_div, abs_of_pos (by exact_mod_cast q.pos : (0:ℚ) < q.den), ← Int.cast_abs, Int.abs_eq_natAbs]
    rfl
  constructor
  · intro q
    unfold fl64
    by_cases h0 : q = 0
    · simp [h0]
    rw [if_neg h0]
    have hn : 0 < q.num.natAbs := by
      have : q.num ≠ 0 := fun h => h0 (Rat.num_eq_zero.1 h)
      omega
    have hd := q.pos
    have hq := habs q
    dsimp only
    generalize q.num.natAbs = n at *
    generalize q.den = d at *
    have hdq : (0 : ℚ) < d := by exact_mod_cast hd
    have hnq : (0 : ℚ) < n := by exact_mod_cast hn
    split_ifs with h1 h2
    · -- one or more, up to 2^53
      have hne : n / d ≠ 0 := by
        have := Nat.div_pos h1 hd
        omega
      have hlo : 2 ^ Nat.log 2 (n / d) ≤ n / d := Nat.pow_log_le_self 2 hne
      have hlo' : (2 : ℚ) ^ Nat.log 2 (n / d) ≤ |q| := by
        rw [hq, le_div_iff₀ hdq]
        have := (Nat.le_div_iff_mul_le hd).1 hlo
        exact_mod_cast this
      generalize Nat.log 2 (n / d) = e at *
      have := base q h0 (1 / 2 ^ (52 - e)) (by positivity) (by
        rw [div_le_div_iff₀ (by positivity) (by positivity)]
        calc (1 : ℚ) * 2 ^ 52 = 2 ^ e * 2 ^ (52 - e) := by rw [← pow_add, one_mul, Nat.add_sub_cancel' h2]
          _ ≤ |q| * 2 ^ (52 - e) := mul_le_mul_of_nonneg_right hlo' (by positivity))
      simpa [div_eq_mul_inv] using this
    · have hne : n / d ≠ 0 := by
        have := Nat.div_pos h1 hd
        omega
      have hlo : 2 ^ Nat.log 2 (n / d) ≤ n / d := Nat.pow_log_le_self 2 hne
      have hlo' : (2 : ℚ) ^ Nat.log 2 (n / d) ≤ |q| := by
        rw [hq, le_div_iff₀ hdq]
        have := (Nat.le_div_iff_mul_le hd).1 hlo
        exact_mod_cast this
      generalize Nat.log 2 (n / d) = e at *
      exact base q h0 (2 ^ (e - 52)) (by positivity) (by
        rw [le_div_iff₀ (by positivity), ← pow_add]
        refine le_trans (le_of_eq ?_) hlo'
        congr 1; omega)
    · -- below one
      have hc : (d + n - 1) / n ≤ 2 ^ Nat.clog 2 ((d + n - 1) / n) := Nat.le_pow_clog (by norm_num) _
      have hlo' : (1 : ℚ) / 2 ^ Nat.clog 2 ((d + n - 1) / n) ≤ |q| := by
        rw [hq, div_le_div_iff₀ (by positivity) hdq, one_mul]
        have h3 : d ≤ n * ((d + n - 1) / n) := by
          have h4 := Nat.div_add_mod (d + n - 1) n
          have h5 := Nat.mod_lt (d + n - 1) hn
          omega
        have h4 : d ≤ n * 2 ^ Nat.clog 2 ((d + n - 1) / n) := le_trans h3 (Nat.mul_le_mul_left n hc)
        exact_mod_cast h4
      generalize Nat.clog 2 ((d + n - 1) / n) = e at *
      have := base q h0 (1 / 2 ^ (52 + e)) (by positivity) (by
        rw [le_div_iff₀ (by positivity)]
        refine le_trans (le_of_eq ?_) hlo'
        rw [pow_add]; field_simp)
      simpa [div_eq_mul_inv] using this
  · intro m hm
    unfold fl64
    by_cases h0 : (m : ℚ) = 0
    · simp [h0]
    rw [if_neg h0]
    dsimp only
    have hm0 : m ≠ 0 := by exact_mod_cast h0
    have hden : (m : ℚ).den = 1 := Rat.den_intCast m
    have hnum : (m : ℚ).num = m := Rat.num_intCast m
    rw [hden, hnum, if_pos (by omega), Nat.div_one]
    split_ifs with h2
    · have : rint ((m : ℚ) * 2 ^ (52 - Nat.log 2 m.natAbs)) = m * 2 ^ (52 - Nat.log 2 m.natAbs) := rint_near (by push_cast; rfl)
      rw [this]
      push_cast
      field_simp
    · -- only 2^53
      have h53 : m.natAbs = 2 ^ 53 := by
        have h3 : m.natAbs ≤ 2 ^ 53 := by rw [Int.abs_eq_natAbs] at hm; omega
        have h4 : 2 ^ 53 ≤ m.natAbs := by
          have : 2 ^ Nat.log 2 m.natAbs ≤ m.natAbs := Nat.pow_log_le_self 2 (by omega)
          exact le_trans (Nat.pow_le_pow_right (by norm_num) (by omega)) this
        omega
      have hl : Nat.log 2 m.natAbs = 53 := by rw [h53]; exact Nat.log_pow (by norm_num) 53
      rw [hl]
      have hmm : m = 2 ^ 53 ∨ m = -2 ^ 53 := by omega
      rcases hmm with h | h
      · have : rint ((m : ℚ) / 2 ^ (53 - 52)) = 2 ^ 52 := rint_near (by rw [h]; norm_num)
        rw [this, h]; norm_num
      · have : rint ((m : ℚ) / 2 ^ (53 - 52)) = -2 ^ 52 := rint_near (by rw [h]; norm_num)
        rw [this, h]; norm_num

variable {fl : ℚ → ℚ}

/-- `fl` keeps the sign -/
theorem Rounds.neg_iff (R : Rounds fl) (x : ℚ) : fl x < 0 ↔ x < 0 := by
  have h := R.err x
  have h2 : |x| / 2 ^ 53 ≤ |x| / 2 := by
    apply div_le_div_of_nonneg_left (abs_nonneg x) (by norm_num) (by norm_num)
  rw [abs_le] at h
  rcases lt_trichotomy x 0 with hx | hx | hx
  · rw [abs_of_neg hx] at h h2
    exact ⟨fun _ => hx, fun _ => by linarith [h.2]⟩
  · subst hx; simp at h; constructor
    · intro h'; linarith [h.1]
    · intro h'; exact absurd h' (lt_irrefl _)
  · rw [abs_of_pos hx] at h h2
    exact ⟨fun h' => by linarith [h.1], fun h' => by linarith⟩

theorem floor_trunc_abs (x : ℚ) : |trunc x| = ⌊|x|⌋ := by
  unfold trunc
  split_ifs with h
  · rw [abs_of_nonneg h, abs_of_nonneg (Int.floor_nonneg.2 h)]
  · rw [abs_of_neg (not_le.1 h), abs_neg, abs_of_nonneg]
    exact Int.floor_nonneg.2 (by linarith)

/-- the digits written for `N / p`: whole part and decimals together are `|N|` or `|N| - 1`, and the decimals fit. -/
theorem digits_lost (R : Rounds fl) {N : ℤ} {p : ℕ} (hp : 0 < p) (hp2 : p ≤ 2 ^ 50) (hN : |N| ≤ 2 ^ 50 + 1) :
    ∃ I F : ℕ, |trunc (fl ((N : ℚ) / p))| = I ∧
      trunc (fl ((|fl ((N : ℚ) / p)| - ⌊|fl ((N : ℚ) / p)|⌋) * p)) = F ∧ F < p ∧
      ((p * I + F : ℕ) : ℤ) ≤ |N| ∧ |N| - 1 ≤ ((p * I + F : ℕ) : ℤ) := by
  set x := fl ((N : ℚ) / p) with hx
  have hpq : (0 : ℚ) < p := by exact_mod_cast hp
  have hp2q : (p : ℚ) ≤ 2 ^ 50 := by exact_mod_cast hp2
  have hNq : |(N : ℚ)| ≤ 2 ^ 50 + 1 := by exact_mod_cast hN
  have hfl := Int.floor_le |x|
  have hfl2 := Int.lt_floor_add_one |x|
  have hI0 : 0 ≤ ⌊|x|⌋ := Int.floor_nonneg.2 (abs_nonneg x)
  obtain ⟨I, hI⟩ := Int.eq_ofNat_of_zero_le hI0
  -- error of x
  have herr : |(|x| * p) - (|(N : ℚ)|)| ≤ 1 / 7 := by
    have h := R.err ((N : ℚ) / p)
    rw [← hx, abs_div, abs_of_pos hpq] at h
    have h1 : |(|x|) - (|(N : ℚ) / p|)| ≤ |(N : ℚ)| / p / 2 ^ 53 := le_trans (abs_abs_sub_abs_le _ _) h
    rw [abs_div, abs_of_pos hpq] at h1
    have e : |x| * p - |(N : ℚ)| = (|x| - |(N : ℚ)| / p) * p := by field_simp
    rw [e, abs_mul, abs_of_pos hpq]
    calc _ ≤ |(N : ℚ)| / p / 2 ^ 53 * p := mul_le_mul_of_nonneg_right h1 hpq.le
      _ = |(N : ℚ)| / 2 ^ 53 := by field_simp
      _ ≤ (2 ^ 50 + 1) / 2 ^ 53 := by gcongr
      _ ≤ 1 / 7 := by norm_num
  rw [abs_le] at herr
  set fr := |x| - ⌊|x|⌋ with hfr
  have hfr0 : 0 ≤ fr := by rw [hfr]; linarith
  have hfr1 : fr < 1 := by rw [hfr]; linarith
  have hIq : ((⌊|x|⌋ : ℤ) : ℚ) = I := by rw [hI]; simp
  have hsum : (p : ℚ) * I + fr * p = |x| * p := by rw [hfr, hIq]; ring
  have hF := R.err (fr * p)
  have hFb : |fl (fr * p) - fr * p| ≤ 1 / 8 := by
    refine le_trans hF ?_
    rw [abs_of_nonneg (by positivity)]
    calc fr * p / 2 ^ 53 ≤ 1 * 2 ^ 50 / 2 ^ 53 := by gcongr
      _ = 1 / 8 := by norm_num
  rw [abs_le] at hFb
  have hF0 : 0 ≤ fl (fr * p) := by
    by_contra hc
    exact absurd ((R.neg_iff _).1 (not_le.1 hc)) (not_lt.2 (by positivity))
  have hT : trunc (fl (fr * p)) = ⌊fl (fr * p)⌋ := by unfold trunc; rw [if_pos hF0]
  obtain ⟨F, hFe⟩ := Int.eq_ofNat_of_zero_le (Int.floor_nonneg.2 hF0)
  have g1 := Int.floor_le (fl (fr * p))
  have g2 := Int.lt_floor_add_one (fl (fr * p))
  have hFq : ((⌊fl (fr * p)⌋ : ℤ) : ℚ) = F := by rw [hFe]; simp
  rw [hFq] at g1 g2
  have hNabs : (((|N| : ℤ)) : ℚ) = |(N : ℚ)| := Int.cast_abs
  -- the decimals fit
  have hlt : F < p := by
    have hr : |N| - p * I ≤ p - 1 := by
      by_contra hc
      have h3 : (p : ℤ) ≤ |N| - p * I := by omega
      have h4 : (|N| : ℤ) - p * I ≤ p := by
        by_contra h5
        have h6 : (p : ℤ) * I + p + 1 ≤ |N| := by omega
        have h7 : (p : ℚ) * I + p + 1 ≤ |(N : ℚ)| := by rw [← hNabs]; exact_mod_cast h6
        nlinarith
      have h5 : |N| = p * (I + 1) := by have : |N| - p * I = (p : ℤ) := le_antisymm h4 h3; linarith
      -- then the quotient is an integer
      have h6 : x = ((N / p : ℤ) : ℚ) := by
        have hdv : (p : ℤ) ∣ N := (dvd_abs _ _).1 ⟨_, h5⟩
        have h7 : (N : ℚ) / p = ((N / p : ℤ) : ℚ) := by
          rw [Int.cast_div hdv (by exact_mod_cast hp.ne')]; simp
        rw [hx, h7]
        refine R.int _ ?_
        obtain ⟨c, rfl⟩ := hdv
        rw [Int.mul_ediv_cancel_left _ (by exact_mod_cast hp.ne')]
        rw [abs_mul] at hN
        have : |c| ≤ |(p : ℤ)| * |c| := by
          have h8 : 1 ≤ |(p : ℤ)| := by rw [abs_of_nonneg (by positivity)]; exact_mod_cast hp
          nlinarith [abs_nonneg c]
        have h9 : |c| ≤ 2 ^ 50 + 1 := le_trans this hN
        exact le_trans h9 (by norm_num)
      have h7 : fr = 0 := by
        rw [hfr, h6, ← Int.cast_abs, Int.floor_intCast, sub_self]
      rw [h7] at hsum
      have h8 : (p : ℚ) * (I + 1) = |(N : ℚ)| := by rw [← hNabs, h5]; push_cast; rfl
      have h9 : (1 : ℚ) ≤ p := by exact_mod_cast hp
      linarith [herr.1]
    have hrq : |(N : ℚ)| - p * I ≤ p - 1 := by rw [← hNabs]; exact_mod_cast hr
    have : (F : ℚ) < p := by linarith [hFb.2, herr.2]
    exact_mod_cast this
  refine ⟨I, F, by rw [floor_trunc_abs, hI], by rw [hT, hFe], hlt, ?_, ?_⟩
  · have : ((p * I + F : ℕ) : ℚ) < |(N : ℚ)| + 1 := by push_cast; linarith [hFb.2, herr.2]
    rw [← hNabs] at this
    have : ((p * I + F : ℕ) : ℤ) < |N| + 1 := by exact_mod_cast this
    omega
  · have : |(N : ℚ)| - 2 < ((p * I + F : ℕ) : ℚ) := by push_cast; linarith [hFb.1, herr.1]
    rw [← hNabs] at this
    have : |N| - 2 < ((p * I + F : ℕ) : ℤ) := by exact_mod_cast this
    omega

/-- the error as written: at most one less -/
theorem error_lost (R : Rounds fl) {M : ℕ} {p : ℕ} (hp : 0 < p) (hM : M ≤ 2 ^ 50) :
    ∃ M' : ℕ, trunc (fl (fl ((M : ℚ) / p) * p)) = M' ∧ M' ≤ M ∧ M ≤ M' + 1 := by
  have hpq : (0 : ℚ) < p := by exact_mod_cast hp
  have hMq : (M : ℚ) ≤ 2 ^ 50 := by exact_mod_cast hM
  set x := fl ((M : ℚ) / p) with hx
  have h := R.err ((M : ℚ) / p)
  rw [← hx, abs_of_nonneg (by positivity : (0:ℚ) ≤ (M : ℚ) / p)] at h
  have h1 : |x * p - M| ≤ 1 / 8 := by
    have e : x * p - M = (x - M / p) * p := by field_simp
    rw [e, abs_mul, abs_of_pos hpq]
    calc _ ≤ (M : ℚ) / p / 2 ^ 53 * p := mul_le_mul_of_nonneg_right h hpq.le
      _ = (M : ℚ) / 2 ^ 53 := by field_simp
      _ ≤ 2 ^ 50 / 2 ^ 53 := by gcongr
      _ = 1 / 8 := by norm_num
  have hx0 : 0 ≤ x := by
    by_contra hc
    exact absurd ((R.neg_iff _).1 (not_le.1 hc)) (not_lt.2 (by positivity))
  rw [abs_le] at h1
  have h2 := R.err (x * p)
  rw [abs_of_nonneg (by positivity : (0:ℚ) ≤ x * p)] at h2
  have h3 : |fl (x * p) - x * p| ≤ 1 / 4 := by
    refine le_trans h2 ?_
    calc x * p / 2 ^ 53 ≤ (2 ^ 50 + 1 / 8) / 2 ^ 53 := by gcongr; linarith [h1.2]
      _ ≤ 1 / 4 := by norm_num
  rw [abs_le] at h3
  have hF0 : 0 ≤ fl (x * p) := by
    by_contra hc
    exact absurd ((R.neg_iff _).1 (not_le.1 hc)) (not_lt.2 (by positivity))
  obtain ⟨F, hFe⟩ := Int.eq_ofNat_of_zero_le (Int.floor_nonneg.2 hF0)
  have g1 := Int.floor_le (fl (x * p))
  have g2 := Int.lt_floor_add_one (fl (x * p))
  have hFq : ((⌊fl (x * p)⌋ : ℤ) : ℚ) = F := by rw [hFe]; simp
  rw [hFq] at g1 g2
  refine ⟨F, by unfold trunc; rw [if_pos hF0, hFe], ?_, ?_⟩
  · have : (F : ℚ) < M + 1 := by linarith [h1.2, h3.2]
    have : F < M + 1 := by exact_mod_cast this
    omega
  · have : (M : ℚ) < F + 2 := by linarith [h1.1, h3.1]
    have : M < F + 2 := by exact_mod_cast this
    omega

/-- C07 in double precision, for a positive error below 0.99 that is not out of proportion to the value (`100 |v| ≤ 2^50 e`, about 13
digits): the text is read back as a value and an error that differ from the given ones by less than two units of the last digit written,
so by less than a fifth of the error, with the same mark. -/
theorem value_error_mark_double (R : Rounds fl) (repr : ℚ → Str) (v : ℚ) {e : ℚ} (h0 : 0 < e) (h1 : e < 99 / 100)
    (hv : 100 * |v| ≤ 2 ^ 50 * e) (he : 100 ≤ 2 ^ 50 * e) (mark : Str) :
    ∃ s v' e', writeValue fl repr (some v) (some e) mark = some s ∧
      readValue fl s = some (some v', some e', strip mark) ∧ |v' - v| < e / 5 ∧ |e' - e| < e / 5 := by
  have h1' : e ≤ 1 := by linarith
  obtain ⟨hk1, hk2⟩ := decades_spec h0 h1'
  have hd : decades e = decades e := rfl
  generalize hk : decades e = k at *
  set p : ℕ := 10 ^ (k + 2) with hp
  have hpp : 0 < p := by positivity
  have hpq : (0 : ℚ) < p := by exact_mod_cast hpp
  have hcast : ((10 : ℚ) ^ (k + 2)) = (p : ℚ) := by rw [hp]; push_cast; rfl
  have hlo : 10 < e * p := by
    rw [← hcast]
    have : e * 10 ^ (k + 2) = 10 * (e * 10 ^ (k + 1)) := by ring
    rw [this]; linarith
  have hhi : e * p ≤ 100 := by
    rw [← hcast]
    have : e * 10 ^ (k + 2) = 100 * (e * 10 ^ k) := by ring
    rw [this]; linarith
  have hp50 : (p : ℚ) ≤ 2 ^ 50 := by nlinarith
  have hvp : |v| * p ≤ 2 ^ 50 := by
    have : |v| * p * 100 ≤ 2 ^ 50 * (e * p) := by nlinarith [abs_nonneg v]
    linarith
  -- the rounded value
  have hA := R.err (v * p)
  rw [abs_mul, abs_of_pos hpq] at hA
  have hA' : |fl (v * p) - v * p| ≤ 1 / 8 := le_trans hA (by
    calc |v| * p / 2 ^ 53 ≤ 2 ^ 50 / 2 ^ 53 := by gcongr
      _ = 1 / 8 := by norm_num)
  have hNr := rint_spec (fl (v * p))
  set N := rint (fl (v * p)) with hN
  have hNv : |(N : ℚ) - v * p| ≤ 5 / 8 := by
    have := abs_sub_le (N : ℚ) (fl (v * p)) (v * p)
    linarith
  have hNb : |N| ≤ 2 ^ 50 + 1 := by
    have h3 : |(N : ℚ)| ≤ 5 / 8 + 2 ^ 50 := by
      have h4 : |(N : ℚ)| ≤ |(N : ℚ) - v * p| + |v * p| := by
        have := abs_add_le ((N : ℚ) - v * p) (v * p); simpa using this
      rw [abs_mul, abs_of_pos hpq] at h4
      linarith
    have h5 : (((|N| : ℤ)) : ℚ) < 2 ^ 50 + 2 := by rw [Int.cast_abs]; linarith
    have h6 : |N| < 2 ^ 50 + 2 := by exact_mod_cast h5
    omega
  -- the rounded error
  have hE := R.err (e * p)
  rw [abs_of_pos (by positivity : (0:ℚ) < e * p)] at hE
  have hE' : |fl (e * p) - e * p| ≤ 1 / 100 := le_trans hE (by
    calc e * p / 2 ^ 53 ≤ 100 / 2 ^ 53 := by gcongr
      _ ≤ 1 / 100 := by norm_num)
  have hMr := rint_spec (fl (e * p))
  have hMe : |(rint (fl (e * p)) : ℚ) - e * p| ≤ 51 / 100 := by
    have := abs_sub_le (rint (fl (e * p)) : ℚ) (fl (e * p)) (e * p)
    linarith
  have hM0 : 0 ≤ rint (fl (e * p)) := by
    rw [abs_le] at hMe
    have : (-1 : ℚ) < rint (fl (e * p)) := by linarith [hMe.1]
    have : -1 < rint (fl (e * p)) := by exact_mod_cast this
    omega
  obtain ⟨M, hMM⟩ := Int.eq_ofNat_of_zero_le hM0
  have hMq : ((rint (fl (e * p)) : ℤ) : ℚ) = M := by rw [hMM]; simp
  rw [hMq] at hMe
  have hM100 : M ≤ 100 := by
    rw [abs_le] at hMe
    have : (M : ℚ) < 101 := by linarith [hMe.2]
    have : M < 101 := by exact_mod_cast this
    omega
  obtain ⟨I, F, hI, hF, hFp, hT1, hT2⟩ := digits_lost R hpp (by exact_mod_cast hp50) hNb
  obtain ⟨M', hM', hM1, hM2⟩ := error_lost R hpp (by omega : M ≤ 2 ^ 50)
  -- the text
  have hw : writeValue fl repr (some v) (some e) mark =
      some (minusIf (N < 0) ++ natStr I ++ '.' :: padded (k + 2) F ++ '(' :: natStr M' ++ ')' :: strip mark) := by
    unfold writeValue
    dsimp only
    rw [if_neg h0.ne', if_neg (not_lt.2 h0.le), if_pos h1', hk]
    unfold roundDec
    rw [hcast, ← hN, hMq, hI, hF, hM', intStr_nat, intStr_nat, intStr_nat]
    have hs : (if fl ((N : ℚ) / p) < 0 then ['-'] else ([] : Str)) = minusIf (N < 0) := by
      unfold minusIf
      have : (fl ((N : ℚ) / p) < 0) ↔ N < 0 := by
        rw [R.neg_iff, div_lt_iff₀ hpq]; simp
      simp [this]
    rw [hs]
    rfl
  have hlen : (padded (k + 2) F).length = k + 2 := padded_length (by omega) hFp
  have hSF : (natStr M').length ≤ k + 2 := by
    refine (Nat.length_toDigits_le_iff (by norm_num) (by omega)).2 ?_
    rcases k with _ | k
    · have : (M : ℚ) < 100 := by
        rw [abs_le] at hMe
        have : (p : ℚ) = 100 := by rw [hp]; norm_num
        rw [this] at hMe
        linarith [hMe.2]
      have : M < 100 := by exact_mod_cast this
      norm_num
      omega
    · calc M' < 10 ^ 3 := by omega
        _ ≤ 10 ^ (k + 1 + 2) := Nat.pow_le_pow_right (by norm_num) (by omega)
  have hr := read_decimal_fl fl (minusIf_sign (decide (N < 0))) (natStr_digits I)
    (padded_digits (k + 2) F) (natStr_digits M') (natStr_ne_nil M') (by rw [hlen]; exact hSF) (strip mark)
  rw [hlen, natVal_append, hlen, natVal_natStr, padded_val, natVal_natStr, hcast, strip_strip] at hr
  set T : ℕ := 10 ^ (k + 2) * I + F with hTdef
  have hT1q : (T : ℚ) ≤ |(N : ℚ)| := by rw [← Int.cast_abs]; exact_mod_cast hT1
  have hT2q : |(N : ℚ)| - 1 ≤ T := by rw [← Int.cast_abs]; exact_mod_cast hT2
  have hNbq : |(N : ℚ)| ≤ 2 ^ 50 + 1 := by rw [← Int.cast_abs]; exact_mod_cast hNb
  set w : ℚ := if decide (N < 0) = true then -((T : ℚ) / p) else (T : ℚ) / p with hwdef
  have hwN : |w * p - N| ≤ 1 ∧ |w * p| ≤ 2 ^ 50 + 1 := by
    have hTp : (T : ℚ) / p * p = T := by field_simp
    have hT0 : (0 : ℚ) ≤ T := by positivity
    rcases lt_or_ge N 0 with h | h
    · have hq : (N : ℚ) < 0 := by exact_mod_cast h
      rw [abs_of_neg hq] at hT1q hT2q hNbq
      rw [hwdef, if_pos (by simpa using h), neg_mul, hTp, abs_neg, abs_of_nonneg hT0]
      exact ⟨by rw [abs_le]; constructor <;> linarith, by linarith⟩
    · have hq : (0 : ℚ) ≤ N := by exact_mod_cast h
      rw [abs_of_nonneg hq] at hT1q hT2q hNbq
      rw [hwdef, if_neg (by simpa using h), hTp, abs_of_nonneg hT0]
      exact ⟨by rw [abs_le]; constructor <;> linarith, by linarith⟩
  set u : ℚ := if decide (N < 0) = true then -((M' : ℚ) / p) else (M' : ℚ) / p with hudef
  have hu : |u| = (M' : ℚ) / p := abs_sign _ _ (by positivity)
  have hunit : 1 / (p : ℚ) < e / 10 := by
    rw [div_lt_div_iff₀ hpq (by norm_num)]; linarith
  refine ⟨_, _, _, hw, hr, ?_, ?_⟩
  · have h3 := R.err w
    have h4 : |fl w - w| * p ≤ 1 / 4 := by
      calc |fl w - w| * p ≤ |w| / 2 ^ 53 * p := mul_le_mul_of_nonneg_right h3 hpq.le
        _ = |w * p| / 2 ^ 53 := by rw [abs_mul, abs_of_pos hpq]; ring
        _ ≤ (2 ^ 50 + 1) / 2 ^ 53 := by gcongr; exact hwN.2
        _ ≤ 1 / 4 := by norm_num
    have h5 : |fl w - v| * p ≤ 15 / 8 := by
      have e1 : |fl w - v| * p = |(fl w - w) * p + (w * p - N) + (N - v * p)| := by
        rw [← abs_of_pos hpq, ← abs_mul, abs_of_pos hpq]; congr 1; ring
      rw [e1]
      refine le_trans (abs_add_le _ _) ?_
      have h6 := abs_add_le ((fl w - w) * p) (w * p - N)
      rw [abs_mul, abs_of_pos hpq] at h6
      linarith [hwN.1]
    have h7 : |fl w - v| ≤ 15 / 8 * (1 / p) := by
      rw [mul_one_div, le_div_iff₀ hpq]; exact h5
    linarith
  · have h3 := R.err u
    have hM'q : (M' : ℚ) ≤ 100 := by exact_mod_cast (by omega : M' ≤ 100)
    have h4 : |(|fl u|) - (M' : ℚ) / p| * p ≤ 1 / 4 := by
      rw [← hu]
      calc |(|fl u|) - (|u|)| * p ≤ |u| / 2 ^ 53 * p :=
            mul_le_mul_of_nonneg_right (le_trans (abs_abs_sub_abs_le _ _) h3) hpq.le
        _ = M' / 2 ^ 53 := by rw [hu]; field_simp
        _ ≤ 100 / 2 ^ 53 := by gcongr
        _ ≤ 1 / 4 := by norm_num
    have hMM' : |(M' : ℚ) - M| ≤ 1 := by
      have a1 : (M' : ℚ) ≤ M := by exact_mod_cast hM1
      have a2 : (M : ℚ) ≤ M' + 1 := by exact_mod_cast hM2
      rw [abs_le]; constructor <;> linarith
    have h5 : |(|fl u|) - e| * p ≤ 15 / 8 := by
      have e1 : |(|fl u|) - e| * p = |((|fl u|) - M' / p) * p + (M' - M) + (M - e * p)| := by
        rw [← abs_of_pos hpq, ← abs_mul, abs_of_pos hpq]; congr 1; field_simp; ring
      rw [e1]
      refine le_trans (abs_add_le _ _) ?_
      have h6 := abs_add_le ((|fl u| - M' / p) * p) ((M' : ℚ) - M)
      rw [abs_mul, abs_of_pos hpq] at h6
      linarith
    have h7 : |(|fl u|) - e| ≤ 15 / 8 * (1 / p) := by
      rw [mul_one_div, le_div_iff₀ hpq]; exact h5
    linarith

/-- C07 in double precision, for errors above one: rounding to a whole number. -/
theorem value_error_mark_double_whole (R : Rounds fl) (repr : ℚ → Str) (v : ℚ) {e : ℚ} (h0 : 1 < e)
    (hv : |v| ≤ 2 ^ 50) (he : e ≤ 2 ^ 50) (mark : Str) :
    ∃ s v' e', writeValue fl repr (some v) (some e) mark = some s ∧
      readValue fl s = some (some v', some e', strip mark) ∧ |v' - v| ≤ 5 / 8 ∧ |e' - e| ≤ 5 / 8 ∧ 0 < e' := by
  have key : ∀ x : ℚ, |x| ≤ 2 ^ 50 → |(rint (fl x) : ℚ) - x| ≤ 5 / 8 ∧ |rint (fl x)| ≤ 2 ^ 51 := by
    intro x hx
    have hA : |fl x - x| ≤ 1 / 8 := le_trans (R.err x) (by
      calc |x| / 2 ^ 53 ≤ 2 ^ 50 / 2 ^ 53 := by gcongr
        _ = 1 / 8 := by norm_num)
    have h1 := rint_spec (fl x)
    have h2 := abs_sub_le (rint (fl x) : ℚ) (fl x) x
    have h3 : |(rint (fl x) : ℚ) - x| ≤ 5 / 8 := by linarith
    refine ⟨h3, ?_⟩
    have h4 := abs_add_le ((rint (fl x) : ℚ) - x) x
    simp only [sub_add_cancel] at h4
    have h5 : ((|rint (fl x)| : ℤ) : ℚ) ≤ 2 ^ 51 := by rw [Int.cast_abs]; linarith
    exact_mod_cast h5
  obtain ⟨hN, hNb⟩ := key v hv
  obtain ⟨hM, hMb⟩ := key e (by rw [abs_of_pos (by linarith)]; exact he)
  have rt : ∀ n : ℤ, |n| ≤ 2 ^ 51 → fl (n : ℚ) = n := fun n hn => R.int n (le_trans hn (by norm_num))
  have hMpos : 1 ≤ rint (fl e) := by
    rw [abs_le] at hM
    by_contra hc
    have : rint (fl e) ≤ 0 := by omega
    have : (rint (fl e) : ℚ) ≤ 0 := by exact_mod_cast this
    linarith [hM.1]
  obtain ⟨M, hMe⟩ := Int.eq_ofNat_of_zero_le (by omega : 0 ≤ rint (fl e))
  have hw : writeValue fl repr (some v) (some e) mark =
      some (minusIf (rint (fl v) < 0) ++ natStr (rint (fl v)).natAbs ++ '(' :: natStr M ++ ')' :: strip mark) := by
    unfold writeValue
    dsimp only
    rw [if_neg (by linarith), if_neg (by linarith), if_neg (not_le.2 h0)]
    unfold roundDec
    simp only [pow_zero, mul_one, div_one]
    rw [rt _ hNb, rt _ hMb, trunc_int, trunc_int, hMe, intStr_nat]
    congr 3
    unfold intStr minusIf
    by_cases h : rint (fl v) < 0 <;> simp [h]
  obtain ⟨b, hr⟩ := read_integer_fl fl (minusIf_sign (decide (rint (fl v) < 0))) (natStr_digits (rint (fl v)).natAbs) (natStr_ne_nil _)
    (natStr_digits M) (natStr_ne_nil M) (strip mark)
  rw [natVal_natStr, natVal_natStr, strip_strip] at hr
  have hval : (if decide (rint (fl v) < 0) = true then -(((rint (fl v)).natAbs : ℕ) : ℚ) else ((rint (fl v)).natAbs : ℕ)) = rint (fl v) := by
    have : (((rint (fl v)).natAbs : ℕ) : ℚ) = |(rint (fl v) : ℚ)| := by rw [← Int.cast_abs, Int.abs_eq_natAbs]; rfl
    rw [this]
    rcases lt_or_ge (rint (fl v)) 0 with h | h
    · have hq : (rint (fl v) : ℚ) < 0 := by exact_mod_cast h
      rw [if_pos (by simpa using h), abs_of_neg hq]; ring
    · have hq : (0 : ℚ) ≤ rint (fl v) := by exact_mod_cast h
      rw [if_neg (by simpa using h), abs_of_nonneg hq]
  have herr : |fl (if b = true then -(M : ℚ) else M)| = M := by
    have : (if b = true then -(M : ℚ) else M) = ((if b = true then -(M : ℤ) else M : ℤ) : ℚ) := by cases b <;> simp
    rw [this, rt]
    · cases b <;> simp
    · rw [hMe] at hMb
      cases b <;> simpa using hMb
  rw [hval, rt _ hNb, herr] at hr
  have hMq : (M : ℚ) = rint (fl e) := by rw [hMe]; simp
  refine ⟨_, _, _, hw, hr, hN, by rw [hMq]; exact hM, ?_⟩
  have : 0 < M := by omega
  exact_mod_cast this

/-- an instance: 0.57 with error 0.5, for which the last digit is lost -/
example : ∃ s v' e', writeValue fl64 (fun _ => []) (some (fl64 (57 / 100))) (some (1 / 2)) [] = some s ∧
    readValue fl64 s = some (some v', some e', strip []) ∧ |v' - fl64 (57 / 100)| < 1 / 2 / 5 ∧ |e' - 1 / 2| < 1 / 2 / 5 :=
  value_error_mark_double rounds_fl64 _ _ (by norm_num) (by norm_num) (by decide +kernel) (by norm_num) []

end Cryspy.Text
