import Verif.Core.Model
import Verif.Slater.Props
import Verif.MemIt.Density
import Verif.Den.Lemmas

/-!
# C102: the prior density made of core electrons
-/

namespace Cryspy.Core

open Cryspy.Text Cryspy.Slater MeasureTheory Set

/-! ## Reading a configuration -/

/-- specification: a shell as one writes it: principal number, letter, number of electrons -/
structure Shell where
  n : ℕ
  letter : Char
  pop : ℕ

/-- specification: the letters of shells -/
def Shell.Ok (s : Shell) : Prop := s.letter ∈ ['s', 'p', 'd', 'f']

/-- specification: `3d`, `3d10` -/
def Shell.name (s : Shell) : Str := natStr s.n ++ [s.letter]
def Shell.text (s : Shell) : Str := s.name ++ natStr s.pop

theorem letter_props {c : Char} (h : c ∈ ['s', 'p', 'd', 'f']) : c.isDigit = false ∧ c.isWhitespace = false ∧ c ∈ ['s', ',', 'p', 'd', 'f'] := by
  simp only [List.mem_cons, List.not_mem_nil, or_false] at h
  rcases h with rfl | rfl | rfl | rfl <;> decide

theorem takeWhile_digits (l t : Str) (c : Char) (hl : ∀ x ∈ l, x.isDigit = true) (hc : c.isDigit = false) :
    (l ++ c :: t).takeWhile Char.isDigit = l ∧ (l ++ c :: t).dropWhile Char.isDigit = c :: t := by
  induction l with
  | nil => simp [hc]
  | cons a l ih =>
    have ha := hl a (by simp)
    obtain ⟨h1, h2⟩ := ih fun x hx => hl x (by simp [hx])
    simp [ha, h1, h2]

theorem takeWhile_all (l : Str) (hl : ∀ x ∈ l, x.isDigit = true) : l.takeWhile Char.isDigit = l := by
  rw [List.takeWhile_eq_self_iff]
  exact hl

theorem shellOf_text {s : Shell} (h : s.Ok) (t : Str) (ht : ∀ x ∈ t, x.isDigit = true) : shellOf (s.name ++ t) = some (natStr s.n, s.letter, t) := by
  obtain ⟨h1, -, h3⟩ := letter_props h
  unfold shellOf Shell.name
  rw [List.append_assoc, List.singleton_append]
  obtain ⟨a, b⟩ := takeWhile_digits (natStr s.n) t s.letter (natStr_digits s.n) h1
  rw [b, a]
  simp only [h3, if_true, takeWhile_all t ht]

theorem word_text {s : Shell} (h : s.Ok) (t : Str) (ht : ∀ x ∈ t, x.isDigit = true) : Den.Word (s.name ++ t) := by
  refine ⟨by simp [Shell.name], ?_⟩
  intro c hc
  simp only [Shell.name, List.mem_append, List.mem_singleton] at hc
  rcases hc with (hc | rfl) | hc
  · exact isDigit_ws (natStr_digits _ c hc)
  · exact (letter_props h).2.1
  · exact isDigit_ws (ht c hc)

/-- a line of shells, each after some blanks (at least one between two) -/
def line (l : List (ℕ × Shell)) (e : Str) : Str := (l.flatMap fun p => List.replicate p.1 ' ' ++ p.2.text) ++ e

/-- C102: a configuration is read as it is written: the shells in their order with their numbers of electrons. -/
theorem core_read (l : List (ℕ × Shell)) (hl : ∀ p ∈ l, p.2.Ok) (hk : ∀ p ∈ l.tail, 0 < p.1) {e : Str} (he : e = [] ∨ e = ['\n']) :
    coreShells (some (line l e)) = some (l.map fun p => (p.2.name, p.2.pop)) := by
  have hw : words (line l e) = l.map fun p => p.2.text := by
    have := Den.words_fields (l.map fun p => (p.1, p.2.text)) (by
      intro f hf
      obtain ⟨p, hp, rfl⟩ := List.mem_map.1 hf
      exact word_text (hl p hp) _ (natStr_digits _)) (by
      intro f hf
      rw [← List.map_tail] at hf
      obtain ⟨p, hp, rfl⟩ := List.mem_map.1 hf
      exact hk p hp) e he
    rw [List.flatMap_map, List.map_map] at this
    exact this
  show ((words (line l e)).filterMap shellOf).mapM _ = _
  rw [hw]
  clear hw hk
  induction l with
  | nil => rfl
  | cons p l ih =>
    have i := ih fun q hq => hl q (by simp [hq])
    rw [List.map_cons, List.filterMap_cons, Shell.text, shellOf_text (hl p (by simp)) _ (natStr_digits _)]
    simp only [List.mapM_cons, natStr_ne_nil, if_false, natVal_natStr, i]
    rfl

/-- C102: the shells of the valence part, with or without a number of electrons. -/
theorem valence_read (l : List (ℕ × Shell × Option ℕ)) (hl : ∀ p ∈ l, p.2.1.Ok) (hk : ∀ p ∈ l.tail, 0 < p.1) :
    valenceShells (some (l.flatMap fun p => List.replicate p.1 ' ' ++ (p.2.1.name ++ (p.2.2.map natStr).getD []))) = l.map fun p => p.2.1.name := by
  have hd : ∀ o : Option ℕ, ∀ x ∈ (o.map natStr).getD [], x.isDigit = true := by
    intro o x hx
    cases o with
    | none => simp at hx
    | some k => exact natStr_digits k x hx
  have hw : words (l.flatMap fun p => List.replicate p.1 ' ' ++ (p.2.1.name ++ (p.2.2.map natStr).getD [])) =
      l.map fun p => p.2.1.name ++ (p.2.2.map natStr).getD [] := by
    have := Den.words_fields (l.map fun p => (p.1, p.2.1.name ++ (p.2.2.map natStr).getD [])) (by
      intro f hf
      obtain ⟨p, hp, rfl⟩ := List.mem_map.1 hf
      exact word_text (hl p hp) _ (hd _)) (by
      intro f hf
      rw [← List.map_tail] at hf
      obtain ⟨p, hp, rfl⟩ := List.mem_map.1 hf
      exact hk p hp) [] (Or.inl rfl)
    rw [List.flatMap_map, List.map_map, List.append_nil] at this
    exact this
  show ((words _).filterMap shellOf).map _ = _
  rw [hw]
  clear hw hk
  induction l with
  | nil => rfl
  | cons p l ih =>
    rw [List.map_cons, List.filterMap_cons, shellOf_text (hl p (by simp)) _ (hd _), List.map_cons, ih fun q hq => hl q (by simp [hq])]
    rfl

/-- C102, known failures: shells separated by commas without blanks are cut to the first; a shell in capitals is passed over; a comma passes for a letter;
the principal number may be missing; what follows the number is ignored. A core shell without a number of electrons raises. -/
theorem read_failures : coreShells (some "1s2,2s2,2p6".toList) = some [("1s".toList, 2)] ∧
    coreShells (some "1s2 2S2 2P6".toList) = some [("1s".toList, 2)] ∧
    coreShells (some "1s2 , 1".toList) = none ∧ coreShells (some "3,7".toList) = some [("3,".toList, 7)] ∧
    coreShells (some "s2".toList) = some [("s".toList, 2)] ∧ coreShells (some "3d5(up)".toList) = some [("3d".toList, 5)] ∧
    coreShells (some "1s2 2s".toList) = none := by
  decide +kernel

/-! ## The density of the core -/

/-- specification: the electron density at the distance `r` from the nucleus, with the angular part averaged -/
noncomputable def electronDensity (r : ℝ) (orbs : List (ℕ × List Fn)) (kappa : ℝ) : ℝ :=
  (orbs.map fun o => (o.1 : ℝ) * (rhoNormalized r o.2 kappa ^ 2 / (4 * Real.pi))).sum

theorem sum_mul_left {α : Type} (l : List α) (c : ℝ) (f : α → ℝ) : (l.map fun a => c * f a).sum = c * (l.map f).sum := by
  induction l with
  | nil => simp
  | cons a l ih => simp only [List.map_cons, List.sum_cons, ih, mul_add]

/-- what is calculated is `16π²` times the electron density; the factor goes out in the normalisation -/
theorem spherical_eq (r : ℝ) (orbs : List (ℕ × List Fn)) (kappa : ℝ) : spherical r orbs kappa = 16 * Real.pi ^ 2 * electronDensity r orbs kappa := by
  unfold spherical electronDensity
  rw [← sum_mul_left]
  congr 1
  refine List.map_congr_left fun o _ => ?_
  have := Real.pi_ne_zero
  field_simp
  ring

theorem electronDensity_nonneg (r : ℝ) (orbs : List (ℕ × List Fn)) (kappa : ℝ) : 0 ≤ electronDensity r orbs kappa := by
  unfold electronDensity
  apply List.sum_nonneg
  intro x hx
  obtain ⟨o, _, rfl⟩ := List.mem_map.1 hx
  have := Real.pi_pos
  positivity

/-- specification: the orbitals are normalised -/
def Normalised (orbs : List (ℕ × List Fn)) (kappa : ℝ) : Prop :=
  ∀ o ∈ orbs, Valid o.2 (kappa * (0.529177 / 0.52918)) ∧ ∫ r in Ioi (0:ℝ), r ^ 2 * rhoNormalized r o.2 kappa ^ 2 = 1

/-- C102: the electron density integrates over space to the number of electrons of the core. -/
theorem electrons {orbs : List (ℕ × List Fn)} {kappa : ℝ} (h : Normalised orbs kappa) :
    ∫ r in Ioi (0:ℝ), 4 * Real.pi * r ^ 2 * electronDensity r orbs kappa = (orbs.map fun o => (o.1 : ℝ)).sum := by
  have hI : ∀ o ∈ orbs, IntegrableOn (fun r : ℝ => r ^ 2 * rhoNormalized r o.2 kappa ^ 2) (Ioi 0) := by
    intro o ho
    simp only [density_other_radius]
    exact (density_integral (h o ho).1).1
  have e : ∀ r : ℝ, 4 * Real.pi * r ^ 2 * electronDensity r orbs kappa = (orbs.map fun o => (o.1 : ℝ) * (r ^ 2 * rhoNormalized r o.2 kappa ^ 2)).sum := by
    intro r
    unfold electronDensity
    rw [← sum_mul_left]
    congr 1
    refine List.map_congr_left fun o _ => ?_
    have := Real.pi_ne_zero
    field_simp
  simp only [e]
  rw [(integral_sum orbs (fun (o : ℕ × List Fn) (r : ℝ) => (o.1 : ℝ) * (r ^ 2 * rhoNormalized r o.2 kappa ^ 2)) fun o ho => (hI o ho).const_mul _).2]
  congr 1
  refine List.map_congr_left fun o ho => ?_
  rw [integral_const_mul, (h o ho).2, mul_one]

/-- C102: `kappa` contracts the atom: the density at `r` is that of the free atom at `kappa·r`, `kappa³` times as large. -/
theorem contraction {orbs : List (ℕ × List Fn)} {kappa r : ℝ} (hk : 0 < kappa) (h : ∀ o ∈ orbs, ∀ f ∈ o.2, 1 ≤ f.n ∧ 0 ≤ f.zeta) :
    electronDensity r orbs kappa = kappa ^ 3 * electronDensity (kappa * r) orbs 1 := by
  have key : ∀ o ∈ orbs, rhoNormalized r o.2 kappa = kappa ^ (3 / 2 : ℝ) * rhoNormalized (kappa * r) o.2 1 := by
    intro o ho
    unfold rhoNormalized
    rw [← sum_mul_left]
    congr 1
    refine List.map_congr_left fun f hf => ?_
    obtain ⟨hn, hz⟩ := h o ho f hf
    dsimp only
    have e1 : Slater.norm (kappa * f.zeta / 0.52918) f.n = kappa ^ ((f.n : ℝ) + 0.5) * Slater.norm (1 * f.zeta / 0.52918) f.n := by
      unfold Slater.norm
      rw [show 2 * (kappa * f.zeta / 0.52918) = kappa * (2 * (1 * f.zeta / 0.52918)) by ring, Real.mul_rpow hk.le (by positivity)]
      ring
    have e2 : kappa ^ ((f.n : ℝ) + 0.5) = kappa ^ (3 / 2 : ℝ) * kappa ^ (f.n - 1) := by
      rw [← Real.rpow_natCast, ← Real.rpow_add hk]
      congr 1
      push_cast [hn]
      ring
    have e3 : -(kappa * f.zeta / 0.52918) * r = -(1 * f.zeta / 0.52918) * (kappa * r) := by ring
    rw [e1, e2, e3, mul_pow]
    ring
  unfold electronDensity
  rw [← sum_mul_left]
  congr 1
  refine List.map_congr_left fun o ho => ?_
  have hp : (kappa ^ (3 / 2 : ℝ)) ^ 2 = kappa ^ 3 := by
    rw [← Real.rpow_natCast, ← Real.rpow_mul hk.le, ← Real.rpow_natCast]
    congr 1
    norm_num
  rw [key o ho, mul_pow, hp]
  ring

/-! ## The prior -/

variable {n m : ℕ}

theorem fill_spec (G : MemIt.Grid n m) (dist : Fin m → ℝ) (d : List (String × List (ℕ × List Fn))) (kap : List (String × ℝ)) (para : List String) :
    ∀ (v u : Fin m → ℝ), fill G dist d kap para v = some u →
      (∀ l ∈ para, ∃ orbs k, lookup d l = some orbs ∧ kappaOf kap l = some k ∧ ∀ j, G.label j = l → u j = spherical (dist j) orbs k) ∧
      ∀ j, G.label j ∉ para → u j = v j := by
  induction para with
  | nil =>
    intro v u h
    rw [fill] at h
    cases h
    exact ⟨fun l hl => by simp at hl, fun j _ => rfl⟩
  | cons a para ih =>
    intro v u h
    rw [fill] at h
    cases ho : lookup d a with
    | none => rw [ho] at h; cases h
    | some orbs =>
      cases hk : kappaOf kap a with
      | none => rw [ho, hk] at h; cases h
      | some k =>
        rw [ho, hk] at h
        obtain ⟨h1, h2⟩ := ih _ _ h
        constructor
        · intro l hl
          rcases List.mem_cons.1 hl with rfl | hl
          · refine ⟨orbs, k, ho, hk, fun j hj => ?_⟩
            by_cases hp : l ∈ para
            · obtain ⟨o', k', e1, e2, e3⟩ := h1 l hp
              rw [ho] at e1
              rw [hk] at e2
              cases e1
              cases e2
              exact e3 j hj
            · rw [h2 j (by rw [hj]; exact hp), if_pos hj]
          · exact h1 l hl
        · intro j hj
          rw [List.mem_cons, not_or] at hj
          rw [h2 j hj.2, if_neg hj.1]

/-- C102: with a configuration and one kappa for every paramagnetic atom there is no exception. -/
theorem prior_defined (G : MemIt.Grid n m) (dist : Fin m → ℝ) (d : List (String × List (ℕ × List Fn))) (kap : List (String × ℝ)) (para : List String)
    (h : ∀ l ∈ para, (lookup d l).isSome ∧ ∃ k, kap.filter (fun e => decide (e.1 = l)) = [(l, k)]) : (prior G dist d kap para).isSome := by
  have key : ∀ (v : Fin m → ℝ), (fill G dist d kap para v).isSome := by
    induction para with
    | nil => intro v; rfl
    | cons a para ih =>
      intro v
      obtain ⟨h1, k, h2⟩ := h a (by simp)
      obtain ⟨o, ho⟩ := Option.isSome_iff_exists.1 h1
      have hk : kappaOf kap a = some k := by unfold kappaOf; rw [h2]
      rw [fill, ho, hk]
      exact ih (fun l hl => h l (by simp [hl])) _
  unfold prior
  rw [Option.isSome_map]
  exact key _

/-- C102: the prior in the basin of an atom is its electron density up to one factor, nowhere negative, and holds as many electrons as there are such atoms
in the cell. -/
theorem prior_spec {G : MemIt.Grid n m} (hG : G.Good) {dist : Fin m → ℝ} {d : List (String × List (ℕ × List Fn))} {kap : List (String × ℝ)}
    {para : List String} {w : Fin m → ℝ} (h : prior G dist d kap para = some (some w)) :
    (∀ j, 0 ≤ w j) ∧
    (∀ (a : String) (M : ℝ), (∃ j, G.label j = a) → (∀ j, G.label j = a → G.amult j = M) →
      ∑ j, (if G.label j = a then G.volume / G.points * G.multChi j * w j else 0) = M) ∧
    ∀ l ∈ para, ∃ orbs k, lookup d l = some orbs ∧ kappaOf kap l = some k ∧
      ∃ c > 0, ∀ j, G.label j = l → w j = c * electronDensity (dist j) orbs k := by
  unfold prior at h
  obtain ⟨u, hu, hw⟩ := Option.map_eq_some_iff.1 h
  obtain ⟨h1, h2⟩ := fill_spec G dist d kap para _ _ hu
  have hpi := Real.pi_pos
  have hnn : ∀ j, 0 ≤ u j := by
    intro j
    by_cases hj : G.label j ∈ para
    · obtain ⟨orbs, k, -, -, e⟩ := h1 _ hj
      rw [e j rfl, spherical_eq]
      exact mul_nonneg (by positivity) (electronDensity_nonneg _ _ _)
    · rw [h2 j hj]
  obtain ⟨a, b⟩ := MemIt.renormChi_spec hG hnn hw
  refine ⟨a, b, ?_⟩
  intro l hl
  obtain ⟨orbs, k, e1, e2, e3⟩ := h1 l hl
  refine ⟨orbs, k, e1, e2, ?_⟩
  unfold MemIt.renormChi at hw
  split_ifs at hw with h0
  cases hw
  by_cases hx : ∃ j, G.label j = l
  · obtain ⟨j0, hj0⟩ := hx
    have ht : 0 < MemIt.atomTotal G u l := lt_of_le_of_ne (MemIt.atomTotal_nonneg hG hnn l) fun e => h0 ⟨j0, by rw [hj0, ← e]⟩
    have := hG.points
    have := hG.volume
    refine ⟨16 * Real.pi ^ 2 * (G.points / G.volume / MemIt.atomTotal G u l), by positivity, fun j hj => ?_⟩
    show u j * _ = _
    rw [e3 j hj, spherical_eq, hj]
    ring
  · exact ⟨1, one_pos, fun j hj => absurd ⟨j, hj⟩ hx⟩

/-- C102, known failures: a paramagnetic atom without core electrons in its configuration, or with two values of kappa or none, ends the
reconstruction with an exception. -/
theorem prior_failures (G : MemIt.Grid n m) (dist : Fin m → ℝ) (kap : List (String × ℝ)) (para : List String) (l : String) (hl : l ∈ para)
    (d : List (String × List (ℕ × List Fn))) (h : lookup d l = none ∨ (kap.filter fun e => decide (e.1 = l)).length ≠ 1) :
    prior G dist d kap para = none := by
  cases hp : prior G dist d kap para with
  | none => rfl
  | some w =>
    exfalso
    unfold prior at hp
    obtain ⟨u, hu, -⟩ := Option.map_eq_some_iff.1 hp
    obtain ⟨orbs, k, e1, e2, -⟩ := (fill_spec G dist d kap para _ _ hu).1 l hl
    rcases h with h | h
    · rw [h] at e1; cases e1
    · unfold kappaOf at e2
      split at e2
      · rename_i e he; rw [he] at h; exact h rfl
      · cases e2

/-- the entries of the dictionary are those of the configurations read: the shells of the text with the functions of the data base -/
theorem lookup_setup {confs : List Conf} {d : List (String × List (ℕ × List Fn))} (h : setup confs = some d) {c : Conf} (hc : c ∈ confs)
    (hu : ∀ c' ∈ confs, c'.label = c.label → c' = c) :
    ∃ o, orbitals c = some o ∧ lookup d c.label = if o = [] then none else some o := by
  unfold setup at h
  obtain ⟨l, hl, rfl⟩ := Option.map_eq_some_iff.1 h
  have key : ∀ (cs : List Conf) (l : List (String × List (ℕ × List Fn))), cs.mapM (fun c => (orbitals c).map fun o => (c.label, o)) = some l →
      (∀ c ∈ cs, ∃ o, orbitals c = some o ∧ (c.label, o) ∈ l) ∧ ∀ e ∈ l, ∃ c ∈ cs, orbitals c = some e.2 ∧ e.1 = c.label := by
    intro cs
    induction cs with
    | nil =>
      intro l hl
      rw [List.mapM_nil] at hl
      cases hl
      exact ⟨fun c hc => by simp at hc, fun e he => by simp at he⟩
    | cons a cs ih =>
      intro l hl
      rw [List.mapM_cons] at hl
      cases ha : orbitals a with
      | none => rw [ha] at hl; cases hl
      | some o =>
        rw [ha] at hl
        cases hr : cs.mapM (fun c => (orbitals c).map fun o => (c.label, o)) with
        | none => rw [hr] at hl; cases hl
        | some r =>
          rw [hr] at hl
          cases hl
          obtain ⟨i1, i2⟩ := ih r hr
          constructor
          · intro c hc
            rcases List.mem_cons.1 hc with rfl | hc
            · exact ⟨o, ha, by simp⟩
            · obtain ⟨o', e1, e2⟩ := i1 c hc
              exact ⟨o', e1, List.mem_cons_of_mem _ e2⟩
          · intro e he
            rcases List.mem_cons.1 he with rfl | he
            · exact ⟨a, by simp, ha, rfl⟩
            · obtain ⟨c, hc, e1⟩ := i2 e he
              exact ⟨c, List.mem_cons_of_mem _ hc, e1⟩
  obtain ⟨k1, k2⟩ := key confs l hl
  obtain ⟨o, ho, hm⟩ := k1 c hc
  refine ⟨o, ho, ?_⟩
  have all : ∀ e ∈ l, e.1 = c.label → e.2 = o := by
    intro e he hel
    obtain ⟨c', hc', e1, e2⟩ := k2 e he
    rw [hu c' hc' (by rw [← e2, hel]), ho] at e1
    exact (Option.some.inj e1).symm
  unfold lookup
  split_ifs with h0
  · rw [Option.map_eq_none_iff, List.find?_eq_none]
    intro e he
    rw [List.mem_reverse, List.mem_filter] at he
    intro hel
    have := all e he.1 (by simpa using hel)
    rw [this, h0] at he
    simp at he
  · cases hf : (l.filter fun e => !e.2.isEmpty).reverse.find? fun e => decide (e.1 = c.label) with
    | none =>
      rw [List.find?_eq_none] at hf
      exfalso
      refine hf (c.label, o) ?_ (decide_eq_true rfl)
      rw [List.mem_reverse, List.mem_filter]
      refine ⟨hm, ?_⟩
      cases o with
      | nil => exact absurd rfl h0
      | cons a o => rfl
    | some e =>
      have h1 := List.find?_some hf
      have h2 := List.mem_of_find?_eq_some hf
      rw [List.mem_reverse, List.mem_filter] at h2
      rw [Option.map_some, all e h2.1 (by simpa using h1)]

/-! ## An example -/

/-- cobalt: the shells of its core, as in the documentation -/
theorem example_read : coreShells (some "1s2 2s2 2p6 3s2 3p6".toList) =
    some [("1s".toList, 2), ("2s".toList, 2), ("2p".toList, 6), ("3s".toList, 2), ("3p".toList, 6)] ∧
    valenceShells (some "2s 2p".toList) = ["2s".toList, "2p".toList] := by
  decide +kernel

/-- helium-like core: normalised, and the prior of a grid of one point holds the one atom -/
theorem example_prior : Normalised [(2, [⟨1, 1, 27 / 16⟩])] 1 ∧
    setup [⟨"Co", some "1s2".toList, fun s => if s = "1s".toList then some [⟨1, 1, 27 / 16⟩] else none⟩] = some [("Co", [(2, [⟨1, 1, 27 / 16⟩])])] ∧
    prior (n := 0) (m := 1) ⟨fun _ => 1, fun _ => 1, fun _ => "Co", fun _ => 1, 1, 1, 0⟩ (fun _ => 0) [("Co", [(2, [⟨1, 1, 27 / 16⟩])])] [("Co", 1)] ["Co"] =
      some (some fun _ => 1) := by
  refine ⟨?_, ?_, ?_⟩
  · intro o ho
    obtain rfl := List.mem_singleton.1 ho
    have hk : (0:ℝ) < 1 * (0.529177 / 0.52918) := by norm_num
    have hv : Valid [⟨1, 1, 27 / 16⟩] (1 * (0.529177 / 0.52918)) := by
      intro f hf
      obtain rfl := List.mem_singleton.1 hf
      exact ⟨le_refl _, by unfold zetaAng; positivity⟩
    refine ⟨hv, ?_⟩
    have h1 := jl_single (n := 1) (zeta := 27 / 16) (le_refl _) (by norm_num) hk 5
    rw [jl_forward hv (by omega) (fun f hf => by obtain rfl := List.mem_singleton.1 hf; simp), if_pos rfl] at h1
    simp only [density_other_radius]
    exact Option.some.inj h1
  · have hc : coreShells (some "1s2".toList) = some [("1s".toList, 2)] := by decide +kernel
    simp only [setup, orbitals, List.mapM_cons, List.mapM_nil, hc]
    rfl
  · have hl : lookup [("Co", [(2, [(⟨1, 1, 27 / 16⟩ : Fn)])])] "Co" = some [(2, [⟨1, 1, 27 / 16⟩])] := by simp [lookup]
    have hk : kappaOf [("Co", 1)] "Co" = some 1 := by simp [kappaOf]
    have hp : 0 < spherical 0 [(2, [⟨1, 1, 27 / 16⟩])] 1 := by
      have : 0 < Slater.norm (27 / 16 / 0.52918) 1 := by unfold Slater.norm; positivity
      have := Real.pi_pos
      simp only [spherical, rhoNormalized, List.map_cons, List.map_nil, List.sum_cons, List.sum_nil, add_zero, Nat.sub_self, pow_zero, mul_zero, Real.exp_zero,
        mul_one, one_mul]
      positivity
    simp only [prior, fill, hl, hk]
    show Option.map _ (some _) = _
    rw [Option.map_some]
    unfold MemIt.renormChi MemIt.atomTotal
    simp only [Finset.univ_unique, Finset.sum_singleton, if_true, mul_one, div_one, exists_const]
    rw [if_neg hp.ne']
    congr 2
    funext j
    field_simp

end Cryspy.Core
