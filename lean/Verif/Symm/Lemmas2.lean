import Verif.Symm.Lemmas
import Mathlib.Data.Nat.Prime.Basic
import Mathlib.Data.Nat.GCD.Basic
import Mathlib.Tactic.FinCases
import Mathlib.Tactic.IntervalCases
import Mathlib.Data.Fintype.Card
import Mathlib.Data.Nat.Factorization.Basic

namespace Cryspy.Symm

/-! ### Orbit and stabiliser -/

open Classical in
/-- Counting over a list as a cardinality over indices. -/
theorem countP_eq_card (G : List Elem) (P : Elem → Bool) :
    G.countP P = (Finset.univ.filter fun i : Fin G.length => P G[i] = true).card := by
  have h : G.countP P = ((List.finRange G.length).countP fun i => P G[i]) := by
    conv_lhs => rw [← List.map_getElem_finRange (l := G)]
    rw [List.countP_map]; rfl
  rw [h, List.countP_eq_length_filter, ← List.toFinset_card_of_nodup ((List.nodup_finRange _).filter _)]
  congr 1
  ext i; simp

theorem countP_le_of_mul {G : List Elem} (hG : IsGroup G) (hN : G.Pairwise fun a b => ¬ SameOp a b)
    {P Q : Elem → Bool} {h : Elem} (hh : h ∈ G)
    (hPQ : ∀ e ∈ G, ∀ c ∈ G, IsProd h e c → P e = true → Q c = true) : G.countP P ≤ G.countP Q := by
  classical
  rw [countP_eq_card, countP_eq_card]
  have hex : ∀ i : Fin G.length, ∃ j : Fin G.length, IsProd h G[i] G[j] := by
    intro i
    obtain ⟨c, hc, hm⟩ := hG.mul h hh G[i] (List.getElem_mem _)
    obtain ⟨j, hj, rfl⟩ := List.getElem_of_mem hc
    exact ⟨⟨j, hj⟩, hm⟩
  choose f hf using hex
  apply Finset.card_le_card_of_injOn f
  · intro i hi
    simp only [Finset.coe_filter, Finset.mem_univ, true_and, Set.mem_ofPred_eq] at hi ⊢
    exact hPQ _ (List.getElem_mem _) _ (List.getElem_mem _) (hf i) hi
  · intro i _ j _ hij
    obtain ⟨b, hb, hinv⟩ := hG.inv h hh
    have hs : SameOp G[i] G[j] := by
      intro x
      have h1 : Lat (act h (act G[i] x)) (act h (act G[j] x)) := by
        have h2 := hf j x
        rw [← hij] at h2
        exact (hf i x).symm.trans h2
      exact (hinv _).symm.trans ((h1.act b).trans (hinv _))
    have hs' : SameOp G[j] G[i] := fun x => (hs x).symm
    rw [List.pairwise_iff_getElem] at hN
    rcases lt_trichotomy i.1 j.1 with hlt | heq | hlt
    · exact absurd hs (hN i.1 j.1 i.2 j.2 hlt)
    · exact Fin.ext heq
    · exact absurd hs' (hN j.1 i.1 j.2 i.2 hlt)

theorem symmFlag_iff {e : Elem} {x : Shift} (he : 0 < e.bd) (hx : 0 < x.d) :
    symmFlag e x = true ↔ Lat (act e x.val) x.val := by
  have hb : (e.bd : ℚ) ≠ 0 := by exact_mod_cast he.ne'
  have hd : (x.d : ℚ) ≠ 0 := by exact_mod_cast hx.ne'
  have hbd : e.bd * x.d ≠ 0 := (Int.mul_pos he hx).ne'
  set rse : M3 := fun i j => if i = j then e.r i j - 1 else e.r i j with hrse
  set p1 : V3 := fun k => e.bd * (rse k 0 * x.n 0 + rse k 1 * x.n 1 + rse k 2 * x.n 2) + x.d * e.bn k with hp1
  have hk : ∀ k, act e x.val k - x.val k = (p1 k : ℚ) / (e.bd * x.d) := by
    intro k
    simp only [act, Shift.val, Fin.sum_univ_three, hp1, hrse]
    fin_cases k <;> simp <;> field_simp <;> ring
  have hone : ∀ k, (p1 k % (e.bd * x.d) = 0 ↔ ∃ z : ℤ, act e x.val k - x.val k = z) := by
    intro k
    rw [hk k]
    constructor
    · intro h
      obtain ⟨z, hz⟩ := Int.dvd_of_emod_eq_zero h
      refine ⟨z, ?_⟩
      rw [hz]; push_cast; field_simp
    · rintro ⟨z, hz⟩
      apply Int.emod_eq_zero_of_dvd
      refine ⟨z, ?_⟩
      rw [div_eq_iff (by positivity)] at hz
      have : (p1 k : ℚ) = ((e.bd * x.d * z : ℤ) : ℚ) := by rw [hz]; push_cast; ring
      exact_mod_cast this
  have : symmFlag e x = (decide (p1 0 % (e.bd * x.d) = 0) && (decide (p1 1 % (e.bd * x.d) = 0) &&
    decide (p1 2 % (e.bd * x.d) = 0))) := rfl
  rw [this, Bool.and_eq_true, Bool.and_eq_true, decide_eq_true_iff, decide_eq_true_iff, decide_eq_true_iff,
    hone, hone, hone]
  constructor
  · rintro ⟨h0, h1, h2⟩ k
    fin_cases k
    exacts [h0, h1, h2]
  · intro h; exact ⟨h 0, h 1, h 2⟩

open Classical in
theorem sum_countP_partition (R : Elem → Q3 → Bool) (l : List Q3) : ∀ G : List Elem,
    (∀ e ∈ G, l.countP (R e) = 1) → (l.map fun y => G.countP (R · y)).sum = G.length
  | [], _ => by simp
  | e :: G, h => by
    have ih := sum_countP_partition R l G (fun e' he' => h e' (List.mem_cons_of_mem _ he'))
    have h1 := h e List.mem_cons_self
    have hs : ∀ l' : List Q3, (l'.map fun y => (e :: G).countP (R · y)).sum
        = (l'.map fun y => G.countP (R · y)).sum + l'.countP (R e) := by
      intro l'
      induction l' with
      | nil => simp
      | cons y l' ih2 =>
        simp only [List.map_cons, List.sum_cons, ih2]
        by_cases hy : R e y = true
        · rw [List.countP_cons_of_pos (l := G) hy, List.countP_cons_of_pos (l := l') hy]; omega
        · rw [List.countP_cons_of_neg (l := G) hy, List.countP_cons_of_neg (l := l') hy]; omega
    rw [hs, ih, h1, List.length_cons]

theorem countP_one_of_unique (l : List Q3) (P : Q3 → Bool) (hd : l.Pairwise (fun y z => ¬ (P y = true ∧ P z = true)))
    (hex : ∃ y ∈ l, P y = true) : l.countP P = 1 := by
  induction l with
  | nil => simp at hex
  | cons a l ih =>
    rw [List.pairwise_cons] at hd
    by_cases ha : P a = true
    · rw [List.countP_cons_of_pos ha]
      have : l.countP P = 0 := List.countP_eq_zero.mpr fun y hy hP => hd.1 y hy ⟨ha, hP⟩
      omega
    · rw [List.countP_cons_of_neg ha]
      obtain ⟨y, hy, hP⟩ := hex
      rcases List.mem_cons.mp hy with rfl | hy
      · exact absurd hP ha
      · exact ih hd.2 ⟨y, hy, hP⟩

theorem orbit_stabiliser {G : List Elem} (hG : IsGroup G) (hN : G.Pairwise fun a b => ¬ SameOp a b)
    (hd : ∀ e ∈ G, 0 < e.bd) {x : Shift} (hx : 0 < x.d) {l : List Q3} (hl : IsOrbitList G x.val l) :
    l.length * G.countP (symmFlag · x) = G.length ∧ 0 < G.countP (symmFlag · x) := by
  classical
  have hfib : ∀ y ∈ l, G.countP (fun e => decide (Lat (act e x.val) y)) = G.countP (symmFlag · x) := by
    intro y hy
    obtain ⟨g, hg, hgy⟩ := hl.onlyImages y hy
    apply le_antisymm
    · obtain ⟨b, hb, hinv⟩ := hG.inv g hg
      apply countP_le_of_mul hG hN hb
      intro e he c hc hprod hP
      rw [decide_eq_true_iff] at hP
      rw [symmFlag_iff (hd c hc) hx]
      exact (hprod _).trans (((hP.trans hgy.symm).act b).trans (hinv _))
    · apply countP_le_of_mul hG hN hg
      intro e he c hc hprod hP
      rw [decide_eq_true_iff]
      rw [symmFlag_iff (hd e he) hx] at hP
      exact (hprod _).trans ((hP.act g).trans hgy)
  have hsum := sum_countP_partition (fun e y => decide (Lat (act e x.val) y)) l G (by
    intro e he
    apply countP_one_of_unique
    · apply hl.distinct.imp
      rintro y z hyz ⟨h1, h2⟩
      rw [decide_eq_true_iff] at h1 h2
      exact hyz (h1.symm.trans h2)
    · obtain ⟨y, hy, h⟩ := hl.covers e he
      exact ⟨y, hy, by simpa using h⟩)
  constructor
  · rw [← hsum, List.map_congr_left (g := fun _ => G.countP (symmFlag · x)) hfib]
    simp
  · rw [List.countP_pos_iff]
    obtain ⟨e, he, h⟩ := hG.one
    exact ⟨e, he, (symmFlag_iff (hd e he) hx).mpr (h _)⟩

/-! ### Rational sums -/

theorem sumB_lat (b1 b2 : Shift) (h1 : 0 < b1.d) (h2 : 0 < b2.d) :
    Lat (sumB b1 b2).val (fun k => b1.val k + b2.val k) ∧ Canonical (sumB b1 b2) := by
  set dc : ℤ := ((Int.lcm b1.d b2.d : ℕ) : ℤ) with hdc
  have hdc0 : 0 < dc := by
    rw [hdc]; exact_mod_cast Int.lcm_pos h1.ne' h2.ne'
  obtain ⟨c1, hc1⟩ : b1.d ∣ dc := Int.dvd_lcm_left _ _
  obtain ⟨c2, hc2⟩ : b2.d ∣ dc := Int.dvd_lcm_right _ _
  set s : V3 := fun k => (b1.n k * (dc / b1.d) + b2.n k * (dc / b2.d)) % dc with hs
  set g : ℤ := ((Int.gcd (Int.gcd (Int.gcd (s 0) (s 1)) (s 2)) dc : ℕ) : ℤ) with hg
  have heq : sumB b1 b2 = ⟨fun k => s k / g, dc / g⟩ := rfl
  have hg0 : 0 < g := by
    rw [hg]; exact_mod_cast Int.gcd_pos_of_ne_zero_right _ hdc0.ne'
  have hgd : g ∣ dc := Int.gcd_dvd_right _ _
  have hg3 : g ∣ (Int.gcd (Int.gcd (s 0) (s 1)) (s 2) : ℤ) := Int.gcd_dvd_left _ _
  have hgs : ∀ k, g ∣ s k := by
    intro k
    fin_cases k
    · exact hg3.trans ((Int.gcd_dvd_left _ _).trans (Int.gcd_dvd_left _ _))
    · exact hg3.trans ((Int.gcd_dvd_left _ _).trans (Int.gcd_dvd_right _ _))
    · exact hg3.trans (Int.gcd_dvd_right _ _)
  obtain ⟨dq, hdq⟩ := hgd
  have hgQ : (g : ℚ) ≠ 0 := by exact_mod_cast hg0.ne'
  have hdcQ : (dc : ℚ) ≠ 0 := by exact_mod_cast hdc0.ne'
  have hb1 : (b1.d : ℚ) ≠ 0 := by exact_mod_cast h1.ne'
  have hb2 : (b2.d : ℚ) ≠ 0 := by exact_mod_cast h2.ne'
  have hdq' : dc / g = dq := by rw [hdq]; exact Int.mul_ediv_cancel_left _ hg0.ne'
  have hdq0 : 0 < dq := by
    by_contra hc
    have : g * dq ≤ 0 := Int.mul_nonpos_of_nonneg_of_nonpos hg0.le (not_lt.mp hc)
    omega
  have hc1' : dc / b1.d = c1 := by rw [hc1]; exact Int.mul_ediv_cancel_left _ h1.ne'
  have hc2' : dc / b2.d = c2 := by rw [hc2]; exact Int.mul_ediv_cancel_left _ h2.ne'
  constructor
  · intro k
    set S := b1.n k * c1 + b2.n k * c2 with hS
    refine ⟨-(S / dc), ?_⟩
    obtain ⟨t, ht⟩ := hgs k
    have hsk : s k = S - dc * (S / dc) := by
      have := Int.emod_add_mul_ediv S dc
      simp only [hs, hc1', hc2', ← hS]; linarith
    have hval : (sumB b1 b2).val k = (s k : ℚ) / dc := by
      rw [heq]; simp only [Shift.val, hdq']
      rw [show s k / g = t by rw [ht]; exact Int.mul_ediv_cancel_left _ hg0.ne', ht, hdq]
      push_cast
      have : (dq : ℚ) ≠ 0 := by exact_mod_cast hdq0.ne'
      field_simp
    have hv : b1.val k + b2.val k = (S : ℚ) / dc := by
      have e1 : (dc : ℚ) = b1.d * c1 := by exact_mod_cast hc1
      have e2 : (dc : ℚ) = b2.d * c2 := by exact_mod_cast hc2
      simp only [Shift.val, hS]
      push_cast
      rw [eq_div_iff hdcQ, add_mul]
      nth_rewrite 1 [e1]; rw [e2]
      field_simp
    rw [hval]
    change _ - (b1.val k + b2.val k) = _
    rw [hv, hsk]
    push_cast
    field_simp
    ring
  · have hlow : Int.gcd (Int.gcd (Int.gcd (s 0 / g) (s 1 / g)) (s 2 / g)) (dc / g) = 1 := by
      obtain ⟨t0, ht0⟩ := hgs 0
      obtain ⟨t1, ht1⟩ := hgs 1
      obtain ⟨t2, ht2⟩ := hgs 2
      have q0 : s 0 / g = t0 := by rw [ht0]; exact Int.mul_ediv_cancel_left _ hg0.ne'
      have q1 : s 1 / g = t1 := by rw [ht1]; exact Int.mul_ediv_cancel_left _ hg0.ne'
      have q2 : s 2 / g = t2 := by rw [ht2]; exact Int.mul_ediv_cancel_left _ hg0.ne'
      rw [q0, q1, q2, hdq']
      set u := Int.gcd (Int.gcd (Int.gcd t0 t1) t2) dq with hu
      have hu3 : (u : ℤ) ∣ (Int.gcd (Int.gcd t0 t1) t2 : ℤ) := Int.gcd_dvd_left _ _
      have hu2 : (u : ℤ) ∣ (Int.gcd t0 t1 : ℤ) := hu3.trans (Int.gcd_dvd_left _ _)
      have k0 : g * u ∣ s 0 := by rw [ht0]; exact mul_dvd_mul_left _ (hu2.trans (Int.gcd_dvd_left _ _))
      have k1 : g * u ∣ s 1 := by rw [ht1]; exact mul_dvd_mul_left _ (hu2.trans (Int.gcd_dvd_right _ _))
      have k2 : g * u ∣ s 2 := by rw [ht2]; exact mul_dvd_mul_left _ (hu3.trans (Int.gcd_dvd_right _ _))
      have k3 : g * u ∣ dc := by rw [hdq]; exact mul_dvd_mul_left _ (Int.gcd_dvd_right _ _)
      have hdv : g * u ∣ g := by
        rw [hg]; exact Int.dvd_coe_gcd (Int.dvd_coe_gcd (Int.dvd_coe_gcd k0 k1) k2) k3
      obtain ⟨w, hw⟩ := hdv
      have h1w : g * (u * w) = g * 1 := by linarith
      have := Int.eq_of_mul_eq_mul_left hg0.ne' h1w
      have hu1 := Int.isUnit_iff.mp (IsUnit.of_mul_eq_one _ this)
      omega
    refine ⟨?_, ?_, ?_⟩
    · rw [heq]; simp only; omega
    · intro k
      rw [heq]
      obtain ⟨t, ht⟩ := hgs k
      have hr0 : 0 ≤ s k := Int.emod_nonneg _ hdc0.ne'
      have hr1 : s k < dc := Int.emod_lt_of_pos _ hdc0
      simp only [hdq', show s k / g = t by rw [ht]; exact Int.mul_ediv_cancel_left _ hg0.ne']
      rw [ht] at hr0 hr1
      rw [hdq] at hr1
      exact ⟨nonneg_of_mul_nonneg_right hr0 hg0, lt_of_mul_lt_mul_left hr1 hg0.le⟩
    · rw [heq]; exact hlow

theorem foldl_lcm (l : List (ℤ × ℤ)) : ∀ a : ℤ, 0 < a → (∀ p ∈ l, 0 < p.2) →
    0 < l.foldl (fun a p => (Int.lcm a p.2 : ℤ)) a ∧ a ∣ l.foldl (fun a p => (Int.lcm a p.2 : ℤ)) a ∧
      ∀ p ∈ l, p.2 ∣ l.foldl (fun a p => (Int.lcm a p.2 : ℤ)) a := by
  induction l with
  | nil => intro a ha _; simpa using ha
  | cons q l ih =>
    intro a ha h
    have hq := h q List.mem_cons_self
    obtain ⟨i1, i2, i3⟩ := ih (Int.lcm a q.2 : ℤ) (by exact_mod_cast Int.lcm_pos ha.ne' hq.ne')
      (fun p hp => h p (List.mem_cons_of_mem _ hp))
    simp only [List.foldl_cons]
    refine ⟨i1, (Int.dvd_lcm_left _ _).trans i2, ?_⟩
    intro p hp
    rcases List.mem_cons.mp hp with rfl | hp
    · exact (Int.dvd_lcm_right _ _).trans i2
    · exact i3 p hp

theorem commonDenominator_spec (l : List (ℤ × ℤ)) (h : ∀ p ∈ l, 0 < p.2) :
    0 < (commonDenominator l).2 ∧
    (commonDenominator l).1.map (fun x : ℤ => (x : ℚ) / (commonDenominator l).2)
      = l.map fun p => (p.1 : ℚ) / p.2 := by
  obtain ⟨h0, _, hd⟩ := foldl_lcm l 1 one_pos h
  refine ⟨h0, ?_⟩
  simp only [commonDenominator, List.map_map]
  apply List.map_congr_left
  intro p hp
  obtain ⟨c, hc⟩ := hd p hp
  have hp2 := h p hp
  have hp2Q : (p.2 : ℚ) ≠ 0 := by exact_mod_cast hp2.ne'
  set D := l.foldl (fun a p => (Int.lcm a p.2 : ℤ)) 1
  have hc0 : (c : ℚ) ≠ 0 := by
    rintro h'; have : c = 0 := by exact_mod_cast h'
    rw [this, mul_zero] at hc; omega
  simp only [Function.comp_apply]
  rw [show D / p.2 = c by rw [hc]; exact Int.mul_ediv_cancel_left _ hp2.ne', hc]
  push_cast
  field_simp

theorem sum_div (l : List ℤ) (d : ℚ) : (l.map fun x : ℤ => (x : ℚ) / d).sum = ((l.sum : ℤ) : ℚ) / d := by
  induction l with
  | nil => simp
  | cons a l ih => simp only [List.map_cons, List.sum_cons, ih]; push_cast; ring

/-- When the divided-out number divides all four entries, `sum_elem_symm_b` is exact. -/
theorem sumElemSymmB_exact (b1 b2 : Shift) (h1 : 0 < b1.d) (h2 : 0 < b2.d)
    (hg : ∀ k l, (Int.gcd (b1.n k * b2.d + b2.n k * b1.d) (b1.d * b2.d))
      ∣ (Int.gcd (b1.n l * b2.d + b2.n l * b1.d) (b1.d * b2.d)) ∨
      (Int.gcd (b1.n l * b2.d + b2.n l * b1.d) (b1.d * b2.d))
      ∣ (Int.gcd (b1.n k * b2.d + b2.n k * b1.d) (b1.d * b2.d))) :
    0 < (sumElemSymmB b1 b2).d ∧ (sumElemSymmB b1 b2).val = fun k => b1.val k + b2.val k := by
  set num : V3 := fun k => b1.n k * b2.d + b2.n k * b1.d with hnum
  set den : ℤ := b1.d * b2.d with hden
  have hden0 : 0 < den := Int.mul_pos h1 h2
  set gk : Fin 3 → ℕ := fun k => Int.gcd (num k) den with hgk
  have hgk0 : ∀ k, 0 < gk k := fun k => Int.gcd_pos_of_ne_zero_right _ hden0.ne'
  set g : ℤ := min (min (gk 0 : ℤ) (gk 1)) (gk 2) with hgdef
  have heq : sumElemSymmB b1 b2 = ⟨fun k => num k / g, den / g⟩ := rfl
  have hdvd : ∀ k l, gk k ≤ gk l → gk k ∣ gk l := by
    intro k l hle
    rcases hg k l with h | h
    · exact h
    · have h' : gk l ∣ gk k := h
      have := Nat.le_of_dvd (hgk0 k) h'
      have : gk k = gk l := le_antisymm hle this
      rw [this]
  obtain ⟨m, hm, hmin⟩ : ∃ m, g = gk m ∧ ∀ k, gk m ≤ gk k := by
    rcases min_choice (min (gk 0 : ℤ) (gk 1)) (gk 2) with h | h
    · rcases min_choice (gk 0 : ℤ) (gk 1) with h' | h'
      · refine ⟨0, by omega, ?_⟩
        intro k; fin_cases k <;> simp <;> omega
      · refine ⟨1, by omega, ?_⟩
        intro k; fin_cases k <;> simp <;> omega
    · refine ⟨2, by omega, ?_⟩
      intro k; fin_cases k <;> simp <;> omega
  have hg0 : 0 < g := by rw [hm]; exact_mod_cast hgk0 m
  have hgn : ∀ k, g ∣ num k := fun k => by
    rw [hm]; exact (Int.natCast_dvd_natCast.mpr (hdvd m k (hmin k))).trans (Int.gcd_dvd_left _ _)
  have hgd : g ∣ den := by rw [hm]; exact Int.gcd_dvd_right _ _
  obtain ⟨dq, hdq⟩ := hgd
  have hdq' : den / g = dq := by rw [hdq]; exact Int.mul_ediv_cancel_left _ hg0.ne'
  have hdq0 : 0 < dq := by
    by_contra hc
    have : g * dq ≤ 0 := Int.mul_nonpos_of_nonneg_of_nonpos hg0.le (not_lt.mp hc)
    omega
  refine ⟨by rw [heq]; simp only; omega, ?_⟩
  funext k
  obtain ⟨t, ht⟩ := hgn k
  rw [heq]
  simp only [Shift.val, hdq', show num k / g = t by rw [ht]; exact Int.mul_ediv_cancel_left _ hg0.ne']
  have hgQ : (g : ℚ) ≠ 0 := by exact_mod_cast hg0.ne'
  have hb1 : (b1.d : ℚ) ≠ 0 := by exact_mod_cast h1.ne'
  have hb2 : (b2.d : ℚ) ≠ 0 := by exact_mod_cast h2.ne'
  have hdqQ : (dq : ℚ) ≠ 0 := by exact_mod_cast hdq0.ne'
  have e1 : (b1.n k : ℚ) * b2.d + b2.n k * b1.d = g * t := by exact_mod_cast ht
  have e2 : (b1.d : ℚ) * b2.d = g * dq := by exact_mod_cast hdq
  rw [div_add_div _ _ hb1 hb2, div_eq_div_iff hdqQ (mul_ne_zero hb1 hb2), e2]
  have : (b1.n k : ℚ) * b2.d + b1.d * b2.n k = g * t := by rw [← e1]; ring
  rw [this]; ring

theorem prime_pow_gcd_chain {p a : ℕ} (hp : p.Prime) (u v : ℤ) :
    Int.gcd u ((p : ℤ) ^ a) ∣ Int.gcd v ((p : ℤ) ^ a) ∨ Int.gcd v ((p : ℤ) ^ a) ∣ Int.gcd u ((p : ℤ) ^ a) := by
  have key : ∀ w : ℤ, ∃ i, Int.gcd w ((p : ℤ) ^ a) = p ^ i := by
    intro w
    have h : Int.gcd w ((p : ℤ) ^ a) ∣ p ^ a := by
      have := Int.gcd_dvd_right w ((p : ℤ) ^ a)
      exact_mod_cast this
    obtain ⟨i, _, hi⟩ := (Nat.dvd_prime_pow hp).mp h
    exact ⟨i, hi⟩
  obtain ⟨i, hi⟩ := key u
  obtain ⟨j, hj⟩ := key v
  rw [hi, hj]
  rcases le_total i j with h | h
  · exact Or.inl (pow_dvd_pow _ h)
  · exact Or.inr (pow_dvd_pow _ h)

/-! ### Rotation parts of products -/

theorem act_sub (e : Elem) (x y : Q3) (k : Fin 3) :
    act e x k - act e y k = ∑ l, (e.r k l : ℚ) * (x l - y l) := by
  simp only [act, Fin.sum_univ_three]; ring

theorem rot_of_isProd {a b c : Elem} (h : IsProd a b c) : c.r = mmul a.r b.r := by
  funext k l
  by_contra hne
  set m : ℤ := c.r k l - mmul a.r b.r k l with hm
  have hm0 : (m : ℚ) ≠ 0 := by
    have : m ≠ 0 := fun h0 => hne (by omega)
    exact_mod_cast this
  obtain ⟨z1, hz1⟩ := h (fun j => if j = l then 1 / (2 * (m : ℚ)) else 0) k
  obtain ⟨z2, hz2⟩ := h (fun _ => 0) k
  have : ((z1 - z2 : ℤ) : ℚ) = 1 / 2 := by
    push_cast
    rw [← hz1, ← hz2]
    have hmQ : (m : ℚ) = (c.r k l : ℚ) - (a.r k 0 * b.r 0 l + a.r k 1 * b.r 1 l + a.r k 2 * b.r 2 l) := by
      rw [hm]; simp only [mmul]; push_cast; ring
    have e : ∀ (c0 c1 : ℚ), c0 - c1 = (c.r k l - (a.r k 0 * b.r 0 l + a.r k 1 * b.r 1 l + a.r k 2 * b.r 2 l))
        * (1 / (2 * (m : ℚ))) → c0 - c1 = 1 / 2 := by
      intro c0 c1 h'
      rw [h', ← hmQ]; field_simp
    apply e
    simp only [act, Fin.sum_univ_three]
    fin_cases l <;> simp <;> ring
  have h2 : (2 : ℚ) * ((z1 - z2 : ℤ) : ℚ) = 1 := by rw [this]; norm_num
  have h3 : 2 * (z1 - z2) = 1 := by exact_mod_cast h2
  omega

/-- Decidable sufficient condition for `IsProd`. -/
def prodCheck (a b c : Elem) : Bool :=
  decide ((∀ k l, c.r k l = mmul a.r b.r k l) ∧
    ∀ k, (a.bd * b.bd * c.bd) ∣ (c.bn k * a.bd * b.bd - (mvec a.r b.bn k * a.bd * c.bd + a.bn k * b.bd * c.bd)))

theorem isProd_of_check {a b c : Elem} (ha : 0 < a.bd) (hb : 0 < b.bd) (hc : 0 < c.bd)
    (h : prodCheck a b c = true) : IsProd a b c := by
  rw [prodCheck, decide_eq_true_iff] at h
  obtain ⟨h1, h2⟩ := h
  intro x k
  obtain ⟨z, hz⟩ := h2 k
  refine ⟨z, ?_⟩
  have hz' : (c.bn k : ℚ) * a.bd * b.bd - ((a.r k 0 * b.bn 0 + a.r k 1 * b.bn 1 + a.r k 2 * b.bn 2) * a.bd * c.bd
      + a.bn k * b.bd * c.bd) = a.bd * b.bd * c.bd * z := by
    have := congrArg (Int.cast : ℤ → ℚ) hz
    simp only [mvec] at this; push_cast at this; exact this
  have qa : (a.bd : ℚ) ≠ 0 := by exact_mod_cast ha.ne'
  have qb : (b.bd : ℚ) ≠ 0 := by exact_mod_cast hb.ne'
  have qc : (c.bd : ℚ) ≠ 0 := by exact_mod_cast hc.ne'
  simp only [act, Fin.sum_univ_three, h1, mmul]
  push_cast
  have hz2 : (z : ℚ) = (c.bn k : ℚ) / c.bd - (a.r k 0 * (b.bn 0 / b.bd) + a.r k 1 * (b.bn 1 / b.bd)
      + a.r k 2 * (b.bn 2 / b.bd)) - a.bn k / a.bd := by
    field_simp
    linarith
  rw [hz2]; ring

/-- The identity. -/
def idElem : Elem := ⟨fun _ => 0, 1, fun i j => if i = j then 1 else 0⟩

theorem act_idElem (x : Q3) : act idElem x = x := by
  funext k
  simp only [act, idElem, Fin.sum_univ_three]
  fin_cases k <;> simp

def groupCheck (G : List Elem) : Bool :=
  G.all (fun a => decide (0 < a.bd)) && (G.any (fun e => prodCheck idElem idElem e) &&
  (G.all (fun a => G.all fun b => G.any fun c => prodCheck a b c) &&
   G.all (fun a => G.any fun b => prodCheck b a idElem)))

theorem isGroup_of_check {G : List Elem} (h : groupCheck G = true) : IsGroup G := by
  simp only [groupCheck, Bool.and_eq_true, List.all_eq_true, List.any_eq_true, decide_eq_true_iff] at h
  obtain ⟨hp, ⟨e, he, h1⟩, hm, hi⟩ := h
  refine ⟨⟨e, he, fun x => ?_⟩, ?_, ?_⟩
  · have := isProd_of_check (by decide) (by decide) (hp e he) h1 x
    rwa [act_idElem, act_idElem] at this
  · intro a ha b hb
    obtain ⟨c, hc, h⟩ := hm a ha b hb
    exact ⟨c, hc, isProd_of_check (hp a ha) (hp b hb) (hp c hc) h⟩
  · intro a ha
    obtain ⟨b, hb, h⟩ := hi a ha
    refine ⟨b, hb, fun x => ?_⟩
    have := isProd_of_check (hp b hb) (hp a ha) (by decide) h x
    rw [act_idElem] at this
    exact this.symm

end Cryspy.Symm
