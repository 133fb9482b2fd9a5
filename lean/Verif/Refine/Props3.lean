import Verif.Refine.Props2
import Mathlib.Algebra.Order.Field.Basic
import Mathlib.Tactic.Positivity
import Mathlib.Tactic.SplitIfs

/-!
# Properties of the minimisation, the least-squares loop and the sums over experiments (C51, C52)
-/

namespace Cryspy.Refine

/-! ### The refinement by a minimiser -/

section refine
variable {N : Type} [DecidableEq N]

/-- Whatever the minimiser does, the refinement ends with the point it evaluated last: the free
parameters have the values of that point and the reported `chi_sq` is the one of these values. -/
theorem refine_last (free : List N) (hf : free.Nodup) (cs : List ((ℝ × N) × (ℝ × N)))
    (hs : ∀ c ∈ cs, c.2.2 ∉ free) (hsn : (cs.map (·.2.2)).Nodup) (hfirst : ∀ c ∈ cs, c.1.2 ∈ free)
    (chi : (N → ℝ) → ℝ) (pre : List (List ℝ)) (hpre : ∀ u ∈ pre, u.length = free.length)
    (v : List ℝ) (hv : v.length = free.length) (dict : N → ℝ) :
    ∃ d, refine free cs chi (pre ++ [v]) dict = some (d, chi d) ∧ ∀ t ∈ free.zip v, d t.1 = t.2 := by
  have one : ∀ (v : List ℝ), v.length = free.length → ∀ d0, ∃ d, assign free cs v d0 = some d ∧
      ∀ t ∈ free.zip v, d t.1 = t.2 := by
    intro v hv d0
    obtain ⟨h1, -⟩ := fold_update free v d0 hf
    obtain ⟨d, hd, h3, -⟩ := fold_constraints free v hv cs
      ((free.zip v).foldl (fun d t => Function.update d t.1 t.2) d0) hfirst hsn
    refine ⟨d, hd, fun t ht => ?_⟩
    rw [h3, h1 t ht]
    intro hmem
    obtain ⟨c, hc, e⟩ := List.mem_map.1 hmem
    exact hs c hc (e ▸ (List.of_mem_zip ht).1)
  have many : ∀ (pre : List (List ℝ)), (∀ u ∈ pre, u.length = free.length) → ∀ d0,
      ∃ d, pre.foldlM (fun d v => assign free cs v d) d0 = some d := by
    intro pre
    induction pre with
    | nil => intro _ d0; exact ⟨d0, rfl⟩
    | cons u pre ih =>
      intro h d0
      obtain ⟨d1, e1, -⟩ := one u (h u (by simp)) d0
      obtain ⟨d2, e2⟩ := ih (fun w hw => h w (by simp [hw])) d1
      exact ⟨d2, by rw [List.foldlM_cons, e1]; exact e2⟩
  obtain ⟨d1, e1⟩ := many pre hpre dict
  obtain ⟨d2, e2, h2⟩ := one v hv d1
  refine ⟨d2, ?_, h2⟩
  unfold refine
  have : (pre ++ [v]).foldlM (fun d v => assign free cs v d) dict = some d2 := by
    rw [List.foldlM_append, e1]
    change ([v].foldlM (fun d v => assign free cs v d) d1) = _
    rw [List.foldlM_cons, e2]; rfl
  rw [this]; rfl

/-- So the result is not the best point found: a minimiser that evaluates a further point after the
minimum (for a gradient by differences, say) leaves that further point. -/
theorem refine_not_best : ∃ (chi : (Unit → ℝ) → ℝ) (trace : List (List ℝ)) (d : Unit → ℝ) (c : ℝ),
    refine [()] [] chi trace (fun _ => 1) = some (d, c) ∧ ∃ v ∈ trace, ∃ x ∈ v, chi (fun _ => x) < c := by
  refine ⟨fun d => d () ^ 2, [[0], [1 / 10]], Function.update (Function.update (fun _ => 1) () 0) () (1 / 10),
    (1 / 10) ^ 2, ?_, [0], by simp, 0, by simp, by norm_num⟩
  unfold refine assign
  simp only [List.foldlM_cons, List.foldlM_nil, List.zip_cons_cons, List.zip_nil_left, List.foldl_cons,
    List.foldl_nil]
  change some (_, _) = some (_, _)
  simp

end refine

/-! ### The least-squares loop -/

section lsq
variable {V : Type*} [AddCommGroup V]

/-- When the loop stops, the parameters in the dictionary are those the reported `chi_sq` and step
belong to, and `chi_sq` is not larger than at the start. -/
theorem lsq_result (eval : V → ℝ × V) (p : V) (k : ℕ) (r : Lsq V)
    (h : lsqLoop eval k (lsqInit eval p) = some r) :
    eval r.params = (r.chi, r.delta) ∧ r.chi ≤ (eval p).1 := by
  have key : ∀ (k : ℕ) (s : Lsq V), (∃ q, s.params = q + s.delta ∧ eval q = (s.chi, s.delta)) →
      s.chi ≤ (eval p).1 → lsqLoop eval k s = some r → eval r.params = (r.chi, r.delta) ∧
      r.chi ≤ (eval p).1 := by
    intro k
    induction k with
    | zero => intro s _ _ h; cases h
    | succ k ih =>
      intro s hq hc h
      obtain ⟨q, hqs, hqe⟩ := hq
      unfold lsqLoop lsqStep at h
      simp only at h
      split_ifs at h with hlt
      · exact ih _ ⟨s.params, rfl, rfl⟩ (hlt.le.trans hc) h
      · simp only [Option.some.injEq] at h
        subst h
        refine ⟨?_, hc⟩
        have : s.params + (eval s.params).2 - (eval s.params).2 - s.delta = q := by rw [hqs]; abel
        simp only [this, hqe]
  exact key k _ ⟨p, rfl, rfl⟩ le_rfl h

/-- The calculated data returned beside: as soon as one step improved `chi_sq` they belong to the
rejected last step and not to the parameters returned. -/
theorem lsq_stale (eval : V → ℝ × V) (p : V) (k : ℕ) (r : Lsq V)
    (h : lsqLoop eval k (lsqInit eval p) = some r) :
    (r.chi = (eval p).1 ∧ r.params = p ∧ r.output = p) ∨
      (r.chi < (eval p).1 ∧ r.output = r.params + r.delta ∧ ¬ (eval r.output).1 < r.chi) := by
  have key : ∀ (k : ℕ) (s : Lsq V), (∃ q, s.params = q + s.delta ∧ eval q = (s.chi, s.delta) ∧
      ((s.second = false ∧ q = p ∧ s.dict1 = p) ∨ (s.second = true ∧ s.chi < (eval p).1))) →
      lsqLoop eval k s = some r →
      (r.chi = (eval p).1 ∧ r.params = p ∧ r.output = p) ∨
      (r.chi < (eval p).1 ∧ r.output = r.params + r.delta ∧ ¬ (eval r.output).1 < r.chi) := by
    intro k
    induction k with
    | zero => intro s _ h; cases h
    | succ k ih =>
      intro s hq h
      obtain ⟨q, hqs, hqe, hcase⟩ := hq
      unfold lsqLoop lsqStep at h
      simp only at h
      split_ifs at h with hlt
      · refine ih _ ⟨s.params, rfl, rfl, Or.inr ⟨rfl, ?_⟩⟩ h
        rcases hcase with ⟨_, hqp, _⟩ | ⟨_, hc⟩
        · rw [← hqp, hqe]; exact hlt
        · exact hlt.trans hc
      · simp only [Option.some.injEq] at h
        subst h
        have hp : s.params + (eval s.params).2 - (eval s.params).2 - s.delta = q := by rw [hqs]; abel
        rcases hcase with ⟨hs, hqp, hd⟩ | ⟨hs, hc⟩
        · left
          simp only [Lsq.output, hs, hd]
          refine ⟨?_, by rw [hp, hqp], rfl⟩
          rw [← hqp, hqe]
        · right
          simp only [Lsq.output, hs, hp]
          exact ⟨hc, by rw [if_pos trivial, hqs], by simpa using hlt⟩
  exact key k _ ⟨p, rfl, rfl, Or.inl ⟨rfl, rfl, rfl⟩⟩ h

/-- A case in which the loop stops after an improvement. -/
example : ∃ (eval : ℤ → ℝ × ℤ) (r : Lsq ℤ), lsqLoop eval 3 (lsqInit eval 0) = some r ∧
    r.chi < (eval 0).1 := by
  refine ⟨fun x => (|(x : ℝ) - 1|, 1), ⟨0, 1, 1, 0, 2, true⟩, ?_, ?_⟩
  · norm_num [lsqLoop, lsqStep, lsqInit]
  · norm_num

/-- The loop need not stop: a sum of squares that keeps falling. -/
theorem lsq_endless : ∃ (eval : ℝ → ℝ × ℝ), (∀ x, 0 < (eval x).1) ∧
    ∀ k, lsqLoop eval k (lsqInit eval 0) = none := by
  refine ⟨fun x => (1 / (1 + |x|), 1), fun x => by positivity, ?_⟩
  have key : ∀ (k : ℕ) (s : Lsq ℝ) (q : ℝ), 0 ≤ q → s.params = q + 1 → s.chi = 1 / (1 + q) →
      lsqLoop (fun x : ℝ => (1 / (1 + |x|), (1 : ℝ))) k s = none := by
    intro k
    induction k with
    | zero => intros; rfl
    | succ k ih =>
      intro s q hq hp hc
      have hlt : 1 / (1 + |s.params|) < s.chi := by
        rw [hp, hc, abs_of_nonneg (by linarith)]
        exact one_div_lt_one_div_of_lt (by linarith) (by linarith)
      unfold lsqLoop lsqStep
      simp only [if_pos hlt]
      refine ih _ s.params (by rw [hp]; linarith) rfl ?_
      simp only [abs_of_nonneg (show 0 ≤ s.params by rw [hp]; linarith)]
  intro k
  exact key k _ 0 le_rfl (by simp [lsqInit]) (by simp [lsqInit])

end lsq

/-! ### Sums over experiments -/

section experiments
variable {N : Type*} [DecidableEq N]

/-- The first derivative of one experiment by a parameter given by name, zero when the experiment
does not depend on it. -/
def Experiment.derOf (e : Experiment N) (w : N) : ℝ :=
  if w ∈ e.names then e.der (e.names.idxOf w) else 0

/-- The second derivative by two parameters given by name. -/
def Experiment.dderOf (e : Experiment N) (w w' : N) : ℝ :=
  if w ∈ e.names ∧ w' ∈ e.names then e.dder (e.names.idxOf w) (e.names.idxOf w') else 0

theorem inner_fold (dder : ℕ → ℕ → ℝ) (a : N) (k : ℕ) : ∀ (t : List N) (m : ℕ) (h : N → N → ℝ), t.Nodup →
    a ∉ t → ∀ w w', ((t.zipIdx m).foldl (fun h b =>
      let h := fun w w' => if w = a ∧ w' = b.1 then h w w' + dder k (b.2 + k + 1) else h w w'
      fun w w' => if w = b.1 ∧ w' = a then h w w' + dder (b.2 + k + 1) k else h w w') h) w w' =
    h w w' + (if w = a ∧ w' ∈ t then dder k (t.idxOf w' + m + k + 1) else 0) +
      (if w' = a ∧ w ∈ t then dder (t.idxOf w + m + k + 1) k else 0) := by
  intro t
  induction t with
  | nil => intros; simp
  | cons b t ih =>
    intro m h hn ha w w'
    rw [List.nodup_cons] at hn
    simp only [List.mem_cons, not_or] at ha
    rw [List.zipIdx_cons, List.foldl_cons, ih (m + 1) _ hn.2 ha.2 w w']
    have hidx : ∀ x, x ∈ t → (b :: t).idxOf x = t.idxOf x + 1 := by
      intro x hx
      rw [List.idxOf_cons_ne]
      rintro rfl; exact hn.1 hx
    simp only []
    by_cases hwa : w = a
    · have hwb : w ≠ b := by rintro rfl; exact ha.1 hwa.symm
      have hwt : w ∉ t := hwa ▸ ha.2
      by_cases hw'b : w' = b
      · have hw't : w' ∉ t := hw'b ▸ hn.1
        simp [hwa, hw'b, hn.1, ha.1, ha.2]
      · by_cases hw't : w' ∈ t
        · have e := hidx w' hw't
          simp only [hwa, hw'b, hw't, ha.1, ha.2, e]
          have hb : a ≠ b := ha.1
          simp [hb, hw't, ha.2, show List.idxOf w' t + 1 + m + k + 1 = List.idxOf w' t + (m + 1) + k + 1 by omega]
        · simp [hwa, hw'b, hw't, ha.1, ha.2]
    · by_cases hw'a : w' = a
      · by_cases hwb : w = b
        · have hb : b ≠ a := fun h => ha.1 h.symm
          simp [hw'a, hwb, hn.1, hb]
        · by_cases hwt : w ∈ t
          · have e := hidx w hwt
            simp only [hwa, hw'a, hwb, hwt, e]
            simp [hwt, show List.idxOf w t + 1 + m + k + 1 = List.idxOf w t + (m + 1) + k + 1 by omega]
          · simp [hwa, hw'a, hwb, hwt]
      · simp [hwa, hw'a]

theorem addExperiment_spec (e : Experiment N) (hn : e.names.Nodup) (s : (N → ℝ) × (N → N → ℝ)) (w w' : N) :
    (addExperiment e s).1 w = s.1 w + e.derOf w ∧ (addExperiment e s).2 w w' = s.2 w w' + e.dderOf w w' := by
  have key : ∀ (rest : List N) (k : ℕ) (s : (N → ℝ) × (N → N → ℝ)), e.names.drop k = rest →
      let r := (rest.zipIdx k).foldl (fun s a =>
        let d := fun w => if w = a.1 then s.1 w + e.der a.2 else s.1 w
        let h := fun w w' => if w = a.1 ∧ w' = a.1 then s.2 w w' + e.dder a.2 a.2 else s.2 w w'
        let h := ((e.names.drop (a.2 + 1)).zipIdx).foldl (fun h b =>
          let h := fun w w' => if w = a.1 ∧ w' = b.1 then h w w' + e.dder a.2 (b.2 + a.2 + 1) else h w w'
          fun w w' => if w = b.1 ∧ w' = a.1 then h w w' + e.dder (b.2 + a.2 + 1) a.2 else h w w') h
        (d, h)) s
      r.1 w = s.1 w + (if w ∈ rest then e.der (rest.idxOf w + k) else 0) ∧
      r.2 w w' = s.2 w w' +
        (if w ∈ rest ∧ w' ∈ rest then e.dder (rest.idxOf w + k) (rest.idxOf w' + k) else 0) := by
    intro rest
    induction rest with
    | nil => intro k s _; exact ⟨by simp, by simp⟩
    | cons a t ih =>
      intro k s hk
      have hnd : (a :: t).Nodup := hk ▸ hn.sublist (List.drop_sublist _ _)
      rw [List.nodup_cons] at hnd
      have ht : e.names.drop (k + 1) = t := by
        rw [← List.tail_drop, hk]; rfl
      have hidx : ∀ x, x ∈ t → (a :: t).idxOf x = t.idxOf x + 1 := by
        intro x hx
        rw [List.idxOf_cons_ne]
        rintro rfl; exact hnd.1 hx
      simp only [List.zipIdx_cons, List.foldl_cons]
      obtain ⟨h1, h2⟩ := ih (k + 1) _ ht
      rw [h1, h2]
      simp only [ht, inner_fold e.dder a k t 0 _ hnd.2 hnd.1]
      constructor
      · by_cases hwa : w = a
        · simp [hwa, hnd.1]
        · by_cases hwt : w ∈ t
          · simp [hwa, hwt, hidx w hwt, Nat.add_assoc, Nat.add_comm 1 k]
          · simp [hwa, hwt]
      · by_cases hwa : w = a
        · have hwt : w ∉ t := hwa ▸ hnd.1
          by_cases hw'a : w' = a
          · simp [hwa, hw'a, hnd.1]
          · by_cases hw't : w' ∈ t
            · simp [hwa, hw'a, hw't, hnd.1, hidx w' hw't, Nat.add_assoc, Nat.add_comm 1 k]
            · simp [hwa, hw'a, hw't]
        · by_cases hwt : w ∈ t
          · by_cases hw'a : w' = a
            · simp [hwa, hw'a, hwt, hnd.1, hidx w hwt, Nat.add_assoc, Nat.add_comm 1 k]
            · by_cases hw't : w' ∈ t
              · simp [hwa, hw'a, hwt, hw't, hidx w hwt, hidx w' hw't, Nat.add_assoc, Nat.add_comm 1 k]
              · simp [hwa, hw'a, hw't]
          · simp [hwa, hwt]
  obtain ⟨h1, h2⟩ := key e.names 0 s rfl
  exact ⟨by unfold addExperiment Experiment.derOf; exact h1, by unfold addExperiment Experiment.dderOf; exact h2⟩

/-- The derivatives of the total `chi_sq` by name are the sums of the derivatives of the
experiments by the same name, each taken once. -/
theorem sumExperiments_spec (l : List (Experiment N)) (hn : ∀ e ∈ l, e.names.Nodup) (w w' : N) :
    (sumExperiments l).1 w = (l.map (·.derOf w)).sum ∧
      (sumExperiments l).2 w w' = (l.map (·.dderOf w w')).sum := by
  have key : ∀ (l : List (Experiment N)) (s : (N → ℝ) × (N → N → ℝ)), (∀ e ∈ l, e.names.Nodup) →
      (l.foldl (fun s e => addExperiment e s) s).1 w = s.1 w + (l.map (·.derOf w)).sum ∧
      (l.foldl (fun s e => addExperiment e s) s).2 w w' = s.2 w w' + (l.map (·.dderOf w w')).sum := by
    intro l
    induction l with
    | nil => intros; simp
    | cons e l ih =>
      intro s h
      obtain ⟨h1, h2⟩ := ih (addExperiment e s) (fun x hx => h x (by simp [hx]))
      obtain ⟨h3, h4⟩ := addExperiment_spec e (h e (by simp)) s w w'
      simp only [List.foldl_cons, List.map_cons, List.sum_cons]
      rw [h1, h2, h3, h4]
      constructor <;> ring
  have := key l (fun _ => 0, fun _ _ => 0) hn
  simpa [sumExperiments] using this

/-- The order of the experiments does not matter. -/
theorem sumExperiments_perm (l l' : List (Experiment N)) (hp : l.Perm l') (hn : ∀ e ∈ l, e.names.Nodup) :
    sumExperiments l = sumExperiments l' := by
  have hn' : ∀ e ∈ l', e.names.Nodup := fun e he => hn e (hp.mem_iff.2 he)
  refine Prod.ext (funext fun w => ?_) (funext fun w => funext fun w' => ?_)
  · rw [(sumExperiments_spec l hn w w).1, (sumExperiments_spec l' hn' w w).1]
    exact (hp.map _).sum_eq
  · rw [(sumExperiments_spec l hn w w').2, (sumExperiments_spec l' hn' w w').2]
    exact (hp.map _).sum_eq

example : (sumExperiments [⟨['a', 'b'], fun i => i + 1, fun _ _ => 1⟩, ⟨['b'], fun _ => 5, fun _ _ => 1⟩]).1 'b' = 7 := by
  rw [(sumExperiments_spec _ (by simp) 'b' 'b').1]
  have : ['a', 'b'].idxOf 'b' = 1 := by decide
  norm_num [Experiment.derOf, this]

end experiments

end Cryspy.Refine
