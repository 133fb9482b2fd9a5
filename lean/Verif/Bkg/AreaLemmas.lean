import Verif.Bkg.Model2
import Verif.Bkg.Lemmas
import Mathlib.Tactic.NormNum

namespace Cryspy.Bkg

universe u
variable {K : Type u} [Field K] [LinearOrder K] [IsStrictOrderedRing K]

omit [LinearOrder K] [IsStrictOrderedRing K] in
theorem chord_const (x1 x2 y t : K) : chord (x1, y) (x2, y) t = y := by simp [chord]

/-- Everything about one axis of the area detector. -/
theorem axis (g p : List K) (hg : g ≠ []) (hp : p ≠ []) (hinc : p.Pairwise (· < ·)) :
    ∃ l r P, extendPositions g p = some (l, r, P) ∧
      (∀ {β : Type u} (v : List β), v.length = p.length → ∃ v', extendValues l r v = some v') ∧
      ∀ t ∈ g, ∃ j x1 x2 i1 i2, columns P t = [j] ∧ P[j]? = some x1 ∧ P[j+1]? = some x2 ∧ x1 < x2 ∧
        x1 ≤ t ∧ t ≤ x2 ∧
        i1 < p.length ∧ i2 < p.length ∧
        (∀ {β : Type u} (v v' : List β), v.length = p.length → extendValues l r v = some v' →
          v'[j]? = v[i1]? ∧ v'[j+1]? = v[i2]?) ∧
        (∀ ys : List K, ys.length = p.length → ∀ y1 y2, ys[i1]? = some y1 → ys[i2]? = some y2 →
          interpolate (p.zip ys) t = chord (x1, y1) (x2, y2) t) := by
  obtain ⟨p0, pr, rfl⟩ : ∃ a l, p = a :: l := by
    cases p with
    | nil => exact absurd rfl hp
    | cons a l => exact ⟨a, l, rfl⟩
  obtain ⟨pi, q, hq⟩ : ∃ pi q, p0 :: pr = pi ++ [q] := by
    rcases List.eq_nil_or_concat (p0 :: pr) with h0 | ⟨l, q, e⟩
    · simp at h0
    · exact ⟨l, q, by simpa using e⟩
  obtain ⟨gMin, hmin⟩ : ∃ x, g.min? = some x := by
    cases g with
    | nil => exact absurd rfl hg
    | cons a l => exact ⟨_, List.min?_cons'⟩
  obtain ⟨gMax, hmax⟩ : ∃ x, g.max? = some x := by
    cases g with
    | nil => exact absurd rfl hg
    | cons a l => exact ⟨_, List.max?_cons'⟩
  have hmin' : ∀ t ∈ g, gMin ≤ t := (List.min?_eq_some_iff.mp hmin).2
  have hmax' : ∀ t ∈ g, t ≤ gMax := (List.max?_eq_some_iff.mp hmax).2
  have hhead : ∀ x ∈ p0 :: pr, p0 ≤ x := by
    intro x hx
    rcases List.mem_cons.mp hx with rfl | hx
    · exact le_rfl
    · exact ((List.pairwise_cons.mp hinc).1 x hx).le
  have hlast : ∀ x ∈ p0 :: pr, x ≤ q := by
    intro x hx
    rw [hq] at hx hinc
    rcases List.mem_append.mp hx with hx | hx
    · exact ((List.pairwise_append.mp hinc).2.2 x hx q (by simp)).le
    · rw [List.mem_singleton.mp hx]
  set L : List K := if gMin < p0 then [gMin] else [] with hL
  set R : List K := if gMax ≥ q then [gMax + 1 / 1000] else [] with hR
  have hpmin : (p0 :: pr).min? = some p0 := min_increasing p0 pr (fun x hx => hhead x (by simp [hx]))
  have hpmax : (L ++ p0 :: pr).max? = some q := by
    rw [hq, ← List.append_assoc]
    apply max_increasing
    intro x hx
    rcases List.mem_append.mp hx with hx | hx
    · simp only [hL] at hx
      split_ifs at hx with h0
      · rw [List.mem_singleton.mp hx]
        exact h0.le.trans (hlast p0 (by simp))
      · simp at hx
    · exact hlast x (by rw [hq]; exact List.mem_append_left _ hx)
  have hP : extendPositions g (p0 :: pr) =
      some (decide (gMin < p0), decide (gMax ≥ q), L ++ (p0 :: pr) ++ R) := by
    unfold extendPositions
    have bs : ∀ {α β : Type u} (a : α) (f : α → Option β), (some a >>= f) = f a := fun _ _ => rfl
    rw [hmin, bs, hpmin, bs]
    have e1 : (if decide (gMin < p0) = true then gMin :: p0 :: pr else p0 :: pr) =
        L ++ p0 :: pr := by
      simp only [hL]
      split_ifs <;> simp_all
    simp only []
    rw [e1, hmax, bs, hpmax, bs]
    simp only [hR]
    by_cases h0 : gMax ≥ q <;> simp [h0]
  have hincP : (L ++ (p0 :: pr) ++ R).Pairwise (· < ·) := by
    have h1 : (L ++ (p0 :: pr)).Pairwise (· < ·) := by
      simp only [hL]
      split_ifs with h0
      · exact List.pairwise_cons.mpr ⟨fun x hx => h0.trans_le (hhead x hx), hinc⟩
      · exact hinc
    simp only [hR]
    split_ifs with h0
    · refine List.pairwise_append.mpr ⟨h1, by simp, ?_⟩
      intro a ha b hb
      rw [List.mem_singleton.mp hb]
      have : a ≤ q := (List.max?_eq_some_iff.mp hpmax).2 a ha
      have h3 : (0 : K) < 1 / 1000 := by norm_num
      linarith
    · simpa using h1
  refine ⟨_, _, _, hP, ?_, ?_⟩
  · intro β v hv
    have : v ≠ [] := by rintro rfl; simp at hv
    obtain ⟨a, w, rfl⟩ : ∃ a l, v = a :: l := by
      cases v with
      | nil => exact absurd rfl this
      | cons a l => exact ⟨a, l, rfl⟩
    unfold extendValues
    by_cases h1 : gMin < p0 <;> by_cases h2 : gMax ≥ q <;> simp [h1, h2, List.getLast?_cons]
  · intro t ht
    have hmv : ∀ {β : Type u} (v v' : List β), v.length = (p0 :: pr).length →
        extendValues (decide (gMin < p0)) (decide (gMax ≥ q)) v = some v' →
        ∃ Lv Rv : List β, v' = Lv ++ v ++ Rv ∧ Lv.length = L.length ∧ Rv.length = R.length ∧
          (∀ a ∈ Lv, v[0]? = some a) ∧ (∀ a ∈ Rv, v[pr.length]? = some a) := by
      intro β v v' hv h
      unfold extendValues at h
      have hlen : v.length = pr.length + 1 := by simpa using hv
      obtain ⟨a, w, rfl⟩ : ∃ a l, v = a :: l := by
        cases v with
        | nil => simp at hv
        | cons a l => exact ⟨a, l, rfl⟩
      have hgl : ∀ x, (a :: w).getLast? = some x → (a :: w)[pr.length]? = some x := by
        intro x hx
        rw [List.getLast?_eq_getElem?, hlen] at hx
        simpa using hx
      obtain ⟨z, hz⟩ : ∃ z, (a :: w).getLast? = some z := by
        rcases h0 : (a :: w).getLast? with _ | z
        · simp at h0
        · exact ⟨z, rfl⟩
      by_cases h1 : gMin < p0 <;> by_cases h2 : gMax ≥ q
      · simp only [h1, h2, decide_true, if_true, List.head?_cons, Option.map_some] at h
        refine ⟨[a], [z], ?_, by simp [hL, h1], by simp [hR, h2], by simp, ?_⟩
        · have : (a :: a :: w).getLast? = some z := by simpa [List.getLast?_cons_cons] using hz
          simp only [bind, Option.bind, this, Option.map_some, Option.some.injEq] at h
          simp [← h]
        · simpa using hgl z hz
      · simp only [h1, h2, decide_true, decide_false, if_true, List.head?_cons, Option.map_some,
          bind, Option.bind, Bool.false_eq_true, if_false, Option.some.injEq] at h
        exact ⟨[a], [], by simp [← h], by simp [hL, h1], by simp [hR, h2], by simp, by simp⟩
      · simp only [h1, h2, decide_true, decide_false, if_true,
          bind, Option.bind, Bool.false_eq_true, if_false, hz, Option.map_some,
          Option.some.injEq] at h
        refine ⟨[], [z], by simp [← h], by simp [hL, h1], by simp [hR, h2], by simp, ?_⟩
        simpa using hgl z hz
      · simp only [h1, h2, decide_false,
          bind, Option.bind, Bool.false_eq_true, if_false, Option.some.injEq] at h
        exact ⟨[], [], by simp [← h], by simp [hL, h1], by simp [hR, h2], by simp, by simp⟩
    -- the interval of t
    set m : List (K × K) := (L ++ (p0 :: pr) ++ R).map (fun x => (x, 0)) with hm
    have hmf : m.map Prod.fst = L ++ (p0 :: pr) ++ R := by
      rw [hm, List.map_map]; simp [Function.comp_def]
    have hmi : Increasing m := by
      unfold Increasing
      rw [hm]
      exact List.pairwise_map.mpr hincP
    obtain ⟨c, hc, hc'⟩ : ∃ c, m.head? = some c ∧ c.1 ≤ gMin := by
      rw [hm]; simp only [hL]
      split_ifs with h0
      · exact ⟨(gMin, 0), rfl, le_rfl⟩
      · exact ⟨(p0, 0), rfl, not_lt.mp h0⟩
    obtain ⟨d, hd, hd'⟩ : ∃ d, m.getLast? = some d ∧ gMax < d.1 := by
      rw [hm, hq]; simp only [hR]
      split_ifs with h0
      · refine ⟨(gMax + 1 / 1000, 0), by simp, ?_⟩
        have h3 : (0 : K) < 1 / 1000 := by norm_num
        simpa using h3
      · exact ⟨(q, 0), by simp, not_le.mp h0⟩
    obtain ⟨pre, a, b, post, e, ha, hb⟩ := exists_segment m c d t hc hd (hc'.trans (hmin' t ht))
      ((hmax' t ht).trans_lt hd')
    have hcol := columns_eq m hmi e ha hb
    rw [hmf] at hcol
    have hga : (L ++ (p0 :: pr) ++ R)[pre.length]? = some a.1 := by
      rw [← hmf, List.getElem?_map, e]; simp
    have hgb : (L ++ (p0 :: pr) ++ R)[pre.length + 1]? = some b.1 := by
      rw [← hmf, List.getElem?_map, e]; simp
    have hLl : L.length = if gMin < p0 then 1 else 0 := by
      simp only [hL]; split_ifs <;> rfl
    have hincz : ∀ ys : List K, ys.length = (p0 :: pr).length → Increasing ((p0 :: pr).zip ys) := by
      intro ys hys
      have : ((p0 :: pr).zip ys).map Prod.fst = p0 :: pr := List.map_fst_zip (by omega)
      unfold Increasing
      rw [← this] at hinc
      exact List.pairwise_map.mp hinc
    by_cases hj : pre.length < L.length
    · -- left of the nodes
      have h0 : gMin < p0 := by by_contra h; simp [hLl, h] at hj
      have hj0 : pre.length = 0 := by simp [hLl, h0] at hj; simp [hj]
      have hb0 : b.1 = p0 := by
        have := hgb; rw [hj0] at this; simp [hL, h0] at this; exact this.symm
      refine ⟨pre.length, a.1, b.1, 0, 0, hcol, hga, hgb, ha.trans_lt hb, ha, hb.le, by simp,
        by simp, ?_, ?_⟩
      · intro β v v' hv hv'
        obtain ⟨Lv, Rv, rfl, h1, h2, h3, h4⟩ := hmv v v' hv hv'
        obtain ⟨u, rfl⟩ : ∃ u, Lv = [u] := List.length_eq_one_iff.mp (by rw [h1, hLl]; simp [h0])
        have := h3 u (by simp)
        rw [hj0]
        constructor
        · simp [this]
        · have hne : 0 < v.length := by rw [hv]; simp
          simp [List.getElem?_append_left hne]
      · intro ys hys y1 y2 e1 e2
        rw [e1] at e2; cases e2
        rw [chord_const]
        obtain ⟨w0, w, rfl⟩ : ∃ a l, ys = a :: l := by
          cases ys with
          | nil => simp at hys
          | cons a l => exact ⟨a, l, rfl⟩
        simp at e1
        rw [hb0] at hb
        simp [interpolate, hb, e1]
    · have hj1 : L.length ≤ pre.length := not_lt.mp hj
      by_cases hk : pre.length - L.length + 1 < (p0 :: pr).length
      · -- between two nodes
        set i := pre.length - L.length with hi
        have hpi : pre.length = L.length + i := by omega
        have ea : (p0 :: pr)[i]? = some a.1 := by
          rw [hpi, List.append_assoc, List.getElem?_append_right (by omega),
            List.getElem?_append_left (by simp at hk ⊢; omega)] at hga
          simpa using hga
        have eb : (p0 :: pr)[i + 1]? = some b.1 := by
          rw [hpi, List.append_assoc, List.getElem?_append_right (by omega),
            List.getElem?_append_left (by simp at hk ⊢; omega)] at hgb
          have : L.length + i + 1 - L.length = i + 1 := by omega
          rwa [this] at hgb
        refine ⟨pre.length, a.1, b.1, i, i + 1, hcol, hga, hgb, ha.trans_lt hb, ha, hb.le,
          by omega, hk, ?_, ?_⟩
        · intro β v v' hv hv'
          obtain ⟨Lv, Rv, rfl, h1, h2, h3, h4⟩ := hmv v v' hv hv'
          rw [hpi, ← h1]
          constructor
          · rw [List.append_assoc, List.getElem?_append_right (by omega),
              List.getElem?_append_left (by omega)]
            simp
          · rw [List.append_assoc, List.getElem?_append_right (by omega),
              List.getElem?_append_left (by omega)]
            congr 1; omega
        · intro ys hys y1 y2 e1 e2
          symm
          apply interpolate_segment (hincz ys hys)
          have hz1 : ((p0 :: pr).zip ys)[i]? = some (a.1, y1) := by
            rw [List.getElem?_zip_eq_some]; exact ⟨ea, e1⟩
          have hz2 : ((p0 :: pr).zip ys)[i + 1]? = some (b.1, y2) := by
            rw [List.getElem?_zip_eq_some]; exact ⟨eb, e2⟩
          refine ⟨((p0 :: pr).zip ys).take i, (a.1, y1), (b.1, y2),
            ((p0 :: pr).zip ys).drop (i + 2), ?_, ha, hb.le, rfl⟩
          obtain ⟨hlt1, g1⟩ := List.getElem?_eq_some_iff.mp hz1
          obtain ⟨hlt2, g2⟩ := List.getElem?_eq_some_iff.mp hz2
          rw [← g1, ← g2]
          conv_lhs => rw [← List.take_append_drop i ((p0 :: pr).zip ys)]
          congr 1
          rw [List.drop_eq_getElem_cons hlt1, List.drop_eq_getElem_cons hlt2]
      · -- right of the nodes
        have hpl : (L ++ (p0 :: pr) ++ R).length = L.length + (p0 :: pr).length + R.length := by
          simp only [List.length_append]
        have hRl : R.length = if gMax ≥ q then 1 else 0 := by
          simp only [hR]; split_ifs <;> rfl
        have hlt : pre.length + 1 < L.length + (p0 :: pr).length + R.length := by
          rw [← hpl]
          exact (List.getElem?_eq_some_iff.mp hgb).1
        have h0 : gMax ≥ q := by
          by_contra h; rw [hRl, if_neg h] at hlt; omega
        rw [hRl, if_pos h0] at hlt
        have hpi : pre.length = L.length + pr.length := by simp at hk hlt; omega
        have hql : (p0 :: pr)[pr.length]? = some q := by
          have : (p0 :: pr).getLast? = some q := by rw [hq]; simp
          rw [List.getLast?_eq_getElem?] at this
          simpa using this
        have ea : a.1 = q := by
          rw [hpi, List.append_assoc, List.getElem?_append_right (by omega),
            List.getElem?_append_left (by simp)] at hga
          have h5 : L.length + pr.length - L.length = pr.length := by omega
          rw [h5, hql] at hga
          simpa using hga.symm
        refine ⟨pre.length, a.1, b.1, pr.length, pr.length, hcol, hga, hgb, ha.trans_lt hb, ha,
          hb.le, by simp, by simp, ?_, ?_⟩
        · intro β v v' hv hv'
          obtain ⟨Lv, Rv, rfl, h1, h2, h3, h4⟩ := hmv v v' hv hv'
          obtain ⟨u, rfl⟩ : ∃ u, Rv = [u] := List.length_eq_one_iff.mp (by rw [h2, hRl]; simp [h0])
          have h6 := h4 u (by simp)
          have hvl : v.length = pr.length + 1 := by simpa using hv
          rw [hpi, ← h1]
          constructor
          · rw [List.append_assoc, List.getElem?_append_right (by omega),
              List.getElem?_append_left (by omega)]
            simp
          · rw [List.append_assoc, List.getElem?_append_right (by omega),
              List.getElem?_append_right (by omega), h6]
            have : Lv.length + pr.length + 1 - Lv.length - v.length = 0 := by omega
            rw [this]; rfl
        · intro ys hys y1 y2 e1 e2
          rw [e1] at e2; cases e2
          rw [chord_const]
          symm
          apply interpolate_unique (hincz ys hys)
          right; right
          have hz : ((p0 :: pr).zip ys)[pr.length]? = some (q, y1) := by
            rw [List.getElem?_zip_eq_some]; exact ⟨hql, e1⟩
          obtain ⟨hlt1, g1⟩ := List.getElem?_eq_some_iff.mp hz
          refine ⟨((p0 :: pr).zip ys).take pr.length, (q, y1), ?_, ea ▸ ha, rfl⟩
          conv_lhs => rw [← List.take_append_drop pr.length ((p0 :: pr).zip ys)]
          congr 1
          rw [List.drop_eq_getElem_cons hlt1, g1]
          congr 1
          apply List.drop_eq_nil_of_le
          simp at hys ⊢

end Cryspy.Bkg
