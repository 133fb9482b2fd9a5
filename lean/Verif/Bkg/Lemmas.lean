import Verif.Bkg.Model
import Verif.Bkg.Spec
import Mathlib.Tactic.Ring
import Mathlib.Tactic.FieldSimp
import Mathlib.Tactic.Linarith
import Mathlib.Algebra.Order.Field.Basic

namespace Cryspy.Bkg

variable {K : Type*} [Field K] [LinearOrder K] [IsStrictOrderedRing K]

omit [LinearOrder K] [IsStrictOrderedRing K] in
theorem chord_left (a b : K × K) : chord a b a.1 = a.2 := by simp [chord]

theorem chord_right {a b : K × K} (h : a.1 < b.1) : chord a b b.1 = b.2 := by
  have : b.1 - a.1 ≠ 0 := sub_ne_zero.mpr h.ne'
  simp [chord]; field_simp; ring

theorem chord_chord {a b : K × K} (h : a.1 < b.1) (x : K) (hx : x < a.1) (t : K) :
    chord (x, chord a b x) a t = chord a b t := by
  have h1 : b.1 - a.1 ≠ 0 := sub_ne_zero.mpr h.ne'
  have h2 : a.1 - x ≠ 0 := sub_ne_zero.mpr hx.ne'
  simp only [chord]; field_simp; ring

theorem chord_chord' {a b : K × K} (h : a.1 < b.1) (x : K) (hx : b.1 < x) (t : K) :
    chord b (x, chord a b x) t = chord a b t := by
  have h1 : b.1 - a.1 ≠ 0 := sub_ne_zero.mpr h.ne'
  have h2 : x - b.1 ≠ 0 := sub_ne_zero.mpr hx.ne'
  simp only [chord]; field_simp; ring

theorem interpFrom_at (a : K × K) (rest : List (K × K)) (h : Increasing (a :: rest)) :
    interpFrom a rest a.1 = a.2 := by
  cases rest with
  | nil => rfl
  | cons b r =>
    have : a.1 < b.1 := (List.pairwise_cons.mp h).1 b (by simp)
    simp [interpFrom, this]

theorem interpFrom_segment (pre : List (K × K)) (c a b : K × K) (post : List (K × K)) (l t)
    (hl : c :: l = pre ++ a :: b :: post)
    (h : Increasing (c :: l)) (ha : a.1 ≤ t) (hb : t ≤ b.1) :
    interpFrom c l t = chord a b t := by
  induction pre generalizing c l with
  | nil =>
    obtain ⟨rfl, rfl⟩ := by simpa using hl
    have hab : c.1 < b.1 := (List.pairwise_cons.mp h).1 b (by simp)
    rcases hb.lt_or_eq with hb | rfl
    · simp [interpFrom, hb, chord]; ring
    · rw [chord_right hab]
      simp only [interpFrom, lt_irrefl, if_false]
      exact interpFrom_at _ _ (List.pairwise_cons.mp h).2
  | cons p pre ih =>
    obtain ⟨rfl, rfl⟩ := by simpa using hl
    rcases hm : pre ++ a :: b :: post with _ | ⟨d, m⟩
    · simp at hm
    · rw [hm] at h
      have h2 := (List.pairwise_cons.mp h).2
      have : d.1 ≤ a.1 := by
        cases pre with
        | nil => simp at hm; rw [hm.1]
        | cons q pre =>
          simp at hm
          obtain ⟨rfl, rfl⟩ := hm
          exact ((List.pairwise_cons.mp h2).1 a (by simp)).le
      simp only [interpFrom, if_neg (not_lt.mpr (this.trans ha))]
      exact ih d m hm.symm h2

theorem interpFrom_last (pre : List (K × K)) (c b : K × K) (l t)
    (hl : c :: l = pre ++ [b]) (h : Increasing (c :: l)) (hb : b.1 ≤ t) :
    interpFrom c l t = b.2 := by
  induction pre generalizing c l with
  | nil => obtain ⟨rfl, rfl⟩ := by simpa using hl
           rfl
  | cons p pre ih =>
    obtain ⟨rfl, rfl⟩ := by simpa using hl
    rcases hm : pre ++ [b] with _ | ⟨d, m⟩
    · simp at hm
    · rw [hm] at h
      have h2 := (List.pairwise_cons.mp h).2
      have : d.1 ≤ b.1 := by
        cases pre with
        | nil => simp at hm; rw [hm.1]
        | cons q pre =>
          simp at hm
          obtain ⟨rfl, rfl⟩ := hm
          exact ((List.pairwise_cons.mp h2).1 b (by simp)).le
      simp only [interpFrom, if_neg (not_lt.mpr (this.trans hb))]
      exact ih d m hm.symm h2

theorem interpFrom_on (c : K × K) (l : List (K × K)) (t : K) (hc : c.1 ≤ t) :
    OnSegment (c :: l) t (interpFrom c l t) ∨
      ∃ pre b, c :: l = pre ++ [b] ∧ b.1 ≤ t ∧ interpFrom c l t = b.2 := by
  induction l generalizing c with
  | nil => exact .inr ⟨[], c, rfl, hc, rfl⟩
  | cons b r ih =>
    by_cases hb : t < b.1
    · left
      refine ⟨[], c, b, r, rfl, hc, hb.le, ?_⟩
      simp [interpFrom, hb, chord]; ring
    · simp only [interpFrom, if_neg hb]
      rcases ih b (not_lt.mp hb) with ⟨pre, x, z, post, e, h⟩ | ⟨pre, x, e, h⟩
      · exact .inl ⟨c :: pre, x, z, post, by simp [e], h⟩
      · exact .inr ⟨c :: pre, x, by simp [e], h⟩

theorem interpolate_on (l : List (K × K)) (hl : l ≠ []) (t : K) :
    OnClamped l t (interpolate l t) := by
  cases l with
  | nil => exact absurd rfl hl
  | cons c l =>
    by_cases hc : t < c.1
    · right; left
      exact ⟨c, l, rfl, hc.le, by simp [interpolate, hc]⟩
    · simp only [interpolate, if_neg hc]
      rcases interpFrom_on c l t (not_lt.mp hc) with h | h
      · exact .inl h
      · exact .inr (.inr h)

theorem head_le {c : K × K} {l : List (K × K)} (h : Increasing (c :: l)) {b : K × K}
    (hb : b ∈ c :: l) : c.1 ≤ b.1 := by
  rcases List.mem_cons.mp hb with rfl | hb
  · exact le_rfl
  · exact ((List.pairwise_cons.mp h).1 b hb).le

theorem le_last {c : K × K} {l : List (K × K)} (h : Increasing (l ++ [c])) {b : K × K}
    (hb : b ∈ l ++ [c]) : b.1 ≤ c.1 := by
  rcases List.mem_append.mp hb with hb | hb
  · exact ((List.pairwise_append.mp h).2.2 b hb c (by simp)).le
  · rw [List.mem_singleton.mp hb]

theorem interpolate_segment {l : List (K × K)} (h : Increasing l) {t y : K}
    (hy : OnSegment l t y) : y = interpolate l t := by
  obtain ⟨pre, a, b, post, e, ha, hb, rfl⟩ := hy
  cases l with
  | nil => simp at e
  | cons c l =>
    have : c.1 ≤ a.1 := head_le h (by rw [e]; simp)
    simp only [interpolate, if_neg (not_lt.mpr (this.trans ha))]
    exact (interpFrom_segment pre c a b post l t e h ha hb).symm

theorem interpolate_unique {l : List (K × K)} (h : Increasing l) {t y : K}
    (hy : OnClamped l t y) : y = interpolate l t := by
  rcases hy with hy | ⟨a, post, rfl, ha, rfl⟩ | ⟨pre, b, e, hb, rfl⟩
  · exact interpolate_segment h hy
  · rcases ha.lt_or_eq with ha | rfl
    · simp [interpolate, ha]
    · simp [interpolate, interpFrom_at a post h]
  · cases l with
    | nil => simp at e
    | cons c l =>
      have : c.1 ≤ b.1 := head_le h (by rw [e]; simp)
      simp only [interpolate, if_neg (not_lt.mpr (this.trans hb))]
      exact (interpFrom_last pre c b l t e h hb).symm

theorem interpolate_node {l : List (K × K)} (h : Increasing l) {a : K × K} (ha : a ∈ l) :
    interpolate l a.1 = a.2 := by
  obtain ⟨pre, post, rfl⟩ := List.append_of_mem ha
  symm
  apply interpolate_unique h
  cases post with
  | nil => exact .inr (.inr ⟨pre, a, rfl, le_rfl, rfl⟩)
  | cons b post =>
    refine .inl ⟨pre, a, b, post, rfl, le_rfl, ?_, (chord_left a b).symm⟩
    exact ((List.pairwise_cons.mp (List.pairwise_append.mp h).2.1).1 b (by simp)).le

theorem onExtended_unique {l : List (K × K)} (h : Increasing l) {t y z : K}
    (hy : OnExtended l t y) (hz : OnExtended l t z) : y = z := by
  have left : ∀ {a b : K × K} {post : List (K × K)} {y}, l = a :: b :: post → t ≤ a.1 →
      OnSegment l t y → y = chord a b t := by
    intro a b post y e ht hs
    have hy := interpolate_segment h hs
    obtain ⟨pre, c, d, post', e', hc, -, -⟩ := hs
    have : a.1 ≤ c.1 := head_le (l := b :: post) (e ▸ h) (by rw [← e, e']; simp)
    obtain rfl : t = a.1 := le_antisymm ht (this.trans hc)
    rw [hy, chord_left, interpolate_node h (by rw [e]; simp)]
  have right : ∀ {a b : K × K} {pre : List (K × K)} {y}, l = pre ++ [a, b] → b.1 ≤ t →
      OnSegment l t y → y = chord a b t := by
    intro a b pre y e ht hs
    have hy := interpolate_segment h hs
    obtain ⟨pre', c, d, post', e', -, hd, -⟩ := hs
    have e2 : l = (pre ++ [a]) ++ [b] := by simp [e]
    have : d.1 ≤ b.1 := le_last (l := pre ++ [a]) (e2 ▸ h) (by rw [← e2, e']; simp)
    obtain rfl : t = b.1 := le_antisymm (hd.trans this) ht
    have hab : a.1 < b.1 := by
      have := (List.pairwise_append.mp (e ▸ h)).2.1
      exact (List.pairwise_cons.mp this).1 b (by simp)
    rw [hy, chord_right hab, interpolate_node h (by rw [e]; simp)]
  have lr : ∀ {a b c d : K × K} {pre post : List (K × K)}, l = a :: b :: post → t ≤ a.1 →
      l = pre ++ [c, d] → d.1 ≤ t → False := by
    intro a b c d pre post e ha e' hd
    have h1 : a.1 < d.1 := by
      have hmem : d ∈ b :: post := by
        have : l = (pre ++ [c]) ++ [d] := by simp [e']
        rw [e] at this
        rcases hp : pre ++ [c] with _ | ⟨u, v⟩
        · simp at hp
        · rw [hp] at this
          simp at this
          rw [this.2]; simp
      exact (List.pairwise_cons.mp (e ▸ h)).1 d hmem
    exact absurd (ha.trans_lt h1) (not_lt.mpr hd)
  rcases hy with hy | ⟨a, b, post, e, ha, rfl⟩ | ⟨pre, a, b, e, hb, rfl⟩ <;>
    rcases hz with hz | ⟨a', b', post', e', ha', rfl⟩ | ⟨pre', a', b', e', hb', rfl⟩
  · rw [interpolate_segment h hy, interpolate_segment h hz]
  · exact left e' ha' hy
  · exact right e' hb' hy
  · exact (left e ha hz).symm
  · rw [e] at e'; simp at e'; rw [e'.1, e'.2.1]
  · exact (lr e ha e' hb').elim
  · exact (right e hb hz).symm
  · exact (lr e' ha' e hb).elim
  · rw [e] at e'
    have := List.append_inj' e' rfl
    simp at this; rw [this.2.1, this.2.2]

omit [IsStrictOrderedRing K] in
theorem onSegment_cons {c : K × K} {l : List (K × K)} {t y : K} (h : OnSegment (c :: l) t y) :
    OnSegment l t y ∨ ∃ b rest, l = b :: rest ∧ c.1 ≤ t ∧ t ≤ b.1 ∧ y = chord c b t := by
  obtain ⟨pre, a, b, post, e, h⟩ := h
  cases pre with
  | nil => simp at e; obtain ⟨rfl, rfl⟩ := e; exact .inr ⟨b, post, rfl, h⟩
  | cons p pre => simp at e; exact .inl ⟨pre, a, b, post, e.2, h⟩

omit [IsStrictOrderedRing K] in
theorem onSegment_snoc {c : K × K} {l : List (K × K)} {t y : K} (h : OnSegment (l ++ [c]) t y) :
    OnSegment l t y ∨ ∃ pre b, l = pre ++ [b] ∧ b.1 ≤ t ∧ t ≤ c.1 ∧ y = chord b c t := by
  obtain ⟨pre, a, b, post, e, h⟩ := h
  rcases List.eq_nil_or_concat post with rfl | ⟨post, d, rfl⟩
  · have e' : l ++ [c] = (pre ++ [a]) ++ [b] := by simp [e]
    have := List.append_inj' e' rfl
    obtain ⟨rfl, e3⟩ := this
    simp at e3; subst e3
    exact .inr ⟨pre, a, rfl, h⟩
  · have e' : l ++ [c] = (pre ++ a :: b :: post) ++ [d] := by simp [e]
    have := List.append_inj' e' rfl
    exact .inl ⟨pre, a, b, post, this.1, h⟩

theorem columns_eq (m : List (K × K)) (h : Increasing m) {pre : List (K × K)} {a b : K × K}
    {post : List (K × K)} (e : m = pre ++ a :: b :: post) {t : K} (ha : a.1 ≤ t) (hb : t < b.1) :
    columns (m.map Prod.fst) t = [pre.length] := by
  have hmono : ∀ (i j : ℕ) (x y : K × K), i < j → m[i]? = some x → m[j]? = some y → x.1 < y.1 := by
    intro i j x y hij hx hy
    obtain ⟨hi, hx⟩ := List.getElem?_eq_some_iff.mp hx
    obtain ⟨hj, hy⟩ := List.getElem?_eq_some_iff.mp hy
    have := List.pairwise_iff_getElem.mp h i j hi hj hij
    rwa [hx, hy] at this
  have ga : m[pre.length]? = some a := by rw [e]; simp
  have gb : m[pre.length + 1]? = some b := by rw [e]; simp
  unfold columns
  set f : ℕ → Bool := fun j =>
    match (m.map Prod.fst)[j]?, (m.map Prod.fst)[j+1]? with
    | some l, some r => decide (l ≤ t) && decide (t < r)
    | _, _ => false with hf
  have hfj : ∀ j, f j = true ↔ j = pre.length := by
    intro j
    simp only [hf, List.getElem?_map]
    rcases hx : m[j]? with _ | x
    · simp only [Option.map_none, Bool.false_eq_true, false_iff]
      rintro rfl; rw [ga] at hx; cases hx
    rcases hy : m[j+1]? with _ | y
    · simp only [Option.map_none, Option.map_some, Bool.false_eq_true, false_iff]
      rintro rfl; rw [gb] at hy; cases hy
    simp only [Option.map_some, Bool.and_eq_true, decide_eq_true_eq]
    constructor
    · rintro ⟨h1, h2⟩
      rcases lt_trichotomy j pre.length with hj | hj | hj
      · exfalso
        rcases (Nat.succ_le_of_lt hj).lt_or_eq with h3 | h3
        · exact absurd (h2.trans (hmono _ _ y a h3 hy ga)) (not_lt.mpr ha)
        · simp only [Nat.succ_eq_add_one] at h3
          rw [h3, ga] at hy; cases hy; exact absurd h2 (not_lt.mpr ha)
      · exact hj
      · exfalso
        rcases (Nat.succ_le_of_lt hj).lt_or_eq with h3 | h3
        · exact absurd (hb.trans (hmono _ _ b x h3 gb hx)) (not_lt.mpr h1)
        · simp only [Nat.succ_eq_add_one] at h3
          rw [← h3, gb] at hx; cases hx; exact absurd hb (not_lt.mpr h1)
    · rintro rfl
      rw [ga] at hx; cases hx
      rw [gb] at hy; cases hy
      exact ⟨ha, hb⟩
  have hlt : pre.length < (m.map Prod.fst).length - 1 := by rw [e]; simp
  have nd : ((List.range ((m.map Prod.fst).length - 1)).filter f).Nodup :=
    List.nodup_range.filter _
  rcases hL : (List.range ((m.map Prod.fst).length - 1)).filter f with _ | ⟨x, l⟩
  · exfalso
    have : pre.length ∈ (List.range ((m.map Prod.fst).length - 1)).filter f :=
      List.mem_filter.mpr ⟨List.mem_range.mpr hlt, (hfj _).mpr rfl⟩
    rw [hL] at this; simp at this
  · have hall : ∀ z ∈ x :: l, z = pre.length := by
      intro z hz; rw [← hL] at hz
      exact (hfj z).mp (List.mem_filter.mp hz).2
    have hx := hall x (by simp)
    cases l with
    | nil => rw [hx]
    | cons z l =>
      rw [hL] at nd
      have := hall z (by simp)
      simp [hx, this] at nd

omit [LinearOrder K] [IsStrictOrderedRing K] in
theorem intervalValue_eq (pre : List (K × K)) (a b : K × K) (post : List (K × K)) (t : K) :
    intervalValue ((pre ++ a :: b :: post).map Prod.fst) ((pre ++ a :: b :: post).map Prod.snd) t
      pre.length = some (chord a b t) := by
  simp [intervalValue, chord]; ring

omit [Field K] [IsStrictOrderedRing K] in
theorem exists_segment (m : List (K × K)) (c d : K × K) (t : K) (hc : m.head? = some c)
    (hd : m.getLast? = some d) (hct : c.1 ≤ t) (htd : t < d.1) :
    ∃ pre a b post, m = pre ++ a :: b :: post ∧ a.1 ≤ t ∧ t < b.1 := by
  induction m generalizing c with
  | nil => simp at hc
  | cons x l ih =>
    simp at hc; subst hc
    cases l with
    | nil => simp at hd; subst hd; exact absurd htd (not_lt.mpr hct)
    | cons y l =>
      by_cases hy : t < y.1
      · exact ⟨[], x, y, l, rfl, hct, hy⟩
      · obtain ⟨pre, a, b, post, e, h⟩ := ih y rfl (by simpa using hd) (not_lt.mp hy)
        exact ⟨x :: pre, a, b, post, by simp [e], h⟩

omit [Field K] [IsStrictOrderedRing K] in
theorem min_increasing (c : K) (l : List K) (h : ∀ x ∈ l, c ≤ x) : (c :: l).min? = some c := by
  rw [List.min?_cons']
  congr 1
  induction l with
  | nil => rfl
  | cons x l ih =>
    simp only [List.foldl_cons]
    rw [min_eq_left (h x (by simp))]
    exact ih (fun y hy => h y (by simp [hy]))

omit [Field K] [IsStrictOrderedRing K] in
theorem max_increasing (c : K) (l : List K) (h : ∀ x ∈ l, x ≤ c) : (l ++ [c]).max? = some c := by
  cases l with
  | nil => rfl
  | cons a l =>
    rw [List.cons_append, List.max?_cons']
    congr 1
    have key : ∀ (l : List K) (a : K), a ≤ c → (∀ x ∈ l, x ≤ c) → (l ++ [c]).foldl max a = c := by
      intro l
      induction l with
      | nil => intro a ha _; simp [ha]
      | cons x l ih =>
        intro a ha hl
        simp only [List.cons_append, List.foldl_cons]
        exact ih _ (max_le ha (hl x (by simp))) (fun y hy => hl y (by simp [hy]))
    exact key l a (h a (by simp)) (fun x hx => h x (by simp [hx]))

theorem extendLeft_eq (xMin : K) (n0 n1 : K × K) (rest : List (K × K))
    (h : Increasing (n0 :: n1 :: rest)) :
    extendLeft xMin ((n0 :: n1 :: rest).map Prod.fst) ((n0 :: n1 :: rest).map Prod.snd) =
      let m := if n0.1 > xMin then (xMin, chord n0 n1 xMin) :: n0 :: n1 :: rest
        else n0 :: n1 :: rest
      some (m.map Prod.fst, m.map Prod.snd) := by
  have hm : ((n0 :: n1 :: rest).map Prod.fst).min? = some n0.1 := by
    apply min_increasing
    intro x hx
    obtain ⟨b, hb, rfl⟩ := List.mem_map.mp hx
    exact ((List.pairwise_cons.mp h).1 b hb).le
  unfold extendLeft
  rw [hm]
  have bs : ∀ {α β : Type _} (a : α) (f : α → Option β), (some a >>= f) = f a := fun _ _ => rfl
  rw [bs]
  split_ifs with h1
  · simp [chord]; ring
  · rfl

theorem extendRight_eq (xMax : K) (pre : List (K × K)) (p q : K × K)
    (h : Increasing (pre ++ [p, q])) :
    extendRight xMax ((pre ++ [p, q]).map Prod.fst) ((pre ++ [p, q]).map Prod.snd) =
      let m := if q.1 ≤ xMax then pre ++ [p, q] ++ [(xMax + 1, chord p q (xMax + 1))]
        else pre ++ [p, q]
      some (m.map Prod.fst, m.map Prod.snd) := by
  have hm : ((pre ++ [p, q]).map Prod.fst).max? = some q.1 := by
    have e : (pre ++ [p, q]).map Prod.fst = ((pre ++ [p]).map Prod.fst) ++ [q.1] := by simp
    rw [e]
    apply max_increasing
    intro x hx
    obtain ⟨b, hb, rfl⟩ := List.mem_map.mp hx
    have e2 : pre ++ [p, q] = (pre ++ [p]) ++ [q] := by simp
    exact le_last (l := pre ++ [p]) (e2 ▸ h) (List.mem_append_left _ hb)
  unfold extendRight
  rw [hm]
  have bs : ∀ {α β : Type _} (a : α) (f : α → Option β), (some a >>= f) = f a := fun _ _ => rfl
  rw [bs]
  split_ifs with h1
  · simp [chord]; ring
  · rfl

/-- The whole computation, for increasing nodes. -/
theorem calcBackground_eq (nodes : List (K × K)) (h : Increasing nodes) (h2 : 2 ≤ nodes.length)
    (tt : List K) (ht : tt ≠ []) :
    ∃ out, calcBackground tt (nodes.map Prod.fst) (nodes.map Prod.snd) = some out ∧
      List.Forall₂ (fun t y => OnExtended nodes t y) tt out := by
  obtain ⟨n0, n1, rest, rfl⟩ : ∃ n0 n1 rest, nodes = n0 :: n1 :: rest := by
    rcases nodes with _ | ⟨a, _ | ⟨b, r⟩⟩
    · simp at h2
    · simp at h2
    · exact ⟨a, b, r, rfl⟩
  obtain ⟨pre, p, q, hpq⟩ : ∃ pre p q, n0 :: n1 :: rest = pre ++ [p, q] := by
    rcases List.eq_nil_or_concat (n0 :: n1 :: rest) with h0 | ⟨l, q, e⟩
    · simp at h0
    · rcases List.eq_nil_or_concat l with rfl | ⟨l', p, rfl⟩
      · simp at e
      · exact ⟨l', p, q, by simp [e]⟩
  have h01 : n0.1 < n1.1 := (List.pairwise_cons.mp h).1 n1 (by simp)
  have hpq' : p.1 < q.1 := by
    have := (List.pairwise_append.mp (hpq ▸ h)).2.1
    exact (List.pairwise_cons.mp this).1 q (by simp)
  obtain ⟨xMin, hmin⟩ : ∃ x, tt.min? = some x := by
    cases tt with
    | nil => exact absurd rfl ht
    | cons a l => exact ⟨_, List.min?_cons'⟩
  obtain ⟨xMax, hmax⟩ : ∃ x, tt.max? = some x := by
    cases tt with
    | nil => exact absurd rfl ht
    | cons a l => exact ⟨_, List.max?_cons'⟩
  have hmin' : ∀ t ∈ tt, xMin ≤ t := (List.min?_eq_some_iff.mp hmin).2
  have hmax' : ∀ t ∈ tt, t ≤ xMax := (List.max?_eq_some_iff.mp hmax).2
  -- the nodes after the two extensions
  set L : List (K × K) := if n0.1 > xMin then [(xMin, chord n0 n1 xMin)] else [] with hL
  set R : List (K × K) := if q.1 ≤ xMax then [(xMax + 1, chord p q (xMax + 1))] else [] with hR
  have e1 : extendLeft xMin ((n0 :: n1 :: rest).map Prod.fst) ((n0 :: n1 :: rest).map Prod.snd) =
      some ((L ++ n0 :: n1 :: rest).map Prod.fst, (L ++ n0 :: n1 :: rest).map Prod.snd) := by
    rw [extendLeft_eq _ _ _ _ h]
    simp only [hL]
    split_ifs <;> rfl
  have hincL : Increasing (L ++ n0 :: n1 :: rest) := by
    simp only [hL]
    split_ifs with hx
    · refine List.pairwise_cons.mpr ⟨?_, h⟩
      intro b hb
      exact hx.trans_le (head_le h hb)
    · exact h
  have e2 : extendRight xMax ((L ++ n0 :: n1 :: rest).map Prod.fst)
      ((L ++ n0 :: n1 :: rest).map Prod.snd) =
      some ((L ++ n0 :: n1 :: rest ++ R).map Prod.fst,
        (L ++ n0 :: n1 :: rest ++ R).map Prod.snd) := by
    have e3 : L ++ n0 :: n1 :: rest = (L ++ pre) ++ [p, q] := by rw [hpq]; simp
    rw [e3, extendRight_eq _ _ _ _ (e3 ▸ hincL)]
    simp only [hR]
    split_ifs <;> simp
  have hinc : Increasing (L ++ n0 :: n1 :: rest ++ R) := by
    simp only [hR]
    split_ifs with hx
    · refine List.pairwise_append.mpr ⟨hincL, by simp, ?_⟩
      intro a ha b hb
      rw [List.mem_singleton.mp hb]
      have e3 : L ++ n0 :: n1 :: rest = (L ++ pre ++ [p]) ++ [q] := by rw [hpq]; simp
      have := le_last (l := L ++ pre ++ [p]) (e3 ▸ hincL) (e3 ▸ ha)
      exact (this.trans hx).trans_lt (lt_add_one _)
    · simpa using hincL
  obtain ⟨m, hm⟩ : ∃ m, m = L ++ n0 :: n1 :: rest ++ R := ⟨_, rfl⟩
  rw [← hm] at e2 hinc
  obtain ⟨c, hc, hc'⟩ : ∃ c, m.head? = some c ∧ c.1 ≤ xMin := by
    rw [hm]; simp only [hL]
    split_ifs with hx
    · exact ⟨(xMin, chord n0 n1 xMin), rfl, le_rfl⟩
    · exact ⟨n0, rfl, not_lt.mp hx⟩
  obtain ⟨d, hd, hd'⟩ : ∃ d, m.getLast? = some d ∧ xMax < d.1 := by
    rw [hm, hpq]; simp only [hR]
    split_ifs with hx
    · exact ⟨(xMax + 1, chord p q (xMax + 1)), by simp, lt_add_one _⟩
    · exact ⟨q, by simp, not_le.mp hx⟩
  have seg : ∀ t ∈ tt, ∃ pre a b post, m = pre ++ a :: b :: post ∧ a.1 ≤ t ∧ t < b.1 :=
    fun t htt => exists_segment m c d t hc hd (hc'.trans (hmin' t htt))
      ((hmax' t htt).trans_lt hd')
  have ext : ∀ t y, OnSegment m t y → OnExtended (n0 :: n1 :: rest) t y := by
    intro t y hs
    rw [hm] at hs
    have step1 : OnSegment (L ++ n0 :: n1 :: rest) t y ∨ (q.1 ≤ t ∧ y = chord p q t) := by
      simp only [hR] at hs
      split_ifs at hs with hx
      · rcases onSegment_snoc hs with hs | ⟨pre', b, e, h1, h2, rfl⟩
        · exact .inl hs
        · right
          have e3 : L ++ n0 :: n1 :: rest = (L ++ pre ++ [p]) ++ [q] := by rw [hpq]; simp
          rw [e3] at e
          have := (List.append_inj' e rfl).2
          simp at this; subst this
          exact ⟨h1, chord_chord' hpq' _ (hx.trans_lt (lt_add_one _)) t⟩
      · left; simpa using hs
    rcases step1 with hs | ⟨h1, h2⟩
    · simp only [hL] at hs
      split_ifs at hs with hx
      · rcases onSegment_cons hs with hs | ⟨b, r, e, h1, h2, rfl⟩
        · exact .inl hs
        · right; left
          simp at e; obtain ⟨rfl, rfl⟩ := e
          exact ⟨n0, n1, rest, rfl, h2, chord_chord h01 _ hx t⟩
      · exact .inl hs
    · exact .inr (.inr ⟨pre, p, q, hpq, h1, h2⟩)
  have bs : ∀ {α β : Type _} (a : α) (f : α → Option β), (some a >>= f) = f a := fun _ _ => rfl
  have cols : ∀ s : List K, (∀ t ∈ s, t ∈ tt) →
      (s.flatMap (columns (m.map Prod.fst))).length = s.length ∧
      ∃ out, ((s.zip (s.flatMap (columns (m.map Prod.fst)))).mapM
        fun q => intervalValue (m.map Prod.fst) (m.map Prod.snd) q.1 q.2) = some out ∧
        List.Forall₂ (fun t y => OnExtended (n0 :: n1 :: rest) t y) s out := by
    intro s
    induction s with
    | nil => intro _; exact ⟨rfl, [], rfl, .nil⟩
    | cons t s ih =>
      intro hs
      obtain ⟨ih1, out, ih2, ih3⟩ := ih (fun x hx => hs x (by simp [hx]))
      obtain ⟨pr, a, b, po, e, ha, hb⟩ := seg t (hs t (by simp))
      have hcol := columns_eq m hinc e ha hb
      refine ⟨by rw [List.flatMap_cons, hcol]; simp [ih1], chord a b t :: out, ?_, ?_⟩
      · have iv : intervalValue (m.map Prod.fst) (m.map Prod.snd) t pr.length =
            some (chord a b t) := by rw [e]; exact intervalValue_eq pr a b po t
        rw [List.flatMap_cons, hcol, List.singleton_append, List.zip_cons_cons, List.mapM_cons]
        simp only []
        rw [iv, bs, ih2]; rfl
      · exact .cons (ext t _ ⟨pr, a, b, po, e, ha, hb.le, rfl⟩) ih3
  obtain ⟨c1, out, c2, c3⟩ := cols tt (fun _ h => h)
  refine ⟨out, ?_, c3⟩
  unfold calcBackground
  rw [hmin, bs, hmax, bs, e1, bs]
  simp only []
  rw [e2, bs]
  simp only [c1, ne_eq, not_true_eq_false, if_false]
  exact c2

end Cryspy.Bkg
