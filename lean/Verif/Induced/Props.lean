import Verif.Induced.Model
import Verif.Gens.Props
import Verif.Sect.Props
import Verif.Text.SymopLemmas

/-!
# C100: moments induced by a field
-/

namespace Cryspy.Induced

open Cryspy.Gens Matrix

/-! ## What is said of operations and points -/

/-- the same point up to translations of the lattice -/
def SamePlace (a b : Fin 3 → ℚ) : Prop := ∃ n : Fin 3 → ℤ, ∀ i, a i = b i + n i

/-- the operations, with translations in the cell, form a group -/
structure IsGroup (ops : List Op) : Prop where
  nodup : ops.Nodup
  normal : ∀ o ∈ ops, ∀ i, 0 ≤ o.b i ∧ o.b i < 1
  one_mem : one ∈ ops
  mul_mem : ∀ a ∈ ops, ∀ b ∈ ops, mul a b ∈ ops
  inv : ∀ a ∈ ops, ∃ b ∈ ops, mul b a = one

/-- different images of the atom are still different after the rounding -/
def Faithful (ops : List Op) (x : Fin 3 → ℚ) : Prop :=
  ∀ o ∈ ops, ∀ o' ∈ ops, pos o x = pos o' x → SamePlace (image o x) (image o' x)

/-- the tensor has the symmetry of the site -/
def SiteSym (ops : List Op) (x : Fin 3 → ℚ) (chi : Matrix (Fin 3) (Fin 3) ℝ) : Prop :=
  ∀ o ∈ ops, SamePlace (image o x) x → rot o * chi * (rot o)ᵀ = chi

/-- the rotation, in the axes `a/|a|, b/|b|, c/|c|`, keeps lengths and angles of the cell -/
def Isometry (m : Matrix (Fin 3) (Fin 3) ℝ) (o : Op) : Prop := (rot o)ᵀ * (mᵀ * m) * rot o = mᵀ * m

theorem SamePlace.symm {a b : Fin 3 → ℚ} (h : SamePlace a b) : SamePlace b a := by
  obtain ⟨n, hn⟩ := h
  exact ⟨fun i => -n i, fun i => by rw [hn i]; push_cast; ring⟩

theorem SamePlace.trans {a b c : Fin 3 → ℚ} (h : SamePlace a b) (k : SamePlace b c) : SamePlace a c := by
  obtain ⟨n, hn⟩ := h
  obtain ⟨p, hp⟩ := k
  exact ⟨fun i => p i + n i, fun i => by rw [hn i, hp i]; push_cast; ring⟩

theorem SamePlace.image (o : Op) {a b : Fin 3 → ℚ} (h : SamePlace a b) : SamePlace (image o a) (image o b) := by
  obtain ⟨n, hn⟩ := h
  refine ⟨fun i => ∑ j, o.r i j * n j, fun i => ?_⟩
  unfold Induced.image
  simp only [hn, Fin.sum_univ_three]
  push_cast
  ring

theorem image_mul (a b : Op) (x : Fin 3 → ℚ) : SamePlace (image (mul a b) x) (image a (image b x)) := mul_acts a b x

theorem image_one (x : Fin 3 → ℚ) : image one x = x := by
  funext i
  unfold image Gens.one
  simp [Matrix.one_apply]

theorem rot_mul (a b : Op) : rot (mul a b) = rot a * rot b := by
  ext i j
  simp only [rot, mul, Matrix.map_apply, Matrix.mul_apply, Fin.sum_univ_three]
  push_cast
  ring

theorem turned_mul (a b : Op) (chi : Matrix (Fin 3) (Fin 3) ℝ) : turned (mul a b) chi = turned a (turned b chi) := by
  unfold turned
  rw [rot_mul, Matrix.transpose_mul]
  simp only [Matrix.mul_assoc]

theorem pos_of_same {o o' : Op} {x y : Fin 3 → ℚ} (h : SamePlace (image o x) (image o' y)) : pos o x = pos o' y := by
  obtain ⟨n, hn⟩ := h
  funext i
  unfold pos
  rw [hn i, Int.fract_add_intCast]

/-! ## Rounding -/

theorem rint_spec (x : ℚ) : |(rint x : ℚ) - x| ≤ 1 / 2 := by
  have h0 := Int.fract_nonneg x
  have h1 := Int.fract_lt_one x
  have e := Int.floor_add_fract x
  unfold rint
  split_ifs with a b c
  · rw [abs_le]; constructor <;> linarith
  · rw [abs_le]; push_cast; constructor <;> linarith
  · rw [abs_le]; constructor <;> linarith
  · rw [abs_le]; push_cast; constructor <;> linarith

theorem round5_near (x : ℚ) : |round5 x - x| ≤ 1 / 200000 := by
  have h := abs_le.1 (rint_spec (x * 10 ^ 5))
  unfold round5
  rw [abs_le]
  constructor
  · rw [le_sub_iff_add_le, le_div_iff₀ (by norm_num)]; linarith [h.1]
  · rw [sub_le_iff_le_add, div_le_iff₀ (by norm_num)]; linarith [h.2]

theorem round5_real (x : ℝ) : |Sect.round5 x - x| ≤ 1 / 200000 := by
  have h := abs_le.1 (Sect.rint_spec (x * 10 ^ 5))
  unfold Sect.round5
  rw [abs_le]
  constructor
  · rw [le_sub_iff_add_le, le_div_iff₀ (by norm_num)]; linarith [h.1]
  · rw [sub_le_iff_le_add, div_le_iff₀ (by norm_num)]; linarith [h.2]

/-- C100: the rounding does no harm to an atom whose images in the cell are the same or differ by more than 0.00001 in a coordinate. -/
theorem faithful_of_apart (ops : List Op) (x : Fin 3 → ℚ)
    (h : ∀ o ∈ ops, ∀ o' ∈ ops, SamePlace (image o x) (image o' x) ∨
      ∃ i, 1 / 100000 < |Int.fract (image o x i) - Int.fract (image o' x i)|) : Faithful ops x := by
  intro o ho o' ho' e
  rcases h o ho o' ho' with h | ⟨i, hi⟩
  · exact h
  · exfalso
    have e' : round5 (Int.fract (image o x i)) = round5 (Int.fract (image o' x i)) := congrFun e i
    have h1 := abs_le.1 (round5_near (Int.fract (image o x i)))
    have h2 := abs_le.1 (round5_near (Int.fract (image o' x i)))
    rw [e'] at h1
    have : |Int.fract (image o x i) - Int.fract (image o' x i)| ≤ 1 / 100000 := by
      rw [abs_le]; constructor <;> linarith [h1.1, h1.2, h2.1, h2.2]
    linarith

/-! ## The images -/

theorem firsts_spec (x : Fin 3 → ℚ) (ops : List Op) : ∀ seen : List (Fin 3 → ℚ),
    ((firsts x seen ops).map Prod.fst).Nodup ∧
    (∀ p, p ∈ (firsts x seen ops).map Prod.fst ↔ p ∉ seen ∧ ∃ o ∈ ops, p = pos o x) ∧
    ∀ e ∈ firsts x seen ops, e.2 ∈ ops ∧ e.1 = pos e.2 x := by
  induction ops with
  | nil => intro seen; simp [firsts]
  | cons o os ih =>
    intro seen
    unfold firsts
    split_ifs with h
    · obtain ⟨a, b, c⟩ := ih seen
      refine ⟨a, fun p => ?_, fun e he => ⟨List.mem_cons_of_mem _ (c e he).1, (c e he).2⟩⟩
      rw [b]
      constructor
      · rintro ⟨hp, q, hq, e⟩; exact ⟨hp, q, List.mem_cons_of_mem _ hq, e⟩
      · rintro ⟨hp, q, hq, e⟩
        rcases List.mem_cons.1 hq with rfl | hq
        · exact absurd (e ▸ h) hp
        · exact ⟨hp, q, hq, e⟩
    · obtain ⟨a, b, c⟩ := ih (seen ++ [pos o x])
      refine ⟨?_, fun p => ?_, fun e he => ?_⟩
      · rw [List.map_cons, List.nodup_cons]
        exact ⟨fun k => ((b _).1 k).1 (by simp), a⟩
      · rw [List.map_cons, List.mem_cons, b]
        constructor
        · rintro (rfl | ⟨hp, q, hq, e⟩)
          · exact ⟨h, o, by simp, rfl⟩
          · exact ⟨fun k => hp (by simp [k]), q, List.mem_cons_of_mem _ hq, e⟩
        · rintro ⟨hp, q, hq, e⟩
          by_cases k : p = pos o x
          · exact Or.inl k
          · refine Or.inr ⟨by simp [hp, k], q, ?_, e⟩
            rcases List.mem_cons.1 hq with rfl | hq
            · exact absurd e k
            · exact hq
      · rcases List.mem_cons.1 he with rfl | he
        · exact ⟨by simp, rfl⟩
        · exact ⟨List.mem_cons_of_mem _ (c e he).1, (c e he).2⟩

/-- C100: every image of the atom is listed, once, and each listed position is, within the fifth decimal and up to a lattice translation, that of
an operation, whose rotation has turned the tensor. -/
theorem listed (ops : List Op) (chi : Matrix (Fin 3) (Fin 3) ℝ) (x : Fin 3 → ℚ) :
    ((rotatedMatrices ops chi x).map Prod.fst).Nodup ∧
    (∀ o ∈ ops, pos o x ∈ (rotatedMatrices ops chi x).map Prod.fst) ∧
    ∀ e ∈ rotatedMatrices ops chi x, ∃ o ∈ ops, e.1 = pos o x ∧ e.2 = rot o * chi * (rot o)ᵀ ∧
      ∃ t : Fin 3 → ℤ, ∀ i, |e.1 i - (∑ j, (o.r i j : ℚ) * x j + o.b i + t i)| ≤ 1 / 200000 := by
  obtain ⟨a, b, c⟩ := firsts_spec x ops []
  have e : (rotatedMatrices ops chi x).map Prod.fst = (firsts x [] ops).map Prod.fst := by
    unfold rotatedMatrices; rw [List.map_map]; rfl
  rw [e]
  refine ⟨a, fun o ho => (b _).2 ⟨by simp, o, ho, rfl⟩, ?_⟩
  intro p hp
  obtain ⟨q, hq, rfl⟩ := List.mem_map.1 hp
  refine ⟨q.2, (c q hq).1, (c q hq).2, rfl, fun i => -⌊image q.2 x i⌋, fun i => ?_⟩
  have := round5_near (Int.fract (image q.2 x i))
  dsimp only
  rw [(c q hq).2]
  have k : (∑ j, (q.2.r i j : ℚ) * x j + q.2.b i + ((-⌊image q.2 x i⌋ : ℤ) : ℚ)) = Int.fract (image q.2 x i) := by
    unfold Int.fract image; push_cast; ring
  rw [k]
  exact this

theorem IsGroup.right_inv {ops : List Op} (hG : IsGroup ops) {a : Op} (ha : a ∈ ops) : ∃ b ∈ ops, mul b a = one ∧ mul a b = one := by
  obtain ⟨b, hb, e⟩ := hG.inv a ha
  obtain ⟨c, hc, e'⟩ := hG.inv b hb
  refine ⟨b, hb, e, ?_⟩
  have : a = c := by
    have h1 : mul (mul c b) a = a := by rw [e']; exact one_mul' (hG.normal a ha)
    rw [mul_assoc', e, mul_one' (hG.normal c hc)] at h1
    exact h1.symm
  rw [this]
  exact e'

/-- two operations that carry the atom to one place differ by an operation of its site -/
theorem differ {ops : List Op} (hG : IsGroup ops) {x : Fin 3 → ℚ} {o o' : Op} (ho : o ∈ ops) (ho' : o' ∈ ops)
    (h : SamePlace (image o x) (image o' x)) : ∃ s ∈ ops, SamePlace (image s x) x ∧ o = mul o' s := by
  obtain ⟨b, hb, e, e'⟩ := hG.right_inv ho'
  refine ⟨mul b o, hG.mul_mem b hb o ho, ?_, ?_⟩
  · have h1 := (image_mul b o x).trans (h.image b)
    have h2 := h1.trans (image_mul b o' x).symm
    rw [e, image_one] at h2
    exact h2
  · rw [← mul_assoc', e', one_mul' (hG.normal o ho)]

/-- C100: which operation of several that carry the atom to a place is taken makes no difference, if the tensor has the symmetry of the site. -/
theorem any_operation {ops : List Op} (hG : IsGroup ops) {x : Fin 3 → ℚ} (hF : Faithful ops x) {chi : Matrix (Fin 3) (Fin 3) ℝ}
    (hS : SiteSym ops x chi) {o : Op} (ho : o ∈ ops) : (pos o x, rot o * chi * (rot o)ᵀ) ∈ rotatedMatrices ops chi x := by
  obtain ⟨-, b, c⟩ := listed ops chi x
  obtain ⟨e, he, e1⟩ := List.mem_map.1 (b o ho)
  obtain ⟨o', ho', h1, h2, -⟩ := c e he
  obtain ⟨s, hs, h3, h4⟩ := differ hG ho ho' (hF o ho o' ho' (e1 ▸ h1))
  have : rot o * chi * (rot o)ᵀ = e.2 := by
    have := turned_mul o' s chi
    rw [← h4] at this
    unfold turned at this
    rw [this, hS s hs h3, h2]
  rw [this, ← e1]
  exact he

open Classical in
/-- C100: the number of images times the number of operations of the site is the number of operations. -/
theorem number_of_images {ops : List Op} (hG : IsGroup ops) {x : Fin 3 → ℚ} (hF : Faithful ops x) (chi : Matrix (Fin 3) (Fin 3) ℝ) :
    (rotatedMatrices ops chi x).length * (ops.filter fun o => SamePlace (image o x) x).length = ops.length := by
  obtain ⟨a, b, -⟩ := firsts_spec x ops []
  have e1 : (rotatedMatrices ops chi x).length = (ops.toFinset.image fun o => pos o x).card := by
    have : ((firsts x [] ops).map Prod.fst).toFinset = ops.toFinset.image fun o => pos o x := by
      ext p
      rw [List.mem_toFinset, b]
      simp [eq_comm]
    rw [← this, List.toFinset_card_of_nodup a]
    simp [rotatedMatrices]
  have e2 : (ops.filter fun o => SamePlace (image o x) x).length = (ops.toFinset.filter fun o => SamePlace (image o x) x).card := by
    have : ops.toFinset.filter (fun o => SamePlace (image o x) x) = (ops.filter fun o => SamePlace (image o x) x).toFinset := by
      ext o
      simp
    rw [this, List.toFinset_card_of_nodup (hG.nodup.filter _)]
  have e3 : ops.length = ops.toFinset.card := (List.toFinset_card_of_nodup hG.nodup).symm
  rw [e1, e2, e3, Finset.card_eq_sum_card_image (fun o => pos o x) ops.toFinset, Finset.sum_const_nat]
  intro p hp
  obtain ⟨o, ho, rfl⟩ := Finset.mem_image.1 hp
  rw [List.mem_toFinset] at ho
  symm
  apply Finset.card_bij (fun s _ => mul o s)
  · intro s hs
    rw [Finset.mem_filter, List.mem_toFinset] at hs ⊢
    exact ⟨hG.mul_mem o ho s hs.1, pos_of_same ((image_mul o s x).trans (hs.2.image o))⟩
  · intro s hs t ht h
    rw [Finset.mem_filter, List.mem_toFinset] at hs ht
    obtain ⟨c, hc, e, -⟩ := hG.right_inv ho
    have := congrArg (mul c) h
    rw [← mul_assoc', ← mul_assoc', e, one_mul' (hG.normal s hs.1), one_mul' (hG.normal t ht.1)] at this
    exact this
  · intro q hq
    rw [Finset.mem_filter, List.mem_toFinset] at hq
    obtain ⟨s, hs, h1, h2⟩ := differ hG hq.1 ho (hF q hq.1 o ho hq.2)
    exact ⟨s, by rw [Finset.mem_filter, List.mem_toFinset]; exact ⟨hs, h1⟩, h2.symm⟩

/-! ## The metric -/

/-- C100: the matrix of the cell gives the products of the unit vectors along the axes. -/
theorem metric_of_cell {v ca cb cg sa : ℝ} (hs : sa ^ 2 = 1 - ca ^ 2) (h0 : sa ≠ 0)
    (hv : v ^ 2 = 1 - ca ^ 2 - cb ^ 2 - cg ^ 2 + 2 * ca * cb * cg) :
    (mNorm v ca cb cg sa)ᵀ * mNorm v ca cb cg sa = !![1, cg, cb; cg, 1, ca; cb, ca, 1] := by
  unfold mNorm
  ext i j
  fin_cases i <;> fin_cases j <;> simp [Matrix.mul_apply, Fin.sum_univ_three] <;> field_simp <;>
    first | (linear_combination hv + (cb ^ 2 - 1) * hs) | (linear_combination hs) | ring

/-- C100: an operation that keeps the metric of the cell (edges `l`, unit vectors `m`) and mixes axes of equal length only keeps lengths and angles
also in the axes `a/|a|, b/|b|, c/|c|`. -/
theorem isometry_of_cell {m : Matrix (Fin 3) (Fin 3) ℝ} {l : Fin 3 → ℝ} (hl : ∀ i, l i ≠ 0) {o : Op}
    (h : (rot o)ᵀ * (diagonal l * (mᵀ * m) * diagonal l) * rot o = diagonal l * (mᵀ * m) * diagonal l)
    (he : ∀ i j, o.r i j ≠ 0 → l i = l j) : Isometry m o := by
  have hc : diagonal l * rot o = rot o * diagonal l := by
    ext i j
    rw [Matrix.diagonal_mul, Matrix.mul_diagonal]
    by_cases k : o.r i j = 0
    · simp [rot, k]
    · rw [he i j k]; ring
  have hc' : (rot o)ᵀ * diagonal l = diagonal l * (rot o)ᵀ := by
    have := congrArg Matrix.transpose hc
    rwa [Matrix.transpose_mul, Matrix.transpose_mul, Matrix.diagonal_transpose] at this
  have hd : diagonal (fun i => (l i)⁻¹) * diagonal l = (1 : Matrix (Fin 3) (Fin 3) ℝ) := by
    rw [Matrix.diagonal_mul_diagonal, ← Matrix.diagonal_one]
    congr 1
    funext i
    exact inv_mul_cancel₀ (hl i)
  have hd' : diagonal l * diagonal (fun i => (l i)⁻¹) = (1 : Matrix (Fin 3) (Fin 3) ℝ) := mul_eq_one_comm.1 hd
  have key : diagonal l * ((rot o)ᵀ * (mᵀ * m) * rot o) * diagonal l = diagonal l * (mᵀ * m) * diagonal l := by
    calc diagonal l * ((rot o)ᵀ * (mᵀ * m) * rot o) * diagonal l
        = (diagonal l * (rot o)ᵀ) * (mᵀ * m) * (rot o * diagonal l) := by simp only [Matrix.mul_assoc]
      _ = ((rot o)ᵀ * diagonal l) * (mᵀ * m) * (diagonal l * rot o) := by rw [hc, hc']
      _ = (rot o)ᵀ * (diagonal l * (mᵀ * m) * diagonal l) * rot o := by simp only [Matrix.mul_assoc]
      _ = _ := h
  have := congrArg (fun z => diagonal (fun i => (l i)⁻¹) * z * diagonal (fun i => (l i)⁻¹)) key
  have s : ∀ z : Matrix (Fin 3) (Fin 3) ℝ, diagonal (fun i => (l i)⁻¹) * (diagonal l * z * diagonal l) * diagonal (fun i => (l i)⁻¹) = z := by
    intro z
    calc diagonal (fun i => (l i)⁻¹) * (diagonal l * z * diagonal l) * diagonal (fun i => (l i)⁻¹)
        = (diagonal (fun i => (l i)⁻¹) * diagonal l) * z * (diagonal l * diagonal (fun i => (l i)⁻¹)) := by simp only [Matrix.mul_assoc]
      _ = z := by rw [hd, hd', Matrix.one_mul, Matrix.mul_one]
  rw [s, s] at this
  exact this

/-! ## The moments -/

/-- C100: only the direction of the field counts, as written in the axes `a/|a|, b/|b|, c/|c|`. -/
theorem field_scale (m chi : Matrix (Fin 3) (Fin 3) ℝ) (h : Fin 3 → ℝ) {c : ℝ} (hc : 0 < c) : moment m chi (fun i => c * h i) = moment m chi h := by
  have : direction (fun i => c * h i) = direction h := by
    unfold direction
    have e : Real.sqrt (∑ i, (c * h i) ^ 2) = c * Real.sqrt (∑ i, h i ^ 2) := by
      have : ∑ i, (c * h i) ^ 2 = c ^ 2 * ∑ i, h i ^ 2 := by rw [Finset.mul_sum]; exact Finset.sum_congr rfl fun i _ => by ring
      rw [this, Real.sqrt_mul (sq_nonneg c), Real.sqrt_sq hc.le]
    funext i
    dsimp only
    rw [e]
    by_cases k : Real.sqrt (∑ i, h i ^ 2) = 0
    · have k' : ∑ i, h i ^ 2 = 0 := by
        rwa [Real.sqrt_eq_zero (Finset.sum_nonneg fun i _ => sq_nonneg (h i))] at k
      have : h i = 0 := by
        have := (Finset.sum_eq_zero_iff_of_nonneg (fun i _ => sq_nonneg (h i))).1 k' i (Finset.mem_univ i)
        exact pow_eq_zero_iff (two_ne_zero) |>.1 this
      simp [this]
    · rw [if_neg k, if_neg (mul_ne_zero hc.ne' k), mul_div_mul_left _ _ hc.ne']
  unfold moment lowered
  rw [this]

/-- C100: the opposite field gives the opposite moments, and no field gives none. -/
theorem field_reversed (m chi : Matrix (Fin 3) (Fin 3) ℝ) (h : Fin 3 → ℝ) :
    moment m chi (fun i => -h i) = (fun i => -moment m chi h i) ∧ moment m chi 0 = 0 := by
  have e : direction (fun i => -h i) = -direction h := by
    funext i
    unfold direction
    simp [neg_div]
  have z : direction 0 = 0 := by
    funext i
    unfold direction
    simp
  constructor
  · unfold moment lowered
    rw [e, Matrix.mulVec_neg, Matrix.mulVec_neg]
    rfl
  · unfold moment lowered
    rw [z, Matrix.mulVec_zero, Matrix.mulVec_zero]

/-- C100: turned tensor and turned field give the turned moment, but for the factor by which the sum of the squares of the three components of
the field changes. -/
theorem moment_turns (m chi : Matrix (Fin 3) (Fin 3) ℝ) (h : Fin 3 → ℝ) (o : Op) (hM : Isometry m o) (hh : ∑ i, (rot o *ᵥ h) i ^ 2 ≠ 0)
    (h0 : ∑ i, h i ^ 2 ≠ 0) (k : Fin 3) :
    moment m (rot o * chi * (rot o)ᵀ) (rot o *ᵥ h) k =
      Real.sqrt (∑ i, h i ^ 2) / Real.sqrt (∑ i, (rot o *ᵥ h) i ^ 2) * (rot o *ᵥ moment m chi h) k := by
  have p1 : Real.sqrt (∑ i, (rot o *ᵥ h) i ^ 2) ≠ 0 := by
    rw [Ne, Real.sqrt_eq_zero (Finset.sum_nonneg fun i _ => sq_nonneg _)]; exact hh
  have p0 : Real.sqrt (∑ i, h i ^ 2) ≠ 0 := by
    rw [Ne, Real.sqrt_eq_zero (Finset.sum_nonneg fun i _ => sq_nonneg _)]; exact h0
  set A := Real.sqrt (∑ i, (rot o *ᵥ h) i ^ 2) with hA
  set B := Real.sqrt (∑ i, h i ^ 2) with hB
  have d1 : direction (rot o *ᵥ h) = A⁻¹ • (rot o *ᵥ h) := by
    funext i
    simp only [direction, ← hA, if_neg p1, Pi.smul_apply, smul_eq_mul]
    rw [div_eq_inv_mul]
  have d0 : direction h = B⁻¹ • h := by
    funext i
    simp only [direction, ← hB, if_neg p0, Pi.smul_apply, smul_eq_mul]
    rw [div_eq_inv_mul]
  have e1 : moment m (rot o * chi * (rot o)ᵀ) (rot o *ᵥ h) = A⁻¹ • (rot o *ᵥ (chi *ᵥ ((mᵀ * m) *ᵥ h))) := by
    unfold moment lowered
    rw [d1, Matrix.mulVec_smul, Matrix.mulVec_smul]
    congr 1
    rw [Matrix.mulVec_mulVec, Matrix.mulVec_mulVec, Matrix.mulVec_mulVec, Matrix.mulVec_mulVec]
    congr 1
    calc rot o * chi * (rot o)ᵀ * (mᵀ * m) * rot o = rot o * chi * ((rot o)ᵀ * (mᵀ * m) * rot o) := by simp only [Matrix.mul_assoc]
      _ = rot o * chi * (mᵀ * m) := by rw [hM]
  have e0 : moment m chi h = B⁻¹ • (chi *ᵥ ((mᵀ * m) *ᵥ h)) := by
    unfold moment lowered
    rw [d0, Matrix.mulVec_smul, Matrix.mulVec_smul]
  rw [e1, e0, Matrix.mulVec_smul]
  simp only [Pi.smul_apply, smul_eq_mul]
  field_simp

/-- C100: with right angles the moments turn with the crystal and the field: if the operation `g` carries the field `h` to `g h`, the tensor of the
image of an image of the atom gives the moment turned by `g`. -/
theorem crystal_turns {ops : List Op} (hG : IsGroup ops) {x : Fin 3 → ℚ} (hF : Faithful ops x) {chi : Matrix (Fin 3) (Fin 3) ℝ}
    (hS : SiteSym ops x chi) {m : Matrix (Fin 3) (Fin 3) ℝ} (hm : mᵀ * m = 1) {g o : Op} (hg : g ∈ ops) (ho : o ∈ ops) (hI : Isometry m g)
    (h : Fin 3 → ℝ) : ∃ e ∈ rotatedMatrices ops chi x, ∃ e' ∈ rotatedMatrices ops chi x, e.1 = pos o x ∧ e'.1 = pos g (image o x) ∧
      moment m e'.2 (rot g *ᵥ h) = rot g *ᵥ moment m e.2 h := by
  refine ⟨_, any_operation hG hF hS ho, _, any_operation hG hF hS (hG.mul_mem g hg o ho), rfl, ?_, ?_⟩
  · exact pos_of_same (image_mul g o x)
  · have t := turned_mul g o chi
    unfold turned at t
    dsimp only
    rw [t]
    have ho : (rot g)ᵀ * rot g = 1 := by
      have := hI
      unfold Isometry at this
      rwa [hm, Matrix.mul_one] at this
    have hq : ∑ i, (rot g *ᵥ h) i ^ 2 = ∑ i, h i ^ 2 := by
      have e1 : ∀ u : Fin 3 → ℝ, ∑ i, u i ^ 2 = u ⬝ᵥ u := fun u => by
        unfold dotProduct; exact Finset.sum_congr rfl fun i _ => by ring
      rw [e1, e1, Matrix.dotProduct_mulVec, Matrix.vecMul_mulVec, ho, Matrix.vecMul_one]
    by_cases h0 : ∑ i, h i ^ 2 = 0
    · have z : h = 0 := by
        funext i
        have := (Finset.sum_eq_zero_iff_of_nonneg (fun i _ => sq_nonneg (h i))).1 h0 i (Finset.mem_univ i)
        exact pow_eq_zero_iff (two_ne_zero) |>.1 this
      rw [z, Matrix.mulVec_zero, (field_reversed m _ 0).2, (field_reversed m _ 0).2, Matrix.mulVec_zero]
    · funext k
      rw [moment_turns m _ h g hI (by rw [hq]; exact h0) h0 k, hq, div_self, one_mul]
      rw [Ne, Real.sqrt_eq_zero (Finset.sum_nonneg fun i _ => sq_nonneg _)]
      exact h0

/-! ## The crystal returned -/

theorem cut_eq {a a' s s' : Text.Str} {c : Char} (h : a ++ c :: s = a' ++ c :: s') (hs : c ∉ s) (hs' : c ∉ s') : a = a' ∧ s = s' := by
  rcases List.append_eq_append_iff.1 h with ⟨t, h1, h2⟩ | ⟨t, h1, h2⟩
  · cases t with
    | nil => exact ⟨by simpa using h1.symm, by simpa using h2⟩
    | cons d t =>
      rw [List.cons_append, List.cons.injEq] at h2
      exact absurd (by rw [h2.2]; simp) hs
  · cases t with
    | nil => exact ⟨by simpa using h1, by simpa using h2.symm⟩
    | cons d t =>
      rw [List.cons_append, List.cons.injEq] at h2
      exact absurd (by rw [h2.2]; simp) hs'

theorem labelOf_inj {l l' : Text.Str} {i j : ℕ} (h : labelOf l i = labelOf l' j) : l = l' ∧ i = j := by
  have nd : ∀ n : ℕ, '_' ∉ Text.natStr n := fun n hn => by
    have := Text.natStr_digits n _ hn
    revert this
    decide
  obtain ⟨a, b⟩ := cut_eq h (nd _) (nd _)
  refine ⟨a, ?_⟩
  have := congrArg Text.natVal b
  rw [Text.natVal_natStr, Text.natVal_natStr] at this
  omega

theorem induced_eq {ops : List Op} {m : Matrix (Fin 3) (Fin 3) ℝ} {sites : List Site} {h : Fin 3 → ℝ} : ∀ {rows : List Row} {l : List Out},
    induced ops m sites rows h = some l → ∃ f : Row → Site, (∀ r ∈ rows, (sites.find? fun s : Site => decide (s.label = r.label)) = some (f r)) ∧
      l = rows.flatMap fun r => outs ops m h r (f r) := by
  classical
  intro rows
  induction rows with
  | nil =>
    intro l hl
    simp [induced] at hl
    refine ⟨fun r => ⟨r.label, 0⟩, by simp, by simp [hl]⟩
  | cons r rs ih =>
    intro l hl
    unfold induced at hl
    rw [List.mapM_cons] at hl
    cases h1 : (sites.find? fun s : Site => decide (s.label = r.label)) with
    | none => simp [h1] at hl
    | some s =>
      cases h2 : (rs.mapM fun r : Row => (sites.find? fun s : Site => decide (s.label = r.label)).map (outs ops m h r)) with
      | none => simp [h1, h2] at hl
      | some t =>
        have ih' := @ih t.flatten (by unfold induced; rw [h2]; rfl)
        obtain ⟨f, hf, e⟩ := ih'
        simp [h1, h2] at hl
        refine ⟨fun r' => ((sites.find? fun s : Site => decide (s.label = r'.label)).getD s), ?_, ?_⟩
        · intro r' hr'
          rcases List.mem_cons.1 hr' with rfl | hr'
          · simp [h1]
          · simp [hf r' hr']
        · rw [List.flatMap_cons, ← hl, e]
          congr 1
          · simp [h1]
          · rw [List.flatMap_def, List.flatMap_def]
            congr 1
            apply List.map_congr_left
            intro r' hr'
            simp [hf r' hr']

/-- C100: the crystal returned has, for every atom with a susceptibility, one atom for every image, at the image, with the moment of the turned
tensor in the field, to five digits; and nothing else. -/
theorem crystal_returned {ops : List Op} {m : Matrix (Fin 3) (Fin 3) ℝ} {sites : List Site} {rows : List Row} {h : Fin 3 → ℝ} {l : List Out}
    (hl : induced ops m sites rows h = some l) :
    (∀ a ∈ l, ∃ r ∈ rows, ∃ s ∈ sites, s.label = r.label ∧ ∃ o ∈ ops, a.x = pos o s.x ∧
      ∀ k, |a.m k - moment m (rot o * r.matrix * (rot o)ᵀ) h k| ≤ 1 / 200000) ∧
    (∀ r ∈ rows, ∃ s ∈ sites, s.label = r.label ∧ (∀ o ∈ ops, ∃ a ∈ l, a.x = pos o s.x ∧ ∃ n : ℕ, a.label = labelOf r.label n) ∧
      (IsGroup ops → Faithful ops s.x → SiteSym ops s.x r.matrix → ∀ o ∈ ops, ∃ a ∈ l, a.x = pos o s.x ∧
        ∀ k, |a.m k - moment m (rot o * r.matrix * (rot o)ᵀ) h k| ≤ 1 / 200000)) ∧
    ((rows.map Row.label).Nodup → (l.map Out.label).Nodup) := by
  obtain ⟨f, hf, rfl⟩ := induced_eq hl
  have mem : ∀ r s (e : (Fin 3 → ℚ) × Matrix (Fin 3) (Fin 3) ℝ), e ∈ rotatedMatrices ops r.matrix s.x →
      ∃ n : ℕ, (⟨labelOf r.label n, e.1, fun k => Sect.round5 (moment m e.2 h k)⟩ : Out) ∈ outs ops m h r s := by
    intro r s e he
    obtain ⟨i, hi, rfl⟩ := List.mem_iff_getElem.1 he
    refine ⟨i, ?_⟩
    unfold outs
    rw [List.mem_mapIdx]
    exact ⟨i, hi, rfl⟩
  refine ⟨?_, ?_, ?_⟩
  · intro a ha
    obtain ⟨r, hr, ha⟩ := List.mem_flatMap.1 ha
    have hs := hf r hr
    refine ⟨r, hr, f r, List.mem_of_find?_eq_some hs, by simpa using List.find?_some hs, ?_⟩
    unfold outs at ha
    rw [List.mem_mapIdx] at ha
    obtain ⟨i, hi, rfl⟩ := ha
    obtain ⟨o, ho, h1, h2, -⟩ := (listed ops r.matrix (f r).x).2.2 _ (List.getElem_mem hi)
    exact ⟨o, ho, h1, fun k => by dsimp only; rw [h2]; exact round5_real _⟩
  · intro r hr
    have hs := hf r hr
    refine ⟨f r, List.mem_of_find?_eq_some hs, by simpa using List.find?_some hs, ?_, ?_⟩
    · intro o ho
      obtain ⟨e, he, e1⟩ := List.mem_map.1 ((listed ops r.matrix (f r).x).2.1 o ho)
      obtain ⟨n, hn⟩ := mem r (f r) e he
      exact ⟨_, List.mem_flatMap.2 ⟨r, hr, hn⟩, e1, n, rfl⟩
    · intro hG hF hS o ho
      obtain ⟨n, hn⟩ := mem r (f r) _ (any_operation hG hF hS ho)
      exact ⟨_, List.mem_flatMap.2 ⟨r, hr, hn⟩, rfl, fun k => round5_real _⟩
  · intro hn
    have hlab : ∀ r, (outs ops m h r (f r)).map Out.label = (List.range (rotatedMatrices ops r.matrix (f r).x).length).map fun i => labelOf r.label i := by
      intro r
      apply List.ext_getElem
      · simp [outs]
      · intro i h1 h2
        simp [outs]
    rw [List.map_flatMap]
    simp only [hlab]
    clear hl hf mem hlab
    induction rows with
    | nil => simp
    | cons r rs ih =>
      rw [List.map_cons, List.nodup_cons] at hn
      rw [List.flatMap_cons, List.nodup_append]
      refine ⟨?_, ih hn.2, ?_⟩
      · exact List.Nodup.map (fun i j e => (labelOf_inj e).2) List.nodup_range
      · intro a ha b hb e
        obtain ⟨i, -, rfl⟩ := List.mem_map.1 ha
        obtain ⟨r', hr', hb⟩ := List.mem_flatMap.1 hb
        obtain ⟨j, -, rfl⟩ := List.mem_map.1 hb
        exact hn.1 ((labelOf_inj e).1 ▸ List.mem_map_of_mem hr')

/-! ## Known failures and examples -/

/-- the three-fold axis of a hexagonal cell -/
def p3 : List Op := [one, ⟨!![0, -1, 0; 1, -1, 0; 0, 0, 1], 0⟩, ⟨!![-1, 1, 0; -1, 0, 0; 0, 0, 1], 0⟩]

/-- C100, known failure: an atom on a three-fold axis with its coordinates written to five digits becomes three atoms. -/
theorem thirds_split : ((firsts ![33333 / 100000, 66667 / 100000, 0] [] p3).map Prod.fst) =
      [![33333 / 100000, 66667 / 100000, 0], ![33333 / 100000, 66666 / 100000, 0], ![33334 / 100000, 66667 / 100000, 0]] ∧
    ((firsts ![1 / 3, 2 / 3, 0] [] p3).map Prod.fst) = [![33333 / 100000, 66667 / 100000, 0]] := by
  constructor <;> decide +kernel

/-- C100, known failure: an atom 0.000003 off an inversion centre is one atom at 1/4 but two at the origin, at 0 and at 1. -/
theorem near_the_edge :
    ((firsts ![1 / 4 + 3 / 10 ^ 6, 0, 0] [] [one, ⟨!![-1, 0, 0; 0, -1, 0; 0, 0, -1], ![1 / 2, 0, 0]⟩]).map Prod.fst) = [![1 / 4, 0, 0]] ∧
    ((firsts ![3 / 10 ^ 6, 0, 0] [] [one, ⟨!![-1, 0, 0; 0, -1, 0; 0, 0, -1], 0⟩]).map Prod.fst) = [![0, 0, 0], ![1, 0, 0]] := by
  constructor <;> decide +kernel

/-- the six-fold rotation in hexagonal axes -/
def six : Op := ⟨!![1, -1, 0; 1, 0, 0; 0, 0, 1], 0⟩

/-- C100, known failure: in a hexagonal cell the field is not normalised by its length.  The six-fold rotation, an isometry of the cell, carries
the field `(1,0,0)` to `(1,1,0)`; the moment of an isotropic atom is then not the turned one but shorter by the square root of two. -/
theorem hexagonal_field {v : ℝ} (hv : v ^ 2 = 3 / 4) :
    Isometry (mNorm v 0 0 (-1 / 2) 1) six ∧ rot six *ᵥ ![1, 0, 0] = ![1, 1, 0] ∧
    moment (mNorm v 0 0 (-1 / 2) 1) (rot six * ((mNorm v 0 0 (-1 / 2) 1)ᵀ * mNorm v 0 0 (-1 / 2) 1)⁻¹ * (rot six)ᵀ) ![1, 1, 0] =
      (Real.sqrt 2)⁻¹ • (rot six *ᵥ moment (mNorm v 0 0 (-1 / 2) 1) ((mNorm v 0 0 (-1 / 2) 1)ᵀ * mNorm v 0 0 (-1 / 2) 1)⁻¹ ![1, 0, 0]) := by
  have hM : Isometry (mNorm v 0 0 (-1 / 2) 1) six := by
    unfold Isometry
    rw [metric_of_cell (by norm_num) (by norm_num) (by rw [hv]; norm_num)]
    ext i j
    fin_cases i <;> fin_cases j <;> simp [Matrix.mul_apply, Fin.sum_univ_three, rot, six] <;> norm_num
  have hr : rot six *ᵥ ![1, 0, 0] = ![1, 1, 0] := by
    funext i
    fin_cases i <;> simp [Matrix.mulVec, dotProduct, Fin.sum_univ_three, rot, six]
  refine ⟨hM, hr, ?_⟩
  funext k
  have s1 : ∑ i, (rot six *ᵥ ![1, 0, 0]) i ^ 2 = 2 := by rw [hr]; simp [Fin.sum_univ_three]; norm_num
  have s0 : ∑ i, (![1, 0, 0] : Fin 3 → ℝ) i ^ 2 = 1 := by simp [Fin.sum_univ_three]
  have := moment_turns (mNorm v 0 0 (-1 / 2) 1) ((mNorm v 0 0 (-1 / 2) 1)ᵀ * mNorm v 0 0 (-1 / 2) 1)⁻¹ ![1, 0, 0] six hM
    (by rw [s1]; norm_num) (by rw [s0]; norm_num) k
  rw [s1, s0, hr] at this
  rw [this]
  simp

theorem p3_group : IsGroup p3 where
  nodup := by decide +kernel
  normal := by decide +kernel
  one_mem := by decide +kernel
  mul_mem := by decide +kernel
  inv := by decide +kernel

/-- a non-trivial case: an atom on the three-fold axis, and its one image -/
theorem example_axis : IsGroup p3 ∧ Faithful p3 ![1 / 3, 2 / 3, 0] ∧ SiteSym p3 ![1 / 3, 2 / 3, 0] !![2, 1, 0; 1, 2, 0; 0, 0, 5] ∧
    (rotatedMatrices p3 !![2, 1, 0; 1, 2, 0; 0, 0, 5] ![1 / 3, 2 / 3, 0]).length = 1 := by
  refine ⟨p3_group, ?_, ?_, ?_⟩
  · intro o ho o' ho' _
    have h : ∀ o ∈ p3, ∃ n : Fin 3 → ℤ, ∀ i, image o ![1 / 3, 2 / 3, 0] i = (![1 / 3, 2 / 3, 0] : Fin 3 → ℚ) i + n i := by
      intro o ho
      refine ⟨fun i => ⌊image o ![1 / 3, 2 / 3, 0] i⌋, ?_⟩
      revert o
      decide +kernel
    exact SamePlace.trans (h o ho) (SamePlace.symm (h o' ho'))
  · intro o ho _
    simp only [p3, List.mem_cons, List.not_mem_nil, or_false] at ho
    rcases ho with rfl | rfl | rfl <;> ext i j <;> fin_cases i <;> fin_cases j <;>
      simp [Matrix.mul_apply, Fin.sum_univ_three, rot, Gens.one] <;> norm_num
  · have := congrArg List.length thirds_split.2
    simpa [rotatedMatrices] using this

end Cryspy.Induced
