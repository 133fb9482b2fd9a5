import Verif.SG.Group

/-!
# The check of a setting is sound
-/

namespace Cryspy.SG

open Cryspy.Text Cryspy.Symm

theorem md_cast (z : ℤ) : (md z : ℤ) = z % 120 := Int.toNat_of_nonneg (Int.emod_nonneg _ (by decide))

theorem md_lt (z : ℤ) : md z < 120 := by
  have := md_cast z
  have := Int.emod_lt_of_pos z (show (0 : ℤ) < 120 by decide)
  omega

theorem md_eq {x y : ℤ} : md x = md y ↔ x % 120 = y % 120 := by
  rw [← md_cast, ← md_cast]; exact Nat.cast_inj.symm

theorem dot_md (a b c d e f : ℤ) : dot (md a) (md b) (md c) (md d) (md e) (md f) = md (a * b + c * d + e * f) := by
  apply Int.ofNat_inj.1
  change (((((md a * md b + md c * md d + md e * md f : ℕ) % 120 : ℕ)) : ℤ)) = _
  rw [md_cast]
  push_cast
  simp only [md_cast]
  simp [Int.add_emod, Int.mul_emod]

theorem dotp_md (a b c d e f g : ℤ) :
    dotp (md a) (md b) (md c) (md d) (md e) (md f) (md g) = md (a * b + c * d + e * f + g) := by
  apply Int.ofNat_inj.1
  change (((((md a * md b + md c * md d + md e * md f + md g : ℕ) % 120 : ℕ)) : ℤ)) = _
  rw [md_cast]
  push_cast
  simp only [md_cast]
  simp [Int.add_emod, Int.mul_emod]

theorem add_md (a b : ℤ) : Nat.mod (Nat.add (md a) (md b)) 120 = md (a + b) := by
  apply Int.ofNat_inj.1
  change ((((md a + md b : ℕ) % 120 : ℕ)) : ℤ) = _
  rw [md_cast]
  push_cast
  simp only [md_cast]
  simp [Int.add_emod]

theorem dif_md (a b : ℤ) : dif (md a) (md b) = md (a - b) := by
  apply Int.ofNat_inj.1
  change ((((md a + 120 - md b : ℕ) % 120 : ℕ)) : ℤ) = _
  have h1 := md_lt b
  have h2 := md_cast a
  have h3 := md_cast b
  rw [md_cast]
  omega

theorem res_mul (a b : Op) : (a.mul b).res = a.res.mul b.res := by
  simp only [Op.res, Op.mul, NOp.mul, dot_md, dotp_md]

theorem code_inj {a b : NOp}
    (ha : a.r11 < 128 ∧ a.r12 < 128 ∧ a.r13 < 128 ∧ a.r21 < 128 ∧ a.r22 < 128 ∧ a.r23 < 128 ∧ a.r31 < 128 ∧ a.r32 < 128)
    (hb : b.r11 < 128 ∧ b.r12 < 128 ∧ b.r13 < 128 ∧ b.r21 < 128 ∧ b.r22 < 128 ∧ b.r23 < 128 ∧ b.r31 < 128 ∧ b.r32 < 128)
    (h : a.sameRot b = true) : a.r11 = b.r11 ∧ a.r12 = b.r12 ∧ a.r13 = b.r13 ∧ a.r21 = b.r21 ∧ a.r22 = b.r22 ∧
      a.r23 = b.r23 ∧ a.r31 = b.r31 ∧ a.r32 = b.r32 ∧ a.r33 = b.r33 := by
  have step : ∀ {x y p q : ℕ}, x < 128 → y < 128 → x + 128 * p = y + 128 * q → x = y ∧ p = q := by
    intro x y p q hx hy h; omega
  have h' := Nat.eq_of_beq_eq_true h
  unfold NOp.code at h'
  obtain ⟨a1, a2, a3, a4, a5, a6, a7, a8⟩ := ha
  obtain ⟨b1, b2, b3, b4, b5, b6, b7, b8⟩ := hb
  obtain ⟨e1, h'⟩ := step a1 b1 h'
  obtain ⟨e2, h'⟩ := step a2 b2 h'
  obtain ⟨e3, h'⟩ := step a3 b3 h'
  obtain ⟨e4, h'⟩ := step a4 b4 h'
  obtain ⟨e5, h'⟩ := step a5 b5 h'
  obtain ⟨e6, h'⟩ := step a6 b6 h'
  obtain ⟨e7, h'⟩ := step a7 b7 h'
  obtain ⟨e8, h'⟩ := step a8 b8 h'
  exact ⟨e1, e2, e3, e4, e5, e6, e7, e8, h'⟩

/-- All entries of the rotation have absolute value at most `k`. -/
def Op.bound (o : Op) (k : ℤ) : Prop :=
  (|o.r11| ≤ k ∧ |o.r12| ≤ k ∧ |o.r13| ≤ k) ∧ (|o.r21| ≤ k ∧ |o.r22| ≤ k ∧ |o.r23| ≤ k) ∧
    |o.r31| ≤ k ∧ |o.r32| ≤ k ∧ |o.r33| ≤ k

theorem bound_of_unit {o : Op} (h : o.unit = true) : o.bound 1 := by
  simp only [Op.unit, List.all_cons, List.all_nil, Bool.and_eq_true, decide_eq_true_eq, ← abs_le] at h
  obtain ⟨h1, h2, h3, h4, h5, h6, h7, h8, h9, -⟩ := h
  exact ⟨⟨h1, h2, h3⟩, ⟨h4, h5, h6⟩, h7, h8, h9⟩

theorem abs_dot_le {a b c d e f : ℤ} (ha : |a| ≤ 1) (hb : |b| ≤ 1) (hc : |c| ≤ 1) (hd : |d| ≤ 1) (he : |e| ≤ 1)
    (hf : |f| ≤ 1) : |a * b + c * d + e * f| ≤ 3 := by
  have k : ∀ {x y : ℤ}, |x| ≤ 1 → |y| ≤ 1 → |x * y| ≤ 1 := by
    intro x y hx hy
    rw [abs_mul]
    exact mul_le_one₀ hx (abs_nonneg _) hy
  have h1 := abs_le.1 (k ha hb)
  have h2 := abs_le.1 (k hc hd)
  have h3 := abs_le.1 (k he hf)
  rw [abs_le]
  constructor <;> linarith [h1.1, h1.2, h2.1, h2.2, h3.1, h3.2]

theorem bound_mul {a b : Op} (ha : a.bound 1) (hb : b.bound 1) : (a.mul b).bound 3 := by
  obtain ⟨⟨a1, a2, a3⟩, ⟨a4, a5, a6⟩, a7, a8, a9⟩ := ha
  obtain ⟨⟨b1, b2, b3⟩, ⟨b4, b5, b6⟩, b7, b8, b9⟩ := hb
  refine ⟨⟨?_, ?_, ?_⟩, ⟨?_, ?_, ?_⟩, ?_, ?_, ?_⟩ <;> apply abs_dot_le <;> assumption

theorem Op.bound.mono {o : Op} {k l : ℤ} (h : o.bound k) (hkl : k ≤ l) : o.bound l := by
  obtain ⟨⟨a1, a2, a3⟩, ⟨a4, a5, a6⟩, a7, a8, a9⟩ := h
  refine ⟨⟨?_, ?_, ?_⟩, ⟨?_, ?_, ?_⟩, ?_, ?_, ?_⟩ <;> refine le_trans ?_ hkl <;> assumption

/-- Same rotation and same translation up to whole cells. -/
def Op.Eqv (a b : Op) : Prop :=
  ((a.r11 = b.r11 ∧ a.r12 = b.r12 ∧ a.r13 = b.r13) ∧ (a.r21 = b.r21 ∧ a.r22 = b.r22 ∧ a.r23 = b.r23) ∧
    a.r31 = b.r31 ∧ a.r32 = b.r32 ∧ a.r33 = b.r33) ∧ a.t1 % 120 = b.t1 % 120 ∧ a.t2 % 120 = b.t2 % 120 ∧
    a.t3 % 120 = b.t3 % 120

theorem eq_of_md {x y k : ℤ} (hk : k ≤ 3) (hx : |x| ≤ k) (hy : |y| ≤ k) (h : md x = md y) : x = y := by
  rw [md_eq] at h
  rw [abs_le] at hx hy
  omega

theorem rot_of_sameRot {a b : Op} {k : ℤ} (hk : k ≤ 3) (ha : a.bound k) (hb : b.bound k) (h : a.res.sameRot b.res = true) :
    (a.r11 = b.r11 ∧ a.r12 = b.r12 ∧ a.r13 = b.r13) ∧ (a.r21 = b.r21 ∧ a.r22 = b.r22 ∧ a.r23 = b.r23) ∧
    a.r31 = b.r31 ∧ a.r32 = b.r32 ∧ a.r33 = b.r33 := by
  have l : ∀ z : ℤ, md z < 128 := fun z => lt_trans (md_lt z) (by decide)
  obtain ⟨e1, e2, e3, e4, e5, e6, e7, e8, e9⟩ := code_inj (a := a.res) (b := b.res)
    ⟨l _, l _, l _, l _, l _, l _, l _, l _⟩ ⟨l _, l _, l _, l _, l _, l _, l _, l _⟩ h
  obtain ⟨⟨a1, a2, a3⟩, ⟨a4, a5, a6⟩, a7, a8, a9⟩ := ha
  obtain ⟨⟨b1, b2, b3⟩, ⟨b4, b5, b6⟩, b7, b8, b9⟩ := hb
  exact ⟨⟨eq_of_md hk a1 b1 e1, eq_of_md hk a2 b2 e2, eq_of_md hk a3 b3 e3⟩,
    ⟨eq_of_md hk a4 b4 e4, eq_of_md hk a5 b5 e5, eq_of_md hk a6 b6 e6⟩,
    eq_of_md hk a7 b7 e7, eq_of_md hk a8 b8 e8, eq_of_md hk a9 b9 e9⟩

/-- Same vector up to whole cells. -/
def Tr.Eqv (a b : Tr) : Prop := a.1 % 120 = b.1 % 120 ∧ a.2.1 % 120 = b.2.1 % 120 ∧ a.2.2 % 120 = b.2.2 % 120

theorem inT_iff {T : List Tr} {x y z : ℤ} :
    inT (T.map Tr.res) (md x) (md y) (md z) = true ↔ ∃ u ∈ T, Tr.Eqv (x, y, z) u := by
  unfold inT
  rw [List.any_eq_true]
  constructor
  · rintro ⟨u, hu, h⟩
    obtain ⟨v, hv, rfl⟩ := List.mem_map.1 hu
    rw [Bool.and_eq_true, Bool.and_eq_true] at h
    exact ⟨v, hv, md_eq.1 (Nat.eq_of_beq_eq_true h.1), md_eq.1 (Nat.eq_of_beq_eq_true h.2.1),
      md_eq.1 (Nat.eq_of_beq_eq_true h.2.2)⟩
  · rintro ⟨u, hu, h1, h2, h3⟩
    refine ⟨u.res, List.mem_map_of_mem hu, ?_⟩
    rw [Bool.and_eq_true, Bool.and_eq_true]
    exact ⟨by rw [md_eq.2 h1]; exact Nat.beq_refl _, by rw [md_eq.2 h2]; exact Nat.beq_refl _,
      by rw [md_eq.2 h3]; exact Nat.beq_refl _⟩

theorem inH_sound {H : List Op} {T : List Tr} {p : Op} (hp : p.bound 3) (hH : ∀ o ∈ H, o.bound 1)
    (h : inH (H.map Op.res) (T.map Tr.res) p.res = true) : ∃ c ∈ H, ∃ u ∈ T, p.Eqv (c.shift u) := by
  unfold inH at h
  rw [List.any_eq_true] at h
  obtain ⟨c', hc', h⟩ := h
  obtain ⟨c, hc, rfl⟩ := List.mem_map.1 hc'
  rw [Bool.and_eq_true] at h
  obtain ⟨h1, h2⟩ := h
  have hr := rot_of_sameRot le_rfl hp ((hH c hc).mono (by decide)) h1
  change inT (T.map Tr.res) (dif (md p.t1) (md c.t1)) (dif (md p.t2) (md c.t2)) (dif (md p.t3) (md c.t3)) = true at h2
  rw [dif_md, dif_md, dif_md, inT_iff] at h2
  obtain ⟨u, hu, e1, e2, e3⟩ := h2
  refine ⟨c, hc, u, hu, hr, ?_, ?_, ?_⟩ <;> simp only [Op.shift] at * <;> omega

/-! ## Meaning -/

theorem act_elem (o : Op) (x : Q3) : act o.elem x =
    ![(o.r11 : ℚ) * x 0 + o.r12 * x 1 + o.r13 * x 2 + (o.t1 : ℚ) / 120,
      (o.r21 : ℚ) * x 0 + o.r22 * x 1 + o.r23 * x 2 + (o.t2 : ℚ) / 120,
      (o.r31 : ℚ) * x 0 + o.r32 * x 1 + o.r33 * x 2 + (o.t3 : ℚ) / 120] := by
  funext k
  fin_cases k <;> (simp only [act, Fin.sum_univ_three]; rfl)

theorem lat_mk {a b c d e f : ℚ} (h1 : ∃ z : ℤ, a - d = z) (h2 : ∃ z : ℤ, b - e = z) (h3 : ∃ z : ℤ, c - f = z) :
    Lat ![a, b, c] ![d, e, f] := by
  intro k
  fin_cases k
  · exact h1
  · exact h2
  · exact h3

theorem int_of_mod {a b : ℤ} (h : a % 120 = b % 120) : ∃ z : ℤ, (a : ℚ) / 120 - (b : ℚ) / 120 = z := by
  refine ⟨(a - b) / 120, ?_⟩
  have : a - b = 120 * ((a - b) / 120) := by omega
  have hq : (a : ℚ) - b = 120 * (((a - b) / 120 : ℤ) : ℚ) := by exact_mod_cast this
  rw [← sub_div, hq]
  ring

theorem mod_of_int {a b : ℤ} (h : ∃ z : ℤ, (a : ℚ) / 120 - (b : ℚ) / 120 = z) : a % 120 = b % 120 := by
  obtain ⟨z, hz⟩ := h
  have : (a : ℚ) - b = 120 * z := by rw [← hz]; ring
  have : a - b = 120 * z := by exact_mod_cast this
  omega

theorem sameOp_of_eqv {a b : Op} (h : a.Eqv b) : SameOp a.elem b.elem := by
  obtain ⟨⟨⟨h1, h2, h3⟩, ⟨h4, h5, h6⟩, h7, h8, h9⟩, t1, t2, t3⟩ := h
  intro x
  rw [act_elem, act_elem, h1, h2, h3, h4, h5, h6, h7, h8, h9]
  apply lat_mk
  · rw [add_sub_add_left_eq_sub]; exact int_of_mod t1
  · rw [add_sub_add_left_eq_sub]; exact int_of_mod t2
  · rw [add_sub_add_left_eq_sub]; exact int_of_mod t3

theorem act_mul (a b : Op) (x : Q3) : act (a.mul b).elem x = act a.elem (act b.elem x) := by
  rw [act_elem, act_elem a, act_elem b]
  funext k
  fin_cases k <;>
  · simp [Op.mul]
    ring

theorem isProd_of_eqv {a b c : Op} (h : (a.mul b).Eqv c) : IsProd a.elem b.elem c.elem := by
  intro x
  have := sameOp_of_eqv h x
  rw [act_mul] at this
  intro k
  obtain ⟨z, hz⟩ := this k
  exact ⟨-z, by push_cast; rw [← hz]; ring⟩

theorem lat_one {b a : Op} (h : (b.mul a).Eqv Op.one) (x : Q3) : Lat (act b.elem (act a.elem x)) x := by
  have := sameOp_of_eqv h x
  rw [act_mul] at this
  have e : act Op.one.elem x = x := by
    rw [act_elem]
    funext k
    fin_cases k <;> simp [Op.one]
  rwa [e] at this

/-! ## The check -/

/-- What the check of the centring translations says. -/
structure LatOk (H : List Op) (T : List Tr) : Prop where
  zero : ∃ u ∈ T, Tr.Eqv (0, 0, 0) u
  add : ∀ s ∈ T, ∀ u ∈ T, ∃ v ∈ T, Tr.Eqv (s.1 + u.1, s.2.1 + u.2.1, s.2.2 + u.2.2) v
  neg : ∀ s ∈ T, ∃ v ∈ T, Tr.Eqv (-s.1, -s.2.1, -s.2.2) v
  rot : ∀ a ∈ H, ∀ u ∈ T, ∃ v ∈ T, Tr.Eqv (a.r11 * u.1 + a.r12 * u.2.1 + a.r13 * u.2.2,
    a.r21 * u.1 + a.r22 * u.2.1 + a.r23 * u.2.2, a.r31 * u.1 + a.r32 * u.2.1 + a.r33 * u.2.2) v

theorem latCheck_sound {H : List Op} {T : List Tr} (h : latCheck (H.map Op.res) (T.map Tr.res) = true) : LatOk H T := by
  unfold latCheck at h
  rw [Bool.and_eq_true, Bool.and_eq_true, Bool.and_eq_true] at h
  obtain ⟨h0, ha, hn, hr⟩ := h
  refine ⟨?_, ?_, ?_, ?_⟩
  · exact inT_iff.1 (show inT _ (md 0) (md 0) (md 0) = true from h0)
  · intro s hs u hu
    have := List.all_eq_true.1 (List.all_eq_true.1 ha _ (List.mem_map_of_mem hs)) _ (List.mem_map_of_mem hu)
    simp only [Tr.res, add_md] at this
    exact inT_iff.1 this
  · intro s hs
    have := List.all_eq_true.1 hn _ (List.mem_map_of_mem hs)
    have z : (0 : ℕ) = md 0 := rfl
    simp only [Tr.res] at this
    rw [z, dif_md, dif_md, dif_md, zero_sub, zero_sub, zero_sub] at this
    exact inT_iff.1 this
  · intro a ha' u hu
    have := List.all_eq_true.1 (List.all_eq_true.1 hr _ (List.mem_map_of_mem ha')) _ (List.mem_map_of_mem hu)
    simp only [Tr.res, Op.res, dot_md] at this
    exact inT_iff.1 this

theorem mem_expand {h : List Op} {t : List Tr} {o : Op} : o ∈ expand h t ↔ ∃ a ∈ h, ∃ u ∈ t, a.shift u = o := by
  unfold expand
  simp only [List.mem_flatMap, List.mem_map]

theorem unit_one : Op.one.bound 1 := by
  simp [Op.bound, Op.one]

theorem group_of_check {H : List Op} {T : List Tr} (h : groupCheck' (H, T) = true) :
    IsGroup ((expand H T).map Op.elem) := by
  unfold groupCheck' at h
  rw [Bool.and_eq_true, Bool.and_eq_true] at h
  obtain ⟨hu, hq, -⟩ := h
  have hB : ∀ o ∈ H, o.bound 1 := fun o ho => bound_of_unit (List.all_eq_true.1 hu o ho)
  unfold quotCheck at hq
  rw [Bool.and_eq_true, Bool.and_eq_true, Bool.and_eq_true] at hq
  obtain ⟨hl, h1, hm, hi⟩ := hq
  have L := latCheck_sound hl
  refine ⟨?_, ?_, ?_⟩
  · obtain ⟨c, hc, u, hu', e⟩ := inH_sound (unit_one.mono (by decide)) hB h1
    refine ⟨_, List.mem_map_of_mem (mem_expand.2 ⟨c, hc, u, hu', rfl⟩), fun x => ?_⟩
    have := sameOp_of_eqv e x
    have e1 : act Op.one.elem x = x := by
      rw [act_elem]; funext k; fin_cases k <;> simp [Op.one]
    rw [e1] at this
    intro k
    obtain ⟨z, hz⟩ := this k
    exact ⟨-z, by push_cast; rw [← hz]; ring⟩
  · intro a' ha' b' hb'
    obtain ⟨a'', ha'', rfl⟩ := List.mem_map.1 ha'
    obtain ⟨b'', hb'', rfl⟩ := List.mem_map.1 hb'
    obtain ⟨a, ha, s, hs, rfl⟩ := mem_expand.1 ha''
    obtain ⟨b, hb, u, hu', rfl⟩ := mem_expand.1 hb''
    have hab := List.all_eq_true.1 (List.all_eq_true.1 hm _ (List.mem_map_of_mem ha)) _ (List.mem_map_of_mem hb)
    rw [← res_mul] at hab
    obtain ⟨c, hc, w, hw, er, et⟩ := inH_sound (bound_mul (hB a ha) (hB b hb)) hB hab
    obtain ⟨v1, hv1, e1⟩ := L.rot a ha u hu'
    obtain ⟨v2, hv2, e2⟩ := L.add s hs v1 hv1
    obtain ⟨v3, hv3, e3⟩ := L.add w hw v2 hv2
    refine ⟨_, List.mem_map_of_mem (mem_expand.2 ⟨c, hc, v3, hv3, rfl⟩), isProd_of_eqv ⟨er, ?_⟩⟩
    obtain ⟨t1, t2, t3⟩ := et
    obtain ⟨p1, p2, p3⟩ := e1
    obtain ⟨q1, q2, q3⟩ := e2
    obtain ⟨r1, r2, r3⟩ := e3
    simp only [Op.shift, Op.mul] at *
    refine ⟨?_, ?_, ?_⟩
    · rw [mul_add, mul_add, mul_add]; omega
    · rw [mul_add, mul_add, mul_add]; omega
    · rw [mul_add, mul_add, mul_add]; omega
  · intro a' ha'
    obtain ⟨a'', ha'', rfl⟩ := List.mem_map.1 ha'
    obtain ⟨a, ha, s, hs, rfl⟩ := mem_expand.1 ha''
    have := List.all_eq_true.1 hi _ (List.mem_map_of_mem ha)
    obtain ⟨b', hb', hba⟩ := List.any_eq_true.1 this
    obtain ⟨b, hb, rfl⟩ := List.mem_map.1 hb'
    rw [← res_mul] at hba
    have hba' : inH ([Op.one].map Op.res) (T.map Tr.res) (b.mul a).res = true := hba
    obtain ⟨c, hc, w, hw, er, et⟩ := inH_sound (bound_mul (hB b hb) (hB a ha))
      (by intro o ho; rw [List.mem_singleton.1 ho]; exact unit_one) hba'
    obtain rfl := List.mem_singleton.1 hc
    obtain ⟨v1, hv1, e1⟩ := L.rot b hb s hs
    obtain ⟨v2, hv2, e2⟩ := L.add w hw v1 hv1
    obtain ⟨v3, hv3, e3⟩ := L.neg v2 hv2
    refine ⟨_, List.mem_map_of_mem (mem_expand.2 ⟨b, hb, v3, hv3, rfl⟩), lat_one ⟨er, ?_⟩⟩
    obtain ⟨t1, t2, t3⟩ := et
    obtain ⟨p1, p2, p3⟩ := e1
    obtain ⟨q1, q2, q3⟩ := e2
    obtain ⟨r1, r2, r3⟩ := e3
    simp only [Op.shift, Op.mul, Op.one] at *
    refine ⟨?_, ?_, ?_⟩
    · rw [mul_add, mul_add, mul_add]; omega
    · rw [mul_add, mul_add, mul_add]; omega
    · rw [mul_add, mul_add, mul_add]; omega

theorem eqv_of_sameOp {a b : Op} (h : SameOp a.elem b.elem) : ((a.r11 = b.r11 ∧ a.r12 = b.r12 ∧ a.r13 = b.r13) ∧
    (a.r21 = b.r21 ∧ a.r22 = b.r22 ∧ a.r23 = b.r23) ∧ a.r31 = b.r31 ∧ a.r32 = b.r32 ∧ a.r33 = b.r33) ∧
    a.t1 % 120 = b.t1 % 120 ∧ a.t2 % 120 = b.t2 % 120 ∧ a.t3 % 120 = b.t3 % 120 := by
  -- a linear form with integer difference at all points has equal coefficients
  have key : ∀ {r s : ℤ} {t u : ℤ}, (∀ y : ℚ, ∃ z : ℤ, ((r : ℚ) * y + (t : ℚ) / 120) - (s * y + (u : ℚ) / 120) = z) →
      r = s := by
    intro r s t u hy
    obtain ⟨z0, h0⟩ := hy 0
    by_contra hne
    have hd : (r : ℚ) - s ≠ 0 := by
      intro h; apply hne; have : (r : ℚ) = s := by linarith
      exact_mod_cast this
    obtain ⟨z1, h1⟩ := hy (1 / (2 * ((r : ℚ) - s)))
    have : (1 : ℚ) / 2 = (z1 - z0 : ℤ) := by
      push_cast
      rw [← h1, ← h0]
      field_simp
      ring
    have h2 : (1 : ℚ) = 2 * (z1 - z0 : ℤ) := by linarith
    have h3 : (1 : ℤ) = 2 * (z1 - z0) := by exact_mod_cast h2
    omega
  have hx : ∀ x : Q3, ∀ k, ∃ z : ℤ, act a.elem x k - act b.elem x k = z := h
  simp only [act_elem] at hx
  have comp : ∀ p q r : ℚ, Lat ![(a.r11 : ℚ) * p + a.r12 * q + a.r13 * r + (a.t1 : ℚ) / 120,
      (a.r21 : ℚ) * p + a.r22 * q + a.r23 * r + (a.t2 : ℚ) / 120,
      (a.r31 : ℚ) * p + a.r32 * q + a.r33 * r + (a.t3 : ℚ) / 120]
      ![(b.r11 : ℚ) * p + b.r12 * q + b.r13 * r + (b.t1 : ℚ) / 120,
      (b.r21 : ℚ) * p + b.r22 * q + b.r23 * r + (b.t2 : ℚ) / 120,
      (b.r31 : ℚ) * p + b.r32 * q + b.r33 * r + (b.t3 : ℚ) / 120] := by
    intro p q r
    exact hx ![p, q, r]
  refine ⟨⟨⟨?_, ?_, ?_⟩, ⟨?_, ?_, ?_⟩, ?_, ?_, ?_⟩, ?_, ?_, ?_⟩
  · exact key (t := a.t1) (u := b.t1) fun y => by obtain ⟨z, hz⟩ := comp y 0 0 0; exact ⟨z, by simp at hz; linarith⟩
  · exact key (t := a.t1) (u := b.t1) fun y => by obtain ⟨z, hz⟩ := comp 0 y 0 0; exact ⟨z, by simp at hz; linarith⟩
  · exact key (t := a.t1) (u := b.t1) fun y => by obtain ⟨z, hz⟩ := comp 0 0 y 0; exact ⟨z, by simp at hz; linarith⟩
  · exact key (t := a.t2) (u := b.t2) fun y => by obtain ⟨z, hz⟩ := comp y 0 0 1; exact ⟨z, by simp at hz; linarith⟩
  · exact key (t := a.t2) (u := b.t2) fun y => by obtain ⟨z, hz⟩ := comp 0 y 0 1; exact ⟨z, by simp at hz; linarith⟩
  · exact key (t := a.t2) (u := b.t2) fun y => by obtain ⟨z, hz⟩ := comp 0 0 y 1; exact ⟨z, by simp at hz; linarith⟩
  · exact key (t := a.t3) (u := b.t3) fun y => by obtain ⟨z, hz⟩ := comp y 0 0 2; exact ⟨z, by simp at hz; linarith⟩
  · exact key (t := a.t3) (u := b.t3) fun y => by obtain ⟨z, hz⟩ := comp 0 y 0 2; exact ⟨z, by simp at hz; linarith⟩
  · exact key (t := a.t3) (u := b.t3) fun y => by obtain ⟨z, hz⟩ := comp 0 0 y 2; exact ⟨z, by simp at hz; linarith⟩
  · exact mod_of_int (by obtain ⟨z, hz⟩ := comp 0 0 0 0; exact ⟨z, by simp at hz; linarith⟩)
  · exact mod_of_int (by obtain ⟨z, hz⟩ := comp 0 0 0 1; exact ⟨z, by simp at hz; linarith⟩)
  · exact mod_of_int (by obtain ⟨z, hz⟩ := comp 0 0 0 2; exact ⟨z, by simp at hz; linarith⟩)

theorem pairwise_flatMap {α β : Type} {f : α → List β} {P : β → β → Prop} {l : List α}
    (h1 : ∀ a ∈ l, (f a).Pairwise P) (h2 : l.Pairwise fun a b => ∀ x ∈ f a, ∀ y ∈ f b, P x y) :
    (l.flatMap f).Pairwise P := by
  rw [List.pairwise_flatMap]
  exact ⟨h1, h2⟩

theorem distinct_of_check {H : List Op} {T : List Tr} (h : groupCheck' (H, T) = true) :
    ((expand H T).map Op.elem).Pairwise fun a b => ¬ SameOp a b := by
  unfold groupCheck' at h
  rw [Bool.and_eq_true, Bool.and_eq_true] at h
  obtain ⟨-, -, hd⟩ := h
  unfold distinctCheck at hd
  rw [Bool.and_eq_true] at hd
  obtain ⟨hH, hT⟩ := hd
  have hH := of_decide_eq_true hH
  have hT := of_decide_eq_true hT
  simp only at hH hT
  rw [List.pairwise_map] at hH hT
  rw [List.pairwise_map]
  unfold expand
  apply pairwise_flatMap
  · intro a _
    rw [List.pairwise_map]
    refine hT.imp ?_
    intro s u hne hs
    apply hne
    obtain ⟨-, h1, h2, h3⟩ := eqv_of_sameOp hs
    have : inT ([u].map Tr.res) (md s.1) (md s.2.1) (md s.2.2) = true := by
      rw [inT_iff]
      refine ⟨u, by simp, ?_, ?_, ?_⟩ <;> simp only [Op.shift] at * <;> omega
    exact this
  · refine hH.imp ?_
    intro a b hne x hx y hy hs
    apply hne
    obtain ⟨s, -, rfl⟩ := List.mem_map.1 hx
    obtain ⟨u, -, rfl⟩ := List.mem_map.1 hy
    obtain ⟨⟨⟨h1, h2, h3⟩, ⟨h4, h5, h6⟩, h7, h8, h9⟩, -⟩ := eqv_of_sameOp hs
    simp only [Op.shift] at *
    unfold NOp.sameRot NOp.code Op.res
    simp only
    rw [h1, h2, h3, h4, h5, h6, h7, h8, h9]
    exact Nat.beq_refl _

end Cryspy.SG
