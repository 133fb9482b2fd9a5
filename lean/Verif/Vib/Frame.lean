import Verif.Vib.Lemmas
import Mathlib.Data.List.Perm.Basic
import Mathlib.Data.Matrix.Basic
import Mathlib.Algebra.BigOperators.GroupWithZero.Action

/-! # A frame (cubic or hexagonal): every site group is one of the listed kinds, and the verdict follows from the check -/

namespace Cryspy.Vib

open Mat Matrix

structure Frame (ms : List (Fin 9 → ℤ)) (t : List (List ℕ)) (subs : List (List ℕ × ℕ × ℕ × Bool)) (ks : List SiteKind) : Prop where
  tbl : chkTbl ms t = true
  inj : chkInj ms = true
  lat : chkLat ms.length t subs = true
  table : chkTable ms subs ks = true
  final : chkFinal ms subs = true
  one : mat ms 0 = one9
  pos : 0 < ms.length
  least : ∃ s ∈ subs, s.2.1 = 1

variable {ms : List (Fin 9 → ℤ)} {t : List (List ℕ)} {subs : List (List ℕ × ℕ × ℕ × Bool)} {ks : List SiteKind}

theorem Frame.look_lt (F : Frame ms t subs ks) {i j : ℕ} (hi : i < ms.length) (hj : j < ms.length) : look t i j < ms.length := by
  have := F.tbl
  simp only [chkTbl, List.all_eq_true, List.mem_range, Bool.and_eq_true, decide_eq_true_eq] at this
  exact (this i hi j hj).1

theorem Frame.mul (F : Frame ms t subs ks) {i j : ℕ} (hi : i < ms.length) (hj : j < ms.length) :
    mulM (mat ms i) (mat ms j) = mat ms (look t i j) := by
  have := F.tbl
  simp only [chkTbl, List.all_eq_true, List.mem_range, Bool.and_eq_true, decide_eq_true_eq] at this
  exact eq9_iff.1 (this i hi j hj).2

theorem Frame.ne (F : Frame ms t subs ks) {i j : ℕ} (hi : i < ms.length) (hj : j < ms.length) :
    (mat ms i = mat ms j → i = j) ∧ mat ms i ≠ -mat ms j := by
  have := F.inj
  simp only [chkInj, List.all_eq_true, List.mem_range, Bool.and_eq_true, Bool.or_eq_true, Bool.not_eq_true', beq_iff_eq] at this
  obtain ⟨h1, h2⟩ := this i hi j hj
  constructor
  · intro h
    rcases h1 with h1 | h1
    · exact h1
    · rw [eq9_iff.2 h] at h1; cases h1
  · intro h
    rw [eq9_iff.2 h] at h2; cases h2

theorem mulM_one (a : Fin 9 → ℤ) : mulM a one9 = a := toM_inj (by rw [toM_mulM, toM_one, mul_one])
theorem one_mulM (a : Fin 9 → ℤ) : mulM one9 a = a := toM_inj (by rw [toM_mulM, toM_one, one_mul])
theorem neg_mulM (a b : Fin 9 → ℤ) : mulM (-a) b = -mulM a b := toM_inj (by rw [toM_mulM, toM_neg, toM_neg, toM_mulM, neg_mul])
theorem mulM_neg (a b : Fin 9 → ℤ) : mulM a (-b) = -mulM a b := toM_inj (by rw [toM_mulM, toM_neg, toM_neg, toM_mulM, mul_neg])
theorem mulM_assoc (a b c : Fin 9 → ℤ) : mulM (mulM a b) c = mulM a (mulM b c) := toM_inj (by simp only [toM_mulM, mul_assoc])

/-! ### groups of nine numbers -/

variable {G : List (Fin 9 → ℤ)}

theorem mem_toM {o : Fin 9 → ℤ} : toM o ∈ G.map toM ↔ o ∈ G := by
  rw [List.mem_map]
  exact ⟨fun ⟨a, ha, e⟩ => toM_inj e ▸ ha, fun h => ⟨o, h, rfl⟩⟩

theorem IsSite.one (h : IsSite G) : one9 ∈ G := by
  have := Constr.IsGroupList.one_mem h
  rwa [← toM_one, mem_toM] at this

theorem IsSite.mul (h : IsSite G) {a b : Fin 9 → ℤ} (ha : a ∈ G) (hb : b ∈ G) : mulM a b ∈ G := by
  have := Constr.IsGroupList.mul_mem h _ (mem_toM.2 ha) _ (mem_toM.2 hb)
  rwa [← toM_mulM, mem_toM] at this

theorem IsSite.inv (h : IsSite G) {a : Fin 9 → ℤ} (ha : a ∈ G) : ∃ b ∈ G, mulM b a = one9 := by
  obtain ⟨b, hb, e⟩ := Constr.IsGroupList.inv_mem h _ (mem_toM.2 ha)
  obtain ⟨c, hc, rfl⟩ := List.mem_map.1 hb
  exact ⟨c, hc, toM_inj (by rw [toM_mulM, e, toM_one])⟩

theorem IsSite.nodup (h : IsSite G) : G.Nodup := (Constr.IsGroupList.nodup h).of_map

/-- left multiplication permutes the group -/
theorem IsSite.perm (h : IsSite G) {a : Fin 9 → ℤ} (ha : a ∈ G) : (G.map (mulM a)).Perm G := by
  obtain ⟨b, hb, e⟩ := h.inv ha
  have hinj : Function.Injective (mulM a) := by
    intro x y hxy
    have := congrArg (mulM b) hxy
    rwa [← mulM_assoc, ← mulM_assoc, e, one_mulM, one_mulM] at this
  rw [List.perm_ext_iff_of_nodup (h.nodup.map hinj) h.nodup]
  intro o
  constructor
  · intro ho
    obtain ⟨x, hx, rfl⟩ := List.mem_map.1 ho
    exact h.mul ha hx
  · intro ho
    obtain ⟨c, hc, e'⟩ := h.inv hb
    refine List.mem_map.2 ⟨mulM b o, h.mul hb ho, ?_⟩
    have : c = a := by
      have := congrArg (fun x => mulM x a) e'
      simp only [mulM_assoc, e, mulM_one, one_mulM] at this
      exact this
    rw [← mulM_assoc, ← this, e', one_mulM]

/-- its members up to the sign, by index -/
def Mask (ms : List (Fin 9 → ℤ)) (G : List (Fin 9 → ℤ)) (m : ℕ) : Prop :=
  ∀ i < ms.length, (mat ms i ∈ G ∨ -mat ms i ∈ G) ↔ m.testBit i = true

def Within (ms : List (Fin 9 → ℤ)) (G : List (Fin 9 → ℤ)) : Prop := ∀ o ∈ G, ∃ i < ms.length, o = mat ms i ∨ o = -mat ms i

theorem Frame.exists_mask (F : Frame ms t subs ks) (h : IsSite G) : ∃ s ∈ subs, Mask ms G s.2.1 := by
  apply lat_complete (p := fun i => mat ms i ∈ G ∨ -mat ms i ∈ G) F.lat F.least F.pos
  · rw [F.one]; exact Or.inl h.one
  · exact fun i hi j hj => F.look_lt hi hj
  · intro i hi j hj pi pj
    rw [← F.mul hi hj]
    rcases pi with pi | pi <;> rcases pj with pj | pj
    · exact Or.inl (h.mul pi pj)
    · right; rw [← mulM_neg]; exact h.mul pi pj
    · right; rw [← neg_mulM]; exact h.mul pi pj
    · left
      have := h.mul pi pj
      rwa [neg_mulM, mulM_neg, neg_neg] at this

theorem Frame.exists_kind (F : Frame ms t subs ks) {s : List ℕ × ℕ × ℕ × Bool} (hs : s ∈ subs) :
    ∃ k ∈ ks, k.gens = s.1.map (mat ms) ∧ k.right = s.2.2.2 := by
  have := F.table
  simp only [chkTable, Bool.and_eq_true, beq_iff_eq, List.all_eq_true] at this
  obtain ⟨hl, hz⟩ := this
  obtain ⟨i, hi, rfl⟩ := List.getElem_of_mem hs
  have hi' : i < ks.length := hl ▸ hi
  obtain ⟨⟨h1, h2⟩, h3⟩ := hz (subs[i], ks[i]) (by
    rw [List.mem_iff_getElem]
    exact ⟨i, by simp [hi, hi'], by simp⟩)
  refine ⟨ks[i], List.getElem_mem hi', ?_, h3.symm⟩
  apply List.ext_getElem
  · simpa using h1.symm
  · intro j hj1 hj2
    simp only [List.length_map] at hj2
    simp only [List.getElem_map]
    exact (eq9_iff.1 (h2 (subs[i].1[j], ks[i].gens[j]) (by
      rw [List.mem_iff_getElem]
      exact ⟨j, by simp [hj1, hj2], by simp⟩))).symm

theorem lt_of_testBit {n m i : ℕ} (hm : m < 2 ^ n) (h : m.testBit i = true) : i < n := by
  by_contra hc
  rw [Nat.testBit_lt_two_pow (lt_of_lt_of_le hm (Nat.pow_le_pow_right (by norm_num) (not_lt.1 hc)))] at h
  cases h

theorem Frame.gen_iff (F : Frame ms t subs ks) {s : List ℕ × ℕ × ℕ × Bool} (hs : s ∈ subs) (o : Fin 9 → ℤ) :
    Gen (s.1.map (mat ms)) o ↔ ∃ i < ms.length, s.2.1.testBit i = true ∧ o = mat ms i := by
  have L := lat_facts F.lat hs
  constructor
  · intro h
    induction h with
    | one => exact ⟨0, F.pos, L.zero, F.one.symm⟩
    | mul hg _ ih =>
      obtain ⟨j, hj, rfl⟩ := List.mem_map.1 hg
      obtain ⟨i, hi, hb, rfl⟩ := ih
      have hjn := lt_of_testBit L.lt (L.gens j hj)
      exact ⟨look t j i, F.look_lt hjn hi, L.closed i (mem_bits.2 ⟨hi, hb⟩) j hj, F.mul hjn hi⟩
  · rintro ⟨i, hi, hb, rfl⟩
    rw [← L.orb] at hb
    refine (orbit_sound (n := ms.length) (t := t) (gens := s.1) (p := fun i => Gen (s.1.map (mat ms)) (mat ms i)) ?_ 8 1 ?_ i hb).2
    · intro g hg j hj hp
      have hgn := lt_of_testBit L.lt (L.gens g hg)
      refine ⟨F.look_lt hgn hj, ?_⟩
      rw [← F.mul hgn hj]
      exact Gen.mul (List.mem_map.2 ⟨g, hg, rfl⟩) hp
    · intro j hj
      have : j = 0 := by simpa [Nat.testBit_one_eq_true_iff_self_eq_zero] using hj
      subst this
      refine ⟨F.pos, ?_⟩
      show Gen _ (mat ms 0)
      rw [F.one]
      exact Gen.one

theorem Frame.is_kind (F : Frame ms t subs ks) (hw : Within ms G) {s : List ℕ × ℕ × ℕ × Bool} (hs : s ∈ subs)
    (hm : Mask ms G s.2.1) {k : SiteKind} (hk : k.gens = s.1.map (mat ms)) : k.Is G := by
  intro o
  rw [hk, F.gen_iff hs, F.gen_iff hs]
  constructor
  · have main : ∀ o ∈ G, (∃ i < ms.length, s.2.1.testBit i = true ∧ o = mat ms i) ∨
        ∃ i < ms.length, s.2.1.testBit i = true ∧ -o = mat ms i := by
      intro o ho
      obtain ⟨i, hi, h⟩ := hw o ho
      rcases h with rfl | rfl
      · exact Or.inl ⟨i, hi, (hm i hi).1 (Or.inl ho), rfl⟩
      · exact Or.inr ⟨i, hi, (hm i hi).1 (Or.inr ho), neg_neg _⟩
    rintro (h | h)
    · exact main o h
    · rcases main _ h with h | h
      · exact Or.inr h
      · rw [neg_neg] at h; exact Or.inl h
  · rintro (⟨i, hi, hb, rfl⟩ | ⟨i, hi, hb, e⟩)
    · exact (hm i hi).2 hb
    · have := (hm i hi).2 hb
      rw [← e, neg_neg] at this
      exact this.symm

theorem mem_mask (F : Frame ms t subs ks) {m : ℕ} {i : ℕ} (h : i ∈ bits ms.length m) : i < ms.length := (mem_bits.1 h).1

theorem Frame.sum (F : Frame ms t subs ks) (h : IsSite G) (hw : Within ms G) {m : ℕ} (hm : Mask ms G m) :
    ∃ c : ℤ, (c = 1 ∨ c = 2) ∧ ∀ f : (Fin 9 → ℤ) → ℤ, (∀ o, f (-o) = f o) →
      (G.map f).sum = c * ((bits ms.length m).map fun j => f (mat ms j)).sum := by
  classical
  have hnd : (bits ms.length m).Nodup := List.nodup_range.filter _
  by_cases hneg : -one9 ∈ G
  · refine ⟨2, Or.inr rfl, fun f hf => ?_⟩
    have hsym : ∀ o, -o ∈ G ↔ o ∈ G := by
      intro o
      constructor
      · intro ho
        have := h.mul hneg ho
        rwa [neg_mulM, one_mulM, neg_neg] at this
      · intro ho
        have := h.mul hneg ho
        rwa [neg_mulM, one_mulM] at this
    have hp : G.Perm ((bits ms.length m).map (mat ms) ++ (bits ms.length m).map fun j => -mat ms j) := by
      rw [List.perm_ext_iff_of_nodup h.nodup]
      · intro o
        rw [List.mem_append, List.mem_map, List.mem_map]
        constructor
        · intro ho
          obtain ⟨i, hi, e | e⟩ := hw o ho
          · exact Or.inl ⟨i, mem_bits.2 ⟨hi, (hm i hi).1 (Or.inl (e ▸ ho))⟩, e.symm⟩
          · exact Or.inr ⟨i, mem_bits.2 ⟨hi, (hm i hi).1 (Or.inr (e ▸ ho))⟩, e.symm⟩
        · rintro (⟨i, hi, rfl⟩ | ⟨i, hi, rfl⟩)
          · obtain ⟨hi, hb⟩ := mem_bits.1 hi
            rcases (hm i hi).2 hb with h | h
            · exact h
            · exact (hsym _).1 h
          · obtain ⟨hi, hb⟩ := mem_bits.1 hi
            rcases (hm i hi).2 hb with h | h
            · exact (hsym _).2 h
            · exact h
      · rw [List.nodup_append]
        refine ⟨?_, ?_, ?_⟩
        · exact List.Nodup.map_on (fun i hi j hj e => (F.ne (mem_mask F hi) (mem_mask F hj)).1 e) hnd
        · exact List.Nodup.map_on (fun i hi j hj e => (F.ne (mem_mask F hi) (mem_mask F hj)).1 (neg_injective e)) hnd
        · intro a ha b hb e
          obtain ⟨i, hi, rfl⟩ := List.mem_map.1 ha
          obtain ⟨j, hj, rfl⟩ := List.mem_map.1 hb
          exact (F.ne (mem_mask F hi) (mem_mask F hj)).2 e
    rw [(hp.map f).sum_eq, List.map_append, List.sum_append, List.map_map, List.map_map]
    have e1 : (f ∘ fun j => -mat ms j) = fun j => f (mat ms j) := by funext j; simp [hf]
    have e2 : (f ∘ mat ms) = fun j => f (mat ms j) := rfl
    rw [e1, e2]; ring
  · refine ⟨1, Or.inl rfl, fun f hf => ?_⟩
    have hone : ∀ o, o ∈ G → -o ∉ G := by
      intro o ho hno
      obtain ⟨b, hb, e⟩ := h.inv ho
      have := h.mul hb hno
      rw [mulM_neg, e] at this
      exact hneg this
    have hp : G.Perm ((bits ms.length m).map fun j => if mat ms j ∈ G then mat ms j else -mat ms j) := by
      rw [List.perm_ext_iff_of_nodup h.nodup]
      · intro o
        rw [List.mem_map]
        constructor
        · intro ho
          obtain ⟨i, hi, e | e⟩ := hw o ho
          · exact ⟨i, mem_bits.2 ⟨hi, (hm i hi).1 (Or.inl (e ▸ ho))⟩, by rw [if_pos (e ▸ ho), e]⟩
          · refine ⟨i, mem_bits.2 ⟨hi, (hm i hi).1 (Or.inr (e ▸ ho))⟩, ?_⟩
            rw [if_neg (fun hc => hone _ hc (e ▸ ho)), e]
        · rintro ⟨i, hi, rfl⟩
          obtain ⟨hi, hb⟩ := mem_bits.1 hi
          split
          · assumption
          · rename_i hn
            exact ((hm i hi).2 hb).resolve_left hn
      · apply List.Nodup.map_on _ hnd
        intro i hi j hj e
        have N := F.ne (mem_mask F hi) (mem_mask F hj)
        have N' := F.ne (mem_mask F hj) (mem_mask F hi)
        split_ifs at e
        · exact N.1 e
        · exact absurd e N.2
        · exact absurd e.symm N'.2
        · exact N.1 (neg_injective e)
    rw [(hp.map f).sum_eq, List.map_map, one_mul]
    congr 1
    apply List.map_congr_left
    intro j _
    simp only [Function.comp]
    split
    · rfl
    · exact hf _

theorem sample_neg (o : Fin 9 → ℤ) : sample (-o) = sample o := by
  funext i
  fin_cases i <;> simp [sample]

theorem act_neg (o : Fin 9 → ℤ) : act (-o) = act o := by
  have := actM_neg o
  exact Matrix.of.injective this

theorem Frame.number (F : Frame ms t subs ks) (h : IsSite G) (hw : Within ms G) {s : List ℕ × ℕ × ℕ × Bool} (hs : s ∈ subs)
    (hm : Mask ms G s.2.1) : constrNumber G = s.2.2.1 := by
  obtain ⟨c, hc, hsum⟩ := F.sum h hw hm
  have := List.all_eq_true.1 F.final s hs
  simp only [Bool.and_eq_true, beq_iff_eq] at this
  obtain ⟨⟨h1, h2⟩, -⟩ := this
  unfold constrNumber
  have e : (fun i => (G.map fun o => sample o i).sum) = fun i => c * ((bits ms.length s.2.1).map fun j => sample (mat ms j) i).sum := by
    funext i
    exact hsum (fun o => sample o i) fun o => by rw [sample_neg]
  rw [e]
  rcases hc with rfl | rfl
  · simpa using h1
  · exact h2

theorem six_all {q : Fin 6 → Bool} : six.all q = true ↔ ∀ i, q i = true := by
  constructor
  · intro h i
    rw [List.all_eq_true] at h
    apply h
    fin_cases i <;> simp [six]
  · intro h; rw [List.all_eq_true]; exact fun i _ => h i

/-- the sum of the actions of a list of rotations, over the integers -/
def sumAct (H : List (Fin 9 → ℤ)) : Matrix (Fin 6) (Fin 6) ℤ := (H.map actM).sum

theorem sumAct_apply (H : List (Fin 9 → ℤ)) (i k : Fin 6) : sumAct H i k = (H.map fun o => act o i k).sum := by
  induction H with
  | nil => rfl
  | cons a H ih =>
    have : sumAct (a :: H) = actM a + sumAct H := by simp [sumAct]
    rw [this, Matrix.add_apply, ih]
    simp [actM]

theorem mul6_eq (a b : Fin 6 → Fin 6 → ℤ) (i j : Fin 6) : mul6 a b i j = (Matrix.of a * Matrix.of b) i j := by
  simp [mul6, Matrix.mul_apply, Fin.sum_univ_six]

theorem rightZ_iff (numb : ℕ) (H : List ℕ) : rightZ ms numb H = true ↔
    (∀ j ∈ H, actM (mat ms j) * Matrix.of (v2 numb) = Matrix.of (v2 numb)) ∧
      Matrix.of (v2 numb) * sumAct (H.map (mat ms)) = (2 : ℤ) • sumAct (H.map (mat ms)) := by
  unfold rightZ
  rw [Bool.and_eq_true, List.all_eq_true]
  have e : (Matrix.of fun l m => (H.map fun j => act (mat ms j) l m).sum) = sumAct (H.map (mat ms)) := by
    ext l m
    rw [sumAct_apply, List.map_map]; rfl
  refine and_congr (forall_congr' fun j => imp_congr_right fun _ => ?_) ?_
  · rw [six_all]
    simp only [six_all, beq_iff_eq, mul6_eq]
    exact ⟨fun h => Matrix.ext h, fun h i k => congrFun (congrFun h i) k⟩
  · rw [six_all]
    simp only [six_all, beq_iff_eq, mul6_eq, e]
    constructor
    · intro h
      ext i k
      rw [h i k, Matrix.smul_apply, sumAct_apply, List.map_map]; rfl
    · intro h i k
      rw [h, Matrix.smul_apply, sumAct_apply, List.map_map]; rfl

/-- to the reals -/
def cast6 : Matrix (Fin 6) (Fin 6) ℤ →+* Matrix (Fin 6) (Fin 6) ℝ := (Int.castRingHom ℝ).mapMatrix

theorem cast6_inj : Function.Injective cast6 := by
  intro a b h
  ext i j
  have := congrFun (congrFun h i) j
  simpa [cast6] using this

theorem cast6_act (o : Fin 9 → ℤ) : cast6 (actM o) = actR o := rfl
theorem cast6_v2 (n : ℕ) : cast6 (Matrix.of (v2 n)) = v2R n := rfl

theorem sumAct_invariant (h : IsSite G) {o : Fin 9 → ℤ} (ho : o ∈ G) : actM o * sumAct G = sumAct G := by
  have hp := ((h.perm ho).map actM).sum_eq
  rw [List.map_map] at hp
  have e : actM ∘ mulM o = fun x => actM o * actM x := by funext x; exact actM_mul o x
  rw [e, List.sum_map_mul_left] at hp
  exact hp

theorem sumAct_vec (G : List (Fin 9 → ℤ)) (u : Fin 6 → ℝ) (hu : ∀ o ∈ G, actR o *ᵥ u = u) :
    cast6 (sumAct G) *ᵥ u = (G.length : ℝ) • u := by
  induction G with
  | nil =>
    have : sumAct [] = 0 := rfl
    rw [this, map_zero]; simp
  | cons a G ih =>
    have : sumAct (a :: G) = actM a + sumAct G := by simp [sumAct]
    rw [this, map_add, Matrix.add_mulVec, ih fun o ho => hu o (List.mem_cons_of_mem _ ho), cast6_act, hu a List.mem_cons_self]
    rw [List.length_cons]; push_cast; rw [add_smul, one_smul, add_comm]

theorem eq_of_mulVec {A B : Matrix (Fin 6) (Fin 6) ℝ} (h : ∀ u, A *ᵥ u = B *ᵥ u) : A = B :=
  Matrix.ext_of_mulVec_single fun i => h _

theorem right_iff (h : IsSite G) : Right G ↔
    (∀ o ∈ G, actM o * Matrix.of (v2 (constrNumber G)) = Matrix.of (v2 (constrNumber G))) ∧
      Matrix.of (v2 (constrNumber G)) * sumAct G = (2 : ℤ) • sumAct G := by
  have hv : ∀ u, siteConstrained G u = (1 / 2 : ℝ) • (v2R (constrNumber G) *ᵥ u) := by
    intro u
    funext i
    have := vib_eq (constrNumber G) u i
    rw [Pi.smul_apply, smul_eq_mul, ← this]
    unfold siteConstrained
    ring
  have hl : (G.length : ℝ) ≠ 0 := by
    have := h.one
    rw [Ne, Nat.cast_eq_zero, List.length_eq_zero_iff]
    rintro rfl
    cases this
  have half : ∀ x y : Fin 6 → ℝ, (1 / 2 : ℝ) • x = (1 / 2 : ℝ) • y → x = y := fun x y e => by
    have := congrArg (fun z => (2 : ℝ) • z) e
    simpa [smul_smul] using this
  refine and_congr ?_ ?_
  · constructor
    · intro hr o ho
      apply cast6_inj
      rw [map_mul, cast6_act, cast6_v2]
      apply eq_of_mulVec
      intro u
      have := (leaves_iff o _).1 (hr u o ho)
      rw [hv, Matrix.mulVec_smul, Matrix.mulVec_mulVec] at this
      exact half _ _ this
    · intro hr u o ho
      rw [leaves_iff, hv, Matrix.mulVec_smul, Matrix.mulVec_mulVec]
      have := congrArg cast6 (hr o ho)
      rw [map_mul, cast6_act, cast6_v2] at this
      rw [this]
  · constructor
    · intro hr
      apply cast6_inj
      rw [map_mul, map_zsmul, cast6_v2]
      apply eq_of_mulVec
      intro u
      have inv : ∀ o ∈ G, Leaves o (cast6 (sumAct G) *ᵥ u) := by
        intro o ho
        rw [leaves_iff, Matrix.mulVec_mulVec, ← cast6_act, ← map_mul, sumAct_invariant h ho]
      have := hr _ inv
      rw [hv, Matrix.mulVec_mulVec] at this
      rw [Matrix.smul_mulVec]
      have := congrArg (fun z => (2 : ℝ) • z) this
      simp only [smul_smul] at this
      norm_num at this
      rw [this]
      funext i
      simp
    · intro hr u hu
      have := congrArg cast6 hr
      rw [map_mul, map_zsmul, cast6_v2] at this
      have hs := sumAct_vec G u fun o ho => (leaves_iff o u).1 (hu o ho)
      have e := congrArg (fun M => M *ᵥ u) this
      simp only [← Matrix.mulVec_mulVec] at e
      rw [Matrix.smul_mulVec, hs, Matrix.mulVec_smul] at e
      rw [hv]
      funext i
      have ei := congrFun e i
      simp only [Pi.smul_apply, smul_eq_mul, zsmul_eq_mul] at ei ⊢
      push_cast at ei
      have : (G.length : ℝ) * ((v2R (constrNumber G) *ᵥ u) i - 2 * u i) = 0 := by linarith
      rcases mul_eq_zero.1 this with h | h
      · exact absurd h hl
      · linarith

theorem Frame.right (F : Frame ms t subs ks) (h : IsSite G) (hw : Within ms G) {s : List ℕ × ℕ × ℕ × Bool} (hs : s ∈ subs)
    (hm : Mask ms G s.2.1) : Right G ↔ s.2.2.2 = true := by
  obtain ⟨c, hc, hsum⟩ := F.sum h hw hm
  have fin := List.all_eq_true.1 F.final s hs
  simp only [Bool.and_eq_true, beq_iff_eq] at fin
  rw [← fin.2, rightZ_iff, right_iff h, F.number h hw hs hm]
  have hS : sumAct G = c • sumAct ((bits ms.length s.2.1).map (mat ms)) := by
    ext i k
    rw [sumAct_apply, Matrix.smul_apply, sumAct_apply, List.map_map]
    exact hsum (fun o => act o i k) fun o => by rw [act_neg]
  refine and_congr ?_ ?_
  · constructor
    · intro hr j hj
      obtain ⟨hj, hb⟩ := mem_bits.1 hj
      rcases (hm j hj).2 hb with h | h
      · exact hr _ h
      · have := hr _ h
        rwa [actM_neg] at this
    · intro hr o ho
      obtain ⟨i, hi, e | e⟩ := hw o ho
      · rw [e]; exact hr i (mem_bits.2 ⟨hi, (hm i hi).1 (Or.inl (e ▸ ho))⟩)
      · rw [e, actM_neg]; exact hr i (mem_bits.2 ⟨hi, (hm i hi).1 (Or.inr (e ▸ ho))⟩)
  · rw [hS, Matrix.mul_smul, smul_comm]
    have hc0 : c ≠ 0 := by rcases hc with rfl | rfl <;> norm_num
    constructor
    · intro hr
      ext i k
      have := congrFun (congrFun hr i) k
      simp only [Matrix.smul_apply, smul_eq_mul] at this ⊢
      exact mul_left_cancel₀ hc0 this
    · intro hr; rw [hr]

theorem Frame.sites (F : Frame ms t subs ks) (h : IsSite G) (hw : Within ms G) :
    ∃ k ∈ ks, k.Is G ∧ (Right G ↔ k.right = true) := by
  obtain ⟨s, hs, hm⟩ := F.exists_mask h
  obtain ⟨k, hk, e1, e2⟩ := F.exists_kind hs
  exact ⟨k, hk, F.is_kind hw hs hm e1, by rw [e2]; exact F.right h hw hs hm⟩

end Cryspy.Vib
