import Verif.SG.Spec
import Verif.SG.Check2
import Verif.SG.Check4

/-!
# The operations of every setting are a group (C54)
-/

namespace Cryspy.SG

open Cryspy.Text Cryspy.Symm

theorem mem_pyRange {a b n : ℕ} : n ∈ pyRange a b ↔ a ≤ n ∧ n < b := by
  unfold pyRange
  rw [List.mem_map]
  constructor
  · rintro ⟨k, hk, rfl⟩
    rw [List.mem_range] at hk
    omega
  · rintro ⟨h1, h2⟩
    exact ⟨n - a, List.mem_range.2 (by omega), by omega⟩

theorem setting_checked {n : ℕ} (h1 : 1 ≤ n) (h2 : n ≤ 230) {code : Option Str} (hc : code ∈ settingsOf n) :
    settingCheck n code = true := by
  have key : ∀ {a b : ℕ}, rangeCheck a b = true → a ≤ n → n < b → settingCheck n code = true := by
    intro a b h ha hb
    exact List.all_eq_true.1 (List.all_eq_true.1 h n (mem_pyRange.2 ⟨ha, hb⟩)) code hc
  by_cases c1 : n < 16; · exact key check_1_16 h1 c1
  by_cases c2 : n < 24; · exact key check_16_24 (by omega) c2
  by_cases c3 : n < 36; · exact key check_24_36 (by omega) c3
  by_cases c4 : n < 48; · exact key check_36_48 (by omega) c4
  by_cases c5 : n < 52; · exact key check_48_52 (by omega) c5
  by_cases c6 : n < 60; · exact key check_52_60 (by omega) c6
  by_cases c7 : n < 68; · exact key check_60_68 (by omega) c7
  by_cases c8 : n < 75; · exact key check_68_75 (by omega) c8
  by_cases c9 : n < 100; · exact key check_75_100 (by omega) c9
  by_cases c10 : n < 123; · exact key check_100_123 (by omega) c10
  by_cases c11 : n < 133; · exact key check_123_133 (by omega) c11
  by_cases c12 : n < 143; · exact key check_133_143 (by omega) c12
  by_cases c13 : n < 166; · exact key check_143_166 (by omega) c13
  by_cases c14 : n < 177; · exact key check_166_177 (by omega) c14
  by_cases c15 : n < 186; · exact key check_177_186 (by omega) c15
  by_cases c16 : n < 190; · exact key check_186_190 (by omega) c16
  by_cases c17 : n < 195; · exact key check_190_195 (by omega) c17
  by_cases c18 : n < 207; · exact key check_195_207 (by omega) c18
  by_cases c19 : n < 213; · exact key check_207_213 (by omega) c19
  by_cases c20 : n < 217; · exact key check_213_217 (by omega) c20
  by_cases c21 : n < 219; · exact key check_217_219 (by omega) c21
  by_cases c22 : n < 221; · exact key check_219_221 (by omega) c22
  by_cases c23 : n < 222; · exact key check_221_222 (by omega) c23
  by_cases c24 : n < 223; · exact key check_222_223 (by omega) c24
  by_cases c25 : n < 224; · exact key check_223_224 (by omega) c25
  by_cases c26 : n < 225; · exact key check_224_225 (by omega) c26
  by_cases c27 : n < 226; · exact key check_225_226 (by omega) c27
  by_cases c28 : n < 227; · exact key check_226_227 (by omega) c28
  by_cases c29 : n < 229; · exact key check_227_229 (by omega) c29
  by_cases c30 : n < 230; · exact key check_229_230 (by omega) c30
  exact key check_230_231 (by omega) (by omega)

theorem readsAs_of_denotes {s : Str} {o : Op} (h : Denotes s o) : ReadsAs s o.elem := by
  refine ⟨o.aff, h, fun i j => rfl, fun i => ?_⟩
  change ((o.elem.bn i : ℤ) : ℚ) / 120 = _
  rfl

theorem cards_some : ∃ cards, elCards = some cards := by
  have h := cards_read
  cases hc : elCards with
  | none => rw [hc] at h; cases h
  | some c => exact ⟨c, rfl⟩

/-- The operations of the program and those of the check. -/
theorem operations_of_check {n : ℕ} (h1 : 1 ≤ n) (h2 : n ≤ 230) {code : Option Str} (hc : code ∈ settingsOf n)
    (hr : inTable raising n code = false) : ∃ h t, numFull n code = some (h, t) ∧
      Operations n code ((expand h t).map Op.elem) ∧
      (inTable broken n code = false → groupCheck' (h, t) = true) ∧
      (inTable broken n code = true → notClosed (expand h t) = true) := by
  have hk := setting_checked h1 h2 hc
  obtain ⟨cards, hcards⟩ := cards_some
  unfold settingCheck at hk
  cases hn : numFull n code with
  | none => rw [hn] at hk; simp [hr] at hk
  | some p =>
    obtain ⟨h, t⟩ := p
    rw [hn] at hk
    simp only [Bool.and_eq_true] at hk
    obtain ⟨-, hs, hg⟩ := hk
    obtain ⟨texts, ht, hd⟩ := full_texts hcards hn (by rw [Bool.and_eq_true]; exact hs)
    refine ⟨h, t, rfl, ⟨texts, ?_, ?_⟩, ?_, ?_⟩
    · unfold symopTexts; rw [hcards]; exact ht
    · rw [List.forall₂_map_right_iff]
      exact hd.imp fun _ _ => readsAs_of_denotes
    · intro hb; rw [hb] at hg; exact hg
    · intro hb; rw [hb] at hg; exact hg

/-- C54: for every number and every setting offered for it, outside the two tables of exceptions, the program gives
operations, none twice, and they are a group modulo lattice translations. -/
theorem setting_is_group {n : ℕ} (h1 : 1 ≤ n) (h2 : n ≤ 230) {code : Option Str} (hc : code ∈ settingsOf n)
    (hr : inTable raising n code = false) (hb : inTable broken n code = false) :
    ∃ G, Operations n code G ∧ IsGroup G ∧ Distinct G := by
  obtain ⟨h, t, -, ho, hg, -⟩ := operations_of_check h1 h2 hc hr
  exact ⟨_, ho, group_of_check (hg hb), distinct_of_check (hg hb)⟩

/-- The operations that a text can be read as are determined. -/
theorem operations_unique {n : ℕ} {code : Option Str} {G G' : List Elem} (h : Operations n code G)
    (h' : Operations n code G') : List.Forall₂ (fun a b => ∀ x, act a x = act b x) G G' := by
  obtain ⟨t, ht, hg⟩ := h
  obtain ⟨t', ht', hg'⟩ := h'
  rw [ht] at ht'
  cases ht'
  clear ht
  induction hg generalizing G' with
  | nil => cases hg'; exact .nil
  | cons ha _ ih =>
    cases hg' with
    | cons hb hr =>
      refine .cons ?_ (ih hr)
      obtain ⟨a, ea, ra, ba⟩ := ha
      obtain ⟨b, eb, rb, bb⟩ := hb
      rw [ea] at eb
      cases eb
      intro x
      funext k
      unfold act
      rw [← ba, ← bb]
      simp only [← ra, ← rb]

/-- C54, the exceptions: the program raises for the settings of the table `raising`. -/
theorem setting_raises {n : ℕ} (h1 : 1 ≤ n) (h2 : n ≤ 230) {code : Option Str} (hc : code ∈ settingsOf n)
    (hr : inTable raising n code = true) : symopTexts n code = none := by
  have hk := setting_checked h1 h2 hc
  obtain ⟨cards, hcards⟩ := cards_some
  unfold settingCheck at hk
  cases hn : numFull n code with
  | none => unfold symopTexts; rw [hcards]; exact full_raises hcards hn
  | some p => rw [hn] at hk; simp [hr] at hk

theorem Op.Eqv.symm {a b : Op} (h : a.Eqv b) : b.Eqv a := by
  obtain ⟨⟨⟨h1, h2, h3⟩, ⟨h4, h5, h6⟩, h7, h8, h9⟩, t1, t2, t3⟩ := h
  exact ⟨⟨⟨h1.symm, h2.symm, h3.symm⟩, ⟨h4.symm, h5.symm, h6.symm⟩, h7.symm, h8.symm, h9.symm⟩, t1.symm, t2.symm, t3.symm⟩

theorem inH_complete {H : List Op} {p c : Op} (hc : c ∈ H) (h : p.Eqv c) :
    inH (H.map Op.res) [⟨0, 0, 0⟩] p.res = true := by
  obtain ⟨⟨⟨h1, h2, h3⟩, ⟨h4, h5, h6⟩, h7, h8, h9⟩, t1, t2, t3⟩ := h
  unfold inH
  rw [List.any_eq_true]
  refine ⟨c.res, List.mem_map_of_mem hc, ?_⟩
  rw [Bool.and_eq_true]
  constructor
  · unfold NOp.sameRot NOp.code Op.res
    simp only
    rw [h1, h2, h3, h4, h5, h6, h7, h8, h9]
    exact Nat.beq_refl _
  · change inT ([(0, 0, 0)].map Tr.res) (dif (md p.t1) (md c.t1)) (dif (md p.t2) (md c.t2)) (dif (md p.t3) (md c.t3)) = true
    rw [dif_md, dif_md, dif_md, inT_iff]
    exact ⟨_, List.mem_singleton.2 rfl, by show (p.t1 - c.t1) % 120 = 0 % 120; omega,
      by show (p.t2 - c.t2) % 120 = 0 % 120; omega, by show (p.t3 - c.t3) % 120 = 0 % 120; omega⟩

theorem not_group_of_notClosed {l : List Op} (h : notClosed l = true) : ¬ IsGroup (l.map Op.elem) := by
  intro hg
  unfold notClosed at h
  simp only [List.any_eq_true, Bool.not_eq_true'] at h
  obtain ⟨a', ha', b', hb', h⟩ := h
  obtain ⟨a, ha, rfl⟩ := List.mem_map.1 ha'
  obtain ⟨b, hb, rfl⟩ := List.mem_map.1 hb'
  obtain ⟨c', hc', hp⟩ := hg.mul _ (List.mem_map_of_mem ha) _ (List.mem_map_of_mem hb)
  obtain ⟨c, hc, rfl⟩ := List.mem_map.1 hc'
  have hs : SameOp c.elem (a.mul b).elem := by
    intro x
    rw [act_mul]
    exact hp x
  have := inH_complete hc (Op.Eqv.symm (eqv_of_sameOp hs))
  rw [res_mul, h] at this
  cases this

theorem isGroup_congr {G G' : List Elem} (h : List.Forall₂ (fun a b => ∀ x, act a x = act b x) G G') (hg : IsGroup G) :
    IsGroup G' := by
  have hl : ∀ a ∈ G, ∃ b ∈ G', ∀ x, act a x = act b x := by
    intro a ha
    obtain ⟨i, hi, rfl⟩ := List.getElem_of_mem ha
    exact ⟨G'[i]'(h.length_eq ▸ hi), List.getElem_mem _, h.get hi (h.length_eq ▸ hi)⟩
  have hr : ∀ b ∈ G', ∃ a ∈ G, ∀ x, act a x = act b x := by
    intro b hb
    obtain ⟨i, hi, rfl⟩ := List.getElem_of_mem hb
    exact ⟨G[i]'(h.length_eq.symm ▸ hi), List.getElem_mem _, h.get (h.length_eq.symm ▸ hi) hi⟩
  refine ⟨?_, ?_, ?_⟩
  · obtain ⟨e, he, h1⟩ := hg.one
    obtain ⟨e', he', h2⟩ := hl e he
    exact ⟨e', he', fun x => h2 x ▸ h1 x⟩
  · intro a ha b hb
    obtain ⟨a', ha', ea⟩ := hr a ha
    obtain ⟨b', hb', eb⟩ := hr b hb
    obtain ⟨c, hc, hp⟩ := hg.mul a' ha' b' hb'
    obtain ⟨c', hc', ec⟩ := hl c hc
    refine ⟨c', hc', fun x => ?_⟩
    have := hp x
    rwa [ec, eb, ea] at this
  · intro a ha
    obtain ⟨a', ha', ea⟩ := hr a ha
    obtain ⟨b, hb, hi⟩ := hg.inv a' ha'
    obtain ⟨b', hb', eb⟩ := hl b hb
    refine ⟨b', hb', fun x => ?_⟩
    have := hi x
    rwa [eb, ea] at this

/-- C54, the exceptions: for the settings of number 48 with the first origin (but the one that raises) the program gives operations
that are not a group, whatever one reads in the texts. -/
theorem setting_48_not_group {s : String} (hs : s ∈ ["1abc", "1ba-c", "1cab", "1-cba", "1bca"]) :
    (∃ G, Operations 48 (some s.toList) G) ∧ ∀ G, Operations 48 (some s.toList) G → ¬ IsGroup G := by
  have hall : (["1abc", "1ba-c", "1cab", "1-cba", "1bca"].all fun s => decide (some s.toList ∈ settingsOf 48) &&
      (!inTable raising 48 (some s.toList) && inTable broken 48 (some s.toList))) = true := by decide +kernel
  have := List.all_eq_true.1 hall s hs
  simp only [Bool.and_eq_true, decide_eq_true_eq, Bool.not_eq_true'] at this
  obtain ⟨hc, hr, hb⟩ := this
  obtain ⟨h, t, -, ho, -, hg⟩ := operations_of_check (by decide) (by decide) hc hr
  refine ⟨⟨_, ho⟩, fun G hG hgr => not_group_of_notClosed (hg hb) (isGroup_congr (operations_unique hG ho) hgr)⟩

/-! A tetragonal, a cubic and a trigonal setting to which the theorem applies, and one that raises. -/
example : some "2".toList ∈ settingsOf 141 ∧ inTable raising 141 (some "2".toList) = false ∧
    inTable broken 141 (some "2".toList) = false ∧ some "1".toList ∈ settingsOf 225 ∧ some "r".toList ∈ settingsOf 167 ∧
    none ∈ settingsOf 2 ∧ some "2".toList ∈ settingsOf 228 ∧ inTable raising 228 (some "2".toList) = true := by decide +kernel

/-- The exceptions are 144 of the 802 settings (and five more that are no group). -/
example : ((pyRange 1 231).flatMap fun n => (settingsOf n).map fun c => (n, c)).length = 802 ∧
    (((pyRange 1 231).flatMap fun n => (settingsOf n).map fun c => (n, c)).filter fun s => inTable raising s.1 s.2).length = 144 := by
  decide +kernel

end Cryspy.SG
