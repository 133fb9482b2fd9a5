import Verif.SG.Model
import Verif.SG.TablesOps
import Verif.Text.SymopProps

/-!
# The list of operations of a setting, computed with integers

`numFull` does with `Op`s what the program does with texts; `full_texts` proves that the texts the program
ends with mean exactly the operations computed here, and `full_raises` that the program raises where
`numFull` is `none`.
-/

namespace Cryspy.SG

open Cryspy.Text Cryspy.Symm

/-- The distinct operations by place. -/
def symOp (i : ℕ) : Option Op := (symList.getD i ([], none)).2

/-- The axes of a setting as a matrix. -/
def axesOp (name : Str) : Option Op :=
  if name = "a,b,c".toList then some ⟨1, 0, 0, 0, 1, 0, 0, 0, 1, 0, 0, 0⟩
  else if name = "b,a,-c".toList then some ⟨0, 1, 0, 1, 0, 0, 0, 0, -1, 0, 0, 0⟩
  else if name = "c,a,b".toList then some ⟨0, 0, 1, 1, 0, 0, 0, 1, 0, 0, 0, 0⟩
  else if name = "-c,b,a".toList then some ⟨0, 0, -1, 0, 1, 0, 1, 0, 0, 0, 0, 0⟩
  else if name = "b,c,a".toList then some ⟨0, 1, 0, 0, 0, 1, 1, 0, 0, 0, 0, 0⟩
  else if name = "a,-c,b".toList then some ⟨1, 0, 0, 0, 0, -1, 0, 1, 0, 0, 0, 0⟩
  else none

/-- Change of axes: `Q W Qᵀ`. -/
def Op.conj (q w : Op) : Op := (q.mul w).mul q.trans

/-- Centring translations in units of 1/120. -/
def shiftsN (ct : Option Str) : List Tr :=
  match shiftTable.find? fun e => some e.1.toList == ct with
  | some e => e.2.map fun l => match l with
    | [a, b, c] => (a.1 * (120 / a.2), b.1 * (120 / b.2), c.1 * (120 / c.2))
    | _ => (0, 0, 0)
  | none => []

/-- The card of a setting. -/
def cardN (n : ℕ) (code : Option Str) : Option CardN :=
  cardTab.flatten.find? fun c => c.it == n && c.choice.toList == choiceOf code

/-- The operations before centring (reduced, and inverted if centrosymmetric) and the centring
translations. -/
def numFull (n : ℕ) (code : Option Str) : Option (List Op × List Tr) := do
  let c ← cardN n code
  let ops ← c.ops.mapM symOp
  let name ← transformName code
  let q ← axesOp name
  let centro ← centrosymmetric n
  let red := ops.map q.conj
  let h := if centro then red ++ red.map (Op.inv · (-c.pc.1, -c.pc.2.1, -c.pc.2.2)) else red
  some (h, shiftsN (centringType n code))

/-- All operations. -/
def expand (h : List Op) (t : List Tr) : List Op := h.flatMap fun o => t.map o.shift

/-- Are the translations of an operation ones that the text form keeps? -/
def Op.small (o : Op) : Bool := smallDen o.t1 && (smallDen o.t2 && smallDen o.t3)

/-! ## Reading and writing -/

theorem den_of_smallDen {t : ℤ} (h : smallDen t = true) : ((t : ℚ) / 120).den ≤ 10 := by
  have key : ∀ d : ℤ, 0 < d → d ≤ 10 → d * t % 120 = 0 → ((t : ℚ) / 120).den ≤ 10 := by
    intro d hd hd10 hm
    obtain ⟨k, hk⟩ := Int.dvd_of_emod_eq_zero hm
    have e : (t : ℚ) / 120 = (k : ℚ) / (d : ℚ) := by
      have hdq : (d : ℚ) ≠ 0 := by exact_mod_cast hd.ne'
      have : (d : ℚ) * t = 120 * k := by exact_mod_cast hk
      field_simp
      linarith
    rw [e]
    have : (((k : ℚ) / (d : ℚ)).den : ℤ) ∣ d := by rw [← Rat.divInt_eq_div]; exact Rat.den_dvd k d
    have := Int.le_of_dvd hd this
    omega
  simp only [smallDen, List.any_cons, List.any_nil, Bool.or_false, Bool.or_eq_true, beq_iff_eq] at h
  rcases h with h | h | h | h | h | h
  · exact key 8 (by decide) (by decide) h
  · exact key 9 (by decide) (by decide) h
  · exact key 10 (by decide) (by decide) h
  · exact key 7 (by decide) (by decide) h
  · exact key 6 (by decide) (by decide) h
  · exact key 5 (by decide) (by decide) h

theorem toAff_ofFn (a : Aff) : toAff (List.ofFn fun i => (List.ofFn fun j => a.R i j, a.b i)) = some a := by
  simp only [List.ofFn_succ, List.ofFn_zero, toAff]
  congr 1
  cases a with
  | mk R b =>
    simp only [Aff.mk.injEq]
    constructor
    · funext i j; fin_cases i <;> fin_cases j <;> rfl
    · funext i; fin_cases i <;> rfl

theorem read_write {o : Op} (h : o.small = true) : readOp (writeOp o.aff) = some o.aff := by
  simp only [Op.small, Bool.and_eq_true] at h
  have hb : ∀ i, (o.aff.b i).den ≤ 10 := by
    intro i
    fin_cases i
    · exact den_of_smallDen h.1
    · exact den_of_smallDen h.2.1
    · exact den_of_smallDen h.2.2
  have := symop_round_trip o.elem.r o.aff.b hb true
  simp only [if_true] at this
  unfold readOp writeOp
  change (stringToRB _ (rbToString _ (List.ofFn fun i => (List.ofFn fun j => Num.frac (o.elem.r i j : ℚ), o.aff.b i)))).bind toAff = _
  rw [this]
  exact toAff_ofFn o.aff

/-- The text means the operation. -/
def Denotes (s : Str) (o : Op) : Prop := readOp s = some o.aff

theorem Aff.ext' {a b : Aff} (h : (a.R 0 0 = b.R 0 0 ∧ a.R 0 1 = b.R 0 1 ∧ a.R 0 2 = b.R 0 2) ∧
    (a.R 1 0 = b.R 1 0 ∧ a.R 1 1 = b.R 1 1 ∧ a.R 1 2 = b.R 1 2) ∧
    (a.R 2 0 = b.R 2 0 ∧ a.R 2 1 = b.R 2 1 ∧ a.R 2 2 = b.R 2 2) ∧ a.b 0 = b.b 0 ∧ a.b 1 = b.b 1 ∧ a.b 2 = b.b 2) : a = b := by
  obtain ⟨⟨h1, h2, h3⟩, ⟨h4, h5, h6⟩, ⟨h7, h8, h9⟩, h10, h11, h12⟩ := h
  cases a; cases b
  congr
  · funext i j
    fin_cases i <;> fin_cases j <;> assumption
  · funext i
    fin_cases i <;> assumption

@[simp] theorem affR11 (o : Op) : o.aff.R 0 0 = o.r11 := rfl
@[simp] theorem affR12 (o : Op) : o.aff.R 0 1 = o.r12 := rfl
@[simp] theorem affR13 (o : Op) : o.aff.R 0 2 = o.r13 := rfl
@[simp] theorem affR21 (o : Op) : o.aff.R 1 0 = o.r21 := rfl
@[simp] theorem affR22 (o : Op) : o.aff.R 1 1 = o.r22 := rfl
@[simp] theorem affR23 (o : Op) : o.aff.R 1 2 = o.r23 := rfl
@[simp] theorem affR31 (o : Op) : o.aff.R 2 0 = o.r31 := rfl
@[simp] theorem affR32 (o : Op) : o.aff.R 2 1 = o.r32 := rfl
@[simp] theorem affR33 (o : Op) : o.aff.R 2 2 = o.r33 := rfl
@[simp] theorem affb1 (o : Op) : o.aff.b 0 = (o.t1 : ℚ) / 120 := rfl
@[simp] theorem affb2 (o : Op) : o.aff.b 1 = (o.t2 : ℚ) / 120 := rfl
@[simp] theorem affb3 (o : Op) : o.aff.b 2 = (o.t3 : ℚ) / 120 := rfl

theorem changeAff_conj {q : Op} (h : q.t1 = 0 ∧ q.t2 = 0 ∧ q.t3 = 0) (o : Op) :
    changeAff (fun i j => q.aff.R j i) q.aff.b o.aff = (q.conj o).aff := by
  obtain ⟨h1, h2, h3⟩ := h
  apply Aff.ext'
  simp only [changeAff, mulVec, mulMat, affR11, affR12, affR13, affR21, affR22, affR23, affR31, affR32, affR33, affb1,
    affb2, affb3, Op.conj, Op.mul, Op.trans, h1, h2, h3]
  push_cast
  refine ⟨⟨?_, ?_, ?_⟩, ⟨?_, ?_, ?_⟩, ⟨?_, ?_, ?_⟩, ?_, ?_, ?_⟩ <;> ring

theorem changeText_denotes {q : Op} (h : q.t1 = 0 ∧ q.t2 = 0 ∧ q.t3 = 0) {s : Str} {o : Op} (hs : Denotes s o)
    (hk : (q.conj o).small = true) :
    ∃ s', changeText (fun i j => q.aff.R j i) q.aff.b s = some s' ∧ Denotes s' (q.conj o) := by
  refine ⟨writeOp (q.conj o).aff, ?_, read_write hk⟩
  unfold changeText
  rw [hs, Option.map_some, changeAff_conj h]

theorem inverseText_denotes {c : Tr} {pc : Fin 3 → ℚ} (hc : pc = ![(c.1 : ℚ) / 120, c.2.1 / 120, c.2.2 / 120])
    {s : Str} {o : Op} (hs : Denotes s o) (hk : (o.inv c).small = true) :
    ∃ s', inverseText pc s = some s' ∧ Denotes s' (o.inv c) := by
  refine ⟨writeOp (o.inv c).aff, ?_, read_write hk⟩
  unfold inverseText
  rw [hs, Option.map_some]
  congr 2
  apply Aff.ext'
  have e0 : pc 0 = (c.1 : ℚ) / 120 := by rw [hc]; rfl
  have e1 : pc 1 = (c.2.1 : ℚ) / 120 := by rw [hc]; rfl
  have e2 : pc 2 = (c.2.2 : ℚ) / 120 := by rw [hc]; rfl
  simp only [affR11, affR12, affR13, affR21, affR22, affR23, affR31, affR32, affR33, affb1,
    affb2, affb3, Op.inv, e0, e1, e2]
  push_cast
  refine ⟨⟨?_, ?_, ?_⟩, ⟨?_, ?_, ?_⟩, ⟨?_, ?_, ?_⟩, ?_, ?_, ?_⟩ <;> ring

/-- A centring translation as a vector of fractions. -/
def Tr.val (t : Tr) : Fin 3 → ℚ := ![(t.1 : ℚ) / 120, t.2.1 / 120, t.2.2 / 120]

theorem centringTexts_denotes {ts : List Tr} {s : Str} {o : Op} (hs : Denotes s o)
    (hk : ∀ t ∈ ts, (o.shift t).small = true) :
    ∃ l, centringTexts (ts.map Tr.val) s = some l ∧ List.Forall₂ Denotes l (ts.map o.shift) := by
  refine ⟨(ts.map o.shift).map fun o' => writeOp o'.aff, ?_, ?_⟩
  · unfold centringTexts
    rw [hs, Option.map_some, List.map_map, List.map_map]
    congr 2
    funext t
    simp only [Function.comp_apply]
    congr 1
    apply Aff.ext'
    have e0 : Tr.val t 0 = (t.1 : ℚ) / 120 := rfl
    have e1 : Tr.val t 1 = (t.2.1 : ℚ) / 120 := rfl
    have e2 : Tr.val t 2 = (t.2.2 : ℚ) / 120 := rfl
    simp only [affR11, affR12, affR13, affR21, affR22, affR23, affR31, affR32, affR33, affb1,
      affb2, affb3, Op.shift, e0, e1, e2, true_and]
    push_cast
    refine ⟨?_, ?_, ?_⟩ <;> ring
  · rw [List.forall₂_map_left_iff, List.forall₂_same]
    intro o' ho'
    obtain ⟨t, ht, rfl⟩ := List.mem_map.1 ho'
    exact read_write (hk t ht)

theorem shiftsOf_eq (ct : Option Str) : shiftsOf ct = (shiftsN ct).map Tr.val := by
  unfold shiftsOf shiftsN
  cases he : shiftTable.find? fun e => some e.1.toList == ct with
  | none => rfl
  | some e =>
    dsimp only
    have hm := List.mem_of_find?_eq_some he
    rw [List.map_map]
    have : ∀ e ∈ shiftTable, ∀ l ∈ e.2, ∃ a b c, l = [a, b, c] ∧ (a.2 ∣ 120 ∧ a.2 ≠ 0) ∧ (b.2 ∣ 120 ∧ b.2 ≠ 0) ∧
        (c.2 ∣ 120 ∧ c.2 ≠ 0) := by
      intro e he l hl
      have hd : (shiftTable.all fun e => e.2.all fun l => match l with
          | [a, b, c] => decide ((a.2 ∣ 120 ∧ a.2 ≠ 0) ∧ (b.2 ∣ 120 ∧ b.2 ≠ 0) ∧ (c.2 ∣ 120 ∧ c.2 ≠ 0))
          | _ => false) = true := by decide +kernel
      have := List.all_eq_true.1 (List.all_eq_true.1 hd e he) l hl
      split at this
      · exact ⟨_, _, _, rfl, of_decide_eq_true this⟩
      · cases this
    apply List.map_congr_left
    intro l hl
    obtain ⟨a, b, c, rfl, ha, hb, hc⟩ := this e hm l hl
    have hq : ∀ p : ℤ × ℕ, p.2 ∣ 120 ∧ p.2 ≠ 0 → (p.1 : ℚ) / p.2 = ((p.1 * (120 / p.2) : ℤ) : ℚ) / 120 := by
      rintro ⟨x, y⟩ ⟨⟨k, hk⟩, h0⟩
      simp only at hk h0 ⊢
      have h1 : (120 : ℤ) / (y : ℤ) = k := by
        have : (120 : ℤ) = y * k := by exact_mod_cast hk
        rw [this, Int.mul_ediv_cancel_left _ (by exact_mod_cast h0)]
      rw [h1]
      have h2 : (120 : ℚ) = y * k := by exact_mod_cast hk
      have hy : (y : ℚ) ≠ 0 := by exact_mod_cast h0
      have hk0 : (k : ℚ) ≠ 0 := by
        intro h; rw [h, mul_zero] at h2; norm_num at h2
      rw [h2]; push_cast; field_simp
    funext i
    simp only [Function.comp_apply, Tr.val]
    fin_cases i
    · exact hq a ha
    · exact hq b hb
    · exact hq c hc

/-! ## The texts of the program mean the operations of `numFull` -/

theorem forall₂_mapM {α β γ : Type} {f : α → Option β} {R : α → γ → Prop} {S : β → γ → Prop} {g : γ → γ}
    {l : List α} {m : List γ} (h : List.Forall₂ R l m)
    (hf : ∀ a c, c ∈ m → R a c → ∃ b, f a = some b ∧ S b (g c)) :
    ∃ l', l.mapM f = some l' ∧ List.Forall₂ S l' (m.map g) := by
  induction h with
  | nil => exact ⟨[], rfl, .nil⟩
  | cons h _ ih =>
    obtain ⟨b, hb, hS⟩ := hf _ _ (by simp) h
    obtain ⟨l', hl, hS'⟩ := ih fun a c hc => hf a c (by simp [hc])
    exact ⟨b :: l', by simp [hb, hl], .cons hS hS'⟩

theorem forall₂_of_mapM {α β : Type} {f : α → Option β} : ∀ {l : List α} {m : List β}, l.mapM f = some m →
    List.Forall₂ (fun a b => f a = some b) l m
  | [], _, h => by cases h; exact .nil
  | a :: l, _, h => by
    rw [List.mapM_cons] at h
    obtain ⟨b, hb, h⟩ := Option.bind_eq_some_iff.1 h
    obtain ⟨bs, hbs, h⟩ := Option.bind_eq_some_iff.1 h
    cases h
    exact .cons hb (forall₂_of_mapM hbs)

theorem forall₂_flatten {α β γ : Type} {R : α → β → Prop} {f : γ → List β} :
    ∀ {l : List (List α)} {m : List γ}, List.Forall₂ (fun a c => List.Forall₂ R a (f c)) l m →
      List.Forall₂ R l.flatten (m.flatMap f)
  | _, _, .nil => .nil
  | _, _, .cons h t => by
    rw [List.flatten_cons, List.flatMap_cons]
    exact List.rel_append h (forall₂_flatten t)

theorem symText_denotes {i : ℕ} {o : Op} (h : symOp i = some o) : Denotes (symText i) o := by
  unfold symOp at h
  unfold Denotes symText
  rw [List.getD_eq_getElem?_getD] at h ⊢
  by_cases hi : i < symList.length
  · rw [List.getElem?_eq_getElem hi, Option.getD_some] at h ⊢
    rw [symList_read _ (List.getElem_mem hi), h]
    rfl
  · rw [List.getElem?_eq_none (not_lt.1 hi)] at h
    cases h

theorem symText_fails {i : ℕ} (hi : i < symList.length) (h : symOp i = none) : readOp (symText i) = none := by
  unfold symOp at h
  unfold symText
  rw [List.getD_eq_getElem?_getD, List.getElem?_eq_getElem hi, Option.getD_some] at h ⊢
  rw [symList_read _ (List.getElem_mem hi), h]
  rfl

/-- The card found among the cards read from the file is the card of the table. -/
theorem find_card {cards : List Card} (hc : elCards = some cards) (n : ℕ) (ch : Str) :
    (cards.find? fun c => c.it == n && ((c.fields.lookup "choice".toList).bind List.head?) == some ch).map Card.view =
      (cardTab.flatten.find? fun c => c.it == n && c.choice.toList == ch).map CardN.view := by
  have h := cards_read
  rw [hc, Option.map_some, Option.some.injEq] at h
  have e1 : (cards.find? fun c => c.it == n && ((c.fields.lookup "choice".toList).bind List.head?) == some ch).map Card.view
      = (cards.map Card.view).find? fun v => v.it == n && (v.choice.bind List.head?) == some ch := by
    rw [List.find?_map]; rfl
  have e2 : (cardTab.flatten.find? fun c => c.it == n && c.choice.toList == ch).map CardN.view
      = (cardTab.flatten.map CardN.view).find? fun v => v.it == n && (v.choice.bind List.head?) == some ch := by
    rw [List.find?_map]
    congr 2
  rw [e1, e2, h]

/-- The centres of the table. -/
def centreIs (c : CardN) : Bool :=
  match (splitComma c.pcText.toList).mapM parseFraction with
  | some [x, y, z] => decide (x.den ≤ 10 ∧ y.den ≤ 10 ∧ z.den ≤ 10) &&
      (decide (x = c.pc.1 / 120) && (decide (y = c.pc.2.1 / 120) && decide (z = c.pc.2.2 / 120)))
  | _ => false

set_option maxRecDepth 100000 in
theorem centres_read : (cardTab.flatten.all centreIs) = true := by decide +kernel

theorem readCentre_eq {c : CardN} (h : centreIs c = true) :
    readCentre c.pcText.toList = some ![((-c.pc.1 : ℤ) : ℚ) / 120, ((-c.pc.2.1 : ℤ) : ℚ) / 120, ((-c.pc.2.2 : ℤ) : ℚ) / 120] := by
  unfold centreIs at h
  unfold readCentre
  split at h
  · rename_i x y z he
    rw [he]
    simp only [Bool.and_eq_true, decide_eq_true_eq] at h
    obtain ⟨⟨d1, d2, d3⟩, h1, h2, h3⟩ := h
    simp only [limitDen_of_le d1, limitDen_of_le d2, limitDen_of_le d3]
    rw [h1, h2, h3]
    push_cast
    congr 2
    · ring
    · congr 1
      · ring
      · congr 1
        ring
  · cases h

theorem axes_read {name : Str} {q : Op} (h : axesOp name = some q) :
    (stringToRB ['a', 'b', 'c'] name).bind toAff = some q.aff ∧ q.t1 = 0 ∧ q.t2 = 0 ∧ q.t3 = 0 := by
  have key : ∀ (s : Str) (q : Op), stringToRB ['a', 'b', 'c'] s = some q.rows → (q.t1 = 0 ∧ q.t2 = 0 ∧ q.t3 = 0) →
      (stringToRB ['a', 'b', 'c'] s).bind toAff = some q.aff ∧ q.t1 = 0 ∧ q.t2 = 0 ∧ q.t3 = 0 := by
    intro s q h1 h2
    exact ⟨by rw [h1]; exact toAff_rows q, h2⟩
  unfold axesOp at h
  split_ifs at h with h1 h2 h3 h4 h5 h6 <;> obtain rfl := Option.some.inj h <;>
    exact key _ _ (by subst name; decide +kernel) ⟨rfl, rfl, rfl⟩

/-- The text operations of the program, given that every intermediate translation is one that the text
form keeps. -/
theorem full_texts {cards : List Card} (hc : elCards = some cards) {n : ℕ} {code : Option Str} {h : List Op} {t : List Tr}
    (hn : numFull n code = some (h, t)) (hs : (h.all Op.small && (expand h t).all Op.small) = true) :
    ∃ texts, fullSymop cards n code = some texts ∧ List.Forall₂ Denotes texts (expand h t) := by
  rw [Bool.and_eq_true] at hs
  obtain ⟨hs1, hs2⟩ := hs
  rw [List.all_eq_true] at hs1 hs2
  unfold numFull at hn
  obtain ⟨c, hcard, hn⟩ := Option.bind_eq_some_iff.1 hn
  obtain ⟨ops, hops, hn⟩ := Option.bind_eq_some_iff.1 hn
  obtain ⟨name, hname, hn⟩ := Option.bind_eq_some_iff.1 hn
  obtain ⟨q, hq, hn⟩ := Option.bind_eq_some_iff.1 hn
  obtain ⟨centro, hcen, hn⟩ := Option.bind_eq_some_iff.1 hn
  simp only [Option.some.injEq, Prod.mk.injEq] at hn
  obtain ⟨hh, ht⟩ := hn
  -- the card
  have hfc := find_card hc n (choiceOf code)
  unfold cardN at hcard
  rw [hcard, Option.map_some] at hfc
  obtain ⟨card, hfind, hview⟩ := Option.map_eq_some_iff.1 hfc
  have hmem := List.mem_of_find?_eq_some hcard
  have hcentre := readCentre_eq (List.all_eq_true.1 centres_read c hmem)
  have v2 : card.fields.lookup "pcentr".toList = some [c.pcText.toList] := congrArg View.pcentr hview
  have v3 : card.fields.lookup "symmetry".toList = some (c.ops.map symText) := congrArg View.symmetry hview
  obtain ⟨haxes, hq0⟩ := axes_read hq
  -- reduced operations
  have hops' : List.Forall₂ Denotes (c.ops.map symText) ops := by
    rw [List.forall₂_map_left_iff]
    exact (forall₂_of_mapM hops).imp fun _ _ h => symText_denotes h
  have hred : ∀ o ∈ ops, (q.conj o).small = true := by
    intro o ho
    apply hs1
    rw [← hh]
    have : q.conj o ∈ ops.map q.conj := List.mem_map_of_mem ho
    split_ifs
    · exact List.mem_append_left _ this
    · exact this
  obtain ⟨sym2, hsym2, hden⟩ := forall₂_mapM (f := changeText (fun i j => q.aff.R j i) q.aff.b) (S := Denotes)
    (g := q.conj) hops' fun a o ho hao => changeText_denotes hq0 hao (hred o ho)
  -- the centre
  have hpc : (fun i : Fin 3 => (![((-c.pc.1 : ℤ) : ℚ) / 120, ((-c.pc.2.1 : ℤ) : ℚ) / 120, ((-c.pc.2.2 : ℤ) : ℚ) / 120] : Fin 3 → ℚ) i +
      -1 * mulVec q.aff.R q.aff.b i) =
      ![((-c.pc.1 : ℤ) : ℚ) / 120, ((-c.pc.2.1 : ℤ) : ℚ) / 120, ((-c.pc.2.2 : ℤ) : ℚ) / 120] := by
    funext i
    have b0 : q.aff.b 0 = 0 := by rw [affb1, hq0.1]; norm_num
    have b1 : q.aff.b 1 = 0 := by rw [affb2, hq0.2.1]; norm_num
    have b2 : q.aff.b 2 = 0 := by rw [affb3, hq0.2.2]; norm_num
    simp only [mulVec, b0, b1, b2]
    ring
  have hsc : symopCentre cards n code = some (sym2,
      ![((-c.pc.1 : ℤ) : ℚ) / 120, ((-c.pc.2.1 : ℤ) : ℚ) / 120, ((-c.pc.2.2 : ℤ) : ℚ) / 120]) := by
    unfold symopCentre
    rw [hfind]
    change (card.fields.lookup "symmetry".toList).bind _ = _
    rw [v3]
    change ((card.fields.lookup "pcentr".toList).bind List.head?).bind _ = _
    rw [v2]
    change (readCentre c.pcText.toList).bind _ = _
    rw [hcentre]
    change (transformName code).bind _ = _
    rw [hname]
    change ((stringToRB ['a', 'b', 'c'] name).bind toAff).bind _ = _
    rw [haxes]
    change ((c.ops.map symText).mapM (changeText (fun i j => q.aff.R j i) q.aff.b)).bind _ = _
    rw [hsym2]
    change some (sym2, fun i : Fin 3 => (![((-c.pc.1 : ℤ) : ℚ) / 120, ((-c.pc.2.1 : ℤ) : ℚ) / 120, ((-c.pc.2.2 : ℤ) : ℚ) / 120] : Fin 3 → ℚ) i +
      -1 * mulVec q.aff.R q.aff.b i) = _
    rw [hpc]
  -- inversion
  have hinv : ∃ inv, (if centro then sym2.mapM (inverseText ![((-c.pc.1 : ℤ) : ℚ) / 120, ((-c.pc.2.1 : ℤ) : ℚ) / 120,
      ((-c.pc.2.2 : ℤ) : ℚ) / 120]) else some []) = some inv ∧ List.Forall₂ Denotes (sym2 ++ inv) h := by
    cases centro with
    | false =>
      refine ⟨[], rfl, ?_⟩
      rw [List.append_nil, ← hh]
      exact hden
    | true =>
      simp only [if_true] at hh ⊢
      obtain ⟨inv, hi, hd⟩ := forall₂_mapM (f := inverseText ![((-c.pc.1 : ℤ) : ℚ) / 120, ((-c.pc.2.1 : ℤ) : ℚ) / 120,
        ((-c.pc.2.2 : ℤ) : ℚ) / 120]) (S := Denotes) (g := (Op.inv · (-c.pc.1, -c.pc.2.1, -c.pc.2.2))) hden
        fun a o ho hao => inverseText_denotes (c := (-c.pc.1, -c.pc.2.1, -c.pc.2.2)) rfl hao (hs1 _ (by
          rw [← hh]
          exact List.mem_append_right _ (List.mem_map_of_mem ho)))
      refine ⟨inv, hi, ?_⟩
      rw [← hh]
      exact List.rel_append hden hd
  obtain ⟨inv, hinv, hdinv⟩ := hinv
  -- centring
  obtain ⟨l, hl, hdl⟩ := forall₂_mapM (f := centringTexts (shiftsOf (centringType n code)))
    (S := fun a o => List.Forall₂ Denotes a (t.map o.shift)) (g := id) hdinv fun a o ho hao => by
      rw [shiftsOf_eq, ht]
      exact centringTexts_denotes hao fun u hu => hs2 _ (by
        unfold expand
        exact List.mem_flatMap.2 ⟨o, ho, List.mem_map_of_mem hu⟩)
  rw [List.map_id] at hdl
  refine ⟨l.flatten, ?_, forall₂_flatten hdl⟩
  unfold fullSymop
  rw [hsc]
  change (centrosymmetric n).bind _ = _
  rw [hcen]
  change (if centro then _ else _ : Option (List Str)).bind _ = _
  rw [hinv]
  change ((sym2 ++ inv).mapM (centringTexts (shiftsOf (centringType n code)))).bind _ = _
  rw [hl]
  rfl

/-! ## Where the program raises -/

theorem mapM_none {α β : Type} {f : α → Option β} {a : α} : ∀ {l : List α}, a ∈ l → f a = none → l.mapM f = none
  | [], h, _ => by cases h
  | b :: l, h, hf => by
    rw [List.mapM_cons]
    cases hb : f b with
    | none => rfl
    | some x =>
      have : a ∈ l := by
        rcases List.mem_cons.1 h with rfl | h
        · rw [hf] at hb; cases hb
        · exact h
      change (l.mapM f).bind _ = none
      rw [mapM_none this hf]; rfl

theorem exists_of_mapM_none {α β : Type} {f : α → Option β} : ∀ {l : List α}, l.mapM f = none → ∃ a ∈ l, f a = none
  | [], h => by cases h
  | b :: l, h => by
    cases hb : f b with
    | none => exact ⟨b, by simp, hb⟩
    | some x =>
      rw [List.mapM_cons, hb] at h
      change (l.mapM f).bind _ = none at h
      cases hl : l.mapM f with
      | none =>
        obtain ⟨a, ha, h⟩ := exists_of_mapM_none hl
        exact ⟨a, by simp [ha], h⟩
      | some y => rw [hl] at h; cases h

set_option maxRecDepth 100000 in
theorem places_ok : (cardTab.flatten.all fun c => c.ops.all fun i => decide (i < symList.length)) = true := by
  decide +kernel

theorem axesOp_some {code : Option Str} {name : Str} (h : transformName code = some name) : axesOp name ≠ none := by
  unfold transformName at h
  dsimp only at h
  split_ifs at h <;> obtain rfl := Option.some.inj h <;> decide +kernel

/-- The program raises where no list of operations is computed. -/
theorem full_raises {cards : List Card} (hc : elCards = some cards) {n : ℕ} {code : Option Str}
    (hn : numFull n code = none) : fullSymop cards n code = none := by
  have hfc := find_card hc n (choiceOf code)
  unfold numFull at hn
  unfold fullSymop
  have reduce : symopCentre cards n code = none ∨ centrosymmetric n = none → (do
      let sp ← symopCentre cards n code
      let centro ← centrosymmetric n
      let inv ← (if centro then sp.1.mapM (inverseText sp.2) else some [] : Option (List Str))
      let l ← (sp.1 ++ inv).mapM (centringTexts (shiftsOf (centringType n code)))
      pure l.flatten : Option (List Str)) = none := by
    rintro (h | h)
    · rw [h]; rfl
    · rw [h]
      cases symopCentre cards n code <;> rfl
  apply reduce
  cases hcard : cardN n code with
  | none =>
    left
    unfold cardN at hcard
    rw [hcard, Option.map_none, Option.map_eq_none_iff] at hfc
    unfold symopCentre
    rw [hfc]; rfl
  | some c =>
    rw [hcard] at hn
    change (c.ops.mapM symOp).bind _ = none at hn
    unfold cardN at hcard
    rw [hcard, Option.map_some] at hfc
    obtain ⟨card, hfind, hview⟩ := Option.map_eq_some_iff.1 hfc
    have hmem := List.mem_of_find?_eq_some hcard
    have hcentre := readCentre_eq (List.all_eq_true.1 centres_read c hmem)
    have v2 : card.fields.lookup "pcentr".toList = some [c.pcText.toList] := congrArg View.pcentr hview
    have v3 : card.fields.lookup "symmetry".toList = some (c.ops.map symText) := congrArg View.symmetry hview
    have hstart : symopCentre cards n code = (transformName code).bind fun name =>
        ((stringToRB ['a', 'b', 'c'] name).bind toAff).bind fun Qp =>
        ((c.ops.map symText).mapM (changeText (fun i j => Qp.R j i) Qp.b)).bind fun symop2 =>
        some (symop2, fun i => (![((-c.pc.1 : ℤ) : ℚ) / 120, ((-c.pc.2.1 : ℤ) : ℚ) / 120, ((-c.pc.2.2 : ℤ) : ℚ) / 120] : Fin 3 → ℚ) i +
          -1 * mulVec Qp.R Qp.b i) := by
      unfold symopCentre
      rw [hfind]
      change (card.fields.lookup "symmetry".toList).bind _ = _
      rw [v3]
      change ((card.fields.lookup "pcentr".toList).bind List.head?).bind _ = _
      rw [v2]
      change (readCentre c.pcText.toList).bind _ = _
      rw [hcentre]
      rfl
    cases hname : transformName code with
    | none => left; rw [hstart, hname]; rfl
    | some name =>
      cases hops : c.ops.mapM symOp with
      | none =>
        left
        obtain ⟨i, hi, hbad⟩ := exists_of_mapM_none hops
        have hlt : i < symList.length := of_decide_eq_true (List.all_eq_true.1 (List.all_eq_true.1 places_ok c hmem) i hi)
        have hread := symText_fails hlt hbad
        rw [hstart, hname]
        change ((stringToRB ['a', 'b', 'c'] name).bind toAff).bind _ = _
        cases (stringToRB ['a', 'b', 'c'] name).bind toAff with
        | none => rfl
        | some Qp =>
          change ((c.ops.map symText).mapM (changeText (fun i j => Qp.R j i) Qp.b)).bind _ = _
          rw [mapM_none (a := symText i) (List.mem_map_of_mem hi) (by unfold changeText; rw [hread]; rfl)]
          rfl
      | some ops =>
        right
        rw [hops] at hn
        change (transformName code).bind _ = none at hn
        rw [hname] at hn
        change (axesOp name).bind _ = none at hn
        obtain ⟨q, hq⟩ := Option.ne_none_iff_exists'.1 (axesOp_some hname)
        rw [hq] at hn
        change (centrosymmetric n).bind _ = none at hn
        cases hcen : centrosymmetric n with
        | none => rfl
        | some b => rw [hcen] at hn; cases hn

end Cryspy.SG
