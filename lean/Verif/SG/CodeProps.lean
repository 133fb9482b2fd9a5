import Verif.SG.GroupSound
import Verif.SG.Settings

/-!
# Codes of settings, names, centring translations (C37, C38, C40, C53)
-/

namespace Cryspy.SG

open Cryspy.Text Cryspy.Symm

/-! ## C37: crystal systems and codes -/

/-- C37: exactly the numbers 1 to 230 have a crystal system. -/
theorem number_has_system (n : ℕ) : (∃ s, crystalSystem n = some s) ↔ 1 ≤ n ∧ n ≤ 230 := by
  unfold crystalSystem
  constructor
  · rintro ⟨s, h⟩
    split_ifs at h <;> omega
  · rintro ⟨h1, h2⟩
    split_ifs <;> first | exact ⟨_, rfl⟩ | omega

/-- C37: the systems follow one another without gap in the order of the table of systems. -/
theorem systems_in_order {m n : ℕ} (h : m ≤ n) {s t : System} (hs : crystalSystem m = some s) (ht : crystalSystem n = some t) :
    s.ctorIdx ≤ t.ctorIdx := by
  unfold crystalSystem at hs ht
  split_ifs at hs <;> cases hs <;> split_ifs at ht <;> cases ht <;> first | decide | (exfalso; omega)

/-- The numbers that the lookups accept are 1 to 230. -/
theorem mem_itNumbers {n : ℕ} : n ∈ itNumbers ↔ 1 ≤ n ∧ n ≤ 230 := by
  have mp : ∀ {a b n : ℕ}, n ∈ pyRange a b ↔ a ≤ n ∧ n < b := by
    intro a b n
    unfold pyRange
    rw [List.mem_map]
    constructor
    · rintro ⟨k, hk, rfl⟩
      rw [List.mem_range] at hk
      omega
    · rintro ⟨h1, h2⟩
      exact ⟨n - a, List.mem_range.2 (by omega), by omega⟩
  unfold itNumbers
  simp only [List.mem_append, mp]
  omega

/-- A decidable statement about all numbers. -/
theorem forall_number {p : ℕ → Bool} (h : ((List.range 230).all fun k => p (k + 1)) = true) {n : ℕ} (h1 : 1 ≤ n)
    (h2 : n ≤ 230) : p n = true := by
  have := List.all_eq_true.1 h (n - 1) (List.mem_range.2 (by omega))
  rwa [Nat.sub_add_cancel h1] at this

/-- C37: no code is offered twice for a number; every code offered is one of the codes of the crystal system. -/
theorem codes_of_system (n : ℕ) : (codesOf n).Nodup ∧ ∀ c ∈ codesOf n, ∃ s, crystalSystem n = some s ∧ c ∈ codesOfSystem s := by
  unfold codesOf
  cases h : crystalSystem n with
  | none => simp
  | some s =>
    cases s <;> dsimp only <;> (try split_ifs) <;>
      first
      | (refine ⟨by decide +kernel, ?_⟩
         intro c hc
         refine ⟨_, rfl, ?_⟩
         revert c
         decide +kernel)

/-- The trigonal groups without a rhombohedral lattice, whose default code is not offered. -/
def trigonalP : List ℕ := [143, 144, 145, 147, 149, 150, 151, 152, 153, 154, 156, 157, 158, 159, 162, 163, 164, 165]

/-- C37, with the exceptions: the default code is an offered one (or there is neither default nor code), but for the 18
trigonal groups with a primitive lattice, for which the default is `r` and only `h` is offered. -/
theorem default_is_offered {n : ℕ} (h1 : 1 ≤ n) (h2 : n ≤ 230) (h : n ∉ trigonalP) : defaultCode n ∈ settingsOf n := by
  have := forall_number (p := fun n => n ∈ trigonalP || decide (defaultCode n ∈ settingsOf n)) (by decide +kernel) h1 h2
  simpa [h] using this

/-- C37 is false for these 18 groups. -/
theorem default_not_offered {n : ℕ} (h : n ∈ trigonalP) : crystalSystem n = some .trigonal ∧ defaultCode n = some ['r'] ∧
    codesOf n = [['h']] := by
  revert n
  decide +kernel

example : 166 ∉ trigonalP ∧ defaultCode 166 = some ['h'] ∧ 227 ∉ trigonalP := by decide +kernel

/-- The letters and signs of a text of axes. -/
def axisLetters (s : Str) : Str := s.filter (· ≠ ',')

/-- The letters and signs of a code, without the digit of the origin. -/
def codeLetters (s : Str) : Str := s.filter fun c => ¬ (c = '1' ∨ c = '2' ∨ c = '3')

/-- The letters of the code are axes (as in `cab` or `2ba-c`). -/
def IsAxesCode (c : Str) : Prop := ∃ l, codeLetters c = l ∧ 'a' ∈ l ∧ 'b' ∈ l ∧ 'c' ∈ l

/-- C37: the axes that the lookup gives for an orthorhombic code are the axes that the code spells; the only code of an offered setting
that the lookup does not handle is `1a-cb`. -/
theorem axes_spelled {n : ℕ} (hs : crystalSystem n = some .orthorhombic) {c : Str} (hc : c ∈ codesOf n)
    (h : c ≠ "1a-cb".toList) : ∃ a, transformName (some c) = some a ∧ axisLetters a = codeLetters c := by
  have hn : c ∈ codesOfSystem .orthorhombic := by
    obtain ⟨s, h', hc'⟩ := (codes_of_system n).2 c hc
    rw [hs] at h'; cases h'; exact hc'
  have : ((codesOfSystem .orthorhombic).all fun c => decide (c = "1a-cb".toList) ||
      ((transformName (some c)).map axisLetters == some (codeLetters c))) = true := by decide +kernel
  have := List.all_eq_true.1 this c hn
  simp only [h, decide_false, Bool.false_or, beq_iff_eq] at this
  cases ht : transformName (some c) with
  | none => rw [ht] at this; cases this
  | some a => rw [ht] at this; exact ⟨a, rfl, by simpa using this⟩

/-- C37 is false for the code `1a-cb`, offered for five groups: the lookup raises. -/
theorem axes_missing : transformName (some "1a-cb".toList) = none ∧
    ∀ n ∈ [48, 50, 59, 68, 70], "1a-cb".toList ∈ codesOf n := by decide +kernel

/-- C37: every offered code but `1a-cb` is handled. -/
theorem code_handled {n : ℕ} (h1 : 1 ≤ n) (h2 : n ≤ 230) {c : Option Str} (hc : c ∈ settingsOf n) :
    (transformName c).isSome = true ↔ c ≠ some "1a-cb".toList := by
  have := forall_number (p := fun n => (settingsOf n).all fun c => decide ((transformName c).isSome = true ↔ c ≠ some "1a-cb".toList))
    (by decide +kernel) h1 h2
  exact of_decide_eq_true (List.all_eq_true.1 this c hc)

/-- C37: for a monoclinic code, the axis `b` of the standard setting (the unique one) becomes the axis that the code names. -/
theorem unique_axis {n : ℕ} (hs : crystalSystem n = some .monoclinic) {c : Str} (hc : c ∈ codesOf n) :
    ∃ a0 a1 a2 : Str, ∃ k : Fin 3, transformName (some c) = some (a0 ++ ',' :: a1 ++ ',' :: a2) ∧ [a0, a1, a2][k] = ['b'] ∧
      c.filter Char.isAlpha = [['a', 'b', 'c'][k]] := by
  have hn : c ∈ codesOfSystem .monoclinic := by
    obtain ⟨s, h', hc'⟩ := (codes_of_system n).2 c hc
    rw [hs] at h'; cases h'; exact hc'
  clear hc hs
  have : ((codesOfSystem .monoclinic).all fun c => match (transformName (some c)).map (splitOnChar ',') with
      | some [a0, a1, a2] => [0, 1, 2].any fun k : Fin 3 => decide (transformName (some c) = some (a0 ++ ',' :: a1 ++ ',' :: a2)) &&
          (decide ([a0, a1, a2][k] = ['b']) && decide (c.filter Char.isAlpha = [['a', 'b', 'c'][k]]))
      | _ => false) = true := by decide +kernel
  have := List.all_eq_true.1 this c hn
  split at this
  · rename_i a0 a1 a2 _
    obtain ⟨k, -, hk⟩ := List.any_eq_true.1 this
    simp only [Bool.and_eq_true, decide_eq_true_eq] at hk
    exact ⟨a0, a1, a2, k, hk.1, hk.2.1, hk.2.2⟩
  · cases this

/-- C37: the card that is looked up is the one of the digit of the code, the first if there is none; for rhombohedral axes the second. -/
theorem choice_of_code {n : ℕ} (h1 : 1 ≤ n) (h2 : n ≤ 230) {c : Str} (hc : c ∈ codesOf n) :
    choiceOf (some c) = (match c.filter Char.isDigit with
      | [] => if c = ['r'] then ['2'] else ['1']
      | d => d) := by
  have := forall_number (p := fun n => (codesOf n).all fun c => decide (choiceOf (some c) = (match c.filter Char.isDigit with
      | [] => if c = ['r'] then ['2'] else ['1']
      | d => d))) (by decide +kernel) h1 h2
  exact of_decide_eq_true (List.all_eq_true.1 this c hc)

example : "2-cba".toList ∈ codesOf 70 ∧ choiceOf (some "2-cba".toList) = ['2'] ∧ "-c3".toList ∈ codesOf 14 ∧
    transformName (some "-c3".toList) = some "a,-c,b".toList := by decide +kernel

/-! ## C40: the automatic choice -/

/-- C40: nothing is chosen exactly if nothing is offered. -/
theorem auto_none (n : ℕ) (codes : List Str) : autoChoose n codes = none ↔ codes = [] := by
  unfold autoChoose
  split
  · simp
  · simp
  · split
    · split_ifs <;> simp
    · simp

/-- C40: the choice is one of the codes offered. -/
theorem auto_mem (n : ℕ) (codes : List Str) {c : Str} (h : autoChoose n codes = some c) : c ∈ codes := by
  have hd : ∀ (a : Str) (l : List Str), (((a :: l).filter ('-' ∉ ·)).head?).getD a ∈ a :: l := by
    intro a l
    cases he : ((a :: l).filter ('-' ∉ ·)).head? with
    | none => simp
    | some b =>
      have := List.mem_of_mem_head? he
      exact (List.mem_filter.1 this).1
  unfold autoChoose at h
  split at h
  · cases h
  · cases h; simp
  · split at h
    · split_ifs at h with hm
      · cases h; exact hm
      · cases h; exact hd _ _
    · cases h; exact hd _ _

/-- C40: the default code is chosen whenever it is offered. -/
theorem auto_default (n : ℕ) (codes : List Str) {d : Str} (hd : defaultCode n = some d) (hm : d ∈ codes) :
    autoChoose n codes = some d := by
  unfold autoChoose
  match codes, hm with
  | [c], hm => rw [List.mem_singleton.1 hm]
  | c :: c' :: l, hm => simp only [hd, hm, if_true]

/-- C40: without the default, the first code without a minus sign is chosen, and the first of all if every one has a minus sign. -/
theorem auto_plain (n : ℕ) (codes : List Str) (hd : ∀ d, defaultCode n = some d → d ∉ codes) :
    (∀ c l r, codes = l ++ c :: r → (∀ x ∈ l, '-' ∈ x) → '-' ∉ c → autoChoose n codes = some c) ∧
    ((∀ x ∈ codes, '-' ∈ x) → autoChoose n codes = codes.head?) := by
  have hres : ∀ c c' l, codes = c :: c' :: l → autoChoose n codes = some ((codes.filter ('-' ∉ ·)).head?.getD c) := by
    rintro c c' l rfl
    unfold autoChoose
    cases h : defaultCode n with
    | none => rfl
    | some d => simp only [hd d h, if_false]
  constructor
  · rintro c l r he hl hc
    rcases codes with _ | ⟨a, _ | ⟨a', t⟩⟩
    · simp at he
    · rcases l with _ | ⟨b, l⟩
      · simp only [List.nil_append, List.cons.injEq] at he; rw [he.1]; rfl
      · exfalso; simp at he
    · rw [hres _ _ _ rfl, he, List.filter_append]
      rw [List.filter_eq_nil_iff.2 (by intro x hx; simpa using hl x hx)]
      simp [hc]
  · intro hall
    rcases codes with _ | ⟨a, _ | ⟨a', t⟩⟩
    · rfl
    · rfl
    · rw [hres _ _ _ rfl, List.filter_eq_nil_iff.2 (by intro x hx; simpa using hall x hx)]
      rfl

example : autoChoose 48 ["1-cba".toList, "2abc".toList, "1abc".toList] = some "2abc".toList ∧
    autoChoose 48 ["1-cba".toList, "1cab".toList, "1abc".toList] = some "1cab".toList ∧
    autoChoose 48 ["1-cba".toList, "1ba-c".toList] = some "1-cba".toList := by decide +kernel

/-! ## C38: centring translations -/

/-- A list of translations that is a group modulo whole cells, no translation twice. -/
structure IsLattice (T : List Q3) : Prop where
  zero : ∃ t ∈ T, Lat t 0
  add : ∀ s ∈ T, ∀ t ∈ T, ∃ u ∈ T, Lat (s + t) u
  neg : ∀ s ∈ T, ∃ u ∈ T, Lat (-s) u
  distinct : T.Pairwise fun s t => ¬ Lat s t

/-- Lattice points per cell. -/
def latticePoints : List (String × ℕ) :=
  [("P", 1), ("A", 2), ("B", 2), ("C", 2), ("F", 4), ("I", 2), ("R", 3), ("Rrev", 3), ("H", 3)]

theorem lat_of_eqv {s t : Tr} (h : Tr.Eqv s t) : Lat s.val t.val := by
  obtain ⟨h1, h2, h3⟩ := h
  intro k
  fin_cases k
  · exact int_of_mod h1
  · exact int_of_mod h2
  · exact int_of_mod h3

theorem eqv_of_lat {s t : Tr} (h : Lat s.val t.val) : Tr.Eqv s t :=
  ⟨mod_of_int (h 0), mod_of_int (h 1), mod_of_int (h 2)⟩

instance (s t : Tr) : Decidable (Tr.Eqv s t) := by unfold Tr.Eqv; infer_instance

/-- C38: for every centring type the translations are a group modulo whole cells, as many as the cell has lattice points. -/
theorem centring_is_lattice {ct : String} {k : ℕ} (h : (ct, k) ∈ latticePoints) :
    IsLattice (shiftsOf (some ct.toList)) ∧ (shiftsOf (some ct.toList)).length = k := by
  have hall : (latticePoints.all fun e => let T := shiftsN (some e.1.toList)
      decide (T.length = e.2) && (latCheck [] (T.map Tr.res) && decide (T.Pairwise fun s t => ¬ Tr.Eqv s t))) = true := by
    decide +kernel
  have := List.all_eq_true.1 hall _ h
  simp only [Bool.and_eq_true, decide_eq_true_eq] at this
  obtain ⟨hl, hlat, hd⟩ := this
  have L := latCheck_sound (H := []) hlat
  rw [shiftsOf_eq]
  refine ⟨⟨?_, ?_, ?_, ?_⟩, by rw [List.length_map, hl]⟩
  · obtain ⟨u, hu, e⟩ := L.zero
    refine ⟨_, List.mem_map_of_mem hu, fun k => ?_⟩
    obtain ⟨z, hz⟩ := lat_of_eqv e k
    refine ⟨-z, ?_⟩
    have : Tr.val (0, 0, 0) k = 0 := by fin_cases k <;> simp [Tr.val]
    rw [this] at hz
    push_cast
    rw [← hz]
    simp
  · intro s hs t ht
    obtain ⟨s', hs', rfl⟩ := List.mem_map.1 hs
    obtain ⟨t', ht', rfl⟩ := List.mem_map.1 ht
    obtain ⟨u, hu, e⟩ := L.add s' hs' t' ht'
    refine ⟨_, List.mem_map_of_mem hu, ?_⟩
    have e2 : Tr.val (s'.1 + t'.1, s'.2.1 + t'.2.1, s'.2.2 + t'.2.2) = s'.val + t'.val := by
      funext k
      fin_cases k <;> simp [Tr.val] <;> ring
    rw [← e2]
    exact lat_of_eqv e
  · intro s hs
    obtain ⟨s', hs', rfl⟩ := List.mem_map.1 hs
    obtain ⟨u, hu, e⟩ := L.neg s' hs'
    refine ⟨_, List.mem_map_of_mem hu, ?_⟩
    have e2 : Tr.val (-s'.1, -s'.2.1, -s'.2.2) = -s'.val := by
      funext k
      fin_cases k <;> simp [Tr.val] <;> ring
    rw [← e2]
    exact lat_of_eqv e
  · rw [List.pairwise_map]
    exact hd.imp fun h h' => h (eqv_of_lat h')

/-- C38: an unknown type has no translations at all (not even the zero one). -/
theorem centring_unknown {ct : Option Str} (h : ∀ e ∈ latticePoints, ct ≠ some e.1.toList) : shiftsOf ct = [] := by
  unfold shiftsOf
  have : shiftTable.find? (fun e => some e.1.toList == ct) = none := by
    rw [List.find?_eq_none]
    intro e he hc
    have hm : ((shiftTable.map (·.1)).all fun s => latticePoints.any fun l => l.1 == s) = true := by decide +kernel
    obtain ⟨l, hl, hl'⟩ := List.any_eq_true.1 (List.all_eq_true.1 hm e.1 (List.mem_map_of_mem he))
    apply h l hl
    rw [eq_of_beq hl', ← eq_of_beq hc]
  rw [this]

/-- C38: every setting of every group has a centring type of the table. -/
theorem centring_known {n : ℕ} (h1 : 1 ≤ n) (h2 : n ≤ 230) {c : Option Str} (hc : c ∈ settingsOf n) :
    ∃ e ∈ latticePoints, centringType n c = some e.1.toList := by
  have := forall_number (p := fun n => (settingsOf n).all fun c => latticePoints.any fun e => centringType n c == some e.1.toList)
    (by decide +kernel) h1 h2
  obtain ⟨e, he, h⟩ := List.any_eq_true.1 (List.all_eq_true.1 this c hc)
  exact ⟨e, he, eq_of_beq h⟩

example : ("F", 4) ∈ latticePoints ∧ (shiftsOf (some "F".toList)).length = 4 ∧ centringType 225 (some ['1']) = some ['F'] ∧
    centringType 166 (some ['r']) = some ['P'] := by decide +kernel

end Cryspy.SG
