import Verif.Ion.Shell
import Verif.Ion.Symbol

/-!
# The elements, isotopes and ions of the data base
-/

namespace Cryspy.Ion

open Cryspy.Text Cryspy.Den

instance (s : Str) : Decidable (Letters s) := inferInstanceAs (Decidable (_ ∧ _))

/-! ## electrons -/

/-- The neutral shell of every element of the data base but the last is proper and has as many electrons as its atomic number
says. -/
theorem table_neutral : ∀ e ∈ Gen.elements, e.1 ≠ ['O', 'g'] →
    (fullShell Gen.elements 20 e.1 0).any (fun sh => electrons sh == e.2.1 && decide (Proper sh)) = true := by
  decide +kernel

theorem neutral_electrons {e : Str × ℕ × Str} (he : e ∈ Gen.elements) (hO : e.1 ≠ "Og".toList) :
    ∃ sh, fullShell Gen.elements 20 e.1 0 = some sh ∧ electrons sh = e.2.1 ∧ Proper sh := by
  have := table_neutral e he hO
  cases h : fullShell Gen.elements 20 e.1 0 with
  | none => rw [h] at this; cases this
  | some sh =>
    rw [h] at this
    simp only [Option.any_some, Bool.and_eq_true, beq_iff_eq, decide_eq_true_eq] at this
    exact ⟨sh, rfl, this.1, this.2⟩

/-- The last element, oganesson, has an orbital without a number of electrons (`7p`): its shell cannot be read. -/
theorem oganesson_unreadable (q : ℤ) : fullShell Gen.elements 20 "Og".toList q = none := by
  have h1 : occupancy Gen.elements "Og".toList = some "[Rn] 5f14 6d10 7s2 7p".toList := by decide +kernel
  have h2 : ']' ∈ "[Rn] 5f14 6d10 7s2 7p".toList := by decide +kernel
  have h3 : parseShell ((("[Rn] 5f14 6d10 7s2 7p".toList.dropWhile (· != ']')).drop 1).takeWhile (· != ']')) = none := by decide +kernel
  rw [fullShell, h1]
  simp only [Option.bind_eq_bind, Option.bind_some]
  rw [if_pos h2, h3]
  simp

/-- how the shell of an ion is put together: a closed part that no charge changes, and the valence part -/
theorem fullShell_parts {db : List (Str × ℕ × Str)} {fuel : ℕ} {name : Str} {q : ℤ} {sh : List Orb} (h : fullShell db fuel name q = some sh) :
    ∃ core v v', sh = core ++ v' ∧ addCharge v q = some v' ∧ ∀ p, fullShell db fuel name p = (addCharge v p).map fun u => core ++ u := by
  cases fuel with
  | zero => cases h
  | succ n =>
    rw [fullShell] at h
    obtain ⟨t, ht, h⟩ := Option.bind_eq_some_iff.1 h
    split_ifs at h with hb
    · obtain ⟨core, hc, h⟩ := Option.bind_eq_some_iff.1 h
      obtain ⟨v, hv, h⟩ := Option.bind_eq_some_iff.1 h
      obtain ⟨v', hv', h⟩ := Option.bind_eq_some_iff.1 h
      obtain rfl := Option.some.inj h
      refine ⟨core, v, v', rfl, hv', fun p => ?_⟩
      rw [fullShell]
      simp only [ht, hc, hv, Option.bind_eq_bind, Option.bind_some, if_pos hb]
      cases addCharge v p <;> rfl
    · obtain ⟨v, hv, h⟩ := Option.bind_eq_some_iff.1 h
      refine ⟨[], v, sh, rfl, h, fun p => ?_⟩
      rw [fullShell]
      simp only [ht, hv, Option.bind_eq_bind, Option.bind_some, if_neg hb]
      cases addCharge v p <;> rfl

theorem addCharge_neutral (v : List Orb) : addCharge v 0 = some v := by rw [addCharge, if_pos rfl]

/-- Every element but the last has a core and valence orbitals, together the atom; for every charge the shell is the core and
what the charge leaves of the valence orbitals: a positive charge is possible up to the number of valence electrons, a
negative one up to the room in the valence orbitals, everything else raises; the electrons are always the atomic number less
the charge. -/
theorem ion_electrons {e : Str × ℕ × Str} (he : e ∈ Gen.elements) (hO : e.1 ≠ "Og".toList) :
    ∃ core v, Proper (core ++ v) ∧ electrons (core ++ v) = e.2.1 ∧ fullShell Gen.elements 20 e.1 0 = some (core ++ v) ∧
      ∀ q : ℤ, if -(room v : ℤ) ≤ q ∧ q ≤ electrons v then
          ∃ v', fullShell Gen.elements 20 e.1 q = some (core ++ v') ∧ (electrons (core ++ v') : ℤ) = e.2.1 - q ∧ Proper (core ++ v')
        else fullShell Gen.elements 20 e.1 q = none := by
  obtain ⟨sh, h1, h2, h3⟩ := neutral_electrons he hO
  obtain ⟨core, v, v', e1, e2, e3⟩ := fullShell_parts h1
  rw [addCharge_neutral] at e2
  obtain rfl := Option.some.inj e2
  subst e1
  have hv : Proper v := fun o ho => h3 o (by simp [ho])
  refine ⟨core, v, h3, h2, h1, fun q => ?_⟩
  rw [electrons_append] at h2
  split_ifs with hq
  · have hex : ∃ v', addCharge v q = some v' := by
      rcases lt_trichotomy q 0 with h | rfl | h
      · obtain ⟨s, hs, _⟩ := negative_charge hv h (by omega)
        exact ⟨s, hs⟩
      · exact ⟨v, addCharge_neutral v⟩
      · obtain ⟨s, hs, _⟩ := positive_charge hv h hq.2
        exact ⟨s, hs⟩
    obtain ⟨v', hv'⟩ := hex
    obtain ⟨f1, f2⟩ := charge_sound hv hv'
    refine ⟨v', by rw [e3, hv']; rfl, by rw [electrons_append]; push_cast; omega, fun o ho => ?_⟩
    rcases List.mem_append.1 ho with ho | ho
    · exact h3 o (by simp [ho])
    · exact f2 o ho
  · have : addCharge v q = none := by
      by_cases h : q ≤ electrons v
      · exact negative_too_much hv (by omega)
      · exact positive_too_much (by omega)
    rw [e3, this]
    rfl

/-! ## scattering lengths -/

/-- Every isotope and every natural element of the table of scattering lengths is found under its own symbol. -/
theorem isotope_found : ∀ k ∈ Gen.isotopes, scatKey k = some k := by
  decide +kernel

/-- The scattering length of an ion is looked up under the name of the element. -/
theorem scat_ion {w w' name d : Str} {sign : Char} (hw : Blanks w) (hw' : Blanks w') (hn : Letters name) (hd : Digits d)
    (hsg : sign ∈ ['+', '-']) : scatKey (w ++ (name ++ d ++ [sign]) ++ w') = some (capitalize name) := by
  unfold scatKey
  rw [symbol_ion hw hw' hn hd hsg]
  rfl

/-- Any isotope symbol, in any case: looked up under its number and the usual spelling. -/
theorem scat_isotope {w w' name : Str} (n : ℕ) (hw : Blanks w) (hw' : Blanks w') (hn : Letters name) :
    scatKey (w ++ (natStr n ++ name) ++ w') = some (natStr n ++ capitalize name) := by
  unfold scatKey
  rw [symbol_isotope hw hw' ⟨natStr_ne_nil n, natStr_digits n⟩ hn, natVal_natStr]
  rfl

/-! ## magnetic form factors -/

theorem table_magnetic : ∀ k ∈ Gen.magneticIons, Letters k.1 ∧ capitalize k.1 = k.1 := by
  decide +kernel

theorem capitalize_letters_mem {k : Str × ℤ} (h : k ∈ Gen.magneticIons) : ∀ c ∈ k.1, c.isAlpha = true := (table_magnetic k h).1.2

/-- Every tabulated ion is found under its symbol, written in any case, with the charge behind the name and the sign at the
end, and the neutral atoms under their names. -/
theorem magnetic_found {name : Str} {q : ℤ} (h : (name, q) ∈ Gen.magneticIons) {s : Str} (hs : Letters s) (hc : capitalize s = name) :
    (∀ (d : Str) (sign : Char), Digits d → sign ∈ ['+', '-'] → signed sign d = q → magKey (s ++ d ++ [sign]) = some (name, q)) ∧
    (q = 0 → magKey s = some (name, q)) := by
  have hb : Blanks [] := by intro c hc; cases hc
  constructor
  · intro d sign hd hsg hq
    have := symbol_ion hb hb hs hd hsg
    rw [List.nil_append, List.append_nil] at this
    unfold magKey
    rw [this, hc, hq]
    rfl
  · rintro rfl
    have := symbol_atom hb hb hs
    rw [List.nil_append, List.append_nil] at this
    unfold magKey
    rw [this, hc]
    rfl

/-- A sign without digits (`Fe+`) is never found: the ion has no magnetic form factor, without a message. -/
theorem magnetic_lone_sign {w w' s : Str} {sign : Char} (hw : Blanks w) (hw' : Blanks w') (hs : Letters s) (hsg : sign ∈ ['+', '-'])
    {k : Str × ℤ} (hk : magKey (w ++ (s ++ [sign]) ++ w') = some k) : k ∉ Gen.magneticIons := by
  unfold magKey at hk
  rw [symbol_lone_sign hw hw' hs hsg] at hk
  obtain rfl := Option.some.inj hk
  intro h
  have := capitalize_letters_mem h sign (by simp)
  revert this
  revert hsg
  clear hk h hs
  revert sign
  decide

/-- Every ion with a tabulated magnetic form factor has a shell with the right number of electrons. -/
theorem magnetic_shells : ∀ k ∈ Gen.magneticIons, (Gen.elements.find? fun e => e.1 == k.1).any (fun e =>
    (fullShell Gen.elements 20 k.1 k.2).any fun sh => (electrons sh : ℤ) == e.2.1 - k.2) = true := by
  decide +kernel

/-- Deuterium has a scattering length but is not an element: the shell is not found, the code raises. -/
theorem deuterium : scatKey "D".toList = some "D".toList ∧ "D".toList ∈ Gen.isotopes ∧ ionShell "D".toList = none := by
  refine ⟨?_, ?_, ?_⟩ <;> decide +kernel

/-- Iron with charge three has twenty-three electrons, ending with 3d5. -/
theorem iron : (ionShell "fe3+".toList).map (fun r => (r.1, r.2.1, electrons r.2.2, r.2.2.getLast?)) =
    some ("Fe".toList, 3, 23, some ⟨3, 'd', 5⟩) := by
  decide +kernel

end Cryspy.Ion
