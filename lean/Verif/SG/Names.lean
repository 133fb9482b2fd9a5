import Verif.Gen.SGKeys
import Verif.SG.Settings
import Mathlib.Logic.Function.Basic
import Mathlib.Data.List.Basic

/-!
# Names as numbers

Looking up names by texts and by numbers that stand for the texts gives the same; with numbers the kernel
can compare quickly.
-/

namespace Cryspy.SG

open Cryspy.Text

/-- A number for a text. -/
def key : Str → ℕ
  | [] => 0
  | c :: l => c.toNat + 1 + 2097152 * key l

theorem key_injective : Function.Injective key := by
  intro a
  induction a with
  | nil =>
    intro b h
    cases b with
    | nil => rfl
    | cons c l => simp only [key] at h; omega
  | cons c l ih =>
    intro b h
    have hlt : ∀ c : Char, c.toNat + 1 < 2097152 := by
      intro c
      have := c.valid
      have h2 : c.toNat < 1114112 := by
        rcases this with h | h
        · exact lt_trans h (by decide)
        · exact h.2
      omega
    cases b with
    | nil => simp only [key] at h; omega
    | cons d m =>
      simp only [key] at h
      have h1 := hlt c
      have h2 := hlt d
      have e1 : c.toNat = d.toNat := by omega
      have e2 : key l = key m := by omega
      rw [ih e2]
      congr 1
      exact Char.toNat_inj.1 e1

/-- Tables with the names renamed. -/
def NameTables.map {α β : Type} (f : α → β) (T : NameTables α) : NameTables β where
  short := T.short.map f
  hall := T.hall.map f
  schoenflies := T.schoenflies.map f
  full := T.full.map fun e => (e.1, f e.2)
  ext := T.ext.map fun e => (e.1, e.2.1, f e.2.2)

/-- Input with the names renamed. -/
def Given.map {α β : Type} (f : α → β) (g : Given α) : Given β where
  number := g.number
  code := g.code
  alt := g.alt.map f
  ref := g.ref.map f
  hall := g.hall.map f
  schoenflies := g.schoenflies.map f

section
variable {α β : Type} [DecidableEq α] [DecidableEq β] {f : α → β} (hf : Function.Injective f)
include hf

theorem beq_map (a b : α) : (f a == f b) = (a == b) := by
  by_cases h : a = b
  · subst h; simp
  · have : f a ≠ f b := fun h' => h (hf h')
    simp [h, this]

theorem numberOf_map (T : List α) (x : α) : numberOf (T.map f) (f x) = numberOf T x := by
  unfold numberOf
  rw [List.findIdx?_map]
  congr 2
  funext y
  exact beq_map hf y x

theorem fullNumber_map (T : NameTables α) (x : α) : fullNumber (T.map f) (f x) = fullNumber T x := by
  unfold fullNumber
  simp only [NameTables.map]
  rw [List.find?_map]
  have : ((fun e : ℕ × β => e.2 == f x) ∘ fun e : ℕ × α => (e.1, f e.2)) = fun e : ℕ × α => e.2 == x := by
    funext e; exact beq_map hf _ _
  rw [this, Option.map_map]
  rfl

theorem extNumber_map (T : NameTables α) (x : α) : extNumber (T.map f) (f x) = extNumber T x := by
  unfold extNumber
  simp only [NameTables.map]
  rw [List.filter_map]
  have : ((fun e : ℕ × Option Str × β => e.2.2 == f x) ∘ fun e : ℕ × Option Str × α => (e.1, e.2.1, f e.2.2)) =
      fun e : ℕ × Option Str × α => e.2.2 == x := by
    funext e; exact beq_map hf _ _
  rw [this, List.getLast?_map, Option.map_map, List.map_map]
  rfl

theorem isShort_map (T : NameTables α) (x : α) : isShort (T.map f) (f x) = isShort T x := by
  unfold isShort
  simp only [NameTables.map]
  rw [List.any_map]
  congr 1
  funext y; exact beq_map hf _ _

theorem isFull_map (T : NameTables α) (x : α) : isFull (T.map f) (f x) = isFull T x := by
  unfold isFull
  simp only [NameTables.map]
  rw [List.any_map]
  congr 1
  funext y; exact beq_map hf _ _

theorem isExtended_map (T : NameTables α) (x : α) : isExtended (T.map f) (f x) = isExtended T x := by
  unfold isExtended
  simp only [NameTables.map]
  rw [List.any_map]
  congr 1
  funext y; exact beq_map hf _ _

theorem resolveExtended_map (T : NameTables α) (x : α) (c : Option Str) :
    resolveExtended (T.map f) (f x) c = resolveExtended T x c := by
  unfold resolveExtended
  rw [extNumber_map hf]

theorem resolveFirst_map (T : NameTables α) (g : Given α) : resolveFirst (T.map f) (g.map f) = resolveFirst T g := by
  obtain ⟨n, c, a, r, h, s⟩ := g
  unfold resolveFirst
  have e1 : (T.map f).short = T.short.map f := rfl
  have e2 : (T.map f).hall = T.hall.map f := rfl
  have e3 : (T.map f).schoenflies = T.schoenflies.map f := rfl
  cases n <;> cases c <;> cases a <;> cases r <;> cases h <;> cases s <;>
    simp only [Given.map, Option.map_some, Option.map_none, e1, e2, e3, numberOf_map hf, fullNumber_map hf, isShort_map hf,
      isFull_map hf, isExtended_map hf, resolveExtended_map hf]

theorem resolveWith_map (T : NameTables α) (g : Given α) : resolveWith (T.map f) (g.map f) = resolveWith T g := by
  unfold resolveWith
  rw [resolveFirst_map hf]

end

/-- The tables with names as numbers. -/
def keyTables : NameTables ℕ := ⟨kShort, kHall, kSchoenflies, kFull, kExt.map fun e => (e.1, e.2.1.map String.toList, e.2.2)⟩

set_option maxRecDepth 100000 in
theorem kShort_eq : (hmShort.map fun s => key s.toList) = kShort := by decide +kernel
set_option maxRecDepth 100000 in
theorem kHall_eq : (hallShort.map fun s => key s.toList) = kHall := by decide +kernel
set_option maxRecDepth 100000 in
theorem kSchoenflies_eq : (schoenflies.map fun s => key s.toList) = kSchoenflies := by decide +kernel
set_option maxRecDepth 100000 in
theorem kFull_eq : (fullTable.map fun e => (e.1, key e.2.toList)) = kFull := by decide +kernel
set_option maxRecDepth 100000 in
theorem kExt_eq : (extTable.map fun e => (e.1, e.2.1, key e.2.2.toList)) = kExt := by decide +kernel

theorem keyTables_eq : tables.map key = keyTables := by
  unfold tables keyTables NameTables.map
  rw [← kShort_eq, ← kHall_eq, ← kSchoenflies_eq, ← kFull_eq, ← kExt_eq]
  simp only [List.map_map]
  rfl

/-- The program, with names as numbers. -/
theorem resolve_eq (g : Given Str) : resolve g = resolveWith keyTables (g.map key) := by
  rw [← keyTables_eq, resolveWith_map key_injective]
  rfl

end Cryspy.SG
