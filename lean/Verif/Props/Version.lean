/-
**C86.** The version number, the version text and the compatibility check.
-/
import Verif.Model.Version

namespace XCFun.Props
open XCFun

/-- A part up to a separator determines what is before and after. -/
theorem split_unique {c : Char} : ∀ {a a' b b' : List Char}, c ∉ a → c ∉ a' → a ++ c :: b = a' ++ c :: b' → a = a' ∧ b = b'
  | [], [], _, _, _, _, h => ⟨rfl, (List.cons.inj h).2⟩
  | [], x :: a', _, _, _, h', h => absurd ((List.cons.inj h).1 ▸ List.mem_cons_self) h'
  | x :: a, [], _, _, h', _, h => absurd ((List.cons.inj h).1 ▸ List.mem_cons_self) h'
  | x :: a, y :: a', b, b', h1, h2, h => by
    obtain ⟨e, h⟩ := List.cons.inj h
    obtain ⟨e1, e2⟩ := split_unique (fun m => h1 (List.mem_cons_of_mem _ m)) (fun m => h2 (List.mem_cons_of_mem _ m)) h
    exact ⟨by rw [e, e1], e2⟩

theorem dot_notMem (n : ℕ) : '.' ∉ Nat.toDigits 10 n := fun h => by
  have := Nat.isDigit_of_mem_toDigits (by decide) (by decide) h
  exact absurd this (by decide)

theorem toDigits_inj {m n : ℕ} (h : Nat.toDigits 10 m = Nat.toDigits 10 n) : m = n := by
  have := congrArg (fun l => Nat.ofDigitChars 10 l 0) h
  simpa only [Nat.ofDigitChars_ten_toDigits] using this

/-- **C86, text.** The text returned by `xcfun_version` tells any two versions apart. -/
theorem C86_text {v w : Version} (h : versionText v = versionText w) : v = w := by
  simp only [versionText, List.append_assoc, List.cons_append, List.nil_append] at h
  obtain ⟨h1, h⟩ := split_unique (dot_notMem _) (dot_notMem _) h
  obtain ⟨h2, h3⟩ := split_unique (dot_notMem _) (dot_notMem _) h
  cases v; cases w
  simp only [Version.mk.injEq]
  exact ⟨toDigits_inj h1, toDigits_inj h2, toDigits_inj h3⟩

theorem number_shift (v : Version) (h1 : v.minor < 2 ^ 16) (h2 : v.patch < 2 ^ 16) : versionNumber v >>> 16 = v.major := by
  rw [versionNumber, Nat.shiftRight_or_distrib, Nat.shiftRight_or_distrib, Nat.shiftLeft_shiftRight, Nat.shiftRight_eq_div_pow _ 16,
    Nat.shiftRight_eq_div_pow _ 16, Nat.div_eq_of_lt h1, Nat.div_eq_of_lt h2, Nat.or_zero, Nat.or_zero]

/-- **C86, number.** The upper half of the number is the major version, so that versions with different major versions have different numbers. -/
theorem C86_number_major {v w : Version} (hv : v.minor < 2 ^ 16 ∧ v.patch < 2 ^ 16) (hw : w.minor < 2 ^ 16 ∧ w.patch < 2 ^ 16)
    (h : versionNumber v = versionNumber w) : v.major = w.major := by
  rw [← number_shift v hv.1 hv.2, h, number_shift w hw.1 hw.2]

/-- **C86, number (negation).** The number does not tell versions with the same major version apart: minor and patch version share the lower half, so that exchanging
them changes nothing. -/
theorem C86_number_collides (M m p : ℕ) : versionNumber ⟨M, m, p⟩ = versionNumber ⟨M, p, m⟩ := by
  simp only [versionNumber, Nat.or_assoc, Nat.or_comm m p]

/-- This release has the number of the one before it and of a 2.0.1. -/
theorem C86_number_this : versionNumber thisVersion = versionNumber ⟨2, 1, 0⟩ ∧ versionNumber thisVersion = versionNumber ⟨2, 0, 1⟩ := by decide

/-- **C86, check.** Every library finds itself compatible. -/
theorem C86_compatible (library : Version) (h1 : library.minor < 2 ^ 16) (h2 : library.patch < 2 ^ 16) : isCompatibleLibrary library = true := by
  rw [isCompatibleLibrary, number_shift library h1 h2, beq_self_eq_true]

/-- **C86, check (negation).** The documentation says that the version of the library is compared with that of the header the host was compiled with. For any
header there is a library of another version that the check accepts. -/
theorem C86_not_header (header : Version) : ∃ library : Version, library.major ≠ header.major ∧ isCompatibleLibrary library = true :=
  ⟨⟨header.major + 1, 0, 0⟩, by simp, C86_compatible _ (Nat.two_pow_pos 16) (Nat.two_pow_pos 16)⟩

example : versionText thisVersion = "2.1.1".toList := by decide
example : versionNumber thisVersion = 131073 := by decide
example : versionText ⟨2, 11, 1⟩ ≠ versionText ⟨2, 1, 11⟩ := fun h => by have := C86_text h; cases this
example : isCompatibleLibrary thisVersion = true := C86_compatible _ (by decide) (by decide)
example : versionNumber ⟨2, 1, 0⟩ ≠ versionNumber ⟨3, 0, 0⟩ := fun h => by
  have := C86_number_major (by decide) (by decide) h
  simp at this

end XCFun.Props
