import Verif.Go.Basic

/-!
Regular expressions over bytes with a derivative matcher. Used for `phoneRegex`, which is
anchored at both ends (`^...$`), so that Go's `MatchString` is membership in the language.
-/

namespace Metro2

/-- Regular expressions. -/
inductive Regex where
  | empty
  | eps
  | cls (p : UInt8 → Bool)
  | alt (a b : Regex)
  | cat (a b : Regex)
  | star (a : Regex)

namespace Regex

/-- The language of an expression. -/
inductive Matches : Regex → Bytes → Prop
  | eps : Matches eps []
  | cls {p c} : p c = true → Matches (cls p) [c]
  | altL {a b s} : Matches a s → Matches (alt a b) s
  | altR {a b s} : Matches b s → Matches (alt a b) s
  | cat {a b s t} : Matches a s → Matches b t → Matches (cat a b) (s ++ t)
  | starNil {a} : Matches (star a) []
  | starCons {a s t} : Matches a s → Matches (star a) t → Matches (star a) (s ++ t)

/-- Does the language contain the empty string? -/
def nullable : Regex → Bool
  | empty => false
  | eps => true
  | cls _ => false
  | alt a b => a.nullable || b.nullable
  | cat a b => a.nullable && b.nullable
  | star _ => true

/-- Brzozowski derivative. -/
def deriv (c : UInt8) : Regex → Regex
  | empty => empty
  | eps => empty
  | cls p => if p c then eps else empty
  | alt a b => alt (deriv c a) (deriv c b)
  | cat a b =>
    if a.nullable then alt (cat (deriv c a) b) (deriv c b) else cat (deriv c a) b
  | star a => cat (deriv c a) (star a)

/-- Matcher: the whole string belongs to the language. -/
def rmatch (r : Regex) : Bytes → Bool
  | [] => r.nullable
  | c :: s => rmatch (deriv c r) s

/-- `r?` -/
def opt (r : Regex) : Regex := alt r eps
/-- `r+` -/
def plus (r : Regex) : Regex := cat r (star r)
/-- A single byte. -/
def byte (c : UInt8) : Regex := cls (· == c)
/-- A literal string. -/
def lit : Bytes → Regex
  | [] => eps
  | c :: s => cat (byte c) (lit s)

theorem nullable_iff (r : Regex) : r.nullable = true ↔ Matches r [] := by
  induction r with
  | empty => simp [nullable]; intro h; cases h
  | eps => simp [nullable]; exact .eps
  | cls p =>
    simp only [nullable, Bool.false_eq_true, false_iff]
    intro h; cases h
  | alt a b iha ihb =>
    simp only [nullable, Bool.or_eq_true, iha, ihb]
    constructor
    · rintro (h | h)
      · exact .altL h
      · exact .altR h
    · intro h
      cases h with
      | altL h => exact .inl h
      | altR h => exact .inr h
  | cat a b iha ihb =>
    simp only [nullable, Bool.and_eq_true, iha, ihb]
    constructor
    · rintro ⟨h1, h2⟩
      exact Matches.cat h1 h2
    · intro h
      generalize hs : ([] : Bytes) = s at h
      cases h with
      | cat h1 h2 =>
        simp only [List.nil_eq, List.append_eq_nil_iff] at hs
        obtain ⟨rfl, rfl⟩ := hs
        exact ⟨h1, h2⟩
  | star a _ => simp only [nullable, true_iff]; exact .starNil

theorem deriv_iff (c : UInt8) (r : Regex) : ∀ s, Matches (deriv c r) s ↔ Matches r (c :: s) := by
  induction r with
  | empty =>
    intro s
    constructor <;> intro h <;> cases h
  | eps =>
    intro s
    constructor <;> intro h <;> cases h
  | cls p =>
    intro s
    simp only [deriv]
    split
    · rename_i hp
      constructor
      · intro h; cases h; exact .cls hp
      · intro h; cases h; exact .eps
    · rename_i hp
      constructor
      · intro h; cases h
      · intro h; cases h; contradiction
  | alt a b iha ihb =>
    intro s
    simp only [deriv]
    constructor
    · intro h
      cases h with
      | altL h => exact .altL ((iha s).1 h)
      | altR h => exact .altR ((ihb s).1 h)
    · intro h
      cases h with
      | altL h => exact .altL ((iha s).2 h)
      | altR h => exact .altR ((ihb s).2 h)
  | cat a b iha ihb =>
    intro s
    have key : Matches (cat a b) (c :: s) ↔
        Matches (cat (deriv c a) b) s ∨ (Matches a [] ∧ Matches (deriv c b) s) := by
      constructor
      · intro h
        generalize hs : c :: s = u at h
        cases h with
        | @cat _ _ s1 t1 h1 h2 =>
          cases s1 with
          | nil =>
            simp only [List.nil_append] at hs
            subst hs
            exact .inr ⟨h1, (ihb s).2 h2⟩
          | cons d s1 =>
            simp only [List.cons_append, List.cons.injEq] at hs
            obtain ⟨rfl, rfl⟩ := hs
            exact .inl (.cat ((iha s1).2 h1) h2)
      · rintro (h | ⟨h1, h2⟩)
        · generalize hu : s = u at h
          cases h with
          | cat h1 h2 =>
            have := Matches.cat ((iha _).1 h1) h2
            simpa using this
        · have := Matches.cat h1 ((ihb s).1 h2)
          simpa using this
    simp only [deriv]
    split
    · rename_i hn
      rw [key]
      constructor
      · intro h
        cases h with
        | altL h => exact .inl h
        | altR h => exact .inr ⟨(nullable_iff a).1 hn, h⟩
      · rintro (h | h)
        · exact .altL h
        · exact .altR h.2
    · rename_i hn
      rw [key]
      constructor
      · exact .inl
      · rintro (h | h)
        · exact h
        · exact absurd ((nullable_iff a).2 h.1) hn
  | star a iha =>
    intro s
    simp only [deriv]
    constructor
    · intro h
      generalize hu : s = u at h
      cases h with
      | cat h1 h2 =>
        have := Matches.starCons ((iha _).1 h1) h2
        simpa using this
    · intro h
      generalize hr : star a = r at h
      generalize hs : c :: s = u at h
      induction h with
      | eps => cases hr
      | cls _ => cases hr
      | altL _ _ => cases hr
      | altR _ _ => cases hr
      | cat _ _ _ _ => cases hr
      | starNil => cases hs
      | @starCons a' s1 t1 h1 h2 _ ih2 =>
        cases hr
        cases s1 with
        | nil =>
          simp only [List.nil_append] at hs
          exact ih2 rfl hs
        | cons d s1 =>
          simp only [List.cons_append, List.cons.injEq] at hs
          obtain ⟨rfl, rfl⟩ := hs
          exact .cat ((iha s1).2 h1) h2

/-- The matcher decides membership in the language. -/
theorem rmatch_iff (r : Regex) (s : Bytes) : r.rmatch s = true ↔ Matches r s := by
  induction s generalizing r with
  | nil => exact nullable_iff r
  | cons c s ih => rw [rmatch, ih, deriv_iff]

end Regex
end Metro2
