/-!
# Names in a specification, and identifiers of Rust

Independent of the generator: what the names in the tables of the standard look like, and
what an identifier is.
-/
set_option autoImplicit false
namespace Amqp.Spec

/-- A lower-case letter of ASCII. -/
def Lower (ch : Char) : Prop := 97 ≤ ch.toNat ∧ ch.toNat ≤ 122
/-- An upper-case letter of ASCII. -/
def Upper (ch : Char) : Prop := 65 ≤ ch.toNat ∧ ch.toNat ≤ 90
/-- A digit of ASCII. -/
def Digit (ch : Char) : Prop := 48 ≤ ch.toNat ∧ ch.toNat ≤ 57

/-- A word: a lower-case letter followed by lower-case letters and digits. -/
def Word (w : List Char) : Prop :=
  ∃ ch t, w = ch :: t ∧ Lower ch ∧ ∀ c ∈ t, Lower c ∨ Digit c

/-- Words joined by hyphens. -/
def hyphenated : List (List Char) → List Char
  | [] => []
  | [w] => w
  | w :: v :: ws => w ++ '-' :: hyphenated (v :: ws)

/-- A name: words joined by hyphens, such as `max-frame-size`. -/
def Name (s : List Char) : Prop := ∃ ws, ws ≠ [] ∧ (∀ w ∈ ws, Word w) ∧ s = hyphenated ws

/-- An identifier: a letter or underscore, then letters, digits and underscores. -/
def Identifier (s : List Char) : Prop :=
  ∃ ch t, s = ch :: t ∧ (Lower ch ∨ Upper ch ∨ ch = '_') ∧
    ∀ c ∈ t, Lower c ∨ Upper c ∨ Digit c ∨ c = '_'

/-- The word with its first letter in upper case. -/
def capitalised : List Char → List Char
  | [] => []
  | ch :: t => Char.ofNat (ch.toNat - 32) :: t

/-- The words joined by underscores. -/
def underscored : List (List Char) → List Char
  | [] => []
  | [w] => w
  | w :: v :: ws => w ++ '_' :: underscored (v :: ws)

end Amqp.Spec
