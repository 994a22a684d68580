/-!
# Identifiers made by the code generator, `codegen/mod.rs:432-478`

Strings are lists of characters here.  The generator (feature `from-spec`) runs at build
time and writes `src/protocol/definitions.rs`.
-/
set_option autoImplicit false
namespace Amqp.Codegen

/-- `ch == '-' || ch == '_' || ch == ' '`, `codegen/mod.rs:435` and `:458`. -/
def separator (ch : Char) : Bool := ch == '-' || ch == '_' || ch == ' '

/-- The fold of `camel_case`, `codegen/mod.rs:434-447`; what is pushed to the accumulator
is what the recursion puts in front. -/
def camelGo (newWord : Bool) : List Char → List Char
  | [] => []
  | ch :: t =>
    if separator ch then camelGo true t
    else (if newWord then ch.toUpper else ch) :: camelGo false t

/-- `camel_case`, `codegen/mod.rs:432-448`. -/
def camelCase (name : List Char) : List Char := camelGo true name

/-- The fold of `snake_case`, `codegen/mod.rs:457-475`; `started` says that the accumulator
is not empty.  `is_uppercase` is that of ASCII here: names are ASCII. -/
def snakeGo (newWord lastUpper started : Bool) : List Char → List Char
  | [] => []
  | ch :: t =>
    if separator ch then snakeGo true lastUpper started t
    else
      let upper := ch.isUpper
      if newWord || (!lastUpper && started && upper) then
        '_' :: (if upper then ch.toLower else ch) :: snakeGo false upper true t
      else (if upper then ch.toLower else ch) :: snakeGo newWord upper true t

/-- `snake_case`, `codegen/mod.rs:450-478`. -/
def snakeCase (name : List Char) : List Char :=
  if name = "type".toList then "type_".toList
  else if name = "return".toList then "return_".toList
  else snakeGo false false false name

example : camelCase "terminus-expiry-policy".toList = "TerminusExpiryPolicy".toList := by decide
example : snakeCase "TerminusExpiryPolicy".toList = "terminus_expiry_policy".toList := by decide
example : snakeCase "rcv-settle-mode".toList = "rcv_settle_mode".toList := by decide

end Amqp.Codegen
