import Verif.StrRepr
import Verif.Protocol.Base
import Verif.Props.Laws
/-!
# C41 and C42: the SASL PLAIN response and the representations of text
-/
set_option autoImplicit false
namespace Amqp

/-! ## C41 -/

/-- **C41**: the layout. -/
theorem C41_layout (authz authn password : RStr) :
    (prepareResponse authz authn password).data =
      authz.bytes ++ 0 :: (authn.bytes ++ 0 :: password.bytes) := by
  simp [prepareResponse]

/-- How a server takes a PLAIN response apart (RFC 4616): up to the first NUL, up
to the next one, and the rest. -/
def parsePlain (b : Bytes) : Option (Bytes × Bytes × Bytes) :=
  match b.dropWhile (· != 0) with
  | [] => none
  | _ :: t =>
    match t.dropWhile (· != 0) with
    | [] => none
    | _ :: p => some (b.takeWhile (· != 0), t.takeWhile (· != 0), p)

theorem span_nul (a t : Bytes) (h : 0 ∉ a) :
    (a ++ 0 :: t).dropWhile (· != 0) = 0 :: t ∧ (a ++ 0 :: t).takeWhile (· != 0) = a := by
  have ha : ∀ x ∈ a, (x != 0) = true := by
    intro x hx
    simp only [bne_iff_ne, ne_eq]
    intro e
    exact h (e ▸ hx)
  rw [List.dropWhile_append_of_pos ha, List.takeWhile_append_of_pos ha]
  simp

/-- **C41**: a server gets the three parts back.  Only the first two must be free
of NUL. -/
theorem C41_parse (authz authn password : RStr) (h1 : 0 ∉ authz.bytes) (h2 : 0 ∉ authn.bytes) :
    parsePlain (prepareResponse authz authn password).data =
      some (authz.bytes, authn.bytes, password.bytes) := by
  rw [C41_layout]
  obtain ⟨e1, e2⟩ := span_nul authz.bytes (authn.bytes ++ 0 :: password.bytes) h1
  obtain ⟨e3, e4⟩ := span_nul authn.bytes password.bytes h2
  unfold parsePlain
  simp only [e1, e2, e3, e4]

/-- **C41**: different triples have different responses. -/
theorem C41_unique (z n p z' n' p' : RStr) (h1 : 0 ∉ z.bytes) (h2 : 0 ∉ n.bytes)
    (h3 : 0 ∉ z'.bytes) (h4 : 0 ∉ n'.bytes)
    (h : prepareResponse z n p = prepareResponse z' n' p') : z = z' ∧ n = n' ∧ p = p' := by
  have e := C41_parse z n p h1 h2
  rw [h, C41_parse z' n' p' h3 h4] at e
  injection e with e
  injection e with e1 e2
  injection e2 with e2 e3
  exact ⟨RStr.ext e1.symm, RStr.ext e2.symm, RStr.ext e3.symm⟩

/-- **C41**: NULs in the identities would make responses ambiguous. -/
theorem C41_ambiguous : ∃ z n p z' n' p' : RStr, n ≠ n' ∧
    prepareResponse z n p = prepareResponse z' n' p' :=
  ⟨.lit "", ⟨[0], by decide⟩, .lit "", .lit "", .lit "", ⟨[0], by decide⟩, by decide, by decide⟩

example : prepareResponse (.lit "") (.lit "user1") (.lit "password1") =
    ⟨[0, 117, 115, 101, 114, 49, 0, 112, 97, 115, 115, 119, 111, 114, 100, 49]⟩ := by decide
example : parsePlain (prepareResponse (.lit "") (.lit "user1") (.lit "pw")).data =
    some ([], (RStr.lit "user1").bytes, (RStr.lit "pw").bytes) :=
  C41_parse _ _ _ (by decide) (by decide)

/-! ## C42 -/

/-- The text of a `Str` or `Symbol` as a sequence of bytes. -/
def StrRepr.text : StrRepr → Bytes
  | .ByteStr s | .Static s => s.bytes

/-- **C42**: two strings are equal iff they have the same text. -/
theorem C42_eq (a b : StrRepr) : a.eq b = true ↔ a.text = b.text := by
  cases a <;> cases b <;> simp [StrRepr.eq, StrRepr.text]
  exact ⟨Eq.symm, Eq.symm⟩

/-- **C42**: equality is an equivalence relation. -/
theorem C42_equivalence : Equivalence fun a b : StrRepr => a.eq b = true :=
  ⟨fun _ => (C42_eq _ _).2 rfl, fun h => (C42_eq _ _).2 ((C42_eq _ _).1 h).symm,
    fun h g => (C42_eq _ _).2 (((C42_eq _ _).1 h).trans ((C42_eq _ _).1 g))⟩

/-- **C42**: equality with a `str`. -/
theorem C42_eq_str (a : StrRepr) (s : RStr) : a.eqStr s = true ↔ a.text = s.bytes := by
  cases a <;> simp [StrRepr.eqStr, StrRepr.text]

/-- **C42**: what the accessors return. -/
theorem C42_accessors (a : StrRepr) : a.asBytes = a.text ∧ a.asStr.bytes = a.text ∧
    a.len = a.text.length ∧ ∃ s, a.asBytesStr = .ok s ∧ s.bytes = a.text := by
  cases a with
  | ByteStr s => exact ⟨rfl, rfl, rfl, s, rfl, rfl⟩
  | Static s => exact ⟨rfl, rfl, rfl, _, dif_pos s.valid, rfl⟩

/-- **C42**: the constructors keep the text. -/
theorem C42_constructors (s : RStr) : (StrRepr.fromStr s).text = s.bytes ∧
    (StrRepr.fromStatic s).text = s.bytes ∧ (StrRepr.fromByteStr s).text = s.bytes :=
  ⟨rfl, rfl, rfl⟩

/-- **C42**: the encoding of a `Str` and of a `Symbol` depends on the text only.
`enc` is the encoder of the rest of the model, which knows only texts. -/
theorem C42_encode (a : StrRepr) (s : RStr) (h : a.text = s.bytes) :
    a.encode = enc s ∧ a.encodeSymbol = enc (⟨s⟩ : Symbol) ∧ a.encodedSize = size s ∧
    a.encodedSize = size (⟨s⟩ : Symbol) := by
  have e : a.asStr = s := RStr.ext ((C42_accessors a).2.1.trans h)
  have e' : a.asBytes = s.bytes := (C42_accessors a).1.trans h
  have el : a.len = s.len := (C42_accessors a).2.2.1.trans (congrArg List.length h)
  unfold StrRepr.encode StrRepr.encodeSymbol StrRepr.encodeWith StrRepr.encodedSize
  rw [e, e', el]
  exact ⟨rfl, rfl, rfl, rfl⟩

/-- **C42**: equal strings feed the same data to a hasher, the same as the borrowed
`str`, as lookups in maps demand; `true` says that `String<Bytes>` of the crate
`string` hashes as a `str`. -/
theorem C42_hash (a b : StrRepr) (h : a.eq b = true) :
    a.hash true = b.hash true ∧ a.hash true = StrRepr.strHash a.asStr := by
  have e := (C42_eq a b).1 h
  cases a <;> cases b <;>
    simp_all [StrRepr.hash, StrRepr.text, StrRepr.strHash, StrRepr.asStr]

/-- **C42**: the assumption on the crate `string` is needed: otherwise lookups of
static keys in decoded maps would fail.  A static string hashes as the borrowed `str`
whatever the crate does. -/
theorem C42_hash_needs (s : RStr) : (StrRepr.Static s).eq (.ByteStr s) = true ∧
    (StrRepr.Static s).hash false ≠ (StrRepr.ByteStr s).hash false ∧
    ∀ asText, (StrRepr.Static s).hash asText = StrRepr.strHash s :=
  ⟨(C42_eq _ _).2 rfl, by simp [StrRepr.hash, StrRepr.strHash, StrRepr.sliceHash],
   fun _ => rfl⟩

/-- **C42**: text decoded from the encoding of a string is equal to it, but always
shared. -/
theorem C42_decode (env : Env) (a : StrRepr) (hl : a.text.length < 2 ^ 32) (rest : Bytes) :
    ∃ b, StrRepr.decode env (a.encode ++ rest) = .ok (rest, b) ∧ b.eq a = true ∧
      StrRepr.decodeSymbol env (a.encodeSymbol ++ rest) = .ok (rest, b) ∧
      b = .ByteStr a.asStr := by
  have hs : a.asStr.bytes.length < 2 ^ 32 := by rw [(C42_accessors a).2.1]; exact hl
  obtain ⟨e1, e2, -, -⟩ := C42_encode a a.asStr (C42_accessors a).2.1.symm
  refine ⟨.ByteStr a.asStr, ?_, ?_, ?_, rfl⟩
  · rw [e1]; exact Dec.map_ok (LawfulCodec.rt env a.asStr hs rest)
  · exact (C42_eq _ _).2 (C42_accessors a).2.1
  · rw [e2]; exact Dec.map_ok (LawfulCodec.rt env (⟨a.asStr⟩ : Symbol) hs rest)

theorem cmpBytes_eq : ∀ a b : Bytes, StrRepr.cmpBytes a b = .eq ↔ a = b
  | [], [] => by simp [StrRepr.cmpBytes]
  | [], _ :: _ => by simp [StrRepr.cmpBytes]
  | _ :: _, [] => by simp [StrRepr.cmpBytes]
  | a :: s, b :: t => by
    unfold StrRepr.cmpBytes
    have ih := cmpBytes_eq s t
    by_cases h1 : a < b
    · rw [if_pos h1]
      simp only [reduceCtorEq, List.cons.injEq, false_iff, not_and]
      intro e; subst e; exact absurd h1 (UInt8.lt_irrefl _)
    · rw [if_neg h1]
      by_cases h2 : b < a
      · rw [if_pos h2]
        simp only [reduceCtorEq, List.cons.injEq, false_iff, not_and]
        intro e; subst e; exact absurd h2 (UInt8.lt_irrefl _)
      · rw [if_neg h2, ih]
        have e : a = b := UInt8.le_antisymm (UInt8.not_lt.1 h2) (UInt8.not_lt.1 h1)
        simp [e]

/-- **C42**, ordering: two strings compare as `Equal` iff they have the same text and
the same representation. -/
theorem C42_order (a b : StrRepr) : a.cmp b = .eq ↔ a = b := by
  cases a <;> cases b <;> simp [StrRepr.cmp, cmpBytes_eq, RStr.ext_iff]

/-- **C42**, ordering: so `Ord` contradicts `Eq`. -/
theorem C42_order_inconsistent (s : RStr) : (StrRepr.Static s).eq (.ByteStr s) = true ∧
    (StrRepr.Static s).cmp (.ByteStr s) = .gt := ⟨(C42_eq _ _).2 rfl, rfl⟩

/-- **C42** for variants: comparing with a `str` is comparing what `as_str` returns,
whether the variant is a string or a symbol. -/
theorem C42_variant (v : Variant) (s : RStr) : v.eqStr s = true ↔ v.asStr = some s := by
  cases v <;> simp [Variant.eqStr, Variant.asStr, RStr.ext_iff]

example : (StrRepr.Static (.lit "é")).eq (.ByteStr (.lit "é")) = true := by decide
example : (StrRepr.Static (.lit "a")).eq (.ByteStr (.lit "b")) = false := by decide
example : ∃ b, StrRepr.decode debugEnv ((StrRepr.Static (.lit "é")).encode ++ [1]) = .ok ([1], b) ∧
    b = .ByteStr (.lit "é") := by
  obtain ⟨b, h1, -, -, h2⟩ := C42_decode debugEnv (.Static (.lit "é")) (by decide) [1]
  exact ⟨b, h1, h2⟩
example : (Variant.symbol ⟨.lit "x"⟩).eqStr (.lit "x") = true := (C42_variant _ _).2 rfl

example (z n p : RStr) (h1 : 0 ∉ z.bytes) (h2 : 0 ∉ n.bytes)
    (h : prepareResponse z n p = prepareResponse (.lit "") (.lit "user1") (.lit "pw")) :
    n = .lit "user1" ∧ p = .lit "pw" :=
  (C41_unique z n p _ _ _ h1 h2 (by decide) (by decide) h).2
example : (StrRepr.Static (.lit "é")).encode = enc (RStr.lit "é") := (C42_encode _ (.lit "é") rfl).1
example : (StrRepr.Static (.lit "é")).hash true = (StrRepr.ByteStr (.lit "é")).hash true :=
  (C42_hash (.Static (.lit "é")) (.ByteStr (.lit "é")) (by decide)).1

end Amqp
