import Verif.Accessors
import Verif.Props.Conditions
import Verif.Props.Hashing
import Verif.Props.Views
/-!
# C65 (further conversions), C18 (arrays of maps), C54 (maps keyed by text)
-/
set_option autoImplicit false
namespace Amqp
open Dec
open StrRepr (HashWrite strHash)

/-! ## C65 -/

/-- **C65**: an error condition made from a standard error is written as the
specification's symbol for it and read back as the condition; one made from a
symbol is written as the symbol. -/
theorem C65_conditions (env : Env) :
    (∀ e : AmqpError, enc (into e : ErrorCondition) = enc (AmqpError.specValue e) ∧
      RoundTrips env (into e : ErrorCondition)) ∧
    (∀ e : ConnectionError, enc (into e : ErrorCondition) = enc (ConnectionError.specValue e) ∧
      RoundTrips env (into e : ErrorCondition)) ∧
    (∀ e : SessionError, enc (into e : ErrorCondition) = enc (SessionError.specValue e) ∧
      RoundTrips env (into e : ErrorCondition)) ∧
    (∀ e : LinkError, enc (into e : ErrorCondition) = enc (LinkError.specValue e) ∧
      RoundTrips env (into e : ErrorCondition)) ∧
    ∀ s : Symbol, enc (into s : ErrorCondition) = enc s ∧
      (s.str.bytes.length < 2 ^ 32 →
        (RoundTrips env (into s : ErrorCondition) ↔ ¬ StandardCondition s)) := by
  refine ⟨fun e => ⟨C19_amqp_error.written e, C20_condition_round_trip env _ ?_⟩,
    fun e => ⟨C19_connection_error.written e, C20_condition_round_trip env _ ?_⟩,
    fun e => ⟨C19_session_error.written e, C20_condition_round_trip env _ ?_⟩,
    fun e => ⟨C19_link_error.written e, C20_condition_round_trip env _ ?_⟩,
    fun s => ⟨rfl, fun hl => ⟨fun h hs => ?_, fun h => C20_condition_round_trip env _ ?_⟩⟩⟩
  · intro s h; cases h
  · intro s h; cases h
  · intro s h; cases h
  · intro s h; cases h
  · exact C20_condition_custom_standard env s hs [] (h [])
  · intro s' h'
    cases h'
    exact ⟨hl, h⟩

example : enc (into AmqpError.NotFound : ErrorCondition) =
    [0xa3, 14, 0x61, 0x6d, 0x71, 0x70, 0x3a, 0x6e, 0x6f, 0x74, 0x2d, 0x66, 0x6f, 0x75, 0x6e, 0x64] :=
  ((C65_conditions debugEnv).1 .NotFound).1
example : RoundTrips debugEnv (into (⟨.lit "com.example:foo"⟩ : Symbol) : ErrorCondition) :=
  (((C65_conditions debugEnv).2.2.2.2 ⟨.lit "com.example:foo"⟩).2 (by decide)).2 not_standard_foo

/-- **C65**: a described value made from a descriptor and a value is written as the
descriptor followed by the value, and has the sum of their sizes; it is not text. -/
theorem C65_described (d : Descriptor) (v : Variant) :
    enc (into (d, v) : Variant) = enc d ++ enc v ∧
    size (into (d, v) : Variant) = size d + size v ∧
    (into (d, v) : Variant).asStr = none ∧
    ∀ d' v', (into (d, v) : Variant) = into (d', v') ↔ d = d' ∧ v = v' := by
  refine ⟨?_, ?_, rfl, fun d' v' => ?_⟩
  · show Variant.venc (.described d v) = enc d ++ Variant.venc v
    rw [Variant.venc]
  · show Variant.vsize (.described d v) = size d + Variant.vsize v
    rw [Variant.vsize]
  · show Variant.described d v = .described d' v' ↔ _
    exact ⟨fun h => by injection h with h1 h2; exact ⟨h1, h2⟩, fun ⟨h1, h2⟩ => by rw [h1, h2]⟩

example : enc (into (Descriptor.ulong 0x24, Variant.uint 7) : Variant) =
    [0x00, 0x53, 0x24, 0x52, 7] := (C65_described (.ulong 0x24) (.uint 7)).1

/-- **C65**: a value made from a static symbol is written as the symbol with that
text, and read back as that symbol. -/
theorem C65_static_symbol (env : Env) (s : RStr) (hs : s.bytes.length < 2 ^ 32)
    (hd : 0 < env.stackDepth) :
    enc (Variant.ofStaticSymbol s) = enc (Symbol.mk s) ∧
    size (Variant.ofStaticSymbol s) = size (Symbol.mk s) ∧
    Means env (enc (Variant.ofStaticSymbol s)) (into (Symbol.mk s) : Variant) := by
  have h1 : enc (Variant.ofStaticSymbol s) = enc (Symbol.mk s) := by
    show Variant.venc (.staticSymbol s) = _
    rw [Variant.venc]; rfl
  refine ⟨h1, ?_, fun rest => ?_⟩
  · show Variant.vsize (.staticSymbol s) = _
    rw [Variant.vsize]; rfl
  · rw [h1]
    exact (C66_text.2.2.read env _ _ _ hd).1 (LawfulCodec.rt env (Symbol.mk s) hs rest)

example : Means debugEnv [0xa3, 1, 0x61] (into (Symbol.mk (.lit "a")) : Variant) :=
  (C65_static_symbol debugEnv (.lit "a") (by decide) (by decide)).2.2

/-! ## C18: arrays of maps -/

section
variable {K V : Type} [HKey K] [Encode K] [Encode V] [DecodeF K] [DecodeF V]

/-- **C18** for maps as array items: `array_encoded_size` is exact, and a map with
distinct, hashable keys whose keys and values round-trip is read back. -/
theorem C18_map_items (hK : SizeExact K) (hV : SizeExact V) : ItemSizeExact (HMap K V) ∧
    ∀ (env : Env) (m : HMap K V), (∀ e ∈ m.entries, HKey.hashOk e.1 = true) →
      NodupKeys m.entries → (∀ e ∈ m.entries, RoundTrips env e.1 ∧ RoundTrips env e.2) →
      (aenc m).length < 2 ^ 32 → ItemRoundTrips env m := by
  have hlen : ∀ m : HMap K V, asize m = (aenc m).length := fun m => by
    have := mapContent_length (ks := size) (vs := size) (ke := enc) (ve := enc) m.entries
      (fun e _ => hK _) (fun e _ => hV _)
    simp only [asize, aenc]; simp [this]; omega
  refine ⟨fun m => ⟨hlen m, ?_⟩, fun env m hk hn hr hs => ?_⟩
  · rw [← hlen]; simp only [asize]; omega
  · have hs' : mapContentSize size size m.entries + 8 < 2 ^ 32 := by
      rw [← hlen] at hs; simp only [asize] at hs; omega
    have g : MapGood (decode K env) (decode V env) size size enc enc m.entries :=
      { key := fun e he => ⟨(hr e he).1, hK _, hK _ ▸ pos_of_roundTrips (hr e he).1, hk e he⟩
        val := fun e he => ⟨(hr e he).2, hV _, hV _ ▸ pos_of_roundTrips (hr e he).2⟩
        nodup := hn
        small := by omega }
    have hc := g.count_le
    have := Reads.bind (reads_compound32 env (n := mapContentSize size size m.entries)
      (k := m.entries.length * 2) (by omega) (by omega))
      (f := fun header => withSlice header.size
        (mapLoop (decode K env) (decode V env) (header.count / 2) [])) g.slice
    exact this.map HMap.mk

end

/-- An array of two maps. -/
example : RoundTrips debugEnv
    (⟨[⟨[(.lit "a", 7)]⟩, ⟨[]⟩]⟩ : Vec (HMap Str UInt8)) := by
  have h := C18_map_items (K := Str) (V := UInt8) LawfulEnc.size_eq LawfulEnc.size_eq
  refine C18_array_round_trip_partial h.1 debugEnv _ (fun a ha => ?_) (by decide) (fun _ => by decide)
  simp only [List.mem_cons, List.not_mem_nil, or_false] at ha
  rcases ha with rfl | rfl
  · refine h.2 debugEnv _ (fun e he => ?_) (by simp [NodupKeys]) (fun e he => ?_) (by decide)
    · rfl
    · simp only [List.mem_cons, List.not_mem_nil, or_false] at he
      subst he
      exact ⟨SmallRT.rt debugEnv _ (by decide), LawfulCodec.rt debugEnv _ trivial⟩
  · exact h.2 debugEnv _ (fun e he => by cases he) List.Pairwise.nil (fun e he => by cases he)
      (by decide)

/-- **C18**: `array_decode` of a symbol reads what `array_encode` writes, as the
decoder of `Vec` does. -/
theorem C18_symbol_item (env : Env) (s : Symbol) (hs : s.str.bytes.length < 2 ^ 32) :
    (∀ rest, arrayDecodeSymbol (aenc s ++ rest) = .ok (rest, s)) ∧ ItemRoundTrips env s ∧
    ∀ input, arrayDecodeSymbol input = decF env (ArrayEncode.code Symbol) input := by
  have h : ItemRoundTrips env s := LawfulArray.art env s hs
  exact ⟨h, h, fun _ => rfl⟩

example : arrayDecodeSymbol [0, 0, 0, 1, 0x61, 9] = .ok ([9], ⟨.lit "a"⟩) :=
  (C18_symbol_item debugEnv ⟨.lit "a"⟩ (by decide)).1 [9]

/-! ## C54: maps keyed by text -/

/-- **C54**: string and symbol keys: equal keys have equal hashes, a key equals the
keys with its text and no other, and hashing never panics. -/
theorem C54_text_keys :
    (∀ a b : Str, (HKey.keq a b = true ↔ a.bytes = b.bytes) ∧ HKey.hashOk a = true ∧
      (a.bytes = b.bytes → HashKey.hash a = HashKey.hash b) ∧ HashKey.hash a = some (strHash a)) ∧
    (∀ a b : Symbol, (HKey.keq a b = true ↔ a.str.bytes = b.str.bytes) ∧ HKey.hashOk a = true ∧
      (a.str.bytes = b.str.bytes → HashKey.hash a = HashKey.hash b) ∧
      HashKey.hash a = some (strHash a.str)) := by
  refine ⟨fun a b => ⟨⟨fun h => ?_, fun h => ?_⟩, rfl, fun h => ?_, rfl⟩,
    fun a b => ⟨⟨fun h => ?_, fun h => ?_⟩, rfl, fun h => ?_, rfl⟩⟩
  · rw [show a = b from beq_iff_eq.1 h]
  · exact beq_iff_eq.2 (RStr.ext h)
  · rw [RStr.ext h]
  · rw [show a = b from beq_iff_eq.1 h]
  · obtain ⟨a⟩ := a; obtain ⟨b⟩ := b
    exact beq_iff_eq.2 (congrArg _ (RStr.ext h))
  · obtain ⟨a⟩ := a; obtain ⟨b⟩ := b
    rw [show a = b from RStr.ext h]

example : HKey.keq (.lit "a" : Str) (.lit "b") = false := by
  rw [← Bool.not_eq_true, (C54_text_keys.1 _ _).1]; decide

end Amqp
