import Verif.Props.Enumerations
import Verif.Props.Performatives
import Verif.Props.Descriptors
import Verif.Props.Values
/-!
# C20: error conditions and distribution modes; further cases of C21 to C24
-/
set_option autoImplicit false
namespace Amqp
open Dec

/-! ## C20 -/

/-- The symbol is one of the specification's error conditions. -/
def StandardCondition (s : Symbol) : Prop :=
  (∃ e, AmqpError.specValue e = s) ∨ (∃ e, ConnectionError.specValue e = s) ∨
    (∃ e, SessionError.specValue e = s) ∨ ∃ e, LinkError.specValue e = s

theorem ofSymbol_custom {s : Symbol} (h : ¬ StandardCondition s) :
    ErrorCondition.ofSymbol s = .Custom s := by
  have h1 : ∀ e, AmqpError.tryFrom s ≠ .ok e := fun e he =>
    h (.inl ⟨e, by rw [EnumType.base_of s e he]; cases e <;> rfl⟩)
  have h2 : ∀ e, ConnectionError.tryFrom s ≠ .ok e := fun e he =>
    h (.inr (.inl ⟨e, by rw [EnumType.base_of s e he]; cases e <;> rfl⟩))
  have h3 : ∀ e, SessionError.tryFrom s ≠ .ok e := fun e he =>
    h (.inr (.inr (.inl ⟨e, by rw [EnumType.base_of s e he]; cases e <;> rfl⟩)))
  have h4 : ∀ e, LinkError.tryFrom s ≠ .ok e := fun e he =>
    h (.inr (.inr (.inr ⟨e, by rw [EnumType.base_of s e he]; cases e <;> rfl⟩)))
  unfold ErrorCondition.ofSymbol
  cases e1 : AmqpError.tryFrom s with
  | ok e => exact absurd e1 (h1 e)
  | _ =>
    cases e2 : ConnectionError.tryFrom s with
    | ok e => exact absurd e2 (h2 e)
    | _ =>
      cases e3 : SessionError.tryFrom s with
      | ok e => exact absurd e3 (h3 e)
      | _ =>
        cases e4 : LinkError.tryFrom s with
        | ok e => exact absurd e4 (h4 e)
        | _ => rfl

theorem means_condition {env : Env} {u : Bytes} {s : Symbol} (h : Means env u s) :
    Means env u (ErrorCondition.ofSymbol s) := fun rest => by
  rw [decode_errorCondition]; exact map_ok (h rest)

/-- **C20.** A symbol, in whatever form, decodes as an error condition to the
standard member with that value, or to `Custom` if there is none. -/
theorem C20_condition_decode (env : Env) (u : Bytes) :
    (∀ e, Means env u (AmqpError.specValue e) → Means env u (ErrorCondition.AmqpError e)) ∧
    (∀ e, Means env u (ConnectionError.specValue e) → Means env u (ErrorCondition.ConnectionError e)) ∧
    (∀ e, Means env u (SessionError.specValue e) → Means env u (ErrorCondition.SessionError e)) ∧
    (∀ e, Means env u (LinkError.specValue e) → Means env u (ErrorCondition.LinkError e)) ∧
    (∀ s, ¬ StandardCondition s → Means env u s → Means env u (ErrorCondition.Custom s)) := by
  refine ⟨fun e h => ?_, fun e h => ?_, fun e h => ?_, fun e h => ?_, fun s hs h => ?_⟩
  · have := means_condition h
    rwa [show AmqpError.specValue e = e.base by cases e <;> rfl,
      ErrorCondition.ofSymbol_amqp] at this
  · have := means_condition h
    rwa [show ConnectionError.specValue e = e.base by cases e <;> rfl,
      ErrorCondition.ofSymbol_connection] at this
  · have := means_condition h
    rwa [show SessionError.specValue e = e.base by cases e <;> rfl,
      ErrorCondition.ofSymbol_session] at this
  · have := means_condition h
    rwa [show LinkError.specValue e = e.base by cases e <;> rfl,
      ErrorCondition.ofSymbol_link] at this
  · have := means_condition h
    rwa [ofSymbol_custom hs] at this

/-- **C20.** Standard error conditions and custom ones with a name of their own
round-trip. -/
theorem C20_condition_round_trip (env : Env) (c : ErrorCondition)
    (h : ∀ s, c = .Custom s → s.str.bytes.length < 2 ^ 32 ∧ ¬ StandardCondition s) :
    RoundTrips env c := by
  have hc := fun u => C20_condition_decode env u
  cases c with
  | AmqpError e =>
    refine (hc (enc e)).1 e ?_
    rw [C19_amqp_error.written e]
    exact SmallRT.rt env _ (by cases e <;> decide)
  | ConnectionError e =>
    refine (hc (enc e)).2.1 e ?_
    rw [C19_connection_error.written e]
    exact SmallRT.rt env _ (by cases e <;> decide)
  | SessionError e =>
    refine (hc (enc e)).2.2.1 e ?_
    rw [C19_session_error.written e]
    exact SmallRT.rt env _ (by cases e <;> decide)
  | LinkError e =>
    refine (hc (enc e)).2.2.2.1 e ?_
    rw [C19_link_error.written e]
    exact SmallRT.rt env _ (by cases e <;> decide)
  | Custom s =>
    exact (hc (enc s)).2.2.2.2 s (h s rfl).2 (LawfulCodec.rt env s (h s rfl).1)

/-- **C20.** A custom condition whose name is a standard one does not round-trip:
it is read back as the standard member. -/
theorem C20_condition_custom_standard (env : Env) (s : Symbol) (h : StandardCondition s) (rest : Bytes) :
    decode ErrorCondition env (enc (ErrorCondition.Custom s) ++ rest) ≠ .ok (rest, .Custom s) := by
  have hl : s.str.bytes.length < 2 ^ 32 := by
    rcases h with ⟨e, rfl⟩ | ⟨e, rfl⟩ | ⟨e, rfl⟩ | ⟨e, rfl⟩ <;> cases e <;> decide
  have hm : Means env (enc s) s := LawfulCodec.rt env s hl
  have hc := C20_condition_decode env (enc s)
  intro hx
  have hx' : decode ErrorCondition env (enc s ++ rest) = .ok (rest, .Custom s) := hx
  rcases h with ⟨e, rfl⟩ | ⟨e, rfl⟩ | ⟨e, rfl⟩ | ⟨e, rfl⟩
  · rw [hc.1 e hm rest] at hx'; cases hx'
  · rw [hc.2.1 e hm rest] at hx'; cases hx'
  · rw [hc.2.2.1 e hm rest] at hx'; cases hx'
  · rw [hc.2.2.2.1 e hm rest] at hx'; cases hx'

theorem not_standard_foo : ¬ StandardCondition ⟨.lit "com.example:foo"⟩ := by
  rintro (⟨e, h⟩ | ⟨e, h⟩ | ⟨e, h⟩ | ⟨e, h⟩) <;> revert h <;> cases e <;> decide

example : RoundTrips debugEnv (ErrorCondition.Custom ⟨.lit "com.example:foo"⟩) :=
  C20_condition_round_trip _ _ fun s h => by
    injection h with h; subst h; exact ⟨by decide, not_standard_foo⟩
example : Means debugEnv [0xa3, 14, 0x61, 0x6d, 0x71, 0x70, 0x3a, 0x6e, 0x6f, 0x74, 0x2d, 0x66, 0x6f,
    0x75, 0x6e, 0x64] (ErrorCondition.AmqpError .NotFound) :=
  (C20_condition_decode _ _).1 .NotFound
    (SmallRT.rt debugEnv (⟨.lit "amqp:not-found"⟩ : Symbol) (by decide))
example : ¬ RoundTrips debugEnv (ErrorCondition.Custom ⟨.lit "amqp:link:stolen"⟩) := fun h =>
  C20_condition_custom_standard debugEnv _ (.inr (.inr (.inr ⟨.Stolen, rfl⟩))) [] (h [])

/-- **C20** for distribution modes: `move` and `copy` (AMQP 1.0 part 3, 3.5.7) and
nothing else decode to the standard members. -/
theorem C20_distribution_decode (env : Env) (u : Bytes) :
    (Means env u (⟨.lit "move"⟩ : Symbol) → Means env u DistributionMode.Move) ∧
    (Means env u (⟨.lit "copy"⟩ : Symbol) → Means env u DistributionMode.Copy) ∧
    (∀ s : Symbol, s ≠ ⟨.lit "move"⟩ → s ≠ ⟨.lit "copy"⟩ → Means env u s →
      Means env u (DistributionMode.Custom s)) := by
  have key : ∀ s : Symbol, Means env u s → Means env u (DistributionMode.ofSymbol s) :=
    fun s h rest => by rw [decode_distributionMode]; exact map_ok (h rest)
  refine ⟨key _, key _, fun s h1 h2 h => ?_⟩
  have := key s h
  unfold DistributionMode.ofSymbol at this
  rwa [if_neg (fun e => h1 (Symbol.eq_of_str e)), if_neg (fun e => h2 (Symbol.eq_of_str e))] at this

/-- **C20** for distribution modes: the standard ones and custom ones with a name
of their own round-trip. -/
theorem C20_distribution_round_trip (env : Env) (c : DistributionMode)
    (h : ∀ s, c = .Custom s → s.str.bytes.length < 2 ^ 32 ∧ s ≠ ⟨.lit "move"⟩ ∧ s ≠ ⟨.lit "copy"⟩) :
    RoundTrips env c := by
  cases c with
  | Move =>
    exact (C20_distribution_decode env _).1 <|
      (SmallRT.rt env (⟨.lit "move"⟩ : Symbol) (by decide))
  | Copy =>
    exact (C20_distribution_decode env _).2.1 <|
      (SmallRT.rt env (⟨.lit "copy"⟩ : Symbol) (by decide))
  | Custom s =>
    obtain ⟨h0, h1, h2⟩ := h s rfl
    exact (C20_distribution_decode env _).2.2 s h1 h2 (LawfulCodec.rt env s h0)

example : RoundTrips debugEnv (DistributionMode.Custom ⟨.lit "Move"⟩) :=
  C20_distribution_round_trip _ _ fun s h => by
    injection h with h; subst h; exact ⟨by decide, by decide, by decide⟩
/-- A custom mode named like a standard one is read back as the standard one. -/
example : Means debugEnv (enc (DistributionMode.Custom ⟨.lit "move"⟩)) DistributionMode.Move :=
  (C20_distribution_decode _ _).1 (SmallRT.rt debugEnv (⟨.lit "move"⟩ : Symbol) (by decide))

/-! ## C21: an `Open` with capabilities and properties -/

/-- The properties of the example: a map with a nested map. -/
def sampleProperties : Fields :=
  ⟨[(⟨.lit "product"⟩, .string (.lit "x")), (⟨.lit "caps"⟩, .map [(.uint 1, .null)])]⟩

theorem sampleProperties_roundTrips : RoundTrips debugEnv sampleProperties := by
  have hv : ∀ v : Variant, v.Survives → (enc v).length < 2 ^ 32 → v.depth ≤ debugEnv.stackDepth →
    RoundTrips debugEnv v := fun v => C14_round_trip_partial debugEnv v
  refine C16_same_order LawfulEnc.size_eq LawfulEnc.size_eq debugEnv _ (fun _ _ => rfl)
    (by simp [sampleProperties, NodupKeys, HKey.keq, RStr.lit]; decide) (fun e he => ?_) (by decide)
  simp only [sampleProperties, List.mem_cons, List.not_mem_nil, or_false] at he
  rcases he with rfl | rfl
  · exact ⟨SmallRT.rt debugEnv (⟨.lit "product"⟩ : Symbol) (by decide),
      hv _ (by simp [Variant.Survives]) (by decide) (by decide)⟩
  · exact ⟨SmallRT.rt debugEnv (⟨.lit "caps"⟩ : Symbol) (by decide),
      hv _ (by simp [Variant.Survives, survivesMap, NodupKeys, Variant.hashOk])
        (by decide) (by decide)⟩

example : RoundTrips debugEnv { Open.sample with
    offered_capabilities := some ⟨[⟨.lit "a"⟩, ⟨.lit "b"⟩]⟩, properties := some sampleProperties } :=
  C21_open _ _ (by decide) (fun _ => rfl) (fun _ => rfl)
    (roundTrips_some (C18_symbols_round_trip_partial debugEnv _ (by decide) (by decide)))
    (fun _ => rfl) (roundTrips_some sampleProperties_roundTrips)

/-! ## C22: explicit nulls -/

/-- **C22.** A null stands for an absent optional or defaulted field, so in the
theorems above an explicit null behaves like omission. -/
theorem C22_null {α : Type} [DecodeF α] (env : Env) : Means env [0x40] (none : Option α) := fun _ => rfl

/-- **C22.** A value stands for a present optional or defaulted field. -/
theorem C22_some {α : Type} [DecodeF α] (env : Env) (c : UInt8) (u : Bytes) (a : α) (hc : c ≠ 0x40)
    (h : Means env (c :: u) a) : Means env (c :: u) (some a) := fun rest => by
  show (if c = FC.null then _ else _ : Dec (Option α)) (u ++ rest) = _
  rw [if_neg (show c ≠ FC.null from hc)]
  exact map_ok (h rest)

/-- `header` with its first field null and the others omitted. -/
example : decode Header debugEnv [0x00, 0x53, 0x70, 0xc0, 2, 1, 0x40] =
    .ok ([], ⟨false, 4, none, false, 0⟩) :=
  C22_header debugEnv 1 [0x40] [0x40] [0x40] [0x40] [0x40] [] [0xc0, 2, 1] [] none (C22_null _)
    none (C22_null _) none (C22_null _) none (C22_null _) none (C22_null _)
    (.list8 (by decide) (by decide))
/-- `end` written as an empty list, and as a list with an unknown second field and padding. -/
example : decode End debugEnv [0x00, 0x53, 0x17, 0x45, 7] = .ok ([7], ⟨none⟩) :=
  C22_end debugEnv 0 [0x40] [] [0x45] [7] none (C22_null _) .list0
example : decode End debugEnv [0x00, 0x53, 0x17, 0xd0, 0, 0, 0, 7, 0, 0, 0, 2, 0x40, 0x41, 0xee, 7] =
    .ok ([7], ⟨none⟩) :=
  C22_end debugEnv 2 [0x40] [0x41, 0xee] (0xd0 :: (beEnc 4 7 ++ beEnc 4 2)) [7] none (C22_null _)
    (.list32 (by decide) (by decide))

/-! ## C23, C24: cases -/

set_option maxRecDepth 8000 in
/-- A wrapped size in a release build: 255 bytes are consumed. -/
example : ∃ (rest : Bytes) (v : End), decode End releaseEnv
    ([0x00, 0x53, 0x17, 0xc0, 0, 1, 0x40] ++ List.replicate 255 9) =
    .ok (rest, v) ∧
    rest = [9] := ⟨_, _, by rfl, rfl⟩
example : TakenSize releaseEnv [0xc0, 0, 1] 255 := .list8Wrapped 1 rfl

/-- Symbolic and numeric descriptors. -/
example : decode End debugEnv (0x00 :: ([0xa3, 13, 0x61, 0x6d, 0x71, 0x70, 0x3a, 0x65, 0x6e, 0x64, 0x3a,
    0x6c, 0x69, 0x73, 0x74] ++ [0x45])) = decode End debugEnv (0x00 :: ([0x53, 0x17] ++ [0x45])) :=
  C24_end.agree debugEnv _ _ _ (.symbol ⟨.lit "amqp:end:list"⟩) (.ulong 0x17)
    ((DescriptorWire.sym8 (code := 0) (name := "amqp:end:list") (by decide)).reads debugEnv)
    ((DescriptorWire.small (code := 0x17) (name := "") (by decide)).reads debugEnv) (.inr rfl) (.inl rfl)
example (p : Bytes) : decode End debugEnv (0x00 :: ([0x53, 0x18] ++ p)) =
    .err (.invalidDescriptor (.ulong 0x18)) :=
  C24_end.reject debugEnv _ p _ ((DescriptorWire.small (code := 0x18) (name := "") (by decide)).reads debugEnv)
    (by rintro (h | h) <;> revert h <;> decide)
example (p : Bytes) : Frame.decode debugEnv (0x00 :: ([0x53, 0x40] ++ p)) =
    .err (.invalidDescriptor (.ulong 0x40)) :=
  C24_frame_others.reject debugEnv _ p _
    ((DescriptorWire.small (code := 0x40) (name := "") (by decide)).reads debugEnv)
    (by
      simp only [List.forall_mem_cons, Descriptor.Is, reduceCtorEq, or_false, Descriptor.ulong.injEq]
      exact ⟨by decide, by decide, by decide, by decide, by decide, by decide, by decide, by decide,
        by decide, by simp⟩)

end Amqp
