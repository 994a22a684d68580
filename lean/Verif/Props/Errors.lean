import Verif.Proofs.ErrorFrames
/-!
# C69 (errors tell the truth), C70 (answers are final)
-/
set_option autoImplicit false
namespace Amqp

/-! ## C69 -/

theorem errorsTrue {α : Type} [DecodeF α] [Faulty α] [TellsDec α] : ErrorsTrue α :=
  fun _ _ _ h => explains_decode h

/-- **C69**: fixed-width values, text, binaries, descriptors. -/
theorem C69_scalars : ErrorsTrue Bool ∧ ErrorsTrue UInt8 ∧ ErrorsTrue UInt16 ∧
    ErrorsTrue UInt32 ∧ ErrorsTrue UInt64 ∧ ErrorsTrue Int8 ∧ ErrorsTrue Int16 ∧
    ErrorsTrue Int32 ∧ ErrorsTrue Int64 ∧ ErrorsTrue F32 ∧ ErrorsTrue F64 ∧ ErrorsTrue Char ∧
    ErrorsTrue DateTime ∧ ErrorsTrue Uuid ∧ ErrorsTrue Binary ∧ ErrorsTrue Str ∧
    ErrorsTrue Symbol ∧ ErrorsTrue Descriptor :=
  ⟨errorsTrue, errorsTrue, errorsTrue, errorsTrue, errorsTrue, errorsTrue, errorsTrue, errorsTrue,
   errorsTrue, errorsTrue, errorsTrue, errorsTrue, errorsTrue, errorsTrue, errorsTrue, errorsTrue,
   errorsTrue, errorsTrue⟩

/-- **C69**: dynamic values, maps, arrays, optional and multiple values. -/
theorem C69_compound : ErrorsTrue Variant ∧ ErrorsTrue VList ∧ ErrorsTrue VecVariantMap ∧
    ErrorsTrue Map ∧ ErrorsTrue Fields ∧ ErrorsTrue StringVariantMap ∧ ErrorsTrue (Vec Symbol) ∧
    ErrorsTrue (Vec UInt32) ∧ ErrorsTrue Symbols ∧ ErrorsTrue (Option Variant) :=
  ⟨errorsTrue, errorsTrue, errorsTrue, errorsTrue, errorsTrue, errorsTrue, errorsTrue, errorsTrue,
   errorsTrue, errorsTrue⟩

/-- **C69**: the restricted types. -/
theorem C69_restricted : ErrorsTrue MessageId ∧ ErrorsTrue ErrorCondition ∧
    ErrorsTrue DistributionMode ∧ ErrorsTrue Role ∧ ErrorsTrue SenderSettleMode ∧
    ErrorsTrue ReceiverSettleMode ∧ ErrorsTrue AmqpError ∧ ErrorsTrue ConnectionError ∧
    ErrorsTrue SessionError ∧ ErrorsTrue LinkError ∧ ErrorsTrue SaslCode ∧
    ErrorsTrue TerminusDurability ∧ ErrorsTrue TerminusExpiryPolicy :=
  ⟨errorsTrue, errorsTrue, errorsTrue, errorsTrue, errorsTrue, errorsTrue, errorsTrue, errorsTrue,
   errorsTrue, errorsTrue, errorsTrue, errorsTrue, errorsTrue⟩

/-- **C69**: every list type. -/
theorem C69_list_types :
    (ErrorsTrue Open ∧ ErrorsTrue Begin ∧ ErrorsTrue Attach ∧ ErrorsTrue Flow ∧
     ErrorsTrue Transfer ∧ ErrorsTrue Disposition ∧ ErrorsTrue Detach ∧ ErrorsTrue End ∧
     ErrorsTrue Close) ∧
    (ErrorsTrue SaslMechanisms ∧ ErrorsTrue SaslInit ∧ ErrorsTrue SaslChallenge ∧
     ErrorsTrue SaslResponse ∧ ErrorsTrue SaslOutcome) ∧
    (ErrorsTrue Error ∧ ErrorsTrue Source ∧ ErrorsTrue Target ∧ ErrorsTrue Received ∧
     ErrorsTrue Accepted ∧ ErrorsTrue Rejected ∧ ErrorsTrue Released ∧ ErrorsTrue Modified ∧
     ErrorsTrue Header ∧ ErrorsTrue Properties) :=
  ⟨⟨errorsTrue, errorsTrue, errorsTrue, errorsTrue, errorsTrue, errorsTrue, errorsTrue,
    errorsTrue, errorsTrue⟩, ⟨errorsTrue, errorsTrue, errorsTrue, errorsTrue, errorsTrue⟩,
   ⟨errorsTrue, errorsTrue, errorsTrue, errorsTrue, errorsTrue, errorsTrue, errorsTrue,
    errorsTrue, errorsTrue, errorsTrue⟩⟩

/-- **C69**: the described unions. -/
theorem C69_unions : ErrorsTrue DeliveryState ∧ ErrorsTrue Outcome ∧ ErrorsTrue SaslFrameBody ∧
    ErrorsTrue Section :=
  ⟨errorsTrue, errorsTrue, errorsTrue, errorsTrue⟩

/-- **C69**: messages.  They have no mandatory fields and no enumerations. -/
theorem C69_messages (env : Env) (order : StringVariantMap → List (Str × Variant)) (i : Bytes)
    (e : ParseError) :
    (InMessage.decode env i = .err e → Explains [] [] i e) ∧
    (OutMessage.decode env order i = .err e → Explains [] [] i e) :=
  ⟨Message.loop_tells env _ i _ _ i e List.infix_rfl,
   Message.loop_tells env _ i _ _ i e List.infix_rfl⟩

/-- **C69**: what is missing of the header of a frame.  The number counts the bytes between
the size of the frame and its body, which is four times the data offset less the four
bytes of the size. -/
theorem C69_frame_header (env : Env) (doff kind : UInt8) (t : Bytes) (ht : 2 ≤ t.length)
    (hd : 2 ≤ doff.toNat) (hs : t.length + 6 < 4 * doff.toNat) :
    (kind = 0 → AmqpFrame.decode env (doff :: kind :: t) =
      .err (.incomplete (4 * doff.toNat - 4))) ∧
    (kind = 1 → SaslFrame.decode env (doff :: kind :: t) =
      .err (.incomplete (4 * doff.toNat - 4))) := by
  have key : decodeFrameHeader kind (doff :: kind :: t) =
      .err (.incomplete (4 * doff.toNat - 4)) := by
    have h1 : ¬ (doff :: kind :: t).length < 4 := by simp only [List.length_cons]; omega
    have h2 : ¬ (doff.toNat * 4 < headerLen) := by show ¬ _ < 8; omega
    have h3 : (doff :: kind :: t).length < doff.toNat * 4 - headerLen + 4 := by
      show _ < _ - 8 + 4
      simp only [List.length_cons]; omega
    have h4 : doff.toNat * 4 - headerLen + 4 = 4 * doff.toNat - 4 := by
      show _ - 8 + 4 = _
      omega
    simp only [decodeFrameHeader, if_neg h1, List.getD_cons_zero, List.getD_cons_succ, ne_eq,
      not_true, if_false, if_neg h2, h4]
    rw [h4] at h3
    rw [if_pos h3]
  refine ⟨fun h => ?_, fun h => ?_⟩
  · subst h
    show ((decodeFrameHeader 0 : Dec _) >>= _) _ = _
    exact Dec.bind_err key
  · subst h
    show ((decodeFrameHeader 1 : Dec _) >>= _) _ = _
    exact Dec.bind_err key

/-- **C69**: less than the fixed part of the header. -/
theorem C69_frame_start (env : Env) (i : Bytes) (h : i.length < 4) :
    AmqpFrame.decode env i = .err (.incomplete 4) ∧ SaslFrame.decode env i = .err (.incomplete 4) := by
  have key : ∀ kind, decodeFrameHeader kind i = .err (.incomplete 4) := fun kind => by
    simp only [decodeFrameHeader, if_pos h]
  exact ⟨Dec.bind_err (key 0), Dec.bind_err (key 1)⟩

/-- **C69**: frames. -/
theorem C69_frames (env : Env) (i : Bytes) (e : ParseError) :
    (Frame.decode env i = .err e → Explains (Faulty.fields Frame) (Faulty.options Frame) i e) ∧
    (AmqpFrame.decode env i = .err e →
      ExplainsFrame 0 (Faulty.fields Frame) (Faulty.options Frame) i e) ∧
    (SaslFrame.decode env i = .err e →
      ExplainsFrame 1 (Faulty.fields SaslFrameBody) (Faulty.options SaslFrameBody) i e) := by
  refine ⟨fun h => ?_, fun h => ?_, fun h => ?_⟩
  · have := Frame.tells env i i List.infix_rfl
    rw [h] at this
    exact this
  · exact frame_explained (f := fun c p => (⟨c, p⟩ : AmqpFrame)) (Frame.tells env) h
  · exact frame_explained (f := fun _ b => (⟨b⟩ : SaslFrame))
      (tells_decode (α := SaslFrameBody) env) h

/-- No decoder reports an unknown `Role`. -/
theorem C69_role (env : Env) (i : Bytes) (name : String) :
    decode Role env i ≠ .err (.unknownEnumOption name) := fun h => by
  obtain ⟨o, ho, hu⟩ := C69_restricted.2.2.2.1 env i _ h
  simp only [Faulty.options, List.mem_singleton, Prod.mk.injEq] at ho
  obtain ⟨-, rfl⟩ := ho
  exact hu

section
set_option maxRecDepth 8000

-- Each kind of complaint is made.
example : decode SaslOutcome debugEnv [0, 0x53, 0x44, 0xc0, 3, 1, 0x50, 7] =
    .err (.unknownEnumOption "SaslCode") := by rfl
example : decode SaslOutcome debugEnv [0, 0x53, 0x44, 0x45] = .err (.requiredFieldOmitted "code") := by
  rfl
example : decode SaslOutcome debugEnv [0, 0x53, 0x45, 0x45] =
    .err (.invalidDescriptor (.ulong 0x45)) := by rfl
example : decode SaslOutcome debugEnv [0, 0x53, 0x44, 0x46] = .err (.invalidFormatCode 0x46) := by rfl
example : decode Str debugEnv [0xa1, 1, 0xff] = .err (.utf8Error ⟨0, some 1⟩) := by rfl
example : decode Char debugEnv [0x73, 0, 0, 0xd8, 0] = .err (.invalidChar 0xd800) := by rfl
example : SaslFrame.decode debugEnv [2, 0, 0, 0] = .err (.unexpectedFrameType 0) := by rfl
example : SaslFrame.decode debugEnv [1, 1, 0, 0] = .err .invalidSize := by rfl
example : Explains (Faulty.fields SaslOutcome) (Faulty.options SaslOutcome)
    [0, 0x53, 0x44, 0xc0, 3, 1, 0x50, 7] (.unknownEnumOption "SaslCode") :=
  ⟨_, List.mem_singleton.2 rfl, 7, by decide, by decide⟩
example : ¬ Explains (Faulty.fields SaslOutcome) (Faulty.options SaslOutcome) [0, 0x53, 0x44]
    (.requiredFieldOmitted "code") := by
  rintro ⟨k, n, -, -, ⟨-, h⟩ | ⟨-, size, h⟩ | ⟨-, size, -, h⟩⟩
  · revert h; decide
  · exact absurd (h.subset (List.mem_cons_self ..)) (by decide)
  · exact absurd (h.subset (List.mem_cons_self ..)) (by decide)
end

/-! ## C70 -/

/-- **C70** as it should hold of every type: answers other than `Incomplete` are final,
and `Incomplete` is answered only while more input can change the answer. -/
def C70_statement (α : Type) [DecodeF α] : Prop :=
  ∀ env, Final (decode α env) ∧ Hopeful (decode α env)

/-- **C70** is violated: a field that does not fit the list it is in is answered with
`Incomplete`, whatever follows. -/
theorem C70_violated_list (env : Env) (more : Bytes) :
    decode Close env ([0, 0x53, 0x18, 0xc0, 1, 1] ++ more) = .err (.incomplete 1) := by
  obtain ⟨c, d⟩ := env
  cases c <;> rfl

/-- **C70** is violated: an entry that does not fit the map it is in is answered with
`Incomplete`, whatever follows. -/
theorem C70_violated_map (env : Env) (more : Bytes) :
    decode Map env ([0xc1, 1, 2] ++ more) = .err (.incomplete 1) := by
  have h : ∀ {β : Type} (d : Dec β), d [] = .err (.incomplete 1) →
      withSlice 0 d more = .err (.incomplete 1) := fun d h => by
    unfold withSlice
    rw [if_neg (Nat.not_lt_zero _), List.take_zero, h]
  have h2 := h (mapLoop (decode Variant env) (decode Variant env) 1 []) (by rfl)
  have h3 : decodeMapHeader env 0xc1 (1 :: 2 :: more) = .ok (more, ⟨0, 2⟩) := by
    obtain ⟨c, d⟩ := env
    cases c <;> rfl
  show (HMap.mk <$> decodeMapWith (decode Variant env) (decode Variant env) env 0xc1)
    (1 :: 2 :: more) = _
  have h4 : decodeMapWith (decode Variant env) (decode Variant env) env 0xc1 (1 :: 2 :: more) =
      .err (.incomplete 1) := by
    rw [decodeMapWith, Dec.run_bind, h3]
    exact h2
  rw [Dec.run_map, h4]

theorem C70_violated : ¬ C70_statement Close ∧ ¬ C70_statement Map := by
  refine ⟨fun h => ?_, fun h => ?_⟩
  · obtain ⟨more, hm⟩ := (h debugEnv).2 _ 1 (C70_violated_list debugEnv [])
    exact hm 1 (C70_violated_list debugEnv more)
  · obtain ⟨more, hm⟩ := (h debugEnv).2 _ 1 (C70_violated_map debugEnv [])
    exact hm 1 (C70_violated_map debugEnv more)

theorem finalHopeful {α : Type} [DecodeF α] [FinalDec α] [HopefulDec α] : C70_statement α :=
  fun env => ⟨final_decode env, hopeful_decode env⟩

/-- **C70** for fixed-width values, text, binaries, descriptors, arrays of them and the
restricted types. -/
theorem C70_scalars_partial : C70_statement Bool ∧ C70_statement UInt8 ∧ C70_statement UInt16 ∧
    C70_statement UInt32 ∧ C70_statement UInt64 ∧ C70_statement Int8 ∧ C70_statement Int16 ∧
    C70_statement Int32 ∧ C70_statement Int64 ∧ C70_statement F32 ∧ C70_statement F64 ∧
    C70_statement Char ∧ C70_statement DateTime ∧ C70_statement Uuid ∧ C70_statement Binary ∧
    C70_statement Str ∧ C70_statement Symbol ∧ C70_statement Descriptor :=
  ⟨finalHopeful, finalHopeful, finalHopeful, finalHopeful, finalHopeful, finalHopeful,
   finalHopeful, finalHopeful, finalHopeful, finalHopeful, finalHopeful, finalHopeful,
   finalHopeful, finalHopeful, finalHopeful, finalHopeful, finalHopeful, finalHopeful⟩

/-- **C70** for arrays and the restricted types. -/
theorem C70_restricted_partial : C70_statement Symbols ∧ C70_statement (Vec Symbol) ∧
    C70_statement (Vec UInt32) ∧ C70_statement MessageId ∧ C70_statement ErrorCondition ∧
    C70_statement DistributionMode ∧ C70_statement Role ∧ C70_statement SenderSettleMode ∧
    C70_statement ReceiverSettleMode ∧ C70_statement AmqpError ∧ C70_statement ConnectionError ∧
    C70_statement SessionError ∧ C70_statement LinkError ∧ C70_statement SaslCode ∧
    C70_statement TerminusDurability ∧ C70_statement TerminusExpiryPolicy :=
  ⟨finalHopeful, finalHopeful, finalHopeful, finalHopeful, finalHopeful, finalHopeful,
   finalHopeful, finalHopeful, finalHopeful, finalHopeful, finalHopeful, finalHopeful,
   finalHopeful, finalHopeful, finalHopeful, finalHopeful⟩

/-- **C70**, first half, for dynamic values and maps.  The second half is
violated (`C70_violated_map`). -/
theorem C70_final_dynamic_partial (env : Env) : Final (decode Variant env) ∧
    Final (decode VList env) ∧ Final (decode VecVariantMap env) ∧ Final (decode Map env) ∧
    Final (decode Fields env) ∧ Final (decode StringVariantMap env) ∧
    Final (decode (Option Variant) env) :=
  ⟨final_decode env, final_decode env, final_decode env, final_decode env, final_decode env,
   final_decode env, final_decode env⟩

/-- **C70**, first half, for list types and unions.  The second half is
violated (`C70_violated_list`). -/
theorem C70_final_lists_partial (env : Env) :
    (Final (decode Open env) ∧ Final (decode Begin env) ∧ Final (decode Attach env) ∧
     Final (decode Flow env) ∧ Final (decode Transfer env) ∧ Final (decode Disposition env) ∧
     Final (decode Detach env) ∧ Final (decode End env) ∧ Final (decode Close env)) ∧
    (Final (decode SaslMechanisms env) ∧ Final (decode SaslInit env) ∧
     Final (decode SaslChallenge env) ∧ Final (decode SaslResponse env) ∧
     Final (decode SaslOutcome env)) ∧
    (Final (decode Error env) ∧ Final (decode Source env) ∧ Final (decode Target env) ∧
     Final (decode Received env) ∧ Final (decode Accepted env) ∧ Final (decode Rejected env) ∧
     Final (decode Released env) ∧ Final (decode Modified env) ∧ Final (decode Header env) ∧
     Final (decode Properties env)) ∧
    (Final (decode DeliveryState env) ∧ Final (decode Outcome env) ∧
     Final (decode SaslFrameBody env) ∧ Final (decode Section env)) :=
  ⟨⟨final_decode env, final_decode env, final_decode env, final_decode env, final_decode env,
    final_decode env, final_decode env, final_decode env, final_decode env⟩,
   ⟨final_decode env, final_decode env, final_decode env, final_decode env, final_decode env⟩,
   ⟨final_decode env, final_decode env, final_decode env, final_decode env, final_decode env,
    final_decode env, final_decode env, final_decode env, final_decode env, final_decode env⟩,
   ⟨final_decode env, final_decode env, final_decode env, final_decode env⟩⟩

/-- **C70**, first half, for frames and messages. -/
theorem C70_final_frames_partial (env : Env) (order : StringVariantMap → List (Str × Variant)) :
    Final (Frame.decode env) ∧ Final (AmqpFrame.decode env) ∧ Final (SaslFrame.decode env) ∧
    Final (InMessage.decode env) ∧ Final (OutMessage.decode env order) :=
  ⟨Frame.final env, AmqpFrame.final env, SaslFrame.final env, Message.final env _,
   Message.final env _⟩

set_option maxRecDepth 8000 in
/-- A wrong descriptor is refused before the list has arrived, and again after. -/
example (more : Bytes) : decode Close debugEnv ([0, 0x53, 0x19] ++ more) =
    .err (.invalidDescriptor (.ulong 0x19)) :=
  (C70_final_lists_partial debugEnv).1.2.2.2.2.2.2.2.2 _ _ (by rfl) rfl more

/-- Text that has not arrived. -/
example : decode Str debugEnv [0xa1, 3, 0x41] = .err (.incomplete 3) ∧
    decode Str debugEnv ([0xa1, 3, 0x41] ++ [0x42, 0x43]) = .ok ([], .lit "ABC") :=
  ⟨by rfl, by rfl⟩

example (env : Env) : AmqpFrame.decode env [4, 0, 0, 7, 1, 2, 3] = .err (.incomplete 12) :=
  (C69_frame_header env 4 0 [0, 7, 1, 2, 3] (by decide) (by decide) (by decide)).1 rfl

end Amqp
