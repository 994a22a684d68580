import Verif.Proofs.PanicFrames
import Verif.Props.Laws
import Verif.Spec.Panics
/-!
# Panics and stack use

C09, C44.  `Spec/Panics.lean` lists the features of an input a panic can be
blamed on.
-/
set_option autoImplicit false
namespace Amqp
open Dec

/-- All the types with a codec, maps and arrays included. -/
theorem every_panicLaw {P : ∀ (α : Type) [Encode α] [DecodeF α], Prop}
    (h : ∀ (α : Type) [Encode α] [DecodeF α] [PanicLaw α], P α) : EveryType P := by
  unfold EveryType
  repeat' apply And.intro
  all_goals apply h

/-- The decoders of maps, arrays, transfers, frames and messages. -/
structure EveryDecoder (env : Env) (P : ∀ {α : Type}, Dec α → Prop) : Prop where
  types : EveryType fun α _ _ => P (decode α env)
  symbolMap : P (decode (HMap Symbol Variant) env)
  stringMap : P (decode (HMap Str Variant) env)
  variantMap : P (decode (HMap Variant Variant) env)
  symbols : P (decode (Vec Symbol) env)
  multiple : P (decode (Multiple Symbol) env)
  transfer : P (decode Transfer env)
  frame : P (Frame.decode env)
  amqpFrame : P (AmqpFrame.decode env)
  saslFrame : P (SaslFrame.decode env)
  inMessage : P (InMessage.decode env)
  outMessage : ∀ order, P (OutMessage.decode env order)

/-! ## C09 -/

/-- **C09** (partial): every panic of a decoder is due to one of the features of
the input listed in `PanicCause`. -/
theorem C09_causes_partial (env : Env) : EveryDecoder env fun {_} dec => ∀ i p, dec i = .panic p →
    PanicCause env.overflowChecks env.stackDepth i p where
  types := every_panicLaw fun _ _ _ _ => blames_decode env
  symbolMap := blames_decode env
  stringMap := blames_decode env
  variantMap := blames_decode env
  symbols := blames_decode env
  multiple := blames_decode env
  transfer := blames_decode env
  frame := Frame.blames env
  amqpFrame := AmqpFrame.blames env
  saslFrame := SaslFrame.blames env
  inMessage := Message.blames env _
  outMessage _ := Message.blames env _

/-- From one property of decoders to another. -/
theorem EveryDecoder.imp {env : Env} {P Q : ∀ {α : Type}, Dec α → Prop}
    (h : ∀ {α : Type} (d : Dec α), P d → Q d) (hp : EveryDecoder env P) : EveryDecoder env Q where
  types := by
    have := hp.types
    unfold EveryType at this ⊢
    revert this
    repeat' apply And.imp
    all_goals exact h _
  symbolMap := h _ hp.symbolMap
  stringMap := h _ hp.stringMap
  variantMap := h _ hp.variantMap
  symbols := h _ hp.symbols
  multiple := h _ hp.multiple
  transfer := h _ hp.transfer
  frame := h _ hp.frame
  amqpFrame := h _ hp.amqpFrame
  saslFrame := h _ hp.saslFrame
  inMessage := h _ hp.inMessage
  outMessage o := h _ (hp.outMessage o)

/-- **C09** (partial): inputs without those features never make a decoder panic.
Missing: the other inputs, some of which do panic (below). -/
theorem C09_harmless_partial (env : Env) : EveryDecoder env fun {_} dec =>
    ∀ i p, Harmless env i → dec i ≠ .panic p :=
  (C09_causes_partial env).imp fun _ h i p hh hp => hh p (h i p hp)

/-- **C09** (partial): without overflow checks, an input that contains none of
the bytes 0x83, 0xc1, 0xd1, 0xe0, 0xf0 and is not longer than three bytes for
each level of the stack budget never makes a decoder panic. -/
theorem C09_release_partial (env : Env) (hr : env.overflowChecks = false) :
    EveryDecoder env fun {_} dec => ∀ i p,
      (∀ b ∈ i, b ∉ [0x83, 0xc1, 0xd1, 0xe0, 0xf0]) → i.length ≤ 3 * env.stackDepth →
      dec i ≠ .panic p :=
  (C09_causes_partial env).imp fun _ h i p hb hl hp => by
    have hc := h i p hp
    cases p with
    | overflow => rw [hr] at hc; cases hc.1
    | sliceIndex =>
      obtain ⟨c, hc, hm⟩ := hc
      exact hb c hm (by rcases hc with rfl | rfl | rfl | rfl <;> decide)
    | unimplemented =>
      obtain ⟨c, hm, hc⟩ := List.countP_pos_iff.1 (Nat.lt_of_lt_of_le Nat.zero_lt_two hc)
      refine hb c hm ?_
      simp only [isMapCode, Bool.or_eq_true, beq_iff_eq] at hc
      rcases hc with rfl | rfl <;> decide
    | timestampRange =>
      obtain ⟨m, -, hm⟩ := hc
      exact hb 0x83 (hm.subset (List.mem_cons_self ..)) (by decide)
    | stackOverflow => exact absurd hc (by show ¬ _ < _; omega)
    | bufferFull => exact hc

/-- A frame with a `begin`. -/
def plainBegin : Bytes :=
  [2, 0, 0, 1, 0x00, 0x53, 0x11, 0xc0, 8, 4, 0x40, 0x43, 0x52, 5, 0x52, 9]

example : ¬ [0xc0, 0] <:+: plainBegin := by decide
example : Harmless debugEnv plainBegin := by
  intro p hp
  cases p with
  | overflow =>
    rcases hp.2 with ⟨c, hc, hi⟩ | ⟨c, n, hc, -, hi⟩
    · rcases hc with rfl | rfl | rfl <;> revert hi <;> decide
    · have := hi.subset (List.mem_cons_self ..)
      rcases hc with rfl | rfl | rfl <;> revert this <;> decide
  | sliceIndex =>
    obtain ⟨c, hc, hi⟩ := hp
    rcases hc with rfl | rfl | rfl | rfl <;> revert hi <;> decide
  | unimplemented => revert hp; show ¬ 2 ≤ plainBegin.countP isMapCode; decide
  | timestampRange =>
    obtain ⟨m, -, hi⟩ := hp
    have := hi.subset (List.mem_cons_self ..)
    revert this; decide
  | stackOverflow => revert hp; show ¬ 3 * 100 < plainBegin.length; decide
  | bufferFull => exact hp
example : (∀ b ∈ plainBegin, b ∉ [0x83, 0xc1, 0xd1, 0xe0, 0xf0]) ∧
    plainBegin.length ≤ 3 * releaseEnv.stackDepth := by decide

/-- **C09** is violated: a list, map or array announcing no room for its count
makes the decoder panic where overflow is checked, whatever follows. -/
theorem C09_violated_overflow (env : Env) (h : env.overflowChecks = true) (n : UInt8)
    (rest : Bytes) :
    decode VList env (0xc0 :: 0 :: n :: rest) = .panic .overflow ∧
    decode (HMap Symbol Variant) env (0xc1 :: 0 :: n :: rest) = .panic .overflow ∧
    decode (Vec Symbol) env (0xe0 :: 0 :: n :: rest) = .panic .overflow ∧
    AmqpFrame.decode env ([2, 0, 0, 0, 0x00, 0x53, 0x10, 0xc0, 0, n] ++ rest) =
      .panic .overflow := by
  obtain ⟨c, d⟩ := env
  cases h
  exact ⟨rfl, rfl, rfl, rfl⟩

/-- **C09** is violated: a map announcing more bytes than there are makes the
decoder panic, with or without overflow checks. -/
theorem C09_violated_map (env : Env) (s n : UInt8) (rest : Bytes)
    (h : rest.length + 1 < s.toNat) :
    decode (HMap Symbol Variant) env (0xc1 :: s :: n :: rest) = .panic .sliceIndex ∧
    decode (HMap Str Variant) env (0xc1 :: s :: n :: rest) = .panic .sliceIndex ∧
    decode VecVariantMap env (0xc1 :: s :: n :: rest) = .panic .sliceIndex ∧
    decode Section env (0x00 :: 0x53 :: 0x74 :: 0xc1 :: s :: n :: rest) = .panic .sliceIndex := by
  have hs : 1 ≤ s.toNat := by omega
  have hd : decodeMapHeader env 0xc1 (s :: n :: rest) = .ok (rest, ⟨s.toNat - 1, n.toNat⟩) := by
    show (takeN 2 >>= fun hdr => subChecked env 8 (hdr.getD 0 0).toNat 1 >>= fun size =>
      pure (⟨size, (hdr.getD 1 0).toNat⟩ : CompoundHeader)) (s :: n :: rest) = _
    refine (bind_ok (a := [s, n]) (r := rest) rfl).trans ?_
    refine bind_ok (a := s.toNat - 1) (r := rest) ?_
    show subChecked env 8 s.toNat 1 _ = _
    unfold subChecked
    rw [if_pos hs]; rfl
  have hw : ∀ {α : Type} (x : Dec α), withSlice (s.toNat - 1) x rest = .panic .sliceIndex := by
    intro α x
    simp only [withSlice]
    rw [if_pos (by omega)]
  have hm : ∀ {K V : Type} [HKey K] (kd : Dec K) (vd : Dec V),
      decodeMapWith kd vd env 0xc1 (s :: n :: rest) = .panic .sliceIndex := by
    intro K V _ kd vd
    exact bind_eq_panic.2 (.inr ⟨_, _, hd, hw _⟩)
  refine ⟨map_eq_panic.2 (hm _ _), map_eq_panic.2 (hm _ _), ?_, ?_⟩
  · rw [decode_cons]
    exact bind_eq_panic.2 (.inr ⟨_, _, hd, map_eq_panic.2 (hw _)⟩)
  exact map_eq_panic.2 (map_eq_panic.2 (hm _ _))

/-- **C09** is violated: an array announcing items but ending before their
constructor makes the decoder panic, for every type of items. -/
theorem C09_violated_array {α : Type} [DecodeF α] (env : Env) (s n : UInt8) (h : 0 < s.toNat) :
    decode (Vec α) env [0xe0, s, n] = .panic .sliceIndex := by
  have hd : decodeArrayHeader env 0xe0 [s, n] = .ok ([], ⟨s.toNat - 1, n.toNat⟩) := by
    show (takeN 2 >>= fun hdr => subChecked env 8 (hdr.getD 0 0).toNat 1 >>= fun size =>
      pure (⟨size, (hdr.getD 1 0).toNat⟩ : CompoundHeader)) [s, n] = _
    refine (bind_ok (a := [s, n]) (r := []) rfl).trans ?_
    refine bind_ok (a := s.toNat - 1) (r := []) ?_
    show subChecked env 8 s.toNat 1 _ = _
    unfold subChecked
    rw [if_pos (show 1 ≤ s.toNat from h)]; rfl
  rw [decode_cons]
  exact bind_eq_panic.2 (.inr ⟨_, _, hd, bind_eq_panic.2 (.inl rfl)⟩)

/-- **C09** is violated: a map with a map as key makes the decoder panic. -/
theorem C09_violated_key (c : Bool) (d : Nat) :
    decode Variant ⟨c, d + 2⟩ [0xc1, 5, 2, 0xc1, 1, 0, 0x40] = .panic .unimplemented := by
  cases c <;> rfl

/-- **C09** is violated: an instant out of `chrono`'s range makes the decoder
panic. -/
theorem C09_violated_timestamp (env : Env) (m : Int64) (rest : Bytes) (h : OutOfRange m) :
    decode DateTime env (timestampWire m ++ rest) = .panic .timestampRange :=
  C12_violated_out_of_range env m rest h

/-- A frame with an `open` whose properties announce more bytes than there are. -/
def hostileOpen : Bytes :=
  [2, 0, 0, 0, 0x00, 0x53, 0x10, 0xc0, 14, 10, 0xa1, 0, 0x40, 0x40, 0x40, 0x40, 0x40, 0x40, 0x40,
   0x40, 0xc1, 5, 0]

example : (8 : UInt8).toNat > [(1 : UInt8)].length + 1 := by decide
example : OutOfRange 8210298412800000 := by unfold OutOfRange; decide

set_option maxRecDepth 8000 in
/-- **C09** is violated by the first frame of a connection, in both build modes. -/
theorem C09_violated_open (c : Bool) (d : Nat) :
    AmqpFrame.decode ⟨c, d⟩ hostileOpen = .panic .sliceIndex := by
  cases c <;> rfl

/-! ## C44 -/

/-- `n` descriptors around a null. -/
def tower : Nat → Variant
  | 0 => .null
  | n + 1 => .described (.ulong 1) (tower n)

theorem enc_tower : ∀ n, enc (tower n) = (List.replicate n [0x00, 0x53, 0x01]).flatten ++ [0x40]
  | 0 => rfl
  | n + 1 => by
    have : enc (tower (n + 1)) = [0x00, 0x53, 0x01] ++ enc (tower n) := rfl
    rw [this, enc_tower n, List.replicate_succ]; simp

theorem tower_overflow (env : Env) : ∀ (d : Nat) (rest : Bytes),
    (formatCode >>= fun f => decVariant env d f) (enc (tower d) ++ rest) = .panic .stackOverflow
  | 0, _ => rfl
  | d + 1, rest => by
    have e : enc (tower (d + 1)) ++ rest = [0x00, 0x53, 0x01] ++ (enc (tower d) ++ rest) := by
      show ([0x00, 0x53, 0x01] ++ enc (tower d)) ++ rest = _
      rw [List.append_assoc]
    rw [e]
    have ih := tower_overflow env d rest
    show (decode Descriptor env >>= fun x => (formatCode >>= fun f => decVariant env d f) >>= fun v =>
      pure (Variant.described x v)) ([0x53, 0x01] ++ (enc (tower d) ++ rest)) = _
    exact bind_eq_panic.2 (.inr ⟨enc (tower d) ++ rest, .ulong 1, rfl, bind_eq_panic.2 (.inl ih)⟩)

/-- **C44** is violated: whatever the stack, there is a value whose own encoding,
of three bytes for each level of the stack and one more, overflows it. -/
theorem C44_violated (env : Env) (rest : Bytes) :
    (enc (tower env.stackDepth)).length = 3 * env.stackDepth + 1 ∧
    decode Variant env (enc (tower env.stackDepth) ++ rest) = .panic .stackOverflow ∧
    decode Section env ([0x00, 0x53, 0x77] ++ enc (tower env.stackDepth) ++ rest) =
      .panic .stackOverflow := by
  have h : decode Variant env (enc (tower env.stackDepth) ++ rest) = .panic .stackOverflow := by
    have := tower_overflow env env.stackDepth rest
    rw [enc_tower] at this ⊢
    cases hi : (List.replicate env.stackDepth [0x00, 0x53, 0x01]).flatten ++ [0x40] ++ rest with
    | nil => simp at hi
    | cons f t =>
      rw [hi] at this
      exact this
  refine ⟨?_, h, ?_⟩
  · rw [enc_tower]
    have : ∀ n, (List.replicate n [(0x00 : UInt8), 0x53, 0x01]).flatten.length = 3 * n := by
      intro n
      induction n with
      | zero => rfl
      | succ n ih => rw [List.replicate_succ, List.flatten_cons, List.length_append, ih]; simp; omega
    rw [List.length_append, this]; rfl
  · rw [List.append_assoc]
    exact map_eq_panic.2 h

/-- **C44**: a stack budget of a third of the input's length is enough for every
decoder. -/
theorem C44_enough (env : Env) : EveryDecoder env fun {_} dec => ∀ i,
    i.length ≤ 3 * env.stackDepth → dec i ≠ .panic .stackOverflow :=
  (C09_causes_partial env).imp fun _ h i hl hp => by
    have : 3 * env.stackDepth < i.length := h i _ hp
    omega

example : plainBegin.length ≤ 3 * Env.stackDepth ⟨true, 6⟩ := by decide
example : enc (tower 2) = [0x00, 0x53, 0x01, 0x00, 0x53, 0x01, 0x40] := rfl
example : decode Variant ⟨true, 2⟩ (enc (tower 2)) = .panic .stackOverflow := rfl
example : decode Variant ⟨true, 3⟩ (enc (tower 2)) = .ok ([], tower 2) := rfl

end Amqp
