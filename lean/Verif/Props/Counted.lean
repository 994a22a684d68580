import Verif.Proofs.CountedFrames
import Verif.Proofs.CountedFloor
import Verif.Props.Resources
/-!
# Work and memory of decoding

C68: decoding takes work proportional to the input.
C53, for all types, messages and frames: room reserved while decoding.

Each `Thrifty` states that the counting decoder decodes as the modelled one does,
makes at most three calls per byte of input whatever the outcome, requests room for
no more elements than the input has bytes if it succeeds, and for at most
`2^32 - 1` elements per byte in any case, and goes through bytes of texts, binaries and
payloads, to check or copy them, at most twice as often as the input has bytes.
-/
set_option autoImplicit false
namespace Amqp
open Dec Cost

theorem thrifty_type {α : Type} [DecodeF α] [DecodeC α] [MeteredD α] : ThriftyType α :=
  fun env => (MeteredD.met env).thrifty

/-! ## The values -/

theorem C68_scalars : ThriftyType Bool ∧ ThriftyType UInt8 ∧ ThriftyType UInt16 ∧
    ThriftyType UInt32 ∧ ThriftyType UInt64 ∧ ThriftyType Int8 ∧ ThriftyType Int16 ∧
    ThriftyType Int32 ∧ ThriftyType Int64 ∧ ThriftyType F32 ∧ ThriftyType F64 ∧ ThriftyType Char ∧
    ThriftyType DateTime ∧ ThriftyType Uuid ∧ ThriftyType Binary ∧ ThriftyType Str ∧
    ThriftyType Symbol ∧ ThriftyType Descriptor :=
  ⟨thrifty_type, thrifty_type, thrifty_type, thrifty_type, thrifty_type, thrifty_type, thrifty_type,
    thrifty_type, thrifty_type, thrifty_type, thrifty_type, thrifty_type, thrifty_type, thrifty_type,
    thrifty_type, thrifty_type, thrifty_type, thrifty_type⟩

theorem C68_dynamic : ThriftyType Variant ∧ ThriftyType VList ∧ ThriftyType VecVariantMap ∧
    ThriftyType Map ∧ ThriftyType Fields ∧ ThriftyType StringVariantMap ∧ ThriftyType FilterSet ∧
    ThriftyType (Vec Symbol) ∧ ThriftyType Symbols :=
  ⟨thrifty_type, thrifty_type, thrifty_type, thrifty_type, thrifty_type, thrifty_type, thrifty_type,
    thrifty_type, thrifty_type⟩

/-- The codes of values with data of fixed width. -/
def dataCodes : List UInt8 :=
  [0x50, 0x51, 0x52, 0x53, 0x54, 0x55, 0x56, 0x60, 0x61, 0x70, 0x71, 0x72, 0x73, 0x80, 0x81, 0x82,
    0x83, 0x98]

/-- **C68**, exactly for a dynamic value other than a text, a binary, a list, a map or a described
one: two calls if it has data, one if its code says it all or is not known, whatever follows; no
room, and no bytes gone through. -/
theorem C68_plain_exact (p : Price) (env : Env) (d : Nat) (fmt : UInt8)
    (h : fmt ∉ [0x00, 0xc0, 0xd0, 0xc1, 0xd1, 0xa0, 0xb0, 0xa1, 0xb1, 0xa3, 0xb3]) (i : Bytes) :
    (decVariantP p env (d + 1) fmt i).2 = (if fmt ∈ dataCodes then 2 else 1) * p.call := by
  simp only [List.mem_cons, List.not_mem_nil, or_false, not_or] at h
  obtain ⟨h1, h2, h3, h4, h5, h6, h7, h8, h9, h10, h11⟩ := h
  have e : delegated fmt = decide (fmt ∈ dataCodes) := by
    rw [Bool.eq_iff_iff, decide_eq_true_iff]
    simp only [delegated, dataCodes, List.contains_iff_mem, List.mem_cons, List.not_mem_nil,
      or_false, FC.boolean, FC.ubyte, FC.ushort, FC.uint, FC.ulong, FC.byte, FC.short, FC.int,
      FC.long, FC.smallUint, FC.smallUlong, FC.smallInt, FC.smallLong, FC.float, FC.double,
      FC.char, FC.timestamp, FC.uuid]
    constructor <;> (intro h; rcases h with h | h | h | h | h | h | h | h | h | h | h | h | h | h |
      h | h | h | h <;> simp [h])
  have hl : ¬ (fmt = FC.list8 ∨ fmt = FC.list32) := not_or.2 ⟨h2, h3⟩
  have hm : ¬ (fmt = FC.map8 ∨ fmt = FC.map32) := not_or.2 ⟨h4, h5⟩
  have hd : ¬ fmt = FC.described := h1
  have hb : ¬ (fmt = FC.binary8 ∨ fmt = FC.binary32) := not_or.2 ⟨h6, h7⟩
  have hs : ¬ (fmt = FC.string8 ∨ fmt = FC.string32) := not_or.2 ⟨h8, h9⟩
  have hy : ¬ (fmt = FC.symbol8 ∨ fmt = FC.symbol32) := not_or.2 ⟨h10, h11⟩
  unfold decVariantP
  rw [if_neg hl, if_neg hm, if_neg hd, if_neg hb, if_neg hs, if_neg hy, e]
  by_cases hm : fmt ∈ dataCodes
  · simp only [decide_eq_true hm, if_pos hm]
    show p.call + (p.call + 0) = _
    omega
  · simp only [decide_eq_false hm, if_neg hm]
    show p.call + 0 = _
    omega

example : (decVariantP .calls debugEnv 1 0x51 [7]).2 = 2 := rfl

/-- Data with its length before it, in one byte or in four. -/
def lengthAndData (wide : Bool) (data : Bytes) : Bytes :=
  (if wide then beEnc 4 data.length else [UInt8.ofNat data.length]) ++ data

theorem lengthAndData_u8 {data : Bytes} (h : data.length < 256) (rest : Bytes) :
    readBytesU8 (lengthAndData false data ++ rest) = .ok (rest, data) := by
  show (readU8 >>= fun len => takeN len.toNat) (UInt8.ofNat data.length :: (data ++ rest)) = _
  show takeN (UInt8.ofNat data.length).toNat (data ++ rest) = _
  rw [UInt8.toNat_ofNat_of_lt' h]
  exact Reads.takeN data rfl rest
theorem lengthAndData_u32 {data : Bytes} (h : data.length < 2 ^ 32) (rest : Bytes) :
    readBytesU32 (lengthAndData true data ++ rest) = .ok (rest, data) := by
  unfold readBytesU32
  show (readBE 4 >>= fun len => takeN len) ((beEnc 4 data.length ++ data) ++ rest) = _
  have e : readBE 4 (beEnc 4 data.length ++ (data ++ rest)) = .ok (data ++ rest, data.length) := by
    unfold readBE
    refine map_eq_ok.2 ⟨_, Reads.takeN (beEnc 4 data.length) (by simp) _, ?_⟩
    rw [beDec_beEnc]; exact Nat.mod_eq_of_lt h
  rw [Dec.run_bind, List.append_assoc, e]
  exact Reads.takeN data rfl rest

theorem cost_map {α β : Type} (c : Cost α) (f : α → β) (i : Bytes) :
    ((c >>= fun a => pure (f a)) i).2 = (c i).2 := by
  rw [Cost.run_bind]
  rcases c i with ⟨x, n⟩
  cases x <;> rfl

/-- **C68**, exactly for binaries, whatever follows: two calls, and the data is gone through once. -/
theorem C68_binary_exact (p : Price) (env : Env) (d : Nat) (wide : Bool) (data rest : Bytes)
    (h : data.length < if wide then 2 ^ 32 else 256) :
    (decVariantP p env (d + 1) (if wide then 0xb0 else 0xa0) (lengthAndData wide data ++ rest)).2 =
      2 * p.call + data.length * p.byte := by
  have key : ∀ rd : Dec Bytes, rd (lengthAndData wide data ++ rest) = .ok (rest, data) →
      p.call + (((Cost.call p >>= fun _ => copyC p rd >>= fun b => pure (⟨b⟩ : Binary)) >>= fun b =>
        (pure (.binary b) : Cost Variant)) (lengthAndData wide data ++ rest)).2 =
      2 * p.call + data.length * p.byte := by
    intro rd e
    rw [cost_map]
    show p.call + (p.call + ((copyC p rd >>= fun b => pure (⟨b⟩ : Binary)) _).2) = _
    rw [cost_map, copyC_run, e]
    show p.call + (p.call + data.length * p.byte) = _
    omega
  cases wide with
  | false => exact key _ (lengthAndData_u8 h rest)
  | true => exact key _ (lengthAndData_u32 h rest)

/-- **C68**, exactly for texts: two calls, and the data is gone through once to check it and, if it
is UTF-8, once more to copy it. -/
theorem C68_text_exact (p : Price) (env : Env) (d : Nat) (symbol wide : Bool) (data rest : Bytes)
    (h : data.length < if wide then 2 ^ 32 else 256) :
    (decVariantP p env (d + 1)
      (if symbol then (if wide then 0xb3 else 0xa3) else if wide then 0xb1 else 0xa1)
      (lengthAndData wide data ++ rest)).2 =
      2 * p.call + (if validUtf8 data then 2 else 1) * (data.length * p.byte) := by
  have text : ∀ rd : Dec Bytes, rd (lengthAndData wide data ++ rest) = .ok (rest, data) →
      (textC p rd (lengthAndData wide data ++ rest)).2 =
        (if validUtf8 data then 2 else 1) * (data.length * p.byte) := by
    intro rd e
    rw [textC_run, e]
    dsimp only
    unfold fromUtf8
    by_cases hv : validUtf8 data = true
    · simp [hv]
    · simp [hv]
  have k1 : ∀ rd : Dec Bytes, rd (lengthAndData wide data ++ rest) = .ok (rest, data) →
      p.call + (((Cost.call p >>= fun _ => textC p rd) >>= fun b =>
        (pure (.string b) : Cost Variant)) (lengthAndData wide data ++ rest)).2 =
      2 * p.call + (if validUtf8 data then 2 else 1) * (data.length * p.byte) := by
    intro rd e
    rw [cost_map]
    show p.call + (p.call + (textC p rd _).2) = _
    rw [text rd e]
    omega
  have k2 : ∀ rd : Dec Bytes, rd (lengthAndData wide data ++ rest) = .ok (rest, data) →
      p.call + (((Cost.call p >>= fun _ => textC p rd >>= fun s => pure (⟨s⟩ : Symbol)) >>= fun b =>
        (pure (.symbol b) : Cost Variant)) (lengthAndData wide data ++ rest)).2 =
      2 * p.call + (if validUtf8 data then 2 else 1) * (data.length * p.byte) := by
    intro rd e
    rw [cost_map]
    show p.call + (p.call + ((textC p rd >>= fun s => pure (⟨s⟩ : Symbol)) _).2) = _
    rw [cost_map, text rd e]
    omega
  cases wide with
  | false =>
    cases symbol with
    | false => exact k1 _ (lengthAndData_u8 h rest)
    | true => exact k2 _ (lengthAndData_u8 h rest)
  | true =>
    cases symbol with
    | false => exact k1 _ (lengthAndData_u32 h rest)
    | true => exact k2 _ (lengthAndData_u32 h rest)

example : (decVariantP .bytes debugEnv 1 0xa1 [2, 104, 105, 7]).2 = 4 ∧
    (decVariantP .bytes debugEnv 1 0xa1 [2, 0xff, 105, 7]).2 = 2 ∧
    (decVariantP .bytes debugEnv 1 0xa0 [2, 0xff, 105, 7]).2 = 2 := by decide +kernel

theorem C68_restricted : ThriftyType MessageId ∧ ThriftyType ErrorCondition ∧
    ThriftyType DistributionMode ∧ ThriftyType Role ∧ ThriftyType SenderSettleMode ∧
    ThriftyType ReceiverSettleMode ∧ ThriftyType TerminusDurability ∧
    ThriftyType TerminusExpiryPolicy ∧ ThriftyType AmqpError ∧ ThriftyType ConnectionError ∧
    ThriftyType SessionError ∧ ThriftyType LinkError ∧ ThriftyType SaslCode :=
  ⟨thrifty_type, thrifty_type, thrifty_type, thrifty_type, thrifty_type, thrifty_type, thrifty_type,
    thrifty_type, thrifty_type, thrifty_type, thrifty_type, thrifty_type, thrifty_type⟩

theorem C68_list_types : ThriftyType Error ∧ ThriftyType Received ∧ ThriftyType Accepted ∧
    ThriftyType Rejected ∧ ThriftyType Released ∧ ThriftyType Modified ∧ ThriftyType Source ∧
    ThriftyType Target ∧ ThriftyType Open ∧ ThriftyType Begin ∧ ThriftyType Attach ∧
    ThriftyType Flow ∧ ThriftyType Disposition ∧ ThriftyType Detach ∧ ThriftyType End ∧
    ThriftyType Close ∧ ThriftyType Transfer ∧ ThriftyType SaslMechanisms ∧ ThriftyType SaslInit ∧
    ThriftyType SaslChallenge ∧ ThriftyType SaslResponse ∧ ThriftyType SaslOutcome ∧
    ThriftyType Header ∧ ThriftyType Properties :=
  ⟨thrifty_type, thrifty_type, thrifty_type, thrifty_type, thrifty_type, thrifty_type, thrifty_type,
    thrifty_type, thrifty_type, thrifty_type, thrifty_type, thrifty_type, thrifty_type, thrifty_type,
    thrifty_type, thrifty_type, thrifty_type, thrifty_type, thrifty_type, thrifty_type, thrifty_type,
    thrifty_type, thrifty_type, thrifty_type⟩

theorem C68_unions : ThriftyType DeliveryState ∧ ThriftyType Outcome ∧ ThriftyType SaslFrameBody ∧
    ThriftyType Section :=
  ⟨thrifty_type, thrifty_type, thrifty_type, thrifty_type⟩

/-! ## Messages and frames -/

theorem C68_messages (env : Env) (order : StringVariantMap → List (Str × Variant)) :
    Thrifty (InMessage.decode env) (fun p => InMessage.decodeC p env) ∧
    Thrifty (OutMessage.decode env order) (fun p => OutMessage.decodeC p env order) :=
  ⟨Message.thrifty_decodeWith env _, Message.thrifty_decodeWith env _⟩

theorem C68_frames (env : Env) :
    Thrifty (Frame.decode env) (fun p => Frame.decodeC p env) ∧
    Thrifty (AmqpFrame.decode env) (fun p => AmqpFrame.decodeC p env) ∧
    Thrifty (SaslFrame.decode env) (fun p => SaslFrame.decodeC p env) :=
  ⟨(met_frame env).thrifty, (met_amqpFrame env).thrifty, (met_saslFrame env).thrifty⟩

/-- In particular, with the two limits spelled out: whatever bytes arrive, decoding
a frame makes at most three calls per byte. -/
theorem C68_frame_calls (env : Env) (i : Bytes) :
    (AmqpFrame.decodeC ⟨1, 0, 0⟩ env i).1 = AmqpFrame.decode env i ∧
    (AmqpFrame.decodeC ⟨1, 0, 0⟩ env i).2 ≤ 3 * i.length :=
  ⟨congrFun ((C68_frames env).2.1.same _) i, (C68_frames env).2.1.calls i⟩

/-- And bytes are gone through at most two times per byte, whatever bytes arrive. -/
theorem C68_frame_looks (env : Env) (i : Bytes) :
    (AmqpFrame.decodeC ⟨0, 0, 1⟩ env i).1 = AmqpFrame.decode env i ∧
    (AmqpFrame.decodeC ⟨0, 0, 1⟩ env i).2 ≤ 2 * i.length :=
  ⟨congrFun ((C68_frames env).2.1.same _) i, (C68_frames env).2.1.looks i⟩

/-- What follows the list of a transfer, its payload, is gone through exactly once. -/
theorem C68_payload_exact (p : Price) (env : Env) (i payload : Bytes) (t : TransferPerf)
    (h : TransferPerf.decInner env i = .ok (payload, t)) :
    spent (Transfer.decInnerC p env) i =
      spent (TransferPerf.decInnerC p env) i + payload.length * p.byte := by
  have e : (TransferPerf.decInnerC p env i).1 = .ok (payload, t) :=
    (congrFun ((TransferPerf.met_inner env).same p) i).trans h
  show ((TransferPerf.decInnerC p env >>= fun t => Transfer.withBodyC p t) i).2 = _
  rw [Cost.run_bind]
  unfold spent
  rcases hc : TransferPerf.decInnerC p env i with ⟨x, n⟩
  rw [hc] at e
  dsimp only at e
  subst e
  rfl

/-! ## Connections -/

/-- One call of the codec: it answers as the modelled one, and what it spends is paid
for by the bytes it takes out of the buffer, so waiting for the rest of a frame is
free however often it is asked. -/
theorem C68_codec (env : Env) (state : DecodeState) (src : Bytes) :
    (codecDecodeC env (AmqpFrame.decodeC ⟨1, 0, 0⟩ env) state src).1 =
      codecDecode env (AmqpFrame.decode env) state src ∧
    (codecDecodeC env (AmqpFrame.decodeC ⟨1, 0, 0⟩ env) state src).2 +
      3 * (codecDecode env (AmqpFrame.decode env) state src).src.length ≤ 3 * src.length := by
  have e : (codecDecodeC env (AmqpFrame.decodeC ⟨1, 0, 0⟩ env) state src).1 =
      codecDecode env (AmqpFrame.decode env) state src :=
    (codecDecodeC_same env _ state src).trans (by
      rw [show erase (AmqpFrame.decodeC ⟨1, 0, 0⟩ env) = AmqpFrame.decode env from
        (C68_frames env).2.1.same _])
  refine ⟨e, ?_⟩
  rw [← e]
  exact codecDecodeC_used (fun i => (C68_frames env).2.1.calls i) env state src

/-- However the bytes are cut and however often the codec is called, it makes at most
three calls of `decode_with_format` for every byte that arrived. -/
theorem C68_session (env : Env) (events : List Event) (state : DecodeState) (src : Bytes) :
    sessionSpent env (AmqpFrame.decodeC ⟨1, 0, 0⟩ env) events state src ≤
      3 * (src.length + arrived events) ∧
    sessionSpent env (SaslFrame.decodeC ⟨1, 0, 0⟩ env) events state src ≤
      3 * (src.length + arrived events) :=
  ⟨sessionSpent_le (fun i => (C68_frames env).2.1.calls i) env events state src,
    sessionSpent_le (fun i => (C68_frames env).2.2.calls i) env events state src⟩

/-- Nor are bytes of texts, binaries and payloads gone through more than twice for every byte that
arrived. -/
theorem C68_session_looks (env : Env) (events : List Event) (state : DecodeState) (src : Bytes) :
    sessionSpent env (AmqpFrame.decodeC ⟨0, 0, 1⟩ env) events state src ≤
      2 * (src.length + arrived events) ∧
    sessionSpent env (SaslFrame.decodeC ⟨0, 0, 1⟩ env) events state src ≤
      2 * (src.length + arrived events) :=
  ⟨sessionSpent_le (fun i => (C68_frames env).2.1.looks i) env events state src,
    sessionSpent_le (fun i => (C68_frames env).2.2.looks i) env events state src⟩

/-- A `Close` in two parts, asked for four times. -/
example : sessionSpent debugEnv (AmqpFrame.decodeC ⟨1, 0, 0⟩ debugEnv)
    [.poll, .arrive [0, 0, 0, 12, 2, 0, 0], .poll, .arrive [0, 0x00, 0x53, 0x18, 0x45], .poll, .poll]
    .frameHeader [] = 2 := by decide +kernel

/-! ## The counts are not too low -/

/-- A call is counted for every node of a decoded variant, room for every
element of its lists and entry of its maps, and the bytes of its binaries and texts. -/
theorem C68_counts (p : Price) (env : Env) (i r : Bytes) (v : Variant)
    (h : decode Variant env i = .ok (r, v)) : v.bill p ≤ spent (decodeC Variant p env) i := by
  have hf : Floor (Variant.bill p) (decodeC Variant p env) :=
    (Floor.zero _).bind fun f => floor_variant p env env.stackDepth f
  refine hf i r v ?_
  rw [← h]
  exact congrFun ((MeteredD.met (α := Variant) env).same p) i

/-- Arrays whose items are read by one call and take a byte each, such as those of
numbers of a fixed width. -/
theorem C68_array {α : Type} [DecodeF α] [DecodeC α] [LawfulDec α]
    (hleaf : ∀ p env fmt, decFC p env fmt = leafC p (decF (α := α) env fmt))
    (hbyte : ItemFits fun _ : α => 1) : ThriftyType (Vec α) := by
  have : MeteredItem α := { metered_leaf hleaf with
    loc := fun env fmt => LawfulDec.loc env fmt
    byte := item_progress hbyte }
  exact thrifty_type

theorem floats_take_bytes : ItemFits fun _ : F64 => 1 := by
  intro env c i r a h
  have hp : Post (decF env c : Dec F64) fun i r _ => 1 + r.length ≤ i.length := by
    refine Dec.Post.ite (Dec.Post.fail _) ?_
    intro i r a h
    obtain ⟨n, h1, rfl⟩ := map_eq_ok.1 h
    obtain ⟨b, h2, rfl⟩ := map_eq_ok.1 h1
    obtain ⟨rfl, hl⟩ := takeN_ok h2
    simp only [List.length_append]; omega
  exact hp i r a h
example : ThriftyType (Vec F64) := C68_array (fun _ _ _ => rfl) floats_take_bytes

theorem decodeNC_const {α : Type} {c : Cost α} {a : α} {k : Nat} (h : ∀ i, c i = (.ok (i, a), k)) :
    ∀ n i, (decodeNC c n i).2 = n * k
  | 0, _ => (Nat.zero_mul k).symm
  | n + 1, i => by
    have ih := decodeNC_const h n i
    have h1 : (decodeNC c n i).1 = .ok (i, List.replicate n a) := by
      have e : Cost.erase c = (fun i => .ok (i, a) : Dec α) := by
        funext i; unfold erase; rw [h]
      have := congrFun (erase_decodeN c n) i
      rw [e, decodeN_const (fun _ => rfl) n i] at this
      exact this
    unfold decodeNC
    rw [Cost.run_bind, h]
    dsimp only
    rw [Cost.run_bind]
    rcases hd : decodeNC c n i with ⟨x, m⟩
    rw [hd] at h1 ih
    dsimp only at h1 ih
    subst h1 ih
    show k + (n * k + 0) = (n + 1) * k
    rw [Nat.add_mul]; omega

/-- Other arrays: ten bytes make any number of calls below `2^32`. -/
theorem C68_array_exception (env : Env) (n : Nat) (hn : n < 2 ^ 32) :
    (zeroWidthArray n 0x41).length = 10 ∧
    spent (decodeC (Vec Bool) ⟨1, 0, 0⟩ env) (zeroWidthArray n 0x41) = n + 1 := by
  refine ⟨zeroWidthArray_length n 0x41, ?_⟩
  have h2 : decodeArrayHeader env 0xf0 (beEnc 4 5 ++ beEnc 4 n ++ [0x41]) = .ok ([0x41], ⟨1, n⟩) :=
    zeroWidthArray_hdr env n hn _
  have h3 : ∀ i, (decodeNC (decFC ⟨1, 0, 0⟩ env 0x41 : Cost Bool) n i).2 = n := fun i => by
    have := decodeNC_const (c := (decFC ⟨1, 0, 0⟩ env 0x41 : Cost Bool)) (a := true) (k := 1)
      (fun i => rfl) n i
    rw [this, Nat.mul_one]
  have h0 : decodeC (Vec Bool) ⟨1, 0, 0⟩ env (zeroWidthArray n 0x41) =
      (Cost.call ⟨1, 0, 0⟩ >>= fun _ => Cost.of (decodeArrayHeader env 0xf0) >>= fun h =>
        Cost.of indexU8 >>= fun c => Cost.room ⟨1, 0, 0⟩ h.count >>= fun _ =>
          decodeNC (decFC ⟨1, 0, 0⟩ env c) h.count >>= fun l => pure (⟨l⟩ : Vec Bool))
        (beEnc 4 5 ++ beEnc 4 n ++ [0x41]) := by
    unfold decodeC zeroWidthArray
    rw [Cost.bind_of]; rfl
  unfold spent
  rw [h0]
  unfold Cost.call
  rw [Cost.bind_reserve, Cost.bind_of, h2]
  dsimp only
  rw [Cost.bind_of]
  show 1 + ((Cost.room ⟨1, 0, 0⟩ n >>= fun _ => decodeNC (decFC ⟨1, 0, 0⟩ env 0x41) n >>= fun l =>
    pure (⟨l⟩ : Vec Bool)) []).2 = _
  unfold Cost.room
  rw [Cost.bind_reserve, Nat.mul_zero, Cost.run_bind]
  rcases hd : decodeNC (decFC ⟨1, 0, 0⟩ env 0x41 : Cost Bool) n [] with ⟨x, m⟩
  have h4 := h3 []
  rw [hd] at h4
  dsimp only at h4
  subst h4
  cases x <;> (show 1 + (0 + _) = _) <;> first | (show 1 + (0 + (m + 0)) = _; omega) | omega

/-! ## C53 for all types, messages and frames -/

/-- If decoding succeeds, room was requested for at most as many elements as the
input has bytes.  Missing: failing decodes, see `C53_violated_frame`. -/
theorem C53_covered_partial (env : Env) (order : StringVariantMap → List (Str × Variant)) :
    RoomCovered (fun p => AmqpFrame.decodeC p env) ∧
    RoomCovered (fun p => SaslFrame.decodeC p env) ∧
    RoomCovered (fun p => InMessage.decodeC p env) ∧
    RoomCovered (fun p => OutMessage.decodeC p env order) :=
  ⟨(C68_frames env).2.1.covered, (C68_frames env).2.2.covered,
    (C68_messages env order).1.covered, (C68_messages env order).2.covered⟩

/-- Whatever the outcome, at most `2^32 - 1` elements per byte.  Missing: the factor,
see `C53_violated_frame`. -/
theorem C53_limit_partial (env : Env) (order : StringVariantMap → List (Str × Variant)) :
    RoomPerByte (2 ^ 32 - 1) (fun p => AmqpFrame.decodeC p env) ∧
    RoomPerByte (2 ^ 32 - 1) (fun p => SaslFrame.decodeC p env) ∧
    RoomPerByte (2 ^ 32 - 1) (fun p => InMessage.decodeC p env) ∧
    RoomPerByte (2 ^ 32 - 1) (fun p => OutMessage.decodeC p env order) :=
  ⟨(C68_frames env).2.1.limit, (C68_frames env).2.2.limit,
    (C68_messages env order).1.limit, (C68_messages env order).2.limit⟩

/-- A frame of 20 bytes (without its size) announcing `2^32 - 1` mechanisms. -/
def hugeMechanisms : Bytes := [2, 1, 0, 0, 0x00, 0x53, 0x40, 0xc0, 11, 1,
  0xf0, 0, 0, 0, 5, 0xff, 0xff, 0xff, 0xff, 0xa3]

/-- The mechanisms of a SASL frame come from the peer before anything is known of it. -/
theorem C53_violated_frame :
    hugeMechanisms.length = 20 ∧
    SaslFrame.decode debugEnv hugeMechanisms = .err (.incomplete 1) ∧
    spent (SaslFrame.decodeC ⟨0, 1, 0⟩ debugEnv) hugeMechanisms = 2 ^ 32 - 1 := by
  refine ⟨rfl, ?_, ?_⟩ <;> rfl

/-! ## Cases -/

/-- An `Open` with a container id and a maximal frame size: two calls for the
descriptor, one for the container id, one for the absent host name, two for the size. -/
example : spent (AmqpFrame.decodeC ⟨1, 0, 0⟩ debugEnv)
    [2, 0, 0, 0, 0x00, 0x53, 0x10, 0xc0, 7, 3, 0xa1, 1, 97, 0x40, 0x52, 9] = 6 := by decide +kernel
/-- A list of two and a map of one entry. -/
example : spent (decodeC Variant ⟨1, 0, 0⟩ debugEnv) [0xc0, 7, 2, 0x40, 0xc1, 3, 2, 0x43, 0x44, 5] = 7 ∧
    spent (decodeC Variant ⟨0, 1, 0⟩ debugEnv) [0xc0, 7, 2, 0x40, 0xc1, 3, 2, 0x43, 0x44, 5] = 3 ∧
    (Variant.list [.null, .map [(.uint 0, .ulong 0)]]).bill ⟨1, 0, 0⟩ = 5 ∧
    (Variant.list [.null, .map [(.uint 0, .ulong 0)]]).bill ⟨0, 1, 0⟩ = 3 := by decide +kernel
/-- A transfer with a delivery tag of two bytes and a payload of three; an `Open` with a container
id of one byte. -/
example : spent (AmqpFrame.decodeC ⟨0, 0, 1⟩ debugEnv)
    [2, 0, 0, 0, 0x00, 0x53, 0x14, 0xc0, 7, 3, 0x43, 0x40, 0xa0, 2, 9, 9, 1, 2, 3] = 5 ∧
    spent (AmqpFrame.decodeC ⟨0, 0, 1⟩ debugEnv)
    [2, 0, 0, 0, 0x00, 0x53, 0x10, 0xc0, 7, 3, 0xa1, 1, 97, 0x40, 0x52, 9] = 2 := by decide +kernel
/-- Two sections of a message. -/
example : spent (InMessage.decodeC ⟨1, 0, 0⟩ debugEnv)
    [0x00, 0x53, 0x70, 0x45, 0x00, 0x53, 0x75, 0xa0, 2, 1, 2] = 7 := by decide +kernel

example : (Variant.list [.null, .uint 0]).bill ⟨1, 0, 0⟩ ≤
    spent (decodeC Variant ⟨1, 0, 0⟩ debugEnv) [0xc0, 3, 2, 0x40, 0x43] :=
  C68_counts _ debugEnv [0xc0, 3, 2, 0x40, 0x43] [] _ rfl
example : spent (decodeC (Vec Bool) ⟨1, 0, 0⟩ debugEnv) (zeroWidthArray 5000 0x41) = 5001 :=
  (C68_array_exception debugEnv 5000 (by decide)).2

end Amqp
