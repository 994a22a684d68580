import Verif.Proofs.ListPrefix
/-!
# C21, C22: described lists

Generated by `tools/gen_props.py` from `codegen/specification.json`: the codes,
the order of the fields, which are mandatory and the defaults of the others are
those of the specification.  In C21 a hypothesis is left out for fields whose
type round-trips always (C01, C02, C19, C49).  In C22 the bytes `u0`, `u1`, ...
stand for the fields in any form the field's decoder accepts, with `Option` for
fields that may be null; `k` of them are present, and `extra` is whatever else
the list holds.
-/
set_option autoImplicit false
set_option linter.unusedVariables false
namespace Amqp
open Dec

/-- **C21** for `error`, `codegen/specification.json:101-125`. -/
theorem C21_error (env : Env) (v : Error) (hs : (enc v).length < 2 ^ 32)
    (h0 : RoundTrips env v.condition)
    (h2 : RoundTrips env v.info) :
    RoundTrips env v := by
  have hs' : (listHdr 29 _ 3 ++ (enc v.condition ++ enc v.description ++ enc v.info)).length <
    2 ^ 32 := hs
  simp only [List.length_append] at hs'
  exact LawfulCodec.rt env v ⟨small_of_list v hs, h0, SmallRT.rt env v.description (by omega), h2, trivial⟩

/-- A `error` with values in all fields of simple types. -/
def Error.sample : Error :=
  { condition := .AmqpError .NotFound,
    description := some (.lit "héllo"),
    info := none }
example : RoundTrips debugEnv Error.sample := C21_error _ _ (by decide) (LawfulCodec.rt debugEnv (ErrorCondition.AmqpError .NotFound) ⟨show _ < _ by decide, fun _ h => by cases h⟩) (fun _ => rfl)

/-- **C22** for `error`, `codegen/specification.json:101-125`. -/
theorem C22_error (env : Env) (k : Nat) (u0 u1 u2 extra hdr rest : Bytes)
    (condition : ErrorCondition) (h0 : Means env u0 condition)
    (description : Option ByteStr) (h1 : Means env u1 description)
    (info : Option Fields) (h2 : Means env u2 info)
    (hh : ListHeader hdr (([u0, u1, u2].take k).flatten ++ extra).length k) :
    decode Error env ([0x00, 0x53, 0x1d] ++ hdr ++ ([u0, u1, u2].take k).flatten ++ extra ++ rest) =
      if k ≤ 0 then .err (.requiredFieldOmitted "condition") else
      .ok (rest, {
        condition := condition,
        description := if 1 < k then description else none,
        info := if 2 < k then info else none }) := by
  have h := decode_fields (α := Error) (k := k) (us := [u0, u1, u2]) (extra := extra) (hdr := hdr) (rest := rest)
    (t := (condition, description, info, ()))
    (reads_small_descriptor env (c := 29) (by decide)) (.inl rfl) ⟨h0, h1, h2, trivial⟩ hh
  simp only [List.append_assoc, List.cons_append, List.nil_append] at h ⊢
  refine h.trans ?_
  clear h hh
  rcases k with _ | _ | _ | k
  all_goals first | rfl | (simp; rfl)

example : decode Error debugEnv [0x00, 0x53, 0x1d, 0xc0, 25, 2, 0xa3, 14, 0x61, 0x6d, 0x71, 0x70, 0x3a, 0x6e, 0x6f, 0x74, 0x2d, 0x66, 0x6f, 0x75, 0x6e, 0x64, 0xa1, 6, 0x68, 0xc3, 0xa9, 0x6c, 0x6c, 0x6f, 0xff] =
    .ok ([0xff], { condition := .AmqpError .NotFound, description := some (.lit "héllo"), info := none }) :=
  C22_error debugEnv 2 [0xa3, 14, 0x61, 0x6d, 0x71, 0x70, 0x3a, 0x6e, 0x6f, 0x74, 0x2d, 0x66, 0x6f, 0x75, 0x6e, 0x64] [0xa1, 6, 0x68, 0xc3, 0xa9, 0x6c, 0x6c, 0x6f] [0x40] [] [0xc0, 25, 2] [0xff]
    (.AmqpError .NotFound) (LawfulCodec.rt debugEnv (ErrorCondition.AmqpError .NotFound) ⟨show _ < _ by decide, fun _ h => by cases h⟩)
    (some (.lit "héllo")) (SmallRT.rt debugEnv (some (.lit "héllo") : Option ByteStr) (by decide))
    (none) (fun _ => rfl) (.list8 (by decide) (by decide))
example : decode Error debugEnv [0x00, 0x53, 0x1d, 0xc0, 1, 0] =
    .err (.requiredFieldOmitted "condition") :=
  C22_error debugEnv 0 [0xa3, 14, 0x61, 0x6d, 0x71, 0x70, 0x3a, 0x6e, 0x6f, 0x74, 0x2d, 0x66, 0x6f, 0x75, 0x6e, 0x64] [0xa1, 6, 0x68, 0xc3, 0xa9, 0x6c, 0x6c, 0x6f] [0x40] [] [0xc0, 1, 0] []
    (.AmqpError .NotFound) (LawfulCodec.rt debugEnv (ErrorCondition.AmqpError .NotFound) ⟨show _ < _ by decide, fun _ h => by cases h⟩)
    (some (.lit "héllo")) (SmallRT.rt debugEnv (some (.lit "héllo") : Option ByteStr) (by decide))
    (none) (fun _ => rfl) (.list8 (by decide) (by decide))

/-- **C21** for `open`, `codegen/specification.json:258-316`. -/
theorem C21_open (env : Env) (v : Open) (hs : (enc v).length < 2 ^ 32)
    (h5 : RoundTrips env v.outgoing_locales)
    (h6 : RoundTrips env v.incoming_locales)
    (h7 : RoundTrips env v.offered_capabilities)
    (h8 : RoundTrips env v.desired_capabilities)
    (h9 : RoundTrips env v.properties) :
    RoundTrips env v := by
  have hs' : (listHdr 16 _ 10 ++ (enc v.container_id ++ enc v.hostname ++ enc v.max_frame_size ++ enc v.channel_max ++ enc v.idle_time_out ++ enc v.outgoing_locales ++ enc v.incoming_locales ++ enc v.offered_capabilities ++ enc v.desired_capabilities ++ enc v.properties)).length <
    2 ^ 32 := hs
  simp only [List.length_append] at hs'
  exact LawfulCodec.rt env v ⟨small_of_list v hs, SmallRT.rt env v.container_id (by omega), SmallRT.rt env v.hostname (by omega), SmallRT.rt env v.max_frame_size (by omega), SmallRT.rt env v.channel_max (by omega), SmallRT.rt env v.idle_time_out (by omega), h5, h6, h7, h8, h9, trivial⟩

/-- A `open` with values in all fields of simple types. -/
def Open.sample : Open :=
  { container_id := .lit "héllo",
    hostname := some (.lit "héllo"),
    max_frame_size := 70000,
    channel_max := 500,
    idle_time_out := some 70000,
    outgoing_locales := none,
    incoming_locales := none,
    offered_capabilities := none,
    desired_capabilities := none,
    properties := none }
example : RoundTrips debugEnv Open.sample := C21_open _ _ (by decide) (fun _ => rfl) (fun _ => rfl) (fun _ => rfl) (fun _ => rfl) (fun _ => rfl)

/-- **C22** for `open`, `codegen/specification.json:258-316`. -/
theorem C22_open (env : Env) (k : Nat) (u0 u1 u2 u3 u4 u5 u6 u7 u8 u9 extra hdr rest : Bytes)
    (container_id : ByteStr) (h0 : Means env u0 container_id)
    (hostname : Option ByteStr) (h1 : Means env u1 hostname)
    (max_frame_size : Option UInt32) (h2 : Means env u2 max_frame_size)
    (channel_max : Option UInt16) (h3 : Means env u3 channel_max)
    (idle_time_out : Option Milliseconds) (h4 : Means env u4 idle_time_out)
    (outgoing_locales : Option IetfLanguageTags) (h5 : Means env u5 outgoing_locales)
    (incoming_locales : Option IetfLanguageTags) (h6 : Means env u6 incoming_locales)
    (offered_capabilities : Option Symbols) (h7 : Means env u7 offered_capabilities)
    (desired_capabilities : Option Symbols) (h8 : Means env u8 desired_capabilities)
    (properties : Option Fields) (h9 : Means env u9 properties)
    (hh : ListHeader hdr (([u0, u1, u2, u3, u4, u5, u6, u7, u8, u9].take k).flatten ++ extra).length k) :
    decode Open env ([0x00, 0x53, 0x10] ++ hdr ++ ([u0, u1, u2, u3, u4, u5, u6, u7, u8, u9].take k).flatten ++ extra ++ rest) =
      if k ≤ 0 then .err (.requiredFieldOmitted "container_id") else
      .ok (rest, {
        container_id := container_id,
        hostname := if 1 < k then hostname else none,
        max_frame_size := if 2 < k then max_frame_size.getD 4294967295 else 4294967295,
        channel_max := if 3 < k then channel_max.getD 65535 else 65535,
        idle_time_out := if 4 < k then idle_time_out else none,
        outgoing_locales := if 5 < k then outgoing_locales else none,
        incoming_locales := if 6 < k then incoming_locales else none,
        offered_capabilities := if 7 < k then offered_capabilities else none,
        desired_capabilities := if 8 < k then desired_capabilities else none,
        properties := if 9 < k then properties else none }) := by
  have h := decode_fields (α := Open) (k := k) (us := [u0, u1, u2, u3, u4, u5, u6, u7, u8, u9]) (extra := extra) (hdr := hdr) (rest := rest)
    (t := (container_id, hostname, max_frame_size.getD 4294967295, channel_max.getD 65535, idle_time_out, outgoing_locales, incoming_locales, offered_capabilities, desired_capabilities, properties, ()))
    (reads_small_descriptor env (c := 16) (by decide)) (.inl rfl) ⟨h0, h1, Reads.map (fun o : Option UInt32 => o.getD 4294967295) h2, Reads.map (fun o : Option UInt16 => o.getD 65535) h3, h4, h5, h6, h7, h8, h9, trivial⟩ hh
  simp only [List.append_assoc, List.cons_append, List.nil_append] at h ⊢
  refine h.trans ?_
  clear h hh
  rcases k with _ | _ | _ | _ | _ | _ | _ | _ | _ | _ | k
  all_goals first | rfl | (simp; rfl)

example : decode Open debugEnv [0x00, 0x53, 0x10, 0xc0, 17, 2, 0xa1, 6, 0x68, 0xc3, 0xa9, 0x6c, 0x6c, 0x6f, 0xa1, 6, 0x68, 0xc3, 0xa9, 0x6c, 0x6c, 0x6f, 0xff] =
    .ok ([0xff], { container_id := .lit "héllo", hostname := some (.lit "héllo"), max_frame_size := 4294967295, channel_max := 65535, idle_time_out := none, outgoing_locales := none, incoming_locales := none, offered_capabilities := none, desired_capabilities := none, properties := none }) :=
  C22_open debugEnv 2 [0xa1, 6, 0x68, 0xc3, 0xa9, 0x6c, 0x6c, 0x6f] [0xa1, 6, 0x68, 0xc3, 0xa9, 0x6c, 0x6c, 0x6f] [0x70, 0, 1, 0x11, 0x70] [0x60, 1, 244] [0x70, 0, 1, 0x11, 0x70] [0x40] [0x40] [0x40] [0x40] [0x40] [] [0xc0, 17, 2] [0xff]
    (.lit "héllo") (SmallRT.rt debugEnv (.lit "héllo" : ByteStr) (by decide))
    (some (.lit "héllo")) (SmallRT.rt debugEnv (some (.lit "héllo") : Option ByteStr) (by decide))
    (some 70000) (SmallRT.rt debugEnv (some 70000 : Option UInt32) (by decide))
    (some 500) (SmallRT.rt debugEnv (some 500 : Option UInt16) (by decide))
    (some 70000) (SmallRT.rt debugEnv (some 70000 : Option Milliseconds) (by decide))
    (none) (fun _ => rfl)
    (none) (fun _ => rfl)
    (none) (fun _ => rfl)
    (none) (fun _ => rfl)
    (none) (fun _ => rfl) (.list8 (by decide) (by decide))
example : decode Open debugEnv [0x00, 0x53, 0x10, 0xc0, 1, 0] =
    .err (.requiredFieldOmitted "container_id") :=
  C22_open debugEnv 0 [0xa1, 6, 0x68, 0xc3, 0xa9, 0x6c, 0x6c, 0x6f] [0xa1, 6, 0x68, 0xc3, 0xa9, 0x6c, 0x6c, 0x6f] [0x70, 0, 1, 0x11, 0x70] [0x60, 1, 244] [0x70, 0, 1, 0x11, 0x70] [0x40] [0x40] [0x40] [0x40] [0x40] [] [0xc0, 1, 0] []
    (.lit "héllo") (SmallRT.rt debugEnv (.lit "héllo" : ByteStr) (by decide))
    (some (.lit "héllo")) (SmallRT.rt debugEnv (some (.lit "héllo") : Option ByteStr) (by decide))
    (some 70000) (SmallRT.rt debugEnv (some 70000 : Option UInt32) (by decide))
    (some 500) (SmallRT.rt debugEnv (some 500 : Option UInt16) (by decide))
    (some 70000) (SmallRT.rt debugEnv (some 70000 : Option Milliseconds) (by decide))
    (none) (fun _ => rfl)
    (none) (fun _ => rfl)
    (none) (fun _ => rfl)
    (none) (fun _ => rfl)
    (none) (fun _ => rfl) (.list8 (by decide) (by decide))

/-- **C21** for `begin`, `codegen/specification.json:317-366`. -/
theorem C21_begin (env : Env) (v : Begin) (hs : (enc v).length < 2 ^ 32)
    (h5 : RoundTrips env v.offered_capabilities)
    (h6 : RoundTrips env v.desired_capabilities)
    (h7 : RoundTrips env v.properties) :
    RoundTrips env v := by
  have hs' : (listHdr 17 _ 8 ++ (enc v.remote_channel ++ enc v.next_outgoing_id ++ enc v.incoming_window ++ enc v.outgoing_window ++ enc v.handle_max ++ enc v.offered_capabilities ++ enc v.desired_capabilities ++ enc v.properties)).length <
    2 ^ 32 := hs
  simp only [List.length_append] at hs'
  exact LawfulCodec.rt env v ⟨small_of_list v hs, SmallRT.rt env v.remote_channel (by omega), SmallRT.rt env v.next_outgoing_id (by omega), SmallRT.rt env v.incoming_window (by omega), SmallRT.rt env v.outgoing_window (by omega), SmallRT.rt env v.handle_max (by omega), h5, h6, h7, trivial⟩

/-- A `begin` with values in all fields of simple types. -/
def Begin.sample : Begin :=
  { remote_channel := some 500,
    next_outgoing_id := 70000,
    incoming_window := 70000,
    outgoing_window := 70000,
    handle_max := 70000,
    offered_capabilities := none,
    desired_capabilities := none,
    properties := none }
example : RoundTrips debugEnv Begin.sample := C21_begin _ _ (by decide) (fun _ => rfl) (fun _ => rfl) (fun _ => rfl)

/-- **C22** for `begin`, `codegen/specification.json:317-366`. -/
theorem C22_begin (env : Env) (k : Nat) (u0 u1 u2 u3 u4 u5 u6 u7 extra hdr rest : Bytes)
    (remote_channel : Option UInt16) (h0 : Means env u0 remote_channel)
    (next_outgoing_id : TransferNumber) (h1 : Means env u1 next_outgoing_id)
    (incoming_window : UInt32) (h2 : Means env u2 incoming_window)
    (outgoing_window : UInt32) (h3 : Means env u3 outgoing_window)
    (handle_max : Option Handle) (h4 : Means env u4 handle_max)
    (offered_capabilities : Option Symbols) (h5 : Means env u5 offered_capabilities)
    (desired_capabilities : Option Symbols) (h6 : Means env u6 desired_capabilities)
    (properties : Option Fields) (h7 : Means env u7 properties)
    (hh : ListHeader hdr (([u0, u1, u2, u3, u4, u5, u6, u7].take k).flatten ++ extra).length k) :
    decode Begin env ([0x00, 0x53, 0x11] ++ hdr ++ ([u0, u1, u2, u3, u4, u5, u6, u7].take k).flatten ++ extra ++ rest) =
      if k ≤ 1 then .err (.requiredFieldOmitted "next_outgoing_id") else
      if k ≤ 2 then .err (.requiredFieldOmitted "incoming_window") else
      if k ≤ 3 then .err (.requiredFieldOmitted "outgoing_window") else
      .ok (rest, {
        remote_channel := if 0 < k then remote_channel else none,
        next_outgoing_id := next_outgoing_id,
        incoming_window := incoming_window,
        outgoing_window := outgoing_window,
        handle_max := if 4 < k then handle_max.getD 4294967295 else 4294967295,
        offered_capabilities := if 5 < k then offered_capabilities else none,
        desired_capabilities := if 6 < k then desired_capabilities else none,
        properties := if 7 < k then properties else none }) := by
  have h := decode_fields (α := Begin) (k := k) (us := [u0, u1, u2, u3, u4, u5, u6, u7]) (extra := extra) (hdr := hdr) (rest := rest)
    (t := (remote_channel, next_outgoing_id, incoming_window, outgoing_window, handle_max.getD 4294967295, offered_capabilities, desired_capabilities, properties, ()))
    (reads_small_descriptor env (c := 17) (by decide)) (.inl rfl) ⟨h0, h1, h2, h3, Reads.map (fun o : Option Handle => o.getD 4294967295) h4, h5, h6, h7, trivial⟩ hh
  simp only [List.append_assoc, List.cons_append, List.nil_append] at h ⊢
  refine h.trans ?_
  clear h hh
  rcases k with _ | _ | _ | _ | _ | _ | _ | _ | k
  all_goals first | rfl | (simp; rfl)

example : decode Begin debugEnv [0x00, 0x53, 0x11, 0xc0, 24, 5, 0x60, 1, 244, 0x70, 0, 1, 0x11, 0x70, 0x70, 0, 1, 0x11, 0x70, 0x70, 0, 1, 0x11, 0x70, 0x70, 0, 1, 0x11, 0x70, 0xff] =
    .ok ([0xff], { remote_channel := some 500, next_outgoing_id := 70000, incoming_window := 70000, outgoing_window := 70000, handle_max := 70000, offered_capabilities := none, desired_capabilities := none, properties := none }) :=
  C22_begin debugEnv 5 [0x60, 1, 244] [0x70, 0, 1, 0x11, 0x70] [0x70, 0, 1, 0x11, 0x70] [0x70, 0, 1, 0x11, 0x70] [0x70, 0, 1, 0x11, 0x70] [0x40] [0x40] [0x40] [] [0xc0, 24, 5] [0xff]
    (some 500) (SmallRT.rt debugEnv (some 500 : Option UInt16) (by decide))
    (70000) (SmallRT.rt debugEnv (70000 : TransferNumber) (by decide))
    (70000) (SmallRT.rt debugEnv (70000 : UInt32) (by decide))
    (70000) (SmallRT.rt debugEnv (70000 : UInt32) (by decide))
    (some 70000) (SmallRT.rt debugEnv (some 70000 : Option Handle) (by decide))
    (none) (fun _ => rfl)
    (none) (fun _ => rfl)
    (none) (fun _ => rfl) (.list8 (by decide) (by decide))
example : decode Begin debugEnv [0x00, 0x53, 0x11, 0xc0, 14, 3, 0x60, 1, 244, 0x70, 0, 1, 0x11, 0x70, 0x70, 0, 1, 0x11, 0x70] =
    .err (.requiredFieldOmitted "outgoing_window") :=
  C22_begin debugEnv 3 [0x60, 1, 244] [0x70, 0, 1, 0x11, 0x70] [0x70, 0, 1, 0x11, 0x70] [0x70, 0, 1, 0x11, 0x70] [0x70, 0, 1, 0x11, 0x70] [0x40] [0x40] [0x40] [] [0xc0, 14, 3] []
    (some 500) (SmallRT.rt debugEnv (some 500 : Option UInt16) (by decide))
    (70000) (SmallRT.rt debugEnv (70000 : TransferNumber) (by decide))
    (70000) (SmallRT.rt debugEnv (70000 : UInt32) (by decide))
    (70000) (SmallRT.rt debugEnv (70000 : UInt32) (by decide))
    (some 70000) (SmallRT.rt debugEnv (some 70000 : Option Handle) (by decide))
    (none) (fun _ => rfl)
    (none) (fun _ => rfl)
    (none) (fun _ => rfl) (.list8 (by decide) (by decide))

/-- **C21** for `attach`, `codegen/specification.json:367-444`. -/
theorem C21_attach (env : Env) (v : Attach) (hs : (enc v).length < 2 ^ 32)
    (h5 : RoundTrips env v.source)
    (h6 : RoundTrips env v.target)
    (h7 : RoundTrips env v.unsettled)
    (h11 : RoundTrips env v.offered_capabilities)
    (h12 : RoundTrips env v.desired_capabilities)
    (h13 : RoundTrips env v.properties) :
    RoundTrips env v := by
  have hs' : (listHdr 18 _ 14 ++ (enc v.name ++ enc v.handle ++ enc v.role ++ enc v.snd_settle_mode ++ enc v.rcv_settle_mode ++ enc v.source ++ enc v.target ++ enc v.unsettled ++ enc v.incomplete_unsettled ++ enc v.initial_delivery_count ++ enc v.max_message_size ++ enc v.offered_capabilities ++ enc v.desired_capabilities ++ enc v.properties)).length <
    2 ^ 32 := hs
  simp only [List.length_append] at hs'
  exact LawfulCodec.rt env v ⟨small_of_list v hs, SmallRT.rt env v.name (by omega), SmallRT.rt env v.handle (by omega), SmallRT.rt env v.role (by omega), SmallRT.rt env v.snd_settle_mode (by omega), SmallRT.rt env v.rcv_settle_mode (by omega), h5, h6, h7, SmallRT.rt env v.incomplete_unsettled (by omega), SmallRT.rt env v.initial_delivery_count (by omega), SmallRT.rt env v.max_message_size (by omega), h11, h12, h13, trivial⟩

/-- A `attach` with values in all fields of simple types. -/
def Attach.sample : Attach :=
  { name := .lit "héllo",
    handle := 70000,
    role := .Receiver,
    snd_settle_mode := .Settled,
    rcv_settle_mode := .Second,
    source := none,
    target := none,
    unsettled := none,
    incomplete_unsettled := true,
    initial_delivery_count := some 70000,
    max_message_size := some 9,
    offered_capabilities := none,
    desired_capabilities := none,
    properties := none }
example : RoundTrips debugEnv Attach.sample := C21_attach _ _ (by decide) (fun _ => rfl) (fun _ => rfl) (fun _ => rfl) (fun _ => rfl) (fun _ => rfl) (fun _ => rfl)

/-- **C22** for `attach`, `codegen/specification.json:367-444`. -/
theorem C22_attach (env : Env) (k : Nat) (u0 u1 u2 u3 u4 u5 u6 u7 u8 u9 u10 u11 u12 u13 extra hdr rest : Bytes)
    (name : ByteStr) (h0 : Means env u0 name)
    (handle : Handle) (h1 : Means env u1 handle)
    (role : Role) (h2 : Means env u2 role)
    (snd_settle_mode : Option SenderSettleMode) (h3 : Means env u3 snd_settle_mode)
    (rcv_settle_mode : Option ReceiverSettleMode) (h4 : Means env u4 rcv_settle_mode)
    (source : Option Source) (h5 : Means env u5 source)
    (target : Option Target) (h6 : Means env u6 target)
    (unsettled : Option Map) (h7 : Means env u7 unsettled)
    (incomplete_unsettled : Option Bool) (h8 : Means env u8 incomplete_unsettled)
    (initial_delivery_count : Option SequenceNo) (h9 : Means env u9 initial_delivery_count)
    (max_message_size : Option UInt64) (h10 : Means env u10 max_message_size)
    (offered_capabilities : Option Symbols) (h11 : Means env u11 offered_capabilities)
    (desired_capabilities : Option Symbols) (h12 : Means env u12 desired_capabilities)
    (properties : Option Fields) (h13 : Means env u13 properties)
    (hh : ListHeader hdr (([u0, u1, u2, u3, u4, u5, u6, u7, u8, u9, u10, u11, u12, u13].take k).flatten ++ extra).length k) :
    decode Attach env ([0x00, 0x53, 0x12] ++ hdr ++ ([u0, u1, u2, u3, u4, u5, u6, u7, u8, u9, u10, u11, u12, u13].take k).flatten ++ extra ++ rest) =
      if k ≤ 0 then .err (.requiredFieldOmitted "name") else
      if k ≤ 1 then .err (.requiredFieldOmitted "handle") else
      if k ≤ 2 then .err (.requiredFieldOmitted "role") else
      .ok (rest, {
        name := name,
        handle := handle,
        role := role,
        snd_settle_mode := if 3 < k then snd_settle_mode.getD SenderSettleMode.Mixed else SenderSettleMode.Mixed,
        rcv_settle_mode := if 4 < k then rcv_settle_mode.getD ReceiverSettleMode.First else ReceiverSettleMode.First,
        source := if 5 < k then source else none,
        target := if 6 < k then target else none,
        unsettled := if 7 < k then unsettled else none,
        incomplete_unsettled := if 8 < k then incomplete_unsettled.getD false else false,
        initial_delivery_count := if 9 < k then initial_delivery_count else none,
        max_message_size := if 10 < k then max_message_size else none,
        offered_capabilities := if 11 < k then offered_capabilities else none,
        desired_capabilities := if 12 < k then desired_capabilities else none,
        properties := if 13 < k then properties else none }) := by
  have h := decode_fields (α := Attach) (k := k) (us := [u0, u1, u2, u3, u4, u5, u6, u7, u8, u9, u10, u11, u12, u13]) (extra := extra) (hdr := hdr) (rest := rest)
    (t := (name, handle, role, snd_settle_mode.getD SenderSettleMode.Mixed, rcv_settle_mode.getD ReceiverSettleMode.First, source, target, unsettled, incomplete_unsettled.getD false, initial_delivery_count, max_message_size, offered_capabilities, desired_capabilities, properties, ()))
    (reads_small_descriptor env (c := 18) (by decide)) (.inl rfl) ⟨h0, h1, h2, Reads.map (fun o : Option SenderSettleMode => o.getD SenderSettleMode.Mixed) h3, Reads.map (fun o : Option ReceiverSettleMode => o.getD ReceiverSettleMode.First) h4, h5, h6, h7, Reads.map (fun o : Option Bool => o.getD false) h8, h9, h10, h11, h12, h13, trivial⟩ hh
  simp only [List.append_assoc, List.cons_append, List.nil_append] at h ⊢
  refine h.trans ?_
  clear h hh
  rcases k with _ | _ | _ | _ | _ | _ | _ | _ | _ | _ | _ | _ | _ | _ | k
  all_goals first | rfl | (simp; rfl)

example : decode Attach debugEnv [0x00, 0x53, 0x12, 0xc0, 17, 4, 0xa1, 6, 0x68, 0xc3, 0xa9, 0x6c, 0x6c, 0x6f, 0x70, 0, 1, 0x11, 0x70, 0x41, 0x50, 1, 0xff] =
    .ok ([0xff], { name := .lit "héllo", handle := 70000, role := .Receiver, snd_settle_mode := .Settled, rcv_settle_mode := ReceiverSettleMode.First, source := none, target := none, unsettled := none, incomplete_unsettled := false, initial_delivery_count := none, max_message_size := none, offered_capabilities := none, desired_capabilities := none, properties := none }) :=
  C22_attach debugEnv 4 [0xa1, 6, 0x68, 0xc3, 0xa9, 0x6c, 0x6c, 0x6f] [0x70, 0, 1, 0x11, 0x70] [0x41] [0x50, 1] [0x50, 1] [0x40] [0x40] [0x40] [0x41] [0x70, 0, 1, 0x11, 0x70] [0x53, 9] [0x40] [0x40] [0x40] [] [0xc0, 17, 4] [0xff]
    (.lit "héllo") (SmallRT.rt debugEnv (.lit "héllo" : ByteStr) (by decide))
    (70000) (SmallRT.rt debugEnv (70000 : Handle) (by decide))
    (.Receiver) (SmallRT.rt debugEnv (.Receiver : Role) (by decide))
    (some .Settled) (SmallRT.rt debugEnv (some .Settled : Option SenderSettleMode) (by decide))
    (some .Second) (SmallRT.rt debugEnv (some .Second : Option ReceiverSettleMode) (by decide))
    (none) (fun _ => rfl)
    (none) (fun _ => rfl)
    (none) (fun _ => rfl)
    (some true) (SmallRT.rt debugEnv (some true : Option Bool) (by decide))
    (some 70000) (SmallRT.rt debugEnv (some 70000 : Option SequenceNo) (by decide))
    (some 9) (SmallRT.rt debugEnv (some 9 : Option UInt64) (by decide))
    (none) (fun _ => rfl)
    (none) (fun _ => rfl)
    (none) (fun _ => rfl) (.list8 (by decide) (by decide))
example : decode Attach debugEnv [0x00, 0x53, 0x12, 0xc0, 14, 2, 0xa1, 6, 0x68, 0xc3, 0xa9, 0x6c, 0x6c, 0x6f, 0x70, 0, 1, 0x11, 0x70] =
    .err (.requiredFieldOmitted "role") :=
  C22_attach debugEnv 2 [0xa1, 6, 0x68, 0xc3, 0xa9, 0x6c, 0x6c, 0x6f] [0x70, 0, 1, 0x11, 0x70] [0x41] [0x50, 1] [0x50, 1] [0x40] [0x40] [0x40] [0x41] [0x70, 0, 1, 0x11, 0x70] [0x53, 9] [0x40] [0x40] [0x40] [] [0xc0, 14, 2] []
    (.lit "héllo") (SmallRT.rt debugEnv (.lit "héllo" : ByteStr) (by decide))
    (70000) (SmallRT.rt debugEnv (70000 : Handle) (by decide))
    (.Receiver) (SmallRT.rt debugEnv (.Receiver : Role) (by decide))
    (some .Settled) (SmallRT.rt debugEnv (some .Settled : Option SenderSettleMode) (by decide))
    (some .Second) (SmallRT.rt debugEnv (some .Second : Option ReceiverSettleMode) (by decide))
    (none) (fun _ => rfl)
    (none) (fun _ => rfl)
    (none) (fun _ => rfl)
    (some true) (SmallRT.rt debugEnv (some true : Option Bool) (by decide))
    (some 70000) (SmallRT.rt debugEnv (some 70000 : Option SequenceNo) (by decide))
    (some 9) (SmallRT.rt debugEnv (some 9 : Option UInt64) (by decide))
    (none) (fun _ => rfl)
    (none) (fun _ => rfl)
    (none) (fun _ => rfl) (.list8 (by decide) (by decide))

/-- **C21** for `flow`, `codegen/specification.json:445-505`. -/
theorem C21_flow (env : Env) (v : Flow) (hs : (enc v).length < 2 ^ 32)
    (h10 : RoundTrips env v.properties) :
    RoundTrips env v := by
  have hs' : (listHdr 19 _ 11 ++ (enc v.next_incoming_id ++ enc v.incoming_window ++ enc v.next_outgoing_id ++ enc v.outgoing_window ++ enc v.handle ++ enc v.delivery_count ++ enc v.link_credit ++ enc v.available ++ enc v.drain ++ enc v.echo ++ enc v.properties)).length <
    2 ^ 32 := hs
  simp only [List.length_append] at hs'
  exact LawfulCodec.rt env v ⟨small_of_list v hs, SmallRT.rt env v.next_incoming_id (by omega), SmallRT.rt env v.incoming_window (by omega), SmallRT.rt env v.next_outgoing_id (by omega), SmallRT.rt env v.outgoing_window (by omega), SmallRT.rt env v.handle (by omega), SmallRT.rt env v.delivery_count (by omega), SmallRT.rt env v.link_credit (by omega), SmallRT.rt env v.available (by omega), SmallRT.rt env v.drain (by omega), SmallRT.rt env v.echo (by omega), h10, trivial⟩

/-- A `flow` with values in all fields of simple types. -/
def Flow.sample : Flow :=
  { next_incoming_id := some 70000,
    incoming_window := 70000,
    next_outgoing_id := 70000,
    outgoing_window := 70000,
    handle := some 70000,
    delivery_count := some 70000,
    link_credit := some 70000,
    available := some 70000,
    drain := true,
    echo := true,
    properties := none }
example : RoundTrips debugEnv Flow.sample := C21_flow _ _ (by decide) (fun _ => rfl)

/-- **C22** for `flow`, `codegen/specification.json:445-505`. -/
theorem C22_flow (env : Env) (k : Nat) (u0 u1 u2 u3 u4 u5 u6 u7 u8 u9 u10 extra hdr rest : Bytes)
    (next_incoming_id : Option TransferNumber) (h0 : Means env u0 next_incoming_id)
    (incoming_window : UInt32) (h1 : Means env u1 incoming_window)
    (next_outgoing_id : TransferNumber) (h2 : Means env u2 next_outgoing_id)
    (outgoing_window : UInt32) (h3 : Means env u3 outgoing_window)
    (handle : Option Handle) (h4 : Means env u4 handle)
    (delivery_count : Option SequenceNo) (h5 : Means env u5 delivery_count)
    (link_credit : Option UInt32) (h6 : Means env u6 link_credit)
    (available : Option UInt32) (h7 : Means env u7 available)
    (drain : Option Bool) (h8 : Means env u8 drain)
    (echo : Option Bool) (h9 : Means env u9 echo)
    (properties : Option Fields) (h10 : Means env u10 properties)
    (hh : ListHeader hdr (([u0, u1, u2, u3, u4, u5, u6, u7, u8, u9, u10].take k).flatten ++ extra).length k) :
    decode Flow env ([0x00, 0x53, 0x13] ++ hdr ++ ([u0, u1, u2, u3, u4, u5, u6, u7, u8, u9, u10].take k).flatten ++ extra ++ rest) =
      if k ≤ 1 then .err (.requiredFieldOmitted "incoming_window") else
      if k ≤ 2 then .err (.requiredFieldOmitted "next_outgoing_id") else
      if k ≤ 3 then .err (.requiredFieldOmitted "outgoing_window") else
      .ok (rest, {
        next_incoming_id := if 0 < k then next_incoming_id else none,
        incoming_window := incoming_window,
        next_outgoing_id := next_outgoing_id,
        outgoing_window := outgoing_window,
        handle := if 4 < k then handle else none,
        delivery_count := if 5 < k then delivery_count else none,
        link_credit := if 6 < k then link_credit else none,
        available := if 7 < k then available else none,
        drain := if 8 < k then drain.getD false else false,
        echo := if 9 < k then echo.getD false else false,
        properties := if 10 < k then properties else none }) := by
  have h := decode_fields (α := Flow) (k := k) (us := [u0, u1, u2, u3, u4, u5, u6, u7, u8, u9, u10]) (extra := extra) (hdr := hdr) (rest := rest)
    (t := (next_incoming_id, incoming_window, next_outgoing_id, outgoing_window, handle, delivery_count, link_credit, available, drain.getD false, echo.getD false, properties, ()))
    (reads_small_descriptor env (c := 19) (by decide)) (.inl rfl) ⟨h0, h1, h2, h3, h4, h5, h6, h7, Reads.map (fun o : Option Bool => o.getD false) h8, Reads.map (fun o : Option Bool => o.getD false) h9, h10, trivial⟩ hh
  simp only [List.append_assoc, List.cons_append, List.nil_append] at h ⊢
  refine h.trans ?_
  clear h hh
  rcases k with _ | _ | _ | _ | _ | _ | _ | _ | _ | _ | _ | k
  all_goals first | rfl | (simp; rfl)

example : decode Flow debugEnv [0x00, 0x53, 0x13, 0xc0, 26, 5, 0x70, 0, 1, 0x11, 0x70, 0x70, 0, 1, 0x11, 0x70, 0x70, 0, 1, 0x11, 0x70, 0x70, 0, 1, 0x11, 0x70, 0x70, 0, 1, 0x11, 0x70, 0xff] =
    .ok ([0xff], { next_incoming_id := some 70000, incoming_window := 70000, next_outgoing_id := 70000, outgoing_window := 70000, handle := some 70000, delivery_count := none, link_credit := none, available := none, drain := false, echo := false, properties := none }) :=
  C22_flow debugEnv 5 [0x70, 0, 1, 0x11, 0x70] [0x70, 0, 1, 0x11, 0x70] [0x70, 0, 1, 0x11, 0x70] [0x70, 0, 1, 0x11, 0x70] [0x70, 0, 1, 0x11, 0x70] [0x70, 0, 1, 0x11, 0x70] [0x70, 0, 1, 0x11, 0x70] [0x70, 0, 1, 0x11, 0x70] [0x41] [0x41] [0x40] [] [0xc0, 26, 5] [0xff]
    (some 70000) (SmallRT.rt debugEnv (some 70000 : Option TransferNumber) (by decide))
    (70000) (SmallRT.rt debugEnv (70000 : UInt32) (by decide))
    (70000) (SmallRT.rt debugEnv (70000 : TransferNumber) (by decide))
    (70000) (SmallRT.rt debugEnv (70000 : UInt32) (by decide))
    (some 70000) (SmallRT.rt debugEnv (some 70000 : Option Handle) (by decide))
    (some 70000) (SmallRT.rt debugEnv (some 70000 : Option SequenceNo) (by decide))
    (some 70000) (SmallRT.rt debugEnv (some 70000 : Option UInt32) (by decide))
    (some 70000) (SmallRT.rt debugEnv (some 70000 : Option UInt32) (by decide))
    (some true) (SmallRT.rt debugEnv (some true : Option Bool) (by decide))
    (some true) (SmallRT.rt debugEnv (some true : Option Bool) (by decide))
    (none) (fun _ => rfl) (.list8 (by decide) (by decide))
example : decode Flow debugEnv [0x00, 0x53, 0x13, 0xc0, 16, 3, 0x70, 0, 1, 0x11, 0x70, 0x70, 0, 1, 0x11, 0x70, 0x70, 0, 1, 0x11, 0x70] =
    .err (.requiredFieldOmitted "outgoing_window") :=
  C22_flow debugEnv 3 [0x70, 0, 1, 0x11, 0x70] [0x70, 0, 1, 0x11, 0x70] [0x70, 0, 1, 0x11, 0x70] [0x70, 0, 1, 0x11, 0x70] [0x70, 0, 1, 0x11, 0x70] [0x70, 0, 1, 0x11, 0x70] [0x70, 0, 1, 0x11, 0x70] [0x70, 0, 1, 0x11, 0x70] [0x41] [0x41] [0x40] [] [0xc0, 16, 3] []
    (some 70000) (SmallRT.rt debugEnv (some 70000 : Option TransferNumber) (by decide))
    (70000) (SmallRT.rt debugEnv (70000 : UInt32) (by decide))
    (70000) (SmallRT.rt debugEnv (70000 : TransferNumber) (by decide))
    (70000) (SmallRT.rt debugEnv (70000 : UInt32) (by decide))
    (some 70000) (SmallRT.rt debugEnv (some 70000 : Option Handle) (by decide))
    (some 70000) (SmallRT.rt debugEnv (some 70000 : Option SequenceNo) (by decide))
    (some 70000) (SmallRT.rt debugEnv (some 70000 : Option UInt32) (by decide))
    (some 70000) (SmallRT.rt debugEnv (some 70000 : Option UInt32) (by decide))
    (some true) (SmallRT.rt debugEnv (some true : Option Bool) (by decide))
    (some true) (SmallRT.rt debugEnv (some true : Option Bool) (by decide))
    (none) (fun _ => rfl) (.list8 (by decide) (by decide))

/-- **C21** for `transfer`, `codegen/specification.json:506-567`. -/
theorem C21_transfer (env : Env) (v : TransferPerf) (hs : (enc v).length < 2 ^ 32)
    (h7 : RoundTrips env v.state) :
    RoundTrips env v := by
  have hs' : (listHdr 20 _ 11 ++ (enc v.handle ++ enc v.delivery_id ++ enc v.delivery_tag ++ enc v.message_format ++ enc v.settled ++ enc v.more ++ enc v.rcv_settle_mode ++ enc v.state ++ enc v.resume ++ enc v.aborted ++ enc v.batchable)).length <
    2 ^ 32 := hs
  simp only [List.length_append] at hs'
  exact LawfulCodec.rt env v ⟨small_of_list v hs, SmallRT.rt env v.handle (by omega), SmallRT.rt env v.delivery_id (by omega), SmallRT.rt env v.delivery_tag (by omega), SmallRT.rt env v.message_format (by omega), SmallRT.rt env v.settled (by omega), SmallRT.rt env v.more (by omega), SmallRT.rt env v.rcv_settle_mode (by omega), h7, SmallRT.rt env v.resume (by omega), SmallRT.rt env v.aborted (by omega), SmallRT.rt env v.batchable (by omega), trivial⟩

/-- A `transfer` with values in all fields of simple types. -/
def TransferPerf.sample : TransferPerf :=
  { handle := 70000,
    delivery_id := some 70000,
    delivery_tag := some (⟨[1, 2, 3]⟩),
    message_format := some 70000,
    settled := some true,
    more := true,
    rcv_settle_mode := some .Second,
    state := none,
    resume := true,
    aborted := true,
    batchable := true }
example : RoundTrips debugEnv TransferPerf.sample := C21_transfer _ _ (by decide) (fun _ => rfl)

/-- **C22** for `transfer`, `codegen/specification.json:506-567`. -/
theorem C22_transfer (env : Env) (k : Nat) (u0 u1 u2 u3 u4 u5 u6 u7 u8 u9 u10 extra hdr rest : Bytes)
    (handle : Handle) (h0 : Means env u0 handle)
    (delivery_id : Option DeliveryNumber) (h1 : Means env u1 delivery_id)
    (delivery_tag : Option DeliveryTag) (h2 : Means env u2 delivery_tag)
    (message_format : Option MessageFormat) (h3 : Means env u3 message_format)
    (settled : Option Bool) (h4 : Means env u4 settled)
    (more : Option Bool) (h5 : Means env u5 more)
    (rcv_settle_mode : Option ReceiverSettleMode) (h6 : Means env u6 rcv_settle_mode)
    (state : Option DeliveryState) (h7 : Means env u7 state)
    (resume : Option Bool) (h8 : Means env u8 resume)
    (aborted : Option Bool) (h9 : Means env u9 aborted)
    (batchable : Option Bool) (h10 : Means env u10 batchable)
    (hh : ListHeader hdr (([u0, u1, u2, u3, u4, u5, u6, u7, u8, u9, u10].take k).flatten ++ extra).length k) :
    decode TransferPerf env ([0x00, 0x53, 0x14] ++ hdr ++ ([u0, u1, u2, u3, u4, u5, u6, u7, u8, u9, u10].take k).flatten ++ extra ++ rest) =
      if k ≤ 0 then .err (.requiredFieldOmitted "handle") else
      .ok (rest, {
        handle := handle,
        delivery_id := if 1 < k then delivery_id else none,
        delivery_tag := if 2 < k then delivery_tag else none,
        message_format := if 3 < k then message_format else none,
        settled := if 4 < k then settled else none,
        more := if 5 < k then more.getD false else false,
        rcv_settle_mode := if 6 < k then rcv_settle_mode else none,
        state := if 7 < k then state else none,
        resume := if 8 < k then resume.getD false else false,
        aborted := if 9 < k then aborted.getD false else false,
        batchable := if 10 < k then batchable.getD false else false }) := by
  have h := decode_fields (α := TransferPerf) (k := k) (us := [u0, u1, u2, u3, u4, u5, u6, u7, u8, u9, u10]) (extra := extra) (hdr := hdr) (rest := rest)
    (t := (handle, delivery_id, delivery_tag, message_format, settled, more.getD false, rcv_settle_mode, state, resume.getD false, aborted.getD false, batchable.getD false, ()))
    (reads_small_descriptor env (c := 20) (by decide)) (.inl rfl) ⟨h0, h1, h2, h3, h4, Reads.map (fun o : Option Bool => o.getD false) h5, h6, h7, Reads.map (fun o : Option Bool => o.getD false) h8, Reads.map (fun o : Option Bool => o.getD false) h9, Reads.map (fun o : Option Bool => o.getD false) h10, trivial⟩ hh
  simp only [List.append_assoc, List.cons_append, List.nil_append] at h ⊢
  refine h.trans ?_
  clear h hh
  rcases k with _ | _ | _ | _ | _ | _ | _ | _ | _ | _ | _ | k
  all_goals first | rfl | (simp; rfl)

example : decode TransferPerf debugEnv [0x00, 0x53, 0x14, 0xc0, 11, 2, 0x70, 0, 1, 0x11, 0x70, 0x70, 0, 1, 0x11, 0x70, 0xff] =
    .ok ([0xff], { handle := 70000, delivery_id := some 70000, delivery_tag := none, message_format := none, settled := none, more := false, rcv_settle_mode := none, state := none, resume := false, aborted := false, batchable := false }) :=
  C22_transfer debugEnv 2 [0x70, 0, 1, 0x11, 0x70] [0x70, 0, 1, 0x11, 0x70] [0xa0, 3, 1, 2, 3] [0x70, 0, 1, 0x11, 0x70] [0x41] [0x41] [0x50, 1] [0x40] [0x41] [0x41] [0x41] [] [0xc0, 11, 2] [0xff]
    (70000) (SmallRT.rt debugEnv (70000 : Handle) (by decide))
    (some 70000) (SmallRT.rt debugEnv (some 70000 : Option DeliveryNumber) (by decide))
    (some (⟨[1, 2, 3]⟩)) (SmallRT.rt debugEnv (some (⟨[1, 2, 3]⟩) : Option DeliveryTag) (by decide))
    (some 70000) (SmallRT.rt debugEnv (some 70000 : Option MessageFormat) (by decide))
    (some true) (SmallRT.rt debugEnv (some true : Option Bool) (by decide))
    (some true) (SmallRT.rt debugEnv (some true : Option Bool) (by decide))
    (some .Second) (SmallRT.rt debugEnv (some .Second : Option ReceiverSettleMode) (by decide))
    (none) (fun _ => rfl)
    (some true) (SmallRT.rt debugEnv (some true : Option Bool) (by decide))
    (some true) (SmallRT.rt debugEnv (some true : Option Bool) (by decide))
    (some true) (SmallRT.rt debugEnv (some true : Option Bool) (by decide)) (.list8 (by decide) (by decide))
example : decode TransferPerf debugEnv [0x00, 0x53, 0x14, 0xc0, 1, 0] =
    .err (.requiredFieldOmitted "handle") :=
  C22_transfer debugEnv 0 [0x70, 0, 1, 0x11, 0x70] [0x70, 0, 1, 0x11, 0x70] [0xa0, 3, 1, 2, 3] [0x70, 0, 1, 0x11, 0x70] [0x41] [0x41] [0x50, 1] [0x40] [0x41] [0x41] [0x41] [] [0xc0, 1, 0] []
    (70000) (SmallRT.rt debugEnv (70000 : Handle) (by decide))
    (some 70000) (SmallRT.rt debugEnv (some 70000 : Option DeliveryNumber) (by decide))
    (some (⟨[1, 2, 3]⟩)) (SmallRT.rt debugEnv (some (⟨[1, 2, 3]⟩) : Option DeliveryTag) (by decide))
    (some 70000) (SmallRT.rt debugEnv (some 70000 : Option MessageFormat) (by decide))
    (some true) (SmallRT.rt debugEnv (some true : Option Bool) (by decide))
    (some true) (SmallRT.rt debugEnv (some true : Option Bool) (by decide))
    (some .Second) (SmallRT.rt debugEnv (some .Second : Option ReceiverSettleMode) (by decide))
    (none) (fun _ => rfl)
    (some true) (SmallRT.rt debugEnv (some true : Option Bool) (by decide))
    (some true) (SmallRT.rt debugEnv (some true : Option Bool) (by decide))
    (some true) (SmallRT.rt debugEnv (some true : Option Bool) (by decide)) (.list8 (by decide) (by decide))

/-- **C21** for `disposition`, `codegen/specification.json:568-608`. -/
theorem C21_disposition (env : Env) (v : Disposition) (hs : (enc v).length < 2 ^ 32)
    (h4 : RoundTrips env v.state) :
    RoundTrips env v := by
  have hs' : (listHdr 21 _ 6 ++ (enc v.role ++ enc v.first ++ enc v.last ++ enc v.settled ++ enc v.state ++ enc v.batchable)).length <
    2 ^ 32 := hs
  simp only [List.length_append] at hs'
  exact LawfulCodec.rt env v ⟨small_of_list v hs, SmallRT.rt env v.role (by omega), SmallRT.rt env v.first (by omega), SmallRT.rt env v.last (by omega), SmallRT.rt env v.settled (by omega), h4, SmallRT.rt env v.batchable (by omega), trivial⟩

/-- A `disposition` with values in all fields of simple types. -/
def Disposition.sample : Disposition :=
  { role := .Receiver,
    first := 70000,
    last := some 70000,
    settled := true,
    state := none,
    batchable := true }
example : RoundTrips debugEnv Disposition.sample := C21_disposition _ _ (by decide) (fun _ => rfl)

/-- **C22** for `disposition`, `codegen/specification.json:568-608`. -/
theorem C22_disposition (env : Env) (k : Nat) (u0 u1 u2 u3 u4 u5 extra hdr rest : Bytes)
    (role : Role) (h0 : Means env u0 role)
    (first : DeliveryNumber) (h1 : Means env u1 first)
    (last : Option DeliveryNumber) (h2 : Means env u2 last)
    (settled : Option Bool) (h3 : Means env u3 settled)
    (state : Option DeliveryState) (h4 : Means env u4 state)
    (batchable : Option Bool) (h5 : Means env u5 batchable)
    (hh : ListHeader hdr (([u0, u1, u2, u3, u4, u5].take k).flatten ++ extra).length k) :
    decode Disposition env ([0x00, 0x53, 0x15] ++ hdr ++ ([u0, u1, u2, u3, u4, u5].take k).flatten ++ extra ++ rest) =
      if k ≤ 0 then .err (.requiredFieldOmitted "role") else
      if k ≤ 1 then .err (.requiredFieldOmitted "first") else
      .ok (rest, {
        role := role,
        first := first,
        last := if 2 < k then last else none,
        settled := if 3 < k then settled.getD false else false,
        state := if 4 < k then state else none,
        batchable := if 5 < k then batchable.getD false else false }) := by
  have h := decode_fields (α := Disposition) (k := k) (us := [u0, u1, u2, u3, u4, u5]) (extra := extra) (hdr := hdr) (rest := rest)
    (t := (role, first, last, settled.getD false, state, batchable.getD false, ()))
    (reads_small_descriptor env (c := 21) (by decide)) (.inl rfl) ⟨h0, h1, h2, Reads.map (fun o : Option Bool => o.getD false) h3, h4, Reads.map (fun o : Option Bool => o.getD false) h5, trivial⟩ hh
  simp only [List.append_assoc, List.cons_append, List.nil_append] at h ⊢
  refine h.trans ?_
  clear h hh
  rcases k with _ | _ | _ | _ | _ | _ | k
  all_goals first | rfl | (simp; rfl)

example : decode Disposition debugEnv [0x00, 0x53, 0x15, 0xc0, 12, 3, 0x41, 0x70, 0, 1, 0x11, 0x70, 0x70, 0, 1, 0x11, 0x70, 0xff] =
    .ok ([0xff], { role := .Receiver, first := 70000, last := some 70000, settled := false, state := none, batchable := false }) :=
  C22_disposition debugEnv 3 [0x41] [0x70, 0, 1, 0x11, 0x70] [0x70, 0, 1, 0x11, 0x70] [0x41] [0x40] [0x41] [] [0xc0, 12, 3] [0xff]
    (.Receiver) (SmallRT.rt debugEnv (.Receiver : Role) (by decide))
    (70000) (SmallRT.rt debugEnv (70000 : DeliveryNumber) (by decide))
    (some 70000) (SmallRT.rt debugEnv (some 70000 : Option DeliveryNumber) (by decide))
    (some true) (SmallRT.rt debugEnv (some true : Option Bool) (by decide))
    (none) (fun _ => rfl)
    (some true) (SmallRT.rt debugEnv (some true : Option Bool) (by decide)) (.list8 (by decide) (by decide))
example : decode Disposition debugEnv [0x00, 0x53, 0x15, 0xc0, 2, 1, 0x41] =
    .err (.requiredFieldOmitted "first") :=
  C22_disposition debugEnv 1 [0x41] [0x70, 0, 1, 0x11, 0x70] [0x70, 0, 1, 0x11, 0x70] [0x41] [0x40] [0x41] [] [0xc0, 2, 1] []
    (.Receiver) (SmallRT.rt debugEnv (.Receiver : Role) (by decide))
    (70000) (SmallRT.rt debugEnv (70000 : DeliveryNumber) (by decide))
    (some 70000) (SmallRT.rt debugEnv (some 70000 : Option DeliveryNumber) (by decide))
    (some true) (SmallRT.rt debugEnv (some true : Option Bool) (by decide))
    (none) (fun _ => rfl)
    (some true) (SmallRT.rt debugEnv (some true : Option Bool) (by decide)) (.list8 (by decide) (by decide))

/-- **C21** for `detach`, `codegen/specification.json:609-634`. -/
theorem C21_detach (env : Env) (v : Detach) (hs : (enc v).length < 2 ^ 32)
    (h2 : RoundTrips env v.error) :
    RoundTrips env v := by
  have hs' : (listHdr 22 _ 3 ++ (enc v.handle ++ enc v.closed ++ enc v.error)).length <
    2 ^ 32 := hs
  simp only [List.length_append] at hs'
  exact LawfulCodec.rt env v ⟨small_of_list v hs, SmallRT.rt env v.handle (by omega), SmallRT.rt env v.closed (by omega), h2, trivial⟩

/-- A `detach` with values in all fields of simple types. -/
def Detach.sample : Detach :=
  { handle := 70000,
    closed := true,
    error := none }
example : RoundTrips debugEnv Detach.sample := C21_detach _ _ (by decide) (fun _ => rfl)

/-- **C22** for `detach`, `codegen/specification.json:609-634`. -/
theorem C22_detach (env : Env) (k : Nat) (u0 u1 u2 extra hdr rest : Bytes)
    (handle : Handle) (h0 : Means env u0 handle)
    (closed : Option Bool) (h1 : Means env u1 closed)
    (error : Option Error) (h2 : Means env u2 error)
    (hh : ListHeader hdr (([u0, u1, u2].take k).flatten ++ extra).length k) :
    decode Detach env ([0x00, 0x53, 0x16] ++ hdr ++ ([u0, u1, u2].take k).flatten ++ extra ++ rest) =
      if k ≤ 0 then .err (.requiredFieldOmitted "handle") else
      .ok (rest, {
        handle := handle,
        closed := if 1 < k then closed.getD false else false,
        error := if 2 < k then error else none }) := by
  have h := decode_fields (α := Detach) (k := k) (us := [u0, u1, u2]) (extra := extra) (hdr := hdr) (rest := rest)
    (t := (handle, closed.getD false, error, ()))
    (reads_small_descriptor env (c := 22) (by decide)) (.inl rfl) ⟨h0, Reads.map (fun o : Option Bool => o.getD false) h1, h2, trivial⟩ hh
  simp only [List.append_assoc, List.cons_append, List.nil_append] at h ⊢
  refine h.trans ?_
  clear h hh
  rcases k with _ | _ | _ | k
  all_goals first | rfl | (simp; rfl)

example : decode Detach debugEnv [0x00, 0x53, 0x16, 0xc0, 7, 2, 0x70, 0, 1, 0x11, 0x70, 0x41, 0xff] =
    .ok ([0xff], { handle := 70000, closed := true, error := none }) :=
  C22_detach debugEnv 2 [0x70, 0, 1, 0x11, 0x70] [0x41] [0x40] [] [0xc0, 7, 2] [0xff]
    (70000) (SmallRT.rt debugEnv (70000 : Handle) (by decide))
    (some true) (SmallRT.rt debugEnv (some true : Option Bool) (by decide))
    (none) (fun _ => rfl) (.list8 (by decide) (by decide))
example : decode Detach debugEnv [0x00, 0x53, 0x16, 0xc0, 1, 0] =
    .err (.requiredFieldOmitted "handle") :=
  C22_detach debugEnv 0 [0x70, 0, 1, 0x11, 0x70] [0x41] [0x40] [] [0xc0, 1, 0] []
    (70000) (SmallRT.rt debugEnv (70000 : Handle) (by decide))
    (some true) (SmallRT.rt debugEnv (some true : Option Bool) (by decide))
    (none) (fun _ => rfl) (.list8 (by decide) (by decide))

/-- **C21** for `end`, `codegen/specification.json:635-648`. -/
theorem C21_end (env : Env) (v : End) (hs : (enc v).length < 2 ^ 32)
    (h0 : RoundTrips env v.error) :
    RoundTrips env v := by
  have hs' : (listHdr 23 _ 1 ++ (enc v.error)).length <
    2 ^ 32 := hs
  simp only [List.length_append] at hs'
  exact LawfulCodec.rt env v ⟨small_of_list v hs, h0, trivial⟩

/-- A `end` with values in all fields of simple types. -/
def End.sample : End :=
  { error := none }
example : RoundTrips debugEnv End.sample := C21_end _ _ (by decide) (fun _ => rfl)

/-- **C22** for `end`, `codegen/specification.json:635-648`. -/
theorem C22_end (env : Env) (k : Nat) (u0 extra hdr rest : Bytes)
    (error : Option Error) (h0 : Means env u0 error)
    (hh : ListHeader hdr (([u0].take k).flatten ++ extra).length k) :
    decode End env ([0x00, 0x53, 0x17] ++ hdr ++ ([u0].take k).flatten ++ extra ++ rest) =
      .ok (rest, {
        error := if 0 < k then error else none }) := by
  have h := decode_fields (α := End) (k := k) (us := [u0]) (extra := extra) (hdr := hdr) (rest := rest)
    (t := (error, ()))
    (reads_small_descriptor env (c := 23) (by decide)) (.inl rfl) ⟨h0, trivial⟩ hh
  simp only [List.append_assoc, List.cons_append, List.nil_append] at h ⊢
  refine h.trans ?_
  clear h hh
  rcases k with _ | k
  all_goals first | rfl | (simp; rfl)

example : decode End debugEnv [0x00, 0x53, 0x17, 0xc0, 2, 1, 0x40, 0xff] =
    .ok ([0xff], { error := none }) :=
  C22_end debugEnv 1 [0x40] [] [0xc0, 2, 1] [0xff]
    (none) (fun _ => rfl) (.list8 (by decide) (by decide))

/-- **C21** for `close`, `codegen/specification.json:649-662`. -/
theorem C21_close (env : Env) (v : Close) (hs : (enc v).length < 2 ^ 32)
    (h0 : RoundTrips env v.error) :
    RoundTrips env v := by
  have hs' : (listHdr 24 _ 1 ++ (enc v.error)).length <
    2 ^ 32 := hs
  simp only [List.length_append] at hs'
  exact LawfulCodec.rt env v ⟨small_of_list v hs, h0, trivial⟩

/-- A `close` with values in all fields of simple types. -/
def Close.sample : Close :=
  { error := none }
example : RoundTrips debugEnv Close.sample := C21_close _ _ (by decide) (fun _ => rfl)

/-- **C22** for `close`, `codegen/specification.json:649-662`. -/
theorem C22_close (env : Env) (k : Nat) (u0 extra hdr rest : Bytes)
    (error : Option Error) (h0 : Means env u0 error)
    (hh : ListHeader hdr (([u0].take k).flatten ++ extra).length k) :
    decode Close env ([0x00, 0x53, 0x18] ++ hdr ++ ([u0].take k).flatten ++ extra ++ rest) =
      .ok (rest, {
        error := if 0 < k then error else none }) := by
  have h := decode_fields (α := Close) (k := k) (us := [u0]) (extra := extra) (hdr := hdr) (rest := rest)
    (t := (error, ()))
    (reads_small_descriptor env (c := 24) (by decide)) (.inl rfl) ⟨h0, trivial⟩ hh
  simp only [List.append_assoc, List.cons_append, List.nil_append] at h ⊢
  refine h.trans ?_
  clear h hh
  rcases k with _ | k
  all_goals first | rfl | (simp; rfl)

example : decode Close debugEnv [0x00, 0x53, 0x18, 0xc0, 2, 1, 0x40, 0xff] =
    .ok ([0xff], { error := none }) :=
  C22_close debugEnv 1 [0x40] [] [0xc0, 2, 1] [0xff]
    (none) (fun _ => rfl) (.list8 (by decide) (by decide))

/-- **C21** for `sasl-mechanisms`, `codegen/specification.json:690-705`. -/
theorem C21_sasl_mechanisms (env : Env) (v : SaslMechanisms) (hs : (enc v).length < 2 ^ 32)
    (h0 : RoundTrips env v.sasl_server_mechanisms) :
    RoundTrips env v := by
  have hs' : (listHdr 64 _ 1 ++ (enc v.sasl_server_mechanisms)).length <
    2 ^ 32 := hs
  simp only [List.length_append] at hs'
  exact LawfulCodec.rt env v ⟨small_of_list v hs, h0, trivial⟩

/-- A `sasl-mechanisms` with values in all fields of simple types. -/
def SaslMechanisms.sample : SaslMechanisms :=
  { sasl_server_mechanisms := ⟨[⟨.lit "PLAIN"⟩]⟩ }
example : RoundTrips debugEnv SaslMechanisms.sample := C21_sasl_mechanisms _ _ (by decide) (LawfulCodec.rt debugEnv (⟨[⟨.lit "PLAIN"⟩]⟩ : Symbols) ⟨fun _ _ h => by cases List.mem_singleton.1 h; exact SmallRT.rt debugEnv (⟨.lit "PLAIN"⟩ : Symbol) (by decide), fun h => absurd rfl h⟩)

/-- **C22** for `sasl-mechanisms`, `codegen/specification.json:690-705`. -/
theorem C22_sasl_mechanisms (env : Env) (k : Nat) (u0 extra hdr rest : Bytes)
    (sasl_server_mechanisms : Symbols) (h0 : Means env u0 sasl_server_mechanisms)
    (hh : ListHeader hdr (([u0].take k).flatten ++ extra).length k) :
    decode SaslMechanisms env ([0x00, 0x53, 0x40] ++ hdr ++ ([u0].take k).flatten ++ extra ++ rest) =
      if k ≤ 0 then .err (.requiredFieldOmitted "sasl_server_mechanisms") else
      .ok (rest, {
        sasl_server_mechanisms := sasl_server_mechanisms }) := by
  have h := decode_fields (α := SaslMechanisms) (k := k) (us := [u0]) (extra := extra) (hdr := hdr) (rest := rest)
    (t := (sasl_server_mechanisms, ()))
    (reads_small_descriptor env (c := 64) (by decide)) (.inl rfl) ⟨h0, trivial⟩ hh
  simp only [List.append_assoc, List.cons_append, List.nil_append] at h ⊢
  refine h.trans ?_
  clear h hh
  rcases k with _ | k
  all_goals first | rfl | (simp; rfl)

example : decode SaslMechanisms debugEnv [0x00, 0x53, 0x40, 0xc0, 8, 1, 0xa3, 5, 0x50, 0x4c, 0x41, 0x49, 0x4e, 0xff] =
    .ok ([0xff], { sasl_server_mechanisms := ⟨[⟨.lit "PLAIN"⟩]⟩ }) :=
  C22_sasl_mechanisms debugEnv 1 [0xa3, 5, 0x50, 0x4c, 0x41, 0x49, 0x4e] [] [0xc0, 8, 1] [0xff]
    (⟨[⟨.lit "PLAIN"⟩]⟩) (LawfulCodec.rt debugEnv (⟨[⟨.lit "PLAIN"⟩]⟩ : Symbols) ⟨fun _ _ h => by cases List.mem_singleton.1 h; exact SmallRT.rt debugEnv (⟨.lit "PLAIN"⟩ : Symbol) (by decide), fun h => absurd rfl h⟩) (.list8 (by decide) (by decide))
example : decode SaslMechanisms debugEnv [0x00, 0x53, 0x40, 0xc0, 1, 0] =
    .err (.requiredFieldOmitted "sasl_server_mechanisms") :=
  C22_sasl_mechanisms debugEnv 0 [0xa3, 5, 0x50, 0x4c, 0x41, 0x49, 0x4e] [] [0xc0, 1, 0] []
    (⟨[⟨.lit "PLAIN"⟩]⟩) (LawfulCodec.rt debugEnv (⟨[⟨.lit "PLAIN"⟩]⟩ : Symbols) ⟨fun _ _ h => by cases List.mem_singleton.1 h; exact SmallRT.rt debugEnv (⟨.lit "PLAIN"⟩ : Symbol) (by decide), fun h => absurd rfl h⟩) (.list8 (by decide) (by decide))

/-- **C21** for `sasl-init`, `codegen/specification.json:706-730`. -/
theorem C21_sasl_init (env : Env) (v : SaslInit) (hs : (enc v).length < 2 ^ 32) :
    RoundTrips env v := by
  have hs' : (listHdr 65 _ 3 ++ (enc v.mechanism ++ enc v.initial_response ++ enc v.hostname)).length <
    2 ^ 32 := hs
  simp only [List.length_append] at hs'
  exact LawfulCodec.rt env v ⟨small_of_list v hs, SmallRT.rt env v.mechanism (by omega), SmallRT.rt env v.initial_response (by omega), SmallRT.rt env v.hostname (by omega), trivial⟩

/-- A `sasl-init` with values in all fields of simple types. -/
def SaslInit.sample : SaslInit :=
  { mechanism := ⟨.lit "sym"⟩,
    initial_response := some (⟨[1, 2, 3]⟩),
    hostname := some (.lit "héllo") }
example : RoundTrips debugEnv SaslInit.sample := C21_sasl_init _ _ (by decide)

/-- **C22** for `sasl-init`, `codegen/specification.json:706-730`. -/
theorem C22_sasl_init (env : Env) (k : Nat) (u0 u1 u2 extra hdr rest : Bytes)
    (mechanism : Symbol) (h0 : Means env u0 mechanism)
    (initial_response : Option Binary) (h1 : Means env u1 initial_response)
    (hostname : Option ByteStr) (h2 : Means env u2 hostname)
    (hh : ListHeader hdr (([u0, u1, u2].take k).flatten ++ extra).length k) :
    decode SaslInit env ([0x00, 0x53, 0x41] ++ hdr ++ ([u0, u1, u2].take k).flatten ++ extra ++ rest) =
      if k ≤ 0 then .err (.requiredFieldOmitted "mechanism") else
      .ok (rest, {
        mechanism := mechanism,
        initial_response := if 1 < k then initial_response else none,
        hostname := if 2 < k then hostname else none }) := by
  have h := decode_fields (α := SaslInit) (k := k) (us := [u0, u1, u2]) (extra := extra) (hdr := hdr) (rest := rest)
    (t := (mechanism, initial_response, hostname, ()))
    (reads_small_descriptor env (c := 65) (by decide)) (.inl rfl) ⟨h0, h1, h2, trivial⟩ hh
  simp only [List.append_assoc, List.cons_append, List.nil_append] at h ⊢
  refine h.trans ?_
  clear h hh
  rcases k with _ | _ | _ | k
  all_goals first | rfl | (simp; rfl)

example : decode SaslInit debugEnv [0x00, 0x53, 0x41, 0xc0, 11, 2, 0xa3, 3, 0x73, 0x79, 0x6d, 0xa0, 3, 1, 2, 3, 0xff] =
    .ok ([0xff], { mechanism := ⟨.lit "sym"⟩, initial_response := some (⟨[1, 2, 3]⟩), hostname := none }) :=
  C22_sasl_init debugEnv 2 [0xa3, 3, 0x73, 0x79, 0x6d] [0xa0, 3, 1, 2, 3] [0xa1, 6, 0x68, 0xc3, 0xa9, 0x6c, 0x6c, 0x6f] [] [0xc0, 11, 2] [0xff]
    (⟨.lit "sym"⟩) (SmallRT.rt debugEnv (⟨.lit "sym"⟩ : Symbol) (by decide))
    (some (⟨[1, 2, 3]⟩)) (SmallRT.rt debugEnv (some (⟨[1, 2, 3]⟩) : Option Binary) (by decide))
    (some (.lit "héllo")) (SmallRT.rt debugEnv (some (.lit "héllo") : Option ByteStr) (by decide)) (.list8 (by decide) (by decide))
example : decode SaslInit debugEnv [0x00, 0x53, 0x41, 0xc0, 1, 0] =
    .err (.requiredFieldOmitted "mechanism") :=
  C22_sasl_init debugEnv 0 [0xa3, 3, 0x73, 0x79, 0x6d] [0xa0, 3, 1, 2, 3] [0xa1, 6, 0x68, 0xc3, 0xa9, 0x6c, 0x6c, 0x6f] [] [0xc0, 1, 0] []
    (⟨.lit "sym"⟩) (SmallRT.rt debugEnv (⟨.lit "sym"⟩ : Symbol) (by decide))
    (some (⟨[1, 2, 3]⟩)) (SmallRT.rt debugEnv (some (⟨[1, 2, 3]⟩) : Option Binary) (by decide))
    (some (.lit "héllo")) (SmallRT.rt debugEnv (some (.lit "héllo") : Option ByteStr) (by decide)) (.list8 (by decide) (by decide))

/-- **C21** for `sasl-challenge`, `codegen/specification.json:731-745`. -/
theorem C21_sasl_challenge (env : Env) (v : SaslChallenge) (hs : (enc v).length < 2 ^ 32) :
    RoundTrips env v := by
  have hs' : (listHdr 66 _ 1 ++ (enc v.challenge)).length <
    2 ^ 32 := hs
  simp only [List.length_append] at hs'
  exact LawfulCodec.rt env v ⟨small_of_list v hs, SmallRT.rt env v.challenge (by omega), trivial⟩

/-- A `sasl-challenge` with values in all fields of simple types. -/
def SaslChallenge.sample : SaslChallenge :=
  { challenge := ⟨[1, 2, 3]⟩ }
example : RoundTrips debugEnv SaslChallenge.sample := C21_sasl_challenge _ _ (by decide)

/-- **C22** for `sasl-challenge`, `codegen/specification.json:731-745`. -/
theorem C22_sasl_challenge (env : Env) (k : Nat) (u0 extra hdr rest : Bytes)
    (challenge : Binary) (h0 : Means env u0 challenge)
    (hh : ListHeader hdr (([u0].take k).flatten ++ extra).length k) :
    decode SaslChallenge env ([0x00, 0x53, 0x42] ++ hdr ++ ([u0].take k).flatten ++ extra ++ rest) =
      if k ≤ 0 then .err (.requiredFieldOmitted "challenge") else
      .ok (rest, {
        challenge := challenge }) := by
  have h := decode_fields (α := SaslChallenge) (k := k) (us := [u0]) (extra := extra) (hdr := hdr) (rest := rest)
    (t := (challenge, ()))
    (reads_small_descriptor env (c := 66) (by decide)) (.inl rfl) ⟨h0, trivial⟩ hh
  simp only [List.append_assoc, List.cons_append, List.nil_append] at h ⊢
  refine h.trans ?_
  clear h hh
  rcases k with _ | k
  all_goals first | rfl | (simp; rfl)

example : decode SaslChallenge debugEnv [0x00, 0x53, 0x42, 0xc0, 6, 1, 0xa0, 3, 1, 2, 3, 0xff] =
    .ok ([0xff], { challenge := ⟨[1, 2, 3]⟩ }) :=
  C22_sasl_challenge debugEnv 1 [0xa0, 3, 1, 2, 3] [] [0xc0, 6, 1] [0xff]
    (⟨[1, 2, 3]⟩) (SmallRT.rt debugEnv (⟨[1, 2, 3]⟩ : Binary) (by decide)) (.list8 (by decide) (by decide))
example : decode SaslChallenge debugEnv [0x00, 0x53, 0x42, 0xc0, 1, 0] =
    .err (.requiredFieldOmitted "challenge") :=
  C22_sasl_challenge debugEnv 0 [0xa0, 3, 1, 2, 3] [] [0xc0, 1, 0] []
    (⟨[1, 2, 3]⟩) (SmallRT.rt debugEnv (⟨[1, 2, 3]⟩ : Binary) (by decide)) (.list8 (by decide) (by decide))

/-- **C21** for `sasl-response`, `codegen/specification.json:746-760`. -/
theorem C21_sasl_response (env : Env) (v : SaslResponse) (hs : (enc v).length < 2 ^ 32) :
    RoundTrips env v := by
  have hs' : (listHdr 67 _ 1 ++ (enc v.response)).length <
    2 ^ 32 := hs
  simp only [List.length_append] at hs'
  exact LawfulCodec.rt env v ⟨small_of_list v hs, SmallRT.rt env v.response (by omega), trivial⟩

/-- A `sasl-response` with values in all fields of simple types. -/
def SaslResponse.sample : SaslResponse :=
  { response := ⟨[1, 2, 3]⟩ }
example : RoundTrips debugEnv SaslResponse.sample := C21_sasl_response _ _ (by decide)

/-- **C22** for `sasl-response`, `codegen/specification.json:746-760`. -/
theorem C22_sasl_response (env : Env) (k : Nat) (u0 extra hdr rest : Bytes)
    (response : Binary) (h0 : Means env u0 response)
    (hh : ListHeader hdr (([u0].take k).flatten ++ extra).length k) :
    decode SaslResponse env ([0x00, 0x53, 0x43] ++ hdr ++ ([u0].take k).flatten ++ extra ++ rest) =
      if k ≤ 0 then .err (.requiredFieldOmitted "response") else
      .ok (rest, {
        response := response }) := by
  have h := decode_fields (α := SaslResponse) (k := k) (us := [u0]) (extra := extra) (hdr := hdr) (rest := rest)
    (t := (response, ()))
    (reads_small_descriptor env (c := 67) (by decide)) (.inl rfl) ⟨h0, trivial⟩ hh
  simp only [List.append_assoc, List.cons_append, List.nil_append] at h ⊢
  refine h.trans ?_
  clear h hh
  rcases k with _ | k
  all_goals first | rfl | (simp; rfl)

example : decode SaslResponse debugEnv [0x00, 0x53, 0x43, 0xc0, 6, 1, 0xa0, 3, 1, 2, 3, 0xff] =
    .ok ([0xff], { response := ⟨[1, 2, 3]⟩ }) :=
  C22_sasl_response debugEnv 1 [0xa0, 3, 1, 2, 3] [] [0xc0, 6, 1] [0xff]
    (⟨[1, 2, 3]⟩) (SmallRT.rt debugEnv (⟨[1, 2, 3]⟩ : Binary) (by decide)) (.list8 (by decide) (by decide))
example : decode SaslResponse debugEnv [0x00, 0x53, 0x43, 0xc0, 1, 0] =
    .err (.requiredFieldOmitted "response") :=
  C22_sasl_response debugEnv 0 [0xa0, 3, 1, 2, 3] [] [0xc0, 1, 0] []
    (⟨[1, 2, 3]⟩) (SmallRT.rt debugEnv (⟨[1, 2, 3]⟩ : Binary) (by decide)) (.list8 (by decide) (by decide))

/-- **C21** for `sasl-outcome`, `codegen/specification.json:761-781`. -/
theorem C21_sasl_outcome (env : Env) (v : SaslOutcome) (hs : (enc v).length < 2 ^ 32) :
    RoundTrips env v := by
  have hs' : (listHdr 68 _ 2 ++ (enc v.code ++ enc v.additional_data)).length <
    2 ^ 32 := hs
  simp only [List.length_append] at hs'
  exact LawfulCodec.rt env v ⟨small_of_list v hs, SmallRT.rt env v.code (by omega), SmallRT.rt env v.additional_data (by omega), trivial⟩

/-- A `sasl-outcome` with values in all fields of simple types. -/
def SaslOutcome.sample : SaslOutcome :=
  { code := .SysPerm,
    additional_data := some (⟨[1, 2, 3]⟩) }
example : RoundTrips debugEnv SaslOutcome.sample := C21_sasl_outcome _ _ (by decide)

/-- **C22** for `sasl-outcome`, `codegen/specification.json:761-781`. -/
theorem C22_sasl_outcome (env : Env) (k : Nat) (u0 u1 extra hdr rest : Bytes)
    (code : SaslCode) (h0 : Means env u0 code)
    (additional_data : Option Binary) (h1 : Means env u1 additional_data)
    (hh : ListHeader hdr (([u0, u1].take k).flatten ++ extra).length k) :
    decode SaslOutcome env ([0x00, 0x53, 0x44] ++ hdr ++ ([u0, u1].take k).flatten ++ extra ++ rest) =
      if k ≤ 0 then .err (.requiredFieldOmitted "code") else
      .ok (rest, {
        code := code,
        additional_data := if 1 < k then additional_data else none }) := by
  have h := decode_fields (α := SaslOutcome) (k := k) (us := [u0, u1]) (extra := extra) (hdr := hdr) (rest := rest)
    (t := (code, additional_data, ()))
    (reads_small_descriptor env (c := 68) (by decide)) (.inl rfl) ⟨h0, h1, trivial⟩ hh
  simp only [List.append_assoc, List.cons_append, List.nil_append] at h ⊢
  refine h.trans ?_
  clear h hh
  rcases k with _ | _ | k
  all_goals first | rfl | (simp; rfl)

example : decode SaslOutcome debugEnv [0x00, 0x53, 0x44, 0xc0, 8, 2, 0x50, 3, 0xa0, 3, 1, 2, 3, 0xff] =
    .ok ([0xff], { code := .SysPerm, additional_data := some (⟨[1, 2, 3]⟩) }) :=
  C22_sasl_outcome debugEnv 2 [0x50, 3] [0xa0, 3, 1, 2, 3] [] [0xc0, 8, 2] [0xff]
    (.SysPerm) (SmallRT.rt debugEnv (.SysPerm : SaslCode) (by decide))
    (some (⟨[1, 2, 3]⟩)) (SmallRT.rt debugEnv (some (⟨[1, 2, 3]⟩) : Option Binary) (by decide)) (.list8 (by decide) (by decide))
example : decode SaslOutcome debugEnv [0x00, 0x53, 0x44, 0xc0, 1, 0] =
    .err (.requiredFieldOmitted "code") :=
  C22_sasl_outcome debugEnv 0 [0x50, 3] [0xa0, 3, 1, 2, 3] [] [0xc0, 1, 0] []
    (.SysPerm) (SmallRT.rt debugEnv (.SysPerm : SaslCode) (by decide))
    (some (⟨[1, 2, 3]⟩)) (SmallRT.rt debugEnv (some (⟨[1, 2, 3]⟩) : Option Binary) (by decide)) (.list8 (by decide) (by decide))

/-- **C21** for `source`, `codegen/specification.json:834-898`. -/
theorem C21_source (env : Env) (v : Source) (hs : (enc v).length < 2 ^ 32)
    (h5 : RoundTrips env v.dynamic_node_properties)
    (h6 : RoundTrips env v.distribution_mode)
    (h7 : RoundTrips env v.filter)
    (h8 : RoundTrips env v.default_outcome)
    (h9 : RoundTrips env v.outcomes)
    (h10 : RoundTrips env v.capabilities) :
    RoundTrips env v := by
  have hs' : (listHdr 40 _ 11 ++ (enc v.address ++ enc v.durable ++ enc v.expiry_policy ++ enc v.timeout ++ enc v.dynamic ++ enc v.dynamic_node_properties ++ enc v.distribution_mode ++ enc v.filter ++ enc v.default_outcome ++ enc v.outcomes ++ enc v.capabilities)).length <
    2 ^ 32 := hs
  simp only [List.length_append] at hs'
  exact LawfulCodec.rt env v ⟨small_of_list v hs, SmallRT.rt env v.address (by omega), SmallRT.rt env v.durable (by omega), SmallRT.rt env v.expiry_policy (by omega), SmallRT.rt env v.timeout (by omega), SmallRT.rt env v.dynamic (by omega), h5, h6, h7, h8, h9, h10, trivial⟩

/-- A `source` with values in all fields of simple types. -/
def Source.sample : Source :=
  { address := some (.lit "héllo"),
    durable := .UnsettledState,
    expiry_policy := .Never,
    timeout := 70000,
    dynamic := true,
    dynamic_node_properties := none,
    distribution_mode := none,
    filter := none,
    default_outcome := none,
    outcomes := none,
    capabilities := none }
example : RoundTrips debugEnv Source.sample := C21_source _ _ (by decide) (fun _ => rfl) (fun _ => rfl) (fun _ => rfl) (fun _ => rfl) (fun _ => rfl) (fun _ => rfl)

/-- **C22** for `source`, `codegen/specification.json:834-898`. -/
theorem C22_source (env : Env) (k : Nat) (u0 u1 u2 u3 u4 u5 u6 u7 u8 u9 u10 extra hdr rest : Bytes)
    (address : Option Address) (h0 : Means env u0 address)
    (durable : Option TerminusDurability) (h1 : Means env u1 durable)
    (expiry_policy : Option TerminusExpiryPolicy) (h2 : Means env u2 expiry_policy)
    (timeout : Option Seconds) (h3 : Means env u3 timeout)
    (dynamic : Option Bool) (h4 : Means env u4 dynamic)
    (dynamic_node_properties : Option NodeProperties) (h5 : Means env u5 dynamic_node_properties)
    (distribution_mode : Option DistributionMode) (h6 : Means env u6 distribution_mode)
    (filter : Option FilterSet) (h7 : Means env u7 filter)
    (default_outcome : Option Outcome) (h8 : Means env u8 default_outcome)
    (outcomes : Option Symbols) (h9 : Means env u9 outcomes)
    (capabilities : Option Symbols) (h10 : Means env u10 capabilities)
    (hh : ListHeader hdr (([u0, u1, u2, u3, u4, u5, u6, u7, u8, u9, u10].take k).flatten ++ extra).length k) :
    decode Source env ([0x00, 0x53, 0x28] ++ hdr ++ ([u0, u1, u2, u3, u4, u5, u6, u7, u8, u9, u10].take k).flatten ++ extra ++ rest) =
      .ok (rest, {
        address := if 0 < k then address else none,
        durable := if 1 < k then durable.getD TerminusDurability.None else TerminusDurability.None,
        expiry_policy := if 2 < k then expiry_policy.getD TerminusExpiryPolicy.SessionEnd else TerminusExpiryPolicy.SessionEnd,
        timeout := if 3 < k then timeout.getD 0 else 0,
        dynamic := if 4 < k then dynamic.getD false else false,
        dynamic_node_properties := if 5 < k then dynamic_node_properties else none,
        distribution_mode := if 6 < k then distribution_mode else none,
        filter := if 7 < k then filter else none,
        default_outcome := if 8 < k then default_outcome else none,
        outcomes := if 9 < k then outcomes else none,
        capabilities := if 10 < k then capabilities else none }) := by
  have h := decode_fields (α := Source) (k := k) (us := [u0, u1, u2, u3, u4, u5, u6, u7, u8, u9, u10]) (extra := extra) (hdr := hdr) (rest := rest)
    (t := (address, durable.getD TerminusDurability.None, expiry_policy.getD TerminusExpiryPolicy.SessionEnd, timeout.getD 0, dynamic.getD false, dynamic_node_properties, distribution_mode, filter, default_outcome, outcomes, capabilities, ()))
    (reads_small_descriptor env (c := 40) (by decide)) (.inl rfl) ⟨h0, Reads.map (fun o : Option TerminusDurability => o.getD TerminusDurability.None) h1, Reads.map (fun o : Option TerminusExpiryPolicy => o.getD TerminusExpiryPolicy.SessionEnd) h2, Reads.map (fun o : Option Seconds => o.getD 0) h3, Reads.map (fun o : Option Bool => o.getD false) h4, h5, h6, h7, h8, h9, h10, trivial⟩ hh
  simp only [List.append_assoc, List.cons_append, List.nil_append] at h ⊢
  refine h.trans ?_
  clear h hh
  rcases k with _ | _ | _ | _ | _ | _ | _ | _ | _ | _ | _ | k
  all_goals first | rfl | (simp; rfl)

example : decode Source debugEnv [0x00, 0x53, 0x28, 0xc0, 9, 1, 0xa1, 6, 0x68, 0xc3, 0xa9, 0x6c, 0x6c, 0x6f, 0xff] =
    .ok ([0xff], { address := some (.lit "héllo"), durable := TerminusDurability.None, expiry_policy := TerminusExpiryPolicy.SessionEnd, timeout := 0, dynamic := false, dynamic_node_properties := none, distribution_mode := none, filter := none, default_outcome := none, outcomes := none, capabilities := none }) :=
  C22_source debugEnv 1 [0xa1, 6, 0x68, 0xc3, 0xa9, 0x6c, 0x6c, 0x6f] [0x52, 2] [0xa3, 5, 0x6e, 0x65, 0x76, 0x65, 0x72] [0x70, 0, 1, 0x11, 0x70] [0x41] [0x40] [0x40] [0x40] [0x40] [0x40] [0x40] [] [0xc0, 9, 1] [0xff]
    (some (.lit "héllo")) (SmallRT.rt debugEnv (some (.lit "héllo") : Option Address) (by decide))
    (some .UnsettledState) (SmallRT.rt debugEnv (some .UnsettledState : Option TerminusDurability) (by decide))
    (some .Never) (SmallRT.rt debugEnv (some .Never : Option TerminusExpiryPolicy) (by decide))
    (some 70000) (SmallRT.rt debugEnv (some 70000 : Option Seconds) (by decide))
    (some true) (SmallRT.rt debugEnv (some true : Option Bool) (by decide))
    (none) (fun _ => rfl)
    (none) (fun _ => rfl)
    (none) (fun _ => rfl)
    (none) (fun _ => rfl)
    (none) (fun _ => rfl)
    (none) (fun _ => rfl) (.list8 (by decide) (by decide))

/-- **C21** for `target`, `codegen/specification.json:899-944`. -/
theorem C21_target (env : Env) (v : Target) (hs : (enc v).length < 2 ^ 32)
    (h5 : RoundTrips env v.dynamic_node_properties)
    (h6 : RoundTrips env v.capabilities) :
    RoundTrips env v := by
  have hs' : (listHdr 41 _ 7 ++ (enc v.address ++ enc v.durable ++ enc v.expiry_policy ++ enc v.timeout ++ enc v.dynamic ++ enc v.dynamic_node_properties ++ enc v.capabilities)).length <
    2 ^ 32 := hs
  simp only [List.length_append] at hs'
  exact LawfulCodec.rt env v ⟨small_of_list v hs, SmallRT.rt env v.address (by omega), SmallRT.rt env v.durable (by omega), SmallRT.rt env v.expiry_policy (by omega), SmallRT.rt env v.timeout (by omega), SmallRT.rt env v.dynamic (by omega), h5, h6, trivial⟩

/-- A `target` with values in all fields of simple types. -/
def Target.sample : Target :=
  { address := some (.lit "héllo"),
    durable := .UnsettledState,
    expiry_policy := .Never,
    timeout := 70000,
    dynamic := true,
    dynamic_node_properties := none,
    capabilities := none }
example : RoundTrips debugEnv Target.sample := C21_target _ _ (by decide) (fun _ => rfl) (fun _ => rfl)

/-- **C22** for `target`, `codegen/specification.json:899-944`. -/
theorem C22_target (env : Env) (k : Nat) (u0 u1 u2 u3 u4 u5 u6 extra hdr rest : Bytes)
    (address : Option Address) (h0 : Means env u0 address)
    (durable : Option TerminusDurability) (h1 : Means env u1 durable)
    (expiry_policy : Option TerminusExpiryPolicy) (h2 : Means env u2 expiry_policy)
    (timeout : Option Seconds) (h3 : Means env u3 timeout)
    (dynamic : Option Bool) (h4 : Means env u4 dynamic)
    (dynamic_node_properties : Option NodeProperties) (h5 : Means env u5 dynamic_node_properties)
    (capabilities : Option Symbols) (h6 : Means env u6 capabilities)
    (hh : ListHeader hdr (([u0, u1, u2, u3, u4, u5, u6].take k).flatten ++ extra).length k) :
    decode Target env ([0x00, 0x53, 0x29] ++ hdr ++ ([u0, u1, u2, u3, u4, u5, u6].take k).flatten ++ extra ++ rest) =
      .ok (rest, {
        address := if 0 < k then address else none,
        durable := if 1 < k then durable.getD TerminusDurability.None else TerminusDurability.None,
        expiry_policy := if 2 < k then expiry_policy.getD TerminusExpiryPolicy.SessionEnd else TerminusExpiryPolicy.SessionEnd,
        timeout := if 3 < k then timeout.getD 0 else 0,
        dynamic := if 4 < k then dynamic.getD false else false,
        dynamic_node_properties := if 5 < k then dynamic_node_properties else none,
        capabilities := if 6 < k then capabilities else none }) := by
  have h := decode_fields (α := Target) (k := k) (us := [u0, u1, u2, u3, u4, u5, u6]) (extra := extra) (hdr := hdr) (rest := rest)
    (t := (address, durable.getD TerminusDurability.None, expiry_policy.getD TerminusExpiryPolicy.SessionEnd, timeout.getD 0, dynamic.getD false, dynamic_node_properties, capabilities, ()))
    (reads_small_descriptor env (c := 41) (by decide)) (.inl rfl) ⟨h0, Reads.map (fun o : Option TerminusDurability => o.getD TerminusDurability.None) h1, Reads.map (fun o : Option TerminusExpiryPolicy => o.getD TerminusExpiryPolicy.SessionEnd) h2, Reads.map (fun o : Option Seconds => o.getD 0) h3, Reads.map (fun o : Option Bool => o.getD false) h4, h5, h6, trivial⟩ hh
  simp only [List.append_assoc, List.cons_append, List.nil_append] at h ⊢
  refine h.trans ?_
  clear h hh
  rcases k with _ | _ | _ | _ | _ | _ | _ | k
  all_goals first | rfl | (simp; rfl)

example : decode Target debugEnv [0x00, 0x53, 0x29, 0xc0, 9, 1, 0xa1, 6, 0x68, 0xc3, 0xa9, 0x6c, 0x6c, 0x6f, 0xff] =
    .ok ([0xff], { address := some (.lit "héllo"), durable := TerminusDurability.None, expiry_policy := TerminusExpiryPolicy.SessionEnd, timeout := 0, dynamic := false, dynamic_node_properties := none, capabilities := none }) :=
  C22_target debugEnv 1 [0xa1, 6, 0x68, 0xc3, 0xa9, 0x6c, 0x6c, 0x6f] [0x52, 2] [0xa3, 5, 0x6e, 0x65, 0x76, 0x65, 0x72] [0x70, 0, 1, 0x11, 0x70] [0x41] [0x40] [0x40] [] [0xc0, 9, 1] [0xff]
    (some (.lit "héllo")) (SmallRT.rt debugEnv (some (.lit "héllo") : Option Address) (by decide))
    (some .UnsettledState) (SmallRT.rt debugEnv (some .UnsettledState : Option TerminusDurability) (by decide))
    (some .Never) (SmallRT.rt debugEnv (some .Never : Option TerminusExpiryPolicy) (by decide))
    (some 70000) (SmallRT.rt debugEnv (some 70000 : Option Seconds) (by decide))
    (some true) (SmallRT.rt debugEnv (some true : Option Bool) (by decide))
    (none) (fun _ => rfl)
    (none) (fun _ => rfl) (.list8 (by decide) (by decide))

/-- **C21** for `header`, `codegen/specification.json:980-1015`. -/
theorem C21_header (env : Env) (v : Header) (hs : (enc v).length < 2 ^ 32) :
    RoundTrips env v := by
  have hs' : (listHdr 112 _ 5 ++ (enc v.durable ++ enc v.priority ++ enc v.ttl ++ enc v.first_acquirer ++ enc v.delivery_count)).length <
    2 ^ 32 := hs
  simp only [List.length_append] at hs'
  exact LawfulCodec.rt env v ⟨small_of_list v hs, SmallRT.rt env v.durable (by omega), SmallRT.rt env v.priority (by omega), SmallRT.rt env v.ttl (by omega), SmallRT.rt env v.first_acquirer (by omega), SmallRT.rt env v.delivery_count (by omega), trivial⟩

/-- A `header` with values in all fields of simple types. -/
def Header.sample : Header :=
  { durable := true,
    priority := 7,
    ttl := some 70000,
    first_acquirer := true,
    delivery_count := 70000 }
example : RoundTrips debugEnv Header.sample := C21_header _ _ (by decide)

/-- **C22** for `header`, `codegen/specification.json:980-1015`. -/
theorem C22_header (env : Env) (k : Nat) (u0 u1 u2 u3 u4 extra hdr rest : Bytes)
    (durable : Option Bool) (h0 : Means env u0 durable)
    (priority : Option UInt8) (h1 : Means env u1 priority)
    (ttl : Option Milliseconds) (h2 : Means env u2 ttl)
    (first_acquirer : Option Bool) (h3 : Means env u3 first_acquirer)
    (delivery_count : Option UInt32) (h4 : Means env u4 delivery_count)
    (hh : ListHeader hdr (([u0, u1, u2, u3, u4].take k).flatten ++ extra).length k) :
    decode Header env ([0x00, 0x53, 0x70] ++ hdr ++ ([u0, u1, u2, u3, u4].take k).flatten ++ extra ++ rest) =
      .ok (rest, {
        durable := if 0 < k then durable.getD false else false,
        priority := if 1 < k then priority.getD 4 else 4,
        ttl := if 2 < k then ttl else none,
        first_acquirer := if 3 < k then first_acquirer.getD false else false,
        delivery_count := if 4 < k then delivery_count.getD 0 else 0 }) := by
  have h := decode_fields (α := Header) (k := k) (us := [u0, u1, u2, u3, u4]) (extra := extra) (hdr := hdr) (rest := rest)
    (t := (durable.getD false, priority.getD 4, ttl, first_acquirer.getD false, delivery_count.getD 0, ()))
    (reads_small_descriptor env (c := 112) (by decide)) (.inl rfl) ⟨Reads.map (fun o : Option Bool => o.getD false) h0, Reads.map (fun o : Option UInt8 => o.getD 4) h1, h2, Reads.map (fun o : Option Bool => o.getD false) h3, Reads.map (fun o : Option UInt32 => o.getD 0) h4, trivial⟩ hh
  simp only [List.append_assoc, List.cons_append, List.nil_append] at h ⊢
  refine h.trans ?_
  clear h hh
  rcases k with _ | _ | _ | _ | _ | k
  all_goals first | rfl | (simp; rfl)

example : decode Header debugEnv [0x00, 0x53, 0x70, 0xc0, 2, 1, 0x41, 0xff] =
    .ok ([0xff], { durable := true, priority := 4, ttl := none, first_acquirer := false, delivery_count := 0 }) :=
  C22_header debugEnv 1 [0x41] [0x50, 7] [0x70, 0, 1, 0x11, 0x70] [0x41] [0x70, 0, 1, 0x11, 0x70] [] [0xc0, 2, 1] [0xff]
    (some true) (SmallRT.rt debugEnv (some true : Option Bool) (by decide))
    (some 7) (SmallRT.rt debugEnv (some 7 : Option UInt8) (by decide))
    (some 70000) (SmallRT.rt debugEnv (some 70000 : Option Milliseconds) (by decide))
    (some true) (SmallRT.rt debugEnv (some true : Option Bool) (by decide))
    (some 70000) (SmallRT.rt debugEnv (some 70000 : Option UInt32) (by decide)) (.list8 (by decide) (by decide))

/-- **C21** for `properties`, `codegen/specification.json:1086-1153`. -/
theorem C21_properties (env : Env) (v : Properties) (hs : (enc v).length < 2 ^ 32)
    (h8 : RoundTrips env v.absolute_expiry_time)
    (h9 : RoundTrips env v.creation_time) :
    RoundTrips env v := by
  have hs' : (listHdr 115 _ 13 ++ (enc v.message_id ++ enc v.user_id ++ enc v.to ++ enc v.subject ++ enc v.reply_to ++ enc v.correlation_id ++ enc v.content_type ++ enc v.content_encoding ++ enc v.absolute_expiry_time ++ enc v.creation_time ++ enc v.group_id ++ enc v.group_sequence ++ enc v.reply_to_group_id)).length <
    2 ^ 32 := hs
  simp only [List.length_append] at hs'
  exact LawfulCodec.rt env v ⟨small_of_list v hs, SmallRT.rt env v.message_id (by omega), SmallRT.rt env v.user_id (by omega), SmallRT.rt env v.to (by omega), SmallRT.rt env v.subject (by omega), SmallRT.rt env v.reply_to (by omega), SmallRT.rt env v.correlation_id (by omega), SmallRT.rt env v.content_type (by omega), SmallRT.rt env v.content_encoding (by omega), h8, h9, SmallRT.rt env v.group_id (by omega), SmallRT.rt env v.group_sequence (by omega), SmallRT.rt env v.reply_to_group_id (by omega), trivial⟩

/-- A `properties` with values in all fields of simple types. -/
def Properties.sample : Properties :=
  { message_id := some (.String (.lit "id")),
    user_id := some (⟨[1, 2, 3]⟩),
    to := some (.lit "héllo"),
    subject := some (.lit "héllo"),
    reply_to := some (.lit "héllo"),
    correlation_id := some (.String (.lit "id")),
    content_type := some (⟨.lit "sym"⟩),
    content_encoding := some (⟨.lit "sym"⟩),
    absolute_expiry_time := none,
    creation_time := none,
    group_id := some (.lit "héllo"),
    group_sequence := some 70000,
    reply_to_group_id := some (.lit "héllo") }
example : RoundTrips debugEnv Properties.sample := C21_properties _ _ (by decide) (fun _ => rfl) (fun _ => rfl)

/-- **C22** for `properties`, `codegen/specification.json:1086-1153`. -/
theorem C22_properties (env : Env) (k : Nat) (u0 u1 u2 u3 u4 u5 u6 u7 u8 u9 u10 u11 u12 extra hdr rest : Bytes)
    (message_id : Option MessageId) (h0 : Means env u0 message_id)
    (user_id : Option Binary) (h1 : Means env u1 user_id)
    (to : Option Address) (h2 : Means env u2 to)
    (subject : Option ByteStr) (h3 : Means env u3 subject)
    (reply_to : Option Address) (h4 : Means env u4 reply_to)
    (correlation_id : Option MessageId) (h5 : Means env u5 correlation_id)
    (content_type : Option Symbol) (h6 : Means env u6 content_type)
    (content_encoding : Option Symbol) (h7 : Means env u7 content_encoding)
    (absolute_expiry_time : Option Timestamp) (h8 : Means env u8 absolute_expiry_time)
    (creation_time : Option Timestamp) (h9 : Means env u9 creation_time)
    (group_id : Option ByteStr) (h10 : Means env u10 group_id)
    (group_sequence : Option SequenceNo) (h11 : Means env u11 group_sequence)
    (reply_to_group_id : Option ByteStr) (h12 : Means env u12 reply_to_group_id)
    (hh : ListHeader hdr (([u0, u1, u2, u3, u4, u5, u6, u7, u8, u9, u10, u11, u12].take k).flatten ++ extra).length k) :
    decode Properties env ([0x00, 0x53, 0x73] ++ hdr ++ ([u0, u1, u2, u3, u4, u5, u6, u7, u8, u9, u10, u11, u12].take k).flatten ++ extra ++ rest) =
      .ok (rest, {
        message_id := if 0 < k then message_id else none,
        user_id := if 1 < k then user_id else none,
        to := if 2 < k then to else none,
        subject := if 3 < k then subject else none,
        reply_to := if 4 < k then reply_to else none,
        correlation_id := if 5 < k then correlation_id else none,
        content_type := if 6 < k then content_type else none,
        content_encoding := if 7 < k then content_encoding else none,
        absolute_expiry_time := if 8 < k then absolute_expiry_time else none,
        creation_time := if 9 < k then creation_time else none,
        group_id := if 10 < k then group_id else none,
        group_sequence := if 11 < k then group_sequence else none,
        reply_to_group_id := if 12 < k then reply_to_group_id else none }) := by
  have h := decode_fields (α := Properties) (k := k) (us := [u0, u1, u2, u3, u4, u5, u6, u7, u8, u9, u10, u11, u12]) (extra := extra) (hdr := hdr) (rest := rest)
    (t := (message_id, user_id, to, subject, reply_to, correlation_id, content_type, content_encoding, absolute_expiry_time, creation_time, group_id, group_sequence, reply_to_group_id, ()))
    (reads_small_descriptor env (c := 115) (by decide)) (.inl rfl) ⟨h0, h1, h2, h3, h4, h5, h6, h7, h8, h9, h10, h11, h12, trivial⟩ hh
  simp only [List.append_assoc, List.cons_append, List.nil_append] at h ⊢
  refine h.trans ?_
  clear h hh
  rcases k with _ | _ | _ | _ | _ | _ | _ | _ | _ | _ | _ | _ | _ | k
  all_goals first | rfl | (simp; rfl)

example : decode Properties debugEnv [0x00, 0x53, 0x73, 0xc0, 5, 1, 0xa1, 2, 0x69, 0x64, 0xff] =
    .ok ([0xff], { message_id := some (.String (.lit "id")), user_id := none, to := none, subject := none, reply_to := none, correlation_id := none, content_type := none, content_encoding := none, absolute_expiry_time := none, creation_time := none, group_id := none, group_sequence := none, reply_to_group_id := none }) :=
  C22_properties debugEnv 1 [0xa1, 2, 0x69, 0x64] [0xa0, 3, 1, 2, 3] [0xa1, 6, 0x68, 0xc3, 0xa9, 0x6c, 0x6c, 0x6f] [0xa1, 6, 0x68, 0xc3, 0xa9, 0x6c, 0x6c, 0x6f] [0xa1, 6, 0x68, 0xc3, 0xa9, 0x6c, 0x6c, 0x6f] [0xa1, 2, 0x69, 0x64] [0xa3, 3, 0x73, 0x79, 0x6d] [0xa3, 3, 0x73, 0x79, 0x6d] [0x40] [0x40] [0xa1, 6, 0x68, 0xc3, 0xa9, 0x6c, 0x6c, 0x6f] [0x70, 0, 1, 0x11, 0x70] [0xa1, 6, 0x68, 0xc3, 0xa9, 0x6c, 0x6c, 0x6f] [] [0xc0, 5, 1] [0xff]
    (some (.String (.lit "id"))) (SmallRT.rt debugEnv (some (.String (.lit "id")) : Option MessageId) (by decide))
    (some (⟨[1, 2, 3]⟩)) (SmallRT.rt debugEnv (some (⟨[1, 2, 3]⟩) : Option Binary) (by decide))
    (some (.lit "héllo")) (SmallRT.rt debugEnv (some (.lit "héllo") : Option Address) (by decide))
    (some (.lit "héllo")) (SmallRT.rt debugEnv (some (.lit "héllo") : Option ByteStr) (by decide))
    (some (.lit "héllo")) (SmallRT.rt debugEnv (some (.lit "héllo") : Option Address) (by decide))
    (some (.String (.lit "id"))) (SmallRT.rt debugEnv (some (.String (.lit "id")) : Option MessageId) (by decide))
    (some (⟨.lit "sym"⟩)) (SmallRT.rt debugEnv (some (⟨.lit "sym"⟩) : Option Symbol) (by decide))
    (some (⟨.lit "sym"⟩)) (SmallRT.rt debugEnv (some (⟨.lit "sym"⟩) : Option Symbol) (by decide))
    (none) (fun _ => rfl)
    (none) (fun _ => rfl)
    (some (.lit "héllo")) (SmallRT.rt debugEnv (some (.lit "héllo") : Option ByteStr) (by decide))
    (some 70000) (SmallRT.rt debugEnv (some 70000 : Option SequenceNo) (by decide))
    (some (.lit "héllo")) (SmallRT.rt debugEnv (some (.lit "héllo") : Option ByteStr) (by decide)) (.list8 (by decide) (by decide))

/-- **C21** for `received`, `codegen/specification.json:1154-1175`. -/
theorem C21_received (env : Env) (v : Received) (hs : (enc v).length < 2 ^ 32) :
    RoundTrips env v := by
  have hs' : (listHdr 35 _ 2 ++ (enc v.section_number ++ enc v.section_offset)).length <
    2 ^ 32 := hs
  simp only [List.length_append] at hs'
  exact LawfulCodec.rt env v ⟨small_of_list v hs, SmallRT.rt env v.section_number (by omega), SmallRT.rt env v.section_offset (by omega), trivial⟩

/-- A `received` with values in all fields of simple types. -/
def Received.sample : Received :=
  { section_number := 70000,
    section_offset := 9 }
example : RoundTrips debugEnv Received.sample := C21_received _ _ (by decide)

/-- **C22** for `received`, `codegen/specification.json:1154-1175`. -/
theorem C22_received (env : Env) (k : Nat) (u0 u1 extra hdr rest : Bytes)
    (section_number : UInt32) (h0 : Means env u0 section_number)
    (section_offset : UInt64) (h1 : Means env u1 section_offset)
    (hh : ListHeader hdr (([u0, u1].take k).flatten ++ extra).length k) :
    decode Received env ([0x00, 0x53, 0x23] ++ hdr ++ ([u0, u1].take k).flatten ++ extra ++ rest) =
      if k ≤ 0 then .err (.requiredFieldOmitted "section_number") else
      if k ≤ 1 then .err (.requiredFieldOmitted "section_offset") else
      .ok (rest, {
        section_number := section_number,
        section_offset := section_offset }) := by
  have h := decode_fields (α := Received) (k := k) (us := [u0, u1]) (extra := extra) (hdr := hdr) (rest := rest)
    (t := (section_number, section_offset, ()))
    (reads_small_descriptor env (c := 35) (by decide)) (.inl rfl) ⟨h0, h1, trivial⟩ hh
  simp only [List.append_assoc, List.cons_append, List.nil_append] at h ⊢
  refine h.trans ?_
  clear h hh
  rcases k with _ | _ | k
  all_goals first | rfl | (simp; rfl)

example : decode Received debugEnv [0x00, 0x53, 0x23, 0xc0, 8, 2, 0x70, 0, 1, 0x11, 0x70, 0x53, 9, 0xff] =
    .ok ([0xff], { section_number := 70000, section_offset := 9 }) :=
  C22_received debugEnv 2 [0x70, 0, 1, 0x11, 0x70] [0x53, 9] [] [0xc0, 8, 2] [0xff]
    (70000) (SmallRT.rt debugEnv (70000 : UInt32) (by decide))
    (9) (SmallRT.rt debugEnv (9 : UInt64) (by decide)) (.list8 (by decide) (by decide))
example : decode Received debugEnv [0x00, 0x53, 0x23, 0xc0, 6, 1, 0x70, 0, 1, 0x11, 0x70] =
    .err (.requiredFieldOmitted "section_offset") :=
  C22_received debugEnv 1 [0x70, 0, 1, 0x11, 0x70] [0x53, 9] [] [0xc0, 6, 1] []
    (70000) (SmallRT.rt debugEnv (70000 : UInt32) (by decide))
    (9) (SmallRT.rt debugEnv (9 : UInt64) (by decide)) (.list8 (by decide) (by decide))

/-- **C21** for `accepted`, `codegen/specification.json:1176-1185`. -/
theorem C21_accepted (env : Env) (v : Accepted) (hs : (enc v).length < 2 ^ 32) :
    RoundTrips env v := by
  exact LawfulCodec.rt env v ⟨small_of_list v hs, trivial⟩

/-- A `accepted` with values in all fields of simple types. -/
def Accepted.sample : Accepted :=
  {  }
example : RoundTrips debugEnv Accepted.sample := C21_accepted _ _ (by decide)

/-- **C22** for `accepted`, `codegen/specification.json:1176-1185`. -/
theorem C22_accepted (env : Env) (k : Nat) (extra hdr rest : Bytes)
    (hh : ListHeader hdr ((([] : List Bytes).take k).flatten ++ extra).length k) :
    decode Accepted env ([0x00, 0x53, 0x24] ++ hdr ++ (([] : List Bytes).take k).flatten ++ extra ++ rest) =
      .ok (rest, { }) := by
  have h := decode_fields (α := Accepted) (k := k) (us := ([] : List Bytes)) (extra := extra) (hdr := hdr) (rest := rest)
    (t := ())
    (reads_small_descriptor env (c := 36) (by decide)) (.inl rfl) trivial hh
  simp only [List.append_assoc, List.cons_append, List.nil_append] at h ⊢
  refine h.trans ?_
  clear h hh
  rfl

example : decode Accepted debugEnv [0x00, 0x53, 0x24, 0xc0, 1, 0, 0xff] =
    .ok ([0xff], {  }) :=
  C22_accepted debugEnv 0  [] [0xc0, 1, 0] [0xff] (.list8 (by decide) (by decide))

/-- **C21** for `rejected`, `codegen/specification.json:1186-1199`. -/
theorem C21_rejected (env : Env) (v : Rejected) (hs : (enc v).length < 2 ^ 32)
    (h0 : RoundTrips env v.error) :
    RoundTrips env v := by
  have hs' : (listHdr 37 _ 1 ++ (enc v.error)).length <
    2 ^ 32 := hs
  simp only [List.length_append] at hs'
  exact LawfulCodec.rt env v ⟨small_of_list v hs, h0, trivial⟩

/-- A `rejected` with values in all fields of simple types. -/
def Rejected.sample : Rejected :=
  { error := none }
example : RoundTrips debugEnv Rejected.sample := C21_rejected _ _ (by decide) (fun _ => rfl)

/-- **C22** for `rejected`, `codegen/specification.json:1186-1199`. -/
theorem C22_rejected (env : Env) (k : Nat) (u0 extra hdr rest : Bytes)
    (error : Option Error) (h0 : Means env u0 error)
    (hh : ListHeader hdr (([u0].take k).flatten ++ extra).length k) :
    decode Rejected env ([0x00, 0x53, 0x25] ++ hdr ++ ([u0].take k).flatten ++ extra ++ rest) =
      .ok (rest, {
        error := if 0 < k then error else none }) := by
  have h := decode_fields (α := Rejected) (k := k) (us := [u0]) (extra := extra) (hdr := hdr) (rest := rest)
    (t := (error, ()))
    (reads_small_descriptor env (c := 37) (by decide)) (.inl rfl) ⟨h0, trivial⟩ hh
  simp only [List.append_assoc, List.cons_append, List.nil_append] at h ⊢
  refine h.trans ?_
  clear h hh
  rcases k with _ | k
  all_goals first | rfl | (simp; rfl)

example : decode Rejected debugEnv [0x00, 0x53, 0x25, 0xc0, 2, 1, 0x40, 0xff] =
    .ok ([0xff], { error := none }) :=
  C22_rejected debugEnv 1 [0x40] [] [0xc0, 2, 1] [0xff]
    (none) (fun _ => rfl) (.list8 (by decide) (by decide))

/-- **C21** for `released`, `codegen/specification.json:1200-1209`. -/
theorem C21_released (env : Env) (v : Released) (hs : (enc v).length < 2 ^ 32) :
    RoundTrips env v := by
  exact LawfulCodec.rt env v ⟨small_of_list v hs, trivial⟩

/-- A `released` with values in all fields of simple types. -/
def Released.sample : Released :=
  {  }
example : RoundTrips debugEnv Released.sample := C21_released _ _ (by decide)

/-- **C22** for `released`, `codegen/specification.json:1200-1209`. -/
theorem C22_released (env : Env) (k : Nat) (extra hdr rest : Bytes)
    (hh : ListHeader hdr ((([] : List Bytes).take k).flatten ++ extra).length k) :
    decode Released env ([0x00, 0x53, 0x26] ++ hdr ++ (([] : List Bytes).take k).flatten ++ extra ++ rest) =
      .ok (rest, { }) := by
  have h := decode_fields (α := Released) (k := k) (us := ([] : List Bytes)) (extra := extra) (hdr := hdr) (rest := rest)
    (t := ())
    (reads_small_descriptor env (c := 38) (by decide)) (.inl rfl) trivial hh
  simp only [List.append_assoc, List.cons_append, List.nil_append] at h ⊢
  refine h.trans ?_
  clear h hh
  rfl

example : decode Released debugEnv [0x00, 0x53, 0x26, 0xc0, 1, 0, 0xff] =
    .ok ([0xff], {  }) :=
  C22_released debugEnv 0  [] [0xc0, 1, 0] [0xff] (.list8 (by decide) (by decide))

/-- **C21** for `modified`, `codegen/specification.json:1210-1233`. -/
theorem C21_modified (env : Env) (v : Modified) (hs : (enc v).length < 2 ^ 32)
    (h2 : RoundTrips env v.message_annotations) :
    RoundTrips env v := by
  have hs' : (listHdr 39 _ 3 ++ (enc v.delivery_failed ++ enc v.undeliverable_here ++ enc v.message_annotations)).length <
    2 ^ 32 := hs
  simp only [List.length_append] at hs'
  exact LawfulCodec.rt env v ⟨small_of_list v hs, SmallRT.rt env v.delivery_failed (by omega), SmallRT.rt env v.undeliverable_here (by omega), h2, trivial⟩

/-- A `modified` with values in all fields of simple types. -/
def Modified.sample : Modified :=
  { delivery_failed := some true,
    undeliverable_here := some true,
    message_annotations := none }
example : RoundTrips debugEnv Modified.sample := C21_modified _ _ (by decide) (fun _ => rfl)

/-- **C22** for `modified`, `codegen/specification.json:1210-1233`. -/
theorem C22_modified (env : Env) (k : Nat) (u0 u1 u2 extra hdr rest : Bytes)
    (delivery_failed : Option Bool) (h0 : Means env u0 delivery_failed)
    (undeliverable_here : Option Bool) (h1 : Means env u1 undeliverable_here)
    (message_annotations : Option Fields) (h2 : Means env u2 message_annotations)
    (hh : ListHeader hdr (([u0, u1, u2].take k).flatten ++ extra).length k) :
    decode Modified env ([0x00, 0x53, 0x27] ++ hdr ++ ([u0, u1, u2].take k).flatten ++ extra ++ rest) =
      .ok (rest, {
        delivery_failed := if 0 < k then delivery_failed else none,
        undeliverable_here := if 1 < k then undeliverable_here else none,
        message_annotations := if 2 < k then message_annotations else none }) := by
  have h := decode_fields (α := Modified) (k := k) (us := [u0, u1, u2]) (extra := extra) (hdr := hdr) (rest := rest)
    (t := (delivery_failed, undeliverable_here, message_annotations, ()))
    (reads_small_descriptor env (c := 39) (by decide)) (.inl rfl) ⟨h0, h1, h2, trivial⟩ hh
  simp only [List.append_assoc, List.cons_append, List.nil_append] at h ⊢
  refine h.trans ?_
  clear h hh
  rcases k with _ | _ | _ | k
  all_goals first | rfl | (simp; rfl)

example : decode Modified debugEnv [0x00, 0x53, 0x27, 0xc0, 2, 1, 0x41, 0xff] =
    .ok ([0xff], { delivery_failed := some true, undeliverable_here := none, message_annotations := none }) :=
  C22_modified debugEnv 1 [0x41] [0x41] [0x40] [] [0xc0, 2, 1] [0xff]
    (some true) (SmallRT.rt debugEnv (some true : Option Bool) (by decide))
    (some true) (SmallRT.rt debugEnv (some true : Option Bool) (by decide))
    (none) (fun _ => rfl) (.list8 (by decide) (by decide))

end Amqp
