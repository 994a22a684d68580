import Verif.Spec.Accessors
import Verif.Proofs.Accessors
import Verif.Props.Frames
/-!
# C65: accessors of performatives and other list types

Generated by `tools/gen_props.py` from `codegen/specification.json`: the accessor
named like a field of the specification returns what is on the wire at the
position of that field, in any form, and the specification's default if the field
is null or absent.  Notation as in C22.
-/
set_option autoImplicit false
set_option linter.unusedVariables false
namespace Amqp
open Dec

/-- **C65** for `error`, `codegen/specification.json:101-125`. -/
theorem C65_error (env : Env) (k : Nat) (u0 u1 u2 extra hdr rest : Bytes)
    (condition : ErrorCondition) (h0 : Means env u0 condition)
    (description : Option ByteStr) (h1 : Means env u1 description)
    (info : Option Fields) (h2 : Means env u2 info)
    (hh : ListHeader hdr (([u0, u1, u2].take k).flatten ++ extra).length k) (hk : 0 < k) :
    ∃ v, decode Error env ([0x00, 0x53, 0x1d] ++ hdr ++ ([u0, u1, u2].take k).flatten ++ extra ++ rest) =
        .ok (rest, v) ∧
      v.get_condition = condition ∧
      v.get_description = (if 1 < k then description else none) ∧
      v.get_info = (if 2 < k then info else none) := by
  have h := C22_error env k u0 u1 u2 extra hdr rest condition h0 description h1 info h2 hh
  rw [if_neg (show ¬ k ≤ 0 by omega)] at h
  exact ⟨_, h, rfl, rfl, rfl⟩

example : ∃ v, decode Error debugEnv [0x00, 0x53, 0x1d, 0xc0, 25, 2, 0xa3, 14, 0x61, 0x6d, 0x71, 0x70, 0x3a, 0x6e, 0x6f, 0x74, 0x2d, 0x66, 0x6f, 0x75, 0x6e, 0x64, 0xa1, 6, 0x68, 0xc3, 0xa9, 0x6c, 0x6c, 0x6f, 0xff] = .ok ([0xff], v) ∧
    v.get_description = some (.lit "héllo") :=
  let ⟨v, h, hs⟩ := C65_error debugEnv 2 [0xa3, 14, 0x61, 0x6d, 0x71, 0x70, 0x3a, 0x6e, 0x6f, 0x74, 0x2d, 0x66, 0x6f, 0x75, 0x6e, 0x64] [0xa1, 6, 0x68, 0xc3, 0xa9, 0x6c, 0x6c, 0x6f] [0x40] [] [0xc0, 25, 2] [0xff]
    (.AmqpError .NotFound) (LawfulCodec.rt debugEnv (ErrorCondition.AmqpError .NotFound) ⟨show _ < _ by decide, fun _ h => by cases h⟩)
    (some (.lit "héllo")) (SmallRT.rt debugEnv (some (.lit "héllo") : Option ByteStr) (by decide))
    (none) (fun _ => rfl) (.list8 (by decide) (by decide)) (by decide)
  ⟨v, h, hs.2.1⟩

/-- **C65** for `open`, `codegen/specification.json:258-316`. -/
theorem C65_open (env : Env) (k : Nat) (u0 u1 u2 u3 u4 u5 u6 u7 u8 u9 extra hdr rest : Bytes)
    (container_id : ByteStr) (h0 : Means env u0 container_id)
    (hostname : Option ByteStr) (h1 : Means env u1 hostname)
    (max_frame_size : Option UInt32) (h2 : Means env u2 max_frame_size)
    (channel_max : Option UInt16) (h3 : Means env u3 channel_max)
    (idle_time_out : Option Milliseconds) (h4 : Means env u4 idle_time_out)
    (outgoing_locales : Option IetfLanguageTags) (h5 : Means env u5 outgoing_locales)
    (incoming_locales : Option IetfLanguageTags) (h6 : Means env u6 incoming_locales)
    (offered_capabilities : Option Symbols) (h7 : Means env u7 offered_capabilities)
    (desired_capabilities : Option Symbols) (h8 : Means env u8 desired_capabilities)
    (properties : Option Fields) (h9 : Means env u9 properties)
    (hh : ListHeader hdr (([u0, u1, u2, u3, u4, u5, u6, u7, u8, u9].take k).flatten ++ extra).length k) (hk : 0 < k) :
    ∃ v, decode Open env ([0x00, 0x53, 0x10] ++ hdr ++ ([u0, u1, u2, u3, u4, u5, u6, u7, u8, u9].take k).flatten ++ extra ++ rest) =
        .ok (rest, v) ∧
      v.get_container_id = container_id ∧
      v.get_hostname = (if 1 < k then hostname else none) ∧
      v.get_max_frame_size = (if 2 < k then max_frame_size.getD 4294967295 else 4294967295) ∧
      v.get_channel_max = (if 3 < k then channel_max.getD 65535 else 65535) ∧
      v.get_idle_time_out = (if 4 < k then idle_time_out else none) ∧
      v.get_outgoing_locales = (if 5 < k then outgoing_locales else none) ∧
      v.get_incoming_locales = (if 6 < k then incoming_locales else none) ∧
      v.get_offered_capabilities = (if 7 < k then offered_capabilities else none) ∧
      v.get_desired_capabilities = (if 8 < k then desired_capabilities else none) ∧
      v.get_properties = (if 9 < k then properties else none) := by
  have h := C22_open env k u0 u1 u2 u3 u4 u5 u6 u7 u8 u9 extra hdr rest container_id h0 hostname h1 max_frame_size h2 channel_max h3 idle_time_out h4 outgoing_locales h5 incoming_locales h6 offered_capabilities h7 desired_capabilities h8 properties h9 hh
  rw [if_neg (show ¬ k ≤ 0 by omega)] at h
  exact ⟨_, h, rfl, rfl, rfl, rfl, rfl, rfl, rfl, rfl, rfl, rfl⟩

example : ∃ v, decode Open debugEnv [0x00, 0x53, 0x10, 0xc0, 17, 2, 0xa1, 6, 0x68, 0xc3, 0xa9, 0x6c, 0x6c, 0x6f, 0xa1, 6, 0x68, 0xc3, 0xa9, 0x6c, 0x6c, 0x6f, 0xff] = .ok ([0xff], v) ∧
    v.get_hostname = some (.lit "héllo") :=
  let ⟨v, h, hs⟩ := C65_open debugEnv 2 [0xa1, 6, 0x68, 0xc3, 0xa9, 0x6c, 0x6c, 0x6f] [0xa1, 6, 0x68, 0xc3, 0xa9, 0x6c, 0x6c, 0x6f] [0x70, 0, 1, 0x11, 0x70] [0x60, 1, 244] [0x70, 0, 1, 0x11, 0x70] [0x40] [0x40] [0x40] [0x40] [0x40] [] [0xc0, 17, 2] [0xff]
    (.lit "héllo") (SmallRT.rt debugEnv (.lit "héllo" : ByteStr) (by decide))
    (some (.lit "héllo")) (SmallRT.rt debugEnv (some (.lit "héllo") : Option ByteStr) (by decide))
    (some 70000) (SmallRT.rt debugEnv (some 70000 : Option UInt32) (by decide))
    (some 500) (SmallRT.rt debugEnv (some 500 : Option UInt16) (by decide))
    (some 70000) (SmallRT.rt debugEnv (some 70000 : Option Milliseconds) (by decide))
    (none) (fun _ => rfl)
    (none) (fun _ => rfl)
    (none) (fun _ => rfl)
    (none) (fun _ => rfl)
    (none) (fun _ => rfl) (.list8 (by decide) (by decide)) (by decide)
  ⟨v, h, hs.2.1⟩

/-- **C65** for `begin`, `codegen/specification.json:317-366`. -/
theorem C65_begin (env : Env) (k : Nat) (u0 u1 u2 u3 u4 u5 u6 u7 extra hdr rest : Bytes)
    (remote_channel : Option UInt16) (h0 : Means env u0 remote_channel)
    (next_outgoing_id : TransferNumber) (h1 : Means env u1 next_outgoing_id)
    (incoming_window : UInt32) (h2 : Means env u2 incoming_window)
    (outgoing_window : UInt32) (h3 : Means env u3 outgoing_window)
    (handle_max : Option Handle) (h4 : Means env u4 handle_max)
    (offered_capabilities : Option Symbols) (h5 : Means env u5 offered_capabilities)
    (desired_capabilities : Option Symbols) (h6 : Means env u6 desired_capabilities)
    (properties : Option Fields) (h7 : Means env u7 properties)
    (hh : ListHeader hdr (([u0, u1, u2, u3, u4, u5, u6, u7].take k).flatten ++ extra).length k) (hk : 3 < k) :
    ∃ v, decode Begin env ([0x00, 0x53, 0x11] ++ hdr ++ ([u0, u1, u2, u3, u4, u5, u6, u7].take k).flatten ++ extra ++ rest) =
        .ok (rest, v) ∧
      v.get_remote_channel = (if 0 < k then remote_channel else none) ∧
      v.get_next_outgoing_id = next_outgoing_id ∧
      v.get_incoming_window = incoming_window ∧
      v.get_outgoing_window = outgoing_window ∧
      v.get_handle_max = (if 4 < k then handle_max.getD 4294967295 else 4294967295) ∧
      v.get_offered_capabilities = (if 5 < k then offered_capabilities else none) ∧
      v.get_desired_capabilities = (if 6 < k then desired_capabilities else none) ∧
      v.get_properties = (if 7 < k then properties else none) := by
  have h := C22_begin env k u0 u1 u2 u3 u4 u5 u6 u7 extra hdr rest remote_channel h0 next_outgoing_id h1 incoming_window h2 outgoing_window h3 handle_max h4 offered_capabilities h5 desired_capabilities h6 properties h7 hh
  rw [if_neg (show ¬ k ≤ 1 by omega), if_neg (show ¬ k ≤ 2 by omega), if_neg (show ¬ k ≤ 3 by omega)] at h
  exact ⟨_, h, rfl, rfl, rfl, rfl, rfl, rfl, rfl, rfl⟩

example : ∃ v, decode Begin debugEnv [0x00, 0x53, 0x11, 0xc0, 24, 5, 0x60, 1, 244, 0x70, 0, 1, 0x11, 0x70, 0x70, 0, 1, 0x11, 0x70, 0x70, 0, 1, 0x11, 0x70, 0x70, 0, 1, 0x11, 0x70, 0xff] = .ok ([0xff], v) ∧
    v.get_handle_max = 70000 :=
  let ⟨v, h, hs⟩ := C65_begin debugEnv 5 [0x60, 1, 244] [0x70, 0, 1, 0x11, 0x70] [0x70, 0, 1, 0x11, 0x70] [0x70, 0, 1, 0x11, 0x70] [0x70, 0, 1, 0x11, 0x70] [0x40] [0x40] [0x40] [] [0xc0, 24, 5] [0xff]
    (some 500) (SmallRT.rt debugEnv (some 500 : Option UInt16) (by decide))
    (70000) (SmallRT.rt debugEnv (70000 : TransferNumber) (by decide))
    (70000) (SmallRT.rt debugEnv (70000 : UInt32) (by decide))
    (70000) (SmallRT.rt debugEnv (70000 : UInt32) (by decide))
    (some 70000) (SmallRT.rt debugEnv (some 70000 : Option Handle) (by decide))
    (none) (fun _ => rfl)
    (none) (fun _ => rfl)
    (none) (fun _ => rfl) (.list8 (by decide) (by decide)) (by decide)
  ⟨v, h, hs.2.2.2.2.1⟩

/-- **C65** for `attach`, `codegen/specification.json:367-444`. -/
theorem C65_attach (env : Env) (k : Nat) (u0 u1 u2 u3 u4 u5 u6 u7 u8 u9 u10 u11 u12 u13 extra hdr rest : Bytes)
    (name : ByteStr) (h0 : Means env u0 name)
    (handle : Handle) (h1 : Means env u1 handle)
    (role : Role) (h2 : Means env u2 role)
    (snd_settle_mode : Option SenderSettleMode) (h3 : Means env u3 snd_settle_mode)
    (rcv_settle_mode : Option ReceiverSettleMode) (h4 : Means env u4 rcv_settle_mode)
    (source : Option Source) (h5 : Means env u5 source)
    (target : Option Target) (h6 : Means env u6 target)
    (unsettled : Option Map) (h7 : Means env u7 unsettled)
    (incomplete_unsettled : Option Bool) (h8 : Means env u8 incomplete_unsettled)
    (initial_delivery_count : Option SequenceNo) (h9 : Means env u9 initial_delivery_count)
    (max_message_size : Option UInt64) (h10 : Means env u10 max_message_size)
    (offered_capabilities : Option Symbols) (h11 : Means env u11 offered_capabilities)
    (desired_capabilities : Option Symbols) (h12 : Means env u12 desired_capabilities)
    (properties : Option Fields) (h13 : Means env u13 properties)
    (hh : ListHeader hdr (([u0, u1, u2, u3, u4, u5, u6, u7, u8, u9, u10, u11, u12, u13].take k).flatten ++ extra).length k) (hk : 2 < k) :
    ∃ v, decode Attach env ([0x00, 0x53, 0x12] ++ hdr ++ ([u0, u1, u2, u3, u4, u5, u6, u7, u8, u9, u10, u11, u12, u13].take k).flatten ++ extra ++ rest) =
        .ok (rest, v) ∧
      v.get_name = name ∧
      v.get_handle = handle ∧
      v.get_role = role ∧
      v.get_snd_settle_mode = (if 3 < k then snd_settle_mode.getD SenderSettleMode.Mixed else SenderSettleMode.Mixed) ∧
      v.get_rcv_settle_mode = (if 4 < k then rcv_settle_mode.getD ReceiverSettleMode.First else ReceiverSettleMode.First) ∧
      v.get_source = (if 5 < k then source else none) ∧
      v.get_target = (if 6 < k then target else none) ∧
      v.get_unsettled = (if 7 < k then unsettled else none) ∧
      v.get_incomplete_unsettled = (if 8 < k then incomplete_unsettled.getD false else false) ∧
      v.get_initial_delivery_count = (if 9 < k then initial_delivery_count else none) ∧
      v.get_max_message_size = (if 10 < k then max_message_size else none) ∧
      v.get_offered_capabilities = (if 11 < k then offered_capabilities else none) ∧
      v.get_desired_capabilities = (if 12 < k then desired_capabilities else none) ∧
      v.get_properties = (if 13 < k then properties else none) := by
  have h := C22_attach env k u0 u1 u2 u3 u4 u5 u6 u7 u8 u9 u10 u11 u12 u13 extra hdr rest name h0 handle h1 role h2 snd_settle_mode h3 rcv_settle_mode h4 source h5 target h6 unsettled h7 incomplete_unsettled h8 initial_delivery_count h9 max_message_size h10 offered_capabilities h11 desired_capabilities h12 properties h13 hh
  rw [if_neg (show ¬ k ≤ 0 by omega), if_neg (show ¬ k ≤ 1 by omega), if_neg (show ¬ k ≤ 2 by omega)] at h
  exact ⟨_, h, rfl, rfl, rfl, rfl, rfl, rfl, rfl, rfl, rfl, rfl, rfl, rfl, rfl, rfl⟩

example : ∃ v, decode Attach debugEnv [0x00, 0x53, 0x12, 0xc0, 17, 4, 0xa1, 6, 0x68, 0xc3, 0xa9, 0x6c, 0x6c, 0x6f, 0x70, 0, 1, 0x11, 0x70, 0x41, 0x50, 1, 0xff] = .ok ([0xff], v) ∧
    v.get_snd_settle_mode = .Settled :=
  let ⟨v, h, hs⟩ := C65_attach debugEnv 4 [0xa1, 6, 0x68, 0xc3, 0xa9, 0x6c, 0x6c, 0x6f] [0x70, 0, 1, 0x11, 0x70] [0x41] [0x50, 1] [0x50, 1] [0x40] [0x40] [0x40] [0x41] [0x70, 0, 1, 0x11, 0x70] [0x53, 9] [0x40] [0x40] [0x40] [] [0xc0, 17, 4] [0xff]
    (.lit "héllo") (SmallRT.rt debugEnv (.lit "héllo" : ByteStr) (by decide))
    (70000) (SmallRT.rt debugEnv (70000 : Handle) (by decide))
    (.Receiver) (SmallRT.rt debugEnv (.Receiver : Role) (by decide))
    (some .Settled) (SmallRT.rt debugEnv (some .Settled : Option SenderSettleMode) (by decide))
    (some .Second) (SmallRT.rt debugEnv (some .Second : Option ReceiverSettleMode) (by decide))
    (none) (fun _ => rfl)
    (none) (fun _ => rfl)
    (none) (fun _ => rfl)
    (some true) (SmallRT.rt debugEnv (some true : Option Bool) (by decide))
    (some 70000) (SmallRT.rt debugEnv (some 70000 : Option SequenceNo) (by decide))
    (some 9) (SmallRT.rt debugEnv (some 9 : Option UInt64) (by decide))
    (none) (fun _ => rfl)
    (none) (fun _ => rfl)
    (none) (fun _ => rfl) (.list8 (by decide) (by decide)) (by decide)
  ⟨v, h, hs.2.2.2.1⟩

/-- **C65** for `flow`, `codegen/specification.json:445-505`. -/
theorem C65_flow (env : Env) (k : Nat) (u0 u1 u2 u3 u4 u5 u6 u7 u8 u9 u10 extra hdr rest : Bytes)
    (next_incoming_id : Option TransferNumber) (h0 : Means env u0 next_incoming_id)
    (incoming_window : UInt32) (h1 : Means env u1 incoming_window)
    (next_outgoing_id : TransferNumber) (h2 : Means env u2 next_outgoing_id)
    (outgoing_window : UInt32) (h3 : Means env u3 outgoing_window)
    (handle : Option Handle) (h4 : Means env u4 handle)
    (delivery_count : Option SequenceNo) (h5 : Means env u5 delivery_count)
    (link_credit : Option UInt32) (h6 : Means env u6 link_credit)
    (available : Option UInt32) (h7 : Means env u7 available)
    (drain : Option Bool) (h8 : Means env u8 drain)
    (echo : Option Bool) (h9 : Means env u9 echo)
    (properties : Option Fields) (h10 : Means env u10 properties)
    (hh : ListHeader hdr (([u0, u1, u2, u3, u4, u5, u6, u7, u8, u9, u10].take k).flatten ++ extra).length k) (hk : 3 < k) :
    ∃ v, decode Flow env ([0x00, 0x53, 0x13] ++ hdr ++ ([u0, u1, u2, u3, u4, u5, u6, u7, u8, u9, u10].take k).flatten ++ extra ++ rest) =
        .ok (rest, v) ∧
      v.get_next_incoming_id = (if 0 < k then next_incoming_id else none) ∧
      v.get_incoming_window = incoming_window ∧
      v.get_next_outgoing_id = next_outgoing_id ∧
      v.get_outgoing_window = outgoing_window ∧
      v.get_handle = (if 4 < k then handle else none) ∧
      v.get_delivery_count = (if 5 < k then delivery_count else none) ∧
      v.get_link_credit = (if 6 < k then link_credit else none) ∧
      v.get_available = (if 7 < k then available else none) ∧
      v.get_drain = (if 8 < k then drain.getD false else false) ∧
      v.get_echo = (if 9 < k then echo.getD false else false) ∧
      v.get_properties = (if 10 < k then properties else none) := by
  have h := C22_flow env k u0 u1 u2 u3 u4 u5 u6 u7 u8 u9 u10 extra hdr rest next_incoming_id h0 incoming_window h1 next_outgoing_id h2 outgoing_window h3 handle h4 delivery_count h5 link_credit h6 available h7 drain h8 echo h9 properties h10 hh
  rw [if_neg (show ¬ k ≤ 1 by omega), if_neg (show ¬ k ≤ 2 by omega), if_neg (show ¬ k ≤ 3 by omega)] at h
  exact ⟨_, h, rfl, rfl, rfl, rfl, rfl, rfl, rfl, rfl, rfl, rfl, rfl⟩

example : ∃ v, decode Flow debugEnv [0x00, 0x53, 0x13, 0xc0, 26, 5, 0x70, 0, 1, 0x11, 0x70, 0x70, 0, 1, 0x11, 0x70, 0x70, 0, 1, 0x11, 0x70, 0x70, 0, 1, 0x11, 0x70, 0x70, 0, 1, 0x11, 0x70, 0xff] = .ok ([0xff], v) ∧
    v.get_handle = some 70000 :=
  let ⟨v, h, hs⟩ := C65_flow debugEnv 5 [0x70, 0, 1, 0x11, 0x70] [0x70, 0, 1, 0x11, 0x70] [0x70, 0, 1, 0x11, 0x70] [0x70, 0, 1, 0x11, 0x70] [0x70, 0, 1, 0x11, 0x70] [0x70, 0, 1, 0x11, 0x70] [0x70, 0, 1, 0x11, 0x70] [0x70, 0, 1, 0x11, 0x70] [0x41] [0x41] [0x40] [] [0xc0, 26, 5] [0xff]
    (some 70000) (SmallRT.rt debugEnv (some 70000 : Option TransferNumber) (by decide))
    (70000) (SmallRT.rt debugEnv (70000 : UInt32) (by decide))
    (70000) (SmallRT.rt debugEnv (70000 : TransferNumber) (by decide))
    (70000) (SmallRT.rt debugEnv (70000 : UInt32) (by decide))
    (some 70000) (SmallRT.rt debugEnv (some 70000 : Option Handle) (by decide))
    (some 70000) (SmallRT.rt debugEnv (some 70000 : Option SequenceNo) (by decide))
    (some 70000) (SmallRT.rt debugEnv (some 70000 : Option UInt32) (by decide))
    (some 70000) (SmallRT.rt debugEnv (some 70000 : Option UInt32) (by decide))
    (some true) (SmallRT.rt debugEnv (some true : Option Bool) (by decide))
    (some true) (SmallRT.rt debugEnv (some true : Option Bool) (by decide))
    (none) (fun _ => rfl) (.list8 (by decide) (by decide)) (by decide)
  ⟨v, h, hs.2.2.2.2.1⟩

/-- **C65** for `transfer`, `codegen/specification.json:506-567`. -/
theorem C65_transfer (env : Env) (k : Nat) (u0 u1 u2 u3 u4 u5 u6 u7 u8 u9 u10 extra hdr payload : Bytes)
    (handle : Handle) (h0 : Means env u0 handle)
    (delivery_id : Option DeliveryNumber) (h1 : Means env u1 delivery_id)
    (delivery_tag : Option DeliveryTag) (h2 : Means env u2 delivery_tag)
    (message_format : Option MessageFormat) (h3 : Means env u3 message_format)
    (settled : Option Bool) (h4 : Means env u4 settled)
    (more : Option Bool) (h5 : Means env u5 more)
    (rcv_settle_mode : Option ReceiverSettleMode) (h6 : Means env u6 rcv_settle_mode)
    (state : Option DeliveryState) (h7 : Means env u7 state)
    (resume : Option Bool) (h8 : Means env u8 resume)
    (aborted : Option Bool) (h9 : Means env u9 aborted)
    (batchable : Option Bool) (h10 : Means env u10 batchable)
    (hh : ListHeader hdr (([u0, u1, u2, u3, u4, u5, u6, u7, u8, u9, u10].take k).flatten ++ extra).length k) (hk : 0 < k) :
    ∃ v, decode Transfer env ([0x00, 0x53, 0x14] ++ hdr ++ ([u0, u1, u2, u3, u4, u5, u6, u7, u8, u9, u10].take k).flatten ++ extra ++ payload) =
        .ok ([], v) ∧
      v.get_handle = handle ∧
      v.get_delivery_id = (if 1 < k then delivery_id else none) ∧
      v.get_delivery_tag = (if 2 < k then delivery_tag else none) ∧
      v.get_message_format = (if 3 < k then message_format else none) ∧
      v.get_settled = (if 4 < k then settled else none) ∧
      v.get_more = (if 5 < k then more.getD false else false) ∧
      v.get_rcv_settle_mode = (if 6 < k then rcv_settle_mode else none) ∧
      v.get_state = (if 7 < k then state else none) ∧
      v.get_resume = (if 8 < k then resume.getD false else false) ∧
      v.get_aborted = (if 9 < k then aborted.getD false else false) ∧
      v.get_batchable = (if 10 < k then batchable.getD false else false) ∧
      v.get_body = (if payload = [] then none else some (.Data ⟨payload⟩)) := by
  have h : ∀ rest, _ := fun rest => C22_transfer env k u0 u1 u2 u3 u4 u5 u6 u7 u8 u9 u10 extra hdr rest handle h0 delivery_id h1 delivery_tag h2 message_format h3 settled h4 more h5 rcv_settle_mode h6 state h7 resume h8 aborted h9 batchable h10 hh
  simp only [if_neg (show ¬ k ≤ 0 by omega)] at h
  exact ⟨_, C27_decode env _ payload _ h, rfl, rfl, rfl, rfl, rfl, rfl, rfl, rfl, rfl, rfl, rfl, rfl⟩

example : ∃ v, decode Transfer debugEnv [0x00, 0x53, 0x14, 0xc0, 11, 2, 0x70, 0, 1, 0x11, 0x70, 0x70, 0, 1, 0x11, 0x70, 0xff] = .ok ([], v) ∧
    v.get_delivery_id = some 70000 :=
  let ⟨v, h, hs⟩ := C65_transfer debugEnv 2 [0x70, 0, 1, 0x11, 0x70] [0x70, 0, 1, 0x11, 0x70] [0xa0, 3, 1, 2, 3] [0x70, 0, 1, 0x11, 0x70] [0x41] [0x41] [0x50, 1] [0x40] [0x41] [0x41] [0x41] [] [0xc0, 11, 2] [0xff]
    (70000) (SmallRT.rt debugEnv (70000 : Handle) (by decide))
    (some 70000) (SmallRT.rt debugEnv (some 70000 : Option DeliveryNumber) (by decide))
    (some (⟨[1, 2, 3]⟩)) (SmallRT.rt debugEnv (some (⟨[1, 2, 3]⟩) : Option DeliveryTag) (by decide))
    (some 70000) (SmallRT.rt debugEnv (some 70000 : Option MessageFormat) (by decide))
    (some true) (SmallRT.rt debugEnv (some true : Option Bool) (by decide))
    (some true) (SmallRT.rt debugEnv (some true : Option Bool) (by decide))
    (some .Second) (SmallRT.rt debugEnv (some .Second : Option ReceiverSettleMode) (by decide))
    (none) (fun _ => rfl)
    (some true) (SmallRT.rt debugEnv (some true : Option Bool) (by decide))
    (some true) (SmallRT.rt debugEnv (some true : Option Bool) (by decide))
    (some true) (SmallRT.rt debugEnv (some true : Option Bool) (by decide)) (.list8 (by decide) (by decide)) (by decide)
  ⟨v, h, hs.2.1⟩

/-- **C65** for `disposition`, `codegen/specification.json:568-608`. -/
theorem C65_disposition (env : Env) (k : Nat) (u0 u1 u2 u3 u4 u5 extra hdr rest : Bytes)
    (role : Role) (h0 : Means env u0 role)
    (first : DeliveryNumber) (h1 : Means env u1 first)
    (last : Option DeliveryNumber) (h2 : Means env u2 last)
    (settled : Option Bool) (h3 : Means env u3 settled)
    (state : Option DeliveryState) (h4 : Means env u4 state)
    (batchable : Option Bool) (h5 : Means env u5 batchable)
    (hh : ListHeader hdr (([u0, u1, u2, u3, u4, u5].take k).flatten ++ extra).length k) (hk : 1 < k) :
    ∃ v, decode Disposition env ([0x00, 0x53, 0x15] ++ hdr ++ ([u0, u1, u2, u3, u4, u5].take k).flatten ++ extra ++ rest) =
        .ok (rest, v) ∧
      v.get_role = role ∧
      v.get_first = first ∧
      v.get_last = (if 2 < k then last else none) ∧
      v.get_settled = (if 3 < k then settled.getD false else false) ∧
      v.get_state = (if 4 < k then state else none) ∧
      v.get_batchable = (if 5 < k then batchable.getD false else false) := by
  have h := C22_disposition env k u0 u1 u2 u3 u4 u5 extra hdr rest role h0 first h1 last h2 settled h3 state h4 batchable h5 hh
  rw [if_neg (show ¬ k ≤ 0 by omega), if_neg (show ¬ k ≤ 1 by omega)] at h
  exact ⟨_, h, rfl, rfl, rfl, rfl, rfl, rfl⟩

example : ∃ v, decode Disposition debugEnv [0x00, 0x53, 0x15, 0xc0, 12, 3, 0x41, 0x70, 0, 1, 0x11, 0x70, 0x70, 0, 1, 0x11, 0x70, 0xff] = .ok ([0xff], v) ∧
    v.get_last = some 70000 :=
  let ⟨v, h, hs⟩ := C65_disposition debugEnv 3 [0x41] [0x70, 0, 1, 0x11, 0x70] [0x70, 0, 1, 0x11, 0x70] [0x41] [0x40] [0x41] [] [0xc0, 12, 3] [0xff]
    (.Receiver) (SmallRT.rt debugEnv (.Receiver : Role) (by decide))
    (70000) (SmallRT.rt debugEnv (70000 : DeliveryNumber) (by decide))
    (some 70000) (SmallRT.rt debugEnv (some 70000 : Option DeliveryNumber) (by decide))
    (some true) (SmallRT.rt debugEnv (some true : Option Bool) (by decide))
    (none) (fun _ => rfl)
    (some true) (SmallRT.rt debugEnv (some true : Option Bool) (by decide)) (.list8 (by decide) (by decide)) (by decide)
  ⟨v, h, hs.2.2.1⟩

/-- **C65** for `detach`, `codegen/specification.json:609-634`. -/
theorem C65_detach (env : Env) (k : Nat) (u0 u1 u2 extra hdr rest : Bytes)
    (handle : Handle) (h0 : Means env u0 handle)
    (closed : Option Bool) (h1 : Means env u1 closed)
    (error : Option Error) (h2 : Means env u2 error)
    (hh : ListHeader hdr (([u0, u1, u2].take k).flatten ++ extra).length k) (hk : 0 < k) :
    ∃ v, decode Detach env ([0x00, 0x53, 0x16] ++ hdr ++ ([u0, u1, u2].take k).flatten ++ extra ++ rest) =
        .ok (rest, v) ∧
      v.get_handle = handle ∧
      v.get_closed = (if 1 < k then closed.getD false else false) ∧
      v.get_error = (if 2 < k then error else none) := by
  have h := C22_detach env k u0 u1 u2 extra hdr rest handle h0 closed h1 error h2 hh
  rw [if_neg (show ¬ k ≤ 0 by omega)] at h
  exact ⟨_, h, rfl, rfl, rfl⟩

example : ∃ v, decode Detach debugEnv [0x00, 0x53, 0x16, 0xc0, 7, 2, 0x70, 0, 1, 0x11, 0x70, 0x41, 0xff] = .ok ([0xff], v) ∧
    v.get_closed = true :=
  let ⟨v, h, hs⟩ := C65_detach debugEnv 2 [0x70, 0, 1, 0x11, 0x70] [0x41] [0x40] [] [0xc0, 7, 2] [0xff]
    (70000) (SmallRT.rt debugEnv (70000 : Handle) (by decide))
    (some true) (SmallRT.rt debugEnv (some true : Option Bool) (by decide))
    (none) (fun _ => rfl) (.list8 (by decide) (by decide)) (by decide)
  ⟨v, h, hs.2.1⟩

/-- **C65** for `end`, `codegen/specification.json:635-648`. -/
theorem C65_end (env : Env) (k : Nat) (u0 extra hdr rest : Bytes)
    (error : Option Error) (h0 : Means env u0 error)
    (hh : ListHeader hdr (([u0].take k).flatten ++ extra).length k) :
    ∃ v, decode End env ([0x00, 0x53, 0x17] ++ hdr ++ ([u0].take k).flatten ++ extra ++ rest) =
        .ok (rest, v) ∧
      v.get_error = (if 0 < k then error else none) := by
  have h := C22_end env k u0 extra hdr rest error h0 hh
  exact ⟨_, h, rfl⟩

example : ∃ v, decode End debugEnv [0x00, 0x53, 0x17, 0xc0, 2, 1, 0x40, 0xff] = .ok ([0xff], v) ∧
    v.get_error = none :=
  let ⟨v, h, hs⟩ := C65_end debugEnv 1 [0x40] [] [0xc0, 2, 1] [0xff]
    (none) (fun _ => rfl) (.list8 (by decide) (by decide))
  ⟨v, h, hs⟩

/-- **C65** for `close`, `codegen/specification.json:649-662`. -/
theorem C65_close (env : Env) (k : Nat) (u0 extra hdr rest : Bytes)
    (error : Option Error) (h0 : Means env u0 error)
    (hh : ListHeader hdr (([u0].take k).flatten ++ extra).length k) :
    ∃ v, decode Close env ([0x00, 0x53, 0x18] ++ hdr ++ ([u0].take k).flatten ++ extra ++ rest) =
        .ok (rest, v) ∧
      v.get_error = (if 0 < k then error else none) := by
  have h := C22_close env k u0 extra hdr rest error h0 hh
  exact ⟨_, h, rfl⟩

example : ∃ v, decode Close debugEnv [0x00, 0x53, 0x18, 0xc0, 2, 1, 0x40, 0xff] = .ok ([0xff], v) ∧
    v.get_error = none :=
  let ⟨v, h, hs⟩ := C65_close debugEnv 1 [0x40] [] [0xc0, 2, 1] [0xff]
    (none) (fun _ => rfl) (.list8 (by decide) (by decide))
  ⟨v, h, hs⟩

/-- **C65** for `sasl-mechanisms`, `codegen/specification.json:690-705`. -/
theorem C65_sasl_mechanisms (env : Env) (k : Nat) (u0 extra hdr rest : Bytes)
    (sasl_server_mechanisms : Symbols) (h0 : Means env u0 sasl_server_mechanisms)
    (hh : ListHeader hdr (([u0].take k).flatten ++ extra).length k) (hk : 0 < k) :
    ∃ v, decode SaslMechanisms env ([0x00, 0x53, 0x40] ++ hdr ++ ([u0].take k).flatten ++ extra ++ rest) =
        .ok (rest, v) ∧
      v.get_sasl_server_mechanisms = sasl_server_mechanisms := by
  have h := C22_sasl_mechanisms env k u0 extra hdr rest sasl_server_mechanisms h0 hh
  rw [if_neg (show ¬ k ≤ 0 by omega)] at h
  exact ⟨_, h, rfl⟩

example : ∃ v, decode SaslMechanisms debugEnv [0x00, 0x53, 0x40, 0xc0, 8, 1, 0xa3, 5, 0x50, 0x4c, 0x41, 0x49, 0x4e, 0xff] = .ok ([0xff], v) ∧
    v.get_sasl_server_mechanisms = ⟨[⟨.lit "PLAIN"⟩]⟩ :=
  let ⟨v, h, hs⟩ := C65_sasl_mechanisms debugEnv 1 [0xa3, 5, 0x50, 0x4c, 0x41, 0x49, 0x4e] [] [0xc0, 8, 1] [0xff]
    (⟨[⟨.lit "PLAIN"⟩]⟩) (LawfulCodec.rt debugEnv (⟨[⟨.lit "PLAIN"⟩]⟩ : Symbols) ⟨fun _ _ h => by cases List.mem_singleton.1 h; exact SmallRT.rt debugEnv (⟨.lit "PLAIN"⟩ : Symbol) (by decide), fun h => absurd rfl h⟩) (.list8 (by decide) (by decide)) (by decide)
  ⟨v, h, hs⟩

/-- **C65** for `sasl-init`, `codegen/specification.json:706-730`. -/
theorem C65_sasl_init (env : Env) (k : Nat) (u0 u1 u2 extra hdr rest : Bytes)
    (mechanism : Symbol) (h0 : Means env u0 mechanism)
    (initial_response : Option Binary) (h1 : Means env u1 initial_response)
    (hostname : Option ByteStr) (h2 : Means env u2 hostname)
    (hh : ListHeader hdr (([u0, u1, u2].take k).flatten ++ extra).length k) (hk : 0 < k) :
    ∃ v, decode SaslInit env ([0x00, 0x53, 0x41] ++ hdr ++ ([u0, u1, u2].take k).flatten ++ extra ++ rest) =
        .ok (rest, v) ∧
      v.get_mechanism = mechanism ∧
      v.get_initial_response = (if 1 < k then initial_response else none) ∧
      v.get_hostname = (if 2 < k then hostname else none) := by
  have h := C22_sasl_init env k u0 u1 u2 extra hdr rest mechanism h0 initial_response h1 hostname h2 hh
  rw [if_neg (show ¬ k ≤ 0 by omega)] at h
  exact ⟨_, h, rfl, rfl, rfl⟩

example : ∃ v, decode SaslInit debugEnv [0x00, 0x53, 0x41, 0xc0, 11, 2, 0xa3, 3, 0x73, 0x79, 0x6d, 0xa0, 3, 1, 2, 3, 0xff] = .ok ([0xff], v) ∧
    v.get_initial_response = some (⟨[1, 2, 3]⟩) :=
  let ⟨v, h, hs⟩ := C65_sasl_init debugEnv 2 [0xa3, 3, 0x73, 0x79, 0x6d] [0xa0, 3, 1, 2, 3] [0xa1, 6, 0x68, 0xc3, 0xa9, 0x6c, 0x6c, 0x6f] [] [0xc0, 11, 2] [0xff]
    (⟨.lit "sym"⟩) (SmallRT.rt debugEnv (⟨.lit "sym"⟩ : Symbol) (by decide))
    (some (⟨[1, 2, 3]⟩)) (SmallRT.rt debugEnv (some (⟨[1, 2, 3]⟩) : Option Binary) (by decide))
    (some (.lit "héllo")) (SmallRT.rt debugEnv (some (.lit "héllo") : Option ByteStr) (by decide)) (.list8 (by decide) (by decide)) (by decide)
  ⟨v, h, hs.2.1⟩

/-- **C65** for `sasl-challenge`, `codegen/specification.json:731-745`. -/
theorem C65_sasl_challenge (env : Env) (k : Nat) (u0 extra hdr rest : Bytes)
    (challenge : Binary) (h0 : Means env u0 challenge)
    (hh : ListHeader hdr (([u0].take k).flatten ++ extra).length k) (hk : 0 < k) :
    ∃ v, decode SaslChallenge env ([0x00, 0x53, 0x42] ++ hdr ++ ([u0].take k).flatten ++ extra ++ rest) =
        .ok (rest, v) ∧
      v.get_challenge = challenge := by
  have h := C22_sasl_challenge env k u0 extra hdr rest challenge h0 hh
  rw [if_neg (show ¬ k ≤ 0 by omega)] at h
  exact ⟨_, h, rfl⟩

example : ∃ v, decode SaslChallenge debugEnv [0x00, 0x53, 0x42, 0xc0, 6, 1, 0xa0, 3, 1, 2, 3, 0xff] = .ok ([0xff], v) ∧
    v.get_challenge = ⟨[1, 2, 3]⟩ :=
  let ⟨v, h, hs⟩ := C65_sasl_challenge debugEnv 1 [0xa0, 3, 1, 2, 3] [] [0xc0, 6, 1] [0xff]
    (⟨[1, 2, 3]⟩) (SmallRT.rt debugEnv (⟨[1, 2, 3]⟩ : Binary) (by decide)) (.list8 (by decide) (by decide)) (by decide)
  ⟨v, h, hs⟩

/-- **C65** for `sasl-response`, `codegen/specification.json:746-760`. -/
theorem C65_sasl_response (env : Env) (k : Nat) (u0 extra hdr rest : Bytes)
    (response : Binary) (h0 : Means env u0 response)
    (hh : ListHeader hdr (([u0].take k).flatten ++ extra).length k) (hk : 0 < k) :
    ∃ v, decode SaslResponse env ([0x00, 0x53, 0x43] ++ hdr ++ ([u0].take k).flatten ++ extra ++ rest) =
        .ok (rest, v) ∧
      v.get_response = response := by
  have h := C22_sasl_response env k u0 extra hdr rest response h0 hh
  rw [if_neg (show ¬ k ≤ 0 by omega)] at h
  exact ⟨_, h, rfl⟩

example : ∃ v, decode SaslResponse debugEnv [0x00, 0x53, 0x43, 0xc0, 6, 1, 0xa0, 3, 1, 2, 3, 0xff] = .ok ([0xff], v) ∧
    v.get_response = ⟨[1, 2, 3]⟩ :=
  let ⟨v, h, hs⟩ := C65_sasl_response debugEnv 1 [0xa0, 3, 1, 2, 3] [] [0xc0, 6, 1] [0xff]
    (⟨[1, 2, 3]⟩) (SmallRT.rt debugEnv (⟨[1, 2, 3]⟩ : Binary) (by decide)) (.list8 (by decide) (by decide)) (by decide)
  ⟨v, h, hs⟩

/-- **C65** for `sasl-outcome`, `codegen/specification.json:761-781`. -/
theorem C65_sasl_outcome (env : Env) (k : Nat) (u0 u1 extra hdr rest : Bytes)
    (code : SaslCode) (h0 : Means env u0 code)
    (additional_data : Option Binary) (h1 : Means env u1 additional_data)
    (hh : ListHeader hdr (([u0, u1].take k).flatten ++ extra).length k) (hk : 0 < k) :
    ∃ v, decode SaslOutcome env ([0x00, 0x53, 0x44] ++ hdr ++ ([u0, u1].take k).flatten ++ extra ++ rest) =
        .ok (rest, v) ∧
      v.get_code = code ∧
      v.get_additional_data = (if 1 < k then additional_data else none) := by
  have h := C22_sasl_outcome env k u0 u1 extra hdr rest code h0 additional_data h1 hh
  rw [if_neg (show ¬ k ≤ 0 by omega)] at h
  exact ⟨_, h, rfl, rfl⟩

example : ∃ v, decode SaslOutcome debugEnv [0x00, 0x53, 0x44, 0xc0, 8, 2, 0x50, 3, 0xa0, 3, 1, 2, 3, 0xff] = .ok ([0xff], v) ∧
    v.get_additional_data = some (⟨[1, 2, 3]⟩) :=
  let ⟨v, h, hs⟩ := C65_sasl_outcome debugEnv 2 [0x50, 3] [0xa0, 3, 1, 2, 3] [] [0xc0, 8, 2] [0xff]
    (.SysPerm) (SmallRT.rt debugEnv (.SysPerm : SaslCode) (by decide))
    (some (⟨[1, 2, 3]⟩)) (SmallRT.rt debugEnv (some (⟨[1, 2, 3]⟩) : Option Binary) (by decide)) (.list8 (by decide) (by decide)) (by decide)
  ⟨v, h, hs.2⟩

/-- **C65** for `source`, `codegen/specification.json:834-898`. -/
theorem C65_source (env : Env) (k : Nat) (u0 u1 u2 u3 u4 u5 u6 u7 u8 u9 u10 extra hdr rest : Bytes)
    (address : Option Address) (h0 : Means env u0 address)
    (durable : Option TerminusDurability) (h1 : Means env u1 durable)
    (expiry_policy : Option TerminusExpiryPolicy) (h2 : Means env u2 expiry_policy)
    (timeout : Option Seconds) (h3 : Means env u3 timeout)
    (dynamic : Option Bool) (h4 : Means env u4 dynamic)
    (dynamic_node_properties : Option NodeProperties) (h5 : Means env u5 dynamic_node_properties)
    (distribution_mode : Option DistributionMode) (h6 : Means env u6 distribution_mode)
    (filter : Option FilterSet) (h7 : Means env u7 filter)
    (default_outcome : Option Outcome) (h8 : Means env u8 default_outcome)
    (outcomes : Option Symbols) (h9 : Means env u9 outcomes)
    (capabilities : Option Symbols) (h10 : Means env u10 capabilities)
    (hh : ListHeader hdr (([u0, u1, u2, u3, u4, u5, u6, u7, u8, u9, u10].take k).flatten ++ extra).length k) :
    ∃ v, decode Source env ([0x00, 0x53, 0x28] ++ hdr ++ ([u0, u1, u2, u3, u4, u5, u6, u7, u8, u9, u10].take k).flatten ++ extra ++ rest) =
        .ok (rest, v) ∧
      v.get_address = (if 0 < k then address else none) ∧
      v.get_durable = (if 1 < k then durable.getD TerminusDurability.None else TerminusDurability.None) ∧
      v.get_expiry_policy = (if 2 < k then expiry_policy.getD TerminusExpiryPolicy.SessionEnd else TerminusExpiryPolicy.SessionEnd) ∧
      v.get_timeout = (if 3 < k then timeout.getD 0 else 0) ∧
      v.get_dynamic = (if 4 < k then dynamic.getD false else false) ∧
      v.get_dynamic_node_properties = (if 5 < k then dynamic_node_properties else none) ∧
      v.get_distribution_mode = (if 6 < k then distribution_mode else none) ∧
      v.get_filter = (if 7 < k then filter else none) ∧
      v.get_default_outcome = (if 8 < k then default_outcome else none) ∧
      v.get_outcomes = (if 9 < k then outcomes else none) ∧
      v.get_capabilities = (if 10 < k then capabilities else none) := by
  have h := C22_source env k u0 u1 u2 u3 u4 u5 u6 u7 u8 u9 u10 extra hdr rest address h0 durable h1 expiry_policy h2 timeout h3 dynamic h4 dynamic_node_properties h5 distribution_mode h6 filter h7 default_outcome h8 outcomes h9 capabilities h10 hh
  exact ⟨_, h, rfl, rfl, rfl, rfl, rfl, rfl, rfl, rfl, rfl, rfl, rfl⟩

example : ∃ v, decode Source debugEnv [0x00, 0x53, 0x28, 0xc0, 9, 1, 0xa1, 6, 0x68, 0xc3, 0xa9, 0x6c, 0x6c, 0x6f, 0xff] = .ok ([0xff], v) ∧
    v.get_address = some (.lit "héllo") :=
  let ⟨v, h, hs⟩ := C65_source debugEnv 1 [0xa1, 6, 0x68, 0xc3, 0xa9, 0x6c, 0x6c, 0x6f] [0x52, 2] [0xa3, 5, 0x6e, 0x65, 0x76, 0x65, 0x72] [0x70, 0, 1, 0x11, 0x70] [0x41] [0x40] [0x40] [0x40] [0x40] [0x40] [0x40] [] [0xc0, 9, 1] [0xff]
    (some (.lit "héllo")) (SmallRT.rt debugEnv (some (.lit "héllo") : Option Address) (by decide))
    (some .UnsettledState) (SmallRT.rt debugEnv (some .UnsettledState : Option TerminusDurability) (by decide))
    (some .Never) (SmallRT.rt debugEnv (some .Never : Option TerminusExpiryPolicy) (by decide))
    (some 70000) (SmallRT.rt debugEnv (some 70000 : Option Seconds) (by decide))
    (some true) (SmallRT.rt debugEnv (some true : Option Bool) (by decide))
    (none) (fun _ => rfl)
    (none) (fun _ => rfl)
    (none) (fun _ => rfl)
    (none) (fun _ => rfl)
    (none) (fun _ => rfl)
    (none) (fun _ => rfl) (.list8 (by decide) (by decide))
  ⟨v, h, hs.1⟩

/-- **C65** for `target`, `codegen/specification.json:899-944`. -/
theorem C65_target (env : Env) (k : Nat) (u0 u1 u2 u3 u4 u5 u6 extra hdr rest : Bytes)
    (address : Option Address) (h0 : Means env u0 address)
    (durable : Option TerminusDurability) (h1 : Means env u1 durable)
    (expiry_policy : Option TerminusExpiryPolicy) (h2 : Means env u2 expiry_policy)
    (timeout : Option Seconds) (h3 : Means env u3 timeout)
    (dynamic : Option Bool) (h4 : Means env u4 dynamic)
    (dynamic_node_properties : Option NodeProperties) (h5 : Means env u5 dynamic_node_properties)
    (capabilities : Option Symbols) (h6 : Means env u6 capabilities)
    (hh : ListHeader hdr (([u0, u1, u2, u3, u4, u5, u6].take k).flatten ++ extra).length k) :
    ∃ v, decode Target env ([0x00, 0x53, 0x29] ++ hdr ++ ([u0, u1, u2, u3, u4, u5, u6].take k).flatten ++ extra ++ rest) =
        .ok (rest, v) ∧
      v.get_address = (if 0 < k then address else none) ∧
      v.get_durable = (if 1 < k then durable.getD TerminusDurability.None else TerminusDurability.None) ∧
      v.get_expiry_policy = (if 2 < k then expiry_policy.getD TerminusExpiryPolicy.SessionEnd else TerminusExpiryPolicy.SessionEnd) ∧
      v.get_timeout = (if 3 < k then timeout.getD 0 else 0) ∧
      v.get_dynamic = (if 4 < k then dynamic.getD false else false) ∧
      v.get_dynamic_node_properties = (if 5 < k then dynamic_node_properties else none) ∧
      v.get_capabilities = (if 6 < k then capabilities else none) := by
  have h := C22_target env k u0 u1 u2 u3 u4 u5 u6 extra hdr rest address h0 durable h1 expiry_policy h2 timeout h3 dynamic h4 dynamic_node_properties h5 capabilities h6 hh
  exact ⟨_, h, rfl, rfl, rfl, rfl, rfl, rfl, rfl⟩

example : ∃ v, decode Target debugEnv [0x00, 0x53, 0x29, 0xc0, 9, 1, 0xa1, 6, 0x68, 0xc3, 0xa9, 0x6c, 0x6c, 0x6f, 0xff] = .ok ([0xff], v) ∧
    v.get_address = some (.lit "héllo") :=
  let ⟨v, h, hs⟩ := C65_target debugEnv 1 [0xa1, 6, 0x68, 0xc3, 0xa9, 0x6c, 0x6c, 0x6f] [0x52, 2] [0xa3, 5, 0x6e, 0x65, 0x76, 0x65, 0x72] [0x70, 0, 1, 0x11, 0x70] [0x41] [0x40] [0x40] [] [0xc0, 9, 1] [0xff]
    (some (.lit "héllo")) (SmallRT.rt debugEnv (some (.lit "héllo") : Option Address) (by decide))
    (some .UnsettledState) (SmallRT.rt debugEnv (some .UnsettledState : Option TerminusDurability) (by decide))
    (some .Never) (SmallRT.rt debugEnv (some .Never : Option TerminusExpiryPolicy) (by decide))
    (some 70000) (SmallRT.rt debugEnv (some 70000 : Option Seconds) (by decide))
    (some true) (SmallRT.rt debugEnv (some true : Option Bool) (by decide))
    (none) (fun _ => rfl)
    (none) (fun _ => rfl) (.list8 (by decide) (by decide))
  ⟨v, h, hs.1⟩

/-- **C65** for `header`, `codegen/specification.json:980-1015`. -/
theorem C65_header (env : Env) (k : Nat) (u0 u1 u2 u3 u4 extra hdr rest : Bytes)
    (durable : Option Bool) (h0 : Means env u0 durable)
    (priority : Option UInt8) (h1 : Means env u1 priority)
    (ttl : Option Milliseconds) (h2 : Means env u2 ttl)
    (first_acquirer : Option Bool) (h3 : Means env u3 first_acquirer)
    (delivery_count : Option UInt32) (h4 : Means env u4 delivery_count)
    (hh : ListHeader hdr (([u0, u1, u2, u3, u4].take k).flatten ++ extra).length k) :
    ∃ v, decode Header env ([0x00, 0x53, 0x70] ++ hdr ++ ([u0, u1, u2, u3, u4].take k).flatten ++ extra ++ rest) =
        .ok (rest, v) ∧
      v.get_durable = (if 0 < k then durable.getD false else false) ∧
      v.get_priority = (if 1 < k then priority.getD 4 else 4) ∧
      v.get_ttl = (if 2 < k then ttl else none) ∧
      v.get_first_acquirer = (if 3 < k then first_acquirer.getD false else false) ∧
      v.get_delivery_count = (if 4 < k then delivery_count.getD 0 else 0) := by
  have h := C22_header env k u0 u1 u2 u3 u4 extra hdr rest durable h0 priority h1 ttl h2 first_acquirer h3 delivery_count h4 hh
  exact ⟨_, h, rfl, rfl, rfl, rfl, rfl⟩

example : ∃ v, decode Header debugEnv [0x00, 0x53, 0x70, 0xc0, 2, 1, 0x41, 0xff] = .ok ([0xff], v) ∧
    v.get_durable = true :=
  let ⟨v, h, hs⟩ := C65_header debugEnv 1 [0x41] [0x50, 7] [0x70, 0, 1, 0x11, 0x70] [0x41] [0x70, 0, 1, 0x11, 0x70] [] [0xc0, 2, 1] [0xff]
    (some true) (SmallRT.rt debugEnv (some true : Option Bool) (by decide))
    (some 7) (SmallRT.rt debugEnv (some 7 : Option UInt8) (by decide))
    (some 70000) (SmallRT.rt debugEnv (some 70000 : Option Milliseconds) (by decide))
    (some true) (SmallRT.rt debugEnv (some true : Option Bool) (by decide))
    (some 70000) (SmallRT.rt debugEnv (some 70000 : Option UInt32) (by decide)) (.list8 (by decide) (by decide))
  ⟨v, h, hs.1⟩

/-- **C65** for `properties`, `codegen/specification.json:1086-1153`. -/
theorem C65_properties (env : Env) (k : Nat) (u0 u1 u2 u3 u4 u5 u6 u7 u8 u9 u10 u11 u12 extra hdr rest : Bytes)
    (message_id : Option MessageId) (h0 : Means env u0 message_id)
    (user_id : Option Binary) (h1 : Means env u1 user_id)
    (to : Option Address) (h2 : Means env u2 to)
    (subject : Option ByteStr) (h3 : Means env u3 subject)
    (reply_to : Option Address) (h4 : Means env u4 reply_to)
    (correlation_id : Option MessageId) (h5 : Means env u5 correlation_id)
    (content_type : Option Symbol) (h6 : Means env u6 content_type)
    (content_encoding : Option Symbol) (h7 : Means env u7 content_encoding)
    (absolute_expiry_time : Option Timestamp) (h8 : Means env u8 absolute_expiry_time)
    (creation_time : Option Timestamp) (h9 : Means env u9 creation_time)
    (group_id : Option ByteStr) (h10 : Means env u10 group_id)
    (group_sequence : Option SequenceNo) (h11 : Means env u11 group_sequence)
    (reply_to_group_id : Option ByteStr) (h12 : Means env u12 reply_to_group_id)
    (hh : ListHeader hdr (([u0, u1, u2, u3, u4, u5, u6, u7, u8, u9, u10, u11, u12].take k).flatten ++ extra).length k) :
    ∃ v, decode Properties env ([0x00, 0x53, 0x73] ++ hdr ++ ([u0, u1, u2, u3, u4, u5, u6, u7, u8, u9, u10, u11, u12].take k).flatten ++ extra ++ rest) =
        .ok (rest, v) ∧
      v.get_message_id = (if 0 < k then message_id else none) ∧
      v.get_user_id = (if 1 < k then user_id else none) ∧
      v.get_to = (if 2 < k then to else none) ∧
      v.get_subject = (if 3 < k then subject else none) ∧
      v.get_reply_to = (if 4 < k then reply_to else none) ∧
      v.get_correlation_id = (if 5 < k then correlation_id else none) ∧
      v.get_content_type = (if 6 < k then content_type else none) ∧
      v.get_content_encoding = (if 7 < k then content_encoding else none) ∧
      v.get_absolute_expiry_time = (if 8 < k then absolute_expiry_time else none) ∧
      v.get_creation_time = (if 9 < k then creation_time else none) ∧
      v.get_group_id = (if 10 < k then group_id else none) ∧
      v.get_group_sequence = (if 11 < k then group_sequence else none) ∧
      v.get_reply_to_group_id = (if 12 < k then reply_to_group_id else none) := by
  have h := C22_properties env k u0 u1 u2 u3 u4 u5 u6 u7 u8 u9 u10 u11 u12 extra hdr rest message_id h0 user_id h1 to h2 subject h3 reply_to h4 correlation_id h5 content_type h6 content_encoding h7 absolute_expiry_time h8 creation_time h9 group_id h10 group_sequence h11 reply_to_group_id h12 hh
  exact ⟨_, h, rfl, rfl, rfl, rfl, rfl, rfl, rfl, rfl, rfl, rfl, rfl, rfl, rfl⟩

example : ∃ v, decode Properties debugEnv [0x00, 0x53, 0x73, 0xc0, 5, 1, 0xa1, 2, 0x69, 0x64, 0xff] = .ok ([0xff], v) ∧
    v.get_message_id = some (.String (.lit "id")) :=
  let ⟨v, h, hs⟩ := C65_properties debugEnv 1 [0xa1, 2, 0x69, 0x64] [0xa0, 3, 1, 2, 3] [0xa1, 6, 0x68, 0xc3, 0xa9, 0x6c, 0x6c, 0x6f] [0xa1, 6, 0x68, 0xc3, 0xa9, 0x6c, 0x6c, 0x6f] [0xa1, 6, 0x68, 0xc3, 0xa9, 0x6c, 0x6c, 0x6f] [0xa1, 2, 0x69, 0x64] [0xa3, 3, 0x73, 0x79, 0x6d] [0xa3, 3, 0x73, 0x79, 0x6d] [0x40] [0x40] [0xa1, 6, 0x68, 0xc3, 0xa9, 0x6c, 0x6c, 0x6f] [0x70, 0, 1, 0x11, 0x70] [0xa1, 6, 0x68, 0xc3, 0xa9, 0x6c, 0x6c, 0x6f] [] [0xc0, 5, 1] [0xff]
    (some (.String (.lit "id"))) (SmallRT.rt debugEnv (some (.String (.lit "id")) : Option MessageId) (by decide))
    (some (⟨[1, 2, 3]⟩)) (SmallRT.rt debugEnv (some (⟨[1, 2, 3]⟩) : Option Binary) (by decide))
    (some (.lit "héllo")) (SmallRT.rt debugEnv (some (.lit "héllo") : Option Address) (by decide))
    (some (.lit "héllo")) (SmallRT.rt debugEnv (some (.lit "héllo") : Option ByteStr) (by decide))
    (some (.lit "héllo")) (SmallRT.rt debugEnv (some (.lit "héllo") : Option Address) (by decide))
    (some (.String (.lit "id"))) (SmallRT.rt debugEnv (some (.String (.lit "id")) : Option MessageId) (by decide))
    (some (⟨.lit "sym"⟩)) (SmallRT.rt debugEnv (some (⟨.lit "sym"⟩) : Option Symbol) (by decide))
    (some (⟨.lit "sym"⟩)) (SmallRT.rt debugEnv (some (⟨.lit "sym"⟩) : Option Symbol) (by decide))
    (none) (fun _ => rfl)
    (none) (fun _ => rfl)
    (some (.lit "héllo")) (SmallRT.rt debugEnv (some (.lit "héllo") : Option ByteStr) (by decide))
    (some 70000) (SmallRT.rt debugEnv (some 70000 : Option SequenceNo) (by decide))
    (some (.lit "héllo")) (SmallRT.rt debugEnv (some (.lit "héllo") : Option ByteStr) (by decide)) (.list8 (by decide) (by decide))
  ⟨v, h, hs.1⟩

/-- **C65** for `received`, `codegen/specification.json:1154-1175`. -/
theorem C65_received (env : Env) (k : Nat) (u0 u1 extra hdr rest : Bytes)
    (section_number : UInt32) (h0 : Means env u0 section_number)
    (section_offset : UInt64) (h1 : Means env u1 section_offset)
    (hh : ListHeader hdr (([u0, u1].take k).flatten ++ extra).length k) (hk : 1 < k) :
    ∃ v, decode Received env ([0x00, 0x53, 0x23] ++ hdr ++ ([u0, u1].take k).flatten ++ extra ++ rest) =
        .ok (rest, v) ∧
      v.get_section_number = section_number ∧
      v.get_section_offset = section_offset := by
  have h := C22_received env k u0 u1 extra hdr rest section_number h0 section_offset h1 hh
  rw [if_neg (show ¬ k ≤ 0 by omega), if_neg (show ¬ k ≤ 1 by omega)] at h
  exact ⟨_, h, rfl, rfl⟩

example : ∃ v, decode Received debugEnv [0x00, 0x53, 0x23, 0xc0, 8, 2, 0x70, 0, 1, 0x11, 0x70, 0x53, 9, 0xff] = .ok ([0xff], v) ∧
    v.get_section_offset = 9 :=
  let ⟨v, h, hs⟩ := C65_received debugEnv 2 [0x70, 0, 1, 0x11, 0x70] [0x53, 9] [] [0xc0, 8, 2] [0xff]
    (70000) (SmallRT.rt debugEnv (70000 : UInt32) (by decide))
    (9) (SmallRT.rt debugEnv (9 : UInt64) (by decide)) (.list8 (by decide) (by decide)) (by decide)
  ⟨v, h, hs.2⟩

/-- **C65** for `rejected`, `codegen/specification.json:1186-1199`. -/
theorem C65_rejected (env : Env) (k : Nat) (u0 extra hdr rest : Bytes)
    (error : Option Error) (h0 : Means env u0 error)
    (hh : ListHeader hdr (([u0].take k).flatten ++ extra).length k) :
    ∃ v, decode Rejected env ([0x00, 0x53, 0x25] ++ hdr ++ ([u0].take k).flatten ++ extra ++ rest) =
        .ok (rest, v) ∧
      v.get_error = (if 0 < k then error else none) := by
  have h := C22_rejected env k u0 extra hdr rest error h0 hh
  exact ⟨_, h, rfl⟩

example : ∃ v, decode Rejected debugEnv [0x00, 0x53, 0x25, 0xc0, 2, 1, 0x40, 0xff] = .ok ([0xff], v) ∧
    v.get_error = none :=
  let ⟨v, h, hs⟩ := C65_rejected debugEnv 1 [0x40] [] [0xc0, 2, 1] [0xff]
    (none) (fun _ => rfl) (.list8 (by decide) (by decide))
  ⟨v, h, hs⟩

/-- **C65** for `modified`, `codegen/specification.json:1210-1233`. -/
theorem C65_modified (env : Env) (k : Nat) (u0 u1 u2 extra hdr rest : Bytes)
    (delivery_failed : Option Bool) (h0 : Means env u0 delivery_failed)
    (undeliverable_here : Option Bool) (h1 : Means env u1 undeliverable_here)
    (message_annotations : Option Fields) (h2 : Means env u2 message_annotations)
    (hh : ListHeader hdr (([u0, u1, u2].take k).flatten ++ extra).length k) :
    ∃ v, decode Modified env ([0x00, 0x53, 0x27] ++ hdr ++ ([u0, u1, u2].take k).flatten ++ extra ++ rest) =
        .ok (rest, v) ∧
      v.get_delivery_failed = (if 0 < k then delivery_failed else none) ∧
      v.get_undeliverable_here = (if 1 < k then undeliverable_here else none) ∧
      v.get_message_annotations = (if 2 < k then message_annotations else none) := by
  have h := C22_modified env k u0 u1 u2 extra hdr rest delivery_failed h0 undeliverable_here h1 message_annotations h2 hh
  exact ⟨_, h, rfl, rfl, rfl⟩

example : ∃ v, decode Modified debugEnv [0x00, 0x53, 0x27, 0xc0, 2, 1, 0x41, 0xff] = .ok ([0xff], v) ∧
    v.get_delivery_failed = some true :=
  let ⟨v, h, hs⟩ := C65_modified debugEnv 1 [0x41] [0x41] [0x40] [] [0xc0, 2, 1] [0xff]
    (some true) (SmallRT.rt debugEnv (some true : Option Bool) (by decide))
    (some true) (SmallRT.rt debugEnv (some true : Option Bool) (by decide))
    (none) (fun _ => rfl) (.list8 (by decide) (by decide))
  ⟨v, h, hs.1⟩

/-- **C65** for frames: the name is that of the type in the specification; a frame
received is what the conversion from the performative yields. -/
theorem C65_frame_names :
    Named (decode Open) Frame.ofOpen "Open" 0x10 "amqp:open:list" ∧
    Named (decode Begin) Frame.ofBegin "Begin" 0x11 "amqp:begin:list" ∧
    Named (decode Attach) Frame.ofAttach "Attach" 0x12 "amqp:attach:list" ∧
    Named (decode Flow) Frame.ofFlow "Flow" 0x13 "amqp:flow:list" ∧
    Named (decode Transfer) Frame.ofTransfer "Transfer" 0x14 "amqp:transfer:list" ∧
    Named (decode Disposition) Frame.ofDisposition "Disposition" 0x15 "amqp:disposition:list" ∧
    Named (decode Detach) Frame.ofDetach "Detach" 0x16 "amqp:detach:list" ∧
    Named (decode End) Frame.ofEnd "End" 0x17 "amqp:end:list" ∧
    Named (decode Close) Frame.ofClose "Close" 0x18 "amqp:close:list" ∧
    Frame.Empty.name = "Empty" := by
  obtain ⟨m0, m1, m2, m3, m4, m5, m6, m7, m8⟩ := C24_frame_members
  exact ⟨named m0 (fun _ => rfl), named m1 (fun _ => rfl), named m2 (fun _ => rfl), named m3 (fun _ => rfl), named m4 (fun _ => rfl), named m5 (fun _ => rfl), named m6 (fun _ => rfl), named m7 (fun _ => rfl), named m8 (fun _ => rfl), rfl⟩

end Amqp
