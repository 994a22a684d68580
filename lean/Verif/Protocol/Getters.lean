import Verif.Protocol.Frame
/-!
# Accessors of the list types, `src/protocol/definitions.rs`

Generated by `tools/gen_protocol.py`.  Accessors that return references are
modelled as returning the value referred to, and `as_ref` on an option as the
identity.
-/
set_option autoImplicit false
namespace Amqp

/-- `Error::condition`, `src/protocol/definitions.rs:1073-1075`. -/
def Error.get_condition (v : Error) : ErrorCondition := v.condition
/-- `Error::description`, `src/protocol/definitions.rs:1076-1078`. -/
def Error.get_description (v : Error) : Option ByteStr := v.description
/-- `Error::info`, `src/protocol/definitions.rs:1079-1081`. -/
def Error.get_info (v : Error) : Option Fields := v.info

/-- `Open::container_id`, `src/protocol/definitions.rs:1199-1201`. -/
def Open.get_container_id (v : Open) : ByteStr := v.container_id
/-- `Open::hostname`, `src/protocol/definitions.rs:1202-1204`. -/
def Open.get_hostname (v : Open) : Option ByteStr := v.hostname
/-- `Open::max_frame_size`, `src/protocol/definitions.rs:1205-1207`. -/
def Open.get_max_frame_size (v : Open) : UInt32 := v.max_frame_size
/-- `Open::channel_max`, `src/protocol/definitions.rs:1208-1210`. -/
def Open.get_channel_max (v : Open) : UInt16 := v.channel_max
/-- `Open::idle_time_out`, `src/protocol/definitions.rs:1211-1213`. -/
def Open.get_idle_time_out (v : Open) : Option Milliseconds := v.idle_time_out
/-- `Open::outgoing_locales`, `src/protocol/definitions.rs:1214-1216`. -/
def Open.get_outgoing_locales (v : Open) : Option IetfLanguageTags := v.outgoing_locales
/-- `Open::incoming_locales`, `src/protocol/definitions.rs:1217-1219`. -/
def Open.get_incoming_locales (v : Open) : Option IetfLanguageTags := v.incoming_locales
/-- `Open::offered_capabilities`, `src/protocol/definitions.rs:1220-1222`. -/
def Open.get_offered_capabilities (v : Open) : Option Symbols := v.offered_capabilities
/-- `Open::desired_capabilities`, `src/protocol/definitions.rs:1223-1225`. -/
def Open.get_desired_capabilities (v : Open) : Option Symbols := v.desired_capabilities
/-- `Open::properties`, `src/protocol/definitions.rs:1226-1228`. -/
def Open.get_properties (v : Open) : Option Fields := v.properties

/-- `Begin::remote_channel`, `src/protocol/definitions.rs:1435-1437`. -/
def Begin.get_remote_channel (v : Begin) : Option UInt16 := v.remote_channel
/-- `Begin::next_outgoing_id`, `src/protocol/definitions.rs:1438-1440`. -/
def Begin.get_next_outgoing_id (v : Begin) : TransferNumber := v.next_outgoing_id
/-- `Begin::incoming_window`, `src/protocol/definitions.rs:1441-1443`. -/
def Begin.get_incoming_window (v : Begin) : UInt32 := v.incoming_window
/-- `Begin::outgoing_window`, `src/protocol/definitions.rs:1444-1446`. -/
def Begin.get_outgoing_window (v : Begin) : UInt32 := v.outgoing_window
/-- `Begin::handle_max`, `src/protocol/definitions.rs:1447-1449`. -/
def Begin.get_handle_max (v : Begin) : Handle := v.handle_max
/-- `Begin::offered_capabilities`, `src/protocol/definitions.rs:1450-1452`. -/
def Begin.get_offered_capabilities (v : Begin) : Option Symbols := v.offered_capabilities
/-- `Begin::desired_capabilities`, `src/protocol/definitions.rs:1453-1455`. -/
def Begin.get_desired_capabilities (v : Begin) : Option Symbols := v.desired_capabilities
/-- `Begin::properties`, `src/protocol/definitions.rs:1456-1458`. -/
def Begin.get_properties (v : Begin) : Option Fields := v.properties

/-- `Attach::name`, `src/protocol/definitions.rs:1645-1647`. -/
def Attach.get_name (v : Attach) : ByteStr := v.name
/-- `Attach::handle`, `src/protocol/definitions.rs:1648-1650`. -/
def Attach.get_handle (v : Attach) : Handle := v.handle
/-- `Attach::role`, `src/protocol/definitions.rs:1651-1653`. -/
def Attach.get_role (v : Attach) : Role := v.role
/-- `Attach::snd_settle_mode`, `src/protocol/definitions.rs:1654-1656`. -/
def Attach.get_snd_settle_mode (v : Attach) : SenderSettleMode := v.snd_settle_mode
/-- `Attach::rcv_settle_mode`, `src/protocol/definitions.rs:1657-1659`. -/
def Attach.get_rcv_settle_mode (v : Attach) : ReceiverSettleMode := v.rcv_settle_mode
/-- `Attach::source`, `src/protocol/definitions.rs:1660-1662`. -/
def Attach.get_source (v : Attach) : Option Source := v.source
/-- `Attach::target`, `src/protocol/definitions.rs:1663-1665`. -/
def Attach.get_target (v : Attach) : Option Target := v.target
/-- `Attach::unsettled`, `src/protocol/definitions.rs:1666-1668`. -/
def Attach.get_unsettled (v : Attach) : Option Map := v.unsettled
/-- `Attach::incomplete_unsettled`, `src/protocol/definitions.rs:1669-1671`. -/
def Attach.get_incomplete_unsettled (v : Attach) : Bool := v.incomplete_unsettled
/-- `Attach::initial_delivery_count`, `src/protocol/definitions.rs:1672-1674`. -/
def Attach.get_initial_delivery_count (v : Attach) : Option SequenceNo := v.initial_delivery_count
/-- `Attach::max_message_size`, `src/protocol/definitions.rs:1675-1677`. -/
def Attach.get_max_message_size (v : Attach) : Option UInt64 := v.max_message_size
/-- `Attach::offered_capabilities`, `src/protocol/definitions.rs:1678-1680`. -/
def Attach.get_offered_capabilities (v : Attach) : Option Symbols := v.offered_capabilities
/-- `Attach::desired_capabilities`, `src/protocol/definitions.rs:1681-1683`. -/
def Attach.get_desired_capabilities (v : Attach) : Option Symbols := v.desired_capabilities
/-- `Attach::properties`, `src/protocol/definitions.rs:1684-1686`. -/
def Attach.get_properties (v : Attach) : Option Fields := v.properties

/-- `Flow::next_incoming_id`, `src/protocol/definitions.rs:1948-1950`. -/
def Flow.get_next_incoming_id (v : Flow) : Option TransferNumber := v.next_incoming_id
/-- `Flow::incoming_window`, `src/protocol/definitions.rs:1951-1953`. -/
def Flow.get_incoming_window (v : Flow) : UInt32 := v.incoming_window
/-- `Flow::next_outgoing_id`, `src/protocol/definitions.rs:1954-1956`. -/
def Flow.get_next_outgoing_id (v : Flow) : TransferNumber := v.next_outgoing_id
/-- `Flow::outgoing_window`, `src/protocol/definitions.rs:1957-1959`. -/
def Flow.get_outgoing_window (v : Flow) : UInt32 := v.outgoing_window
/-- `Flow::handle`, `src/protocol/definitions.rs:1960-1962`. -/
def Flow.get_handle (v : Flow) : Option Handle := v.handle
/-- `Flow::delivery_count`, `src/protocol/definitions.rs:1963-1965`. -/
def Flow.get_delivery_count (v : Flow) : Option SequenceNo := v.delivery_count
/-- `Flow::link_credit`, `src/protocol/definitions.rs:1966-1968`. -/
def Flow.get_link_credit (v : Flow) : Option UInt32 := v.link_credit
/-- `Flow::available`, `src/protocol/definitions.rs:1969-1971`. -/
def Flow.get_available (v : Flow) : Option UInt32 := v.available
/-- `Flow::drain`, `src/protocol/definitions.rs:1972-1974`. -/
def Flow.get_drain (v : Flow) : Bool := v.drain
/-- `Flow::echo`, `src/protocol/definitions.rs:1975-1977`. -/
def Flow.get_echo (v : Flow) : Bool := v.echo
/-- `Flow::properties`, `src/protocol/definitions.rs:1978-1980`. -/
def Flow.get_properties (v : Flow) : Option Fields := v.properties

/-- `Transfer::handle`, `src/protocol/definitions.rs:2204-2206`. -/
def Transfer.get_handle (v : Transfer) : Handle := v.handle
/-- `Transfer::delivery_id`, `src/protocol/definitions.rs:2207-2209`. -/
def Transfer.get_delivery_id (v : Transfer) : Option DeliveryNumber := v.delivery_id
/-- `Transfer::delivery_tag`, `src/protocol/definitions.rs:2210-2212`. -/
def Transfer.get_delivery_tag (v : Transfer) : Option DeliveryTag := v.delivery_tag
/-- `Transfer::message_format`, `src/protocol/definitions.rs:2213-2215`. -/
def Transfer.get_message_format (v : Transfer) : Option MessageFormat := v.message_format
/-- `Transfer::settled`, `src/protocol/definitions.rs:2216-2218`. -/
def Transfer.get_settled (v : Transfer) : Option Bool := v.settled
/-- `Transfer::more`, `src/protocol/definitions.rs:2219-2221`. -/
def Transfer.get_more (v : Transfer) : Bool := v.more
/-- `Transfer::rcv_settle_mode`, `src/protocol/definitions.rs:2222-2224`. -/
def Transfer.get_rcv_settle_mode (v : Transfer) : Option ReceiverSettleMode := v.rcv_settle_mode
/-- `Transfer::state`, `src/protocol/definitions.rs:2225-2227`. -/
def Transfer.get_state (v : Transfer) : Option DeliveryState := v.state
/-- `Transfer::resume`, `src/protocol/definitions.rs:2228-2230`. -/
def Transfer.get_resume (v : Transfer) : Bool := v.resume
/-- `Transfer::aborted`, `src/protocol/definitions.rs:2231-2233`. -/
def Transfer.get_aborted (v : Transfer) : Bool := v.aborted
/-- `Transfer::batchable`, `src/protocol/definitions.rs:2234-2236`. -/
def Transfer.get_batchable (v : Transfer) : Bool := v.batchable
/-- `Transfer::body`, `src/protocol/definitions.rs:2237-2239`. -/
def Transfer.get_body (v : Transfer) : Option TransferBody := v.body

/-- `Disposition::role`, `src/protocol/definitions.rs:2469-2471`. -/
def Disposition.get_role (v : Disposition) : Role := v.role
/-- `Disposition::first`, `src/protocol/definitions.rs:2472-2474`. -/
def Disposition.get_first (v : Disposition) : DeliveryNumber := v.first
/-- `Disposition::last`, `src/protocol/definitions.rs:2475-2477`. -/
def Disposition.get_last (v : Disposition) : Option DeliveryNumber := v.last
/-- `Disposition::settled`, `src/protocol/definitions.rs:2478-2480`. -/
def Disposition.get_settled (v : Disposition) : Bool := v.settled
/-- `Disposition::state`, `src/protocol/definitions.rs:2481-2483`. -/
def Disposition.get_state (v : Disposition) : Option DeliveryState := v.state
/-- `Disposition::batchable`, `src/protocol/definitions.rs:2484-2486`. -/
def Disposition.get_batchable (v : Disposition) : Bool := v.batchable

/-- `Detach::handle`, `src/protocol/definitions.rs:2636-2638`. -/
def Detach.get_handle (v : Detach) : Handle := v.handle
/-- `Detach::closed`, `src/protocol/definitions.rs:2639-2641`. -/
def Detach.get_closed (v : Detach) : Bool := v.closed
/-- `Detach::error`, `src/protocol/definitions.rs:2642-2644`. -/
def Detach.get_error (v : Detach) : Option Error := v.error

/-- `End::error`, `src/protocol/definitions.rs:2749-2751`. -/
def End.get_error (v : End) : Option Error := v.error

/-- `Close::error`, `src/protocol/definitions.rs:2827-2829`. -/
def Close.get_error (v : Close) : Option Error := v.error

/-- `SaslMechanisms::sasl_server_mechanisms`, `src/protocol/definitions.rs:2905-2907`. -/
def SaslMechanisms.get_sasl_server_mechanisms (v : SaslMechanisms) : Symbols := v.sasl_server_mechanisms

/-- `SaslInit::mechanism`, `src/protocol/definitions.rs:2992-2994`. -/
def SaslInit.get_mechanism (v : SaslInit) : Symbol := v.mechanism
/-- `SaslInit::initial_response`, `src/protocol/definitions.rs:2995-2997`. -/
def SaslInit.get_initial_response (v : SaslInit) : Option Binary := v.initial_response
/-- `SaslInit::hostname`, `src/protocol/definitions.rs:2998-3000`. -/
def SaslInit.get_hostname (v : SaslInit) : Option ByteStr := v.hostname

/-- `SaslChallenge::challenge`, `src/protocol/definitions.rs:3109-3111`. -/
def SaslChallenge.get_challenge (v : SaslChallenge) : Binary := v.challenge

/-- `SaslResponse::response`, `src/protocol/definitions.rs:3187-3189`. -/
def SaslResponse.get_response (v : SaslResponse) : Binary := v.response

/-- `SaslOutcome::code`, `src/protocol/definitions.rs:3266-3268`. -/
def SaslOutcome.get_code (v : SaslOutcome) : SaslCode := v.code
/-- `SaslOutcome::additional_data`, `src/protocol/definitions.rs:3269-3271`. -/
def SaslOutcome.get_additional_data (v : SaslOutcome) : Option Binary := v.additional_data

/-- `Source::address`, `src/protocol/definitions.rs:3373-3375`. -/
def Source.get_address (v : Source) : Option Address := v.address
/-- `Source::durable`, `src/protocol/definitions.rs:3376-3378`. -/
def Source.get_durable (v : Source) : TerminusDurability := v.durable
/-- `Source::expiry_policy`, `src/protocol/definitions.rs:3379-3381`. -/
def Source.get_expiry_policy (v : Source) : TerminusExpiryPolicy := v.expiry_policy
/-- `Source::timeout`, `src/protocol/definitions.rs:3382-3384`. -/
def Source.get_timeout (v : Source) : Seconds := v.timeout
/-- `Source::dynamic`, `src/protocol/definitions.rs:3385-3387`. -/
def Source.get_dynamic (v : Source) : Bool := v.dynamic
/-- `Source::dynamic_node_properties`, `src/protocol/definitions.rs:3388-3390`. -/
def Source.get_dynamic_node_properties (v : Source) : Option NodeProperties := v.dynamic_node_properties
/-- `Source::distribution_mode`, `src/protocol/definitions.rs:3391-3393`. -/
def Source.get_distribution_mode (v : Source) : Option DistributionMode := v.distribution_mode
/-- `Source::filter`, `src/protocol/definitions.rs:3394-3396`. -/
def Source.get_filter (v : Source) : Option FilterSet := v.filter
/-- `Source::default_outcome`, `src/protocol/definitions.rs:3397-3399`. -/
def Source.get_default_outcome (v : Source) : Option Outcome := v.default_outcome
/-- `Source::outcomes`, `src/protocol/definitions.rs:3400-3402`. -/
def Source.get_outcomes (v : Source) : Option Symbols := v.outcomes
/-- `Source::capabilities`, `src/protocol/definitions.rs:3403-3405`. -/
def Source.get_capabilities (v : Source) : Option Symbols := v.capabilities

/-- `Target::address`, `src/protocol/definitions.rs:3624-3626`. -/
def Target.get_address (v : Target) : Option Address := v.address
/-- `Target::durable`, `src/protocol/definitions.rs:3627-3629`. -/
def Target.get_durable (v : Target) : TerminusDurability := v.durable
/-- `Target::expiry_policy`, `src/protocol/definitions.rs:3630-3632`. -/
def Target.get_expiry_policy (v : Target) : TerminusExpiryPolicy := v.expiry_policy
/-- `Target::timeout`, `src/protocol/definitions.rs:3633-3635`. -/
def Target.get_timeout (v : Target) : Seconds := v.timeout
/-- `Target::dynamic`, `src/protocol/definitions.rs:3636-3638`. -/
def Target.get_dynamic (v : Target) : Bool := v.dynamic
/-- `Target::dynamic_node_properties`, `src/protocol/definitions.rs:3639-3641`. -/
def Target.get_dynamic_node_properties (v : Target) : Option NodeProperties := v.dynamic_node_properties
/-- `Target::capabilities`, `src/protocol/definitions.rs:3642-3644`. -/
def Target.get_capabilities (v : Target) : Option Symbols := v.capabilities

/-- `Header::durable`, `src/protocol/definitions.rs:3809-3811`. -/
def Header.get_durable (v : Header) : Bool := v.durable
/-- `Header::priority`, `src/protocol/definitions.rs:3812-3814`. -/
def Header.get_priority (v : Header) : UInt8 := v.priority
/-- `Header::ttl`, `src/protocol/definitions.rs:3815-3817`. -/
def Header.get_ttl (v : Header) : Option Milliseconds := v.ttl
/-- `Header::first_acquirer`, `src/protocol/definitions.rs:3818-3820`. -/
def Header.get_first_acquirer (v : Header) : Bool := v.first_acquirer
/-- `Header::delivery_count`, `src/protocol/definitions.rs:3821-3823`. -/
def Header.get_delivery_count (v : Header) : UInt32 := v.delivery_count

/-- `Properties::message_id`, `src/protocol/definitions.rs:3970-3972`. -/
def Properties.get_message_id (v : Properties) : Option MessageId := v.message_id
/-- `Properties::user_id`, `src/protocol/definitions.rs:3973-3975`. -/
def Properties.get_user_id (v : Properties) : Option Binary := v.user_id
/-- `Properties::to`, `src/protocol/definitions.rs:3976-3978`. -/
def Properties.get_to (v : Properties) : Option Address := v.to
/-- `Properties::subject`, `src/protocol/definitions.rs:3979-3981`. -/
def Properties.get_subject (v : Properties) : Option ByteStr := v.subject
/-- `Properties::reply_to`, `src/protocol/definitions.rs:3982-3984`. -/
def Properties.get_reply_to (v : Properties) : Option Address := v.reply_to
/-- `Properties::correlation_id`, `src/protocol/definitions.rs:3985-3987`. -/
def Properties.get_correlation_id (v : Properties) : Option MessageId := v.correlation_id
/-- `Properties::content_type`, `src/protocol/definitions.rs:3988-3990`. -/
def Properties.get_content_type (v : Properties) : Option Symbol := v.content_type
/-- `Properties::content_encoding`, `src/protocol/definitions.rs:3991-3993`. -/
def Properties.get_content_encoding (v : Properties) : Option Symbol := v.content_encoding
/-- `Properties::absolute_expiry_time`, `src/protocol/definitions.rs:3994-3996`. -/
def Properties.get_absolute_expiry_time (v : Properties) : Option Timestamp := v.absolute_expiry_time
/-- `Properties::creation_time`, `src/protocol/definitions.rs:3997-3999`. -/
def Properties.get_creation_time (v : Properties) : Option Timestamp := v.creation_time
/-- `Properties::group_id`, `src/protocol/definitions.rs:4000-4002`. -/
def Properties.get_group_id (v : Properties) : Option ByteStr := v.group_id
/-- `Properties::group_sequence`, `src/protocol/definitions.rs:4003-4005`. -/
def Properties.get_group_sequence (v : Properties) : Option SequenceNo := v.group_sequence
/-- `Properties::reply_to_group_id`, `src/protocol/definitions.rs:4006-4008`. -/
def Properties.get_reply_to_group_id (v : Properties) : Option ByteStr := v.reply_to_group_id

/-- `Received::section_number`, `src/protocol/definitions.rs:4248-4250`. -/
def Received.get_section_number (v : Received) : UInt32 := v.section_number
/-- `Received::section_offset`, `src/protocol/definitions.rs:4251-4253`. -/
def Received.get_section_offset (v : Received) : UInt64 := v.section_offset


/-- `Rejected::error`, `src/protocol/definitions.rs:4407-4409`. -/
def Rejected.get_error (v : Rejected) : Option Error := v.error


/-- `Modified::delivery_failed`, `src/protocol/definitions.rs:4549-4551`. -/
def Modified.get_delivery_failed (v : Modified) : Option Bool := v.delivery_failed
/-- `Modified::undeliverable_here`, `src/protocol/definitions.rs:4552-4554`. -/
def Modified.get_undeliverable_here (v : Modified) : Option Bool := v.undeliverable_here
/-- `Modified::message_annotations`, `src/protocol/definitions.rs:4555-4557`. -/
def Modified.get_message_annotations (v : Modified) : Option Fields := v.message_annotations

/-- `Frame::name`, `src/protocol/definitions.rs:23-36`. -/
def Frame.name : Frame → String
  | .Open _ => "Open"
  | .Begin _ => "Begin"
  | .Attach _ => "Attach"
  | .Flow _ => "Flow"
  | .Transfer _ => "Transfer"
  | .Disposition _ => "Disposition"
  | .Detach _ => "Detach"
  | .End _ => "End"
  | .Close _ => "Close"
  | .Empty => "Empty"

/-! `From`, derived for every variant of `Frame` with a field,
`src/protocol/definitions.rs:9`, `src/protocol/definitions.rs:10-21`. -/
/-- `From<Open> for Frame`, `src/protocol/definitions.rs:9-10`. -/
def Frame.ofOpen (v : Amqp.Open) : Frame := .Open v
/-- `From<Begin> for Frame`, `src/protocol/definitions.rs:9-10`. -/
def Frame.ofBegin (v : Amqp.Begin) : Frame := .Begin v
/-- `From<Attach> for Frame`, `src/protocol/definitions.rs:9-10`. -/
def Frame.ofAttach (v : Amqp.Attach) : Frame := .Attach v
/-- `From<Flow> for Frame`, `src/protocol/definitions.rs:9-10`. -/
def Frame.ofFlow (v : Amqp.Flow) : Frame := .Flow v
/-- `From<Transfer> for Frame`, `src/protocol/definitions.rs:9-10`. -/
def Frame.ofTransfer (v : Amqp.Transfer) : Frame := .Transfer v
/-- `From<Disposition> for Frame`, `src/protocol/definitions.rs:9-10`. -/
def Frame.ofDisposition (v : Amqp.Disposition) : Frame := .Disposition v
/-- `From<Detach> for Frame`, `src/protocol/definitions.rs:9-10`. -/
def Frame.ofDetach (v : Amqp.Detach) : Frame := .Detach v
/-- `From<End> for Frame`, `src/protocol/definitions.rs:9-10`. -/
def Frame.ofEnd (v : Amqp.End) : Frame := .End v
/-- `From<Close> for Frame`, `src/protocol/definitions.rs:9-10`. -/
def Frame.ofClose (v : Amqp.Close) : Frame := .Close v

end Amqp
