import Verif.Proofs.AlignMessage
import Verif.Props.Standard
import Verif.Props.Lenient
/-!
# C71: exactly which legal encodings are read

`Props/Standard.lean` shows that the encodings within `Scope.accepted` are read.  Here they
are shown to be all of the legal ones that are: any other that the standard allows, with a
value that is nested too deep or of which C50 says that it is not read in any of its fields,
is not read as what it encodes.  So each of them is something that a conforming peer may
send and that is refused or misunderstood.
-/
set_option autoImplicit false
namespace Amqp
open Dec Standard

/-- A legal encoding of a value is read as it, whatever follows, if it is within
`Scope.accepted`, and only then. -/
def ReadExactly {α : Type} [DecodeF α] (env : Env) (R : Scope → Rep α) : Prop :=
  ∀ a b, R .all a b → ∀ rest,
    (decode α env (b ++ rest) = .ok (rest, a) ↔ R (.accepted env) a b)

theorem read_exactly {α : Type} [DecodeF α] {env : Env} {R : Scope → Rep α}
    (ha : Accepts α env (R (.lenient env))) (hr : ∀ a b, R (.accepted env) a b → Means env b a)
    (h : AlignsIn env R) : ReadExactly env R := fun a b hb rest => by
  refine ⟨fun hd => ?_, fun hc => hr a b hc rest⟩
  obtain ⟨u, e, hu⟩ := (ha _ _ _).1 hd
  exact (h a b u rest rest hb hu e).2

/-- **C71**, reading, for every type with values of any type or times in it. -/
theorem C71_read_exactly_partial (env : Env) :
    ReadExactly env Standard.error ∧
    ReadExactly env Standard.rejected ∧
    ReadExactly env Standard.modified ∧
    ReadExactly env Standard.deliveryState ∧
    ReadExactly env Standard.outcome ∧
    ReadExactly env Standard.source ∧
    ReadExactly env Standard.target ∧
    ReadExactly env Standard.opening ∧
    ReadExactly env Standard.beginning ∧
    ReadExactly env Standard.attach ∧
    ReadExactly env Standard.flow ∧
    ReadExactly env Standard.transfer ∧
    ReadExactly env Standard.disposition ∧
    ReadExactly env Standard.detach ∧
    ReadExactly env Standard.ending ∧
    ReadExactly env Standard.close ∧
    ReadExactly env Standard.properties :=
  ⟨read_exactly accepts_error read_error aln_error,
   read_exactly accepts_rejected read_rejected aln_rejected,
   read_exactly accepts_modified read_modified aln_modified,
   read_exactly accepts_deliveryState read_deliveryState aln_deliveryState,
   read_exactly accepts_outcome read_outcome aln_outcome,
   read_exactly accepts_source read_source aln_source,
   read_exactly accepts_target read_target aln_target,
   read_exactly accepts_opening read_opening aln_opening,
   read_exactly accepts_beginning read_beginning aln_beginning,
   read_exactly accepts_attach read_attach aln_attach,
   read_exactly accepts_flow read_flow aln_flow,
   read_exactly accepts_transfer read_transfer aln_transfer,
   read_exactly accepts_disposition read_disposition aln_disposition,
   read_exactly accepts_detach read_detach aln_detach,
   read_exactly accepts_ending read_ending aln_ending,
   read_exactly accepts_close read_close aln_close,
   read_exactly accepts_properties read_properties aln_properties⟩

theorem frameBody_accepted {env : Env} {f : Frame} {b : Bytes} (h : frameBody .all f b)
    (h' : frameBody (.lenient env) f b) : frameBody (.accepted env) f b := by
  cases f with
  | Empty => exact h
  | Open v => exact (aln_opening v b b [] [] h h' rfl).2
  | Begin v => exact (aln_beginning v b b [] [] h h' rfl).2
  | Attach v => exact (aln_attach v b b [] [] h h' rfl).2
  | Flow v => exact (aln_flow v b b [] [] h h' rfl).2
  | Disposition v => exact (aln_disposition v b b [] [] h h' rfl).2
  | Detach v => exact (aln_detach v b b [] [] h h' rfl).2
  | End v => exact (aln_ending v b b [] [] h h' rfl).2
  | Close v => exact (aln_close v b b [] [] h h' rfl).2
  | Transfer v =>
    obtain ⟨p, payload, hp, rfl, hb⟩ := h
    obtain ⟨p', payload', hp', e, _⟩ := h'
    exact ⟨p, payload, (aln_transfer _ p p' payload payload' hp hp' e).2, rfl, hb⟩

/-- Frames have one body. -/
theorem framed_same_body {type type' : UInt8} {two two' : Bytes} {P Q : Bytes → Prop} {u : Bytes}
    (h : Framed type two P u) (h' : Framed type' two' Q u) :
    ∀ {R : Bytes → Prop}, (∀ b, P b → Q b → R b) → Framed type two R u := by
  intro R hR
  cases h with
  | @mk s ext b doff h1 h2 h3 h4 =>
    generalize hu : s ++ [doff, type] ++ two ++ ext ++ b = u at h'
    cases h' with
    | @mk s' ext' b' doff' g1 g2 g3 g4 =>
      simp only [List.append_assoc] at hu
      obtain ⟨-, e1⟩ := List.append_inj hu (h3.width.trans g3.width.symm)
      simp only [List.cons_append, List.nil_append, List.cons.injEq] at e1
      obtain ⟨rfl, -, e2⟩ := e1
      obtain ⟨-, e3⟩ := List.append_inj e2 (h1.trans g1.symm)
      obtain ⟨-, e4⟩ := List.append_inj e3 (by omega)
      subst e4
      have hu' : s ++ [doff, type] ++ two ++ ext ++ b = s' ++ [doff, type'] ++ two' ++ ext' ++ b := by
        simp only [List.append_assoc]; exact hu
      rw [← hu']
      exact .mk h1 h2 h3 (hR b h4 g4)

/-- **C71**, reading AMQP frames: the codec takes a legal frame off the stream as the frame it
is exactly if it is within `Scope.accepted`. -/
theorem C71_read_amqp_frame_exactly_partial (env : Env) (f : AmqpFrame) (b rest : Bytes)
    (hl : (b ++ rest).length < 2 ^ 63) (h : amqpFrame .all f b) :
    codecDecode env (AmqpFrame.decode env) .frameHeader (b ++ rest) = ⟨.frameHeader, rest, .some f⟩ ↔
      amqpFrame (.accepted env) f b := by
  refine ⟨fun hd => ?_, C71_read_amqp_frame_partial env f b rest⟩
  obtain ⟨b', e, two', _, h'⟩ := (C72_amqp_frame env (b ++ rest) rest f hl).1 hd
  cases List.append_cancel_right e
  obtain ⟨two, hn, h⟩ := h
  exact ⟨two, hn, framed_same_body h h' fun _ h1 h2 => frameBody_accepted h1 h2⟩

/-- Frames end where their size says. -/
theorem framed_same_end {type type' : UInt8} {two two' : Bytes} {P Q : Bytes → Prop} {u u' r r' : Bytes}
    (h : Framed type two P u) (h' : Framed type' two' Q u') (e : u ++ r = u' ++ r') : u = u' := by
  cases h with
  | @mk s ext b doff h1 h2 h3 h4 =>
    cases h' with
    | @mk s' ext' b' doff' g1 g2 g3 g4 =>
      have e0 := e
      simp only [List.append_assoc] at e0
      obtain ⟨e1, -⟩ := List.append_inj e0 (h3.width.trans g3.width.symm)
      subst e1
      have hn := h3.unique g3
      refine (List.append_inj e ?_).1
      simp only [List.length_append, List.length_cons, List.length_nil]
      omega

theorem frames_accepted {env : Env} : ∀ {ws : List (Bytes × AmqpFrame)} {vs : List (AmqpFrame × Bytes)},
    (∀ p ∈ ws, amqpFrame .all p.2 p.1) → (∀ p ∈ vs, amqpFrame (.lenient env) p.1 p.2) →
    ws.flatMap Prod.fst = vs.flatMap Prod.snd → ws.map Prod.snd = vs.map Prod.fst →
    ∀ p ∈ ws, amqpFrame (.accepted env) p.2 p.1
  | [], _, _, _, _, _, p, hp => by cases hp
  | _ :: _, [], _, _, _, e, _, _ => by cases e
  | (u, f) :: ws, (f', u') :: vs, h, h', e, e', p, hp => by
    simp only [List.flatMap_cons] at e
    simp only [List.map_cons, List.cons.injEq] at e'
    obtain ⟨rfl, e'⟩ := e'
    obtain ⟨two, hn, h1⟩ := h (u, f) List.mem_cons_self
    obtain ⟨two', _, h2⟩ := h' (f, u') List.mem_cons_self
    cases framed_same_end h1 h2 e
    rcases List.mem_cons.1 hp with rfl | hp
    · exact ⟨two, hn, framed_same_body h1 h2 fun _ g1 g2 => frameBody_accepted g1 g2⟩
    · exact frames_accepted (fun q hq => h q (List.mem_cons_of_mem _ hq))
        (fun q hq => h' q (List.mem_cons_of_mem _ hq)) (List.append_cancel_left e) e' p hp

/-- **C71**, reading streams: a stream of legal frames, cut anywhere, is read as these frames
exactly if each of them is within `Scope.accepted`. -/
theorem C71_read_stream_exactly_partial (env : Env) (ws : List (Bytes × AmqpFrame)) (chunks : List Bytes)
    (hl : chunks.flatten.length < 2 ^ 63) (h : ∀ p ∈ ws, amqpFrame .all p.2 p.1)
    (hc : chunks.flatten = ws.flatMap Prod.fst) :
    receive env (AmqpFrame.decode env) .frameHeader [] chunks =
        (ws.map Prod.snd, ⟨.frameHeader, [], .none⟩) ↔
      ∀ p ∈ ws, amqpFrame (.accepted env) p.2 p.1 := by
  refine ⟨fun hd => ?_, fun ha => C71_read_stream_partial env ws chunks ha hc⟩
  obtain ⟨vs, e, h', e'⟩ := (C72_stream env chunks hl _).1 hd
  exact frames_accepted h h' (hc.symm.trans e) e'

/-- **C71**, reading messages: a legal message is read with each section in its place exactly
if every section is within `Scope.accepted`. -/
theorem C71_read_message_exactly_partial (env : Env) (m : Standard.Message) (b : Bytes)
    (h : message .all m b) :
    (∃ rest, InMessage.decode env b = .ok (rest, m.asReceived id)) ↔ message (.accepted env) m b := by
  refine ⟨fun ⟨rest, hd⟩ => ?_, C71_read_message_partial env m b⟩
  obtain ⟨items, h1, rfl, h3, -⟩ := (C72_message env b rest _).1 hd
  obtain ⟨hb, hl⟩ := laid_message.1 h
  have hi := laid_items h1
  have e := read_sections hl hi h3
  rw [← e] at hi
  exact laid_message.2 ⟨hb, laid_accepted hl hi⟩

/-! ### Examples -/

/-- Properties of a message that expired half a second before the epoch. -/
def expiredEarly : Properties where
  message_id := none
  user_id := none
  to := none
  subject := none
  reply_to := none
  correlation_id := none
  content_type := none
  content_encoding := none
  absolute_expiry_time := some ⟨-1, 500000000, by decide⟩
  creation_time := none
  group_id := none
  group_sequence := none
  reply_to_group_id := none

theorem expiredEarly_legal : Standard.properties .all expiredEarly
    (0x00 :: ([0x53, 0x73] ++ (0xc0 :: ([18] ++ [9] ++ [0x40, 0x40, 0x40, 0x40, 0x40, 0x40, 0x40, 0x40,
      0x83, 0xff, 0xff, 0xff, 0xff, 0xff, 0xff, 0xfe, 0x0c])))) :=
  ⟨_, _, .code (.smallulong (b := [0x73]) ⟨rfl, by decide⟩),
    .list [null, null, null, null, null, null, null, null,
      [0x83, 0xff, 0xff, 0xff, 0xff, 0xff, 0xff, 0xfe, 0x0c]] .narrow ⟨rfl, by decide⟩ ⟨rfl, by decide⟩
      (.null rfl <| .null rfl <| .null rfl <| .null rfl <| .null rfl <| .null rfl <| .null rfl <|
        .null rfl <| .given ⟨_, rfl, .timestamp (m := -500) ⟨rfl, by decide⟩ (by decide) trivial⟩ <|
        .done (by
          intro s hs
          simp only [List.mem_cons, List.not_mem_nil, or_false] at hs
          rcases hs with rfl | rfl | rfl | rfl <;> rfl)), rfl⟩

/-- They are legal and are not read as what they are. -/
example : decode Properties debugEnv ((0x00 :: ([0x53, 0x73] ++ (0xc0 :: ([18] ++ [9] ++
    [0x40, 0x40, 0x40, 0x40, 0x40, 0x40, 0x40, 0x40,
      0x83, 0xff, 0xff, 0xff, 0xff, 0xff, 0xff, 0xfe, 0x0c])))) ++ []) ≠ .ok ([], expiredEarly) := by
  have h : (match decode Properties debugEnv ((0x00 :: ([0x53, 0x73] ++ (0xc0 :: ([18] ++ [9] ++
    [0x40, 0x40, 0x40, 0x40, 0x40, 0x40, 0x40, 0x40,
      0x83, 0xff, 0xff, 0xff, 0xff, 0xff, 0xff, 0xfe, 0x0c])))) ++ []) with
    | .ok (_, p) => p.absolute_expiry_time.map (·.secs)
    | _ => none) ≠ some (-1) := by decide +kernel
  intro e
  rw [e] at h
  exact h rfl
/-- So they are outside of what is accepted. -/
example : ¬ Standard.properties (.accepted debugEnv) expiredEarly
    (0x00 :: ([0x53, 0x73] ++ (0xc0 :: ([18] ++ [9] ++ [0x40, 0x40, 0x40, 0x40, 0x40, 0x40, 0x40, 0x40,
      0x83, 0xff, 0xff, 0xff, 0xff, 0xff, 0xff, 0xfe, 0x0c])))) := fun hc => by
  have hall := C71_read_exactly_partial debugEnv
  have hp := hall.2.2.2.2.2.2.2.2.2.2.2.2.2.2.2.2
  have e := (hp _ _ expiredEarly_legal []).2 hc
  have h : (match decode Properties debugEnv ((0x00 :: ([0x53, 0x73] ++ (0xc0 :: ([18] ++ [9] ++
    [0x40, 0x40, 0x40, 0x40, 0x40, 0x40, 0x40, 0x40,
      0x83, 0xff, 0xff, 0xff, 0xff, 0xff, 0xff, 0xfe, 0x0c])))) ++ []) with
    | .ok (_, p) => p.absolute_expiry_time.map (·.secs)
    | _ => none) ≠ some (-1) := by decide +kernel
  rw [e] at h
  exact h rfl
/-- The same for a message with them. -/
def expiredEarlyMessage : Standard.Message where
  properties := some expiredEarly
  body := .data [⟨[7]⟩]

theorem expiredEarlyMessage_legal : message .all expiredEarlyMessage
    ((0x00 :: ([0x53, 0x73] ++ (0xc0 :: ([18] ++ [9] ++ [0x40, 0x40, 0x40, 0x40, 0x40, 0x40, 0x40, 0x40,
      0x83, 0xff, 0xff, 0xff, 0xff, 0xff, 0xff, 0xfe, 0x0c])))) ++
      (0x00 :: ([0x53, 0x75] ++ [0xa0, 1, 7]))) :=
  ⟨[], [], [], _, [], _, [], .none, .none, .none, .some expiredEarly_legal, .none,
    .last ⟨_, _, .code (.smallulong (b := [0x75]) ⟨rfl, by decide⟩),
      .binary (l := [1]) .narrow ⟨rfl, by decide⟩, rfl⟩, .none, by simp⟩

example : ¬ message (.accepted debugEnv) expiredEarlyMessage
    ((0x00 :: ([0x53, 0x73] ++ (0xc0 :: ([18] ++ [9] ++ [0x40, 0x40, 0x40, 0x40, 0x40, 0x40, 0x40, 0x40,
      0x83, 0xff, 0xff, 0xff, 0xff, 0xff, 0xff, 0xfe, 0x0c])))) ++
      (0x00 :: ([0x53, 0x75] ++ [0xa0, 1, 7]))) := fun hc => by
  obtain ⟨rest, e⟩ := (C71_read_message_exactly_partial debugEnv _ _ expiredEarlyMessage_legal).2 hc
  have h : (match InMessage.decode debugEnv
    ((0x00 :: ([0x53, 0x73] ++ (0xc0 :: ([18] ++ [9] ++ [0x40, 0x40, 0x40, 0x40, 0x40, 0x40, 0x40, 0x40,
      0x83, 0xff, 0xff, 0xff, 0xff, 0xff, 0xff, 0xfe, 0x0c])))) ++
      (0x00 :: ([0x53, 0x75] ++ [0xa0, 1, 7]))) with
    | .ok (_, p) => p.properties.bind fun q => q.absolute_expiry_time.map (·.secs)
    | _ => none) ≠ some (-1) := by decide +kernel
  rw [e] at h
  exact h rfl
/-- Without them it is read. -/
example : ∃ rest, InMessage.decode debugEnv (0x00 :: ([0x53, 0x75] ++ [0xa0, 1, 7])) =
    .ok (rest, Standard.Message.asReceived id { body := .data [⟨[7]⟩] }) := by
  have h (S : Scope) : message S { body := .data [⟨[7]⟩] } (0x00 :: ([0x53, 0x75] ++ [0xa0, 1, 7])) :=
    ⟨[], [], [], [], [], _, [], .none, .none, .none, .none, .none,
      .last ⟨_, _, .code (.smallulong (b := [0x75]) ⟨rfl, by decide⟩),
        .binary (l := [1]) .narrow ⟨rfl, by decide⟩, rfl⟩, .none, by simp⟩
  exact (C71_read_message_exactly_partial debugEnv _ _ (h .all)).2 (h _)
/-- An empty frame on channel 5, with an extended header, is taken off the stream. -/
example : codecDecode debugEnv (AmqpFrame.decode debugEnv) .frameHeader
    (([0, 0, 0, 12] ++ [3, 0] ++ [0, 5] ++ [9, 9, 9, 9] ++ []) ++ [1]) =
      ⟨.frameHeader, [1], .some ⟨5, .Empty⟩⟩ :=
  (C71_read_amqp_frame_exactly_partial debugEnv ⟨5, .Empty⟩ _ [1] (by decide)
    ⟨[0, 5], ⟨rfl, by decide⟩, .mk rfl rfl ⟨rfl, by decide⟩ rfl⟩).2
    ⟨[0, 5], ⟨rfl, by decide⟩, .mk rfl rfl ⟨rfl, by decide⟩ rfl⟩

/-- So is a stream of two of them, cut within the first and within the second. -/
example : receive debugEnv (AmqpFrame.decode debugEnv) .frameHeader []
    [[0, 0, 0], [8, 2, 0, 0, 5, 0, 0, 0, 8], [2, 0, 0, 6]] =
      ([⟨5, .Empty⟩, ⟨6, .Empty⟩], ⟨.frameHeader, [], .none⟩) := by
  have h (S : Scope) : ∀ p ∈ [(([0, 0, 0, 8, 2, 0, 0, 5] : Bytes), (⟨5, .Empty⟩ : AmqpFrame)),
      ([0, 0, 0, 8, 2, 0, 0, 6], ⟨6, .Empty⟩)], amqpFrame S p.2 p.1 := by
    intro p hp
    simp only [List.mem_cons, List.not_mem_nil, or_false] at hp
    rcases hp with rfl | rfl
    · exact ⟨[0, 5], ⟨rfl, by decide⟩, .mk (s := [0, 0, 0, 8]) (ext := []) (b := []) (doff := 2) rfl rfl
        ⟨rfl, by decide⟩ rfl⟩
    · exact ⟨[0, 6], ⟨rfl, by decide⟩, .mk (s := [0, 0, 0, 8]) (ext := []) (b := []) (doff := 2) rfl rfl
        ⟨rfl, by decide⟩ rfl⟩
  exact (C71_read_stream_exactly_partial debugEnv _
    [[0, 0, 0], [8, 2, 0, 0, 5, 0, 0, 0, 8], [2, 0, 0, 6]] (by decide) (h .all) rfl).2 (h _)

end Amqp
