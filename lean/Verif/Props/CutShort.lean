import Verif.Props.Lenient
import Verif.Spec.Delivery
/-!
# C06: truncated transfers, frames and messages

These do not say where they end: the payload of a transfer ends where the input does, a
frame without performative is an empty frame, and a message is as many sections as there
are.  So a truncated one can be accepted; here is exactly when, and as what.
-/
set_option autoImplicit false
namespace Amqp
open Dec
open Standard hiding Fill
variable {env : Env}

theorem payload_of {t : Transfer} {p : Bytes}
    (h : t.body = if p = [] then none else some (.Data ⟨p⟩)) : t.payload = p := by
  unfold Transfer.payload
  rw [h]
  by_cases e : p = []
  · rw [if_pos e, e]; rfl
  · rw [if_neg e]
    show enc (TransferBody.Data ⟨p⟩) = p
    rfl

/-- **C06**, transfers: if a truncated transfer is accepted, it has lost bytes of its payload
and nothing else. -/
theorem C06_transfer (env : Env) (b more rest rest' : Bytes) (t t' : Transfer)
    (h : decode Transfer env (b ++ more) = .ok (rest, t))
    (h' : decode Transfer env b = .ok (rest', t')) :
    t'.toTransferPerf = t.toTransferPerf ∧ t.payload = t'.payload ++ more := by
  obtain ⟨u, p, e, hu, -, hp⟩ := C27_decode_only env _ _ _ h
  obtain ⟨u', p', rfl, hu', -, hp'⟩ := C27_decode_only env _ _ _ h'
  have h1 := hu p
  have h2 := hu' (p' ++ more)
  rw [← e, List.append_assoc] at h1
  rw [h1] at h2
  injection h2 with h2
  injection h2 with h2 h3
  exact ⟨h3.symm, by rw [payload_of hp, payload_of hp', h2]⟩

/-- **C06**, transfers: and it is accepted as soon as the performative is there. -/
theorem C06_transfer_cut (env : Env) (t : Transfer) (h : RoundTrips env t.toTransferPerf) (n : Nat) :
    (n < (enc t.toTransferPerf).length → ∀ r, decode Transfer env ((enc t).take n) ≠ .ok r) ∧
    ((enc t.toTransferPerf).length ≤ n → ∃ t', decode Transfer env ((enc t).take n) = .ok ([], t') ∧
      t'.toTransferPerf = t.toTransferPerf ∧
      t'.payload = t.payload.take (n - (enc t.toTransferPerf).length)) := by
  have e : enc t = enc t.toTransferPerf ++ t.payload := rfl
  constructor
  · rintro hn ⟨r, t'⟩ hr
    rw [e, List.take_append_of_le_length (Nat.le_of_lt hn)] at hr
    obtain ⟨u, p, e', hu, -, -⟩ := C27_decode_only env _ _ _ hr
    have h1 := hu (p ++ (enc t.toTransferPerf).drop n)
    rw [← List.append_assoc, ← e', List.take_append_drop] at h1
    have h2 := h []
    rw [List.append_nil, h1] at h2
    injection h2 with h2
    injection h2 with h2 _
    have := congrArg List.length h2
    simp at this
    omega
  · intro hn
    have hc := C27_decode env (enc t.toTransferPerf)
      (t.payload.take (n - (enc t.toTransferPerf).length)) t.toTransferPerf h
    rw [e, List.take_append, List.take_of_length_le hn]
    exact ⟨_, hc, rfl, payload_of rfl⟩

/-- What `Frame::decode` reads: nothing, a transfer with all that follows, or another
performative, whatever follows. -/
theorem frame_reads {b r : Bytes} {f : Frame} (h : Frame.decode env b = .ok (r, f)) :
    (b = [] ∧ f = .Empty) ∨ (∃ t, f = .Transfer t ∧ decode Transfer env b = .ok (r, t)) ∨
    ∃ u, b = u ++ r ∧ ∀ more, Frame.decode env (u ++ more) = .ok (more, f) := by
  obtain ⟨m0, m1, m2, m3, m4, m5, m6, m7, m8⟩ := C24_frame_members
  cases b with
  | nil => cases h; exact .inl ⟨rfl, rfl⟩
  | cons c t =>
    refine .inr ?_
    obtain ⟨rfl, e, he, u, p, d, rfl, hd, hi⟩ :=
      union_table (dec := Frame.decode) C24_frame_others (disp := Frame.dispatch) (fun _ => rfl) h
    have key : ∀ {α : Type} [DecodeF α] {mk : α → Frame} {c : UInt64} {n : String} {L : Rep α}
        {body : α → Bytes → Prop}, c ≠ 0 → (∀ v b, L v b → described c n (body v) b) →
        Alternative Frame.decode (decode α) mk c n → Accepts α env L → d.Is c n →
        ∃ w, 0x00 :: (u ++ p) = w ++ r ∧ ∀ more, Frame.decode env (w ++ more) = .ok (more, f) := by
      intro α _ mk c n L body hc hs ha hL hi
      obtain ⟨v, rfl, b, e, hb⟩ := alternative_cases ha hL h hd hi
      exact ⟨b, e, fun more => frame_member ha hc (hs v b hb) (hL.means hb more)⟩
    simp only [List.mem_cons, List.not_mem_nil, or_false] at he
    rcases he with rfl | rfl | rfl | rfl | rfl | rfl | rfl | rfl | rfl
    · exact .inr (key (by decide) (fun _ _ h => h) m0 accepts_opening hi)
    · exact .inr (key (by decide) (fun _ _ h => h) m1 accepts_beginning hi)
    · exact .inr (key (by decide) (fun _ _ h => h) m2 accepts_attach hi)
    · exact .inr (key (by decide) (fun _ _ h => h) m3 accepts_flow hi)
    · rw [m4 env u p d hd hi] at h
      cases hm : decode Transfer env (0x00 :: (u ++ p)) with
      | err e => rw [hm] at h; cases h
      | panic e => rw [hm] at h; cases h
      | ok q =>
        obtain ⟨r', v⟩ := q
        rw [hm] at h
        cases h
        exact .inl ⟨v, rfl, rfl⟩
    · exact .inr (key (by decide) (fun _ _ h => h) m5 accepts_disposition hi)
    · exact .inr (key (by decide) (fun _ _ h => h) m6 accepts_detach hi)
    · exact .inr (key (by decide) (fun _ _ h => h) m7 accepts_ending hi)
    · exact .inr (key (by decide) (fun _ _ h => h) m8 accepts_close hi)

/-- `f'` is what remains of `f` when `more` is cut off: all of it is lost, or some of the
payload of a transfer. -/
def Frame.CutTo (f f' : Frame) (more : Bytes) : Prop :=
  f' = .Empty ∨ ∃ t t', f = .Transfer t ∧ f' = .Transfer t' ∧
    t'.toTransferPerf = t.toTransferPerf ∧ t.payload = t'.payload ++ more

/-- **C06**, bodies of frames: a truncated body is accepted only if nothing is left of it, or
if it has lost bytes of the payload of a transfer. -/
theorem C06_frame_body (env : Env) (b more rest : Bytes) (f f' : Frame) (hm : more ≠ [])
    (h : Frame.decode env (b ++ more) = .ok ([], f)) (h' : Frame.decode env b = .ok (rest, f')) :
    (f' = .Empty → b = []) ∧ f.CutTo f' more := by
  rcases frame_reads h' with ⟨rfl, rfl⟩ | ⟨t', rfl, ht'⟩ | ⟨u, rfl, hu⟩
  · exact ⟨fun _ => rfl, .inl rfl⟩
  · refine ⟨(by intro e; cases e), .inr ?_⟩
    rcases frame_reads h with ⟨e, -⟩ | ⟨t, rfl, ht⟩ | ⟨u, hb, hu⟩
    · exact absurd (List.append_eq_nil_iff.1 e).2 hm
    · exact ⟨t, t', rfl, rfl, C06_transfer env _ _ _ _ t t' ht ht'⟩
    · rw [List.append_nil] at hb
      obtain ⟨m0, m1, m2, m3, m4, m5, m6, m7, m8⟩ := C24_frame_members
      obtain ⟨w, p, e, hw, -, -⟩ := C27_decode_only env _ _ _ ht'
      have h1 := C27_decode env w (p ++ more) _ hw
      rw [← List.append_assoc, ← e] at h1
      have h2 := frame_member (b := w) (more := p ++ more) m4 (by decide)
        ((Takes.reads accepts_transfer).1 hw) (by rw [← List.append_assoc, ← e]; exact h1)
      rw [← List.append_assoc, ← e, h] at h2
      injection h2 with h2
      injection h2 with _ h2
      rw [h2]
      exact ⟨_, t', rfl, rfl, C06_transfer env _ _ _ _ _ t' h1 ht'⟩
  · have h1 := hu (rest ++ more)
    rw [← List.append_assoc, h] at h1
    injection h1 with h1
    injection h1 with h1 _
    exact absurd (List.append_eq_nil_iff.1 h1.symm).2 hm

theorem layout_inj {type : UInt8} {ch ch' : UInt16} {b more u u' : Bytes}
    (h : FrameLayout (b ++ more) type ch u) (h' : FrameLayout b type ch' u') :
    ch = ch' ∧ u = u' ++ more := by
  obtain ⟨d, x, y, ext, e, hd, hc⟩ := h.parts
  obtain ⟨d', x', y', ext', rfl, hd', hc'⟩ := h'.parts
  simp only [List.cons_append, List.cons.injEq, true_and, List.append_assoc] at e
  obtain ⟨rfl, rfl, rfl, e⟩ := e
  have := List.append_inj e (by omega)
  exact ⟨UInt16.toNat_inj.1 (by omega), this.2.symm⟩

/-- **C06**, AMQP frames. -/
theorem C06_amqp_frame (env : Env) (b more rest : Bytes) (f f' : AmqpFrame) (hm : more ≠ [])
    (h : AmqpFrame.decode env (b ++ more) = .ok ([], f))
    (h' : AmqpFrame.decode env b = .ok (rest, f')) :
    f'.channel_id = f.channel_id ∧ f.performative.CutTo f'.performative more := by
  obtain ⟨u, hl, hu⟩ := C25_amqp_only env _ _ _ h
  obtain ⟨u', hl', hu'⟩ := C25_amqp_only env _ _ _ h'
  obtain ⟨h1, rfl⟩ := layout_inj hl hl'
  exact ⟨h1.symm, (C06_frame_body env _ _ _ _ _ hm hu hu').2⟩

/-- **C06**, SASL frames: never. -/
theorem C06_sasl_frame (env : Env) (b more : Bytes) (f : SaslFrame) (hm : more ≠ [])
    (h : SaslFrame.decode env (b ++ more) = .ok ([], f)) : ∀ r, SaslFrame.decode env b ≠ .ok r := by
  rintro ⟨r, f'⟩ h'
  obtain ⟨u, ch, hl, hu⟩ := C25_sasl_only env _ _ _ h
  obtain ⟨u', ch', hl', hu'⟩ := C25_sasl_only env _ _ _ h'
  obtain ⟨-, rfl⟩ := layout_inj hl hl'
  obtain ⟨w, rfl, hw⟩ := (loc_decode env _ _ _ hu' : _)
  have h1 := hw (r ++ more)
  rw [← List.append_assoc, hu] at h1
  injection h1 with h1
  injection h1 with h1 _
  exact hm (List.append_eq_nil_iff.1 h1.symm).2

theorem sections_prefix {items items' : List (Section × Bytes)} {more : Bytes}
    (h : ∀ p ∈ items, Lenient.messageSection (.lenient env) p.1 p.2)
    (h' : ∀ p ∈ items', Lenient.messageSection (.lenient env) p.1 p.2)
    (e : items.flatMap Prod.snd = items'.flatMap Prod.snd ++ more) :
    ∃ k, k ≤ items.length ∧ items' = items.take k := by
  induction items' generalizing items with
  | nil => exact ⟨0, Nat.zero_le _, rfl⟩
  | cons p' t' ih =>
    have hp' := h' p' (List.mem_cons_self ..)
    rw [List.flatMap_cons, List.append_assoc] at e
    have h1 := accepts_messageSection.means hp' (t'.flatMap Prod.snd ++ more)
    cases items with
    | nil =>
      rw [← e] at h1
      have := progress_decode (fun f => LawfulDec.loc env f) _ _ _ h1
      simp at this
    | cons p t =>
      rw [List.flatMap_cons] at e
      have h2 := accepts_messageSection.means (h p (List.mem_cons_self ..)) (t.flatMap Prod.snd)
      rw [e, h1] at h2
      injection h2 with h2
      injection h2 with h2 h3
      rw [h2] at e
      have e2 := List.append_cancel_right e
      obtain ⟨k, hk, hk'⟩ := ih (fun q hq => h q (List.mem_cons_of_mem _ hq))
        (fun q hq => h' q (List.mem_cons_of_mem _ hq)) h2.symm
      refine ⟨k + 1, by simpa using hk, ?_⟩
      rw [List.take_succ_cons, hk']
      have : p' = p := Prod.ext h3 e2.symm
      rw [this]

/-- **C06**, messages: a truncated message is accepted iff it is cut between sections, and
not before all of them; it is then the message made of the sections left. -/
theorem C06_message (env : Env) (items : List (Section × Bytes))
    (h : ∀ p ∈ items, Lenient.messageSection (.lenient env) p.1 p.2) (b more : Bytes)
    (e : items.flatMap Prod.snd = b ++ more) (m : InMessage) :
    (∃ rest, InMessage.decode env b = .ok (rest, m)) ↔
      ∃ k, 0 < k ∧ k ≤ items.length ∧ b = (items.take k).flatMap Prod.snd ∧
        m = Lenient.gathered id ((items.take k).map Prod.fst) := by
  constructor
  · rintro ⟨rest, hr⟩
    obtain ⟨items', h1, rfl, h3, h4⟩ := (C72_message env b rest m).1 hr
    obtain ⟨k, hk, rfl⟩ := sections_prefix h h1 e
    refine ⟨k, ?_, hk, rfl, h3⟩
    cases k with
    | zero => cases h4
    | succ => exact Nat.succ_pos _
  · rintro ⟨k, hk, hk', rfl, hm⟩
    have hne : items.take k ≠ [] := by
      intro e; have := congrArg List.length e; rw [List.length_take, List.length_nil] at this; omega
    refine ⟨((items.take k).getLast hne).2, (C72_message env _ _ m).2
      ⟨items.take k, fun p hp => h p (List.mem_of_mem_take hp), rfl, hm, ?_⟩⟩
    rw [List.getLast?_eq_some_getLast hne]; rfl

/-! ## Concrete cases -/

/-- A frame on channel 7 with a transfer of three bytes (after its size). -/
def threeBytes : Bytes := [2, 0, 0, 7, 0x00, 0x53, 0x14, 0xc0, 2, 1, 0x43, 1, 2, 3]

/-- The payload of the transfer in a frame that is read from these bytes. -/
def payloadRead (b : Bytes) : Option (Option Bytes) :=
  match AmqpFrame.decode debugEnv b with
  | .ok (_, ⟨7, .Transfer t⟩) => some (some t.payload)
  | .ok (_, ⟨7, .Empty⟩) => some none
  | _ => none

example : payloadRead threeBytes = some (some [1, 2, 3]) ∧
    payloadRead (threeBytes.take 12) = some (some [1]) ∧
    payloadRead (threeBytes.take 11) = some (some []) ∧
    payloadRead (threeBytes.take 10) = none ∧ payloadRead (threeBytes.take 5) = none ∧
    payloadRead (threeBytes.take 4) = some none ∧ payloadRead (threeBytes.take 3) = none := by
  decide +kernel

/-- Two data sections, of which the second may be cut off. -/
def twoSections : Bytes := [0x00, 0x53, 0x75, 0xa0, 1, 9, 0x00, 0x53, 0x75, 0xa0, 1, 8]

/-- The data of a message that is read from these bytes. -/
def dataRead (b : Bytes) : Option (List Bytes) :=
  match InMessage.decode debugEnv b with
  | .ok (_, m) => some (m.data.map Binary.data)
  | _ => none

example : dataRead twoSections = some [[9], [8]] ∧ dataRead (twoSections.take 6) = some [[9]] ∧
    dataRead (twoSections.take 5) = none ∧ dataRead (twoSections.take 7) = none ∧
    dataRead [] = none := by
  decide +kernel

example : ∃ r t r' t', decode Transfer debugEnv ([0x00, 0x53, 0x14, 0xc0, 3, 1, 0x52, 1] ++ [5]) = .ok (r, t) ∧
    decode Transfer debugEnv [0x00, 0x53, 0x14, 0xc0, 3, 1, 0x52, 1] = .ok (r', t') ∧
    t.payload = t'.payload ++ [5] :=
  ⟨_, _, _, _, rfl, rfl, (C06_transfer debugEnv [0x00, 0x53, 0x14, 0xc0, 3, 1, 0x52, 1] [5] _ _ _ _ rfl rfl).2⟩
example (b : TransferBody) (n : Nat) (h : n < (enc TransferPerf.sample).length) :
    ∀ r, decode Transfer debugEnv ((enc (⟨TransferPerf.sample, some b⟩ : Transfer)).take n) ≠ .ok r :=
  (C06_transfer_cut debugEnv ⟨TransferPerf.sample, some b⟩ transferSample_roundTrips n).1 h
example : ∃ f f', Frame.decode debugEnv ([0x00, 0x53, 0x14, 0xc0, 3, 1, 0x52, 1] ++ [5]) = .ok ([], f) ∧
    f.CutTo f' [5] :=
  ⟨_, _, rfl, (C06_frame_body debugEnv [0x00, 0x53, 0x14, 0xc0, 3, 1, 0x52, 1] [5] [] _ _ (by decide) rfl rfl).2⟩
example : ∃ f f' : AmqpFrame, AmqpFrame.decode debugEnv ([2, 0, 0, 7, 0x00, 0x53, 0x14, 0xc0, 3, 1, 0x52, 1] ++ [5]) =
      .ok ([], f) ∧ f'.channel_id = f.channel_id ∧ f.performative.CutTo f'.performative [5] :=
  ⟨_, _, rfl, C06_amqp_frame debugEnv [2, 0, 0, 7, 0x00, 0x53, 0x14, 0xc0, 3, 1, 0x52, 1] [5] [] _ _
    (by decide) rfl rfl⟩
example : ∀ r, SaslFrame.decode debugEnv [2, 1, 0, 0, 0x00, 0x53, 0x44, 0xc0, 3, 1] ≠ .ok r :=
  C06_sasl_frame debugEnv _ [0x50, 0] _ (by decide) rfl

end Amqp
