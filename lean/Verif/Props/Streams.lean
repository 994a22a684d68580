import Verif.Props.Frames
/-!
# C28–C34: the tokio codecs
-/
set_option autoImplicit false
namespace Amqp
open Dec

/-! ## C28 -/

/-- **C28**: two ways to split the same bytes into chunks yield the same items,
the same final answer, the same state and the same unread bytes, whatever the
codec and its buffer already hold. -/
theorem C28_chunks {T : Type} (env : Env) (dec : Dec T) (st : DecodeState) (buf : Bytes)
    (chunks chunks' : List Bytes) (h : chunks.flatten = chunks'.flatten) :
    receive env dec st buf chunks = receive env dec st buf chunks' := by
  rw [receive_eq, receive_eq, h]

/-- **C28**, for an arbitrary schedule of arrivals and calls of `decode`, not
only for callers that call `decode` until it waits: as long as no call failed,
the items returned so far together with those still to come are the items of the
whole stream; and once a call failed they are all of them, and the failure is
that of the whole stream. -/
theorem C28_schedule {T : Type} (env : Env) (dec : Dec T) (es : List Event) :
    let s := Session.start.run env dec es
    let whole := receive env dec .frameHeader [] [(es.map Event.bytes).flatten]
    (¬ s.failed → whole = (s.items ++ (receive env dec s.call.state s.call.src []).1,
      (receive env dec s.call.state s.call.src []).2)) ∧
    (s.failed → whole = (s.items, s.call)) := by
  intro s whole
  have h := Session.finish_run env dec es Session.start []
  have hw : whole = Session.start.finish env dec ((es.map Event.bytes).flatten ++ []) := by
    show receive env dec .frameHeader [] [_] = _
    rw [receive_eq]
    simp only [Session.finish, Session.start, List.flatten_cons, List.flatten_nil,
      List.nil_append]
  rw [hw, ← h]
  show (¬ s.failed → s.finish env dec [] = _) ∧ (s.failed → s.finish env dec [] = _)
  unfold Session.failed Session.finish
  simp only [List.append_nil, receive]
  obtain ⟨items, state, src, answer⟩ := s
  cases answer <;> simp

/-- Two heartbeats, cut in the middle of the second length. -/
example : receive debugEnv (AmqpFrame.decode debugEnv) .frameHeader []
      [[0, 0], [0, 8, 2, 0, 0, 1, 0], [0, 0, 8, 2, 0], [0, 5]] =
    receive debugEnv (AmqpFrame.decode debugEnv) .frameHeader []
      [[0, 0, 0, 8, 2, 0, 0, 1, 0, 0, 0, 8, 2, 0, 0, 5]] :=
  C28_chunks _ _ _ _ _ _ rfl
/-- One frame has been returned and one is still in the buffer. -/
example : (Session.start.run debugEnv (AmqpFrame.decode debugEnv)
      [.poll, .arrive [0, 0, 0, 8, 2, 0, 0, 1, 0], .poll, .arrive [0, 0, 8, 2, 0, 0, 5]]).items =
    [⟨1, .Empty⟩] ∧
    (receive debugEnv (AmqpFrame.decode debugEnv) .frameHeader []
      [[0, 0, 0, 8, 2, 0, 0, 1, 0, 0, 0, 8, 2, 0, 0, 5]]).1 = [⟨1, .Empty⟩, ⟨5, .Empty⟩] := by
  constructor
  · rfl
  · rw [receive_eq]
    exact congrArg Prod.fst (drain_frames (env := debugEnv) (dec := AmqpFrame.decode debugEnv)
      [([0, 0, 0, 8, 2, 0, 0, 1], ⟨1, .Empty⟩), ([0, 0, 0, 8, 2, 0, 0, 5], ⟨5, .Empty⟩)] []
      (by
        intro p hp
        simp only [List.mem_cons, List.not_mem_nil, or_false] at hp
        rcases hp with rfl | rfl
        · exact ⟨⟨by decide, by decide⟩, rfl⟩
        · exact ⟨⟨by decide, by decide⟩, rfl⟩)) |>.trans (by
          rw [drain_stop (by intro a h; cases h)]; rfl)

/-! ## C29 -/

/-- Encode items one after the other into a buffer. -/
def encodeAll {T : Type} [Encode T] [EncodeW T] (slack : Growth) : List T → Buf → Res CodecError Buf
  | [], dst => .ok dst
  | f :: fs, dst => codecEncode slack f dst >>= encodeAll slack fs

theorem codecEncode_ok {T : Type} [Encode T] [EncodeW T] (slack : Growth) (item : T) (dst : Buf)
    (h : (enc item).length ≤ size item) :
    ∃ dst', codecEncode slack item dst = .ok dst' ∧ dst'.data = dst.data ++ enc item := by
  have key : ∀ b : Buf, (enc item).length ≤ b.remainingMut → b.data = dst.data →
      ∃ b', (b.run slack (writes item) : Res CodecError Buf) = .ok b' ∧
        b'.data = dst.data ++ enc item := fun b hb hd => by
    obtain ⟨b', h1, h2, _⟩ := Buf.run_ok (ε := CodecError) slack (writes item) b
      (by rw [EncodeW.output]; exact hb)
    exact ⟨b', h1, by rw [h2, hd, EncodeW.output]⟩
  unfold codecEncode
  simp only
  split
  · refine key _ ?_ (Buf.reserve_data _ _ _)
    have := Buf.reserve_room (slack dst (max (max sizeLowWm (size item)) sizeHighWm))
      (max (max sizeLowWm (size item)) sizeHighWm) dst
    omega
  · exact key _ (by omega) rfl

theorem encodeAll_ok {T : Type} [Encode T] [EncodeW T] (slack : Growth) : ∀ (items : List T) (dst : Buf),
    (∀ f ∈ items, (enc f).length ≤ size f) →
    ∃ dst', encodeAll slack items dst = .ok dst' ∧ dst'.data = dst.data ++ items.flatMap enc
  | [], dst, _ => ⟨dst, rfl, by simp⟩
  | f :: fs, dst, h => by
    obtain ⟨d1, h1, h2⟩ := codecEncode_ok slack f dst (h f (by simp))
    obtain ⟨d2, h3, h4⟩ := encodeAll_ok slack fs d1 (fun g hg => h g (by simp [hg]))
    refine ⟨d2, ?_, ?_⟩
    · rw [encodeAll, h1]; exact h3
    · rw [h4, h2]; simp

theorem stream_exact {T : Type} [Encode T] [EncodeW T] (env : Env) (dec : Dec T) (slack : Growth)
    (frames : List T) (chunks : List Bytes) (dst : Buf)
    (hsz : ∀ f ∈ frames, (enc f).length ≤ size f)
    (hf : ∀ f ∈ frames, IsFrame (enc f) ∧ dec ((enc f).drop 4) = .ok ([], f)) :
    ∃ out, encodeAll slack frames dst = .ok out ∧
      (out.data = dst.data ++ chunks.flatten →
        receive env dec .frameHeader [] chunks = (frames, ⟨.frameHeader, [], .none⟩)) := by
  obtain ⟨out, h1, h2⟩ := encodeAll_ok slack frames dst hsz
  refine ⟨out, h1, fun h => ?_⟩
  rw [h2] at h
  have hc := List.append_cancel_left h
  rw [receive_eq, List.nil_append, ← hc]
  have := drain_frames (env := env) (dec := dec) (frames.map fun f => (enc f, f)) [] (by
    intro p hp
    simp only [List.mem_map] at hp
    obtain ⟨f, hm, rfl⟩ := hp
    exact hf f hm)
  simp only [List.flatMap_map, List.append_nil, List.map_map, Function.comp_def, List.map_id'] at this
  rw [this, drain_stop (by intro a h; cases h)]
  rw [List.append_nil]
  rfl

/-- **C29**: AMQP frames. -/
theorem C29_amqp (env : Env) (slack : Growth) (frames : List AmqpFrame) (chunks : List Bytes)
    (dst : Buf)
    (hf : ∀ f ∈ frames, f.performative.ContentRoundTrips env ∧ f.performative.PlainPayload ∧
      (enc f).length < 2 ^ 32) :
    ∃ out, encodeAll slack frames dst = .ok out ∧
      (out.data = dst.data ++ chunks.flatten →
        receive env (AmqpFrame.decode env) .frameHeader [] chunks =
          (frames, ⟨.frameHeader, [], .none⟩)) :=
  stream_exact env _ slack frames chunks dst
    (fun f hm => by
      have hs := Frame.size_eq f.performative (plain_exact (hf f hm).2.1)
      rw [amqpFrame_enc, List.length_append, frameHeader_length]
      show _ ≤ headerLen + size f.performative
      rw [hs]
      exact Nat.le_refl _)
    (fun f hm => by
      obtain ⟨h1, h2, h3⟩ := hf f hm
      exact ⟨(C26_amqp env f h1 h2).2 h3, (C26_amqp env f h1 h2).1⟩)

/-- **C29**: SASL frames. -/
theorem C29_sasl (env : Env) (slack : Growth) (frames : List SaslFrame) (chunks : List Bytes)
    (dst : Buf) (hf : ∀ f ∈ frames, RoundTrips env f.body ∧ (enc f).length < 2 ^ 32) :
    ∃ out, encodeAll slack frames dst = .ok out ∧
      (out.data = dst.data ++ chunks.flatten →
        receive env (SaslFrame.decode env) .frameHeader [] chunks =
          (frames, ⟨.frameHeader, [], .none⟩)) :=
  stream_exact env _ slack frames chunks dst
    (fun f hm => by
      have hs := LawfulEnc.size_eq f.body
      rw [saslFrame_enc, List.length_append, frameHeader_length]
      show _ ≤ headerLen + size f.body
      rw [hs]
      exact Nat.le_refl _)
    (fun f hm => by
      obtain ⟨h1, h3⟩ := hf f hm
      exact ⟨(C26_sasl env f h1).2 h3, (C26_sasl env f h1).1⟩)

/-- An open frame, a heartbeat and a transfer with a payload. -/
def streamSample : List AmqpFrame :=
  [⟨0, .Open Open.sample⟩, ⟨0, .Empty⟩,
    ⟨3, .Transfer { TransferPerf.sample with body := some (.Data ⟨[1, 2, 3]⟩) }⟩]

/-- It is received from single bytes. -/
example : receive debugEnv (AmqpFrame.decode debugEnv) .frameHeader []
    ((streamSample.flatMap enc).map fun b => [b]) = (streamSample, ⟨.frameHeader, [], .none⟩) := by
  obtain ⟨out, h1, h2⟩ := C29_amqp debugEnv (fun _ _ => 0) streamSample
    ((streamSample.flatMap enc).map fun b => [b]) ⟨[], 0, by decide⟩ (by
      intro f hf
      simp only [streamSample, List.mem_cons, List.not_mem_nil, or_false] at hf
      rcases hf with rfl | rfl | rfl
      · exact ⟨C21_open _ _ (by decide) (fun _ => rfl) (fun _ => rfl) (fun _ => rfl)
          (fun _ => rfl) (fun _ => rfl), (fun _ _ h => by cases h), by decide⟩
      · exact ⟨trivial, (fun _ _ h => by cases h), by decide⟩
      · exact ⟨transferSample_roundTrips, (fun t b ht hb => by
          cases ht; cases hb; exact ⟨⟨[1, 2, 3]⟩, rfl, by decide⟩), by decide⟩)
  obtain ⟨out', h3, h4⟩ := encodeAll_ok (T := AmqpFrame) (fun _ _ => 0) streamSample ⟨[], 0, by decide⟩
    (by
      intro f hf
      simp only [streamSample, List.mem_cons, List.not_mem_nil, or_false] at hf
      rcases hf with rfl | rfl | rfl <;> decide)
  rw [h1] at h3
  injection h3 with h3
  have hsplit : ∀ l : Bytes, (l.map fun b => [b]).flatten = l := by
    intro l
    induction l with
    | nil => rfl
    | cons a t ih => simpa using ih
  exact h2 (by rw [h3, h4, hsplit])

/-! ## C30 -/

/-- **C30**: whatever a call answers, it removes bytes only from the front. -/
theorem C30_prefix {T : Type} (env : Env) (dec : Dec T) (st : DecodeState) (src : Bytes) :
    ∃ used, src = used ++ (codecDecode env dec st src).src := by
  have hstep : ∀ (n : Nat) (s : Bytes), ∃ used, s = used ++ (frameStep dec n s).src := by
    intro n s
    by_cases hn : s.length < n
    · rw [frameStep_short hn]; exact ⟨[], rfl⟩
    · refine ⟨s.take n, ?_⟩
      have : (frameStep dec n s).src = s.drop n := by
        unfold frameStep
        rw [if_neg hn]
        simp only
        cases dec (s.take n) with
        | ok q => obtain ⟨r, a⟩ := q; simp only; split <;> rfl
        | err e => rfl
        | panic p => rfl
      rw [this, List.take_append_drop]
  cases st with
  | frame n => exact hstep n src
  | frameHeader =>
    unfold codecDecode
    simp only
    split
    · exact ⟨[], rfl⟩
    · split
      · exact ⟨[], rfl⟩
      · split
        · exact ⟨src.take 4, (List.take_append_drop 4 src).symm⟩
        · obtain ⟨u, hu⟩ := hstep (if beDec (src.take 4) < 4 then 2 ^ 64 + beDec (src.take 4) - 4
            else beDec (src.take 4) - 4) (src.drop 4)
          refine ⟨src.take 4 ++ u, ?_⟩
          rw [List.append_assoc, ← hu, List.take_append_drop]

/-- **C30**: a codec at the start of a frame waits exactly if the buffer is
shorter than a frame header or than the length announced, provided that length
is possible (see C32); the length bytes may have been taken from the buffer, but
then the codec remembers them, and no other byte is removed. -/
theorem C30_none_header {T : Type} (env : Env) (dec : Dec T) (src : Bytes)
    (h4 : 8 ≤ src.length → 4 ≤ beDec (src.take 4)) :
    ((codecDecode env dec .frameHeader src).answer = .none ↔
      src.length < 8 ∨ src.length < beDec (src.take 4)) ∧
    ((codecDecode env dec .frameHeader src).answer = .none →
      (codecDecode env dec .frameHeader src).state = .frameHeader ∧
        (codecDecode env dec .frameHeader src).src = src ∨
      (codecDecode env dec .frameHeader src).state = .frame (beDec (src.take 4) - 4) ∧
        (codecDecode env dec .frameHeader src).src = src.drop 4) := by
  by_cases h8 : src.length < 8
  · rw [codecDecode_wait h8]
    exact ⟨⟨fun _ => .inl h8, fun _ => rfl⟩, fun _ => .inl ⟨rfl, rfl⟩⟩
  · have h4' := h4 (by omega)
    rw [codecDecode_header (by omega) h4']
    refine ⟨?_, fun h => ?_⟩
    · rw [frameStep_answer]
      simp only [List.length_drop]
      omega
    · rw [frameStep_answer] at h
      rw [frameStep_short h]
      exact .inr ⟨rfl, rfl⟩

/-- **C30**: a codec inside a frame waits exactly until the rest of the frame is
there, and leaves the buffer as it is. -/
theorem C30_none_frame {T : Type} (env : Env) (dec : Dec T) (n : Nat) (src : Bytes) :
    ((codecDecode env dec (.frame n) src).answer = .none ↔ src.length < n) ∧
    ((codecDecode env dec (.frame n) src).answer = .none →
      codecDecode env dec (.frame n) src = ⟨.frame n, src, .none⟩) :=
  ⟨frameStep_answer, fun h => frameStep_short (frameStep_answer.1 h)⟩

/-- **C30**: an item comes from exactly one length-prefixed frame at the front
of the buffer, or, inside a frame, from exactly the rest of that frame; it is
what the decoder makes of all of it; and the codec is ready for the next frame. -/
theorem C30_some {T : Type} (env : Env) (dec : Dec T) (st st' : DecodeState) (src src' : Bytes)
    (a : T) (h : codecDecode env dec st src = ⟨st', src', .some a⟩) (hsmall : src.length < 2 ^ 63) :
    st' = .frameHeader ∧
    match st with
    | .frameHeader => ∃ w, src = w ++ src' ∧ beDec (w.take 4) = w.length ∧ 4 ≤ w.length ∧
        dec (w.drop 4) = .ok ([], a)
    | .frame n => ∃ w, src = w ++ src' ∧ w.length = n ∧ dec w = .ok ([], a) := by
  cases st with
  | frame n =>
    obtain ⟨h1, h2, h3, h4⟩ := frameStep_some h
    refine ⟨h1, src.take n, ?_, ?_, h4⟩
    · rw [h2, List.take_append_drop]
    · simp only [List.length_take]; omega
  | frameHeader =>
    by_cases h8 : src.length < 8
    · rw [codecDecode_wait h8] at h; simp at h
    by_cases h4 : beDec (src.take 4) < 4
    · cases he : env.overflowChecks with
      | true => rw [codecDecode_abort (by omega) h4 he] at h; simp at h
      | false =>
        rw [codecDecode_wrap (by omega) h4 he] at h
        obtain ⟨-, -, h3, -⟩ := frameStep_some h
        simp only [List.length_drop] at h3
        omega
    · rw [codecDecode_header (by omega) (by omega)] at h
      obtain ⟨h1, h2, h3, h5⟩ := frameStep_some h
      simp only [List.length_drop] at h3
      have e : (src.take (beDec (src.take 4))).drop 4 = (src.drop 4).take (beDec (src.take 4) - 4) := by
        rw [List.drop_take]
      refine ⟨h1, src.take (beDec (src.take 4)), ?_, ?_, ?_, ?_⟩
      · rw [h2, List.drop_drop, show 4 + (beDec (src.take 4) - 4) = beDec (src.take 4) by omega,
          List.take_append_drop]
      · rw [List.take_take, Nat.min_eq_left (by omega), List.length_take]
        omega
      · rw [List.length_take]; omega
      · rw [e]; exact h5

set_option maxRecDepth 8000 in
example : codecDecode debugEnv (AmqpFrame.decode debugEnv) .frameHeader
    [0, 0, 0, 8, 2, 0, 0, 1, 0xaa] = ⟨.frameHeader, [0xaa], .some ⟨1, .Empty⟩⟩ := rfl
example : (codecDecode debugEnv (AmqpFrame.decode debugEnv) .frameHeader
    [0, 0, 0, 9, 2, 0, 0, 1]).answer = .none :=
  (C30_none_header debugEnv (AmqpFrame.decode debugEnv) [0, 0, 0, 9, 2, 0, 0, 1]
    (fun _ => by decide)).1.2 (.inr (by decide))

/-! ## C31 -/

/-- **C31**, the part that holds: when the codec reports an error for a frame,
exactly the bytes of that frame have been consumed.

Missing: that the codec then expects a new frame.  It does not, see
`C31_violated`. -/
theorem C31_consumed_partial {T : Type} (env : Env) (dec : Dec T) (w rest : Bytes) (hw : IsFrame w)
    (e : CodecError) (h : (codecDecode env dec .frameHeader (w ++ rest)).answer = .err e) :
    (codecDecode env dec .frameHeader (w ++ rest)).src = rest := by
  rw [frame_wire hw] at h ⊢
  cases hd : dec (w.drop 4) with
  | ok q =>
    obtain ⟨r, a⟩ := q
    rw [hd] at h
    simp only at h ⊢
    split <;> rfl
  | err e => rfl
  | panic p => rfl

/-- **C31** is violated, always: after any malformed frame the codec takes the
following bytes, as many as the malformed frame had, for another frame without
length, instead of reading the next length. -/
theorem C31_violated_always {T : Type} (env : Env) (dec : Dec T) (w rest : Bytes) (hw : IsFrame w)
    (e : CodecError) (h : (codecDecode env dec .frameHeader (w ++ rest)).answer = .err e) :
    (codecDecode env dec .frameHeader (w ++ rest)).state = .frame (w.length - 4) := by
  rw [frame_wire hw] at h ⊢
  cases hd : dec (w.drop 4) with
  | ok q =>
    obtain ⟨r, a⟩ := q
    rw [hd] at h
    simp only at h ⊢
    split
    · rename_i hr; rw [if_pos hr] at h; simp at h
    · rfl
  | err e => rfl
  | panic p => rfl

set_option maxRecDepth 8000 in
/-- **C31** is violated: a frame of an unknown type followed by a heartbeat.  The
first is reported, but the second, which is decoded by a fresh codec, is not
decoded any more: its length is taken for a frame. -/
theorem C31_violated : ∃ (bad next : Bytes) (f : AmqpFrame), ∀ env,
    IsFrame bad ∧ IsFrame next ∧
    codecDecode env (AmqpFrame.decode env) .frameHeader next = ⟨.frameHeader, [], .some f⟩ ∧
    codecDecode env (AmqpFrame.decode env) .frameHeader (bad ++ next) =
      ⟨.frame 4, next, .err (.parse (.unexpectedFrameType 9))⟩ ∧
    codecDecode env (AmqpFrame.decode env) (.frame 4) next =
      ⟨.frame 4, next.drop 4, .err (.parse .invalidSize)⟩ :=
  ⟨[0, 0, 0, 8, 2, 9, 0, 0], [0, 0, 0, 8, 2, 0, 0, 0], ⟨0, .Empty⟩, fun _ =>
    ⟨⟨by decide, by decide⟩, ⟨by decide, by decide⟩, rfl, rfl, rfl⟩⟩

/-- **C31** is violated for good: after a frame announcing four bytes, every
call reports an error and consumes nothing, whatever is received. -/
theorem C31_violated_forever (env : Env) (rest : Bytes) (h : 4 ≤ rest.length) :
    codecDecode env (AmqpFrame.decode env) .frameHeader (0 :: 0 :: 0 :: 4 :: rest) =
      ⟨.frame 0, rest, .err (.parse (.incomplete 4))⟩ ∧
    ∀ buf, codecDecode env (AmqpFrame.decode env) (.frame 0) buf =
      ⟨.frame 0, buf, .err (.parse (.incomplete 4))⟩ := by
  have h0 : ∀ buf, frameStep (AmqpFrame.decode env) 0 buf =
      ⟨.frame 0, buf, .err (.parse (.incomplete 4))⟩ := fun buf => by
    unfold frameStep
    rw [if_neg (by omega)]
    rfl
  refine ⟨?_, h0⟩
  have e : beDec ((0 :: 0 :: 0 :: 4 :: rest : Bytes).take 4) = 4 := rfl
  rw [codecDecode_header (by simp; omega) (by rw [e]; omega), e]
  exact h0 rest

/-! ## C32 -/

/-- **C32** is violated in builds with overflow checks: a length below four is a
panic, whatever the type of frames and whatever follows. -/
theorem C32_violated_panic {T : Type} (env : Env) (he : env.overflowChecks = true) (dec : Dec T)
    (n : UInt8) (hn : n.toNat < 4) (rest : Bytes) (h : 4 ≤ rest.length) :
    (codecDecode env dec .frameHeader (0 :: 0 :: 0 :: n :: rest)).answer = .panic .overflow := by
  have e : beDec ((0 :: 0 :: 0 :: n :: rest : Bytes).take 4) = n.toNat := by
    simp [beDec]
  rw [codecDecode_abort (by simp; omega) (by rw [e]; exact hn) he]

/-- **C32** is violated in builds without: the codec then waits for
more than 2^63 bytes, so that nothing that follows is ever decoded. -/
theorem C32_violated_stall {T : Type} (env : Env) (he : env.overflowChecks = false) (dec : Dec T)
    (n : UInt8) (hn : n.toNat < 4) (chunks : List Bytes) (h : 4 ≤ chunks.flatten.length)
    (hlen : chunks.flatten.length < 2 ^ 63) :
    (receive env dec .frameHeader [0, 0, 0, n] chunks).1 = [] ∧
    (receive env dec .frameHeader [0, 0, 0, n] chunks).2.answer = .none := by
  have e : beDec ((0 :: 0 :: 0 :: n :: chunks.flatten : Bytes).take 4) = n.toNat := by
    simp [beDec]
  have h1 := codecDecode_wrap (env := env) (dec := dec)
    (src := 0 :: 0 :: 0 :: n :: chunks.flatten)
    (by simp only [List.length_cons]; omega) (by rw [e]; exact hn) he
  rw [e, frameStep_short (by
    simp only [List.drop_succ_cons, List.drop_zero]; omega)] at h1
  rw [receive_eq]
  simp only [List.cons_append, List.nil_append]
  rw [drain_stop (by rw [h1]; simp), h1]
  exact ⟨rfl, rfl⟩

/-- **C32**, the part that holds: lengths from four to seven are reported, in
both build modes, by both kinds of codecs.

Missing: lengths below four. -/
theorem C32_short_partial (env : Env) (src : Bytes) (h8 : 8 ≤ src.length)
    (h4 : 4 ≤ beDec (src.take 4)) (hl : beDec (src.take 4) < 8) :
    (codecDecode env (AmqpFrame.decode env) .frameHeader src).answer = .err (.parse (.incomplete 4)) ∧
    (codecDecode env (SaslFrame.decode env) .frameHeader src).answer = .err (.parse (.incomplete 4)) := by
  have hs : ((src.drop 4).take (beDec (src.take 4) - 4)).length < 4 := by
    rw [List.length_take]; omega
  have hr := C25_reject env 0 0 0 0 [] _ hs
  rw [codecDecode_header h8 h4, codecDecode_header h8 h4]
  unfold frameStep
  rw [if_neg (by rw [List.length_drop]; omega), if_neg (by rw [List.length_drop]; omega)]
  simp only
  rw [hr.1, hr.2.1]
  exact ⟨rfl, rfl⟩

example : (codecDecode debugEnv (AmqpFrame.decode debugEnv) .frameHeader
    [0, 0, 0, 3, 2, 0, 0, 0]).answer = .panic .overflow :=
  C32_violated_panic debugEnv rfl _ 3 (by decide) [2, 0, 0, 0] (by decide)
example : (receive ⟨false, 100⟩ (AmqpFrame.decode ⟨false, 100⟩) .frameHeader [0, 0, 0, 3]
    [[2, 0, 0, 0], [0, 0, 0, 8, 2, 0, 0, 0]]).1 = [] :=
  (C32_violated_stall ⟨false, 100⟩ rfl _ 3 (by decide) [[2, 0, 0, 0], [0, 0, 0, 8, 2, 0, 0, 0]]
    (by decide) (by decide)).1
example : (codecDecode debugEnv (AmqpFrame.decode debugEnv) .frameHeader
    [0, 0, 0, 7, 2, 0, 0, 0]).answer = .err (.parse (.incomplete 4)) :=
  (C32_short_partial debugEnv [0, 0, 0, 7, 2, 0, 0, 0] (by decide) (by decide) (by decide)).1

/-! ## C33 -/

/-- **C33**: the codec waits for eight bytes. -/
theorem C33_wait (src : Bytes) (h : src.length < 8) : protocolIdDecode src = (src, .none) := by
  unfold protocolIdDecode; rw [if_pos h]

/-- **C33**: it consumes exactly eight bytes, and classifies them: a header of
AMQP 1.0.0 with a known id is accepted, one with another id is unknown, one of
another version is incompatible, and anything else is not a header. -/
theorem C33_decode (m0 m1 m2 m3 id v0 v1 v2 : UInt8) (rest : Bytes) :
    ∃ answer, protocolIdDecode (m0 :: m1 :: m2 :: m3 :: id :: v0 :: v1 :: v2 :: rest) = (rest, answer) ∧
    ((m0, m1, m2, m3) ≠ (0x41, 0x4d, 0x51, 0x50) → answer = .err .InvalidHeader) ∧
    ((m0, m1, m2, m3) = (0x41, 0x4d, 0x51, 0x50) → (v0, v1, v2) ≠ (1, 0, 0) →
      answer = .err .Incompatible) ∧
    ((m0, m1, m2, m3) = (0x41, 0x4d, 0x51, 0x50) → (v0, v1, v2) = (1, 0, 0) →
      (id = 0 → answer = .some .Amqp) ∧ (id = 2 → answer = .some .AmqpTls) ∧
      (id = 3 → answer = .some .AmqpSasl) ∧
      (id ≠ 0 → id ≠ 2 → id ≠ 3 → answer = .err .Unknown)) := by
  refine ⟨_, by unfold protocolIdDecode; rw [if_neg (by simp)]; rfl, ?_, ?_, ?_⟩
  · intro h
    have : [m0, m1, m2, m3] ≠ protocolHeaderPrefix := by
      intro e; apply h
      simp only [protocolHeaderPrefix, List.cons.injEq, and_true] at e
      simp [e]
    show (if [m0, m1, m2, m3] ≠ protocolHeaderPrefix then _ else _) = _
    rw [if_pos this]
  · intro h h'
    have e1 : [m0, m1, m2, m3] = protocolHeaderPrefix := by
      simp only [Prod.mk.injEq] at h; simp [h, protocolHeaderPrefix]
    have e2 : [v0, v1, v2] ≠ protocolVersion := by
      intro e; apply h'
      simp only [protocolVersion, List.cons.injEq, and_true] at e
      simp [e]
    show (if [m0, m1, m2, m3] ≠ protocolHeaderPrefix then _
      else if [v0, v1, v2] ≠ protocolVersion then _ else _) = _
    rw [if_neg (by simp [e1]), if_pos e2]
  · intro h h'
    have e1 : [m0, m1, m2, m3] = protocolHeaderPrefix := by
      simp only [Prod.mk.injEq] at h; simp [h, protocolHeaderPrefix]
    have e2 : [v0, v1, v2] = protocolVersion := by
      simp only [Prod.mk.injEq] at h'; simp [h', protocolVersion]
    show (_ → (if [m0, m1, m2, m3] ≠ protocolHeaderPrefix then _
      else if [v0, v1, v2] ≠ protocolVersion then _ else
        if id = 0 then _ else if id = 2 then _ else if id = 3 then _ else _) = _) ∧ _
    rw [if_neg (by simp [e1]), if_neg (by simp [e2])]
    refine ⟨fun h => by rw [if_pos h], fun h => ?_, fun h => ?_, fun h0 h2 h3 => ?_⟩
    all_goals
      show (if [m0, m1, m2, m3] ≠ protocolHeaderPrefix then _
        else if [v0, v1, v2] ≠ protocolVersion then _ else
          if id = 0 then _ else if id = 2 then _ else if id = 3 then _ else _) = _
      rw [if_neg (by simp [e1]), if_neg (by simp [e2])]
    · subst h; rfl
    · subst h; rfl
    · rw [if_neg h0, if_neg h2, if_neg h3]

/-- **C33**: exactly the headers of the three protocols are accepted. -/
theorem C33_accepts (src : Bytes) (p : ProtocolId) :
    (protocolIdDecode src).2 = .some p ↔ ∃ rest, src = p.header ++ rest := by
  constructor
  · intro h
    unfold protocolIdDecode at h
    split at h
    · simp at h
    · rename_i hl
      simp only at h
      split at h
      · simp at h
      · rename_i h1
        split at h
        · simp at h
        · rename_i h2
          simp only [ne_eq, Decidable.not_not] at h1 h2
          have hlen : (src.take 8).length = 8 := by rw [List.length_take]; omega
          refine ⟨src.drop 8, ?_⟩
          have key : src.take 8 = p.header := by
            revert h1 h2 h hlen
            generalize src.take 8 = hdr
            intro h h1 h2 hlen
            match hdr, hlen with
            | [a0, a1, a2, a3, a4, a5, a6, a7], _ =>
              simp only [List.take, List.drop, protocolHeaderPrefix, protocolVersion,
                List.cons.injEq, and_true] at h1 h2
              obtain ⟨rfl, rfl, rfl, rfl⟩ := h1
              obtain ⟨rfl, rfl, rfl⟩ := h2
              simp only [List.getD_cons_succ, List.getD_cons_zero] at h
              split at h
              · subst a4; cases h; rfl
              · split at h
                · subst a4; cases h; rfl
                · split at h
                  · subst a4; cases h; rfl
                  · simp at h
          rw [← key, List.take_append_drop]
  · rintro ⟨rest, rfl⟩
    cases p <;> rfl

/-- **C33**: it never panics. -/
theorem C33_no_panic (src : Bytes) (e : Panic) : (protocolIdDecode src).2 ≠ .panic e := by
  unfold protocolIdDecode
  split
  · simp
  · simp only
    split
    · simp
    · split
      · simp
      · split
        · simp
        · split
          · simp
          · split <;> simp

/-- **C33**: encoding appends the header, in any buffer. -/
theorem C33_encode (slack : Growth) (p : ProtocolId) (dst : Buf) :
    ∃ out, protocolIdEncode slack p dst = .ok out ∧ out.data = dst.data ++ p.header := by
  have hp : protocolHeaderPrefix ++ [p.toU8] ++ protocolVersion = p.header := by cases p <;> rfl
  obtain ⟨b, h1, h2⟩ := Buf.putSlice_ok (ε := ProtocolIdError) (b := dst.reserve (slack dst 8) 8)
    (bytes := p.header) (by
      have := Buf.reserve_room (slack dst 8) 8 dst
      show 8 ≤ _
      omega)
  refine ⟨b, ?_, by rw [h2, Buf.reserve_data]⟩
  unfold protocolIdEncode
  rw [hp, h1]

/-- **C33**: what is encoded is decoded. -/
theorem C33_round_trip (slack : Growth) (p : ProtocolId) (rest : Bytes) :
    ∃ out, protocolIdEncode slack p ⟨[], 0, Nat.le_refl _⟩ = .ok out ∧
      protocolIdDecode (out.data ++ rest) = (rest, .some p) := by
  obtain ⟨out, h1, h2⟩ := C33_encode slack p ⟨[], 0, Nat.le_refl _⟩
  refine ⟨out, h1, ?_⟩
  rw [h2]
  cases p <;> rfl

example : protocolIdDecode [0x41, 0x4d, 0x51, 0x50, 3, 1, 0, 0, 7] = ([7], .some .AmqpSasl) := rfl
example : protocolIdDecode [0x41, 0x4d, 0x51, 0x50, 1, 1, 0, 0, 7] = ([7], .err .Unknown) := rfl

/-! ## C34 -/

/-- **C34**: an item that is no longer than its `encoded_size` is appended to any
buffer, whatever it holds and however it grows. -/
theorem C34_appends {T : Type} [Encode T] [EncodeW T] (slack : Growth) (item : T) (dst : Buf)
    (h : (enc item).length ≤ size item) :
    ∃ out, codecEncode slack item dst = .ok out ∧ out.data = dst.data ++ enc item :=
  codecEncode_ok slack item dst h

/-- **C34**: that includes every frame without a message as its payload. -/
theorem C34_frames (slack : Growth) (dst : Buf) :
    (∀ f : AmqpFrame, f.performative.PlainPayload →
      ∃ out, codecEncode slack f dst = .ok out ∧ out.data = dst.data ++ enc f) ∧
    (∀ f : SaslFrame, ∃ out, codecEncode slack f dst = .ok out ∧ out.data = dst.data ++ enc f) := by
  refine ⟨fun f h => codecEncode_ok slack f dst ?_, fun f => codecEncode_ok slack f dst ?_⟩
  · have hs := Frame.size_eq f.performative (plain_exact h)
    rw [amqpFrame_enc, List.length_append, frameHeader_length]
    show _ ≤ headerLen + size f.performative
    rw [hs]
    exact Nat.le_refl _
  · have hs := LawfulEnc.size_eq f.body
    rw [saslFrame_enc, List.length_append, frameHeader_length]
    show _ ≤ headerLen + size f.body
    rw [hs]
    exact Nat.le_refl _

/-- **C34**: the hypothesis is needed; an item that is longer than its
`encoded_size` overruns a full buffer, whatever its content, as soon as it is
longer than what is reserved, unless it holds a UUID (see C79). -/
theorem C34_needs_size {T : Type} [Encode T] [EncodeW T] (item : T) (dst : Buf)
    (hw : ∀ w ∈ writes item, w.isPut = true)
    (h : max (size item) 32768 < (enc item).length) (hd : dst.data.length = dst.capacity) :
    codecEncode (fun _ _ => 0) item dst = .panic .bufferFull := by
  have e : dst.remainingMut = 0 := by unfold Buf.remainingMut; omega
  unfold codecEncode sizeLowWm sizeHighWm encodeInto
  simp only
  rw [if_pos (by omega), Buf.run_puts _ _ _ hw, Buf.putSlice_full]
  rw [EncodeW.output]
  unfold Buf.reserve
  rw [if_neg (by omega)]
  simp only [Buf.remainingMut]
  omega

example : ∃ out, codecEncode (fun _ _ => 5) (⟨7, .Empty⟩ : AmqpFrame) ⟨[1, 2], 2, by decide⟩ = .ok out ∧
    out.data = [1, 2, 0, 0, 0, 8, 2, 0, 0, 7] :=
  (C34_frames (fun _ _ => 5) ⟨[1, 2], 2, by decide⟩).1 ⟨7, .Empty⟩ (fun _ _ h => by cases h)

end Amqp
