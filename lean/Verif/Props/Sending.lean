import Verif.Spec.Sending
import Verif.Props.EndOfStream
/-!
# C83: frames given to a sink reach the other side
-/
set_option autoImplicit false
namespace Amqp

/-! ### Single calls -/

theorem flush_keeps : ∀ (ws : List Take) (s : Sink),
    (s.flush ws).1.written ++ (s.flush ws).1.buffer.data = s.written ++ s.buffer.data ∧
    (s.flush ws).1.buffer.data.length ≤ s.buffer.data.length ∧
    s.written <+: (s.flush ws).1.written ∧
    ((s.flush ws).2.2 = .ready → (s.flush ws).1.buffer.data = [])
  | [], s => by simp [Sink.flush]
  | .wouldBlock :: t, s => by simp [Sink.flush]
  | .fails :: t, s => by simp [Sink.flush]
  | .bytes n :: t, s => by
    unfold Sink.flush
    by_cases h0 : s.buffer.data = []
    · rw [if_pos (by simpa using h0)]
      exact ⟨rfl, Nat.le_refl _, List.prefix_refl _, fun _ => h0⟩
    · rw [if_neg (by simpa using h0)]
      by_cases hn : n = 0
      · rw [if_pos hn]
        exact ⟨rfl, Nat.le_refl _, List.prefix_refl _, fun h => by cases h⟩
      · rw [if_neg hn]
        obtain ⟨h1, h2, h3, h4⟩ := flush_keeps t ⟨s.buffer.splitTo (min n s.buffer.data.length),
          s.written ++ s.buffer.data.take n⟩
        refine ⟨?_, ?_, ?_, h4⟩
        · rw [h1]
          simp only [Buf.splitTo, List.append_assoc]
          congr 1
          rcases Nat.le_total n s.buffer.data.length with hl | hl
          · rw [Nat.min_eq_left hl, List.take_append_drop]
          · rw [Nat.min_eq_right hl, List.take_of_length_le hl, List.drop_length, List.append_nil]
        · refine Nat.le_trans h2 ?_
          simp only [Buf.splitTo, List.length_drop]; omega
        · exact (List.prefix_append _ _).trans h3

theorem send_keeps {T : Type} [Encode T] [EncodeW T] (grow : Growth) (item : T)
    (hsz : (enc item).length ≤ size item) (ws : List Take) (s : Sink) :
    ∃ s' ws' r, s.send grow item ws = .ok (s', ws', r) ∧
      s'.written ++ s'.buffer.data = s.written ++ s.buffer.data ++
        (if r = .accepted then enc item else []) ∧
      (r = .refused → 8192 ≤ s'.buffer.data.length) ∧
      s.written <+: s'.written ∧
      (s'.buffer.data.length ≤ s.buffer.data.length ∨
        (r = .accepted ∧ s'.buffer.data.length < 8192 + (enc item).length)) := by
  have key : ∀ (s : Sink) (ws : List Take), s.buffer.data.length < 8192 → ∃ s',
      (match codecEncode grow item s.buffer with
        | .ok b => (.ok (⟨b, s.written⟩, ws, Sent.accepted) : Res CodecError (Sink × List Take × Sent))
        | .err e => .err e
        | .panic p => .panic p) = .ok (s', ws, .accepted) ∧
      s'.written = s.written ∧ s'.buffer.data = s.buffer.data ++ enc item := by
    intro s ws _
    obtain ⟨b, h1, h2⟩ := codecEncode_ok grow item s.buffer hsz
    exact ⟨⟨b, s.written⟩, by rw [h1], rfl, h2⟩
  unfold Sink.send
  simp only
  by_cases hb : 8192 ≤ s.buffer.data.length
  · rw [if_pos hb]
    obtain ⟨h1, h2, h3, h4⟩ := flush_keeps ws s
    rcases hf : s.flush ws with ⟨s1, ws1, f⟩
    rw [hf] at h1 h2 h3 h4
    simp only at h1 h2 h3 h4
    have rest : ∃ s' ws' r, (if 8192 ≤ s1.buffer.data.length then
          (.ok (s1, ws1, .refused) : Res CodecError (Sink × List Take × Sent))
        else match codecEncode grow item s1.buffer with
          | .ok b => .ok (⟨b, s1.written⟩, ws1, .accepted)
          | .err e => .err e
          | .panic p => .panic p) = .ok (s', ws', r) ∧
        s'.written ++ s'.buffer.data = s.written ++ s.buffer.data ++
          (if r = .accepted then enc item else []) ∧
        (r = .refused → 8192 ≤ s'.buffer.data.length) ∧
        s.written <+: s'.written ∧
        (s'.buffer.data.length ≤ s.buffer.data.length ∨
          (r = .accepted ∧ s'.buffer.data.length < 8192 + (enc item).length)) := by
      by_cases hb1 : 8192 ≤ s1.buffer.data.length
      · rw [if_pos hb1]
        exact ⟨s1, ws1, .refused, rfl, by simp [h1], fun _ => hb1, h3, .inl h2⟩
      · rw [if_neg hb1]
        obtain ⟨s', k1, k2, k3⟩ := key s1 ws1 (by omega)
        refine ⟨s', ws1, .accepted, k1, ?_, (fun h => by cases h), by rw [k2]; exact h3, .inr ⟨rfl, ?_⟩⟩
        · rw [k2, k3, ← List.append_assoc, h1]; simp
        · rw [k3, List.length_append]; omega
    cases f with
    | failed => exact ⟨s1, ws1, .failed, rfl, by simp [h1], (fun h => by cases h), h3, .inl h2⟩
    | ready => exact rest
    | notReady => exact rest
  · rw [if_neg hb]
    obtain ⟨s', k1, k2, k3⟩ := key s ws (by omega)
    refine ⟨s', ws, .accepted, k1, ?_, (fun h => by cases h), by rw [k2]; exact List.prefix_refl _,
      .inr ⟨rfl, ?_⟩⟩
    · rw [k2, k3]; simp
    · rw [k3, List.length_append]; omega

/-- What holds between the calls. -/
structure SinkRun.Ok {T : Type} [Encode T] (M : Nat) (r : SinkRun T) : Prop where
  bytes : r.sink.written ++ r.sink.buffer.data = r.accepted.flatMap enc
  complete : r.complete = true → r.sink.buffer.data = []
  bound : r.sink.buffer.data.length < 8192 + M

theorem run_ok {T : Type} [Encode T] [EncodeW T] (grow : Growth) (M : Nat) :
    ∀ (ops : List (SinkOp T)) (ws : List Take) (r : SinkRun T),
      (∀ a ∈ SinkOp.items ops, (enc a).length ≤ size a ∧ (enc a).length ≤ M) → r.Ok M →
      ∃ r', SinkRun.run grow ops ws r = .ok r' ∧ r'.Ok M ∧ r.sink.written <+: r'.sink.written ∧
        ∃ more, r'.accepted = r.accepted ++ more ∧ more.Sublist (SinkOp.items ops)
  | [], ws, r, _, h => ⟨r, rfl, h, List.prefix_refl _, [], by simp, .slnil⟩
  | .flush :: t, ws, r, hi, h => by
    obtain ⟨h1, h2, h3, h4⟩ := flush_keeps ws r.sink
    unfold SinkRun.run
    rcases hf : r.sink.flush ws with ⟨s1, ws1, f⟩
    rw [hf] at h1 h2 h3 h4
    simp only at h1 h2 h3 h4
    have go : ∀ c, (c = true → s1.buffer.data = []) →
        ∃ r', SinkRun.run grow t ws1 ⟨s1, r.accepted, c, false⟩ = .ok r' ∧ r'.Ok M ∧
          r.sink.written <+: r'.sink.written ∧
          ∃ more, r'.accepted = r.accepted ++ more ∧ more.Sublist (SinkOp.items (SinkOp.flush :: t)) := by
      intro c hc
      obtain ⟨r', k1, k2, k3, more, k4, k5⟩ := run_ok grow M t ws1 ⟨s1, r.accepted, c, false⟩ hi
        ⟨by rw [h1]; exact h.bytes, hc, by have := h.bound; simp only; omega⟩
      exact ⟨r', k1, k2, h3.trans k3, more, k4, k5⟩
    cases f with
    | failed =>
      exact ⟨_, rfl, ⟨by rw [h1]; exact h.bytes, (fun h => by cases h), by
        have := h.bound; simp only; omega⟩, h3, [], by simp, by simp⟩
    | ready => exact go _ fun _ => h4 rfl
    | notReady => exact go _ fun h => by cases h
  | .send a :: t, ws, r, hi, h => by
    obtain ⟨hsz, hM⟩ := hi a (by simp [SinkOp.items])
    obtain ⟨s1, ws1, f, k0, k1, k2, k3, k4⟩ := send_keeps grow a hsz ws r.sink
    have hb : s1.buffer.data.length < 8192 + M := by
      have := h.bound
      rcases k4 with k4 | ⟨_, k4⟩ <;> omega
    unfold SinkRun.run
    rw [k0]
    cases f with
    | failed =>
      refine ⟨_, rfl, ⟨?_, (fun h => by cases h), hb⟩, k3, [], by simp, by simp⟩
      rw [k1, h.bytes]; simp
    | refused =>
      obtain ⟨r', i1, i2, i3, more, i4, i5⟩ := run_ok grow M t ws1 ⟨s1, r.accepted, false, false⟩
        (fun b hb => hi b (by simp [SinkOp.items, hb]))
        ⟨by rw [k1, h.bytes]; simp, (fun h => by cases h), hb⟩
      exact ⟨r', i1, i2, k3.trans i3, more, i4, i5.cons a⟩
    | accepted =>
      obtain ⟨r', i1, i2, i3, more, i4, i5⟩ := run_ok grow M t ws1
        ⟨s1, r.accepted ++ [a], false, false⟩
        (fun b hb => hi b (by simp [SinkOp.items, hb]))
        ⟨by rw [k1, h.bytes]; simp, (fun h => by cases h), hb⟩
      exact ⟨r', i1, i2, k3.trans i3, a :: more, by rw [i4]; simp, i5.cons_cons a⟩

/-! ## C83 -/

/-- **C83**: whatever a program sends and however the writer takes the bytes, the bytes it has
taken, followed by those still in the buffer, are the encodings of the accepted items, in the
order in which they were sent; after a flush that completes it has taken all of them; and the
buffer never holds more than 8 KiB and one item. -/
theorem C83_sent {T : Type} [Encode T] [EncodeW T] (grow : Growth) (ops : List (SinkOp T))
    (ws : List Take) (M : Nat)
    (h : ∀ a ∈ SinkOp.items ops, (enc a).length ≤ size a ∧ (enc a).length ≤ M) :
    ∃ r, SinkRun.run grow ops ws .start = .ok r ∧
      r.accepted.Sublist (SinkOp.items ops) ∧
      r.sink.written ++ r.sink.buffer.data = r.accepted.flatMap enc ∧
      (r.complete = true → r.sink.written = r.accepted.flatMap enc) ∧
      r.sink.buffer.data.length < 8192 + M := by
  obtain ⟨r, h1, h2, -, more, h4, h5⟩ := run_ok grow M ops ws .start h
    ⟨rfl, fun _ => rfl, by simp [SinkRun.start, Sink.new]; omega⟩
  refine ⟨r, h1, ?_, h2.bytes, fun hc => ?_, h2.bound⟩
  · rw [h4]; simpa [SinkRun.start] using h5
  · rw [← h2.bytes, h2.complete hc, List.append_nil]

/-- **C83**: an item is refused only while the buffer holds 8 KiB or more. -/
theorem C83_refused {T : Type} [Encode T] [EncodeW T] (grow : Growth) (item : T)
    (hsz : (enc item).length ≤ size item) (ws : List Take) (s s' : Sink) (ws' : List Take)
    (h : s.send grow item ws = .ok (s', ws', .refused)) :
    8192 ≤ s'.buffer.data.length ∧ s'.written ++ s'.buffer.data = s.written ++ s.buffer.data := by
  obtain ⟨s1, ws1, f, k0, k1, k2, -⟩ := send_keeps grow item hsz ws s
  rw [k0] at h
  simp only [Res.ok.injEq, Prod.mk.injEq] at h
  obtain ⟨rfl, rfl, rfl⟩ := h
  exact ⟨k2 rfl, by simpa using k1⟩

/-- **C83**: a flush completes when the writer takes something each time it is asked. -/
theorem C83_flush : ∀ (ws : List Take) (s : Sink), (∀ w ∈ ws, ∃ n, w = .bytes n ∧ n ≠ 0) →
    s.buffer.data.length < ws.length → (s.flush ws).2.2 = .ready
  | [], s, _, h => by simp at h
  | w :: t, s, hw, h => by
    obtain ⟨n, rfl, hn⟩ := hw w (by simp)
    unfold Sink.flush
    by_cases h0 : s.buffer.data.isEmpty = true
    · rw [if_pos h0]
    · rw [if_neg h0, if_neg hn]
      refine C83_flush t _ (fun x hx => hw x (by simp [hx])) ?_
      have : 0 < s.buffer.data.length := by
        rw [List.length_pos_iff]; simpa using h0
      simp only [Buf.splitTo, List.length_drop, List.length_cons] at h ⊢
      omega

theorem pipe {T : Type} [Encode T] [EncodeW T] (env : Env) (dec : Dec T) (grow : Growth)
    (ops : List (SinkOp T)) (ws : List Take) (reads : List Read) (he : Ends reads) (missing : Bytes)
    (hsz : ∀ f ∈ SinkOp.items ops, (enc f).length ≤ size f)
    (hf : ∀ f ∈ SinkOp.items ops, IsFrame (enc f) ∧ dec ((enc f).drop 4) = .ok ([], f)) :
    ∃ r, SinkRun.run grow ops ws .start = .ok r ∧ r.accepted.Sublist (SinkOp.items ops) ∧
      (r.sink.written = delivered reads ++ missing →
        ∃ got lost e, r.accepted = got ++ lost ∧ (e = .done ∨ e = .bytesRemaining) ∧
          (∀ n, got.length + blocks reads < n → readFrames env dec n reads = (got, some e)) ∧
          (r.complete = true → missing = [] → lost = [] ∧ e = .done)) := by
  have hM : ∀ l : List T, ∃ M, ∀ a ∈ l, (enc a).length ≤ M := by
    intro l
    induction l with
    | nil => exact ⟨0, by simp⟩
    | cons b l ih =>
      obtain ⟨M, h⟩ := ih
      refine ⟨M + (enc b).length, fun a ha => ?_⟩
      rcases List.mem_cons.1 ha with rfl | ha
      · omega
      · have := h a ha; omega
  obtain ⟨M, hM⟩ := hM (SinkOp.items ops)
  obtain ⟨r, h1, h2, h3, h4, -⟩ := C83_sent grow ops ws M fun a ha => ⟨hsz a ha, hM a ha⟩
  refine ⟨r, h1, h2, fun hw => ?_⟩
  have hacc : ∀ f ∈ r.accepted, IsFrame (enc f) ∧ dec ((enc f).drop 4) = .ok ([], f) :=
    fun f hm => hf f (h2.subset hm)
  rw [hw] at h3
  have key : ∀ got e, Drains (frameCodec env dec) .frameHeader (delivered reads) got e →
      ∀ n, got.length + blocks reads < n → readFrames env dec n reads = (got, some e) :=
    fun got e h n hn => (run_fits (frameCodec_stream env dec) n reads (.new .frameHeader) got e
      (by simpa [Coming, Reader.new] using h)).2.2 (.inr he) hn
  have hlong : ∀ l : List T, (∀ f ∈ l, f ∈ r.accepted) → l.flatMap enc = [] → l = [] := by
    intro l hl h
    cases l with
    | nil => rfl
    | cons f t =>
      have h8 := (hacc f (hl f (by simp))).1.1
      rw [List.flatMap_cons] at h
      have := congrArg List.length h
      simp only [List.length_append, List.length_nil] at this
      omega
  obtain ⟨got, lost, k1, ⟨k2, k3⟩ | ⟨f, t, part, k2, k3, k4, k5, k6⟩⟩ :=
    cut_drains (env := env) (dec := dec) enc r.accepted (delivered reads)
      (missing ++ r.sink.buffer.data) hacc (by rw [← h3]; simp)
  · refine ⟨got, lost, .done, k1, .inl rfl, key _ _ k3, fun hc hm => ⟨?_, rfl⟩⟩
    have := h4 hc
    rw [hw, hm, List.append_nil, k1, List.flatMap_append, k2] at this
    exact hlong lost (fun f hf => by rw [k1]; simp [hf]) (List.append_cancel_left
      (this.symm.trans (List.append_nil _).symm))
  · refine ⟨got, lost, .bytesRemaining, k1, .inr rfl, key _ _ k6, fun hc hm => ?_⟩
    have := h4 hc
    rw [hw, hm, List.append_nil, k1, List.flatMap_append, k5] at this
    have := congrArg List.length (List.append_cancel_left this)
    rw [k2, List.flatMap_cons, List.length_append] at this
    omega

/-- **C83**: AMQP frames, from a sink through a connection to a reader, with bytes taken and
delivered in any pieces, and the connection lost anywhere: what is read are the first of the
accepted frames, in order, unchanged and none twice; and if a flush completed and nothing was
lost, all of them. -/
theorem C83_pipe_amqp (env : Env) (grow : Growth) (ops : List (SinkOp AmqpFrame)) (ws : List Take)
    (reads : List Read) (he : Ends reads) (missing : Bytes)
    (hf : ∀ f ∈ SinkOp.items ops, f.performative.ContentRoundTrips env ∧
      f.performative.PlainPayload ∧ (enc f).length < 2 ^ 32) :
    ∃ r, SinkRun.run grow ops ws .start = .ok r ∧ r.accepted.Sublist (SinkOp.items ops) ∧
      (r.sink.written = delivered reads ++ missing →
        ∃ got lost e, r.accepted = got ++ lost ∧ (e = .done ∨ e = .bytesRemaining) ∧
          (∀ n, got.length + blocks reads < n →
            readFrames env (AmqpFrame.decode env) n reads = (got, some e)) ∧
          (r.complete = true → missing = [] → lost = [] ∧ e = .done)) :=
  pipe env _ grow ops ws reads he missing
    (fun f hm => by
      have hs := Frame.size_eq f.performative (plain_exact (hf f hm).2.1)
      rw [amqpFrame_enc, List.length_append, frameHeader_length]
      show _ ≤ headerLen + size f.performative
      rw [hs]
      exact Nat.le_refl _)
    (fun f hm => by
      obtain ⟨h1, h2, h3⟩ := hf f hm
      exact ⟨(C26_amqp env f h1 h2).2 h3, (C26_amqp env f h1 h2).1⟩)

/-- **C83**: SASL frames. -/
theorem C83_pipe_sasl (env : Env) (grow : Growth) (ops : List (SinkOp SaslFrame)) (ws : List Take)
    (reads : List Read) (he : Ends reads) (missing : Bytes)
    (hf : ∀ f ∈ SinkOp.items ops, RoundTrips env f.body ∧ (enc f).length < 2 ^ 32) :
    ∃ r, SinkRun.run grow ops ws .start = .ok r ∧ r.accepted.Sublist (SinkOp.items ops) ∧
      (r.sink.written = delivered reads ++ missing →
        ∃ got lost e, r.accepted = got ++ lost ∧ (e = .done ∨ e = .bytesRemaining) ∧
          (∀ n, got.length + blocks reads < n →
            readFrames env (SaslFrame.decode env) n reads = (got, some e)) ∧
          (r.complete = true → missing = [] → lost = [] ∧ e = .done)) :=
  pipe env _ grow ops ws reads he missing
    (fun f hm => by
      have hs := LawfulEnc.size_eq f.body
      rw [saslFrame_enc, List.length_append, frameHeader_length]
      show _ ≤ headerLen + size f.body
      rw [hs]
      exact Nat.le_refl _)
    (fun f hm => by
      obtain ⟨h1, h3⟩ := hf f hm
      exact ⟨(C26_sasl env f h1).2 h3, (C26_sasl env f h1).1⟩)

/-- A heartbeat is sent, flushed in two pieces, and received. -/
example : ∃ r, SinkRun.run (fun _ _ => 0) [.send (⟨1, .Empty⟩ : AmqpFrame), .flush]
      [.bytes 3, .bytes 9, .bytes 1] .start = .ok r ∧ r.accepted = [⟨1, .Empty⟩] ∧
    r.complete = true ∧ r.sink.written = [0, 0, 0, 8, 2, 0, 0, 1] :=
  ⟨_, rfl, rfl, rfl, rfl⟩
/-- The writer stops after three bytes; they are read as the beginning of a frame. -/
example : ∃ r, SinkRun.run (fun _ _ => 0) [.send (⟨1, .Empty⟩ : AmqpFrame), .flush]
      [.bytes 3, .wouldBlock] .start = .ok r ∧ r.complete = false ∧ r.sink.written = [0, 0, 0] :=
  ⟨_, rfl, rfl, rfl⟩
/-- By the theorem: two heartbeats of which the second is lost. -/
example (r : SinkRun AmqpFrame) (h : SinkRun.run (fun _ _ => 0)
      [.send (⟨1, .Empty⟩ : AmqpFrame), .flush, .send ⟨2, .Empty⟩, .flush]
      [.bytes 8, .bytes 1, .bytes 5, .fails] .start = .ok r) :
    readFrames debugEnv (AmqpFrame.decode debugEnv) 2
      [.bytes [0, 0, 0, 8, 2, 0, 0, 1], .bytes [0, 0, 0], .bytes []] =
        ([⟨1, .Empty⟩], some .bytesRemaining) ∧ r.failed = true := by
  refine ⟨rfl, ?_⟩
  cases h
  rfl

example (grow : Growth) (ws : List Take) : ∃ r, SinkRun.run grow [.send (⟨1, .Empty⟩ : AmqpFrame), .flush] ws .start = .ok r ∧
    r.sink.buffer.data.length < 8192 + 8 :=
  have ⟨r, h1, _, _, _, h2⟩ := C83_sent grow [.send (⟨1, .Empty⟩ : AmqpFrame), .flush] ws 8 (by
    intro a h
    cases List.mem_singleton.1 h
    decide)
  ⟨r, h1, h2⟩

end Amqp
