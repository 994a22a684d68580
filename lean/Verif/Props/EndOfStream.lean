import Verif.Proofs.EndOfStreamLaws
/-!
# C82: a stream that was cut is not taken for one that ended
-/
set_option autoImplicit false
namespace Amqp

/-- Polling a new reader of frames `n` times. -/
abbrev readFrames {T : Type} (env : Env) (dec : Dec T) (n : Nat) (reads : List Read) :
    List T × Option (Ending CodecError) :=
  (Reader.new .frameHeader).run (frameCodec env dec) n reads

/-- Polling a new reader of protocol headers `n` times. -/
abbrev readHeaders (n : Nat) (reads : List Read) :
    List ProtocolId × Option (Ending ProtocolIdError) :=
  (Reader.new ()).run headerCodec n reads

/-! ## Reading comes to one end -/

/-- **C82**: when the stream ends, so does the reading, after one poll for each item, one for
each time there were no bytes, and one more; before that it yields the items in order. -/
theorem C82_ends {T : Type} (env : Env) (dec : Dec T) (reads : List Read) (he : Ends reads) :
    ∃ items e, ∀ n, (readFrames env dec n reads).1 <+: items ∧
      ((readFrames env dec n reads).2 = none ∨ readFrames env dec n reads = (items, some e)) ∧
      (items.length + blocks reads < n → readFrames env dec n reads = (items, some e)) := by
  obtain ⟨items, e, h⟩ := Drains.total (frameCodec_stream env dec) .frameHeader (delivered reads)
  refine ⟨items, e, fun n => ?_⟩
  obtain ⟨h1, h2, h3⟩ := run_fits (frameCodec_stream env dec) n reads (.new .frameHeader) items e
    (by simpa [Coming, Reader.new] using h)
  refine ⟨h1, ?_, h3 (.inr he)⟩
  cases hr : (readFrames env dec n reads).2 with
  | none => exact .inl rfl
  | some e' => exact .inr (h2 e' hr)

/-- **C82**: the same for protocol headers. -/
theorem C82_ends_headers (reads : List Read) (he : Ends reads) :
    ∃ items e, ∀ n, (readHeaders n reads).1 <+: items ∧
      ((readHeaders n reads).2 = none ∨ readHeaders n reads = (items, some e)) ∧
      (items.length + blocks reads < n → readHeaders n reads = (items, some e)) := by
  obtain ⟨items, e, h⟩ := Drains.total headerCodec_stream () (delivered reads)
  refine ⟨items, e, fun n => ?_⟩
  obtain ⟨h1, h2, h3⟩ := run_fits headerCodec_stream n reads (.new ()) items e
    (by simpa [Coming, Reader.new] using h)
  refine ⟨h1, ?_, h3 (.inr he)⟩
  cases hr : (readHeaders n reads).2 with
  | none => exact .inl rfl
  | some e' => exact .inr (h2 e' hr)

/-! ## Nothing is held back -/

/-- **C82**: a frame is yielded as soon as its bytes have been read, whether more follow or
not: one poll for each, and one for each time there were no bytes. -/
theorem C82_prompt {T : Type} (env : Env) (dec : Dec T) (reads : List Read) (front part : Bytes)
    (items : List T) (hd : delivered reads = front ++ part) (hw : WholeFrames dec front items)
    (n : Nat) (hn : items.length + blocks reads ≤ n) :
    items <+: (readFrames env dec n reads).1 := by
  obtain ⟨ws, rfl, rfl, h⟩ := hw
  obtain ⟨items', e, h'⟩ := Drains.total (frameCodec_stream env dec) .frameHeader part
  have hD := whole_drains h' ws h
  rw [← hd] at hD
  have hc : Coming (frameCodec env dec) reads (.new .frameHeader) (ws.map (·.2) ++ items') e := by
    simpa [Coming, Reader.new] using hD
  have h1 := (run_fits (frameCodec_stream env dec) n reads (.new .frameHeader) _ e hc).1
  have h2 := run_prompt (frameCodec_stream env dec) n (ws.map (·.2)).length reads
    (.new .frameHeader) _ e hc (fun _ => rfl) (by simp) hn
  exact List.prefix_of_prefix_length_le (List.prefix_append _ _) h1 h2

/-- **C82**: the same for protocol headers. -/
theorem C82_prompt_headers (reads : List Read) (part : Bytes) (items : List ProtocolId)
    (hd : delivered reads = (items.map ProtocolId.header).flatten ++ part)
    (n : Nat) (hn : items.length + blocks reads ≤ n) :
    items <+: (readHeaders n reads).1 := by
  obtain ⟨items', e, h'⟩ := Drains.total headerCodec_stream () part
  have hD : Drains headerCodec () (delivered reads) (items ++ items') e := by
    rw [hd]
    clear hd hn
    induction items with
    | nil => exact h'
    | cons b items ih =>
      refine .item (st' := ()) ?_ ih
      rw [List.map_cons, List.flatten_cons, List.append_assoc]
      cases b <;> rfl
  have hc : Coming headerCodec reads (.new ()) (items ++ items') e := by
    simpa [Coming, Reader.new] using hD
  have h1 := (run_fits headerCodec_stream n reads (.new ()) _ e hc).1
  have h2 := run_prompt headerCodec_stream n items.length reads
    (.new ()) _ e hc (fun _ => rfl) (by simp) hn
  exact List.prefix_of_prefix_length_le (List.prefix_append _ _) h1 h2

/-! ## Which end -/

/-- **C82**: what reading a stream of AMQP frames to its end yields, for any bytes that arrive
in any pieces: the frames at its beginning, and the verdict on what follows them. -/
theorem C82_amqp (env : Env) (reads : List Read) (he : Ends reads)
    (hlen : (delivered reads).length < 2 ^ 63) (items : List AmqpFrame) (e : Ending CodecError) :
    (∃ n, readFrames env (AmqpFrame.decode env) n reads = (items, some e)) ↔
      ∃ front part, delivered reads = front ++ part ∧
        WholeFrames (AmqpFrame.decode env) front items ∧ Verdict env (AmqpFrame.decode env) part e :=
  (run_new (frameCodec_stream env _) he).symm.trans (frame_drains_iff (amqp_needs4 env) hlen)

/-- **C82**: SASL frames. -/
theorem C82_sasl (env : Env) (reads : List Read) (he : Ends reads)
    (hlen : (delivered reads).length < 2 ^ 63) (items : List SaslFrame) (e : Ending CodecError) :
    (∃ n, readFrames env (SaslFrame.decode env) n reads = (items, some e)) ↔
      ∃ front part, delivered reads = front ++ part ∧
        WholeFrames (SaslFrame.decode env) front items ∧ Verdict env (SaslFrame.decode env) part e :=
  (run_new (frameCodec_stream env _) he).symm.trans (frame_drains_iff (sasl_needs4 env) hlen)

/-- **C82**: protocol headers. -/
theorem C82_headers (reads : List Read) (he : Ends reads) (items : List ProtocolId)
    (e : Ending ProtocolIdError) :
    (∃ n, readHeaders n reads = (items, some e)) ↔
      ∃ part, delivered reads = (items.map ProtocolId.header).flatten ++ part ∧ HeaderVerdict part e :=
  (run_new headerCodec_stream he).symm.trans header_drains_iff

/-- **C82**: the reading of AMQP frames ends without an error exactly if the stream consists
of whole frames, and they have all been yielded. -/
theorem C82_clean_amqp (env : Env) (reads : List Read) (he : Ends reads)
    (hlen : (delivered reads).length < 2 ^ 63) (items : List AmqpFrame) :
    (∃ n, readFrames env (AmqpFrame.decode env) n reads = (items, some .done)) ↔
      WholeFrames (AmqpFrame.decode env) (delivered reads) items := by
  rw [C82_amqp env reads he hlen]
  constructor
  · rintro ⟨front, part, h1, h2, rfl⟩
    rw [h1, List.append_nil]; exact h2
  · intro h; exact ⟨_, [], by simp, h, rfl⟩

/-- **C82**: SASL frames. -/
theorem C82_clean_sasl (env : Env) (reads : List Read) (he : Ends reads)
    (hlen : (delivered reads).length < 2 ^ 63) (items : List SaslFrame) :
    (∃ n, readFrames env (SaslFrame.decode env) n reads = (items, some .done)) ↔
      WholeFrames (SaslFrame.decode env) (delivered reads) items := by
  rw [C82_sasl env reads he hlen]
  constructor
  · rintro ⟨front, part, h1, h2, rfl⟩
    rw [h1, List.append_nil]; exact h2
  · intro h; exact ⟨_, [], by simp, h, rfl⟩

/-! ## Frames that were sent -/

theorem cut_read {T : Type} [Encode T] [EncodeW T] (env : Env) (dec : Dec T) (slack : Growth)
    (frames : List T) (reads : List Read) (he : Ends reads) (out : Buf) (missing : Bytes)
    (hsz : ∀ f ∈ frames, (enc f).length ≤ size f)
    (hf : ∀ f ∈ frames, IsFrame (enc f) ∧ dec ((enc f).drop 4) = .ok ([], f))
    (hout : encodeAll slack frames ⟨[], 0, Nat.le_refl _⟩ = .ok out)
    (hd : out.data = delivered reads ++ missing) :
    ∃ got lost, frames = got ++ lost ∧
      ((delivered reads = got.flatMap enc ∧
        ∀ n, got.length + blocks reads < n → readFrames env dec n reads = (got, some .done)) ∨
      ∃ f t part, lost = f :: t ∧ part ≠ [] ∧ part.length < (enc f).length ∧
        delivered reads = got.flatMap enc ++ part ∧
        ∀ n, got.length + blocks reads < n →
          readFrames env dec n reads = (got, some .bytesRemaining)) := by
  obtain ⟨out', h1, h2⟩ := encodeAll_ok slack frames ⟨[], 0, Nat.le_refl _⟩ hsz
  rw [h1] at hout
  cases hout
  rw [h2, List.nil_append] at hd
  have key : ∀ got e, Drains (frameCodec env dec) .frameHeader (delivered reads) got e →
      ∀ n, got.length + blocks reads < n → readFrames env dec n reads = (got, some e) :=
    fun got e h n hn => (run_fits (frameCodec_stream env dec) n reads (.new .frameHeader) got e
      (by simpa [Coming, Reader.new] using h)).2.2 (.inr he) hn
  obtain ⟨got, lost, k1, ⟨k2, k3⟩ | ⟨f, t, part, k2, k3, k4, k5, k6⟩⟩ :=
    cut_drains (env := env) (dec := dec) enc frames _ _ hf hd
  · exact ⟨got, lost, k1, .inl ⟨k2, key _ _ k3⟩⟩
  · exact ⟨got, lost, k1, .inr ⟨f, t, part, k2, k3, k4, k5, key _ _ k6⟩⟩

/-- **C82**: AMQP frames are sent, and the connection is lost anywhere.  The receiver gets
exactly the frames that arrived whole, and learns whether one was cut: the reading ends
without an error only if the connection was lost between two frames. -/
theorem C82_cut_amqp (env : Env) (slack : Growth) (frames : List AmqpFrame) (reads : List Read)
    (he : Ends reads) (out : Buf) (missing : Bytes)
    (hf : ∀ f ∈ frames, f.performative.ContentRoundTrips env ∧ f.performative.PlainPayload ∧
      (enc f).length < 2 ^ 32)
    (hout : encodeAll slack frames ⟨[], 0, Nat.le_refl _⟩ = .ok out)
    (hd : out.data = delivered reads ++ missing) :
    ∃ got lost, frames = got ++ lost ∧
      ((delivered reads = got.flatMap enc ∧ ∀ n, got.length + blocks reads < n →
        readFrames env (AmqpFrame.decode env) n reads = (got, some .done)) ∨
      ∃ f t part, lost = f :: t ∧ part ≠ [] ∧ part.length < (enc f).length ∧
        delivered reads = got.flatMap enc ++ part ∧
        ∀ n, got.length + blocks reads < n →
          readFrames env (AmqpFrame.decode env) n reads = (got, some .bytesRemaining)) :=
  cut_read env _ slack frames reads he out missing
    (fun f hm => by
      have hs := Frame.size_eq f.performative (plain_exact (hf f hm).2.1)
      rw [amqpFrame_enc, List.length_append, frameHeader_length]
      show _ ≤ headerLen + size f.performative
      rw [hs]
      exact Nat.le_refl _)
    (fun f hm => by
      obtain ⟨h1, h2, h3⟩ := hf f hm
      exact ⟨(C26_amqp env f h1 h2).2 h3, (C26_amqp env f h1 h2).1⟩)
    hout hd

/-- **C82**: SASL frames. -/
theorem C82_cut_sasl (env : Env) (slack : Growth) (frames : List SaslFrame) (reads : List Read)
    (he : Ends reads) (out : Buf) (missing : Bytes)
    (hf : ∀ f ∈ frames, RoundTrips env f.body ∧ (enc f).length < 2 ^ 32)
    (hout : encodeAll slack frames ⟨[], 0, Nat.le_refl _⟩ = .ok out)
    (hd : out.data = delivered reads ++ missing) :
    ∃ got lost, frames = got ++ lost ∧
      ((delivered reads = got.flatMap enc ∧ ∀ n, got.length + blocks reads < n →
        readFrames env (SaslFrame.decode env) n reads = (got, some .done)) ∨
      ∃ f t part, lost = f :: t ∧ part ≠ [] ∧ part.length < (enc f).length ∧
        delivered reads = got.flatMap enc ++ part ∧
        ∀ n, got.length + blocks reads < n →
          readFrames env (SaslFrame.decode env) n reads = (got, some .bytesRemaining)) :=
  cut_read env _ slack frames reads he out missing
    (fun f hm => by
      have hs := LawfulEnc.size_eq f.body
      rw [saslFrame_enc, List.length_append, frameHeader_length]
      show _ ≤ headerLen + size f.body
      rw [hs]
      exact Nat.le_refl _)
    (fun f hm => by
      obtain ⟨h1, h3⟩ := hf f hm
      exact ⟨(C26_sasl env f h1).2 h3, (C26_sasl env f h1).1⟩)
    hout hd

/-! ## Cases -/

/-- A heartbeat arrives in two pieces, with a pause, and the stream ends after it. -/
example : readFrames debugEnv (AmqpFrame.decode debugEnv) 3
    [.bytes [0, 0, 0, 8, 2], .wouldBlock, .bytes [0, 0, 1], .bytes []] =
      ([⟨1, .Empty⟩], some .done) := rfl
/-- Two heartbeats have arrived and no more is read: both are yielded. -/
example : (readFrames debugEnv (AmqpFrame.decode debugEnv) 2
    [.bytes [0, 0, 0, 8, 2, 0, 0, 1, 0, 0, 0, 8, 2, 0, 0, 2]]).1 = [⟨1, .Empty⟩, ⟨2, .Empty⟩] := rfl
/-- The second of two heartbeats is cut, in its length or after it. -/
example : readFrames debugEnv (AmqpFrame.decode debugEnv) 2
    [.bytes [0, 0, 0, 8, 2, 0, 0, 1, 0, 0], .bytes []] =
      ([⟨1, .Empty⟩], some .bytesRemaining) := rfl
example : readFrames debugEnv (AmqpFrame.decode debugEnv) 2
    [.bytes [0, 0, 0, 8, 2, 0, 0, 1], .bytes [0, 0, 0, 12, 3, 0, 0, 1, 7], .bytes []] =
      ([⟨1, .Empty⟩], some .bytesRemaining) := rfl
/-- By the theorem: not without an error, whatever is polled. -/
example (items : List AmqpFrame) (n : Nat) : readFrames debugEnv (AmqpFrame.decode debugEnv) n
    [.bytes [0, 0, 0, 8, 2, 0, 0], .bytes []] ≠ (items, some .done) := fun h => by
  have := (C82_clean_amqp debugEnv [.bytes [0, 0, 0, 8, 2, 0, 0], .bytes []] (by simp [Ends])
    (by decide) items).1 ⟨n, h⟩
  obtain ⟨ws, h1, -, h3⟩ := this
  cases ws with
  | nil => simp [delivered] at h1
  | cons w ws =>
    have h8 := (h3 w (by simp)).1.1
    have := congrArg List.length h1
    simp [delivered] at this
    omega
/-- The pieces of two protocol headers, the second cut. -/
example : readHeaders 2 [.bytes [0x41, 0x4d, 0x51], .bytes [0x50, 0, 1, 0, 0, 0x41], .bytes []] =
    ([.Amqp], some .bytesRemaining) := rfl
example : readHeaders 2 [.bytes [0x41, 0x4d, 0x51], .bytes [0x50, 3, 1, 0, 0], .bytes []] =
    ([.AmqpSasl], some .done) := rfl
/-- Frames sent and cut: the hypotheses of `C82_cut_amqp` hold, and the cut is noticed. -/
example : ∃ out, encodeAll (fun _ _ => 0) [(⟨1, .Empty⟩ : AmqpFrame), ⟨5, .Empty⟩]
      ⟨[], 0, Nat.le_refl _⟩ = .ok out ∧
    out.data = delivered [.bytes [0, 0, 0, 8, 2, 0, 0, 1, 0], .bytes []] ++ [0, 0, 8, 2, 0, 0, 5] :=
  ⟨_, rfl, rfl⟩
/-- Not covered: who goes on after an error may take a cut stream for one that ended.  The
codec keeps the length of the frame that failed (`src/io.rs:64-78`), here four bytes, and the
four bytes of the next length, all that arrived of it, are taken for a frame that fails too;
then nothing is left. -/
example : ((codecDecode debugEnv (AmqpFrame.decode debugEnv) .frameHeader
      [0, 0, 0, 8, 1, 0, 0, 1, 0, 0, 0, 8]).answer = .err (.parse .invalidSize)) ∧
    (Reader.mk (.frame 4) [0, 0, 0, 8] true true).run
      (frameCodec debugEnv (AmqpFrame.decode debugEnv)) 1 [] =
        ([], some (.failed (.parse .invalidSize))) ∧
    (Reader.mk (.frame 4) [] true true).run
      (frameCodec debugEnv (AmqpFrame.decode debugEnv)) 1 [] = ([], some .done) :=
  ⟨rfl, rfl, rfl⟩

end Amqp
