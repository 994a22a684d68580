import Verif.Proofs.CutLaws
import Verif.Proofs.MessageLaws
import Verif.Protocol.Frame
/-!
# C56: input that ends too early
-/
set_option autoImplicit false
namespace Amqp
open Dec

/-! ### Types that always ask for more -/

/-- **C56**: scalars, strings, symbols, descriptors and message ids. -/
theorem C56_scalars :
    AsksForMore Bool ∧ AsksForMore UInt8 ∧ AsksForMore UInt16 ∧ AsksForMore UInt32 ∧
    AsksForMore UInt64 ∧ AsksForMore Int8 ∧ AsksForMore Int16 ∧ AsksForMore Int32 ∧
    AsksForMore Int64 ∧ AsksForMore F32 ∧ AsksForMore F64 ∧ AsksForMore Char ∧
    AsksForMore DateTime ∧ AsksForMore Uuid ∧ AsksForMore Binary ∧ AsksForMore Str ∧
    AsksForMore Symbol ∧ AsksForMore Descriptor ∧ AsksForMore MessageId :=
  ⟨CutDec.asks, CutDec.asks, CutDec.asks, CutDec.asks, CutDec.asks, CutDec.asks, CutDec.asks,
   CutDec.asks, CutDec.asks, CutDec.asks, CutDec.asks, CutDec.asks, CutDec.asks, CutDec.asks,
   CutDec.asks, CutDec.asks, CutDec.asks, CutDec.asks, CutDec.asks⟩

/-- **C56**: the restricted types. -/
theorem C56_enumerations :
    AsksForMore Role ∧ AsksForMore SenderSettleMode ∧ AsksForMore ReceiverSettleMode ∧
    AsksForMore AmqpError ∧ AsksForMore ConnectionError ∧ AsksForMore SessionError ∧
    AsksForMore LinkError ∧ AsksForMore SaslCode ∧ AsksForMore TerminusDurability ∧
    AsksForMore TerminusExpiryPolicy ∧ AsksForMore ErrorCondition ∧ AsksForMore DistributionMode :=
  ⟨CutDec.asks, CutDec.asks, CutDec.asks, CutDec.asks, CutDec.asks, CutDec.asks, CutDec.asks,
   CutDec.asks, CutDec.asks, CutDec.asks, CutDec.asks, CutDec.asks⟩

/-- **C56**: the described lists and their unions, whatever their fields hold. -/
theorem C56_lists :
    (AsksForMore Open ∧ AsksForMore Begin ∧ AsksForMore Attach ∧ AsksForMore Flow ∧
     AsksForMore Disposition ∧ AsksForMore Detach ∧ AsksForMore End ∧ AsksForMore Close ∧
     AsksForMore TransferPerf) ∧
    (AsksForMore SaslMechanisms ∧ AsksForMore SaslInit ∧ AsksForMore SaslChallenge ∧
     AsksForMore SaslResponse ∧ AsksForMore SaslOutcome ∧ AsksForMore SaslFrameBody) ∧
    (AsksForMore Error ∧ AsksForMore Source ∧ AsksForMore Target ∧ AsksForMore Received ∧
     AsksForMore Accepted ∧ AsksForMore Rejected ∧ AsksForMore Released ∧ AsksForMore Modified ∧
     AsksForMore DeliveryState ∧ AsksForMore Outcome) ∧
    (AsksForMore Header ∧ AsksForMore Properties) :=
  ⟨⟨CutDec.asks, CutDec.asks, CutDec.asks, CutDec.asks, CutDec.asks, CutDec.asks, CutDec.asks,
    CutDec.asks, CutDec.asks⟩,
   ⟨CutDec.asks, CutDec.asks, CutDec.asks, CutDec.asks, CutDec.asks, CutDec.asks⟩,
   ⟨CutDec.asks, CutDec.asks, CutDec.asks, CutDec.asks, CutDec.asks, CutDec.asks, CutDec.asks,
    CutDec.asks, CutDec.asks, CutDec.asks⟩,
   ⟨CutDec.asks, CutDec.asks⟩⟩

/-- **C56**: a type that may be null inherits this from the type. -/
theorem C56_option {α : Type} [DecodeF α] (h : AsksForMore α) : AsksForMore (Option α) := by
  intro env i r v hd p q e hl
  cases p with
  | nil => exact ⟨1, rfl, by
      obtain ⟨c, t, rfl, -⟩ := decode_ok hd
      simp⟩
  | cons c p =>
    subst e
    have hd' : decF (α := Option α) env c (p ++ q) = .ok (r, v) := hd
    show ∃ n, decF (α := Option α) env c p = .err (.incomplete n) ∧ n ≤ _
    by_cases hc : c = FC.null
    · exfalso
      simp only [decF, if_pos hc, run_pure, Res.ok.injEq, Prod.mk.injEq] at hd'
      rw [← hd'.1, List.length_append] at hl
      omega
    · have hs : ∀ i, decF (α := Option α) env c i = (some <$> decF (α := α) env c : Dec _) i := by
        intro i; simp only [decF, if_neg hc]
      rw [hs] at hd' ⊢
      obtain ⟨a, ha, rfl⟩ := map_eq_ok.1 hd'
      obtain ⟨n, hn, hle⟩ := h env (c :: (p ++ q)) r a ha (c :: p) q rfl hl
      have hn' : decF (α := α) env c p = .err (.incomplete n) := hn
      exact ⟨n, by rw [run_map, hn'], hle⟩

/-- A challenge, whole and cut off after six of its eight bytes. -/
example : decode SaslChallenge debugEnv [0x00, 0x53, 0x42, 0xc0, 3, 1, 0xa0, 0] =
      .ok ([], ⟨⟨[]⟩⟩) ∧
    decode SaslChallenge debugEnv [0x00, 0x53, 0x42, 0xc0, 3, 1] = .err (.incomplete 2) :=
  ⟨by rfl, by rfl⟩

/-! ### Values -/

/-- **C56**: a value without maps; the hypothesis is about the value that the
whole input holds. -/
theorem C56_variant (env : Env) (input rest got missing : Bytes) (v : Variant)
    (h : decode Variant env input = .ok (rest, v)) (e : input = got ++ missing)
    (hl : rest.length < missing.length) :
    (∃ n, decode Variant env got = .err (.incomplete n) ∧ n ≤ input.length) ∨
    (v.holdsMap = true ∧ decode Variant env got = .panic .sliceIndex) :=
  cuts_decode env (fun f => cuts_variant env _ f) input rest v h got missing e hl

/-- **C56**: compound values of every kind ask for more or panic; they never
report another error and never decode to something else. -/
theorem C56_compound_partial :
    AsksForMoreOrPanics Variant ∧ AsksForMoreOrPanics VList ∧
    (∀ (α : Type) [DecodeF α] [LawfulDec α] [SliceDec α], AsksForMoreOrPanics (Vec α) ∧
      AsksForMoreOrPanics (Multiple α)) ∧
    (∀ (K V : Type) [HKey K] [DecodeF K] [DecodeF V], AsksForMoreOrPanics (HMap K V)) ∧
    AsksForMoreOrPanics VecVariantMap ∧ AsksForMoreOrPanics Section :=
  ⟨SliceDec.asks, SliceDec.asks, fun _ => ⟨SliceDec.asks, SliceDec.asks⟩, fun _ _ => SliceDec.asks,
   SliceDec.asks, SliceDec.asks⟩

example : AsksForMoreOrPanics (Vec Symbol) ∧ AsksForMoreOrPanics (Multiple (Option Symbol)) :=
  ⟨SliceDec.asks, SliceDec.asks⟩

/-- What C56 should say of all types. -/
def C56_statement : Prop :=
  AsksForMore Variant ∧ AsksForMore (Vec Symbol) ∧ AsksForMore VecVariantMap

/-- **C56**: a map whose body has not arrived panics. -/
theorem C56_violated_map : ¬ AsksForMore Variant := by
  intro h
  obtain ⟨n, hn, -⟩ := h debugEnv [0xc1, 3, 2, 0x40, 0x40] [] (.map [(.null, .null)]) (by rfl)
    [0xc1, 3, 2] [0x40, 0x40] rfl (by decide)
  have : decode Variant debugEnv [0xc1, 3, 2] = .panic .sliceIndex := by rfl
  rw [this] at hn
  cases hn

/-- **C56**: so does an array whose element type has not arrived. -/
theorem C56_violated_array : ¬ AsksForMore (Vec Symbol) := by
  intro h
  obtain ⟨n, hn, -⟩ := h debugEnv [0xe0, 4, 1, 0xa3, 1, 97] [] ⟨[⟨.lit "a"⟩]⟩ (by rfl)
    [0xe0, 4, 1] [0xa3, 1, 97] rfl (by decide)
  have : decode (Vec Symbol) debugEnv [0xe0, 4, 1] = .panic .sliceIndex := by rfl
  rw [this] at hn
  cases hn

/-- **C56**: the full statement is false. -/
theorem C56_violated : ¬ C56_statement := fun h => C56_violated_map h.1

/-! ### Frames and messages -/

/-- The frame decodes from a beginning of its encoding only if it is a transfer
whose payload was cut. -/
def PayloadCut (missing : Bytes) (f : Frame) (got : Res ParseError (Bytes × Frame)) : Prop :=
  ∃ (t : TransferPerf) (b : Bytes), f = .Transfer { t with body := some (.Data ⟨b ++ missing⟩) } ∧
    got = .ok ([], .Transfer { t with body := if b = [] then none else some (.Data ⟨b⟩) })

/-- `d` reports `Incomplete` or yields the transfer with less payload. -/
def FrameCut (d : Dec Frame) : Prop :=
  ∀ i r a, d i = .ok (r, a) → ∀ p q, i = p ++ q → r.length < q.length →
    (∃ n, d p = .err (.incomplete n) ∧ n ≤ i.length) ∨ PayloadCut q a (d p)

theorem FrameCut.of {d : Dec Frame} (h : Cuts (Never Frame) d) : FrameCut d :=
  fun i r a hd p q e hl => (h i r a hd p q e hl).imp id fun k => k.1.elim

theorem FrameCut.ite {c : Prop} [Decidable c] {d e : Dec Frame} (hd : FrameCut d)
    (he : FrameCut e) : FrameCut (if c then d else e) := by split <;> assumption

theorem FrameCut.seq {α : Type} {d : Dec α} {f : α → Dec Frame} (hd : Cuts (Never α) d)
    (ld : Local d) (hf : ∀ a, FrameCut (f a)) : FrameCut (d >>= f) := by
  intro i r b h p q e hl
  obtain ⟨s, a, h1, h2⟩ := bind_eq_ok.1 h
  obtain ⟨u, hu, k⟩ := ld _ _ _ h1
  by_cases hs : s.length < q.length
  · rcases hd i s a h1 p q e hs with ⟨n, hn, hle⟩ | ⟨hp, -⟩
    · exact .inl ⟨n, bind_err hn, hle⟩
    · exact hp.elim
  · have he : u ++ s = p ++ q := hu.symm.trans e
    have hlen : u.length + s.length = p.length + q.length := by
      simpa using congrArg List.length he
    have hu' : u = (p ++ q).take u.length := by rw [← he]; simp
    have hp : p = u ++ p.drop u.length := by
      rw [List.take_append_of_le_length (by omega)] at hu'
      conv => lhs; rw [← List.take_append_drop u.length p, ← hu']
    generalize p.drop u.length = s' at hp
    subst hp
    have hs' : s = s' ++ q := by
      rw [List.append_assoc] at he; exact List.append_cancel_left he
    subst hs'
    rw [bind_ok (k s')]
    rcases hf a _ _ _ h2 s' q rfl hl with ⟨n, hn, hle⟩ | hp
    · refine .inl ⟨n, hn, Nat.le_trans hle ?_⟩
      rw [hu]; simp
    · exact .inr hp

theorem frameCut_transfer (env : Env) : FrameCut (Frame.Transfer <$> Transfer.decInner env) := by
  have : (Frame.Transfer <$> Transfer.decInner env : Dec Frame) =
      TransferPerf.decInner env >>= fun t => Frame.Transfer <$> Transfer.withBody t := by
    unfold Transfer.decInner
    rw [map_eq_pure_bind, bind_assoc]
    rfl
  rw [this]
  refine FrameCut.seq (cuts_listInner _ _) (local_listInner _ _) fun t => ?_
  intro i r a h p q e hl
  obtain ⟨x, hx, rfl⟩ := map_eq_ok.1 h
  unfold Transfer.withBody at hx
  split at hx
  · rename_i hi
    cases hx
    have := List.isEmpty_iff.1 hi
    subst this
    have hq : q = [] := (List.append_eq_nil_iff.1 e.symm).2
    subst hq
    simp at hl
  · cases hx
    refine .inr ⟨t, p, by rw [e], ?_⟩
    rw [run_map]
    unfold Transfer.withBody
    cases p with
    | nil => rfl
    | cons b t => rfl

/-- **C56**: the body of an AMQP frame.  Cut off inside the performative it asks
for more, cut off in the payload of a transfer it decodes with less payload. -/
theorem C56_frame (env : Env) (input rest got missing : Bytes) (f : Frame)
    (h : Frame.decode env input = .ok (rest, f)) (e : input = got ++ missing)
    (hg : got ≠ []) (hl : rest.length < missing.length) :
    (∃ n, Frame.decode env got = .err (.incomplete n) ∧ n ≤ input.length) ∨
    PayloadCut missing f (Frame.decode env got) := by
  have key : FrameCut (do
      let fmt ← formatCode
      validateCode fmt FC.described (Amqp.decode Descriptor env >>= Frame.dispatch env)) := by
    refine FrameCut.seq Cuts.readU8 Local.readU8 fun c => FrameCut.ite (FrameCut.of (Cuts.fail _)) ?_
    refine FrameCut.seq (cuts_decode env (CutDec.cut env)) (loc_decode env) fun d => ?_
    unfold Frame.dispatch
    repeat' apply FrameCut.ite
    all_goals first
      | exact FrameCut.of (Cuts.fail _)
      | exact frameCut_transfer env
      | exact FrameCut.of (Cuts.inner _ (cuts_listInner _ _))
  have hi : input ≠ [] := by rintro rfl; exact hg (List.append_eq_nil_iff.1 e.symm).1
  unfold Frame.decode at h ⊢
  rw [if_neg (by simpa using hi)] at h
  rw [if_neg (by simpa using hg)]
  exact key input rest f h got missing e hl

/-- **C56**: an empty frame body is a heartbeat, so nothing can be cut off
completely. -/
theorem C56_frame_nothing (env : Env) : Frame.decode env [] = .ok ([], .Empty) := rfl

/-- **C56**: a message.  Cut off between two sections it decodes to the message
of the first sections; otherwise the decoder asks for more, or panics as for
compound values. -/
theorem C56_message_partial {AP : Type} (env : Env) (conv : StringVariantMap → AP)
    (input rest got missing : Bytes) (m : Message AP)
    (h : Message.decodeWith env conv input = .ok (rest, m)) (e : input = got ++ missing)
    (hl : missing ≠ []) :
    (∃ n, Message.decodeWith env conv got = .err (.incomplete n) ∧ n ≤ input.length) ∨
    Message.decodeWith env conv got = .panic .sliceIndex ∨
    ∃ (r : Bytes) (first more : List Section), first ≠ [] ∧ more ≠ [] ∧
      m = (first ++ more).foldl (Message.addSection conv) .empty ∧
      Message.decodeWith env conv got =
        .ok (r, first.foldl (Message.addSection conv) .empty) := by
  have key : ∀ (k : Nat) (input got : Bytes) (m0 m : Message AP) (rest : Bytes),
      input.length = k → Message.resume env conv m0 input = .ok (rest, m) →
      input = got ++ missing →
      (∃ n, Message.resume env conv m0 got = .err (.incomplete n) ∧ n ≤ input.length) ∨
      Message.resume env conv m0 got = .panic .sliceIndex ∨
      ∃ (r : Bytes) (first more : List Section), first ≠ [] ∧ more ≠ [] ∧
        m = (first ++ more).foldl (Message.addSection conv) m0 ∧
        Message.resume env conv m0 got = .ok (r, first.foldl (Message.addSection conv) m0) := by
    intro k
    induction k using Nat.strongRecOn with
    | ind k ih =>
      intro input got m0 m rest hk h e
      obtain ⟨ws, l, hws, hi, -, hm⟩ := Message.resume_ok conv input m0 rest m h
      rw [Message.resume_eq] at h ⊢
      cases hd : decode Section env input with
      | err x => rw [hd] at h; cases h
      | panic x => rw [hd] at h; cases h
      | ok x =>
        obtain ⟨buf, sec⟩ := x
        rw [hd] at h
        simp only at h
        by_cases hb : buf.length < missing.length
        · rcases SliceDec.asks env input buf sec hd got missing e hb with ⟨n, hn, hle⟩ | hn
          · exact .inl ⟨n, by rw [hn], hle⟩
          · exact .inr (.inl (by rw [hn]))
        · obtain ⟨w, hw, hr⟩ := loc_decode env _ _ _ hd
          have hlen : w.length + buf.length = got.length + missing.length := by
            simpa using congrArg List.length (hw.symm.trans e)
          have hg : got = w ++ got.drop w.length := by
            have h1 : w = (got ++ missing).take w.length := by rw [← e, hw]; simp
            rw [List.take_append_of_le_length (by omega)] at h1
            conv => lhs; rw [← List.take_append_drop w.length got, ← h1]
          generalize got.drop w.length = s at hg
          have hs : buf = s ++ missing := by
            rw [hg, List.append_assoc] at e
            exact List.append_cancel_left (hw.symm.trans e)
          have hbne : buf.isEmpty = false := by
            rw [hs]; simp [hl]
          rw [hbne] at h
          simp only [Bool.false_eq_true, if_false] at h
          have hprog := progress_decode (fun fmt => LawfulDec.loc env fmt) _ _ _ hd
          obtain ⟨ws2, l2, -, -, -, hm2⟩ := Message.resume_ok conv buf _ rest m h
          rw [hg, hr s]
          simp only
          cases hse : s.isEmpty with
          | true =>
            simp only [if_true]
            refine .inr (.inr ⟨w ++ s, [sec], (ws2 ++ [l2]).map Prod.snd, by simp, by simp, ?_, rfl⟩)
            rw [List.foldl_append]; exact hm2
          | false =>
            simp only [Bool.false_eq_true, if_false]
            rcases ih buf.length (by omega) buf s (m0.addSection conv sec) m rest rfl h hs with
              ⟨n, hn, hle⟩ | hn | ⟨r, first, more, h1, h2, h3, h4⟩
            · exact .inl ⟨n, hn, by omega⟩
            · exact .inr (.inl hn)
            · exact .inr (.inr ⟨r, sec :: first, more, by simp, h2, by simpa using h3,
                by simpa using h4⟩)
  exact key input.length input got .empty m rest rfl h e

/-- **C56**: a message cut off between its sections is taken for complete. -/
theorem C56_violated_message :
    ∃ (input got missing rest : Bytes) (m : InMessage),
      InMessage.decode debugEnv input = .ok (rest, m) ∧ input = got ++ missing ∧ missing ≠ [] ∧
      m.data.length = 2 ∧
      ∃ r m', InMessage.decode debugEnv got = .ok (r, m') ∧ m'.data.length = 1 :=
  ⟨[0x00, 0x53, 0x75, 0xa0, 1, 7, 0x00, 0x53, 0x75, 0xa0, 1, 8], [0x00, 0x53, 0x75, 0xa0, 1, 7],
   [0x00, 0x53, 0x75, 0xa0, 1, 8], [0x00, 0x53, 0x75, 0xa0, 1, 8],
   { Message.empty with data := [⟨[7]⟩, ⟨[8]⟩] }, by rfl, rfl, by simp, rfl,
   [0x00, 0x53, 0x75, 0xa0, 1, 7], { Message.empty with data := [⟨[7]⟩] }, by rfl, rfl⟩

/-! ### The other direction -/

/-- **C56**: `Incomplete` does not mean that waiting helps: a list field longer
than its list is reported as incomplete whatever arrives. -/
theorem C56_violated_waiting (env : Env) (more : Bytes) :
    decode SaslChallenge env ([0x00, 0x53, 0x42, 0xc0, 3, 1, 0xa0, 5] ++ more) =
      .err (.incomplete 5) := by
  rfl

example : AsksForMore (Option Symbol) := C56_option C56_scalars.2.2.2.2.2.2.2.2.2.2.2.2.2.2.2.2.1
/-- A map of one entry, cut before its value: the slice is out of range. -/
example : (∃ n, decode Variant debugEnv [0xc1, 5, 2, 0xa3, 1, 97] = .err (.incomplete n) ∧ n ≤ 7) ∨
    (Variant.map [(.symbol ⟨.lit "a"⟩, .null)]).holdsMap = true ∧
      decode Variant debugEnv [0xc1, 5, 2, 0xa3, 1, 97] = .panic .sliceIndex :=
  C56_variant debugEnv [0xc1, 5, 2, 0xa3, 1, 97, 0x40] [] [0xc1, 5, 2, 0xa3, 1, 97] [0x40] _ rfl rfl (by decide)
example : ∃ f : Frame, (∃ n, Frame.decode debugEnv [0x00, 0x53, 0x11, 0xc0, 5, 4, 0x40, 0x43] = .err (.incomplete n) ∧ n ≤ 10) ∨
    PayloadCut [0x43, 0x43] f (Frame.decode debugEnv [0x00, 0x53, 0x11, 0xc0, 5, 4, 0x40, 0x43]) :=
  ⟨_, C56_frame debugEnv [0x00, 0x53, 0x11, 0xc0, 5, 4, 0x40, 0x43, 0x43, 0x43] [] _ _ _ rfl rfl (by decide) (by decide)⟩
/-- Two sections of data, cut inside the second and between them. -/
example : ∃ r m, InMessage.decode debugEnv [0x00, 0x53, 0x75, 0xa0, 1, 9, 0x00, 0x53, 0x75, 0xa0, 1, 8] =
      .ok (r, m) ∧ ∀ got missing, [0x00, 0x53, 0x75, 0xa0, 1, 9, 0x00, 0x53, 0x75, 0xa0, 1, 8] = got ++ missing →
    missing ≠ [] → (∃ n, Message.decodeWith debugEnv id got = .err (.incomplete n) ∧ n ≤ 12) ∨
      Message.decodeWith debugEnv id got = .panic .sliceIndex ∨
      ∃ (r : Bytes) (first more : List Section), first ≠ [] ∧ more ≠ [] ∧
        m = (first ++ more).foldl (Message.addSection id) .empty ∧
        Message.decodeWith debugEnv id got =
          .ok (r, first.foldl (Message.addSection id) .empty) :=
  ⟨_, _, rfl, fun got missing e h => C56_message_partial debugEnv id _ _ got missing _ rfl e h⟩

end Amqp
