import Verif.Proofs.CrashLists
import Verif.Proofs.LenientFrames
import Verif.Proofs.PanicFrames
/-!
# What makes a decoder panic: frames, streams and messages

Support for C84.
-/
set_option autoImplicit false
namespace Amqp
open Dec
open Standard (Rep)
variable {env : Env}

theorem faults_withBody {C : Fault} (h : Faults (TransferPerf.decInner env) C) :
    Faults (Transfer.decInner env) C := by
  intro i p
  rw [← h i p]
  show (TransferPerf.decInner env >>= Transfer.withBody) i = .panic p ↔ _
  rw [bind_eq_panic]
  refine ⟨fun h => h.resolve_right ?_, .inl⟩
  rintro ⟨r, t, -, h⟩
  unfold Transfer.withBody at h
  split at h <;> cases h

theorem panics_transferBody : PanicsOn Transfer env (Crash.transfer env) :=
  faults_described (env := env) (by decide) (by decide)
    (faults_withBody (faults_inner (α := TransferPerf) ports_transfer)) _ (fun p h => by cases h)
    fun f t => rfl

/-! ## Bodies of frames -/

theorem panics_frameBody : Faults (Frame.decode env) (Crash.frameBody env) := by
  obtain ⟨m0, m1, m2, m3, m4, m5, m6, m7, m8⟩ := C24_frame_members
  intro i q
  constructor
  · intro h
    cases i with
    | nil => cases h
    | cons c t =>
      obtain ⟨rfl, e, he, u, p, d, rfl, hd, hi⟩ := union_panics (dec := Frame.decode) C24_frame_others
        (disp := Frame.dispatch) (fun _ => rfl) h
      simp only [List.mem_cons, List.not_mem_nil, or_false] at he
      rcases he with rfl | rfl | rfl | rfl | rfl | rfl | rfl | rfl | rfl
      · exact .inl ((alternative_panics m0 panics_opening hd hi).1 h)
      · exact .inr (.inl ((alternative_panics m1 panics_beginning hd hi).1 h))
      · exact .inr (.inr (.inl ((alternative_panics m2 panics_attach hd hi).1 h)))
      · exact .inr (.inr (.inr (.inl ((alternative_panics m3 panics_flow hd hi).1 h))))
      · exact .inr (.inr (.inr (.inr (.inl ((alternative_panics m4 panics_transferBody hd hi).1 h)))))
      · exact .inr (.inr (.inr (.inr (.inr (.inl ((alternative_panics m5 panics_disposition hd hi).1 h))))))
      · exact .inr (.inr (.inr (.inr (.inr (.inr (.inl ((alternative_panics m6 panics_detach hd hi).1 h)))))))
      · exact .inr (.inr (.inr (.inr (.inr (.inr (.inr (.inl ((alternative_panics m7 panics_ending hd hi).1 h))))))))
      · exact .inr (.inr (.inr (.inr (.inr (.inr (.inr (.inr ((alternative_panics m8 panics_close hd hi).1 h))))))))
  · rintro (h | h | h | h | h | h | h | h | h)
    · exact member_panics m0 (by decide) (by decide) panics_opening h
    · exact member_panics m1 (by decide) (by decide) panics_beginning h
    · exact member_panics m2 (by decide) (by decide) panics_attach h
    · exact member_panics m3 (by decide) (by decide) panics_flow h
    · exact member_panics m4 (by decide) (by decide) panics_transferBody h
    · exact member_panics m5 (by decide) (by decide) panics_disposition h
    · exact member_panics m6 (by decide) (by decide) panics_detach h
    · exact member_panics m7 (by decide) (by decide) panics_ending h
    · exact member_panics m8 (by decide) (by decide) panics_close h

/-! ## Frames -/

theorem frame_iff {type : UInt8} {C : Fault} {p : Panic} {i : Bytes} :
    Crash.frame type C p i ↔ ∃ ch body, FrameLayout i type ch body ∧ C p body := by
  constructor
  · rintro ⟨c0, c1, hd, hC⟩
    refine ⟨UInt16.ofNat (256 * c0.toNat + c1.toNat), _, ⟨_, c0, c1, _, rfl, by omega, ?_⟩, hC⟩
    have := c0.toNat_lt
    have := c1.toNat_lt
    simp only [UInt16.toNat_ofNat']
    omega
  · rintro ⟨ch, body, ⟨doff, c0, c1, ext, rfl, hd, -⟩, hC⟩
    exact .mk c0 c1 (by omega) hC

theorem panics_amqpFrame : Faults (AmqpFrame.decode env) (Crash.frame 0x00 (Crash.frameBody env)) := by
  intro i p
  rw [frame_iff]
  constructor
  · intro h
    rcases bind_eq_panic.1 h with h1 | ⟨r, c, h1, h2⟩
    · exact absurd h1 frameHeader_panic
    · rcases bind_eq_panic.1 h2 with h3 | ⟨r', f, -, h4⟩
      · exact ⟨c, r, decodeFrameHeader_ok h1, (panics_frameBody _ _).1 h3⟩
      · cases h4
  · rintro ⟨ch, body, hl, hC⟩
    rw [C25_amqp env _ _ _ hl, (panics_frameBody _ _).2 hC]

theorem panics_saslFrame : Faults (SaslFrame.decode env) (Crash.frame 0x01 (Crash.saslBody env)) := by
  intro i p
  rw [frame_iff]
  constructor
  · intro h
    rcases bind_eq_panic.1 h with h1 | ⟨r, c, h1, h2⟩
    · exact absurd h1 frameHeader_panic
    · rcases bind_eq_panic.1 h2 with h3 | ⟨r', f, -, h4⟩
      · exact ⟨c, r, decodeFrameHeader_ok h1, (panics_saslBody _ _).1 h3⟩
      · cases h4
  · rintro ⟨ch, body, hl, hC⟩
    rw [C25_sasl env _ _ _ hl, (panics_saslBody _ _).2 hC]

/-! ## Streams -/

section
variable {T : Type} {dec : Dec T} {type : UInt8} {C : Fault}

theorem frameStep_panic {n : Nat} {src : Bytes} {p : Panic} :
    (frameStep dec n src).answer = .panic p ↔ n ≤ src.length ∧ dec (src.take n) = .panic p := by
  unfold frameStep
  by_cases h : src.length < n
  · rw [if_pos h]
    exact ⟨nofun, fun g => by omega⟩
  rw [if_neg h]
  have h : n ≤ src.length := by omega
  simp only [h, true_and]
  cases dec (src.take n) with
  | err e => simp
  | panic e => simp
  | ok q =>
    obtain ⟨r, a⟩ := q
    cases r <;> simp

/-- One call of the codec that has read the size before. -/
theorem panics_pending (h : Faults dec (Crash.frame type C)) (n : Nat) (src : Bytes) (p : Panic) :
    (codecDecode env dec (.frame n) src).answer = .panic p ↔
      ∃ f rest, src = f ++ rest ∧ f.length = n ∧ Crash.frame type C p f := by
  show (frameStep dec n src).answer = _ ↔ _
  rw [frameStep_panic, h _ p]
  constructor
  · rintro ⟨hn, hC⟩
    exact ⟨_, src.drop n, (List.take_append_drop _ _).symm, by rw [List.length_take]; omega, hC⟩
  · rintro ⟨f, rest, rfl, rfl, hC⟩
    rw [List.take_left]
    exact ⟨by simp, hC⟩

/-- One call of the codec. -/
theorem panics_stream (h : Faults dec (Crash.frame type C)) (src : Bytes) (hl : src.length < 2 ^ 63)
    (p : Panic) : (codecDecode env dec .frameHeader src).answer = .panic p ↔
      Crash.stream env type C p src := by
  constructor
  · intro hc
    unfold codecDecode headerLen at hc
    simp only at hc
    by_cases c1 : src.length < 8
    · rw [if_pos c1] at hc; cases hc
    rw [if_neg c1] at hc
    have hs : src = src.take 4 ++ src.drop 4 := (List.take_append_drop _ _).symm
    have hn : ∀ k, beDec (src.take 4) = k → Num 4 (src.take 4) k := fun k hk =>
      ⟨by rw [List.length_take]; omega, by rw [unsigned_eq, hk]⟩
    by_cases c2 : beDec (src.take 4) < 4 ∧ env.overflowChecks = true
    · rw [if_pos c2] at hc
      cases hc
      rw [hs]
      exact .size _ c2.2 (hn _ rfl) c2.1 (by rw [List.length_drop]; omega)
    rw [if_neg c2] at hc
    by_cases c3 : src.length < beDec (src.take 4)
    · rw [if_pos c3] at hc; cases hc
    rw [if_neg c3] at hc
    obtain ⟨h1, h2⟩ := frameStep_panic.1 hc
    rw [List.length_drop] at h1
    by_cases c4 : beDec (src.take 4) < 4
    · rw [if_pos c4] at h1; omega
    rw [if_neg c4] at h1 h2
    have := Crash.stream.frame (env := env) (s := src.take 4) ((src.drop 4).drop (beDec (src.take 4) - 4))
      (hn _ (by rw [List.length_take, List.length_drop]; omega)) ((h _ _).1 h2)
    rwa [List.take_append_drop, List.take_append_drop] at this
  · intro hC
    unfold codecDecode headerLen
    simp only
    cases hC with
    | @size s k rest ho hs hk hr =>
      rw [if_neg (by rw [List.length_append, hs.1]; omega), List.take_left' hs.1]
      have : beDec s < 4 := by rw [← unsigned_eq, hs.2]; exact hk
      rw [if_pos ⟨this, ho⟩]
    | @frame p s f rest hs hf =>
      have hf4 : 4 ≤ f.length := by
        obtain ⟨ch, body, hb, -⟩ := frame_iff.1 hf
        obtain ⟨_, _, _, _, rfl, _⟩ := hb.parts
        simp only [List.length_cons]; omega
      have hb : beDec s = 4 + f.length := by rw [← unsigned_eq, hs.2]
      rw [if_neg (by simp only [List.length_append, hs.1]; omega), List.take_left' hs.1,
        List.drop_left' hs.1, hb, if_neg (by omega),
        if_neg (by simp only [List.length_append, hs.1]; omega), if_neg (by omega),
        show 4 + f.length - 4 = f.length by omega, frameStep_panic, List.take_left]
      exact ⟨by simp, (h _ _).2 hf⟩

/-- A stream, however it arrives. -/
theorem panics_arrivals {F : Rep T} (ht : TakesFrames env dec F) (h : Faults dec (Crash.frame type C))
    (chunks : List Bytes) (hl : chunks.flatten.length < 2 ^ 63) (p : Panic) (l : List T) :
    ((receive env dec .frameHeader [] chunks).1 = l ∧
      (receive env dec .frameHeader [] chunks).2.answer = .panic p) ↔
      ∃ (ws : List (T × Bytes)) (rest : Bytes), chunks.flatten = ws.flatMap Prod.snd ++ rest ∧
        (∀ w ∈ ws, F w.1 w.2) ∧ l = ws.map Prod.fst ∧ Crash.stream env type C p rest := by
  rw [receive_eq, List.nil_append]
  generalize chunks.flatten = src at hl
  constructor
  · rintro ⟨rfl, hp⟩
    obtain ⟨ws, rest, h1, h2, h3, -⟩ := drain_split ht src hl
    rw [h3] at hp ⊢
    refine ⟨ws, rest, h1, h2, rfl, (panics_stream h rest ?_ p).1 hp⟩
    rw [h1, List.length_append] at hl
    omega
  · rintro ⟨ws, rest, rfl, hw, rfl, hC⟩
    suffices hd : drain env dec .frameHeader (ws.flatMap Prod.snd ++ rest) =
        (ws.map Prod.fst, codecDecode env dec .frameHeader rest) by
      rw [hd]
      refine ⟨rfl, (panics_stream h rest ?_ p).2 hC⟩
      rw [List.length_append] at hl
      omega
    induction ws with
    | nil =>
      refine drain_stop fun a ha => ?_
      have := (panics_stream h rest hl p).2 hC
      rw [List.flatMap_nil, List.nil_append] at ha
      rw [ha] at this
      cases this
    | cons w ws ih =>
      rw [List.flatMap_cons, List.append_assoc] at hl ⊢
      have h1 := (ht _ _ w.1 hl).2 ⟨w.2, rfl, hw w (by simp)⟩
      rw [drain_some h1, ih (by rw [List.length_append] at hl; omega) fun q hq => hw q (by simp [hq])]
      rfl

end

/-! ## Messages -/

theorem panics_message {AP : Type} (conv : StringVariantMap → AP) :
    Faults (Message.decodeWith env conv) (Crash.message env) := by
  rw [Message.decodeWith_eq]
  suffices h : ∀ (m : Message AP) (i : Bytes) (p : Panic),
      Message.resume env conv m i = .panic p ↔ Crash.message env p i from h _
  intro m i
  induction hn : i.length using Nat.strongRecOn generalizing i m with
  | ind n ih =>
    intro p
    rw [Message.resume_eq]
    constructor
    · intro h
      cases hd : decode Section env i with
      | err e => rw [hd] at h; cases h
      | panic q =>
        rw [hd] at h
        injection h with h; subst h
        exact .mk [] (by simp) ((panics_messageSection _ _).1 hd)
      | ok q =>
        obtain ⟨buf, sec⟩ := q
        rw [hd] at h
        simp only at h
        have hp := progress_decode (fun fmt => LawfulDec.loc env fmt) _ _ _ hd
        obtain ⟨w, rfl, hw⟩ := loc_decode env _ _ _ hd
        split at h
        · cases h
        · have := (ih buf.length (by omega) _ buf rfl p).1 h
          cases this with
          | mk good hg ht =>
            have hw : Lenient.messageSection (.lenient env) sec w :=
              (Takes.reads accepts_messageSection).1 hw
            have := Crash.message.mk (env := env) ((sec, w) :: good) (by
              intro g hg'
              rcases List.mem_cons.1 hg' with rfl | hg'
              · exact hw
              · exact hg g hg') ht
            rwa [List.flatMap_cons, List.append_assoc] at this
    · intro h
      cases h with
      | @mk good p tail hg ht =>
        cases good with
        | nil =>
          rw [List.flatMap_nil, List.nil_append, (panics_messageSection _ _).2 ht]
        | cons g good =>
          have hr := accepts_messageSection.means (hg g (by simp))
          have hb := hr (good.flatMap Prod.snd ++ tail)
          have hb' : decode Section env (g.2 ++ (good.flatMap Prod.snd ++ tail)) =
            .ok (good.flatMap Prod.snd ++ tail, g.1) := hb
          rw [List.flatMap_cons, List.append_assoc, hb']
          simp only
          have htne : tail ≠ [] := by
            rintro rfl
            have := (panics_messageSection (env := env) _ _).2 ht
            cases this
          rw [if_neg (by simp [htne])]
          have hp := progress_decode (fun fmt => LawfulDec.loc env fmt) _ _ _ hb'
          refine (ih _ ?_ _ _ rfl p).2 (.mk good (fun q hq => hg q (by simp [hq])) ht)
          rw [← hn, List.flatMap_cons, List.append_assoc]
          exact hp

end Amqp
