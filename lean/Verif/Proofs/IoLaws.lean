import Verif.Spec.Stream
import Verif.Proofs.MessageLaws
/-!
# Laws of frames and codecs
-/
namespace Amqp
open Dec

section
variable {T : Type}

theorem frameStep_more {dec : Dec T} {n : Nat} {src more : Bytes} (h : n ≤ src.length) :
    frameStep dec n (src ++ more) =
      ⟨(frameStep dec n src).state, (frameStep dec n src).src ++ more,
        (frameStep dec n src).answer⟩ := by
  unfold frameStep
  rw [if_neg (by simp; omega), if_neg (by omega), List.take_append_of_le_length h,
    List.drop_append_of_le_length h]
  simp only
  cases dec (src.take n) with
  | ok q => simp only; split <;> rfl
  | err e => rfl
  | panic p => rfl

theorem frameStep_short {dec : Dec T} {n : Nat} {src : Bytes} (h : src.length < n) :
    frameStep dec n src = ⟨.frame n, src, .none⟩ := by
  unfold frameStep; rw [if_pos h]

theorem frameStep_answer {dec : Dec T} {n : Nat} {src : Bytes} :
    (frameStep dec n src).answer = .none ↔ src.length < n := by
  unfold frameStep
  split
  · simp [*]
  · simp only
    cases dec (src.take n) with
    | ok q => simp only; split <;> simp [*]
    | err e => simp [*]
    | panic p => simp [*]

/-- The header branch, once the length is known. -/
theorem codecDecode_header {env : Env} {dec : Dec T} {src : Bytes} (h8 : 8 ≤ src.length)
    (h4 : 4 ≤ beDec (src.take 4)) :
    codecDecode env dec .frameHeader src = frameStep dec (beDec (src.take 4) - 4) (src.drop 4) := by
  unfold codecDecode headerLen
  simp only
  rw [if_neg (by omega), if_neg (by omega), if_neg (show ¬ beDec (src.take 4) < 4 by omega)]
  split
  · rw [frameStep_short]
    simp only [List.length_drop]; omega
  · rfl

theorem codecDecode_wrap {env : Env} {dec : Dec T} {src : Bytes} (h8 : 8 ≤ src.length)
    (h4 : beDec (src.take 4) < 4) (he : env.overflowChecks = false) :
    codecDecode env dec .frameHeader src =
      frameStep dec (2 ^ 64 + beDec (src.take 4) - 4) (src.drop 4) := by
  unfold codecDecode headerLen
  simp only
  rw [if_neg (by omega), if_neg (by simp [he]), if_pos h4, if_neg (by omega)]

theorem codecDecode_abort {env : Env} {dec : Dec T} {src : Bytes} (h8 : 8 ≤ src.length)
    (h4 : beDec (src.take 4) < 4) (he : env.overflowChecks = true) :
    codecDecode env dec .frameHeader src = ⟨.frameHeader, src, .panic .overflow⟩ := by
  unfold codecDecode headerLen
  simp only
  rw [if_neg (by omega), if_pos ⟨h4, he⟩]

theorem codecDecode_wait {env : Env} {dec : Dec T} {src : Bytes} (h8 : src.length < 8) :
    codecDecode env dec .frameHeader src = ⟨.frameHeader, src, .none⟩ := by
  unfold codecDecode headerLen
  simp only
  rw [if_pos h8]

/-- A call that does not wait is unaffected by further bytes in the buffer. -/
theorem codecDecode_more {env : Env} {dec : Dec T} {st : DecodeState} {src : Bytes}
    (h : (codecDecode env dec st src).answer ≠ .none) (more : Bytes) :
    codecDecode env dec st (src ++ more) =
      ⟨(codecDecode env dec st src).state, (codecDecode env dec st src).src ++ more,
        (codecDecode env dec st src).answer⟩ := by
  cases st with
  | frame n =>
    have : n ≤ src.length := Nat.le_of_not_lt fun hn => h (frameStep_answer.2 hn)
    exact frameStep_more this
  | frameHeader =>
    by_cases h8 : src.length < 8
    · rw [codecDecode_wait h8] at h; exact absurd rfl h
    · have t4 : (src ++ more).take 4 = src.take 4 :=
        List.take_append_of_le_length (by omega)
      have d4 : (src ++ more).drop 4 = src.drop 4 ++ more :=
        List.drop_append_of_le_length (by omega)
      have l8 : 8 ≤ (src ++ more).length := by simp; omega
      by_cases h4 : beDec (src.take 4) < 4
      · cases he : env.overflowChecks with
        | true =>
          rw [codecDecode_abort (by omega) h4 he, codecDecode_abort l8 (by rwa [t4]) he]
        | false =>
          rw [codecDecode_wrap (by omega) h4 he] at h ⊢
          rw [codecDecode_wrap l8 (by rwa [t4]) he, t4, d4]
          exact frameStep_more (Nat.le_of_not_lt fun hn => h (frameStep_answer.2 hn))
      · have e := codecDecode_header (env := env) (dec := dec) (src := src) (by omega) (by omega)
        rw [e] at h ⊢
        rw [codecDecode_header l8 (by rw [t4]; omega), t4, d4]
        exact frameStep_more (Nat.le_of_not_lt fun hn => h (frameStep_answer.2 hn))

/-- A call that waits loses nothing: calling again with more bytes is like
having had them from the start. -/
theorem codecDecode_resume {env : Env} {dec : Dec T} {st : DecodeState} {src : Bytes}
    (h : (codecDecode env dec st src).answer = .none) (more : Bytes) :
    codecDecode env dec st (src ++ more) =
      codecDecode env dec (codecDecode env dec st src).state
        ((codecDecode env dec st src).src ++ more) := by
  cases st with
  | frame n =>
    have : src.length < n := frameStep_answer.1 h
    have e : codecDecode env dec (.frame n) src = ⟨.frame n, src, .none⟩ := frameStep_short this
    rw [e]
  | frameHeader =>
    by_cases h8 : src.length < 8
    · rw [codecDecode_wait h8]
    · have t4 : (src ++ more).take 4 = src.take 4 :=
        List.take_append_of_le_length (by omega)
      have d4 : (src ++ more).drop 4 = src.drop 4 ++ more :=
        List.drop_append_of_le_length (by omega)
      have l8 : 8 ≤ (src ++ more).length := by simp; omega
      by_cases h4 : beDec (src.take 4) < 4
      · cases he : env.overflowChecks with
        | true => rw [codecDecode_abort (by omega) h4 he] at h; simp at h
        | false =>
          rw [codecDecode_wrap (by omega) h4 he] at h ⊢
          rw [codecDecode_wrap l8 (by rwa [t4]) he, t4, d4, frameStep_short (frameStep_answer.1 h)]
          rfl
      · have e := codecDecode_header (env := env) (dec := dec) (src := src) (by omega) (by omega)
        rw [e] at h ⊢
        rw [codecDecode_header l8 (by rw [t4]; omega), t4, d4,
          frameStep_short (frameStep_answer.1 h)]
        rfl

/-! ### Draining -/

theorem drain_some {env : Env} {dec : Dec T} {st st' : DecodeState} {src src' : Bytes} {a : T}
    (h : codecDecode env dec st src = ⟨st', src', .some a⟩) :
    drain env dec st src = (a :: (drain env dec st' src').1, (drain env dec st' src').2) := by
  rw [drain]
  split <;> rename_i heq <;> rw [h] at heq <;>
    simp only [Call.mk.injEq, reduceCtorEq, and_false, Answer.some.injEq] at heq
  obtain ⟨rfl, rfl, rfl⟩ := heq
  rfl

theorem drain_stop {env : Env} {dec : Dec T} {st : DecodeState} {src : Bytes}
    (h : ∀ a, (codecDecode env dec st src).answer ≠ .some a) :
    drain env dec st src = ([], codecDecode env dec st src) := by
  rw [drain]
  split <;> rename_i heq
  · rw [heq] at h; exact absurd rfl (h _)
  all_goals rw [heq]

theorem Answer.cases_some {ε : Type} (a : Answer ε T) : (∃ x, a = .some x) ∨ ∀ x, a ≠ .some x := by
  cases a <;> simp

theorem drain_answer {env : Env} {dec : Dec T} (st : DecodeState) (src : Bytes) (a : T) :
    (drain env dec st src).2.answer ≠ .some a := by
  induction hm : drainMeasure st src using Nat.strongRecOn generalizing st src with
  | ind n ih =>
    rcases Answer.cases_some (codecDecode env dec st src).answer with ⟨x, hx⟩ | hx
    · have e : codecDecode env dec st src = ⟨(codecDecode env dec st src).state,
        (codecDecode env dec st src).src, .some x⟩ := by rw [← hx]
      rw [drain_some e]
      exact ih _ (hm ▸ codecDecode_some_lt e) _ _ rfl
    · rw [drain_stop hx]; exact hx a

/-- Draining part of the bytes and then the rest is draining all of them. -/
theorem drain_append {env : Env} {dec : Dec T} (st : DecodeState) (src more : Bytes) :
    drain env dec st (src ++ more) =
      match (drain env dec st src).2.answer with
      | .none => ((drain env dec st src).1 ++
            (drain env dec (drain env dec st src).2.state ((drain env dec st src).2.src ++ more)).1,
          (drain env dec (drain env dec st src).2.state ((drain env dec st src).2.src ++ more)).2)
      | a => ((drain env dec st src).1,
          ⟨(drain env dec st src).2.state, (drain env dec st src).2.src ++ more, a⟩) := by
  induction hm : drainMeasure st src using Nat.strongRecOn generalizing st src with
  | ind n ih =>
    rcases Answer.cases_some (codecDecode env dec st src).answer with ⟨x, hx⟩ | hx
    · have e : codecDecode env dec st src = ⟨(codecDecode env dec st src).state,
        (codecDecode env dec st src).src, .some x⟩ := by rw [← hx]
      have e' := codecDecode_more (by rw [hx]; simp) more (dec := dec) (env := env) (st := st)
        (src := src)
      rw [hx] at e'
      rw [drain_some e', drain_some e, ih _ (hm ▸ codecDecode_some_lt e) _ _ rfl]
      simp only
      split <;> rfl
    · rw [drain_stop hx]
      cases ha : (codecDecode env dec st src).answer with
      | some a => exact absurd ha (hx a)
      | none =>
        simp only [List.nil_append]
        have := codecDecode_resume ha more
        rcases Answer.cases_some (codecDecode env dec st (src ++ more)).answer with ⟨y, hy⟩ | hy
        · have e : codecDecode env dec st (src ++ more) =
              ⟨(codecDecode env dec st (src ++ more)).state,
                (codecDecode env dec st (src ++ more)).src, .some y⟩ := by rw [← hy]
          rw [drain_some e]
          rw [this] at e
          rw [drain_some e, this]
        · rw [drain_stop hy, drain_stop (by rw [← this]; exact hy), this]
      | err er =>
        have e' := codecDecode_more (by rw [ha]; simp) more (dec := dec) (env := env) (st := st)
          (src := src)
        rw [drain_stop (by rw [e']; exact hx), e', ha]
      | panic p =>
        have e' := codecDecode_more (by rw [ha]; simp) more (dec := dec) (env := env) (st := st)
          (src := src)
        rw [drain_stop (by rw [e']; exact hx), e', ha]

theorem receive_eq {env : Env} {dec : Dec T} : ∀ (chunks : List Bytes) (st : DecodeState)
    (buf : Bytes), receive env dec st buf chunks = drain env dec st (buf ++ chunks.flatten)
  | [], st, buf => by simp [receive]
  | c :: t, st, buf => by
    rw [receive, List.flatten_cons, ← List.append_assoc, drain_append st (buf ++ c) t.flatten]
    simp only
    split
    · rename_i h
      simp only [h]
      rw [receive_eq t]
    · rename_i h
      cases hq : (drain env dec st (buf ++ c)).2.answer with
      | none => exact (h hq).elim
      | some a => rfl
      | err e => rfl
      | panic p => rfl

/-! ### One frame -/

theorem codecDecode_frame {env : Env} {dec : Dec T} {w : Bytes} (h : IsFrame w) (rest : Bytes) :
    codecDecode env dec .frameHeader (w ++ rest) = frameStep dec (w.length - 4) (w.drop 4 ++ rest) := by
  obtain ⟨h8, hl⟩ := h
  have t4 : (w ++ rest).take 4 = w.take 4 := List.take_append_of_le_length (by omega)
  have d4 : (w ++ rest).drop 4 = w.drop 4 ++ rest := List.drop_append_of_le_length (by omega)
  rw [codecDecode_header (by simp; omega) (by rw [t4]; omega), t4, d4, hl]

theorem frameStep_whole {dec : Dec T} {n : Nat} {b : Bytes} (h : b.length = n) (rest : Bytes) :
    frameStep dec n (b ++ rest) = match dec b with
      | .ok (r, a) => if r.isEmpty then ⟨.frameHeader, rest, .some a⟩
        else ⟨.frame n, rest, .err .unparsedBytesLeft⟩
      | .err e => ⟨.frame n, rest, .err (.parse e)⟩
      | .panic p => ⟨.frame n, rest, .panic p⟩ := by
  subst h
  unfold frameStep
  rw [if_neg (by simp), List.take_left, List.drop_left]
  simp only
  cases dec b with
  | ok q => obtain ⟨r, a⟩ := q; cases r <;> rfl
  | err e => rfl
  | panic p => rfl

theorem frame_wire {env : Env} {dec : Dec T} {w rest : Bytes} (h : IsFrame w) :
    codecDecode env dec .frameHeader (w ++ rest) = match dec (w.drop 4) with
      | .ok (r, a) => if r.isEmpty then ⟨.frameHeader, rest, .some a⟩
        else ⟨.frame (w.length - 4), rest, .err .unparsedBytesLeft⟩
      | .err e => ⟨.frame (w.length - 4), rest, .err (.parse e)⟩
      | .panic p => ⟨.frame (w.length - 4), rest, .panic p⟩ := by
  rw [codecDecode_frame h, frameStep_whole (by simp)]

theorem drain_frames {env : Env} {dec : Dec T} : ∀ (ws : List (Bytes × T)) (rest : Bytes),
    (∀ p ∈ ws, IsFrame p.1 ∧ dec (p.1.drop 4) = .ok ([], p.2)) →
    drain env dec .frameHeader (ws.flatMap Prod.fst ++ rest) =
      (ws.map Prod.snd ++ (drain env dec .frameHeader rest).1,
        (drain env dec .frameHeader rest).2)
  | [], rest, _ => rfl
  | p :: t, rest, h => by
    obtain ⟨hf, hd⟩ := h p (by simp)
    have := frame_wire (env := env) (dec := dec) (rest := t.flatMap Prod.fst ++ rest) hf
    rw [hd] at this
    simp only [List.isEmpty_nil, if_true] at this
    rw [List.flatMap_cons, List.append_assoc, drain_some this,
      drain_frames t rest fun q hq => h q (by simp [hq])]
    rfl

end

/-! ### Frame headers -/

theorem take_beEnc (k n : Nat) (t : Bytes) : (beEnc k n ++ t).take k = beEnc k n := by
  rw [List.take_append_of_le_length (by simp), List.take_of_length_le (by simp)]

theorem isFrame_header {n : Nat} {type : UInt8} {ch : UInt16} {b : Bytes}
    (hn : n = 8 + b.length) (hl : n < 2 ^ 32) : IsFrame (frameHeader n type ch ++ b) := by
  constructor
  · simp [frameHeader]; omega
  · rw [frameHeader, List.append_assoc, List.append_assoc, take_beEnc, beDec_beEnc,
      Nat.mod_eq_of_lt (by simpa using hl)]
    simp; omega

theorem beEnc_two (n : Nat) : beEnc 2 n = [UInt8.ofNat (n / 256), UInt8.ofNat n] := by
  simp [beEnc]

theorem decodeFrameHeader_eq (type doff : UInt8) (a b : UInt8) (t : Bytes) (expected : UInt8) :
    decodeFrameHeader expected (doff :: type :: a :: b :: t) =
      if type ≠ expected then .err (.unexpectedFrameType type)
      else if doff.toNat < 2 then .err .invalidSize
      else if t.length < (doff.toNat - 2) * 4 then .err (.incomplete ((doff.toNat - 2) * 4 + 4))
      else .ok (t.drop ((doff.toNat - 2) * 4), UInt16.ofNat (a.toNat * 256 + b.toNat)) := by
  unfold decodeFrameHeader headerLen
  rw [if_neg (by simp)]
  simp only [List.getD_cons_succ, List.getD_cons_zero, List.drop_succ_cons, List.drop_zero]
  split
  · rfl
  · by_cases hd : doff.toNat < 2
    · rw [if_pos (by omega), if_pos hd]
    · rw [if_neg (by omega), if_neg hd]
      have e : doff.toNat * 4 - 8 = (doff.toNat - 2) * 4 := by omega
      simp only [e]
      generalize (doff.toNat - 2) * 4 = k
      by_cases hl : t.length < k
      · rw [if_pos (by simp; omega), if_pos hl]
      · rw [if_neg (by simp; omega), if_neg hl]
        have e1 : beDec [a, b] = a.toNat * 256 + b.toNat := by simp [beDec]
        have e2 : List.take 2 (a :: b :: t) = [a, b] := by simp
        rw [e2, e1]

theorem decodeFrameHeader_enc (type : UInt8) (ch : UInt16) (n : Nat) (b : Bytes) :
    decodeFrameHeader type ((frameHeader n type ch ++ b).drop 4) = .ok (b, ch) := by
  have : (frameHeader n type ch ++ b).drop 4 =
      2 :: type :: UInt8.ofNat (ch.toNat / 256) :: UInt8.ofNat ch.toNat :: b := by
    rw [frameHeader, List.append_assoc, List.append_assoc, beEnc_two,
      List.drop_append_of_le_length (by simp), List.drop_of_length_le (by simp)]
    rfl
  rw [this, decodeFrameHeader_eq]
  simp only [ne_eq, not_true_eq_false, if_false, UInt8.toNat_ofNat', Nat.reducePow, Nat.reduceMod,
    Nat.zero_mul, Nat.not_lt_zero, List.drop_zero, Nat.lt_irrefl,
    Nat.sub_self, UInt8.toNat_ofNat]
  congr 2
  apply UInt16.toNat_inj.1
  have := ch.toNat_lt
  simp only [UInt16.toNat_ofNat', Nat.reducePow] at *
  omega

/-! ### Frames -/

instance : HasWf AmqpFrame := ⟨fun env f => wf env f.performative⟩
instance : HasWf SaslFrame := ⟨fun env f => wf env f.body⟩

def AmqpFrame.received (f : AmqpFrame) : AmqpFrame := { f with performative := f.performative.received }

theorem AmqpFrame.decode_enc {env : Env} {f : AmqpFrame} (h : wf env f) :
    AmqpFrame.decode env ((enc f).drop 4) = .ok ([], f.received) := by
  show (decodeFrameHeader frameTypeAmqp >>= _) ((frameHeader _ _ _ ++ _).drop 4) = _
  rw [bind_ok (decodeFrameHeader_enc _ _ _ _), bind_ok (Frame.decode_enc h)]
  rfl

theorem SaslFrame.decode_enc {env : Env} {f : SaslFrame} (h : wf env f) :
    SaslFrame.decode env ((enc f).drop 4) = .ok ([], f) := by
  show (decodeFrameHeader frameTypeSasl >>= _) ((frameHeader _ _ _ ++ _).drop 4) = _
  have h2 := LawfulCodec.rt env f.body h []
  rw [List.append_nil] at h2
  rw [bind_ok (decodeFrameHeader_enc _ _ _ _), bind_ok h2]
  rfl

/-! ### The output buffer -/

theorem Buf.ext {a b : Buf} (h1 : a.data = b.data) (h2 : a.capacity = b.capacity) : a = b := by
  cases a; cases b; simp only at h1 h2; subst h1 h2; rfl

/-- Putting two slices one after the other is putting their concatenation. -/
theorem Buf.putSlice_append {ε : Type} (b : Buf) (x y : Bytes) :
    (b.putSlice (x ++ y) : Res ε Buf) = b.putSlice x >>= fun b => b.putSlice y := by
  unfold putSlice
  by_cases h : (x ++ y).length ≤ b.remainingMut
  · rw [dif_pos h, dif_pos (by simp at h; omega), Res.bind_ok, dif_pos]
    · simp
    · simp only [remainingMut, List.length_append] at h ⊢; omega
  · rw [dif_neg h]
    by_cases hx : x.length ≤ b.remainingMut
    · rw [dif_pos hx, Res.bind_ok, dif_neg]
      simp only [remainingMut, List.length_append] at h hx ⊢; omega
    · rw [dif_neg hx]; rfl

theorem Buf.reserve_data (slack n : Nat) (b : Buf) : (b.reserve slack n).data = b.data := by
  unfold reserve; split <;> rfl

theorem Buf.reserve_room (slack n : Nat) (b : Buf) : n ≤ (b.reserve slack n).remainingMut := by
  unfold reserve
  split
  · assumption
  · simp only [remainingMut]; omega

theorem Buf.putSlice_ok {ε : Type} {b : Buf} {bytes : Bytes} (h : bytes.length ≤ b.remainingMut) :
    ∃ b', (b.putSlice bytes : Res ε Buf) = .ok b' ∧ b'.data = b.data ++ bytes := by
  unfold putSlice
  rw [dif_pos h]
  exact ⟨_, rfl, rfl⟩

theorem Buf.putSlice_full {ε : Type} {b : Buf} {bytes : Bytes} (h : b.remainingMut < bytes.length) :
    (b.putSlice bytes : Res ε Buf) = .panic .bufferFull := by
  unfold putSlice
  rw [dif_neg (by omega)]

/-! ### Sequences of writes -/

theorem Buf.putSlice_room {ε : Type} {b b' : Buf} {bytes : Bytes}
    (h : (b.putSlice bytes : Res ε Buf) = .ok b') :
    bytes.length ≤ b.remainingMut ∧ b'.data = b.data ++ bytes ∧ b'.capacity = b.capacity := by
  unfold putSlice at h
  split at h
  · next hr => cases h; exact ⟨hr, rfl, rfl⟩
  · cases h

theorem Buf.extend_fits {b : Buf} {slack : Nat} {bytes : Bytes} (h : bytes.length ≤ b.remainingMut) :
    (b.extendFromSlice slack bytes).capacity = b.capacity := by
  show (b.reserve slack bytes.length).capacity = _
  rw [Buf.reserve, if_pos h]

/-- With room for everything, the calls append everything and the capacity stays. -/
theorem Buf.run_ok {ε : Type} (grow : Growth) : ∀ (ws : List Write) (b : Buf),
    (outputOf ws).length ≤ b.remainingMut →
    ∃ b', (b.run grow ws : Res ε Buf) = .ok b' ∧ b'.data = b.data ++ outputOf ws ∧
      b'.capacity = b.capacity
  | [], b, _ => ⟨b, rfl, by simp, rfl⟩
  | .put x :: t, b, h => by
    rw [outputOf_put, List.length_append] at h
    obtain ⟨b1, h1, h2⟩ := Buf.putSlice_ok (ε := ε) (b := b) (bytes := x) (by omega)
    obtain ⟨-, -, h3⟩ := Buf.putSlice_room h1
    obtain ⟨b2, h4, h5, h6⟩ := Buf.run_ok (ε := ε) grow t b1 (by
      unfold Buf.remainingMut at h ⊢; rw [h2, h3, List.length_append]; omega)
    refine ⟨b2, ?_, ?_, h6.trans h3⟩
    · rw [Buf.run, h1]; exact h4
    · rw [h5, h2, outputOf_put, List.append_assoc]
  | .extend x :: t, b, h => by
    rw [outputOf_extend, List.length_append] at h
    have h3 : (b.extendFromSlice (grow b x.length) x).capacity = b.capacity :=
      Buf.extend_fits (by omega)
    obtain ⟨b2, h4, h5, h6⟩ := Buf.run_ok (ε := ε) grow t (b.extendFromSlice (grow b x.length) x) (by
      unfold Buf.remainingMut at h ⊢
      rw [h3]
      show _ ≤ b.capacity - (b.data ++ x).length
      rw [List.length_append]; omega)
    refine ⟨b2, ?_, ?_, h6.trans h3⟩
    · rw [Buf.run]; exact h4
    · rw [h5, outputOf_extend]
      show b.data ++ x ++ _ = _
      rw [List.append_assoc]

/-- Whatever happens, it is either success with everything appended, or a panic for
want of room. -/
theorem Buf.run_cases {ε : Type} (grow : Growth) : ∀ (ws : List Write) (b : Buf),
    (∃ b', (b.run grow ws : Res ε Buf) = .ok b' ∧ b'.data = b.data ++ outputOf ws) ∨
    ((b.run grow ws : Res ε Buf) = .panic .bufferFull ∧ b.remainingMut < (outputOf ws).length)
  | [], b => .inl ⟨b, rfl, by simp⟩
  | .put x :: t, b => by
    by_cases hr : x.length ≤ b.remainingMut
    · obtain ⟨b1, h1, h2⟩ := Buf.putSlice_ok (ε := ε) (b := b) (bytes := x) hr
      obtain ⟨-, -, h3⟩ := Buf.putSlice_room h1
      rw [Buf.run, h1]
      rcases Buf.run_cases (ε := ε) grow t b1 with ⟨b2, h4, h5⟩ | ⟨h4, h5⟩
      · exact .inl ⟨b2, h4, by rw [h5, h2, outputOf_put, List.append_assoc]⟩
      · refine .inr ⟨h4, ?_⟩
        unfold Buf.remainingMut at h5 hr ⊢
        rw [h2, h3, List.length_append] at h5
        rw [outputOf_put, List.length_append]; omega
    · refine .inr ⟨?_, ?_⟩
      · rw [Buf.run, Buf.putSlice_full (by omega)]; rfl
      · rw [outputOf_put, List.length_append]; omega
  | .extend x :: t, b => by
    rw [Buf.run]
    rcases Buf.run_cases (ε := ε) grow t (b.extendFromSlice (grow b x.length) x) with ⟨b2, h4, h5⟩ | ⟨h4, h5⟩
    · refine .inl ⟨b2, h4, ?_⟩
      rw [h5, outputOf_extend]
      show b.data ++ x ++ _ = _
      rw [List.append_assoc]
    · refine .inr ⟨h4, ?_⟩
      rw [outputOf_extend, List.length_append]
      by_cases hr : x.length ≤ b.remainingMut
      · have h3 := Buf.extend_fits (slack := grow b x.length) hr
        unfold Buf.remainingMut at h5 hr ⊢
        rw [h3] at h5
        have h6 : b.capacity - (b.data ++ x).length < (outputOf t).length := h5
        rw [List.length_append] at h6
        omega
      · omega

/-- Calls of `put_*` only panic exactly if there is not room for everything. -/
theorem Buf.run_puts {ε : Type} (grow : Growth) : ∀ (ws : List Write) (b : Buf),
    (∀ w ∈ ws, w.isPut = true) →
    (b.run grow ws : Res ε Buf) = b.putSlice (outputOf ws)
  | [], b, _ => by
    show _ = b.putSlice []
    unfold Buf.putSlice
    rw [dif_pos (by simp)]
    exact congrArg Res.ok (Buf.ext (by simp) rfl)
  | .put x :: t, b, h => by
    rw [Buf.run, outputOf_put, Buf.putSlice_append]
    congr 1
    funext b'
    exact Buf.run_puts grow t b' fun w hw => h w (by simp [hw])
  | .extend x :: t, b, h => by
    cases h (.extend x) (by simp)

end Amqp
