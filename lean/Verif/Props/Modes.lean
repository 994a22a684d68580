import Verif.Proofs.ModeLaws
import Verif.Spec.Handshake
/-!
# C61: builds with and without overflow checks, small and large stacks
-/
set_option autoImplicit false
namespace Amqp
open Dec

/-- Decoding `α` has the same outcome in all builds, up to panics that a build
need not have. -/
def BuildsAgree (α : Type) [DecodeF α] : Prop := ∀ a b : Env, a.Relaxed b → ∀ i : Bytes,
  SameOutcome a b (decode α a i) (decode α b i)

theorem ModeDec.agree {α : Type} [DecodeF α] [ModeDec α] : BuildsAgree α :=
  fun _ _ h i => same_decode h i

/-- **C61**: values. -/
theorem C61_values : BuildsAgree Variant ∧ BuildsAgree Map ∧ BuildsAgree Fields ∧
    BuildsAgree StringVariantMap ∧ BuildsAgree FilterSet ∧ BuildsAgree VecVariantMap ∧
    BuildsAgree VList ∧ BuildsAgree Symbols ∧ BuildsAgree Descriptor ∧ BuildsAgree DateTime ∧
    BuildsAgree ErrorCondition ∧ BuildsAgree MessageId :=
  ⟨ModeDec.agree, ModeDec.agree, ModeDec.agree, ModeDec.agree, ModeDec.agree, ModeDec.agree,
    ModeDec.agree, ModeDec.agree, ModeDec.agree, ModeDec.agree, ModeDec.agree, ModeDec.agree⟩

/-- **C61**: arrays of any item type. -/
theorem C61_arrays (α : Type) [DecodeF α]
    (h : ∀ a b : Env, a.Relaxed b → ∀ fmt i, SameOutcome a b (decF (α := α) a fmt i) (decF b fmt i)) :
    BuildsAgree (Vec α) ∧ BuildsAgree (Multiple α) ∧ BuildsAgree (Option α) :=
  have : ModeDec α := ⟨fun k fmt i => h _ _ k fmt i⟩
  ⟨ModeDec.agree, ModeDec.agree, ModeDec.agree⟩

/-- **C61**: performatives and the like. -/
theorem C61_performatives : BuildsAgree Open ∧ BuildsAgree Begin ∧ BuildsAgree Attach ∧
    BuildsAgree Flow ∧ BuildsAgree Transfer ∧ BuildsAgree Disposition ∧ BuildsAgree Detach ∧
    BuildsAgree End ∧ BuildsAgree Close ∧ BuildsAgree SaslMechanisms ∧ BuildsAgree SaslInit ∧
    BuildsAgree SaslChallenge ∧ BuildsAgree SaslResponse ∧ BuildsAgree SaslOutcome ∧
    BuildsAgree Error ∧ BuildsAgree Source ∧ BuildsAgree Target ∧ BuildsAgree DeliveryState ∧
    BuildsAgree Outcome ∧ BuildsAgree Header ∧ BuildsAgree Properties ∧ BuildsAgree Section :=
  ⟨ModeDec.agree, ModeDec.agree, ModeDec.agree, ModeDec.agree, ModeDec.agree, ModeDec.agree,
    ModeDec.agree, ModeDec.agree, ModeDec.agree, ModeDec.agree, ModeDec.agree, ModeDec.agree,
    ModeDec.agree, ModeDec.agree, ModeDec.agree, ModeDec.agree, ModeDec.agree, ModeDec.agree,
    ModeDec.agree, ModeDec.agree, ModeDec.agree, ModeDec.agree⟩

/-- **C61**: frames and messages. -/
theorem C61_frames (a b : Env) (h : a.Relaxed b) (i : Bytes) :
    SameOutcome a b (AmqpFrame.decode a i) (AmqpFrame.decode b i) ∧
    SameOutcome a b (SaslFrame.decode a i) (SaslFrame.decode b i) ∧
    SameOutcome a b (InMessage.decode a i) (InMessage.decode b i) ∧
    ∀ order, SameOutcome a b (OutMessage.decode a order i) (OutMessage.decode b order i) :=
  ⟨AmqpFrame.same h i, SaslFrame.same h i, Message.same h _ i, fun _ => Message.same h _ i⟩

/-! ### Codecs -/

theorem same_frameStep {T : Type} {a b : Env} {d d' : Dec T} (h : Same a b d d') (n : Nat)
    (src : Bytes) : frameStep d' n src = frameStep d n src ∨
      ∃ p, a.Spares b p ∧ (frameStep d n src).answer = .panic p := by
  unfold frameStep
  split
  · exact .inl rfl
  · simp only
    rcases h (src.take n) with e | ⟨p, hp, e⟩
    · rw [e]; exact .inl rfl
    · rw [e]; exact .inr ⟨p, hp, rfl⟩

/-- **C61**: a call of `AmqpCodec::decode` leaves the same state and buffer and
gives the same answer, up to the panics. -/
theorem C61_codec {T : Type} (a b : Env) (h : a.Relaxed b) (d d' : Dec T)
    (hd : ∀ i, SameOutcome a b (d i) (d' i)) (st : DecodeState) (src : Bytes) :
    codecDecode b d' st src = codecDecode a d st src ∨
      ∃ p, a.Spares b p ∧ (codecDecode a d st src).answer = .panic p := by
  cases st with
  | frame n => exact same_frameStep hd n src
  | frameHeader =>
    unfold codecDecode
    simp only
    split
    · exact .inl rfl
    · by_cases h4 : beDec (src.take 4) < 4
      · cases ha : a.overflowChecks with
        | true =>
          cases hb : b.overflowChecks with
          | true => simp only [h4, and_self, if_true]; exact .inl trivial
          | false =>
            simp only [h4, and_self, if_true]
            exact .inr ⟨.overflow, .inr ⟨rfl, ha, hb⟩, rfl⟩
        | false =>
          have hb : b.overflowChecks = false := by
            cases hb : b.overflowChecks with
            | false => rfl
            | true => rw [h.2 hb] at ha; cases ha
          rw [hb]
          simp only [Bool.false_eq_true, and_false, if_false]
          split
          · exact .inl rfl
          · exact same_frameStep hd _ _
      · simp only [h4, false_and, if_false]
        split
        · exact .inl rfl
        · exact same_frameStep hd _ _

theorem same_stage {a b : Env} (h : a.Relaxed b) (stage : Stage) (st : DecodeState) (src : Bytes) :
    stage.call b st src = stage.call a st src ∨
      ∃ p, a.Spares b p ∧ (stage.call a st src).answer = .panic p := by
  cases stage with
  | header => exact .inl rfl
  | sasl =>
    rcases C61_codec a b h _ _ (SaslFrame.same h) st src with e | ⟨p, hp, e⟩
    · simp only [Stage.call, e]; exact .inl trivial
    · simp only [Stage.call, e]; exact .inr ⟨p, hp, rfl⟩
  | amqp =>
    rcases C61_codec a b h _ _ (AmqpFrame.same h) st src with e | ⟨p, hp, e⟩
    · simp only [Stage.call, e]; exact .inl trivial
    · simp only [Stage.call, e]; exact .inr ⟨p, hp, rfl⟩

theorem same_step {a b : Env} (h : a.Relaxed b) (plan : List Incoming → Stage) (c : Conn)
    (e : Event) : c.step b plan e = c.step a plan e ∨
      ∃ p, a.Spares b p ∧ (c.step a plan e).call.answer = .panic p := by
  cases e with
  | arrive x => exact .inl rfl
  | poll =>
    unfold Conn.step
    rcases same_stage h (plan c.items) c.call.state c.call.src with e | ⟨p, hp, e⟩
    · simp only [e]; exact .inl trivial
    · cases hc : c.call.answer with
      | err x => exact .inl rfl
      | panic x => exact .inl rfl
      | none => simp only [e]; exact .inr ⟨p, hp, rfl⟩
      | some x => simp only [e]; exact .inr ⟨p, hp, rfl⟩

theorem step_panic {a : Env} {plan : List Incoming → Stage} {c : Conn} {p : Panic}
    (h : c.call.answer = .panic p) (e : Event) : (c.step a plan e).call.answer = .panic p := by
  cases e with
  | arrive x => exact h
  | poll => simp only [Conn.step, h]

/-- **C61**: a whole connection, whatever arrives and whenever codecs are called,
goes the same way in both builds, unless the stricter one ends in such a panic. -/
theorem C61_connection (a b : Env) (h : a.Relaxed b) (plan : List Incoming → Stage)
    (es : List Event) : Conn.start.run b plan es = Conn.start.run a plan es ∨
      ∃ p, a.Spares b p ∧ (Conn.start.run a plan es).call.answer = .panic p := by
  generalize Conn.start = c
  induction es generalizing c with
  | nil => exact .inl rfl
  | cons e es ih =>
    show (c.step b plan e).run b plan es = (c.step a plan e).run a plan es ∨ _
    rcases same_step h plan c e with k | ⟨p, hp, k⟩
    · rw [k]; exact ih _
    · refine .inr ⟨p, hp, ?_⟩
      show ((c.step a plan e).run a plan es).call.answer = _
      clear ih
      generalize c.step a plan e = c' at k
      induction es generalizing c' with
      | nil => exact k
      | cons e' es ih => exact ih (c'.step a plan e') (step_panic k e')

/-! ### In particular -/

/-- **C61**: what a build with checks decodes or refuses, without a panic, a build
without them decodes or refuses in the same way, on the same or a larger stack. -/
theorem C61_release {α : Type} [DecodeF α] (hα : BuildsAgree α) (n m : Nat) (hnm : n ≤ m) (i : Bytes)
    (hp : ∀ p, decode α ⟨true, n⟩ i ≠ .panic p) :
    decode α ⟨false, m⟩ i = decode α ⟨true, n⟩ i := by
  rcases hα ⟨true, n⟩ ⟨false, m⟩ ⟨hnm, fun _ => rfl⟩ i with h | ⟨p, -, h⟩
  · exact h
  · exact absurd h (hp p)

/-- **C61**: with the same checks, the size of the stack decides only about stack
overflows: any other outcome is that of every larger stack. -/
theorem C61_stack {α : Type} [DecodeF α] (hα : BuildsAgree α) (c : Bool) (n m : Nat) (hnm : n ≤ m)
    (i : Bytes) (hp : decode α ⟨c, n⟩ i ≠ .panic .stackOverflow) :
    decode α ⟨c, m⟩ i = decode α ⟨c, n⟩ i := by
  rcases hα ⟨c, n⟩ ⟨c, m⟩ ⟨hnm, id⟩ i with h | ⟨p, h1 | ⟨-, h1, h2⟩, h⟩
  · exact h
  · exact absurd (h1.1 ▸ h) hp
  · rw [show c = true from h1] at h2; cases h2

/-- **C61**: the exceptions are real.  Without checks a list that declares a size
of nought is accepted; with checks it panics.  With a larger stack a nested value is
accepted; with a smaller one it overflows the stack. -/
theorem C61_exceptions :
    decode VList ⟨true, 1⟩ [0xc0, 0, 0] = .panic .overflow ∧
    decode VList ⟨false, 1⟩ [0xc0, 0, 0] = .ok ([], ⟨[]⟩) ∧
    decode Variant ⟨true, 1⟩ [0xc0, 2, 1, 0x40] = .panic .stackOverflow ∧
    decode Variant ⟨true, 2⟩ [0xc0, 2, 1, 0x40] = .ok ([], .list [.null]) :=
  ⟨rfl, rfl, rfl, rfl⟩

example : decode Variant ⟨false, 9⟩ [0xc0, 2, 1, 0x40] = .ok ([], .list [.null]) :=
  C61_release C61_values.1 2 9 (by decide) _ (fun _ => nofun)
example : decode Variant ⟨true, 7⟩ [0xc1, 0, 0] = .panic .overflow :=
  C61_stack C61_values.1 true 2 7 (by decide) _ nofun

example (i : Bytes) : codecDecode ⟨false, 9⟩ (AmqpFrame.decode ⟨false, 9⟩) .frameHeader i =
      codecDecode ⟨true, 2⟩ (AmqpFrame.decode ⟨true, 2⟩) .frameHeader i ∨
    ∃ p, Env.Spares ⟨true, 2⟩ ⟨false, 9⟩ p ∧
      (codecDecode ⟨true, 2⟩ (AmqpFrame.decode ⟨true, 2⟩) .frameHeader i).answer = .panic p :=
  have h : Env.Relaxed ⟨true, 2⟩ ⟨false, 9⟩ := ⟨by decide, fun _ => rfl⟩
  C61_codec ⟨true, 2⟩ ⟨false, 9⟩ h (AmqpFrame.decode ⟨true, 2⟩) (AmqpFrame.decode ⟨false, 9⟩)
    (fun i => (C61_frames _ _ h i).1) .frameHeader i
example (plan : List Incoming → Stage) (es : List Event) :
    Conn.start.run ⟨true, 9⟩ plan es = Conn.start.run ⟨true, 2⟩ plan es ∨
      ∃ p, Env.Spares ⟨true, 2⟩ ⟨true, 9⟩ p ∧ (Conn.start.run ⟨true, 2⟩ plan es).call.answer = .panic p :=
  C61_connection ⟨true, 2⟩ ⟨true, 9⟩ ⟨by decide, id⟩ plan es

end Amqp
