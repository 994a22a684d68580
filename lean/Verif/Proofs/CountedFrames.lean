import Verif.Counted
import Verif.Spec.Counted
import Verif.Proofs.CountedInstances
import Verif.Proofs.FrameLaws
/-!
# Laws of the counting decoders of messages and frames
-/
set_option autoImplicit false
namespace Amqp
open Dec Cost

theorem Met.thrifty {α : Type} {u : Nat} {d : Dec α} {c : Price → Cost α} (h : Met 0 u d c) :
    Thrifty d c where
  same := h.same
  calls i := h.calls.all i
  covered i r a hd := by
    have := h.room i r a hd
    show (c Price.rooms i).2 ≤ _
    omega
  limit i := h.all.all i
  looks i := h.bytes.all i

theorem met_frame (env : Env) : Met 0 0 (Frame.decode env) fun p => Frame.decodeC p env := by
  have hm : Met 0 1 (formatCode >>= fun fmt => validateCode fmt FC.described
      (decode Descriptor env >>= Frame.dispatch env)) fun p => (Cost.of formatCode >>= fun fmt =>
        validateCodeC fmt FC.described (decodeC Descriptor p env >>= Frame.dispatchC p env)) :=
    Met.byte Local.readU8 progress_formatCode fun f => met_validate (u := 0) f FC.described
      (((MeteredD.met env).bind fun ds => Frame.met_dispatch env ds).mono (by omega) (by omega))
  have e0 : Frame.decode env [] = .ok ([], .Empty) := rfl
  have e0' : ∀ p, Frame.decodeC p env [] = (.ok ([], .Empty), 0) := fun _ => rfl
  have e1 : ∀ b i, Frame.decode env (b :: i) = (formatCode >>= fun fmt => validateCode fmt
      FC.described (decode Descriptor env >>= Frame.dispatch env)) (b :: i) := fun _ _ => rfl
  have e1' : ∀ p b i, Frame.decodeC p env (b :: i) = (Cost.of formatCode >>= fun fmt =>
      validateCodeC fmt FC.described (decodeC Descriptor p env >>= Frame.dispatchC p env)) (b :: i) :=
    fun _ _ _ => rfl
  have nil : ∀ {r : Bytes} {a : Frame}, (Res.ok ([], Frame.Empty) : Res ParseError (Bytes × Frame)) =
      .ok (r, a) → r = [] := fun h => by injection h with h; injection h with h _; exact h.symm
  refine ⟨fun p => ?_, ⟨fun i => ?_, fun i r a h => ?_⟩, fun i r a h => ?_,
    ⟨fun i => ?_, fun i r a h => ?_⟩, ⟨fun i => ?_, fun i r a h => ?_⟩⟩
  · funext i
    cases i with
    | nil => rfl
    | cons b i =>
      show (Frame.decodeC p env (b :: i)).1 = _
      rw [e1', e1]
      exact congrFun (hm.same p) (b :: i)
  · cases i with
    | nil => rw [e0']; exact Nat.zero_le _
    | cons b i => rw [e1']; exact hm.calls.all _
  · cases i with
    | nil => rw [e0'] at h ⊢; rw [nil h]; exact Nat.le_refl _
    | cons b i => rw [e1'] at h ⊢; exact hm.calls.used _ _ _ h
  · cases i with
    | nil => rw [e0'] at h ⊢; rw [nil h]; exact Nat.le_refl _
    | cons b i => rw [e1'] at h ⊢; have := hm.room _ _ _ h; omega
  · cases i with
    | nil => rw [e0']; exact Nat.zero_le _
    | cons b i => rw [e1']; exact hm.all.all _
  · cases i with
    | nil => rw [e0'] at h ⊢; rw [nil h]; exact Nat.le_of_eq (Nat.zero_add _)
    | cons b i => rw [e1'] at h ⊢; exact hm.all.used _ _ _ h
  · cases i with
    | nil => rw [e0']; exact Nat.zero_le _
    | cons b i => rw [e1']; exact hm.bytes.all _
  · cases i with
    | nil => rw [e0'] at h ⊢; rw [nil h]; exact Nat.le_refl _
    | cons b i => rw [e1'] at h ⊢; exact hm.bytes.used _ _ _ h

theorem frameHeader_le {t : UInt8} {i r : Bytes} {c : UInt16}
    (h : decodeFrameHeader t i = .ok (r, c)) : r.length ≤ i.length := by
  unfold decodeFrameHeader at h
  split at h
  · cases h
  · dsimp only at h
    split at h
    · cases h
    · split at h
      · cases h
      · split at h
        · cases h
        · injection h with h; injection h with h1 _
          subst h1
          simp only [List.length_drop]; omega

theorem met_frameHeader (t : UInt8) :
    Met 0 0 (decodeFrameHeader t) fun _ => Cost.of (decodeFrameHeader t) := by
  have hc : ∀ m, Capped m 0 (Cost.of (decodeFrameHeader t)) := fun m =>
    ⟨fun i => Nat.zero_le _, fun i r a hd => by
      have := Nat.mul_le_mul_left m (frameHeader_le hd)
      simp only [Cost.of]; omega⟩
  exact ⟨fun _ => rfl, hc 3, Cheap.of fun _ _ _ h => frameHeader_le h, hc maxCount, hc 2⟩

theorem met_amqpFrame (env : Env) :
    Met 0 0 (AmqpFrame.decode env) fun p => AmqpFrame.decodeC p env :=
  (met_frameHeader _).bind fun _ => (met_frame env).bind fun _ => Met.pure _
theorem met_saslFrame (env : Env) :
    Met 0 1 (SaslFrame.decode env) fun p => SaslFrame.decodeC p env :=
  (met_frameHeader _).bind fun _ => (MeteredD.met env).bind fun _ => Met.pure _

namespace Message
variable {AP : Type}

theorem loopC_same (p : Price) (env : Env) (conv : StringVariantMap → AP) :
    ∀ n m i, (loopC p env conv n m i).1 = loop env conv n m i
  | 0, _, _ => rfl
  | n + 1, m, i => by
    have hs : (decodeC Section p env i).1 = decode Section env i :=
      congrFun ((MeteredD.met (α := Section) env).same p) i
    unfold loopC loop
    rw [← hs]
    rcases decodeC Section p env i with ⟨x, k⟩
    cases x with
    | ok q =>
      dsimp only
      split
      · rfl
      · exact loopC_same p env conv n _ _
    | err e => rfl
    | panic q => rfl

/-- Limits of one section, added up. -/
theorem loopC_capped {k : Nat} {p : Price} {env : Env} (h : Capped k 0 (decodeC Section p env))
    (conv : StringVariantMap → AP) : ∀ n m i, (loopC p env conv n m i).2 ≤ k * i.length
  | 0, _, _ => Nat.zero_le _
  | n + 1, m, i => by
    have h1 := h.all i
    have h2 := h.used i
    unfold loopC
    rcases hd : decodeC Section p env i with ⟨x, j⟩
    rw [hd] at h1 h2
    cases x with
    | ok q =>
      have g1 := h2 q.1 q.2 rfl
      have g2 := loopC_capped h conv n (m.addSection conv q.2) q.1
      dsimp only at g1 ⊢
      split
      · dsimp only; omega
      · dsimp only; omega
    | err e => exact h1
    | panic q => exact h1

theorem loopC_covered {env : Env} (h : Cheap 1 0 (decodeC Section Price.rooms env))
    (conv : StringVariantMap → AP) : ∀ n m i r a, (loopC Price.rooms env conv n m i).1 = .ok (r, a) →
      (loopC Price.rooms env conv n m i).2 ≤ i.length
  | 0, _, _, _, _, hd => by cases hd
  | n + 1, m, i, r, a, hd => by
    have h1 := h i
    unfold loopC at hd ⊢
    rcases hs : decodeC Section Price.rooms env i with ⟨x, j⟩
    rw [hs] at h1 hd
    cases x with
    | ok q =>
      have g1 := h1 q.1 q.2 rfl
      dsimp only at g1 hd ⊢
      split
      · dsimp only; omega
      · rename_i hne
        rw [if_neg hne] at hd
        have := loopC_covered h conv n _ _ _ _ hd
        dsimp only; omega
    | err e => cases hd
    | panic q => cases hd

theorem thrifty_decodeWith (env : Env) (conv : StringVariantMap → AP) :
    Thrifty (decodeWith env conv) fun p => decodeWithC p env conv where
  same p := by funext i; exact loopC_same p env conv _ _ _
  calls i := loopC_capped (MeteredD.met env).calls conv _ _ _
  covered i r a h := loopC_covered (MeteredD.met env).room conv _ _ _ _ _ h
  limit i := loopC_capped (MeteredD.met env).all conv _ _ _
  looks i := loopC_capped (MeteredD.met env).bytes conv _ _ _

end Message

/-! ## The codec -/

section
variable {T : Type}

theorem frameStepC_same (dec : Cost T) (n : Nat) (src : Bytes) :
    (frameStepC dec n src).1 = frameStep (erase dec) n src := by
  unfold frameStepC frameStep erase
  split
  · rfl
  · dsimp only
    rcases dec (src.take n) with ⟨x, m⟩
    cases x with
    | ok q =>
      obtain ⟨r, a⟩ := q
      cases r <;> rfl
    | err e => rfl
    | panic p => rfl

theorem codecDecodeC_same (env : Env) (dec : Cost T) (st : DecodeState) (src : Bytes) :
    (codecDecodeC env dec st src).1 = codecDecode env (erase dec) st src := by
  cases st with
  | frame n => exact frameStepC_same dec n src
  | frameHeader =>
    unfold codecDecodeC codecDecode
    dsimp only
    split
    · rfl
    · split
      · rfl
      · split
        · rfl
        · exact frameStepC_same dec _ _

theorem frameStepC_used {k : Nat} {dec : Cost T} (h : ∀ i, (dec i).2 ≤ k * i.length) (n : Nat)
    (src : Bytes) :
    (frameStepC dec n src).2 + k * (frameStepC dec n src).1.src.length ≤ k * src.length := by
  unfold frameStepC
  split
  · exact Nat.le_of_eq (Nat.zero_add _)
  · rename_i hn
    dsimp only
    have h1 := h (src.take n)
    have h2 : k * (src.take n).length + k * (src.drop n).length = k * src.length := by
      rw [← Nat.mul_add, ← List.length_append, List.take_append_drop]
    rcases hd : dec (src.take n) with ⟨x, m⟩
    rw [hd] at h1
    dsimp only at h1
    cases x with
    | ok q =>
      obtain ⟨r, a⟩ := q
      cases r <;> (show m + k * (src.drop n).length ≤ _) <;> omega
    | err e => show m + k * (src.drop n).length ≤ _; omega
    | panic p => show m + k * (src.drop n).length ≤ _; omega

/-- A call spends at most what the bytes it takes from the buffer pay for. -/
theorem codecDecodeC_used {k : Nat} {dec : Cost T} (h : ∀ i, (dec i).2 ≤ k * i.length) (env : Env)
    (st : DecodeState) (src : Bytes) :
    (codecDecodeC env dec st src).2 + k * (codecDecodeC env dec st src).1.src.length ≤
      k * src.length := by
  have hd : k * (src.drop 4).length ≤ k * src.length :=
    Nat.mul_le_mul_left k (by simp only [List.length_drop]; omega)
  cases st with
  | frame n => exact frameStepC_used h n src
  | frameHeader =>
    unfold codecDecodeC
    dsimp only
    split
    · exact Nat.le_of_eq (Nat.zero_add _)
    · split
      · exact Nat.le_of_eq (Nat.zero_add _)
      · split
        · show 0 + k * (src.drop 4).length ≤ _; omega
        · exact Nat.le_trans (frameStepC_used h _ _) hd

theorem sessionSpent_le {k : Nat} {dec : Cost T} (h : ∀ i, (dec i).2 ≤ k * i.length) (env : Env) :
    ∀ es st src, sessionSpent env dec es st src ≤ k * (src.length + arrived es)
  | [], _, _ => Nat.zero_le _
  | .arrive b :: t, st, src => by
    have := sessionSpent_le h env t st (src ++ b)
    simp only [sessionSpent, arrived]
    rw [List.length_append, Nat.add_assoc] at this
    exact this
  | .poll :: t, st, src => by
    have h1 := codecDecodeC_used h env st src
    have h2 := sessionSpent_le h env t (codecDecodeC env dec st src).1.state
      (codecDecodeC env dec st src).1.src
    simp only [sessionSpent, arrived]
    rw [Nat.mul_add] at h2 ⊢
    omega

end

end Amqp
