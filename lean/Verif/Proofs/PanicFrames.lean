import Verif.Proofs.PanicInstances
import Verif.Proofs.MessageLaws
import Verif.Framing
/-!
# Panics of transfers, frames and messages
-/
set_option autoImplicit false
namespace Amqp
open Dec

theorem Transfer.blames_inner (env : Env) :
    Blames env.overflowChecks env.stackDepth (Transfer.decInner env) := by
  refine (inner_blames (α := TransferPerf) env).bind (local_inner (α := TransferPerf) env) ?_
  intro t i p h
  unfold Transfer.withBody at h
  split at h <;> cases h

instance : PanicLaw Transfer := ⟨fun env _ => describedAs_fmtBlames (Transfer.blames_inner env)⟩

theorem Frame.blames_dispatch (env : Env) (d : Descriptor) :
    Blames env.overflowChecks env.stackDepth (Frame.dispatch env d) := by
  unfold Frame.dispatch
  repeat' apply Blames.ite
  all_goals first
    | exact Blames.fail _
    | exact (Transfer.blames_inner env).map _
    | exact (inner_blames (α := Amqp.Open) env).map _
    | exact (inner_blames (α := Amqp.Begin) env).map _
    | exact (inner_blames (α := Amqp.Attach) env).map _
    | exact (inner_blames (α := Amqp.Flow) env).map _
    | exact (inner_blames (α := Amqp.Disposition) env).map _
    | exact (inner_blames (α := Amqp.Detach) env).map _
    | exact (inner_blames (α := Amqp.End) env).map _
    | exact (inner_blames (α := Amqp.Close) env).map _

theorem Frame.blames (env : Env) :
    Blames env.overflowChecks env.stackDepth (Frame.decode env) := by
  intro i p h
  unfold Frame.decode at h
  split at h
  · cases h
  · exact (Blames.of_safe Safe.readU8).bind Local.readU8 (fun fmt => Blames.ite (Blames.fail _)
      ((blames_decode _).bind (loc_decode _) fun d => Frame.blames_dispatch env d)) i p h

theorem frameHeader_ok {t : UInt8} {i r : Bytes} {c : UInt16}
    (h : decodeFrameHeader t i = .ok (r, c)) : ∃ w, i = w ++ r := by
  unfold decodeFrameHeader at h
  split at h
  · cases h
  simp only at h
  split at h
  · cases h
  split at h
  · cases h
  split at h
  · cases h
  injection h with h; injection h with h1 h2
  exact ⟨_, by rw [← h1]; exact (List.take_append_drop _ _).symm⟩

theorem frameHeader_panic {t : UInt8} {i : Bytes} {p : Panic} :
    decodeFrameHeader t i ≠ .panic p := by
  unfold decodeFrameHeader
  intro h
  split at h
  · cases h
  simp only at h
  split at h
  · cases h
  split at h
  · cases h
  split at h <;> cases h

theorem AmqpFrame.blames (env : Env) :
    Blames env.overflowChecks env.stackDepth (AmqpFrame.decode env) := by
  intro i p h
  rcases bind_eq_panic.1 h with h1 | ⟨r, c, h1, h2⟩
  · exact absurd h1 frameHeader_panic
  · obtain ⟨w, rfl⟩ := frameHeader_ok h1
    rcases bind_eq_panic.1 h2 with h3 | ⟨r', f, -, h4⟩
    · exact (Frame.blames env _ _ h3).mono ⟨w, [], by simp⟩
    · cases h4

theorem SaslFrame.blames (env : Env) :
    Blames env.overflowChecks env.stackDepth (SaslFrame.decode env) := by
  intro i p h
  rcases bind_eq_panic.1 h with h1 | ⟨r, c, h1, h2⟩
  · exact absurd h1 frameHeader_panic
  · obtain ⟨w, rfl⟩ := frameHeader_ok h1
    rcases bind_eq_panic.1 h2 with h3 | ⟨r', f, -, h4⟩
    · exact (blames_decode env _ _ h3).mono ⟨w, [], by simp⟩
    · cases h4

theorem Message.loop_blames {AP : Type} (env : Env) (conv : StringVariantMap → AP) :
    ∀ (n : Nat) (m : Message AP) (i : Bytes) (p : Panic), i.length < n →
    Message.loop env conv n m i = .panic p → PanicCause env.overflowChecks env.stackDepth i p
  | 0, _, _, _, hn, _ => absurd hn (Nat.not_lt_zero _)
  | n + 1, m, i, p, hn, h => by
    simp only [Message.loop] at h
    cases hd : decode Section env i with
    | err e => rw [hd] at h; cases h
    | panic q =>
      rw [hd] at h
      injection h with h; subst h
      exact blames_decode env _ _ hd
    | ok q =>
      obtain ⟨buf, sec⟩ := q
      rw [hd] at h
      simp only at h
      split at h
      · cases h
      · have := progress_decode (fun fmt => LawfulDec.loc env fmt) _ _ _ hd
        obtain ⟨w, rfl, -⟩ := loc_decode env _ _ _ hd
        exact (Message.loop_blames env conv n _ _ p (by omega) h).mono ⟨w, [], by simp⟩

theorem Message.blames {AP : Type} (env : Env) (conv : StringVariantMap → AP) :
    Blames env.overflowChecks env.stackDepth (Message.decodeWith env conv) :=
  fun i p h => Message.loop_blames env conv _ _ i p (Nat.lt_succ_self _) h

end Amqp
