import Verif.Io
/-!
# What a user of the tokio codecs sees

Specification vocabulary for the stream properties; nothing here models code of
the repository.
-/
namespace Amqp

/-- A length-prefixed frame on the wire: at least the eight header bytes, the
first four of which are its length, big endian. -/
def IsFrame (w : Bytes) : Prop := 8 ≤ w.length ∧ beDec (w.take 4) = w.length

section
variable {T : Type}

/-- The measure that shows that a buffer yields finitely many items. -/
def drainMeasure (st : DecodeState) (src : Bytes) : Nat :=
  2 * src.length + match st with
    | .frameHeader => 0
    | .frame _ => 1

theorem frameStep_some {dec : Dec T} {n : Nat} {src : Bytes} {st' : DecodeState} {src' : Bytes}
    {a : T} (h : frameStep dec n src = ⟨st', src', .some a⟩) :
    st' = .frameHeader ∧ src' = src.drop n ∧ n ≤ src.length ∧ dec (src.take n) = .ok ([], a) := by
  unfold frameStep at h
  split at h
  · simp at h
  · rename_i hn
    simp only at h
    split at h
    · rename_i r f hd
      split at h
      · simp at h
      · rename_i he
        simp only [Bool.not_eq_true, Bool.not_eq_false', Bool.not_eq_true'] at he
        simp only [Call.mk.injEq, Answer.some.injEq] at h
        obtain ⟨h1, h2, h3⟩ := h
        have : r = [] := by simpa using he
        subst this h3
        exact ⟨h1.symm, h2.symm, by omega, hd⟩
    · simp at h
    · simp at h

theorem codecDecode_some_lt {env : Env} {dec : Dec T} {st st' : DecodeState} {src src' : Bytes}
    {a : T} (h : codecDecode env dec st src = ⟨st', src', .some a⟩) :
    drainMeasure st' src' < drainMeasure st src := by
  cases st with
  | frame n =>
    obtain ⟨rfl, rfl, -, -⟩ := frameStep_some h
    simp only [drainMeasure, List.length_drop]; omega
  | frameHeader =>
    simp only [codecDecode, headerLen] at h
    split at h
    · simp at h
    · split at h
      · simp at h
      · split at h
        · simp at h
        · obtain ⟨rfl, rfl, -, -⟩ := frameStep_some h
          simp only [drainMeasure, List.length_drop]; omega

/-- Call `decode` until it does not return an item: the items, and the last call. -/
def drain (env : Env) (dec : Dec T) (st : DecodeState) (src : Bytes) :
    List T × Call CodecError T :=
  match h : codecDecode env dec st src with
  | ⟨st', src', .some a⟩ =>
    let q := drain env dec st' src'
    (a :: q.1, q.2)
  | ⟨st', src', .none⟩ => ([], ⟨st', src', .none⟩)
  | ⟨st', src', .err e⟩ => ([], ⟨st', src', .err e⟩)
  | ⟨st', src', .panic p⟩ => ([], ⟨st', src', .panic p⟩)
termination_by drainMeasure st src
decreasing_by exact codecDecode_some_lt h

/-- Receive chunks one after the other, draining the buffer after each.  When the
codec fails, the chunks not yet received are still to be read. -/
def receive (env : Env) (dec : Dec T) (st : DecodeState) (buf : Bytes) :
    List Bytes → List T × Call CodecError T
  | [] => drain env dec st buf
  | chunk :: rest =>
    let q := drain env dec st (buf ++ chunk)
    match q.2.answer with
    | .none =>
      let q' := receive env dec q.2.state q.2.src rest
      (q.1 ++ q'.1, q'.2)
    | a => (q.1, ⟨q.2.state, q.2.src ++ rest.flatten, a⟩)

end
end Amqp
