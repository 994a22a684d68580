import Verif.FramedRead
import Verif.Spec.Stream
import Verif.Spec.Frames
/-!
# What reading a stream to its end should yield

Specification vocabulary for C82; nothing here models code of the repository.
-/
set_option autoImplicit false
namespace Amqp

section
variable {ε T S : Type}

/-- The bytes that a reader delivers: those before the first read of no bytes. -/
def delivered : List Read → Bytes
  | [] => []
  | .wouldBlock :: t => delivered t
  | .bytes b :: t => if b.isEmpty then [] else b ++ delivered t

/-- The reader reaches the end of the stream. -/
def Ends (reads : List Read) : Prop := Read.bytes [] ∈ reads

/-- How often the reader says that there are no bytes yet. -/
def blocks : List Read → Nat
  | [] => 0
  | .wouldBlock :: t => 1 + blocks t
  | .bytes _ :: t => blocks t

/-- Calling the codec on all of the bytes until it returns no item: the items, and the
verdict on what is left. -/
inductive Drains (decode : S → Bytes → S × Bytes × Answer ε T) :
    S → Bytes → List T → Ending ε → Prop where
  | item {st st' : S} {src src' : Bytes} {a : T} {items : List T} {e : Ending ε} :
      decode st src = (st', src', .some a) → Drains decode st' src' items e →
      Drains decode st src (a :: items) e
  | done {st st' : S} {src : Bytes} : decode st src = (st', [], .none) → Drains decode st src [] .done
  | left {st st' : S} {src src' : Bytes} : decode st src = (st', src', .none) → src' ≠ [] →
      Drains decode st src [] .bytesRemaining
  | failed {st st' : S} {src src' : Bytes} {e : ε} : decode st src = (st', src', .err e) →
      Drains decode st src [] (.failed e)
  | panicked {st st' : S} {src src' : Bytes} {p : Panic} : decode st src = (st', src', .panic p) →
      Drains decode st src [] (.panicked p)

end

/-- The bytes are the given frames, one after the other: each is a length-prefixed frame
that decodes to its item with nothing left over. -/
def WholeFrames {T : Type} (dec : Dec T) (bytes : Bytes) (items : List T) : Prop :=
  ∃ ws : List (Bytes × T), bytes = (ws.map (·.1)).flatten ∧ items = ws.map (·.2) ∧
    ∀ w ∈ ws, IsFrame w.1 ∧ dec (w.1.drop 4) = .ok ([], w.2)

/-- The beginning of a frame: fewer bytes than its header has, or than its length says. -/
def BeginsFrame (part : Bytes) : Prop :=
  part ≠ [] ∧ (part.length < 8 ∨ part.length < beDec (part.take 4))

/-- The verdict on the bytes after the whole frames.  Where they announce a length that is
too small for the length itself, a build without overflow checks waits. -/
def Verdict {T : Type} (env : Env) (dec : Dec T) (part : Bytes) : Ending CodecError → Prop
  | .done => part = []
  | .bytesRemaining => BeginsFrame part ∨
      (8 ≤ part.length ∧ beDec (part.take 4) < 4 ∧ env.overflowChecks = false)
  | .failed e => 8 ≤ part.length ∧ 4 ≤ beDec (part.take 4) ∧ beDec (part.take 4) ≤ part.length ∧
      match dec ((part.take (beDec (part.take 4))).drop 4) with
      | .ok (rest, _) => rest ≠ [] ∧ e = .unparsedBytesLeft
      | .err p => e = .parse p
      | .panic _ => False
  | .panicked p => 8 ≤ part.length ∧
      ((beDec (part.take 4) < 4 ∧ env.overflowChecks = true ∧ p = .overflow) ∨
        (4 ≤ beDec (part.take 4) ∧ beDec (part.take 4) ≤ part.length ∧
          dec ((part.take (beDec (part.take 4))).drop 4) = .panic p))

/-- The verdict on the bytes after the protocol headers. -/
def HeaderVerdict (part : Bytes) : Ending ProtocolIdError → Prop
  | .done => part = []
  | .bytesRemaining => part ≠ [] ∧ part.length < 8
  | .failed .InvalidHeader => 8 ≤ part.length ∧ part.take 4 ≠ [0x41, 0x4d, 0x51, 0x50]
  | .failed .Incompatible => 8 ≤ part.length ∧ part.take 4 = [0x41, 0x4d, 0x51, 0x50] ∧
      (part.drop 5).take 3 ≠ [1, 0, 0]
  | .failed .Unknown => 8 ≤ part.length ∧ part.take 4 = [0x41, 0x4d, 0x51, 0x50] ∧
      (part.drop 5).take 3 = [1, 0, 0] ∧ part.getD 4 0 ∉ [0, 2, 3]
  | .panicked _ => False

end Amqp
