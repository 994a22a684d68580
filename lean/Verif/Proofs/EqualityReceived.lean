import Verif.Spec.Equality
import Verif.Proofs.ForwardLaws
/-!
# What the decoders yield is among the values a program can hold
-/
set_option autoImplicit false
namespace Amqp
open Dec

class ReceivedHeld (α : Type) [DecodeF α] [Holdable α] : Prop where
  held_of : ∀ (env : Env) (i r : Bytes) (v : α), decode α env i = .ok (r, v) → held v

theorem receivedAny (α : Type) [DecodeF α] : @ReceivedHeld α _ (.any α) :=
  @ReceivedHeld.mk α _ (.any α) fun _ _ _ _ _ => trivial

instance : ReceivedHeld Bool := receivedAny _
instance : ReceivedHeld UInt8 := receivedAny _
instance : ReceivedHeld UInt16 := receivedAny _
instance : ReceivedHeld UInt32 := receivedAny _
instance : ReceivedHeld UInt64 := receivedAny _
instance : ReceivedHeld RStr := receivedAny _
instance : ReceivedHeld Symbol := receivedAny _
instance : ReceivedHeld Binary := receivedAny _
instance : ReceivedHeld DateTime := receivedAny _
instance : ReceivedHeld MessageId := receivedAny _
instance : ReceivedHeld ErrorCondition := receivedAny _
instance : ReceivedHeld DistributionMode := receivedAny _

instance : ReceivedHeld Variant := ⟨fun env i r v h => (yield_decVar env env.stackDepth i r v h).1.valid⟩

instance {α : Type} [DecodeF α] [Holdable α] [ReceivedHeld α] : ReceivedHeld (Option α) where
  held_of env i r v h := by
    intro a e
    subst e
    obtain ⟨c, t, rfl, h1⟩ := decode_ok h
    simp only [decF] at h1
    split at h1
    · cases h1
    · obtain ⟨b, h2, e⟩ := map_eq_ok.1 h1
      cases e
      exact ReceivedHeld.held_of env (c :: t) r a (by rw [decode_cons]; exact h2)

instance : ReceivedHeld (Multiple Symbol) := ⟨fun _ _ _ _ _ _ _ => trivial⟩

instance : ReceivedHeld VList where
  held_of env i r v h := by
    obtain ⟨c, t, rfl, h1⟩ := decode_ok h
    obtain ⟨l, h0, rfl⟩ := map_eq_ok.1 h1
    obtain ⟨r1, hd, _, h2⟩ := bind_eq_ok.1 h0
    obtain ⟨g1, _⟩ := yield_decodeN (yield_decVar env env.stackDepth) _ _ _ _ h2
    exact fun v hv => (g1 v hv).valid

instance {K V : Type} [HKey K] [DecodeF K] [DecodeF V] [Holdable V] [ReceivedHeld V] :
    ReceivedHeld (HMap K V) where
  held_of env i r m h := by
    obtain ⟨hn, hh⟩ := C17_keys_unique env i r m h
    obtain ⟨c, t, rfl, h1⟩ := decode_ok h
    obtain ⟨l, h2, rfl⟩ := map_eq_ok.1 h1
    obtain ⟨r1, hd, _, h3⟩ := bind_eq_ok.1 h2
    obtain ⟨_, rfl, r', h4⟩ := withSlice_ok h3
    have ho := mapLoop_origin (P := fun _ : K => True) (Q := fun v : V => held v)
      (fun i r a h => trivial) (fun i r a h => ReceivedHeld.held_of env i r a h) _ _ _ _ _ (by simp) h4
    exact ⟨fun e he => ⟨hh e he, (ho e he).2⟩, hn⟩

section
variable {α : Type} [Encode α] [DecodeF α] [LawfulEnc α] [LawfulDec α] [NonNull α] [HasWf α]
  [LawfulCodec α] [Holdable α] [ReceivedHeld α]

theorem received_req {env : Env} {v : α} {name : String}
    (h : (∃ i r, (Field.req α name).dec env i = .ok (r, v)) ∨ (Field.req α name).missing = .ok v) :
    held v := by
  rcases h with ⟨i, r, h⟩ | h
  · exact ReceivedHeld.held_of env i r v h
  · have h' : (.err (.requiredFieldOmitted name) : Res ParseError α) = .ok v := h
    cases h'

theorem received_opt {env : Env} {o : Option α}
    (h : (∃ i r, (Field.opt α).dec env i = .ok (r, o)) ∨ (Field.opt α).missing = .ok o) : held o := by
  rcases h with ⟨i, r, h⟩ | h
  · exact ReceivedHeld.held_of env i r o h
  · have h' : (.ok none : Res ParseError (Option α)) = .ok o := h
    cases h'
    intro a e; cases e
end

/-- The part of a list decoder after the descriptor yields values a program can hold. -/
def ReceivedInner (α : Type) [Encode α] [DecodeF α] [ListType α] [Holdable α] : Prop :=
  ∀ (env : Env) (i r : Bytes) (v : α), ListType.inner env i = .ok (r, v) → held v

theorem received_list {α : Type} [Encode α] [DecodeF α] [ListType α] [Holdable α]
    (h : ReceivedInner α) : ReceivedHeld α := ⟨by
  intro env i r v hd
  obtain ⟨c, t, rfl, h1⟩ := decode_ok hd
  rw [ListType.decF_eq, describedAs_eq] at h1
  obtain ⟨_, h1⟩ := validateCode_ok h1
  obtain ⟨_, d, _, h1⟩ := bind_eq_ok.1 h1
  split at h1
  · cases h1
  · exact h env _ _ v h1⟩

end Amqp
