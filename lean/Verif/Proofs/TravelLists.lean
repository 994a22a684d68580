import Verif.Proofs.Travel
import Verif.Spec.TravelLists
/-!
# What becomes of performatives and sections on their way: the types one by one

Generated by `tools/gen_travel.py`.  Support for C86.
-/
set_option autoImplicit false
namespace Amqp
open Dec

instance : ListFate Error where
  ff := (.req, .opt, .opt, ())
  fate_eq _ _ := rfl
  held_ok _ h := ⟨h.1, h.2.1, h.2.2, trivial⟩
instance : FateLaw Error := listFateLaw

instance : ListFate Received where
  ff := (.req, .req, ())
  fate_eq _ _ := rfl
  held_ok _ h := ⟨h.1, h.2, trivial⟩
instance : FateLaw Received := listFateLaw

instance : ListFate Accepted where
  ff := ()
  fate_eq _ _ := rfl
  held_ok _ _ := trivial
instance : FateLaw Accepted := listFateLaw

instance : ListFate Rejected where
  ff := (.opt, ())
  fate_eq _ _ := rfl
  held_ok _ h := ⟨h, trivial⟩
instance : FateLaw Rejected := listFateLaw

instance : ListFate Released where
  ff := ()
  fate_eq _ _ := rfl
  held_ok _ _ := trivial
instance : FateLaw Released := listFateLaw

instance : ListFate Modified where
  ff := (.opt, .opt, .opt, ())
  fate_eq _ _ := rfl
  held_ok _ h := ⟨h.1, h.2.1, h.2.2, trivial⟩
instance : FateLaw Modified := listFateLaw

instance : FateLaw DeliveryState := ⟨fun env u h hl rest => by
  cases u with
  | Received v =>
    exact fate_union_list DeliveryState.Received (DeliveryState.dispatch env) v h hl rest rfl rfl
  | Accepted v =>
    exact fate_union_list DeliveryState.Accepted (DeliveryState.dispatch env) v h hl rest rfl rfl
  | Rejected v =>
    exact fate_union_list DeliveryState.Rejected (DeliveryState.dispatch env) v h hl rest rfl rfl
  | Released v =>
    exact fate_union_list DeliveryState.Released (DeliveryState.dispatch env) v h hl rest rfl rfl
  | Modified v =>
    exact fate_union_list DeliveryState.Modified (DeliveryState.dispatch env) v h hl rest rfl rfl⟩

instance : FateLaw Outcome := ⟨fun env u h hl rest => by
  cases u with
  | Accepted v =>
    exact fate_union_list Outcome.Accepted (Outcome.dispatch env) v h hl rest rfl rfl
  | Rejected v =>
    exact fate_union_list Outcome.Rejected (Outcome.dispatch env) v h hl rest rfl rfl
  | Released v =>
    exact fate_union_list Outcome.Released (Outcome.dispatch env) v h hl rest rfl rfl
  | Modified v =>
    exact fate_union_list Outcome.Modified (Outcome.dispatch env) v h hl rest rfl rfl⟩

instance : ListFate Source where
  ff := (.opt, .dflt, .dflt, .dflt, .dflt, .opt, .opt, .opt, .opt, .opt, .opt, ())
  fate_eq _ _ := rfl
  held_ok _ h := ⟨h.1, h.2.1, h.2.2.1, h.2.2.2.1, h.2.2.2.2.1, h.2.2.2.2.2.1, h.2.2.2.2.2.2.1, h.2.2.2.2.2.2.2.1, h.2.2.2.2.2.2.2.2.1, h.2.2.2.2.2.2.2.2.2.1, h.2.2.2.2.2.2.2.2.2.2, trivial⟩
instance : FateLaw Source := listFateLaw

instance : ListFate Target where
  ff := (.opt, .dflt, .dflt, .dflt, .dflt, .opt, .opt, ())
  fate_eq _ _ := rfl
  held_ok _ h := ⟨h.1, h.2.1, h.2.2.1, h.2.2.2.1, h.2.2.2.2.1, h.2.2.2.2.2.1, h.2.2.2.2.2.2, trivial⟩
instance : FateLaw Target := listFateLaw

instance : ListFate Open where
  ff := (.req, .opt, .dflt, .dflt, .opt, .opt, .opt, .opt, .opt, .opt, ())
  fate_eq _ _ := rfl
  held_ok _ h := ⟨h.1, h.2.1, h.2.2.1, h.2.2.2.1, h.2.2.2.2.1, h.2.2.2.2.2.1, h.2.2.2.2.2.2.1, h.2.2.2.2.2.2.2.1, h.2.2.2.2.2.2.2.2.1, h.2.2.2.2.2.2.2.2.2, trivial⟩
instance : FateLaw Open := listFateLaw

instance : ListFate Begin where
  ff := (.opt, .req, .req, .req, .dflt, .opt, .opt, .opt, ())
  fate_eq _ _ := rfl
  held_ok _ h := ⟨h.1, h.2.1, h.2.2.1, h.2.2.2.1, h.2.2.2.2.1, h.2.2.2.2.2.1, h.2.2.2.2.2.2.1, h.2.2.2.2.2.2.2, trivial⟩
instance : FateLaw Begin := listFateLaw

instance : ListFate Attach where
  ff := (.req, .req, .req, .dflt, .dflt, .opt, .opt, .opt, .dflt, .opt, .opt, .opt, .opt, .opt, ())
  fate_eq _ _ := rfl
  held_ok _ h := ⟨h.1, h.2.1, h.2.2.1, h.2.2.2.1, h.2.2.2.2.1, h.2.2.2.2.2.1, h.2.2.2.2.2.2.1, h.2.2.2.2.2.2.2.1, h.2.2.2.2.2.2.2.2.1, h.2.2.2.2.2.2.2.2.2.1, h.2.2.2.2.2.2.2.2.2.2.1, h.2.2.2.2.2.2.2.2.2.2.2.1, h.2.2.2.2.2.2.2.2.2.2.2.2.1, h.2.2.2.2.2.2.2.2.2.2.2.2.2, trivial⟩
instance : FateLaw Attach := listFateLaw

instance : ListFate Flow where
  ff := (.opt, .req, .req, .req, .opt, .opt, .opt, .opt, .dflt, .dflt, .opt, ())
  fate_eq _ _ := rfl
  held_ok _ h := ⟨h.1, h.2.1, h.2.2.1, h.2.2.2.1, h.2.2.2.2.1, h.2.2.2.2.2.1, h.2.2.2.2.2.2.1, h.2.2.2.2.2.2.2.1, h.2.2.2.2.2.2.2.2.1, h.2.2.2.2.2.2.2.2.2.1, h.2.2.2.2.2.2.2.2.2.2, trivial⟩
instance : FateLaw Flow := listFateLaw

instance : ListFate Disposition where
  ff := (.req, .req, .opt, .dflt, .opt, .dflt, ())
  fate_eq _ _ := rfl
  held_ok _ h := ⟨h.1, h.2.1, h.2.2.1, h.2.2.2.1, h.2.2.2.2.1, h.2.2.2.2.2, trivial⟩
instance : FateLaw Disposition := listFateLaw

instance : ListFate Detach where
  ff := (.req, .dflt, .opt, ())
  fate_eq _ _ := rfl
  held_ok _ h := ⟨h.1, h.2.1, h.2.2, trivial⟩
instance : FateLaw Detach := listFateLaw

instance : ListFate End where
  ff := (.opt, ())
  fate_eq _ _ := rfl
  held_ok _ h := ⟨h, trivial⟩
instance : FateLaw End := listFateLaw

instance : ListFate Close where
  ff := (.opt, ())
  fate_eq _ _ := rfl
  held_ok _ h := ⟨h, trivial⟩
instance : FateLaw Close := listFateLaw

instance : ListFate TransferPerf where
  ff := (.req, .opt, .opt, .opt, .opt, .dflt, .opt, .opt, .dflt, .dflt, .dflt, ())
  fate_eq _ _ := rfl
  held_ok _ h := ⟨h.1, h.2.1, h.2.2.1, h.2.2.2.1, h.2.2.2.2.1, h.2.2.2.2.2.1, h.2.2.2.2.2.2.1, h.2.2.2.2.2.2.2.1, h.2.2.2.2.2.2.2.2.1, h.2.2.2.2.2.2.2.2.2.1, h.2.2.2.2.2.2.2.2.2.2, trivial⟩
instance : FateLaw TransferPerf := listFateLaw

instance : ListFate SaslMechanisms where
  ff := (.req, ())
  fate_eq _ _ := rfl
  held_ok _ h := ⟨h, trivial⟩
instance : FateLaw SaslMechanisms := listFateLaw

instance : ListFate SaslInit where
  ff := (.req, .opt, .opt, ())
  fate_eq _ _ := rfl
  held_ok _ h := ⟨h.1, h.2.1, h.2.2, trivial⟩
instance : FateLaw SaslInit := listFateLaw

instance : ListFate SaslChallenge where
  ff := (.req, ())
  fate_eq _ _ := rfl
  held_ok _ h := ⟨h, trivial⟩
instance : FateLaw SaslChallenge := listFateLaw

instance : ListFate SaslResponse where
  ff := (.req, ())
  fate_eq _ _ := rfl
  held_ok _ h := ⟨h, trivial⟩
instance : FateLaw SaslResponse := listFateLaw

instance : ListFate SaslOutcome where
  ff := (.req, .opt, ())
  fate_eq _ _ := rfl
  held_ok _ h := ⟨h.1, h.2, trivial⟩
instance : FateLaw SaslOutcome := listFateLaw

instance : FateLaw SaslFrameBody := ⟨fun env u h hl rest => by
  cases u with
  | SaslMechanisms v =>
    exact fate_union_list SaslFrameBody.SaslMechanisms (SaslFrameBody.dispatch env) v h hl rest rfl rfl
  | SaslInit v =>
    exact fate_union_list SaslFrameBody.SaslInit (SaslFrameBody.dispatch env) v h hl rest rfl rfl
  | SaslChallenge v =>
    exact fate_union_list SaslFrameBody.SaslChallenge (SaslFrameBody.dispatch env) v h hl rest rfl rfl
  | SaslResponse v =>
    exact fate_union_list SaslFrameBody.SaslResponse (SaslFrameBody.dispatch env) v h hl rest rfl rfl
  | SaslOutcome v =>
    exact fate_union_list SaslFrameBody.SaslOutcome (SaslFrameBody.dispatch env) v h hl rest rfl rfl⟩

instance : ListFate Header where
  ff := (.dflt, .dflt, .opt, .dflt, .dflt, ())
  fate_eq _ _ := rfl
  held_ok _ h := ⟨h.1, h.2.1, h.2.2.1, h.2.2.2.1, h.2.2.2.2, trivial⟩
instance : FateLaw Header := listFateLaw

instance : ListFate Properties where
  ff := (.opt, .opt, .opt, .opt, .opt, .opt, .opt, .opt, .opt, .opt, .opt, .opt, .opt, ())
  fate_eq _ _ := rfl
  held_ok _ h := ⟨h.1, h.2.1, h.2.2.1, h.2.2.2.1, h.2.2.2.2.1, h.2.2.2.2.2.1, h.2.2.2.2.2.2.1, h.2.2.2.2.2.2.2.1, h.2.2.2.2.2.2.2.2.1, h.2.2.2.2.2.2.2.2.2.1, h.2.2.2.2.2.2.2.2.2.2.1, h.2.2.2.2.2.2.2.2.2.2.2.1, h.2.2.2.2.2.2.2.2.2.2.2.2, trivial⟩
instance : FateLaw Properties := listFateLaw

instance : FateLaw Section := ⟨fun env u h hl rest => by
  cases u with
  | Header v =>
    exact fate_union_list Section.Header (Section.dispatch env) v h hl rest rfl rfl
  | DeliveryAnnotations v =>
    exact fate_restricted Section.DeliveryAnnotations (Section.dispatch env) 113 (by decide) v h hl rest rfl rfl
  | MessageAnnotations v =>
    exact fate_restricted Section.MessageAnnotations (Section.dispatch env) 114 (by decide) v h hl rest rfl rfl
  | ApplicationProperties v =>
    exact fate_restricted Section.ApplicationProperties (Section.dispatch env) 116 (by decide) v h hl rest rfl rfl
  | Data v =>
    exact fate_restricted Section.Data (Section.dispatch env) 117 (by decide) v h hl rest rfl rfl
  | AmqpSequence v =>
    exact fate_restricted Section.AmqpSequence (Section.dispatch env) 118 (by decide) v h hl rest rfl rfl
  | AmqpValue v =>
    exact fate_restricted Section.AmqpValue (Section.dispatch env) 119 (by decide) v h hl rest rfl rfl
  | Footer v =>
    exact fate_restricted Section.Footer (Section.dispatch env) 120 (by decide) v h hl rest rfl rfl
  | Properties v =>
    exact fate_union_list Section.Properties (Section.dispatch env) v h hl rest rfl rfl⟩

end Amqp
