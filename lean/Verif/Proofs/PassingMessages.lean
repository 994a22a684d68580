import Verif.Proofs.PassingLists
import Verif.Spec.TravelMessages
import Verif.Props.Equality
/-!
# What was received arrives unaltered or not at all when sent on: messages

Support for C87.
-/
set_option autoImplicit false
namespace Amqp
open Dec
open Forwardable (fwd)

theorem merged_keys {K V : Type} [HKey K] [LawfulKey K] {l : List (K × V)}
    (hh : ∀ e ∈ l, HKey.hashOk e.1 = true) (hn : NodupKeys l) : Lenient.merged l = l := by
  rw [← insertAll_merged l hh, insertAll_fresh l [] hn]
  rfl

/-- What the parts of a received message are. -/
structure InMessage.AllPassing (d : Nat) (m : InMessage) : Prop where
  header : Passing d m.header
  delivery_annotations : Passing d m.delivery_annotations
  message_annotations : Passing d m.message_annotations
  properties : Passing d m.properties
  application_properties : Passing d m.application_properties
  value : Passing d m.value
  footer : Passing d m.footer
  messages : m.messages = []
  format : m.message_format = none
  cache : m.cache = 0

theorem InMessage.AllPassing.add {env : Env} {m : InMessage} (h : m.AllPassing env.stackDepth)
    {s : Section} (hs : s.Origin env) :
    InMessage.AllPassing env.stackDepth (m.addSection id s) := by
  obtain ⟨h1, h2, h3, h4, h5, h6, h7, h8, h9, h10⟩ := h
  cases s with
  | Header v =>
    obtain ⟨i, r, hs⟩ := hs
    exact ⟨passing_some (Header.passesInner env i r v hs), h2, h3, h4, h5, h6, h7, h8, h9, h10⟩
  | DeliveryAnnotations v =>
    obtain ⟨i, r, hs⟩ := hs
    exact ⟨h1, passing_some (Passes.passes env i r v hs), h3, h4, h5, h6, h7, h8, h9, h10⟩
  | MessageAnnotations v =>
    obtain ⟨i, r, hs⟩ := hs
    exact ⟨h1, h2, passing_some (Passes.passes env i r v hs), h4, h5, h6, h7, h8, h9, h10⟩
  | ApplicationProperties v =>
    obtain ⟨i, r, hs⟩ := hs
    exact ⟨h1, h2, h3, h4, passing_some (Passes.passes env i r v hs), h6, h7, h8, h9, h10⟩
  | Data v => exact ⟨h1, h2, h3, h4, h5, h6, h7, h8, h9, h10⟩
  | AmqpSequence v => exact ⟨h1, h2, h3, h4, h5, h6, h7, h8, h9, h10⟩
  | AmqpValue v =>
    obtain ⟨i, r, hs⟩ := hs
    exact ⟨h1, h2, h3, h4, h5, passing_some (Passes.passes env i r v hs), h7, h8, h9, h10⟩
  | Footer v =>
    obtain ⟨i, r, hs⟩ := hs
    exact ⟨h1, h2, h3, h4, h5, h6, passing_some (Passes.passes env i r v hs), h8, h9, h10⟩
  | Properties v =>
    obtain ⟨i, r, hs⟩ := hs
    exact ⟨h1, h2, h3, passing_some (Properties.passesInner env i r v hs), h5, h6, h7, h8, h9, h10⟩

theorem section_origin {env : Env} {i r : Bytes} {s : Section}
    (h : decode Section env i = .ok (r, s)) : s.Origin env := by
  obtain ⟨c, t, rfl, h1⟩ := decode_ok h
  obtain ⟨_, h1⟩ := validateCode_ok h1
  obtain ⟨_, d, _, h1⟩ := bind_eq_ok.1 h1
  exact Section.dispatch_origin env d _ _ _ h1

theorem sections_passing {env : Env} : ∀ (secs : List Section) (m : InMessage),
    m.AllPassing env.stackDepth → (∀ s ∈ secs, s.Origin env) →
    InMessage.AllPassing env.stackDepth (secs.foldl (Message.addSection id) m)
  | [], _, h, _ => h
  | s :: t, m, h, hs => sections_passing t _ (h.add (hs s (by simp))) fun x hx => hs x (by simp [hx])

theorem InMessage.allPassing {env : Env} {i r : Bytes} {m : InMessage}
    (h : InMessage.decode env i = .ok (r, m)) : m.AllPassing env.stackDepth := by
  obtain ⟨secs, -, h1, -, rfl⟩ := C39_only env id i r m h
  rw [← foldl_ofSections]
  refine sections_passing _ _ ⟨passing_none _, passing_none _, passing_none _, passing_none _,
    passing_none _, passing_none _, passing_none _, rfl, rfl, rfl⟩ fun s hs => ?_
  obtain ⟨p, hp, rfl⟩ := List.mem_map.1 hs
  exact section_origin (h1 p hp [])

theorem named_passing {d : Nat} {o : Option StringVariantMap} (h : Passing d o) (hh : held o) :
    (∀ env w, namedFate (fun a => a.entries) env o = .arrives w → w = o ∧ fwd env o) ∧
    (∀ env : Env, d ≤ env.stackDepth → fwd env o →
      namedFate (fun a => a.entries) env o = .arrives o) := by
  cases o with
  | none => exact ⟨fun env w hw => by cases hw; exact ⟨rfl, fun _ h => nomatch h⟩, fun _ _ _ => rfl⟩
  | some a =>
    have hm : Lenient.merged a.entries = a.entries :=
      merged_keys (fun e he => ((hh a rfl).1 e he).1) (hh a rfl).2
    have key : ∀ env, fate env (some a) = .arrives (some a) ↔
        sentValues env.stackDepth a.entries = .arrives a.entries := by
      intro env
      constructor
      · intro e
        obtain ⟨b, e1, e2⟩ := bind_arrives (s := fate env a) e
        cases e2
        obtain ⟨l, e3, e4⟩ := bind_arrives (s := sentValues env.stackDepth a.entries) e1
        cases e4
        exact e3
      · intro e
        exact (bind_same (s := fate env a) (bind_same e _) _).trans rfl
    refine ⟨fun env w hw => ?_, fun env hd hf => ?_⟩
    · obtain ⟨l, e1, e2⟩ := bind_arrives (s := sentValues env.stackDepth a.entries) hw
      have e3 : fate env (some a) = .arrives (some ⟨l⟩) :=
        (bind_same (s := fate env a) (bind_same e1 _) _).trans rfl
      obtain ⟨e4, hf⟩ := h.1 env _ e3
      cases e4
      cases e2
      rw [hm]
      exact ⟨rfl, hf⟩
    · have e1 := (key env).1 (h.2 env hd hf)
      refine (bind_same e1 _).trans ?_
      show Fate.arrives (some (HMap.mk (Lenient.merged a.entries))) = _
      rw [hm]

theorem InMessage.passing {env : Env} {i r : Bytes} {m : InMessage}
    (h : InMessage.decode env i = .ok (r, m)) :
    (∀ env' w, m.travels env' = .arrives w → w = m.withBody ∧ fwd env' m) ∧
    (∀ env' : Env, env.stackDepth ≤ env'.stackDepth → fwd env' m →
      m.travels env' = .arrives m.withBody) := by
  have hp := InMessage.allPassing h
  have hh := ((C63_received_messages env i r).1 m h).1
  obtain ⟨⟨-, -, -, -, ha, -, -, -⟩, -⟩ := hh
  obtain ⟨n1, n2⟩ := named_passing hp.application_properties ha
  clear h ha
  obtain ⟨h1, h2, h3, h4, h5, h6, h7, h8, h9, h10⟩ := hp
  have key : m.sequence = [] → ({
      header := m.header, delivery_annotations := m.delivery_annotations
      message_annotations := m.message_annotations, properties := m.properties
      application_properties := m.application_properties
      data := if m.data = [] ∧ m.value.isNone ∧ m.messages = [] then [⟨[]⟩]
        else m.data ++ m.messages.map fun b => ⟨enc b⟩
      value := m.value, footer := m.footer } : InMessage) = m.withBody := by
    intro hs
    clear n1 n2 h1 h2 h3 h4 h5 h6 h7
    obtain ⟨⟨_, _, _, _, _, _, _, _, _, _, _⟩, _⟩ := m
    simp only at h8 h9 h10 hs
    subst h8 h9 h10 hs
    simp only [InMessage.withBody, List.map_nil, List.append_nil, and_true, Option.isNone_iff_eq_none]
    split <;> rfl
  refine ⟨fun env' w hw => ?_, fun env' hd hf => ?_⟩
  · obtain ⟨a1, e1, hw⟩ := bind_arrives (s := fate env' m.header) hw
    obtain ⟨rfl, -⟩ := h1.1 env' _ e1
    obtain ⟨a2, e2, hw⟩ := bind_arrives (s := fate env' m.delivery_annotations) hw
    obtain ⟨rfl, f2⟩ := h2.1 env' _ e2
    obtain ⟨a3, e3, hw⟩ := bind_arrives (s := fate env' m.message_annotations) hw
    obtain ⟨rfl, f3⟩ := h3.1 env' _ e3
    obtain ⟨a4, e4, hw⟩ := bind_arrives (s := fate env' m.properties) hw
    obtain ⟨rfl, -⟩ := h4.1 env' _ e4
    obtain ⟨a5, e5, hw⟩ := bind_arrives (s := namedFate (fun a => a.entries) env' m.application_properties) hw
    obtain ⟨rfl, f5⟩ := n1 env' _ e5
    obtain ⟨a6, e6, hw⟩ := bind_arrives (s := sequenceFate m.sequence) hw
    have hs : m.sequence = [] := by
      unfold sequenceFate at e6
      split at e6
      · assumption
      · cases e6
    obtain ⟨a7, e7, hw⟩ := bind_arrives (s := fate env' m.value) hw
    obtain ⟨rfl, f7⟩ := h6.1 env' _ e7
    obtain ⟨a8, e8, hw⟩ := bind_arrives (s := fate env' m.footer) hw
    obtain ⟨rfl, f8⟩ := h7.1 env' _ e8
    cases hw
    exact ⟨key hs, f2, f3, f5, (by rw [hs]; exact fun _ h => (List.not_mem_nil h).elim), f7, f8⟩
  · obtain ⟨f2, f3, f5, f6, f7, f8⟩ := hf
    have hs : m.sequence = [] := List.eq_nil_iff_forall_not_mem.2 fun l hl => f6 l hl
    refine (bind_same (s := fate env' m.header) (h1.2 env' hd fun _ _ => trivial) _).trans ?_
    refine (bind_same (s := fate env' m.delivery_annotations) (h2.2 env' hd f2) _).trans ?_
    refine (bind_same (s := fate env' m.message_annotations) (h3.2 env' hd f3) _).trans ?_
    refine (bind_same (s := fate env' m.properties)
      (h4.2 env' hd fun _ _ => ⟨fun _ _ => trivial, fun _ _ => trivial⟩) _).trans ?_
    refine (bind_same (s := namedFate (fun a => a.entries) env' m.application_properties)
      (n2 env' hd f5) _).trans ?_
    refine (bind_same (s := sequenceFate m.sequence) (a := ()) (if_pos hs) _).trans ?_
    refine (bind_same (s := fate env' m.value) (h6.2 env' hd f7) _).trans ?_
    refine (bind_same (s := fate env' m.footer) (h7.2 env' hd f8) _).trans ?_
    exact congrArg Fate.arrives (key hs)

end Amqp
