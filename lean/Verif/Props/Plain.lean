import Verif.Proofs.PlainLaws
import Verif.Props.StandardWritten
import Verif.Props.Growth
/-!
# C95: what conforming peers send through a relay

A relay reads frames or messages with this crate and writes them again.  If its peers
conform to the standard, what it sends on conforms exactly if there is no list within it
and no array of symbols that takes 254 bytes (`Verif.Spec.Plain`).  All other conditions
for writing (C71: ASCII symbols, whole milliseconds, distinct keys, no texts as filters,
no custom names that are the standard's, no empty payload) are met by anything legal.
-/
set_option autoImplicit false
namespace Amqp
open Dec Standard

/-! ## Values -/

/-- **C95**: a value that was read from a legal encoding is written as the standard says
exactly if there is no list within it.  (The encoding was shorter than 1 GiB.) -/
theorem C95_value (env : Env) (v : Variant) (b : Bytes) (h : Wire .accepted v b)
    (hd : v.depth ≤ env.stackDepth) (hb : b.length < 2 ^ 30) :
    decode Variant env b = .ok ([], v) ∧ (Wire .amqp v (enc v) ↔ v.ListFree) := by
  have h1 := C50_decode_partial env v b h hd []
  rw [List.append_nil] at h1
  have h2 := C88_value.1 env b [] v h1
  have hs : (enc v).length < 2 ^ 32 := by simp only [List.length_nil] at h2; omega
  have h3 := C50_encode_exactly_partial v hs
  rw [wire_canon h] at h3
  exact ⟨h1, h3.trans ⟨listFree_of_writable v,
    writable_of_listFree (standard_accepted env) (P := .accepted env) h⟩⟩

/-! ## Frames -/

/-- **C95**: a frame that was read from a legal encoding is written as the standard says
exactly if there is no list within it and no array of symbols taking 254 bytes. -/
theorem C95_frame (env : Env) (f : AmqpFrame) (b : Bytes) (h : amqpFrame (.accepted env) f b)
    (hb : b.length < 2 ^ 30) :
    codecDecode env (AmqpFrame.decode env) .frameHeader b = ⟨.frameHeader, [], .some f⟩ ∧
    (amqpFrame .all f (enc f) ↔ plainFrame f.performative) := by
  have h1 := C71_read_amqp_frame_partial env f b [] h
  rw [List.append_nil] at h1
  refine ⟨h1, ?_⟩
  have h2 := C71_read_stream_partial env [(b, f)] [b]
    (by intro p hp; obtain rfl := List.mem_singleton.1 hp; exact h) (by simp)
  have hs := C88_short env [b] (by simpa using hb) f (by rw [h2]; simp)
  obtain ⟨two, -, hf⟩ := h
  obtain ⟨u, hu⟩ := framed_body hf
  exact (C71_written_amqp_frame_exactly_partial f hs).trans
    (gives_frameBody (standard_accepted env) f.performative u hu)

/-- **C95**: what conforming peers send through a relay, cut anywhere, is read, and all of
what is sent on is as the standard says exactly if there is no list within any of the
frames and no array of symbols taking 254 bytes. -/
theorem C95_stream (env : Env) (ws : List (Bytes × AmqpFrame)) (chunks : List Bytes)
    (h : ∀ w ∈ ws, amqpFrame (.accepted env) w.2 w.1) (hc : chunks.flatten = (ws.map Prod.fst).flatten)
    (hb : chunks.flatten.length < 2 ^ 30) :
    (receive env (AmqpFrame.decode env) .frameHeader [] chunks).1 = ws.map Prod.snd ∧
    ((∀ f ∈ (receive env (AmqpFrame.decode env) .frameHeader [] chunks).1, amqpFrame .all f (enc f)) ↔
      ∀ w ∈ ws, plainFrame w.2.performative) := by
  have h1 : (receive env (AmqpFrame.decode env) .frameHeader [] chunks).1 = ws.map Prod.snd := by
    rw [C71_read_stream_partial env ws chunks h hc]
  refine ⟨h1, ?_⟩
  have key : ∀ w ∈ ws, (amqpFrame .all w.2 (enc w.2) ↔ plainFrame w.2.performative) := fun w hw => by
    have hs := C88_short env chunks hb w.2 (by rw [h1]; exact List.mem_map_of_mem hw)
    obtain ⟨two, -, hf⟩ := h w hw
    obtain ⟨u, hu⟩ := framed_body hf
    exact (C71_written_amqp_frame_exactly_partial w.2 hs).trans
      (gives_frameBody (standard_accepted env) w.2.performative u hu)
  rw [h1]
  constructor
  · exact fun g w hw => (key w hw).1 (g w.2 (List.mem_map_of_mem hw))
  · intro g f hf
    obtain ⟨w, hw, rfl⟩ := List.mem_map.1 hf
    exact (key w hw).2 (g w hw)

/-- **C95**, SASL frames. -/
theorem C95_sasl_frame (env : Env) (f : SaslFrame) (b : Bytes) (h : saslFrame .all f b)
    (hb : b.length < 2 ^ 30) :
    codecDecode env (SaslFrame.decode env) .frameHeader b = ⟨.frameHeader, [], .some f⟩ ∧
    (saslFrame .all f (enc f) ↔ plainSasl f.body) := by
  have h1 := C71_read_sasl_frame env f b [] h
  rw [List.append_nil] at h1
  refine ⟨h1, ?_⟩
  obtain ⟨h2, h3⟩ := read_saslFrame (env := env) f b h
  have h4 := C88_sasl_frame env _ _ f h3
  have hs : (enc f).length < 2 ^ 32 := by
    simp only [List.length_drop, List.length_nil] at h4
    omega
  obtain ⟨two, hf⟩ := h
  obtain ⟨u, hu⟩ := framed_body hf
  exact (C71_written_sasl_frame_exactly_partial f hs).trans (gives_saslBody standard_all f.body u hu)

/-! ## Messages -/

theorem contains_received {s : Standard.Message} {S : Scope} {b : Bytes} (h : message S s b) :
    Contains HMap.entries (s.asReceived id) s := by
  obtain ⟨b1, b2, b3, b4, b5, b6, b7, -, -, -, -, -, g6, -, -⟩ := h
  obtain ⟨hd, da, ma, p, ap, bd, f⟩ := s
  refine ⟨rfl, rfl, rfl, rfl, ?_, ?_, rfl⟩
  · cases ap <;> rfl
  · cases bd with
    | data l =>
      refine ⟨rfl, rfl, ?_⟩
      have hl : l ≠ [] := several_ne g6
      simp [Message.asReceived, Body.datas, hl]
    | sequence l => exact ⟨rfl, rfl, rfl, rfl, several_ne g6⟩
    | value v => exact ⟨rfl, rfl, rfl, rfl⟩

/-- **C95**: a message that was read from a legal encoding is written as the standard says
exactly if its body is not of sequences and there is no list within it. -/
theorem C95_message (env : Env) (m : Standard.Message) (b : Bytes) (h : message (.accepted env) m b)
    (hb : b.length + 4 < 2 ^ 30) :
    (∃ rest, InMessage.decode env b = .ok (rest, m.asReceived id)) ∧
    (message .all m (enc (m.asReceived id)) ↔ plainMessage m) := by
  have h1 := C71_read_message_partial env m b h
  refine ⟨h1, ?_⟩
  obtain ⟨rest, h1⟩ := h1
  have h2 := C88_message env b rest _ h1
  exact (C71_written_message_exactly_partial _ m (contains_received h) (by intro b hb; cases hb)
    (by omega)).trans (gives_message (standard_accepted env) m b h)

/-! ## Examples -/

/-- A map with a text, as the crate would not write it: a long map. -/
theorem foreign_map : Wire .accepted (.map [(.uint 0, .string (.lit "a"))])
    [0xd1, 0, 0, 0, 8, 0, 0, 0, 2, 0x43, 0xa1, 1, 0x61] :=
  .map (D := .accepted) (c := 0xd1) (w := 4) (s := [0, 0, 0, 8]) (n := [0, 0, 0, 2])
    [((.uint 0, [0x43]), (.string (.lit "a"), [0xa1, 1, 0x61]))] .wide ⟨rfl, by decide⟩ ⟨rfl, by decide⟩
    (by intro p hp; obtain rfl := List.mem_singleton.1 hp; exact .prim .uint0)
    (by
      intro p hp
      obtain rfl := List.mem_singleton.1 hp
      exact .prim (.string (s := .lit "a") (l := [1]) .narrow ⟨rfl, by decide⟩))
    (by intro p hp; obtain rfl := List.mem_singleton.1 hp; rfl) (by simp [NodupKeys])
example : Wire .amqp (.map [(.uint 0, .string (.lit "a"))])
    (enc (Variant.map [(.uint 0, .string (.lit "a"))])) :=
  (C95_value debugEnv _ _ foreign_map (by decide) (by decide)).2.2
    (by simp [Variant.ListFree, listFreeMap])
/-- The empty list, read from its one legal byte, is not written as the standard says. -/
example : ¬ Wire .amqp (.list []) (enc (Variant.list [])) := fun h => by
  have := (C95_value debugEnv (.list []) [0x45] .list0 (by decide) (by decide)).2.1 h
  simp only [Variant.ListFree] at this

/-- The `begin` of another implementation is sent on as the standard says. -/
example : amqpFrame .all ⟨258, .Begin foreignBegin⟩ (enc (⟨258, .Begin foreignBegin⟩ : AmqpFrame)) :=
  (C95_frame debugEnv _ _ (foreign_frame _) (by decide)).2.2
    ⟨fun _ h => (by cases h), fun _ h => (by cases h), fun _ h => (by cases h)⟩
example (a b : Bytes)
    (h : a ++ b = [0, 0, 0, 48] ++ [3, 0] ++ [1, 2] ++ [9, 9, 9, 9] ++ foreignBytes) :
    ∀ f ∈ (receive debugEnv (AmqpFrame.decode debugEnv) .frameHeader [] [a, b]).1,
      amqpFrame .all f (enc f) :=
  (C95_stream debugEnv [(_, ⟨258, .Begin foreignBegin⟩)] [a, b]
    (by intro p hp; obtain rfl := List.mem_singleton.1 hp; exact foreign_frame _)
    (by simpa using h) (by simp only [List.flatten_cons, List.flatten_nil, List.append_nil, h]; decide)).2.2
    (by
      intro p hp; obtain rfl := List.mem_singleton.1 hp
      exact ⟨fun _ h => (by cases h), fun _ h => (by cases h), fun _ h => (by cases h)⟩)
example : saslFrame .all ⟨.SaslMechanisms ⟨⟨[⟨.lit "A"⟩, ⟨.lit "BC"⟩]⟩⟩⟩
    (enc (⟨.SaslMechanisms ⟨⟨[⟨.lit "A"⟩, ⟨.lit "BC"⟩]⟩⟩⟩ : SaslFrame)) :=
  (C95_sasl_frame debugEnv _ _ mechanisms_legal (by decide)).2.2 (.inr (by decide))

/-- A message of one empty sequence is legal and read, but not written as the standard
says. -/
theorem empty_sequence (P : Part) : message (.of P) { body := .sequence [⟨[]⟩] }
    [0x00, 0x53, 0x76, 0x45] :=
  ⟨[], [], [], [], [], [0x00, 0x53, 0x76, 0x45], [], .none, .none, .none, .none, .none,
    .last ⟨[0x53, 0x76], [0x45], .code (.smallulong (num_one 0x76)), ⟨.list0, nofun⟩, rfl⟩, .none, rfl⟩
example : ¬ message .all { body := .sequence [⟨[]⟩] }
    (enc (({ body := .sequence [⟨[]⟩] } : Standard.Message).asReceived id : InMessage)) := fun h =>
  ((C95_message debugEnv _ _ (empty_sequence _) (by decide)).2.1 h).2.2.2.1
/-- One with two bytes of data is. -/
theorem two_bytes (P : Part) : message (.of P) { body := .data [⟨[1, 2]⟩] }
    [0x00, 0x53, 0x75, 0xb0, 0, 0, 0, 2, 1, 2] :=
  ⟨[], [], [], [], [], [0x00, 0x53, 0x75, 0xb0, 0, 0, 0, 2, 1, 2], [], .none, .none, .none, .none, .none,
    .last ⟨[0x53, 0x75], [0xb0, 0, 0, 0, 2, 1, 2], .code (.smallulong (num_one 0x75)),
      .binary (l := [0, 0, 0, 2]) .wide ⟨rfl, by decide⟩, rfl⟩, .none, rfl⟩
example : message .all { body := .data [⟨[1, 2]⟩] }
    (enc (({ body := .data [⟨[1, 2]⟩] } : Standard.Message).asReceived id : InMessage)) :=
  (C95_message debugEnv _ _ (two_bytes _) (by decide)).2.2
    ⟨fun _ h => (by cases h), fun _ h => (by cases h), fun _ h => (by cases h), trivial,
      fun _ h => (by cases h)⟩

end Amqp
