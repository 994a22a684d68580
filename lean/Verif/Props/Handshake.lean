import Verif.Props.Streams
import Verif.Spec.Handshake
/-!
# C58: several codecs one after the other on one buffer
-/
set_option autoImplicit false
namespace Amqp

/-! ### Single calls -/

theorem protocolIdDecode_more {src : Bytes} (h : (protocolIdDecode src).2 ≠ .none) (more : Bytes) :
    protocolIdDecode (src ++ more) = ((protocolIdDecode src).1 ++ more, (protocolIdDecode src).2) := by
  by_cases h8 : src.length < 8
  · rw [C33_wait src h8] at h; exact absurd rfl h
  · unfold protocolIdDecode
    rw [if_neg (by simp; omega), if_neg h8, List.take_append_of_le_length (by omega),
      List.drop_append_of_le_length (by omega)]

theorem protocolIdDecode_none {src : Bytes} (h : (protocolIdDecode src).2 = .none) :
    protocolIdDecode src = (src, .none) := by
  by_cases h8 : src.length < 8
  · exact C33_wait src h8
  · unfold protocolIdDecode at h
    rw [if_neg h8] at h
    simp only at h
    split at h
    · simp at h
    · split at h
      · simp at h
      · split at h
        · simp at h
        · split at h
          · simp at h
          · split at h <;> simp at h

theorem Answer.map_none {ε ε' T T' : Type} {f : ε → ε'} {g : T → T'} {a : Answer ε T} :
    a.map f g = .none ↔ a = .none := by
  cases a <;> simp [Answer.map]

theorem Stage.call_more {env : Env} {stage : Stage} {st : DecodeState} {src : Bytes}
    (h : (stage.call env st src).answer ≠ .none) (more : Bytes) :
    stage.call env st (src ++ more) = ⟨(stage.call env st src).state,
      (stage.call env st src).src ++ more, (stage.call env st src).answer⟩ := by
  cases stage <;> simp only [Stage.call, ne_eq, Answer.map_none] at h ⊢
  · rw [protocolIdDecode_more h more]
  · rw [codecDecode_more h more]
  · rw [codecDecode_more h more]

theorem Stage.call_resume {env : Env} {stage : Stage} {st : DecodeState} {src : Bytes}
    (h : (stage.call env st src).answer = .none) (more : Bytes) :
    stage.call env st (src ++ more) = stage.call env (stage.call env st src).state
      ((stage.call env st src).src ++ more) := by
  cases stage <;> simp only [Stage.call, Answer.map_none] at h ⊢
  · rw [protocolIdDecode_none h]
  · rw [codecDecode_resume h more]
  · rw [codecDecode_resume h more]

theorem codecDecode_item_state {T : Type} {env : Env} {dec : Dec T} {st : DecodeState} {src : Bytes}
    {a : T} (h : (codecDecode env dec st src).answer = .some a) :
    (codecDecode env dec st src).state = .frameHeader := by
  have key : ∀ st' src', codecDecode env dec st src = ⟨st', src', .some a⟩ → st' = .frameHeader := by
    intro st' src' e
    cases st with
    | frame n => exact (frameStep_some e).1
    | frameHeader =>
      unfold codecDecode at e
      simp only at e
      split at e
      · cases e
      · split at e
        · cases e
        · split at e
          · cases e
          · exact (frameStep_some e).1
  exact key _ (codecDecode env dec st src).src (by rw [← h])

theorem Answer.map_some {ε ε' T T' : Type} {f : ε → ε'} {g : T → T'} {a : Answer ε T} {b : T'}
    (h : a.map f g = .some b) : ∃ x, a = .some x ∧ g x = b := by
  cases a with
  | some x => exact ⟨x, rfl, by simpa [Answer.map] using h⟩
  | none => simp [Answer.map] at h
  | err e => simp [Answer.map] at h
  | panic p => simp [Answer.map] at h

theorem Stage.call_item_state {env : Env} {stage : Stage} {src : Bytes} {a : Incoming}
    (h : (stage.call env .frameHeader src).answer = .some a) :
    (stage.call env .frameHeader src).state = .frameHeader := by
  cases stage <;> simp only [Stage.call] at h ⊢ <;> obtain ⟨x, hx, -⟩ := Answer.map_some h
  · exact codecDecode_item_state hx
  · exact codecDecode_item_state hx

theorem Stage.call_nothing (env : Env) (stage : Stage) :
    (stage.call env .frameHeader []).answer = .none := by
  cases stage <;> rfl

theorem Stage.call_prefix (env : Env) (stage : Stage) (st : DecodeState) (src : Bytes) :
    ∃ used, src = used ++ (stage.call env st src).src := by
  cases stage with
  | sasl => exact C30_prefix env _ st src
  | amqp => exact C30_prefix env _ st src
  | header =>
    show ∃ used, src = used ++ (protocolIdDecode src).1
    unfold protocolIdDecode
    split
    · exact ⟨[], rfl⟩
    · exact ⟨src.take 8, (List.take_append_drop 8 src).symm⟩

/-! ### Reading from the start -/

/-- The bytes `all` yield the items, each read by the codec of the plan from the
start of its bytes, and `rest` is left. -/
inductive Chain (env : Env) (plan : List Incoming → Stage) (all : Bytes) :
    List Incoming → Bytes → Prop where
  | start : Chain env plan all [] all
  | next {items : List Incoming} {src rest : Bytes} {a : Incoming} : Chain env plan all items src →
      (plan items).call env .frameHeader src = ⟨.frameHeader, rest, .some a⟩ →
      Chain env plan all (items ++ [a]) rest

theorem Chain.more {env : Env} {plan : List Incoming → Stage} {all : Bytes} {items : List Incoming}
    {rest : Bytes} (h : Chain env plan all items rest) (x : Bytes) :
    Chain env plan (all ++ x) items (rest ++ x) := by
  induction h with
  | start => exact .start
  | next _ hr ih => exact .next ih (by rw [Stage.call_more (by rw [hr]; simp), hr])

theorem Chain.nil {env : Env} {plan : List Incoming → Stage} {all rest : Bytes}
    (h : Chain env plan all [] rest) : rest = all := by
  generalize hl : ([] : List Incoming) = l at h
  cases h with
  | start => rfl
  | next _ _ => simp at hl

theorem Chain.snoc {env : Env} {plan : List Incoming → Stage} {all rest : Bytes}
    {items : List Incoming} {a : Incoming} (h : Chain env plan all (items ++ [a]) rest) :
    ∃ src, Chain env plan all items src ∧
      (plan items).call env .frameHeader src = ⟨.frameHeader, rest, .some a⟩ := by
  generalize hl : items ++ [a] = l at h
  cases h with
  | start => simp at hl
  | next h hr =>
    obtain ⟨rfl, e⟩ := List.append_inj' hl rfl
    cases e
    exact ⟨_, h, hr⟩

theorem list_snoc_cases {α : Type} (l : List α) : l = [] ∨ ∃ t a, l = t ++ [a] := by
  rcases l.eq_nil_or_concat with h | ⟨t, a, h⟩
  · exact .inl h
  · exact .inr ⟨t, a, by simpa using h⟩

theorem Chain.unique {env : Env} {plan : List Incoming → Stage} {all : Bytes} :
    ∀ (n : Nat) {items items' : List Incoming} {rest rest' : Bytes},
    items.length = n → items'.length = n → Chain env plan all items rest →
    Chain env plan all items' rest' → items = items' ∧ rest = rest'
  | 0, items, items', rest, rest', e, e', h, h' => by
    have := List.length_eq_zero_iff.1 e
    have := List.length_eq_zero_iff.1 e'
    subst items items'
    exact ⟨rfl, by rw [h.nil, h'.nil]⟩
  | n + 1, items, items', rest, rest', e, e', h, h' => by
    rcases list_snoc_cases items with rfl | ⟨t, a, rfl⟩
    · simp at e
    rcases list_snoc_cases items' with rfl | ⟨t', a', rfl⟩
    · simp at e'
    obtain ⟨s, c, r⟩ := h.snoc
    obtain ⟨s', c', r'⟩ := h'.snoc
    obtain ⟨rfl, rfl⟩ := Chain.unique n (by simpa using e) (by simpa using e') c c'
    rw [r] at r'
    cases r'
    exact ⟨rfl, rfl⟩

/-- Of two readings of the same bytes, one continues the other. -/
theorem Chain.compare {env : Env} {plan : List Incoming → Stage} {all : Bytes}
    {items : List Incoming} {rest : Bytes} (h : Chain env plan all items rest) :
    ∀ (k : Nat) {items' : List Incoming} {rest' : Bytes}, Chain env plan all items' rest' →
    items'.length = items.length + k →
    (items' = items ∧ rest' = rest) ∨ ∃ a tail r, items' = items ++ a :: tail ∧
      (plan items).call env .frameHeader rest = ⟨.frameHeader, r, .some a⟩
  | 0, items', rest', h', e => by
    obtain ⟨rfl, rfl⟩ := Chain.unique _ e rfl h' h
    exact .inl ⟨rfl, rfl⟩
  | k + 1, items', rest', h', e => by
    rcases list_snoc_cases items' with rfl | ⟨t, a, rfl⟩
    · simp at e
    obtain ⟨s, c, r⟩ := h'.snoc
    simp only [List.length_append, List.length_cons, List.length_nil] at e
    rcases Chain.compare h k c (by omega) with ⟨rfl, rfl⟩ | ⟨b, tail, r', rfl, hb⟩
    · exact .inr ⟨a, [], _, rfl, r⟩
    · exact .inr ⟨b, tail ++ [a], r', by simp, hb⟩

/-! ### Any schedule -/

/-- What is true of a connection at any moment, `all` being what has arrived:
the items are what reading from the start yields, and the codec goes on as if it
started at the bytes left. -/
structure Conn.Inv (env : Env) (plan : List Incoming → Stage) (all : Bytes) (c : Conn) : Prop where
  chain : ∃ left, Chain env plan all c.items left ∧
    (¬ c.failed → ∀ more, (plan c.items).call env c.call.state (c.call.src ++ more) =
      (plan c.items).call env .frameHeader (left ++ more)) ∧
    (c.failed → (plan c.items).call env .frameHeader left = c.call) ∧
    ∃ used, left = used ++ c.call.src

theorem Conn.Inv.start (env : Env) (plan : List Incoming → Stage) :
    Conn.Inv env plan [] Conn.start :=
  ⟨⟨[], .start, fun _ _ => rfl, fun h => h.elim, [], rfl⟩⟩

theorem Conn.failed_iff {c : Conn} : c.failed ↔
    (∃ e, c.call.answer = .err e) ∨ ∃ p, c.call.answer = .panic p := by
  unfold Conn.failed
  cases c.call.answer <;> simp

theorem Conn.Inv.arrive {env : Env} {plan : List Incoming → Stage} {all : Bytes} {c : Conn}
    (h : c.Inv env plan all) (b : Bytes) : (c.step env plan (.arrive b)).Inv env plan (all ++ b) := by
  obtain ⟨left, hc, h1, h2, used, h3⟩ := h.chain
  have hf : (c.step env plan (.arrive b)).failed ↔ c.failed := Iff.rfl
  refine ⟨⟨left ++ b, hc.more b, fun h more => ?_, fun h => ?_, used, by
    rw [h3, List.append_assoc]; rfl⟩⟩
  · show (plan c.items).call env c.call.state (c.call.src ++ b ++ more) = _
    rw [List.append_assoc, List.append_assoc]
    exact h1 (fun h' => h (hf.2 h')) _
  · have hx := h2 (hf.1 h)
    show (plan c.items).call env .frameHeader (left ++ b) = _
    rw [Stage.call_more (by
      rw [hx]
      rcases Conn.failed_iff.1 (hf.1 h) with ⟨e, he⟩ | ⟨e, he⟩ <;> rw [he] <;> simp), hx]
    rfl

theorem Conn.step_failed {env : Env} {plan : List Incoming → Stage} {c : Conn} (h : c.failed) :
    c.step env plan .poll = c := by
  rcases Conn.failed_iff.1 h with ⟨e, he⟩ | ⟨e, he⟩ <;> simp only [Conn.step, he]

theorem Conn.step_poll {env : Env} {plan : List Incoming → Stage} {c : Conn} (h : ¬ c.failed) :
    c.step env plan .poll =
      let r := (plan c.items).call env c.call.state c.call.src
      match r.answer with
      | .some a =>
        let items := c.items ++ [a]
        ⟨items, ⟨if plan items = plan c.items then r.state else .frameHeader, r.src, r.answer⟩⟩
      | _ => ⟨c.items, r⟩ := by
  rw [Conn.failed_iff] at h
  simp only [Conn.step]
  cases ha : c.call.answer with
  | none => rfl
  | some a => rfl
  | err e => exact absurd (.inl ⟨e, ha⟩) h
  | panic p => exact absurd (.inr ⟨p, ha⟩) h

theorem Conn.Inv.poll {env : Env} {plan : List Incoming → Stage} {all : Bytes} {c : Conn}
    (h : c.Inv env plan all) : (c.step env plan .poll).Inv env plan all := by
  by_cases hf : c.failed
  · rw [Conn.step_failed hf]; exact h
  obtain ⟨left, hc, h1, -, -⟩ := h.chain
  have h1 := h1 hf
  have h0 := h1 []
  rw [List.append_nil, List.append_nil] at h0
  rw [Conn.step_poll hf, h0]
  simp only
  cases ha : ((plan c.items).call env .frameHeader left).answer with
  | some a =>
    have hst := Stage.call_item_state ha
    have hr : (plan c.items).call env .frameHeader left =
        ⟨.frameHeader, ((plan c.items).call env .frameHeader left).src, .some a⟩ := by
      revert ha hst
      generalize (plan c.items).call env .frameHeader left = r
      intro ha hst
      cases r
      simp only at ha hst
      subst ha hst
      rfl
    refine ⟨⟨_, .next hc hr, fun _ more => ?_, fun h => h.elim, [], rfl⟩⟩
    simp only [hst, ite_self]
  | none =>
    refine ⟨⟨left, hc, fun _ more => ?_, fun h => ?_, Stage.call_prefix env _ _ left⟩⟩
    · exact (Stage.call_resume ha more).symm
    · rcases Conn.failed_iff.1 h with ⟨e, he⟩ | ⟨e, he⟩ <;> rw [ha] at he <;> cases he
  | err e =>
    refine ⟨⟨left, hc, fun h => ?_, fun _ => rfl, Stage.call_prefix env _ _ left⟩⟩
    exact absurd (Conn.failed_iff.2 (.inl ⟨e, ha⟩)) h
  | panic p =>
    refine ⟨⟨left, hc, fun h => ?_, fun _ => rfl, Stage.call_prefix env _ _ left⟩⟩
    exact absurd (Conn.failed_iff.2 (.inr ⟨p, ha⟩)) h

theorem Conn.Inv.run {env : Env} {plan : List Incoming → Stage} : ∀ (es : List Event) {all : Bytes}
    {c : Conn}, c.Inv env plan all →
    (c.run env plan es).Inv env plan (all ++ (es.map Event.bytes).flatten)
  | [], all, c, h => by simpa [Conn.run] using h
  | .arrive b :: es, all, c, h => by
    have := Conn.Inv.run es (h.arrive b)
    simpa [Conn.run, Event.bytes] using this
  | .poll :: es, all, c, h => by
    have := Conn.Inv.run es h.poll
    simpa [Conn.run, Event.bytes] using this

/-! ### C58 -/

theorem Conn.Inv.settled {env : Env} {plan : List Incoming → Stage} {all : Bytes} {c : Conn}
    (h : c.Inv env plan all) (hs : (c.step env plan .poll).items = c.items) :
    ∃ left, Chain env plan all c.items left ∧
      c.step env plan .poll = ⟨c.items, (plan c.items).call env .frameHeader left⟩ ∧
      ∀ a, ((plan c.items).call env .frameHeader left).answer ≠ .some a := by
  obtain ⟨left, hc, h1, h2, -⟩ := h.chain
  refine ⟨left, hc, ?_⟩
  by_cases hf : c.failed
  · rw [Conn.step_failed hf, h2 hf]
    refine ⟨rfl, fun a ha => ?_⟩
    rcases Conn.failed_iff.1 hf with ⟨e, he⟩ | ⟨e, he⟩ <;> rw [he] at ha <;> cases ha
  · have h0 := h1 hf []
    rw [List.append_nil, List.append_nil] at h0
    rw [Conn.step_poll hf, h0] at hs ⊢
    simp only at hs ⊢
    cases ha : ((plan c.items).call env .frameHeader left).answer with
    | some a => rw [ha] at hs; simp at hs
    | none => simp only [ha, ne_eq, reduceCtorEq, not_false_eq_true, implies_true, and_self]
    | err e => simp only [ha, ne_eq, reduceCtorEq, not_false_eq_true, implies_true, and_self]
    | panic p => simp only [ha, ne_eq, reduceCtorEq, not_false_eq_true, implies_true, and_self]

theorem Chain.none_after {env : Env} {plan : List Incoming → Stage} {all : Bytes}
    {items items' : List Incoming} {rest rest' : Bytes} (h : Chain env plan all items rest)
    (hn : ∀ a, ((plan items).call env .frameHeader rest).answer ≠ .some a)
    (h' : Chain env plan all items' rest') : items' <+: items := by
  rcases Nat.le_total items.length items'.length with hl | hl
  · rcases h.compare (items'.length - items.length) h' (by omega) with ⟨rfl, -⟩ | ⟨a, tail, r, rfl, hr⟩
    · exact List.prefix_refl _
    · exact absurd (by rw [hr]) (hn a)
  · rcases h'.compare (items.length - items'.length) h (by omega) with ⟨rfl, -⟩ | ⟨a, tail, r, rfl, hr⟩
    · exact List.prefix_refl _
    · exact List.prefix_append _ _

theorem Conn.run_inv (env : Env) (plan : List Incoming → Stage) (es : List Event) :
    (Conn.start.run env plan es).Inv env plan (es.map Event.bytes).flatten := by
  simpa using (Conn.Inv.start env plan).run es

/-- **C58**: whatever the plan by which the codecs follow one another, and whatever
the bytes: two schedules by which the same bytes arrive leave the connection in
the same state, with the same items and the same error if any, once a call
returns no further item. -/
theorem C58_schedule (env : Env) (plan : List Incoming → Stage) (es es' : List Event)
    (hb : (es.map Event.bytes).flatten = (es'.map Event.bytes).flatten)
    (hs : ((Conn.start.run env plan es).step env plan .poll).items =
      (Conn.start.run env plan es).items)
    (hs' : ((Conn.start.run env plan es').step env plan .poll).items =
      (Conn.start.run env plan es').items) :
    (Conn.start.run env plan es).step env plan .poll =
      (Conn.start.run env plan es').step env plan .poll := by
  obtain ⟨l, h1, h2, h3⟩ := (Conn.run_inv env plan es).settled hs
  obtain ⟨l', h1', h2', h3'⟩ := (Conn.run_inv env plan es').settled hs'
  rw [hb] at h1
  have p1 := h1.none_after h3 h1'
  have p2 := h1'.none_after h3' h1
  have e := p1.eq_of_length_le p2.length_le
  obtain ⟨-, el⟩ := Chain.unique _ rfl (by rw [e]) h1 h1'
  rw [h2, h2', e, el]

/-- **C58**: and what has been returned before is the beginning of that. -/
theorem C58_beginning (env : Env) (plan : List Incoming → Stage) (es es' : List Event)
    (hb : (es.map Event.bytes).flatten <+: (es'.map Event.bytes).flatten)
    (hs' : ((Conn.start.run env plan es').step env plan .poll).items =
      (Conn.start.run env plan es').items) :
    (Conn.start.run env plan es).items <+: (Conn.start.run env plan es').items := by
  obtain ⟨l, h1, -, -⟩ := (Conn.run_inv env plan es).chain
  obtain ⟨l', h1', h2', h3'⟩ := (Conn.run_inv env plan es').settled hs'
  obtain ⟨x, hx⟩ := hb
  have := h1.more x
  rw [hx] at this
  exact h1'.none_after h3' this

/-! ### Writing and reading -/

/-- The bytes of an item. -/
def Incoming.wire : Incoming → Bytes
  | .header p => p.header
  | .sasl f => enc f
  | .amqp f => enc f

theorem writeAll_ok {env : Env} (slack : Growth) : ∀ (sent : List Incoming) (dst : Buf),
    (∀ a ∈ sent, a.Faithful env) →
    ∃ out, writeAll slack sent dst = .ok out ∧ out.data = dst.data ++ sent.flatMap Incoming.wire
  | [], dst, _ => ⟨dst, rfl, by simp⟩
  | .header p :: t, dst, h => by
    obtain ⟨d, h1, h2⟩ := C33_encode slack p dst
    obtain ⟨out, h3, h4⟩ := writeAll_ok slack t d fun a ha => h a (by simp [ha])
    exact ⟨out, by rw [writeAll, h1]; exact h3, by rw [h4, h2]; simp [Incoming.wire]⟩
  | .sasl f :: t, dst, h => by
    obtain ⟨d, h1, h2⟩ := (C34_frames slack dst).2 f
    obtain ⟨out, h3, h4⟩ := writeAll_ok slack t d fun a ha => h a (by simp [ha])
    exact ⟨out, by rw [writeAll, h1]; exact h3, by rw [h4, h2]; simp [Incoming.wire]⟩
  | .amqp f :: t, dst, h => by
    obtain ⟨d, h1, h2⟩ := (C34_frames slack dst).1 f (h _ (by simp) : Incoming.Faithful env (.amqp f)).2.1
    obtain ⟨out, h3, h4⟩ := writeAll_ok slack t d fun a ha => h a (by simp [ha])
    exact ⟨out, by rw [writeAll, h1]; exact h3, by rw [h4, h2]; simp [Incoming.wire]⟩

theorem Stage.call_wire {env : Env} {a : Incoming} (h : a.Faithful env) (rest : Bytes) :
    a.stage.call env .frameHeader (a.wire ++ rest) = ⟨.frameHeader, rest, .some a⟩ := by
  cases a with
  | header p => cases p <;> rfl
  | sasl f =>
    have hw := (C26_sasl env f h.1).2 h.2
    have := frame_wire (env := env) (dec := SaslFrame.decode env) (rest := rest) hw
    rw [(C26_sasl env f h.1).1] at this
    simp only [Stage.call, Incoming.stage, Incoming.wire, this]
    rfl
  | amqp f =>
    have hw := (C26_amqp env f h.1 h.2.1).2 h.2.2
    have := frame_wire (env := env) (dec := AmqpFrame.decode env) (rest := rest) hw
    rw [(C26_amqp env f h.1 h.2.1).1] at this
    simp only [Stage.call, Incoming.stage, Incoming.wire, this]
    rfl

theorem Chain.sent {env : Env} {plan : List Incoming → Stage} {sent : List Incoming}
    (hf : ∀ a ∈ sent, a.Faithful env) (hp : FollowsPlan plan sent) :
    ∀ (before after : List Incoming), sent = before ++ after →
      Chain env plan (sent.flatMap Incoming.wire) before (after.flatMap Incoming.wire) := by
  intro before
  induction hn : before.length generalizing before with
  | zero =>
    intro after e
    have := List.length_eq_zero_iff.1 hn
    subst before
    rw [List.nil_append] at e
    rw [e]
    exact .start
  | succ n ih =>
    intro after e
    rcases list_snoc_cases before with rfl | ⟨t, a, rfl⟩
    · simp at hn
    have e' : sent = t ++ a :: after := by rw [e]; simp
    refine .next (ih t (by simpa using hn) (a :: after) e') ?_
    rw [hp t a after e', List.flatMap_cons]
    exact Stage.call_wire (hf a (by rw [e']; simp)) _

theorem Chain.sent_prefix {env : Env} {plan : List Incoming → Stage} {sent : List Incoming}
    (hf : ∀ a ∈ sent, a.Faithful env) (hp : FollowsPlan plan sent) {items : List Incoming}
    {rest : Bytes} (h : Chain env plan (sent.flatMap Incoming.wire) items rest) :
    ∃ after, sent = items ++ after ∧ rest = after.flatMap Incoming.wire := by
  have h1 : items <+: sent :=
    (Chain.sent hf hp sent [] (by simp)).none_after (by
      intro a ha
      rw [List.flatMap_nil, Stage.call_nothing] at ha
      cases ha) h
  obtain ⟨after, e⟩ := h1
  exact ⟨after, e.symm, (Chain.unique _ rfl rfl h (Chain.sent hf hp items after e.symm)).2⟩

/-- **C58**: headers and frames written one after the other are read one after the
other, each by the codec the plan provides for it, however the bytes arrive and
whenever the codecs are called: at any time the items returned are the first of
those sent and no codec has failed; and when all bytes have arrived, as many
calls as items were sent return the rest of them and leave nothing in the
buffer. -/
theorem C58_handshake (env : Env) (plan : List Incoming → Stage) (slack : Growth)
    (sent : List Incoming) (dst : Buf) (hf : ∀ a ∈ sent, a.Faithful env)
    (hp : FollowsPlan plan sent) :
    ∃ out, writeAll slack sent dst = .ok out ∧ ∀ es : List Event,
      (dst.data ++ (es.map Event.bytes).flatten <+: out.data →
        (Conn.start.run env plan es).items <+: sent ∧ ¬ (Conn.start.run env plan es).failed) ∧
      (dst.data ++ (es.map Event.bytes).flatten = out.data → ∀ n, sent.length ≤ n →
        (Conn.start.run env plan (es ++ List.replicate n .poll)).items = sent ∧
        (Conn.start.run env plan (es ++ List.replicate n .poll)).call.src = []) := by
  obtain ⟨out, h1, h2⟩ := writeAll_ok slack sent dst hf
  refine ⟨out, h1, fun es => ?_⟩
  have safe : ∀ es : List Event, (es.map Event.bytes).flatten <+: sent.flatMap Incoming.wire →
      ∃ after left, sent = (Conn.start.run env plan es).items ++ after ∧
        ¬ (Conn.start.run env plan es).failed ∧
        (∀ more, (plan (Conn.start.run env plan es).items).call env
            (Conn.start.run env plan es).call.state ((Conn.start.run env plan es).call.src ++ more) =
          (plan (Conn.start.run env plan es).items).call env .frameHeader (left ++ more)) ∧
        (∃ used, left = used ++ (Conn.start.run env plan es).call.src) ∧
        ∃ x, (es.map Event.bytes).flatten ++ x = sent.flatMap Incoming.wire ∧
          left ++ x = after.flatMap Incoming.wire := by
    intro es hpre
    obtain ⟨left, hc, h3, h4, h7⟩ := (Conn.run_inv env plan es).chain
    obtain ⟨x, hx⟩ := hpre
    have hm := hc.more x
    rw [hx] at hm
    obtain ⟨after, e1, e2⟩ := Chain.sent_prefix hf hp hm
    have hnf : ¬ (Conn.start.run env plan es).failed := by
      intro hfail
      have h5 := h4 hfail
      have hans : ((plan (Conn.start.run env plan es).items).call env .frameHeader left).answer ≠
          .none := by
        rw [h5]
        rcases Conn.failed_iff.1 hfail with ⟨e, he⟩ | ⟨e, he⟩ <;> rw [he] <;> simp
      have h6 := Stage.call_more hans x
      rw [e2, h5] at h6
      cases after with
      | nil =>
        have := Stage.call_nothing env (plan (Conn.start.run env plan es).items)
        rw [List.flatMap_nil] at h6
        rw [h6] at this
        rcases Conn.failed_iff.1 hfail with ⟨e, he⟩ | ⟨e, he⟩ <;> rw [he] at this <;> cases this
      | cons a t =>
        rw [hp _ _ _ e1, List.flatMap_cons, Stage.call_wire (hf a (by rw [e1]; simp))] at h6
        simp only [Call.mk.injEq] at h6
        rcases Conn.failed_iff.1 hfail with ⟨e, he⟩ | ⟨e, he⟩ <;> rw [he] at h6 <;> simp at h6
    exact ⟨after, left, e1, hnf, h3 hnf, h7, x, hx, e2⟩
  constructor
  · intro hpre
    rw [h2, List.prefix_append_right_inj] at hpre
    obtain ⟨after, left, e, hnf, -⟩ := safe es hpre
    exact ⟨⟨after, e.symm⟩, hnf⟩
  · intro hall n hn
    rw [h2] at hall
    have hall := List.append_cancel_left hall
    have hbytes : ∀ k, ((es ++ List.replicate k Event.poll).map Event.bytes).flatten =
        sent.flatMap Incoming.wire := by
      intro k
      rw [List.map_append, List.flatten_append, hall]
      have : ((List.replicate k Event.poll).map Event.bytes).flatten = [] := by
        induction k with
        | zero => rfl
        | succ k ih => rw [List.replicate_succ, List.map_cons, List.flatten_cons, ih]; rfl
      rw [this, List.append_nil]
    have hcount : ∀ k, min k sent.length ≤
        (Conn.start.run env plan (es ++ List.replicate k Event.poll)).items.length := by
      intro k
      induction k with
      | zero => simp
      | succ k ih =>
        have hrun : Conn.start.run env plan (es ++ List.replicate (k + 1) Event.poll) =
            (Conn.start.run env plan (es ++ List.replicate k Event.poll)).step env plan .poll := by
          rw [List.replicate_succ', ← List.append_assoc]
          simp only [Conn.run, List.foldl_append, List.foldl_cons, List.foldl_nil]
        rw [hrun]
        obtain ⟨after, left, e, hnf, h3, ⟨used, hu⟩, x, hx, hl⟩ :=
          safe (es ++ List.replicate k Event.poll) (by rw [hbytes]; exact List.prefix_refl _)
        have hx0 : x = [] := by
          rw [hbytes] at hx
          simpa using hx
        subst hx0
        rw [List.append_nil] at hl
        generalize Conn.start.run env plan (es ++ List.replicate k Event.poll) = c at *
        have h0 := h3 []
        rw [List.append_nil, List.append_nil] at h0
        rw [Conn.step_poll hnf, h0, hl]
        cases after with
        | nil =>
          rw [List.append_nil] at e
          have := Stage.call_nothing env (plan c.items)
          rw [List.flatMap_nil]
          simp only [this]
          rw [e]; omega
        | cons a t =>
          rw [hp _ _ _ e, List.flatMap_cons, Stage.call_wire (hf a (by rw [e]; simp))]
          simp only [List.length_append, List.length_cons, List.length_nil]
          omega
    obtain ⟨after, left, e, hnf, h3, ⟨used, hu⟩, x, hx, hl⟩ :=
      safe (es ++ List.replicate n Event.poll) (by rw [hbytes]; exact List.prefix_refl _)
    have hc := hcount n
    rw [Nat.min_eq_right hn] at hc
    have ha : after = [] := by
      have := congrArg List.length e
      rw [List.length_append] at this
      exact List.length_eq_zero_iff.1 (by omega)
    subst ha
    rw [List.append_nil] at e
    refine ⟨e.symm, ?_⟩
    rw [List.flatMap_nil, hu] at hl
    simp only [List.append_eq_nil_iff] at hl
    exact hl.1.2

/-! ### The handshakes of AMQP 1.0 -/

theorem followsPlan_of_take {plan : List Incoming → Stage} {sent : List Incoming}
    (h : ∀ (i : Nat) (hi : i < sent.length), plan (sent.take i) = (sent[i]).stage) :
    FollowsPlan plan sent := by
  rintro before a after rfl
  have := h before.length (by simp)
  simpa using this

theorem saslPlanRest_steps {steps : List Incoming} (h : ∀ a ∈ steps, a.isOutcome = false) (l : List Incoming) :
    saslPlanRest (steps ++ l) = saslPlanRest l := by
  induction steps with
  | nil => rfl
  | cons a t ih =>
    rw [List.cons_append, saslPlanRest, h a (by simp), if_neg (by simp),
      ih fun b hb => h b (by simp [hb])]

theorem list_split_cases {α : Type} {l m b r : List α} {a : α} (h : l ++ m = b ++ a :: r) :
    (∃ t, l = b ++ a :: t) ∨ ∃ t, b = l ++ t ∧ m = t ++ a :: r := by
  rcases List.append_eq_append_iff.1 h with ⟨t, e1, e2⟩ | ⟨t, e1, e2⟩
  · exact .inr ⟨t, e1, e2⟩
  · cases t with
    | nil => exact .inr ⟨[], by simpa using e1.symm, by simpa using e2.symm⟩
    | cons c t =>
      rw [List.cons_append] at e2
      obtain ⟨rfl, rfl⟩ := List.cons.inj e2
      exact .inl ⟨t, e1⟩

/-- **C58**: the handshake with SASL of part 5: a header, any number of SASL
frames, the outcome, a header, any AMQP frames. -/
theorem C58_sasl (h h' : ProtocolId) (steps frames : List Incoming) (o : SaslOutcome)
    (hs : ∀ a ∈ steps, a.stage = .sasl ∧ a.isOutcome = false)
    (hf : ∀ a ∈ frames, a.stage = .amqp) :
    FollowsPlan saslPlan (.header h :: steps ++ .sasl ⟨.SaslOutcome o⟩ :: .header h' :: frames) := by
  intro before a after e
  cases before with
  | nil =>
    rw [List.cons_append, List.nil_append] at e
    obtain ⟨rfl, -⟩ := List.cons.inj e
    rfl
  | cons b before =>
    rw [List.cons_append, List.cons_append] at e
    obtain ⟨-, e⟩ := List.cons.inj e
    show saslPlanRest before = _
    rcases list_split_cases e with ⟨t, rfl⟩ | ⟨t, rfl, e2⟩
    · have := saslPlanRest_steps (steps := before) (fun x hx => (hs x (by simp [hx])).2) []
      rw [List.append_nil] at this
      rw [this]
      exact (hs a (by simp)).1.symm
    · rw [saslPlanRest_steps fun x hx => (hs x hx).2]
      cases t with
      | nil =>
        rw [List.nil_append] at e2
        obtain ⟨rfl, -⟩ := List.cons.inj e2
        rfl
      | cons c t =>
        rw [List.cons_append] at e2
        obtain ⟨rfl, e3⟩ := List.cons.inj e2
        cases t with
        | nil =>
          rw [List.nil_append] at e3
          obtain ⟨rfl, -⟩ := List.cons.inj e3
          rfl
        | cons d t =>
          rw [List.cons_append] at e3
          obtain ⟨rfl, e4⟩ := List.cons.inj e3
          exact (hf a (by rw [e4]; simp)).symm

/-- **C58**: the handshake without: a header and AMQP frames. -/
theorem C58_plain (h : ProtocolId) (frames : List Incoming) (hf : ∀ a ∈ frames, a.stage = .amqp) :
    FollowsPlan (fun items => if items.isEmpty then .header else .amqp) (.header h :: frames) := by
  intro before a after e
  cases before with
  | nil =>
    rw [List.nil_append] at e
    obtain ⟨rfl, -⟩ := List.cons.inj e
    rfl
  | cons b before =>
    rw [List.cons_append] at e
    obtain ⟨-, e⟩ := List.cons.inj e
    exact (hf a (by rw [e]; simp)).symm

/-- A server's side of a handshake. -/
def handshake : List Incoming :=
  .header .AmqpSasl :: [.sasl ⟨.SaslMechanisms SaslMechanisms.sample⟩] ++
    .sasl ⟨.SaslOutcome SaslOutcome.sample⟩ :: .header .Amqp ::
    [.amqp ⟨0, .Open Open.sample⟩, .amqp ⟨0, .Empty⟩]

theorem handshake_faithful : ∀ a ∈ handshake, a.Faithful debugEnv := by
  intro a ha
  simp only [handshake, List.cons_append, List.nil_append, List.mem_cons, List.not_mem_nil,
    or_false] at ha
  rcases ha with rfl | rfl | rfl | rfl | rfl | rfl
  · trivial
  · exact ⟨C21_sasl_frame_body _ _ (C21_sasl_mechanisms _ _ (by decide)
      (LawfulCodec.rt debugEnv (⟨[⟨.lit "PLAIN"⟩]⟩ : Symbols) ⟨fun _ _ h => by
        cases List.mem_singleton.1 h; exact SmallRT.rt debugEnv (⟨.lit "PLAIN"⟩ : Symbol) (by decide),
        fun h => absurd rfl h⟩)), by decide⟩
  · exact ⟨C21_sasl_frame_body _ _ (C21_sasl_outcome _ _ (by decide)), by decide⟩
  · trivial
  · exact ⟨C21_open _ _ (by decide) (fun _ => rfl) (fun _ => rfl) (fun _ => rfl)
      (fun _ => rfl) (fun _ => rfl), (fun _ _ h => by cases h), by decide⟩
  · exact ⟨trivial, (fun _ _ h => by cases h), by decide⟩

/-- It works however the bytes arrive. -/
example : ∃ out, writeAll (fun _ _ => 0) handshake ⟨[], 0, by decide⟩ = .ok out ∧ ∀ es : List Event,
    (es.map Event.bytes).flatten = out.data →
    (Conn.start.run debugEnv saslPlan (es ++ List.replicate 6 .poll)).items = handshake := by
  obtain ⟨out, h1, h2⟩ := C58_handshake debugEnv saslPlan (fun _ _ => 0) handshake ⟨[], 0, by decide⟩
    handshake_faithful (C58_sasl _ _ _ _ _
      (fun a ha => by cases List.mem_singleton.1 ha; exact ⟨rfl, rfl⟩)
      (fun a ha => by
        simp only [List.mem_cons, List.not_mem_nil, or_false] at ha
        rcases ha with rfl | rfl <;> rfl))
  exact ⟨out, h1, fun es he => ((h2 es).2 (by simpa using he) 6 (by decide)).1⟩

example : FollowsPlan (fun items => if items.isEmpty then .header else .amqp)
    [.header .Amqp, .amqp ⟨0, .Empty⟩, .amqp ⟨1, .Empty⟩] :=
  C58_plain .Amqp [.amqp ⟨0, .Empty⟩, .amqp ⟨1, .Empty⟩] (by
    intro a h; simp only [List.mem_cons, List.not_mem_nil, or_false] at h; rcases h with rfl | rfl <;> rfl)
/-- A header and an empty frame in one piece and in three. -/
example : let plan : List Incoming → Stage := fun items => if items.isEmpty then .header else .amqp
    let es : List Event := [.arrive [0x41, 0x4d, 0x51, 0x50, 0, 1, 0, 0, 0, 0, 0, 8, 2, 0, 0, 0], .poll, .poll]
    let es' : List Event := [.arrive [0x41, 0x4d, 0x51], .poll, .arrive [0x50, 0, 1, 0, 0, 0, 0], .poll,
      .arrive [0, 8, 2, 0, 0, 0], .poll]
    (Conn.start.run debugEnv plan es).step debugEnv plan .poll =
      (Conn.start.run debugEnv plan es').step debugEnv plan .poll ∧
    (Conn.start.run debugEnv plan es').items <+: (Conn.start.run debugEnv plan es).items :=
  ⟨C58_schedule debugEnv _ _ _ rfl rfl rfl, C58_beginning debugEnv _ _ _ (by decide) rfl⟩

end Amqp
