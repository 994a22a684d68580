import Verif.Proofs.LenientLists
import Verif.Proofs.StandardFrames
/-!
# What is read: frames, streams and messages

Support for C72.
-/
set_option autoImplicit false
namespace Amqp
open Dec
open Standard hiding Fill
variable {env : Env}

/-! ## Bodies of frames -/

theorem accepts_frameBody (f : Frame) (b : Bytes) :
    Frame.decode env b = .ok ([], f) ↔ frameBody (.lenient env) f b := by
  obtain ⟨m0, m1, m2, m3, m4, m5, m6, m7, m8⟩ := C24_frame_members
  constructor
  · intro h
    cases b with
    | nil => cases h; rfl
    | cons c t =>
      obtain ⟨rfl, e, he, u, p, d, rfl, hd, hi⟩ :=
        union_table (dec := Frame.decode) C24_frame_others (disp := Frame.dispatch) (fun _ => rfl) h
      have key : ∀ {α : Type} [DecodeF α] {mk : α → Frame} {c : UInt64} {n : String} {L : Rep α},
          Alternative Frame.decode (decode α) mk c n → Accepts α env L → d.Is c n →
          ∃ v, f = mk v ∧ L v (0x00 :: (u ++ p)) := by
        intro α _ mk c n L ha hL hi
        obtain ⟨v, rfl, b, e, hb⟩ := alternative_cases ha hL h hd hi
        rw [List.append_nil] at e
        exact ⟨v, rfl, e ▸ hb⟩
      simp only [List.mem_cons, List.not_mem_nil, or_false] at he
      rcases he with rfl | rfl | rfl | rfl | rfl | rfl | rfl | rfl | rfl
      · obtain ⟨v, rfl, h1⟩ := key m0 accepts_opening hi; exact h1
      · obtain ⟨v, rfl, h1⟩ := key m1 accepts_beginning hi; exact h1
      · obtain ⟨v, rfl, h1⟩ := key m2 accepts_attach hi; exact h1
      · obtain ⟨v, rfl, h1⟩ := key m3 accepts_flow hi; exact h1
      · rw [m4 env u p d hd hi] at h
        cases hm : decode Transfer env (0x00 :: (u ++ p)) with
        | err e => rw [hm] at h; cases h
        | panic e => rw [hm] at h; cases h
        | ok q =>
          obtain ⟨r', v⟩ := q
          rw [hm] at h
          cases h
          obtain ⟨w, payload, e, hw, -, hb⟩ := C27_decode_only env _ _ _ hm
          exact ⟨w, payload, (Takes.reads accepts_transfer).1 hw, e, hb⟩
      · obtain ⟨v, rfl, h1⟩ := key m5 accepts_disposition hi; exact h1
      · obtain ⟨v, rfl, h1⟩ := key m6 accepts_detach hi; exact h1
      · obtain ⟨v, rfl, h1⟩ := key m7 accepts_ending hi; exact h1
      · obtain ⟨v, rfl, h1⟩ := key m8 accepts_close hi; exact h1
  · intro h
    have key : ∀ {α : Type} [DecodeF α] {mk : α → Frame} {c : UInt64} {n : String}
        (_ : Alternative Frame.decode (decode α) mk c n) {v : α} {body : Bytes → Prop},
        c ≠ 0 → described c n body b → Means env b v → Frame.decode env b = .ok ([], mk v) := by
      intro α _ mk c n ha v body hc hb hm
      have := frame_member ha hc hb (hm [])
      rwa [List.append_nil] at this
    cases f with
    | Empty => subst h; rfl
    | Open v => exact key m0 (by decide) h (accepts_opening.means h)
    | Begin v => exact key m1 (by decide) h (accepts_beginning.means h)
    | Attach v => exact key m2 (by decide) h (accepts_attach.means h)
    | Flow v => exact key m3 (by decide) h (accepts_flow.means h)
    | Transfer v =>
      obtain ⟨p, payload, h1, rfl, h3⟩ := h
      have h4 := C27_decode env p payload _ (accepts_transfer.means h1)
      rw [← h3] at h4
      exact frame_member m4 (by decide) h1 h4
    | Disposition v => exact key m5 (by decide) h (accepts_disposition.means h)
    | Detach v => exact key m6 (by decide) h (accepts_detach.means h)
    | End v => exact key m7 (by decide) h (accepts_ending.means h)
    | Close v => exact key m8 (by decide) h (accepts_close.means h)

/-! ## Frames -/

theorem codecDecode_some {T : Type} {dec : Dec T} {src rest : Bytes} {a : T}
    (hl : src.length < 2 ^ 63)
    (h : codecDecode env dec .frameHeader src = ⟨.frameHeader, rest, .some a⟩) :
    ∃ s u, src = s ++ u ++ rest ∧ Num 4 s (4 + u.length) ∧ dec u = .ok ([], a) := by
  unfold codecDecode headerLen at h
  simp only at h
  by_cases h8 : src.length < 8
  · rw [if_pos h8] at h; cases h
  rw [if_neg h8] at h
  generalize hs : beDec (src.take 4) = size at h
  by_cases ho : size < 4 ∧ env.overflowChecks = true
  · rw [if_pos ho] at h; cases h
  rw [if_neg ho] at h
  by_cases hsz : src.length < size
  · rw [if_pos hsz] at h; cases h
  rw [if_neg hsz] at h
  obtain ⟨-, h2, h3, h4⟩ := frameStep_some h
  by_cases h5 : size < 4
  · rw [if_pos h5, List.length_drop] at h3; omega
  rw [if_neg h5] at h2 h3 h4
  rw [List.length_drop] at h3
  refine ⟨src.take 4, (src.drop 4).take (size - 4), ?_, ⟨?_, ?_⟩, h4⟩
  · rw [h2, List.append_assoc, List.take_append_drop, List.take_append_drop]
  · rw [List.length_take]; omega
  · rw [unsigned_eq, hs, List.length_take, List.length_drop]; omega

theorem framed_of {type : UInt8} {ch : UInt16} {s u w : Bytes} {body : Bytes → Prop}
    (hs : Num 4 s (4 + u.length)) (hl : FrameLayout u type ch w) (hb : body w) :
    ∃ two, Num 2 two ch.toNat ∧ Framed type two body (s ++ u) := by
  obtain ⟨doff, c0, c1, ext, rfl, hd, hc⟩ := hl
  refine ⟨[c0, c1], ⟨rfl, ?_⟩, ?_⟩
  · rw [unsigned_eq, hc]; simp [beDec, Nat.mul_comm]
  · have := Framed.mk (type := type) (two := [c0, c1]) (s := s) (ext := ext) (b := w) (doff := doff)
      (body := body) rfl (by omega)
      (by
        have e : 8 + ext.length + w.length = 4 + (doff :: type :: c0 :: c1 :: (ext ++ w)).length := by
          simp only [List.length_cons, List.length_append]; omega
        rw [e]; exact hs) hb
    have e : s ++ (doff :: type :: c0 :: c1 :: (ext ++ w)) = s ++ [doff, type] ++ [c0, c1] ++ ext ++ w := by
      simp
    rw [e]; exact this

/-- What the codec takes off the stream. -/
def TakesFrames {T : Type} (env : Env) (dec : Dec T) (F : Rep T) : Prop :=
  ∀ (src rest : Bytes) (a : T), src.length < 2 ^ 63 →
    (codecDecode env dec .frameHeader src = ⟨.frameHeader, rest, .some a⟩ ↔
      ∃ b, src = b ++ rest ∧ F a b)

theorem takes_amqpFrame : TakesFrames env (AmqpFrame.decode env) (amqpFrame (.lenient env)) := by
  intro src rest f hl
  constructor
  · intro h
    obtain ⟨s, u, rfl, hs, hu⟩ := codecDecode_some hl h
    obtain ⟨w, hw, hf⟩ := C25_amqp_only env _ _ _ hu
    obtain ⟨two, h1, h2⟩ := framed_of hs hw ((accepts_frameBody _ _).1 hf)
    exact ⟨s ++ u, rfl, two, h1, h2⟩
  · rintro ⟨b, rfl, two, hn, hf⟩
    obtain ⟨h1, u, h2, h3⟩ := framed_parts hf
    rw [frame_wire h1, C25_amqp env _ _ _ (h3 _ hn), (accepts_frameBody _ _).2 h2]
    rfl

theorem takes_saslFrame : TakesFrames env (SaslFrame.decode env) (saslFrame (.lenient env)) := by
  intro src rest f hl
  constructor
  · intro h
    obtain ⟨s, u, rfl, hs, hu⟩ := codecDecode_some hl h
    obtain ⟨w, ch, hw, hf⟩ := C25_sasl_only env _ _ _ hu
    obtain ⟨b, e, hb⟩ := (accepts_saslBody _ _ _).1 hf
    rw [List.append_nil] at e
    subst e
    obtain ⟨two, h1, h2⟩ := framed_of hs hw hb
    exact ⟨s ++ u, rfl, two, h2⟩
  · rintro ⟨b, rfl, two, hf⟩
    obtain ⟨h1, u, h2, h3⟩ := framed_parts hf
    obtain ⟨ch, hch⟩ := exists_channel (framed_two hf)
    have h4 := accepts_saslBody.means (env := env) h2 []
    rw [List.append_nil] at h4
    rw [frame_wire h1, C25_sasl env _ _ _ (h3 _ hch), h4]
    rfl

/-! ## Streams -/

section
variable {T : Type} {dec : Dec T} {F : Rep T}

theorem drain_split (h : TakesFrames env dec F) (src : Bytes) (hl : src.length < 2 ^ 63) :
    ∃ (ws : List (T × Bytes)) (rest : Bytes), src = ws.flatMap Prod.snd ++ rest ∧ (∀ p ∈ ws, F p.1 p.2) ∧
      drain env dec .frameHeader src = (ws.map Prod.fst, codecDecode env dec .frameHeader rest) ∧
      ∀ a, (codecDecode env dec .frameHeader rest).answer ≠ .some a := by
  induction hn : src.length using Nat.strongRecOn generalizing src with
  | ind n ih =>
    rcases Answer.cases_some (codecDecode env dec .frameHeader src).answer with ⟨x, hx⟩ | hx
    · obtain ⟨st', src', hc⟩ : ∃ st' src',
          codecDecode env dec .frameHeader src = ⟨st', src', .some x⟩ := ⟨_, _, by rw [← hx]⟩
      have hst : st' = .frameHeader := by
        unfold codecDecode headerLen at hc
        simp only at hc
        by_cases c1 : src.length < 8
        · rw [if_pos c1] at hc; cases hc
        rw [if_neg c1] at hc
        by_cases c2 : beDec (src.take 4) < 4 ∧ env.overflowChecks = true
        · rw [if_pos c2] at hc; cases hc
        rw [if_neg c2] at hc
        by_cases c3 : src.length < beDec (src.take 4)
        · rw [if_pos c3] at hc; cases hc
        rw [if_neg c3] at hc
        exact (frameStep_some hc).1
      subst hst
      have hlt := codecDecode_some_lt hc
      simp only [drainMeasure] at hlt
      obtain ⟨b, e, hb⟩ := (h src src' x hl).1 hc
      obtain ⟨ws, rest, h1, h2, h3, h4⟩ := ih src'.length (by omega) src' (by omega) rfl
      refine ⟨(x, b) :: ws, rest, ?_, ?_, ?_, h4⟩
      · rw [e, h1]; simp
      · intro p hp
        rcases List.mem_cons.1 hp with rfl | hp
        · exact hb
        · exact h2 p hp
      · rw [drain_some hc, h3]; rfl
    · exact ⟨[], src, rfl, by simp, drain_stop hx, hx⟩

theorem stream_iff (h : TakesFrames env dec F) (chunks : List Bytes)
    (hl : chunks.flatten.length < 2 ^ 63) (l : List T) :
    receive env dec .frameHeader [] chunks = (l, ⟨.frameHeader, [], .none⟩) ↔
      ∃ ws : List (T × Bytes), chunks.flatten = ws.flatMap Prod.snd ∧ (∀ p ∈ ws, F p.1 p.2) ∧
        l = ws.map Prod.fst := by
  rw [receive_eq, List.nil_append]
  generalize chunks.flatten = src at hl
  constructor
  · intro hd
    obtain ⟨ws, rest, h1, h2, h3, -⟩ := drain_split h src hl
    rw [h3] at hd
    injection hd with e1 e2
    have : rest = [] := by
      unfold codecDecode headerLen at e2
      simp only at e2
      by_cases c1 : rest.length < 8
      · rw [if_pos c1] at e2; injection e2
      rw [if_neg c1] at e2
      by_cases c2 : beDec (rest.take 4) < 4 ∧ env.overflowChecks = true
      · rw [if_pos c2] at e2; cases e2
      rw [if_neg c2] at e2
      by_cases c3 : rest.length < beDec (rest.take 4)
      · rw [if_pos c3] at e2; cases e2
      rw [if_neg c3] at e2
      generalize (if beDec (rest.take 4) < 4 then 2 ^ 64 + beDec (rest.take 4) - 4
        else beDec (rest.take 4) - 4) = n at e2
      unfold frameStep at e2
      by_cases c4 : (rest.drop 4).length < n
      · rw [if_pos c4] at e2; cases e2
      rw [if_neg c4] at e2
      simp only at e2
      cases hdc : dec ((rest.drop 4).take n) with
      | err e => rw [hdc] at e2; cases e2
      | panic p => rw [hdc] at e2; cases e2
      | ok q =>
        obtain ⟨r, a⟩ := q
        rw [hdc] at e2
        cases r <;> exact nomatch congrArg Call.answer e2
    subst this
    rw [List.append_nil] at h1
    exact ⟨ws, h1, h2, e1.symm⟩
  · rintro ⟨ws, rfl, hw, rfl⟩
    induction ws with
    | nil => exact drain_stop fun a h => by cases h
    | cons p ws ih =>
      rw [List.flatMap_cons] at hl ⊢
      have h1 := (h _ _ p.1 hl).2 ⟨p.2, rfl, hw p (by simp)⟩
      rw [drain_some h1, ih (by rw [List.length_append] at hl; omega) fun q hq => hw q (by simp [hq])]
      rfl

end

/-! ## Messages -/

theorem gathered_snoc {AP : Type} (conv : StringVariantMap → AP) (l : List Section) (s : Section) :
    Lenient.gathered conv (l ++ [s]) = (Lenient.gathered conv l).addSection conv s := by
  cases s <;> simp [Lenient.gathered, Message.addSection, List.filterMap_append]

theorem foldl_gathered {AP : Type} (conv : StringVariantMap → AP) (l : List Section) :
    l.foldl (Message.addSection conv) .empty = Lenient.gathered conv l := by
  suffices h : ∀ k, l.foldl (Message.addSection conv) (Lenient.gathered conv k) =
      Lenient.gathered conv (k ++ l) from h []
  intro k
  induction l generalizing k with
  | nil => simp
  | cons s t ih => rw [List.foldl_cons, ← gathered_snoc, ih]; simp

theorem takes_message {AP : Type} (conv : StringVariantMap → AP) (b rest : Bytes) (m : Amqp.Message AP) :
    Message.decodeWith env conv b = .ok (rest, m) ↔ ∃ items : List (Section × Bytes),
      (∀ p ∈ items, Lenient.messageSection (.lenient env) p.1 p.2) ∧ b = items.flatMap Prod.snd ∧
      m = Lenient.gathered conv (items.map Prod.fst) ∧ some rest = items.getLast?.map Prod.snd := by
  rw [Message.decodeWith_eq]
  constructor
  · intro h
    obtain ⟨ws, l, h1, h2, h3, h4⟩ := Message.resume_ok conv b _ _ _ h
    refine ⟨(ws ++ [l]).map Prod.swap, ?_, ?_, ?_, ?_⟩
    · intro p hp
      obtain ⟨q, hq, rfl⟩ := List.mem_map.1 hp
      exact (Takes.reads accepts_messageSection).1 (h1 q hq).2
    · rw [h2, List.flatMap_map]; rfl
    · rw [h4, foldl_gathered, List.map_map]; rfl
    · simp [h3]
  · rintro ⟨items, h1, rfl, rfl, h4⟩
    have hne : items ≠ [] := by rintro rfl; cases h4
    obtain ⟨init, l, rfl⟩ : ∃ init l, items = init ++ [l] :=
      ⟨items.dropLast, items.getLast hne, (List.dropLast_concat_getLast hne).symm⟩
    have h2 := Message.resume_wires (env := env) conv (init.map Prod.swap) l.swap .empty fun p hp => by
      have hp : p ∈ (init ++ [l]).map Prod.swap := by simpa using hp
      obtain ⟨q, hq, rfl⟩ := List.mem_map.1 hp
      have h3 := h1 q hq
      have h5 : Means env q.2 q.1 := accepts_messageSection.means h3
      refine ⟨?_, h5⟩
      intro e
      have e : q.2 = [] := e
      have := h5 []
      rw [e] at this
      cases this
    rw [← List.map_singleton, ← List.map_append, List.flatMap_map, List.map_map, foldl_gathered] at h2
    simp only [List.getLast?_append, List.getLast?_singleton, Option.some_or, Option.map_some,
      Option.some.injEq] at h4
    rw [h4]
    exact h2

end Amqp
