import Verif.Proofs.StandardLists
import Verif.Props.Messages
/-!
# Frames and messages: read and written
-/
set_option autoImplicit false
namespace Amqp
open Dec Standard

/-! ### Bodies of frames -/

section
variable {env : Env}

theorem frame_member {α : Type} [DecodeF α] {mk : α → Frame} {c : UInt64} {n : String}
    (ha : Alternative Frame.decode (decode α) mk c n) {v : α} {body : Bytes → Prop}
    (hc : c ≠ 0) {b more r : Bytes} (hb : described c n body b)
    (h : decode α env (b ++ more) = .ok (r, v)) :
    Frame.decode env (b ++ more) = .ok (r, mk v) := by
  obtain ⟨db, u, hd, -, rfl⟩ := hb
  obtain ⟨d, h1, h2⟩ := means_desc env hc hd
  have h3 := ha env db (u ++ more) d h1 h2
  rw [List.cons_append, List.append_assoc] at h ⊢
  rw [h3, h]

theorem read_frameBody (f : Frame) (b : Bytes) (h : frameBody (.accepted env) f b) :
    Frame.decode env b = .ok ([], f) := by
  have key : ∀ {α : Type} [DecodeF α] {mk : α → Frame} {c : UInt64} {n : String}
      (_ : Alternative Frame.decode (decode α) mk c n) {v : α} {body : Bytes → Prop},
      c ≠ 0 → described c n body b → Means env b v → Frame.decode env b = .ok ([], mk v) := by
    intro α _ mk c n ha v body hc hb hm
    have := frame_member ha hc hb (hm [])
    rwa [List.append_nil] at this
  obtain ⟨m0, m1, m2, m3, m4, m5, m6, m7, m8⟩ := C24_frame_members
  cases f with
  | Empty => subst h; rfl
  | Open v => exact key m0 (by decide) h (read_opening v b h)
  | Begin v => exact key m1 (by decide) h (read_beginning v b h)
  | Attach v => exact key m2 (by decide) h (read_attach v b h)
  | Flow v => exact key m3 (by decide) h (read_flow v b h)
  | Transfer v =>
    obtain ⟨p, payload, h1, rfl, h3⟩ := h
    have h4 := C27_decode env p payload _ (read_transfer _ p h1)
    rw [← h3] at h4
    exact frame_member m4 (by decide) h1 h4
  | Disposition v => exact key m5 (by decide) h (read_disposition v b h)
  | Detach v => exact key m6 (by decide) h (read_detach v b h)
  | End v => exact key m7 (by decide) h (read_ending v b h)
  | Close v => exact key m8 (by decide) h (read_close v b h)

/-! ### Frames -/

theorem framed_parts {type : UInt8} {two : Bytes} {body : Bytes → Prop} {b : Bytes}
    (h : Framed type two body b) : IsFrame b ∧
    ∃ u, body u ∧ ∀ ch : UInt16, Num 2 two ch.toNat → FrameLayout (b.drop 4) type ch u := by
  cases h with
  | @mk s ext u doff h2 hd hs hb =>
    refine ⟨⟨?_, ?_⟩, u, hb, fun ch hn => ?_⟩
    · have := hs.width
      simp only [List.length_append, List.length_cons, this]
      omega
    · have e : (s ++ [doff, type] ++ two ++ ext ++ u).take 4 = s := by
        simp only [List.append_assoc]
        rw [← hs.width, List.take_left]
      have hw := hs.width
      rw [e, ← unsigned_eq, hs.value]
      simp only [List.length_append, List.length_cons, List.length_nil, h2]
      omega
    · match two, h2, hn with
      | [a, c], _, hn =>
        refine ⟨doff, a, c, ext, ?_, by omega, ?_⟩
        · simp only [List.append_assoc]
          rw [← hs.width, List.drop_left]
          rfl
        · rw [← hn.value, unsigned_eq]
          simp [beDec, Nat.mul_comm]

theorem exists_channel {two : Bytes} (h : two.length = 2) : ∃ ch : UInt16, Num 2 two ch.toNat := by
  match two, h with
  | [a, c], _ =>
    refine ⟨UInt16.ofNat (beDec [a, c]), rfl, ?_⟩
    have h1 := a.toNat_lt
    have h2 := c.toNat_lt
    have e : beDec [a, c] = a.toNat * 256 + c.toNat := by simp [beDec]
    rw [unsigned_eq, e, UInt16.toNat_ofNat']
    omega

theorem framed_two {type : UInt8} {two : Bytes} {body : Bytes → Prop} {b : Bytes}
    (h : Framed type two body b) : two.length = 2 := by cases h; assumption

theorem read_amqpFrame (f : AmqpFrame) (b : Bytes) (h : amqpFrame (.accepted env) f b) :
    IsFrame b ∧ AmqpFrame.decode env (b.drop 4) = .ok ([], f) := by
  obtain ⟨two, hn, hf⟩ := h
  obtain ⟨h1, u, h2, h3⟩ := framed_parts hf
  refine ⟨h1, ?_⟩
  rw [C25_amqp env _ _ _ (h3 _ hn), read_frameBody _ _ h2]

theorem read_saslFrame (f : SaslFrame) (b : Bytes) (h : saslFrame (.accepted env) f b) :
    IsFrame b ∧ SaslFrame.decode env (b.drop 4) = .ok ([], f) := by
  obtain ⟨two, hf⟩ := h
  obtain ⟨h1, u, h2, h3⟩ := framed_parts hf
  obtain ⟨ch, hch⟩ := exists_channel (framed_two hf)
  have h4 := read_saslBody (env := env) _ _ h2 []
  rw [List.append_nil] at h4
  refine ⟨h1, ?_⟩
  rw [C25_sasl env _ _ _ (h3 _ hch), h4]

/-! ### Sections and messages -/

/-- The input consists of encodings of these sections. -/
def Splits (env : Env) (b : Bytes) (secs : List Section) : Prop :=
  ∃ ws : List (Bytes × Section), (∀ p ∈ ws, p.1 ≠ [] ∧ Reads (decode Section env) p.1 p.2) ∧
    ws.flatMap Prod.fst = b ∧ ws.map Prod.snd = secs

theorem Splits.append {b b' : Bytes} {l l' : List Section} (h : Splits env b l)
    (h' : Splits env b' l') : Splits env (b ++ b') (l ++ l') := by
  obtain ⟨ws, h1, rfl, rfl⟩ := h
  obtain ⟨ws', h1', rfl, rfl⟩ := h'
  refine ⟨ws ++ ws', fun p hp => (List.mem_append.1 hp).elim (h1 p) (h1' p), ?_, ?_⟩
  · rw [List.flatMap_append]
  · rw [List.map_append]

theorem splits_one {b : Bytes} {s : Section} {c : UInt64} {n : String} {body : Bytes → Prop}
    (hb : described c n body b) (h : Means env b s) : Splits env b [s] :=
  ⟨[(b, s)], fun p hp => by
    obtain rfl := List.mem_singleton.1 hp
    refine ⟨?_, h⟩
    obtain ⟨_, _, _, _, rfl⟩ := hb
    exact nofun, by simp, rfl⟩

theorem splits_maybe {α : Type} {L : Rep α} {mk : α → Section} (hL : ∀ a b, L a b → Splits env b [mk a])
    {o : Option α} {b : Bytes} (h : Maybe L o b) : Splits env b (o.toList.map mk) := by
  cases h with
  | none => exact ⟨[], (by intro _ h; cases h), rfl, rfl⟩
  | @some a b h => exact hL a b h

theorem splits_several {α : Type} {L : Rep α} {mk : α → Section}
    (hL : ∀ a b, L a b → Splits env b [mk a])
    {l : List α} {b : Bytes} (h : Several L l b) : Splits env b (l.map mk) := by
  induction h with
  | last h => exact hL _ _ h
  | more h _ ih => exact (hL _ _ h).append ih

theorem several_ne {α : Type} {L : Rep α} {l : List α} {b : Bytes} (h : Several L l b) : l ≠ [] := by
  cases h <;> exact nofun

theorem splits_header (a : Header) (b : Bytes) (h : header (.accepted env) a b) : Splits env b [.Header a] :=
  splits_one h (means_member C24_section_members.1 (by decide) h (read_header a b h))
theorem splits_delivery (a : Annotations) (b : Bytes) (h : deliveryAnnotations (.accepted env) a b) :
    Splits env b [.DeliveryAnnotations a] :=
  splits_one h (means_memberOf C24_section_members.2.1 (by decide) h fun _ => read_fields a _)
theorem splits_annotations (a : Annotations) (b : Bytes) (h : messageAnnotations (.accepted env) a b) :
    Splits env b [.MessageAnnotations a] :=
  splits_one h (means_memberOf C24_section_members.2.2.1 (by decide) h fun _ => read_fields a _)
theorem splits_application (a : StringVariantMap) (b : Bytes)
    (h : applicationProperties (.accepted env) a b) : Splits env b [.ApplicationProperties a] :=
  splits_one h (means_memberOf C24_section_members.2.2.2.1 (by decide) h fun _ => read_stringMap a _)
theorem splits_data (a : Binary) (b : Bytes) (h : Standard.data a b) : Splits env b [.Data a] :=
  splits_one h (means_memberOf C24_section_members.2.2.2.2.1 (by decide) h fun _ => read_binary a _)
theorem splits_sequence (a : VList) (b : Bytes) (h : amqpSequence (.accepted env) a b) :
    Splits env b [.AmqpSequence a] :=
  splits_one h (means_memberOf C24_section_members.2.2.2.2.2.1 (by decide) h fun _ => read_list a _)
theorem splits_value (a : Variant) (b : Bytes) (h : amqpValue (.accepted env) a b) :
    Splits env b [.AmqpValue a] :=
  splits_one h (means_memberOf C24_section_members.2.2.2.2.2.2.1 (by decide) h fun _ => read_any a _)
theorem splits_footer (a : Annotations) (b : Bytes) (h : footer (.accepted env) a b) :
    Splits env b [.Footer a] :=
  splits_one h (means_memberOf C24_section_members.2.2.2.2.2.2.2.1 (by decide) h fun _ => read_fields a _)
theorem splits_properties (a : Properties) (b : Bytes) (h : properties (.accepted env) a b) :
    Splits env b [.Properties a] :=
  splits_one h (means_member C24_section_members.2.2.2.2.2.2.2.2 (by decide) h (read_properties a b h))

theorem resume_splits {AP : Type} {b : Bytes} {secs : List Section} (h : Splits env b secs)
    (hne : secs ≠ []) (conv : StringVariantMap → AP) (m : Amqp.Message AP) :
    ∃ rest, Message.resume env conv m b = .ok (rest, secs.foldl (Message.addSection conv) m) := by
  obtain ⟨ws, h1, rfl, rfl⟩ := h
  have hw : ws ≠ [] := fun e => hne (by rw [e]; rfl)
  have e := List.dropLast_concat_getLast hw
  have := Message.resume_wires (env := env) conv ws.dropLast (ws.getLast hw) m (by rw [e]; exact h1)
  rw [e] at this
  exact ⟨_, this⟩


theorem read_message {AP : Type} (conv : StringVariantMap → AP) (m : Standard.Message) (b : Bytes)
    (h : message (.accepted env) m b) :
    ∃ rest, Message.decodeWith env conv b = .ok (rest, m.asReceived conv) := by
  obtain ⟨b1, b2, b3, b4, b5, b6, b7, h1, h2, h3, h4, h5, h6, h7, rfl⟩ := h
  have pre := ((((splits_maybe splits_header h1).append (splits_maybe splits_delivery h2)).append
    (splits_maybe splits_annotations h3)).append (splits_maybe splits_properties h4)).append
    (splits_maybe splits_application h5)
  have post := splits_maybe splits_footer h7
  obtain ⟨hd, da, ma, p, ap, bd, f⟩ := m
  have body : ∃ secs, secs ≠ [] ∧ Splits env b6 secs ∧
      ∀ m : Amqp.Message AP, secs.foldl (Message.addSection conv) m =
        { m with data := m.data ++ bd.datas, sequence := m.sequence ++ bd.sequences,
                 value := bd.single.or m.value } := by
    cases bd with
    | data l =>
      have := several_ne h6
      refine ⟨l.map .Data, by simpa using this, splits_several splits_data h6, fun m => ?_⟩
      rw [Message.foldl_data]; simp [Body.datas, Body.sequences, Body.single]
    | sequence l =>
      have := several_ne h6
      refine ⟨l.map .AmqpSequence, by simpa using this, splits_several splits_sequence h6, fun m => ?_⟩
      rw [Message.foldl_sequence]; simp [Body.datas, Body.sequences, Body.single]
    | value v =>
      refine ⟨[.AmqpValue v], by simp, splits_value v _ h6, fun m => ?_⟩
      simp [Body.datas, Body.sequences, Body.single, Message.addSection]
  obtain ⟨secs, s1, s2, s3⟩ := body
  obtain ⟨rest, hr⟩ := resume_splits ((pre.append s2).append post) (by simp [s1]) conv Message.empty
  refine ⟨rest, ?_⟩
  rw [Message.decodeWith_eq, hr]
  simp only [List.foldl_append, s3]
  cases hd <;> cases da <;> cases ma <;> cases p <;> cases ap <;> cases f <;>
    simp [Message.addSection, Message.empty, Standard.Message.asReceived]

end

/-! ### Written -/

theorem write_transfer_payload (v : Transfer) (h : canTransfer v.toTransferPerf) {p : TransferBody}
    (hb : v.body = some p) (hne : enc p ≠ []) (hs : (enc v).length < 2 ^ 32) :
    frameBody .all (.Transfer { v with body := some (.Data ⟨enc p⟩) }) (enc v) := by
  rw [Transfer.enc_eq, List.length_append] at hs
  rw [Transfer.enc_eq, hb]
  have h1 := write_transfer v.toTransferPerf h (by omega)
  exact ⟨_, _, h1, rfl, by rw [Option.elim_some, if_neg hne]⟩

theorem write_frameBody (f : Frame) (h : canFrame f) (hs : (enc f).length < 2 ^ 32) :
    frameBody .all f (enc f) := by
  cases f with
  | Empty => rfl
  | Open v => exact write_opening v h hs
  | Begin v => exact write_beginning v h hs
  | Attach v => exact write_attach v h hs
  | Flow v => exact write_flow v h hs
  | Transfer v =>
    cases hb : v.body with
    | none =>
      have e : enc (Frame.Transfer v) = enc v.toTransferPerf ++ [] := by
        show enc v = _
        rw [Transfer.enc_eq, hb]; rfl
      rw [e] at hs ⊢
      exact ⟨_, _, write_transfer _ h.1 (by simpa using hs), rfl, hb⟩
    | some p =>
      obtain ⟨d, rfl, hd⟩ := h.2 p hb
      have e : enc (TransferBody.Data d) = d.data := by
        show TransferBody.tenc _ = _
        simp [TransferBody.tenc]
      have := write_transfer_payload v h.1 hb (by rw [e]; exact hd) hs
      rw [e] at this
      obtain ⟨tp, b⟩ := v
      cases hb
      exact this
  | Disposition v => exact write_disposition v h hs
  | Detach v => exact write_detach v h hs
  | End v => exact write_ending v h hs
  | Close v => exact write_close v h hs

theorem framed_header {type : UInt8} {ch : UInt16} {n : Nat} {u : Bytes} {body : Bytes → Prop}
    (hn : n = 8 + u.length) (hl : n < 2 ^ 32) (h : body u) :
    Framed type (beEnc 2 ch.toNat) body (frameHeader n type ch ++ u) := by
  subst hn
  have := Framed.mk (type := type) (body := body) (two := beEnc 2 ch.toNat) (ext := []) (doff := 2)
    (s := beEnc 4 (8 + u.length)) (b := u) (beEnc_length _ _) rfl (num_beEnc hl) h
  rwa [List.append_nil] at this

theorem write_saslFrame (f : SaslFrame) (h : canSasl f.body) (hs : (enc f).length < 2 ^ 32) :
    saslFrame .all f (enc f) := by
  rw [saslFrame_enc] at hs ⊢
  rw [List.length_append, frameHeader_length] at hs
  have e := LawfulEnc.size_eq f.body
  exact ⟨_, framed_header (by rw [e]) (by omega) (write_saslBody f.body h (by omega))⟩

theorem write_amqpFrame {f : AmqpFrame} {g : Frame} (hz : size f.performative = (enc f.performative).length)
    (h : (enc f.performative).length < 2 ^ 32 → frameBody .all g (enc f.performative))
    (hs : (enc f).length < 2 ^ 32) :
    amqpFrame .all ⟨f.channel_id, g⟩ (enc f) := by
  rw [amqpFrame_enc] at hs ⊢
  rw [List.length_append, frameHeader_length] at hs
  exact ⟨_, num_beEnc f.channel_id.toNat_lt, framed_header (by rw [hz]) (by omega) (h (by omega))⟩

theorem maybe_elim {α : Type} {L : Rep α} {g : α → Bytes} (o : Option α)
    (h : ∀ a, o = some a → (g a).length < 2 ^ 32 → L a (g a))
    (hs : (o.elim [] g).length < 2 ^ 32) : Maybe L o (o.elim [] g) := by
  cases o with
  | none => exact .none
  | some a => exact .some (h a rfl hs)

theorem several_flatMap {α : Type} {L : Rep α} {g : α → Bytes} : ∀ (l : List α), l ≠ [] →
    (∀ a ∈ l, (g a).length < 2 ^ 32 → L a (g a)) → (l.flatMap g).length < 2 ^ 32 →
    Several L l (l.flatMap g)
  | [], hn, _, _ => absurd rfl hn
  | [a], _, h, hs => by
    simp only [List.flatMap_cons, List.flatMap_nil, List.append_nil] at hs ⊢
    exact .last (h a (by simp) hs)
  | a :: b :: t, _, h, hs => by
    rw [List.flatMap_cons, List.length_append] at hs
    rw [List.flatMap_cons]
    exact .more (h a (by simp) (by omega))
      (several_flatMap (b :: t) nofun (fun x hx => h x (by simp [hx])) (by omega))

theorem write_sectionData (a : Binary) (hs : (sectionEnc 117 a).length < 2 ^ 32) :
    Standard.data a (sectionEnc 117 a) :=
  written_described (by decide) (write_binary a) hs

theorem write_message {AP : Type} [Encode AP] [AppProps AP] (m : Amqp.Message AP) (s : Standard.Message)
    (hm : Contains (fun a => (AppProps.toMap a).entries) m s) (hc : canMessage s)
    (hx : ∀ b ∈ m.messages, b.Exact) (hs : (enc m).length < 2 ^ 32) :
    message .all s (enc m) := by
  obtain ⟨hd, da, ma, p, ap, bd, f⟩ := s
  obtain ⟨e1, e2, e3, e4, e5, e6, e7⟩ := hm
  simp only at e1 e2 e3 e4 e5 e6 e7
  subst e1 e2 e3 e4 e5 e7
  obtain ⟨c1, c2, c3, c4, c5, c6⟩ := hc
  simp only at c1 c2 c3 c4 c5 c6
  have hs' : (m.encPre ++ bodyEncOrEmpty m.bodySize
    (bodyEncWith m.data m.sequence m.value (nestedEnc m.messages)) ++ m.encPost).length < 2 ^ 32 := hs
  simp only [MsgHead.encPre, MsgHead.encPost, List.length_append] at hs'
  refine ⟨_, _, _, _, _, bodyEncOrEmpty m.bodySize
    (bodyEncWith m.data m.sequence m.value (nestedEnc m.messages)), _,
    maybe_elim (g := enc) m.header (fun a _ => write_header a) (by omega),
    maybe_elim (g := sectionEnc 113) m.delivery_annotations
      (fun a e => written_described (by decide) (write_fields a (c1 a e))) (by omega),
    maybe_elim (g := sectionEnc 114) m.message_annotations
      (fun a e => written_described (by decide) (write_fields a (c2 a e))) (by omega),
    maybe_elim (g := enc) m.properties (fun a e => write_properties a (c3 a e)) (by omega),
    ?_, ?_,
    maybe_elim (g := sectionEnc 120) m.footer
      (fun a e => written_described (by decide) (write_fields a (c6 a e))) (by omega), rfl⟩
  · cases ha : m.application_properties with
    | none => exact .none
    | some a =>
      rw [ha] at c4 hs'
      have h1 := c4 _ rfl
      refine .some ?_
      show applicationProperties .all _ (sectionEnc 116 a)
      have h2 : (sectionEnc 116 a).length < 2 ^ 32 := by
        have : (Option.elim (some a) [] (sectionEnc 116)) = sectionEnc 116 a := rfl
        rw [this] at hs'
        omega
      rw [sectionEnc, AppProps.enc_eq a] at h2 ⊢
      exact written_described (by decide) (write_stringMap _ h1) h2
  · have hb : (bodyEncOrEmpty m.bodySize
      (bodyEncWith m.data m.sequence m.value (nestedEnc m.messages))).length < 2 ^ 32 := by omega
    revert hb
    cases bd with
    | data l =>
      obtain ⟨h1, h2, h3⟩ := e6
      intro hb
      show Several Standard.data l _
      by_cases hz : m.bodySize = 0
      · obtain ⟨z1, z2, z3, z4⟩ := Message.bodySize_zero hz
        rw [if_pos ⟨z1, z4⟩] at h3
        subst h3
        rw [bodyEncOrEmpty, if_pos hz]
        exact .last (write_sectionData ⟨[]⟩ (by decide))
      · have hne : ¬ (m.data = [] ∧ m.messages = []) := fun ⟨z1, z4⟩ => hz (by
          unfold Message.bodySize bodySizeWith
          rw [z1, z4, h1, h2]
          simp [sectionsSize, nestedSize])
        rw [if_neg hne] at h3
        have e : bodyEncOrEmpty m.bodySize (bodyEncWith m.data m.sequence m.value (nestedEnc m.messages))
            = l.flatMap (sectionEnc 117) := by
          rw [bodyEncOrEmpty, if_neg hz, bodyEncWith, h1, h2, h3, nestedEnc_eq _ hx,
            List.flatMap_append]
          simp only [List.flatMap_nil, List.append_nil, Option.elim_none, List.flatMap_map]
          rfl
        rw [e] at hb ⊢
        exact several_flatMap l c5 (fun a _ => write_sectionData a) hb
    | sequence l => exact c5.elim
    | value v =>
      obtain ⟨h1, h2, h3, h4⟩ := e6
      intro hb
      have hz : m.bodySize ≠ 0 := fun hz => by
        have := (Message.bodySize_zero hz).2.2.1
        rw [h4] at this
        cases this
      have e : bodyEncOrEmpty m.bodySize (bodyEncWith m.data m.sequence m.value (nestedEnc m.messages))
            = sectionEnc 119 v := by
        rw [bodyEncOrEmpty, if_neg hz, bodyEncWith, h1, h2, h3, h4, nestedEnc]
        simp
      rw [e] at hb ⊢
      exact written_described (by decide) (write_any v c5) hb

end Amqp
