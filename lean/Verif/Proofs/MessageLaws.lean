import Verif.Proofs.ListInstances
import Verif.Protocol.Frame
import Verif.Spec.Messages
/-!
# Laws of messages, `Transfer` and `Frame`
-/
namespace Amqp
open Dec

/-! ### Sizes -/

theorem sectionEnc_length {α : Type} [Encode α] [LawfulEnc α] {c : UInt64}
    (hc : 0 < c.toNat ∧ c.toNat < 256) (v : α) : (sectionEnc c v).length = size v + 3 := by
  rw [sectionEnc, ← restricted_size c hc v]; omega

theorem sectionsSize_eq {α : Type} [Encode α] [LawfulEnc α] {c : UInt64}
    (hc : 0 < c.toNat ∧ c.toNat < 256) : ∀ l : List α,
    sectionsSize l = (l.flatMap (sectionEnc c)).length
  | [] => rfl
  | d :: t => by
    simp only [sectionsSize, List.flatMap_cons, List.length_append, sectionEnc_length hc,
      sectionsSize_eq hc t, sectionPrefixLength]

theorem optSize_section {α : Type} [Encode α] [LawfulEnc α] {c : UInt64}
    (hc : 0 < c.toNat ∧ c.toNat < 256) (o : Option α) :
    optSize sectionPrefixLength o = (o.elim [] (sectionEnc c)).length := by
  cases o with
  | none => rfl
  | some v => exact (sectionEnc_length hc v).symm

theorem optSize_zero {α : Type} [Encode α] [LawfulEnc α] (o : Option α) :
    optSize 0 o = (o.elim [] enc).length := by
  cases o with
  | none => rfl
  | some v => exact LawfulEnc.size_eq v

theorem bodySizeWith_eq (data : List Binary) (sequence : List VList) (value : Option Variant)
    (nested : Nat) :
    bodySizeWith data sequence value nested =
      (bodyEncWith data sequence value []).length + nested := by
  have h1 := sectionsSize_eq (c := 117) (by decide) data
  have h2 := sectionsSize_eq (c := 118) (by decide) sequence
  have h3 := optSize_section (c := 119) (by decide) value
  simp only [bodySizeWith, bodyEncWith, List.length_append, List.append_nil, h1, h2, ← h3]
  cases value <;> simp only [optSize] <;> omega

/-- Fresh size of a message against the bytes written, when the nested bytes
fall short of the nested size by `n`. -/
theorem fresh_eq {AP : Type} [Encode AP] [LawfulEnc AP] (m : MsgHead AP) (ns : Nat) (nb : Bytes)
    (n : Nat) (h : ns = nb.length + n) (hz : ns = 0 → nb = []) :
    m.freshSize (bodySizeWith m.data m.sequence m.value ns) =
      (m.encPre ++ bodyEncOrEmpty (bodySizeWith m.data m.sequence m.value ns)
        (bodyEncWith m.data m.sequence m.value nb) ++ m.encPost).length +
      3 * (if m.header.isSome then 1 else 0) + n := by
  have h0 : optSize sectionPrefixLength m.header = (m.header.elim [] enc).length +
      3 * (if m.header.isSome then 1 else 0) := by
    have := optSize_zero m.header
    cases hh : m.header with
    | none => rfl
    | some v => rw [hh] at this; simp only [optSize, sectionPrefixLength, Option.elim_some, Option.isSome_some, if_true] at this ⊢; omega
  have h1 := optSize_section (c := 113) (by decide) m.delivery_annotations
  have h2 := optSize_section (c := 114) (by decide) m.message_annotations
  have h3 := optSize_zero m.properties
  have h4 := optSize_section (c := 116) (by decide) m.application_properties
  have h5 := optSize_section (c := 120) (by decide) m.footer
  have h6 := bodySizeWith_eq m.data m.sequence m.value ns
  have h7 : (bodyEncWith m.data m.sequence m.value nb).length =
      (bodyEncWith m.data m.sequence m.value []).length + nb.length := by
    simp [bodyEncWith]; omega
  have h8 : (enc (Descriptor.ulong 117) ++ [FC.binary8, 0]).length = 5 := by decide
  simp only [MsgHead.freshSize, MsgHead.encPre, MsgHead.encPost, List.length_append, h0, h1, h2,
    h3, h4, h5, bodyEncOrEmpty]
  by_cases hb : bodySizeWith m.data m.sequence m.value ns = 0
  · rw [if_pos hb, if_pos hb]
    have : ns = 0 := by omega
    have hnb := hz this
    simp only [List.length_append] at h8
    simp only [List.length_append, h8, sectionPrefixLength]
    omega
  · rw [if_neg hb, if_neg hb, h7]
    omega

theorem prefix_length (n : Nat) :
    ((if n > 255 then FC.binary32 :: beEnc 4 n else [FC.binary8, UInt8.ofNat n]) : Bytes).length =
      if n > 255 then 5 else 2 := by
  split <;> simp

theorem nestedSize_zero : ∀ ms : List TransferBody, nestedSize ms = 0 → nestedEnc ms = []
  | [], _ => by simp [nestedEnc]
  | b :: t, h => by simp [nestedSize, sectionPrefixLength] at h

mutual
theorem tsize_eq : ∀ b : TransferBody, b.Fresh → b.tsize = b.tenc.length + 3 * b.headers
  | .Data b, _ => by simp [TransferBody.tsize, TransferBody.tenc, TransferBody.headers]
  | .MessageIn m ms, h => by
    simp only [TransferBody.Fresh] at h
    have h1 := nestedSize_eq ms h.2
    have := fresh_eq m (nestedSize ms) (nestedEnc ms) _ h1 (nestedSize_zero ms)
    simp only [TransferBody.tsize, TransferBody.tenc, TransferBody.headers, h.1, ne_eq,
      not_true_eq_false, if_false, this]
    omega
  | .MessageOut m ms, h => by
    simp only [TransferBody.Fresh] at h
    have h1 := nestedSize_eq ms h.2
    have := fresh_eq m (nestedSize ms) (nestedEnc ms) _ h1 (nestedSize_zero ms)
    simp only [TransferBody.tsize, TransferBody.tenc, TransferBody.headers, h.1, ne_eq,
      not_true_eq_false, if_false, this]
    omega
theorem nestedSize_eq : ∀ ms : List TransferBody, FreshAll ms →
    nestedSize ms = (nestedEnc ms).length + 3 * headersAll ms
  | [], _ => by simp [nestedSize, nestedEnc, headersAll]
  | b :: t, h => by
    simp only [FreshAll] at h
    have h1 := tsize_eq b h.1
    have h2 := nestedSize_eq t h.2
    have h3 : (enc (Descriptor.ulong 117)).length = 3 := by decide
    simp only [nestedSize, nestedEnc, headersAll, List.length_append, prefix_length, h3,
      sectionPrefixLength]
    omega
end

theorem Message.msize_eq {AP : Type} [Encode AP] [LawfulEnc AP] (m : Message AP) (h : m.Fresh) :
    size m = (enc m).length + 3 * m.headers := by
  have h1 := nestedSize_eq m.messages h.2
  have := fresh_eq m.toMsgHead (nestedSize m.messages) (nestedEnc m.messages) _ h1
    (nestedSize_zero _)
  show m.msize = m.menc.length + _
  simp only [Message.msize, h.1, ne_eq, not_true_eq_false, if_false, Message.fresh,
    Message.bodySize, Message.menc, Message.headers, this]
  omega

/-! ### Sections of a message -/

/-- Types of application properties: what they look like on the wire. -/
class AppProps (AP : Type) [Encode AP] where
  toMap : AP → StringVariantMap
  enc_eq : ∀ a, enc a = enc (toMap a)

instance : AppProps StringVariantMap := ⟨id, fun _ => rfl⟩
instance : AppProps VecVariantMap := ⟨fun m => ⟨m.entries⟩, fun _ => rfl⟩

/-- Bodies whose reported size is their actual length. -/
def TransferBody.Exact (b : TransferBody) : Prop := b.tsize = b.tenc.length

section
variable {AP : Type} [Encode AP] [AppProps AP]

/-- The sections written before the body. -/
def MsgHead.preSections (m : MsgHead AP) : List Section :=
  m.header.toList.map .Header ++ m.delivery_annotations.toList.map .DeliveryAnnotations ++
  m.message_annotations.toList.map .MessageAnnotations ++ m.properties.toList.map .Properties ++
  m.application_properties.toList.map fun a => .ApplicationProperties (AppProps.toMap a)

/-- The sections written for the body. -/
def Message.bodySections (m : Message AP) : List Section :=
  if m.bodySize = 0 then [.Data ⟨[]⟩]
  else m.data.map .Data ++ m.sequence.map .AmqpSequence ++ m.value.toList.map .AmqpValue ++
    m.messages.map fun b => .Data ⟨b.tenc⟩

/-- The sections of a message, in the order written. -/
def Message.sections (m : Message AP) : List Section :=
  m.preSections ++ m.bodySections ++ m.footer.toList.map .Footer

theorem flatMap_opt {α : Type} (o : Option α) (f : α → Section) (g : α → Bytes)
    (h : ∀ a, enc (f a) = g a) : (o.toList.map f).flatMap enc = o.elim [] g := by
  cases o with
  | none => rfl
  | some a => simp [h]

theorem flatMap_list {α : Type} (l : List α) (f : α → Section) (g : α → Bytes)
    (h : ∀ a, enc (f a) = g a) : (l.map f).flatMap enc = l.flatMap g := by
  simp only [List.flatMap_map]
  congr 1
  funext a
  exact h a

theorem nestedEnc_eq : ∀ ms : List TransferBody, (∀ b ∈ ms, b.Exact) →
    nestedEnc ms = (ms.map fun b => Section.Data ⟨b.tenc⟩).flatMap enc
  | [], _ => by simp [nestedEnc]
  | b :: t, h => by
    have h1 : b.tsize = b.tenc.length := h b (by simp)
    have h2 := nestedEnc_eq t fun b hb => h b (by simp [hb])
    simp only [nestedEnc, List.map_cons, List.flatMap_cons, ← h2, h1]
    rw [List.append_assoc (enc (Descriptor.ulong 117))]
    rfl

theorem MsgHead.encPre_eq (m : MsgHead AP) : m.encPre = m.preSections.flatMap enc := by
  simp only [MsgHead.encPre, MsgHead.preSections, List.flatMap_append]
  rw [flatMap_opt m.header .Header enc fun _ => rfl,
    flatMap_opt m.delivery_annotations .DeliveryAnnotations (sectionEnc 113) fun _ => rfl,
    flatMap_opt m.message_annotations .MessageAnnotations (sectionEnc 114) fun _ => rfl,
    flatMap_opt m.properties .Properties enc fun _ => rfl,
    flatMap_opt m.application_properties (fun a => .ApplicationProperties (AppProps.toMap a))
      (sectionEnc 116) fun a => by
        rw [sectionEnc, AppProps.enc_eq a]; rfl]

/-- A message is written as the concatenation of its sections. -/
theorem Message.menc_eq (m : Message AP) (h : ∀ b ∈ m.messages, b.Exact) :
    enc m = m.sections.flatMap enc := by
  show m.menc = _
  simp only [Message.menc, Message.sections, List.flatMap_append, MsgHead.encPre_eq]
  have h5 : m.encPost = (m.footer.toList.map Section.Footer).flatMap enc := by
    rw [flatMap_opt m.footer .Footer (sectionEnc 120) fun _ => rfl]; rfl
  rw [h5]
  congr 2
  unfold bodyEncOrEmpty Message.bodySections
  split
  · decide
  · simp only [bodyEncWith, List.flatMap_append]
    rw [flatMap_list m.data .Data (sectionEnc 117) fun _ => rfl,
      flatMap_list m.sequence .AmqpSequence (sectionEnc 118) fun _ => rfl,
      flatMap_opt m.value .AmqpValue (sectionEnc 119) fun _ => rfl, nestedEnc_eq m.messages h]

omit [Encode AP] [AppProps AP] in
theorem Message.bodySections_ne (m : Message AP) : m.bodySections ≠ [] := by
  unfold Message.bodySections
  split
  · simp
  · rename_i hne
    intro h
    apply hne
    simp only [List.append_eq_nil_iff, List.map_eq_nil_iff, Option.toList_eq_nil_iff] at h
    obtain ⟨⟨⟨h1, h2⟩, h3⟩, h4⟩ := h
    simp [Message.bodySize, h1, h2, h3, h4, bodySizeWith, sectionsSize, nestedSize]

theorem Message.sections_ne (m : Message AP) : m.sections ≠ [] := by
  simp [Message.sections, Message.bodySections_ne]

end

/-! ### The decoding loop -/

namespace Message
variable {AP : Type}

theorem loop_fuel (env : Env) (conv : StringVariantMap → AP) : ∀ (n k : Nat) (m : Message AP)
    (i : Bytes), i.length < n → i.length < k → loop env conv n m i = loop env conv k m i
  | 0, _, _, _, hn, _ => absurd hn (Nat.not_lt_zero _)
  | _, 0, _, _, _, hk => absurd hk (Nat.not_lt_zero _)
  | n + 1, k + 1, m, i, hn, hk => by
    simp only [loop]
    cases h : decode Section env i with
    | err e => rfl
    | panic p => rfl
    | ok q =>
      obtain ⟨buf, sec⟩ := q
      simp only
      split
      · rfl
      · have := progress_decode (fun fmt => LawfulDec.loc env fmt) _ _ _ h
        exact loop_fuel env conv n k _ _ (by omega) (by omega)

/-- `decodeWith` with an arbitrary message to start from. -/
def resume (env : Env) (conv : StringVariantMap → AP) (m : Message AP) : Dec (Message AP) :=
  fun i => loop env conv (i.length + 1) m i

theorem resume_eq (env : Env) (conv : StringVariantMap → AP) (m : Message AP) (i : Bytes) :
    resume env conv m i = match decode Section env i with
      | .ok (buf, sec) =>
        if buf.isEmpty then .ok (i, m.addSection conv sec)
        else resume env conv (m.addSection conv sec) buf
      | .err e => .err e
      | .panic p => .panic p := by
  unfold resume
  conv => lhs; rw [loop]
  show (match decode Section env i with
      | .ok (buf, sec) =>
        if buf.isEmpty then Res.ok (i, m.addSection conv sec)
        else loop env conv i.length (m.addSection conv sec) buf
      | .err e => .err e
      | .panic p => .panic p) = _
  cases h : decode Section env i with
  | err e => rfl
  | panic p => rfl
  | ok q =>
    obtain ⟨buf, sec⟩ := q
    simp only
    split
    · rfl
    · have := progress_decode (fun fmt => LawfulDec.loc env fmt) _ _ _ h
      exact loop_fuel env conv _ _ _ _ (by omega) (by omega)

theorem decodeWith_eq (env : Env) (conv : StringVariantMap → AP) :
    decodeWith env conv = resume env conv empty := rfl

/-- Decoding a non-empty sequence of section encodings adds them one by one and
returns the encoding of the last. -/
theorem resume_wires {env : Env} (conv : StringVariantMap → AP) :
    ∀ (ws : List (Bytes × Section)) (l : Bytes × Section) (m : Message AP),
    (∀ p ∈ ws ++ [l], p.1 ≠ [] ∧ Reads (decode Section env) p.1 p.2) →
    resume env conv m ((ws ++ [l]).flatMap Prod.fst) =
      .ok (l.1, ((ws ++ [l]).map Prod.snd).foldl (addSection conv) m)
  | [], l, m, h => by
    have h1 := (h l (by simp)).2 []
    rw [List.append_nil] at h1
    rw [resume_eq]
    simp [h1]
  | p :: t, l, m, h => by
    have h1 := (h p (by simp)).2 ((t ++ [l]).flatMap Prod.fst)
    have h2 : ((t ++ [l]).flatMap Prod.fst).isEmpty = false := by
      have := (h l (by simp)).1
      simp [this]
    have ih := resume_wires conv t l (m.addSection conv p.2) fun q hq => h q (by
      simp only [List.cons_append, List.mem_cons]; exact Or.inr hq)
    rw [resume_eq]
    simp only [List.cons_append, List.flatMap_cons, List.map_cons, List.foldl_cons] at *
    rw [h1]
    simp only [h2, ih]
    rfl

/-- Conversely, a message is only ever decoded from such a sequence. -/
theorem resume_ok {env : Env} (conv : StringVariantMap → AP) (i : Bytes) :
    ∀ (m : Message AP) (r : Bytes) (m' : Message AP), resume env conv m i = .ok (r, m') →
    ∃ (ws : List (Bytes × Section)) (l : Bytes × Section),
      (∀ p ∈ ws ++ [l], p.1 ≠ [] ∧ Reads (decode Section env) p.1 p.2) ∧
      i = (ws ++ [l]).flatMap Prod.fst ∧ r = l.1 ∧
      m' = ((ws ++ [l]).map Prod.snd).foldl (addSection conv) m := by
  induction hn : i.length using Nat.strongRecOn generalizing i with
  | ind n ih =>
    intro m r m' h
    rw [resume_eq] at h
    cases hd : decode Section env i with
    | err e => rw [hd] at h; cases h
    | panic p => rw [hd] at h; cases h
    | ok q =>
      obtain ⟨buf, sec⟩ := q
      rw [hd] at h
      simp only at h
      have hp := progress_decode (fun fmt => LawfulDec.loc env fmt) _ _ _ hd
      obtain ⟨w, rfl, hw⟩ := loc_decode env _ _ _ hd
      have hwne : w ≠ [] := by rintro rfl; simp at hp
      split at h
      · rename_i he
        have : buf = [] := List.isEmpty_iff.1 he
        subst this
        injection h with h; injection h with h1 h2
        exact ⟨[], (w, sec), by simpa using ⟨hwne, hw⟩, by simp, by simpa using h1.symm,
          by simpa using h2.symm⟩
      · obtain ⟨ws, l, h1, h2, h3, h4⟩ := ih buf.length (by omega) buf rfl _ _ _ h
        refine ⟨(w, sec) :: ws, l, ?_, ?_, h3, ?_⟩
        · intro p hp
          simp only [List.cons_append, List.mem_cons] at hp
          rcases hp with rfl | hp
          · exact ⟨hwne, hw⟩
          · exact h1 p hp
        · simp [h2]
        · simp [h4]

theorem resume_sections {env : Env} (conv : StringVariantMap → AP) (secs : List Section)
    (hne : secs ≠ []) (m : Message AP) (h : ∀ s ∈ secs, wf env s) :
    resume env conv m (secs.flatMap enc) =
      .ok (enc (secs.getLast hne), secs.foldl (addSection conv) m) := by
  have hw := resume_wires (env := env) conv (secs.dropLast.map fun s => (enc s, s))
    (enc (secs.getLast hne), secs.getLast hne) m (by
      intro p hp
      have : ∃ s ∈ secs, p = (enc s, s) := by
        simp only [List.mem_append, List.mem_map, List.mem_singleton] at hp
        rcases hp with ⟨s, hs, rfl⟩ | rfl
        · exact ⟨s, List.dropLast_subset _ hs, rfl⟩
        · exact ⟨_, List.getLast_mem hne, rfl⟩
      obtain ⟨s, hs, rfl⟩ := this
      exact ⟨enc_ne_nil_of_head s, LawfulCodec.rt env s (h s hs)⟩)
  have e : (secs.dropLast.map fun s => (enc s, s)) ++ [(enc (secs.getLast hne), secs.getLast hne)] =
      secs.map fun s => (enc s, s) := by
    conv => rhs; rw [← List.dropLast_concat_getLast hne]
    simp
  rw [e] at hw
  simpa [List.flatMap_map, List.map_map, Function.comp_def] using hw

/-! ### What the sections of a message decode to -/

theorem foldl_data (conv : StringVariantMap → AP) : ∀ (l : List Binary) (m : Message AP),
    (l.map Section.Data).foldl (addSection conv) m = { m with data := m.data ++ l }
  | [], m => by simp
  | d :: t, m => by simp [foldl_data conv t, addSection]

theorem foldl_sequence (conv : StringVariantMap → AP) : ∀ (l : List VList) (m : Message AP),
    (l.map Section.AmqpSequence).foldl (addSection conv) m = { m with sequence := m.sequence ++ l }
  | [], m => by simp
  | d :: t, m => by simp [foldl_sequence conv t, addSection]

/-- What decoding gives back for a message: no message format, unset cache,
nested messages as data sections, and an empty data section for an empty body. -/
def received {AP BP : Type} [Encode AP] [AppProps AP] (conv : StringVariantMap → BP)
    (m : Message AP) : Message BP where
  header := m.header
  delivery_annotations := m.delivery_annotations
  message_annotations := m.message_annotations
  properties := m.properties
  application_properties := m.application_properties.map fun a => conv (AppProps.toMap a)
  footer := m.footer
  data := if m.bodySize = 0 then [⟨[]⟩] else m.data ++ m.messages.map fun b => ⟨b.tenc⟩
  sequence := m.sequence
  value := m.value

theorem bodySize_zero {AP : Type} {m : Message AP} (h : m.bodySize = 0) :
    m.data = [] ∧ m.sequence = [] ∧ m.value = none ∧ m.messages = [] := by
  unfold bodySize bodySizeWith at h
  refine ⟨?_, ?_, ?_, ?_⟩
  · cases hd : m.data with
    | nil => rfl
    | cons a t => simp [hd, sectionsSize, sectionPrefixLength] at h
  · cases hd : m.sequence with
    | nil => rfl
    | cons a t => simp [hd, sectionsSize, sectionPrefixLength] at h
  · cases hd : m.value with
    | none => rfl
    | some a => simp [hd, sectionPrefixLength] at h
  · cases hd : m.messages with
    | nil => rfl
    | cons a t => simp [hd, nestedSize, sectionPrefixLength] at h

theorem foldl_sections {AP BP : Type} [Encode AP] [AppProps AP] (conv : StringVariantMap → BP)
    (m : Message AP) : m.sections.foldl (addSection conv) empty = m.received conv := by
  have hm : ∀ l : List TransferBody, l.map (fun b => Section.Data ⟨b.tenc⟩) =
      (l.map fun b => (⟨b.tenc⟩ : Binary)).map Section.Data := by
    intro l; simp
  simp only [Message.sections, MsgHead.preSections, Message.bodySections, List.foldl_append]
  by_cases hb : m.bodySize = 0
  · obtain ⟨h1, h2, h3, h4⟩ := bodySize_zero hb
    simp only [if_pos hb, received, h2, h3]
    cases m.header <;> cases m.delivery_annotations <;> cases m.message_annotations <;>
      cases m.properties <;> cases m.application_properties <;> cases m.footer <;> rfl
  · simp only [if_neg hb, received, List.foldl_append, hm, foldl_data, foldl_sequence]
    cases m.header <;> cases m.delivery_annotations <;> cases m.message_annotations <;>
      cases m.properties <;> cases m.application_properties <;> cases m.footer <;>
      cases m.value <;> simp [addSection, empty]

/-- Messages that survive: every section does, and nested messages report
their exact size. -/
def Sendable {AP : Type} [Encode AP] [AppProps AP] (env : Env) (m : Message AP) : Prop :=
  (∀ s ∈ m.sections, wf env s) ∧ ∀ b ∈ m.messages, b.Exact

theorem decodeWith_enc {AP BP : Type} [Encode AP] [AppProps AP] {env : Env}
    (conv : StringVariantMap → BP) (m : Message AP) (h : m.Sendable env) :
    decodeWith env conv (enc m) = .ok (enc (m.sections.getLast m.sections_ne), m.received conv) := by
  rw [menc_eq m h.2, decodeWith_eq, resume_sections conv m.sections m.sections_ne empty h.1,
    foldl_sections]

end Message

/-! ### Transfer -/

/-- What decoding gives back for a transfer: the body as raw data. -/
def Transfer.received (t : Transfer) : Transfer :=
  { t with body := match t.body with
      | none => none
      | some b => if b.tenc = [] then none else some (.Data ⟨b.tenc⟩) }

theorem Transfer.withBody_eq (t : Transfer) :
    Transfer.withBody t.toTransferPerf (t.body.elim [] enc) = .ok ([], t.received) := by
  obtain ⟨p, b⟩ := t
  cases b with
  | none => rfl
  | some b =>
    show Transfer.withBody p b.tenc = _
    unfold Transfer.withBody Transfer.received
    by_cases hb : b.tenc = []
    · simp [hb]
    · simp [hb]

theorem Transfer.enc_eq (t : Transfer) : enc t = enc t.toTransferPerf ++ t.body.elim [] enc := rfl

/-- `decode_transfer_inner` on the encoding of a transfer. -/
theorem Transfer.decInner_enc {env : Env} {t : Transfer} (h : wf env t.toTransferPerf) :
    Transfer.decInner env (compoundHdr FC.list8 FC.list32
        (sizeFields (ListType.fields TransferPerf) (ListType.toT t.toTransferPerf))
        (ListType.fields TransferPerf).length ++
      encFields (ListType.fields TransferPerf) (ListType.toT t.toTransferPerf) ++
      t.body.elim [] enc) = .ok ([], t.received) := by
  have := bind_ok (f := Transfer.withBody) (reads_inner_value (α := TransferPerf) h
    (t.body.elim [] enc))
  exact this.trans (Transfer.withBody_eq t)

theorem Transfer.decode_enc {env : Env} {t : Transfer} (h : wf env t.toTransferPerf) :
    decode Transfer env (enc t) = .ok ([], t.received) := by
  rw [Transfer.enc_eq, ListType.enc_eq', listHdr, enc_ulong_small (c := ListType.code TransferPerf)
    ListType.code_pos ListType.code_lt]
  simp only [List.cons_append, List.nil_append, List.append_assoc]
  rw [decode_cons]
  show describedAs env FC.described 20 "amqp:transfer:list" (Transfer.decInner env) _ = _
  rw [describedAs_eq, validateCode_self]
  have h1 := reads_small_descriptor env (c := ListType.code TransferPerf) ListType.code_lt
  have h2 := Transfer.decInner_enc h
  show (decode Descriptor env >>= _) ([FC.smallUlong, _] ++ (_ ++ _)) = _
  simp only [List.append_assoc] at h2 ⊢
  rw [bind_ok (h1 _)]
  exact h2

instance : HasWf Transfer := ⟨fun env t => wf env t.toTransferPerf⟩

theorem Transfer.size_eq (t : Transfer) (h : ∀ b, t.body = some b → b.Exact) :
    size t = (enc t).length := by
  show size t.toTransferPerf + t.body.elim 0 size = (enc t.toTransferPerf ++ t.body.elim [] enc).length
  rw [List.length_append, LawfulEnc.size_eq]
  cases hb : t.body with
  | none => rfl
  | some b => exact congrArg _ (h b hb)

/-! ### Frame -/

/-- What decoding gives back for a frame. -/
def Frame.received : Frame → Frame
  | .Transfer t => .Transfer t.received
  | f => f

instance : HasWf Frame := ⟨fun env f => match f with
  | .Open v => wf env v
  | .Begin v => wf env v
  | .Attach v => wf env v
  | .Flow v => wf env v
  | .Transfer v => wf env v
  | .Disposition v => wf env v
  | .Detach v => wf env v
  | .End v => wf env v
  | .Close v => wf env v
  | .Empty => True⟩

theorem Frame.decode_cons (env : Env) (f : UInt8) (t : Bytes) :
    Frame.decode env (f :: t) =
      validateCode f FC.described (Amqp.decode Descriptor env >>= Frame.dispatch env) t := rfl

theorem Frame.decode_list {α : Type} [Encode α] [DecodeF α] [ListType α] {env : Env}
    (mk : α → Frame) (v : α)
    (h : sizeFields (ListType.fields α) (ListType.toT v) + 4 < 2 ^ 32 ∧
      wfFields env (ListType.fields α) (ListType.toT v))
    (hd : Frame.dispatch env (.ulong (ListType.code α)) = mk <$> ListType.inner env) :
    Reads (Frame.decode env) (enc v) (mk v) := by
  intro more
  rw [ListType.enc_eq', listHdr, enc_ulong_small (ListType.code_pos (α := α)) ListType.code_lt]
  have h1 := reads_small_descriptor env (c := ListType.code α) ListType.code_lt
  have h2 := (reads_inner_value h).map mk more
  simp only [List.cons_append, List.nil_append, List.append_assoc]
  rw [Frame.decode_cons, validateCode_self]
  have := bind_ok (f := Frame.dispatch env) (h1 (compoundHdr FC.list8 FC.list32
        (sizeFields (ListType.fields α) (ListType.toT v)) (ListType.fields α).length ++
        (encFields (ListType.fields α) (ListType.toT v) ++ more)))
  rw [hd] at this
  simp only [List.append_assoc] at h2
  rw [h2] at this
  exact this

theorem Frame.decode_enc {env : Env} {f : Frame} (h : wf env f) :
    Frame.decode env (enc f) = .ok ([], f.received) := by
  have fin : ∀ {w : Bytes} {g : Frame}, Reads (Frame.decode env) w g →
      Frame.decode env w = .ok ([], g) := fun hr => by
    have := hr []
    rwa [List.append_nil] at this
  cases f with
  | Open v => exact fin (Frame.decode_list Frame.Open v h rfl)
  | Begin v => exact fin (Frame.decode_list Frame.Begin v h rfl)
  | Attach v => exact fin (Frame.decode_list Frame.Attach v h rfl)
  | Flow v => exact fin (Frame.decode_list Frame.Flow v h rfl)
  | Disposition v => exact fin (Frame.decode_list Frame.Disposition v h rfl)
  | Detach v => exact fin (Frame.decode_list Frame.Detach v h rfl)
  | End v => exact fin (Frame.decode_list Frame.End v h rfl)
  | Close v => exact fin (Frame.decode_list Frame.Close v h rfl)
  | Empty => rfl
  | Transfer t =>
    show Frame.decode env (enc t) = _
    rw [Transfer.enc_eq, ListType.enc_eq', listHdr, enc_ulong_small
      (c := ListType.code TransferPerf) ListType.code_pos ListType.code_lt]
    have h1 := reads_small_descriptor env (c := ListType.code TransferPerf) ListType.code_lt
    have h2 := Transfer.decInner_enc h
    simp only [List.cons_append, List.nil_append, List.append_assoc] at h2 ⊢
    rw [Frame.decode_cons, validateCode_self]
    show (Amqp.decode Descriptor env >>= _) ([FC.smallUlong, _] ++ _) = _
    rw [bind_ok (h1 _)]
    exact map_ok (f := Frame.Transfer) h2

theorem Frame.size_eq (f : Frame) (h : ∀ t b, f = .Transfer t → t.body = some b → b.Exact) :
    size f = (enc f).length := by
  cases f with
  | Open v => exact LawfulEnc.size_eq v
  | Begin v => exact LawfulEnc.size_eq v
  | Attach v => exact LawfulEnc.size_eq v
  | Flow v => exact LawfulEnc.size_eq v
  | Transfer v => exact Transfer.size_eq v fun b hb => h v b rfl hb
  | Disposition v => exact LawfulEnc.size_eq v
  | Detach v => exact LawfulEnc.size_eq v
  | End v => exact LawfulEnc.size_eq v
  | Close v => exact LawfulEnc.size_eq v
  | Empty => rfl

end Amqp
