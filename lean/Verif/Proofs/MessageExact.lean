import Verif.Proofs.StandardExact
/-!
# Which messages are written legally
-/
set_option autoImplicit false
namespace Amqp
open Dec Standard

/-- `Sharp` for what is written by `g`. -/
def SharpBy {α : Type} (L : Rep α) (g : α → Bytes) (can : α → Prop) : Prop :=
  ∀ a u r r', (g a).length < 2 ^ 32 → L a u → u ++ r = g a ++ r' → u = g a ∧ can a

theorem described_align {c d : UInt64} (hd : 0 < d.toNat ∧ d.toNat < 256) {nm : String}
    {body : Bytes → Prop} {u r t : Bytes} (hu : described c nm body u)
    (e : u ++ r = enc (Descriptor.ulong d) ++ t) :
    ∃ x, body x ∧ x ++ r = t ∧ u = enc (Descriptor.ulong d) ++ x := by
  obtain ⟨db, x, hdb, hx, rfl⟩ := hu
  rw [enc_ulong_small hd.1 hd.2] at e ⊢
  simp only [List.cons_append, List.nil_append, List.append_assoc] at e ⊢
  injection e with _ e
  have e : db ++ (x ++ r) = [0x53, d.toUInt8] ++ t := e
  obtain ⟨e1, e2⟩ := skips_unique (skips_desc hdb) (skips_of (by decide) fun r => rfl) e
  exact ⟨x, hx, e2, by rw [e1]; rfl⟩

theorem sharp_section {α : Type} [Encode α] {c : UInt64} (hc : 0 < c.toNat ∧ c.toNat < 256)
    {nm : String} {L : Rep α} {can : α → Prop} (h : Sharp L can) :
    SharpBy (fun v => described c nm (L v)) (sectionEnc c) can := by
  intro a u r r' hs hu e
  rw [sectionEnc] at hs e ⊢
  rw [List.append_assoc] at e
  rw [List.length_append] at hs
  obtain ⟨x, hx, ex, rfl⟩ := described_align hc hu e
  obtain ⟨e1, h1⟩ := h a x r r' (by omega) hx ex
  exact ⟨by rw [e1], h1⟩

theorem sharp_maybe {α : Type} {L : Rep α} {g : α → Bytes} {can : α → Prop} (h : SharpBy L g can)
    {o : Option α} {u r r' : Bytes} (hs : (o.elim [] g).length < 2 ^ 32) (hu : Maybe L o u)
    (e : u ++ r = o.elim [] g ++ r') : r = r' ∧ IfGiven can o := by
  cases hu with
  | none => exact ⟨e, nofun⟩
  | some hl =>
    obtain ⟨e1, h1⟩ := h _ _ _ _ hs hl e
    rw [e1] at e
    exact ⟨List.append_cancel_left e, fun _ ha => by cases ha; exact h1⟩

theorem sharp_several {α : Type} {L : Rep α} {g : α → Bytes} {can : α → Prop} (h : SharpBy L g can)
    {l : List α} {u : Bytes} (hu : Several L l u) {r r' : Bytes}
    (hs : (l.flatMap g).length < 2 ^ 32) (e : u ++ r = l.flatMap g ++ r') :
    r = r' ∧ l ≠ [] ∧ ∀ a ∈ l, can a := by
  induction hu with
  | last hl =>
    simp only [List.flatMap_cons, List.flatMap_nil, List.append_nil] at hs e
    obtain ⟨e1, h1⟩ := h _ _ _ _ hs hl e
    rw [e1] at e
    exact ⟨List.append_cancel_left e, nofun, fun a ha => by rw [List.mem_singleton.1 ha]; exact h1⟩
  | more hl _ ih =>
    simp only [List.flatMap_cons, List.append_assoc, List.length_append] at hs e
    obtain ⟨e1, h1⟩ := h _ _ _ _ (by omega) hl e
    rw [e1] at e
    obtain ⟨e2, _, h2⟩ := ih (by omega) (List.append_cancel_left e)
    refine ⟨e2, nofun, fun a ha => ?_⟩
    rcases List.mem_cons.1 ha with rfl | ha
    · exact h1
    · exact h2 a ha

/-- Sequences are written with the codes of arrays, which no legal sequence has. -/
theorem sharp_sequence : SharpBy (amqpSequence .all) (sectionEnc 118) fun _ => False := by
  intro a u r r' _ hu e
  rw [sectionEnc, List.append_assoc] at e
  obtain ⟨x, hx, ex, -⟩ := described_align (by decide) hu e
  have hn := wire_not_list hx.1
  have hne : x ≠ [] := fun h => by
    have hx := hx.1
    rw [h] at hx
    generalize hv : Variant.list a.items = v at hx
    generalize hb : ([] : Bytes) = b at hx
    cases hx with
    | prim hp => cases hp <;> cases hb
    | _ => cases hb
  obtain ⟨y, t, rfl⟩ := List.exists_cons_of_ne_nil hne
  have ex : (y :: t) ++ r = (compoundHdr FC.array8 FC.array32 (vsizeList a.items) a.items.length ++
    vencList a.items) ++ r' := ex
  exfalso
  unfold compoundHdr at ex
  split at ex
  · simp only [List.cons_append] at ex
    injection ex with ex _
    subst ex
    exact hn.2 rfl
  · simp only [List.cons_append] at ex
    injection ex with ex _
    subst ex
    exact hn.1 rfl

theorem only_message {AP : Type} [Encode AP] [AppProps AP] (m : Amqp.Message AP) (s : Standard.Message)
    (hm : Contains (fun a => (AppProps.toMap a).entries) m s)
    (hx : ∀ b ∈ m.messages, b.Exact) (hs : (enc m).length < 2 ^ 32) (h : message .all s (enc m)) :
    canMessage s := by
  obtain ⟨hd, da, ma, p, ap, bd, f⟩ := s
  obtain ⟨e1, e2, e3, e4, e5, e6, e7⟩ := hm
  simp only at e1 e2 e3 e4 e5 e6 e7
  subst e1 e2 e3 e4 e5 e7
  obtain ⟨b1, b2, b3, b4, b5, b6, b7, g1, g2, g3, g4, g5, g6, g7, e⟩ := h
  simp only at g1 g2 g3 g4 g5 g6 g7
  have e' : m.encPre ++ bodyEncOrEmpty m.bodySize
    (bodyEncWith m.data m.sequence m.value (nestedEnc m.messages)) ++ m.encPost =
    b1 ++ b2 ++ b3 ++ b4 ++ b5 ++ b6 ++ b7 := e
  have hs' : (m.encPre ++ bodyEncOrEmpty m.bodySize
    (bodyEncWith m.data m.sequence m.value (nestedEnc m.messages)) ++ m.encPost).length < 2 ^ 32 := hs
  simp only [MsgHead.encPre, MsgHead.encPost, List.length_append] at hs'
  simp only [MsgHead.encPre, MsgHead.encPost, List.append_assoc] at e'
  obtain ⟨e1, -⟩ := sharp_maybe (g := enc) sharp_header (by omega) g1 e'.symm
  obtain ⟨e2, c1⟩ := sharp_maybe (sharp_section (by decide) sharp_fields) (by omega) g2 e1
  obtain ⟨e3, c2⟩ := sharp_maybe (sharp_section (by decide) sharp_fields) (by omega) g3 e2
  obtain ⟨e4, c3⟩ := sharp_maybe (g := enc) sharp_properties (by omega) g4 e3
  have hap : m.application_properties.elim [] (sectionEnc 116) =
      (m.application_properties.map fun a => (⟨(AppProps.toMap a).entries⟩ : StringVariantMap)).elim []
        (sectionEnc 116) := by
    cases m.application_properties with
    | none => rfl
    | some a => show sectionEnc 116 a = _; rw [sectionEnc, AppProps.enc_eq a]; rfl
  rw [hap] at e4 hs'
  obtain ⟨e5, c4⟩ := sharp_maybe (sharp_section (by decide) sharp_stringMap) (by omega) g5 e4
  have key : b7 = m.footer.elim [] (sectionEnc 120) ∧ canBody bd := by
    have hb : (bodyEncOrEmpty m.bodySize
      (bodyEncWith m.data m.sequence m.value (nestedEnc m.messages))).length < 2 ^ 32 := by omega
    cases bd with
    | data l =>
      obtain ⟨h1, h2, h3⟩ := e6
      have ee : bodyEncOrEmpty m.bodySize (bodyEncWith m.data m.sequence m.value (nestedEnc m.messages))
          = l.flatMap (sectionEnc 117) := by
        by_cases hz : m.bodySize = 0
        · obtain ⟨z1, z2, z3, z4⟩ := Message.bodySize_zero hz
          rw [if_pos ⟨z1, z4⟩] at h3
          subst h3
          rw [bodyEncOrEmpty, if_pos hz]
          rfl
        · have hne : ¬ (m.data = [] ∧ m.messages = []) := fun ⟨z1, z4⟩ => hz (by
            unfold Message.bodySize bodySizeWith
            rw [z1, z4, h1, h2]
            simp [sectionsSize, nestedSize])
          rw [if_neg hne] at h3
          rw [bodyEncOrEmpty, if_neg hz, bodyEncWith, h1, h2, h3, nestedEnc_eq _ hx,
            List.flatMap_append]
          simp only [List.flatMap_nil, List.append_nil, Option.elim_none, List.flatMap_map]
          rfl
      rw [ee] at hb e5
      obtain ⟨h, hl, -⟩ := sharp_several (sharp_section (by decide) sharp_binary) g6 hb e5
      exact ⟨h, hl⟩
    | sequence l =>
      obtain ⟨h1, h2, h3, rfl, h4⟩ := e6
      have hz : m.bodySize ≠ 0 := fun hz => h4 (Message.bodySize_zero hz).2.1
      have ee : bodyEncOrEmpty m.bodySize (bodyEncWith m.data m.sequence m.value (nestedEnc m.messages))
            = m.sequence.flatMap (sectionEnc 118) := by
        rw [bodyEncOrEmpty, if_neg hz, bodyEncWith, h1, h2, h3, nestedEnc]
        simp
      rw [ee] at hb e5
      obtain ⟨-, hl, h⟩ := sharp_several sharp_sequence g6 hb e5
      obtain ⟨y, t, ht⟩ := List.exists_cons_of_ne_nil hl
      exact (h y (by rw [ht]; simp)).elim
    | value v =>
      obtain ⟨h1, h2, h3, h4⟩ := e6
      have hz : m.bodySize ≠ 0 := fun hz => by
        have := (Message.bodySize_zero hz).2.2.1
        rw [h4] at this
        cases this
      have ee : bodyEncOrEmpty m.bodySize (bodyEncWith m.data m.sequence m.value (nestedEnc m.messages))
            = sectionEnc 119 v := by
        rw [bodyEncOrEmpty, if_neg hz, bodyEncWith, h1, h2, h3, h4, nestedEnc]
        simp
      rw [ee] at hb e5
      obtain ⟨h, hv⟩ := sharp_section (by decide) sharp_any v _ _ _ hb g6 e5
      rw [h] at e5
      exact ⟨List.append_cancel_left e5, hv⟩
  obtain ⟨e6, c5⟩ := key
  have e7 : b7 ++ [] = m.footer.elim [] (sectionEnc 120) ++ [] := by rw [e6]
  obtain ⟨-, c6⟩ := sharp_maybe (sharp_section (by decide) sharp_fields) (by omega) g7 e7
  exact ⟨c1, c2, c3, c4, c5, c6⟩

end Amqp
