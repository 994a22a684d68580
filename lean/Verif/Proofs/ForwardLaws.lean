import Verif.Spec.Forward
import Verif.Props.Values
import Verif.Proofs.ListPrefix
/-!
# What comes out of the decoders goes back in
-/
set_option autoImplicit false
namespace Amqp
open Dec Forwardable

theorem forwards_of_decoded {α : Type} [Encode α] [DecodeF α] [Forwardable α]
    (h : DecodedRoundTrips α) : Forwards α := fun env i r v hd _ _ => h env i r v hd

theorem forwards_small {α : Type} [Encode α] [DecodeF α] [Forwardable α] [SmallRT α] :
    Forwards α := fun env _ _ v _ _ hs => SmallRT.rt env v hs

theorem forwards_variant : Forwards Variant := fun env i r v h hp hs => by
  obtain ⟨h1, _⟩ := yield_decVar env env.stackDepth i r v h
  exact C14_round_trip_partial env v (h1.survives hp) hs h1.depth

theorem forwards_option {α : Type} [Encode α] [DecodeF α] [Forwardable α] [NonNull α]
    (h : Forwards α) : Forwards (Option α) := by
  intro env i r v hd hc hs
  cases v with
  | none => exact fun _ => rfl
  | some a =>
    obtain ⟨c, t, rfl, h1⟩ := decode_ok hd
    have h2 : decode α env (c :: t) = .ok (r, a) := by
      rw [decode_cons]
      simp only [decF] at h1
      split at h1
      · cases h1
      · obtain ⟨b, h2, e⟩ := map_eq_ok.1 h1
        cases e; exact h2
    exact roundTrips_some (h env _ _ a h2 (hc a rfl) hs)

/-- The entries of a decoded map were decoded. -/
theorem mapLoop_origin {K V : Type} [HKey K] {kd : Dec K} {vd : Dec V} {P : K → Prop} {Q : V → Prop}
    (hk : Post kd fun _ _ a => P a) (hv : Post vd fun _ _ a => Q a) :
    ∀ n acc i r out, (∀ e ∈ acc, P e.1 ∧ Q e.2) → mapLoop kd vd n acc i = .ok (r, out) →
      ∀ e ∈ out, P e.1 ∧ Q e.2
  | 0, acc, i, r, out, ha, h => by
    injection h with h; injection h with h1 h2
    subst h1 h2
    exact ha
  | n + 1, acc, i, r, out, ha, h => by
    obtain ⟨r1, k, r2, v, h1, h2, _, h⟩ := mapLoop_succ h
    refine mapLoop_origin hk hv n _ _ _ _ (fun e he => ?_) h
    rcases insertEntry_mem _ _ _ _ he with h | rfl | ⟨g1, g2⟩
    · exact ha e h
    · exact ⟨hk _ _ _ h1, hv _ _ _ h2⟩
    · obtain ⟨f, hf, e'⟩ := List.mem_map.1 g2
      exact ⟨e' ▸ (ha f hf).1, g1 ▸ hv _ _ _ h2⟩

theorem forwards_map {K V : Type} [HKey K] [Encode K] [Encode V] [DecodeF K] [DecodeF V]
    [LawfulEnc K] [LawfulEnc V] [Forwardable K] [Forwardable V] (hK : Forwards K) (hV : Forwards V) :
    Forwards (HMap K V) := by
  intro env i r m h hc hs
  obtain ⟨hn, hh⟩ := C17_keys_unique env i r m h
  obtain ⟨c, t, rfl, h1⟩ := decode_ok h
  obtain ⟨l, h2, rfl⟩ := map_eq_ok.1 h1
  obtain ⟨r1, hd, _, h3⟩ := bind_eq_ok.1 h2
  obtain ⟨_, rfl, r', h4⟩ := withSlice_ok h3
  have ho := mapLoop_origin (P := fun k : K => ∃ i r, decode K env i = .ok (r, k))
    (Q := fun v : V => ∃ i r, decode V env i = .ok (r, v)) (fun i r a h => ⟨i, r, h⟩)
    (fun i r a h => ⟨i, r, h⟩) _ _ _ _ _ (by simp) h4
  have e : compoundSize (mapContentSize size size l) = (enc (⟨l⟩ : HMap K V)).length :=
    LawfulEnc.size_eq (⟨l⟩ : HMap K V)
  have hsm : mapContentSize size size l + 4 < 2 ^ 32 := compoundSize_small (by rw [e]; exact hs)
  refine C16_same_order LawfulEnc.size_eq LawfulEnc.size_eq env ⟨l⟩ hh hn (fun e he => ?_) hs
  have hm : size e.1 + size e.2 ≤ mapContentSize size size l := mapContentSize_mem _ _ he
  obtain ⟨⟨i1, r1, g1⟩, ⟨i2, r2, g2⟩⟩ := ho e he
  have e1 : size e.1 = (enc e.1).length := LawfulEnc.size_eq e.1
  have e2 : size e.2 = (enc e.2).length := LawfulEnc.size_eq e.2
  exact ⟨hK env _ _ _ g1 (hc e he).1 (by omega), hV env _ _ _ g2 (hc e he).2 (by omega)⟩

theorem itemBytes_eq (l : List Symbol) : (l.flatMap aenc).length = itemBytes l := by
  induction l with
  | nil => rfl
  | cons s t ih =>
    have : itemBytes (s :: t) = 4 + s.str.bytes.length + itemBytes t := by simp [itemBytes]
    rw [this, List.flatMap_cons, List.length_append, ih, symbol_item_length]

theorem forwards_symbols : Forwards (Multiple Symbol) := by
  intro env i r m _ hc hs
  obtain ⟨items⟩ := m
  have hex := C18_item_sizes.2.2.2.2.2.2.2.2.2.2.2.2.2.2.2.2
  refine (C18_multiple_round_trip_partial hex symbol_head env ⟨items⟩ (fun a ha => ?_)
    (fun hn => ?_)).1
  · cases ha
    exact SmallRT.rt env a hs
  · have hs' : (enc (Vec.mk items)).length < 2 ^ 32 := by
      match items, hn, hs with
      | [], _, hs => exact hs
      | [a], hn, _ => exact absurd rfl hn
      | a :: b :: t, _, hs => exact hs
    have hl : (items.flatMap aenc).length + 5 < 2 ^ 32 := by
      have e := arrayContentSize_flatMap hex items
      have e2 : (arrayContent items).length = (items.flatMap aenc).length := by
        rw [arrayContent_eq]
      have e3 := e2
      rw [List.length_flatMap] at e3
      simp only [enc] at hs'
      rw [e] at hs'
      split at hs' <;> simp [e2] at hs' <;> omega
    refine ⟨fun a ha => (C02_text_items_round_trip env).2.2 a ?_, hl, fun ho => ?_⟩
    · obtain ⟨l1, l2, e⟩ := List.append_of_mem ha
      simp only at e
      rw [e] at hl
      simp only [List.flatMap_append, List.flatMap_cons, List.length_append, symbol_item_length] at hl
      omega
    · rw [itemBytes_eq]; exact hc ho hn

theorem forwards_fields : Forwards Fields := forwards_map forwards_small forwards_variant

theorem forwards_sequence : Forwards VList := fun _ _ _ _ _ h => h.elim

theorem section_content_le (a b : Bytes) : b.length ≤ (a ++ b).length := by simp

/-! ## List types -/

/-- Every field was decoded or was missing. -/
def Origin (env : Env) : (fs : List Field) → Tuple fs → Prop
  | [], _ => True
  | f :: fs, t => ((∃ i r, f.dec env i = .ok (r, t.1)) ∨ f.missing = .ok t.1) ∧ Origin env fs t.2

theorem getFields_origin (env : Env) : ∀ (fs : List Field) (s s' : Nat × Bytes) (t : Tuple fs),
    getFields env fs s = .ok (s', t) → Origin env fs t
  | [], _, _, _, _ => trivial
  | f :: fs, (0, w), s', t, h => by
    simp only [getFields, FieldDec.run_bind, f.get_zero] at h
    cases hm : f.missing with
    | err e => rw [hm] at h; cases h
    | panic p => rw [hm] at h; cases h
    | ok x =>
      rw [hm] at h
      simp only at h
      cases hg : getFields env fs (0, w) with
      | err e => rw [hg] at h; cases h
      | panic p => rw [hg] at h; cases h
      | ok q =>
        obtain ⟨s2, t2⟩ := q
        rw [hg] at h
        cases h
        exact ⟨.inr hm, getFields_origin env fs _ _ _ hg⟩
  | f :: fs, (n + 1, w), s', t, h => by
    simp only [getFields, FieldDec.run_bind, f.get_succ, present] at h
    cases hm : f.dec env w with
    | err e => rw [hm] at h; cases h
    | panic p => rw [hm] at h; cases h
    | ok x =>
      obtain ⟨w', x⟩ := x
      rw [hm] at h
      simp only at h
      cases hg : getFields env fs (n, w') with
      | err e => rw [hg] at h; cases h
      | panic p => rw [hg] at h; cases h
      | ok q =>
        obtain ⟨s2, t2⟩ := q
        rw [hg] at h
        cases h
        exact ⟨.inl ⟨_, _, hm⟩, getFields_origin env fs _ _ _ hg⟩

theorem inner_origin {α : Type} [Encode α] [DecodeF α] [ListType α] {env : Env} {i r : Bytes} {v : α}
    (h : ListType.inner env i = .ok (r, v)) : Origin env (ListType.fields α) (ListType.toT v) := by
  rw [ListType.inner_eq] at h
  obtain ⟨_, fmt, _, h⟩ := bind_eq_ok.1 h
  obtain ⟨_, hd, _, h⟩ := bind_eq_ok.1 h
  obtain ⟨_, body, _, h⟩ := bind_eq_ok.1 h
  rw [FieldDec.run_map] at h
  cases hg : getFields env (ListType.fields α) (hd.count, body) with
  | err e => rw [hg] at h; cases h
  | panic p => rw [hg] at h; cases h
  | ok q =>
    obtain ⟨s, t⟩ := q
    rw [hg] at h
    cases h
    rw [ListType.toT_ofT]
    exact getFields_origin env _ _ _ _ hg

section
variable {α : Type} [Encode α] [DecodeF α] [LawfulEnc α] [LawfulDec α] [NonNull α] [HasWf α]
  [LawfulCodec α] [Forwardable α]

theorem forward_opt (hf : Forwards α) {env : Env} {o : Option α}
    (h : (∃ i r, (Field.opt α).dec env i = .ok (r, o)) ∨ (Field.opt α).missing = .ok o)
    (hc : fwd env o) (hs : (enc o).length < 2 ^ 32) : RoundTrips env o := by
  rcases h with ⟨i, r, h⟩ | h
  · exact forwards_option hf env i r o h hc hs
  · have h' : (.ok none : Res ParseError (Option α)) = .ok o := h
    cases h'
    exact fun _ => rfl

theorem forward_req (hf : Forwards α) {env : Env} {v : α} {name : String}
    (h : (∃ i r, (Field.req α name).dec env i = .ok (r, v)) ∨ (Field.req α name).missing = .ok v)
    (hc : fwd env v) (hs : (enc v).length < 2 ^ 32) : RoundTrips env v := by
  rcases h with ⟨i, r, h⟩ | h
  · exact hf env i r v h hc hs
  · have h' : (.err (.requiredFieldOmitted name) : Res ParseError α) = .ok v := h
    cases h'
end

/-- `Forwards` for the part of a list decoder after the descriptor. -/
def ForwardsInner (α : Type) [Encode α] [DecodeF α] [ListType α] [Forwardable α] : Prop :=
  ∀ (env : Env) (i r : Bytes) (v : α), ListType.inner env i = .ok (r, v) →
    fwd env v → (enc v).length < 2 ^ 32 → RoundTrips env v

theorem forwards_list {α : Type} [Encode α] [DecodeF α] [ListType α] [Forwardable α]
    (h : ForwardsInner α) : Forwards α := by
  intro env i r v hd hc hs
  obtain ⟨c, t, rfl, h1⟩ := decode_ok hd
  rw [ListType.decF_eq, describedAs_eq] at h1
  obtain ⟨_, h1⟩ := validateCode_ok h1
  obtain ⟨_, d, _, h1⟩ := bind_eq_ok.1 h1
  split at h1
  · cases h1
  · exact h env _ _ v h1 hc hs

end Amqp
