import Verif.Proofs.TravelFrames
/-!
# What has arrived arrives unaltered when sent on

Support for C86.
-/
set_option autoImplicit false
namespace Amqp
open Dec

/-- What has arrived, sent on, arrives as it is. -/
class Settled (α : Type) [HasFate α] : Prop where
  settled : ∀ (env : Env) (v w : α), fate env v = .arrives w → fate env w = .arrives w

theorem bind_arrives {α β : Type} {s : Fate α} {f : α → Fate β} {b : β}
    (h : s >>= f = .arrives b) : ∃ a, s = .arrives a ∧ f a = .arrives b := by
  cases s with
  | arrives a => exact ⟨a, rfl, h⟩
  | refused => cases h
  | crashes p => cases h

theorem Settled.same {α : Type} [HasFate α] (h : ∀ env (v : α), fate env v = .arrives v) :
    Settled α := ⟨fun env _ w _ => h env w⟩

instance : Settled Bool := .same fun _ _ => rfl
instance : Settled UInt8 := .same fun _ _ => rfl
instance : Settled UInt16 := .same fun _ _ => rfl
instance : Settled UInt32 := .same fun _ _ => rfl
instance : Settled UInt64 := .same fun _ _ => rfl
instance : Settled RStr := .same fun _ _ => rfl
instance : Settled Symbol := .same fun _ _ => rfl
instance : Settled Binary := .same fun _ _ => rfl
instance : Settled MessageId := .same fun _ _ => rfl
instance : Settled Role := .same fun _ _ => rfl
instance : Settled SenderSettleMode := .same fun _ _ => rfl
instance : Settled ReceiverSettleMode := .same fun _ _ => rfl
instance : Settled SaslCode := .same fun _ _ => rfl
instance : Settled TerminusDurability := .same fun _ _ => rfl
instance : Settled TerminusExpiryPolicy := .same fun _ _ => rfl
instance : Settled FilterSet := .same fun _ _ => rfl
instance : Settled VList := ⟨fun _ _ _ h => by cases h⟩

theorem sent_settled {v w : Variant} {d : Nat} (h : v.sent d = .arrives w) :
    w.sent d = .arrives w := by
  obtain ⟨h1, h2⟩ := sent_survives v d w h
  exact survives_sent w d h1 h2

instance : Settled Variant := ⟨fun _ _ _ h => sent_settled h⟩

instance : Settled DateTime := ⟨fun _ t u h => by
  have h1 : (Variant.timestamp t).sent 1 = .arrives (.timestamp u) := by
    have h : t.sent = .arrives u := h
    simp only [Variant.sent, h]
    rfl
  have h2 := sent_settled h1
  simp only [Variant.sent] at h2
  show u.sent = .arrives u
  cases hu : u.sent with
  | arrives u' => rw [hu] at h2; cases h2; rfl
  | refused => rw [hu] at h2; cases h2
  | crashes p => rw [hu] at h2; cases h2⟩

theorem sentValues_settled {K : Type} {d : Nat} : ∀ {m l : List (K × Variant)},
    sentValues d m = .arrives l → sentValues d l = .arrives l
  | [], l, h => by cases h; rfl
  | (k, v) :: t, l, h => by
    obtain ⟨v', h1, h⟩ := bind_arrives (s := v.sent d)
      (f := fun v' => (sentValues d t).andThen fun l => .arrives ((k, v') :: l)) h
    obtain ⟨l', h2, h⟩ := bind_arrives (s := sentValues d t)
      (f := fun l => .arrives ((k, v') :: l)) h
    cases h
    simp only [sentValues, sent_settled h1, sentValues_settled h2]
    rfl

theorem settled_hmap {K : Type} {d : Nat} {m w : HMap K Variant}
    (h : (sentValues d m.entries).andThen (fun l => .arrives (HMap.mk l)) = .arrives w) :
    (sentValues d w.entries).andThen (fun l => .arrives (HMap.mk l)) = .arrives w := by
  obtain ⟨l, h1, h2⟩ := bind_arrives (s := sentValues d m.entries)
    (f := fun l => .arrives (HMap.mk l)) h
  cases h2
  simp only [sentValues_settled h1]
  rfl

instance : Settled (HMap Symbol Variant) := ⟨fun _ _ _ h => settled_hmap h⟩
instance : Settled (HMap Str Variant) := ⟨fun _ _ _ h => settled_hmap h⟩

instance : Settled (HMap Variant Variant) := ⟨fun env m w h => by
  have key : ∀ (m w : HMap Variant Variant), fate env m = .arrives w ↔
      (Variant.map m.entries).sent (env.stackDepth + 1) = .arrives (.map w.entries) := by
    intro m w
    simp only [Variant.sent, fate]
    cases sentMap env.stackDepth m.entries with
    | arrives l =>
      obtain ⟨w⟩ := w
      show Fate.arrives (HMap.mk (Lenient.merged l)) = .arrives (HMap.mk w) ↔
        Fate.arrives (Variant.map (Lenient.merged l)) = .arrives (.map w)
      simp
    | refused => exact ⟨nofun, nofun⟩
    | crashes p => exact ⟨nofun, nofun⟩
  exact (key w w).2 (sent_settled ((key m w).1 h))⟩

instance : Settled (Multiple Symbol) := ⟨fun env m w h => by
  have h' := h
  simp only [fate] at h
  split at h
  · cases h
  · cases h; exact h'⟩

instance : Settled ErrorCondition := ⟨fun env c w h => by
  have h : Fate.arrives ((standardConditions.find? fun d => conditionName d = conditionName c).getD c) =
    .arrives w := h
  show Fate.arrives _ = _
  have hn : conditionName w = conditionName c := by
    cases h
    cases hf : standardConditions.find? fun d => conditionName d = conditionName c with
    | none => rfl
    | some d => have := List.find?_some hf; exact of_decide_eq_true this
  rw [condition_found, hn, ← condition_found]
  exact h⟩

instance : Settled DistributionMode := ⟨fun env c w h => by
  have h : Fate.arrives (([DistributionMode.Move, .Copy].find?
    fun d => modeName d = modeName c).getD c) = .arrives w := h
  show Fate.arrives _ = _
  have hn : modeName w = modeName c := by
    cases h
    cases hf : [DistributionMode.Move, .Copy].find? fun d => modeName d = modeName c with
    | none => rfl
    | some d => have := List.find?_some hf; exact of_decide_eq_true this
  rw [mode_found, hn, ← mode_found]
  exact h⟩

instance {α : Type} [HasFate α] [Settled α] : Settled (Option α) := ⟨fun env o w h => by
  cases o with
  | none => cases h; rfl
  | some v =>
    obtain ⟨a, h1, h2⟩ := bind_arrives (s := fate env v) (f := fun a => pure (some a)) h
    cases h2
    show (fate env a >>= fun a => pure (some a)) = _
    rw [Settled.settled env v a h1]
    rfl⟩

/-! ### Fields and list types -/

def FieldFate.Stable {f : Field} (g : FieldFate f) : Prop :=
  ∀ env v w, g.fate env v = .arrives w → g.fate env w = .arrives w

def StableFields : (fs : List Field) → FateFields fs → Prop
  | [], _ => True
  | _ :: fs, gs => gs.1.Stable ∧ StableFields fs gs.2

theorem settled_fields {env : Env} : ∀ (fs : List Field) (gs : FateFields fs) (t u : Tuple fs),
    StableFields fs gs → fateFields fs gs env t = .arrives u → fateFields fs gs env u = .arrives u
  | [], _, _, _, _, _ => rfl
  | f :: fs, (g, gs), (a, t), u, h, hu => by
    obtain ⟨a', h1, h2⟩ := bind_arrives (s := g.fate env a)
      (f := fun a => fateFields fs gs env t >>= fun t => pure (a, t)) hu
    obtain ⟨t', h3, h4⟩ := bind_arrives (s := fateFields fs gs env t)
      (f := fun t => pure ((a', t) : Tuple (f :: fs))) h2
    cases h4
    show (g.fate env a' >>= fun a => fateFields fs gs env t' >>= fun t => pure (a, t)) = _
    rw [h.1 env a a' h1, settled_fields fs gs t t' h.2 h3]
    rfl

theorem listSettled {α : Type} [Encode α] [DecodeF α] [ListType α] [HasFate α] [Holdable α]
    [ListFate α] (ht : ∀ t, ListType.toT (ListType.ofT (α := α) t) = t)
    (hs : StableFields (ListType.fields α) ListFate.ff) : Settled α := ⟨fun env v w h => by
  rw [ListFate.fate_eq, fateThen_eq] at h ⊢
  obtain ⟨t, h1, h2⟩ := bind_arrives h
  cases h2
  rw [ht, settled_fields _ _ _ _ hs h1]
  rfl⟩

section
variable {α : Type} [Encode α] [DecodeF α] [LawfulEnc α] [LawfulDec α] [NonNull α] [HasFate α]
  [Holdable α] [FateLaw α] [Settled α]

theorem FieldFate.req_stable {name : String} : (FieldFate.req (α := α) (name := name)).Stable :=
  Settled.settled (α := α)
theorem FieldFate.opt_stable : (FieldFate.opt (α := α)).Stable :=
  Settled.settled (α := Option α)
theorem FieldFate.dflt_stable {d : α} : (FieldFate.dflt (d := d)).Stable :=
  Settled.settled (α := α)
end

theorem settled_member {α U : Type} [HasFate α] [Settled α] {env : Env} (mk : α → U)
    {v : α} {w : U} (h : (fate env v >>= fun a => pure (mk a)) = .arrives w) :
    ∃ a, w = mk a ∧ (fate env a >>= fun a => pure (mk a)) = .arrives (mk a) := by
  obtain ⟨a, h1, h2⟩ := bind_arrives h
  cases h2
  refine ⟨a, rfl, ?_⟩
  rw [Settled.settled env v a h1]
  rfl

end Amqp
