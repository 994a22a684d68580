import Verif.Spec.Passing
import Verif.Proofs.SettledLists
import Verif.Proofs.EqualityReceived
/-!
# What was received arrives unaltered or not at all when sent on

Support for C87.
-/
set_option autoImplicit false
namespace Amqp
open Dec
open Forwardable (fwd)

class Passes (α : Type) [DecodeF α] [HasFate α] [Forwardable α] : Prop where
  passes : ∀ (env : Env) (i r : Bytes) (v : α), decode α env i = .ok (r, v) →
    Passing env.stackDepth v

theorem Passing.same {α : Type} [HasFate α] [Forwardable α] {d : Nat} {v : α}
    (h : ∀ env, fate env v = .arrives v) (hf : ∀ env, fwd env v) : Passing d v :=
  ⟨fun env w hw => by rw [h] at hw; cases hw; exact ⟨rfl, hf env⟩, fun env _ _ => h env⟩

theorem Passes.same {α : Type} [DecodeF α] [HasFate α] [Forwardable α]
    (h : ∀ env (v : α), fate env v = .arrives v) (hf : ∀ env (v : α), fwd env v) : Passes α :=
  ⟨fun _ _ _ v _ => .same (h · v) (hf · v)⟩

instance : Passes Bool := .same (fun _ _ => rfl) (fun _ _ => trivial)
instance : Passes UInt8 := .same (fun _ _ => rfl) (fun _ _ => trivial)
instance : Passes UInt16 := .same (fun _ _ => rfl) (fun _ _ => trivial)
instance : Passes UInt32 := .same (fun _ _ => rfl) (fun _ _ => trivial)
instance : Passes UInt64 := .same (fun _ _ => rfl) (fun _ _ => trivial)
instance : Passes RStr := .same (fun _ _ => rfl) (fun _ _ => trivial)
instance : Passes Symbol := .same (fun _ _ => rfl) (fun _ _ => trivial)
instance : Passes Binary := .same (fun _ _ => rfl) (fun _ _ => trivial)
instance : Passes MessageId := .same (fun _ _ => rfl) (fun _ _ => trivial)
instance : Passes FilterSet := .same (fun _ _ => rfl)
  (fun _ _ _ _ => ⟨trivial, fun _ _ => trivial⟩)
instance : Passes VList := ⟨fun _ _ _ _ _ =>
  ⟨fun _ _ h => (by cases h), fun _ _ h => False.elim h⟩⟩

theorem passing_decoded {d : Nat} {v : Variant} (h : Decoded d v) : Passing d v :=
  ⟨fun env w hw => by
    obtain ⟨h1, h2, -⟩ := (sent_arrives_iff v env.stackDepth h.valid).1 ⟨w, hw⟩
    have h3 := survives_sent v env.stackDepth (h.survives h1) h2
    have hw : v.sent env.stackDepth = .arrives w := hw
    rw [h3] at hw
    cases hw
    exact ⟨rfl, h1⟩,
   fun env hd hp => survives_sent v env.stackDepth (h.survives hp) (Nat.le_trans h.depth hd)⟩

instance : Passes Variant := ⟨fun env i r v h =>
  passing_decoded (yield_decVar env env.stackDepth i r v h).1⟩

instance : Passes DateTime := ⟨fun env i r t h => by
  obtain ⟨c, i', rfl, h1⟩ := decode_ok h
  have hs := decF_datetime_survives ⟨i', r, h1⟩
  exact .same (fun _ => hs.sent) (fun _ => trivial)⟩

theorem sentValues_same {K : Type} {d : Nat} : ∀ {m : List (K × Variant)},
    (∀ e ∈ m, e.2.sent d = .arrives e.2) → sentValues d m = .arrives m
  | [], _ => rfl
  | (k, v) :: t, h => by
    simp only [sentValues, h (k, v) (by simp), sentValues_same fun e he => h e (List.mem_cons_of_mem _ he)]
    rfl

theorem sentValues_each {K : Type} {d : Nat} : ∀ {m l : List (K × Variant)},
    sentValues d m = .arrives l → ∀ e ∈ m, ∃ w, e.2.sent d = .arrives w
  | [], _, _ => by simp
  | (k, v) :: t, l, h => by
    obtain ⟨v', h1, h⟩ := bind_arrives (s := v.sent d)
      (f := fun v' => (sentValues d t).andThen fun l => .arrives ((k, v') :: l)) h
    obtain ⟨l', h2, h⟩ := bind_arrives (s := sentValues d t)
      (f := fun l => .arrives ((k, v') :: l)) h
    intro e he
    rcases List.mem_cons.mp he with rfl | he
    · exact ⟨v', h1⟩
    · exact sentValues_each h2 e he

/-- What the values of a received map are. -/
theorem map_values {K : Type} [HKey K] [DecodeF K] {env : Env} {i r : Bytes} {m : HMap K Variant}
    (h : decode (HMap K Variant) env i = .ok (r, m)) :
    ∀ e ∈ m.entries, Passing env.stackDepth e.2 := by
  obtain ⟨c, t, rfl, h1⟩ := decode_ok h
  obtain ⟨l, h2, rfl⟩ := map_eq_ok.1 h1
  obtain ⟨r1, hd, _, h3⟩ := bind_eq_ok.1 h2
  obtain ⟨_, rfl, r', h4⟩ := withSlice_ok h3
  have ho := mapLoop_origin (P := fun _ : K => True)
    (Q := fun v : Variant => Passing env.stackDepth v)
    (fun i r a h => trivial) (fun i r a h => Passes.passes env i r a h) _ _ _ _ _ (by simp) h4
  exact fun e he => (ho e he).2

theorem passing_map {K : Type} [Forwardable K] (hK : ∀ env (k : K), fwd env k) {d : Nat}
    {m : HMap K Variant} (h : ∀ e ∈ m.entries, Passing d e.2) :
    (∀ (env : Env) (w : HMap K Variant),
      (sentValues env.stackDepth m.entries).andThen (fun l => .arrives (HMap.mk l)) = .arrives w →
        w = m ∧ fwd env m) ∧
    (∀ env : Env, d ≤ env.stackDepth → fwd env m →
      (sentValues env.stackDepth m.entries).andThen (fun l => .arrives (HMap.mk l)) = .arrives m) := by
  refine ⟨fun env w hw => ?_, fun env hd hf => ?_⟩
  · obtain ⟨l, h1, h2⟩ := bind_arrives (s := sentValues env.stackDepth m.entries)
      (f := fun l => .arrives (HMap.mk l)) hw
    have h3 : ∀ e ∈ m.entries, e.2.sent env.stackDepth = .arrives e.2 ∧ fwd env e.2 := by
      intro e he
      obtain ⟨x, hx⟩ := sentValues_each h1 e he
      obtain ⟨h4, h5⟩ := (h e he).1 env x hx
      rw [h4] at hx
      exact ⟨hx, h5⟩
    rw [sentValues_same fun e he => (h3 e he).1] at h1
    cases h1
    cases h2
    exact ⟨rfl, fun e he => ⟨hK env e.1, (h3 e he).2⟩⟩
  · rw [sentValues_same fun e he => (h e he).2 env hd (hf e he).2]
    rfl

instance : Passes (HMap Symbol Variant) := ⟨fun _ _ _ _ h =>
  passing_map (fun _ _ => trivial) (map_values h)⟩
instance : Passes (HMap Str Variant) := ⟨fun _ _ _ _ h =>
  passing_map (fun _ _ => trivial) (map_values h)⟩

theorem sentMap_each {d : Nat} : ∀ {m l : List (Variant × Variant)}, sentMap d m = .arrives l →
    ∀ e ∈ m, (∃ w, e.1.sent d = .arrives w) ∧ ∃ w, e.2.sent d = .arrives w
  | [], _, _ => by simp
  | (k, v) :: t, l, h => by
    obtain ⟨k', v', l', hk, hv, -, ht, -⟩ := sentMap_cons.1 h
    intro e he
    rcases List.mem_cons.mp he with rfl | he
    · exact ⟨⟨k', hk⟩, v', hv⟩
    · exact sentMap_each ht e he

instance : Passes (HMap Variant Variant) := ⟨fun env i r m h => by
  obtain ⟨hh, hn⟩ := (ReceivedHeld.held_of env i r m h : held m)
  have hp : ∀ e ∈ m.entries, Passing env.stackDepth e.1 ∧ Passing env.stackDepth e.2 := by
    obtain ⟨c, t, rfl, h1⟩ := decode_ok h
    obtain ⟨l, h2, rfl⟩ := map_eq_ok.1 h1
    obtain ⟨r1, hd, _, h3⟩ := bind_eq_ok.1 h2
    obtain ⟨_, rfl, r', h4⟩ := withSlice_ok h3
    exact mapLoop_origin (P := fun v : Variant => Passing env.stackDepth v)
      (Q := fun v : Variant => Passing env.stackDepth v)
      (fun i r a h => Passes.passes env i r a h) (fun i r a h => Passes.passes env i r a h)
      _ _ _ _ _ (by simp) h4
  have key : ∀ env' : Env, (∀ e ∈ m.entries, e.1.sent env'.stackDepth = .arrives e.1 ∧
      e.2.sent env'.stackDepth = .arrives e.2) → fate env' m = .arrives m := by
    intro env' hs
    show (sentMap env'.stackDepth m.entries).andThen
      (fun l => .arrives (HMap.mk (Lenient.merged l))) = .arrives m
    rw [survives_entries hs fun e he => (hh e he).1]
    show Fate.arrives (HMap.mk (Lenient.merged m.entries)) = _
    rw [merged_nodup (fun e he => (hh e he).1) hn]
  refine ⟨fun env' w hw => ?_, fun env' hd hf => ?_⟩
  · obtain ⟨l, h1, -⟩ := bind_arrives (s := sentMap env'.stackDepth m.entries)
      (f := fun l => .arrives (HMap.mk (Lenient.merged l))) hw
    have h3 : ∀ e ∈ m.entries, (e.1.sent env'.stackDepth = .arrives e.1 ∧ fwd env' e.1) ∧
        (e.2.sent env'.stackDepth = .arrives e.2 ∧ fwd env' e.2) := by
      intro e he
      obtain ⟨⟨x, hx⟩, y, hy⟩ := sentMap_each h1 e he
      obtain ⟨h4, h5⟩ := (hp e he).1.1 env' x hx
      obtain ⟨h6, h7⟩ := (hp e he).2.1 env' y hy
      rw [h4] at hx
      rw [h6] at hy
      exact ⟨⟨hx, h5⟩, hy, h7⟩
    have := key env' fun e he => ⟨(h3 e he).1.1, (h3 e he).2.1⟩
    rw [this] at hw
    cases hw
    exact ⟨rfl, fun e he => ⟨(h3 e he).1.2, (h3 e he).2.2⟩⟩
  · exact key env' fun e he => ⟨(hp e he).1.2 env' hd (hf e he).1, (hp e he).2.2 env' hd (hf e he).2⟩⟩

theorem passing_multiple (d : Nat) (m : Multiple Symbol) : Passing d m := by
  refine ⟨fun env w hw => ?_, fun env _ hf => ?_⟩
  · simp only [fate] at hw
    split at hw
    · cases hw
    · rename_i h
      cases hw
      exact ⟨rfl, fun h1 h2 h3 => h ⟨h1, h2, h3⟩⟩
  · exact if_neg fun h => hf h.1 h.2.1 h.2.2
instance : Passes (Multiple Symbol) := ⟨fun _ _ _ v _ => passing_multiple _ v⟩

instance : Passes ErrorCondition := ⟨fun env i r v h => by
  rw [decode_errorCondition] at h
  obtain ⟨s, -, rfl⟩ := map_eq_ok.1 h
  refine .same (fun env => Settled.settled env (.Custom s) _ ?_) (fun _ => trivial)
  exact congrArg Fate.arrives (condition_found (.Custom s))⟩

instance : Passes DistributionMode := ⟨fun env i r v h => by
  rw [decode_distributionMode] at h
  obtain ⟨s, -, rfl⟩ := map_eq_ok.1 h
  refine .same (fun env => Settled.settled env (.Custom s) _ ?_) (fun _ => trivial)
  exact congrArg Fate.arrives (mode_found (.Custom s))⟩

theorem passing_none {α : Type} [HasFate α] [Forwardable α] (d : Nat) :
    Passing d (none : Option α) := .same (fun _ => rfl) (fun _ _ h => by cases h)

theorem passing_some {α : Type} [HasFate α] [Forwardable α] {d : Nat} {v : α} (h : Passing d v) :
    Passing d (some v) := by
  refine ⟨fun env w hw => ?_, fun env hd hf => ?_⟩
  · obtain ⟨a, h1, h2⟩ := bind_arrives (s := fate env v) (f := fun a => pure (some a)) hw
    cases h2
    obtain ⟨rfl, h3⟩ := h.1 env a h1
    exact ⟨rfl, fun b hb => by cases hb; exact h3⟩
  · show (fate env v >>= fun a => pure (some a)) = _
    rw [h.2 env hd (hf v rfl)]
    rfl

instance {α : Type} [DecodeF α] [HasFate α] [Forwardable α] [Passes α] : Passes (Option α) :=
  ⟨fun env i r v h => by
    cases v with
    | none => exact passing_none _
    | some a =>
      obtain ⟨c, t, rfl, h1⟩ := decode_ok h
      simp only [decF] at h1
      split at h1
      · cases h1
      · obtain ⟨b, h2, e⟩ := map_eq_ok.1 h1
        cases e
        exact passing_some (Passes.passes env (c :: t) r a (by rw [decode_cons]; exact h2))⟩

section
variable {α : Type} [Encode α] [DecodeF α] [LawfulEnc α] [LawfulDec α] [NonNull α]
  [HasFate α] [Forwardable α] [Passes α]

theorem passing_req {env : Env} {v : α} {name : String}
    (h : (∃ i r, (Field.req α name).dec env i = .ok (r, v)) ∨ (Field.req α name).missing = .ok v) :
    Passing env.stackDepth v := by
  rcases h with ⟨i, r, h⟩ | h
  · exact Passes.passes env i r v h
  · have h' : (.err (.requiredFieldOmitted name) : Res ParseError α) = .ok v := h
    cases h'

theorem passing_opt {env : Env} {o : Option α}
    (h : (∃ i r, (Field.opt α).dec env i = .ok (r, o)) ∨ (Field.opt α).missing = .ok o) :
    Passing env.stackDepth o := by
  rcases h with ⟨i, r, h⟩ | h
  · exact Passes.passes env i r o h
  · have h' : (.ok none : Res ParseError (Option α)) = .ok o := h
    cases h'
    exact passing_none _
end

/-- The part of a list decoder after the descriptor yields values that arrive unaltered or not
at all. -/
def PassesInner (α : Type) [Encode α] [DecodeF α] [ListType α] [HasFate α] [Forwardable α] : Prop :=
  ∀ (env : Env) (i r : Bytes) (v : α), ListType.inner env i = .ok (r, v) → Passing env.stackDepth v

theorem passes_list {α : Type} [Encode α] [DecodeF α] [ListType α] [HasFate α] [Forwardable α]
    (h : PassesInner α) : Passes α := ⟨by
  intro env i r v hd
  obtain ⟨c, t, rfl, h1⟩ := decode_ok hd
  rw [ListType.decF_eq, describedAs_eq] at h1
  obtain ⟨_, h1⟩ := validateCode_ok h1
  obtain ⟨_, d, _, h1⟩ := bind_eq_ok.1 h1
  split at h1
  · cases h1
  · exact h env _ _ v h1⟩

theorem bind_same {α β : Type} {s : Fate α} {a : α} (h : s = .arrives a) (f : α → Fate β) :
    s >>= f = f a := by rw [h]; rfl

theorem passing_member {α U : Type} [HasFate α] [Forwardable α] {d : Nat} {v : α} (mk : α → U)
    (h : Passing d v) :
    (∀ env w, (fate env v >>= fun a => pure (mk a)) = .arrives w → w = mk v ∧ fwd env v) ∧
    (∀ env : Env, d ≤ env.stackDepth → fwd env v →
      (fate env v >>= fun a => pure (mk a)) = .arrives (mk v)) := by
  refine ⟨fun env w hw => ?_, fun env hd hf => bind_same (h.2 env hd hf) _⟩
  obtain ⟨a, h1, h2⟩ := bind_arrives hw
  obtain ⟨rfl, h3⟩ := h.1 env a h1
  cases h2
  exact ⟨rfl, h3⟩

end Amqp
