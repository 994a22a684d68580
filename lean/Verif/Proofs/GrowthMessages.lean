import Verif.Proofs.GrowthLists
import Verif.Props.Forwarding
/-!
# How much longer sections and messages get when they are sent on
-/
set_option autoImplicit false
namespace Amqp
open Dec

/-- What fields that were left out add to a section. -/
def Section.filled : Section → Nat
  | .Header _ => 2
  | .Properties _ => 9
  | _ => 0

theorem restricted_grows {α : Type} [Encode α] [DecodeF α] [Grows α] (h0 : Grows.extra α = 0)
    {env : Env} {i r : Bytes} {v : α} (h : decode α env i = .ok (r, v)) :
    3 + (enc v).length + 4 * r.length ≤ 4 * i.length + 12 := by
  have := Grows.growsTo α env i r v h
  omega

theorem Section.dispatch_grows (env : Env) (d : Descriptor) : Post (Section.dispatch env d)
    fun i r v => (enc v).length + 4 * r.length ≤ 4 * i.length + (v.filled + 12) := by
  unfold Section.dispatch
  repeat' apply Post.ite
  all_goals first
    | exact Post.fail _
    | (intro i r v h
       obtain ⟨x, h1, rfl⟩ := map_eq_ok.1 h
       exact inner_grows (v := x) h1)
    | (intro i r v h
       obtain ⟨x, h1, rfl⟩ := map_eq_ok.1 h
       have := restricted_grows (v := x) rfl h1
       refine Nat.le_trans (Nat.add_le_add_right (Nat.le_of_eq ?_) _) (Nat.le_trans this (by simp [Section.filled]))
       exact (restricted_size _ (by decide) x).symm.trans (by rw [LawfulEnc.size_eq]))

theorem Section.grows {env : Env} {i r : Bytes} {s : Section} (h : decode Section env i = .ok (r, s)) :
    (enc s).length + 4 * r.length ≤ 4 * i.length + s.filled := by
  obtain ⟨c, t, rfl, h1⟩ := decode_ok h
  obtain ⟨_, h1⟩ := validateCode_ok h1
  obtain ⟨r1, d, h2, h3⟩ := bind_eq_ok.1 h1
  have g1 := descriptor_takes_two h2
  have g2 := Section.dispatch_grows env d _ _ _ h3
  dsimp only at g2
  simp only [List.length_cons]
  omega

/-! ## Messages -/

theorem total_last {α : Type} (w : Section → Nat) (g : α → Section) (l : List α) :
    total w (l.getLast?.toList.map g) ≤ total (fun a => w (g a)) l := by
  induction l with
  | nil => simp [total]
  | cons a t ih =>
    cases t with
    | nil => simp [total]
    | cons b t =>
      rw [List.getLast?_cons_cons]
      refine Nat.le_trans ih ?_
      simp only [total, List.map_cons, List.sum_cons]
      omega

theorem total_map {α β : Type} (w : β → Nat) (g : α → β) (l : List α) :
    total w (l.map g) = total (fun a => w (g a)) l := by
  simp only [total, List.map_map, Function.comp_def]

theorem total_append {α : Type} (w : α → Nat) (l l' : List α) :
    total w (l ++ l') = total w l + total w l' := by
  simp [total]

/-- Sections sorted by kind. -/
theorem total_kinds (w : Section → Nat) (secs : List Section) : total w secs =
    total (fun v => w (.Header v)) (secs.filterMap fun | .Header v => some v | _ => none) +
    total (fun v => w (.DeliveryAnnotations v)) (secs.filterMap fun | .DeliveryAnnotations v => some v | _ => none) +
    total (fun v => w (.MessageAnnotations v)) (secs.filterMap fun | .MessageAnnotations v => some v | _ => none) +
    total (fun v => w (.Properties v)) (secs.filterMap fun | .Properties v => some v | _ => none) +
    total (fun v => w (.ApplicationProperties v)) (secs.filterMap fun | .ApplicationProperties v => some v | _ => none) +
    total (fun v => w (.Footer v)) (secs.filterMap fun | .Footer v => some v | _ => none) +
    total (fun v => w (.Data v)) (secs.filterMap fun | .Data v => some v | _ => none) +
    total (fun v => w (.AmqpSequence v)) (secs.filterMap fun | .AmqpSequence v => some v | _ => none) +
    total (fun v => w (.AmqpValue v)) (secs.filterMap fun | .AmqpValue v => some v | _ => none) := by
  induction secs with
  | nil => rfl
  | cons s t ih =>
    have e : total w (s :: t) = w s + total w t := by simp [total]
    rw [e, ih]
    have e2 : ∀ {α : Type} (u : α → Nat) (a : α) (l : List α), total u (a :: l) = u a + total u l := by
      intro α u a l; simp [total]
    cases s <;> simp only [List.filterMap_cons, e2] <;> omega

/-- What is written of a message made of sections. -/
theorem total_sections (w : Section → Nat) (secs : List Section) :
    total w (Message.ofSections id secs : InMessage).sections ≤ total w secs + w (.Data ⟨[]⟩) := by
  have hk := total_kinds w secs
  generalize e0 : (secs.filterMap fun | .Header v => some v | _ => none) = l0 at hk
  generalize e1 : (secs.filterMap fun | .DeliveryAnnotations v => some v | _ => none) = l1 at hk
  generalize e2 : (secs.filterMap fun | .MessageAnnotations v => some v | _ => none) = l2 at hk
  generalize e3 : (secs.filterMap fun | .Properties v => some v | _ => none) = l3 at hk
  generalize e4 : (secs.filterMap fun | .ApplicationProperties v => some v | _ => none) = l4 at hk
  generalize e5 : (secs.filterMap fun | .Footer v => some v | _ => none) = l5 at hk
  generalize e6 : (secs.filterMap fun | .AmqpValue v => some v | _ => none) = l6 at hk
  generalize e7 : (secs.filterMap fun | .Data v => some v | _ => none) = l7 at hk
  generalize e8 : (secs.filterMap fun | .AmqpSequence v => some v | _ => none) = l8 at hk
  have f0 : (Message.ofSections id secs : InMessage).header = l0.getLast? := by
    rw [← e0]; rfl
  have h0 := total_last w .Header l0
  have f1 : (Message.ofSections id secs : InMessage).delivery_annotations = l1.getLast? := by
    rw [← e1]; rfl
  have h1 := total_last w .DeliveryAnnotations l1
  have f2 : (Message.ofSections id secs : InMessage).message_annotations = l2.getLast? := by
    rw [← e2]; rfl
  have h2 := total_last w .MessageAnnotations l2
  have f3 : (Message.ofSections id secs : InMessage).properties = l3.getLast? := by
    rw [← e3]; rfl
  have h3 := total_last w .Properties l3
  have f4 : (Message.ofSections id secs : InMessage).application_properties = l4.getLast? := by
    rw [← e4]; simp only [Message.ofSections, Option.map_id, id]; rfl
  have h4 := total_last w .ApplicationProperties l4
  have f5 : (Message.ofSections id secs : InMessage).footer = l5.getLast? := by
    rw [← e5]; rfl
  have h5 := total_last w .Footer l5
  have f6 : (Message.ofSections id secs : InMessage).value = l6.getLast? := by
    rw [← e6]; rfl
  have h6 := total_last w .AmqpValue l6
  have f7 : (Message.ofSections id secs : InMessage).data = l7 := by
    rw [← e7]; rfl
  have f8 : (Message.ofSections id secs : InMessage).sequence = l8 := by
    rw [← e8]; rfl
  have fm : (Message.ofSections id secs : InMessage).messages = [] := rfl
  generalize (Message.ofSections id secs : InMessage) = M at *
  have hb : total w M.bodySections ≤ total (fun v => w (.Data v)) l7 +
      total (fun v => w (.AmqpSequence v)) l8 + total (fun v => w (.AmqpValue v)) l6 +
      w (.Data ⟨[]⟩) := by
    unfold Message.bodySections
    split
    · simp [total]
    · rw [fm, f6, f7, f8]
      simp only [total_append, total_map _ Section.Data, total_map _ Section.AmqpSequence, List.map_nil]
      have e : total w ([] : List Section) = 0 := rfl
      rw [e]
      omega
  simp only [Message.sections, MsgHead.preSections, total_append]
  rw [f0, f1, f2, f3, f4, f5, hk]
  have e : (l4.getLast?.toList.map fun a => Section.ApplicationProperties (AppProps.toMap a)) =
    l4.getLast?.toList.map Section.ApplicationProperties := rfl
  rw [e]
  omega

theorem total_flatMap {α : Type} (f : α → Bytes) (l : List α) :
    (l.flatMap f).length = total (fun a => (f a).length) l := by
  simp [total, List.length_flatMap]

theorem total_le {α : Type} {u w : α → Nat} {l : List α} (h : ∀ a ∈ l, u a ≤ w a) :
    total u l ≤ total w l := by
  induction l with
  | nil => exact Nat.le_refl _
  | cons a t ih =>
    have h1 := h a (by simp)
    have h2 := ih fun x hx => h x (by simp [hx])
    simp only [total, List.map_cons, List.sum_cons] at h2 ⊢
    omega

theorem total_add {α : Type} (u w : α → Nat) (l : List α) :
    total (fun a => u a + w a) l = total u l + total w l := by
  induction l with
  | nil => rfl
  | cons a t ih =>
    simp only [total, List.map_cons, List.sum_cons] at ih ⊢
    omega

theorem filled_zero {α : Type} (g : α → Section) (hg : ∀ a, (g a).filled = 0) (l : List α) :
    total Section.filled (l.map g) = 0 := by
  induction l with
  | nil => rfl
  | cons a t ih =>
    simp only [total, List.map_cons, List.sum_cons, hg] at ih ⊢
    omega

theorem filled_sections (m : InMessage) : total Section.filled m.sections ≤ 11 := by
  simp only [Message.sections, MsgHead.preSections, total_append]
  have hb : total Section.filled m.bodySections = 0 := by
    unfold Message.bodySections
    split
    · rfl
    · simp only [total_append]
      rw [filled_zero .Data fun _ => rfl, filled_zero .AmqpSequence fun _ => rfl,
        filled_zero .AmqpValue fun _ => rfl, filled_zero (fun b : TransferBody => .Data ⟨b.tenc⟩) fun _ => rfl]
  rw [hb, filled_zero .DeliveryAnnotations fun _ => rfl, filled_zero .MessageAnnotations fun _ => rfl,
    filled_zero .Footer fun _ => rfl,
    filled_zero (fun a => .ApplicationProperties (AppProps.toMap a)) fun _ => rfl]
  have h1 : total Section.filled (m.header.toList.map .Header) ≤ 2 := by
    cases m.header <;> simp [total, Section.filled]
  have h2 : total Section.filled (m.properties.toList.map .Properties) ≤ 9 := by
    cases m.properties <;> simp [total, Section.filled]
  omega

theorem InMessage.grows {env : Env} {input rest : Bytes} {m : InMessage}
    (h : InMessage.decode env input = .ok (rest, m)) :
    (enc m).length ≤ 4 * input.length + 16 := by
  obtain ⟨secs, -, hm, hi, rfl⟩ := C39_only env id input rest m h
  have e := Message.menc_eq (Message.ofSections id (secs.map Prod.snd) : InMessage)
    (fun b hb => (List.not_mem_nil hb).elim)
  rw [e, total_flatMap]
  have h1 : total (fun s : Section => (enc s).length)
      (Message.ofSections id (secs.map Prod.snd) : InMessage).sections ≤
      total (fun s => ((enc s).length - s.filled) + s.filled)
        (Message.ofSections id (secs.map Prod.snd) : InMessage).sections :=
    total_le fun a _ => by omega
  rw [total_add] at h1
  have h2 := filled_sections (Message.ofSections id (secs.map Prod.snd) : InMessage)
  have h3 := total_sections (fun s => (enc s).length - s.filled) (secs.map Prod.snd)
  have h4 : (enc (Section.Data ⟨[]⟩)).length - (Section.Data ⟨[]⟩).filled = 5 := rfl
  have h5 : total (fun s : Section => (enc s).length - s.filled) (secs.map Prod.snd) ≤
      total (fun p : Bytes × Section => 4 * p.1.length) secs := by
    rw [total_map]
    refine total_le fun p hp => ?_
    have := Section.grows (hm p hp [])
    rw [List.append_nil] at this
    simp only [List.length_nil] at this
    omega
  have h6 : total (fun p : Bytes × Section => 4 * p.1.length) secs = 4 * input.length := by
    rw [hi, total_flatMap]
    clear hm hi h e h1 h2 h3 h5
    induction secs with
    | nil => rfl
    | cons p t ih => simp only [total, List.map_cons, List.sum_cons] at ih ⊢; omega
  omega

end Amqp
