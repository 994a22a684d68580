import Verif.Proofs.SteadyFrames
import Verif.Proofs.SteadyTwin
import Verif.Props.Oversize
import Verif.Props.Laws
/-!
# C92: equal values are written alike
-/
set_option autoImplicit false
namespace Amqp

theorem alike_of_steady {α : Type} [REq α] [Holdable α] [Steadiness α] [SteadyREq α] [Encode α]
    [EncodeW α] : EqualWrittenAlike α steady := by
  intro a b ha hb hs _ h
  rw [SteadyREq.same a b ha hb hs h]
  exact ⟨rfl, rfl, rfl⟩

/-- **C92** as one would like to have it: equal frames, messages and values are
written alike. -/
def C92_statement : Prop :=
  EqualWrittenAlike AmqpFrame (fun _ => True) ∧ EqualWrittenAlike SaslFrame (fun _ => True) ∧
  EqualWrittenAlike InMessage (fun _ => True) ∧ EqualWrittenAlike OutMessage (fun _ => True) ∧
  EqualWrittenAlike Variant (fun _ => True)

/-- **C92** for frames, messages and values without zeros and NaNs in floating
point and without maps of several entries.  Missing for the full statement: those
with such parts; see `C92_violated` and `C92_variant_iff`. -/
theorem C92_steady_partial : EqualWrittenAlike AmqpFrame steady ∧ EqualWrittenAlike SaslFrame steady ∧
    EqualWrittenAlike InMessage steady ∧ EqualWrittenAlike OutMessage steady ∧
    EqualWrittenAlike TransferBody steady ∧ EqualWrittenAlike Section steady ∧
    EqualWrittenAlike Variant steady :=
  ⟨alike_of_steady, alike_of_steady, alike_of_steady, alike_of_steady, alike_of_steady,
    alike_of_steady, alike_of_steady⟩

/-- **C92** holds of the frames of the SASL handshake: no part of them is a map or
a floating point number. -/
theorem C92_sasl : EqualWrittenAlike SaslFrame (fun _ => True) := by
  have all : ∀ f : SaslFrame, steady f := by
    intro f
    show steady f.body
    cases f.body with
    | SaslMechanisms v => exact fun _ _ => trivial
    | SaslInit v => exact ⟨trivial, fun _ _ => trivial, fun _ _ => trivial⟩
    | SaslChallenge v => exact True.intro
    | SaslResponse v => exact True.intro
    | SaslOutcome v => exact ⟨trivial, fun _ _ => trivial⟩
  exact fun a b ha hb _ _ h => alike_of_steady a b ha hb (all a) (all b) h

/-- **C92**, exactly: among the variants that survive encoding, all equals of a
variant are written like it iff it is steady. -/
theorem C92_variant_iff (env : Env) (a : Variant) (ha : RoundTrips env a) :
    (∀ b : Variant, RoundTrips env b → a.veq b = true → WrittenAlike a b) ↔ a.Steady := by
  obtain ⟨h1, h2, h3⟩ := (C55_variant_iff env a).1 ha
  constructor
  · intro h
    by_cases hn : a.Steady
    · exact hn
    · obtain ⟨b, t⟩ := twin_exists a h1 hn
      have hb : RoundTrips env b :=
        (C55_variant_iff env b).2 ⟨t.survives, by rw [t.depth]; exact h2, t.within env h3⟩
      have e := (h b hb t.equal).2.1
      exact absurd (C07_unambiguous env a b [] [] ha hb (by rw [e])).1 t.other
  · intro hs b hb h
    exact alike_of_steady a b (Variant.Survives.valid a h1)
      (Variant.Survives.valid b ((C55_variant_iff env b).1 hb).1) hs
      (by rw [← veq_steady a b (Variant.Survives.valid a h1)
        (Variant.Survives.valid b ((C55_variant_iff env b).1 hb).1) hs h]; exact hs) h

/-- **C92 violated**: zeros of either sign are equal, and so are all NaNs. -/
theorem C92_violated_float :
    (Variant.float ⟨0⟩).veq (.float ⟨0x80000000⟩) = true ∧
      enc (Variant.float ⟨0⟩) ≠ enc (Variant.float ⟨0x80000000⟩) ∧
    (Variant.double ⟨0x7ff8000000000000⟩).veq (.double ⟨0xfff8000000000001⟩) = true ∧
      enc (Variant.double ⟨0x7ff8000000000000⟩) ≠ enc (Variant.double ⟨0xfff8000000000001⟩) := by
  decide +kernel

/-- An open frame with two properties. -/
def openWith (p : List (Symbol × Variant)) : AmqpFrame := ⟨0, .Open {
  container_id := .lit "me", hostname := none, max_frame_size := 512, channel_max := 1,
  idle_time_out := none, outgoing_locales := none, incoming_locales := none,
  offered_capabilities := none, desired_capabilities := none, properties := some ⟨p⟩ }⟩

/-- **C92 violated**: equal frames whose bytes differ; a program that puts the same
two properties into two maps may get either order. -/
theorem C92_violated_order :
    let a := openWith [(⟨.lit "product"⟩, .uint 1), (⟨.lit "version"⟩, .uint 2)]
    let b := openWith [(⟨.lit "version"⟩, .uint 2), (⟨.lit "product"⟩, .uint 1)]
    req a b = true ∧ enc a ≠ enc b := by
  decide +kernel

/-- **C92** is false of the code. -/
theorem C92_violated : ¬ C92_statement := by
  intro h
  have k := C92_violated_order
  refine k.2 (h.1 _ _ ?_ ?_ trivial trivial k.1).2.1 <;>
  · refine ⟨trivial, fun _ _ => trivial, trivial, trivial, fun _ _ => trivial,
      fun _ _ => (fun _ _ => trivial), fun _ _ => (fun _ _ => trivial), fun _ _ => (fun _ _ => trivial),
      fun _ _ => (fun _ _ => trivial), fun m e => ?_⟩
    cases e
    refine ⟨fun e he => ?_, by unfold NodupKeys; decide +kernel⟩
    simp only [List.mem_cons, List.not_mem_nil, or_false] at he
    rcases he with rfl | rfl <;> exact ⟨rfl, trivial⟩

/-- A steady frame, and a variant of several levels to which `C92_variant_iff` applies. -/
example : steady (openWith [(⟨.lit "product"⟩, .double ⟨0x3ff0000000000000⟩)]) := by
  refine ⟨trivial, fun _ _ => trivial, trivial, trivial, fun _ _ => trivial,
      fun _ _ => (fun _ _ => trivial), fun _ _ => (fun _ _ => trivial), fun _ _ => (fun _ _ => trivial),
      fun _ _ => (fun _ _ => trivial), fun m e => ?_⟩
  cases e
  refine ⟨Nat.le_refl _, fun e he => ?_⟩
  simp only [List.mem_singleton] at he
  rw [he]
  exact ⟨trivial, by show F64.Steady _; unfold F64.Steady; decide⟩
example : RoundTrips debugEnv (Variant.map [(.float ⟨0⟩, .null), (.uint 1, .float ⟨1⟩)]) ∧
    ¬ (Variant.map [(.float ⟨0⟩, .null), (.uint 1, .float ⟨1⟩)]).Steady := by
  refine ⟨(C55_variant_iff _ _).2 ⟨?_, by decide, ?_⟩, fun h => by simp [Variant.Steady] at h⟩
  · simp only [Variant.Survives, survivesMap]
    exact ⟨by simp [Variant.Survives], by decide, by unfold NodupKeys; decide⟩
  · simp only [Variant.Within, withinMap]
    exact ⟨by unfold CompoundRoom; decide +kernel, by simp [Variant.Within]⟩

end Amqp
