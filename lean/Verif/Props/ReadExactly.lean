import Verif.Proofs.ReadExact
import Verif.Props.Wire
/-!
# C50: exactly which legal encodings are read

`Props/Wire.lean` shows that the legal encodings within `Dialect.accepted` are read.  Here
they are shown to be all: any other legal encoding (with a descriptor in the one-byte
form of 0, a timestamp excluded by C12, a key that contains a map, or nested deeper than
the stack allows, anywhere within it) is not read as the value it encodes.
-/
set_option autoImplicit false
namespace Amqp
open Dec

/-- **C50**, decoding: of the legal encodings of a value those are read as it, whatever
follows them, that are accepted and not nested too deep, and no others. -/
theorem C50_decode_exactly_partial (env : Env) (v : Variant) (b rest : Bytes) (h : Wire .amqp v b) :
    decode Variant env (b ++ rest) = .ok (rest, v) ↔
      Wire .accepted v b ∧ v.depth ≤ env.stackDepth := by
  constructor
  · intro hd
    obtain ⟨u, e, hu⟩ := (accepts_variant (env := env) _ _ _).1 hd
    obtain ⟨-, h1, h2⟩ := readOnly_wire env h env.stackDepth u rest rest hu e
    exact ⟨h1, h2⟩
  · exact fun ⟨h1, h2⟩ => C50_decode_partial env v b h1 h2 rest

/-- The descriptor 0 in one byte, before a null: legal, and not read, so not accepted. -/
example : ¬ (Wire .accepted (.described (.ulong 0) .null) (0x00 :: ([0x44] ++ [0x40])) ∧
    (Variant.described (.ulong 0) .null).depth ≤ debugEnv.stackDepth) := fun h => by
  have hd := (C50_decode_exactly_partial debugEnv _ _ [7]
    (.described (d := .ulong 0) (db := [0x44]) (b := [0x40]) Prim.ulong0 (.prim .null))).2 h
  have hf : (match decode Variant debugEnv (0x00 :: ([0x44] ++ [0x40]) ++ [7]) with
    | .ok _ => false | _ => true) = true := by decide +kernel
  rw [hd] at hf
  cases hf
/-- The same in nine bytes is read. -/
example : decode Variant debugEnv ([0x00, 0x80, 0, 0, 0, 0, 0, 0, 0, 0, 0x40] ++ [7]) =
    .ok ([7], .described (.ulong 0) .null) :=
  (C50_decode_exactly_partial debugEnv _ _ _
    (.described (d := .ulong 0) (db := [0x80, 0, 0, 0, 0, 0, 0, 0, 0]) (b := [0x40])
      (Prim.ulong (b := [0, 0, 0, 0, 0, 0, 0, 0]) ⟨rfl, by decide⟩) (.prim .null))).2
    ⟨.described (D := .accepted) (d := .ulong 0) (db := [0x80, 0, 0, 0, 0, 0, 0, 0, 0]) (b := [0x40])
      ⟨Prim.ulong (b := [0, 0, 0, 0, 0, 0, 0, 0]) ⟨rfl, by decide⟩, by decide⟩ (.prim .null), by decide⟩

end Amqp
