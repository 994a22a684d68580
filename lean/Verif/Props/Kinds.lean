import Verif.Proofs.VariantDecode
import Verif.Proofs.VariantExact
import Verif.Props.Text
import Verif.Spec.Kinds
/-!
# C60: types and text of values on both sides of the wire
-/
set_option autoImplicit false
namespace Amqp
open Dec

theorem kind_map {α : Type} {d : Dec α} (f : α → Variant) {k : Kind} (h : ∀ a, (f a).kind = k) :
    Post (f <$> d) fun _ _ v => some v.kind = some k := by
  intro i r v hv
  obtain ⟨a, -, rfl⟩ := map_eq_ok.1 hv
  rw [h]

theorem kind_pure (v : Variant) : Post (pure v : Dec Variant) fun _ _ w => some w.kind = some v.kind := by
  intro i r w h
  injection h with h; injection h with h1 h2
  subst h2
  rfl

theorem Dec.Post.eqIte {α : Type} {x c : UInt8} {d e : Dec α}
    {P : UInt8 → Bytes → Bytes → α → Prop} (hd : Post d (P c)) (he : Post e (P x)) :
    Post (if x = c then d else e) (P x) := by
  split
  · rename_i h; subst h; exact hd
  · exact he

theorem kind_variant (env : Env) : ∀ d fmt,
    Post (decVariant env d fmt) fun _ _ v => some v.kind = kindOfCode fmt
  | 0, _ => fun _ _ _ h => by cases h
  | d + 1, fmt => by
    unfold decVariant
    simp only
    repeat' apply Dec.Post.eqIte (P := fun c _ _ v => some (Variant.kind v) = kindOfCode c)
    all_goals first
      | exact Dec.Post.fail _
      | exact kind_pure _
      | exact kind_map _ fun _ => rfl
      | skip
    intro i r v h
    obtain ⟨r1, a, -, h⟩ := bind_eq_ok.1 h
    obtain ⟨r2, b, -, h⟩ := bind_eq_ok.1 h
    injection h with h; injection h with h1 h2
    subst h2
    rfl

/-- **C60**: a decoded value has the type its format code stands for. -/
theorem C60_code (env : Env) (c : UInt8) (input rest : Bytes) (v : Variant)
    (h : decode Variant env (c :: input) = .ok (rest, v)) : kindOfCode c = some v.kind := by
  obtain ⟨r1, f, h1, h⟩ := bind_eq_ok.1 h
  cases readU8_ok h1
  exact (kind_variant env _ _ _ _ _ h).symm

theorem enc_kind (v : Variant) : ∃ c t, enc v = c :: t ∧
    (kindOfCode c = some v.kind ∨ v.kind = .list ∧ kindOfCode c = none) := by
  have var : ∀ (c8 c32 : UInt8) (b : Bytes), ∃ c t, varEnc c8 c32 b = c :: t ∧ (c = c8 ∨ c = c32) := by
    intro c8 c32 b
    unfold varEnc
    split
    · exact ⟨_, _, rfl, .inr rfl⟩
    · exact ⟨_, _, rfl, .inl rfl⟩
  show ∃ c t, v.venc = c :: t ∧ _
  cases v with
  | null => exact ⟨_, _, rfl, .inl rfl⟩
  | boolean b => cases b <;> exact ⟨_, _, rfl, .inl rfl⟩
  | ubyte n => exact ⟨_, _, rfl, .inl rfl⟩
  | ushort n => exact ⟨_, _, rfl, .inl rfl⟩
  | uint n =>
    simp only [Variant.venc, enc]
    split
    · exact ⟨_, _, rfl, .inl rfl⟩
    · split <;> exact ⟨_, _, rfl, .inl rfl⟩
  | ulong n =>
    simp only [Variant.venc, enc]
    split
    · exact ⟨_, _, rfl, .inl rfl⟩
    · split <;> exact ⟨_, _, rfl, .inl rfl⟩
  | byte n => exact ⟨_, _, rfl, .inl rfl⟩
  | short n => exact ⟨_, _, rfl, .inl rfl⟩
  | int n =>
    simp only [Variant.venc, enc]
    split <;> exact ⟨_, _, rfl, .inl rfl⟩
  | long n =>
    simp only [Variant.venc, enc]
    split <;> exact ⟨_, _, rfl, .inl rfl⟩
  | float x => exact ⟨_, _, rfl, .inl rfl⟩
  | double x => exact ⟨_, _, rfl, .inl rfl⟩
  | char c => exact ⟨_, _, rfl, .inl rfl⟩
  | timestamp x => exact ⟨_, _, rfl, .inl rfl⟩
  | uuid u => exact ⟨_, _, rfl, .inl rfl⟩
  | binary b =>
    obtain ⟨c, t, e, h | h⟩ := var FC.binary8 FC.binary32 b.data <;>
      exact ⟨c, t, e, .inl (by rw [h]; rfl)⟩
  | string s =>
    obtain ⟨c, t, e, h | h⟩ := var FC.string8 FC.string32 s.bytes <;>
      exact ⟨c, t, e, .inl (by rw [h]; rfl)⟩
  | symbol s =>
    obtain ⟨c, t, e, h | h⟩ := var FC.symbol8 FC.symbol32 s.str.bytes <;>
      exact ⟨c, t, e, .inl (by rw [h]; rfl)⟩
  | staticSymbol s =>
    obtain ⟨c, t, e, h | h⟩ := var FC.symbol8 FC.symbol32 s.bytes <;>
      exact ⟨c, t, e, .inl (by rw [h]; rfl)⟩
  | list l =>
    obtain ⟨c, t, e, h | h⟩ := compoundHdr_head FC.array8 FC.array32 (vsizeList l) l.length (vencList l) <;>
      exact ⟨c, t, e, .inr ⟨rfl, by rw [h]; rfl⟩⟩
  | map m =>
    obtain ⟨c, t, e, h | h⟩ := compoundHdr_head FC.map8 FC.map32 (vsizeMap m) (m.length * 2) (vencMap m) <;>
      exact ⟨c, t, e, .inl (by rw [h]; rfl)⟩
  | described d v =>
    exact ⟨FC.described, d.body ++ v.venc, by rw [Variant.venc, Descriptor.enc_eq]; rfl, .inl rfl⟩

/-- **C60**: whatever a value's encoding decodes to has the type of the value, even
where it is not the same value (timestamps, oversized values). -/
theorem C60_kind (env : Env) (v w : Variant) (rest rest' : Bytes)
    (h : decode Variant env (enc v ++ rest) = .ok (rest', w)) : w.kind = v.kind := by
  obtain ⟨c, t, e, hk⟩ := enc_kind v
  rw [e, List.cons_append] at h
  have := C60_code env c _ _ _ h
  rcases hk with hk | ⟨-, hk⟩
  · rw [hk] at this; exact (Option.some.inj this).symm
  · rw [hk] at this; cases this

theorem asStr_kind {v : Variant} (h : v.kind ≠ .string) (h' : v.kind ≠ .symbol) : v.asStr = none := by
  cases v <;> first | rfl | exact absurd rfl h | exact absurd rfl h'

/-- What C60 should say: the receiver sees the text the sender sees. -/
def C60_statement : Prop := ∀ (env : Env) (v w : Variant) (rest rest' : Bytes),
  (enc v).length < 2 ^ 32 → decode Variant env (enc v ++ rest) = .ok (rest', w) →
  w.asStr = v.asStr ∧ ∀ s, w.eqStr s = v.eqStr s

/-- **C60**, the part that holds: it does unless the value is a `StaticSymbol`. -/
theorem C60_text_partial (env : Env) (v w : Variant) (rest rest' : Bytes)
    (hl : (enc v).length < 2 ^ 32) (hs : ∀ s, v ≠ .staticSymbol s)
    (h : decode Variant env (enc v ++ rest) = .ok (rest', w)) :
    w.asStr = v.asStr ∧ ∀ s, w.eqStr s = v.eqStr s := by
  have key : w.asStr = v.asStr := by
    have hk := C60_kind env v w rest rest' h
    have leaf : ∀ (u : Variant), u.Good → u.depth = 1 → v = u → w = u := by
      intro u hg hd e
      subst e
      have hpos : 1 ≤ env.stackDepth := by
        rcases Nat.eq_zero_or_pos env.stackDepth with h0 | h0
        · exfalso
          rw [decode_variant, h0] at h
          exact decVar_zero h
        · exact h0
      have := reads_variant env v hg env.stackDepth (by omega) rest
      rw [decode_variant] at h
      rw [show enc v = v.venc from rfl, this] at h
      cases h
      rfl
    have len : ∀ (c8 c32 : UInt8) (b : Bytes), b.length ≤ (varEnc c8 c32 b).length := by
      intro c8 c32 b
      rw [varEnc_length]
      exact varSize_ge _
    cases v with
    | string s => rw [leaf (.string s) (Nat.lt_of_le_of_lt (len _ _ _) hl) rfl rfl]
    | symbol s => rw [leaf (.symbol s) (Nat.lt_of_le_of_lt (len _ _ _) hl) rfl rfl]
    | staticSymbol s => exact absurd rfl (hs s)
    | _ => rw [asStr_kind (by rw [hk]; nofun) (by rw [hk]; nofun)]; rfl
  refine ⟨key, fun s => ?_⟩
  have h1 := C42_variant w s
  have h2 := C42_variant v s
  rw [key, ← h2] at h1
  exact Bool.eq_iff_iff.2 h1

/-- **C60** is violated by every short `StaticSymbol`: the sender gets no text from
`as_str` and the value differs from its own text, the receiver gets the text. -/
theorem C60_violated_static_symbol (env : Env) (s : RStr) (hl : s.bytes.length < 2 ^ 32)
    (hd : 1 ≤ env.stackDepth) (rest : Bytes) :
    ∃ w, decode Variant env (enc (Variant.staticSymbol s) ++ rest) = .ok (rest, w) ∧
      w.asStr = some s ∧ w.eqStr s = true ∧
      (Variant.staticSymbol s).asStr = none ∧ (Variant.staticSymbol s).eqStr s = false := by
  refine ⟨.symbol ⟨s⟩, ?_, rfl, (C42_variant _ _).2 rfl, rfl, rfl⟩
  exact reads_variant env (.symbol ⟨s⟩) hl env.stackDepth hd rest

theorem C60_violated : ¬ C60_statement := by
  intro h
  obtain ⟨w, h1, h2, -⟩ := C60_violated_static_symbol debugEnv (.lit "x") (by decide) (by decide) []
  have := (h debugEnv _ _ _ _ (by decide) h1).1
  rw [h2] at this
  cases this

example : kindOfCode 0x43 = some .uint :=
  C60_code debugEnv 0x43 [7] [7] (.uint 0) rfl
example : (Variant.symbol ⟨.lit "x"⟩).asStr = (Variant.symbol ⟨.lit "x"⟩).asStr :=
  (C60_text_partial debugEnv (.symbol ⟨.lit "x"⟩) (.symbol ⟨.lit "x"⟩) [] [] (by decide) nofun rfl).1

example : (Variant.symbol ⟨.lit "x"⟩).kind = (Variant.staticSymbol (.lit "x")).kind :=
  C60_kind debugEnv (.staticSymbol (.lit "x")) (.symbol ⟨.lit "x"⟩) [7] [7] rfl
example : ∃ w, decode Variant debugEnv (enc (Variant.staticSymbol (.lit "x")) ++ [7]) = .ok ([7], w) ∧
    w.asStr = some (.lit "x") ∧ (Variant.staticSymbol (.lit "x")).asStr = none :=
  have ⟨w, h1, h2, _, h3, _⟩ := C60_violated_static_symbol debugEnv (.lit "x") (by decide) (by decide) [7]
  ⟨w, h1, h2, h3⟩

end Amqp
