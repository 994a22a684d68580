import Verif.Proofs.OversizeLaws
import Verif.Props.Frames
import Verif.Props.Values
import Verif.Proofs.ResourceLaws
/-!
# C55: values too large for their length fields
-/
set_option autoImplicit false
namespace Amqp
open Dec

/-! ### What survives -/

/-- **C55**: the variants that round-trip are exactly those of C14 in which every
length fits its field. -/
theorem C55_variant_iff (env : Env) (v : Variant) :
    RoundTrips env v ↔ v.Survives ∧ v.depth ≤ env.stackDepth ∧ v.Within env := by
  constructor
  · intro h
    obtain ⟨h1, h2, h3, _⟩ := exactly env v env.stackDepth [] [] (h [])
    exact ⟨h1, h3, h2⟩
  · intro h
    exact reads_within env v h.1 h.2.2 _ h.2.1

/-- **C55**: a variant whose encoding is shorter than 4 GiB fits everywhere. -/
theorem C55_small_fits (env : Env) (v : Variant) (h : (enc v).length < 2 ^ 32)
    (hs : v.Survives) (hd : v.depth ≤ env.stackDepth) : v.Within env :=
  ((C55_variant_iff env v).1 ((C14_round_trip_iff env v h).2 ⟨hs, hd⟩)).2.2

/-- **C55**: so do binaries, strings and symbols on their own. -/
theorem C55_text_iff (env : Env) :
    (∀ b : Binary, RoundTrips env b ↔ b.data.length < 2 ^ 32) ∧
    (∀ s : Str, RoundTrips env s ↔ s.bytes.length < 2 ^ 32) ∧
    (∀ s : Symbol, RoundTrips env s ↔ s.str.bytes.length < 2 ^ 32) := by
  refine ⟨fun b => ⟨fun h => ?_, fun h => LawfulCodec.rt env b h⟩,
    fun b => ⟨fun h => ?_, fun h => LawfulCodec.rt env b h⟩,
    fun b => ⟨fun h => ?_, fun h => LawfulCodec.rt env b h⟩⟩
  · obtain ⟨c, t, _, h1⟩ := decode_ok (h []); exact binary_bound h1
  · obtain ⟨c, t, _, h1⟩ := decode_ok (h []); exact str_bound h1
  · obtain ⟨c, t, _, h1⟩ := decode_ok (h []); exact symbol_bound h1

/-- **C55**: whether a map of almost 4 GiB survives depends on how the program
was built: with overflow checks its decoder panics, without them two overflows
cancel each other. -/
theorem C55_overflow (env : Env) (b : Binary) (hb : b.data.length + 8 = 2 ^ 32)
    (hd : 2 ≤ env.stackDepth) :
    RoundTrips env (Variant.map [(.null, .binary b)]) ↔ env.overflowChecks = false := by
  have hlen : ([(Variant.null, Variant.binary b)].flatMap fun e => enc e.1 ++ enc e.2).length =
      b.data.length + 6 := by
    simp only [List.flatMap_cons, List.flatMap_nil, List.append_nil, List.length_append]
    rw [← LawfulEnc.size_eq, ← LawfulEnc.size_eq]
    show 1 + varSize b.data.length = _
    unfold varSize
    rw [if_pos (by omega)]; omega
  rw [C55_variant_iff]
  simp only [Variant.Survives, survivesMap, Variant.depth, depthMap, Variant.Within, withinMap,
    CompoundRoom, hlen, NodupKeys]
  constructor
  · rintro ⟨_, _, h | h, _⟩
    · omega
    · exact h.1
  · intro h
    exact ⟨⟨by simp, by simp [Variant.hashOk], by simp⟩, by simp; omega, .inr ⟨h, by omega⟩,
      ⟨trivial, by omega⟩, trivial⟩

example : ∃ b : Binary, b.data.length + 8 = 2 ^ 32 :=
  have key : ∀ n, ∃ b : Binary, b.data.length = n := fun n => ⟨⟨List.replicate n 0⟩, by simp⟩
  (key (2 ^ 32 - 8)).imp fun _ h => by omega
/-- A small map inside a described value fits. -/
example : (Variant.described (.symbol ⟨.lit "a"⟩) (.map [(.null, .binary ⟨[1, 2]⟩)])).Within
    debugEnv := by
  simp only [Variant.Within, withinMap, Descriptor.Within, CompoundRoom]
  exact ⟨by decide, .inl (by decide), ⟨trivial, by decide⟩, trivial⟩

/-! ### Nothing larger is ever decoded -/

theorem decodeN_count {α : Type} {d : Dec α} : ∀ {n : Nat} {i r : Bytes} {l : List α},
    decodeN d n i = .ok (r, l) → l.length = n
  | 0, i, r, l, h => by injection h with h; injection h with _ h; subst h; rfl
  | n + 1, i, r, l, h => by
    obtain ⟨r1, x, _, h2⟩ := bind_eq_ok.1 h
    obtain ⟨r2, xs, h3, h4⟩ := bind_eq_ok.1 h2
    injection h4 with h4; injection h4 with _ h4
    subst h4
    rw [List.length_cons, decodeN_count h3]

/-- **C55**: arrays of any items, lists and maps with more elements than a count
can say are never decoded, from any input. -/
theorem C55_decoded_count (env : Env) (input rest : Bytes) :
    (∀ {α : Type} [DecodeF α] (v : Vec α), decode (Vec α) env input = .ok (rest, v) →
      v.items.length < 2 ^ 32) ∧
    (∀ v : VList, decode VList env input = .ok (rest, v) → v.items.length < 2 ^ 32) ∧
    (∀ v : VecVariantMap, decode VecVariantMap env input = .ok (rest, v) →
      v.entries.length < 2 ^ 31) ∧
    (∀ {K V : Type} [HKey K] [DecodeF K] [DecodeF V] (m : HMap K V),
      decode (HMap K V) env input = .ok (rest, m) → m.entries.length < 2 ^ 31) := by
  refine ⟨fun v h => ?_, fun v h => ?_, fun v h => ?_, fun m h => ?_⟩
  · obtain ⟨c, t, _, h⟩ := decode_ok h
    obtain ⟨r1, hdr, h1, h2⟩ := bind_eq_ok.1 h
    obtain ⟨r2, f, _, h3⟩ := bind_eq_ok.1 h2
    obtain ⟨r3, l, h4, h5⟩ := bind_eq_ok.1 h3
    injection h5 with h5; injection h5 with _ h5
    subst h5
    show l.length < 2 ^ 32
    rw [decodeN_count h4]
    exact (arrayHeader_count h1).1
  · obtain ⟨c, t, _, h⟩ := decode_ok h
    obtain ⟨l, h1, rfl⟩ := map_eq_ok.1 h
    obtain ⟨r1, hdr, h2, h3⟩ := bind_eq_ok.1 h1
    show l.length < 2 ^ 32
    rw [decodeN_count h3]
    exact listHeader_count h2
  · obtain ⟨c, t, _, h⟩ := decode_ok h
    obtain ⟨r1, hdr, h1, h2⟩ := bind_eq_ok.1 h
    obtain ⟨l, h3, rfl⟩ := map_eq_ok.1 h2
    obtain ⟨_, _, r', h4⟩ := withSlice_ok h3
    have h5 := mapHeader_count h1
    show l.length < 2 ^ 31
    rw [decodeN_count h4]
    omega
  · obtain ⟨c, t, _, h⟩ := decode_ok h
    obtain ⟨l, h1, rfl⟩ := map_eq_ok.1 h
    obtain ⟨r1, hdr, h2, h3⟩ := bind_eq_ok.1 h1
    obtain ⟨_, _, r', h4⟩ := withSlice_ok h3
    have h5 := (mapLoop_shape h4).1
    have h6 := mapHeader_count h2
    simp only [List.length_nil] at h5
    show l.length < 2 ^ 31
    omega

example : decode (HMap Str Variant) debugEnv [0xc1, 5, 2, 0xa1, 1, 97, 0x40] =
    .ok ([], ⟨[(.lit "a", .null)]⟩) := by rfl

/-! ### What happens to larger ones -/

/-- **C55** (full statement): what was written is decoded to the value or
refused, whatever its size. -/
def C55_statement : Prop := ∀ (env : Env) (b : Binary) (rest : Bytes),
  decode Binary env (enc b ++ rest) = .ok (rest, b) ∨
    ∃ e, decode Binary env (enc b ++ rest) = .err e

theorem readBytesU32_long (b rest : Bytes) :
    readBytesU32 (beEnc 4 b.length ++ b ++ rest) =
      .ok (b.drop (b.length % 2 ^ 32) ++ rest, b.take (b.length % 2 ^ 32)) := by
  have hle := Nat.mod_le b.length (2 ^ 32)
  unfold readBytesU32
  rw [List.append_assoc]
  have h1 : readBE 4 (beEnc 4 b.length ++ (b ++ rest)) = .ok (b ++ rest, b.length % 2 ^ 32) := by
    unfold readBE
    have := (Reads.takeN (beEnc 4 b.length) (beEnc_length 4 b.length)).map beDec (b ++ rest)
    rw [beDec_beEnc] at this
    exact this
  rw [Dec.bind_ok h1]
  have h2 := Reads.takeN (b.take (b.length % 2 ^ 32)) (n := b.length % 2 ^ 32)
    (by rw [List.length_take]; omega) (b.drop (b.length % 2 ^ 32) ++ rest)
  rw [← List.append_assoc, List.take_append_drop] at h2
  exact h2

/-- **C55 violated**: a binary of 4 GiB or more is decoded, without an error, to
its first bytes only, as many as its length modulo 2^32; the others are taken for
what follows it. -/
theorem C55_violated_binary (env : Env) (b : Binary) (h : 2 ^ 32 ≤ b.data.length) (rest : Bytes) :
    decode Binary env (enc b ++ rest) =
      .ok (b.data.drop (b.data.length % 2 ^ 32) ++ rest, ⟨b.data.take (b.data.length % 2 ^ 32)⟩) := by
  have e : enc b = FC.binary32 :: (beEnc 4 b.data.length ++ b.data) := by
    show varEnc _ _ _ = _
    unfold varEnc
    rw [if_pos (by omega)]; rfl
  rw [e]
  show (Binary.mk <$> readBytesU32) (beEnc 4 b.data.length ++ b.data ++ rest) = _
  exact map_ok (readBytesU32_long _ _)

/-- **C55 violated**: the same for strings, where the first bytes may end inside a
character, which is refused. -/
theorem C55_violated_string (env : Env) (s : Str) (h : 2 ^ 32 ≤ s.bytes.length) (rest : Bytes) :
    decode Str env (enc s ++ rest) = fromUtf8 (s.bytes.take (s.bytes.length % 2 ^ 32))
      (s.bytes.drop (s.bytes.length % 2 ^ 32) ++ rest) := by
  have e : enc s = FC.string32 :: (beEnc 4 s.bytes.length ++ s.bytes) := by
    show varEnc _ _ _ = _
    unfold varEnc
    rw [if_pos (by omega)]; rfl
  rw [e]
  show (readBytesU32 >>= fromUtf8) (beEnc 4 s.bytes.length ++ s.bytes ++ rest) = _
  exact Dec.bind_ok (readBytesU32_long _ _)

/-- Values of that size exist. -/
theorem C55_violated : ¬ C55_statement := by
  intro h
  have key : ∀ n, n = 2 ^ 32 → False := by
    intro n hn
    have hl : (Binary.mk (List.replicate n 0)).data.length = n := by simp
    have hv := C55_violated_binary debugEnv ⟨List.replicate n 0⟩ (by rw [hl]; omega) []
    rcases h debugEnv ⟨List.replicate n 0⟩ [] with h | ⟨e, h⟩
    · rw [hv] at h
      injection h with h; injection h with h _
      have := congrArg List.length h
      simp only [List.length_append, List.length_drop, List.length_nil, hl] at this
      omega
    · rw [hv] at h; cases h
  exact key _ rfl

/-! ### Frames -/

theorem beEnc_add (n : Nat) : ∀ k, k ≤ 4 → beEnc k (n + 2 ^ 32) = beEnc k n
  | 0, _ => rfl
  | k + 1, hk => by
    rw [beEnc, beEnc, beEnc_add n k (by omega)]
    congr 1
    apply UInt8.toNat_inj.1
    rw [UInt8.toNat_ofNat', UInt8.toNat_ofNat']
    have : (2 : Nat) ^ 32 = 256 ^ k * (256 * 256 ^ (3 - k)) := by
      rw [← Nat.pow_succ', ← Nat.pow_add, show k + (3 - k + 1) = 4 by omega]
    rw [this, Nat.add_mul_div_left _ _ (Nat.pow_pos (by omega))]
    omega

/-- A transfer with the given payload. -/
def transferOf (c : UInt16) (p : TransferPerf) (payload : Bytes) : AmqpFrame :=
  ⟨c, .Transfer { p with body := some (.Data ⟨payload⟩) }⟩

theorem enc_transferOf (c : UInt16) (p : TransferPerf) (payload : Bytes) :
    enc (transferOf c p payload) = frameHeader (8 + (size p + payload.length)) frameTypeAmqp c ++
      (enc p ++ payload) := rfl

/-- **C55 violated**: a frame of 4 GiB or more is written with a length that is
2^32 too small (or more).  The receiver returns a transfer with the beginning of
the payload, and goes on to read the rest of the payload, which the sender of the
message chose, as frames. -/
theorem C55_violated_frame (env : Env) (c : UInt16) (p : TransferPerf) (first inner rest : Bytes)
    (hp : RoundTrips env p) (h1 : first ≠ []) (h2 : inner.length = 2 ^ 32)
    (hs : (enc (transferOf c p first)).length < 2 ^ 32) :
    codecDecode env (AmqpFrame.decode env) .frameHeader
      (enc (transferOf c p (first ++ inner)) ++ rest) =
        ⟨.frameHeader, inner ++ rest, .some (transferOf c p first)⟩ := by
  have e : enc (transferOf c p (first ++ inner)) = enc (transferOf c p first) ++ inner := by
    rw [enc_transferOf, enc_transferOf, List.length_append, h2]
    unfold frameHeader
    rw [show 8 + (size p + (first.length + 2 ^ 32)) = 8 + (size p + first.length) + 2 ^ 32 by omega,
      beEnc_add _ 4 (by omega)]
    simp
  have hc := C26_amqp env (transferOf c p first) hp
    (fun t b ht hb => by
      injection ht with ht; subst ht
      injection hb with hb; subst hb
      exact ⟨_, rfl, h1⟩)
  rw [e, List.append_assoc, frame_wire (hc.2 hs), hc.1]
  rfl

example : RoundTrips debugEnv TransferPerf.sample ∧
    (enc (transferOf 1 TransferPerf.sample [1])).length < 2 ^ 32 :=
  ⟨C21_transfer _ _ (by decide) (fun _ => rfl), by decide⟩
example : ∃ inner : Bytes, inner.length = 2 ^ 32 :=
  have key : ∀ n, ∃ b : Bytes, b.length = n := fun n => ⟨List.replicate n 0, by simp⟩
  key _

example (b : Binary) (h : b.data.length = 2 ^ 32 + 1) :
    decode Binary debugEnv (enc b ++ [7]) = .ok (b.data.drop 1 ++ [7], ⟨b.data.take 1⟩) := by
  have := C55_violated_binary debugEnv b (by omega) [7]
  rw [h] at this
  exact this

end Amqp
