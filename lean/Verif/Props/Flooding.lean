import Verif.FxHash
import Verif.Proofs.Collisions
import Verif.Props.Values
import Verif.Props.Frames
import Verif.Props.Performatives
/-!
# C77: comparisons of keys while decoding maps

Decoding a map inserts the entries one after the other into a hash table.  How many
keys are compared depends on the keys having different hashes, and these are chosen
by the peer.
-/
set_option autoImplicit false
namespace Amqp
open Dec
open StrRepr (HashWrite strHash)

/-- `c` comparisons of keys are possible when `input` is decoded as a map: reading
its pairs and inserting them one after the other into a hash table. -/
def MapWork {K V H : Type} [HashKey K] [DecodeF K] [DecodeF V]
    (hasher : Option (List HashWrite) → H) (env : Env) (input : Bytes) (c : Nat) : Prop :=
  ∃ (fmt : UInt8) (t : Bytes) (header : CompoundHeader) (body r' : Bytes) (pairs l : List (K × V)),
    input = fmt :: t ∧ decodeMapHeader env fmt t = .ok (body, header) ∧
    decodeN (decodePairs (decode K env) (decode V env)) (header.count / 2)
      (body.take header.size) = .ok (r', pairs) ∧ TableWork hasher [] pairs l c

/-- **C77**, in full: at most `k` comparisons per byte of input. -/
def C77_statement {H : Type} (hasher : Option (List HashWrite) → H) (k : Nat) : Prop :=
  ∀ (env : Env) (input rest : Bytes) (m : Fields) (c : Nat),
    decode Fields env input = .ok (rest, m) →
    MapWork (K := Symbol) (V := Variant) hasher env input c → c ≤ k * input.length

section
variable {K V H : Type} [HashKey K] {hasher : Option (List HashWrite) → H}

/-- **C77**: `n` insertions compare at most `n(n-1)/2` keys, whatever the hash function. -/
theorem C77_insertions_partial {pairs l : List (K × V)} {c : Nat}
    (h : TableWork hasher [] pairs l c) : 2 * c ≤ pairs.length * (pairs.length - 1) := by
  simpa using h.le

/-- **C77**: keys of different hashes can be stored without comparing any. -/
theorem C77_spread_partial (pairs : List (K × V))
    (h : pairs.Pairwise fun a b => hasher (HashKey.hash a.1) ≠ hasher (HashKey.hash b.1)) :
    ∃ l, TableWork hasher [] pairs l 0 := work_free pairs [] (by simpa using h)

omit [HashKey K] in
theorem decodeN_pairs_length [DecodeF K] [DecodeF V] [LawfulDec K] [LawfulDec V] (env : Env) :
    ∀ n i r (pairs : List (K × V)),
      decodeN (decodePairs (decode K env) (decode V env)) n i = .ok (r, pairs) →
      2 * pairs.length + r.length ≤ i.length
  | 0, i, r, pairs, h => by
    injection h with h; injection h with h1 h2
    subst h1 h2; simp
  | n + 1, i, r, pairs, h => by
    obtain ⟨r1, p, h1, h2⟩ := bind_eq_ok.1 h
    obtain ⟨r2, t, h3, h4⟩ := bind_eq_ok.1 h2
    injection h4 with h4; injection h4 with h5 h6
    subst h5 h6
    have ih := decodeN_pairs_length env n _ _ _ h3
    obtain ⟨r3, k, h7, h8⟩ := bind_eq_ok.1 h1
    obtain ⟨r4, v, h9, h10⟩ := bind_eq_ok.1 h8
    injection h10 with h10; injection h10 with h11 _
    subst h11
    obtain ⟨c1, t1, rfl, h12⟩ := decode_ok h7
    obtain ⟨c2, t2, rfl, h13⟩ := decode_ok h9
    obtain ⟨u1, e1, _⟩ := LawfulDec.loc _ _ _ _ _ h12
    obtain ⟨u2, e2, _⟩ := LawfulDec.loc _ _ _ _ _ h13
    subst e2
    rw [e1]
    simp at ih ⊢
    omega

/-- **C77**: decoding a map compares at most about an eighth of the square of the
length of the input, whatever the hash function. -/
theorem C77_map_partial [DecodeF K] [DecodeF V] [LawfulDec K] [LawfulDec V] (env : Env)
    (input : Bytes) (c : Nat) (h : MapWork (K := K) (V := V) hasher env input c) :
    8 * c ≤ input.length * input.length := by
  obtain ⟨fmt, t, header, body, r', pairs, l, rfl, h1, h2, h3⟩ := h
  have h4 := decodeN_pairs_length env _ _ _ _ h2
  have h5 := C77_insertions_partial h3
  have h6 : body.length ≤ t.length := by
    have := (Local.decodeMapHeader env fmt) _ _ _ h1
    obtain ⟨u, e, _⟩ := this
    rw [e]; simp
  have h7 : 2 * pairs.length ≤ (fmt :: t).length := by
    have := List.length_take_le header.size body
    simp only [List.length_cons]
    have := List.length_take_le' header.size body
    omega
  have h8 : pairs.length * (pairs.length - 1) ≤ pairs.length * pairs.length :=
    Nat.mul_le_mul_left _ (by omega)
  have h9 := Nat.mul_le_mul h7 h7
  have h10 : 2 * pairs.length * (2 * pairs.length) = 4 * (pairs.length * pairs.length) := by
    rw [Nat.mul_assoc, Nat.mul_left_comm pairs.length 2, ← Nat.mul_assoc]
  omega

/-- The comparisons made while decoding a map whose keys all have one hash. -/
theorem work_colliding [LawfulHash K] [DecodeF K] [DecodeF V] {env : Env} {input r : Bytes}
    {m : HMap K V} {x : H} {c : Nat} (h : decode (HMap K V) env input = .ok (r, m))
    (hx : ∀ e ∈ m.entries, hasher (HashKey.hash e.1) = x)
    (hw : MapWork (K := K) (V := V) hasher env input c) :
    m.entries.length * (m.entries.length - 1) ≤ 2 * c := by
  obtain ⟨fmt, t, header, body, r', pairs, l, rfl, h1, h2, h3⟩ := hw
  obtain ⟨header', body', pairs', r'', h1', h2', _, h4⟩ := C54_decode env fmt t r m h
  rw [h1] at h1'
  injection h1' with h1'; injection h1' with e1 e2
  subst e1 e2
  rw [h2] at h2'
  injection h2' with h2'; injection h2' with _ e3
  subst e3
  have p := h4 H hasher l h3.run
  have := h3.ge (x := x) (fun e he => hx e (p.mem_iff.1 he))
  simpa [p.length_eq] using this

/-- Decoding a map takes some number of comparisons. -/
theorem work_possible [LawfulHash K] [DecodeF K] [DecodeF V] (hasher : Option (List HashWrite) → H)
    {env : Env} {input r : Bytes} {m : HMap K V} (h : decode (HMap K V) env input = .ok (r, m)) :
    ∃ c, MapWork (K := K) (V := V) hasher env input c := by
  obtain ⟨fmt, t, rfl, h'⟩ := decode_ok h
  obtain ⟨header, body, pairs, r', h1, h2, _, _⟩ := C54_decode env fmt t r m h'
  obtain ⟨l, c, h3⟩ := work_exists (hasher := hasher) pairs []
  exact ⟨c, fmt, t, header, body, r', pairs, l, rfl, h1, h2, h3⟩

end

/-! ### Any hash function of 64 bits -/

/-- Properties with fourteen-character names and no values. -/
def namedAs (l : List Nat) : Fields := ⟨l.map fun i => (numbered i, .null)⟩

theorem namedAs_size : ∀ l : List Nat, mapContentSize size size (namedAs l).entries = 17 * l.length
  | [] => rfl
  | i :: t => by
    show size (numbered i) + size Variant.null + mapContentSize size size (namedAs t).entries = _
    rw [namedAs_size t]
    have : size (numbered i) = 16 := by
      rw [LawfulEnc.size_eq (numbered i)]
      show (varEnc _ _ (digits 14 i)).length = 16
      rw [varEnc_length, digits_length]; rfl
    rw [this]
    show 16 + 1 + _ = _
    simp only [List.length_cons]; omega

theorem namedAs_length (l : List Nat) : (enc (namedAs l)).length ≤ 17 * l.length + 9 := by
  rw [← LawfulEnc.size_eq (namedAs l)]
  show compoundSize (mapContentSize size size (namedAs l).entries) ≤ _
  rw [namedAs_size]
  unfold compoundSize
  split <;> omega

theorem namedAs_nodup {l : List Nat} (hn : l.Nodup) (hl : ∀ i ∈ l, i < 128 ^ 14) :
    NodupKeys (namedAs l).entries := by
  induction l with
  | nil => exact List.Pairwise.nil
  | cons i t ih =>
    have h1 := List.nodup_cons.1 hn
    refine List.Pairwise.cons (fun e he => ?_) (ih h1.2 fun j hj => hl j (by simp [hj]))
    obtain ⟨j, hj, rfl⟩ := List.mem_map.1 he
    show (numbered j == numbered i) = false
    rw [beq_eq_false_iff_ne]
    intro e
    have := numbered_inj (hl i (by simp)) (hl j (by simp [hj])) e.symm
    subst this
    exact h1.1 hj

theorem null_round_trip {env : Env} (hd : 0 < env.stackDepth) : RoundTrips env Variant.null := by
  intro rest
  show decVar env env.stackDepth _ = _
  obtain ⟨n, hn⟩ : ∃ n, env.stackDepth = n + 1 := ⟨env.stackDepth - 1, by omega⟩
  rw [hn]; rfl

theorem namedAs_round_trip {env : Env} (hd : 0 < env.stackDepth) {l : List Nat} (hn : l.Nodup)
    (hl : ∀ i ∈ l, i < 128 ^ 14) (hs : l.length < 2 ^ 27) : RoundTrips env (namedAs l) := by
  have hlen := namedAs_length l
  refine C16_same_order LawfulEnc.size_eq LawfulEnc.size_eq env (namedAs l) (fun e he => ?_)
    (namedAs_nodup hn hl) (fun e he => ?_) (by omega)
  · rfl
  · obtain ⟨j, hj, rfl⟩ := List.mem_map.1 he
    refine ⟨SmallRT.rt env (numbered j) ?_, null_round_trip hd⟩
    show (varEnc _ _ (digits 14 j)).length < _
    rw [varEnc_length, digits_length]; decide

/-- Properties whose names all have one hash. -/
theorem colliding_names {H : Type} (hasher : Option (List HashWrite) → H) (code : H → Nat)
    (hc : ∀ a b, code a = code b → a = b) (hM : ∀ a, code a < 2 ^ 64) (n : Nat) (hn : n < 2 ^ 27) :
    ∃ (l : List Nat) (x : H), l.length = n ∧ l.Nodup ∧ (∀ i ∈ l, i < 128 ^ 14) ∧
      ∀ e ∈ (namedAs l).entries, hasher (HashKey.hash e.1) = x := by
  obtain ⟨l, x, h1, h2, h3⟩ := same_value (fun i => hasher (HashKey.hash (numbered i))) code
    (2 ^ 64) n hc hM
  refine ⟨l, x, h1, h2, fun i hi => ?_, fun e he => ?_⟩
  · have := (h3 i hi).1
    omega
  · obtain ⟨j, hj, rfl⟩ := List.mem_map.1 he
    exact (h3 j hj).2

/-- **C77** fails for every fixed hash function of 64 bits: for every `n` below `2^27`
there are properties of `n` entries, written in at most `17 n + 9` bytes, whose
decoding compares at least `n(n-1)/2` keys. -/
theorem C77_violated_any {H : Type} (hasher : Option (List HashWrite) → H) (code : H → Nat)
    (hc : ∀ a b, code a = code b → a = b) (hM : ∀ a, code a < 2 ^ 64) (n : Nat) (hn : n < 2 ^ 27)
    (env : Env) (hd : 0 < env.stackDepth) :
    ∃ m : Fields, m.entries.length = n ∧ (enc m).length ≤ 17 * n + 9 ∧
      decode Fields env (enc m) = .ok ([], m) ∧
      (∃ c, MapWork (K := Symbol) (V := Variant) hasher env (enc m) c) ∧
      ∀ c, MapWork (K := Symbol) (V := Variant) hasher env (enc m) c → n * (n - 1) ≤ 2 * c := by
  obtain ⟨l, x, h1, h2, h3, h4⟩ := colliding_names hasher code hc hM n hn
  have hr := namedAs_round_trip hd h2 h3 (by omega) []
  rw [List.append_nil] at hr
  have hl : (namedAs l).entries.length = n := by simpa [namedAs] using h1
  refine ⟨namedAs l, hl, h1 ▸ namedAs_length l, hr, work_possible hasher hr, fun c hw => ?_⟩
  have := work_colliding hr h4 hw
  rwa [hl] at this

/-- **C77** fails: no hash function of 64 bits limits the comparisons to `k` per byte
of input, for any `k` up to a million. -/
theorem C77_violated {H : Type} (hasher : Option (List HashWrite) → H) (code : H → Nat)
    (hc : ∀ a b, code a = code b → a = b) (hM : ∀ a, code a < 2 ^ 64) (k : Nat) (hk : k ≤ 1000000) :
    ¬ C77_statement hasher k := by
  intro h
  obtain ⟨m, _, h2, h3, ⟨c, h4⟩, h5⟩ := C77_violated_any hasher code hc hM (52 * k + 2) (by omega)
    debugEnv (by decide)
  have h6 := h debugEnv _ _ m c h3 h4
  have h7 := h5 c h4
  have h8 := Nat.mul_le_mul_left k h2
  have h9 : (52 * k + 2) * (52 * k + 2 - 1) = 2704 * (k * k) + 156 * k + 2 := by
    rw [show 52 * k + 2 - 1 = 52 * k + 1 by omega, Nat.add_mul, Nat.mul_add, Nat.mul_mul_mul_comm]
    omega
  have h10 : k * (17 * (52 * k + 2) + 9) = 884 * (k * k) + 43 * k := by
    rw [show 17 * (52 * k + 2) + 9 = 884 * k + 43 by omega, Nat.mul_add, Nat.mul_left_comm]
    omega
  omega

/-- **C77** fails for the first frame of a connection: an `open` frame of at most
`17 n + 41` bytes whose properties take `n(n-1)/2` comparisons. -/
theorem C77_violated_open {H : Type} (hasher : Option (List HashWrite) → H) (code : H → Nat)
    (hc : ∀ a b, code a = code b → a = b) (hM : ∀ a, code a < 2 ^ 64) (n : Nat) (hn : n < 2 ^ 27)
    (env : Env) (hd : 0 < env.stackDepth) :
    ∃ (o : Open) (m : Fields), o.properties = some m ∧ m.entries.length = n ∧
      (enc (⟨0, .Open o⟩ : AmqpFrame)).length ≤ 17 * n + 41 ∧
      AmqpFrame.decode env ((enc (⟨0, .Open o⟩ : AmqpFrame)).drop 4) = .ok ([], ⟨0, .Open o⟩) ∧
      ∀ pairs l c, TableWork hasher [] pairs l c → l.Perm m.entries → n * (n - 1) ≤ 2 * c := by
  obtain ⟨l, x, h1, h2, h3, h4⟩ := colliding_names hasher code hc hM n hn
  have hl : (namedAs l).entries.length = n := by simpa [namedAs] using h1
  have hlen := namedAs_length l
  let o : Open :=
    ⟨.lit "", none, 0, 0, none, none, none, none, none, some (namedAs l)⟩
  have ho : (enc o).length ≤ 17 * n + 33 := by
    show (listHdr 16 _ 10 ++ (enc o.container_id ++ enc o.hostname ++ enc o.max_frame_size ++ enc o.channel_max ++ enc o.idle_time_out ++ enc o.outgoing_locales ++ enc o.incoming_locales ++ enc o.offered_capabilities ++ enc o.desired_capabilities ++ enc (namedAs l))).length ≤ _
    simp only [List.length_append]
    have e1 : (enc o.container_id).length = 2 := rfl
    have e2 : (enc o.hostname).length = 1 := rfl
    have e3 : (enc o.max_frame_size).length = 1 := rfl
    have e4 : (enc o.channel_max).length = 3 := rfl
    have e5 : (enc o.idle_time_out).length = 1 := rfl
    have e6 : (enc o.outgoing_locales).length = 1 := rfl
    have e7 : (enc o.incoming_locales).length = 1 := rfl
    have e8 : (enc o.offered_capabilities).length = 1 := rfl
    have e9 : (enc o.desired_capabilities).length = 1 := rfl
    have hh : ∀ b, (listHdr 16 b 10).length ≤ 12 := fun b => by
      rw [listHdr, List.length_append, show (enc (Descriptor.ulong 16)).length = 3 from rfl, compoundHdr]
      split <;> simp
    have e0 := hh (size o.container_id + size o.hostname + size o.max_frame_size +
      size o.channel_max + size o.idle_time_out + size o.outgoing_locales +
      size o.incoming_locales + size o.offered_capabilities + size o.desired_capabilities +
      size o.properties)
    omega
  have hrt : RoundTrips env o := C21_open env o (by omega) (fun _ => rfl) (fun _ => rfl)
    (fun _ => rfl) (fun _ => rfl) (roundTrips_some (namedAs_round_trip hd h2 h3 (by omega)))
  refine ⟨o, namedAs l, rfl, hl, ?_, (C26_amqp env ⟨0, .Open o⟩ hrt (fun _ _ h => by cases h)).1,
    fun pairs l' c hw hp => ?_⟩
  · rw [amqpFrame_enc, List.length_append, frameHeader_length]
    show 8 + (enc o).length ≤ _
    omega
  · have := hw.ge (x := x) (fun e he => h4 e (hp.mem_iff.1 he))
    simpa [hp.length_eq, hl] using this

/-! ### The hash function in use -/

/-- The eight bytes of a word. -/
def fxWord (w : UInt64) : Bytes := (beEnc 8 w.toNat).reverse

theorem fxRead_word (w : UInt64) : fxRead (fxWord w) = w := by
  unfold fxRead fxWord
  rw [List.reverse_reverse, beDec_beEnc, show 256 ^ 8 = 2 ^ 64 by decide,
    Nat.mod_eq_of_lt w.toNat_lt, UInt64.ofNat_toNat]

theorem fxBytes_word (h w : UInt64) (t : Bytes) : fxBytes h (fxWord w ++ t) = fxBytes (fxAdd h w) t := by
  have e := fxRead_word w
  have hl : (fxWord w).length = 8 := by simp [fxWord]
  generalize fxWord w = b at e hl
  match b, hl with
  | [a, b, c, d, e', f, g, i], _ =>
    show fxBytes (fxAdd h (fxRead [a, b, c, d, e', f, g, i])) t = _
    rw [e]

/-- The state of the hasher once discriminant and length of a sixteen-byte binary have
been written. -/
def fxStart : UInt64 := fxWrite (fxWrite 0 (.tag 15)) (.len 16)

/-- Sixteen bytes with hash zero, for every choice of the first eight. -/
def fxKey (a : UInt64) : Variant :=
  .binary ⟨fxWord a ++ fxWord ((fxAdd fxStart a <<< 5) ||| (fxAdd fxStart a >>> 59))⟩

theorem fxKey_hash (a : UInt64) : fxHash (HashKey.hash (fxKey a)) = 0 := by
  have hl : ∀ w w', (fxWord w ++ fxWord w').length = 16 := fun w w' => by simp [fxWord]
  show fxHash (some [.tag 15, .len _, .bytes _]) = 0
  rw [hl]
  show fxBytes fxStart _ = 0
  rw [fxBytes_word]
  have := fxBytes_word (fxAdd fxStart a) ((fxAdd fxStart a <<< 5) ||| (fxAdd fxStart a >>> 59)) []
  rw [List.append_nil] at this
  rw [this]
  show fxTail (fxAdd _ _) [] = 0
  unfold fxAdd
  simp [fxTail]

theorem fxKey_inj {a b : UInt64} (h : fxKey a = fxKey b) : a = b := by
  unfold fxKey at h
  injection h with h; injection h with h
  have := (List.append_inj h (by simp [fxWord])).1
  rw [← fxRead_word a, this, fxRead_word b]

/-- A map with such keys and no values. -/
def flood (n : Nat) : Map := ⟨(List.range n).map fun i => (fxKey (UInt64.ofNat i), .null)⟩

theorem fxKey_size (a : UInt64) : size (fxKey a) = 18 := by
  rw [LawfulEnc.size_eq]
  show (varEnc FC.binary8 FC.binary32 (fxWord _ ++ fxWord _)).length = 18
  rw [varEnc_length]
  simp [fxWord, varSize]

theorem flood_size : ∀ l : List Nat, mapContentSize size size
    (l.map fun i => (fxKey (UInt64.ofNat i), Variant.null)) = 19 * l.length
  | [] => rfl
  | i :: t => by
    show size (fxKey (UInt64.ofNat i)) + size Variant.null + mapContentSize size size
      (t.map fun i => (fxKey (UInt64.ofNat i), Variant.null)) = _
    rw [flood_size t]
    rw [fxKey_size]
    show 18 + 1 + _ = _
    simp only [List.length_cons]; omega

theorem flood_length (n : Nat) : (enc (flood n)).length ≤ 19 * n + 9 := by
  rw [← LawfulEnc.size_eq (flood n)]
  show compoundSize (mapContentSize size size (flood n).entries) ≤ _
  unfold flood
  rw [flood_size, List.length_range]
  unfold compoundSize
  split <;> omega

theorem flood_round_trip {env : Env} (hd : 0 < env.stackDepth) {n : Nat} (hn : n < 2 ^ 27) :
    RoundTrips env (flood n) := by
  have hlen := flood_length n
  refine C16_same_order LawfulEnc.size_eq LawfulEnc.size_eq env (flood n) (fun e he => ?_) ?_
    (fun e he => ?_) (by omega)
  · obtain ⟨j, hj, rfl⟩ := List.mem_map.1 he; rfl
  · show List.Pairwise _ _
    refine List.pairwise_map.2 ?_
    refine List.Pairwise.imp_of_mem ?_ List.nodup_range
    intro i j hi hj hne
    have hi' := List.mem_range.1 hi
    have hj' := List.mem_range.1 hj
    show HKey.keq (fxKey (UInt64.ofNat j)) (fxKey (UInt64.ofNat i)) = false
    cases hq : HKey.keq (fxKey (UInt64.ofNat j)) (fxKey (UInt64.ofNat i)) with
    | false => rfl
    | true =>
      have h1 := (veq_iff_norm _ rfl _).1 hq
      have h2 : fxKey (UInt64.ofNat j) = fxKey (UInt64.ofNat i) := h1
      have h3 := congrArg UInt64.toNat (fxKey_inj h2)
      rw [UInt64.toNat_ofNat', UInt64.toNat_ofNat'] at h3
      omega
  · obtain ⟨j, hj, rfl⟩ := List.mem_map.1 he
    refine ⟨?_, null_round_trip hd⟩
    refine C14_round_trip_partial env _ trivial ?_ hd
    rw [← LawfulEnc.size_eq, fxKey_size]; decide

/-- **C77** fails with the hash function in use, for keys that are easily computed:
`n` keys of sixteen bytes, for every `n` below `2^27`. -/
theorem C77_violated_fx (n : Nat) (hn : n < 2 ^ 27) (env : Env) (hd : 0 < env.stackDepth) :
    (enc (flood n)).length ≤ 19 * n + 9 ∧
    decode Map env (enc (flood n)) = .ok ([], flood n) ∧
    (∃ c, MapWork (K := Variant) (V := Variant) fxHash env (enc (flood n)) c) ∧
    ∀ c, MapWork (K := Variant) (V := Variant) fxHash env (enc (flood n)) c → n * (n - 1) ≤ 2 * c := by
  have hr := flood_round_trip hd hn []
  rw [List.append_nil] at hr
  refine ⟨flood_length n, hr, work_possible fxHash hr, fun c hw => ?_⟩
  have := work_colliding (x := 0) hr (fun e he => ?_) hw
  · simpa [flood] using this
  · obtain ⟨j, hj, rfl⟩ := List.mem_map.1 he
    exact fxKey_hash _

/-- **C77**: two such keys, byte for byte. -/
theorem C77_violated_keys :
    fxHash (HashKey.hash (Variant.binary ⟨[0, 0, 0, 0, 0, 0, 0, 0, 78, 111, 128, 181, 114, 54, 228, 152]⟩)) = 0 ∧
    fxHash (HashKey.hash (Variant.binary ⟨[1, 0, 0, 0, 0, 0, 0, 0, 248, 193, 193, 153, 87, 109, 124, 200]⟩)) = 0 := by
  decide +kernel

/-! ### Examples -/

/-- Two keys with the same hash, in the hash function in use. -/
example : fxKey 1 ≠ fxKey 2 ∧ fxHash (HashKey.hash (fxKey 1)) = fxHash (HashKey.hash (fxKey 2)) :=
  ⟨fun h => absurd (fxKey_inj h) (by decide), by rw [fxKey_hash, fxKey_hash]⟩
/-- Usual keys have different hashes and need not be compared. -/
example : ∃ l, TableWork fxHash [] [((⟨.lit "product"⟩ : Symbol), (1 : UInt8)), (⟨.lit "version"⟩, 2)] l 0 :=
  C77_spread_partial _ (.cons (by simp; decide +kernel) (.cons (by simp) .nil))
/-- A table of two equal hashes has compared the keys. -/
example (l : List (Symbol × UInt8)) (c : Nat)
    (h : TableWork (fun _ => ()) [] [(⟨.lit "a"⟩, 1), (⟨.lit "b"⟩, 2)] l c) : 2 * c ≤ 2 :=
  C77_insertions_partial h
/-- A thousand keys, in less than twenty kilobytes, take half a million comparisons. -/
example (c : Nat) (h : MapWork (K := Variant) (V := Variant) fxHash debugEnv (enc (flood 1000)) c) :
    499500 ≤ c := by
  have := (C77_violated_fx 1000 (by decide) debugEnv (by decide)).2.2.2 c h
  omega
/-- Hash functions whose values are numbers below `2^64`: the one in use. -/
example : ¬ C77_statement fxHash 1000 :=
  C77_violated fxHash UInt64.toNat (fun _ _ h => UInt64.toNat.inj h) UInt64.toNat_lt 1000 (by decide)

example (env : Env) (hd : 0 < env.stackDepth) : ∃ (o : Open) (m : Fields), o.properties = some m ∧
    m.entries.length = 1000 ∧ (enc (⟨0, .Open o⟩ : AmqpFrame)).length ≤ 17041 :=
  have ⟨o, m, h1, h2, h3, _⟩ := C77_violated_open fxHash UInt64.toNat (fun _ _ h => UInt64.toNat.inj h)
    UInt64.toNat_lt 1000 (by decide) env hd
  ⟨o, m, h1, h2, h3⟩

end Amqp
